import Verif.Lemmas.Lines
/-
Which calls log whole messages: how long the texts of exceptions are.
-/
namespace Eip
open Spec

/-- A `length_error` or `logic_error` with a text of at most `n` bytes, or another exception. -/
def Brief (n : Nat) (e : Exn) : Prop := e.kind.isA .logicError = true → e.what.utf8ByteSize ≤ n

theorem isA_logic {k : ExnKind} (h : k.isA .lengthError = true) : k.isA .logicError = true := by
  cases k <;> first | rfl | exact nomatch h

namespace Throws
variable {σ τ α β δ : Type} {P : Exn → Prop}

theorem mono {Q : Exn → Prop} {p : Prog σ α} (h : Throws P p) (hq : ∀ e, P e → Q e) : Throws Q p :=
  fun s e s' he => hq e (h s e s' he)

theorem get : Throws P (Prog.get : Prog σ σ) := by
  intro s e s' h
  cases h

theorem modify (f : σ → σ) : Throws P (Prog.modify f) := by
  intro s e s' h
  cases h

/-- The exception of a `BufferWriter` without room. -/
def full : Exn := lengthError "Buffer to small to serialize value"

theorem write (hP : P full) (b : Bytes) : Throws P (Writer.writeBuffer b) := by
  rintro (bw | sw) e s' h
  · simp only [Writer.writeBuffer, BufferWriter.writeBuffer] at h
    split at h <;> cases h
    exact hP
  · exfalso
    simp only [Writer.writeBuffer] at h
    rcases hq : StreamWriter.writeBuffer b sw with ⟨r, sw'⟩
    rw [hq] at h
    cases h
    rw [StreamWriter.writeBuffer] at hq
    split at hq
    · cases hq
    · split at hq
      · cases hq
      · split at hq <;> cases hq

theorem encapHeader (hP : P full) (h : EncapHeader) : Throws P h.serialize :=
  bind (write hP _) fun _ => bind (write hP _) fun _ => bind (write hP _) fun _ => bind (write hP _) fun _ =>
    bind (write hP _) fun _ => write hP _

/-- Throws of an object that may be missing. -/
def Of (P : Exn → Prop) (d : Option Obj) : Prop := ∀ o, d = some o → Throws P o.serialize

theorem optional {d : Option Obj} (h : Of P d) :
    Throws P (match d with | some d => d.serialize | none => Pure.pure ()) := by
  cases d with
  | none => exact pure ()
  | some d => exact h d rfl

theorem encapPacket (hP : P full) (p : EncapPacket) (h : Of P p.payload) : Throws P p.serialize :=
  bind (encapHeader hP _) fun _ => optional h

theorem pad (hP : P full) (p : Path) (b : Bool) : Throws P (p.serializePad b) :=
  bind (write hP _) fun _ => ite (bind (write hP _) fun _ => write hP _) (write hP _)

theorem cpfItem (hP : P full) (i : CPFItem) (h : Of P i.data) : Throws P i.serialize :=
  bind (write hP _) fun _ => bind (write hP _) fun _ => optional h

theorem router (hP : P full) (r : MessageRouterRequest) (h : Of P r.data) : Throws P r.serialize :=
  bind (write hP _) fun _ => bind (pad hP _ _) fun _ => optional h

theorem rrRequest (hP : P full) (r : RRDataRequest) (h : Of P r.mr.data) : Throws P r.serialize := by
  refine bind (write hP _) fun _ => bind (write hP _) fun _ => bind (write hP _) fun _ => ?_
  refine bind (cpfItem hP _ ?_) fun _ => bind (cpfItem hP _ ?_) fun _ => pure ()
  · intro o ho; cases ho
  · intro o ho
    cases ho
    exact router hP _ h

theorem forwardOpen (hP : P full) (r : ForwardOpenRequest) : Throws P r.serialize :=
  bind (write hP _) fun _ => bind (write hP _) fun _ => bind (write hP _) fun _ => bind (write hP _) fun _ =>
  bind (write hP _) fun _ => bind (write hP _) fun _ => bind (write hP _) fun _ => bind (write hP _) fun _ =>
  bind (write hP _) fun _ => bind (write hP _) fun _ => bind (write hP _) fun _ => bind (write hP _) fun _ =>
  bind (write hP _) fun _ => bind (write hP _) fun _ => bind (write hP _) fun _ => bind (write hP _) fun _ =>
  pad hP _ _

theorem forwardClose (hP : P full) (r : ForwardCloseRequest) : Throws P r.serialize :=
  bind (write hP _) fun _ => bind (write hP _) fun _ => bind (write hP _) fun _ =>
  bind (write hP _) fun _ => bind (write hP _) fun _ => pad hP _ _

theorem registerData (hP : P full) (r : RegisterSessionData) : Throws P r.serialize :=
  bind (write hP _) fun _ => write hP _

theorem toVector {n : Nat} {p : Prog Writer Unit} (hp : Throws P p) : Throws P (serializeToVector n p : Prog σ Bytes) := by
  intro s e s' h
  rw [serializeToVector] at h
  rcases hq : p (.buffer (BufferWriter.new (List.replicate n 0))) with ⟨(x | e' | u), (w | w)⟩ <;> rw [hq] at h <;> cases h
  all_goals exact hp _ _ _ hq

theorem call (hP : P systemError) (ev : Answer → Ev) : Throws P (sockCall ev) := by
  intro s e s' h
  rw [sockCall] at h
  split at h <;> cases h
  exact hP

theorem send (hP : P systemError) (s : Sock) {o : Obj} (ho : Throws P o.serialize) : Throws P (sockSend s o) :=
  bind (toVector ho) fun _ => bind (call hP _) fun _ => pure _

theorem receive (hP : P systemError) (s : Sock) : Throws P (sockReceive s) :=
  bind (call hP _) fun _ => bind (modify _) fun _ => bind get fun _ => pure _

theorem parsePacket (bytes : Bytes) : Throws (· = tooSmall) (Session.parsePacket bytes : Prog σ EncapPacket) := by
  intro s e s' h
  rw [Session.parsePacket] at h
  rcases hq : EncapPacket.deserialize (EncapPacket.new, .buffer (BufferReader.new bytes)) with ⟨(x | e' | u), p, r⟩ <;>
    rw [hq] at h <;> cases h
  exact packet _ _ _ hq

theorem onLocal {init : δ} {p : Prog δ Unit} (hp : ∀ e d, p init = (.throw e, d) → P e) :
    Throws P (Session.onLocal init p : Prog σ δ) := by
  intro s e s' h
  rw [Session.onLocal] at h
  rcases hq : p init with ⟨(x | e' | u), d⟩ <;> rw [hq] at h <;> cases h
  exact hp _ _ hq

end Throws

theorem brief_full : Brief 100 Throws.full := fun _ => by decide
theorem brief_system (n : Nat) : Brief n systemError := fun h => nomatch h
theorem brief_small : Brief 100 tooSmall := fun _ => by decide
theorem Brief.mono {n m : Nat} (h : n ≤ m) {e : Exn} (he : Brief n e) : Brief m e := fun h1 => Nat.le_trans (he h1) h

theorem Throws.check {n : Nat} (hn : 100 ≤ n) (p : EncapPacket) (c : UInt16) : Throws (Brief n) (Session.checkPacket p c) :=
  bind get fun _ => ite (raise (Brief.mono hn fun _ => by decide)) (ite (raise (Brief.mono hn fun _ => by decide))
    (ite (raise (Brief.mono hn fun _ => by decide)) (pure ())))

/-- The exceptions of `sendCommand` are those of the packet to be sent, and short ones. -/
theorem Throws.command {n : Nat} (hn : 100 ≤ n) (req : EncapPacket) (h : Of (Brief n) req.payload) :
    Throws (Brief n) (Session.sendCommand req) :=
  bind (send (brief_system n) .tcp (encapPacket (brief_full.mono hn) req h)) fun _ =>
    bind (receive (brief_system n) .tcp) fun _ =>
    bind ((parsePacket _).mono fun _ e => e ▸ brief_small.mono hn) fun _ => bind (check hn _ _) fun _ => pure _

/-- What `sendCommand` returns has a null payload or a raw one. -/
theorem sendCommand_returns {req : EncapPacket} {w w' : World} {p : EncapPacket} (h : Session.sendCommand req w = (.ok p, w')) :
    ∃ hd payload, p = ⟨hd, rawData payload⟩ := by
  rw [Session.sendCommand] at h
  rcases h1 : sockSend .tcp req.obj w with ⟨(x | e | u), w1⟩
  rotate_left
  · rw [Prog.bind_throw h1] at h; cases h
  · rw [Prog.bind_ub h1] at h; cases h
  rw [Prog.bind_ok h1] at h
  rcases h2 : sockReceive .tcp w1 with ⟨(bytes | e | u), w2⟩
  rotate_left
  · rw [Prog.bind_throw h2] at h; cases h
  · rw [Prog.bind_ub h2] at h; cases h
  rw [Prog.bind_ok h2] at h
  rcases parsePacket_cases bytes w2 with ⟨hd, payload, tail, hl, rfl⟩ | ⟨what, h3⟩
  · rw [Prog.bind_ok (parsePacket_ok w2 hd tail hl)] at h
    rcases h4 : Session.checkPacket ⟨hd, rawData payload⟩ req.header.command w2 with ⟨(x | e | u), w3⟩
    rotate_left
    · rw [Prog.bind_throw h4] at h; cases h
    · rw [Prog.bind_ub h4] at h; cases h
    rw [Prog.bind_ok h4] at h
    cases h
    exact ⟨hd, payload, rfl⟩
  · rw [Prog.bind_throw h3] at h; cases h

theorem rrCheck_brief {l : List (UInt16 × Bytes)} {s : String} (h : rrCheck l = .error s) : s.utf8ByteSize ≤ 100 := by
  rw [rrCheck.eq_def] at h
  split at h
  · split at h
    · cases h; decide
    · split at h
      · cases h; decide
      · split at h
        · cases h; decide
        · cases h
  · cases h; decide

/-- The exceptions of the parser of RR data replies are short. -/
theorem rrParse_brief (payload : Bytes) (n : Nat) : Throws (Brief 100) (deserializeFrom RRDataResponse.cls payload n) := by
  intro d e d' h
  rcases covers_rr payload with ⟨cs, tail, ⟨handle, timeout, l, hl, rfl⟩, e1⟩ |
    ⟨cs, m, ⟨handle, timeout, l, hl, rfl⟩, hm, e1⟩
  · have ep := RRDataResponse.parse_eq handle timeout hl tail n d
    rw [← e1, h] at ep
    cases hc : rrCheck l with
    | error s =>
      rw [hc] at ep
      cases ep
      exact fun _ => rrCheck_brief hc
    | ok body =>
      rw [hc] at ep
      by_cases hne : body = []
      · subst hne
        cases ep
      · exact RRDataResponse.setData_throws hne _ _ _ ep.symm ▸ brief_small
  · obtain ⟨d1, r1, h1⟩ := RRData.deserialize_cut (fun x : RRDataResponse => x.base)
      (fun b r => { r with base := b }) RRDataResponse.setData (fun _ _ => rfl) (fun _ _ _ => rfl) d handle timeout hl
      payload m hm e1 0
    have ed : deserializeFrom RRDataResponse.cls payload n d =
      match RRData.deserialize (fun x : RRDataResponse => x.base) (fun b r => { r with base := b })
        RRDataResponse.setData (d, .buffer ⟨payload, 0⟩) with
      | (r, (d', _)) => (r, d') := rfl
    rw [h1, h] at ed
    cases ed
    exact brief_small

theorem payload_brief (hd : EncapHeader) (payload : Bytes) (e : Exn) (d' : RRDataResponse)
    (h : (EncapPacket.mk hd (rawData payload)).getPayloadAs RRDataResponse.cls RRDataResponse.new = (.throw e, d')) :
    Brief 100 e := by
  by_cases hne : payload = []
  · subst hne
    rw [getPayloadAs_null] at h
    cases h
  · rw [getPayloadAs_raw _ rfl _ hne] at h
    exact rrParse_brief _ _ _ _ _ h

theorem registration_brief (hd : EncapHeader) (payload : Bytes) (e : Exn) (d' : RegisterSessionData)
    (h : (EncapPacket.mk hd (rawData payload)).getPayloadAs RegisterSessionData.cls RegisterSessionData.new = (.throw e, d')) :
    Brief 100 e := by
  by_cases hne : payload = []
  · subst hne
    rw [getPayloadAs_null] at h
    cases h
  · rw [getPayloadAs_raw _ rfl _ hne] at h
    exact Throws.parseFrom (P := (· = tooSmall)) (c := RegisterSessionData.cls) (fun _ => Throws.register) _ _ _ _ _ h ▸ brief_small

end Eip
