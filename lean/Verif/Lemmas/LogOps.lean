import Verif.Lemmas.Log
import Verif.Lemmas.Ops
/-
The session calls with their log: each does what the call without log does, and what it logs.
-/
namespace Eip
open Spec

theorem when_iff {c d : Prop} [Decidable c] [Decidable d] (h : c ↔ d) (m : LogMsg) : when c m = when d m := by
  by_cases hc : c
  · rw [when, when, if_pos hc, if_pos (h.mp hc)]
  · rw [when, when, if_neg hc, if_neg (fun x => hc (h.mpr x))]

theorem Complains.append {a b : List LogMsg} : Complains (a ++ b) ↔ Complains a ∨ Complains b := by
  simp only [Complains, List.mem_append, or_and_right, exists_or]

theorem Complains.cons {m : LogMsg} {b : List LogMsg} : Complains (m :: b) ↔ m.level = .error ∨ Complains b := by
  simp only [Complains, List.mem_cons, or_and_right, exists_or, exists_eq_left]

theorem Complains.nil : ¬ Complains [] := by
  rintro ⟨m, h, _⟩
  cases h

theorem Complains.when {c : Prop} [Decidable c] {m : LogMsg} : Complains (when c m) ↔ c ∧ m.level = .error := by
  by_cases h : c
  · rw [Spec.when, if_pos h, Complains.cons]
    exact ⟨fun x => ⟨h, x.resolve_right Complains.nil⟩, fun x => Or.inl x.2⟩
  · rw [Spec.when, if_neg h]
    exact ⟨fun x => absurd x Complains.nil, fun x => absurd x.1 h⟩

/-- Errors are only logged by calls that throw. -/
def Fair {α : Type} (r : Res α × World) (new : List LogMsg) : Prop := Complains new → ∃ e, r.1 = .throw e

namespace Logs
variable {α β : Type}

/-- The messages and the outcome of a call, when they are known to be one of a list. -/
theorem fair_bind {p : Prog LogWorld α} {q : Prog World α} {f : α → Prog LogWorld β} {g : α → Prog World β}
    (hp : Logs p q (fun _ => Fair)) (hf : ∀ a, Logs (f a) (g a) (fun _ => Fair)) :
    Logs (p >>= f) (q >>= g) (fun _ => Fair) := by
  refine (bind hp hf).mono ?_
  rintro w new (⟨a, w', n1, n2, e, e2, rfl, h1, h2⟩ | ⟨e, w', _, e2, h1⟩ | ⟨u, w', _, e2, h1⟩) hc
  · rcases Complains.append.mp hc with h | h
    · obtain ⟨x, hx⟩ := h1 h
      cases hx
    · rw [e2]
      exact h2 h
  · rw [e2]
    exact ⟨e, rfl⟩
  · obtain ⟨x, hx⟩ := h1 hc
    cases hx

theorem fair_silent {p : Prog LogWorld α} {q : Prog World α} (hp : Logs p q (fun _ _ new => new = [])) :
    Logs p q (fun _ => Fair) :=
  hp.mono (fun _ _ e h => absurd (e ▸ h) Complains.nil)

theorem fair_say {m : LogMsg} (hm : m.level ≠ .error) {p : Prog LogWorld β} {q : Prog World β}
    (hp : Logs p q (fun _ => Fair)) : Logs (Eip.say m >>= fun _ => p) q (fun _ => Fair) := by
  refine (say_bind m hp).mono ?_
  rintro w new ⟨n, rfl, h⟩ hc
  rcases Complains.cons.mp hc with h' | h'
  · exact absurd h' hm
  · exact h h'

theorem fair_sayIf {c : Prop} [Decidable c] {m : LogMsg} (hm : m.level ≠ .error) {p : Prog LogWorld β}
    {q : Prog World β} (hp : Logs p q (fun _ => Fair)) : Logs (Eip.sayIf c m >>= fun _ => p) q (fun _ => Fair) := by
  refine (sayIf_bind c m hp).mono ?_
  rintro w new ⟨n, rfl, h⟩ hc
  rcases Complains.append.mp hc with h' | h'
  · exact absurd (Complains.when.mp h').2 hm
  · exact h h'

/-- A message before code that always throws. -/
theorem fair_fail {m : LogMsg} {p : Prog LogWorld β} {q : Prog World β} (hq : ∀ w, ∃ e, (q w).1 = .throw e)
    {R : World → Res β × World → List LogMsg → Prop}
    (hp : Logs p q R) : Logs (Eip.say m >>= fun _ => p) q (fun _ => Fair) :=
  (say_bind m hp).mono (fun w _ _ _ => hq w)

theorem fair_throws {p : Prog LogWorld β} {q : Prog World β} (hq : ∀ w, ∃ e, (q w).1 = .throw e)
    {R : World → Res β × World → List LogMsg → Prop} (hp : Logs p q R) : Logs p q (fun _ => Fair) :=
  hp.mono (fun w _ _ _ => hq w)

theorem any {p : Prog LogWorld β} {q : Prog World β} {R : World → Res β × World → List LogMsg → Prop}
    (hp : Logs p q R) : Logs p q (fun _ _ _ => True) := hp.mono (fun _ _ _ => trivial)

theorem fair_catch {p : Prog LogWorld α} {q : Prog World α} {a b : Exn → Prog LogWorld α} {a' b' : Prog World α}
    (hp : Logs p q (fun _ => Fair)) (ha : ∀ e, Logs (a e) a' (fun _ _ _ => True))
    (hb : ∀ e, Logs (b e) b' (fun _ _ _ => True))
    (ta : ∀ w, ∃ e, (a' w).1 = .throw e) (tb : ∀ w, ∃ e, (b' w).1 = .throw e) :
    Logs (Session.Logged.catchLengthLogic p a b) (Session.catchLengthLogic q a' b') (fun _ => Fair) := by
  refine (catchLengthLogic hp ha hb).mono ?_
  rintro w new (⟨x, w', _, e2, h⟩ | ⟨u, w', _, e2, h⟩ | ⟨e, w', n1, n2, _, rfl, _, h⟩) hc
  · obtain ⟨y, hy⟩ := h hc
    cases hy
  · obtain ⟨y, hy⟩ := h hc
    cases hy
  · rcases h with ⟨_, e2, _⟩ | ⟨_, _, e2, _⟩ | ⟨_, _, e2, _⟩
    · rw [e2]; exact ta w'
    · rw [e2]; exact tb w'
    · rw [e2]; exact ⟨e, rfl⟩

/-- Parsing a packet: the logged version also returns the number of bytes read. -/
theorem parse_bind (bytes : Bytes) {f : EncapPacket × Nat → Prog LogWorld β} {g : EncapPacket → Prog World β}
    {S : EncapPacket → World → Res β × World → List LogMsg → Prop}
    (hf : ∀ p n, Logs (f (p, n)) (g p) (S p)) :
    Logs (Session.Logged.parsePacket bytes >>= f) (Session.parsePacket bytes >>= g) (fun w r new =>
      (∃ p, Session.parsePacket bytes w = (.ok p, w) ∧ S p w r new) ∨
      (∃ e, Session.parsePacket bytes w = (.throw e, w) ∧ r = (.throw e, w) ∧ new = []) ∨
      (∃ u, Session.parsePacket bytes w = (.ub u, w) ∧ r = (.ub u, w) ∧ new = [])) := by
  intro w l
  rcases hd : EncapPacket.deserialize (EncapPacket.new, .buffer (BufferReader.new bytes)) with ⟨(x | e | u), p, r⟩
  · have e1 : Session.Logged.parsePacket bytes (⟨w, l⟩ : LogWorld) = (.ok (p, r.getByteCount), ⟨w, l⟩) := by
      rw [Session.Logged.parsePacket, hd]
    have e2 : Session.parsePacket bytes w = (.ok p, w) := by
      rw [Session.parsePacket, hd]
    rw [Prog.bind_ok e1, Prog.bind_ok e2]
    obtain ⟨new, e, h⟩ := hf p r.getByteCount w l
    exact ⟨new, e, Or.inl ⟨p, e2, h⟩⟩
  · have e1 : Session.Logged.parsePacket bytes (⟨w, l⟩ : LogWorld) = (.throw e, ⟨w, l⟩) := by
      rw [Session.Logged.parsePacket, hd]
    have e2 : Session.parsePacket bytes w = (.throw e, w) := by
      rw [Session.parsePacket, hd]
    rw [Prog.bind_throw e1, Prog.bind_throw e2]
    exact ⟨[], by rw [List.append_nil], Or.inr (Or.inl ⟨e, e2, rfl, rfl⟩)⟩
  · have e1 : Session.Logged.parsePacket bytes (⟨w, l⟩ : LogWorld) = (.ub u, ⟨w, l⟩) := by
      rw [Session.Logged.parsePacket, hd]
    have e2 : Session.parsePacket bytes w = (.ub u, w) := by
      rw [Session.parsePacket, hd]
    rw [Prog.bind_ub e1, Prog.bind_ub e2]
    exact ⟨[], by rw [List.append_nil], Or.inr (Or.inr ⟨u, e2, rfl, rfl⟩)⟩

/-- The warnings about the header of an accepted reply. -/
def headerWarnings (h : EncapHeader) : List LogMsg :=
  when (h.status ≠ 0) (.status h.status)
    ++ when (h.context ≠ (0, 0)) (.context h.context.1 h.context.2)
    ++ when (h.options ≠ 0) (.options h.options)

theorem context_iff (h : EncapHeader) : (h.context.1 ≠ 0 ∨ h.context.2 ≠ 0) ↔ h.context ≠ (0, 0) := by
  rcases h.context with ⟨a, b⟩
  simp only [ne_eq, Prod.mk.injEq]
  rw [Classical.not_and_iff_not_or_not]

theorem checkPacket (pkt : EncapPacket) (c : UInt16) :
    Logs (Session.Logged.checkPacket pkt c) (Session.checkPacket pkt c) (fun w r new =>
      (pkt.header.command ≠ c ∧ r = (.throw (logicError "Reply received with wrong command"), w) ∧
        new = [.wrongCommand c pkt.header.command]) ∨
      (pkt.header.command = c ∧ w.s.sessionId = 0 ∧ pkt.header.sessionHandle = 0 ∧
        r = (.throw (logicError "Zero session handle received on registration"), w) ∧ new = [.zeroHandle 0]) ∨
      (pkt.header.command = c ∧ w.s.sessionId ≠ 0 ∧ pkt.header.sessionHandle ≠ w.s.sessionId ∧
        r = (.throw (logicError "Wrong session ID received for command"), w) ∧
        new = [.wrongHandle w.s.sessionId pkt.header.sessionHandle]) ∨
      (pkt.header.command = c ∧ Acceptable w.s.sessionId pkt.header.sessionHandle ∧ r = (.ok (), w) ∧
        new = headerWarnings pkt.header)) := by
  intro w l
  simp only [Session.Logged.checkPacket, Session.checkPacket, Prog.bind_def, Prog.andThen, Prog.get]
  by_cases h1 : pkt.header.command ≠ c
  · rw [if_pos h1, if_pos h1]
    exact ⟨[.wrongCommand c pkt.header.command], rfl, Or.inl ⟨h1, rfl, rfl⟩⟩
  · rw [if_neg h1, if_neg h1]
    rw [ne_eq, Decidable.not_not] at h1
    by_cases h2 : w.s.sessionId = 0 ∧ pkt.header.sessionHandle = 0
    · rw [if_pos h2, if_pos h2]
      refine ⟨[.zeroHandle pkt.header.sessionHandle], rfl, Or.inr (Or.inl ⟨h1, h2.1, h2.2, rfl, by rw [h2.2]⟩)⟩
    · rw [if_neg h2, if_neg h2]
      by_cases h3 : w.s.sessionId ≠ 0 ∧ pkt.header.sessionHandle ≠ w.s.sessionId
      · rw [if_pos h3, if_pos h3]
        exact ⟨[.wrongHandle w.s.sessionId pkt.header.sessionHandle], rfl,
          Or.inr (Or.inr (Or.inl ⟨h1, h3.1, h3.2, rfl, rfl⟩))⟩
      · rw [if_neg h3, if_neg h3]
        obtain ⟨new, e, n, rfl, n', rfl, rfl⟩ := sayIf_bind (pkt.header.status ≠ 0) (.status pkt.header.status)
          (sayIf_bind (pkt.header.context.1 ≠ 0 ∨ pkt.header.context.2 ≠ 0)
            (.context pkt.header.context.1 pkt.header.context.2)
            (sayIf (pkt.header.options ≠ 0) (.options pkt.header.options))) w l
        refine ⟨_, e, Or.inr (Or.inr (Or.inr ⟨h1, ?_, rfl, ?_⟩))⟩
        · by_cases h4 : w.s.sessionId = 0
          · exact Or.inl ⟨h4, fun h5 => h2 ⟨h4, h5⟩⟩
          · exact Or.inr ⟨h4, Decidable.of_not_not (fun h5 => h3 ⟨h4, h5⟩)⟩
        · rw [headerWarnings, when_iff (context_iff _), List.append_assoc]

theorem fair_check (pkt : EncapPacket) (c : UInt16) :
    Logs (Session.Logged.checkPacket pkt c) (Session.checkPacket pkt c) (fun _ => Fair) := by
  refine (checkPacket pkt c).mono ?_
  rintro w new (⟨_, e, _⟩ | ⟨_, _, _, e, _⟩ | ⟨_, _, _, e, _⟩ | ⟨_, _, e, rfl⟩) hc
  · rw [e]; exact ⟨_, rfl⟩
  · rw [e]; exact ⟨_, rfl⟩
  · rw [e]; exact ⟨_, rfl⟩
  · exfalso
    rw [headerWarnings, Complains.append, Complains.append, Complains.when, Complains.when, Complains.when] at hc
    rcases hc with (⟨_, h⟩ | ⟨_, h⟩) | ⟨_, h⟩ <;> cases h

theorem fair_sendCommand (req : EncapPacket) :
    Logs (Session.Logged.sendCommand req) (Session.sendCommand req) (fun _ => Fair) := by
  refine fair_say (by decide) (fair_bind (fair_silent (quiet _)) fun _ => fair_say (by decide)
    (fair_bind (fair_silent (quiet _)) fun bytes => ?_))
  refine fair_say (by simp [LogMsg.level]) ?_
  refine (parse_bind bytes (S := fun _ _ => Fair) fun p n => fair_sayIf (by simp [LogMsg.level])
    (fair_bind (fair_check p _) fun _ => fair_silent (pure p))).mono ?_
  rintro w new (⟨p, _, h⟩ | ⟨e, _, e2, rfl⟩ | ⟨u, _, e2, rfl⟩)
  · exact h
  · exact fun h => absurd h Complains.nil
  · exact fun h => absurd h Complains.nil

end Logs
end Eip

namespace Eip
open Spec
namespace Logs
variable {α β : Type}

theorem get {f : LogWorld → Prog LogWorld β} {g : World → Prog World β}
    {R : World → Res β × World → List LogMsg → Prop} (hf : ∀ w l, Logs (f ⟨w, l⟩) (g w) R) :
    Logs (Prog.get >>= f) (Prog.get >>= g) R := get_bind (fun w l => hf w l w l)

theorem and {p : Prog LogWorld α} {q : Prog World α} {R S : World → Res α × World → List LogMsg → Prop}
    (h : Logs p q R) (h' : Logs p q S) : Logs p q (fun w r new => R w r new ∧ S w r new) := by
  intro w l
  obtain ⟨new, e, hr⟩ := h w l
  obtain ⟨new', e', hs⟩ := h' w l
  refine ⟨new, e, hr, ?_⟩
  rw [e] at e'
  simp only [Prod.mk.injEq, LogWorld.mk.injEq, true_and] at e'
  rw [List.append_cancel_left e']
  exact hs

theorem parseResponse (response : EncapPacket) :
    Logs (Session.Logged.parseResponse response)
      (Session.onLocal RRDataResponse.new (response.getPayloadAs RRDataResponse.cls))
      (fun _ _ new => new = when (Session.Logged.moreThanTwo response = true) .moreItems) := by
  refine (sayIf_bind _ _ (onLocal _ _)).mono ?_
  rintro w new ⟨n, rfl, rfl⟩
  rw [List.append_nil]

theorem fair_sendRR (service : UInt8) (path : Path) (data : Option Obj) :
    Logs (Session.Logged.sendRRDataCommand service path data) (Session.sendRRDataCommand service path data)
      (fun _ => Fair) := by
  refine fair_say (by decide) (get fun w l => ?_)
  refine fair_bind (fair_catch (fair_sendCommand _)
    (fun _ => (say_bind _ (raise _)).any) (fun _ => (say_bind _ (raise _)).any) (fun _ => ⟨_, rfl⟩) (fun _ => ⟨_, rfl⟩)) fun response => ?_
  refine fair_bind (fair_catch (fair_sayIf (by decide) (fair_silent (onLocal _ _)))
    (fun _ => (say_bind _ (raise _)).any) (fun _ => (say_bind _ (raise _)).any) (fun _ => ⟨_, rfl⟩) (fun _ => ⟨_, rfl⟩)) fun resp => ?_
  refine fair_sayIf (by simp [LogMsg.level]) (ite (fun _ => ?_) (fun _ => fair_silent (pure _)))
  exact fair_throws (fun _ => ⟨_, rfl⟩) (say_bind _ (raise _))

theorem fair_parseRegistration (response : EncapPacket) :
    Logs (Session.Logged.parseRegistration response) (Session.parseRegistration response) (fun _ => Fair) := by
  refine fair_sayIf (by simp [LogMsg.level]) ?_
  refine (catchLengthLogic (A := fun _ _ new => new = [.registrationShort])
    (B := fun _ _ new => ∃ what, new = [.registrationIgnored what])
    (bind (onLocal _ _) (fun d => pure (some d))) (fun e => ?_) (fun e => ?_)).mono ?_
  · exact (say_bind _ (pure _)).mono (by rintro w new ⟨n, rfl, rfl⟩; rfl)
  · exact (say_bind _ (pure _)).mono (by rintro w new ⟨n, rfl, rfl⟩; exact ⟨_, rfl⟩)
  · rintro w new (⟨x, w', _, _, h⟩ | ⟨u, w', _, _, h⟩ | ⟨e, w', n1, n2, _, rfl, h, h'⟩) hc
    · rcases h with ⟨_, _, _, _, _, _, rfl, rfl, rfl⟩ | ⟨_, _, _, _, rfl⟩ | ⟨_, _, _, _, rfl⟩ <;>
        exact absurd hc Complains.nil
    · rcases h with ⟨_, _, _, _, _, _, rfl, rfl, rfl⟩ | ⟨_, _, _, _, rfl⟩ | ⟨_, _, _, _, rfl⟩ <;>
        exact absurd hc Complains.nil
    · have hn : n1 = [] := by
        rcases h with ⟨_, _, _, _, _, _, rfl, rfl, rfl⟩ | ⟨_, _, _, _, rfl⟩ | ⟨_, _, _, _, rfl⟩ <;> rfl
      subst hn
      exfalso
      rcases h' with ⟨_, _, rfl⟩ | ⟨_, _, _, _, rfl⟩ | ⟨_, _, _, rfl⟩
      · rcases Complains.cons.mp hc with h | h
        · cases h
        · exact Complains.nil h
      · rcases Complains.cons.mp hc with h | h
        · cases h
        · exact Complains.nil h
      · exact Complains.nil hc

theorem closing_throws {α : Type} (e : Exn) (w : World) :
    ∃ e', ((do Session.closeSockets; Prog.raise e : Prog World α) w).1 = .throw e' := by
  rcases hc : Session.closeSockets w with ⟨(x | e' | u), w'⟩
  · exact ⟨e, by rw [Prog.bind_ok hc]; rfl⟩
  · exact ⟨e', by rw [Prog.bind_throw hc]⟩
  · exfalso
    rcases closeSockets_cases w with ⟨_, h⟩ | ⟨_, _, h⟩ | ⟨_, _, h⟩ <;> rw [h] at hc <;> simp at hc

theorem fair_open (h p i : String) :
    Logs (Session.Logged.open h p i) (Session.open h p i) (fun _ => Fair) := by
  refine fair_say (by decide) (fair_bind (fair_silent (quiet _)) fun _ => fair_bind (fair_silent (quiet _)) fun _ =>
    fair_say (by decide) ?_)
  refine fair_bind (fair_catch (fair_sendCommand _)
    (fun _ => (bind (quiet _) fun _ => say_bind _ (raise _)).any)
    (fun _ => (bind (quiet _) fun _ => say_bind _ (raise _)).any) (closing_throws _) (closing_throws _)) fun response => ?_
  refine fair_bind (fair_parseRegistration response) fun d => ?_
  cases d with
  | none =>
    exact (bind (quiet _) fun _ => say _).mono (by
      rintro w new (⟨_, _, _, _, _, _, rfl, rfl, rfl⟩ | ⟨_, _, _, e, rfl⟩ | ⟨_, _, _, e, rfl⟩) hc
      · rcases Complains.cons.mp hc with h | h
        · cases h
        · exact absurd h Complains.nil
      · exact absurd hc Complains.nil
      · exact absurd hc Complains.nil)
  | some d =>
    refine ite (fun _ => ?_) (fun _ => ?_)
    · exact fair_throws (closing_throws _) (say_bind _ (bind (quiet _) fun _ => raise _))
    · refine fair_sayIf (by simp [LogMsg.level]) ((bind (quiet _) fun _ => say _).mono (by
      rintro w new (⟨_, _, _, _, _, _, rfl, rfl, rfl⟩ | ⟨_, _, _, e, rfl⟩ | ⟨_, _, _, e, rfl⟩) hc
      · rcases Complains.cons.mp hc with h | h
        · cases h
        · exact absurd h Complains.nil
      · exact absurd hc Complains.nil
      · exact absurd hc Complains.nil))

theorem fair_close : Logs Session.Logged.close Session.close (fun _ => Fair) := by
  refine fair_say (by decide) (get fun w l => fair_bind (fair_silent (quiet _)) fun _ => fair_say (by decide) ?_)
  exact fair_bind (fair_silent (quiet _)) fun _ => fair_silent (quiet _)

theorem fair_set (x y z : UInt8) (d : Option Obj) :
    Logs (Session.Logged.setSingleAttributeSerializable x y z d) (Session.setSingleAttributeSerializable x y z d)
      (fun _ => Fair) :=
  fair_bind (fair_sendRR _ _ _) fun _ => fair_silent (pure _)

theorem sayAll_bind (ms : List LogMsg) {p : Prog LogWorld β} {q : Prog World β}
    {R : World → Res β × World → List LogMsg → Prop} (hp : Logs p q R) :
    Logs (Session.Logged.sayAll ms >>= fun _ => p) q (fun w r new => ∃ n, new = ms ++ n ∧ R w r n) := by
  induction ms with
  | nil => exact hp.mono (fun _ new h => ⟨new, rfl, h⟩)
  | cons m ms ih =>
    refine (say_bind m ih).mono ?_
    rintro w new ⟨n, rfl, n', rfl, h⟩
    exact ⟨n', rfl, h⟩

theorem verifyMessages_quiet (c : Connection) (r : ForwardOpenSuccess) :
    ¬ Complains (Session.Logged.verifyMessages c r) := by
  rw [Session.Logged.verifyMessages]
  split
  · exact Complains.nil
  · rw [Complains.append]
    rintro (h | h)
    · exact absurd (Complains.when.mp h).2 (by simp [LogMsg.level])
    · exact absurd (Complains.when.mp h).2 (by simp [LogMsg.level])

theorem fair_create (o t : ConnectionInfo) :
    Logs (Session.Logged.createConnection o t) (Session.createConnection o t) (fun _ => Fair) := by
  refine get fun w l => fair_bind (fair_silent (quiet _)) fun _ => fair_bind (fair_sendRR _ _ _) fun resp =>
    fair_bind (fair_silent (onLocal _ _)) fun result => ?_
  have : Logs (match (Session.prepareConnection w.s o t).verifyForwardOpenResult result with
      | (false, _) => do
        Eip.say .forwardOpenInvalid
        Prog.raise (logicError "Forward Open Response Invalid")
      | (true, conn') => do
        Eip.quiet (Prog.modify (fun w => { w with s := { w.s with connections := w.s.connections ++ [conn'] } }))
        let s ← Prog.get
        Pure.pure (sizeToInt (sizeSub s.w.s.connections.length 1)))
      (match (Session.prepareConnection w.s o t).verifyForwardOpenResult result with
      | (false, _) => Prog.raise (logicError "Forward Open Response Invalid")
      | (true, conn') => do
        Prog.modify (fun w => { w with s := { w.s with connections := w.s.connections ++ [conn'] } })
        let w ← Prog.get
        Pure.pure (sizeToInt (sizeSub w.s.connections.length 1))) (fun _ => Fair) := by
    rcases (Session.prepareConnection w.s o t).verifyForwardOpenResult result with ⟨(_ | _), c⟩
    · exact fair_throws (fun _ => ⟨_, rfl⟩) (say_bind _ (raise _))
    · exact fair_bind (fair_silent (quiet _)) fun _ => get fun w l => fair_silent (pure _)
  refine (sayAll_bind _ this).mono ?_
  rintro w' new ⟨n, rfl, h⟩ hc
  rcases Complains.append.mp hc with h' | h'
  · exact absurd h' (verifyMessages_quiet _ _)
  · exact h h'

theorem fair_closeConnection (n : Nat) :
    Logs (Session.Logged.closeConnection n) (Session.closeConnection n) (fun _ => Fair) := by
  refine get fun w l => ?_
  simp only
  cases w.s.connections[n]? with
  | none => exact fair_silent (undef _)
  | some c =>
    refine fair_bind (fair_sendRR _ _ _) fun resp => fair_bind (fair_silent (onLocal _ _)) fun result => get fun w l => ?_
    simp only
    cases w.s.connections[n]? with
    | none => exact fair_silent (undef _)
    | some c =>
      refine fair_say (by simp [LogMsg.level]) (ite (fun _ => fair_silent (quiet _)) (fun _ => ?_))
      exact fair_throws (fun _ => ⟨_, rfl⟩) (say_bind _ (raise _))

theorem parseIO_bind (bytes : Bytes) {f : CPFPacket × Nat → Prog LogWorld CPFPacket}
    (hf : ∀ p n, Logs (f (p, n)) (Pure.pure p) (fun _ => Fair)) :
    Logs (Session.Logged.parseIO bytes >>= f) (Session.onLocal ⟨[]⟩ (fun p =>
      match CPFPacket.deserialize (p, .buffer (BufferReader.new bytes)) with
      | (r, (p', _)) => (r, p'))) (fun _ => Fair) := by
  intro w l
  have e2 : ∀ r p rd, CPFPacket.deserialize (⟨[]⟩, .buffer (BufferReader.new bytes)) = (r, (p, rd)) →
      Session.onLocal (σ := World) ⟨[]⟩ (fun p =>
      match CPFPacket.deserialize (p, .buffer (BufferReader.new bytes)) with
      | (r, (p', _)) => (r, p')) w = (match r with | .ok () => .ok p | .throw e => .throw e | .ub u => .ub u, w) := by
    intro r p rd h
    simp only [Session.onLocal, h]
    cases r <;> rfl
  rcases hd : CPFPacket.deserialize (⟨[]⟩, .buffer (BufferReader.new bytes)) with ⟨(x | e | u), p, r⟩
  · have e1 : Session.Logged.parseIO bytes (⟨w, l⟩ : LogWorld) = (.ok (p, r.getByteCount), ⟨w, l⟩) := by
      rw [Session.Logged.parseIO, hd]
    rw [Prog.bind_ok e1, e2 _ _ _ hd]
    exact hf p r.getByteCount w l
  · have e1 : Session.Logged.parseIO bytes (⟨w, l⟩ : LogWorld) = (.throw e, ⟨w, l⟩) := by
      rw [Session.Logged.parseIO, hd]
    rw [Prog.bind_throw e1, e2 _ _ _ hd]
    exact ⟨[], by rw [List.append_nil], fun h => absurd h Complains.nil⟩
  · have e1 : Session.Logged.parseIO bytes (⟨w, l⟩ : LogWorld) = (.ub u, ⟨w, l⟩) := by
      rw [Session.Logged.parseIO, hd]
    rw [Prog.bind_ub e1, e2 _ _ _ hd]
    exact ⟨[], by rw [List.append_nil], fun h => absurd h Complains.nil⟩

theorem fair_receiveIO : Logs Session.Logged.receiveIOPacket Session.receiveIOPacket (fun _ => Fair) :=
  fair_say (by decide) (fair_bind (fair_silent (quiet _)) fun bytes => fair_say (by simp [LogMsg.level])
    (parseIO_bind bytes fun _ _ => fair_sayIf (by simp [LogMsg.level]) (fair_silent (pure _))))

theorem fair_sendIO (p : CPFPacket) : Logs (Session.Logged.sendIOPacket p) (Session.sendIOPacket p) (fun _ => Fair) :=
  fair_say (by decide) (fair_bind (fair_silent (quiet _)) fun _ => fair_silent (pure _))

/-- Reading an attribute: the command, then the data. -/
theorem getAttribute_runLogged {δ : Type} (c : Class δ) (init : δ) (x y z : UInt8) :
    Op.runLogged (.getAttribute δ c init x y z) = (Session.Logged.sendRRDataCommand 0x0E (Path.mk3 x y z) none >>=
      fun resp s => ((resp.getResponseDataAs c init).1, s)) := by
  funext s
  simp only [Op.runLogged, Session.Logged.getSingleAttributeSerializable]
  generalize Session.Logged.sendRRDataCommand 0x0E (Path.mk3 x y z) none = P
  simp only [Prog.bind_def, Prog.andThen, Prog.zoom]
  rcases hP : P s with ⟨(r | e | u), w'⟩
  · exact (Prog.bind_ok (f := fun resp s => ((resp.getResponseDataAs c init).1, s)) hP).symm
  · exact (Prog.bind_throw hP).symm
  · exact (Prog.bind_ub hP).symm

theorem getAttribute_run {δ : Type} (c : Class δ) (init : δ) (x y z : UInt8) :
    Op.run (.getAttribute δ c init x y z) = (Session.sendRRDataCommand 0x0E (Path.mk3 x y z) none >>=
      fun resp s => ((resp.getResponseDataAs c init).1, s)) := by
  funext s
  simp only [Op.run, Session.getSingleAttributeSerializable]
  generalize Session.sendRRDataCommand 0x0E (Path.mk3 x y z) none = P
  simp only [Prog.bind_def, Prog.andThen, Session.onWorld, Session.onResult, Prog.zoom]
  rcases hP : P s with ⟨(r | e | u), w'⟩
  · exact (Prog.bind_ok (f := fun resp s => ((resp.getResponseDataAs c init).1, s)) hP).symm
  · exact (Prog.bind_throw hP).symm
  · exact (Prog.bind_ub hP).symm

/-- A step that does nothing to the session. -/
theorem const (r : Res β) : Logs (fun s => (r, s)) (fun s => (r, s)) (fun _ _ new => new = []) := by
  intro w l
  exact ⟨[], by rw [List.append_nil], rfl⟩

theorem fair_get {δ : Type} (c : Class δ) (init : δ) (x y z : UInt8) :
    Logs (Op.runLogged (.getAttribute δ c init x y z)) (Op.run (.getAttribute δ c init x y z)) (fun _ => Fair) := by
  rw [getAttribute_runLogged, getAttribute_run]
  exact fair_bind (fair_sendRR _ _ _) fun resp => fair_silent (const _)

theorem fair_forget {p : Prog LogWorld α} {q : Prog World α} (h : Logs p q (fun _ => Fair)) :
    Logs p.forget q.forget (fun _ => Fair) := fair_bind h fun _ => fair_silent (pure _)

/-- Every call with its log does what it does without, and logs errors only if it throws. -/
theorem op (o : Op) : Logs o.runLogged o.run (fun _ => Fair) := by
  cases o with
  | «open» h p i => exact fair_open h p i
  | close => exact fair_close
  | getAttribute δ c init x y z => exact fair_get c init x y z
  | setAttribute x y z d => exact fair_set x y z d
  | createConnection o t => exact fair_forget (fair_create o t)
  | closeConnection n => exact fair_closeConnection n
  | getConnection n => exact fair_silent (quiet _)
  | receiveIOPacket => exact fair_forget fair_receiveIO
  | sendIOPacket p => exact fair_sendIO p

end Logs
end Eip

namespace Eip
open Spec

/-- The session's own exceptions come with an error message. -/
def Loud {α : Type} (r : Res α × World) (new : List LogMsg) : Prop :=
  ∀ e, r.1 = .throw e → Reported e → Complains new

theorem not_reported_system : ¬ Reported systemError := by
  simp [Reported, systemError, logicError]

theorem not_reported_length (what : String) : ¬ Reported (lengthError what) := by
  simp [Reported, lengthError, logicError]

theorem Calm.sockOpen (s : Sock) (h p : String) : Calm (sockOpen s h p) := by
  intro w e w' he
  rw [sockOpen_eq] at he
  split at he
  · cases he; exact not_reported_system
  · cases he

theorem Calm.sockReceive (s : Sock) : Calm (sockReceive s) := by
  intro w e w' he
  rw [sockReceive_eq] at he
  split at he
  · cases he; exact not_reported_system
  · cases he

theorem Calm.sockSend {o : Obj} {bs : Bytes} (ho : Serializes o bs) (s : Sock) : Calm (sockSend s o) := by
  intro w e w' he
  rw [sockSend_eq ho] at he
  split at he
  · cases he; exact not_reported_system
  · cases he

theorem Calm.closeSockets : Calm Session.closeSockets := by
  intro w e w' he
  rcases closeSockets_cases w with ⟨_, h⟩ | ⟨_, _, h⟩ | ⟨_, _, h⟩ <;> rw [h] at he <;> cases he
  · exact not_reported_system
  · exact not_reported_system

theorem Calm.modify {σ : Type} (f : σ → σ) : Calm (Prog.modify f) := by
  intro w e w' he
  cases he

theorem Calm.pure {σ α : Type} (a : α) : Calm (Pure.pure a : Prog σ α) := by
  intro w e w' he
  cases he

/-- What `sendRRDataCommand` returns. -/
def Parsed (a : RRDataResponse) : Prop :=
  ∃ base s x data, a = ⟨base, ⟨s, 0, rawData x, rawData data⟩⟩

theorem sendRR_parsed (service : UInt8) (path : Path) (data : Option Obj) (w : World) (a : RRDataResponse)
    (w' : World) (h : Session.sendRRDataCommand service path data w = (.ok a, w')) : Parsed a := by
  rcases sendRR_total service path data w with ⟨bs, _, hc⟩ | ⟨e, hc⟩ | ⟨u, hc⟩
  · rw [h] at hc
    cases hc with
    | replied _ _ hr =>
      cases hr with
      | good base s x data _ => exact ⟨base, s, x, data, rfl⟩
  · rw [hc] at h; cases h
  · rw [hc] at h; cases h

theorem Parsed.calm {a : RRDataResponse} (ha : Parsed a) {δ : Type} (c : Class δ) (hc : ∀ n, Calm (c.runLen n)) (d : δ)
    (e : Exn) (he : (a.getResponseDataAs c d).1 = .throw e) : ¬ Reported e := by
  obtain ⟨base, s, x, data, rfl⟩ := ha
  by_cases hne : data = []
  · subst hne
    rw [getResponseDataAs_null] at he
    cases he
  · cases hb : c.assignBuffer with
    | some f =>
      rw [getResponseDataAs_buffer c hb base s 0 _ hne] at he
      cases he
    | none =>
      rw [getResponseDataAs_raw c hb base s 0 _ hne, deserializeFrom] at he
      rcases hr : c.runLen data.length (d, .buffer (BufferReader.new data)) with ⟨r, d', rd⟩
      rw [hr] at he
      simp only at he
      subst he
      exact hc _ _ _ _ hr

theorem Calm.openReply (data : Bytes) (d : ForwardOpenSuccess) (e : Exn)
    (he : (deserializeFrom ForwardOpenSuccess.cls data data.length d).1 = .throw e) : ¬ Reported e := by
  rcases openReply_cases data d with ⟨_, _, _, _, _, _, _, _, _, h⟩ | ⟨_, what, _, h⟩ <;> rw [h] at he <;> cases he
  exact not_reported_length what

theorem Calm.closeReply (data : Bytes) (d : ForwardCloseSuccess) (e : Exn)
    (he : (deserializeFrom ForwardCloseSuccess.cls data data.length d).1 = .throw e) : ¬ Reported e := by
  rcases closeReply_cases data d with ⟨_, _, _, _, _, h⟩ | ⟨_, what, _, h⟩ <;> rw [h] at he <;> cases he
  exact not_reported_length what

theorem Parsed.openCalm {a : RRDataResponse} (ha : Parsed a) (d : ForwardOpenSuccess) :
    Calm (Session.onLocal (σ := World) d (a.getResponseDataAs ForwardOpenSuccess.cls)) := by
  intro w e w' he
  obtain ⟨base, s, x, data, rfl⟩ := ha
  by_cases hne : data = []
  · subst hne
    rw [Session.onLocal, getResponseDataAs_null] at he
    cases he
  · rw [Session.onLocal, getResponseDataAs_raw _ rfl base s 0 _ hne] at he
    rcases hr : deserializeFrom ForwardOpenSuccess.cls data data.length d with ⟨(_ | e' | _), d'⟩ <;> rw [hr] at he <;> cases he
    exact Calm.openReply data d e (by rw [hr])

theorem Parsed.closeCalm {a : RRDataResponse} (ha : Parsed a) (d : ForwardCloseSuccess) :
    Calm (Session.onLocal (σ := World) d (a.getResponseDataAs ForwardCloseSuccess.cls)) := by
  intro w e w' he
  obtain ⟨base, s, x, data, rfl⟩ := ha
  by_cases hne : data = []
  · subst hne
    rw [Session.onLocal, getResponseDataAs_null] at he
    cases he
  · rw [Session.onLocal, getResponseDataAs_raw _ rfl base s 0 _ hne] at he
    rcases hr : deserializeFrom ForwardCloseSuccess.cls data data.length d with ⟨(_ | e' | _), d'⟩ <;> rw [hr] at he <;> cases he
    exact Calm.closeReply data d e (by rw [hr])

namespace Logs
variable {α β : Type}

theorem loud_bind {p : Prog LogWorld α} {q : Prog World α} {f : α → Prog LogWorld β} {g : α → Prog World β}
    {K : α → Prop} (hp : Logs p q (fun _ => Loud)) (hK : ∀ w a w', q w = (.ok a, w') → K a)
    (hf : ∀ a, Logs (f a) (g a) (fun _ r new => K a → Loud r new)) : Logs (p >>= f) (q >>= g) (fun _ => Loud) := by
  refine (bind hp hf).mono ?_
  rintro w new (⟨a, w', n1, n2, e, e2, rfl, h1, h2⟩ | ⟨e, w', _, e2, h1⟩ | ⟨u, w', _, e2, h1⟩)
  · rw [e2]
    intro x hx hr
    exact Complains.append.mpr (Or.inr (h2 (hK _ _ _ e) x hx hr))
  · rw [e2]
    intro x hx hr
    cases hx
    exact h1 e rfl hr
  · rw [e2]
    intro x hx
    cases hx

/-- The same, without anything about the first result. -/
theorem loud_bind' {p : Prog LogWorld α} {q : Prog World α} {f : α → Prog LogWorld β} {g : α → Prog World β}
    (hp : Logs p q (fun _ => Loud)) (hf : ∀ a, Logs (f a) (g a) (fun _ => Loud)) :
    Logs (p >>= f) (q >>= g) (fun _ => Loud) :=
  loud_bind (K := fun _ => True) hp (fun _ _ _ _ => trivial) (fun a => (hf a).mono (fun _ _ h _ => h))

theorem loud_calm {p : Prog LogWorld α} {q : Prog World α} {R : World → Res α × World → List LogMsg → Prop}
    (hp : Logs p q R) (hq : Calm q) : Logs p q (fun _ => Loud) := by
  refine hp.mono ?_
  intro w new _ e he hr
  exact absurd hr (hq w e (q w).2 (by rw [← he]))

theorem loud_say {m : LogMsg} {p : Prog LogWorld β} {q : Prog World β} (hp : Logs p q (fun _ => Loud)) :
    Logs (Eip.say m >>= fun _ => p) q (fun _ => Loud) := by
  refine (say_bind m hp).mono ?_
  rintro w new ⟨n, rfl, h⟩ e he hr
  exact Complains.cons.mpr (Or.inr (h e he hr))

theorem loud_sayIf {c : Prop} [Decidable c] {m : LogMsg} {p : Prog LogWorld β}
    {q : Prog World β} (hp : Logs p q (fun _ => Loud)) : Logs (Eip.sayIf c m >>= fun _ => p) q (fun _ => Loud) := by
  refine (sayIf_bind c m hp).mono ?_
  rintro w new ⟨n, rfl, h⟩ e he hr
  exact Complains.append.mpr (Or.inr (h e he hr))

theorem loud_fail {m : LogMsg} (hm : m.level = .error) {p : Prog LogWorld β} {q : Prog World β}
    {R : World → Res β × World → List LogMsg → Prop} (hp : Logs p q R) :
    Logs (Eip.say m >>= fun _ => p) q (fun _ => Loud) := by
  refine (say_bind m hp).mono ?_
  rintro w new ⟨n, rfl, h⟩ e he hr
  exact Complains.cons.mpr (Or.inl hm)

theorem loud_catch {p : Prog LogWorld α} {q : Prog World α} {a b : Exn → Prog LogWorld α} {a' b' : Prog World α}
    {R : World → Res α × World → List LogMsg → Prop} (hp : Logs p q R)
    (hq : ∀ w e w', q w = (.throw e, w') → e.kind.isA .lengthError = false → e.kind.isA .logicError = false → ¬ Reported e)
    (ha : ∀ e, Logs (a e) a' (fun _ => Loud)) (hb : ∀ e, Logs (b e) b' (fun _ => Loud)) :
    Logs (Session.Logged.catchLengthLogic p a b) (Session.catchLengthLogic q a' b') (fun _ => Loud) := by
  refine (catchLengthLogic hp ha hb).mono ?_
  rintro w new (⟨x, w', _, e2, h⟩ | ⟨u, w', _, e2, h⟩ | ⟨e, w', n1, n2, he, rfl, _, h⟩)
  · rw [e2]; intro x hx; cases hx
  · rw [e2]; intro x hx; cases hx
  · rcases h with ⟨_, e2, h⟩ | ⟨_, _, e2, h⟩ | ⟨k1, k2, e2, _⟩
    · rw [e2]
      intro x hx hr
      exact Complains.append.mpr (Or.inr (h x hx hr))
    · rw [e2]
      intro x hx hr
      exact Complains.append.mpr (Or.inr (h x hx hr))
    · rw [e2]
      intro x hx hr
      cases hx
      exact absurd hr (hq _ _ _ he k1 k2)

theorem sendCommand_kinds {req : EncapPacket} {bs : Bytes} (ho : Serializes req.obj bs) (w : World) (e : Exn) (w' : World)
    (h : Session.sendCommand req w = (.throw e, w')) (h1 : e.kind.isA .lengthError = false)
    (h2 : e.kind.isA .logicError = false) : ¬ Reported e := by
  rcases sendCommand_cases ho w with ⟨_, h'⟩ | ⟨_, _, h'⟩ | ⟨_, _, ⟨_, _, _, h'⟩ | ⟨_, e', hk, h'⟩⟩ <;> rw [h'] at h <;> cases h
  · exact not_reported_system
  · exact not_reported_system
  · rcases hk with hk | hk <;> rw [hk] at h1 h2
    · cases h1
    · cases h2

theorem rrResponse_kinds {h : EncapHeader} {payload : Bytes} (w : World) (e : Exn) (w' : World)
    (he : Session.onLocal RRDataResponse.new ((EncapPacket.mk h (rawData payload)).getPayloadAs RRDataResponse.cls) w =
      (.throw e, w')) (h1 : e.kind.isA .lengthError = false) (h2 : e.kind.isA .logicError = false) : ¬ Reported e := by
  exfalso
  by_cases hne : payload = []
  · subst hne
    rw [Session.onLocal, getPayloadAs_null] at he
    cases he
  · rw [Session.onLocal, getPayloadAs_raw _ rfl h hne] at he
    rcases RRDataResponse.parse_cases payload payload.length RRDataResponse.new with
        ⟨s, st, a, d, hr⟩ | hr | ⟨ex, d', e3, hk⟩
    · obtain ⟨base, e3⟩ := RRDataResponse.parse_reply hr payload.length RRDataResponse.new
      rw [e3] at he
      cases he
    · obtain ⟨d', e3⟩ := RRDataResponse.parse_empty hr payload.length RRDataResponse.new
      rw [e3] at he
      cases he
    · rw [e3] at he
      cases he
      rcases hk with hk | hk <;> rw [hk] at h1 h2
      · cases h1
      · cases h2

theorem sendCommand_raw {req : EncapPacket} {bs : Bytes} (ho : Serializes req.obj bs) (w : World) (p : EncapPacket)
    (w' : World) (h : Session.sendCommand req w = (.ok p, w')) : ∃ x payload, p = ⟨x, rawData payload⟩ := by
  rcases sendCommand_cases ho w with ⟨_, h'⟩ | ⟨_, _, h'⟩ | ⟨_, _, ⟨x, payload, _, h'⟩ | ⟨_, e', hk, h'⟩⟩ <;> rw [h'] at h <;> cases h
  exact ⟨x, payload, rfl⟩

/-- Catching turns nothing into a normal result. -/
theorem catch_raise_ok {q a b : Prog World α} (ha : ∀ w, ∃ e, (a w).1 = .throw e) (hb : ∀ w, ∃ e, (b w).1 = .throw e)
    {w w' : World} {x : α} (h : Session.catchLengthLogic q a b w = (.ok x, w')) : q w = (.ok x, w') := by
  simp only [Session.catchLengthLogic, Prog.tryCatch] at h
  rcases hq : q w with ⟨(y | e | u), w1⟩ <;> rw [hq] at h
  · exact h
  · simp only at h
    split at h
    · obtain ⟨e', he⟩ := ha w1
      rw [h] at he; cases he
    · split at h
      · obtain ⟨e', he⟩ := hb w1
        rw [h] at he; cases he
      · cases h
  · cases h

theorem loud_sendRR (service : UInt8) (path : Path) (data : Option Obj)
    (hs : ∀ handle, ∃ bs, Serializes (rrPacket handle service path data).obj bs) :
    Logs (Session.Logged.sendRRDataCommand service path data) (Session.sendRRDataCommand service path data)
      (fun _ => Loud) := by
  refine loud_say (get fun w l => ?_)
  obtain ⟨bs, hb⟩ := hs w.s.sessionId
  refine loud_bind (K := fun p => ∃ x payload, p = ⟨x, rawData payload⟩)
    (loud_catch (fair_sendCommand _) (sendCommand_kinds hb) (fun _ => loud_fail rfl (raise _))
      (fun _ => loud_fail rfl (raise _)))
    (fun w a w' h => sendCommand_raw hb w a w' (catch_raise_ok (fun _ => ⟨_, rfl⟩) (fun _ => ⟨_, rfl⟩) h))
    fun response => ?_
  by_cases hr : ∃ x payload, response = ⟨x, rawData payload⟩
  · obtain ⟨x, payload, rfl⟩ := hr
    refine Logs.mono (R := fun _ => Loud) ?_ (fun _ _ h _ => h)
    refine loud_bind' (loud_catch (parseResponse _) rrResponse_kinds
      (fun _ => loud_fail rfl (raise _)) (fun _ => loud_fail rfl (raise _))) fun resp => ?_
    exact loud_sayIf (ite (fun _ => loud_fail rfl (raise _)) (fun _ => loud_calm (pure _) (Calm.pure _)))
  · refine Logs.mono (R := fun _ _ _ => True) ?_ (fun _ _ _ h => absurd h hr)
    refine (bind (catchLengthLogic (A := fun _ _ _ => True) (B := fun _ _ _ => True) (parseResponse _)
      (fun _ => (say_bind _ (raise _)).any) (fun _ => (say_bind _ (raise _)).any))
      fun resp => sayIf_bind _ _ (ite (R := fun _ _ _ => True) (fun _ => (say_bind _ (raise _)).any)
        (fun _ => (pure _).any))).any

theorem loud_parseRegistration (response : EncapPacket) (hr : ∃ x payload, response = ⟨x, rawData payload⟩) :
    Logs (Session.Logged.parseRegistration response) (Session.parseRegistration response) (fun _ => Loud) := by
  refine loud_calm (fair_parseRegistration response) ?_
  intro w e w' he
  obtain ⟨x, payload, rfl⟩ := hr
  by_cases hne : payload = []
  · subst hne
    have : Session.parseRegistration (⟨x, rawData []⟩ : EncapPacket) w = (.ub .nullDeref, w) := rfl
    rw [this] at he
    cases he
  · by_cases hl : payload.length < 4
    · rw [parseRegistration_short hne hl] at he
      cases he
    · obtain ⟨v, o, tail, e2⟩ : ∃ (v o : UInt16) (tail : Bytes), payload = register v o ++ tail := by
        obtain ⟨x1, y1, e1, hx1, hy1⟩ := split_length 2 2 (bs := payload.take 4) (by rw [List.length_take]; omega)
        obtain ⟨v, rfl⟩ := exists_le16 x1 hx1
        obtain ⟨o, rfl⟩ := exists_le16 y1 hy1
        exact ⟨v, o, payload.drop 4, by rw [register, ← e1, List.take_append_drop]⟩
      rw [parseRegistration_long e2] at he
      cases he

end Logs
end Eip

namespace Eip
open Spec
namespace Logs
variable {α β : Type}

theorem loud_open (h p i : String) :
    Logs (Session.Logged.open h p i) (Session.open h p i) (fun _ => Loud) := by
  refine loud_say (loud_bind' (loud_calm (quiet _) (Calm.sockOpen _ _ _)) fun _ =>
    loud_bind' (loud_calm (quiet _) (Calm.sockOpen _ _ _)) fun _ => loud_say ?_)
  refine loud_bind (K := fun p => ∃ x payload, p = ⟨x, rawData payload⟩)
    (loud_catch (fair_sendCommand _) (sendCommand_kinds registration_serializes)
      (fun _ => loud_bind' (loud_calm (quiet _) Calm.closeSockets) fun _ => loud_fail rfl (raise _))
      (fun _ => loud_bind' (loud_calm (quiet _) Calm.closeSockets) fun _ => loud_fail rfl (raise _)))
    (fun w a w' h => sendCommand_raw registration_serializes w a w'
      (catch_raise_ok (closing_throws _) (closing_throws _) h))
    fun response => ?_
  by_cases hr : ∃ x payload, response = ⟨x, rawData payload⟩
  · refine Logs.mono (R := fun _ => Loud) ?_ (fun _ _ h _ => h)
    refine loud_bind' (loud_parseRegistration response hr) fun d => ?_
    cases d with
    | none => exact loud_bind' (loud_calm (quiet _) (Calm.modify _)) fun _ => loud_calm (say _) (Calm.pure _)
    | some d =>
      refine ite (fun _ => ?_) (fun _ => ?_)
      · exact loud_fail rfl (bind (quiet _) fun _ => raise _)
      · exact loud_sayIf (loud_bind' (loud_calm (quiet _) (Calm.modify _)) fun _ => loud_calm (say _) (Calm.pure _))
  · refine Logs.mono (R := fun _ _ _ => True) ?_ (fun _ _ _ h => absurd h hr)
    refine (bind (S := fun _ _ _ _ => True) (fair_parseRegistration response) fun d => ?_).any
    cases d with
    | none => exact (bind (quiet _) fun _ => say _).any
    | some d =>
      exact ite (fun _ => (say_bind _ (bind (quiet _) fun _ => raise _)).any)
        (fun _ => (sayIf_bind _ _ (bind (quiet _) fun _ => say _)).any)

theorem loud_close : Logs Session.Logged.close Session.close (fun _ => Loud) := by
  refine loud_say (get fun w l => loud_bind' (loud_calm (quiet _) (Calm.sockSend (unregister_serializes _) _)) fun _ =>
    loud_say ?_)
  exact loud_bind' (loud_calm (quiet _) Calm.closeSockets) fun _ => loud_calm (quiet _) (Calm.modify _)

theorem loud_set (x y z : UInt8) {d : Option Obj} {bs : Bytes} (hd : EncodesOpt d bs) :
    Logs (Session.Logged.setSingleAttributeSerializable x y z d) (Session.setSingleAttributeSerializable x y z d)
      (fun _ => Loud) :=
  loud_bind' (loud_sendRR _ _ _ fun _ => ⟨_, rr_serializes _ _ (path3 x y z) hd⟩) fun _ => loud_calm (pure _) (Calm.pure _)

theorem loud_get {δ : Type} (c : Class δ) (hc : ∀ n, Calm (c.runLen n)) (init : δ) (x y z : UInt8) :
    Logs (Op.runLogged (.getAttribute δ c init x y z)) (Op.run (.getAttribute δ c init x y z)) (fun _ => Loud) := by
  rw [getAttribute_runLogged, getAttribute_run]
  refine loud_bind (loud_sendRR _ _ _ fun _ => ⟨_, rr_serializes _ _ (path3 x y z) (data := none) rfl⟩)
    (sendRR_parsed _ _ _) fun resp => (const _).mono ?_
  intro w new _ hp e he hr
  exact absurd hr (hp.calm c hc init e he)

theorem loud_create (o t : ConnectionInfo) :
    Logs (Session.Logged.createConnection o t) (Session.createConnection o t) (fun _ => Loud) := by
  refine get fun w l => loud_bind' (loud_calm (quiet _) (Calm.modify _)) fun _ =>
    loud_bind (loud_sendRR _ _ _ fun _ => ⟨_, rr_serializes _ _ (path2 6 1)
      (data := some (w.s.prepareConnection o t).createForwardOpenRequest.obj)
      (ForwardOpenRequest.encodes (w.s.prepareConnection o t).createForwardOpenRequest)⟩)
    (sendRR_parsed _ _ _) fun resp => ?_
  have H : ∀ result, Logs (match (Session.prepareConnection w.s o t).verifyForwardOpenResult result with
      | (false, _) => do
        Eip.say .forwardOpenInvalid
        Prog.raise (logicError "Forward Open Response Invalid")
      | (true, conn') => do
        Eip.quiet (Prog.modify (fun w => { w with s := { w.s with connections := w.s.connections ++ [conn'] } }))
        let s ← Prog.get
        Pure.pure (sizeToInt (sizeSub s.w.s.connections.length 1)))
      (match (Session.prepareConnection w.s o t).verifyForwardOpenResult result with
      | (false, _) => Prog.raise (logicError "Forward Open Response Invalid")
      | (true, conn') => do
        Prog.modify (fun w => { w with s := { w.s with connections := w.s.connections ++ [conn'] } })
        let w ← Prog.get
        Pure.pure (sizeToInt (sizeSub w.s.connections.length 1))) (fun _ => Loud) := by
    intro result
    rcases (Session.prepareConnection w.s o t).verifyForwardOpenResult result with ⟨(_ | _), c⟩
    · exact loud_fail rfl (raise _)
    · exact loud_bind' (loud_calm (quiet _) (Calm.modify _)) fun _ => get fun w l => loud_calm (pure _) (Calm.pure _)
  by_cases hp : Parsed resp
  · refine Logs.mono (R := fun _ => Loud) ?_ (fun _ _ h _ => h)
    refine loud_bind' (loud_calm (onLocal _ _) (hp.openCalm _)) fun result => ?_
    refine (sayAll_bind _ (H result)).mono ?_
    rintro w' new ⟨n, rfl, h⟩ e he hr
    exact Complains.append.mpr (Or.inr (h e he hr))
  · refine Logs.mono (R := fun _ _ _ => True) ?_ (fun _ _ _ h => absurd h hp)
    exact (bind (onLocal _ _) fun result => sayAll_bind _ (H result)).any

theorem loud_closeConnection (n : Nat) :
    Logs (Session.Logged.closeConnection n) (Session.closeConnection n) (fun _ => Loud) := by
  refine get fun w l => ?_
  simp only
  cases w.s.connections[n]? with
  | none => exact loud_calm (undef _) (by intro w e w' he; cases he)
  | some c =>
    refine loud_bind (loud_sendRR _ _ _ fun _ => ⟨_, rr_serializes _ _ (path2 6 1)
      (data := some c.createForwardCloseRequest.obj) (closeRequest_encodes c)⟩) (sendRR_parsed _ _ _) fun resp => ?_
    have H : ∀ (w : World) (result : ForwardCloseSuccess), Logs (match w.s.connections[n]? with
      | none => Prog.undef .indexOutOfRange
      | some c => do
        Eip.say (.comparing c.connectionSn result.connectionSn)
        if c.verifyForwardCloseResult result then
          Eip.quiet (Prog.modify (fun w => { w with s := { w.s with connections := w.s.connections.eraseIdx n } }))
        else do
          Eip.say .forwardCloseInvalid
          Prog.raise (logicError "Forward Close Response Invalid")) (match w.s.connections[n]? with
      | none => Prog.undef .indexOutOfRange
      | some c =>
        if c.verifyForwardCloseResult result then
          Prog.modify (fun w => { w with s := { w.s with connections := w.s.connections.eraseIdx n } })
        else Prog.raise (logicError "Forward Close Response Invalid")) (fun _ => Loud) := by
      intro w result
      cases w.s.connections[n]? with
      | none => exact loud_calm (undef _) (by intro w e w' he; cases he)
      | some c => exact loud_say (ite (fun _ => loud_calm (quiet _) (Calm.modify _)) (fun _ => loud_fail rfl (raise _)))
    by_cases hp : Parsed resp
    · refine Logs.mono (R := fun _ => Loud) ?_ (fun _ _ h _ => h)
      exact loud_bind' (loud_calm (onLocal _ _) (hp.closeCalm _)) fun result => get fun w l => H w result
    · refine Logs.mono (R := fun _ _ _ => True) ?_ (fun _ _ _ h => absurd h hp)
      exact (bind (onLocal _ _) fun result => get fun w l => H w result).any

theorem Calm.receiveIO : Calm Session.receiveIOPacket := by
  intro w e w' he
  rw [receiveIO_eq] at he
  split at he
  · cases he
    exact not_reported_system
  · rcases covers_cpf (delivered w.env w.clock) with ⟨cs, tail, ⟨l, hl, rfl⟩, e1⟩ | ⟨cs, m, ⟨l, hl, rfl⟩, hm, e1⟩
    · have e2 := (CPFPacket.parses l hl.1 hl.2 ⟨[]⟩ 0).buffer tail
      rw [← e1] at e2
      rw [e2] at he
      cases he
    · obtain ⟨what, d1, r1, e2⟩ := (CPFPacket.parses l hl.1 hl.2 ⟨[]⟩ 0).short _ m e1 hm
      rw [e2] at he
      cases he
      exact not_reported_length what

theorem loud_sendIO {p : CPFPacket} {bs : Bytes} (hp : Serializes p.obj bs) :
    Logs (Session.Logged.sendIOPacket p) (Session.sendIOPacket p) (fun _ => Loud) :=
  loud_say (loud_bind' (loud_calm (quiet _) (Calm.sockSend hp _)) fun _ => loud_calm (pure _) (Calm.pure _))

theorem loud_forget {p : Prog LogWorld α} {q : Prog World α} (h : Logs p q (fun _ => Loud)) :
    Logs p.forget q.forget (fun _ => Loud) := loud_bind' h fun _ => loud_calm (pure _) (Calm.pure _)

/-- The exceptions that sessions make up come with an error message. -/
theorem op_loud (o : Op) (ht : Tame o) : Logs o.runLogged o.run (fun _ => Loud) := by
  cases o with
  | «open» h p i => exact loud_open h p i
  | close => exact loud_close
  | getAttribute δ c init x y z => exact loud_get c ht init x y z
  | setAttribute x y z d =>
    obtain ⟨bs, hd⟩ := ht
    exact loud_set x y z hd
  | createConnection o t => exact loud_forget (loud_create o t)
  | closeConnection n => exact loud_closeConnection n
  | getConnection n =>
    refine loud_calm (quiet _) ?_
    intro w e w' he
    have e1 : Session.getConnection n w = (match w.s.connections[n]? with
      | none => (.ub .indexOutOfRange, w)
      | some c => (.ok c, w)) := by
      rw [Session.getConnection, Prog.bind_ok (p := Prog.get) (s := w) (a := w) (s' := w) rfl]
      cases w.s.connections[n]? <;> rfl
    replace he : (Session.getConnection n >>= fun _ => Pure.pure ()) w = (.throw e, w') := he
    cases hn : w.s.connections[n]? <;> rw [hn] at e1
    · rw [Prog.bind_ub e1] at he; cases he
    · rw [Prog.bind_ok e1] at he; cases he
  | receiveIOPacket => exact loud_forget (loud_calm fair_receiveIO Calm.receiveIO)
  | sendIOPacket p =>
    obtain ⟨bs, hp⟩ := ht
    exact loud_sendIO (Serializes.of hp)

end Logs
end Eip
