import Verif.Lemmas.Strategy
/-
On the control socket every receive directly follows a send.
-/
namespace Eip
open Spec

variable {α β : Type}

/-- Every receive on the control socket directly follows a send on it that did not fail. -/
inductive Paired : List Ev → Prop
  | nil : Paired []
  | exchange {b data : Bytes} {ok : Bool} {rest : List Ev} (more : Paired rest) :
      Paired (.sent .tcp b true :: .received .tcp data ok :: rest)
  | other {ev : Ev} {rest : List Ev} (h : ∀ data ok, ev ≠ .received .tcp data ok) (more : Paired rest) : Paired (ev :: rest)

theorem Paired.append {l l' : List Ev} (h : Paired l) (h' : Paired l') : Paired (l ++ l') := by
  induction h with
  | nil => exact h'
  | exchange _ ih => exact .exchange ih
  | other hn _ ih => exact .other hn ih

/-- The events the program adds are paired. -/
def Pairs {ρ : Type} (p : World → ρ × World) : Prop := ∀ w, ∃ evs, (p w).2.trace = w.trace ++ evs ∧ Paired evs

theorem Pairs.same {ρ : Type} {p : World → ρ × World} (h : ∀ w, (p w).2.trace = w.trace) : Pairs p :=
  fun w => ⟨[], by rw [h, List.append_nil], .nil⟩

theorem Pairs.seq {ρ ρ' : Type} {p : World → ρ × World} {f : ρ → World → ρ' × World} (hp : Pairs p)
    (hf : ∀ r, Pairs (f r)) : Pairs (fun w => f (p w).1 (p w).2) := by
  intro w
  obtain ⟨e1, h1, q1⟩ := hp w
  obtain ⟨e2, h2, q2⟩ := hf (p w).1 (p w).2
  exact ⟨e1 ++ e2, by rw [h2, h1, List.append_assoc], q1.append q2⟩

theorem Pairs.congr {ρ : Type} {p q : World → ρ × World} (hp : Pairs p) (h : ∀ w, q w = p w) : Pairs q := by
  intro w
  rw [h]
  exact hp w

theorem Pairs.pure (a : α) : Pairs (Pure.pure a : Prog World α) := .same fun _ => rfl
theorem Pairs.raise (e : Exn) : Pairs (Prog.raise e : Prog World α) := .same fun _ => rfl
theorem Pairs.undef (u : UB) : Pairs (Prog.undef u : Prog World α) := .same fun _ => rfl

theorem Pairs.bind {p : Prog World α} {f : α → Prog World β} (hp : Pairs p) (hf : ∀ a, Pairs (f a)) : Pairs (p >>= f) := by
  refine (Pairs.seq (f := fun r w => match r with
    | .ok a => f a w
    | .throw e => (.throw e, w)
    | .ub u => (.ub u, w)) hp ?_).congr ?_
  · rintro (a | e | u)
    · exact hf a
    · exact Pairs.raise e
    · exact Pairs.undef u
  · intro w
    simp only [Prog.bind_def, Prog.andThen]
    rcases p w with ⟨(a | e | u), w'⟩ <;> rfl

theorem Pairs.tryCatch {p : Prog World α} {f : Exn → Prog World α} (hp : Pairs p) (hf : ∀ e, Pairs (f e)) :
    Pairs (Prog.tryCatch p f) := by
  refine (Pairs.seq (f := fun r w => match r with
    | .ok a => (.ok a, w)
    | .throw e => f e w
    | .ub u => (.ub u, w)) hp ?_).congr ?_
  · rintro (a | e | u)
    · exact Pairs.pure a
    · exact hf e
    · exact Pairs.undef u
  · intro w
    simp only [Prog.tryCatch]
    rcases p w with ⟨(a | e | u), w'⟩ <;> rfl

theorem Pairs.catchLL {p a b : Prog World α} (hp : Pairs p) (ha : Pairs a) (hb : Pairs b) :
    Pairs (Session.catchLengthLogic p a b) := by
  refine Pairs.tryCatch hp (fun e => ?_)
  split
  · exact ha
  · split
    · exact hb
    · exact Pairs.raise e

theorem Pairs.get {f : World → Prog World β} (hf : ∀ w, Pairs (f w)) : Pairs ((Prog.get : Prog World World) >>= f) :=
  fun w => hf w w

theorem Pairs.modify (g : Session → Session) : Pairs (Prog.modify (fun w : World => { w with s := g w.s })) :=
  .same fun _ => rfl

theorem Pairs.local {δ : Type} (init : δ) (p : Prog δ Unit) : Pairs (Session.onLocal init p : Prog World δ) := by
  refine .same fun w => ?_
  rcases h : p init with ⟨(a | e | u), d⟩ <;> simp only [Session.onLocal, h]

theorem Pairs.parsePacket (bytes : Bytes) : Pairs (Session.parsePacket bytes : Prog World EncapPacket) := by
  refine .same fun w => ?_
  rcases h : EncapPacket.deserialize (EncapPacket.new, .buffer (BufferReader.new bytes)) with ⟨(a | e | u), d⟩ <;>
    simp only [Session.parsePacket, h]

theorem vector_same (n : Nat) (p : Prog Writer Unit) (w : World) : ((serializeToVector n p : Prog World Bytes) w).2 = w := by
  rcases h : p (.buffer (BufferWriter.new (List.replicate n 0))) with ⟨(a | e | u), (d | d)⟩ <;>
    simp only [serializeToVector, h]

/-- A socket call that is not a receive on the control socket. -/
theorem Pairs.call {ev : Answer → Ev} (h : ∀ a data ok, ev a ≠ .received .tcp data ok) : Pairs (sockCall ev) := by
  intro w
  refine ⟨[ev (w.env w.clock)], ?_, .other (h _) .nil⟩
  simp only [sockCall]
  split <;> rfl

theorem Pairs.sockOpen (x : Sock) (host port : String) : Pairs (sockOpen x host port) :=
  (Pairs.call (by intro _ _ _ h; cases h)).bind fun _ => Pairs.pure _

theorem Pairs.sockClose (x : Sock) : Pairs (sockClose x) :=
  (Pairs.call (by intro _ _ _ h; cases h)).bind fun _ => Pairs.pure _

theorem Pairs.sockSend (x : Sock) (o : Obj) : Pairs (sockSend x o) :=
  Pairs.bind (.same fun w => by rw [vector_same]) fun _ =>
    (Pairs.call (by intro _ _ _ h; cases h)).bind fun _ => Pairs.pure _

theorem Pairs.receiveIO : Pairs (sockReceive .io) :=
  (Pairs.call (by intro _ _ _ h; cases h)).bind fun _ => (.bind (.same fun _ => rfl) fun _ => Pairs.get fun _ => Pairs.pure _)

/-- A send on the control socket and a receive directly after it. -/
theorem Pairs.exchange (o : Obj) {f : Bytes → Prog World β} (hf : ∀ b, Pairs (f b)) :
    Pairs (Eip.sockSend .tcp o >>= fun _ => sockReceive .tcp >>= f) := by
  have h0 : Pairs (Eip.sockSend .tcp o >>= fun _ => sockReceive .tcp) := by
    intro w
    simp only [Eip.sockSend, Prog.bind_def, Prog.andThen]
    have hv := vector_same o.getLength o.serialize w
    rcases hs : (serializeToVector o.getLength o.serialize : Prog World Bytes) w with ⟨(bs | e | u), w1⟩
    · rw [hs] at hv
      cases hv
      simp only [sockSendBuffer, sockCall, Prog.bind_def, Prog.andThen]
      by_cases hf : (w1.env w1.clock).fails = true
      · exact ⟨[.sent .tcp bs false], by simp [hf], .other (by intro _ _ h; cases h) .nil⟩
      · rw [Bool.not_eq_true] at hf
        simp only [hf, Pure.pure, Prog.ret, Bool.not_false, Bool.false_eq_true, if_false]
        simp only [Eip.sockReceive, sockCall, Prog.bind_def, Prog.andThen]
        refine ⟨[.sent .tcp bs true, .received .tcp ((w1.env (w1.clock + 1)).data.take recvCapacity)
          (!(w1.env (w1.clock + 1)).fails)], ?_, .exchange .nil⟩
        by_cases hg : (w1.env (w1.clock + 1)).fails = true
        · simp [hg]
        · simp [hg, Prog.modify, Prog.get, Pure.pure, Prog.ret]
    · rw [hs] at hv
      cases hv
      exact ⟨[], by simp, .nil⟩
    · rw [hs] at hv
      cases hv
      exact ⟨[], by simp, .nil⟩
  have e : (Eip.sockSend .tcp o >>= fun _ => sockReceive .tcp >>= f) = ((Eip.sockSend .tcp o >>= fun _ => sockReceive .tcp) >>= f) := by
    funext w
    simp only [Prog.bind_def, Prog.andThen]
    rcases Eip.sockSend .tcp o w with ⟨(a | e | u), w'⟩ <;> rfl
  rw [e]
  exact h0.bind hf

theorem Pairs.closeSockets : Pairs Session.closeSockets := (Pairs.sockClose .tcp).bind fun _ => Pairs.sockClose .io

theorem Pairs.checkPacket (pkt : EncapPacket) (cmd : UInt16) : Pairs (Session.checkPacket pkt cmd) := by
  refine Pairs.get fun w => ?_
  repeat' split
  all_goals first | exact Pairs.raise _ | exact Pairs.pure _

theorem Pairs.sendCommand (req : EncapPacket) : Pairs (Session.sendCommand req) :=
  Pairs.exchange _ fun _ => (Pairs.parsePacket _).bind fun _ => (Pairs.checkPacket _ _).bind fun _ => Pairs.pure _

theorem Pairs.open (host port ioPort : String) : Pairs (Session.open host port ioPort) := by
  refine (Pairs.sockOpen _ _ _).bind fun _ => (Pairs.sockOpen _ _ _).bind fun _ =>
    (Pairs.catchLL (Pairs.sendCommand _) (Pairs.closeSockets.bind fun _ => Pairs.raise _)
      (Pairs.closeSockets.bind fun _ => Pairs.raise _)).bind fun response =>
    (Pairs.catchLL ((Pairs.local _ _).bind fun _ => Pairs.pure _) (Pairs.pure _) (Pairs.pure _)).bind fun d => ?_
  have adopt : Pairs (Prog.modify fun w : World => { w with s := { w.s with sessionId := response.header.sessionHandle } }) :=
    Pairs.modify fun s => { s with sessionId := response.header.sessionHandle }
  rcases d with _ | d
  · exact adopt
  · dsimp only
    split
    · exact Pairs.closeSockets.bind fun _ => Pairs.raise _
    · exact adopt

theorem Pairs.close : Pairs Session.close :=
  Pairs.get fun _ => (Pairs.sockSend _ _).bind fun _ => Pairs.closeSockets.bind fun _ => Pairs.modify fun s => { s with sessionId := 0 }

theorem Pairs.sendRR (service : UInt8) (path : Path) (data : Option Obj) :
    Pairs (Session.sendRRDataCommand service path data) := by
  refine Pairs.get fun w => (Pairs.catchLL (Pairs.sendCommand _) (Pairs.raise _) (Pairs.raise _)).bind fun _ =>
    (Pairs.catchLL (Pairs.local _ _) (Pairs.raise _) (Pairs.raise _)).bind fun _ => ?_
  split
  · exact Pairs.raise _
  · exact Pairs.pure _

theorem Pairs.getAttribute {δ : Type} (c : Class δ) (x y z : UInt8) (init : δ) :
    Pairs (fun w => match Session.getSingleAttributeSerializable c x y z (init, w) with
      | (r, (d, w')) => ((r, d), w')) := by
  refine (Pairs.seq (f := fun r w => match r with
    | .ok resp => (resp.getResponseDataAs c init, w)
    | .throw e => ((.throw e, init), w)
    | .ub u => ((.ub u, init), w)) (Pairs.sendRR 0x0E (Path.mk3 x y z) none) ?_).congr ?_
  · rintro (resp | e | u)
    · exact .same fun _ => rfl
    · exact .same fun _ => rfl
    · exact .same fun _ => rfl
  · intro w
    rw [getAttr_eq]
    rcases Session.sendRRDataCommand 0x0E (Path.mk3 x y z) none w with ⟨(a | e | u), w'⟩ <;> rfl

theorem Pairs.createConnection (o t : ConnectionInfo) : Pairs (Session.createConnection o t) := by
  refine Pairs.get fun w => (Pairs.modify fun s => { s with
      nextConnectionSn := s.nextConnectionSn + 1
      nextConnectionId := s.nextConnectionId + 1 + 1 }).bind fun _ => (Pairs.sendRR _ _ _).bind fun _ =>
    (Pairs.local _ _).bind fun result => ?_
  split
  · exact Pairs.raise _
  · next conn' _ =>
    exact (Pairs.modify fun s => { s with connections := s.connections ++ [conn'] }).bind fun _ => Pairs.get fun _ => Pairs.pure _

theorem Pairs.closeConnection (n : Nat) : Pairs (Session.closeConnection n) := by
  refine Pairs.get fun w => ?_
  split
  · exact Pairs.undef _
  · refine (Pairs.sendRR _ _ _).bind fun _ => (Pairs.local _ _).bind fun result => Pairs.get fun w => ?_
    split
    · exact Pairs.undef _
    · split
      · exact Pairs.modify fun s => { s with connections := s.connections.eraseIdx n }
      · exact Pairs.raise _

theorem Pairs.op (op : Op) : Pairs op.run := by
  cases op with
  | «open» h p i => exact Pairs.open h p i
  | close => exact Pairs.close
  | getAttribute δ c init x y z =>
    refine (Pairs.seq (f := fun r w => (r.1, w)) (Pairs.getAttribute c x y z init) fun r => .same fun _ => rfl).congr ?_
    intro w
    simp only [Op.run]
  | setAttribute x y z d => exact (Pairs.sendRR _ _ _).bind fun _ => Pairs.pure _
  | createConnection o t => exact (Pairs.createConnection o t).bind fun _ => Pairs.pure _
  | closeConnection n => exact Pairs.closeConnection n
  | getConnection n =>
    refine Pairs.bind (Pairs.get fun w => ?_) fun _ => Pairs.pure _
    split
    · exact Pairs.undef _
    · exact Pairs.pure _
  | receiveIOPacket => exact Pairs.bind (Pairs.receiveIO.bind fun _ => Pairs.local _ _) fun _ => Pairs.pure _
  | sendIOPacket p => exact (Pairs.sockSend _ _).bind fun _ => Pairs.pure _

end Eip
