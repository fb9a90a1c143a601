import Verif.Lemmas.LogExact
/-
Which kinds of messages calls log.
-/
namespace Eip
open Spec

/-- All messages satisfy `P`. -/
def Only (P : LogMsg → Prop) (new : List LogMsg) : Prop := ∀ m ∈ new, P m

theorem Only.nil {P : LogMsg → Prop} : Only P [] := fun _ h => nomatch h

theorem Only.append {P : LogMsg → Prop} {a b : List LogMsg} : Only P (a ++ b) ↔ Only P a ∧ Only P b := by
  simp only [Only, List.mem_append, or_imp, forall_and]

theorem Only.cons {P : LogMsg → Prop} {m : LogMsg} {b : List LogMsg} : Only P (m :: b) ↔ P m ∧ Only P b := by
  simp only [Only, List.mem_cons, or_imp, forall_and, forall_eq]

theorem Only.when {P : LogMsg → Prop} {c : Prop} [Decidable c] {m : LogMsg} (h : P m) : Only P (when c m) := by
  rw [Spec.when]
  split
  · exact Only.cons.mpr ⟨h, Only.nil⟩
  · exact Only.nil

/-- Messages that neither announce that a session was opened or closed, nor are printed. -/
def Plain : LogMsg → Prop
  | .opened _ | .closed | .comparing .. | .scanShort => False
  | _ => True

namespace Logs
variable {α β : Type} {P : LogMsg → Prop}

theorem only_bind {p : Prog LogWorld α} {q : Prog World α} {f : α → Prog LogWorld β} {g : α → Prog World β}
    (hp : Logs p q (fun _ _ => Only P)) (hf : ∀ a, Logs (f a) (g a) (fun _ _ => Only P)) :
    Logs (p >>= f) (q >>= g) (fun _ _ => Only P) := by
  refine (bind hp hf).mono ?_
  rintro w new (⟨a, w', n1, n2, e, e2, rfl, h1, h2⟩ | ⟨e, w', _, e2, h1⟩ | ⟨u, w', _, e2, h1⟩)
  · exact Only.append.mpr ⟨h1, h2⟩
  · exact h1
  · exact h1

theorem only_silent {p : Prog LogWorld α} {q : Prog World α} (hp : Logs p q (fun _ _ new => new = [])) :
    Logs p q (fun _ _ => Only P) :=
  hp.mono (fun _ _ e => e ▸ Only.nil)

theorem only_say {m : LogMsg} (hm : P m) {p : Prog LogWorld β} {q : Prog World β}
    (hp : Logs p q (fun _ _ => Only P)) : Logs (Eip.say m >>= fun _ => p) q (fun _ _ => Only P) := by
  refine (say_bind m hp).mono ?_
  rintro w new ⟨n, rfl, h⟩
  exact Only.cons.mpr ⟨hm, h⟩

theorem only_sayIf {c : Prop} [Decidable c] {m : LogMsg} (hm : P m) {p : Prog LogWorld β}
    {q : Prog World β} (hp : Logs p q (fun _ _ => Only P)) : Logs (Eip.sayIf c m >>= fun _ => p) q (fun _ _ => Only P) := by
  refine (sayIf_bind c m hp).mono ?_
  rintro w new ⟨n, rfl, h⟩
  exact Only.append.mpr ⟨Only.when hm, h⟩

theorem only_catch {p : Prog LogWorld α} {q : Prog World α} {a b : Exn → Prog LogWorld α} {a' b' : Prog World α}
    (hp : Logs p q (fun _ _ => Only P)) (ha : ∀ e, Logs (a e) a' (fun _ _ => Only P))
    (hb : ∀ e, Logs (b e) b' (fun _ _ => Only P)) :
    Logs (Session.Logged.catchLengthLogic p a b) (Session.catchLengthLogic q a' b') (fun _ _ => Only P) := by
  refine (catchLengthLogic hp ha hb).mono ?_
  rintro w new (⟨x, w', _, e2, h⟩ | ⟨u, w', _, e2, h⟩ | ⟨e, w', n1, n2, _, rfl, h1, h⟩)
  · exact h
  · exact h
  · rcases h with ⟨_, e2, h⟩ | ⟨_, _, e2, h⟩ | ⟨_, _, e2, rfl⟩
    · exact Only.append.mpr ⟨h1, h⟩
    · exact Only.append.mpr ⟨h1, h⟩
    · exact Only.append.mpr ⟨h1, Only.nil⟩

theorem plain_check (pkt : EncapPacket) (c : UInt16) :
    Logs (Session.Logged.checkPacket pkt c) (Session.checkPacket pkt c) (fun _ _ => Only Plain) := by
  refine (checkPacket pkt c).mono ?_
  rintro w new (⟨_, e, rfl⟩ | ⟨_, _, _, e, rfl⟩ | ⟨_, _, _, e, rfl⟩ | ⟨_, _, e, rfl⟩)
  · exact Only.cons.mpr ⟨trivial, Only.nil⟩
  · exact Only.cons.mpr ⟨trivial, Only.nil⟩
  · exact Only.cons.mpr ⟨trivial, Only.nil⟩
  · exact Only.append.mpr ⟨Only.append.mpr ⟨Only.when trivial, Only.when trivial⟩, Only.when trivial⟩

theorem plain_sendCommand (req : EncapPacket) :
    Logs (Session.Logged.sendCommand req) (Session.sendCommand req) (fun _ _ => Only Plain) := by
  refine only_say trivial (only_bind (only_silent (quiet _)) fun _ => only_say trivial
    (only_bind (only_silent (quiet _)) fun bytes => ?_))
  refine only_say trivial ?_
  refine (parse_bind bytes (S := fun _ _ _ => Only Plain) fun p n => only_sayIf trivial
    (only_bind (plain_check p _) fun _ => only_silent (pure p))).mono ?_
  rintro w new (⟨p, _, h⟩ | ⟨e, _, e2, rfl⟩ | ⟨u, _, e2, rfl⟩)
  · exact h
  · exact Only.nil
  · exact Only.nil

theorem plain_sendRR (service : UInt8) (path : Path) (data : Option Obj) :
    Logs (Session.Logged.sendRRDataCommand service path data) (Session.sendRRDataCommand service path data)
      (fun _ _ => Only Plain) := by
  refine only_say trivial (get fun w l => ?_)
  refine only_bind (only_catch (plain_sendCommand _)
    (fun _ => only_say trivial (only_silent (raise _))) (fun _ => only_say trivial (only_silent (raise _)))) fun response => ?_
  refine only_bind (only_catch (only_sayIf trivial (only_silent (onLocal _ _)))
    (fun _ => only_say trivial (only_silent (raise _))) (fun _ => only_say trivial (only_silent (raise _)))) fun resp => ?_
  refine only_sayIf trivial (ite (fun _ => ?_) (fun _ => only_silent (pure _)))
  exact only_say trivial (only_silent (raise _))

theorem plain_parseRegistration (response : EncapPacket) :
    Logs (Session.Logged.parseRegistration response) (Session.parseRegistration response) (fun _ _ => Only Plain) :=
  only_sayIf trivial (only_catch (only_bind (only_silent (onLocal _ _)) fun d => only_silent (pure (some d)))
    (fun _ => only_say trivial (only_silent (pure _))) (fun _ => only_say trivial (only_silent (pure _))))

/-- What `open` says about the session: that it was opened, as the last message, and only if it was. -/
def OpenSays {α : Type} (r : Res α × World) (new : List LogMsg) : Prop :=
  (∃ front a, r.1 = .ok a ∧ new = front ++ [.opened r.2.s.sessionId] ∧ Only Plain front) ∨
  ((∀ a, r.1 ≠ .ok a) ∧ Only Plain new)

theorem says_bind {p : Prog LogWorld α} {q : Prog World α} {f : α → Prog LogWorld β} {g : α → Prog World β}
    (hp : Logs p q (fun _ _ => Only Plain)) (hf : ∀ a, Logs (f a) (g a) (fun _ => OpenSays)) :
    Logs (p >>= f) (q >>= g) (fun _ => OpenSays) := by
  refine (bind hp hf).mono ?_
  rintro w new (⟨a, w', n1, n2, e, e2, rfl, h1, h2⟩ | ⟨e, w', _, e2, h1⟩ | ⟨u, w', _, e2, h1⟩)
  · rw [e2]
    rcases h2 with ⟨front, b, h2, rfl, h3⟩ | ⟨h2, h3⟩
    · exact Or.inl ⟨n1 ++ front, b, h2, (List.append_assoc _ _ _).symm, Only.append.mpr ⟨h1, h3⟩⟩
    · exact Or.inr ⟨h2, Only.append.mpr ⟨h1, h3⟩⟩
  · rw [e2]
    exact Or.inr ⟨by simp, h1⟩
  · rw [e2]
    exact Or.inr ⟨by simp, h1⟩

theorem says_say {m : LogMsg} (hm : Plain m) {p : Prog LogWorld β} {q : Prog World β}
    (hp : Logs p q (fun _ => OpenSays)) : Logs (Eip.say m >>= fun _ => p) q (fun _ => OpenSays) := by
  refine (say_bind m hp).mono ?_
  rintro w new ⟨n, rfl, ⟨front, b, h2, rfl, h3⟩ | ⟨h2, h3⟩⟩
  · exact Or.inl ⟨m :: front, b, h2, rfl, Only.cons.mpr ⟨hm, h3⟩⟩
  · exact Or.inr ⟨h2, Only.cons.mpr ⟨hm, h3⟩⟩

theorem says_sayIf {c : Prop} [Decidable c] {m : LogMsg} (hm : Plain m) {p : Prog LogWorld β} {q : Prog World β}
    (hp : Logs p q (fun _ => OpenSays)) : Logs (Eip.sayIf c m >>= fun _ => p) q (fun _ => OpenSays) := by
  refine (sayIf_bind c m hp).mono ?_
  rintro w new ⟨n, rfl, ⟨front, b, h2, rfl, h3⟩ | ⟨h2, h3⟩⟩
  · exact Or.inl ⟨when c m ++ front, b, h2, (List.append_assoc _ _ _).symm, Only.append.mpr ⟨Only.when hm, h3⟩⟩
  · exact Or.inr ⟨h2, Only.append.mpr ⟨Only.when hm, h3⟩⟩

theorem says_opened (id : UInt32) :
    Logs (do
        Eip.quiet (Prog.modify (fun w => { w with s := { w.s with sessionId := id } }))
        Eip.say (.opened id))
      (Prog.modify (fun w => { w with s := { w.s with sessionId := id } })) (fun _ => OpenSays) := by
  intro w l
  refine ⟨[.opened id], rfl, Or.inl ⟨[], (), rfl, rfl, Only.nil⟩⟩

theorem says_reject (e : Exn) {p : Prog LogWorld α} (hp : Logs p (do Session.closeSockets; Prog.raise e) (fun _ _ => Only Plain)) :
    Logs p (do Session.closeSockets; Prog.raise e) (fun _ => OpenSays) :=
  hp.mono (fun w _ h => Or.inr (And.intro (by
    intro a ha
    obtain ⟨e', he⟩ := closing_throws (α := α) e w
    rw [he] at ha
    exact nomatch ha) h))

theorem says_open (h p i : String) : Logs (Session.Logged.open h p i) (Session.open h p i) (fun _ => OpenSays) := by
  refine says_say (by exact trivial) (says_bind (only_silent (quiet _)) fun _ => says_bind (only_silent (quiet _)) fun _ =>
    says_say (by exact trivial) ?_)
  refine says_bind (only_catch (plain_sendCommand _)
    (fun _ => only_bind (only_silent (quiet _)) fun _ => only_say trivial (only_silent (raise _)))
    (fun _ => only_bind (only_silent (quiet _)) fun _ => only_say trivial (only_silent (raise _)))) fun response => ?_
  refine says_bind (plain_parseRegistration response) fun d => ?_
  cases d with
  | none => exact says_opened _
  | some d =>
    refine ite (fun _ => ?_) (fun _ => ?_)
    · exact says_reject _ (only_say trivial (only_bind (only_silent (quiet _)) fun _ => only_silent (raise _)))
    · exact says_sayIf (by exact trivial) (says_opened _)

/-- The messages of `close`. -/
theorem closeSays : Logs Session.Logged.close Session.close (fun w _ new =>
    new = .closing :: when ((w.env w.clock).fails = false) .closed) := by
  intro w l
  have e := sockSend_eq (unregister_serializes w.s.sessionId) .tcp w
  have e1 : Session.Logged.close ⟨w, l⟩ = (Eip.quiet (sockSend .tcp (EncapPacket.new Session.cmdUnregisterSession w.s.sessionId).obj) >>=
      fun _ => Eip.say .closed >>= fun _ => (do
        Eip.quiet Session.closeSockets
        Eip.quiet (Prog.modify (fun w => { w with s := { w.s with sessionId := 0 } })) : Prog LogWorld Unit))
      ⟨w, l ++ [.closing]⟩ := rfl
  have e2 : Session.close w = (sockSend .tcp (EncapPacket.new Session.cmdUnregisterSession w.s.sessionId).obj >>= fun _ => (do
      Session.closeSockets
      Prog.modify (fun w => { w with s := { w.s with sessionId := 0 } }) : Prog World Unit)) w := rfl
  by_cases h0 : (w.env w.clock).fails = true
  · rw [if_pos h0] at e
    rw [e1, e2, Prog.bind_throw (quiet_throw e _), Prog.bind_throw e]
    refine ⟨_, rfl, ?_⟩
    show [LogMsg.closing] = .closing :: when ((w.env w.clock).fails = false) .closed
    rw [Spec.when, if_neg (by simp [h0])]
  · rw [if_neg h0] at e
    rw [e1, e2, Prog.bind_ok (quiet_ok e _), Prog.bind_ok e, say_then]
    rw [Bool.not_eq_true] at h0
    obtain ⟨new, e3, h⟩ := only_bind (only_silent (P := fun _ => False) (quiet Session.closeSockets))
      (fun _ => only_silent (quiet (Prog.modify (fun w => { w with s := { w.s with sessionId := 0 } }))))
      (w.after (.sent .tcp (request 0x66 w.s.sessionId []) true)) (l ++ [.closing] ++ [.closed])
    refine ⟨[.closing, .closed], ?_, ?_⟩
    rotate_left
    · show [LogMsg.closing, .closed] = .closing :: when ((w.env w.clock).fails = false) .closed
      rw [Spec.when, if_pos h0]
    have hn : new = [] := List.eq_nil_iff_forall_not_mem.mpr h
    rw [hn] at e3
    refine e3.trans ?_
    simp only [List.append_assoc, List.append_nil]
    rfl

theorem plain_verify (c : Connection) (r : ForwardOpenSuccess) : Only Plain (Session.Logged.verifyMessages c r) := by
  rw [Session.Logged.verifyMessages]
  split
  · exact Only.nil
  · refine Only.append.mpr ⟨?_, ?_⟩
    · exact Only.when trivial
    · exact Only.when trivial

theorem plain_create (o t : ConnectionInfo) :
    Logs (Session.Logged.createConnection o t) (Session.createConnection o t) (fun _ _ => Only Plain) := by
  refine get fun w l => only_bind (only_silent (quiet _)) fun _ => only_bind (plain_sendRR _ _ _) fun resp =>
    only_bind (only_silent (onLocal _ _)) fun result => ?_
  have : Logs (match (Session.prepareConnection w.s o t).verifyForwardOpenResult result with
      | (false, _) => do
        Eip.say .forwardOpenInvalid
        Prog.raise (logicError "Forward Open Response Invalid")
      | (true, conn') => do
        Eip.quiet (Prog.modify (fun w => { w with s := { w.s with connections := w.s.connections ++ [conn'] } }))
        let s ← Prog.get
        Pure.pure (sizeToInt (sizeSub s.w.s.connections.length 1)))
      (match (Session.prepareConnection w.s o t).verifyForwardOpenResult result with
      | (false, _) => Prog.raise (logicError "Forward Open Response Invalid")
      | (true, conn') => do
        Prog.modify (fun w => { w with s := { w.s with connections := w.s.connections ++ [conn'] } })
        let w ← Prog.get
        Pure.pure (sizeToInt (sizeSub w.s.connections.length 1))) (fun _ _ => Only Plain) := by
    rcases (Session.prepareConnection w.s o t).verifyForwardOpenResult result with ⟨(_ | _), c⟩
    · exact only_say trivial (only_silent (raise _))
    · exact only_bind (only_silent (quiet _)) fun _ => get fun w l => only_silent (pure _)
  refine (sayAll_bind _ this).mono ?_
  rintro w' new ⟨n, rfl, h⟩
  exact Only.append.mpr ⟨plain_verify _ _, h⟩

theorem only_parseIO (bytes : Bytes) {f : CPFPacket × Nat → Prog LogWorld CPFPacket}
    (hf : ∀ p n, Logs (f (p, n)) (Pure.pure p) (fun _ _ => Only P)) :
    Logs (Session.Logged.parseIO bytes >>= f) (Session.onLocal ⟨[]⟩ (fun p =>
      match CPFPacket.deserialize (p, .buffer (BufferReader.new bytes)) with
      | (r, (p', _)) => (r, p'))) (fun _ _ => Only P) := by
  intro w l
  have e2 : ∀ r p rd, CPFPacket.deserialize (⟨[]⟩, .buffer (BufferReader.new bytes)) = (r, (p, rd)) →
      Session.onLocal (σ := World) ⟨[]⟩ (fun p =>
      match CPFPacket.deserialize (p, .buffer (BufferReader.new bytes)) with
      | (r, (p', _)) => (r, p')) w = (match r with | .ok () => .ok p | .throw e => .throw e | .ub u => .ub u, w) := by
    intro r p rd h
    simp only [Session.onLocal, h]
    cases r <;> rfl
  rcases hd : CPFPacket.deserialize (⟨[]⟩, .buffer (BufferReader.new bytes)) with ⟨(x | e | u), p, r⟩
  · have e1 : Session.Logged.parseIO bytes (⟨w, l⟩ : LogWorld) = (.ok (p, r.getByteCount), ⟨w, l⟩) := by
      rw [Session.Logged.parseIO, hd]
    rw [Prog.bind_ok e1, e2 _ _ _ hd]
    exact hf p r.getByteCount w l
  · have e1 : Session.Logged.parseIO bytes (⟨w, l⟩ : LogWorld) = (.throw e, ⟨w, l⟩) := by
      rw [Session.Logged.parseIO, hd]
    rw [Prog.bind_throw e1, e2 _ _ _ hd]
    exact ⟨[], by rw [List.append_nil], Only.nil⟩
  · have e1 : Session.Logged.parseIO bytes (⟨w, l⟩ : LogWorld) = (.ub u, ⟨w, l⟩) := by
      rw [Session.Logged.parseIO, hd]
    rw [Prog.bind_ub e1, e2 _ _ _ hd]
    exact ⟨[], by rw [List.append_nil], Only.nil⟩

theorem plain_receiveIO : Logs Session.Logged.receiveIOPacket Session.receiveIOPacket (fun _ _ => Only Plain) :=
  only_say trivial (only_bind (only_silent (quiet _)) fun bytes => only_say trivial
    (only_parseIO bytes fun _ _ => only_sayIf trivial (only_silent (pure _))))

theorem only_forget {p : Prog LogWorld α} {q : Prog World α} (h : Logs p q (fun _ _ => Only P)) :
    Logs p.forget q.forget (fun _ _ => Only P) := only_bind h fun _ => only_silent (pure _)

/-- No call but `closeConnection` prints. -/
theorem op_logged (o : Op) (ho : ∀ n, o ≠ .closeConnection n) :
    Logs o.runLogged o.run (fun _ _ => Only (fun m => m.level ≠ .print)) := by
  have up : ∀ {m}, Plain m → m.level ≠ .print := by
    intro m hm
    cases m <;> first | (exact hm.elim) | (intro h; cases h)
  have lift : ∀ {a : List LogMsg}, Only Plain a → Only (fun m => m.level ≠ .print) a := fun h m hm => up (h m hm)
  have liftL : ∀ {α} {p : Prog LogWorld α} {q : Prog World α}, Logs p q (fun _ _ => Only Plain) →
    Logs p q (fun _ _ => Only (fun m => m.level ≠ .print)) := fun h => h.mono (fun _ _ => lift)
  cases o with
  | «open» h p i =>
    refine (says_open h p i).mono ?_
    rintro w new (⟨front, _, _, rfl, h⟩ | ⟨_, h⟩)
    · exact Only.append.mpr ⟨lift h, Only.cons.mpr ⟨by simp [LogMsg.level], Only.nil⟩⟩
    · exact lift h
  | close =>
    refine closeSays.mono ?_
    rintro w new rfl
    exact Only.cons.mpr ⟨by simp [LogMsg.level], Only.when (by simp [LogMsg.level])⟩
  | getAttribute δ c init x y z =>
    rw [getAttribute_runLogged, getAttribute_run]
    exact liftL (only_bind (plain_sendRR _ _ _) fun resp => only_silent (const _))
  | setAttribute x y z d => exact liftL (only_bind (plain_sendRR _ _ _) fun _ => only_silent (pure _))
  | createConnection o t => exact only_forget (liftL (plain_create o t))
  | closeConnection n => exact absurd rfl (ho n)
  | getConnection n => exact only_silent (quiet _)
  | receiveIOPacket => exact only_forget (liftL plain_receiveIO)
  | sendIOPacket p =>
    exact liftL (only_say trivial (only_bind (only_silent (quiet _)) fun _ => only_silent (pure _)))

end Logs
end Eip
