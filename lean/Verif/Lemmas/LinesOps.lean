import Verif.Lemmas.LinesOnly
/-
The messages of calls are whole.
-/
namespace Eip
open Spec

theorem LogMsg.whole_of {m : LogMsg} (h : m.carries ≤ 800) : Whole m := LogMsg.whole (Nat.le_trans m.room_le (by omega))

/-- A message without a text from outside is whole. -/
theorem LogMsg.whole_plain {m : LogMsg} (h : m.carries = 0) : Whole m := LogMsg.whole_of (by omega)

theorem responseShort_whole {s : String} (h : s.utf8ByteSize ≤ 982) : Whole (.responseShort s) := by
  refine LogMsg.whole ?_
  show "Response packet to RR command too short: ".utf8ByteSize + (s.utf8ByteSize + 0) ≤ 1023
  have : "Response packet to RR command too short: ".utf8ByteSize = 41 := by decide
  omega

theorem responseInvalid_whole {s : String} (h : s.utf8ByteSize ≤ 982) : Whole (.responseInvalid s) := by
  refine LogMsg.whole ?_
  show "Invalid response to RR command: ".utf8ByteSize + (s.utf8ByteSize + 0) ≤ 1023
  have : "Invalid response to RR command: ".utf8ByteSize = 32 := by decide
  omega

namespace Logs
variable {α β : Type} {P : LogMsg → Prop}

/-- `only_catch` that knows what is thrown. -/
theorem only_catchE {Q : Exn → Prop} {p : Prog LogWorld α} {q : Prog World α} {a b : Exn → Prog LogWorld α}
    {a' b' : Prog World α} (hp : Logs p q (fun _ _ => Only P)) (hq : Throws Q q)
    (ha : ∀ e, Q e → e.kind.isA .logicError = true → Logs (a e) a' (fun _ _ => Only P))
    (hb : ∀ e, Q e → e.kind.isA .logicError = true → Logs (b e) b' (fun _ _ => Only P)) :
    Logs (Session.Logged.catchLengthLogic p a b) (Session.catchLengthLogic q a' b') (fun _ _ => Only P) := by
  intro w l
  obtain ⟨n1, e1, r1⟩ := hp w l
  rcases h : q w with ⟨(x | e | u), w'⟩
  · rw [h] at e1
    refine ⟨n1, ?_, r1⟩
    simp only [Session.Logged.catchLengthLogic, Session.catchLengthLogic, Prog.tryCatch, e1, h]
  · rw [h] at e1
    have hQ := hq _ _ _ h
    by_cases h1 : e.kind.isA .lengthError = true
    · obtain ⟨n2, e2, r2⟩ := ha e hQ (isA_logic h1) w' (l ++ n1)
      refine ⟨n1 ++ n2, ?_, Only.append.mpr ⟨r1, r2⟩⟩
      simp only [Session.Logged.catchLengthLogic, Session.catchLengthLogic, Prog.tryCatch, e1, h, h1, if_true, e2,
        List.append_assoc]
    · rw [Bool.not_eq_true] at h1
      by_cases h2 : e.kind.isA .logicError = true
      · obtain ⟨n2, e2, r2⟩ := hb e hQ h2 w' (l ++ n1)
        refine ⟨n1 ++ n2, ?_, Only.append.mpr ⟨r1, r2⟩⟩
        simp only [Session.Logged.catchLengthLogic, Session.catchLengthLogic, Prog.tryCatch, e1, h, h1, h2, if_true,
          e2, List.append_assoc, Bool.false_eq_true, if_false]
      · rw [Bool.not_eq_true] at h2
        refine ⟨n1, ?_, r1⟩
        simp only [Session.Logged.catchLengthLogic, Session.catchLengthLogic, Prog.tryCatch, e1, h, h1, h2,
          Bool.false_eq_true, if_false]
        rfl
  · rw [h] at e1
    refine ⟨n1, ?_, r1⟩
    simp only [Session.Logged.catchLengthLogic, Session.catchLengthLogic, Prog.tryCatch, e1, h]

/-- `only_bind` that knows what is returned. -/
theorem only_bindR {p : Prog LogWorld α} {q : Prog World α} {f : α → Prog LogWorld β} {g : α → Prog World β} {Q : α → Prop}
    (hp : Logs p q (fun _ _ => Only P)) (hq : ∀ w a w', q w = (.ok a, w') → Q a)
    (hf : ∀ a, Q a → Logs (f a) (g a) (fun _ _ => Only P)) : Logs (p >>= f) (q >>= g) (fun _ _ => Only P) := by
  intro w l
  obtain ⟨n1, e1, r1⟩ := hp w l
  rcases h : q w with ⟨(a | e | u), w'⟩ <;> rw [h] at e1
  · obtain ⟨n2, e2, r2⟩ := hf a (hq _ _ _ h) w' (l ++ n1)
    refine ⟨n1 ++ n2, ?_, Only.append.mpr ⟨r1, r2⟩⟩
    rw [Prog.bind_ok e1, Prog.bind_ok h, e2, List.append_assoc]
  · refine ⟨n1, ?_, r1⟩
    rw [Prog.bind_throw e1, Prog.bind_throw h]
  · refine ⟨n1, ?_, r1⟩
    rw [Prog.bind_ub e1, Prog.bind_ub h]

theorem whole_lift {p : Prog LogWorld α} {q : Prog World α} {R : LogMsg → Prop} (h : Logs p q (fun _ _ => Only R))
    (hr : ∀ m, R m → P m) : Logs p q (fun _ _ => Only P) := h.mono fun _ _ ho m hm => hr m (ho m hm)

end Logs

/-- What a call caught by handlers that throw returns. -/
theorem catch_returns {α : Type} {q a b : Prog World α} (ha : ∀ w x w', a w ≠ (.ok x, w')) (hb : ∀ w x w', b w ≠ (.ok x, w'))
    {w w' : World} {x : α} (h : Session.catchLengthLogic q a b w = (.ok x, w')) : q w = (.ok x, w') := by
  rcases hq : q w with ⟨(y | e | u), w1⟩
  · simp only [Session.catchLengthLogic, Prog.tryCatch, hq] at h
    exact h
  · simp only [Session.catchLengthLogic, Prog.tryCatch, hq] at h
    split at h
    · exact absurd h (ha _ _ _)
    · split at h
      · exact absurd h (hb _ _ _)
      · cases h
  · simp only [Session.catchLengthLogic, Prog.tryCatch, hq] at h
    cases h

theorem raise_not_ok {α : Type} (e : Exn) (w : World) (x : α) (w' : World) : (Prog.raise e : Prog World α) w ≠ (.ok x, w') := by
  intro h
  cases h

theorem closing_not_ok {α : Type} (e : Exn) (w : World) (x : α) (w' : World) :
    (do Session.closeSockets; Prog.raise e : Prog World α) w ≠ (.ok x, w') := by
  intro h
  obtain ⟨e', he⟩ := Logs.closing_throws (α := α) e w
  rw [h] at he
  cases he

namespace Logs

theorem whole_check (pkt : EncapPacket) (c : UInt16) :
    Logs (Session.Logged.checkPacket pkt c) (Session.checkPacket pkt c) (fun _ _ => Only Whole) := by
  refine (checkPacket pkt c).mono ?_
  rintro w new (⟨_, e, rfl⟩ | ⟨_, _, _, e, rfl⟩ | ⟨_, _, _, e, rfl⟩ | ⟨_, _, e, rfl⟩)
  · exact Only.cons.mpr ⟨LogMsg.whole_plain rfl, Only.nil⟩
  · exact Only.cons.mpr ⟨LogMsg.whole_plain rfl, Only.nil⟩
  · exact Only.cons.mpr ⟨LogMsg.whole_plain rfl, Only.nil⟩
  · exact Only.append.mpr ⟨Only.append.mpr ⟨Only.when (LogMsg.whole_plain rfl), Only.when (LogMsg.whole_plain rfl)⟩,
      Only.when (LogMsg.whole_plain rfl)⟩

theorem whole_sendCommand (req : EncapPacket) :
    Logs (Session.Logged.sendCommand req) (Session.sendCommand req) (fun _ _ => Only Whole) := by
  refine only_say (LogMsg.whole_plain rfl) (only_bind (only_silent (quiet _)) fun _ => only_say (LogMsg.whole_plain rfl)
    (only_bind (only_silent (quiet _)) fun bytes => ?_))
  refine only_say (LogMsg.whole_plain rfl) ?_
  refine (parse_bind bytes (S := fun _ _ _ => Only Whole) fun p n => only_sayIf (LogMsg.whole_plain rfl)
    (only_bind (whole_check p _) fun _ => only_silent (pure p))).mono ?_
  rintro w new (⟨p, _, h⟩ | ⟨e, _, e2, rfl⟩ | ⟨u, _, e2, rfl⟩)
  · exact h
  · exact Only.nil
  · exact Only.nil

theorem whole_sendRR (service : UInt8) (path : Path) (data : Option Obj) (hd : Throws.Of (Brief 982) data) :
    Logs (Session.Logged.sendRRDataCommand service path data) (Session.sendRRDataCommand service path data)
      (fun _ _ => Only Whole) := by
  refine only_say (LogMsg.whole_plain rfl) (get fun w l => ?_)
  refine only_bindR (Q := fun p => ∃ hd payload, p = ⟨hd, rawData payload⟩)
    (only_catchE (whole_sendCommand _) (Throws.command (n := 982) (by omega) _ ?_)
      (fun e he hk => only_say (responseShort_whole (he hk)) (only_silent (raise _)))
      (fun e he hk => only_say (responseInvalid_whole (he hk)) (only_silent (raise _))))
    (fun w a w' h => sendCommand_returns (catch_returns (raise_not_ok _) (raise_not_ok _) h)) ?_
  · intro o ho
    cases ho
    exact Throws.rrRequest (brief_full.mono (by omega)) _ hd
  · rintro _ ⟨hdr, payload, rfl⟩
    refine only_bind (only_catchE (only_sayIf (LogMsg.whole_plain rfl) (only_silent (onLocal _ _)))
      (Throws.onLocal (P := Brief 100) fun e d h => payload_brief hdr payload e d h)
      (fun e he hk => only_say (LogMsg.whole_of (Nat.le_trans (he hk) (by omega))) (only_silent (raise _)))
      (fun e he hk => only_say (LogMsg.whole_of (Nat.le_trans (he hk) (by omega))) (only_silent (raise _)))) fun resp => ?_
    refine only_sayIf (LogMsg.whole_plain rfl) (ite (fun _ => ?_) (fun _ => only_silent (pure _)))
    exact only_say (LogMsg.whole_plain rfl) (only_silent (raise _))

theorem whole_parseRegistration (hdr : EncapHeader) (payload : Bytes) :
    Logs (Session.Logged.parseRegistration ⟨hdr, rawData payload⟩) (Session.parseRegistration ⟨hdr, rawData payload⟩)
      (fun _ _ => Only Whole) :=
  only_sayIf (LogMsg.whole_plain rfl) (only_catchE (Q := Brief 100)
    (only_bind (only_silent (onLocal _ _)) fun d => only_silent (pure (some d)))
    (Throws.bind (Throws.onLocal fun e d h => registration_brief hdr payload e d h) fun _ => Throws.pure _)
    (fun _ _ _ => only_say (LogMsg.whole_plain rfl) (only_silent (pure _)))
    (fun e he hk => only_say (LogMsg.whole_of (Nat.le_trans (he hk) (by omega))) (only_silent (pure _))))

theorem whole_opened (id : UInt32) :
    Logs (do
        Eip.quiet (Prog.modify (fun w => { w with s := { w.s with sessionId := id } }))
        Eip.say (.opened id))
      (Prog.modify (fun w => { w with s := { w.s with sessionId := id } })) (fun _ _ => Only Whole) := by
  intro w l
  exact ⟨[.opened id], rfl, Only.cons.mpr ⟨LogMsg.whole_plain rfl, Only.nil⟩⟩

theorem whole_open (h p i : String) : Logs (Session.Logged.open h p i) (Session.open h p i) (fun _ _ => Only Whole) := by
  refine only_say (LogMsg.whole_plain rfl) (only_bind (only_silent (quiet _)) fun _ => only_bind (only_silent (quiet _)) fun _ =>
    only_say (LogMsg.whole_plain rfl) ?_)
  refine only_bindR (Q := fun p => ∃ hd payload, p = ⟨hd, rawData payload⟩)
    (only_catchE (whole_sendCommand _) (Throws.command (n := 100) (by omega) _ ?_)
      (fun e he hk => only_bind (only_silent (quiet _)) fun _ =>
        only_say (LogMsg.whole_of (Nat.le_trans (he hk) (by omega))) (only_silent (raise _)))
      (fun e he hk => only_bind (only_silent (quiet _)) fun _ =>
        only_say (LogMsg.whole_of (Nat.le_trans (he hk) (by omega))) (only_silent (raise _))))
    (fun w a w' h => sendCommand_returns (catch_returns (closing_not_ok _) (closing_not_ok _) h)) ?_
  · intro o ho
    cases ho
    exact Throws.registerData brief_full _
  · rintro _ ⟨hdr, payload, rfl⟩
    refine only_bind (whole_parseRegistration hdr payload) fun d => ?_
    cases d with
    | none => exact whole_opened _
    | some d =>
      refine ite (fun _ => ?_) (fun _ => ?_)
      · exact only_say (LogMsg.whole_plain rfl) (only_bind (only_silent (quiet _)) fun _ => only_silent (raise _))
      · exact only_sayIf (LogMsg.whole_plain rfl) (whole_opened _)

theorem whole_close : Logs Session.Logged.close Session.close (fun _ _ => Only Whole) := by
  refine closeSays.mono ?_
  rintro w new rfl
  exact Only.cons.mpr ⟨LogMsg.whole_plain rfl, Only.when (LogMsg.whole_plain rfl)⟩

theorem whole_create (o t : ConnectionInfo) :
    Logs (Session.Logged.createConnection o t) (Session.createConnection o t) (fun _ _ => Only Whole) := by
  refine get fun w l => only_bind (only_silent (quiet _)) fun _ => only_bind (whole_sendRR _ _ _ ?_) fun resp =>
    only_bind (only_silent (onLocal _ _)) fun result => ?_
  · intro ob ho
    cases ho
    exact Throws.forwardOpen (brief_full.mono (by omega)) _
  have : Logs (match (Session.prepareConnection w.s o t).verifyForwardOpenResult result with
      | (false, _) => do
        Eip.say .forwardOpenInvalid
        Prog.raise (logicError "Forward Open Response Invalid")
      | (true, conn') => do
        Eip.quiet (Prog.modify (fun w => { w with s := { w.s with connections := w.s.connections ++ [conn'] } }))
        let s ← Prog.get
        Pure.pure (sizeToInt (sizeSub s.w.s.connections.length 1)))
      (match (Session.prepareConnection w.s o t).verifyForwardOpenResult result with
      | (false, _) => Prog.raise (logicError "Forward Open Response Invalid")
      | (true, conn') => do
        Prog.modify (fun w => { w with s := { w.s with connections := w.s.connections ++ [conn'] } })
        let w ← Prog.get
        Pure.pure (sizeToInt (sizeSub w.s.connections.length 1))) (fun _ _ => Only Whole) := by
    rcases (Session.prepareConnection w.s o t).verifyForwardOpenResult result with ⟨(_ | _), c⟩
    · exact only_say (LogMsg.whole_plain rfl) (only_silent (raise _))
    · exact only_bind (only_silent (quiet _)) fun _ => get fun w l => only_silent (pure _)
  refine (sayAll_bind _ this).mono ?_
  rintro w' new ⟨n, rfl, h⟩
  refine Only.append.mpr ⟨?_, h⟩
  rw [Session.Logged.verifyMessages]
  split
  · exact Only.nil
  · exact Only.append.mpr ⟨Only.when (LogMsg.whole_plain rfl), Only.when (LogMsg.whole_plain rfl)⟩

theorem whole_closeConnection (n : Nat) :
    Logs (Session.Logged.closeConnection n) (Session.closeConnection n) (fun _ _ => Only Whole) := by
  refine get fun w l => ?_
  dsimp only
  cases w.s.connections[n]? with
  | none => exact only_silent (undef _)
  | some c =>
    refine only_bind (whole_sendRR _ _ _ ?_) fun resp => only_bind (only_silent (onLocal _ _)) fun result => get fun w2 l2 => ?_
    · intro ob ho
      cases ho
      exact Throws.forwardClose (brief_full.mono (by omega)) _
    dsimp only
    cases w2.s.connections[n]? with
    | none => exact only_silent (undef _)
    | some c =>
      refine only_say (LogMsg.whole_plain rfl) (ite (fun _ => only_silent (quiet _)) (fun _ => ?_))
      exact only_say (LogMsg.whole_plain rfl) (only_silent (raise _))

theorem whole_receiveIO : Logs Session.Logged.receiveIOPacket Session.receiveIOPacket (fun _ _ => Only Whole) :=
  only_say (LogMsg.whole_plain rfl) (only_bind (only_silent (quiet _)) fun bytes => only_say (LogMsg.whole_plain rfl)
    (only_parseIO bytes fun _ _ => only_sayIf (LogMsg.whole_plain rfl) (only_silent (pure _))))

/-- The messages of a call are whole. -/
theorem whole_op (o : Op) (ho : Terse 982 o) : Logs o.runLogged o.run (fun _ _ => Only Whole) := by
  have none_ : Throws.Of (Brief 982) none := fun _ h => nomatch h
  cases o with
  | «open» h p i => exact whole_open h p i
  | close => exact whole_close
  | getAttribute δ c init x y z =>
    rw [getAttribute_runLogged, getAttribute_run]
    exact only_bind (whole_sendRR _ _ _ none_) fun resp => only_silent (const _)
  | setAttribute x y z d =>
    refine only_bind (whole_sendRR _ _ _ ?_) fun _ => only_silent (pure _)
    rintro ob rfl
    exact ho
  | createConnection o t => exact only_forget (whole_create o t)
  | closeConnection n => exact whole_closeConnection n
  | getConnection n => exact only_silent (quiet _)
  | receiveIOPacket => exact only_forget whole_receiveIO
  | sendIOPacket p =>
    exact only_say (LogMsg.whole_plain rfl) (only_bind (only_silent (quiet _)) fun _ => only_silent (pure _))

end Logs
end Eip
