import Verif.Spec.Races
import Verif.Lemmas.ThreadRuns
/-
Calls access by access: done in a row, the accesses are the call.
-/
namespace Eip
open Spec

namespace Code

variable {α β : Type}

theorem alone_done (r : Res α) (w : World) : (Code.done r).alone w = (r, w) := rfl

theorem alone_bind (c : Code α) (f : α → Code β) : (c >>= f).alone = (c.alone >>= fun a => (f a).alone) := by
  show (c.andThen f).alone = _
  induction c with
  | done r => cases r <;> rfl
  | access a next ih =>
    funext w
    exact congrFun (ih (a.perform w).1) (a.perform w).2

theorem alone_pure (a : α) : (pure a : Code α).alone = pure a := rfl

theorem alone_raise (e : Exn) : (raise e : Code α).alone = Prog.raise e := rfl

theorem alone_catch (c x y : Code α) :
    (c.catchLengthLogic x y).alone = Session.catchLengthLogic c.alone x.alone y.alone := by
  induction c with
  | done r =>
    cases r with
    | ok a => rfl
    | throw e =>
      funext w
      simp only [catchLengthLogic, Session.catchLengthLogic, Prog.tryCatch, alone]
      split
      · rfl
      · split <;> rfl
    | ub u => rfl
  | access a next ih =>
    funext w
    exact congrFun (ih (a.perform w).1) (a.perform w).2

theorem alone_get (a : Access β) (f : β → Code α) (w : World) :
    (get a >>= f).alone w = (f (a.perform w).1).alone (a.perform w).2 := rfl

theorem alone_readId (f : UInt32 → Code α) (w : World) : (get .readId >>= f).alone w = (f w.s.sessionId).alone w := rfl

theorem alone_call (a : Access (Res β)) : (call a).alone = a.perform := rfl

/-- A program on local objects. -/
theorem alone_own {p : {σ : Type} → Prog σ β} (h : ∀ (σ : Type) (w : σ), p w = ((p ()).1, w)) : (own p).alone = p := by
  funext w
  exact (h World w).symm

end Code

theorem serializeToVector_local {σ : Type} (n : Nat) (p : Prog Writer Unit) (w : σ) :
    serializeToVector n p w = ((serializeToVector n p ()).1, w) := by
  simp only [serializeToVector]
  split <;> simp_all

theorem onLocal_local {σ δ : Type} (init : δ) (p : Prog δ Unit) (w : σ) :
    Session.onLocal init p w = ((Session.onLocal init p ()).1, w) := by
  simp only [Session.onLocal]
  split <;> simp_all

theorem parsePacket_local {σ : Type} (bytes : Bytes) (w : σ) :
    Session.parsePacket bytes w = ((Session.parsePacket bytes ()).1, w) := by
  simp only [Session.parsePacket]
  split <;> simp_all

theorem alone_serialize (n : Nat) (p : Prog Writer Unit) :
    (Code.own (serializeToVector n p)).alone = serializeToVector n p :=
  Code.alone_own (p := serializeToVector n p) fun _ w => serializeToVector_local n p w

theorem alone_onLocal {δ : Type} (init : δ) (p : Prog δ Unit) :
    (Code.own (Session.onLocal init p)).alone = Session.onLocal init p :=
  Code.alone_own (p := Session.onLocal init p) fun _ w => onLocal_local init p w

theorem alone_parse (bytes : Bytes) : (Code.own (Session.parsePacket bytes)).alone = Session.parsePacket bytes :=
  Code.alone_own (p := Session.parsePacket bytes) fun _ w => parsePacket_local bytes w

namespace Session

theorem alone_send (s : Sock) (msg : Obj) : (sendCode s msg).alone = sockSend s msg := by
  simp only [sendCode, Code.alone_bind, alone_serialize, Code.alone_call, sockSend]
  rfl

theorem alone_check (pkt : EncapPacket) (expCmd : UInt16) : (checkCode pkt expCmd).alone = checkPacket pkt expCmd := by
  funext w
  simp only [checkCode, checkPacket, Prog.bind_def, Prog.andThen, Prog.get]
  by_cases h1 : pkt.header.command ≠ expCmd
  · rw [if_pos h1, if_pos h1]; rfl
  · rw [if_neg h1, if_neg h1, Code.alone_readId]
    by_cases h2 : w.s.sessionId = 0 ∧ pkt.header.sessionHandle = 0
    · rw [if_pos h2, if_pos h2]; rfl
    · rw [if_neg h2, if_neg h2, Code.alone_readId]
      by_cases h3 : w.s.sessionId = 0
      · rw [if_pos h3, if_neg (by simp [h3])]; rfl
      · rw [if_neg h3, Code.alone_readId]
        by_cases h4 : pkt.header.sessionHandle ≠ w.s.sessionId
        · rw [if_pos h4, if_pos ⟨h3, h4⟩]; rfl
        · rw [if_neg h4, if_neg (fun h => h4 h.2)]; rfl

theorem alone_command (req : EncapPacket) : (commandCode req).alone = sendCommand req := by
  rw [sendCommand_pieces]
  simp only [commandCode, Code.alone_bind, alone_send, alone_parse, alone_check, Code.alone_pure, Code.alone_call]
  rfl

theorem alone_closeSockets : closeSocketsCode.alone = closeSockets := by
  simp only [closeSocketsCode, Code.alone_bind, Code.alone_call]
  rfl

theorem alone_registration (response : EncapPacket) :
    (registrationCode response).alone = parseRegistration response := by
  simp only [registrationCode, Code.alone_catch, Code.alone_bind, alone_onLocal, Code.alone_pure]
  rfl

theorem alone_open (h p i : String) : (openCode h p i).alone = Session.open h p i := by
  simp only [openCode, Code.alone_bind, Code.alone_catch, alone_command, alone_closeSockets, Code.alone_raise,
    alone_registration, Code.alone_call, Session.open]
  congr 1
  funext _
  congr 1
  funext _
  congr 1
  funext response
  congr 1
  funext d
  cases d with
  | none => rfl
  | some d =>
    dsimp only
    split
    · simp only [Code.alone_bind, alone_closeSockets, Code.alone_raise]
    · rfl

theorem alone_close : closeCode.alone = Session.close := by
  simp only [closeCode, Code.alone_bind, alone_send, alone_closeSockets]
  rfl

theorem alone_rr (service : UInt8) (path : Path) (data : Option Obj) :
    (rrCode service path data).alone = sendRRDataCommand service path data := by
  funext w
  rw [rrCode, Code.alone_get]
  simp only [Code.alone_bind, Code.alone_catch, alone_command, Code.alone_raise, alone_onLocal, Access.perform]
  rw [sendRRData_pieces, Prog.bind_ok (rfl : Prog.get w = (.ok w, w))]
  have e : ∀ d : RRDataResponse, (if d.getGeneralStatus ≠ 0 then Code.raise (runtimeError "RR Data Command Failed")
      else pure d : Code RRDataResponse).alone =
      if d.getGeneralStatus ≠ 0 then Prog.raise (runtimeError "RR Data Command Failed") else pure d := by
    intro d
    split <;> rfl
  simp only [e]
  rfl

theorem alone_getValue {δ : Type} (c : Class δ) (init : δ) (x y z : UInt8) :
    (getCode c init x y z).alone = getValue c init x y z := by
  rw [← show (getTask c init x y z).alone = getValue c init x y z from alone_task (.getAttribute δ c init x y z)]
  rw [getTask, alone_rrTask]
  simp only [getCode, Code.alone_bind, alone_rr, alone_onLocal, Prog.pure_bind]

theorem alone_set (x y z : UInt8) (data : Option Obj) :
    (setCode x y z data).alone = setSingleAttributeSerializable x y z data := by
  simp only [setCode, Code.alone_bind, alone_rr, Code.alone_pure]
  rfl

theorem alone_create (o t : ConnectionInfo) : (createCode o t).alone = createConnection o t := by
  funext w
  rw [createCode]
  repeat rw [Code.alone_get]
  rw [createConnection, Prog.bind_ok (rfl : Prog.get w = (.ok w, w))]
  simp only [Code.alone_bind, alone_rr, alone_onLocal, Access.perform]
  rw [Prog.bind_ok (rfl : Prog.modify _ w = (.ok (), _))]
  refine congrFun (congrArg (fun f => sendRRDataCommand _ _ _ >>= f) ?_) _
  funext respData
  refine congrArg (fun f => onLocal _ _ >>= f) ?_
  funext result
  have e : ∀ x : Bool × Connection, (match x with
      | (false, _) => Code.raise (logicError "Forward Open Response Invalid")
      | (true, conn') => do
        let l ← Code.get .readConnections
        Code.get (.writeConnections (l ++ [conn']))
        let l ← Code.get .readConnections
        pure (sizeToInt (sizeSub l.length 1)) : Code Int).alone =
      (match x with
      | (false, _) => Prog.raise (logicError "Forward Open Response Invalid")
      | (true, conn') => do
        Prog.modify (fun w => { w with s := { w.s with connections := w.s.connections ++ [conn'] } })
        let w ← Prog.get
        pure (sizeToInt (sizeSub w.s.connections.length 1)) : Prog World Int) := by
    rintro ⟨_ | _, _⟩ <;> rfl
  exact e _

theorem alone_closeConnection (n : Nat) : (closeConnectionCode n).alone = closeConnection n := by
  funext w
  rw [closeConnectionCode, Code.alone_get, closeConnection, Prog.bind_ok (rfl : Prog.get w = (.ok w, w))]
  simp only [Access.perform]
  cases h : w.s.connections[n]? with
  | none => rfl
  | some c =>
    dsimp only
    simp only [Code.alone_bind, alone_rr, alone_onLocal]
    refine congrFun (congrArg (fun f => sendRRDataCommand _ _ _ >>= f) ?_) _
    funext respData
    refine congrArg (fun f => onLocal _ _ >>= f) ?_
    funext result w
    rw [Prog.bind_ok (rfl : Prog.get w = (.ok w, w)), ← Code.alone_bind, Code.alone_get]
    simp only [Access.perform]
    cases h : w.s.connections[n]? with
    | none => rfl
    | some c =>
      dsimp only
      split <;> rfl

theorem alone_getConnection (n : Nat) : (getConnectionCode n).alone = getConnection n := by
  funext w
  rw [getConnectionCode, Code.alone_get, getConnection, Prog.bind_ok (rfl : Prog.get w = (.ok w, w))]
  simp only [Access.perform]
  cases h : w.s.connections[n]? <;> rfl

theorem alone_receive : receiveCode.alone = receiveIOPacket := by
  rw [← show receiveTask.alone = receiveIOPacket from alone_task .receiveIOPacket]
  rw [receiveCode, receiveTask, Task.alone_piece, Code.alone_bind, Code.alone_call]
  refine congrArg (fun f => (do let bytes ← sockReceive .io; pure bytes.length : Prog World Nat) >>= f) ?_
  funext n w
  rw [Code.alone_get]
  exact congrFun (alone_onLocal _ _) w

theorem alone_sendIO (pkt : CPFPacket) : (sendIOCode pkt).alone = sendIOPacket pkt := by
  simp only [sendIOCode, Code.alone_bind, alone_send]
  rfl

end Session

/-- The accesses in a row are the call. -/
theorem alone_code (op : Op) : op.code.alone = op.value := by
  cases op with
  | «open» => exact Session.alone_open _ _ _
  | close => exact Session.alone_close
  | getAttribute => exact Session.alone_getValue _ _ _ _ _
  | setAttribute => exact Session.alone_set _ _ _ _
  | createConnection => exact Session.alone_create _ _
  | closeConnection => exact Session.alone_closeConnection _
  | getConnection => exact Session.alone_getConnection _
  | receiveIOPacket => exact Session.alone_receive
  | sendIOPacket => exact Session.alone_sendIO _

end Eip
