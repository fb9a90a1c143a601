import Verif.Lemmas.LogOnly
/-
The exact messages of the commands.
-/
namespace Eip
open Spec

/-- What `createConnection` does with the reply. -/
def createTail (conn : Connection) (respData : RRDataResponse) : Prog LogWorld Int := do
  let result ← Session.onLocal Session.freshForwardOpenSuccess (respData.getResponseDataAs ForwardOpenSuccess.cls)
  Session.Logged.sayAll (Session.Logged.verifyMessages conn result)
  match conn.verifyForwardOpenResult result with
  | (false, _) => do
    say .forwardOpenInvalid
    Prog.raise (logicError "Forward Open Response Invalid")
  | (true, conn') => do
    quiet (Prog.modify (fun w => { w with s := { w.s with connections := w.s.connections ++ [conn'] } }))
    let s ← Prog.get
    pure (sizeToInt (sizeSub s.w.s.connections.length 1))

theorem create_logged (o t : ConnectionInfo) (w : World) (l : List LogMsg) :
    Session.Logged.createConnection o t ⟨w, l⟩ = (Session.Logged.sendRRDataCommand 0x5B (Path.mk2 0x06 1)
      (some (w.s.prepareConnection o t).createForwardOpenRequest.obj) >>= createTail (w.s.prepareConnection o t))
      ⟨w.bumped, l⟩ := by
  have e0 : Session.Logged.createConnection o t = (Prog.get >>= fun s =>
      quiet (Prog.modify (fun w => { w with s := { w.s with
        nextConnectionSn := w.s.nextConnectionSn + 1
        nextConnectionId := w.s.nextConnectionId + 1 + 1 } })) >>= fun _ =>
      Session.Logged.sendRRDataCommand 0x5B (Path.mk2 0x06 1)
        (some (s.w.s.prepareConnection o t).createForwardOpenRequest.obj) >>= createTail (s.w.s.prepareConnection o t)) := by
    unfold Session.Logged.createConnection createTail
    dsimp only
    rfl
  have e1 : (Prog.get : Prog LogWorld LogWorld) ⟨w, l⟩ = (.ok ⟨w, l⟩, ⟨w, l⟩) := rfl
  have e2 : quiet (Prog.modify (fun w => { w with s := { w.s with
        nextConnectionSn := w.s.nextConnectionSn + 1
        nextConnectionId := w.s.nextConnectionId + 1 + 1 } })) ⟨w, l⟩ = (.ok (), ⟨w.bumped, l⟩) := rfl
  rw [e0, Prog.bind_ok e1, Prog.bind_ok e2]

theorem forget_congr {σ α : Type} {p q : Prog σ α} {s t : σ} (h : p s = q t) :
    p.forget s = (q >>= fun _ => pure ()) t := by
  rw [Prog.forget, Prog.bind_def, Prog.andThen, h]
  rfl

/-- Every command is an RR data command and something that is done with the reply. -/
theorem command_logged (op : Op) (cmd : IsCommand op) (w : World) (proper : Proper w.s op) :
    ∃ (w1 : World) (path : Path) (data : Option Obj) (bs : Bytes) (k : RRDataResponse → Prog LogWorld Unit),
      w1.env = w.env ∧ w1.clock = w.clock ∧ w1.s.sessionId = w.s.sessionId ∧
      Serializes (rrPacket w1.s.sessionId (serviceOf op) path data).obj bs ∧
      ∀ l, op.runLogged ⟨w, l⟩ = (Session.Logged.sendRRDataCommand (serviceOf op) path data >>= k) ⟨w1, l⟩ := by
  cases op with
  | «open» h p i => exact cmd.elim
  | close => exact cmd.elim
  | getAttribute δ c init x y z =>
    refine ⟨w, _, none, _, fun resp s => ((resp.getResponseDataAs c init).1, s), rfl, rfl, rfl,
      rr_serializes _ _ (path3 x y z) (data := none) rfl, fun l => ?_⟩
    rw [Logs.getAttribute_runLogged]
    rfl
  | setAttribute x y z d =>
    obtain ⟨bs, hd⟩ := proper
    exact ⟨w, _, d, _, _, rfl, rfl, rfl, rr_serializes _ _ (path3 x y z) hd, fun l => rfl⟩
  | createConnection o t =>
    refine ⟨w.bumped, _, _, _, fun resp => createTail (w.s.prepareConnection o t) resp >>= fun _ => pure (), rfl, rfl, rfl,
      rr_serializes _ _ (path2 6 1)
      (data := some (w.s.prepareConnection o t).createForwardOpenRequest.obj)
      (ForwardOpenRequest.encodes (w.s.prepareConnection o t).createForwardOpenRequest), fun l => ?_⟩
    have e1 := forget_congr (create_logged o t w l)
    rw [Prog.bind_assoc] at e1
    exact e1
  | closeConnection n =>
    have hn : w.s.connections[n]? = some w.s.connections[n] := List.getElem?_eq_getElem proper
    refine ⟨w, _, some w.s.connections[n].createForwardCloseRequest.obj, _, fun respData => do
      let result ← Session.onLocal Session.freshForwardCloseSuccess (respData.getResponseDataAs ForwardCloseSuccess.cls)
      let s ← Prog.get
      match s.w.s.connections[n]? with
      | none => Prog.undef .indexOutOfRange
      | some c => do
        say (.comparing c.connectionSn result.connectionSn)
        if c.verifyForwardCloseResult result then
          quiet (Prog.modify (fun w => { w with s := { w.s with connections := w.s.connections.eraseIdx n } }))
        else do
          say .forwardCloseInvalid
          Prog.raise (logicError "Forward Close Response Invalid"), rfl, rfl, rfl,
      rr_serializes _ _ (path2 6 1) (closeRequest_encodes w.s.connections[n]), fun l => ?_⟩
    have e : (Prog.get : Prog LogWorld LogWorld) ⟨w, l⟩ = (.ok ⟨w, l⟩, ⟨w, l⟩) := rfl
    rw [Op.runLogged, Session.Logged.closeConnection, Prog.bind_ok e]
    simp only
    rw [hn]
    rfl
  | getConnection n => exact cmd.elim
  | receiveIOPacket => exact cmd.elim
  | sendIOPacket p => exact cmd.elim

theorem sendRR_log_unsent {service : UInt8} {path : Path} {data : Option Obj} {bs : Bytes} {w : World}
    (hb : Serializes (rrPacket w.s.sessionId service path data).obj bs) (hf : (w.env w.clock).fails = true)
    (l : List LogMsg) :
    Session.Logged.sendRRDataCommand service path data ⟨w, l⟩ =
      (.throw systemError, ⟨w.after (.sent .tcp bs false), l ++ [.creatingRequest, .sendingCommand]⟩) := by
  have e1 := sockSend_eq hb .tcp w
  rw [if_pos hf] at e1
  have e2 : Session.Logged.sendCommand (rrPacket w.s.sessionId service path data) ⟨w, l ++ [.creatingRequest]⟩ =
      (.throw systemError, ⟨w.after (.sent .tcp bs false), l ++ [.creatingRequest, .sendingCommand]⟩) := by
    rw [Session.Logged.sendCommand, say_then, Prog.bind_throw (quiet_throw e1 _), List.append_assoc]
    rfl
  rw [sendRR_eq, rrTail]
  refine Prog.bind_throw ?_
  simp only [Session.Logged.catchLengthLogic, Prog.tryCatch, e2]
  rfl

theorem sendRR_log_unreceived {service : UInt8} {path : Path} {data : Option Obj} {bs : Bytes} {w : World}
    (hb : Serializes (rrPacket w.s.sessionId service path data).obj bs) (hs : (w.env w.clock).fails = false)
    (hf : (w.env (w.clock + 1)).fails = true) (l : List LogMsg) :
    ∃ w', Session.Logged.sendRRDataCommand service path data ⟨w, l⟩ =
      (.throw systemError, ⟨w', l ++ [.creatingRequest, .sendingCommand, .waiting]⟩) := by
  have e1 := sockSend_eq hb .tcp w
  rw [if_neg (by rw [hs]; simp)] at e1
  have e2 := sockReceive_eq .tcp (w.after (.sent .tcp bs true))
  have h2 : ((w.after (.sent .tcp bs true)).env (w.after (.sent .tcp bs true)).clock).fails = true := hf
  rw [if_pos h2] at e2
  generalize (w.after (.sent .tcp bs true)).after _ = w2 at e2
  refine ⟨w2, ?_⟩
  have e3 : Session.Logged.sendCommand (rrPacket w.s.sessionId service path data) ⟨w, l ++ [.creatingRequest]⟩ =
      (.throw systemError, ⟨w2, l ++ [.creatingRequest, .sendingCommand, .waiting]⟩) := by
    rw [Session.Logged.sendCommand, say_then, Prog.bind_ok (quiet_ok e1 _), say_then, Prog.bind_throw (quiet_throw e2 _),
      List.append_assoc, List.append_assoc]
    rfl
  rw [sendRR_eq, rrTail]
  refine Prog.bind_throw ?_
  simp only [Session.Logged.catchLengthLogic, Prog.tryCatch, e3]
  rfl

end Eip
