import Verif.Spec.LogOpen
import Verif.Lemmas.LogCommands
import Verif.Lemmas.ScanLog
import Verif.Props.Open
/-
C108: the exact messages of opening, closing and I/O.
-/
namespace Eip
open Spec

/-! ### Opening -/

/-- The part of `open` after the sockets have been opened. -/
def openTail : Prog LogWorld Unit := do
  let response ← Session.Logged.catchLengthLogic
    (Session.Logged.sendCommand
      (EncapPacket.withPayload Session.cmdRegisterSession 0 (some RegisterSessionData.new.obj)))
    (fun e => do
      quiet Session.closeSockets
      say (.registrationUnparsed e.what)
      Prog.raise (runtimeError "Invalid response received registering session"))
    (fun e => do
      quiet Session.closeSockets
      say (.registrationError e.what)
      Prog.raise (runtimeError "Error in registration response"))
  let regData ← Session.Logged.parseRegistration response
  match regData with
  | some d =>
    if d.protocolVersion ≠ eipProtocolVersion then do
      say (.wrongVersion eipProtocolVersion d.protocolVersion)
      quiet Session.closeSockets
      Prog.raise (runtimeError "Received wrong Ethernet IP Protocol Version on registration")
    else do
      sayIf (d.options ≠ 0) (.registrationOptions d.options)
      quiet (Prog.modify (fun w => { w with s := { w.s with sessionId := response.header.sessionHandle } }))
      say (.opened response.header.sessionHandle)
  | none => do
    quiet (Prog.modify (fun w => { w with s := { w.s with sessionId := response.header.sessionHandle } }))
    say (.opened response.header.sessionHandle)

/-- The world after both sockets have been opened. -/
def World.connected (w : World) (host port ioPort : String) : World :=
  (w.after (.opened .tcp host port true)).after (.opened .io host ioPort true)

section
variable (host port ioPort : String) (w : World) (l : List LogMsg)

theorem open_connected (h0 : (w.env w.clock).fails = false) (h1 : (w.env (w.clock + 1)).fails = false) :
    Session.Logged.open host port ioPort ⟨w, l⟩ =
      openTail ⟨w.connected host port ioPort, l ++ [.resolving, .registering]⟩ := by
  have e0 := sockOpen_eq .tcp host port w
  rw [if_neg (by rw [h0]; simp)] at e0
  have e1 := sockOpen_eq .io host ioPort (w.after (.opened .tcp host port true))
  rw [if_neg (show ¬ ((w.after (.opened .tcp host port true)).env
    (w.after (.opened .tcp host port true)).clock).fails = true by
      show ¬ (w.env (w.clock + 1)).fails = true
      rw [h1]; simp)] at e1
  rw [Session.Logged.open, say_then, Prog.bind_ok (quiet_ok e0 _), Prog.bind_ok (quiet_ok e1 _), say_then,
    List.append_assoc]
  rfl

/-- C108. If one of the sockets cannot be opened, the log only says that they are being opened. -/
theorem c108_unconnected (fails : (w.env w.clock).fails = true ∨ (w.env (w.clock + 1)).fails = true) :
    ((Op.open host port ioPort).runLogged ⟨w, l⟩).1 = .throw systemError ∧
    ((Op.open host port ioPort).runLogged ⟨w, l⟩).2.log = l ++ [.resolving] := by
  have e0 := sockOpen_eq .tcp host port w
  show (Session.Logged.open host port ioPort ⟨w, l⟩).1 = _ ∧ (Session.Logged.open host port ioPort ⟨w, l⟩).2.log = _
  by_cases h0 : (w.env w.clock).fails = true
  · rw [if_pos h0] at e0
    rw [Session.Logged.open, say_then, Prog.bind_throw (quiet_throw e0 _)]
    exact ⟨rfl, rfl⟩
  · rw [if_neg h0] at e0
    have h1 := fails.resolve_left h0
    have e1 := sockOpen_eq .io host ioPort (w.after (.opened .tcp host port true))
    rw [if_pos (show ((w.after (.opened .tcp host port true)).env
      (w.after (.opened .tcp host port true)).clock).fails = true from h1)] at e1
    rw [Session.Logged.open, say_then, Prog.bind_ok (quiet_ok e0 _), Prog.bind_throw (quiet_throw e1 _)]
    exact ⟨rfl, rfl⟩

/-- C108. If the registration cannot be sent, the log ends with the attempt to send it. -/
theorem c108_unsent (h0 : (w.env w.clock).fails = false) (h1 : (w.env (w.clock + 1)).fails = false)
    (fails : (w.env (w.clock + 2)).fails = true) :
    ((Op.open host port ioPort).runLogged ⟨w, l⟩).1 = .throw systemError ∧
    ((Op.open host port ioPort).runLogged ⟨w, l⟩).2.log = l ++ [.resolving, .registering, .sendingCommand] := by
  show (Session.Logged.open host port ioPort ⟨w, l⟩).1 = _ ∧ (Session.Logged.open host port ioPort ⟨w, l⟩).2.log = _
  have e := sockSend_eq registration_serializes .tcp (w.connected host port ioPort)
  rw [if_pos (show ((w.connected host port ioPort).env (w.connected host port ioPort).clock).fails = true from fails)] at e
  have e1 : Session.Logged.sendCommand
      (EncapPacket.withPayload Session.cmdRegisterSession 0 (some RegisterSessionData.new.obj))
      ⟨w.connected host port ioPort, l ++ [.resolving, .registering]⟩ = (.throw systemError,
        ⟨(w.connected host port ioPort).after (.sent .tcp registration false),
          l ++ [.resolving, .registering] ++ [.sendingCommand]⟩) := by
    rw [Session.Logged.sendCommand, say_then, Prog.bind_throw (quiet_throw e _)]
  have e2 : ∀ (a b : Exn → Prog LogWorld EncapPacket), Session.Logged.catchLengthLogic (Session.Logged.sendCommand
      (EncapPacket.withPayload Session.cmdRegisterSession 0 (some RegisterSessionData.new.obj))) a b
      ⟨w.connected host port ioPort, l ++ [.resolving, .registering]⟩ = (.throw systemError,
        ⟨(w.connected host port ioPort).after (.sent .tcp registration false),
          l ++ [.resolving, .registering] ++ [.sendingCommand]⟩) := by
    intro a b
    simp only [Session.Logged.catchLengthLogic, Prog.tryCatch, e1]
    rfl
  rw [open_connected host port ioPort w l h0 h1, openTail, Prog.bind_throw (e2 _ _), List.append_assoc]
  exact ⟨rfl, rfl⟩

/-- C108. If the registration reply cannot be received, the log ends with the waiting for it. -/
theorem c108_unreceived (h0 : (w.env w.clock).fails = false) (h1 : (w.env (w.clock + 1)).fails = false)
    (h2 : (w.env (w.clock + 2)).fails = false) (fails : (w.env (w.clock + 3)).fails = true) :
    ((Op.open host port ioPort).runLogged ⟨w, l⟩).1 = .throw systemError ∧
    ((Op.open host port ioPort).runLogged ⟨w, l⟩).2.log =
      l ++ [.resolving, .registering, .sendingCommand, .waiting] := by
  show (Session.Logged.open host port ioPort ⟨w, l⟩).1 = _ ∧ (Session.Logged.open host port ioPort ⟨w, l⟩).2.log = _
  have e := sockSend_eq registration_serializes .tcp (w.connected host port ioPort)
  rw [if_neg (show ¬ ((w.connected host port ioPort).env (w.connected host port ioPort).clock).fails = true by
    show ¬ (w.env (w.clock + 2)).fails = true
    rw [h2]; simp)] at e
  have e' := sockReceive_eq .tcp ((w.connected host port ioPort).after (.sent .tcp registration true))
  rw [if_pos (show (((w.connected host port ioPort).after (.sent .tcp registration true)).env
    ((w.connected host port ioPort).after (.sent .tcp registration true)).clock).fails = true from fails)] at e'
  rcases hr : sockReceive .tcp ((w.connected host port ioPort).after (.sent .tcp registration true)) with ⟨r, w'⟩
  rw [hr] at e'
  have hr' : r = .throw systemError := congrArg Prod.fst e'
  subst hr'
  have e1 : Session.Logged.sendCommand
      (EncapPacket.withPayload Session.cmdRegisterSession 0 (some RegisterSessionData.new.obj))
      ⟨w.connected host port ioPort, l ++ [.resolving, .registering]⟩ = (.throw systemError,
        ⟨w', l ++ [.resolving, .registering] ++ [.sendingCommand] ++ [.waiting]⟩) := by
    rw [Session.Logged.sendCommand, say_then, Prog.bind_ok (quiet_ok e _), say_then, Prog.bind_throw (quiet_throw hr _)]
  have e2 : ∀ (a b : Exn → Prog LogWorld EncapPacket), Session.Logged.catchLengthLogic (Session.Logged.sendCommand
      (EncapPacket.withPayload Session.cmdRegisterSession 0 (some RegisterSessionData.new.obj))) a b
      ⟨w.connected host port ioPort, l ++ [.resolving, .registering]⟩ = (.throw systemError,
        ⟨w', l ++ [.resolving, .registering] ++ [.sendingCommand] ++ [.waiting]⟩) := by
    intro a b
    simp only [Session.Logged.catchLengthLogic, Prog.tryCatch, e1]
    rfl
  rw [open_connected host port ioPort w l h0 h1, openTail, Prog.bind_throw (e2 _ _), List.append_assoc, List.append_assoc]
  exact ⟨rfl, rfl⟩

theorem open_replied (works : OpenWorks w) :
    Session.Logged.sendCommand
      (EncapPacket.withPayload Session.cmdRegisterSession 0 (some RegisterSessionData.new.obj))
      ⟨w.connected host port ioPort, l ++ [.resolving, .registering]⟩ =
      examine 0x65 (delivered w.env (w.clock + 3))
        ⟨w.replied host port ioPort [], l ++ enrolling (delivered w.env (w.clock + 3))⟩ := by
  have e := sendCommand_log registration_serializes (w.connected host port ioPort) (l ++ [.resolving, .registering]) works.2.2
  have hx : (w.connected host port ioPort).exchanged registration = w.replied host port ioPort [] := by
    rw [World.connected, World.after_eq w, World.after_log, World.exchanged_log]
    rfl
  rw [hx] at e
  rw [e, List.append_assoc]
  rfl

/-- Closing the sockets after the registration reply. -/
theorem close_replied (closes : Works w.env (w.clock + 4)) (l' : List LogMsg) :
    quiet Session.closeSockets ⟨w.replied host port ioPort [], l'⟩ =
      (.ok (), ⟨w.replied host port ioPort [.closed .tcp true, .closed .io true], l'⟩) := by
  rcases closeSockets_cases (w.replied host port ioPort []) with ⟨c, e⟩ | ⟨_, c, e⟩ | ⟨_, _, e⟩
  · have : (w.env (w.clock + 4)).fails = true := c
    rw [closes.1] at this
    cases this
  · have : (w.env (w.clock + 5)).fails = true := c
    rw [closes.2] at this
    cases this
  · rw [World.replied_after, World.replied_after] at e
    exact quiet_ok e l'

theorem close_replied_fails (closes : ¬ Works w.env (w.clock + 4)) (l' : List LogMsg) :
    ∃ w', quiet Session.closeSockets ⟨w.replied host port ioPort [], l'⟩ = (.throw systemError, ⟨w', l'⟩) := by
  rcases closeSockets_cases (w.replied host port ioPort []) with ⟨_, e⟩ | ⟨_, _, e⟩ | ⟨c, c', _⟩
  · exact ⟨_, quiet_throw e l'⟩
  · exact ⟨_, quiet_throw e l'⟩
  · exact absurd ⟨c, c'⟩ closes

/-- C108. If the reply is no complete frame, the log says so, after the number of bytes received. That message comes after
the sockets have been closed: it is missing if closing them fails. -/
theorem c108_unreadable (works : (w.env w.clock).fails = false ∧ (w.env (w.clock + 1)).fails = false ∧ Works w.env (w.clock + 2))
    (unreadable : ¬ ∃ cmd handle payload, Packet (delivered w.env (w.clock + 3)) cmd handle payload) :
    (Works w.env (w.clock + 4) →
      ((Op.open host port ioPort).runLogged ⟨w, l⟩).1 =
        .throw (runtimeError "Invalid response received registering session") ∧
      ((Op.open host port ioPort).runLogged ⟨w, l⟩).2.log = l ++ (enrolling (delivered w.env (w.clock + 3)) ++
        [.registrationUnparsed "Buffer too small to deserialize value"])) ∧
    (¬ Works w.env (w.clock + 4) →
      ((Op.open host port ioPort).runLogged ⟨w, l⟩).1 = .throw systemError ∧
      ((Op.open host port ioPort).runLogged ⟨w, l⟩).2.log = l ++ enrolling (delivered w.env (w.clock + 3))) := by
  show (_ → (Session.Logged.open host port ioPort ⟨w, l⟩).1 = _ ∧ (Session.Logged.open host port ioPort ⟨w, l⟩).2.log = _) ∧
    (_ → (Session.Logged.open host port ioPort ⟨w, l⟩).1 = _ ∧ (Session.Logged.open host port ioPort ⟨w, l⟩).2.log = _)
  rw [open_connected host port ioPort w l works.1 works.2.1, openTail]
  have e := open_replied host port ioPort w l works
  have e2 := examine_short unreadable 0x65
    ⟨w.replied host port ioPort [], l ++ enrolling (delivered w.env (w.clock + 3))⟩
  rw [e2] at e
  refine ⟨fun closes => ?_, fun closes => ?_⟩
  · have e3 := Prog.bind_ok (f := fun _ => say (.registrationUnparsed tooSmall.what) >>= fun _ =>
      (Prog.raise (runtimeError "Invalid response received registering session") : Prog LogWorld EncapPacket))
      (close_replied host port ioPort w closes (l ++ enrolling (delivered w.env (w.clock + 3))))
    rw [Prog.bind_throw ((loggedCatch_length e).trans (e3.trans rfl))]
    exact ⟨rfl, List.append_assoc _ _ _⟩
  · obtain ⟨w', e3⟩ := close_replied_fails host port ioPort w closes (l ++ enrolling (delivered w.env (w.clock + 3)))
    rw [Prog.bind_throw ((loggedCatch_length e).trans (Prog.bind_throw e3))]
    exact ⟨rfl, rfl⟩

/-- C108. If the frame received is refused, the log says why. The second of these messages comes after the sockets have
been closed: it is missing if closing them fails. -/
theorem c108_refused (works : (w.env w.clock).fails = false ∧ (w.env (w.clock + 1)).fails = false ∧ Works w.env (w.clock + 2))
    (h : EncapHeader) (payload tail : Bytes) (frame : Frames (delivered w.env (w.clock + 3)) h payload tail) (m : LogMsg)
    (what : String) (refused : Refused w.s.sessionId 0x65 h m what) :
    (Works w.env (w.clock + 4) →
      ((Op.open host port ioPort).runLogged ⟨w, l⟩).1 = .throw (runtimeError "Error in registration response") ∧
      ((Op.open host port ioPort).runLogged ⟨w, l⟩).2.log = l ++ (enrolling (delivered w.env (w.clock + 3)) ++
        unusedWarning payload tail ++ [m, .registrationError what])) ∧
    (¬ Works w.env (w.clock + 4) →
      ((Op.open host port ioPort).runLogged ⟨w, l⟩).1 = .throw systemError ∧
      ((Op.open host port ioPort).runLogged ⟨w, l⟩).2.log = l ++ (enrolling (delivered w.env (w.clock + 3)) ++
        unusedWarning payload tail ++ [m])) := by
  show (_ → (Session.Logged.open host port ioPort ⟨w, l⟩).1 = _ ∧ (Session.Logged.open host port ioPort ⟨w, l⟩).2.log = _) ∧
    (_ → (Session.Logged.open host port ioPort ⟨w, l⟩).1 = _ ∧ (Session.Logged.open host port ioPort ⟨w, l⟩).2.log = _)
  rw [open_connected host port ioPort w l works.1 works.2.1, openTail]
  have e := open_replied host port ioPort w l works
  have e2 := examine_packet h tail frame.1.symm 0x65 (w.replied host port ioPort [])
    (l ++ enrolling (delivered w.env (w.clock + 3)))
  have e3 := check_refused (pkt := ⟨h, rawData payload⟩) (w := w.replied host port ioPort []) (cmd := 0x65)
    (l ++ enrolling (delivered w.env (w.clock + 3)) ++ tailWarning payload tail) refused
  rw [← frame.2, Prog.bind_throw e3] at e2
  rw [e2] at e
  refine ⟨fun closes => ?_, fun closes => ?_⟩
  · have e3 := Prog.bind_ok (f := fun _ => say (.registrationError what) >>= fun _ =>
      (Prog.raise (runtimeError "Error in registration response") : Prog LogWorld EncapPacket))
      (close_replied host port ioPort w closes (l ++ enrolling (delivered w.env (w.clock + 3)) ++ tailWarning payload tail ++ [m]))
    rw [Prog.bind_throw ((loggedCatch_logic e).trans (e3.trans rfl))]
    refine ⟨rfl, ?_⟩
    simp only [List.append_assoc, unusedWarning, tailWarning, List.cons_append, List.nil_append]
  · obtain ⟨w', e3⟩ := close_replied_fails host port ioPort w closes
      (l ++ enrolling (delivered w.env (w.clock + 3)) ++ tailWarning payload tail ++ [m])
    rw [Prog.bind_throw ((loggedCatch_logic e).trans (Prog.bind_throw e3))]
    refine ⟨rfl, ?_⟩
    simp only [List.append_assoc, unusedWarning, tailWarning]

/-- `open` after a reply whose frame is fine. -/
theorem open_accepted (works : OpenWorks w) {h : EncapHeader} {payload tail : Bytes}
    (frame : Frames (delivered w.env (w.clock + 3)) h payload tail) (hc : h.command = 0x65)
    (ha : Acceptable w.s.sessionId h.sessionHandle) :
    Session.Logged.open host port ioPort ⟨w, l⟩ = (Session.Logged.parseRegistration ⟨h, rawData payload⟩ >>= fun regData =>
      match regData with
      | some d =>
        if d.protocolVersion ≠ eipProtocolVersion then do
          say (.wrongVersion eipProtocolVersion d.protocolVersion)
          quiet Session.closeSockets
          Prog.raise (runtimeError "Received wrong Ethernet IP Protocol Version on registration")
        else do
          sayIf (d.options ≠ 0) (.registrationOptions d.options)
          quiet (Prog.modify (fun w => { w with s := { w.s with sessionId := h.sessionHandle } }))
          say (.opened h.sessionHandle)
      | none => do
        quiet (Prog.modify (fun w => { w with s := { w.s with sessionId := h.sessionHandle } }))
        say (.opened h.sessionHandle))
      ⟨w.replied host port ioPort [], l ++ (enrolling (delivered w.env (w.clock + 3)) ++ frameWarnings h payload tail)⟩ := by
  have e := open_replied host port ioPort w l works
  have e2 := examine_packet h tail frame.1.symm 0x65 (w.replied host port ioPort [])
    (l ++ enrolling (delivered w.env (w.clock + 3)))
  have e3 := check_log (pkt := ⟨h, rawData payload⟩) (w := w.replied host port ioPort []) (cmd := 0x65)
    (l ++ enrolling (delivered w.env (w.clock + 3)) ++ tailWarning payload tail) hc ha
  rw [← frame.2, Prog.bind_ok e3] at e2
  rw [e2] at e
  rw [open_connected host port ioPort w l works.1 works.2.1, openTail, Prog.bind_ok (loggedCatch_ok e), frameWarnings_eq]
  simp only [List.append_assoc]

theorem registration_logged {h : EncapHeader} {payload : Bytes} (hl : h.length.toNat = payload.length) (hne : payload ≠ [])
    (w : World) (l : List LogMsg) :
    (payload.length < 4 → Session.Logged.parseRegistration ⟨h, rawData payload⟩ ⟨w, l⟩ =
      (.ok none, ⟨w, l ++ enrolledWarnings payload⟩)) ∧
    (∀ v o rest, payload = register v o ++ rest → Session.Logged.parseRegistration ⟨h, rawData payload⟩ ⟨w, l⟩ =
      (.ok (some ⟨v, o⟩), ⟨w, l ++ enrolledWarnings payload⟩)) := by
  have hlen : h.length = UInt16.ofNat payload.length := by
    rw [← hl]; simp
  have hsize : ∀ l', when (h.length.toNat ≠ RegisterSessionData.new.getLength)
      (.registrationSize (UInt64.ofNat RegisterSessionData.new.getLength) h.length) = l' →
      when (payload.length ≠ 4) (.registrationSize 4 (UInt16.ofNat payload.length)) = l' := by
    intro l' e
    rw [← e, hl, ← hlen]
    rfl
  have hloc : ∀ s : LogWorld, Session.onLocal RegisterSessionData.new
      ((EncapPacket.mk h (rawData payload)).getPayloadAs RegisterSessionData.cls) s =
      match RegisterSessionData.deserialize (RegisterSessionData.new, .buffer ⟨payload, 0⟩) with
      | (.ok (), (d, _)) => (.ok d, s)
      | (.throw e, _) => (.throw e, s)
      | (.ub u, _) => (.ub u, s) := by
    intro s
    rw [Session.onLocal, getPayloadAs_raw _ rfl h hne]
    have e : deserializeFrom RegisterSessionData.cls payload payload.length RegisterSessionData.new =
        match RegisterSessionData.deserialize (RegisterSessionData.new, .buffer ⟨payload, 0⟩) with
        | (r, (d', _)) => (r, d') := rfl
    rw [e]
    rcases RegisterSessionData.deserialize (RegisterSessionData.new, .buffer ⟨payload, 0⟩) with ⟨(_ | _ | _), _, _⟩ <;> rfl
  refine ⟨fun short => ?_, fun v o rest e => ?_⟩
  · rcases covers_register payload with ⟨cs, tail, ⟨v, o, rfl⟩, e⟩ | ⟨cs, m, ⟨v, o, rfl⟩, hm, e⟩
    · have := congrArg List.length e
      simp [register] at this
      omega
    · obtain ⟨what, d', r', e2⟩ := (RegisterSessionData.parses RegisterSessionData.new v o 0).short payload m e hm
      rw [Session.Logged.parseRegistration, sayIf_then, ← hsize _ rfl]
      have e3 := hloc ⟨w, l ++ when (payload.length ≠ 4) (.registrationSize 4 (UInt16.ofNat payload.length))⟩
      rw [e2] at e3
      rw [loggedCatch_length (Prog.bind_throw e3), enrolledWarnings, when, when, if_pos short, ← List.append_assoc]
      rfl
  · have e2 := (RegisterSessionData.parses RegisterSessionData.new v o 0).buffer rest
    rw [Session.Logged.parseRegistration, sayIf_then, ← hsize _ rfl]
    have e3 := hloc ⟨w, l ++ when (payload.length ≠ 4) (.registrationSize 4 (UInt16.ofNat payload.length))⟩
    rw [← e] at e2
    rw [e2] at e3
    have long : ¬ payload.length < 4 := by rw [e]; simp [register]; omega
    have : enrolledWarnings payload = when (payload.length ≠ 4) (.registrationSize 4 (UInt16.ofNat payload.length)) := by
      rw [enrolledWarnings, when, when, if_neg long, List.append_nil]
    rw [this]
    exact loggedCatch_ok ((Prog.bind_ok e3).trans rfl)

/-- C108. A registration that succeeds logs what is odd about the reply and, last, the session id. -/
theorem c108_opened (works : (w.env w.clock).fails = false ∧ (w.env (w.clock + 1)).fails = false ∧ Works w.env (w.clock + 2))
    (h : EncapHeader) (payload tail : Bytes) (frame : Frames (delivered w.env (w.clock + 3)) h payload tail)
    (command : h.command = 0x65) (acceptable : Acceptable w.s.sessionId h.sessionHandle) :
    (payload ≠ [] → payload.length < 4 →
      ((Op.open host port ioPort).runLogged ⟨w, l⟩).1 = .ok () ∧
      ((Op.open host port ioPort).runLogged ⟨w, l⟩).2.log = l ++ (enrolling (delivered w.env (w.clock + 3)) ++
        frameWarnings h payload tail ++ enrolledWarnings payload ++ [.opened h.sessionHandle])) ∧
    (∀ options rest, payload = register 1 options ++ rest →
      ((Op.open host port ioPort).runLogged ⟨w, l⟩).1 = .ok () ∧
      ((Op.open host port ioPort).runLogged ⟨w, l⟩).2.log = l ++ (enrolling (delivered w.env (w.clock + 3)) ++
        frameWarnings h payload tail ++ enrolledWarnings payload ++ when (options ≠ 0) (.registrationOptions options) ++
        [.opened h.sessionHandle])) := by
  show (_ → _ → (Session.Logged.open host port ioPort ⟨w, l⟩).1 = _ ∧ (Session.Logged.open host port ioPort ⟨w, l⟩).2.log = _) ∧
    (∀ options rest, _ → (Session.Logged.open host port ioPort ⟨w, l⟩).1 = _ ∧
      (Session.Logged.open host port ioPort ⟨w, l⟩).2.log = _)
  rw [open_accepted host port ioPort w l works frame command acceptable]
  refine ⟨fun hne short => ?_, fun o rest e => ?_⟩
  · rw [Prog.bind_ok ((registration_logged frame.1 hne _ _).1 short)]
    refine ⟨rfl, ?_⟩
    show l ++ _ ++ _ ++ [_] = _
    simp only [List.append_assoc]
  · have hne : payload ≠ [] := by
      intro h0
      rw [h0] at e
      have := congrArg List.length e
      simp [register] at this
      omega
    rw [Prog.bind_ok ((registration_logged frame.1 hne _ _).2 1 o rest e)]
    have hv : ¬ (RegisterSessionData.mk 1 o).protocolVersion ≠ eipProtocolVersion := fun h => h rfl
    dsimp only
    rw [if_neg hv, sayIf_then]
    refine ⟨rfl, ?_⟩
    show l ++ _ ++ _ ++ _ ++ [_] = _
    simp only [List.append_assoc]

/-- C108. A registration that is answered with another protocol version logs both versions, whatever becomes of closing the
sockets. -/
theorem c108_version (works : (w.env w.clock).fails = false ∧ (w.env (w.clock + 1)).fails = false ∧ Works w.env (w.clock + 2))
    (h : EncapHeader) (payload tail : Bytes) (frame : Frames (delivered w.env (w.clock + 3)) h payload tail)
    (command : h.command = 0x65) (acceptable : Acceptable w.s.sessionId h.sessionHandle) (version options : UInt16)
    (rest : Bytes) (data : payload = register version options ++ rest) (wrong : version ≠ 1) :
    ((Op.open host port ioPort).runLogged ⟨w, l⟩).2.log = l ++ (enrolling (delivered w.env (w.clock + 3)) ++
      frameWarnings h payload tail ++ enrolledWarnings payload ++ [.wrongVersion 1 version]) ∧
    (Works w.env (w.clock + 4) → ((Op.open host port ioPort).runLogged ⟨w, l⟩).1 =
      .throw (runtimeError "Received wrong Ethernet IP Protocol Version on registration")) ∧
    (¬ Works w.env (w.clock + 4) → ((Op.open host port ioPort).runLogged ⟨w, l⟩).1 = .throw systemError) := by
  show (Session.Logged.open host port ioPort ⟨w, l⟩).2.log = _ ∧ (_ → (Session.Logged.open host port ioPort ⟨w, l⟩).1 = _) ∧
    (_ → (Session.Logged.open host port ioPort ⟨w, l⟩).1 = _)
  have hne : payload ≠ [] := by
    intro h0
    rw [h0] at data
    have := congrArg List.length data
    simp [register] at this
    omega
  have hv : (RegisterSessionData.mk version options).protocolVersion ≠ eipProtocolVersion := wrong
  rw [open_accepted host port ioPort w l works frame command acceptable,
    Prog.bind_ok ((registration_logged frame.1 hne _ _).2 version options rest data)]
  dsimp only
  rw [if_pos hv, say_then]
  by_cases closes : Works w.env (w.clock + 4)
  · rw [Prog.bind_ok (close_replied host port ioPort w closes _)]
    refine ⟨?_, fun _ => rfl, fun h => absurd closes h⟩
    show l ++ _ ++ _ ++ [_] = _
    simp only [List.append_assoc]
    rfl
  · obtain ⟨w', e⟩ := close_replied_fails host port ioPort w closes
      (l ++ (enrolling (delivered w.env (w.clock + 3)) ++ frameWarnings h payload tail) ++ enrolledWarnings payload ++
        [.wrongVersion eipProtocolVersion version])
    rw [Prog.bind_throw e]
    refine ⟨?_, fun h => absurd h closes, fun _ => rfl⟩
    simp only [List.append_assoc]
    rfl

/-- C108. A registration reply without data is undefined behaviour, after the warning about its size. -/
theorem c108_hollow (works : (w.env w.clock).fails = false ∧ (w.env (w.clock + 1)).fails = false ∧ Works w.env (w.clock + 2))
    (h : EncapHeader) (tail : Bytes) (frame : Frames (delivered w.env (w.clock + 3)) h [] tail) (command : h.command = 0x65)
    (acceptable : Acceptable w.s.sessionId h.sessionHandle) :
    ((Op.open host port ioPort).runLogged ⟨w, l⟩).1 = .ub .nullDeref ∧
    ((Op.open host port ioPort).runLogged ⟨w, l⟩).2.log = l ++ (enrolling (delivered w.env (w.clock + 3)) ++
      frameWarnings h [] tail ++ [.registrationSize 4 0]) := by
  have hlen : h.length = 0 := by
    have := frame.1
    apply UInt16.toNat.inj
    rw [this]; rfl
  show (Session.Logged.open host port ioPort ⟨w, l⟩).1 = _ ∧ (Session.Logged.open host port ioPort ⟨w, l⟩).2.log = _
  rw [open_accepted host port ioPort w l works frame command acceptable, Session.Logged.parseRegistration]
  obtain ⟨c, _, handle, status, context, options⟩ := h
  cases hlen
  refine ⟨rfl, Eq.trans (b := l ++ (enrolling (delivered w.env (w.clock + 3)) ++
    frameWarnings ⟨c, 0, handle, status, context, options⟩ [] tail) ++ [.registrationSize 4 0]) rfl ?_⟩
  rw [List.append_assoc]
  rfl

end

theorem data_cases (payload : Bytes) : payload = [] ∨ (payload ≠ [] ∧ payload.length < 4) ∨
    ∃ version options rest, payload = register version options ++ rest := by
  by_cases h0 : payload = []
  · exact .inl h0
  · rcases covers_register payload with ⟨cs, tail, ⟨v, o, rfl⟩, e⟩ | ⟨cs, m, ⟨v, o, rfl⟩, hm, e⟩
    · exact .inr (.inr ⟨v, o, tail, e⟩)
    · refine .inr (.inl ⟨h0, ?_⟩)
      have h4 : (register v o).length = 4 := by simp [register]
      have := congrArg List.length e
      rw [h4, List.length_append] at this
      have := List.length_pos_iff.mpr hm
      omega

/-- C108. The theorems above leave out nothing: every reply that is received is no complete frame, or a frame that is
refused, or has no data, less than four bytes of data, or a version and options. -/
theorem c108_cases (id : UInt32) (bytes : Bytes) :
    (¬ ∃ cmd handle payload, Packet bytes cmd handle payload) ∨
    ∃ h payload tail, Frames bytes h payload tail ∧
      ((∃ m what, Refused id 0x65 h m what) ∨
        (h.command = 0x65 ∧ Acceptable id h.sessionHandle ∧
          (payload = [] ∨ (payload ≠ [] ∧ payload.length < 4) ∨
            ∃ version options rest, payload = register version options ++ rest))) := by
  by_cases hp : ∃ cmd handle payload, Packet bytes cmd handle payload
  · obtain ⟨_, _, payload, h, tail, rfl, rfl, hl, e⟩ := hp
    refine .inr ⟨h, payload, tail, ⟨hl, e⟩, ?_⟩
    by_cases hc : h.command = 0x65
    · by_cases hi : id = 0
      · by_cases hz : h.sessionHandle = 0
        · exact .inl ⟨_, _, .zero hc hi hz⟩
        · refine .inr ⟨hc, .inl ⟨hi, hz⟩, ?_⟩
          exact data_cases payload
      · by_cases hz : h.sessionHandle = id
        · exact .inr ⟨hc, .inr ⟨hi, hz⟩, data_cases payload⟩
        · exact .inl ⟨_, _, .handle hc hi hz⟩
    · exact .inl ⟨_, _, .command hc⟩
  · exact .inl hp

/-- A device that answers with version 1, options and one more byte: everything odd is logged. -/
example : (Session.Logged.open "h" "p" "q" ⟨{ c25_world with
      env := fun _ => ⟨false, header ⟨0x65, 5, 7, 8, (0, 0), 0⟩ ++ register 1 9 ++ [0], 0⟩ }, []⟩).2.log =
    [.resolving, .registering, .sendingCommand, .waiting, .receivedResponse 29, .status 8, .registrationSize 4 5,
      .registrationOptions 9, .opened 7] := by decide +kernel

/-- Another version; no frame at all; the wrong command; and an unreadable reply after which closing fails. -/
example : (Session.Logged.open "h" "p" "q" ⟨{ c25_world with
      env := fun _ => ⟨false, header ⟨0x65, 4, 7, 0, (0, 0), 0⟩ ++ register 2 9, 0⟩ }, []⟩).2.log =
      enrolling (header ⟨0x65, 4, 7, 0, (0, 0), 0⟩ ++ register 2 9) ++ [.wrongVersion 1 2] ∧
    ((Session.Logged.open "h" "p" "q" ⟨{ c25_world with env := fun _ => ⟨false, [1], 0⟩ }, []⟩).2.log.length = 6) ∧
    ((Session.Logged.open "h" "p" "q" ⟨{ c25_world with env := fun n => ⟨n = 4, [1], 0⟩ }, []⟩).2.log = enrolling [1]) ∧
    (Session.Logged.open "h" "p" "q" ⟨{ c25_world with
      env := fun _ => ⟨false, header ⟨0x66, 0, 7, 0, (0, 0), 0⟩, 0⟩ }, []⟩).2.log =
      enrolling (header ⟨0x66, 0, 7, 0, (0, 0), 0⟩) ++
        [.wrongCommand 0x65 0x66, .registrationError "Reply received with wrong command"] := by
  decide +kernel

/-! ### Closing -/

/-- C108. Closing logs that it begins and, once the request has been sent, that the session is closed, whatever becomes of
closing the sockets. -/
theorem c108_close (w : World) (l : List LogMsg) :
    (Op.close.runLogged ⟨w, l⟩).2.log = l ++ (.closing :: when ((w.env w.clock).fails = false) .closed) := by
  have e := sockSend_eq (unregister_serializes w.s.sessionId) .tcp w
  show (Session.Logged.close ⟨w, l⟩).2.log = _
  have e0 : Session.Logged.close ⟨w, l⟩ = (do
      let _ ← quiet (sockSend .tcp (EncapPacket.new Session.cmdUnregisterSession w.s.sessionId).obj)
      say .closed
      quiet Session.closeSockets
      quiet (Prog.modify (fun w => { w with s := { w.s with sessionId := 0 } })) : Prog LogWorld Unit)
      ⟨w, l ++ [.closing]⟩ := rfl
  rw [e0]
  by_cases h : (w.env w.clock).fails = true
  · rw [if_pos h] at e
    rw [Prog.bind_throw (quiet_throw e _), when, if_neg (by rw [h]; simp)]
  · rw [if_neg h] at e
    rw [Prog.bind_ok (quiet_ok e _), when, if_pos (by simpa using h), say_then]
    rcases closeSockets_cases (w.after (.sent .tcp (request 0x66 w.s.sessionId []) true)) with
      ⟨_, e⟩ | ⟨_, _, e⟩ | ⟨_, _, e⟩
    · rw [Prog.bind_throw (quiet_throw e _), List.append_assoc]; rfl
    · rw [Prog.bind_throw (quiet_throw e _), List.append_assoc]; rfl
    · rw [Prog.bind_ok (quiet_ok e _)]
      show l ++ _ ++ _ = _
      rw [List.append_assoc]; rfl

example : logOf Session.Logged.close c25_world = [.closing, .closed] ∧
    logOf Session.Logged.close { c25_world with env := fun n => ⟨n = 0, [], 0⟩ } = [.closing] ∧
    logOf Session.Logged.close { c25_world with env := fun n => ⟨n = 1, [], 0⟩ } = [.closing, .closed] := by decide +kernel

/-- C108. Destroying a session logs what closing it does if it is open, and nothing otherwise. -/
theorem c108_destroy (w : World) (l : List LogMsg) :
    (Session.Logged.destroy ⟨w, l⟩).2.log =
      if w.s.sessionId = 0 then l else l ++ (.closing :: when ((w.env w.clock).fails = false) .closed) := by
  have e := c108_close w l
  have e0 : Session.Logged.destroy ⟨w, l⟩ = Prog.tryCatch
    ((if w.s.sessionId ≠ 0 then Session.Logged.close else pure () : Prog LogWorld Unit)) (fun _ => pure ()) ⟨w, l⟩ := rfl
  rw [e0]
  by_cases h : w.s.sessionId = 0
  · rw [if_pos h, if_neg (by simp [h])]
    rfl
  · rw [if_neg h, if_pos h, ← e]
    simp only [Prog.tryCatch, Op.runLogged]
    rcases Session.Logged.close ⟨w, l⟩ with ⟨(_ | _ | _), _⟩ <;> rfl

/-! ### I/O -/

/-- C108. Sending I/O data logs one message, before anything is sent. -/
theorem c108_send (p : CPFPacket) (w : World) (l : List LogMsg) :
    ((Op.sendIOPacket p).runLogged ⟨w, l⟩).2.log = l ++ [.sendingIO] := by
  show (Session.Logged.sendIOPacket p ⟨w, l⟩).2.log = _
  rw [Session.Logged.sendIOPacket, say_then]
  simp only [quiet, Prog.zoom, Prog.bind_def, Prog.andThen]
  rcases sockSend .io p.obj w with ⟨(_ | _ | _), _⟩ <;> rfl

/-- C108. Receiving I/O data logs the number of bytes received and, for a datagram with bytes after its items, how many were
used. -/
theorem c108_receive (w : World) (l : List LogMsg) :
    ((w.env w.clock).fails = true → (Op.receiveIOPacket.runLogged ⟨w, l⟩).2.log = l ++ [.receivingIO]) ∧
    ((w.env w.clock).fails = false → (¬ ∃ items tail, CpfOk items ∧ delivered w.env w.clock = cpf items ++ tail) →
      (Op.receiveIOPacket.runLogged ⟨w, l⟩).2.log = l ++ [.receivingIO, .receivedIO (size (delivered w.env w.clock))]) ∧
    (∀ items tail, (w.env w.clock).fails = false → CpfOk items → delivered w.env w.clock = cpf items ++ tail →
      (Op.receiveIOPacket.runLogged ⟨w, l⟩).2.log = l ++ ([.receivingIO, .receivedIO (size (delivered w.env w.clock))] ++
        when (tail ≠ []) (.ioUnused (size (delivered w.env w.clock)) (size (cpf items))))) := by
  have e := sockReceive_eq .io w
  have hrun : (Op.receiveIOPacket.runLogged ⟨w, l⟩).2 = (Session.Logged.receiveIOPacket ⟨w, l⟩).2 := by
    show ((Session.Logged.receiveIOPacket >>= fun _ => pure ()) ⟨w, l⟩).2 = _
    simp only [Prog.bind_def, Prog.andThen]
    rcases Session.Logged.receiveIOPacket ⟨w, l⟩ with ⟨(_ | _ | _), _⟩ <;> rfl
  rw [hrun, Session.Logged.receiveIOPacket, say_then]
  refine ⟨fun h => ?_, fun h hn => ?_, fun items tail h ok hd => ?_⟩
  · rw [if_pos h] at e
    rw [Prog.bind_throw (quiet_throw e _)]
  · rw [if_neg (by rw [h]; simp)] at e
    rw [Prog.bind_ok (quiet_ok e _), say_then]
    rcases covers_cpf (delivered w.env w.clock) with ⟨cs, tail, ⟨k, ok, rfl⟩, e1⟩ | ⟨cs, m, ⟨k, ok, rfl⟩, hm, e1⟩
    · exact absurd ⟨k, tail, ok, e1⟩ hn
    · obtain ⟨what, d1, r1, e2⟩ := (CPFPacket.parses k ok.1 ok.2 ⟨[]⟩ 0).short _ m e1 hm
      have e3 : ∀ s : LogWorld, Session.Logged.parseIO (delivered w.env w.clock) s = (.throw (lengthError what), s) := by
        intro s
        simp only [Session.Logged.parseIO, BufferReader.new, e2]
      rw [Prog.bind_throw (e3 _), List.append_assoc]
      rfl
  · rw [if_neg (by rw [h]; simp)] at e
    rw [Prog.bind_ok (quiet_ok e _), say_then]
    have e2 := (CPFPacket.parses items ok.1 ok.2 ⟨[]⟩ 0).buffer tail
    have e3 : ∀ s : LogWorld, Session.Logged.parseIO (delivered w.env w.clock) s =
        (.ok (⟨parsedItems items⟩, (cpf items).length), s) := by
      intro s
      simp only [Session.Logged.parseIO, BufferReader.new, hd, e2]
      simp [Reader.getByteCount, BufferReader.getByteCount]
    rw [Prog.bind_ok (e3 _)]
    dsimp only
    rw [sayIf_then]
    have hw : when ((cpf items).length ≠ (delivered w.env w.clock).length)
        (.ioUnused (UInt64.ofNat (delivered w.env w.clock).length) (UInt64.ofNat (cpf items).length)) =
        when (tail ≠ []) (.ioUnused (size (delivered w.env w.clock)) (size (cpf items))) := by
      refine when_iff ?_ _
      rw [hd, List.length_append, ne_eq, ne_eq, ← List.length_eq_zero_iff]
      omega
    rw [hw]
    show l ++ _ ++ _ ++ _ = _
    simp only [List.append_assoc]
    rfl

/-- A datagram with one empty item and a byte that is not used, and an empty datagram. -/
example : logOf Session.Logged.receiveIOPacket { c25_world with env := fun _ => ⟨false, cpf [(0, [])] ++ [5], 0⟩ } =
      [.receivingIO, .receivedIO 7, .ioUnused 7 6] ∧
    logOf Session.Logged.receiveIOPacket { c25_world with env := fun _ => ⟨false, [], 0⟩ } =
      [.receivingIO, .receivedIO 0] := by decide +kernel

end Eip
