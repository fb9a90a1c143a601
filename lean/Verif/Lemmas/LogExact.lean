import Verif.Lemmas.LogOps
import Verif.Lemmas.Texts
/-
The exact messages of exchanges.
-/
namespace Eip
open Spec

theorem quiet_ok {α : Type} {p : Prog World α} {w w' : World} {a : α} (h : p w = (.ok a, w')) (l : List LogMsg) :
    quiet p ⟨w, l⟩ = (.ok a, ⟨w', l⟩) := by
  simp only [quiet, Prog.zoom, h]

theorem quiet_throw {α : Type} {p : Prog World α} {w w' : World} {e : Exn} (h : p w = (.throw e, w')) (l : List LogMsg) :
    quiet p ⟨w, l⟩ = (.throw e, ⟨w', l⟩) := by
  simp only [quiet, Prog.zoom, h]

theorem say_then {β : Type} (m : LogMsg) (p : Prog LogWorld β) (w : World) (l : List LogMsg) :
    (say m >>= fun _ => p) ⟨w, l⟩ = p ⟨w, l ++ [m]⟩ := rfl

theorem sayIf_then {β : Type} (c : Prop) [Decidable c] (m : LogMsg) (p : Prog LogWorld β) (w : World) (l : List LogMsg) :
    (sayIf c m >>= fun _ => p) ⟨w, l⟩ = p ⟨w, l ++ when c m⟩ := by
  by_cases h : c
  · simp only [sayIf, if_pos h, when]; rfl
  · simp only [sayIf, if_neg h, when, List.append_nil]; rfl

/-- The messages of an exchange in which something was received. -/
def exchangeLog (bytes : Bytes) : List LogMsg := [.sendingCommand, .waiting, .receivedResponse (size bytes)]

/-- What `sendCommand` does with the received bytes. -/
def examine (cmd : UInt16) (bytes : Bytes) : Prog LogWorld EncapPacket := do
  let x ← Session.Logged.parsePacket bytes
  sayIf (x.2 ≠ bytes.length) (.packetUnused (UInt64.ofNat bytes.length) (UInt64.ofNat x.2))
  Session.Logged.checkPacket x.1 cmd
  pure x.1

theorem sendCommand_log {req : EncapPacket} {bs : Bytes} (ho : Serializes req.obj bs) (w : World) (l : List LogMsg)
    (hw : Works w.env w.clock) :
    Session.Logged.sendCommand req ⟨w, l⟩ =
      examine req.header.command (delivered w.env (w.clock + 1))
        ⟨w.exchanged bs, l ++ exchangeLog (delivered w.env (w.clock + 1))⟩ := by
  have e1 := sockSend_eq ho .tcp w
  rw [if_neg (by rw [hw.1]; simp)] at e1
  have e2 := sockReceive_eq .tcp (w.after (.sent .tcp bs true))
  have h2 : ((w.after (.sent .tcp bs true)).env (w.after (.sent .tcp bs true)).clock).fails = false := hw.2
  rw [if_neg (by rw [h2]; simp)] at e2
  have e3 : ({ (w.after (.sent .tcp bs true)).after (.received .tcp
      (delivered (w.after (.sent .tcp bs true)).env (w.after (.sent .tcp bs true)).clock) true) with
      s := (w.after (.sent .tcp bs true)).s.receiveInto
        (delivered (w.after (.sent .tcp bs true)).env (w.after (.sent .tcp bs true)).clock) } : World)
      = w.exchanged bs := by
    simp [World.after, World.exchanged]
  rw [e3] at e2
  have e4 : delivered (w.after (.sent .tcp bs true)).env (w.after (.sent .tcp bs true)).clock
      = delivered w.env (w.clock + 1) := rfl
  rw [e4] at e2
  rw [Session.Logged.sendCommand, say_then, Prog.bind_ok (quiet_ok e1 _), say_then, Prog.bind_ok (quiet_ok e2 _), say_then]
  rw [List.append_assoc, List.append_assoc]
  rfl

theorem loggedParse_ok (h : EncapHeader) {payload : Bytes} (tail : Bytes) (hl : payload.length = h.length.toNat)
    {σ : Type} (s : σ) : Session.Logged.parsePacket (header h ++ payload ++ tail) s =
      (.ok (⟨h, rawData payload⟩, 24 + payload.length), s) := by
  have e := (EncapPacket.parses EncapPacket.new h hl 0).buffer tail
  simp only [Session.Logged.parsePacket, BufferReader.new, e]
  have : (header h).length = 24 := by simp [header]
  simp [Reader.getByteCount, BufferReader.getByteCount, this]

/-- The warning about bytes after the frame. -/
def tailWarning (payload tail : Bytes) : List LogMsg :=
  when (tail ≠ []) (.packetUnused (UInt64.ofNat (24 + payload.length + tail.length)) (UInt64.ofNat (24 + payload.length)))

theorem frameWarnings_eq (h : EncapHeader) (payload tail : Bytes) :
    frameWarnings h payload tail = tailWarning payload tail ++ Logs.headerWarnings h := by
  simp only [frameWarnings, tailWarning, Logs.headerWarnings, List.append_assoc]

theorem examine_packet (h : EncapHeader) {payload : Bytes} (tail : Bytes) (hl : payload.length = h.length.toNat)
    (cmd : UInt16) (w : World) (l : List LogMsg) :
    examine cmd (header h ++ payload ++ tail) ⟨w, l⟩ =
      (Session.Logged.checkPacket ⟨h, rawData payload⟩ cmd >>= fun _ => pure ⟨h, rawData payload⟩)
        ⟨w, l ++ tailWarning payload tail⟩ := by
  rw [examine, Prog.bind_ok (loggedParse_ok h tail hl _), sayIf_then]
  have hlen : (header h ++ payload ++ tail).length = 24 + payload.length + tail.length := by
    simp [header]
    omega
  have e : when (((⟨h, rawData payload⟩, 24 + payload.length) : EncapPacket × Nat).2 ≠ (header h ++ payload ++ tail).length)
      (.packetUnused (UInt64.ofNat (header h ++ payload ++ tail).length) (UInt64.ofNat (24 + payload.length))) =
      tailWarning payload tail := by
    rw [hlen]
    refine when_iff ?_ _
    rw [ne_eq, ne_eq, ← List.length_eq_zero_iff]
    show ¬ (24 + payload.length = 24 + payload.length + tail.length) ↔ _
    omega
  exact congrArg (fun z => (Session.Logged.checkPacket (⟨h, rawData payload⟩ : EncapPacket) cmd >>= fun _ =>
    (pure ⟨h, rawData payload⟩ : Prog LogWorld EncapPacket)) ⟨w, l ++ z⟩) e

theorem examine_short {bytes : Bytes} (hn : ¬ ∃ cmd handle payload, Packet bytes cmd handle payload) (cmd : UInt16)
    (s : LogWorld) : examine cmd bytes s = (.throw tooSmall, s) := by
  rcases covers_encap bytes with ⟨cs, tail, ⟨h, p, hl, rfl⟩, e⟩ | ⟨cs, m, ⟨h, p, hl, rfl⟩, hm, e⟩
  · exact absurd ⟨_, _, p, h, tail, rfl, rfl, hl.symm, e⟩ hn
  · obtain ⟨what, d1, r1, e'⟩ := (EncapPacket.parses EncapPacket.new h hl 0).short bytes m e hm
    have hw : lengthError what = tooSmall := Throws.packet _ _ _ e'
    have : Session.Logged.parsePacket bytes s = (.throw tooSmall, s) := by
      simp only [Session.Logged.parsePacket, BufferReader.new, e', hw]
    rw [examine, Prog.bind_throw this]

theorem check_log {pkt : EncapPacket} {cmd : UInt16} {w : World} (l : List LogMsg) (h1 : pkt.header.command = cmd)
    (h2 : Acceptable w.s.sessionId pkt.header.sessionHandle) :
    Session.Logged.checkPacket pkt cmd ⟨w, l⟩ = (.ok (), ⟨w, l ++ Logs.headerWarnings pkt.header⟩) := by
  obtain ⟨new, e, h⟩ := Logs.checkPacket pkt cmd w l
  rw [checkPacket_ok h1 h2] at e h
  rcases h with ⟨h, _⟩ | ⟨_, _, _, h, _⟩ | ⟨_, _, _, h, _⟩ | ⟨_, _, _, rfl⟩
  · exact absurd h1 h
  · cases h
  · cases h
  · exact e

theorem check_refused {pkt : EncapPacket} {cmd : UInt16} {w : World} (l : List LogMsg) {m : LogMsg} {what : String}
    (h : Refused w.s.sessionId cmd pkt.header m what) :
    Session.Logged.checkPacket pkt cmd ⟨w, l⟩ = (.throw (logicError what), ⟨w, l ++ [m]⟩) := by
  obtain ⟨new, e, h'⟩ := Logs.checkPacket pkt cmd w l
  rcases h' with ⟨a, b, rfl⟩ | ⟨a, a2, a3, b, rfl⟩ | ⟨a, a2, a3, b, rfl⟩ | ⟨a, a2, b, rfl⟩
  · rw [b] at e
    cases h with
    | command => exact e
    | zero hc => exact absurd hc a
    | handle hc => exact absurd hc a
  · rw [b] at e
    cases h with
    | command hc => exact absurd a hc
    | zero => exact e
    | handle _ hi => exact absurd a2 hi
  · rw [b] at e
    cases h with
    | command hc => exact absurd a hc
    | zero _ hi => exact absurd hi a2
    | handle => exact e
  · cases h with
    | command hc => exact absurd a hc
    | zero _ hi hz => 
      rcases a2 with ⟨_, h⟩ | ⟨h, _⟩
      · exact absurd hz h
      · exact absurd hi h
    | handle _ hi hz =>
      rcases a2 with ⟨h, _⟩ | ⟨_, h⟩
      · exact absurd h hi
      · exact absurd h hz


/-! ### RR commands -/

theorem moreThanTwo_eq (h : EncapHeader) (handle : UInt32) (timeout : UInt16) {l : List (UInt16 × Bytes)} (hl : CpfOk l)
    (tail : Bytes) :
    Session.Logged.moreThanTwo ⟨h, rawData (rrBytes handle timeout l ++ tail)⟩ = decide (l.length > 2) := by
  have hne : rrBytes handle timeout l ++ tail ≠ [] := by
    intro e
    have := congrArg List.length e
    simp [rrBytes] at this
  have e := (rrFront_parses (fun x : RRData => x) (fun b _ => b) (fun _ _ => rfl) (fun _ _ _ => rfl) RRData.new
    handle timeout hl 0).buffer tail
  have e1 : rrFront (fun x : RRData => x) (fun b _ => b) = (do
      readMember .u32 (·.interfaceHandle) (fun v r => { r with interfaceHandle := v })
      readMember .u16 (·.timeout) (fun v r => { r with timeout := v })
      RRData.parseCPF : Prog (RRData × Reader) CPFPacket) := rfl
  rw [e1] at e
  rw [rawData_of_ne hne]
  simp only [Session.Logged.moreThanTwo, Option.bind_some, SerializableBuffer.obj, BufferReader.new, e]
  have hcount : (CPFPacket.getItemCount ⟨parsedItems l⟩).toNat = l.length := by
    simp only [CPFPacket.getItemCount, parsedItems, List.length_map]
    exact toNat_ofNat16 hl.1
  rw [hcount]

theorem Replies.reply {payload : Bytes} {service status : UInt8} {data : Bytes} {more : List (UInt16 × Bytes)}
    (h : Replies payload service status data more) : ∃ a, RRReply payload service status a data := by
  obtain ⟨handle, timeout, r, k, a, tail, ha, hl, e⟩ := h
  exact ⟨a, r, k, ha, handle, timeout, more, tail, hl, e⟩

theorem Replies.moreThanTwo {payload : Bytes} {service status : UInt8} {data : Bytes} {more : List (UInt16 × Bytes)}
    (h : Replies payload service status data more) (hd : EncapHeader) :
    Session.Logged.moreThanTwo ⟨hd, rawData payload⟩ = true ↔ more ≠ [] := by
  obtain ⟨handle, timeout, r, k, a, tail, ha, hl, rfl⟩ := h
  have := moreThanTwo_eq hd handle timeout hl tail
  rw [rrBytes] at this
  rw [this, decide_eq_true_iff]
  cases more with
  | nil => simp
  | cons x xs => simp

theorem loggedCatch_ok {α : Type} {p : Prog LogWorld α} {a b : Exn → Prog LogWorld α} {s s' : LogWorld} {x : α}
    (h : p s = (.ok x, s')) : Session.Logged.catchLengthLogic p a b s = (.ok x, s') := by
  simp only [Session.Logged.catchLengthLogic, Prog.tryCatch, h]

theorem loggedCatch_length {α : Type} {p : Prog LogWorld α} {a b : Exn → Prog LogWorld α} {s s' : LogWorld} {what : String}
    (h : p s = (.throw (lengthError what), s')) :
    Session.Logged.catchLengthLogic p a b s = a (lengthError what) s' := by
  simp only [Session.Logged.catchLengthLogic, Prog.tryCatch, h]
  rfl

theorem loggedCatch_logic {α : Type} {p : Prog LogWorld α} {a b : Exn → Prog LogWorld α} {s s' : LogWorld} {what : String}
    (h : p s = (.throw (logicError what), s')) :
    Session.Logged.catchLengthLogic p a b s = b (logicError what) s' := by
  simp only [Session.Logged.catchLengthLogic, Prog.tryCatch, h]
  rfl

/-- The first messages of an RR command that got a reply. -/
def rrLog (bytes : Bytes) : List LogMsg := .creatingRequest :: exchangeLog bytes

section
variable {service : UInt8} {path : Path} {data : Option Obj} {bs : Bytes} {w : World}

/-- The program after the request has been built. -/
def rrTail (service : UInt8) (req : EncapPacket) : Prog LogWorld RRDataResponse := do
  let response ← Session.Logged.catchLengthLogic (Session.Logged.sendCommand req)
    (fun e => do
      say (.responseShort e.what)
      Prog.raise (runtimeError "Packet response to RR Data Command too short"))
    (fun e => do
      say (.responseInvalid e.what)
      Prog.raise (runtimeError "Invalid packet response to RR Data Command"))
  let respData ← Session.Logged.catchLengthLogic (Session.Logged.parseResponse response)
    (fun e => do
      say (.responseDataShort e.what)
      Prog.raise (runtimeError "Response data to RR Command too short"))
    (fun e => do
      say (.responseDataInvalid e.what)
      Prog.raise (runtimeError "Invalid data in response to RR command"))
  sayIf (respData.getServiceCode ≠ service ||| 0x80) (.wrongService service respData.getServiceCode)
  if respData.getGeneralStatus ≠ 0 then do
    say (.commandFailed respData.getGeneralStatus)
    Prog.raise (runtimeError "RR Data Command Failed")
  else pure respData

theorem sendRR_eq (w : World) (l : List LogMsg) : Session.Logged.sendRRDataCommand service path data ⟨w, l⟩ =
    rrTail service (rrPacket w.s.sessionId service path data) ⟨w, l ++ [.creatingRequest]⟩ := rfl

theorem sendRR_log_short (hb : Serializes (rrPacket w.s.sessionId service path data).obj bs) (hw : Works w.env w.clock)
    (hn : ¬ ∃ cmd handle payload, Packet (delivered w.env (w.clock + 1)) cmd handle payload) (l : List LogMsg) :
    Session.Logged.sendRRDataCommand service path data ⟨w, l⟩ =
      (.throw (runtimeError "Packet response to RR Data Command too short"),
        ⟨w.exchanged bs, l ++ rrLog (delivered w.env (w.clock + 1)) ++ [.responseShort tooSmall.what]⟩) := by
  have e1 := sendCommand_log hb w (l ++ [.creatingRequest]) hw
  have e2 := examine_short hn (rrPacket w.s.sessionId service path data).header.command
    ⟨w.exchanged bs, l ++ [.creatingRequest] ++ exchangeLog (delivered w.env (w.clock + 1))⟩
  rw [e2] at e1
  rw [sendRR_eq, rrTail, Prog.bind_throw ((loggedCatch_length e1).trans rfl)]
  simp only [rrLog, tooSmall, lengthError, List.append_assoc, List.cons_append, List.nil_append]

theorem sendRR_log_refused (hb : Serializes (rrPacket w.s.sessionId service path data).obj bs) (hw : Works w.env w.clock)
    {h : EncapHeader} {payload tail : Bytes} (hf : Frames (delivered w.env (w.clock + 1)) h payload tail)
    {m : LogMsg} {what : String} (hr : Refused w.s.sessionId 0x6F h m what) (l : List LogMsg) :
    Session.Logged.sendRRDataCommand service path data ⟨w, l⟩ =
      (.throw (runtimeError "Invalid packet response to RR Data Command"),
        ⟨w.exchanged bs, l ++ (rrLog (delivered w.env (w.clock + 1)) ++ tailWarning payload tail ++
          [m, .responseInvalid what])⟩) := by
  have e1 := sendCommand_log hb w (l ++ [.creatingRequest]) hw
  have e2 := examine_packet h tail hf.1.symm (rrPacket w.s.sessionId service path data).header.command (w.exchanged bs)
    (l ++ [.creatingRequest] ++ exchangeLog (delivered w.env (w.clock + 1)))
  have e3 := check_refused (pkt := ⟨h, rawData payload⟩) (w := w.exchanged bs)
    (cmd := (rrPacket w.s.sessionId service path data).header.command)
    (l ++ [.creatingRequest] ++ exchangeLog (delivered w.env (w.clock + 1)) ++ tailWarning payload tail) hr
  rw [← hf.2, Prog.bind_throw e3] at e2
  rw [e2] at e1
  rw [sendRR_eq, rrTail, Prog.bind_throw ((loggedCatch_logic e1).trans rfl)]
  simp only [rrLog, logicError, List.append_assoc, List.cons_append, List.nil_append]

theorem sendRR_log_reply (hb : Serializes (rrPacket w.s.sessionId service path data).obj bs) (hw : Works w.env w.clock)
    {h : EncapHeader} {payload tail : Bytes} (hf : Frames (delivered w.env (w.clock + 1)) h payload tail)
    (hc : h.command = 0x6F) (ha : Acceptable w.s.sessionId h.sessionHandle) {replied status : UInt8} {rdata : Bytes}
    {more : List (UInt16 × Bytes)} (hr : Replies payload replied status rdata more) (l : List LogMsg) :
    (Session.Logged.sendRRDataCommand service path data ⟨w, l⟩).2 =
        ⟨w.exchanged bs, l ++ (rrLog (delivered w.env (w.clock + 1)) ++ frameWarnings h payload tail ++
          replyWarnings service more replied ++ when (status ≠ 0) (.commandFailed status))⟩ ∧
    (status = 0 → ∃ base a, (Session.Logged.sendRRDataCommand service path data ⟨w, l⟩).1 =
      .ok ⟨base, ⟨replied, 0, rawData a, rawData rdata⟩⟩) ∧
    (status ≠ 0 → (Session.Logged.sendRRDataCommand service path data ⟨w, l⟩).1 =
      .throw (runtimeError "RR Data Command Failed")) := by
  have e1 := sendCommand_log hb w (l ++ [.creatingRequest]) hw
  have e2 := examine_packet h tail hf.1.symm (rrPacket w.s.sessionId service path data).header.command (w.exchanged bs)
    (l ++ [.creatingRequest] ++ exchangeLog (delivered w.env (w.clock + 1)))
  have e3 := check_log (pkt := ⟨h, rawData payload⟩) (w := w.exchanged bs)
    (cmd := (rrPacket w.s.sessionId service path data).header.command)
    (l ++ [.creatingRequest] ++ exchangeLog (delivered w.env (w.clock + 1)) ++ tailWarning payload tail) hc ha
  rw [← hf.2, Prog.bind_ok e3] at e2
  rw [e2] at e1
  obtain ⟨a, hrr⟩ := Replies.reply hr
  have hne : payload ≠ [] := by
    rintro rfl
    exact RRReply.not_nil hrr
  obtain ⟨base, e4⟩ := RRDataResponse.parse_reply hrr payload.length RRDataResponse.new
  have e5 : ∀ s : LogWorld, Session.onLocal RRDataResponse.new
      ((EncapPacket.mk h (rawData payload)).getPayloadAs RRDataResponse.cls) s =
      (.ok ⟨base, ⟨replied, status, rawData a, rawData rdata⟩⟩, s) := by
    intro s
    rw [Session.onLocal, getPayloadAs_raw _ rfl h hne, e4]
  have e6 : ∀ l', Session.Logged.parseResponse ⟨h, rawData payload⟩ ⟨w.exchanged bs, l'⟩ =
      (.ok ⟨base, ⟨replied, status, rawData a, rawData rdata⟩⟩, ⟨w.exchanged bs, l' ++ when (more ≠ []) .moreItems⟩) := by
    intro l'
    rw [Session.Logged.parseResponse, sayIf_then, e5, when_iff (Replies.moreThanTwo hr h)]
  have e7 : Session.Logged.sendRRDataCommand service path data ⟨w, l⟩ =
      (if status ≠ 0 then do
        say (.commandFailed status)
        Prog.raise (runtimeError "RR Data Command Failed")
      else pure ⟨base, ⟨replied, status, rawData a, rawData rdata⟩⟩ : Prog LogWorld RRDataResponse)
      ⟨w.exchanged bs, l ++ (rrLog (delivered w.env (w.clock + 1)) ++ frameWarnings h payload tail ++
          replyWarnings service more replied)⟩ := by
    rw [sendRR_eq, rrTail, Prog.bind_ok (loggedCatch_ok e1), Prog.bind_ok (loggedCatch_ok (e6 _)), sayIf_then]
    rw [frameWarnings_eq]
    simp only [rrLog, replyWarnings, List.append_assoc, List.cons_append, List.nil_append]
    rfl
  rw [e7]
  by_cases hs : status = 0
  · subst hs
    rw [if_neg (by simp), when, if_neg (by simp), List.append_nil]
    exact ⟨rfl, fun _ => ⟨base, a, rfl⟩, fun h => absurd rfl h⟩
  · rw [if_pos hs, when, if_pos hs, say_then]
    refine ⟨?_, fun h => absurd h hs, fun _ => rfl⟩
    simp only [Prog.raise, List.append_assoc]

/-- An acceptable frame with data that is refused. -/
theorem sendRR_log_bad (hb : Serializes (rrPacket w.s.sessionId service path data).obj bs) (hw : Works w.env w.clock)
    {h : EncapHeader} {payload tail : Bytes} (hf : Frames (delivered w.env (w.clock + 1)) h payload tail)
    (hc : h.command = 0x6F) (ha : Acceptable w.s.sessionId h.sessionHandle) (hne : payload ≠ []) {e : Exn} {d' : RRDataResponse}
    (hd : deserializeFrom RRDataResponse.cls payload payload.length RRDataResponse.new = (.throw e, d'))
    {ws : List LogMsg} (hm : when (Session.Logged.moreThanTwo ⟨h, rawData payload⟩ = true) .moreItems = ws) (l : List LogMsg) :
    (∀ what, e = lengthError what → Session.Logged.sendRRDataCommand service path data ⟨w, l⟩ =
      (.throw (runtimeError "Response data to RR Command too short"),
        ⟨w.exchanged bs, l ++ (rrLog (delivered w.env (w.clock + 1)) ++ frameWarnings h payload tail ++ ws ++
          [.responseDataShort what])⟩)) ∧
    (∀ what, e = logicError what → Session.Logged.sendRRDataCommand service path data ⟨w, l⟩ =
      (.throw (runtimeError "Invalid data in response to RR command"),
        ⟨w.exchanged bs, l ++ (rrLog (delivered w.env (w.clock + 1)) ++ frameWarnings h payload tail ++ ws ++
          [.responseDataInvalid what])⟩)) := by
  have e1 := sendCommand_log hb w (l ++ [.creatingRequest]) hw
  have e2 := examine_packet h tail hf.1.symm (rrPacket w.s.sessionId service path data).header.command (w.exchanged bs)
    (l ++ [.creatingRequest] ++ exchangeLog (delivered w.env (w.clock + 1)))
  have e3 := check_log (pkt := ⟨h, rawData payload⟩) (w := w.exchanged bs)
    (cmd := (rrPacket w.s.sessionId service path data).header.command)
    (l ++ [.creatingRequest] ++ exchangeLog (delivered w.env (w.clock + 1)) ++ tailWarning payload tail) hc ha
  rw [← hf.2, Prog.bind_ok e3] at e2
  rw [e2] at e1
  have e5 : ∀ s : LogWorld, Session.onLocal RRDataResponse.new
      ((EncapPacket.mk h (rawData payload)).getPayloadAs RRDataResponse.cls) s = (.throw e, s) := by
    intro s
    rw [Session.onLocal, getPayloadAs_raw _ rfl h hne, hd]
  have e6 : ∀ l', Session.Logged.parseResponse ⟨h, rawData payload⟩ ⟨w.exchanged bs, l'⟩ =
      (.throw e, ⟨w.exchanged bs, l' ++ ws⟩) := by
    intro l'
    rw [Session.Logged.parseResponse, sayIf_then, e5, hm]
  constructor
  · rintro what rfl
    rw [sendRR_eq, rrTail, Prog.bind_ok (loggedCatch_ok e1), Prog.bind_throw ((loggedCatch_length (e6 _)).trans rfl)]
    rw [frameWarnings_eq]
    simp only [rrLog, lengthError, List.append_assoc, List.cons_append, List.nil_append]
  · rintro what rfl
    rw [sendRR_eq, rrTail, Prog.bind_ok (loggedCatch_ok e1), Prog.bind_throw ((loggedCatch_logic (e6 _)).trans rfl)]
    rw [frameWarnings_eq]
    simp only [rrLog, logicError, List.append_assoc, List.cons_append, List.nil_append]

end

theorem moreThanTwo_cut {payload : Bytes} (hne : payload ≠ []) (hn : ¬ ∃ items, HoldsItems payload items) (h : EncapHeader) :
    Session.Logged.moreThanTwo ⟨h, rawData payload⟩ = false := by
  rcases covers_rr payload with ⟨cs, tail, ⟨handle, timeout, l, hl, rfl⟩, e⟩ |
    ⟨cs, m, ⟨handle, timeout, l, hl, rfl⟩, hm, e⟩
  · exact absurd ⟨l, handle, timeout, tail, hl, e⟩ hn
  · obtain ⟨what, d', r', e'⟩ := (rrFront_parses (fun x : RRData => x) (fun b _ => b) (fun _ _ => rfl) (fun _ _ _ => rfl)
      RRData.new handle timeout hl 0).short payload m e hm
    have e1 : rrFront (fun x : RRData => x) (fun b _ => b) = (do
        readMember .u32 (·.interfaceHandle) (fun v r => { r with interfaceHandle := v })
        readMember .u16 (·.timeout) (fun v r => { r with timeout := v })
        RRData.parseCPF : Prog (RRData × Reader) CPFPacket) := rfl
    rw [e1] at e'
    rw [rawData_of_ne hne]
    simp only [Session.Logged.moreThanTwo, Option.bind_some, SerializableBuffer.obj, BufferReader.new, e']

theorem RRDataResponse.parse_cut {payload : Bytes} (hn : ¬ ∃ items, HoldsItems payload items) (n : Nat) (d : RRDataResponse) :
    ∃ d', deserializeFrom RRDataResponse.cls payload n d = (.throw tooSmall, d') := by
  rcases covers_rr payload with ⟨cs, tail, ⟨handle, timeout, l, hl, rfl⟩, e⟩ |
    ⟨cs, m, ⟨handle, timeout, l, hl, rfl⟩, hm, e⟩
  · exact absurd ⟨l, handle, timeout, tail, hl, e⟩ hn
  · obtain ⟨d', r', h⟩ := RRData.deserialize_cut (fun x : RRDataResponse => x.base)
      (fun b r => { r with base := b }) RRDataResponse.setData (fun _ _ => rfl) (fun _ _ _ => rfl) d handle timeout hl
      payload m hm e 0
    have ed : deserializeFrom RRDataResponse.cls payload n d =
      match RRData.deserialize (fun x : RRDataResponse => x.base) (fun b r => { r with base := b })
        RRDataResponse.setData (d, .buffer ⟨payload, 0⟩) with
      | (r, (d', _)) => (r, d') := rfl
    rw [h] at ed
    exact ⟨_, ed⟩

theorem rrCheck_wrong {l : List (UInt16 × Bytes)} {s : String} (h : WrongItems l s) : rrCheck l = .error s := by
  cases h with
  | few h =>
    match l, h with
    | [], _ => rfl
    | [_], _ => rfl
  | address h => simp only [rrCheck]; rw [if_pos h]
  | addressData h => simp only [rrCheck]; rw [if_neg (by simp), if_pos h]
  | data h => simp only [rrCheck]; rw [if_neg (by simp), if_neg (by simp), if_pos h]

/-- Items are as they should be, or wrong in exactly one way. -/
theorem wrong_or_right (l : List (UInt16 × Bytes)) :
    (∃ s, WrongItems l s) ∨ ∃ body more, l = (0x0000, []) :: (0x00B2, body) :: more := by
  match l with
  | [] => exact .inl ⟨_, .few (by decide)⟩
  | [x] => exact .inl ⟨_, .few (by simp)⟩
  | (t0, p0) :: (t1, p1) :: more =>
    by_cases h0 : t0 = 0x0000
    · subst h0
      by_cases h1 : p0 = []
      · subst h1
        by_cases h2 : t1 = 0x00B2
        · subst h2; exact .inr ⟨p1, more, rfl⟩
        · exact .inl ⟨_, .data h2⟩
      · exact .inl ⟨_, .addressData h1⟩
    · exact .inl ⟨_, .address h0⟩

theorem RRDataResponse.parse_wrong {payload : Bytes} {l : List (UInt16 × Bytes)} {s : String} (hp : HoldsItems payload l)
    (hw : WrongItems l s) (n : Nat) (d : RRDataResponse) :
    ∃ d', deserializeFrom RRDataResponse.cls payload n d = (.throw (logicError s), d') := by
  obtain ⟨handle, timeout, tail, hl, rfl⟩ := hp
  have e := RRDataResponse.parse_eq handle timeout hl tail n d
  rw [rrCheck_wrong hw] at e
  exact ⟨_, e⟩

theorem RRDataResponse.parse_tooShort {payload body : Bytes} {more : List (UInt16 × Bytes)}
    (hp : HoldsItems payload ((0x0000, []) :: (0x00B2, body) :: more)) (hne : body ≠ []) (hs : TooShort body) (n : Nat)
    (d : RRDataResponse) : ∃ d', deserializeFrom RRDataResponse.cls payload n d = (.throw tooSmall, d') := by
  obtain ⟨handle, timeout, tail, hl, rfl⟩ := hp
  have e := RRDataResponse.parse_eq handle timeout hl tail n d
  rw [rrCheck_ok.mpr ⟨more, rfl⟩] at e
  obtain ⟨what, d', e'⟩ := RRDataResponse.setData_short { d with base := ⟨handle, timeout⟩ } 0x00B2 body hne hs
  have hw : lengthError what = tooSmall := RRDataResponse.setData_throws hne _ _ _ e'
  simp only [e', hw] at e
  exact ⟨d', e⟩

theorem Spec.HoldsItems.moreThanTwo {payload : Bytes} {l : List (UInt16 × Bytes)} (hp : HoldsItems payload l) (h : EncapHeader) :
    Session.Logged.moreThanTwo ⟨h, rawData payload⟩ = true ↔ 2 < l.length := by
  obtain ⟨handle, timeout, tail, hl, rfl⟩ := hp
  have := moreThanTwo_eq h handle timeout hl tail
  rw [rrBytes] at this
  rw [this, decide_eq_true_iff]

end Eip
