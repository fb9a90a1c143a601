import Verif.Lemmas.LogCommands
import Verif.Props.Commands
/-
C96: errors in the log and failures. C97: what the log says about opening and closing. C98: the exact messages of an
exchange. C99: the standard output. C100: connection ids that were replaced.
-/
namespace Eip
open Spec

/-! ### C96 -/

/-- C96. Logging does not change what a call does, and messages are only added at the end of the log. -/
theorem c96_log_only_grows (op : Op) (w : World) (l : List LogMsg) :
    ∃ new, op.runLogged ⟨w, l⟩ = ((op.run w).1, ⟨(op.run w).2, l ++ new⟩) := by
  obtain ⟨new, e, _⟩ := Logs.op op w l
  exact ⟨new, e⟩

theorem new_eq {op : Op} {w : World} {l new new' : List LogMsg} {r : Res Unit} {w' : World}
    (e : op.runLogged ⟨w, l⟩ = (r, ⟨w', l ++ new⟩)) (h : (op.runLogged ⟨w, l⟩).2.log = l ++ new') : new' = new := by
  rw [e] at h
  exact (List.append_cancel_left h).symm

/-- C96. A call that logs an error throws. -/
theorem c96_error_means_failure (op : Op) (w : World) (l new : List LogMsg)
    (log : (op.runLogged ⟨w, l⟩).2.log = l ++ new) (complains : Complains new) :
    ∃ e, (op.runLogged ⟨w, l⟩).1 = .throw e := by
  obtain ⟨new', e, h⟩ := Logs.op op w l
  rw [new_eq e log] at complains
  rw [e]
  exact h complains

/-- C96 is false: if the socket cannot be opened, `open` throws and no error is logged. -/
theorem c96_violated (host port ioPort : String) (w : World) (l : List LogMsg) (fails : (w.env w.clock).fails = true) :
    ((Op.open host port ioPort).runLogged ⟨w, l⟩).1 = .throw systemError ∧
      ((Op.open host port ioPort).runLogged ⟨w, l⟩).2.log = l ++ [.resolving] ∧ ¬ Complains [LogMsg.resolving] := by
  have e := sockOpen_eq .tcp host port w
  rw [if_pos fails] at e
  have e1 : (Op.open host port ioPort).runLogged ⟨w, l⟩ = (.throw systemError,
      ⟨w.after (.opened .tcp host port false), l ++ [.resolving]⟩) := by
    rw [Op.runLogged, Session.Logged.open, say_then, Prog.bind_throw (quiet_throw e _)]
  refine ⟨by rw [e1], by rw [e1], ?_⟩
  rintro ⟨m, hm, h⟩
  rw [List.mem_singleton] at hm
  subst hm
  cases h

/-- C96 (partial: the exceptions a session makes up itself). A call with ordinary arguments that throws a runtime error,
or the logic error about a reply that does not match the connection, has logged an error. Missing: exceptions of the
sockets, and `length_error` for result data that is too short. -/
theorem c96_failure_is_logged_partial (op : Op) (tame : Tame op) (w : World) (l new : List LogMsg)
    (log : (op.runLogged ⟨w, l⟩).2.log = l ++ new) (e : Exn) (thrown : (op.runLogged ⟨w, l⟩).1 = .throw e)
    (reported : Reported e) : Complains new := by
  obtain ⟨new', e', h⟩ := Logs.op_loud op tame w l
  rw [new_eq e' log]
  rw [e'] at thrown
  exact h e thrown reported

/-! ### C98 -/

section
variable (op : Op) (cmd : IsCommand op) (w : World) (proper : Proper w.s op) (l : List LogMsg)
include cmd proper

/-- C98. A command that cannot be sent logs only that it is sending. -/
theorem c98_unsent (fails : (w.env w.clock).fails = true) : (op.runLogged ⟨w, l⟩).1 = .throw systemError ∧
    (op.runLogged ⟨w, l⟩).2.log = l ++ [.creatingRequest, .sendingCommand] := by
  obtain ⟨w1, path, data, bs, k, he, hk, hi, hb, e⟩ := command_logged op cmd w proper
  rw [e l, Prog.bind_throw (sendRR_log_unsent hb (by rw [he, hk]; exact fails) l)]
  exact ⟨rfl, rfl⟩

/-- C98. A command whose reply cannot be received logs that it is waiting, and nothing more. -/
theorem c98_unreceived (sends : (w.env w.clock).fails = false) (fails : (w.env (w.clock + 1)).fails = true) :
    (op.runLogged ⟨w, l⟩).1 = .throw systemError ∧
    (op.runLogged ⟨w, l⟩).2.log = l ++ [.creatingRequest, .sendingCommand, .waiting] := by
  obtain ⟨w1, path, data, bs, k, he, hk, hi, hb, e⟩ := command_logged op cmd w proper
  obtain ⟨w', e'⟩ := sendRR_log_unreceived hb (by rw [he, hk]; exact sends) (by rw [he, hk]; exact fails) l
  rw [e l, Prog.bind_throw e']
  exact ⟨rfl, rfl⟩

/-- C98. A command that receives bytes without a complete frame logs their number and that they are too short. -/
theorem c98_unreadable (works : Works w.env w.clock)
    (unreadable : ¬ ∃ cmd handle payload, Packet (delivered w.env (w.clock + 1)) cmd handle payload) :
    (op.runLogged ⟨w, l⟩).1 = .throw (runtimeError "Packet response to RR Data Command too short") ∧
    (op.runLogged ⟨w, l⟩).2.log = l ++ (asking (delivered w.env (w.clock + 1)) ++
      [.responseShort "Buffer too small to deserialize value"]) := by
  obtain ⟨w1, path, data, bs, k, he, hk, hi, hb, e⟩ := command_logged op cmd w proper
  have e' := sendRR_log_short hb (by rw [he, hk]; exact works) (by rw [he, hk]; exact unreadable) l
  rw [e l, Prog.bind_throw e', he, hk]
  exact ⟨rfl, List.append_assoc _ _ _⟩

/-- C98. A command that receives a frame it refuses logs the reason, with the value it expected and the one it got. -/
theorem c98_refused (works : Works w.env w.clock) (h : EncapHeader) (payload tail : Bytes)
    (frame : Frames (delivered w.env (w.clock + 1)) h payload tail) (m : LogMsg) (what : String)
    (refused : Refused w.s.sessionId 0x6F h m what) :
    (op.runLogged ⟨w, l⟩).1 = .throw (runtimeError "Invalid packet response to RR Data Command") ∧
    (op.runLogged ⟨w, l⟩).2.log = l ++ (asking (delivered w.env (w.clock + 1)) ++
      when (tail ≠ []) (.packetUnused (UInt64.ofNat (24 + payload.length + tail.length)) (UInt64.ofNat (24 + payload.length)))
      ++ [m, .responseInvalid what]) := by
  obtain ⟨w1, path, data, bs, k, he, hk, hi, hb, e⟩ := command_logged op cmd w proper
  have e' := sendRR_log_refused hb (by rw [he, hk]; exact works) (h := h) (payload := payload) (tail := tail)
    (by rw [he, hk]; exact frame) (m := m) (what := what) (by rw [hi]; exact refused) l
  rw [e l, Prog.bind_throw e', he, hk]
  exact ⟨rfl, rfl⟩

/-- C98. A command that receives an acceptable frame whose data ends inside the items logs what is odd about the frame,
and that the data is too short. -/
theorem c98_truncated (works : Works w.env w.clock) (h : EncapHeader) (payload tail : Bytes)
    (frame : Frames (delivered w.env (w.clock + 1)) h payload tail) (command : h.command = 0x6F)
    (handle : Acceptable w.s.sessionId h.sessionHandle) (nonempty : payload ≠ []) (cut : ¬ ∃ items, HoldsItems payload items) :
    (op.runLogged ⟨w, l⟩).1 = .throw (runtimeError "Response data to RR Command too short") ∧
    (op.runLogged ⟨w, l⟩).2.log = l ++ (asking (delivered w.env (w.clock + 1)) ++ frameWarnings h payload tail ++
      [.responseDataShort "Buffer too small to deserialize value"]) := by
  obtain ⟨w1, path, data, bs, k, he, hk, hi, hb, e⟩ := command_logged op cmd w proper
  obtain ⟨d', hd⟩ := RRDataResponse.parse_cut cut payload.length RRDataResponse.new
  have e' := (sendRR_log_bad hb (by rw [he, hk]; exact works) (h := h) (payload := payload) (tail := tail)
    (by rw [he, hk]; exact frame) command (by rw [hi]; exact handle) nonempty hd (ws := [])
    (by rw [moreThanTwo_cut nonempty cut h]; rfl) l).1 _ rfl
  rw [e l, Prog.bind_throw e', he, hk]
  exact ⟨rfl, by simp only [asking, rrLog, exchangeLog, List.append_assoc, List.nil_append]⟩

/-- C98. A command that receives an acceptable frame with items other than a null address and an unconnected message logs
what is odd about the frame, whether there are more than two items, and what is wrong with them. -/
theorem c98_wrong_items (works : Works w.env w.clock) (h : EncapHeader) (payload tail : Bytes)
    (frame : Frames (delivered w.env (w.clock + 1)) h payload tail) (command : h.command = 0x6F)
    (handle : Acceptable w.s.sessionId h.sessionHandle) (items : List (UInt16 × Bytes)) (holds : HoldsItems payload items)
    (what : String) (wrong : WrongItems items what) :
    (op.runLogged ⟨w, l⟩).1 = .throw (runtimeError "Invalid data in response to RR command") ∧
    (op.runLogged ⟨w, l⟩).2.log = l ++ (asking (delivered w.env (w.clock + 1)) ++ frameWarnings h payload tail ++
      when (2 < items.length) .moreItems ++ [.responseDataInvalid what]) := by
  obtain ⟨w1, path, data, bs, k, he, hk, hi, hb, e⟩ := command_logged op cmd w proper
  obtain ⟨d', hd⟩ := RRDataResponse.parse_wrong holds wrong payload.length RRDataResponse.new
  have hne : payload ≠ [] := by
    obtain ⟨_, _, _, _, rfl⟩ := holds
    intro h
    simpa using congrArg List.length h
  have e' := (sendRR_log_bad hb (by rw [he, hk]; exact works) (h := h) (payload := payload) (tail := tail)
    (by rw [he, hk]; exact frame) command (by rw [hi]; exact handle) hne hd
    (when_iff (holds.moreThanTwo h) _) l).2 what rfl
  rw [e l, Prog.bind_throw e', he, hk]
  exact ⟨rfl, by simp only [asking, rrLog, exchangeLog, List.append_assoc]⟩

/-- C98. A command that receives an acceptable frame whose unconnected message is too short to be a response logs what is
odd about the frame, whether there are more than two items, and that the data is too short. -/
theorem c98_short_message (works : Works w.env w.clock) (h : EncapHeader) (payload tail : Bytes)
    (frame : Frames (delivered w.env (w.clock + 1)) h payload tail) (command : h.command = 0x6F)
    (handle : Acceptable w.s.sessionId h.sessionHandle) (body : Bytes) (more : List (UInt16 × Bytes))
    (holds : HoldsItems payload ((0x0000, []) :: (0x00B2, body) :: more)) (nonempty : body ≠ []) (short : TooShort body) :
    (op.runLogged ⟨w, l⟩).1 = .throw (runtimeError "Response data to RR Command too short") ∧
    (op.runLogged ⟨w, l⟩).2.log = l ++ (asking (delivered w.env (w.clock + 1)) ++ frameWarnings h payload tail ++
      when (more ≠ []) .moreItems ++ [.responseDataShort "Buffer too small to deserialize value"]) := by
  obtain ⟨w1, path, data, bs, k, he, hk, hi, hb, e⟩ := command_logged op cmd w proper
  obtain ⟨d', hd⟩ := RRDataResponse.parse_tooShort holds nonempty short payload.length RRDataResponse.new
  have hne : payload ≠ [] := by
    obtain ⟨_, _, _, _, rfl⟩ := holds
    intro h
    simpa using congrArg List.length h
  have e' := (sendRR_log_bad hb (by rw [he, hk]; exact works) (h := h) (payload := payload) (tail := tail)
    (by rw [he, hk]; exact frame) command (by rw [hi]; exact handle) hne hd
    (when_iff (d := more ≠ []) ((holds.moreThanTwo h).trans (by cases more <;> simp)) _) l).1 _ rfl
  rw [e l, Prog.bind_throw e', he, hk]
  exact ⟨rfl, by simp only [asking, rrLog, exchangeLog, List.append_assoc]⟩

omit cmd proper in
/-- C98 leaves no case out: the payload of a frame is empty (C40), ends inside the items, has wrong items, or has an unconnected
message that is empty (C40), too short, or a response. -/
theorem c98_all_cases (payload : Bytes) :
    payload = [] ∨ (¬ ∃ items, HoldsItems payload items) ∨ (∃ items what, HoldsItems payload items ∧ WrongItems items what) ∨
    ∃ body more, HoldsItems payload ((0x0000, []) :: (0x00B2, body) :: more) ∧
      (body = [] ∨ TooShort body ∨ ∃ replied status data, Replies payload replied status data more) := by
  by_cases h : ∃ items, HoldsItems payload items
  · obtain ⟨items, h⟩ := h
    rcases wrong_or_right items with ⟨s, hs⟩ | ⟨body, more, rfl⟩
    · exact .inr (.inr (.inl ⟨items, s, h, hs⟩))
    · refine .inr (.inr (.inr ⟨body, more, h, ?_⟩))
      by_cases hb : ∃ (s r st k : UInt8) (a data : Bytes), a.length = 2 * k.toNat ∧ body = mrReply s r st k a data
      · obtain ⟨s, r, st, k, a, data, ha, rfl⟩ := hb
        obtain ⟨handle, timeout, tail, hl, e⟩ := h
        exact .inr (.inr ⟨s, st, data, handle, timeout, r, k, a, tail, ha, hl, e⟩)
      · exact .inr (.inl (fun s r st k a data ha e => hb ⟨s, r, st, k, a, data, ha, e⟩))
  · exact .inr (.inl h)

/-- What the RR data command of a call does with a full reply. -/
theorem answered_logged (works : Works w.env w.clock) {replied status : UInt8} {rdata : Bytes} {ws : List LogMsg}
    (reply : Answered (serviceOf op) w.s.sessionId (delivered w.env (w.clock + 1)) replied status rdata ws) :
    status ≠ 0 → ∃ w', op.runLogged ⟨w, l⟩ = (.throw (runtimeError "RR Data Command Failed"), ⟨w',
      l ++ (asking (delivered w.env (w.clock + 1)) ++ ws ++ [.commandFailed status])⟩) := by
  obtain ⟨w1, path, data, bs, k, he, hk, hi, hb, e⟩ := command_logged op cmd w proper
  obtain ⟨h, payload, tail, more, f, hc, ha, hr, rfl⟩ := reply
  obtain ⟨e1, _, e3⟩ := sendRR_log_reply hb (by rw [he, hk]; exact works) (h := h) (payload := payload) (tail := tail)
    (by rw [he, hk]; exact f) hc (by rw [hi]; exact ha) hr l
  intro hs
  have e4 : Session.Logged.sendRRDataCommand (serviceOf op) path data ⟨w1, l⟩ = (_, _) := Prod.ext (e3 hs) e1
  refine ⟨w1.exchanged bs, ?_⟩
  rw [e l, Prog.bind_throw e4, he, hk, when, if_pos hs]
  simp only [asking, rrLog, exchangeLog, List.append_assoc]

/-- C98. A command that is answered with a non-zero status logs what is odd about the reply, and the status. -/
theorem c98_failed (works : Works w.env w.clock) (replied status : UInt8) (rdata : Bytes) (ws : List LogMsg)
    (reply : Answered (serviceOf op) w.s.sessionId (delivered w.env (w.clock + 1)) replied status rdata ws)
    (bad : status ≠ 0) :
    (op.runLogged ⟨w, l⟩).1 = .throw (runtimeError "RR Data Command Failed") ∧
    (op.runLogged ⟨w, l⟩).2.log = l ++ (asking (delivered w.env (w.clock + 1)) ++ ws ++ [.commandFailed status]) := by
  obtain ⟨w', e⟩ := answered_logged op cmd w proper l works reply bad
  rw [e]
  exact ⟨rfl, rfl⟩

end

theorem rr_answered {w : World} {service : UInt8} {path : Path} {data : Option Obj} {bs : Bytes}
    (hb : Serializes (rrPacket w.s.sessionId service path data).obj bs) (works : Works w.env w.clock)
    {replied : UInt8} {rdata : Bytes} {ws : List LogMsg}
    (reply : Answered service w.s.sessionId (delivered w.env (w.clock + 1)) replied 0 rdata ws) (l : List LogMsg) :
    ∃ base a, Session.Logged.sendRRDataCommand service path data ⟨w, l⟩ =
      (.ok ⟨base, ⟨replied, 0, rawData a, rawData rdata⟩⟩,
        ⟨w.exchanged bs, l ++ (asking (delivered w.env (w.clock + 1)) ++ ws)⟩) := by
  obtain ⟨h, payload, tail, more, f, hc, ha, hr, rfl⟩ := reply
  obtain ⟨e1, e2, _⟩ := sendRR_log_reply hb works f hc ha hr l
  obtain ⟨base, a, e2⟩ := e2 rfl
  refine ⟨base, a, Prod.ext e2 (e1.trans ?_)⟩
  rw [when, if_neg (by simp), List.append_nil]
  simp only [asking, rrLog, exchangeLog, List.append_assoc]

/-- C98. Writing an attribute, if the device answers that it succeeded, logs what is odd about the reply and nothing
else. -/
theorem c98_set_succeeds (x y z : UInt8) (data : Option Obj) (bs : Bytes) (hd : EncodesOpt data bs) (w : World)
    (l : List LogMsg) (works : Works w.env w.clock) (replied : UInt8) (rdata : Bytes) (ws : List LogMsg)
    (reply : Answered 0x10 w.s.sessionId (delivered w.env (w.clock + 1)) replied 0 rdata ws) :
    ((Op.setAttribute x y z data).runLogged ⟨w, l⟩).1 = .ok () ∧
    ((Op.setAttribute x y z data).runLogged ⟨w, l⟩).2.log = l ++ (asking (delivered w.env (w.clock + 1)) ++ ws) := by
  obtain ⟨base, a, e⟩ := rr_answered (rr_serializes w.s.sessionId 0x10 (path3 x y z) hd) works reply l
  rw [Op.runLogged, Session.Logged.setSingleAttributeSerializable, Prog.bind_ok e]
  exact ⟨rfl, rfl⟩

/-- C98. Reading an attribute, if the device answers that it succeeded, logs what is odd about the reply and nothing
else, whether or not the data can be parsed. -/
theorem c98_get_answered {δ : Type} (c : Class δ) (init : δ) (x y z : UInt8) (w : World) (l : List LogMsg)
    (works : Works w.env w.clock) (replied : UInt8) (rdata : Bytes) (ws : List LogMsg)
    (reply : Answered 0x0E w.s.sessionId (delivered w.env (w.clock + 1)) replied 0 rdata ws) :
    ((Op.getAttribute δ c init x y z).runLogged ⟨w, l⟩).2.log = l ++ (asking (delivered w.env (w.clock + 1)) ++ ws) := by
  obtain ⟨base, a, e⟩ := rr_answered (rr_serializes w.s.sessionId 0x0E (path3 x y z) (data := none) rfl) works reply l
  have e2 := (congrFun (Logs.getAttribute_runLogged c init x y z) ⟨w, l⟩).trans (Prog.bind_ok e)
  rw [e2]

theorem asking_quiet (bytes : Bytes) : ¬ Complains (asking bytes) := by
  simp [asking, Complains, LogMsg.level]

theorem answered_quiet {service : UInt8} {id : UInt32} {bytes : Bytes} {replied status : UInt8} {data : Bytes}
    {ws : List LogMsg} (h : Answered service id bytes replied status data ws) : ¬ Complains ws := by
  obtain ⟨h, payload, tail, more, _, _, _, _, rfl⟩ := h
  simp only [frameWarnings, replyWarnings, Complains.append, Complains.when]
  simp [LogMsg.level]

/-- C96 is false also for replies that arrive: if the device answers a read request with a single byte, where the result
takes two, the call throws and no error is logged. -/
theorem c96_violated_short (x y z : UInt8) (w : World) (l : List LogMsg) (works : Works w.env w.clock)
    (replied b : UInt8) (ws : List LogMsg)
    (reply : Answered 0x0E w.s.sessionId (delivered w.env (w.clock + 1)) replied 0 [b] ws) :
    (∃ what, ((Op.getAttribute _ (SerializablePrimitive.cls .u16) ⟨0⟩ x y z).runLogged ⟨w, l⟩).1
        = .throw (lengthError what)) ∧
      ∃ new, ((Op.getAttribute _ (SerializablePrimitive.cls .u16) ⟨0⟩ x y z).runLogged ⟨w, l⟩).2.log = l ++ new ∧
        ¬ Complains new := by
  constructor
  · obtain ⟨base, a, e⟩ := rr_answered (rr_serializes w.s.sessionId 0x0E (path3 x y z) (data := none) rfl) works reply l
    have e2 := (congrFun (Logs.getAttribute_runLogged (SerializablePrimitive.cls .u16) ⟨0⟩ x y z) ⟨w, l⟩).trans
      (Prog.bind_ok e)
    rw [e2]
    dsimp only
    rw [getResponseDataAs_raw _ rfl base replied 0 (rawData a) (by simp)]
    exact ⟨_, rfl⟩
  · refine ⟨_, c98_get_answered _ _ x y z w l works replied [b] ws reply, ?_⟩
    rw [Complains.append]
    rintro (h | h)
    · exact asking_quiet _ h
    · exact answered_quiet reply h

/-- A reply that deserves warnings: an encapsulation status, and an unexpected service code. -/
theorem odd_answered (status : UInt8) (data : Bytes) (small : data.length < 100) :
    Answered 0x10 7 (replyWith 7 3 0x91 status data) 0x91 status data [.status 3, .wrongService 0x10 0x91] := by
  refine ⟨⟨0x6F, UInt16.ofNat (rrData 0 0 (mrReply 0x91 0 status 0 [] data)).length, 7, 3, (0, 0), 0⟩,
    rrData 0 0 (mrReply 0x91 0 status 0 [] data), [], [], ⟨?_, ?_⟩, rfl, Or.inr ⟨by decide, rfl⟩,
    ⟨0, 0, 0, 0, [], [], rfl, ⟨by simp, ?_⟩, ?_⟩, ?_⟩
  · rw [UInt16.toNat_ofNat']
    apply Nat.mod_eq_of_lt
    simp [rrData, mrReply, cpf, item, le]
    omega
  · simp [replyWith]
  · intro i hi
    simp only [List.mem_cons, List.not_mem_nil, or_false] at hi
    rcases hi with rfl | rfl
    · simp
    · simp [mrReply]; omega
  · simp [rrData]
  · simp [frameWarnings, replyWarnings, when]; decide

/-- A command that fails, with warnings: the hypotheses of `c98_failed` hold. -/
example : (Op.runLogged (.setAttribute 1 2 3 none) ⟨answering (replyWith 7 3 0x91 5 [8]), []⟩).2.log =
    [.creatingRequest, .sendingCommand, .waiting, .receivedResponse 45, .status 3, .wrongService 0x10 0x91,
      .commandFailed 5] :=
  (c98_failed (.setAttribute 1 2 3 none) trivial (answering (replyWith 7 3 0x91 5 [8])) ⟨[], rfl⟩ [] ⟨rfl, rfl⟩ 0x91 5 [8] _
    (odd_answered 5 [8] (by decide)) (by decide)).2
/-- A command that succeeds, with warnings. -/
example : (Op.runLogged (.setAttribute 1 2 3 none) ⟨answering (replyWith 7 3 0x91 0 []), [.closed]⟩).2.log =
    [.closed, .creatingRequest, .sendingCommand, .waiting, .receivedResponse 44, .status 3, .wrongService 0x10 0x91] :=
  (c98_set_succeeds 1 2 3 none [] rfl (answering (replyWith 7 3 0x91 0 [])) [.closed] ⟨rfl, rfl⟩ 0x91 [] _
    (odd_answered 0 [] (by decide))).2
/-- A reply for another session. -/
example : (Op.runLogged (.setAttribute 1 2 3 none) ⟨answering (replyWith 8 0 0x90 0 [] ++ [1]), []⟩).2.log =
    [.creatingRequest, .sendingCommand, .waiting, .receivedResponse 45, .packetUnused 45 44, .wrongHandle 7 8,
      .responseInvalid "Wrong session ID received for command"] := by decide +kernel
/-- A frame without items enough, one whose items end early, and one whose message is a single byte. -/
example : (Op.runLogged (.setAttribute 1 2 3 none) ⟨answering (header ⟨0x6F, 8, 7, 0, (0, 0), 0⟩ ++ [0, 0, 0, 0, 0, 0, 0, 0]), []⟩).2.log =
    [.creatingRequest, .sendingCommand, .waiting, .receivedResponse 32, .responseDataInvalid "Not enough items in RR Data"] := by
  decide +kernel
example : (Op.runLogged (.setAttribute 1 2 3 none) ⟨answering (header ⟨0x6F, 8, 7, 0, (0, 0), 0⟩ ++ [0, 0, 0, 0, 0, 0, 2, 0]), []⟩).2.log =
    [.creatingRequest, .sendingCommand, .waiting, .receivedResponse 32,
      .responseDataShort "Buffer too small to deserialize value"] := by
  decide +kernel
example : (Op.runLogged (.setAttribute 1 2 3 none) ⟨answering (header ⟨0x6F, 17, 7, 0, (0, 0), 0⟩ ++
      [0, 0, 0, 0, 0, 0, 2, 0, 0, 0, 0, 0, 0xB2, 0, 1, 0, 0x90]), []⟩).2.log =
    [.creatingRequest, .sendingCommand, .waiting, .receivedResponse 41,
      .responseDataShort "Buffer too small to deserialize value"] := by
  decide +kernel
example : WrongItems [(0x0000, []), (0x00B1, [1])] "Unexpected data type in RR Data" ∧ TooShort [0x90] ∧
    ¬ ∃ items, HoldsItems [0, 0, 0, 0, 0, 0, 2, 0] items := by
  refine ⟨.data (by decide), ?_, ?_⟩
  · intro s r st k a d _ h
    have := congrArg List.length h
    simp [mrReply] at this
  · rintro ⟨items, handle, timeout, tail, _, h⟩
    have h1 := congrArg (List.drop 6) h
    have h2 := congrArg List.length h
    have e : le 4 handle.toNat ++ le 2 timeout.toNat ++ cpf items ++ tail =
        (le 4 handle.toNat ++ le 2 timeout.toNat) ++ (cpf items ++ tail) := by simp
    rw [e, List.drop_append_of_le_length (by simp), List.drop_of_length_le (i := 6) (l := le 4 handle.toNat ++ le 2 timeout.toNat) (by simp)] at h1
    cases items with
    | nil => simp [cpf, le, List.range, List.range.loop] at h1
    | cons x xs =>
      simp [cpf, item] at h2
      omega
/-- A reply that is no frame. -/
example : (Op.runLogged (.setAttribute 1 2 3 none) ⟨answering [0x6F, 0], []⟩).2.log.length = 5 := by decide +kernel
/-- A socket that cannot be opened. -/
example : (Op.runLogged (.open "h" "44818" "2222") ⟨{ answering [] with env := fun _ => ⟨true, [], 0⟩ }, []⟩).2.log =
    [.resolving] := by decide +kernel

/-! ### C97 -/

/-- C97. `open` logs "Successfully opened session ID" with this id exactly if it returned normally and the session now
has this id. -/
theorem c97_opened (host port ioPort : String) (w : World) (id : UInt32) :
    .opened id ∈ logOf (Op.open host port ioPort).runLogged w ↔
      ((Op.open host port ioPort).run w).1 = .ok () ∧ ((Op.open host port ioPort).run w).2.s.sessionId = id := by
  obtain ⟨new, e, h⟩ := Logs.says_open host port ioPort w []
  have e' : logOf (Op.open host port ioPort).runLogged w = new := by
    rw [logOf]
    exact congrArg (fun r => r.2.log) e
  have no : ∀ ms, Only Plain ms → .opened id ∉ ms := fun ms h hm => h _ hm
  rw [e']
  rcases h with ⟨front, a, h1, rfl, h2⟩ | ⟨h1, h2⟩
  · constructor
    · intro hm
      rcases List.mem_append.mp hm with hm | hm
      · exact absurd hm (no _ h2)
      · rw [List.mem_singleton] at hm
        cases hm
        exact ⟨h1, rfl⟩
    · rintro ⟨_, rfl⟩
      exact List.mem_append_right _ (List.mem_singleton.mpr rfl)
  · exact ⟨fun hm => absurd hm (no _ h2), fun hm => absurd hm.1 (h1 ())⟩

/-- C97 is false for closing: if the control socket cannot be closed after the unregister message was sent, `close`
throws, the session keeps its id and its sockets, and the log says "Session closed". -/
theorem c97_violated (w : World) (sends : (w.env w.clock).fails = false) (fails : (w.env (w.clock + 1)).fails = true) :
    .closed ∈ logOf Op.close.runLogged w ∧ (Op.close.run w).1 = .throw systemError ∧
      (Op.close.run w).2.s.sessionId = w.s.sessionId := by
  obtain ⟨new, e, h⟩ := Logs.closeSays w []
  have e' : logOf Op.close.runLogged w = new := by
    rw [logOf]
    exact congrArg (fun r => r.2.log) e
  have hc := close_cases w
  rw [e', h, when, if_pos sends]
  refine ⟨by simp, ?_⟩
  show (Session.close w).1 = _ ∧ (Session.close w).2.s.sessionId = _
  generalize Session.close w = r at hc
  cases hc with
  | sendFails h => rw [sends] at h; cases h
  | tcpFails _ _ => exact ⟨rfl, rfl⟩
  | ioFails _ h => rw [fails] at h; cases h
  | closed _ h => rw [fails] at h; cases h

/-- C97 (partial: what "Session closed" means). `close` logs "Session closed" exactly if the unregister message was handed
to the control socket, in particular whenever it returns normally. Missing: it is logged before the sockets are closed,
so it may be logged although they are not. -/
theorem c97_closed_partial (w : World) (evs : List Ev) (new : (Op.close.run w).2.trace = w.trace ++ evs) :
    (.closed ∈ logOf Op.close.runLogged w ↔ .sent .tcp (request 0x66 w.s.sessionId []) true ∈ evs) ∧
      ((Op.close.run w).1 = .ok () → .closed ∈ logOf Op.close.runLogged w) := by
  obtain ⟨new', e, h⟩ := Logs.closeSays w []
  have e' : logOf Op.close.runLogged w = new' := by
    rw [logOf]
    exact congrArg (fun r => r.2.log) e
  have hm : .closed ∈ logOf Op.close.runLogged w ↔ (w.env w.clock).fails = false := by
    rw [e', h, when]
    split
    · rename_i hf; simp [hf]
    · rename_i hf; simp [hf]
  rw [hm]
  have hc := close_cases w
  replace new : (Session.close w).2.trace = w.trace ++ evs := new
  show _ ∧ ((Session.close w).1 = _ → _)
  generalize Session.close w = r at hc new
  cases hc with
  | sendFails h =>
    have := List.append_cancel_left new
    subst this
    simp [h]
  | tcpFails h _ =>
    have := List.append_cancel_left new
    subst this
    simp [h]
  | ioFails h _ _ =>
    have := List.append_cancel_left new
    subst this
    simp [h]
  | closed h _ _ =>
    have := List.append_cancel_left new
    subst this
    simp [h]

/-! ### C99 -/

/-- C99 (partial: all calls but one). No call except `closeConnection` writes to the standard output. Missing:
`closeConnection`. -/
theorem c99_no_output_partial (op : Op) (other : ∀ n, op ≠ .closeConnection n) (w : World) (m : LogMsg)
    (logged : m ∈ logOf op.runLogged w) : m.level ≠ .print := by
  obtain ⟨new, e, h⟩ := Logs.op_logged op other w []
  rw [logOf, e] at logged
  exact h m logged

/-! ### C100 -/

theorem sayAll_then {β : Type} (ms : List LogMsg) (p : Prog LogWorld β) (w : World) (l : List LogMsg) :
    (Session.Logged.sayAll ms >>= fun _ => p) ⟨w, l⟩ = p ⟨w, l ++ ms⟩ := by
  induction ms generalizing l with
  | nil => rw [List.append_nil]; rfl
  | cons m ms ih =>
    have := ih (l ++ [m])
    rw [List.append_assoc] at this
    exact this

theorem onLocal_open {base : RRData} {replied : UInt8} {a data : Bytes} {oToT tToO : UInt32} {sn vendor : UInt16}
    {originator oApi tApi : UInt32} (hr : OpenReply data oToT tToO sn vendor originator oApi tApi) :
    ∃ app, ∀ s : LogWorld, Session.onLocal Session.freshForwardOpenSuccess
      ((RRDataResponse.mk base ⟨replied, 0, rawData a, rawData data⟩).getResponseDataAs ForwardOpenSuccess.cls) s =
      (.ok ⟨oToT, tToO, sn, vendor, originator, oApi, tApi, app⟩, s) := by
  have hne : data ≠ [] := by
    rintro rfl
    obtain ⟨k, r, app, tail, _, e⟩ := hr
    have := congrArg List.length e
    simp [forwardOpenReply] at this
  have e1 := getResponseDataAs_raw ForwardOpenSuccess.cls rfl base replied 0 (rawData a) hne Session.freshForwardOpenSuccess
  rcases openReply_cases data Session.freshForwardOpenSuccess with
    ⟨b1, b2, b3, b4, b5, b6, b7, app, hrep, e2⟩ | ⟨hn, what, d', e2⟩
  · obtain ⟨rfl, rfl, rfl, rfl, rfl, rfl, rfl⟩ := OpenReply.unique hr hrep
    refine ⟨app, fun s => ?_⟩
    rw [Session.onLocal, e1, e2]
  · exact absurd ⟨_, _, _, _, _, _, _, hr⟩ hn

theorem create_runLogged (o t : ConnectionInfo) (w : World) (l : List LogMsg) :
    ((Op.createConnection o t).runLogged ⟨w, l⟩).2 = (Session.Logged.createConnection o t ⟨w, l⟩).2 := by
  simp only [Op.runLogged, Prog.forget]
  rcases h : Session.Logged.createConnection o t ⟨w, l⟩ with ⟨(a | e | u), s⟩
  · rw [Prog.bind_ok h]; rfl
  · rw [Prog.bind_throw h]
  · rw [Prog.bind_ub h]

/-- C100. When the device confirms a connection, the log names each of the two connection ids that the device replaced,
with the old and the new value, and no other. -/
theorem c100_replaced (o t : ConnectionInfo) (w : World) (l : List LogMsg) (works : Works w.env w.clock) (replied : UInt8)
    (data : Bytes) (ws : List LogMsg)
    (reply : Answered 0x5B w.s.sessionId (delivered w.env (w.clock + 1)) replied 0 data ws)
    (oToT tToO oApi tApi : UInt32)
    (body : OpenReply data oToT tToO w.s.nextConnectionSn w.s.vendorId w.s.serialNum oApi tApi) :
    ((Op.createConnection o t).runLogged ⟨w, l⟩).2.log = l ++ (asking (delivered w.env (w.clock + 1)) ++ ws ++
      when (oToT ≠ w.s.nextConnectionId) (.replacingOToT w.s.nextConnectionId oToT) ++
      when (tToO ≠ w.s.nextConnectionId + 1) (.replacingTToO (w.s.nextConnectionId + 1) tToO)) := by
  obtain ⟨base, a, e⟩ := rr_answered (w := w.bumped) (rr_serializes w.s.sessionId 0x5B (path2 6 1)
    (data := some (w.s.prepareConnection o t).createForwardOpenRequest.obj)
    (ForwardOpenRequest.encodes (w.s.prepareConnection o t).createForwardOpenRequest)) works reply l
  generalize hw : w.bumped.exchanged _ = w2 at e
  obtain ⟨app, e2⟩ := onLocal_open (base := base) (replied := replied) (a := a) body
  have e3 := create_logged o t w l
  rw [Prog.bind_ok e, createTail, Prog.bind_ok (e2 _), sayAll_then, verify_ok ⟨rfl, rfl, rfl⟩] at e3
  have hv : Session.Logged.verifyMessages (w.s.prepareConnection o t)
      ⟨oToT, tToO, w.s.nextConnectionSn, w.s.vendorId, w.s.serialNum, oApi, tApi, app⟩ =
      when (oToT ≠ w.s.nextConnectionId) (.replacingOToT w.s.nextConnectionId oToT) ++
      when (tToO ≠ w.s.nextConnectionId + 1) (.replacingTToO (w.s.nextConnectionId + 1) tToO) := by
    rw [Session.Logged.verifyMessages, if_neg (by simp [Session.prepareConnection])]
    rfl
  rw [hv] at e3
  rw [create_runLogged, e3]
  simp only [List.append_assoc]
  rfl

/-- C100. When the device answers about another connection, that is logged as an error, and no id is said to be
replaced. -/
theorem c100_mismatch (o t : ConnectionInfo) (w : World) (l : List LogMsg) (works : Works w.env w.clock) (replied : UInt8)
    (data : Bytes) (ws : List LogMsg)
    (reply : Answered 0x5B w.s.sessionId (delivered w.env (w.clock + 1)) replied 0 data ws)
    (oToT tToO : UInt32) (sn vendor : UInt16) (originator oApi tApi : UInt32)
    (body : OpenReply data oToT tToO sn vendor originator oApi tApi)
    (other : ¬ (sn = w.s.nextConnectionSn ∧ vendor = w.s.vendorId ∧ originator = w.s.serialNum)) :
    ((Op.createConnection o t).runLogged ⟨w, l⟩).2.log = l ++ (asking (delivered w.env (w.clock + 1)) ++ ws ++
      [.forwardOpenInvalid]) := by
  obtain ⟨base, a, e⟩ := rr_answered (w := w.bumped) (rr_serializes w.s.sessionId 0x5B (path2 6 1)
    (data := some (w.s.prepareConnection o t).createForwardOpenRequest.obj)
    (ForwardOpenRequest.encodes (w.s.prepareConnection o t).createForwardOpenRequest)) works reply l
  generalize hw : w.bumped.exchanged _ = w2 at e
  obtain ⟨app, e2⟩ := onLocal_open (base := base) (replied := replied) (a := a) body
  have e3 := create_logged o t w l
  have hv : Session.Logged.verifyMessages (w.s.prepareConnection o t)
      ⟨oToT, tToO, sn, vendor, originator, oApi, tApi, app⟩ = [] := by
    rw [Session.Logged.verifyMessages, if_pos]
    by_cases h1 : sn = w.s.nextConnectionSn
    · by_cases h2 : vendor = w.s.vendorId
      · exact Or.inr (Or.inr (fun h3 => other ⟨h1, h2, h3⟩))
      · exact Or.inr (Or.inl h2)
    · exact Or.inl h1
  rw [Prog.bind_ok e, createTail, Prog.bind_ok (e2 _), sayAll_then, verify_bad other, hv] at e3
  dsimp only at e3
  rw [say_then] at e3
  rw [create_runLogged, e3]
  simp only [List.append_assoc, List.append_nil]
  rfl

/-- The messages of `closeConnection` when the device answers with a forward close reply. -/
theorem close_answered (n : Nat) (c : Connection) (w : World) (l : List LogMsg) (hc : w.s.connections[n]? = some c)
    (works : Works w.env w.clock) (replied : UInt8) (data : Bytes) (ws : List LogMsg)
    (reply : Answered 0x4E w.s.sessionId (delivered w.env (w.clock + 1)) replied 0 data ws)
    (sn vendor : UInt16) (originator : UInt32) (body : CloseReply data sn vendor originator) :
    ((Op.closeConnection n).runLogged ⟨w, l⟩).2.log = l ++ (asking (delivered w.env (w.clock + 1)) ++ ws ++
      .comparing c.connectionSn sn ::
      when (¬ (sn = c.connectionSn ∧ vendor = c.originatorVendorId ∧ originator = c.originatorSn)) .forwardCloseInvalid) := by
  obtain ⟨base, a, e⟩ := rr_answered (w := w) (rr_serializes w.s.sessionId 0x4E (path2 6 1)
    (data := some c.createForwardCloseRequest.obj) (closeRequest_encodes c)) works reply l
  have hne : data ≠ [] := by
    rintro rfl
    obtain ⟨k, r, app, tail, _, e⟩ := body
    have := congrArg List.length e
    simp [forwardCloseReply] at this
  have e1 := getResponseDataAs_raw ForwardCloseSuccess.cls rfl base replied 0 (rawData a) hne Session.freshForwardCloseSuccess
  have e2 : ∃ app, ∀ s : LogWorld, Session.onLocal Session.freshForwardCloseSuccess
      ((RRDataResponse.mk base ⟨replied, 0, rawData a, rawData data⟩).getResponseDataAs ForwardCloseSuccess.cls) s =
      (.ok ⟨sn, vendor, originator, app⟩, s) := by
    rcases closeReply_cases data Session.freshForwardCloseSuccess with ⟨b1, b2, b3, app, hrep, e2⟩ | ⟨hn, what, d', e2⟩
    · obtain ⟨rfl, rfl, rfl⟩ := CloseReply.unique body hrep
      refine ⟨app, fun s => ?_⟩
      rw [Session.onLocal, e1, e2]
    · exact absurd ⟨_, _, _, body⟩ hn
  obtain ⟨app, e2⟩ := e2
  have eg : ∀ s : LogWorld, (Prog.get : Prog LogWorld LogWorld) s = (.ok s, s) := fun _ => rfl
  rw [Op.runLogged, Session.Logged.closeConnection, Prog.bind_ok (eg _)]
  dsimp only
  rw [hc]
  dsimp only
  rw [Prog.bind_ok e, Prog.bind_ok (e2 _), Prog.bind_ok (eg _)]
  have hc' : (w.exchanged (command w.s.sessionId 0x4E [.class' 6, .instance' 1]
    (forwardClose c.timeoutTickSize c.timeoutTicks c.connectionSn c.originatorVendorId c.originatorSn
      (path true [.class' 2, .instance' 1])))).s.connections[n]? = some c := hc
  dsimp only
  rw [hc']
  dsimp only
  rw [say_then]
  by_cases hm : sn = c.connectionSn ∧ vendor = c.originatorVendorId ∧ originator = c.originatorSn
  · rw [if_pos (by simp [Connection.verifyForwardCloseResult, hm]), when, if_neg (by simp [hm])]
    simp only [quiet, Prog.zoom, Prog.modify, List.append_assoc]
  · rw [if_neg (by simp only [Connection.verifyForwardCloseResult]; simpa using hm), when, if_pos hm, say_then]
    simp only [Prog.raise, List.append_assoc, List.cons_append, List.nil_append]

/-- C99 is false: `closeConnection` writes a line to the standard output whenever the device answers with a forward close
reply, also if the reply is right. -/
theorem c99_violated (n : Nat) (c : Connection) (w : World) (hc : w.s.connections[n]? = some c)
    (works : Works w.env w.clock) (replied : UInt8) (data : Bytes) (ws : List LogMsg)
    (reply : Answered 0x4E w.s.sessionId (delivered w.env (w.clock + 1)) replied 0 data ws)
    (sn vendor : UInt16) (originator : UInt32) (body : CloseReply data sn vendor originator) :
    ∃ m ∈ logOf (Op.closeConnection n).runLogged w, m.level = .print := by
  refine ⟨.comparing c.connectionSn sn, ?_, rfl⟩
  rw [logOf, close_answered n c w [] hc works replied data ws reply sn vendor originator body]
  simp

/-- A session that is opened. -/
example : logOf (Op.open "h" "44818" "2222").runLogged
    { answering (header ⟨0x65, 4, 9, 0, (0, 0), 0⟩ ++ register 1 0) with s := Session.new 1 2 3 4 [] } =
    [.resolving, .registering, .sendingCommand, .waiting, .receivedResponse 28, .opened 9] := by decide +kernel
/-- A session that is closed, and one whose socket cannot be closed: the log is the same. -/
example : logOf Op.close.runLogged (answering []) = [.closing, .closed] ∧
    logOf Op.close.runLogged { answering [] with env := fun n => ⟨n == 1, [], 0⟩ } = [.closing, .closed] := by decide +kernel
/-- A connection whose first id is replaced by the device. -/
example : logOf (Op.createConnection ⟨1, 2, 3⟩ ⟨4, 5, 6⟩).runLogged
    (answering (replyWith 7 0 0xDB 0 (forwardOpenReply 77 5 3 1 2 0 0 0 0 []))) =
    [.creatingRequest, .sendingCommand, .waiting, .receivedResponse 70, .replacingOToT 4 77] := by decide +kernel
/-- A connection that is closed: the numbers compared are printed. -/
example : logOf (Op.closeConnection 0).runLogged
    { answering (replyWith 7 0 0xCE 0 (forwardCloseReply 9 1 2 0 0 [])) with
      s := { Session.new 1 2 3 4 [] with sessionId := 7, connections := [{ Connection.new ⟨1, 2, 3⟩ ⟨4, 5, 6⟩ with connectionSn := 9 }] } } =
    [.creatingRequest, .sendingCommand, .waiting, .receivedResponse 54, .comparing 9 9, .forwardCloseInvalid] := by
  decide +kernel

end Eip
