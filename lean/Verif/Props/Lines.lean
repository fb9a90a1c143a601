import Verif.Lemmas.LinesScan
import Verif.Props.Log
/-
C126: the lines of the log.
-/
namespace Eip
open Spec

/-! ### Numbers -/

/-- C126 for numbers. A number that is not negative is written as its decimal digits, without leading zeros. -/
theorem c126_decimal (n : Nat) : Numeral 10 (Shown.dec n).bytes n := by
  have e : (Shown.dec n).bytes = digits 10 n := by
    rw [Shown.bytes, if_neg (by omega), Int.natAbs_natCast]
  rw [e]
  exact digits_numeral (by omega) (by omega) n

example : (Shown.dec 4096).bytes = utf8 "4096" ∧ (Shown.dec 0).bytes = utf8 "0" := by decide +kernel

/-- C126 for negative numbers: a minus sign and the digits. -/
theorem c126_negative (n : Nat) (positive : 0 < n) : ∃ bs, (Shown.dec (-(n : Int))).bytes = 45 :: bs ∧ Numeral 10 bs n := by
  refine ⟨digits 10 n, ?_, digits_numeral (by omega) (by omega) n⟩
  rw [Shown.bytes, if_pos (by omega), Int.natAbs_neg, Int.natAbs_natCast]

example : (Shown.dec (-17)).bytes = utf8 "-17" := by decide +kernel

/-- C126 for hexadecimal numbers: exactly eight digits. -/
theorem c126_hex (n : Nat) (word : n < 2 ^ 32) : (Shown.hex n).bytes.length = 8 ∧ ReadsAs 16 (Shown.hex n).bytes n :=
  ⟨hex_length word, (digits_read (by omega) (by omega) n).zeros_append (by omega) _⟩

example : (Shown.hex 0xAB12).bytes = utf8 "0000AB12" := by decide +kernel

/-- A number has only one numeral, and a numeral belongs to only one number: the log can be read back. -/
theorem c126_unique (base : Nat) (large : 2 ≤ base) (bs bs' : Bytes) (n n' : Nat) (h : Numeral base bs n)
    (h' : Numeral base bs' n') : bs = bs' ↔ n = n' := by
  constructor
  · rintro rfl
    have key : ∀ {a : Bytes} {x : Nat}, ReadsAs base a x → ∀ {y}, ReadsAs base a y → x = y := by
      intro a x hx
      induction hx with
      | nil =>
        intro y hy
        have := hy.bound
        simp at this
        omega
      | snoc _ hc _ ih =>
        intro y hy
        obtain ⟨m, d', h1, hc', _, rfl⟩ := hy.snoc_inv
        rw [hc] at hc'
        cases hc'
        rw [ih h1]
    exact key h.1 h'.1
  · rintro rfl
    exact h.unique large h'

example : Numeral 10 (Shown.dec 40).bytes 40 ∧ Numeral 10 (Shown.dec 41).bytes 41 := ⟨c126_decimal 40, c126_decimal 41⟩

/-! ### Sessions -/

/-- C126 (partial: objects whose exceptions have texts of at most 982 bytes). Every message of a call on a session reaches
the output handler whole. Missing: data to be sent that throws a longer text while it is serialized. -/
theorem c126_whole_partial (op : Op) (terse : Terse 982 op) (w : World) (l new : List LogMsg)
    (log : (op.runLogged ⟨w, l⟩).2.log = l ++ new) (m : LogMsg) (logged : m ∈ new) : Whole m := by
  obtain ⟨new', e', h⟩ := Logs.whole_op op terse w l
  rw [new_eq e' log] at logged
  exact h m logged

/-- Raw data is terse, so the theorem covers it. -/
example (x y z : UInt8) (b : SerializableBuffer) : Terse 982 (.setAttribute x y z (some b.obj)) :=
  fun w e w' h hk => Throws.write (P := Brief 982) (brief_full.mono (by omega)) b.data w e w' h hk

/-- C126 for the first and the last messages of a session. -/
theorem c126_lifecycle (vendorId : UInt16) (serialNum : UInt32) (sn : UInt16) (id : UInt32) (mem : Bytes) (w : World)
    (l : List LogMsg) :
    (∀ m ∈ (Session.Logged.new vendorId serialNum sn id mem).2, Whole m) ∧
    ∃ new, (Session.Logged.destroy ⟨w, l⟩).2.log = l ++ new ∧ ∀ m ∈ new, Whole m := by
  refine ⟨one_whole rfl, ?_⟩
  by_cases h0 : w.s.sessionId = 0
  · refine ⟨[], ?_, Only.nil⟩
    have e : (do
        let s ← Prog.get
        if s.w.s.sessionId ≠ 0 then Session.Logged.close else pure () : Prog LogWorld Unit) ⟨w, l⟩ = (.ok (), ⟨w, l⟩) := by
      show (if w.s.sessionId ≠ 0 then Session.Logged.close else pure () : Prog LogWorld Unit) ⟨w, l⟩ = _
      rw [if_neg (by simp [h0])]
      rfl
    rw [Session.Logged.destroy, Prog.tryCatch, e, List.append_nil]
  · obtain ⟨new, e1, h⟩ := Logs.whole_close w l
    refine ⟨new, ?_, h⟩
    have e : (do
        let s ← Prog.get
        if s.w.s.sessionId ≠ 0 then Session.Logged.close else pure () : Prog LogWorld Unit) ⟨w, l⟩ =
        ((Session.close w).1, ⟨(Session.close w).2, l ++ new⟩) := by
      show (if w.s.sessionId ≠ 0 then Session.Logged.close else pure () : Prog LogWorld Unit) ⟨w, l⟩ = _
      rw [if_pos h0, e1]
    rw [Session.Logged.destroy, Prog.tryCatch, e]
    rcases Session.close w with ⟨(_ | x | u), w'⟩ <;> rfl

/-- C126 (partial: as `c126_whole_partial` and C96). A call that throws an exception the session makes up itself leaves an
error in the log that is whole and that console_bridge passes on at every level but `none`. -/
theorem c126_seen_partial (op : Op) (tame : Tame op) (terse : Terse 982 op) (w : World) (l new : List LogMsg)
    (log : (op.runLogged ⟨w, l⟩).2.log = l ++ new) (e : Exn) (thrown : (op.runLogged ⟨w, l⟩).1 = .throw e)
    (reported : Reported e) : ∃ m ∈ new, Whole m ∧ ∀ t, t ≠ Threshold.none → m.level.passes t = true := by
  obtain ⟨m, hm, hl⟩ := c96_failure_is_logged_partial op tame w l new log e thrown reported
  refine ⟨m, hm, c126_whole_partial op terse w l new log m hm, fun t ht => ?_⟩
  rw [hl]
  cases t with
  | none => exact absurd rfl ht
  | _ => rfl

/-- C126 for the levels: a message is passed on exactly if it is grave enough. -/
theorem c126_levels (level : Level) (t : Threshold) : level.passes t = true ↔ demand t ≤ gravity level := by
  cases level <;> cases t <;> decide

/-- C126: reading or writing an attribute, if the device answers that it succeeded, shows at the default level what is odd
about the reply and nothing else. -/
theorem c126_default (op : Op) (x y z : UInt8) (w : World) (l new : List LogMsg)
    (access : (∃ δ c init, op = .getAttribute δ c init x y z) ∨ ∃ data bs, EncodesOpt data bs ∧ op = .setAttribute x y z data)
    (works : Works w.env w.clock) (replied : UInt8) (rdata : Bytes) (ws : List LogMsg)
    (reply : Answered (serviceOf op) w.s.sessionId (delivered w.env (w.clock + 1)) replied 0 rdata ws)
    (log : (op.runLogged ⟨w, l⟩).2.log = l ++ new) : new.filter (fun m => m.level.passes Threshold.default) = ws := by
  have key : new = asking (delivered w.env (w.clock + 1)) ++ ws := by
    rcases access with ⟨δ, c, init, rfl⟩ | ⟨data, bs, hd, rfl⟩
    · exact List.append_cancel_left (log.symm.trans (c98_get_answered c init x y z w l works replied rdata ws reply))
    · exact List.append_cancel_left (log.symm.trans (c98_set_succeeds x y z data bs hd w l works replied rdata ws reply).2)
  have hw : ∀ m ∈ ws, m.level = .warn := by
    obtain ⟨h, payload, tail, more, _, _, _, _, rfl⟩ := reply
    simp only [frameWarnings, replyWarnings, when]
    intro m hm
    simp only [List.mem_append] at hm
    repeat' rcases hm with hm | hm
    all_goals (split at hm <;> simp at hm; subst hm; rfl)
  rw [key, List.filter_append]
  have e1 : (asking (delivered w.env (w.clock + 1))).filter (fun m => m.level.passes Threshold.default) = [] := rfl
  rw [e1, List.nil_append]
  exact List.filter_eq_self.2 fun m hm => by rw [hw m hm]; rfl

example (new : List LogMsg)
    (log : ((Op.setAttribute 1 2 3 none).runLogged ⟨answering (replyWith 7 3 0x91 0 []), [.closed]⟩).2.log = [.closed] ++ new) :
    new.filter (fun m => m.level.passes Threshold.default) = [.status 3, .wrongService 0x10 0x91] :=
  c126_default _ 1 2 3 (answering (replyWith 7 3 0x91 0 [])) [.closed] new (.inr ⟨none, [], rfl, rfl⟩) ⟨rfl, rfl⟩ 0x91 [] _ (odd_answered 0 [] (by decide)) log

/-- An object whose `serialize` throws. -/
def refusing (what : String) : Obj := ⟨0, Prog.raise (lengthError what), none⟩

/-- `p` throws `e` if there is room for `n` bytes. -/
def FailsAfter (n : Nat) (e : Exn) (p : Prog Writer Unit) : Prop :=
  ∀ w : BufferWriter, n ≤ w.rest.length → ∃ w', p (.buffer w) = (.throw e, w')

theorem FailsAfter.after {p : Prog Writer Unit} {bs : Bytes} {q : Unit → Prog Writer Unit} {n k : Nat} {e : Exn}
    (hp : Writes p bs) (hk : bs.length = k) (hq : FailsAfter n e (q ())) : FailsAfter (k + n) e (p >>= q) := by
  intro w h
  rw [Prog.bind_ok (hp.fits w (by omega))]
  exact hq _ (by simp only [List.length_drop]; omega)

theorem FailsAfter.front {p : Prog Writer Unit} {q : Unit → Prog Writer Unit} {n : Nat} {e : Exn} (hp : FailsAfter n e p) :
    FailsAfter n e (p >>= q) := by
  intro w h
  obtain ⟨w', h'⟩ := hp w h
  exact ⟨w', Prog.bind_throw h'⟩

/-- A set request with such an object is not sent. -/
theorem refusing_fails (what : String) (x y z : UInt8) (id : UInt32) (w : World) :
    sockSend .tcp (EncapPacket.withPayload Session.cmdSendRRData id
      (some (RRDataRequest.new 0x10 (Path.mk3 x y z) (some (refusing what))).obj)).obj w = (.throw (lengthError what), w) := by
  have h0 : FailsAfter 0 (lengthError what) (refusing what).serialize := fun w _ => ⟨_, rfl⟩
  have h1 : FailsAfter 8 (lengthError what) (MessageRouterRequest.mk 0x10 (Path.mk3 x y z) (some (refusing what))).serialize :=
    FailsAfter.after (k := 1) (n := 7) (Writes.write8 _) rfl (FailsAfter.after (k := 7) (n := 0) (Path.writes _) rfl h0)
  have h2 : FailsAfter 24 (lengthError what)
      (RRDataRequest.new 0x10 (Path.mk3 x y z) (some (refusing what))).serialize := by
    refine FailsAfter.after (k := 4) (n := 20) (Writes.write32 _) rfl (FailsAfter.after (k := 2) (n := 18) (Writes.write16 _) rfl
      (FailsAfter.after (k := 2) (n := 16) (Writes.write16 _) rfl (FailsAfter.after (k := 4) (n := 12) (bs := item 0 [])
        (CPFItem.writes CPFItem.null rfl) rfl (FailsAfter.front ?_))))
    exact FailsAfter.after (k := 2) (n := 10) (Writes.write16 _) rfl (FailsAfter.after (k := 2) (n := 8) (Writes.write16 _) rfl h1)
  have h3 := FailsAfter.after (k := 24) (q := fun _ => (RRDataRequest.new 0x10 (Path.mk3 x y z) (some (refusing what))).serialize)
    (EncapHeader.writes (EncapPacket.withPayload Session.cmdSendRRData id
      (some (RRDataRequest.new 0x10 (Path.mk3 x y z) (some (refusing what))).obj)).header) rfl h2
  obtain ⟨w', h4⟩ := h3 (BufferWriter.new (List.replicate 48 0)) (by simp [BufferWriter.new])
  refine Prog.bind_throw ?_
  rw [serializeToVector]
  have h5 : (EncapPacket.withPayload Session.cmdSendRRData id
      (some (RRDataRequest.new 0x10 (Path.mk3 x y z) (some (refusing what))).obj)).obj.serialize
      (.buffer (BufferWriter.new (List.replicate 48 0))) = (.throw (lengthError what), w') := h4
  have h6 : (EncapPacket.withPayload Session.cmdSendRRData id
      (some (RRDataRequest.new 0x10 (Path.mk3 x y z) (some (refusing what))).obj)).obj.getLength = 48 := rfl
  rw [h6, h5]

/-- C126 is false for objects of the user: the line about a `length_error` with a text of more than 982 bytes, thrown while
the object is serialized, is cut off after 1023 characters. -/
theorem c126_violated (what : String) (long : 982 < what.utf8ByteSize) (x y z : UInt8) (w : World) (l : List LogMsg) :
    ((Op.setAttribute x y z (some (refusing what))).runLogged ⟨w, l⟩).2.log =
      l ++ [.creatingRequest, .sendingCommand, .responseShort what] ∧
    ∀ f, ∃ shown line, (LogMsg.responseShort what).text f = some shown ∧ (LogMsg.responseShort what).line f = some line ∧
      line.length = 1023 ∧ 1023 < (shown.flatMap Shown.bytes).length := by
  constructor
  · have h1 := refusing_fails what x y z w.s.sessionId w
    have h2 : Session.Logged.sendCommand (EncapPacket.withPayload Session.cmdSendRRData w.s.sessionId
        (some (RRDataRequest.new 0x10 (Path.mk3 x y z) (some (refusing what))).obj)) ⟨w, l ++ [.creatingRequest]⟩ =
        (.throw (lengthError what), ⟨w, l ++ [.creatingRequest] ++ [.sendingCommand]⟩) := by
      rw [Session.Logged.sendCommand, say_then, Prog.bind_throw (quiet_throw h1 _)]
    have h3 : Session.Logged.sendRRDataCommand 0x10 (Path.mk3 x y z) (some (refusing what)) ⟨w, l⟩ =
        (.throw (runtimeError "Packet response to RR Data Command too short"),
          ⟨w, l ++ [.creatingRequest] ++ [.sendingCommand] ++ [.responseShort what]⟩) := by
      have h5 : Session.Logged.catchLengthLogic (Session.Logged.sendCommand
          (EncapPacket.withPayload Session.cmdSendRRData w.s.sessionId
            (some (RRDataRequest.new 0x10 (Path.mk3 x y z) (some (refusing what))).obj)))
          (fun e => do
            say (.responseShort e.what)
            Prog.raise (runtimeError "Packet response to RR Data Command too short"))
          (fun e => do
            say (.responseInvalid e.what)
            Prog.raise (runtimeError "Invalid packet response to RR Data Command")) ⟨w, l ++ [.creatingRequest]⟩ =
          (.throw (runtimeError "Packet response to RR Data Command too short"),
            ⟨w, l ++ [.creatingRequest] ++ [.sendingCommand] ++ [.responseShort what]⟩) := by
        rw [Session.Logged.catchLengthLogic, Prog.tryCatch, h2]
        rfl
      have get : Prog.get (⟨w, l ++ [.creatingRequest]⟩ : LogWorld) =
          (.ok ⟨w, l ++ [.creatingRequest]⟩, ⟨w, l ++ [.creatingRequest]⟩) := rfl
      rw [Session.Logged.sendRRDataCommand, say_then, Prog.bind_ok get]
      exact Prog.bind_throw h5
    have h4 : (Op.setAttribute x y z (some (refusing what))).runLogged ⟨w, l⟩ =
        (.throw (runtimeError "Packet response to RR Data Command too short"),
          ⟨w, l ++ [.creatingRequest] ++ [.sendingCommand] ++ [.responseShort what]⟩) := by
      rw [Op.runLogged, Session.Logged.setSingleAttributeSerializable]
      exact Prog.bind_throw h3
    rw [h4]
    simp only [List.append_assoc, List.cons_append, List.nil_append]
  · intro f
    have hl : ([Shown.text "Response packet to RR command too short: ", .str what].flatMap Shown.bytes).length =
        41 + what.utf8ByteSize := by
      show (utf8 _ ++ (utf8 what ++ [])).length = _
      rw [List.length_append, List.append_nil, utf8_length, utf8_length]
      have : "Response packet to RR command too short: ".utf8ByteSize = 41 := by decide
      omega
    refine ⟨_, _, rfl, rfl, ?_, ?_⟩
    · show (List.take 1023 ([Shown.text "Response packet to RR command too short: ", .str what].flatMap Shown.bytes)).length = _
      rw [List.length_take, hl]
      omega
    · exact Nat.lt_of_lt_of_eq (by omega : 1023 < 41 + what.utf8ByteSize) hl.symm

example : 982 < (String.ofList (List.replicate 983 'x')).utf8ByteSize := by decide +kernel

/-! ### The scanner -/

/-- C126 for the scanner: whatever arrives, every message reaches the output handler whole. -/
theorem c126_scanner (hostname : String) (env : ScanEnv) (arrivals : List Arrival) (m : LogMsg)
    (logged : m ∈ (Scanner.Logged.run env arrivals (Scanner.Logged.new hostname)).2.log) : Whole m := by
  obtain ⟨r, s', new, e, h⟩ := run_whole env arrivals (Scanner.new hostname) [.scanOpening, .scanDone]
  have e' : Scanner.Logged.run env arrivals (Scanner.Logged.new hostname) = (r, ⟨s', [.scanOpening, .scanDone] ++ new⟩) := e
  rw [e'] at logged
  rcases List.mem_append.mp logged with h1 | h1
  · exact (Only.cons.mpr ⟨LogMsg.whole_plain rfl, one_whole rfl⟩ : Only Whole [.scanOpening, .scanDone]) m h1
  · exact h m h1

/-- A line of the scanner with its characters. -/
example : (LogMsg.idSerial 4294967279).line ⟨fun _ => 0, fun _ => 0⟩ = some (utf8 "Serial Number: -17") := by decide +kernel

end Eip
