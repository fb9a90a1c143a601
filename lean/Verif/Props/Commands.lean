import Verif.Lemmas.Appends
/-
C32 - C40: requests and replies of the attribute and connection commands.
-/
namespace Eip
open Spec

theorem frame_iff_packet {id : UInt32} (opened : id ≠ 0) (bytes payload : Bytes) :
    RRFrame id bytes payload ↔ Packet bytes 0x006F id payload := by
  constructor
  · rintro ⟨handle, h, ⟨a, _⟩ | ⟨_, a⟩⟩
    · exact absurd a opened
    · exact a ▸ h
  · exact fun h => ⟨id, h, Or.inr ⟨opened, rfl⟩⟩

/-! ### C32 -/

/-- C32. Whatever world the session is in, every message a command sends is sent on the control socket, and is a
send-RR-data frame with the session's current handle and zero status, context and options. The data given to
`setSingleAttribute` may be any object that only adds bytes to the writer, even one that misreports its length. -/
theorem c32_command_handle (op : Op) (cmd : IsCommand op) (app : OpAppends op) (w : World) (s : Sock) (bytes : Bytes)
    (ok : Bool) (evs : List Ev) (new : (op.run w).2.trace = w.trace ++ evs) (sent : .sent s bytes ok ∈ evs) :
    s = .tcp ∧ FrameOf 0x6F w.s.sessionId bytes := by
  have key : ∀ (w1 w' : World) (bs : Bytes) (r : Res RRDataResponse), (w1 = w ∨ w1 = w.bumped) → RRCases w1 bs (r, w') →
      w'.trace = w.trace ++ evs → FrameOf 0x6F w.s.sessionId bs → s = .tcp ∧ FrameOf 0x6F w.s.sessionId bytes := by
    intro w1 w' bs r h1 rr ht hf
    have hx := rr.exchange
    obtain ⟨evs', ht', _, hp, _⟩ := hx.events
    have e1 : w1.trace = w.trace := by rcases h1 with rfl | rfl <;> rfl
    have e2 : evs' = evs := by
      have : w'.trace = w.trace ++ evs' := by rw [← e1]; exact ht'
      rw [ht] at this
      exact (List.append_cancel_left this).symm
    have : call (.sent s bytes ok) ∈ evs.map call := List.mem_map_of_mem sent
    have := hp.subset (e2 ▸ this)
    simp only [call, List.mem_cons, Call.send.injEq, List.not_mem_nil, or_false] at this
    rcases this with ⟨rfl, rfl⟩ | h
    · exact ⟨rfl, hf⟩
    · cases h
  have unsent : (op.run w).2 = w → s = .tcp ∧ FrameOf 0x6F w.s.sessionId bytes := by
    intro h
    rw [h] at new
    have : evs = [] := by simpa using new
    rw [this] at sent
    cases sent
  cases op with
  | «open» => exact cmd.elim
  | close => exact cmd.elim
  | getConnection => exact cmd.elim
  | receiveIOPacket => exact cmd.elim
  | sendIOPacket => exact cmd.elim
  | getAttribute δ c init x y z =>
    have e : Op.run (.getAttribute δ c init x y z) w =
      match Session.getSingleAttributeSerializable c x y z (init, w) with
      | (r, (_, w')) => (r, w') := rfl
    rw [getAttr_eq] at e
    have rr := getAttr_cases x y z w
    rcases hres : Session.sendRRDataCommand 0x0E (Path.mk3 x y z) none w with ⟨(resp | ex | u), w'⟩
    all_goals
      rw [hres] at rr e
      rw [e] at new
      exact key w w' _ _ (Or.inl rfl) rr new (FrameOf.command _ _ _ _)
  | setAttribute x y z data =>
    have e : Op.run (.setAttribute x y z data) w = Session.setSingleAttributeSerializable x y z data w := rfl
    rw [setAttr_eq] at e
    rcases sendRR_total 0x10 (Path.mk3 x y z) data w with ⟨bs, hs, rr⟩ | ⟨ex, hres⟩ | ⟨u, hres⟩
    · rcases hres : Session.sendRRDataCommand 0x10 (Path.mk3 x y z) data w with ⟨(resp | ex | u), w'⟩
      all_goals
        rw [hres] at rr e
        rw [e] at new
        refine key w w' _ _ (Or.inl rfl) rr new (frame_of_serializes hs ?_)
        intro d hd
        subst hd
        exact app
    · rw [hres] at e
      exact unsent (by rw [e])
    · rw [hres] at e
      exact unsent (by rw [e])
  | createConnection o t =>
    have cc := create_cases w o t
    have e : Op.run (.createConnection o t) w = (Session.createConnection o t).forget w := rfl
    rw [forget_eq] at e
    have e2 : (Op.run (.createConnection o t) w).2 = (Session.createConnection o t w).2 := by
      rw [e]
      rcases Session.createConnection o t w with ⟨(_ | _ | _), _⟩ <;> rfl
    rw [e2] at new
    have hf : FrameOf 0x6F w.s.sessionId (openBytes w.s o t) := FrameOf.command _ _ _ _
    have good : ∀ (s : UInt8) (data : Bytes), Works w.env w.clock →
        Response w.s.sessionId (delivered w.env (w.clock + 1)) s 0 data →
        (w.bumped.exchanged (openBytes w.s o t)).trace = w.trace ++ evs → 
        _ := fun s data hw hr ht =>
      let ⟨_, rr⟩ := rr_of_response (w := w.bumped) (openBytes w.s o t) hw hr
      key w.bumped _ _ _ (Or.inr rfl) rr ht hf
    generalize he : Session.createConnection o t w = r at cc new
    cases cc with
    | thrown ex w' rr => exact key w.bumped w' _ _ (Or.inr rfl) rr new hf
    | crashed u w' rr => exact key w.bumped w' _ _ (Or.inr rfl) rr new hf
    | noData s hw hr => exact good s _ hw hr new
    | short what s data hw hr => exact good s _ hw hr new
    | mismatch what s data _ _ _ _ _ _ _ hw hr => exact good s _ hw hr new
    | created s data _ _ _ _ hw hr => exact good s _ hw hr new
  | closeConnection n =>
    have e : Op.run (.closeConnection n) w = Session.closeConnection n w := rfl
    cases hn : w.s.connections[n]? with
    | none =>
      rw [closeConn_bad w n hn] at e
      exact unsent (by rw [e])
    | some c =>
      have cc := closeConn_cases w n c hn
      rw [e] at new
      have hf : FrameOf 0x6F w.s.sessionId (closeBytes w.s.sessionId c) := FrameOf.command _ _ _ _
      have good : ∀ (s : UInt8) (data : Bytes), Works w.env w.clock →
          Response w.s.sessionId (delivered w.env (w.clock + 1)) s 0 data →
          (w.exchanged (closeBytes w.s.sessionId c)).trace = w.trace ++ evs → 
          _ := fun s data hw hr ht =>
        let ⟨_, rr⟩ := rr_of_response (w := w) (closeBytes w.s.sessionId c) hw hr
        key w _ _ _ (Or.inl rfl) rr ht hf
      generalize he : Session.closeConnection n w = r at cc new
      cases cc with
      | thrown ex w' rr => exact key w w' _ _ (Or.inl rfl) rr new hf
      | crashed u w' rr => exact key w w' _ _ (Or.inl rfl) rr new hf
      | noData s hw hr => exact good s _ hw hr new
      | short what s data hw hr => exact good s _ hw hr new
      | mismatch what s data _ _ _ hw hr => exact good s _ hw hr new
      | closed s data hw hr => exact good s _ hw hr new

/-- C32. Every message `close` sends is the unregister frame with the session's handle and no payload. -/
theorem c32_close_handle (w : World) (s : Sock) (bytes : Bytes) (ok : Bool) (evs : List Ev)
    (new : (Session.close w).2.trace = w.trace ++ evs) (sent : .sent s bytes ok ∈ evs) :
    s = .tcp ∧ bytes = request 0x66 w.s.sessionId [] := by
  have hc := close_cases w
  generalize he : Session.close w = r at hc new
  cases hc <;>
  · have := List.append_cancel_left new
    subst this
    simp at sent
    exact ⟨sent.1, sent.2.1⟩

/-- A session with handle 7 whose device answers everything with the given bytes. -/
def answering (bytes : Bytes) : World :=
  ⟨{ Session.new 1 2 3 4 [] with sessionId := 7 }, fun _ => ⟨false, bytes, 0⟩, 0, []⟩

/-- A frame around RR data around a message router reply. -/
def replyWith (handle status : UInt32) (service general : UInt8) (data : Bytes) : Bytes :=
  let payload := rrData 0 0 (mrReply service 0 general 0 [] data)
  header ⟨0x6F, UInt16.ofNat payload.length, handle, status, (0, 0), 0⟩ ++ payload

/-- A command that is sent. -/
example : (Op.run (.setAttribute 1 2 3 (some (SerializablePrimitive.obj Codec.u16 ⟨5⟩)))
    (answering (replyWith 7 0 0x90 0 []))).2.trace.length = 2 := by decide +kernel

/-! ### C33 -/

/-- C33. On an open session, a command that returns normally has received a send-RR-data frame with the session's own
handle. -/
theorem c33_accepts_only_own (op : Op) (cmd : IsCommand op) (w w' : World) (opened : w.s.sessionId ≠ 0)
    (h : op.run w = (.ok (), w')) :
    ∃ payload, Packet (delivered w.env (w.clock + 1)) 0x006F w.s.sessionId payload := by
  have key : ∀ (w1 w'' : World) bs resp, w1 = w ∨ w1 = w.bumped → RRCases w1 bs (.ok resp, w'') →
      ∃ payload, Packet (delivered w.env (w.clock + 1)) 0x006F w.s.sessionId payload := by
    intro w1 w'' bs resp h1 rr
    have e : w1.env = w.env ∧ w1.clock = w.clock ∧ w1.s.sessionId = w.s.sessionId := by
      rcases h1 with rfl | rfl <;> exact ⟨rfl, rfl, rfl⟩
    cases rr with
    | replied hw _ hr =>
      cases hr with
      | good base s a data hresp =>
        rw [e.1, e.2.1, e.2.2] at hresp
        obtain ⟨p, _, f, _⟩ := hresp
        exact ⟨p, (frame_iff_packet opened _ _).mp f⟩
  cases command_run op cmd w with
  | unsent r hr h2 => rw [h] at h2; cases h2; exact absurd rfl hr
  | thrown w1 bs e w'' h1 rr h2 => rw [h] at h2; cases h2
  | crashed w1 bs u w'' h1 rr h2 => rw [h] at h2; cases h2
  | answered w1 bs resp r w1' w'' h1 rr h2 => exact key w1 w1' bs resp h1 rr

/-- A command that gets a reply which is neither a good response nor hollow throws `runtime_error`. -/
theorem refused_throws (op : Op) (cmd : IsCommand op) (w : World) (proper : Proper w.s op)
    (works : Works w.env w.clock)
    (h1 : ¬ ∃ s data, Response w.s.sessionId (delivered w.env (w.clock + 1)) s 0 data)
    (h2 : ¬ HollowReply w.s.sessionId (delivered w.env (w.clock + 1))) :
    ∃ what w', op.run w = (.throw (runtimeError what), w') ∧ w'.s.sessionId = w.s.sessionId ∧
      w'.s.connections = w.s.connections := by
  have key : ∀ (w1 : World), w1 = w ∨ w1 = w.bumped → 
      w1.env = w.env ∧ w1.clock = w.clock ∧ w1.s.sessionId = w.s.sessionId ∧ w1.s.connections = w.s.connections := by
    intro w1 h1
    rcases h1 with rfl | rfl <;> exact ⟨rfl, rfl, rfl, rfl⟩
  cases command_run op cmd w with
  | unsent r hr h2 hp => exact absurd proper hp
  | thrown w1 bs e w'' hw1 rr h3 =>
    obtain ⟨e1, e2, e3, e4⟩ := key w1 hw1
    cases rr with
    | sendFails h => rw [e1, e2, works.1] at h; cases h
    | receiveFails _ h => rw [e1, e2, works.2] at h; cases h
    | replied hw _ hr =>
      cases hr with
      | refused what => exact ⟨what, _, h3, e3, e4⟩
  | crashed w1 bs u w'' hw1 rr h3 =>
    obtain ⟨e1, e2, e3, e4⟩ := key w1 hw1
    cases rr with
    | replied hw _ hr =>
      cases hr with
      | hollow h => rw [e1, e2, e3] at h; exact absurd h h2
  | answered w1 bs resp r w1' w'' hw1 rr h3 =>
    obtain ⟨e1, e2, e3, e4⟩ := key w1 hw1
    cases rr with
    | replied hw _ hr =>
      cases hr with
      | good base s a data hresp => rw [e1, e2, e3] at hresp; exact absurd ⟨s, data, hresp⟩ h1

/-- C33. On an open session, every other reply (too short, wrong command, wrong handle) makes the command throw
`runtime_error`, with session id and connections unchanged. -/
theorem c33_rejects_others (op : Op) (cmd : IsCommand op) (w : World) (proper : Proper w.s op)
    (opened : w.s.sessionId ≠ 0) (works : Works w.env w.clock)
    (other : ¬ ∃ payload, Packet (delivered w.env (w.clock + 1)) 0x006F w.s.sessionId payload) :
    ∃ what w', op.run w = (.throw (runtimeError what), w') ∧ w'.s.sessionId = w.s.sessionId ∧
      w'.s.connections = w.s.connections := by
  apply refused_throws op cmd w proper works
  · rintro ⟨s, data, p, a, f, _⟩
    exact other ⟨p, (frame_iff_packet opened _ _).mp f⟩
  · rintro ⟨p, f, _⟩
    exact other ⟨p, (frame_iff_packet opened _ _).mp f⟩

/-- A good reply and a reply for another session. -/
example : (Op.run (.setAttribute 1 2 3 none) (answering (replyWith 7 0 0x90 0 []))).1 = .ok () := by decide +kernel

example : ¬ ∃ payload, Packet (delivered (answering (replyWith 8 0 0x90 0 [])).env 1) 0x006F 7 payload := by
  rintro ⟨p, h⟩
  have h2 : Packet (delivered (answering (replyWith 8 0 0x90 0 [])).env 1) 0x006F 8 (rrData 0 0 (mrReply 0x90 0 0 0 [] [])) :=
    ⟨⟨0x6F, 20, 8, 0, (0, 0), 0⟩, [], rfl, rfl, by decide, by decide +kernel⟩
  have := (Packet.unique h h2).2.1
  revert this
  decide

/-! ### C34 -/

/-- C34 is false for every session that is not registered: if the device (or anyone in its place) answers with any
non-zero handle, writing an attribute succeeds. -/
theorem c34_violated (x y z : UInt8) (data : Option Obj) (bs : Bytes) (hd : EncodesOpt data bs) (w : World)
    (closed : w.s.sessionId = 0) (works : Works w.env w.clock) (handle : UInt32) (nz : handle ≠ 0)
    (payload : Bytes) (s : UInt8) (a d : Bytes)
    (reply : Packet (delivered w.env (w.clock + 1)) 0x006F handle payload) (body : RRReply payload s 0 a d) :
    (Session.setSingleAttributeSerializable x y z data w).1 = .ok () := by
  rw [setAttr_eq]
  have hresp : Response w.s.sessionId (delivered w.env (w.clock + 1)) s 0 d :=
    ⟨payload, a, ⟨handle, reply, Or.inl ⟨closed, nz⟩⟩, body⟩
  have rr := setAttr_cases x y z hd w
  generalize Session.sendRRDataCommand 0x10 (Path.mk3 x y z) data w = r at rr ⊢
  cases rr with
  | sendFails h => rw [works.1] at h; cases h
  | receiveFails _ h => rw [works.2] at h; cases h
  | replied hw _ hr =>
    cases hr with
    | good => rfl
    | hollow h => exact absurd h (Response.not_hollow hresp)
    | refused _ h => exact absurd ⟨s, d, hresp⟩ h

/-- C34 (partial: devices that echo the handle of the request). If the reply carries the handle 0, as the request did,
the command throws. Missing: replies with another handle, for which it is false. -/
theorem c34_echoed_handle_partial (op : Op) (cmd : IsCommand op) (w : World) (proper : Proper w.s op)
    (closed : w.s.sessionId = 0) (works : Works w.env w.clock) (command : UInt16) (payload : Bytes)
    (reply : Packet (delivered w.env (w.clock + 1)) command 0 payload) :
    ∃ what w', op.run w = (.throw (runtimeError what), w') ∧ w'.s.sessionId = 0 ∧
      w'.s.connections = w.s.connections := by
  have no : ∀ p, ¬ RRFrame w.s.sessionId (delivered w.env (w.clock + 1)) p := by
    rintro p ⟨handle, h, ⟨_, a⟩ | ⟨a, _⟩⟩
    · exact a (Packet.unique h reply).2.1
    · exact a closed
  have := refused_throws op cmd w proper works (by rintro ⟨s, data, p, a, f, _⟩; exact no p f)
    (by rintro ⟨p, f, _⟩; exact no p f)
  rw [closed] at this
  exact this

/-- A closed session and a device that answers with handle 9. -/
example : (Op.run (.setAttribute 1 2 3 none)
    { answering (replyWith 9 0 0x90 0 []) with s := Session.new 1 2 3 4 [] }).1 = .ok () := by decide +kernel

/-! ### C35 -/

/-- C35. A reply whose message router response has a non-zero general status makes every command throw
`runtime_error`, with session id and connections unchanged. -/
theorem c35_status_reported (op : Op) (cmd : IsCommand op) (w : World) (proper : Proper w.s op)
    (works : Works w.env w.clock) (command : UInt16) (handle : UInt32) (payload : Bytes) (s status : UInt8)
    (a d : Bytes) (reply : Packet (delivered w.env (w.clock + 1)) command handle payload)
    (body : RRReply payload s status a d) (bad : status ≠ 0) :
    ∃ what w', op.run w = (.throw (runtimeError what), w') ∧ w'.s.sessionId = w.s.sessionId ∧
      w'.s.connections = w.s.connections := by
  apply refused_throws op cmd w proper works
  · rintro ⟨s', data', p, a', ⟨handle', h, _⟩, b⟩
    obtain ⟨_, _, rfl⟩ := Packet.unique reply h
    exact bad (RRReply.unique body b).2.1
  · rintro ⟨p, ⟨handle', h, _⟩, hh⟩
    obtain ⟨_, _, rfl⟩ := Packet.unique reply h
    rcases hh with rfl | hh
    · exact RRReply.not_nil body
    · exact RRReply.not_empty body hh

example : (Op.run (.createConnection ⟨1, 2, 3⟩ ⟨4, 5, 6⟩) (answering (replyWith 7 0 0xDB 1 []))).1 =
    .throw (runtimeError "RR Data Command Failed") := by decide +kernel

/-! ### C36 and C37 -/

/-- Success means a complete reply with general status 0. -/
theorem success_response (op : Op) (cmd : IsCommand op) (w w' : World) (h : op.run w = (.ok (), w')) :
    ∃ s data, Response w.s.sessionId (delivered w.env (w.clock + 1)) s 0 data := by
  have key : ∀ (w1 w'' : World) bs resp, w1 = w ∨ w1 = w.bumped → RRCases w1 bs (.ok resp, w'') →
      ∃ s data, Response w.s.sessionId (delivered w.env (w.clock + 1)) s 0 data := by
    intro w1 w'' bs resp h1 rr
    have e : w1.env = w.env ∧ w1.clock = w.clock ∧ w1.s.sessionId = w.s.sessionId := by
      rcases h1 with rfl | rfl <;> exact ⟨rfl, rfl, rfl⟩
    cases rr with
    | replied hw _ hr =>
      cases hr with
      | good base s a data hresp =>
        rw [e.1, e.2.1, e.2.2] at hresp
        exact ⟨s, data, hresp⟩
  cases command_run op cmd w with
  | unsent r hr h2 => rw [h] at h2; cases h2; exact absurd rfl hr
  | thrown w1 bs e w'' h1 rr h2 => rw [h] at h2; cases h2
  | crashed w1 bs u w'' h1 rr h2 => rw [h] at h2; cases h2
  | answered w1 bs resp r w1' w'' h1 rr h2 => exact key w1 w1' bs resp h1 rr

theorem set_succeeds (x y z : UInt8) (data : Option Obj) (bs : Bytes) (hd : EncodesOpt data bs) (w : World)
    (works : Works w.env w.clock) (s : UInt8) (d : Bytes)
    (hresp : Response w.s.sessionId (delivered w.env (w.clock + 1)) s 0 d) :
    Session.setSingleAttributeSerializable x y z data w = (.ok (), w.exchanged
      (command w.s.sessionId 0x10 [.class' x, .instance' y, .attribute z] bs)) := by
  rw [setAttr_eq]
  have rr := setAttr_cases x y z hd w
  generalize Session.sendRRDataCommand 0x10 (Path.mk3 x y z) data w = r at rr ⊢
  cases rr with
  | sendFails h => rw [works.1] at h; cases h
  | receiveFails _ h => rw [works.2] at h; cases h
  | replied hw _ hr =>
    cases hr with
    | good => rfl
    | hollow h => exact absurd h (Response.not_hollow hresp)
    | refused _ h => exact absurd ⟨s, d, hresp⟩ h

/-- C36 is false: the status field of the encapsulation header is never looked at. Any otherwise good reply with a
header status other than 0 makes a write succeed. -/
theorem c36_violated (x y z : UInt8) (data : Option Obj) (bs : Bytes) (hd : EncodesOpt data bs) (w : World)
    (opened : w.s.sessionId ≠ 0) (works : Works w.env w.clock) (h : EncapHeader) (payload tail : Bytes)
    (s : UInt8) (a d : Bytes) (hc : h.command = 0x6F) (hs : h.sessionHandle = w.s.sessionId)
    (hl : h.length.toNat = payload.length) (body : RRReply payload s 0 a d)
    (_bad : h.status ≠ 0) (reply : delivered w.env (w.clock + 1) = header h ++ payload ++ tail) :
    (Session.setSingleAttributeSerializable x y z data w).1 = .ok () := by
  rw [set_succeeds x y z data bs hd w works s d
    ⟨payload, a, ⟨_, ⟨h, tail, hc, rfl, hl, reply⟩, Or.inr ⟨opened, hs⟩⟩, body⟩]

example : (Op.run (.setAttribute 1 2 3 none) (answering (replyWith 7 0x64 0x90 0 []))).1 = .ok () := by decide +kernel

/-- C36 (partial: failures that are also visible in the message). A command that returns normally received a complete
message router response with general status 0, so a header status is only missed on replies that carry a full
successful response. In particular a reply consisting of the header alone never succeeds. Missing: the header status
itself, which is ignored. -/
theorem c36_status_with_no_body_partial (op : Op) (cmd : IsCommand op) (w w' : World) (h : op.run w = (.ok (), w')) :
    (∃ s data, Response w.s.sessionId (delivered w.env (w.clock + 1)) s 0 data) ∧
      ¬ ∃ c handle, Packet (delivered w.env (w.clock + 1)) c handle [] := by
  refine ⟨success_response op cmd w w' h, ?_⟩
  rintro ⟨c, handle, p⟩
  obtain ⟨s, data, payload, a, ⟨handle', p', _⟩, r⟩ := success_response op cmd w w' h
  have e := (Packet.unique p p').2.2
  rw [← e] at r
  exact RRReply.not_nil r

/-- C37 is false: whatever service code `s` the reply has, a write succeeds on it. -/
theorem c37_violated (x y z : UInt8) (data : Option Obj) (bs : Bytes) (hd : EncodesOpt data bs) (w : World)
    (works : Works w.env w.clock) (s : UInt8) (d : Bytes) (_other : s ≠ 0x10 ||| 0x80)
    (reply : Response w.s.sessionId (delivered w.env (w.clock + 1)) s 0 d) :
    (Session.setSingleAttributeSerializable x y z data w).1 = .ok () := by
  rw [set_succeeds x y z data bs hd w works s d reply]

example : (Op.run (.setAttribute 1 2 3 none) (answering (replyWith 7 0 0x8E 0 [1, 2]))).1 = .ok () := by decide +kernel

/-- C37 (partial: connection commands). `createConnection` and `closeConnection` succeed only on replies whose data has
the form of a forward open or forward close reply for this very connection; the service code itself is not checked, so
for attribute commands the property is false. -/
theorem c37_connection_replies_partial (w : World) :
    (∀ (o t : ConnectionInfo) (i : Int) (w' : World), Session.createConnection o t w = (.ok i, w') →
      ∃ s data oToT tToO oApi tApi, Response w.s.sessionId (delivered w.env (w.clock + 1)) s 0 data ∧
        OpenReply data oToT tToO w.s.nextConnectionSn w.s.vendorId w.s.serialNum oApi tApi) ∧
    (∀ (n : Nat) (w' : World), Session.closeConnection n w = (.ok (), w') →
      ∃ c s data, w.s.connections[n]? = some c ∧ Response w.s.sessionId (delivered w.env (w.clock + 1)) s 0 data ∧
        CloseReply data c.connectionSn c.originatorVendorId c.originatorSn) := by
  constructor
  · intro o t i w' h
    obtain ⟨s, data, oToT, tToO, oApi, tApi, _, hr, ho, _⟩ := create_ok h
    exact ⟨s, data, oToT, tToO, oApi, tApi, hr, ho⟩
  · intro n w' h
    cases hn : w.s.connections[n]? with
    | none => rw [closeConn_bad w n hn] at h; cases h
    | some c =>
      have cc := closeConn_cases w n c hn
      rw [h] at cc
      cases cc with
      | closed s data hw hr ho => exact ⟨c, s, data, rfl, hr, ho⟩

/-! ### C38 -/

/-- Reading an attribute when the device gives a good answer. -/
theorem get_answered {δ : Type} (c : Class δ) (x y z : UInt8) (init : δ) (w : World) (works : Works w.env w.clock)
    (s : UInt8) (data : Bytes) (reply : Response w.s.sessionId (delivered w.env (w.clock + 1)) s 0 data)
    (hne : data ≠ []) :
    Session.getSingleAttributeSerializable c x y z (init, w) =
      match c.assignBuffer with
      | some f => (.ok (), (f data init, w.exchanged
          (command w.s.sessionId 0x0E [.class' x, .instance' y, .attribute z] [])))
      | none =>
        match deserializeFrom c data data.length init with
        | (r, d) => (r, (d, w.exchanged (command w.s.sessionId 0x0E [.class' x, .instance' y, .attribute z] []))) := by
  rw [getAttr_eq]
  have rr := getAttr_cases x y z w
  generalize Session.sendRRDataCommand 0x0E (Path.mk3 x y z) none w = r at rr ⊢
  cases rr with
  | sendFails h => rw [works.1] at h; cases h
  | receiveFails _ h => rw [works.2] at h; cases h
  | replied hw _ hr =>
    cases hr with
    | good base s' a data' h =>
      obtain ⟨rfl, _, rfl⟩ := Response.unique reply h
      cases hc : c.assignBuffer with
      | none =>
        dsimp only
        rw [getResponseDataAs_raw c hc base s 0 (rawData a) hne init]
      | some f =>
        dsimp only
        rw [getResponseDataAs_buffer c hc base s 0 (rawData a) hne init]
    | hollow h => exact absurd h (Response.not_hollow reply)
    | refused _ h => exact absurd ⟨s, data, reply⟩ h

theorem get_structured {δ : Type} (c : Class δ) (hc : c.assignBuffer = none) (x y z : UInt8) (init : δ) (w : World)
    (works : Works w.env w.clock) (s : UInt8) (data : Bytes)
    (reply : Response w.s.sessionId (delivered w.env (w.clock + 1)) s 0 data) (hne : data ≠ [])
    {r : Res Unit} {d : δ} (hd : deserializeFrom c data data.length init = (r, d)) :
    Session.getSingleAttributeSerializable c x y z (init, w) =
      (r, (d, w.exchanged (command w.s.sessionId 0x0E [.class' x, .instance' y, .attribute z] []))) := by
  rw [get_answered c x y z init w works s data reply hne, hc, hd]

/-- C38. For every class, instance and attribute, `getSingleAttributeSerializable` sends exactly the get attribute
single request for that path, receives once, and, when the reply is good and carries the data `data`, its outcome and
result are those of the result object's own sized `deserialize` on a buffer holding exactly `data`. -/
theorem c38_get {δ : Type} (c : Class δ) (structured : c.assignBuffer = none) (x y z : UInt8) (init : δ) (w : World)
    (works : Works w.env w.clock) (s : UInt8) (data : Bytes)
    (reply : Response w.s.sessionId (delivered w.env (w.clock + 1)) s 0 data) (some : data ≠ []) :
    ∃ w', w'.trace = w.trace ++
        [.sent .tcp (command w.s.sessionId 0x0E [.class' x, .instance' y, .attribute z] []) true,
         .received .tcp (delivered w.env (w.clock + 1)) true] ∧
      ∀ r d' rd, c.runLen data.length (init, .buffer ⟨data, 0⟩) = (r, (d', rd)) →
        Session.getSingleAttributeSerializable c x y z (init, w) = (r, (d', w')) := by
  refine ⟨w.exchanged (command w.s.sessionId 0x0E [.class' x, .instance' y, .attribute z] []), rfl, ?_⟩
  intro r d' rd h
  rw [get_answered c x y z init w works s data reply some, structured]
  simp only [deserializeFrom, BufferReader.new, h]

/-- C38. Into a raw buffer, the data is stored as it is. -/
theorem c38_get_raw (x y z : UInt8) (init : SerializableBuffer) (w : World)
    (works : Works w.env w.clock) (s : UInt8) (data : Bytes)
    (reply : Response w.s.sessionId (delivered w.env (w.clock + 1)) s 0 data) (some : data ≠ []) :
    ∃ w', w'.trace = w.trace ++
        [.sent .tcp (command w.s.sessionId 0x0E [.class' x, .instance' y, .attribute z] []) true,
         .received .tcp (delivered w.env (w.clock + 1)) true] ∧
      Session.getSingleAttributeSerializable SerializableBuffer.cls x y z (init, w) = (.ok (), (⟨data⟩, w')) := by
  refine ⟨w.exchanged (command w.s.sessionId 0x0E [.class' x, .instance' y, .attribute z] []), rfl, ?_⟩
  rw [get_answered _ x y z init w works s data reply some]
  rfl

theorem primitive_from {τ : Type} {c : Codec τ} {n : Nat} (law : c.Lawful n) (init : τ) (data : Bytes) :
    (n ≤ data.length → deserializeFrom (SerializablePrimitive.cls c) data data.length ⟨init⟩ =
      (.ok (), ⟨c.dec (data.take n)⟩)) ∧
    (data.length < n → ∃ what d, deserializeFrom (SerializablePrimitive.cls c) data data.length ⟨init⟩ =
      (.throw (lengthError what), d)) := by
  have e : deserializeFrom (SerializablePrimitive.cls c) data data.length ⟨init⟩ =
      match SerializablePrimitive.deserialize c (⟨init⟩, .buffer ⟨data, 0⟩) with
      | (r, (d', _)) => (r, d') := by
    simp only [deserializeFrom, Class.runLen, SerializablePrimitive.cls, delegateLen, BufferReader.new]
  constructor
  · intro long
    have hp := (SerializablePrimitive.parses law ⟨init⟩ (c.dec (data.take n)) 0).buffer (data.drop n)
    rw [law.enc_dec _ (by simp; omega), List.take_append_drop] at hp
    rw [e, hp]
  · intro short
    have hp := (SerializablePrimitive.parses law ⟨init⟩ (c.dec (data ++ List.replicate (n - data.length) 0)) 0).short data
      (List.replicate (n - data.length) 0)
    rw [law.enc_dec _ (by simp; omega)] at hp
    obtain ⟨what, d, r, h⟩ := hp rfl (by
      intro h
      have := congrArg List.length h
      simp at this
      omega)
    rw [e, h]
    exact ⟨what, d, rfl⟩

theorem getSingle_of {τ : Type} {c : Codec τ} {x y z : UInt8} {init : τ} {w w' : World} {d : SerializablePrimitive τ}
    (h : Session.getSingleAttributeSerializable (SerializablePrimitive.cls c) x y z (⟨init⟩, w) = (.ok (), (d, w'))) :
    Session.getSingleAttribute c x y z init w = (.ok d.data, w') := by
  unfold Session.getSingleAttribute
  rw [h]

theorem get_primitive {τ : Type} {c : Codec τ} {n : Nat} (law : c.Lawful n) (x y z : UInt8)
    (init : τ) (w : World) (works : Works w.env w.clock) (s : UInt8) (data : Bytes)
    (reply : Response w.s.sessionId (delivered w.env (w.clock + 1)) s 0 data) (pos : 0 < n) (long : n ≤ data.length) :
    Session.getSingleAttribute c x y z init w =
      (.ok (c.dec (data.take n)), w.exchanged
        (command w.s.sessionId 0x0E [.class' x, .instance' y, .attribute z] [])) := by
  have hne : data ≠ [] := by
    intro h
    rw [h, List.length_nil] at long
    omega
  have hd := (primitive_from law init data).1 long
  exact getSingle_of (get_structured (SerializablePrimitive.cls c) rfl x y z ⟨init⟩ w works s data reply hne hd)

/-- C38. An unsigned 8, 16 or 32 bit attribute is the little-endian value of the first bytes of the data. -/
theorem c38_get_integers (x y z : UInt8) (w : World) (works : Works w.env w.clock) (s : UInt8) (data : Bytes)
    (reply : Response w.s.sessionId (delivered w.env (w.clock + 1)) s 0 data) :
    (∀ init, 1 ≤ data.length →
      ∃ v, (Session.getSingleAttribute .u8 x y z init w).1 = .ok v ∧ v.toNat = value (data.take 1)) ∧
    (∀ init, 2 ≤ data.length →
      ∃ v, (Session.getSingleAttribute .u16 x y z init w).1 = .ok v ∧ v.toNat = value (data.take 2)) ∧
    (∀ init, 4 ≤ data.length →
      ∃ v, (Session.getSingleAttribute .u32 x y z init w).1 = .ok v ∧ v.toNat = value (data.take 4)) := by
  refine ⟨fun init h => ?_, fun init h => ?_, fun init h => ?_⟩
  · rw [get_primitive Codec.u8_lawful x y z init w works s data reply (by omega) h]
    refine ⟨_, rfl, ?_⟩
    have e := Codec.u8_lawful.enc_dec (data.take 1) (by simp; omega)
    generalize Codec.u8.dec (data.take 1) = v at e ⊢
    rw [← e, value_eq_leVal]
    simp only [Codec.u8, le8, leVal_leBytes]
    have := v.toNat_lt
    omega
  · rw [get_primitive Codec.u16_lawful x y z init w works s data reply (by omega) h]
    refine ⟨_, rfl, ?_⟩
    have e := Codec.u16_lawful.enc_dec (data.take 2) (by simp; omega)
    generalize Codec.u16.dec (data.take 2) = v at e ⊢
    rw [← e, value_eq_leVal]
    simp only [Codec.u16, le16, leVal_leBytes]
    have := v.toNat_lt
    omega
  · rw [get_primitive Codec.u32_lawful x y z init w works s data reply (by omega) h]
    refine ⟨_, rfl, ?_⟩
    have e := Codec.u32_lawful.enc_dec (data.take 4) (by simp; omega)
    generalize Codec.u32.dec (data.take 4) = v at e ⊢
    rw [← e, value_eq_leVal]
    simp only [Codec.u32, le32, leVal_leBytes]
    have := v.toNat_lt
    omega

example : (Session.getSingleAttribute .u32 1 2 3 0 (answering (replyWith 7 0 0x8E 0 [1, 2, 3, 4]))).1 = .ok 0x04030201 := by
  decide +kernel

/-! ### C39 -/

/-- C39. For every path and every object that reports its true length, `setSingleAttributeSerializable` first sends
exactly the set attribute single request for that path followed by the object's bytes; if the socket calls work and
the reply is good with status 0, it returns, and that was the only message. -/
theorem c39_set (x y z : UInt8) (data : Option Obj) (bs : Bytes) (hd : EncodesOpt data bs) (w : World) :
    (∃ ok rest, (Session.setSingleAttributeSerializable x y z data w).2.trace = w.trace ++
      .sent .tcp (command w.s.sessionId 0x10 [.class' x, .instance' y, .attribute z] bs) ok :: rest) ∧
    (Works w.env w.clock →
      (∃ s d, Response w.s.sessionId (delivered w.env (w.clock + 1)) s 0 d) →
      ∃ w', Session.setSingleAttributeSerializable x y z data w = (.ok (), w') ∧ w'.trace = w.trace ++
        [.sent .tcp (command w.s.sessionId 0x10 [.class' x, .instance' y, .attribute z] bs) true,
         .received .tcp (delivered w.env (w.clock + 1)) true]) := by
  constructor
  · rw [setAttr_eq]
    have rr := setAttr_cases x y z hd w
    generalize Session.sendRRDataCommand 0x10 (Path.mk3 x y z) data w = r at rr ⊢
    cases rr with
    | sendFails => exact ⟨_, _, rfl⟩
    | receiveFails => exact ⟨true, _, by simp only [World.after, List.append_assoc, List.cons_append]; rfl⟩
    | replied hw r hr => cases hr <;> exact ⟨_, _, rfl⟩
  · rintro works ⟨s, d, hresp⟩
    exact ⟨_, set_succeeds x y z data bs hd w works s d hresp, rfl⟩

/-- C39 for integers. -/
theorem c39_set_integers (x y z : UInt8) (w : World) (works : Works w.env w.clock) (s : UInt8) (d : Bytes)
    (reply : Response w.s.sessionId (delivered w.env (w.clock + 1)) s 0 d) :
    (∀ v : UInt8, ∃ w', Session.setSingleAttribute .u8 x y z v w = (.ok (), w') ∧ w'.trace = w.trace ++
      [.sent .tcp (command w.s.sessionId 0x10 [.class' x, .instance' y, .attribute z] (le 1 v.toNat)) true,
       .received .tcp (delivered w.env (w.clock + 1)) true]) ∧
    (∀ v : UInt16, ∃ w', Session.setSingleAttribute .u16 x y z v w = (.ok (), w') ∧ w'.trace = w.trace ++
      [.sent .tcp (command w.s.sessionId 0x10 [.class' x, .instance' y, .attribute z] (le 2 v.toNat)) true,
       .received .tcp (delivered w.env (w.clock + 1)) true]) ∧
    (∀ v : UInt32, ∃ w', Session.setSingleAttribute .u32 x y z v w = (.ok (), w') ∧ w'.trace = w.trace ++
      [.sent .tcp (command w.s.sessionId 0x10 [.class' x, .instance' y, .attribute z] (le 4 v.toNat)) true,
       .received .tcp (delivered w.env (w.clock + 1)) true]) := by
  refine ⟨fun v => ?_, fun v => ?_, fun v => ?_⟩
  · refine (c39_set x y z (some _) _ ?_ w).2 works ⟨s, d, reply⟩
    rw [← le8_eq_le]
    exact SerializablePrimitive.encodes Codec.u8 v
  · refine (c39_set x y z (some _) _ ?_ w).2 works ⟨s, d, reply⟩
    rw [← le16_eq_le]
    exact SerializablePrimitive.encodes Codec.u16 v
  · refine (c39_set x y z (some _) _ ?_ w).2 works ⟨s, d, reply⟩
    rw [← le32_eq_le]
    exact SerializablePrimitive.encodes Codec.u32 v

/-- The request for writing 5 to attribute 3 of instance 2 of class 1. -/
example : command 7 0x10 [.class' 1, .instance' 2, .attribute 3] (le 2 5) =
    [0x6F, 0, 26, 0, 7, 0, 0, 0, 0, 0, 0, 0, 0, 0, 0, 0, 0, 0, 0, 0, 0, 0, 0, 0,
     0, 0, 0, 0, 0, 0, 2, 0, 0, 0, 0, 0, 0xB2, 0, 10, 0, 0x10, 3, 0x20, 1, 0x24, 2, 0x30, 3, 5, 0] := by decide

/-! ### C40 -/

/-- C40 is false: a reply without payload, or with an empty unconnected message item, makes every command dereference a
null pointer. -/
theorem c40_violated_hollow (op : Op) (cmd : IsCommand op) (w : World) (proper : Proper w.s op)
    (works : Works w.env w.clock) (reply : HollowReply w.s.sessionId (delivered w.env (w.clock + 1))) :
    (op.run w).1 = .ub .nullDeref := by
  have key : ∀ (w1 : World), w1 = w ∨ w1 = w.bumped →
      w1.env = w.env ∧ w1.clock = w.clock ∧ w1.s.sessionId = w.s.sessionId := by
    intro w1 h1
    rcases h1 with rfl | rfl <;> exact ⟨rfl, rfl, rfl⟩
  cases command_run op cmd w with
  | unsent r hr h2 hp => exact absurd proper hp
  | thrown w1 bs e w'' hw1 rr h3 =>
    obtain ⟨e1, e2, e3⟩ := key w1 hw1
    cases rr with
    | sendFails h => rw [e1, e2, works.1] at h; cases h
    | receiveFails _ h => rw [e1, e2, works.2] at h; cases h
    | replied hw _ hr =>
      cases hr with
      | refused what _ h => rw [e1, e2, e3] at h; exact absurd reply h
  | crashed w1 bs u w'' hw1 rr h3 =>
    cases rr with
    | replied hw _ hr =>
      cases hr with
      | hollow h => rw [h3]
  | answered w1 bs resp r w1' w'' hw1 rr h3 =>
    obtain ⟨e1, e2, e3⟩ := key w1 hw1
    cases rr with
    | replied hw _ hr =>
      cases hr with
      | good base s a data hresp => rw [e1, e2, e3] at hresp; exact absurd reply (Response.not_hollow hresp)

/-- C40 is false: a good response without data makes reading an attribute and opening or closing a connection
dereference a null pointer. -/
theorem c40_violated_no_data (w : World) (works : Works w.env w.clock) (s : UInt8)
    (reply : Response w.s.sessionId (delivered w.env (w.clock + 1)) s 0 []) :
    (∀ (δ : Type) (c : Class δ) (init : δ) (x y z : UInt8),
      (Op.run (.getAttribute δ c init x y z) w).1 = .ub .nullDeref) ∧
    (∀ o t, (Session.createConnection o t w).1 = .ub .nullDeref) ∧
    (∀ n, n < w.s.connections.length → (Session.closeConnection n w).1 = .ub .nullDeref) := by
  refine ⟨fun δ c init x y z => ?_, fun o t => ?_, fun n hn => ?_⟩
  · have e : Op.run (.getAttribute δ c init x y z) w =
      match Session.getSingleAttributeSerializable c x y z (init, w) with
      | (r, (_, w')) => (r, w') := rfl
    rw [getAttr_eq] at e
    rw [e]
    have rr := getAttr_cases x y z w
    generalize Session.sendRRDataCommand 0x0E (Path.mk3 x y z) none w = r at rr ⊢
    cases rr with
    | sendFails h => rw [works.1] at h; cases h
    | receiveFails _ h => rw [works.2] at h; cases h
    | replied hw _ hr =>
      cases hr with
      | good base s' a data' h =>
        obtain ⟨rfl, _, rfl⟩ := Response.unique reply h
        rfl
      | hollow h => exact absurd h (Response.not_hollow reply)
      | refused _ h => exact absurd ⟨s, [], reply⟩ h
  · have cc := create_cases w o t
    generalize Session.createConnection o t w = r at cc ⊢
    have bad : ∀ {w1 : World} {bs e w'}, RRCases w1 bs (.throw e, w') → w1.env = w.env → w1.clock = w.clock →
        w1.s.sessionId = w.s.sessionId → False := by
      intro w1 bs e w' rr e1 e2 e3
      cases rr with
      | sendFails h => rw [e1, e2, works.1] at h; cases h
      | receiveFails _ h => rw [e1, e2, works.2] at h; cases h
      | replied hw _ hr =>
        cases hr with
        | refused _ h => rw [e1, e2, e3] at h; exact absurd ⟨s, [], reply⟩ h
    cases cc with
    | thrown e w' rr => exact (bad rr rfl rfl rfl).elim
    | crashed u w' rr =>
      cases rr with
      | replied hw _ hr => cases hr; rfl
    | noData => rfl
    | short what s' data hw hr hne => exact absurd (Response.unique reply hr).2.2.symm hne
    | mismatch what s' data _ _ _ _ _ _ _ hw hr ho =>
      have := (Response.unique reply hr).2.2
      obtain ⟨k, rsv, app, tail, _, e⟩ := ho
      rw [← this] at e
      have := congrArg List.length e
      simp [forwardOpenReply] at this
    | created s' data _ _ _ _ hw hr ho =>
      have := (Response.unique reply hr).2.2
      obtain ⟨k, rsv, app, tail, _, e⟩ := ho
      rw [← this] at e
      have := congrArg List.length e
      simp [forwardOpenReply] at this
  · obtain ⟨c, hc⟩ : ∃ c, w.s.connections[n]? = some c := ⟨_, List.getElem?_eq_getElem hn⟩
    have cc := closeConn_cases w n c hc
    generalize Session.closeConnection n w = r at cc ⊢
    cases cc with
    | thrown e w' rr =>
      cases rr with
      | sendFails h => rw [works.1] at h; cases h
      | receiveFails _ h => rw [works.2] at h; cases h
      | replied hw _ hr =>
        cases hr with
        | refused _ h => exact absurd ⟨s, [], reply⟩ h
    | crashed u w' rr =>
      cases rr with
      | replied hw _ hr => cases hr; rfl
    | noData => rfl
    | short what s' data hw hr hne => exact absurd (Response.unique reply hr).2.2.symm hne
    | mismatch what s' data _ _ _ hw hr ho =>
      have := (Response.unique reply hr).2.2
      obtain ⟨k, rsv, app, tail, _, e⟩ := ho
      rw [← this] at e
      have := congrArg List.length e
      simp [forwardCloseReply] at this
    | closed s' data hw hr ho =>
      have := (Response.unique reply hr).2.2
      obtain ⟨k, rsv, app, tail, _, e⟩ := ho
      rw [← this] at e
      have := congrArg List.length e
      simp [forwardCloseReply] at this

/-- C40 (partial: all other replies). If a command with proper arguments has undefined behaviour, it is a null pointer
dereference on a hollow reply or, except for writes, on a good response without data; for reads, provided the result
class's own `deserialize` has no undefined behaviour. Missing: those replies, for which it is false. -/
theorem c40_no_other_crash_partial (op : Op) (cmd : IsCommand op) (w w' : World) (u : UB) (proper : Proper w.s op)
    (safe : ∀ δ c init x y z, op = .getAttribute δ c init x y z → c.assignBuffer = none →
      ∀ data u, (c.runLen data.length (init, .buffer ⟨data, 0⟩)).1 ≠ .ub u)
    (h : op.run w = (.ub u, w')) :
    u = .nullDeref ∧ (HollowReply w.s.sessionId (delivered w.env (w.clock + 1)) ∨
      ((∀ x y z data, op ≠ .setAttribute x y z data) ∧
        ∃ s, Response w.s.sessionId (delivered w.env (w.clock + 1)) s 0 [])) := by
  have rrub : ∀ {w1 : World} {bs u w'}, RRCases w1 bs (.ub u, w') → w1.env = w.env → w1.clock = w.clock →
        w1.s.sessionId = w.s.sessionId → u = .nullDeref ∧ HollowReply w.s.sessionId (delivered w.env (w.clock + 1)) := by
    intro w1 bs u w' rr e1 e2 e3
    cases rr with
    | replied hw _ hr =>
      cases hr with
      | hollow h => rw [e1, e2, e3] at h; exact ⟨rfl, h⟩
  cases op with
  | «open» => exact cmd.elim
  | close => exact cmd.elim
  | getConnection => exact cmd.elim
  | receiveIOPacket => exact cmd.elim
  | sendIOPacket => exact cmd.elim
  | getAttribute δ c init x y z =>
    have e : Op.run (.getAttribute δ c init x y z) w =
      match Session.getSingleAttributeSerializable c x y z (init, w) with
      | (r, (_, w')) => (r, w') := rfl
    rw [getAttr_eq, h] at e
    have rr := getAttr_cases x y z w
    generalize Session.sendRRDataCommand 0x0E (Path.mk3 x y z) none w = r at rr e
    rcases r with ⟨(resp | ex | u'), w''⟩
    · cases rr with
      | replied hw _ hr =>
        cases hr with
        | good base s a data hresp =>
          by_cases hne : data = []
          · subst hne
            cases e
            exact ⟨rfl, Or.inr ⟨(by intros; simp), s, hresp⟩⟩
          · exfalso
            dsimp only at e
            cases hc : c.assignBuffer with
            | none =>
              rw [getResponseDataAs_raw c hc base s 0 (rawData a) hne init] at e
              have := safe δ c init x y z rfl hc data u
              simp only [deserializeFrom, BufferReader.new] at e
              exact this (congrArg Prod.fst e).symm
            | some f =>
              rw [getResponseDataAs_buffer c hc base s 0 (rawData a) hne init] at e
              cases e
    · cases e
    · cases e
      obtain ⟨rfl, hh⟩ := rrub rr rfl rfl rfl
      exact ⟨rfl, Or.inl hh⟩
  | setAttribute x y z data =>
    obtain ⟨bs, hd⟩ := proper
    have e : Op.run (.setAttribute x y z data) w = Session.setSingleAttributeSerializable x y z data w := rfl
    rw [setAttr_eq, h] at e
    have rr := setAttr_cases x y z hd w
    generalize Session.sendRRDataCommand 0x10 (Path.mk3 x y z) data w = r at rr e
    rcases r with ⟨(resp | ex | u'), w''⟩
    · cases e
    · cases e
    · cases e
      obtain ⟨rfl, hh⟩ := rrub rr rfl rfl rfl
      exact ⟨rfl, Or.inl hh⟩
  | createConnection o t =>
    have e : Op.run (.createConnection o t) w = (Session.createConnection o t).forget w := rfl
    rw [forget_eq, h] at e
    have cc := create_cases w o t
    generalize Session.createConnection o t w = r at cc e
    cases cc with
    | thrown ex w'' rr => cases e
    | crashed u'' w'' rr =>
      cases e
      obtain ⟨rfl, hh⟩ := rrub rr rfl rfl rfl
      exact ⟨rfl, Or.inl hh⟩
    | noData s hw hr => cases e; exact ⟨rfl, Or.inr ⟨(by intros; simp), s, hr⟩⟩
    | short => cases e
    | mismatch => cases e
    | created => cases e
  | closeConnection n =>
    obtain ⟨c, hn⟩ : ∃ c, w.s.connections[n]? = some c := ⟨_, List.getElem?_eq_getElem proper⟩
    have e : Op.run (.closeConnection n) w = Session.closeConnection n w := rfl
    rw [h] at e
    have cc := closeConn_cases w n c hn
    generalize Session.closeConnection n w = r at cc e
    cases cc with
    | thrown ex w'' rr => cases e
    | crashed u'' w'' rr =>
      cases e
      obtain ⟨rfl, hh⟩ := rrub rr rfl rfl rfl
      exact ⟨rfl, Or.inl hh⟩
    | noData s hw hr => cases e; exact ⟨rfl, Or.inr ⟨(by intros; simp), s, hr⟩⟩
    | short => cases e
    | mismatch => cases e
    | closed => cases e

/-- Both kinds of crash, and the class condition. -/
example : (Op.run (.setAttribute 1 2 3 none) (answering (header ⟨0x6F, 0, 7, 0, (0, 0), 0⟩))).1 = .ub .nullDeref := by
  decide +kernel

example : (Session.getSingleAttribute .u32 1 2 3 0 (answering (replyWith 7 0 0x8E 0 []))).1 = .ub .nullDeref := by
  decide +kernel

example : (SerializablePrimitive.cls Codec.u32).assignBuffer = none ∧ ∀ (data : Bytes) (u : UB),
    ((SerializablePrimitive.cls Codec.u32).runLen data.length (⟨0⟩, .buffer ⟨data, 0⟩)).1 ≠ .ub u := by
  refine ⟨rfl, fun data u h => ?_⟩
  have e : (deserializeFrom (SerializablePrimitive.cls Codec.u32) data data.length ⟨0⟩).1 = .ub u := by
    simpa only [deserializeFrom, BufferReader.new] using h
  rcases Nat.lt_or_ge data.length 4 with hl | hl
  · obtain ⟨what, d, e2⟩ := (primitive_from Codec.u32_lawful 0 data).2 hl
    rw [e2] at e; cases e
  · rw [(primitive_from Codec.u32_lawful 0 data).1 hl] at e; cases e

end Eip
