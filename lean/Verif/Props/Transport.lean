import Verif.Lemmas.Shared
import Verif.Lemmas.Accepted
import Verif.Props.Commands
/-
C71–C73: requests and replies on the TCP connection.
-/
namespace Eip
open Spec

/-! ### C71 -/

/-- Two callers with one command each. -/
def pair (a b : EncapPacket) : Nat → List EncapPacket
  | 0 => [a]
  | 1 => [b]
  | _ => []

theorem serializes_unique {o : Obj} {a b : Bytes} (h : Encodes o a) (h' : Serializes o b) (w : World) : b = a := by
  have e := Serializes.of h w
  rw [h' w] at e
  cases e
  rfl

/-- C71 for commands issued one at a time, by any number of callers in any order: when replies arrive whole, what each
command makes of the reply is what the device has answered to its own request. Missing from C71: callers that use the
session at the same time. -/
theorem c71_serial_partial (device : Bytes → Bytes) (w : World) (todo : Nat → List EncapPacket) (schedule : List (Nat × Act))
    (n : Net) (runs : (Net.start w todo).steps device schedule = some n)
    (one : OneAtATime device schedule (Net.start w todo)) (whole : ArrivesWhole device schedule (Net.start w todo))
    (i : Nat) (req : EncapPacket) (r : Res EncapPacket) (h : (i, req, r) ∈ n.done) (bs : Bytes) (hb : Encodes req.obj bs) :
    Takes w.s.sessionId req.header.command (device bs) r := by
  obtain ⟨past, hp⟩ := (SerialHistory.start device True w todo).steps runs one (fun _ => whole)
  rw [List.nil_append] at hp
  rw [hp.done] at h
  obtain ⟨x, hx, e⟩ := List.mem_map.1 h
  cases e
  obtain ⟨h1, -, -, h4⟩ := hp.each x hx
  rw [hp.whole trivial x hx, serializes_unique hb h1 w] at h4
  exact h4

/-- C71 does not hold for callers that use the session at the same time: for any two commands, when the second caller
gets to the socket first, each command takes the reply to the other one's request. -/
theorem c71_violated (device : Bytes → Bytes) (w : World) (a b : EncapPacket) (ba bb : Bytes) (ha : Encodes a.obj ba)
    (hb : Encodes b.obj bb) (la : 0 < (device ba).length ∧ (device ba).length ≤ 4096)
    (lb : 0 < (device bb).length ∧ (device bb).length ≤ 4096) :
    ∃ n ra rb, (Net.start w (pair a b)).steps device [(0, .send), (1, .send), (1, .receive (device ba).length), (1, .finish),
        (0, .receive (device bb).length), (0, .finish)] = some n ∧
      n.done = [(1, b, rb), (0, a, ra)] ∧ Takes w.s.sessionId b.header.command (device ba) rb ∧
      Takes w.s.sessionId a.header.command (device bb) ra := by
  obtain ⟨n1, e1, a1⟩ := can_send device (i := 0) (n := Net.start w (pair a b)) rfl (Serializes.of ha)
  obtain ⟨n2, e2, a2⟩ := can_send device (i := 1) (n := n1) (a1.others 1 (by decide)) (Serializes.of hb)
  have s2 : n2.stream = device ba ++ device bb := by rw [a2.stream, a1.stream]; rfl
  obtain ⟨n3, e3, a3⟩ := can_receive device (device ba).length a2.self la.1 la.2 (by rw [s2]; simp)
  rw [s2, List.take_left, List.drop_left] at a3
  obtain ⟨n4, rb, e4, t4, a4⟩ := can_finish device a3.self
  have c4 : n4.callers 0 = ⟨[], .sent a⟩ := by
    rw [a4.others 0 (by decide), a3.others 0 (by decide), a2.others 0 (by decide), a1.self]
  have s4 : n4.stream = device bb := by rw [a4.stream, a3.stream]
  obtain ⟨n5, e5, a5⟩ := can_receive device (device bb).length c4 lb.1 lb.2 (by rw [s4]; exact Nat.le_refl _)
  rw [s4, List.take_length] at a5
  obtain ⟨n6, ra, e6, t6, a6⟩ := can_finish device a5.self
  refine ⟨n6, ra, rb, ?_, ?_, ?_, ?_⟩
  · rw [steps_cons e1, steps_cons e2, steps_cons e3, steps_cons e4, steps_cons e5, steps_cons e6]; rfl
  · rw [a6.done, a5.done, a4.done, a3.done, a2.done, a1.done]; rfl
  · rw [a3.session, take_receiveInto, a2.session, a1.session] at t4
    exact t4
  · rw [a5.session, take_receiveInto, a4.session, a3.session, a2.session, a1.session] at t6
    exact t6

/-- C71 does not hold even if every caller gets the right bytes from the socket: `recv_buffer_` is shared too. For any two
commands with replies of equal length, a caller that receives between the other's receive and its parsing replaces the
reply, and both commands take the second reply. -/
theorem c71_violated_buffer (device : Bytes → Bytes) (w : World) (a b : EncapPacket) (ba bb : Bytes)
    (ha : Encodes a.obj ba) (hb : Encodes b.obj bb) (la : 0 < (device ba).length ∧ (device ba).length ≤ 4096)
    (lb : (device bb).length = (device ba).length) :
    ∃ n ra rb, (Net.start w (pair a b)).steps device [(0, .send), (0, .receive (device ba).length), (1, .send),
        (1, .receive (device bb).length), (0, .finish), (1, .finish)] = some n ∧
      n.done = [(0, a, ra), (1, b, rb)] ∧ Takes w.s.sessionId a.header.command (device bb) ra ∧
      Takes w.s.sessionId b.header.command (device bb) rb := by
  obtain ⟨n1, e1, a1⟩ := can_send device (i := 0) (n := Net.start w (pair a b)) rfl (Serializes.of ha)
  have s1 : n1.stream = device ba := a1.stream
  obtain ⟨n2, e2, a2⟩ := can_receive device (device ba).length a1.self la.1 la.2 (by rw [s1]; exact Nat.le_refl _)
  have c2 : n2.callers 1 = ⟨[b], .idle⟩ := by rw [a2.others 1 (by decide), a1.others 1 (by decide)]; rfl
  obtain ⟨n3, e3, a3⟩ := can_send device c2 (Serializes.of hb)
  have s3 : n3.stream = device bb := by rw [a3.stream, a2.stream, s1, List.drop_length]; rfl
  obtain ⟨n4, e4, a4⟩ := can_receive device (device bb).length a3.self (by omega) (by omega)
    (by rw [s3]; exact Nat.le_refl _)
  rw [s3, List.take_length] at a4
  have c4 : n4.callers 0 = ⟨[], .received a (device ba).length⟩ := by
    rw [a4.others 0 (by decide), a3.others 0 (by decide), a2.self]
  obtain ⟨n5, ra, e5, t5, a5⟩ := can_finish device c4
  have c5 : n5.callers 1 = ⟨[], .received b (device bb).length⟩ := by rw [a5.others 1 (by decide), a4.self]
  obtain ⟨n6, rb, e6, t6, a6⟩ := can_finish device c5
  have hid : (n4.w.s).sessionId = w.s.sessionId := by
    rw [a4.session, a3.session, a2.session, a1.session]; rfl
  refine ⟨n6, ra, rb, ?_, ?_, ?_, ?_⟩
  · rw [steps_cons e1, steps_cons e2, steps_cons e3, steps_cons e4, steps_cons e5, steps_cons e6]; rfl
  · rw [a6.done, a5.done, a4.done, a3.done, a2.done, a1.done]; rfl
  · rw [hid, a4.session, ← lb, take_receiveInto] at t5
    exact t5
  · rw [a5.session, hid, a4.session, take_receiveInto] at t6
    exact t6

/-- The executions in these theorems are made of the steps of `sendCommand`: done in a row, they are a call of it. -/
theorem c71_steps_partial (device : Bytes → Bytes) (w : World) (req : EncapPacket) (bs : Bytes) (hb : Encodes req.obj bs)
    (h0 : 0 < (device bs).length) (h1 : (device bs).length ≤ 4096) (w0 : World)
    (hw0 : w0 = { w with env := fun k => ⟨false, if k = w.clock + 1 then device bs else [], 0⟩ }) :
    ∃ n, (Net.start w (fun _ => [req])).steps device [(0, .send), (0, .receive (device bs).length), (0, .finish)] = some n ∧
      n.done = [(0, req, (Session.sendCommand req w0).1)] ∧ n.w.s = (Session.sendCommand req w0).2.s ∧
      n.w.trace = (Session.sendCommand req w0).2.trace ∧ n.stream = [] :=
  steps_sendCommand device w 0 req bs (Serializes.of hb) h0 h1 w0 hw0

/-- Two reads of different attributes, from callers that use the session at the same time. -/
def readA : EncapPacket := rrPacket 7 0x0E (Path.mk3 1 1 1) none
def readB : EncapPacket := rrPacket 7 0x0E (Path.mk3 1 1 7) none

/-- A device that answers reads of attribute 7 by 0x77 and all others by 0x11. -/
def exampleDevice7 (request : Bytes) : Bytes :=
  replyWith 7 0 0x8E 0 [if request.getLast? = some 7 then 0x77 else 0x11]

/-- The last byte of a result, here the value of the attribute. -/
def lastByte : Res EncapPacket → Option UInt8
  | .ok p => p.payload.bind (fun o => match o.serialize (.buffer (BufferWriter.new (List.replicate 100 0))) with
    | (.ok (), .buffer w) => w.written.getLast?
    | _ => none)
  | _ => none

/-- One at a time everybody gets their own value. -/
example : ((Net.start (answering []) (pair readA readB)).steps exampleDevice7
    [(0, .send), (0, .receive 45), (0, .finish), (1, .send), (1, .receive 45), (1, .finish)]).map
      (fun n => n.done.map (fun d => (d.1, lastByte d.2.2))) = some [(0, some 0x11), (1, some 0x77)] := by
  decide +kernel

/-- At the same time the values are exchanged. -/
example : ((Net.start (answering []) (pair readA readB)).steps exampleDevice7
    [(0, .send), (1, .send), (1, .receive 45), (1, .finish), (0, .receive 45), (0, .finish)]).map
      (fun n => n.done.map (fun d => (d.1, lastByte d.2.2))) = some [(1, some 0x11), (0, some 0x77)] := by
  decide +kernel

/-! ### C72 -/

/-- C72 does not hold: for any two commands and any split of the first reply, the first command takes the first part,
and the second command takes the second part instead of the reply to its own request, which is left for the next one. -/
theorem c72_violated (device : Bytes → Bytes) (w : World) (a b : EncapPacket) (ba bb : Bytes) (ha : Encodes a.obj ba)
    (hb : Encodes b.obj bb) (one two : Bytes) (split : device ba = one ++ two) (h1 : one ≠ []) (h2 : two ≠ [])
    (hl : (device ba).length ≤ 4096) :
    ∃ n ra rb, (Net.start w (fun _ => [a, b])).steps device [(0, .send), (0, .receive one.length), (0, .finish),
        (0, .send), (0, .receive two.length), (0, .finish)] = some n ∧
      n.done = [(0, a, ra), (0, b, rb)] ∧ Takes w.s.sessionId a.header.command one ra ∧
      Takes w.s.sessionId b.header.command two rb ∧ n.stream = device bb := by
  have p1 := List.length_pos_iff.2 h1
  have p2 := List.length_pos_iff.2 h2
  rw [split, List.length_append] at hl
  obtain ⟨n1, e1, a1⟩ := can_send device (i := 0) (n := Net.start w (fun _ => [a, b])) rfl (Serializes.of ha)
  have s1 : n1.stream = one ++ two := by rw [a1.stream, ← split]; rfl
  obtain ⟨n2, e2, a2⟩ := can_receive device one.length a1.self p1 (by omega) (by rw [s1, List.length_append]; omega)
  rw [s1, List.take_left, List.drop_left] at a2
  obtain ⟨n3, ra, e3, t3, a3⟩ := can_finish device a2.self
  obtain ⟨n4, e4, a4⟩ := can_send device a3.self (Serializes.of hb)
  have s4 : n4.stream = two ++ device bb := by rw [a4.stream, a3.stream, a2.stream]
  obtain ⟨n5, e5, a5⟩ := can_receive device two.length a4.self p2 (by omega) (by rw [s4, List.length_append]; omega)
  rw [s4, List.take_left, List.drop_left] at a5
  obtain ⟨n6, rb, e6, t6, a6⟩ := can_finish device a5.self
  refine ⟨n6, ra, rb, ?_, ?_, ?_, ?_, ?_⟩
  · rw [steps_cons e1, steps_cons e2, steps_cons e3, steps_cons e4, steps_cons e5, steps_cons e6]; rfl
  · rw [a6.done, a5.done, a4.done, a3.done, a2.done, a1.done]; rfl
  · rw [a2.session, take_receiveInto, a1.session] at t3
    exact t3
  · rw [a5.session, take_receiveInto, a4.session, a3.session, a2.session, a1.session] at t6
    exact t6
  · rw [a6.stream, a5.stream]

/-- C72, what holds for every segmentation: with commands issued one at a time, the bytes the commands receive are, in
order and without loss or repetition, the replies of the device in the order of the requests, and each command makes of
its own bytes what it should. Missing: that its own bytes are its own reply. -/
theorem c72_stream_partial (device : Bytes → Bytes) (w : World) (todo : Nat → List EncapPacket)
    (schedule : List (Nat × Act)) (n : Net) (runs : (Net.start w todo).steps device schedule = some n)
    (one : OneAtATime device schedule (Net.start w todo)) (idle : ∀ i, (n.callers i).stage = .idle) :
    ∃ past : List Round, n.done = past.map (fun x => (x.caller, x.req, x.result)) ∧
      (∀ x ∈ past, (∀ bs, Encodes x.req.obj bs → x.request = bs) ∧ x.received ≠ [] ∧
        Takes w.s.sessionId x.req.header.command x.received x.result) ∧
      (past.map (·.received)).flatten ++ n.stream = (past.map (fun x => device x.request)).flatten := by
  obtain ⟨past, hp⟩ := (SerialHistory.start device False w todo).steps runs one (fun h => h.elim)
  rw [List.nil_append] at hp
  refine ⟨past, hp.done, fun x hx => ?_, ?_⟩
  · obtain ⟨g1, g2, -, g4⟩ := hp.each x hx
    exact ⟨fun bs hb => serializes_unique hb g1 w, g2, g4⟩
  · cases hp.current with
    | idle _ hs => exact hs
    | sent i req bs _ hc => rw [idle i] at hc; cases hc
    | received i req m bs _ hc => rw [idle i] at hc; cases hc

/-- C72 does not hold in any execution in which a command has received only part of its reply: whatever happens then, the
bytes received by the next command start with the rest of that reply, or are part of it. -/
theorem c72_violated_always (device : Bytes → Bytes) (w : World) (todo : Nat → List EncapPacket)
    (schedule : List (Nat × Act)) (n : Net) (runs : (Net.start w todo).steps device schedule = some n)
    (one : OneAtATime device schedule (Net.start w todo)) (idle : ∀ i, (n.callers i).stage = .idle) :
    ∃ past : List Round, n.done = past.map (fun x => (x.caller, x.req, x.result)) ∧
      (∀ x ∈ past, (∀ bs, Encodes x.req.obj bs → x.request = bs) ∧ x.received ≠ [] ∧
        Takes w.s.sessionId x.req.header.command x.received x.result) ∧
      ∀ before x y after rest, past = before ++ x :: y :: after → (∀ z ∈ before, z.received = device z.request) →
        device x.request = x.received ++ rest → rest <+: y.received ∨ y.received <+: rest := by
  obtain ⟨past, h1, h2, h3⟩ := c72_stream_partial device w todo schedule n runs one idle
  refine ⟨past, h1, h2, ?_⟩
  intro before x y after rest hp hw hr
  subst hp
  have hb : before.map (fun x => device x.request) = before.map (·.received) :=
    List.map_congr_left (fun z hz => (hw z hz).symm)
  rw [List.map_append, List.map_append, hb, List.flatten_append, List.flatten_append, List.append_assoc] at h3
  have h3 := List.append_cancel_left h3
  simp only [List.map_cons, List.flatten_cons, hr, List.append_assoc] at h3
  have h3 := List.append_cancel_left h3
  have p1 : y.received <+: rest ++ (device y.request ++ (after.map (fun x => device x.request)).flatten) := by
    rw [← h3]; exact List.prefix_append _ _
  have p2 : rest <+: rest ++ (device y.request ++ (after.map (fun x => device x.request)).flatten) :=
    List.prefix_append _ _
  exact (List.prefix_or_prefix_of_prefix p2 p1)

/-- C72, the part about the first command: if the device's reply is a frame and only part of it is received, the command
fails; it does not return a wrong result. -/
theorem c72_first_partial (id : UInt32) (command : UInt16) (h : EncapHeader) (payload part missing : Bytes)
    (hl : payload.length = h.length.toNat) (hp : header h ++ payload = part ++ missing) (hm : missing ≠ [])
    (r : Res EncapPacket) (ht : Takes id command part r) :
    ∃ e, r = .throw e ∧ (e.kind = .lengthError ∨ e.kind = .logicError) := by
  cases ht with
  | refused e hk => exact ⟨e, rfl, hk⟩
  | accepted h' payload' tail hc ha hl' hb =>
    exfalso
    have p1 : Packet (header h ++ payload) h.command h.sessionHandle payload := ⟨h, [], rfl, rfl, hl.symm, by simp⟩
    have p2 : Packet (header h ++ payload) h'.command h'.sessionHandle payload' :=
      ⟨h', tail ++ missing, rfl, rfl, hl'.symm, by rw [hp, hb]; simp⟩
    have hpay := (Packet.unique p1 p2).2.2
    have hlen := congrArg List.length hp
    rw [hb] at hlen
    simp only [List.length_append, header_length, hpay] at hlen
    have := List.length_pos_iff.2 hm
    omega

/-- C72, as far as it holds: when replies arrive whole every command takes its own reply. -/
theorem c72_whole_partial (device : Bytes → Bytes) (w : World) (todo : Nat → List EncapPacket)
    (schedule : List (Nat × Act)) (n : Net) (runs : (Net.start w todo).steps device schedule = some n)
    (one : OneAtATime device schedule (Net.start w todo)) (whole : ArrivesWhole device schedule (Net.start w todo)) :
    ∀ d ∈ n.done, ∀ bs, Encodes d.2.1.obj bs → Takes w.s.sessionId d.2.1.header.command (device bs) d.2.2 :=
  fun d hd bs hb => c71_serial_partial device w todo schedule n runs one whole d.1 d.2.1 d.2.2 hd bs hb

/-- The reply to the first read arrives in two parts: both commands fail, and the reply to the second one is still to
come. -/
example : ((Net.start (answering []) (fun _ => [readA, readB])).steps exampleDevice7
    [(0, .send), (0, .receive 30), (0, .finish), (0, .send), (0, .receive 15), (0, .finish)]).map
      (fun n => (n.done.map (fun d => lastByte d.2.2), n.stream.getLast?)) = some ([none, none], some 0x77) := by
  decide +kernel

/-! ### C73 -/

/-- C73 does not hold, for any call in any situation: how many bytes the socket accepts has no influence on the outcome,
the session or the socket calls. -/
theorem c73_violated (op : Op) : IgnoresAccepted op.run := by
  cases op with
  | «open» h p i => exact IgnoresAccepted.open h p i
  | close => exact IgnoresAccepted.close
  | getConnection n => exact IgnoresAccepted.bind (IgnoresAccepted.getConnection n) (fun _ => IgnoresAccepted.pure _)
  | receiveIOPacket => exact IgnoresAccepted.bind IgnoresAccepted.receiveIO (fun _ => IgnoresAccepted.pure _)
  | sendIOPacket p => exact IgnoresAccepted.sendIO p
  | createConnection o t => exact IgnoresAccepted.bind (IgnoresAccepted.create o t) (fun _ => IgnoresAccepted.pure _)
  | closeConnection n => exact IgnoresAccepted.closeConnection n
  | setAttribute x y z d => exact IgnoresAccepted.set x y z d
  | getAttribute δ c init x y z =>
    intro w f
    have h := IgnoresAccepted.rr 0x0E (Path.mk3 x y z) none w f
    simp only [Op.run, getAttr_eq]
    rw [h]
    rcases Session.sendRRDataCommand 0x0E (Path.mk3 x y z) none w with ⟨(_ | _ | _), _⟩ <;> rfl

/-- C73 in particular: a call that succeeds when everything is accepted also "succeeds" when nothing is, and the rest is
not sent. -/
theorem c73_violated_nothing (op : Op) (w w' : World) (h : op.run w = (.ok (), w')) :
    (op.run (withAccepted w (fun _ => 0))).1 = .ok () ∧ (op.run (withAccepted w (fun _ => 0))).2.trace = w'.trace := by
  rw [c73_violated op w (fun _ => 0), h]
  exact ⟨rfl, rfl⟩

/-- A write of which the device never sees a byte, and which succeeds. -/
example : (Op.run (.setAttribute 1 2 3 (some (SerializablePrimitive.obj Codec.u16 ⟨5⟩)))
    (withAccepted (answering (replyWith 7 0 0x90 0 [])) (fun _ => 0))).1 = .ok () := by decide +kernel

/-- C73 over histories. -/
theorem c73_violated_histories (ops : List Op) (w : World) (f : Nat → Nat) :
    runOps ops (withAccepted w f) = (withAccepted (runOps ops w).1 f, (runOps ops w).2) := by
  induction ops generalizing w with
  | nil => rfl
  | cons op ops ih =>
    rw [runOps, runOps, c73_violated op w f]
    rcases op.run w with ⟨(_ | _ | _), w'⟩
    · exact ih w'
    · exact ih w'
    · rfl

end Eip
