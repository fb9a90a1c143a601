import Verif.Lemmas.Oblivious
import Verif.Props.Commands
/-
C55 - C57, C75, C76: what the calls on a session touch, what they depend on and how they fail.
-/
namespace Eip
open Spec

/-! ### C55 -/

/-- C55. Whatever its outcome, a command makes at most one send followed by at most one receive, both on the control
socket, and nothing else; a failed call is the last one. -/
theorem c55_one_exchange (op : Op) (cmd : IsCommand op) (w : World) :
    ∃ evs bytes, (op.run w).2.trace = w.trace ++ evs ∧ evs.map call <+: [.send .tcp bytes, .receive .tcp] ∧
      ∀ e ∈ evs.dropLast, succeeded e = true := by
  obtain ⟨bs, w1, w', h1, ex, hs⟩ := command_exchange op cmd w
  obtain ⟨evs, e1, _, e3, e4⟩ := ex.events
  refine ⟨evs, bs, ?_, e3, e4⟩
  rw [(SameButConnections.eqs hs).1, e1]
  rcases h1 with rfl | rfl <;> rfl

/-- C55. `receiveIOPacket` makes one receive on the IO socket; `sendIOPacket` makes at most one send on the IO socket;
`getConnection` makes no socket call. -/
theorem c55_io (w : World) :
    (∃ data ok, (Session.receiveIOPacket w).2.trace = w.trace ++ [.received .io data ok]) ∧
    (∀ p, (Session.sendIOPacket p w).2.trace = w.trace ∨
      ∃ bytes ok, (Session.sendIOPacket p w).2.trace = w.trace ++ [.sent .io bytes ok]) ∧
    (∀ n, (Session.getConnection n w).2.trace = w.trace) := by
  refine ⟨?_, fun p => ?_, fun n => ?_⟩
  · rw [receiveIO_eq]
    by_cases h : (w.env w.clock).fails = true
    · rw [if_pos h]; exact ⟨_, false, rfl⟩
    · rw [if_neg h]
      refine ⟨delivered w.env w.clock, true, ?_⟩
      rcases CPFPacket.deserialize (⟨[]⟩, .buffer ⟨delivered w.env w.clock, 0⟩) with ⟨(_ | _ | _), _, _⟩ <;> rfl
  · rcases sendIO_world p w with h | ⟨bs, ok, _, h⟩
    · left; exact congrArg World.trace h
    · right; exact ⟨bs, ok, congrArg World.trace h⟩
  · rw [getConnection_eq]
    cases w.s.connections[n]? <;> rfl

/-- A command whose receive fails: the send is recorded, and the failed receive. -/
example : ((Op.run (.setAttribute 1 2 3 none)
    { answering [] with env := fun n => ⟨n == 1, [], 0⟩ }).2.trace.map succeeded) = [true, false] := by decide +kernel

/-! ### C56 -/

/-- Attribute access, IO and `getConnection`. -/
def Passive : Op → Prop
  | .getAttribute .. => True
  | .setAttribute .. => True
  | .getConnection _ => True
  | .receiveIOPacket => True
  | .sendIOPacket _ => True
  | _ => False

/-- C56. Attribute access and IO change nothing in the session but the receive buffer. -/
theorem c56_passive (op : Op) (hp : Passive op) (w : World) :
    (op.run w).2.s = { w.s with recvBuffer := (op.run w).2.s.recvBuffer } := by
  cases op with
  | «open» => exact hp.elim
  | close => exact hp.elim
  | createConnection => exact hp.elim
  | closeConnection => exact hp.elim
  | getConnection n => rw [getConnection_world]
  | receiveIOPacket =>
    obtain ⟨ok, s, h, hs⟩ := receiveIO_world w
    rw [h]
    exact hs
  | sendIOPacket p =>
    rcases sendIO_world p w with h | ⟨bs, ok, _, h⟩
    · rw [h]
    · rw [h]; rfl
  | getAttribute δ c init x y z =>
    have e : (Op.run (.getAttribute δ c init x y z) w).2 =
        (Session.sendRRDataCommand 0x0E (Path.mk3 x y z) none w).2 := by
      simp only [Op.run, getAttr_eq]
      rcases Session.sendRRDataCommand 0x0E (Path.mk3 x y z) none w with ⟨(_ | _ | _), _⟩ <;> rfl
    rw [e]
    exact (getAttr_cases x y z w).exchange.keeps
  | setAttribute x y z data =>
    have e : (Op.run (.setAttribute x y z data) w).2 =
        (Session.sendRRDataCommand 0x10 (Path.mk3 x y z) data w).2 := by
      simp only [Op.run, setAttr_eq]
      rcases Session.sendRRDataCommand 0x10 (Path.mk3 x y z) data w with ⟨(_ | _ | _), _⟩ <;> rfl
    rw [e]
    rcases sendRR_total 0x10 (Path.mk3 x y z) data w with ⟨bs, _, rr⟩ | ⟨ex, h⟩ | ⟨u, h⟩
    · exact rr.exchange.keeps
    · rw [h]
    · rw [h]

/-- C56. `createConnection` changes only the receive buffer, the connection list and the counters; `closeConnection`
only the receive buffer and the connection list. -/
theorem c56_connections (w : World) :
    (∀ o t, (Session.createConnection o t w).2.s = { w.s with
      recvBuffer := (Session.createConnection o t w).2.s.recvBuffer
      connections := (Session.createConnection o t w).2.s.connections
      nextConnectionSn := (Session.createConnection o t w).2.s.nextConnectionSn
      nextConnectionId := (Session.createConnection o t w).2.s.nextConnectionId }) ∧
    (∀ n, (Session.closeConnection n w).2.s = { w.s with
      recvBuffer := (Session.closeConnection n w).2.s.recvBuffer
      connections := (Session.closeConnection n w).2.s.connections }) := by
  constructor
  · intro o t
    have cc := create_cases w o t
    generalize Session.createConnection o t w = r at cc ⊢
    cases cc with
    | thrown e w' rr => have := rr.exchange.keeps; dsimp only at this ⊢; rw [this]; rfl
    | crashed u w' rr => have := rr.exchange.keeps; dsimp only at this ⊢; rw [this]; rfl
    | noData => rfl
    | short => rfl
    | mismatch => rfl
    | created => rfl
  · intro n
    cases hn : w.s.connections[n]? with
    | none => rw [closeConn_bad w n hn]
    | some c =>
      have cc := closeConn_cases w n c hn
      generalize Session.closeConnection n w = r at cc ⊢
      cases cc with
      | thrown e w' rr => have := rr.exchange.keeps; dsimp only at this ⊢; rw [this]
      | crashed u w' rr => have := rr.exchange.keeps; dsimp only at this ⊢; rw [this]
      | noData => rfl
      | short => rfl
      | mismatch => rfl
      | closed => rfl

/-- C56. No history of calls changes the originator's vendor id and serial number. -/
theorem c56_identity (ops : List Op) (w : World) :
    (runOps ops w).1.s.vendorId = w.s.vendorId ∧ (runOps ops w).1.s.serialNum = w.s.serialNum := by
  have h : Effect w (runOps ops w).1 :=
    runOps_induct (R := Effect) (P := fun _ => True) Effect.refl (fun _ _ _ => Effect.trans)
      (fun op w _ => op_effect op w) ops (fun _ _ => trivial) w
  exact ⟨h.vendor, h.serial⟩

/-! ### C57 -/

/-- C57. The outcome of every call on a session, and everything it does except to the receive buffer, is the same
whatever bytes earlier calls left in the receive buffer. -/
theorem c57_oblivious (op : Op) : Oblivious op.run := by
  cases op with
  | «open» h p i => exact Oblivious.open h p i
  | close => exact Oblivious.close
  | getConnection n => exact Oblivious.bind (Oblivious.getConnection n) (fun _ => Oblivious.pure _)
  | receiveIOPacket => exact Oblivious.bind Oblivious.receiveIO (fun _ => Oblivious.pure _)
  | sendIOPacket p => exact Oblivious.sendIO p
  | createConnection o t => exact Oblivious.bind (Oblivious.create o t) (fun _ => Oblivious.pure _)
  | closeConnection n => exact Oblivious.closeConnection n
  | setAttribute x y z d => exact Oblivious.set x y z d
  | getAttribute δ c init x y z =>
    intro w old
    obtain ⟨left, h⟩ := Oblivious.rr 0x0E (Path.mk3 x y z) none w old
    refine ⟨left, ?_⟩
    simp only [Op.run, getAttr_eq]
    rw [h]
    rcases Session.sendRRDataCommand 0x0E (Path.mk3 x y z) none w with ⟨(_ | _ | _), _⟩ <;> rfl

/-- C57. The same for the values returned: the number of a new connection, a received IO packet, an attribute. -/
theorem c57_values :
    (∀ o t, Oblivious (Session.createConnection o t)) ∧ Oblivious Session.receiveIOPacket ∧
    (∀ (δ : Type) (c : Class δ) (x y z : UInt8) (d : δ) (w : World) (old : Bytes), ∃ left,
      Session.getSingleAttributeSerializable c x y z (d, withBuffer w old) =
        ((Session.getSingleAttributeSerializable c x y z (d, w)).1,
         (Session.getSingleAttributeSerializable c x y z (d, w)).2.1,
         withBuffer (Session.getSingleAttributeSerializable c x y z (d, w)).2.2 left)) := by
  refine ⟨Oblivious.create, Oblivious.receiveIO, ?_⟩
  intro δ c x y z d w old
  obtain ⟨left, h⟩ := Oblivious.rr 0x0E (Path.mk3 x y z) none w old
  refine ⟨left, ?_⟩
  simp only [getAttr_eq]
  rw [h]
  rcases Session.sendRRDataCommand 0x0E (Path.mk3 x y z) none w with ⟨(_ | _ | _), _⟩ <;> rfl

/-- C57 over histories. -/
theorem c57_histories (ops : List Op) (w : World) (old : Bytes) :
    ∃ left, runOps ops (withBuffer w old) = (withBuffer (runOps ops w).1 left, (runOps ops w).2) := by
  induction ops generalizing w old with
  | nil => exact ⟨old, rfl⟩
  | cons op ops ih =>
    obtain ⟨left, h⟩ := c57_oblivious op w old
    rw [runOps, runOps, h]
    rcases op.run w with ⟨(_ | _ | _), w'⟩
    · exact ih w' left
    · exact ih w' left
    · exact ⟨left, rfl⟩

/-- A short reply over a longer old one. -/
example : (Session.getSingleAttribute .u8 1 2 3 0
    (withBuffer (answering (replyWith 7 0 0x8E 0 [5])) (List.replicate 60 0xFF))).1 = .ok 5 := by decide +kernel

/-! ### C75 -/

theorem rr_throws {w : World} {bs : Bytes} {e : Exn} {w' : World} (rr : RRCases w bs (.throw e, w')) :
    (Works w.env w.clock ∧ ∃ what, e = runtimeError what) ∨ (¬ Works w.env w.clock ∧ e = systemError) := by
  cases rr with
  | sendFails h => exact Or.inr ⟨(fun h' => by rw [h'.1] at h; cases h), rfl⟩
  | receiveFails _ h => exact Or.inr ⟨(fun h' => by rw [h'.2] at h; cases h), rfl⟩
  | replied hw _ hr =>
    cases hr with
    | refused what => exact Or.inl ⟨hw, what, rfl⟩

theorem rr_works {w : World} {bs : Bytes} {x : RRDataResponse} {w' : World} (rr : RRCases w bs (.ok x, w')) :
    Works w.env w.clock := by
  cases rr with
  | replied hw _ hr => exact hw

/-- C75. Writing an attribute throws `runtime_error` when the socket calls work, and the unchanged socket error when
one of them fails. -/
theorem c75_set (x y z : UInt8) (data : Option Obj) (bs : Bytes) (hd : EncodesOpt data bs) (w w' : World) (e : Exn)
    (h : Session.setSingleAttributeSerializable x y z data w = (.throw e, w')) :
    (Works w.env w.clock ∧ e.kind = .runtimeError) ∨ (¬ Works w.env w.clock ∧ e = systemError) := by
  rw [setAttr_eq] at h
  have rr := setAttr_cases x y z hd w
  generalize Session.sendRRDataCommand 0x10 (Path.mk3 x y z) data w = r at rr h
  rcases r with ⟨(_ | e' | _), w1⟩
  · cases h
  · cases h
    rcases rr_throws rr with ⟨a, what, rfl⟩ | b
    · exact Or.inl ⟨a, rfl⟩
    · exact Or.inr b
  · cases h

/-- C75. The connection commands throw `runtime_error` or `logic_error` (or its subclass `length_error`) when the socket
calls work, and the unchanged socket error when one of them fails. -/
theorem c75_connections (w w' : World) (e : Exn) :
    (∀ o t, Session.createConnection o t w = (.throw e, w') →
      (Works w.env w.clock ∧ (e.kind = .runtimeError ∨ e.kind = .logicError ∨ e.kind = .lengthError)) ∨
      (¬ Works w.env w.clock ∧ e = systemError)) ∧
    (∀ n, Session.closeConnection n w = (.throw e, w') →
      (Works w.env w.clock ∧ (e.kind = .runtimeError ∨ e.kind = .logicError ∨ e.kind = .lengthError)) ∨
      (¬ Works w.env w.clock ∧ e = systemError)) := by
  constructor
  · intro o t h
    have cc := create_cases w o t
    rw [h] at cc
    cases cc with
    | thrown _ _ rr =>
      rcases rr_throws rr with ⟨a, what, rfl⟩ | b
      · exact Or.inl ⟨a, Or.inl rfl⟩
      · exact Or.inr b
    | short _ _ _ hw => exact Or.inl ⟨hw, Or.inr (Or.inr rfl)⟩
    | mismatch _ _ _ _ _ _ _ _ _ _ hw => exact Or.inl ⟨hw, Or.inr (Or.inl rfl)⟩
  · intro n h
    cases hn : w.s.connections[n]? with
    | none => rw [closeConn_bad w n hn] at h; cases h
    | some c =>
      have cc := closeConn_cases w n c hn
      rw [h] at cc
      cases cc with
      | thrown _ _ rr =>
        rcases rr_throws rr with ⟨a, what, rfl⟩ | b
        · exact Or.inl ⟨a, Or.inl rfl⟩
        · exact Or.inr b
      | short _ _ _ hw => exact Or.inl ⟨hw, Or.inr (Or.inr rfl)⟩
      | mismatch _ _ _ _ _ _ hw => exact Or.inl ⟨hw, Or.inr (Or.inl rfl)⟩

/-- C75 is false for reads: a good response whose data is shorter than the integer asked for makes `getSingleAttribute`
throw `length_error`, which is not a `runtime_error`. -/
theorem c75_violated (x y z : UInt8) (w : World) (works : Works w.env w.clock) (s : UInt8) (data : Bytes)
    (reply : Response w.s.sessionId (delivered w.env (w.clock + 1)) s 0 data) (pos : 0 < data.length)
    (short : data.length < 4) (init : UInt32) :
    ∃ what w', Session.getSingleAttribute .u32 x y z init w = (.throw (lengthError what), w') := by
  have hne : data ≠ [] := List.length_pos_iff.mp pos
  obtain ⟨what, d, hd⟩ := (primitive_from Codec.u32_lawful init data).2 short
  have h := get_structured (SerializablePrimitive.cls .u32) rfl x y z ⟨init⟩ w works s data reply hne hd
  refine ⟨what, w.exchanged (command w.s.sessionId 0x0E [.class' x, .instance' y, .attribute z] []), ?_⟩
  unfold Session.getSingleAttribute
  rw [h]

/-- The class of the exception thrown, if any. -/
def thrownKind {α : Type} : Res α → Option ExnKind
  | .throw e => some e.kind
  | _ => none

example : thrownKind (Session.getSingleAttribute .u32 1 2 3 0 (answering (replyWith 7 0 0x8E 0 [1, 2]))).1 =
    some .lengthError := by decide +kernel

/-- C75 (partial: reads). An exception from reading an attribute is a `runtime_error` if no good response with data was
received, the unchanged socket error if a socket call failed, and otherwise one that the result object's own
`deserialize` threw on the data received. Missing: that this last one is also a `runtime_error`, which is false. -/
theorem c75_get_partial {δ : Type} (c : Class δ) (x y z : UInt8) (init d' : δ) (w w' : World) (e : Exn)
    (h : Session.getSingleAttributeSerializable c x y z (init, w) = (.throw e, (d', w'))) :
    (Works w.env w.clock ∧ e.kind = .runtimeError) ∨ (¬ Works w.env w.clock ∧ e = systemError) ∨
    (Works w.env w.clock ∧ ∃ s data r', Response w.s.sessionId (delivered w.env (w.clock + 1)) s 0 data ∧
      c.runLen data.length (init, .buffer ⟨data, 0⟩) = (.throw e, (d', r'))) := by
  rw [getAttr_eq] at h
  have rr := getAttr_cases x y z w
  generalize Session.sendRRDataCommand 0x0E (Path.mk3 x y z) none w = r at rr h
  rcases r with ⟨(resp | e' | _), w1⟩
  · cases rr with
    | replied hw _ hr =>
      cases hr with
      | good base s a data hresp =>
        by_cases hne : data = []
        · subst hne
          cases h
        · dsimp only at h
          cases hc : c.assignBuffer with
          | none =>
            rw [getResponseDataAs_raw c hc base s 0 (rawData a) hne init] at h
            refine Or.inr (Or.inr ⟨hw, s, data, ?_⟩)
            simp only [deserializeFrom, BufferReader.new] at h
            rcases hrun : c.runLen data.length (init, .buffer ⟨data, 0⟩) with ⟨r2, d2, rd2⟩
            rw [hrun] at h
            cases h
            exact ⟨rd2, hresp, rfl⟩
          | some f =>
            rw [getResponseDataAs_buffer c hc base s 0 (rawData a) hne init] at h
            cases h
  · cases h
    rcases rr_throws rr with ⟨a, what, rfl⟩ | b
    · exact Or.inl ⟨a, rfl⟩
    · exact Or.inr (Or.inl b)
  · cases h

/-! ### C76 -/

/-- C76. A call changes the session id only if it is an `open` that returns normally, and then to the handle of the
register-session frame received by that call (its fourth socket call); or a `close` that returns normally, and then to
0. -/
theorem c76_session_id (op : Op) (w : World) :
    (op.run w).2.s.sessionId = w.s.sessionId ∨
    ((∃ host port ioPort, op = .open host port ioPort) ∧ (op.run w).1 = .ok () ∧
      ∃ payload, Packet (delivered w.env (w.clock + 3)) 0x0065 (op.run w).2.s.sessionId payload ∧
        .received .tcp (delivered w.env (w.clock + 3)) true ∈ (op.run w).2.trace) ∨
    (op = .close ∧ (op.run w).1 = .ok () ∧ (op.run w).2.s.sessionId = 0) := by
  have cmd : IsCommand op → (op.run w).2.s.sessionId = w.s.sessionId := by
    intro hc
    obtain ⟨bs, w1, w', h1, ex, hs⟩ := command_exchange op hc w
    obtain ⟨_, _, _, s4⟩ := SameButConnections.eqs hs
    rw [s4, ex.keeps]
    rcases h1 with rfl | rfl <;> rfl
  have passive : Passive op → (op.run w).2.s.sessionId = w.s.sessionId := by
    intro hp
    rw [c56_passive op hp w]
  cases op with
  | «open» h p i =>
    have hc := open_cases h p i w
    have e : Op.run (.open h p i) w = Session.open h p i w := rfl
    rw [e]
    generalize Session.open h p i w = r at hc ⊢
    cases hc with
    | registered handle ok hr =>
      right; left
      obtain ⟨payload, hp, _⟩ := hr
      refine ⟨⟨h, p, i, rfl⟩, rfl, payload, hp, ?_⟩
      show _ ∈ w.trace ++ (openEvents _ _ _ _ ++ [])
      simp [openEvents]
    | _ => exact Or.inl rfl
  | close =>
    have hc := close_cases w
    have e : Op.run .close w = Session.close w := rfl
    rw [e]
    generalize Session.close w = r at hc ⊢
    cases hc with
    | closed => exact Or.inr (Or.inr ⟨rfl, rfl, rfl⟩)
    | _ => exact Or.inl rfl
  | getAttribute => exact Or.inl (cmd trivial)
  | setAttribute => exact Or.inl (cmd trivial)
  | createConnection => exact Or.inl (cmd trivial)
  | closeConnection => exact Or.inl (cmd trivial)
  | getConnection n => exact Or.inl (passive trivial)
  | receiveIOPacket => exact Or.inl (passive trivial)
  | sendIOPacket p => exact Or.inl (passive trivial)

/-- C76. An `open` that returns normally does set the session id to the handle received, and a `close` that returns
normally does clear it. -/
theorem c76_sets (w w' : World) :
    (∀ host port ioPort, Session.open host port ioPort w = (.ok (), w') →
      ∃ payload, Packet (delivered w.env (w.clock + 3)) 0x0065 w'.s.sessionId payload) ∧
    (Session.close w = (.ok (), w') → w'.s.sessionId = 0) := by
  constructor
  · intro host port ioPort h
    have hc := open_cases host port ioPort w
    rw [h] at hc
    generalize he : ((Res.ok (), w') : Res Unit × World) = r at hc
    cases hc with
    | registered handle ok hr =>
      obtain ⟨payload, hp, _⟩ := hr
      have : w' = _ := congrArg Prod.snd he
      rw [this]
      exact ⟨payload, hp⟩
    | _ => exact absurd (congrArg Prod.fst he) (by simp)
  · intro h
    have hc := close_cases w
    rw [h] at hc
    cases hc
    rfl

/-- C76. The destructor clears the session id or leaves it, and never throws. -/
theorem c76_destroy (w : World) :
    (Session.destroy w).1 = .ok () ∧
      ((Session.destroy w).2.s.sessionId = 0 ∨ (Session.destroy w).2.s.sessionId = w.s.sessionId) := by
  rw [destroy_eq]
  by_cases h : w.s.sessionId ≠ 0
  · rw [if_pos h]
    have hc := close_cases w
    generalize Session.close w = r at hc ⊢
    cases hc with
    | closed => exact ⟨rfl, Or.inl rfl⟩
    | _ => exact ⟨rfl, Or.inr rfl⟩
  · rw [if_neg h]
    exact ⟨rfl, Or.inr rfl⟩

/-- C76 over histories: at any time the session id is the one the history started with, or 0, or the handle of a
register-session frame received on the control socket during the history. -/
theorem c76_histories (ops : List Op) (w : World) :
    (runOps ops w).1.s.sessionId = w.s.sessionId ∨ (runOps ops w).1.s.sessionId = 0 ∨
    ∃ data payload evs, (runOps ops w).1.trace = w.trace ++ evs ∧ .received .tcp data true ∈ evs ∧
      Packet data 0x0065 (runOps ops w).1.s.sessionId payload := by
  have key : (∃ evs, (runOps ops w).1.trace = w.trace ++ evs) ∧
      ((runOps ops w).1.s.sessionId = w.s.sessionId ∨ (runOps ops w).1.s.sessionId = 0 ∨
      ∃ data payload evs, (runOps ops w).1.trace = w.trace ++ evs ∧ .received .tcp data true ∈ evs ∧
      Packet data 0x0065 (runOps ops w).1.s.sessionId payload) := by
    refine runOps_induct (P := fun _ => True) (R := fun w w' => (∃ evs, w'.trace = w.trace ++ evs) ∧
      (w'.s.sessionId = w.s.sessionId ∨ w'.s.sessionId = 0 ∨
      ∃ data payload evs, w'.trace = w.trace ++ evs ∧ .received .tcp data true ∈ evs ∧
      Packet data 0x0065 w'.s.sessionId payload)) ?_ ?_ ?_ ops (fun _ _ => trivial) w
    · exact fun w => ⟨⟨[], by simp⟩, Or.inl rfl⟩
    · rintro a b c ⟨⟨e1, h1⟩, k1⟩ ⟨⟨e2, h2⟩, k2⟩
      refine ⟨⟨e1 ++ e2, by rw [h2, h1, List.append_assoc]⟩, ?_⟩
      rcases k2 with k2 | k2 | ⟨data, payload, evs, t, m, p⟩
      · rw [k2]
        rcases k1 with k1 | k1 | ⟨data, payload, evs, t, m, p⟩
        · exact Or.inl k1
        · exact Or.inr (Or.inl k1)
        · exact Or.inr (Or.inr ⟨data, payload, evs ++ e2, by rw [h2, t, List.append_assoc],
            List.mem_append_left _ m, p⟩)
      · exact Or.inr (Or.inl k2)
      · exact Or.inr (Or.inr ⟨data, payload, e1 ++ evs, by rw [t, h1, List.append_assoc],
            List.mem_append_right _ m, p⟩)
    · intro op w _
      obtain ⟨evs, t, _⟩ := (op_effect op w).events
      refine ⟨⟨evs, t⟩, ?_⟩
      cases op with
      | «open» h p i =>
        have hc := open_cases h p i w
        have e : Op.run (.open h p i) w = Session.open h p i w := rfl
        rw [e]
        generalize Session.open h p i w = r at hc ⊢
        cases hc with
        | registered handle ok hr =>
          right; right
          obtain ⟨payload, hp, _⟩ := hr
          refine ⟨_, payload, _, rfl, ?_, hp⟩
          simp [openEvents]
        | _ => exact Or.inl rfl
      | _ =>
        rcases c76_session_id _ w with h | ⟨⟨_, _, _, h⟩, _⟩ | ⟨_, _, h⟩
        · exact Or.inl h
        · cases h
        · exact Or.inr (Or.inl h)
  exact key.2

/-- An open that registers handle 5. -/
example : (Session.open "h" "p" "i" ⟨Session.new 1 2 3 4 [], fun _ => ⟨false,
    header ⟨0x65, 4, 5, 0, (0, 0), 0⟩ ++ register 1 0, 0⟩, 0, []⟩).2.s.sessionId = 5 := by decide +kernel

/-! ### C53 over histories -/

theorem never_opened (ops : List Op) (w : World) (h : NeverOpens ops w) (closed : w.s.sessionId = 0) :
    (runOps ops w).1.s.sessionId = 0 := by
  induction ops generalizing w with
  | nil => exact closed
  | cons op ops ih =>
    have k : (op.run w).2.s.sessionId = 0 := by
      rcases c76_session_id op w with k | ⟨k, k', _⟩ | ⟨_, _, k⟩
      · exact k.trans closed
      · exact absurd k' (h.1 k)
      · exact k
    have ih := ih _ h.2 k
    rw [runOps]
    rcases hr : op.run w with ⟨(x | e | u), w'⟩ <;> rw [hr] at ih k
    · exact ih
    · exact ih
    · exact k

/-- C53 over histories. A session that was just constructed, and on which no `open` returned normally since, is
destroyed without any socket call. -/
theorem c53_never_opened (vendor : UInt16) (serial : UInt32) (sn : UInt16) (id : UInt32) (mem : Bytes)
    (env : Nat → Answer) (clock : Nat) (trace : List Ev) (ops : List Op)
    (never : NeverOpens ops ⟨Session.new vendor serial sn id mem, env, clock, trace⟩) :
    Session.destroy (runOps ops ⟨Session.new vendor serial sn id mem, env, clock, trace⟩).1 =
      (.ok (), (runOps ops ⟨Session.new vendor serial sn id mem, env, clock, trace⟩).1) := by
  rw [destroy_eq, if_neg]
  rw [never_opened ops _ never rfl]
  decide

/-- An `open` whose registration is answered with garbage, then a command. -/
example : NeverOpens [.open "h" "p" "i", .setAttribute 1 2 3 none] ⟨Session.new 1 2 3 4 [], fun _ => ⟨false, [1, 2], 0⟩, 0, []⟩ :=
  ⟨fun _ => by decide +kernel, ⟨fun ⟨_, _, _, h⟩ => (by cases h), trivial⟩⟩

end Eip
