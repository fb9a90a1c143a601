import Verif.Lemmas.TightHistory
import Verif.Props.Tight
import Verif.Props.Effects
/-
C137: a session used further after calls have run out of memory.
-/
namespace Eip
open Spec

/-- C137 (serial numbers): in any history of calls, whichever of them run out of memory and wherever they do, with at
most 65536 attempts to create a connection, all forward open requests sent carry different connection serial numbers. -/
theorem c137_serials (ops : List Op) (app : ∀ op ∈ ops, OpAppends op) (few : attempts ops ≤ 65536) (x : TightWorld)
    (evs : List Ev) (new : (runOpsT ops x).1.w.trace = x.w.trace ++ evs) :
    ((openRequests evs).map serialOf).Nodup := by
  obtain ⟨⟨evs', t, r, _⟩, _⟩ := historyT ops app x
  rw [new] at t
  obtain rfl := List.append_cancel_left t
  exact r.nodup (nodup_map (fun a b e => le2_inj e) (serials_nodup few))

/-- C137 (connections): starting without connections, all connections in the list have different serial numbers. -/
theorem c137_connections (ops : List Op) (app : ∀ op ∈ ops, OpAppends op) (few : attempts ops ≤ 65536) (x : TightWorld)
    (none : x.w.s.connections = []) : ((runOpsT ops x).1.w.s.connections.map (·.connectionSn)).Nodup := by
  have h := (historyT ops app x).conns
  rw [none] at h
  exact h.nodup (serials_nodup few)

/-- C137 (ids): with at most 2^31 attempts, all connection ids proposed in forward open requests are different. -/
theorem c137_ids (ops : List Op) (app : ∀ op ∈ ops, OpAppends op) (few : attempts ops ≤ 2147483648) (x : TightWorld)
    (evs : List Ev) (new : (runOpsT ops x).1.w.trace = x.w.trace ++ evs) :
    ((openRequests evs).flatMap (fun b => [oToTOf b, tToOOf b])).Nodup := by
  obtain ⟨⟨evs', t, _, r⟩, _⟩ := historyT ops app x
  rw [new] at t
  obtain rfl := List.append_cancel_left t
  have h := sublist_flatMap (fun p : Bytes × Bytes => [p.1, p.2]) r
  rw [List.flatMap_map, List.flatMap_map] at h
  refine h.nodup ?_
  have e : (idPairs (attempts ops) x.w.s.nextConnectionId).flatMap (fun p => [le 4 p.1.toNat, le 4 p.2.toNat]) =
      (flat (idPairs (attempts ops) x.w.s.nextConnectionId)).map (fun x => le 4 x.toNat) := by
    rw [flat, List.map_flatMap]
    rfl
  exact e ▸ nodup_map (fun a b e => le4_inj e) (ids_nodup few)

/-- Three attempts: the first runs out of memory before it does anything, the second after sending, the third goes
through on what the device answers. -/
example : (openRequests (runOpsT (List.replicate 3 (.createConnection ⟨1, 2, 3⟩ ⟨4, 5, 6⟩))
      ⟨answering (openAnswer 4), [false, true, true, true, true, true, false]⟩).1.w.trace).map serialOf = [[3, 0], [4, 0]] ∧
    (runOpsT (List.replicate 3 (.createConnection ⟨1, 2, 3⟩ ⟨4, 5, 6⟩))
      ⟨answering (openAnswer 4), [false, true, true, true, true, true, false]⟩).1.w.s.connections.map (·.connectionSn) =
      [4] := by decide +kernel

/-- C137 (handle): whatever a command sends before it runs out of memory goes over the control socket and carries the
handle of the session. -/
theorem c137_handle (op : Op) (cmd : IsCommand op) (app : OpAppends op) (x : TightWorld) (s : Sock) (bytes : Bytes)
    (ok : Bool) (evs : List Ev) (new : (op.runT x).2.w.trace = x.w.trace ++ evs) (sent : .sent s bytes ok ∈ evs) :
    s = .tcp ∧ FrameOf 0x6F x.w.s.sessionId bytes := by
  rcases Op.stepT op x with h | h
  · exact c32_command_handle op cmd app x.w s bytes ok evs (h ▸ new) sent
  · obtain ⟨evs', more, t1, t2⟩ := cut_events h
    rw [new] at t1
    obtain rfl := List.append_cancel_left t1
    exact c32_command_handle op cmd app x.w s bytes ok _ t2 (List.mem_append_left _ sent)

/-- A command that sends and then runs out of memory. -/
example : ((Op.setAttribute 1 2 3 none).runT ⟨answering [], [true, true, true, false]⟩).1 = none ∧
    ((Op.setAttribute 1 2 3 none).runT ⟨answering [], [true, true, true, false]⟩).2.w.trace =
      [.sent .tcp (command 7 0x10 [.class' 1, .instance' 2, .attribute 3] []) true] := by decide +kernel

/-- C137 (session id): in any history, whichever calls run out of memory, the session id is the one it started with, 0,
or the handle of a registration response received in that history. -/
theorem c137_session_id (ops : List Op) (x : TightWorld) :
    (runOpsT ops x).1.w.s.sessionId = x.w.s.sessionId ∨ (runOpsT ops x).1.w.s.sessionId = 0 ∨
    ∃ data payload evs, (runOpsT ops x).1.w.trace = x.w.trace ++ evs ∧ .received .tcp data true ∈ evs ∧
      Packet data 0x0065 (runOpsT ops x).1.w.s.sessionId payload := by
  refine (runOpsT_induct (P := fun _ => True) (R := fun w w' => (∃ evs, w'.trace = w.trace ++ evs) ∧
    (w'.s.sessionId = w.s.sessionId ∨ w'.s.sessionId = 0 ∨
    ∃ data payload evs, w'.trace = w.trace ++ evs ∧ .received .tcp data true ∈ evs ∧
    Packet data 0x0065 w'.s.sessionId payload)) ?_ ?_ ?_ ops (fun _ _ => trivial) x).2
  · exact fun w => ⟨⟨[], by simp⟩, Or.inl rfl⟩
  · rintro a b c ⟨⟨e1, h1⟩, k1⟩ ⟨⟨e2, h2⟩, k2⟩
    refine ⟨⟨e1 ++ e2, by rw [h2, h1, List.append_assoc]⟩, ?_⟩
    rcases k2 with k2 | k2 | ⟨data, payload, evs, t, m, p⟩
    · rw [k2]
      rcases k1 with k1 | k1 | ⟨data, payload, evs, t, m, p⟩
      · exact Or.inl k1
      · exact Or.inr (Or.inl k1)
      · exact Or.inr (Or.inr ⟨data, payload, evs ++ e2, by rw [h2, t, List.append_assoc],
          List.mem_append_left _ m, p⟩)
    · exact Or.inr (Or.inl k2)
    · exact Or.inr (Or.inr ⟨data, payload, e1 ++ evs, by rw [t, h1, List.append_assoc],
          List.mem_append_right _ m, p⟩)
  · intro op x _
    rcases Op.stepT op x with h | h
    · have e : (runOps [op] x.w).1 = (op.run x.w).2 := by
        rw [runOps]
        rcases op.run x.w with ⟨(_ | _ | _), _⟩ <;> rfl
      have k := c76_histories [op] x.w
      rw [e] at k
      rw [h]
      obtain ⟨evs, t, _⟩ := (op_effect op x.w).events
      exact ⟨⟨evs, t⟩, k⟩
    · obtain ⟨evs, _, t, _⟩ := cut_events h
      exact ⟨⟨evs, t⟩, .inl h.2.2.1⟩

/-- An `open` that runs out of memory when it is done, and is open nevertheless; the `close` that follows works. -/
example : (runOpsT [.open "h" "44818" "2222"] ⟨registering, scarce 9⟩).1.w.s.sessionId = 7 ∧
    (runOpsT [.open "h" "44818" "2222", .close] ⟨registering, scarce 9⟩).1.w.s.sessionId = 0 := by decide +kernel

/-- C137 (enough memory): a history in which no allocation fails is a history of the rest of the model. Partial: when a
command has run out of memory after sending, the next one reads the reply meant for it (`c137_violated_pairing`). -/
theorem c137_enough_partial (ops : List Op) (x : TightWorld) (enough : false ∉ x.supply) :
    (runOpsT ops x).1.w = (runOps ops x.w).1 ∧ (runOpsT ops x).2 = (runOps ops x.w).2 := by
  induction ops generalizing x with
  | nil => exact ⟨rfl, rfl⟩
  | cons op ops ih =>
    obtain ⟨h1, h2, h3⟩ := c136_enough op x enough
    rw [runOpsT, runOps]
    rcases hr : op.runT x with ⟨o, x'⟩
    rcases hp : op.run x.w with ⟨r, w'⟩
    rw [hr, hp] at h1 h2
    rw [hr] at h3
    dsimp only at h1 h2 h3
    subst h1 h2
    rcases r with _ | _ | _
    · exact ih x' h3
    · exact ih x' h3
    · exact ⟨rfl, rfl⟩

/-- A history with enough memory: one call throws, the next goes through. -/
example : false ∉ (⟨answering (openAnswer 4), [true, true]⟩ : TightWorld).supply ∧
    (runOpsT [.createConnection ⟨1, 2, 3⟩ ⟨4, 5, 6⟩, .createConnection ⟨1, 2, 3⟩ ⟨4, 5, 6⟩]
      ⟨answering (openAnswer 4), [true, true]⟩).1.w.s.connections.map (·.connectionSn) = [4] := by decide +kernel

/-- The full claim - the caller can go on as if the call had not been made - is false: whenever a read request can be
sent, there is an allocation whose failure leaves its reply unread. The next read request is sent, and what it receives
is the first thing received since both requests, so that over TCP it takes the reply to the first for its own. -/
theorem c137_violated_pairing {δ ε : Type} (c : Class δ) (init : δ) (c' : Class ε) (init' : ε)
    (k i a k' i' a' : UInt8) (w : World) (send : (w.env w.clock).fails = false)
    (again : (w.env (w.clock + 1)).fails = false) :
    ∃ supply data ok, ((Op.getAttribute δ c init k i a).runT ⟨w, supply⟩).1 = none ∧
      (runOpsT [.getAttribute δ c init k i a, .getAttribute ε c' init' k' i' a'] ⟨w, supply⟩).1.w.trace = w.trace ++
        [.sent .tcp (command w.s.sessionId 0x0E [.class' k, .instance' i, .attribute a] []) true,
          .sent .tcp (command w.s.sessionId 0x0E [.class' k', .instance' i', .attribute a'] []) true,
          .received .tcp data ok] := by
  have hs := sockSend_eq (rr_serializes w.s.sessionId 0x0E (path3 k i a) (data := none) rfl) .tcp w
  rw [if_neg (by rw [send]; decide)] at hs
  generalize hv : w.after (.sent .tcp (command w.s.sessionId 0x0E [.class' k, .instance' i, .attribute a] []) true) = v at hs
  have cmd : Session.sendCommandT (rrPacket w.s.sessionId 0x0E (Path.mk3 k i a) none) ⟨w, [true, false]⟩ = (none, ⟨v, []⟩) := by
    unfold Session.sendCommandT
    exact (Tight.after_alloc _ _ _).trans ((Tight.after_lift hs _ _).trans (Tight.alloc_stop _ _ _))
  have rr : Session.sendRRDataCommandT 0x0E (Path.mk3 k i a) none ⟨w, [true, true, false]⟩ = (none, ⟨v, []⟩) := by
    unfold Session.sendRRDataCommandT
    refine (Tight.after_alloc _ _ _).trans ((Tight.after_lift rfl _ _).trans (Tight.stops ?_))
    unfold Tight.catchLengthLogic
    rw [show Session.sendCommandT (EncapPacket.withPayload Session.cmdSendRRData w.s.sessionId
      (some (RRDataRequest.new 0x0E (Path.mk3 k i a) none).obj)) _ = _ from cmd]
  have first : (Op.getAttribute δ c init k i a).runT ⟨w, scarce 3⟩ = (none, ⟨v, []⟩) := by
    show Session.getAttributeT c init k i a _ = _
    unfold Session.getAttributeT
    exact (Tight.after_alloc _ _ _).trans (Tight.stops rr)
  have second := (c136_enough (.getAttribute ε c' init' k' i' a') ⟨v, []⟩ (by simp)).2.1
  have e : (Op.run (.getAttribute ε c' init' k' i' a') v).2 =
      (Session.sendRRDataCommand 0x0E (Path.mk3 k' i' a') none v).2 := by
    simp only [Op.run, getAttr_eq]
    rcases Session.sendRRDataCommand 0x0E (Path.mk3 k' i' a') none v with ⟨(_ | _ | _), _⟩ <;> rfl
  have last : (runOpsT [.getAttribute δ c init k i a, .getAttribute ε c' init' k' i' a'] ⟨w, scarce 3⟩).1.w =
      (Session.sendRRDataCommand 0x0E (Path.mk3 k' i' a') none v).2 := by
    rw [← e, ← second, runOpsT, first]
    dsimp only
    rw [runOpsT]
    rcases (Op.getAttribute ε c' init' k' i' a').runT ⟨v, []⟩ with ⟨_ | (_ | _ | _), _⟩ <;> rfl
  have hc := getAttr_cases k' i' a' v
  have hid : v.s.sessionId = w.s.sessionId := by rw [← hv]; rfl
  have htr : v.trace = w.trace ++
      [.sent .tcp (command w.s.sessionId 0x0E [.class' k, .instance' i, .attribute a] []) true] := by rw [← hv]; rfl
  have hcl : (v.env v.clock).fails = false := by rw [← hv]; exact again
  rw [hid] at hc
  generalize hr : Session.sendRRDataCommand 0x0E (Path.mk3 k' i' a') none v = r at hc last
  have key : ∃ data ok, r.2.trace = v.trace ++
      [.sent .tcp (command w.s.sessionId 0x0E [.class' k', .instance' i', .attribute a'] []) true,
        .received .tcp data ok] := by
    cases hc with
    | sendFails h => rw [hcl] at h; exact nomatch h
    | receiveFails => exact ⟨delivered v.env (v.clock + 1), false, List.append_assoc ..⟩
    | replied => exact ⟨_, true, rfl⟩
  obtain ⟨data, ok, key⟩ := key
  refine ⟨scarce 3, data, ok, by rw [first], ?_⟩
  rw [last, key, htr, List.append_assoc]
  rfl

/-- A world in which both requests can be sent. -/
example : ((answering []).env (answering []).clock).fails = false ∧
    ((answering []).env ((answering []).clock + 1)).fails = false := by decide +kernel

end Eip
