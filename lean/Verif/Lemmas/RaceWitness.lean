import Verif.Lemmas.RaceRuns
/-
Schedules that lead to data races.
-/
namespace Eip
open Spec

/-! ### How far a call gets -/

namespace Code

variable {α β : Type} {p : Place}

/-- Alone, the code comes to an access that writes the place; `w'` is the world just before. -/
inductive Reaches (p : Place) {α : Type} : Code α → World → World → Prop
  | here {β : Type} (a : Access β) (next : β → Code α) (w : World) (h : p ∈ a.writes) : Reaches p (.access a next) w w
  | later {β : Type} (a : Access β) (next : β → Code α) (w w' : World) (h : Reaches p (next (a.perform w).1) (a.perform w).2 w') :
      Reaches p (.access a next) w w'

theorem Reaches.bind {c : Code α} {w w' : World} (h : Reaches p c w w') (f : α → Code β) : Reaches p (c >>= f) w w' := by
  show Reaches p (c.andThen f) w w'
  induction h with
  | here a next w h => exact .here a _ w h
  | later a next w w' _ ih => exact .later a _ w w' ih

theorem Reaches.catch' {c : Code α} {w w' : World} (h : Reaches p c w w') (x y : Code α) :
    Reaches p (c.catchLengthLogic x y) w w' := by
  induction h with
  | here a next w h => exact .here a _ w h
  | later a next w w' _ ih => exact .later a _ w w' ih

theorem Reaches.get {a : Access β} {f : β → Code α} {w w' : World} (h : Reaches p (f (a.perform w).1) (a.perform w).2 w') :
    Reaches p (Code.get a >>= f) w w' := .later a _ w w' h

theorem Reaches.call {a : Access (Res β)} {f : β → Code α} {w w1 w' : World} {v : β} (ha : a.perform w = (.ok v, w1))
    (h : Reaches p (f v) w1 w') : Reaches p (Code.call a >>= f) w w' := by
  refine .later a _ w w' ?_
  rw [ha]
  exact h

theorem reaches_call {a : Access (Res β)} (h : p ∈ a.writes) (w : World) : Reaches p (Code.call a) w w := .here a _ w h

theorem reaches_get {a : Access β} (h : p ∈ a.writes) (w : World) : Reaches p (Code.get a) w w := .here a _ w h

/-- Code that alone changes a place comes to an access that writes it. -/
theorem reaches_of_change (c : Code α) (w : World) (h : ¬ SameAt p w.s (c.alone w).2.s) : ∃ w', Reaches p c w w' := by
  induction c generalizing w with
  | done r => exact absurd (SameAt.refl _ _) h
  | access a next ih =>
    by_cases hp : p ∈ a.writes
    · exact ⟨w, .here a next w hp⟩
    · obtain ⟨w', hw⟩ := ih (a.perform w).1 (a.perform w).2 fun hs => h ((a.perform_frame w hp).trans hs)
      exact ⟨w', .later a next w w' hw⟩

end Code

namespace Session

theorem sendCode_eq {o : Obj} {bs : Bytes} (h : Serializes o bs) (s : Sock) (w : World) : sendCode s o = Code.call (.send s bs) := by
  have e : (serializeToVector o.getLength o.serialize ()).1 = .ok bs := by
    have := serializeToVector_local o.getLength o.serialize w
    rw [h] at this
    exact (congrArg Prod.fst this).symm
  show (Code.own _).andThen _ = _
  rw [Code.own, e]
  rfl

theorem reaches_command_tcp {req : EncapPacket} {bs : Bytes} (h : Serializes req.obj bs) (w : World) :
    (commandCode req).Reaches (.socket .tcp) w w := by
  rw [commandCode, sendCode_eq h .tcp w]
  exact (Code.reaches_call (by simp [Access.writes]) w).bind _

theorem send_ok (s : Sock) (bs : Bytes) {w : World} (h : (w.env w.clock).fails = false) :
    (Access.send s bs).perform w = (.ok (min (w.env w.clock).accepted bs.length), w.after (.sent s bs true)) := by
  rw [Access.send_eq, h]
  rfl

theorem reaches_command_buffer {req : EncapPacket} {bs : Bytes} (h : Serializes req.obj bs) {w : World}
    (ok : (w.env w.clock).fails = false) : (commandCode req).Reaches .recvBuffer w (w.after (.sent .tcp bs true)) := by
  rw [commandCode, sendCode_eq h .tcp w]
  exact .call (send_ok .tcp bs ok) ((Code.reaches_call (by simp [Access.writes]) _).bind _)

/-- A command that can be sent starts with sending it. -/
theorem command_sends {α β : Type} {req : EncapPacket} {bs : Bytes} (h : Serializes req.obj bs) (w : World)
    (x y : Code EncapPacket) (f : EncapPacket → Code α) (g : α → Code β) :
    ∃ next, (Code.catchLengthLogic (commandCode req) x y >>= f).andThen g = .access (.send .tcp bs) next := by
  rw [commandCode, sendCode_eq h .tcp w]
  exact ⟨_, rfl⟩

theorem reaches_rr_tcp {service : UInt8} {path : Path} {data : Option Obj} {w : World} {bs : Bytes}
    (h : Serializes (rrPacket w.s.sessionId service path data).obj bs) : (rrCode service path data).Reaches (.socket .tcp) w w :=
  .get (((reaches_command_tcp h w).catch' _ _).bind _)

theorem reaches_rr_buffer {service : UInt8} {path : Path} {data : Option Obj} {w : World} {bs : Bytes}
    (h : Serializes (rrPacket w.s.sessionId service path data).obj bs) (ok : (w.env w.clock).fails = false) :
    (rrCode service path data).Reaches .recvBuffer w (w.after (.sent .tcp bs true)) :=
  .get (((reaches_command_buffer h ok).catch' _ _).bind _)

end Session

theorem openBytes_serializes (s : Session) (o t : ConnectionInfo) :
    Serializes (rrPacket s.sessionId 0x5B (Path.mk2 6 1) (some (s.prepareConnection o t).createForwardOpenRequest.obj)).obj
      (openBytes s o t) :=
  rr_serializes s.sessionId 0x5B (path2 6 1) (data := some (s.prepareConnection o t).createForwardOpenRequest.obj)
    (ForwardOpenRequest.encodes (s.prepareConnection o t).createForwardOpenRequest)

/-- A command comes to its exchange. -/
theorem reaches_exchange {op : Op} (cmd : IsCommand op) {w : World} (proper : Proper w.s op) {p : Place}
    (rr : ∀ (v : World) (service : UInt8) (path : Path) (data : Option Obj) (bs : Bytes), v.env = w.env → v.clock = w.clock →
      v.s.connections = w.s.connections →
      Serializes (rrPacket v.s.sessionId service path data).obj bs →
      ∃ w', (Session.rrCode service path data).Reaches p v w' ∧ w'.s.connections = w.s.connections) :
    ∃ w', op.code.Reaches p w w' ∧ w'.s.connections = w.s.connections := by
  cases op with
  | getAttribute δ c init x y z =>
    obtain ⟨w', h, hc⟩ := rr w _ _ _ _ rfl rfl rfl (rr_serializes w.s.sessionId 0x0E (path3 x y z) (data := none) (bs := []) rfl)
    exact ⟨w', h.bind _, hc⟩
  | setAttribute x y z d =>
    obtain ⟨bs, hb⟩ := proper
    obtain ⟨w', h, hc⟩ := rr w _ _ _ _ rfl rfl rfl (rr_serializes w.s.sessionId 0x10 (path3 x y z) hb)
    exact ⟨w', h.bind _, hc⟩
  | createConnection o t =>
    obtain ⟨w', h, hc⟩ := rr w.bumped _ _ _ _ rfl rfl rfl (rr_serializes w.bumped.s.sessionId 0x5B (path2 6 1)
      (data := some (w.s.prepareConnection o t).createForwardOpenRequest.obj)
      (ForwardOpenRequest.encodes (w.s.prepareConnection o t).createForwardOpenRequest))
    refine ⟨w', ?_, hc⟩
    refine .get ?_
    refine .get ?_
    refine .get ?_
    refine .get ?_
    refine .get ?_
    refine .get ?_
    refine .get ?_
    exact h.bind _
  | closeConnection n =>
    have hn : w.s.connections[n]? = some w.s.connections[n] := List.getElem?_eq_getElem proper
    obtain ⟨w', h, hc⟩ := rr w _ _ _ _ rfl rfl rfl (rr_serializes w.s.sessionId 0x4E (path2 6 1)
      (data := some w.s.connections[n].createForwardCloseRequest.obj) (closeRequest_encodes _))
    refine ⟨w', .get ?_, hc⟩
    show Code.Reaches p (match w.s.connections[n]? with | none => _ | some c => _) w w'
    rw [hn]
    exact h.bind _
  | _ => exact absurd cmd (by simp [IsCommand])

theorem reaches_tcp {op : Op} (on : OnTcp op) {w : World} (proper : Proper w.s op) :
    ∃ w', op.code.Reaches (.socket .tcp) w w' ∧ w'.s.connections = w.s.connections := by
  cases op with
  | «open» h p i => exact ⟨w, (Code.reaches_call (by simp [Access.writes]) w).bind _, rfl⟩
  | close =>
    refine ⟨w, .get ?_, rfl⟩
    rw [Session.sendCode_eq (unregister_serializes _) .tcp w]
    exact (Code.reaches_call (by simp [Access.writes]) _).bind _
  | getConnection => exact absurd on (by simp [OnTcp, IsCommand])
  | receiveIOPacket => exact absurd on (by simp [OnTcp, IsCommand])
  | sendIOPacket => exact absurd on (by simp [OnTcp, IsCommand])
  | _ =>
    exact reaches_exchange (by simp [IsCommand]) proper fun v _ _ _ _ _ _ hc hs => ⟨v, Session.reaches_rr_tcp hs, hc⟩

theorem reaches_buffer {op : Op} (cmd : IsCommand op) {w : World} (proper : Proper w.s op) (ok : (w.env w.clock).fails = false) :
    ∃ w', op.code.Reaches .recvBuffer w w' := by
  obtain ⟨w', h, _⟩ := reaches_exchange (p := .recvBuffer) cmd proper fun v _ _ _ _ he hk hc hs =>
    ⟨_, Session.reaches_rr_buffer hs (by rw [he, hk]; exact ok), hc⟩
  exact ⟨w', h⟩

theorem reaches_io {op : Op} (on : OnIo op) (sendable : Sendable op) {w : World} (ok : (w.env w.clock).fails = false)
    (ok' : (w.env (w.clock + 1)).fails = false) : ∃ w', op.code.Reaches (.socket .io) w w' := by
  cases op with
  | «open» h p i =>
    refine ⟨_, .call (v := ()) (w1 := w.after (.opened .tcp h p true)) ?_ ((Code.reaches_call (by simp [Access.writes]) _).bind _)⟩
    rw [Access.open_eq, ok]
    rfl
  | close =>
    have h1 := Session.send_ok .tcp (request 0x66 w.s.sessionId []) ok
    refine ⟨(w.after (.sent .tcp (request 0x66 w.s.sessionId []) true)).after (.closed .tcp true), .get ?_⟩
    · rw [Session.sendCode_eq (unregister_serializes _) .tcp w]
      refine .call h1 (.bind (.call (v := ()) ?_ (Code.reaches_call (by simp [Access.writes]) _)) _)
      rw [Access.close_eq]
      show (if (w.env (w.clock + 1)).fails then _ else _) = _
      rw [ok']
      rfl
  | receiveIOPacket => exact ⟨w, (Code.reaches_call (by simp [Access.writes]) w).bind _⟩
  | sendIOPacket pkt =>
    obtain ⟨bs, hb⟩ := sendable
    refine ⟨w, ?_⟩
    show (Session.sendIOCode pkt).Reaches _ _ _
    rw [Session.sendIOCode, Session.sendCode_eq (Serializes.of hb) .io w]
    exact (Code.reaches_call (by simp [Access.writes]) w).bind _
  | _ => exact absurd on (by simp [OnIo, IsIO])

/-! ### Schedules -/

namespace Crew

/-- A thread that alone comes to an access that writes a place can be brought there. -/
theorem bring {p : Place} {op : Op} {code : Code op.Value} {w w' : World} (h : code.Reaches p w w') (i : Nat) (c : Crew)
    (hw : c.w = w) (hn : (c.threads i).now = some ⟨op, code⟩) :
    ∃ k, (steps (List.replicate k i) c).w = w' ∧ (∀ j, j ≠ i → (steps (List.replicate k i) c).threads j = c.threads j) ∧
      ∃ (β : Type) (a : Access β), Thread.Next ((steps (List.replicate k i) c).threads i) a ∧ p ∈ a.writes := by
  induction h generalizing c with
  | here a next w h => exact ⟨0, hw, fun _ _ => rfl, _, a, ⟨op, next, hn⟩, h⟩
  | later a next w w' h ih =>
    have e : (c.threads i).step c.w =
        (⟨(c.threads i).past, some ⟨op, next (a.perform w).1⟩, (c.threads i).todo⟩, (a.perform w).2) := by
      rw [Thread.step, hn, hw]
    obtain ⟨k, h1, h2, h3⟩ := ih (c.step i) (congrArg Prod.snd e) (by rw [step_self, e])
    exact ⟨k + 1, h1, fun j hj => (h2 j hj).trans (step_other hj c), h3⟩

variable {plan : Nat → List Op} {s : Session} {env : Nat → Answer} {i j : Nat} {op op' : Op} {rest rest' : List Op}

/-- Both threads have started their first calls. -/
theorem begun (hij : i ≠ j) (hi : plan i = op :: rest) (hj : plan j = op' :: rest') :
    (steps [i, j] (start plan s env)).w = ⟨s, env, 0, []⟩ ∧
    ((steps [i, j] (start plan s env)).threads i).now = some ⟨op, op.code⟩ ∧
    ((steps [i, j] (start plan s env)).threads j).now = some ⟨op', op'.code⟩ := by
  have ei : (Thread.new (plan i)).step ⟨s, env, 0, []⟩ = (⟨[], some ⟨op, op.code⟩, rest⟩, ⟨s, env, 0, []⟩) := by rw [hi]; rfl
  have ej : (Thread.new (plan j)).step ⟨s, env, 0, []⟩ = (⟨[], some ⟨op', op'.code⟩, rest'⟩, ⟨s, env, 0, []⟩) := by rw [hj]; rfl
  have w1 : ((start plan s env).step i).w = ⟨s, env, 0, []⟩ := congrArg Prod.snd ei
  have tj : ((start plan s env).step i).threads j = Thread.new (plan j) := step_other (fun e => hij e.symm) _
  refine ⟨?_, ?_, ?_⟩
  · show ((((start plan s env).step i).threads j).step ((start plan s env).step i).w).2 = _
    rw [tj, w1, ej]
  · show ((((start plan s env).step i).step j).threads i).now = _
    rw [step_other hij, step_self]
    exact congrArg (fun x => x.1.now) ei
  · show ((((start plan s env).step i).step j).threads j).now = _
    rw [step_self, tj, w1, ej]

/-- Both first calls can be brought to an access that writes the place. -/
theorem race (hij : i ≠ j) (hi : plan i = op :: rest) (hj : plan j = op' :: rest') {p : Place} {w' w'' : World}
    (h : op.code.Reaches p ⟨s, env, 0, []⟩ w') (h' : op'.code.Reaches p w' w'') :
    ∃ sched, Spec.Crew.RaceAt p (steps sched (start plan s env)) := by
  obtain ⟨b1, b2, b3⟩ := begun (s := s) (env := env) hij hi hj
  obtain ⟨k, k1, k2, β, a, k3, k4⟩ := bring h i _ b1 b2
  obtain ⟨m, _, m2, γ, b, m3, m4⟩ := bring h' j _ k1 (by rw [k2 j (fun e => hij e.symm)]; exact b3)
  refine ⟨[i, j] ++ List.replicate k i ++ List.replicate m j, i, j, hij, β, γ, a, b, ?_, ?_, .inl ⟨k4, .inr m4⟩⟩
  · rw [steps_append, steps_append, m2 i hij]
    exact k3
  · rw [steps_append, steps_append]
    exact m3

/-- The first call of one thread can be brought to an access that writes a place which the first access of the other
concerns. -/
theorem race_first (hij : i ≠ j) (hi : plan i = op :: rest) (hj : plan j = op' :: rest') {p : Place} {w' : World}
    (h : op.code.Reaches p ⟨s, env, 0, []⟩ w') {β : Type} {b : Access β} {next : β → Code op'.Value} (hb : op'.code = .access b next)
    (hp : p ∈ b.reads ∨ p ∈ b.writes) : ∃ sched, Spec.Crew.RaceAt p (steps sched (start plan s env)) := by
  obtain ⟨b1, b2, b3⟩ := begun (s := s) (env := env) hij hi hj
  obtain ⟨k, k1, k2, β, a, k3, k4⟩ := bring h i _ b1 b2
  refine ⟨[i, j] ++ List.replicate k i, i, j, hij, _, _, a, b, ?_, ⟨op', next, ?_⟩, .inl ⟨k4, hp⟩⟩
  · rw [steps_append]
    exact k3
  · rw [steps_append, k2 j (fun e => hij e.symm), b3, hb]

/-- The session, and what two threads are doing. -/
structure Both (i j : Nat) (c : Crew) (w : World) {op op' : Op} (code : Code op.Value) (code' : Code op'.Value) : Prop where
  w : c.w = w
  left : (c.threads i).now = some ⟨op, code⟩
  right : (c.threads j).now = some ⟨op', code'⟩

theorem Both.goLeft (hij : i ≠ j) {c : Crew} {w : World} {β : Type} {a : Access β} {next : β → Code op.Value}
    {code' : Code op'.Value} (h : Both i j c w (.access a next) code') :
    Both i j (c.step i) (a.perform w).2 (next (a.perform w).1) code' := by
  have e : (c.threads i).step c.w =
      (⟨(c.threads i).past, some ⟨op, next (a.perform w).1⟩, (c.threads i).todo⟩, (a.perform w).2) := by
    rw [Thread.step, h.left, h.w]
  exact ⟨congrArg Prod.snd e, by rw [step_self, e], by rw [step_other (fun e => hij e.symm), h.right]⟩

theorem Both.goRight (hij : i ≠ j) {c : Crew} {w : World} {β : Type} {a : Access β} {next : β → Code op'.Value}
    {code : Code op.Value} (h : Both i j c w code (.access a next)) :
    Both i j (c.step j) (a.perform w).2 code (next (a.perform w).1) := by
  have e : (c.threads j).step c.w =
      (⟨(c.threads j).past, some ⟨op', next (a.perform w).1⟩, (c.threads j).todo⟩, (a.perform w).2) := by
    rw [Thread.step, h.right, h.w]
  exact ⟨congrArg Prod.snd e, by rw [step_other hij, h.left], by rw [step_self, e]⟩

theorem send_trace (s : Sock) (bs : Bytes) (w : World) :
    ∃ ok, ((Access.send s bs).perform w).2.trace = w.trace ++ [.sent s bs ok] := by
  rw [Access.send_eq]
  split
  · exact ⟨false, rfl⟩
  · exact ⟨true, rfl⟩

theorem Both.sendLeft (hij : i ≠ j) {c : Crew} {w : World} {α : Type} {req : EncapPacket} {x y : Code EncapPacket}
    {f : EncapPacket → Code α} {g : α → Code op.Value} {code' : Code op'.Value}
    (h : Both i j c w ((Code.catchLengthLogic (Session.commandCode req) x y >>= f).andThen g) code') {bs : Bytes}
    (hs : Serializes req.obj bs) : ∃ code ok w', Both i j (c.step i) w' (op := op) code code' ∧
      w'.trace = w.trace ++ [.sent .tcp bs ok] := by
  obtain ⟨next, e⟩ := Session.command_sends hs w x y f g
  rw [e] at h
  obtain ⟨ok, ht⟩ := send_trace .tcp bs w
  exact ⟨_, ok, _, h.goLeft hij, ht⟩

theorem Both.sendRight (hij : i ≠ j) {c : Crew} {w : World} {α : Type} {req : EncapPacket} {x y : Code EncapPacket}
    {f : EncapPacket → Code α} {g : α → Code op'.Value} {code : Code op.Value}
    (h : Both i j c w code ((Code.catchLengthLogic (Session.commandCode req) x y >>= f).andThen g)) {bs : Bytes}
    (hs : Serializes req.obj bs) : ∃ code' ok w', Both i j (c.step j) w' code (op' := op') code' ∧
      w'.trace = w.trace ++ [.sent .tcp bs ok] := by
  obtain ⟨next, e⟩ := Session.command_sends hs w x y f g
  rw [e] at h
  obtain ⟨ok, ht⟩ := send_trace .tcp bs w
  exact ⟨_, ok, _, h.goRight hij, ht⟩

end Crew
end Eip
