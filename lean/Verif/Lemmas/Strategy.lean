import Verif.Spec.Strategy
import Verif.Lemmas.Commands
/-
The functions of a session carry out strategies.
-/
namespace Eip
open Spec

variable {α β ρ : Type}

/-! ### Strategies -/

/-- A strategy followed by another one. -/
def Strategy.andThen {ρ ρ' : Type} : Strategy ρ → (ρ → Session → Strategy ρ') → Strategy ρ'
  | .done r s, f => f r s
  | .ask call next, f => .ask call (fun ev => Strategy.andThen (next ev) f)

theorem exec_andThen {ρ ρ' : Type} (t : Strategy ρ) (f : ρ → Session → Strategy ρ') (env : Nat → Answer) (n : Nat)
    (trace : List Ev) :
    (Strategy.andThen t f).exec env n trace =
      (f (t.exec env n trace).1 (t.exec env n trace).2.s).exec env (t.exec env n trace).2.clock
        (t.exec env n trace).2.trace := by
  induction t generalizing n trace with
  | done r s => rfl
  | ask call next ih => exact ih _ _ _

theorem exec_env {ρ : Type} (t : Strategy ρ) (env : Nat → Answer) (n : Nat) (trace : List Ev) :
    (t.exec env n trace).2.env = env := by
  induction t generalizing n trace with
  | done r s => rfl
  | ask call next ih => exact ih _ _ _

/-- The program carries out a strategy from every state. -/
def Strategic {ρ : Type} (p : World → ρ × World) : Prop := ∀ s, Follows p s

theorem Spec.Follows.done {p : World → ρ × World} {s : Session} (r : ρ) (s' : Session)
    (h : ∀ env n trace, p ⟨s, env, n, trace⟩ = (r, ⟨s', env, n, trace⟩)) : Follows p s :=
  ⟨.done r s', h⟩

/-- One program after another, whatever comes out of the first. -/
theorem Spec.Follows.seq {ρ ρ' : Type} {p : World → ρ × World} {s : Session} {f : ρ → World → ρ' × World}
    (hp : Follows p s) (hf : ∀ r, Strategic (f r)) : Follows (fun w => f (p w).1 (p w).2) s := by
  obtain ⟨t, ht⟩ := hp
  refine ⟨Strategy.andThen t (fun r s' => Classical.choose (hf r s')), ?_⟩
  intro env n trace
  rw [exec_andThen, ← ht env n trace]
  rw [← Classical.choose_spec (hf (p ⟨s, env, n, trace⟩).1 (p ⟨s, env, n, trace⟩).2.s)]
  have e : (p ⟨s, env, n, trace⟩).2.env = env := by rw [ht, exec_env]
  show f (p ⟨s, env, n, trace⟩).1 (p ⟨s, env, n, trace⟩).2 = _
  generalize p ⟨s, env, n, trace⟩ = q at e ⊢
  obtain ⟨r, ⟨s', env', n', trace'⟩⟩ := q
  cases e
  rfl

theorem Spec.Follows.congr {p q : World → ρ × World} {s : Session} (hp : Follows p s)
    (h : ∀ env n trace, q ⟨s, env, n, trace⟩ = p ⟨s, env, n, trace⟩) : Follows q s := by
  obtain ⟨t, ht⟩ := hp
  exact ⟨t, fun env n trace => by rw [h, ht]⟩

theorem Strategic.pure (a : α) : Strategic (Pure.pure a : Prog World α) := fun s => .done (.ok a) s fun _ _ _ => rfl
theorem Strategic.raise (e : Exn) : Strategic (Prog.raise e : Prog World α) := fun s => .done (.throw e) s fun _ _ _ => rfl
theorem Strategic.undef (u : UB) : Strategic (Prog.undef u : Prog World α) := fun s => .done (.ub u) s fun _ _ _ => rfl

theorem Spec.Follows.bind {p : Prog World α} {f : α → Prog World β} {s : Session} (hp : Follows p s)
    (hf : ∀ a, Strategic (f a)) : Follows (p >>= f) s := by
  refine (Follows.seq (f := fun r w => match r with
    | .ok a => f a w
    | .throw e => (.throw e, w)
    | .ub u => (.ub u, w)) hp ?_).congr ?_
  · rintro (a | e | u)
    · exact hf a
    · exact Strategic.raise e
    · exact Strategic.undef u
  · intro env n trace
    simp only [Prog.bind_def, Prog.andThen]
    rcases p ⟨s, env, n, trace⟩ with ⟨(a | e | u), w'⟩ <;> rfl

theorem Strategic.bind {p : Prog World α} {f : α → Prog World β} (hp : Strategic p) (hf : ∀ a, Strategic (f a)) :
    Strategic (p >>= f) := fun s => (hp s).bind hf

theorem Strategic.tryCatch {p : Prog World α} {f : Exn → Prog World α} (hp : Strategic p) (hf : ∀ e, Strategic (f e)) :
    Strategic (Prog.tryCatch p f) := by
  intro s
  refine (Follows.seq (f := fun r w => match r with
    | .ok a => (.ok a, w)
    | .throw e => f e w
    | .ub u => (.ub u, w)) (hp s) ?_).congr ?_
  · rintro (a | e | u)
    · exact Strategic.pure a
    · exact hf e
    · exact Strategic.undef u
  · intro env n trace
    simp only [Prog.tryCatch]
    rcases p ⟨s, env, n, trace⟩ with ⟨(a | e | u), w'⟩ <;> rfl

theorem Strategic.catchLL {p a b : Prog World α} (hp : Strategic p) (ha : Strategic a) (hb : Strategic b) :
    Strategic (Session.catchLengthLogic p a b) := by
  refine Strategic.tryCatch hp (fun e => ?_)
  split
  · exact ha
  · split
    · exact hb
    · exact Strategic.raise e

/-- Reading the world is harmless when only the session is used. -/
theorem Spec.Follows.get {f : World → Prog World β} {s : Session}
    (same : ∀ w w', w.s = s → w'.s = s → f w = f w') (hf : ∀ w, w.s = s → Follows (f w) s) :
    Follows ((Prog.get : Prog World World) >>= f) s := by
  refine (hf ⟨s, fun _ => ⟨false, [], 0⟩, 0, []⟩ rfl).congr ?_
  intro env n trace
  have e : ∀ w, ((Prog.get : Prog World World) >>= f) w = f w w := fun w => rfl
  rw [e]
  exact congrFun (same _ _ rfl rfl) _

theorem Strategic.get {f : World → Prog World β} (same : ∀ w w', w.s = w'.s → f w = f w') (hf : ∀ w, Strategic (f w)) :
    Strategic ((Prog.get : Prog World World) >>= f) :=
  fun s => Follows.get (fun w w' h h' => same w w' (h.trans h'.symm)) (fun w _ => hf w s)

theorem Strategic.modify (g : Session → Session) :
    Strategic (Prog.modify (fun w : World => { w with s := g w.s })) :=
  fun s => .done (.ok ()) (g s) fun _ _ _ => rfl

theorem Strategic.local {δ : Type} (init : δ) (p : Prog δ Unit) : Strategic (Session.onLocal init p : Prog World δ) := by
  intro s
  rcases h : p init with ⟨(a | e | u), d⟩
  · exact .done (.ok d) s fun _ _ _ => by simp only [Session.onLocal, h]
  · exact .done (.throw e) s fun _ _ _ => by simp only [Session.onLocal, h]
  · exact .done (.ub u) s fun _ _ _ => by simp only [Session.onLocal, h]

theorem Strategic.parsePacket (bytes : Bytes) : Strategic (Session.parsePacket bytes : Prog World EncapPacket) := by
  intro s
  rcases h : EncapPacket.deserialize (EncapPacket.new, .buffer (BufferReader.new bytes)) with ⟨(a | e | u), d⟩
  · exact .done (.ok d.1) s fun _ _ _ => by simp only [Session.parsePacket, h]
  · exact .done (.throw e) s fun _ _ _ => by simp only [Session.parsePacket, h]
  · exact .done (.ub u) s fun _ _ _ => by simp only [Session.parsePacket, h]

theorem Strategic.vector (n : Nat) (p : Prog Writer Unit) : Strategic (serializeToVector n p : Prog World Bytes) := by
  intro s
  rcases h : p (.buffer (BufferWriter.new (List.replicate n 0))) with ⟨(a | e | u), (d | d)⟩
  · exact .done (.ok d.memory) s fun _ _ _ => by simp only [serializeToVector, h]
  · exact .done (.ok (List.replicate n 0)) s fun _ _ _ => by simp only [serializeToVector, h]
  · exact .done (.throw e) s fun _ _ _ => by simp only [serializeToVector, h]
  · exact .done (.throw e) s fun _ _ _ => by simp only [serializeToVector, h]
  · exact .done (.ub u) s fun _ _ _ => by simp only [serializeToVector, h]
  · exact .done (.ub u) s fun _ _ _ => by simp only [serializeToVector, h]

/-! ### The sockets -/

theorem Strategic.sockOpen (x : Sock) (host port : String) : Strategic (sockOpen x host port) := by
  intro s
  refine ⟨.ask (.open x host port) (fun ev => .done (if ev = .opened x host port true then .ok () else .throw systemError) s), ?_⟩
  intro env n trace
  simp only [Eip.sockOpen, sockCall, Prog.bind_def, Prog.andThen, Strategy.exec, SockReq.event]
  by_cases h : (env n).fails = true <;> simp [h, Pure.pure, Prog.ret]

theorem Strategic.sockClose (x : Sock) : Strategic (sockClose x) := by
  intro s
  refine ⟨.ask (.close x) (fun ev => .done (if ev = .closed x true then .ok () else .throw systemError) s), ?_⟩
  intro env n trace
  simp only [Eip.sockClose, sockCall, Prog.bind_def, Prog.andThen, Strategy.exec, SockReq.event]
  by_cases h : (env n).fails = true <;> simp [h, Pure.pure, Prog.ret]

/-- A send whose result is not used. -/
theorem Strategic.sendBuffer (x : Sock) (bytes : Bytes) {f : Prog World β} (hf : Strategic f) :
    Strategic (sockSendBuffer x bytes >>= fun _ => f) := by
  have h0 : Strategic ((sockSendBuffer x bytes >>= fun _ => Pure.pure ()) : Prog World Unit) := by
    intro s
    refine ⟨.ask (.send x bytes) (fun ev => .done (if ev = .sent x bytes true then .ok () else .throw systemError) s), ?_⟩
    intro env n trace
    simp only [sockSendBuffer, sockCall, Prog.bind_def, Prog.andThen, Strategy.exec, SockReq.event]
    by_cases h : (env n).fails = true <;> simp [h, Pure.pure, Prog.ret]
  have e : (sockSendBuffer x bytes >>= fun _ => f) = ((sockSendBuffer x bytes >>= fun _ => Pure.pure ()) >>= fun _ => f) := by
    funext w
    simp only [Prog.bind_def, Prog.andThen]
    rcases sockSendBuffer x bytes w with ⟨(a | e | u), w'⟩ <;> rfl
  rw [e]
  exact h0.bind fun _ => hf

theorem Strategic.sockSend (x : Sock) (o : Obj) {f : Prog World β} (hf : Strategic f) :
    Strategic (sockSend x o >>= fun _ => f) := by
  have e : (Eip.sockSend x o >>= fun _ => f) =
      ((serializeToVector o.getLength o.serialize : Prog World Bytes) >>= fun bs => sockSendBuffer x bs >>= fun _ => f) := by
    funext w
    simp only [Eip.sockSend, Prog.bind_def, Prog.andThen]
    rcases (serializeToVector o.getLength o.serialize : Prog World Bytes) w with ⟨(a | e | u), w'⟩ <;> rfl
  rw [e]
  exact (Strategic.vector _ _).bind fun bs => Strategic.sendBuffer x bs hf

/-- The bytes of a successful receive. -/
def Ev.delivered : Ev → Option Bytes
  | .received _ data true => some data
  | _ => none

theorem Strategic.sockReceive (x : Sock) : Strategic (sockReceive x) := by
  intro s
  refine ⟨.ask (.receive x) (fun ev => match ev.delivered with
    | some data => .done (.ok ((data ++ s.recvBuffer.drop data.length).take data.length))
        { s with recvBuffer := data ++ s.recvBuffer.drop data.length }
    | none => .done (.throw systemError) s), ?_⟩
  intro env n trace
  simp only [Eip.sockReceive, sockCall, Prog.bind_def, Prog.andThen, Strategy.exec, SockReq.event, recvCapacity]
  by_cases h : (env n).fails = true
  · simp [h, Ev.delivered, Strategy.exec]
  · simp [h, Ev.delivered, Strategy.exec, Prog.modify, Prog.get, Pure.pure, Prog.ret]

/-! ### The functions of the session -/

theorem Strategic.closeSockets : Strategic Session.closeSockets :=
  (Strategic.sockClose .tcp).bind fun _ => Strategic.sockClose .io

theorem Strategic.checkPacket (pkt : EncapPacket) (cmd : UInt16) : Strategic (Session.checkPacket pkt cmd) := by
  refine Strategic.get ?_ ?_
  · rintro ⟨s, _, _, _⟩ ⟨s', _, _, _⟩ h
    cases h
    rfl
  · intro w
    repeat' split
    all_goals first | exact Strategic.raise _ | exact Strategic.pure _

theorem Strategic.sendCommand (req : EncapPacket) : Strategic (Session.sendCommand req) :=
  Strategic.sockSend _ _ ((Strategic.sockReceive _).bind fun _ => (Strategic.parsePacket _).bind fun _ =>
    (Strategic.checkPacket _ _).bind fun _ => Strategic.pure _)

theorem Strategic.parseRegistration (r : EncapPacket) : Strategic (Session.parseRegistration r) :=
  Strategic.catchLL ((Strategic.local _ _).bind fun _ => Strategic.pure _) (Strategic.pure _) (Strategic.pure _)

theorem Strategic.open (host port ioPort : String) : Strategic (Session.open host port ioPort) := by
  refine (Strategic.sockOpen _ _ _).bind fun _ => (Strategic.sockOpen _ _ _).bind fun _ =>
    (Strategic.catchLL (Strategic.sendCommand _) (Strategic.closeSockets.bind fun _ => Strategic.raise _)
      (Strategic.closeSockets.bind fun _ => Strategic.raise _)).bind fun response =>
    (Strategic.parseRegistration response).bind fun d => ?_
  have adopt : Strategic (Prog.modify fun w : World => { w with s := { w.s with sessionId := response.header.sessionHandle } }) :=
    Strategic.modify fun s => { s with sessionId := response.header.sessionHandle }
  rcases d with _ | d
  · exact adopt
  · dsimp only
    split
    · exact Strategic.closeSockets.bind fun _ => Strategic.raise _
    · exact adopt

theorem Strategic.close : Strategic Session.close := by
  refine Strategic.get ?_ ?_
  · rintro ⟨s, _, _, _⟩ ⟨s', _, _, _⟩ h
    cases h
    rfl
  · intro w
    exact Strategic.sockSend _ _ (Strategic.closeSockets.bind fun _ => Strategic.modify fun s => { s with sessionId := 0 })

theorem Strategic.destroy : Strategic Session.destroy := by
  refine Strategic.tryCatch (Strategic.get ?_ ?_) fun _ => Strategic.pure _
  · rintro ⟨s, _, _, _⟩ ⟨s', _, _, _⟩ h
    cases h
    rfl
  · intro w
    split
    · exact Strategic.close
    · exact Strategic.pure _

theorem Strategic.sendRR (service : UInt8) (path : Path) (data : Option Obj) :
    Strategic (Session.sendRRDataCommand service path data) := by
  refine Strategic.get ?_ ?_
  · rintro ⟨s, _, _, _⟩ ⟨s', _, _, _⟩ h
    cases h
    rfl
  · intro w
    refine (Strategic.catchLL (Strategic.sendCommand _) (Strategic.raise _) (Strategic.raise _)).bind fun _ =>
      (Strategic.catchLL (Strategic.local _ _) (Strategic.raise _) (Strategic.raise _)).bind fun _ => ?_
    split
    · exact Strategic.raise _
    · exact Strategic.pure _

theorem Strategic.getAttribute {δ : Type} (c : Class δ) (x y z : UInt8) (init : δ) :
    Strategic (fun w => match Session.getSingleAttributeSerializable c x y z (init, w) with
      | (r, (d, w')) => ((r, d), w')) := by
  intro s
  refine (Follows.seq (f := fun r w => match r with
    | .ok resp => (resp.getResponseDataAs c init, w)
    | .throw e => ((.throw e, init), w)
    | .ub u => ((.ub u, init), w)) (Strategic.sendRR 0x0E (Path.mk3 x y z) none s) ?_).congr ?_
  · rintro (resp | e | u) s
    · exact .done _ s fun _ _ _ => rfl
    · exact .done _ s fun _ _ _ => rfl
    · exact .done _ s fun _ _ _ => rfl
  · intro env n trace
    rw [getAttr_eq]
    rcases Session.sendRRDataCommand 0x0E (Path.mk3 x y z) none ⟨s, env, n, trace⟩ with ⟨(a | e | u), w'⟩ <;> rfl

theorem Strategic.setAttribute (x y z : UInt8) (data : Option Obj) :
    Strategic (Session.setSingleAttributeSerializable x y z data) :=
  (Strategic.sendRR _ _ _).bind fun _ => Strategic.pure _

theorem Strategic.createConnection (o t : ConnectionInfo) : Strategic (Session.createConnection o t) := by
  refine Strategic.get ?_ ?_
  · rintro ⟨s, _, _, _⟩ ⟨s', _, _, _⟩ h
    cases h
    rfl
  · intro w
    refine (Strategic.modify fun s => { s with
      nextConnectionSn := s.nextConnectionSn + 1
      nextConnectionId := s.nextConnectionId + 1 + 1 }).bind fun _ => (Strategic.sendRR _ _ _).bind fun _ =>
      (Strategic.local _ _).bind fun result => ?_
    split
    · exact Strategic.raise _
    · next conn' _ =>
      refine (Strategic.modify fun s => { s with connections := s.connections ++ [conn'] }).bind fun _ => Strategic.get ?_ ?_
      · rintro ⟨s, _, _, _⟩ ⟨s', _, _, _⟩ h
        cases h
        rfl
      · intro w
        exact Strategic.pure _

theorem Strategic.closeConnection (n : Nat) : Strategic (Session.closeConnection n) := by
  refine Strategic.get ?_ ?_
  · rintro ⟨s, _, _, _⟩ ⟨s', _, _, _⟩ h
    cases h
    rfl
  · intro w
    split
    · exact Strategic.undef _
    · refine (Strategic.sendRR _ _ _).bind fun _ => (Strategic.local _ _).bind fun result => Strategic.get ?_ ?_
      · rintro ⟨s, _, _, _⟩ ⟨s', _, _, _⟩ h
        cases h
        rfl
      · intro w
        split
        · exact Strategic.undef _
        · split
          · exact Strategic.modify fun s => { s with connections := s.connections.eraseIdx n }
          · exact Strategic.raise _

theorem Strategic.getConnection (n : Nat) : Strategic (Session.getConnection n) := by
  refine Strategic.get ?_ ?_
  · rintro ⟨s, _, _, _⟩ ⟨s', _, _, _⟩ h
    cases h
    rfl
  · intro w
    split
    · exact Strategic.undef _
    · exact Strategic.pure _

theorem Strategic.receiveIO : Strategic Session.receiveIOPacket :=
  (Strategic.sockReceive _).bind fun _ => Strategic.local _ _

theorem Strategic.sendIO (pkt : CPFPacket) : Strategic (Session.sendIOPacket pkt) :=
  Strategic.sockSend _ _ (Strategic.pure _)

theorem Strategic.forget {p : Prog World α} (hp : Strategic p) : Strategic p.forget := hp.bind fun _ => Strategic.pure _

theorem Strategic.op (op : Op) : Strategic op.run := by
  cases op with
  | «open» h p i => exact Strategic.open h p i
  | close => exact Strategic.close
  | getAttribute δ c init x y z =>
    intro s
    refine (Follows.seq (f := fun r w => (r.1, w)) (Strategic.getAttribute c x y z init s) ?_).congr ?_
    · intro r s
      exact .done _ s fun _ _ _ => rfl
    · intro env n trace
      simp only [Op.run]
  | setAttribute x y z d => exact Strategic.setAttribute x y z d
  | createConnection o t => exact (Strategic.createConnection o t).forget
  | closeConnection n => exact Strategic.closeConnection n
  | getConnection n => exact (Strategic.getConnection n).forget
  | receiveIOPacket => exact Strategic.receiveIO.forget
  | sendIOPacket p => exact Strategic.sendIO p

theorem Strategic.outcomes (ops : List Op) : Strategic (outcomes ops) := by
  induction ops with
  | nil => exact fun s => .done _ s fun _ _ _ => rfl
  | cons op ops ih =>
    intro s
    refine (Follows.seq (f := fun r w => match r with
      | .ub u => ([.ub u], w)
      | r => Prod.map (r :: ·) id (Spec.outcomes ops w)) (Strategic.op op s) ?_).congr ?_
    · have go : ∀ r : Res Unit, Strategic (fun w => Prod.map (r :: ·) id (Spec.outcomes ops w)) := by
        intro r s
        exact (Follows.seq (f := fun l w => (r :: l, w)) (ih s) fun l s => .done _ s fun _ _ _ => rfl).congr
          fun _ _ _ => rfl
      rintro (a | e | u)
      · exact go _
      · exact go _
      · exact fun s => .done _ s fun _ _ _ => rfl
    · intro env n trace
      simp only [Spec.outcomes]
      rcases op.run ⟨s, env, n, trace⟩ with ⟨(a | e | u), w'⟩ <;> rfl

/-! ### What follows from it -/

theorem exec_trace {ρ : Type} (t : Strategy ρ) (env : Nat → Answer) (n : Nat) (trace : List Ev) :
    ∃ evs, (t.exec env n trace).2.trace = trace ++ evs ∧ (t.exec env n trace).2.clock = n + evs.length := by
  induction t generalizing n trace with
  | done r s => exact ⟨[], by simp [Strategy.exec], rfl⟩
  | ask call next ih =>
    obtain ⟨evs, h, hc⟩ := ih (call.event (env n)) (n + 1) (trace ++ [call.event (env n)])
    refine ⟨call.event (env n) :: evs, ?_, ?_⟩
    · simp only [Strategy.exec]
      rw [h, List.append_assoc]
      rfl
    · simp only [Strategy.exec]
      rw [hc, List.length_cons]
      omega

/-- Two runs of a strategy are the same, or they differ first in an answer. -/
theorem exec_differ {ρ : Type} (t : Strategy ρ) (env env' : Nat → Answer) (n n' : Nat) (trace trace' : List Ev) :
    (∃ evs, (t.exec env n trace).2.trace = trace ++ evs ∧ (t.exec env' n' trace').2.trace = trace' ++ evs ∧
      (t.exec env n trace).1 = (t.exec env' n' trace').1 ∧ (t.exec env n trace).2.s = (t.exec env' n' trace').2.s) ∨
    (∃ (pre : List Ev) (call : SockReq) (a a' : Answer) (rest rest' : List Ev), call.event a ≠ call.event a' ∧
      (t.exec env n trace).2.trace = trace ++ pre ++ call.event a :: rest ∧
      (t.exec env' n' trace').2.trace = trace' ++ pre ++ call.event a' :: rest') := by
  induction t generalizing n n' trace trace' with
  | done r s => exact .inl ⟨[], by simp [Strategy.exec], by simp [Strategy.exec], rfl, rfl⟩
  | ask call next ih =>
    by_cases h : call.event (env n) = call.event (env' n')
    · rcases ih (call.event (env n)) (n + 1) (n' + 1) (trace ++ [call.event (env n)]) (trace' ++ [call.event (env' n')])
        with ⟨evs, h1, h2, h3, h4⟩ | ⟨pre, c, a, a', rest, rest', hne, h1, h2⟩
      · refine .inl ⟨call.event (env n) :: evs, ?_, ?_, ?_, ?_⟩
        · simp only [Strategy.exec]; rw [h1, List.append_assoc]; rfl
        · simp only [Strategy.exec]; rw [← h, ← h] at *; rw [h2, List.append_assoc]; rfl
        · simp only [Strategy.exec]; rw [← h]; rw [← h] at h3; exact h3
        · simp only [Strategy.exec]; rw [← h]; rw [← h] at h4; exact h4
      · refine .inr ⟨call.event (env n) :: pre, c, a, a', rest, rest', hne, ?_, ?_⟩
        · simp only [Strategy.exec]; rw [h1]; simp
        · simp only [Strategy.exec]; rw [← h]; rw [← h] at h2; rw [h2]; simp
    · obtain ⟨r1, h1, _⟩ := exec_trace (next (call.event (env n))) env (n + 1) (trace ++ [call.event (env n)])
      obtain ⟨r2, h2, _⟩ := exec_trace (next (call.event (env' n'))) env' (n' + 1) (trace' ++ [call.event (env' n')])
      refine .inr ⟨[], call, env n, env' n', r1, r2, h, ?_, ?_⟩
      · simp only [Strategy.exec]; rw [h1]; simp
      · simp only [Strategy.exec]; rw [h2]; simp

/-- Against every reaction there is a run, given by finitely many answers. -/
theorem exec_played {ρ : Type} (react : Reaction) (t : Strategy ρ) (n : Nat) (trace : List Ev) :
    ∃ answers : List Answer, ∀ env : Nat → Answer, (∀ i a, answers[i]? = some a → env (n + i) = a) →
      ∃ evs, (t.exec env n trace).2.trace = trace ++ evs ∧ evs.length = answers.length ∧ Played react trace evs := by
  induction t generalizing n trace with
  | done r s => exact ⟨[], fun env _ => ⟨[], by simp [Strategy.exec], rfl, trivial⟩⟩
  | ask call next ih =>
    obtain ⟨as, h⟩ := ih (call.event (react trace call)) (n + 1) (trace ++ [call.event (react trace call)])
    refine ⟨react trace call :: as, fun env he => ?_⟩
    have e0 : env n = react trace call := he 0 _ rfl
    obtain ⟨evs, h1, h2, h3⟩ := h env (fun i a hi => by
      have := he (i + 1) a hi
      rwa [show n + 1 + i = n + (i + 1) by omega])
    refine ⟨call.event (react trace call) :: evs, ?_, by simp [h2], ⟨call, rfl⟩, h3⟩
    simp only [Strategy.exec]
    rw [e0, h1, List.append_assoc]
    rfl

end Eip
