import Verif.Lemmas.Rehearsed
/-
C125: what a test on fake sockets says about the session.
-/
namespace Eip
open Spec

variable {dns : String → String → List Endpoint}

/-- C125: from every session, all sockets and every sequence of lines a test runs, in exactly one way: outcomes, socket
calls, the session at the end and what the sockets have recorded are determined. -/
theorem c125_determined (s : Session) (k : Fakes) (lines : List TestLine) :
    ∃ outs evs s' k', Rehearsal s k lines outs evs s' k' ∧
      ∀ outs2 evs2 s2 k2, Rehearsal s k lines outs2 evs2 s2 k2 → outs2 = outs ∧ evs2 = evs ∧ s2 = s' ∧ k2 = k' := by
  induction lines generalizing s k with
  | nil =>
    refine ⟨[], [], s, k, .nil s k, fun _ _ _ _ h => ?_⟩
    cases h
    exact ⟨rfl, rfl, rfl, rfl⟩
  | cons line lines ih =>
    cases line with
    | script x b =>
      obtain ⟨outs, evs, s', k', h, one⟩ := ih s (k.set x { k.sock x with rx := b })
      refine ⟨outs, evs, s', k', .script x b h, fun _ _ _ _ h' => ?_⟩
      cases h' with
      | script _ _ t => exact one _ _ _ _ t
    | clear x =>
      obtain ⟨outs, evs, s', k', h, one⟩ := ih s (k.set x (k.sock x).clear)
      refine ⟨outs, evs, s', k', .clear x h, fun _ _ _ _ h' => ?_⟩
      cases h' with
      | clear _ t => exact one _ _ _ _ t
    | call op =>
      obtain ⟨env, r, w, k1, run, fakes⟩ := op_fakes op s k
      by_cases hu : ∃ u, r = .ub u
      · obtain ⟨u, rfl⟩ := hu
        refine ⟨_, _, _, _, .crash op env u w run fakes, fun _ _ _ _ h' => ?_⟩
        cases h' with
        | call _ env' r' w' run' fakes' defined' t =>
          obtain ⟨-, e, -⟩ := op_fakes_one run fakes run' fakes'
          exact absurd e.symm (defined' u)
        | crash _ env' u' w' run' fakes' =>
          obtain ⟨a, e, b, c⟩ := op_fakes_one run fakes run' fakes'
          cases e
          exact ⟨rfl, a.symm, b.symm, c.symm⟩
      · obtain ⟨outs, evs, s', k', h, one⟩ := ih w.s k1
        refine ⟨_, _, _, _, .call op env r w run fakes (fun u e => hu ⟨u, e⟩) h, fun _ _ _ _ h' => ?_⟩
        cases h' with
        | call _ env' r' w' run' fakes' defined' t =>
          obtain ⟨a, rfl, b, rfl⟩ := op_fakes_one run fakes run' fakes'
          rw [← b] at t
          obtain ⟨rfl, rfl, rfl, rfl⟩ := one _ _ _ _ t
          exact ⟨rfl, by rw [a], rfl, rfl⟩
        | crash _ env' u' w' run' fakes' =>
          obtain ⟨-, e, -⟩ := op_fakes_one run fakes run' fakes'
          exact absurd ⟨u', e⟩ hu

theorem Rehearsal.records {s s' : Session} {k k' : Fakes} {lines : List TestLine} {outs : List (Op × Res Unit)} {evs : List Ev}
    (h : Rehearsal s k lines outs evs s' k') {x : Sock} (never : NeverClears x lines) :
    ∀ acc, Records (k.sock x) acc → Records (k'.sock x) (acc ++ sentOn x evs) := by
  induction h with
  | nil => intro acc r; simpa [sentOn] using r
  | @script s s' k k' lines outs evs y b t ih =>
    intro acc r
    refine ih (fun h => never (List.mem_cons_of_mem _ h)) acc ?_
    rw [Fakes.sock_set]
    split
    · next e => subst e; exact r
    · exact r
  | @clear s s' k k' lines outs evs y t ih =>
    intro acc r
    refine ih (fun h => never (List.mem_cons_of_mem _ h)) acc ?_
    rw [Fakes.sock_set, if_neg]
    · exact r
    · rintro rfl
      exact never List.mem_cons_self
  | call op env r w run fakes defined t ih =>
    intro acc r
    rw [sentOn_append, ← List.append_assoc]
    exact ih (fun h => never (List.mem_cons_of_mem _ h)) _ (Fakes.takeAll_records fakes x r)
  | crash op env u w run fakes => intro acc r; exact Fakes.takeAll_records fakes x r


/-- C125: if a test starts with a new socket and does not clear it, the socket has recorded everything the session has sent
on it, in order, up to its capacity of 4096 bytes. -/
theorem c125_recorded {s s' : Session} {k k' : Fakes} {lines : List TestLine} {outs : List (Op × Res Unit)} {evs : List Ev}
    (h : Rehearsal s k lines outs evs s' k') (fresh : Spec.Fakes.Fresh k) (x : Sock) (never : NeverClears x lines) :
    (k'.sock x).txBuffer.take (k'.sock x).txCount = (sentOn x evs).take 4096 := by
  obtain ⟨mem, rx, capacity, e⟩ := fresh x
  have := (h.records never [] (by rw [e]; exact ⟨capacity, rfl, rfl⟩)).2.1
  simpa [TestSocket.recorded] using this

/-- C125: the same holds from the last time a socket was cleared. -/
theorem c125_cleared {s s' : Session} {k k' : Fakes} {lines : List TestLine} {outs : List (Op × Res Unit)} {evs : List Ev}
    {x : Sock} (h : Rehearsal s k (.clear x :: lines) outs evs s' k') (capacity : (k.sock x).txBuffer.length = 4096)
    (never : NeverClears x lines) : (k'.sock x).txBuffer.take (k'.sock x).txCount = (sentOn x evs).take 4096 := by
  cases h with
  | clear _ h =>
    have start : Records ((k.set x (k.sock x).clear).sock x) [] := by
      rw [Fakes.sock_set, if_pos rfl]
      exact ⟨by simp [TestSocket.clear, capacity], rfl, rfl⟩
    simpa [TestSocket.recorded] using (h.records never [] start).2.1

/-- C125: if a test does not change the script of a socket, the session receives the bytes of the script, in order, and what
it has not received is left. -/
theorem c125_script {s s' : Session} {k k' : Fakes} {lines : List TestLine} {outs : List (Op × Res Unit)} {evs : List Ev}
    (h : Rehearsal s k lines outs evs s' k') (x : Sock) (never : NeverScripts x lines) :
    (k.sock x).rx = receivedOn x evs ++ (k'.sock x).rx := by
  induction h with
  | nil => rfl
  | @script s s' k k' lines outs evs y b t ih =>
    rw [← ih fun b h => never b (List.mem_cons_of_mem _ h), Fakes.sock_set, if_neg]
    rintro rfl
    exact never b List.mem_cons_self
  | @clear s s' k k' lines outs evs y t ih =>
    rw [← ih fun b h => never b (List.mem_cons_of_mem _ h), Fakes.sock_set]
    split
    · next e => subst e; rfl
    · rfl
  | call op env r w run fakes defined t ih =>
    rw [Fakes.takeAll_script fakes x, ih fun b h => never b (List.mem_cons_of_mem _ h), receivedOn_append, List.append_assoc]
  | crash op env u w run fakes => exact Fakes.takeAll_script fakes x

/-- C125: the same holds from the last time the script was set. -/
theorem c125_rescripted {s s' : Session} {k k' : Fakes} {lines : List TestLine} {outs : List (Op × Res Unit)} {evs : List Ev}
    {x : Sock} {bytes : Bytes} (h : Rehearsal s k (.script x bytes :: lines) outs evs s' k') (never : NeverScripts x lines) :
    bytes = receivedOn x evs ++ (k'.sock x).rx := by
  cases h with
  | script _ _ h =>
    rw [← c125_script h x never, Fakes.sock_set, if_pos rfl]

/-- C125: a test can be cut anywhere: unless it has ended before, its second part goes on from the session and the sockets
the first part has left. -/
theorem c125_parts {s s1 s2 : Session} {k k1 k2 : Fakes} {lines more : List TestLine} {outs outs' : List (Op × Res Unit)}
    {evs evs' : List Ev} (h : Rehearsal s k lines outs evs s1 k1) (defined : ∀ x ∈ outs, ∀ u, x.2 ≠ .ub u) :
    Rehearsal s1 k1 more outs' evs' s2 k2 → Rehearsal s k (lines ++ more) (outs ++ outs') (evs ++ evs') s2 k2 := by
  induction h with
  | nil => exact id
  | script x b t ih => exact fun g => .script x b (ih defined g)
  | clear x t ih => exact fun g => .clear x (ih defined g)
  | call op env r w run fakes ok t ih =>
    intro g
    rw [List.append_assoc]
    exact .call op env r w run fakes ok (ih (fun x hx => defined x (List.mem_cons_of_mem _ hx)) g)
  | crash op env u w run fakes => exact absurd rfl (defined _ List.mem_cons_self u)

/-! ### The sockets of the library -/

/-- Both sockets open, or neither. -/
def Spec.Line.both (isOpen : Bool) : Line := ⟨isOpen, isOpen, isOpen, isOpen⟩

theorem op_can {op : Op} {s : Session} {env : Nat → Answer} {r : Res Unit} {w : World} (run : op.run ⟨s, env, 0, []⟩ = (r, w))
    (works : ∀ ev ∈ w.trace, succeeded ev = true ∧ ∀ x b ok, ev = .received x b ok → b.length ≤ 4096)
    (bytes : ∀ b ok, Ev.received .tcp b ok ∈ w.trace → b ≠ [])
    (known : ∀ x host port ok, Ev.opened x host port ok ∈ w.trace → dns host port ≠ [])
    {isOpen : Bool} {rest : List (Op × Res Unit)} (uses : UsesWhenOpen isOpen ((op, r) :: rest)) :
    ∃ isOpen', CanAll dns (Line.both isOpen) w.trace (Line.both isOpen') ∧ ((∀ u, r ≠ .ub u) → UsesWhenOpen isOpen' rest) := by
  have fails : ∀ ev, succeeded ev = false → ev ∉ w.trace := by
    intro ev h hm
    rw [(works ev hm).1] at h
    cases h
  have cmd : IsCommand op → isOpen = true → CanAll dns (Line.both true) w.trace (Line.both true) := by
    intro hc _
    have h := command_shape hc ⟨s, env, 0, []⟩
    rw [run] at h
    rcases h with ⟨h, -⟩ | ⟨bs, h, -⟩ | ⟨bs, b, ok, h, -⟩
    · have h : w.trace = [] := h
      rw [h]; exact .nil _
    · have h : w.trace = [.sent .tcp bs false] := h
      exact absurd (by rw [h]; simp) (fails (.sent .tcp bs false) rfl)
    · have h : w.trace = [.sent .tcp bs true, .received .tcp b ok] := h
      have hm : Ev.received .tcp b ok ∈ w.trace := by rw [h]; simp
      cases ok with
      | false => exact absurd hm (fails _ rfl)
      | true =>
        rw [h]
        exact .cons (.sends _ _ rfl) (.cons (.receives _ _ rfl (bytes b true hm) ((works _ hm).2 _ _ _ rfl)) (.nil _))
  cases op with
  | «open» host port ioPort =>
    obtain ⟨rfl, uses⟩ := uses
    have hc := open_cases host port ioPort ⟨s, env, 0, []⟩
    have run' : Session.open host port ioPort ⟨s, env, 0, []⟩ = (r, w) := run
    rw [run'] at hc
    clear run run' cmd
    have up : ∀ more line b, w.trace = openEvents host port ioPort b ++ more →
        CanAll dns (Line.both true) more line → CanAll dns (Line.both false) w.trace line := by
      intro more line b h c
      have hm : Ev.received .tcp b true ∈ w.trace := by rw [h]; simp [openEvents]
      have k1 : dns host port ≠ [] := known .tcp host port true (by rw [h]; simp [openEvents])
      have k2 : dns host ioPort ≠ [] := known .io host ioPort true (by rw [h]; simp [openEvents])
      rw [h]
      exact .cons (.connects _ _ _ k1) (.cons (.opens _ _ _ k2 rfl) (.cons (.sends _ _ rfl)
        (.cons (.receives _ _ rfl (bytes b true hm) ((works _ hm).2 _ _ _ rfl)) c)))
    generalize hx : ((r, w) : Res Unit × World) = x at hc
    cases hc with
    | tcpFails => cases hx; exact absurd (by simp [World.log]) (fails (.opened .tcp host port false) rfl)
    | ioFails => cases hx; exact absurd (by simp [World.log]) (fails (.opened .io host ioPort false) rfl)
    | sendFails => cases hx; exact absurd (by simp [World.log]) (fails (.sent .tcp registration false) rfl)
    | receiveFails =>
      cases hx
      exact absurd (by simp [World.log]) (fails (.received .tcp (delivered env (0 + 3)) false) rfl)
    | registered handle =>
      cases hx
      exact ⟨true, up [] _ _ (by simp [World.replied, World.logS]; rfl) (.nil _), fun _ => uses⟩
    | hollow =>
      cases hx
      exact ⟨true, up [] _ _ (by simp [World.replied, World.logS]; rfl) (.nil _), fun h => absurd rfl (h _)⟩
    | rejected what =>
      cases hx
      exact ⟨false, up _ _ _ (by simp [World.replied, World.logS]; rfl) (.cons (.disconnects _) (.cons (.closes _) (.nil _))),
        fun _ => uses⟩
    | tcpCloseFails => cases hx; exact absurd (by simp [World.replied, World.logS]) (fails (.closed .tcp false) rfl)
    | ioCloseFails => cases hx; exact absurd (by simp [World.replied, World.logS]) (fails (.closed .io false) rfl)
  | close =>
    obtain ⟨rfl, uses⟩ := uses
    have hc := close_cases ⟨s, env, 0, []⟩
    have run' : Session.close ⟨s, env, 0, []⟩ = (r, w) := run
    rw [run'] at hc
    clear run run' cmd
    generalize hx : ((r, w) : Res Unit × World) = x at hc
    cases hc with
    | sendFails =>
      cases hx; exact absurd (by simp [World.log]) (fails (.sent .tcp (request 0x66 s.sessionId []) false) rfl)
    | tcpFails => cases hx; exact absurd (by simp [World.log]) (fails (.closed .tcp false) rfl)
    | ioFails => cases hx; exact absurd (by simp [World.log]) (fails (.closed .io false) rfl)
    | closed =>
      cases hx
      exact ⟨false, .cons (.sends _ _ rfl) (.cons (.disconnects _) (.cons (.closes _) (.nil _))), fun _ => uses⟩
  | getAttribute δ c init x y z => exact ⟨true, by rw [uses.1]; exact cmd trivial uses.1, fun _ => uses.2⟩
  | setAttribute x y z d => exact ⟨true, by rw [uses.1]; exact cmd trivial uses.1, fun _ => uses.2⟩
  | createConnection o t => exact ⟨true, by rw [uses.1]; exact cmd trivial uses.1, fun _ => uses.2⟩
  | closeConnection n => exact ⟨true, by rw [uses.1]; exact cmd trivial uses.1, fun _ => uses.2⟩
  | getConnection n =>
    have h := getConnection_world n ⟨s, env, 0, []⟩
    rw [run] at h
    have h : w = ⟨s, env, 0, []⟩ := h
    exact ⟨isOpen, by rw [h]; exact .nil _, fun _ => uses⟩
  | receiveIOPacket =>
    obtain ⟨rfl, uses⟩ := uses
    obtain ⟨ok, s', h, -⟩ := receiveIO_world ⟨s, env, 0, []⟩
    rw [run] at h
    have h : w.trace = [.received .io (delivered env 0) ok] := congrArg World.trace h
    have hm : Ev.received .io (delivered env 0) ok ∈ w.trace := by rw [h]; simp
    cases ok with
    | false => exact absurd hm (fails _ rfl)
    | true =>
      refine ⟨true, ?_, fun _ => uses⟩
      rw [h]
      exact .cons (.receivesIO _ _ rfl rfl ((works _ hm).2 _ _ _ rfl)) (.nil _)
  | sendIOPacket p =>
    obtain ⟨rfl, uses⟩ := uses
    refine ⟨true, ?_, fun _ => uses⟩
    rcases sendIO_world p ⟨s, env, 0, []⟩ with h | ⟨bs, ok, -, h⟩
    · rw [run] at h
      have h : w = ⟨s, env, 0, []⟩ := h
      rw [h]; exact .nil _
    · rw [run] at h
      have h : w.trace = [.sent .io bs ok] := congrArg World.trace h
      cases ok with
      | false => exact absurd (by rw [h]; simp) (fails (.sent .io bs false) rfl)
      | true => rw [h]; exact .cons (.sendsIO _ _ rfl) (.nil _)

theorem Rehearsal.can {s s' : Session} {k k' : Fakes} {lines : List TestLine} {outs : List (Op × Res Unit)} {evs : List Ev}
    (h : Rehearsal s k lines outs evs s' k') (bytes : ∀ b ok, Ev.received .tcp b ok ∈ evs → b ≠ [])
    (known : ∀ x host port ok, Ev.opened x host port ok ∈ evs → dns host port ≠ []) {isOpen : Bool}
    (uses : UsesWhenOpen isOpen outs) : ∃ line, CanAll dns (Line.both isOpen) evs line := by
  induction h generalizing isOpen with
  | nil => exact ⟨_, .nil _⟩
  | script x b t ih => exact ih bytes known uses
  | clear x t ih => exact ih bytes known uses
  | call op env r w run fakes defined t ih =>
    obtain ⟨isOpen', h1, h2⟩ := op_can run (Fakes.takeAll_succeed fakes)
      (fun b ok h => bytes b ok (List.mem_append_left _ h))
      (fun x host port ok h => known x host port ok (List.mem_append_left _ h)) uses
    obtain ⟨line, h3⟩ := ih (fun b ok h => bytes b ok (List.mem_append_right _ h))
      (fun x host port ok h => known x host port ok (List.mem_append_right _ h)) (h2 defined)
    exact ⟨line, h1.append h3⟩
  | crash op env u w run fakes =>
    obtain ⟨isOpen', h1, -⟩ := op_can run (Fakes.takeAll_succeed fakes) bytes known uses
    exact ⟨_, h1⟩

/-- C125 (partial: tests that open the session before they use it, do not open it twice, and whose scripts do not run out).
What a test shows can happen on the sockets of the library: over new sockets of the library, with a suitable device, the
same calls have the same outcomes and leave the session in the same state, and the session makes the same socket calls.
Missing: other tests, for which it is false (`c125_violated`, `c125_violated_twice`). -/
theorem c125_real_partial {s s' : Session} {k k' : Fakes} {lines : List TestLine} {outs : List (Op × Res Unit)} {evs : List Ev}
    (h : Rehearsal s k lines outs evs s' k') (uses : UsesWhenOpen false outs)
    (bytes : ∀ b ok, Ev.received .tcp b ok ∈ evs → b ≠ [])
    (known : ∀ x host port ok, Ev.opened x host port ok ∈ evs → dns host port ≠ [])
    {sockets : Sockets} (fresh : Sockets.Fresh sockets) :
    ∃ w sockets' w', w.s = s ∧ w.trace = [] ∧ NetHistory dns sockets w outs sockets' w' ∧ w'.s = s' ∧ w'.trace = evs := by
  obtain ⟨line, can⟩ := h.can bytes known uses
  obtain ⟨answers, ho⟩ := h.outcomes
  obtain ⟨-, ho⟩ := ho (fun i => answers.getD i ⟨false, [], 0⟩) 0 [] fun i a hi => by simp [List.getD, hi]
  obtain ⟨sockets', hn⟩ := (c114_histories fresh outs _ _).2 ⟨ho, evs, line, rfl, can⟩
  exact ⟨_, sockets', _, rfl, rfl, hn, rfl, rfl⟩

/-- The reply of a device that registers a session. -/
def registeredBytes : Bytes :=
  [0x65, 0, 4, 0, 0x0d, 0xf0, 0xad, 0x0b, 0, 0, 0, 0, 0, 0, 0, 0, 0, 0, 0, 0, 0, 0, 0, 0, 1, 0, 0, 0]

/-- The reply of a device that has written an attribute. -/
def writtenBytes : Bytes :=
  [0x6f, 0, 0x14, 0, 0x0d, 0xf0, 0xad, 0x0b, 0, 0, 0, 0, 0, 0, 0, 0, 0, 0, 0, 0, 0, 0, 0, 0,
   0, 0, 0, 0, 0, 0, 2, 0, 0, 0, 0, 0, 0xb2, 0, 4, 0, 0x90, 0, 0, 0]

/-- New fake sockets. -/
def newFakes : Fakes := ⟨.new (List.replicate 4096 0) [], .new (List.replicate 4096 0) []⟩

theorem newFakes_fresh : Spec.Fakes.Fresh newFakes := by
  intro x
  cases x
  · exact ⟨_, _, List.length_replicate, rfl⟩
  · exact ⟨_, _, List.length_replicate, rfl⟩

theorem Fakes.take_reply (k : Fakes) (b : Bytes) (script : k.tcp.rx = b) (fits : b.length ≤ 4096) :
    ∃ k1, k.takeAll [.received .tcp b true] = some k1 := by
  have e : ((k.sock .tcp).receive 4096).1 = b := by
    show List.take (min 4096 k.tcp.rx.length) k.tcp.rx = b
    rw [script]
    exact List.take_of_length_le (by omega)
  exact ⟨_, by simp only [Fakes.takeAll, Fakes.take, e, if_true, Option.bind_some]; rfl⟩

/-- C125 is false: a test that never opens the session passes, although on the sockets of the library the command throws
whatever the network does. -/
theorem c125_violated : ∃ (s : Session) (k : Fakes) (op : Op) (evs : List Ev) (s' : Session) (k' : Fakes),
    Spec.Fakes.Fresh k ∧ Rehearsal s k [.call op] [(op, .ok ())] evs s' k' ∧
    ∀ (dns : String → String → List Endpoint) (sockets : Sockets), Sockets.Fresh sockets → ∀ w, w.s = s →
      ∀ r as sockets' w', NetStep dns sockets w op r as sockets' w' → r = .throw systemError := by
  have ht : ((Op.setAttribute 1 2 3 none).run ⟨Session.new 1 2 3 4 [], fun _ => ⟨false, writtenBytes, 0⟩, 0, []⟩).2.trace =
      [.sent .tcp [0x6f, 0, 0x18, 0, 0, 0, 0, 0, 0, 0, 0, 0, 0, 0, 0, 0, 0, 0, 0, 0, 0, 0, 0, 0,
        0, 0, 0, 0, 0, 0, 2, 0, 0, 0, 0, 0, 0xb2, 0, 8, 0, 0x10, 3, 0x20, 1, 0x24, 2, 0x30, 3] true,
       .received .tcp writtenBytes true] := by decide +kernel
  have hr : ((Op.setAttribute 1 2 3 none).run ⟨Session.new 1 2 3 4 [], fun _ => ⟨false, writtenBytes, 0⟩, 0, []⟩).1 = .ok () := by
    decide +kernel
  rcases run : (Op.setAttribute 1 2 3 none).run ⟨Session.new 1 2 3 4 [], fun _ => ⟨false, writtenBytes, 0⟩, 0, []⟩ with ⟨r, w⟩
  rw [run] at ht hr
  have hr : r = .ok () := hr
  subst hr
  have hk : ∀ k : Fakes, k.tcp.rx = writtenBytes → ∃ k1, k.takeAll w.trace = some k1 := by
    intro k h
    rw [show w.trace = _ from ht]
    simp only [Fakes.takeAll, Fakes.take, Option.bind_some]
    have := Fakes.take_reply (k.set .tcp (TestSocket.send [0x6f, 0, 0x18, 0, 0, 0, 0, 0, 0, 0, 0, 0, 0, 0, 0, 0, 0, 0, 0, 0, 0, 0,
      0, 0, 0, 0, 0, 0, 0, 0, 2, 0, 0, 0, 0, 0, 0xb2, 0, 8, 0, 0x10, 3, 0x20, 1, 0x24, 2, 0x30, 3] (k.sock .tcp)).2) writtenBytes h
      (by decide)
    simpa only [Fakes.takeAll, Fakes.take, Option.bind_some] using this
  obtain ⟨k, hk0, hk1⟩ : ∃ k : Fakes, Spec.Fakes.Fresh k ∧ k.tcp.rx = writtenBytes := by
    refine ⟨⟨.new (List.replicate 4096 0) writtenBytes, .new (List.replicate 4096 0) []⟩, fun x => ?_, rfl⟩
    cases x
    · exact ⟨_, _, List.length_replicate, rfl⟩
    · exact ⟨_, _, List.length_replicate, rfl⟩
  obtain ⟨k1, hk⟩ := hk k hk1
  refine ⟨_, k, _, _, _, k1, hk0, .call _ _ _ _ run hk (by simp) (.nil _ _), ?_⟩
  intro dns sockets fresh w hw r as sockets' w' h
  refine (c34_unconnected_partial (dns := dns) (by trivial) (.inl ?_) h).2.2 ⟨[], rfl⟩
  rw [fresh.1]; rfl

theorem NetHistory.first {k k'' : Sockets} {w w'' : World} {op : Op} {r : Res Unit} {ops : List (Op × Res Unit)}
    (h : NetHistory dns k w ((op, r) :: ops) k'' w'') :
    ∃ as k' w', NetStep dns k w op r as k' w' ∧ NetHistory dns k' w' ops k'' w'' := by
  generalize hl : (op, r) :: ops = l at h
  induction h with
  | nil => cases hl
  | arrive network h t ih =>
    obtain ⟨as, k', w', g, t⟩ := ih hl
    refine ⟨_, k', w', ⟨g.run, ?_, .cons h g.happen⟩, t⟩
    rw [g.trace]
    congr 1
    rw [← List.singleton_append, calls_append, network]
    rfl
  | call h defined t ih =>
    cases hl
    exact ⟨_, _, _, h, t⟩

/-- C125 is false also of tests that open the session before they use it: a test that opens it twice passes, although on
the sockets of the library the second call always throws. -/
theorem c125_violated_twice : ∃ (s : Session) (k : Fakes) (lines : List TestLine) (op : Op) (evs : List Ev) (s' : Session)
    (k' : Fakes), Spec.Fakes.Fresh k ∧ Rehearsal s k lines [(op, .ok ()), (op, .ok ())] evs s' k' ∧
    ∀ (dns : String → String → List Endpoint) (sockets sockets' : Sockets) (w w' : World),
      ¬ NetHistory dns sockets w [(op, .ok ()), (op, .ok ())] sockets' w' := by
  have hk : ∀ k : Fakes, k.tcp.rx = registeredBytes → ∃ k1, k.takeAll
      [.opened .tcp "host" "44818" true, .opened .io "host" "2222" true, .sent .tcp registration true,
        .received .tcp registeredBytes true] = some k1 := by
    intro k h
    have h' : ∀ k1, (k.takeAll [.opened .tcp "host" "44818" true, .opened .io "host" "2222" true, .sent .tcp registration true] =
        some k1) → k1.tcp.rx = registeredBytes := by
      intro k1 e
      simp only [Fakes.takeAll, Fakes.take, Option.bind_some] at e
      cases e
      exact h
    obtain ⟨k1, e⟩ : ∃ k1, k.takeAll [.opened .tcp "host" "44818" true, .opened .io "host" "2222" true,
        .sent .tcp registration true] = some k1 := ⟨_, rfl⟩
    obtain ⟨k2, e2⟩ := Fakes.take_reply k1 registeredBytes (h' k1 e) (by decide)
    refine ⟨k2, ?_⟩
    have := Fakes.takeAll_append k [.opened .tcp "host" "44818" true, .opened .io "host" "2222" true,
        .sent .tcp registration true] [.received .tcp registeredBytes true]
    rw [e, Option.bind_some, e2] at this
    exact this
  have ho : ∀ s : Session, s.sessionId = 0 ∨ s.sessionId = 0x0badf00d →
      Session.open "host" "44818" "2222" ⟨s, fun _ => ⟨false, registeredBytes, 0⟩, 0, []⟩ =
        (.ok (), { World.replied ⟨s, fun _ => ⟨false, registeredBytes, 0⟩, 0, []⟩ "host" "44818" "2222" [] with
          s := { (World.replied ⟨s, fun _ => ⟨false, registeredBytes, 0⟩, 0, []⟩ "host" "44818" "2222" []).s with
            sessionId := 0x0badf00d } }) := by
    intro s hs
    refine open_registers ⟨rfl, rfl, rfl, rfl⟩ ⟨[1, 0, 0, 0], ?_, ?_, by simp, .inr rfl⟩
    · exact ⟨⟨0x65, 4, 0x0badf00d, 0, (0, 0), 0⟩, [], rfl, rfl, rfl, rfl⟩
    · rcases hs with h | h
      · exact .inl ⟨h, by decide⟩
      · exact .inr ⟨by rw [h]; decide, h.symm⟩
  obtain ⟨k1, h1⟩ := hk (newFakes.set .tcp { newFakes.sock .tcp with rx := registeredBytes }) rfl
  obtain ⟨k2, h2⟩ := hk (k1.set .tcp { k1.sock .tcp with rx := registeredBytes }) rfl
  refine ⟨Session.new 1 2 3 4 [], newFakes, [.script .tcp registeredBytes, .call (.open "host" "44818" "2222"),
      .script .tcp registeredBytes, .call (.open "host" "44818" "2222")], .open "host" "44818" "2222", _, _, k2, newFakes_fresh,
    .script _ _ (.call _ (fun _ => ⟨false, registeredBytes, 0⟩) _ _ (ho _ (.inl rfl)) h1 (by simp)
      (.script _ _ (.call _ (fun _ => ⟨false, registeredBytes, 0⟩) _ _ (ho _ (.inr rfl)) h2 (by simp) (.nil _ _)))), ?_⟩
  intro dns sockets sockets' w w' h
  obtain ⟨as, k', w1, g, t⟩ := h.first
  obtain ⟨as', k'', w2, g', -⟩ := t.first
  obtain ⟨e, -⟩ := c31_violated_sockets g g'
  cases e

/-! ### An example -/

/-- Every call is answered with these bytes. -/
def alwaysSaying (b : Bytes) : Nat → Answer := fun _ => ⟨false, b, 0⟩

/-- A test that opens the session, writes an attribute and closes the session. It meets the conditions of
`c125_real_partial`, `c125_recorded` and, for the I/O socket, `c125_script`. -/
example : ∃ evs s' k', Rehearsal (Session.new 1 2 3 4 []) newFakes
      [.script .tcp registeredBytes, .call (.open "host" "44818" "2222"), .script .tcp writtenBytes,
       .call (.setAttribute 1 2 3 none), .call .close]
      [(.open "host" "44818" "2222", .ok ()), (.setAttribute 1 2 3 none, .ok ()), (.close, .ok ())] evs s' k' ∧
    UsesWhenOpen false [(.open "host" "44818" "2222", .ok ()), (.setAttribute 1 2 3 none, .ok ()), (.close, .ok ())] ∧
    (∀ b ok, Ev.received .tcp b ok ∈ evs → b ≠ []) ∧ sentOn .tcp evs ≠ [] ∧ Spec.Fakes.Fresh newFakes ∧
    NeverClears .tcp [.script .tcp registeredBytes, .call (.open "host" "44818" "2222"), .script .tcp writtenBytes,
      .call (.setAttribute 1 2 3 none), .call .close] ∧
    NeverScripts .io [.script .tcp registeredBytes, .call (.open "host" "44818" "2222"), .script .tcp writtenBytes,
      .call (.setAttribute 1 2 3 none), .call .close] := by
  have r1 : (Op.run (.open "host" "44818" "2222") ⟨Session.new 1 2 3 4 [], alwaysSaying registeredBytes, 0, []⟩).1 = .ok () := by
    decide +kernel
  have t1 : (Op.run (.open "host" "44818" "2222") ⟨Session.new 1 2 3 4 [], alwaysSaying registeredBytes, 0, []⟩).2.trace =
      [.opened .tcp "host" "44818" true, .opened .io "host" "2222" true] ++
      [.sent .tcp registration true] ++ [.received .tcp registeredBytes true] := by decide +kernel
  have r2 : (Op.run (.setAttribute 1 2 3 none) ⟨
      (Op.run (.open "host" "44818" "2222") ⟨Session.new 1 2 3 4 [], alwaysSaying registeredBytes, 0, []⟩).2.s,
      alwaysSaying writtenBytes, 0, []⟩).1 = .ok () := by decide +kernel
  have t2 : ∃ b, (Op.run (.setAttribute 1 2 3 none) ⟨
      (Op.run (.open "host" "44818" "2222") ⟨Session.new 1 2 3 4 [], alwaysSaying registeredBytes, 0, []⟩).2.s,
      alwaysSaying writtenBytes, 0, []⟩).2.trace = [.sent .tcp b true] ++ [.received .tcp writtenBytes true] :=
    ⟨[0x6f, 0, 0x18, 0, 0x0d, 0xf0, 0xad, 0x0b, 0, 0, 0, 0, 0, 0, 0, 0, 0, 0, 0, 0, 0, 0, 0, 0,
        0, 0, 0, 0, 0, 0, 2, 0, 0, 0, 0, 0, 0xb2, 0, 8, 0, 0x10, 3, 0x20, 1, 0x24, 2, 0x30, 3], by decide +kernel⟩
  have step : ∀ (x : Res Unit × World) (P : World → Prop), x.1 = .ok () → P x.2 → ∃ w, x = (.ok (), w) ∧ P w := by
    rintro ⟨r, w⟩ P rfl h
    exact ⟨w, rfl, h⟩
  obtain ⟨w1, e1, t1, r2, t2⟩ := step _ (fun w => w.trace = [.opened .tcp "host" "44818" true, .opened .io "host" "2222" true] ++
        [.sent .tcp registration true] ++ [.received .tcp registeredBytes true] ∧
      (Op.run (.setAttribute 1 2 3 none) ⟨w.s, alwaysSaying writtenBytes, 0, []⟩).1 = .ok () ∧
      ∃ b, (Op.run (.setAttribute 1 2 3 none) ⟨w.s, alwaysSaying writtenBytes, 0, []⟩).2.trace =
        [.sent .tcp b true] ++ [.received .tcp writtenBytes true]) r1 ⟨t1, r2, t2⟩
  clear step
  generalize e2 : Op.run (.setAttribute 1 2 3 none) ⟨w1.s, alwaysSaying writtenBytes, 0, []⟩ = x2 at r2 t2
  obtain ⟨q2, w2⟩ := x2
  have r2 : q2 = .ok () := r2
  subst r2
  obtain ⟨b2, t2⟩ := t2
  have t2 : w2.trace = [.sent .tcp b2 true] ++ [.received .tcp writtenBytes true] := t2
  obtain ⟨w3, b3, e3, t3⟩ : ∃ w3 b, Op.close.run ⟨w2.s, alwaysSaying [], 0, []⟩ = (.ok (), w3) ∧
      w3.trace = [.sent .tcp b true, .closed .tcp true, .closed .io true] := by
    have hc := close_cases ⟨w2.s, alwaysSaying [], 0, []⟩
    have e : Op.close.run ⟨w2.s, alwaysSaying [], 0, []⟩ = Session.close ⟨w2.s, alwaysSaying [], 0, []⟩ := rfl
    rw [e]
    generalize Session.close ⟨w2.s, alwaysSaying [], 0, []⟩ = x at hc
    cases hc with
    | closed => exact ⟨_, _, rfl, rfl⟩
    | sendFails h => cases h
    | tcpFails _ h => cases h
    | ioFails _ _ h => cases h
  have k1 : ∀ k : Fakes, ∃ k1, (k.set .tcp { k.sock .tcp with rx := registeredBytes }).takeAll w1.trace = some k1 := by
    intro k
    obtain ⟨f, hf⟩ : ∃ f, (k.set .tcp { k.sock .tcp with rx := registeredBytes }).takeAll
      ([.opened .tcp "host" "44818" true, .opened .io "host" "2222" true] ++ [.sent .tcp registration true]) = some f := ⟨_, rfl⟩
    have hrx := Fakes.takeAll_script hf .tcp
    rw [t1, Fakes.takeAll_append, hf]
    exact Fakes.take_reply f registeredBytes hrx.symm (by decide)
  have k2 : ∀ k : Fakes, ∃ k1, (k.set .tcp { k.sock .tcp with rx := writtenBytes }).takeAll w2.trace = some k1 := by
    intro k
    obtain ⟨f, hf⟩ : ∃ f, (k.set .tcp { k.sock .tcp with rx := writtenBytes }).takeAll [.sent .tcp b2 true] = some f := ⟨_, rfl⟩
    have hrx := Fakes.takeAll_script hf .tcp
    rw [t2, Fakes.takeAll_append, hf]
    exact Fakes.take_reply f writtenBytes hrx.symm (by decide)
  have k3 : ∀ k : Fakes, ∃ k1, k.takeAll w3.trace = some k1 := by
    intro k
    rw [t3]
    exact ⟨_, rfl⟩
  obtain ⟨f1, k1⟩ := k1 newFakes
  obtain ⟨f2, k2⟩ := k2 f1
  obtain ⟨f3, k3⟩ := k3 f2
  refine ⟨_, _, f3, .script _ _ (.call _ (alwaysSaying registeredBytes) _ w1 e1 k1 (by simp)
    (.script _ _ (.call _ (alwaysSaying writtenBytes) _ w2 e2 k2 (by simp)
      (.call _ (alwaysSaying []) _ w3 e3 k3 (by simp) (.nil _ _))))), ⟨rfl, rfl, rfl, trivial⟩, ?_, ?_,
    newFakes_fresh, by simp [NeverClears], by simp [NeverScripts]⟩
  · intro b ok h
    rw [t1, t2, t3] at h
    simp only [List.mem_append, List.mem_cons, List.not_mem_nil, reduceCtorEq, false_or, or_false, Ev.received.injEq, true_and] at h
    rcases h with ⟨rfl, -⟩ | ⟨rfl, -⟩ <;> exact List.cons_ne_nil _ _
  · rw [t1]
    intro h
    have h := congrArg List.length h
    simp [sentOn, registration, request, le] at h

/-- A test that clears and scripts the control socket and closes the session: the cases of `c125_cleared` and
`c125_rescripted`, and of `c125_parts` when it is cut before the last line. -/
example (s : Session) : ∃ evs s' k', Rehearsal s newFakes ([.clear .tcp, .script .tcp registeredBytes] ++ [.call .close])
      [(.close, .ok ())] evs s' k' ∧ sentOn .tcp evs = request 0x66 s.sessionId [] ∧
    NeverClears .tcp [.script .tcp registeredBytes, .call .close] ∧ NeverScripts .tcp [.call .close] := by
  have hc := close_cases ⟨s, alwaysSaying [], 0, []⟩
  have e : Op.close.run ⟨s, alwaysSaying [], 0, []⟩ = Session.close ⟨s, alwaysSaying [], 0, []⟩ := rfl
  generalize Session.close ⟨s, alwaysSaying [], 0, []⟩ = x at hc e
  cases hc with
  | closed =>
    obtain ⟨k1, hk⟩ : ∃ k1, ((newFakes.set .tcp (newFakes.sock .tcp).clear).set .tcp
        { (newFakes.set .tcp (newFakes.sock .tcp).clear).sock .tcp with rx := registeredBytes }).takeAll
        [.sent .tcp (request 0x66 s.sessionId []) true, .closed .tcp true, .closed .io true] = some k1 := by
      generalize newFakes.set .tcp (newFakes.sock .tcp).clear = k
      exact ⟨_, rfl⟩
    refine ⟨_, _, k1, .clear _ (.script _ _ (.call _ (alwaysSaying []) _ _ e hk (by simp) (.nil _ _))), ?_, by simp [NeverClears],
      by simp [NeverScripts]⟩
    simp [World.logS, sentOn]
  | sendFails h => cases h
  | tcpFails _ h => cases h
  | ioFails _ _ h => cases h

end Eip
