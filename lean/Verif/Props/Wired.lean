import Verif.Lemmas.Wired
import Verif.Spec.Wired
import Verif.Props.Effects
import Verif.Props.Open
import Verif.Props.Sockets
/-
C109, C110, C111: a session over the sockets of the library.
-/
namespace Eip
open Spec

variable {dns : String → String → List Endpoint}

/-! ### C109: opening again -/

theorem NetStep.stuck {k k' : Sockets} {w w' : World} {op : Op} {r : Res Unit} {as : List NetAct}
    (h : NetStep dns k w op r as k' w') (o : k.udp.isOpen = true) (nc : op ≠ .close) :
    k'.udp.isOpen = true ∧ w'.s.sessionId = w.s.sessionId ∧ ((∃ a b c, op = .open a b c) → r = .throw systemError) := by
  by_cases hp : op.plain
  · have hr := h.route hp
    refine ⟨hr.udpOpen.trans o, ?_, ?_⟩
    · have hc := c76_session_id op w
      rw [h.run] at hc
      rcases hc with hc | ⟨⟨a, b, c, rfl⟩, _⟩ | ⟨rfl, _⟩
      · exact hc
      · exact hp.elim
      · exact hp.elim
    · rintro ⟨a, b, c, rfl⟩
      exact hp.elim
  · cases op with
    | close => exact absurd rfl nc
    | «open» a b c =>
      have hc := open_cases a b c w
      have e : Session.open a b c w = (r, w') := h.run
      rw [e] at hc
      have ht := h.trace
      have no : (∀ ok, .closed .io ok ∉ calls as) → (k'.udp.isOpen = true ∧ ∀ host port, .opened .io host port true ∉ calls as) :=
        h.happen.udp_open o
      clear e
      have bad : ∀ more, calls as = .opened .tcp a b true :: .opened .io a c true :: more → False := by
        intro more hm
        obtain ⟨x, y, rfl, x1, y1⟩ := calls_split hm
        obtain ⟨x', y', rfl, x2, y2⟩ := calls_split y1
        obtain ⟨k1, h1, h2⟩ := AllHappen.split (a := x ++ .call (.opened .tcp a b true) :: x' ++ [.call (.opened .io a c true)])
          (b := y') (by simpa using h.happen)
        have := (h1.udp_open o (by simp [calls_append, x1, x2, calls_call, calls_nil])).2 a c
        exact this (by simp [calls_append, calls_call, calls_nil])
      cases hc with
      | tcpFails => 
        have := List.append_cancel_left ht
        exact ⟨(no (by rw [← this]; simp)).1, rfl, fun _ => rfl⟩
      | ioFails =>
        have := List.append_cancel_left ht
        exact ⟨(no (by rw [← this]; simp)).1, rfl, fun _ => rfl⟩
      | sendFails => exact (bad _ (List.append_cancel_left ht).symm).elim
      | receiveFails => exact (bad _ (List.append_cancel_left ht).symm).elim
      | registered => exact (bad _ (List.append_cancel_left ht).symm).elim
      | hollow => exact (bad _ (List.append_cancel_left ht).symm).elim
      | rejected => exact (bad _ (List.append_cancel_left ht).symm).elim
      | tcpCloseFails => exact (bad _ (List.append_cancel_left ht).symm).elim
      | ioCloseFails => exact (bad _ (List.append_cancel_left ht).symm).elim
    | _ => exact absurd trivial hp

theorem Happens.arrival {k k' : Sockets} {a : NetAct} (h : Happens dns k a k') (n : calls [a] = []) : SameRoute k k' :=
  h.route (plain_of_none n a List.mem_cons_self)

/-- C109 does not hold: while the I/O socket is open, every call to `open` throws, whatever the network does, and the
session id stays what it is. Only `close` helps. -/
theorem c109_violated {k k' : Sockets} {w w' : World} {ops : List (Op × Res Unit)} (h : NetHistory dns k w ops k' w')
    (ioOpen : k.udp.isOpen = true) (no : ∀ x ∈ ops, x.1 ≠ .close) :
    k'.udp.isOpen = true ∧ w'.s.sessionId = w.s.sessionId ∧
      ∀ x ∈ ops, (∃ host port ioPort, x.1 = .open host port ioPort) → x.2 = .throw systemError := by
  induction h with
  | nil => exact ⟨ioOpen, rfl, by simp⟩
  | arrive network h t ih => exact ih ((h.arrival network).udpOpen.trans ioOpen) no
  | @call k1 k2 k3 w1 w2 w3 op r as ops h defined t ih =>
    obtain ⟨a, b, c⟩ := h.stuck ioOpen (no (op, r) List.mem_cons_self)
    obtain ⟨a', b', c'⟩ := ih a (fun x hx => no x (List.mem_cons_of_mem _ hx))
    refine ⟨a', b'.trans b, fun x hx => ?_⟩
    rcases List.mem_cons.1 hx with rfl | hx
    · exact c
    · exact c' x hx

/-- C109: how one gets there. First: if the I/O socket was opened and the registration then broke off with an error of the
control socket, also with one on closing it, the I/O socket stays open. -/
theorem c109_violated_exchange {k k' : Sockets} {w w' : World} {host port ioPort : String} {as : List NetAct}
    (h : NetStep dns k w (.open host port ioPort) (.throw systemError) as k' w')
    (opened : .opened .io host ioPort true ∈ calls as) (unclosed : ∀ ok, .closed .io ok ∉ calls as) : k'.udp.isOpen = true ∧ w'.s.sessionId = w.s.sessionId := by
  have hc := open_cases host port ioPort w
  have e : Session.open host port ioPort w = (.throw systemError, w') := h.run
  rw [e] at hc
  have ht := h.trace
  have key : ∀ more, calls as = .opened .tcp host port true :: .opened .io host ioPort true :: more →
      k'.udp.isOpen = true := by
    intro more hm
    have nc : ∀ ok, .closed .io ok ∉ more := fun ok h => unclosed ok (by rw [hm]; simp [h])
    obtain ⟨x, y, rfl, x1, y1⟩ := calls_split hm
    obtain ⟨x', y', rfl, x2, y2⟩ := calls_split y1
    obtain ⟨k1, h1, h2⟩ := AllHappen.split (a := x ++ .call (.opened .tcp host port true) :: x')
      (b := .call (.opened .io host ioPort true) :: y') (by simpa using h.happen)
    cases h2 with
    | cons a b =>
      refine (b.udp_open ?_ (by rw [y2]; exact nc)).1
      cases a with
      | udpOpen host port env known ok u e =>
        obtain ⟨_, _, ⟨hr, _⟩ | ⟨ep, more, _, _, ⟨hr, _⟩ | ⟨hr, _⟩ | ⟨_, _, _, _, ho, _⟩⟩⟩ := UDPSocket.open_cases e
        · simp at hr
        · simp at hr
        · simp at hr
        · exact ho
  clear e
  generalize hr : ((Res.throw systemError, w') : Res Unit × World) = r at hc
  cases hc with
  | tcpFails =>
    cases hr
    rw [← List.append_cancel_left ht] at opened
    simp at opened
  | ioFails =>
    cases hr
    rw [← List.append_cancel_left ht] at opened
    simp at opened
  | sendFails => cases hr; exact ⟨key _ (List.append_cancel_left ht).symm, rfl⟩
  | receiveFails => cases hr; exact ⟨key _ (List.append_cancel_left ht).symm, rfl⟩
  | registered => cases hr
  | hollow => cases hr
  | rejected => cases hr
  | tcpCloseFails => cases hr; exact ⟨key _ (List.append_cancel_left ht).symm, rfl⟩
  | ioCloseFails => cases hr; exact ⟨key _ (List.append_cancel_left ht).symm, rfl⟩

/-- C109: the other way: if the local port is taken, `open` throws and the I/O socket stays open, bound to nothing. -/
theorem c109_violated_port (k : Sockets) (closed : k.udp.isOpen = false) (s : Session) (host port ioPort : String)
    (te ue : OpenEnv) (names : te.resolved = dns host port ∧ ue.resolved = dns host ioPort) (tw : tcpWorks te)
    (resolves : ue.resolved ≠ []) (creates : ue.creates = true) (inUse : ue.portFree = false) :
    ∃ env as k' w', NetStep dns k ⟨s, env, 0, []⟩ (.open host port ioPort) (.throw systemError) as k' w' ∧
      k'.udp.isOpen = true ∧ k'.udp.bound = false ∧ w'.s = s ∧
      calls as = [.opened .tcp host port true, .opened .io host ioPort false] := by
  obtain ⟨hc, hx⟩ := tw
  obtain ⟨ep, hm, hep, he⟩ := TCPSocket.connect_ok te hc te.resolved k.tcp hx
  have ht : TCPSocket.open te k.tcp = (.ok (), { k.tcp with isOpen := true, peer := some ep, inbox := [] }) := by
    rw [← he]
    unfold TCPSocket.open
    split
    · next h => rw [h] at hm; cases hm
    · rfl
  have hu : ∃ u, UDPSocket.open ue k.udp = (.throw systemError, u) ∧ u.isOpen = true ∧ u.bound = false := by
    unfold UDPSocket.open
    split
    · next h => exact absurd h resolves
    · exact ⟨_, by simp only [closed, creates, inUse]; rfl, rfl, rfl⟩
  obtain ⟨u, hu, h1, h2⟩ := hu
  refine ⟨fun n => ⟨n == 1, [], 0⟩, [.call (.opened .tcp host port true), .call (.opened .io host ioPort false)],
    ⟨{ k.tcp with isOpen := true, peer := some ep, inbox := [] }, u⟩,
    World.log ⟨s, fun n => ⟨n == 1, [], 0⟩, 0, []⟩ [.opened .tcp host port true, .opened .io host ioPort false],
    ⟨?_, rfl, ?_⟩, h1, h2, rfl, rfl⟩
  · have hc := open_cases host port ioPort ⟨s, fun n => ⟨n == 1, [], 0⟩, 0, []⟩
    show Session.open host port ioPort _ = _
    generalize Session.open host port ioPort ⟨s, fun n => ⟨n == 1, [], 0⟩, 0, []⟩ = r at hc ⊢
    cases hc with
    | ioFails => rfl
    | tcpFails h => cases h
    | sendFails _ h => cases h
    | receiveFails _ h => cases h
    | registered _ h => cases h.2.1
    | hollow h => cases h.2.1
    | rejected _ h => cases h.2.1
    | tcpCloseFails h => cases h.2.1
    | ioCloseFails h => cases h.2.1
  · exact .cons (.tcpOpen k host port te (.inl names.1) true _ ht)
      (.cons (.udpOpen ⟨_, k.udp⟩ host ioPort ue (.inl names.2) false u hu) (.nil _))

/-- C109, as far as it holds: these failures leave the I/O socket closed: a registration that is answered but refused; a
control socket that cannot be opened; an I/O name that cannot be resolved. -/
theorem c109_closed_partial {k k' : Sockets} {w w' : World} {as : List NetAct} (closed : k.udp.isOpen = false)
    {host port ioPort : String} {x : Exn} (h : NetStep dns k w (.open host port ioPort) (.throw x) as k' w')
    (why : x.kind ≠ .systemError ∨ .opened .tcp host port false ∈ calls as ∨ dns host ioPort = []) :
    k'.udp.isOpen = false := by
  have hc := open_cases host port ioPort w
  have run : Session.open host port ioPort w = (.throw x, w') := h.run
  rw [run] at hc
  have ht := h.trace
  have unresolved : dns host ioPort = [] → .opened .io host ioPort true ∉ calls as := by
    intro hd hm
    obtain ⟨x, y, rfl⟩ := List.append_of_mem (mem_calls.1 hm)
    obtain ⟨k1, _, b⟩ := h.happen.split
    cases b with
    | cons b _ =>
      cases b with
      | udpOpen host port env known ok u e =>
        have hn : env.resolved = [] := by rcases known with h | h <;> simp [h, hd]
        simp [UDPSocket.open, hn] at e
  have contra : ∀ more, calls as = .opened .tcp host port true :: .opened .io host ioPort true :: more →
      (.opened .tcp host port false ∉ more) → x = systemError → False := by
    intro more hm no hx
    subst hx
    rcases why with h | h | h
    · exact h rfl
    · rw [hm] at h
      simp at h
      exact no h
    · exact unresolved h (by rw [hm]; simp)
  clear run
  generalize hr : ((Res.throw x, w') : Res Unit × World) = r at hc
  cases hc with
  | tcpFails =>
    cases hr
    have := List.append_cancel_left ht
    exact (h.happen.udp_same (by rw [← this]; simp [Ev.touchesIO])).trans closed
  | ioFails =>
    cases hr
    have hm : calls as = _ := (List.append_cancel_left ht).symm
    have hd : dns host ioPort = [] := by
      rcases why with h | h | h
      · exact absurd rfl h
      · rw [hm] at h; simp at h
      · exact h
    obtain ⟨k1, k2, x, y, h1, x1, b, h2, y1⟩ := h.happen.at (es := [.opened .tcp host port true]) hm
    rw [h2.udp_same (by rw [y1]; simp)]
    cases b with
    | udpOpen host port env known ok u e =>
      have hn : env.resolved = [] := by rcases known with h | h <;> simp [h, hd]
      have hu : k1.udp = u := by simpa [UDPSocket.open, hn] using e
      subst hu
      exact (h1.udp_same (by rw [x1]; simp [Ev.touchesIO])).trans closed
  | sendFails => cases hr; exact (contra _ (List.append_cancel_left ht).symm (by simp) rfl).elim
  | receiveFails => cases hr; exact (contra _ (List.append_cancel_left ht).symm (by simp) rfl).elim
  | registered => cases hr
  | hollow => cases hr
  | rejected =>
    cases hr
    have hm : calls as = openEvents host port ioPort (delivered w.env (w.clock + 3)) ++ [.closed .tcp true] ++ [.closed .io true] :=
      (List.append_cancel_left ht).symm
    obtain ⟨k1, k2, x, y, h1, x1, b, h2, y1⟩ := h.happen.at hm
    rw [h2.udp_same (by rw [y1]; simp)]
    cases b with
    | udpClose works ok u e => obtain rfl : _ = u := congrArg Prod.snd e; rfl
  | tcpCloseFails => cases hr; exact (contra _ (List.append_cancel_left ht).symm (by simp) rfl).elim
  | ioCloseFails => cases hr; exact (contra _ (List.append_cancel_left ht).symm (by simp) rfl).elim

/-- C109: a `close` that returns normally closes the I/O socket and the control socket, whatever state they were in. -/
theorem c109_close_partial {k k' : Sockets} {w w' : World} {as : List NetAct} (h : NetStep dns k w .close (.ok ()) as k' w') :
    k'.udp.isOpen = false ∧ k'.tcp.isOpen = false := by
  have hc := close_cases w
  have run : Session.close w = (.ok (), w') := h.run
  rw [run] at hc
  have ht := h.trace
  clear run
  generalize hr : ((Res.ok (), w') : Res Unit × World) = r at hc
  cases hc with
  | closed =>
    have ht : w'.trace = _ := ht
    cases hr
    have hm : calls as = [.sent .tcp (request 0x66 w.s.sessionId []) true] ++ .closed .tcp true :: [.closed .io true] :=
      (List.append_cancel_left ht).symm
    obtain ⟨k1, k2, x, y, h1, x1, b, h2, y1⟩ := h.happen.at hm
    obtain ⟨k3, k4, x', y', h3, x2, b', h4, y2⟩ := h2.first y1
    have r1 := h3.route (plain_of_none x2)
    have r2 := h4.route (plain_of_none y2)
    refine ⟨?_, ?_⟩
    · rw [r2.udpOpen]
      cases b' with
      | udpClose works ok u e => obtain rfl : _ = u := congrArg Prod.snd e; rfl
    · rw [r2.tcpOpen]
      have : k4.tcp = k3.tcp := by cases b' with | udpClose works ok u e => rfl
      rw [this, r1.tcpOpen]
      cases b with
      | tcpClose works ok t e => obtain rfl : _ = t := congrArg Prod.snd e; rfl
  | _ => cases hr

/-- C109: as long as the I/O socket is closed, opening works if nothing stands in its way: both names resolve, one of the
control endpoints accepts, the local port is free, and the device answers with a registration. -/
theorem c109_opens_partial (k : Sockets) (closed : k.udp.isOpen = false) (s : Session) (unregistered : s.sessionId = 0)
    (host port ioPort : String) (te ue : OpenEnv) (names : te.resolved = dns host port ∧ ue.resolved = dns host ioPort)
    (tw : tcpWorks te) (uw : udpWorks ue) (reply : Bytes) (handle : UInt32) (registers : Registers 0 reply handle)
    (fits : reply.length ≤ 4096) :
    ∃ env as k' w', NetStep dns k ⟨s, env, 0, []⟩ (.open host port ioPort) (.ok ()) as k' w' ∧ w'.s.sessionId = handle ∧
      (∃ ep ∈ dns host port, k'.tcp.peer = some ep) ∧ k'.tcp.isOpen = true ∧ k'.udp.isOpen = true ∧ k'.udp.bound = true ∧
      (dns host ioPort).head? = some k'.udp.remoteEndpoint ∧ calls as = openEvents host port ioPort reply := by
  obtain ⟨hc, hx⟩ := tw
  obtain ⟨ep, hm, hep, he⟩ := TCPSocket.connect_ok te hc te.resolved k.tcp hx
  have ht : TCPSocket.open te k.tcp = (.ok (), { k.tcp with isOpen := true, peer := some ep, inbox := [] }) := by
    rw [← he]
    unfold TCPSocket.open
    split
    · next h => rw [h] at hm; cases hm
    · rfl
  obtain ⟨u, hu, h1, h2, h3⟩ := UDPSocket.open_ok ue uw k.udp closed
  generalize henv : (fun n => (if n = 3 then ⟨false, reply, 0⟩ else ⟨false, [], 0⟩ : Answer)) = env
  have e3 : delivered env 3 = reply := by
    rw [← henv]
    exact List.take_of_length_le fits
  have never : ∀ n, (env n).fails = false := by
    intro n
    rw [← henv]
    dsimp only
    split <;> rfl
  have ne : reply ≠ [] := by
    rintro rfl
    obtain ⟨_, ⟨h, t, _, _, _, e⟩, _⟩ := registers
    have := congrArg List.length e
    simp [header] at this
    omega
  have hw := open_cases host port ioPort ⟨s, env, 0, []⟩
  have hreg : Registers s.sessionId (delivered env (0 + 3)) handle := by rw [unregistered, e3]; exact registers
  have ok : ∃ w', Session.open host port ioPort ⟨s, env, 0, []⟩ = (.ok (), w') ∧
      w'.trace = openEvents host port ioPort reply ∧ w'.s.sessionId = handle := by
    have := (c28_outcome host port ioPort ⟨s, env, 0, []⟩ unregistered (fun i _ => never _)).1 handle (by
      obtain ⟨p, a, b, c, d⟩ := hreg
      refine ⟨p, a, ?_, c, d⟩
      rcases b with b | b
      · exact b.2
      · exact absurd unregistered b.1)
    obtain ⟨w', e, hh⟩ := this
    refine ⟨w', e, ?_, hh⟩
    rw [e] at hw
    generalize hr : ((Res.ok (), w') : Res Unit × World) = r at hw
    cases hw with
    | registered h' ok' hr' =>
      have : w' = _ := congrArg Prod.snd hr
      rw [this]
      show [] ++ (openEvents host port ioPort (delivered env (0 + 3)) ++ []) = _
      rw [e3]
      simp
    | _ => cases hr
  obtain ⟨w', run, tr, hh⟩ := ok
  let k1 : Sockets := ⟨{ k.tcp with isOpen := true, peer := some ep, inbox := [] }, u⟩
  let t2 : TCPSocket := { k.tcp with isOpen := true, peer := some ep, inbox := [],
                                      sent := k.tcp.sent ++ [(ep, registration)] }
  refine ⟨env, [.call (.opened .tcp host port true), .call (.opened .io host ioPort true),
      .call (.sent .tcp registration true), .bytes reply, .call (.received .tcp reply true)], ⟨t2, u⟩, w',
    ⟨run, tr, ?_⟩, hh, ⟨ep, by rw [← names.1]; exact hm, rfl⟩, rfl, h1, h2, by rw [← names.2]; exact h3, rfl⟩
  refine .cons (.tcpOpen k host port te (.inl names.1) true _ ht)
      (.cons (.udpOpen ⟨_, k.udp⟩ host ioPort ue (.inl names.2) true u hu) ?_)
  refine .cons (k' := ⟨t2, u⟩) (.tcpSend k1 registration (some registration.length) registration.length true t2 ?_) ?_
  · simp [k1, t2, TCPSocket.send]
  · refine .cons (k' := ⟨{ t2 with inbox := reply }, u⟩) (.bytes ⟨t2, u⟩ reply) ?_
    refine .cons (k' := ⟨t2, u⟩) (.tcpReceive ⟨{ t2 with inbox := reply }, u⟩ (some reply.length) reply true t2 ?_) (.nil _)
    have hl : 1 ≤ reply.length := List.length_pos_iff.mpr ne
    simp [TCPSocket.receive, t2, ne, Nat.max_eq_right hl, Nat.min_eq_right fits]

/-! ### A concrete network: one device, at 10.0.0.1 -/

/-- The resolver of the examples: every port is a port of the one device, except that nobody knows "nowhere". -/
def exampleDns (host port : String) : List Endpoint :=
  if host = "nowhere" then [] else [⟨0x0A000001, if port = "44818" then 44818 else 2222⟩]

/-- Nothing fails. -/
def exampleOpen (port : Nat) : OpenEnv := ⟨[⟨0x0A000001, port⟩], true, true, fun _ => true⟩

/-- Sockets just made. -/
def exampleSockets : Sockets := ⟨TCPSocket.new, UDPSocket.new ⟨0, 2222⟩⟩

/-- The reply of the device to a registration. -/
def exampleRegistration : Bytes := request 0x65 7 (le 2 1 ++ le 2 0)

theorem exampleRegistration_registers : Registers 0 exampleRegistration 7 :=
  ⟨le 2 1 ++ le 2 0, ⟨⟨0x65, 4, 7, 0, (0, 0), 0⟩, [], rfl, rfl, rfl, by decide +kernel⟩,
    .inl ⟨rfl, by decide⟩, by decide, .inr (by decide)⟩

example (s : Session) (h : s.sessionId = 0) : ∃ env as k' w',
    NetStep exampleDns exampleSockets ⟨s, env, 0, []⟩ (.open "device" "44818" "2222") (.ok ()) as k' w' ∧ w'.s.sessionId = 7 := by
  obtain ⟨env, as, k', w', a, b, _⟩ := c109_opens_partial (dns := exampleDns) exampleSockets rfl s h "device" "44818" "2222"
    (exampleOpen 44818) (exampleOpen 2222) (by decide) ⟨rfl, _, List.mem_cons_self, rfl⟩ (by simp [udpWorks, exampleOpen])
    exampleRegistration 7 exampleRegistration_registers (by decide)
  exact ⟨env, as, k', w', a, b⟩

/-- The port is in use: the first `open` fails, and then so does every other. -/
example (s : Session) : ∃ env as k' w',
    NetStep exampleDns exampleSockets ⟨s, env, 0, []⟩ (.open "device" "44818" "2222") (.throw systemError) as k' w' ∧
    ∀ ops k'' w'', NetHistory exampleDns k' w' ops k'' w'' → (∀ x ∈ ops, x.1 ≠ .close) →
      ∀ r, (Op.open "device" "44818" "2222", r) ∈ ops → r = .throw systemError := by
  obtain ⟨env, as, k', w', a, b, _⟩ := c109_violated_port (dns := exampleDns) exampleSockets rfl s "device" "44818" "2222"
    (exampleOpen 44818) { exampleOpen 2222 with portFree := false } (by decide) ⟨rfl, _, List.mem_cons_self, rfl⟩
    (by decide) rfl rfl
  exact ⟨env, as, k', w', a, fun ops k'' w'' h no r hr => (c109_violated h b no).2.2 _ hr ⟨_, _, _, rfl⟩⟩

end Eip
