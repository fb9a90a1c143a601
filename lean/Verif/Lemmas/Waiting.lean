import Verif.Model.Waiting
import Verif.Spec.Waiting
import Verif.Lemmas.Possible
import Verif.Lemmas.Strategy
/-
Receives of a session: at most one in a call, and only sockets are closed after it.
-/
namespace Eip
open Spec

variable {dns : String → String → List Endpoint}

theorem calls_of_silent {as : List NetAct} (h : NothingArrives as) : as = (calls as).map .call := by
  induction as with
  | nil => rfl
  | cons a as ih =>
    obtain ⟨ev, rfl⟩ := h a List.mem_cons_self
    have := ih fun a ha => h a (List.mem_cons_of_mem _ ha)
    rw [calls_call, List.map_cons, ← this]

theorem calls_map (evs : List Ev) : calls (evs.map .call) = evs := by
  induction evs with
  | nil => rfl
  | cons e evs ih => rw [List.map_cons, calls_call, ih]

theorem silent_map (evs : List Ev) : NothingArrives (evs.map .call) := by
  intro a ha
  obtain ⟨ev, _, rfl⟩ := List.mem_map.1 ha
  exact ⟨ev, rfl⟩

/-- Where a receive can stand among the events of a call. -/
def Shape (evs : List Ev) : Prop :=
  ∀ pre sock b ok rest, evs = pre ++ .received sock b ok :: rest →
    (∀ ev ∈ pre, isReceive ev = false) ∧ ∀ ev ∈ rest, ∃ s c, ev = .closed s c

theorem Shape.cons {e : Ev} {evs : List Ev} (h : Shape evs) (he : isReceive e = false) : Shape (e :: evs) := by
  intro pre sock b ok rest hh
  cases pre with
  | nil =>
    obtain ⟨rfl, _⟩ := List.cons.inj hh
    cases he
  | cons p pre =>
    obtain ⟨rfl, h2⟩ := List.cons.inj hh
    obtain ⟨h3, h4⟩ := h pre sock b ok rest h2
    refine ⟨fun ev hev => ?_, h4⟩
    rcases List.mem_cons.1 hev with rfl | hev
    · exact he
    · exact h3 ev hev

theorem Shape.none {evs : List Ev} (h : ∀ ev ∈ evs, isReceive ev = false) : Shape evs := by
  intro pre sock b ok rest hh
  have := h (.received sock b ok) (by rw [hh]; simp)
  cases this

theorem Shape.last {sock : Sock} {b : Bytes} {ok : Bool} {rest : List Ev} (h : ∀ ev ∈ rest, ∃ s c, ev = .closed s c) :
    Shape (.received sock b ok :: rest) := by
  intro pre sock' b' ok' rest' hh
  cases pre with
  | nil =>
    obtain ⟨_, rfl⟩ := List.cons.inj hh
    exact ⟨by simp, h⟩
  | cons p pre =>
    obtain ⟨_, h2⟩ := List.cons.inj hh
    obtain ⟨s, c, h3⟩ := h (.received sock' b' ok') (by rw [h2]; simp)
    cases h3

/-- The events of a command with proper arguments. -/
theorem command_shape {op : Op} (cmd : IsCommand op) (w : World) :
    ((op.run w).2.trace = w.trace ∧ ¬ Proper w.s op) ∨
    (∃ bs, (op.run w).2.trace = w.trace ++ [.sent .tcp bs false] ∧ (w.env w.clock).fails = true) ∨
    ∃ bs b ok, (op.run w).2.trace = w.trace ++ [.sent .tcp bs true, .received .tcp b ok] ∧ (w.env w.clock).fails = false := by
  have rr : ∀ {w1 w' : World} {bs : Bytes} {r : Res RRDataResponse}, w1 = w ∨ w1 = w.bumped → RRCases w1 bs (r, w') →
      (∃ bs, w'.trace = w.trace ++ [.sent .tcp bs false] ∧ (w.env w.clock).fails = true) ∨
      ∃ bs b ok, w'.trace = w.trace ++ [.sent .tcp bs true, .received .tcp b ok] ∧ (w.env w.clock).fails = false := by
    intro w1 w' bs r h1 h
    have he : w1.env = w.env ∧ w1.clock = w.clock ∧ w1.trace = w.trace := by rcases h1 with rfl | rfl <;> exact ⟨rfl, rfl, rfl⟩
    obtain ⟨e1, e2, e3⟩ := he
    cases h with
    | sendFails h => exact .inl ⟨bs, by rw [← e3]; rfl, by rw [← e1, ← e2]; exact h⟩
    | receiveFails h => exact .inr ⟨bs, delivered w1.env (w1.clock + 1), false, by rw [← e3]; simp [World.after],
        by rw [← e1, ← e2]; exact h⟩
    | replied h => exact .inr ⟨bs, delivered w1.env (w1.clock + 1), true, by rw [← e3]; simp [World.exchanged],
        by rw [← e1, ← e2]; exact h.1⟩
  cases command_run op cmd w with
  | unsent r hr h hp => left; rw [h]; exact ⟨rfl, hp⟩
  | thrown w1 bs e w' h1 r h => right; rw [h]; exact rr h1 r
  | crashed w1 bs e w' h1 r h => right; rw [h]; exact rr h1 r
  | answered w1 bs resp r w' w'' h1 r h hs => right; rw [h, (SameButConnections.eqs hs).1]; exact rr h1 r

/-- The events of `open`. -/
theorem open_shape (host port ioPort : String) (w : World) : ∃ evs,
    (Session.open host port ioPort w).2.trace = w.trace ++ evs ∧
    ((∀ ev ∈ evs, isReceive ev = false) ∧ (∃ ev ∈ evs, succeeded ev = false) ∨
     ∃ b ok rest, evs = [.opened .tcp host port true, .opened .io host ioPort true, .sent .tcp registration true] ++
      .received .tcp b ok :: rest ∧ ∀ ev ∈ rest, ∃ s c, ev = .closed s c) := by
  have hc := open_cases host port ioPort w
  generalize Session.open host port ioPort w = r at hc
  cases hc with
  | tcpFails => exact ⟨_, rfl, .inl (by simp [isReceive, succeeded])⟩
  | ioFails => exact ⟨_, rfl, .inl (by simp [isReceive, succeeded])⟩
  | sendFails => exact ⟨_, rfl, .inl (by simp [isReceive, succeeded])⟩
  | receiveFails => exact ⟨_, rfl, .inr ⟨_, _, [], rfl, by simp⟩⟩
  | registered => exact ⟨_, rfl, .inr ⟨_, _, [], rfl, by simp⟩⟩
  | hollow => exact ⟨_, rfl, .inr ⟨_, _, [], rfl, by simp⟩⟩
  | rejected => exact ⟨_, rfl, .inr ⟨_, _, [.closed .tcp true, .closed .io true], rfl, by simp⟩⟩
  | tcpCloseFails => exact ⟨_, rfl, .inr ⟨_, _, [.closed .tcp false], rfl, by simp⟩⟩
  | ioCloseFails => exact ⟨_, rfl, .inr ⟨_, _, [.closed .tcp true, .closed .io false], rfl, by simp⟩⟩

/-- The events of `close`. -/
theorem close_shape (w : World) : ∃ evs, (Session.close w).2.trace = w.trace ++ evs ∧ ∀ ev ∈ evs, isReceive ev = false := by
  have hc := close_cases w
  generalize Session.close w = r at hc
  cases hc with
  | sendFails => exact ⟨_, rfl, by simp [isReceive]⟩
  | tcpFails => exact ⟨_, rfl, by simp [isReceive]⟩
  | ioFails => exact ⟨_, rfl, by simp [isReceive]⟩
  | closed => exact ⟨_, rfl, by simp [isReceive]⟩

theorem op_shape (op : Op) (w : World) : ∃ evs, (op.run w).2.trace = w.trace ++ evs ∧ Shape evs := by
  have cmd : IsCommand op → ∃ evs, (op.run w).2.trace = w.trace ++ evs ∧ Shape evs := by
    intro hc
    rcases command_shape hc w with ⟨h, _⟩ | ⟨bs, h, _⟩ | ⟨bs, b, ok, h, _⟩
    · exact ⟨[], by simpa using h, .none (by simp)⟩
    · exact ⟨_, h, .none (by simp [isReceive])⟩
    · exact ⟨_, h, .cons (.last (by simp)) rfl⟩
  cases op with
  | «open» host port ioPort =>
    obtain ⟨evs, h, hs⟩ := open_shape host port ioPort w
    refine ⟨evs, h, ?_⟩
    rcases hs with ⟨hs, _⟩ | ⟨b, ok, rest, rfl, hs⟩
    · exact .none hs
    · exact .cons (.cons (.cons (.last hs) rfl) rfl) rfl
  | close =>
    obtain ⟨evs, h, hs⟩ := close_shape w
    exact ⟨evs, h, .none hs⟩
  | getAttribute => exact cmd trivial
  | setAttribute => exact cmd trivial
  | createConnection => exact cmd trivial
  | closeConnection => exact cmd trivial
  | getConnection n => exact ⟨[], by rw [getConnection_world]; simp, .none (by simp)⟩
  | receiveIOPacket =>
    obtain ⟨ok, s, h, _⟩ := receiveIO_world w
    exact ⟨_, by rw [h]; rfl, .last (by simp)⟩
  | sendIOPacket p =>
    rcases sendIO_world p w with h | ⟨bs, ok, _, h⟩
    · exact ⟨[], by rw [h]; simp, .none (by simp)⟩
    · exact ⟨_, by rw [h]; rfl, .none (by simp [isReceive])⟩

/-! ### Other answers from some point on -/

/-- Every event of a run is a call with the answer of the environment. -/
theorem exec_events {ρ : Type} (t : Strategy ρ) (env : Nat → Answer) (n : Nat) (trace pre : List Ev) (ev : Ev) (rest : List Ev)
    (h : (t.exec env n trace).2.trace = trace ++ pre ++ ev :: rest) : ∃ call : SockReq, ev = call.event (env (n + pre.length)) := by
  induction t generalizing n trace pre with
  | done r s => simp [Strategy.exec] at h
  | ask call next ih =>
    simp only [Strategy.exec] at h
    cases pre with
    | nil =>
      obtain ⟨evs, h1, _⟩ := exec_trace (next (call.event (env n))) env (n + 1) (trace ++ [call.event (env n)])
      rw [h] at h1
      simp only [List.append_nil, List.append_assoc, List.append_cancel_left_eq] at h1
      obtain ⟨rfl, _⟩ := List.cons.inj h1
      exact ⟨call, rfl⟩
    | cons p pre =>
      have e : p = call.event (env n) := by
        obtain ⟨evs, h1, _⟩ := exec_trace (next (call.event (env n))) env (n + 1) (trace ++ [call.event (env n)])
        rw [h] at h1
        simp only [List.append_assoc, List.append_cancel_left_eq, List.cons_append] at h1
        exact (List.cons.inj h1).1
      subst e
      obtain ⟨c, hc⟩ := ih (call.event (env n)) (n + 1) (trace ++ [call.event (env n)]) pre (by rw [h]; simp)
      exact ⟨c, by rw [hc, List.length_cons, show n + 1 + pre.length = n + (pre.length + 1) by omega]⟩

/-- With the same answers up to some call, the same call is made. -/
theorem exec_agree {ρ : Type} (t : Strategy ρ) (env env' : Nat → Answer) (n : Nat) (trace pre : List Ev) (ev : Ev) (rest : List Ev)
    (h : (t.exec env n trace).2.trace = trace ++ pre ++ ev :: rest) (same : ∀ i < pre.length, env' (n + i) = env (n + i)) :
    ∃ (call : SockReq) (rest' : List Ev), ev = call.event (env (n + pre.length)) ∧
      (t.exec env' n trace).2.trace = trace ++ pre ++ call.event (env' (n + pre.length)) :: rest' := by
  induction t generalizing n trace pre with
  | done r s => simp [Strategy.exec] at h
  | ask call next ih =>
    have h0 := h
    simp only [Strategy.exec] at h ⊢
    obtain ⟨evs, h1, _⟩ := exec_trace (next (call.event (env n))) env (n + 1) (trace ++ [call.event (env n)])
    rw [h] at h1
    cases pre with
    | nil =>
      simp only [List.append_nil, List.append_assoc, List.append_cancel_left_eq] at h1
      obtain ⟨rfl, _⟩ := List.cons.inj h1
      obtain ⟨evs', h2, _⟩ := exec_trace (next (call.event (env' n))) env' (n + 1) (trace ++ [call.event (env' n)])
      exact ⟨call, evs', rfl, by rw [h2]; simp⟩
    | cons p pre =>
      have e : p = call.event (env n) := by
        simp only [List.append_assoc, List.append_cancel_left_eq, List.cons_append] at h1
        exact (List.cons.inj h1).1
      subst e
      have e0 : env' n = env n := same 0 (by simp)
      obtain ⟨c, rest', hc, hr⟩ := ih (call.event (env n)) (n + 1) (trace ++ [call.event (env n)]) pre (by rw [h]; simp)
        (fun i hi => by
          rw [show n + 1 + i = n + (i + 1) by omega]
          exact same (i + 1) (by simpa using hi))
      rw [show n + 1 + pre.length = n + (pre.length + 1) by omega] at hc hr
      exact ⟨c, rest', hc, by rw [e0, hr]; simp⟩

/-- Whatever comes next from the socket a call is about to receive from, with no failures afterwards, the call ends, closing
at most the sockets. -/
theorem op_resume (op : Op) (s : Session) (env env' : Nat → Answer) (n : Nat) (trace pre : List Ev) (sock : Sock) (b : Bytes)
    (ok : Bool) (rest : List Ev) (h : (op.run ⟨s, env, n, trace⟩).2.trace = trace ++ pre ++ .received sock b ok :: rest)
    (same : ∀ i < pre.length, env' (n + i) = env (n + i)) (works : ∀ i ≥ pre.length, (env' (n + i)).fails = false) :
    (∀ ev ∈ pre, isReceive ev = false) ∧ ∃ rest', (op.run ⟨s, env', n, trace⟩).2.trace =
      trace ++ pre ++ .received sock (delivered env' (n + pre.length)) true :: rest' ∧
      ∀ ev ∈ rest', ∃ s, ev = .closed s true := by
  obtain ⟨t, ht⟩ := Strategic.op op s
  obtain ⟨call, rest', hc, hr⟩ := exec_agree t env env' n trace pre _ rest (by rw [← ht]; exact h) same
  have hcall : call = .receive sock := by cases call <;> simp_all [SockReq.event]
  subst hcall
  have hev : (SockReq.receive sock).event (env' (n + pre.length)) = .received sock (delivered env' (n + pre.length)) true := by
    simp [SockReq.event, works pre.length (Nat.le_refl _), delivered]
  rw [hev] at hr
  obtain ⟨evs, he, hs⟩ := op_shape op ⟨s, env', n, trace⟩
  have he' : evs = pre ++ .received sock (delivered env' (n + pre.length)) true :: rest' := by
    have he : (op.run ⟨s, env', n, trace⟩).2.trace = trace ++ evs := he
    rw [ht, hr, List.append_assoc] at he
    exact (List.append_cancel_left he).symm
  obtain ⟨h1, h2⟩ := hs _ _ _ _ _ he'
  refine ⟨h1, rest', by rw [ht]; exact hr, ?_⟩
  intro ev hev'
  obtain ⟨x, c, rfl⟩ := h2 ev hev'
  obtain ⟨r1, r2, hsplit⟩ := List.append_of_mem hev'
  obtain ⟨call, hcall⟩ := exec_events t env' n trace (pre ++ .received sock (delivered env' (n + pre.length)) true :: r1)
    (.closed x c) r2 (by rw [hr, hsplit]; simp)
  have hw := works (pre ++ Ev.received sock (delivered env' (n + pre.length)) true :: r1).length (by simp)
  cases call with
  | close y =>
    simp only [SockReq.event, Ev.closed.injEq] at hcall
    rw [hw] at hcall
    exact ⟨x, by rw [hcall.2]; rfl⟩
  | «open» => cases hcall
  | send => cases hcall
  | receive => cases hcall

/-- Closing sockets can always work. -/
theorem closes_happen (k : Sockets) (evs : List Ev) (h : ∀ ev ∈ evs, ∃ s, ev = .closed s true) :
    ∃ k', AllHappen dns k (evs.map .call) k' := by
  induction evs generalizing k with
  | nil => exact ⟨k, .nil _⟩
  | cons e evs ih =>
    obtain ⟨s, rfl⟩ := h e List.mem_cons_self
    cases s with
    | tcp =>
      obtain ⟨k', hk⟩ := ih { k with tcp := (TCPSocket.close true k.tcp).2 } fun ev hev => h ev (List.mem_cons_of_mem _ hev)
      exact ⟨k', .cons (.tcpClose k true true _ (by simp [TCPSocket.close])) hk⟩
    | io =>
      obtain ⟨k', hk⟩ := ih { k with udp := (UDPSocket.close true k.udp).2 } fun ev hev => h ev (List.mem_cons_of_mem _ hev)
      exact ⟨k', .cons (.udpClose k true true _ (by simp [UDPSocket.close])) hk⟩

/-! ### Empty sockets -/

theorem tcp_waits {k : Sockets} (o : k.tcp.isOpen = true) (p : k.tcp.peer ≠ none) (e : k.tcp.inbox = []) : k.Waits .tcp := by
  intro n
  obtain ⟨ep, hp⟩ := Option.ne_none_iff_exists'.1 p
  simp [TCPSocket.receive, o, hp, e]

theorem waits_tcp {k : Sockets} (h : k.Waits .tcp) : k.tcp.isOpen = true ∧ k.tcp.peer ≠ none ∧ k.tcp.inbox = [] := by
  have h := h 0
  unfold TCPSocket.receive at h
  split at h
  · next ho hp _ =>
    split at h
    · next he => exact ⟨ho, by rw [hp]; simp, he⟩
    · cases congrArg Prod.fst h
  · cases congrArg Prod.fst h

theorem waits_io {k : Sockets} (h : k.Waits .io) : k.udp.isOpen = true ∧ k.udp.inbox = [] := by
  have h : UDPSocket.receive 4096 k.udp = _ := h
  unfold UDPSocket.receive at h
  split at h
  · cases congrArg Prod.fst h
  · next ho =>
    split at h
    · next he => exact ⟨by simpa using ho, he⟩
    · cases congrArg Prod.fst h

/-- A receive that waits does not return. -/
theorem waits_no_bytes {k k' : Sockets} {sock : Sock} {b : Bytes} (h : k.Waits sock)
    (hh : Happens dns k (.call (.received sock b true)) k') : False := by
  cases hh with
  | tcpReceive d b ok t e =>
    obtain ⟨h1, h2, h3⟩ := waits_tcp h
    simp only [if_true] at e
    unfold TCPSocket.receive at e
    split at e
    · rw [if_pos h3] at e
      cases congrArg Prod.fst e
    · cases congrArg Prod.fst e
  | udpReceive b ok u e =>
    have h : UDPSocket.receive 4096 k.udp = _ := h
    rw [h] at e
    cases congrArg Prod.fst e

/-- Sending does not bring anything. -/
theorem waits_send {k k' : Sockets} {b : Bytes} {ok : Bool} (h : k.Waits .tcp)
    (hh : Happens dns k (.call (.sent .tcp b ok)) k') : k'.Waits .tcp := by
  cases hh with
  | tcpSend b a n ok t e =>
    obtain ⟨h1, h2, h3⟩ := waits_tcp h
    obtain ⟨s1, s2, s3⟩ := TCPSocket.send_sent e
    exact tcp_waits (s1.trans h1) (by rw [show ({ k with tcp := t } : Sockets).tcp = t from rfl, s2]; exact h2) (s3.1.trans h3)

end Eip
