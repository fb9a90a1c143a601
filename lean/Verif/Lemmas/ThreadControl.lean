import Verif.Lemmas.ThreadStages
/-
Any call, from its beginning to its end, among calls that transfer data.
-/
namespace Eip
open Spec

variable {α β : Type}

/-- The same world with another session, whose receive buffer is the old one. -/
def World.put (w : World) (s : Session) : World := { w with s := { s with recvBuffer := w.s.recvBuffer } }

theorem put_self (w : World) : w.put w.s = w := rfl
theorem put_put (w : World) (s s' : Session) : (w.put s).put s' = w.put s' := rfl
theorem apart_put (w : World) (s : Session) : apart (w.put s).s = apart s := rfl
theorem put_apart (w : World) {s s' : Session} (h : apart s = apart s') : w.put s = w.put s' := by
  have : ({ apart s with recvBuffer := w.s.recvBuffer } : Session) = { apart s' with recvBuffer := w.s.recvBuffer } := by rw [h]
  unfold World.put
  exact congrArg (fun x : Session => { w with s := x }) this
theorem put_of_apart (w : World) {s : Session} (h : apart w.s = apart s) : w.put s = w := by
  rw [← put_apart w h, put_self]

/-- A program that may change the session, but not its buffer, and for which only the session and the first `n` bytes of the
buffer matter. -/
def Reads (n : Nat) (p : Prog World α) : Prop := ∀ w w', apart w.s = apart w'.s →
  w.s.recvBuffer.take n = w'.s.recvBuffer.take n → ∃ r s, p w = (r, w.put s) ∧ p w' = (r, w'.put s)

theorem apart_id {s s' : Session} (h : apart s = apart s') : s.sessionId = s'.sessionId := by
  have := congrArg Session.sessionId h
  exact this

theorem apart_connections {s s' : Session} (h : apart s = apart s') : s.connections = s'.connections := by
  have := congrArg Session.connections h
  exact this

theorem Looks.reads {n : Nat} {p : Prog World α} (h : Looks n p) : Reads n p := by
  intro w w' h1 h2
  obtain ⟨r, e, e'⟩ := h w w' (apart_id h1) h2
  exact ⟨r, w.s, e, by rw [e', put_of_apart w' h1.symm]⟩

theorem Reads.bind {n : Nat} {p : Prog World α} {f : α → Prog World β} (hp : Reads n p) (hf : ∀ a, Reads n (f a)) :
    Reads n (p >>= f) := by
  intro w w' h h'
  obtain ⟨r, s, e, e'⟩ := hp w w' h h'
  obtain (a | x | u) := r
  · rw [Prog.bind_ok e, Prog.bind_ok e']
    obtain ⟨r, s', e, e'⟩ := hf a (w.put s) (w'.put s) rfl h'
    exact ⟨r, s', e, e'⟩
  · rw [Prog.bind_throw e, Prog.bind_throw e']
    exact ⟨_, s, rfl, rfl⟩
  · rw [Prog.bind_ub e, Prog.bind_ub e']
    exact ⟨_, s, rfl, rfl⟩

theorem Reads.modify {n : Nat} {f : Session → Session} (h1 : ∀ s s', apart s = apart s' → apart (f s) = apart (f s'))
    (h2 : ∀ s, (f s).recvBuffer = s.recvBuffer) : Reads n (Prog.modify fun w => { w with s := f w.s }) := by
  intro w w' h _
  refine ⟨.ok (), f w.s, ?_, ?_⟩
  · show ((.ok (), { w with s := f w.s }) : Res Unit × World) = _
    rw [World.put, ← h2]
  · show ((.ok (), { w' with s := f w'.s }) : Res Unit × World) = _
    rw [put_apart w' (h1 _ _ h), World.put, ← h2]

/-- A program that looks at the session, apart from the buffer. -/
theorem Reads.get {n : Nat} {γ : Type} (g : Session → γ) (hg : ∀ s s', apart s = apart s' → g s = g s') {f : γ → Prog World α}
    (hf : ∀ c, Reads n (f c)) : Reads n (Prog.get >>= fun w => f (g w.s)) := by
  intro w w' h h'
  obtain ⟨r, s, e, e'⟩ := hf (g w.s) w w' h h'
  refine ⟨r, s, e, ?_⟩
  rw [hg _ _ h] at e'
  exact e'

/-! ### Shapes -/

/-- A command in general: it prepares its request and evaluates the reply. -/
def commandStart {κ : Type} (prep : Prog World (κ × EncapPacket)) (after : κ → RRDataResponse → Prog World α) : Task α :=
  .piece prep fun x => rrMade x.2 (after x.1)

/-- The calls that neither open nor close the session, by their pieces. -/
inductive Form : Task α → Prop
  | command {κ : Type} (prep : Prog World (κ × EncapPacket)) (after : κ → RRDataResponse → Prog World α)
      (hp : Reads 0 prep) (h : ∀ n x r, Reads n (after x r)) : Form (commandStart prep after)
  | receive (q : Nat → Prog World α) (h : ∀ n, Reads n (q n)) : Form (ioStart q)
  | send (o : Obj) (a : α) : Form (sendStart o a)
  | look (q : Prog World α) (h : Reads 0 q) : Form (.last q)

theorem form_shape {t : Task α} (h : DataShape t) : Form t := by
  cases h with
  | rr request after h =>
    refine .command (κ := Unit) _ (fun _ => after) ?_ fun n _ r => (h n r).reads
    exact Reads.get (fun s => s.sessionId) (fun _ _ => apart_id) (f := fun id => pure ((), request id))
      fun c => (Looks.pure _).reads
  | receive q h => exact .receive q fun n => (h n).reads
  | send o a => exact .send o a

theorem form_rr {κ : Type} (service : UInt8) (path : Path) {before : Prog World (κ × Option Obj)}
    {after : κ → RRDataResponse → Prog World α} (hb : Reads 0 before) (ha : ∀ n x r, Reads n (after x r)) :
    Form (Session.rrTask service path before after) := by
  refine .command _ after (Reads.bind hb fun x => ?_) ha
  exact Reads.get (fun s => s.sessionId) (fun _ _ => apart_id)
    (f := fun id => pure (x.1, Session.rrRequest service path x.2 id)) fun c => (Looks.pure _).reads

theorem form_task {op : Op} (h : Inside op) : Form op.task := by
  cases op with
  | «open» => exact h.elim
  | close => exact h.elim
  | getAttribute δ c init x y z => exact form_shape (shape_task (op := .getAttribute δ c init x y z) trivial)
  | setAttribute x y z d => exact form_shape (shape_task (op := .setAttribute x y z d) trivial)
  | receiveIOPacket => exact form_shape (shape_task (op := .receiveIOPacket) trivial)
  | sendIOPacket p => exact form_shape (shape_task (op := .sendIOPacket p) trivial)
  | getConnection n =>
    refine .look _ ?_
    refine Reads.get (fun s => s.connections[n]?) (fun _ _ h => by rw [apart_connections h]) (f := fun c =>
      match c with
      | none => Prog.undef .indexOutOfRange
      | some c => pure c) fun c => ?_
    cases c with
    | none => exact (Looks.const _ fun _ => rfl : Looks 0 _).reads
    | some c => exact (Looks.pure _).reads
  | createConnection o t =>
    show Form (Session.createTask o t)
    unfold Session.createTask
    refine form_rr _ _ ?_ fun n conn r => Reads.bind (Looks.onLocal _ _).reads fun result => ?_
    · refine Reads.get (fun s => Session.prepareConnection s o t) (fun s s' h => ?_) (f := fun conn => do
        Prog.modify (fun w => { w with s := { w.s with
          nextConnectionSn := w.s.nextConnectionSn + 1
          nextConnectionId := w.s.nextConnectionId + 1 + 1 } })
        pure (conn, some conn.createForwardOpenRequest.obj)) fun c => ?_
      · show Session.prepareConnection (apart s) o t = Session.prepareConnection (apart s') o t
        rw [h]
      · refine Reads.bind ?_ fun _ => (Looks.pure _).reads
        refine Reads.modify (f := fun s => { s with
          nextConnectionSn := s.nextConnectionSn + 1
          nextConnectionId := s.nextConnectionId + 1 + 1 }) (fun s s' h => ?_) fun _ => rfl
        have := congrArg (fun s : Session => { s with
          nextConnectionSn := s.nextConnectionSn + 1
          nextConnectionId := s.nextConnectionId + 1 + 1 }) h
        exact this
    · generalize conn.verifyForwardOpenResult result = q
      rcases q with ⟨(_ | _), c⟩
      · exact (Looks.raise _).reads
      · refine Reads.bind ?_ fun _ => ?_
        · refine Reads.modify (f := fun s => { s with connections := s.connections ++ [c] }) (fun s s' h => ?_) fun _ => rfl
          have := congrArg (fun s : Session => { s with connections := s.connections ++ [c] }) h
          exact this
        · exact Reads.get (fun s => s.connections) (fun _ _ => apart_connections)
            (f := fun l => pure (sizeToInt (sizeSub l.length 1))) fun c => (Looks.pure _).reads
  | closeConnection n =>
    show Form (Session.closeConnectionTask n)
    unfold Session.closeConnectionTask
    refine form_rr _ _ ?_ fun m conn r => Reads.bind (Looks.onLocal _ _).reads fun result => ?_
    · refine Reads.get (fun s => s.connections[n]?) (fun _ _ h => by rw [apart_connections h]) (f := fun c =>
        match c with
        | none => Prog.undef .indexOutOfRange
        | some c => pure ((), some c.createForwardCloseRequest.obj)) fun c => ?_
      cases c with
      | none => exact (Looks.const _ fun _ => rfl : Looks 0 _).reads
      | some c => exact (Looks.pure _).reads
    · refine Reads.get (fun s => s.connections[n]?) (fun _ _ h => by rw [apart_connections h]) (f := fun c =>
        match c with
        | none => Prog.undef .indexOutOfRange
        | some c =>
          if c.verifyForwardCloseResult result then
            Prog.modify (fun w => { w with s := { w.s with connections := w.s.connections.eraseIdx n } })
          else Prog.raise (logicError "Forward Close Response Invalid")) fun c => ?_
      cases c with
      | none => exact (Looks.const _ fun _ => rfl : Looks m _).reads
      | some c =>
        simp only []
        by_cases hv : c.verifyForwardCloseResult result = true
        · rw [if_pos hv]
          refine Reads.modify (f := fun s => { s with connections := s.connections.eraseIdx n }) (fun s s' h => ?_) fun _ => rfl
          have := congrArg (fun s : Session => { s with connections := s.connections.eraseIdx n }) h
          exact this
        · rw [if_neg hv]
          exact (Looks.raise _).reads

/-! ### The stages of a call -/

/-- What preparing a request does, wherever the session is in this state. -/
def Prepares {κ : Type} (prep : Prog World κ) (s : Session) (r : Res κ) (s1 : Session) : Prop :=
  ∀ w : World, apart w.s = apart s → prep w = (r, w.put s1)

theorem Reads.prepares {κ : Type} {prep : Prog World κ} (h : Reads 0 prep) (s : Session) : ∃ r s1, Prepares prep s r s1 := by
  refine ⟨(prep (facing s [])).1, (prep (facing s [])).2.s, fun w hw => ?_⟩
  obtain ⟨r, s', e, e'⟩ := h (facing s []) w hw.symm (by simp)
  rw [e', e]
  congr 1

/-- How far a call has come, that has made these socket calls, and what it has made of the session. -/
inductive Come (s : Session) (env : Nat → Answer) (trace : List Ev) (now : Session) : List Nat → Task α → Task α → Prop
  | fresh {t} (h : Form t) (hn : apart now = apart s) : Come s env trace now [] t t
  | made {κ prep after} {x : κ × EncapPacket} {s1} (hp : Prepares prep s (.ok x) s1) (h : ∀ n x r, Reads n (after x r))
      (hn : apart now = apart s1) : Come s env trace now [] (commandStart prep after) (rrMade x.2 (after x.1))
  | sent {κ prep after} {x : κ × EncapPacket} {s1 k bs} (hp : Prepares prep s (.ok x) s1) (h : ∀ n x r, Reads n (after x r))
      (hn : apart now = apart s1) (hs : Serializes x.2.obj bs) (hk : (env k).fails = false) :
      Come s env trace now [k] (commandStart prep after) (rrSent x.2 (after x.1))
  | replied {κ prep after} {x : κ × EncapPacket} {s1 k bs k'} (hp : Prepares prep s (.ok x) s1)
      (h : ∀ n x r, Reads n (after x r)) (hn : apart now = apart s1) (hs : Serializes x.2.obj bs)
      (hk : (env k).fails = false) (hk' : Kept env trace now.recvBuffer k') :
      Come s env trace now [k, k'] (commandStart prep after) (.last (rrEnd x.2 (after x.1) (delivered env k').length))
  | got {q : Nat → Prog World α} {k} (h : ∀ n, Reads n (q n)) (hn : apart now = apart s)
      (hk : Kept env trace now.recvBuffer k) : Come s env trace now [k] (ioStart q) (.last (q (delivered env k).length))

theorem Come.more {s : Session} {env : Nat → Answer} {trace : List Ev} {now now' : Session} {ms : List Nat} {t0 t : Task α}
    (h : Come s env trace now ms t0 t) (evs : List Ev) (ha : apart now' = apart now)
    (hb : now'.recvBuffer = evs.foldl overwrite now.recvBuffer) : Come s env (trace ++ evs) now' ms t0 t := by
  cases h with
  | fresh h hn => exact .fresh h (ha.trans hn)
  | made hp h hn => exact .made hp h (ha.trans hn)
  | sent hp h hn hs hk => exact .sent hp h (ha.trans hn) hs hk
  | replied hp h hn hs hk hk' => exact .replied hp h (ha.trans hn) hs hk (hb ▸ hk'.more evs)
  | got h hn hk => exact .got h (ha.trans hn) (hb ▸ hk.more evs)

theorem Come.going {s : Session} {env : Nat → Answer} {trace : List Ev} {now : Session} {ms : List Nat} {t0 : Task α} {r : Res α}
    (h : Come s env trace now ms t0 (.done r)) : False := by
  generalize hd : Task.done r = t at h
  cases h with
  | fresh h => cases h <;> cases hd
  | made => cases hd
  | sent => cases hd
  | replied => cases hd
  | got => cases hd

/-- The call goes on, or it is over with the result and the effect it has alone. -/
def Goes (s : Session) (env : Nat → Answer) (w w' : World) (ms : List Nat) (t0 t : Task α) : Prop :=
  ∃ ms', Extends w w' ms ms' ∧
    (Come s env w'.trace w'.s ms' t0 t ∨
      ∃ r, t = .done r ∧ ∀ g, Faithful env w'.trace ms' g → r = (t0.alone (facing s (ms'.map g))).1 ∧
        apart w'.s = apart (t0.alone (facing s (ms'.map g))).2.s)

theorem alone_command {κ : Type} {prep : Prog World (κ × EncapPacket)} {after : κ → RRDataResponse → Prog World α}
    {s s1 : Session} {x : κ × EncapPacket} (hp : Prepares prep s (.ok x) s1) {v : World} (hv : apart v.s = apart s) :
    (commandStart prep after).alone v = (rrMade x.2 (after x.1)).alone (v.put s1) :=
  alone_piece_ok (hp v hv)

theorem Reads.rrEnd (req : EncapPacket) {after : RRDataResponse → Prog World α} {n : Nat} (h : ∀ r, Reads n (after r)) :
    Reads n (rrEnd req after n) :=
  Reads.bind (Looks.catchLL (Looks.parseReply req n) _ _).reads fun _ => Reads.bind (Looks.rrRest _).reads fun _ => h _

/-- A call alone that has been told what remains of the bytes received, when it looks at them. -/
theorem alone_reads {q : Nat → Prog World α} {n : Nat} (h : Reads n (q n)) {k : Nat} {env : Nat → Answer} {trace : List Ev}
    {w v : World} (hk : Kept env trace w.s.recvBuffer k) (ha : apart w.s = apart v.s)
    (hv : (v.env v.clock).data.take 4096 = remains (trace.drop (k + 1)) (delivered env k))
    (hn : n = (delivered env k).length) {guard : Prog World Nat} {ev : Ev}
    (hg : guard v = (.ok (delivered v.env v.clock).length,
      { v.after ev with s := v.s.receiveInto (delivered v.env v.clock) })) :
    (q n w).1 = ((Task.piece guard fun n => .last (q n)).alone v).1 ∧
      apart (q n w).2.s = apart ((Task.piece guard fun n => .last (q n)).alone v).2.s := by
  have e : delivered v.env v.clock = remains (trace.drop (k + 1)) (delivered env k) := hv
  rw [alone_piece_ok hg, e, remains_length, ← hn, Task.alone_last]
  obtain ⟨r, s, h1, h2⟩ := h { v.after ev with s := v.s.receiveInto (remains (trace.drop (k + 1)) (delivered env k)) } w
    ha.symm (by
      rw [hn, hk.buffer]
      have := take_receiveInto v.s (remains (trace.drop (k + 1)) (delivered env k))
      rw [remains_length] at this
      exact this)
  rw [h1, h2]
  exact ⟨rfl, rfl⟩

theorem Come.step {s : Session} {env : Nat → Answer} {w : World} {ms : List Nat} {t0 : Task α} {β : Type} {q : Prog World β}
    {k : Res β → Task α} (h : Come s env w.trace w.s ms t0 (.next β q k)) (he : w.env = env)
    (hc : w.clock = w.trace.length) : Goes s env w (q w).2 ms t0 (k (q w).1) := by
  generalize ht : (Task.next β q k) = t at h
  cases h with
  | fresh h hn =>
    cases h with
    | @command κ prep after hp h =>
      cases ht
      obtain ⟨r, s1, hp⟩ := hp.prepares s
      rw [hp w hn]
      cases r with
      | ok x => exact ⟨[], Or.inl ⟨rfl, rfl⟩, Or.inl (.made hp h rfl)⟩
      | throw e =>
        refine ⟨[], Or.inl ⟨rfl, rfl⟩, Or.inr ⟨_, rfl, fun g hg => ?_⟩⟩
        rw [commandStart, alone_piece_throw (hp _ rfl)]
        exact ⟨rfl, rfl⟩
      | ub u =>
        refine ⟨[], Or.inl ⟨rfl, rfl⟩, Or.inr ⟨_, rfl, fun g hg => ?_⟩⟩
        rw [commandStart, alone_piece_ub (hp _ rfl)]
        exact ⟨rfl, rfl⟩
    | receive q h =>
      cases ht
      by_cases hf : (w.env w.clock).fails = true
      · obtain ⟨ev, e⟩ := receiveLength_fails (s := .io) hf
        rw [e]
        refine ⟨[w.clock], Or.inr ⟨rfl, rfl⟩, Or.inr ⟨_, rfl, fun g hg => ?_⟩⟩
        obtain ⟨ev', e'⟩ := receiveLength_fails (s := .io) (w := facing s ([w.clock].map g))
          ((facing_fails hg (n := 0) rfl).trans (he ▸ hf))
        rw [ioStart, alone_piece_throw e']
        exact ⟨rfl, hn⟩
      · have hf : (w.env w.clock).fails = false := Bool.eq_false_iff.mpr hf
        rw [receiveLength_works hf]
        refine ⟨[w.clock], Or.inr ⟨rfl, rfl⟩, Or.inl ?_⟩
        rw [he]
        exact .got h hn (receiveLength_kept hc (he ▸ hf) _ _)
    | send o a =>
      cases ht
      rcases send_cases o with ⟨bs, ho⟩ | ⟨e, ho⟩ | ⟨u, ho⟩
      · by_cases hf : (w.env w.clock).fails = true
        · rw [Prog.bind_throw (send_fails ho .io hf)]
          refine ⟨[w.clock], Or.inr ⟨rfl, rfl⟩, Or.inr ⟨_, rfl, fun g hg => ?_⟩⟩
          rw [sendStart, Task.alone_last, Prog.bind_throw (send_fails ho .io ((facing_fails hg (n := 0) rfl).trans (he ▸ hf)))]
          exact ⟨rfl, hn⟩
        · have hf : (w.env w.clock).fails = false := Bool.eq_false_iff.mpr hf
          rw [Prog.bind_ok (send_works ho .io hf)]
          refine ⟨[w.clock], Or.inr ⟨rfl, rfl⟩, Or.inr ⟨_, rfl, fun g hg => ?_⟩⟩
          rw [sendStart, Task.alone_last, Prog.bind_ok (send_works ho .io ((facing_fails hg (n := 0) rfl).trans (he ▸ hf)))]
          exact ⟨rfl, hn⟩
      · rw [Prog.bind_throw (ho _ _)]
        refine ⟨[], Or.inl ⟨rfl, rfl⟩, Or.inr ⟨_, rfl, fun g hg => ?_⟩⟩
        rw [sendStart, Task.alone_last, Prog.bind_throw (ho _ _)]
        exact ⟨rfl, hn⟩
      · rw [Prog.bind_ub (ho _ _)]
        refine ⟨[], Or.inl ⟨rfl, rfl⟩, Or.inr ⟨_, rfl, fun g hg => ?_⟩⟩
        rw [sendStart, Task.alone_last, Prog.bind_ub (ho _ _)]
        exact ⟨rfl, hn⟩
    | look q h =>
      cases ht
      obtain ⟨r, s1, hp⟩ := h.prepares s
      rw [hp w hn]
      refine ⟨[], Or.inl ⟨rfl, rfl⟩, Or.inr ⟨_, rfl, fun g hg => ?_⟩⟩
      rw [Task.alone_last, hp _ rfl]
      exact ⟨rfl, rfl⟩
  | @made κ prep after x s1 hp h hn =>
    cases ht
    rcases send_cases x.2.obj with ⟨bs, ho⟩ | ⟨e, ho⟩ | ⟨u, ho⟩
    · by_cases hf : (w.env w.clock).fails = true
      · rw [rrGuard_throw (send_fails ho .tcp hf)]
        refine ⟨[w.clock], Or.inr ⟨rfl, rfl⟩, Or.inr ⟨_, rfl, fun g hg => ?_⟩⟩
        have e := alone_piece_throw (f := fun _ => rrSent x.2 (after x.1)) (rrGuard_throw (send_fails ho .tcp
          (w := (facing s ([w.clock].map g)).put s1) ((facing_fails hg (n := 0) rfl).trans (he ▸ hf))))
        rw [alone_command hp rfl, rrMade, e]
        exact ⟨rfl, hn⟩
      · have hf : (w.env w.clock).fails = false := Bool.eq_false_iff.mpr hf
        rw [rrGuard_ok (send_works ho .tcp hf)]
        exact ⟨[w.clock], Or.inr ⟨rfl, rfl⟩, Or.inl (.sent hp h hn ho (he ▸ hf))⟩
    · rw [rrGuard_throw (ho _ _)]
      refine ⟨[], Or.inl ⟨rfl, rfl⟩, Or.inr ⟨_, rfl, fun g hg => ?_⟩⟩
      rw [alone_command hp rfl, rrMade, alone_piece_throw (rrGuard_throw (ho _ _))]
      exact ⟨rfl, hn⟩
    · rw [rrGuard_ub (ho _ _)]
      refine ⟨[], Or.inl ⟨rfl, rfl⟩, Or.inr ⟨_, rfl, fun g hg => ?_⟩⟩
      rw [alone_command hp rfl, rrMade, alone_piece_ub (rrGuard_ub (ho _ _))]
      exact ⟨rfl, hn⟩
  | @sent κ prep after x s1 k1 bs hp h hn ho hk =>
    cases ht
    by_cases hf : (w.env w.clock).fails = true
    · obtain ⟨ev, e⟩ := receiveLength_fails (s := .tcp) hf
      rw [rrGuard_throw e]
      refine ⟨[k1, w.clock], Or.inr ⟨rfl, rfl⟩, Or.inr ⟨_, rfl, fun g hg => ?_⟩⟩
      have h0 := (facing_fails (s := s) hg (n := 0) rfl).trans hk
      have h1 := (facing_fails (s := s) hg (n := 1) rfl).trans (he ▸ hf)
      obtain ⟨ev', e'⟩ := receiveLength_fails (s := .tcp)
        (w := ((facing s ([k1, w.clock].map g)).put s1).after (.sent .tcp bs true)) h1
      rw [alone_command hp rfl, alone_rrMade ho (after x.1) (w := (facing s ([k1, w.clock].map g)).put s1) h0, rrSent,
        alone_piece_throw (rrGuard_throw e')]
      exact ⟨rfl, hn⟩
    · have hf : (w.env w.clock).fails = false := Bool.eq_false_iff.mpr hf
      rw [rrGuard_ok (receiveLength_works hf)]
      refine ⟨[k1, w.clock], Or.inr ⟨rfl, rfl⟩, Or.inl ?_⟩
      rw [he]
      exact .replied hp h hn ho hk (receiveLength_kept hc (he ▸ hf) _ _)
  | @replied κ prep after x s1 k1 bs k2 hp h hn ho hk hk' =>
    cases ht
    obtain ⟨r, s2, e, _⟩ := Reads.rrEnd x.2 (fun r => h (delivered env k2).length x.1 r) w w rfl rfl
    have hw : (rrEnd x.2 (after x.1) (delivered env k2).length w).2.trace = w.trace := by rw [e]; rfl
    refine ⟨[k1, k2], Or.inl ⟨rfl, by rw [e]; rfl⟩, Or.inr ⟨_, rfl, fun g hg => ?_⟩⟩
    rw [hw] at hg
    have h0 := (facing_fails (s := s) hg (n := 0) rfl).trans hk
    have h1 := (facing_fails (s := s) hg (n := 1) rfl).trans hk'.worked
    rw [alone_command hp rfl, alone_rrMade ho (after x.1) (w := (facing s ([k1, k2].map g)).put s1) h0]
    exact alone_reads (q := rrEnd x.2 (after x.1)) (Reads.rrEnd _ (fun r => h _ x.1 r)) hk' hn
      (facing_data (s := s) hg (n := 1) rfl hk'.event) rfl
      (v := ((facing s ([k1, k2].map g)).put s1).after (.sent .tcp bs true))
      (rrGuard_ok (receiveLength_works h1))
  | @got q k1 h hn hk =>
    cases ht
    obtain ⟨r, s2, e, _⟩ := h (delivered env k1).length w w rfl rfl
    have hw : (q (delivered env k1).length w).2.trace = w.trace := by rw [e]; rfl
    refine ⟨[k1], Or.inl ⟨rfl, by rw [e]; rfl⟩, Or.inr ⟨_, rfl, fun g hg => ?_⟩⟩
    rw [hw] at hg
    have h1 := (facing_fails (s := s) hg (n := 0) rfl).trans hk.worked
    exact alone_reads (q := q) (h _) hk hn (facing_data (s := s) hg (n := 0) rfl hk.event) rfl
      (v := facing s ([k1].map g)) (receiveLength_works h1)

/-! ### Calls that leave the session alone -/

/-- A piece that changes nothing of the session but the receive buffer. -/
def BufferOnly (p : Prog World α) : Prop := ∀ w, apart (p w).2.s = apart w.s

theorem BufferOnly.pure (a : α) : BufferOnly (Pure.pure a : Prog World α) := fun _ => rfl
theorem BufferOnly.get : BufferOnly (Prog.get : Prog World World) := fun _ => rfl

theorem Looks.quiet {n : Nat} {p : Prog World α} (h : Looks n p) : BufferOnly p := fun w => by
  obtain ⟨r, e, _⟩ := h w w rfl rfl
  rw [e]

theorem BufferOnly.bind {β : Type} {p : Prog World α} {f : α → Prog World β} (hp : BufferOnly p) (hf : ∀ a, BufferOnly (f a)) :
    BufferOnly (p >>= f) := by
  intro w
  have h := hp w
  simp only [Prog.bind_def, Prog.andThen]
  generalize p w = r at h ⊢
  obtain ⟨(a | e | u), w'⟩ := r
  · exact (hf a w').trans h
  · exact h
  · exact h

theorem BufferOnly.rrGuard {p : Prog World α} (hp : BufferOnly p) : BufferOnly (Session.rrGuard p) := by
  intro w
  have h := hp w
  simp only [Session.rrGuard, Session.catchLengthLogic, Prog.tryCatch]
  generalize p w = r at h ⊢
  obtain ⟨(a | e | u), w'⟩ := r
  · exact h
  · simp only []
    split
    · exact h
    · split <;> exact h
  · exact h

theorem BufferOnly.length (s : Sock) : BufferOnly (do let bytes ← Eip.sockReceive s; Pure.pure bytes.length) :=
  BufferOnly.bind (fun w => by rw [sockReceive_eq]; split <;> rfl) fun _ => BufferOnly.pure _

theorem BufferOnly.sockSend (s : Sock) (o : Obj) : BufferOnly (Eip.sockSend s o) := by
  refine BufferOnly.bind (fun w => ?_) fun _ => BufferOnly.bind (fun w => ?_) (fun _ => BufferOnly.pure _)
  · simp only [serializeToVector]
    rcases o.serialize (.buffer (BufferWriter.new (List.replicate o.getLength 0))) with ⟨(_ | e | u), (bw | sw)⟩ <;> rfl
  · rw [sockCall_eq]
    split <;> rfl

theorem quiet_rr {κ : Type} (service : UInt8) (path : Path) {before : Prog World (κ × Option Obj)}
    {after : κ → RRDataResponse → Prog World α} (hb : BufferOnly before) (ha : ∀ x r, BufferOnly (after x r)) :
    AllPieces BufferOnly (Session.rrTask service path before after) :=
  .piece (BufferOnly.bind hb fun _ => BufferOnly.bind BufferOnly.get fun _ => BufferOnly.pure _) fun _ =>
  .piece (BufferOnly.rrGuard (BufferOnly.sockSend _ _)) fun _ =>
  .piece (BufferOnly.rrGuard (BufferOnly.length _)) fun n =>
  .last (BufferOnly.bind (BufferOnly.rrGuard (Looks.parseReply _ n).quiet) fun _ =>
    BufferOnly.bind (Looks.rrRest (n := 0) _).quiet fun _ => ha _ _)

theorem quiet_get {δ : Type} (c : Class δ) (init : δ) (x y z : UInt8) : AllPieces BufferOnly (Session.getTask c init x y z) := by
  unfold Session.getTask
  exact quiet_rr _ _ (BufferOnly.pure _) fun _ _ => (Looks.onLocal (n := 0) _ _).quiet

theorem quiet_set (x y z : UInt8) (d : Option Obj) : AllPieces BufferOnly (Session.setTask x y z d) := by
  unfold Session.setTask
  exact quiet_rr _ _ (BufferOnly.pure _) fun _ _ => BufferOnly.pure _

theorem quiet_task {op : Op} (h : Transfers op) : AllPieces BufferOnly op.task := by
  cases op with
  | getAttribute δ c init x y z => exact quiet_get c init x y z
  | setAttribute x y z d => exact quiet_set x y z d
  | receiveIOPacket =>
    exact .piece (BufferOnly.length _) fun n => .last (BufferOnly.bind BufferOnly.get fun w => (Looks.onLocal (n := 0) _ _).quiet)
  | sendIOPacket p => exact .last (BufferOnly.bind (BufferOnly.sockSend _ _) fun _ => BufferOnly.pure _)
  | «open» => exact h.elim
  | close => exact h.elim
  | createConnection => exact h.elim
  | closeConnection => exact h.elim
  | getConnection => exact h.elim

/-! ### A call among others that leave the session alone -/

variable {ops : Nat → Op}

/-- The pieces that remain to be done of the calls that leave the session alone do so. -/
def Calm (p : Pool ops) : Prop := ∀ j, Transfers (ops j) → AllPieces BufferOnly (p.tasks j)

theorem Calm.start (s : Session) (env : Nat → Answer) : Calm (Pool.start ops s env) := fun _ h => quiet_task h

theorem Calm.step {p : Pool ops} (h : Calm p) (j : Nat) : Calm (p.step j) := by
  intro i hi
  cases ht : p.tasks j with
  | done r =>
    rw [step_done ht]
    exact h i hi
  | next β q k =>
    rw [step_next ht]
    by_cases e : i = j
    · subst e
      have := h i hi
      rw [ht] at this
      show AllPieces BufferOnly (p.update i _ i)
      rw [p.update_self]
      exact this.2 _
    · show AllPieces BufferOnly (p.update j _ i)
      rw [p.update_other e]
      exact h i hi

theorem Calm.steps {p : Pool ops} (h : Calm p) (l : List Nat) : Calm (p.steps l) := by
  induction l generalizing p with
  | nil => exact h
  | cons j l ih => exact ih (h.step j)

theorem Calm.keeps {p : Pool ops} (h : Calm p) {j : Nat} (hj : Transfers (ops j)) : apart (p.step j).w.s = apart p.w.s := by
  cases ht : p.tasks j with
  | done r => rw [step_done ht]
  | next β q k =>
    have := h j hj
    rw [ht] at this
    rw [step_next ht]
    exact this.1 p.w

/-- How far call `i` has come: over, or at some stage. -/
def Going (s : Session) (env : Nat → Answer) (i : Nat) (p : Pool ops) : Prop :=
  (∃ r, p.tasks i = .done r) ∨ Come s env p.w.trace p.w.s (mine i p.made) (ops i).task (p.tasks i)

theorem Come.own {s0 s : Session} {env : Nat → Answer} {i : Nat} {p : Pool ops} (hf : Fits s0 env p)
    (h : Come s env p.w.trace p.w.s (mine i p.made) (ops i).task (p.tasks i)) :
    Come s env (p.step i).w.trace (p.step i).w.s (mine i (p.step i).made) (ops i).task ((p.step i).tasks i) ∨
      ∃ r', (p.step i).tasks i = .done r' ∧ ∀ g, Faithful env (p.step i).w.trace (mine i (p.step i).made) g →
        r' = ((ops i).task.alone (facing s ((mine i (p.step i).made).map g))).1 ∧
        apart (p.step i).w.s = apart ((ops i).task.alone (facing s ((mine i (p.step i).made).map g))).2.s := by
  cases ht : p.tasks i with
  | done r' =>
    rw [ht] at h
    exact h.going.elim
  | next β q k =>
    rw [ht] at h
    obtain ⟨ms', hx, h'⟩ := h.step hf.env (hf.clock.trans hf.trace.symm)
    have hmine := hx.mine hf.clock
    rw [step_next ht]
    show Come _ _ _ _ (mine i (p.made ++ _)) _ (p.update i _ i) ∨ ∃ r', p.update i _ i = _ ∧ ∀ g, Faithful _ _ (mine i (p.made ++ _)) g →
      r' = (Task.alone _ (facing s ((mine i (p.made ++ _)).map g))).1 ∧
      apart _ = apart (Task.alone _ (facing s ((mine i (p.made ++ _)).map g))).2.s
    rw [p.update_self, hmine]
    exact h'

theorem Going.step {s0 s : Session} {env : Nat → Answer} {i : Nat} {p : Pool ops} (hf : Fits s0 env p) (hc : Calm p)
    (h : Going s env i p) (j : Nat) (hj : j ≠ i → Transfers (ops j)) : Going s env i (p.step j) := by
  by_cases e : i = j
  · subst e
    rcases h with ⟨r, h⟩ | h
    · rw [step_done h]
      exact Or.inl ⟨r, h⟩
    · rcases h.own hf with h | ⟨r, h, _⟩
      · exact Or.inr h
      · exact Or.inl ⟨r, h⟩
  · obtain ⟨evs, _, hm, hmade, htasks⟩ := hf.step j
    have ha := hc.keeps (hj (Ne.symm e))
    rw [Going, htasks i e, hmade, mine_other (Ne.symm e), hm.trace]
    rcases h with h | h
    · exact Or.inl h
    · exact Or.inr (h.more evs ha hm.buffer)

theorem Going.steps {s0 s : Session} {env : Nat → Answer} {i : Nat} {p : Pool ops} (hf : Fits s0 env p) (hc : Calm p)
    (h : Going s env i p) (l : List Nat) (hl : ∀ j ∈ l, j ≠ i → Transfers (ops j)) : Going s env i (p.steps l) := by
  induction l generalizing p with
  | nil => exact h
  | cons j l ih =>
    have h' := h.step hf hc j (hl j (by simp))
    obtain ⟨_, hf', _⟩ := hf.step j
    exact ih hf' (hc.step j) h' fun j' hj' => hl j' (by simp [hj'])

/-- A call that has not begun. -/
theorem untouched {s : Session} {env : Nat → Answer} {i : Nat} {p : Pool ops} (hf : Fits s env p) (l : List Nat) (hl : i ∉ l) :
    (p.steps l).tasks i = p.tasks i ∧ mine i (p.steps l).made = mine i p.made := by
  induction l generalizing p with
  | nil => exact ⟨rfl, rfl⟩
  | cons j l ih =>
    obtain ⟨evs, hf', _, hmade, htasks⟩ := hf.step j
    have hj : j ≠ i := fun e => hl (by simp [e])
    obtain ⟨h1, h2⟩ := ih hf' (fun h => hl (by simp [h]))
    exact ⟨h1.trans (htasks i (Ne.symm hj)), h2.trans (by rw [hmade, mine_other hj])⟩

/-- The result and the effect of a call during which the other calls leave the session alone. -/
theorem finish_control {s : Session} {env : Nat → Answer} {i : Nat} (hin : ∀ j, Inside (ops j)) {before during : List Nat}
    (hb : i ∉ before) (hd : ∀ j ∈ during, j ≠ i → Transfers (ops j)) {p1 p : Pool ops}
    (h1 : p1 = (Pool.start ops s env).steps before) (hp : p = (p1.steps during).step i) {r : Res (ops i).Value}
    (h : ∀ r', ¬ Over i (p1.steps during) r') (hr : Over i p r) :
    p.w.env = env ∧ ∀ g, Faithful env p.w.trace (mine i p.made) g →
      r = ((ops i).value (facing p1.w.s ((mine i p.made).map g))).1 ∧
      apart p.w.s = apart ((ops i).value (facing p1.w.s ((mine i p.made).map g))).2.s := by
  have hf0 := Fits.start hin s env
  have hf1 : Fits s env p1 := h1 ▸ hf0.steps before
  have hc1 : Calm p1 := h1 ▸ (Calm.start s env).steps before
  obtain ⟨ht, hm⟩ := untouched hf0 before hb
  rw [← h1] at ht hm
  have hg : Going p1.w.s env i p1 := by
    refine Or.inr ?_
    rw [ht, hm]
    exact .fresh (form_task (hin i)) rfl
  have hs := hg.steps hf1 hc1 during hd
  have hf := hf1.steps during
  subst hp
  generalize p1.steps during = q at *
  obtain ⟨_, hf', _⟩ := hf.step i
  refine ⟨hf'.env, fun g hfaith => ?_⟩
  rcases hs with ⟨r', hs⟩ | hs
  · exact (h r' hs).elim
  · rcases hs.own hf with h' | ⟨r', h', e⟩
    · rw [hr] at h'
      exact h'.going.elim
    · rw [hr] at h'
      cases h'
      have := e g hfaith
      rwa [alone_task] at this

end Eip
