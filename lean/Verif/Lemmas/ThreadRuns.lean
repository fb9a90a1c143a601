import Verif.Lemmas.ThreadSteps
/-
The calls of a pool, one by one.
-/
namespace Eip
open Spec

variable {ops : Nat → Op}

/-! ### Steps -/

theorem Pool.update_self (p : Pool ops) (i : Nat) (t : Task (ops i).Value) : p.update i t i = t := by
  simp [Pool.update]

theorem Pool.update_other (p : Pool ops) {i j : Nat} (h : j ≠ i) (t : Task (ops i).Value) : p.update i t j = p.tasks j := by
  simp [Pool.update, h]

theorem step_done {p : Pool ops} {i : Nat} {r : Res (ops i).Value} (h : p.tasks i = .done r) : p.step i = p := by
  rw [Pool.step, h]

theorem step_next {p : Pool ops} {i : Nat} {β : Type} {q : Prog World β} {k : Res β → Task (ops i).Value}
    (h : p.tasks i = .next β q k) : p.step i = ⟨(q p.w).2, p.update i (k (q p.w).1),
      p.made ++ List.replicate ((q p.w).2.clock - p.w.clock) i⟩ := by
  rw [Pool.step, h]

theorem mine_append (i : Nat) (a b : List Nat) :
    mine i (a ++ b) = mine i a ++ ((b.zipIdx a.length).filter (fun x => x.1 == i)).map (·.2) := by
  rw [mine, mine, List.zipIdx_append, List.filter_append, List.map_append, Nat.zero_add]

theorem mine_other {i j : Nat} (h : j ≠ i) (made : List Nat) (n : Nat) : mine i (made ++ List.replicate n j) = mine i made := by
  rw [mine_append, List.filter_eq_nil_iff.mpr, List.map_nil, List.append_nil]
  intro x hx
  have := List.fst_mem_of_mem_zipIdx hx
  rw [List.mem_replicate] at this
  rw [this.2]
  simpa using h

theorem mine_zero (i : Nat) (made : List Nat) : mine i (made ++ List.replicate 0 i) = mine i made := by simp

theorem mine_one (i : Nat) (made : List Nat) : mine i (made ++ List.replicate 1 i) = mine i made ++ [made.length] := by
  rw [mine_append]
  simp [List.replicate]

/-- What all calls have in common. -/
structure Fits (s : Session) (env : Nat → Answer) (p : Pool ops) : Prop where
  env : p.w.env = env
  id : p.w.s.sessionId = s.sessionId
  clock : p.w.clock = p.made.length
  trace : p.w.trace.length = p.made.length
  pieces : ∀ j, AllPieces Moving (p.tasks j)

theorem Fits.start (h : ∀ j, Inside (ops j)) (s : Session) (env : Nat → Answer) : Fits s env (Pool.start ops s env) :=
  ⟨rfl, rfl, rfl, rfl, fun j => moving_task (h j)⟩

/-- A step of some call: socket calls that belong to it, and other calls are left alone. -/
theorem Fits.step {s : Session} {env : Nat → Answer} {p : Pool ops} (h : Fits s env p) (j : Nat) :
    ∃ evs, Fits s env (p.step j) ∧ Moves p.w (p.step j).w evs ∧ (p.step j).made = p.made ++ List.replicate evs.length j ∧
      ∀ i, i ≠ j → (p.step j).tasks i = p.tasks i := by
  cases ht : p.tasks j with
  | done r =>
    rw [step_done ht]
    exact ⟨[], h, Moves.refl _, by simp, fun _ _ => rfl⟩
  | next β q k =>
    have hp := h.pieces j
    rw [ht] at hp
    obtain ⟨evs, hm⟩ := hp.1 p.w
    rw [step_next ht]
    have e : (q p.w).2.clock - p.w.clock = evs.length := by rw [hm.clock]; omega
    refine ⟨evs, ⟨hm.env.trans h.env, hm.id.trans h.id, ?_, ?_, fun i => ?_⟩, hm, by rw [e], fun i hi => p.update_other hi _⟩
    · rw [hm.clock, h.clock, List.length_append, List.length_replicate]
      omega
    · simp only [hm.trace, h.trace, List.length_append, List.length_replicate, e]
    · by_cases hi : i = j
      · subst hi
        show AllPieces Moving (p.update i _ i)
        rw [p.update_self]
        exact hp.2 _
      · show AllPieces Moving (p.update j _ i)
        rw [p.update_other hi]
        exact h.pieces i

theorem Fits.steps {s : Session} {env : Nat → Answer} {p : Pool ops} (h : Fits s env p) (l : List Nat) :
    Fits s env (p.steps l) := by
  induction l generalizing p with
  | nil => exact h
  | cons j l ih =>
    obtain ⟨_, h', _⟩ := h.step j
    exact ih h'

/-! ### The buffer -/

theorem overwrite_length (b : Bytes) (ev : Ev) : b.length ≤ (overwrite b ev).length := by
  unfold overwrite
  split
  · rw [List.length_append, List.length_drop]
    omega
  · exact Nat.le_refl _

theorem overwrite_take {n : Nat} {a b : Bytes} (h : a.take n = b.take n) (ev : Ev) :
    (overwrite a ev).take n = (overwrite b ev).take n := by
  unfold overwrite
  split
  · rename_i d
    rw [List.take_append, List.take_append]
    congr 1
    rw [List.take_drop, List.take_drop]
    by_cases hd : d.length ≤ n
    · rw [show d.length + (n - d.length) = n by omega, h]
    · have e : n - d.length = 0 := by omega
      rw [e, Nat.add_zero, List.drop_eq_nil_of_le (by simp; omega), List.drop_eq_nil_of_le (by simp; omega)]
  · exact h

theorem overwrites_take {n : Nat} {a b : Bytes} (h : a.take n = b.take n) (evs : List Ev) : (evs.foldl overwrite a).take n = (evs.foldl overwrite b).take n := by
  induction evs generalizing a b with
  | nil => exact h
  | cons ev evs ih =>
    exact ih (overwrite_take h ev)

theorem overwrites_length (b : Bytes) (evs : List Ev) : b.length ≤ (evs.foldl overwrite b).length := by
  induction evs generalizing b with
  | nil => exact Nat.le_refl _
  | cons ev evs ih => exact Nat.le_trans (overwrite_length b ev) (ih _)

theorem remains_length (evs : List Ev) (d : Bytes) : (remains evs d).length = d.length := by
  rw [remains, List.length_take]
  exact Nat.min_eq_left (overwrites_length d evs)

theorem remains_nil (d : Bytes) : remains [] d = d := List.take_length

/-- What remains in the buffer after more events. -/
theorem remains_append {buf d : Bytes} {evs : List Ev} (h : buf.take d.length = remains evs d)
    (more : List Ev) : (more.foldl overwrite buf).take d.length = remains (evs ++ more) d := by
  rw [remains, List.foldl_append]
  exact overwrites_take h more

/-- Nothing has happened to the received bytes if nobody has received since. -/
theorem remains_quiet {evs : List Ev} (h : ∀ ev ∈ evs, ¬ Received ev) (d : Bytes) : remains evs d = d := by
  have : evs.foldl overwrite d = d := by
    induction evs generalizing d with
    | nil => rfl
    | cons ev evs ih =>
      have e : overwrite d ev = d := by
        have := h ev (List.mem_cons_self ..)
        unfold overwrite
        split
        · exact (this rfl).elim
        · rfl
      rw [List.foldl_cons, e]
      exact ih (fun ev' h' => h ev' (List.mem_cons_of_mem _ h')) d
  rw [remains, this, List.take_length]

/-! ### The shapes of calls that transfer data -/

variable {α : Type}

/-- Receiving, for the number of bytes. -/
def receiveLength (s : Sock) : Prog World Nat := do
  let bytes ← sockReceive s
  pure bytes.length

theorem receiveLength_fails {s : Sock} {w : World} (h : (w.env w.clock).fails = true) :
    ∃ ev, receiveLength s w = (.throw systemError, w.after ev) := by
  have e := sockReceive_eq s w
  rw [if_pos h] at e
  exact ⟨_, Prog.bind_throw e⟩

theorem receiveLength_works {s : Sock} {w : World} (h : (w.env w.clock).fails = false) :
    receiveLength s w = (.ok (delivered w.env w.clock).length,
      { w.after (.received s (delivered w.env w.clock) true) with s := w.s.receiveInto (delivered w.env w.clock) }) := by
  have e := sockReceive_eq s w
  rw [if_neg (by rw [h]; simp)] at e
  exact Prog.bind_ok e

theorem rrGuard_ok {p : Prog World α} {w w' : World} {a : α} (h : p w = (.ok a, w')) : Session.rrGuard p w = (.ok a, w') := by
  simp only [Session.rrGuard, Session.catchLengthLogic, Prog.tryCatch, h]

/-- What the handlers make of an exception. -/
def rrThrown (e : Exn) : Exn :=
  if e.kind.isA .lengthError then runtimeError "Packet response to RR Data Command too short"
  else if e.kind.isA .logicError then runtimeError "Invalid packet response to RR Data Command"
  else e

theorem rrGuard_throw {p : Prog World α} {w w' : World} {e : Exn} (h : p w = (.throw e, w')) :
    Session.rrGuard p w = (.throw (rrThrown e), w') := by
  simp only [Session.rrGuard, Session.catchLengthLogic, Prog.tryCatch, h, rrThrown]
  by_cases h1 : e.kind.isA .lengthError = true
  · simp only [h1, if_true]
    rfl
  · by_cases h2 : e.kind.isA .logicError = true
    · rw [if_neg h1, if_neg h1, if_pos h2, if_pos h2]
      rfl
    · rw [if_neg h1, if_neg h1, if_neg h2, if_neg h2]
      rfl

theorem rrGuard_ub {p : Prog World α} {w w' : World} {u : UB} (h : p w = (.ub u, w')) : Session.rrGuard p w = (.ub u, w') := by
  simp only [Session.rrGuard, Session.catchLengthLogic, Prog.tryCatch, h]

/-- What remains of a command when its reply has been received. -/
def rrEnd (req : EncapPacket) (after : RRDataResponse → Prog World α) (n : Nat) : Prog World α := do
  let response ← Session.rrGuard (Session.parseReply req n)
  let respData ← Session.rrRest response
  after respData

/-- What remains when the request has been sent. -/
def rrSent (req : EncapPacket) (after : RRDataResponse → Prog World α) : Task α :=
  .piece (Session.rrGuard (receiveLength .tcp)) fun n => .last (rrEnd req after n)

/-- What remains when the request has been made up. -/
def rrMade (req : EncapPacket) (after : RRDataResponse → Prog World α) : Task α :=
  .piece (Session.rrGuard (sockSend .tcp req.obj)) fun _ => rrSent req after

theorem Looks.rrEnd (req : EncapPacket) {after : RRDataResponse → Prog World α} {n : Nat} (h : ∀ r, Looks n (after r)) :
    Looks n (rrEnd req after n) :=
  Looks.bind (Looks.catchLL (Looks.parseReply req n) _ _) fun _ => Looks.bind (Looks.rrRest _) fun _ => h _

/-- A command, whose request depends on the session id. -/
def rrStart (request : UInt32 → EncapPacket) (after : RRDataResponse → Prog World α) : Task α :=
  .piece (do let w ← Prog.get; pure ((), request w.s.sessionId) : Prog World (Unit × EncapPacket)) fun x => rrMade x.2 after

/-- Receiving and looking at what has been received. -/
def ioStart (q : Nat → Prog World α) : Task α := .piece (receiveLength .io) fun n => .last (q n)

/-- Sending and nothing else. -/
def sendStart (o : Obj) (a : α) : Task α := .last (do let _ ← sockSend .io o; pure a)

/-- The calls that transfer data, by their pieces. -/
inductive DataShape : Task α → Prop
  | rr (request : UInt32 → EncapPacket) (after : RRDataResponse → Prog World α) (h : ∀ n r, Looks n (after r)) :
      DataShape (rrStart request after)
  | receive (q : Nat → Prog World α) (h : ∀ n, Looks n (q n)) : DataShape (ioStart q)
  | send (o : Obj) (a : α) : DataShape (sendStart o a)

theorem shape_rr (service : UInt8) (path : Path) (data : Option Obj) (after : RRDataResponse → Prog World α)
    (h : ∀ n r, Looks n (after r)) : DataShape (Session.rrTask service path (pure ((), data)) (fun _ => after)) :=
  DataShape.rr (Session.rrRequest service path data) after h

theorem shape_task {op : Op} (h : Transfers op) : DataShape op.task := by
  cases op with
  | getAttribute δ c init x y z =>
    show DataShape (Session.getTask c init x y z)
    unfold Session.getTask
    exact shape_rr _ _ _ _ fun n r => Looks.onLocal _ _
  | setAttribute x y z d =>
    show DataShape (Session.setTask x y z d)
    unfold Session.setTask
    exact shape_rr _ _ _ _ fun n r => Looks.pure _
  | receiveIOPacket =>
    refine DataShape.receive _ fun n => ?_
    exact Looks.buffer (f := fun bytes => Session.onLocal ⟨[]⟩ (fun p =>
      match CPFPacket.deserialize (p, .buffer (BufferReader.new bytes)) with
      | (r, (p', _)) => (r, p'))) fun _ => Looks.onLocal _ _
  | sendIOPacket p => exact DataShape.send p.obj ()
  | _ => exact h.elim

/-! ### The stages of a call -/

/-- The answer to socket call number `k`, with what remains of the bytes received. -/
def told (env : Nat → Answer) (trace : List Ev) (k : Nat) : Answer :=
  { env k with data := remains (trace.drop (k + 1)) (delivered env k) }

theorem delivered_length (env : Nat → Answer) (k : Nat) : (delivered env k).length ≤ 4096 := by
  rw [delivered, List.length_take]
  omega

theorem told_take (env : Nat → Answer) (trace : List Ev) (k : Nat) :
    (told env trace k).data.take 4096 = remains (trace.drop (k + 1)) (delivered env k) := by
  apply List.take_of_length_le
  rw [told, remains_length]
  exact delivered_length env k

/-- Answers that fail as those of the session do, and that have the bytes received as they look now. -/
def Faithful (env : Nat → Answer) (trace : List Ev) (ms : List Nat) (g : Nat → Answer) : Prop :=
  ∀ k ∈ ms, (g k).fails = (env k).fails ∧ ((∃ s d, trace[k]? = some (.received s d true)) →
    (g k).data.take 4096 = remains (trace.drop (k + 1)) (delivered env k))

theorem Faithful.told (env : Nat → Answer) (trace : List Ev) (ms : List Nat) : Faithful env trace ms (Eip.told env trace) :=
  fun _ _ => ⟨rfl, fun _ => told_take ..⟩

/-- The bytes received by socket call `k` are still in the buffer, but for what others have received since. -/
structure Kept (env : Nat → Answer) (trace : List Ev) (buf : Bytes) (k : Nat) : Prop where
  worked : (env k).fails = false
  past : k < trace.length
  event : ∃ s d, trace[k]? = some (.received s d true)
  buffer : buf.take (delivered env k).length = remains (trace.drop (k + 1)) (delivered env k)

theorem Kept.more {env : Nat → Answer} {trace : List Ev} {buf : Bytes} {k : Nat} (h : Kept env trace buf k) (evs : List Ev) :
    Kept env (trace ++ evs) (evs.foldl overwrite buf) k := by
  have := h.past
  refine ⟨h.worked, by rw [List.length_append]; omega, ?_, ?_⟩
  · obtain ⟨s, d, e⟩ := h.event
    exact ⟨s, d, by rw [List.getElem?_append_left h.past, e]⟩
  rw [remains_append h.buffer, List.drop_append_of_le_length (by omega)]

/-- How far a call has come, that has made these socket calls. -/
inductive At (s : Session) (env : Nat → Answer) (trace : List Ev) (buf : Bytes) : List Nat → Task α → Task α → Prop
  | fresh {t} (h : DataShape t) : At s env trace buf [] t t
  | made {request after} (h : ∀ n r, Looks n (after r)) :
      At s env trace buf [] (rrStart request after) (rrMade (request s.sessionId) after)
  | sent {request after k bs} (h : ∀ n r, Looks n (after r)) (hs : Serializes (request s.sessionId).obj bs)
      (hk : (env k).fails = false) : At s env trace buf [k] (rrStart request after) (rrSent (request s.sessionId) after)
  | replied {request after k bs k'} (h : ∀ n r, Looks n (after r)) (hs : Serializes (request s.sessionId).obj bs)
      (hk : (env k).fails = false) (hk' : Kept env trace buf k') :
      At s env trace buf [k, k'] (rrStart request after) (.last (rrEnd (request s.sessionId) after (delivered env k').length))
  | got {q : Nat → Prog World α} {k} (h : ∀ n, Looks n (q n)) (hk : Kept env trace buf k) :
      At s env trace buf [k] (ioStart q) (.last (q (delivered env k).length))

theorem At.more {s : Session} {env : Nat → Answer} {trace : List Ev} {buf : Bytes} {ms : List Nat} {t0 t : Task α}
    (h : At s env trace buf ms t0 t) (evs : List Ev) : At s env (trace ++ evs) (evs.foldl overwrite buf) ms t0 t := by
  cases h with
  | fresh h => exact .fresh h
  | made h => exact .made h
  | sent h hs hk => exact .sent h hs hk
  | replied h hs hk hk' => exact .replied h hs hk (hk'.more evs)
  | got h hk => exact .got h (hk.more evs)

/-! ### The call alone -/

theorem alone_piece_ok {β : Type} {q : Prog World β} {f : β → Task α} {w w' : World} {b : β} (h : q w = (.ok b, w')) :
    (Task.piece q f).alone w = (f b).alone w' := by
  rw [Task.alone_piece, Prog.bind_ok h]

theorem alone_piece_throw {β : Type} {q : Prog World β} {f : β → Task α} {w w' : World} {e : Exn} (h : q w = (.throw e, w')) :
    (Task.piece q f).alone w = (.throw e, w') := by
  rw [Task.alone_piece, Prog.bind_throw h]

theorem alone_piece_ub {β : Type} {q : Prog World β} {f : β → Task α} {w w' : World} {u : UB} (h : q w = (.ub u, w')) :
    (Task.piece q f).alone w = (.ub u, w') := by
  rw [Task.alone_piece, Prog.bind_ub h]

theorem rrThrown_system : rrThrown systemError = systemError := rfl

theorem send_cases (o : Obj) : (∃ bs, Serializes o bs) ∨ (∃ e, ∀ s w, sockSend s o w = (.throw e, w)) ∨
    (∃ u, ∀ s w, sockSend s o w = (.ub u, w)) := by
  rcases serialize_cases o with h | ⟨e, h⟩ | ⟨u, h⟩
  · exact Or.inl h
  · exact Or.inr (Or.inl ⟨e, fun s w => Prog.bind_throw (h w)⟩)
  · exact Or.inr (Or.inr ⟨u, fun s w => Prog.bind_ub (h w)⟩)

theorem send_fails {o : Obj} {bs : Bytes} (ho : Serializes o bs) (s : Sock) {w : World} (h : (w.env w.clock).fails = true) :
    sockSend s o w = (.throw systemError, w.after (.sent s bs false)) := by
  rw [sockSend_eq ho, if_pos h]

theorem send_works {o : Obj} {bs : Bytes} (ho : Serializes o bs) (s : Sock) {w : World} (h : (w.env w.clock).fails = false) :
    sockSend s o w = (.ok (min (w.env w.clock).accepted bs.length), w.after (.sent s bs true)) := by
  rw [sockSend_eq ho, if_neg (by rw [h]; simp)]

theorem alone_rrStart (request : UInt32 → EncapPacket) (after : RRDataResponse → Prog World α) (w : World) :
    (rrStart request after).alone w = (rrMade (request w.s.sessionId) after).alone w := rfl

theorem alone_rrMade {req : EncapPacket} {bs : Bytes} (ho : Serializes req.obj bs) (after : RRDataResponse → Prog World α)
    {w : World} (h : (w.env w.clock).fails = false) :
    (rrMade req after).alone w = (rrSent req after).alone (w.after (.sent .tcp bs true)) :=
  alone_piece_ok (rrGuard_ok (send_works ho .tcp h))

/-- A call alone that has been told what remains of the bytes received, when it looks at them. -/
theorem alone_look {q : Nat → Prog World α} {n : Nat} (h : Looks n (q n)) {k : Nat} {env : Nat → Answer} {trace : List Ev}
    {w v : World} (hk : Kept env trace w.s.recvBuffer k) (hid : w.s.sessionId = v.s.sessionId)
    (hv : (v.env v.clock).data.take 4096 = remains (trace.drop (k + 1)) (delivered env k))
    (hn : n = (delivered env k).length) {guard : Prog World Nat} {ev : Ev}
    (hg : guard v = (.ok (delivered v.env v.clock).length,
      { v.after ev with s := v.s.receiveInto (delivered v.env v.clock) })) :
    ((Task.piece guard fun n => .last (q n)).alone v).1 = (q n w).1 := by
  have e : delivered v.env v.clock = remains (trace.drop (k + 1)) (delivered env k) := hv
  rw [alone_piece_ok hg, e, remains_length, ← hn, Task.alone_last]
  obtain ⟨r, h1, h2⟩ := h { v.after ev with s := v.s.receiveInto (remains (trace.drop (k + 1)) (delivered env k)) } w
    hid.symm (by
      rw [hn, hk.buffer]
      have := take_receiveInto v.s (remains (trace.drop (k + 1)) (delivered env k))
      rw [remains_length] at this
      exact this)
  rw [h1, h2]

end Eip
