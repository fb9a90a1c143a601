import Verif.Lemmas.ThreadControl
import Verif.Props.Threads
import Verif.Props.Connections
/-
C124: creating and closing connections in several threads.
-/
namespace Eip
open Spec

variable {ops : Nat → Op}

/-! ### C124 -/

/-- C124 (partial: when the calls of the other threads, while this one is under way, are reading or writing attributes and
transferring I/O data). However the threads take turns, a call that neither opens nor closes the session, such as creating
or closing a connection, ends with the result and leaves the session in the state that it has and leaves alone, when it
begins in the same state and its socket calls get the same answers, except that the bytes it has received are what
remains of them in the buffer when it looks at them. Missing: other threads that create or close connections at the same
time, for which it is false. -/
theorem c124_control_partial (inside : ∀ j, Inside (ops j)) (i : Nat) (s : Session) (env : Nat → Answer)
    (before during : List Nat) (begins : i ∉ before) (transfer : ∀ j ∈ during, j ≠ i → Transfers (ops j))
    (p1 p : Pool ops) (at1 : p1 = (Pool.start ops s env).steps before) (at2 : p = (p1.steps during).step i)
    (r : Res (ops i).Value) (notYet : ∀ r', ¬ Over i (p1.steps during) r') (now : Over i p r) :
    r = ((ops i).value (facing p1.w.s (seen i p))).1 ∧
    apart p.w.s = apart ((ops i).value (facing p1.w.s (seen i p))).2.s := by
  obtain ⟨he, h⟩ := finish_control inside begins transfer at1 at2 notYet now
  rw [seen, he]
  exact h _ (Faithful.told _ _ _)

/-- C124 (partial: as before, and when no other call receives anything between the call's receive and its end). The call
ends with the result and leaves the session in the state that it has and leaves alone, when it begins in the same state and
its socket calls get the same answers. -/
theorem c124_apart_partial (inside : ∀ j, Inside (ops j)) (i : Nat) (s : Session) (env : Nat → Answer)
    (before during : List Nat) (begins : i ∉ before) (transfer : ∀ j ∈ during, j ≠ i → Transfers (ops j))
    (p1 p : Pool ops) (at1 : p1 = (Pool.start ops s env).steps before) (at2 : p = (p1.steps during).step i)
    (r : Res (ops i).Value) (notYet : ∀ r', ¬ Over i (p1.steps during) r') (now : Over i p r) (alone : Undisturbed i p) :
    r = ((ops i).value (facing p1.w.s (own i p))).1 ∧
    apart p.w.s = apart ((ops i).value (facing p1.w.s (own i p))).2.s := by
  obtain ⟨he, h⟩ := finish_control inside begins transfer at1 at2 notYet now
  rw [own, he]
  refine h _ fun k hk => ⟨rfl, fun ⟨sk, d, e⟩ => ?_⟩
  rw [remains_quiet (alone k hk sk d e)]
  rfl

/-! ### C124 is false -/

/-- The request that closes a connection. -/
def closeRequest (c : Connection) (id : UInt32) : EncapPacket :=
  Session.rrRequest 0x4E (Path.mk2 0x06 1) (some c.createForwardCloseRequest.obj) id

/-- The rest of `closeConnection` when the data of the reply are known. -/
def closeBack (n : Nat) (result : ForwardCloseSuccess) : Prog World Unit := do
  let w ← Prog.get
  match w.s.connections[n]? with
  | none => Prog.undef .indexOutOfRange
  | some c =>
    if c.verifyForwardCloseResult result then
      Prog.modify (fun w => { w with s := { w.s with connections := w.s.connections.eraseIdx n } })
    else Prog.raise (logicError "Forward Close Response Invalid")

/-- The rest of `closeConnection` when the reply has been accepted. -/
def closeAfter (n : Nat) (respData : RRDataResponse) : Prog World Unit := do
  let result ← Session.onLocal Session.freshForwardCloseSuccess (respData.getResponseDataAs ForwardCloseSuccess.cls)
  closeBack n result

/-- Looking at the reply. -/
def closeFront (req : EncapPacket) (n : Nat) : Prog World ForwardCloseSuccess := do
  let response ← Session.rrGuard (Session.parseReply req n)
  let respData ← Session.rrRest response
  Session.onLocal Session.freshForwardCloseSuccess (respData.getResponseDataAs ForwardCloseSuccess.cls)

theorem Looks.closeFront (req : EncapPacket) (n : Nat) : Looks n (closeFront req n) :=
  Looks.bind (Looks.catchLL (Looks.parseReply req n) _ _) fun _ => Looks.bind (Looks.rrRest _) fun _ => Looks.onLocal _ _

theorem closeEnd (req : EncapPacket) (n k : Nat) : rrEnd req (closeAfter n) k = closeFront req k >>= closeBack n := by
  funext w
  simp only [rrEnd, closeFront, closeAfter, Prog.bind_def, Prog.andThen]
  rcases Session.rrGuard (Session.parseReply req k) w with ⟨(a | e | u), w'⟩ <;> try rfl
  simp only []
  rcases Session.rrRest a w' with ⟨(a | e | u), w'⟩ <;> rfl

/-- The request is made up. -/
def closePrepare (n : Nat) : Prog World (Unit × EncapPacket) := do
  let (x, data) ← (do
    let w ← Prog.get
    match w.s.connections[n]? with
    | none => Prog.undef .indexOutOfRange
    | some c => pure ((), some c.createForwardCloseRequest.obj) : Prog World (Unit × Option Obj))
  let w ← Prog.get
  pure (x, Session.rrRequest 0x4E (Path.mk2 0x06 1) data w.s.sessionId)

theorem close_task (n : Nat) : (Op.closeConnection n).task = commandStart (closePrepare n) (fun _ => closeAfter n) := rfl

theorem closePrepare_some {n : Nat} {c : Connection} {w : World} (h : w.s.connections[n]? = some c) :
    closePrepare n w = (.ok ((), closeRequest c w.s.sessionId), w) := by
  simp only [closePrepare, Prog.bind_def, Prog.andThen, Prog.get, h]
  rfl

theorem closePrepare_none {n : Nat} {w : World} (h : w.s.connections[n]? = none) :
    closePrepare n w = (.ub .indexOutOfRange, w) := by
  simp only [closePrepare, Prog.bind_def, Prog.andThen, Prog.get, h]
  rfl

/-- What it takes to close a connection. -/
structure Closable (s : Session) (n : Nat) (a b : Answer) (c : Connection) (result : ForwardCloseSuccess) (bs : Bytes) : Prop where
  connection : s.connections[n]? = some c
  request : Serializes (closeRequest c s.sessionId).obj bs
  sent : a.fails = false
  replied : b.fails = false
  front : ∀ w : World, w.s.sessionId = s.sessionId → w.s.recvBuffer.take (b.data.take 4096).length = b.data.take 4096 →
    closeFront (closeRequest c s.sessionId) (b.data.take 4096).length w = (.ok result, w)
  verified : c.verifyForwardCloseResult result = true

theorem closable_of {s : Session} {n : Nat} {a b : Answer}
    (h : ((Op.closeConnection n).value (facing s [a, b])).1 = .ok ()) : ∃ c result bs, Closable s n a b c result bs := by
  have h : ((Op.closeConnection n).task.alone (facing s [a, b])).1 = .ok () := by rw [alone_task]; exact h
  rw [close_task, commandStart] at h
  cases hc : s.connections[n]? with
  | none =>
    rw [alone_piece_ub (closePrepare_none (w := facing s [a, b]) hc)] at h
    cases h
  | some c =>
    rw [alone_piece_ok (closePrepare_some (w := facing s [a, b]) hc)] at h
    simp only [] at h
    have es : (facing s [a, b]).s = s := rfl
    rw [es] at h
    generalize hq : closeRequest c s.sessionId = req at h
    rcases send_cases req.obj with ⟨bs, ho⟩ | ⟨e, ho⟩ | ⟨u, ho⟩
    · cases ha : a.fails with
      | true =>
        rw [rrMade, alone_piece_throw (rrGuard_throw (send_fails ho .tcp (w := facing s [a, b]) ha))] at h
        cases h
      | false =>
        rw [alone_rrMade ho _ (w := facing s [a, b]) ha] at h
        cases hb : b.fails with
        | true =>
          obtain ⟨ev, e⟩ := receiveLength_fails (s := .tcp) (w := (facing s [a, b]).after (.sent .tcp bs true)) hb
          rw [rrSent, alone_piece_throw (rrGuard_throw e)] at h
          cases h
        | false =>
          rw [rrSent, alone_piece_ok (rrGuard_ok (receiveLength_works (s := .tcp)
            (w := (facing s [a, b]).after (.sent .tcp bs true)) hb)), Task.alone_last, closeEnd] at h
          have ed : delivered ((facing s [a, b]).after (.sent .tcp bs true)).env
            ((facing s [a, b]).after (.sent .tcp bs true)).clock = b.data.take 4096 := rfl
          rw [ed] at h
          generalize hw : ({ ((facing s [a, b]).after (.sent .tcp bs true)).after (.received .tcp (b.data.take 4096) true) with
            s := ((facing s [a, b]).after (.sent .tcp bs true)).s.receiveInto (b.data.take 4096) } : World) = w at h
          have hs : w.s = s.receiveInto (b.data.take 4096) := by rw [← hw]; rfl
          obtain ⟨r, e, _⟩ := Looks.closeFront req (b.data.take 4096).length w w rfl rfl
          cases r with
          | throw x => rw [Prog.bind_throw e] at h; cases h
          | ub u => rw [Prog.bind_ub e] at h; cases h
          | ok result =>
            rw [Prog.bind_ok e] at h
            refine ⟨c, result, bs, hc, hq ▸ ho, ha, hb, fun w' h1 h2 => ?_, ?_⟩
            · rw [hq]
              obtain ⟨r, e1, e2⟩ := Looks.closeFront req (b.data.take 4096).length w w' (by rw [hs, h1]; rfl)
                (by rw [hs, h2]; exact take_receiveInto s _)
              rw [e] at e1
              cases e1
              exact e2
            · have hc' : w.s.connections[n]? = some c := by rw [hs]; exact hc
              simp only [closeBack, Prog.get, Prog.bind_def, Prog.andThen, hc'] at h
              cases hv : c.verifyForwardCloseResult result with
              | true => rfl
              | false => simp only [hv] at h; cases h
    · rw [rrMade, alone_piece_throw (rrGuard_throw (ho _ _))] at h
      cases h
    · rw [rrMade, alone_piece_ub (rrGuard_ub (ho _ _))] at h
      cases h

theorem steps_append (p : Pool ops) (a b : List Nat) : p.steps (a ++ b) = (p.steps a).steps b := by
  induction a generalizing p with
  | nil => rfl
  | cons j a ih => exact ih _

/-- One call prepares to close connection `n`, the other one closes connection `m`, and then the first one goes on. -/
theorem close_both {s : Session} {env : Nat → Answer} {n m : Nat} {c c' : Connection} {result result' : ForwardCloseSuccess}
    {bs bs' : Bytes} (h : Closable s n (env 2) (env 3) c result bs) (h' : Closable s m (env 0) (env 1) c' result' bs')
    {p : Pool (both (.closeConnection n) (.closeConnection m))}
    (hp : p = (Pool.start (both (.closeConnection n) (.closeConnection m)) s env).steps [0, 1, 1, 1, 1, 0, 0, 0]) :
    ∃ w : World, w.s.connections = s.connections.eraseIdx m ∧ p.tasks 0 = .done (closeBack n result w).1 ∧
      p.tasks 1 = .done (.ok ()) ∧ p.w = (closeBack n result w).2 ∧ p.made = [1, 1, 0, 0] := by
  have hst : p = (((((Pool.start (both (.closeConnection n) (.closeConnection m)) s env).step 0).step 1).steps [1, 1]).step
    1 |>.steps [0, 0]).step 0 := hp
  clear hp
  have t0 : (Pool.start (both (.closeConnection n) (.closeConnection m)) s env).tasks 0 =
    commandStart (closePrepare n) (fun _ => closeAfter n) := rfl
  have t1 : (Pool.start (both (.closeConnection n) (.closeConnection m)) s env).tasks 1 =
    commandStart (closePrepare m) (fun _ => closeAfter m) := rfl
  have w0 : (Pool.start (both (.closeConnection n) (.closeConnection m)) s env).w = ⟨s, env, 0, []⟩ := rfl
  have m0 : (Pool.start (both (.closeConnection n) (.closeConnection m)) s env).made = [] := rfl
  generalize Pool.start (both (.closeConnection n) (.closeConnection m)) s env = p0 at *
  obtain ⟨a1, a2, a3, a4⟩ := step_ok t0 (closePrepare_some (w := p0.w) (by rw [w0]; exact h.connection))
  have a5 := (a4 1 (by decide)).trans t1
  rw [w0] at a1 a2 a3
  rw [m0] at a3
  generalize p0.step 0 = p1 at *
  obtain ⟨b1, b2, b3, b4⟩ := step_ok a5 (closePrepare_some (w := p1.w) (by rw [a1]; exact h'.connection))
  have b5 := (b4 0 (by decide)).trans a2
  rw [a1] at b1 b2 b3
  rw [a3] at b3
  generalize p1.step 1 = p2 at *
  obtain ⟨c1, c2, c3, c4⟩ := rr_run b2 h'.request (by rw [b1]; exact ⟨h'.sent, h'.replied⟩)
  have c5 := (c4 0 (by decide)).trans b5
  rw [b1] at c1 c2
  rw [b3] at c3
  generalize p2.steps [1, 1] = p3 at *
  have f : closeFront (closeRequest c' s.sessionId) (delivered env 1).length p3.w = (.ok result', p3.w) :=
    h'.front p3.w (by rw [c1]; rfl) (by rw [c1]; exact take_receiveInto s _)
  have e : p3.w.s.connections[m]? = some c' := by rw [c1]; exact h'.connection
  have g : closeBack m result' p3.w =
    (.ok (), { p3.w with s := { p3.w.s with connections := p3.w.s.connections.eraseIdx m } }) := by
    simp only [closeBack, Prog.get, Prog.bind_def, Prog.andThen, e, h'.verified, if_true, Prog.modify]
  have g' : rrEnd (closeRequest c' s.sessionId) (closeAfter m) (delivered env 1).length p3.w =
    (.ok (), { p3.w with s := { p3.w.s with connections := p3.w.s.connections.eraseIdx m } }) := by
    rw [closeEnd, Prog.bind_ok f, g]
  obtain ⟨d1, d2, d3, d4⟩ := step_last c2 g'
  have d5 := (d4 0 (by decide)).trans c5
  rw [c1] at d1
  rw [c3] at d3
  simp only [Nat.sub_self, List.replicate_zero, List.append_nil, List.nil_append] at d3
  generalize p3.step 1 = p4 at *
  obtain ⟨e1, e2, e3, e4⟩ := rr_run d5 h.request (by rw [d1]; exact ⟨h.sent, h.replied⟩)
  have e5 := (e4 1 (by decide)).trans d2
  rw [d1] at e2
  rw [d3] at e3
  have e6 : p4.w.s.connections = s.connections.eraseIdx m := by rw [d1]; rfl
  generalize p4.steps [0, 0] = p5 at *
  have f : closeFront (closeRequest c s.sessionId) (delivered env 3).length p5.w = (.ok result, p5.w) := by
    refine h.front p5.w (by rw [e1, d1]; rfl) ?_
    rw [e1, d1]
    exact take_receiveInto _ _
  have g : rrEnd (closeRequest c s.sessionId) (closeAfter n) (delivered env 3).length p5.w = closeBack n result p5.w := by
    rw [closeEnd, Prog.bind_ok f]
  have hb : (closeBack n result p5.w).2.clock = p5.w.clock := by
    simp only [closeBack, Prog.get, Prog.bind_def, Prog.andThen]
    cases p5.w.s.connections[n]? with
    | none => rfl
    | some x =>
      simp only []
      cases x.verifyForwardCloseResult result <;> rfl
  obtain ⟨r, w', hr⟩ : ∃ r w', closeBack n result p5.w = (r, w') := ⟨_, _, rfl⟩
  obtain ⟨f1, f2, f3, f4⟩ := step_last e2 (g.trans hr)
  rw [hr] at hb
  refine ⟨p5.w, ?_, ?_, ?_, ?_, ?_⟩
  · rw [e1]; exact e6
  · rw [hst, hr]; exact f2
  · rw [hst]; exact (f4 1 (by decide)).trans e5
  · rw [hst, hr]; exact f1
  · rw [hst, f3, e3, hb]
    simp

/-- C124 is false. Two threads close two connections, each of which could be closed: if one is closed after the other
thread has made up its request and before it has evaluated the reply, and the other connection was the last one, there is
no such connection any more, and the behaviour is undefined. -/
theorem c124_violated (s : Session) (env : Nat → Answer) (n m : Nat) (order : m < n) (last : s.connections.length = n + 1)
    (closable : ((Op.closeConnection n).value (facing s [env 2, env 3])).1 = .ok ())
    (closable' : ((Op.closeConnection m).value (facing s [env 0, env 1])).1 = .ok ())
    (p : Pool (both (.closeConnection n) (.closeConnection m)))
    (at1 : p = (Pool.start (both (.closeConnection n) (.closeConnection m)) s env).steps [0, 1, 1, 1, 1, 0, 0, 0]) :
    own 0 p = [env 2, env 3] ∧ p.tasks 0 = .done (.ub .indexOutOfRange) := by
  obtain ⟨c, result, bs, h⟩ := closable_of closable
  obtain ⟨c', result', bs', h'⟩ := closable_of closable'
  obtain ⟨w, hw, h0, _, h2, hm⟩ := close_both h h' at1
  have e : w.s.connections[n]? = none := by
    rw [hw, List.getElem?_eq_none_iff, List.length_eraseIdx]
    split <;> omega
  have hb : closeBack n result w = (.ub .indexOutOfRange, w) := by
    simp only [closeBack, Prog.get, Prog.bind_def, Prog.andThen, e, Prog.undef]
  rw [hb] at h0
  have hin : ∀ j, Inside (both (.closeConnection n) (.closeConnection m) j) := fun j => by cases j <;> trivial
  have he := ((Fits.start hin s env).steps [0, 1, 1, 1, 1, 0, 0, 0]).env
  rw [← at1] at he
  refine ⟨?_, h0⟩
  rw [own, hm, he]
  rfl

/-- C124 is false if it was not the last one, too: the reply is then compared with the next connection. It is rejected
although the device has closed the connection, and a connection that no longer exists remains on the list. -/
theorem c124_violated_list (s : Session) (env : Nat → Answer) (n m : Nat) (order : m < n) (c next : Connection)
    (at_n : s.connections[n]? = some c) (at_next : s.connections[n + 1]? = some next)
    (different : c.connectionSn ≠ next.connectionSn)
    (closable : ((Op.closeConnection n).value (facing s [env 2, env 3])).1 = .ok ())
    (closable' : ((Op.closeConnection m).value (facing s [env 0, env 1])).1 = .ok ())
    (p : Pool (both (.closeConnection n) (.closeConnection m)))
    (at1 : p = (Pool.start (both (.closeConnection n) (.closeConnection m)) s env).steps [0, 1, 1, 1, 1, 0, 0, 0]) :
    own 0 p = [env 2, env 3] ∧ p.tasks 0 = .done (.throw (logicError "Forward Close Response Invalid")) ∧
      p.w.s.connections = s.connections.eraseIdx m ∧ c ∈ p.w.s.connections := by
  obtain ⟨c0, result, bs, h⟩ := closable_of closable
  obtain ⟨c', result', bs', h'⟩ := closable_of closable'
  obtain rfl : c = c0 := by
    have := h.connection
    rw [at_n] at this
    exact Option.some.inj this
  obtain ⟨w, hw, h0, _, h2, hm⟩ := close_both h h' at1
  have e : w.s.connections[n]? = some next := by
    rw [hw, List.getElem?_eraseIdx, if_neg (by omega), at_next]
  have hv : next.verifyForwardCloseResult result = false := by
    have := h.verified
    simp only [Connection.verifyForwardCloseResult, decide_eq_true_eq, decide_eq_false_iff_not] at this ⊢
    intro x
    exact different (this.1.symm.trans x.1)
  have hb : closeBack n result w = (.throw (logicError "Forward Close Response Invalid"), w) := by
    simp [closeBack, Prog.get, Prog.bind_def, Prog.andThen, e, Prog.raise, hv]
  rw [hb] at h0 h2
  have hin : ∀ j, Inside (both (.closeConnection n) (.closeConnection m) j) := fun j => by cases j <;> trivial
  have he := ((Fits.start hin s env).steps [0, 1, 1, 1, 1, 0, 0, 0]).env
  rw [← at1] at he
  have hc : p.w.s.connections = s.connections.eraseIdx m := by rw [h2, hw]
  refine ⟨?_, h0, hc, ?_⟩
  · rw [own, hm, he]
    rfl
  · rw [hc]
    refine List.mem_of_getElem? (i := n - 1) ?_
    rw [List.getElem?_eraseIdx, if_neg (by omega), Nat.sub_add_cancel (by omega), at_n]

/-! ### Cases -/

/-- An open session with these connections. -/
def holding (l : List Connection) : Session := { seven with connections := l }

/-- The device accepts the closing of two connections. -/
def accepting (a b : UInt16) : Nat → Answer
  | 1 => ⟨false, closeAnswer a, 0⟩
  | 3 => ⟨false, closeAnswer b, 0⟩
  | _ => ⟨false, [], 100⟩

example : (holding [stored 3, stored 4]).connections.length = 1 + 1 ∧
    ((Op.closeConnection 1).value (facing (holding [stored 3, stored 4]) [accepting 3 4 2, accepting 3 4 3])).1 = .ok () ∧
    ((Op.closeConnection 0).value (facing (holding [stored 3, stored 4]) [accepting 3 4 0, accepting 3 4 1])).1 = .ok () := by
  decide +kernel

example : (holding [stored 3, stored 4, stored 5]).connections[1]? = some (stored 4) ∧
    (holding [stored 3, stored 4, stored 5]).connections[2]? = some (stored 5) ∧
    (stored 4).connectionSn ≠ (stored 5).connectionSn ∧
    ((Op.closeConnection 1).value (facing (holding [stored 3, stored 4, stored 5])
      [accepting 3 4 2, accepting 3 4 3])).1 = .ok () ∧
    ((Op.closeConnection 0).value (facing (holding [stored 3, stored 4, stored 5])
      [accepting 3 4 0, accepting 3 4 1])).1 = .ok () := by
  refine ⟨rfl, rfl, by decide, by decide +kernel, by decide +kernel⟩

/-- A connection is closed while another thread sends a datagram in the meantime. -/
def closing : Nat → Op := both (.closeConnection 0) (.sendIOPacket ⟨[]⟩)

/-- The request is sent, then the datagram, then the reply arrives. -/
def between : Nat → Answer
  | 2 => ⟨false, closeAnswer 3, 0⟩
  | _ => ⟨false, [], 100⟩

def closing1 : Pool closing := (Pool.start closing (holding [stored 3]) between).steps []

example : ∀ j, Inside (closing j) := fun j => by cases j <;> trivial
example : ∀ j ∈ [0, 0, 1, 0], j ≠ 0 → Transfers (closing j) := by
  intro j h hj
  cases j with
  | zero => exact (hj rfl).elim
  | succ j => trivial
example : ∀ r', ¬ Over 0 (closing1.steps [0, 0, 1, 0]) r' := by
  intro r' h
  have e : ∀ (t : Task Unit) (r : Res Unit), t = .done r → (match t with | .done _ => true | .next .. => false) = true := by
    rintro _ _ rfl; rfl
  have := e _ _ h
  revert this
  decide +kernel
example : Over 0 ((closing1.steps [0, 0, 1, 0]).step 0) (.ok ()) := by
  have e : ∀ (t : Task Unit), (match t with | .done (.ok ()) => true | _ => false) = true → t = .done (.ok ()) := by
    intro t h
    split at h
    · rfl
    · cases h
  exact e _ (by decide +kernel)
example : ((closing1.steps [0, 0, 1, 0]).step 0).w.s.connections = [] := by decide +kernel
example : mine 0 ((closing1.steps [0, 0, 1, 0]).step 0).made = [0, 2] := by decide +kernel

end Eip
