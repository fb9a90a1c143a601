import Verif.Lemmas.Races
/-
Which places the accesses of a call concern, and threads whose calls concern different places.
-/
namespace Eip
open Spec

/-! ### Places -/

theorem Spec.SameAt.refl (p : Place) (s : Session) : SameAt p s s := by
  cases p <;> simp [SameAt]

theorem Spec.SameAt.symm {p : Place} {s s' : Session} (h : SameAt p s s') : SameAt p s' s := by
  cases p <;> simp_all [SameAt]

theorem Spec.SameAt.trans {p : Place} {s s' s'' : Session} (h : SameAt p s s') (h' : SameAt p s' s'') : SameAt p s s'' := by
  cases p <;> simp_all [SameAt]

/-! ### Single accesses -/

namespace Access

variable {β : Type}

/-- How many socket calls an access is. -/
def cost : Access β → Nat
  | .openSocket .. => 1
  | .closeSocket _ => 1
  | .send .. => 1
  | .receive _ => 1
  | _ => 0

theorem cost_le (a : Access β) : a.cost ≤ 1 := by
  cases a <;> simp [cost]

theorem open_eq (s : Sock) (h p : String) (w : World) : (Access.openSocket s h p).perform w =
    if (w.env w.clock).fails then (.throw systemError, w.after (.opened s h p false)) else (.ok (), w.after (.opened s h p true)) :=
  sockOpen_eq s h p w

theorem close_eq (s : Sock) (w : World) : (Access.closeSocket s).perform w =
    if (w.env w.clock).fails then (.throw systemError, w.after (.closed s false)) else (.ok (), w.after (.closed s true)) :=
  sockClose_eq s w

theorem send_eq (s : Sock) (bs : Bytes) (w : World) : (Access.send s bs).perform w =
    if (w.env w.clock).fails then (.throw systemError, w.after (.sent s bs false))
    else (.ok (min (w.env w.clock).accepted bs.length), w.after (.sent s bs true)) := by
  show sockSendBuffer s bs w = _
  simp only [sockSendBuffer, Prog.bind_def, Prog.andThen, sockCall_eq]
  by_cases h : (w.env w.clock).fails <;> simp [h, Prog.pure_apply]

theorem receive_eq (s : Sock) (w : World) : (Access.receive s).perform w =
    if (w.env w.clock).fails then (.throw systemError, w.after (.received s (delivered w.env w.clock) false))
    else (.ok (delivered w.env w.clock).length,
        { w.after (.received s (delivered w.env w.clock) true) with s := w.s.receiveInto (delivered w.env w.clock) }) := by
  show (do let bytes ← sockReceive s; pure bytes.length : Prog World Nat) w = _
  simp only [Prog.bind_def, Prog.andThen, sockReceive_eq]
  by_cases h : (w.env w.clock).fails <;> simp [h, Prog.pure_apply]

theorem delivered_congr {e e' : Nat → Answer} {n m : Nat} (h : e n = e' m) : delivered e n = delivered e' m := by
  simp only [delivered, h]

theorem perform_env (a : Access β) (w : World) : (a.perform w).2.env = w.env := by
  cases a with
  | openSocket => rw [open_eq]; split <;> rfl
  | closeSocket => rw [close_eq]; split <;> rfl
  | send => rw [send_eq]; split <;> rfl
  | receive => rw [receive_eq]; split <;> rfl
  | _ => rfl

theorem perform_clock (a : Access β) (w : World) : (a.perform w).2.clock = w.clock + a.cost := by
  cases a with
  | openSocket => rw [open_eq]; split <;> rfl
  | closeSocket => rw [close_eq]; split <;> rfl
  | send => rw [send_eq]; split <;> rfl
  | receive => rw [receive_eq]; split <;> rfl
  | _ => rfl

/-- An access leaves alone what it does not write. -/
theorem perform_frame (a : Access β) (w : World) {p : Place} (hp : p ∉ a.writes) : SameAt p w.s (a.perform w).2.s := by
  cases a with
  | openSocket => rw [open_eq]; split <;> exact SameAt.refl _ _
  | closeSocket => rw [close_eq]; split <;> exact SameAt.refl _ _
  | send => rw [send_eq]; split <;> exact SameAt.refl _ _
  | receive =>
    rw [receive_eq]
    split
    · exact SameAt.refl _ _
    · cases p <;> simp_all [writes, SameAt, Session.receiveInto]
  | _ => cases p <;> simp_all [writes, SameAt, perform]

/-- An access yields and writes the same if it is answered the same and finds the same at the places it concerns. -/
theorem perform_same (a : Access β) {w v : World} (ha : a.cost = 1 → w.env w.clock = v.env v.clock)
    (hp : ∀ p, p ∈ a.reads ∨ p ∈ a.writes → SameAt p w.s v.s) :
    (a.perform w).1 = (a.perform v).1 ∧ ∀ p, p ∈ a.writes → SameAt p (a.perform w).2.s (a.perform v).2.s := by
  cases a with
  | openSocket =>
    rw [open_eq, open_eq, ha rfl]
    split <;> exact ⟨rfl, fun p h => hp p (.inr h)⟩
  | closeSocket =>
    rw [close_eq, close_eq, ha rfl]
    split <;> exact ⟨rfl, fun p h => hp p (.inr h)⟩
  | send =>
    rw [send_eq, send_eq, ha rfl]
    split <;> exact ⟨rfl, fun p h => hp p (.inr h)⟩
  | receive =>
    rw [receive_eq, receive_eq, ha rfl, delivered_congr (ha rfl)]
    split
    · exact ⟨rfl, fun p h => hp p (.inr h)⟩
    · refine ⟨rfl, fun p h => ?_⟩
      have hb : w.s.recvBuffer = v.s.recvBuffer := hp .recvBuffer (.inr (by simp [writes]))
      cases p <;> simp_all [writes, SameAt, Session.receiveInto]
  | readBuffer n => exact ⟨by rw [perform, perform, show w.s.recvBuffer = v.s.recvBuffer from hp .recvBuffer (.inl (by simp [reads]))], by simp [writes]⟩
  | readId => exact ⟨hp .sessionId (.inl (by simp [reads])), by simp [writes]⟩
  | readIdentity =>
    have := hp .identity (.inl (by simp [reads]))
    exact ⟨Prod.ext this.1 this.2, by simp [writes]⟩
  | readSn => exact ⟨hp .nextSn (.inl (by simp [reads])), by simp [writes]⟩
  | readNextId => exact ⟨hp .nextId (.inl (by simp [reads])), by simp [writes]⟩
  | readConnections => exact ⟨hp .connections (.inl (by simp [reads])), by simp [writes]⟩
  | _ => simp [writes, SameAt, perform]

/-- Accesses that are answered the same are the same socket calls. -/
theorem perform_trace (a : Access β) {w v : World} (ha : a.cost = 1 → w.env w.clock = v.env v.clock) :
    ∃ evs, evs.length = a.cost ∧ (a.perform w).2.trace = w.trace ++ evs ∧ (a.perform v).2.trace = v.trace ++ evs := by
  cases a with
  | openSocket s h p =>
    rw [open_eq, open_eq, ha rfl]
    split <;> exact ⟨[_], rfl, rfl, rfl⟩
  | closeSocket s =>
    rw [close_eq, close_eq, ha rfl]
    split <;> exact ⟨[_], rfl, rfl, rfl⟩
  | send s b =>
    rw [send_eq, send_eq, ha rfl]
    split <;> exact ⟨[_], rfl, rfl, rfl⟩
  | receive s =>
    rw [receive_eq, receive_eq, ha rfl, delivered_congr (ha rfl)]
    split <;> exact ⟨[_], rfl, rfl, rfl⟩
  | _ => exact ⟨[], rfl, (List.append_nil _).symm, (List.append_nil _).symm⟩

end Access

/-! ### Places of a call -/

namespace Code

variable {α β : Type} {R W : List Place}

/-- The accesses read only places in `R` and write only places in `W`. -/
def Within (R W : List Place) : Code α → Prop
  | .done _ => True
  | .access a next => (∀ p ∈ a.reads, p ∈ R) ∧ (∀ p ∈ a.writes, p ∈ W) ∧ ∀ x, (next x).Within R W

theorem within_bind {c : Code α} {f : α → Code β} (hc : c.Within R W) (hf : ∀ a, (f a).Within R W) : (c >>= f).Within R W := by
  show (c.andThen f).Within R W
  induction c with
  | done r => cases r with
    | ok a => exact hf a
    | _ => trivial
  | access a next ih => exact ⟨hc.1, hc.2.1, fun x => ih x (hc.2.2 x)⟩

theorem within_pure (a : α) : (pure a : Code α).Within R W := trivial
theorem within_raise (e : Exn) : (raise e : Code α).Within R W := trivial
theorem within_done (r : Res α) : (Code.done r).Within R W := trivial
theorem within_own (p : Prog Unit β) : (own p).Within R W := trivial

theorem within_catch {c x y : Code α} (hc : c.Within R W) (hx : x.Within R W) (hy : y.Within R W) :
    (c.catchLengthLogic x y).Within R W := by
  induction c with
  | done r =>
    cases r with
    | throw e =>
      simp only [catchLengthLogic]
      split
      · exact hx
      · split
        · exact hy
        · trivial
    | _ => trivial
  | access a next ih => exact ⟨hc.1, hc.2.1, fun x => ih x (hc.2.2 x)⟩

theorem within_get {a : Access β} (hr : ∀ p ∈ a.reads, p ∈ R) (hw : ∀ p ∈ a.writes, p ∈ W) : (get a).Within R W :=
  ⟨hr, hw, fun _ => trivial⟩

theorem within_call {a : Access (Res β)} (hr : ∀ p ∈ a.reads, p ∈ R) (hw : ∀ p ∈ a.writes, p ∈ W) : (call a).Within R W :=
  ⟨hr, hw, fun _ => trivial⟩

/-- Code leaves alone what it does not write. -/
theorem Within.frame {c : Code α} (hc : c.Within R W) (w : World) {p : Place} (hp : p ∉ W) : SameAt p w.s (c.alone w).2.s := by
  induction c generalizing w with
  | done r => exact SameAt.refl _ _
  | access a next ih => exact (a.perform_frame w fun h => hp (hc.2.1 p h)).trans (ih _ (hc.2.2 _) _)

end Code

/-- What a command reads and writes. -/
def cmdReads : List Place := [.recvBuffer, .sessionId]
def cmdWrites : List Place := [.socket .tcp, .recvBuffer]

/-- The places a call may read. -/
def Op.reads : Op → List Place
  | .open .. => cmdReads
  | .close => [.sessionId]
  | .getAttribute .. => cmdReads
  | .setAttribute .. => cmdReads
  | .createConnection .. => [.recvBuffer, .sessionId, .identity, .nextSn, .nextId, .connections]
  | .closeConnection _ => [.recvBuffer, .sessionId, .connections]
  | .getConnection _ => [.connections]
  | .receiveIOPacket => [.recvBuffer]
  | .sendIOPacket _ => []

/-- The places a call may write. -/
def Op.writes : Op → List Place
  | .open .. => [.socket .tcp, .socket .io, .recvBuffer, .sessionId]
  | .close => [.socket .tcp, .socket .io, .sessionId]
  | .getAttribute .. => cmdWrites
  | .setAttribute .. => cmdWrites
  | .createConnection .. => [.socket .tcp, .recvBuffer, .nextSn, .nextId, .connections]
  | .closeConnection _ => [.socket .tcp, .recvBuffer, .connections]
  | .getConnection _ => []
  | .receiveIOPacket => [.socket .io, .recvBuffer]
  | .sendIOPacket _ => [.socket .io]

/-- Calls that may be made together concern different places, or both read only. -/
theorem Spec.Together.apart {op op' : Op} (h : Together op op') {p : Place} (hp : p ∈ op.writes) : p ∉ op'.reads ∧ p ∉ op'.writes := by
  cases op <;> cases op' <;> first
    | (exfalso; simp [Together, IsCommand] at h; done)
    | (rcases p with (_ | _) | _ | _ | _ | _ | _ | _ <;> simp_all [Op.reads, Op.writes, cmdReads, cmdWrites])

theorem Spec.Together.symm {op op' : Op} (h : Together op op') : Together op' op := by
  cases op <;> cases op' <;> simp_all [Together, IsCommand]

namespace Session

variable {R W : List Place}

theorem within_send (s : Sock) (msg : Obj) (h : Place.socket s ∈ W) : (sendCode s msg).Within R W :=
  Code.within_bind (Code.within_own _) fun _ => Code.within_call (by simp [Access.reads]) (by simpa [Access.writes] using h)

theorem within_check (pkt : EncapPacket) (cmd : UInt16) (h : Place.sessionId ∈ R) : (checkCode pkt cmd).Within R W := by
  have hg : (Code.get Access.readId).Within R W := Code.within_get (by simpa [Access.reads] using h) (by simp [Access.writes])
  unfold checkCode
  split
  · trivial
  · refine Code.within_bind hg fun _ => ?_
    split
    · trivial
    · refine Code.within_bind hg fun _ => ?_
      split
      · trivial
      · refine Code.within_bind hg fun _ => ?_
        split <;> trivial

theorem within_command (req : EncapPacket) (hr : ∀ p ∈ cmdReads, p ∈ R) (hw : ∀ p ∈ cmdWrites, p ∈ W) :
    (commandCode req).Within R W := by
  simp only [cmdReads, cmdWrites, List.mem_cons, List.not_mem_nil, or_false, forall_eq_or_imp, forall_eq] at hr hw
  refine Code.within_bind (within_send _ _ hw.1) fun _ => Code.within_bind (Code.within_call (by simp [Access.reads]) ?_) fun _ =>
    Code.within_bind (Code.within_get ?_ (by simp [Access.writes])) fun _ => Code.within_bind (Code.within_own _) fun _ =>
    Code.within_bind (within_check _ _ hr.2) fun _ => trivial
  · simpa [Access.writes] using hw
  · simpa [Access.reads] using hr.1

theorem within_closeSockets (h : Place.socket .tcp ∈ W) (h' : Place.socket .io ∈ W) : closeSocketsCode.Within R W :=
  Code.within_bind (Code.within_call (by simp [Access.reads]) (by simpa [Access.writes] using h)) fun _ =>
    Code.within_call (by simp [Access.reads]) (by simpa [Access.writes] using h')

theorem within_open (h p i : String) : (openCode h p i).Within (Op.open h p i).reads (Op.open h p i).writes := by
  have hc : closeSocketsCode.Within (Op.open h p i).reads (Op.open h p i).writes :=
    within_closeSockets (by simp [Op.writes]) (by simp [Op.writes])
  refine Code.within_bind (Code.within_call (by simp [Access.reads]) (by simp [Access.writes, Op.writes])) fun _ =>
    Code.within_bind (Code.within_call (by simp [Access.reads]) (by simp [Access.writes, Op.writes])) fun _ =>
    Code.within_bind (Code.within_catch (within_command _ (by simp [Op.reads]) (by simp [cmdWrites, Op.writes]))
      (Code.within_bind hc fun _ => trivial) (Code.within_bind hc fun _ => trivial)) fun _ =>
    Code.within_bind (Code.within_catch (Code.within_bind (Code.within_own _) fun _ => trivial) trivial trivial) fun d => ?_
  have hg : ∀ v, (Code.get (Access.writeId v)).Within (Op.open h p i).reads (Op.open h p i).writes := fun v =>
    Code.within_get (by simp [Access.reads]) (by simp [Access.writes, Op.writes])
  cases d with
  | none => exact hg _
  | some d =>
    dsimp only
    split
    · exact Code.within_bind hc fun _ => trivial
    · exact hg _

theorem within_close : closeCode.Within Op.close.reads Op.close.writes :=
  Code.within_bind (Code.within_get (by simp [Access.reads, Op.reads]) (by simp [Access.writes])) fun _ =>
    Code.within_bind (within_send _ _ (by simp [Op.writes])) fun _ =>
    Code.within_bind (within_closeSockets (by simp [Op.writes]) (by simp [Op.writes])) fun _ =>
    Code.within_get (by simp [Access.reads]) (by simp [Access.writes, Op.writes])

theorem within_rr (service : UInt8) (path : Path) (data : Option Obj) (hr : ∀ p ∈ cmdReads, p ∈ R) (hw : ∀ p ∈ cmdWrites, p ∈ W) :
    (rrCode service path data).Within R W := by
  refine Code.within_bind (Code.within_get ?_ (by simp [Access.writes])) fun _ =>
    Code.within_bind (Code.within_catch (within_command _ hr hw) trivial trivial) fun _ =>
    Code.within_bind (Code.within_catch (Code.within_own _) trivial trivial) fun _ => ?_
  · simpa [Access.reads] using hr .sessionId (by simp [cmdReads])
  · split <;> trivial

theorem within_create (o t : ConnectionInfo) :
    (createCode o t).Within (Op.createConnection o t).reads (Op.createConnection o t).writes := by
  refine Code.within_bind (Code.within_get (by simp [Access.reads, Op.reads]) (by simp [Access.writes])) fun x => ?_
  obtain ⟨v, sn⟩ := x
  refine Code.within_bind (Code.within_get (by simp [Access.reads, Op.reads]) (by simp [Access.writes])) fun _ =>
    Code.within_bind (Code.within_get (by simp [Access.reads]) (by simp [Access.writes, Op.writes])) fun _ =>
    Code.within_bind (Code.within_get (by simp [Access.reads, Op.reads]) (by simp [Access.writes])) fun _ =>
    Code.within_bind (Code.within_get (by simp [Access.reads]) (by simp [Access.writes, Op.writes])) fun _ =>
    Code.within_bind (Code.within_get (by simp [Access.reads, Op.reads]) (by simp [Access.writes])) fun _ =>
    Code.within_bind (Code.within_get (by simp [Access.reads]) (by simp [Access.writes, Op.writes])) fun _ =>
    Code.within_bind (within_rr _ _ _ (by simp [cmdReads, Op.reads]) (by simp [cmdWrites, Op.writes])) fun _ =>
    Code.within_bind (Code.within_own _) fun _ => ?_
  split
  · trivial
  · exact Code.within_bind (Code.within_get (by simp [Access.reads, Op.reads]) (by simp [Access.writes])) fun _ =>
      Code.within_bind (Code.within_get (by simp [Access.reads]) (by simp [Access.writes, Op.writes])) fun _ =>
      Code.within_bind (Code.within_get (by simp [Access.reads, Op.reads]) (by simp [Access.writes])) fun _ => trivial

theorem within_closeConnection (n : Nat) :
    (closeConnectionCode n).Within (Op.closeConnection n).reads (Op.closeConnection n).writes := by
  have hg : (Code.get Access.readConnections).Within (Op.closeConnection n).reads (Op.closeConnection n).writes :=
    Code.within_get (by simp [Access.reads, Op.reads]) (by simp [Access.writes])
  refine Code.within_bind hg fun l => ?_
  split
  · trivial
  · refine Code.within_bind (within_rr _ _ _ (by simp [cmdReads, Op.reads]) (by simp [cmdWrites, Op.writes])) fun _ =>
      Code.within_bind (Code.within_own _) fun _ => Code.within_bind hg fun l' => ?_
    split
    · trivial
    · split
      · exact Code.within_bind hg fun _ => Code.within_get (by simp [Access.reads]) (by simp [Access.writes, Op.writes])
      · trivial

end Session

/-- Every call keeps to its places. -/
theorem within_code (op : Op) : op.code.Within op.reads op.writes := by
  cases op with
  | «open» h p i => exact Session.within_open h p i
  | close => exact Session.within_close
  | getAttribute δ c init x y z =>
    exact Code.within_bind (Session.within_rr _ _ _ (by simp [Op.reads]) (by simp [Op.writes])) fun _ => Code.within_own _
  | setAttribute x y z d =>
    exact Code.within_bind (Session.within_rr _ _ _ (by simp [Op.reads]) (by simp [Op.writes])) fun _ => trivial
  | createConnection o t => exact Session.within_create o t
  | closeConnection n => exact Session.within_closeConnection n
  | getConnection n =>
    refine Code.within_bind (Code.within_get (by simp [Access.reads, Op.reads]) (by simp [Access.writes])) fun l => ?_
    split <;> trivial
  | receiveIOPacket =>
    exact Code.within_bind (Code.within_call (by simp [Access.reads]) (by simp [Access.writes, Op.writes])) fun _ =>
      Code.within_bind (Code.within_get (by simp [Access.reads, Op.reads]) (by simp [Access.writes])) fun _ => Code.within_own _
  | sendIOPacket pkt => exact Code.within_bind (Session.within_send _ _ (by simp [Op.writes])) fun _ => trivial

end Eip
