import Verif.Model.Tight
/-
Helpers for C136: a program that may run out of memory does what the program with enough memory does, or a part of it.
-/
namespace Eip

/-- Only adds to the record of socket calls. -/
def Onward {α : Type} (p : Prog World α) : Prop := ∀ w, w.trace <+: (p w).2.trace

/-- Also leaves the session id and the connections alone. -/
def Constant {α : Type} (p : Prog World α) : Prop :=
  ∀ w, w.trace <+: (p w).2.trace ∧ (p w).2.s.sessionId = w.s.sessionId ∧ (p w).2.s.connections = w.s.connections

theorem Constant.onward {α : Type} {p : Prog World α} (h : Constant p) : Onward p := fun w => (h w).1

theorem Onward.bind {α β : Type} {p : Prog World α} {q : α → Prog World β} (hp : Onward p) (hq : ∀ a, Onward (q a)) :
    Onward (p >>= q) := by
  intro w
  have h := hp w
  show w.trace <+: (Prog.andThen p q w).2.trace
  unfold Prog.andThen
  rcases e : p w with ⟨(a | _ | _), w'⟩ <;> rw [e] at h
  · exact h.trans (hq a w')
  · exact h
  · exact h

theorem Constant.bind {α β : Type} {p : Prog World α} {q : α → Prog World β} (hp : Constant p) (hq : ∀ a, Constant (q a)) :
    Constant (p >>= q) := by
  intro w
  have h := hp w
  show w.trace <+: (Prog.andThen p q w).2.trace ∧ (Prog.andThen p q w).2.s.sessionId = _ ∧
    (Prog.andThen p q w).2.s.connections = _
  unfold Prog.andThen
  rcases e : p w with ⟨(a | _ | _), w'⟩ <;> rw [e] at h
  · obtain ⟨h1, h2, h3⟩ := hq a w'
    exact ⟨h.1.trans h1, h2.trans h.2.1, h3.trans h.2.2⟩
  · exact h
  · exact h

theorem Constant.still {α : Type} {p : Prog World α} (h : ∀ w, (p w).2 = w) : Constant p := by
  intro w
  rw [h w]
  exact ⟨List.prefix_refl _, rfl, rfl⟩

theorem Constant.pure {α : Type} (a : α) : Constant (Pure.pure a : Prog World α) := Constant.still (fun _ => rfl)
theorem Constant.raise {α : Type} (e : Exn) : Constant (Prog.raise e : Prog World α) := Constant.still (fun _ => rfl)
theorem Constant.undef {α : Type} (u : UB) : Constant (Prog.undef u : Prog World α) := Constant.still (fun _ => rfl)
theorem Constant.get : Constant (Prog.get : Prog World World) := Constant.still (fun _ => rfl)

theorem Constant.local {δ : Type} (d : δ) (p : Prog δ Unit) : Constant (Session.onLocal d p : Prog World δ) := by
  refine Constant.still (fun w => ?_)
  unfold Session.onLocal
  rcases p d with ⟨(_ | _ | _), _⟩ <;> rfl

theorem Constant.parse (bytes : Bytes) : Constant (Session.parsePacket bytes : Prog World EncapPacket) := by
  refine Constant.still (fun w => ?_)
  unfold Session.parsePacket
  rcases EncapPacket.deserialize (EncapPacket.new, .buffer (BufferReader.new bytes)) with ⟨(_ | _ | _), _, _⟩ <;> rfl

theorem Constant.vector (n : Nat) (p : Prog Writer Unit) : Constant (serializeToVector n p : Prog World Bytes) := by
  refine Constant.still (fun w => ?_)
  unfold serializeToVector
  rcases p (.buffer (BufferWriter.new (List.replicate n 0))) with ⟨(_ | _ | _), _ | _⟩ <;> rfl

theorem Constant.call (ev : Answer → Ev) : Constant (sockCall ev) := by
  intro w
  unfold sockCall
  dsimp only
  split <;> exact ⟨List.prefix_append _ _, rfl, rfl⟩

theorem Constant.send (s : Sock) (o : Obj) : Constant (sockSend s o) :=
  Constant.bind (Constant.vector _ _) (fun _ => Constant.bind (Constant.call _) (fun _ => Constant.pure _))

theorem Constant.receive (s : Sock) : Constant (sockReceive s) := by
  refine Constant.bind (Constant.call _) (fun a => Constant.bind ?_ (fun _ => Constant.bind Constant.get (fun _ => Constant.pure _)))
  intro w
  exact ⟨List.prefix_refl _, rfl, rfl⟩

theorem Constant.open (s : Sock) (h p : String) : Constant (sockOpen s h p) :=
  Constant.bind (Constant.call _) (fun _ => Constant.pure _)

theorem Constant.closeSockets : Constant Session.closeSockets :=
  Constant.bind (Constant.bind (Constant.call _) (fun _ => Constant.pure _))
    (fun _ => Constant.bind (Constant.call _) (fun _ => Constant.pure _))

theorem Constant.check (p : EncapPacket) (c : UInt16) : Constant (Session.checkPacket p c) := by
  refine Constant.bind Constant.get (fun w => ?_)
  split
  · exact Constant.raise _
  · split
    · exact Constant.raise _
    · split
      · exact Constant.raise _
      · exact Constant.pure _

theorem Constant.catch {α : Type} {p l r : Prog World α} (hp : Constant p) (hl : Constant l) (hr : Constant r) :
    Constant (Session.catchLengthLogic p l r) := by
  intro w
  have h := hp w
  unfold Session.catchLengthLogic Prog.tryCatch
  rcases e : p w with ⟨(a | x | _), w'⟩ <;> rw [e] at h
  · exact h
  · have go : ∀ {q : Prog World α}, Constant q → w.trace <+: (q w').2.trace ∧ (q w').2.s.sessionId = w.s.sessionId ∧
        (q w').2.s.connections = w.s.connections := fun hq =>
      ⟨h.1.trans (hq w').1, (hq w').2.1.trans h.2.1, (hq w').2.2.trans h.2.2⟩
    dsimp only
    split
    · exact go hl
    · split
      · exact go hr
      · exact go (Constant.raise x)
  · exact h

/-! ### Refinement -/

/-- What is left of `p` in the world `v` when memory ran out: part of its socket calls, and the session id and the
connections as before. -/
def CutShort {α : Type} (p : Prog World α) (w v : World) : Prop :=
  w.trace <+: v.trace ∧ v.trace <+: (p w).2.trace ∧ v.s.sessionId = w.s.sessionId ∧ v.s.connections = w.s.connections

/-- `t` does what `p` does, or runs out of memory on the way. -/
def DoesPart {α : Type} (t : Tight α) (p : Prog World α) : Prop :=
  ∀ x, (t x).2.supply <:+ x.supply ∧
    ((∃ r, (t x).1 = some r ∧ p x.w = (r, (t x).2.w)) ∨
      ((t x).1 = none ∧ false ∈ x.supply ∧ CutShort p x.w (t x).2.w))

theorem Prog.bind_pure_eq {σ α : Type} (p : Prog σ α) : (p >>= Pure.pure) = p := by
  funext w
  show Prog.andThen p _ w = p w
  unfold Prog.andThen
  rcases p w with ⟨(_ | _ | _), _⟩ <;> rfl

theorem DoesPart.lift {α : Type} (p : Prog World α) : DoesPart (Tight.lift p) p :=
  fun _ => ⟨List.suffix_refl _, .inl ⟨_, rfl, rfl⟩⟩

theorem DoesPart.bind {α β : Type} {t : Tight α} {p : Prog World α} {f : α → Tight β} {q : α → Prog World β}
    (ht : DoesPart t p) (hp : Constant p) (hf : ∀ a, DoesPart (f a) (q a)) (hq : ∀ a, Onward (q a)) :
    DoesPart (t >>= f) (p >>= q) := by
  intro x
  obtain ⟨hs, h⟩ := ht x
  have hst := hp x.w
  have e0 : (t >>= f) x = Tight.andThen t f x := rfl
  have e1 : (p >>= q) x.w = Prog.andThen p q x.w := rfl
  rw [e0, e1]
  unfold Tight.andThen Prog.andThen CutShort
  have e2 : (p >>= q) x.w = Prog.andThen p q x.w := rfl
  rcases h with ⟨r, h1, h2⟩ | ⟨h1, hmem, hcut⟩
  · rcases e : t x with ⟨o, x'⟩
    rw [e] at hs h1 h2
    dsimp only at hs h1 h2 ⊢
    subst h1
    rw [h2] at hst ⊢
    rcases r with a | ex | u
    · dsimp only at hst ⊢
      obtain ⟨hs', h'⟩ := hf a x'
      refine ⟨hs'.trans hs, ?_⟩
      rcases h' with ⟨r', h1', h2'⟩ | ⟨h1', hmem', hcut'⟩
      · exact .inl ⟨r', h1', h2'⟩
      · refine .inr ⟨h1', hs.mem hmem', ?_⟩
        obtain ⟨c1, c2, c3, c4⟩ := hcut'
        refine ⟨hst.1.trans c1, ?_, c3.trans hst.2.1, c4.trans hst.2.2⟩
        rw [e2]
        unfold Prog.andThen
        rw [h2]
        exact c2
    · exact ⟨hs, .inl ⟨_, rfl, rfl⟩⟩
    · exact ⟨hs, .inl ⟨_, rfl, rfl⟩⟩
  · rcases e : t x with ⟨o, x'⟩
    rw [e] at hs h1 hcut
    dsimp only at hs h1 hcut ⊢
    subst h1
    dsimp only
    refine ⟨hs, .inr ⟨rfl, hmem, hcut.1, ?_, hcut.2.2⟩⟩
    rw [e2]
    unfold Prog.andThen
    have c2 := hcut.2.1
    rcases e' : p x.w with ⟨(a | _ | _), w'⟩ <;> rw [e'] at c2
    · exact c2.trans (hq a w')
    · exact c2
    · exact c2

/-- Allocating first does no harm. -/
theorem DoesPart.alloc {α : Type} {t : Tight α} {p : Prog World α} (ht : DoesPart t p) (hp : Onward p) :
    DoesPart (Tight.alloc >>= fun _ => t) p := by
  intro x
  have e0 : (Tight.alloc >>= fun _ => t) x = Tight.andThen Tight.alloc (fun _ => t) x := rfl
  rw [e0]
  unfold Tight.andThen Tight.alloc
  rcases x with ⟨w, supply⟩
  rcases supply with _ | ⟨_ | _, rest⟩
  · exact ht ⟨w, []⟩
  · exact ⟨List.suffix_cons _ _, .inr ⟨rfl, List.mem_cons_self, List.prefix_refl _, hp w, rfl, rfl⟩⟩
  · obtain ⟨hs, h⟩ := ht ⟨w, rest⟩
    refine ⟨hs.trans (List.suffix_cons _ _), ?_⟩
    rcases h with h | ⟨h1, h2, h3⟩
    · exact .inl h
    · exact .inr ⟨h1, List.mem_cons_of_mem _ h2, h3⟩

/-- Allocating at the end does no harm. -/
theorem DoesPart.alloc_after {α : Type} {t : Tight α} {p : Prog World α} (ht : DoesPart t p) (hp : Constant p) :
    DoesPart (t >>= fun a => Tight.alloc >>= fun _ => Tight.lift (Pure.pure a)) p := by
  have := DoesPart.bind ht hp (fun a => DoesPart.alloc (DoesPart.lift (Pure.pure a)) (Constant.pure a).onward)
    (fun a => (Constant.pure a).onward)
  rw [show (p >>= fun a => Pure.pure a) = p from Prog.bind_pure_eq p] at this
  exact this

theorem DoesPart.catch {α : Type} {t tl tr : Tight α} {p l r : Prog World α} (ht : DoesPart t p) (hp : Constant p)
    (hl : DoesPart tl l) (hr : DoesPart tr r) (ol : Onward l) (or : Onward r) :
    DoesPart (Tight.catchLengthLogic t tl tr) (Session.catchLengthLogic p l r) := by
  intro x
  obtain ⟨hs, h⟩ := ht x
  have hst := hp x.w
  unfold Tight.catchLengthLogic
  rcases h with ⟨res, h1, h2⟩ | ⟨h1, hmem, hcut⟩
  · rcases e : t x with ⟨o, x'⟩
    rw [e] at hs h1 h2
    dsimp only at hs h1 h2 ⊢
    subst h1
    rw [h2] at hst
    rcases res with a | ex | u
    · refine ⟨hs, .inl ⟨_, rfl, ?_⟩⟩
      unfold Session.catchLengthLogic Prog.tryCatch
      rw [h2]
    · dsimp only
      have fin : ∀ {tq : Tight α} {q : Prog World α}, DoesPart tq q →
          Session.catchLengthLogic p l r x.w = q x'.w → (tq x').2.supply <:+ x.supply ∧
          ((∃ r', (tq x').1 = some r' ∧ Session.catchLengthLogic p l r x.w = (r', (tq x').2.w)) ∨
            ((tq x').1 = none ∧ false ∈ x.supply ∧ CutShort (Session.catchLengthLogic p l r) x.w (tq x').2.w)) := by
        intro tq q hq he
        obtain ⟨hs', h'⟩ := hq x'
        refine ⟨hs'.trans hs, ?_⟩
        rcases h' with ⟨r', h1', h2'⟩ | ⟨h1', hmem', c1, c2, c3, c4⟩
        · exact .inl ⟨r', h1', he.trans h2'⟩
        · refine .inr ⟨h1', hs.mem hmem', hst.1.trans c1, ?_, c3.trans hst.2.1, c4.trans hst.2.2⟩
          rw [he]; exact c2
      have ec : Session.catchLengthLogic p l r x.w =
          (if ex.kind.isA .lengthError then l else if ex.kind.isA .logicError then r else Prog.raise ex) x'.w := by
        unfold Session.catchLengthLogic Prog.tryCatch
        rw [h2]
      by_cases k1 : ex.kind.isA .lengthError = true
      · rw [if_pos k1]
        exact fin hl (by rw [ec, if_pos k1])
      · rw [if_neg k1]
        by_cases k2 : ex.kind.isA .logicError = true
        · rw [if_pos k2]
          exact fin hr (by rw [ec, if_neg k1, if_pos k2])
        · rw [if_neg k2]
          refine ⟨hs, .inl ⟨_, rfl, ?_⟩⟩
          rw [ec, if_neg k1, if_neg k2]
          rfl
    · refine ⟨hs, .inl ⟨_, rfl, ?_⟩⟩
      unfold Session.catchLengthLogic Prog.tryCatch
      rw [h2]
  · rcases e : t x with ⟨o, x'⟩
    rw [e] at hs h1 hcut
    dsimp only at hs h1 hcut ⊢
    subst h1
    refine ⟨hs, .inr ⟨rfl, hmem, hcut.1, ?_, hcut.2.2⟩⟩
    have c2 := hcut.2.1
    unfold Session.catchLengthLogic Prog.tryCatch
    rcases e' : p x.w with ⟨(a | ex | _), w'⟩ <;> rw [e'] at c2
    · exact c2
    · refine c2.trans ?_
      dsimp only
      split
      · exact ol w'
      · split
        · exact or w'
        · exact List.prefix_refl _
    · exact c2

/-! ### The functions of `Session` -/

theorem Constant.command (req : EncapPacket) : Constant (Session.sendCommand req) :=
  Constant.bind (Constant.send _ _) (fun _ => Constant.bind (Constant.receive _) (fun _ => Constant.bind (Constant.parse _)
    (fun _ => Constant.bind (Constant.check _ _) (fun _ => Constant.pure _))))

theorem DoesPart.command (req : EncapPacket) : DoesPart (Session.sendCommandT req) (Session.sendCommand req) := by
  refine DoesPart.alloc ?_ (Constant.command req).onward
  refine DoesPart.bind (DoesPart.lift _) (Constant.send _ _) (fun _ => ?_)
    (fun _ => (Constant.bind (Constant.receive _) (fun _ => Constant.bind (Constant.parse _)
      (fun _ => Constant.bind (Constant.check _ _) (fun _ => Constant.pure _)))).onward)
  refine DoesPart.alloc ?_ (Constant.bind (Constant.receive _) (fun _ => Constant.bind (Constant.parse _)
      (fun _ => Constant.bind (Constant.check _ _) (fun _ => Constant.pure _)))).onward
  refine DoesPart.bind (DoesPart.lift _) (Constant.receive _) (fun _ => ?_)
    (fun _ => (Constant.bind (Constant.parse _)
      (fun _ => Constant.bind (Constant.check _ _) (fun _ => Constant.pure _))).onward)
  refine DoesPart.alloc ?_ (Constant.bind (Constant.parse _)
      (fun _ => Constant.bind (Constant.check _ _) (fun _ => Constant.pure _))).onward
  refine DoesPart.bind (DoesPart.lift _) (Constant.parse _) (fun _ => ?_)
    (fun _ => (Constant.bind (Constant.check _ _) (fun _ => Constant.pure _)).onward)
  refine DoesPart.alloc ?_ (Constant.bind (Constant.check _ _) (fun _ => Constant.pure _)).onward
  refine DoesPart.bind (DoesPart.lift _) (Constant.check _ _) (fun _ => ?_) (fun _ => (Constant.pure _).onward)
  exact DoesPart.alloc (DoesPart.lift _) (Constant.pure _).onward

theorem Constant.status (d : RRDataResponse) : Constant (if d.getGeneralStatus ≠ 0 then
    Prog.raise (runtimeError "RR Data Command Failed") else Pure.pure d : Prog World RRDataResponse) := by
  split
  · exact Constant.raise _
  · exact Constant.pure _

theorem Constant.request (service : UInt8) (path : Path) (data : Option Obj) :
    Constant (Session.sendRRDataCommand service path data) :=
  Constant.bind Constant.get (fun _ => Constant.bind (Constant.catch (Constant.command _) (Constant.raise _) (Constant.raise _))
    (fun _ => Constant.bind (Constant.catch (Constant.local _ _) (Constant.raise _) (Constant.raise _)) (fun _ => Constant.status _)))

theorem DoesPart.request (service : UInt8) (path : Path) (data : Option Obj) :
    DoesPart (Session.sendRRDataCommandT service path data) (Session.sendRRDataCommand service path data) := by
  refine DoesPart.alloc ?_ (Constant.request _ _ _).onward
  refine DoesPart.bind (DoesPart.lift _) Constant.get (fun _ => ?_)
    (fun _ => (Constant.bind (Constant.catch (Constant.command _) (Constant.raise _) (Constant.raise _))
    (fun _ => Constant.bind (Constant.catch (Constant.local _ _) (Constant.raise _) (Constant.raise _))
      (fun _ => Constant.status _))).onward)
  refine DoesPart.bind (DoesPart.catch (DoesPart.command _) (Constant.command _)
      (DoesPart.alloc (DoesPart.lift _) (Constant.raise _).onward)
      (DoesPart.alloc (DoesPart.lift _) (Constant.raise _).onward) (Constant.raise _).onward (Constant.raise _).onward)
    (Constant.catch (Constant.command _) (Constant.raise _) (Constant.raise _)) (fun _ => ?_)
    (fun _ => (Constant.bind (Constant.catch (Constant.local _ _) (Constant.raise _) (Constant.raise _))
      (fun _ => Constant.status _)).onward)
  refine DoesPart.bind (DoesPart.catch (DoesPart.alloc (DoesPart.lift _) (Constant.local _ _).onward) (Constant.local _ _)
      (DoesPart.alloc (DoesPart.lift _) (Constant.raise _).onward)
      (DoesPart.alloc (DoesPart.lift _) (Constant.raise _).onward) (Constant.raise _).onward (Constant.raise _).onward)
    (Constant.catch (Constant.local _ _) (Constant.raise _) (Constant.raise _)) (fun _ => ?_)
    (fun _ => (Constant.status _).onward)
  exact DoesPart.alloc (DoesPart.lift _) (Constant.status _).onward

theorem Constant.forget {α : Type} {p : Prog World α} (h : Constant p) : Constant p.forget :=
  Constant.bind h (fun _ => Constant.pure _)

theorem Onward.forget {α : Type} {p : Prog World α} (h : Onward p) : Onward p.forget :=
  Onward.bind h (fun _ => (Constant.pure _).onward)

/-- `getAttribute` written on the session's world alone. -/
theorem getAttribute_eq {δ : Type} (c : Class δ) (init : δ) (x y z : UInt8) :
    (Op.getAttribute δ c init x y z).run = (Session.sendRRDataCommand 0x0E (Path.mk3 x y z) none >>= fun d =>
      (Session.onLocal init (d.getResponseDataAs c)).forget) := by
  funext w
  show (match (Prog.andThen (Session.onWorld (Session.sendRRDataCommand 0x0E (Path.mk3 x y z) none))
      (fun d => Session.onResult (d.getResponseDataAs c))) (init, w) with | (r, (_, w')) => (r, w')) =
    Prog.andThen (Session.sendRRDataCommand 0x0E (Path.mk3 x y z) none)
      (fun d => Prog.andThen (Session.onLocal init (d.getResponseDataAs c)) (fun _ => Pure.pure ())) w
  generalize Session.sendRRDataCommand 0x0E (Path.mk3 x y z) none = p
  unfold Prog.andThen Session.onWorld Session.onResult Session.onLocal Prog.zoom
  dsimp only
  rcases p w with ⟨(d | _ | _), w'⟩
  · dsimp only
    generalize d.getResponseDataAs c init = r
    rcases r with ⟨(_ | _ | _), _⟩ <;> rfl
  · rfl
  · rfl

theorem DoesPart.getAttribute {δ : Type} (c : Class δ) (init : δ) (x y z : UInt8) :
    DoesPart (Session.getAttributeT c init x y z) (Op.getAttribute δ c init x y z).run := by
  rw [getAttribute_eq]
  refine DoesPart.alloc ?_ (Constant.bind (Constant.request _ _ _) (fun _ => Constant.forget (Constant.local _ _))).onward
  refine DoesPart.bind (DoesPart.request _ _ _) (Constant.request _ _ _) (fun _ => ?_)
    (fun _ => (Constant.forget (Constant.local _ _)).onward)
  exact DoesPart.alloc (DoesPart.lift _) (Constant.forget (Constant.local _ _)).onward

theorem DoesPart.setAttribute (x y z : UInt8) (d : Option Obj) :
    DoesPart (Session.setAttributeT x y z d) (Session.setSingleAttributeSerializable x y z d) :=
  DoesPart.alloc (DoesPart.bind (DoesPart.request _ _ _) (Constant.request _ _ _) (fun _ => DoesPart.lift _)
    (fun _ => (Constant.pure _).onward)) (Constant.bind (Constant.request _ _ _) (fun _ => Constant.pure _)).onward

theorem Onward.modify (f : World → World) (h : ∀ w, (f w).trace = w.trace) : Onward (Prog.modify f) := by
  intro w
  show w.trace <+: (f w).trace
  rw [h w]
  exact List.prefix_refl _

theorem Constant.modify (f : World → World) (h : ∀ w, (f w).trace = w.trace ∧ (f w).s.sessionId = w.s.sessionId ∧
    (f w).s.connections = w.s.connections) : Constant (Prog.modify f) := by
  intro w
  show w.trace <+: (f w).trace ∧ _
  rw [(h w).1]
  exact ⟨List.prefix_refl _, (h w).2⟩

theorem Onward.verifyOpen (conn : Connection) (result : ForwardOpenSuccess) :
    Onward (match conn.verifyForwardOpenResult result with
      | (false, _) => Prog.raise (logicError "Forward Open Response Invalid")
      | (true, conn') => do
        Prog.modify (fun w => { w with s := { w.s with connections := w.s.connections ++ [conn'] } })
        let w ← Prog.get
        pure (sizeToInt (sizeSub w.s.connections.length 1)) : Prog World Int) := by
  rcases conn.verifyForwardOpenResult result with ⟨_ | _, conn'⟩
  · exact (Constant.raise _).onward
  · exact Onward.bind (Onward.modify _ (fun _ => rfl)) (fun _ => (Constant.bind Constant.get (fun _ => Constant.pure _)).onward)

theorem DoesPart.create (o t : ConnectionInfo) :
    DoesPart (Session.createConnectionT o t) (Session.createConnection o t) := by
  have o1 : ∀ (conn : Connection) (d : RRDataResponse), Onward (Session.onLocal Session.freshForwardOpenSuccess
      (d.getResponseDataAs ForwardOpenSuccess.cls) >>= fun result =>
      (match conn.verifyForwardOpenResult result with
      | (false, _) => Prog.raise (logicError "Forward Open Response Invalid")
      | (true, conn') => do
        Prog.modify (fun w => { w with s := { w.s with connections := w.s.connections ++ [conn'] } })
        let w ← Prog.get
        pure (sizeToInt (sizeSub w.s.connections.length 1)) : Prog World Int)) :=
    fun conn d => Onward.bind (Constant.local _ _).onward (fun r => Onward.verifyOpen conn r)
  have o2 : ∀ (conn : Connection), Onward (Session.sendRRDataCommand 0x5B (Path.mk2 0x06 1)
      (some conn.createForwardOpenRequest.obj) >>= fun d => Session.onLocal Session.freshForwardOpenSuccess
      (d.getResponseDataAs ForwardOpenSuccess.cls) >>= fun result =>
      (match conn.verifyForwardOpenResult result with
      | (false, _) => Prog.raise (logicError "Forward Open Response Invalid")
      | (true, conn') => do
        Prog.modify (fun w => { w with s := { w.s with connections := w.s.connections ++ [conn'] } })
        let w ← Prog.get
        pure (sizeToInt (sizeSub w.s.connections.length 1)) : Prog World Int)) :=
    fun conn => Onward.bind (Constant.request _ _ _).onward (o1 conn)
  have sm : Constant (Prog.modify (fun w : World => { w with s := { w.s with
      nextConnectionSn := w.s.nextConnectionSn + 1
      nextConnectionId := w.s.nextConnectionId + 1 + 1 } })) := Constant.modify _ (fun _ => ⟨rfl, rfl, rfl⟩)
  refine DoesPart.alloc ?_ (Onward.bind Constant.get.onward (fun w => Onward.bind sm.onward (fun _ => o2 _)))
  refine DoesPart.bind (DoesPart.lift _) Constant.get (fun w => ?_) (fun w => Onward.bind sm.onward (fun _ => o2 _))
  refine DoesPart.bind (DoesPart.lift _) sm (fun _ => ?_) (fun _ => o2 _)
  refine DoesPart.alloc ?_ (o2 _)
  refine DoesPart.bind (DoesPart.request _ _ _) (Constant.request _ _ _) (fun d => ?_) (fun d => o1 _ d)
  refine DoesPart.alloc ?_ (o1 _ d)
  refine DoesPart.bind (DoesPart.lift _) (Constant.local _ _) (fun r => ?_) (fun r => Onward.verifyOpen _ r)
  refine DoesPart.alloc ?_ (Onward.verifyOpen _ r)
  rcases (Session.prepareConnection w.s o t).verifyForwardOpenResult r with ⟨_ | _, conn'⟩
  · exact DoesPart.lift _
  · exact DoesPart.lift _

/-- The end of `closeConnection`. -/
def removeFinish (n : Nat) (result : ForwardCloseSuccess) : Prog World Unit := do
  let w ← Prog.get
  match w.s.connections[n]? with
  | none => Prog.undef .indexOutOfRange
  | some c =>
    if c.verifyForwardCloseResult result then
      Prog.modify (fun w => { w with s := { w.s with connections := w.s.connections.eraseIdx n } })
    else Prog.raise (logicError "Forward Close Response Invalid")

theorem Onward.removeFinish (n : Nat) (result : ForwardCloseSuccess) : Onward (Eip.removeFinish n result) := by
  refine Onward.bind Constant.get.onward (fun w => ?_)
  rcases w.s.connections[n]? with _ | c
  · exact (Constant.undef _).onward
  · dsimp only
    split
    · exact Onward.modify _ (fun _ => rfl)
    · exact (Constant.raise _).onward

theorem DoesPart.closeConnection (n : Nat) :
    DoesPart (Session.closeConnectionT n) (Session.closeConnection n) := by
  have o1 : ∀ d : RRDataResponse, Onward (Session.onLocal Session.freshForwardCloseSuccess
      (d.getResponseDataAs ForwardCloseSuccess.cls) >>= removeFinish n) :=
    fun d => Onward.bind (Constant.local _ _).onward (fun r => Onward.removeFinish n r)
  have o2 : ∀ c : Connection, Onward (Session.sendRRDataCommand 0x4E (Path.mk2 0x06 1)
      (some c.createForwardCloseRequest.obj) >>= fun d => Session.onLocal Session.freshForwardCloseSuccess
      (d.getResponseDataAs ForwardCloseSuccess.cls) >>= removeFinish n) :=
    fun c => Onward.bind (Constant.request _ _ _).onward o1
  refine DoesPart.bind (DoesPart.lift _) Constant.get (fun w => ?_) (fun w => ?_)
  · rcases w.s.connections[n]? with _ | c
    · exact DoesPart.lift _
    · refine DoesPart.alloc ?_ (o2 c)
      refine DoesPart.bind (DoesPart.request _ _ _) (Constant.request _ _ _) (fun d => ?_) o1
      refine DoesPart.alloc ?_ (o1 d)
      refine DoesPart.bind (DoesPart.lift _) (Constant.local _ _) (fun r => ?_) (fun r => Onward.removeFinish n r)
      exact DoesPart.alloc (DoesPart.lift _) (Onward.removeFinish n r)
  · rcases w.s.connections[n]? with _ | c
    · exact (Constant.undef _).onward
    · exact o2 c

theorem Constant.receiveIO : Constant Session.receiveIOPacket :=
  Constant.bind (Constant.receive _) (fun _ => Constant.local _ _)

theorem DoesPart.receiveIO : DoesPart Session.receiveIOPacketT Session.receiveIOPacket := by
  refine DoesPart.alloc ?_ Constant.receiveIO.onward
  refine DoesPart.bind (DoesPart.lift _) (Constant.receive _) (fun b => ?_) (fun b => (Constant.local _ _).onward)
  refine DoesPart.alloc ?_ (Constant.local _ _).onward
  exact DoesPart.alloc_after (DoesPart.lift _) (Constant.local _ _)

theorem DoesPart.sendIO (p : CPFPacket) : DoesPart (Session.sendIOPacketT p) (Session.sendIOPacket p) :=
  DoesPart.alloc (DoesPart.bind (DoesPart.lift _) (Constant.send _ _) (fun _ => DoesPart.lift _)
    (fun _ => (Constant.pure _).onward)) (Constant.bind (Constant.send _ _) (fun _ => Constant.pure _)).onward

theorem DoesPart.close : DoesPart Session.closeT Session.close := by
  have o3 : Onward (Session.closeSockets >>= fun _ =>
      Prog.modify (fun w : World => { w with s := { w.s with sessionId := 0 } })) :=
    Onward.bind Constant.closeSockets.onward (fun _ => Onward.modify _ (fun _ => rfl))
  have o2 : ∀ w : World, Onward (sockSend .tcp (EncapPacket.new Session.cmdUnregisterSession w.s.sessionId).obj >>= fun _ =>
      Session.closeSockets >>= fun _ => Prog.modify (fun w : World => { w with s := { w.s with sessionId := 0 } })) :=
    fun w => Onward.bind (Constant.send _ _).onward (fun _ => o3)
  refine DoesPart.alloc ?_ (Onward.bind Constant.get.onward o2)
  refine DoesPart.bind (DoesPart.lift _) Constant.get (fun w => ?_) o2
  refine DoesPart.bind (DoesPart.lift _) (Constant.send _ _) (fun _ => ?_) (fun _ => o3)
  refine DoesPart.alloc ?_ o3
  exact DoesPart.bind (DoesPart.lift _) Constant.closeSockets (fun _ => DoesPart.lift _)
    (fun _ => Onward.modify _ (fun _ => rfl))

theorem DoesPart.forget {α : Type} {t : Tight α} {p : Prog World α} (h : DoesPart t p) :
    DoesPart (t >>= fun _ => Pure.pure ()) p.forget := by
  intro x
  obtain ⟨hs, h⟩ := h x
  have e0 : (t >>= fun _ => Pure.pure ()) x = Tight.andThen t (fun _ => Pure.pure ()) x := rfl
  have e2 : p.forget x.w = Prog.andThen p (fun _ => Pure.pure ()) x.w := rfl
  rw [e0]
  unfold CutShort
  rw [e2]
  unfold Tight.andThen Prog.andThen
  rcases h with ⟨r, h1, h2⟩ | ⟨h1, hmem, hcut⟩
  · rcases e : t x with ⟨o, x'⟩
    rw [e] at hs h1 h2
    dsimp only at hs h1 h2 ⊢
    subst h1
    rw [h2]
    rcases r with a | ex | u
    · exact ⟨hs, .inl ⟨_, rfl, rfl⟩⟩
    · exact ⟨hs, .inl ⟨_, rfl, rfl⟩⟩
    · exact ⟨hs, .inl ⟨_, rfl, rfl⟩⟩
  · rcases e : t x with ⟨o, x'⟩
    rw [e] at hs h1 hcut
    dsimp only at hs h1 hcut ⊢
    subst h1
    dsimp only
    refine ⟨hs, .inr ⟨rfl, hmem, hcut.1, ?_, hcut.2.2⟩⟩
    have c2 := hcut.2.1
    rcases e' : p x.w with ⟨(a | _ | _), w'⟩ <;> rw [e'] at c2 <;> exact c2

/-! ### `open`, which allocates after everything is done -/

/-- `t` does what `p` does, or runs out of memory on the way or right after it. -/
def DoesMost (t : Tight Unit) (p : Prog World Unit) : Prop :=
  ∀ x, (t x).2.supply <:+ x.supply ∧
    ((∃ r, (t x).1 = some r ∧ p x.w = (r, (t x).2.w)) ∨
      ((t x).1 = none ∧ false ∈ x.supply ∧
        (CutShort p x.w (t x).2.w ∨ p x.w = (.ok (), (t x).2.w))))

theorem DoesPart.most {t : Tight Unit} {p : Prog World Unit} (h : DoesPart t p) : DoesMost t p := by
  intro x
  obtain ⟨hs, h⟩ := h x
  rcases h with h | ⟨h1, h2, h3⟩
  · exact ⟨hs, .inl h⟩
  · exact ⟨hs, .inr ⟨h1, h2, .inl h3⟩⟩

theorem DoesMost.bind {α : Type} {t : Tight α} {p : Prog World α} {f : α → Tight Unit} {q : α → Prog World Unit}
    (ht : DoesPart t p) (hp : Constant p) (hf : ∀ a, DoesMost (f a) (q a)) (hq : ∀ a, Onward (q a)) :
    DoesMost (t >>= f) (p >>= q) := by
  intro x
  obtain ⟨hs, h⟩ := ht x
  have hst := hp x.w
  have e0 : (t >>= f) x = Tight.andThen t f x := rfl
  have e1 : (p >>= q) x.w = Prog.andThen p q x.w := rfl
  unfold CutShort
  rw [e0, e1]
  unfold Tight.andThen Prog.andThen
  rcases h with ⟨r, h1, h2⟩ | ⟨h1, hmem, hcut⟩
  · rcases e : t x with ⟨o, x'⟩
    rw [e] at hs h1 h2
    dsimp only at hs h1 h2 ⊢
    subst h1
    rw [h2] at hst ⊢
    rcases r with a | ex | u
    · dsimp only at hst ⊢
      obtain ⟨hs', h'⟩ := hf a x'
      refine ⟨hs'.trans hs, ?_⟩
      rcases h' with ⟨r', h1', h2'⟩ | ⟨h1', hmem', hcut' | hall⟩
      · exact .inl ⟨r', h1', h2'⟩
      · obtain ⟨c1, c2, c3, c4⟩ := hcut'
        exact .inr ⟨h1', hs.mem hmem', .inl ⟨hst.1.trans c1, c2, c3.trans hst.2.1, c4.trans hst.2.2⟩⟩
      · exact .inr ⟨h1', hs.mem hmem', .inr hall⟩
    · exact ⟨hs, .inl ⟨_, rfl, rfl⟩⟩
    · exact ⟨hs, .inl ⟨_, rfl, rfl⟩⟩
  · rcases e : t x with ⟨o, x'⟩
    rw [e] at hs h1 hcut
    dsimp only at hs h1 hcut ⊢
    subst h1
    dsimp only
    refine ⟨hs, .inr ⟨rfl, hmem, .inl ⟨hcut.1, ?_, hcut.2.2⟩⟩⟩
    have c2 := hcut.2.1
    rcases e' : p x.w with ⟨(a | _ | _), w'⟩ <;> rw [e'] at c2
    · exact c2.trans (hq a w')
    · exact c2
    · exact c2

theorem DoesMost.alloc {t : Tight Unit} {p : Prog World Unit} (ht : DoesMost t p) (hp : Onward p) :
    DoesMost (Tight.alloc >>= fun _ => t) p := by
  intro x
  have e0 : (Tight.alloc >>= fun _ => t) x = Tight.andThen Tight.alloc (fun _ => t) x := rfl
  rw [e0]
  unfold Tight.andThen Tight.alloc
  rcases x with ⟨w, supply⟩
  rcases supply with _ | ⟨_ | _, rest⟩
  · exact ht ⟨w, []⟩
  · exact ⟨List.suffix_cons _ _, .inr ⟨rfl, List.mem_cons_self, .inl ⟨List.prefix_refl _, hp w, rfl, rfl⟩⟩⟩
  · obtain ⟨hs, h⟩ := ht ⟨w, rest⟩
    refine ⟨hs.trans (List.suffix_cons _ _), ?_⟩
    rcases h with h | ⟨h1, h2, h3⟩
    · exact .inl h
    · exact .inr ⟨h1, List.mem_cons_of_mem _ h2, h3⟩

/-- Changing something and allocating afterwards. -/
theorem DoesMost.modify (f : World → World) :
    DoesMost (Tight.lift (Prog.modify f) >>= fun _ => Tight.alloc) (Prog.modify f) := by
  intro x
  have e0 : (Tight.lift (Prog.modify f) >>= fun _ => Tight.alloc) x = Tight.alloc { x with w := f x.w } := rfl
  have e1 : Prog.modify f x.w = (.ok (), f x.w) := rfl
  rw [e0, e1]
  unfold Tight.alloc
  rcases x with ⟨w, supply⟩
  rcases supply with _ | ⟨_ | _, rest⟩
  · exact ⟨List.suffix_refl _, .inl ⟨_, rfl, rfl⟩⟩
  · exact ⟨List.suffix_cons _ _, .inr ⟨rfl, List.mem_cons_self, .inr rfl⟩⟩
  · exact ⟨List.suffix_cons _ _, .inl ⟨_, rfl, rfl⟩⟩

theorem Constant.registration (r : EncapPacket) : Constant (Session.parseRegistration r) :=
  Constant.catch (Constant.bind (Constant.local _ _) (fun _ => Constant.pure _)) (Constant.pure _) (Constant.pure _)

/-- The end of `open`. -/
def openFinish (response : EncapPacket) : Option RegisterSessionData → Prog World Unit
  | some d =>
    if d.protocolVersion ≠ eipProtocolVersion then do
      Session.closeSockets
      Prog.raise (runtimeError "Received wrong Ethernet IP Protocol Version on registration")
    else
      Prog.modify (fun w => { w with s := { w.s with sessionId := response.header.sessionHandle } })
  | none =>
    Prog.modify (fun w => { w with s := { w.s with sessionId := response.header.sessionHandle } })

theorem Onward.openFinish (r : EncapPacket) (d : Option RegisterSessionData) : Onward (Eip.openFinish r d) := by
  unfold Eip.openFinish
  rcases d with _ | d
  · exact Onward.modify _ (fun _ => rfl)
  · dsimp only
    split
    · exact (Constant.bind Constant.closeSockets (fun _ => Constant.raise _)).onward
    · exact Onward.modify _ (fun _ => rfl)

theorem Session.open_eq (h p i : String) : Session.open h p i = (do
    sockOpen .tcp h p
    sockOpen .io h i
    let response ← Session.catchLengthLogic
      (Session.sendCommand (EncapPacket.withPayload Session.cmdRegisterSession 0 (some RegisterSessionData.new.obj)))
      (do Session.closeSockets; Prog.raise (runtimeError "Invalid response received registering session"))
      (do Session.closeSockets; Prog.raise (runtimeError "Error in registration response"))
    let regData ← Session.parseRegistration response
    openFinish response regData) := by
  unfold Session.open
  dsimp only
  refine congrArg _ (funext fun _ => congrArg _ (funext fun _ => congrArg _ (funext fun response => congrArg _
    (funext fun d => ?_))))
  unfold openFinish
  rcases d with _ | d <;> rfl

theorem DoesMost.open (h p i : String) : DoesMost (Session.openT h p i) (Session.open h p i) := by
  rw [Session.open_eq]
  have sc : ∀ m, Constant (do Session.closeSockets; Prog.raise (runtimeError m) : Prog World EncapPacket) :=
    fun m => Constant.bind Constant.closeSockets (fun _ => Constant.raise _)
  have dc : ∀ m, DoesPart (do Tight.lift Session.closeSockets; Tight.alloc; Tight.lift (Prog.raise (runtimeError m)) :
      Tight EncapPacket) (do Session.closeSockets; Prog.raise (runtimeError m)) :=
    fun m => DoesPart.bind (DoesPart.lift _) Constant.closeSockets
      (fun _ => DoesPart.alloc (DoesPart.lift _) (Constant.raise _).onward) (fun _ => (Constant.raise _).onward)
  have o4 : ∀ r, Onward (Session.parseRegistration r >>= openFinish r) :=
    fun r => Onward.bind (Constant.registration r).onward (fun d => Onward.openFinish r d)
  have o3 : Onward (Session.catchLengthLogic
      (Session.sendCommand (EncapPacket.withPayload Session.cmdRegisterSession 0 (some RegisterSessionData.new.obj)))
      (do Session.closeSockets; Prog.raise (runtimeError "Invalid response received registering session"))
      (do Session.closeSockets; Prog.raise (runtimeError "Error in registration response")) >>= fun r =>
      Session.parseRegistration r >>= openFinish r) :=
    Onward.bind (Constant.catch (Constant.command _) (sc _) (sc _)).onward o4
  refine DoesMost.alloc ?_ (Onward.bind (Constant.open _ _ _).onward (fun _ => Onward.bind (Constant.open _ _ _).onward
    (fun _ => o3)))
  refine DoesMost.bind (DoesPart.lift _) (Constant.open _ _ _) (fun _ => ?_)
    (fun _ => Onward.bind (Constant.open _ _ _).onward (fun _ => o3))
  refine DoesMost.bind (DoesPart.lift _) (Constant.open _ _ _) (fun _ => ?_) (fun _ => o3)
  refine DoesMost.alloc ?_ o3
  refine DoesMost.bind (DoesPart.catch (DoesPart.command _) (Constant.command _) (dc _) (dc _) (sc _).onward (sc _).onward)
    (Constant.catch (Constant.command _) (sc _) (sc _)) (fun r => ?_) o4
  refine DoesMost.alloc ?_ (o4 r)
  refine DoesMost.bind (DoesPart.lift _) (Constant.registration r) (fun d => ?_) (fun d => Onward.openFinish r d)
  refine DoesMost.alloc ?_ (Onward.openFinish r d)
  unfold openFinish
  rcases d with _ | d
  · exact DoesMost.modify _
  · dsimp only
    split
    · exact (DoesPart.bind (DoesPart.lift _) Constant.closeSockets
        (fun _ => DoesPart.alloc (DoesPart.lift _) (Constant.raise _).onward) (fun _ => (Constant.raise _).onward)).most
    · exact DoesMost.modify _

/-- Every call but `open`. -/
theorem DoesPart.run (op : Op) (h : ∀ a b c, op ≠ .open a b c) : DoesPart op.runT op.run := by
  cases op with
  | «open» a b c => exact absurd rfl (h a b c)
  | close => exact DoesPart.close
  | getAttribute _ c init x y z => exact DoesPart.getAttribute c init x y z
  | setAttribute x y z d => exact DoesPart.setAttribute x y z d
  | createConnection o t => exact DoesPart.forget (DoesPart.create o t)
  | closeConnection n => exact DoesPart.closeConnection n
  | getConnection n => exact DoesPart.lift _
  | receiveIOPacket => exact DoesPart.forget DoesPart.receiveIO
  | sendIOPacket p => exact DoesPart.sendIO p

/-- Every call. -/
theorem DoesMost.run (op : Op) : DoesMost op.runT op.run := by
  cases op with
  | «open» a b c => exact DoesMost.open a b c
  | close => exact (DoesPart.run .close (fun _ _ _ => nofun)).most
  | getAttribute δ c init x y z => exact (DoesPart.run (.getAttribute δ c init x y z) (fun _ _ _ => nofun)).most
  | setAttribute x y z d => exact (DoesPart.run (.setAttribute x y z d) (fun _ _ _ => nofun)).most
  | createConnection o t => exact (DoesPart.run (.createConnection o t) (fun _ _ _ => nofun)).most
  | closeConnection n => exact (DoesPart.run (.closeConnection n) (fun _ _ _ => nofun)).most
  | getConnection n => exact (DoesPart.run (.getConnection n) (fun _ _ _ => nofun)).most
  | receiveIOPacket => exact (DoesPart.run .receiveIOPacket (fun _ _ _ => nofun)).most
  | sendIOPacket p => exact (DoesPart.run (.sendIOPacket p) (fun _ _ _ => nofun)).most

/-! ### Getting through -/

/-- When `p` returns, `t` returns the same after `k` allocations. -/
def GoesThrough {α : Type} (k : Nat) (t : Tight α) (p : Prog World α) : Prop :=
  ∀ ⦃w w' : World⦄ ⦃a : α⦄ (rest : List Bool), p w = (.ok a, w') →
    t ⟨w, List.replicate k true ++ rest⟩ = (some (.ok a), ⟨w', rest⟩)

theorem GoesThrough.lift {α : Type} (p : Prog World α) : GoesThrough 0 (Tight.lift p) p := by
  intro w w' a rest h
  show (match p w with | (r, w') => (some r, (⟨w', rest⟩ : TightWorld))) = _
  rw [h]

theorem GoesThrough.alloc {α : Type} {k : Nat} {t : Tight α} {p : Prog World α} (h : GoesThrough k t p) :
    GoesThrough (k + 1) (Tight.alloc >>= fun _ => t) p := by
  intro w w' a rest hp
  exact h rest hp

theorem Prog.bind_returns {σ α β : Type} {p : Prog σ α} {q : α → Prog σ β} {w w' : σ} {b : β}
    (h : (p >>= q) w = (.ok b, w')) : ∃ a w1, p w = (.ok a, w1) ∧ q a w1 = (.ok b, w') := by
  have h' : Prog.andThen p q w = (.ok b, w') := h
  unfold Prog.andThen at h'
  rcases e : p w with ⟨(a | _ | _), w1⟩ <;> rw [e] at h'
  · exact ⟨a, w1, rfl, h'⟩
  · exact nomatch h'
  · exact nomatch h'

theorem GoesThrough.step {α β : Type} {k : Nat} {t : Tight α} {p : Prog World α} (h : GoesThrough k t p)
    {w w1 : World} {a : α} (hp : p w = (.ok a, w1)) (f : α → Tight β) (rest : List Bool) :
    (t >>= f) ⟨w, List.replicate k true ++ rest⟩ = f a ⟨w1, rest⟩ := by
  show Tight.andThen t f _ = _
  unfold Tight.andThen
  rw [h rest hp]

theorem GoesThrough.bind {α β : Type} {k m n : Nat} {t : Tight α} {p : Prog World α} {f : α → Tight β} {q : α → Prog World β}
    (ht : GoesThrough k t p) (hf : ∀ a, GoesThrough m (f a) (q a)) (hn : n = k + m) :
    GoesThrough n (t >>= f) (p >>= q) := by
  intro w w' b rest h
  obtain ⟨a, w1, h1, h2⟩ := Prog.bind_returns h
  rw [hn, ← List.replicate_append_replicate, List.append_assoc, ht.step h1 f]
  exact hf a rest h2

/-- For handlers that throw. -/
theorem GoesThrough.catch {α : Type} {k : Nat} {t tl tr : Tight α} {p l r : Prog World α} (ht : GoesThrough k t p)
    (hl : ∀ w, ∃ e w', (l w = (.throw e, w'))) (hr : ∀ w, ∃ e w', (r w = (.throw e, w'))) :
    GoesThrough k (Tight.catchLengthLogic t tl tr) (Session.catchLengthLogic p l r) := by
  intro w w' a rest h
  unfold Session.catchLengthLogic Prog.tryCatch at h
  rcases e : p w with ⟨(b | x | _), w1⟩ <;> rw [e] at h
  · dsimp only at h
    cases h
    unfold Tight.catchLengthLogic
    rw [ht rest e]
  · exfalso
    dsimp only at h
    split at h
    · obtain ⟨_, _, h'⟩ := hl w1
      exact nomatch h'.symm.trans h
    · split at h
      · obtain ⟨_, _, h'⟩ := hr w1
        exact nomatch h'.symm.trans h
      · exact nomatch h
  · exact nomatch h

theorem GoesThrough.command (req : EncapPacket) :
    GoesThrough 5 (Session.sendCommandT req) (Session.sendCommand req) := by
  refine GoesThrough.alloc (k := 4) ?_
  refine GoesThrough.bind (m := 4) (GoesThrough.lift _) (fun _ => ?_) rfl
  refine GoesThrough.alloc (k := 3) ?_
  refine GoesThrough.bind (m := 3) (GoesThrough.lift _) (fun _ => ?_) rfl
  refine GoesThrough.alloc (k := 2) ?_
  refine GoesThrough.bind (m := 2) (GoesThrough.lift _) (fun _ => ?_) rfl
  refine GoesThrough.alloc (k := 1) ?_
  refine GoesThrough.bind (m := 1) (GoesThrough.lift _) (fun _ => ?_) rfl
  exact GoesThrough.alloc (k := 0) (GoesThrough.lift _)

theorem GoesThrough.request (service : UInt8) (path : Path) (data : Option Obj) :
    GoesThrough 8 (Session.sendRRDataCommandT service path data) (Session.sendRRDataCommand service path data) := by
  refine GoesThrough.alloc (k := 7) ?_
  refine GoesThrough.bind (m := 7) (GoesThrough.lift _) (fun _ => ?_) rfl
  refine GoesThrough.bind (m := 2) (GoesThrough.catch (GoesThrough.command _) (fun w => ⟨_, _, rfl⟩)
    (fun w => ⟨_, _, rfl⟩)) (fun _ => ?_) rfl
  refine GoesThrough.bind (m := 1) (GoesThrough.catch (GoesThrough.alloc (k := 0) (GoesThrough.lift _))
    (fun w => ⟨_, _, rfl⟩) (fun w => ⟨_, _, rfl⟩)) (fun _ => ?_) rfl
  exact GoesThrough.alloc (k := 0) (GoesThrough.lift _)

theorem Tight.after_alloc {α : Type} (f : Unit → Tight α) (w : World) (rest : List Bool) :
    (Tight.alloc >>= f) ⟨w, true :: rest⟩ = f () ⟨w, rest⟩ := rfl

theorem Tight.after_lift {α β : Type} {p : Prog World α} {w w1 : World} {a : α} (hp : p w = (.ok a, w1)) (f : α → Tight β)
    (rest : List Bool) : (Tight.lift p >>= f) ⟨w, rest⟩ = f a ⟨w1, rest⟩ :=
  (GoesThrough.lift p).step hp f rest

/-- Running out at the next allocation. -/
theorem Tight.alloc_stop {α : Type} (f : Unit → Tight α) (w : World) (rest : List Bool) :
    (Tight.alloc >>= f) ⟨w, false :: rest⟩ = (none, ⟨w, rest⟩) := rfl

theorem onLocal_world {δ : Type} {d a : δ} {p : Prog δ Unit} {w w' : World}
    (h : (Session.onLocal d p : Prog World δ) w = (.ok a, w')) : w' = w := by
  unfold Session.onLocal at h
  rcases e : p d with ⟨(_ | _ | _), _⟩ <;> rw [e] at h <;> cases h
  rfl

theorem registration_world {r : EncapPacket} {d : Option RegisterSessionData} {w w' : World}
    (h : Session.parseRegistration r w = (.ok d, w')) : w' = w := by
  unfold Session.parseRegistration Session.catchLengthLogic Prog.tryCatch at h
  have hl : ∀ {res : Res (Option RegisterSessionData)} {v : World},
      (Session.onLocal RegisterSessionData.new (r.getPayloadAs RegisterSessionData.cls) >>= fun d =>
        Pure.pure (some d) : Prog World (Option RegisterSessionData)) w = (res, v) → v = w := by
    intro res v he
    have he' : Prog.andThen (Session.onLocal RegisterSessionData.new (r.getPayloadAs RegisterSessionData.cls))
      (fun d => Pure.pure (some d)) w = (res, v) := he
    unfold Prog.andThen Session.onLocal at he'
    rcases e : r.getPayloadAs RegisterSessionData.cls RegisterSessionData.new with ⟨(_ | _ | _), _⟩ <;> rw [e] at he' <;>
      cases he' <;> rfl
  split at h
  · rename_i he
    cases h
    exact hl he
  · rename_i he
    have := hl he
    subst this
    dsimp only at h
    split at h
    · cases h; rfl
    · split at h
      · cases h; rfl
      · exact nomatch h
  · exact nomatch h

/-- The end of `open` with little memory. -/
def openFinishT (response : EncapPacket) : Option RegisterSessionData → Tight Unit
  | some d =>
    if d.protocolVersion ≠ eipProtocolVersion then do
      Tight.lift Session.closeSockets
      Tight.alloc
      Tight.lift (Prog.raise (runtimeError "Received wrong Ethernet IP Protocol Version on registration"))
    else do
      Tight.lift (Prog.modify (fun w => { w with s := { w.s with sessionId := response.header.sessionHandle } }))
      Tight.alloc
  | none => do
    Tight.lift (Prog.modify (fun w => { w with s := { w.s with sessionId := response.header.sessionHandle } }))
    Tight.alloc

theorem openT_rest (r : EncapPacket) (w : World) (rest : List Bool) :
    (Tight.alloc >>= fun _ => Tight.lift (Session.parseRegistration r) >>= fun regData => Tight.alloc >>= fun _ =>
      (match regData with
      | some d =>
        if d.protocolVersion ≠ eipProtocolVersion then do
          Tight.lift Session.closeSockets
          Tight.alloc
          Tight.lift (Prog.raise (runtimeError "Received wrong Ethernet IP Protocol Version on registration"))
        else do
          Tight.lift (Prog.modify (fun w => { w with s := { w.s with sessionId := r.header.sessionHandle } }))
          Tight.alloc
      | none => do
        Tight.lift (Prog.modify (fun w => { w with s := { w.s with sessionId := r.header.sessionHandle } }))
        Tight.alloc : Tight Unit)) ⟨w, rest⟩ =
    (Tight.alloc >>= fun _ => Tight.lift (Session.parseRegistration r) >>= fun regData =>
        Tight.alloc >>= fun _ => openFinishT r regData) ⟨w, rest⟩ := by
  refine congrFun (congrArg _ (funext fun _ => congrArg _ (funext fun d => congrArg _ (funext fun _ => ?_)))) _
  unfold openFinishT
  rcases d with _ | d <;> rfl

theorem Tight.stops {α β : Type} {t : Tight α} {f : α → Tight β} {x x' : TightWorld} (h : t x = (none, x')) :
    (t >>= f) x = (none, x') := by
  show Tight.andThen t f x = _
  unfold Tight.andThen
  rw [h]

theorem Prog.ends_in {σ α : Type} {p : Prog σ α} {w : σ} {r : Res α} (h : (p w).1 = r) : ∃ w', p w = (r, w') :=
  ⟨(p w).2, Prod.ext h rfl⟩

theorem modify_get_ok {α : Type} {f : World → World} {g : World → α} {w w' : World} {a : α}
    (h : (Prog.modify f >>= fun _ => Prog.get >>= fun v => Pure.pure (g v) : Prog World α) w = (.ok a, w')) : w' = f w := by
  have h' : ((.ok (g (f w)), f w) : Res α × World) = (.ok a, w') := h
  exact (congrArg Prod.snd h').symm

/-! ### Serial numbers and connection ids -/

/-- Two worlds in which the next connection gets the same numbers. -/
def SameNumbers (w v : World) : Prop :=
  v.s.nextConnectionSn = w.s.nextConnectionSn ∧ v.s.nextConnectionId = w.s.nextConnectionId ∧
  v.s.vendorId = w.s.vendorId ∧ v.s.serialNum = w.s.serialNum

theorem SameNumbers.trans {u v w : World} (h : SameNumbers u v) (h' : SameNumbers v w) : SameNumbers u w :=
  ⟨h'.1.trans h.1, h'.2.1.trans h.2.1, h'.2.2.1.trans h.2.2.1, h'.2.2.2.trans h.2.2.2⟩

/-- A program that uses up no numbers. -/
def Frugal {α : Type} (p : Prog World α) : Prop := ∀ w, SameNumbers w (p w).2

/-- The same with little memory. -/
def FrugalT {α : Type} (t : Tight α) : Prop := ∀ x, SameNumbers x.w (t x).2.w

theorem Frugal.still {α : Type} {p : Prog World α} (h : ∀ w, (p w).2 = w) : Frugal p := by
  intro w
  rw [h w]
  exact ⟨rfl, rfl, rfl, rfl⟩

theorem Frugal.bind {α β : Type} {p : Prog World α} {q : α → Prog World β} (hp : Frugal p) (hq : ∀ a, Frugal (q a)) :
    Frugal (p >>= q) := by
  intro w
  have h := hp w
  show SameNumbers w (Prog.andThen p q w).2
  unfold Prog.andThen
  rcases e : p w with ⟨(a | _ | _), w'⟩ <;> rw [e] at h
  · exact h.trans (hq a w')
  · exact h
  · exact h

theorem Frugal.modify {f : World → World} (h : ∀ w, SameNumbers w (f w)) : Frugal (Prog.modify f) := h

theorem Frugal.call (ev : Answer → Ev) : Frugal (sockCall ev) := by
  intro w
  unfold sockCall
  dsimp only
  split <;> exact ⟨rfl, rfl, rfl, rfl⟩

theorem Frugal.send (s : Sock) (o : Obj) : Frugal (sockSend s o) := by
  refine Frugal.bind (Frugal.still (fun w => ?_)) (fun _ => Frugal.bind (Frugal.call _) (fun _ => Frugal.still (fun _ => rfl)))
  unfold serializeToVector
  rcases o.serialize (.buffer (BufferWriter.new (List.replicate o.getLength 0))) with ⟨(_ | _ | _), _ | _⟩ <;> rfl

theorem Frugal.receive (s : Sock) : Frugal (sockReceive s) :=
  Frugal.bind (Frugal.call _) (fun _ => Frugal.bind (Frugal.modify (fun _ => ⟨rfl, rfl, rfl, rfl⟩))
    (fun _ => Frugal.bind (Frugal.still (fun _ => rfl)) (fun _ => Frugal.still (fun _ => rfl))))

theorem Frugal.local {δ : Type} (d : δ) (p : Prog δ Unit) : Frugal (Session.onLocal d p : Prog World δ) := by
  refine Frugal.still (fun w => ?_)
  unfold Session.onLocal
  rcases p d with ⟨(_ | _ | _), _⟩ <;> rfl

theorem Frugal.parse (bytes : Bytes) : Frugal (Session.parsePacket bytes : Prog World EncapPacket) := by
  refine Frugal.still (fun w => ?_)
  unfold Session.parsePacket
  rcases EncapPacket.deserialize (EncapPacket.new, .buffer (BufferReader.new bytes)) with ⟨(_ | _ | _), _, _⟩ <;> rfl

theorem Frugal.check (p : EncapPacket) (c : UInt16) : Frugal (Session.checkPacket p c) := by
  refine Frugal.bind (Frugal.still (fun _ => rfl)) (fun w => ?_)
  split
  · exact Frugal.still (fun _ => rfl)
  · split
    · exact Frugal.still (fun _ => rfl)
    · split <;> exact Frugal.still (fun _ => rfl)

theorem Frugal.closeSockets : Frugal Session.closeSockets :=
  Frugal.bind (Frugal.bind (Frugal.call _) (fun _ => Frugal.still (fun _ => rfl)))
    (fun _ => Frugal.bind (Frugal.call _) (fun _ => Frugal.still (fun _ => rfl)))

theorem Frugal.open (s : Sock) (h p : String) : Frugal (sockOpen s h p) :=
  Frugal.bind (Frugal.call _) (fun _ => Frugal.still (fun _ => rfl))

theorem Frugal.registration (r : EncapPacket) : Frugal (Session.parseRegistration r) := by
  have hl : Frugal (Session.onLocal RegisterSessionData.new (r.getPayloadAs RegisterSessionData.cls) >>= fun d =>
      Pure.pure (some d) : Prog World (Option RegisterSessionData)) :=
    Frugal.bind (Frugal.local _ _) (fun _ => Frugal.still (fun _ => rfl))
  intro w
  have h := hl w
  unfold Session.parseRegistration Session.catchLengthLogic Prog.tryCatch
  rcases e : (Session.onLocal RegisterSessionData.new (r.getPayloadAs RegisterSessionData.cls) >>= fun d =>
      Pure.pure (some d) : Prog World (Option RegisterSessionData)) w with ⟨(_ | _ | _), w'⟩ <;> rw [e] at h
  · exact h
  · dsimp only
    split
    · exact h
    · split <;> exact h
  · exact h

theorem FrugalT.lift {α : Type} {p : Prog World α} (h : Frugal p) : FrugalT (Tight.lift p) := fun x => h x.w

theorem FrugalT.bind {α β : Type} {t : Tight α} {f : α → Tight β} (ht : FrugalT t) (hf : ∀ a, FrugalT (f a)) :
    FrugalT (t >>= f) := by
  intro x
  have h := ht x
  show SameNumbers x.w (Tight.andThen t f x).2.w
  unfold Tight.andThen
  rcases e : t x with ⟨_ | (a | _ | _), x'⟩ <;> rw [e] at h
  · exact h
  · exact h.trans (hf a x')
  · exact h
  · exact h

theorem FrugalT.alloc : FrugalT Tight.alloc := by
  intro x
  unfold Tight.alloc
  rcases x with ⟨w, _ | ⟨_ | _, rest⟩⟩ <;> exact ⟨rfl, rfl, rfl, rfl⟩

theorem FrugalT.after {α : Type} {t : Tight α} (h : FrugalT t) : FrugalT (Tight.alloc >>= fun _ => t) :=
  FrugalT.bind FrugalT.alloc (fun _ => h)

theorem FrugalT.raise {α : Type} (e : Exn) : FrugalT (Tight.lift (Prog.raise e) : Tight α) :=
  FrugalT.lift (Frugal.still (fun _ => rfl))

theorem FrugalT.catch {α : Type} {t l r : Tight α} (ht : FrugalT t) (hl : FrugalT l) (hr : FrugalT r) :
    FrugalT (Tight.catchLengthLogic t l r) := by
  intro x
  have h := ht x
  unfold Tight.catchLengthLogic
  rcases e : t x with ⟨_ | (a | _ | _), x'⟩ <;> rw [e] at h
  · exact h
  · exact h
  · dsimp only
    split
    · exact h.trans (hl x')
    · split
      · exact h.trans (hr x')
      · exact h
  · exact h

theorem FrugalT.command (req : EncapPacket) : FrugalT (Session.sendCommandT req) :=
  FrugalT.after (FrugalT.bind (FrugalT.lift (Frugal.send _ _)) fun _ => FrugalT.after (FrugalT.bind (FrugalT.lift
    (Frugal.receive _)) fun _ => FrugalT.after (FrugalT.bind (FrugalT.lift (Frugal.parse _)) fun _ => FrugalT.after
    (FrugalT.bind (FrugalT.lift (Frugal.check _ _)) fun _ => FrugalT.after (FrugalT.lift (Frugal.still fun _ => rfl))))))

theorem FrugalT.request (service : UInt8) (path : Path) (data : Option Obj) :
    FrugalT (Session.sendRRDataCommandT service path data) := by
  refine FrugalT.after (FrugalT.bind (FrugalT.lift (Frugal.still fun _ => rfl)) fun _ => FrugalT.bind
    (FrugalT.catch (FrugalT.command _) (FrugalT.after (FrugalT.raise _)) (FrugalT.after (FrugalT.raise _))) fun _ =>
    FrugalT.bind (FrugalT.catch (FrugalT.after (FrugalT.lift (Frugal.local _ _))) (FrugalT.after (FrugalT.raise _))
      (FrugalT.after (FrugalT.raise _))) fun _ => FrugalT.after (FrugalT.lift ?_))
  split <;> exact Frugal.still fun _ => rfl

theorem FrugalT.open (h p i : String) : FrugalT (Session.openT h p i) := by
  refine FrugalT.after (FrugalT.bind (FrugalT.lift (Frugal.open _ _ _)) fun _ => FrugalT.bind (FrugalT.lift
    (Frugal.open _ _ _)) fun _ => FrugalT.after (FrugalT.bind (FrugalT.catch (FrugalT.command _)
    (FrugalT.bind (FrugalT.lift Frugal.closeSockets) fun _ => FrugalT.after (FrugalT.raise _))
    (FrugalT.bind (FrugalT.lift Frugal.closeSockets) fun _ => FrugalT.after (FrugalT.raise _))) fun r =>
    FrugalT.after (FrugalT.bind (FrugalT.lift (Frugal.registration r)) fun d => FrugalT.after ?_)))
  rcases d with _ | d
  · exact FrugalT.bind (FrugalT.lift (Frugal.modify fun _ => ⟨rfl, rfl, rfl, rfl⟩)) fun _ => FrugalT.alloc
  · dsimp only
    split
    · exact FrugalT.bind (FrugalT.lift Frugal.closeSockets) fun _ => FrugalT.after (FrugalT.raise _)
    · exact FrugalT.bind (FrugalT.lift (Frugal.modify fun _ => ⟨rfl, rfl, rfl, rfl⟩)) fun _ => FrugalT.alloc

theorem FrugalT.closeConnection (n : Nat) : FrugalT (Session.closeConnectionT n) := by
  refine FrugalT.bind (FrugalT.lift (Frugal.still fun _ => rfl)) fun w => ?_
  rcases w.s.connections[n]? with _ | c
  · exact FrugalT.lift (Frugal.still fun _ => rfl)
  · refine FrugalT.after (FrugalT.bind (FrugalT.request _ _ _) fun _ => FrugalT.after (FrugalT.bind (FrugalT.lift
      (Frugal.local _ _)) fun r => FrugalT.after (FrugalT.lift (Frugal.bind (Frugal.still fun _ => rfl) fun w => ?_))))
    rcases w.s.connections[n]? with _ | c
    · exact Frugal.still fun _ => rfl
    · dsimp only
      split
      · exact Frugal.modify fun _ => ⟨rfl, rfl, rfl, rfl⟩
      · exact Frugal.still fun _ => rfl

theorem FrugalT.getConnection (n : Nat) : FrugalT (Tight.lift (Session.getConnection n).forget) := by
  refine FrugalT.lift (Frugal.bind (Frugal.bind (Frugal.still fun _ => rfl) fun w => ?_) fun _ => Frugal.still fun _ => rfl)
  rcases w.s.connections[n]? with _ | c <;> exact Frugal.still fun _ => rfl

/-- Every call but `createConnection`. -/
theorem FrugalT.run (op : Op) (h : ∀ o t, op ≠ .createConnection o t) : FrugalT op.runT := by
  cases op with
  | «open» a b c => exact FrugalT.open a b c
  | close => exact FrugalT.after (FrugalT.bind (FrugalT.lift (Frugal.still fun _ => rfl)) fun _ => FrugalT.bind
      (FrugalT.lift (Frugal.send _ _)) fun _ => FrugalT.after (FrugalT.bind (FrugalT.lift Frugal.closeSockets) fun _ =>
      FrugalT.lift (Frugal.modify fun _ => ⟨rfl, rfl, rfl, rfl⟩)))
  | getAttribute _ c init x y z => exact FrugalT.after (FrugalT.bind (FrugalT.request _ _ _) fun _ => FrugalT.after
      (FrugalT.lift (Frugal.bind (Frugal.local _ _) fun _ => Frugal.still fun _ => rfl)))
  | setAttribute x y z d => exact FrugalT.after (FrugalT.bind (FrugalT.request _ _ _) fun _ =>
      FrugalT.lift (Frugal.still fun _ => rfl))
  | createConnection o t => exact absurd rfl (h o t)
  | closeConnection n => exact FrugalT.closeConnection n
  | getConnection n => exact FrugalT.getConnection n
  | receiveIOPacket => exact FrugalT.bind (FrugalT.after (FrugalT.bind (FrugalT.lift (Frugal.receive _)) fun _ =>
      FrugalT.after (FrugalT.bind (FrugalT.lift (Frugal.local _ _)) fun _ => FrugalT.after
      (FrugalT.lift (Frugal.still fun _ => rfl))))) fun _ => FrugalT.lift (Frugal.still fun _ => rfl)
  | sendIOPacket p => exact FrugalT.after (FrugalT.bind (FrugalT.lift (Frugal.send _ _)) fun _ =>
      FrugalT.lift (Frugal.still fun _ => rfl))

theorem takes_first {α : Type} (m : World → World) (f : World → Tight α) (hf : ∀ w, FrugalT (f w)) (x : TightWorld) :
    ((((Tight.alloc >>= fun _ => Tight.lift Prog.get >>= fun w => Tight.lift (Prog.modify m) >>= fun _ => f w) >>= fun _ =>
        Pure.pure ()) x).1 = none ∧
      (((Tight.alloc >>= fun _ => Tight.lift Prog.get >>= fun w => Tight.lift (Prog.modify m) >>= fun _ => f w) >>= fun _ =>
        Pure.pure ()) x).2.w = x.w) ∨
    SameNumbers (m x.w) (((Tight.alloc >>= fun _ => Tight.lift Prog.get >>= fun w => Tight.lift (Prog.modify m) >>= fun _ =>
      f w) >>= fun _ => Pure.pure ()) x).2.w := by
  have fin : ∀ w supply, SameNumbers (m w) ((f w >>= fun _ => Pure.pure ()) ⟨m w, supply⟩).2.w :=
    fun w supply => FrugalT.bind (hf w) (fun _ => FrugalT.lift (Frugal.still fun _ => rfl)) ⟨m w, supply⟩
  rcases x with ⟨w, _ | ⟨_ | _, supply⟩⟩
  · exact .inr (fin w [])
  · exact .inl ⟨rfl, rfl⟩
  · exact .inr (fin w supply)

/-- `createConnection` takes its numbers before it does anything else. -/
theorem createT_numbers (o t : ConnectionInfo) (x : TightWorld) :
    (((Op.createConnection o t).runT x).1 = none ∧ ((Op.createConnection o t).runT x).2.w = x.w) ∨
    (((Op.createConnection o t).runT x).2.w.s.nextConnectionSn = x.w.s.nextConnectionSn + 1 ∧
      ((Op.createConnection o t).runT x).2.w.s.nextConnectionId = x.w.s.nextConnectionId + 1 + 1 ∧
      ((Op.createConnection o t).runT x).2.w.s.vendorId = x.w.s.vendorId ∧
      ((Op.createConnection o t).runT x).2.w.s.serialNum = x.w.s.serialNum) := by
  have rest : ∀ conn : Connection, FrugalT (Tight.alloc >>= fun _ =>
      Session.sendRRDataCommandT 0x5B (Path.mk2 0x06 1) (some conn.createForwardOpenRequest.obj) >>= fun respData =>
      Tight.alloc >>= fun _ => Tight.lift (Session.onLocal Session.freshForwardOpenSuccess
        (respData.getResponseDataAs ForwardOpenSuccess.cls)) >>= fun result =>
      Tight.alloc >>= fun _ => (match conn.verifyForwardOpenResult result with
        | (false, _) => Tight.lift (Prog.raise (logicError "Forward Open Response Invalid"))
        | (true, conn') => Tight.lift (do
          Prog.modify (fun w => { w with s := { w.s with connections := w.s.connections ++ [conn'] } })
          let w ← Prog.get
          pure (sizeToInt (sizeSub w.s.connections.length 1))) : Tight Int)) := by
    intro conn
    refine FrugalT.after (FrugalT.bind (FrugalT.request _ _ _) fun _ => FrugalT.after (FrugalT.bind (FrugalT.lift
      (Frugal.local _ _)) fun r => FrugalT.after ?_))
    rcases conn.verifyForwardOpenResult r with ⟨_ | _, conn'⟩
    · exact FrugalT.raise _
    · exact FrugalT.lift (Frugal.bind (Frugal.modify fun _ => ⟨rfl, rfl, rfl, rfl⟩) fun _ => Frugal.bind (Frugal.still fun _ => rfl)
        fun _ => Frugal.still fun _ => rfl)
  exact takes_first _ _ (fun w => rest (Session.prepareConnection w.s o t)) x

end Eip
