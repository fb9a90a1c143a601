import Verif.Model.TightScan
import Verif.Props.ScanLog
import Verif.Lemmas.Tight
/-
Helpers for C138: the scanner when memory runs out.
-/
namespace Eip
namespace TightScan
variable {α β : Type}

/-- The first part of what is told and done. -/
def Upto (s v : LogScanner) : Prop := s.log <+: v.log ∧ s.s.log <+: v.s.log

theorem Upto.refl (s : LogScanner) : Upto s s := ⟨List.prefix_refl _, List.prefix_refl _⟩

theorem Upto.trans {a b c : LogScanner} (h : Upto a b) (h' : Upto b c) : Upto a c :=
  ⟨h.1.trans h'.1, h.2.trans h'.2⟩

/-- Only adds to the logs. -/
def Adds (p : Prog LogScanner α) : Prop := ∀ s, Upto s (p s).2

/-- `t` is `p`, or the first part of `p`. -/
structure Partly (t : TightScan α) (p : Prog LogScanner α) : Prop where
  adds : Adds p
  does : ∀ x, (t x).2.supply <:+ x.supply ∧ ((∃ r, (t x).1 = some r ∧ p x.s = (r, (t x).2.s)) ∨
    ((t x).1 = none ∧ false ∈ x.supply ∧ Upto x.s (t x).2.s ∧ Upto (t x).2.s (p x.s).2))

theorem Adds.bind {p : Prog LogScanner α} {q : α → Prog LogScanner β} (hp : Adds p) (hq : ∀ a, Adds (q a)) :
    Adds (p >>= q) := by
  intro s
  have h := hp s
  show Upto s (Prog.andThen p q s).2
  unfold Prog.andThen
  rcases e : p s with ⟨a | _ | _, s'⟩ <;> rw [e] at h
  · exact h.trans (hq a s')
  · exact h
  · exact h

theorem Partly.lift {p : Prog LogScanner α} (h : Adds p) : Partly (TightScan.lift p) p := by
  refine ⟨h, fun x => ⟨List.suffix_refl _, .inl ⟨(p x.s).1, rfl, rfl⟩⟩⟩

theorem Partly.bind {t : TightScan α} {p : Prog LogScanner α} {f : α → TightScan β} {q : α → Prog LogScanner β}
    (ht : Partly t p) (hf : ∀ a, Partly (f a) (q a)) : Partly (t >>= f) (p >>= q) := by
  refine ⟨ht.adds.bind (fun a => (hf a).adds), fun x => ?_⟩
  have grows := ht.adds.bind (fun a => (hf a).adds)
  obtain ⟨hs, ⟨r, h1, h2⟩ | ⟨h1, h2, h3, h4⟩⟩ := ht.does x
  · rcases e : t x with ⟨o, x'⟩
    rw [e] at hs h1 h2
    dsimp only at hs h1 h2
    subst h1
    have up : Upto x.s x'.s := by
      have := ht.adds x.s
      rw [h2] at this
      exact this
    show (andThen t f x).2.supply <:+ _ ∧ ((∃ r, (andThen t f x).1 = some r ∧ Prog.andThen p q x.s = (r, (andThen t f x).2.s)) ∨
      ((andThen t f x).1 = none ∧ _ ∧ Upto _ (andThen t f x).2.s ∧ Upto (andThen t f x).2.s (Prog.andThen p q x.s).2))
    unfold andThen Prog.andThen
    rw [e, h2]
    rcases r with a | _ | _
    · obtain ⟨hs', h | ⟨h1, h2, h3, h4⟩⟩ := (hf a).does x'
      · exact ⟨hs'.trans hs, .inl h⟩
      · exact ⟨hs'.trans hs, .inr ⟨h1, hs.mem h2, up.trans h3, h4⟩⟩
    · exact ⟨hs, .inl ⟨_, rfl, rfl⟩⟩
    · exact ⟨hs, .inl ⟨_, rfl, rfl⟩⟩
  · rcases e : t x with ⟨o, x'⟩
    rw [e] at hs h1 h3 h4
    dsimp only at hs h1 h3 h4
    subst h1
    have hb : (t >>= f) x = (none, x') := by
      show andThen t f x = _
      unfold andThen
      rw [e]
    rw [hb]
    refine ⟨hs, .inr ⟨rfl, h2, h3, h4.trans ?_⟩⟩
    show Upto _ (Prog.andThen p q x.s).2
    unfold Prog.andThen
    rcases e : p x.s with ⟨a | _ | _, s'⟩
    · exact (hf a).adds s'
    · exact Upto.refl _
    · exact Upto.refl _

theorem Partly.alloc {t : TightScan α} {p : Prog LogScanner α} (h : Partly t p) :
    Partly (TightScan.alloc >>= fun _ => t) p := by
  refine ⟨h.adds, fun ⟨s, supply⟩ => ?_⟩
  match supply with
  | [] => exact h.does ⟨s, []⟩
  | true :: rest =>
    obtain ⟨hs, h | ⟨h1, h2, h3, h4⟩⟩ := h.does ⟨s, rest⟩
    · exact ⟨hs.trans (List.suffix_cons _ _), .inl h⟩
    · exact ⟨hs.trans (List.suffix_cons _ _), .inr ⟨h1, List.mem_cons_of_mem _ h2, h3, h4⟩⟩
  | false :: rest => exact ⟨List.suffix_cons _ _, .inr ⟨rfl, List.mem_cons_self, Upto.refl _, h.adds s⟩⟩

theorem Adds.tell (m : LogMsg) : Adds (Eip.tell m) := fun _ => ⟨List.prefix_append _ _, List.prefix_refl _⟩

theorem Adds.pure (a : α) : Adds (Pure.pure a : Prog LogScanner α) := Upto.refl

theorem Adds.raise (e : Exn) : Adds (Prog.raise e : Prog LogScanner α) := Upto.refl

theorem Adds.onLocal {δ : Type} (init : δ) (p : Prog δ Unit) : Adds (Session.onLocal init p) := by
  intro s
  unfold Session.onLocal
  rcases p init with ⟨_ | _ | _, _⟩ <;> exact Upto.refl s

theorem Adds.parse (bytes : Bytes) : Adds (Session.Logged.parsePacket bytes) := by
  intro s
  unfold Session.Logged.parsePacket
  rcases EncapPacket.deserialize (EncapPacket.new, .buffer (BufferReader.new bytes)) with ⟨_ | _ | _, _, _⟩ <;>
    exact Upto.refl s

theorem Adds.report (id : IdentityItemData) :
    Adds (untold (Prog.modify (fun s => { s with log := s.log ++ [.reported id] }))) :=
  fun _ => ⟨List.prefix_refl _, List.prefix_append _ _⟩

theorem Adds.send (env : ScanEnv) : Adds (untold (Scanner.sendListIdentityRequest env)) := by
  intro s
  have e : (untold (Scanner.sendListIdentityRequest env) s).2 =
      ⟨(Scanner.sendListIdentityRequest env s.s).2, s.log⟩ := rfl
  rw [e, send_eq]
  refine ⟨List.prefix_refl _, ?_⟩
  show s.s.log <+: _
  split
  · exact List.prefix_append _ _
  · exact List.prefix_refl _

theorem Partly.tell (m : LogMsg) : Partly (TightScan.tell m) (Eip.tell m) := Partly.alloc (Partly.lift (Adds.tell m))

theorem Partly.tellIf (c : Prop) [Decidable c] (m : LogMsg) : Partly (TightScan.tellIf c m) (Eip.tellIf c m) := by
  unfold TightScan.tellIf Eip.tellIf
  by_cases h : c
  · rw [if_pos h, if_pos h]; exact Partly.tell m
  · rw [if_neg h, if_neg h]; exact Partly.lift (Adds.pure ())

theorem Partly.tellAll (ms : List LogMsg) : Partly (TightScan.tellAll ms) (Eip.tellAll ms) := by
  induction ms with
  | nil => exact Partly.lift (Adds.pure ())
  | cons m ms ih => exact Partly.bind (Partly.tell m) (fun _ => ih)

theorem Partly.ite {c : Prop} [Decidable c] {t t' : TightScan α} {p p' : Prog LogScanner α} (h : Partly t p)
    (h' : Partly t' p') : Partly (if c then t else t') (if c then p else p') := by
  by_cases hc : c
  · rw [if_pos hc, if_pos hc]; exact h
  · rw [if_neg hc, if_neg hc]; exact h'

theorem Partly.datagram (env : ScanEnv) (bytes : Bytes) :
    Partly (TightScan.handleDatagram env bytes) (Scanner.Logged.handleDatagram env bytes) := by
  unfold TightScan.handleDatagram Scanner.Logged.handleDatagram
  refine Partly.alloc (Partly.bind (Partly.lift (Adds.parse bytes)) (fun r => ?_))
  obtain ⟨pkt, used⟩ := r
  refine Partly.bind (Partly.tellIf _ _) (fun _ => Partly.ite (Partly.tell _) ?_)
  refine Partly.bind (Partly.tellIf _ _) (fun _ => Partly.bind (Partly.tellIf _ _) (fun _ =>
    Partly.bind (Partly.tellIf _ _) (fun _ => Partly.bind (Partly.tellIf _ _) (fun _ => Partly.alloc ?_))))
  refine Partly.bind (Partly.lift (Adds.onLocal _ _)) (fun payload => Partly.ite (Partly.tell _) ?_)
  refine Partly.bind (Partly.tellIf _ _) (fun _ => ?_)
  cases payload.items with
  | nil => exact Partly.lift (Adds.raise _)
  | cons item _ =>
    refine Partly.ite (Partly.tell _) (Partly.alloc (Partly.bind (Partly.lift (Adds.onLocal _ _)) (fun id => ?_)))
    exact Partly.bind (Partly.tellAll _) (fun _ => Partly.lift (Adds.report id))

theorem logged_datagram (env : ScanEnv) (data : Bytes) (s : LogScanner) :
    Scanner.Logged.handleListIdentityResponse env (.datagram data) s =
      match Scanner.Logged.handleDatagram env (data.take 4096) s with
      | (.throw e, s') => if e.kind.isA .lengthError then Eip.tell .scanShort s' else (.throw e, s')
      | y => y := by
  have h : Scanner.Logged.handleListIdentityResponse env (.datagram data) s =
    Prog.tryCatch (Scanner.Logged.handleDatagram env (data.take 4096))
      (fun e => if e.kind.isA .lengthError then Eip.tell .scanShort else Prog.raise e) s := rfl
  rw [h, Prog.tryCatch]
  rcases Scanner.Logged.handleDatagram env (data.take 4096) s with ⟨_ | ex | _, s'⟩
  · rfl
  · dsimp only
    split <;> rfl
  · rfl

theorem tight_datagram (env : ScanEnv) (data : Bytes) (x : TightScanner) :
    TightScan.handleListIdentityResponse env (.datagram data) x =
      match TightScan.handleDatagram env (data.take 4096) x with
      | (some (.throw e), x') =>
        if e.kind.isA .lengthError then TightScan.lift (Eip.tell .scanShort) x' else (some (.throw e), x')
      | y => y := rfl

theorem Partly.handle (env : ScanEnv) (a : Arrival) :
    Partly (TightScan.handleListIdentityResponse env a) (Scanner.Logged.handleListIdentityResponse env a) := by
  cases a with
  | error => exact Partly.tell _
  | datagram data =>
    have h := Partly.datagram env (data.take 4096)
    have adds : Adds (Scanner.Logged.handleListIdentityResponse env (.datagram data)) := by
      intro s
      have hs := h.adds s
      rw [logged_datagram]
      rcases e : Scanner.Logged.handleDatagram env (data.take 4096) s with ⟨_ | ex | _, s'⟩ <;> rw [e] at hs
      · exact hs
      · dsimp only
        split
        · exact hs.trans (Adds.tell _ _)
        · exact hs
      · exact hs
    refine ⟨adds, fun x => ?_⟩
    rw [tight_datagram, logged_datagram]
    obtain ⟨hs, ⟨r, h1, h2⟩ | ⟨h1, h2, h3, h4⟩⟩ := h.does x
    · rcases e : TightScan.handleDatagram env (data.take 4096) x with ⟨o, x'⟩
      rw [e] at hs h1 h2
      dsimp only at hs h1 h2
      subst h1
      rw [h2]
      rcases r with _ | ex | _
      · exact ⟨hs, .inl ⟨_, rfl, rfl⟩⟩
      · dsimp only
        split
        · exact ⟨hs, .inl ⟨_, rfl, rfl⟩⟩
        · exact ⟨hs, .inl ⟨_, rfl, rfl⟩⟩
      · exact ⟨hs, .inl ⟨_, rfl, rfl⟩⟩
    · rcases e : TightScan.handleDatagram env (data.take 4096) x with ⟨o, x'⟩
      rw [e] at hs h1 h3 h4
      dsimp only at hs h1 h3 h4
      subst h1
      refine ⟨hs, .inr ⟨rfl, h2, h3, h4.trans ?_⟩⟩
      rcases e : Scanner.Logged.handleDatagram env (data.take 4096) x.s with ⟨_ | ex | _, s'⟩
      · exact Upto.refl _
      · dsimp only
        split
        · exact Adds.tell _ _
        · exact Upto.refl _
      · exact Upto.refl _

theorem Adds.service_nil (env : ScanEnv) : Adds (Scanner.Logged.runService env []) := by
  intro s
  unfold Scanner.Logged.runService
  rcases s.s.receives with _ | _ <;> exact Upto.refl s

theorem Partly.service (env : ScanEnv) (arrivals : List Arrival) :
    Partly (TightScan.runService env arrivals) (Scanner.Logged.runService env arrivals) := by
  induction arrivals with
  | nil => exact Partly.lift (Adds.service_nil env)
  | cons a rest ih =>
    have hh := Partly.handle env a
    have adds : Adds (Scanner.Logged.runService env (a :: rest)) := by
      intro s
      unfold Scanner.Logged.runService
      rcases s.s.receives with _ | n
      · exact Upto.refl s
      · have h : Upto s _ := hh.adds { s with s := { s.s with receives := n } }
        dsimp only
        rcases e : Scanner.Logged.handleListIdentityResponse env a { s with s := { s.s with receives := n } } with
          ⟨_ | _ | _, s'⟩ <;> rw [e] at h
        · exact h.trans (ih.adds s')
        · exact h
        · exact h
    refine ⟨adds, fun x => ?_⟩
    unfold TightScan.runService Scanner.Logged.runService
    rcases x.s.s.receives with _ | n
    · exact ⟨List.suffix_refl _, .inl ⟨_, rfl, rfl⟩⟩
    · dsimp only
      obtain ⟨hs, ⟨r, h1, h2⟩ | ⟨h1, h2, h3, h4⟩⟩ := hh.does { x with s := { x.s with s := { x.s.s with receives := n } } }
      · rcases e : TightScan.handleListIdentityResponse env a
          { x with s := { x.s with s := { x.s.s with receives := n } } } with ⟨o, x'⟩
        have up : Upto x.s _ := hh.adds { x.s with s := { x.s.s with receives := n } }
        rw [e] at hs h1 h2
        dsimp only at hs h1 h2
        rw [h2] at up
        subst h1
        rw [h2]
        rcases r with _ | _ | _
        · obtain ⟨hs', h | ⟨h1, h2, h3, h4⟩⟩ := ih.does x'
          · exact ⟨hs'.trans hs, .inl h⟩
          · exact ⟨hs'.trans hs, .inr ⟨h1, hs.mem h2, up.trans h3, h4⟩⟩
        · exact ⟨hs, .inl ⟨_, rfl, rfl⟩⟩
        · exact ⟨hs, .inl ⟨_, rfl, rfl⟩⟩
      · rcases e : TightScan.handleListIdentityResponse env a
          { x with s := { x.s with s := { x.s.s with receives := n } } } with ⟨o, x'⟩
        rw [e] at hs h1 h3 h4
        dsimp only at hs h1 h3 h4
        subst h1
        refine ⟨hs, .inr ⟨rfl, h2, h3, h4.trans ?_⟩⟩
        rcases e : Scanner.Logged.handleListIdentityResponse env a
          { x.s with s := { x.s.s with receives := n } } with ⟨_ | _ | _, s'⟩
        · exact ih.adds s'
        · exact Upto.refl _
        · exact Upto.refl _

theorem Partly.send (env : ScanEnv) :
    Partly (TightScan.sendListIdentityRequest env) (Scanner.Logged.sendListIdentityRequest env) :=
  Partly.bind (Partly.tell _) (fun _ => Partly.alloc (Partly.bind (Partly.lift (Adds.send env)) (fun _ => Partly.tell _)))

theorem Partly.run (env : ScanEnv) (arrivals : List Arrival) :
    Partly (TightScan.run env arrivals) (Scanner.Logged.run env arrivals) :=
  Partly.bind (Partly.send env) (fun _ => Partly.bind (Partly.tell _) (fun _ => Partly.service env arrivals))

/-! ### Stopping between any two messages -/

/-- When `p` succeeds, so does `t` with some number of allocations, and for every message that `p` logs there is an
allocation of `t` whose failure stops it just before that message, with nothing done but logging. -/
def Spends (t : TightScan α) (p : Prog LogScanner α) : Prop :=
  ∀ ⦃s s' : LogScanner⦄ ⦃a : α⦄, p s = (.ok a, s') → ∃ new, s'.log = s.log ++ new ∧
    (∃ n, ∀ rest, t ⟨s, List.replicate n true ++ rest⟩ = (some (.ok a), ⟨s', rest⟩)) ∧
    ∀ k, k < new.length → ∃ m, t ⟨s, List.replicate m true ++ [false]⟩ = (none, ⟨⟨s.s, s.log ++ new.take k⟩, []⟩)

/-- Nothing but logging. -/
def Mere (p : Prog LogScanner α) : Prop := ∀ ⦃s s' : LogScanner⦄ ⦃a : α⦄, p s = (.ok a, s') → s'.s = s.s

theorem Spends.bind {t : TightScan α} {p : Prog LogScanner α} {f : α → TightScan β} {q : α → Prog LogScanner β}
    (ht : Spends t p) (hp : Mere p) (hf : ∀ a, Spends (f a) (q a)) : Spends (t >>= f) (p >>= q) := by
  intro s s' b h
  obtain ⟨a, s1, h1, h2⟩ := Prog.bind_returns h
  obtain ⟨new, e1, ⟨n, g1⟩, k1⟩ := ht h1
  obtain ⟨new', e2, ⟨n', g2⟩, k2⟩ := hf a h2
  have go : ∀ m rest, (t >>= f) ⟨s, List.replicate (n + m) true ++ rest⟩ = f a ⟨s1, List.replicate m true ++ rest⟩ := by
    intro m rest
    show andThen t f _ = _
    unfold andThen
    rw [← List.replicate_append_replicate, List.append_assoc, g1]
  refine ⟨new ++ new', by rw [e2, e1, List.append_assoc], ⟨n + n', fun rest => (go n' rest).trans (g2 rest)⟩, ?_⟩
  intro k hk
  by_cases hlt : k < new.length
  · obtain ⟨m, e⟩ := k1 k hlt
    refine ⟨m, ?_⟩
    show andThen t f _ = _
    unfold andThen
    rw [e, List.take_append_of_le_length (Nat.le_of_lt hlt)]
  · have hk' : k - new.length < new'.length := by
      rw [List.length_append] at hk
      omega
    obtain ⟨m, e⟩ := k2 (k - new.length) hk'
    refine ⟨n + m, (go m [false]).trans (e.trans ?_)⟩
    rw [hp h1, e1, List.append_assoc, List.take_append, List.take_of_length_le (Nat.le_of_not_lt hlt)]

theorem Spends.alloc {t : TightScan α} {p : Prog LogScanner α} (h : Spends t p) :
    Spends (TightScan.alloc >>= fun _ => t) p := by
  intro s s' a hp
  obtain ⟨new, e, ⟨n, g⟩, k⟩ := h hp
  refine ⟨new, e, ⟨n + 1, fun rest => g rest⟩, fun i hi => ?_⟩
  obtain ⟨m, e⟩ := k i hi
  exact ⟨m + 1, e⟩

theorem Spends.lift {p : Prog LogScanner α} (h : ∀ ⦃s s' : LogScanner⦄ ⦃a : α⦄, p s = (.ok a, s') → s'.log = s.log) :
    Spends (TightScan.lift p) p := by
  intro s s' a hp
  refine ⟨[], by rw [h hp, List.append_nil], ⟨0, fun rest => ?_⟩, fun k hk => nomatch hk⟩
  show (match p s with | (r, s') => (some r, (⟨s', rest⟩ : TightScanner))) = _
  rw [hp]

theorem Spends.tell (m : LogMsg) : Spends (TightScan.tell m) (Eip.tell m) := by
  intro s s' a hp
  cases hp
  refine ⟨[m], rfl, ⟨1, fun rest => rfl⟩, fun k hk => ⟨0, ?_⟩⟩
  have h0 : k = 0 := by
    have : k < 1 := hk
    omega
  subst h0
  show (none, (⟨s, []⟩ : TightScanner)) = _
  rw [List.take_zero, List.append_nil]

theorem Mere.tell (m : LogMsg) : Mere (Eip.tell m) := by
  intro s s' a hp
  cases hp
  rfl

theorem Mere.tellIf (c : Prop) [Decidable c] (m : LogMsg) : Mere (Eip.tellIf c m) := by
  unfold Eip.tellIf
  by_cases h : c
  · rw [if_pos h]; exact Mere.tell m
  · rw [if_neg h]; intro s s' a hp; cases hp; rfl

theorem Mere.tellAll (ms : List LogMsg) : Mere (Eip.tellAll ms) := by
  induction ms with
  | nil => intro s s' a hp; cases hp; rfl
  | cons m ms ih =>
    intro s s' a hp
    obtain ⟨b, s1, h1, h2⟩ := Prog.bind_returns hp
    exact (ih h2).trans (Mere.tell m h1)

theorem Spends.tellIf (c : Prop) [Decidable c] (m : LogMsg) : Spends (TightScan.tellIf c m) (Eip.tellIf c m) := by
  unfold TightScan.tellIf Eip.tellIf
  by_cases h : c
  · rw [if_pos h, if_pos h]; exact Spends.tell m
  · rw [if_neg h, if_neg h]; exact Spends.lift (fun s s' a hp => by cases hp; rfl)

theorem Spends.tellAll (ms : List LogMsg) : Spends (TightScan.tellAll ms) (Eip.tellAll ms) := by
  induction ms with
  | nil => exact Spends.lift (fun s s' a hp => by cases hp; rfl)
  | cons m ms ih => exact Spends.bind (Spends.tell m) (Mere.tell m) (fun _ => ih)

theorem Spends.ite {c : Prop} [Decidable c] {t t' : TightScan α} {p p' : Prog LogScanner α} (h : Spends t p)
    (h' : Spends t' p') : Spends (if c then t else t') (if c then p else p') := by
  by_cases hc : c
  · rw [if_pos hc, if_pos hc]; exact h
  · rw [if_neg hc, if_neg hc]; exact h'

theorem local_same {δ : Type} {init d : δ} {p : Prog δ Unit} {s s' : LogScanner}
    (h : (Session.onLocal init p : Prog LogScanner δ) s = (.ok d, s')) : s' = s := by
  unfold Session.onLocal at h
  rcases e : p init with ⟨_ | _ | _, _⟩ <;> rw [e] at h <;> cases h
  rfl

theorem parse_same {bytes : Bytes} {r : EncapPacket × Nat} {s s' : LogScanner}
    (h : Session.Logged.parsePacket bytes s = (.ok r, s')) : s' = s := by
  unfold Session.Logged.parsePacket at h
  rcases e : EncapPacket.deserialize (EncapPacket.new, .buffer (BufferReader.new bytes)) with ⟨_ | _ | _, _, _⟩ <;>
    rw [e] at h <;> cases h
  rfl

theorem Spends.datagram (env : ScanEnv) (bytes : Bytes) :
    Spends (TightScan.handleDatagram env bytes) (Scanner.Logged.handleDatagram env bytes) := by
  unfold TightScan.handleDatagram Scanner.Logged.handleDatagram
  refine Spends.alloc (Spends.bind (Spends.lift (fun s s' a h => congrArg LogScanner.log (parse_same h)))
    (fun s s' a h => congrArg LogScanner.s (parse_same h)) (fun r => ?_))
  obtain ⟨pkt, used⟩ := r
  refine Spends.bind (Spends.tellIf _ _) (Mere.tellIf _ _) (fun _ => Spends.ite (Spends.tell _) ?_)
  refine Spends.bind (Spends.tellIf _ _) (Mere.tellIf _ _) (fun _ => Spends.bind (Spends.tellIf _ _) (Mere.tellIf _ _)
    (fun _ => Spends.bind (Spends.tellIf _ _) (Mere.tellIf _ _) (fun _ => Spends.bind (Spends.tellIf _ _)
      (Mere.tellIf _ _) (fun _ => Spends.alloc ?_))))
  refine Spends.bind (Spends.lift (fun s s' a h => congrArg LogScanner.log (local_same h)))
    (fun s s' a h => congrArg LogScanner.s (local_same h)) (fun payload => Spends.ite (Spends.tell _) ?_)
  refine Spends.bind (Spends.tellIf _ _) (Mere.tellIf _ _) (fun _ => ?_)
  cases payload.items with
  | nil => exact Spends.lift (fun s s' a hp => nomatch hp)
  | cons item _ =>
    refine Spends.ite (Spends.tell _) (Spends.alloc (Spends.bind
      (Spends.lift (fun s s' a h => congrArg LogScanner.log (local_same h)))
      (fun s s' a h => congrArg LogScanner.s (local_same h)) (fun id => ?_)))
    refine Spends.bind (Spends.tellAll _) (Mere.tellAll _) (fun _ => Spends.lift (fun s s' a hp => ?_))
    cases hp
    rfl

end TightScan
end Eip
