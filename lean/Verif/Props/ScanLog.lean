import Verif.Lemmas.ScanLog
/-
C107: what the list identity scanner logs.
-/
namespace Eip
open Spec

/-! ### The log changes nothing -/

/-- `p` does what `q` does, apart from the log, to which it only adds. -/
def Tells {α : Type} (p : Prog LogScanner α) (q : Prog Scanner α) : Prop :=
  ∀ s l, ∃ new, p ⟨s, l⟩ = ((q s).1, ⟨(q s).2, l ++ new⟩)

namespace Tells
variable {α β : Type}

theorem pure (a : α) : Tells (Pure.pure a) (Pure.pure a) := fun _ l => ⟨[], by rw [List.append_nil]; rfl⟩

theorem raise (e : Exn) : Tells (Prog.raise e : Prog LogScanner α) (Prog.raise e) :=
  fun _ l => ⟨[], by rw [List.append_nil]; rfl⟩

theorem untold (q : Prog Scanner α) : Tells (Eip.untold q) q := fun _ l => ⟨[], by rw [List.append_nil]; rfl⟩

theorem tell (m : LogMsg) : Tells (Eip.tell m) (Pure.pure ()) := fun _ _ => ⟨[m], rfl⟩

theorem onLocal {δ : Type} (init : δ) (p : Prog δ Unit) :
    Tells (Session.onLocal init p) (Session.onLocal init p) := by
  intro s l
  refine ⟨[], ?_⟩
  rw [List.append_nil]
  simp only [Session.onLocal]
  generalize p init = r
  obtain ⟨(_ | _ | _), _⟩ := r <;> rfl

theorem bind {p : Prog LogScanner α} {q : Prog Scanner α} {f : α → Prog LogScanner β} {g : α → Prog Scanner β}
    (hp : Tells p q) (hf : ∀ a, Tells (f a) (g a)) : Tells (p >>= f) (q >>= g) := by
  intro s l
  obtain ⟨new, e⟩ := hp s l
  rcases hq : q s with ⟨(a | x | u), s'⟩ <;> rw [hq] at e
  · obtain ⟨new', e'⟩ := hf a s' (l ++ new)
    refine ⟨new ++ new', ?_⟩
    rw [Prog.bind_ok e, Prog.bind_ok hq, e', List.append_assoc]
  · exact ⟨new, by rw [Prog.bind_throw e, Prog.bind_throw hq]⟩
  · exact ⟨new, by rw [Prog.bind_ub e, Prog.bind_ub hq]⟩

theorem tell_bind (m : LogMsg) {p : Prog LogScanner β} {q : Prog Scanner β} (hp : Tells p q) :
    Tells (Eip.tell m >>= fun _ => p) q := fun s l => by
  obtain ⟨new, e⟩ := hp s (l ++ [m])
  exact ⟨[m] ++ new, by rw [tell_then, e, List.append_assoc]⟩

theorem tellIf_bind (c : Prop) [Decidable c] (m : LogMsg) {p : Prog LogScanner β} {q : Prog Scanner β} (hp : Tells p q) :
    Tells (Eip.tellIf c m >>= fun _ => p) q := fun s l => by
  obtain ⟨new, e⟩ := hp s (l ++ when c m)
  exact ⟨when c m ++ new, by rw [tellIf_then, e, List.append_assoc]⟩

theorem tellAll_bind (ms : List LogMsg) {p : Prog LogScanner β} {q : Prog Scanner β} (hp : Tells p q) :
    Tells (Eip.tellAll ms >>= fun _ => p) q := fun s l => by
  obtain ⟨new, e⟩ := hp s (l ++ ms)
  exact ⟨ms ++ new, by rw [tellAll_then, e, List.append_assoc]⟩

theorem ite {c : Prop} [Decidable c] {p p' : Prog LogScanner α} {q q' : Prog Scanner α} (h : Tells p q)
    (h' : Tells p' q') : Tells (if c then p else p') (if c then q else q') := by
  by_cases hc : c
  · rw [if_pos hc, if_pos hc]; exact h
  · rw [if_neg hc, if_neg hc]; exact h'

theorem parse_bind (bytes : Bytes) {f : EncapPacket × Nat → Prog LogScanner β} {g : EncapPacket → Prog Scanner β}
    (hf : ∀ p n, Tells (f (p, n)) (g p)) :
    Tells (Session.Logged.parsePacket bytes >>= f) (Session.parsePacket bytes >>= g) := by
  intro s l
  rcases hr : EncapPacket.deserialize (EncapPacket.new, .buffer (BufferReader.new bytes)) with ⟨(_ | x | u), p, r⟩
  · have e1 : Session.Logged.parsePacket bytes (⟨s, l⟩ : LogScanner) = (.ok (p, r.getByteCount), ⟨s, l⟩) := by
      simp only [Session.Logged.parsePacket, hr]
    have e2 : Session.parsePacket bytes s = (.ok p, s) := by simp only [Session.parsePacket, hr]
    rw [Prog.bind_ok e1, Prog.bind_ok e2]
    exact hf p _ s l
  · have e1 : Session.Logged.parsePacket bytes (⟨s, l⟩ : LogScanner) = (.throw x, ⟨s, l⟩) := by
      simp only [Session.Logged.parsePacket, hr]
    have e2 : Session.parsePacket bytes s = (.throw x, s) := by simp only [Session.parsePacket, hr]
    exact ⟨[], by rw [Prog.bind_throw e1, Prog.bind_throw e2, List.append_nil]⟩
  · have e1 : Session.Logged.parsePacket bytes (⟨s, l⟩ : LogScanner) = (.ub u, ⟨s, l⟩) := by
      simp only [Session.Logged.parsePacket, hr]
    have e2 : Session.parsePacket bytes s = (.ub u, s) := by simp only [Session.parsePacket, hr]
    exact ⟨[], by rw [Prog.bind_ub e1, Prog.bind_ub e2, List.append_nil]⟩

theorem datagram (env : ScanEnv) (bytes : Bytes) :
    Tells (Scanner.Logged.handleDatagram env bytes) (Scanner.handleDatagram env bytes) := by
  unfold Scanner.Logged.handleDatagram Scanner.handleDatagram
  refine parse_bind bytes (fun p n => tellIf_bind _ _ (ite (tell _) ?_))
  refine tellIf_bind _ _ (tellIf_bind _ _ (tellIf_bind _ _ (tellIf_bind _ _ (bind (onLocal _ _) (fun payload => ?_)))))
  refine ite (tell _) (tellIf_bind _ _ ?_)
  cases payload.items with
  | nil => exact raise _
  | cons item _ => exact ite (tell _) (bind (onLocal _ _) (fun id => tellAll_bind _ (untold _)))

theorem handle (env : ScanEnv) (a : Arrival) :
    Tells (Scanner.Logged.handleListIdentityResponse env a) (Scanner.handleListIdentityResponse env a) := by
  cases a with
  | error => exact tell _
  | datagram data =>
    intro s l
    obtain ⟨new, e⟩ := datagram env (data.take 4096) s l
    simp only [Scanner.Logged.handleListIdentityResponse, Scanner.handleListIdentityResponse, Prog.tryCatch, e]
    rcases Scanner.handleDatagram env (data.take 4096) s with ⟨(_ | x | u), s'⟩
    · exact ⟨new, rfl⟩
    · simp only
      by_cases hk : x.kind.isA .lengthError
      · rw [if_pos hk, if_pos hk]
        exact ⟨new ++ [.scanShort], by rw [← List.append_assoc]; rfl⟩
      · rw [if_neg hk, if_neg hk]
        exact ⟨new, rfl⟩
    · exact ⟨new, rfl⟩

theorem service (env : ScanEnv) (arrivals : List Arrival) :
    Tells (Scanner.Logged.runService env arrivals) (Scanner.runService env arrivals) := by
  induction arrivals with
  | nil =>
    intro s l
    refine ⟨[], ?_⟩
    rw [List.append_nil]
    simp only [Scanner.Logged.runService, Scanner.runService]
    cases s.receives <;> rfl
  | cons a rest ih =>
    intro s l
    simp only [Scanner.Logged.runService, Scanner.runService]
    cases s.receives with
    | zero => exact ⟨[], by rw [List.append_nil]⟩
    | succ n =>
      obtain ⟨new, e⟩ := handle env a { s with receives := n } l
      simp only [e]
      rcases Scanner.handleListIdentityResponse env a { s with receives := n } with ⟨(_ | x | u), s'⟩
      · obtain ⟨new', e'⟩ := ih s' (l ++ new)
        exact ⟨new ++ new', by simp only [e', List.append_assoc]⟩
      · exact ⟨new, rfl⟩
      · exact ⟨new, rfl⟩

theorem run (env : ScanEnv) (arrivals : List Arrival) :
    Tells (Scanner.Logged.run env arrivals) (Scanner.run env arrivals) := by
  unfold Scanner.Logged.run Scanner.run
  refine bind ?_ (fun _ => tell_bind _ (service env arrivals))
  unfold Scanner.Logged.sendListIdentityRequest
  refine tell_bind _ ?_
  intro s l
  rcases hq : Scanner.sendListIdentityRequest env s with ⟨(_ | x | u), s'⟩
  · have e : Eip.untold (Scanner.sendListIdentityRequest env) ⟨s, l⟩ = (.ok (), ⟨s', l⟩) := by
      simp only [Eip.untold, Prog.zoom, hq]
    exact ⟨[.scanDone], by rw [Prog.bind_ok e]; rfl⟩
  · have e : Eip.untold (Scanner.sendListIdentityRequest env) ⟨s, l⟩ = (.throw x, ⟨s', l⟩) := by
      simp only [Eip.untold, Prog.zoom, hq]
    exact ⟨[], by rw [Prog.bind_throw e, List.append_nil]⟩
  · have e : Eip.untold (Scanner.sendListIdentityRequest env) ⟨s, l⟩ = (.ub u, ⟨s', l⟩) := by
      simp only [Eip.untold, Prog.zoom, hq]
    exact ⟨[], by rw [Prog.bind_ub e, List.append_nil]⟩

end Tells

/-- All outcomes of the handler, with its messages. -/
theorem logged_cases (env : ScanEnv) (bytes : Bytes) :
    (∃ h payload tail more, ∀ s l, Scanner.Logged.handleDatagram env bytes ⟨s, l⟩ =
        (.ub .nullDeref, ⟨s, l ++ (scanWarnings h payload tail ++ moreWarning more)⟩) ∧
      (NoPayload bytes ∨ ListIdentity bytes 0x0C [])) ∨
    (∃ ms, ScanSays bytes ms) := by
  by_cases hf : ∃ h payload tail, Frames bytes h payload tail
  rotate_left
  · exact .inr ⟨_, .frame hf⟩
  obtain ⟨h, payload, tail, hl, rfl⟩ := hf
  by_cases hc : h.command = 0x63
  rotate_left
  · exact .inr ⟨_, .command h payload tail ⟨hl, rfl⟩ hc⟩
  have hp : Packet (header h ++ payload ++ tail) 0x63 h.sessionHandle payload := ⟨h, tail, hc, rfl, hl, rfl⟩
  by_cases hne : payload = []
  · subst hne
    refine .inl ⟨h, [], tail, [], fun s l => ⟨?_, .inl ⟨_, hp⟩⟩⟩
    rw [Scanner.Logged.handle_header env h tail hl.symm hc, Scanner.Logged.after_null,
      show moreWarning [] = [] from rfl, List.append_nil]
  rcases covers_cpf payload with ⟨cs, rest, ⟨l, ok, rfl⟩, e⟩ | ⟨cs, m, ⟨l, ok, rfl⟩, hm, e⟩
  rotate_left
  · exact .inr ⟨_, .items h payload m tail l ⟨hl, rfl⟩ hc hne ok e hm⟩
  subst e
  cases l with
  | nil => exact .inr ⟨_, .none h rest tail ⟨hl, rfl⟩ hc⟩
  | cons a l =>
    obtain ⟨t, data⟩ := a
    by_cases ht : t = 0x0C
    rotate_left
    · exact .inr ⟨_, .type h t data rest tail l ⟨hl, rfl⟩ hc ok ht⟩
    subst ht
    by_cases hd : data = []
    · subst hd
      refine .inl ⟨h, cpf ((0x0C, []) :: l) ++ rest, tail, l, fun s k => ⟨?_, .inr
        ⟨_, _, l, rest, hp, ok, rfl⟩⟩⟩
      rw [Scanner.Logged.handle_header env h tail hl.symm hc, Scanner.Logged.after_items env h s _ rest 0x0C [] l ok,
        Scanner.Logged.first_null, List.append_assoc]
    rcases covers_identity data with ⟨cs, extra, ⟨x, hx, rfl⟩, e'⟩ | ⟨cs, m, ⟨x, hx, rfl⟩, hm, e'⟩
    · exact .inr ⟨_, .device h data extra rest tail l x ⟨hl, rfl⟩ hc ok hx e'⟩
    · exact .inr ⟨_, .item h data m rest tail l x ⟨hl, rfl⟩ hc ok hd hx e' hm⟩

theorem logged_handle (env : ScanEnv) {bytes : Bytes} {ms : List LogMsg} (h : ScanSays bytes ms) (s : Scanner)
    (l : List LogMsg) :
    (∃ s', Scanner.Logged.handleDatagram env bytes ⟨s, l⟩ = (.ok (), ⟨s', l ++ ms⟩)) ∨
    (∃ what ws, ms = ws ++ [.scanShort] ∧
      Scanner.Logged.handleDatagram env bytes ⟨s, l⟩ = (.throw (lengthError what), ⟨s, l ++ ws⟩)) := by
  cases h with
  | frame h =>
    obtain ⟨what, e⟩ := Scanner.Logged.handle_short h env ⟨s, l⟩
    exact .inr ⟨what, [], rfl, by rw [e, List.append_nil]⟩
  | command h payload tail f c =>
    obtain ⟨hl, rfl⟩ := f
    exact .inl ⟨s, Scanner.Logged.handle_other env h tail hl.symm c s l⟩
  | items h payload missing tail k f c ne ok cut m =>
    obtain ⟨hl, rfl⟩ := f
    obtain ⟨what, e⟩ := Scanner.Logged.after_short env h ⟨s, l ++ scanWarnings h payload tail⟩ ne ok cut m
    exact .inr ⟨what, _, rfl, by rw [Scanner.Logged.handle_header env h tail hl.symm c, e]⟩
  | none h rest tail f c =>
    obtain ⟨hl, rfl⟩ := f
    exact .inl ⟨s, by
      rw [Scanner.Logged.handle_header env h tail hl.symm c, Scanner.Logged.after_none, List.append_assoc]⟩
  | type h t data rest tail more f c ok ne =>
    obtain ⟨hl, rfl⟩ := f
    refine .inl ⟨s, ?_⟩
    rw [Scanner.Logged.handle_header env h tail hl.symm c, Scanner.Logged.after_items env h s _ rest t data more ok,
      Scanner.Logged.firstItem, if_pos ne, ← List.append_assoc, ← List.append_assoc]
    rfl
  | item h data missing rest tail more x f c ok ne name cut m =>
    obtain ⟨hl, rfl⟩ := f
    obtain ⟨what, e⟩ := Scanner.Logged.first_short env
      ⟨s, l ++ scanWarnings h (cpf ((0x0C, data) :: more) ++ rest) tail ++ moreWarning more⟩ name ne cut m
    exact .inr ⟨what, _, rfl, by
      rw [Scanner.Logged.handle_header env h tail hl.symm c, Scanner.Logged.after_items env h s _ rest _ data more ok, e,
        List.append_assoc]⟩
  | device h data extra rest tail more x f c ok name e =>
    obtain ⟨hl, rfl⟩ := f
    subst e
    refine .inl ⟨{ s with log := s.log ++ [.reported x] }, ?_⟩
    rw [Scanner.Logged.handle_header env h tail hl.symm c, Scanner.Logged.after_items env h s _ rest _ _ more ok,
      Scanner.Logged.first_device env s _ name extra, List.append_assoc, List.append_assoc, List.append_assoc]

/-! ### C107 -/

/-- C107. With its log the scanner does what the scanner without log of C62, C63 and C64 does; messages are only added
to the log. -/
theorem c107_same (env : ScanEnv) (arrivals : List Arrival) (s : Scanner) (l : List LogMsg) :
    ∃ new, Scanner.Logged.run env arrivals ⟨s, l⟩ =
      ((Scanner.run env arrivals s).1, ⟨(Scanner.run env arrivals s).2, l ++ new⟩) := Tells.run env arrivals s l

/-- C107 does not hold: a list identity datagram without payload, such as the scanner's own request, or with an empty
identity item is undefined behaviour, and nothing but warnings has been logged about it. -/
theorem c107_violated (env : ScanEnv) (data : Bytes)
    (h : NoPayload (data.take 4096) ∨ ListIdentity (data.take 4096) 0x0C []) (s : Scanner) (l : List LogMsg) :
    ∃ ws, (∀ m ∈ ws, m.level = .warn) ∧
      Scanner.Logged.handleListIdentityResponse env (.datagram data) ⟨s, l⟩ = (.ub .nullDeref, ⟨s, l ++ ws⟩) := by
  have warns : ∀ (h : EncapHeader) (payload tail : Bytes) (more : List (UInt16 × Bytes)),
      ∀ m ∈ scanWarnings h payload tail ++ moreWarning more, m.level = .warn := by
    intro h payload tail more m hm
    simp only [scanWarnings, moreWarning, unusedWarning, when, List.mem_append] at hm
    rcases hm with ((((hm | hm) | hm) | hm) | hm) | hm <;>
      split at hm <;> first | (rw [List.mem_singleton.1 hm]; rfl) | cases hm
  simp only [Scanner.Logged.handleListIdentityResponse, Prog.tryCatch]
  rcases h with ⟨handle, h, tail, hc, -, hl, e⟩ | ⟨handle, payload, more, rest, ⟨h, tail, hc, -, hl, e⟩, ok, rfl⟩
  · refine ⟨scanWarnings h [] tail, fun m hm => warns h [] tail [] m (List.mem_append_left _ hm), ?_⟩
    rw [e, Scanner.Logged.handle_header env h tail hl.symm hc, Scanner.Logged.after_null]
  · refine ⟨_, warns h (cpf ((0x0C, []) :: more) ++ rest) tail more, ?_⟩
    rw [e, Scanner.Logged.handle_header env h tail hl.symm hc, Scanner.Logged.after_items env h s _ rest 0x0C [] more ok,
      Scanner.Logged.first_null, List.append_assoc]

/-- C107 does not hold either for datagrams that are cut off: nothing is logged, the complaint is only printed. -/
theorem c107_violated_short (env : ScanEnv) (data : Bytes)
    (h : ¬ ∃ h payload tail, Frames (data.take 4096) h payload tail) (s : Scanner) (l : List LogMsg) :
    Scanner.Logged.handleListIdentityResponse env (.datagram data) ⟨s, l⟩ = (.ok (), ⟨s, l ++ [.scanShort]⟩) ∧
    LogMsg.level .scanShort = .print := by
  refine ⟨?_, rfl⟩
  obtain ⟨what, e⟩ := Scanner.Logged.handle_short h env ⟨s, l⟩
  simp only [Scanner.Logged.handleListIdentityResponse, Prog.tryCatch, e]
  rfl

/-- C107, as far as it holds: the exact messages about every datagram for which the handler is defined. They are the
warnings the datagram deserves, and after them either the identity of the device or one complaint (an error, or for cut
off datagrams the printed message). -/
theorem c107_says_partial (env : ScanEnv) (data : Bytes) (ms : List LogMsg) (h : ScanSays (data.take 4096) ms)
    (s : Scanner) (l : List LogMsg) :
    ∃ s', Scanner.Logged.handleListIdentityResponse env (.datagram data) ⟨s, l⟩ = (.ok (), ⟨s', l ++ ms⟩) := by
  simp only [Scanner.Logged.handleListIdentityResponse, Prog.tryCatch]
  rcases logged_handle env h s l with ⟨s', e⟩ | ⟨what, ws, rfl, e⟩
  · exact ⟨s', by rw [e]⟩
  · refine ⟨s, ?_⟩
    rw [e]
    show (Res.ok (), LogScanner.mk s (l ++ ws ++ [.scanShort])) = _
    rw [List.append_assoc]

/-- C107: the levels of the messages of `c107_says_partial`. First there are only warnings; then there is one error, or
the printed message about a datagram that is cut off, or the description of the device, all of it information. -/
theorem c107_levels_partial (bytes : Bytes) (ms : List LogMsg) (h : ScanSays bytes ms) :
    ∃ ws rest, ms = ws ++ rest ∧ (∀ m ∈ ws, m.level = .warn) ∧
      ((∃ m, rest = [m] ∧ m.level = .error) ∨ (rest = [.scanShort] ∧ LogMsg.level .scanShort = .print) ∨
        (∃ x, rest = deviceReport x ∧ ∀ m ∈ rest, m.level = .inform)) := by
  have unused : ∀ payload tail : Bytes, ∀ m ∈ unusedWarning payload tail, m.level = .warn := by
    intro payload tail m hm
    simp only [unusedWarning, when] at hm
    split at hm <;> first | (rw [List.mem_singleton.1 hm]; rfl) | cases hm
  have warns : ∀ (h : EncapHeader) (payload tail : Bytes), ∀ m ∈ scanWarnings h payload tail, m.level = .warn := by
    intro h payload tail m hm
    simp only [scanWarnings, unusedWarning, when, List.mem_append] at hm
    rcases hm with (((hm | hm) | hm) | hm) | hm <;>
      split at hm <;> first | (rw [List.mem_singleton.1 hm]; rfl) | cases hm
  have more : ∀ (h : EncapHeader) (payload tail : Bytes) (more : List (UInt16 × Bytes)),
      ∀ m ∈ scanWarnings h payload tail ++ moreWarning more, m.level = .warn := by
    intro h payload tail more m hm
    rcases List.mem_append.1 hm with hm | hm
    · exact warns h payload tail m hm
    · simp only [moreWarning, when] at hm
      split at hm <;> first | (rw [List.mem_singleton.1 hm]; rfl) | cases hm
  cases h with
  | frame _ => exact ⟨[], _, rfl, by simp, .inr (.inl ⟨rfl, rfl⟩)⟩
  | command h payload tail f c => exact ⟨_, _, rfl, unused payload tail, .inl ⟨_, rfl, rfl⟩⟩
  | items h payload missing tail l f c ne ok cut m => exact ⟨_, _, rfl, warns _ _ _, .inr (.inl ⟨rfl, rfl⟩)⟩
  | none h rest tail f c => exact ⟨_, _, rfl, warns _ _ _, .inl ⟨_, rfl, rfl⟩⟩
  | type h t data rest tail l f c ok ne => exact ⟨_, _, rfl, more _ _ _ _, .inl ⟨_, rfl, rfl⟩⟩
  | item h data missing rest tail l x f c ok ne name cut m => exact ⟨_, _, rfl, more _ _ _ _, .inr (.inl ⟨rfl, rfl⟩)⟩
  | device h data extra rest tail l x f c ok name e =>
    refine ⟨_, _, rfl, more _ _ _ _, .inr (.inr ⟨x, rfl, fun m hm => ?_⟩)⟩
    simp only [deviceReport, List.mem_cons, List.not_mem_nil, or_false] at hm
    rcases hm with rfl | rfl | rfl | rfl | rfl | rfl | rfl | rfl | rfl | rfl | rfl <;> rfl

/-- C107: `c107_says_partial` speaks about all datagrams but those of `c107_violated`. -/
theorem c107_all_partial (data : Bytes) (h1 : ¬ NoPayload (data.take 4096)) (h2 : ¬ ListIdentity (data.take 4096) 0x0C []) :
    ∃ ms, ScanSays (data.take 4096) ms := by
  rcases logged_cases ⟨true, true, 0, ⟨0, ⟨0, 0, 0, (0, 0)⟩, 0, 0, 0, (0, 0), 0, 0, [], 0⟩⟩ (data.take 4096) with
    ⟨_, _, _, _, h⟩ | h
  · rcases (h (Scanner.new "") []).2 with h | h
    · exact absurd h h1
    · exact absurd h h2
  · exact h

/-- C107 for the whole of a scan: the messages up to the first arrival, and then those about the first arrival, if it is a
datagram the handler is defined for. Later arrivals are not looked at (C64). -/
theorem c107_run_partial (env : ScanEnv) (hostname : String) (data : Bytes) (later : List Arrival) (ms : List LogMsg)
    (works : env.resolves = true ∧ env.sends = true) (h : ScanSays (data.take 4096) ms) :
    (Scanner.Logged.run env (.datagram data :: later) (Scanner.Logged.new hostname)).2.log =
      [.scanOpening, .scanDone, .scanSending, .scanDone, .scanWaiting] ++ ms ∧
    (Scanner.Logged.run env (.error :: later) (Scanner.Logged.new hostname)).2.log =
      [.scanOpening, .scanDone, .scanSending, .scanDone, .scanWaiting, .scanError] ∧
    (Scanner.Logged.run env [] (Scanner.Logged.new hostname)).2.log =
      [.scanOpening, .scanDone, .scanSending, .scanDone, .scanWaiting] := by
  have e := send_eq env (Scanner.new hostname)
  rw [works.1, works.2] at e
  have start : ∀ arrivals, Scanner.Logged.run env arrivals (Scanner.Logged.new hostname) =
      Scanner.Logged.runService env arrivals ⟨⟨hostname, 1, [.sentTo hostname "44818" (request 0x63 0 []) true]⟩,
        [.scanOpening, .scanDone, .scanSending, .scanDone, .scanWaiting]⟩ := by
    intro arrivals
    have e1 : Scanner.Logged.sendListIdentityRequest env (Scanner.Logged.new hostname) =
        (.ok (), ⟨⟨hostname, 1, [.sentTo hostname "44818" (request 0x63 0 []) true]⟩,
          [.scanOpening, .scanDone, .scanSending, .scanDone]⟩) := by
      have e2 : untold (Scanner.sendListIdentityRequest env) ⟨Scanner.new hostname, [.scanOpening, .scanDone, .scanSending]⟩ =
          (.ok (), ⟨⟨hostname, 1, [.sentTo hostname "44818" (request 0x63 0 []) true]⟩,
            [.scanOpening, .scanDone, .scanSending]⟩) := by
        simp only [untold, Prog.zoom, e]
        rfl
      exact Prog.bind_ok e2
    exact Prog.bind_ok e1
  have stop : ∀ (s : LogScanner), s.s.receives = 0 → (Scanner.Logged.runService env later s).2 = s := by
    intro s hs
    cases later <;> simp [Scanner.Logged.runService, hs]
  refine ⟨?_, ?_, ?_⟩
  · rw [start]
    obtain ⟨s', hs⟩ := c107_says_partial env data ms h ⟨hostname, 0, [.sentTo hostname "44818" (request 0x63 0 []) true]⟩
      [.scanOpening, .scanDone, .scanSending, .scanDone, .scanWaiting]
    have h0 : s'.receives = 0 := by
      obtain ⟨new, e'⟩ := Tells.handle env (.datagram data)
        ⟨hostname, 0, [.sentTo hostname "44818" (request 0x63 0 []) true]⟩
        [.scanOpening, .scanDone, .scanSending, .scanDone, .scanWaiting]
      obtain ⟨ids, e3⟩ := handler_log env (.datagram data) ⟨hostname, 0, [.sentTo hostname "44818" (request 0x63 0 []) true]⟩
      rw [hs, e3] at e'
      have := congrArg (fun r => r.2.s.receives) e'
      exact this
    show (match Scanner.Logged.handleListIdentityResponse env (.datagram data)
        ⟨⟨hostname, 0, [.sentTo hostname "44818" (request 0x63 0 []) true]⟩, _⟩ with
      | (.ok (), s') => Scanner.Logged.runService env later s'
      | (.throw e, s') => (.throw e, s')
      | (.ub u, s') => (.ub u, s')).2.log = _
    rw [hs]
    simp only
    rw [stop _ h0]
  · rw [start]
    show (Scanner.Logged.runService env later ⟨⟨hostname, 0, _⟩, _⟩).2.log = _
    rw [stop _ rfl]
    rfl
  · rw [start]
    rfl

/-- C107: if the request cannot be sent, that is all there is in the log. -/
theorem c107_unsent (env : ScanEnv) (hostname : String) (arrivals : List Arrival)
    (fails : env.resolves = false ∨ env.sends = false) :
    (Scanner.Logged.run env arrivals (Scanner.Logged.new hostname)).2.log = [.scanOpening, .scanDone, .scanSending] := by
  have e := send_eq env (Scanner.new hostname)
  have : ∃ s', Scanner.sendListIdentityRequest env (Scanner.new hostname) = (.throw systemError, s') := by
    rcases fails with h | h
    · exact ⟨_, by rw [e, h]; rfl⟩
    · cases hr : env.resolves
      · exact ⟨_, by rw [e, hr]; rfl⟩
      · exact ⟨_, by rw [e, hr, h]; rfl⟩
  obtain ⟨s', e'⟩ := this
  have e2 : untold (Scanner.sendListIdentityRequest env) ⟨Scanner.new hostname, [.scanOpening, .scanDone, .scanSending]⟩ =
      (.throw systemError, ⟨s', [.scanOpening, .scanDone, .scanSending]⟩) := by
    simp only [untold, Prog.zoom, e']
  have e1 : Scanner.Logged.sendListIdentityRequest env (Scanner.Logged.new hostname) =
      (.throw systemError, ⟨s', [.scanOpening, .scanDone, .scanSending]⟩) :=
    (Prog.bind_throw e2 : (untold (Scanner.sendListIdentityRequest env) >>= fun _ => tell .scanDone)
      ⟨Scanner.new hostname, [.scanOpening, .scanDone, .scanSending]⟩ = _)
  rw [Scanner.Logged.run, Prog.bind_throw e1]

/-- Two ways to look at one reply: the messages deserved, and the messages of the code. -/
example : ∃ ms, ScanSays ((request 0x63 7 (cpf [(0x0C, identity exampleDevice [0x41])])).take 4096) ms ∧
    (Scanner.Logged.run ⟨true, true, 0xCC, exampleDevice⟩
      [.datagram (request 0x63 7 (cpf [(0x0C, identity exampleDevice [0x41])]))] (Scanner.Logged.new "host")).2.log =
    [.scanOpening, .scanDone, .scanSending, .scanDone, .scanWaiting] ++ ms ∧
    ms = [.scanHandle 7, .idMessage, .idVersion 1, .idAddress "127.0.0.1" 44818, .idVendor 2, .idDeviceType 3,
      .idProductCode 4, .idRevision 1 2, .idStatus 0, .idSerial 5, .idName [0x41], .idState 3] := by
  have h := ScanSays.device (bytes := (request 0x63 7 (cpf [(0x0C, identity exampleDevice [0x41])])).take 4096)
    ⟨0x63, 41, 7, 0, (0, 0), 0⟩ (identity exampleDevice [0x41]) [] [] [] [] exampleDevice
    ⟨by decide +kernel, by decide +kernel⟩ rfl
    ⟨by decide, by intro i hi; rw [List.mem_singleton.1 hi]; decide +kernel⟩ (by decide) (by simp; rfl)
  refine ⟨_, h, (c107_run_partial _ "host" _ [] _ ⟨rfl, rfl⟩ h).1, ?_⟩
  decide +kernel

end Eip
