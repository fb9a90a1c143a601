import Verif.Spec.Lan
import Verif.Props.Scanner
/-
C131: a scan finds the devices of the network.
-/
namespace Eip
open Spec

private theorem identity_item : request 0x63 0 [] = 0x63 :: List.replicate 23 0 := by decide +kernel

private theorem send_lan (lan : Lan) (junk : UInt8) (s : LanScanner) :
    LanScanner.sendListIdentityRequest lan junk s =
      match lan.resolved with
      | [] => (.throw systemError, s)
      | a :: _ => LanScanner.sendTo lan ⟨a, 44818⟩ (0x63 :: List.replicate 23 0) s := by
  have hl : (request 0x63 0 []).length = 24 := by decide +kernel
  have hm : List.take 24 (BufferWriter.memory ⟨request 0x63 0 [], List.replicate 104 junk, 24⟩) =
      0x63 :: List.replicate 23 0 := by
    rw [BufferWriter.memory, List.take_append_of_le_length (by rw [hl]; exact Nat.le_refl _),
      List.take_of_length_le (by rw [hl]; exact Nat.le_refl _), identity_item]
  unfold LanScanner.sendListIdentityRequest
  cases lan.resolved with
  | nil => rfl
  | cons a more => simp only [list_identity_bytes, hm]

/-- A reply has one identity in it. -/
private theorem one_identity {bytes : Bytes} {x y : IdentityItemData} (hx : IdentityReply (bytes.take 4096) x)
    (hy : IdentityReply (bytes.take 4096) y) : x = y := by
  have e := (c63_reports_partial ⟨true, true, 0, exampleDevice⟩ bytes (Scanner.new "") x).2 hx
  rw [(c63_reports_partial ⟨true, true, 0, exampleDevice⟩ bytes (Scanner.new "") y).2 hy] at e
  simp only [Prod.mk.injEq, Scanner.mk.injEq, List.append_cancel_left_eq, List.cons.injEq, ScanEv.reported.injEq, and_true,
    true_and] at e
  exact e.symm

private theorem service_lan (env : ScanEnv) (mail : List Mail) (s : LanScanner) (hr : s.scanner.receives = 1)
    (hb : s.bound = true) (hl : s.scanner.log = []) :
    (LanScanner.runService env mail s).2.sent = s.sent ∧
    (∀ x, .reported x ∈ (LanScanner.runService env mail s).2.scanner.log ↔
      ∃ m later, mail = m :: later ∧ IdentityReply (m.data.take 4096) x) ∧
    (∀ e, (LanScanner.runService env mail s).1 ≠ .throw e) ∧
    (∀ m later, mail = m :: later → ∀ r, (LanScanner.runService env mail s).1 = .ok r → r = some later) ∧
    (mail = [] → (LanScanner.runService env mail s).1 = .ok none) ∧
    (∀ m later x, mail = m :: later → IdentityReply (m.data.take 4096) x →
      (LanScanner.runService env mail s).1 = .ok (some later)) ∧
    ((LanScanner.runService env mail s).2.scanner.log.length ≤ 1) := by
  cases mail with
  | nil =>
    have e : LanScanner.runService env [] s = (.ok none, s) := by simp [LanScanner.runService, hr]
    rw [e]
    refine ⟨rfl, fun x => ?_, fun _ h => (nomatch h), fun _ _ h => (nomatch h), fun _ => rfl, fun _ _ _ h => (nomatch h), ?_⟩
    · simp [hl]
    · simp [hl]
  | cons m later =>
    have rest : ∀ c : Scanner, c.receives = 0 → LanScanner.runService env later { s with scanner := c } =
        (.ok (some later), { s with scanner := c }) := by
      intro c hc
      cases later <;> simp [LanScanner.runService, hc]
    have step : LanScanner.runService env (m :: later) s =
        match Scanner.handleListIdentityResponse env (.datagram m.data) { s.scanner with receives := 0 } with
        | (.ok (), c) => LanScanner.runService env later { s with scanner := c }
        | (.throw e, c) => (.throw e, { s with scanner := c })
        | (.ub u, c) => (.ub u, { s with scanner := c }) := by
      obtain ⟨⟨_, _, _⟩, _, _, _⟩ := s
      simp only at hr hb
      subst hr
      subst hb
      rfl
    have reports := fun x => (c63_reports_partial env m.data { s.scanner with receives := 0 } x)
    have hx : ({ s.scanner with receives := 0 } : Scanner) = { s.scanner with receives := 0, log := [] } := by
      rw [← hl]
    rcases handle_cases env m.data { s.scanner with receives := 0 } with ⟨x, hy, e⟩ | ⟨hn, e⟩ | e
    · rw [e] at step
      simp only [] at step
      rw [rest _ rfl] at step
      rw [step]
      have only : ∀ y, IdentityReply (m.data.take 4096) y → y = x := by
        intro y h
        have := (reports y).2 h
        rw [e] at this
        simp only [hl, Prod.mk.injEq, Scanner.mk.injEq, List.nil_append, List.cons.injEq, ScanEv.reported.injEq, and_true, true_and] at this
        exact this.symm
      refine ⟨rfl, fun y => ?_, fun _ h => (nomatch h), ?_, fun h => (nomatch h), ?_, ?_⟩
      · simp only [hl, List.nil_append, List.mem_singleton, ScanEv.reported.injEq]
        constructor
        · rintro rfl; exact ⟨m, later, rfl, hy⟩
        · rintro ⟨m', l', h, hy'⟩; cases h; exact only y hy'
      · rintro _ _ h r hr'; cases h; cases hr'; rfl
      · rintro _ _ y h _; cases h; rfl
      · simp [hl]
    · rw [e] at step
      rw [step]
      have none' : ∀ y, ¬ IdentityReply (m.data.take 4096) y := by
        intro y h
        have := (reports y).2 h
        rw [e] at this
        simp at this
      refine ⟨rfl, fun y => ?_, fun _ h => (nomatch h), fun _ _ _ _ h => (nomatch h), fun h => (nomatch h), ?_, ?_⟩
      · simp only [hl]
        constructor
        · intro h; cases h
        · rintro ⟨m', l', h, hy'⟩; cases h; exact absurd hy' (none' y)
      · rintro _ _ y h hy'; cases h; exact absurd hy' (none' y)
      · simp [hl]
    · rw [e] at step
      simp only [] at step
      rw [rest _ rfl] at step
      rw [step]
      have none' : ∀ y, ¬ IdentityReply (m.data.take 4096) y := by
        intro y h
        have := (reports y).2 h
        rw [e] at this
        simp at this
      refine ⟨rfl, fun y => ?_, fun _ h => (nomatch h), ?_, fun h => (nomatch h), ?_, ?_⟩
      · simp only [hl]
        constructor
        · intro h; cases h
        · rintro ⟨m', l', h, hy'⟩; cases h; exact absurd hy' (none' y)
      · rintro _ _ h r hr'; cases h; cases hr'; rfl
      · rintro _ _ y h _; cases h; rfl
      · simp [hl]

/-- C131. What every scan does, on every network and whatever mail comes in. If a socket can be had, the host name resolves, the
first address is not a broadcast address and the system takes the request, then exactly one request goes to port 44818 of that
address, and a device is reported if and only if the first piece of mail is its identity; then the scan is over and the rest
of the mail is not read. Without mail the scan waits. In all other cases `system_error` is thrown,
nothing is sent and nothing is reported. -/
theorem c131_exact (lan : Lan) (env : ScanEnv) (hostname : String) (mail : List Mail) :
    (∀ a more, lan.resolved = a :: more → lan.creates = true → lan.broadcast a = false → lan.accepts a = true →
      sentBy (LanScanner.scan lan env hostname mail) = [(⟨a, 44818⟩, 0x63 :: List.replicate 23 0)] ∧
      (∀ x, ReportedBy (LanScanner.scan lan env hostname mail) x ↔
        ∃ m later, mail = m :: later ∧ IdentityReply (m.data.take 4096) x) ∧
      (mail = [] → (LanScanner.scan lan env hostname mail).1 = .ok none) ∧
      (∀ m later x, mail = m :: later → IdentityReply (m.data.take 4096) x →
        (LanScanner.scan lan env hostname mail).1 = .ok (some later)) ∧
      ∀ e, (LanScanner.scan lan env hostname mail).1 ≠ .throw e) ∧
    ((¬ ∃ a more, lan.resolved = a :: more ∧ lan.creates = true ∧ lan.broadcast a = false ∧ lan.accepts a = true) →
      (LanScanner.scan lan env hostname mail).1 = .throw systemError ∧
      sentBy (LanScanner.scan lan env hostname mail) = [] ∧ ∀ x, ¬ ReportedBy (LanScanner.scan lan env hostname mail) x) := by
  constructor
  · intro a more hres hc hb ha
    have e : LanScanner.sendListIdentityRequest lan env.junk ⟨Scanner.new hostname, false, false, []⟩ =
        (.ok (), ⟨Scanner.new hostname, false, true, [(⟨a, 44818⟩, 0x63 :: List.replicate 23 0)]⟩) := by
      rw [send_lan, hres]
      simp only [LanScanner.sendTo, hb, ha, Bool.false_and, Bool.not_true, Bool.false_eq_true, if_false, List.nil_append]
    have er : LanScanner.scan lan env hostname mail =
        ((LanScanner.runService env mail ⟨Scanner.new hostname, false, true, [(⟨a, 44818⟩, 0x63 :: List.replicate 23 0)]⟩).1,
        some (LanScanner.runService env mail ⟨Scanner.new hostname, false, true, [(⟨a, 44818⟩, 0x63 :: List.replicate 23 0)]⟩).2) := by
      simp only [LanScanner.scan, LanScanner.new, hc, if_true, LanScanner.run, Prog.bind_ok e]
    obtain ⟨h1, h2, h3, -, h5, h6, -⟩ := service_lan env mail
      ⟨Scanner.new hostname, false, true, [(⟨a, 44818⟩, 0x63 :: List.replicate 23 0)]⟩ rfl rfl rfl
    rw [er]
    refine ⟨h1, fun x => ⟨?_, fun h => ⟨_, rfl, (h2 x).2 h⟩⟩, h5, h6, h3⟩
    rintro ⟨s, hs, hx⟩
    cases hs
    exact (h2 x).1 hx
  · intro no
    cases hc : lan.creates with
    | false =>
      have er : LanScanner.scan lan env hostname mail = (.throw systemError, none) := by
        simp [LanScanner.scan, LanScanner.new, hc]
      rw [er]
      exact ⟨rfl, rfl, fun _ ⟨_, h, _⟩ => nomatch h⟩
    | true =>
      have e : LanScanner.sendListIdentityRequest lan env.junk ⟨Scanner.new hostname, false, false, []⟩ =
          (.throw systemError, ⟨Scanner.new hostname, false, false, []⟩) := by
        rw [send_lan]
        cases hres : lan.resolved with
        | nil => rfl
        | cons a more =>
          simp only [LanScanner.sendTo]
          cases hb : lan.broadcast a with
          | true => rfl
          | false =>
            cases ha : lan.accepts a with
            | false => rfl
            | true => exact absurd ⟨a, more, hres, hc, hb, ha⟩ no
      have er : LanScanner.scan lan env hostname mail =
          (.throw systemError, some ⟨Scanner.new hostname, false, false, []⟩) := by
        simp only [LanScanner.scan, LanScanner.new, hc, if_true, LanScanner.run, Prog.bind_throw e]
      rw [er]
      refine ⟨rfl, rfl, ?_⟩
      rintro x ⟨s, hs, hx⟩
      cases hs
      cases hx

/-- C131 is false of networks as such: asked to scan a broadcast address, the scanner always throws and sends nothing, for
the socket is never allowed to broadcast. So no device is found, however many would have heard the request. -/
theorem c131_violated (lan : Lan) (env : ScanEnv) (hostname : String) (mail : List Mail) (dest : Nat) (more : List Nat)
    (resolved : lan.resolved = dest :: more) (all : lan.broadcast dest = true) :
    (LanScanner.scan lan env hostname mail).1 = .throw systemError ∧
    sentBy (LanScanner.scan lan env hostname mail) = [] ∧
    ∀ (devices : Nat → Option IdentityItemData) (a : Nat) (x : IdentityItemData), devices a = some x →
      ¬ Finds lan devices dest (LanScanner.scan lan env hostname mail) := by
  obtain ⟨h1, h2, h3⟩ := (c131_exact lan env hostname mail).2 (by
    rintro ⟨a, m, h, -, hb, -⟩
    rw [resolved] at h
    cases h
    rw [all] at hb
    cases hb)
  exact ⟨h1, h2, fun devices a x hx h => h3 x ((h x).2 ⟨a, .inr all, hx⟩)⟩

/-- C131 is false when somebody else speaks first: an identity that comes from any host is reported, whoever was asked, and
then the scanner does not listen any more, so the answer of the device that was asked is not seen. -/
theorem c131_violated_stranger (lan : Lan) (env : ScanEnv) (hostname : String) (stranger : Mail) (later : List Mail)
    (dest : Nat) (more : List Nat) (resolved : lan.resolved = dest :: more) (one : lan.broadcast dest = false)
    (creates : lan.creates = true) (accepts : lan.accepts dest = true)
    (x y : IdentityItemData) (claims : IdentityReply (stranger.data.take 4096) x) (differ : x ≠ y) :
    ReportedBy (LanScanner.scan lan env hostname (stranger :: later)) x ∧
    ¬ ReportedBy (LanScanner.scan lan env hostname (stranger :: later)) y ∧
    ∀ devices : Nat → Option IdentityItemData, devices dest = some y →
      ¬ Finds lan devices dest (LanScanner.scan lan env hostname (stranger :: later)) := by
  have h := ((c131_exact lan env hostname (stranger :: later)).1 dest more resolved creates one accepts).2.1
  have hx := (h x).2 ⟨stranger, later, rfl, claims⟩
  have hy : ¬ ReportedBy (LanScanner.scan lan env hostname (stranger :: later)) y := by
    intro hr
    obtain ⟨m, l, e, hm⟩ := (h y).1 hr
    cases e
    exact differ (one_identity claims hm)
  exact ⟨hx, hy, fun devices hd hf => hy ((hf y).2 ⟨dest, .inl rfl, hd⟩)⟩

/-- C131, as far as it holds: the scan of one address finds the device there, if nobody else sends anything. The scan sends one
request and returns with nothing left unread; if there is no device at the address, it reports nothing and waits. Missing:
broadcast addresses, and networks on which somebody else speaks. -/
theorem c131_found_partial (lan : Lan) (env : ScanEnv) (hostname : String) (mail : List Mail)
    (devices : Nat → Option IdentityItemData) (dest : Nat) (more : List Nat) (resolved : lan.resolved = dest :: more)
    (one : lan.broadcast dest = false) (creates : lan.creates = true) (accepts : lan.accepts dest = true)
    (quiet : Courteous lan devices dest mail) :
    Finds lan devices dest (LanScanner.scan lan env hostname mail) ∧
    sentBy (LanScanner.scan lan env hostname mail) = [(⟨dest, 44818⟩, 0x63 :: List.replicate 23 0)] ∧
    (LanScanner.scan lan env hostname mail).1 = .ok (if (devices dest).isSome then some [] else none) := by
  obtain ⟨h1, h2, h3, h4, -⟩ := (c131_exact lan env hostname mail).1 dest more resolved creates one accepts
  have only : ∀ a, Lan.Hears lan dest a → a = dest := by
    rintro a (h | h)
    · exact h
    · rw [one] at h; cases h
  cases mail with
  | nil =>
    have none' : devices dest = none := by
      cases hd : devices dest with
      | none => rfl
      | some x =>
        obtain ⟨m, hm, -⟩ := quiet.everyone dest x hd (.inl rfl)
        cases hm
    refine ⟨fun x => ⟨fun h => ?_, ?_⟩, h1, ?_⟩
    · obtain ⟨m, l, e, -⟩ := (h2 x).1 h
      cases e
    · rintro ⟨a, ha, hd⟩
      rw [only a ha, none'] at hd
      cases hd
    · rw [h3 rfl, none']; rfl
  | cons m later =>
    obtain ⟨hm, x, hd, hx⟩ := quiet.answers m (List.mem_cons_self ..)
    have hmd := only _ hm
    rw [hmd] at hd
    have nothing : later = [] := by
      cases later with
      | nil => rfl
      | cons m' l =>
        have hm' := only _ (quiet.answers m' (List.mem_cons_of_mem _ (List.mem_cons_self ..))).1
        have := quiet.once
        simp [hmd, hm'] at this
    subst nothing
    refine ⟨fun y => ⟨fun h => ?_, ?_⟩, h1, ?_⟩
    · obtain ⟨m', l, e, hy⟩ := (h2 y).1 h
      cases e
      exact ⟨dest, .inl rfl, by rw [hd, one_identity hx hy]⟩
    · rintro ⟨a, ha, hy⟩
      rw [only a ha, hd] at hy
      cases hy
      exact (h2 x).2 ⟨m, [], rfl, hx⟩
    · rw [h4 m [] x rfl hx, hd]; rfl

/-- C131. No scan reports more than one device: of the mail, at most the first piece is looked at. -/
theorem c131_one (lan : Lan) (env : ScanEnv) (hostname : String) (mail : List Mail) (x y : IdentityItemData)
    (hx : ReportedBy (LanScanner.scan lan env hostname mail) x) (hy : ReportedBy (LanScanner.scan lan env hostname mail) y) :
    x = y := by
  by_cases go : ∃ a more, lan.resolved = a :: more ∧ lan.creates = true ∧ lan.broadcast a = false ∧ lan.accepts a = true
  · obtain ⟨a, more, h1, h2, h3, h4⟩ := go
    have h := ((c131_exact lan env hostname mail).1 a more h1 h2 h3 h4).2.1
    obtain ⟨m, l, rfl, ex⟩ := (h x).1 hx
    obtain ⟨m', l', e, ey⟩ := (h y).1 hy
    cases e
    exact one_identity ex ey
  · exact absurd hx (((c131_exact lan env hostname mail).2 go).2.2 x)

/-- A network with a device at address 9, addressed alone, and the same network addressed by its broadcast address 255. -/
example : ∃ (alone all : Lan) (mail : List Mail),
    Courteous alone (fun a => if a = 9 then some exampleDevice else none) 9 mail ∧ alone.resolved = [9] ∧
    alone.broadcast 9 = false ∧ alone.creates = true ∧ alone.accepts 9 = true ∧
    Courteous all (fun a => if a = 9 then some exampleDevice else none) 255 mail ∧ all.resolved = [255] ∧
    all.broadcast 255 = true := by
  have hx : IdentityReply ((request 0x63 0 (cpf [(0x0C, identity exampleDevice [0x41])])).take 4096) exampleDevice := by
    refine ⟨identity exampleDevice [0x41], [], ⟨0, cpf [(0x0C, identity exampleDevice [0x41])], [], [],
      ⟨⟨0x63, 41, 0, 0, (0, 0), 0⟩, [], rfl, rfl, by decide +kernel, by decide +kernel⟩, ⟨by decide, ?_⟩, by simp⟩,
      by decide, by simp; rfl⟩
    intro i hi
    rw [List.mem_singleton.1 hi]
    decide +kernel
  refine ⟨⟨[9], true, (· == 255), fun _ => true⟩, ⟨[255], true, (· == 255), fun _ => true⟩,
    [⟨9, request 0x63 0 (cpf [(0x0C, identity exampleDevice [0x41])])⟩], ⟨?_, ?_, ?_⟩, rfl, rfl, rfl, rfl, ⟨?_, ?_, ?_⟩, rfl, rfl⟩
  · intro m hm
    rw [List.mem_singleton.1 hm]
    exact ⟨.inl rfl, exampleDevice, rfl, hx⟩
  · intro a x hd _
    by_cases h : a = 9
    · exact ⟨_, List.mem_singleton_self _, h.symm⟩
    · simp [h] at hd
  · simp
  · intro m hm
    rw [List.mem_singleton.1 hm]
    exact ⟨.inr rfl, exampleDevice, rfl, hx⟩
  · intro a x hd _
    by_cases h : a = 9
    · exact ⟨_, List.mem_singleton_self _, h.symm⟩
    · simp [h] at hd
  · simp

end Eip
