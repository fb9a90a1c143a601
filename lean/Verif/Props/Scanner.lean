import Verif.Lemmas.Scanner
import Verif.Props.Wire
/-
C62, C63, C64: the list identity scanner.
-/
namespace Eip
open Spec

/-! ### C62 -/

theorem list_identity_bytes (junk : UInt8) :
    (EncapPacket.new Scanner.cmdListIdentity).serialize (.buffer (BufferWriter.new (List.replicate 128 junk))) =
      (.ok (), .buffer ⟨request 0x63 0 [], List.replicate 104 junk, 24⟩) := by
  have h := (EncapPacket.writes (EncapPacket.new Scanner.cmdListIdentity) (bs := []) rfl).writes
  have hb : Spec.header (EncapPacket.new Scanner.cmdListIdentity).header ++ [] = request 0x63 0 [] := by decide +kernel
  rw [hb] at h
  have hl : (request 0x63 0 []).length = 24 := by decide +kernel
  have e := h.fits (BufferWriter.new (List.replicate 128 junk)) (by
    rw [hl, BufferWriter.new, List.length_replicate]; decide)
  refine e.trans ?_
  rw [hl]
  simp [BufferWriter.new]

theorem send_eq (env : ScanEnv) (s : Scanner) :
    Scanner.sendListIdentityRequest env s =
      if env.resolves then
        (if env.sends then .ok () else .throw systemError,
          { s with log := s.log ++ [.sentTo s.hostname "44818" (request 0x63 0 []) env.sends] })
      else (.throw systemError, s) := by
  have hl : (request 0x63 0 []).length = 24 := by decide +kernel
  have hm : List.take 24 (BufferWriter.memory ⟨request 0x63 0 [], List.replicate 104 env.junk, 24⟩) = request 0x63 0 [] := by
    rw [BufferWriter.memory, List.take_append_of_le_length (by rw [hl]; exact Nat.le_refl _),
      List.take_of_length_le (by rw [hl]; exact Nat.le_refl _)]
  simp only [Scanner.sendListIdentityRequest, list_identity_bytes, hm]
  cases env.resolves <;> cases env.sends <;> rfl

/-- The datagrams in a log. -/
def datagrams (log : List ScanEv) : List (String × String × Bytes) :=
  log.filterMap (fun e => match e with | .sentTo h p b _ => some (h, p, b) | .reported _ => none)

/-! ### The handler -/

/-- What the handler makes of the bytes of a datagram. -/
theorem handler_cases (env : ScanEnv) (bytes : Bytes) (s : Scanner) :
    (∃ x, IdentityReply bytes x) ∨ (NoPayload bytes ∨ ListIdentity bytes 0x0C []) ∨
    (Scanner.handleDatagram env bytes s = (.ok (), s)) ∨
    (∃ what, Scanner.handleDatagram env bytes s = (.throw (lengthError what), s)) := by
  rcases parsePacket_cases bytes s with ⟨h, payload, tail, hl, rfl⟩ | ⟨what, e⟩
  rotate_left
  · exact .inr (.inr (.inr ⟨what, Prog.bind_throw e⟩))
  rw [Scanner.handleDatagram_packet env s (parsePacket_ok s h tail hl)]
  by_cases hc : h.command = 0x63
  rotate_left
  · exact .inr (.inr (.inl (Scanner.afterPacket_other env _ s hc)))
  have hp : Packet (Spec.header h ++ payload ++ tail) 0x63 h.sessionHandle payload := ⟨h, tail, hc, rfl, hl.symm, rfl⟩
  by_cases hne : payload = []
  · subst hne
    exact .inr (.inl (.inl ⟨_, hp⟩))
  rcases covers_cpf payload with ⟨cs, rest, ⟨l, ok, rfl⟩, e⟩ | ⟨cs, m, ⟨l, ok, rfl⟩, hm, e⟩
  rotate_left
  · exact .inr (.inr (.inr (Scanner.afterPacket_short env h s hc hne ok e hm)))
  rw [e, Scanner.afterPacket_cpf env h s hc ok rest]
  cases l with
  | nil => exact .inr (.inr (.inl rfl))
  | cons a l =>
    obtain ⟨t, data⟩ := a
    simp only
    by_cases ht : t = 0x0C
    rotate_left
    · exact .inr (.inr (.inl (by rw [if_pos ht])))
    subst ht
    have hi : ListIdentity (Spec.header h ++ payload ++ tail) 0x0C data := ⟨_, payload, l, rest, hp, ok, e⟩
    rw [e] at hi
    by_cases hd : data = []
    · subst hd
      exact .inr (.inl (.inr hi))
    rcases covers_identity data with ⟨cs, rest', ⟨x, hx, rfl⟩, e'⟩ | ⟨cs, m, ⟨x, hx, rfl⟩, hm, e'⟩
    · exact .inl ⟨x, data, rest', hi, hx, e'⟩
    · obtain ⟨what, d', e2⟩ := from_identity_short hx e' hm data.length { env.id with productName := [] }
      refine .inr (.inr (.inr ⟨what, ?_⟩))
      rw [if_neg (by simp)]
      exact Prog.bind_throw (onLocal_throw ((getDataAs_raw _ rfl _ hd _).trans e2) s)

theorem handler_list (env : ScanEnv) {bytes data : Bytes} {t : UInt16} (h : ListIdentity bytes t data) (s : Scanner) :
    Scanner.handleDatagram env bytes s =
      if t ≠ 0x0C then (.ok (), s)
      else (do
        let id ← Session.onLocal { env.id with productName := [] }
          ((CPFItem.mk t (rawData data)).getDataAs IdentityItemData.cls)
        Prog.modify (fun s => { s with log := s.log ++ [.reported id] }) : Prog Scanner Unit) s := by
  obtain ⟨handle, payload, more, rest, ⟨h, tail, hc, -, hl, rfl⟩, ok, rfl⟩ := h
  rw [Scanner.handleDatagram_packet env s (parsePacket_ok s h tail hl.symm), Scanner.afterPacket_cpf env h s hc ok rest]

theorem handler_reply (env : ScanEnv) {bytes : Bytes} {x : IdentityItemData} (h : IdentityReply bytes x) (s : Scanner) :
    Scanner.handleDatagram env bytes s = (.ok (), { s with log := s.log ++ [.reported x] }) := by
  obtain ⟨data, tail, h, hx, rfl⟩ := h
  rw [handler_list env h, if_neg (by simp), Scanner.item_data env _ s hx]

theorem handler_empty_item (env : ScanEnv) {bytes : Bytes} (h : ListIdentity bytes 0x0C []) (s : Scanner) :
    Scanner.handleDatagram env bytes s = (.ub .nullDeref, s) := by
  rw [handler_list env h, if_neg (by simp)]
  exact Prog.bind_ub (onLocal_ub (getDataAs_null _ _ _) s)

theorem handler_no_payload (env : ScanEnv) {bytes : Bytes} (h : NoPayload bytes) (s : Scanner) :
    Scanner.handleDatagram env bytes s = (.ub .nullDeref, s) := by
  obtain ⟨handle, h, tail, hc, -, hl, rfl⟩ := h
  rw [Scanner.handleDatagram_packet env s (parsePacket_ok s h tail hl.symm), Scanner.afterPacket_null env h s hc]

/-- All outcomes of the handler. -/
theorem handle_cases (env : ScanEnv) (data : Bytes) (s : Scanner) :
    (∃ x, IdentityReply (data.take 4096) x ∧ Scanner.handleListIdentityResponse env (.datagram data) s =
      (.ok (), { s with log := s.log ++ [.reported x] })) ∨
    ((NoPayload (data.take 4096) ∨ ListIdentity (data.take 4096) 0x0C []) ∧
      Scanner.handleListIdentityResponse env (.datagram data) s = (.ub .nullDeref, s)) ∨
    Scanner.handleListIdentityResponse env (.datagram data) s = (.ok (), s) := by
  simp only [Scanner.handleListIdentityResponse, Prog.tryCatch]
  rcases handler_cases env (data.take 4096) s with ⟨x, h⟩ | h | e | ⟨what, e⟩
  · rw [handler_reply env h]; exact .inl ⟨x, h, rfl⟩
  · have : Scanner.handleDatagram env (data.take 4096) s = (.ub .nullDeref, s) := by
      rcases h with h | h
      · exact handler_no_payload env h s
      · exact handler_empty_item env h s
    rw [this]; exact .inr (.inl ⟨h, rfl⟩)
  · rw [e]; exact .inr (.inr rfl)
  · rw [e]; exact .inr (.inr rfl)

theorem handler_log (env : ScanEnv) (a : Arrival) (s : Scanner) :
    ∃ ids : List IdentityItemData, (Scanner.handleListIdentityResponse env a s).2 =
      { s with log := s.log ++ ids.map .reported } := by
  cases a with
  | error => exact ⟨[], by simp [Scanner.handleListIdentityResponse, Prog.pure_apply]⟩
  | datagram data =>
    rcases handle_cases env data s with ⟨x, -, e⟩ | ⟨-, e⟩ | e
    · exact ⟨[x], by rw [e]; rfl⟩
    · exact ⟨[], by rw [e]; simp⟩
    · exact ⟨[], by rw [e]; simp⟩

theorem service_log (env : ScanEnv) (arrivals : List Arrival) (s : Scanner) :
    ∃ ids : List IdentityItemData, (Scanner.runService env arrivals s).2.log = s.log ++ ids.map .reported := by
  induction arrivals generalizing s with
  | nil =>
    refine ⟨[], ?_⟩
    unfold Scanner.runService
    split <;> simp
  | cons a rest ih =>
    unfold Scanner.runService
    split
    · exact ⟨[], by simp⟩
    · next n hn =>
      obtain ⟨ids, e⟩ := handler_log env a { s with receives := n }
      generalize Scanner.handleListIdentityResponse env a { s with receives := n } = r at e ⊢
      obtain ⟨(_ | _ | _), s'⟩ := r
      · obtain ⟨ids', e'⟩ := ih s'
        simp only at e e' ⊢
        exact ⟨ids ++ ids', by rw [e', e]; simp⟩
      · exact ⟨ids, by simp only at e ⊢; rw [e]⟩
      · exact ⟨ids, by simp only at e ⊢; rw [e]⟩

theorem datagrams_reported (log : List ScanEv) (ids : List IdentityItemData) :
    datagrams (log ++ ids.map .reported) = datagrams log := by
  have : datagrams (ids.map .reported) = [] := by
    induction ids with
    | nil => rfl
    | cons x ids ih => exact ih
  rw [datagrams, List.filterMap_append]
  exact (congrArg (datagrams log ++ ·) this).trans (List.append_nil _)

/-- C62. Whatever arrives and whatever fails, running the scanner sends exactly one datagram if the host name can be
resolved and none otherwise: to port 44818 of the given host, 24 bytes, the command 0x63 followed by zeros. -/
theorem c62_request (env : ScanEnv) (hostname : String) (arrivals : List Arrival) :
    datagrams (Scanner.run env arrivals (Scanner.new hostname)).2.log =
      if env.resolves then [(hostname, "44818", 0x63 :: List.replicate 23 0)] else [] := by
  have e := send_eq env (Scanner.new hostname)
  have hb : request 0x63 0 [] = 0x63 :: List.replicate 23 0 := by decide +kernel
  rw [hb] at e
  cases hr : env.resolves with
  | false =>
    rw [hr] at e
    rw [Scanner.run, Prog.bind_throw e]
    rfl
  | true =>
    rw [hr] at e
    cases hs : env.sends with
    | false =>
      rw [hs] at e
      rw [Scanner.run, Prog.bind_throw e]
      rfl
    | true =>
      rw [hs] at e
      rw [Scanner.run, Prog.bind_ok e]
      obtain ⟨ids, el⟩ := service_log env arrivals { Scanner.new hostname with
        log := (Scanner.new hostname).log ++ [.sentTo hostname "44818" (0x63 :: List.replicate 23 0) true] }
      have := (congrArg datagrams el).trans (datagrams_reported _ _)
      exact this

/-- Sending throws `system_error` if the name cannot be resolved or the socket fails, and otherwise returns normally. -/
theorem c62_failures (env : ScanEnv) (s : Scanner) :
    (Scanner.sendListIdentityRequest env s).1 = if env.resolves && env.sends then .ok () else .throw systemError := by
  rw [send_eq]
  cases env.resolves <;> cases env.sends <;> rfl

/-! ### C63 -/

/-- C63 does not hold: any list identity datagram without payload, such as a copy of the request itself, is undefined
behaviour. -/
theorem c63_violated (env : ScanEnv) (data : Bytes) (h : NoPayload (data.take 4096)) (s : Scanner) :
    Scanner.handleListIdentityResponse env (.datagram data) s = (.ub .nullDeref, s) := by
  simp only [Scanner.handleListIdentityResponse, Prog.tryCatch, handler_no_payload env h]

/-- The scanner's own request is such a datagram. -/
example : NoPayload ((0x63 :: List.replicate 23 0 : Bytes).take 4096) :=
  ⟨0, ⟨0x63, 0, 0, 0, (0, 0), 0⟩, [], rfl, rfl, rfl, by decide +kernel⟩

/-- C63 does not hold either for a list identity reply whose identity item is empty. -/
theorem c63_violated_item (env : ScanEnv) (data : Bytes) (h : ListIdentity (data.take 4096) 0x0C []) (s : Scanner) :
    Scanner.handleListIdentityResponse env (.datagram data) s = (.ub .nullDeref, s) := by
  simp only [Scanner.handleListIdentityResponse, Prog.tryCatch, handler_empty_item env h]

/-- A reply with an empty identity item. -/
example : ListIdentity (([0x63, 0, 6, 0] ++ List.replicate 20 0 ++ [1, 0, 0x0C, 0, 0, 0] : Bytes).take 4096) 0x0C [] :=
  ⟨0, [1, 0, 0x0C, 0, 0, 0], [], [], ⟨⟨0x63, 6, 0, 0, (0, 0), 0⟩, [], rfl, rfl, rfl, by decide +kernel⟩,
    ⟨by decide, by simp⟩, by decide +kernel⟩

/-- C63, the part that always holds: whatever arrives, the handler throws nothing. -/
theorem c63_no_exception_partial (env : ScanEnv) (a : Arrival) (s : Scanner) (e : Exn) :
    (Scanner.handleListIdentityResponse env a s).1 ≠ .throw e := by
  cases a with
  | error => exact fun h => nomatch h
  | datagram data =>
    rcases handle_cases env data s with ⟨x, -, e'⟩ | ⟨-, e'⟩ | e' <;> rw [e'] <;> exact fun h => nomatch h

/-- C63, the part that always holds: the handler reports a device if and only if a complete list identity reply has
arrived, and then reports the identity in it, once. Missing from C63: datagrams without payload and replies with an empty
identity item, see `c63_violated` and `c63_violated_item`; all others return normally, see `c63_safe_partial`. -/
theorem c63_reports_partial (env : ScanEnv) (data : Bytes) (s : Scanner) (x : IdentityItemData) :
    (.reported x ∈ (Scanner.handleListIdentityResponse env (.datagram data) { s with log := [] }).2.log ↔
      IdentityReply (data.take 4096) x) ∧
    (IdentityReply (data.take 4096) x →
      Scanner.handleListIdentityResponse env (.datagram data) s = (.ok (), { s with log := s.log ++ [.reported x] })) := by
  have key : ∀ (s : Scanner) (x : IdentityItemData), IdentityReply (data.take 4096) x →
      Scanner.handleListIdentityResponse env (.datagram data) s = (.ok (), { s with log := s.log ++ [.reported x] }) := by
    intro s x h
    simp only [Scanner.handleListIdentityResponse, Prog.tryCatch, handler_reply env h]
  refine ⟨⟨fun h => ?_, fun h => ?_⟩, key s x⟩
  · rcases handle_cases env data { s with log := [] } with ⟨y, hy, e⟩ | ⟨-, e⟩ | e
    · rw [e] at h
      simp only [List.nil_append, List.mem_singleton, ScanEv.reported.injEq] at h
      rw [h]; exact hy
    · rw [e] at h; cases h
    · rw [e] at h; cases h
  · rw [key _ x h]
    simp

/-- C63, as far as it holds: every other datagram, however malformed, is handled without undefined behaviour. -/
theorem c63_safe_partial (env : ScanEnv) (data : Bytes) (s : Scanner) (h1 : ¬ NoPayload (data.take 4096))
    (h2 : ¬ ListIdentity (data.take 4096) 0x0C []) :
    (Scanner.handleListIdentityResponse env (.datagram data) s).1 = .ok () := by
  rcases handle_cases env data s with ⟨x, -, e⟩ | ⟨h | h, -⟩ | e
  · rw [e]
  · exact absurd h h1
  · exact absurd h h2
  · rw [e]

/-- A device called "A". -/
def exampleDevice : IdentityItemData :=
  ⟨1, ⟨0x0200, 0x12AF, 0x0100007F, (0, 0)⟩, 2, 3, 4, (1, 2), 0, 5, [0x41], 3⟩

/-- Its reply. -/
example : IdentityReply ((request 0x63 0 (cpf [(0x0C, identity exampleDevice [0x41])])).take 4096) exampleDevice := by
  refine ⟨identity exampleDevice [0x41], [], ⟨0, cpf [(0x0C, identity exampleDevice [0x41])], [], [],
    ⟨⟨0x63, 41, 0, 0, (0, 0), 0⟩, [], rfl, rfl, by decide +kernel, by decide +kernel⟩, ⟨by decide, ?_⟩, by simp⟩,
    by decide, by simp; rfl⟩
  intro i hi
  rw [List.mem_singleton.1 hi]
  decide +kernel

/-- And how it is handled: directly. -/
example : (Scanner.run ⟨true, true, 0xCC, exampleDevice⟩
    [.datagram (request 0x63 0 (cpf [(0x0C, identity exampleDevice [0x41])]))] (Scanner.new "192.168.1.255")) =
    (.ok (some []), ⟨"192.168.1.255", 0, [.sentTo "192.168.1.255" "44818" (0x63 :: List.replicate 23 0) true,
      .reported exampleDevice]⟩) := by decide +kernel

/-! ### C64 -/

/-- C64 does not hold: after the first arrival no receive operation is left, so `run` returns (or leaves with undefined
behaviour), and everything that arrives later is never looked at. -/
theorem c64_violated (env : ScanEnv) (hostname : String) (first : Arrival) (later : List Arrival)
    (works : env.resolves = true ∧ env.sends = true) :
    (Scanner.run env (first :: later) (Scanner.new hostname)).2 = (Scanner.run env [first] (Scanner.new hostname)).2 ∧
    ((Scanner.run env (first :: later) (Scanner.new hostname)).1 = .ok (some later) ∨
      (Scanner.run env (first :: later) (Scanner.new hostname)).1 = .ub .nullDeref) := by
  have e := send_eq env (Scanner.new hostname)
  rw [works.1, works.2] at e
  rw [Scanner.run, Scanner.run, Prog.bind_ok e, Prog.bind_ok e]
  generalize hs : ({ Scanner.new hostname with log := (Scanner.new hostname).log ++
    [.sentTo (Scanner.new hostname).hostname "44818" (request 0x63 0 []) true] } : Scanner) = s
  have hr : s.receives = 1 := by rw [← hs]; rfl
  have hx := c63_no_exception_partial env first { s with receives := 0 }
  obtain ⟨ids, hl⟩ := handler_log env first { s with receives := 0 }
  have hu : ∀ u, (Scanner.handleListIdentityResponse env first { s with receives := 0 }).1 = .ub u → u = .nullDeref := by
    intro u h
    cases first with
    | error => cases h
    | datagram data =>
      rcases handle_cases env data { s with receives := 0 } with ⟨x, -, e⟩ | ⟨-, e⟩ | e <;> rw [e] at h <;> cases h
      rfl
  simp only [Scanner.runService, hr]
  generalize Scanner.handleListIdentityResponse env first { s with receives := 0 } = r at hx hl hu ⊢
  obtain ⟨(_ | e | u), s'⟩ := r
  · simp only at hl
    have h0 : s'.receives = 0 := by rw [hl]
    refine ⟨?_, .inl ?_⟩
    · cases later <;> simp [Scanner.runService, h0]
    · cases later <;> simp [Scanner.runService, h0]
  · exact absurd rfl (hx e)
  · exact ⟨rfl, .inr (by rw [hu u rfl])⟩

/-- C64 does not hold for a second call of `run` at all: it returns at once. -/
theorem c64_violated_again (env : ScanEnv) (s : Scanner) (none_left : s.receives = 0) (arrivals : List Arrival)
    (works : env.resolves = true ∧ env.sends = true) :
    (Scanner.run env arrivals s).1 = .ok (some arrivals) := by
  have e := send_eq env s
  rw [works.1, works.2] at e
  rw [Scanner.run, Prog.bind_ok e]
  cases arrivals <;> simp [Scanner.runService, none_left]

/-- C64, as far as it holds: the first arrival is handled; if it is the reply of a device, that device is reported. What
is missing: every later arrival. -/
theorem c64_first_partial (env : ScanEnv) (hostname : String) (data : Bytes) (later : List Arrival) (x : IdentityItemData)
    (works : env.resolves = true ∧ env.sends = true) (h : IdentityReply (data.take 4096) x) :
    Scanner.run env (.datagram data :: later) (Scanner.new hostname) =
      (.ok (some later), ⟨hostname, 0, [.sentTo hostname "44818" (0x63 :: List.replicate 23 0) true, .reported x]⟩) := by
  have e := send_eq env (Scanner.new hostname)
  have hb : request 0x63 0 [] = 0x63 :: List.replicate 23 0 := by decide +kernel
  rw [works.1, works.2, hb] at e
  rw [Scanner.run, Prog.bind_ok e]
  have hk := (c63_reports_partial env data ⟨hostname, 0, [.sentTo hostname "44818" (0x63 :: List.replicate 23 0) true]⟩ x).2 h
  show (match Scanner.handleListIdentityResponse env (.datagram data)
      ⟨hostname, 0, [.sentTo hostname "44818" (0x63 :: List.replicate 23 0) true]⟩ with
    | (.ok (), s') => Scanner.runService env later s'
    | (.throw e, s') => (.throw e, s')
    | (.ub u, s') => (.ub u, s')) = _
  rw [hk]
  cases later <;> rfl

end Eip
