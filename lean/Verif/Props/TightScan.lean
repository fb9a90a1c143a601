import Verif.Lemmas.TightScan
/-
C138: a scan that runs out of memory.
-/
namespace Eip
open Spec

/-- C138: when a scan does not run out of memory, it returns, throws or is undefined exactly as otherwise, with the same
messages. When it does, some allocation has failed, `std::bad_alloc` leaves `run`, and what it has sent, reported and
logged is the first part of what it would have. Partial: the report of a device may be cut off anywhere, and no other
device is reported (`c138_violated`). -/
theorem c138_run_partial (env : ScanEnv) (arrivals : List Arrival) (x : TightScanner) :
    (∀ r, (TightScan.run env arrivals x).1 = some r →
      Scanner.Logged.run env arrivals x.s = (r, (TightScan.run env arrivals x).2.s)) ∧
    ((TightScan.run env arrivals x).1 = none → false ∈ x.supply ∧
      x.s.log <+: (TightScan.run env arrivals x).2.s.log ∧
      (TightScan.run env arrivals x).2.s.log <+: (Scanner.Logged.run env arrivals x.s).2.log ∧
      x.s.s.log <+: (TightScan.run env arrivals x).2.s.s.log ∧
      (TightScan.run env arrivals x).2.s.s.log <+: (Scanner.Logged.run env arrivals x.s).2.s.log) := by
  obtain ⟨_, ⟨r, h1, h2⟩ | ⟨h1, h2, h3, h4⟩⟩ := (TightScan.Partly.run env arrivals).does x
  · exact ⟨fun r' h => (by cases h1.symm.trans h; exact h2), fun h => nomatch h1.symm.trans h⟩
  · exact ⟨fun r' h => (nomatch h1.symm.trans h), fun _ => ⟨h2, h3.1, h4.1, h3.2, h4.2⟩⟩

/-- C138: with enough memory the scan is that of C107, and memory still suffices afterwards. -/
theorem c138_enough (env : ScanEnv) (arrivals : List Arrival) (x : TightScanner) (enough : false ∉ x.supply) :
    (TightScan.run env arrivals x).1 = some (Scanner.Logged.run env arrivals x.s).1 ∧
    (TightScan.run env arrivals x).2.s = (Scanner.Logged.run env arrivals x.s).2 ∧
    false ∉ (TightScan.run env arrivals x).2.supply := by
  obtain ⟨h0, ⟨r, h1, h2⟩ | ⟨_, h2, _⟩⟩ := (TightScan.Partly.run env arrivals).does x
  · rw [h2]
    exact ⟨h1, rfl, fun h => enough (h0.mem h)⟩
  · exact absurd h2 enough

/-- A scan with enough memory, and one that runs out before the request is sent. -/
example : (TightScan.run ⟨true, true, 0xCC, exampleDevice⟩ [.error] ⟨Scanner.Logged.new "host", [true, true, true]⟩).1 =
      some (.ok (some [])) ∧
    (TightScan.run ⟨true, true, 0xCC, exampleDevice⟩ [.error] ⟨Scanner.Logged.new "host", [true, false]⟩).1 = none ∧
    (TightScan.run ⟨true, true, 0xCC, exampleDevice⟩ [.error] ⟨Scanner.Logged.new "host", [true, false]⟩).2.s.s.log = [] := by
  decide +kernel

/-- The full claim - a device is reported as a whole or not at all, and the scan goes on - is false: for every datagram
the handler looks at to its end, and every one of the messages it logs about it, there is an allocation whose failure
makes `run` throw with just the messages before that one logged. Nothing is waiting for another datagram then, so that
running again finds no device either (`c64_violated_again`). -/
theorem c138_violated (env : ScanEnv) (hostname : String) (data : Bytes) (later : List Arrival) (ms : List LogMsg)
    (works : env.resolves = true ∧ env.sends = true) (h : ScanSays (data.take 4096) ms) (whole : LogMsg.scanShort ∉ ms)
    (k : Nat) (hk : k < ms.length) :
    ∃ supply, (TightScan.run env (.datagram data :: later) ⟨Scanner.Logged.new hostname, supply⟩).1 = none ∧
      (TightScan.run env (.datagram data :: later) ⟨Scanner.Logged.new hostname, supply⟩).2.s.log =
        [.scanOpening, .scanDone, .scanSending, .scanDone, .scanWaiting] ++ ms.take k ∧
      (TightScan.run env (.datagram data :: later) ⟨Scanner.Logged.new hostname, supply⟩).2.s.s =
        ⟨hostname, 0, [.sentTo hostname "44818" (request 0x63 0 []) true]⟩ := by
  obtain ⟨s', e⟩ | ⟨_, ws, e, _⟩ := logged_handle env h ⟨hostname, 0, [.sentTo hostname "44818" (request 0x63 0 []) true]⟩
    [.scanOpening, .scanDone, .scanSending, .scanDone, .scanWaiting]
  · obtain ⟨new, e1, _, stop⟩ := TightScan.Spends.datagram env (data.take 4096) e
    obtain rfl : ms = new := List.append_cancel_left e1
    obtain ⟨m, e2⟩ := stop k hk
    have hs := send_eq env (Scanner.new hostname)
    rw [works.1, works.2] at hs
    have hu : untold (Scanner.sendListIdentityRequest env) ⟨Scanner.new hostname, [.scanOpening, .scanDone, .scanSending]⟩ =
        (.ok (), ⟨⟨hostname, 1, [.sentTo hostname "44818" (request 0x63 0 []) true]⟩,
          [.scanOpening, .scanDone, .scanSending]⟩) := by
      simp only [untold, Prog.zoom, hs]
      rfl
    have send : ∀ rest, TightScan.sendListIdentityRequest env ⟨Scanner.Logged.new hostname, true :: true :: true :: rest⟩ =
        (some (.ok ()), ⟨⟨⟨hostname, 1, [.sentTo hostname "44818" (request 0x63 0 []) true]⟩,
          [.scanOpening, .scanDone, .scanSending, .scanDone]⟩, rest⟩) := by
      intro rest
      have hl : TightScan.lift (untold (Scanner.sendListIdentityRequest env))
          ⟨⟨Scanner.new hostname, [.scanOpening, .scanDone, .scanSending]⟩, true :: rest⟩ = (some (.ok ()),
          ⟨⟨⟨hostname, 1, [.sentTo hostname "44818" (request 0x63 0 []) true]⟩,
            [.scanOpening, .scanDone, .scanSending]⟩, true :: rest⟩) := by
        unfold TightScan.lift
        rw [hu]
      show TightScan.andThen (TightScan.lift (untold (Scanner.sendListIdentityRequest env))) (fun _ => TightScan.tell .scanDone)
        ⟨⟨Scanner.new hostname, [.scanOpening, .scanDone, .scanSending]⟩, true :: rest⟩ = _
      unfold TightScan.andThen
      rw [hl]
      rfl
    have run : TightScan.run env (.datagram data :: later)
        ⟨Scanner.Logged.new hostname, true :: true :: true :: true :: (List.replicate m true ++ [false])⟩ =
        (none, ⟨⟨⟨hostname, 0, [.sentTo hostname "44818" (request 0x63 0 []) true]⟩,
          [.scanOpening, .scanDone, .scanSending, .scanDone, .scanWaiting] ++ ms.take k⟩, []⟩) := by
      show TightScan.andThen (TightScan.sendListIdentityRequest env) _ _ = _
      unfold TightScan.andThen
      rw [send]
      show (match TightScan.handleListIdentityResponse env (.datagram data)
          ⟨⟨⟨hostname, 0, [.sentTo hostname "44818" (request 0x63 0 []) true]⟩,
            [.scanOpening, .scanDone, .scanSending, .scanDone, .scanWaiting]⟩, List.replicate m true ++ [false]⟩ with
        | (some (.ok ()), x') => TightScan.runService env later x'
        | (some (.throw e), x') => (some (.throw e), x')
        | (some (.ub u), x') => (some (.ub u), x')
        | (none, x') => (none, x')) = _
      rw [TightScan.tight_datagram, e2]
    refine ⟨true :: true :: true :: true :: (List.replicate m true ++ [false]), ?_⟩
    rw [run]
    exact ⟨rfl, rfl, rfl⟩
  · exact absurd (by rw [e]; simp) whole

/-- A device whose report is cut off in the middle. -/
example : ∃ ms, ScanSays ((request 0x63 7 (cpf [(0x0C, identity exampleDevice [0x41])])).take 4096) ms ∧
    LogMsg.scanShort ∉ ms ∧ 4 < ms.length ∧
    ms.take 4 = [.scanHandle 7, .idMessage, .idVersion 1, .idAddress "127.0.0.1" 44818] := by
  have h := ScanSays.device (bytes := (request 0x63 7 (cpf [(0x0C, identity exampleDevice [0x41])])).take 4096)
    ⟨0x63, 41, 7, 0, (0, 0), 0⟩ (identity exampleDevice [0x41]) [] [] [] [] exampleDevice
    ⟨by decide +kernel, by decide +kernel⟩ rfl
    ⟨by decide, by intro i hi; rw [List.mem_singleton.1 hi]; decide +kernel⟩ (by decide) (by simp; rfl)
  exact ⟨_, h, by decide +kernel, by decide +kernel, by decide +kernel⟩

end Eip
