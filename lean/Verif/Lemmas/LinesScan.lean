import Verif.Lemmas.LinesOps
import Verif.Props.ScanLog
/-
The messages of the scanner are whole.
-/
namespace Eip
open Spec

theorem scanWarnings_whole (h : EncapHeader) (payload tail : Bytes) : Only Whole (scanWarnings h payload tail) := by
  rw [scanWarnings, unusedWarning]
  simp only [Only.append]
  refine ⟨⟨⟨⟨?_, ?_⟩, ?_⟩, ?_⟩, ?_⟩ <;> exact Only.when (LogMsg.whole_plain rfl)

theorem one_whole {m : LogMsg} (h : m.carries = 0) : Only Whole [m] := Only.cons.mpr ⟨LogMsg.whole_plain h, Only.nil⟩

theorem moreWarning_whole (l : List (UInt16 × Bytes)) : Only Whole (moreWarning l) := Only.when (LogMsg.whole_plain rfl)

theorem report_whole {x : IdentityItemData} (hx : x.productName.length < 256) : Only Whole (deviceReport x) := by
  rw [← Scanner.Logged.report_eq]
  intro m hm
  simp only [Scanner.Logged.report, List.mem_cons, List.not_mem_nil, or_false] at hm
  rcases hm with rfl | rfl | rfl | rfl | rfl | rfl | rfl | rfl | rfl | rfl | rfl
  all_goals first
    | exact LogMsg.whole_plain rfl
    | exact LogMsg.whole_of (show x.productName.length ≤ 800 by omega)

theorem Spec.ScanSays.whole {bytes : Bytes} {ms : List LogMsg} (h : ScanSays bytes ms) : Only Whole ms := by
  cases h with
  | frame h => exact one_whole rfl
  | command h payload tail f c =>
    exact Only.append.mpr ⟨Only.when (LogMsg.whole_plain rfl), one_whole rfl⟩
  | items h payload missing tail k f c ne ok cut m => exact Only.append.mpr ⟨scanWarnings_whole _ _ _, one_whole rfl⟩
  | none h rest tail f c => exact Only.append.mpr ⟨scanWarnings_whole _ _ _, one_whole rfl⟩
  | type h t data rest tail more f c ok ne =>
    exact Only.append.mpr ⟨Only.append.mpr ⟨scanWarnings_whole _ _ _, moreWarning_whole _⟩, one_whole rfl⟩
  | item h data missing rest tail more x f c ok ne name cut m =>
    exact Only.append.mpr ⟨Only.append.mpr ⟨scanWarnings_whole _ _ _, moreWarning_whole _⟩, one_whole rfl⟩
  | device h data extra rest tail more x f c ok name e =>
    exact Only.append.mpr ⟨Only.append.mpr ⟨scanWarnings_whole _ _ _, moreWarning_whole _⟩, report_whole name⟩

/-- `p` only adds whole messages. -/
def AddsWhole {α : Type} (p : Prog LogScanner α) : Prop :=
  ∀ s l, ∃ r s' new, p ⟨s, l⟩ = (r, ⟨s', l ++ new⟩) ∧ Only Whole new

theorem datagram_whole (env : ScanEnv) (bytes : Bytes) : AddsWhole (Scanner.Logged.handleDatagram env bytes) := by
  intro s l
  rcases logged_cases env bytes with ⟨h, payload, tail, more, e⟩ | ⟨ms, h⟩
  · exact ⟨_, _, _, (e s l).1, Only.append.mpr ⟨scanWarnings_whole _ _ _, moreWarning_whole _⟩⟩
  · rcases logged_handle env h s l with ⟨s', e⟩ | ⟨what, ws, rfl, e⟩
    · exact ⟨_, _, _, e, h.whole⟩
    · exact ⟨_, _, _, e, (Only.append.mp h.whole).1⟩

theorem handle_whole (env : ScanEnv) (a : Arrival) : AddsWhole (Scanner.Logged.handleListIdentityResponse env a) := by
  intro s l
  cases a with
  | error => exact ⟨_, _, [.scanError], rfl, one_whole rfl⟩
  | datagram data =>
    obtain ⟨r, s', new, e, h⟩ := datagram_whole env (data.take 4096) s l
    simp only [Scanner.Logged.handleListIdentityResponse, Prog.tryCatch, e]
    rcases r with _ | x | u
    · exact ⟨_, _, _, rfl, h⟩
    · dsimp only
      by_cases hk : x.kind.isA .lengthError
      · rw [if_pos hk]
        refine ⟨.ok (), s', new ++ [.scanShort], ?_, Only.append.mpr ⟨h, one_whole rfl⟩⟩
        rw [← List.append_assoc]
        rfl
      · rw [if_neg hk]
        exact ⟨_, _, new, rfl, h⟩
    · exact ⟨_, _, _, rfl, h⟩

theorem service_whole (env : ScanEnv) (arrivals : List Arrival) : AddsWhole (Scanner.Logged.runService env arrivals) := by
  induction arrivals with
  | nil =>
    intro s l
    simp only [Scanner.Logged.runService]
    cases s.receives <;> exact ⟨_, _, [], by rw [List.append_nil], Only.nil⟩
  | cons a rest ih =>
    intro s l
    simp only [Scanner.Logged.runService]
    cases s.receives with
    | zero => exact ⟨_, _, [], by rw [List.append_nil], Only.nil⟩
    | succ n =>
      obtain ⟨r, s', new, e, h⟩ := handle_whole env a { s with receives := n } l
      simp only [e]
      rcases r with _ | x | u
      · obtain ⟨r', s2, new', e', h'⟩ := ih s' (l ++ new)
        exact ⟨r', s2, new ++ new', by simp only [e', List.append_assoc], Only.append.mpr ⟨h, h'⟩⟩
      · exact ⟨_, _, _, rfl, h⟩
      · exact ⟨_, _, _, rfl, h⟩

theorem run_whole (env : ScanEnv) (arrivals : List Arrival) : AddsWhole (Scanner.Logged.run env arrivals) := by
  intro s l
  have e0 : Scanner.Logged.run env arrivals ⟨s, l⟩ = ((do untold (Scanner.sendListIdentityRequest env); tell .scanDone) >>=
      fun _ => do tell .scanWaiting; Scanner.Logged.runService env arrivals : Prog LogScanner _) ⟨s, l ++ [.scanSending]⟩ := rfl
  rw [e0]
  rcases hq : Scanner.sendListIdentityRequest env s with ⟨(_ | x | u), s'⟩
  · have e : (do untold (Scanner.sendListIdentityRequest env); tell .scanDone : Prog LogScanner Unit)
        ⟨s, l ++ [.scanSending]⟩ = (.ok (), ⟨s', l ++ [.scanSending] ++ [.scanDone]⟩) := by
      have : untold (Scanner.sendListIdentityRequest env) ⟨s, l ++ [.scanSending]⟩ = (.ok (), ⟨s', l ++ [.scanSending]⟩) := by
        simp only [untold, Prog.zoom, hq]
      rw [Prog.bind_ok this]
      rfl
    rw [Prog.bind_ok e, tell_then]
    obtain ⟨r, s2, new, e', h⟩ := service_whole env arrivals s' (l ++ [.scanSending] ++ [.scanDone] ++ [.scanWaiting])
    refine ⟨r, s2, [.scanSending, .scanDone, .scanWaiting] ++ new, ?_, Only.append.mpr ⟨?_, h⟩⟩
    · rw [e']
      simp only [List.append_assoc]
      rfl
    · refine Only.cons.mpr ⟨LogMsg.whole_plain rfl, Only.cons.mpr ⟨LogMsg.whole_plain rfl, one_whole rfl⟩⟩
  · have e : (do untold (Scanner.sendListIdentityRequest env); tell .scanDone : Prog LogScanner Unit)
        ⟨s, l ++ [.scanSending]⟩ = (.throw x, ⟨s', l ++ [.scanSending]⟩) := by
      have : untold (Scanner.sendListIdentityRequest env) ⟨s, l ++ [.scanSending]⟩ = (.throw x, ⟨s', l ++ [.scanSending]⟩) := by
        simp only [untold, Prog.zoom, hq]
      rw [Prog.bind_throw this]
    rw [Prog.bind_throw e]
    exact ⟨_, _, _, rfl, one_whole rfl⟩
  · have e : (do untold (Scanner.sendListIdentityRequest env); tell .scanDone : Prog LogScanner Unit)
        ⟨s, l ++ [.scanSending]⟩ = (.ub u, ⟨s', l ++ [.scanSending]⟩) := by
      have : untold (Scanner.sendListIdentityRequest env) ⟨s, l ++ [.scanSending]⟩ = (.ub u, ⟨s', l ++ [.scanSending]⟩) := by
        simp only [untold, Prog.zoom, hq]
      rw [Prog.bind_ub this]
    rw [Prog.bind_ub e]
    exact ⟨_, _, _, rfl, one_whole rfl⟩

end Eip
