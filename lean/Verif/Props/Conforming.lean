import Verif.Lemmas.Paired
import Verif.Props.Device
/-
C91: a conforming device can answer whatever the user of a session does.
-/
namespace Eip
open Spec

theorem triad_exists (bs : Bytes) (h : bs.length = 8) : ∃ sn vendor originator, bs = triad sn vendor originator := by
  refine ⟨de16 (bs.take 2), de16 ((bs.drop 2).take 2), de32 (bs.drop 4), ?_⟩
  simp only [triad]
  rw [← le16_eq_le, ← le16_eq_le, ← le32_eq_le, le16_de16 (by simp [h]), le16_de16 (by simp [h]), le32_de32 (by simp [h])]
  have e : bs.drop 4 = (bs.drop 2).drop 2 := by simp
  rw [e, List.append_assoc, List.take_append_drop, List.take_append_drop]

theorem Spec.Device.Able.store {d : Device} (h : d.Able) {x y z : UInt8} {bs : Bytes} (hw : d.writable x y z bs = true) :
    (d.store x y z bs).Able := by
  refine ⟨fun x' y' z' v hv => ?_, h.shortWrites, h.named⟩
  simp only [Device.store] at hv
  split at hv
  · cases hv
    exact h.shortWrites _ _ _ _ hw
  · exact h.short _ _ _ _ hv

theorem replyWith_short (handle : UInt32) (s st : UInt8) (data : Bytes) (h : data.length ≤ 4000) :
    (replyWith handle 0 s st data).length ≤ 4096 := by
  simp [replyWith, header, rrData, cpf, item, mrReply]
  omega

/-- Whatever is requested, an able device has an answer that fits into the receive buffer, and stays able. -/
theorem able_serves (d : Device) (able : d.Able) (req : Bytes) :
    ∃ reply d', Serves d req reply d' ∧ reply.length ≤ 4096 ∧ d'.Able := by
  have resp : d.handle ≠ 0 → ∀ (s st : UInt8) (data : Bytes), data.length ≤ 4000 →
      Response d.handle (replyWith d.handle 0 s st data) s st data := by
    intro hd s st data h
    have := replyWith_response hd 0 s st data [] (by omega)
    rwa [List.append_nil] at this
  by_cases hu : Understood d req
  · rcases hu with ⟨h0, rfl | ⟨s, segs, data, rfl⟩⟩ | ⟨hd, ⟨x, y, z, rfl⟩ | ⟨x, y, z, bs, rfl⟩ | ⟨body, rfl⟩ | ⟨body, rfl⟩⟩
    · refine ⟨header ⟨0x65, 4, 1, 0, (0, 0), 0⟩ ++ register 1 0, _, .register _ 1 h0 (by decide)
        ⟨⟨0x65, 4, 1, 0, (0, 0), 0⟩, [], rfl, rfl, rfl, by rw [List.append_nil]⟩, by decide, ⟨able.short, able.shortWrites, able.named⟩⟩
    · exact ⟨header ⟨0x6F, 0, 0, 0, (0, 0), 0⟩, d, .noSession _ s segs data h0
        ⟨⟨0x6F, 0, 0, 0, (0, 0), 0⟩, [], rfl, rfl, rfl, by simp⟩, by decide, able⟩
    · cases hv : d.attr x y z with
      | none =>
        exact ⟨_, d, .readRefused x y z _ [] 5 hd hv (by decide) (resp hd _ _ _ (by simp)), replyWith_short _ _ _ _ (by simp), able⟩
      | some v =>
        have := able.short _ _ _ _ hv
        exact ⟨_, d, .read x y z _ v hd hv (resp hd _ _ _ this), replyWith_short _ _ _ _ this, able⟩
    · cases hw : d.writable x y z bs with
      | false =>
        exact ⟨_, d, .writeRefused x y z bs _ [] 5 hd hw (by decide) (resp hd _ _ _ (by simp)), replyWith_short _ _ _ _ (by simp), able⟩
      | true =>
        exact ⟨_, _, .write x y z bs _ [] hd hw (resp hd _ _ _ (by simp)), replyWith_short _ _ _ _ (by simp), able.store hw⟩
    · by_cases hg : d.grants body = false ∨ ∃ c ∈ d.conns, c.name = triadOf body
      · exact ⟨_, d, .connectRefused body _ [] 1 hd hg (by decide) (resp hd _ _ _ (by simp)), replyWith_short _ _ _ _ (by simp), able⟩
      · have hg1 : d.grants body = true := by
          cases h : d.grants body
          · exact absurd (.inl h) hg
          · rfl
        obtain ⟨sn, v, g, e⟩ := triad_exists _ (able.named body hg1)
        have hlen : (forwardOpenReply 1 2 sn v g 0 0 0 0 []).length ≤ 4000 := by
          simp [forwardOpenReply]
        refine ⟨_, _, .connect body _ _ ⟨1, 2, sn, v, g⟩ 0 0 hd e hg1 ?_ (resp hd _ _ _ hlen)
          ⟨0, 0, [], [], rfl, by rw [List.append_nil]⟩, replyWith_short _ _ _ _ hlen, ⟨able.short, able.shortWrites, able.named⟩⟩
        intro c hc hn
        exact hg (.inr ⟨c, hc, hn.trans e.symm⟩)
    · by_cases hc : ∃ c ∈ d.conns, c.name = (body.drop 2).take 8
      · obtain ⟨c, hc, hn⟩ := hc
        have hlen : (forwardCloseReply c.sn c.vendor c.originator 0 0 []).length ≤ 4000 := by
          simp [forwardCloseReply]
        exact ⟨_, _, .disconnect body _ _ c hd hc hn.symm (resp hd _ _ _ hlen)
          ⟨0, 0, [], [], rfl, by rw [List.append_nil]⟩, replyWith_short _ _ _ _ hlen, ⟨able.short, able.shortWrites, able.named⟩⟩
      · exact ⟨_, d, .disconnectRefused body _ [] 1 hd (fun c h hn => hc ⟨c, h, hn⟩) (by decide) (resp hd _ _ _ (by simp)),
          replyWith_short _ _ _ _ (by simp), able⟩
  · exact ⟨[], d, .other _ _ _ hu, by simp, able⟩

/-! ### A device as a party that reacts -/

/-- An able device. -/
abbrev AbleDevice := { d : Device // d.Able }

/-- One answer of the device. -/
noncomputable def answer (d : AbleDevice) (req : Bytes) : Bytes := Classical.choose (able_serves d.1 d.2 req)

/-- The device afterwards. -/
noncomputable def afterAnswer (d : AbleDevice) (req : Bytes) : AbleDevice :=
  ⟨Classical.choose (Classical.choose_spec (able_serves d.1 d.2 req)),
    (Classical.choose_spec (Classical.choose_spec (able_serves d.1 d.2 req))).2.2⟩

theorem answer_serves (d : AbleDevice) (req : Bytes) : Serves d.1 req (answer d req) (afterAnswer d req).1 :=
  (Classical.choose_spec (Classical.choose_spec (able_serves d.1 d.2 req))).1

theorem answer_short (d : AbleDevice) (req : Bytes) : (answer d req).length ≤ 4096 :=
  (Classical.choose_spec (Classical.choose_spec (able_serves d.1 d.2 req))).2.1

/-- The device after a request for which no answer was awaited, if there is one. -/
noncomputable def settle : AbleDevice × Option Bytes → AbleDevice
  | (d, none) => d
  | (d, some b) =>
    if b = request 0x66 d.1.handle [] then ⟨{ d.1 with handle := 0, conns := [] }, ⟨d.2.short, d.2.shortWrites, d.2.named⟩⟩
    else d

/-- What one event does to the device and the request it has not answered yet. -/
noncomputable def advance (st : AbleDevice × Option Bytes) : Ev → AbleDevice × Option Bytes
  | .sent .tcp b _ => (settle st, some b)
  | .received .tcp _ _ =>
    match st with
    | (d, some b) => (afterAnswer d b, none)
    | (d, none) => (d, none)
  | _ => (settle st, none)

/-- The device as a party that reacts. -/
noncomputable def deviceReaction (d : AbleDevice) : Reaction := fun past call =>
  match call, past.foldl advance (d, none) with
  | .receive .tcp, (d', some b) => ⟨false, answer d' b, 0⟩
  | _, _ => ⟨false, [], 0⟩

theorem deviceReaction_fails (d : AbleDevice) (past : List Ev) (call : SockReq) : (deviceReaction d past call).fails = false := by
  simp only [deviceReaction]
  split <;> rfl

theorem played_conforms (d : AbleDevice) {evs : List Ev} (hp : Paired evs) : ∀ {past : List Ev},
    Played (deviceReaction d) past evs → ∃ d', DeviceTrace (settle (past.foldl advance (d, none))).1 evs d' := by
  induction hp with
  | nil => intro past _; exact ⟨_, .nil _⟩
  | @exchange b data ok rest more ih =>
    intro past h
    obtain ⟨⟨c, hc⟩, ⟨c', hc'⟩, h⟩ := h
    obtain ⟨d', ih⟩ := ih h
    have e : (past ++ [Ev.sent .tcp b true]).foldl advance (d, none) = (settle (past.foldl advance (d, none)), some b) := by
      simp [advance]
    have hr : c' = .receive .tcp := by cases c' <;> simp_all [SockReq.event]
    subst hr
    have hre : deviceReaction d (past ++ [Ev.sent .tcp b true]) (.receive .tcp) =
        ⟨false, answer (settle (past.foldl advance (d, none))) b, 0⟩ := by
      simp only [deviceReaction, e]
    rw [hre] at hc'
    simp only [SockReq.event, List.take_of_length_le (answer_short _ _), Ev.received.injEq, true_and] at hc'
    obtain ⟨rfl, rfl⟩ := hc'
    refine ⟨d', .exchange (answer_serves _ _) ?_⟩
    have e2 : settle ((past ++ [Ev.sent .tcp b true] ++ [Ev.received .tcp (answer (settle (past.foldl advance (d, none))) b)
        (!false)]).foldl advance (d, none)) = afterAnswer (settle (past.foldl advance (d, none))) b := by
      rw [List.foldl_append, e]
      rfl
    rw [e2] at ih
    exact ih
  | @other ev rest hn more ih =>
    intro past h
    obtain ⟨⟨c, hc⟩, h⟩ := h
    obtain ⟨d', ih⟩ := ih h
    have e : (past ++ [ev]).foldl advance (d, none) = advance (past.foldl advance (d, none)) ev := by simp
    rw [e] at ih
    have hf := deviceReaction_fails d past c
    refine ⟨d', ?_⟩
    cases c with
    | «open» s host port =>
      simp only [SockReq.event, hf, Bool.not_false] at hc
      subst hc
      exact .opened s host port ih
    | close s =>
      simp only [SockReq.event, hf, Bool.not_false] at hc
      subst hc
      exact .closed s ih
    | send s b =>
      simp only [SockReq.event, hf, Bool.not_false] at hc
      subst hc
      cases s with
      | tcp =>
        have es : settle (advance (past.foldl advance (d, none)) (.sent .tcp b true)) =
            settle (settle (past.foldl advance (d, none)), some b) := rfl
        rw [es, settle] at ih
        by_cases hb : b = request 0x66 (settle (past.foldl advance (d, none))).1.handle []
        · rw [if_pos hb] at ih
          subst hb
          exact .unregister ih
        · rw [if_neg hb] at ih
          exact .unanswered hb ih
      | io => exact .ioSent b true ih
    | receive s =>
      cases s with
      | tcp => exact absurd hc (hn _ _)
      | io =>
        subst hc
        exact .ioReceived _ _ ih

theorem Strategic.uses (us : List Use) : Strategic (fun w => ((), (runUses us w).2)) := by
  induction us with
  | nil => exact fun s => .done _ s fun _ _ _ => rfl
  | cons u us ih =>
    intro s
    refine (Follows.seq (f := fun _ w => ((), (runUses us w).2)) (Strategic.op u.op s) fun _ => ih).congr ?_
    intro env n trace
    have := use_op u ⟨s, env, n, trace⟩
    simp only [runUses]
    show ((), (runUses us _).2) = _
    rw [this]

theorem Pairs.uses (us : List Use) : Pairs (fun w => ((), (runUses us w).2)) := by
  induction us with
  | nil => exact .same fun _ => rfl
  | cons u us ih =>
    refine (Pairs.seq (f := fun _ w => ((), (runUses us w).2)) (Pairs.op u.op) fun _ => ih).congr ?_
    intro w
    have := use_op u w
    simp only [runUses]
    show ((), (runUses us _).2) = _
    rw [this]

/-- C91: a device that can always answer can be at the other end of any use of any session. Whatever the user does, there
is a run in which the control connection works and leads to that device, so that C91 says something about every use. -/
theorem c91_some_run (us : List Use) (s : Session) (d : Device) (able : d.Able) (trace : List Ev) (n : Nat) :
    ∃ (env : Nat → Answer) (evs : List Ev) (d' : Device),
      (runUses us ⟨s, env, n, trace⟩).2.trace = trace ++ evs ∧ DeviceTrace d evs d' := by
  obtain ⟨t, ht⟩ := Strategic.uses us s
  have : ∀ (t : Strategy Unit) (n : Nat) (trace past : List Ev), ∃ answers : List Answer, ∀ env : Nat → Answer,
      (∀ i a, answers[i]? = some a → env (n + i) = a) →
      ∃ evs, (t.exec env n trace).2.trace = trace ++ evs ∧ Played (deviceReaction ⟨d, able⟩) past evs := by
    intro t
    induction t with
    | done r s => exact fun n trace past => ⟨[], fun env _ => ⟨[], by simp [Strategy.exec], trivial⟩⟩
    | ask call next ih =>
      intro n trace past
      obtain ⟨as, h⟩ := ih (call.event (deviceReaction ⟨d, able⟩ past call)) (n + 1)
        (trace ++ [call.event (deviceReaction ⟨d, able⟩ past call)]) (past ++ [call.event (deviceReaction ⟨d, able⟩ past call)])
      refine ⟨deviceReaction ⟨d, able⟩ past call :: as, fun env he => ?_⟩
      have e0 : env n = deviceReaction ⟨d, able⟩ past call := he 0 _ rfl
      obtain ⟨evs, h1, h3⟩ := h env (fun i a hi => by
        have := he (i + 1) a hi
        rwa [show n + 1 + i = n + (i + 1) by omega])
      refine ⟨call.event (deviceReaction ⟨d, able⟩ past call) :: evs, ?_, ⟨call, rfl⟩, h3⟩
      simp only [Strategy.exec]
      rw [e0, h1, List.append_assoc]
      rfl
  obtain ⟨as, h⟩ := this t n trace []
  obtain ⟨evs, h1, h3⟩ := h (fun i => as.getD (i - n) ⟨false, [], 0⟩) (fun i a hi => by
    simp [List.getD, show n + i - n = i by omega, hi])
  rw [← ht] at h1
  obtain ⟨evs', h1', hp⟩ := Pairs.uses us ⟨s, fun i => as.getD (i - n) ⟨false, [], 0⟩, n, trace⟩
  have e : evs = evs' := by
    dsimp only at h1 h1'
    rw [h1] at h1'
    exact List.append_cancel_left h1'
  subst e
  obtain ⟨d', hd⟩ := played_conforms ⟨d, able⟩ hp h3
  exact ⟨_, evs, d', h1, hd⟩

/-- A device with one attribute that grants every connection that has a name. -/
example : Device.Able ⟨0, fun x _ _ => if x = 1 then some [5, 0] else none, fun _ _ _ bs => bs.length == 2,
    fun body => decide (18 ≤ body.length), []⟩ := by
  refine ⟨?_, ?_, ?_⟩
  · intro x y z v h
    dsimp only at h
    split at h
    · cases h
      decide
    · cases h
  · intro x y z bs h
    have : bs.length = 2 := by simpa using h
    omega
  · intro body h
    have : 18 ≤ body.length := by simpa using h
    simp only [triadOf, List.length_take, List.length_drop]
    omega

end Eip
