import Verif.Lemmas.Rpc
import Verif.Spec.Transport
/-
Executions of several callers on one session.
-/
namespace Eip
open Spec

theorem parseReply_takes (req : EncapPacket) (m : Nat) (w : World) :
    ∃ r, Session.parseReply req m w = (r, w) ∧
      Takes w.s.sessionId req.header.command (w.s.recvBuffer.take m) r := by
  have e0 : Session.parseReply req m w = (do
      let result ← Session.parsePacket (w.s.recvBuffer.take m)
      Session.checkPacket result req.header.command
      pure result : Prog World EncapPacket) w := rfl
  rw [e0]
  rcases parsePacket_cases (w.s.recvBuffer.take m) w with ⟨h, payload, tail, hl, e⟩ | ⟨what, e⟩
  · have e' := parsePacket_ok w h tail hl
    rw [← e] at e'
    rw [Prog.bind_ok e']
    by_cases hc : h.command = req.header.command ∧ Acceptable w.s.sessionId h.sessionHandle
    · rw [Prog.bind_ok (checkPacket_ok (p := ⟨h, rawData payload⟩) hc.1 hc.2)]
      exact ⟨_, rfl, .accepted h payload tail hc.1 hc.2 hl e⟩
    · obtain ⟨what, e2⟩ := checkPacket_throw (p := ⟨h, rawData payload⟩) (w := w) hc
      rw [Prog.bind_throw e2]
      refine ⟨_, rfl, .refused _ (.inr rfl) ?_⟩
      rintro ⟨handle, payload', hp, ha⟩
      have := Packet.unique hp ⟨h, tail, rfl, rfl, hl.symm, e⟩
      exact hc ⟨this.1.symm, this.2.1 ▸ ha⟩
  · rw [Prog.bind_throw e]
    refine ⟨_, rfl, .refused _ (.inl rfl) ?_⟩
    rintro ⟨handle, payload', ⟨h, tail, -, -, hl, hb⟩, -⟩
    have := parsePacket_ok w h tail hl.symm
    rw [← hb, e] at this
    cases this

/-- What a step does. -/
inductive StepCases (device : Bytes → Bytes) (i : Nat) (n : Net) : Act → Net → Prop
  | send (req : EncapPacket) (rest : List EncapPacket) (bs : Bytes) (hs : (n.callers i).stage = .idle)
      (ht : (n.callers i).todo = req :: rest) (hb : Serializes req.obj bs) (w' : World) (hw : w'.s = n.w.s) :
      StepCases device i n .send ⟨w', n.stream ++ device bs, n.move i ⟨rest, .sent req⟩, n.done⟩
  | receive (k : Nat) (req : EncapPacket) (hs : (n.callers i).stage = .sent req) (h0 : 0 < k) (h1 : k ≤ 4096)
      (h2 : k ≤ n.stream.length) (w' : World) (hw : w'.s = n.w.s.receiveInto (n.stream.take k)) :
      StepCases device i n (.receive k)
        ⟨w', n.stream.drop k, n.move i ⟨(n.callers i).todo, .received req k⟩, n.done⟩
  | finish (req : EncapPacket) (m : Nat) (hs : (n.callers i).stage = .received req m) (r : Res EncapPacket)
      (hr : Takes n.w.s.sessionId req.header.command (n.w.s.recvBuffer.take m) r) :
      StepCases device i n .finish
        ⟨n.w, n.stream, n.move i ⟨(n.callers i).todo, .idle⟩, n.done ++ [(i, req, r)]⟩

theorem facing_receive (w : World) (data : Bytes) (hl : data.length ≤ 4096) :
    ∃ w', sockReceive .tcp (w.facing ⟨false, data, 0⟩) = (.ok data, w') ∧ w'.s = w.s.receiveInto data := by
  rw [sockReceive_eq, if_neg (show ¬ ((w.facing ⟨false, data, 0⟩).env (w.facing ⟨false, data, 0⟩).clock).fails = true by
    simp [World.facing])]
  have : delivered (w.facing ⟨false, data, 0⟩).env (w.facing ⟨false, data, 0⟩).clock = data :=
    List.take_of_length_le hl
  rw [this]
  exact ⟨_, rfl, rfl⟩

theorem step_cases {device : Bytes → Bytes} {i : Nat} {act : Act} {n n' : Net} (h : n.step device i act = some n') :
    StepCases device i n act n' := by
  unfold Net.step at h
  cases act with
  | send =>
    cases hs : (n.callers i).stage with
    | sent => rw [hs] at h; cases h
    | received => rw [hs] at h; cases h
    | idle =>
      rw [hs] at h
      simp only at h
      cases ht : (n.callers i).todo with
      | nil => rw [ht] at h; cases h
      | cons req rest =>
        rw [ht] at h
        simp only at h
        rcases serialize_cases req.obj with ⟨bs, hb⟩ | ⟨e, hb⟩ | ⟨u, hb⟩
        · rw [hb n.w] at h
          simp only [sockSendBuffer, Prog.bind_def, Prog.andThen, sockCall_eq, World.facing] at h
          simp only [Prog.pure_apply, Bool.false_eq_true, if_false, Option.some.injEq] at h
          rw [← h]
          exact .send req rest bs hs ht hb _ rfl
        · rw [hb n.w] at h; cases h
        · rw [hb n.w] at h; cases h
  | receive k =>
    cases hs : (n.callers i).stage with
    | idle => rw [hs] at h; cases h
    | received => rw [hs] at h; cases h
    | sent req =>
      rw [hs] at h
      simp only at h
      by_cases hk : 0 < k ∧ k ≤ recvCapacity ∧ k ≤ n.stream.length
      · rw [if_pos hk] at h
        have hl : (n.stream.take k).length = k := by rw [List.length_take]; omega
        obtain ⟨w', e, hw⟩ := facing_receive n.w (n.stream.take k) (by rw [hl]; exact hk.2.1)
        rw [e] at h
        simp only [Option.some.injEq] at h
        rw [← h, hl]
        exact .receive k req hs hk.1 hk.2.1 hk.2.2 w' hw
      · rw [if_neg hk] at h; cases h
  | finish =>
    cases hs : (n.callers i).stage with
    | idle => rw [hs] at h; cases h
    | sent => rw [hs] at h; cases h
    | received req m =>
      rw [hs] at h
      simp only at h
      obtain ⟨r, e, hr⟩ := parseReply_takes req m n.w
      rw [e] at h
      simp only [Option.some.injEq] at h
      rw [← h]
      exact .finish req m hs r hr

/-! ### The other direction: steps that are possible -/

theorem step_send {device : Bytes → Bytes} {i : Nat} {n : Net} {req : EncapPacket} {rest : List EncapPacket} {bs : Bytes}
    (hs : (n.callers i).stage = .idle) (ht : (n.callers i).todo = req :: rest) (hb : Serializes req.obj bs) :
    ∃ w', w'.s = n.w.s ∧ n.step device i .send =
      some ⟨w', n.stream ++ device bs, n.move i ⟨rest, .sent req⟩, n.done⟩ := by
  unfold Net.step
  rw [hs]
  simp only
  rw [ht]
  simp only
  rw [hb n.w]
  refine ⟨(n.w.facing ⟨false, [], bs.length⟩).after (.sent .tcp bs true), rfl, ?_⟩
  simp only [sockSendBuffer, Prog.bind_def, Prog.andThen, sockCall_eq, World.facing]
  rfl

theorem step_receive {device : Bytes → Bytes} {i k : Nat} {n : Net} {req : EncapPacket}
    (hs : (n.callers i).stage = .sent req) (h0 : 0 < k) (h1 : k ≤ 4096) (h2 : k ≤ n.stream.length) :
    ∃ w', w'.s = n.w.s.receiveInto (n.stream.take k) ∧ n.step device i (.receive k) =
      some ⟨w', n.stream.drop k, n.move i ⟨(n.callers i).todo, .received req k⟩, n.done⟩ := by
  unfold Net.step
  rw [hs]
  simp only
  have hl : (n.stream.take k).length = k := by rw [List.length_take]; omega
  obtain ⟨w', e, hw⟩ := facing_receive n.w (n.stream.take k) (by rw [hl]; exact h1)
  rw [if_pos ⟨h0, h1, h2⟩, e]
  simp only [hl]
  exact ⟨w', hw, rfl⟩

theorem step_finish {device : Bytes → Bytes} {i m : Nat} {n : Net} {req : EncapPacket}
    (hs : (n.callers i).stage = .received req m) :
    ∃ r, Takes n.w.s.sessionId req.header.command (n.w.s.recvBuffer.take m) r ∧ n.step device i .finish =
      some ⟨n.w, n.stream, n.move i ⟨(n.callers i).todo, .idle⟩, n.done ++ [(i, req, r)]⟩ := by
  unfold Net.step
  rw [hs]
  simp only
  obtain ⟨r, e, hr⟩ := parseReply_takes req m n.w
  rw [e]
  exact ⟨r, hr, rfl⟩

theorem move_self (n : Net) (i : Nat) (c : Caller) : n.move i c i = c := by simp [Net.move]
theorem move_other (n : Net) {i j : Nat} (c : Caller) (h : j ≠ i) : n.move i c j = n.callers j := by simp [Net.move, h]

/-- What a possible step leaves behind. -/
structure After (n n' : Net) (i : Nat) (c : Caller) (s : Session) (stream : Bytes)
    (done : List (Nat × EncapPacket × Res EncapPacket)) : Prop where
  session : n'.w.s = s
  stream : n'.stream = stream
  self : n'.callers i = c
  others : ∀ j, j ≠ i → n'.callers j = n.callers j
  done : n'.done = done

theorem can_send (device : Bytes → Bytes) {i : Nat} {n : Net} {req : EncapPacket} {rest : List EncapPacket} {bs : Bytes}
    (hc : n.callers i = ⟨req :: rest, .idle⟩) (hb : Serializes req.obj bs) :
    ∃ n', n.step device i .send = some n' ∧
      After n n' i ⟨rest, .sent req⟩ n.w.s (n.stream ++ device bs) n.done := by
  obtain ⟨w', hw, e⟩ := step_send (device := device) (congrArg Caller.stage hc) (congrArg Caller.todo hc) hb
  exact ⟨_, e, hw, rfl, move_self _ _ _, fun j hj => move_other _ _ hj, rfl⟩

theorem can_receive (device : Bytes → Bytes) {i : Nat} (k : Nat) {n : Net} {req : EncapPacket} {rest : List EncapPacket}
    (hc : n.callers i = ⟨rest, .sent req⟩) (h0 : 0 < k) (h1 : k ≤ 4096) (h2 : k ≤ n.stream.length) :
    ∃ n', n.step device i (.receive k) = some n' ∧
      After n n' i ⟨rest, .received req k⟩ (n.w.s.receiveInto (n.stream.take k)) (n.stream.drop k) n.done := by
  obtain ⟨w', hw, e⟩ := step_receive (device := device) (congrArg Caller.stage hc) h0 h1 h2
  exact ⟨_, e, hw, rfl, (move_self _ _ _).trans (by rw [hc]), fun j hj => move_other _ _ hj, rfl⟩

theorem can_finish (device : Bytes → Bytes) {i m : Nat} {n : Net} {req : EncapPacket} {rest : List EncapPacket}
    (hc : n.callers i = ⟨rest, .received req m⟩) :
    ∃ n' r, n.step device i .finish = some n' ∧
      Takes n.w.s.sessionId req.header.command (n.w.s.recvBuffer.take m) r ∧
      After n n' i ⟨rest, .idle⟩ n.w.s n.stream (n.done ++ [(i, req, r)]) := by
  obtain ⟨r, hr, e⟩ := step_finish (device := device) (congrArg Caller.stage hc)
  exact ⟨_, r, e, hr, rfl, rfl, (move_self _ _ _).trans (by rw [hc]), fun j hj => move_other _ _ hj, rfl⟩

theorem steps_cons {device : Bytes → Bytes} {i : Nat} {act : Act} {n n' : Net} (e : n.step device i act = some n')
    (rest : List (Nat × Act)) : n.steps device ((i, act) :: rest) = n'.steps device rest := by
  simp only [Net.steps, e]

/-! ### One at a time -/

/-- What is under way in a serial execution: the replies sent minus the bytes received so far are the stream. `W` says
that replies arrive whole. -/
inductive Current (device : Bytes → Bytes) (W : Prop) (n : Net) (got asked : Bytes) : Prop
  | idle (hi : ∀ j, (n.callers j).stage = .idle) (hs : got ++ n.stream = asked) (hw : W → n.stream = [])
  | sent (i : Nat) (req : EncapPacket) (bs : Bytes) (hi : ∀ j, j ≠ i → (n.callers j).stage = .idle)
      (hc : (n.callers i).stage = .sent req) (hb : Serializes req.obj bs) (hs : got ++ n.stream = asked ++ device bs)
      (hw : W → n.stream = device bs)
  | received (i : Nat) (req : EncapPacket) (m : Nat) (bs : Bytes) (hi : ∀ j, j ≠ i → (n.callers j).stage = .idle)
      (hc : (n.callers i).stage = .received req m) (hb : Serializes req.obj bs)
      (hne : n.w.s.recvBuffer.take m ≠ []) (h4 : (n.w.s.recvBuffer.take m).length ≤ 4096)
      (hs : got ++ n.w.s.recvBuffer.take m ++ n.stream = asked ++ device bs)
      (hw : W → n.stream = [] ∧ n.w.s.recvBuffer.take m = device bs)

/-- The history of a serial execution. -/
structure SerialHistory (device : Bytes → Bytes) (id : UInt32) (W : Prop) (n : Net) (past : List Round) : Prop where
  session : n.w.s.sessionId = id
  done : n.done = past.map (fun x => (x.caller, x.req, x.result))
  each : ∀ x ∈ past, Serializes x.req.obj x.request ∧ x.received ≠ [] ∧ x.received.length ≤ 4096 ∧
    Takes id x.req.header.command x.received x.result
  whole : W → ∀ x ∈ past, x.received = device x.request
  current : Current device W n (past.map (·.received)).flatten (past.map (fun x => device x.request)).flatten

theorem take_receiveInto (s : Session) (data : Bytes) : (s.receiveInto data).recvBuffer.take data.length = data := by
  simp [Session.receiveInto]

theorem SerialHistory.step {device : Bytes → Bytes} {id : UInt32} {W : Prop} {n n' : Net} {past : List Round} {i : Nat}
    {act : Act} (h : SerialHistory device id W n past) (hstep : n.step device i act = some n')
    (h1 : act = .send → ∀ j, (n.callers j).stage = .idle) (h2 : W → ∀ k, act = .receive k → k = n.stream.length) :
    ∃ more, SerialHistory device id W n' (past ++ more) := by
  have sc := step_cases hstep
  clear hstep
  cases sc with
  | send req rest bs hs ht hb w' hw =>
    refine ⟨[], ?_⟩
    rw [List.append_nil]
    refine ⟨by rw [← h.session]; exact congrArg Session.sessionId hw, h.done, h.each, h.whole, ?_⟩
    have hc := h.current
    cases hc with
    | idle hi hst hw' =>
      refine .sent i req bs (fun j hj => ?_) ?_ hb ?_ (fun hW => ?_)
      · show (n.move i _ j).stage = _; rw [move_other n _ hj]; exact hi j
      · show (n.move i _ i).stage = _; rw [move_self]
      · show _ ++ (n.stream ++ device bs) = _; rw [← List.append_assoc, hst]
      · show n.stream ++ device bs = _; rw [hw' hW]; rfl
    | sent j req' bs' hi hc => have := h1 rfl j; rw [hc] at this; cases this
    | received j req' m bs' hi hc => have := h1 rfl j; rw [hc] at this; cases this
  | receive k req hs h0 h4 hk w' hw =>
    refine ⟨[], ?_⟩
    rw [List.append_nil]
    refine ⟨by show w'.s.sessionId = id; rw [hw]; exact h.session, h.done, h.each, h.whole, ?_⟩
    have hl : (n.stream.take k).length = k := by rw [List.length_take]; omega
    have ht : w'.s.recvBuffer.take k = n.stream.take k := by
      rw [hw]
      have := take_receiveInto n.w.s (n.stream.take k)
      rwa [hl] at this
    have hc := h.current
    cases hc with
    | idle hi => have := hi i; rw [hs] at this; cases this
    | sent j req' bs hi hc hb hst hw' =>
      have hji : j = i := Classical.byContradiction (fun hne => by
        have := hi i (Ne.symm hne); rw [hs] at this; cases this)
      subst hji
      have hreq : req = req' := by rw [hs] at hc; cases hc; rfl
      subst hreq
      refine .received j req k bs (fun j' hj => ?_) ?_ hb ?_ ?_ ?_ (fun hW => ?_)
      · show (n.move j _ j').stage = _; rw [move_other n _ hj]; exact hi j' hj
      · show (n.move j _ j).stage = _; rw [move_self]
      · show w'.s.recvBuffer.take k ≠ []; rw [ht]; intro e; rw [e] at hl; simp at hl; omega
      · show (w'.s.recvBuffer.take k).length ≤ _; rw [ht, hl]; exact h4
      · show _ ++ w'.s.recvBuffer.take k ++ n.stream.drop k = _
        rw [ht, List.append_assoc, List.take_append_drop]; exact hst
      · have hk := h2 hW k rfl
        subst hk
        constructor
        · show n.stream.drop n.stream.length = []; simp
        · show w'.s.recvBuffer.take n.stream.length = _; rw [ht, List.take_length]; exact hw' hW
    | received j req' m bs hi hc =>
      by_cases hji : i = j
      · subst hji; rw [hs] at hc; cases hc
      · have := hi i hji; rw [hs] at this; cases this
  | finish req m hs r hr =>
    have hc := h.current
    cases hc with
    | idle hi => have := hi i; rw [hs] at this; cases this
    | sent j req' bs hi hc =>
      by_cases hji : i = j
      · subst hji; rw [hs] at hc; cases hc
      · have := hi i hji; rw [hs] at this; cases this
    | received j req' m' bs hi hc hb hne h4 hst hw' =>
      have hji : j = i := Classical.byContradiction (fun hne => by
        have := hi i (Ne.symm hne); rw [hs] at this; cases this)
      subst hji
      rw [hs] at hc
      cases hc
      refine ⟨[⟨j, req, bs, n.w.s.recvBuffer.take m, r⟩], h.session, ?_, ?_, ?_, ?_⟩
      · simp [h.done]
      · intro x hx
        rcases List.mem_append.1 hx with hx | hx
        · exact h.each x hx
        · rw [List.mem_singleton.1 hx]
          exact ⟨hb, hne, h4, h.session ▸ hr⟩
      · intro hW x hx
        rcases List.mem_append.1 hx with hx | hx
        · exact h.whole hW x hx
        · rw [List.mem_singleton.1 hx]
          exact (hw' hW).2
      · refine .idle (fun j' => ?_) ?_ (fun hW => (hw' hW).1)
        · show (n.move j _ j').stage = _
          by_cases hj : j' = j
          · subst hj; rw [move_self]
          · rw [move_other n _ hj]; exact hi j' hj
        · simpa using hst

theorem SerialHistory.start (device : Bytes → Bytes) (W : Prop) (w : World) (todo : Nat → List EncapPacket) :
    SerialHistory device w.s.sessionId W (Net.start w todo) [] :=
  ⟨rfl, rfl, fun _ h => (nomatch h), fun _ _ h => (nomatch h), .idle (fun _ => rfl) rfl (fun _ => rfl)⟩

theorem SerialHistory.steps {device : Bytes → Bytes} {id : UInt32} {W : Prop} {schedule : List (Nat × Act)} {n n' : Net}
    {past : List Round} (h : SerialHistory device id W n past) (hs : n.steps device schedule = some n')
    (h1 : OneAtATime device schedule n) (h2 : W → ArrivesWhole device schedule n) :
    ∃ more, SerialHistory device id W n' (past ++ more) := by
  induction schedule generalizing n past with
  | nil =>
    simp only [Net.steps, Option.some.injEq] at hs
    subst hs
    exact ⟨[], by rw [List.append_nil]; exact h⟩
  | cons a rest ih =>
    obtain ⟨i, act⟩ := a
    simp only [Net.steps] at hs
    cases hn : n.step device i act with
    | none => rw [hn] at hs; cases hs
    | some n1 =>
      rw [hn] at hs
      obtain ⟨more, h'⟩ := h.step hn h1.1 (fun hW => (h2 hW).1)
      obtain ⟨more', h''⟩ := ih h' hs (h1.2 n1 hn) (fun hW => (h2 hW).2 n1 hn)
      exact ⟨more ++ more', by rw [← List.append_assoc]; exact h''⟩

/-! ### The steps are those of `sendCommand` -/

theorem parsePacket_res (bytes : Bytes) {σ τ : Type} (w : σ) (w' : τ) :
    (Session.parsePacket bytes w).1 = (Session.parsePacket bytes w').1 ∧ (Session.parsePacket bytes w).2 = w := by
  unfold Session.parsePacket
  rcases EncapPacket.deserialize (EncapPacket.new, .buffer (BufferReader.new bytes)) with ⟨(_ | _ | _), _, _⟩ <;>
    exact ⟨rfl, rfl⟩

theorem checkPacket_res (p : EncapPacket) (cmd : UInt16) {w w' : World} (h : w.s.sessionId = w'.s.sessionId) :
    (Session.checkPacket p cmd w).1 = (Session.checkPacket p cmd w').1 ∧ (Session.checkPacket p cmd w).2 = w := by
  simp only [Session.checkPacket, Prog.bind_def, Prog.andThen, Prog.get, h]
  split
  · exact ⟨rfl, rfl⟩
  · split
    · exact ⟨rfl, rfl⟩
    · split <;> exact ⟨rfl, rfl⟩

/-- The three steps of a caller, done in a row when nothing is on its way and the reply arrives whole, are a call of
`sendCommand` whose receive delivers the reply: same result, same session, same socket calls. -/
theorem steps_sendCommand (device : Bytes → Bytes) (w : World) (i : Nat) (req : EncapPacket) (bs : Bytes)
    (hb : Serializes req.obj bs) (h0 : 0 < (device bs).length) (h1 : (device bs).length ≤ 4096) (w0 : World)
    (hw0 : w0 = { w with env := fun k => ⟨false, if k = w.clock + 1 then device bs else [], 0⟩ }) :
    ∃ n, (Net.start w (fun _ => [req])).steps device [(i, .send), (i, .receive (device bs).length), (i, .finish)] = some n ∧
      n.done = [(i, req, (Session.sendCommand req w0).1)] ∧ n.w.s = (Session.sendCommand req w0).2.s ∧
      n.w.trace = (Session.sendCommand req w0).2.trace ∧ n.stream = [] := by
  have hd : delivered w0.env (w0.clock + 1) = device bs := by
    subst hw0
    simp only [delivered, if_pos]
    exact List.take_of_length_le h1
  have E := sendCommand_eq hb w0
  rw [if_neg (by subst hw0; simp), if_neg (by subst hw0; simp), hd] at E
  have hex : w0.exchanged bs = ⟨w.s.receiveInto (device bs), w0.env, w.clock + 2,
      w.trace ++ [.sent .tcp bs true, .received .tcp (device bs) true]⟩ := by
    rw [World.exchanged, hd]; subst hw0; rfl
  -- the steps
  have e1 : (Net.start w (fun _ => [req])).step device i .send = some ⟨(w.facing ⟨false, [], bs.length⟩).after (.sent .tcp bs true),
      device bs, (Net.start w (fun _ => [req])).move i ⟨[], .sent req⟩, []⟩ := by
    unfold Net.step
    simp only [Net.start]
    rw [hb w]
    simp only [sockSendBuffer, Prog.bind_def, Prog.andThen, sockCall_eq, World.facing]
    rfl
  generalize hn1 : (Net.mk ((w.facing ⟨false, [], bs.length⟩).after (.sent .tcp bs true))
      (device bs) ((Net.start w (fun _ => [req])).move i ⟨[], .sent req⟩) []) = n1 at e1
  have c1 : n1.callers i = ⟨[], .sent req⟩ := by rw [← hn1]; exact move_self _ _ _
  have s1 : n1.stream = device bs := by rw [← hn1]
  have e2 : n1.step device i (.receive (device bs).length) = some ⟨⟨w.s.receiveInto (device bs), fun _ => ⟨false, device bs, 0⟩,
      w.clock + 2, w.trace ++ [.sent .tcp bs true, .received .tcp (device bs) true]⟩, [],
      n1.move i ⟨[], .received req (device bs).length⟩, []⟩ := by
    unfold Net.step
    rw [c1]
    simp only [s1]
    rw [if_pos ⟨h0, h1, Nat.le_refl _⟩, List.take_length]
    have hr := sockReceive_eq .tcp (n1.w.facing ⟨false, device bs, 0⟩)
    have hdd : delivered (n1.w.facing ⟨false, device bs, 0⟩).env (n1.w.facing ⟨false, device bs, 0⟩).clock = device bs :=
      List.take_of_length_le h1
    rw [if_neg (by simp [World.facing]), hdd] at hr
    rw [hr]
    subst hn1
    simp [World.after, World.facing, List.drop_length]
  generalize hn2 : (Net.mk ⟨w.s.receiveInto (device bs), fun _ => ⟨false, device bs, 0⟩,
      w.clock + 2, w.trace ++ [.sent .tcp bs true, .received .tcp (device bs) true]⟩ []
      (n1.move i ⟨[], .received req (device bs).length⟩) []) = n2 at e2
  have c2 : n2.callers i = ⟨[], .received req (device bs).length⟩ := by rw [← hn2]; exact move_self _ _ _
  have b2 : n2.w.s.recvBuffer.take (device bs).length = device bs := by rw [← hn2]; exact take_receiveInto _ _
  -- the end
  have key : (Session.parseReply req (device bs).length n2.w).1 = (Session.sendCommand req w0).1 ∧
      (Session.parseReply req (device bs).length n2.w).2 = n2.w ∧ (Session.sendCommand req w0).2 = w0.exchanged bs := by
    have er : Session.parseReply req (device bs).length n2.w = (do
        let result ← Session.parsePacket (device bs)
        Session.checkPacket result req.header.command
        pure result : Prog World EncapPacket) n2.w := by
      have : Session.parseReply req (device bs).length n2.w = (do
        let result ← Session.parsePacket (n2.w.s.recvBuffer.take (device bs).length)
        Session.checkPacket result req.header.command
        pure result : Prog World EncapPacket) n2.w := rfl
      rw [b2] at this
      exact this
    rw [er, E]
    simp only [Prog.bind_def, Prog.andThen]
    have hp := parsePacket_res (device bs) n2.w (w0.exchanged bs)
    have hp' := parsePacket_res (device bs) (w0.exchanged bs) n2.w
    generalize Session.parsePacket (device bs) n2.w = x at hp hp'
    generalize Session.parsePacket (device bs) (w0.exchanged bs) = y at hp hp'
    obtain ⟨x1, x2⟩ := x
    obtain ⟨y1, y2⟩ := y
    obtain ⟨hp1, hp2⟩ := hp
    obtain ⟨-, hp3⟩ := hp'
    simp only at hp1 hp2 hp3
    subst hp1 hp2 hp3
    cases x1 with
    | throw e => exact ⟨rfl, rfl, rfl⟩
    | ub u => exact ⟨rfl, rfl, rfl⟩
    | ok p =>
      simp only
      have hid : n2.w.s.sessionId = (w0.exchanged bs).s.sessionId := by rw [hex, ← hn2]
      have hc := checkPacket_res p req.header.command hid
      have hc' := checkPacket_res p req.header.command hid.symm
      generalize Session.checkPacket p req.header.command n2.w = x at hc hc'
      generalize Session.checkPacket p req.header.command (w0.exchanged bs) = y at hc hc'
      obtain ⟨x1, x2⟩ := x
      obtain ⟨y1, y2⟩ := y
      obtain ⟨hp1, hp2⟩ := hc
      obtain ⟨-, hp3⟩ := hc'
      simp only at hp1 hp2 hp3
      subst hp1 hp2 hp3
      cases x1 <;> exact ⟨rfl, rfl, rfl⟩
  have e3 : n2.step device i .finish = some ⟨n2.w, [], n2.move i ⟨[], .idle⟩, [(i, req, (Session.sendCommand req w0).1)]⟩ := by
    unfold Net.step
    rw [c2]
    simp only
    rw [key.1, key.2.1]
    simp only [← hn2]
    rfl
  refine ⟨_, by rw [steps_cons e1, steps_cons e2, steps_cons e3]; rfl, rfl, ?_, ?_, rfl⟩
  · rw [key.2.2, hex, ← hn2]
  · rw [key.2.2, hex, ← hn2]

end Eip
