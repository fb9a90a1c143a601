import Verif.Spec.TestSocket
/-
C78, C81: the fake socket of the tests.
-/
namespace Eip
open Spec

/-- The first `txCount` bytes of the array. -/
def TestSocket.recorded (s : TestSocket) : Bytes := s.txBuffer.take s.txCount

theorem send_recorded (s : TestSocket) (acc b : Bytes) (hm : s.txBuffer.length = 4096)
    (hr : s.recorded = acc.take 4096) (hc : s.txCount = min acc.length 4096) :
    (s.send b).2.txBuffer.length = 4096 ∧ (s.send b).2.recorded = (acc ++ b).take 4096 ∧
    (s.send b).2.txCount = min (acc ++ b).length 4096 ∧ (s.send b).1 = min b.length (4096 - s.txCount) := by
  have hle : s.txCount ≤ 4096 := by omega
  have e1 : min s.txCount s.txBuffer.length = s.txCount := by omega
  have e2 : (s.send b).1 = min b.length (4096 - s.txCount) := by
    simp only [TestSocket.send, TestSocket.copyAt, hm]
    omega
  have e3 : (s.send b).2.txCount = s.txCount + min b.length (4096 - s.txCount) := by rw [← e2]; rfl
  have hn : min (s.txBuffer.length - s.txCount) b.length = min b.length (4096 - s.txCount) := by omega
  have e4 : (s.send b).2.txBuffer = s.recorded ++ b.take (min b.length (4096 - s.txCount)) ++
      s.txBuffer.drop (s.txCount + min b.length (4096 - s.txCount)) := by
    simp only [TestSocket.send, TestSocket.copyAt, e1, hn]
    rfl
  have hlen : s.recorded.length = s.txCount := by rw [TestSocket.recorded, List.length_take]; omega
  have hpre : (s.recorded ++ b.take (min b.length (4096 - s.txCount))).length =
      s.txCount + min b.length (4096 - s.txCount) := by
    rw [List.length_append, hlen, List.length_take]; omega
  refine ⟨?_, ?_, ?_, e2⟩
  · rw [e4, List.length_append, hpre, List.length_drop]; omega
  · rw [TestSocket.recorded, e3, e4, ← hpre, List.take_left, hr, List.take_append]
    congr 1
    rw [hc]
    by_cases h : acc.length ≤ 4096
    · rw [Nat.min_eq_left h, Nat.min_comm, ← List.take_take, List.take_length]
    · have h1 : 4096 - acc.length = 0 := by omega
      have h2 : min b.length (4096 - min acc.length 4096) = 0 := by omega
      rw [h1, h2]
  · rw [e3, hc, List.length_append]; omega

/-- C78. Whatever is sent and received in whatever order, the socket records the concatenation of everything sent since
the last clear, up to 4096 bytes. -/
theorem c78_sent (cs : List TestCall) (mem rx : Bytes) (hm : mem.length = 4096) :
    ((TestSocket.new mem rx).calls cs).2.txBuffer.take ((TestSocket.new mem rx).calls cs).2.txCount =
      (sentSinceClear [] cs).take 4096 := by
  have key : ∀ (cs : List TestCall) (s : TestSocket) (acc : Bytes), s.txBuffer.length = 4096 →
      s.recorded = acc.take 4096 → s.txCount = min acc.length 4096 →
      (s.calls cs).2.recorded = (sentSinceClear acc cs).take 4096 := by
    intro cs
    induction cs with
    | nil => intro s acc _ h _; exact h
    | cons c cs ih =>
      intro s acc h1 h2 h3
      cases c with
      | send b =>
        obtain ⟨g1, g2, g3, -⟩ := send_recorded s acc b h1 h2 h3
        exact ih _ _ g1 g2 g3
      | clear =>
        refine ih s.clear [] ?_ ?_ ?_
        · simp [TestSocket.clear, h1]
        · simp [TestSocket.clear, TestSocket.recorded]
        · simp [TestSocket.clear]
      | «open» h p => exact ih _ _ h1 h2 h3
      | close => exact ih _ _ h1 h2 h3
      | receive n => exact ih _ _ h1 h2 h3
      | script b => exact ih _ _ h1 h2 h3
  exact key cs _ [] hm rfl rfl

/-- C78. Each send reports how many of its bytes were recorded: all of them, or as many as there was room for. -/
theorem c78_send_count (cs : List TestCall) (mem rx b : Bytes) (hm : mem.length = 4096) :
    (((TestSocket.new mem rx).calls cs).2.send b).1 = min b.length (4096 - min (sentSinceClear [] cs).length 4096) := by
  have key : ∀ (cs : List TestCall) (s : TestSocket) (acc : Bytes), s.txBuffer.length = 4096 →
      s.recorded = acc.take 4096 → s.txCount = min acc.length 4096 →
      ((s.calls cs).2.send b).1 = min b.length (4096 - min (sentSinceClear acc cs).length 4096) := by
    intro cs
    induction cs with
    | nil =>
      intro s acc h1 h2 h3
      have := (send_recorded s acc b h1 h2 h3).2.2.2
      rw [h3] at this
      exact this
    | cons c cs ih =>
      intro s acc h1 h2 h3
      cases c with
      | send b =>
        obtain ⟨g1, g2, g3, -⟩ := send_recorded s acc b h1 h2 h3
        exact ih _ _ g1 g2 g3
      | clear =>
        refine ih s.clear [] ?_ ?_ ?_
        · simp [TestSocket.clear, h1]
        · simp [TestSocket.clear, TestSocket.recorded]
        · simp [TestSocket.clear]
      | «open» h p => exact ih _ _ h1 h2 h3
      | close => exact ih _ _ h1 h2 h3
      | receive n => exact ih _ _ h1 h2 h3
      | script b => exact ih _ _ h1 h2 h3
  exact key cs _ [] hm rfl rfl

/-- C78. The receives return the scripted bytes in order, each at most the requested number. -/
theorem c78_received (cs : List TestCall) (mem rx : Bytes) (same : ∀ c ∈ cs, keepsScript c) :
    ((TestSocket.new mem rx).calls cs).1 = pieces rx (cs.map requested) ∧
    (((TestSocket.new mem rx).calls cs).1).flatten ++ ((TestSocket.new mem rx).calls cs).2.rx = rx ∧
    ((TestSocket.new mem rx).calls cs).2.rxCount = ((TestSocket.new mem rx).calls cs).1.flatten.length := by
  have key : ∀ (cs : List TestCall) (s : TestSocket), (∀ c ∈ cs, keepsScript c) →
      (s.calls cs).1 = pieces s.rx (cs.map requested) ∧ ((s.calls cs).1).flatten ++ (s.calls cs).2.rx = s.rx ∧
      (s.calls cs).2.rxCount = s.rxCount + (s.calls cs).1.flatten.length := by
    intro cs
    induction cs with
    | nil => intro s _; exact ⟨rfl, rfl, rfl⟩
    | cons c cs ih =>
      intro s h
      obtain ⟨i1, i2, i3⟩ := ih (s.call c).2 (fun c hc => h c (List.mem_cons_of_mem _ hc))
      have hc := h c (List.mem_cons_self ..)
      have step : (s.call c).1 = s.rx.take (requested c) ∧ (s.call c).2.rx = s.rx.drop (requested c) ∧
          (s.call c).2.rxCount = s.rxCount + (s.call c).1.length := by
        cases c with
        | receive n =>
          simp only [TestSocket.call, TestSocket.receive, requested]
          refine ⟨?_, ?_, ?_⟩
          · rw [← List.take_take, List.take_length]
          · by_cases hn : n ≤ s.rx.length
            · rw [Nat.min_eq_left hn]
            · rw [Nat.min_eq_right (by omega), List.drop_length, List.drop_of_length_le (by omega)]
          · rw [List.length_take]; omega
        | script b => exact hc.elim
        | send b => exact ⟨rfl, rfl, rfl⟩
        | clear => exact ⟨rfl, rfl, rfl⟩
        | «open» h p => exact ⟨rfl, rfl, rfl⟩
        | close => exact ⟨rfl, rfl, rfl⟩
      obtain ⟨s1, s2, s3⟩ := step
      simp only [TestSocket.calls, List.map_cons, pieces, List.flatten_cons]
      refine ⟨?_, ?_, ?_⟩
      · rw [i1, s1, s2]
      · rw [List.append_assoc, i2, s1, s2, List.take_append_drop]
      · rw [i3, s3, List.length_append, Nat.add_assoc]
  have := key cs (TestSocket.new mem rx) same
  refine ⟨this.1, this.2.1, ?_⟩
  rw [this.2.2]
  exact Nat.zero_add _

/-- Two sends with a receive in between, then a receive of more than there is. -/
example : ((TestSocket.new (List.replicate 4096 0xCC) [1, 2, 3]).calls
      [.open "host" "44818", .send [7, 8], .receive 2, .send [9], .receive 10]).1 = [[], [], [1, 2], [], [3]] ∧
    (((TestSocket.new (List.replicate 4096 0xCC) [1, 2, 3]).calls
      [.open "host" "44818", .send [7, 8], .receive 2, .send [9], .receive 10]).2.txBuffer.take 4) = [7, 8, 9, 0xCC] := by
  decide +kernel

/-- C78. A new socket is closed. Afterwards it says that it is open exactly if `open` was called and not `close` since, and
keeps the names given to the last `open`. -/
theorem c78_open (cs : List TestCall) (mem rx : Bytes) :
    (((TestSocket.new mem rx).calls cs).2.isOpen, ((TestSocket.new mem rx).calls cs).2.hostname,
      ((TestSocket.new mem rx).calls cs).2.port) = openedAs (false, "", "") cs := by
  have key : ∀ (cs : List TestCall) (s : TestSocket),
      ((s.calls cs).2.isOpen, (s.calls cs).2.hostname, (s.calls cs).2.port) = openedAs (s.isOpen, s.hostname, s.port) cs := by
    intro cs
    induction cs with
    | nil => intro s; rfl
    | cons c cs ih => intro s; cases c <;> exact ih _
  exact key cs _

/-- Opened, closed, and opened again under another name. -/
example : openedAs (false, "", "") [.open "a" "1", .send [1], .close, .open "b" "2", .receive 3] = (true, "b", "2") ∧
    openedAs (false, "", "") [.open "a" "1", .close] = (false, "a", "1") := by decide

/-! ### C81 -/

/-- C81 does not hold: `clearTxBuffer` clears only the first 8 bytes; all others keep what was sent before. -/
theorem c81_violated (s : TestSocket) (h8 : 8 ≤ s.txBuffer.length) :
    s.clear.txBuffer = List.replicate 8 0 ++ s.txBuffer.drop 8 := by
  simp only [TestSocket.clear, Nat.min_eq_left h8]

/-- A concrete case: byte 8 of the old message is still there. -/
example : ((((TestSocket.new (List.replicate 4096 0) []).send [1, 2, 3, 4, 5, 6, 7, 8, 9]).2).clear.txBuffer[8]?) =
    some 9 := by decide +kernel

/-- C81, as far as it holds: the count is reset, so nothing counts as recorded any more and the next send starts at the
beginning. Missing: the contents of the array. -/
theorem c81_count_partial (s : TestSocket) (b : Bytes) (hb : b.length ≤ s.txBuffer.length) :
    s.clear.txCount = 0 ∧ (s.clear.send b).2.txBuffer.take (s.clear.send b).2.txCount = b := by
  refine ⟨rfl, ?_⟩
  have hl : s.clear.txBuffer.length = s.txBuffer.length := by
    simp only [TestSocket.clear, List.length_append, List.length_replicate, List.length_drop]; omega
  simp only [TestSocket.send, TestSocket.copyAt, hl]
  have : min (s.txBuffer.length - min s.clear.txCount s.txBuffer.length) b.length = b.length := by
    simp only [TestSocket.clear]; omega
  rw [this]
  simp [TestSocket.clear]

end Eip
