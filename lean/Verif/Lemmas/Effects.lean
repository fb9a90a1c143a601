import Verif.Lemmas.Ops
/-
What the calls on a session change.
-/
namespace Eip
open Spec

theorem SameButConnections.eqs {w w' : World} (h : SameButConnections w w') :
    w'.trace = w.trace ∧ w'.clock = w.clock ∧ w'.env = w.env ∧
      w'.s = { w.s with connections := w'.s.connections } := by
  rw [SameButConnections] at h
  rw [h]
  exact ⟨rfl, rfl, rfl, rfl⟩

/-- How a command changes the world, whatever its outcome. -/
theorem command_exchange (op : Op) (hc : IsCommand op) (w : World) :
    ∃ bs w1 w', (w1 = w ∨ w1 = w.bumped) ∧ Exchange w1 bs w' ∧ SameButConnections w' (op.run w).2 := by
  cases command_run op hc w with
  | unsent r hr h => rw [h]; exact ⟨[], w, w, Or.inl rfl, Exchange.refl w _, rfl⟩
  | thrown w1 bs e w' h1 rr h => rw [h]; exact ⟨bs, w1, w', h1, rr.exchange, rfl⟩
  | crashed w1 bs u w' h1 rr h => rw [h]; exact ⟨bs, w1, w', h1, rr.exchange, rfl⟩
  | answered w1 bs resp r w' w'' h1 rr h hs => rw [h]; exact ⟨bs, w1, w', h1, rr.exchange, hs⟩

theorem receiveIO_world (w : World) : ∃ ok s, (Op.run .receiveIOPacket w).2 =
    w.logS [.received .io (delivered w.env w.clock) ok] s ∧ s = { w.s with recvBuffer := s.recvBuffer } := by
  have e : Op.run .receiveIOPacket w = Session.receiveIOPacket.forget w := rfl
  rw [forget_eq] at e
  have e2 : (Op.run .receiveIOPacket w).2 = (Session.receiveIOPacket w).2 := by
    rw [e]
    rcases Session.receiveIOPacket w with ⟨(_ | _ | _), _⟩ <;> rfl
  rw [e2, receiveIO_eq]
  by_cases h : (w.env w.clock).fails = true
  · rw [if_pos h]; exact ⟨false, w.s, rfl, rfl⟩
  · rw [if_neg h]
    refine ⟨true, w.s.receiveInto (delivered w.env w.clock), ?_, rfl⟩
    rcases CPFPacket.deserialize (⟨[]⟩, .buffer ⟨delivered w.env w.clock, 0⟩) with ⟨(_ | _ | _), _, _⟩ <;> rfl

theorem sendIO_world (p : CPFPacket) (w : World) : (Op.run (.sendIOPacket p) w).2 = w ∨
    ∃ bs ok, Serializes p.obj bs ∧ (Op.run (.sendIOPacket p) w).2 = w.log [.sent .io bs ok] := by
  have e : Op.run (.sendIOPacket p) w = Session.sendIOPacket p w := rfl
  rw [e]
  rcases sendIO_total p w with ⟨bs, h⟩ | ⟨ex, h⟩ | ⟨u, h⟩
  · right
    rw [sendIO_eq h]
    by_cases hf : (w.env w.clock).fails = true
    · rw [if_pos hf]; exact ⟨bs, false, h, rfl⟩
    · rw [if_neg hf]; exact ⟨bs, true, h, rfl⟩
  · left; rw [h]
  · left; rw [h]

theorem getConnection_world (n : Nat) (w : World) : (Op.run (.getConnection n) w).2 = w := by
  have e : Op.run (.getConnection n) w = (Session.getConnection n).forget w := rfl
  rw [e, forget_eq, getConnection_eq]
  cases w.s.connections[n]? <;> rfl

/-- What every call on a session leaves alone. -/
structure Effect (w w' : World) : Prop where
  events : ∃ evs, w'.trace = w.trace ++ evs ∧ w'.clock = w.clock + evs.length
  env : w'.env = w.env
  vendor : w'.s.vendorId = w.s.vendorId
  serial : w'.s.serialNum = w.s.serialNum

theorem Effect.refl (w : World) : Effect w w := ⟨⟨[], by simp, rfl⟩, rfl, rfl, rfl⟩

theorem Effect.trans {w w' w'' : World} (h : Effect w w') (h' : Effect w' w'') : Effect w w'' := by
  obtain ⟨⟨e, h1, h2⟩, h3, h4, h5⟩ := h
  obtain ⟨⟨e', h1', h2'⟩, h3', h4', h5'⟩ := h'
  refine ⟨⟨e ++ e', by rw [h1', h1, List.append_assoc], by rw [h2', h2, List.length_append, Nat.add_assoc]⟩,
    h3'.trans h3, h4'.trans h4, h5'.trans h5⟩

theorem op_effect (op : Op) (w : World) : Effect w (op.run w).2 := by
  have cmd : IsCommand op → Effect w (op.run w).2 := by
    intro hc
    obtain ⟨bs, w1, w', h1, ex, hs⟩ := command_exchange op hc w
    obtain ⟨s1, s2, s3, s4⟩ := SameButConnections.eqs hs
    obtain ⟨evs, e1, e2, _⟩ := ex.events
    have g : w1.trace = w.trace ∧ w1.clock = w.clock ∧ w1.env = w.env ∧ w1.s.vendorId = w.s.vendorId ∧
      w1.s.serialNum = w.s.serialNum := by
      rcases h1 with rfl | rfl <;> exact ⟨rfl, rfl, rfl, rfl, rfl⟩
    refine ⟨⟨evs, by rw [s1, e1, g.1], by rw [s2, e2, g.2.1]⟩, by rw [s3, ex.env, g.2.2.1], ?_, ?_⟩
    · rw [s4, ex.keeps]; exact g.2.2.2.1
    · rw [s4, ex.keeps]; exact g.2.2.2.2
  cases op with
  | «open» h p i =>
    have hc := open_cases h p i w
    have e : Op.run (.open h p i) w = Session.open h p i w := rfl
    rw [e]
    generalize Session.open h p i w = r at hc ⊢
    cases hc <;> exact ⟨⟨_, rfl, rfl⟩, rfl, rfl, rfl⟩
  | close =>
    have hc := close_cases w
    have e : Op.run .close w = Session.close w := rfl
    rw [e]
    generalize Session.close w = r at hc ⊢
    cases hc <;> exact ⟨⟨_, rfl, rfl⟩, rfl, rfl, rfl⟩
  | getAttribute => exact cmd trivial
  | setAttribute => exact cmd trivial
  | createConnection => exact cmd trivial
  | closeConnection => exact cmd trivial
  | getConnection n => rw [getConnection_world]; exact Effect.refl w
  | receiveIOPacket =>
    obtain ⟨ok, s, h, hs⟩ := receiveIO_world w
    rw [h]
    refine ⟨⟨_, rfl, rfl⟩, rfl, ?_, ?_⟩
    · show s.vendorId = _; rw [hs]
    · show s.serialNum = _; rw [hs]
  | sendIOPacket p =>
    rcases sendIO_world p w with h | ⟨bs, ok, _, h⟩
    · rw [h]; exact Effect.refl w
    · rw [h]; exact ⟨⟨_, rfl, rfl⟩, rfl, rfl, rfl⟩

/-- Induction over a history: a relation between worlds that is reflexive, transitive and kept by every call. -/
theorem runOps_induct {R : World → World → Prop} {P : Op → Prop} (refl : ∀ w, R w w)
    (trans : ∀ a b c, R a b → R b c → R a c) (step : ∀ op w, P op → R w (op.run w).2) (ops : List Op)
    (hp : ∀ op ∈ ops, P op) (w : World) : R w (runOps ops w).1 := by
  induction ops generalizing w with
  | nil => exact refl w
  | cons op ops ih =>
    have h := step op w (hp op List.mem_cons_self)
    have ih := fun w => ih (fun o ho => hp o (List.mem_cons_of_mem _ ho)) w
    rw [runOps]
    rcases hr : op.run w with ⟨(x | e | u), w'⟩
    · rw [hr] at h; exact trans _ _ _ h (ih w')
    · rw [hr] at h; exact trans _ _ _ h (ih w')
    · rw [hr] at h; exact h

end Eip
