import Verif.Lemmas.Commands
import Verif.Spec.Ops
/-
A uniform description of the commands, and the IO calls.
-/
namespace Eip
open Spec

/-- How a command runs: it fails before anything is sent (only with improper arguments), or it is one exchange followed
by a local computation. -/
inductive CommandRun (op : Op) (w : World) : Prop
  | unsent (r : Res Unit) (hr : r ≠ .ok ()) (h : op.run w = (r, w)) (hp : ¬ Proper w.s op)
  | thrown (w1 : World) (bs : Bytes) (e : Exn) (w' : World)
      (h1 : w1 = w ∨ w1 = w.bumped) (rr : RRCases w1 bs (.throw e, w')) (h : op.run w = (.throw e, w'))
  | crashed (w1 : World) (bs : Bytes) (u : UB) (w' : World)
      (h1 : w1 = w ∨ w1 = w.bumped) (rr : RRCases w1 bs (.ub u, w')) (h : op.run w = (.ub u, w'))
  | answered (w1 : World) (bs : Bytes) (resp : RRDataResponse) (r : Res Unit) (w' w'' : World)
      (h1 : w1 = w ∨ w1 = w.bumped) (rr : RRCases w1 bs (.ok resp, w')) (h : op.run w = (r, w''))
      (hs : SameButConnections w' w'') (hc : r ≠ .ok () → w'' = w')

theorem forget_eq {σ α : Type} (p : Prog σ α) (w : σ) : p.forget w = match p w with
    | (.ok _, w') => (.ok (), w')
    | (.throw e, w') => (.throw e, w')
    | (.ub u, w') => (.ub u, w') := by
  simp only [Prog.forget, Prog.bind_def, Prog.andThen]
  rcases p w with ⟨(r | e | u), w'⟩ <;> rfl

/-- A world in which an exchange has taken place. -/
theorem rr_of_response {w : World} (bs : Bytes) {s : UInt8} {data : Bytes} (hw : Works w.env w.clock)
    (h : Response w.s.sessionId (delivered w.env (w.clock + 1)) s 0 data) :
    ∃ resp, RRCases w bs (.ok resp, w.exchanged bs) := by
  exact ⟨_, .replied hw _ (.good ⟨0, 0⟩ s [] data h)⟩

theorem command_run (op : Op) (hc : IsCommand op) (w : World) : CommandRun op w := by
  cases op with
  | «open» => exact hc.elim
  | close => exact hc.elim
  | getConnection => exact hc.elim
  | receiveIOPacket => exact hc.elim
  | sendIOPacket => exact hc.elim
  | getAttribute δ c init x y z =>
    have e : Op.run (.getAttribute δ c init x y z) w =
      match Session.getSingleAttributeSerializable c x y z (init, w) with
      | (r, (_, w')) => (r, w') := rfl
    rw [getAttr_eq] at e
    have rr := getAttr_cases x y z w
    rcases hres : Session.sendRRDataCommand 0x0E (Path.mk3 x y z) none w with ⟨(resp | ex | u), w'⟩
    · rw [hres] at rr e
      exact .answered w _ resp _ w' w' (Or.inl rfl) rr e rfl (fun _ => rfl)
    · rw [hres] at rr e
      exact .thrown w _ ex w' (Or.inl rfl) rr e
    · rw [hres] at rr e
      exact .crashed w _ u w' (Or.inl rfl) rr e
  | setAttribute x y z data =>
    have e : Op.run (.setAttribute x y z data) w = Session.setSingleAttributeSerializable x y z data w := rfl
    rw [setAttr_eq] at e
    by_cases hp : ∃ bs, EncodesOpt data bs
    · obtain ⟨bs, hd⟩ := hp
      have rr := setAttr_cases x y z hd w
      rcases hres : Session.sendRRDataCommand 0x10 (Path.mk3 x y z) data w with ⟨(resp | ex | u), w'⟩
      · rw [hres] at rr e
        exact .answered w _ resp _ w' w' (Or.inl rfl) rr e rfl (fun _ => rfl)
      · rw [hres] at rr e
        exact .thrown w _ ex w' (Or.inl rfl) rr e
      · rw [hres] at rr e
        exact .crashed w _ u w' (Or.inl rfl) rr e
    · rcases sendRR_total 0x10 (Path.mk3 x y z) data w with ⟨bs, hs, rr⟩ | ⟨ex, hres⟩ | ⟨u, hres⟩
      · rcases hres : Session.sendRRDataCommand 0x10 (Path.mk3 x y z) data w with ⟨(resp | ex | u), w'⟩
        · rw [hres] at rr e
          exact .answered w _ resp _ w' w' (Or.inl rfl) rr e rfl (fun _ => rfl)
        · rw [hres] at rr e
          exact .thrown w _ ex w' (Or.inl rfl) rr e
        · rw [hres] at rr e
          exact .crashed w _ u w' (Or.inl rfl) rr e
      · rw [hres] at e
        exact .unsent _ (by simp) e hp
      · rw [hres] at e
        exact .unsent _ (by simp) e hp
  | createConnection o t =>
    have e : Op.run (.createConnection o t) w = (Session.createConnection o t).forget w := rfl
    rw [forget_eq] at e
    have cc := create_cases w o t
    rcases hres : Session.createConnection o t w with ⟨r, w'⟩
    rw [hres] at cc e
    cases cc with
    | thrown ex _ rr => exact .thrown w.bumped _ ex _ (Or.inr rfl) rr e
    | crashed u _ rr => exact .crashed w.bumped _ u _ (Or.inr rfl) rr e
    | noData s hw hr =>
      obtain ⟨resp, rr⟩ := rr_of_response (w := w.bumped) (openBytes w.s o t) hw hr
      exact .answered w.bumped _ resp _ _ _ (Or.inr rfl) rr e rfl (fun _ => rfl)
    | short what s data hw hr =>
      obtain ⟨resp, rr⟩ := rr_of_response (w := w.bumped) (openBytes w.s o t) hw hr
      exact .answered w.bumped _ resp _ _ _ (Or.inr rfl) rr e rfl (fun _ => rfl)
    | mismatch what s data _ _ _ _ _ _ _ hw hr =>
      obtain ⟨resp, rr⟩ := rr_of_response (w := w.bumped) (openBytes w.s o t) hw hr
      exact .answered w.bumped _ resp _ _ _ (Or.inr rfl) rr e rfl (fun _ => rfl)
    | created s data _ _ _ _ hw hr =>
      obtain ⟨resp, rr⟩ := rr_of_response (w := w.bumped) (openBytes w.s o t) hw hr
      exact .answered w.bumped _ resp _ _ _ (Or.inr rfl) rr e rfl (fun h => absurd rfl h)
  | closeConnection n =>
    have e : Op.run (.closeConnection n) w = Session.closeConnection n w := rfl
    cases hn : w.s.connections[n]? with
    | none =>
      rw [closeConn_bad w n hn] at e
      refine .unsent _ (by simp) e ?_
      simpa [Proper] using hn
    | some c =>
      have cc := closeConn_cases w n c hn
      rw [← e] at cc
      rcases hres : Op.run (.closeConnection n) w with ⟨r, w'⟩
      rw [hres] at cc
      cases cc with
      | thrown ex _ rr => exact .thrown w _ ex _ (Or.inl rfl) rr hres
      | crashed u _ rr => exact .crashed w _ u _ (Or.inl rfl) rr hres
      | noData s hw hr =>
        obtain ⟨resp, rr⟩ := rr_of_response (w := w) (closeBytes w.s.sessionId c) hw hr
        exact .answered w _ resp _ _ _ (Or.inl rfl) rr hres rfl (fun _ => rfl)
      | short what s data hw hr =>
        obtain ⟨resp, rr⟩ := rr_of_response (w := w) (closeBytes w.s.sessionId c) hw hr
        exact .answered w _ resp _ _ _ (Or.inl rfl) rr hres rfl (fun _ => rfl)
      | mismatch what s data _ _ _ hw hr =>
        obtain ⟨resp, rr⟩ := rr_of_response (w := w) (closeBytes w.s.sessionId c) hw hr
        exact .answered w _ resp _ _ _ (Or.inl rfl) rr hres rfl (fun _ => rfl)
      | closed s data hw hr =>
        obtain ⟨resp, rr⟩ := rr_of_response (w := w) (closeBytes w.s.sessionId c) hw hr
        exact .answered w _ resp _ _ _ (Or.inl rfl) rr hres rfl (fun h => absurd rfl h)

/-- What a successful `createConnection` means. -/
theorem create_ok {w w' : World} {o t : ConnectionInfo} {i : Int} (h : Session.createConnection o t w = (.ok i, w')) :
    ∃ s data oToT tToO oApi tApi, Works w.env w.clock ∧
      Response w.s.sessionId (delivered w.env (w.clock + 1)) s 0 data ∧
      OpenReply data oToT tToO w.s.nextConnectionSn w.s.vendorId w.s.serialNum oApi tApi ∧
      i = sizeToInt (sizeSub (w.s.connections.length + 1) 1) ∧
      w' = (w.bumped.exchanged (openBytes w.s o t)).addConnection (w.s.opened o t oToT tToO oApi tApi) := by
  have cc := create_cases w o t
  rw [h] at cc
  generalize he : ((Res.ok i, w') : Res Int × World) = r at cc
  cases cc with
  | thrown e w'' rr => exact absurd (congrArg Prod.fst he) (by simp)
  | crashed u w'' rr => exact absurd (congrArg Prod.fst he) (by simp)
  | noData s hw hr => exact absurd (congrArg Prod.fst he) (by simp)
  | short what s data hw hr => exact absurd (congrArg Prod.fst he) (by simp)
  | mismatch what s data _ _ _ _ _ _ _ hw hr => exact absurd (congrArg Prod.fst he) (by simp)
  | created s data oToT tToO oApi tApi hw hr ho =>
    have h1 : (Res.ok i : Res Int) = _ := congrArg Prod.fst he
    have h2 : w' = _ := congrArg Prod.snd he
    exact ⟨s, data, oToT, tToO, oApi, tApi, hw, hr, ho, Res.ok.inj h1, h2⟩

/-! ### IO -/

theorem receiveIO_eq (w : World) : Session.receiveIOPacket w =
    if (w.env w.clock).fails then (.throw systemError, w.log [.received .io (delivered w.env w.clock) false])
    else match CPFPacket.deserialize (⟨[]⟩, .buffer ⟨delivered w.env w.clock, 0⟩) with
      | (.ok (), (p, _)) => (.ok p, w.logS [.received .io (delivered w.env w.clock) true]
          (w.s.receiveInto (delivered w.env w.clock)))
      | (.throw e, _) => (.throw e, w.logS [.received .io (delivered w.env w.clock) true]
          (w.s.receiveInto (delivered w.env w.clock)))
      | (.ub u, _) => (.ub u, w.logS [.received .io (delivered w.env w.clock) true]
          (w.s.receiveInto (delivered w.env w.clock))) := by
  rw [Session.receiveIOPacket]
  have e := sockReceive_eq .io w
  by_cases h : (w.env w.clock).fails = true
  · rw [if_pos h] at e
    rw [if_pos h, Prog.bind_throw e]
    rfl
  · rw [if_neg h] at e
    rw [if_neg h, Prog.bind_ok e]
    simp only [Session.onLocal, BufferReader.new]
    rcases CPFPacket.deserialize (⟨[]⟩, .buffer ⟨delivered w.env w.clock, 0⟩) with ⟨(_ | _ | _), _, _⟩ <;> rfl

theorem sendIO_eq {p : CPFPacket} {bs : Bytes} (h : Serializes p.obj bs) (w : World) : Session.sendIOPacket p w =
    if (w.env w.clock).fails then (.throw systemError, w.log [.sent .io bs false])
    else (.ok (), w.log [.sent .io bs true]) := by
  rw [Session.sendIOPacket]
  have e := sockSend_eq h .io w
  by_cases hf : (w.env w.clock).fails = true
  · rw [if_pos hf] at e
    rw [if_pos hf, Prog.bind_throw e]
    rfl
  · rw [if_neg hf] at e
    rw [if_neg hf, Prog.bind_ok e]
    rfl

theorem sendIO_total (p : CPFPacket) (w : World) :
    (∃ bs, Serializes p.obj bs) ∨ (∃ e, Session.sendIOPacket p w = (.throw e, w)) ∨
      (∃ u, Session.sendIOPacket p w = (.ub u, w)) := by
  rcases serialize_cases p.obj with h | ⟨e, h⟩ | ⟨u, h⟩
  · exact Or.inl h
  · right; left
    refine ⟨e, ?_⟩
    rw [Session.sendIOPacket]
    refine Prog.bind_throw ?_
    rw [sockSend]
    exact Prog.bind_throw (h w)
  · right; right
    refine ⟨u, ?_⟩
    rw [Session.sendIOPacket]
    refine Prog.bind_ub ?_
    rw [sockSend]
    exact Prog.bind_ub (h w)

theorem getConnection_eq (n : Nat) (w : World) : Session.getConnection n w =
    match w.s.connections[n]? with
    | none => (.ub .indexOutOfRange, w)
    | some c => (.ok c, w) := by
  rw [Session.getConnection]
  have : (Prog.get : Prog World World) w = (.ok w, w) := rfl
  rw [Prog.bind_ok this]
  cases w.s.connections[n]? <;> rfl

end Eip
