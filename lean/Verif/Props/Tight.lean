import Verif.Lemmas.Tight
import Verif.Lemmas.Open
import Verif.Props.Connections
/-
C136: a call that runs out of memory.
-/
namespace Eip

/-- C136 (every call but `open`): when the call does not run out of memory, it returns, throws or is undefined exactly
as in a world with enough memory. When it does run out, some allocation has failed, `std::bad_alloc` comes out, the
socket calls made are the first few of those it would have made, and neither the session id nor the list of
connections has changed. Partial: that nothing has happened to the device or the sockets is false
(`c136_violated_create`, `c136_violated_remove`, `c136_violated_close`), and `open` is different (`c136_open_partial`). -/
theorem c136_call_partial (op : Op) (notOpen : ∀ host port ioPort, op ≠ .open host port ioPort) (x : TightWorld) :
    (∀ r, (op.runT x).1 = some r → op.run x.w = (r, (op.runT x).2.w)) ∧
    ((op.runT x).1 = none → false ∈ x.supply ∧
      x.w.trace <+: (op.runT x).2.w.trace ∧ (op.runT x).2.w.trace <+: (op.run x.w).2.trace ∧
      (op.runT x).2.w.s.sessionId = x.w.s.sessionId ∧ (op.runT x).2.w.s.connections = x.w.s.connections) := by
  obtain ⟨_, ⟨r, h1, h2⟩ | ⟨h1, h2, h3⟩⟩ := DoesPart.run op notOpen x
  · exact ⟨fun r' h => (by cases h1.symm.trans h; exact h2), fun h => nomatch h1.symm.trans h⟩
  · exact ⟨fun r' h => (nomatch h1.symm.trans h), fun _ => ⟨h2, h3⟩⟩

/-- A request that goes through, and one that runs out of memory before the reply is read. -/
example : ((Op.closeConnection 0).runT ⟨twoConnections, []⟩).1 = some (.ok ()) ∧
    ((Op.closeConnection 0).runT ⟨twoConnections, [true, true, true, false]⟩).1 = none ∧
    ((Op.closeConnection 0).runT ⟨twoConnections, [true, true, true, false]⟩).2.w.trace.length = 1 := by decide +kernel

/-- C136 (`open`): as for the other calls, except that `std::bad_alloc` may also come when all is done and the session
is open. Partial: a caller who gets the exception cannot tell (`c136_violated_open`). -/
theorem c136_open_partial (host port ioPort : String) (x : TightWorld) :
    (∀ r, ((Op.open host port ioPort).runT x).1 = some r →
      Session.open host port ioPort x.w = (r, ((Op.open host port ioPort).runT x).2.w)) ∧
    (((Op.open host port ioPort).runT x).1 = none → false ∈ x.supply ∧
      (Session.open host port ioPort x.w = (.ok (), ((Op.open host port ioPort).runT x).2.w) ∨
        (x.w.trace <+: ((Op.open host port ioPort).runT x).2.w.trace ∧
          ((Op.open host port ioPort).runT x).2.w.trace <+: (Session.open host port ioPort x.w).2.trace ∧
          ((Op.open host port ioPort).runT x).2.w.s.sessionId = x.w.s.sessionId ∧
          ((Op.open host port ioPort).runT x).2.w.s.connections = x.w.s.connections))) := by
  obtain ⟨_, ⟨r, h1, h2⟩ | ⟨h1, h2, h3⟩⟩ := DoesMost.open host port ioPort x
  · exact ⟨fun r' h => (by cases h1.symm.trans h; exact h2), fun h => nomatch h1.symm.trans h⟩
  · exact ⟨fun r' h => (nomatch h1.symm.trans h), fun _ => ⟨h2, h3.symm⟩⟩

/-- A device that registers the session with handle 7. -/
def registering : World := ⟨Session.new 1 2 3 4 [],
  fun _ => ⟨false, [0x65, 0, 4, 0, 7, 0, 0, 0, 0, 0, 0, 0, 0, 0, 0, 0, 0, 0, 0, 0, 0, 0, 0, 0, 1, 0, 0, 0], 0⟩, 0, []⟩

/-- An `open` that runs out of memory on the way, and one that does so when the session is open. -/
example : ((Op.open "h" "44818" "2222").runT ⟨registering, [true, false]⟩).1 = none ∧
    ((Op.open "h" "44818" "2222").runT ⟨registering, [true, false]⟩).2.w.s.sessionId = 0 ∧
    ((Op.open "h" "44818" "2222").runT ⟨registering, List.replicate 9 true ++ [false]⟩).1 = none ∧
    ((Op.open "h" "44818" "2222").runT ⟨registering, List.replicate 9 true ++ [false]⟩).2.w.s.sessionId = 7 := by
  decide +kernel

/-- C136: with enough memory every call is the call of the rest of the model, and still has enough afterwards. -/
theorem c136_enough (op : Op) (x : TightWorld) (enough : false ∉ x.supply) :
    (op.runT x).1 = some (op.run x.w).1 ∧ (op.runT x).2.w = (op.run x.w).2 ∧ false ∉ (op.runT x).2.supply := by
  obtain ⟨h0, ⟨r, h1, h2⟩ | ⟨_, h2, _⟩⟩ := DoesMost.run op x
  · rw [h2]
    exact ⟨h1, rfl, fun h => enough (h0.mem h)⟩
  · exact absurd h2 enough

/-- A call with enough memory that throws for another reason. -/
example : false ∉ (⟨answering [], [true, true]⟩ : TightWorld).supply ∧
    ((Op.setAttribute 1 2 3 none).runT ⟨answering [], [true, true]⟩).1 =
      some (.throw (runtimeError "Packet response to RR Data Command too short")) := by decide +kernel

/-- C136 (numbers): whatever allocations fail, no call but `createConnection` uses up serial numbers or connection ids.
`createConnection` has used up one serial number and two ids, or it has thrown `std::bad_alloc` before doing anything
at all: a caller who tries again never sends the same numbers twice. -/
theorem c136_numbers (op : Op) (x : TightWorld) :
    ((∀ o t, op ≠ .createConnection o t) → (op.runT x).2.w.s.nextConnectionSn = x.w.s.nextConnectionSn ∧
      (op.runT x).2.w.s.nextConnectionId = x.w.s.nextConnectionId) ∧
    (∀ o t, op = .createConnection o t → ((op.runT x).1 = none ∧ (op.runT x).2.w = x.w) ∨
      ((op.runT x).2.w.s.nextConnectionSn = x.w.s.nextConnectionSn + 1 ∧
        (op.runT x).2.w.s.nextConnectionId = x.w.s.nextConnectionId + 2)) := by
  refine ⟨fun h => ⟨(FrugalT.run op h x).1, (FrugalT.run op h x).2.1⟩, fun o t h => ?_⟩
  subst h
  rcases createT_numbers o t x with h | ⟨h1, h2, _⟩
  · exact .inl h
  · exact .inr ⟨h1, h2.trans (by rw [UInt32.add_assoc]; rfl)⟩

/-- A `createConnection` that runs out of memory when the request is sent. -/
example : ((Op.createConnection ⟨1, 2, 3⟩ ⟨4, 5, 6⟩).runT ⟨answering (openAnswer 3), [true, true, true, true, false]⟩).1 = none ∧
    ((Op.createConnection ⟨1, 2, 3⟩ ⟨4, 5, 6⟩).runT
      ⟨answering (openAnswer 3), [true, true, true, true, false]⟩).2.w.s.nextConnectionSn = 4 := by decide +kernel

/-- C136 (destructor): whatever allocations fail, the destructor does not throw. What it does to the sockets is the
first part of what `close` does, and all of it when memory suffices; nothing when the session is not open. -/
theorem c136_destroy (x : TightWorld) :
    (Session.destroyT x).1 = some (.ok ()) ∧
    (x.w.s.sessionId = 0 → (Session.destroyT x).2 = x) ∧
    (x.w.s.sessionId ≠ 0 → x.w.trace <+: (Session.destroyT x).2.w.trace ∧
      (Session.destroyT x).2.w.trace <+: (Session.close x.w).2.trace ∧
      (false ∉ x.supply → (Session.destroyT x).2.w = (Session.close x.w).2)) := by
  unfold Session.destroyT
  by_cases h : x.w.s.sessionId ≠ 0
  · rw [if_pos h]
    have hc := close_cases x.w
    obtain ⟨_, ⟨r, h1, h2⟩ | ⟨h1, h2, h3⟩⟩ := DoesPart.close x
    · rcases e : Session.closeT x with ⟨o, x'⟩
      rw [e] at h1 h2
      dsimp only at h1 h2
      subst h1
      rw [h2] at hc ⊢
      have hp : x.w.trace <+: x'.w.trace := by
        have ht : ∀ {y : Res Unit × World}, CloseCases x.w y → x.w.trace <+: y.2.trace := by
          intro y hy
          cases hy <;> exact List.prefix_append _ _
        exact ht hc
      rcases r with a | ex | u
      · exact ⟨rfl, fun h0 => absurd h0 h, fun _ => ⟨hp, List.prefix_refl _, fun _ => rfl⟩⟩
      · exact ⟨rfl, fun h0 => absurd h0 h, fun _ => ⟨hp, List.prefix_refl _, fun _ => rfl⟩⟩
      · nomatch hc
    · rcases e : Session.closeT x with ⟨o, x'⟩
      rw [e] at h1 h3
      dsimp only at h1 h3
      subst h1
      exact ⟨rfl, fun h0 => absurd h0 h, fun _ => ⟨h3.1, h3.2.1, fun hn => absurd h2 hn⟩⟩
  · rw [if_neg h]
    exact ⟨rfl, fun _ => rfl, fun h0 => absurd h0 h⟩

/-- A destructor that runs out of memory after telling the device: no exception, and the sockets are not closed. -/
example : (Session.destroyT ⟨answering [], [true, false]⟩).1 = some (.ok ()) ∧
    (Session.destroyT ⟨answering [], [true, false]⟩).2.w.trace.length = 1 ∧
    (Session.close (answering [])).2.trace.length = 3 := by decide +kernel

/-- Enough memory for `n` allocations, and not for the next. -/
def scarce (n : Nat) : List Bool := List.replicate n true ++ [false]

/-- The full claim for `createConnection` is false: whenever the call would succeed, there is an allocation - that of
`push_back` - whose failure leaves the device with the new connection, all socket calls made, and the session without
it. The connection can then not be closed by `closeConnection`. -/
theorem c136_violated_create {o t : ConnectionInfo} {w w' : World} (succeeds : (Op.createConnection o t).run w = (.ok (), w')) :
    ∃ supply, ((Op.createConnection o t).runT ⟨w, supply⟩).1 = none ∧
      ((Op.createConnection o t).runT ⟨w, supply⟩).2.w.trace = w'.trace ∧
      ((Op.createConnection o t).runT ⟨w, supply⟩).2.w.s.connections = w.s.connections ∧
      w'.s.connections.length = w.s.connections.length + 1 := by
  obtain ⟨k, w0, h, hw⟩ := Prog.bind_returns (p := Session.createConnection o t) (q := fun _ => pure ()) succeeds
  cases hw
  obtain ⟨w1, w1', h1, h⟩ := Prog.bind_returns h
  cases h1
  obtain ⟨_, w2, h2, h⟩ := Prog.bind_returns h
  obtain ⟨d, w3, h3, h⟩ := Prog.bind_returns h
  obtain ⟨r, w4, h4, h⟩ := Prog.bind_returns h
  have s2 := (Constant.modify (fun w : World => { w with s := { w.s with
      nextConnectionSn := w.s.nextConnectionSn + 1
      nextConnectionId := w.s.nextConnectionId + 1 + 1 } }) (fun _ => ⟨rfl, rfl, rfl⟩)) w
  have s3 := Constant.request 0x5B (Path.mk2 0x06 1)
    (some (Session.prepareConnection w.s o t).createForwardOpenRequest.obj) w2
  have s4 := (onLocal_world h4).symm
  rw [h2] at s2
  rw [h3] at s3
  subst s4
  have run : Session.createConnectionT o t ⟨w, scarce 11⟩ = (none, ⟨w3, []⟩) := by
    unfold Session.createConnectionT
    refine (Tight.after_alloc _ _ _).trans ((Tight.after_lift rfl _ _).trans ((Tight.after_lift h2 _ _).trans
      ((Tight.after_alloc _ _ _).trans (((GoesThrough.request _ _ _).step h3 _ [true, false]).trans
      ((Tight.after_alloc _ _ _).trans ((Tight.after_lift h4 _ _).trans (Tight.alloc_stop _ _ _)))))))
  have hc : w'.trace = w3.trace ∧ w'.s.connections.length = w3.s.connections.length + 1 := by
    rcases hv : (Session.prepareConnection w.s o t).verifyForwardOpenResult r with ⟨_ | _, conn'⟩
    · simp only [hv] at h
      exact nomatch h
    · simp only [hv] at h
      have hw := modify_get_ok h
      rw [hw]
      exact ⟨rfl, by simp⟩
  have e : ((Op.createConnection o t).runT ⟨w, scarce 11⟩) = (none, ⟨w3, []⟩) := by
    exact Tight.stops (f := fun _ => pure ()) run
  refine ⟨scarce 11, ?_⟩
  rw [e]
  have hconn : w3.s.connections = w.s.connections := s3.2.2.trans s2.2.2
  exact ⟨rfl, hc.1.symm, hconn, hc.2.trans (by rw [hconn])⟩

/-- A `createConnection` that would succeed. -/
example : ∃ w', (Op.createConnection ⟨1, 2, 3⟩ ⟨4, 5, 6⟩).run (answering (openAnswer 3)) = (.ok (), w') := by
  have h : ((Op.createConnection ⟨1, 2, 3⟩ ⟨4, 5, 6⟩).run (answering (openAnswer 3))).1 = .ok () := by decide +kernel
  exact Prog.ends_in h

/-- For `closeConnection`: whenever the call would succeed, there is an allocation whose failure leaves the session with
a connection the device has closed. -/
theorem c136_violated_remove {n : Nat} {w w' : World} (succeeds : (Op.closeConnection n).run w = (.ok (), w')) :
    ∃ supply, ((Op.closeConnection n).runT ⟨w, supply⟩).1 = none ∧
      ((Op.closeConnection n).runT ⟨w, supply⟩).2.w.trace = w'.trace ∧
      ((Op.closeConnection n).runT ⟨w, supply⟩).2.w.s.connections = w.s.connections ∧
      w'.s.connections.length + 1 = w.s.connections.length := by
  obtain ⟨w1, w1', h1, h⟩ := Prog.bind_returns (p := Prog.get) (show Session.closeConnection n w = _ from succeeds)
  cases h1
  rcases hn : w.s.connections[n]? with _ | c
  · rw [hn] at h
    exact nomatch h
  rw [hn] at h
  obtain ⟨d, w3, h3, h⟩ := Prog.bind_returns h
  obtain ⟨r, w4, h4, h⟩ := Prog.bind_returns h
  have s3 := Constant.request 0x4E (Path.mk2 0x06 1) (some c.createForwardCloseRequest.obj) w
  have s4 := (onLocal_world h4).symm
  rw [h3] at s3
  subst s4
  have run : Session.closeConnectionT n ⟨w, scarce 9⟩ = (none, ⟨w3, []⟩) := by
    unfold Session.closeConnectionT
    refine (Tight.after_lift rfl _ _).trans ?_
    rw [hn]
    exact (Tight.after_alloc _ _ _).trans (((GoesThrough.request _ _ _).step h3 _ [false]).trans (Tight.alloc_stop _ _ _))
  have hconn : w3.s.connections = w.s.connections := s3.2.2
  have hc : w'.trace = w3.trace ∧ w'.s.connections = w3.s.connections.eraseIdx n := by
    obtain ⟨w5, w5', h5, h⟩ := Prog.bind_returns h
    cases h5
    rw [hconn, hn] at h
    dsimp only at h
    split at h
    · cases h
      exact ⟨rfl, rfl⟩
    · exact nomatch h
  have hlt : n < w.s.connections.length := by
    rw [List.getElem?_eq_some_iff] at hn
    exact hn.1
  refine ⟨scarce 9, ?_⟩
  show (Session.closeConnectionT n _).1 = none ∧ (Session.closeConnectionT n _).2.w.trace = _ ∧
    (Session.closeConnectionT n _).2.w.s.connections = _ ∧ _
  rw [run]
  refine ⟨rfl, hc.1.symm, hconn, ?_⟩
  rw [hc.2, hconn, List.length_eraseIdx, if_pos hlt]
  omega

/-- A `closeConnection` that would succeed. -/
example : ∃ w', (Op.closeConnection 0).run twoConnections = (.ok (), w') := by
  have h : ((Op.closeConnection 0).run twoConnections).1 = .ok () := by decide +kernel
  exact Prog.ends_in h

/-- For `close`: whenever the call would succeed, there is an allocation - for the message of src/session.cpp:159 -
whose failure leaves both sockets open and the session id set although the device has been told that the session is
over. -/
theorem c136_violated_close {w w' : World} (succeeds : Op.close.run w = (.ok (), w')) :
    ∃ supply, (Op.close.runT ⟨w, supply⟩).1 = none ∧
      (Op.close.runT ⟨w, supply⟩).2.w.trace = w.trace ++ [.sent .tcp (Spec.request 0x66 w.s.sessionId []) true] ∧
      w'.trace = (Op.close.runT ⟨w, supply⟩).2.w.trace ++ [.closed .tcp true, .closed .io true] ∧
      (Op.close.runT ⟨w, supply⟩).2.w.s.sessionId = w.s.sessionId := by
  have hc := close_cases w
  rw [show Session.close w = _ from succeeds] at hc
  cases hc with
  | closed h0 _ _ =>
    have e := sockSend_eq (unregister_serializes w.s.sessionId) .tcp w
    rw [if_neg (by rw [h0]; decide)] at e
    have run : Op.close.runT ⟨w, scarce 1⟩ =
        (none, ⟨w.after (.sent .tcp (Spec.request 0x66 w.s.sessionId []) true), []⟩) := by
      show Session.closeT _ = _
      unfold Session.closeT
      exact (Tight.after_alloc _ _ _).trans ((Tight.after_lift rfl _ _).trans ((Tight.after_lift e _ _).trans
        (Tight.alloc_stop _ _ _)))
    refine ⟨scarce 1, ?_⟩
    rw [run]
    refine ⟨rfl, rfl, ?_, rfl⟩
    simp [World.after, World.logS]

/-- A `close` that would succeed. -/
example : ∃ w', Op.close.run (answering []) = (.ok (), w') := by
  have h : (Op.close.run (answering [])).1 = .ok () := by decide +kernel
  exact Prog.ends_in h

/-- For `open`: whenever the call would succeed, there are allocations whose failure makes it throw with both sockets
open and the session registered at the device: one with the session open after all, and one with the session id as it
was before, so that nothing will ever unregister it. -/
theorem c136_violated_open {host port ioPort : String} {w w' : World}
    (succeeds : (Op.open host port ioPort).run w = (.ok (), w')) :
    (∃ supply, ((Op.open host port ioPort).runT ⟨w, supply⟩).1 = none ∧
      ((Op.open host port ioPort).runT ⟨w, supply⟩).2.w = w') ∧
    (∃ supply, ((Op.open host port ioPort).runT ⟨w, supply⟩).1 = none ∧
      ((Op.open host port ioPort).runT ⟨w, supply⟩).2.w.trace = w'.trace ∧
      ((Op.open host port ioPort).runT ⟨w, supply⟩).2.w.s.sessionId = w.s.sessionId) := by
  have h : Session.open host port ioPort w = (.ok (), w') := succeeds
  rw [Session.open_eq] at h
  obtain ⟨_, w1, h1, h⟩ := Prog.bind_returns h
  obtain ⟨_, w2, h2, h⟩ := Prog.bind_returns h
  obtain ⟨r, w3, h3, h⟩ := Prog.bind_returns h
  obtain ⟨d, w4, h4, h⟩ := Prog.bind_returns h
  have throws : ∀ m w, ∃ e w', (do Session.closeSockets; Prog.raise (runtimeError m) : Prog World EncapPacket) w =
      (.throw e, w') := by
    intro m w
    rcases closeSockets_cases w with ⟨_, e⟩ | ⟨_, _, e⟩ | ⟨_, _, e⟩
    · exact ⟨_, _, Prog.bind_throw e⟩
    · exact ⟨_, _, Prog.bind_throw e⟩
    · exact ⟨_, _, Prog.bind_ok e⟩
  have s1 := Constant.open .tcp host port w
  have s2 := Constant.open .io host ioPort w1
  have sc : ∀ m, Constant (do Session.closeSockets; Prog.raise (runtimeError m) : Prog World EncapPacket) :=
    fun m => Constant.bind Constant.closeSockets (fun _ => Constant.raise _)
  have s3 := Constant.catch (Constant.command (EncapPacket.withPayload Session.cmdRegisterSession 0
    (some RegisterSessionData.new.obj))) (sc "Invalid response received registering session")
    (sc "Error in registration response") w2
  rw [h1] at s1
  rw [h2] at s2
  rw [h3] at s3
  have s4 : w3 = w4 := (registration_world h4).symm
  subst s4
  have run : ∀ rest, (Op.open host port ioPort).runT ⟨w, List.replicate 7 true ++ rest⟩ =
      (Tight.alloc >>= fun _ => Tight.lift (Session.parseRegistration r) >>= fun regData =>
        Tight.alloc >>= fun _ => openFinishT r regData) ⟨w3, rest⟩ := by
    intro rest
    show Session.openT host port ioPort _ = _
    unfold Session.openT
    exact (Tight.after_alloc _ _ _).trans ((Tight.after_lift h1 _ _).trans ((Tight.after_lift h2 _ _).trans
      ((Tight.after_alloc _ _ _).trans (((GoesThrough.catch (GoesThrough.command _) (throws _) (throws _)).step h3 _
      rest).trans (openT_rest r w3 rest)))))
  have fin : w' = { w3 with s := { w3.s with sessionId := r.header.sessionHandle } } ∧
      ∀ rest, openFinishT r d ⟨w3, false :: rest⟩ = (none, ⟨w', rest⟩) := by
    unfold openFinish at h
    unfold openFinishT
    rcases d with _ | d
    · cases h
      exact ⟨rfl, fun _ => rfl⟩
    · dsimp only at h ⊢
      split at h
      · rename_i hv
        exfalso
        rcases closeSockets_cases w3 with ⟨_, e⟩ | ⟨_, _, e⟩ | ⟨_, _, e⟩
        · exact nomatch (Prog.bind_throw e).symm.trans h
        · exact nomatch (Prog.bind_throw e).symm.trans h
        · exact nomatch (Prog.bind_ok e).symm.trans h
      · rename_i hv
        cases h
        rw [if_neg hv]
        exact ⟨rfl, fun _ => rfl⟩
  constructor
  · refine ⟨List.replicate 7 true ++ [true, true, false], ?_⟩
    rw [run]
    have : (Tight.alloc >>= fun _ => Tight.lift (Session.parseRegistration r) >>= fun regData =>
        Tight.alloc >>= fun _ => openFinishT r regData) ⟨w3, [true, true, false]⟩ = (none, ⟨w', []⟩) := by
      exact (Tight.after_alloc _ _ _).trans ((Tight.after_lift h4 _ _).trans ((Tight.after_alloc _ _ _).trans (fin.2 [])))
    rw [this]
    exact ⟨rfl, rfl⟩
  · refine ⟨List.replicate 7 true ++ [false], ?_⟩
    rw [run, Tight.alloc_stop]
    exact ⟨rfl, by rw [fin.1], s3.2.1.trans (s2.2.1.trans s1.2.1)⟩

/-- An `open` that would succeed. -/
example : ∃ w', (Op.open "h" "44818" "2222").run registering = (.ok (), w') := by
  have h : ((Op.open "h" "44818" "2222").run registering).1 = .ok () := by decide +kernel
  exact Prog.ends_in h

end Eip
