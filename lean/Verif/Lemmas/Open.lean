import Verif.Lemmas.Rpc
import Verif.Lemmas.Write
/-
Exact outcomes of `open`, `close` and the destructor as functions of the environment's answers.
-/
namespace Eip
open Spec

theorem isOpen_append (s : Sock) (l l' : List Ev) (b : Bool) :
    isOpen s b (l ++ l') = isOpen s (isOpen s b l) l' := by
  induction l generalizing b with
  | nil => rfl
  | cons e l ih => cases e <;> simp only [List.cons_append, isOpen] <;> exact ih _

theorem le2_inj {v w : UInt16} (h : le 2 v.toNat = le 2 w.toNat) : v = w := by
  rw [← le16_eq_le, ← le16_eq_le] at h
  simpa using congrArg de16 h

theorem le4_inj {v w : UInt32} (h : le 4 v.toNat = le 4 w.toNat) : v = w := by
  rw [← le32_eq_le, ← le32_eq_le] at h
  simpa using congrArg de32 h

/-- The world after the given socket calls. -/
def World.log (w : World) (evs : List Ev) : World :=
  { w with clock := w.clock + evs.length, trace := w.trace ++ evs }

/-- The same, with a new session object. -/
def World.logS (w : World) (evs : List Ev) (s : Session) : World :=
  { w with clock := w.clock + evs.length, trace := w.trace ++ evs, s := s }

theorem World.after_log (w : World) (ev : Ev) (evs : List Ev) : (w.log evs).after ev = w.log (evs ++ [ev]) := by
  simp [World.after, World.log, Nat.add_assoc]

theorem World.after_eq (w : World) (ev : Ev) : w.after ev = w.log [ev] := rfl

theorem World.exchanged_log (w : World) (evs : List Ev) (bs : Bytes) :
    (w.log evs).exchanged bs = w.logS (evs ++ [.sent .tcp bs true,
      .received .tcp (delivered w.env (w.clock + evs.length + 1)) true])
        (w.s.receiveInto (delivered w.env (w.clock + evs.length + 1))) := by
  simp [World.exchanged, World.log, World.logS, Nat.add_assoc]

theorem World.after_logS (w : World) (ev : Ev) (evs : List Ev) (s : Session) :
    (w.logS evs s).after ev = w.logS (evs ++ [ev]) s := by
  simp [World.after, World.logS, Nat.add_assoc]

/-- Outcomes of closing both sockets. -/
theorem closeSockets_cases (w : World) :
    ((w.env w.clock).fails = true ∧
      Session.closeSockets w = (.throw systemError, w.after (.closed .tcp false))) ∨
    ((w.env w.clock).fails = false ∧ (w.env (w.clock + 1)).fails = true ∧
      Session.closeSockets w = (.throw systemError, (w.after (.closed .tcp true)).after (.closed .io false))) ∨
    ((w.env w.clock).fails = false ∧ (w.env (w.clock + 1)).fails = false ∧
      Session.closeSockets w = (.ok (), (w.after (.closed .tcp true)).after (.closed .io true))) := by
  rw [Session.closeSockets]
  by_cases h1 : (w.env w.clock).fails = true
  · left
    have := sockClose_eq .tcp w
    rw [if_pos h1] at this
    exact ⟨h1, Prog.bind_throw this⟩
  · right
    have e1 := sockClose_eq .tcp w
    rw [if_neg h1] at e1
    rw [Prog.bind_ok e1]
    have e2 := sockClose_eq .io (w.after (.closed .tcp true))
    by_cases h2 : (w.env (w.clock + 1)).fails = true
    · left
      have h2' : ((w.after (.closed .tcp true)).env (w.after (.closed .tcp true)).clock).fails = true := h2
      rw [if_pos h2'] at e2
      exact ⟨by simpa using h1, h2, e2⟩
    · right
      have h2' : ¬ ((w.after (.closed .tcp true)).env (w.after (.closed .tcp true)).clock).fails = true := h2
      rw [if_neg h2'] at e2
      exact ⟨by simpa using h1, by simpa using h2, e2⟩

theorem registration_serializes : Serializes
    (EncapPacket.withPayload Session.cmdRegisterSession 0 (some RegisterSessionData.new.obj)).obj registration :=
  Serializes.of (EncapPacket.withPayload_encodes Session.cmdRegisterSession 0 (RegisterSessionData.encodes _))

theorem registration_local {h : EncapHeader} {payload : Bytes} (hne : payload ≠ []) (w : World) :
    Session.onLocal RegisterSessionData.new ((EncapPacket.mk h (rawData payload)).getPayloadAs RegisterSessionData.cls) w =
      match RegisterSessionData.deserialize (RegisterSessionData.new, .buffer ⟨payload, 0⟩) with
      | (.ok (), (d, _)) => (.ok d, w)
      | (.throw e, _) => (.throw e, w)
      | (.ub u, _) => (.ub u, w) := by
  rw [Session.onLocal, getPayloadAs_raw _ rfl h hne]
  have e : deserializeFrom RegisterSessionData.cls payload payload.length RegisterSessionData.new =
      match RegisterSessionData.deserialize (RegisterSessionData.new, .buffer ⟨payload, 0⟩) with
      | (r, (d', _)) => (r, d') := rfl
  rw [e]
  rcases RegisterSessionData.deserialize (RegisterSessionData.new, .buffer ⟨payload, 0⟩) with ⟨(_ | _ | _), _, _⟩ <;> rfl

theorem parseRegistration_short {h : EncapHeader} {payload : Bytes} (hne : payload ≠ []) (hl : payload.length < 4)
    (w : World) : Session.parseRegistration ⟨h, rawData payload⟩ w = (.ok none, w) := by
  rcases covers_register payload with ⟨cs, tail, ⟨v, o, rfl⟩, e⟩ | ⟨cs, m, ⟨v, o, rfl⟩, hm, e⟩
  · have := congrArg List.length e
    simp [register] at this
    omega
  · obtain ⟨what, d', r', e2⟩ := (RegisterSessionData.parses RegisterSessionData.new v o 0).short payload m e hm
    have e3 := registration_local (h := h) hne w
    rw [e2] at e3
    rw [Session.parseRegistration]
    exact catch_length (Prog.bind_throw e3) rfl

theorem parseRegistration_long {h : EncapHeader} {payload tail : Bytes} {v o : UInt16}
    (e : payload = register v o ++ tail) (w : World) :
    Session.parseRegistration ⟨h, rawData payload⟩ w = (.ok (some ⟨v, o⟩), w) := by
  have hne : payload ≠ [] := by
    intro h
    rw [h] at e
    have := congrArg List.length e
    simp [register] at this
    omega
  have e2 := (RegisterSessionData.parses RegisterSessionData.new v o 0).buffer tail
  have e3 := registration_local (h := h) hne w
  rw [e, e2] at e3
  rw [Session.parseRegistration]
  refine catch_ok ?_
  rw [e, Prog.bind_ok e3]
  rfl

/-- The four events of an `open` that got a reply. -/
def openEvents (host port ioPort : String) (bytes : Bytes) : List Ev :=
  [.opened .tcp host port true, .opened .io host ioPort true, .sent .tcp registration true, .received .tcp bytes true]

/-- The world after the registration reply has been received. -/
def World.replied (w : World) (host port ioPort : String) (more : List Ev) : World :=
  w.logS (openEvents host port ioPort (delivered w.env (w.clock + 3)) ++ more)
    (w.s.receiveInto (delivered w.env (w.clock + 3)))

/-- The first four calls of `open` succeed. -/
def OpenWorks (w : World) : Prop :=
  (w.env w.clock).fails = false ∧ (w.env (w.clock + 1)).fails = false ∧ Works w.env (w.clock + 2)

/-- All outcomes of `open`. -/
inductive OpenCases (host port ioPort : String) (w : World) : Res Unit × World → Prop
  | tcpFails (h : (w.env w.clock).fails = true) :
      OpenCases host port ioPort w (.throw systemError, w.log [.opened .tcp host port false])
  | ioFails (h : (w.env w.clock).fails = false) (h1 : (w.env (w.clock + 1)).fails = true) :
      OpenCases host port ioPort w (.throw systemError,
        w.log [.opened .tcp host port true, .opened .io host ioPort false])
  | sendFails (h : (w.env w.clock).fails = false) (h1 : (w.env (w.clock + 1)).fails = false)
      (h2 : (w.env (w.clock + 2)).fails = true) :
      OpenCases host port ioPort w (.throw systemError,
        w.log [.opened .tcp host port true, .opened .io host ioPort true, .sent .tcp registration false])
  | receiveFails (h : (w.env w.clock).fails = false) (h1 : (w.env (w.clock + 1)).fails = false)
      (h2 : (w.env (w.clock + 2)).fails = false) (h3 : (w.env (w.clock + 3)).fails = true) :
      OpenCases host port ioPort w (.throw systemError,
        w.log [.opened .tcp host port true, .opened .io host ioPort true, .sent .tcp registration true,
          .received .tcp (delivered w.env (w.clock + 3)) false])
  | registered (handle : UInt32) (h : OpenWorks w)
      (hr : Registers w.s.sessionId (delivered w.env (w.clock + 3)) handle) :
      OpenCases host port ioPort w (.ok (),
        { w.replied host port ioPort [] with
          s := { (w.replied host port ioPort []).s with sessionId := handle } })
  | hollow (h : OpenWorks w) (hr : HollowRegistration w.s.sessionId (delivered w.env (w.clock + 3))) :
      OpenCases host port ioPort w (.ub .nullDeref, w.replied host port ioPort [])
  | rejected (what : String) (h : OpenWorks w) (hc : Works w.env (w.clock + 4))
      (h1 : ¬ ∃ handle, Registers w.s.sessionId (delivered w.env (w.clock + 3)) handle)
      (h2 : ¬ HollowRegistration w.s.sessionId (delivered w.env (w.clock + 3))) :
      OpenCases host port ioPort w (.throw (runtimeError what),
        w.replied host port ioPort [.closed .tcp true, .closed .io true])
  | tcpCloseFails (h : OpenWorks w) (hc : (w.env (w.clock + 4)).fails = true)
      (h1 : ¬ ∃ handle, Registers w.s.sessionId (delivered w.env (w.clock + 3)) handle)
      (h2 : ¬ HollowRegistration w.s.sessionId (delivered w.env (w.clock + 3))) :
      OpenCases host port ioPort w (.throw systemError, w.replied host port ioPort [.closed .tcp false])
  | ioCloseFails (h : OpenWorks w) (hc : (w.env (w.clock + 4)).fails = false)
      (hc' : (w.env (w.clock + 5)).fails = true)
      (h1 : ¬ ∃ handle, Registers w.s.sessionId (delivered w.env (w.clock + 3)) handle)
      (h2 : ¬ HollowRegistration w.s.sessionId (delivered w.env (w.clock + 3))) :
      OpenCases host port ioPort w (.throw systemError,
        w.replied host port ioPort [.closed .tcp true, .closed .io false])

theorem World.replied_after (w : World) (host port ioPort : String) (more : List Ev) (ev : Ev) :
    (w.replied host port ioPort more).after ev = w.replied host port ioPort (more ++ [ev]) := by
  simp [World.replied, World.after_logS]

/-- Closing the sockets and reporting the failure. -/
theorem reject_cases {α : Type} {host port ioPort : String} {w : World} {what : String} (h : OpenWorks w)
    (h1 : ¬ ∃ handle, Registers w.s.sessionId (delivered w.env (w.clock + 3)) handle)
    (h2 : ¬ HollowRegistration w.s.sessionId (delivered w.env (w.clock + 3)))
    (f : α → Prog World Unit) :
    OpenCases host port ioPort w
      (((do Session.closeSockets; Prog.raise (runtimeError what) : Prog World α) >>= f)
        (w.replied host port ioPort [])) := by
  have hclock : (w.replied host port ioPort []).clock = w.clock + 4 := rfl
  have henv : (w.replied host port ioPort []).env = w.env := rfl
  rcases closeSockets_cases (w.replied host port ioPort []) with ⟨c1, e⟩ | ⟨c1, c2, e⟩ | ⟨c1, c2, e⟩
  · rw [Prog.bind_throw (Prog.bind_throw e), World.replied_after]
    exact .tcpCloseFails h c1 h1 h2
  · rw [Prog.bind_throw (Prog.bind_throw e), World.replied_after, World.replied_after]
    exact .ioCloseFails h c1 c2 h1 h2
  · have : (do Session.closeSockets; Prog.raise (runtimeError what) : Prog World α) (w.replied host port ioPort [])
        = (.throw (runtimeError what), ((w.replied host port ioPort []).after (.closed .tcp true)).after
          (.closed .io true)) := by
      rw [Prog.bind_ok e]; rfl
    rw [Prog.bind_throw this, World.replied_after, World.replied_after]
    exact .rejected what h ⟨c1, c2⟩ h1 h2

theorem reject_cases' {host port ioPort : String} {w : World} {what : String} (h : OpenWorks w)
    (h1 : ¬ ∃ handle, Registers w.s.sessionId (delivered w.env (w.clock + 3)) handle)
    (h2 : ¬ HollowRegistration w.s.sessionId (delivered w.env (w.clock + 3))) :
    OpenCases host port ioPort w
      ((do Session.closeSockets; Prog.raise (runtimeError what) : Prog World Unit) (w.replied host port ioPort [])) := by
  have := reject_cases (host := host) (port := port) (ioPort := ioPort) (what := what) h h1 h2
    (fun _ : Unit => (pure () : Prog World Unit))
  have e : ∀ p : Prog World Unit, (p >>= fun _ => (pure () : Prog World Unit)) = p := by
    intro p
    funext w
    simp only [Prog.bind_def, Prog.andThen]
    rcases p w with ⟨(_ | _ | _), _⟩ <;> rfl
  rw [e] at this
  exact this

theorem open_cases (host port ioPort : String) (w : World) :
    OpenCases host port ioPort w (Session.open host port ioPort w) := by
  rw [Session.open]
  by_cases h0 : (w.env w.clock).fails = true
  · have e := sockOpen_eq .tcp host port w
    rw [if_pos h0] at e
    rw [Prog.bind_throw e]
    exact .tcpFails h0
  have e := sockOpen_eq .tcp host port w
  rw [if_neg h0] at e
  rw [Prog.bind_ok e]
  have h0 : (w.env w.clock).fails = false := by simpa using h0
  by_cases h1 : (w.env (w.clock + 1)).fails = true
  · have e := sockOpen_eq .io host ioPort (w.after (.opened .tcp host port true))
    rw [if_pos (show ((w.after (.opened .tcp host port true)).env
      (w.after (.opened .tcp host port true)).clock).fails = true from h1)] at e
    rw [Prog.bind_throw e, World.after_eq w, World.after_log]
    exact .ioFails h0 h1
  have e := sockOpen_eq .io host ioPort (w.after (.opened .tcp host port true))
  rw [if_neg (show ¬ ((w.after (.opened .tcp host port true)).env
      (w.after (.opened .tcp host port true)).clock).fails = true from h1)] at e
  rw [Prog.bind_ok e, World.after_eq w, World.after_log]
  have h1 : (w.env (w.clock + 1)).fails = false := by simpa using h1
  generalize hw2 : w.log ([Ev.opened .tcp host port true] ++ [.opened .io host ioPort true]) = w2
  have henv : w2.env = w.env := by rw [← hw2]; rfl
  have hclock : w2.clock = w.clock + 2 := by rw [← hw2]; rfl
  have hid : w2.s = w.s := by rw [← hw2]; rfl
  have hex : w2.exchanged registration = w.replied host port ioPort [] := by
    rw [← hw2, World.exchanged_log]; rfl
  dsimp only
  rcases sendCommand_cases registration_serializes w2 with ⟨h2, e⟩ | ⟨h2, h3, e⟩ | ⟨h2, h3, ⟨h, payload, acc, e⟩ | ⟨hn, ex, hk, e⟩⟩
  · rw [Prog.bind_throw (catch_system e rfl), ← hw2, World.after_log]
    rw [henv, hclock] at h2
    exact .sendFails h0 h1 h2
  · rw [Prog.bind_throw (catch_system e rfl)]
    rw [henv, hclock] at h2 h3 ⊢
    rw [← hw2, World.after_log, World.after_log]
    exact .receiveFails h0 h1 h2 h3
  · rw [Prog.bind_ok (catch_ok e), hex]
    rw [henv, hclock] at h2 h3
    have hw : OpenWorks w := ⟨h0, h1, h2, h3⟩
    obtain ⟨a1, a2, a3, t, a4⟩ := acc
    rw [henv, hclock] at a4
    rw [hid] at a2
    have pk : Packet (delivered w.env (w.clock + 3)) 0x0065 h.sessionHandle payload :=
      ⟨h, t, a1, rfl, a3.symm, a4⟩
    by_cases hne : payload = []
    · subst hne
      have e5 : Session.parseRegistration ⟨h, rawData []⟩ (w.replied host port ioPort []) =
          (.ub .nullDeref, w.replied host port ioPort []) := rfl
      rw [Prog.bind_ub e5]
      exact .hollow hw ⟨_, pk, a2⟩
    · by_cases hl : payload.length < 4
      · rw [Prog.bind_ok (parseRegistration_short hne hl _)]
        exact .registered h.sessionHandle hw ⟨payload, pk, a2, hne, Or.inl hl⟩
      · rcases covers_register payload with ⟨cs, tail, ⟨v, o, rfl⟩, e5⟩ | ⟨cs, m, ⟨v, o, rfl⟩, hm, e5⟩
        · rw [Prog.bind_ok (parseRegistration_long e5 _)]
          have htake : payload.take 2 = le 2 v.toNat := by
            rw [e5, register, List.append_assoc, List.take_append_of_le_length (by simp), List.take_of_length_le (by simp)]
          by_cases hv : v = 1
          · subst hv
            have : OpenCases host port ioPort w (.ok (), { w.replied host port ioPort [] with
              s := { (w.replied host port ioPort []).s with sessionId := h.sessionHandle } }) :=
              .registered h.sessionHandle hw ⟨payload, pk, a2, hne, Or.inr htake⟩
            exact this
          · have hv' : (RegisterSessionData.mk v o).protocolVersion ≠ eipProtocolVersion := hv
            dsimp only
            rw [if_pos hv']
            refine reject_cases' hw ?_ ?_
            · rintro ⟨h', p', q, _, _, q3⟩
              obtain ⟨_, rfl, rfl⟩ := Packet.unique pk q
              rcases q3 with q3 | q3
              · exact hl q3
              · rw [htake] at q3
                exact hv (le2_inj (w := 1) q3)
            · rintro ⟨h', q, _⟩
              exact hne (Packet.unique pk q).2.2
        · exfalso
          have := congrArg List.length e5
          have hm' : 0 < m.length := List.length_pos_iff.mpr hm
          simp [register] at this
          omega
  · rw [henv, hclock] at h2 h3
    have hw : OpenWorks w := ⟨h0, h1, h2, h3⟩
    rw [hex] at e
    have n1 : ¬ ∃ handle, Registers w.s.sessionId (delivered w.env (w.clock + 3)) handle := by
      rintro ⟨_, p', ⟨h', t', q1, rfl, q2, q3⟩, q4, _⟩
      refine hn ⟨h', p', q1, ?_, q2.symm, t', ?_⟩
      · rw [hid]; exact q4
      · rw [henv, hclock]; exact q3
    have n2 : ¬ HollowRegistration w.s.sessionId (delivered w.env (w.clock + 3)) := by
      rintro ⟨_, ⟨h', t', q1, rfl, q2, q3⟩, q4⟩
      refine hn ⟨h', [], q1, ?_, q2.symm, t', ?_⟩
      · rw [hid]; exact q4
      · rw [henv, hclock]; exact q3
    rcases hk with hk | hk
    · have := catch_length (a := do Session.closeSockets; Prog.raise (runtimeError "Invalid response received registering session"))
        (b := do Session.closeSockets; Prog.raise (runtimeError "Error in registration response")) e hk
      rw [Prog.bind_def, Prog.andThen, this]
      exact reject_cases hw n1 n2 _
    · have := catch_logic (a := do Session.closeSockets; Prog.raise (runtimeError "Invalid response received registering session"))
        (b := do Session.closeSockets; Prog.raise (runtimeError "Error in registration response")) e hk
      rw [Prog.bind_def, Prog.andThen, this]
      exact reject_cases hw n1 n2 _

/-! ### Closing -/

theorem unregister_serializes (h : UInt32) :
    Serializes (EncapPacket.new Session.cmdUnregisterSession h).obj (request 0x66 h []) :=
  Serializes.of (EncapPacket.new_encodes Session.cmdUnregisterSession h)

/-- All outcomes of `close`. -/
inductive CloseCases (w : World) : Res Unit × World → Prop
  | sendFails (h : (w.env w.clock).fails = true) :
      CloseCases w (.throw systemError, w.log [.sent .tcp (request 0x66 w.s.sessionId []) false])
  | tcpFails (h : (w.env w.clock).fails = false) (h1 : (w.env (w.clock + 1)).fails = true) :
      CloseCases w (.throw systemError, w.log [.sent .tcp (request 0x66 w.s.sessionId []) true, .closed .tcp false])
  | ioFails (h : (w.env w.clock).fails = false) (h1 : (w.env (w.clock + 1)).fails = false)
      (h2 : (w.env (w.clock + 2)).fails = true) :
      CloseCases w (.throw systemError, w.log [.sent .tcp (request 0x66 w.s.sessionId []) true, .closed .tcp true,
        .closed .io false])
  | closed (h : (w.env w.clock).fails = false) (h1 : (w.env (w.clock + 1)).fails = false)
      (h2 : (w.env (w.clock + 2)).fails = false) :
      CloseCases w (.ok (), w.logS [.sent .tcp (request 0x66 w.s.sessionId []) true, .closed .tcp true,
        .closed .io true] { w.s with sessionId := 0 })

theorem close_cases (w : World) : CloseCases w (Session.close w) := by
  have e0 : Session.close w = (do
      let _ ← sockSend .tcp (EncapPacket.new Session.cmdUnregisterSession w.s.sessionId).obj
      Session.closeSockets
      Prog.modify (fun w => { w with s := { w.s with sessionId := 0 } }) : Prog World Unit) w := rfl
  rw [e0]
  have e := sockSend_eq (unregister_serializes w.s.sessionId) .tcp w
  by_cases h0 : (w.env w.clock).fails = true
  · rw [if_pos h0] at e
    rw [Prog.bind_throw e]
    exact .sendFails h0
  · rw [if_neg h0] at e
    rw [Prog.bind_ok e]
    have h0 : (w.env w.clock).fails = false := by simpa using h0
    rcases closeSockets_cases (w.after (.sent .tcp (request 0x66 w.s.sessionId []) true)) with
      ⟨c1, e⟩ | ⟨c1, c2, e⟩ | ⟨c1, c2, e⟩
    · rw [Prog.bind_throw e, World.after_eq w, World.after_log]
      exact .tcpFails h0 c1
    · rw [Prog.bind_throw e, World.after_eq w, World.after_log, World.after_log]
      exact .ioFails h0 c1 c2
    · rw [Prog.bind_ok e, World.after_eq w, World.after_log, World.after_log]
      exact .closed h0 c1 c2

theorem destroy_eq (w : World) : Session.destroy w =
    if w.s.sessionId ≠ 0 then
      match Session.close w with
      | (.ok (), w') => (.ok (), w')
      | (.throw _, w') => (.ok (), w')
      | (.ub u, w') => (.ub u, w')
    else (.ok (), w) := by
  have e : Session.destroy w = Prog.tryCatch
    ((if w.s.sessionId ≠ 0 then Session.close else pure () : Prog World Unit)) (fun _ => pure ()) w := rfl
  rw [e]
  by_cases h : w.s.sessionId ≠ 0
  · rw [if_pos h, if_pos h]
    simp only [Prog.tryCatch]
    rcases Session.close w with ⟨(_ | _ | _), _⟩ <;> rfl
  · rw [if_neg h, if_neg h]
    rfl

end Eip
