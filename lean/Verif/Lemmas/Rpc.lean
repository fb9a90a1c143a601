import Verif.Lemmas.Session
/-
Exact outcome of `sendRRDataCommand` as a function of the environment's answers.
-/
namespace Eip
open Spec

theorem catch_ok {σ α : Type} {p : Prog σ α} {a b : Prog σ α} {w w' : σ} {x : α} (h : p w = (.ok x, w')) :
    Session.catchLengthLogic p a b w = (.ok x, w') := by
  simp only [Session.catchLengthLogic, Prog.tryCatch, h]

theorem catch_ub {σ α : Type} {p : Prog σ α} {a b : Prog σ α} {w w' : σ} {u : UB} (h : p w = (.ub u, w')) :
    Session.catchLengthLogic p a b w = (.ub u, w') := by
  simp only [Session.catchLengthLogic, Prog.tryCatch, h]

theorem catch_length {σ α : Type} {p : Prog σ α} {a b : Prog σ α} {w w' : σ} {e : Exn} (h : p w = (.throw e, w'))
    (hk : e.kind = .lengthError) : Session.catchLengthLogic p a b w = a w' := by
  simp only [Session.catchLengthLogic, Prog.tryCatch, h]
  rw [if_pos (by rw [hk]; decide)]

theorem catch_logic {σ α : Type} {p : Prog σ α} {a b : Prog σ α} {w w' : σ} {e : Exn} (h : p w = (.throw e, w'))
    (hk : e.kind = .logicError) : Session.catchLengthLogic p a b w = b w' := by
  simp only [Session.catchLengthLogic, Prog.tryCatch, h]
  rw [if_neg (by rw [hk]; decide), if_pos (by rw [hk]; decide)]

theorem catch_system {σ α : Type} {p : Prog σ α} {a b : Prog σ α} {w w' : σ} {e : Exn} (h : p w = (.throw e, w'))
    (hk : e.kind = .systemError) : Session.catchLengthLogic p a b w = (.throw e, w') := by
  simp only [Session.catchLengthLogic, Prog.tryCatch, h]
  rw [if_neg (by rw [hk]; decide), if_neg (by rw [hk]; decide)]
  rfl

/-- An exception that is caught by one of the two handlers. -/
theorem catch_either {σ α : Type} {p : Prog σ α} {a b : Prog σ α} {w w' : σ} {e : Exn} (h : p w = (.throw e, w'))
    (hk : e.kind = .lengthError ∨ e.kind = .logicError) :
    Session.catchLengthLogic p a b w = a w' ∨ Session.catchLengthLogic p a b w = b w' := by
  rcases hk with hk | hk
  · exact Or.inl (catch_length h hk)
  · exact Or.inr (catch_logic h hk)

/-- The packet `sendRRDataCommand` sends. -/
def rrPacket (handle : UInt32) (service : UInt8) (path : Path) (data : Option Obj) : EncapPacket :=
  EncapPacket.withPayload Session.cmdSendRRData handle (some (RRDataRequest.new service path data).obj)

theorem Packet.unique {bytes : Bytes} {c c' : UInt16} {h h' : UInt32} {p p' : Bytes} (a : Packet bytes c h p)
    (b : Packet bytes c' h' p') : c = c' ∧ h = h' ∧ p = p' := by
  obtain ⟨e, t, rfl, rfl, hl, hb⟩ := a
  obtain ⟨e', t', rfl, rfl, hl', hb'⟩ := b
  have x := parsePacket_ok () e t hl.symm
  have y := parsePacket_ok () e' t' hl'.symm
  rw [← hb] at x
  rw [← hb'] at y
  have hh : e = e' := by
    rw [x] at y
    simp only [Prod.mk.injEq, Res.ok.injEq, EncapPacket.mk.injEq, and_true] at y
    exact y.1
  subst hh
  refine ⟨rfl, rfl, ?_⟩
  rw [hb] at hb'
  rw [List.append_assoc, List.append_assoc] at hb'
  have := List.append_cancel_left hb'
  exact (List.append_inj this (by rw [← hl, ← hl'])).1

theorem RRFrame.unique {id : UInt32} {bytes p p' : Bytes} (a : RRFrame id bytes p) (b : RRFrame id bytes p') : p = p' := by
  obtain ⟨_, a, _⟩ := a
  obtain ⟨_, b, _⟩ := b
  exact (Packet.unique a b).2.2

theorem Accepted.frame {w : World} {bytes : Bytes} {h : EncapHeader} {payload : Bytes}
    (a : Accepted w bytes Session.cmdSendRRData h payload) : RRFrame w.s.sessionId bytes payload := by
  obtain ⟨h1, h2, h3, t, h4⟩ := a
  exact ⟨h.sessionHandle, ⟨h, t, h1, rfl, h3.symm, h4⟩, h2⟩

theorem RRFrame.accepted {w : World} {bytes payload : Bytes} (a : RRFrame w.s.sessionId bytes payload) :
    ∃ h, Accepted w bytes Session.cmdSendRRData h payload := by
  obtain ⟨handle, ⟨h, t, h1, rfl, h3, h4⟩, h2⟩ := a
  exact ⟨h, h1, h2, h3.symm, t, h4⟩

theorem rawData_inj {a b : Bytes} (h : rawData a = rawData b) : a = b := by
  by_cases ha : a = []
  · by_cases hb : b = []
    · rw [ha, hb]
    · rw [rawData, if_pos ha, rawData_of_ne hb] at h; simp at h
  · by_cases hb : b = []
    · rw [rawData_of_ne ha, rawData, if_pos hb] at h; simp at h
    · rw [rawData_of_ne ha, rawData_of_ne hb] at h
      simp only [Option.some.injEq, SerializableBuffer.obj, Obj.mk.injEq] at h
      exact h.2.2

theorem RRReply.unique {payload : Bytes} {s st s' st' : UInt8} {a d a' d' : Bytes} (x : RRReply payload s st a d)
    (y : RRReply payload s' st' a' d') : s = s' ∧ st = st' ∧ a = a' ∧ d = d' := by
  obtain ⟨b, e⟩ := RRDataResponse.parse_reply x 0 RRDataResponse.new
  obtain ⟨b', e'⟩ := RRDataResponse.parse_reply y 0 RRDataResponse.new
  rw [e] at e'
  simp only [Prod.mk.injEq, true_and, RRDataResponse.mk.injEq, MessageRouterResponse.mk.injEq] at e'
  exact ⟨e'.2.1, e'.2.2.1, rawData_inj e'.2.2.2.1, rawData_inj e'.2.2.2.2⟩

theorem Response.unique {id : UInt32} {bytes : Bytes} {s st s' st' : UInt8} {d d' : Bytes}
    (x : Response id bytes s st d) (y : Response id bytes s' st' d') : s = s' ∧ st = st' ∧ d = d' := by
  obtain ⟨p, a, f, r⟩ := x
  obtain ⟨p', a', f', r'⟩ := y
  obtain rfl := RRFrame.unique f f'
  obtain ⟨h1, h2, _, h4⟩ := RRReply.unique r r'
  exact ⟨h1, h2, h4⟩

theorem RRReply.not_nil {s st : UInt8} {a d : Bytes} (x : RRReply [] s st a d) : False := by
  obtain ⟨_, _, _, _, _, _, _, _, e⟩ := x
  have := congrArg List.length e
  simp at this
  omega

theorem RRReply.not_empty {payload : Bytes} {s st : UInt8} {a d : Bytes} (x : RRReply payload s st a d)
    (y : RRBody payload []) : False := by
  obtain ⟨b, e⟩ := RRDataResponse.parse_reply x 0 RRDataResponse.new
  obtain ⟨d', e'⟩ := RRDataResponse.parse_empty y 0 RRDataResponse.new
  rw [e] at e'
  simp at e'

theorem Response.not_hollow {id : UInt32} {bytes : Bytes} {s st : UInt8} {d : Bytes} (x : Response id bytes s st d)
    (y : HollowReply id bytes) : False := by
  obtain ⟨p, a, f, r⟩ := x
  obtain ⟨p', f', h⟩ := y
  obtain rfl := RRFrame.unique f f'
  rcases h with rfl | h
  · exact RRReply.not_nil r
  · exact RRReply.not_empty r h

/-- What happens when the request reached the device and something came back. -/
inductive RROutcome (id : UInt32) (bytes : Bytes) : Res RRDataResponse → Prop
  | good (base : RRData) (s : UInt8) (a data : Bytes) (h : Response id bytes s 0 data) :
      RROutcome id bytes (.ok ⟨base, ⟨s, 0, rawData a, rawData data⟩⟩)
  | hollow (h : HollowReply id bytes) : RROutcome id bytes (.ub .nullDeref)
  | refused (what : String) (h1 : ¬ ∃ s data, Response id bytes s 0 data) (h2 : ¬ HollowReply id bytes) :
      RROutcome id bytes (.throw (runtimeError what))

/-- All outcomes of `sendRRDataCommand`. -/
inductive RRCases (w : World) (bs : Bytes) : Res RRDataResponse × World → Prop
  | sendFails (h : (w.env w.clock).fails = true) :
      RRCases w bs (.throw systemError, w.after (.sent .tcp bs false))
  | receiveFails (h : (w.env w.clock).fails = false) (h' : (w.env (w.clock + 1)).fails = true) :
      RRCases w bs (.throw systemError, (w.after (.sent .tcp bs true)).after
          (.received .tcp (delivered w.env (w.clock + 1)) false))
  | replied (h : Works w.env w.clock) (r : Res RRDataResponse)
      (hr : RROutcome w.s.sessionId (delivered w.env (w.clock + 1)) r) : RRCases w bs (r, w.exchanged bs)

/-- `sendRRDataCommand` after the request has been serialized. -/
theorem sendRR_cases {service : UInt8} {path : Path} {data : Option Obj} {bs : Bytes} (w : World)
    (hb : Serializes (rrPacket w.s.sessionId service path data).obj bs) :
    RRCases w bs (Session.sendRRDataCommand service path data w) := by
  have e0 : Session.sendRRDataCommand service path data w = (do
      let response ← Session.catchLengthLogic (Session.sendCommand (rrPacket w.s.sessionId service path data))
        (Prog.raise (runtimeError "Packet response to RR Data Command too short"))
        (Prog.raise (runtimeError "Invalid packet response to RR Data Command"))
      let respData ← Session.catchLengthLogic
        (Session.onLocal RRDataResponse.new (response.getPayloadAs RRDataResponse.cls))
        (Prog.raise (runtimeError "Response data to RR Command too short"))
        (Prog.raise (runtimeError "Invalid data in response to RR command"))
      if respData.getGeneralStatus ≠ 0 then Prog.raise (runtimeError "RR Data Command Failed")
      else pure respData : Prog World RRDataResponse) w := rfl
  rw [e0]
  rcases sendCommand_cases hb w with ⟨h1, e⟩ | ⟨h1, h2, e⟩ | ⟨h1, h2, ⟨h, payload, acc, e⟩ | ⟨hn, ex, hk, e⟩⟩
  · rw [Prog.bind_throw (catch_system e rfl)]
    exact .sendFails h1
  · rw [Prog.bind_throw (catch_system e rfl)]
    exact .receiveFails h1 h2
  · rw [Prog.bind_ok (catch_ok e)]
    have fr : RRFrame w.s.sessionId (delivered w.env (w.clock + 1)) payload := Accepted.frame acc
    by_cases hne : payload = []
    · subst hne
      have e2 : Session.onLocal RRDataResponse.new ((EncapPacket.mk h (rawData [])).getPayloadAs RRDataResponse.cls)
          (w.exchanged bs) = (.ub .nullDeref, w.exchanged bs) := rfl
      rw [Prog.bind_ub (catch_ub e2)]
      exact .replied ⟨h1, h2⟩ _ (.hollow ⟨[], fr, Or.inl rfl⟩)
    · have e2 : Session.onLocal (σ := World) RRDataResponse.new
          ((EncapPacket.mk h (rawData payload)).getPayloadAs RRDataResponse.cls) (w.exchanged bs) =
          match deserializeFrom RRDataResponse.cls payload payload.length RRDataResponse.new with
          | (.ok (), d) => (.ok d, w.exchanged bs)
          | (.throw e, _) => (.throw e, w.exchanged bs)
          | (.ub u, _) => (.ub u, w.exchanged bs) := by
        rw [Session.onLocal, getPayloadAs_raw _ rfl h hne]
        rcases deserializeFrom RRDataResponse.cls payload payload.length RRDataResponse.new with ⟨(_ | _ | _), _⟩ <;> rfl
      rcases RRDataResponse.parse_cases payload payload.length RRDataResponse.new with
        ⟨s, st, a, d, hr⟩ | hr | ⟨ex, d', e3, hk⟩
      · obtain ⟨base, e3⟩ := RRDataResponse.parse_reply hr payload.length RRDataResponse.new
        rw [e3] at e2
        rw [Prog.bind_ok (catch_ok e2)]
        by_cases hst : st = 0
        · subst hst
          have e4 : (RRDataResponse.mk base ⟨s, 0, rawData a, rawData d⟩).getGeneralStatus = 0 := rfl
          rw [if_neg (by rw [e4]; simp)]
          exact .replied ⟨h1, h2⟩ _ (.good base s a d ⟨payload, a, fr, hr⟩)
        · have e4 : (RRDataResponse.mk base ⟨s, st, rawData a, rawData d⟩).getGeneralStatus = st := rfl
          rw [if_pos (by rw [e4]; exact hst)]
          refine .replied ⟨h1, h2⟩ _ (.refused _ ?_ ?_)
          · rintro ⟨s', d', h'⟩
            exact hst (Response.unique ⟨payload, a, fr, hr⟩ h').2.1
          · exact Response.not_hollow (⟨payload, a, fr, hr⟩ : Response w.s.sessionId _ s st d)
      · obtain ⟨d', e3⟩ := RRDataResponse.parse_empty hr payload.length RRDataResponse.new
        rw [e3] at e2
        rw [Prog.bind_ub (catch_ub e2)]
        exact .replied ⟨h1, h2⟩ _ (.hollow ⟨payload, fr, Or.inr hr⟩)
      · rw [e3] at e2
        have key : ∀ what, RRCases w bs (.throw (runtimeError what), w.exchanged bs) := by
          intro what
          refine .replied ⟨h1, h2⟩ _ (.refused _ ?_ ?_)
          · rintro ⟨s', d', p', a', f', r'⟩
            obtain rfl := RRFrame.unique fr f'
            obtain ⟨b, e5⟩ := RRDataResponse.parse_reply r' payload.length RRDataResponse.new
            rw [e5] at e3; simp at e3
          · rintro ⟨p', f', h'⟩
            obtain rfl := RRFrame.unique fr f'
            rcases h' with h' | h'
            · exact hne h'
            · obtain ⟨b, e5⟩ := RRDataResponse.parse_empty h' payload.length RRDataResponse.new
              rw [e5] at e3; simp at e3
        rcases hk with hk | hk
        · have := catch_length (a := Prog.raise (runtimeError "Response data to RR Command too short"))
            (b := Prog.raise (runtimeError "Invalid data in response to RR command")) e2 hk
          rw [Prog.bind_throw this]
          exact key _
        · have := catch_logic (a := Prog.raise (runtimeError "Response data to RR Command too short"))
            (b := Prog.raise (runtimeError "Invalid data in response to RR command")) e2 hk
          rw [Prog.bind_throw this]
          exact key _
  · have key : ∀ what, RRCases w bs (.throw (runtimeError what), w.exchanged bs) := by
      intro what
      refine .replied ⟨h1, h2⟩ _ (.refused _ ?_ ?_)
      · rintro ⟨s', d', p', a', f', r'⟩
        obtain ⟨h, acc⟩ := RRFrame.accepted f'
        exact hn ⟨h, p', acc⟩
      · rintro ⟨p', f', _⟩
        obtain ⟨h, acc⟩ := RRFrame.accepted f'
        exact hn ⟨h, p', acc⟩
    rcases hk with hk | hk
    · have := catch_length (a := Prog.raise (runtimeError "Packet response to RR Data Command too short"))
        (b := Prog.raise (runtimeError "Invalid packet response to RR Data Command")) e hk
      rw [Prog.bind_throw this]
      exact key _
    · have := catch_logic (a := Prog.raise (runtimeError "Packet response to RR Data Command too short"))
        (b := Prog.raise (runtimeError "Invalid packet response to RR Data Command")) e hk
      rw [Prog.bind_throw this]
      exact key _

end Eip
