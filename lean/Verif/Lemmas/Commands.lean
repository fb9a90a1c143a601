import Verif.Lemmas.Open
import Verif.Lemmas.Props
/-
Exact outcomes of the attribute and connection commands.
-/
namespace Eip
open Spec

theorem rr_serializes (handle : UInt32) (service : UInt8) {p : Path} {segs : List Segment} (hp : PathIs p false segs)
    {data : Option Obj} {bs : Bytes} (hd : EncodesOpt data bs) :
    Serializes (rrPacket handle service p data).obj (command handle service segs bs) := by
  have h := RRDataRequest.encodes (RRDataRequest.new service p data) (bs := bs) hd
  have := EncapPacket.withPayload_encodes Session.cmdSendRRData handle 
    (o := some (RRDataRequest.new service p data).obj) h
  refine Serializes.of ?_
  have e : pathBytes p = path false segs := pathBytes_eq hp
  rw [show (RRDataRequest.new service p data).mr.path = p from rfl, e] at this
  exact this

theorem path3 (x y z : UInt8) : PathIs (Path.mk3 x y z) false [.class' x, .instance' y, .attribute z] :=
  ⟨rfl, rfl⟩

theorem path2 (x y : UInt8) : PathIs (Path.mk2 x y) false [.class' x, .instance' y] := ⟨rfl, rfl⟩

theorem sendCommand_unsent {req : EncapPacket} {w : World} {e : Exn}
    (h : serializeToVector req.obj.getLength req.obj.serialize w = (.throw e, w)) :
    Session.sendCommand req w = (.throw e, w) := by
  rw [Session.sendCommand]
  refine Prog.bind_throw ?_
  rw [sockSend]
  exact Prog.bind_throw h

theorem sendCommand_unsent_ub {req : EncapPacket} {w : World} {u : UB}
    (h : serializeToVector req.obj.getLength req.obj.serialize w = (.ub u, w)) :
    Session.sendCommand req w = (.ub u, w) := by
  rw [Session.sendCommand]
  refine Prog.bind_ub ?_
  rw [sockSend]
  exact Prog.bind_ub h

/-- Every run of `sendRRDataCommand` either sends the request or does nothing and fails. -/
theorem sendRR_total (service : UInt8) (path : Path) (data : Option Obj) (w : World) :
    (∃ bs, Serializes (rrPacket w.s.sessionId service path data).obj bs ∧
      RRCases w bs (Session.sendRRDataCommand service path data w)) ∨
    (∃ e, Session.sendRRDataCommand service path data w = (.throw e, w)) ∨
    (∃ u, Session.sendRRDataCommand service path data w = (.ub u, w)) := by
  have e0 : Session.sendRRDataCommand service path data w = (do
      let response ← Session.catchLengthLogic (Session.sendCommand (rrPacket w.s.sessionId service path data))
        (Prog.raise (runtimeError "Packet response to RR Data Command too short"))
        (Prog.raise (runtimeError "Invalid packet response to RR Data Command"))
      let respData ← Session.catchLengthLogic
        (Session.onLocal RRDataResponse.new (response.getPayloadAs RRDataResponse.cls))
        (Prog.raise (runtimeError "Response data to RR Command too short"))
        (Prog.raise (runtimeError "Invalid data in response to RR command"))
      if respData.getGeneralStatus ≠ 0 then Prog.raise (runtimeError "RR Data Command Failed")
      else pure respData : Prog World RRDataResponse) w := rfl
  rcases serialize_cases (rrPacket w.s.sessionId service path data).obj with ⟨bs, h⟩ | ⟨e, h⟩ | ⟨u, h⟩
  · exact Or.inl ⟨bs, h, sendRR_cases w h⟩
  · right; left
    have e1 := sendCommand_unsent (h w)
    have : ∃ e', Session.catchLengthLogic (Session.sendCommand (rrPacket w.s.sessionId service path data))
        (Prog.raise (runtimeError "Packet response to RR Data Command too short"))
        (Prog.raise (runtimeError "Invalid packet response to RR Data Command")) w = (.throw e', w) := by
      simp only [Session.catchLengthLogic, Prog.tryCatch, e1]
      by_cases h1 : e.kind.isA .lengthError = true
      · rw [if_pos h1]; exact ⟨_, rfl⟩
      · rw [if_neg h1]
        by_cases h2 : e.kind.isA .logicError = true
        · rw [if_pos h2]; exact ⟨_, rfl⟩
        · rw [if_neg h2]; exact ⟨_, rfl⟩
    obtain ⟨e', e2⟩ := this
    exact ⟨e', by rw [e0, Prog.bind_throw e2]⟩
  · right; right
    exact ⟨u, by rw [e0, Prog.bind_ub (catch_ub (sendCommand_unsent_ub (h w)))]⟩

/-! ### What an exchange does to the world -/

/-- From `w` to `w'` by (at most) sending `bs` on the control socket and receiving an answer. -/
structure Exchange (w : World) (bs : Bytes) (w' : World) : Prop where
  events : ∃ evs, w'.trace = w.trace ++ evs ∧ w'.clock = w.clock + evs.length ∧
    evs.map call <+: [.send .tcp bs, .receive .tcp] ∧ ∀ e ∈ evs.dropLast, succeeded e = true
  keeps : w'.s = { w.s with recvBuffer := w'.s.recvBuffer }
  env : w'.env = w.env

theorem RRCases.exchange {w : World} {bs : Bytes} {r : Res RRDataResponse × World} (h : RRCases w bs r) :
    Exchange w bs r.2 := by
  cases h with
  | sendFails => exact ⟨⟨_, rfl, rfl, by simp [call], by simp⟩, rfl, rfl⟩
  | receiveFails => 
    refine ⟨⟨[.sent .tcp bs true, .received .tcp (delivered w.env (w.clock + 1)) false], ?_, ?_, ?_, ?_⟩, rfl, rfl⟩
    · simp [World.after]
    · simp [World.after]
    · simp [call]
    · simp [succeeded]
  | replied => 
    refine ⟨⟨[.sent .tcp bs true, .received .tcp (delivered w.env (w.clock + 1)) true], ?_, ?_, ?_, ?_⟩, rfl, rfl⟩
    · simp [World.exchanged]
    · simp [World.exchanged]
    · simp [call]
    · simp [succeeded]

theorem Exchange.refl (w : World) (bs : Bytes) : Exchange w bs w :=
  ⟨⟨[], by simp, by simp, by simp, by simp⟩, rfl, rfl⟩

/-! ### Attributes -/

theorem getAttr_eq {δ : Type} (c : Class δ) (x y z : UInt8) (d : δ) (w : World) :
    Session.getSingleAttributeSerializable c x y z (d, w) =
      match Session.sendRRDataCommand 0x0E (Path.mk3 x y z) none w with
      | (.ok resp, w') =>
        match resp.getResponseDataAs c d with
        | (r, d') => (r, (d', w'))
      | (.throw e, w') => (.throw e, (d, w'))
      | (.ub u, w') => (.ub u, (d, w')) := by
  simp only [Session.getSingleAttributeSerializable, Prog.bind_def, Prog.andThen, Session.onWorld, Prog.zoom]
  rcases Session.sendRRDataCommand 0x0E (Path.mk3 x y z) none w with ⟨(r | e | u), w'⟩ <;> rfl

theorem getAttr_cases (x y z : UInt8) (w : World) :
    RRCases w (command w.s.sessionId 0x0E [.class' x, .instance' y, .attribute z] [])
      (Session.sendRRDataCommand 0x0E (Path.mk3 x y z) none w) :=
  sendRR_cases w (rr_serializes _ _ (path3 x y z) (data := none) rfl)

theorem setAttr_eq (x y z : UInt8) (data : Option Obj) (w : World) :
    Session.setSingleAttributeSerializable x y z data w =
      match Session.sendRRDataCommand 0x10 (Path.mk3 x y z) data w with
      | (.ok _, w') => (.ok (), w')
      | (.throw e, w') => (.throw e, w')
      | (.ub u, w') => (.ub u, w') := by
  simp only [Session.setSingleAttributeSerializable, Prog.bind_def, Prog.andThen]
  rcases Session.sendRRDataCommand 0x10 (Path.mk3 x y z) data w with ⟨(r | e | u), w'⟩ <;> rfl

theorem setAttr_cases (x y z : UInt8) {data : Option Obj} {bs : Bytes} (hd : EncodesOpt data bs) (w : World) :
    RRCases w (command w.s.sessionId 0x10 [.class' x, .instance' y, .attribute z] bs)
      (Session.sendRRDataCommand 0x10 (Path.mk3 x y z) data w) :=
  sendRR_cases w (rr_serializes _ _ (path3 x y z) hd)

/-! ### Connections -/

/-- The world after the connection counters have been advanced (src/session.cpp:302-304). -/
def World.bumped (w : World) : World :=
  { w with s := { w.s with
      nextConnectionSn := w.s.nextConnectionSn + 1
      nextConnectionId := w.s.nextConnectionId + 1 + 1 } }

/-- The bytes `createConnection` sends. -/
def openBytes (s : Session) (o t : ConnectionInfo) : Bytes :=
  command s.sessionId 0x5B [.class' 6, .instance' 1]
    (forwardOpenBytes (s.prepareConnection o t).createForwardOpenRequest)

/-- The bytes `closeConnection` sends for a connection. -/
def closeBytes (id : UInt32) (c : Connection) : Bytes :=
  command id 0x4E [.class' 6, .instance' 1]
    (forwardClose c.timeoutTickSize c.timeoutTicks c.connectionSn c.originatorVendorId c.originatorSn
      (path true [.class' 2, .instance' 1]))

theorem closeRequest_encodes (c : Connection) : Encodes c.createForwardCloseRequest.obj
    (forwardClose c.timeoutTickSize c.timeoutTicks c.connectionSn c.originatorVendorId c.originatorSn
      (path true [.class' 2, .instance' 1])) := by
  have := ForwardCloseRequest.encodes c.createForwardCloseRequest rfl
  have e : le 1 ((Path.mk2 2 1).buf.length / 2) ++ [0] ++ (Path.mk2 2 1).buf =
    path true [.class' 2, .instance' 1] := by decide
  rw [show c.createForwardCloseRequest.path = Path.mk2 2 1 from rfl, e] at this
  exact this

theorem openReply_cases (data : Bytes) (d : ForwardOpenSuccess) :
    (∃ oToT tToO sn vendor originator oApi tApi app, OpenReply data oToT tToO sn vendor originator oApi tApi ∧
      deserializeFrom ForwardOpenSuccess.cls data data.length d =
        (.ok (), ⟨oToT, tToO, sn, vendor, originator, oApi, tApi, app⟩)) ∨
    ((¬ ∃ oToT tToO sn vendor originator oApi tApi, OpenReply data oToT tToO sn vendor originator oApi tApi) ∧
      ∃ what d', deserializeFrom ForwardOpenSuccess.cls data data.length d = (.throw (lengthError what), d')) := by
  have hd : deserializeFrom ForwardOpenSuccess.cls data data.length d =
      match ForwardOpenSuccess.deserialize (d, .buffer ⟨data, 0⟩) with
      | (r, (d', _)) => (r, d') := rfl
  rcases covers_forwardOpenReply data with
    ⟨cs, tail, ⟨a1, a2, a3, a4, a5, a6, a7, k, r, app, ha, rfl⟩, e⟩ | ⟨cs, m, ⟨a1, a2, a3, a4, a5, a6, a7, k, r, app, ha, rfl⟩, hm, e⟩
  · left
    have h := (ForwardOpenSuccess.parses d a1 a2 a3 a4 a5 a6 a7 k r ha 0).buffer tail
    rw [← e] at h
    rw [h] at hd
    exact ⟨a1, a2, a3, a4, a5, a6, a7, _, ⟨k, r, app, tail, ha, e⟩, hd⟩
  · right
    obtain ⟨what, d1, r1, h⟩ := (ForwardOpenSuccess.parses d a1 a2 a3 a4 a5 a6 a7 k r ha 0).short data m e hm
    rw [h] at hd
    refine ⟨?_, what, d1, hd⟩
    rintro ⟨b1, b2, b3, b4, b5, b6, b7, k', r', app', tail', ha', e'⟩
    have h2 := (ForwardOpenSuccess.parses d b1 b2 b3 b4 b5 b6 b7 k' r' ha' 0).buffer tail'
    rw [← e', h] at h2
    simp at h2

theorem closeReply_cases (data : Bytes) (d : ForwardCloseSuccess) :
    (∃ sn vendor originator app, CloseReply data sn vendor originator ∧
      deserializeFrom ForwardCloseSuccess.cls data data.length d = (.ok (), ⟨sn, vendor, originator, app⟩)) ∨
    ((¬ ∃ sn vendor originator, CloseReply data sn vendor originator) ∧
      ∃ what d', deserializeFrom ForwardCloseSuccess.cls data data.length d = (.throw (lengthError what), d')) := by
  have hd : deserializeFrom ForwardCloseSuccess.cls data data.length d =
      match ForwardCloseSuccess.deserialize (d, .buffer ⟨data, 0⟩) with
      | (r, (d', _)) => (r, d') := rfl
  rcases covers_forwardCloseReply data with
    ⟨cs, tail, ⟨a3, a4, a5, k, r, app, ha, rfl⟩, e⟩ | ⟨cs, m, ⟨a3, a4, a5, k, r, app, ha, rfl⟩, hm, e⟩
  · left
    have h := (ForwardCloseSuccess.parses d a3 a4 a5 k r ha 0).buffer tail
    rw [← e] at h
    rw [h] at hd
    exact ⟨a3, a4, a5, _, ⟨k, r, app, tail, ha, e⟩, hd⟩
  · right
    obtain ⟨what, d1, r1, h⟩ := (ForwardCloseSuccess.parses d a3 a4 a5 k r ha 0).short data m e hm
    rw [h] at hd
    refine ⟨?_, what, d1, hd⟩
    rintro ⟨b3, b4, b5, k', r', app', tail', ha', e'⟩
    have h2 := (ForwardCloseSuccess.parses d b3 b4 b5 k' r' ha' 0).buffer tail'
    rw [← e', h] at h2
    simp at h2

theorem OpenReply.unique {data : Bytes} {a1 a2 b1 b2 : UInt32} {a3 a4 b3 b4 : UInt16} {a5 a6 a7 b5 b6 b7 : UInt32}
    (x : OpenReply data a1 a2 a3 a4 a5 a6 a7) (y : OpenReply data b1 b2 b3 b4 b5 b6 b7) :
    a1 = b1 ∧ a2 = b2 ∧ a3 = b3 ∧ a4 = b4 ∧ a5 = b5 ∧ a6 = b6 ∧ a7 = b7 := by
  obtain ⟨k, r, app, tail, ha, e⟩ := x
  obtain ⟨k', r', app', tail', ha', e'⟩ := y
  have h := (ForwardOpenSuccess.parses Session.freshForwardOpenSuccess a1 a2 a3 a4 a5 a6 a7 k r ha 0).buffer tail
  have h' := (ForwardOpenSuccess.parses Session.freshForwardOpenSuccess b1 b2 b3 b4 b5 b6 b7 k' r' ha' 0).buffer tail'
  rw [← e] at h
  rw [← e', h] at h'
  simp only [Prod.mk.injEq, true_and, ForwardOpenSuccess.mk.injEq] at h'
  exact ⟨h'.1.1, h'.1.2.1, h'.1.2.2.1, h'.1.2.2.2.1, h'.1.2.2.2.2.1, h'.1.2.2.2.2.2.1, h'.1.2.2.2.2.2.2.1⟩

theorem CloseReply.unique {data : Bytes} {a3 a4 b3 b4 : UInt16} {a5 b5 : UInt32}
    (x : CloseReply data a3 a4 a5) (y : CloseReply data b3 b4 b5) : a3 = b3 ∧ a4 = b4 ∧ a5 = b5 := by
  obtain ⟨k, r, app, tail, ha, e⟩ := x
  obtain ⟨k', r', app', tail', ha', e'⟩ := y
  have h := (ForwardCloseSuccess.parses Session.freshForwardCloseSuccess a3 a4 a5 k r ha 0).buffer tail
  have h' := (ForwardCloseSuccess.parses Session.freshForwardCloseSuccess b3 b4 b5 k' r' ha' 0).buffer tail'
  rw [← e] at h
  rw [← e', h] at h'
  simp only [Prod.mk.injEq, true_and, ForwardCloseSuccess.mk.injEq] at h'
  exact ⟨h'.1.1, h'.1.2.1, h'.1.2.2.1⟩

/-- The connection stored by a successful `createConnection`. -/
def Session.opened (s : Session) (o t : ConnectionInfo) (oToT tToO oApi tApi : UInt32) : Connection :=
  { s.prepareConnection o t with
    oToTConnectionId := oToT, tToOConnectionId := tToO, oToTApi := oApi, tToOApi := tApi }

/-- The world after a connection has been added. -/
def World.addConnection (w : World) (c : Connection) : World :=
  { w with s := { w.s with connections := w.s.connections ++ [c] } }

/-- All outcomes of `createConnection`. -/
inductive CreateCases (w : World) (o t : ConnectionInfo) : Res Int × World → Prop
  | thrown (e : Exn) (w' : World) (h : RRCases w.bumped (openBytes w.s o t) (.throw e, w')) :
      CreateCases w o t (.throw e, w')
  | crashed (u : UB) (w' : World) (h : RRCases w.bumped (openBytes w.s o t) (.ub u, w')) :
      CreateCases w o t (.ub u, w')
  | noData (s : UInt8) (hw : Works w.env w.clock)
      (h : Response w.s.sessionId (delivered w.env (w.clock + 1)) s 0 []) :
      CreateCases w o t (.ub .nullDeref, w.bumped.exchanged (openBytes w.s o t))
  | short (what : String) (s : UInt8) (data : Bytes) (hw : Works w.env w.clock)
      (h : Response w.s.sessionId (delivered w.env (w.clock + 1)) s 0 data) (hne : data ≠ [])
      (hn : ¬ ∃ oToT tToO sn vendor originator oApi tApi, OpenReply data oToT tToO sn vendor originator oApi tApi) :
      CreateCases w o t (.throw (lengthError what), w.bumped.exchanged (openBytes w.s o t))
  | mismatch (what : String) (s : UInt8) (data : Bytes) (oToT tToO : UInt32) (sn vendor : UInt16)
      (originator oApi tApi : UInt32) (hw : Works w.env w.clock)
      (h : Response w.s.sessionId (delivered w.env (w.clock + 1)) s 0 data)
      (hr : OpenReply data oToT tToO sn vendor originator oApi tApi)
      (hm : ¬ (sn = w.s.nextConnectionSn ∧ vendor = w.s.vendorId ∧ originator = w.s.serialNum)) :
      CreateCases w o t (.throw (logicError what), w.bumped.exchanged (openBytes w.s o t))
  | created (s : UInt8) (data : Bytes) (oToT tToO oApi tApi : UInt32) (hw : Works w.env w.clock)
      (h : Response w.s.sessionId (delivered w.env (w.clock + 1)) s 0 data)
      (hr : OpenReply data oToT tToO w.s.nextConnectionSn w.s.vendorId w.s.serialNum oApi tApi) :
      CreateCases w o t (.ok (sizeToInt (sizeSub (w.s.connections.length + 1) 1)),
        (w.bumped.exchanged (openBytes w.s o t)).addConnection (w.s.opened o t oToT tToO oApi tApi))

theorem verify_ok {c : Connection} {r : ForwardOpenSuccess} (h : r.connectionSn = c.connectionSn ∧
    r.originatorVendorId = c.originatorVendorId ∧ r.originatorSn = c.originatorSn) :
    c.verifyForwardOpenResult r = (true, { c with
      oToTConnectionId := r.oToTConnectionId, tToOConnectionId := r.tToOConnectionId
      oToTApi := r.oToTApi, tToOApi := r.tToOApi }) := by
  rw [Connection.verifyForwardOpenResult, if_neg (by simp [h])]
  by_cases h1 : r.oToTConnectionId ≠ c.oToTConnectionId
  · rw [if_pos h1]
    by_cases h2 : r.tToOConnectionId ≠ c.tToOConnectionId
    · simp [h2]
    · simp only [ne_eq, Decidable.not_not] at h2; simp [h2]
  · rw [if_neg h1]
    simp only [ne_eq, Decidable.not_not] at h1
    by_cases h2 : r.tToOConnectionId ≠ c.tToOConnectionId
    · simp [h2, h1]
    · simp only [ne_eq, Decidable.not_not] at h2; simp [h2, h1]

theorem verify_bad {c : Connection} {r : ForwardOpenSuccess} (h : ¬ (r.connectionSn = c.connectionSn ∧
    r.originatorVendorId = c.originatorVendorId ∧ r.originatorSn = c.originatorSn)) :
    c.verifyForwardOpenResult r = (false, c) := by
  rw [Connection.verifyForwardOpenResult, if_pos]
  by_cases h1 : r.connectionSn = c.connectionSn
  · by_cases h2 : r.originatorVendorId = c.originatorVendorId
    · exact Or.inr (Or.inr (fun h3 => h ⟨h1, h2, h3⟩))
    · exact Or.inr (Or.inl h2)
  · exact Or.inl h1

theorem create_cases (w : World) (o t : ConnectionInfo) : CreateCases w o t (Session.createConnection o t w) := by
  rw [Session.createConnection]
  have h1 : (Prog.get : Prog World World) w = (.ok w, w) := rfl
  rw [Prog.bind_ok h1]
  dsimp only
  have h2 : (Prog.modify (fun w : World => { w with s := { w.s with
    nextConnectionSn := w.s.nextConnectionSn + 1
    nextConnectionId := w.s.nextConnectionId + 1 + 1 } })) w = (.ok (), w.bumped) := rfl
  rw [Prog.bind_ok h2]
  have hrr : RRCases w.bumped (openBytes w.s o t) (Session.sendRRDataCommand 0x5B (Path.mk2 0x06 1)
        (some (w.s.prepareConnection o t).createForwardOpenRequest.obj) w.bumped) :=
    sendRR_cases w.bumped (rr_serializes _ _ (path2 6 1)
      (data := some (w.s.prepareConnection o t).createForwardOpenRequest.obj)
      (ForwardOpenRequest.encodes (w.s.prepareConnection o t).createForwardOpenRequest))
  rcases hres : Session.sendRRDataCommand 0x5B (Path.mk2 0x06 1)
        (some (w.s.prepareConnection o t).createForwardOpenRequest.obj) w.bumped with ⟨(resp | e | u), w'⟩
  · rw [hres] at hrr
    rw [Prog.bind_ok hres]
    cases hrr with
    | replied hw _ hr =>
      cases hr with
      | good base s a data hresp =>
        by_cases hne : data = []
        · subst hne
          have e2 : Session.onLocal (σ := World) Session.freshForwardOpenSuccess
            ((RRDataResponse.mk base ⟨s, 0, rawData a, rawData []⟩).getResponseDataAs ForwardOpenSuccess.cls)
            (w.bumped.exchanged (openBytes w.s o t)) = (.ub .nullDeref, w.bumped.exchanged (openBytes w.s o t)) := rfl
          rw [Prog.bind_ub e2]
          exact .noData s hw hresp
        · have e1 := getResponseDataAs_raw ForwardOpenSuccess.cls rfl base s 0 (rawData a) hne Session.freshForwardOpenSuccess
          rcases openReply_cases data Session.freshForwardOpenSuccess with
            ⟨oToT, tToO, sn, vendor, originator, oApi, tApi, app, hrep, e2⟩ | ⟨hn, what, d', e2⟩
          · have e3 : Session.onLocal (σ := World) Session.freshForwardOpenSuccess
              ((RRDataResponse.mk base ⟨s, 0, rawData a, rawData data⟩).getResponseDataAs ForwardOpenSuccess.cls)
              (w.bumped.exchanged (openBytes w.s o t)) =
              (.ok ⟨oToT, tToO, sn, vendor, originator, oApi, tApi, app⟩, w.bumped.exchanged (openBytes w.s o t)) := by
              rw [Session.onLocal, e1, e2]
            rw [Prog.bind_ok e3]
            by_cases hm : sn = w.s.nextConnectionSn ∧ vendor = w.s.vendorId ∧ originator = w.s.serialNum
            · obtain ⟨rfl, rfl, rfl⟩ := hm
              rw [verify_ok ⟨rfl, rfl, rfl⟩]
              have fin : CreateCases w o t (.ok (sizeToInt (sizeSub (w.s.connections.length + 1) 1)),
                  (w.bumped.exchanged (openBytes w.s o t)).addConnection (w.s.opened o t oToT tToO oApi tApi)) :=
                .created s data oToT tToO oApi tApi hw hresp hrep
              have hl : ∀ c : Connection, (w.s.connections ++ [c]).length = w.s.connections.length + 1 := by simp
              rw [← hl (w.s.opened o t oToT tToO oApi tApi)] at fin
              exact fin
            · rw [verify_bad hm]
              exact .mismatch _ s data oToT tToO sn vendor originator oApi tApi hw hresp hrep hm
          · have e3 : Session.onLocal (σ := World) Session.freshForwardOpenSuccess
              ((RRDataResponse.mk base ⟨s, 0, rawData a, rawData data⟩).getResponseDataAs ForwardOpenSuccess.cls)
              (w.bumped.exchanged (openBytes w.s o t)) =
              (.throw (lengthError what), w.bumped.exchanged (openBytes w.s o t)) := by
              rw [Session.onLocal, e1, e2]
            rw [Prog.bind_throw e3]
            exact .short what s data hw hresp hne hn
  · rw [Prog.bind_throw hres]
    exact .thrown e w' (hres ▸ hrr)
  · rw [Prog.bind_ub hres]
    exact .crashed u w' (hres ▸ hrr)

/-- The world after a connection has been removed. -/
def World.dropConnection (w : World) (n : Nat) : World :=
  { w with s := { w.s with connections := w.s.connections.eraseIdx n } }

/-- All outcomes of `closeConnection` for a connection in the list. -/
inductive CloseConnCases (w : World) (n : Nat) (c : Connection) : Res Unit × World → Prop
  | thrown (e : Exn) (w' : World) (h : RRCases w (closeBytes w.s.sessionId c) (.throw e, w')) :
      CloseConnCases w n c (.throw e, w')
  | crashed (u : UB) (w' : World) (h : RRCases w (closeBytes w.s.sessionId c) (.ub u, w')) :
      CloseConnCases w n c (.ub u, w')
  | noData (s : UInt8) (hw : Works w.env w.clock)
      (h : Response w.s.sessionId (delivered w.env (w.clock + 1)) s 0 []) :
      CloseConnCases w n c (.ub .nullDeref, w.exchanged (closeBytes w.s.sessionId c))
  | short (what : String) (s : UInt8) (data : Bytes) (hw : Works w.env w.clock)
      (h : Response w.s.sessionId (delivered w.env (w.clock + 1)) s 0 data) (hne : data ≠ [])
      (hn : ¬ ∃ sn vendor originator, CloseReply data sn vendor originator) :
      CloseConnCases w n c (.throw (lengthError what), w.exchanged (closeBytes w.s.sessionId c))
  | mismatch (what : String) (s : UInt8) (data : Bytes) (sn vendor : UInt16) (originator : UInt32)
      (hw : Works w.env w.clock)
      (h : Response w.s.sessionId (delivered w.env (w.clock + 1)) s 0 data)
      (hr : CloseReply data sn vendor originator)
      (hm : ¬ (sn = c.connectionSn ∧ vendor = c.originatorVendorId ∧ originator = c.originatorSn)) :
      CloseConnCases w n c (.throw (logicError what), w.exchanged (closeBytes w.s.sessionId c))
  | closed (s : UInt8) (data : Bytes) (hw : Works w.env w.clock)
      (h : Response w.s.sessionId (delivered w.env (w.clock + 1)) s 0 data)
      (hr : CloseReply data c.connectionSn c.originatorVendorId c.originatorSn) :
      CloseConnCases w n c (.ok (), (w.exchanged (closeBytes w.s.sessionId c)).dropConnection n)

theorem closeConn_cases (w : World) (n : Nat) (c : Connection) (hc : w.s.connections[n]? = some c) :
    CloseConnCases w n c (Session.closeConnection n w) := by
  have e0 : Session.closeConnection n w = (do
      let respData ← Session.sendRRDataCommand 0x4E (Path.mk2 0x06 1) (some c.createForwardCloseRequest.obj)
      let result ← Session.onLocal Session.freshForwardCloseSuccess (respData.getResponseDataAs ForwardCloseSuccess.cls)
      let w ← Prog.get
      match w.s.connections[n]? with
      | none => Prog.undef .indexOutOfRange
      | some c =>
        if c.verifyForwardCloseResult result then
          Prog.modify (fun w => { w with s := { w.s with connections := w.s.connections.eraseIdx n } })
        else Prog.raise (logicError "Forward Close Response Invalid") : Prog World Unit) w := by
    rw [Session.closeConnection]
    have : (Prog.get : Prog World World) w = (.ok w, w) := rfl
    rw [Prog.bind_ok this, hc]
    rfl
  rw [e0]
  have hrr : RRCases w (closeBytes w.s.sessionId c) (Session.sendRRDataCommand 0x4E (Path.mk2 0x06 1)
        (some c.createForwardCloseRequest.obj) w) :=
    sendRR_cases w (rr_serializes _ _ (path2 6 1) (data := some c.createForwardCloseRequest.obj)
      (closeRequest_encodes c))
  rcases hres : Session.sendRRDataCommand 0x4E (Path.mk2 0x06 1) (some c.createForwardCloseRequest.obj) w
    with ⟨(resp | e | u), w'⟩
  · rw [hres] at hrr
    rw [Prog.bind_ok hres]
    cases hrr with
    | replied hw _ hr =>
      cases hr with
      | good base s a data hresp =>
        by_cases hne : data = []
        · subst hne
          have e2 : Session.onLocal (σ := World) Session.freshForwardCloseSuccess
            ((RRDataResponse.mk base ⟨s, 0, rawData a, rawData []⟩).getResponseDataAs ForwardCloseSuccess.cls)
            (w.exchanged (closeBytes w.s.sessionId c)) = (.ub .nullDeref, w.exchanged (closeBytes w.s.sessionId c)) := rfl
          rw [Prog.bind_ub e2]
          exact .noData s hw hresp
        · have e1 := getResponseDataAs_raw ForwardCloseSuccess.cls rfl base s 0 (rawData a) hne Session.freshForwardCloseSuccess
          have hc' : (w.exchanged (closeBytes w.s.sessionId c)).s.connections[n]? = some c := hc
          rcases closeReply_cases data Session.freshForwardCloseSuccess with
            ⟨sn, vendor, originator, app, hrep, e2⟩ | ⟨hn, what, d', e2⟩
          · have e3 : Session.onLocal (σ := World) Session.freshForwardCloseSuccess
              ((RRDataResponse.mk base ⟨s, 0, rawData a, rawData data⟩).getResponseDataAs ForwardCloseSuccess.cls)
              (w.exchanged (closeBytes w.s.sessionId c)) =
              (.ok ⟨sn, vendor, originator, app⟩, w.exchanged (closeBytes w.s.sessionId c)) := by
              rw [Session.onLocal, e1, e2]
            rw [Prog.bind_ok e3]
            have eg : (Prog.get : Prog World World) (w.exchanged (closeBytes w.s.sessionId c)) =
              (.ok (w.exchanged (closeBytes w.s.sessionId c)), w.exchanged (closeBytes w.s.sessionId c)) := rfl
            rw [Prog.bind_ok eg, hc']
            dsimp only
            by_cases hm : sn = c.connectionSn ∧ vendor = c.originatorVendorId ∧ originator = c.originatorSn
            · rw [if_pos (by simp [Connection.verifyForwardCloseResult, hm])]
              obtain ⟨rfl, rfl, rfl⟩ := hm
              exact .closed s data hw hresp hrep
            · rw [if_neg (by simp only [Connection.verifyForwardCloseResult]; simpa using hm)]
              exact .mismatch _ s data sn vendor originator hw hresp hrep hm
          · have e3 : Session.onLocal (σ := World) Session.freshForwardCloseSuccess
              ((RRDataResponse.mk base ⟨s, 0, rawData a, rawData data⟩).getResponseDataAs ForwardCloseSuccess.cls)
              (w.exchanged (closeBytes w.s.sessionId c)) =
              (.throw (lengthError what), w.exchanged (closeBytes w.s.sessionId c)) := by
              rw [Session.onLocal, e1, e2]
            rw [Prog.bind_throw e3]
            exact .short what s data hw hresp hne hn
  · rw [Prog.bind_throw hres]
    exact .thrown e w' (hres ▸ hrr)
  · rw [Prog.bind_ub hres]
    exact .crashed u w' (hres ▸ hrr)

theorem closeConn_bad (w : World) (n : Nat) (hc : w.s.connections[n]? = none) :
    Session.closeConnection n w = (.ub .indexOutOfRange, w) := by
  rw [Session.closeConnection]
  have : (Prog.get : Prog World World) w = (.ok w, w) := rfl
  rw [Prog.bind_ok this, hc]
  rfl

end Eip
