import Verif.Model.Uninit
import Verif.Lemmas.Commands
/-
Parsing from a buffer does not depend on what the object was before (C121).
-/
namespace Eip
open Spec

/-- From a buffer, the outcome and what is left unread are the same whatever the object was. -/
def Overwrites {δ α : Type} (p : Prog (δ × Reader) α) : Prop :=
  ∀ br : BufferReader, ∃ (x : Res α) (g : δ → δ) (br' : BufferReader), ∀ d, p (d, .buffer br) = (x, (g d, .buffer br'))

theorem Overwrites.bind {δ α β : Type} {p : Prog (δ × Reader) α} {f : α → Prog (δ × Reader) β} (hp : Overwrites p)
    (hf : ∀ a, Overwrites (f a)) : Overwrites (p >>= f) := by
  intro br
  obtain ⟨x, g, br', h⟩ := hp br
  cases x with
  | ok a =>
    obtain ⟨y, g', br'', h'⟩ := hf a br'
    exact ⟨y, g' ∘ g, br'', fun d => by rw [Prog.bind_ok (h d), h']; rfl⟩
  | throw e => exact ⟨_, g, br', fun d => Prog.bind_throw (h d)⟩
  | ub u => exact ⟨_, g, br', fun d => Prog.bind_ub (h d)⟩

theorem Overwrites.pure {δ α : Type} (a : α) : Overwrites (Pure.pure a : Prog (δ × Reader) α) :=
  fun br => ⟨.ok a, id, br, fun _ => rfl⟩

theorem Overwrites.modify {δ : Type} (f : δ → δ) : Overwrites (modifyObj f) := fun br => ⟨.ok (), f, br, fun _ => rfl⟩

theorem Overwrites.member {δ τ : Type} {c : Codec τ} {n : Nat} (hc : ∀ v, (c.enc v).length = n) (getter : δ → τ)
    (setter : τ → δ → δ) : Overwrites (readMember c getter setter) := by
  intro br
  rcases e : BufferReader.readBuffer n br with ⟨x, br'⟩
  have run : ∀ d, onReader (δ := δ) (Reader.readInto (c.enc (getter d))) (d, .buffer br) = (x, (d, .buffer br')) := by
    intro d
    simp only [onReader, Prog.zoom, Reader.readInto, hc, e]
  cases x with
  | ok bs =>
    refine ⟨.ok (), setter (c.dec bs), br', fun d => ?_⟩
    rw [readMember, Prog.bind_ok (rfl : getObj (d, Reader.buffer br) = _), Prog.bind_ok (run d)]
    rfl
  | throw ex =>
    refine ⟨.throw ex, id, br', fun d => ?_⟩
    rw [readMember, Prog.bind_ok (rfl : getObj (d, Reader.buffer br) = _), Prog.bind_throw (run d)]
    rfl
  | ub u =>
    refine ⟨.ub u, id, br', fun d => ?_⟩
    rw [readMember, Prog.bind_ok (rfl : getObj (d, Reader.buffer br) = _), Prog.bind_ub (run d)]
    rfl

theorem Overwrites.local8 {δ : Type} : Overwrites (readLocal8 (δ := δ)) := by
  refine Overwrites.bind (fun br => ?_) (fun _ => Overwrites.pure _)
  rcases e : BufferReader.readBuffer 1 br with ⟨x, br'⟩
  exact ⟨x, id, br', fun d => by simp only [onReader, Prog.zoom, Reader.readLocal, e, id]⟩

theorem Overwrites.skip {δ : Type} (n : Nat) : Overwrites (onReader (δ := δ) (Reader.skip n)) := by
  intro br
  rcases e : BufferReader.skip n br with ⟨x, br'⟩
  exact ⟨x, id, br', fun d => by simp only [onReader, Prog.zoom, Reader.skip, e, id]⟩

theorem Overwrites.newBuffer {δ : Type} (n : Nat) : Overwrites (readNewBuffer (δ := δ) n) := by
  intro br
  rcases e : BufferReader.readBuffer n br with ⟨x, br'⟩
  cases x with
  | ok bs => exact ⟨.ok ⟨bs⟩, id, br', fun d => by
      simp only [readNewBuffer, parseFresh, SerializableBuffer.deserializeLen, e, id]⟩
  | throw ex => exact ⟨.throw ex, id, br', fun d => by
      simp only [readNewBuffer, parseFresh, SerializableBuffer.deserializeLen, e, id]⟩
  | ub u => exact ⟨.ub u, id, br', fun d => by
      simp only [readNewBuffer, parseFresh, SerializableBuffer.deserializeLen, e, id]⟩

theorem ForwardOpenSuccess.overwrites : Overwrites ForwardOpenSuccess.deserialize := by
  refine .bind (.member le32_length _ _) fun _ => .bind (.member le32_length _ _) fun _ => .bind (.member le16_length _ _) fun _ =>
    .bind (.member le16_length _ _) fun _ => .bind (.member le32_length _ _) fun _ => .bind (.member le32_length _ _) fun _ =>
    .bind (.member le32_length _ _) fun _ => .bind .local8 fun k => .bind (.skip 1) fun _ => ?_
  by_cases h : k.toNat > 0
  · rw [if_pos h]; exact .bind (.newBuffer _) fun _ => .modify _
  · rw [if_neg h]; exact .modify _

theorem ForwardCloseSuccess.overwrites : Overwrites ForwardCloseSuccess.deserialize := by
  refine .bind (.member le16_length _ _) fun _ => .bind (.member le16_length _ _) fun _ => .bind (.member le32_length _ _) fun _ =>
    .bind .local8 fun k => .bind (.skip 1) fun _ => ?_
  by_cases h : k.toNat > 0
  · rw [if_pos h]; exact .bind (.newBuffer _) fun _ => .modify _
  · rw [if_neg h]; exact .modify _

/-- What remains of a parse on a local object. -/
theorem onLocal_overwrites {δ : Type} {c : Class δ} {n : Nat} {data : Bytes}
    (overwrites : Overwrites (c.runLen n))
    (value : ∀ d d' v v' r r', c.runLen n (d, .buffer ⟨data, 0⟩) = (.ok (), (v, r)) →
      c.runLen n (d', .buffer ⟨data, 0⟩) = (.ok (), (v', r')) → v = v') (d d' : δ) {σ : Type} :
    Session.onLocal (σ := σ) d (deserializeFrom c data n) = Session.onLocal d' (deserializeFrom c data n) := by
  obtain ⟨x, g, br', h⟩ := overwrites ⟨data, 0⟩
  funext w
  simp only [Session.onLocal, deserializeFrom, BufferReader.new, h]
  cases x with
  | ok u =>
    cases u
    rw [value d d' _ _ _ _ (h d) (h d')]
  | throw e => rfl
  | ub u => rfl

theorem openReply_overwrites {σ : Type} (data : Bytes) (d d' : ForwardOpenSuccess) :
    Session.onLocal (σ := σ) d (deserializeFrom ForwardOpenSuccess.cls data data.length) =
      Session.onLocal d' (deserializeFrom ForwardOpenSuccess.cls data data.length) := by
  refine onLocal_overwrites (c := ForwardOpenSuccess.cls) ForwardOpenSuccess.overwrites (fun a b v v' r r' h h' => ?_) d d'
  change ForwardOpenSuccess.deserialize _ = _ at h
  change ForwardOpenSuccess.deserialize _ = _ at h'
  rcases covers_forwardOpenReply data with
    ⟨cs, tail, ⟨a1, a2, a3, a4, a5, a6, a7, k, x, app, ha, rfl⟩, e⟩ | ⟨cs, m, ⟨a1, a2, a3, a4, a5, a6, a7, k, x, app, ha, rfl⟩, hm, e⟩
  · rw [e, (ForwardOpenSuccess.parses a a1 a2 a3 a4 a5 a6 a7 k x ha 0).buffer tail] at h
    rw [e, (ForwardOpenSuccess.parses b a1 a2 a3 a4 a5 a6 a7 k x ha 0).buffer tail] at h'
    cases h; cases h'; rfl
  · obtain ⟨what, d1, r1, h2⟩ := (ForwardOpenSuccess.parses a a1 a2 a3 a4 a5 a6 a7 k x ha 0).short data m e hm
    rw [h2] at h
    cases h

theorem closeReply_overwrites {σ : Type} (data : Bytes) (d d' : ForwardCloseSuccess) :
    Session.onLocal (σ := σ) d (deserializeFrom ForwardCloseSuccess.cls data data.length) =
      Session.onLocal d' (deserializeFrom ForwardCloseSuccess.cls data data.length) := by
  refine onLocal_overwrites (c := ForwardCloseSuccess.cls) ForwardCloseSuccess.overwrites (fun a b v v' r r' h h' => ?_) d d'
  change ForwardCloseSuccess.deserialize _ = _ at h
  change ForwardCloseSuccess.deserialize _ = _ at h'
  rcases covers_forwardCloseReply data with
    ⟨cs, tail, ⟨a3, a4, a5, k, x, app, ha, rfl⟩, e⟩ | ⟨cs, m, ⟨a3, a4, a5, k, x, app, ha, rfl⟩, hm, e⟩
  · rw [e, (ForwardCloseSuccess.parses a a3 a4 a5 k x ha 0).buffer tail] at h
    rw [e, (ForwardCloseSuccess.parses b a3 a4 a5 k x ha 0).buffer tail] at h'
    cases h; cases h'; rfl
  · obtain ⟨what, d1, r1, h2⟩ := (ForwardCloseSuccess.parses a a3 a4 a5 k x ha 0).short data m e hm
    rw [h2] at h
    cases h

/-- The reply of a command holds no data or raw data. -/
theorem sendRR_raw {service : UInt8} {p : Path} {req : Option Obj} {w w' : World} {resp : RRDataResponse} {bs : Bytes}
    (h : RRCases w bs (Session.sendRRDataCommand service p req w))
    (e : Session.sendRRDataCommand service p req w = (.ok resp, w')) : ∃ base s a data,
      resp = ⟨base, ⟨s, 0, rawData a, rawData data⟩⟩ := by
  rw [e] at h
  cases h with
  | replied hw _ hr =>
    cases hr with
    | good base s a data hresp => exact ⟨base, s, a, data, rfl⟩

theorem getOpenReply_overwrites {σ : Type} (base : RRData) (s : UInt8) (a : Option Obj) (data : Bytes) (d d' : ForwardOpenSuccess) :
    Session.onLocal (σ := σ) d ((RRDataResponse.mk base ⟨s, 0, a, rawData data⟩).getResponseDataAs ForwardOpenSuccess.cls) =
      Session.onLocal d' ((RRDataResponse.mk base ⟨s, 0, a, rawData data⟩).getResponseDataAs ForwardOpenSuccess.cls) := by
  by_cases hne : data = []
  · subst hne; rfl
  · have h : (RRDataResponse.mk base ⟨s, 0, a, rawData data⟩).getResponseDataAs ForwardOpenSuccess.cls =
        deserializeFrom ForwardOpenSuccess.cls data data.length :=
      funext fun d => getResponseDataAs_raw ForwardOpenSuccess.cls rfl base s 0 a hne d
    rw [h]
    exact openReply_overwrites data d d'

theorem getCloseReply_overwrites {σ : Type} (base : RRData) (s : UInt8) (a : Option Obj) (data : Bytes) (d d' : ForwardCloseSuccess) :
    Session.onLocal (σ := σ) d ((RRDataResponse.mk base ⟨s, 0, a, rawData data⟩).getResponseDataAs ForwardCloseSuccess.cls) =
      Session.onLocal d' ((RRDataResponse.mk base ⟨s, 0, a, rawData data⟩).getResponseDataAs ForwardCloseSuccess.cls) := by
  by_cases hne : data = []
  · subst hne; rfl
  · have h : (RRDataResponse.mk base ⟨s, 0, a, rawData data⟩).getResponseDataAs ForwardCloseSuccess.cls =
        deserializeFrom ForwardCloseSuccess.cls data data.length :=
      funext fun d => getResponseDataAs_raw ForwardCloseSuccess.cls rfl base s 0 a hne d
    rw [h]
    exact closeReply_overwrites data d d'

theorem createIn_eq (g : Garbage) (o t : ConnectionInfo) : Session.createConnectionIn g o t = Session.createConnection o t := by
  funext w
  rw [Session.createConnection, Session.createConnectionIn]
  have h1 : (Prog.get : Prog World World) w = (.ok w, w) := rfl
  rw [Prog.bind_ok h1, Prog.bind_ok h1]
  have hc : Session.prepareConnectionIn g.connection w.s o t = Session.prepareConnection w.s o t := rfl
  have hq : ∀ c : Connection, c.createForwardOpenRequestIn g.openRequest = c.createForwardOpenRequest := fun _ => rfl
  dsimp only
  rw [hc, hq]
  have h2 : (Prog.modify (fun w : World => { w with s := { w.s with
    nextConnectionSn := w.s.nextConnectionSn + 1
    nextConnectionId := w.s.nextConnectionId + 1 + 1 } })) w = (.ok (), w.bumped) := rfl
  rw [Prog.bind_ok h2, Prog.bind_ok h2]
  have hrr : RRCases w.bumped (openBytes w.s o t) (Session.sendRRDataCommand 0x5B (Path.mk2 0x06 1)
        (some (w.s.prepareConnection o t).createForwardOpenRequest.obj) w.bumped) :=
    sendRR_cases w.bumped (rr_serializes _ _ (path2 6 1)
      (data := some (w.s.prepareConnection o t).createForwardOpenRequest.obj)
      (ForwardOpenRequest.encodes (w.s.prepareConnection o t).createForwardOpenRequest))
  rcases hres : Session.sendRRDataCommand 0x5B (Path.mk2 0x06 1)
        (some (w.s.prepareConnection o t).createForwardOpenRequest.obj) w.bumped with ⟨(resp | e | u), w'⟩
  · obtain ⟨base, s, a, data, rfl⟩ := sendRR_raw hrr hres
    rw [Prog.bind_ok hres, Prog.bind_ok hres, getOpenReply_overwrites _ _ _ _ _ Session.freshForwardOpenSuccess]
    rfl
  · rw [Prog.bind_throw hres, Prog.bind_throw hres]
  · rw [Prog.bind_ub hres, Prog.bind_ub hres]

theorem closeIn_eq (g : Garbage) (n : Nat) : Session.closeConnectionIn g n = Session.closeConnection n := by
  funext w
  rw [Session.closeConnection, Session.closeConnectionIn]
  have h1 : (Prog.get : Prog World World) w = (.ok w, w) := rfl
  rw [Prog.bind_ok h1, Prog.bind_ok h1]
  cases w.s.connections[n]? with
  | none => rfl
  | some c =>
    have hq : c.createForwardCloseRequestIn g.closeRequest = c.createForwardCloseRequest := rfl
    dsimp only
    rw [hq]
    have hrr : RRCases w (closeBytes w.s.sessionId c) (Session.sendRRDataCommand 0x4E (Path.mk2 0x06 1)
        (some c.createForwardCloseRequest.obj) w) :=
      sendRR_cases w (rr_serializes _ _ (path2 6 1) (data := some c.createForwardCloseRequest.obj)
        (closeRequest_encodes c))
    rcases hres : Session.sendRRDataCommand 0x4E (Path.mk2 0x06 1) (some c.createForwardCloseRequest.obj) w
      with ⟨(resp | e | u), w'⟩
    · obtain ⟨base, s, a, data, rfl⟩ := sendRR_raw hrr hres
      rw [Prog.bind_ok hres, Prog.bind_ok hres, getCloseReply_overwrites _ _ _ _ _ Session.freshForwardCloseSuccess]
      rfl
    · rw [Prog.bind_throw hres, Prog.bind_throw hres]
    · rw [Prog.bind_ub hres, Prog.bind_ub hres]

theorem runIn_eq (g : Garbage) (op : Op) : op.runIn g = op.run := by
  cases op with
  | createConnection o t => exact congrArg Prog.forget (createIn_eq g o t)
  | closeConnection n => exact closeIn_eq g n
  | _ => rfl

theorem runOpsIn_eq (g : Nat → Garbage) (ops : List Op) (w : World) : runOpsIn g ops w = runOps ops w := by
  induction ops generalizing g w with
  | nil => rfl
  | cons op ops ih =>
    simp only [runOpsIn, runOps, runIn_eq]
    rcases op.run w with ⟨(_ | _ | _), w'⟩
    · exact ih _ _
    · exact ih _ _
    · rfl

end Eip
