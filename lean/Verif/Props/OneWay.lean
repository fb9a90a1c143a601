import Verif.Lemmas.Reply
import Verif.Lemmas.Write
import Verif.Model.OneWay
/-
C105: classes that go one way only.
-/
namespace Eip
open Spec

/-- C105 for replies. Serializing a message router response or a forward open or close reply throws the logic error "Not
implemented" and writes nothing, to any writer. -/
theorem c105_replies (w : Writer) :
    (∀ r : MessageRouterResponse, r.obj.serialize w = (.throw (logicError "Not implemented"), w)) ∧
    (∀ r : ForwardOpenSuccess, r.obj.serialize w = (.throw (logicError "Not implemented"), w)) ∧
    (∀ r : ForwardCloseSuccess, r.obj.serialize w = (.throw (logicError "Not implemented"), w)) :=
  ⟨fun _ => rfl, fun _ => rfl, fun _ => rfl⟩

/-- C105 for requests. Parsing a path, a message router request or a forward open or close request, with or without a
length, throws the logic error "Not implemented" and changes neither object nor reader. -/
theorem c105_requests (r : Reader) (n : Nat) :
    (∀ d, Path.cls.deserialize (d, r) = (.throw (logicError "Not implemented"), (d, r)) ∧
      Path.cls.runLen n (d, r) = (.throw (logicError "Not implemented"), (d, r))) ∧
    (∀ d, MessageRouterRequest.cls.deserialize (d, r) = (.throw (logicError "Not implemented"), (d, r)) ∧
      MessageRouterRequest.cls.runLen n (d, r) = (.throw (logicError "Not implemented"), (d, r))) ∧
    (∀ d, ForwardOpenRequest.cls.deserialize (d, r) = (.throw (logicError "Not implemented"), (d, r)) ∧
      ForwardOpenRequest.cls.runLen n (d, r) = (.throw (logicError "Not implemented"), (d, r))) ∧
    (∀ d, ForwardCloseRequest.cls.deserialize (d, r) = (.throw (logicError "Not implemented"), (d, r)) ∧
      ForwardCloseRequest.cls.runLen n (d, r) = (.throw (logicError "Not implemented"), (d, r))) ∧
    (∀ d, MessageRouterResponse.cls.deserialize (d, r) = (.throw (logicError "Must have size to deserialize"), (d, r))) :=
  ⟨fun _ => ⟨rfl, rfl⟩, fun _ => ⟨rfl, rfl⟩, fun _ => ⟨rfl, rfl⟩, fun _ => ⟨rfl, rfl⟩, fun _ => rfl⟩

/-- C105 is false for RR data responses as sources: six bytes are written before the exception. -/
theorem c105_violated_response (r : RRDataResponse) (w : BufferWriter) (room : 6 ≤ w.rest.length) :
    r.serialize (.buffer w) = (.throw (logicError "Not implemented"),
      .buffer ⟨w.written ++ (le 4 r.base.interfaceHandle.toNat ++ le 2 r.base.timeout.toNat), w.rest.drop 6, w.byteCount + 6⟩) := by
  have h := (Writes.bind (Writes.write32 r.base.interfaceHandle) (Writes.write16 r.base.timeout)).fits w (by simpa using room)
  have e : r.serialize = (do (do Writer.write32 r.base.interfaceHandle; Writer.write16 r.base.timeout); notImplemented) := by
    simp only [RRDataResponse.serialize, Prog.bind_assoc]
  rw [e, Prog.bind_ok h]
  simp only [notImplemented, Prog.raise, le32_eq_le, le16_eq_le, List.length_append, le_length]

/-- C105 is false for RR data requests as destinations: every well-formed RR data message is refused, but only after it has
replaced the interface handle and the timeout. -/
theorem c105_violated_request (d : RRDataRequest) (handle : UInt32) (timeout : UInt16) (l : List (UInt16 × Bytes))
    (ok : CpfOk l) (tail : Bytes) (c : Nat) :
    ∃ what r', RRDataRequest.cls.deserialize (d, .buffer ⟨le 4 handle.toNat ++ le 2 timeout.toNat ++ cpf l ++ tail, c⟩) =
      (.throw (logicError what), (⟨⟨handle, timeout⟩, d.mr⟩, r')) := by
  have h := RRData.deserialize_eq (fun r : RRDataRequest => r.base) (fun b r => { r with base := b })
    (fun _ => notImplemented) (fun _ _ => rfl) (fun _ _ _ => rfl) d handle timeout ok tail c
  have e : RRDataRequest.cls.deserialize = RRData.deserialize (fun r : RRDataRequest => r.base)
    (fun b r => { r with base := b }) (fun _ => notImplemented) := rfl
  rw [e]
  have eb : rrBytes handle timeout l = le 4 handle.toNat ++ le 2 timeout.toNat ++ cpf l := rfl
  rw [← eb, h]
  cases rrCheck l with
  | error s => exact ⟨_, _, rfl⟩
  | ok p => exact ⟨_, _, rfl⟩

/-- A parser that leaves the message router part of an RR data request alone. -/
def KeepsRouter {α : Type} (p : Prog (RRDataRequest × Reader) α) : Prop := ∀ s, (p s).2.1.mr = s.1.mr

theorem KeepsRouter.bind {α β : Type} {p : Prog (RRDataRequest × Reader) α} {f : α → Prog (RRDataRequest × Reader) β}
    (hp : KeepsRouter p) (hf : ∀ a, KeepsRouter (f a)) : KeepsRouter (p >>= f) := by
  intro s
  have h := hp s
  rcases e : p s with ⟨(a | x | x), s1⟩ <;> rw [e] at h
  · rw [Prog.bind_ok e]; exact (hf a s1).trans h
  · rw [Prog.bind_throw e]; exact h
  · rw [Prog.bind_ub e]; exact h

theorem KeepsRouter.onBase {α : Type} (p : Prog (RRData × Reader) α) :
    KeepsRouter (onPart (fun r : RRDataRequest => r.base) (fun b r => { r with base := b }) p) := fun _ => rfl

theorem KeepsRouter.front : KeepsRouter (rrFront (fun r : RRDataRequest => r.base) (fun b r => { r with base := b })) := by
  refine KeepsRouter.bind (KeepsRouter.onBase _) (fun _ => KeepsRouter.bind (KeepsRouter.onBase _) (fun _ s => ?_))
  unfold RRData.parseCPF parseFresh
  dsimp only
  split <;> rfl

theorem rrRest_throws (pkt : CPFPacket) (s : RRDataRequest × Reader) :
    ∃ what, rrRest (fun _ => notImplemented) pkt s = (.throw (logicError what), s) := by
  unfold rrRest
  split
  · exact ⟨_, rfl⟩
  · rcases pkt.items[0]? with _ | i0
    · exact ⟨_, rfl⟩
    · rcases pkt.items[1]? with _ | i1
      · exact ⟨_, rfl⟩
      · dsimp only
        split
        · exact ⟨_, rfl⟩
        · split
          · exact ⟨_, rfl⟩
          · split
            · exact ⟨_, rfl⟩
            · exact ⟨_, rfl⟩

/-- C105 (partial: what still holds for the two classes of RR data). Serializing an RR data response never returns normally,
nor does asking for its length; parsing into an RR data request never returns normally and never touches the message
router request. Missing: that nothing at all is changed, which is false. -/
theorem c105_rr_partial :
    (∀ (r : RRDataResponse) (w : Writer), (r.serialize w).1 ≠ .ok ()) ∧
    (∀ (r : RRDataResponse) (w : Writer), r.getLength w = (.throw (logicError "Not implemented"), w)) ∧
    (∀ s, (RRDataRequest.cls.deserialize s).1 ≠ .ok () ∧ (RRDataRequest.cls.deserialize s).2.1.mr = s.1.mr) := by
  refine ⟨fun r w => ?_, fun _ _ => rfl, fun s => ?_⟩
  · unfold RRDataResponse.serialize
    rcases h1 : Writer.write32 r.base.interfaceHandle w with ⟨(_ | _ | _), w1⟩
    · rw [Prog.bind_ok h1]
      rcases h2 : Writer.write16 r.base.timeout w1 with ⟨(_ | _ | _), w2⟩
      · rw [Prog.bind_ok h2]; simp [notImplemented, Prog.raise]
      · rw [Prog.bind_throw h2]; simp
      · rw [Prog.bind_ub h2]; simp
    · rw [Prog.bind_throw h1]; simp
    · rw [Prog.bind_ub h1]; simp
  · have e : RRDataRequest.cls.deserialize = rrFront (fun r : RRDataRequest => r.base) (fun b r => { r with base := b }) >>=
        rrRest (fun _ => notImplemented) := RRData.deserialize_split _ _ _
    rw [e]
    have k := KeepsRouter.front s
    rcases h : rrFront (fun r : RRDataRequest => r.base) (fun b r => { r with base := b }) s with ⟨(pkt | _ | _), s1⟩
    · rw [Prog.bind_ok h]
      rw [h] at k
      obtain ⟨what, e⟩ := rrRest_throws pkt s1
      rw [e]
      exact ⟨by simp, k⟩
    · rw [Prog.bind_throw h]; rw [h] at k; exact ⟨by simp, k⟩
    · rw [Prog.bind_ub h]; rw [h] at k; exact ⟨by simp, k⟩

/-- A response with handle 7 and timeout 9, written to ten bytes. -/
example : RRDataResponse.serialize ⟨⟨7, 9⟩, MessageRouterResponse.new⟩ (.buffer (BufferWriter.new (List.replicate 10 0))) =
    (.throw (logicError "Not implemented"), .buffer ⟨[7, 0, 0, 0, 9, 0], [0, 0, 0, 0], 6⟩) := by decide
/-- The message of `c105_violated_request` may be a reply of two items. -/
example : CpfOk [(0x0000, []), (0x00B2, [0x8E, 0, 0, 0])] := ⟨by decide, by decide⟩

end Eip
