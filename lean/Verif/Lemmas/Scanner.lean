import Verif.Spec.Scanner
import Verif.Lemmas.Payload
/-
What the scanner's handler does with a datagram.
-/
namespace Eip
open Spec

theorem onLocal_ok {σ δ : Type} {init d : δ} {p : Prog δ Unit} (h : p init = (.ok (), d)) (w : σ) :
    Session.onLocal init p w = (.ok d, w) := by simp [Session.onLocal, h]

theorem onLocal_throw {σ δ : Type} {init d : δ} {p : Prog δ Unit} {e : Exn} (h : p init = (.throw e, d)) (w : σ) :
    Session.onLocal init p w = (.throw e, w) := by simp [Session.onLocal, h]

theorem onLocal_ub {σ δ : Type} {init d : δ} {p : Prog δ Unit} {u : UB} (h : p init = (.ub u, d)) (w : σ) :
    Session.onLocal init p w = (.ub u, w) := by simp [Session.onLocal, h]

theorem from_cpf {l : List (UInt16 × Bytes)} (ok : CpfOk l) (tail : Bytes) (n : Nat) (d : CPFPacket) :
    deserializeFrom CPFPacket.cls (cpf l ++ tail) n d = (.ok (), ⟨l.map (fun i => ⟨i.1, rawData i.2⟩)⟩) := by
  have e := (CPFPacket.parses l ok.1 ok.2 d 0).buffer tail
  simp only [deserializeFrom, CPFPacket.cls, Class.runLen, delegateLen, BufferReader.new, e]
  rfl

theorem from_cpf_short {l : List (UInt16 × Bytes)} (ok : CpfOk l) {cut missing : Bytes} (e : cpf l = cut ++ missing)
    (hm : missing ≠ []) (n : Nat) (d : CPFPacket) :
    ∃ what d', deserializeFrom CPFPacket.cls cut n d = (.throw (lengthError what), d') := by
  obtain ⟨what, d1, r1, e'⟩ := (CPFPacket.parses l ok.1 ok.2 d 0).short cut missing e hm
  exact ⟨what, d1, by simp only [deserializeFrom, CPFPacket.cls, Class.runLen, delegateLen, BufferReader.new, e']⟩

theorem from_identity {x : IdentityItemData} (hx : x.productName.length < 256) (tail : Bytes) (n : Nat)
    (d : IdentityItemData) :
    deserializeFrom IdentityItemData.cls (identity x x.productName ++ tail) n d = (.ok (), x) := by
  have e := (IdentityItemData.parses d x hx 0).buffer tail
  simp only [deserializeFrom, IdentityItemData.cls, Class.runLen, delegateLen, BufferReader.new, e]

theorem from_identity_short {x : IdentityItemData} (hx : x.productName.length < 256) {cut missing : Bytes}
    (e : identity x x.productName = cut ++ missing) (hm : missing ≠ []) (n : Nat) (d : IdentityItemData) :
    ∃ what d', deserializeFrom IdentityItemData.cls cut n d = (.throw (lengthError what), d') := by
  obtain ⟨what, d1, r1, e'⟩ := (IdentityItemData.parses d x hx 0).short cut missing e hm
  exact ⟨what, d1, by simp only [deserializeFrom, IdentityItemData.cls, Class.runLen, delegateLen, BufferReader.new, e']⟩

theorem getDataAs_raw {δ : Type} (c : Class δ) (hc : c.assignBuffer = none) (t : UInt16) {data : Bytes} (hne : data ≠ [])
    (d : δ) : (CPFItem.mk t (rawData data)).getDataAs c d = deserializeFrom c data data.length d := by
  rw [rawData_of_ne hne]
  simp only [CPFItem.getDataAs, copySerializable, SerializableBuffer.obj, SerializableBuffer.getLength, hc]

theorem getDataAs_null {δ : Type} (c : Class δ) (t : UInt16) (d : δ) :
    (CPFItem.mk t (rawData [])).getDataAs c d = (.ub .nullDeref, d) := rfl

theorem cpf_ne (l : List (UInt16 × Bytes)) (tail : Bytes) : cpf l ++ tail ≠ [] := by
  intro h
  have := congrArg List.length h
  simp [cpf] at this

theorem identity_ne (x : IdentityItemData) (tail : Bytes) : identity x x.productName ++ tail ≠ [] := by
  intro h
  have := congrArg List.length h
  simp [identity] at this

namespace Scanner

/-- Everything of the handler after parsing the packet. -/
def afterPacket (env : ScanEnv) (pkt : EncapPacket) : Prog Scanner Unit :=
  if pkt.header.command ≠ cmdListIdentity then pure ()
  else do
    let payload ← Session.onLocal ⟨[]⟩ (pkt.getPayloadAs CPFPacket.cls)
    if payload.getItemCount.toNat < 1 then pure ()
    else
      match payload.items with
      | [] => Prog.raise (logicError "vector::_M_range_check")
      | item :: _ =>
        if item.itemType ≠ itemListIdentity then pure ()
        else do
          let id ← Session.onLocal { env.id with productName := [] } (item.getDataAs IdentityItemData.cls)
          Prog.modify (fun s => { s with log := s.log ++ [.reported id] })

theorem handleDatagram_packet (env : ScanEnv) {bytes : Bytes} {pkt : EncapPacket} (s : Scanner)
    (h : Session.parsePacket bytes s = (.ok pkt, s)) : handleDatagram env bytes s = afterPacket env pkt s :=
  Prog.bind_ok h

theorem afterPacket_other (env : ScanEnv) (pkt : EncapPacket) (s : Scanner) (h : pkt.header.command ≠ 0x63) :
    afterPacket env pkt s = (.ok (), s) := by
  have h' : pkt.header.command ≠ cmdListIdentity := h
  unfold afterPacket
  rw [if_pos h']
  rfl

theorem afterPacket_null (env : ScanEnv) (h : EncapHeader) (s : Scanner) (hc : h.command = 0x63) :
    afterPacket env ⟨h, rawData []⟩ s = (.ub .nullDeref, s) := by
  unfold afterPacket
  rw [if_neg (by simp [hc, cmdListIdentity])]
  exact Prog.bind_ub (onLocal_ub (getPayloadAs_null _ _ _) s)

theorem afterPacket_short (env : ScanEnv) (h : EncapHeader) (s : Scanner) (hc : h.command = 0x63) {payload missing : Bytes}
    (hne : payload ≠ []) {l : List (UInt16 × Bytes)} (ok : CpfOk l) (e : cpf l = payload ++ missing) (hm : missing ≠ []) :
    ∃ what, afterPacket env ⟨h, rawData payload⟩ s = (.throw (lengthError what), s) := by
  obtain ⟨what, d', e'⟩ := from_cpf_short ok e hm payload.length ⟨[]⟩
  refine ⟨what, ?_⟩
  unfold afterPacket
  rw [if_neg (by simp [hc, cmdListIdentity])]
  exact Prog.bind_throw (onLocal_throw ((getPayloadAs_raw _ rfl h hne _).trans e') s)

theorem afterPacket_cpf (env : ScanEnv) (h : EncapHeader) (s : Scanner) (hc : h.command = 0x63)
    {l : List (UInt16 × Bytes)} (ok : CpfOk l) (tail : Bytes) :
    afterPacket env ⟨h, rawData (cpf l ++ tail)⟩ s =
      match l with
      | [] => (.ok (), s)
      | (t, data) :: _ =>
        if t ≠ 0x0C then (.ok (), s)
        else (do
          let id ← Session.onLocal { env.id with productName := [] }
            ((CPFItem.mk t (rawData data)).getDataAs IdentityItemData.cls)
          Prog.modify (fun s => { s with log := s.log ++ [.reported id] }) : Prog Scanner Unit) s := by
  unfold afterPacket
  rw [if_neg (by simp [hc, cmdListIdentity])]
  rw [Prog.bind_ok (onLocal_ok ((getPayloadAs_raw _ rfl h (cpf_ne l tail) _).trans (from_cpf ok tail _ ⟨[]⟩)) s)]
  cases l with
  | nil => rfl
  | cons a l =>
    have hl : (l.length + 1) < 65536 := ok.1
    have : ¬ (CPFPacket.getItemCount ⟨(a :: l).map (fun i => ⟨i.1, rawData i.2⟩)⟩).toNat < 1 := by
      simp only [CPFPacket.getItemCount, List.length_map, List.length_cons]
      rw [toNat_ofNat16 hl]
      omega
    rw [if_neg this]
    simp only [List.map_cons]
    by_cases ht : a.1 ≠ 0x0C
    · have ht' : a.1 ≠ itemListIdentity := ht
      rw [if_pos ht, if_pos ht']
      rfl
    · have ht' : ¬ a.1 ≠ itemListIdentity := ht
      rw [if_neg ht, if_neg ht']

theorem item_data (env : ScanEnv) (t : UInt16) (s : Scanner) {x : IdentityItemData} (hx : x.productName.length < 256)
    (tail : Bytes) : (do
      let id ← Session.onLocal { env.id with productName := [] }
        ((CPFItem.mk t (rawData (identity x x.productName ++ tail))).getDataAs IdentityItemData.cls)
      Prog.modify (fun s => { s with log := s.log ++ [.reported id] }) : Prog Scanner Unit) s =
      (.ok (), { s with log := s.log ++ [.reported x] }) := by
  rw [Prog.bind_ok (onLocal_ok ((getDataAs_raw _ rfl t (identity_ne x tail) _).trans (from_identity hx tail _ _)) s)]
  rfl

end Scanner
end Eip
