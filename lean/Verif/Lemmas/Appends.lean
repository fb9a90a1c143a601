import Verif.Lemmas.Ops
/-
What is sent when the data of a command does not write what it announced.
-/
namespace Eip
open Spec

theorem Appends.of_writes {p : Prog Writer Unit} {bs : Bytes} (h : Writes p bs) : Appends p := by
  intro bw w' e
  by_cases hf : bs.length ≤ bw.rest.length
  · rw [h.fits bw hf] at e
    simp only [Prod.mk.injEq, true_and] at e
    exact ⟨_, bs, e.symm, rfl⟩
  · obtain ⟨what, bw', _, e', _⟩ := h.full bw (by omega)
    rw [e] at e'
    simp at e'

theorem Appends.bind {p q : Prog Writer Unit} (hp : Appends p) (hq : Appends q) : Appends (do p; q) := by
  intro bw w' e
  obtain ⟨a, w1, e1, e2⟩ := Prog.bind_eq_ok e
  obtain ⟨bw1, x1, rfl, h1⟩ := hp bw w1 e1
  obtain ⟨bw2, x2, rfl, h2⟩ := hq bw1 w' e2
  exact ⟨bw2, x1 ++ x2, rfl, by rw [h2, h1, List.append_assoc]⟩

theorem Appends.pure : Appends (Pure.pure ()) := by
  intro bw w' e
  simp only [Prog.pure_apply, Prod.mk.injEq, true_and] at e
  exact ⟨bw, [], e.symm, by simp⟩

theorem Appends.raw (b : Bytes) : Appends (Writer.writeBuffer b) := by
  intro bw w' e
  simp only [Writer.writeBuffer, BufferWriter.writeBuffer] at e
  split at e
  · simp at e
  · simp only [Prod.mk.injEq, true_and] at e
    exact ⟨_, b, e.symm, rfl⟩

theorem Appends.path (p : Path) : Appends p.serialize := by
  refine Appends.bind (Appends.raw _) ?_
  dsimp only
  split
  · exact Appends.bind (Appends.raw _) (Appends.raw _)
  · exact Appends.raw _

theorem Appends.mr {r : MessageRouterRequest} (h : ∀ d, r.data = some d → Appends d.serialize) :
    Appends r.serialize := by
  refine Appends.bind (Appends.raw _) (Appends.bind (Appends.path _) ?_)
  cases hd : r.data with
  | some d => exact h d hd
  | none => exact Appends.pure

theorem Appends.item {i : CPFItem} (h : ∀ d, i.data = some d → Appends d.serialize) : Appends i.serialize := by
  refine Appends.bind (Appends.raw _) (Appends.bind (Appends.raw _) ?_)
  cases hd : i.data with
  | some d => exact h d hd
  | none => exact Appends.pure

theorem Appends.rr {r : RRDataRequest} (h : ∀ d, r.mr.data = some d → Appends d.serialize) : Appends r.serialize := by
  refine Appends.bind (Appends.raw _) (Appends.bind (Appends.raw _) (Appends.bind (Appends.raw _) ?_))
  refine Appends.bind (Appends.item ?_) (Appends.bind (Appends.item ?_) Appends.pure)
  · intro d hd; cases hd
  · intro d hd
    cases hd
    exact Appends.mr h

theorem frame_of_serializes {handle : UInt32} {service : UInt8} {p : Path} {data : Option Obj} {bs : Bytes}
    (h : Serializes (rrPacket handle service p data).obj bs) (hd : ∀ d, data = some d → Appends d.serialize) :
    FrameOf 0x6F handle bs := by
  have h := h ⟨Session.new 0 0 0 0 [], fun _ => ⟨false, [], 0⟩, 0, []⟩
  have hh := (EncapHeader.writes (rrPacket handle service p data).header)
  have hr : Appends (RRDataRequest.new service p data).serialize := Appends.rr hd
  simp only [serializeToVector] at h
  have es : (rrPacket handle service p data).obj.serialize = (do
    (rrPacket handle service p data).header.serialize
    (RRDataRequest.new service p data).serialize) := rfl
  rw [es] at h
  generalize hg : (rrPacket handle service p data).obj.getLength = n at h
  have hl : (Spec.header (rrPacket handle service p data).header).length = 24 := by simp [Spec.header]
  have hn : 24 ≤ n := by
    rw [← hg]
    exact Nat.le_add_right 24 _
  have e1 := hh.fits (BufferWriter.new (List.replicate n 0)) (by
    rw [hl]; simp only [BufferWriter.new, List.length_replicate]; exact hn)
  rw [Prog.bind_ok e1] at h
  generalize hw : (⟨(BufferWriter.new (List.replicate n 0)).written ++ _, _, _⟩ : BufferWriter) = bw at h
  rcases he : (RRDataRequest.new service p data).serialize (.buffer bw) with ⟨(x | e | u), w'⟩
  · rw [he] at h
    obtain ⟨bw', extra, rfl, h2⟩ := hr bw w' he
    simp only [Prod.mk.injEq, Res.ok.injEq, and_true] at h
    rw [← h, BufferWriter.memory, h2, ← hw]
    refine ⟨(rrPacket handle service p data).header.length.toNat, extra ++ bw'.rest, ?_⟩
    simp only [BufferWriter.new, List.nil_append, Spec.header, List.append_assoc]
    rfl
  · rw [he] at h; simp at h
  · rw [he] at h; simp at h

theorem FrameOf.command (handle : UInt32) (service : UInt8) (segs : List Segment) (data : Bytes) :
    FrameOf 0x6F handle (command handle service segs data) := ⟨_, _, rfl⟩

end Eip
