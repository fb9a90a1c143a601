import Verif.Spec.ScanLog
import Verif.Lemmas.LogExact
import Verif.Props.Scanner
/-
The messages of the scanner's handler.
-/
namespace Eip
open Spec

theorem tell_then {β : Type} (m : LogMsg) (p : Prog LogScanner β) (s : Scanner) (l : List LogMsg) :
    (tell m >>= fun _ => p) ⟨s, l⟩ = p ⟨s, l ++ [m]⟩ := rfl

theorem tellIf_then {β : Type} (c : Prop) [Decidable c] (m : LogMsg) (p : Prog LogScanner β) (s : Scanner)
    (l : List LogMsg) : (tellIf c m >>= fun _ => p) ⟨s, l⟩ = p ⟨s, l ++ when c m⟩ := by
  by_cases h : c
  · simp only [tellIf, if_pos h, when]; rfl
  · simp only [tellIf, if_neg h, when, List.append_nil]; rfl

theorem tellAll_then {β : Type} (ms : List LogMsg) (p : Prog LogScanner β) (s : Scanner) (l : List LogMsg) :
    (tellAll ms >>= fun _ => p) ⟨s, l⟩ = p ⟨s, l ++ ms⟩ := by
  induction ms generalizing l with
  | nil => rw [List.append_nil]; rfl
  | cons m ms ih =>
    have : (tellAll (m :: ms) >>= fun _ => p) ⟨s, l⟩ = (tellAll ms >>= fun _ => p) ⟨s, l ++ [m]⟩ := rfl
    rw [this, ih, List.append_assoc]
    rfl

namespace Scanner.Logged

theorem report_eq (x : IdentityItemData) : report x = deviceReport x := by
  have h1 : inetNtoa x.sockaddr.addr = dotted (le 4 x.sockaddr.addr.toNat) := by
    have e : ∀ n : Nat, dotted (le 4 n) = toString (n / 256 ^ 0 % 256) ++ "." ++ toString (n / 256 ^ 1 % 256) ++ "." ++
        toString (n / 256 ^ 2 % 256) ++ "." ++ toString (n / 256 ^ 3 % 256) := by
      intro n
      have h : ∀ i : Nat, (UInt8.ofNat (n / 256 ^ i % 256)).toNat = n / 256 ^ i % 256 := fun i => by simp
      have e4 : le 4 n = [UInt8.ofNat (n / 256 ^ 0 % 256), UInt8.ofNat (n / 256 ^ 1 % 256),
        UInt8.ofNat (n / 256 ^ 2 % 256), UInt8.ofNat (n / 256 ^ 3 % 256)] := rfl
      have e5 : ∀ a b c d : UInt8, dotted [a, b, c, d] = toString a.toNat ++ "." ++ toString b.toNat ++ "." ++
          toString c.toNat ++ "." ++ toString d.toNat := fun _ _ _ _ => rfl
      rw [e4, e5, h, h, h, h]
    rw [e]
    simp [inetNtoa]
  have h2 : ntohs x.sockaddr.port = UInt16.ofNat (networkValue (le 2 x.sockaddr.port.toNat)) := by
    have hp := x.sockaddr.port.toNat_lt
    have e2 : ∀ n : Nat, networkValue (le 2 n) = 256 * (n % 256) + n / 256 % 256 := by
      intro n
      have e4 : le 2 n = [UInt8.ofNat (n / 256 ^ 0 % 256), UInt8.ofNat (n / 256 ^ 1 % 256)] := rfl
      simp [e4, networkValue]
    rw [e2, Nat.mod_eq_of_lt (a := x.sockaddr.port.toNat / 256) (by omega), Nat.mul_comm 256]
    rfl
  simp only [report, deviceReport, h1, h2]

/-- Everything of the handler after the warnings about the header. -/
def afterHeader (env : ScanEnv) (pkt : EncapPacket) : Prog LogScanner Unit := do
  let payload ← Session.onLocal ⟨[]⟩ (pkt.getPayloadAs CPFPacket.cls)
  if payload.getItemCount.toNat < 1 then tell .scanNoItems
  else do
    tellIf (payload.getItemCount.toNat > 1) (.scanMoreItems payload.getItemCount)
    match payload.items with
    | [] => Prog.raise (logicError "vector::_M_range_check")
    | item :: _ =>
      if item.itemType ≠ itemListIdentity then tell (.scanItemType itemListIdentity item.itemType)
      else do
        let id ← Session.onLocal { env.id with productName := [] } (item.getDataAs IdentityItemData.cls)
        tellAll (report id)
        untold (Prog.modify (fun s => { s with log := s.log ++ [.reported id] }))

theorem frame_length (h : EncapHeader) (payload tail : Bytes) :
    (header h ++ payload ++ tail).length = 24 + payload.length + tail.length := by
  simp [header]
  omega

theorem unused_eq (h : EncapHeader) (payload tail : Bytes) :
    when (24 + payload.length ≠ (header h ++ payload ++ tail).length)
      (.packetUnused (UInt64.ofNat (header h ++ payload ++ tail).length) (UInt64.ofNat (24 + payload.length))) =
      unusedWarning payload tail := by
  rw [frame_length]
  refine when_iff ?_ _
  rw [ne_eq, ne_eq, ← List.length_eq_zero_iff]
  omega

theorem handle_other (env : ScanEnv) (h : EncapHeader) {payload : Bytes} (tail : Bytes)
    (hl : payload.length = h.length.toNat) (hc : h.command ≠ 0x63) (s : Scanner) (l : List LogMsg) :
    handleDatagram env (header h ++ payload ++ tail) ⟨s, l⟩ =
      (.ok (), ⟨s, l ++ (unusedWarning payload tail ++ [.scanCommand 0x63 h.command])⟩) := by
  rw [handleDatagram, Prog.bind_ok (loggedParse_ok h tail hl _)]
  show (tellIf _ _ >>= fun _ => _) _ = _
  have hc' : h.command ≠ cmdListIdentity := hc
  rw [tellIf_then, unused_eq, if_pos hc', ← List.append_assoc]
  rfl

theorem handle_header (env : ScanEnv) (h : EncapHeader) {payload : Bytes} (tail : Bytes)
    (hl : payload.length = h.length.toNat) (hc : h.command = 0x63) (s : Scanner) (l : List LogMsg) :
    handleDatagram env (header h ++ payload ++ tail) ⟨s, l⟩ =
      afterHeader env ⟨h, rawData payload⟩ ⟨s, l ++ scanWarnings h payload tail⟩ := by
  rw [handleDatagram, Prog.bind_ok (loggedParse_ok h tail hl _)]
  show (tellIf _ _ >>= fun _ => _) _ = _
  have hx : when (h.context.1 ≠ 0 ∨ h.context.2 ≠ 0) (.scanContext h.context.1 h.context.2) =
    when (h.context ≠ (0, 0)) (.scanContext h.context.1 h.context.2) := when_iff (Logs.context_iff h) _
  rw [tellIf_then, unused_eq, if_neg (by simp [hc, cmdListIdentity]), tellIf_then, tellIf_then, tellIf_then, tellIf_then,
    hx]
  simp only [scanWarnings, List.append_assoc]
  rfl

theorem after_null (env : ScanEnv) (h : EncapHeader) (s : LogScanner) :
    afterHeader env ⟨h, rawData []⟩ s = (.ub .nullDeref, s) :=
  Prog.bind_ub (onLocal_ub (getPayloadAs_null _ _ _) s)

theorem after_short (env : ScanEnv) (h : EncapHeader) (s : LogScanner) {payload missing : Bytes}
    (hne : payload ≠ []) {l : List (UInt16 × Bytes)} (ok : CpfOk l) (e : cpf l = payload ++ missing) (hm : missing ≠ []) :
    ∃ what, afterHeader env ⟨h, rawData payload⟩ s = (.throw (lengthError what), s) := by
  obtain ⟨what, d', e'⟩ := from_cpf_short ok e hm payload.length ⟨[]⟩
  exact ⟨what, Prog.bind_throw (onLocal_throw ((getPayloadAs_raw _ rfl h hne _).trans e') s)⟩

theorem after_none (env : ScanEnv) (h : EncapHeader) (s : Scanner) (l : List LogMsg) (tail : Bytes) :
    afterHeader env ⟨h, rawData (cpf [] ++ tail)⟩ ⟨s, l⟩ = (.ok (), ⟨s, l ++ [.scanNoItems]⟩) := by
  have ok : CpfOk [] := ⟨by decide, by simp⟩
  unfold afterHeader
  rw [Prog.bind_ok (onLocal_ok ((getPayloadAs_raw _ rfl h (cpf_ne [] tail) _).trans (from_cpf ok tail _ ⟨[]⟩)) _)]
  rfl

/-- What is done with the first item. -/
def firstItem (env : ScanEnv) (t : UInt16) (data : Bytes) : Prog LogScanner Unit :=
  if t ≠ 0x0C then tell (.scanItemType 0x0C t)
  else do
    let id ← Session.onLocal { env.id with productName := [] }
      ((CPFItem.mk t (rawData data)).getDataAs IdentityItemData.cls)
    tellAll (report id)
    untold (Prog.modify (fun s => { s with log := s.log ++ [.reported id] }))

theorem after_items (env : ScanEnv) (h : EncapHeader) (s : Scanner) (l : List LogMsg) (tail : Bytes) (t : UInt16)
    (data : Bytes) (more : List (UInt16 × Bytes)) (ok : CpfOk ((t, data) :: more)) :
    afterHeader env ⟨h, rawData (cpf ((t, data) :: more) ++ tail)⟩ ⟨s, l⟩ =
      firstItem env t data ⟨s, l ++ moreWarning more⟩ := by
  unfold afterHeader
  rw [Prog.bind_ok (onLocal_ok ((getPayloadAs_raw _ rfl h (cpf_ne _ tail) _).trans (from_cpf ok tail _ ⟨[]⟩)) _)]
  have hl : (more.length + 1) < 65536 := ok.1
  have hcount : (CPFPacket.getItemCount ⟨((t, data) :: more).map (fun i => ⟨i.1, rawData i.2⟩)⟩) =
      UInt16.ofNat (more.length + 1) := by
    simp only [CPFPacket.getItemCount, List.length_map, List.length_cons]
  rw [hcount, if_neg (by rw [toNat_ofNat16 hl]; omega), tellIf_then]
  have hw : when ((UInt16.ofNat (more.length + 1)).toNat > 1) (.scanMoreItems (UInt16.ofNat (more.length + 1))) =
      moreWarning more := by
    refine when_iff ?_ _
    rw [toNat_ofNat16 hl, ne_eq, ← List.length_eq_zero_iff]
    omega
  rw [hw]
  rfl

theorem first_device (env : ScanEnv) (s : Scanner) (l : List LogMsg) {x : IdentityItemData}
    (hx : x.productName.length < 256) (extra : Bytes) :
    firstItem env 0x0C (identity x x.productName ++ extra) ⟨s, l⟩ =
      (.ok (), ⟨{ s with log := s.log ++ [.reported x] }, l ++ deviceReport x⟩) := by
  rw [firstItem, if_neg (by simp),
    Prog.bind_ok (onLocal_ok ((getDataAs_raw _ rfl _ (identity_ne x extra) _).trans (from_identity hx extra _ _)) _),
    tellAll_then, report_eq]
  rfl

theorem first_short (env : ScanEnv) (s : LogScanner) {x : IdentityItemData} (hx : x.productName.length < 256)
    {data missing : Bytes} (hd : data ≠ []) (e : identity x x.productName = data ++ missing) (hm : missing ≠ []) :
    ∃ what, firstItem env 0x0C data s = (.throw (lengthError what), s) := by
  obtain ⟨what, d', e2⟩ := from_identity_short hx e hm data.length { env.id with productName := [] }
  refine ⟨what, ?_⟩
  rw [firstItem, if_neg (by simp)]
  exact Prog.bind_throw (onLocal_throw ((getDataAs_raw _ rfl _ hd _).trans e2) s)

theorem first_null (env : ScanEnv) (s : LogScanner) : firstItem env 0x0C [] s = (.ub .nullDeref, s) := by
  rw [firstItem, if_neg (by simp)]
  exact Prog.bind_ub (onLocal_ub (getDataAs_null _ _ _) s)

theorem handle_short {bytes : Bytes} (hn : ¬ ∃ h payload tail, Frames bytes h payload tail) (env : ScanEnv)
    (s : LogScanner) : ∃ what, handleDatagram env bytes s = (.throw (lengthError what), s) := by
  rcases covers_encap bytes with ⟨cs, tail, ⟨h, p, hl, rfl⟩, e⟩ | ⟨cs, m, ⟨h, p, hl, rfl⟩, hm, e⟩
  · exact absurd ⟨h, p, tail, hl.symm, e⟩ hn
  · obtain ⟨what, d1, r1, e'⟩ := (EncapPacket.parses EncapPacket.new h hl 0).short bytes m e hm
    refine ⟨what, ?_⟩
    have : Session.Logged.parsePacket bytes s = (.throw (lengthError what), s) := by
      simp only [Session.Logged.parsePacket, BufferReader.new, e']
    rw [handleDatagram, Prog.bind_throw this]

end Scanner.Logged
end Eip
