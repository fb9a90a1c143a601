import Verif.Model.ScanLog
import Verif.Spec.Log
import Verif.Spec.Scanner
/-
What the scanner should log about an arrival. Only data types of the model are used.
-/
namespace Eip.Spec
open Eip

/-- Bytes in dotted decimal notation. -/
def dotted (bs : Bytes) : String := String.intercalate "." (bs.map (fun b => toString b.toNat))

/-- The number whose most significant byte comes first. -/
def networkValue (bs : Bytes) : Nat := bs.foldl (fun n b => 256 * n + b.toNat) 0

/-- The messages about a device: its identity as sent, the address and the port in network order. -/
def deviceReport (x : IdentityItemData) : List LogMsg :=
  [.idMessage, .idVersion x.encapProtocolVersion,
    .idAddress (dotted (le 4 x.sockaddr.addr.toNat)) (UInt16.ofNat (networkValue (le 2 x.sockaddr.port.toNat))),
    .idVendor x.vendorId, .idDeviceType x.deviceType, .idProductCode x.productCode, .idRevision x.revision.1 x.revision.2,
    .idStatus x.status, .idSerial x.serialNumber, .idName x.productName, .idState x.state]

/-- The warning about bytes after the frame. -/
def unusedWarning (payload tail : Bytes) : List LogMsg :=
  when (tail ≠ []) (.packetUnused (UInt64.ofNat (24 + payload.length + tail.length)) (UInt64.ofNat (24 + payload.length)))

/-- The warnings a list identity reply deserves before its items are looked at. -/
def scanWarnings (h : EncapHeader) (payload tail : Bytes) : List LogMsg :=
  unusedWarning payload tail ++ when (h.sessionHandle ≠ 0) (.scanHandle h.sessionHandle)
    ++ when (h.status ≠ 0) (.status h.status)
    ++ when (h.context ≠ (0, 0)) (.scanContext h.context.1 h.context.2)
    ++ when (h.options ≠ 0) (.options h.options)

/-- The warning about items after the first. -/
def moreWarning (more : List (UInt16 × Bytes)) : List LogMsg :=
  when (more ≠ []) (.scanMoreItems (UInt16.ofNat (more.length + 1)))

/-- The datagram `bytes` deserves these messages. -/
inductive ScanSays (bytes : Bytes) : List LogMsg → Prop
  /-- It is no complete frame. -/
  | frame (h : ¬ ∃ h payload tail, Frames bytes h payload tail) : ScanSays bytes [.scanShort]
  /-- It is the frame of another command. -/
  | command (h : EncapHeader) (payload tail : Bytes) (f : Frames bytes h payload tail) (c : h.command ≠ 0x63) :
      ScanSays bytes (unusedWarning payload tail ++ [.scanCommand 0x63 h.command])
  /-- The payload ends before its items do. -/
  | items (h : EncapHeader) (payload missing tail : Bytes) (l : List (UInt16 × Bytes)) (f : Frames bytes h payload tail)
      (c : h.command = 0x63) (ne : payload ≠ []) (ok : CpfOk l) (cut : cpf l = payload ++ missing) (m : missing ≠ []) :
      ScanSays bytes (scanWarnings h payload tail ++ [.scanShort])
  /-- There is no item. -/
  | none (h : EncapHeader) (rest tail : Bytes) (f : Frames bytes h (cpf [] ++ rest) tail) (c : h.command = 0x63) :
      ScanSays bytes (scanWarnings h (cpf [] ++ rest) tail ++ [.scanNoItems])
  /-- The first item is of another type. -/
  | type (h : EncapHeader) (t : UInt16) (data rest tail : Bytes) (more : List (UInt16 × Bytes))
      (f : Frames bytes h (cpf ((t, data) :: more) ++ rest) tail) (c : h.command = 0x63) (ok : CpfOk ((t, data) :: more))
      (ne : t ≠ 0x0C) :
      ScanSays bytes (scanWarnings h (cpf ((t, data) :: more) ++ rest) tail ++ moreWarning more ++ [.scanItemType 0x0C t])
  /-- The identity item ends before the identity does. -/
  | item (h : EncapHeader) (data missing rest tail : Bytes) (more : List (UInt16 × Bytes)) (x : IdentityItemData)
      (f : Frames bytes h (cpf ((0x0C, data) :: more) ++ rest) tail) (c : h.command = 0x63)
      (ok : CpfOk ((0x0C, data) :: more)) (ne : data ≠ []) (name : x.productName.length < 256)
      (cut : identity x x.productName = data ++ missing) (m : missing ≠ []) :
      ScanSays bytes (scanWarnings h (cpf ((0x0C, data) :: more) ++ rest) tail ++ moreWarning more ++ [.scanShort])
  /-- There is an identity. -/
  | device (h : EncapHeader) (data extra rest tail : Bytes) (more : List (UInt16 × Bytes)) (x : IdentityItemData)
      (f : Frames bytes h (cpf ((0x0C, data) :: more) ++ rest) tail) (c : h.command = 0x63)
      (ok : CpfOk ((0x0C, data) :: more)) (name : x.productName.length < 256)
      (e : data = identity x x.productName ++ extra) :
      ScanSays bytes (scanWarnings h (cpf ((0x0C, data) :: more) ++ rest) tail ++ moreWarning more ++ deviceReport x)

end Eip.Spec
