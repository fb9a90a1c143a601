import Verif.Model.CPF
/-
Encapsulation and CPF packets whose payloads are shared: `payload_` (encap_packet.h:157) and `item_data_`
(cpf_item.h:152) are `shared_ptr`s, which copies of a packet share and through which a program can change the object.
-/
namespace Eip

/-- An `EncapPacket` (encap_packet.h:50-158) with `payload_` as a pointer: the number of the object in the store, `none` if
null. -/
structure SharedPacket where
  header : EncapHeader
  payload : Option Nat

/-- A `CPFItem` (cpf_item.h:48-152) with `item_data_` as a pointer. -/
structure SharedItem where
  itemType : UInt16
  data : Option Nat

/-- The serializable objects held by `shared_ptr`s, the encapsulation packets and the CPF packets (cpf_packet.h:49-105) of a
program, each numbered in the order of their construction. When an object has no pointer left it is destroyed; it stays in
the list, where nothing refers to it. -/
structure Store where
  objs : List Obj
  packets : List SharedPacket
  cpfs : List (List SharedItem)

/-- Nothing constructed yet. -/
def Store.empty : Store := ⟨[], [], []⟩

/-- `*p` for a pointer that may be null. -/
def pointee (objs : List Obj) (p : Option Nat) : Option Obj := p.bind (objs[·]?)

/-- A packet as its functions see it. -/
def SharedPacket.look (objs : List Obj) (p : SharedPacket) : EncapPacket := ⟨p.header, pointee objs p.payload⟩

/-- An item as its functions see it. -/
def SharedItem.look (objs : List Obj) (i : SharedItem) : CPFItem := ⟨i.itemType, pointee objs i.data⟩

namespace SharedPacket

/-- `updateLength` (encap_packet.h:126-129). -/
def updateLength (objs : List Obj) (p : SharedPacket) : SharedPacket :=
  let length : UInt16 := match pointee objs p.payload with
    | some d => UInt16.ofNat d.getLength
    | none => 0
  { p with header := { p.header with length := length } }

/-- `deserialize(Reader&)` (src/encap_packet.cpp:61-75): `payload_` points to a new object, or is null. -/
def deserialize : Prog ((SharedPacket × List Obj) × Reader) Unit := do
  onPart (·.1.header) (fun h s => ({ s.1 with header := h }, s.2)) EncapHeader.deserialize
  let s ← getObj
  if s.1.header.length.toNat > 0 then do
    let sb ← readNewBuffer s.1.header.length.toNat
    modifyObj (fun s => ({ s.1 with payload := some s.2.length }, s.2 ++ [sb.obj]))
  else
    modifyObj (fun s => ({ s.1 with payload := none }, s.2))

/-- `deserialize(Reader&, size_t)` (src/encap_packet.cpp:77-98): `payload_` points to a new empty buffer, into which the data
is then read through the pointer. -/
def deserializeSized (length : Nat) : Prog ((SharedPacket × List Obj) × Reader) Unit := do
  let s0 ← getObj
  if length < s0.1.header.getLength then
    Prog.raise (lengthError "Deserialization size less than header size")
  else do
    onPart (·.1.header) (fun h s => ({ s.1 with header := h }, s.2)) EncapHeader.deserialize
    let s ← getObj
    if length ≠ s.1.header.getLength + s.1.header.length.toNat then
      Prog.raise (lengthError "Packet length different than given to deserialize")
    else if s.1.header.length.toNat > 0 then do
      modifyObj (fun s => ({ s.1 with payload := some s.2.length }, s.2 ++ [SerializableBuffer.empty.obj]))
      let sb ← readNewBuffer s.1.header.length.toNat
      modifyObj (fun s => (s.1, s.2.set (s.1.payload.getD 0) sb.obj))
    else
      modifyObj (fun s => ({ s.1 with payload := none }, s.2))

end SharedPacket

namespace SharedItem

/-- `deserialize(Reader&)` with `deserializeData` (src/cpf_item.cpp:64-84): `item_data_` points to a new empty buffer, into
which the data is then read through the pointer, or is null. -/
def deserialize : Prog ((SharedItem × List Obj) × Reader) Unit := do
  readMember .u16 (·.1.itemType) (fun v s => ({ s.1 with itemType := v }, s.2))
  let itemLength ← readLocal16
  if itemLength.toNat > 0 then do
    modifyObj (fun s => ({ s.1 with data := some s.2.length }, s.2 ++ [SerializableBuffer.empty.obj]))
    let sb ← readNewBuffer itemLength.toNat
    modifyObj (fun s => (s.1, s.2.set (s.1.data.getD 0) sb.obj))
  else
    modifyObj (fun s => ({ s.1 with data := none }, s.2))

/-- `CPFItem item; item.deserialize(reader);` (src/cpf_packet.cpp:63-64). -/
def parseNew : Prog ((List SharedItem × List Obj) × Reader) SharedItem := fun s =>
  match SharedItem.deserialize ((⟨itemNull, none⟩, s.1.2), s.2) with
  | (.ok (), ((i, objs), r)) => (.ok i, ((s.1.1, objs), r))
  | (.throw e, ((_, objs), r)) => (.throw e, ((s.1.1, objs), r))
  | (.ub u, ((_, objs), r)) => (.ub u, ((s.1.1, objs), r))

/-- The loop of `CPFPacket::deserialize` (src/cpf_packet.cpp:61-66). -/
def deserializeItems : Nat → Prog ((List SharedItem × List Obj) × Reader) Unit
  | 0 => pure ()
  | n + 1 => do
    let item ← parseNew
    modifyObj (fun s => (s.1 ++ [item], s.2))
    deserializeItems n

/-- `CPFPacket::deserialize(Reader&)` (src/cpf_packet.cpp:56-68). -/
def deserializePacket : Prog ((List SharedItem × List Obj) × Reader) Unit := do
  modifyObj (fun s => ([], s.2))
  let numItems ← readLocal16
  deserializeItems numItems.toNat

end SharedItem

/-- What a program can do with packets and the objects they share. -/
inductive ShareOp
  /-- `make_shared<T>(…)` by the program -/
  | make (o : Obj)
  /-- the program changes object `i` through some pointer to it, for example one it got from `getPayload`
  (encap_packet.h:87-90) or `getData` (cpf_item.h:87-90); the object is `o` afterwards -/
  | change (i : Nat) (o : Obj)
  /-- `EncapPacket(command, handle)` (encap_packet.h:57-58) -/
  | newPacket (command : UInt16) (handle : UInt32)
  /-- `EncapPacket(command, handle, payload)` (encap_packet.h:66-71) -/
  | newPacketWith (command : UInt16) (handle : UInt32) (payload : Option Nat)
  /-- the implicit copy constructor of `EncapPacket` -/
  | copyPacket (x : Nat)
  /-- the implicit copy assignment of `EncapPacket` -/
  | assignPacket (x y : Nat)
  /-- `setPayload` (encap_packet.h:96-100) -/
  | setPayload (x : Nat) (payload : Option Nat)
  /-- `updateLength` (encap_packet.h:126-129) -/
  | updateLength (x : Nat)
  /-- `getHeader() = h` (encap_packet.h:78-81), or an assignment to one of its members -/
  | setHeader (x : Nat) (h : EncapHeader)
  /-- `deserialize(reader)` (src/encap_packet.cpp:61-75) with a `BufferReader` on `input` -/
  | parse (x : Nat) (input : Bytes)
  /-- `deserialize(reader, n)` (src/encap_packet.cpp:77-98) with a `BufferReader` on `input` -/
  | parseSized (x n : Nat) (input : Bytes)
  /-- `CPFPacket()` -/
  | newCPF
  /-- the implicit copy constructor of `CPFPacket` -/
  | copyCPF (x : Nat)
  /-- the implicit copy assignment of `CPFPacket` -/
  | assignCPF (x y : Nat)
  /-- any change to `getItems()` (cpf_packet.h:66-69): adding items, `setData` (cpf_item.h:96-99), copying items … -/
  | setItems (x : Nat) (items : List SharedItem)
  /-- `CPFPacket::deserialize(reader)` with a `BufferReader` on `input` -/
  | parseCPF (x : Nat) (input : Bytes)

namespace Store

/-- Run a function on encapsulation packet `x`. A call on a packet that was never constructed is not part of any program
considered here; it does nothing. -/
def onPacket (x : Nat) (f : SharedPacket → List Obj → Res Unit × SharedPacket × List Obj) : Prog Store Unit := fun m =>
  match m.packets[x]? with
  | none => (.ok (), m)
  | some p =>
    match f p m.objs with
    | (r, p', objs) => (r, { m with packets := m.packets.set x p', objs := objs })

/-- Run a function on CPF packet `x`; see above. -/
def onCPF (x : Nat) (f : List SharedItem → List Obj → Res Unit × List SharedItem × List Obj) : Prog Store Unit := fun m =>
  match m.cpfs[x]? with
  | none => (.ok (), m)
  | some p =>
    match f p m.objs with
    | (r, p', objs) => (r, { m with cpfs := m.cpfs.set x p', objs := objs })

/-- Construct an encapsulation packet. -/
def addPacket (p : SharedPacket) : Prog Store Unit := Prog.modify (fun m => { m with packets := m.packets ++ [p] })

/-- Construct a CPF packet. -/
def addCPF (p : List SharedItem) : Prog Store Unit := Prog.modify (fun m => { m with cpfs := m.cpfs ++ [p] })

end Store

/-- One step of a program. -/
def ShareOp.run : ShareOp → Prog Store Unit
  | .make o => Prog.modify (fun m => { m with objs := m.objs ++ [o] })
  | .change i o => Prog.modify (fun m => { m with objs := m.objs.set i o })
  | .newPacket command handle => Store.addPacket ⟨.new command handle, none⟩
  | .newPacketWith command handle payload => fun m =>
    Store.addPacket (SharedPacket.updateLength m.objs ⟨.new command handle, payload⟩) m
  | .copyPacket x => fun m =>
    match m.packets[x]? with
    | none => (.ok (), m)
    | some p => Store.addPacket p m
  | .assignPacket x y => fun m =>
    match m.packets[y]? with
    | none => (.ok (), m)
    | some p => Store.onPacket x (fun _ objs => (.ok (), p, objs)) m
  | .setPayload x payload => Store.onPacket x (fun p objs => (.ok (), .updateLength objs { p with payload := payload }, objs))
  | .updateLength x => Store.onPacket x (fun p objs => (.ok (), p.updateLength objs, objs))
  | .setHeader x h => Store.onPacket x (fun p objs => (.ok (), { p with header := h }, objs))
  | .parse x input => Store.onPacket x (fun p objs =>
    match SharedPacket.deserialize ((p, objs), .buffer (BufferReader.new input)) with
    | (r, ((p', objs'), _)) => (r, p', objs'))
  | .parseSized x n input => Store.onPacket x (fun p objs =>
    match SharedPacket.deserializeSized n ((p, objs), .buffer (BufferReader.new input)) with
    | (r, ((p', objs'), _)) => (r, p', objs'))
  | .newCPF => Store.addCPF []
  | .copyCPF x => fun m =>
    match m.cpfs[x]? with
    | none => (.ok (), m)
    | some p => Store.addCPF p m
  | .assignCPF x y => fun m =>
    match m.cpfs[y]? with
    | none => (.ok (), m)
    | some p => Store.onCPF x (fun _ objs => (.ok (), p, objs)) m
  | .setItems x items => Store.onCPF x (fun _ objs => (.ok (), items, objs))
  | .parseCPF x input => Store.onCPF x (fun p objs =>
    match SharedItem.deserializePacket ((p, objs), .buffer (BufferReader.new input)) with
    | (r, ((p', objs'), _)) => (r, p', objs'))

/-- A program: it goes on after exceptions. -/
def runShare : List ShareOp → Store → Store
  | [], m => m
  | op :: ops, m => runShare ops (op.run m).2

end Eip
