import Verif.Model.ScanLog
/-
The scanner when memory runs out: src/io_scanner.cpp with the places where it allocates, any of which may throw
`std::bad_alloc`. See Model/Tight for the session.

Simplifications: `alloc` stands for all allocations between two effects; a log message is handed on as a `std::string`,
so each is an allocation before the message is out. The `printf` of src/io_scanner.cpp:156 is taken not to allocate.
Allocations inside Boost.Asio are counted as failures of its calls. The constructor is left as it is.
-/
namespace Eip

/-- A scanner with its log and the outcomes of the next allocations; when the list is used up, memory suffices
(src/io_scanner.cpp). -/
structure TightScanner where
  s : LogScanner
  supply : List Bool

/-- A function of the scanner (src/io_scanner.cpp) that may run out of memory: `none` when `std::bad_alloc` leaves it. -/
def TightScan (α : Type) : Type := TightScanner → Option (Res α) × TightScanner

namespace TightScan
variable {α β : Type}

/-- Sequencing (every function of src/io_scanner.cpp). -/
def andThen (t : TightScan α) (f : α → TightScan β) : TightScan β := fun x =>
  match t x with
  | (some (.ok a), x') => f a x'
  | (some (.throw e), x') => (some (.throw e), x')
  | (some (.ub u), x') => (some (.ub u), x')
  | (none, x') => (none, x')

/-- Something that does not allocate (src/io_scanner.cpp). -/
def lift (p : Prog LogScanner α) : TightScan α := fun x =>
  match p x.s with
  | (r, s') => (some r, { x with s := s' })

instance : Monad TightScan where
  pure a := lift (pure a)
  bind := andThen

/-- Allocations (the file comment above says which; src/io_scanner.cpp). -/
def alloc : TightScan Unit := fun x =>
  match x.supply with
  | [] => (some (.ok ()), x)
  | true :: rest => (some (.ok ()), { x with supply := rest })
  | false :: rest => (none, { x with supply := rest })

/-- A log call (src/io_scanner.cpp:52 and others). -/
def tell (m : LogMsg) : TightScan Unit := do
  alloc
  lift (Eip.tell m)

/-- A log call under a condition (src/io_scanner.cpp:90-115, 126-129). -/
def tellIf (c : Prop) [Decidable c] (m : LogMsg) : TightScan Unit := if c then tell m else lift (pure ())

/-- Several log calls (src/io_scanner.cpp:142-152). -/
def tellAll : List LogMsg → TightScan Unit
  | [] => lift (pure ())
  | m :: ms => do
    tell m
    tellAll ms

/-- `sendListIdentityRequest` (src/io_scanner.cpp:61-74): the query and the resolver allocate. -/
def sendListIdentityRequest (env : ScanEnv) : TightScan Unit := do
  tell .scanSending
  alloc
  lift (untold (Scanner.sendListIdentityRequest env))
  tell .scanDone

/-- The body of the `try` in `handleListIdentityResponse` (src/io_scanner.cpp:85-152). -/
def handleDatagram (env : ScanEnv) (bytes : Bytes) : TightScan Unit := do
  alloc
  let parsed ← lift (Session.Logged.parsePacket bytes)
  tellIf (parsed.2 ≠ bytes.length) (.packetUnused (UInt64.ofNat bytes.length) (UInt64.ofNat parsed.2))
  if parsed.1.header.command ≠ Scanner.cmdListIdentity then
    tell (.scanCommand Scanner.cmdListIdentity parsed.1.header.command)
  else do
    tellIf (parsed.1.header.sessionHandle ≠ 0) (.scanHandle parsed.1.header.sessionHandle)
    tellIf (parsed.1.header.status ≠ 0) (.status parsed.1.header.status)
    tellIf (parsed.1.header.context.1 ≠ 0 ∨ parsed.1.header.context.2 ≠ 0)
      (.scanContext parsed.1.header.context.1 parsed.1.header.context.2)
    tellIf (parsed.1.header.options ≠ 0) (.options parsed.1.header.options)
    alloc
    let payload ← lift (Session.onLocal ⟨[]⟩ (parsed.1.getPayloadAs CPFPacket.cls))
    if payload.getItemCount.toNat < 1 then tell .scanNoItems
    else do
      tellIf (payload.getItemCount.toNat > 1) (.scanMoreItems payload.getItemCount)
      match payload.items with
      | [] => lift (Prog.raise (logicError "vector::_M_range_check"))
      | item :: _ =>
        if item.itemType ≠ Scanner.itemListIdentity then tell (.scanItemType Scanner.itemListIdentity item.itemType)
        else do
          alloc
          let id ← lift (Session.onLocal { env.id with productName := [] } (item.getDataAs IdentityItemData.cls))
          tellAll (Scanner.Logged.report id)
          lift (untold (Prog.modify (fun s => { s with log := s.log ++ [.reported id] })))

/-- `handleListIdentityResponse` (src/io_scanner.cpp:76-158): only `std::length_error` is caught. -/
def handleListIdentityResponse (env : ScanEnv) : Arrival → TightScan Unit
  | .error => tell .scanError
  | .datagram data => fun x =>
    match handleDatagram env (data.take 4096) x with
    | (some (.throw e), x') =>
      if e.kind.isA .lengthError then lift (Eip.tell .scanShort) x' else (some (.throw e), x')
    | y => y

/-- `io_service::run()` (src/io_scanner.cpp:164); see `Scanner.runService`. -/
def runService (env : ScanEnv) : List Arrival → TightScan (Option (List Arrival))
  | [] => lift (Scanner.Logged.runService env [])
  | a :: rest => fun x =>
    match x.s.s.receives with
    | 0 => (some (.ok (some (a :: rest))), x)
    | n + 1 =>
      match handleListIdentityResponse env a { x with s := { x.s with s := { x.s.s with receives := n } } } with
      | (some (.ok ()), x') => runService env rest x'
      | (some (.throw e), x') => (some (.throw e), x')
      | (some (.ub u), x') => (some (.ub u), x')
      | (none, x') => (none, x')

/-- `run` (src/io_scanner.cpp:160-165). -/
def run (env : ScanEnv) (arrivals : List Arrival) : TightScan (Option (List Arrival)) := do
  sendListIdentityRequest env
  tell .scanWaiting
  runService env arrivals

end TightScan
end Eip
