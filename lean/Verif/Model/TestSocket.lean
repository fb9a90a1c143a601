import Verif.Model.Basic
/-
socket/test_socket.h: the fake socket used by the tests.
-/
namespace Eip

/-- `TestSocket` (socket/test_socket.h:44-65). `txBuffer` is the whole array, `rx` what is left of `rx_buffer`. -/
structure TestSocket where
  isOpen : Bool
  hostname : String
  port : String
  txBuffer : Bytes
  txCount : Nat
  rx : Bytes
  rxCount : Nat
  deriving DecidableEq, Repr

/-- A call on a `TestSocket` (socket/test_socket.h:76-123). `receive n` is a receive into a buffer of `n` bytes; the
caller may also set `rx_buffer`, which is public (line 63). -/
inductive TestCall
  | «open» (hostname port : String)
  | close
  | send (bytes : Bytes)
  | receive (n : Nat)
  | clear
  | script (bytes : Bytes)
  deriving DecidableEq, Repr

namespace TestSocket

/-- The constructors (socket/test_socket.h:67-69); `mem` is the uninitialised array. -/
def new (mem rx : Bytes) : TestSocket := ⟨false, "", "", mem, 0, rx, 0⟩

/-- `open` (socket/test_socket.h:76-81). -/
def «open» (hostname port : String) (s : TestSocket) : TestSocket :=
  { s with hostname := hostname, port := port, isOpen := true }

/-- `close` (socket/test_socket.h:86-89). -/
def close (s : TestSocket) : TestSocket := { s with isOpen := false }

/-- Copy bytes over the array `mem`, starting at `offset`. Models `buffer_copy(buffer(mem) + offset, bytes)`
(socket/test_socket.h:98): `+` stops at the end of the array, `buffer_copy` at the end of the shorter buffer. -/
def copyAt (mem : Bytes) (offset : Nat) (bytes : Bytes) : Bytes × Nat :=
  let start := min offset mem.length
  let n := min (mem.length - start) bytes.length
  (mem.take start ++ bytes.take n ++ mem.drop (start + n), n)

/-- `send` (socket/test_socket.h:96-101). -/
def send (bytes : Bytes) (s : TestSocket) : Nat × TestSocket :=
  let r := copyAt s.txBuffer s.txCount bytes
  (r.2, { s with txBuffer := r.1, txCount := s.txCount + r.2 })

/-- `receive` (socket/test_socket.h:108-114) into a buffer of `n` bytes; returns the bytes stored. -/
def receive (n : Nat) (s : TestSocket) : Bytes × TestSocket :=
  let k := min n s.rx.length
  (s.rx.take k, { s with rxCount := s.rxCount + k, rx := s.rx.drop k })

/-- `clearTxBuffer` (socket/test_socket.h:119-123): `sizeof(tx_count)` is the size of a `size_t`, 8 bytes. -/
def clear (s : TestSocket) : TestSocket :=
  { s with txCount := 0, txBuffer := List.replicate (min 8 s.txBuffer.length) 0 ++ s.txBuffer.drop 8 }

/-- One call (socket/test_socket.h:76-123): the bytes it has received, if any, and the socket. -/
def call : TestCall → TestSocket → Bytes × TestSocket
  | .open h p, s => ([], s.open h p)
  | .close, s => ([], s.close)
  | .send b, s => ([], (s.send b).2)
  | .receive n, s => s.receive n
  | .clear, s => ([], s.clear)
  | .script b, s => ([], { s with rx := b })

/-- A sequence of calls (socket/test_socket.h:76-123); returns the bytes each of them has received. -/
def calls : List TestCall → TestSocket → List Bytes × TestSocket
  | [], s => ([], s)
  | c :: cs, s =>
    let r := s.call c
    let rs := calls cs r.2
    (r.1 :: rs.1, rs.2)

end TestSocket
end Eip
