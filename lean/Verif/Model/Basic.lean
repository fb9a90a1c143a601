/-
Outcomes, exceptions and programs: the C++ execution model used by the rest of the model.
-/
namespace Eip

/-- A byte string: the contents of a `boost::asio` buffer, a `vector<char>` or a C array. -/
abbrev Bytes := List UInt8

/-- Exception classes that can be thrown in /repo: `std::length_error`
(serialization/buffer_reader.h:87), `std::logic_error` (src/rr_data.cpp:60), `std::runtime_error`
(src/session.cpp:102) and, for the sockets, `boost::system::system_error` (thrown by Boost.Asio inside
socket/tcp_socket.h:56-91 and socket/udp_socket.h:57-94). -/
inductive ExnKind
  | lengthError
  | logicError
  | runtimeError
  | systemError
  deriving DecidableEq, Repr

/-- "An exception of class `k` is caught by a handler for class `h`": the standard class hierarchy.
`length_error` derives from `logic_error`, `system_error` from `runtime_error`. Models the handler
selection of `catch (std::length_error)` / `catch (std::logic_error)` in src/session.cpp:97-110,
124-131, 254-279 and src/io_scanner.cpp:154. -/
def ExnKind.isA (k h : ExnKind) : Bool :=
  match k, h with
  | .lengthError, .lengthError => true
  | .lengthError, .logicError => true
  | .logicError, .logicError => true
  | .runtimeError, .runtimeError => true
  | .systemError, .systemError => true
  | .systemError, .runtimeError => true
  | _, _ => false

/-- A thrown exception: its class and its `what()` string. -/
structure Exn where
  kind : ExnKind
  what : String
  deriving DecidableEq, Repr

/-- Kinds of undefined behaviour the modelled code can run into. -/
inductive UB
  /-- `*p` for a null `shared_ptr` (src/encap_packet.cpp:46, src/cpf_item.cpp:88,
  rr_data_response.h:105, 115). -/
  | nullDeref
  /-- `vector::operator[]` with an index past the end (src/session.cpp:322, session.h:189). -/
  | indexOutOfRange
  /-- use of an uninitialised local after a short stream read (src/cpf_packet.cpp:59-61 and similar). -/
  | indeterminate
  /-- access through a pointer into memory whose lifetime has ended. -/
  | danglingAccess
  /-- `delete[]` of memory that has already been freed. -/
  | doubleFree
  /-- reading a `bool` whose memory is neither 0 nor 1 (session.h:121 for `T = EIP_BOOL`). -/
  | invalidBool
  deriving DecidableEq, Repr

/-- The result of running a C++ function: normal return, exception, or undefined behaviour. -/
inductive Res (α : Type) : Type
  | ok (a : α)
  | throw (e : Exn)
  | ub (u : UB)
  deriving DecidableEq, Repr

/-- A C++ function body acting on a mutable state `σ`. The state is returned also when an exception
is thrown, so that partially updated objects stay visible. -/
def Prog (σ α : Type) : Type := σ → Res α × σ

namespace Prog

variable {σ τ α β : Type}

/-- Run a program on a state. -/
@[reducible] def run (p : Prog σ α) (s : σ) : Res α × σ := p s

/-- `return a;` -/
def ret (a : α) : Prog σ α := fun s => (.ok a, s)

/-- Sequencing: an exception or undefined behaviour in the first part skips the rest. -/
def andThen (p : Prog σ α) (f : α → Prog σ β) : Prog σ β := fun s =>
  match p s with
  | (.ok a, s') => f a s'
  | (.throw e, s') => (.throw e, s')
  | (.ub u, s') => (.ub u, s')

instance : Monad (Prog σ) where
  pure := ret
  bind := andThen

/-- `throw e;` -/
def raise (e : Exn) : Prog σ α := fun s => (.throw e, s)

/-- Undefined behaviour at this point. -/
def undef (u : UB) : Prog σ α := fun s => (.ub u, s)

/-- Read the state. -/
def get : Prog σ σ := fun s => (.ok s, s)

/-- Replace the state. -/
def set (s : σ) : Prog σ Unit := fun _ => (.ok (), s)

/-- Update the state. -/
def modify (f : σ → σ) : Prog σ Unit := fun s => (.ok (), f s)

/-- `try { p } catch (...) { h }`: the handler decides by exception class; undefined behaviour is not
caught. -/
def tryCatch (p : Prog σ α) (h : Exn → Prog σ α) : Prog σ α := fun s =>
  match p s with
  | (.ok a, s') => (.ok a, s')
  | (.throw e, s') => h e s'
  | (.ub u, s') => (.ub u, s')

/-- Run a member function on a sub-object of the state. -/
def zoom (getter : σ → τ) (setter : τ → σ → σ) (p : Prog τ α) : Prog σ α := fun s =>
  match p (getter s) with
  | (r, t) => (r, setter t s)

end Prog

/-- `throw std::length_error(what)` -/
def lengthError (what : String) : Exn := ⟨.lengthError, what⟩
/-- `throw std::logic_error(what)` -/
def logicError (what : String) : Exn := ⟨.logicError, what⟩
/-- `throw std::runtime_error(what)` -/
def runtimeError (what : String) : Exn := ⟨.runtimeError, what⟩
/-- A `boost::system::system_error` thrown by a socket call. -/
def systemError : Exn := ⟨.systemError, "boost::system::system_error"⟩

/-! ### In-memory representation of integers on a little-endian host -/

/-- The `k` bytes of the in-memory representation of `n` on a little-endian host: what
`writeBytes(&v, sizeof(v))` (serialization/writer.h:50-53) copies for an unsigned integer. -/
def leBytes : (k : Nat) → (n : Nat) → Bytes
  | 0, _ => []
  | k + 1, n => UInt8.ofNat (n % 256) :: leBytes k (n / 256)

/-- The value of an unsigned integer whose in-memory bytes are `bs` on a little-endian host: what
`readBytes(&v, sizeof(v))` (serialization/reader.h:51-54) leaves in `v`. -/
def leVal : Bytes → Nat
  | [] => 0
  | b :: bs => b.toNat + 256 * leVal bs

/-- Bytes of an `EIP_USINT`/`EIP_BYTE` (eip_types.h:35-36). -/
def le8 (v : UInt8) : Bytes := leBytes 1 v.toNat
/-- Bytes of an `EIP_UINT`/`EIP_WORD` (eip_types.h:38-39). -/
def le16 (v : UInt16) : Bytes := leBytes 2 v.toNat
/-- Bytes of an `EIP_UDINT`/`EIP_DWORD` (eip_types.h:41-42). -/
def le32 (v : UInt32) : Bytes := leBytes 4 v.toNat
/-- `EIP_USINT` from its bytes. -/
def de8 (bs : Bytes) : UInt8 := UInt8.ofNat (leVal bs)
/-- `EIP_UINT` from its bytes. -/
def de16 (bs : Bytes) : UInt16 := UInt16.ofNat (leVal bs)
/-- `EIP_UDINT` from its bytes. -/
def de32 (bs : Bytes) : UInt32 := UInt32.ofNat (leVal bs)

/-- The in-memory representation of a plain C++ type `T` that is read and written with `Reader::read`
(serialization/reader.h:51-54) and `Writer::write` (serialization/writer.h:50-53): `enc` gives the bytes
copied from `&v`, `dec` the value after copying bytes to `&v`. -/
structure Codec (τ : Type) where
  enc : τ → Bytes
  dec : Bytes → τ

/-- `EIP_USINT`, `EIP_BYTE` (eip_types.h:35-36). -/
def Codec.u8 : Codec UInt8 := ⟨le8, de8⟩
/-- `EIP_UINT`, `EIP_WORD` (eip_types.h:38-39). -/
def Codec.u16 : Codec UInt16 := ⟨le16, de16⟩
/-- `EIP_UDINT`, `EIP_DWORD` (eip_types.h:41-42). -/
def Codec.u32 : Codec UInt32 := ⟨le32, de32⟩
/-- Two members next to each other without padding: `EIP_DWORD context[2]` (encap_header.h:51) and
`EIP_USINT revision[2]` (identity_item_data.h:54) are read and written as one block. `n` is the size of the
first member. -/
def Codec.pair {α β : Type} (a : Codec α) (n : Nat) (b : Codec β) : Codec (α × β) :=
  ⟨fun v => a.enc v.1 ++ b.enc v.2, fun bs => (a.dec (bs.take n), b.dec (bs.drop n))⟩

/-- `(int)x` for a `size_t x` given by its mathematical value before reduction to 64 bits: reduce
modulo 2^32 into the range of `int` (implementation-defined conversion of gcc/clang). Used by
src/message_router_response.cpp:60-61 (argument of `readData(Reader&, int)`) and src/session.cpp:317. -/
def sizeToInt (x : Nat) : Int := Int.bmod (x : Int) (2 ^ 32)

/-- `a - b` on 64-bit `size_t` (src/message_router_response.cpp:61, sequenced_data_item.h:82, 85). -/
def sizeSub (a b : Nat) : Nat := (a + 2 ^ 64 - b) % 2 ^ 64

end Eip
