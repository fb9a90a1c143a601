import Verif.Model.Session
/-
The numbers a session starts with. The constructor takes them from Boost's generator `boost::random::mt19937`, seeded with
the time (src/session.cpp:55-61). Boost is not part of the repository: the generator is modelled from its published
algorithm (32-bit Mersenne Twister, as std::mt19937 of C++11 [rand.eng.mers]).
-/
namespace Eip

/-- State word `i` from the word before it, while seeding: x(i) = 1812433253 * (x(i-1) xor (x(i-1) >> 30)) + i. -/
def mtNext (x : UInt32) (i : Nat) : UInt32 := (1812433253 : UInt32) * (x ^^^ (x >>> 30)) + UInt32.ofNat i

/-- State word `i` of the generator after `gen.seed(seed)` (src/session.cpp:58): word 0 is the seed. -/
def mtWord (seed : UInt32) : Nat → UInt32
  | 0 => seed
  | i + 1 => mtNext (mtWord seed i) (i + 1)

/-- The recurrence of the generator: the next word from words `i`, `i + 1` and `i + 397`. -/
def mtTwist (x0 x1 x397 : UInt32) : UInt32 :=
  let y := (x0 &&& 0x80000000) ||| (x1 &&& 0x7FFFFFFF)
  x397 ^^^ (y >>> 1) ^^^ (if y &&& 1 = 0 then 0 else 0x9908B0DF)

/-- The tempering of an output word. -/
def mtTemper (x : UInt32) : UInt32 :=
  let x := x ^^^ (x >>> 11)
  let x := x ^^^ ((x <<< 7) &&& 0x9D2C5680)
  let x := x ^^^ ((x <<< 15) &&& 0xEFC60000)
  x ^^^ (x >>> 18)

/-- Output number `i` of a freshly seeded generator, for `i < 227` (the session only uses outputs 0 and 1, so outputs that
depend on words of the second round are not modelled). -/
def mtOutput (seed : UInt32) (i : Nat) : UInt32 :=
  mtTemper (mtTwist (mtWord seed i) (mtWord seed (i + 1)) (mtWord seed (i + 397)))

/-- `gen.seed(std::time(0))` (src/session.cpp:58): the time in seconds, reduced to 32 bits. -/
def mtSeed (time : Int) : UInt32 := UInt32.ofNat (time % 4294967296).toNat

/-- `next_connection_id_ = gen()` (src/session.cpp:60). -/
def startingId (time : Int) : UInt32 := mtOutput (mtSeed time) 0

/-- `next_connection_sn_ = dist(gen)` with `uniform_int_distribution<> dist(0, 0xFFFF)` (src/session.cpp:59,61): Boost divides
the generator's 2^32 values into 2^16 buckets of the same size, that is, takes the upper half of the output. -/
def startingSn (time : Int) : UInt16 := UInt16.ofNat ((mtOutput (mtSeed time) 1).toNat / 65536)

/-- `Session(socket, io_socket, vendor_id, serial_num)` called when `std::time(0)` is `time` (src/session.cpp:51-63). `mem` is the
initial memory of `recv_buffer_`. -/
def Session.construct (vendorId : UInt16) (serialNum : UInt32) (time : Int) (mem : Bytes) : Session :=
  Session.new vendorId serialNum (startingSn time) (startingId time) mem

/-- `DEFAULT_VENDOR_ID` (session.h:55). -/
def defaultVendorId : UInt16 := 0x1234

/-- `DEFAULT_SERIAL_NUM` (session.h:56). -/
def defaultSerialNum : UInt32 := 0x6789

end Eip
