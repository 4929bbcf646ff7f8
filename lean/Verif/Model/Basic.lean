/-!
# Outcomes, bytes and host integer representation

Shared vocabulary of the model. Sources are cited as `file:lines` relative to the
repository root of andalevor/sedaman.
-/

namespace Sedaman

/-- A C++ `char`/`uint8_t` object. -/
abbrev Byte := BitVec 8

/-- Buffers, strings and file contents. -/
abbrev Bytes := List Byte

/-- C++ exceptions the modelled code can throw. Each constructor cites its throw site. -/
inductive Exn where
  /-- "unsupported endianness" (ISEGY.cpp:234, OSEGY.cpp:111) -/
  | unsupportedEndianness
  /-- "unsupported format" (ISEGY.cpp:318, OSEGY.cpp:232, ISEGD.cpp, OSEGD.cpp) -/
  | unsupportedFormat
  /-- "size of text header should be 3200 bytes" (OSEGYRev0.cpp:44, Rev1:45, Rev2:44) -/
  | textHeaderSize
  /-- "size of trailer stanzas should be 3200 bytes" (OSEGYRev2.cpp:50) -/
  | trailerSize
  /-- "number of additional trace headers not equal ..." (CommonSEGY.cpp:40) -/
  | addHdrCount
  /-- "additional trace header name must have 8 bytes length" (CommonSEGY.cpp:47) -/
  | mapNameLen
  /-- "overlapping type/offset in trace headers map" (CommonSEGY.cpp:90) -/
  | mapOverlap
  /-- "trace header has only 240 bytes" (CommonSEGY.cpp:95) -/
  | mapBounds
  /-- `std::ios_base::failure` raised by a stream operation -/
  | iosFailure
  /-- `std::bad_variant_access` raised by `std::get` -/
  | badVariantAccess
  /-- `std::length_error`/`std::bad_alloc` raised by `vector::resize` with a huge size -/
  | lengthError
  /-- "unable to determine end of trace data" (ISEGY.cpp:352) -/
  | noEndOfData
  /-- "the number of samples is too much for revision ..." -/
  | tooManySamples
  /-- "the sample interval can not be written to rev..." -/
  | badSampleInterval
  /-- "no such header in trace" (ISEGYSorted1D.cpp:32) -/
  | noSuchHeader
  /-- SEG-D: channel set table does not match the number of scan types (OSEGD.cpp) -/
  | channelSetCount
  /-- SEG-D: all announced traces are already written (OSEGDRev2_1.cpp) -/
  | allTracesWritten
  /-- SEG-D: a key of the trace header extension map is missing in the trace -/
  | missingExtKey
  /-- `std::bad_function_call` raised by calling an empty `std::function` -/
  | badFunctionCall
  deriving DecidableEq, Repr

/-- Kinds of undefined behaviour the modelled code can run into. -/
inductive Ub where
  /-- read or write outside an array or vector -/
  | outOfBounds
  /-- dereference of an empty `std::optional` -/
  | emptyOptional
  /-- dereference or increment of an end iterator -/
  | endIterator
  /-- dereference of a null pointer -/
  | nullDeref
  /-- floating to integer conversion whose truncated value does not fit -/
  | floatToInt
  /-- signed integer overflow -/
  | signedOverflow
  /-- a container is given elements its comparison does not order (NaN keys) -/
  | badOrder
  deriving DecidableEq, Repr

/-- Why an operation did not return. -/
inductive Err where
  | exn (e : Exn)
  | ub (u : Ub)
  deriving DecidableEq, Repr

/-- Outcome of a modelled C++ call. -/
abbrev Out := Except Err

/-- Throw a C++ exception. -/
def throwExn {α : Type} (e : Exn) : Out α := .error (.exn e)

/-- Run into undefined behaviour. -/
def isUb {α : Type} (u : Ub) : Out α := .error (.ub u)

/-- `n` low-order bytes of `v`, least significant first: the object representation of an
unsigned `n`-byte integer on the assumed little-endian host. -/
def leBytes : Nat → Nat → Bytes
  | 0, _ => []
  | n + 1, v => BitVec.ofNat 8 v :: leBytes n (v / 256)

/-- Value of an object representation on the assumed little-endian host. -/
def leVal : Bytes → Nat
  | [] => 0
  | b :: bs => b.toNat + 256 * leVal bs

/-- Conversion of an integer to an unsigned type of `n` bytes (modulo `2^(8n)`). -/
def toU (n : Nat) (v : Int) : Nat := (v % (256 ^ n : Nat)).toNat

/-- Reinterpretation of an unsigned `n`-byte value as two's complement. -/
def toS (n : Nat) (u : Nat) : Int :=
  if 2 * (u % 256 ^ n) < 256 ^ n then ((u % 256 ^ n : Nat) : Int)
  else ((u % 256 ^ n : Nat) : Int) - ((256 ^ n : Nat) : Int)

/-- Cursor reader over a buffer: `char const**` arguments. Reading past the end of the
buffer is undefined behaviour. -/
abbrev Rd := StateT Bytes Out

/-- `memcpy` of `n` bytes from the cursor followed by advancing it. -/
def rdBytes (n : Nat) : Rd Bytes := fun bs =>
  if n ≤ bs.length then .ok (bs.take n, bs.drop n) else isUb .outOfBounds

end Sedaman
