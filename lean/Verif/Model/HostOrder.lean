import Verif.Model.SegdSample

/-!
# Integers on a host of either byte order

The rest of the model is about a little-endian host. Here the functions that look at the object
representation of integers are modelled for a host of byte order `h`: `read`, `write` and `swap`
(util.hpp:39-80), the raw readers and writers of SEG-Y (ISEGY.cpp:198-236, OSEGY.cpp:61-112) and of
SEG-D (ISEGD.cpp:212-243, OSEGD.cpp:93-139), and the sample readers and writers of SEG-D that ask for
the byte order of the host (ISEGD.cpp:1009-1064, OSEGD.cpp:1200-1252).

Floating point objects are assumed to have the byte order of the integers.
-/

namespace Sedaman

/-- Object representation of an unsigned `n`-byte integer. -/
def hostBytes : ByteOrder → Nat → Nat → Bytes
  | .le, n, u => leBytes n u
  | .be, n, u => (leBytes n u).reverse

/-- Value of an object representation. -/
def hostVal : ByteOrder → Bytes → Nat
  | .le, b => leVal b
  | .be, b => leVal b.reverse

/-- `read<T>`, `T` unsigned. util.hpp:39-46 -/
def readUH (h : ByteOrder) (n : Nat) : Rd Nat := do
  let b ← rdBytes n
  pure (hostVal h b)

/-- `read<T>`, `T` signed. util.hpp:39-46 -/
def readSH (h : ByteOrder) (n : Nat) : Rd Int := do
  let b ← rdBytes n
  pure (toS n (hostVal h b))

/-- `write<T>`. util.hpp:56-61 -/
def writeIH (h : ByteOrder) (n : Nat) (v : Int) : Bytes := hostBytes h n (toU n v)

/-- `swap`, unsigned. util.hpp:70-80 -/
def swapUH (h : ByteOrder) (n u : Nat) : Nat := hostVal h (hostBytes h n u).reverse

/-- `swap`, signed. util.hpp:70-80 -/
def swapSH (h : ByteOrder) (n : Nat) (v : Int) : Int := toS n (swapUH h n (toU n v))

/-- The two sets of lambdas: those that use the byte order of the host and those that swap. The
lambdas of SEG-Y and SEG-D are the same. -/
inductive RawSet where
  | native
  | swapped
  deriving DecidableEq, Repr

/-- The set SEG-Y selects for a marker. ISEGY.cpp:202-235, OSEGY.cpp:65-112 -/
def segySet (marker : Int) : Out RawSet :=
  if marker = 0x01020304 then .ok .native
  else if marker = 0 ∨ marker = 0x04030201 then .ok .swapped
  else throwExn .unsupportedEndianness

/-- `memcpy` of the four bytes of the marker. ISEGY.cpp:146 -/
def hostMarker (h : ByteOrder) (b : Bytes) : Int := toS 4 (hostVal h b)

/-- The set SEG-D selects. ISEGD.cpp:216, OSEGD.cpp:97 -/
def segdSet : ByteOrder → RawSet
  | .be => .native
  | .le => .swapped

/-! ## Readers -/

/-- ISEGY.cpp:200, ISEGD.cpp:214 -/
def readU8H (h : ByteOrder) : Rd Nat := readUH h 1
/-- ISEGY.cpp:201, ISEGD.cpp:215 -/
def readI8H (h : ByteOrder) : Rd Int := readSH h 1
/-- ISEGY.cpp:204, 220, ISEGD.cpp:217, 230 -/
def readU16H (h : ByteOrder) : RawSet → Rd Nat
  | .native => readUH h 2
  | .swapped => do pure (swapUH h 2 (← readUH h 2))
/-- ISEGY.cpp:205, 221, ISEGD.cpp:218, 231 -/
def readI16H (h : ByteOrder) : RawSet → Rd Int
  | .native => readSH h 2
  | .swapped => do pure (swapSH h 2 (← readSH h 2))
/-- Operands evaluated from left to right. ISEGY.cpp:206-207, 222-223, ISEGD.cpp:219-220, 232-233 -/
def readU24H (h : ByteOrder) : RawSet → Rd Nat
  | .native => do
    let a ← readUH h 2
    let b ← readUH h 1
    pure (a ||| b <<< 16)
  | .swapped => do
    let a ← readUH h 2
    let b ← readUH h 1
    pure (swapUH h 2 a <<< 8 ||| b)
/-- ISEGY.cpp:208-211, 224-228, ISEGD.cpp:221-224, 234-238 -/
def readI24H (h : ByteOrder) (s : RawSet) : Rd Int := do
  let result ← readU24H h s
  pure (toS 4 (if result &&& 0x800000 ≠ 0 then result ||| 0xff000000 else result))
/-- ISEGY.cpp:212, 229, ISEGD.cpp:225, 239 -/
def readU32H (h : ByteOrder) : RawSet → Rd Nat
  | .native => readUH h 4
  | .swapped => do pure (swapUH h 4 (← readUH h 4))
/-- ISEGY.cpp:213, 230, ISEGD.cpp:226, 240 -/
def readI32H (h : ByteOrder) : RawSet → Rd Int
  | .native => readSH h 4
  | .swapped => do pure (swapSH h 4 (← readSH h 4))
/-- ISEGY.cpp:214, 231, ISEGD.cpp:227, 241 -/
def readU64H (h : ByteOrder) : RawSet → Rd Nat
  | .native => readUH h 8
  | .swapped => do pure (swapUH h 8 (← readUH h 8))
/-- ISEGY.cpp:215, 232, ISEGD.cpp:228, 242 -/
def readI64H (h : ByteOrder) : RawSet → Rd Int
  | .native => readSH h 8
  | .swapped => do pure (swapSH h 8 (← readSH h 8))

/-! ## Writers

The declared parameters are unsigned (OSEGY.cpp:45-54, OSEGD.cpp:47-56). -/

/-- OSEGY.cpp:63, OSEGD.cpp:95 -/
def writeU8H (h : ByteOrder) (v : Int) : Bytes := writeIH h 1 (toU 1 v)
/-- OSEGY.cpp:64, OSEGD.cpp:96 -/
def writeI8H (h : ByteOrder) (v : Int) : Bytes := writeIH h 1 (toS 1 (toU 1 v))
/-- OSEGY.cpp:67-68, 88-89, OSEGD.cpp:98-99, 117-118 -/
def writeU16H (h : ByteOrder) : RawSet → Int → Bytes
  | .native, v => writeIH h 2 (toU 2 v)
  | .swapped, v => writeIH h 2 (swapUH h 2 (toU 2 v))
/-- OSEGY.cpp:69, 90-91, OSEGD.cpp:100, 119-120 -/
def writeI16H (h : ByteOrder) : RawSet → Int → Bytes
  | .native, v => writeIH h 2 (toS 2 (toU 2 v))
  | .swapped, v => writeIH h 2 (swapSH h 2 (toS 2 (toU 2 v)))
/-- OSEGY.cpp:70-73, 92-96, OSEGD.cpp:101-104, 121-125 -/
def writeU24H (h : ByteOrder) : RawSet → Int → Bytes
  | .native, v =>
    let val := toU 4 v
    writeIH h 2 val ++ writeIH h 1 ((val >>> 16 : Nat) : Int)
  | .swapped, v =>
    let tmp := swapUH h 4 (toU 4 v) >>> 8
    writeIH h 2 tmp ++ writeIH h 1 ((tmp >>> 16 : Nat) : Int)
/-- OSEGY.cpp:74-77, 97-101, OSEGD.cpp:105-108, 126-130 -/
def writeI24H (h : ByteOrder) : RawSet → Int → Bytes
  | .native, v =>
    let val := toS 4 (toU 4 v)
    writeIH h 2 val ++ writeIH h 1 (val >>> 16)
  | .swapped, v =>
    let val := toS 4 (toU 4 v)
    let tmp := swapUH h 4 (toU 4 val) >>> 8
    writeIH h 2 tmp ++ writeIH h 1 ((tmp >>> 16 : Nat) : Int)
/-- OSEGY.cpp:78-79, 102-103, OSEGD.cpp:109-111, 131-132 -/
def writeU32H (h : ByteOrder) : RawSet → Int → Bytes
  | .native, v => writeIH h 4 (toU 4 v)
  | .swapped, v => writeIH h 4 (swapUH h 4 (toU 4 v))
/-- OSEGY.cpp:80, 104-105, OSEGD.cpp:133-134 -/
def writeI32H (h : ByteOrder) : RawSet → Int → Bytes
  | .native, v => writeIH h 4 (toS 4 (toU 4 v))
  | .swapped, v => writeIH h 4 (swapSH h 4 (toS 4 (toU 4 v)))
/-- OSEGY.cpp:81-82, 106-107, OSEGD.cpp:112-113, 135-136 -/
def writeU64H (h : ByteOrder) : RawSet → Int → Bytes
  | .native, v => writeIH h 8 (toU 8 v)
  | .swapped, v => writeIH h 8 (swapUH h 8 (toU 8 v))
/-- OSEGY.cpp:83, 108-109, OSEGD.cpp:114-115, 137-138 -/
def writeI64H (h : ByteOrder) : RawSet → Int → Bytes
  | .native, v => writeIH h 8 (toS 8 (toU 8 v))
  | .swapped, v => writeIH h 8 (swapSH h 8 (toS 8 (toU 8 v)))

/-- `write_i32` of SEG-D: on a big-endian host `write_u32` is assigned twice and `write_i32` never.
OSEGD.cpp:109-111, 133-134 -/
def segdWriteI32 : ByteOrder → Int → Out Bytes
  | .be, _ => throwExn .badFunctionCall
  | .le, v => .ok (writeI32H .le (segdSet .le) v)

/-! ## SEG-Y samples -/

/-- `assign_sample_reader`. ISEGY.cpp:237-320 -/
def sampleReaderH (h : ByteOrder) (s : RawSet) (format : Int) : Out (Rd Dbl) :=
  match format with
  | 1 => .ok do pure (ibmDecode (← readU32H h s))
  | 2 => .ok do pure (dblOfInt (← readI32H h s))
  | 3 => .ok do pure (dblOfInt (← readI16H h s))
  | 5 => .ok do pure (sglToDbl (BitVec.ofNat 32 (← readU32H h s)))
  | 6 => .ok do pure (BitVec.ofNat 64 (← readU64H h s))
  | 7 => .ok do pure (dblOfInt (← readI24H h s))
  | 8 => .ok do pure (dblOfInt (← readI8H h))
  | 9 => .ok do pure (dblOfInt (← readI64H h s))
  | 10 => .ok do pure (dblOfInt ((← readU32H h s : Nat) : Int))
  | 11 => .ok do pure (dblOfInt ((← readU16H h s : Nat) : Int))
  | 12 => .ok do pure (dblOfInt ((← readU64H h s : Nat) : Int))
  | 15 => .ok do pure (dblOfInt ((← readU24H h s : Nat) : Int))
  | 16 => .ok do pure (dblOfInt ((← readU8H h : Nat) : Int))
  | _ => throwExn .unsupportedFormat

/-- `assign_sample_writer`. OSEGY.cpp:113-234 -/
def sampleWriterH (est : LogEst) (h : ByteOrder) (s : RawSet) (format : Int) :
    Out (Dbl → Out Bytes) :=
  match format with
  | 1 => .ok fun d => do pure (writeU32H h s (← ibmEncode est d))
  | 2 => .ok fun d => do pure (writeI32H h s (← est.toU 4 d))
  | 3 => .ok fun d => do pure (writeI16H h s (← est.toU 2 d))
  | 5 => .ok fun d => .ok (writeU32H h s (dblToSgl d).toNat)
  | 6 => .ok fun d => .ok (writeU64H h s d.toNat)
  | 7 => .ok fun d => do pure (writeI24H h s (← est.toU 4 d))
  | 8 => .ok fun d => do pure (writeI8H h (← est.toU 1 d))
  | 9 => .ok fun d => do pure (writeI64H h s (← est.toU 8 d))
  | 10 => .ok fun d => do pure (writeU32H h s (← est.toU 4 d))
  | 11 => .ok fun d => do pure (writeU16H h s (← est.toU 2 d))
  | 12 => .ok fun d => do pure (writeU64H h s (← est.toU 8 d))
  | 15 => .ok fun d => do pure (writeU24H h s (← est.toU 4 d))
  | 16 => .ok fun d => do pure (writeU8H h (← est.toU 1 d))
  | _ => throwExn .unsupportedFormat

/-! ## SEG-D samples in little-endian order -/

/-- The sample readers of formats 9036, 9038, 9058 and 9080. ISEGD.cpp:1009-1064 -/
def segdLittleReader (h : ByteOrder) (format : Int) : Out (Rd Dbl) :=
  match format, h with
  | 9036, .be => .ok do pure (dblOfInt (swapSH .be 4 (← readI24H .be (segdSet .be))))
  | 9036, .le => .ok do
    let a ← readUH .le 2
    let b ← readUH .le 1
    let r := (a <<< 8) ||| b
    pure (dblOfInt ((if r &&& 0x800000 ≠ 0 then r ||| 0xff000000 else r : Nat) : Int))
  | 9038, .be => .ok do pure (dblOfInt (swapSH .be 4 (← readI32H .be (segdSet .be))))
  | 9038, .le => .ok do pure (dblOfInt (← readSH .le 4))
  | 9058, .be => .ok do
    pure (sglToDbl (BitVec.ofNat 32 (swapUH .be 4 (← readU32H .be (segdSet .be)))))
  | 9058, .le => .ok do pure (sglToDbl (BitVec.ofNat 32 (← readUH .le 4)))
  | 9080, .be => .ok do pure (BitVec.ofNat 64 (swapUH .be 8 (← readU64H .be (segdSet .be))))
  | 9080, .le => .ok do pure (BitVec.ofNat 64 (← readUH .le 8))
  | _, _ => throwExn .unsupportedFormat

/-- The sample writers of formats 9036, 9038, 9058 and 9080. OSEGD.cpp:1200-1252 -/
def segdLittleWriter (h : ByteOrder) (format : Int) : Out (Dbl → Out Bytes) :=
  match format, h with
  | 9036, .be => .ok fun d => do
    pure (writeI24H .be (segdSet .be) (swapSH .be 4 (← dblToS 4 d)))
  | 9036, .le => .ok fun d => do
    let lo ← dblToS 2 d
    let v ← dblToS 4 d
    pure (writeIH .le 2 lo ++ writeIH .le 1 (v / 2 ^ 16))
  | 9038, .be => .ok fun d => do segdWriteI32 .be (swapSH .be 4 (← dblToS 4 d))
  | 9038, .le => .ok fun d => do pure (writeIH .le 4 (← dblToS 4 d))
  | 9058, .be => .ok fun d => .ok (writeU32H .be (segdSet .be) (swapUH .be 4 (dblToSgl d).toNat))
  | 9058, .le => .ok fun d => .ok (writeIH .le 4 (dblToSgl d).toNat)
  | 9080, .be => .ok fun d => .ok (writeU64H .be (segdSet .be) (swapUH .be 8 d.toNat))
  | 9080, .le => .ok fun d => .ok (writeIH .le 8 d.toNat)
  | _, _ => throwExn .unsupportedFormat

end Sedaman
