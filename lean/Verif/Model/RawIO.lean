import Verif.Model.Util

/-!
# Raw readers and writers of SEG-Y integers

Model of `ISEGY::Impl::assign_raw_readers` (ISEGY.cpp:198-273) and
`OSEGY::Impl::assign_raw_writers` (OSEGY.cpp:61-157), integer part.

Writers return the bytes stored at the cursor. The declared parameter types of the writer
`std::function`s are unsigned (OSEGY.cpp:45-54), so an integer argument is first reduced to
the unsigned type (`toU`), then converted to the parameter type of the lambda.

The 24-bit readers contain `read<uint16_t>(buf) | read<uint8_t>(buf) << 16`: C++ leaves the
order in which the two calls run unspecified. The model takes them left to right; the other
order is modelled by `readU24RL` so that the dependency is visible.
-/

namespace Sedaman

/-- Byte order of the data on disk. -/
inductive ByteOrder where
  | le
  | be
  deriving DecidableEq, Repr

/-- Selection of the byte order from the binary header marker. ISEGY.cpp:202-235 and
OSEGY.cpp:65-112 (the two switches have the same cases). -/
def byteOrderOf (marker : Int) : Out ByteOrder :=
  if marker = 0x01020304 then .ok .le
  else if marker = 0 ∨ marker = 0x04030201 then .ok .be
  else throwExn .unsupportedEndianness

/-! ## Readers -/

/-- ISEGY.cpp:200 -/
def readU8 : Rd Nat := readU 1
/-- ISEGY.cpp:201 -/
def readI8 : Rd Int := readS 1
/-- ISEGY.cpp:204, 220 -/
def readU16 : ByteOrder → Rd Nat
  | .le => readU 2
  | .be => do pure (swapU 2 (← readU 2))
/-- ISEGY.cpp:205, 221 -/
def readI16 : ByteOrder → Rd Int
  | .le => readS 2
  | .be => do pure (swapS 2 (← readS 2))
/-- ISEGY.cpp:206-207, 222-223; operands evaluated left to right. -/
def readU24 : ByteOrder → Rd Nat
  | .le => do
    let a ← readU 2
    let b ← readU 1
    pure (a ||| b <<< 16)
  | .be => do
    let a ← readU 2
    let b ← readU 1
    pure (swapU 2 a <<< 8 ||| b)
/-- The same expression with the right operand evaluated first. ISEGY.cpp:206-207, 222-223 -/
def readU24RL : ByteOrder → Rd Nat
  | .le => do
    let b ← readU 1
    let a ← readU 2
    pure (a ||| b <<< 16)
  | .be => do
    let b ← readU 1
    let a ← readU 2
    pure (swapU 2 a <<< 8 ||| b)
/-- ISEGY.cpp:208-211, 224-228: sign extension by `| 0xff000000`, then conversion of the
`uint32_t` result to `int32_t`. -/
def readI24 (bo : ByteOrder) : Rd Int := do
  let result ← readU24 bo
  pure (toS 4 (if result &&& 0x800000 ≠ 0 then result ||| 0xff000000 else result))
/-- ISEGY.cpp:212, 229 -/
def readU32 : ByteOrder → Rd Nat
  | .le => readU 4
  | .be => do pure (swapU 4 (← readU 4))
/-- ISEGY.cpp:213, 230 -/
def readI32 : ByteOrder → Rd Int
  | .le => readS 4
  | .be => do pure (swapS 4 (← readS 4))
/-- ISEGY.cpp:214, 231 -/
def readU64 : ByteOrder → Rd Nat
  | .le => readU 8
  | .be => do pure (swapU 8 (← readU 8))
/-- ISEGY.cpp:215, 232 -/
def readI64 : ByteOrder → Rd Int
  | .le => readS 8
  | .be => do pure (swapS 8 (← readS 8))

/-! ## Writers -/

/-- OSEGY.cpp:63 -/
def writeU8 (v : Int) : Bytes := writeI 1 (toU 1 v)
/-- OSEGY.cpp:64 -/
def writeI8 (v : Int) : Bytes := writeI 1 (toS 1 (toU 1 v))
/-- OSEGY.cpp:67-68, 88-89 -/
def writeU16 : ByteOrder → Int → Bytes
  | .le, v => writeI 2 (toU 2 v)
  | .be, v => writeI 2 (swapU 2 (toU 2 v))
/-- OSEGY.cpp:69, 90-91 -/
def writeI16 : ByteOrder → Int → Bytes
  | .le, v => writeI 2 (toS 2 (toU 2 v))
  | .be, v => writeI 2 (swapS 2 (toS 2 (toU 2 v)))
/-- OSEGY.cpp:70-73, 92-96 -/
def writeU24 : ByteOrder → Int → Bytes
  | .le, v =>
    let val := toU 4 v
    writeI 2 val ++ writeI 1 ((val >>> 16 : Nat) : Int)
  | .be, v =>
    let tmp := swapU 4 (toU 4 v) >>> 8
    writeI 2 tmp ++ writeI 1 ((tmp >>> 16 : Nat) : Int)
/-- OSEGY.cpp:74-77, 97-101; `>>` on the signed value is arithmetic. -/
def writeI24 : ByteOrder → Int → Bytes
  | .le, v =>
    let val := toS 4 (toU 4 v)
    writeI 2 val ++ writeI 1 (val >>> 16)
  | .be, v =>
    let val := toS 4 (toU 4 v)
    let tmp := swapU 4 (toU 4 val) >>> 8
    writeI 2 tmp ++ writeI 1 ((tmp >>> 16 : Nat) : Int)
/-- OSEGY.cpp:78-79, 102-103 -/
def writeU32 : ByteOrder → Int → Bytes
  | .le, v => writeI 4 (toU 4 v)
  | .be, v => writeI 4 (swapU 4 (toU 4 v))
/-- OSEGY.cpp:80, 104-105 -/
def writeI32 : ByteOrder → Int → Bytes
  | .le, v => writeI 4 (toS 4 (toU 4 v))
  | .be, v => writeI 4 (swapS 4 (toS 4 (toU 4 v)))
/-- OSEGY.cpp:81-82, 106-107 -/
def writeU64 : ByteOrder → Int → Bytes
  | .le, v => writeI 8 (toU 8 v)
  | .be, v => writeI 8 (swapU 8 (toU 8 v))
/-- OSEGY.cpp:83, 108-109 -/
def writeI64 : ByteOrder → Int → Bytes
  | .le, v => writeI 8 (toS 8 (toU 8 v))
  | .be, v => writeI 8 (swapS 8 (toS 8 (toU 8 v)))

end Sedaman
