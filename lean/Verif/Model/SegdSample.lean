import Verif.Model.SegdTrace
import Verif.Model.SegdFloat
import Verif.Model.Samples

/-!
# SEG-D samples

`ISEGD::Impl::assign_sample_reading` (ISEGD.cpp:917-1068), `OSEGD::Impl::assign_sample_writers`
(OSEGD.cpp:1087-1256), and the loops of `read_trace_samples` (ISEGD.cpp:1354-1376) and
`write_trace_samples` (OSEGD.cpp:1059-1085). Little-endian host.
-/

namespace Sedaman

/-- Formats 8015, 8024, 8044 and 8048: `**buf++` moves `buf`, the address of the caller's pointer
variable, instead of the pointer; the next access through it is undefined.
ISEGD.cpp:922-937, 949-955, 975-981, 985-989 -/
def readPacked : Rd Dbl := fun _ => isUb .outOfBounds

/-- Format 8022: the byte at the pointer, which does not move. ISEGD.cpp:941-945 -/
def read8022 : Rd Dbl := fun s =>
  match s with
  | [] => isUb .outOfBounds
  | b :: _ =>
    let v := b.toNat
    let sign : Int := if v &&& 0x80 ≠ 0 then -1 else 1
    .ok (dmul (dblOfInt (sign * (v &&& 0xf : Nat))) (pow2 ((v &&& 0x70 : Nat) - 4)), s)

/-- Format 8042: the byte at the pointer, which does not move. ISEGD.cpp:967-971 -/
def read8042 : Rd Dbl := fun s =>
  match s with
  | [] => isUb .outOfBounds
  | b :: _ =>
    let v := b.toNat
    let sign : Int := if v &&& 0x80 ≠ 0 then -1 else 1
    .ok (dmul (ddivPow2 (dblOfInt (sign * (v &&& 0x1f : Nat))) 5) (pow2 (4 * (v &&& 0x60 : Nat))), s)

/-- Format 9036 on a little-endian host: `read<uint16_t>(buf) << 8 | read<uint8_t>(buf)`, the
operands evaluated from left to right; the result is an unsigned number. ISEGD.cpp:1014-1018 -/
def read9036 : Rd Dbl := do
  let a ← readU 2
  let b ← readU 1
  let r := (a <<< 8) ||| b
  pure (dblOfInt ((if r &&& 0x800000 ≠ 0 then r ||| 0xff000000 else r : Nat) : Int))

/-- `assign_sample_reading`: bits per sample and the sample reader. ISEGD.cpp:917-1068 -/
def segdReader (format : Int) : Out (Nat × Rd Dbl) :=
  match format with
  | 8015 => .ok (20, readPacked)
  | 8022 => .ok (8, read8022)
  | 8024 => .ok (16, readPacked)
  | 8036 => .ok (24, do pure (dblOfInt (← readI24 .be)))
  | 8038 => .ok (32, do pure (dblOfInt (← readI32 .be)))
  | 8042 => .ok (8, read8042)
  | 8044 => .ok (16, readPacked)
  | 8048 => .ok (32, readPacked)
  | 8058 => .ok (32, readIeeeFloat .be)
  | 8080 => .ok (64, readIeeeDouble .be)
  | 9036 => .ok (24, read9036)
  | 9038 => .ok (32, do pure (dblOfInt (← readS 4)))
  | 9058 => .ok (32, readIeeeFloat .le)
  | 9080 => .ok (64, readIeeeDouble .le)
  | _ => throwExn .unsupportedFormat

/-- Format 9036 on a little-endian host. OSEGD.cpp:1204-1207 -/
def write9036 (d : Dbl) : Out Bytes := do
  let lo ← dblToS 2 d
  let v ← dblToS 4 d
  pure (writeI 2 lo ++ writeI 1 (v / 2 ^ 16))

/-- The C library's evaluation of the exponent estimate of a packed format for positive finite `x`,
truncated to an integer: `log(x) / log(2) + 1 + c` with `c` = 15, 4, 12 (formats 8015, 8022, 8024),
and `log(x) / log(2) / 4 + 1` (formats 8042, 8044, 8048). A parameter of the model, like `LogEst`: its
accuracy is an explicit hypothesis of the theorems.
OSEGD.cpp:1102-1103, 1120-1121, 1132-1133, 1153-1154, 1165-1166, 1177 -/
abbrev PackEst := Int → Dbl → Int

/-- The exponent field: the estimate converted to an unsigned type of `n` bytes, of which `bits` bits
are kept. For zero, infinity and NaN the estimate is not finite: the conversion is undefined. -/
def packExp (est : Dbl → Int) (n bits : Nat) (a : Dbl) : Out Nat :=
  match a.val with
  | .fin _ m _ =>
    if m = 0 then isUb .floatToInt
    else if 0 ≤ est a ∧ est a < 256 ^ n then .ok ((est a).toNat % 2 ^ bits)
    else isUb .floatToInt
  | _ => isUb .floatToInt

/-- `pow(2, exp - c)` for an `exp` of type `uint32_t`: the difference wraps around below zero, and the
power of the huge number is infinite. OSEGD.cpp:1122-1123, 1134-1135 -/
def powWrap (exp c : Nat) : Dbl := if c ≤ exp then pow2 ((exp - c : Nat) : Int) else toDbl (.inf false)

/-- Sign, exponent and fraction field of a format with exponents to base 2 (8022: 4 bits of fraction,
8024: 12 bits). OSEGD.cpp:1117-1123, 1129-1135 -/
def packBin (est : Dbl → Int) (q : Nat) (val : Dbl) : Out (Nat × Nat × Nat) := do
  let sign : Nat := if dblNeg val then 1 else 0
  let a := dblAbs val
  let exp ← packExp est 4 3 a
  let frac ← dblToU 4 (ddiv a (powWrap exp q))
  pure (sign, exp, frac.toNat % 2 ^ q)

/-- Sign, exponent and fraction field of a format with exponents to base 16 (8042: 2 bits of exponent
and 5 of fraction, 8044: 2 and 13, 8048: 7 and 24). OSEGD.cpp:1150-1156, 1162-1168, 1174-1180 -/
def packHex (est : Dbl → Int) (c q : Nat) (val : Dbl) : Out (Nat × Nat × Nat) := do
  let sign : Nat := if dblNeg val then 1 else 0
  let a := dblAbs val
  let exp ← packExp est 4 c a
  let frac ← dblToU 4 (dmul (ddivPow2 a (4 * (exp : Int))) (pow2 q))
  pure (sign, exp, frac.toNat % 2 ^ q)

/-- Exponent and fraction of one of the four samples of a group. OSEGD.cpp:1100-1105 -/
def pack8015 (est : Dbl → Int) (val : Dbl) : Out (Nat × Nat) := do
  let a := dblAbs val
  let exp ← packExp est 2 4 a
  let frac ← dblToU 2 (ddiv a (pow2 ((exp : Int) - 15)))
  pure (exp, frac.toNat)

/-- Format 8015: the sample is put into a static array; the fourth one empties the array and writes the
group, every fraction with the sign of the fourth sample. `pending` is what the array holds.
OSEGD.cpp:1090-1113 -/
def write8015 (est : Dbl → Int) (pending : List Dbl) (val : Dbl) : Wr (List Dbl) :=
  match pending with
  | [x0, x1, x2] => do
    let sign : Nat := if dblNeg val then 1 else 0
    let (e0, f0) ← wrLift (pack8015 est x0)
    let (e1, f1) ← wrLift (pack8015 est x1)
    let (e2, f2) ← wrLift (pack8015 est x2)
    let (e3, f3) ← wrLift (pack8015 est val)
    wrPut [BitVec.ofNat 8 (e0 <<< 4 ||| e1)]
    wrPut [BitVec.ofNat 8 (e2 <<< 4 ||| e3)]
    wrPut (writeI16 .be (f0 ||| sign <<< 15 : Nat))
    wrPut (writeI16 .be (f1 ||| sign <<< 15 : Nat))
    wrPut (writeI16 .be (f2 ||| sign <<< 15 : Nat))
    wrPut (writeI16 .be (f3 ||| sign <<< 15 : Nat))
    pure []
  | _ => pure (pending ++ [val])

/-- A sample writer: the ones that append their bytes to the buffer, and those that use the pointer or
the static array in their own way. -/
inductive SampleWr where
  | bytes (w : Dbl → Out Bytes)
  | own (w : List Dbl → Dbl → Wr (List Dbl))

/-- One call of a sample writer; `pending` is what the static array of format 8015 holds. -/
def SampleWr.put (w : SampleWr) (pending : List Dbl) (d : Dbl) : Wr (List Dbl) :=
  match w with
  | .bytes w => do
    let bs ← wrLift (w d)
    wrPut bs
    pure pending
  | .own w => w pending d

/-- Formats 8022 and 8042: `**buf++ = …` stores at the caller's pointer and moves only the writer's
copy of its address. OSEGD.cpp:1124, 1157 -/
def writeAtStart (word : Dbl → Out Nat) (pending : List Dbl) (d : Dbl) : Wr (List Dbl) := do
  let v ← wrLift (word d)
  wrPoke (BitVec.ofNat 8 v)
  pure pending

/-- `sign << (c + q) | exp << q | frac` -/
def packWord (c q : Nat) (f : Nat × Nat × Nat) : Nat := f.1 <<< (c + q) ||| f.2.1 <<< q ||| f.2.2

/-- `assign_sample_writers`: bits per sample and the sample writer. The integer writers of formats
8036 and 8038 have `uint32_t` parameters (OSEGD.cpp:53, 55). OSEGD.cpp:1087-1256 -/
def segdWriter (est : PackEst) (format : Int) : Out (Nat × SampleWr) :=
  match format with
  | 8015 => .ok (20, .own (write8015 (est 8015)))
  | 8022 => .ok (8, .own (writeAtStart fun d => do pure (packWord 3 4 (← packBin (est 8022) 4 d))))
  | 8024 => .ok (16, .bytes fun d => do
      pure (writeU16 .be (packWord 3 12 (← packBin (est 8024) 12 d) : Nat)))
  | 8036 => .ok (24, .bytes fun d => do pure (writeI24 .be (← dblToU 4 d)))
  | 8038 => .ok (32, .bytes fun d => do pure (writeI32 .be (← dblToU 4 d)))
  | 8042 => .ok (8, .own (writeAtStart fun d => do pure (packWord 2 5 (← packHex (est 8042) 2 5 d))))
  | 8044 => .ok (16, .bytes fun d => do
      pure (writeU16 .be (packWord 2 13 (← packHex (est 8044) 2 13 d) : Nat)))
  | 8048 => .ok (32, .bytes fun d => do
      pure (writeU32 .be (packWord 7 24 (← packHex (est 8048) 7 24 d) : Nat)))
  | 8058 => .ok (32, .bytes fun d => .ok (writeIeeeFloat .be d))
  | 8080 => .ok (64, .bytes fun d => .ok (writeIeeeDouble .be d))
  | 9036 => .ok (24, .bytes write9036)
  | 9038 => .ok (32, .bytes fun d => do pure (writeI 4 (← dblToS 4 d)))
  | 9058 => .ok (32, .bytes fun d => .ok (writeIeeeFloat .le d))
  | 9080 => .ok (64, .bytes fun d => .ok (writeIeeeDouble .le d))
  | _ => throwExn .unsupportedFormat

/-- What sample writing leaves behind for the next trace: the static array of format 8015, which all
writers of the process share, and the contents of `trc_samp_buf`. OSEGD.cpp:1091-1092,
CommonSEGD.hpp:1556 -/
structure SampMem where
  pending : List Dbl := []
  buf : Bytes := []
  deriving DecidableEq, Repr

/-- `vector::resize`: longer by zeros, or shorter. OSEGD.cpp:1061-1064 -/
def resizeTo (n : Nat) (b : Bytes) : Bytes := b.take n ++ List.replicate (n - b.length) 0

/-- The loop of `write_trace_samples`: every sample is divided by the descale factor.
OSEGD.cpp:1082-1083 -/
def wrSamples (w : SampleWr) (descale : Dbl) : List Dbl → List Dbl → Wr (List Dbl)
  | [], pending => pure pending
  | x :: t, pending => do
    let pending ← w.put pending (ddiv x descale)
    wrSamples w descale t pending

/-- `write_trace_samples` for the descale factor of the channel set: the sample buffer has room for
the bits of all samples, and keeps what it held before where nothing is stored.
OSEGD.cpp:1061-1066, 1082-1084 -/
def writeSamplesD (est : PackEst) (format : Int) (descale : Dbl) (xs : List Dbl) (m : SampMem) :
    Out (Bytes × SampMem) := do
  let (bits, w) ← segdWriter est format
  let (pending, c) ← wrSamples w descale xs m.pending ⟨[], resizeTo (xs.length * bits / 8) m.buf⟩
  pure (c.done ++ c.rest, ⟨pending, c.done ++ c.rest⟩)

/-- The loop of `read_trace_samples`. ISEGD.cpp:1373-1374 -/
def rdSamples (r : Rd Dbl) (descale : Dbl) : Nat → Rd (List Dbl)
  | 0 => pure []
  | n + 1 => do
    let x ← r
    let t ← rdSamples r descale n
    pure (dmul x descale :: t)

/-- `read_trace_samples` for `n` samples (a `uint32_t`) and the descale factor of the channel set:
the size of the buffer is computed in `uint32_t`. ISEGD.cpp:1367-1375 -/
def readSamplesD (format : Int) (descale : Dbl) (n : Nat) : Rd (List Dbl) := fun s => do
  let (bits, r) ← segdReader format
  let size := n * bits % 2 ^ 32 / 8
  let (buf, s) ← if size ≤ s.length then .ok (s.take size, s.drop size) else throwExn .iosFailure
  let (xs, _) ← rdSamples r descale n buf
  pure (xs, s)

end Sedaman
