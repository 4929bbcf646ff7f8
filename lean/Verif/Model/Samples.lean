import Verif.Model.RawIO
import Verif.Model.Float

/-!
# Sample formats of SEG-Y

Model of ISEGY.cpp:237-320, 420-448 and OSEGY.cpp:113-234.
-/

namespace Sedaman

/-- `dbl_from_IEEE_float`, IEEE host branch. ISEGY.cpp:238-243 -/
def readIeeeFloat (bo : ByteOrder) : Rd Dbl := do
  pure (sglToDbl (BitVec.ofNat 32 (← readU32 bo)))

/-- `dbl_from_IEEE_double`, IEEE host branch. ISEGY.cpp:244-249 -/
def readIeeeDouble (bo : ByteOrder) : Rd Dbl := do
  pure (BitVec.ofNat 64 (← readU64 bo))

/-- The arithmetic of `dbl_from_ibm_float` on the word read:
`fraction / pow(2, 24) * pow(16, exp - 64) * sign`. ISEGY.cpp:266-271 -/
def ibmDecode (ibm : Nat) : Dbl :=
  let sign : Int := if ibm >>> 31 ≠ 0 then -1 else 1
  let exp : Int := ((ibm >>> 24 &&& 0x7f : Nat) : Int)
  let fraction : Dbl := dblOfInt ((ibm &&& 0x00ffffff : Nat) : Int)
  dmul (dmul (ddivPow2 fraction 24) (pow2 (4 * (exp - 64)))) (dblOfInt sign)

/-- `dbl_from_ibm_float`. ISEGY.cpp:265-272 -/
def readIbm (bo : ByteOrder) : Rd Dbl := do
  pure (ibmDecode (← readU32 bo))

/-- `assign_sample_reader`: the sample reader selected by the format code, with the implicit
integer to `double` conversions. ISEGY.cpp:275-320 -/
def sampleReader (format : Int) : Out (ByteOrder → Rd Dbl) :=
  match format with
  | 1 => .ok fun bo => readIbm bo
  | 2 => .ok fun bo => do pure (dblOfInt (← readI32 bo))
  | 3 => .ok fun bo => do pure (dblOfInt (← readI16 bo))
  | 5 => .ok fun bo => readIeeeFloat bo
  | 6 => .ok fun bo => readIeeeDouble bo
  | 7 => .ok fun bo => do pure (dblOfInt (← readI24 bo))
  | 8 => .ok fun _ => do pure (dblOfInt (← readI8))
  | 9 => .ok fun bo => do pure (dblOfInt (← readI64 bo))
  | 10 => .ok fun bo => do pure (dblOfInt ((← readU32 bo : Nat) : Int))
  | 11 => .ok fun bo => do pure (dblOfInt ((← readU16 bo : Nat) : Int))
  | 12 => .ok fun bo => do pure (dblOfInt ((← readU64 bo : Nat) : Int))
  | 15 => .ok fun bo => do pure (dblOfInt ((← readU24 bo : Nat) : Int))
  | 16 => .ok fun _ => do pure (dblOfInt ((← readU8 : Nat) : Int))
  | _ => throwExn .unsupportedFormat

/-- `assign_bytes_per_sample` (reader ISEGY.cpp:420-448, writer OSEGY.cpp:159-187: same
switch). Codes without a case leave the member alone; `none` here. -/
def bytesPerSample (format : Int) : Option Nat :=
  match format with
  | 1 | 2 | 4 | 5 | 10 => some 4
  | 3 | 11 => some 2
  | 6 | 9 | 12 => some 8
  | 7 | 15 => some 3
  | 8 | 16 => some 1
  | _ => none

/-- `write_IEEE_float`, IEEE host branch; the `double` argument is converted to the `float`
parameter of the `std::function` (OSEGY.cpp:57). OSEGY.cpp:114-118 -/
def writeIeeeFloat (bo : ByteOrder) (d : Dbl) : Bytes := writeU32 bo (dblToSgl d).toNat

/-- `write_IEEE_double`, IEEE host branch. OSEGY.cpp:119-123 -/
def writeIeeeDouble (bo : ByteOrder) (d : Dbl) : Bytes := writeU64 bo d.toNat

/-- What the platform contributes, a parameter of the model. `log x` is the C library's evaluation of
the exponent estimate `log(x) / log(2) / 4 + 1 + 64`, truncated to an integer, for positive finite `x`;
its accuracy is an explicit hypothesis of the theorems. `conv n d` is what the platform makes of the
conversion of `d` to an unsigned type of `n` bytes when the value does not fit into it: C++ leaves
this undefined (`none`), but a compiler may be known to give some number. -/
structure LogEst where
  log : Dbl → Int
  conv : Nat → Dbl → Option Nat

instance : CoeFun LogEst (fun _ => Dbl → Int) := ⟨LogEst.log⟩

/-- A platform that gives no number where C++ leaves a conversion undefined. -/
def LogEst.strict (log : Dbl → Int) : LogEst := ⟨log, fun _ _ => none⟩

/-- Where C++ leaves a conversion undefined, the platform says nothing. -/
def LogEst.Strict (est : LogEst) : Prop := ∀ n d, est.conv n d = none

/-- The conversion of a number that does not fit into an unsigned type of `n` bytes. -/
def LogEst.unfit (est : LogEst) (n : Nat) (d : Dbl) : Out Nat :=
  match est.conv n d with
  | some u => .ok (u % 256 ^ n)
  | none => isUb .floatToInt

/-- The conversion to an unsigned type of `n` bytes: that of `dblToU`, and the platform's where that
one is undefined. -/
def LogEst.toU (est : LogEst) (n : Nat) (d : Dbl) : Out Int :=
  match dblToU n d with
  | .ok v => .ok v
  | .error _ => do pure ((← est.unfit n d : Nat) : Int)

/-- `static_cast<uint32_t>(log(abs_val) / log(2) / 4 + 1 + 64) & 0x7f`. For zero the argument
is minus infinity, for infinity and NaN it is not finite either: the conversion is undefined, unless
the platform defines it. Simplification: an estimate that does not fit is converted after it was
truncated. OSEGY.cpp:150-151 -/
def ibmExp (est : LogEst) (a : Dbl) : Out Nat :=
  match a.val with
  | .fin _ m _ =>
    if m = 0 then do pure ((← est.unfit 4 (toDbl (.inf true))) &&& 0x7f)
    else if 0 ≤ est a ∧ est a < 256 ^ 4 then .ok ((est a).toNat &&& 0x7f)
    else do pure ((← est.unfit 4 (dblOfInt (est a))) &&& 0x7f)
  | _ => do pure ((← est.unfit 4 a) &&& 0x7f)

/-- The word computed by `write_ibm_float`. OSEGY.cpp:147-155 -/
def ibmEncode (est : LogEst) (val : Dbl) : Out Nat := do
  let sign : Nat := if dblNeg val then 1 else 0
  let absVal := dblAbs val
  let exp ← ibmExp est absVal
  let fraction ← est.toU 4 (dmul (ddivPow2 absVal (4 * ((exp : Int) - 64))) (pow2 24))
  pure (sign <<< 31 ||| exp <<< 24 ||| (fraction.toNat &&& 0x00ffffff))

/-- `write_ibm_float`. OSEGY.cpp:147-156 -/
def writeIbm (est : LogEst) (bo : ByteOrder) (d : Dbl) : Out Bytes := do
  pure (writeU32 bo (← ibmEncode est d))

/-- `assign_sample_writer`. The integer writers have unsigned parameters
(OSEGY.cpp:45-54), so the sample is converted from `double` to the unsigned type first.
OSEGY.cpp:189-234 -/
def sampleWriter (est : LogEst) (format : Int) : Out (ByteOrder → Dbl → Out Bytes) :=
  match format with
  | 1 => .ok fun bo d => writeIbm est bo d
  | 2 => .ok fun bo d => do pure (writeI32 bo (← est.toU 4 d))
  | 3 => .ok fun bo d => do pure (writeI16 bo (← est.toU 2 d))
  | 5 => .ok fun bo d => .ok (writeIeeeFloat bo d)
  | 6 => .ok fun bo d => .ok (writeIeeeDouble bo d)
  | 7 => .ok fun bo d => do pure (writeI24 bo (← est.toU 4 d))
  | 8 => .ok fun _ d => do pure (writeI8 (← est.toU 1 d))
  | 9 => .ok fun bo d => do pure (writeI64 bo (← est.toU 8 d))
  | 10 => .ok fun bo d => do pure (writeU32 bo (← est.toU 4 d))
  | 11 => .ok fun bo d => do pure (writeU16 bo (← est.toU 2 d))
  | 12 => .ok fun bo d => do pure (writeU64 bo (← est.toU 8 d))
  | 15 => .ok fun bo d => do pure (writeU24 bo (← est.toU 4 d))
  | 16 => .ok fun _ d => do pure (writeU8 (← est.toU 1 d))
  | _ => throwExn .unsupportedFormat

end Sedaman
