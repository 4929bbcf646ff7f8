import Verif.Model.SegdGen

/-!
# SEG-D channel set headers, revisions up to 2

`OSEGD::Impl::write_ch_set_hdr` (OSEGD.cpp:818-849) and `ISEGD::Impl::read_ch_set_hdr`
(ISEGD.cpp:1070-1113, 1155-1163), the branch for general headers without additional blocks or a
revision below 3. Both work on a buffer of 32 bytes.
-/

namespace Sedaman

/-- `CommonSEGD::ChannelSetHeader`. CommonSEGD.hpp:1435-1529. `numberOfSamples` is the result of
the member function of that name (CommonSEGD.cpp:250-254): empty for a header built with the
constructor for revisions up to 2. The other revision 3 members are left out. -/
structure ChSet where
  scanTypeNumber : Int
  channelSetNumber : Nat
  channelType : Nat
  startTime : Nat
  endTime : Nat
  descaleMultiplier : Dbl
  numberOfChannels : Nat
  subscansPerChSet : Int
  channelGain : Nat
  aliasFilterFreq : Nat
  aliasFilterSlope : Nat
  lowCutFilterFreq : Nat
  lowCutFilterSlope : Nat
  firstNotchFilter : Nat
  secondNotchFilter : Nat
  thirdNotchFilter : Nat
  extChSetNum : Nat
  extHdrFlag : Nat
  trcHdrExt : Nat
  vertStack : Nat
  streamerNo : Nat
  arrayForming : Nat
  numberOfSamples : Option Nat
  deriving DecidableEq, Repr

/-- Descale multiplier: sign bit and 15 bits of the value times `2^10`, which is converted to
`uint16_t` (undefined if negative or too large). OSEGD.cpp:828-831 -/
def wrDescale (d : Dbl) : Wr Unit := do
  let v ← (fun c => do pure ((← dblToU 2 (dmul d (pow2 10))), c) : Wr Int)
  wrPut (writeU16 .be ((v.toNat &&& 0x7fff ||| (if dblNeg d then 0x8000 else 0) : Nat) : Int))

/-- Subscans: `to_bcd` of the `double` `log2(subscans)`, which initialises a bit set of
`sizeof(double)` bytes through a conversion to `unsigned long long`, then the gain in the low
nibble. OSEGD.cpp:835-836 -/
def wrSubscans (lg : Int → Dbl) (h : ChSet) : Wr Unit := do
  let l ← (fun c => do pure ((← dblToU 8 (lg h.subscansPerChSet)), c) : Wr Int)
  wrBcd 8 l false 1
  wrBcd 1 h.channelGain true 1

/-- Extended header flag and number of trace header extensions. OSEGD.cpp:845-846 -/
def wrFlags (h : ChSet) : Wr Unit := do
  wrPoke (chr (h.extHdrFlag * 16 : Nat))
  wrOr (chr (h.trcHdrExt % 16 : Nat))

/-- The statements of `write_ch_set_hdr` for revisions up to 2. OSEGD.cpp:824-849 -/
def wrChSet (lg : Int → Dbl) (h : ChSet) : Wr Unit := do
  wrBcd 4 h.scanTypeNumber false 2
  wrBcd 2 h.channelSetNumber false 2
  wrPut (writeU16 .be (h.startTime / 2 : Nat))
  wrPut (writeU16 .be (h.endTime / 2 : Nat))
  wrDescale h.descaleMultiplier
  wrBcd 4 h.numberOfChannels false 4
  wrBcd 1 h.channelType false 1
  wrSkip 1
  wrSubscans lg h
  wrBcd 4 h.aliasFilterFreq false 4
  wrBcd 4 h.aliasFilterSlope false 4
  wrBcd 4 h.lowCutFilterFreq false 4
  wrBcd 4 h.lowCutFilterSlope false 4
  wrBcd 4 h.firstNotchFilter false 4
  wrBcd 4 h.secondNotchFilter false 4
  wrBcd 4 h.thirdNotchFilter false 4
  wrPut (writeU16 .be h.extChSetNum)
  wrFlags h
  wrPut [chr h.vertStack]
  wrPut [chr h.streamerNo]
  wrPut [chr h.arrayForming]

/-- The 32 bytes `write_ch_set_hdr` writes. OSEGD.cpp:818-882 -/
def writeChSet (lg : Int → Dbl) (h : ChSet) : Out Bytes := wrBlock 32 (wrChSet lg h)

/-- Descale multiplier: `±1.0 * int / pow(2, 10)`. ISEGD.cpp:1091-1093 -/
def rdDescale : Rd Dbl := do
  let v ← readU16 .be
  let sign := dblOfInt (if v ≥ 0x8000 then -1 else 1)
  pure (ddivPow2 (dmul sign (dblOfInt ((v % 0x8000 : Nat) : Int))) 10)

/-- Subscans: `pow(2, digit)` converted to `int`. ISEGD.cpp:1097 -/
def rdSubscans : Rd Int := do
  let k ← fromBcd false 1
  (fun bs => do pure ((← dblToS 4 (pow2 (k : Int))), bs) : Rd Int)

/-- `from_bcd<int>` stored in an unsigned member. -/
def rdBcdN (skip : Bool) (num : Nat) : Rd Nat := fromBcd skip num

/-- Extended header flag and number of trace header extensions: `*buf >> 4` of a signed `char`
converted to `uint8_t`. ISEGD.cpp:1107-1109 -/
def rdFlags : Rd (Nat × Nat) := do
  let b ← readU8
  pure (if b ≥ 128 then b / 16 + 240 else b / 16, b % 16)

/-- `read_ch_set_hdr` on the 32 bytes of the buffer. The header is built with the constructor
for revision 3, so `number_of_samples()` has a value. ISEGD.cpp:1085-1113, 1155-1163 -/
def readChSet : Rd ChSet := do
  let scanTypeNumber ← rdBcd false 2
  let channelSetNumber ← rdBcdN false 2
  let start ← readU16 .be
  let end_ ← readU16 .be
  let descaleMultiplier ← rdDescale
  let numberOfChannels ← rdBcdN false 4
  let channelType ← rdBcdN false 1
  rdSkip 1
  let subscansPerChSet ← rdSubscans
  let channelGain ← rdBcdN true 1
  let aliasFilterFreq ← rdBcdN false 4
  let aliasFilterSlope ← rdBcdN false 4
  let lowCutFilterFreq ← rdBcdN false 4
  let lowCutFilterSlope ← rdBcdN false 4
  let firstNotchFilter ← rdBcdN false 4
  let secondNotchFilter ← rdBcdN false 4
  let thirdNotchFilter ← rdBcdN false 4
  let extChSetNum ← readU16 .be
  let flags ← rdFlags
  let vertStack ← readU8
  let streamerNo ← readU8
  let arrayForming ← readU8
  pure { scanTypeNumber, channelSetNumber, channelType, startTime := start * 2,
         endTime := end_ * 2, descaleMultiplier, numberOfChannels, subscansPerChSet, channelGain,
         aliasFilterFreq, aliasFilterSlope, lowCutFilterFreq, lowCutFilterSlope,
         firstNotchFilter, secondNotchFilter, thirdNotchFilter, extChSetNum,
         extHdrFlag := flags.1, trcHdrExt := flags.2, vertStack, streamerNo, arrayForming,
         numberOfSamples := some 0 }

end Sedaman
