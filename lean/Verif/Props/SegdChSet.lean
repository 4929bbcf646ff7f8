import Verif.Lemmas.SegdChSet
import Verif.Props.SegdGen

/-!
# C47: SEG-D channel set headers
-/

namespace Sedaman.Props

open Spec

/-- Whatever the size of the fields, for a non-negative descale multiplier the writer produces 32
bytes and the reader gets the stored form of the header. -/
theorem C47_stored (lg : Int → Dbl) (h : ChSet) (k : Nat) (hlg : LogOk lg) (ht : ChSetTyped h)
    (hd : h.descaleMultiplier = dyadic k 10) (hk : k < 2 ^ 15)
    (h1 : 1 ≤ h.subscansPerChSet) (h2 : h.subscansPerChSet < 2 ^ 16) :
    ∃ block, writeChSet lg h = .ok block ∧ block.length = 32 ∧
      ∀ rest, readChSet (block ++ rest) = .ok (chSetStored h, rest) :=
  ⟨_, writeChSet_eq hlg ht hd hk h1 h2, chSetBytes_length _ _,
    fun rest => readChSet_eq rest ht hd hk⟩

/-- Every channel set header whose fields fit is returned unchanged (the reader adds a number of
samples of zero, a member revision 2 headers do not have). Missing: negative descale multipliers,
which are undefined behaviour in the writer (`C47_negative_descale_undefined`), and extended
header flags from 8 (`C47_flag_sign_extended`). -/
theorem C47_roundtrip_partial (lg : Int → Dbl) (h : ChSet) (k j : Nat) (hlg : LogOk lg)
    (hf : ChSetFits h) (hd : h.descaleMultiplier = dyadic k 10) (hk : k < 2 ^ 15)
    (hs : h.subscansPerChSet = 2 ^ j) (hj : j < 10) (hflag : h.extHdrFlag < 8) :
    ∃ block, writeChSet lg h = .ok block ∧ block.length = 32 ∧
      ∀ rest, readChSet (block ++ rest) = .ok ({ h with numberOfSamples := some 0 }, rest) := by
  have hj2 : (1 : Int) ≤ 2 ^ j ∧ (2 : Int) ^ j < 2 ^ 16 := by
    constructor
    · exact_mod_cast Nat.one_le_two_pow
    · exact_mod_cast Nat.pow_lt_pow_right (by decide) (by omega)
  obtain ⟨⟨a0, a1⟩, b, c, ⟨d0, d1⟩, ⟨e0, e1⟩, f, g, i, l, m, n, o, p, q, r, s, t, u, v, w⟩ := hf
  have ht : ChSetTyped h := by constructor <;> omega
  obtain ⟨block, hw, hl, hr⟩ := C47_stored lg h k hlg ht hd hk
    (by rw [hs]; exact hj2.1) (by rw [hs]; exact hj2.2)
  refine ⟨block, hw, hl, fun rest => ?_⟩
  rw [hr]
  refine congrArg (fun x => Except.ok (x, rest)) ?_
  have hlog : h.subscansPerChSet = 2 ^ (h.subscansPerChSet.toNat.log2 % 10) := by
    have : h.subscansPerChSet.toNat = 2 ^ j := by
      rw [hs]; exact Int.toNat_pow_of_nonneg (by decide) j
    rw [this, Nat.log2_two_pow, hs, Nat.mod_eq_of_lt hj]
  unfold chSetStored
  rw [if_neg (by omega), ← hlog]
  cases h
  simp only at *
  congr 1
  all_goals omega

/-- Example channel set: 1.5 descale multiplier. -/
def chSetExample : ChSet :=
  { scanTypeNumber := 1, channelSetNumber := 17, channelType := 9, startTime := 1500
    endTime := 131070, descaleMultiplier := dyadic 1536 10, numberOfChannels := 9876
    subscansPerChSet := 4, channelGain := 3, aliasFilterFreq := 1234, aliasFilterSlope := 96
    lowCutFilterFreq := 8, lowCutFilterSlope := 18, firstNotchFilter := 500
    secondNotchFilter := 600, thirdNotchFilter := 9999, extChSetNum := 40000, extHdrFlag := 5
    trcHdrExt := 12, vertStack := 200, streamerNo := 3, arrayForming := 255
    numberOfSamples := none }

example : ∃ block, writeChSet floorLog chSetExample = .ok block ∧ block.length = 32 ∧
    ∀ rest, readChSet (block ++ rest)
      = .ok ({ chSetExample with numberOfSamples := some 0 }, rest) :=
  C47_roundtrip_partial floorLog chSetExample 1536 2 floorLog_ok (by constructor <;> decide) rfl
    (by decide) rfl (by decide) (by decide)

example : ChSetTyped chSetExample := by constructor <;> decide

/-- A negative descale multiplier (here -1.5) is undefined behaviour in the writer, although the
format has a sign bit for it and the reader understands it (`C47_negative_descale_read`). -/
theorem C47_negative_descale_undefined :
    writeChSet floorLog { chSetExample with descaleMultiplier := toDbl (.fin true 1536 (-10)) }
      = .error (.ub .floatToInt) := by decide +kernel

/-- The reader returns -1.5 for the bytes a correct writer would store. -/
theorem C47_negative_descale_read :
    rdDescale [0x86, 0x00] = .ok (toDbl (.fin true 1536 (-10)), []) := by decide +kernel

/-- Extended header flag 8 comes back as 248. -/
theorem C47_flag_sign_extended :
    (writeChSet floorLog { chSetExample with extHdrFlag := 8 } >>= fun b => readChSet b)
      = .ok ({ chSetExample with extHdrFlag := 248, numberOfSamples := some 0 }, []) := by
  decide +kernel

/-- A set of 10000 channels comes back as an empty set. -/
theorem C47_channels_lost :
    (writeChSet floorLog { chSetExample with numberOfChannels := 10000 } >>= fun b => readChSet b)
      = .ok ({ chSetExample with numberOfChannels := 0, numberOfSamples := some 0 }, []) := by
  decide +kernel

/-- Odd times are rounded down. -/
theorem C47_odd_time_rounded :
    (writeChSet floorLog { chSetExample with startTime := 1501 } >>= fun b => readChSet b)
      = .ok ({ chSetExample with numberOfSamples := some 0 }, []) := by
  decide +kernel

end Sedaman.Props
