import Verif.Spec.Platform
import Verif.Lemmas.Ibm
import Verif.Lemmas.SegdSample
import Verif.Lemmas.SampleFmt

/-! # Lemmas about conversions that C++ leaves undefined -/

namespace Sedaman

open Spec

/-- The conversion of a number that fits. -/
theorem toU_rat {est : LogEst} {d : Dbl} {x : ℚ} {n : Nat} {v : Int} (hd : dblRat d = some x) (hv : Truncates x v)
    (h0 : 0 ≤ v) (h1 : v < ((256 ^ n : Nat) : Int)) : est.toU n d = .ok v :=
  LogEst.toU_ok (dblToInt_rat hd hv h0 (by omega))

/-- The conversion of a number that does not fit. -/
theorem toU_conv {est : LogEst} {d : Dbl} {x : ℚ} {n u : Nat} {v : Int} (hd : dblRat d = some x) (hv : Truncates x v)
    (h0 : v < 0) (hu : est.conv n d = some u) : est.toU n d = .ok ((u % 256 ^ n : Nat) : Int) := by
  obtain ⟨m, e1, e2⟩ := trunc_rat hd
  have := truncates_unique hv e2
  subst this
  have : dblToU n d = isUb .floatToInt := by
    unfold dblToU dblToInt
    rw [e1]
    exact if_neg (by omega)
  unfold LogEst.toU LogEst.unfit
  rw [this, hu]
  rfl

/-- An integer is written as its bytes, even if it is known modulo the size of a wider parameter only. -/
theorem write_mod {bo : ByteOrder} {k : IntKind} {v u : Int}
    (h : u % ((256 ^ paramSize k : Nat) : Int) = v % ((256 ^ paramSize k : Nat) : Int)) :
    k.write bo u = k.write bo v := by
  rw [kind_write_eq, kind_write_eq, ← encInt_toU bo k.size u, ← encInt_toU bo k.size v]
  have hd : ((256 ^ k.size : Nat) : Int) ∣ ((256 ^ paramSize k : Nat) : Int) := by
    cases k <;> decide
  have : toU k.size u = toU k.size v := by
    unfold toU
    rw [← Int.emod_emod_of_dvd u hd, h, Int.emod_emod_of_dvd v hd]
  rw [this]

theorem paramSize_mem (k : IntKind) : paramSize k ∈ [1, 2, 4, 8] := by cases k <;> decide

/-- What the writer of an integer format does with a number whose integer part is in the range. -/
theorem write_wraps {est : LogEst} (hw : WrapsNegative est) {k : IntKind} {bo : ByteOrder} {d : Dbl} {x : ℚ} {v : Int}
    (hd : dblRat d = some x) (hv : Truncates x v) (hr : k.InRange v) :
    ∃ u, est.toU (paramSize k) d = .ok u ∧ k.write bo u = k.write bo v := by
  have hlo : -((256 ^ paramSize k : Nat) : Int) ≤ 2 * v ∧ v < ((256 ^ paramSize k : Nat) : Int) := by
    unfold IntKind.InRange at hr
    cases k <;> simp only [IntKind.signed, IntKind.size, paramSize] at hr ⊢ <;> norm_num at hr ⊢ <;> omega
  by_cases h0 : 0 ≤ v
  · exact ⟨v, toU_rat hd hv h0 hlo.2, rfl⟩
  · obtain ⟨u, h1, h2⟩ := hw _ (paramSize_mem k) d x v hd hv hlo.1 (by omega)
    refine ⟨_, toU_conv hd hv (by omega) h1, write_mod ?_⟩
    rw [← h2, Int.natCast_emod, Int.emod_emod]

/-- Zero in IBM format. -/
theorem ibmEncode_zero_conv {est : LogEst} (hz : LogOfZero est) {d : Dbl} {s : Bool} {e : Int} (hd : d.val = .fin s 0 e) :
    ibmEncode est d = .ok 0 := by
  obtain ⟨u, h1, h2⟩ := hz
  have ha := dblAbs_is (d := d) (s := s) (n := 0) (g := e) ⟨0, e, hd, rfl⟩
  have hneg : dblNeg d = false := by
    unfold dblNeg
    rw [hd]
    cases s <;> rfl
  have hab : dblAbs d = 0 := by
    rw [ha.eq]
    rfl
  unfold ibmEncode
  rw [hneg, hab]
  have he : ibmExp est 0 = .ok 0 := by
    have hv : Dbl.val 0 = .fin false 0 (-1074) := by decide +kernel
    have hi : toDbl (.inf true) = 0xFFF0000000000000 := by decide +kernel
    unfold ibmExp
    rw [hv]
    simp only [if_true]
    unfold LogEst.unfit
    rw [hi, h1]
    show Except.ok (u % 256 ^ 4 &&& 0x7f) = _
    rw [and_7f]
    congr 1
    omega
  have hf : dblToU 4 (dmul (ddivPow2 0 (4 * (((0 : Nat) : Int) - 64))) (pow2 24)) = .ok 0 := by decide +kernel
  simp only [he, ok_bind, LogEst.toU_ok hf]
  rfl

end Sedaman
