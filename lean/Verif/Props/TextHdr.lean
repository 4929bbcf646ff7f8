import Verif.Props.OSEGY
import Verif.Lemmas.TextHdr

/-!
# C26: default text headers
-/

namespace Sedaman.Props

open Spec

/-- Line `i` (from 1) of a text header. -/
def textLine (t : Bytes) (i : Nat) : Bytes := (t.drop (80 * (i - 1))).take 80

/-- The line number every line must begin with: `C 1` to `C40`. -/
def lineTag (i : Nat) : Bytes :=
  if i < 10 then ascii "C " ++ [BitVec.ofNat 8 (48 + i)]
  else ascii "C" ++ [BitVec.ofNat 8 (48 + i / 10), BitVec.ofNat 8 (48 + i % 10)]

/-- A well formed text header with a given line 39: 40 lines of 80 printable characters, each
beginning with its number. -/
def GoodText (t : Bytes) (line39 : String) : Prop :=
  t.length = 3200 ∧ (∀ i, 1 ≤ i → i ≤ 40 → (textLine t i).take 3 = lineTag i) ∧
  (∀ c ∈ t, 32 ≤ c.toNat ∧ c.toNat < 127) ∧ textLine t 39 = ascii line39

private def checkText (t : Bytes) (line39 : String) : Bool :=
  decide (t.length = 3200) && (List.range 40).all (fun i => decide ((textLine t (i + 1)).take 3 = lineTag (i + 1))) &&
  t.all (fun c => decide (32 ≤ c.toNat ∧ c.toNat < 127)) && decide (textLine t 39 = ascii line39)

private theorem goodText_of {t : Bytes} {s : String} (h : checkText t s = true) : GoodText t s := by
  unfold checkText at h
  simp only [Bool.and_eq_true, decide_eq_true_eq, List.all_eq_true, List.mem_range] at h
  obtain ⟨⟨⟨h1, h2⟩, h3⟩, h4⟩ := h
  refine ⟨h1, fun i hi hj => ?_, h3, h4⟩
  have := h2 (i - 1) (by omega)
  rwa [show i - 1 + 1 = i by omega] at this

/-- **C26.** Without a text header a revision 1 file begins with a well formed one whose line 39
carries the stamp of revision 1. -/
theorem C26_rev1 (bh : BinHeader) (m : HdrMap) (w : Writer) (h : openRev1 [] bh m = .ok w) :
    GoodText (w.file.data.take 3200)
      "C39 SEG Y REV1                                                                  " := by
  obtain ⟨-, t, ts, bo, bps, h1, -, -, h2, -, -, -, rfl⟩ := openRev1_ok h
  obtain ⟨rfl, ht⟩ := h2 rfl
  have hc : (defaultTextRev1.map fun t => checkText t
    "C39 SEG Y REV1                                                                  ") =
    some true := by
    unfold defaultTextRev1
    rw [defaultText_eq]
    decide +kernel
  rw [ht] at hc
  have hg := goodText_of (Option.some.inj hc)
  unfold openedWriter
  simp only
  rw [List.take_left' (by rw [List.length_take]; omega), List.take_of_length_le (by rw [hg.1])]
  exact hg

/-- **C26.** The same for revision 2, with the stamp of revision 2. -/
theorem C26_rev2 (bh : BinHeader) (trailers : List Bytes) (m : HdrMap) (w : Writer)
    (h : openRev2 [] bh trailers m = .ok w) :
    GoodText (w.file.data.take 3200)
      "C39 SEG-Y_REV2.0                                                                " := by
  obtain ⟨-, -, t, ts, bo, bps, h1, -, -, h2, -, -, -, rfl⟩ := openRev2_ok h
  obtain ⟨rfl, ht⟩ := h2 rfl
  have hc : checkText defaultTextRev2
    "C39 SEG-Y_REV2.0                                                                " =
    true := by
    unfold defaultTextRev2
    rw [defaultText_eq]
    decide +kernel
  rw [← ht] at hc
  have hg := goodText_of hc
  unfold openedWriter
  simp only
  rw [List.take_left' (by rw [List.length_take]; omega), List.take_of_length_le (by rw [hg.1])]
  exact hg

/-- **C26 fails for revision 0.** The stamp is replaced by 32 form feed characters instead of 12
blanks, so the text is 20 characters too long: line 39 holds control characters, line 40 begins 20
characters late and its end is cut off. -/
theorem C26_rev0_damaged (bh : BinHeader) (m : HdrMap) (w : Writer) (h : openRev0 [] bh m = .ok w) :
    ∀ s, ¬ GoodText (ebcdicToAscii (w.file.data.take 3200)) s := by
  obtain ⟨-, t, bo, bps, h1, -, h2, -, -, -, rfl⟩ := openRev0_ok h
  have ht := h2 rfl
  have hc : (defaultTextRev0.map fun t =>
      decide ((textLine (ebcdicToAscii (t.take 3200)) 40).take 3 = lineTag 40)) = some false := by
    unfold defaultTextRev0
    rw [defaultText_eq]
    decide +kernel
  rw [ht] at hc
  have hc := Option.some.inj hc
  rintro s ⟨-, hg, -⟩
  unfold openedWriter at hg
  simp only at hg
  rw [List.take_left' (by rw [List.length_take]; omega)] at hg
  have := hg 40 (by omega) (by omega)
  simp only [this] at hc
  simp at hc

/-- **C26, what holds for revision 0.** The first 38 lines are as they should be, in EBCDIC. -/
theorem C26_rev0_partial (bh : BinHeader) (m : HdrMap) (w : Writer) (h : openRev0 [] bh m = .ok w) :
    (ebcdicToAscii (w.file.data.take 3200)).take 3040 = defaultTextRev2.take 3040 ∧
    (ebcdicToAscii (w.file.data.take 3200)).length = 3200 := by
  obtain ⟨-, t, bo, bps, h1, -, h2, -, -, -, rfl⟩ := openRev0_ok h
  have ht := h2 rfl
  have hc : (defaultTextRev0.map fun t =>
      decide ((ebcdicToAscii (t.take 3200)).take 3040 = defaultTextRev2.take 3040 ∧
        (ebcdicToAscii (t.take 3200)).length = 3200)) = some true := by
    unfold defaultTextRev0 defaultTextRev2
    rw [defaultText_eq]
    decide +kernel
  rw [ht] at hc
  have hc := of_decide_eq_true (Option.some.inj hc)
  unfold openedWriter
  simp only
  rw [List.take_left' (by rw [List.length_take]; omega)]
  exact hc

example : (openRev0 [] {} exWMap).isOk ∧ (openRev1 [] {} exWMap).isOk ∧
    (openRev2 [] {} [] exWMap).isOk := by
  unfold openRev0 openRev1 openRev2 defaultTextRev0 defaultTextRev1 defaultTextRev2
  rw [defaultText_eq]
  decide +kernel

end Sedaman.Props
