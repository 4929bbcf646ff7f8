import Verif.Model.TextHdr

/-! # Lemmas: the characters of the default text header

The kernel decodes the characters of a string literal slowly; these lemmas do it once. -/

namespace Sedaman

theorem ascii_ofList (l : List Char) : ascii (String.ofList l) = l.map fun c => BitVec.ofNat 8 c.toNat := by
  unfold ascii
  rw [String.toList_ofList]

/-- The codes of the characters of the default text header, line by line. -/
def defaultCodes : List (List Nat) := [
  [67, 32, 49, 32, 67, 76, 73, 69, 78, 84, 32, 32, 32, 32, 32, 32, 32, 32, 32, 32, 32, 32, 32, 32, 32, 32, 32, 32, 32,
       32, 32, 32, 32, 32, 67, 79, 77, 80, 65, 78, 89, 32, 32, 32, 32, 32, 32, 32, 32, 32, 32, 32, 32, 32, 32, 32, 32,
       32, 32, 32, 32, 32, 32, 32, 67, 82, 69, 87, 32, 78, 79, 32, 32, 32, 32, 32, 32, 32, 32, 32],
  [67, 32, 50, 32, 76, 73, 78, 69, 32, 32, 32, 32, 32, 32, 32, 32, 32, 32, 32, 32, 65, 82, 69, 65, 32, 32, 32, 32, 32,
       32, 32, 32, 32, 32, 32, 32, 32, 32, 32, 32, 32, 32, 32, 32, 32, 32, 32, 32, 77, 65, 80, 32, 73, 68, 32, 32, 32,
       32, 32, 32, 32, 32, 32, 32, 32, 32, 32, 32, 32, 32, 32, 32, 32, 32, 32, 32, 32, 32, 32, 32],
  [67, 32, 51, 32, 82, 69, 69, 76, 32, 78, 79, 32, 32, 32, 32, 32, 32, 32, 32, 32, 32, 32, 68, 65, 89, 45, 83, 84, 65,
       82, 84, 32, 79, 70, 32, 82, 69, 69, 76, 32, 32, 32, 32, 32, 89, 69, 65, 82, 32, 32, 32, 32, 32, 32, 79, 66, 83,
       69, 82, 86, 69, 82, 32, 32, 32, 32, 32, 32, 32, 32, 32, 32, 32, 32, 32, 32, 32, 32, 32, 32],
  [67, 32, 52, 32, 73, 78, 83, 84, 82, 85, 77, 69, 78, 84, 58, 32, 77, 70, 71, 32, 32, 32, 32, 32, 32, 32, 32, 32, 32,
       32, 32, 77, 79, 68, 69, 76, 32, 32, 32, 32, 32, 32, 32, 32, 32, 32, 32, 32, 83, 69, 82, 73, 65, 76, 32, 78, 79,
       32, 32, 32, 32, 32, 32, 32, 32, 32, 32, 32, 32, 32, 32, 32, 32, 32, 32, 32, 32, 32, 32, 32],
  [67, 32, 53, 32, 68, 65, 84, 65, 32, 84, 82, 65, 67, 69, 83, 47, 82, 69, 67, 79, 82, 68, 32, 32, 32, 32, 32, 32, 32,
       32, 65, 85, 88, 73, 76, 73, 65, 82, 89, 32, 84, 82, 65, 67, 69, 83, 47, 82, 69, 67, 79, 82, 68, 32, 32, 32, 32,
       32, 32, 32, 32, 32, 67, 68, 80, 32, 70, 79, 76, 68, 32, 32, 32, 32, 32, 32, 32, 32, 32, 32],
  [67, 32, 54, 32, 83, 65, 77, 80, 76, 69, 32, 73, 78, 84, 69, 82, 86, 65, 76, 32, 32, 32, 32, 32, 32, 32, 32, 83, 65,
       77, 80, 76, 69, 83, 47, 84, 82, 65, 67, 69, 32, 32, 32, 32, 32, 32, 32, 32, 66, 73, 84, 83, 47, 73, 78, 32, 32,
       32, 32, 32, 66, 89, 84, 69, 83, 47, 83, 65, 77, 80, 76, 69, 32, 32, 32, 32, 32, 32, 32, 32],
  [67, 32, 55, 32, 82, 69, 67, 79, 82, 68, 73, 78, 71, 32, 70, 79, 82, 77, 65, 84, 32, 32, 32, 32, 32, 32, 32, 70, 79,
       82, 77, 65, 84, 32, 84, 72, 73, 83, 32, 82, 69, 69, 76, 32, 32, 32, 32, 32, 32, 32, 32, 32, 77, 69, 65, 83, 85,
       82, 69, 77, 69, 78, 84, 32, 83, 89, 83, 84, 69, 77, 32, 32, 32, 32, 32, 32, 32, 32, 32, 32],
  [67, 32, 56, 32, 83, 65, 77, 80, 76, 69, 32, 67, 79, 68, 69, 58, 32, 70, 76, 79, 65, 84, 73, 78, 71, 32, 80, 84, 32,
       32, 32, 32, 32, 70, 73, 88, 69, 68, 32, 80, 84, 32, 32, 32, 32, 32, 70, 73, 88, 69, 68, 32, 80, 84, 45, 71, 65,
       73, 78, 32, 32, 32, 32, 32, 67, 79, 82, 82, 69, 76, 65, 84, 69, 68, 32, 32, 32, 32, 32, 32],
  [67, 32, 57, 32, 71, 65, 73, 78, 32, 32, 84, 89, 80, 69, 58, 32, 70, 73, 88, 69, 68, 32, 32, 32, 32, 32, 66, 73, 78,
       65, 82, 89, 32, 32, 32, 32, 32, 70, 76, 79, 65, 84, 73, 78, 71, 32, 80, 79, 73, 78, 84, 32, 32, 32, 32, 32, 79,
       84, 72, 69, 82, 32, 32, 32, 32, 32, 32, 32, 32, 32, 32, 32, 32, 32, 32, 32, 32, 32, 32, 32],
  [67, 49, 48, 32, 70, 73, 76, 84, 69, 82, 83, 58, 32, 65, 76, 73, 65, 83, 32, 32, 32, 32, 32, 72, 90, 32, 32, 78, 79,
       84, 67, 72, 32, 32, 32, 32, 32, 72, 90, 32, 32, 66, 65, 78, 68, 32, 32, 32, 32, 32, 45, 32, 32, 32, 32, 32, 72,
       90, 32, 32, 83, 76, 79, 80, 69, 32, 32, 32, 32, 45, 32, 32, 32, 32, 68, 66, 47, 79, 67, 84],
  [67, 49, 49, 32, 83, 79, 85, 82, 67, 69, 58, 32, 84, 89, 80, 69, 32, 32, 32, 32, 32, 32, 32, 32, 32, 32, 32, 32, 78,
       85, 77, 66, 69, 82, 47, 80, 79, 73, 78, 84, 32, 32, 32, 32, 32, 32, 32, 32, 80, 79, 73, 78, 84, 32, 73, 78, 84,
       69, 82, 86, 65, 76, 32, 32, 32, 32, 32, 32, 32, 32, 32, 32, 32, 32, 32, 32, 32, 32, 32, 32],
  [67, 49, 50, 32, 32, 32, 32, 32, 80, 65, 84, 84, 69, 82, 78, 58, 32, 32, 32, 32, 32, 32, 32, 32, 32, 32, 32, 32, 32,
       32, 32, 32, 32, 32, 32, 32, 32, 32, 32, 32, 32, 32, 32, 76, 69, 78, 71, 84, 72, 32, 32, 32, 32, 32, 32, 32, 32,
       87, 73, 68, 84, 72, 32, 32, 32, 32, 32, 32, 32, 32, 32, 32, 32, 32, 32, 32, 32, 32, 32, 32],
  [67, 49, 51, 32, 83, 87, 69, 69, 80, 58, 32, 83, 84, 65, 82, 84, 32, 32, 32, 32, 32, 72, 90, 32, 69, 78, 68, 32, 32,
       32, 32, 32, 32, 72, 90, 32, 32, 76, 69, 78, 71, 84, 72, 32, 32, 32, 32, 32, 32, 77, 83, 32, 32, 67, 72, 65, 78,
       78, 69, 76, 32, 78, 79, 32, 32, 32, 32, 32, 84, 89, 80, 69, 32, 32, 32, 32, 32, 32, 32, 32],
  [67, 49, 52, 32, 84, 65, 80, 69, 82, 58, 32, 83, 84, 65, 82, 84, 32, 76, 69, 78, 71, 84, 72, 32, 32, 32, 32, 32, 32,
       32, 77, 83, 32, 32, 69, 78, 68, 32, 76, 69, 78, 71, 84, 72, 32, 32, 32, 32, 32, 32, 32, 77, 83, 32, 84, 89, 80,
       69, 32, 32, 32, 32, 32, 32, 32, 32, 32, 32, 32, 32, 32, 32, 32, 32, 32, 32, 32, 32, 32, 32],
  [67, 49, 53, 32, 83, 80, 82, 69, 65, 68, 58, 32, 79, 70, 70, 83, 69, 84, 32, 32, 32, 32, 32, 32, 32, 32, 77, 65, 88,
       32, 68, 73, 83, 84, 65, 78, 67, 69, 32, 32, 32, 32, 32, 32, 32, 32, 71, 82, 79, 85, 80, 32, 73, 78, 84, 69, 86,
       65, 76, 32, 32, 32, 32, 32, 32, 32, 32, 32, 32, 32, 32, 32, 32, 32, 32, 32, 32, 32, 32, 32],
  [67, 49, 54, 32, 71, 69, 79, 80, 72, 79, 78, 69, 83, 58, 32, 80, 69, 82, 32, 71, 82, 79, 85, 80, 32, 32, 32, 32, 32,
       83, 80, 65, 67, 69, 73, 78, 71, 32, 32, 32, 32, 70, 82, 69, 81, 85, 69, 78, 67, 89, 32, 32, 32, 32, 32, 77, 70,
       71, 32, 32, 32, 32, 32, 32, 32, 32, 32, 32, 77, 79, 68, 69, 76, 32, 32, 32, 32, 32, 32, 32],
  [67, 49, 55, 32, 32, 32, 32, 32, 80, 65, 84, 84, 69, 82, 78, 58, 32, 32, 32, 32, 32, 32, 32, 32, 32, 32, 32, 32, 32,
       32, 32, 32, 32, 32, 32, 32, 32, 32, 32, 32, 32, 32, 32, 76, 69, 78, 71, 84, 72, 32, 32, 32, 32, 32, 32, 32, 32,
       87, 73, 68, 84, 72, 32, 32, 32, 32, 32, 32, 32, 32, 32, 32, 32, 32, 32, 32, 32, 32, 32, 32],
  [67, 49, 56, 32, 84, 82, 65, 67, 69, 83, 32, 83, 79, 82, 84, 69, 68, 32, 66, 89, 58, 32, 82, 69, 67, 79, 82, 68, 32,
       32, 32, 32, 32, 67, 68, 80, 32, 32, 32, 32, 32, 79, 84, 72, 69, 82, 32, 32, 32, 32, 32, 32, 32, 32, 32, 32, 32,
       32, 32, 32, 32, 32, 32, 32, 32, 32, 32, 32, 32, 32, 32, 32, 32, 32, 32, 32, 32, 32, 32, 32],
  [67, 49, 57, 32, 65, 77, 80, 76, 73, 84, 85, 68, 69, 32, 82, 69, 67, 79, 86, 69, 82, 89, 58, 32, 78, 79, 78, 69, 32,
       32, 32, 32, 32, 32, 83, 80, 72, 69, 82, 73, 67, 65, 76, 32, 68, 73, 86, 32, 32, 32, 32, 32, 32, 32, 65, 71, 67,
       32, 32, 32, 32, 79, 84, 72, 69, 82, 32, 32, 32, 32, 32, 32, 32, 32, 32, 32, 32, 32, 32, 32],
  [67, 50, 48, 32, 77, 65, 80, 32, 80, 82, 79, 74, 69, 67, 84, 73, 79, 78, 32, 32, 32, 32, 32, 32, 32, 32, 32, 32, 32,
       32, 32, 32, 32, 32, 32, 32, 32, 32, 32, 32, 90, 79, 78, 69, 32, 73, 68, 32, 32, 32, 32, 32, 32, 32, 67, 79, 79,
       82, 68, 73, 78, 65, 84, 69, 32, 85, 78, 73, 84, 83, 32, 32, 32, 32, 32, 32, 32, 32, 32, 32],
  [67, 50, 49, 32, 80, 82, 79, 67, 69, 83, 83, 73, 78, 71, 58, 32, 32, 32, 32, 32, 32, 32, 32, 32, 32, 32, 32, 32, 32,
       32, 32, 32, 32, 32, 32, 32, 32, 32, 32, 32, 32, 32, 32, 32, 32, 32, 32, 32, 32, 32, 32, 32, 32, 32, 32, 32, 32,
       32, 32, 32, 32, 32, 32, 32, 32, 32, 32, 32, 32, 32, 32, 32, 32, 32, 32, 32, 32, 32, 32, 32],
  [67, 50, 50, 32, 80, 82, 79, 67, 69, 83, 83, 73, 78, 71, 58, 32, 32, 32, 32, 32, 32, 32, 32, 32, 32, 32, 32, 32, 32,
       32, 32, 32, 32, 32, 32, 32, 32, 32, 32, 32, 32, 32, 32, 32, 32, 32, 32, 32, 32, 32, 32, 32, 32, 32, 32, 32, 32,
       32, 32, 32, 32, 32, 32, 32, 32, 32, 32, 32, 32, 32, 32, 32, 32, 32, 32, 32, 32, 32, 32, 32],
  [67, 50, 51, 32, 32, 32, 32, 32, 32, 32, 32, 32, 32, 32, 32, 32, 32, 32, 32, 32, 32, 32, 32, 32, 32, 32, 32, 32, 32,
       32, 32, 32, 32, 32, 32, 32, 32, 32, 32, 32, 32, 32, 32, 32, 32, 32, 32, 32, 32, 32, 32, 32, 32, 32, 32, 32, 32,
       32, 32, 32, 32, 32, 32, 32, 32, 32, 32, 32, 32, 32, 32, 32, 32, 32, 32, 32, 32, 32, 32, 32],
  [67, 50, 52, 32, 32, 32, 32, 32, 32, 32, 32, 32, 32, 32, 32, 32, 32, 32, 32, 32, 32, 32, 32, 32, 32, 32, 32, 32, 32,
       32, 32, 32, 32, 32, 32, 32, 32, 32, 32, 32, 32, 32, 32, 32, 32, 32, 32, 32, 32, 32, 32, 32, 32, 32, 32, 32, 32,
       32, 32, 32, 32, 32, 32, 32, 32, 32, 32, 32, 32, 32, 32, 32, 32, 32, 32, 32, 32, 32, 32, 32],
  [67, 50, 53, 32, 32, 32, 32, 32, 32, 32, 32, 32, 32, 32, 32, 32, 32, 32, 32, 32, 32, 32, 32, 32, 32, 32, 32, 32, 32,
       32, 32, 32, 32, 32, 32, 32, 32, 32, 32, 32, 32, 32, 32, 32, 32, 32, 32, 32, 32, 32, 32, 32, 32, 32, 32, 32, 32,
       32, 32, 32, 32, 32, 32, 32, 32, 32, 32, 32, 32, 32, 32, 32, 32, 32, 32, 32, 32, 32, 32, 32],
  [67, 50, 54, 32, 32, 32, 32, 32, 32, 32, 32, 32, 32, 32, 32, 32, 32, 32, 32, 32, 32, 32, 32, 32, 32, 32, 32, 32, 32,
       32, 32, 32, 32, 32, 32, 32, 32, 32, 32, 32, 32, 32, 32, 32, 32, 32, 32, 32, 32, 32, 32, 32, 32, 32, 32, 32, 32,
       32, 32, 32, 32, 32, 32, 32, 32, 32, 32, 32, 32, 32, 32, 32, 32, 32, 32, 32, 32, 32, 32, 32],
  [67, 50, 55, 32, 32, 32, 32, 32, 32, 32, 32, 32, 32, 32, 32, 32, 32, 32, 32, 32, 32, 32, 32, 32, 32, 32, 32, 32, 32,
       32, 32, 32, 32, 32, 32, 32, 32, 32, 32, 32, 32, 32, 32, 32, 32, 32, 32, 32, 32, 32, 32, 32, 32, 32, 32, 32, 32,
       32, 32, 32, 32, 32, 32, 32, 32, 32, 32, 32, 32, 32, 32, 32, 32, 32, 32, 32, 32, 32, 32, 32],
  [67, 50, 56, 32, 32, 32, 32, 32, 32, 32, 32, 32, 32, 32, 32, 32, 32, 32, 32, 32, 32, 32, 32, 32, 32, 32, 32, 32, 32,
       32, 32, 32, 32, 32, 32, 32, 32, 32, 32, 32, 32, 32, 32, 32, 32, 32, 32, 32, 32, 32, 32, 32, 32, 32, 32, 32, 32,
       32, 32, 32, 32, 32, 32, 32, 32, 32, 32, 32, 32, 32, 32, 32, 32, 32, 32, 32, 32, 32, 32, 32],
  [67, 50, 57, 32, 32, 32, 32, 32, 32, 32, 32, 32, 32, 32, 32, 32, 32, 32, 32, 32, 32, 32, 32, 32, 32, 32, 32, 32, 32,
       32, 32, 32, 32, 32, 32, 32, 32, 32, 32, 32, 32, 32, 32, 32, 32, 32, 32, 32, 32, 32, 32, 32, 32, 32, 32, 32, 32,
       32, 32, 32, 32, 32, 32, 32, 32, 32, 32, 32, 32, 32, 32, 32, 32, 32, 32, 32, 32, 32, 32, 32],
  [67, 51, 48, 32, 32, 32, 32, 32, 32, 32, 32, 32, 32, 32, 32, 32, 32, 32, 32, 32, 32, 32, 32, 32, 32, 32, 32, 32, 32,
       32, 32, 32, 32, 32, 32, 32, 32, 32, 32, 32, 32, 32, 32, 32, 32, 32, 32, 32, 32, 32, 32, 32, 32, 32, 32, 32, 32,
       32, 32, 32, 32, 32, 32, 32, 32, 32, 32, 32, 32, 32, 32, 32, 32, 32, 32, 32, 32, 32, 32, 32],
  [67, 51, 49, 32, 32, 32, 32, 32, 32, 32, 32, 32, 32, 32, 32, 32, 32, 32, 32, 32, 32, 32, 32, 32, 32, 32, 32, 32, 32,
       32, 32, 32, 32, 32, 32, 32, 32, 32, 32, 32, 32, 32, 32, 32, 32, 32, 32, 32, 32, 32, 32, 32, 32, 32, 32, 32, 32,
       32, 32, 32, 32, 32, 32, 32, 32, 32, 32, 32, 32, 32, 32, 32, 32, 32, 32, 32, 32, 32, 32, 32],
  [67, 51, 50, 32, 32, 32, 32, 32, 32, 32, 32, 32, 32, 32, 32, 32, 32, 32, 32, 32, 32, 32, 32, 32, 32, 32, 32, 32, 32,
       32, 32, 32, 32, 32, 32, 32, 32, 32, 32, 32, 32, 32, 32, 32, 32, 32, 32, 32, 32, 32, 32, 32, 32, 32, 32, 32, 32,
       32, 32, 32, 32, 32, 32, 32, 32, 32, 32, 32, 32, 32, 32, 32, 32, 32, 32, 32, 32, 32, 32, 32],
  [67, 51, 51, 32, 32, 32, 32, 32, 32, 32, 32, 32, 32, 32, 32, 32, 32, 32, 32, 32, 32, 32, 32, 32, 32, 32, 32, 32, 32,
       32, 32, 32, 32, 32, 32, 32, 32, 32, 32, 32, 32, 32, 32, 32, 32, 32, 32, 32, 32, 32, 32, 32, 32, 32, 32, 32, 32,
       32, 32, 32, 32, 32, 32, 32, 32, 32, 32, 32, 32, 32, 32, 32, 32, 32, 32, 32, 32, 32, 32, 32],
  [67, 51, 52, 32, 32, 32, 32, 32, 32, 32, 32, 32, 32, 32, 32, 32, 32, 32, 32, 32, 32, 32, 32, 32, 32, 32, 32, 32, 32,
       32, 32, 32, 32, 32, 32, 32, 32, 32, 32, 32, 32, 32, 32, 32, 32, 32, 32, 32, 32, 32, 32, 32, 32, 32, 32, 32, 32,
       32, 32, 32, 32, 32, 32, 32, 32, 32, 32, 32, 32, 32, 32, 32, 32, 32, 32, 32, 32, 32, 32, 32],
  [67, 51, 53, 32, 32, 32, 32, 32, 32, 32, 32, 32, 32, 32, 32, 32, 32, 32, 32, 32, 32, 32, 32, 32, 32, 32, 32, 32, 32,
       32, 32, 32, 32, 32, 32, 32, 32, 32, 32, 32, 32, 32, 32, 32, 32, 32, 32, 32, 32, 32, 32, 32, 32, 32, 32, 32, 32,
       32, 32, 32, 32, 32, 32, 32, 32, 32, 32, 32, 32, 32, 32, 32, 32, 32, 32, 32, 32, 32, 32, 32],
  [67, 51, 54, 32, 32, 32, 32, 32, 32, 32, 32, 32, 32, 32, 32, 32, 32, 32, 32, 32, 32, 32, 32, 32, 32, 32, 32, 32, 32,
       32, 32, 32, 32, 32, 32, 32, 32, 32, 32, 32, 32, 32, 32, 32, 32, 32, 32, 32, 32, 32, 32, 32, 32, 32, 32, 32, 32,
       32, 32, 32, 32, 32, 32, 32, 32, 32, 32, 32, 32, 32, 32, 32, 32, 32, 32, 32, 32, 32, 32, 32],
  [67, 51, 55, 32, 32, 32, 32, 32, 32, 32, 32, 32, 32, 32, 32, 32, 32, 32, 32, 32, 32, 32, 32, 32, 32, 32, 32, 32, 32,
       32, 32, 32, 32, 32, 32, 32, 32, 32, 32, 32, 32, 32, 32, 32, 32, 32, 32, 32, 32, 32, 32, 32, 32, 32, 32, 32, 32,
       32, 32, 32, 32, 32, 32, 32, 32, 32, 32, 32, 32, 32, 32, 32, 32, 32, 32, 32, 32, 32, 32, 32],
  [67, 51, 56, 32, 32, 32, 32, 32, 32, 32, 32, 32, 32, 32, 32, 32, 32, 32, 32, 32, 32, 32, 32, 32, 32, 32, 32, 32, 32,
       32, 32, 32, 32, 32, 32, 32, 32, 32, 32, 32, 32, 32, 32, 32, 32, 32, 32, 32, 32, 32, 32, 32, 32, 32, 32, 32, 32,
       32, 32, 32, 32, 32, 32, 32, 32, 32, 32, 32, 32, 32, 32, 32, 32, 32, 32, 32, 32, 32, 32, 32],
  [67, 51, 57, 32, 83, 69, 71, 45, 89, 95, 82, 69, 86, 50, 46, 48, 32, 32, 32, 32, 32, 32, 32, 32, 32, 32, 32, 32, 32,
       32, 32, 32, 32, 32, 32, 32, 32, 32, 32, 32, 32, 32, 32, 32, 32, 32, 32, 32, 32, 32, 32, 32, 32, 32, 32, 32, 32,
       32, 32, 32, 32, 32, 32, 32, 32, 32, 32, 32, 32, 32, 32, 32, 32, 32, 32, 32, 32, 32, 32, 32],
  [67, 52, 48, 32, 69, 78, 68, 32, 84, 69, 88, 84, 85, 65, 76, 32, 72, 69, 65, 68, 69, 82, 32, 32, 32, 32, 32, 32, 32,
       32, 32, 32, 32, 32, 32, 32, 32, 32, 32, 32, 32, 32, 32, 32, 32, 32, 32, 32, 32, 32, 32, 32, 32, 32, 32, 32, 32,
       32, 32, 32, 32, 32, 32, 32, 32, 32, 32, 32, 32, 32, 32, 32, 32, 32, 32, 32, 32, 32, 32, 32]]

private theorem line1 : ascii "C 1 CLIENT                        COMPANY                       CREW NO         " =
    (defaultCodes[0]'(by decide)).map (BitVec.ofNat 8) :=
  (ascii_ofList ['C', ' ', '1', ' ', 'C', 'L', 'I', 'E', 'N', 'T', ' ', ' ', ' ', ' ', ' ', ' ', ' ', ' ', ' ', ' ', ' ', ' ', ' ', ' ', ' ', ' ', ' ', ' ', ' ', ' ', ' ', ' ', ' ', ' ', 'C', 'O', 'M', 'P', 'A', 'N', 'Y', ' ', ' ', ' ', ' ', ' ', ' ', ' ', ' ', ' ', ' ', ' ', ' ', ' ', ' ', ' ', ' ', ' ', ' ', ' ', ' ', ' ', ' ', ' ', 'C', 'R', 'E', 'W', ' ', 'N', 'O', ' ', ' ', ' ', ' ', ' ', ' ', ' ', ' ', ' ']).trans (by decide +kernel)

private theorem line2 : ascii "C 2 LINE            AREA                        MAP ID                          " =
    (defaultCodes[1]'(by decide)).map (BitVec.ofNat 8) :=
  (ascii_ofList ['C', ' ', '2', ' ', 'L', 'I', 'N', 'E', ' ', ' ', ' ', ' ', ' ', ' ', ' ', ' ', ' ', ' ', ' ', ' ', 'A', 'R', 'E', 'A', ' ', ' ', ' ', ' ', ' ', ' ', ' ', ' ', ' ', ' ', ' ', ' ', ' ', ' ', ' ', ' ', ' ', ' ', ' ', ' ', ' ', ' ', ' ', ' ', 'M', 'A', 'P', ' ', 'I', 'D', ' ', ' ', ' ', ' ', ' ', ' ', ' ', ' ', ' ', ' ', ' ', ' ', ' ', ' ', ' ', ' ', ' ', ' ', ' ', ' ', ' ', ' ', ' ', ' ', ' ', ' ']).trans (by decide +kernel)

private theorem line3 : ascii "C 3 REEL NO           DAY-START OF REEL     YEAR      OBSERVER                  " =
    (defaultCodes[2]'(by decide)).map (BitVec.ofNat 8) :=
  (ascii_ofList ['C', ' ', '3', ' ', 'R', 'E', 'E', 'L', ' ', 'N', 'O', ' ', ' ', ' ', ' ', ' ', ' ', ' ', ' ', ' ', ' ', ' ', 'D', 'A', 'Y', '-', 'S', 'T', 'A', 'R', 'T', ' ', 'O', 'F', ' ', 'R', 'E', 'E', 'L', ' ', ' ', ' ', ' ', ' ', 'Y', 'E', 'A', 'R', ' ', ' ', ' ', ' ', ' ', ' ', 'O', 'B', 'S', 'E', 'R', 'V', 'E', 'R', ' ', ' ', ' ', ' ', ' ', ' ', ' ', ' ', ' ', ' ', ' ', ' ', ' ', ' ', ' ', ' ', ' ', ' ']).trans (by decide +kernel)

private theorem line4 : ascii "C 4 INSTRUMENT: MFG            MODEL            SERIAL NO                       " =
    (defaultCodes[3]'(by decide)).map (BitVec.ofNat 8) :=
  (ascii_ofList ['C', ' ', '4', ' ', 'I', 'N', 'S', 'T', 'R', 'U', 'M', 'E', 'N', 'T', ':', ' ', 'M', 'F', 'G', ' ', ' ', ' ', ' ', ' ', ' ', ' ', ' ', ' ', ' ', ' ', ' ', 'M', 'O', 'D', 'E', 'L', ' ', ' ', ' ', ' ', ' ', ' ', ' ', ' ', ' ', ' ', ' ', ' ', 'S', 'E', 'R', 'I', 'A', 'L', ' ', 'N', 'O', ' ', ' ', ' ', ' ', ' ', ' ', ' ', ' ', ' ', ' ', ' ', ' ', ' ', ' ', ' ', ' ', ' ', ' ', ' ', ' ', ' ', ' ', ' ']).trans (by decide +kernel)

private theorem line5 : ascii "C 5 DATA TRACES/RECORD        AUXILIARY TRACES/RECORD         CDP FOLD          " =
    (defaultCodes[4]'(by decide)).map (BitVec.ofNat 8) :=
  (ascii_ofList ['C', ' ', '5', ' ', 'D', 'A', 'T', 'A', ' ', 'T', 'R', 'A', 'C', 'E', 'S', '/', 'R', 'E', 'C', 'O', 'R', 'D', ' ', ' ', ' ', ' ', ' ', ' ', ' ', ' ', 'A', 'U', 'X', 'I', 'L', 'I', 'A', 'R', 'Y', ' ', 'T', 'R', 'A', 'C', 'E', 'S', '/', 'R', 'E', 'C', 'O', 'R', 'D', ' ', ' ', ' ', ' ', ' ', ' ', ' ', ' ', ' ', 'C', 'D', 'P', ' ', 'F', 'O', 'L', 'D', ' ', ' ', ' ', ' ', ' ', ' ', ' ', ' ', ' ', ' ']).trans (by decide +kernel)

private theorem line6 : ascii "C 6 SAMPLE INTERVAL        SAMPLES/TRACE        BITS/IN     BYTES/SAMPLE        " =
    (defaultCodes[5]'(by decide)).map (BitVec.ofNat 8) :=
  (ascii_ofList ['C', ' ', '6', ' ', 'S', 'A', 'M', 'P', 'L', 'E', ' ', 'I', 'N', 'T', 'E', 'R', 'V', 'A', 'L', ' ', ' ', ' ', ' ', ' ', ' ', ' ', ' ', 'S', 'A', 'M', 'P', 'L', 'E', 'S', '/', 'T', 'R', 'A', 'C', 'E', ' ', ' ', ' ', ' ', ' ', ' ', ' ', ' ', 'B', 'I', 'T', 'S', '/', 'I', 'N', ' ', ' ', ' ', ' ', ' ', 'B', 'Y', 'T', 'E', 'S', '/', 'S', 'A', 'M', 'P', 'L', 'E', ' ', ' ', ' ', ' ', ' ', ' ', ' ', ' ']).trans (by decide +kernel)

private theorem line7 : ascii "C 7 RECORDING FORMAT       FORMAT THIS REEL         MEASUREMENT SYSTEM          " =
    (defaultCodes[6]'(by decide)).map (BitVec.ofNat 8) :=
  (ascii_ofList ['C', ' ', '7', ' ', 'R', 'E', 'C', 'O', 'R', 'D', 'I', 'N', 'G', ' ', 'F', 'O', 'R', 'M', 'A', 'T', ' ', ' ', ' ', ' ', ' ', ' ', ' ', 'F', 'O', 'R', 'M', 'A', 'T', ' ', 'T', 'H', 'I', 'S', ' ', 'R', 'E', 'E', 'L', ' ', ' ', ' ', ' ', ' ', ' ', ' ', ' ', ' ', 'M', 'E', 'A', 'S', 'U', 'R', 'E', 'M', 'E', 'N', 'T', ' ', 'S', 'Y', 'S', 'T', 'E', 'M', ' ', ' ', ' ', ' ', ' ', ' ', ' ', ' ', ' ', ' ']).trans (by decide +kernel)

private theorem line8 : ascii "C 8 SAMPLE CODE: FLOATING PT     FIXED PT     FIXED PT-GAIN     CORRELATED      " =
    (defaultCodes[7]'(by decide)).map (BitVec.ofNat 8) :=
  (ascii_ofList ['C', ' ', '8', ' ', 'S', 'A', 'M', 'P', 'L', 'E', ' ', 'C', 'O', 'D', 'E', ':', ' ', 'F', 'L', 'O', 'A', 'T', 'I', 'N', 'G', ' ', 'P', 'T', ' ', ' ', ' ', ' ', ' ', 'F', 'I', 'X', 'E', 'D', ' ', 'P', 'T', ' ', ' ', ' ', ' ', ' ', 'F', 'I', 'X', 'E', 'D', ' ', 'P', 'T', '-', 'G', 'A', 'I', 'N', ' ', ' ', ' ', ' ', ' ', 'C', 'O', 'R', 'R', 'E', 'L', 'A', 'T', 'E', 'D', ' ', ' ', ' ', ' ', ' ', ' ']).trans (by decide +kernel)

private theorem line9 : ascii "C 9 GAIN  TYPE: FIXED     BINARY     FLOATING POINT     OTHER                   " =
    (defaultCodes[8]'(by decide)).map (BitVec.ofNat 8) :=
  (ascii_ofList ['C', ' ', '9', ' ', 'G', 'A', 'I', 'N', ' ', ' ', 'T', 'Y', 'P', 'E', ':', ' ', 'F', 'I', 'X', 'E', 'D', ' ', ' ', ' ', ' ', ' ', 'B', 'I', 'N', 'A', 'R', 'Y', ' ', ' ', ' ', ' ', ' ', 'F', 'L', 'O', 'A', 'T', 'I', 'N', 'G', ' ', 'P', 'O', 'I', 'N', 'T', ' ', ' ', ' ', ' ', ' ', 'O', 'T', 'H', 'E', 'R', ' ', ' ', ' ', ' ', ' ', ' ', ' ', ' ', ' ', ' ', ' ', ' ', ' ', ' ', ' ', ' ', ' ', ' ', ' ']).trans (by decide +kernel)

private theorem line10 : ascii "C10 FILTERS: ALIAS     HZ  NOTCH     HZ  BAND     -     HZ  SLOPE    -    DB/OCT" =
    (defaultCodes[9]'(by decide)).map (BitVec.ofNat 8) :=
  (ascii_ofList ['C', '1', '0', ' ', 'F', 'I', 'L', 'T', 'E', 'R', 'S', ':', ' ', 'A', 'L', 'I', 'A', 'S', ' ', ' ', ' ', ' ', ' ', 'H', 'Z', ' ', ' ', 'N', 'O', 'T', 'C', 'H', ' ', ' ', ' ', ' ', ' ', 'H', 'Z', ' ', ' ', 'B', 'A', 'N', 'D', ' ', ' ', ' ', ' ', ' ', '-', ' ', ' ', ' ', ' ', ' ', 'H', 'Z', ' ', ' ', 'S', 'L', 'O', 'P', 'E', ' ', ' ', ' ', ' ', '-', ' ', ' ', ' ', ' ', 'D', 'B', '/', 'O', 'C', 'T']).trans (by decide +kernel)

private theorem line11 : ascii "C11 SOURCE: TYPE            NUMBER/POINT        POINT INTERVAL                  " =
    (defaultCodes[10]'(by decide)).map (BitVec.ofNat 8) :=
  (ascii_ofList ['C', '1', '1', ' ', 'S', 'O', 'U', 'R', 'C', 'E', ':', ' ', 'T', 'Y', 'P', 'E', ' ', ' ', ' ', ' ', ' ', ' ', ' ', ' ', ' ', ' ', ' ', ' ', 'N', 'U', 'M', 'B', 'E', 'R', '/', 'P', 'O', 'I', 'N', 'T', ' ', ' ', ' ', ' ', ' ', ' ', ' ', ' ', 'P', 'O', 'I', 'N', 'T', ' ', 'I', 'N', 'T', 'E', 'R', 'V', 'A', 'L', ' ', ' ', ' ', ' ', ' ', ' ', ' ', ' ', ' ', ' ', ' ', ' ', ' ', ' ', ' ', ' ', ' ', ' ']).trans (by decide +kernel)

private theorem line12 : ascii "C12     PATTERN:                           LENGTH        WIDTH                  " =
    (defaultCodes[11]'(by decide)).map (BitVec.ofNat 8) :=
  (ascii_ofList ['C', '1', '2', ' ', ' ', ' ', ' ', ' ', 'P', 'A', 'T', 'T', 'E', 'R', 'N', ':', ' ', ' ', ' ', ' ', ' ', ' ', ' ', ' ', ' ', ' ', ' ', ' ', ' ', ' ', ' ', ' ', ' ', ' ', ' ', ' ', ' ', ' ', ' ', ' ', ' ', ' ', ' ', 'L', 'E', 'N', 'G', 'T', 'H', ' ', ' ', ' ', ' ', ' ', ' ', ' ', ' ', 'W', 'I', 'D', 'T', 'H', ' ', ' ', ' ', ' ', ' ', ' ', ' ', ' ', ' ', ' ', ' ', ' ', ' ', ' ', ' ', ' ', ' ', ' ']).trans (by decide +kernel)

private theorem line13 : ascii "C13 SWEEP: START     HZ END      HZ  LENGTH      MS  CHANNEL NO     TYPE        " =
    (defaultCodes[12]'(by decide)).map (BitVec.ofNat 8) :=
  (ascii_ofList ['C', '1', '3', ' ', 'S', 'W', 'E', 'E', 'P', ':', ' ', 'S', 'T', 'A', 'R', 'T', ' ', ' ', ' ', ' ', ' ', 'H', 'Z', ' ', 'E', 'N', 'D', ' ', ' ', ' ', ' ', ' ', ' ', 'H', 'Z', ' ', ' ', 'L', 'E', 'N', 'G', 'T', 'H', ' ', ' ', ' ', ' ', ' ', ' ', 'M', 'S', ' ', ' ', 'C', 'H', 'A', 'N', 'N', 'E', 'L', ' ', 'N', 'O', ' ', ' ', ' ', ' ', ' ', 'T', 'Y', 'P', 'E', ' ', ' ', ' ', ' ', ' ', ' ', ' ', ' ']).trans (by decide +kernel)

private theorem line14 : ascii "C14 TAPER: START LENGTH       MS  END LENGTH       MS TYPE                      " =
    (defaultCodes[13]'(by decide)).map (BitVec.ofNat 8) :=
  (ascii_ofList ['C', '1', '4', ' ', 'T', 'A', 'P', 'E', 'R', ':', ' ', 'S', 'T', 'A', 'R', 'T', ' ', 'L', 'E', 'N', 'G', 'T', 'H', ' ', ' ', ' ', ' ', ' ', ' ', ' ', 'M', 'S', ' ', ' ', 'E', 'N', 'D', ' ', 'L', 'E', 'N', 'G', 'T', 'H', ' ', ' ', ' ', ' ', ' ', ' ', ' ', 'M', 'S', ' ', 'T', 'Y', 'P', 'E', ' ', ' ', ' ', ' ', ' ', ' ', ' ', ' ', ' ', ' ', ' ', ' ', ' ', ' ', ' ', ' ', ' ', ' ', ' ', ' ', ' ', ' ']).trans (by decide +kernel)

private theorem line15 : ascii "C15 SPREAD: OFFSET        MAX DISTANCE        GROUP INTEVAL                     " =
    (defaultCodes[14]'(by decide)).map (BitVec.ofNat 8) :=
  (ascii_ofList ['C', '1', '5', ' ', 'S', 'P', 'R', 'E', 'A', 'D', ':', ' ', 'O', 'F', 'F', 'S', 'E', 'T', ' ', ' ', ' ', ' ', ' ', ' ', ' ', ' ', 'M', 'A', 'X', ' ', 'D', 'I', 'S', 'T', 'A', 'N', 'C', 'E', ' ', ' ', ' ', ' ', ' ', ' ', ' ', ' ', 'G', 'R', 'O', 'U', 'P', ' ', 'I', 'N', 'T', 'E', 'V', 'A', 'L', ' ', ' ', ' ', ' ', ' ', ' ', ' ', ' ', ' ', ' ', ' ', ' ', ' ', ' ', ' ', ' ', ' ', ' ', ' ', ' ', ' ']).trans (by decide +kernel)

private theorem line16 : ascii "C16 GEOPHONES: PER GROUP     SPACEING    FREQUENCY     MFG          MODEL       " =
    (defaultCodes[15]'(by decide)).map (BitVec.ofNat 8) :=
  (ascii_ofList ['C', '1', '6', ' ', 'G', 'E', 'O', 'P', 'H', 'O', 'N', 'E', 'S', ':', ' ', 'P', 'E', 'R', ' ', 'G', 'R', 'O', 'U', 'P', ' ', ' ', ' ', ' ', ' ', 'S', 'P', 'A', 'C', 'E', 'I', 'N', 'G', ' ', ' ', ' ', ' ', 'F', 'R', 'E', 'Q', 'U', 'E', 'N', 'C', 'Y', ' ', ' ', ' ', ' ', ' ', 'M', 'F', 'G', ' ', ' ', ' ', ' ', ' ', ' ', ' ', ' ', ' ', ' ', 'M', 'O', 'D', 'E', 'L', ' ', ' ', ' ', ' ', ' ', ' ', ' ']).trans (by decide +kernel)

private theorem line17 : ascii "C17     PATTERN:                           LENGTH        WIDTH                  " =
    (defaultCodes[16]'(by decide)).map (BitVec.ofNat 8) :=
  (ascii_ofList ['C', '1', '7', ' ', ' ', ' ', ' ', ' ', 'P', 'A', 'T', 'T', 'E', 'R', 'N', ':', ' ', ' ', ' ', ' ', ' ', ' ', ' ', ' ', ' ', ' ', ' ', ' ', ' ', ' ', ' ', ' ', ' ', ' ', ' ', ' ', ' ', ' ', ' ', ' ', ' ', ' ', ' ', 'L', 'E', 'N', 'G', 'T', 'H', ' ', ' ', ' ', ' ', ' ', ' ', ' ', ' ', 'W', 'I', 'D', 'T', 'H', ' ', ' ', ' ', ' ', ' ', ' ', ' ', ' ', ' ', ' ', ' ', ' ', ' ', ' ', ' ', ' ', ' ', ' ']).trans (by decide +kernel)

private theorem line18 : ascii "C18 TRACES SORTED BY: RECORD     CDP     OTHER                                  " =
    (defaultCodes[17]'(by decide)).map (BitVec.ofNat 8) :=
  (ascii_ofList ['C', '1', '8', ' ', 'T', 'R', 'A', 'C', 'E', 'S', ' ', 'S', 'O', 'R', 'T', 'E', 'D', ' ', 'B', 'Y', ':', ' ', 'R', 'E', 'C', 'O', 'R', 'D', ' ', ' ', ' ', ' ', ' ', 'C', 'D', 'P', ' ', ' ', ' ', ' ', ' ', 'O', 'T', 'H', 'E', 'R', ' ', ' ', ' ', ' ', ' ', ' ', ' ', ' ', ' ', ' ', ' ', ' ', ' ', ' ', ' ', ' ', ' ', ' ', ' ', ' ', ' ', ' ', ' ', ' ', ' ', ' ', ' ', ' ', ' ', ' ', ' ', ' ', ' ', ' ']).trans (by decide +kernel)

private theorem line19 : ascii "C19 AMPLITUDE RECOVERY: NONE      SPHERICAL DIV       AGC    OTHER              " =
    (defaultCodes[18]'(by decide)).map (BitVec.ofNat 8) :=
  (ascii_ofList ['C', '1', '9', ' ', 'A', 'M', 'P', 'L', 'I', 'T', 'U', 'D', 'E', ' ', 'R', 'E', 'C', 'O', 'V', 'E', 'R', 'Y', ':', ' ', 'N', 'O', 'N', 'E', ' ', ' ', ' ', ' ', ' ', ' ', 'S', 'P', 'H', 'E', 'R', 'I', 'C', 'A', 'L', ' ', 'D', 'I', 'V', ' ', ' ', ' ', ' ', ' ', ' ', ' ', 'A', 'G', 'C', ' ', ' ', ' ', ' ', 'O', 'T', 'H', 'E', 'R', ' ', ' ', ' ', ' ', ' ', ' ', ' ', ' ', ' ', ' ', ' ', ' ', ' ', ' ']).trans (by decide +kernel)

private theorem line20 : ascii "C20 MAP PROJECTION                      ZONE ID       COORDINATE UNITS          " =
    (defaultCodes[19]'(by decide)).map (BitVec.ofNat 8) :=
  (ascii_ofList ['C', '2', '0', ' ', 'M', 'A', 'P', ' ', 'P', 'R', 'O', 'J', 'E', 'C', 'T', 'I', 'O', 'N', ' ', ' ', ' ', ' ', ' ', ' ', ' ', ' ', ' ', ' ', ' ', ' ', ' ', ' ', ' ', ' ', ' ', ' ', ' ', ' ', ' ', ' ', 'Z', 'O', 'N', 'E', ' ', 'I', 'D', ' ', ' ', ' ', ' ', ' ', ' ', ' ', 'C', 'O', 'O', 'R', 'D', 'I', 'N', 'A', 'T', 'E', ' ', 'U', 'N', 'I', 'T', 'S', ' ', ' ', ' ', ' ', ' ', ' ', ' ', ' ', ' ', ' ']).trans (by decide +kernel)

private theorem line21 : ascii "C21 PROCESSING:                                                                 " =
    (defaultCodes[20]'(by decide)).map (BitVec.ofNat 8) :=
  (ascii_ofList ['C', '2', '1', ' ', 'P', 'R', 'O', 'C', 'E', 'S', 'S', 'I', 'N', 'G', ':', ' ', ' ', ' ', ' ', ' ', ' ', ' ', ' ', ' ', ' ', ' ', ' ', ' ', ' ', ' ', ' ', ' ', ' ', ' ', ' ', ' ', ' ', ' ', ' ', ' ', ' ', ' ', ' ', ' ', ' ', ' ', ' ', ' ', ' ', ' ', ' ', ' ', ' ', ' ', ' ', ' ', ' ', ' ', ' ', ' ', ' ', ' ', ' ', ' ', ' ', ' ', ' ', ' ', ' ', ' ', ' ', ' ', ' ', ' ', ' ', ' ', ' ', ' ', ' ', ' ']).trans (by decide +kernel)

private theorem line22 : ascii "C22 PROCESSING:                                                                 " =
    (defaultCodes[21]'(by decide)).map (BitVec.ofNat 8) :=
  (ascii_ofList ['C', '2', '2', ' ', 'P', 'R', 'O', 'C', 'E', 'S', 'S', 'I', 'N', 'G', ':', ' ', ' ', ' ', ' ', ' ', ' ', ' ', ' ', ' ', ' ', ' ', ' ', ' ', ' ', ' ', ' ', ' ', ' ', ' ', ' ', ' ', ' ', ' ', ' ', ' ', ' ', ' ', ' ', ' ', ' ', ' ', ' ', ' ', ' ', ' ', ' ', ' ', ' ', ' ', ' ', ' ', ' ', ' ', ' ', ' ', ' ', ' ', ' ', ' ', ' ', ' ', ' ', ' ', ' ', ' ', ' ', ' ', ' ', ' ', ' ', ' ', ' ', ' ', ' ', ' ']).trans (by decide +kernel)

private theorem line23 : ascii "C23                                                                             " =
    (defaultCodes[22]'(by decide)).map (BitVec.ofNat 8) :=
  (ascii_ofList ['C', '2', '3', ' ', ' ', ' ', ' ', ' ', ' ', ' ', ' ', ' ', ' ', ' ', ' ', ' ', ' ', ' ', ' ', ' ', ' ', ' ', ' ', ' ', ' ', ' ', ' ', ' ', ' ', ' ', ' ', ' ', ' ', ' ', ' ', ' ', ' ', ' ', ' ', ' ', ' ', ' ', ' ', ' ', ' ', ' ', ' ', ' ', ' ', ' ', ' ', ' ', ' ', ' ', ' ', ' ', ' ', ' ', ' ', ' ', ' ', ' ', ' ', ' ', ' ', ' ', ' ', ' ', ' ', ' ', ' ', ' ', ' ', ' ', ' ', ' ', ' ', ' ', ' ', ' ']).trans (by decide +kernel)

private theorem line24 : ascii "C24                                                                             " =
    (defaultCodes[23]'(by decide)).map (BitVec.ofNat 8) :=
  (ascii_ofList ['C', '2', '4', ' ', ' ', ' ', ' ', ' ', ' ', ' ', ' ', ' ', ' ', ' ', ' ', ' ', ' ', ' ', ' ', ' ', ' ', ' ', ' ', ' ', ' ', ' ', ' ', ' ', ' ', ' ', ' ', ' ', ' ', ' ', ' ', ' ', ' ', ' ', ' ', ' ', ' ', ' ', ' ', ' ', ' ', ' ', ' ', ' ', ' ', ' ', ' ', ' ', ' ', ' ', ' ', ' ', ' ', ' ', ' ', ' ', ' ', ' ', ' ', ' ', ' ', ' ', ' ', ' ', ' ', ' ', ' ', ' ', ' ', ' ', ' ', ' ', ' ', ' ', ' ', ' ']).trans (by decide +kernel)

private theorem line25 : ascii "C25                                                                             " =
    (defaultCodes[24]'(by decide)).map (BitVec.ofNat 8) :=
  (ascii_ofList ['C', '2', '5', ' ', ' ', ' ', ' ', ' ', ' ', ' ', ' ', ' ', ' ', ' ', ' ', ' ', ' ', ' ', ' ', ' ', ' ', ' ', ' ', ' ', ' ', ' ', ' ', ' ', ' ', ' ', ' ', ' ', ' ', ' ', ' ', ' ', ' ', ' ', ' ', ' ', ' ', ' ', ' ', ' ', ' ', ' ', ' ', ' ', ' ', ' ', ' ', ' ', ' ', ' ', ' ', ' ', ' ', ' ', ' ', ' ', ' ', ' ', ' ', ' ', ' ', ' ', ' ', ' ', ' ', ' ', ' ', ' ', ' ', ' ', ' ', ' ', ' ', ' ', ' ', ' ']).trans (by decide +kernel)

private theorem line26 : ascii "C26                                                                             " =
    (defaultCodes[25]'(by decide)).map (BitVec.ofNat 8) :=
  (ascii_ofList ['C', '2', '6', ' ', ' ', ' ', ' ', ' ', ' ', ' ', ' ', ' ', ' ', ' ', ' ', ' ', ' ', ' ', ' ', ' ', ' ', ' ', ' ', ' ', ' ', ' ', ' ', ' ', ' ', ' ', ' ', ' ', ' ', ' ', ' ', ' ', ' ', ' ', ' ', ' ', ' ', ' ', ' ', ' ', ' ', ' ', ' ', ' ', ' ', ' ', ' ', ' ', ' ', ' ', ' ', ' ', ' ', ' ', ' ', ' ', ' ', ' ', ' ', ' ', ' ', ' ', ' ', ' ', ' ', ' ', ' ', ' ', ' ', ' ', ' ', ' ', ' ', ' ', ' ', ' ']).trans (by decide +kernel)

private theorem line27 : ascii "C27                                                                             " =
    (defaultCodes[26]'(by decide)).map (BitVec.ofNat 8) :=
  (ascii_ofList ['C', '2', '7', ' ', ' ', ' ', ' ', ' ', ' ', ' ', ' ', ' ', ' ', ' ', ' ', ' ', ' ', ' ', ' ', ' ', ' ', ' ', ' ', ' ', ' ', ' ', ' ', ' ', ' ', ' ', ' ', ' ', ' ', ' ', ' ', ' ', ' ', ' ', ' ', ' ', ' ', ' ', ' ', ' ', ' ', ' ', ' ', ' ', ' ', ' ', ' ', ' ', ' ', ' ', ' ', ' ', ' ', ' ', ' ', ' ', ' ', ' ', ' ', ' ', ' ', ' ', ' ', ' ', ' ', ' ', ' ', ' ', ' ', ' ', ' ', ' ', ' ', ' ', ' ', ' ']).trans (by decide +kernel)

private theorem line28 : ascii "C28                                                                             " =
    (defaultCodes[27]'(by decide)).map (BitVec.ofNat 8) :=
  (ascii_ofList ['C', '2', '8', ' ', ' ', ' ', ' ', ' ', ' ', ' ', ' ', ' ', ' ', ' ', ' ', ' ', ' ', ' ', ' ', ' ', ' ', ' ', ' ', ' ', ' ', ' ', ' ', ' ', ' ', ' ', ' ', ' ', ' ', ' ', ' ', ' ', ' ', ' ', ' ', ' ', ' ', ' ', ' ', ' ', ' ', ' ', ' ', ' ', ' ', ' ', ' ', ' ', ' ', ' ', ' ', ' ', ' ', ' ', ' ', ' ', ' ', ' ', ' ', ' ', ' ', ' ', ' ', ' ', ' ', ' ', ' ', ' ', ' ', ' ', ' ', ' ', ' ', ' ', ' ', ' ']).trans (by decide +kernel)

private theorem line29 : ascii "C29                                                                             " =
    (defaultCodes[28]'(by decide)).map (BitVec.ofNat 8) :=
  (ascii_ofList ['C', '2', '9', ' ', ' ', ' ', ' ', ' ', ' ', ' ', ' ', ' ', ' ', ' ', ' ', ' ', ' ', ' ', ' ', ' ', ' ', ' ', ' ', ' ', ' ', ' ', ' ', ' ', ' ', ' ', ' ', ' ', ' ', ' ', ' ', ' ', ' ', ' ', ' ', ' ', ' ', ' ', ' ', ' ', ' ', ' ', ' ', ' ', ' ', ' ', ' ', ' ', ' ', ' ', ' ', ' ', ' ', ' ', ' ', ' ', ' ', ' ', ' ', ' ', ' ', ' ', ' ', ' ', ' ', ' ', ' ', ' ', ' ', ' ', ' ', ' ', ' ', ' ', ' ', ' ']).trans (by decide +kernel)

private theorem line30 : ascii "C30                                                                             " =
    (defaultCodes[29]'(by decide)).map (BitVec.ofNat 8) :=
  (ascii_ofList ['C', '3', '0', ' ', ' ', ' ', ' ', ' ', ' ', ' ', ' ', ' ', ' ', ' ', ' ', ' ', ' ', ' ', ' ', ' ', ' ', ' ', ' ', ' ', ' ', ' ', ' ', ' ', ' ', ' ', ' ', ' ', ' ', ' ', ' ', ' ', ' ', ' ', ' ', ' ', ' ', ' ', ' ', ' ', ' ', ' ', ' ', ' ', ' ', ' ', ' ', ' ', ' ', ' ', ' ', ' ', ' ', ' ', ' ', ' ', ' ', ' ', ' ', ' ', ' ', ' ', ' ', ' ', ' ', ' ', ' ', ' ', ' ', ' ', ' ', ' ', ' ', ' ', ' ', ' ']).trans (by decide +kernel)

private theorem line31 : ascii "C31                                                                             " =
    (defaultCodes[30]'(by decide)).map (BitVec.ofNat 8) :=
  (ascii_ofList ['C', '3', '1', ' ', ' ', ' ', ' ', ' ', ' ', ' ', ' ', ' ', ' ', ' ', ' ', ' ', ' ', ' ', ' ', ' ', ' ', ' ', ' ', ' ', ' ', ' ', ' ', ' ', ' ', ' ', ' ', ' ', ' ', ' ', ' ', ' ', ' ', ' ', ' ', ' ', ' ', ' ', ' ', ' ', ' ', ' ', ' ', ' ', ' ', ' ', ' ', ' ', ' ', ' ', ' ', ' ', ' ', ' ', ' ', ' ', ' ', ' ', ' ', ' ', ' ', ' ', ' ', ' ', ' ', ' ', ' ', ' ', ' ', ' ', ' ', ' ', ' ', ' ', ' ', ' ']).trans (by decide +kernel)

private theorem line32 : ascii "C32                                                                             " =
    (defaultCodes[31]'(by decide)).map (BitVec.ofNat 8) :=
  (ascii_ofList ['C', '3', '2', ' ', ' ', ' ', ' ', ' ', ' ', ' ', ' ', ' ', ' ', ' ', ' ', ' ', ' ', ' ', ' ', ' ', ' ', ' ', ' ', ' ', ' ', ' ', ' ', ' ', ' ', ' ', ' ', ' ', ' ', ' ', ' ', ' ', ' ', ' ', ' ', ' ', ' ', ' ', ' ', ' ', ' ', ' ', ' ', ' ', ' ', ' ', ' ', ' ', ' ', ' ', ' ', ' ', ' ', ' ', ' ', ' ', ' ', ' ', ' ', ' ', ' ', ' ', ' ', ' ', ' ', ' ', ' ', ' ', ' ', ' ', ' ', ' ', ' ', ' ', ' ', ' ']).trans (by decide +kernel)

private theorem line33 : ascii "C33                                                                             " =
    (defaultCodes[32]'(by decide)).map (BitVec.ofNat 8) :=
  (ascii_ofList ['C', '3', '3', ' ', ' ', ' ', ' ', ' ', ' ', ' ', ' ', ' ', ' ', ' ', ' ', ' ', ' ', ' ', ' ', ' ', ' ', ' ', ' ', ' ', ' ', ' ', ' ', ' ', ' ', ' ', ' ', ' ', ' ', ' ', ' ', ' ', ' ', ' ', ' ', ' ', ' ', ' ', ' ', ' ', ' ', ' ', ' ', ' ', ' ', ' ', ' ', ' ', ' ', ' ', ' ', ' ', ' ', ' ', ' ', ' ', ' ', ' ', ' ', ' ', ' ', ' ', ' ', ' ', ' ', ' ', ' ', ' ', ' ', ' ', ' ', ' ', ' ', ' ', ' ', ' ']).trans (by decide +kernel)

private theorem line34 : ascii "C34                                                                             " =
    (defaultCodes[33]'(by decide)).map (BitVec.ofNat 8) :=
  (ascii_ofList ['C', '3', '4', ' ', ' ', ' ', ' ', ' ', ' ', ' ', ' ', ' ', ' ', ' ', ' ', ' ', ' ', ' ', ' ', ' ', ' ', ' ', ' ', ' ', ' ', ' ', ' ', ' ', ' ', ' ', ' ', ' ', ' ', ' ', ' ', ' ', ' ', ' ', ' ', ' ', ' ', ' ', ' ', ' ', ' ', ' ', ' ', ' ', ' ', ' ', ' ', ' ', ' ', ' ', ' ', ' ', ' ', ' ', ' ', ' ', ' ', ' ', ' ', ' ', ' ', ' ', ' ', ' ', ' ', ' ', ' ', ' ', ' ', ' ', ' ', ' ', ' ', ' ', ' ', ' ']).trans (by decide +kernel)

private theorem line35 : ascii "C35                                                                             " =
    (defaultCodes[34]'(by decide)).map (BitVec.ofNat 8) :=
  (ascii_ofList ['C', '3', '5', ' ', ' ', ' ', ' ', ' ', ' ', ' ', ' ', ' ', ' ', ' ', ' ', ' ', ' ', ' ', ' ', ' ', ' ', ' ', ' ', ' ', ' ', ' ', ' ', ' ', ' ', ' ', ' ', ' ', ' ', ' ', ' ', ' ', ' ', ' ', ' ', ' ', ' ', ' ', ' ', ' ', ' ', ' ', ' ', ' ', ' ', ' ', ' ', ' ', ' ', ' ', ' ', ' ', ' ', ' ', ' ', ' ', ' ', ' ', ' ', ' ', ' ', ' ', ' ', ' ', ' ', ' ', ' ', ' ', ' ', ' ', ' ', ' ', ' ', ' ', ' ', ' ']).trans (by decide +kernel)

private theorem line36 : ascii "C36                                                                             " =
    (defaultCodes[35]'(by decide)).map (BitVec.ofNat 8) :=
  (ascii_ofList ['C', '3', '6', ' ', ' ', ' ', ' ', ' ', ' ', ' ', ' ', ' ', ' ', ' ', ' ', ' ', ' ', ' ', ' ', ' ', ' ', ' ', ' ', ' ', ' ', ' ', ' ', ' ', ' ', ' ', ' ', ' ', ' ', ' ', ' ', ' ', ' ', ' ', ' ', ' ', ' ', ' ', ' ', ' ', ' ', ' ', ' ', ' ', ' ', ' ', ' ', ' ', ' ', ' ', ' ', ' ', ' ', ' ', ' ', ' ', ' ', ' ', ' ', ' ', ' ', ' ', ' ', ' ', ' ', ' ', ' ', ' ', ' ', ' ', ' ', ' ', ' ', ' ', ' ', ' ']).trans (by decide +kernel)

private theorem line37 : ascii "C37                                                                             " =
    (defaultCodes[36]'(by decide)).map (BitVec.ofNat 8) :=
  (ascii_ofList ['C', '3', '7', ' ', ' ', ' ', ' ', ' ', ' ', ' ', ' ', ' ', ' ', ' ', ' ', ' ', ' ', ' ', ' ', ' ', ' ', ' ', ' ', ' ', ' ', ' ', ' ', ' ', ' ', ' ', ' ', ' ', ' ', ' ', ' ', ' ', ' ', ' ', ' ', ' ', ' ', ' ', ' ', ' ', ' ', ' ', ' ', ' ', ' ', ' ', ' ', ' ', ' ', ' ', ' ', ' ', ' ', ' ', ' ', ' ', ' ', ' ', ' ', ' ', ' ', ' ', ' ', ' ', ' ', ' ', ' ', ' ', ' ', ' ', ' ', ' ', ' ', ' ', ' ', ' ']).trans (by decide +kernel)

private theorem line38 : ascii "C38                                                                             " =
    (defaultCodes[37]'(by decide)).map (BitVec.ofNat 8) :=
  (ascii_ofList ['C', '3', '8', ' ', ' ', ' ', ' ', ' ', ' ', ' ', ' ', ' ', ' ', ' ', ' ', ' ', ' ', ' ', ' ', ' ', ' ', ' ', ' ', ' ', ' ', ' ', ' ', ' ', ' ', ' ', ' ', ' ', ' ', ' ', ' ', ' ', ' ', ' ', ' ', ' ', ' ', ' ', ' ', ' ', ' ', ' ', ' ', ' ', ' ', ' ', ' ', ' ', ' ', ' ', ' ', ' ', ' ', ' ', ' ', ' ', ' ', ' ', ' ', ' ', ' ', ' ', ' ', ' ', ' ', ' ', ' ', ' ', ' ', ' ', ' ', ' ', ' ', ' ', ' ', ' ']).trans (by decide +kernel)

private theorem line39 : ascii "C39 SEG-Y_REV2.0                                                                " =
    (defaultCodes[38]'(by decide)).map (BitVec.ofNat 8) :=
  (ascii_ofList ['C', '3', '9', ' ', 'S', 'E', 'G', '-', 'Y', '_', 'R', 'E', 'V', '2', '.', '0', ' ', ' ', ' ', ' ', ' ', ' ', ' ', ' ', ' ', ' ', ' ', ' ', ' ', ' ', ' ', ' ', ' ', ' ', ' ', ' ', ' ', ' ', ' ', ' ', ' ', ' ', ' ', ' ', ' ', ' ', ' ', ' ', ' ', ' ', ' ', ' ', ' ', ' ', ' ', ' ', ' ', ' ', ' ', ' ', ' ', ' ', ' ', ' ', ' ', ' ', ' ', ' ', ' ', ' ', ' ', ' ', ' ', ' ', ' ', ' ', ' ', ' ', ' ', ' ']).trans (by decide +kernel)

private theorem line40 : ascii "C40 END TEXTUAL HEADER                                                          " =
    (defaultCodes[39]'(by decide)).map (BitVec.ofNat 8) :=
  (ascii_ofList ['C', '4', '0', ' ', 'E', 'N', 'D', ' ', 'T', 'E', 'X', 'T', 'U', 'A', 'L', ' ', 'H', 'E', 'A', 'D', 'E', 'R', ' ', ' ', ' ', ' ', ' ', ' ', ' ', ' ', ' ', ' ', ' ', ' ', ' ', ' ', ' ', ' ', ' ', ' ', ' ', ' ', ' ', ' ', ' ', ' ', ' ', ' ', ' ', ' ', ' ', ' ', ' ', ' ', ' ', ' ', ' ', ' ', ' ', ' ', ' ', ' ', ' ', ' ', ' ', ' ', ' ', ' ', ' ', ' ', ' ', ' ', ' ', ' ', ' ', ' ', ' ', ' ', ' ', ' ']).trans (by decide +kernel)

theorem defaultText_eq : defaultText = (defaultCodes.map (·.map (BitVec.ofNat 8))).flatten := by
  unfold defaultText defaultLines
  simp only [List.map_cons, List.map_nil, line1, line2, line3, line4, line5, line6, line7, line8, line9, line10,
      line11, line12, line13, line14, line15, line16, line17, line18, line19, line20, line21, line22, line23, line24,
      line25, line26, line27, line28, line29, line30, line31, line32, line33, line34, line35, line36, line37, line38,
      line39, line40]
  rfl

end Sedaman
