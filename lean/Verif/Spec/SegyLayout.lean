import Verif.Spec.OSEGY

/-!
# Specification: where everything is in a SEG-Y file
-/

namespace Sedaman.Spec

/-- Bytes of a sample in each format of the standard. -/
def sampleSizes : List (Int × Nat) :=
  [(1, 4), (2, 4), (3, 2), (5, 4), (6, 8), (7, 3), (8, 1), (9, 8), (10, 4), (11, 2), (12, 8), (15, 3), (16, 1)]

/-- Blocks of 240 bytes behind the header of a trace, in files of revision 2: one less than the number of
additional headers announced. (It ought to be that number: this is the defect of property C24.) -/
def furtherBlocks (rev : Rev) (bh : BinHeader) : Nat :=
  match rev with
  | .r2 => (bh.maxNumAddTrHeaders - 1).toNat
  | _ => 0

/-- The bytes of a trace: 240 for the header and for each further block, and the announced number of
samples. -/
def TracePiece (rev : Rev) (bh : BinHeader) (size : Nat) (t : Trace) (p : Bytes) : Prop :=
  ∃ n, Announced rev bh t n ∧ p.length = 240 * (1 + furtherBlocks rev bh) + n * size

/-- The bytes of a SEG-Y file: the first text, the binary header, the other texts, the traces in order, and
at the end `tail`. Of each text the first 3200 bytes are stored. -/
def LaidOut (rev : Rev) (texts : List Bytes) (bh : BinHeader) (ts : List Trace) (tail data : Bytes) : Prop :=
  ∃ text others bin pieces size, texts = text :: others ∧ (∀ x ∈ texts, 3200 ≤ x.length) ∧
    bin.length = 400 ∧ (bh.formatCode, size) ∈ sampleSizes ∧
    List.Forall₂ (TracePiece rev bh size) ts pieces ∧
    data = text.take 3200 ++ bin ++ (others.map (·.take 3200)).flatten ++ pieces.flatten ++ tail

end Sedaman.Spec
