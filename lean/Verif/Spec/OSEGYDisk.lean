import Verif.Model.OSEGYDisk
import Verif.Spec.SegyCut
import Verif.Spec.E2E

/-!
# Specification of programs that are stopped while they write
-/

namespace Sedaman.Spec

/-- The bytes of a `file.write`, each with its position. -/
def Put.each (p : Put) : List (Byte × Nat) := p.bytes.zipIdx p.pos

/-- One byte gets to the disk. -/
def storeByte (disk : Bytes) (x : Byte × Nat) : Bytes := (File.write ⟨disk, x.2⟩ [x.1]).data

/-- What is on disk if the program is stopped when the operating system has got `k` bytes. -/
def onDisk (puts : List Put) (k : Nat) : Bytes := ((puts.flatMap Put.each).take k).foldl storeByte []

/-- The number of bytes handed over. -/
def handedOver (puts : List Put) : Nat := (puts.map (·.bytes.length)).sum

/-- `while (has_trace()) read_trace()` reads these traces (perhaps not to the end) and then the reader
is like this. -/
def Iterates : Reader → List Trace → Reader → Prop
  | r, [], r' => r' = r
  | r, t :: ts, r' => hasTrace r = true ∧ ∃ r1, readTrace r = .ok (t, r1) ∧ Iterates r1 ts r'

/-- What is left of the traces `ts` when their program is stopped after `k` bytes and `disk` is on disk.
`size done` is the number of bytes handed over as soon as the traces `done` are complete; `back t t'` says that
`t'` is what a reader gives for `t`. The file opens, shows the headers, and gives exactly the traces that were
complete. It offers one more trace just when a part of it is on disk, and reading that one throws. -/
def Rescued (size : List Trace → Nat) (disk : Bytes) (m : HdrMap) (back : Trace → Trace → Prop)
    (texts : List Bytes) (bh : BinHeader) (ts : List Trace) (k : Nat) : Prop :=
  ∃ done todo, ts = done ++ todo ∧ size done ≤ k ∧ (∀ t rest, todo = t :: rest → k < size (done ++ [t])) ∧
    ∃ r backs r1, openReader disk none m = .ok r ∧ r.texts = texts ∧ r.bh = bh ∧
      List.Forall₂ back done backs ∧ Iterates r backs r1 ∧
      (hasTrace r1 = true ↔ todo ≠ [] ∧ size done < k) ∧
      (hasTrace r1 = true → readTrace r1 = throwExn .iosFailure)

end Sedaman.Spec
