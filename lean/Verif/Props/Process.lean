import Verif.Lemmas.Process
import Verif.Props.SegdLocality
import Verif.Props.ISEGYFail

/-!
# C104: objects do not influence each other
-/

namespace Sedaman.Props

open Spec

/-- **C104.** In any program, whatever its calls return or throw and in whatever order the objects are
called, an object behaves as in a process of its own: its calls return the same, and it is the same in the
end, with its file. The condition excludes several writers of SEG-D files in format 8015. -/
theorem C104_alone_partial (H : Host) (objs : List Obj) (prog : List (Nat × Req)) (i : Nat) (o : Obj)
    (ho : objs[i]? = some o) (hg : ¬ Groups o ∨ ∀ k o', objs[k]? = some o' → Groups o' → k = i) :
    seen H objs prog i = alone H o (only i prog) := by
  obtain ⟨h1, h2⟩ := run_alone (H := H) prog (p := []) (q := []) ho (hg.imp_right fun h => ⟨rfl, h⟩)
  exact Prod.ext h1 h2

/-- **C104.** So the order in which objects are called does not matter, as long as each object gets its own
calls in the same order. -/
theorem C104_order_partial (H : Host) (objs : List Obj) (prog prog' : List (Nat × Req))
    (hs : ∀ i, only i prog = only i prog')
    (hg : ∀ (k k' : Nat) (o o' : Obj), objs[k]? = some o → objs[k']? = some o' → Groups o → Groups o' → k = k') (i : Nat)
    (hi : i < objs.length) : seen H objs prog i = seen H objs prog' i := by
  have ho : objs[i]? = some objs[i] := List.getElem?_eq_getElem hi
  have hc : ¬ Groups objs[i] ∨ ∀ k o', objs[k]? = some o' → Groups o' → k = i := by
    by_cases h : Groups objs[i]
    · exact .inr fun k o' hk hgo => hg k i o' _ hk ho hgo h
    · exact .inl h
  rw [C104_alone_partial H objs prog i _ ho hc, C104_alone_partial H objs prog' i _ ho hc, hs i]

/-- The file of a SEG-D writer, its last `n` bytes. -/
def fileEnd (n : Nat) : Option Obj → Bytes
  | some (.segdOut s) => s.out.drop (s.out.length - n)
  | _ => []

/-- A writer of the example in this format. -/
def writerOf (fmt : Int) : Out Obj := do
  let s ← openSegdWriter hostExample 0 (segdArgsOf fmt)
  pure (.segdOut s)

/-- A call with these samples. -/
def putSamples (xs : List Dbl) : Req := .writeTrace ⟨segdTraceExample.header, xs⟩

/-- Two writers, one of them in format 8015, that take turns: what is kept back of the first does not get
into the file of the second. -/
example : (do
      let a ← writerOf 8015
      let b ← writerOf 8042
      pure (fileEnd 2 (seen hostExample [a, b] [(0, putSamples [half]), (1, putSamples [half, quarter])] 1).2)) =
    (Except.ok [8, 0] : Out Bytes) := by decide +kernel

/-- **C104 fails for two writers in format 8015.** Alone the second writer puts its four samples 1/4 into the
file. After a call of the first one its file starts with the sample 1/2 of the other file, and one of its own
samples is missing. -/
theorem C104_shared :
    (do
      let b ← writerOf 8015
      pure (fileEnd 10 (alone hostExample b [putSamples [quarter, quarter, quarter, quarter]]).2)) =
      (Except.ok [0, 0, 32, 0, 32, 0, 32, 0, 32, 0] : Out Bytes) ∧
    (do
      let a ← writerOf 8015
      let b ← writerOf 8015
      pure (fileEnd 10 (seen hostExample [a, b]
        [(0, putSamples [half]), (1, putSamples [quarter, quarter, quarter, quarter])] 1).2)) =
      (Except.ok [0, 0, 64, 0, 32, 0, 32, 0, 32, 0] : Out Bytes) := by
  constructor <;> decide +kernel

end Sedaman.Props
