import Verif.Model.Sercel
import Verif.Lemmas.SegdExt

/-!
# C54: the built-in trace header extension maps
-/

namespace Sedaman.Props

open Spec

/-- The built-in maps. -/
def sercelMaps : List ExtMap := [sercel428xl, sercel428, sercel408]

/-- Every field of every built-in map lies inside its 32 byte block and no two fields of a block
share a byte; fields are listed in the order of their offsets. -/
theorem C54_safe : ∀ m ∈ sercelMaps, ∀ fs ∈ m, SafeExt fs ∧ IsStdMap fs := by decide +kernel

/-- Each built-in map describes seven blocks, no name is used twice in a map, and no field has the
unsigned 64-bit type the reader handles wrongly (C53). -/
theorem C54_names : ∀ m ∈ sercelMaps, m.length = 7 ∧ (m.flatten.map (·.name)).Nodup ∧
    ∀ fs ∈ m, ∀ f ∈ fs, f.ty ≠ .u64 := by decide +kernel

/-- With a built-in map, reading up to seven extension blocks of any content succeeds, stays inside
the blocks and adds exactly the names of the map for these blocks. -/
theorem C54_reads_any_blocks (m : ExtMap) (hm : m ∈ sercelMaps) (rev : Int) (n : Nat) (hn : n ≤ 7)
    (acc : Header) (ha : acc.get "TR_HDR_EXT" = some (.int n)) (s : Bytes) (hl : 32 * n ≤ s.length) :
    ∃ h, readExt rev m acc s = .ok (h, s.drop (32 * n)) ∧
      ∀ k, k ∈ h.keys ↔ k ∈ acc.keys ∨ k ∈ (m.take n).flatten.map (·.name) := by
  obtain ⟨h7, _, hu⟩ := C54_names m hm
  obtain ⟨h, e1, e2⟩ := readExt_total (rev := rev) (m := m) n 0 (by omega)
    (fun fs hf => (C54_safe m hm fs hf).1) hu acc s hl
  refine ⟨h, ?_, e2⟩
  unfold readExt
  rw [intOf_headerInt (.inl ha), ok_bind, Int.toNat_natCast]
  exact e1

example : sercel428xl ∈ sercelMaps ∧ sercel408.flatten.length = 43 := by decide +kernel

end Sedaman.Props
