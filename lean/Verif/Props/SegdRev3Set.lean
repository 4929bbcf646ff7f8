import Verif.Props.SegdRev3H
import Verif.Model.SegdReader

/-!
# C65: the channel set headers of a revision 3 record, as `ISEGD` reads them from the file
-/

namespace Sedaman.Props
open Sedaman Sedaman.Spec

private theorem read_one {s : ISegd} {pre b post : Bytes} (hb : b.length = 96) (hs : s.file = ⟨pre ++ (b ++ post), pre.length⟩)
    (h1 : s.gh1.addGenHdrBlocks ≠ 0) (h2 : 3 ≤ s.gh2.segdRevMajor) {c : ChSetR3} {r : Bytes}
    (hr : readChSetR3X b = .ok (c, r)) :
    readChSetHdr s = .ok (c.base, { s with file := ⟨(pre ++ b) ++ post, (pre ++ b).length⟩ }) := by
  have h3 : s.rev3 = true := by unfold ISegd.rev3; simp [h1, h2]
  have hread : s.file.read 96 = .ok (b, ⟨(pre ++ b) ++ post, (pre ++ b).length⟩) := by
    unfold File.read
    rw [hs]
    simp only [List.drop_left, List.length_append, hb, List.append_assoc]
    rw [show List.take 96 (b ++ post) = b by rw [← hb]; exact List.take_left, if_pos hb]
  have hset : readChSetR3 b = .ok (c.base, r) := by
    unfold readChSetR3
    rw [rd_bind, hr]
    rfl
  unfold readChSetHdr ISegd.fill
  rw [if_pos h3, hread]
  simp only [ok_bind, pure_eq_ok]
  have h4 : ({ s with file := ⟨(pre ++ b) ++ post, (pre ++ b).length⟩ } : ISegd).rev3 = true := h3
  rw [if_pos h4, hset]
  rfl

/-- **C65 (part).** Any list of channel set headers written for revision 3 takes 96 bytes each. A reader of a revision 3
record whose file holds them at the place where they are read, behind anything and followed by anything, returns
one header for each, in order, with the members `chSetStoredR3` says, stops behind the last one, and expects as many
traces more as they have channels. -/
theorem C65_sets_partial (cs : List ChSetR3) (hf : ∀ c ∈ cs, ChSetFitsR3 c) :
    ∃ bs : List Bytes, List.Forall₂ (fun c b => writeChSetR3 c = .ok b ∧ b.length = 96) cs bs ∧
      ∀ (s : ISegd) (pre post : Bytes), s.gh1.addGenHdrBlocks ≠ 0 → 3 ≤ s.gh2.segdRevMajor →
        s.file = ⟨pre ++ bs.flatten ++ post, pre.length⟩ →
        readChSets cs.length s = .ok (cs.map fun c => (chSetStoredR3 c).base,
          { s with file := ⟨pre ++ bs.flatten ++ post, pre.length + 96 * cs.length⟩
                   chansIn := s.chansIn + (cs.map fun c => c.base.numberOfChannels).sum }) := by
  induction cs with
  | nil =>
    refine ⟨[], .nil, fun s pre post _ _ h => ?_⟩
    cases s
    simp only at h
    subst h
    simp [readChSets]
  | cons c cs ih =>
    obtain ⟨bs, hb, ih⟩ := ih fun c' h' => hf c' (List.mem_cons_of_mem _ h')
    obtain ⟨b, r, w1, w2, w3⟩ := C65_read_partial c (hf c List.mem_cons_self)
    refine ⟨b :: bs, .cons ⟨w1, w2⟩ hb, fun s pre post h1 h2 h => ?_⟩
    have hd : pre ++ (b :: bs).flatten ++ post = (pre ++ b) ++ bs.flatten ++ post := by simp
    have e := read_one (s := s) (pre := pre) (b := b) (post := bs.flatten ++ post) w2
      (by rw [h]; simp) h1 h2 w3
    have hn : (chSetStoredR3 c).base.numberOfChannels = c.base.numberOfChannels := rfl
    rw [List.length_cons, readChSets, e, ok_bind]
    simp only
    rw [ih { s with file := ⟨pre ++ b ++ (bs.flatten ++ post), (pre ++ b).length⟩
                    chansIn := s.chansIn + (chSetStoredR3 c).base.numberOfChannels } (pre ++ b) post h1 h2 (by simp),
      ok_bind, hn, hd]
    simp only [List.map_cons, List.sum_cons, List.length_append, w2, pure_eq_ok]
    rw [show pre.length + 96 + 96 * cs.length = pre.length + 96 * (cs.length + 1) by omega, Nat.add_assoc]

/-- Two headers. -/
example := C65_sets_partial [chSetR3Example, chSetR3Example] (by
  intro c hc
  simp only [List.mem_cons, List.not_mem_nil, or_false, or_self] at hc
  subst hc
  exact chSetR3Example_fits)

end Sedaman.Props
