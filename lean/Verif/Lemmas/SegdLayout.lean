import Verif.Lemmas.SegdWriter
import Verif.Lemmas.SegdPut
import Verif.Lemmas.File
import Verif.Lemmas.TraceHdr
import Mathlib.Data.List.Dedup

/-! # Sizes of what the SEG-D writer writes -/

namespace Sedaman

open Spec

/-- The statements never change the size of the buffer. -/
def Keeps {α : Type} (w : Wr α) : Prop :=
  ∀ c a c', w c = .ok (a, c') → c'.done.length + c'.rest.length = c.done.length + c.rest.length

theorem keeps_bind {α β : Type} {x : Wr α} {f : α → Wr β} (hx : Keeps x) (hf : ∀ a, Keeps (f a)) :
    Keeps (x >>= f) := by
  intro c b c' h
  rw [wr_bind] at h
  obtain ⟨⟨a, c1⟩, h1, h2⟩ := bind_ok h
  rw [hf a c1 b c' h2, hx c a c1 h1]

theorem keeps_pure {α : Type} (a : α) : Keeps (pure a : Wr α) := by
  intro c b c' h
  cases h
  rfl

theorem keeps_lift {α : Type} (x : Out α) : Keeps (wrLift x) := by
  intro c b c' h
  obtain ⟨a, -, h2⟩ := bind_ok h
  cases h2
  rfl

theorem keeps_put (bs : Bytes) : Keeps (wrPut bs) := by
  intro c b c' h
  unfold wrPut at h
  split at h
  · cases h
    simp only [List.length_append, List.length_drop]
    omega
  · cases h

theorem keeps_poke (b : Byte) : Keeps (wrPoke b) := by
  intro c a c' h
  unfold wrPoke at h
  split at h
  · cases h
  · next e => cases h; rw [e]; rfl

theorem keeps_or (b : Byte) : Keeps (wrOr b) := by
  intro c a c' h
  unfold wrOr at h
  split at h
  · cases h
  · next e =>
    cases h
    rw [e]
    simp only [List.length_append, List.length_cons, List.length_nil]
    omega

theorem keeps_skip (n : Nat) : Keeps (wrSkip n) := by
  intro c a c' h
  unfold wrSkip at h
  split at h
  · cases h
    simp only [List.length_append, List.length_drop, List.length_take]
    omega
  · cases h

theorem bcdEmit_length {dig : Nat → Nat} (k : Nat) (buf : Bytes) {r : Bytes} {adv : Nat}
    (h : bcdEmit dig k buf = .ok (r, adv)) : r.length = buf.length := by
  fun_induction bcdEmit dig k buf generalizing r adv with
  | case1 => cases h; rfl
  | case2 => cases h
  | case3 => cases h; rfl
  | case4 => cases h
  | case5 k b bs x =>
    rename_i ih
    obtain ⟨⟨r', adv'⟩, h1, h2⟩ := bind_ok h
    cases h2
    simp [ih h1]

theorem toBcd_length {w num : Nat} {val : Int} {skip : Bool} {buf r : Bytes} {adv : Nat}
    (h : toBcd w val skip num buf = .ok (r, adv)) : r.length = buf.length := by
  unfold toBcd at h
  split at h
  · cases h
  · simp only at h
    split at h
    · split at h
      · cases h
      · obtain ⟨⟨r', adv'⟩, h1, h2⟩ := bind_ok h
        cases h2
        simp [bcdEmit_length _ _ h1]
    · exact bcdEmit_length _ _ h

theorem keeps_bcd (w : Nat) (val : Int) (skip : Bool) (num : Nat) : Keeps (wrBcd w val skip num) := by
  intro c a c' h
  unfold wrBcd at h
  obtain ⟨⟨r, adv⟩, h1, h2⟩ := bind_ok h
  cases h2
  simp only [List.length_append, List.length_drop, List.length_take, ← toBcd_length h1]
  omega

theorem keeps_ite {α : Type} {p : Prop} [Decidable p] {x y : Wr α} (hx : Keeps x) (hy : Keeps y) :
    Keeps (if p then x else y) := by
  split <;> assumption

/-- A conversion between two stores. -/
theorem keeps_val {α : Type} (x : Out α) : Keeps (fun c => do pure ((← x), c) : Wr α) := keeps_lift x

theorem keeps_dblChar (d : Dbl) : Keeps (wrDblChar d) := by
  intro c a c' h
  obtain ⟨v, -, h2⟩ := bind_ok h
  exact keeps_put _ c a c' h2

theorem keeps_bcdOr (w : Nat) (val limit : Int) (num : Nat) (esc : Bytes) :
    Keeps (wrBcdOr w val limit num esc) := keeps_ite (keeps_put _) (keeps_bcd _ _ _ _)

theorem keeps_num (val limit : Int) (num : Nat) (esc : Bytes) : Keeps (wrNum val limit num esc) :=
  keeps_ite (keeps_put _) (keeps_bcd _ _ _ _)

theorem wrBlock_length {n : Nat} {w : Wr Unit} {b : Bytes} (hw : Keeps w)
    (h : wrBlock n w = .ok b) : b.length = n := by
  obtain ⟨⟨u, c⟩, h1, h2⟩ := bind_ok h
  cases h2
  have := hw _ _ _ h1
  simp at this ⊢
  omega

/-- Statements put together from those above. -/
macro "keeps" : tactic => `(tactic| repeat (first
  | exact keeps_put _ | exact keeps_bcd _ _ _ _ | exact keeps_bcdOr _ _ _ _ _ | exact keeps_num _ _ _ _
  | exact keeps_poke _ | exact keeps_or _ | exact keeps_skip _ | exact keeps_dblChar _
  | exact keeps_lift _ | exact keeps_val _ | exact keeps_pure _
  | apply keeps_ite | apply keeps_bind | intro _))

theorem keeps_genHdr1 (lg : Int → Dbl) (h : GenHdr1) (e : Nat) : Keeps (wrGenHdr1 lg h e) := by
  unfold wrGenHdr1 wrScans wrRecord
  keeps

theorem keeps_genHdr2 (h : GenHdr2) : Keeps (wrGenHdr2 h) := by
  unfold wrGenHdr2
  keeps

theorem keeps_genHdrN (h : GenHdrN) : Keeps (wrGenHdrN h) := by
  unfold wrGenHdrN wrSource
  keeps

theorem keeps_chSet (lg : Int → Dbl) (h : ChSet) : Keeps (wrChSet lg h) := by
  unfold wrChSet wrDescale wrSubscans wrFlags
  keeps

theorem keeps_traceHdr (h : Header) : Keeps (wrTraceHdr h) := by
  unfold wrTraceHdr wrDblU24
  keeps

theorem keeps_extStd (rev : Int) (h : Header) : Keeps (wrExtStd rev h) := by
  unfold wrExtStd wrDblU24 wrByteOf wrExtIdx wrExtLines wrExtRev3 wrLinePart wrByteOf wrTraceNumber
  keeps

theorem keeps_samples {w : SampleWr} (hw : ∀ p d, Keeps (w.put p d)) (descale : Dbl) :
    ∀ (xs p : List Dbl), Keeps (wrSamples w descale xs p) := by
  intro xs
  induction xs with
  | nil => intro p; exact keeps_pure _
  | cons x t ih => intro p; exact keeps_bind (hw _ _) fun q => ih q

theorem keeps_bytes (w : Dbl → Out Bytes) (p : List Dbl) (d : Dbl) : Keeps ((SampleWr.bytes w).put p d) := by
  unfold SampleWr.put
  keeps

theorem keeps_atStart (w : Dbl → Out Nat) (p : List Dbl) (d : Dbl) :
    Keeps ((SampleWr.own (writeAtStart w)).put p d) := by
  unfold SampleWr.put writeAtStart
  keeps

theorem keeps_8015 (est : Dbl → Int) (p : List Dbl) (d : Dbl) :
    Keeps ((SampleWr.own (write8015 est)).put p d) := by
  simp only [SampleWr.put]
  unfold write8015
  split
  · keeps
  · exact keeps_pure _

theorem keeps_segdWriter {est : PackEst} {f : Int} {bits : Nat} {w : SampleWr}
    (h : segdWriter est f = .ok (bits, w)) (p : List Dbl) (d : Dbl) : Keeps (w.put p d) := by
  unfold segdWriter at h
  split at h <;> cases h <;>
    first
    | exact keeps_bytes _ _ _
    | exact keeps_atStart _ _ _
    | exact keeps_8015 _ _ _

theorem writeSamplesD_length {est : PackEst} {f : Int} {descale : Dbl} {xs : List Dbl} {m m' : SampMem}
    {b : Bytes} (h : writeSamplesD est f descale xs m = .ok (b, m')) :
    ∃ bits w, segdWriter est f = .ok (bits, w) ∧ b.length = xs.length * bits / 8 := by
  obtain ⟨⟨bits, w⟩, h1, h2⟩ := bind_ok h
  obtain ⟨⟨q, c⟩, h3, h4⟩ := bind_ok h2
  cases h4
  refine ⟨bits, w, h1, ?_⟩
  have := keeps_samples (keeps_segdWriter h1) _ _ _ _ _ _ h3
  simp only [List.length_nil, resizeTo_length] at this
  simp only [List.length_append]
  omega

theorem writeExtFields_length {est : LogEst} {hdr : Header} : ∀ {fs : List HField} {buf out : Bytes},
    writeExtFields est hdr fs buf = .ok out → out.length = buf.length := by
  intro fs
  induction fs with
  | nil => intro buf out h; cases h; rfl
  | cons f t ih =>
    intro buf out h
    unfold writeExtFields at h
    split at h
    · cases h
    · obtain ⟨bs, -, h⟩ := bind_ok h
      obtain ⟨b1, h1, h⟩ := bind_ok h
      rw [ih h, writeAt_length h1]

theorem writeExtBlock_length {est : LogEst} {room : Nat} {rev : Int} {m : ExtMap} {hdr : Header} {i : Nat}
    {b : Bytes} (h : writeExtBlock est room rev m hdr i = .ok b) : b.length = 32 := by
  unfold writeExtBlock at h
  split at h
  · split at h
    · split at h
      · exact wrBlock_length (keeps_extStd _ _) h
      · cases h; rfl
    · split at h
      · cases h
      · obtain ⟨buf, h1, h2⟩ := bind_ok h
        cases h2
        have := writeExtFields_length h1
        simp at this ⊢
        omega
  · cases h

theorem extIO_length {H : Host} {a : OSegdArgs} {h : Header} : ∀ {n i : Nat} {b : Bytes},
    extIO H a h n i = (b, .ok ()) → b.length = 32 * n := by
  intro n
  induction n with
  | zero => intro i b e; cases e; rfl
  | succ n ih =>
    intro i b e
    unfold extIO at e
    split at e
    · cases e
    · next x hx =>
      rcases hr : extIO H a h n (i + 1) with ⟨t, r⟩
      rw [hr] at e
      simp only [Prod.mk.injEq] at e
      obtain ⟨rfl, rfl⟩ := e
      rw [List.length_append, writeExtBlock_length hx, ih hr]
      omega

/-- A trace that is accepted. -/
theorem writeTraceD_accepted {H : Host} {t : Trace} {s s' : OSegd} (h : writeTraceD H t s = (.ok (), s')) :
    ∃ b e x n m, writeTraceHdrD t.header = .ok b ∧ intOf t.header "TR_HDR_EXT" = .ok n ∧
      extIO H s.args t.header (toU 1 n) 0 = (e, .ok ()) ∧ writeSamplesOf H s.args t s.mem = .ok (x, m) ∧
      s' = { s with out := s.out ++ b ++ e ++ x, chansWritten := s.chansWritten + 1, mem := m } := by
  unfold writeTraceD at h
  split at h
  · cases h
  · split at h
    · cases h
    · next b h1 =>
      simp only at h
      split at h
      · cases h
      · next n h2 =>
        split at h
        · cases h
        · next e u h3 =>
          split at h
          · cases h
          · next x m h4 =>
            cases h
            exact ⟨b, e, x, n, m, h1, h2, h3, h4, rfl⟩

/-! ## Headers -/

theorem writeChSetHdr_length {H : Host} {a : OSegdArgs} {c : ChSet} {b : Bytes}
    (h : writeChSetHdr H a c = .ok b) : b.length = 32 := by
  unfold writeChSetHdr at h
  split at h
  · exact wrBlock_length (keeps_chSet _ _) h
  · cases h

theorem writeChSets_length {H : Host} {a : OSegdArgs} : ∀ {sets : List ChSet} {b : Bytes},
    writeChSets H a sets = .ok b → b.length = 32 * sets.length := by
  intro sets
  induction sets with
  | nil => intro b h; cases h; rfl
  | cons c t ih =>
    intro b h
    obtain ⟨x, h1, h⟩ := bind_ok h
    obtain ⟨y, h2, h⟩ := bind_ok h
    cases h
    rw [List.length_append, writeChSetHdr_length h1, ih h2, List.length_cons]
    omega

theorem writeScanTypes_ok {H : Host} {a : OSegdArgs} : ∀ {l : List (List ChSet)} {b : Bytes},
    writeScanTypes H a l = .ok b → (∀ sets ∈ l, sets.length = a.setsPerScan) ∧
      b.length = 32 * (l.length * (a.setsPerScan + a.gh1.skewBlocks.toNat)) := by
  intro l
  induction l with
  | nil => intro b h; cases h; simp
  | cons sets t ih =>
    intro b h
    unfold writeScanTypes at h
    split at h
    · cases h
    · next hl =>
      obtain ⟨x, h1, h⟩ := bind_ok h
      obtain ⟨y, h2, h⟩ := bind_ok h
      cases h
      obtain ⟨i1, i2⟩ := ih h2
      have hl' : sets.length = a.setsPerScan := by omega
      refine ⟨fun s hs => ?_, ?_⟩
      · rcases List.mem_cons.1 hs with rfl | hs
        · exact hl'
        · exact i1 s hs
      · rw [List.length_append, List.length_append, writeChSets_length h1, i2, List.length_replicate,
          List.length_cons, hl', Nat.add_mul, Nat.one_mul]
        omega

theorem writeBlocks32_ok {hs : List Bytes} : ∀ {n i : Nat} {b : Bytes}, writeBlocks32 hs n i = .ok b →
    b.length = 32 * n ∧ (n = 0 ∨ i + n ≤ hs.length) := by
  intro n
  induction n with
  | zero => intro i b h; cases h; exact ⟨rfl, .inl rfl⟩
  | succ n ih =>
    intro i b h
    unfold writeBlocks32 at h
    split at h
    · cases h
    · next x hx =>
      split at h
      · cases h
      · next hl =>
        obtain ⟨y, h2, h⟩ := bind_ok h
        cases h
        obtain ⟨i1, i2⟩ := ih h2
        have := (List.getElem?_eq_some_iff.1 hx).1
        refine ⟨?_, .inr ?_⟩
        · rw [List.length_append, List.length_take, i1]; omega
        · omega

theorem writeAddHdrs_length : ∀ {m : BlkMap} {b : Bytes}, writeAddHdrs m = .ok b →
    b.length = 32 * m.length := by
  intro m
  induction m with
  | nil => intro b h; cases h; rfl
  | cons p t ih =>
    intro b h
    obtain ⟨k, blk⟩ := p
    obtain ⟨n, -, h⟩ := bind_ok h
    obtain ⟨x, h1, h⟩ := bind_ok h
    obtain ⟨y, h2, h⟩ := bind_ok h
    cases h
    rw [List.length_append, wrBlock_length (keeps_genHdrN _) h1, ih h2, List.length_cons]
    omega

/-- What a constructor that returns has written. -/
theorem openSegdWriter_ok {H : Host} {heap : Nat} {a : OSegdArgs} {s : OSegd}
    (h : openSegdWriter H heap a = .ok s) :
    ∃ m b1 b2 bn bs be bx, storeAdd a.addHdrs [] = .ok m ∧
      a.chSets.length = toU 8 a.gh1.scanTypesPerRecord ∧
      writeGenHdr1 H.lg a.gh1 a.gh2.extRecordLen = .ok b1 ∧ writeGenHdr2 a.gh2 = .ok b2 ∧
      writeAddHdrs m = .ok bn ∧ writeScanTypes H a a.chSets = .ok bs ∧
      writeBlocks32 a.extended a.extendedBlks 0 = .ok be ∧
      writeBlocks32 a.external a.externalBlks 0 = .ok bx ∧
      s.out = b1 ++ b2 ++ bn ++ bs ++ be ++ bx := by
  obtain ⟨m, h1, h⟩ := bind_ok h
  split at h
  · cases h
  · next hl =>
    obtain ⟨out, h2, h⟩ := bind_ok h
    cases h
    obtain ⟨w, -, h2⟩ := bind_ok h2
    obtain ⟨b1, c1, h2⟩ := bind_ok h2
    obtain ⟨b2, c2, h2⟩ := bind_ok h2
    obtain ⟨bn, c3, h2⟩ := bind_ok h2
    obtain ⟨bs, c4, h2⟩ := bind_ok h2
    obtain ⟨be, c5, h2⟩ := bind_ok h2
    obtain ⟨bx, c6, h2⟩ := bind_ok h2
    cases h2
    exact ⟨m, b1, b2, bn, bs, be, bx, h1, by omega, c1, c2, c3, c4, c5, c6, rfl⟩

theorem put_keys (m : BlkMap) (k : Nat) (b : AddBlk) (hs : (m.map Prod.fst).Pairwise (· < ·)) :
    ((m.put k b).map Prod.fst).Pairwise (· < ·) ∧
      (m.put k b).map Prod.fst ⊆ k :: m.map Prod.fst ∧ k :: m.map Prod.fst ⊆ (m.put k b).map Prod.fst := by
  induction m with
  | nil => simp [BlkMap.put]
  | cons p t ih =>
    obtain ⟨k', b'⟩ := p
    simp only [List.map_cons, List.pairwise_cons] at hs
    obtain ⟨i1, i2, i3⟩ := ih hs.2
    unfold BlkMap.put
    by_cases h1 : k < k'
    · rw [if_pos h1]
      refine ⟨?_, by simp, by simp⟩
      simp only [List.map_cons, List.pairwise_cons, List.mem_cons]
      refine ⟨?_, hs⟩
      rintro x (rfl | hx)
      · exact h1
      · exact h1.trans (hs.1 x hx)
    · rw [if_neg h1]
      by_cases h2 : k = k'
      · subst h2
        rw [if_pos rfl]
        exact ⟨by simpa using hs, by simp, by simp⟩
      · rw [if_neg h2]
        refine ⟨?_, ?_, ?_⟩
        · simp only [List.map_cons, List.pairwise_cons]
          refine ⟨fun x hx => ?_, i1⟩
          rcases List.mem_cons.1 (i2 hx) with rfl | hx
          · omega
          · exact hs.1 x hx
        · intro x hx
          rcases List.mem_cons.1 hx with rfl | hx
          · simp
          · rcases List.mem_cons.1 (i2 hx) with rfl | hx
            · simp
            · simp only [List.mem_cons, List.map_cons]; exact .inr (.inr hx)
        · intro x hx
          rcases List.mem_cons.1 hx with rfl | hx
          · exact List.mem_cons_of_mem _ (i3 (List.mem_cons_self ..))
          · rcases List.mem_cons.1 hx with rfl | hx
            · exact List.mem_cons_self ..
            · exact List.mem_cons_of_mem _ (i3 (List.mem_cons_of_mem _ hx))

theorem storeAdd_keys : ∀ {l : List AddBlk} {m0 m : BlkMap}, storeAdd l m0 = .ok m →
    (m0.map Prod.fst).Pairwise (· < ·) → (m.map Prod.fst).Pairwise (· < ·) ∧
      ∀ k, k ∈ m.map Prod.fst ↔ k ∈ l.map AddBlk.type ∨ k ∈ m0.map Prod.fst := by
  intro l
  induction l with
  | nil => intro m0 m h hs; cases h; exact ⟨hs, by simp⟩
  | cons b t ih =>
    intro m0 m h hs
    obtain ⟨o, -, h⟩ := bind_ok h
    obtain ⟨p1, p2, p3⟩ := put_keys m0 b.type o hs
    obtain ⟨i1, i2⟩ := ih h p1
    refine ⟨i1, fun k => ?_⟩
    rw [i2 k, List.map_cons, List.mem_cons]
    constructor
    · rintro (h | h)
      · exact .inl (.inr h)
      · rcases List.mem_cons.1 (p2 h) with h | h
        · exact .inl (.inl h)
        · exact .inr h
    · rintro ((h | h) | h)
      · exact .inr (p3 (by rw [h]; exact List.mem_cons_self ..))
      · exact .inl h
      · exact .inr (p3 (List.mem_cons_of_mem _ h))

/-- The map has one entry for every type among the blocks. -/
theorem storeAdd_length {l : List AddBlk} {m : BlkMap} (h : storeAdd l [] = .ok m) :
    m.length = (l.map AddBlk.type).dedup.length := by
  obtain ⟨h1, h2⟩ := storeAdd_keys h (by simp)
  rw [← List.length_map (f := Prod.fst) (as := m)]
  apply List.Perm.length_eq
  rw [List.perm_ext_iff_of_nodup (h1.imp fun h => Nat.ne_of_lt h) (List.nodup_dedup _)]
  intro k
  rw [h2 k, List.mem_dedup]
  simp

end Sedaman
