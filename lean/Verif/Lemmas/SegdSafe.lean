import Verif.Spec.SegdSafe
import Verif.Lemmas.Safe
import Verif.Lemmas.SegdReader
import Verif.Lemmas.SegdRev3
import Verif.Lemmas.Bcd

/-!
# Defined behaviour of the SEG-D reader: lemmas
-/

namespace Sedaman

open Spec

theorem fromBcdLoop_defined (i r : Nat) (bs : Bytes) (h : i ≤ 2 * bs.length) :
    ∃ v, fromBcdLoop i r bs = .ok v := by
  rw [fromBcdLoop_eq, if_pos h]; exact ⟨_, rfl⟩

/-- Bytes `from_bcd` looks at. -/
theorem needs_fromBcd (skip : Bool) (num k : Nat) (h0 : 0 < k) (hk : num + skip.toNat ≤ 2 * k) :
    ∀ s : Bytes, k ≤ s.length → ∃ a, fromBcd skip num s = .ok (a, s.drop ((num + skip.toNat) / 2)) := by
  intro s hs
  cases s with
  | nil => simp at hs; omega
  | cons b rest =>
    unfold fromBcd
    simp only
    obtain ⟨v, hv⟩ := fromBcdLoop_defined
      (num - if num ≠ (if skip = true then 0 else 1) then (if skip = true then 0 else 1) + 1
        else (if skip = true then 0 else 1))
      (if num ≠ (if skip = true then 0 else 1) then (if skip = true then 0 else hiNib b) * 10 + loNib b
        else (if skip = true then 0 else hiNib b)) rest
      (by simp at hs; cases skip <;> simp at hk ⊢ <;> (try split) <;> omega)
    rw [hv, ok_bind]
    exact ⟨v, rfl⟩

/-- The reader needs at most `n` bytes and moves on by `c`. -/
def Uses {α : Type} (r : Rd α) (n c : Nat) : Prop :=
  ∀ s : Bytes, n ≤ s.length → ∃ a, r s = .ok (a, s.drop c)

theorem Uses.step {α β : Type} {x : Rd α} {f : α → Rd β} {a c n k : Nat} (hx : Uses x a c)
    (ha : a ≤ n ∧ c ≤ k) (hf : ∀ v, Uses (f v) (n - c) (k - c)) : Uses (x >>= f) n k := by
  intro s hs
  obtain ⟨v, h1⟩ := hx s (by omega)
  obtain ⟨w, h2⟩ := hf v (s.drop c) (by simp; omega)
  refine ⟨w, ?_⟩
  rw [rd_bind, h1, ok_bind]
  simp only
  rw [h2, List.drop_drop, show c + (k - c) = k by omega]

theorem uses_pure {α : Type} (a : α) (n : Nat) : Uses (pure a : Rd α) n 0 := fun _ _ => ⟨a, rfl⟩

theorem Uses.mono {α : Type} {x : Rd α} {a b c : Nat} (h : Uses x a c) (hab : a ≤ b) : Uses x b c :=
  fun s hs => h s (by omega)

theorem Uses.map {α β : Type} {x : Rd α} {n c : Nat} (h : Uses x n c) (f : α → β) :
    Uses (do let a ← x; pure (f a)) n c := by
  intro s hs
  obtain ⟨a, e⟩ := h s hs
  refine ⟨f a, ?_⟩
  rw [rd_bind, e]
  rfl

theorem Uses.defined {α : Type} {r : Rd α} {n c : Nat} (h : Uses r n c) {s : Bytes} (hs : n ≤ s.length) :
    Defined (r s) := by
  obtain ⟨a, e⟩ := h s hs
  rw [e]; exact defined_ok _

theorem uses_rdBytes (n : Nat) : Uses (rdBytes n) n n := fun _ hs => ⟨_, rdBytes_ok hs⟩
theorem uses_skip (n : Nat) : Uses (rdSkip n) n n := (uses_rdBytes n).map _
theorem uses_readU (n : Nat) : Uses (readU n) n n := (uses_rdBytes n).map _
theorem uses_readS (n : Nat) : Uses (readS n) n n := (uses_rdBytes n).map _
theorem uses_readU8 : Uses readU8 1 1 := uses_readU 1
theorem uses_readU16 : Uses (readU16 .be) 2 2 := by
  first | exact uses_readU 2 | exact (uses_readU 2).map _
theorem uses_readI16 : Uses (readI16 .be) 2 2 := by
  first | exact uses_readS 2 | exact (uses_readS 2).map _
theorem uses_readU24 : Uses (readU24 .be) 3 3 :=
  (uses_readU 2).step (by decide) fun _ => (uses_readU 1).map _
theorem uses_readI24 : Uses (readI24 .be) 3 3 := uses_readU24.map _
theorem uses_readU32 : Uses (readU32 .be) 4 4 := by
  first | exact uses_readU 4 | exact (uses_readU 4).map _
theorem uses_readI32 : Uses (readI32 .be) 4 4 := by
  first | exact uses_readS 4 | exact (uses_readS 4).map _
theorem uses_readU64 : Uses (readU64 .be) 8 8 := by
  first | exact uses_readU 8 | exact (uses_readU 8).map _
theorem uses_bcd (skip : Bool) (num k c : Nat) (h0 : 0 < k) (hk : num + skip.toNat ≤ 2 * k)
    (hc : (num + skip.toNat) / 2 = c) : Uses (fromBcd skip num) k c := by
  intro s hs
  obtain ⟨a, h⟩ := needs_fromBcd skip num k h0 hk s hs
  exact ⟨a, by rw [← hc]; exact h⟩
theorem uses_rdBcd (skip : Bool) (num k c : Nat) (h0 : 0 < k) (hk : num + skip.toNat ≤ 2 * k)
    (hc : (num + skip.toNat) / 2 = c) : Uses (rdBcd skip num) k c := (uses_bcd skip num k c h0 hk hc).map _
theorem uses_rdBcdN (skip : Bool) (num k c : Nat) (h0 : 0 < k) (hk : num + skip.toNat ≤ 2 * k)
    (hc : (num + skip.toNat) / 2 = c) : Uses (rdBcdN skip num) k c := uses_bcd skip num k c h0 hk hc

theorem scans_defined : ∀ u < 256, ∀ e < 16,
    (dblToS 8 (dmul (dblOfInt ((u : Nat) : Int)) (pow2 ((e : Nat) : Int)))).isOk = true := by decide +kernel

theorem readU8_lt {s s' : Bytes} {v : Nat} (h : readU8 s = .ok (v, s')) : v < 256 := by
  cases s with
  | nil => cases h
  | cons b t =>
    rw [readU8_cons] at h
    cases h
    exact b.isLt

theorem isOk_ok {α : Type} {x : Out α} (h : x.isOk = true) : ∃ a, x = .ok a := by
  cases x with
  | ok a => exact ⟨a, rfl⟩
  | error e => cases h

theorem uses_rdScans : Uses rdScans 2 2 := by
  intro s hs
  match s, hs with
  | b :: c :: t, _ =>
    unfold rdScans
    obtain ⟨v, hv⟩ := isOk_ok (scans_defined c.toNat c.isLt (b.toNat % 16) (Nat.mod_lt _ (by decide)))
    refine ⟨v, ?_⟩
    rw [rd_bind, readU8_cons, ok_bind]
    simp only
    rw [rd_bind, readU8_cons, ok_bind]
    simp only
    rw [hv, ok_bind]
    rfl

/-- `Uses`, with something known about the result. -/
def UsesC {α : Type} (r : Rd α) (n c : Nat) (P : α → Prop) : Prop :=
  ∀ s : Bytes, n ≤ s.length → ∃ a, r s = .ok (a, s.drop c) ∧ P a

theorem UsesC.step {α β : Type} {x : Rd α} {f : α → Rd β} {a c n k : Nat} {P : β → Prop} (hx : Uses x a c)
    (ha : a ≤ n ∧ c ≤ k) (hf : ∀ v, UsesC (f v) (n - c) (k - c) P) : UsesC (x >>= f) n k P := by
  intro s hs
  obtain ⟨v, h1⟩ := hx s (by omega)
  obtain ⟨w, h2, hp⟩ := hf v (s.drop c) (by simp; omega)
  refine ⟨w, ?_, hp⟩
  rw [rd_bind, h1, ok_bind]
  simp only
  rw [h2, List.drop_drop, show c + (k - c) = k by omega]

theorem usesC_pure {α : Type} {a : α} (n : Nat) {P : α → Prop} (h : P a) : UsesC (pure a : Rd α) n 0 P :=
  fun _ _ => ⟨a, rfl, h⟩

/-- A step whose result is known. -/
theorem rd_step {α β : Type} {x : Rd α} {f : α → Rd β} {s s' : Bytes} {v : α} (h : x s = .ok (v, s')) :
    (x >>= f) s = f v s' := by
  rw [rd_bind, h]; rfl

theorem UsesC.exists {α : Type} {r : Rd α} {n c : Nat} {P : α → Prop} (h : UsesC r n c P) {s : Bytes}
    (hs : n ≤ s.length) : ∃ a s', r s = .ok (a, s') ∧ P a := by
  obtain ⟨a, e, p⟩ := h s hs
  exact ⟨a, _, e, p⟩

theorem readGenHdr1_uses {s : Bytes} (h : s.length = 32) :
    ∃ g r, readGenHdr1 s = .ok (g, r) ∧ g.addGenHdrBlocks = ((s[11]?).getD 0).toNat / 16 := by
  unfold readGenHdr1
  obtain ⟨v1, h1⟩ := uses_rdBcd false 4 2 2 (by decide) (by decide) (by decide) s (by omega)
  rw [rd_step h1]
  obtain ⟨v2, h2⟩ := uses_rdBcd false 4 2 2 (by decide) (by decide) (by decide) (s.drop 2) (by simp; omega)
  rw [rd_step h2, List.drop_drop]
  obtain ⟨v3, h3⟩ := uses_rdBcd false 12 6 6 (by decide) (by decide) (by decide) (s.drop 4) (by simp; omega)
  rw [rd_step h3, List.drop_drop]
  obtain ⟨v4, h4⟩ := uses_rdBcd false 2 1 1 (by decide) (by decide) (by decide) (s.drop 10) (by simp; omega)
  rw [rd_step h4, List.drop_drop]
  have h5 : rdBcd false 1 (s.drop 11) = .ok (((((s[11]?).getD 0).toNat / 16 : Nat) : Int), s.drop 11) := by
    cases hd : s.drop 11 with
    | nil => have := congrArg List.length hd; simp at this; omega
    | cons b t =>
      have : s[11]? = some b := by
        have := congrArg (·[0]?) hd
        simpa using this
      rw [this]
      rfl
  rw [rd_step h5]
  refine UsesC.exists (n := 21) (c := 21) (s := s.drop 11)
    (P := fun g : GenHdr1 => g.addGenHdrBlocks = (((s[11]?).getD 0).toNat / 16 : Nat)) ?_ (by simp; omega)
  repeat' first
    | refine UsesC.step (uses_rdBcd true 3 2 2 (by decide) (by decide) (by decide)) (by decide) fun _ => ?_
    | refine UsesC.step (uses_rdBcd false 2 1 1 (by decide) (by decide) (by decide)) (by decide) fun _ => ?_
    | refine UsesC.step (uses_rdBcd false 1 1 0 (by decide) (by decide) (by decide)) (by decide) fun _ => ?_
    | refine UsesC.step (uses_rdBcd false 4 2 2 (by decide) (by decide) (by decide)) (by decide) fun _ => ?_
    | refine UsesC.step (uses_rdBcd false 6 3 3 (by decide) (by decide) (by decide)) (by decide) fun _ => ?_
    | refine UsesC.step uses_readU8 (by decide) fun _ => ?_
    | refine UsesC.step uses_rdScans (by decide) fun _ => ?_
    | exact usesC_pure _ rfl

theorem byte_getD {s : Bytes} {i : Nat} (h : i < s.length) : s.drop i = (s[i]?).getD 0 :: s.drop (i + 1) := by
  rw [List.drop_eq_getElem_cons h, List.getElem?_eq_getElem h]; rfl

theorem readU8_drop {s : Bytes} {i : Nat} (h : i < s.length) :
    readU8 (s.drop i) = .ok (((s[i]?).getD 0).toNat, s.drop (i + 1)) := by
  rw [byte_getD h, readU8_cons]

theorem readRevision_uses (g : GenHdr2) {s : Bytes} (h : s.length = 32) :
    readRevision g s = .ok ({ g with segdRevMajor := ((s[10]?).getD 0).toNat,
                                     segdRevMinor := ((s[11]?).getD 0).toNat }, s.drop 12) := by
  unfold readRevision
  obtain ⟨v, h1⟩ := uses_skip 10 s (by omega)
  rw [rd_step h1, rd_step (readU8_drop (by omega)), rd_step (readU8_drop (by omega))]
  rfl

theorem readGenHdr2_uses (g : GenHdr2) : Uses (readGenHdr2 g) 22 22 := by
  unfold readGenHdr2
  repeat' first
    | refine uses_readU24.step (by decide) fun _ => ?_
    | refine uses_readU16.step (by decide) fun _ => ?_
    | refine (uses_skip _).step (by decide) fun _ => ?_
    | refine uses_readU8.step (by decide) fun _ => ?_
    | exact uses_pure _ _

theorem rdSource_uses : Uses rdSource 5 5 :=
  uses_readI24.step (by decide) fun _ => uses_readU16.map _

theorem readGenHdrN_uses : Uses readGenHdrN 20 20 := by
  unfold readGenHdrN
  repeat' first
    | refine uses_readU24.step (by decide) fun _ => ?_
    | refine rdSource_uses.step (by decide) fun _ => ?_
    | refine uses_readI16.step (by decide) fun _ => ?_
    | refine uses_readU8.step (by decide) fun _ => ?_
    | exact uses_pure _ _

theorem readGenHdr3_uses : Uses readGenHdr3 32 32 := by
  unfold readGenHdr3
  repeat' first
    | refine uses_readU64.step (by decide) fun _ => ?_
    | refine uses_readU32.step (by decide) fun _ => ?_
    | refine (uses_skip _).step (by decide) fun _ => ?_
    | refine uses_readU8.step (by decide) fun _ => ?_
    | exact uses_pure _ _

theorem readU16_pair (a b : Byte) (t : Bytes) :
    readU16 .be (a :: b :: t) = .ok (256 * a.toNat + b.toNat, t) := by
  have h : readU16 .be (a :: b :: t) = .ok (swapU 2 (leVal [a, b]), t) := rfl
  rw [h, swapU_leVal (bs := [a, b]) (n := 2) rfl]
  simp [leVal]
  omega

theorem readGenHdr2R3_uses (g : GenHdr2) {s : Bytes} (h : s.length = 32) :
    ∃ g' r, readGenHdr2R3 g s = .ok (g', r) ∧
      g'.extNumAddBlksInGenHdr = 256 * ((s[18]?).getD 0).toNat + ((s[19]?).getD 0).toNat := by
  unfold readGenHdr2R3
  obtain ⟨v1, h1⟩ := uses_readU24 s (by omega)
  rw [rd_step h1]
  obtain ⟨v1, h1⟩ := uses_readU16 (s.drop 3) (by simp; omega)
  rw [rd_step h1, List.drop_drop]
  obtain ⟨v1, h1⟩ := uses_readU24 (s.drop 5) (by simp; omega)
  rw [rd_step h1, List.drop_drop]
  obtain ⟨v1, h1⟩ := uses_readU16 (s.drop 8) (by simp; omega)
  rw [rd_step h1, List.drop_drop]
  obtain ⟨v1, h1⟩ := uses_skip 2 (s.drop 10) (by simp; omega)
  rw [rd_step h1, List.drop_drop]
  obtain ⟨v1, h1⟩ := uses_readU32 (s.drop 12) (by simp; omega)
  rw [rd_step h1, List.drop_drop]
  obtain ⟨v1, h1⟩ := uses_readU16 (s.drop 16) (by simp; omega)
  rw [rd_step h1, List.drop_drop]
  simp only [Nat.reduceAdd]
  rw [byte_getD (i := 18) (by omega), byte_getD (i := 18 + 1) (by omega), rd_step (readU16_pair _ _ _)]
  refine UsesC.exists (n := 7) (c := 7) (P := fun g : GenHdr2 => g.extNumAddBlksInGenHdr = _) ?_
    (by simp; omega)
  repeat' first
    | refine UsesC.step uses_readU16 (by decide) fun _ => ?_
    | refine UsesC.step uses_readU24 (by decide) fun _ => ?_
    | refine UsesC.step (uses_skip _) (by decide) fun _ => ?_
    | refine UsesC.step uses_readU8 (by decide) fun _ => ?_
    | exact usesC_pure _ rfl

theorem rdDescale_uses : Uses rdDescale 2 2 := uses_readU16.map _

theorem subscans_defined : ∀ k < 16, (dblToS 4 (pow2 ((k : Nat) : Int))).isOk = true := by decide +kernel

theorem rdSubscans_uses : Uses rdSubscans 1 0 := by
  intro s hs
  match s, hs with
  | b :: t, _ =>
    have h1 : fromBcd false 1 (b :: t) = .ok (hiNib b, b :: t) := rfl
    obtain ⟨v, hv⟩ := isOk_ok (subscans_defined (hiNib b) (by unfold hiNib; have := b.isLt; omega))
    refine ⟨v, ?_⟩
    unfold rdSubscans
    rw [rd_step h1, hv]
    rfl

theorem rdFlags_uses : Uses rdFlags 1 1 := uses_readU8.map _
theorem rdFlagsR3_uses : Uses rdFlagsR3 1 1 := uses_readU8.map _

theorem readChSet_uses : Uses readChSet 32 32 := by
  unfold readChSet
  repeat' first
    | refine (uses_rdBcd false 2 1 1 (by decide) (by decide) (by decide)).step (by decide) fun _ => ?_
    | refine (uses_rdBcdN false 2 1 1 (by decide) (by decide) (by decide)).step (by decide) fun _ => ?_
    | refine (uses_rdBcdN false 4 2 2 (by decide) (by decide) (by decide)).step (by decide) fun _ => ?_
    | refine (uses_rdBcdN false 1 1 0 (by decide) (by decide) (by decide)).step (by decide) fun _ => ?_
    | refine (uses_rdBcdN true 1 1 1 (by decide) (by decide) (by decide)).step (by decide) fun _ => ?_
    | refine uses_readU16.step (by decide) fun _ => ?_
    | refine rdDescale_uses.step (by decide) fun _ => ?_
    | refine rdSubscans_uses.step (by decide) fun _ => ?_
    | refine rdFlags_uses.step (by decide) fun _ => ?_
    | refine (uses_skip _).step (by decide) fun _ => ?_
    | refine uses_readU8.step (by decide) fun _ => ?_
    | exact uses_pure _ _

theorem readChSetR3_uses : Uses readChSetR3 96 95 := by
  refine Uses.map ?_ _
  unfold readChSetR3X
  repeat' first
    | refine (uses_rdBcd false 2 1 1 (by decide) (by decide) (by decide)).step (by decide) fun _ => ?_
    | refine uses_readU16.step (by decide) fun _ => ?_
    | refine uses_readU24.step (by decide) fun _ => ?_
    | refine uses_readU32.step (by decide) fun _ => ?_
    | refine rdFlagsR3_uses.step (by decide) fun _ => ?_
    | refine (uses_skip _).step (by decide) fun _ => ?_
    | refine (uses_rdBytes _).step (by decide) fun _ => ?_
    | refine uses_readU8.step (by decide) fun _ => ?_
    | exact uses_pure _ _

/-! ## The headers of a record -/

theorem defined_fill (s : ISegd) (n : Nat) : Defined (s.fill n) :=
  (defined_read _ _).bind fun _ _ => defined_ok _

theorem defined_readBlks {rd : Bytes → BlkMap → Out BlkMap} (n : Nat) (s : ISegd)
    (h : ∀ k < n, ∀ b m, b = (s.file.data.drop (s.file.pos + 32 * k)).take 32 → b.length = 32 →
      Defined (rd b m)) : Defined (readBlks rd n s) := by
  induction n generalizing s with
  | zero => exact defined_ok _
  | succ n ih =>
    refine (defined_fill s 32).bind fun p hp => ?_
    obtain ⟨b, s'⟩ := p
    obtain ⟨hb, hl, rfl⟩ := fill_ok hp
    refine (h 0 (by omega) b s.blks hb hl).bind fun m _ => ih _ fun k hk b' m' hb' hl' => ?_
    refine h (k + 1) (by omega) b' m' ?_ hl'
    rw [hb']
    simp only [ISegd.at]
    congr 2
    omega

theorem defined_readRev2Blk {b : Bytes} (h : b.length = 32) (m : BlkMap) : Defined (readRev2Blk b m) :=
  (readGenHdrN_uses.defined (by omega)).bind fun _ _ => defined_ok _

theorem blk_fits : ∀ c < 256, c ≠ 0x41 → ∀ items, blkItems c = some items → sizeOfItems items < 32 := by
  have h : ∀ c < 256, c ≠ 0x41 → ((blkItems c).map sizeOfItems).getD 0 < 32 := by decide +kernel
  intro c hc hne items hi
  have := h c hc hne
  rw [hi] at this
  exact this

theorem defined_readRev3Blk {b : Bytes} (h : b.length = 32) (hne : b[31]? ≠ some 0x41) (m : BlkMap) :
    Defined (readRev3Blk b m) := by
  cases hb : b[31]? with
  | none => rw [List.getElem?_eq_none_iff] at hb; omega
  | some x =>
    rw [hb] at hne
    cases hi : blkItems x.toNat with
    | none =>
      unfold readRev3Blk
      simp only [hb, hi]
      exact defined_ok _
    | some items =>
      have hs := blk_fits x.toNat x.isLt (fun e => hne (by rw [← BitVec.eq_of_toNat_eq (y := 0x41) e])) items hi
      obtain ⟨t, ht⟩ : ∃ t, b[sizeOfItems items]? = some t := ⟨_, List.getElem?_eq_getElem (by omega)⟩
      rw [readRev3Blk_ok hb hi ht]
      exact defined_ok _

theorem getElem?_block {data b : Bytes} {p k : Nat} (hb : b = (data.drop p).take 32) (hk : k < 32) :
    b[k]? = data[p + k]? := by
  rw [hb, List.getElem?_take, if_pos hk, List.getElem?_drop]

theorem defined_readGeneral (s : ISegd) (h : NoSensorBlock s.file.data s.file.pos) :
    Defined (readGeneral s) := by
  unfold readGeneral
  refine (defined_fill s 32).bind fun p hp => ?_
  obtain ⟨b, s1⟩ := p
  obtain ⟨hb, hl, rfl⟩ := fill_ok hp
  simp only
  obtain ⟨g1, r1, e1, ha⟩ := readGenHdr1_uses hl
  rw [e1, ok_bind]
  refine .ite (fun _ => ?_) fun _ => defined_ok _
  unfold readGeneralAdd
  refine (defined_fill _ 32).bind fun p hp => ?_
  obtain ⟨b2, s2⟩ := p
  obtain ⟨hb2, hl2, rfl⟩ := fill_ok hp
  simp only [ISegd.at] at hb2 ⊢
  rw [readRevision_uses _ hl2, ok_bind]
  refine .ite (fun _ => ?_) fun hrev => ?_
  · unfold readGeneral2
    refine ((readGenHdr2_uses _).defined (by omega)).bind fun _ _ => ?_
    exact defined_readBlks _ _ fun k _ b m _ hl => defined_readRev2Blk hl m
  · unfold readGeneral3
    obtain ⟨g2, r2, e2, he⟩ := readGenHdr2R3_uses _ hl2
    rw [e2, ok_bind]
    refine (defined_fill _ 32).bind fun p hp => ?_
    obtain ⟨b3, s3⟩ := p
    obtain ⟨hb3, hl3, rfl⟩ := fill_ok hp
    simp only [ISegd.at]
    refine (readGenHdr3_uses.defined (by omega)).bind fun g3 _ => ?_
    refine defined_readBlks _ _ fun k hk b m hb' hl => defined_readRev3Blk hl ?_ m
    rw [getElem?_block hb' (by decide)]
    simp only
    rcases h with h | h
    · exfalso
      rw [getElem?_block hb2 (by decide)] at hrev
      exact hrev (by simpa [Nat.add_assoc] using h)
    · have := h k (by
        refine Nat.lt_of_lt_of_eq hk ?_
        unfold blocksBehind3 addBlksNum toU
        simp only
        rw [ha, he, getElem?_block hb (by decide), getElem?_block hb2 (by decide),
          getElem?_block hb2 (by decide)]
        simp only [Nat.add_assoc, Nat.reduceAdd]
        have := ((s.file.data[s.file.pos + 11]?).getD 0).isLt
        have := ((s.file.data[s.file.pos + 50]?).getD 0).isLt
        have := ((s.file.data[s.file.pos + 51]?).getD 0).isLt
        split <;> split <;> omega)
      rw [show s.file.pos + 32 + 32 + 32 + 32 * k + 31 = s.file.pos + 96 + 32 * k + 31 by omega]
      exact this

theorem defined_readChSetHdr (s : ISegd) : Defined (readChSetHdr s) := by
  unfold readChSetHdr
  refine (defined_fill s _).bind fun p hp => ?_
  obtain ⟨b, s1⟩ := p
  obtain ⟨-, hl, rfl⟩ := fill_ok hp
  refine Defined.bind ?_ fun _ _ => defined_ok _
  have : (s.at (s.file.pos + if s.rev3 = true then 96 else 32)).rev3 = s.rev3 := rfl
  simp only [this]
  split at hl
  · rw [if_pos ‹_›]; exact readChSetR3_uses.defined (by omega)
  · rw [if_neg ‹_›]; exact readChSet_uses.defined (by omega)

theorem defined_readChSets (n : Nat) (s : ISegd) : Defined (readChSets n s) := by
  induction n generalizing s with
  | zero => exact defined_ok _
  | succ n ih =>
    exact (defined_readChSetHdr s).bind fun _ _ => (ih _).bind fun _ _ => defined_ok _

theorem defined_readScanTypes (n : Nat) (s : ISegd) : Defined (readScanTypes n s) := by
  induction n generalizing s with
  | zero => exact defined_ok _
  | succ n ih =>
    exact (defined_readChSets _ s).bind fun _ _ =>
      Defined.bind ((defined_seekCur _ _).bind fun _ _ => defined_ok _) fun _ _ => ih _

theorem defined_readBlocks32 (n : Nat) (s : ISegd) : Defined (readBlocks32 n s) := by
  induction n generalizing s with
  | zero => exact defined_ok _
  | succ n ih => exact (defined_fill s 32).bind fun _ _ => (ih _).bind fun _ _ => defined_ok _

theorem defined_segdReader (f : Int) : Defined (segdReader f) := by
  unfold segdReader
  split <;> first | exact defined_ok _ | exact defined_exn _

theorem defined_readHeaders (s : ISegd) (h : NoSensorBlock s.file.data s.file.pos) :
    Defined (readHeaders s) := by
  unfold readHeaders
  exact (defined_readGeneral s h).bind fun _ _ => (defined_segdReader _).bind fun _ _ =>
    (defined_readScanTypes _ _).bind fun _ _ => (defined_readBlocks32 _ _).bind fun _ _ =>
    (defined_readBlocks32 _ _).bind fun _ _ => defined_ok _

/-! ## Traces -/

theorem uses_rdBcdV (num k c : Nat) (h0 : 0 < k) (hk : num ≤ 2 * k) (hc : num / 2 = c) :
    Uses (rdBcdV num) k c := (uses_bcd false num k c h0 (by simpa using hk) (by simpa using hc)).map _
theorem uses_rdFix24 : Uses rdFix24 3 3 := uses_readU24.map _
theorem uses_rdFix8 : Uses rdFix8 1 1 := uses_readU8.map _

theorem readTraceHdrD_uses {s : Bytes} (h : s.length = 20) :
    ∃ hd r, readTraceHdrD s = .ok (hd, r) ∧
      hd.get "TR_HDR_EXT" = some (.int (((s[9]?).getD 0).toNat : Int)) := by
  unfold readTraceHdrD
  obtain ⟨v1, h1⟩ := uses_rdBcdV 4 2 2 (by decide) (by decide) (by decide) s (by omega)
  rw [rd_step h1]
  obtain ⟨v2, h1⟩ := uses_rdBcdV 2 1 1 (by decide) (by decide) (by decide) (s.drop 2) (by simp; omega)
  rw [rd_step h1, List.drop_drop]
  obtain ⟨v3, h1⟩ := uses_rdBcdV 2 1 1 (by decide) (by decide) (by decide) (s.drop 3) (by simp; omega)
  rw [rd_step h1, List.drop_drop]
  obtain ⟨v4, h1⟩ := uses_rdBcdV 4 2 2 (by decide) (by decide) (by decide) (s.drop 4) (by simp; omega)
  rw [rd_step h1, List.drop_drop]
  obtain ⟨v5, h1⟩ := uses_rdFix24 (s.drop 6) (by simp; omega)
  rw [rd_step h1, List.drop_drop]
  simp only [Nat.reduceAdd]
  rw [rd_step (readU8_drop (i := 9) (by omega))]
  refine UsesC.exists (n := 10) (c := 10) (s := s.drop 10)
    (P := fun hd : Header => hd.get "TR_HDR_EXT" = some (.int (((s[9]?).getD 0).toNat : Int))) ?_ (by simp; omega)
  refine UsesC.step uses_rdFix8 (by decide) fun _ => ?_
  refine UsesC.step uses_readU8 (by decide) fun _ => ?_
  refine UsesC.step uses_rdFix24 (by decide) fun _ => ?_
  refine UsesC.step uses_readU16 (by decide) fun a => ?_
  refine UsesC.step uses_readU24 (by decide) fun b => ?_
  refine usesC_pure _ ?_
  unfold setNonzero
  split <;> split <;> simp [setAll, Header.set, Header.get]

theorem uses_rdExtIdx (rev : Int) (h : Header) : Uses (rdExtIdx rev h) 3 3 := by
  unfold rdExtIdx
  split
  · exact uses_readU24.map _
  · exact uses_readU8.step (by decide) fun _ => uses_readU8.step (by decide) fun _ => uses_readU8.map _

theorem uses_rdLinePart : Uses rdLinePart 5 5 := uses_readU24.step (by decide) fun _ => uses_readU16.map _

theorem rdExtLines_uses (rev : Int) (h : Header) : ∃ c ≤ 11, Uses (rdExtLines rev h) 11 c := by
  unfold rdExtLines
  split
  · exact ⟨11, by decide, uses_rdLinePart.step (by decide) fun _ => uses_rdLinePart.step (by decide) fun _ =>
      uses_readU8.map _⟩
  · exact ⟨0, by decide, uses_pure _ _⟩

theorem defined_rdTraceNumber (h : Header) (n : Nat) (s : Bytes) : Defined (rdTraceNumber h n s) ∧
    ∀ a s', rdTraceNumber h n s = .ok (a, s') → s' = s := by
  unfold rdTraceNumber
  split
  · exact ⟨defined_ok _, fun a s' e => by cases e; rfl⟩
  · exact ⟨defined_exn _, fun a s' e => by cases e⟩

theorem defined_rdExtRev3 (rev : Int) (h : Header) {s : Bytes} (hs : 10 ≤ s.length) :
    Defined (rdExtRev3 rev h s) := by
  unfold rdExtRev3
  split
  · obtain ⟨v, e⟩ := uses_readU24 s (by omega)
    rw [rd_step e, rd_bind]
    refine (defined_rdTraceNumber h v _).1.bind fun p hp => ?_
    obtain ⟨h', s'⟩ := p
    have := (defined_rdTraceNumber h v _).2 h' s' hp
    subst this
    refine Uses.defined (n := 7) (c := 7) ?_ (by simp; omega)
    exact uses_readU32.step (by decide) fun _ => uses_readU8.step (by decide) fun _ =>
      (uses_skip 1).step (by decide) fun _ => uses_readU8.map _
  · exact defined_ok _

theorem defined_rdExtStd (rev : Int) (h : Header) {s : Bytes} (hs : s.length = 32) :
    Defined (rdExtStd rev h s) := by
  unfold rdExtStd
  obtain ⟨v, e⟩ := uses_readU24 s (by omega)
  rw [rd_step e]
  obtain ⟨v, e⟩ := uses_readU24 (s.drop 3) (by simp; omega)
  rw [rd_step e]
  obtain ⟨v, e⟩ := uses_readU8 ((s.drop 3).drop 3) (by simp; omega)
  rw [rd_step e]
  obtain ⟨v, e⟩ := uses_rdExtIdx rev _ (((s.drop 3).drop 3).drop 1) (by simp; omega)
  rw [rd_step e]
  obtain ⟨c, hc, hu⟩ := rdExtLines_uses rev v
  obtain ⟨v, e⟩ := hu ((((s.drop 3).drop 3).drop 1).drop 3) (by simp; omega)
  rw [rd_step e]
  exact defined_rdExtRev3 _ _ (by simp; omega)

theorem defined_readExtFields {buf : Bytes} (hb : buf.length = 32) (fs : List HField) (p : Nat) (acc : Header)
    (hf : ∀ f ∈ fs, f.off + f.ty.size ≤ 32) (hp : p + 8 * fs.countP (·.ty = .u64) ≤ 32) :
    Defined (readExtFields buf fs p acc) := by
  induction fs generalizing p acc with
  | nil => exact defined_ok _
  | cons f t ih =>
    have ht : ∀ g ∈ t, g.off + g.ty.size ≤ 32 := fun g hg => hf g (by simp [hg])
    unfold readExtFields
    rw [List.countP_cons] at hp
    split
    · rename_i h64
      rw [if_pos (by simp [h64])] at hp
      exact (defined_readAt (needs_readField .be .u64) (by simp only [VType.size]; omega)).bind fun _ _ =>
        ih _ _ ht (by omega)
    · exact (defined_readAt (needs_readField .be f.ty) (by rw [hb]; exact hf f (by simp))).bind fun _ _ =>
        ih _ _ ht (by split at hp <;> omega)

theorem defined_readExtLoop (rev : Int) {m : ExtMap} (hm : ExtMapSafe m) (n i : Nat) (h : Header) (s : Bytes)
    (hn : m = [] ∨ n + i ≤ m.length) : Defined (readExtLoop rev m n i h s) := by
  induction n generalizing i h s with
  | zero => exact defined_ok _
  | succ n ih =>
    unfold readExtLoop
    have hr : Defined (rdFile 32 s) := by
      unfold rdFile
      exact .ite (fun _ => defined_ok _) fun _ => defined_exn _
    refine hr.bind fun p hp => ?_
    obtain ⟨buf, s'⟩ := p
    have hl : buf.length = 32 := by
      unfold rdFile at hp
      split at hp
      · cases hp; simp; omega
      · cases hp
    refine Defined.bind ?_ fun _ _ => ih _ _ _ (hn.imp_right fun h => by omega)
    unfold readExtBlock
    split
    · refine .ite (fun _ => ?_) fun _ => defined_ok _
      exact (defined_rdExtStd rev h hl).bind fun _ _ => defined_ok _
    · rename_i hne
      rcases hn with rfl | hn
      · simp at hne
      · have hi : i < m.length := by omega
        rw [List.getElem?_eq_getElem hi]
        obtain ⟨h1, h2⟩ := hm _ (List.getElem_mem hi)
        exact defined_readExtFields hl _ _ _ h1 (by omega)

theorem defined_onRest {α : Type} (s : ISegd) (r : Rd α) (h : Defined (r (s.file.data.drop s.file.pos))) :
    Defined (s.onRest r) := by
  unfold ISegd.onRest
  exact h.bind fun _ _ => defined_ok _

theorem defined_subscript {α : Type} {xs : List α} {v : Value} {i : Int} {a : α} (hv : v = .int i)
    (h1 : 1 ≤ i) (hx : xs[(i - 1).toNat]? = some a) : subscript xs v = .ok a := by
  subst hv
  unfold subscript
  simp only
  rw [if_neg (by omega), hx]

/-- A value that is not zero was stored: the subscript does not change the header. -/
theorem at_set {h : Header} {k : String} {i : Int} (hv : (Header.at h k).1 = .int i) (h1 : 1 ≤ i) :
    (Header.at h k).2 = h := by
  unfold Header.at at *
  cases hg : h.get k with
  | some v => rfl
  | none =>
    rw [hg] at hv
    simp only [Value.int.injEq] at hv
    omega

theorem chSetOf_refers {s : ISegd} {h : Header} {i j : Int} {c : ChSet} (hr : Refers s h i j c) :
    s.chSetOf h = .ok (c, h) := by
  obtain ⟨h1, h2, hi, hj, sets, e1, e2⟩ := hr
  unfold ISegd.chSetOf
  rw [defined_subscript h1 hi e1, ok_bind]
  simp only [at_set h1 hi]
  rw [defined_subscript h2 hj e2, ok_bind, at_set h2 hj]
  rfl

theorem defined_sampNumD (c : ChSet) (h : Header) : Defined (sampNumD c h) := by
  unfold sampNumD
  split
  · exact defined_ok _
  · exact defined_exn _
  · split <;> exact defined_ok _

theorem uses_single (bo : ByteOrder) : Uses (readIeeeFloat bo) 4 4 := by
  cases bo
  · exact (uses_readU 4).map _
  · exact uses_readU32.map _

theorem uses_double (bo : ByteOrder) : Uses (readIeeeDouble bo) 8 8 := by
  cases bo
  · exact (uses_readU 8).map _
  · exact uses_readU64.map _

theorem uses_9036 : Uses read9036 3 3 := (uses_readU 2).step (by decide) fun _ => (uses_readU 1).map _

theorem uses_8022 : Uses read8022 1 0 := by
  intro s hs
  match s, hs with
  | b :: t, _ => exact ⟨_, rfl⟩

theorem uses_8042 : Uses read8042 1 0 := by
  intro s hs
  match s, hs with
  | b :: t, _ => exact ⟨_, rfl⟩

theorem plain_reader {f : Int} {bits : Nat} (h : (f, bits) ∈ plainFormats) :
    ∃ r w c, segdReader f = .ok (bits, r) ∧ bits = 8 * w ∧ c ≤ w ∧ Uses r w c := by
  simp only [plainFormats, List.mem_cons, Prod.mk.injEq, List.not_mem_nil, or_false] at h
  rcases h with ⟨rfl, rfl⟩ | ⟨rfl, rfl⟩ | ⟨rfl, rfl⟩ | ⟨rfl, rfl⟩ | ⟨rfl, rfl⟩ | ⟨rfl, rfl⟩ | ⟨rfl, rfl⟩ |
    ⟨rfl, rfl⟩ | ⟨rfl, rfl⟩ | ⟨rfl, rfl⟩
  · exact ⟨_, 1, 0, rfl, rfl, by decide, uses_8022⟩
  · exact ⟨_, 3, 3, rfl, rfl, by decide, uses_readI24.map _⟩
  · exact ⟨_, 4, 4, rfl, rfl, by decide, uses_readI32.map _⟩
  · exact ⟨_, 1, 0, rfl, rfl, by decide, uses_8042⟩
  · exact ⟨_, 4, 4, rfl, rfl, by decide, uses_single _⟩
  · exact ⟨_, 8, 8, rfl, rfl, by decide, uses_double _⟩
  · exact ⟨_, 3, 3, rfl, rfl, by decide, uses_9036⟩
  · exact ⟨_, 4, 4, rfl, rfl, by decide, (uses_readS 4).map _⟩
  · exact ⟨_, 4, 4, rfl, rfl, by decide, uses_single _⟩
  · exact ⟨_, 8, 8, rfl, rfl, by decide, uses_double _⟩

theorem uses_rdSamples {r : Rd Dbl} {w c : Nat} (hr : Uses r w c) (hc : c ≤ w) (d : Dbl) (n : Nat) :
    Uses (rdSamples r d n) (n * w) (n * c) := by
  induction n with
  | zero => rw [Nat.zero_mul, Nat.zero_mul]; exact uses_pure _ _
  | succ n ih =>
    unfold rdSamples
    have h1 : (n + 1) * w = n * w + w := Nat.succ_mul n w
    have h2 : (n + 1) * c = n * c + c := Nat.succ_mul n c
    have h3 : n * c ≤ n * w := Nat.mul_le_mul_left n hc
    refine hr.step ⟨by omega, by omega⟩ fun _ => ?_
    rw [show (n + 1) * c - c = n * c by omega]
    exact (ih.map _).mono (by omega)

theorem defined_readSamplesD {f : Int} {bits : Nat} (h : (f, bits) ∈ plainFormats) (d : Dbl) {n : Nat}
    (hn : n * bits < 2 ^ 32) (s : Bytes) : Defined (readSamplesD f d n s) := by
  obtain ⟨r, w, c, hr, rfl, hc, hu⟩ := plain_reader h
  unfold readSamplesD
  rw [hr, ok_bind]
  simp only
  rw [Nat.mod_eq_of_lt hn, show n * (8 * w) / 8 = n * w by
    rw [← Nat.mul_assoc, Nat.mul_comm n 8, Nat.mul_assoc, Nat.mul_div_cancel_left _ (by decide)]]
  by_cases hl : n * w ≤ s.length
  · rw [if_pos hl]
    exact ((uses_rdSamples hu hc d n).defined (by simp; omega)).bind fun _ _ => defined_ok _
  · rw [if_neg hl]
    exact defined_exn _

end Sedaman
