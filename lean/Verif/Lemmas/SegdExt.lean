import Verif.Lemmas.SegdTrace
import Verif.Lemmas.SampleFmt
import Verif.Spec.SegdExt

/-!
# Lemmas about SEG-D trace header extensions
-/

namespace Sedaman

open Spec

theorem extFieldBytes_length {est : LogEst} {ty : VType} {v : Value} {bs : Bytes}
    (h : extFieldBytes est ty v = .ok bs) : bs.length = ty.size := by
  cases v with
  | int a =>
    cases ty
    case ibm => cases h
    case ieeeSingle => cases h
    case ieeeDouble => cases h
    all_goals exact fieldBytes_length (est := est) (bo := .be) (v := a) h
  | dbl d =>
    cases ty
    case ibm =>
      simp only [extFieldBytes, writeIbm] at h
      cases e : ibmEncode est d with
      | error _ => rw [e] at h; cases h
      | ok a =>
        rw [e, ok_bind] at h
        have := Except.ok.inj h
        rw [← this, writeU32_eq, encInt_length]; rfl
    case ieeeSingle =>
      simp only [extFieldBytes, Except.ok.injEq] at h
      rw [← h, writeIeeeFloat, writeU32_eq, encInt_length]; rfl
    case ieeeDouble =>
      simp only [extFieldBytes, Except.ok.injEq] at h
      rw [← h, writeIeeeDouble, writeU64_eq, encInt_length]; rfl
    all_goals cases h

/-- A value that fits is written, and its bytes are read back. -/
theorem ext_field_rt {est : LogEst} {hdr : Header} {f : HField} (h : ExtFits est hdr f) :
    ∃ v bs w, hdr.get f.name = some v ∧ extFieldBytes est f.ty v = .ok bs ∧ ExtBack f.ty v w ∧
      ∀ rest, readField .be f.ty (bs ++ rest) = .ok (w, rest) := by
  unfold ExtFits at h
  cases hk : intKind f.ty with
  | some k =>
    rw [hk] at h
    obtain ⟨a, ha⟩ := h
    obtain ⟨r, h1, h2, h3⟩ := int_field_rt est .be f.ty k hk a
    refine ⟨.int a, _, .int r, ha, ?_, ?_, h3⟩
    · rw [← h2]
      revert hk
      cases f.ty <;> intro hk <;> first | rfl | cases hk
    · unfold ExtBack
      rw [hk]
      exact ⟨r, h1, rfl⟩
  | none =>
    rw [hk] at h
    obtain ⟨d, hd, hs⟩ := h
    have hb : ExtBack f.ty (.dbl d) (.dbl d) := by unfold ExtBack; rw [hk]
    revert hk hs hb
    cases f.ty <;> intro hk hs hb <;> first | cases hk | skip
    · obtain ⟨w, r, bs, h1, h2, h3, h4⟩ := hs
      cases h1; cases h2
      refine ⟨_, bs, _, hd, h3, hb, fun rest => ?_⟩
      have h4 := h4 rest
      simp only [readField, rd_bind] at h4 ⊢
      rw [h4, ok_bind, rd_pure]
    · obtain ⟨w, r, bs, h1, h2, h3, h4⟩ := hs
      cases h1; cases h2
      refine ⟨_, bs, _, hd, h3, hb, fun rest => ?_⟩
      have h4 := h4 rest
      simp only [readField, rd_bind] at h4 ⊢
      rw [h4, ok_bind, rd_pure]
    · refine ⟨_, _, _, hd, rfl, hb, fun rest => ?_⟩
      have h4 := ieee_double_rt .be d rest
      simp only [readField, rd_bind] at h4 ⊢
      rw [h4, ok_bind, rd_pure]

/-- What the field writer stores: every field has its bytes, everything else is unchanged. -/
theorem writeExtFields_spec {est : LogEst} {hdr : Header} {fs : List HField} {buf : Bytes}
    (hd : fs.Pairwise fun a b => a.off + a.ty.size ≤ b.off ∨ b.off + b.ty.size ≤ a.off)
    (hb : ∀ f ∈ fs, f.off + f.ty.size ≤ buf.length)
    (bytes : HField → Bytes)
    (hv : ∀ f ∈ fs, ∃ v, hdr.get f.name = some v ∧ extFieldBytes est f.ty v = .ok (bytes f)) :
    ∃ out, writeExtFields est hdr fs buf = .ok out ∧ out.length = buf.length ∧
      (∀ f ∈ fs, (out.drop f.off).take f.ty.size = bytes f) ∧
      (∀ i, ¬ Covered fs i → out[i]? = buf[i]?) := by
  induction fs generalizing buf with
  | nil => exact ⟨buf, rfl, rfl, by simp, fun _ _ => rfl⟩
  | cons f t ih =>
    rw [List.pairwise_cons] at hd
    obtain ⟨v, hg, hbs⟩ := hv f List.mem_cons_self
    have hl := extFieldBytes_length hbs
    have hbf := hb f List.mem_cons_self
    have hw := writeAt_of_le (buf := buf) (bs := bytes f) (off := f.off) (by omega)
    have hlen := writeAt_length hw
    obtain ⟨out, h1, h2, h3, h4⟩ := ih hd.2
      (fun g hg => by rw [hlen]; exact hb g (List.mem_cons_of_mem _ hg))
      (fun g hg => hv g (List.mem_cons_of_mem _ hg))
    refine ⟨out, ?_, by omega, ?_, ?_⟩
    · simp only [writeExtFields, hg, hbs, ok_bind, hw]
      exact h1
    · intro g hg
      rw [List.mem_cons] at hg
      rcases hg with rfl | hg
      · rw [slice_ext (b := _) (fun i hi1 hi2 => h4 i ?_), ← hl]
        · exact writeAt_slice hw
        · rintro ⟨g', hg', hc⟩
          rcases hd.1 g' hg' with h' | h' <;> omega
      · exact h3 g hg
    · intro i hi
      have n1 : ¬ Covered t i := fun ⟨g, hg, hc⟩ => hi ⟨g, List.mem_cons_of_mem _ hg, hc⟩
      have n2 : ¬ (f.off ≤ i ∧ i < f.off + f.ty.size) := fun hc => hi ⟨f, List.mem_cons_self, hc⟩
      rw [h4 i n1]
      exact writeAt_get_out hw i (by omega)

theorem readExtFields_eq {fs : List HField} (h : ∀ f ∈ fs, f.ty ≠ .u64) (buf : Bytes) (p : Nat)
    (acc : Header) : readExtFields buf fs p acc = readFields .be fs buf acc := by
  induction fs generalizing acc with
  | nil => rfl
  | cons f t ih =>
    unfold readExtFields readFields
    rw [if_neg (h f List.mem_cons_self)]
    cases readAt buf f.off (readField .be f.ty) with
    | error e => rfl
    | ok v =>
      rw [ok_bind, ok_bind]
      exact ih (fun g hg => h g (List.mem_cons_of_mem _ hg)) _

theorem find_nodup {fs : List HField} (h : (fs.map (·.name)).Nodup) {f : HField} (hf : f ∈ fs) :
    fs.reverse.find? (fun g => g.name = f.name) = some f := by
  induction fs with
  | nil => cases hf
  | cons g t ih =>
    rw [List.map_cons, List.nodup_cons] at h
    rw [List.reverse_cons, List.find?_append]
    rw [List.mem_cons] at hf
    rcases hf with rfl | hf
    · have : t.reverse.find? (fun g => g.name = f.name) = none := by
        rw [List.find?_eq_none]
        intro x hx
        simp only [decide_eq_true_eq]
        intro hn
        exact h.1 (List.mem_map.mpr ⟨x, List.mem_reverse.mp hx, hn⟩)
      rw [this]; simp
    · rw [ih h.2 hf]; rfl

theorem find_notin {fs : List HField} {n : String} (h : n ∉ fs.map (·.name)) :
    fs.reverse.find? (fun g => g.name = n) = none := by
  rw [List.find?_eq_none]
  intro x hx
  simp only [decide_eq_true_eq]
  intro hn
  exact h (List.mem_map.mpr ⟨x, List.mem_reverse.mp hx, hn⟩)

/-- One block with a map. -/
theorem ext_block_rt {est : LogEst} {room : Nat} (hroom : 32 ≤ room) (rev : Int) {m : ExtMap}
    {hdr : Header} {i : Nat} {fs : List HField} (hm : m[i]? = some fs) (hs : SafeExt fs)
    (hu : ∀ f ∈ fs, f.ty ≠ .u64) (hn : (fs.map (·.name)).Nodup)
    (hf : ∀ f ∈ fs, ExtFits est hdr f) :
    ∃ blk, writeExtBlock est room rev m hdr i = .ok blk ∧ blk.length = 32 ∧
      ∀ acc, ∃ h, readExtBlock rev m blk acc i = .ok h ∧
        (∀ f ∈ fs, ∃ v w, hdr.get f.name = some v ∧ h.get f.name = some w ∧ ExtBack f.ty v w) ∧
        ∀ n, n ∉ fs.map (·.name) → h.get n = acc.get n := by
  have hne : m.isEmpty = false := by
    cases m with
    | nil => simp at hm
    | cons => rfl
  haveI : Nonempty Value := ⟨.int 0⟩
  choose! v bs w c1 c2 c3 c4 using fun f hf' => ext_field_rt (hf f hf')
  have hlen : (List.replicate room (0 : Byte)).length = room := List.length_replicate
  obtain ⟨out, h1, h2, h3, _⟩ := writeExtFields_spec (buf := List.replicate room 0) hs.2
    (fun f hf' => by have := hs.1 f hf'; omega) bs (fun f hf' => ⟨v f, c1 f hf', c2 f hf'⟩)
  refine ⟨out.take 32, ?_, by rw [List.length_take]; omega, fun acc => ?_⟩
  · unfold writeExtBlock
    rw [if_pos hroom, hne, hm]
    simp only [Bool.false_eq_true, if_false, h1, ok_bind, pure_eq_ok]
  · have hr : ∀ f ∈ fs, readAt (out.take 32) f.off (readField .be f.ty) = .ok (w f) := by
      intro f hf'
      have hb := hs.1 f hf'
      refine readAt_slice _ _ f.ty.size _ (bs f) _ (by rw [List.length_take]; omega) ?_ (c4 f hf')
      rw [← h3 f hf']
      apply slice_ext
      intro j hj1 hj2
      rw [List.getElem?_take, if_pos (by omega)]
    obtain ⟨h, e1, e2⟩ := readFields_spec .be fs (out.take 32) acc w hr
    refine ⟨h, ?_, ?_, ?_⟩
    · unfold readExtBlock
      rw [hne, hm]
      simp only [Bool.false_eq_true, if_false]
      rw [readExtFields_eq hu]
      exact e1
    · intro f hf'
      refine ⟨v f, w f, c1 f hf', ?_, c3 f hf'⟩
      rw [e2, find_nodup hn hf']
    · intro n hn'
      rw [e2, find_notin hn']

theorem rdFile_append {a b : Bytes} {n : Nat} (h : a.length = n) : rdFile n (a ++ b) = .ok (a, b) := by
  unfold rdFile
  rw [if_pos (by simp; omega), List.take_left' h, List.drop_left' h]

/-- All blocks with maps. -/
theorem ext_loop_rt {est : LogEst} {room : Nat} (hroom : 32 ≤ room) (rev : Int) {m : ExtMap}
    {hdr : Header} (n i : Nat) (hin : i + n ≤ m.length)
    (hs : ∀ fs ∈ (m.drop i).take n, SafeExt fs)
    (hu : ∀ fs ∈ (m.drop i).take n, ∀ f ∈ fs, f.ty ≠ .u64)
    (hn : (((m.drop i).take n).flatten.map (·.name)).Nodup)
    (hf : ∀ fs ∈ (m.drop i).take n, ∀ f ∈ fs, ExtFits est hdr f) :
    ∃ out, writeExtLoop est room rev m hdr n i = .ok out ∧ out.length = 32 * n ∧
      ∀ acc rest, ∃ h, readExtLoop rev m n i acc (out ++ rest) = .ok (h, rest) ∧
        (∀ f ∈ ((m.drop i).take n).flatten,
          ∃ v w, hdr.get f.name = some v ∧ h.get f.name = some w ∧ ExtBack f.ty v w) ∧
        ∀ k, k ∉ ((m.drop i).take n).flatten.map (·.name) → h.get k = acc.get k := by
  induction n generalizing i with
  | zero =>
    refine ⟨[], rfl, rfl, fun acc rest => ⟨acc, rfl, by simp, fun _ _ => rfl⟩⟩
  | succ n ih =>
    have hi : i < m.length := by omega
    have hsplit : (m.drop i).take (n + 1) = m[i] :: (m.drop (i + 1)).take n := by
      rw [List.drop_eq_getElem_cons hi, List.take_succ_cons]
    rw [hsplit] at hs hu hn hf ⊢
    rw [List.flatten_cons, List.map_append, List.nodup_append] at hn
    obtain ⟨out, o1, o2, o3⟩ := ih (i + 1) (by omega)
      (fun fs h => hs fs (List.mem_cons_of_mem _ h)) (fun fs h => hu fs (List.mem_cons_of_mem _ h))
      hn.2.1 (fun fs h => hf fs (List.mem_cons_of_mem _ h))
    obtain ⟨blk, b1, b2, b3⟩ := ext_block_rt hroom rev (m := m) (i := i)
      (List.getElem?_eq_getElem hi) (hs _ List.mem_cons_self) (hu _ List.mem_cons_self) hn.1
      (hf _ List.mem_cons_self)
    refine ⟨blk ++ out, ?_, by rw [List.length_append]; omega, fun acc rest => ?_⟩
    · simp only [writeExtLoop, b1, o1, ok_bind, pure_eq_ok]
    · obtain ⟨h, e1, e2, e3⟩ := b3 acc
      obtain ⟨h', g1, g2, g3⟩ := o3 h rest
      refine ⟨h', ?_, ?_, ?_⟩
      · simp only [readExtLoop, List.append_assoc, rdFile_append b2, ok_bind, e1]
        exact g1
      · intro f hf'
        rw [List.flatten_cons, List.mem_append] at hf'
        rcases hf' with hf' | hf'
        · obtain ⟨v, w, a1, a2, a3⟩ := e2 f hf'
          refine ⟨v, w, a1, ?_, a3⟩
          rw [g3, a2]
          intro hc
          exact hn.2.2 _ (List.mem_map.mpr ⟨f, hf', rfl⟩) _ hc rfl
        · exact g2 f hf'
      · intro k hk
        rw [List.flatten_cons, List.map_append, List.mem_append, not_or] at hk
        rw [g3 k hk.2, e3 k hk.1]

/-! ## The standard first extension -/

theorem dyadic_mul {i : Nat} (h : i < 2 ^ 32) : dblOfInt (i : Int) = dyadic (i * 2 ^ 16) 16 := by
  have := (hasVal_ofNat (m := i) (by omega)).congr (n := i * 2 ^ 16) (g := -16) (by
    push_cast; rw [zpow_neg]; norm_num; ring)
  exact this.eq

theorem dyadic_toS8 {k : Nat} (hk : k < 2 ^ 48) :
    dblToS 8 (dyadic k 16) = .ok ((k / 2 ^ 16 : Nat) : Int) := by
  have hv := hasVal_toDbl (s := false) (m := k) (e := -16) (by omega) (by decide) (by decide)
  have hdiv := Nat.div_add_mod k (2 ^ 16)
  have hmod := Nat.mod_lt k (show 0 < 2 ^ 16 by decide)
  have e : (2 : ℚ) ^ (-16 : Int) = 1 / 65536 := by norm_num
  refine dblToInt_nonneg hv ?_ ?_ (by norm_num; omega) ?_
  · rw [e]
    have : ((2 ^ 16 * (k / 2 ^ 16) : Nat) : ℚ) ≤ (k : ℚ) := by exact_mod_cast (by omega)
    push_cast at this ⊢
    linarith
  · rw [e]
    have : ((k : Nat) : ℚ) < ((2 ^ 16 * (k / 2 ^ 16) + 2 ^ 16 : Nat) : ℚ) := by exact_mod_cast (by omega)
    push_cast at this ⊢
    linarith
  · have : k / 2 ^ 16 < 2 ^ 32 := by omega
    norm_num
    omega

theorem lineOf_fix16 {hdr : Header} {n : String} {k : Nat} (h : headerFix16 hdr n k)
    (hk : k < 2 ^ 48) : lineOf hdr n = .ok (dyadic k 16, ((k / 2 ^ 16 : Nat) : Int)) := by
  unfold lineOf
  rcases h with h | ⟨i, h, rfl⟩ | ⟨h, rfl⟩ <;> rw [h]
  · simp only [dyadic_toS8 hk, ok_bind, pure_eq_ok]
  · simp only [dyadic_mul (i := i) (by omega), Nat.mul_div_cancel i (show 0 < 2 ^ 16 by decide)]
  · rfl

theorem wrLinePart_ok {k n : Nat} (d : Bytes) (hk : k < 2 ^ 48) (hn : 5 ≤ n) :
    wrLinePart (dyadic k 16, ((k / 2 ^ 16 : Nat) : Int)) ⟨d, List.replicate n 0⟩
      = .ok ((), ⟨d ++ (encInt .be 3 (k / 2 ^ 16 : Nat) ++ encInt .be 2 (k % 2 ^ 16 : Nat)),
          List.replicate (n - 5) 0⟩) := by
  unfold wrLinePart
  rw [wr_bind, writeU24_eq, wrEnc _ (by omega), ok_bind, wr_bind, wrLift_ok (dyadic_frac hk), ok_bind,
    writeU16_eq, wrEnc _ (by omega), List.append_assoc, Nat.sub_sub]

theorem wrDblU24_dyadic {k n : Nat} (d : Bytes) (hk : k < 2 ^ 48) (hn : 3 ≤ n) :
    wrDblU24 (dyadic k 16) ⟨d, List.replicate n 0⟩
      = .ok ((), ⟨d ++ encInt .be 3 (k / 2 ^ 16 : Nat), List.replicate (n - 3) 0⟩) := by
  unfold wrDblU24
  rw [wr_bind, wrLift_ok (dyadic_int hk), ok_bind, writeU24_eq, wrEnc _ hn]

theorem wrByteOf_ok {hdr : Header} {name : String} {v : Int} {n : Nat} (d : Bytes)
    (h : headerInt hdr name v) (hn : 1 ≤ n) :
    wrByteOf hdr name ⟨d, List.replicate n 0⟩
      = .ok ((), ⟨d ++ encInt .be 1 v, List.replicate (n - 1) 0⟩) := by
  unfold wrByteOf
  rw [wr_bind, wrLift_ok (intOf_headerInt h), ok_bind, chr_eq, wrEnc _ hn]

/-- The standard first extension of a revision 2 file. -/
def extStdBytes (line point idx samp sensor : Nat) : Bytes :=
  encInt .be 3 (line / 2 ^ 16 : Nat) ++ (encInt .be 3 (point / 2 ^ 16 : Nat) ++ (encInt .be 1 idx ++
  (encInt .be 3 samp ++ (encInt .be 3 (line / 2 ^ 16 : Nat) ++ (encInt .be 2 (line % 2 ^ 16 : Nat) ++
  (encInt .be 3 (point / 2 ^ 16 : Nat) ++ (encInt .be 2 (point % 2 ^ 16 : Nat) ++
  (encInt .be 1 sensor ++ List.replicate 11 0))))))))

theorem extStdBytes_length (a b c d e : Nat) : (extStdBytes a b c d e).length = 32 := by
  simp [extStdBytes]

theorem wrExtStd_eq {hdr : Header} {line point idx samp sensor : Nat}
    (h1 : headerFix16 hdr "R_LINE" line) (h2 : headerFix16 hdr "R_POINT" point)
    (h3 : headerInt hdr "R_POINT_IDX" idx) (h4 : headerInt hdr "SAMP_NUM" samp)
    (h5 : headerInt hdr "SENSOR_TYPE" sensor) (l1 : line < 2 ^ 48) (l2 : point < 2 ^ 48) :
    wrBlock 32 (wrExtStd 2 hdr) = .ok (extStdBytes line point idx samp sensor) := by
  unfold wrBlock wrExtStd wrExtIdx wrExtLines wrExtRev3
  simp only [show (2 : Int) > 1 from by decide, show ¬ (2 : Int) > 2 from by decide, if_true, if_false]
  rw [wr_bind, wrLift_ok (lineOf_fix16 h1 l1), ok_bind]
  rw [wr_bind, wrDblU24_dyadic _ l1 (by decide), ok_bind]
  rw [wr_bind, wrLift_ok (lineOf_fix16 h2 l2), ok_bind]
  rw [wr_bind, wrDblU24_dyadic _ l2 (by decide), ok_bind]
  rw [wr_bind, wrByteOf_ok _ h3 (by decide), ok_bind]
  rw [wr_bind, wr_bind, wrLift_ok (intOf_headerInt h4), ok_bind, writeU24_eq,
    wrEnc _ (by decide), ok_bind]
  rw [wr_bind, wr_bind, wrLinePart_ok _ l1 (by decide), ok_bind]
  rw [wr_bind, wrLinePart_ok _ l2 (by decide), ok_bind]
  rw [wrByteOf_ok _ h5 (by decide), ok_bind]
  simp only [pure, StateT.pure, Except.pure, bind, Except.bind]
  simp [extStdBytes]

theorem rdLinePart_ok {k : Nat} (r : Bytes) (hk : k < 2 ^ 40) :
    rdLinePart (encInt .be 3 (k / 2 ^ 16 : Nat) ++ (encInt .be 2 (k % 2 ^ 16 : Nat) ++ r))
      = .ok (dyadic k 16, r) := by
  unfold rdLinePart
  rw [rd_bind, rdU24_enc, ok_bind, rd_bind, rdU16_enc, ok_bind, rd_pure]
  have e1 : toU 3 ((k / 2 ^ 16 : Nat) : Int) = k / 2 ^ 16 := toU_of_nat_lt (by omega)
  have e2 : toU 2 ((k % 2 ^ 16 : Nat) : Int) = k % 2 ^ 16 := toU_of_nat_lt (by omega)
  rw [e1, e2, dyadic_back (by omega)]

theorem dblNonzero_dyadic {k : Nat} (hk : k < 2 ^ 48) : dblNonzero (dyadic k 16) = decide (k ≠ 0) := by
  obtain ⟨m, e, h1, h2⟩ := hasVal_toDbl (s := false) (m := k) (e := -16) (by omega) (by decide)
    (by decide)
  unfold dblNonzero
  have : (dyadic k 16).val = .fin false m e := h1
  rw [this]
  simp only [decide_eq_decide, ne_eq]
  have p1 : (2 : ℚ) ^ e ≠ 0 := zpow_ne_zero _ (by norm_num)
  have p2 : (2 : ℚ) ^ (-16 : Int) ≠ 0 := zpow_ne_zero _ (by norm_num)
  constructor
  · rintro h rfl
    apply h
    have : (m : ℚ) * 2 ^ e = 0 := by rw [h2]; simp
    rcases mul_eq_zero.mp this with h | h
    · exact_mod_cast h
    · exact absurd h p1
  · rintro h rfl
    apply h
    have : (k : ℚ) * 2 ^ (-16 : Int) = 0 := by rw [← h2]; simp
    rcases mul_eq_zero.mp this with h | h
    · exact_mod_cast h
    · exact absurd h p2

theorem rdExtStd_eq (h : Header) (line point idx samp sensor : Nat) (l1 : line < 2 ^ 40)
    (l2 : point < 2 ^ 40) : ∃ h' r,
    rdExtStd 2 h (extStdBytes line point idx samp sensor) = .ok (h', r) ∧
      h'.get "R_LINE" = some (if line = 0 then .int 0 else .dbl (dyadic line 16)) ∧
      h'.get "R_POINT" = some (if point = 0 then .int 0 else .dbl (dyadic point 16)) ∧
      h'.get "R_POINT_IDX" = some (.int (idx % 2 ^ 8 : Nat)) ∧
      h'.get "SAMP_NUM" = some (.int (samp % 2 ^ 24 : Nat)) ∧
      h'.get "SENSOR_TYPE" = some (.int (sensor % 2 ^ 8 : Nat)) ∧
      ∀ n, n ∉ ["R_LINE", "R_POINT", "R_POINT_IDX", "SAMP_NUM", "SENSOR_TYPE"] →
        h'.get n = h.get n := by
  unfold rdExtStd extStdBytes rdExtIdx rdExtLines rdExtRev3
  rw [rd_bind, rdU24_enc, ok_bind, rd_bind, rdU24_enc, ok_bind, rd_bind, rdU8_enc, ok_bind]
  rw [if_pos (by decide), rd_bind, rd_bind, rdU24_enc, ok_bind, rd_pure, ok_bind]
  rw [if_pos (by decide), rd_bind, rd_bind, rdLinePart_ok _ l1, ok_bind, rd_bind, rdLinePart_ok _ l2,
    ok_bind, rd_bind, rdU8_enc, ok_bind, rd_pure, ok_bind, if_neg (by decide), rd_pure]
  refine ⟨_, _, rfl, ?_⟩
  have g : ∀ (h : Header) (n k : String) (x : Nat), x < 2 ^ 40 →
      (setDblNonzero h n (dyadic x 16)).get k
        = if n = k ∧ x ≠ 0 then some (.dbl (dyadic x 16)) else h.get k := by
    intro h n k x hx
    unfold setDblNonzero
    rw [dblNonzero_dyadic (by omega)]
    by_cases hz : x ≠ 0
    · rw [if_pos (decide_eq_true hz), get_set]
      by_cases hk : n = k
      · rw [if_pos hk, if_pos ⟨hk, hz⟩]
      · rw [if_neg hk, if_neg (fun c => hk c.1)]
    · rw [if_neg (by rw [decide_eq_false hz]; decide), if_neg (fun c => hz c.2)]
  simp only [get_set, g _ _ _ _ l1, g _ _ _ _ l2, setAll, toU_natCast]
  refine ⟨?_, ?_, ?_, ?_, ?_, ?_⟩
  · by_cases hz : line = 0
    · subst hz; simp
    · simp [hz]
  · by_cases hz : point = 0
    · subst hz; simp
    · simp [hz]
  · simp
  · simp
  · simp
  · intro n hn
    simp only [List.mem_cons, not_or, List.not_mem_nil, not_false_eq_true, and_true] at hn
    obtain ⟨n1, n2, n3, n4, n5⟩ := hn
    simp [Ne.symm n1, Ne.symm n2, Ne.symm n3, Ne.symm n4, Ne.symm n5]

end Sedaman

namespace Sedaman

/-- Blocks after the first when there is no map. -/
theorem ext_zero_loop (est : LogEst) {room : Nat} (hroom : 32 ≤ room) (rev : Int) (hdr : Header)
    (n i : Nat) (hi : i ≠ 0) :
    writeExtLoop est room rev [] hdr n i = .ok (List.replicate (32 * n) 0) ∧
      ∀ acc rest, readExtLoop rev [] n i acc (List.replicate (32 * n) 0 ++ rest) = .ok (acc, rest) := by
  induction n generalizing i with
  | zero => exact ⟨rfl, fun _ _ => rfl⟩
  | succ n ih =>
    obtain ⟨h1, h2⟩ := ih (i + 1) (by omega)
    have e : List.replicate (32 * (n + 1)) (0 : Byte)
        = List.replicate 32 0 ++ List.replicate (32 * n) 0 := by
      rw [List.replicate_append_replicate]; congr 1; omega
    constructor
    · unfold writeExtLoop writeExtBlock
      rw [if_pos hroom, List.isEmpty_nil, if_pos rfl, if_neg hi, ok_bind, h1, ok_bind, e]
      rfl
    · intro acc rest
      unfold readExtLoop
      rw [e, List.append_assoc, rdFile_append (by simp), ok_bind]
      simp only [readExtBlock, List.isEmpty_nil, if_true, if_neg hi, ok_bind]
      exact h2 acc rest

open Spec

/-- Reading blocks of any content with safe maps succeeds. -/
theorem readExt_total {rev : Int} {m : ExtMap} (n i : Nat) (hin : i + n ≤ m.length)
    (hs : ∀ fs ∈ m, SafeExt fs) (hu : ∀ fs ∈ m, ∀ f ∈ fs, f.ty ≠ .u64) (acc : Header) (s : Bytes)
    (hl : 32 * n ≤ s.length) :
    ∃ h, readExtLoop rev m n i acc s = .ok (h, s.drop (32 * n)) ∧
      ∀ k, k ∈ h.keys ↔ k ∈ acc.keys ∨ k ∈ ((m.drop i).take n).flatten.map (·.name) := by
  induction n generalizing i acc s with
  | zero => exact ⟨acc, rfl, by simp⟩
  | succ n ih =>
    have hi : i < m.length := by omega
    have hmem : m[i] ∈ m := List.getElem_mem hi
    have hne : m.isEmpty = false := by cases m <;> simp_all
    have hb : (s.take 32).length = 32 := by rw [List.length_take]; omega
    have hval : ∀ f ∈ m[i], ∃ v, readAt (s.take 32) f.off (readField .be f.ty) = .ok v := by
      intro f hf
      have h1 := (hs _ hmem).1 f hf
      obtain ⟨v, hv⟩ := readField_ok .be f.ty (((s.take 32).drop f.off).take f.ty.size)
        (by rw [List.length_take, List.length_drop, hb]; omega)
      exact ⟨v, readAt_slice _ _ f.ty.size _ _ _ (by omega) rfl hv⟩
    haveI : Nonempty Value := ⟨.int 0⟩
    choose! val hval using hval
    obtain ⟨h, e1, _⟩ := readFields_spec .be m[i] (s.take 32) acc val hval
    have ek := readFields_keys .be m[i] (s.take 32) acc h e1
    obtain ⟨h', g1, g2⟩ := ih (i + 1) (by omega) h (s.drop 32) (by rw [List.length_drop]; omega)
    refine ⟨h', ?_, ?_⟩
    · unfold readExtLoop rdFile
      rw [if_pos (by omega), ok_bind]
      simp only [readExtBlock, hne, List.getElem?_eq_getElem hi, Bool.false_eq_true, if_false,
        readExtFields_eq (hu _ hmem), e1, ok_bind]
      rw [g1, List.drop_drop]
      have : 32 + 32 * n = 32 * (n + 1) := by omega
      rw [this]
    · intro k
      rw [g2 k, ek k, List.drop_eq_getElem_cons hi, List.take_succ_cons, List.flatten_cons,
        List.map_append, List.mem_append, or_assoc]

end Sedaman
