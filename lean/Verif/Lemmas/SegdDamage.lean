import Verif.Spec.SegdDamage
import Verif.Lemmas.SegdLocal
import Verif.Lemmas.SegdSafe
import Verif.Lemmas.Damage

/-!
# Reading damaged SEG-D traces
-/

namespace Sedaman

open Spec

/-! ## Readers of a fixed number of bytes -/

/-- The reader takes `w` bytes, and its result is a function of them. -/
def Fixed {α : Type} (r : Rd α) (w : Nat) : Prop :=
  ∃ f : Bytes → α, ∀ s : Bytes, w ≤ s.length → r s = .ok (f (s.take w), s.drop w)

theorem fixed_rdBytes (n : Nat) : Fixed (rdBytes n) n := ⟨id, fun _ hs => rdBytes_ok hs⟩

theorem Fixed.map {α β : Type} {x : Rd α} {w : Nat} (h : Fixed x w) (g : α → β) :
    Fixed (do let a ← x; pure (g a)) w := by
  obtain ⟨f, h⟩ := h
  refine ⟨fun s => g (f s), fun s hs => ?_⟩
  rw [rd_bind, h s hs]
  rfl

theorem Fixed.step {α β : Type} {x : Rd α} {g : α → Rd β} {a b : Nat} (h : Fixed x a) (hg : ∀ v, Fixed (g v) b) :
    Fixed (x >>= g) (a + b) := by
  obtain ⟨f, h⟩ := h
  choose k hk using hg
  refine ⟨fun s => k (f (s.take a)) (s.drop a), fun s hs => ?_⟩
  rw [rd_bind, h s (by omega), ok_bind]
  simp only
  rw [hk _ _ (by rw [List.length_drop]; omega), List.drop_drop, List.take_take, Nat.min_eq_left (by omega),
    List.drop_take, Nat.add_sub_cancel_left]

theorem fixed_readU (n : Nat) : Fixed (readU n) n := (fixed_rdBytes n).map _
theorem fixed_readS (n : Nat) : Fixed (readS n) n := (fixed_rdBytes n).map _
theorem fixed_readU8 : Fixed readU8 1 := fixed_readU 1
theorem fixed_readU16 : Fixed (readU16 .be) 2 := (fixed_readU 2).map _
theorem fixed_readU24 : Fixed (readU24 .be) 3 := (fixed_readU 2).step fun _ => (fixed_readU 1).map _
theorem fixed_readI24 : Fixed (readI24 .be) 3 := fixed_readU24.map _
theorem fixed_readI32 : Fixed (readI32 .be) 4 := (fixed_readS 4).map _
theorem fixed_single (bo : ByteOrder) : Fixed (readIeeeFloat bo) 4 := by
  cases bo
  · exact (fixed_readU 4).map _
  · exact Fixed.map (x := readU32 .be) ((fixed_readU 4).map _) _
theorem fixed_double (bo : ByteOrder) : Fixed (readIeeeDouble bo) 8 := by
  cases bo
  · exact (fixed_readU 8).map _
  · exact Fixed.map (x := readU64 .be) ((fixed_readU 8).map _) _
theorem fixed_9036 : Fixed read9036 3 := (fixed_readU 2).step fun _ => (fixed_readU 1).map _

theorem fixed_bcd4 : Fixed (fromBcd false 4) 2 := by
  refine ⟨fun l => match fromBcd false 4 l with | .ok (v, _) => v | .error _ => 0, fun s hs => ?_⟩
  match s, hs with
  | b :: c :: t, _ => rfl

theorem fixed_bcd2 : Fixed (fromBcd false 2) 1 := by
  refine ⟨fun l => match fromBcd false 2 l with | .ok (v, _) => v | .error _ => 0, fun s hs => ?_⟩
  match s, hs with
  | b :: t, _ => rfl

theorem fixed_rdBcdV4 : Fixed (rdBcdV 4) 2 := fixed_bcd4.map _
theorem fixed_rdBcdV2 : Fixed (rdBcdV 2) 1 := fixed_bcd2.map _
theorem fixed_rdFix24 : Fixed rdFix24 3 := fixed_readU24.map _
theorem fixed_rdFix8 : Fixed rdFix8 1 := fixed_readU8.map _

/-! ## The header of a trace -/

/-- The headers have the same values of the names `P`. -/
def SameOn (P : String → Prop) (h h' : Header) : Prop := ∀ k, P k → h.get k = h'.get k

theorem SameOn.set {P : String → Prop} {h h' : Header} (hs : SameOn P h h') (n : String) {v v' : Value}
    (hv : P n → v = v') : SameOn P (h.set n v) (h'.set n v') := by
  intro k hk
  rw [get_set, get_set]
  split
  · rename_i e
    subst e
    rw [hv hk]
  · exact hs k hk

theorem SameOn.setNonzero {P : String → Prop} {h h' : Header} (hs : SameOn P h h') (n : String) {v v' : Nat}
    (hv : P n → v = v') : SameOn P (setNonzero h n v) (setNonzero h' n v') := by
  intro k hk
  unfold Sedaman.setNonzero
  by_cases e : k = n
  · subst e
    rw [hv hk]
    split
    · rw [get_set, get_set, if_pos rfl, if_pos rfl]
    · exact hs k hk
  · have h1 : ∀ (h : Header) (v : Nat), (if v ≠ 0 then Header.set h n (.int (v : Int)) else h).get k = h.get k := by
      intro h v
      split
      · rw [get_set, if_neg (Ne.symm e)]
      · rfl
    rw [h1, h1]
    exact hs k hk

/-- The places of a name agree in two headers of 20 bytes. -/
def PlaceKept (c c' : Bytes) (k : String) : Prop :=
  ∀ q ∈ segdPlaces, q.1 = k → (c.drop q.2.1).take q.2.2 = (c'.drop q.2.1).take q.2.2

theorem traceHdr_damaged {c c' r : Bytes} {h : Header} (hc : c.length = 20) (hc' : c'.length = 20)
    (e : readTraceHdrD c = .ok (h, r)) :
    ∃ h' r', readTraceHdrD c' = .ok (h', r') ∧ SameOn (PlaceKept c c') h h' := by
  obtain ⟨f1, k1⟩ := fixed_rdBcdV4
  obtain ⟨f2, k2⟩ := fixed_rdBcdV2
  obtain ⟨f3, k3⟩ := fixed_rdFix24
  obtain ⟨f4, k4⟩ := fixed_readU8
  obtain ⟨f5, k5⟩ := fixed_rdFix8
  obtain ⟨f6, k6⟩ := fixed_readU16
  obtain ⟨f7, k7⟩ := fixed_readU24
  have main : ∀ c : Bytes, c.length = 20 → readTraceHdrD c = .ok (setNonzero (setNonzero (setAll []
      [("FFID", f1 ((c.drop 0).take 2)), ("SCAN_TYPE_NUM", f2 ((c.drop 2).take 1)), ("CH_SET_NUM", f2 ((c.drop 3).take 1)),
       ("CHAN", f1 ((c.drop 4).take 2)), ("FIRST_TIMING_WORD", f3 ((c.drop 6).take 3)),
       ("TR_HDR_EXT", .int ((f4 ((c.drop 9).take 1) : Nat) : Int)), ("SAMPLE_SKEW", f5 ((c.drop 10).take 1)),
       ("TRACE_EDIT", .int ((f4 ((c.drop 11).take 1) : Nat) : Int)), ("TIME_BREAK_WIN", f3 ((c.drop 12).take 3))])
       "CH_SET_NUM" (f6 ((c.drop 15).take 2))) "FFID" (f7 ((c.drop 17).take 3)), c.drop 20) := by
    intro c hc
    have d : ∀ n, (c.drop n).length = 20 - n := fun n => by rw [List.length_drop, hc]
    unfold readTraceHdrD
    rw [show c = c.drop 0 from rfl]
    rw [rd_step (k1 _ (by rw [d]; omega)), List.drop_drop]
    rw [rd_step (k2 _ (by rw [d]; omega)), List.drop_drop]
    rw [rd_step (k2 _ (by rw [d]; omega)), List.drop_drop]
    rw [rd_step (k1 _ (by rw [d]; omega)), List.drop_drop]
    rw [rd_step (k3 _ (by rw [d]; omega)), List.drop_drop]
    rw [rd_step (k4 _ (by rw [d]; omega)), List.drop_drop]
    rw [rd_step (k5 _ (by rw [d]; omega)), List.drop_drop]
    rw [rd_step (k4 _ (by rw [d]; omega)), List.drop_drop]
    rw [rd_step (k3 _ (by rw [d]; omega)), List.drop_drop]
    rw [rd_step (k6 _ (by rw [d]; omega)), List.drop_drop]
    rw [rd_step (k7 _ (by rw [d])), List.drop_drop]
    rfl
  rw [main c hc] at e
  cases e
  refine ⟨_, _, main c' hc', ?_⟩
  have g : ∀ {k : String} {o n : Nat}, (k, o, n) ∈ segdPlaces → PlaceKept c c' k →
      (c.drop o).take n = (c'.drop o).take n := fun hm hk => hk _ hm rfl
  have h0 : SameOn (PlaceKept c c') ([] : Header) ([] : Header) := fun _ _ => rfl
  refine SameOn.setNonzero (SameOn.setNonzero ?_ _ fun hk => by rw [g (by decide) hk]) _ fun hk => by
    rw [g (by decide) hk]
  unfold setAll setAll setAll setAll setAll setAll setAll setAll setAll setAll
  exact (((((((((h0.set _ fun hk => by rw [g (by decide) hk]).set _ fun hk => by rw [g (by decide) hk]).set _
    fun hk => by rw [g (by decide) hk]).set _ fun hk => by rw [g (by decide) hk]).set _
    fun hk => by rw [g (by decide) hk]).set _ fun hk => by rw [g (by decide) hk]).set _
    fun hk => by rw [g (by decide) hk]).set _ fun hk => by rw [g (by decide) hk]).set _
    fun hk => by rw [g (by decide) hk])

/-! ## Extension blocks -/

theorem extIdx_same {P : String → Prop} {rev : Int} {h h' g : Header} {c r : Bytes} (hs : SameOn P h h')
    (e : rdExtIdx rev h c = .ok (g, r)) : ∃ g', rdExtIdx rev h' c = .ok (g', r) ∧ SameOn P g g' := by
  unfold rdExtIdx at e ⊢
  split at e
  · rename_i hr
    rw [if_pos hr]
    obtain ⟨⟨v, c1⟩, h1, e⟩ := bind_ok e
    rw [rd_bind, h1, ok_bind]
    cases e
    exact ⟨_, rfl, hs.set _ fun _ => rfl⟩
  · rename_i hr
    rw [if_neg hr]
    obtain ⟨⟨v, c1⟩, h1, e⟩ := bind_ok e
    obtain ⟨⟨v2, c2⟩, h2, e⟩ := bind_ok e
    obtain ⟨⟨v3, c3⟩, h3, e⟩ := bind_ok e
    rw [rd_bind, h1, ok_bind]
    simp only
    rw [rd_bind, h2, ok_bind]
    simp only
    rw [rd_bind, h3, ok_bind]
    cases e
    exact ⟨_, rfl, ((hs.set _ fun _ => rfl).set _ fun _ => rfl).set _ fun _ => rfl⟩

theorem SameOn.setDbl {P : String → Prop} {h h' : Header} (hs : SameOn P h h') (n : String) (d : Dbl) :
    SameOn P (setDblNonzero h n d) (setDblNonzero h' n d) := by
  unfold setDblNonzero
  split
  · exact hs.set _ fun _ => rfl
  · exact hs

theorem extLines_same {P : String → Prop} {rev : Int} {h h' g : Header} {c r : Bytes} (hs : SameOn P h h')
    (e : rdExtLines rev h c = .ok (g, r)) : ∃ g', rdExtLines rev h' c = .ok (g', r) ∧ SameOn P g g' := by
  unfold rdExtLines at e ⊢
  split at e
  · rename_i hr
    rw [if_pos hr]
    obtain ⟨⟨v, c1⟩, h1, e⟩ := bind_ok e
    obtain ⟨⟨v2, c2⟩, h2, e⟩ := bind_ok e
    obtain ⟨⟨v3, c3⟩, h3, e⟩ := bind_ok e
    rw [rd_bind, h1, ok_bind]
    simp only
    rw [rd_bind, h2, ok_bind]
    simp only
    rw [rd_bind, h3, ok_bind]
    cases e
    exact ⟨_, rfl, ((hs.setDbl _ _).setDbl _ _).set _ fun _ => rfl⟩
  · rename_i hr
    rw [if_neg hr]
    cases e
    exact ⟨_, rfl, hs⟩

theorem SameOn.at {P : String → Prop} {h h' : Header} (hs : SameOn P h h') {n : String} (hn : P n) :
    (Header.at h n).1 = (Header.at h' n).1 ∧ SameOn P (Header.at h n).2 (Header.at h' n).2 := by
  unfold Header.at
  rw [← hs n hn]
  cases h.get n with
  | none => exact ⟨rfl, hs.set _ fun _ => rfl⟩
  | some v => exact ⟨rfl, hs⟩

theorem extRev3_same {P : String → Prop} {rev : Int} {h h' g : Header} {c r : Bytes} (hP : P "TRACE_NUMBER")
    (hs : SameOn P h h')
    (e : rdExtRev3 rev h c = .ok (g, r)) : ∃ g', rdExtRev3 rev h' c = .ok (g', r) ∧ SameOn P g g' := by
  have tn : ∀ {n : Nat} {h h' g : Header} {c r : Bytes}, SameOn P h h' → rdTraceNumber h n c = .ok (g, r) →
      ∃ g', rdTraceNumber h' n c = .ok (g', r) ∧ SameOn P g g' := by
    intro n h h' g c r hs e
    obtain ⟨a1, a2⟩ := hs.at hP
    unfold rdTraceNumber at e ⊢
    cases hx : Header.at h "TRACE_NUMBER" with
    | mk v h1 =>
    cases hx' : Header.at h' "TRACE_NUMBER" with
    | mk v' h1' =>
    rw [hx, hx'] at a1 a2
    rw [hx] at e
    simp only at a1 a2
    subst a1
    cases v with
    | dbl d => cases e
    | int i =>
      simp only [Except.ok.injEq, Prod.mk.injEq] at e ⊢
      obtain ⟨rfl, rfl⟩ := e
      refine ⟨_, ⟨rfl, rfl⟩, ?_⟩
      split
      · exact a2.set _ fun _ => rfl
      · exact a2
  unfold rdExtRev3 at e ⊢
  split at e
  · rename_i hr
    rw [if_pos hr]
    obtain ⟨⟨v, c1⟩, h1, e⟩ := bind_ok e
    obtain ⟨⟨v2, c2⟩, h2, e⟩ := bind_ok e
    obtain ⟨⟨v3, c3⟩, h3, e⟩ := bind_ok e
    obtain ⟨⟨v4, c4⟩, h4, e⟩ := bind_ok e
    obtain ⟨⟨v5, c5⟩, h5, e⟩ := bind_ok e
    obtain ⟨⟨v6, c6⟩, h6, e⟩ := bind_ok e
    obtain ⟨v2', h2', hs'⟩ := tn hs h2
    rw [rd_bind, h1, ok_bind]
    simp only
    rw [rd_bind, h2', ok_bind]
    simp only
    rw [rd_bind, h3, ok_bind]
    simp only
    rw [rd_bind, h4, ok_bind]
    simp only
    rw [rd_bind, h5, ok_bind]
    simp only
    rw [rd_bind, h6, ok_bind]
    cases e
    exact ⟨_, rfl, ((hs'.set _ fun _ => rfl).set _ fun _ => rfl).set _ fun _ => rfl⟩
  · rename_i hr
    rw [if_neg hr]
    cases e
    exact ⟨_, rfl, hs⟩

theorem extStd_damaged {P : String → Prop} {rev : Int} {h h' g : Header} {c r : Bytes} (hP : P "TRACE_NUMBER")
    (hs : SameOn P h h')
    (e : rdExtStd rev h c = .ok (g, r)) : ∃ g', rdExtStd rev h' c = .ok (g', r) ∧ SameOn P g g' := by
  unfold rdExtStd at e ⊢
  obtain ⟨⟨v, c1⟩, h1, e⟩ := bind_ok e
  obtain ⟨⟨v2, c2⟩, h2, e⟩ := bind_ok e
  obtain ⟨⟨v3, c3⟩, h3, e⟩ := bind_ok e
  obtain ⟨⟨v4, c4⟩, h4, e⟩ := bind_ok e
  obtain ⟨⟨v5, c5⟩, h5, e⟩ := bind_ok e
  have s1 : SameOn P (setAll h [("R_LINE", .int (v : Int)), ("R_POINT", .int (v2 : Int)), ("R_POINT_IDX", .int (v3 : Int))])
      (setAll h' [("R_LINE", .int (v : Int)), ("R_POINT", .int (v2 : Int)), ("R_POINT_IDX", .int (v3 : Int))]) :=
    ((hs.set _ fun _ => rfl).set _ fun _ => rfl).set _ fun _ => rfl
  obtain ⟨v4', h4', s4⟩ := extIdx_same s1 h4
  obtain ⟨v5', h5', s5⟩ := extLines_same s4 h5
  obtain ⟨v6', h6', s6⟩ := extRev3_same hP s5 e
  rw [rd_bind, h1, ok_bind]
  simp only
  rw [rd_bind, h2, ok_bind]
  simp only
  rw [rd_bind, h3, ok_bind]
  simp only
  rw [rd_bind, h4', ok_bind]
  simp only
  rw [rd_bind, h5', ok_bind]
  exact ⟨_, h6', s6⟩

theorem extFields_damaged {P : String → Prop} {buf : Bytes} {fs : List HField} {p : Nat} {h h' g : Header}
    (hs : SameOn P h h') (e : readExtFields buf fs p h = .ok g) :
    ∃ g', readExtFields buf fs p h' = .ok g' ∧ SameOn P g g' := by
  induction fs generalizing p h h' with
  | nil =>
    cases e
    exact ⟨_, rfl, hs⟩
  | cons f fs ih =>
    unfold readExtFields at e ⊢
    split at e
    · rename_i hu
      rw [if_pos hu]
      obtain ⟨v, h1, e⟩ := bind_ok e
      rw [h1, ok_bind]
      exact ih (hs.set _ fun _ => rfl) e
    · rename_i hu
      rw [if_neg hu]
      obtain ⟨v, h1, e⟩ := bind_ok e
      rw [h1, ok_bind]
      exact ih (hs.set _ fun _ => rfl) e

theorem extBlock_damaged {P : String → Prop} {rev : Int} {m : ExtMap} {buf : Bytes} {i : Nat} {h h' g : Header}
    (hP : P "TRACE_NUMBER") (hs : SameOn P h h') (e : readExtBlock rev m buf h i = .ok g) :
    ∃ g', readExtBlock rev m buf h' i = .ok g' ∧ SameOn P g g' := by
  unfold readExtBlock at e ⊢
  split at e
  · rename_i hm
    rw [if_pos hm]
    split at e
    · rename_i hi
      rw [if_pos hi]
      obtain ⟨⟨v, c1⟩, h1, e⟩ := bind_ok e
      obtain ⟨v', h1', s1⟩ := extStd_damaged hP hs h1
      rw [h1', ok_bind]
      cases e
      exact ⟨_, rfl, s1⟩
    · rename_i hi
      rw [if_neg hi]
      cases e
      exact ⟨_, rfl, hs⟩
  · rename_i hm
    rw [if_neg hm]
    cases hx : m[i]? with
    | none => rw [hx] at e; cases e
    | some fs =>
      rw [hx] at e
      exact extFields_damaged hs e

theorem fill_other {s s1 : ISegd} {n : Nat} {c b : Bytes} (e : s.fill n = .ok (c, s1))
    (hl : b.length = s.file.data.length) :
    (s.on b).fill n = .ok ((b.drop s.file.pos).take n, s1.on b) ∧ c = (s.file.data.drop s.file.pos).take n ∧
      c.length = n ∧ s1 = s.at (s.file.pos + n) ∧ ((b.drop s.file.pos).take n).length = n := by
  obtain ⟨h1, h2, rfl⟩ := fill_ok e
  have hx : ((b.drop s.file.pos).take n).length = n := by
    rw [h1, List.length_take, List.length_drop] at h2
    rw [List.length_take, List.length_drop, hl]
    exact h2
  refine ⟨?_, h1, h2, rfl, hx⟩
  unfold ISegd.fill
  rw [show (s.on b).file.read n = _ from read_eq (f := ⟨b, s.file.pos⟩) hx]
  rfl

theorem extLoop_damaged {P : String → Prop} {rev : Int} {m : ExtMap} {n i : Nat} {h h' g : Header} {s s1 : ISegd}
    {b : Bytes} (hP : P "TRACE_NUMBER") (hs : SameOn P h h') (hl : b.length = s.file.data.length)
    (ha : Spec.Agree s.file.data b s.file.pos (32 * n)) (e : s.onRest (readExtLoop rev m n i h) = .ok (g, s1)) :
    s1 = s.at (s.file.pos + 32 * n) ∧
    ∃ g', (s.on b).onRest (readExtLoop rev m n i h') = .ok (g', s1.on b) ∧ SameOn P g g' := by
  induction n generalizing i h h' s with
  | zero =>
    have : ∀ (s : ISegd) h, s.onRest (readExtLoop rev m 0 i h) = .ok (h, s) := fun s h => onRest_pure s h
    rw [this] at e
    cases e
    exact ⟨rfl, h', this _ _, hs⟩
  | succ n ih =>
    rw [onRest_extLoop] at e ⊢
    obtain ⟨⟨c, s2⟩, h1, e⟩ := bind_ok e
    obtain ⟨g1, h2, e⟩ := bind_ok e
    obtain ⟨f1, f2, -, rfl, -⟩ := fill_other h1 hl
    have hc : c = (b.drop s.file.pos).take 32 := by
      rw [f2]
      exact agree_slice (fun j h1 h2 => ha j h1 (by omega))
    obtain ⟨g1', h2', s2⟩ := extBlock_damaged hP hs h2
    obtain ⟨q1, g', q2, q3⟩ := ih (s := s.at (s.file.pos + 32)) s2 hl
      (fun j h1 h2 => ha j (by have : s.file.pos + 32 ≤ j := h1; omega) (by
        have : j < s.file.pos + 32 + 32 * n := h2
        omega)) e
    refine ⟨?_, g', ?_, q3⟩
    · rw [q1]
      show s.at (s.file.pos + 32 + 32 * n) = _
      congr 1
      omega
    · rw [f1, ok_bind, ← hc]
      simp only
      rw [h2', ok_bind]
      exact q2

/-! ## Samples -/

theorem rdSamples_fixed {r : Rd Dbl} {w : Nat} {f : Bytes → Dbl}
    (hf : ∀ s : Bytes, w ≤ s.length → r s = .ok (f (s.take w), s.drop w)) (d : Dbl) (n : Nat) (s : Bytes)
    (hn : n * w ≤ s.length) :
    ∃ xs rest, rdSamples r d n s = .ok (xs, rest) ∧ xs.length = n ∧
      ∀ k < n, xs[k]? = some (dmul (f ((s.drop (k * w)).take w)) d) := by
  induction n generalizing s with
  | zero => exact ⟨[], s, rfl, rfl, fun k hk => absurd hk (Nat.not_lt_zero _)⟩
  | succ n ih =>
    have hm : (n + 1) * w = n * w + w := Nat.succ_mul n w
    obtain ⟨xs, rest, i1, i2, i3⟩ := ih (s.drop w) (by rw [List.length_drop]; omega)
    unfold rdSamples
    rw [rd_bind, hf s (by omega), ok_bind]
    simp only
    rw [rd_bind, i1, ok_bind]
    refine ⟨_, _, rfl, by simp [i2], ?_⟩
    intro k hk
    cases k with
    | zero => simp
    | succ k =>
      rw [List.getElem?_cons_succ, i3 k (by omega), List.drop_drop, Nat.succ_mul, Nat.add_comm w]

/-- The formats whose samples are read one behind the other. -/
theorem moving_reader {fmt : Int} {bits : Nat} {r : Rd Dbl} (h : segdReader fmt = .ok (bits, r))
    (h1 : fmt ≠ 8022) (h2 : fmt ≠ 8042) :
    (r = readPacked) ∨ (Fixed r (sampleWidth fmt) ∧ bits = 8 * sampleWidth fmt) := by
  unfold segdReader at h
  split at h <;> first | (cases h; done) | (injection h with h; injection h with ha hb; subst ha hb)
  · exact .inl rfl
  · exact absurd rfl h1
  · exact .inl rfl
  · exact .inr ⟨fixed_readI24.map _, rfl⟩
  · exact .inr ⟨fixed_readI32.map _, rfl⟩
  · exact absurd rfl h2
  · exact .inl rfl
  · exact .inl rfl
  · exact .inr ⟨fixed_single _, rfl⟩
  · exact .inr ⟨fixed_double _, rfl⟩
  · exact .inr ⟨fixed_9036, rfl⟩
  · exact .inr ⟨(fixed_readS 4).map _, rfl⟩
  · exact .inr ⟨fixed_single _, rfl⟩
  · exact .inr ⟨fixed_double _, rfl⟩

theorem short_rdBytes {n : Nat} {s : Bytes} (h : s.length < n) : ∀ v, rdBytes n s ≠ .ok v := by
  intro v hv
  unfold rdBytes at hv
  rw [if_neg (by omega)] at hv
  cases hv

theorem short_bind {α β : Type} {x : Rd α} {g : α → Rd β} {s : Bytes} (h : ∀ v, x s ≠ .ok v) :
    ∀ v, (x >>= g) s ≠ .ok v := by
  intro v hv
  obtain ⟨a, h1, -⟩ := bind_ok hv
  exact h a h1

theorem short_readU {n : Nat} {s : Bytes} (h : s.length < n) : ∀ v, readU n s ≠ .ok v := short_bind (short_rdBytes h)
theorem short_readS {n : Nat} {s : Bytes} (h : s.length < n) : ∀ v, readS n s ≠ .ok v := short_bind (short_rdBytes h)

theorem short_two {α : Type} {g : Nat → Nat → α} {s : Bytes} (h : s.length < 3) :
    ∀ v, (do let a ← readU 2; let b ← readU 1; pure (g a b) : Rd α) s ≠ .ok v := by
  intro v hv
  obtain ⟨⟨a, s1⟩, h1, hv⟩ := bind_ok hv
  obtain ⟨⟨c, s2⟩, h2, -⟩ := bind_ok hv
  by_cases hs : 2 ≤ s.length
  · obtain ⟨y, hy⟩ := uses_readU 2 s hs
    rw [h1] at hy
    cases hy
    exact short_readU (n := 1) (s := s.drop 2) (by rw [List.length_drop]; omega) _ h2
  · exact short_readU (by omega) _ h1

theorem moving_short {fmt : Int} {bits : Nat} {r : Rd Dbl} (h : segdReader fmt = .ok (bits, r))
    (h1 : fmt ≠ 8022) (h2 : fmt ≠ 8042) : ∀ s : Bytes, s.length < sampleWidth fmt → ∀ v, r s ≠ .ok v := by
  intro s hs
  unfold segdReader at h
  split at h <;> first | (cases h; done) | (injection h with h; injection h with ha hb; subst ha hb)
  · intro v hv; cases hv
  · exact absurd rfl h1
  · intro v hv; cases hv
  · exact short_bind (short_bind (short_two hs))
  · exact short_bind (short_bind (short_readS hs))
  · exact absurd rfl h2
  · intro v hv; cases hv
  · intro v hv; cases hv
  · exact short_bind (short_bind (short_readU hs))
  · exact short_bind (short_bind (short_readU hs))
  · exact short_two hs
  · exact short_bind (short_readS hs)
  · exact short_bind (short_readU hs)
  · exact short_bind (short_readU hs)

theorem samples_damaged {fmt : Int} {d : Dbl} {n : Nat} {s s1 : ISegd} {xs : List Dbl} {b : Bytes}
    (h1 : fmt ≠ 8022) (h2 : fmt ≠ 8042) (hl : b.length = s.file.data.length)
    (e : s.onRest (readSamplesD fmt d n) = .ok (xs, s1)) :
    s1 = s.at (s.file.pos + xs.length * sampleWidth fmt) ∧
    ∃ xs', (s.on b).onRest (readSamplesD fmt d n) = .ok (xs', s1.on b) ∧ xs'.length = xs.length ∧
      ∀ k : Nat, Spec.Agree s.file.data b (s.file.pos + k * sampleWidth fmt) (sampleWidth fmt) → xs[k]? = xs'[k]? := by
  cases hq : segdReader fmt with
  | error x =>
    rw [onRest_eq] at e
    unfold readSamplesD at e
    rw [hq] at e
    cases e
  | ok q =>
    obtain ⟨bits, r⟩ := q
    rw [readSamplesD_eq hq] at e ⊢
    obtain ⟨⟨c, s2⟩, g1, e⟩ := bind_ok e
    obtain ⟨⟨ys, rest⟩, g2, e⟩ := bind_ok e
    simp only [Except.ok.injEq, Prod.mk.injEq] at e
    obtain ⟨rfl, rfl⟩ := e
    obtain ⟨f1, f2, f3, rfl, f5⟩ := fill_other g1 hl
    rw [f1, ok_bind]
    simp only at g2 ⊢
    rcases moving_reader hq h1 h2 with rfl | ⟨⟨f, hf⟩, rfl⟩
    · cases n with
      | succ n =>
        exfalso
        unfold rdSamples at g2
        cases g2
      | zero =>
        cases g2
        refine ⟨?_, [], rfl, rfl, fun _ _ => rfl⟩
        congr 1
        rw [Nat.zero_mul, Nat.zero_mod, Nat.zero_div, List.length_nil, Nat.zero_mul]
    · have hnw : n * sampleWidth fmt ≤ c.length := by
        by_contra hc
        -- too few bytes: the reader of the first missing sample fails
        have bad : ∀ (n : Nat) (c : Bytes) (w : Nat) (ys : List Dbl) (rest : Bytes),
            (∀ s : Bytes, w ≤ s.length → r s = .ok (f (s.take w), s.drop w)) →
            (∀ s : Bytes, s.length < w → ∀ v, r s ≠ .ok v) → rdSamples r d n c = .ok (ys, rest) →
            n * w ≤ c.length := by
          intro n
          induction n with
          | zero => intro c w ys rest _ _ _; omega
          | succ n ih =>
            intro c w ys rest hf hs e
            unfold rdSamples at e
            obtain ⟨⟨v, c1⟩, e1, e⟩ := bind_ok e
            obtain ⟨⟨vs, c2⟩, e2, e⟩ := bind_ok e
            have hw : w ≤ c.length := by
              by_contra hc
              exact hs c (by omega) _ e1
            rw [hf c hw] at e1
            cases e1
            have := ih _ w vs c2 hf hs e2
            rw [List.length_drop] at this
            rw [Nat.succ_mul]
            omega
        exact hc (bad n c _ ys rest hf (moving_short hq h1 h2) g2)
      have hsz : n * (8 * sampleWidth fmt) % 2 ^ 32 / 8 = n * sampleWidth fmt := by
        have hle : n * (8 * sampleWidth fmt) % 2 ^ 32 / 8 ≤ n * (8 * sampleWidth fmt) / 8 :=
          Nat.div_le_div_right (Nat.mod_le _ _)
        rw [show n * (8 * sampleWidth fmt) = 8 * (n * sampleWidth fmt) by
          rw [← Nat.mul_assoc, Nat.mul_comm n 8, Nat.mul_assoc]] at hle f3 ⊢
        rw [Nat.mul_div_cancel_left _ (by decide)] at hle
        rw [f3] at hnw
        omega
      obtain ⟨xs1, rest1, i1, i2, i3⟩ := rdSamples_fixed hf d n c hnw
      rw [i1] at g2
      simp only [Except.ok.injEq, Prod.mk.injEq] at g2
      obtain ⟨rfl, rfl⟩ := g2
      rw [hsz] at f2 f3 f5 ⊢
      obtain ⟨xs2, rest2, j1, j2, j3⟩ := rdSamples_fixed hf d n ((b.drop s.file.pos).take (n * sampleWidth fmt)) (by omega)
      refine ⟨by rw [i2], xs2, ?_, by omega, ?_⟩
      · rw [j1, ok_bind]
      · intro k ha
        by_cases hk : k < n
        · rw [i3 k hk, j3 k hk, f2]
          have hm := Nat.mul_le_mul_right (sampleWidth fmt) (Nat.succ_le_of_lt hk)
          rw [Nat.succ_mul] at hm
          have := agree_slice ha
          rw [List.drop_take, List.drop_take, List.take_take, List.take_take, Nat.min_eq_left (by omega),
            List.drop_drop, List.drop_drop, this]
        · rw [List.getElem?_eq_none (by omega), List.getElem?_eq_none (by omega)]

/-! ## Traces -/

theorem place_kept {a b : Bytes} {p : Nat} {k : String}
    (h : ∀ q ∈ segdPlaces, q.1 = k → Spec.Agree a b (p + q.2.1) q.2.2) :
    PlaceKept ((a.drop p).take 20) ((b.drop p).take 20) k := by
  intro q hq hk
  have h1 : ∀ q ∈ segdPlaces, q.2.1 + q.2.2 ≤ 20 := by decide
  have h1 := h1 q hq
  have := agree_slice (h q hq hk)
  rw [List.drop_take, List.drop_take, List.take_take, List.take_take, Nat.min_eq_left (by omega), List.drop_drop,
    List.drop_drop, this]

theorem chSetOf_damaged {P : String → Prop} {s : ISegd} {h h' g : Header} {c : ChSet} (hs : SameOn P h h')
    (h1 : P "SCAN_TYPE_NUM") (h2 : P "CH_SET_NUM") (e : s.chSetOf h = .ok (c, g)) :
    ∃ g', s.chSetOf h' = .ok (c, g') ∧ SameOn P g g' := by
  obtain ⟨u1, u2⟩ := hs.at h1
  obtain ⟨u3, u4⟩ := u2.at h2
  unfold ISegd.chSetOf at e ⊢
  obtain ⟨sets, y1, e⟩ := bind_ok e
  simp only at e
  obtain ⟨c0, y2, e⟩ := bind_ok e
  cases e
  rw [← u1, y1, ok_bind]
  simp only
  rw [← u3, y2, ok_bind]
  exact ⟨_, rfl, u4⟩

theorem body_of {pw : Dbl → Dbl} {s s1 s2 s3 : ISegd} {c r : Bytes} {h h2 h3 : Header} {cs : ChSet} {n : Nat}
    {xs : List Dbl} (e1 : s.fill 20 = .ok (c, s1)) (e2 : readTraceHdrD c = .ok (h, r))
    (e3 : s1.onRest (readExt s1.gh2.segdRevMajor s1.extMap h) = .ok (h2, s2)) (e4 : s2.chSetOf h2 = .ok (cs, h3))
    (e5 : sampNumD cs h3 = .ok n)
    (e6 : s2.onRest (readSamplesD s2.gh1.formatCode (pw cs.descaleMultiplier) n) = .ok (xs, s3)) :
    readTraceBody pw s = .ok (⟨h3, xs⟩, s3) := by
  unfold readTraceBody
  rw [e1, ok_bind]
  simp only
  rw [e2, ok_bind]
  simp only
  rw [e3, ok_bind]
  simp only
  rw [e4, ok_bind]
  simp only
  rw [e5, ok_bind, e6]
  rfl

theorem body_damaged {pw : Dbl → Dbl} {s s' : ISegd} {t : Trace} {b : Bytes} (hl : b.length = s.file.data.length)
    (h1 : s.gh1.formatCode ≠ 8022) (h2 : s.gh1.formatCode ≠ 8042) (hset : Spec.Agree s.file.data b (s.file.pos + 2) 2)
    (hwide : Spec.Agree s.file.data b (s.file.pos + 15) 2) (hblk : Spec.Agree s.file.data b (s.file.pos + 9) 1)
    (hext : Spec.Agree s.file.data b (s.file.pos + 20) (32 * extCount s.file.data s.file.pos))
    (e : readTraceBody pw s = .ok (t, s')) :
    s' = s.at (samplesAt s.file.data s.file.pos + t.samples.length * sampleWidth s.gh1.formatCode) ∧
    ∃ t', readTraceBody pw (s.on b) = .ok (t', s'.on b) ∧
      SameButD s.gh1.formatCode s.file.data b s.file.pos t t' := by
  obtain ⟨⟨c, s1⟩, e1, k⟩ := bind_ok e
  obtain ⟨⟨hd, r⟩, e2, k2⟩ := bind_ok k
  obtain ⟨⟨hd2, s2⟩, e3, k3⟩ := bind_ok k2
  obtain ⟨⟨cs, hd3⟩, e4, k4⟩ := bind_ok k3
  obtain ⟨n, e5, k5⟩ := bind_ok k4
  obtain ⟨⟨xs, s3⟩, e6, k6⟩ := bind_ok k5
  cases k6
  obtain ⟨f1, f2, f3, rfl, f5⟩ := fill_other e1 hl
  obtain ⟨hd', r', e2', sm⟩ := traceHdr_damaged f3 f5 e2
  rw [f2] at sm
  have P1 : ∀ k, (∀ q ∈ segdPlaces, q.1 = k → Spec.Agree s.file.data b (s.file.pos + q.2.1) q.2.2) →
      PlaceKept ((s.file.data.drop s.file.pos).take 20) ((b.drop s.file.pos).take 20) k := fun k h => place_kept h
  have pTN := P1 "TRACE_NUMBER" (by
    intro q hq hk
    exact absurd (show q.1 ≠ "TRACE_NUMBER" by revert q; decide) (not_not_intro hk))
  have pSN := P1 "SAMP_NUM" (by
    intro q hq hk
    exact absurd (show q.1 ≠ "SAMP_NUM" by revert q; decide) (not_not_intro hk))
  have pSC := P1 "SCAN_TYPE_NUM" (by
    intro q hq hk
    have : q.2 = (2, 1) := by revert q; decide
    rw [this]
    exact fun j h1 h2 => hset j (by simp only at h1; omega) (by simp only at h2; omega))
  have pCS := P1 "CH_SET_NUM" (by
    intro q hq hk
    have : q.2 = (3, 1) ∨ q.2 = (15, 2) := by revert q; decide
    rcases this with this | this
    · rw [this]
      exact fun j h1 h2 => hset j (by simp only at h1; omega) (by simp only at h2; omega)
    · rw [this]
      exact hwide)
  have pEX := P1 "TR_HDR_EXT" (by
    intro q hq hk
    have : q.2 = (9, 1) := by revert q; decide
    rw [this]
    exact hblk)
  obtain ⟨hdu, ru, eu, gu⟩ := readTraceHdrD_uses f3
  rw [e2] at eu
  cases eu
  have hcnt : ((c[9]?).getD 0).toNat = extCount s.file.data s.file.pos := by
    unfold extCount
    rw [f2, List.getElem?_take, if_pos (by omega), List.getElem?_drop]
  rw [hcnt] at gu
  have hi : intOf hd "TR_HDR_EXT" = .ok (extCount s.file.data s.file.pos : Int) := by
    unfold intOf
    rw [gu]
  have hi' : intOf hd' "TR_HDR_EXT" = .ok (extCount s.file.data s.file.pos : Int) := by
    unfold intOf
    rw [← sm _ pEX, gu]
  rw [onRest_readExt, hi, ok_bind, Int.toNat_natCast] at e3
  obtain ⟨q1, g', q2, q3⟩ := extLoop_damaged (s := s.at (s.file.pos + 20)) (b := b) pTN sm hl hext e3
  subst q1
  obtain ⟨w1, xs', w2, w3, w4⟩ := samples_damaged (b := b) (fmt := s.gh1.formatCode)
    (s := (s.at (s.file.pos + 20)).at (s.file.pos + 20 + 32 * extCount s.file.data s.file.pos)) h1 h2 hl e6
  subst w1
  obtain ⟨hd3', y1, y2⟩ := chSetOf_damaged q3 pSC pCS e4
  have e5' : sampNumD cs hd3' = .ok n := by
    rw [← e5]
    unfold sampNumD
    rw [y2 _ pSN]
  refine ⟨?_, ⟨hd3', xs'⟩, ?_, ?_⟩
  · rfl
  · exact body_of
      (s2 := ((s.at (s.file.pos + 20)).at (s.file.pos + 20 + 32 * extCount s.file.data s.file.pos)).on b)
      f1 e2' (by rw [onRest_readExt, hi', ok_bind, Int.toNat_natCast]; exact q2) y1 e5' w2
  · exact ⟨fun k hk => y2 k (P1 k hk), w3, w4⟩

theorem sameIn_agree {a b : Bytes} {p q : Nat} (h : ∀ j, p ≤ j → j < q → a[j]? = b[j]?) : SameIn b a p q := by
  unfold SameIn
  by_cases c : p ≤ q
  · exact (agree_slice (fun j h1 h2 => h j h1 (by omega))).symm
  · rw [show q - p = 0 by omega, List.take_zero, List.take_zero]

theorem traceD_damaged {pw : Dbl → Dbl} {s s' : ISegd} {t : Trace} {b : Bytes} (hl : b.length = s.file.data.length)
    (h1 : s.gh1.formatCode ≠ 8022) (h2 : s.gh1.formatCode ≠ 8042) (e : readTraceD pw s = .ok (t, s'))
    (hk : FormKept s.gh1.formatCode s.file.data b s.file.pos t s'.file.pos) :
    ∃ t', readTraceD pw (s.on b) = .ok (t', s'.on b) ∧ SameButD s.gh1.formatCode s.file.data b s.file.pos t t' := by
  obtain ⟨p, hb, -, hc⟩ := readTraceD_cases e
  obtain ⟨q1, t', q2, q3⟩ := body_damaged hl h1 h2 hk.chSet hk.wideChSet hk.blocks hk.ext hb
  have hp : p = samplesAt s.file.data s.file.pos + t.samples.length * sampleWidth s.gh1.formatCode :=
    congrArg (fun s : ISegd => s.file.pos) q1
  refine ⟨t', ?_, q3⟩
  unfold readTraceD
  rw [q2, ok_bind]
  simp only
  unfold ISegd.advance
  dsimp only
  rcases hc with ⟨c1, rfl⟩ | ⟨c1, c2, rfl⟩ | ⟨c1, c2, c3⟩
  · rw [if_neg (by exact c1)]
    rfl
  · rw [if_pos (by exact c1)]
    have : (ISegd.hasRecord { (s.at p).on b with chansIn := 0, chansRead := 0, chSets := [] }) = false :=
      decide_eq_false (not_not_intro (show p = b.length by omega))
    rw [if_neg (by rw [this]; decide)]
    rfl
  · rw [if_pos (by exact c1)]
    have : (ISegd.hasRecord { (s.at p).on b with chansIn := 0, chansRead := 0, chSets := [] }) = true :=
      decide_eq_true (show p ≠ b.length by omega)
    rw [if_pos this]
    have := (loc_headers b { s.at p with chansIn := 0, chansRead := 0, chSets := [] } _ c3).2.2
      (sameIn_agree (p := p) fun j j1 j2 => hk.next j (by omega) j2)
    have this : readHeaders { (s.at p).on b with chansIn := 0, chansRead := 0, chSets := [] } = .ok (s'.on b) := this
    rw [this]
    rfl

theorem manyD_damaged {pw : Dbl → Dbl} {n : Nat} {s s' : ISegd} {us : List Trace} {b : Bytes}
    (hl : b.length = s.file.data.length) (e : readManyD pw n s = .ok (us, s')) (hk : FormsKept pw s b)
    (hf : ∀ n us s1, readManyD pw n s = .ok (us, s1) → s1.gh1.formatCode ≠ 8022 ∧ s1.gh1.formatCode ≠ 8042) :
    ∃ us', us'.length = us.length ∧ readManyD pw n (s.on b) = .ok (us', s'.on b) := by
  induction n generalizing s us with
  | zero =>
    cases e
    exact ⟨[], rfl, rfl⟩
  | succ n ih =>
    obtain ⟨⟨t, s1⟩, e1, e⟩ := bind_ok e
    obtain ⟨⟨ts, s2⟩, e2, e⟩ := bind_ok e
    cases e
    have hfile := readTraceD_file e1
    obtain ⟨f1, f2⟩ := hf 0 [] s rfl
    obtain ⟨t', g1, -⟩ := traceD_damaged hl f1 f2 e1 (hk 0 [] s t s1 rfl e1)
    have step : ∀ n us s2, readManyD pw n s1 = .ok (us, s2) → readManyD pw (n + 1) s = .ok (t :: us, s2) := by
      intro n us s2 h
      unfold readManyD
      rw [e1, ok_bind]
      simp only
      rw [h]
      rfl
    obtain ⟨us', i1, i2⟩ := ih (s := s1) (by rw [hfile.1]; exact hl) e2
      (fun n us s2 t2 s3 h h' => by rw [hfile.1]; exact hk (n + 1) _ s2 t2 s3 (step n us s2 h) h')
      (fun n us s2 h => hf (n + 1) _ s2 (step n us s2 h))
    refine ⟨t' :: us', by simp [i1], ?_⟩
    unfold readManyD
    rw [g1, ok_bind]
    simp only
    rw [i2]
    rfl

end Sedaman
