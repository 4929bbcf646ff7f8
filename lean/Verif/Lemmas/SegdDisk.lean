import Verif.Lemmas.SegdE2E2
import Verif.Lemmas.SegdLocal
import Verif.Spec.SegdDisk

/-!
# Reading a SEG-D file that is cut short
-/

namespace Sedaman

open Spec

/-- `x` is what happens in state `s`, `y` what happens in the same state on the first `k` bytes of the
file: the same or an exception. If bytes beyond these are read, it is the exception. -/
def CutAt {γ : Type} (k : Nat) (st : γ → ISegd) (rep : γ → γ) (s : ISegd) (x y : Out γ) : Prop :=
  ∀ v, x = .ok v → s.file.pos ≤ (st v).file.pos ∧ (st v).file.data = s.file.data ∧
    (y = .ok (rep v) ∨ y = throwExn .iosFailure) ∧
    (k < (st v).file.pos → s.file.pos < (st v).file.pos → y = throwExn .iosFailure)

/-- Without the last clause, which seeks break. -/
def CutWeak {γ : Type} (st : γ → ISegd) (rep : γ → γ) (s : ISegd) (x y : Out γ) : Prop :=
  ∀ v, x = .ok v → s.file.pos ≤ (st v).file.pos ∧ (st v).file.data = s.file.data ∧
    (y = .ok (rep v) ∨ y = throwExn .iosFailure)

/-- The first `k` bytes. -/
def ISegd.cut (s : ISegd) (k : Nat) : ISegd := s.on (s.file.data.take k)

abbrev Cut1 (k : Nat) (d : Bytes) (s : ISegd) (x y : Out ISegd) : Prop :=
  CutAt k id (·.on (d.take k)) s x y

abbrev Cut2 {α : Type} (k : Nat) (d : Bytes) (s : ISegd) (x y : Out (α × ISegd)) : Prop :=
  CutAt k (·.2) (fun p => (p.1, p.2.on (d.take k))) s x y

theorem CutAt.weak {γ : Type} {k : Nat} {st : γ → ISegd} {rep : γ → γ} {s : ISegd} {x y : Out γ}
    (h : CutAt k st rep s x y) : CutWeak st rep s x y :=
  fun v hv => ⟨(h v hv).1, (h v hv).2.1, (h v hv).2.2.1⟩

theorem throw_bind {α β : Type} {e : Exn} (f : α → Out β) : ((throwExn e : Out α) >>= f) = throwExn e := rfl

theorem CutAt.bind {γ δ : Type} {k : Nat} {st : γ → ISegd} {rep : γ → γ} {st' : δ → ISegd} {rep' : δ → δ}
    {s : ISegd} {x y : Out γ} {f g : γ → Out δ} (h : CutAt k st rep s x y)
    (hf : ∀ v, x = .ok v → (st v).file.data = s.file.data → CutAt k st' rep' (st v) (f v) (g (rep v))) :
    CutAt k st' rep' s (x >>= f) (y >>= g) := by
  intro w hw
  obtain ⟨v, hv, hw⟩ := bind_ok hw
  obtain ⟨h1, h2, h3, h4⟩ := h v hv
  obtain ⟨k1, k2, k3, k4⟩ := hf v hv h2 w hw
  refine ⟨Nat.le_trans h1 k1, k2.trans h2, ?_, fun a b => ?_⟩
  · rcases h3 with h3 | h3
    · rw [h3, ok_bind]; exact k3
    · rw [h3]; exact .inr rfl
  · by_cases hp : (st v).file.pos < (st' w).file.pos
    · rcases h3 with h3 | h3
      · rw [h3, ok_bind]; exact k4 a hp
      · rw [h3]; rfl
    · rw [h4 (by omega) (by omega)]; rfl

theorem CutWeak.bind {γ δ : Type} {st : γ → ISegd} {rep : γ → γ} {st' : δ → ISegd} {rep' : δ → δ}
    {s : ISegd} {x y : Out γ} {f g : γ → Out δ} (h : CutWeak st rep s x y)
    (hf : ∀ v, x = .ok v → (st v).file.data = s.file.data → CutWeak st' rep' (st v) (f v) (g (rep v))) :
    CutWeak st' rep' s (x >>= f) (y >>= g) := by
  intro w hw
  obtain ⟨v, hv, hw⟩ := bind_ok hw
  obtain ⟨h1, h2, h3⟩ := h v hv
  obtain ⟨k1, k2, k3⟩ := hf v hv h2 w hw
  refine ⟨Nat.le_trans h1 k1, k2.trans h2, ?_⟩
  rcases h3 with h3 | h3
  · rw [h3, ok_bind]; exact k3
  · rw [h3]; exact .inr rfl

theorem cut_lift {α δ : Type} {k : Nat} {st' : δ → ISegd} {rep' : δ → δ} {s : ISegd} {x : Out α}
    {f g : α → Out δ} (hf : ∀ v, x = .ok v → CutAt k st' rep' s (f v) (g v)) :
    CutAt k st' rep' s (x >>= f) (x >>= g) := by
  intro w hw
  obtain ⟨v, hv, hw⟩ := bind_ok hw
  rw [hv, ok_bind]
  exact hf v hv w hw

theorem weak_lift {α δ : Type} {st' : δ → ISegd} {rep' : δ → δ} {s : ISegd} {x : Out α}
    {f g : α → Out δ} (hf : ∀ v, x = .ok v → CutWeak st' rep' s (f v) (g v)) :
    CutWeak st' rep' s (x >>= f) (x >>= g) := by
  intro w hw
  obtain ⟨v, hv, hw⟩ := bind_ok hw
  rw [hv, ok_bind]
  exact hf v hv w hw

theorem cut_ok {γ : Type} {k : Nat} {st : γ → ISegd} {rep : γ → γ} {s : ISegd} {v : γ}
    (hp : (st v).file = s.file) : CutAt k st rep s (.ok v) (.ok (rep v)) := by
  intro w hw
  cases hw
  rw [hp]
  exact ⟨Nat.le_refl _, rfl, .inl rfl, fun _ h => absurd h (Nat.lt_irrefl _)⟩

theorem CutAt.other {γ : Type} {k : Nat} {st : γ → ISegd} {rep : γ → γ} {s s' : ISegd} {x y : Out γ}
    (h : CutAt k st rep s' x y) (he : s'.file = s.file) : CutAt k st rep s x y := by
  intro v hv
  obtain h := h v hv
  rw [he] at h
  exact h

theorem fill_short {s : ISegd} {n : Nat} (h0 : n ≠ 0) (h : s.file.data.length < s.file.pos + n) :
    s.fill n = throwExn .iosFailure := by
  unfold ISegd.fill File.read
  have : ((s.file.data.drop s.file.pos).take n).length ≠ n := by
    rw [List.length_take, List.length_drop]
    omega
  dsimp only
  rw [if_neg this]
  rfl

theorem cut_fill (k : Nat) (d : Bytes) (s : ISegd) (hd : s.file.data = d) (n : Nat) :
    Cut2 k d s (s.fill n) ((s.on (d.take k)).fill n) := by
  subst hd
  intro v hv
  have hl := loc_fill (s.file.data.take k) s n v hv
  obtain ⟨b, s1⟩ := v
  obtain ⟨h1, h2, rfl⟩ := fill_ok hv
  have short : k < s.file.pos + n → n ≠ 0 →
      (s.on (s.file.data.take k)).fill n = throwExn .iosFailure := fun hk hn =>
    fill_short hn (by
      change (s.file.data.take k).length < s.file.pos + n
      rw [List.length_take]
      omega)
  refine ⟨hl.1, hl.2.1, ?_, fun a b => ?_⟩
  · by_cases hk : s.file.pos + n ≤ k
    · refine .inl (hl.2.2 (SameTo.inside (n := s.file.pos + n) ?_ _))
      change List.take (s.file.pos + n) (s.file.data.take k) = List.take (s.file.pos + n) s.file.data
      rw [List.take_take, Nat.min_eq_left hk]
    · by_cases hn : n = 0
      · subst hn
        refine .inl ?_
        have hb : b = [] := List.length_eq_zero_iff.1 h2
        subst hb
        rfl
      · exact .inr (short (by omega) hn)
  · have a : k < s.file.pos + n := a
    have b : s.file.pos < s.file.pos + n := b
    exact short a (by omega)

theorem cut_blks (k : Nat) (d : Bytes) (rd : Bytes → BlkMap → Out BlkMap) (n : Nat) (s : ISegd)
    (hd : s.file.data = d) : Cut1 k d s (readBlks rd n s) (readBlks rd n (s.on (d.take k))) := by
  induction n generalizing s with
  | zero => exact cut_ok rfl
  | succ n ih =>
    unfold readBlks
    refine (cut_fill k d s hd 32).bind fun p _ hp => ?_
    obtain ⟨b, s1⟩ := p
    exact cut_lift fun m _ => (ih { s1 with blks := m } (Eq.trans hp hd)).other rfl

theorem cut_general2 (k : Nat) (d b : Bytes) (s : ISegd) (hd : s.file.data = d) :
    Cut1 k d s (readGeneral2 b s) (readGeneral2 b (s.on (d.take k))) := by
  unfold readGeneral2
  refine cut_lift fun p _ => ?_
  obtain ⟨g2, r⟩ := p
  exact (cut_blks k d _ _ { s with gh2 := g2 } hd).other rfl

theorem cut_general3 (k : Nat) (d b : Bytes) (s : ISegd) (hd : s.file.data = d) :
    Cut1 k d s (readGeneral3 b s) (readGeneral3 b (s.on (d.take k))) := by
  unfold readGeneral3
  refine cut_lift fun p _ => ?_
  obtain ⟨g2, r⟩ := p
  refine CutAt.bind ((cut_fill k d { s with gh2 := g2 } hd 32).other rfl) fun p _ hp => ?_
  obtain ⟨b3, s1⟩ := p
  refine cut_lift fun p _ => ?_
  obtain ⟨g3, r⟩ := p
  exact (cut_blks k d _ _ { s1 with gh3 := g3 } (Eq.trans hp hd)).other rfl

theorem cut_generalAdd (k : Nat) (d : Bytes) (s : ISegd) (hd : s.file.data = d) :
    Cut1 k d s (readGeneralAdd s) (readGeneralAdd (s.on (d.take k))) := by
  unfold readGeneralAdd
  refine (cut_fill k d s hd 32).bind fun p _ hp => ?_
  obtain ⟨b, s1⟩ := p
  refine cut_lift fun p _ => ?_
  obtain ⟨g2, r⟩ := p
  dsimp only [ISegd.on]
  split
  · exact (cut_general2 k d b { s1 with gh2 := g2 } (Eq.trans hp hd)).other rfl
  · exact (cut_general3 k d b { s1 with gh2 := g2 } (Eq.trans hp hd)).other rfl

theorem cut_general (k : Nat) (d : Bytes) (s : ISegd) (hd : s.file.data = d) :
    Cut1 k d s (readGeneral s) (readGeneral (s.on (d.take k))) := by
  unfold readGeneral
  refine (cut_fill k d s hd 32).bind fun p _ hp => ?_
  obtain ⟨b, s1⟩ := p
  refine cut_lift fun p _ => ?_
  obtain ⟨g1, r⟩ := p
  dsimp only [ISegd.on]
  split
  · exact (cut_generalAdd k d { s1 with gh1 := g1 } (Eq.trans hp hd)).other rfl
  · exact cut_ok rfl

theorem cut_chSetHdr (k : Nat) (d : Bytes) (s : ISegd) (hd : s.file.data = d) :
    Cut2 k d s (readChSetHdr s) (readChSetHdr (s.on (d.take k))) := by
  unfold readChSetHdr
  refine (cut_fill k d s hd _).bind fun p _ _ => ?_
  obtain ⟨b, s1⟩ := p
  refine cut_lift fun p _ => ?_
  obtain ⟨h, r⟩ := p
  exact cut_ok (v := (h, s1)) rfl

theorem cut_chSets (k : Nat) (d : Bytes) (n : Nat) (s : ISegd) (hd : s.file.data = d) :
    Cut2 k d s (readChSets n s) (readChSets n (s.on (d.take k))) := by
  induction n generalizing s with
  | zero => exact cut_ok (v := (([] : List ChSet), s)) rfl
  | succ n ih =>
    unfold readChSets
    refine (cut_chSetHdr k d s hd).bind fun p _ hp => ?_
    obtain ⟨h, s1⟩ := p
    refine CutAt.bind ((ih { s1 with chansIn := s1.chansIn + h.numberOfChannels } (Eq.trans hp hd)).other rfl)
      fun p _ _ => ?_
    obtain ⟨t, s2⟩ := p
    exact cut_ok (v := (h :: t, s2)) rfl

theorem cut_seek (k : Nat) (d : Bytes) (s : ISegd) (n : Nat) :
    CutWeak id (·.on (d.take k)) s (do let f ← s.file.seekCur (n : Int); pure { s with file := f })
      (do let f ← (s.on (d.take k)).file.seekCur (n : Int); pure { s.on (d.take k) with file := f }) := by
  intro v hv
  rw [seekCur_nat, ok_bind] at hv
  cases hv
  refine ⟨Nat.le_add_right _ _, rfl, .inl ?_⟩
  rw [seekCur_nat]
  rfl

theorem CutWeak.other {γ : Type} {st : γ → ISegd} {rep : γ → γ} {s s' : ISegd} {x y : Out γ}
    (h : CutWeak st rep s' x y) (he : s'.file = s.file) : CutWeak st rep s x y := by
  intro v hv
  obtain h := h v hv
  rw [he] at h
  exact h

theorem cut_scanTypes (k : Nat) (d : Bytes) (n : Nat) (s : ISegd) (hd : s.file.data = d) :
    CutWeak id (·.on (d.take k)) s (readScanTypes n s) (readScanTypes n (s.on (d.take k))) := by
  induction n generalizing s with
  | zero => exact (cut_ok (k := k) rfl).weak
  | succ n ih =>
    unfold readScanTypes
    refine (cut_chSets k d _ s hd).weak.bind fun p _ hp => ?_
    obtain ⟨sets, s1⟩ := p
    refine CutWeak.bind ((cut_seek k d { s1 with chSets := s1.chSets ++ [sets] } _).other rfl) fun s2 _ h2 => ?_
    exact ih s2 ((Eq.trans h2 hp).trans hd)

theorem skew_ok {s s' : ISegd} (h : s.skipSkew = .ok s') :
    s' = s.at (s.file.pos + s.skewBlks * 32) := by
  unfold ISegd.skipSkew at h
  rw [seekCur_nat, ok_bind] at h
  cases h
  rfl

theorem chSets_same {n : Nat} {s s' : ISegd} {l : List ChSet} (h : readChSets n s = .ok (l, s')) :
    s'.gh1 = s.gh1 ∧ s'.gh2 = s.gh2 := by
  obtain ⟨-, p, rfl, -⟩ := readChSets_ok h
  exact ⟨rfl, rfl⟩

theorem cut_scanTypes0 (k : Nat) (d : Bytes) (n : Nat) (s : ISegd) (hd : s.file.data = d)
    (h0 : s.skewBlks = 0) :
    Cut1 k d s (readScanTypes n s) (readScanTypes n (s.on (d.take k))) := by
  induction n generalizing s with
  | zero => exact cut_ok rfl
  | succ n ih =>
    unfold readScanTypes
    refine (cut_chSets k d _ s hd).bind fun p hx hp => ?_
    obtain ⟨sets, s1⟩ := p
    obtain ⟨e1, e2⟩ := chSets_same hx
    have h1 : ISegd.skewBlks { s1 with chSets := s1.chSets ++ [sets] } = 0 := by
      rw [← h0]
      unfold ISegd.skewBlks
      simp only [e1, e2]
    have hs : ISegd.skipSkew { s1 with chSets := s1.chSets ++ [sets] }
        = .ok { s1 with chSets := s1.chSets ++ [sets] } := by
      unfold ISegd.skipSkew
      rw [h1, seekCur_nat, ok_bind]
      rfl
    have hs' : ISegd.skipSkew { s1.on (d.take k) with chSets := s1.chSets ++ [sets] }
        = .ok (({ s1 with chSets := s1.chSets ++ [sets] } : ISegd).on (d.take k)) := by
      unfold ISegd.skipSkew
      rw [show ISegd.skewBlks { s1.on (d.take k) with chSets := s1.chSets ++ [sets] } = 0 from h1,
        seekCur_nat, ok_bind]
      rfl
    have hs2 : ISegd.skipSkew { s1.on (d.take k) with chSets := (s1.on (d.take k)).chSets ++ [sets] }
        = .ok (({ s1 with chSets := s1.chSets ++ [sets] } : ISegd).on (d.take k)) := hs'
    simp only
    rw [hs, hs2, ok_bind, ok_bind]
    exact (ih { s1 with chSets := s1.chSets ++ [sets] } (Eq.trans hp hd) h1).other rfl

theorem cut_blocks32 (k : Nat) (d : Bytes) (n : Nat) (s : ISegd) (hd : s.file.data = d) :
    Cut2 k d s (readBlocks32 n s) (readBlocks32 n (s.on (d.take k))) := by
  induction n generalizing s with
  | zero => exact cut_ok (v := (([] : List Bytes), s)) rfl
  | succ n ih =>
    unfold readBlocks32
    refine (cut_fill k d s hd 32).bind fun p _ hp => ?_
    obtain ⟨b, s1⟩ := p
    refine (ih s1 (Eq.trans hp hd)).bind fun p _ _ => ?_
    obtain ⟨t, s2⟩ := p
    exact cut_ok (v := (b :: t, s2)) rfl

/-- The last blocks of the headers. -/
def readUserBlks (s : ISegd) : Out ISegd := do
  let (extended, s) ← readBlocks32 s.extendedBlks s
  let s := { s with extended }
  let (external, s) ← readBlocks32 s.externalBlks s
  pure { s with external }

theorem cut_userBlks (k : Nat) (d : Bytes) (s : ISegd) (hd : s.file.data = d) :
    Cut1 k d s (readUserBlks s) (readUserBlks (s.on (d.take k))) := by
  unfold readUserBlks
  refine (cut_blocks32 k d _ s hd).bind fun p _ hp => ?_
  obtain ⟨ex, s3⟩ := p
  refine CutAt.bind ((cut_blocks32 k d _ { s3 with extended := ex } (Eq.trans hp hd)).other rfl) fun p _ _ => ?_
  obtain ⟨el, s4⟩ := p
  exact cut_ok (st := id) (rep := (·.on (d.take k))) (s := s4) (v := { s4 with external := el }) rfl

theorem cut_extLoop (k : Nat) (d : Bytes) (rev : Int) (m : ExtMap) (n i : Nat) (h : Header) (s : ISegd)
    (hd : s.file.data = d) :
    Cut2 k d s (s.onRest (readExtLoop rev m n i h)) ((s.on (d.take k)).onRest (readExtLoop rev m n i h)) := by
  induction n generalizing i h s with
  | zero =>
    have : ∀ s : ISegd, s.onRest (readExtLoop rev m 0 i h) = .ok (h, s) := fun s => onRest_pure s h
    rw [this, this]
    exact cut_ok (v := (h, s)) rfl
  | succ n ih =>
    rw [onRest_extLoop, onRest_extLoop]
    refine (cut_fill k d s hd 32).bind fun p _ hp => ?_
    exact cut_lift fun h' _ => ih _ _ _ (Eq.trans hp hd)

theorem cut_samples (k : Nat) (d : Bytes) (fmt : Int) (x : Dbl) (n : Nat) (s : ISegd) (hd : s.file.data = d) :
    Cut2 k d s (s.onRest (readSamplesD fmt x n)) ((s.on (d.take k)).onRest (readSamplesD fmt x n)) := by
  cases hq : segdReader fmt with
  | error e =>
    intro v hv
    rw [onRest_eq] at hv
    unfold readSamplesD at hv
    rw [hq] at hv
    cases hv
  | ok q =>
    obtain ⟨bits, r⟩ := q
    rw [readSamplesD_eq hq, readSamplesD_eq hq]
    refine (cut_fill k d s hd _).bind fun p _ _ => ?_
    refine cut_lift fun q _ => ?_
    exact cut_ok (v := (q.1, p.2)) rfl

theorem cut_body (k : Nat) (d : Bytes) (pw : Dbl → Dbl) (s : ISegd) (hd : s.file.data = d) :
    Cut2 k d s (readTraceBody pw s) (readTraceBody pw (s.on (d.take k))) := by
  unfold readTraceBody
  refine (cut_fill k d s hd 20).bind fun p _ hp => ?_
  obtain ⟨b, s1⟩ := p
  refine cut_lift fun p _ => ?_
  obtain ⟨h, r⟩ := p
  refine CutAt.bind (st := (·.2)) (rep := fun p => (p.1, p.2.on (d.take k))) ?_ fun p _ hp2 => ?_
  · dsimp only
    rw [onRest_readExt, onRest_readExt]
    exact cut_lift fun n _ => cut_extLoop k d _ _ _ _ _ _ (Eq.trans hp hd)
  obtain ⟨h', s2⟩ := p
  refine cut_lift (x := s2.chSetOf h') fun p _ => ?_
  obtain ⟨c, h2⟩ := p
  refine cut_lift fun n _ => ?_
  refine (cut_samples k d _ _ _ s2 ((Eq.trans hp2 hp).trans hd)).bind fun p _ _ => ?_
  obtain ⟨xs, s3⟩ := p
  exact cut_ok (v := ((⟨h2, xs⟩ : Trace), s3)) rfl

/-! ## Headers -/

theorem blocks32_pos : ∀ {n : Nat} {s s' : ISegd} {bs : List Bytes},
    readBlocks32 n s = .ok (bs, s') → s' = s.at (s.file.pos + n * 32) := by
  intro n
  induction n with
  | zero => intro s s' bs h; cases h; rfl
  | succ n ih =>
    intro s s' bs h
    obtain ⟨⟨b, s1⟩, h1, h0⟩ := bind_ok h
    obtain ⟨⟨t, s2⟩, h2, h3⟩ := bind_ok h0
    obtain ⟨-, -, rfl⟩ := fill_ok h1
    have := ih h2
    cases h3
    rw [this]
    change s.at (s.file.pos + 32 + n * 32) = _
    congr 1
    omega

theorem userBlks_ok {s f : ISegd} (h : readUserBlks s = .ok f) :
    f.gh1 = s.gh1 ∧ f.gh2 = s.gh2 ∧ f.file.pos = s.file.pos + (s.extendedBlks + s.externalBlks) * 32 := by
  obtain ⟨⟨ex, s1⟩, h1, h⟩ := bind_ok h
  obtain ⟨⟨el, s2⟩, h2, h⟩ := bind_ok h
  have e1 := blocks32_pos h1
  subst e1
  have e2 := blocks32_pos h2
  subst e2
  cases h
  refine ⟨rfl, rfl, ?_⟩
  change s.file.pos + s.extendedBlks * 32 + s.externalBlks * 32 = _
  omega

theorem readHeaders_eq (s : ISegd) : readHeaders s = (do
    let s ← readGeneral s
    let _ ← segdReader s.gh1.formatCode
    let s ← readScanTypes s.gh1.scanTypesPerRecord.toNat s
    readUserBlks s) := rfl

/-- A file without a part of its headers opens as before or not at all. -/
theorem headers_cut {s f : ISegd} (k : Nat) (h : readHeaders s = .ok f) :
    (readHeaders (s.on (s.file.data.take k)) = .ok (f.on (s.file.data.take k)) ∨
      readHeaders (s.on (s.file.data.take k)) = throwExn .iosFailure) ∧
    (k < f.file.pos → f.skewBlks = 0 ∨ f.extendedBlks ≠ 0 ∨ f.externalBlks ≠ 0 →
      readHeaders (s.on (s.file.data.take k)) = throwExn .iosFailure) := by
  have hpos := (readHeaders_ok h).2.2.2.1
  rw [readHeaders_eq] at h
  have hg := cut_general k s.file.data s rfl
  have weak : CutWeak id (·.on (s.file.data.take k)) s (readHeaders s)
      (readHeaders (s.on (s.file.data.take k))) := by
    rw [readHeaders_eq, readHeaders_eq]
    refine hg.weak.bind fun s1 _ h1 => ?_
    refine weak_lift (x := segdReader s1.gh1.formatCode) fun _ _ => ?_
    refine (cut_scanTypes k s.file.data _ s1 h1).bind fun s2 _ h2 => ?_
    exact (cut_userBlks k s.file.data s2 (Eq.trans h2 h1)).weak
  refine ⟨(weak f h).2.2, fun hk hc => ?_⟩
  obtain ⟨s1, h1, h⟩ := bind_ok h
  obtain ⟨q, hq, h⟩ := bind_ok h
  obtain ⟨s2, h2, h⟩ := bind_ok h
  obtain ⟨u1, u2, u3⟩ := userBlks_ok h
  obtain ⟨p3, new, e2, -, -⟩ := readScanTypes_ok h2
  have g1 : s2.gh1 = s1.gh1 := by rw [e2]; rfl
  have g2 : s2.gh2 = s1.gh2 := by rw [e2]; rfl
  have hx : f.extendedBlks = s2.extendedBlks := by unfold ISegd.extendedBlks; rw [u1, u2]
  have hl : f.externalBlks = s2.externalBlks := by unfold ISegd.externalBlks; rw [u1, u2]
  have hsk : f.skewBlks = s1.skewBlks := by unfold ISegd.skewBlks; rw [u1, u2, g1, g2]
  rw [hx, hl, hsk] at hc
  obtain ⟨a1, a2, a3, a4⟩ := hg s1 h1
  obtain ⟨b1, b2, b3⟩ := cut_scanTypes k s.file.data s1.gh1.scanTypesPerRecord.toNat s1 a2 s2 h2
  obtain ⟨c1, c2, c3, c4⟩ := cut_userBlks k s.file.data s2 (Eq.trans b2 a2) f h
  rw [readHeaders_eq]
  by_cases hu : s2.file.pos < f.file.pos
  · have hfin := c4 hk hu
    rcases a3 with a3 | a3
    · rw [a3, ok_bind]
      have hq' : segdReader (s1.on (s.file.data.take k)).gh1.formatCode = .ok q := hq
      rw [hq', ok_bind]
      rcases b3 with b3 | b3
      · have b3' : readScanTypes (s1.on (s.file.data.take k)).gh1.scanTypesPerRecord.toNat
            (s1.on (s.file.data.take k)) = .ok (s2.on (s.file.data.take k)) := b3
        rw [b3', ok_bind]
        exact hfin
      · have b3' : readScanTypes (s1.on (s.file.data.take k)).gh1.scanTypesPerRecord.toNat
            (s1.on (s.file.data.take k)) = throwExn .iosFailure := b3
        rw [b3']
        rfl
    · rw [a3]; rfl
  · have hu0 : s2.extendedBlks = 0 ∧ s2.externalBlks = 0 := by omega
    have h0 : s1.skewBlks = 0 := by
      rcases hc with hc | hc | hc
      · exact hc
      · exact absurd hu0.1 hc
      · exact absurd hu0.2 hc
    have key : Cut1 k s.file.data s (do
        let s ← readGeneral s
        let _ ← segdReader s.gh1.formatCode
        readScanTypes s.gh1.scanTypesPerRecord.toNat s)
        (do
        let s ← readGeneral (s.on (s.file.data.take k))
        let _ ← segdReader s.gh1.formatCode
        readScanTypes s.gh1.scanTypesPerRecord.toNat s) := by
      refine hg.bind fun t1 ht1 hd1 => ?_
      rw [h1] at ht1
      cases ht1
      exact cut_lift (x := segdReader s1.gh1.formatCode) fun _ _ =>
        cut_scanTypes0 k s.file.data _ s1 hd1 h0
    have hx2 : (do
        let s ← readGeneral s
        let _ ← segdReader s.gh1.formatCode
        readScanTypes s.gh1.scanTypesPerRecord.toNat s) = .ok s2 := by
      rw [h1, ok_bind, hq, ok_bind, h2]
    have hp2 : f.file.pos = s2.file.pos := by omega
    have := (key s2 hx2).2.2.2 (by change k < s2.file.pos; omega)
      (by change s.file.pos < s2.file.pos; omega)
    cases hr : readGeneral (s.on (s.file.data.take k)) with
    | error e =>
      rw [hr] at this
      exact this
    | ok t1 =>
      rw [hr, ok_bind] at this
      rw [ok_bind]
      cases hr2 : segdReader t1.gh1.formatCode with
      | error e =>
        rw [hr2] at this
        exact this
      | ok t2 =>
        rw [hr2, ok_bind] at this
        rw [ok_bind, this]
        rfl

/-! ## Traces -/

theorem body_end {pw : Dbl → Dbl} {s : ISegd} (h : s.file.data.length < s.file.pos + 20) :
    readTraceD pw s = throwExn .iosFailure := by
  unfold readTraceD readTraceBody
  rw [fill_short (by decide) h]
  rfl

/-- The traces of a record whose file was cut. -/
theorem traces_cut {H : Host} {a : OSegdArgs} {R : Trace → Trace → Prop} :
    ∀ (ts : List Trace), (∀ t ∈ ts, ∃ bytes, Writable H a t bytes ∧ ∀ (s : ISegd) (rest : Bytes),
      InRecord a s → Ahead s (bytes ++ rest) →
      ∃ t' p, R t t' ∧ readTraceBody H.pw s = .ok (t', s.at p) ∧ Ahead (s.at p) rest) →
    ∃ bytes, List.Forall₂ (Writable H a) ts bytes ∧ ∀ (s : ISegd) (j : Nat), InRecord a s →
      Ahead s (bytes.flatten.take j) → j ≤ bytes.flatten.length → s.chansRead + ts.length ≤ s.chansIn →
      ∃ n back e, n ≤ ts.length ∧ (bytes.take n).flatten.length ≤ j ∧
        (n < ts.length → j < (bytes.take (n + 1)).flatten.length) ∧
        IteratesD H.pw s back e ∧ List.Forall₂ R (ts.take n) back ∧
        e.hasTrace = decide (s.chansRead + n < s.chansIn) ∧
        (e.hasTrace = true → readTraceD H.pw e = throwExn .iosFailure) ∧
        (e.hasTrace = false → e.hasRecord = false) := by
  intro ts
  induction ts with
  | nil =>
    intro _
    refine ⟨[], .nil, fun s j _ ha _ hc => ⟨0, [], s, Nat.le_refl _, Nat.zero_le _, fun h => absurd h (by simp),
      rfl, .nil, ?_, fun _ => ?_, fun _ => ?_⟩⟩
    · have hc : s.chansRead + 0 ≤ s.chansIn := hc
      exact decide_eq_decide.2 ⟨fun h => by omega, fun h => by omega⟩
    · obtain ⟨pre, hp⟩ := ha
      refine body_end ?_
      rw [hp]
      simp
    · obtain ⟨pre, hp⟩ := ha
      simp [ISegd.hasRecord, hp]
  | cons t ts ih =>
    intro hall
    obtain ⟨b, w1, r1⟩ := hall t (List.mem_cons_self ..)
    obtain ⟨bs, w2, r2⟩ := ih (fun x hx => hall x (List.mem_cons_of_mem _ hx))
    refine ⟨b :: bs, .cons w1 w2, fun s j hs ha hj hcount => ?_⟩
    rw [List.flatten_cons] at ha hj
    rw [List.length_append] at hj
    simp only [List.length_cons] at hcount
    have ht : s.hasTrace = true := decide_eq_true (by omega)
    by_cases hb : b.length ≤ j
    · rw [List.take_append, List.take_of_length_le hb] at ha
      obtain ⟨t', p, hR, hbody, ha'⟩ := r1 s _ hs ha
      by_cases hlast : s.chansRead + 1 = s.chansIn
      · have hts : ts = [] := List.length_eq_zero_iff.1 (by omega)
        subst hts
        cases w2
        rw [List.flatten_nil, List.take_nil] at ha'
        have hend : p = s.file.data.length := by
          obtain ⟨pre, hpre⟩ := ha'
          have hpre' : (⟨s.file.data, p⟩ : File) = ⟨pre ++ [], pre.length⟩ := hpre
          simp only [File.mk.injEq, List.append_nil] at hpre'
          rw [hpre'.1, hpre'.2]
        have hadv : ISegd.advance (s.at p) =
            .ok { s.at p with chansIn := 0, chansRead := 0, chSets := [] } := by
          unfold ISegd.advance
          have hc : (s.at p).chansIn = (s.at p).chansRead + 1 := hlast.symm
          simp only
          rw [if_pos hc]
          have : (ISegd.hasRecord { s.at p with chansIn := 0, chansRead := 0, chSets := [] }) = false := by
            simp [ISegd.hasRecord, ISegd.at, hend]
          rw [if_neg (by rw [this]; decide)]
        refine ⟨1, [t'], { s.at p with chansIn := 0, chansRead := 0, chSets := [] }, Nat.le_refl _, by simpa using hb,
          fun h => absurd h (by simp), ⟨ht, _, ?_, rfl⟩, .cons hR .nil, ?_,
          fun h => absurd (show false = true from h) (by decide), fun _ => ?_⟩
        · unfold readTraceD
          rw [hbody, ok_bind]
          simp only
          rw [hadv]
          rfl
        · rw [decide_eq_false (by omega)]
          rfl
        · simp [ISegd.hasRecord, ISegd.at, hend]
      · have hadv : ISegd.advance (s.at p) = .ok { s.at p with chansRead := s.chansRead + 1 } := by
          unfold ISegd.advance
          have hc : ¬ (s.at p).chansIn = (s.at p).chansRead + 1 := by
            change ¬ s.chansIn = s.chansRead + 1; omega
          simp only
          rw [if_neg hc]
          rfl
        obtain ⟨n, back, e, k1, k2, k3, k4, k5, k6, k7, k8⟩ :=
          r2 { s.at p with chansRead := s.chansRead + 1 } (j - b.length)
          ⟨hs.gh1, hs.rev, hs.extMap, hs.chSets⟩ (ahead_with ha' rfl) (by omega)
          (by change s.chansRead + 1 + ts.length ≤ s.chansIn; omega)
        refine ⟨n + 1, t' :: back, e, Nat.succ_le_succ k1, ?_, fun h => ?_, ⟨ht, _, ?_, k4⟩, .cons hR k5, ?_, k7, k8⟩
        · rw [List.take_succ_cons, List.flatten_cons, List.length_append]
          omega
        · have := k3 (by simp only [List.length_cons] at h; omega)
          rw [List.take_succ_cons, List.flatten_cons, List.length_append]
          omega
        · unfold readTraceD
          rw [hbody, ok_bind]
          simp only
          rw [hadv]
          rfl
        · rw [k6]
          change decide (s.chansRead + 1 + n < s.chansIn) = _
          rw [Nat.add_assoc, Nat.add_comm 1 n]
    · refine ⟨0, [], s, Nat.zero_le _, Nat.zero_le _, fun _ => ?_, rfl, .nil, ?_, fun _ => ?_, fun h => ?_⟩
      · rw [List.take_succ_cons, List.flatten_cons, List.length_append]
        omega
      · rw [ht]
        exact (decide_eq_true (by omega)).symm
      · rw [List.take_append_of_le_length (by omega)] at ha
        obtain ⟨pre, hpre⟩ := ha
        let s1 : ISegd := { s with file := ⟨pre ++ b, pre.length⟩ }
        obtain ⟨t', p, -, hbody, pre', hpre'⟩ := r1 s1 [] ⟨hs.gh1, hs.rev, hs.extMap, hs.chSets⟩
          ⟨pre, by rw [List.append_nil]⟩
        have hpre2 : (⟨pre ++ b, p⟩ : File) = ⟨pre' ++ [], pre'.length⟩ := hpre'
        simp only [File.mk.injEq, List.append_nil] at hpre2
        have hp : p = pre.length + b.length := by rw [hpre2.2, ← hpre2.1, List.length_append]
        have hcut := (cut_body (pre.length + j) s1.file.data H.pw s1 rfl _ hbody).2.2.2
          (by change pre.length + j < p; omega) (by change pre.length < p; omega)
        have hss : s1.on (s1.file.data.take (pre.length + j)) = s := by
          change ({ s with file := ⟨(pre ++ b).take (pre.length + j), pre.length⟩ } : ISegd) = s
          rw [List.take_length_add_append, ← hpre]
        rw [hss] at hcut
        unfold readTraceD
        rw [hcut]
        rfl
      · rw [ht] at h
        cases h

end Sedaman
