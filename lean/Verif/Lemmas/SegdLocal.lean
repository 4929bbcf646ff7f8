import Verif.Lemmas.SegdReader
import Verif.Lemmas.SegdFail

/-!
# Reading depends only on the bytes up to the final position
-/

namespace Sedaman

open Spec

/-- The same reader on another file. -/
def ISegd.on (s : ISegd) (d : Bytes) : ISegd := { s with file := ⟨d, s.file.pos⟩ }

/-- Two files agree in their first `n` bytes. -/
def SameTo (d d' : Bytes) (n : Nat) : Prop := d.take n = d'.take n

theorem SameTo.le {d d' : Bytes} {n m : Nat} (h : SameTo d d' n) (hm : m ≤ n) : SameTo d d' m := by
  have := congrArg (List.take m) h
  rwa [List.take_take, List.take_take, Nat.min_eq_left hm] at this

theorem SameTo.slice {d d' : Bytes} {p n : Nat} (h : SameTo d d' (p + n)) :
    (d.drop p).take n = (d'.drop p).take n := by
  have := congrArg (List.drop p) h
  rwa [List.drop_take, List.drop_take, Nat.add_sub_cancel_left] at this

/-- Two files agree in the bytes from `p` to `q`. -/
def SameIn (d d' : Bytes) (p q : Nat) : Prop := (d.drop p).take (q - p) = (d'.drop p).take (q - p)

theorem SameTo.inside {d d' : Bytes} {n : Nat} (h : SameTo d d' n) (p : Nat) : SameIn d d' p n := by
  have := congrArg (List.drop p) h
  rwa [List.drop_take, List.drop_take] at this

theorem SameIn.inside {d d' : Bytes} {p q p' q' : Nat} (h : SameIn d d' p q) (hp : p ≤ p') (hq : q' ≤ q) :
    SameIn d d' p' q' := by
  have h := congrArg (fun l => (List.drop (p' - p) l).take (q' - p')) h
  simp only [List.drop_take, List.drop_drop, List.take_take] at h
  rw [show p + (p' - p) = p' by omega, show min (q' - p') (q - p - (p' - p)) = q' - p' by omega] at h
  exact h

/-- `x` is what happens in state `s`, `y` what happens in the same state on the file `d`. -/
def LocAt {γ : Type} (d : Bytes) (st : γ → ISegd) (rep : γ → γ) (s : ISegd) (x y : Out γ) : Prop :=
  ∀ v, x = .ok v → s.file.pos ≤ (st v).file.pos ∧ (st v).file.data = s.file.data ∧
    (SameIn d s.file.data s.file.pos (st v).file.pos → y = .ok (rep v))

/-- For functions that return a state. -/
abbrev Loc1 (d : Bytes) (s : ISegd) (x y : Out ISegd) : Prop := LocAt d id (·.on d) s x y

/-- For functions that return something and a state. -/
abbrev Loc2 {α : Type} (d : Bytes) (s : ISegd) (x y : Out (α × ISegd)) : Prop :=
  LocAt d (·.2) (fun p => (p.1, p.2.on d)) s x y

theorem LocAt.bind {γ δ : Type} {d : Bytes} {st : γ → ISegd} {rep : γ → γ} {st' : δ → ISegd} {rep' : δ → δ}
    {s : ISegd} {x y : Out γ} {f g : γ → Out δ} (h : LocAt d st rep s x y)
    (hf : ∀ v, x = .ok v → LocAt d st' rep' (st v) (f v) (g (rep v))) :
    LocAt d st' rep' s (x >>= f) (y >>= g) := by
  intro w hw
  obtain ⟨v, hv, hw⟩ := bind_ok hw
  obtain ⟨h1, h2, h3⟩ := h v hv
  obtain ⟨k1, k2, k3⟩ := hf v hv w hw
  refine ⟨Nat.le_trans h1 k1, k2.trans h2, fun ha => ?_⟩
  rw [h3 (ha.inside (Nat.le_refl _) k1), ok_bind]
  rw [h2] at k3
  exact k3 (ha.inside h1 (Nat.le_refl _))

theorem loc_lift {α δ : Type} {d : Bytes} {st' : δ → ISegd} {rep' : δ → δ} {s : ISegd} {x : Out α}
    {f g : α → Out δ} (hf : ∀ v, x = .ok v → LocAt d st' rep' s (f v) (g v)) :
    LocAt d st' rep' s (x >>= f) (x >>= g) := by
  intro w hw
  obtain ⟨v, hv, hw⟩ := bind_ok hw
  rw [hv, ok_bind]
  exact hf v hv w hw

theorem loc_ok {γ : Type} {d : Bytes} {st : γ → ISegd} {rep : γ → γ} {s : ISegd} {v : γ}
    (hp : (st v).file = s.file) : LocAt d st rep s (.ok v) (.ok (rep v)) := by
  intro w hw
  cases hw
  rw [hp]
  exact ⟨Nat.le_refl _, rfl, fun _ => rfl⟩

/-- The members other than the file do not matter for the position. -/
theorem LocAt.other {γ : Type} {d : Bytes} {st : γ → ISegd} {rep : γ → γ} {s s' : ISegd} {x y : Out γ}
    (h : LocAt d st rep s' x y) (he : s'.file = s.file) : LocAt d st rep s x y := by
  intro v hv
  obtain h := h v hv
  rw [he] at h
  exact h

theorem loc_fill (d : Bytes) (s : ISegd) (n : Nat) : Loc2 d s (s.fill n) ((s.on d).fill n) := by
  intro v hv
  obtain ⟨b, s1⟩ := v
  obtain ⟨h1, h2, rfl⟩ := fill_ok hv
  refine ⟨Nat.le_add_right _ _, rfl, fun ha => ?_⟩
  have e : (d.drop s.file.pos).take n = (s.file.data.drop s.file.pos).take n := by
    have h : (d.drop s.file.pos).take (s.file.pos + n - s.file.pos) =
      (s.file.data.drop s.file.pos).take (s.file.pos + n - s.file.pos) := ha
    rwa [Nat.add_sub_cancel_left] at h
  unfold ISegd.fill
  have : (s.on d).file.read n = .ok (b, ⟨d, s.file.pos + n⟩) := by
    unfold File.read
    have e2 : ((s.on d).file.data.drop (s.on d).file.pos).take n = b := by
      rw [h1, ← e]
      rfl
    dsimp only
    rw [e2, if_pos h2]
    rfl
  rw [this]
  rfl

theorem loc_seek (d : Bytes) (s : ISegd) (n : Nat) :
    Loc1 d s (do let f ← s.file.seekCur (n : Int); pure { s with file := f })
      (do let f ← (s.on d).file.seekCur (n : Int); pure { s.on d with file := f }) := by
  intro v hv
  rw [seekCur_nat, ok_bind] at hv
  cases hv
  refine ⟨Nat.le_add_right _ _, rfl, fun _ => ?_⟩
  rw [seekCur_nat]
  rfl

theorem loc_blks (d : Bytes) (rd : Bytes → BlkMap → Out BlkMap) (n : Nat) (s : ISegd) :
    Loc1 d s (readBlks rd n s) (readBlks rd n (s.on d)) := by
  induction n generalizing s with
  | zero => exact loc_ok rfl
  | succ n ih =>
    unfold readBlks
    refine (loc_fill d s 32).bind fun p _ => ?_
    obtain ⟨b, s1⟩ := p
    exact loc_lift fun m _ => (ih { s1 with blks := m }).other rfl

theorem loc_general2 (d b : Bytes) (s : ISegd) : Loc1 d s (readGeneral2 b s) (readGeneral2 b (s.on d)) := by
  unfold readGeneral2
  refine loc_lift fun p _ => ?_
  obtain ⟨g2, r⟩ := p
  exact (loc_blks d _ _ { s with gh2 := g2 }).other rfl

theorem loc_general3 (d b : Bytes) (s : ISegd) : Loc1 d s (readGeneral3 b s) (readGeneral3 b (s.on d)) := by
  unfold readGeneral3
  refine loc_lift fun p _ => ?_
  obtain ⟨g2, r⟩ := p
  refine LocAt.bind ((loc_fill d { s with gh2 := g2 } 32).other rfl) fun p _ => ?_
  obtain ⟨b3, s1⟩ := p
  refine loc_lift fun p _ => ?_
  obtain ⟨g3, r⟩ := p
  exact (loc_blks d _ _ { s1 with gh3 := g3 }).other rfl

theorem loc_generalAdd (d : Bytes) (s : ISegd) : Loc1 d s (readGeneralAdd s) (readGeneralAdd (s.on d)) := by
  unfold readGeneralAdd
  refine (loc_fill d s 32).bind fun p _ => ?_
  obtain ⟨b, s1⟩ := p
  refine loc_lift fun p _ => ?_
  obtain ⟨g2, r⟩ := p
  dsimp only [ISegd.on]
  split
  · exact (loc_general2 d b { s1 with gh2 := g2 }).other rfl
  · exact (loc_general3 d b { s1 with gh2 := g2 }).other rfl

theorem loc_general (d : Bytes) (s : ISegd) : Loc1 d s (readGeneral s) (readGeneral (s.on d)) := by
  unfold readGeneral
  refine (loc_fill d s 32).bind fun p _ => ?_
  obtain ⟨b, s1⟩ := p
  refine loc_lift fun p _ => ?_
  obtain ⟨g1, r⟩ := p
  dsimp only [ISegd.on]
  split
  · exact (loc_generalAdd d { s1 with gh1 := g1 }).other rfl
  · exact loc_ok rfl

theorem loc_chSetHdr (d : Bytes) (s : ISegd) : Loc2 d s (readChSetHdr s) (readChSetHdr (s.on d)) := by
  unfold readChSetHdr
  refine (loc_fill d s _).bind fun p _ => ?_
  obtain ⟨b, s1⟩ := p
  refine loc_lift fun p _ => ?_
  obtain ⟨h, r⟩ := p
  exact loc_ok (v := (h, s1)) rfl

theorem loc_chSets (d : Bytes) (n : Nat) (s : ISegd) : Loc2 d s (readChSets n s) (readChSets n (s.on d)) := by
  induction n generalizing s with
  | zero => exact loc_ok (v := (([] : List ChSet), s)) rfl
  | succ n ih =>
    unfold readChSets
    refine (loc_chSetHdr d s).bind fun p _ => ?_
    obtain ⟨h, s1⟩ := p
    refine LocAt.bind ((ih { s1 with chansIn := s1.chansIn + h.numberOfChannels }).other rfl) fun p _ => ?_
    obtain ⟨t, s2⟩ := p
    exact loc_ok (v := (h :: t, s2)) rfl

theorem loc_scanTypes (d : Bytes) (n : Nat) (s : ISegd) : Loc1 d s (readScanTypes n s) (readScanTypes n (s.on d)) := by
  induction n generalizing s with
  | zero => exact loc_ok rfl
  | succ n ih =>
    unfold readScanTypes
    refine (loc_chSets d _ s).bind fun p _ => ?_
    obtain ⟨sets, s1⟩ := p
    refine LocAt.bind ((loc_seek d { s1 with chSets := s1.chSets ++ [sets] } _).other rfl) fun s2 _ => ?_
    exact ih s2

theorem loc_blocks32 (d : Bytes) (n : Nat) (s : ISegd) : Loc2 d s (readBlocks32 n s) (readBlocks32 n (s.on d)) := by
  induction n generalizing s with
  | zero => exact loc_ok (v := (([] : List Bytes), s)) rfl
  | succ n ih =>
    unfold readBlocks32
    refine (loc_fill d s 32).bind fun p _ => ?_
    obtain ⟨b, s1⟩ := p
    refine (ih s1).bind fun p _ => ?_
    obtain ⟨t, s2⟩ := p
    exact loc_ok (v := (b :: t, s2)) rfl

theorem loc_headers (d : Bytes) (s : ISegd) : Loc1 d s (readHeaders s) (readHeaders (s.on d)) := by
  unfold readHeaders
  refine (loc_general d s).bind fun s1 _ => ?_
  refine loc_lift fun q _ => ?_
  refine (loc_scanTypes d _ s1).bind fun s2 _ => ?_
  refine (loc_blocks32 d _ s2).bind fun p _ => ?_
  obtain ⟨ex, s3⟩ := p
  refine LocAt.bind ((loc_blocks32 d _ { s3 with extended := ex }).other rfl) fun p _ => ?_
  obtain ⟨el, s4⟩ := p
  exact loc_ok (st := id) (rep := (·.on d)) (s := s4) (v := { s4 with external := el }) rfl

theorem loc_extLoop (d : Bytes) (rev : Int) (m : ExtMap) (n i : Nat) (h : Header) (s : ISegd) :
    Loc2 d s (s.onRest (readExtLoop rev m n i h)) ((s.on d).onRest (readExtLoop rev m n i h)) := by
  induction n generalizing i h s with
  | zero =>
    have : ∀ s : ISegd, s.onRest (readExtLoop rev m 0 i h) = .ok (h, s) := fun s => onRest_pure s h
    rw [this, this]
    exact loc_ok (v := (h, s)) rfl
  | succ n ih =>
    rw [onRest_extLoop, onRest_extLoop]
    refine (loc_fill d s 32).bind fun p _ => ?_
    exact loc_lift fun h' _ => ih _ _ _

theorem loc_samples (d : Bytes) (fmt : Int) (x : Dbl) (n : Nat) (s : ISegd) :
    Loc2 d s (s.onRest (readSamplesD fmt x n)) ((s.on d).onRest (readSamplesD fmt x n)) := by
  cases hq : segdReader fmt with
  | error e =>
    intro v hv
    rw [onRest_eq] at hv
    unfold readSamplesD at hv
    rw [hq] at hv
    cases hv
  | ok q =>
    obtain ⟨bits, r⟩ := q
    rw [readSamplesD_eq hq, readSamplesD_eq hq]
    refine (loc_fill d s _).bind fun p _ => ?_
    refine loc_lift fun q _ => ?_
    exact loc_ok (v := (q.1, p.2)) rfl

theorem loc_body (d : Bytes) (pw : Dbl → Dbl) (s : ISegd) :
    Loc2 d s (readTraceBody pw s) (readTraceBody pw (s.on d)) := by
  unfold readTraceBody
  refine (loc_fill d s 20).bind fun p _ => ?_
  obtain ⟨b, s1⟩ := p
  refine loc_lift fun p _ => ?_
  obtain ⟨h, r⟩ := p
  refine LocAt.bind (st := (·.2)) (rep := fun p => (p.1, p.2.on d)) ?_ fun p _ => ?_
  · dsimp only
    rw [onRest_readExt, onRest_readExt]
    exact loc_lift fun n _ => loc_extLoop d _ _ _ _ _ _
  obtain ⟨h', s2⟩ := p
  refine loc_lift (x := s2.chSetOf h') fun p _ => ?_
  obtain ⟨c, h2⟩ := p
  refine loc_lift fun n _ => ?_
  refine (loc_samples d _ _ _ s2).bind fun p _ => ?_
  obtain ⟨xs, s3⟩ := p
  exact loc_ok (v := ((⟨h2, xs⟩ : Trace), s3)) rfl

theorem SameTo.length {d d' : Bytes} {n : Nat} (h : SameTo d d' n) : min n d.length = min n d'.length := by
  have := congrArg List.length h
  rwa [List.length_take, List.length_take] at this

theorem readHeaders_room {s s' : ISegd} (h : readHeaders s = .ok s') : s.file.pos + 32 ≤ s.file.data.length := by
  obtain ⟨s1, h1, -⟩ := bind_ok h
  obtain ⟨⟨b, s2⟩, h2, -⟩ := bind_ok h1
  obtain ⟨h3, h4, -⟩ := fill_ok h2
  rw [h3, List.length_take, List.length_drop] at h4
  omega

theorem readTraceD_on {pw : Dbl → Dbl} {s s' : ISegd} {t : Trace} (h : readTraceD pw s = .ok (t, s'))
    (d : Bytes) (hl : s'.chansRead ≠ 0 ∨ s'.file.pos ≠ s.file.data.length)
    (hd : SameTo d s.file.data s'.file.pos) : readTraceD pw (s.on d) = .ok (t, s'.on d) := by
  have hc := readTraceD_cases h
  obtain ⟨p, hb, -, hc⟩ := hc
  have hloc := loc_body d pw s _ hb
  unfold readTraceD
  rcases hc with ⟨h1, rfl⟩ | ⟨h1, h2, rfl⟩ | ⟨h1, h2, h3⟩
  · rw [hloc.2.2 (hd.inside _), ok_bind]
    simp only
    unfold ISegd.advance
    dsimp only
    rw [if_neg (by exact h1)]
    rfl
  · exact absurd h2 (by
      rcases hl with hl | hl
      · exact absurd rfl hl
      · exact hl)
  · have hm := (readHeaders_ok h3).2.2.2.1
    have hr := readHeaders_room h3
    have hp : p + 32 ≤ s'.file.pos := hm
    have hr : p + 32 ≤ s.file.data.length := hr
    have e := hd.length
    rw [hloc.2.2 (SameTo.inside (n := p) (hd.le (by omega)) _), ok_bind]
    simp only
    unfold ISegd.advance
    dsimp only
    rw [if_pos (by exact h1)]
    have hrec : (ISegd.hasRecord { (s.at p).on d with chansIn := 0, chansRead := 0, chSets := [] }) = true := by
      have : p ≠ d.length := by omega
      exact decide_eq_true this
    rw [if_pos hrec]
    have := (loc_headers d { s.at p with chansIn := 0, chansRead := 0, chSets := [] } _ h3).2.2 (hd.inside _)
    have this : readHeaders { (s.at p).on d with chansIn := 0, chansRead := 0, chSets := [] } = .ok (s'.on d) := this
    rw [this]
    rfl

theorem readTraceD_file {pw : Dbl → Dbl} {s s' : ISegd} {t : Trace} (h : readTraceD pw s = .ok (t, s')) :
    s'.file.data = s.file.data ∧ s.file.pos + 20 ≤ s'.file.pos := by
  obtain ⟨p, -, hp, ⟨-, rfl⟩ | ⟨-, -, rfl⟩ | ⟨-, -, h⟩⟩ := readTraceD_cases h
  · exact ⟨rfl, hp⟩
  · exact ⟨rfl, hp⟩
  · have := readHeaders_ok h
    refine ⟨this.1, ?_⟩
    have h2 : p + 32 ≤ s'.file.pos := this.2.2.2.1
    omega

theorem readTraceD_room {pw : Dbl → Dbl} {s s' : ISegd} {t : Trace} (h : readTraceD pw s = .ok (t, s')) :
    s.file.pos + 20 ≤ s.file.data.length := by
  obtain ⟨⟨t', s1⟩, h1, -⟩ := bind_ok h
  obtain ⟨⟨b, s2⟩, h2, -⟩ := bind_ok h1
  obtain ⟨h3, h4, -⟩ := fill_ok h2
  rw [h3, List.length_take, List.length_drop] at h4
  omega

theorem readManyD_on {pw : Dbl → Dbl} {n : Nat} {s s' : ISegd} {ts : List Trace}
    (h : readManyD pw n s = .ok (ts, s')) (d : Bytes)
    (hl : s'.chansRead ≠ 0 ∨ s'.file.pos ≠ s.file.data.length)
    (hd : SameTo d s.file.data s'.file.pos) :
    s.file.pos ≤ s'.file.pos ∧ s'.file.data = s.file.data ∧ readManyD pw n (s.on d) = .ok (ts, s'.on d) := by
  induction n generalizing s ts with
  | zero =>
    cases h
    exact ⟨Nat.le_refl _, rfl, rfl⟩
  | succ n ih =>
    obtain ⟨⟨t, s1⟩, h1, h⟩ := bind_ok h
    obtain ⟨⟨ts', s2⟩, h2, h⟩ := bind_ok h
    cases h
    obtain ⟨e1, e2⟩ := readTraceD_file h1
    obtain ⟨k1, k2, k3⟩ := ih h2 (by rw [e1]; exact hl) (by rw [e1]; exact hd)
    refine ⟨by omega, by rw [k2, e1], ?_⟩
    have hl1 : s1.chansRead ≠ 0 ∨ s1.file.pos ≠ s.file.data.length := by
      cases n with
      | zero =>
        cases h2
        exact hl
      | succ n =>
        obtain ⟨⟨t3, s3⟩, h3, -⟩ := bind_ok h2
        have := readTraceD_room h3
        rw [e1] at this
        omega
    unfold readManyD
    rw [readTraceD_on h1 d hl1 (hd.le k1), ok_bind]
    simp only
    rw [k3]
    rfl

theorem openSegd_on {data d : Bytes} {m : ExtMap} {s : ISegd} (h : openSegd data m = .ok s)
    (hd : SameTo d data s.file.pos) : openSegd d m = .ok (s.on d) :=
  (loc_headers d (ISegd.init data m) _ h).2.2 (hd.inside _)

theorem readManyD_data {pw : Dbl → Dbl} {n : Nat} {s s' : ISegd} {ts : List Trace}
    (h : readManyD pw n s = .ok (ts, s')) : s'.file.data = s.file.data := by
  induction n generalizing s ts with
  | zero =>
    cases h
    rfl
  | succ n ih =>
    obtain ⟨⟨t, s1⟩, h1, h⟩ := bind_ok h
    obtain ⟨⟨ts', s2⟩, h2, h⟩ := bind_ok h
    cases h
    rw [ih h2, (readTraceD_file h1).1]

end Sedaman
