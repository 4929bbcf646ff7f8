import Verif.Spec.Sorted1DFail
import Verif.Lemmas.ISEGYFail
import Verif.Lemmas.Sorted1D

/-!
# Lemmas about sorted readers with failures
-/

namespace Sedaman

open Spec

/-! ## `curr_pos` does not matter -/

/-- The same reader with another `curr_pos`. -/
def RS.withCurr (c : Nat) (s : RS) : RS := ⟨{ s.r with curr := c }, s.bad⟩

/-- A function that does not look at `curr_pos`. -/
def Blind {α : Type} (x : RM α) : Prop :=
  ∀ s c, ∃ c', x (s.withCurr c) = ((x s).1, (x s).2.withCurr c')

theorem blind_pure {α : Type} (a : α) : Blind (pure a : RM α) := fun _ c => ⟨c, rfl⟩

theorem blind_lift {α : Type} (x : Out α) : Blind (rmLift x) := fun _ c => ⟨c, rfl⟩

theorem Blind.bind {α β : Type} {x : RM α} {f : α → RM β} (hx : Blind x) (hf : ∀ a, Blind (f a)) :
    Blind (x >>= f) := by
  intro s c
  obtain ⟨c1, h1⟩ := hx s c
  cases h : x s with
  | mk o s' =>
    rw [h] at h1
    cases o with
    | error e => exact ⟨c1, by rw [rm_bind_err h1, rm_bind_err h]⟩
    | ok a =>
      obtain ⟨c2, h2⟩ := hf a s' c1
      exact ⟨c2, by rw [rm_bind_ok h1, rm_bind_ok h, h2]⟩

theorem blind_get {α : Type} {f : Reader → RM α} (h : ∀ r c, f { r with curr := c } = f r)
    (hf : ∀ r, Blind (f r)) : Blind (rmGet >>= f) := by
  intro s c
  obtain ⟨c', h'⟩ := hf s.r s c
  refine ⟨c', ?_⟩
  rw [rm_bind_ok (show rmGet s = (.ok s.r, s) from rfl), ← h', ← h s.r c]
  rfl

theorem blind_fill (n : Nat) : Blind (rmFill n) := by
  rintro ⟨r, b⟩ c
  cases b with
  | true => exact ⟨c, rfl⟩
  | false =>
    rw [fill_eq]
    show ∃ c', rmFill n ⟨{ r with curr := c }, false⟩ = _
    rw [fill_eq]
    dsimp only
    cases r.file.read n with
    | error e => exact ⟨c, rfl⟩
    | ok p => exact ⟨p.2.pos, rfl⟩

theorem blind_skip (n : Int) : Blind (rmSkip n) := by
  rintro ⟨r, b⟩ c
  cases b with
  | true => exact ⟨c, rfl⟩
  | false =>
    rw [skip_eq]
    show ∃ c', rmSkip n ⟨{ r with curr := c }, false⟩ = _
    rw [skip_eq]
    dsimp only
    cases r.file.seekCur n with
    | error e => exact ⟨c, rfl⟩
    | ok p => exact ⟨p.pos, rfl⟩

theorem blind_resize (n : Nat) : Blind (rmResize n) := by
  rintro ⟨r, b⟩ c
  refine ⟨c, ?_⟩
  show rmResize n ⟨{ r with curr := c }, b⟩ = _
  by_cases h : r.bufLen = n
  · rw [resize_same (r := { r with curr := c }) h, resize_same h]
    rfl
  · cases hv : resizeVec (List.replicate r.bufLen 0) n with
    | error e =>
      rw [resize_err (r := { r with curr := c }) h hv, resize_err h hv]
      rfl
    | ok v =>
      rw [resize_other (r := { r with curr := c }) h hv, resize_other h hv]
      rfl

theorem blind_blocks (bo : ByteOrder) (m : HdrMap) (n i : Nat) (acc : Header) :
    Blind (rmBlocks bo m n i acc) := by
  induction n generalizing i acc with
  | zero => exact blind_pure _
  | succ n ih =>
    unfold rmBlocks
    split
    · exact (blind_fill _).bind fun _ => (blind_lift _).bind fun _ => ih _ _
    · exact (blind_skip _).bind fun _ => ih _ _

theorem blind_trc : Blind rmTrcHeader := by
  refine blind_get (fun _ _ => rfl) fun r => ?_
  split
  · exact blind_lift _
  · exact blind_blocks _ _ _ _ _

theorem blind_samples : Blind rmSamplesFix :=
  blind_get (fun _ _ => rfl) fun _ => (blind_fill _).bind fun _ => (blind_lift _).bind fun _ =>
    (blind_lift _).bind fun _ => blind_pure _

theorem blind_header : Blind rmReadHeader := by
  refine blind_get (fun _ _ => rfl) fun r => blind_trc.bind fun h => ?_
  split
  · exact (blind_lift _).bind fun _ => (blind_skip _).bind fun _ => blind_pure _
  · exact (blind_lift _).bind fun _ => (blind_skip _).bind fun _ => blind_pure _

theorem blind_trace : Blind rmReadTrace := by
  refine blind_get (fun _ _ => rfl) fun r => blind_trc.bind fun h => ?_
  split
  · exact blind_samples.bind fun _ => blind_pure _
  · exact (blind_lift _).bind fun _ => (blind_resize _).bind fun _ => blind_samples.bind fun _ =>
      blind_pure _

/-! ## What every call keeps -/

/-- A function that changes only what reading changes. -/
def KeepsSame {α : Type} (r0 : Reader) (x : RM α) : Prop := ∀ s, Same r0 s.r → Same r0 (x s).2.r

theorem keepsSame_pure {α : Type} (r0 : Reader) (a : α) : KeepsSame r0 (pure a : RM α) := fun _ h => h

theorem keepsSame_lift {α : Type} (r0 : Reader) (x : Out α) : KeepsSame r0 (rmLift x) := fun _ h => h

theorem KeepsSame.bind {α β : Type} {r0 : Reader} {x : RM α} {f : α → RM β} (hx : KeepsSame r0 x)
    (hf : ∀ a, KeepsSame r0 (f a)) : KeepsSame r0 (x >>= f) := by
  intro s hs
  have h1 := hx s hs
  cases h : x s with
  | mk o s' =>
    rw [h] at h1
    cases o with
    | error e => rw [rm_bind_err h]; exact h1
    | ok a => rw [rm_bind_ok h]; exact hf a s' h1

theorem keepsSame_get {α : Type} {r0 : Reader} {f : Reader → RM α}
    (hf : ∀ r, Same r0 r → KeepsSame r0 (f r)) : KeepsSame r0 (rmGet >>= f) := by
  intro s hs
  rw [rm_bind_ok (show rmGet s = (.ok s.r, s) from rfl)]
  exact hf s.r hs s hs

theorem Same.moved {r0 r : Reader} (h : Same r0 r) {f : File} (hf : f.data = r.file.data) (c : Nat) :
    Same r0 { r with file := f, curr := c } := by
  obtain ⟨h1, h2, h3, h4⟩ := h
  refine ⟨hf.trans h1, h2, h3, ?_⟩
  dsimp only
  generalize hb : r.bufLen = b
  rw [h4]

theorem read_data {f f' : File} {n : Nat} {b : Bytes} (h : f.read n = .ok (b, f')) : f'.data = f.data := by
  unfold File.read at h
  dsimp only at h
  split at h <;> cases h
  rfl

theorem seek_data {f f' : File} {p : Int} (h : f.seek p = .ok f') : f'.data = f.data := by
  unfold File.seek at h
  split at h <;> cases h
  rfl

theorem keepsSame_fill (r0 : Reader) (n : Nat) : KeepsSame r0 (rmFill n) := by
  rintro ⟨r, b⟩ h
  cases b with
  | true => exact h
  | false =>
    rw [fill_eq]
    cases hr : r.file.read n with
    | error e => exact h
    | ok p => exact h.moved (read_data hr) _

theorem keepsSame_skip (r0 : Reader) (n : Int) : KeepsSame r0 (rmSkip n) := by
  rintro ⟨r, b⟩ h
  cases b with
  | true => exact h
  | false =>
    rw [skip_eq]
    cases hr : r.file.seekCur n with
    | error e => exact h
    | ok p => exact h.moved (seek_data hr) _

theorem keepsSame_seek (r0 : Reader) (p : Nat) : KeepsSame r0 (rmSeek p) := by
  rintro ⟨r, b⟩ h
  cases b with
  | true => exact h
  | false =>
    unfold rmSeek
    dsimp only
    rw [if_neg (by simp)]
    cases hr : r.file.seek p with
    | error e => exact h
    | ok f => exact h.moved (seek_data hr) r.curr

theorem keepsSame_resize {r0 : Reader} (hf : ¬ fixedLength r0.bh = true) (n : Nat) : KeepsSame r0 (rmResize n) := by
  rintro ⟨r, b⟩ h
  unfold rmResize
  dsimp only
  split
  · cases hv : resizeVec (List.replicate r.bufLen 0) n with
    | error e => exact h
    | ok v =>
      obtain ⟨h1, h2, h3, h4⟩ := h
      refine ⟨h1, ?_, fun hc => absurd hc hf, ?_⟩
      · obtain ⟨g1, g2, -⟩ := resizeVec_ok hv
        dsimp only
        omega
      · dsimp only at h4 ⊢
        generalize r.file = f at *
        generalize r.curr = c at *
        rw [h4]
  · exact h

theorem keepsSame_blocks (r0 : Reader) (bo : ByteOrder) (m : HdrMap) (n i : Nat) (acc : Header) :
    KeepsSame r0 (rmBlocks bo m n i acc) := by
  induction n generalizing i acc with
  | zero => exact keepsSame_pure _ _
  | succ n ih =>
    unfold rmBlocks
    split
    · exact (keepsSame_fill _ _).bind fun _ => (keepsSame_lift _ _).bind fun _ => ih _ _
    · exact (keepsSame_skip _ _).bind fun _ => ih _ _

theorem keepsSame_trc (r0 : Reader) : KeepsSame r0 rmTrcHeader := by
  refine keepsSame_get fun r _ => ?_
  split
  · exact keepsSame_lift _ _
  · exact keepsSame_blocks _ _ _ _ _ _

theorem keepsSame_samples (r0 : Reader) : KeepsSame r0 rmSamplesFix :=
  keepsSame_get fun _ _ => (keepsSame_fill _ _).bind fun _ => (keepsSame_lift _ _).bind fun _ =>
    (keepsSame_lift _ _).bind fun _ => keepsSame_pure _ _

theorem keepsSame_header (r0 : Reader) : KeepsSame r0 rmReadHeader := by
  refine keepsSame_get fun r _ => (keepsSame_trc r0).bind fun h => ?_
  split
  · exact (keepsSame_lift _ _).bind fun _ => (keepsSame_skip _ _).bind fun _ => keepsSame_pure _ _
  · exact (keepsSame_lift _ _).bind fun _ => (keepsSame_skip _ _).bind fun _ => keepsSame_pure _ _

theorem keepsSame_trace (r0 : Reader) : KeepsSame r0 rmReadTrace := by
  refine keepsSame_get fun r hr => (keepsSame_trc r0).bind fun h => ?_
  have e : r.bh = r0.bh := by rw [hr.eq]
  split
  · exact (keepsSame_samples _).bind fun _ => keepsSame_pure _ _
  · rename_i hf
    rw [e] at hf
    exact (keepsSame_lift _ _).bind fun _ => (keepsSame_resize hf _).bind fun _ => (keepsSame_samples _).bind fun _ =>
      keepsSame_pure _ _

/-! ## The two models -/

/-- The outcome `c` of the model with failures and the outcome `y` of the other one, from readers that differ
only in what reading changes. -/
def Tie {α : Type} (r0 : Reader) (c : Out α × RS) (y : Out (α × Reader)) : Prop :=
  Same r0 c.2.r ∧
  match y with
  | .ok (a, r) => c.1 = .ok a ∧ c.2.bad = false ∧ Same r0 r
  | .error e => c.1 = .error e ∧ ∀ x, e = .exn x → (c.2.bad = true ↔ x = .iosFailure)

theorem sampleBytes_same {r : Reader} {b : Nat} (hb : r.bufLen < 2 ^ 63) (hb' : b < 2 ^ 63)
    (hbf : fixedLength r.bh = true → b = r.bufLen) (c : Nat) (h0 : Header) :
    sampleBytes { r with curr := c, bufLen := b } h0 = sampleBytes r h0 := by
  unfold sampleBytes
  by_cases hf : fixedLength r.bh = true
  · dsimp only
    rw [if_pos hf, if_pos hf, hbf hf]
  · dsimp only
    rw [if_neg hf, if_neg hf]
    cases sampNum h0 with
    | error e => rfl
    | ok q =>
      obtain ⟨n, hd⟩ := q
      rw [ok_bind, ok_bind]
      dsimp only
      generalize toU 8 (n * r.bps) = k
      by_cases hk : 2 ^ 63 ≤ k
      · rw [if_pos ⟨hk, by omega⟩, if_pos ⟨hk, by omega⟩]
      · rw [if_neg (fun h => hk h.1), if_neg (fun h => hk h.1)]

theorem readTrace_blind {r : Reader} {b : Nat} (hb : r.bufLen < 2 ^ 63) (hb' : b < 2 ^ 63)
    (hbf : fixedLength r.bh = true → b = r.bufLen) (c : Nat) :
    readTrace { r with curr := c, bufLen := b } = readTrace r := by
  rw [readTrace_eq, readTrace_eq]
  show (readTrcHeader r >>= _) = _
  cases readTrcHeader r with
  | error e => rfl
  | ok q =>
    obtain ⟨h0, f⟩ := q
    rw [ok_bind, ok_bind]
    dsimp only
    rw [sampleBytes_same hb hb' hbf c h0]

theorem readHeader_blind (r : Reader) (c b : Nat) :
    readHeader { r with curr := c, bufLen := b } =
      (readHeader r).map fun (h, r') => (h, { r' with bufLen := b }) := by
  unfold readHeader
  show (readTrcHeader r >>= _) = _
  cases readTrcHeader r with
  | error e => rfl
  | ok q =>
    obtain ⟨h0, f⟩ := q
    rw [ok_bind, ok_bind]
    dsimp only
    by_cases hf : fixedLength r.bh = true
    · rw [if_pos hf, if_pos hf]
      cases mulInt32 r.spt r.bps with
      | error e => rfl
      | ok p =>
        rw [ok_bind, ok_bind]
        cases f.seekCur p <;> rfl
    · rw [if_neg hf, if_neg hf]
      cases sampNum h0 with
      | error e => rfl
      | ok q =>
        obtain ⟨n, hd⟩ := q
        rw [ok_bind, ok_bind]
        dsimp only
        cases f.seekCur (toS 8 (toU 8 (n * r.bps))) <;> rfl

theorem traceFrom_same {data : Bytes} {m : HdrMap} {r0 r : Reader} (hi : Inv data m r0) (h : Same r0 r)
    (p : Nat) (c : Nat) : readTrace { r.goto p with curr := c } = readTrace (r0.goto p) := by
  have e : ({ r.goto p with curr := c } : Reader) = { r0.goto p with curr := c, bufLen := r.bufLen } := by
    rw [h.goto p]
  rw [e]
  exact readTrace_blind (r := r0.goto p) hi.buf h.buf h.fix c

theorem headerFrom_same {r0 r : Reader} (h : Same r0 r) (p : Nat) (c : Nat) :
    readHeader { r.goto p with curr := c } =
      (readHeader (r0.goto p)).map fun (h, r') => (h, { r' with bufLen := r.bufLen }) := by
  have e : ({ r.goto p with curr := c } : Reader) = { r0.goto p with curr := c, bufLen := r.bufLen } := by
    rw [h.goto p]
  rw [e]
  exact readHeader_blind _ _ _

theorem goto_self (r : Reader) (p : Nat) : ({ r.goto p with curr := r.curr } : Reader) = r.goto p := rfl

theorem seek_rm (r : Reader) (p : Nat) : rmSeek p ⟨r, false⟩ = (.ok (), ⟨r.goto p, false⟩) := by
  unfold rmSeek
  dsimp only
  rw [if_neg (by simp)]
  unfold File.seek
  rw [if_neg (by omega)]
  rfl

theorem seek_rm_dead (r : Reader) (p : Nat) : rmSeek p ⟨r, true⟩ = (throwExn .iosFailure, ⟨r, true⟩) := rfl

theorem tie_of {α : Type} {r0 : Reader} {x : RM α} {y : Reader → Out (α × Reader)} {P : RS → Prop}
    (hb : Blind x) (hk : KeepsSame r0 x) (hP : ∀ s, P s → s.bad = false)
    {q : Reader} (hq : Same r0 q) (c : Nat)
    (ha : Agree P (x ⟨q, false⟩) (y q))
    {z : Out (α × Reader)} (hz : z.map Prod.fst = (y q).map Prod.fst)
    (hs : ∀ a r, z = .ok (a, r) → Same r0 r) :
    Tie r0 (x ⟨{ q with curr := c }, false⟩) z := by
  obtain ⟨c', hc⟩ := hb ⟨q, false⟩ c
  have hc : x ⟨{ q with curr := c }, false⟩ = _ := hc
  refine ⟨hk _ (hq.moved rfl c), ?_⟩
  rw [hc]
  cases hy : y q with
  | ok v =>
    obtain ⟨a, r⟩ := v
    rw [hy] at ha hz
    cases z with
    | error e => cases hz
    | ok w =>
      obtain ⟨a', r'⟩ := w
      have : a' = a := by simpa [Except.map] using hz
      subst this
      have ha : x ⟨q, false⟩ = _ := ha
      rw [ha]
      exact ⟨rfl, rfl, hs _ _ rfl⟩
  | error e =>
    rw [hy] at ha hz
    cases z with
    | ok w => cases hz
    | error e' =>
      have : e' = e := by simpa [Except.map] using hz
      subst this
      obtain ⟨h1, h2⟩ := ha
      refine ⟨h1, fun ex he => ?_⟩
      show (x ⟨q, false⟩).2.bad = true ↔ _
      rcases h2 with ⟨h2, h3⟩ | ⟨u, h2⟩ | ⟨⟨ex', h2, h3⟩, h4⟩
      · rw [he] at h2
        cases h2
        exact ⟨fun _ => rfl, fun _ => h3⟩
      · rw [he] at h2; cases h2
      · rw [he] at h2
        cases h2
        rw [hP _ h4]
        exact ⟨fun h => (by cases h), fun h => absurd h h3⟩

theorem behind_bad {r : Reader} {s : RS} (h : fixedLength r.bh = false ∧ BehindHeader r s) : s.bad = false := by
  obtain ⟨-, -, -, -, rfl⟩ := h
  rfl

theorem inv_goto {data : Bytes} {m : HdrMap} {r0 r : Reader} (hi : Inv data m r0) (h : Same r0 r) (p c : Nat) :
    Inv r0.file.data m { r.goto p with curr := c } := by
  have e : ({ r.goto p with curr := c } : Reader) = { r0.goto p with curr := c, bufLen := r.bufLen } := by
    rw [h.goto p]
  rw [e]
  exact inv_with (r := r0) hi ⟨r0.file.data, p⟩ c r.bufLen h.buf h.fix

theorem same_goto {r0 r : Reader} (h : Same r0 r) (p c : Nat) : Same r0 { r.goto p with curr := c } :=
  h.moved (f := ⟨r.file.data, p⟩) rfl c

theorem header_tie {data : Bytes} {m : HdrMap} {r0 r r' : Reader} (hi : Inv data m r0) (h : Same r0 r)
    (h' : Same r0 r') (p : Nat) : Tie r0 (rmHeaderFrom p ⟨r, false⟩) (headerFrom r' p) := by
  have e : rmHeaderFrom p ⟨r, false⟩ = rmReadHeader ⟨r.goto p, false⟩ := rm_bind_ok (seek_rm r p)
  rw [e, headerFrom_eq]
  refine tie_of (q := { r.goto p with curr := p }) blind_header (keepsSame_header r0) (fun s hs => behind_bad hs)
    (same_goto h p p) r.curr (header_agree _ rfl ⟨_, (inv_goto hi h p p).spt.2⟩) ?_ ?_
  · rw [headerFrom_same h p p, ← goto_self r' p, headerFrom_same h' p r'.curr]
    cases readHeader (r0.goto p) <;> rfl
  · intro a r1 hr
    exact (header_same' h' hr).1

theorem trace_tie {data : Bytes} {m : HdrMap} {r0 r r' : Reader} (hi : Inv data m r0) (h : Same r0 r)
    (h' : Same r0 r') (p : Nat) : Tie r0 (rmTraceFrom p ⟨r, false⟩) (traceFrom r' p) := by
  have e : rmTraceFrom p ⟨r, false⟩ = rmReadTrace ⟨r.goto p, false⟩ := rm_bind_ok (seek_rm r p)
  rw [e, traceFrom_eq]
  refine tie_of (q := { r.goto p with curr := p }) blind_trace (keepsSame_trace r0) (fun s hs => behind_bad hs)
    (same_goto h p p) r.curr (trace_agree _ rfl (inv_goto hi h p p)) ?_ ?_
  · rw [traceFrom_same hi h p p, ← goto_self r' p, traceFrom_same hi h' p r'.curr]
  · intro a r1 hr
    exact (trace_same' hi h' hr).1

theorem rmAll_eq {α : Type} (x : Nat → RM α) (p : Nat) (ps : List Nat) (max : Nat) :
    rmAll x (p :: ps) (max + 1) = (do
      let a ← x p
      let t ← rmAll x ps max
      pure (a :: t)) := rfl

/-- The loop of a query, for both functions at once. -/
theorem all_tie {α : Type} {r0 : Reader} {x : Nat → RM α} {y : Reader → Nat → Out (α × Reader)}
    {ys : Reader → List Nat → Nat → Out (List α × Reader)}
    (h1 : ∀ r ps, ys r ps 0 = .ok ([], r)) (h2 : ∀ r max, ys r [] max = .ok ([], r))
    (h3 : ∀ r p ps max, ys r (p :: ps) (max + 1) = (do
      let (a, r) ← y r p
      let (l, r) ← ys r ps max
      pure (a :: l, r)))
    (ht : ∀ r r' p, Same r0 r → Same r0 r' → Tie r0 (x p ⟨r, false⟩) (y r' p))
    {r r' : Reader} (hr : Same r0 r) (hr' : Same r0 r') (ps : List Nat) (max : Nat) :
    Tie r0 (rmAll x ps max ⟨r, false⟩) (ys r' ps max) := by
  induction ps generalizing r r' max with
  | nil => rw [h2]; exact ⟨hr, rfl, rfl, hr'⟩
  | cons p ps ih =>
    cases max with
    | zero => rw [h1]; exact ⟨hr, rfl, rfl, hr'⟩
    | succ max =>
      rw [h3, rmAll_eq]
      obtain ⟨g1, g2⟩ := ht r r' p hr hr'
      cases hx : x p ⟨r, false⟩ with
      | mk o s =>
        rw [hx] at g1 g2
        cases hy : y r' p with
        | error e =>
          rw [hy] at g2
          obtain ⟨g2, g3⟩ := g2
          have g2 : o = .error e := g2
          subst g2
          rw [rm_bind_err hx]
          exact ⟨g1, rfl, g3⟩
        | ok v =>
          obtain ⟨a, r1⟩ := v
          rw [hy] at g2
          obtain ⟨g2, g3, g4⟩ := g2
          obtain ⟨s, b⟩ := s
          have g2 : o = .ok a := g2
          have g3 : b = false := g3
          subst g2 g3
          rw [rm_bind_ok hx, ok_bind]
          dsimp only
          obtain ⟨k1, k2⟩ := ih g1 g4 max
          cases hl : rmAll x ps max ⟨s, false⟩ with
          | mk o' s' =>
            rw [hl] at k1 k2
            cases hm : ys r1 ps max with
            | error e =>
              rw [hm] at k2
              obtain ⟨k2, k3⟩ := k2
              have k2 : o' = .error e := k2
              subst k2
              rw [rm_bind_err hl]
              exact ⟨k1, rfl, k3⟩
            | ok w =>
              obtain ⟨l, r2⟩ := w
              rw [hm] at k2
              obtain ⟨k2, k3, k4⟩ := k2
              have k2 : o' = .ok l := k2
              subst k2
              rw [rm_bind_ok hl]
              exact ⟨k1, rfl, k3, k4⟩

/-- Two sorted readers that differ only in what reading changes. -/
structure Twin (r0 : Reader) (s s' : Sorted1D) : Prop where
  one : Same r0 s.rd
  two : Same r0 s'.rd
  index : s.index = s'.index
  map : s.mapCur = s'.mapCur
  vec : s.vecCur = s'.vecCur

theorem Twin.has {r0 : Reader} {s s' : Sorted1D} (h : Twin r0 s s') : s.hasTrace = s'.hasTrace := by
  unfold Sorted1D.hasTrace
  rw [h.index, h.map]

theorem Twin.curPos {r0 : Reader} {s s' : Sorted1D} (h : Twin r0 s s') : s.curPos = s'.curPos := by
  unfold Sorted1D.curPos
  rw [h.index, h.map, h.vec]

theorem advance_rd (s : Sorted1D) : s.advance.rd = s.rd := by
  unfold Sorted1D.advance
  split
  · rfl
  · split <;> rfl

theorem Twin.advance {r0 : Reader} {s s' : Sorted1D} (h : Twin r0 s s') : Twin r0 s.advance s'.advance := by
  refine ⟨by rw [advance_rd]; exact h.one, by rw [advance_rd]; exact h.two,
    by rw [advance_index, advance_index]; exact h.index, ?_, ?_⟩
  · unfold Sorted1D.advance
    rw [h.index, h.map, h.vec]
    split
    · exact h.map
    · split
      · rfl
      · rfl
  · unfold Sorted1D.advance
    rw [h.index, h.map, h.vec]
    split
    · exact h.vec
    · split
      · rfl
      · rfl

/-- The outcome `c` of a call in the model with failures and the outcome `y` in the other. -/
def STie {α : Type} (r0 : Reader) (s : Sorted1D) (bad : Bool) (c : Out α × SD) (y : Out (α × Sorted1D)) : Prop :=
  match c.1 with
  | .ok a => ∃ s', y = .ok (a, s') ∧ Twin r0 c.2.s s' ∧ c.2.bad = bad
  | .error (.ub u) => y = .error (.ub u) ∧ Twin r0 c.2.s s
  | .error (.exn x) => ((bad = false ∧ y = .error (.exn x)) ∨ (bad = true ∧ x = .iosFailure)) ∧ Twin r0 c.2.s s ∧
      c.2.bad = (bad || decide (x = .iosFailure))

theorem header_rm_dead (r : Reader) (p : Nat) :
    rmHeaderFrom p ⟨r, true⟩ = (.error (.exn .iosFailure), ⟨r, true⟩) := rm_bind_err (seek_rm_dead r p)

theorem trace_rm_dead (r : Reader) (p : Nat) :
    rmTraceFrom p ⟨r, true⟩ = (.error (.exn .iosFailure), ⟨r, true⟩) := rm_bind_err (seek_rm_dead r p)

theorem Twin.with {r0 : Reader} {s s' : Sorted1D} (h : Twin r0 s s') {r r' : Reader} (hr : Same r0 r)
    (hr' : Same r0 r') : Twin r0 { s with rd := r } { s' with rd := r' } :=
  ⟨hr, hr', h.index, h.map, h.vec⟩

theorem next_tie {α : Type} {r0 : Reader} {x : Nat → RM α} {y : Reader → Nat → Out (α × Reader)}
    (ht : ∀ r r' p, Same r0 r → Same r0 r' → Tie r0 (x p ⟨r, false⟩) (y r' p))
    (hd : ∀ r p, x p ⟨r, true⟩ = (.error (.exn .iosFailure), ⟨r, true⟩))
    {d : SD} {s : Sorted1D} (h : Twin r0 d.s s) :
    STie r0 s d.bad (d.next x) (do
      let p ← s.curPos
      let (a, r) ← y s.rd p
      pure (a, { s with rd := r }.advance)) := by
  obtain ⟨t, bad⟩ := d
  have h : Twin r0 t s := h
  unfold SD.next
  dsimp only
  rw [h.curPos]
  cases hp : s.curPos with
  | error e =>
    cases e with
    | ub u => exact ⟨rfl, h⟩
    | exn x =>
      unfold Sorted1D.curPos at hp
      split at hp
      · cases hp
      · split at hp <;> cases hp
  | ok p =>
    rw [ok_bind]
    unfold SD.base
    dsimp only
    cases bad with
    | true =>
      rw [hd]
      exact ⟨.inr ⟨rfl, rfl⟩, h, rfl⟩
    | false =>
      obtain ⟨g1, g2⟩ := ht t.rd s.rd p h.one h.two
      cases hx : x p ⟨t.rd, false⟩ with
      | mk o s1 =>
        obtain ⟨r1, b⟩ := s1
        rw [hx] at g1 g2
        dsimp only at g1
        cases hy : y s.rd p with
        | error e =>
          rw [hy] at g2
          obtain ⟨g2, g3⟩ := g2
          have g2 : o = .error e := g2
          subst g2
          cases e with
          | ub u => exact ⟨rfl, h.with g1 h.two⟩
          | exn ex =>
            refine ⟨.inl ⟨rfl, rfl⟩, h.with g1 h.two, ?_⟩
            have := g3 ex rfl
            show b = decide (ex = .iosFailure)
            have this : b = true ↔ _ := this
            cases b with
            | false => simpa using this
            | true => simpa using this
        | ok v =>
          obtain ⟨a, r2⟩ := v
          rw [hy] at g2
          obtain ⟨g2, g3, g4⟩ := g2
          have g2 : o = .ok a := g2
          subst g2
          exact ⟨_, rfl, (h.with g1 g4).advance, g3⟩

theorem query_tie {α : Type} {r0 : Reader} {x : Nat → RM α}
    {ys : Reader → List Nat → Nat → Out (List α × Reader)}
    (h1 : ∀ r ps, ys r ps 0 = .ok ([], r)) (h2 : ∀ r max, ys r [] max = .ok ([], r))
    (ht : ∀ r r' ps max, Same r0 r → Same r0 r' → Tie r0 (rmAll x ps max ⟨r, false⟩) (ys r' ps max))
    (hd : ∀ r p, x p ⟨r, true⟩ = (.error (.exn .iosFailure), ⟨r, true⟩))
    (v : Value) (max : Nat) {d : SD} {s : Sorted1D} (h : Twin r0 d.s s) :
    STie r0 s d.bad (d.query x v max)
      (if valueIsNan v then isUb .badOrder
       else match mapFind s.index v with
        | none => .ok ([], s)
        | some ps => do
          let (l, r) ← ys s.rd ps max
          pure (l, { s with rd := r })) := by
  obtain ⟨t, bad⟩ := d
  have h : Twin r0 t s := h
  unfold SD.query
  dsimp only
  rw [h.index]
  by_cases hn : valueIsNan v = true
  · rw [if_pos hn, if_pos hn]
    exact ⟨rfl, h⟩
  rw [if_neg hn, if_neg hn]
  cases mapFind s.index v with
  | none => exact ⟨s, rfl, h, rfl⟩
  | some ps =>
    dsimp only
    unfold SD.base
    dsimp only
    cases bad with
    | true =>
      cases ps with
      | nil => rw [h2]; exact ⟨_, rfl, h, rfl⟩
      | cons p ps =>
        cases max with
        | zero => rw [h1]; exact ⟨_, rfl, h, rfl⟩
        | succ max =>
          rw [rmAll_eq, rm_bind_err (hd t.rd p)]
          exact ⟨.inr ⟨rfl, rfl⟩, h, rfl⟩
    | false =>
      obtain ⟨g1, g2⟩ := ht t.rd s.rd ps max h.one h.two
      cases hx : rmAll x ps max ⟨t.rd, false⟩ with
      | mk o s1 =>
        obtain ⟨r1, b⟩ := s1
        rw [hx] at g1 g2
        dsimp only at g1
        cases hy : ys s.rd ps max with
        | error e =>
          rw [hy] at g2
          obtain ⟨g2, g3⟩ := g2
          have g2 : o = .error e := g2
          subst g2
          cases e with
          | ub u => exact ⟨rfl, h.with g1 h.two⟩
          | exn ex =>
            refine ⟨.inl ⟨rfl, rfl⟩, h.with g1 h.two, ?_⟩
            have := g3 ex rfl
            show b = decide (ex = .iosFailure)
            have this : b = true ↔ _ := this
            cases b with
            | false => simpa using this
            | true => simpa using this
        | ok v =>
          obtain ⟨a, r2⟩ := v
          rw [hy] at g2
          obtain ⟨g2, g3, g4⟩ := g2
          have g2 : o = .ok a := g2
          subst g2
          exact ⟨_, rfl, h.with g1 g4, g3⟩

theorem STie.map {α β : Type} {r0 : Reader} {s : Sorted1D} {bad : Bool} {c : Out α × SD}
    {y : Out (α × Sorted1D)} (h : STie r0 s bad c y) (f : α → β) :
    STie r0 s bad (c.1.map f, c.2) (y.map fun (a, s) => (f a, s)) := by
  obtain ⟨o, d⟩ := c
  cases o with
  | ok a =>
    obtain ⟨s', rfl, h2⟩ := h
    exact ⟨s', rfl, h2⟩
  | error e =>
    cases e with
    | ub u =>
      obtain ⟨rfl, h2⟩ := h
      exact ⟨rfl, h2⟩
    | exn x =>
      obtain ⟨h1, h2⟩ := h
      refine ⟨?_, h2⟩
      rcases h1 with ⟨h0, rfl⟩ | h1
      · exact .inl ⟨h0, rfl⟩
      · exact .inr h1

/-- One call in both models. -/
theorem ask_tie {data : Bytes} {m : HdrMap} {r0 : Reader} (hi : Inv data m r0) {d : SD} {s : Sorted1D}
    (h : Twin r0 d.s s) (c : SCall) : STie r0 s d.bad (sAskIO d c) (sAsk s c) := by
  have hh := fun r r' p (a : Same r0 r) (b : Same r0 r') => header_tie hi a b p
  have ht := fun r r' p (a : Same r0 r) (b : Same r0 r') => trace_tie hi a b p
  have h10 : ∀ r ps, headersFrom r ps 0 = .ok ([], r) := fun r ps => by cases ps <;> rfl
  have h20 : ∀ r ps, tracesFrom r ps 0 = .ok ([], r) := fun r ps => by cases ps <;> rfl
  cases c with
  | getKeys => exact ⟨s, by unfold sAsk Sorted1D.getKeys; rw [h.index], h, rfl⟩
  | getHeaders v max =>
    exact (query_tie (x := rmHeaderFrom) (ys := headersFrom) h10 (fun _ _ => rfl)
      (fun r r' ps max a b => all_tie (y := headerFrom) h10 (fun _ _ => rfl) (fun _ _ _ _ => rfl) hh a b ps max)
      header_rm_dead v max h).map _
  | getTraces v max =>
    exact (query_tie (x := rmTraceFrom) (ys := tracesFrom) h20 (fun _ _ => rfl)
      (fun r r' ps max a b => all_tie (y := traceFrom) h20 (fun _ _ => rfl) (fun _ _ _ _ => rfl) ht a b ps max)
      trace_rm_dead v max h).map _
  | readHeader => exact (next_tie hh header_rm_dead h).map _
  | readTrace => exact (next_tie ht trace_rm_dead h).map _

theorem rmAll_dead {α : Type} {x : Nat → RM α}
    (hd : ∀ r p, x p ⟨r, true⟩ = (.error (.exn .iosFailure), ⟨r, true⟩)) (r : Reader) (ps : List Nat) (max : Nat) :
    (rmAll x ps max ⟨r, true⟩).2 = ⟨r, true⟩ := by
  cases ps with
  | nil => rfl
  | cons p ps =>
    cases max with
    | zero => rfl
    | succ max => rw [rmAll_eq, rm_bind_err (hd r p)]

/-- With a failed stream nothing changes any more. -/
theorem ask_dead_same {s : Sorted1D} (c : SCall) : (sAskIO ⟨s, true⟩ c).2 = ⟨s, true⟩ := by
  have hn : ∀ {α : Type} {x : Nat → RM α},
      (∀ r p, x p ⟨r, true⟩ = (.error (.exn .iosFailure), ⟨r, true⟩)) → ((SD.mk s true).next x).2 = ⟨s, true⟩ := by
    intro α x hd
    unfold SD.next SD.base
    dsimp only
    cases s.curPos with
    | error e => rfl
    | ok p => dsimp only; rw [hd]
  have hq : ∀ {α : Type} {x : Nat → RM α} (v : Value) (max : Nat),
      (∀ r p, x p ⟨r, true⟩ = (.error (.exn .iosFailure), ⟨r, true⟩)) →
      ((SD.mk s true).query x v max).2 = ⟨s, true⟩ := by
    intro α x v max hd
    unfold SD.query
    split
    · rfl
    · split
      · rfl
      · rename_i ps _
        unfold SD.base
        have := rmAll_dead hd s.rd ps max
        cases hx : rmAll x ps max ⟨s.rd, true⟩ with
        | mk o s1 =>
          rw [hx] at this
          have this : s1 = _ := this
          subst this
          dsimp only
  cases c with
  | getKeys => rfl
  | getHeaders v max => exact hq v max header_rm_dead
  | getTraces v max => exact hq v max trace_rm_dead
  | readHeader => exact hn header_rm_dead
  | readTrace => exact hn trace_rm_dead

end Sedaman
