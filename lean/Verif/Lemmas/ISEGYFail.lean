import Verif.Spec.ISEGYFail
import Verif.Lemmas.Open
import Verif.Lemmas.OSEGYFail

/-!
# SEG-Y readers after an exception: lemmas
-/

namespace Sedaman

open Spec

theorem rm_pure {α : Type} (a : α) (s : RS) : (pure a : RM α) s = (.ok a, s) := rfl

theorem rm_bind_ok {α β : Type} {x : RM α} {f : α → RM β} {s s' : RS} {a : α} (h : x s = (.ok a, s')) :
    (x >>= f) s = f a s' := by
  show (match x s with | (.ok a, s) => f a s | (.error e, s) => (.error e, s)) = _
  rw [h]

theorem rm_bind_err {α β : Type} {x : RM α} {f : α → RM β} {s s' : RS} {e : Err}
    (h : x s = (.error e, s')) : (x >>= f) s = (.error e, s') := by
  show (match x s with | (.ok a, s) => f a s | (.error e, s) => (.error e, s)) = _
  rw [h]

theorem rm_bind_err' {α β : Type} {x : RM α} {f : α → RM β} {s : RS} {e : Err}
    (h : (x s).1 = .error e) : (x >>= f) s = (.error e, (x s).2) := by
  refine rm_bind_err ?_
  rw [← h]

theorem get_eq (r : Reader) (b : Bool) : rmGet ⟨r, b⟩ = (.ok r, ⟨r, b⟩) := rfl

theorem lift_ok {α : Type} (a : α) (s : RS) : rmLift (.ok a) s = (.ok a, s) := rfl

theorem lift_err {α : Type} (e : Err) (s : RS) : rmLift (.error e : Out α) s = (.error e, s) := rfl

/-! ## What no call changes -/

/-- The members fixed at opening. -/
structure SameFile (r r' : Reader) : Prop where
  bh : r'.bh = r.bh
  bo : r'.bo = r.bo
  map : r'.map = r.map
  spt : r'.spt = r.spt
  bps : r'.bps = r.bps
  endData : r'.endData = r.endData

theorem SameFile.refl (r : Reader) : SameFile r r := ⟨rfl, rfl, rfl, rfl, rfl, rfl⟩

theorem SameFile.trans {a b c : Reader} (h : SameFile a b) (k : SameFile b c) : SameFile a c :=
  ⟨k.bh.trans h.bh, k.bo.trans h.bo, k.map.trans h.map, k.spt.trans h.spt, k.bps.trans h.bps,
    k.endData.trans h.endData⟩

/-- A function that changes none of them. -/
def Frames {α : Type} (x : RM α) : Prop := ∀ s, SameFile s.r (x s).2.r

theorem frames_pure {α : Type} (a : α) : Frames (pure a : RM α) := fun _ => SameFile.refl _

theorem frames_lift {α : Type} (x : Out α) : Frames (rmLift x) := fun _ => SameFile.refl _

theorem frames_get : Frames rmGet := fun _ => SameFile.refl _

theorem Frames.bind {α β : Type} {x : RM α} {f : α → RM β} (hx : Frames x) (hf : ∀ a, Frames (f a)) :
    Frames (x >>= f) := by
  intro s
  have h1 := hx s
  cases h : x s with
  | mk o s' =>
    rw [h] at h1
    cases o with
    | ok a => rw [rm_bind_ok h]; exact h1.trans (hf a s')
    | error e => rw [rm_bind_err h]; exact h1

theorem frames_fill (n : Nat) : Frames (rmFill n) := by
  intro s
  unfold rmFill
  split
  · exact SameFile.refl _
  · split <;> exact ⟨rfl, rfl, rfl, rfl, rfl, rfl⟩

theorem frames_skip (n : Int) : Frames (rmSkip n) := by
  intro s
  unfold rmSkip
  split
  · exact SameFile.refl _
  · split <;> exact ⟨rfl, rfl, rfl, rfl, rfl, rfl⟩

theorem frames_resize (n : Nat) : Frames (rmResize n) := by
  intro s
  unfold rmResize
  split
  · split <;> exact ⟨rfl, rfl, rfl, rfl, rfl, rfl⟩
  · exact SameFile.refl _

theorem frames_blocks (bo : ByteOrder) (m : HdrMap) (n i : Nat) (acc : Header) :
    Frames (rmBlocks bo m n i acc) := by
  induction n generalizing i acc with
  | zero => exact frames_pure _
  | succ n ih =>
    unfold rmBlocks
    split
    · exact (frames_fill _).bind fun _ => (frames_lift _).bind fun _ => ih _ _
    · exact (frames_skip _).bind fun _ => ih _ _

theorem frames_trc : Frames rmTrcHeader := by
  refine frames_get.bind fun r => ?_
  split
  · exact frames_lift _
  · exact frames_blocks _ _ _ _ _

theorem frames_samples : Frames rmSamplesFix :=
  frames_get.bind fun _ => (frames_fill _).bind fun _ => (frames_lift _).bind fun _ =>
    (frames_lift _).bind fun _ => frames_pure _

theorem frames_header : Frames rmReadHeader := by
  refine frames_get.bind fun r => frames_trc.bind fun h => ?_
  split
  · exact (frames_lift _).bind fun _ => (frames_skip _).bind fun _ => frames_pure _
  · exact (frames_lift _).bind fun _ => (frames_skip _).bind fun _ => frames_pure _

theorem frames_trace : Frames rmReadTrace := by
  refine frames_get.bind fun r => frames_trc.bind fun h => ?_
  split
  · exact frames_samples.bind fun _ => frames_pure _
  · exact (frames_lift _).bind fun _ => (frames_resize _).bind fun _ => frames_samples.bind fun _ =>
      frames_pure _

/-! ## Header fields do not throw -/

/-- A cursor read that returns or is undefined. -/
def RdNoExn {α : Type} (x : Rd α) : Prop := ∀ bs, NoExn (x bs)

theorem rdNoExn_pure {α : Type} (a : α) : RdNoExn (pure a) := fun _ => noExn_ok _

theorem RdNoExn.bind {α β : Type} {x : Rd α} {f : α → Rd β} (hx : RdNoExn x)
    (hf : ∀ a, RdNoExn (f a)) : RdNoExn (x >>= f) := by
  intro bs
  rw [rd_bind]
  exact (hx bs).bind fun p _ => hf p.1 p.2

theorem rdNoExn_bytes (n : Nat) : RdNoExn (rdBytes n) := by
  intro bs
  unfold rdBytes
  split
  · exact noExn_ok _
  · exact noExn_ub _

theorem rdNoExn_field (bo : ByteOrder) (ty : VType) : RdNoExn (readField bo ty) := by
  cases bo <;> cases ty <;>
    simp only [readField, readI8, readU8, readI16, readU16, readI24, readU24, readI32, readU32, readI64, readU64,
      readIbm, readIeeeFloat, readIeeeDouble, readU, readS] <;>
    repeat' (first
      | exact rdNoExn_bytes _
      | exact rdNoExn_pure _
      | refine RdNoExn.bind ?_ fun _ => ?_)

theorem noExn_readFields (bo : ByteOrder) (fs : List HField) (buf : Bytes) (acc : Header) :
    NoExn (readFields bo fs buf acc) := by
  induction fs generalizing acc with
  | nil => exact noExn_ok _
  | cons f fs ih =>
    unfold readFields
    refine NoExn.bind ?_ fun v _ => ih _
    unfold readAt
    split
    · exact (rdNoExn_field bo f.ty _).bind fun _ _ => noExn_ok _
    · exact noExn_ub _

/-! ## Agreement with the model without failures -/

/-- The reader at a new position. -/
def Reader.moved (r : Reader) (f : File) : Reader := { r with file := f, curr := f.pos }

/-- An open reader whose stream is in order. -/
structure Good (s : RS) : Prop where
  bad : s.bad = false
  pos : s.r.curr = s.r.file.pos
  inv : ∃ data m, Inv data m s.r

theorem inv_moved {data : Bytes} {m : HdrMap} {r : Reader} {f : File} (hi : Inv data m r)
    (hf : f.data = data) : Inv data m (r.moved f) :=
  ⟨hf, hi.map, hi.buf, hi.spt, hi.fix, hi.fmt, hi.bps⟩

theorem fill_eq (r : Reader) (n : Nat) :
    rmFill n ⟨r, false⟩ =
      match r.file.read n with
      | .ok (b, f) => (.ok b, ⟨r.moved f, false⟩)
      | .error e => (.error e, ⟨r, true⟩) := rfl

theorem skip_eq (r : Reader) (n : Int) :
    rmSkip n ⟨r, false⟩ =
      match r.file.seekCur n with
      | .ok f => (.ok (), ⟨r.moved f, false⟩)
      | .error e => (.error e, ⟨r, true⟩) := rfl

theorem read_err {f : File} {n : Nat} {e : Err} (h : f.read n = .error e) : e = .exn .iosFailure := by
  unfold File.read at h
  dsimp only at h
  split at h <;> cases h
  rfl

theorem seekCur_err {f : File} {n : Int} {e : Err} (h : f.seekCur n = .error e) :
    e = .exn .iosFailure := by
  unfold File.seekCur File.seek at h
  split at h <;> cases h
  rfl

/-- The outcome of a call in both models. `P` holds of the state after an exception that is not a
failure of the stream. -/
def Agree {α : Type} (P : RS → Prop) (c : Out α × RS) (x : Out (α × Reader)) : Prop :=
  match x with
  | .ok (a, r) => c = (.ok a, ⟨r, false⟩)
  | .error e => c.1 = .error e ∧
      ((e = .exn .iosFailure ∧ c.2.bad = true) ∨ (∃ u, e = .ub u) ∨
        ((∃ x, e = .exn x ∧ x ≠ .iosFailure) ∧ P c.2))

theorem moved_self {r : Reader} (h : r.curr = r.file.pos) : r.moved r.file = r := by
  unfold Reader.moved
  rw [← h]

theorem moved_moved (r : Reader) (f g : File) : (r.moved f).moved g = r.moved g := rfl

theorem blocks_agree (r : Reader) (n i : Nat) (acc : Header) (h : r.curr = r.file.pos) :
    Agree (fun _ => False) (rmBlocks r.bo r.map n i acc ⟨r, false⟩)
      ((readBlocks r.bo r.map n i r.file acc).map fun (h, f) => (h, r.moved f)) := by
  induction n generalizing i acc r with
  | zero =>
    show (Except.ok acc, (⟨r, false⟩ : RS)) = _
    rw [moved_self h]
  | succ n ih =>
    unfold rmBlocks readBlocks
    cases hm : r.map[i]? with
    | some b =>
      simp only
      cases hr : r.file.read trHeaderSize with
      | error e =>
        rw [rm_bind_err (e := e) (s' := ⟨r, true⟩) (by rw [fill_eq, hr])]
        exact ⟨rfl, .inl ⟨read_err hr, rfl⟩⟩
      | ok p =>
        obtain ⟨buf, f⟩ := p
        rw [rm_bind_ok (a := buf) (s' := ⟨r.moved f, false⟩) (by rw [fill_eq, hr]), ok_bind]
        simp only
        cases hf : readFields r.bo b.fields buf acc with
        | error e =>
          rw [rm_bind_err (e := e) (s' := ⟨r.moved f, false⟩) (by rw [rmLift])]
          refine ⟨rfl, .inr (.inl ?_)⟩
          cases e with
          | ub u => exact ⟨u, rfl⟩
          | exn x => exact absurd hf (noExn_readFields _ _ _ _ x)
        | ok acc' =>
          rw [rm_bind_ok (a := acc') (s' := ⟨r.moved f, false⟩) (by rw [rmLift]), ok_bind]
          exact ih (r.moved f) (i + 1) acc' rfl
    | none =>
      simp only
      cases hr : r.file.seekCur trHeaderSize with
      | error e =>
        rw [rm_bind_err (e := e) (s' := ⟨r, true⟩) (by rw [skip_eq, hr])]
        exact ⟨rfl, .inl ⟨seekCur_err hr, rfl⟩⟩
      | ok f =>
        rw [rm_bind_ok (a := ()) (s' := ⟨r.moved f, false⟩) (by rw [skip_eq, hr]), ok_bind]
        exact ih (r.moved f) (i + 1) acc rfl

theorem trc_agree (r : Reader) (h : r.curr = r.file.pos) :
    Agree (fun _ => False) (rmTrcHeader ⟨r, false⟩)
      ((readTrcHeader r).map fun (h, f) => (h, r.moved f)) := by
  unfold rmTrcHeader readTrcHeader
  rw [rm_bind_ok (get_eq r false)]
  by_cases hm : r.bh.maxNumAddTrHeaders = 2 ^ 31 - 1
  · rw [if_pos hm, if_pos hm]
    exact ⟨rfl, .inr (.inl ⟨_, rfl⟩)⟩
  · rw [if_neg hm, if_neg hm]
    exact blocks_agree r _ _ _ h

/-- The state after a count that cannot be used: the stream stands behind the trace header. -/
def BehindHeader (r : Reader) (s : RS) : Prop :=
  ∃ h f, readTrcHeader r = .ok (h, f) ∧ s = ⟨r.moved f, false⟩

theorem sampNum_err {h : Header} {e : Err} (he : sampNum h = .error e) : e = .exn .badVariantAccess := by
  unfold sampNum at he
  split at he <;> cases he
  rfl

theorem header_agree (r : Reader) (h : r.curr = r.file.pos) (hs : ∃ p, mulInt32 r.spt r.bps = .ok p) :
    Agree (fun s => fixedLength r.bh = false ∧ BehindHeader r s) (rmReadHeader ⟨r, false⟩) (readHeader r) := by
  unfold rmReadHeader readHeader
  rw [rm_bind_ok (get_eq r false)]
  have ht := trc_agree r h
  cases hh : readTrcHeader r with
  | error e =>
    rw [hh] at ht
    obtain ⟨h1, h2⟩ := ht
    rw [rm_bind_err' h1]
    refine ⟨rfl, ?_⟩
    rcases h2 with h2 | h2 | ⟨_, h2⟩
    · exact .inl h2
    · exact .inr (.inl h2)
    · exact absurd h2 id
  | ok p =>
    obtain ⟨hdr, f⟩ := p
    rw [hh] at ht
    have ht : rmTrcHeader ⟨r, false⟩ = (.ok hdr, ⟨r.moved f, false⟩) := ht
    rw [rm_bind_ok ht, ok_bind]
    simp only
    by_cases hf : fixedLength r.bh = true
    · rw [if_pos hf, if_pos hf]
      obtain ⟨p, hp⟩ := hs
      rw [hp, rm_bind_ok (lift_ok p _), ok_bind]
      cases hk : f.seekCur p with
      | error e =>
        rw [rm_bind_err (e := e) (s' := ⟨r.moved f, true⟩) (by rw [skip_eq]; simp only [Reader.moved, hk])]
        exact ⟨rfl, .inl ⟨seekCur_err hk, rfl⟩⟩
      | ok f' =>
        rw [rm_bind_ok (a := ()) (s' := ⟨r.moved f', false⟩) (by rw [skip_eq]; simp only [Reader.moved, hk]), ok_bind]
        rfl
    · rw [if_neg hf, if_neg hf]
      cases hn : sampNum hdr with
      | error e =>
        rw [rm_bind_err (e := e) (s' := ⟨r.moved f, false⟩) (by rw [rmLift])]
        exact ⟨rfl, .inr (.inr ⟨⟨_, sampNum_err hn, by decide⟩, by simpa using hf, hdr, f, hh, rfl⟩)⟩
      | ok q =>
        obtain ⟨n, hdr'⟩ := q
        rw [rm_bind_ok (a := (n, hdr')) (s' := ⟨r.moved f, false⟩) (by rw [rmLift]), ok_bind]
        simp only
        cases hk : f.seekCur (toS 8 (toU 8 (n * r.bps))) with
        | error e =>
          rw [rm_bind_err (e := e) (s' := ⟨r.moved f, true⟩) (by rw [skip_eq]; simp only [Reader.moved, hk])]
          exact ⟨rfl, .inl ⟨seekCur_err hk, rfl⟩⟩
        | ok f' =>
          rw [rm_bind_ok (a := ()) (s' := ⟨r.moved f', false⟩) (by rw [skip_eq]; simp only [Reader.moved, hk]), ok_bind]
          rfl

theorem samples_agree {data : Bytes} {m : HdrMap} (r : Reader) (hi : Inv data m r) :
    match readSamplesFix r.bh r.bo r.bps r.bufLen r.file with
    | .ok (xs, f) => rmSamplesFix ⟨r, false⟩ = (.ok xs, ⟨r.moved f, false⟩)
    | .error e => (rmSamplesFix ⟨r, false⟩).1 = .error e ∧ e = .exn .iosFailure ∧
        (rmSamplesFix ⟨r, false⟩).2.bad = true := by
  unfold rmSamplesFix readSamplesFix
  rw [rm_bind_ok (get_eq r false)]
  cases hr : r.file.read r.bufLen with
  | error e =>
    rw [rm_bind_err (e := e) (s' := ⟨r, true⟩) (by rw [fill_eq, hr])]
    exact ⟨rfl, read_err hr, rfl⟩
  | ok p =>
    obtain ⟨buf, f⟩ := p
    rw [rm_bind_ok (a := buf) (s' := ⟨r.moved f, false⟩) (by rw [fill_eq, hr]), ok_bind]
    simp only
    obtain ⟨n, rd, h1, h2, h3, h4⟩ := decodeSamples_total hi.fmt r.bo
    have hn : n = r.bps := by
      have := hi.bps
      rw [h1] at this
      exact Option.some.inj this
    subst hn
    have hl : buf.length = r.bufLen := (read_ok hr).2.1
    obtain ⟨xs, hx⟩ := h4 (r.bufLen / r.bps) buf (by rw [hl]; exact Nat.div_mul_le_self _ _)
    rw [h3, rm_bind_ok (lift_ok rd _), ok_bind, hx, rm_bind_ok (lift_ok _ _), ok_bind]
    rfl

theorem resize_same {r : Reader} {n : Nat} {b : Bool} (h : r.bufLen = n) :
    rmResize n ⟨r, b⟩ = (.ok (), ⟨r, b⟩) := by
  unfold rmResize
  rw [if_neg (by simpa using h)]

theorem resize_other {r : Reader} {n : Nat} {b : Bool} {v : Bytes} (h : ¬r.bufLen = n)
    (hv : resizeVec (List.replicate r.bufLen 0) n = .ok v) :
    rmResize n ⟨r, b⟩ = (.ok (), ⟨{ r with bufLen := v.length }, b⟩) := by
  unfold rmResize
  rw [if_pos (by simpa using h)]
  simp only [hv]

theorem resize_err {r : Reader} {n : Nat} {b : Bool} {e : Err} (h : ¬r.bufLen = n)
    (hv : resizeVec (List.replicate r.bufLen 0) n = .error e) :
    rmResize n ⟨r, b⟩ = (.error e, ⟨r, b⟩) := by
  unfold rmResize
  rw [if_pos (by simpa using h)]
  simp only [hv]

theorem resizeVec_err {b : Bytes} {n : Nat} {e : Err} (h : resizeVec b n = .error e) :
    e = .exn .lengthError := by
  unfold resizeVec at h
  split at h <;> cases h
  rfl

theorem trace_agree {data : Bytes} {m : HdrMap} (r : Reader) (h : r.curr = r.file.pos) (hi : Inv data m r) :
    Agree (fun s => fixedLength r.bh = false ∧ BehindHeader r s) (rmReadTrace ⟨r, false⟩) (readTrace r) := by
  unfold rmReadTrace readTrace
  rw [rm_bind_ok (get_eq r false)]
  have ht := trc_agree r h
  cases hh : readTrcHeader r with
  | error e =>
    rw [hh] at ht
    obtain ⟨h1, h2⟩ := ht
    rw [rm_bind_err' h1]
    refine ⟨rfl, ?_⟩
    rcases h2 with h2 | h2 | ⟨_, h2⟩
    · exact .inl h2
    · exact .inr (.inl h2)
    · exact absurd h2 id
  | ok p =>
    obtain ⟨hdr, f⟩ := p
    rw [hh] at ht
    have ht : rmTrcHeader ⟨r, false⟩ = (.ok hdr, ⟨r.moved f, false⟩) := ht
    have hd : f.data = data := by
      rw [readTrcHeader_file hh]
      exact hi.data
    rw [rm_bind_ok ht, ok_bind]
    simp only
    by_cases hf : fixedLength r.bh = true
    · rw [if_pos hf, if_pos hf]
      have hs := samples_agree (r.moved f) (inv_moved hi hd)
      have e0 : readSamplesFix (r.moved f).bh (r.moved f).bo (r.moved f).bps (r.moved f).bufLen (r.moved f).file =
        readSamplesFix r.bh r.bo r.bps r.bufLen f := rfl
      rw [e0] at hs
      cases hk : readSamplesFix r.bh r.bo r.bps r.bufLen f with
      | error e =>
        rw [hk] at hs
        obtain ⟨h1, h2, h3⟩ := hs
        rw [rm_bind_err' h1]
        exact ⟨rfl, .inl ⟨h2, h3⟩⟩
      | ok q =>
        obtain ⟨xs, f'⟩ := q
        rw [hk] at hs
        rw [rm_bind_ok hs]
        rfl
    · rw [if_neg hf, if_neg hf]
      cases hn : sampNum hdr with
      | error e =>
        rw [rm_bind_err (lift_err e _)]
        exact ⟨rfl, .inr (.inr ⟨⟨_, sampNum_err hn, by decide⟩, by simpa using hf, hdr, f, hh, rfl⟩)⟩
      | ok q =>
        obtain ⟨n, hdr'⟩ := q
        rw [rm_bind_ok (lift_ok _ _), ok_bind]
        simp only
        have key : ∀ l, l < 2 ^ 63 →
            Agree (fun s => fixedLength r.bh = false ∧ BehindHeader r s)
              ((do pure ⟨hdr', ← rmSamplesFix⟩ : RM Trace) ⟨{ r.moved f with bufLen := l }, false⟩)
              (do
                let (xs, f) ← readSamplesFix r.bh r.bo r.bps l f
                pure (⟨hdr', xs⟩, { r with file := f, curr := f.pos, bufLen := l })) := by
          intro l hl
          have hs := samples_agree { r.moved f with bufLen := l }
            ⟨hd, hi.map, hl, hi.spt, fun hc => absurd hc hf, hi.fmt, hi.bps⟩
          dsimp only [Reader.moved] at hs
          cases hk : readSamplesFix r.bh r.bo r.bps l f with
          | error e =>
            rw [hk] at hs
            obtain ⟨h1, h2, h3⟩ := hs
            rw [Reader.moved, rm_bind_err' h1]
            exact ⟨rfl, .inl ⟨h2, h3⟩⟩
          | ok q =>
            obtain ⟨xs, f'⟩ := q
            rw [hk] at hs
            rw [Reader.moved, rm_bind_ok hs]
            rfl
        by_cases hb : r.bufLen = toU 8 (n * r.bps)
        · rw [if_neg (by simpa using hb), rm_bind_ok (resize_same (r := r.moved f) hb), ok_bind]
          exact key r.bufLen hi.buf
        · rw [if_pos hb]
          cases hv : resizeVec (List.replicate r.bufLen 0) (toU 8 (n * r.bps)) with
          | error e =>
            rw [rm_bind_err (resize_err (r := r.moved f) (b := false) hb hv)]
            exact ⟨rfl, .inr (.inr ⟨⟨_, resizeVec_err hv, by decide⟩, by simpa using hf, hdr, f, hh, rfl⟩)⟩
          | ok b =>
            rw [rm_bind_ok (resize_other (r := r.moved f) (b := false) hb hv), ok_bind]
            refine key b.length ?_
            obtain ⟨h1, h2, -⟩ := resizeVec_ok hv
            omega

/-! ## A stream that has failed -/

/-- A reader whose stream has failed. -/
structure Dead (s : RS) : Prop where
  bad : s.bad = true
  blocks : s.r.bh.maxNumAddTrHeaders ≠ 2 ^ 31 - 1
  spt : ∃ p, mulInt32 s.r.spt s.r.bps = .ok p

theorem fill_dead {s : RS} (h : s.bad = true) (n : Nat) : rmFill n s = (.error (.exn .iosFailure), s) := by
  unfold rmFill
  rw [if_pos h]
  rfl

theorem skip_dead {s : RS} (h : s.bad = true) (n : Int) : rmSkip n s = (.error (.exn .iosFailure), s) := by
  unfold rmSkip
  rw [if_pos h]
  rfl

theorem trc_dead {s : RS} (h : Dead s) :
    rmTrcHeader s = (.error (.exn .iosFailure), s) ∨ rmTrcHeader s = (.ok [], s) := by
  obtain ⟨r, b⟩ := s
  unfold rmTrcHeader
  rw [rm_bind_ok (get_eq r b), if_neg h.blocks]
  cases (r.bh.maxNumAddTrHeaders + 1).toNat with
  | zero => exact .inr rfl
  | succ n =>
    refine .inl ?_
    unfold rmBlocks
    cases r.map[0]? with
    | some _ => exact rm_bind_err (fill_dead h.bad _)
    | none => exact rm_bind_err (skip_dead h.bad _)

theorem sampNum_nil : ∃ d, sampNum [] = .ok (0, d) := ⟨_, rfl⟩

theorem header_dead {s : RS} (h : Dead s) : rmReadHeader s = (.error (.exn .iosFailure), s) := by
  obtain ⟨r, b⟩ := s
  unfold rmReadHeader
  rw [rm_bind_ok (get_eq r b)]
  rcases trc_dead h with ht | ht
  · exact rm_bind_err ht
  · rw [rm_bind_ok ht]
    by_cases hf : fixedLength r.bh = true
    · rw [if_pos hf]
      obtain ⟨p, hp⟩ := h.spt
      rw [hp, rm_bind_ok (lift_ok _ _)]
      exact rm_bind_err (skip_dead h.bad _)
    · rw [if_neg hf]
      obtain ⟨d, hd⟩ := sampNum_nil
      rw [hd, rm_bind_ok (lift_ok _ _)]
      exact rm_bind_err (skip_dead h.bad _)

theorem samples_dead {s : RS} (h : s.bad = true) : rmSamplesFix s = (.error (.exn .iosFailure), s) := by
  obtain ⟨r, b⟩ := s
  unfold rmSamplesFix
  rw [rm_bind_ok (get_eq r b)]
  exact rm_bind_err (fill_dead h _)

theorem trace_dead {s : RS} (h : Dead s) :
    ∃ l, rmReadTrace s = (.error (.exn .iosFailure), ⟨{ s.r with bufLen := l }, s.bad⟩) := by
  obtain ⟨r, b⟩ := s
  unfold rmReadTrace
  rw [rm_bind_ok (get_eq r b)]
  rcases trc_dead h with ht | ht
  · exact ⟨r.bufLen, rm_bind_err ht⟩
  · rw [rm_bind_ok ht]
    by_cases hf : fixedLength r.bh = true
    · rw [if_pos hf]
      exact ⟨r.bufLen, rm_bind_err (samples_dead h.bad)⟩
    · rw [if_neg hf]
      obtain ⟨d, hd⟩ := sampNum_nil
      rw [hd, rm_bind_ok (lift_ok _ _)]
      simp only
      have e0 : toU 8 (0 * (r.bps : Int)) = 0 := by
        rw [Int.zero_mul]
        rfl
      rw [e0]
      by_cases hb : r.bufLen = 0
      · rw [rm_bind_ok (resize_same hb)]
        exact ⟨r.bufLen, rm_bind_err (samples_dead h.bad)⟩
      · rw [rm_bind_ok (resize_other (v := []) hb (by simp [resizeVec]))]
        exact ⟨0, rm_bind_err (samples_dead (s := ⟨{ r with bufLen := 0 }, b⟩) h.bad)⟩

theorem ask_dead {s : RS} (h : Dead s) (a : Ask) :
    ∃ s', askIO s a = (.error (.exn .iosFailure), s') ∧ Dead s' ∧ hasTrace s'.r = hasTrace s.r := by
  cases a with
  | header => exact ⟨s, by unfold askIO; rw [header_dead h]; rfl, h, rfl⟩
  | trace =>
    obtain ⟨l, hl⟩ := trace_dead h
    exact ⟨⟨{ s.r with bufLen := l }, s.bad⟩, by unfold askIO; rw [hl]; rfl, ⟨h.bad, h.blocks, h.spt⟩, rfl⟩

theorem asks_dead {s : RS} (h : Dead s) (as : List Ask) :
    asks s as = List.replicate as.length (.error (.exn .iosFailure), hasTrace s.r) := by
  induction as generalizing s with
  | nil => rfl
  | cons a as ih =>
    obtain ⟨s', h1, h2, h3⟩ := ask_dead h a
    unfold asks
    rw [h1]
    simp only
    rw [ih h2, h3]
    rfl

/-! ## Runs -/

theorem good_frame {data : Bytes} {m : HdrMap} {r : Reader} (hi : Inv data m r) :
    ∃ p, mulInt32 r.spt r.bps = .ok p := ⟨_, hi.spt.2⟩

/-- One call in both models. -/
theorem ask_agree {data : Bytes} {m : HdrMap} (r : Reader) (h : r.curr = r.file.pos) (hi : Inv data m r)
    (a : Ask) :
    Agree (fun s => fixedLength r.bh = false ∧ BehindHeader r s) (askIO ⟨r, false⟩ a) (ask r a) := by
  cases a with
  | header =>
    have := header_agree r h (good_frame hi)
    unfold askIO ask
    cases hx : readHeader r with
    | ok p =>
      rw [hx] at this
      have this : rmReadHeader ⟨r, false⟩ = _ := this
      rw [this]
      rfl
    | error e =>
      rw [hx] at this
      obtain ⟨h1, h2⟩ := this
      refine ⟨?_, h2⟩
      dsimp only
      rw [h1]
      rfl
  | trace =>
    have := trace_agree r h hi
    unfold askIO ask
    cases hx : readTrace r with
    | ok p =>
      rw [hx] at this
      have this : rmReadTrace ⟨r, false⟩ = _ := this
      rw [this]
      rfl
    | error e =>
      rw [hx] at this
      obtain ⟨h1, h2⟩ := this
      refine ⟨?_, h2⟩
      dsimp only
      rw [h1]
      rfl

theorem frames_ask (s : RS) (a : Ask) : SameFile s.r (askIO s a).2.r := by
  cases a with
  | header => exact frames_header s
  | trace => exact frames_trace s

theorem curr_ask {r r' : Reader} {a : Ask} {x : Ans} (h : ask r a = .ok (x, r')) : r'.curr = r'.file.pos := by
  unfold ask at h
  cases a with
  | header =>
    cases hx : readHeader r with
    | error e => rw [hx] at h; cases h
    | ok p =>
      obtain ⟨y, r1⟩ := p
      rw [hx] at h
      cases h
      obtain ⟨h0, off, h1, h2, h3, rfl⟩ := readHeader_ok hx
      rfl
  | trace =>
    cases hx : readTrace r with
    | error e => rw [hx] at h; cases h
    | ok p =>
      obtain ⟨y, r1⟩ := p
      rw [hx] at h
      cases h
      obtain ⟨h0, n, buf, rd, rest, h1, h2, h3, h4, h5, rfl⟩ := readTrace_ok hx
      rfl

theorem inv_ask {data : Bytes} {m : HdrMap} {r r' : Reader} {a : Ask} {x : Ans} (hi : Inv data m r)
    (h : ask r a = .ok (x, r')) : Inv data m r' := by
  unfold ask at h
  cases a with
  | header =>
    cases hx : readHeader r with
    | error e => rw [hx] at h; cases h
    | ok p =>
      obtain ⟨y, r1⟩ := p
      rw [hx] at h
      cases h
      exact inv_header hi hx
  | trace =>
    cases hx : readTrace r with
    | error e => rw [hx] at h; cases h
    | ok p =>
      obtain ⟨y, r1⟩ := p
      rw [hx] at h
      cases h
      exact inv_trace hi hx

/-! ## Failures of the stream stay -/

/-- A function that throws the failure of the stream only with `failbit` set. -/
def IosBad {α : Type} (x : RM α) : Prop :=
  ∀ s, (x s).1 = .error (.exn .iosFailure) → (x s).2.bad = true

theorem iosBad_pure {α : Type} (a : α) : IosBad (pure a : RM α) := fun s h => by
  rw [rm_pure] at h
  cases h

theorem iosBad_lift {α : Type} {x : Out α} (h : x ≠ .error (.exn .iosFailure)) : IosBad (rmLift x) :=
  fun _ hx => absurd hx h

theorem iosBad_get : IosBad rmGet := fun _ h => by cases h

theorem IosBad.bind {α β : Type} {x : RM α} {f : α → RM β} (hx : IosBad x) (hf : ∀ a, IosBad (f a)) :
    IosBad (x >>= f) := by
  intro s h
  have h1 := hx s
  cases hs : x s with
  | mk o s' =>
    rw [hs] at h1
    cases o with
    | ok a =>
      rw [rm_bind_ok hs] at h ⊢
      exact hf a s' h
    | error e =>
      rw [rm_bind_err hs] at h ⊢
      cases h
      exact h1 rfl

theorem iosBad_fill (n : Nat) : IosBad (rmFill n) := by
  intro s h
  unfold rmFill at h ⊢
  split at h
  · rename_i hb
    rw [if_pos hb]
    exact hb
  · rename_i hb
    rw [if_neg hb]
    cases hr : s.r.file.read n with
    | ok p => rw [hr] at h; cases h
    | error e => rfl

theorem iosBad_skip (n : Int) : IosBad (rmSkip n) := by
  intro s h
  unfold rmSkip at h ⊢
  split at h
  · rename_i hb
    rw [if_pos hb]
    exact hb
  · rename_i hb
    rw [if_neg hb]
    cases hr : s.r.file.seekCur n with
    | ok p => rw [hr] at h; cases h
    | error e => rfl

theorem iosBad_resize (n : Nat) : IosBad (rmResize n) := by
  intro s h
  unfold rmResize at h
  split at h
  · cases hr : resizeVec (List.replicate s.r.bufLen 0) n with
    | ok p => rw [hr] at h; cases h
    | error e =>
      rw [hr] at h
      have h : (Except.error e : Out Unit) = _ := h
      rw [resizeVec_err hr] at h
      cases h
  · cases h

theorem NoExn.ne {α : Type} {x : Out α} (h : NoExn x) {e : Exn} : x ≠ .error (.exn e) := h e

theorem iosBad_blocks (bo : ByteOrder) (m : HdrMap) (n i : Nat) (acc : Header) :
    IosBad (rmBlocks bo m n i acc) := by
  induction n generalizing i acc with
  | zero => exact iosBad_pure _
  | succ n ih =>
    unfold rmBlocks
    split
    · exact (iosBad_fill _).bind fun _ => (iosBad_lift (noExn_readFields _ _ _ _).ne).bind fun _ => ih _ _
    · exact (iosBad_skip _).bind fun _ => ih _ _

theorem iosBad_trc : IosBad rmTrcHeader := by
  refine iosBad_get.bind fun r => ?_
  split
  · exact iosBad_lift (by intro h; cases h)
  · exact iosBad_blocks _ _ _ _ _

theorem mulInt32_ne (a b : Int) : mulInt32 a b ≠ .error (.exn .iosFailure) := by
  unfold mulInt32
  split <;> (intro h; cases h)

theorem sampNum_ne (h : Header) : sampNum h ≠ .error (.exn .iosFailure) := by
  intro he
  have := sampNum_err he
  cases this

theorem iosBad_header : IosBad rmReadHeader := by
  refine iosBad_get.bind fun r => iosBad_trc.bind fun h => ?_
  split
  · exact (iosBad_lift (mulInt32_ne _ _)).bind fun _ => (iosBad_skip _).bind fun _ => iosBad_pure _
  · exact (iosBad_lift (sampNum_ne _)).bind fun _ => (iosBad_skip _).bind fun _ => iosBad_pure _

theorem rdNoExn_decode {rd : Rd Dbl} (h : RdNoExn rd) (n : Nat) : RdNoExn (decodeSamples rd n) := by
  induction n with
  | zero => exact rdNoExn_pure _
  | succ n ih => exact h.bind fun _ => ih.bind fun _ => rdNoExn_pure _

theorem reader_ne (fmt : Int) : sampleReader fmt ≠ .error (.exn .iosFailure) := by
  unfold sampleReader
  repeat' split
  all_goals (intro h; cases h)

theorem decode_ne {fmt : Int} {rd : ByteOrder → Rd Dbl} (h : sampleReader fmt = .ok rd) (bo : ByteOrder)
    (n : Nat) (buf : Bytes) : decodeSamples (rd bo) n buf ≠ .error (.exn .iosFailure) := by
  obtain ⟨k, rd', -, h2, h3⟩ := reader_shape (mem_supported h)
  rw [h] at h2
  cases h2
  obtain ⟨v, hv⟩ := h3 bo
  refine NoExn.ne (rdNoExn_decode (fun bs => ?_) n buf)
  rw [hv bs]
  split
  · exact noExn_ok _
  · exact noExn_ub _

theorem iosBad_samples : IosBad rmSamplesFix := by
  refine iosBad_get.bind fun r => (iosBad_fill _).bind fun buf => ?_
  cases h : sampleReader r.bh.formatCode with
  | error e =>
    intro s hs
    rw [rm_bind_err (lift_err e s)] at hs
    cases hs
    exact absurd h (reader_ne _)
  | ok rd =>
    intro s hs
    rw [rm_bind_ok (lift_ok rd s)] at hs ⊢
    exact ((iosBad_lift (decode_ne h r.bo _ buf)).bind fun _ => iosBad_pure _) s hs

theorem iosBad_trace : IosBad rmReadTrace := by
  refine iosBad_get.bind fun r => iosBad_trc.bind fun h => ?_
  split
  · exact iosBad_samples.bind fun _ => iosBad_pure _
  · exact (iosBad_lift (sampNum_ne _)).bind fun _ => (iosBad_resize _).bind fun _ =>
      iosBad_samples.bind fun _ => iosBad_pure _

/-- A call that fails because of the stream leaves it failed. -/
theorem ask_ios {s s' : RS} {a : Ask} (hp : ∃ p, mulInt32 s.r.spt s.r.bps = .ok p)
    (h : askIO s a = (.error (.exn .iosFailure), s')) : Dead s' := by
  have hf := frames_ask s a
  rw [h] at hf
  refine ⟨?_, ?_, by rw [hf.spt, hf.bps]; exact hp⟩
  · unfold askIO at h
    cases a with
    | header =>
      cases hx : rmReadHeader s with
      | mk o s1 =>
        have := iosBad_header s
        rw [hx] at h this
        cases o with
        | ok x => cases h
        | error e => cases h; exact this rfl
    | trace =>
      cases hx : rmReadTrace s with
      | mk o s1 =>
        have := iosBad_trace s
        rw [hx] at h this
        cases o with
        | ok x => cases h
        | error e => cases h; exact this rfl
  · rw [hf.bh]
    intro hc
    have ht : rmTrcHeader s = (.error (.ub .signedOverflow), s) := by
      unfold rmTrcHeader
      rw [rm_bind_ok (get_eq s.r s.bad), if_pos hc]
      rfl
    unfold askIO at h
    cases a with
    | header =>
      unfold rmReadHeader at h
      rw [rm_bind_ok (get_eq s.r s.bad), rm_bind_err ht] at h
      cases h
    | trace =>
      unfold rmReadTrace at h
      rw [rm_bind_ok (get_eq s.r s.bad), rm_bind_err ht] at h
      cases h

theorem asks_ios {s : RS} (hp : ∃ p, mulInt32 s.r.spt s.r.bps = .ok p) (as : List Ask) {i j : Nat} {b : Bool}
    (hij : i ≤ j) (hj : j < as.length) (h : (asks s as)[i]? = some (.error (.exn .iosFailure), b)) :
    (asks s as)[j]? = some (.error (.exn .iosFailure), b) := by
  induction as generalizing s i j with
  | nil => exact absurd hj (Nat.not_lt_zero _)
  | cons a as ih =>
    cases hx : askIO s a with
    | mk o s' =>
      have e : asks s (a :: as) = (o, hasTrace s'.r) :: asks s' as := by
        rw [asks, hx]
      rw [e] at h ⊢
      cases j with
      | zero =>
        obtain rfl := Nat.le_zero.mp hij
        exact h
      | succ j =>
        rw [List.getElem?_cons_succ]
        cases i with
        | zero =>
          rw [List.getElem?_cons_zero] at h
          cases h
          rw [asks_dead (ask_ios hp hx), List.getElem?_replicate, if_pos (by simpa using hj)]
        | succ i =>
          have hf := frames_ask s a
          rw [hx] at hf
          exact ih (by rw [hf.spt, hf.bps]; exact hp) (by omega) (by simpa using hj) h

/-- Up to the first failure both models agree; after it the state is one of three. -/
theorem asks_answers {data : Bytes} {m : HdrMap} (r : Reader) (h : r.curr = r.file.pos) (hi : Inv data m r)
    (as : List Ask) :
    match answers r as with
    | (xs, none) => (asks ⟨r, false⟩ as).map (·.1) = xs.map .ok
    | (xs, some e) => ∃ rest s, (asks ⟨r, false⟩ as).map (·.1) = xs.map .ok ++ .error e :: rest ∧
        rest = (asks s (as.drop (xs.length + 1))).map (·.1) ∧ xs.length < as.length ∧
        ((e = .exn .iosFailure ∧ Dead s) ∨ (∃ u, e = .ub u) ∨
          ((∃ x, e = .exn x ∧ x ≠ .iosFailure) ∧ fixedLength r.bh = false)) := by
  induction as generalizing r with
  | nil => rfl
  | cons a as ih =>
    have ha := ask_agree r h hi a
    cases hx : ask r a with
    | ok p =>
      obtain ⟨x, r'⟩ := p
      rw [hx] at ha
      have ha : askIO ⟨r, false⟩ a = (.ok x, ⟨r', false⟩) := ha
      have e : asks ⟨r, false⟩ (a :: as) = (.ok x, hasTrace r') :: asks ⟨r', false⟩ as := by
        rw [asks, ha]
      have ih := ih r' (curr_ask hx) (inv_ask hi hx)
      have hf := frames_ask ⟨r, false⟩ a
      rw [ha] at hf
      rw [answers, hx]
      simp only
      cases hq : answers r' as with
      | mk xs o =>
        rw [hq] at ih
        cases o with
        | none =>
          simp only at ih ⊢
          rw [e, List.map_cons, ih]
          rfl
        | some er =>
          simp only at ih ⊢
          obtain ⟨rest, s, h1, h2, h3, h4⟩ := ih
          refine ⟨rest, s, ?_, ?_, by simpa using h3, ?_⟩
          · rw [e, List.map_cons, h1]
            rfl
          · rw [h2]
            rfl
          · rw [← hf.bh]
            exact h4
    | error e =>
      rw [hx] at ha
      obtain ⟨h1, h2⟩ := ha
      rw [answers, hx]
      simp only
      refine ⟨_, (askIO ⟨r, false⟩ a).2, ?_, rfl, by simp, ?_⟩
      · rw [asks]
        simp only [List.map_cons, List.map_nil, List.nil_append, List.length_nil, Nat.zero_add,
          List.drop_succ_cons, List.drop_zero]
        rw [h1]
      · rcases h2 with ⟨h2, -⟩ | h2 | ⟨h2, h3, -⟩
        · refine .inl ⟨h2, ask_ios (s := ⟨r, false⟩) (a := a) (good_frame hi) ?_⟩
          rw [← h2, ← h1]
        · exact .inr (.inl h2)
        · exact .inr (.inr ⟨h2, h3⟩)

end Sedaman
