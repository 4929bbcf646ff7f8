import Verif.Model.SegdFail
import Verif.Spec.SegdFail
import Verif.Lemmas.SegdSafe
import Verif.Lemmas.ISEGYFail

/-!
# SEG-D readers after an exception: lemmas
-/

namespace Sedaman

open Spec

theorem sm_pure {α : Type} (a : α) (d : DS) : (pure a : SM α) d = (.ok a, d) := rfl

theorem sm_bind_ok {α β : Type} {x : SM α} {f : α → SM β} {d d' : DS} {a : α} (h : x d = (.ok a, d')) :
    (x >>= f) d = f a d' := by
  show (match x d with | (.ok a, s) => f a s | (.error e, s) => (.error e, s)) = _
  rw [h]

theorem sm_bind_err {α β : Type} {x : SM α} {f : α → SM β} {d d' : DS} {e : Err}
    (h : x d = (.error e, d')) : (x >>= f) d = (.error e, d') := by
  show (match x d with | (.ok a, s) => f a s | (.error e, s) => (.error e, s)) = _
  rw [h]

theorem sm_get {β : Type} (f : ISegd → SM β) (d : DS) : (smGet >>= f) d = f d.s d := rfl

theorem sm_mod {β : Type} (k : ISegd → ISegd) (f : Unit → SM β) (d : DS) :
    (smMod k >>= f) d = f () { d with s := k d.s } := rfl

/-! ## Exceptions other than those of the stream -/

/-- The only exception is `bad_variant_access`. -/
def OnlyBV {α : Type} (x : Out α) : Prop := ∀ e, x = .error (.exn e) → e = .badVariantAccess

theorem NoExn.onlyBV {α : Type} {x : Out α} (h : NoExn x) : OnlyBV x := fun e he => absurd he (h e)

theorem onlyBV_ok {α : Type} (a : α) : OnlyBV (.ok a : Out α) := (noExn_ok a).onlyBV

theorem onlyBV_ub {α : Type} (u : Ub) : OnlyBV (isUb u : Out α) := (noExn_ub u).onlyBV

theorem onlyBV_exn {α : Type} : OnlyBV (throwExn .badVariantAccess : Out α) := by
  intro e h
  cases h
  rfl

theorem OnlyBV.bind {α β : Type} {x : Out α} {f : α → Out β} (hx : OnlyBV x) (hf : ∀ a, x = .ok a → OnlyBV (f a)) :
    OnlyBV (x >>= f) := by
  match x, hx, hf with
  | .ok a, _, hf => exact hf a rfl
  | .error e, hx, _ =>
    intro e' h
    cases h
    exact hx e' rfl

/-- The same for a cursor read. -/
def RdOnlyBV {α : Type} (x : Rd α) : Prop := ∀ bs, OnlyBV (x bs)

theorem RdNoExn.onlyBV {α : Type} {x : Rd α} (h : RdNoExn x) : RdOnlyBV x := fun bs => (h bs).onlyBV

theorem rdOnlyBV_pure {α : Type} (a : α) : RdOnlyBV (pure a) := (rdNoExn_pure a).onlyBV

theorem RdOnlyBV.bind {α β : Type} {x : Rd α} {f : α → Rd β} (hx : RdOnlyBV x)
    (hf : ∀ a, RdOnlyBV (f a)) : RdOnlyBV (x >>= f) := by
  intro bs
  rw [rd_bind]
  exact (hx bs).bind fun p _ => hf p.1 p.2

theorem Uses.noExn {α : Type} {r : Rd α} {n c : Nat} (h : Uses r n c) {s : Bytes} (hs : n ≤ s.length) :
    NoExn (r s) := by
  obtain ⟨a, ha⟩ := h s hs
  rw [ha]
  exact noExn_ok _

theorem rdNoExn_readU (n : Nat) : RdNoExn (readU n) := by
  unfold readU
  exact (rdNoExn_bytes _).bind fun _ => rdNoExn_pure _

/-- Closes goals about reads built from primitives. -/
macro "rd_no_exn" : tactic => `(tactic| repeat' (first
  | exact rdNoExn_bytes _ | exact rdNoExn_pure _ | exact rdNoExn_readU _
  | refine RdNoExn.bind ?_ fun _ => ?_))

theorem rdNoExn_u8 : RdNoExn readU8 := by simp only [readU8]; rd_no_exn
theorem rdNoExn_u16 (bo : ByteOrder) : RdNoExn (readU16 bo) := by cases bo <;> simp only [readU16] <;> rd_no_exn
theorem rdNoExn_u24 (bo : ByteOrder) : RdNoExn (readU24 bo) := by cases bo <;> simp only [readU24] <;> rd_no_exn
theorem rdNoExn_u32 (bo : ByteOrder) : RdNoExn (readU32 bo) := by cases bo <;> simp only [readU32] <;> rd_no_exn
theorem rdNoExn_u64 (bo : ByteOrder) : RdNoExn (readU64 bo) := by cases bo <;> simp only [readU64] <;> rd_no_exn
theorem rdNoExn_skip (n : Nat) : RdNoExn (rdSkip n) := by simp only [rdSkip]; rd_no_exn

theorem noExn_bcdLoop (i r : Nat) (bs : Bytes) : NoExn (fromBcdLoop i r bs) := by
  fun_induction fromBcdLoop i r bs with
  | case1 => exact noExn_ok _
  | case2 => exact noExn_ub _
  | case3 => exact noExn_ok _
  | case4 => exact noExn_ub _
  | case5 _ _ _ _ ih => exact ih

theorem rdNoExn_bcd (skip : Bool) (num : Nat) : RdNoExn (fromBcd skip num) := by
  intro bs
  unfold fromBcd
  split
  · exact noExn_ub _
  · exact (noExn_bcdLoop _ _ _).bind fun _ _ => noExn_ok _

theorem rdNoExn_item (i : BlkItem) : RdNoExn (rdItem i) := by
  cases i <;> simp only [rdItem, rdFix] <;>
  repeat' (first
    | exact rdNoExn_bytes _ | exact rdNoExn_pure _ | exact rdNoExn_u8 | exact rdNoExn_u16 _
    | exact rdNoExn_u24 _ | exact rdNoExn_u32 _ | exact rdNoExn_u64 _ | exact rdNoExn_skip _
    | exact rdNoExn_bcd _ _ | refine RdNoExn.bind ?_ fun _ => ?_)

theorem rdNoExn_items (is : List BlkItem) : RdNoExn (rdItems is) := by
  induction is with
  | nil => exact rdNoExn_pure _
  | cons i is ih => exact (rdNoExn_item i).bind fun _ => ih.bind fun _ => rdNoExn_pure _

theorem noExn_rev3Blk (b : Bytes) (m : BlkMap) : NoExn (readRev3Blk b m) := by
  unfold readRev3Blk
  split
  · exact noExn_ub _
  · split
    · exact noExn_ok _
    · exact NoExn.bind (((rdNoExn_items _).bind fun _ => rdNoExn_u8.bind fun _ => rdNoExn_pure _) b)
        fun _ _ => noExn_ok _

theorem noExn_rev2Blk {b : Bytes} (h : b.length = 32) (m : BlkMap) : NoExn (readRev2Blk b m) :=
  (readGenHdrN_uses.noExn (by omega)).bind fun _ _ => noExn_ok _

theorem rdOnlyBV_extStd (rev : Int) (h : Header) : RdOnlyBV (rdExtStd rev h) := by
  have hidx : ∀ h, RdNoExn (rdExtIdx rev h) := by
    intro h
    unfold rdExtIdx
    split <;> repeat' (first
      | exact rdNoExn_pure _ | exact rdNoExn_u8 | exact rdNoExn_u24 _ | refine RdNoExn.bind ?_ fun _ => ?_)
  have hlines : ∀ h, RdNoExn (rdExtLines rev h) := by
    intro h
    unfold rdExtLines rdLinePart
    split <;> repeat' (first
      | exact rdNoExn_pure _ | exact rdNoExn_u8 | exact rdNoExn_u24 _ | exact rdNoExn_u16 _
      | refine RdNoExn.bind ?_ fun _ => ?_)
  have hr3 : ∀ h, RdOnlyBV (rdExtRev3 rev h) := by
    intro h
    unfold rdExtRev3
    split
    · refine (rdNoExn_u24 _).onlyBV.bind fun n => RdOnlyBV.bind ?_ fun h => (rdNoExn_u32 _).onlyBV.bind fun _ =>
        rdNoExn_u8.onlyBV.bind fun _ => (rdNoExn_skip _).onlyBV.bind fun _ => rdNoExn_u8.onlyBV.bind fun _ =>
        rdOnlyBV_pure _
      intro bs
      unfold rdTraceNumber
      split
      · exact onlyBV_ok _
      · exact onlyBV_exn
    · exact rdOnlyBV_pure _
  exact (rdNoExn_u24 _).onlyBV.bind fun _ => (rdNoExn_u24 _).onlyBV.bind fun _ => rdNoExn_u8.onlyBV.bind fun _ =>
    (hidx _).onlyBV.bind fun _ => (hlines _).onlyBV.bind fun _ => hr3 _

theorem noExn_readAt {α : Type} {r : Rd α} (h : RdNoExn r) (buf : Bytes) (off : Nat) : NoExn (readAt buf off r) := by
  unfold readAt
  split
  · exact (h _).bind fun _ _ => noExn_ok _
  · exact noExn_ub _

theorem noExn_extFields (buf : Bytes) (fs : List HField) (p : Nat) (acc : Header) :
    NoExn (readExtFields buf fs p acc) := by
  induction fs generalizing p acc with
  | nil => exact noExn_ok _
  | cons f fs ih =>
    unfold readExtFields
    split
    · exact (noExn_readAt (rdNoExn_field _ _) _ _).bind fun _ _ => ih _ _
    · exact (noExn_readAt (rdNoExn_field _ _) _ _).bind fun _ _ => ih _ _

theorem onlyBV_extBlock (rev : Int) (m : ExtMap) (buf : Bytes) (h : Header) (i : Nat) :
    OnlyBV (readExtBlock rev m buf h i) := by
  unfold readExtBlock
  split
  · split
    · exact (rdOnlyBV_extStd rev h buf).bind fun _ _ => onlyBV_ok _
    · exact onlyBV_ok _
  · split
    · exact onlyBV_ub _
    · exact (noExn_extFields _ _ _ _).onlyBV

theorem onlyBV_subscript {α : Type} (xs : List α) (v : Value) : OnlyBV (subscript xs v) := by
  unfold subscript
  repeat' (first | exact onlyBV_exn | exact onlyBV_ub _ | exact onlyBV_ok _ | split)

theorem onlyBV_chSetOf (s : ISegd) (h : Header) : OnlyBV (s.chSetOf h) :=
  (onlyBV_subscript _ _).bind fun _ _ => (onlyBV_subscript _ _).bind fun _ _ => onlyBV_ok _

theorem onlyBV_sampNumD (c : ChSet) (h : Header) : OnlyBV (sampNumD c h) := by
  unfold sampNumD
  repeat' (first | exact onlyBV_exn | exact onlyBV_ub _ | exact onlyBV_ok _ | split)

theorem onlyBV_intOf (h : Header) (k : String) : OnlyBV (intOf h k) := by
  unfold intOf
  repeat' (first | exact onlyBV_exn | exact onlyBV_ub _ | exact onlyBV_ok _ | split)

theorem rdNoExn_segd {fmt : Int} {bits : Nat} {r : Rd Dbl} (h : segdReader fmt = .ok (bits, r)) : RdNoExn r := by
  unfold segdReader at h
  split at h <;> cases h
  all_goals first
    | exact fun _ => noExn_ub _
    | (intro bs; unfold read8022; split <;> first | exact noExn_ub _ | exact noExn_ok _)
    | (intro bs; unfold read8042; split <;> first | exact noExn_ub _ | exact noExn_ok _)
    | (simp only [readIeeeFloat, readIeeeDouble, readI24, readI32, readS, read9036, readU32, readU64]; rd_no_exn)

theorem noExn_rdSamples {r : Rd Dbl} (h : RdNoExn r) (d : Dbl) (n : Nat) : RdNoExn (rdSamples r d n) := by
  induction n with
  | zero => exact rdNoExn_pure _
  | succ n ih => exact h.bind fun _ => ih.bind fun _ => rdNoExn_pure _

/-! ## Simulation -/

/-- The outcome `x` in the model without failures and the outcome `c` in the model with failures. `a` and
`st` are the value and the state in `x`. After an error the state satisfies `P`. -/
def SimD {α γ : Type} (P : Err → DS → Prop) (a : γ → α) (st : γ → ISegd) (c : Out α × DS) (x : Out γ) : Prop :=
  match x with
  | .ok v => c = (.ok (a v), ⟨st v, false⟩)
  | .error e => c.1 = .error e ∧ P e c.2

theorem SimD.bind {α β γ δ : Type} {P : Err → DS → Prop} {a : γ → α} {st : γ → ISegd} {a' : δ → β}
    {st' : δ → ISegd} {x : SM α} {f : α → SM β} {d : DS} {y : Out γ} {g : γ → Out δ}
    (hx : SimD P a st (x d) y) (hf : ∀ v, y = .ok v → SimD P a' st' (f (a v) ⟨st v, false⟩) (g v)) :
    SimD P a' st' ((x >>= f) d) (y >>= g) := by
  cases y with
  | ok v =>
    have hx : x d = (.ok (a v), ⟨st v, false⟩) := hx
    rw [sm_bind_ok hx]
    exact hf v rfl
  | error e =>
    obtain ⟨h1, h2⟩ := hx
    rw [sm_bind_err (e := e) (d' := (x d).2) (by rw [← h1])]
    exact ⟨rfl, h2⟩

theorem sim_lift {α : Type} {P : Err → DS → Prop} {s : ISegd} {y : Out α}
    (h : ∀ e, y = .error e → P e ⟨s, false⟩) : SimD P id (fun _ => s) (smLift y ⟨s, false⟩) y := by
  cases y with
  | ok v => rfl
  | error e => exact ⟨rfl, h e rfl⟩

/-- The sample format is one the library reads, as after every successful call. -/
def Readable (s : ISegd) : Prop := ∃ q, segdReader s.gh1.formatCode = .ok q

/-- The samples of a trace can be read, or no trace can be read because there are no channel sets. -/
def Sane (s : ISegd) : Prop := Readable s ∨ s.chSets = []

/-- The failures while headers are read: of the stream, and undefined behaviour. -/
def Strictly (e : Err) (d : DS) : Prop := (e = .exn .iosFailure ∧ d.bad = true) ∨ ∃ u, e = .ub u

/-- The failures while a trace is read. -/
def Plainly (e : Err) (d : DS) : Prop :=
  (e = .exn .iosFailure ∧ d.bad = true) ∨ (∃ u, e = .ub u) ∨
    (e = .exn .badVariantAccess ∧ d.bad = false ∧ Sane d.s)

/-- The failures of `read_trace`. When the format of the next record is not supported no trace is left. -/
def Failed (e : Err) (d : DS) : Prop :=
  Plainly e d ∨ (e = .exn .unsupportedFormat ∧ d.bad = false ∧ d.s.hasTrace = false ∧ d.s.chSets = [])

/-- The failures between two records. -/
def HFailed (e : Err) (d : DS) : Prop :=
  Strictly e d ∨ (e = .exn .unsupportedFormat ∧ d.bad = false ∧ d.s.hasTrace = false ∧ d.s.chSets = [])

theorem strictly_plainly (e : Err) (d : DS) (h : Strictly e d) : Plainly e d :=
  h.elim .inl fun h => .inr (.inl h)

theorem hFailed_failed (e : Err) (d : DS) (h : HFailed e d) : Failed e d :=
  h.elim (fun h => .inl (strictly_plainly e d h)) .inr

theorem NoExn.strictly {α : Type} {y : Out α} (h : NoExn y) (d : DS) : ∀ e, y = .error e → Strictly e d := by
  intro e he
  subst he
  cases e with
  | ub u => exact .inr ⟨u, rfl⟩
  | exn x => exact absurd rfl (h x)

theorem OnlyBV.plainly {α : Type} {y : Out α} (h : OnlyBV y) {s : ISegd} (hs : Sane s) :
    ∀ e, y = .error e → Plainly e ⟨s, false⟩ := by
  intro e he
  subst he
  cases e with
  | ub u => exact .inr (.inl ⟨u, rfl⟩)
  | exn x => rw [h x rfl]; exact .inr (.inr ⟨rfl, rfl, hs⟩)

theorem SimD.imp {α γ : Type} {P Q : Err → DS → Prop} {a : γ → α} {st : γ → ISegd} {c : Out α × DS} {x : Out γ}
    (h : SimD P a st c x) (hi : ∀ e d, P e d → Q e d) : SimD Q a st c x := by
  cases x with
  | ok v => exact h
  | error e => exact ⟨h.1, hi _ _ h.2⟩

theorem sim_bv {α β δ : Type} {a' : δ → β} {st' : δ → ISegd} {f : α → SM β} {s : ISegd} {y : Out α}
    {g : α → Out δ} (hs : Sane s) (h : OnlyBV y)
    (hf : ∀ v, y = .ok v → SimD Plainly a' st' (f v ⟨s, false⟩) (g v)) :
    SimD Plainly a' st' ((smLift y >>= f) ⟨s, false⟩) (y >>= g) :=
  (sim_lift (s := s) (h.plainly hs)).bind hf

theorem sim_ne {α β δ : Type} {a' : δ → β} {st' : δ → ISegd} {f : α → SM β} {s : ISegd} {y : Out α}
    {g : α → Out δ} (h : NoExn y) (hf : ∀ v, y = .ok v → SimD Strictly a' st' (f v ⟨s, false⟩) (g v)) :
    SimD Strictly a' st' ((smLift y >>= f) ⟨s, false⟩) (y >>= g) :=
  (sim_lift (s := s) (h.strictly _)).bind hf

theorem sim_fill (s : ISegd) (n : Nat) :
    SimD Strictly (·.1) (·.2) (smFill n ⟨s, false⟩) (s.fill n) := by
  unfold smFill ISegd.fill
  cases hr : s.file.read n with
  | ok p => rfl
  | error e => exact ⟨rfl, .inl ⟨read_err hr, rfl⟩⟩

theorem sim_skip (s : ISegd) (n : Int) :
    SimD Strictly (fun _ => ()) (fun f => { s with file := f }) (smSkip n ⟨s, false⟩) (s.file.seekCur n) := by
  unfold smSkip
  cases hr : s.file.seekCur n with
  | ok p => rfl
  | error e => exact ⟨rfl, .inl ⟨seekCur_err hr, rfl⟩⟩

theorem sim_pure {α γ : Type} {P : Err → DS → Prop} {a : γ → α} {st : γ → ISegd} {v : γ} :
    SimD P a st ((pure (a v) : SM α) ⟨st v, false⟩) (.ok v) := rfl

theorem fill_len {s s' : ISegd} {n : Nat} {b : Bytes} (h : s.fill n = .ok (b, s')) : b.length = n := (fill_ok h).2.1

theorem sim_blks {rd : Bytes → BlkMap → Out BlkMap} (h : ∀ b m, b.length = 32 → NoExn (rd b m)) (n : Nat)
    (s : ISegd) : SimD Strictly (fun _ => ()) id (smBlks rd n ⟨s, false⟩) (readBlks rd n s) := by
  induction n generalizing s with
  | zero => rfl
  | succ n ih =>
    unfold smBlks readBlks
    refine (sim_fill s 32).bind fun p hp => ?_
    obtain ⟨b, s1⟩ := p
    simp only
    rw [sm_get]
    exact sim_ne (h b _ (fill_len hp)) fun m _ => ih _

theorem sim_general2 {b : Bytes} (hb : b.length = 32) (s : ISegd) :
    SimD Strictly (fun _ => ()) id (smGeneral2 b ⟨s, false⟩) (readGeneral2 b s) := by
  unfold smGeneral2 readGeneral2
  rw [sm_get]
  refine sim_ne ((readGenHdr2_uses _).noExn (by omega)) fun p _ => ?_
  obtain ⟨g2, r⟩ := p
  simp only
  rw [sm_mod]
  exact sim_blks (fun b m h => (noExn_rev2Blk h m)) _ _

theorem sim_general3 {b : Bytes} (hb : b.length = 32) (s : ISegd) :
    SimD Strictly (fun _ => ()) id (smGeneral3 b ⟨s, false⟩) (readGeneral3 b s) := by
  unfold smGeneral3 readGeneral3
  rw [sm_get]
  refine sim_ne ?_ fun p _ => ?_
  · obtain ⟨g2, r2, e2, -⟩ := readGenHdr2R3_uses s.gh2 hb
    rw [e2]
    exact noExn_ok _
  obtain ⟨g2, r⟩ := p
  simp only
  rw [sm_mod]
  refine (sim_fill _ 32).bind fun p hp => ?_
  obtain ⟨b3, s3⟩ := p
  simp only
  refine sim_ne (readGenHdr3_uses.noExn (by rw [fill_len hp])) fun p _ => ?_
  obtain ⟨g3, r⟩ := p
  simp only
  rw [sm_mod, sm_get]
  exact sim_blks (fun b m h => (noExn_rev3Blk b m)) _ _

theorem sim_generalAdd (s : ISegd) :
    SimD Strictly (fun _ => ()) id (smGeneralAdd ⟨s, false⟩) (readGeneralAdd s) := by
  unfold smGeneralAdd readGeneralAdd
  refine (sim_fill _ 32).bind fun p hp => ?_
  obtain ⟨b, s1⟩ := p
  simp only
  rw [sm_get]
  refine sim_ne ?_ fun p _ => ?_
  · rw [readRevision_uses _ (fill_len hp)]
    exact noExn_ok _
  obtain ⟨g2, r⟩ := p
  simp only
  rw [sm_mod, sm_get]
  simp only
  split
  · exact sim_general2 (fill_len hp) _
  · exact sim_general3 (fill_len hp) _

theorem sim_general (s : ISegd) : SimD Strictly (fun _ => ()) id (smGeneral ⟨s, false⟩) (readGeneral s) := by
  unfold smGeneral readGeneral
  refine (sim_fill _ 32).bind fun p hp => ?_
  obtain ⟨b, s1⟩ := p
  simp only
  refine sim_ne ?_ fun p _ => ?_
  · obtain ⟨g1, r1, e1, -⟩ := readGenHdr1_uses (fill_len hp)
    rw [e1]
    exact noExn_ok _
  obtain ⟨g1, r⟩ := p
  simp only
  rw [sm_mod, sm_get]
  simp only
  split
  · exact sim_generalAdd _
  · rfl

/-- Another list of channel sets. -/
def ISegd.withSets (s : ISegd) (C : List (List ChSet)) : ISegd := { s with chSets := C }

theorem SimD.map {α γ δ : Type} {P : Err → DS → Prop} {a : γ → α} {st : γ → ISegd} {a' : δ → α}
    {st' : δ → ISegd} {c : Out α × DS} {y : Out γ} {k : γ → δ} (h : SimD P a st c y)
    (hk : ∀ v, a' (k v) = a v ∧ st' (k v) = st v) : SimD P a' st' c (y >>= fun v => .ok (k v)) := by
  cases y with
  | ok v =>
    have h : c = (.ok (a v), ⟨st v, false⟩) := h
    show c = (.ok (a' (k v)), ⟨st' (k v), false⟩)
    rw [h, (hk v).1, (hk v).2]
  | error e => exact h

theorem sim_fill_sets (s : ISegd) (C : List (List ChSet)) (n : Nat) :
    SimD Strictly (·.1) (fun p => p.2.withSets C) (smFill n ⟨s.withSets C, false⟩) (s.fill n) := by
  unfold smFill ISegd.fill
  have e : (s.withSets C).file = s.file := rfl
  simp only [e]
  cases hr : s.file.read n with
  | ok p => rfl
  | error e => exact ⟨rfl, .inl ⟨read_err hr, rfl⟩⟩

theorem sim_chSetHdr (s : ISegd) (C : List (List ChSet)) :
    SimD Strictly (·.1) (fun p => p.2.withSets C) (smChSetHdr ⟨s.withSets C, false⟩) (readChSetHdr s) := by
  unfold smChSetHdr readChSetHdr
  rw [sm_get]
  have e : (s.withSets C).rev3 = s.rev3 := rfl
  simp only [e]
  refine (sim_fill_sets s C _).bind fun p hp => ?_
  obtain ⟨b, s1⟩ := p
  have hl := fill_len hp
  obtain ⟨-, -, rfl⟩ := fill_ok hp
  have e : (s.at (s.file.pos + if s.rev3 = true then 96 else 32)).rev3 = s.rev3 := rfl
  simp only [e]
  refine sim_ne ?_ fun p _ => ?_
  · split at hl
    · rw [if_pos ‹_›]; exact (readChSetR3_uses.noExn (by omega))
    · rw [if_neg ‹_›]; exact (readChSet_uses.noExn (by omega))
  obtain ⟨h, r⟩ := p
  rfl

theorem addToLast_append (C : List (List ChSet)) (l : List ChSet) (h : ChSet) :
    addToLast (C ++ [l]) h = C ++ [l ++ [h]] := by
  unfold addToLast
  simp

theorem sim_chSets (n : Nat) (s : ISegd) (C : List (List ChSet)) (l : List ChSet) :
    SimD Strictly (fun _ => ()) (fun p => p.2.withSets (C ++ [l ++ p.1]))
      (smChSets n ⟨s.withSets (C ++ [l]), false⟩) (readChSets n s) := by
  induction n generalizing s l with
  | zero =>
    unfold smChSets readChSets
    have : (l : List ChSet) = l ++ [] := (List.append_nil l).symm
    exact congrArg (fun x => ((Except.ok () : Out Unit), (⟨s.withSets (C ++ [x]), false⟩ : DS))) this
  | succ n ih =>
    unfold smChSets readChSets
    refine (sim_chSetHdr s (C ++ [l])).bind fun p hp => ?_
    obtain ⟨h, s1⟩ := p
    simp only
    rw [sm_mod]
    have e : ({ s1.withSets (C ++ [l]) with
        chansIn := (s1.withSets (C ++ [l])).chansIn + h.numberOfChannels
        chSets := addToLast (s1.withSets (C ++ [l])).chSets h } : ISegd) =
        ISegd.withSets { s1 with chansIn := s1.chansIn + h.numberOfChannels } (C ++ [l ++ [h]]) := by
      rw [← addToLast_append]
      rfl
    simp only [e]
    refine (ih _ (l ++ [h])).map fun v => ⟨rfl, ?_⟩
    simp

theorem sim_scanTypes (n : Nat) (s : ISegd) :
    SimD Strictly (fun _ => ()) id (smScanTypes n ⟨s, false⟩) (readScanTypes n s) := by
  induction n generalizing s with
  | zero => rfl
  | succ n ih =>
    unfold smScanTypes readScanTypes
    rw [sm_mod, sm_get]
    refine (sim_chSets s.setsPerScan s s.chSets []).bind fun p hp => ?_
    obtain ⟨sets, s1⟩ := p
    obtain ⟨-, q, rfl, -⟩ := readChSets_ok hp
    rw [sm_get]
    refine SimD.bind (a := fun _ => ()) (st := id) ?_ fun s2 _ => ih s2
    unfold ISegd.skipSkew
    exact SimD.map (sim_skip _ _) fun v => ⟨rfl, rfl⟩

theorem sim_blocks32 (n : Nat) (s : ISegd) :
    SimD Strictly (·.1) (·.2) (smBlocks32 n ⟨s, false⟩) (readBlocks32 n s) := by
  induction n generalizing s with
  | zero => rfl
  | succ n ih =>
    unfold smBlocks32 readBlocks32
    refine (sim_fill s 32).bind fun p hp => ?_
    obtain ⟨b, s1⟩ := p
    simp only
    refine (ih s1).bind fun p hp => ?_
    rfl

theorem sim_headers (s : ISegd) (hc : s.chSets = []) (h1 : s.chansIn = 0) (h2 : s.chansRead = 0) :
    SimD HFailed (fun _ => ()) id (smHeaders ⟨s, false⟩) (readHeaders s) := by
  unfold smHeaders readHeaders
  refine ((sim_general s).imp fun _ _ h => .inl h).bind fun s1 hs1 => ?_
  obtain ⟨p1, g1, g2, g3, m, rfl, -⟩ := readGeneral_ok hs1
  rw [sm_get]
  refine SimD.bind (sim_lift ?_) fun q _ => ?_
  · intro e he
    right
    have : e = .exn .unsupportedFormat := by
      unfold segdReader at he
      split at he <;> cases he
      rfl
    exact ⟨this, rfl, by simp [ISegd.hasTrace, ISegd.at, h1, h2], hc⟩
  refine SimD.imp ?_ fun _ _ h => .inl h
  refine (sim_scanTypes _ _).bind fun s3 _ => ?_
  rw [sm_get]
  refine (sim_blocks32 _ _).bind fun p _ => ?_
  obtain ⟨ex, s4⟩ := p
  simp only
  rw [sm_mod, sm_get]
  refine (sim_blocks32 _ _).bind fun p _ => ?_
  rfl

/-! ## Traces -/

/-- The reader returns no more bytes than it was given. -/
def Shrinks {α : Type} (r : Rd α) : Prop := ∀ bs a rest, r bs = .ok (a, rest) → rest.length ≤ bs.length

theorem onRest_eq {α : Type} (s : ISegd) (r : Rd α) :
    s.onRest r = match r (s.file.data.drop s.file.pos) with
      | .ok (a, rest) => .ok (a, s.at (s.file.pos + ((s.file.data.drop s.file.pos).length - rest.length)))
      | .error e => .error e := by
  unfold ISegd.onRest
  dsimp only
  cases r (s.file.data.drop s.file.pos) with
  | ok p => rfl
  | error e => rfl

theorem onRest_pure {α : Type} (s : ISegd) (a : α) : s.onRest (pure a) = .ok (a, s) := by
  rw [onRest_eq]
  show Except.ok (a, s.at (s.file.pos + ((s.file.data.drop s.file.pos).length - (s.file.data.drop s.file.pos).length))) = _
  rw [Nat.sub_self]
  rfl

theorem onRest_step {α : Type} (s : ISegd) (n : Nat) (k : Bytes → Rd α) (hk : ∀ b, Shrinks (k b)) :
    s.onRest (fun bs => rdFile n bs >>= fun p => k p.1 p.2) = s.fill n >>= fun p => p.2.onRest (k p.1) := by
  rw [onRest_eq]
  unfold rdFile ISegd.fill
  by_cases hn : n ≤ (s.file.data.drop s.file.pos).length
  · rw [if_pos hn, ok_bind]
    have hr : s.file.read n = .ok ((s.file.data.drop s.file.pos).take n, ⟨s.file.data, s.file.pos + n⟩) := by
      unfold File.read
      dsimp only
      rw [if_pos (by rw [List.length_take]; omega)]
    rw [hr, ok_bind]
    simp only [pure_eq_ok, ok_bind]
    rw [onRest_eq]
    simp only
    have hd : s.file.data.drop (s.file.pos + n) = (s.file.data.drop s.file.pos).drop n := by
      rw [List.drop_drop]
    rw [hd]
    cases hx : k ((s.file.data.drop s.file.pos).take n) ((s.file.data.drop s.file.pos).drop n) with
    | error e => rfl
    | ok q =>
      obtain ⟨a, rest⟩ := q
      have hl := hk _ _ _ _ hx
      simp only
      have e : s.file.pos + ((s.file.data.drop s.file.pos).length - rest.length) =
          s.file.pos + n + (((s.file.data.drop s.file.pos).drop n).length - rest.length) := by
        rw [List.length_drop (i := n)] at hl ⊢
        omega
      rw [e]
      rfl
  · rw [if_neg hn]
    have hr : s.file.read n = throwExn .iosFailure := by
      unfold File.read
      dsimp only
      rw [if_neg (by rw [List.length_take]; omega)]
    rw [hr]
    rfl

theorem shrinks_ext (rev : Int) (m : ExtMap) (n i : Nat) (h : Header) : Shrinks (readExtLoop rev m n i h) := by
  induction n generalizing i h with
  | zero =>
    intro bs a rest e
    cases e
    exact Nat.le_refl _
  | succ n ih =>
    intro bs a rest e
    unfold readExtLoop at e
    obtain ⟨⟨buf, s⟩, h1, e⟩ := bind_ok e
    obtain ⟨h', h2, e⟩ := bind_ok e
    have := ih _ _ _ _ _ e
    unfold rdFile at h1
    split at h1
    · cases h1
      rw [List.length_drop] at this
      omega
    · cases h1

theorem onRest_extLoop (rev : Int) (m : ExtMap) (n i : Nat) (h : Header) (s : ISegd) :
    s.onRest (readExtLoop rev m (n + 1) i h) = s.fill 32 >>= fun p =>
      readExtBlock rev m p.1 h i >>= fun h => p.2.onRest (readExtLoop rev m n (i + 1) h) := by
  have := onRest_step s 32 (fun b bs => readExtBlock rev m b h i >>= fun h => readExtLoop rev m n (i + 1) h bs)
    (by
      intro b bs a rest e
      obtain ⟨h', h2, e⟩ := bind_ok e
      exact shrinks_ext _ _ _ _ _ _ _ _ e)
  refine (Eq.trans ?_ this).trans ?_
  · rfl
  · congr 1
    funext p
    cases hx : readExtBlock rev m p.1 h i with
    | error er =>
      rw [onRest_eq]
      rfl
    | ok h' => rfl

theorem onRest_readExt (rev : Int) (m : ExtMap) (h : Header) (s : ISegd) :
    s.onRest (readExt rev m h) = intOf h "TR_HDR_EXT" >>= fun n => s.onRest (readExtLoop rev m n.toNat 0 h) := by
  rw [onRest_eq]
  unfold readExt
  cases hx : intOf h "TR_HDR_EXT" with
  | error e => rfl
  | ok n => rw [ok_bind, ok_bind, onRest_eq]

theorem sim_extLoop (rev : Int) (m : ExtMap) (n i : Nat) (h : Header) (s : ISegd) (hs : Sane s) :
    SimD Plainly (·.1) (·.2) (smExtLoop rev m n i h ⟨s, false⟩) (s.onRest (readExtLoop rev m n i h)) := by
  induction n generalizing i h s with
  | zero =>
    have : s.onRest (readExtLoop rev m 0 i h) = .ok (h, s) := onRest_pure s h
    rw [this]
    rfl
  | succ n ih =>
    rw [onRest_extLoop]
    unfold smExtLoop
    refine ((sim_fill s 32).imp strictly_plainly).bind fun p hp => ?_
    have hs1 : Sane p.2 := by
      rw [(fill_ok hp).2.2]
      exact hs
    exact sim_bv hs1 (onlyBV_extBlock _ _ _ _ _) fun h' _ => ih _ _ _ hs1

theorem readSamplesD_eq {fmt : Int} {bits : Nat} {r : Rd Dbl} (h : segdReader fmt = .ok (bits, r)) (d : Dbl)
    (n : Nat) (s : ISegd) :
    s.onRest (readSamplesD fmt d n) = s.fill (n * bits % 2 ^ 32 / 8) >>= fun p =>
      rdSamples r d n p.1 >>= fun q => .ok (q.1, p.2) := by
  have := onRest_step s (n * bits % 2 ^ 32 / 8) (fun b bs => rdSamples r d n b >>= fun q => .ok (q.1, bs))
    (by
      intro b bs a rest e
      obtain ⟨q, -, e⟩ := bind_ok e
      cases e
      exact Nat.le_refl _)
  refine (Eq.trans ?_ this).trans ?_
  · congr 1
    funext bs
    unfold readSamplesD rdFile
    rw [h, ok_bind]
    dsimp only
    split <;> rfl
  · congr 1
    funext p
    rw [onRest_eq]
    cases hx : rdSamples r d n p.1 with
    | error er => rfl
    | ok q =>
      rw [ok_bind, ok_bind]
      simp only [Nat.sub_self]
      rfl

theorem sm_lift_ok {α β : Type} (a : α) (f : α → SM β) (d : DS) : (smLift (.ok a) >>= f) d = f a d := rfl

theorem SimD.then_pure {α β γ : Type} {P : Err → DS → Prop} {a : γ → α} {st : γ → ISegd} {x : SM α} {d : DS}
    {y : Out γ} (h : SimD P a st (x d) y) (k : α → β) :
    SimD P (fun v => k (a v)) st ((x >>= fun v => pure (k v)) d) y := by
  cases y with
  | ok v =>
    have h : x d = (.ok (a v), ⟨st v, false⟩) := h
    rw [sm_bind_ok h]
    rfl
  | error e =>
    rw [sm_bind_err (d' := (x d).2) (by rw [← h.1])]
    exact ⟨rfl, h.2⟩

theorem sim_samples {pw : Dbl → Dbl} {s : ISegd} (hs : Sane s)
    (h : Header) :
    SimD Plainly (fun v => (v.1.header, v.1.samples)) (·.2) (smSamples pw h ⟨s, false⟩)
      (do
        let (c, h) ← s.chSetOf h
        let n ← sampNumD c h
        let (xs, s) ← s.onRest (readSamplesD s.gh1.formatCode (pw c.descaleMultiplier) n)
        pure ((⟨h, xs⟩ : Trace), s)) := by
  unfold smSamples
  rw [sm_get]
  refine sim_bv hs (onlyBV_chSetOf _ _) fun p hp => ?_
  obtain ⟨⟨bits, r⟩, hq⟩ : Readable s := by
    rcases hs with hs | hs
    · exact hs
    · exfalso
      obtain ⟨sets, h1, -⟩ := bind_ok hp
      have h1 : subscript s.chSets (Header.at h "SCAN_TYPE_NUM").1 = .ok sets := h1
      rw [hs] at h1
      unfold subscript at h1
      split at h1
      · cases h1
      · split at h1
        · cases h1
        · rw [List.getElem?_nil] at h1
          cases h1
  obtain ⟨c, h'⟩ := p
  simp only
  refine sim_bv hs (onlyBV_sampNumD _ _) fun n _ => ?_
  rw [readSamplesD_eq hq, hq, sm_lift_ok]
  simp only
  have e : ∀ (y : Out (Bytes × ISegd)) (g : Bytes × ISegd → Out (List Dbl × ISegd)) (k : List Dbl × ISegd → Out (Trace × ISegd)),
      (y >>= g) >>= k = y >>= fun p => g p >>= k := by
    intro y g k
    cases y <;> rfl
  rw [e]
  refine ((sim_fill s _).imp strictly_plainly).bind fun p hp => ?_
  obtain ⟨b, s1⟩ := p
  obtain ⟨-, -, rfl⟩ := fill_ok hp
  simp only
  have e : ∀ (y : Out (List Dbl × Bytes)) (g : List Dbl × Bytes → Out (List Dbl × ISegd))
      (k : List Dbl × ISegd → Out (Trace × ISegd)), (y >>= g) >>= k = y >>= fun p => g p >>= k := by
    intro y g k
    cases y <;> rfl
  rw [e]
  refine sim_bv hs (noExn_rdSamples (rdNoExn_segd hq) _ _ _).onlyBV fun p _ => ?_
  rfl

theorem sim_body {pw : Dbl → Dbl} {s : ISegd} (hs : Sane s) :
    SimD Plainly (·.1) (·.2) (smTraceBody pw ⟨s, false⟩) (readTraceBody pw s) := by
  unfold smTraceBody readTraceBody
  refine ((sim_fill s 20).imp strictly_plainly).bind fun p hp => ?_
  obtain ⟨b, s1⟩ := p
  have hl := fill_len hp
  obtain ⟨-, -, rfl⟩ := fill_ok hp
  simp only
  refine sim_bv hs ?_ fun p _ => ?_
  · obtain ⟨hd, r, e, -⟩ := readTraceHdrD_uses hl
    rw [e]
    exact onlyBV_ok _
  obtain ⟨h, r⟩ := p
  simp only
  rw [onRest_readExt]
  have e : ∀ (y : Out Int) (g : Int → Out (Header × ISegd)) (k : Header × ISegd → Out (Trace × ISegd)),
      (y >>= g) >>= k = y >>= fun p => g p >>= k := by
    intro y g k
    cases y <;> rfl
  rw [e]
  refine sim_bv hs (onlyBV_intOf _ _) fun n _ => ?_
  rw [sm_get]
  refine (sim_extLoop _ _ _ _ _ (s.at (s.file.pos + 20)) hs).bind fun p hp => ?_
  obtain ⟨h', s2⟩ := p
  obtain ⟨p2, rfl, -⟩ := onRest_ok hp
  simp only
  exact (sim_samples (pw := pw) (s := (s.at (s.file.pos + 20)).at p2) hs h').then_pure
    (fun v => (⟨v.1, v.2⟩ : Trace))

theorem sim_advance (s : ISegd) : SimD HFailed (fun _ => ()) id (smAdvance ⟨s, false⟩) s.advance := by
  unfold smAdvance ISegd.advance
  rw [sm_mod, sm_get]
  dsimp only
  by_cases hc : s.chansIn = s.chansRead + 1
  · rw [if_pos hc, if_pos hc, sm_mod, sm_get]
    dsimp only
    split
    · exact sim_headers _ rfl rfl rfl
    · rfl
  · rw [if_neg hc, if_neg hc]
    rfl

theorem sim_readTrace {pw : Dbl → Dbl} {s : ISegd} (hs : Sane s) :
    SimD Failed (·.1) (·.2) (smReadTrace pw ⟨s, false⟩) (readTraceD pw s) := by
  unfold smReadTrace readTraceD
  refine ((sim_body hs).imp fun _ _ h => .inl h).bind fun p hp => ?_
  obtain ⟨t, s1⟩ := p
  exact ((sim_advance s1).imp hFailed_failed).bind fun s2 _ => rfl

/-- Once the stream refuses, every call of `read_trace` throws and changes nothing. -/
theorem dead_readTrace (pw : Dbl → Dbl) (s : ISegd) :
    smReadTrace pw ⟨s, true⟩ = (.error (.exn .iosFailure), ⟨s, true⟩) := rfl

theorem readable_headers {s s' : ISegd} (h : readHeaders s = .ok s') : Readable s' := by
  obtain ⟨s1, h1, h⟩ := bind_ok h
  obtain ⟨q, h2, h⟩ := bind_ok h
  obtain ⟨s3, h3, h⟩ := bind_ok h
  obtain ⟨⟨ex, s4⟩, h4, h⟩ := bind_ok h
  obtain ⟨⟨el, s5⟩, h5, h⟩ := bind_ok h
  obtain ⟨p3, new, rfl, hn, hp3⟩ := readScanTypes_ok h3
  obtain ⟨p4, rfl, hp4⟩ := readBlocks32_ok h4
  obtain ⟨p5, rfl, hp5⟩ := readBlocks32_ok h5
  cases h
  exact ⟨q, h2⟩

theorem readable_readTrace {pw : Dbl → Dbl} {s s' : ISegd} {t : Trace} (hs : Readable s)
    (h : readTraceD pw s = .ok (t, s')) : Readable s' := by
  obtain ⟨p, -, -, ⟨-, rfl⟩ | ⟨-, -, rfl⟩ | ⟨-, -, h⟩⟩ := readTraceD_cases h
  · exact hs
  · exact hs
  · exact readable_headers h

/-! ## Reading that does not throw `bad_variant_access` -/

/-- The result, if there is one, satisfies `Q`, and there is no exception. -/
def Well {α : Type} (Q : α → Prop) (y : Out α) : Prop :=
  match y with
  | .ok a => Q a
  | .error (.exn _) => False
  | .error (.ub _) => True

theorem Well.bind {α β : Type} {Q : α → Prop} {R : β → Prop} {y : Out α} {f : α → Out β} (hy : Well Q y)
    (hf : ∀ a, Q a → Well R (f a)) : Well R (y >>= f) := by
  match y, hy with
  | .ok a, h => exact hf a h
  | .error (.ub u), _ => trivial

theorem well_noExn {α : Type} {y : Out α} (h : NoExn y) : Well (fun _ => True) y := by
  match y, h with
  | .ok a, h => trivial
  | .error (.ub u), _ => trivial
  | .error (.exn e), h => exact h e rfl

theorem Well.noExn {α : Type} {Q : α → Prop} {y : Out α} (h : Well Q y) : NoExn y := by
  intro e he
  subst he
  exact h

theorem Well.of_ok {α : Type} {Q : α → Prop} {y : Out α} {a : α} (h : Well Q y) (e : y = .ok a) : Q a := by
  subst e
  exact h

def RdWell {α : Type} (Q : α → Prop) (r : Rd α) : Prop := ∀ bs, Well (fun p => Q p.1) (r bs)

theorem RdWell.bind {α β : Type} {Q : α → Prop} {R : β → Prop} {y : Rd α} {f : α → Rd β} (hy : RdWell Q y)
    (hf : ∀ a, Q a → RdWell R (f a)) : RdWell R (y >>= f) := by
  intro bs
  rw [rd_bind]
  exact (hy bs).bind fun p hp => hf p.1 hp p.2

theorem rdWell_pure {α : Type} {Q : α → Prop} {a : α} (h : Q a) : RdWell Q (pure a) := fun _ => h

theorem rdWell_of {α : Type} {y : Rd α} (h : RdNoExn y) : RdWell (fun _ => True) y := by
  intro bs
  exact well_noExn (h bs)

/-- None of the keys has a floating value. -/
def Ints (ks : List String) (h : Header) : Prop := ∀ k ∈ ks, ∀ d, h.get k ≠ some (.dbl d)

theorem Ints.set_int {ks : List String} {h : Header} (hh : Ints ks h) (k : String) (v : Int) :
    Ints ks (h.set k (.int v)) := by
  intro k' hk d
  rw [get_set]
  split
  · intro e
    cases e
  · exact hh k' hk d

theorem Ints.set_other {ks : List String} {h : Header} (hh : Ints ks h) {k : String} (hk : k ∉ ks) (v : Value) :
    Ints ks (h.set k v) := by
  intro k' hk' d
  rw [get_set]
  split
  · subst_vars
    exact absurd hk' hk
  · exact hh k' hk' d

theorem Ints.at {ks : List String} {h : Header} (hh : Ints ks h) {k : String} (hk : k ∈ ks) :
    (∃ v, (h.at k).1 = .int v) ∧ Ints ks (h.at k).2 := by
  unfold Header.at
  cases hg : h.get k with
  | none => exact ⟨⟨0, rfl⟩, hh.set_int _ _⟩
  | some v =>
    cases v with
    | int v => exact ⟨⟨v, rfl⟩, hh⟩
    | dbl d => exact absurd hg (hh k hk d)

/-- The keys `read_trace` takes numbers from. -/
def countKeys : List String := ["SCAN_TYPE_NUM", "CH_SET_NUM", "SAMP_NUM"]

/-- With `TRACE_NUMBER`, which the standard extension asks for. -/
def stdKeys : List String := "TRACE_NUMBER" :: countKeys

theorem ints_traceHdr {b r : Bytes} {h : Header} (e : readTraceHdrD b = .ok (h, r)) :
    Ints stdKeys h ∧ ∃ v, h.get "TR_HDR_EXT" = some (.int v) := by
  have hb : ∀ n, RdWell (fun v => ∃ i, v = Value.int i) (rdBcdV n) := by
    intro n
    exact (rdWell_of (rdNoExn_bcd _ _)).bind fun v _ => rdWell_pure ⟨_, rfl⟩
  have : RdWell (fun h => Ints stdKeys h ∧ ∃ v, h.get "TR_HDR_EXT" = some (.int v)) readTraceHdrD := by
    unfold readTraceHdrD rdFix24 rdFix8
    refine (hb 4).bind fun v1 h1 => ?_
    refine (hb 2).bind fun v2 h2 => ?_
    refine (hb 2).bind fun v3 h3 => ?_
    refine (hb 4).bind fun v4 h4 => ?_
    refine (rdWell_of ((rdNoExn_u24 _).bind fun _ => rdNoExn_pure _)).bind fun v5 _ => ?_
    refine (rdWell_of rdNoExn_u8).bind fun v6 _ => ?_
    refine (rdWell_of (rdNoExn_u8.bind fun _ => rdNoExn_pure _)).bind fun v7 _ => ?_
    refine (rdWell_of rdNoExn_u8).bind fun v8 _ => ?_
    refine (rdWell_of ((rdNoExn_u24 _).bind fun _ => rdNoExn_pure _)).bind fun v9 _ => ?_
    refine (rdWell_of (rdNoExn_u16 _)).bind fun v10 _ => ?_
    refine (rdWell_of (rdNoExn_u24 _)).bind fun v11 _ => ?_
    obtain ⟨i1, rfl⟩ := h1
    obtain ⟨i2, rfl⟩ := h2
    obtain ⟨i3, rfl⟩ := h3
    obtain ⟨i4, rfl⟩ := h4
    have hs : ∀ {h : Header} k n, (Ints stdKeys h ∧ ∃ v, h.get "TR_HDR_EXT" = some (.int v)) →
        k ≠ "TR_HDR_EXT" → (Ints stdKeys (setNonzero h k n) ∧ ∃ v, (setNonzero h k n).get "TR_HDR_EXT" = some (.int v)) := by
      intro h k n hh hk
      unfold setNonzero
      split
      · refine ⟨hh.1.set_int _ _, ?_⟩
        rw [get_set, if_neg hk]
        exact hh.2
      · exact hh
    refine rdWell_pure (hs _ _ (hs _ _ ?_ (by decide)) (by decide))
    constructor
    · intro k hk d
      have hk : k = "TRACE_NUMBER" ∨ k = "SCAN_TYPE_NUM" ∨ k = "CH_SET_NUM" ∨ k = "SAMP_NUM" := by
        simpa [stdKeys, countKeys] using hk
      rcases hk with rfl | rfl | rfl | rfl <;> simp [setAll, Header.set, Header.get]
    · exact ⟨v6, by simp [setAll, Header.set, Header.get]⟩
  have h2 := this b
  rw [e] at h2
  exact h2

theorem Ints.setAll {ks : List String} {h : Header} (hh : Ints ks h) (l : List (String × Value))
    (hl : ∀ p ∈ l, p.1 ∈ ks → ∃ v, p.2 = .int v) : Ints ks (setAll h l) := by
  induction l generalizing h with
  | nil => exact hh
  | cons p l ih =>
    refine ih ?_ fun q hq => hl q (List.mem_cons_of_mem _ hq)
    by_cases hp : p.1 ∈ ks
    · obtain ⟨v, hv⟩ := hl p (List.mem_cons_self) hp
      rw [hv]
      exact hh.set_int _ _
    · exact hh.set_other hp _

theorem well_extStd (rev : Int) {h : Header} (hh : Ints stdKeys h) : RdWell (Ints stdKeys) (rdExtStd rev h) := by
  unfold rdExtStd
  refine (rdWell_of (rdNoExn_u24 _)).bind fun v1 _ => ?_
  refine (rdWell_of (rdNoExn_u24 _)).bind fun v2 _ => ?_
  refine (rdWell_of rdNoExn_u8).bind fun v3 _ => ?_
  refine RdWell.bind (Q := Ints stdKeys) ?_ fun h hh => RdWell.bind (Q := Ints stdKeys) ?_ fun h hh => ?_
  · have hh := hh.setAll [("R_LINE", .int (v1 : Int)), ("R_POINT", .int (v2 : Int)), ("R_POINT_IDX", .int (v3 : Int))]
      (by simp)
    unfold rdExtIdx
    split
    · exact (rdWell_of (rdNoExn_u24 _)).bind fun v _ => rdWell_pure (hh.set_int _ _)
    · exact (rdWell_of rdNoExn_u8).bind fun a _ => (rdWell_of rdNoExn_u8).bind fun b _ =>
        (rdWell_of rdNoExn_u8).bind fun c _ => rdWell_pure (hh.setAll _ (by simp))
  · unfold rdExtLines rdLinePart
    have hn : ∀ {h : Header} k d, Ints stdKeys h → k ∉ stdKeys → Ints stdKeys (setDblNonzero h k d) := by
      intro h k d hh hk
      unfold setDblNonzero
      split
      · exact hh.set_other hk _
      · exact hh
    have hl : RdWell (fun _ => True) rdLinePart :=
      rdWell_of ((rdNoExn_u24 _).bind fun _ => (rdNoExn_u16 _).bind fun _ => rdNoExn_pure _)
    split
    · exact hl.bind fun a _ => hl.bind fun b _ => (rdWell_of rdNoExn_u8).bind fun c _ =>
        rdWell_pure ((hn _ _ (hn _ _ hh (by decide)) (by decide)).set_int _ _)
    · exact rdWell_pure hh
  · unfold rdExtRev3
    split
    · refine (rdWell_of (rdNoExn_u24 _)).bind fun v1 _ => RdWell.bind (Q := Ints stdKeys) ?_ fun h hh => ?_
      · intro bs
        obtain ⟨⟨v, hv⟩, h2⟩ := hh.at (k := "TRACE_NUMBER") (by decide)
        unfold rdTraceNumber
        cases hx : Header.at h "TRACE_NUMBER" with
        | mk a h' =>
          rw [hx] at hv h2
          simp only at hv
          subst hv
          simp only
          show Ints _ _
          split
          · exact h2.set_int _ _
          · exact h2
      · exact (rdWell_of (rdNoExn_u32 _)).bind fun _ _ => (rdWell_of rdNoExn_u8).bind fun _ _ =>
          (rdWell_of (rdNoExn_skip _)).bind fun _ _ => (rdWell_of rdNoExn_u8).bind fun _ _ =>
          rdWell_pure (hh.setAll _ (by simp))
    · exact rdWell_pure hh

theorem well_field (bo : ByteOrder) {ty : VType} (h : ty ≠ .ibm ∧ ty ≠ .ieeeSingle ∧ ty ≠ .ieeeDouble) :
    RdWell (fun v => ∃ i, v = Value.int i) (readField bo ty) := by
  cases ty with
  | ibm => exact absurd rfl h.1
  | ieeeSingle => exact absurd rfl h.2.1
  | ieeeDouble => exact absurd rfl h.2.2
  | _ =>
    simp only [readField]
    refine RdWell.bind (Q := fun _ => True) (rdWell_of ?_) fun v _ => rdWell_pure ⟨_, rfl⟩
    cases bo <;> simp only [readI8, readU8, readI16, readU16, readI24, readU24, readI32, readU32, readI64, readU64,
      readU, readS] <;>
    repeat' (first
      | exact rdNoExn_bytes _
      | exact rdNoExn_pure _
      | refine RdNoExn.bind ?_ fun _ => ?_)

theorem well_readAt {α : Type} {Q : α → Prop} {r : Rd α} (h : RdWell Q r) (buf : Bytes) (off : Nat) :
    Well Q (readAt buf off r) := by
  unfold readAt
  split
  · exact (h _).bind fun p hp => hp
  · trivial

theorem well_extFields {buf : Bytes} {fs : List HField} (p : Nat) {h : Header} (hh : Ints countKeys h)
    (hf : ∀ f ∈ fs, f.name ∈ countKeys → f.ty ≠ .ibm ∧ f.ty ≠ .ieeeSingle ∧ f.ty ≠ .ieeeDouble) :
    Well (Ints countKeys) (readExtFields buf fs p h) := by
  induction fs generalizing p h with
  | nil => exact hh
  | cons f fs ih =>
    have hf' := fun g hg => hf g (List.mem_cons_of_mem _ hg)
    unfold readExtFields
    split
    · refine (well_readAt (well_field .be ⟨by decide, by decide, by decide⟩) _ _).bind fun v hv => ?_
      obtain ⟨i, rfl⟩ := hv
      exact ih _ (hh.set_int _ _) hf'
    · by_cases hk : f.name ∈ countKeys
      · refine (well_readAt (well_field .be (hf f List.mem_cons_self hk)) _ _).bind fun v hv => ?_
        obtain ⟨i, rfl⟩ := hv
        exact ih _ (hh.set_int _ _) hf'
      · refine (well_readAt (rdWell_of (rdNoExn_field .be f.ty)) _ _).bind fun v _ => ?_
        exact ih _ (hh.set_other hk _) hf'

theorem Ints.count {h : Header} (hh : Ints stdKeys h) : Ints countKeys h :=
  fun k hk => hh k (List.mem_cons_of_mem _ hk)

/-- With a map only the keys of `read_trace` itself matter, without one `TRACE_NUMBER` too. -/
def keysFor (m : ExtMap) : List String := if m.isEmpty then stdKeys else countKeys

theorem well_extBlock {m : ExtMap} (hm : CountsAreInts m) (rev : Int) (buf : Bytes) {h : Header} (i : Nat)
    (hh : Ints (keysFor m) h) : Well (Ints (keysFor m)) (readExtBlock rev m buf h i) := by
  unfold readExtBlock keysFor at *
  by_cases he : m.isEmpty
  · rw [if_pos he] at hh ⊢
    rw [if_pos he]
    split
    · exact (well_extStd rev hh buf).bind fun p hp => hp
    · exact hh
  · rw [if_neg he] at hh ⊢
    rw [if_neg he]
    split
    · trivial
    · rename_i fs hfs
      exact well_extFields 0 hh (hm fs (List.mem_of_getElem? hfs))

/-- The result, if there is one, satisfies `Q`, and the only exception is that of the stream. -/
def OnlyIos {α : Type} (Q : α → Prop) (y : Out α) : Prop :=
  match y with
  | .ok a => Q a
  | .error (.exn e) => e = .iosFailure
  | .error (.ub _) => True

theorem OnlyIos.bind {α β : Type} {Q : α → Prop} {R : β → Prop} {y : Out α} {f : α → Out β} (hy : OnlyIos Q y)
    (hf : ∀ a, Q a → OnlyIos R (f a)) : OnlyIos R (y >>= f) := by
  match y, hy with
  | .ok a, h => exact hf a h
  | .error (.ub u), _ => trivial
  | .error (.exn e), h => exact h

theorem Well.onlyIos {α : Type} {Q : α → Prop} {y : Out α} (h : Well Q y) : OnlyIos Q y := by
  match y, h with
  | .ok a, h => exact h
  | .error (.ub u), _ => trivial

theorem onlyIos_fill (s : ISegd) (n : Nat) :
    OnlyIos (fun p => p.1.length = n ∧ p.2 = s.at (s.file.pos + n)) (s.fill n) := by
  cases hr : s.fill n with
  | ok p =>
    obtain ⟨b, s1⟩ := p
    exact (fill_ok hr).2
  | error e =>
    unfold ISegd.fill at hr
    cases hx : s.file.read n with
    | ok p => rw [hx] at hr; cases hr
    | error e' =>
      rw [hx] at hr
      cases hr
      rw [read_err hx]
      rfl

theorem onlyIos_extLoop {m : ExtMap} (hm : CountsAreInts m) (rev : Int) (n i : Nat) {h : Header}
    (hh : Ints (keysFor m) h) (bs : Bytes) : OnlyIos (fun p => Ints (keysFor m) p.1) (readExtLoop rev m n i h bs) := by
  induction n generalizing i h bs with
  | zero => exact hh
  | succ n ih =>
    unfold readExtLoop
    refine OnlyIos.bind (Q := fun _ => True) ?_ fun p _ => ?_
    · unfold rdFile
      split
      · trivial
      · rfl
    obtain ⟨buf, bs'⟩ := p
    exact (well_extBlock hm rev buf i hh).onlyIos.bind fun h' hh' => ih _ hh' _

theorem onlyIos_onRest {α : Type} {Q : α → Prop} {r : Rd α} (s : ISegd) (h : ∀ bs, OnlyIos (fun p => Q p.1) (r bs)) :
    OnlyIos (fun p => Q p.1 ∧ ∃ q, p.2 = s.at q) (s.onRest r) := by
  rw [onRest_eq]
  have := h (s.file.data.drop s.file.pos)
  match r (s.file.data.drop s.file.pos), this with
  | .ok (a, rest), h => exact ⟨h, _, rfl⟩
  | .error (.ub u), _ => trivial
  | .error (.exn e), h => exact h

theorem Ints.keys_count {m : ExtMap} {h : Header} (hh : Ints (keysFor m) h) : Ints countKeys h := by
  unfold keysFor at hh
  split at hh
  · exact hh.count
  · exact hh

theorem well_subscript {α : Type} (xs : List α) {v : Value} (h : ∃ i, v = .int i) :
    Well (fun _ => True) (subscript xs v) := by
  obtain ⟨i, rfl⟩ := h
  unfold subscript
  dsimp only
  split
  · trivial
  · split <;> trivial

theorem well_chSetOf (s : ISegd) {h : Header} (hh : Ints countKeys h) :
    Well (fun p => Ints countKeys p.2) (s.chSetOf h) := by
  obtain ⟨h1, h2⟩ := hh.at (k := "SCAN_TYPE_NUM") (by decide)
  obtain ⟨h3, h4⟩ := h2.at (k := "CH_SET_NUM") (by decide)
  exact (well_subscript _ h1).bind fun _ _ => (well_subscript _ h3).bind fun _ _ => h4

theorem well_sampNumD (c : ChSet) {h : Header} (hh : Ints countKeys h) : Well (fun _ => True) (sampNumD c h) := by
  unfold sampNumD
  split
  · trivial
  · rename_i d hd
    exact hh "SAMP_NUM" (by decide) d hd
  · split <;> trivial

/-- Reading a trace throws nothing but exceptions of the stream. -/
theorem onlyIos_body {pw : Dbl → Dbl} {s : ISegd} (hs : Readable s) (hm : CountsAreInts s.extMap) :
    OnlyIos (fun _ => True) (readTraceBody pw s) := by
  obtain ⟨⟨bits, r⟩, hq⟩ := hs
  unfold readTraceBody
  refine (onlyIos_fill s 20).bind fun p hp => ?_
  obtain ⟨b, s1⟩ := p
  simp only at hp ⊢
  obtain ⟨hl, rfl⟩ := hp
  obtain ⟨hd, r', e, -⟩ := readTraceHdrD_uses hl
  obtain ⟨hi, v, hv⟩ := ints_traceHdr e
  rw [e, ok_bind]
  simp only
  have hk : Ints (keysFor s.extMap) hd := by
    unfold keysFor
    split
    · exact hi
    · exact hi.count
  have hx : ∀ bs, OnlyIos (fun p => Ints (keysFor s.extMap) p.1)
      (readExt (s.at (s.file.pos + 20)).gh2.segdRevMajor (s.at (s.file.pos + 20)).extMap hd bs) := by
    intro bs
    unfold readExt intOf
    rw [hv]
    exact onlyIos_extLoop hm _ _ _ hk bs
  refine (onlyIos_onRest _ hx).bind fun p hp => ?_
  obtain ⟨h1, s1⟩ := p
  obtain ⟨hp, q, rfl⟩ := hp
  simp only at hp ⊢
  refine (well_chSetOf _ hp.keys_count).onlyIos.bind fun p hp => ?_
  obtain ⟨c, h2⟩ := p
  simp only at hp ⊢
  refine (well_sampNumD c hp).onlyIos.bind fun n _ => ?_
  rw [readSamplesD_eq (fmt := ((s.at (s.file.pos + 20)).at q).gh1.formatCode) hq]
  refine OnlyIos.bind (Q := fun _ => True) ?_ fun _ _ => trivial
  refine (onlyIos_fill _ _).bind fun p _ => ?_
  exact (well_noExn (noExn_rdSamples (rdNoExn_segd hq) _ _ _)).onlyIos.bind fun _ _ => trivial

/-- The exceptions of `read_trace`, if the map does not ask for floating counts. -/
theorem sim_readTrace_ints {pw : Dbl → Dbl} {s : ISegd} (hs : Readable s) (hm : CountsAreInts s.extMap) :
    SimD HFailed (·.1) (·.2) (smReadTrace pw ⟨s, false⟩) (readTraceD pw s) := by
  unfold smReadTrace readTraceD
  have h0 := onlyIos_body (pw := pw) hs hm
  have h1 : SimD HFailed (·.1) (·.2) (smTraceBody pw ⟨s, false⟩) (readTraceBody pw s) := by
    have := sim_body (pw := pw) (.inl hs)
    cases hx : readTraceBody pw s with
    | ok v => rw [hx] at this; exact this
    | error e =>
      rw [hx] at this h0
      refine ⟨this.1, ?_⟩
      rcases this.2 with h | h | h
      · exact .inl (.inl h)
      · exact .inl (.inr h)
      · rw [h.1] at h0
        cases h0
  refine h1.bind fun p hp => ?_
  obtain ⟨t, s1⟩ := p
  exact (sim_advance s1).bind fun s2 _ => rfl

theorem extMap_readTrace {pw : Dbl → Dbl} {s s' : ISegd} {t : Trace} (h : readTraceD pw s = .ok (t, s')) :
    s'.extMap = s.extMap := by
  obtain ⟨p, -, -, ⟨-, rfl⟩ | ⟨-, -, rfl⟩ | ⟨-, -, h⟩⟩ := readTraceD_cases h
  · rfl
  · rfl
  · exact (readHeaders_ok h).2.1

/-! ## Sequences of calls -/

theorem asksD_dead (pw : Dbl → Dbl) (s : ISegd) (n : Nat) :
    asksD pw ⟨s, true⟩ n = List.replicate n (.error (.exn .iosFailure), s.hasTrace, s.hasRecord) := by
  induction n with
  | zero => rfl
  | succ n ih =>
    rw [List.replicate_succ, ← ih]
    rfl

theorem asksD_length (pw : Dbl → Dbl) (d : DS) (n : Nat) : (asksD pw d n).length = n := by
  induction n generalizing d with
  | zero => rfl
  | succ n ih => rw [asksD, List.length_cons, ih]

theorem triesD_dead (pw : Dbl → Dbl) (s : ISegd) (n : Nat) :
    ∀ x ∈ triesD pw ⟨s, true⟩ n, x = .error (.exn .iosFailure) := by
  induction n with
  | zero => intro x hx; cases hx
  | succ n ih =>
    intro x hx
    unfold triesD at hx
    split at hx
    · rw [dead_readTrace] at hx
      rcases List.mem_cons.mp hx with rfl | hx
      · rfl
      · exact ih x hx
    · cases hx

theorem triesD_none (pw : Dbl → Dbl) {d : DS} (h : d.s.hasTrace = false) (n : Nat) : triesD pw d n = [] := by
  cases n with
  | zero => rfl
  | succ n => rw [triesD, h]; rfl

theorem asksD_answers (pw : Dbl → Dbl) (n : Nat) (s : ISegd) (hs : Readable s) :
    match answersD pw s n with
    | (ts, none) => (asksD pw ⟨s, false⟩ n).map (·.1) = ts.map .ok
    | (ts, some e) => ∃ rest, (asksD pw ⟨s, false⟩ n).map (·.1) = ts.map .ok ++ .error e :: rest := by
  induction n generalizing s with
  | zero => rfl
  | succ n ih =>
    have hc := sim_readTrace (pw := pw) (.inl hs)
    unfold answersD asksD
    cases hx : readTraceD pw s with
    | error e =>
      rw [hx] at hc
      obtain ⟨h1, -⟩ := hc
      simp only [List.map_cons, List.map_nil, List.nil_append]
      rw [h1]
      exact ⟨_, rfl⟩
    | ok p =>
      obtain ⟨t, s'⟩ := p
      rw [hx] at hc
      have hc : smReadTrace pw ⟨s, false⟩ = (.ok t, ⟨s', false⟩) := hc
      have := ih s' (readable_readTrace hs hx)
      rw [hc]
      simp only [List.map_cons]
      cases ha : answersD pw s' n with
      | mk ts o =>
        rw [ha] at this
        cases o with
        | none =>
          simp only at this ⊢
          rw [this, List.map_cons]
        | some e =>
          obtain ⟨rest, hr⟩ := this
          exact ⟨rest, by rw [hr]; rfl⟩

theorem sane_readTrace {pw : Dbl → Dbl} {s s' : ISegd} {t : Trace} (hs : Sane s)
    (h : readTraceD pw s = .ok (t, s')) : Sane s' := by
  obtain ⟨p, -, -, ⟨-, rfl⟩ | ⟨-, -, rfl⟩ | ⟨-, -, h⟩⟩ := readTraceD_cases h
  · exact hs
  · exact .inr rfl
  · exact .inl (readable_headers h)

theorem asksD_ios (pw : Dbl → Dbl) (n : Nat) (s : ISegd) (hs : Sane s) {i j : Nat} {m : Bool × Bool}
    (hd : ∀ x ∈ asksD pw ⟨s, false⟩ n, Defined x.1)
    (h : (asksD pw ⟨s, false⟩ n)[i]? = some (.error (.exn .iosFailure), m)) (hij : i ≤ j) (hj : j < n) :
    (asksD pw ⟨s, false⟩ n)[j]? = some (.error (.exn .iosFailure), m) := by
  induction n generalizing s i j with
  | zero => omega
  | succ n ih =>
    have hc := sim_readTrace (pw := pw) hs
    rw [asksD] at h hd ⊢
    simp only at h hd ⊢
    have hd' := fun x hx => hd x (List.mem_cons_of_mem _ hx)
    have key : ∀ s', Sane s' → (smReadTrace pw ⟨s, false⟩).2 = ⟨s', false⟩ →
        (smReadTrace pw ⟨s, false⟩).1 ≠ .error (.exn .iosFailure) →
        (((smReadTrace pw ⟨s, false⟩).1, (smReadTrace pw ⟨s, false⟩).2.s.hasTrace,
          (smReadTrace pw ⟨s, false⟩).2.s.hasRecord) :: asksD pw (smReadTrace pw ⟨s, false⟩).2 n)[j]? =
          some (.error (.exn .iosFailure), m) := by
      intro s' hs' e ne
      cases i with
      | zero =>
        rw [List.getElem?_cons_zero] at h
        exact absurd (congrArg Prod.fst (Option.some.inj h)) ne
      | succ i =>
        obtain ⟨j, rfl⟩ : ∃ k, j = k + 1 := ⟨j - 1, by omega⟩
        rw [List.getElem?_cons_succ] at h ⊢
        rw [e] at h hd' ⊢
        exact ih s' hs' hd' h (by omega) (by omega)
    cases hx : readTraceD pw s with
    | ok p =>
      obtain ⟨t, s'⟩ := p
      rw [hx] at hc
      have hc : smReadTrace pw ⟨s, false⟩ = (.ok t, ⟨s', false⟩) := hc
      refine key s' (sane_readTrace hs hx) (by rw [hc]) (by rw [hc]; intro h; cases h)
    | error e =>
      rw [hx] at hc
      obtain ⟨h1, h2⟩ := hc
      have hne : ∀ b s', (smReadTrace pw ⟨s, false⟩).2 = ⟨s', b⟩ →
        (smReadTrace pw ⟨s, false⟩) = (.error e, ⟨s', b⟩) := fun b s' h => Prod.ext h1 h
      generalize hd2 : (smReadTrace pw ⟨s, false⟩).2 = d2 at h2
      obtain ⟨s', b⟩ := d2
      have hx2 := hne b s' hd2
      rcases h2 with (⟨rfl, h2⟩ | ⟨u, rfl⟩ | ⟨rfl, h2, h3⟩) | ⟨rfl, h2, h3, h4⟩
      · simp only at h2
        subst h2
        rw [hx2] at h ⊢
        simp only at h ⊢
        rw [asksD_dead, ← List.replicate_succ] at h ⊢
        rw [List.getElem?_replicate] at h ⊢
        rw [if_pos (by omega)] at h ⊢
        exact h
      · exact absurd h1 (hd _ List.mem_cons_self u)
      · simp only at h2
        subst h2
        have := key s' h3 hd2 (by rw [h1]; intro h; cases h)
        rwa [hd2] at this
      · simp only at h2
        subst h2
        have := key s' (.inr h4) hd2 (by rw [h1]; intro h; cases h)
        rwa [hd2] at this

theorem triesD_takes (pw : Dbl → Dbl) (n : Nat) (s : ISegd) (hs : Readable s) (hm : CountsAreInts s.extMap)
    (hd : ∀ x ∈ triesD pw ⟨s, false⟩ n, Defined x) :
    ∃ tail, triesD pw ⟨s, false⟩ n = (takesD pw s n).1.map .ok ++ tail ∧
      ((takesD pw s n).2 = none → tail = []) ∧
      ((∀ x ∈ tail, x = .error (.exn .iosFailure)) ∨ tail = [.error (.exn .unsupportedFormat)]) := by
  induction n generalizing s with
  | zero => exact ⟨[], rfl, fun _ => rfl, .inl (by simp)⟩
  | succ n ih =>
    have hc := sim_readTrace_ints (pw := pw) hs hm
    unfold takesD
    rw [triesD] at hd ⊢
    simp only at hd ⊢
    by_cases ht : s.hasTrace
    · rw [if_pos ht] at hd ⊢
      rw [if_pos ht]
      cases hx : readTraceD pw s with
      | error e =>
        rw [hx] at hc
        obtain ⟨h1, h2⟩ := hc
        have hd1 := hd _ List.mem_cons_self
        rw [h1] at hd1 ⊢
        refine ⟨.error e :: triesD pw (smReadTrace pw ⟨s, false⟩).2 n, rfl, (by intro h; cases h), ?_⟩
        rcases h2 with (⟨rfl, h2⟩ | ⟨u, rfl⟩) | ⟨rfl, h2, h3, -⟩
        · left
          intro x hx
          rcases List.mem_cons.mp hx with rfl | hx
          · rfl
          · revert hx
            generalize (smReadTrace pw ⟨s, false⟩).2 = d at h2
            obtain ⟨s', b⟩ := d
            simp only at h2
            subst h2
            exact triesD_dead pw s' n x
        · exact absurd rfl (hd1 u)
        · right
          rw [triesD_none pw h3]
      | ok p =>
        obtain ⟨t, s'⟩ := p
        rw [hx] at hc
        have hc : smReadTrace pw ⟨s, false⟩ = (.ok t, ⟨s', false⟩) := hc
        rw [hc] at hd ⊢
        obtain ⟨tail, h1, h2, h3⟩ := ih s' (readable_readTrace hs hx) (by rw [extMap_readTrace hx]; exact hm)
          fun x hx => hd x (List.mem_cons_of_mem _ hx)
        exact ⟨tail, by simp only [List.map_cons, List.cons_append]; rw [h1], h2, h3⟩
    · rw [if_neg ht, if_neg ht]
      exact ⟨[], rfl, fun _ => rfl, .inl (by simp)⟩

end Sedaman
