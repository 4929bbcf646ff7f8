import Verif.Spec.Memory
import Verif.Lemmas.ISEGYFail
import Verif.Lemmas.OpenOf
import Verif.Lemmas.Copy12

/-!
# Lemmas about the memory a reader takes
-/

namespace Sedaman

open Spec

theorem rm_bind_inv {α β : Type} {x : RM α} {f : α → RM β} {s s' : RS} {b : β} (h : (x >>= f) s = (.ok b, s')) :
    ∃ a s1, x s = (.ok a, s1) ∧ f a s1 = (.ok b, s') := by
  have h : (match x s with | (.ok a, s) => f a s | (.error e, s) => (.error e, s)) = (.ok b, s') := h
  rcases hx : x s with ⟨o, s1⟩
  rw [hx] at h
  cases o with
  | error e => cases h
  | ok a => exact ⟨a, s1, rfl, h⟩

/-! ## What no call changes -/

/-- The texts, and the contents of the file. -/
structure SameTexts (r r' : Reader) : Prop where
  texts : r'.texts = r.texts
  trailers : r'.trailers = r.trailers
  data : r'.file.data = r.file.data

theorem SameTexts.refl (r : Reader) : SameTexts r r := ⟨rfl, rfl, rfl⟩

theorem SameTexts.trans {a b c : Reader} (h : SameTexts a b) (k : SameTexts b c) : SameTexts a c :=
  ⟨k.texts.trans h.texts, k.trailers.trans h.trailers, k.data.trans h.data⟩

/-- A function that changes none of them, and the size of the buffer only as `B` allows. -/
def KeepsMem {α : Type} (B : Reader → Nat → Prop) (x : RM α) : Prop :=
  ∀ s, SameTexts s.r (x s).2.r ∧ SameFile s.r (x s).2.r ∧ (B s.r s.r.bufLen → B s.r (x s).2.r.bufLen)

/-- `B` does not depend on what calls change. -/
def Stays (B : Reader → Nat → Prop) : Prop := ∀ r r' n, SameFile r r' → (B r n ↔ B r' n)

variable {B : Reader → Nat → Prop}

theorem keepsMem_pure {α : Type} (a : α) : KeepsMem B (pure a : RM α) := fun _ => ⟨.refl _, .refl _, id⟩

theorem keepsMem_lift {α : Type} (x : Out α) : KeepsMem B (rmLift x) := fun _ => ⟨.refl _, .refl _, id⟩

theorem keepsMem_get : KeepsMem B rmGet := fun _ => ⟨.refl _, .refl _, id⟩

theorem KeepsMem.bind {α β : Type} {x : RM α} {f : α → RM β} (hB : Stays B) (hx : KeepsMem B x) (hf : ∀ a, KeepsMem B (f a)) :
    KeepsMem B (x >>= f) := by
  intro s
  obtain ⟨h1, h2, h3⟩ := hx s
  rcases hc : x s with ⟨o, s1⟩
  rw [hc] at h1 h2 h3
  cases o with
  | error e =>
    rw [rm_bind_err hc]
    exact ⟨h1, h2, h3⟩
  | ok a =>
    rw [rm_bind_ok hc]
    obtain ⟨k1, k2, k3⟩ := hf a s1
    refine ⟨h1.trans k1, h2.trans k2, fun hb => ?_⟩
    have q1 : B s1.r s1.r.bufLen := (hB _ _ _ h2).1 (h3 hb)
    exact (hB _ _ _ h2).2 (k3 q1)

theorem keepsMem_fill (n : Nat) : KeepsMem B (rmFill n) := by
  intro s
  unfold rmFill
  split
  · exact ⟨.refl _, .refl _, id⟩
  · cases hr : s.r.file.read n with
    | error e => exact ⟨.refl _, .refl _, id⟩
    | ok p =>
      obtain ⟨b, f⟩ := p
      obtain ⟨-, -, hf⟩ := read_ok hr
      exact ⟨⟨rfl, rfl, by simp only [hf]⟩, ⟨rfl, rfl, rfl, rfl, rfl, rfl⟩, id⟩

theorem keepsMem_skip (n : Int) : KeepsMem B (rmSkip n) := by
  intro s
  unfold rmSkip
  split
  · exact ⟨.refl _, .refl _, id⟩
  · cases hr : s.r.file.seekCur n with
    | error e => exact ⟨.refl _, .refl _, id⟩
    | ok f =>
      unfold File.seekCur at hr
      obtain ⟨-, hf⟩ := seek_ok hr
      exact ⟨⟨rfl, rfl, by simp only [hf]⟩, ⟨rfl, rfl, rfl, rfl, rfl, rfl⟩, id⟩

theorem keepsMem_blocks (hB : Stays B) (bo : ByteOrder) (m : HdrMap) (n i : Nat) (acc : Header) :
    KeepsMem B (rmBlocks bo m n i acc) := by
  induction n generalizing i acc with
  | zero => exact keepsMem_pure _
  | succ n ih =>
    unfold rmBlocks
    split
    · exact (keepsMem_fill _).bind hB fun _ => (keepsMem_lift _).bind hB fun _ => ih _ _
    · exact (keepsMem_skip _).bind hB fun _ => ih _ _

theorem keepsMem_trc (hB : Stays B) : KeepsMem B rmTrcHeader := by
  refine keepsMem_get.bind hB fun r => ?_
  split
  · exact keepsMem_lift _
  · exact keepsMem_blocks hB _ _ _ _ _

theorem keepsMem_samples (hB : Stays B) : KeepsMem B rmSamplesFix :=
  keepsMem_get.bind hB fun _ => (keepsMem_fill _).bind hB fun _ => (keepsMem_lift _).bind hB fun _ =>
    (keepsMem_lift _).bind hB fun _ => keepsMem_pure _

theorem keepsMem_header (hB : Stays B) : KeepsMem B rmReadHeader := by
  refine keepsMem_get.bind hB fun r => (keepsMem_trc hB).bind hB fun hdr => ?_
  split
  · exact (keepsMem_lift _).bind hB fun _ => (keepsMem_skip _).bind hB fun _ => keepsMem_pure _
  · exact (keepsMem_lift _).bind hB fun _ => (keepsMem_skip _).bind hB fun _ => keepsMem_pure _

/-! ## Counts of samples of at most two bytes -/

/-- The value under the name is at most 65535. -/
def Short (h : Header) : Prop := ∀ n, h.get "SAMP_NUM" = some (.int n) → -65536 ≤ n ∧ n ≤ 65535

theorem short_int {bo : ByteOrder} {n : Nat} (hn : n ≤ 2) {bs rest : Bytes} {x : Int}
    (hr : rdInt bo n bs = .ok (x, rest)) : -65536 ≤ x ∧ x ≤ 65535 := by
  unfold rdInt at hr
  split at hr
  · rename_i hl
    rw [← (Prod.mk.inj (Except.ok.inj hr)).1]
    have h := decNat_lt bo (bs.take n)
    rw [List.length_take, Nat.min_eq_left hl] at h
    have : 256 ^ n ≤ 256 ^ 2 := Nat.pow_le_pow_right (by decide) hn
    have h0 : (0 : Int) ≤ ((256 : Nat) : Int) ^ n := Int.pow_nonneg (by decide)
    unfold decInt
    rw [List.length_take, Nat.min_eq_left hl]
    split <;> constructor <;> omega
  · cases hr

theorem short_nat {bo : ByteOrder} {n : Nat} (hn : n ≤ 2) {bs rest : Bytes} {x : Nat}
    (hr : rdNat bo n bs = .ok (x, rest)) : x ≤ 65535 := by
  unfold rdNat at hr
  split at hr
  · rename_i hl
    rw [← (Prod.mk.inj (Except.ok.inj hr)).1]
    have h := decNat_lt bo (bs.take n)
    rw [List.length_take, Nat.min_eq_left hl] at h
    have : 256 ^ n ≤ 256 ^ 2 := Nat.pow_le_pow_right (by decide) hn
    omega
  · cases hr

theorem short_field {bo : ByteOrder} {ty : VType} (h : ty.size ≤ 2) {bs rest : Bytes} {v : Value}
    (hr : readField bo ty bs = .ok (v, rest)) : ∀ n, v = .int n → -65536 ≤ n ∧ n ≤ 65535 := by
  rintro n rfl
  cases ty
  case i8 =>
    have hr : ((readI8 >>= fun x => pure (Value.int x)) : Rd Value) bs = _ := hr
    rw [rd_bind] at hr
    obtain ⟨⟨x, r⟩, h1, h2⟩ := bind_ok hr
    rw [readI8_eq bo] at h1
    cases h2
    exact short_int (by decide) h1
  case u8 =>
    have hr : ((readU8 >>= fun x => pure (Value.int (x : Nat))) : Rd Value) bs = _ := hr
    rw [rd_bind] at hr
    obtain ⟨⟨x, r⟩, h1, h2⟩ := bind_ok hr
    rw [readU8_eq bo] at h1
    cases h2
    have := short_nat (by decide) h1
    constructor <;> omega
  case i16 =>
    have hr : ((readI16 bo >>= fun x => pure (Value.int x)) : Rd Value) bs = _ := hr
    rw [rd_bind] at hr
    obtain ⟨⟨x, r⟩, h1, h2⟩ := bind_ok hr
    rw [readI16_eq] at h1
    cases h2
    exact short_int (by decide) h1
  case u16 =>
    have hr : ((readU16 bo >>= fun x => pure (Value.int (x : Nat))) : Rd Value) bs = _ := hr
    rw [rd_bind] at hr
    obtain ⟨⟨x, r⟩, h1, h2⟩ := bind_ok hr
    rw [readU16_eq] at h1
    cases h2
    have := short_nat (by decide) h1
    constructor <;> omega
  all_goals exact absurd h (by decide)

theorem short_fields {bo : ByteOrder} {fs : List HField} (hs : ∀ f ∈ fs, f.name = "SAMP_NUM" → f.ty.size ≤ 2)
    {buf : Bytes} {acc h : Header} (ha : Short acc) (hr : readFields bo fs buf acc = .ok h) : Short h := by
  induction fs generalizing acc with
  | nil => cases hr; exact ha
  | cons f t ih =>
    unfold readFields at hr
    obtain ⟨v, h1, hr⟩ := bind_ok hr
    refine ih (fun g hg => hs g (List.mem_cons_of_mem _ hg)) ?_ hr
    intro n hn
    rw [get_set] at hn
    split at hn
    · rename_i he
      have hn := Option.some.inj hn
      unfold readAt at h1
      split at h1
      · obtain ⟨⟨x, r⟩, h2, h3⟩ := bind_ok h1
        cases h3
        exact short_field (hs f List.mem_cons_self he) h2 n hn
      · cases h1
    · exact ha n hn

theorem short_blocks {bo : ByteOrder} {m : HdrMap} (hs : ShortCounts m) {n i : Nat} {acc h : Header} (ha : Short acc)
    {s s' : RS} (hr : rmBlocks bo m n i acc s = (.ok h, s')) : Short h := by
  induction n generalizing i acc s with
  | zero =>
    have : (Except.ok acc, s) = ((.ok h, s') : Out Header × RS) := hr
    cases this
    exact ha
  | succ n ih =>
    unfold rmBlocks at hr
    cases hb : m[i]? with
    | some b =>
      simp only [hb] at hr
      obtain ⟨buf, s1, -, hr⟩ := rm_bind_inv hr
      obtain ⟨acc', s2, h2, hr⟩ := rm_bind_inv hr
      have h2 : (readFields bo b.fields buf acc, s1) = (.ok acc', s2) := h2
      exact ih (short_fields (hs b (List.mem_of_getElem? hb)) ha (congrArg Prod.fst h2)) hr
    | none =>
      simp only [hb] at hr
      obtain ⟨_, s1, -, hr⟩ := rm_bind_inv hr
      exact ih ha hr

theorem short_trc {s s' : RS} {h : Header} (hs : ShortCounts s.r.map) (hr : rmTrcHeader s = (.ok h, s')) : Short h := by
  obtain ⟨r, s1, h1, hr⟩ := rm_bind_inv hr
  have h1 : (Except.ok s.r, s) = ((.ok r, s1) : Out Reader × RS) := h1
  cases h1
  split at hr
  · cases hr
  · refine short_blocks hs (fun n hn => ?_) hr
    cases hn

/-! ## The size of the buffer -/

theorem resize_buf (n : Nat) (s : RS) : (rmResize n s).2.r.bufLen = s.r.bufLen ∨
    (rmResize n s).2.r.bufLen = n ∧ n < 2 ^ 63 := by
  unfold rmResize
  split
  · cases hv : resizeVec (List.replicate s.r.bufLen 0) n with
    | error e => exact .inl rfl
    | ok b =>
      obtain ⟨h1, h2, -⟩ := resizeVec_ok hv
      exact .inr ⟨h2, h1⟩
  · exact .inl rfl

theorem resize_same_rest (n : Nat) (s : RS) : SameTexts s.r (rmResize n s).2.r := by
  unfold rmResize
  split
  · cases hv : resizeVec (List.replicate s.r.bufLen 0) n <;> exact ⟨rfl, rfl, rfl⟩
  · exact .refl _

theorem toU_short {n : Int} {k : Nat} (h1 : -65536 ≤ n) (h2 : n ≤ 65535) (hk : k ≤ 8) (h : toU 8 (n * k) < 2 ^ 63) :
    toU 8 (n * k) ≤ 65535 * k := by
  have hm : n * (k : Int) ≤ 65535 * k := Int.mul_le_mul_of_nonneg_right h2 (Int.natCast_nonneg _)
  have hm2 : -65536 * (k : Int) ≤ n * k := Int.mul_le_mul_of_nonneg_right h1 (Int.natCast_nonneg _)
  generalize n * (k : Int) = x at *
  unfold toU at *
  norm_num at h ⊢
  omega

/-- With a fixed trace length no call changes the buffer. -/
theorem trace_fixed (hB : Stays B) : ∀ s : RS, fixedLength s.r.bh = true →
    SameTexts s.r (rmReadTrace s).2.r ∧ SameFile s.r (rmReadTrace s).2.r ∧
      (B s.r s.r.bufLen → B s.r (rmReadTrace s).2.r.bufLen) := by
  intro s hf
  have e : rmReadTrace s = (rmTrcHeader >>= fun hdr => rmSamplesFix >>= fun xs => pure (⟨hdr, xs⟩ : Trace)) s := by
    show (rmTrcHeader >>= fun hdr => if fixedLength s.r.bh then _ else _) s = _
    simp only [hf, if_true]
  rw [e]
  exact (keepsMem_trc hB).bind hB (fun _ => (keepsMem_samples hB).bind hB fun _ => keepsMem_pure _) s

/-- With counts of at most two bytes the buffer does not exceed that of 65535 samples. -/
theorem trace_short (s : RS) (hs : ShortCounts s.r.map) (hb : s.r.bps ≤ 8) :
    SameTexts s.r (rmReadTrace s).2.r ∧ SameFile s.r (rmReadTrace s).2.r ∧
      (rmReadTrace s).2.r.bufLen ≤ max s.r.bufLen (65535 * s.r.bps) := by
  have hB : Stays fun r n => n ≤ max s.r.bufLen (65535 * s.r.bps) := fun _ _ _ _ => Iff.rfl
  by_cases hf : fixedLength s.r.bh = true
  · obtain ⟨h1, h2, h3⟩ := trace_fixed hB s hf
    exact ⟨h1, h2, h3 (Nat.le_max_left _ _)⟩
  · refine ⟨?_, frames_trace s, ?_⟩
    all_goals
      have e : rmReadTrace s = (rmTrcHeader >>= fun hdr => rmLift (sampNum hdr) >>= fun p =>
          rmResize (toU 8 (p.1 * s.r.bps)) >>= fun _ => rmSamplesFix >>= fun xs => pure (⟨p.2, xs⟩ : Trace)) s := by
        show (rmTrcHeader >>= fun hdr => if fixedLength s.r.bh then _ else _) s = _
        simp only [hf]
        rfl
      rw [e]
      obtain ⟨k1, k2, k3⟩ := keepsMem_trc hB s
      rcases hc : rmTrcHeader s with ⟨o, s1⟩
      rw [hc] at k1 k2 k3
    · cases o with
      | error e => rw [rm_bind_err hc]; exact k1
      | ok h =>
        rw [rm_bind_ok hc]
        refine k1.trans ?_
        cases hsn : sampNum h with
        | error e => exact .refl _
        | ok p =>
          rw [rm_bind_ok (lift_ok p s1)]
          rcases hd : rmResize (toU 8 (p.1 * s.r.bps)) s1 with ⟨o, s2⟩
          have q := resize_same_rest (toU 8 (p.1 * s.r.bps)) s1
          rw [hd] at q
          cases o with
          | error e => rw [rm_bind_err hd]; exact q
          | ok u =>
            rw [rm_bind_ok hd]
            exact q.trans (((keepsMem_samples hB).bind hB fun _ => keepsMem_pure _) s2).1
    · have k3 := k3 (Nat.le_max_left _ _)
      cases o with
      | error e => rw [rm_bind_err hc]; exact k3
      | ok h =>
        rw [rm_bind_ok hc]
        cases hsn : sampNum h with
        | error e => exact k3
        | ok p =>
          rw [rm_bind_ok (lift_ok p s1)]
          rcases hd : rmResize (toU 8 (p.1 * s.r.bps)) s1 with ⟨o, s2⟩
          have q := resize_buf (toU 8 (p.1 * s.r.bps)) s1
          rw [hd] at q
          have q' : s2.r.bufLen ≤ max s.r.bufLen (65535 * s.r.bps) := by
            rcases q with q | ⟨q, q2⟩
            · rw [q]; exact k3
            · rw [q]
              refine Nat.le_trans ?_ (Nat.le_max_right _ _)
              have hshort := short_trc hs hc
              have hp : -65536 ≤ p.1 ∧ p.1 ≤ 65535 := by
                unfold sampNum Header.at at hsn
                cases hg : h.get "SAMP_NUM" with
                | none =>
                  rw [hg] at hsn
                  cases hsn
                  constructor <;> simp
                | some v =>
                  rw [hg] at hsn
                  cases v with
                  | dbl d => cases hsn
                  | int n =>
                    cases hsn
                    exact hshort n hg
              exact toU_short hp.1 hp.2 hb q2
          cases o with
          | error e => rw [rm_bind_err hd]; exact q'
          | ok u =>
            rw [rm_bind_ok hd]
            exact (((keepsMem_samples hB).bind hB fun _ => keepsMem_pure _) s2).2.2 q'

/-- A call never changes the texts the reader keeps. -/
theorem trace_rest (s : RS) : SameTexts s.r (rmReadTrace s).2.r := by
  have hB : Stays fun _ _ => True := fun _ _ _ _ => Iff.rfl
  by_cases hf : fixedLength s.r.bh = true
  · exact (trace_fixed hB s hf).1
  · have e : rmReadTrace s = (rmTrcHeader >>= fun hdr => rmLift (sampNum hdr) >>= fun p =>
        rmResize (toU 8 (p.1 * s.r.bps)) >>= fun _ => rmSamplesFix >>= fun xs => pure (⟨p.2, xs⟩ : Trace)) s := by
      show (rmTrcHeader >>= fun hdr => if fixedLength s.r.bh then _ else _) s = _
      simp only [hf]
      rfl
    rw [e]
    obtain ⟨k1, -, -⟩ := keepsMem_trc hB s
    rcases hc : rmTrcHeader s with ⟨o, s1⟩
    rw [hc] at k1
    cases o with
    | error e => rw [rm_bind_err hc]; exact k1
    | ok h =>
      rw [rm_bind_ok hc]
      refine k1.trans ?_
      cases hsn : sampNum h with
      | error e => exact .refl _
      | ok p =>
        rw [rm_bind_ok (lift_ok p s1)]
        rcases hd : rmResize (toU 8 (p.1 * s.r.bps)) s1 with ⟨o, s2⟩
        have q := resize_same_rest (toU 8 (p.1 * s.r.bps)) s1
        rw [hd] at q
        cases o with
        | error e => rw [rm_bind_err hd]; exact q
        | ok u =>
          rw [rm_bind_ok hd]
          exact q.trans (((keepsMem_samples hB).bind hB fun _ => keepsMem_pure _) s2).1

/-- The samples of a trace come from a buffer that was filled from the file. -/
theorem samples_returned {s s' : RS} {xs : List Dbl} (h : rmSamplesFix s = (.ok xs, s')) :
    xs.length ≤ s'.r.bufLen ∧ s'.r.bufLen ≤ s'.r.file.data.length := by
  unfold rmSamplesFix at h
  obtain ⟨r, s1, h1, h⟩ := rm_bind_inv h
  cases h1
  obtain ⟨buf, s2, h2, h⟩ := rm_bind_inv h
  obtain ⟨rd, s3, h3, h⟩ := rm_bind_inv h
  obtain ⟨⟨ys, q⟩, s4, h4, h⟩ := rm_bind_inv h
  have hl : ys.length = s.r.bufLen / s.r.bps := decodeSamples_length (congrArg Prod.fst h4)
  have e3 : s3 = s2 := (congrArg Prod.snd h3).symm
  have e4 : s4 = s3 := (congrArg Prod.snd h4).symm
  cases h
  subst e3
  subst e4
  unfold rmFill at h2
  split at h2
  · cases h2
  · cases hr : s.r.file.read s.r.bufLen with
    | error e => rw [hr] at h2; cases h2
    | ok p =>
      obtain ⟨b, f⟩ := p
      rw [hr] at h2
      obtain ⟨e1, e2, e3⟩ := read_ok hr
      cases h2
      rw [e1, List.length_take, List.length_drop] at e2
      subst e3
      refine ⟨?_, ?_⟩
      · rw [hl]; exact Nat.div_le_self _ _
      · show s.r.bufLen ≤ s.r.file.data.length
        omega

theorem trace_returned {s s' : RS} {t : Trace} (h : rmReadTrace s = (.ok t, s')) :
    t.samples.length ≤ s'.r.bufLen ∧ s'.r.bufLen ≤ s'.r.file.data.length := by
  have main : ∀ {hd : Header} {s1 : RS},
      (rmSamplesFix >>= fun xs => pure (⟨hd, xs⟩ : Trace)) s1 = (.ok t, s') →
      t.samples.length ≤ s'.r.bufLen ∧ s'.r.bufLen ≤ s'.r.file.data.length := by
    intro hd s1 h
    obtain ⟨xs, s2, h2, h⟩ := rm_bind_inv h
    cases h
    exact samples_returned h2
  unfold rmReadTrace at h
  obtain ⟨r, s0, h0, h⟩ := rm_bind_inv h
  cases h0
  obtain ⟨hd, s1, h1, h⟩ := rm_bind_inv h
  by_cases hf : fixedLength s.r.bh = true
  · rw [if_pos hf] at h
    exact main h
  · rw [if_neg hf] at h
    obtain ⟨⟨n, hd2⟩, s2, h2, h⟩ := rm_bind_inv h
    obtain ⟨u, s3, h3, h⟩ := rm_bind_inv h
    exact main h

end Sedaman
