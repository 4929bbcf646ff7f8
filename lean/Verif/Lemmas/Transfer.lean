import Verif.Spec.Transfer
import Verif.Lemmas.SegdFail
import Verif.Lemmas.SegdLocal
import Verif.Lemmas.MemoryD
import Verif.Lemmas.TraceHdr

/-!
# From SEG-D to SEG-Y: lemmas
-/

namespace Sedaman

open Spec

/-- The result, if there is one, satisfies `Q`. -/
def OutGives {α : Type} (Q : α → Prop) (y : Out α) : Prop := ∀ a, y = .ok a → Q a

theorem OutGives.bind {α β : Type} {Q : α → Prop} {R : β → Prop} {y : Out α} {f : α → Out β} (hy : OutGives Q y)
    (hf : ∀ a, Q a → OutGives R (f a)) : OutGives R (y >>= f) := by
  intro b hb
  obtain ⟨a, h1, h2⟩ := bind_ok hb
  exact hf a (hy a h1) b h2

theorem gives_ok {α : Type} {Q : α → Prop} {a : α} (h : Q a) : OutGives Q (.ok a) := by
  intro b hb
  cases hb
  exact h

theorem gives_err {α : Type} {Q : α → Prop} {e : Err} : OutGives Q (.error e : Out α) := nofun

theorem gives_true {α : Type} (y : Out α) : OutGives (fun _ => True) y := fun _ _ => trivial

/-- The same for a cursor read. -/
def RdGives {α : Type} (Q : α → Prop) (r : Rd α) : Prop := ∀ bs, OutGives (fun p => Q p.1) (r bs)

theorem RdGives.bind {α β : Type} {Q : α → Prop} {R : β → Prop} {r : Rd α} {f : α → Rd β} (hr : RdGives Q r)
    (hf : ∀ a, Q a → RdGives R (f a)) : RdGives R (r >>= f) := by
  intro bs
  rw [rd_bind]
  exact (hr bs).bind fun p hp => hf p.1 hp p.2

theorem rdGives_pure {α : Type} {Q : α → Prop} {a : α} (h : Q a) : RdGives Q (pure a) := fun _ => gives_ok h

theorem rdGives_true {α : Type} (r : Rd α) : RdGives (fun _ => True) r := fun _ _ _ => trivial

theorem rdGives_nat (bo : ByteOrder) (n : Nat) : RdGives (fun v => v < 256 ^ n) (rdNat bo n) := by
  intro bs p hp
  unfold rdNat at hp
  split at hp
  · rename_i h
    cases hp
    have := decNat_lt bo (bs.take n)
    rwa [List.length_take, Nat.min_eq_left h] at this
  · cases hp

theorem rdGives_u8 : RdGives (fun v => v < 256) readU8 := by
  rw [readU8_eq .be]; exact rdGives_nat _ 1

theorem rdGives_u16 : RdGives (fun v => v < 2 ^ 16) (readU16 .be) := by
  rw [readU16_eq]; exact rdGives_nat _ 2

theorem rdGives_u24 : RdGives (fun v => v < 2 ^ 24) (readU24 .be) := by
  rw [readU24_eq]; exact rdGives_nat _ 3

theorem rdGives_u32 : RdGives (fun v => v < 2 ^ 32) (readU32 .be) := by
  rw [readU32_eq]; exact rdGives_nat _ 4

theorem bcd_fold (ds : List Nat) (h : ∀ d ∈ ds, d ≤ 15) (a : Nat) :
    3 * ds.foldl (fun a d => a * 10 + d) a + 5 ≤ (3 * a + 5) * 10 ^ ds.length := by
  induction ds generalizing a with
  | nil => simp
  | cons d t ih =>
    have h1 := ih (fun x hx => h x (List.mem_cons_of_mem _ hx)) (a * 10 + d)
    have h2 := h d List.mem_cons_self
    simp only [List.foldl_cons, List.length_cons, Nat.pow_succ]
    refine h1.trans ?_
    rw [Nat.mul_comm (10 ^ t.length) 10, ← Nat.mul_assoc]
    exact Nat.mul_le_mul_right _ (by omega)

theorem nibbles_le (bs : Bytes) : ∀ d ∈ nibbles bs, d ≤ 15 := by
  induction bs with
  | nil => nofun
  | cons b t ih =>
    intro d hd
    simp only [nibbles, List.mem_cons] at hd
    rcases hd with rfl | rfl | h
    · have := b.isLt; omega
    · omega
    · exact ih d h

theorem loop_bound {i r v : Nat} {bs : Bytes} (h : fromBcdLoop i r bs = .ok v) :
    3 * v + 5 ≤ (3 * r + 5) * 10 ^ i := by
  rw [fromBcdLoop_eq] at h
  split at h
  · injection h with h
    subst h
    refine (bcd_fold _ (fun d hd => nibbles_le bs d (List.mem_of_mem_take hd)) _).trans ?_
    refine Nat.mul_le_mul_left _ (Nat.pow_le_pow_right (by decide) ?_)
    rw [List.length_take]
    omega
  · cases h

theorem rdGives_bcd (num : Nat) (h : 1 ≤ num) :
    RdGives (fun v => 3 * v + 5 ≤ 5 * 10 ^ num) (fromBcd false num) := by
  intro bs p hp
  unfold fromBcd at hp
  split at hp
  · cases hp
  · rename_i b rest
    obtain ⟨r, h1, h2⟩ := bind_ok hp
    injection h2 with h2
    subst h2
    dsimp only
    have hb := b.isLt
    have hhi : hiNib b ≤ 15 := by unfold hiNib; omega
    have hlo : loNib b ≤ 15 := by unfold loNib; omega
    simp only [Bool.false_eq_true, if_false] at h1
    have h3 := loop_bound h1
    by_cases hn : num = 1
    · subst hn
      simp at h3
      omega
    · rw [if_pos hn, if_pos hn] at h3
      obtain ⟨k, rfl⟩ : ∃ k, num = k + 2 := ⟨num - 2, by omega⟩
      have e : k + 2 - (1 + 1) = k := by omega
      rw [e] at h3
      have : 3 * (hiNib b * 10 + loNib b) + 5 ≤ 500 := by omega
      have h4 := Nat.mul_le_mul_right (10 ^ k) this
      rw [Nat.pow_succ, Nat.pow_succ]
      omega

/-! ## Headers -/

/-- All values of the header are allowed. -/
def AllGet (P : String → Value → Prop) (h : Header) : Prop := ∀ n v, h.get n = some v → P n v

theorem allGet_nil {P : String → Value → Prop} : AllGet P [] := nofun

theorem AllGet.set {P : String → Value → Prop} {h : Header} (hh : AllGet P h) {k : String} {v : Value} (hv : P k v) :
    AllGet P (h.set k v) := by
  intro n w hw
  rw [get_set] at hw
  split at hw
  · rename_i e
    cases hw
    subst e
    exact hv
  · exact hh n w hw

theorem AllGet.setAll {P : String → Value → Prop} {h : Header} (hh : AllGet P h) {l : List (String × Value)}
    (hl : ∀ p ∈ l, P p.1 p.2) : AllGet P (setAll h l) := by
  induction l generalizing h with
  | nil => exact hh
  | cons p t ih =>
    exact ih (hh.set (hl p List.mem_cons_self)) fun q hq => hl q (List.mem_cons_of_mem _ hq)

theorem AllGet.setNonzero {P : String → Value → Prop} {h : Header} (hh : AllGet P h) {k : String} {n : Nat}
    (hv : P k (.int n)) : AllGet P (setNonzero h k n) := by
  unfold Sedaman.setNonzero
  split
  · exact hh.set hv
  · exact hh

theorem AllGet.setDbl {P : String → Value → Prop} {h : Header} (hh : AllGet P h) {k : String} {d : Dbl}
    (hv : P k (.dbl d)) : AllGet P (setDblNonzero h k d) := by
  unfold setDblNonzero
  split
  · exact hh.set hv
  · exact hh

theorem AllGet.at {P : String → Value → Prop} {h : Header} (hh : AllGet P h) {k : String} (hv : P k (.int 0)) :
    AllGet P (Header.at h k).2 := by
  unfold Header.at
  split
  · exact hh
  · exact hh.set hv

/-- The header has these names. -/
def HasAll (ns : List String) (h : Header) : Prop := ∀ n ∈ ns, h.get n ≠ none

theorem HasAll.set {ns : List String} {h : Header} (hh : HasAll ns h) (k : String) (v : Value) : HasAll ns (h.set k v) := by
  intro n hn
  rw [get_set]
  split
  · simp
  · exact hh n hn

/-- What is carried along: allowed values, and the names of the trace header. -/
def CarriesOnly (m : ExtMap) (h : Header) : Prop :=
  AllGet (MayCarry m) h ∧ HasAll (traceInts.map (·.1) ++ traceFractions) h

theorem CarriesOnly.set {m : ExtMap} {h : Header} (hh : CarriesOnly m h) {k : String} {v : Value} (hv : MayCarry m k v) :
    CarriesOnly m (h.set k v) := ⟨hh.1.set hv, hh.2.set k v⟩

theorem CarriesOnly.setAll {m : ExtMap} {h : Header} (hh : CarriesOnly m h) {l : List (String × Value)}
    (hl : ∀ p ∈ l, MayCarry m p.1 p.2) : CarriesOnly m (setAll h l) := by
  induction l generalizing h with
  | nil => exact hh
  | cons p t ih =>
    exact ih (hh.set (hl p List.mem_cons_self)) fun q hq => hl q (List.mem_cons_of_mem _ hq)

theorem CarriesOnly.setDbl {m : ExtMap} {h : Header} (hh : CarriesOnly m h) {k : String} {d : Dbl}
    (hv : MayCarry m k (.dbl d)) : CarriesOnly m (setDblNonzero h k d) := by
  unfold setDblNonzero
  split
  · exact hh.set hv
  · exact hh

theorem CarriesOnly.at {m : ExtMap} {h : Header} (hh : CarriesOnly m h) {k : String} (hv : MayCarry m k (.int 0)) :
    CarriesOnly m (Header.at h k).2 := by
  unfold Header.at
  split
  · exact hh
  · exact hh.set hv

theorem may_int {m : ExtMap} {n : String} {b : Int} (h : (n, b) ∈ traceInts) {v : Nat} (hv : (v : Int) < b) :
    MayCarry m n (.int v) := .inl ⟨b, List.mem_append_left _ h, by omega, hv⟩

theorem may_ext {n : String} {b : Int} (h : (n, b) ∈ extInts) {v : Nat} (hv : (v : Int) < b) :
    MayCarry [] n (.int v) := .inl ⟨b, List.mem_append_right _ (by rw [if_pos rfl]; exact h), by omega, hv⟩

theorem may_frac {m : ExtMap} {n : String} {d : Dbl} (h : n ∈ traceFractions) : MayCarry m n (.dbl d) :=
  .inl (List.mem_append_left _ h)

theorem may_extFrac {n : String} {d : Dbl} (h : n ∈ extFractions) : MayCarry [] n (.dbl d) :=
  .inl (List.mem_append_right _ (by rw [if_pos rfl]; exact h))

theorem rdGives_bcdV (num : Nat) (h : 1 ≤ num) :
    RdGives (fun v => ∃ i : Nat, v = .int i ∧ 3 * i + 5 ≤ 5 * 10 ^ num) (rdBcdV num) :=
  (rdGives_bcd num h).bind fun a ha => rdGives_pure ⟨a, rfl, ha⟩

theorem rdGives_fix24 : RdGives (fun v => ∃ d, v = .dbl d) rdFix24 :=
  (rdGives_true _).bind fun _ _ => rdGives_pure ⟨_, rfl⟩

theorem rdGives_fix8 : RdGives (fun v => ∃ d, v = .dbl d) rdFix8 :=
  (rdGives_true _).bind fun _ _ => rdGives_pure ⟨_, rfl⟩

theorem has_setNonzero {ns : List String} {h : Header} (hh : HasAll ns h) (k : String) (n : Nat) :
    HasAll ns (setNonzero h k n) := by
  unfold setNonzero
  split
  · exact hh.set _ _
  · exact hh

theorem good_traceHdr (m : ExtMap) : RdGives (CarriesOnly m) readTraceHdrD := by
  unfold readTraceHdrD
  refine (rdGives_bcdV 4 (by decide)).bind ?_
  rintro _ ⟨ffid, rfl, h1⟩
  refine (rdGives_bcdV 2 (by decide)).bind ?_
  rintro _ ⟨scan, rfl, h2⟩
  refine (rdGives_bcdV 2 (by decide)).bind ?_
  rintro _ ⟨chSet, rfl, h3⟩
  refine (rdGives_bcdV 4 (by decide)).bind ?_
  rintro _ ⟨chan, rfl, h4⟩
  refine rdGives_fix24.bind ?_
  rintro _ ⟨timing, rfl⟩
  refine rdGives_u8.bind fun ext h5 => rdGives_fix8.bind ?_
  rintro _ ⟨skew, rfl⟩
  refine rdGives_u8.bind fun edit h6 => rdGives_fix24.bind ?_
  rintro _ ⟨brk, rfl⟩
  refine rdGives_u16.bind fun xc h7 => rdGives_u24.bind fun xf h8 => rdGives_pure ⟨?_, ?_⟩
  · refine AllGet.setNonzero (AllGet.setNonzero (allGet_nil.setAll ?_) ?_) ?_
    · intro p hp
      simp only [List.mem_cons, List.not_mem_nil, or_false] at hp
      rcases hp with rfl | rfl | rfl | rfl | rfl | rfl | rfl | rfl | rfl <;> dsimp only
      · exact may_int (b := 2 ^ 24) (by decide) (by omega)
      · exact may_int (b := 166) (by decide) (by omega)
      · exact may_int (b := 2 ^ 16) (by decide) (by omega)
      · exact may_int (b := 16666) (by decide) (by omega)
      · exact may_frac (by decide)
      · exact may_int (b := 256) (by decide) (by omega)
      · exact may_frac (by decide)
      · exact may_int (b := 256) (by decide) (by omega)
      · exact may_frac (by decide)
    · exact may_int (b := 2 ^ 16) (by decide) (by omega)
    · exact may_int (b := 2 ^ 24) (by decide) (by omega)
  · refine has_setNonzero (has_setNonzero ?_ _ _) _ _
    intro n hn
    simp only [traceInts, traceFractions, List.map, List.cons_append, List.nil_append, List.mem_cons,
      List.not_mem_nil, or_false] at hn
    rcases hn with rfl | rfl | rfl | rfl | rfl | rfl | rfl | rfl | rfl <;>
      simp [Sedaman.setAll, Header.set, Header.get]

/-! ## Extensions -/

/-- The alternative of a value agrees with the type of the field. -/
def KindOf (ty : VType) : Value → Prop
  | .int _ => intKind ty ≠ none
  | .dbl _ => intKind ty = none

theorem rdGives_field (bo : ByteOrder) (ty : VType) : RdGives (KindOf ty) (readField bo ty) := by
  cases ty <;> exact (rdGives_true _).bind fun _ _ => rdGives_pure (by simp [KindOf, intKind])

theorem gives_readAt {α : Type} {Q : α → Prop} {r : Rd α} (h : RdGives Q r) (buf : Bytes) (off : Nat) :
    OutGives Q (readAt buf off r) := by
  unfold readAt
  split
  · exact (h _).bind fun p hp => gives_ok hp
  · exact gives_err

/-- What the loop over the fields of a block leaves in the header. -/
theorem extFields_get (buf : Bytes) (fs : List HField) (p : Nat) (acc : Header) :
    OutGives (fun h => ∀ n, (n ∉ fs.map (·.name) ∧ h.get n = acc.get n) ∨
      ∃ f ∈ fs, f.name = n ∧ ∃ v, KindOf f.ty v ∧ h.get n = some v) (readExtFields buf fs p acc) := by
  induction fs generalizing p acc with
  | nil =>
    unfold readExtFields
    exact gives_ok fun n => .inl ⟨by simp, rfl⟩
  | cons f t ih =>
    have key : ∀ q v, KindOf f.ty v → OutGives (fun h => ∀ n, (n ∉ (f :: t).map (·.name) ∧ h.get n = acc.get n) ∨
        ∃ g ∈ f :: t, g.name = n ∧ ∃ v, KindOf g.ty v ∧ h.get n = some v) (readExtFields buf t q (acc.set f.name v)) := by
      intro q v hv h hh n
      rcases ih q (acc.set f.name v) h hh n with ⟨h1, h2⟩ | ⟨g, h1, h2⟩
      · rw [get_set] at h2
        split at h2
        · rename_i e
          exact .inr ⟨f, List.mem_cons_self, e, v, hv, h2⟩
        · rename_i e
          refine .inl ⟨?_, h2⟩
          simp only [List.map_cons, List.mem_cons, not_or]
          exact ⟨fun k => e k.symm, h1⟩
      · exact .inr ⟨g, List.mem_cons_of_mem _ h1, h2⟩
    unfold readExtFields
    split
    · rename_i hty
      refine (gives_readAt (rdGives_field .be .u64) buf p).bind fun v hv => key _ v ?_
      rw [hty]; exact hv
    · exact (gives_readAt (rdGives_field .be f.ty) buf f.off).bind fun v hv => key _ v hv

theorem good_fields {m : ExtMap} {fs : List HField} (hfs : fs ∈ m) (buf : Bytes) (p : Nat) {h : Header}
    (hh : CarriesOnly m h) : OutGives (CarriesOnly m) (readExtFields buf fs p h) := by
  intro h' hr
  have hg := extFields_get buf fs p h h' hr
  refine ⟨fun n v hv => ?_, fun n hn => ?_⟩
  · rcases hg n with ⟨-, h2⟩ | ⟨f, h1, rfl, w, h2, h3⟩
    · exact hh.1 n v (by rw [← h2]; exact hv)
    · rw [hv] at h3
      cases h3
      have hm : f ∈ m.flatten := List.mem_flatten.2 ⟨fs, hfs, h1⟩
      cases v with
      | int i => exact .inr ⟨f, hm, rfl, h2⟩
      | dbl d => exact .inr ⟨f, hm, rfl, h2⟩
  · rcases hg n with ⟨-, h2⟩ | ⟨f, -, -, w, -, h3⟩
    · rw [h2]; exact hh.2 n hn
    · rw [h3]; simp

/-- What the standard extension block can set. -/
def MayExt (n : String) : Value → Prop
  | .int i => ∃ b, (n, b) ∈ extInts ∧ 0 ≤ i ∧ i < b
  | .dbl _ => n ∈ extFractions

theorem me_int {n : String} {b : Int} (h : (n, b) ∈ extInts) {v : Nat} (hv : (v : Int) < b) : MayExt n (.int v) :=
  ⟨b, h, by omega, hv⟩

theorem me_frac {n : String} {d : Dbl} (h : n ∈ extFractions) : MayExt n (.dbl d) := h

section
variable {I : Header → Prop} (hset : ∀ h n v, I h → MayExt n v → I (h.set n v))
include hset

theorem inv_setAll {h : Header} (hh : I h) {l : List (String × Value)} (hl : ∀ p ∈ l, MayExt p.1 p.2) :
    I (setAll h l) := by
  induction l generalizing h with
  | nil => exact hh
  | cons p t ih =>
    exact ih (hset _ _ _ hh (hl p List.mem_cons_self)) fun q hq => hl q (List.mem_cons_of_mem _ hq)

theorem inv_setDbl {h : Header} (hh : I h) {k : String} {d : Dbl} (hv : MayExt k (.dbl d)) :
    I (setDblNonzero h k d) := by
  unfold setDblNonzero
  split
  · exact hset _ _ _ hh hv
  · exact hh

theorem inv_at {h : Header} (hh : I h) {k : String} (hv : MayExt k (.int 0)) : I (Header.at h k).2 := by
  unfold Header.at
  split
  · exact hh
  · exact hset _ _ _ hh hv

theorem std_inv (rev : Int) {h : Header} (hh : I h) : RdGives I (rdExtStd rev h) := by
  unfold rdExtStd
  refine rdGives_u24.bind fun line h1 => rdGives_u24.bind fun point h2 => rdGives_u8.bind fun idx h3 => ?_
  have hs : I (setAll h [("R_LINE", .int (line : Int)), ("R_POINT", .int (point : Int)),
      ("R_POINT_IDX", .int (idx : Int))]) := by
    refine inv_setAll hset hh fun p hp => ?_
    simp only [List.mem_cons, List.not_mem_nil, or_false] at hp
    rcases hp with rfl | rfl | rfl <;> dsimp only
    · exact me_int (b := 2 ^ 24) (by decide) (by omega)
    · exact me_int (b := 2 ^ 24) (by decide) (by omega)
    · exact me_int (b := 256) (by decide) (by omega)
  generalize setAll h [("R_LINE", .int (line : Int)), ("R_POINT", .int (point : Int)),
      ("R_POINT_IDX", .int (idx : Int))] = h0 at hs
  refine RdGives.bind (Q := I) ?_ fun h hh => RdGives.bind (Q := I) ?_ fun h hh => ?_
  · unfold rdExtIdx
    split
    · exact rdGives_u24.bind fun v hv => rdGives_pure
        (hset _ _ _ hs (me_int (b := 2 ^ 32) (by decide) (by omega)))
    · refine rdGives_u8.bind fun a ha => rdGives_u8.bind fun b hb => rdGives_u8.bind fun c hc =>
        rdGives_pure (inv_setAll hset hs fun p hp => ?_)
      simp only [List.mem_cons, List.not_mem_nil, or_false] at hp
      rcases hp with rfl | rfl | rfl <;> dsimp only <;> exact me_int (b := 256) (by decide) (by omega)
  · unfold rdExtLines
    split
    · refine (rdGives_true _).bind fun line _ => (rdGives_true _).bind fun point _ => rdGives_u8.bind fun t ht =>
        rdGives_pure (hset _ _ _ (inv_setDbl hset (inv_setDbl hset hh (me_frac (by decide))) (me_frac (by decide)))
          (me_int (b := 256) (by decide) (by omega)))
    · exact rdGives_pure hh
  · unfold rdExtRev3
    split
    · refine rdGives_u24.bind fun n hn => RdGives.bind (Q := I) ?_ fun h' hh' =>
        rdGives_u32.bind fun s hs => rdGives_u8.bind fun mv hmv => (rdGives_true _).bind fun _ _ =>
        rdGives_u8.bind fun u hu => rdGives_pure (inv_setAll hset hh' fun p hp => ?_)
      · intro bs p hp
        unfold rdTraceNumber at hp
        have ha : I (Header.at h "TRACE_NUMBER").2 :=
          inv_at hset hh (me_int (v := 0) (b := 2 ^ 24) (by decide) (by decide))
        split at hp
        · rename_i v h' hv
          cases hp
          rw [hv] at ha
          dsimp only
          split
          · exact hset _ _ _ ha (me_int (b := 2 ^ 24) (by decide) (by omega))
          · exact ha
        · cases hp
      · simp only [List.mem_cons, List.not_mem_nil, or_false] at hp
        rcases hp with rfl | rfl | rfl <;> dsimp only
        · exact me_int (b := 2 ^ 32) (by decide) (by omega)
        · exact me_int (b := 256) (by decide) (by omega)
        · exact me_int (b := 256) (by decide) (by omega)
    · exact rdGives_pure hh

end

theorem good_std (rev : Int) {h : Header} (hh : CarriesOnly [] h) : RdGives (CarriesOnly []) (rdExtStd rev h) := by
  refine std_inv (fun h n v hh hv => hh.set ?_) rev hh
  cases v with
  | int i =>
    obtain ⟨b, h1, h2⟩ := hv
    exact .inl ⟨b, List.mem_append_right _ (by rw [if_pos rfl]; exact h1), h2⟩
  | dbl d => exact may_extFrac hv

theorem good_block (rev : Int) (m : ExtMap) (buf : Bytes) {h : Header} (hh : CarriesOnly m h) (i : Nat) :
    OutGives (CarriesOnly m) (readExtBlock rev m buf h i) := by
  unfold readExtBlock
  split
  · rename_i he
    have : m = [] := by simpa using he
    subst this
    split
    · exact (good_std rev hh buf).bind fun p hp => gives_ok hp
    · exact gives_ok hh
  · split
    · exact gives_err
    · rename_i fs hfs
      exact good_fields (List.mem_of_getElem? hfs) buf 0 hh

theorem good_loop (rev : Int) (m : ExtMap) (n i : Nat) {h : Header} (hh : CarriesOnly m h) :
    RdGives (CarriesOnly m) (readExtLoop rev m n i h) := by
  induction n generalizing i h with
  | zero => exact rdGives_pure hh
  | succ n ih =>
    intro bs
    unfold readExtLoop
    exact (gives_true _).bind fun p _ => (good_block rev m p.1 hh i).bind fun h' hh' => ih _ hh' _

theorem gives_onRest {α : Type} {Q : α → Prop} {r : Rd α} (s : ISegd) (h : RdGives Q r) :
    OutGives (fun p => Q p.1) (s.onRest r) := by
  intro p hp
  rw [onRest_eq] at hp
  have hg := h (s.file.data.drop s.file.pos)
  split at hp
  · rename_i a rest e
    cases hp
    exact hg _ e
  · cases hp

/-- The parts of reading a trace. -/
theorem body_parts {pw : Dbl → Dbl} {s s' : ISegd} {t : Trace} (h : readTraceBody pw s = .ok (t, s')) :
    ∃ b rest hdr rest' hx, readTraceHdrD b = .ok (hdr, rest) ∧
      (∃ n bs, intOf hdr "TR_HDR_EXT" = .ok n ∧
        readExtLoop s.gh2.segdRevMajor s.extMap n.toNat 0 hdr bs = .ok (hx, rest')) ∧
      t.header = (Header.at (Header.at hx "SCAN_TYPE_NUM").2 "CH_SET_NUM").2 ∧
      ∃ c n d s1 s2, sampNumD c t.header = .ok n ∧
        ISegd.onRest s1 (readSamplesD s.gh1.formatCode d n) = .ok (t.samples, s2) := by
  unfold readTraceBody at h
  obtain ⟨⟨b, s1⟩, h1, h⟩ := bind_ok h
  obtain ⟨-, -, e1⟩ := fill_ok h1
  obtain ⟨⟨hdr, rest⟩, h2, h⟩ := bind_ok h
  obtain ⟨⟨hx, s2⟩, h3, h⟩ := bind_ok h
  obtain ⟨p2, e2, -⟩ := onRest_ok h3
  obtain ⟨⟨c, h'⟩, h4, h⟩ := bind_ok h
  obtain ⟨n, h5, h⟩ := bind_ok h
  obtain ⟨⟨xs, s3⟩, h6, h⟩ := bind_ok h
  cases h
  subst e1
  subst e2
  rw [onRest_eq] at h3
  split at h3
  · rename_i a rest' e
    cases h3
    unfold readExt at e
    obtain ⟨k, k1, k2⟩ := bind_ok e
    unfold ISegd.chSetOf at h4
    obtain ⟨sets, -, h4⟩ := bind_ok h4
    obtain ⟨c', -, h4⟩ := bind_ok h4
    cases h4
    exact ⟨b, rest, hdr, rest', hx, h2, ⟨k, _, k1, k2⟩, rfl, c, n, _, _, _, h5, h6⟩
  · cases h3

/-- Everything a trace carries. -/
theorem body_good {pw : Dbl → Dbl} {s s' : ISegd} {t : Trace} (h : readTraceBody pw s = .ok (t, s')) :
    CarriesOnly s.extMap t.header := by
  obtain ⟨b, rest, hdr, rest', hx, h1, ⟨n, bs, -, h2⟩, h3, -⟩ := body_parts h
  rw [h3]
  have g1 : CarriesOnly s.extMap hdr := good_traceHdr s.extMap b _ h1
  have g2 : CarriesOnly s.extMap hx := good_loop s.gh2.segdRevMajor s.extMap n.toNat 0 g1 bs _ h2
  exact (g2.at (may_int (v := 0) (b := 166) (by decide) (by decide))).at
    (may_int (v := 0) (b := 2 ^ 16) (by decide) (by decide))

/-- From the traces one by one to all of them. -/
theorem readMany_all {pw : Dbl → Dbl} {P : Trace → Prop} {m : ExtMap}
    (hP : ∀ s s' t, s.extMap = m → readTraceBody pw s = .ok (t, s') → P t) {n : Nat} {s e : ISegd} {ts : List Trace}
    (hm : s.extMap = m) (h : readManyD pw n s = .ok (ts, e)) : ts.length = n ∧ ∀ t ∈ ts, P t := by
  induction n generalizing s ts with
  | zero => cases h; exact ⟨rfl, nofun⟩
  | succ n ih =>
    obtain ⟨⟨t, s1⟩, h1, h⟩ := bind_ok h
    obtain ⟨⟨ts', s2⟩, h2, h⟩ := bind_ok h
    cases h
    obtain ⟨p, c1, -, c2⟩ := readTraceD_cases h1
    have hm1 : s1.extMap = m := by
      rcases c2 with ⟨-, rfl⟩ | ⟨-, -, rfl⟩ | ⟨-, -, c3⟩
      · exact hm
      · exact hm
      · rw [(readHeaders_ok c3).2.1]; exact hm
    obtain ⟨l, hl⟩ := ih hm1 h2
    refine ⟨by simp [l], fun t' ht => ?_⟩
    rcases List.mem_cons.1 ht with rfl | ht
    · exact hP _ _ _ hm c1
    · exact hl t' ht

/-! ## Values with a binary point from extension maps -/

/-- The header has a value with a binary point under the name. -/
def IsDbl (h : Header) (n : String) : Prop := ∃ d, h.get n = some (.dbl d)

theorem at_keep {h : Header} {n : String} {v : Value} (k : String) (hv : h.get n = some v) :
    (Header.at h k).2.get n = some v := by
  unfold Header.at
  split
  · exact hv
  · rename_i hk
    rw [get_set]
    split
    · rename_i e
      subst e
      rw [hk] at hv
      cases hv
    · exact hv

theorem kind_dbl {ty : VType} {v : Value} (h : KindOf ty v) (hty : intKind ty = none) : ∃ d, v = .dbl d := by
  cases v with
  | int i => exact absurd hty h
  | dbl d => exact ⟨d, rfl⟩

theorem block_dbl {rev : Int} {m : ExtMap} (hm : m ≠ []) {n : String}
    (hk : ∀ f ∈ m.flatten, f.name = n → intKind f.ty = none) (buf : Bytes) {h : Header} {i : Nat}
    (hh : IsDbl h n ∨ ∃ fs, m[i]? = some fs ∧ n ∈ fs.map (·.name)) :
    OutGives (IsDbl · n) (readExtBlock rev m buf h i) := by
  unfold readExtBlock
  rw [if_neg (by simpa using hm)]
  split
  · exact gives_err
  · rename_i fs hfs
    intro h' hr
    rcases extFields_get buf fs 0 h h' hr n with ⟨h1, h2⟩ | ⟨f, h1, h2, v, h3, h4⟩
    · rcases hh with ⟨d, hd⟩ | ⟨fs', e1, e2⟩
      · exact ⟨d, by rw [h2]; exact hd⟩
      · rw [hfs] at e1
        cases e1
        exact absurd e2 h1
    · obtain ⟨d, rfl⟩ := kind_dbl h3 (hk f (List.mem_flatten.2 ⟨fs, List.mem_of_getElem? hfs, h1⟩) h2)
      exact ⟨d, h4⟩

theorem loop_dbl {rev : Int} {m : ExtMap} (hm : m ≠ []) {n : String}
    (hk : ∀ f ∈ m.flatten, f.name = n → intKind f.ty = none) (c i : Nat) {h : Header}
    (hh : IsDbl h n ∨ ∃ j fs, i ≤ j ∧ j < i + c ∧ m[j]? = some fs ∧ n ∈ fs.map (·.name)) :
    RdGives (IsDbl · n) (readExtLoop rev m c i h) := by
  induction c generalizing i h with
  | zero =>
    rcases hh with hh | ⟨j, fs, h1, h2, -⟩
    · exact rdGives_pure hh
    · omega
  | succ c ih =>
    intro bs
    unfold readExtLoop
    refine (gives_true _).bind fun p _ => ?_
    by_cases hb : IsDbl h n ∨ ∃ fs, m[i]? = some fs ∧ n ∈ fs.map (·.name)
    · exact (block_dbl hm hk p.1 hb).bind fun h' hh' => ih _ (.inl hh') _
    · refine (gives_true _).bind fun h' _ => ih _ (.inr ?_) _
      rcases hh with hh | ⟨j, fs, h1, h2, h3, h4⟩
      · exact absurd (.inl hh) hb
      · refine ⟨j, fs, ?_, by omega, h3, h4⟩
        rcases Nat.lt_or_ge i j with h | h
        · exact h
        · have : j = i := by omega
          subst this
          exact absurd (.inr ⟨fs, h3, h4⟩) hb

theorem block_other {rev : Int} {m : ExtMap} {n : String} (hn : n ∉ m.flatten.map (·.name))
    (hn' : m = [] → n ∉ extInts.map (·.1) ++ extFractions) (buf : Bytes) (h : Header) (i : Nat) :
    OutGives (fun h' => h'.get n = h.get n) (readExtBlock rev m buf h i) := by
  unfold readExtBlock
  split
  · rename_i he
    split
    · refine (std_inv (I := fun h' => h'.get n = h.get n) (fun h1 k v e hv => ?_) rev rfl buf).bind fun p hp => gives_ok hp
      rw [get_set, if_neg, e]
      rintro rfl
      refine hn' (by simpa using he) ?_
      cases v with
      | int j =>
        obtain ⟨b, hb, -⟩ := hv
        exact List.mem_append_left _ (List.mem_map.2 ⟨_, hb, rfl⟩)
      | dbl d => exact List.mem_append_right _ hv
    · exact gives_ok rfl
  · split
    · exact gives_err
    · rename_i fs hfs
      intro h' hr
      rcases extFields_get buf fs 0 h h' hr n with ⟨-, h2⟩ | ⟨f, h1, h2, -⟩
      · exact h2
      · exact absurd (List.mem_map.2 ⟨f, List.mem_flatten.2 ⟨fs, List.mem_of_getElem? hfs, h1⟩, h2⟩) hn

theorem loop_other {rev : Int} {m : ExtMap} {n : String} (hn : n ∉ m.flatten.map (·.name))
    (hn' : m = [] → n ∉ extInts.map (·.1) ++ extFractions) (c i : Nat) (h : Header) :
    RdGives (fun h' => h'.get n = h.get n) (readExtLoop rev m c i h) := by
  induction c generalizing i h with
  | zero => exact rdGives_pure rfl
  | succ c ih =>
    intro bs
    unfold readExtLoop
    refine (gives_true _).bind fun p _ => ?_
    exact (block_other hn hn' p.1 h i).bind fun h' hh' q hq => by
      rw [← hh']
      exact ih (i + 1) h' _ q hq

/-- The number of extension blocks of a trace is the one in its header. -/
theorem ext_count {m : ExtMap} {hdr hx : Header} {b bs rest rest' : Bytes} {rev c k : Int} {n : Nat}
    (h1 : readTraceHdrD b = .ok (hdr, rest)) (h0 : intOf hdr "TR_HDR_EXT" = .ok c)
    (h2 : readExtLoop rev m n 0 hdr bs = .ok (hx, rest')) (hx' : "TR_HDR_EXT" ∉ m.flatten.map (·.name))
    (hc : (Header.at (Header.at hx "SCAN_TYPE_NUM").2 "CH_SET_NUM").2.get "TR_HDR_EXT" = some (.int k)) : c = k := by
  have g1 : CarriesOnly m hdr := good_traceHdr m b _ h1
  have e1 : hx.get "TR_HDR_EXT" = hdr.get "TR_HDR_EXT" := loop_other hx' (fun _ => by decide) _ _ hdr bs _ h2
  cases hg : hdr.get "TR_HDR_EXT" with
  | none => exact absurd hg (g1.2 "TR_HDR_EXT" (by decide))
  | some v =>
    rw [hg] at e1
    rw [at_keep _ (at_keep _ e1)] at hc
    cases hc
    unfold intOf at h0
    rw [hg] at h0
    cases h0
    rfl

/-- A name in the block `j` of the map is a value with a binary point in traces that have this block. -/
theorem body_dbl {pw : Dbl → Dbl} {s s' : ISegd} {t : Trace} (h : readTraceBody pw s = .ok (t, s')) {n : String}
    (hk : ∀ f ∈ s.extMap.flatten, f.name = n → intKind f.ty = none)
    (hx : "TR_HDR_EXT" ∉ s.extMap.flatten.map (·.name)) {j : Nat} {fs : List HField} (hj : s.extMap[j]? = some fs)
    (hn : n ∈ fs.map (·.name)) {k : Int} (hc : t.header.get "TR_HDR_EXT" = some (.int k)) (hjk : (j : Int) < k) :
    IsDbl t.header n := by
  have hm : s.extMap ≠ [] := by
    intro e
    rw [e] at hj
    cases hj
  obtain ⟨b, rest, hdr, rest', hx', h1, ⟨c, bs, h0, h2⟩, h3, -⟩ := body_parts h
  have e2 : c = k := ext_count h1 h0 h2 hx (by rw [← h3]; exact hc)
  subst e2
  obtain ⟨d, hd⟩ : IsDbl hx' n := loop_dbl hm hk _ _ (.inr ⟨j, fs, by omega, by omega, hj, hn⟩) bs _ h2
  exact ⟨d, by rw [h3]; exact at_keep _ (at_keep _ hd)⟩

/-- Traces without extension blocks have the names of the trace header only. -/
theorem body_bare {pw : Dbl → Dbl} {s s' : ISegd} {t : Trace} (h : readTraceBody pw s = .ok (t, s'))
    (hc : t.header.get "TR_HDR_EXT" = some (.int 0)) (hx : "TR_HDR_EXT" ∉ s.extMap.flatten.map (·.name))
    {n : String} (hn' : n ∉ traceInts.map (·.1) ++ traceFractions) : t.header.get n = none := by
  obtain ⟨b, rest, hdr, rest', hx', h1, ⟨c, bs, h0, h2⟩, h3, -⟩ := body_parts h
  have g1 : CarriesOnly [[]] hdr := good_traceHdr [[]] b _ h1
  have none_of : ∀ h : Header, CarriesOnly [[]] h → h.get n = none := by
    intro h hh
    cases hg : h.get n with
    | none => rfl
    | some v =>
      have := hh.1 n v hg
      cases v with
      | int i =>
        rcases this with ⟨q, k1, -⟩ | ⟨f, k1, -⟩
        · simp only [reduceCtorEq, if_false, List.append_nil] at k1
          exact absurd (List.mem_append_left _ (List.mem_map.2 ⟨_, k1, rfl⟩)) hn'
        · simp at k1
      | dbl d =>
        rcases this with k1 | ⟨f, k1, -⟩
        · simp only [reduceCtorEq, if_false, List.append_nil] at k1
          exact absurd (List.mem_append_right _ k1) hn'
        · simp at k1
  have e2 : c = 0 := ext_count h1 h0 h2 hx (by rw [← h3]; exact hc)
  subst e2
  cases h2
  rw [h3]
  exact none_of _ ((g1.at (may_int (v := 0) (b := 166) (by decide) (by decide))).at
    (may_int (v := 0) (b := 2 ^ 16) (by decide) (by decide)))

theorem fields_dbl {est : LogEst} {bo : ByteOrder} {h : Header} {fs : List HField} {f : HField} (hf : f ∈ fs)
    (hd : IsDbl h f.name) (buf out : Bytes) : writeFields est bo h fs buf ≠ .ok out := by
  induction fs generalizing buf with
  | nil => cases hf
  | cons g t ih =>
    intro hw
    unfold writeFields at hw
    obtain ⟨v, h1, hw⟩ := bind_ok hw
    obtain ⟨bs, h2, hw⟩ := bind_ok hw
    obtain ⟨buf', h3, hw⟩ := bind_ok hw
    rcases List.mem_cons.1 hf with rfl | hf
    · obtain ⟨d, hd⟩ := hd
      unfold intOf at h1
      rw [hd] at h1
      cases h1
    · exact ih hf _ hw

theorem put_dbl {est : LogEst} {w w' : Writer} {h : Header} {b : HBlock} (hb : w.map.head? = some b) {f : HField}
    (hf : f ∈ b.fields) (hd : IsDbl h f.name) : putTraceHeader est w h ≠ .ok w' := by
  intro hw
  unfold putTraceHeader writeTraceHeader at hw
  obtain ⟨buf, h1, -⟩ := bind_ok hw
  obtain ⟨buf0, -, h1⟩ := bind_ok h1
  cases hm : w.map with
  | nil => rw [hm] at hb; cases hb
  | cons b' t =>
    rw [hm] at hb h1
    cases hb
    exact fields_dbl hf hd _ _ h1

theorem auto_keeps {o : Bool} {w w' : Writer} {h : Header} (ha : autoHdrs o w h = .ok w') : w'.map = w.map ∧ w'.bh.fixedTrLength = w.bh.fixedTrLength := by
  unfold autoHdrs at ha
  split at ha
  · unfold setMinHdrs at ha
    split at ha
    · obtain ⟨n, -, ha⟩ := bind_ok ha
      split at ha
      · cases ha
      · obtain ⟨d, -, ha⟩ := bind_ok ha
        split at ha
        · cases ha
        · obtain ⟨si, -, ha⟩ := bind_ok ha
          split at ha
          · cases ha
          · obtain ⟨size, -, ha⟩ := bind_ok ha
            obtain ⟨samp, -, ha⟩ := bind_ok ha
            cases ha
            exact ⟨rfl, rfl⟩
    · cases ha; exact ⟨rfl, rfl⟩
  · cases ha; exact ⟨rfl, rfl⟩

theorem put_keeps {est : LogEst} {w w' : Writer} {h : Header} (hw : putTraceHeader est w h = .ok w') : w'.bh = w.bh := by
  unfold putTraceHeader at hw
  obtain ⟨buf, -, hw⟩ := bind_ok hw
  cases hw
  rfl

theorem add_keeps {est : LogEst} {w w' : Writer} {h : Header} (hw : addHdrs est w h = .ok w') : w'.bh = w.bh := by
  unfold addHdrs at hw
  split at hw
  · unfold putAdditional at hw
    obtain ⟨buf, -, hw⟩ := bind_ok hw
    cases hw
    rfl
  · cases hw; rfl

theorem var_needs {est : LogEst} {w w' : Writer} {t : Trace} (hn : t.header.get "SAMP_NUM" = none) :
    writeSamplesVar est w t ≠ .ok w' := by
  intro h
  unfold writeSamplesVar at h
  obtain ⟨n, h1, -⟩ := bind_ok h
  unfold needInt at h1
  rw [hn] at h1
  cases h1

/-! ## All traces of a file -/

theorem opened_map {data : Bytes} {m : ExtMap} {s : ISegd} (h : openSegd data m = .ok s) : s.extMap = m :=
  (readHeaders_ok h).2.1

/-- From `readTraceBody` to the traces of a file. -/
theorem from_body {pw : Dbl → Dbl} {data : Bytes} {m : ExtMap} {ts : List Trace} (hr : ReadFrom pw data m ts)
    {t : Trace} (ht : t ∈ ts) : ∃ s s', s.extMap = m ∧ readTraceBody pw s = .ok (t, s') := by
  obtain ⟨s, e, h1, h2⟩ := hr
  exact (readMany_all (P := fun t => ∃ s s', s.extMap = m ∧ readTraceBody pw s = .ok (t, s'))
    (fun s s' t hm h => ⟨s, s', hm, h⟩) (opened_map h1) h2).2 t ht

theorem from_carries {pw : Dbl → Dbl} {data : Bytes} {m : ExtMap} {ts : List Trace} (hr : ReadFrom pw data m ts)
    {t : Trace} (ht : t ∈ ts) : CarriesOnly m t.header := by
  obtain ⟨s, s', rfl, h⟩ := from_body hr ht
  exact body_good h

/-- The number of samples agrees with the header. -/
theorem from_count {pw : Dbl → Dbl} {data : Bytes} {m : ExtMap} {ts : List Trace} (hr : ReadFrom pw data m ts)
    {t : Trace} (ht : t ∈ ts) {v : Int} (hv : t.header.get "SAMP_NUM" = some (.int v)) :
    t.samples.length = toU 4 v := by
  obtain ⟨s, s', rfl, h⟩ := from_body hr ht
  obtain ⟨-, -, -, -, -, -, -, -, c, n, d, s1, s2, h1, h2⟩ := body_parts h
  unfold sampNumD at h1
  rw [hv] at h1
  cases h1
  rw [onRest_eq] at h2
  split at h2
  · rename_i e
    cases h2
    exact rdSamplesD_count e
  · cases h2

theorem carried_int {m : ExtMap} {fs : List HField} (hi : OnlyIntegers m fs) {h : Header} (hc : CarriesOnly m h)
    {f : HField} (hf : f ∈ fs) : ∃ v, headerInt h f.name v := by
  obtain ⟨-, h1, h2, h3⟩ := hi f hf
  cases hg : h.get f.name with
  | none => exact ⟨0, .inr ⟨hg, rfl⟩⟩
  | some v =>
    cases v with
    | int i => exact ⟨i, .inl hg⟩
    | dbl d =>
      exfalso
      rcases hc.1 _ _ hg with k | ⟨g, k1, k2, k3⟩
      · rcases List.mem_append.1 k with k | k
        · exact h1 k
        · split at k
          · rename_i e
            exact h2 e k
          · cases k
      · exact h3 g k1 k2 k3

theorem from_storable {pw : Dbl → Dbl} {data : Bytes} {m : ExtMap} {ts : List Trace} (hr : ReadFrom pw data m ts)
    {t : Trace} (ht : t ∈ ts) {fs : List HField} (hi : OnlyIntegers m fs) (est : LogEst) (bo : ByteOrder) {fmt : Int}
    (hfmt : ∀ x, ∃ y, ComesBack est fmt bo x y) (hs : t.samples.length < 2 ^ 60) : Storable est fmt bo fs t := by
  refine ⟨fun f hf => ?_, fun x _ => hfmt x, hs⟩
  obtain ⟨v, hv⟩ := carried_int hi (from_carries hr ht) hf
  exact ⟨v, hv, fun e => absurd e (hi f hf).1⟩

theorem known_small {pw : Dbl → Dbl} {data : Bytes} {m : ExtMap} {ts : List Trace} (hr : ReadFrom pw data m ts)
    {t : Trace} (ht : t ∈ ts) {bh : BinHeader} {fs : List HField} (hk : LengthKnown bh fs t) :
    t.samples.length < 2 ^ 60 := by
  unfold LengthKnown at hk
  split at hk
  · omega
  · have := from_count hr ht hk.1
    unfold toU at this
    omega

end Sedaman
