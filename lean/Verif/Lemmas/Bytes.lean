import Verif.Model.Basic

/-! # Lemmas about the host integer representation and outcomes -/

namespace Sedaman

@[simp] theorem ok_bind {α β : Type} (a : α) (f : α → Out β) :
    (Except.ok a >>= f) = f a := rfl

@[simp] theorem error_bind {α β : Type} (e : Err) (f : α → Out β) :
    ((Except.error e : Out α) >>= f) = Except.error e := rfl

@[simp] theorem pure_eq_ok {α : Type} (a : α) : (pure a : Out α) = Except.ok a := rfl

@[simp] theorem isUb_bind {α β : Type} (u : Ub) (f : α → Out β) :
    ((isUb u : Out α) >>= f) = isUb u := rfl

@[simp] theorem throwExn_bind {α β : Type} (u : Exn) (f : α → Out β) :
    ((throwExn u : Out α) >>= f) = throwExn u := rfl

theorem isUb_ne_ok {α : Type} (u : Ub) (a : α) : (isUb u : Out α) ≠ .ok a := by
  simp [isUb]

theorem throwExn_ne_ok {α : Type} (u : Exn) (a : α) : (throwExn u : Out α) ≠ .ok a := by
  simp [throwExn]

@[simp] theorem isUb_eq_ok_iff {α : Type} (u : Ub) (a : α) : ((isUb u : Out α) = .ok a) ↔ False := by
  simp [isUb]

@[simp] theorem throwExn_eq_ok_iff {α : Type} (u : Exn) (a : α) :
    ((throwExn u : Out α) = .ok a) ↔ False := by
  simp [throwExn]

theorem bind_eq_ok {α β : Type} {x : Out α} {f : α → Out β} {b : β} :
    (x >>= f) = .ok b ↔ ∃ a, x = .ok a ∧ f a = .ok b := by
  cases x with
  | error e => simp
  | ok a => simp

/-- Applying a reader bind. -/
theorem rd_bind {α β : Type} (x : Rd α) (f : α → Rd β) (s : Bytes) :
    (x >>= f) s = (x s >>= fun p => f p.1 p.2) := rfl

theorem rd_pure {α : Type} (a : α) (s : Bytes) : (pure a : Rd α) s = .ok (a, s) := rfl

@[simp] theorem leBytes_length (n v : Nat) : (leBytes n v).length = n := by
  induction n generalizing v with
  | zero => rfl
  | succ n ih => simp [leBytes, ih]

theorem leVal_lt (bs : Bytes) : leVal bs < 256 ^ bs.length := by
  induction bs with
  | nil => simp [leVal]
  | cons b bs ih =>
    simp only [leVal, List.length_cons, Nat.pow_succ]
    have := b.isLt
    omega

theorem leVal_leBytes (n v : Nat) : leVal (leBytes n v) = v % 256 ^ n := by
  induction n generalizing v with
  | zero => simp [leBytes, leVal, Nat.mod_one]
  | succ n ih =>
    simp only [leBytes, leVal, ih, BitVec.toNat_ofNat]
    rw [Nat.pow_succ 256 n, Nat.mul_comm (256 ^ n) 256, Nat.mod_mul]

theorem leBytes_leVal (bs : Bytes) : leBytes bs.length (leVal bs) = bs := by
  induction bs with
  | nil => rfl
  | cons b bs ih =>
    simp only [List.length_cons, leBytes, leVal, List.cons.injEq]
    constructor
    · apply BitVec.eq_of_toNat_eq
      have := b.isLt
      simp only [BitVec.toNat_ofNat]
      omega
    · have : (b.toNat + 256 * leVal bs) / 256 = leVal bs := by
        have := b.isLt
        omega
      rw [this, ih]

theorem leBytes_leVal' {n : Nat} {bs : Bytes} (h : bs.length = n) :
    leBytes n (leVal bs) = bs := by
  subst h; exact leBytes_leVal bs

theorem leVal_append (a b : Bytes) : leVal (a ++ b) = leVal a + 256 ^ a.length * leVal b := by
  induction a with
  | nil => simp [leVal]
  | cons x a ih =>
    simp only [List.cons_append, leVal, ih, List.length_cons, Nat.pow_succ]
    rw [Nat.mul_add, ← Nat.add_assoc, Nat.mul_comm (256 ^ a.length) 256, Nat.mul_assoc]

theorem leBytes_mod (n v : Nat) : leBytes n (v % 256 ^ n) = leBytes n v := by
  have h1 := leBytes_leVal' (n := n) (bs := leBytes n v) (by simp)
  rw [leVal_leBytes] at h1
  exact h1

theorem leVal_inj {a b : Bytes} (hl : a.length = b.length) (h : leVal a = leVal b) : a = b := by
  rw [← leBytes_leVal a, ← leBytes_leVal b, hl, h]

theorem pow256_pos (n : Nat) : 0 < 256 ^ n := Nat.pow_pos (by decide)

theorem toU_lt (n : Nat) (v : Int) : toU n v < 256 ^ n := by
  unfold toU
  have h : (0 : Int) < ((256 ^ n : Nat) : Int) := by exact_mod_cast pow256_pos n
  have h1 := Int.emod_nonneg v (Int.ne_of_gt h)
  have h2 := Int.emod_lt_of_pos v h
  omega

theorem toU_cast (n : Nat) (v : Int) : ((toU n v : Nat) : Int) = v % ((256 ^ n : Nat) : Int) := by
  unfold toU
  have h : (0 : Int) < ((256 ^ n : Nat) : Int) := by exact_mod_cast pow256_pos n
  exact Int.toNat_of_nonneg (Int.emod_nonneg v (Int.ne_of_gt h))

theorem toU_natCast (n : Nat) (v : Nat) : toU n (v : Int) = v % 256 ^ n := by
  have := toU_cast n (v : Int)
  rw [← Int.natCast_emod] at this
  exact_mod_cast this

theorem toU_of_nat_lt {n v : Nat} (h : v < 256 ^ n) : toU n (v : Int) = v := by
  rw [toU_natCast, Nat.mod_eq_of_lt h]

/-- `v` fits a signed type of `n` bytes. -/
def FitsS (n : Nat) (v : Int) : Prop :=
  -((256 ^ n : Nat) : Int) ≤ 2 * v ∧ 2 * v < ((256 ^ n : Nat) : Int)

instance (n : Nat) (v : Int) : Decidable (FitsS n v) := by unfold FitsS; infer_instance

/-- `v` fits an unsigned type of `n` bytes. -/
def FitsU (n : Nat) (v : Int) : Prop := 0 ≤ v ∧ v < ((256 ^ n : Nat) : Int)

instance (n : Nat) (v : Int) : Decidable (FitsU n v) := by unfold FitsU; infer_instance

theorem toS_toU {n : Nat} {v : Int} (h : FitsS n v) : toS n (toU n v) = v := by
  obtain ⟨h1, h2⟩ := h
  have hp : (0 : Int) < ((256 ^ n : Nat) : Int) := by exact_mod_cast pow256_pos n
  have hlt := toU_lt n v
  unfold toS
  rw [Nat.mod_eq_of_lt hlt]
  have hc := toU_cast n v
  generalize toU n v = u at *
  generalize (256 ^ n : Nat) = m at *
  by_cases hv : 0 ≤ v
  · have : v % (m : Int) = v := Int.emod_eq_of_lt hv (by omega)
    rw [if_pos (by omega)]; omega
  · have : v % (m : Int) = v + m := by
      rw [← Int.add_emod_right]
      exact Int.emod_eq_of_lt (by omega) (by omega)
    rw [if_neg (by omega)]; omega

theorem toS_fits {n : Nat} (hn : 0 < n) (u : Nat) : FitsS n (toS n u) := by
  have he : 256 ^ n = 2 * (128 * 256 ^ (n - 1)) := by
    obtain ⟨k, rfl⟩ : ∃ k, n = k + 1 := ⟨n - 1, by omega⟩
    rw [Nat.pow_succ]; simp only [Nat.add_sub_cancel]; omega
  have hlt : u % 256 ^ n < 256 ^ n := Nat.mod_lt _ (pow256_pos n)
  unfold FitsS toS
  generalize u % 256 ^ n = x at *
  generalize 128 * 256 ^ (n - 1) = k at *
  generalize (256 ^ n : Nat) = m at *
  split <;> omega

theorem toU_toS (n u : Nat) : toU n (toS n u) = u % 256 ^ n := by
  have hlt : u % 256 ^ n < 256 ^ n := Nat.mod_lt _ (pow256_pos n)
  unfold toS
  split
  · rw [toU_of_nat_lt hlt]
  · have h1 := toU_cast n (((u % 256 ^ n : Nat) : Int) - ((256 ^ n : Nat) : Int))
    rw [Int.sub_emod_right] at h1
    rw [← Int.natCast_emod, Nat.mod_mod] at h1
    exact Int.natCast_inj.mp h1

theorem toU_fits {n : Nat} {v : Int} (h : FitsU n v) : ((toU n v : Nat) : Int) = v := by
  rw [toU_cast]; exact Int.emod_eq_of_lt h.1 h.2

/-- Reading exactly the bytes at the front of the buffer. -/
theorem rdBytes_append {n : Nat} {a : Bytes} (h : a.length = n) (rest : Bytes) :
    rdBytes n (a ++ rest) = .ok (a, rest) := by
  subst h
  simp [rdBytes]

theorem rdBytes_ok {n : Nat} {bs : Bytes} (h : n ≤ bs.length) :
    rdBytes n bs = .ok (bs.take n, bs.drop n) := by
  simp [rdBytes, h]

theorem rdBytes_ub {n : Nat} {bs : Bytes} (h : bs.length < n) :
    rdBytes n bs = isUb .outOfBounds := by
  simp [rdBytes, Nat.not_le.mpr h]

end Sedaman
