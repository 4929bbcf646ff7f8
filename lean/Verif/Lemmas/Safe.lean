import Verif.Spec.Safe
import Verif.Lemmas.Open

/-!
# Defined behaviour: composition
-/

namespace Sedaman

open Spec

theorem defined_ok {α : Type} (a : α) : Defined (.ok a : Out α) := by intro u h; cases h

theorem defined_exn {α : Type} (e : Exn) : Defined (throwExn e : Out α) := by intro u h; cases h

theorem Spec.Defined.bind {α β : Type} {x : Out α} {f : α → Out β} (hx : Defined x)
    (hf : ∀ a, x = .ok a → Defined (f a)) : Defined (x >>= f) := by
  match x, hx, hf with
  | .ok a, _, hf => exact hf a rfl
  | .error (.exn e), _, _ => exact defined_exn e
  | .error (.ub u), hx, _ => exact absurd rfl (hx u)

theorem Spec.Defined.ite {α : Type} {c : Prop} [Decidable c] {x y : Out α} (hx : c → Defined x)
    (hy : ¬ c → Defined y) : Defined (if c then x else y) := by
  split
  · exact hx ‹_›
  · exact hy ‹_›

theorem defined_read (f : File) (n : Nat) : Defined (f.read n) := by
  unfold File.read
  exact .ite (fun _ => defined_ok _) (fun _ => defined_exn _)

theorem defined_seek (f : File) (p : Int) : Defined (f.seek p) := by
  unfold File.seek
  exact .ite (fun _ => defined_exn _) (fun _ => defined_ok _)

theorem defined_seekCur (f : File) (p : Int) : Defined (f.seekCur p) := defined_seek _ _

theorem defined_seekEnd (f : File) (p : Int) : Defined (f.seekEnd p) := defined_seek _ _

theorem defined_mulInt32 {a b : Int} (h : -2 ^ 31 ≤ a * b ∧ a * b < 2 ^ 31) : Defined (mulInt32 a b) := by
  unfold mulInt32; rw [if_pos h]; exact defined_ok _

theorem defined_resizeVec (b : Bytes) (n : Nat) : Defined (resizeVec b n) := by
  unfold resizeVec
  exact .ite (fun _ => defined_exn _) (fun _ => defined_ok _)

theorem defined_readUntilEnd (n : Nat) (f : File) : Defined (readUntilEnd n f) := by
  induction n generalizing f with
  | zero => exact defined_exn _
  | succ n ih =>
    exact (defined_read f _).bind fun p _ => .ite (fun _ => defined_ok _)
      (fun _ => (ih _).bind fun _ _ => defined_ok _)

theorem defined_readRecords (n : Nat) (f : File) : Defined (readRecords n f) := by
  induction n generalizing f with
  | zero => exact defined_ok _
  | succ n ih =>
    exact (defined_read f _).bind fun p _ => (ih _).bind fun _ _ => defined_ok _

theorem defined_readExtText (n : Int) (f : File) : Defined (readExtText n f) :=
  .ite (fun _ => defined_ok _) fun _ => .ite (fun _ => defined_readUntilEnd _ _)
    fun _ => defined_readRecords _ _

theorem defined_checkFields (p s : Nat) (fs : List HField) : Defined (checkFields p s fs) := by
  induction fs generalizing p s with
  | nil => exact defined_ok _
  | cons f t ih =>
    exact .ite (fun _ => defined_exn _) fun _ => .ite (fun _ => defined_exn _) fun _ => ih _ _

theorem defined_checkMap (bh : BinHeader) (m : HdrMap) : Defined (checkMap bh m) := by
  have hb : ∀ b, Defined (checkBlock b) := by
    intro b
    refine .ite (fun _ => defined_exn _) fun _ => ?_
    cases b.fields with
    | nil => exact defined_ok _
    | cons f t => exact defined_checkFields _ _ _
  have hbs : Defined (checkBlocks m) := by
    induction m with
    | nil => exact defined_ok _
    | cons b t ih => exact (hb b).bind fun _ _ => ih
  exact .ite (fun _ => defined_exn _) fun _ => hbs

/-! ## Cursors -/

/-- The reader needs at most `n` bytes. -/
def Needs {α : Type} (r : Rd α) (n : Nat) : Prop :=
  ∀ s : Bytes, n ≤ s.length → ∃ a s', r s = .ok (a, s') ∧ s.length ≤ s'.length + n

theorem Needs.bind {α β : Type} {x : Rd α} {f : α → Rd β} {a b : Nat} (hx : Needs x a)
    (hf : ∀ v, Needs (f v) b) : Needs (x >>= f) (a + b) := by
  intro s hs
  obtain ⟨v, s', h1, h2⟩ := hx s (by omega)
  obtain ⟨w, s'', h3, h4⟩ := hf v s' (by omega)
  refine ⟨w, s'', ?_, by omega⟩
  rw [rd_bind, h1]
  exact h3

theorem Needs.mono {α : Type} {x : Rd α} {a b : Nat} (h : Needs x a) (hab : a ≤ b) : Needs x b := by
  intro s hs
  obtain ⟨v, s', h1, h2⟩ := h s (by omega)
  exact ⟨v, s', h1, by omega⟩

theorem needs_pure {α : Type} (a : α) : Needs (pure a : Rd α) 0 := fun s _ => ⟨a, s, rfl, by omega⟩

theorem needs_rdBytes (n : Nat) : Needs (rdBytes n) n := fun s hs =>
  ⟨_, _, rdBytes_ok hs, by simp; omega⟩

theorem Needs.defined {α : Type} {r : Rd α} {n : Nat} (h : Needs r n) {s : Bytes} (hs : n ≤ s.length) :
    Defined (r s) := by
  obtain ⟨a, s', e, -⟩ := h s hs
  rw [e]; exact defined_ok _

theorem Needs.step {α β : Type} {x : Rd α} {f : α → Rd β} {a n : Nat} (hx : Needs x a) (ha : a ≤ n)
    (hf : ∀ v, Needs (f v) (n - a)) : Needs (x >>= f) n :=
  (hx.bind hf).mono (by omega)

theorem needs_readU (n : Nat) : Needs (readU n) n := (needs_rdBytes n).bind fun _ => needs_pure _
theorem needs_readS (n : Nat) : Needs (readS n) n := (needs_rdBytes n).bind fun _ => needs_pure _
theorem needs_readU8 : Needs readU8 1 := needs_readU 1
theorem needs_readI8 : Needs readI8 1 := needs_readS 1
theorem needs_readU16 (bo : ByteOrder) : Needs (readU16 bo) 2 := by
  cases bo
  · exact needs_readU 2
  · exact (needs_readU 2).bind fun _ => needs_pure _
theorem needs_readI16 (bo : ByteOrder) : Needs (readI16 bo) 2 := by
  cases bo
  · exact needs_readS 2
  · exact (needs_readS 2).bind fun _ => needs_pure _
theorem needs_readU24 (bo : ByteOrder) : Needs (readU24 bo) 3 := by
  cases bo <;> exact (needs_readU 2).bind fun _ => (needs_readU 1).bind fun _ => needs_pure _
theorem needs_readI24 (bo : ByteOrder) : Needs (readI24 bo) 3 := (needs_readU24 bo).bind fun _ => needs_pure _
theorem needs_readU32 (bo : ByteOrder) : Needs (readU32 bo) 4 := by
  cases bo
  · exact needs_readU 4
  · exact (needs_readU 4).bind fun _ => needs_pure _
theorem needs_readI32 (bo : ByteOrder) : Needs (readI32 bo) 4 := by
  cases bo
  · exact needs_readS 4
  · exact (needs_readS 4).bind fun _ => needs_pure _
theorem needs_readU64 (bo : ByteOrder) : Needs (readU64 bo) 8 := by
  cases bo
  · exact needs_readU 8
  · exact (needs_readU 8).bind fun _ => needs_pure _
theorem needs_readI64 (bo : ByteOrder) : Needs (readI64 bo) 8 := by
  cases bo
  · exact needs_readS 8
  · exact (needs_readS 8).bind fun _ => needs_pure _
theorem needs_double (bo : ByteOrder) : Needs (readIeeeDouble bo) 8 := (needs_readU64 bo).bind fun _ => needs_pure _
theorem needs_single (bo : ByteOrder) : Needs (readIeeeFloat bo) 4 := (needs_readU32 bo).bind fun _ => needs_pure _
theorem needs_ibm (bo : ByteOrder) : Needs (readIbm bo) 4 := (needs_readU32 bo).bind fun _ => needs_pure _

theorem needs_parseBinHeader (bo : ByteOrder) (init : BinHeader) : Needs (parseBinHeader bo init) 400 := by
  unfold parseBinHeader
  repeat' first
    | exact (needs_readI32 bo).step (by decide) fun _ => ?_
    | refine (needs_readI32 bo).step (by decide) fun _ => ?_
    | refine (needs_readI16 bo).step (by decide) fun _ => ?_
    | refine (needs_double bo).step (by decide) fun _ => ?_
    | refine (needs_readI64 bo).step (by decide) fun _ => ?_
    | refine (needs_readU64 bo).step (by decide) fun _ => ?_
    | refine needs_readU8.step (by decide) fun _ => ?_
    | refine (needs_rdBytes _).step (by decide) fun _ => ?_
    | exact (needs_pure _).mono (by decide)
    | split

theorem defined_byteOrderOf (m : Int) : Defined (byteOrderOf m) :=
  .ite (fun _ => defined_ok _) fun _ => .ite (fun _ => defined_ok _) fun _ => defined_exn _

theorem defined_fillBinHeader (init : BinHeader) (o : Bool) {buf : Bytes} (h : buf.length = 400) :
    Defined (fillBinHeader init o buf) := by
  unfold fillBinHeader
  exact (defined_byteOrderOf _).bind fun bo _ => .ite (fun _ => defined_ok _) fun _ =>
    ((needs_parseBinHeader bo _).defined (by omega)).bind fun _ _ => defined_ok _

theorem defined_readAt {α : Type} {buf : Bytes} {off n : Nat} {r : Rd α} (hr : Needs r n)
    (h : off + n ≤ buf.length) : Defined (readAt buf off r) := by
  unfold readAt
  rw [if_pos (by omega)]
  exact (hr.defined (by simp; omega)).bind fun _ _ => defined_ok _

theorem defined_skipVarTrace (bo : ByteOrder) (ma : Int) (bps : Nat) (f : File) :
    Defined (skipVarTrace bo ma bps f) := by
  unfold skipVarTrace
  refine (defined_read f _).bind fun p hp => ?_
  obtain ⟨b, g⟩ := p
  have hl := (read_ok hp).2.1
  simp only [trHeaderSize] at hl
  refine (defined_readAt (needs_readI16 bo) (by omega)).bind fun n _ => ?_
  refine .ite (fun _ => ?_) fun _ => defined_seekCur _ _
  refine (defined_read g _).bind fun p hp => ?_
  obtain ⟨b, g⟩ := p
  have hl := (read_ok hp).2.1
  simp only [trHeaderSize] at hl
  refine (defined_readAt (needs_readU32 bo) (by omega)).bind fun n _ => ?_
  refine (defined_readAt (needs_readU16 bo) (by omega)).bind fun n _ => ?_
  exact (defined_seekCur _ _).bind fun _ _ => defined_seekCur _ _

theorem defined_skipVarTraces (bo : ByteOrder) (ma : Int) (bps : Nat) (n : Nat) (f : File) :
    Defined (skipVarTraces bo ma bps n f) := by
  induction n generalizing f with
  | zero => exact defined_ok _
  | succ n ih => exact (defined_skipVarTrace _ _ _ _).bind fun _ _ => ih _

theorem defined_readTrailers (bo : ByteOrder) (bh : BinHeader) (bps : Nat)
    (hb : bytesPerSample bh.formatCode = some bps) (hs : SizesFit bh) (f : File) :
    Defined (readTrailers bo bh (samplesPerTrace bh) bps f) := by
  unfold readTrailers
  refine .ite (fun _ => ?_) fun h => ?_
  · refine .ite (fun _ => defined_exn _) fun _ => .ite (fun _ => ?_) fun _ => ?_
    · refine (defined_mulInt32 (by rw [mul_comm]; exact hs.1 _ hb)).bind fun _ _ => ?_
      exact (defined_seekCur _ _).bind fun _ _ => (defined_readUntilEnd _ _).bind fun _ _ => defined_ok _
    · exact (defined_skipVarTraces _ _ _ _ _).bind fun _ _ =>
        (defined_readUntilEnd _ _).bind fun _ _ => defined_ok _
  · refine (defined_mulInt32 (hs.2 h)).bind fun _ _ => ?_
    exact (defined_seekEnd _ _).bind fun _ _ => (defined_readRecords _ _).bind fun _ _ => defined_ok _

theorem defined_sampleReader (fmt : Int) : Defined (sampleReader fmt) := by
  unfold sampleReader
  split <;> first | exact defined_ok _ | exact defined_exn _

theorem needs_readField (bo : ByteOrder) (t : VType) : Needs (readField bo t) t.size := by
  cases t <;> unfold readField VType.size
  · exact needs_readI8.bind fun _ => needs_pure _
  · exact needs_readU8.bind fun _ => needs_pure _
  · exact (needs_readI16 bo).bind fun _ => needs_pure _
  · exact (needs_readU16 bo).bind fun _ => needs_pure _
  · exact (needs_readI24 bo).bind fun _ => needs_pure _
  · exact (needs_readU24 bo).bind fun _ => needs_pure _
  · exact (needs_readI32 bo).bind fun _ => needs_pure _
  · exact (needs_readU32 bo).bind fun _ => needs_pure _
  · exact (needs_readI64 bo).bind fun _ => needs_pure _
  · exact (needs_readU64 bo).bind fun _ => needs_pure _
  · exact (needs_ibm bo).bind fun _ => needs_pure _
  · exact (needs_single bo).bind fun _ => needs_pure _
  · exact (needs_double bo).bind fun _ => needs_pure _

theorem defined_readFields (bo : ByteOrder) (fs : List HField) (h : ∀ f ∈ fs, f.off + f.ty.size ≤ 240)
    {buf : Bytes} (hl : buf.length = 240) (acc : Header) : Defined (readFields bo fs buf acc) := by
  induction fs generalizing acc with
  | nil => exact defined_ok _
  | cons f t ih =>
    exact (defined_readAt (needs_readField bo f.ty) (by rw [hl]; exact h f (by simp))).bind fun _ _ =>
      ih (fun g hg => h g (by simp [hg])) _

theorem defined_readBlocks (bo : ByteOrder) {m : HdrMap} (hm : MapInBounds m) (n i : Nat) (f : File)
    (acc : Header) : Defined (readBlocks bo m n i f acc) := by
  induction n generalizing i f acc with
  | zero => exact defined_ok _
  | succ n ih =>
    unfold readBlocks
    split
    · rename_i b hb
      refine (defined_read f _).bind fun p hp => ?_
      obtain ⟨b', g⟩ := p
      have hl := (read_ok hp).2.1
      exact (defined_readFields bo _ (hm b (List.mem_of_getElem? hb)) hl _).bind fun _ _ => ih _ _ _
    · exact (defined_seekCur _ _).bind fun _ _ => ih _ _ _

theorem defined_sampNum (h : Header) : Defined (sampNum h) := by
  unfold sampNum
  split <;> first | exact defined_ok _ | exact defined_exn _

/-! ## Enough iterations

The `while (1)` loops of the code are modelled with a number of iterations that depends on the size of
the file. More iterations would not change anything. -/

theorem records_step {f : File} {n : Nat} (h : f.pos + 3200 ≤ f.data.length) (hn : f.records ≤ n + 1) :
    File.records ⟨f.data, f.pos + 3200⟩ ≤ n := by
  unfold File.records at *
  simp only [textHeaderSize] at *
  have : (f.data.length - f.pos) / 3200 = (f.data.length - (f.pos + 3200)) / 3200 + 1 := by
    rw [show f.data.length - f.pos = f.data.length - (f.pos + 3200) + 3200 by omega]
    simp
  omega

theorem records_last {f : File} (h : ¬ f.pos + 3200 ≤ f.data.length) : f.read 3200 = throwExn .iosFailure :=
  read_fail (by decide) (by omega)

theorem readUntilEnd_fuel (n k : Nat) (f : File) (h : f.records ≤ n) :
    readUntilEnd (n + k) f = readUntilEnd n f := by
  induction n generalizing f with
  | zero => exact absurd h (by unfold File.records; exact Nat.not_succ_le_zero _)
  | succ n ih =>
    rw [show n + 1 + k = (n + k) + 1 by omega]
    unfold readUntilEnd
    by_cases hl : f.pos + 3200 ≤ f.data.length
    · obtain ⟨⟨b, g⟩, hp⟩ := (read_iff f textHeaderSize).2 (.inr (by simpa [textHeaderSize] using hl))
      obtain ⟨-, -, rfl⟩ := read_ok hp
      rw [hp, ok_bind, ok_bind]
      simp only
      rw [ih _ (records_step hl h)]
    · rw [show textHeaderSize = 3200 from rfl, records_last hl]
      rfl

theorem readRecords_fuel (n : Nat) (f : File) (h : f.records ≤ n) :
    readRecords n f = throwExn .iosFailure := by
  induction n generalizing f with
  | zero => exact absurd h (by unfold File.records; exact Nat.not_succ_le_zero _)
  | succ n ih =>
    unfold readRecords
    by_cases hl : f.pos + 3200 ≤ f.data.length
    · obtain ⟨⟨b, g⟩, hp⟩ := (read_iff f textHeaderSize).2 (.inr (by simpa [textHeaderSize] using hl))
      obtain ⟨-, -, rfl⟩ := read_ok hp
      rw [hp, ok_bind]
      simp only
      rw [ih _ (records_step hl h)]
      rfl
    · rw [show textHeaderSize = 3200 from rfl, records_last hl]
      rfl

end Sedaman
