import Verif.Spec.Process
import Verif.Lemmas.SegdLocality

/-!
# Lemmas about a process with several objects
-/

namespace Sedaman

open Spec

theorem wrSamples_pass {w : SampleWr} (hw : ∀ p d c, w.put p d c = (w.put [] d c).map fun x => (p, x.2))
    (descale : Dbl) (xs : List Dbl) (p : List Dbl) (c : Cur) :
    wrSamples w descale xs p c = (wrSamples w descale xs [] c).map fun x => (p, x.2) := by
  induction xs generalizing p c with
  | nil => rfl
  | cons x t ih =>
    unfold wrSamples
    rw [wr_bind, wr_bind, hw p]
    cases h : w.put [] (ddiv x descale) c with
    | error e => rfl
    | ok y =>
      obtain ⟨q, c'⟩ := y
      simp only [Except.map, ok_bind]
      rw [ih p, ih q]
      cases wrSamples w descale t [] c' with
      | error e => rfl
      | ok z => rfl

theorem put_bytes_pass (f : Dbl → Out Bytes) (p : List Dbl) (d : Dbl) (c : Cur) :
    (SampleWr.bytes f).put p d c = ((SampleWr.bytes f).put [] d c).map fun x => (p, x.2) := by
  unfold SampleWr.put
  simp only [wr_bind]
  unfold wrLift
  cases f d with
  | error e => rfl
  | ok b =>
    simp only [ok_bind, pure_eq_ok]
    cases wrPut b c with
    | error e => rfl
    | ok x => rfl

theorem put_start_pass (word : Dbl → Out Nat) (p : List Dbl) (d : Dbl) (c : Cur) :
    (SampleWr.own (writeAtStart word)).put p d c =
      ((SampleWr.own (writeAtStart word)).put [] d c).map fun x => (p, x.2) := by
  unfold SampleWr.put writeAtStart
  simp only [wr_bind]
  unfold wrLift
  cases word d with
  | error e => rfl
  | ok b =>
    simp only [ok_bind, pure_eq_ok]
    cases wrPoke (BitVec.ofNat 8 b) c with
    | error e => rfl
    | ok x => rfl

/-- All formats but 8015 leave the array alone. -/
theorem writeSamplesOf_pass {H : Host} {a : OSegdArgs} (hf : a.gh1.formatCode ≠ 8015) (t : Trace) (p : List Dbl)
    (b : Bytes) : writeSamplesOf H a t ⟨p, b⟩ =
      (writeSamplesOf H a t ⟨[], b⟩).map fun x => (x.1, ⟨p, x.2.buf⟩) := by
  unfold writeSamplesOf
  cases a.chSetOf t.header with
  | error e => rfl
  | ok c =>
    simp only [ok_bind]
    unfold writeSamplesD
    cases hw : segdWriter H.packEst a.gh1.formatCode with
    | error e => rfl
    | ok bw =>
      obtain ⟨bits, w⟩ := bw
      simp only [ok_bind]
      have hp : ∀ p d c, w.put p d c = (w.put [] d c).map fun x => (p, x.2) := by
        by_cases h : a.gh1.formatCode ∈ heldFormats
        · simp only [heldFormats, List.mem_cons, List.not_mem_nil, or_false] at h
          obtain ⟨word, hw'⟩ := segdWriter_start (est := H.packEst) (h.resolve_left hf)
          rw [hw] at hw'
          cases hw'
          exact put_start_pass word
        · obtain ⟨f, rfl, -⟩ := segdWriter_whole h hw
          exact put_bytes_pass f
      rw [wrSamples_pass hp]
      cases wrSamples w (H.pw c.descaleMultiplier) t.samples [] _ with
      | error e => rfl
      | ok z => rfl

theorem writeTraceD_pass {H : Host} {s : OSegd} (hf : s.args.gh1.formatCode ≠ 8015) (t : Trace) (p : List Dbl) :
    writeTraceD H t { s with mem := ⟨p, s.mem.buf⟩ } =
      ((writeTraceD H t { s with mem := ⟨[], s.mem.buf⟩ }).1,
        { (writeTraceD H t { s with mem := ⟨[], s.mem.buf⟩ }).2 with
          mem := ⟨p, (writeTraceD H t { s with mem := ⟨[], s.mem.buf⟩ }).2.mem.buf⟩ }) := by
  unfold writeTraceD
  simp only [writeSamplesOf_pass hf t p]
  split
  · rfl
  split
  · rfl
  split
  · rfl
  split
  · rfl
  cases writeSamplesOf H s.args t ⟨[], s.mem.buf⟩ with
  | error e =>
    simp only [Except.map]
    unfold resizedMem
    cases segdWriter H.packEst s.args.gh1.formatCode with
    | error e => rfl
    | ok x => rfl
  | ok x => rfl

theorem call_pass {H : Host} {o : Obj} (ho : ¬ Groups o) (p : List Dbl) (r : Req) :
    o.call H p r = ((o.call H [] r).1, (o.call H [] r).2.1, p) := by
  cases o with
  | segdOut s =>
    cases r with
    | writeTrace t =>
      unfold Obj.call
      simp only
      rw [writeTraceD_pass (s := s) ho t p]
    | _ => rfl
  | _ => cases r <;> rfl

theorem writeTraceD_args (H : Host) (t : Trace) (s : OSegd) : (writeTraceD H t s).2.args = s.args := by
  unfold writeTraceD
  repeat' first | rfl | split

theorem call_groups {H : Host} {o : Obj} {p : List Dbl} {r : Req} : Groups (o.call H p r).2.1 ↔ Groups o := by
  cases o with
  | segdOut s =>
    cases r with
    | writeTrace t =>
      unfold Obj.call Groups
      simp only
      rw [writeTraceD_args]
    | _ => exact Iff.rfl
  | _ => cases r <;> exact Iff.rfl

/-- The object sees the same as alone. -/
theorem run_alone {H : Host} {i : Nat} (prog : List (Nat × Req)) : ∀ {objs : List Obj} {o : Obj} {p q : List Dbl},
    objs[i]? = some o →
    (¬ Groups o ∨ p = q ∧ ∀ k o', objs[k]? = some o' → Groups o' → k = i) →
    only i (Proc.run H ⟨objs, p⟩ prog).1 =
      only 0 (Proc.run H ⟨[o], q⟩ ((only i prog).map fun r => (0, r))).1 ∧
    (Proc.run H ⟨objs, p⟩ prog).2.objs[i]? =
      (Proc.run H ⟨[o], q⟩ ((only i prog).map fun r => (0, r))).2.objs[0]? := by
  induction prog with
  | nil => intro objs o p q ho _; exact ⟨rfl, ho⟩
  | cons e prog ih =>
    intro objs o p q ho hg
    obtain ⟨j, r⟩ := e
    by_cases hj : j = i
    · subst hj
      simp only [only, if_true, List.map_cons, Proc.run, Proc.step, ho, List.getElem?_cons_zero,
        List.set_cons_zero]
      have hlen : j < objs.length := (List.getElem?_eq_some_iff.1 ho).1
      have key : (o.call H p r).1 = (o.call H q r).1 ∧ (o.call H p r).2.1 = (o.call H q r).2.1 ∧
          (¬ Groups o ∨ (o.call H p r).2.2 = (o.call H q r).2.2) := by
        rcases hg with hn | ⟨rfl, -⟩
        · rw [call_pass hn p, call_pass hn q]
          exact ⟨rfl, rfl, .inl hn⟩
        · exact ⟨rfl, rfl, .inr rfl⟩
      obtain ⟨k1, k2, k3⟩ := key
      have hset : (objs.set j (o.call H p r).2.1)[j]? = some (o.call H q r).2.1 := by
        rw [List.getElem?_set_self hlen, k2]
      obtain ⟨g1, g2⟩ := ih (p := (o.call H p r).2.2) (q := (o.call H q r).2.2) hset (by
        rcases k3 with hn | hk
        · exact .inl fun c => hn (call_groups.1 c)
        · rcases hg with hn | ⟨-, hu⟩
          · exact .inl fun c => hn (call_groups.1 c)
          · refine .inr ⟨hk, fun k o' hk' hgo => ?_⟩
            by_cases hkj : k = j
            · exact hkj
            · rw [List.getElem?_set_ne (fun c => hkj c.symm)] at hk'
              exact hu k o' hk' hgo)
      rw [k1]
      exact ⟨by rw [g1], g2⟩
    · simp only [only, if_neg hj, Proc.run, Proc.step]
      cases hoj : objs[j]? with
      | none => exact ih ho hg
      | some o2 =>
        simp only
        refine ih (by rw [List.getElem?_set_ne hj]; exact ho) ?_
        rcases hg with hn | ⟨rfl, hu⟩
        · exact .inl hn
        · have hn2 : ¬ Groups o2 := fun c => hj (hu j o2 hoj c)
          refine .inr ⟨by rw [call_pass hn2], fun k o' hk' hgo => ?_⟩
          by_cases hkj : k = j
          · subst hkj
            rw [List.getElem?_set_self (List.getElem?_eq_some_iff.1 hoj).1] at hk'
            cases hk'
            exact absurd (call_groups.1 hgo) hn2
          · rw [List.getElem?_set_ne (fun c => hkj c.symm)] at hk'
            exact hu k o' hk' hgo

end Sedaman
