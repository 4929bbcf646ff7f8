import Verif.Spec.SegdLocality
import Verif.Lemmas.Locality
import Verif.Lemmas.SegdLayout
import Verif.Lemmas.SegdExt
import Verif.Lemmas.SegdPut
import Verif.Lemmas.SegdSample

/-!
# Lemmas: which bytes of a SEG-D file depend on which part of a trace
-/

namespace Sedaman

open Spec

/-! ## Samples -/

/-- The formats that append whole bytes. -/
theorem segdWriter_whole {est : PackEst} {fmt : Int} {bits : Nat} {w : SampleWr} (hf : fmt ∉ heldFormats)
    (h : segdWriter est fmt = .ok (bits, w)) :
    ∃ f, w = .bytes f ∧ bits = 8 * (segdBits fmt / 8) ∧ ∀ d p, f d = .ok p → p.length = segdBits fmt / 8 := by
  unfold segdWriter at h
  split at h
  case h_1 => exact absurd (by decide) hf
  case h_2 => exact absurd (by decide) hf
  case h_6 => exact absurd (by decide) hf
  case h_11 =>
    simp only [Except.ok.injEq, Prod.mk.injEq] at h
    obtain ⟨rfl, rfl⟩ := h
    refine ⟨_, rfl, rfl, fun d p hp => ?_⟩
    unfold write9036 at hp
    obtain ⟨lo, -, hp⟩ := bind_ok hp
    obtain ⟨v, -, hp⟩ := bind_ok hp
    rw [← Except.ok.inj hp, writeI_eq, writeI_eq]
    simp [segdBits]
  all_goals first
    | (simp only [Except.ok.injEq, Prod.mk.injEq] at h
       obtain ⟨rfl, rfl⟩ := h
       refine ⟨_, rfl, rfl, fun d p hp => ?_⟩
       first
         | (obtain ⟨v, -, hp⟩ := bind_ok hp
            rw [← Except.ok.inj hp]
            simp [segdBits, writeU16_eq, writeU32_eq, writeI24_eq, writeI32_eq, writeI_eq])
         | (rw [← Except.ok.inj hp]
            simp [segdBits, writeIeeeFloat, writeIeeeDouble, writeU32_eq, writeU64_eq]))
    | cases h

/-- The bytes of all samples, or the first failure. -/
def encAll (f : Dbl → Out Bytes) (descale : Dbl) : List Dbl → Out Bytes
  | [] => .ok []
  | x :: t => do
    let b ← f (ddiv x descale)
    let r ← encAll f descale t
    pure (b ++ r)

theorem encAll_pieces {f : Dbl → Out Bytes} {descale : Dbl} : ∀ {xs : List Dbl} {b : Bytes},
    encAll f descale xs = .ok b → ∃ ps, Encoded (fun x => f (ddiv x descale)) xs ps ∧ b = ps.flatten := by
  intro xs
  induction xs with
  | nil => intro b h; cases h; exact ⟨[], .nil, rfl⟩
  | cons x t ih =>
    intro b h
    obtain ⟨p, h1, h⟩ := bind_ok h
    obtain ⟨r, h2, h⟩ := bind_ok h
    obtain ⟨ps, h3, rfl⟩ := ih h2
    exact ⟨p :: ps, .cons h1 h3, (Except.ok.inj h).symm⟩

theorem encAll_length {f : Dbl → Out Bytes} {descale : Dbl} {n : Nat} (hn : ∀ d p, f d = .ok p → p.length = n)
    {xs : List Dbl} {b : Bytes} (h : encAll f descale xs = .ok b) : b.length = xs.length * n := by
  obtain ⟨ps, h1, rfl⟩ := encAll_pieces h
  exact pieces_length (fun x p hp => hn _ _ hp) h1

theorem wrSamples_all {f : Dbl → Out Bytes} {descale : Dbl} {n : Nat} (hn : ∀ d p, f d = .ok p → p.length = n)
    (xs : List Dbl) (p : List Dbl) (d r : Bytes) (hr : xs.length * n ≤ r.length) :
    wrSamples (.bytes f) descale xs p ⟨d, r⟩ =
      (encAll f descale xs >>= fun b => (.ok (p, ⟨d ++ b, r.drop b.length⟩) : Out (List Dbl × Cur))) := by
  induction xs generalizing d r with
  | nil => simp [wrSamples, wr_pure, encAll, ok_bind]
  | cons x t ih =>
    rw [List.length_cons, Nat.add_mul] at hr
    unfold wrSamples SampleWr.put encAll
    rw [wr_bind]
    unfold wrLift
    simp only [wr_bind]
    cases hx : f (ddiv x descale) with
    | error e => rfl
    | ok bs =>
      have hl := hn _ _ hx
      simp only [ok_bind, pure_eq_ok]
      rw [wrPut_any d r (by omega)]
      simp only [ok_bind, wr_pure]
      rw [ih _ _ (by simp; omega)]
      cases encAll f descale t with
      | error e => rfl
      | ok b => simp [ok_bind, List.drop_drop]

/-- The samples of a trace in the file, or the failure. -/
def samplesOut (H : Host) (a : OSegdArgs) (t : Trace) : Out Bytes := do
  let c ← a.chSetOf t.header
  let (_, w) ← segdWriter H.packEst a.gh1.formatCode
  match w with
  | .bytes f => encAll f (H.pw c.descaleMultiplier) t.samples
  | .own _ => do
    let (b, _) ← writeSamplesD H.packEst a.gh1.formatCode (H.pw c.descaleMultiplier) t.samples {}
    pure b

theorem writeSamplesOf_whole {H : Host} {a : OSegdArgs} (hf : a.gh1.formatCode ∉ heldFormats) (t : Trace)
    (m : SampMem) : writeSamplesOf H a t m =
      (samplesOut H a t >>= fun b => (.ok (b, ⟨m.pending, b⟩) : Out (Bytes × SampMem))) := by
  unfold writeSamplesOf samplesOut writeSamplesD
  cases a.chSetOf t.header with
  | error e => rfl
  | ok c =>
    simp only [ok_bind]
    cases hw : segdWriter H.packEst a.gh1.formatCode with
    | error e => rfl
    | ok bw =>
      obtain ⟨bits, w⟩ := bw
      obtain ⟨f, rfl, hb, hn⟩ := segdWriter_whole hf hw
      simp only [ok_bind]
      generalize segdBits a.gh1.formatCode / 8 = n at *
      have hlen : t.samples.length * bits / 8 = t.samples.length * n := by
        rw [hb, show t.samples.length * (8 * n) = 8 * (t.samples.length * n) by
          rw [← Nat.mul_assoc, ← Nat.mul_assoc, Nat.mul_comm t.samples.length 8]]
        exact Nat.mul_div_cancel_left _ (by decide)
      rw [wrSamples_all hn _ _ _ _ (by rw [resizeTo_length, hlen])]
      cases he : encAll f (H.pw c.descaleMultiplier) t.samples with
      | error e => rfl
      | ok b =>
        have := encAll_length hn he
        simp only [ok_bind, pure_eq_ok, List.nil_append]
        rw [List.drop_eq_nil_of_le (by rw [resizeTo_length]; omega), List.append_nil]

/-- The code of the last sample, or the byte there was. -/
def lastCode (word : Dbl → Out Nat) (descale : Dbl) : List Dbl → Byte → Out Byte
  | [], b => .ok b
  | x :: t, _ => do
    let v ← word (ddiv x descale)
    lastCode word descale t (BitVec.ofNat 8 v)

theorem wrSamples_start (word : Dbl → Out Nat) (descale : Dbl) (xs : List Dbl) (p : List Dbl) (b : Byte) (r : Bytes) :
    wrSamples (.own (writeAtStart word)) descale xs p ⟨[], b :: r⟩ =
      (lastCode word descale xs b >>= fun b => (.ok (p, ⟨[], b :: r⟩) : Out (List Dbl × Cur))) := by
  induction xs generalizing b with
  | nil => rfl
  | cons x t ih =>
    unfold wrSamples SampleWr.put lastCode writeAtStart
    rw [wr_bind]
    simp only [wr_bind]
    unfold wrLift
    cases hx : word (ddiv x descale) with
    | error e => rfl
    | ok v =>
      simp only [ok_bind, pure_eq_ok, wrPoke, wr_pure]
      exact ih _

/-- Behind its first byte the sample buffer holds zeros. -/
def ZeroTail (b : Bytes) : Prop := ∀ x ∈ b.drop 1, x = 0

theorem resizeTo_zero {b : Bytes} (h : ZeroTail b) (n : Nat) :
    ∃ c, resizeTo (n + 1) b = c :: List.replicate n 0 := by
  have hl := resizeTo_length (n + 1) b
  cases hr : resizeTo (n + 1) b with
  | nil => rw [hr] at hl; cases hl
  | cons c r =>
    refine ⟨c, ?_⟩
    rw [hr] at hl
    congr 1
    refine List.eq_replicate_iff.2 ⟨by simpa using hl, fun x hx => ?_⟩
    cases b with
    | nil =>
      unfold resizeTo at hr
      simp only [List.take_nil, List.nil_append, List.length_nil, Nat.sub_zero, List.replicate_succ,
        List.cons.injEq] at hr
      rw [← hr.2] at hx
      exact List.eq_of_mem_replicate hx
    | cons d t =>
      unfold resizeTo at hr
      simp only [List.take_succ_cons, List.cons_append, List.cons.injEq] at hr
      rw [← hr.2] at hx
      rcases List.mem_append.1 hx with hx | hx
      · exact h x (List.mem_of_mem_take hx)
      · exact List.eq_of_mem_replicate hx

theorem zeroTail_resize {b : Bytes} (h : ZeroTail b) (n : Nat) : ZeroTail (resizeTo n b) := by
  cases n with
  | zero =>
    have := List.length_eq_zero_iff.1 (resizeTo_length 0 b)
    rw [this]
    intro x hx; cases hx
  | succ n =>
    obtain ⟨c, hc⟩ := resizeTo_zero h n
    rw [hc]
    intro x hx
    exact List.eq_of_mem_replicate hx

theorem writeSamplesD_start {est : PackEst} {fmt : Int} {word : Dbl → Out Nat} (descale : Dbl) (xs : List Dbl)
    (m : SampMem) (hm : ZeroTail m.buf) (hw : segdWriter est fmt = .ok (8, .own (writeAtStart word))) :
    writeSamplesD est fmt descale xs m =
        (writeSamplesD est fmt descale xs {} >>= fun b => (.ok (b.1, ⟨m.pending, b.1⟩) : Out (Bytes × SampMem))) ∧
      ∀ b m', writeSamplesD est fmt descale xs {} = .ok (b, m') → ZeroTail b := by
  unfold writeSamplesD
  simp only [hw, ok_bind]
  rw [Nat.mul_div_cancel _ (by decide : 0 < 8)]
  cases xs with
  | nil =>
    have e : ∀ b : Bytes, resizeTo ([] : List Dbl).length b = [] :=
      fun b => List.length_eq_zero_iff.1 (resizeTo_length 0 b)
    rw [e, e]
    refine ⟨rfl, fun b m' h => ?_⟩
    simp only [wrSamples, wr_pure, ok_bind, pure_eq_ok, Except.ok.injEq, Prod.mk.injEq] at h
    rw [← h.1]
    intro x hx; cases hx
  | cons x t =>
    obtain ⟨c, hc⟩ := resizeTo_zero hm t.length
    obtain ⟨c', hc'⟩ := resizeTo_zero (b := []) (fun x hx => by cases hx) t.length
    rw [List.length_cons, hc, hc', wrSamples_start, wrSamples_start,
      show lastCode word descale (x :: t) c = lastCode word descale (x :: t) c' from rfl]
    cases lastCode word descale (x :: t) c' with
    | error e => exact ⟨rfl, fun b m' h => by cases h⟩
    | ok v =>
      refine ⟨rfl, fun b m' h => ?_⟩
      simp only [ok_bind, pure_eq_ok, Except.ok.injEq, Prod.mk.injEq, List.nil_append] at h
      rw [← h.1]
      intro y hy
      exact List.eq_of_mem_replicate hy

/-- What traces written before cannot spoil. -/
def CleanMem (s : OSegd) : Prop :=
  s.args.gh1.formatCode ∉ heldFormats ∨
    ((s.args.gh1.formatCode = 8022 ∨ s.args.gh1.formatCode = 8042) ∧ ZeroTail s.mem.buf)

theorem segdWriter_start {est : PackEst} {fmt : Int} (h : fmt = 8022 ∨ fmt = 8042) :
    ∃ word, segdWriter est fmt = .ok (8, .own (writeAtStart word)) := by
  rcases h with rfl | rfl <;> exact ⟨_, rfl⟩

theorem writeSamplesOf_eq {H : Host} {s : OSegd} (hs : CleanMem s) (t : Trace) : writeSamplesOf H s.args t s.mem =
      (samplesOut H s.args t >>= fun b => (.ok (b, ⟨s.mem.pending, b⟩) : Out (Bytes × SampMem))) := by
  rcases hs with hf | ⟨hf, hz⟩
  · exact writeSamplesOf_whole hf t s.mem
  · unfold writeSamplesOf samplesOut
    obtain ⟨word, hw⟩ := segdWriter_start (est := H.packEst) hf
    cases s.args.chSetOf t.header with
    | error e => rfl
    | ok c =>
      simp only [ok_bind, hw]
      rw [(writeSamplesD_start _ _ _ hz hw).1]
      cases writeSamplesD H.packEst s.args.gh1.formatCode (H.pw c.descaleMultiplier) t.samples {} with
      | error e => rfl
      | ok b => rfl

theorem cleanMem_step {H : Host} {s : OSegd} (hs : CleanMem s) (t : Trace) : CleanMem (writeTraceD H t s).2 := by
  have ha : (writeTraceD H t s).2.args = s.args := by
    unfold writeTraceD
    repeat' first | rfl | split
  unfold CleanMem
  rw [ha]
  refine hs.imp_right fun ⟨hf, hz⟩ => ⟨hf, ?_⟩
  have hr : ZeroTail (resizedMem H s.args t s.mem).buf := by
    unfold resizedMem
    split
    · exact hz
    · exact zeroTail_resize hz _
  unfold writeTraceD
  split
  · exact hz
  split
  · exact hz
  simp only
  split
  · exact hz
  split
  · exact hz
  split
  · exact hr
  next b m h =>
  obtain ⟨c, h1, h⟩ := bind_ok h
  obtain ⟨word, hw⟩ := segdWriter_start (est := H.packEst) hf
  obtain ⟨e, hb⟩ := writeSamplesD_start (H.pw c.descaleMultiplier) t.samples _ hz hw
  rw [e] at h
  obtain ⟨⟨b', m'⟩, h2, h⟩ := bind_ok h
  simp only [Except.ok.injEq, Prod.mk.injEq] at h
  rw [← h.2]
  exact hb _ _ h2

/-! ## Traces -/

/-- What a call puts into the file, and how it ends. -/
def traceOut (H : Host) (a : OSegdArgs) (t : Trace) : Bytes × Out Unit :=
  match writeTraceHdrD t.header with
  | .error e => ([], .error e)
  | .ok b =>
    match intOf t.header "TR_HDR_EXT" with
    | .error e => (b, .error e)
    | .ok n =>
      match extIO H a t.header (toU 1 n) 0 with
      | (x, .error e) => (b ++ x, .error e)
      | (x, .ok _) =>
        match samplesOut H a t with
        | .error e => (b ++ x, .error e)
        | .ok y => (b ++ x ++ y, .ok ())

theorem writeTraceD_eq {H : Host} {s : OSegd} (hf : CleanMem s) (t : Trace)
    (hc : s.chansWritten ≠ s.chansInRecord) :
    (writeTraceD H t s).1 = (traceOut H s.args t).2 ∧
    (writeTraceD H t s).2.out = s.out ++ (traceOut H s.args t).1 ∧
    (writeTraceD H t s).2.args = s.args ∧ (writeTraceD H t s).2.chansInRecord = s.chansInRecord ∧
    (writeTraceD H t s).2.chansWritten =
      s.chansWritten + counted (traceOut H s.args t).2 := by
  unfold writeTraceD traceOut
  rw [if_neg hc, writeSamplesOf_eq hf]
  cases writeTraceHdrD t.header with
  | error e => simp [counted]
  | ok b =>
    simp only
    cases intOf t.header "TR_HDR_EXT" with
    | error e => simp [counted]
    | ok n =>
      simp only
      rcases extIO H s.args t.header (toU 1 n) 0 with ⟨x, e | u⟩
      · simp [counted]
      · simp only
        cases samplesOut H s.args t with
        | error e => simp [bind, Except.bind, counted]
        | ok y => simp [ok_bind, counted]

/-! ## The trace header -/

/-- The statements store these bytes at the pointer, whatever the buffer holds. -/
def Emits (w : Wr Unit) (bs : Bytes) : Prop :=
  ∀ c u c', w c = .ok (u, c') → c' = ⟨c.done ++ bs, c.rest.drop bs.length⟩ ∧ bs.length ≤ c.rest.length

theorem emits_put (bs : Bytes) : Emits (wrPut bs) bs := by
  intro c u c' h
  unfold wrPut at h
  split at h
  · cases h; exact ⟨rfl, by assumption⟩
  · cases h

theorem bcdEmit_even {dig : Nat → Nat} : ∀ (m : Nat), ∃ bs : Bytes, bs.length = m ∧ ∀ buf r adv,
    bcdEmit dig (2 * m) buf = .ok (r, adv) → r = bs ++ buf.drop m ∧ adv = m ∧ m ≤ buf.length := by
  intro m
  induction m with
  | zero =>
    refine ⟨[], rfl, fun buf r adv h => ?_⟩
    unfold bcdEmit at h
    cases h
    exact ⟨rfl, rfl, by simp⟩
  | succ m ih =>
    obtain ⟨bs, hl, hb⟩ := ih
    refine ⟨(BitVec.ofNat 8 (dig (2 * m + 1) <<< 4) ||| BitVec.ofNat 8 (dig (2 * m))) :: bs, by simp [hl],
      fun buf r adv h => ?_⟩
    rw [show 2 * (m + 1) = 2 * m + 2 by omega] at h
    cases buf with
    | nil => unfold bcdEmit at h; cases h
    | cons b buf =>
      unfold bcdEmit at h
      obtain ⟨⟨r', adv'⟩, h1, h⟩ := bind_ok h
      cases h
      obtain ⟨rfl, rfl, h3⟩ := hb _ _ _ h1
      exact ⟨by simp, rfl, by simp; omega⟩

theorem emits_bcd (w : Nat) (v : Int) (m : Nat) :
    ∃ bs : Bytes, bs.length = m + 1 ∧ Emits (wrBcd w v false (2 * (m + 1))) bs := by
  obtain ⟨bs, hl, hb⟩ := bcdEmit_even (dig := bcdOut w v (2 * (m + 1))) (m + 1)
  refine ⟨bs, hl, fun c u c' h => ?_⟩
  unfold wrBcd at h
  obtain ⟨⟨r, adv⟩, h1, h⟩ := bind_ok h
  cases h
  have h2 : bcdEmit (bcdOut w v (2 * (m + 1))) (2 * (m + 1)) c.rest = .ok (r, adv) := h1
  obtain ⟨rfl, rfl, h3⟩ := hb _ _ _ h2
  refine ⟨?_, by omega⟩
  rw [List.take_left' hl, List.drop_left' hl, hl]

theorem emits_num (v lim : Int) (m : Nat) (esc : Bytes) (he : esc.length = m + 1) :
    ∃ bs : Bytes, bs.length = m + 1 ∧ Emits (wrNum v lim (2 * (m + 1)) esc) bs := by
  unfold wrNum
  split
  · exact ⟨esc, he, emits_put _⟩
  · exact emits_bcd 8 v m

theorem emits_u24 (d : Dbl) : ∃ bs : Bytes, bs.length = 3 ∧ Emits (wrDblU24 d) bs := by
  unfold wrDblU24
  cases hd : dblToU 4 d with
  | error e =>
    refine ⟨List.replicate 3 0, rfl, fun c u c' h => ?_⟩
    rw [wr_bind] at h
    unfold wrLift at h
    cases h
  | ok v =>
    refine ⟨writeU24 .be v, by simp [writeU24_eq], fun c u c' h => ?_⟩
    rw [wr_bind] at h
    unfold wrLift at h
    exact emits_put _ c u c' h

theorem emits_char (d : Dbl) : ∃ bs : Bytes, bs.length = 1 ∧ Emits (wrDblChar d) bs := by
  unfold wrDblChar
  cases hd : dblToS 1 d with
  | error e => exact ⟨[0], rfl, fun c u c' h => by cases h⟩
  | ok v => exact ⟨[chr v], rfl, fun c u c' h => emits_put _ c u c' h⟩

open Classical in
/-- The bytes the statements store. -/
noncomputable def emitted (w : Wr Unit) : Bytes :=
  if h : ∃ bs, Emits w bs then h.choose else []

theorem emitted_run {w : Wr Unit} {n : Nat} (h : ∃ bs : Bytes, bs.length = n ∧ Emits w bs) {c c' : Cur} {u : Unit}
    (hw : w c = .ok (u, c')) : (emitted w).length = n ∧ c' = ⟨c.done ++ emitted w, c.rest.drop n⟩ := by
  obtain ⟨bs, h1, h2⟩ := h
  have he : ∃ bs, Emits w bs := ⟨bs, h2⟩
  have hs := he.choose_spec
  unfold emitted
  rw [dif_pos he]
  obtain ⟨e1, l1⟩ := h2 c u c' hw
  obtain ⟨e2, l2⟩ := hs c u c' hw
  have e3 : bs = he.choose := by
    have := congrArg Cur.done (e1.symm.trans e2)
    simpa using this
  rw [← e3]
  exact ⟨h1, by rw [e1, h1]⟩

theorem wrLift_run {α : Type} {x : Out α} {c c' : Cur} {a : α} (h : wrLift x c = .ok (a, c')) :
    x = .ok a ∧ c' = c := by
  unfold wrLift at h
  obtain ⟨b, h1, h⟩ := bind_ok h
  cases h
  exact ⟨h1, rfl⟩

/-- The parts of a trace header. -/
theorem traceHdr_parts {h : Header} {b : Bytes} (hw : writeTraceHdrD h = .ok b) :
    ∃ ffid scan chSet chan timing ext skew edit brk, intOf h "FFID" = .ok ffid ∧
      intOf h "SCAN_TYPE_NUM" = .ok scan ∧ intOfSet h "CH_SET_NUM" = .ok chSet ∧ intOf h "CHAN" = .ok chan ∧
      scaledOf h "FIRST_TIMING_WORD" = .ok timing ∧ intOf h "TR_HDR_EXT" = .ok ext ∧
      scaledOf h "SAMPLE_SKEW" = .ok skew ∧ intOf h "TRACE_EDIT" = .ok edit ∧
      scaledOf h "TIME_BREAK_WIN" = .ok brk ∧ ∃ p1 p2 p3 p4 p5 p7 p9 : Bytes,
      p1 = emitted (wrNum ffid 9999 4 (writeU16 .be 0xffff)) ∧ p1.length = 2 ∧
      p2 = emitted (wrBcd 8 scan false 2) ∧ p2.length = 1 ∧
      p3 = emitted (wrNum chSet 99 2 [0xff]) ∧ p3.length = 1 ∧
      p4 = emitted (wrNum chan 9999 4 (writeU16 .be 0xffff)) ∧ p4.length = 2 ∧
      p5 = emitted (wrDblU24 timing) ∧ p5.length = 3 ∧
      p7 = emitted (wrDblChar skew) ∧ p7.length = 1 ∧
      p9 = emitted (wrDblU24 brk) ∧ p9.length = 3 ∧
      b = p1 ++ (p2 ++ (p3 ++ (p4 ++ (p5 ++ ([chr ext] ++ (p7 ++ ([chr edit] ++ (p9 ++
        (writeU16 .be (if chSet < 100 then 0 else chSet) ++ writeU24 .be ffid))))))))) := by
  unfold writeTraceHdrD wrBlock wrTraceHdr at hw
  obtain ⟨⟨u, cf⟩, hw, hb⟩ := bind_ok hw
  rw [wr_bind] at hw
  obtain ⟨⟨ffid, c⟩, e, hw⟩ := bind_ok hw
  obtain ⟨a1, rfl⟩ := wrLift_run e; clear e
  rw [wr_bind] at hw
  obtain ⟨⟨_, c⟩, e, hw⟩ := bind_ok hw
  obtain ⟨l1, rfl⟩ := emitted_run (emits_num ffid 9999 1 _ (by simp [writeU16_eq])) e; clear e
  rw [wr_bind] at hw
  obtain ⟨⟨scan, c⟩, e, hw⟩ := bind_ok hw
  obtain ⟨a2, rfl⟩ := wrLift_run e; clear e
  rw [wr_bind] at hw
  obtain ⟨⟨_, c⟩, e, hw⟩ := bind_ok hw
  obtain ⟨l2, rfl⟩ := emitted_run (emits_bcd 8 scan 0) e; clear e
  rw [wr_bind] at hw
  obtain ⟨⟨chSet, c⟩, e, hw⟩ := bind_ok hw
  obtain ⟨a3, rfl⟩ := wrLift_run e; clear e
  rw [wr_bind] at hw
  obtain ⟨⟨_, c⟩, e, hw⟩ := bind_ok hw
  obtain ⟨l3, rfl⟩ := emitted_run (emits_num chSet 99 0 _ rfl) e; clear e
  rw [wr_bind] at hw
  obtain ⟨⟨chan, c⟩, e, hw⟩ := bind_ok hw
  obtain ⟨a4, rfl⟩ := wrLift_run e; clear e
  rw [wr_bind] at hw
  obtain ⟨⟨_, c⟩, e, hw⟩ := bind_ok hw
  obtain ⟨l4, rfl⟩ := emitted_run (emits_num chan 9999 1 _ (by simp [writeU16_eq])) e; clear e
  rw [wr_bind] at hw
  obtain ⟨⟨timing, c⟩, e, hw⟩ := bind_ok hw
  obtain ⟨a5, rfl⟩ := wrLift_run e; clear e
  rw [wr_bind] at hw
  obtain ⟨⟨_, c⟩, e, hw⟩ := bind_ok hw
  obtain ⟨l5, rfl⟩ := emitted_run (emits_u24 timing) e; clear e
  rw [wr_bind] at hw
  obtain ⟨⟨ext, c⟩, e, hw⟩ := bind_ok hw
  obtain ⟨a6, rfl⟩ := wrLift_run e; clear e
  rw [wr_bind] at hw
  obtain ⟨⟨_, c⟩, e, hw⟩ := bind_ok hw
  obtain ⟨rfl, -⟩ := emits_put _ _ _ _ e; clear e
  rw [wr_bind] at hw
  obtain ⟨⟨skew, c⟩, e, hw⟩ := bind_ok hw
  obtain ⟨a7, rfl⟩ := wrLift_run e; clear e
  rw [wr_bind] at hw
  obtain ⟨⟨_, c⟩, e, hw⟩ := bind_ok hw
  obtain ⟨l7, rfl⟩ := emitted_run (emits_char skew) e; clear e
  rw [wr_bind] at hw
  obtain ⟨⟨edit, c⟩, e, hw⟩ := bind_ok hw
  obtain ⟨a8, rfl⟩ := wrLift_run e; clear e
  rw [wr_bind] at hw
  obtain ⟨⟨_, c⟩, e, hw⟩ := bind_ok hw
  obtain ⟨rfl, -⟩ := emits_put _ _ _ _ e; clear e
  rw [wr_bind] at hw
  obtain ⟨⟨brk, c⟩, e, hw⟩ := bind_ok hw
  obtain ⟨a9, rfl⟩ := wrLift_run e; clear e
  rw [wr_bind] at hw
  obtain ⟨⟨_, c⟩, e, hw⟩ := bind_ok hw
  obtain ⟨l9, rfl⟩ := emitted_run (emits_u24 brk) e; clear e
  rw [wr_bind] at hw
  obtain ⟨⟨_, c⟩, e, hw⟩ := bind_ok hw
  obtain ⟨rfl, -⟩ := emits_put _ _ _ _ e; clear e
  obtain ⟨rfl, -⟩ := emits_put _ _ _ _ hw; clear hw
  refine ⟨ffid, scan, chSet, chan, timing, ext, skew, edit, brk, a1, a2, a3, a4, a5, a6, a7, a8, a9,
    _, _, _, _, _, _, _, rfl, l1, rfl, l2, rfl, l3, rfl, l4, rfl, l5, rfl, l7, rfl, l9, ?_⟩
  rw [← Except.ok.inj hb]
  simp only [List.nil_append, List.append_assoc, List.drop_drop, List.append_cancel_left_eq]
  rw [List.drop_eq_nil_of_le, List.append_nil]
  simp [writeU16_eq, writeU24_eq]

theorem intOfSet_congr {h h' : Header} {n : String} (e : h.get n = h'.get n) : intOfSet h n = intOfSet h' n := by
  unfold intOfSet; rw [e]

theorem scaledOf_congr {h h' : Header} {n : String} (e : h.get n = h'.get n) : scaledOf h n = scaledOf h' n := by
  unfold scaledOf; rw [e]

theorem same_of_ok {α : Type} {x y : Out α} {a b : α} (h : x = y) (h1 : x = .ok a) (h2 : y = .ok b) : a = b := by
  subst h; exact Except.ok.inj (h1.symm.trans h2)

/-- A byte of the trace header that differs belongs to a value that differs. -/
theorem traceHdr_differ {h h' : Header} {b b' : Bytes} (h1 : writeTraceHdrD h = .ok b)
    (h2 : writeTraceHdrD h' = .ok b') (j : Nat) (hj : b[j]? ≠ b'[j]?) :
    ∃ name off len, (name, off, len) ∈ segdPlaces ∧ h.get name ≠ h'.get name ∧ off ≤ j ∧ j < off + len := by
  obtain ⟨ffid, scan, chSet, chan, timing, ext, skew, edit, brk, a1, a2, a3, a4, a5, a6, a7, a8, a9,
    p1, p2, p3, p4, p5, p7, p9, e1, l1, e2, l2, e3, l3, e4, l4, e5, l5, e7, l7, e9, l9, rfl⟩ := traceHdr_parts h1
  obtain ⟨ffid', scan', chSet', chan', timing', ext', skew', edit', brk', a1', a2', a3', a4', a5', a6', a7', a8', a9',
    q1, q2, q3, q4, q5, q7, q9, f1, m1, f2, m2, f3, m3, f4, m4, f5, m5, f7, m7, f9, m9, rfl⟩ := traceHdr_parts h2
  rcases append_differ l1 m1 hj with ⟨lt, hj⟩ | ⟨ge, hj⟩
  · refine ⟨"FFID", 0, 2, by decide, fun c => hj ?_, by omega, by omega⟩
    rw [e1, f1, same_of_ok (intOf_congr c) a1 a1']
  rcases append_differ l2 m2 hj with ⟨lt, hj⟩ | ⟨ge, hj⟩
  · refine ⟨"SCAN_TYPE_NUM", 2, 1, by decide, fun c => hj ?_, by omega, by omega⟩
    rw [e2, f2, same_of_ok (intOf_congr c) a2 a2']
  rcases append_differ l3 m3 hj with ⟨lt, hj⟩ | ⟨ge, hj⟩
  · refine ⟨"CH_SET_NUM", 3, 1, by decide, fun c => hj ?_, by omega, by omega⟩
    rw [e3, f3, same_of_ok (intOfSet_congr c) a3 a3']
  rcases append_differ l4 m4 hj with ⟨lt, hj⟩ | ⟨ge, hj⟩
  · refine ⟨"CHAN", 4, 2, by decide, fun c => hj ?_, by omega, by omega⟩
    rw [e4, f4, same_of_ok (intOf_congr c) a4 a4']
  rcases append_differ l5 m5 hj with ⟨lt, hj⟩ | ⟨ge, hj⟩
  · refine ⟨"FIRST_TIMING_WORD", 6, 3, by decide, fun c => hj ?_, by omega, by omega⟩
    rw [e5, f5, same_of_ok (scaledOf_congr c) a5 a5']
  rcases append_differ (n := 1) rfl rfl hj with ⟨lt, hj⟩ | ⟨ge, hj⟩
  · refine ⟨"TR_HDR_EXT", 9, 1, by decide, fun c => hj ?_, by omega, by omega⟩
    rw [same_of_ok (intOf_congr c) a6 a6']
  rcases append_differ l7 m7 hj with ⟨lt, hj⟩ | ⟨ge, hj⟩
  · refine ⟨"SAMPLE_SKEW", 10, 1, by decide, fun c => hj ?_, by omega, by omega⟩
    rw [e7, f7, same_of_ok (scaledOf_congr c) a7 a7']
  rcases append_differ (n := 1) rfl rfl hj with ⟨lt, hj⟩ | ⟨ge, hj⟩
  · refine ⟨"TRACE_EDIT", 11, 1, by decide, fun c => hj ?_, by omega, by omega⟩
    rw [same_of_ok (intOf_congr c) a8 a8']
  rcases append_differ l9 m9 hj with ⟨lt, hj⟩ | ⟨ge, hj⟩
  · refine ⟨"TIME_BREAK_WIN", 12, 3, by decide, fun c => hj ?_, by omega, by omega⟩
    rw [e9, f9, same_of_ok (scaledOf_congr c) a9 a9']
  have l10 : ∀ v, (writeU16 .be v).length = 2 := fun v => by simp [writeU16_eq]
  have l11 : ∀ v, (writeU24 .be v).length = 3 := fun v => by simp [writeU24_eq]
  rcases append_differ (l10 _) (l10 _) hj with ⟨lt, hj⟩ | ⟨ge, hj⟩
  · refine ⟨"CH_SET_NUM", 15, 2, by decide, fun c => hj ?_, by omega, by omega⟩
    rw [same_of_ok (intOfSet_congr c) a3 a3']
  · refine ⟨"FFID", 17, 3, by decide, fun c => hj ?_, by omega, ?_⟩
    · rw [same_of_ok (intOf_congr c) a1 a1']
    · by_contra c
      apply hj
      rw [List.getElem?_eq_none (by rw [l11]; omega), List.getElem?_eq_none (by rw [l11]; omega)]

theorem traceHdr_same {h h' : Header} (hs : ∀ n ∈ segdPlaces.map (·.1), h.get n = h'.get n) :
    writeTraceHdrD h = writeTraceHdrD h' := by
  unfold writeTraceHdrD wrTraceHdr
  rw [intOf_congr (hs "FFID" (by decide)), intOf_congr (hs "SCAN_TYPE_NUM" (by decide)),
    intOfSet_congr (hs "CH_SET_NUM" (by decide)), intOf_congr (hs "CHAN" (by decide)),
    scaledOf_congr (hs "FIRST_TIMING_WORD" (by decide)), intOf_congr (hs "TR_HDR_EXT" (by decide)),
    scaledOf_congr (hs "SAMPLE_SKEW" (by decide)), intOf_congr (hs "TRACE_EDIT" (by decide)),
    scaledOf_congr (hs "TIME_BREAK_WIN" (by decide))]

/-! ## Extension blocks -/

theorem lineOf_congr {h h' : Header} {n : String} (e : h.get n = h'.get n) : lineOf h n = lineOf h' n := by
  unfold lineOf; rw [e]

theorem extStd_same {rev : Int} {h h' : Header} (hs : ∀ n ∈ standardNames, h.get n = h'.get n) :
    wrExtStd rev h = wrExtStd rev h' := by
  unfold wrExtStd wrExtIdx wrExtLines wrExtRev3 wrByteOf
  rw [lineOf_congr (hs "R_LINE" (by decide)), lineOf_congr (hs "R_POINT" (by decide)),
    intOf_congr (hs "R_POINT_IDX" (by decide)), intOf_congr (hs "RESHOOT_IDX" (by decide)),
    intOf_congr (hs "GROUP_IDX" (by decide)), intOf_congr (hs "DEPTH_IDX" (by decide)),
    intOf_congr (hs "SAMP_NUM" (by decide)), intOf_congr (hs "SENSOR_TYPE" (by decide)),
    intOf_congr (hs "TRACE_NUMBER" (by decide)), intOf_congr (hs "SENSOR_MOVING" (by decide)),
    intOf_congr (hs "PHYSICAL_UNIT" (by decide))]

theorem extFields_same {est : LogEst} {h h' : Header} {fs : List HField}
    (hs : ∀ f ∈ fs, h.get f.name = h'.get f.name) (b : Bytes) :
    writeExtFields est h fs b = writeExtFields est h' fs b := by
  induction fs generalizing b with
  | nil => rfl
  | cons f t ih =>
    unfold writeExtFields
    rw [hs f List.mem_cons_self]
    cases h'.get f.name with
    | none => rfl
    | some v =>
      simp only
      exact bind_same fun bs _ => bind_same fun c _ => ih (fun g hg => hs g (List.mem_cons_of_mem _ hg)) c

/-- Fields without a different value under a byte leave the byte alike. -/
theorem extFields_differ {est : LogEst} {h h' : Header} {fs : List HField}
    {b b' out out' : Bytes} (h1 : writeExtFields est h fs b = .ok out)
    (h2 : writeExtFields est h' fs b' = .ok out') (j : Nat) (hj : out[j]? ≠ out'[j]?) :
    b[j]? ≠ b'[j]? ∨ ∃ f ∈ fs, h.get f.name ≠ h'.get f.name ∧ f.off ≤ j ∧ j < f.off + f.ty.size := by
  induction fs generalizing b b' with
  | nil =>
    simp only [writeExtFields, Except.ok.injEq] at h1 h2
    subst h1 h2
    exact .inl hj
  | cons f fs ih =>
    unfold writeExtFields at h1 h2
    cases hg : h.get f.name with
    | none => rw [hg] at h1; cases h1
    | some v =>
    cases hg' : h'.get f.name with
    | none => rw [hg'] at h2; cases h2
    | some v' =>
    rw [hg] at h1
    rw [hg'] at h2
    simp only at h1 h2
    obtain ⟨bs, a2, h1⟩ := bind_ok h1
    obtain ⟨c, a3, h1⟩ := bind_ok h1
    obtain ⟨bs', a2', h2⟩ := bind_ok h2
    obtain ⟨c', a3', h2⟩ := bind_ok h2
    rcases ih h1 h2 with hc | ⟨g, hg, h3⟩
    · by_cases hr : f.off ≤ j ∧ j < f.off + f.ty.size
      · by_cases hv : h.get f.name = h'.get f.name
        · exfalso
          have e : v = v' := by
            rw [hg, hg'] at hv
            exact Option.some.inj hv
          subst e
          have e : bs = bs' := Except.ok.inj (a2.symm.trans a2')
          subst e
          apply hc
          have hl := extFieldBytes_length a2
          rw [writeAt_get_in a3 j (by omega) (by omega), writeAt_get_in a3' j (by omega) (by omega)]
        · exact .inr ⟨f, List.mem_cons_self, hv, hr⟩
      · left
        have hl := extFieldBytes_length a2
        have hl' := extFieldBytes_length a2'
        rw [writeAt_get_out a3 j (by omega), writeAt_get_out a3' j (by omega)] at hc
        exact hc
    · exact .inr ⟨g, List.mem_cons_of_mem _ hg, h3⟩

theorem extBlock_differ {est : LogEst} {room : Nat} {rev : Int} {m : ExtMap} {h h' : Header} {i : Nat}
    {b b' : Bytes} (h1 : writeExtBlock est room rev m h i = .ok b) (h2 : writeExtBlock est room rev m h' i = .ok b')
    (j : Nat) (hj : b[j]? ≠ b'[j]?) :
    (m = [] ∧ i = 0 ∧ ∃ n ∈ standardNames, h.get n ≠ h'.get n) ∨
    ∃ fs f, m[i]? = some fs ∧ f ∈ fs ∧ h.get f.name ≠ h'.get f.name ∧ f.off ≤ j ∧ j < f.off + f.ty.size := by
  unfold writeExtBlock at h1 h2
  split at h1
  swap
  · cases h1
  rw [if_pos (by assumption)] at h2
  split at h1
  · rename_i hm
    rw [if_pos hm] at h2
    left
    split at h1
    · rename_i hi
      rw [if_pos hi] at h2
      refine ⟨by simpa using hm, hi, ?_⟩
      by_contra c
      apply hj
      have : ∀ n ∈ standardNames, h.get n = h'.get n := fun n hn => by
        by_contra d
        exact c ⟨n, hn, d⟩
      rw [extStd_same this] at h1
      rw [Except.ok.inj (h1.symm.trans h2)]
    · rename_i hi
      rw [if_neg hi] at h2
      exact absurd (by rw [← Except.ok.inj h1, ← Except.ok.inj h2]) hj
  · rename_i hm
    rw [if_neg hm] at h2
    right
    cases hf : m[i]? with
    | none => rw [hf] at h1; cases h1
    | some fs =>
      rw [hf] at h1 h2
      simp only at h1 h2
      obtain ⟨c, a1, h1⟩ := bind_ok h1
      obtain ⟨c', a2, h2⟩ := bind_ok h2
      rw [← Except.ok.inj h1, ← Except.ok.inj h2, List.getElem?_take, List.getElem?_take] at hj
      have hj : c[j]? ≠ c'[j]? := by
        by_cases h3 : j < 32
        · rwa [if_pos h3, if_pos h3] at hj
        · rw [if_neg h3, if_neg h3] at hj; exact absurd rfl hj
      rcases extFields_differ a1 a2 j hj with hc | ⟨f, g1, g2, g3, g4⟩
      · exact absurd rfl hc
      · exact ⟨fs, f, rfl, g1, g2, g3, g4⟩

theorem extBlock_same {est : LogEst} {room : Nat} {rev : Int} {m : ExtMap} {h h' : Header} {i : Nat}
    (hs : m = [] → ∀ n ∈ standardNames, h.get n = h'.get n)
    (hf : ∀ fs ∈ m, ∀ f ∈ fs, h.get f.name = h'.get f.name) :
    writeExtBlock est room rev m h i = writeExtBlock est room rev m h' i := by
  unfold writeExtBlock
  split
  swap
  · rfl
  split
  · rename_i hm
    rw [extStd_same (hs (by simpa using hm))]
  · cases hg : m[i]? with
    | none => rfl
    | some fs =>
      simp only
      rw [extFields_same (hf fs (List.mem_of_getElem? hg))]

theorem extIO_alike {H : Host} {a : OSegdArgs} {h h' : Header}
    (hs : a.extMap = [] → ∀ n ∈ standardNames, h.get n = h'.get n)
    (hf : ∀ fs ∈ a.extMap, ∀ f ∈ fs, h.get f.name = h'.get f.name) (n i : Nat) :
    extIO H a h n i = extIO H a h' n i := by
  induction n generalizing i with
  | zero => rfl
  | succ n ih =>
    unfold extIO
    rw [extBlock_same hs hf, ih]

theorem extIO_differ {H : Host} {a : OSegdArgs} {h h' : Header} {n i : Nat} {b b' : Bytes}
    (h1 : extIO H a h n i = (b, .ok ())) (h2 : extIO H a h' n i = (b', .ok ())) (j : Nat) (hj : b[j]? ≠ b'[j]?) :
    (a.extMap = [] ∧ i = 0 ∧ j < 32 ∧ ∃ n ∈ standardNames, h.get n ≠ h'.get n) ∨
    ∃ k fs f, k < n ∧ a.extMap[i + k]? = some fs ∧ f ∈ fs ∧ h.get f.name ≠ h'.get f.name ∧
      32 * k + f.off ≤ j ∧ j < 32 * k + f.off + f.ty.size ∧ j < 32 * (k + 1) := by
  induction n generalizing i b b' j with
  | zero =>
    simp only [extIO, Prod.mk.injEq, and_true] at h1 h2
    subst h1 h2
    exact absurd rfl hj
  | succ n ih =>
    unfold extIO at h1 h2
    split at h1
    · cases h1
    next x hx =>
    split at h2
    · cases h2
    next x' hx' =>
    rcases hr : extIO H a h n (i + 1) with ⟨y, r⟩
    rcases hr' : extIO H a h' n (i + 1) with ⟨y', r'⟩
    rw [hr] at h1
    rw [hr'] at h2
    simp only [Prod.mk.injEq] at h1 h2
    obtain ⟨rfl, rfl⟩ := h1
    obtain ⟨rfl, rfl⟩ := h2
    rcases append_differ (writeExtBlock_length hx) (writeExtBlock_length hx') hj with ⟨lt, hj⟩ | ⟨ge, hj⟩
    · rcases extBlock_differ hx hx' j hj with ⟨g1, g2, g3⟩ | ⟨fs, f, g1, g2, g3, g4, g5⟩
      · exact .inl ⟨g1, g2, lt, g3⟩
      · exact .inr ⟨0, fs, f, by omega, g1, g2, g3, by omega, by omega, by omega⟩
    · rcases ih hr hr' _ hj with ⟨-, g2, -⟩ | ⟨k, fs, f, g0, g1, g2, g3, g4, g5, g6⟩
      · omega
      · exact .inr ⟨k + 1, fs, f, by omega, by rw [← g1, show i + (k + 1) = i + 1 + k by omega], g2, g3,
          by omega, by omega, by omega⟩

/-! ## Whole traces -/

theorem extBlocks_eq {t : Trace} {n : Int} (h : intOf t.header "TR_HDR_EXT" = .ok n) : toU 1 n = extBlocks t := by
  unfold intOf at h
  unfold extBlocks
  split at h
  next hg => cases h; rw [hg]; rfl
  next hg => cases h; rw [hg]; rfl
  · cases h

theorem chSetOf_same {a : OSegdArgs} {h h' : Header} (h1 : h.get "SCAN_TYPE_NUM" = h'.get "SCAN_TYPE_NUM")
    (h2 : h.get "CH_SET_NUM" = h'.get "CH_SET_NUM") : a.chSetOf h = a.chSetOf h' := by
  unfold OSegdArgs.chSetOf subscriptW
  rw [h1, h2]

/-- The three parts of an accepted trace. -/
theorem traceOut_ok {H : Host} {a : OSegdArgs} {t : Trace} {bs : Bytes} (h : traceOut H a t = (bs, .ok ())) :
    ∃ b x y, writeTraceHdrD t.header = .ok b ∧ b.length = 20 ∧ extIO H a t.header (extBlocks t) 0 = (x, .ok ()) ∧
      x.length = 32 * extBlocks t ∧ samplesOut H a t = .ok y ∧ bs = b ++ (x ++ y) := by
  unfold traceOut at h
  split at h
  · cases h
  next b h1 =>
  split at h
  · cases h
  next n h2 =>
  rw [extBlocks_eq h2] at h
  split at h
  · cases h
  next x u h3 =>
  split at h
  · cases h
  next y h4 =>
  cases h
  exact ⟨b, x, y, h1, wrBlock_length (keeps_traceHdr _) h1, h3, extIO_length h3, h4, by simp⟩

theorem samplesOut_pieces {H : Host} {a : OSegdArgs} (hf : a.gh1.formatCode ∉ heldFormats) {t : Trace} {y : Bytes}
    (h : samplesOut H a t = .ok y) :
    ∃ c f ps bits, a.chSetOf t.header = .ok c ∧ segdWriter H.packEst a.gh1.formatCode = .ok (bits, .bytes f) ∧
      (∀ d p, f d = .ok p → p.length = segdBits a.gh1.formatCode / 8) ∧
      Encoded (fun x => f (ddiv x (H.pw c.descaleMultiplier))) t.samples ps ∧ y = ps.flatten := by
  unfold samplesOut at h
  obtain ⟨c, h1, h⟩ := bind_ok h
  obtain ⟨⟨bits, w⟩, h2, h⟩ := bind_ok h
  obtain ⟨f, rfl, hb, hn⟩ := segdWriter_whole hf h2
  obtain ⟨ps, h3, h4⟩ := encAll_pieces h
  exact ⟨c, f, ps, bits, h1, h2, hn, h3, h4⟩

theorem traceOut_differ {H : Host} {a : OSegdArgs} (hf : a.gh1.formatCode ∉ heldFormats) {t t' : Trace}
    {bs bs' : Bytes} (h1 : traceOut H a t = (bs, .ok ())) (h2 : traceOut H a t' = (bs', .ok ()))
    (he : extBlocks t = extBlocks t') (j : Nat) (hj : bs[j]? ≠ bs'[j]?) : TouchedD a t t' j := by
  obtain ⟨b, x, y, a1, a2, a3, a4, a5, rfl⟩ := traceOut_ok h1
  obtain ⟨b', x', y', c1, c2, c3, c4, c5, rfl⟩ := traceOut_ok h2
  rw [← he] at c3 c4
  rcases append_differ a2 c2 hj with ⟨lt, hj⟩ | ⟨ge, hj⟩
  · obtain ⟨name, off, len, g1, g2, g3, g4⟩ := traceHdr_differ a1 c1 j hj
    exact .header name off len g1 g2 g3 g4
  rcases append_differ a4 c4 hj with ⟨lt, hj⟩ | ⟨ge2, hj⟩
  · rcases extIO_differ a3 c3 _ hj with ⟨g1, -, g2, n, g3, g4⟩ | ⟨k, fs, f, g0, g1, g2, g3, g4, g5, g6⟩
    · exact .standard n g1 g3 g4 ge (by omega)
    · rw [Nat.zero_add] at g1
      exact .field k fs f g0 g1 g2 g3 (by omega) (by omega) (by omega)
  · by_cases e1 : t.header.get "SCAN_TYPE_NUM" = t'.header.get "SCAN_TYPE_NUM"
    swap
    · exact .factor _ (.inl rfl) e1 (by omega)
    by_cases e2 : t.header.get "CH_SET_NUM" = t'.header.get "CH_SET_NUM"
    swap
    · exact .factor _ (.inr rfl) e2 (by omega)
    obtain ⟨c, f, ps, bits, d1, d2, d3, d4, rfl⟩ := samplesOut_pieces hf a5
    obtain ⟨c', f', ps', bits', g1, g2, -, g4, rfl⟩ := samplesOut_pieces hf c5
    rw [← chSetOf_same e1 e2, d1] at g1
    cases g1
    rw [d2] at g2
    cases g2
    obtain ⟨k, k1, k2, k3⟩ := samples_differ (fun x p hp => d3 _ _ hp) d4 g4 _ hj
    exact .sample k k1 (by omega) (by omega)

theorem writeTraceD_same {H : Host} {s : OSegd} {t t' : Trace} (hx : t.samples = t'.samples)
    (hs : ∀ n ∈ lookedAt s.args, t.header.get n = t'.header.get n) : writeTraceD H t s = writeTraceD H t' s := by
  have hp : ∀ n ∈ segdPlaces.map (·.1), t.header.get n = t'.header.get n :=
    fun n hn => hs n (List.mem_append_left _ hn)
  have he : ∀ n, extIO H s.args t.header n 0 = extIO H s.args t'.header n 0 := by
    intro n
    refine extIO_alike (fun hm k hk => hs k (List.mem_append_right _ ?_)) (fun fs hfs f hf =>
      hs _ (List.mem_append_right _ ?_)) n 0
    · rw [if_pos hm]; exact hk
    · rw [if_neg (by rintro c; rw [c] at hfs; cases hfs)]
      exact List.mem_map.2 ⟨f, List.mem_flatten.2 ⟨fs, hfs, hf⟩, rfl⟩
  have hc : s.args.chSetOf t.header = s.args.chSetOf t'.header :=
    chSetOf_same (hp _ (by decide)) (hp _ (by decide))
  unfold writeTraceD writeSamplesOf resizedMem
  rw [traceHdr_same hp, intOf_congr (hp "TR_HDR_EXT" (by decide)), hc, hx]
  simp only [he]

theorem afterCalls_inv {H : Host} {a : OSegdArgs} {s : OSegd} (h : AfterCalls H a s) (hf : a.gh1.formatCode ≠ 8015) :
    s.args = a ∧ CleanMem s := by
  induction h with
  | opened heap s h =>
    unfold openSegdWriter at h
    obtain ⟨m, -, h⟩ := bind_ok h
    split at h
    · cases h
    obtain ⟨out, -, h⟩ := bind_ok h
    cases h
    refine ⟨rfl, ?_⟩
    by_cases h1 : a.gh1.formatCode ∈ heldFormats
    · right
      refine ⟨?_, fun x hx => by cases hx⟩
      simp only [heldFormats, List.mem_cons, List.not_mem_nil, or_false] at h1
      exact h1.resolve_left hf
    · exact .inl h1
  | called s t _ ih =>
    refine ⟨?_, cleanMem_step ih.2 t⟩
    rw [← ih.1]
    unfold writeTraceD
    repeat' first | rfl | split

theorem writeAll_out {H : Host} {a : OSegdArgs} (hf : a.gh1.formatCode ≠ 8015) (ts : List Trace) :
    ∀ {s : OSegd}, AfterCalls H a s → s.chansWritten + ts.length ≤ s.chansInRecord →
      (Spec.writeAll H ts s).1 = ts.map (fun t => (traceOut H a t).2) ∧
      (Spec.writeAll H ts s).2.out = s.out ++ (ts.map fun t => (traceOut H a t).1).flatten := by
  induction ts with
  | nil => intro s _ _; simp [Spec.writeAll]
  | cons t ts ih =>
    intro s hs hl
    rw [List.length_cons] at hl
    obtain ⟨rfl, hc⟩ := afterCalls_inv hs hf
    obtain ⟨e1, e2, e3, e4, e5⟩ := writeTraceD_eq hc t (H := H) (by omega)
    have hle : counted (traceOut H s.args t).2 ≤ 1 := by unfold counted; split <;> omega
    obtain ⟨g1, g2⟩ := ih (s := (writeTraceD H t s).2) (.called s t hs) (by omega)
    unfold Spec.writeAll
    simp only [List.map_cons, List.flatten_cons]
    refine ⟨?_, ?_⟩
    · rw [g1, e1]
    · rw [g2, e2, List.append_assoc]

end Sedaman
