import Verif.Spec.E2E
import Verif.Spec.SegdIO

/-!
# Specification of conversions from SEG-D to SEG-Y

What the header of a trace from a SEG-D file can contain.
-/

namespace Sedaman.Spec

/-- The integers of the 20 byte trace header, and bounds for them. Bad digits of packed decimal numbers count up
to 15. -/
def traceInts : List (String × Int) :=
  [("FFID", 2 ^ 24), ("SCAN_TYPE_NUM", 166), ("CH_SET_NUM", 2 ^ 16), ("CHAN", 16666), ("TR_HDR_EXT", 256),
   ("TRACE_EDIT", 256)]

/-- The values of the 20 byte trace header with a binary point. -/
def traceFractions : List String := ["FIRST_TIMING_WORD", "SAMPLE_SKEW", "TIME_BREAK_WIN"]

/-- The integers of the standard extension block. -/
def extInts : List (String × Int) :=
  [("R_LINE", 2 ^ 24), ("R_POINT", 2 ^ 24), ("R_POINT_IDX", 256), ("SAMP_NUM", 2 ^ 32), ("RESHOOT_IDX", 256),
   ("GROUP_IDX", 256), ("DEPTH_IDX", 256), ("SENSOR_TYPE", 256), ("TRACE_NUMBER", 2 ^ 24),
   ("SENSOR_MOVING", 256), ("PHYSICAL_UNIT", 256)]

/-- The values of the standard extension block with a binary point. -/
def extFractions : List String := ["R_LINE", "R_POINT"]

/-- A trace read with the extension maps `m` may carry the value `v` under the name `n`. Without maps the
standard extension block is read. -/
def MayCarry (m : ExtMap) (n : String) (v : Value) : Prop :=
  match v with
  | .int i => (∃ b, (n, b) ∈ traceInts ++ (if m = [] then extInts else []) ∧ 0 ≤ i ∧ i < b) ∨
      ∃ f ∈ m.flatten, f.name = n ∧ intKind f.ty ≠ none
  | .dbl _ => n ∈ traceFractions ++ (if m = [] then extFractions else []) ∨
      ∃ f ∈ m.flatten, f.name = n ∧ intKind f.ty = none

/-- The name of no field of a SEG-Y map is that of a SEG-D value with a binary point, and no field is an IBM
float. -/
def OnlyIntegers (m : ExtMap) (fields : List HField) : Prop :=
  ∀ f ∈ fields, f.ty ≠ .ibm ∧ f.name ∉ traceFractions ∧ (m = [] → f.name ∉ extFractions) ∧
    ∀ g ∈ m.flatten, g.name = f.name → intKind g.ty ≠ none

instance (m : ExtMap) (fields : List HField) : Decidable (OnlyIntegers m fields) := by
  unfold OnlyIntegers; infer_instance

/-- The traces `ts` were read from a SEG-D file, one after the other. -/
def ReadFrom (pw : Dbl → Dbl) (data : Bytes) (m : ExtMap) (ts : List Trace) : Prop :=
  ∃ s e, openSegd data m = .ok s ∧ readManyD pw ts.length s = .ok (ts, e)

/-! ## From SEG-Y to SEG-D -/

/-- The names of values that SEG-D traces have and SEG-Y traces have not. -/
def segdOnly : List String :=
  ["SCAN_TYPE_NUM", "CH_SET_NUM", "TR_HDR_EXT", "FIRST_TIMING_WORD", "SAMPLE_SKEW", "TRACE_EDIT", "TIME_BREAK_WIN",
   "R_LINE", "R_POINT", "R_POINT_IDX", "SENSOR_TYPE"]

/-- No field of the map has this name. -/
def NotNamed (m : HdrMap) (n : String) : Prop := ∀ b ∈ m, ∀ f ∈ b.fields, f.name ≠ n

instance (m : HdrMap) (n : String) : Decidable (NotNamed m n) := by unfold NotNamed; infer_instance

/-- The trace was read from a SEG-Y file, with a map that has no field for values of SEG-D only. -/
def FromSegy (t : Trace) : Prop :=
  ∃ r r', readTrace r = .ok (t, r') ∧ ∀ n ∈ segdOnly, NotNamed r.map n

/-- What a user adds to a trace before writing it to a SEG-D file: the channel set it belongs to, one extension
block, and the number of samples. -/
def forSegd (scan chSet : Nat) (t : Trace) : Trace :=
  ⟨(((t.header.set "SCAN_TYPE_NUM" (.int scan)).set "CH_SET_NUM" (.int chSet)).set "TR_HDR_EXT" (.int 1)).set
    "SAMP_NUM" (.int t.samples.length), t.samples⟩

end Sedaman.Spec
