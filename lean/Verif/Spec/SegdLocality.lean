import Verif.Spec.SegdIO
import Verif.Spec.SegdSample
import Verif.Spec.SegdLayout

/-!
# Specification: which bytes of a SEG-D file depend on which part of a trace
-/

namespace Sedaman.Spec

/-- The formats whose writers do not put the bytes of a sample behind those of the sample before. -/
def heldFormats : List Int := [8015, 8022, 8042]

/-- Where the 20 bytes of a trace header keep a value: name, first byte, number of bytes. -/
def segdPlaces : List (String × Nat × Nat) :=
  [("FFID", 0, 2), ("SCAN_TYPE_NUM", 2, 1), ("CH_SET_NUM", 3, 1), ("CHAN", 4, 2), ("FIRST_TIMING_WORD", 6, 3),
    ("TR_HDR_EXT", 9, 1), ("SAMPLE_SKEW", 10, 1), ("TRACE_EDIT", 11, 1), ("TIME_BREAK_WIN", 12, 3),
    ("CH_SET_NUM", 15, 2), ("FFID", 17, 3)]

/-- The names of the standard extension block. -/
def standardNames : List String :=
  ["R_LINE", "R_POINT", "R_POINT_IDX", "RESHOOT_IDX", "GROUP_IDX", "DEPTH_IDX", "SAMP_NUM", "SENSOR_TYPE",
    "TRACE_NUMBER", "SENSOR_MOVING", "PHYSICAL_UNIT"]

/-- Byte `j` of a trace in the file belongs to a header value, or to a sample, that two traces do not
have in common. All samples belong to the values that choose the channel set, and with it the descale
factor. -/
inductive TouchedD (a : OSegdArgs) (t t' : Trace) (j : Nat) : Prop where
  | header (name : String) (off len : Nat) : (name, off, len) ∈ segdPlaces →
      t.header.get name ≠ t'.header.get name → off ≤ j → j < off + len → TouchedD a t t' j
  | field (i : Nat) (fs : List HField) (f : HField) : i < extBlocks t → a.extMap[i]? = some fs →
      f ∈ fs → t.header.get f.name ≠ t'.header.get f.name → 20 + 32 * i + f.off ≤ j →
      j < 20 + 32 * i + f.off + f.ty.size → j < 20 + 32 * (i + 1) → TouchedD a t t' j
  | standard (name : String) : a.extMap = [] → name ∈ standardNames →
      t.header.get name ≠ t'.header.get name → 20 ≤ j → j < 20 + 32 → TouchedD a t t' j
  | sample (k : Nat) : t.samples[k]? ≠ t'.samples[k]? →
      20 + 32 * extBlocks t + k * (segdBits a.gh1.formatCode / 8) ≤ j →
      j < 20 + 32 * extBlocks t + (k + 1) * (segdBits a.gh1.formatCode / 8) → TouchedD a t t' j
  | factor (name : String) : name = "SCAN_TYPE_NUM" ∨ name = "CH_SET_NUM" →
      t.header.get name ≠ t'.header.get name → 20 + 32 * extBlocks t ≤ j → TouchedD a t t' j

/-- The states of a writer: the constructor returned, and then `write_trace` was called any number of
times, with any traces and whatever came of it. -/
inductive AfterCalls (H : Host) (a : OSegdArgs) : OSegd → Prop
  | opened (heap : Nat) (s : OSegd) : openSegdWriter H heap a = .ok s → AfterCalls H a s
  | called (s : OSegd) (t : Trace) : AfterCalls H a s → AfterCalls H a (writeTraceD H t s).2

/-- A call that returned counts as one trace, a refused one does not. -/
def counted : Out Unit → Nat
  | .ok _ => 1
  | .error _ => 0

/-- The header values a writer looks at. -/
def lookedAt (a : OSegdArgs) : List String :=
  segdPlaces.map (·.1) ++ (if a.extMap = [] then standardNames else (a.extMap.flatten.map HField.name))

end Sedaman.Spec
