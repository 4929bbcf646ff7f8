import Verif.Model.BinHeader

/-!
# Trace header values and trace header maps

Model of include/Trace.hpp, src/Trace.cpp and src/CommonSEGY.cpp:33-227.
-/

namespace Sedaman

/-- `Trace::Header::Value = variant<int64_t, double>`. Trace.hpp:40 -/
inductive Value where
  | int (v : Int)
  | dbl (d : Dbl)
  deriving DecidableEq, Repr

/-- `Trace::Header::ValueType`. Trace.hpp:47-61 -/
inductive VType where
  | i8 | u8 | i16 | u16 | i24 | u24 | i32 | u32 | i64 | u64 | ibm | ieeeSingle | ieeeDouble
  deriving DecidableEq, Repr

/-- The width assigned to each type by `check_tr_hdr_map`. CommonSEGY.cpp:52-85 -/
def VType.size : VType → Nat
  | .i8 => 1 | .u8 => 1
  | .i16 => 2 | .u16 => 2
  | .i24 => 3 | .u24 => 3
  | .i32 => 4 | .u32 => 4
  | .i64 => 8 | .u64 => 8
  | .ibm => 4 | .ieeeSingle => 4
  | .ieeeDouble => 8

/-! ## `Trace::Header` -/

/-- The `unordered_map<string, Value>` of a trace header. The model is an association list with
distinct keys; the order (unspecified in C++) is that of insertion. Trace.cpp:13-20 -/
abbrev Header := List (String × Value)

/-- `Trace::Header::get`. Trace.cpp:42-46 -/
def Header.get (h : Header) (k : String) : Option Value :=
  match h with
  | [] => none
  | (k', v) :: t => if k' = k then some v else Header.get t k

/-- `Trace::Header::set`, that is `d_hdr[key] = v`: replaces the value or inserts the key.
Trace.cpp:47 -/
def Header.set (h : Header) (k : String) (v : Value) : Header :=
  match h with
  | [] => [(k, v)]
  | (k', v') :: t => if k' = k then (k', v) :: t else (k', v') :: Header.set t k v

/-- `Trace::Header::keys`. Trace.cpp:49-57 -/
def Header.keys (h : Header) : List String := h.map (·.1)

/-- `hdr[key]` used as a value: a missing key is inserted with the default `int64_t` 0.
ISEGY.cpp:517, 537 -/
def Header.at (h : Header) (k : String) : Value × Header :=
  match h.get k with
  | some v => (v, h)
  | none => (.int 0, h.set k (.int 0))

/-! ## Trace header maps -/

/-- One entry of `map<uint32_t, pair<string, ValueType>>`. CommonSEGY.hpp:205-206 -/
structure HField where
  off : Nat
  name : String
  ty : VType
  deriving DecidableEq, Repr

/-- One header block: name and fields, in the iteration order of `std::map` (by offset). -/
structure HBlock where
  id : String
  fields : List HField
  deriving DecidableEq, Repr

abbrev HdrMap := List HBlock

/-- The loop over the fields of one block, after the first. `prev` and `prevSize` are those of
the preceding field; all arithmetic is on `uint32_t`. CommonSEGY.cpp:91-101 -/
def checkFields (prev prevSize : Nat) : List HField → Out Unit
  | [] => .ok ()
  | f :: t =>
    if (f.off + 2 ^ 32 - prev) % 2 ^ 32 < prevSize then throwExn .mapOverlap
    else if 240 < (f.off + f.ty.size) % 2 ^ 32 then throwExn .mapBounds
    else checkFields f.off f.ty.size t

/-- One block: the name has 8 bytes; the first field is only remembered.
CommonSEGY.cpp:44-101 -/
def checkBlock (b : HBlock) : Out Unit :=
  if b.id.utf8ByteSize ≠ 8 then throwExn .mapNameLen
  else
    match b.fields with
    | [] => .ok ()
    | f :: t => checkFields f.off f.ty.size t

/-- `for (auto& p : com->tr_hdr_map)`. CommonSEGY.cpp:44 -/
def checkBlocks : HdrMap → Out Unit
  | [] => .ok ()
  | b :: t => do checkBlock b; checkBlocks t

/-- `check_tr_hdr_map`: `size() - 1` and the announced number are compared as 64 bit unsigned
numbers. CommonSEGY.cpp:33-102 -/
def checkMap (bh : BinHeader) (m : HdrMap) : Out Unit :=
  if 1 < bh.revMajor ∧ bh.maxNumAddTrHeaders ≠ 0 ∧
      (m.length + 2 ^ 64 - 1) % 2 ^ 64 ≠ toU 8 bh.maxNumAddTrHeaders then
    throwExn .addHdrCount
  else checkBlocks m

/-- `CommonSEGY::default_trace_header`. CommonSEGY.cpp:104-227 -/
def defaultMap : HdrMap := [
  ⟨"SEG00000", [
    ⟨0, "TRC_SEQ_LINE", .i32⟩,
    ⟨4, "TRC_SEQ_SGY", .i32⟩,
    ⟨8, "FFID", .i32⟩,
    ⟨12, "CHAN", .i32⟩,
    ⟨16, "ESP", .i32⟩,
    ⟨20, "ENS_NO", .i32⟩,
    ⟨24, "SEQ_NO", .i32⟩,
    ⟨28, "TRACE_ID", .i16⟩,
    ⟨30, "VERT_SUM", .i16⟩,
    ⟨32, "HOR_SUM", .i16⟩,
    ⟨34, "DATA_USE", .i16⟩,
    ⟨36, "OFFSET", .i32⟩,
    ⟨40, "R_ELEV", .i32⟩,
    ⟨44, "S_ELEV", .i32⟩,
    ⟨48, "S_DEPTH", .i32⟩,
    ⟨52, "R_DATUM", .i32⟩,
    ⟨56, "S_DATUM", .i32⟩,
    ⟨60, "S_WATER", .i32⟩,
    ⟨64, "R_WATER", .i32⟩,
    ⟨68, "ELEV_SCALAR", .i16⟩,
    ⟨70, "COORD_SCALAR", .i16⟩,
    ⟨72, "SOU_X", .i32⟩,
    ⟨76, "SOU_Y", .i32⟩,
    ⟨80, "REC_X", .i32⟩,
    ⟨84, "REC_Y", .i32⟩,
    ⟨88, "COORD_UNITS", .i16⟩,
    ⟨90, "WEATH_VEL", .i16⟩,
    ⟨92, "SUBWEATH_VEL", .i16⟩,
    ⟨94, "S_UPHOLE", .i16⟩,
    ⟨96, "R_UPHOLE", .i16⟩,
    ⟨98, "S_STAT", .i16⟩,
    ⟨100, "R_STAT", .i16⟩,
    ⟨102, "TOT_STAT", .i16⟩,
    ⟨104, "LAG_A", .i16⟩,
    ⟨106, "LAG_B", .i16⟩,
    ⟨108, "DELAY_TIME", .i16⟩,
    ⟨110, "MUTE_START", .i16⟩,
    ⟨112, "MUTE_END", .i16⟩,
    ⟨114, "SAMP_NUM", .i16⟩,
    ⟨116, "SAMP_INT", .i16⟩,
    ⟨118, "GAIN_TYPE", .i16⟩,
    ⟨120, "GAIN_CONST", .i16⟩,
    ⟨122, "INIT_GAIN", .i16⟩,
    ⟨124, "CORRELATED", .i16⟩,
    ⟨126, "SW_START", .i16⟩,
    ⟨128, "SW_END", .i16⟩,
    ⟨130, "SW_LENGTH", .i16⟩,
    ⟨132, "SW_TYPE", .i16⟩,
    ⟨134, "SW_TAPER_START", .i16⟩,
    ⟨136, "SW_TAPER_END", .i16⟩,
    ⟨138, "TAPER_TYPE", .i16⟩,
    ⟨140, "ALIAS_FILT_FREQ", .i16⟩,
    ⟨142, "ALIAS_FILT_SLOPE", .i16⟩,
    ⟨144, "NOTCH_FILT_FREQ", .i16⟩,
    ⟨146, "NOTCH_FILT_SLOPE", .i16⟩,
    ⟨148, "LOW_CUT_FREQ", .i16⟩,
    ⟨150, "HIGH_CUT_FREQ", .i16⟩,
    ⟨152, "LOW_CUT_SLOPE", .i16⟩,
    ⟨154, "HIGH_CUT_SLOPE", .i16⟩,
    ⟨156, "YEAR", .i16⟩,
    ⟨158, "DAY", .i16⟩,
    ⟨160, "HOUR", .i16⟩,
    ⟨162, "MINUTE", .i16⟩,
    ⟨164, "SECOND", .i16⟩,
    ⟨166, "TIME_BASIS_CODE", .i16⟩,
    ⟨168, "TRACE_WEIGHT", .i16⟩,
    ⟨170, "GROUP_NUM_ROLL", .i16⟩,
    ⟨172, "GROUP_NUM_FIRST", .i16⟩,
    ⟨174, "GROUP_NUM_LAST", .i16⟩,
    ⟨176, "GAP_SIZE", .i16⟩,
    ⟨178, "OVER_TRAVEL", .i16⟩,
    ⟨180, "CDP_X", .i32⟩,
    ⟨184, "CDP_Y", .i32⟩,
    ⟨188, "INLINE", .i32⟩,
    ⟨192, "XLINE", .i32⟩,
    ⟨196, "SP_NUM", .i32⟩,
    ⟨200, "SP_NUM_SCALAR", .i16⟩,
    ⟨202, "TR_VAL_UNIT", .i16⟩,
    ⟨204, "TRANS_CONST_MANT", .i32⟩,
    ⟨208, "TRANS_CONST_EXP", .i16⟩,
    ⟨210, "TRANS_UNITS", .i16⟩,
    ⟨212, "DEVICE_ID", .i16⟩,
    ⟨214, "TIME_SCALAR", .i16⟩,
    ⟨216, "SOURCE_TYPE", .i16⟩,
    ⟨218, "SOU_V_DIR", .i16⟩,
    ⟨220, "SOU_X_DIR", .i16⟩,
    ⟨222, "SOU_I_DIR", .i16⟩,
    ⟨224, "SOURCE_MEASUREMENT_MANT", .i32⟩,
    ⟨228, "SOURCE_MEASUREMENT_EXP", .i16⟩,
    ⟨230, "SOU_MEAS_UNIT", .i16⟩]⟩,
  ⟨"SEG00001", [
    ⟨0, "TRC_SEQ_LINE", .u64⟩,
    ⟨8, "TRC_SEQ_SGY", .u64⟩,
    ⟨16, "FFID", .u64⟩,
    ⟨24, "ENS_NO", .u64⟩,
    ⟨32, "R_ELEV", .ieeeDouble⟩,
    ⟨40, "R_DEPTH", .ieeeDouble⟩,
    ⟨48, "S_ELEV", .ieeeDouble⟩,
    ⟨56, "S_DEPTH", .ieeeDouble⟩,
    ⟨64, "R_DATUM", .ieeeDouble⟩,
    ⟨72, "S_DATUM", .ieeeDouble⟩,
    ⟨80, "S_WATER", .ieeeDouble⟩,
    ⟨88, "R_WATER", .ieeeDouble⟩,
    ⟨96, "SOU_X", .ieeeDouble⟩,
    ⟨104, "SOU_Y", .ieeeDouble⟩,
    ⟨112, "REC_X", .ieeeDouble⟩,
    ⟨120, "REC_Y", .ieeeDouble⟩,
    ⟨128, "OFFSET", .ieeeDouble⟩,
    ⟨136, "SAMP_NUM", .i32⟩,
    ⟨140, "NANOSECOND", .i32⟩,
    ⟨144, "SAMP_INT", .ieeeDouble⟩,
    ⟨152, "CABLE_NUM", .i32⟩,
    ⟨156, "ADD_TRC_HDR_NUM", .i16⟩,
    ⟨158, "LAST_TRC_FLAG", .i16⟩,
    ⟨160, "CDP_X", .ieeeDouble⟩,
    ⟨168, "CDP_Y", .ieeeDouble⟩]⟩]

end Sedaman
