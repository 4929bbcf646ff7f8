import Verif.Spec.RawIO
import Verif.Spec.Bcd
import Verif.Spec.SegdGen
import Verif.Model.SegdRev3

/-!
# Layout of the revision 3 general header blocks

Offsets (from 0) and sizes as in the SEG-D revision 3 standard. The last byte (offset 31) of every
block is its type.
-/

namespace Sedaman.Spec

/-- How the bytes of a field are to be read. -/
inductive FieldKind where
  /-- unsigned, most significant byte first -/
  | uns (bytes : Nat)
  /-- two's complement, most significant byte first -/
  | sgn (bytes : Nat)
  /-- two packed decimal digits -/
  | packed
  /-- three bytes before and two bytes behind the binary point -/
  | fixed
  /-- characters -/
  | chars (bytes : Nat)
  deriving DecidableEq, Repr

/-- A field of a block. -/
structure BlkField where
  name : String
  off : Nat
  kind : FieldKind
  deriving DecidableEq, Repr

/-- `n` bytes of a block from an offset on. -/
def slice (buf : Bytes) (off n : Nat) : Bytes := (buf.drop off).take n

/-- The value of a field of a block. -/
def fieldVal (buf : Bytes) (f : BlkField) : String × BlkVal :=
  (f.name,
    match f.kind with
    | .uns n => .num (decNat .be (slice buf f.off n))
    | .sgn n => .num (decInt .be (slice buf f.off n))
    | .packed => .num (decVal (nibbles (slice buf f.off 1)))
    | .fixed => .dbl (dyadic (decNat .be (slice buf f.off 5)) 16)
    | .chars n => .text (slice buf f.off n))

/-- Fields at the start of every source block. -/
def stdSourceHead : List BlkField :=
  [⟨"expanded_file_number", 0, .uns 3⟩, ⟨"sou_line_num", 3, .fixed⟩, ⟨"sou_point_num", 8, .fixed⟩,
   ⟨"sou_point_index", 13, .uns 1⟩]

/-- Fields in the middle of every source block. -/
def stdSourceMid : List BlkField :=
  [⟨"source_id", 18, .uns 1⟩, ⟨"source_set_num", 19, .uns 1⟩, ⟨"reshoot_idx", 20, .uns 1⟩,
   ⟨"group_idx", 21, .uns 1⟩, ⟨"depth_idx", 22, .uns 1⟩]

/-- Fields at the end of every source block. -/
def stdSourceEnd : List BlkField :=
  [⟨"offset_crossline", 23, .uns 2⟩, ⟨"offset_inline", 25, .uns 2⟩, ⟨"size", 27, .uns 2⟩,
   ⟨"offset_depth", 29, .uns 2⟩]

/-- The fields of a source block between the common ones. -/
def stdSourceOwn : Nat → Option (List BlkField)
  | 0x15 => some [⟨"phase_control", 14, .uns 1⟩, ⟨"type_vibrator", 15, .uns 1⟩,
      ⟨"phase_angle", 16, .sgn 2⟩]
  | 0x16 => some [⟨"depth", 14, .uns 2⟩, ⟨"charge_length", 16, .uns 1⟩, ⟨"soil_type", 17, .uns 1⟩]
  | 0x17 => some [⟨"depth", 14, .uns 2⟩, ⟨"air_pressure", 16, .uns 2⟩]
  | 0x18 => some [⟨"depth", 14, .uns 2⟩, ⟨"air_pressure", 16, .uns 2⟩]
  | 0x19 => some [⟨"source_type", 14, .uns 1⟩, ⟨"moment", 15, .uns 3⟩]
  | 0x1f => some []
  | _ => none

/-- The fields of the blocks that do not describe a source. -/
def stdOther : Nat → Option (List BlkField)
  | 0x10 => some [⟨"abbr_vessel_crew_name", 0, .chars 3⟩, ⟨"vessel_crew_name", 3, .chars 28⟩]
  | 0x11 => some [⟨"survey_area_name", 0, .chars 31⟩]
  | 0x12 => some [⟨"client_name", 0, .chars 31⟩]
  | 0x13 => some [⟨"abbr_job_id", 0, .chars 5⟩, ⟨"job_id", 5, .chars 26⟩]
  | 0x14 => some [⟨"line_abbr", 0, .chars 7⟩, ⟨"line_id", 7, .chars 24⟩]
  | 0x20 => some [⟨"time", 0, .uns 8⟩, ⟨"source_status", 8, .uns 1⟩, ⟨"source_id", 9, .uns 1⟩,
      ⟨"source_moving", 10, .uns 1⟩, ⟨"error_description", 11, .chars 20⟩]
  | 0x21 => some [⟨"source_id", 0, .uns 1⟩,
      ⟨"scan_type_num_1", 1, .packed⟩, ⟨"ch_set_num_1", 2, .uns 2⟩, ⟨"trace_num_1", 4, .uns 3⟩,
      ⟨"scan_type_num_2", 7, .packed⟩, ⟨"ch_set_num_2", 8, .uns 2⟩, ⟨"trace_num_2", 10, .uns 3⟩,
      ⟨"scan_type_num_3", 13, .packed⟩, ⟨"ch_set_num_3", 14, .uns 2⟩, ⟨"trace_num_3", 16, .uns 3⟩,
      ⟨"scan_type_num_4", 19, .packed⟩, ⟨"ch_set_num_4", 20, .uns 2⟩, ⟨"trace_num_4", 22, .uns 3⟩,
      ⟨"scan_type_num_5", 25, .packed⟩, ⟨"ch_set_num_5", 26, .uns 2⟩, ⟨"trace_num_5", 28, .uns 3⟩]
  | 0x41 => some [⟨"instrument_test_time", 0, .uns 8⟩, ⟨"sensor_sensitivity", 8, .uns 4⟩,
      ⟨"instr_test_result", 12, .uns 1⟩, ⟨"serial_number", 13, .chars 18⟩]
  | 0x43 => some [⟨"freq1", 0, .uns 4⟩, ⟨"amp1", 4, .uns 4⟩, ⟨"phase1", 8, .uns 4⟩,
      ⟨"freq2", 12, .uns 4⟩, ⟨"amp2", 16, .uns 4⟩, ⟨"phase2", 20, .uns 4⟩,
      ⟨"calib_applied", 24, .uns 1⟩]
  | 0x44 => some [⟨"time_of_depl", 0, .uns 8⟩, ⟨"time_of_retr", 8, .uns 8⟩,
      ⟨"timer_offset_depl", 16, .uns 4⟩, ⟨"time_offset_retr", 20, .uns 4⟩,
      ⟨"timedrift_corr", 24, .uns 1⟩, ⟨"corr_method", 25, .uns 1⟩]
  | 0x45 => some [⟨"equip_dim_x", 0, .uns 3⟩, ⟨"equip_dim_y", 3, .uns 3⟩, ⟨"equip_dim_z", 6, .uns 3⟩,
      ⟨"pos_term", 9, .uns 1⟩, ⟨"equip_offset_x", 10, .uns 3⟩, ⟨"equip_offset_y", 13, .uns 3⟩,
      ⟨"equip_offset_z", 16, .uns 3⟩]
  | 0x50 => some [⟨"time_of_position", 0, .uns 8⟩, ⟨"time_of_measurement", 8, .uns 8⟩,
      ⟨"vert_error", 16, .uns 4⟩, ⟨"hor_error_semi_major", 20, .uns 4⟩,
      ⟨"hor_error_semi_minor", 24, .uns 4⟩, ⟨"hor_error_orientation", 28, .uns 2⟩,
      ⟨"position_type", 30, .uns 1⟩]
  | 0x51 => some [⟨"crs_a_coord1", 0, .uns 8⟩, ⟨"crs_a_coord2", 8, .uns 8⟩,
      ⟨"crs_a_coord3", 16, .uns 8⟩, ⟨"crs_a_crsref", 24, .uns 2⟩, ⟨"pos1_valid", 26, .uns 1⟩,
      ⟨"pos1_quality", 27, .uns 1⟩]
  | 0x52 => some [⟨"crs_b_coord1", 0, .uns 8⟩, ⟨"crs_b_coord2", 8, .uns 8⟩,
      ⟨"crs_b_coord3", 16, .uns 8⟩, ⟨"crs_b_crsref", 24, .uns 2⟩, ⟨"pos2_valid", 26, .uns 1⟩,
      ⟨"pos2_quality", 27, .uns 1⟩]
  | 0x55 => some [⟨"crs", 0, .chars 31⟩]
  | 0x56 => some [⟨"offset_east", 0, .uns 4⟩, ⟨"offset_north", 4, .uns 4⟩,
      ⟨"offset_vert", 8, .uns 4⟩, ⟨"description", 12, .chars 19⟩]
  | 0x60 => some [⟨"rot_x", 0, .uns 4⟩, ⟨"rot_y", 4, .uns 4⟩, ⟨"rot_z", 8, .uns 4⟩,
      ⟨"ref_orientation", 12, .uns 4⟩, ⟨"time_stamp", 16, .uns 8⟩, ⟨"ori_type", 24, .uns 1⟩,
      ⟨"ref_orient_valid", 25, .uns 1⟩, ⟨"rot_applied", 26, .uns 1⟩,
      ⟨"rot_north_applied", 27, .uns 1⟩]
  | 0x61 => some [⟨"timestamp", 0, .uns 8⟩, ⟨"measurement_value", 8, .uns 4⟩,
      ⟨"maximum_value", 12, .uns 4⟩, ⟨"minimum_value", 16, .uns 4⟩, ⟨"quantity_class", 20, .uns 2⟩,
      ⟨"unit_of_measure", 22, .uns 2⟩, ⟨"measurement_description", 24, .uns 2⟩]
  | _ => none

end Sedaman.Spec
