import Verif.Model.Basic

/-!
# Python bindings

The attributes and methods `src/pybind/pybind.cpp` gives to Python, and the public data members of
the C++ header classes. The tables are copied from the sources by a script.

Not modelled here: constructors and `text_headers` (see `Model/PyText`), iteration (see `Model/PyIter`),
the conversion of Python objects to C++ types (a value that does not fit the member is refused by pybind11
before anything is called), and the lambda for `samples_as_numpy_array`.
-/

namespace Sedaman

/-- One attribute: name in Python, C++ member behind it, and for members that are `char` arrays the
length given to `string(…)` and `strncpy`. -/
structure PyAttr where
  name : String
  member : String
  text : Option Nat := none
  deriving DecidableEq, Repr

/-- One header class: public data members and attributes. -/
structure PyClass where
  name : String
  members : List String
  attrs : List PyAttr
  deriving DecidableEq, Repr

/-- A number, or the contents of a `char` array. -/
inductive PyVal where
  | num (v : Int)
  | dbl (d : Nat)
  | text (b : Bytes)
  deriving DecidableEq, Repr

/-- A C++ object: the values of its members. -/
abbrev PyObj := String → PyVal

/-- `strncpy(dst, s.c_str(), n)`: the bytes of `s` up to the first NUL, at most `n`, then zeros up to
`n`. -/
def strncpy (s : Bytes) (n : Nat) : Bytes :=
  let t := (s.takeWhile (· ≠ 0)).take n
  t ++ List.replicate (n - t.length) 0

/-- The attribute a name refers to: a later definition replaces an earlier one. -/
def PyClass.find (c : PyClass) (a : String) : Option PyAttr := c.attrs.reverse.find? (·.name = a)

/-- `o.a` in Python; `none` is an `AttributeError`. -/
def PyClass.getattr (c : PyClass) (o : PyObj) (a : String) : Option PyVal :=
  (c.find a).map fun x => o x.member

/-- `o.a = v` in Python; `none` is an `AttributeError` or, for a number given to a text attribute or
the other way round, a `TypeError`. -/
def PyClass.setattr (c : PyClass) (o : PyObj) (a : String) (v : PyVal) : Option PyObj :=
  match c.find a with
  | none => none
  | some x =>
    match x.text, v with
    | none, .text _ => none
    | none, w => some fun k => if k = x.member then w else o k
    | some n, .text s => some fun k => if k = x.member then .text (strncpy s n) else o k
    | some _, _ => none

/-- One bound member function: class, name in Python, C++ function. -/
structure PyMethod where
  owner : String
  name : String
  function : String
  deriving DecidableEq, Repr

/-- `BinaryHeader`. CommonSEGY.hpp:44-87, pybind.cpp:80-166 -/
def pyBinaryHeader : PyClass where
  name := "BinaryHeader"
  members :=
    ["job_id", "line_num", "reel_num", "tr_per_ens",
     "aux_per_ens", "samp_int", "samp_int_orig", "samp_per_tr",
     "samp_per_tr_orig", "format_code", "ens_fold", "sort_code",
     "vert_sum_code", "sw_freq_at_start", "sw_freq_at_end", "sw_length",
     "sw_type_code", "sw_ch_tr_num", "taper_at_start", "taper_at_end",
     "taper_type", "corr_traces", "bin_gain_recov", "amp_recov_meth",
     "measure_system", "impulse_sig_pol", "vib_pol_code", "ext_tr_per_ens",
     "ext_aux_per_ens", "ext_samp_per_tr", "ext_samp_int", "ext_samp_int_orig",
     "ext_samp_per_tr_orig", "ext_ens_fold", "endianness", "SEGY_rev_major_ver",
     "SEGY_rev_minor_ver", "fixed_tr_length", "ext_text_headers_num", "max_num_add_tr_headers",
     "time_basis_code", "num_of_tr_in_file", "byte_off_of_first_tr", "num_of_trailer_stanza"]
  attrs :=
    [⟨"job_id", "job_id", none⟩,
     ⟨"line_num", "line_num", none⟩,
     ⟨"reel_num", "reel_num", none⟩,
     ⟨"tr_per_ens", "tr_per_ens", none⟩,
     ⟨"aux_per_ens", "aux_per_ens", none⟩,
     ⟨"samp_int", "samp_int", none⟩,
     ⟨"samp_int_orig", "samp_int_orig", none⟩,
     ⟨"samp_per_tr", "samp_per_tr", none⟩,
     ⟨"samp_per_tr_orig", "samp_per_tr_orig", none⟩,
     ⟨"format_code", "format_code", none⟩,
     ⟨"ens_fold", "ens_fold", none⟩,
     ⟨"sort_code", "sort_code", none⟩,
     ⟨"vert_sum_code", "vert_sum_code", none⟩,
     ⟨"sw_freq_at_start", "sw_freq_at_start", none⟩,
     ⟨"sw_freq_at_end", "sw_freq_at_end", none⟩,
     ⟨"sw_length", "sw_length", none⟩,
     ⟨"sw_type_code", "sw_type_code", none⟩,
     ⟨"sw_ch_tr_num", "sw_ch_tr_num", none⟩,
     ⟨"taper_at_start", "taper_at_start", none⟩,
     ⟨"taper_at_end", "taper_at_end", none⟩,
     ⟨"taper_type", "taper_type", none⟩,
     ⟨"corr_traces", "corr_traces", none⟩,
     ⟨"bin_gain_recov", "bin_gain_recov", none⟩,
     ⟨"amp_recov_meth", "amp_recov_meth", none⟩,
     ⟨"measure_system", "measure_system", none⟩,
     ⟨"impulse_sig_pol", "impulse_sig_pol", none⟩,
     ⟨"vib_pol_code", "vib_pol_code", none⟩,
     ⟨"ext_tr_per_ens", "ext_tr_per_ens", none⟩,
     ⟨"ext_aux_per_ens", "ext_aux_per_ens", none⟩,
     ⟨"ext_samp_per_tr", "ext_samp_per_tr", none⟩,
     ⟨"ext_samp_int", "ext_samp_int", none⟩,
     ⟨"ext_samp_int_orig", "ext_samp_int_orig", none⟩,
     ⟨"ext_samp_per_tr_orig", "ext_samp_per_tr_orig", none⟩,
     ⟨"ext_ens_fold", "ext_ens_fold", none⟩,
     ⟨"endianness", "endianness", none⟩,
     ⟨"SEGY_rev_major_ver", "SEGY_rev_major_ver", none⟩,
     ⟨"SEGY_rev_minor_ver", "SEGY_rev_minor_ver", none⟩,
     ⟨"fixed_tr_length", "fixed_tr_length", none⟩,
     ⟨"ext_text_headers_num", "ext_text_headers_num", none⟩,
     ⟨"max_num_add_tr_headers", "max_num_add_tr_headers", none⟩,
     ⟨"time_basis_code", "time_basis_code", none⟩,
     ⟨"num_of_tr_in_file", "num_of_tr_in_file", none⟩,
     ⟨"byte_off_of_first_tr", "byte_off_of_first_tr", none⟩,
     ⟨"num_of_trailer_stanza", "num_of_trailer_stanza", none⟩]

/-- `GeneralHeader`. CommonSEGD.hpp:45-66, pybind.cpp:301-340 -/
def pyGeneralHeader : PyClass where
  name := "GeneralHeader"
  members :=
    ["file_number", "format_code", "gen_const", "year",
     "add_gen_hdr_blocks", "day", "hour", "minute",
     "second", "manufac_code", "manufac_num", "bytes_per_scan",
     "base_scan_int", "polarity", "scans_per_block", "record_type",
     "record_length", "scan_types_per_record", "channel_sets_per_scan_type", "skew_blocks",
     "extended_hdr_blocks", "external_hdr_blocks"]
  attrs :=
    [⟨"file_number", "file_number", none⟩,
     ⟨"format_code", "format_code", none⟩,
     ⟨"gen_const", "gen_const", none⟩,
     ⟨"year", "year", none⟩,
     ⟨"add_gen_hdr_blocks", "add_gen_hdr_blocks", none⟩,
     ⟨"day", "day", none⟩,
     ⟨"hour", "hour", none⟩,
     ⟨"minute", "minute", none⟩,
     ⟨"second", "second", none⟩,
     ⟨"manufac_code", "manufac_code", none⟩,
     ⟨"manufac_num", "manufac_num", none⟩,
     ⟨"bytes_per_scan", "bytes_per_scan", none⟩,
     ⟨"base_scan_int", "base_scan_int", none⟩,
     ⟨"polarity", "polarity", none⟩,
     ⟨"scans_per_block", "scans_per_block", none⟩,
     ⟨"record_type", "record_type", none⟩,
     ⟨"record_length", "record_length", none⟩,
     ⟨"scan_types_per_record", "scan_types_per_record", none⟩,
     ⟨"channel_sets_per_scan_type", "channel_sets_per_scan_type", none⟩,
     ⟨"skew_blocks", "skew_blocks", none⟩,
     ⟨"extended_hdr_blocks", "extended_hdr_blocks", none⟩,
     ⟨"external_hdr_blocks", "external_hdr_blocks", none⟩]

/-- `GeneralHeader2`. CommonSEGD.hpp:113-126, pybind.cpp:348-379 -/
def pyGeneralHeader2 : PyClass where
  name := "GeneralHeader2"
  members :=
    ["expanded_file_num", "ext_ch_sets_per_scan_type", "extended_hdr_blocks", "external_hdr_blocks",
     "extended_skew_blocks", "segd_rev_major", "segd_rev_minor", "gen_trailer_num_of_blocks",
     "ext_record_len", "record_set_number", "ext_num_add_blks_in_gen_hdr", "dominant_sampling_int",
     "gen_hdr_block_num", "sequence_number"]
  attrs :=
    [⟨"expanded_file_num", "expanded_file_num", none⟩,
     ⟨"ext_ch_sets_per_scan_type", "ext_ch_sets_per_scan_type", none⟩,
     ⟨"extended_hdr_blocks", "extended_hdr_blocks", none⟩,
     ⟨"external_hdr_blocks", "external_hdr_blocks", none⟩,
     ⟨"extended_skew_blocks", "extended_skew_blocks", none⟩,
     ⟨"segd_rev_major", "segd_rev_major", none⟩,
     ⟨"segd_rev_minor", "segd_rev_minor", none⟩,
     ⟨"gen_trailer_num_of_blocks", "gen_trailer_num_of_blocks", none⟩,
     ⟨"ext_record_len", "ext_record_len", none⟩,
     ⟨"record_set_number", "record_set_number", none⟩,
     ⟨"ext_num_add_blks_in_gen_hdr", "ext_num_add_blks_in_gen_hdr", none⟩,
     ⟨"dominant_sampling_int", "dominant_sampling_int", none⟩,
     ⟨"gen_hdr_block_num", "gen_hdr_block_num", none⟩,
     ⟨"sequence_number", "sequence_number", none⟩]

/-- `GeneralHeaderN`. CommonSEGD.hpp:215-223, pybind.cpp:394-409 -/
def pyGeneralHeaderN : PyClass where
  name := "GeneralHeaderN"
  members :=
    ["expanded_file_number", "sou_line_num", "sou_point_num", "sou_point_index",
     "phase_control", "type_vibrator", "phase_angle", "gen_hdr_block_num",
     "sou_set_num"]
  attrs :=
    [⟨"expanded_file_number", "expanded_file_number", none⟩,
     ⟨"sou_line_num", "sou_line_num", none⟩,
     ⟨"sou_point_num", "sou_point_num", none⟩,
     ⟨"phase_control", "phase_control", none⟩,
     ⟨"type_vibrator", "type_vibrator", none⟩,
     ⟨"phase_angle", "phase_angle", none⟩,
     ⟨"gen_hdr_block_num", "gen_hdr_block_num", none⟩,
     ⟨"sou_set_num", "sou_set_num", none⟩]

/-- `GeneralHeader3`. CommonSEGD.hpp:264-270, pybind.cpp:417-429 -/
def pyGeneralHeader3 : PyClass where
  name := "GeneralHeader3"
  members :=
    ["time_zero", "record_size", "data_size", "header_size",
     "extd_rec_mode", "rel_time_mode", "gen_hdr_block_num"]
  attrs :=
    [⟨"time_zero", "time_zero", none⟩,
     ⟨"record_size", "record_size", none⟩,
     ⟨"data_size", "data_size", none⟩,
     ⟨"header_size", "header_size", none⟩,
     ⟨"extd_rec_mode", "extd_rec_mode", none⟩,
     ⟨"rel_time_mode", "rel_time_mode", none⟩,
     ⟨"gen_hdr_block_num", "gen_hdr_block_num", none⟩]

/-- `GeneralHeaderVes`. CommonSEGD.hpp:301-303, pybind.cpp:437-453 -/
def pyGeneralHeaderVes : PyClass where
  name := "GeneralHeaderVes"
  members :=
    ["abbr_vessel_crew_name", "vessel_crew_name", "gen_hdr_block_type"]
  attrs :=
    [⟨"abbr_vessel_crew_name", "abbr_vessel_crew_name", some 3⟩,
     ⟨"vessel_crew_name", "vessel_crew_name", some 28⟩,
     ⟨"gen_hdr_block_type", "gen_hdr_block_type", none⟩]

/-- `GeneralHeaderSur`. CommonSEGD.hpp:337-338, pybind.cpp:461-469 -/
def pyGeneralHeaderSur : PyClass where
  name := "GeneralHeaderSur"
  members :=
    ["survey_area_name", "gen_hdr_block_type"]
  attrs :=
    [⟨"survey_area_name", "survey_area_name", some 31⟩,
     ⟨"gen_hdr_block_type", "gen_hdr_block_type", none⟩]

/-- `GeneralHeaderCli`. CommonSEGD.hpp:371-372, pybind.cpp:477-483 -/
def pyGeneralHeaderCli : PyClass where
  name := "GeneralHeaderCli"
  members :=
    ["client_name", "gen_hdr_block_type"]
  attrs :=
    [⟨"client_name", "client_name", some 31⟩,
     ⟨"gen_hdr_block_type", "gen_hdr_block_type", none⟩]

/-- `GeneralHeaderJob`. CommonSEGD.hpp:405-407, pybind.cpp:491-503 -/
def pyGeneralHeaderJob : PyClass where
  name := "GeneralHeaderJob"
  members :=
    ["abbr_job_id", "job_id", "gen_hdr_block_type"]
  attrs :=
    [⟨"abbr_job_id", "abbr_job_id", some 5⟩,
     ⟨"job_id", "job_id", some 26⟩,
     ⟨"gen_hdr_block_type", "gen_hdr_block_type", none⟩]

/-- `GeneralHeaderLin`. CommonSEGD.hpp:441-443, pybind.cpp:511-523 -/
def pyGeneralHeaderLin : PyClass where
  name := "GeneralHeaderLin"
  members :=
    ["line_abbr", "line_id", "gen_hdr_block_type"]
  attrs :=
    [⟨"line_abbr", "line_abbr", some 7⟩,
     ⟨"line_id", "line_id", some 24⟩,
     ⟨"gen_hdr_block_type", "gen_hdr_block_type", none⟩]

/-- `GeneralHeaderVib`. CommonSEGD.hpp:477-493, pybind.cpp:531-564 -/
def pyGeneralHeaderVib : PyClass where
  name := "GeneralHeaderVib"
  members :=
    ["expanded_file_number", "sou_line_num", "sou_point_num", "sou_point_index",
     "phase_control", "type_vibrator", "phase_angle", "source_id",
     "source_set_num", "reshoot_idx", "group_idx", "depth_idx",
     "offset_crossline", "offset_inline", "size", "offset_depth",
     "gen_hdr_block_type"]
  attrs :=
    [⟨"expanded_file_number", "expanded_file_number", none⟩,
     ⟨"sou_line_num", "sou_line_num", none⟩,
     ⟨"sou_point_num", "sou_point_num", none⟩,
     ⟨"sou_point_index", "sou_point_index", none⟩,
     ⟨"phase_control", "phase_control", none⟩,
     ⟨"type_vibrator", "type_vibrator", none⟩,
     ⟨"phase_angle", "phase_angle", none⟩,
     ⟨"source_id", "source_id", none⟩,
     ⟨"source_set_num", "source_set_num", none⟩,
     ⟨"reshoot_idx", "reshoot_idx", none⟩,
     ⟨"group_idx", "group_idx", none⟩,
     ⟨"depth_idx", "depth_idx", none⟩,
     ⟨"offset_crossline", "offset_crossline", none⟩,
     ⟨"offset_inline", "offset_inline", none⟩,
     ⟨"size", "size", none⟩,
     ⟨"offset_depth", "offset_depth", none⟩,
     ⟨"gen_hdr_block_type", "gen_hdr_block_type", none⟩]

/-- `GeneralHeaderExp`. CommonSEGD.hpp:541-557, pybind.cpp:572-603 -/
def pyGeneralHeaderExp : PyClass where
  name := "GeneralHeaderExp"
  members :=
    ["expanded_file_number", "sou_line_num", "sou_point_num", "sou_point_index",
     "depth", "charge_length", "soil_type", "source_id",
     "source_set_num", "reshoot_idx", "group_idx", "depth_idx",
     "offset_crossline", "offset_inline", "size", "offset_depth",
     "gen_hdr_block_type"]
  attrs :=
    [⟨"expanded_file_number", "expanded_file_number", none⟩,
     ⟨"sou_line_num", "sou_line_num", none⟩,
     ⟨"sou_point_num", "sou_point_num", none⟩,
     ⟨"sou_point_index", "sou_point_index", none⟩,
     ⟨"depth", "depth", none⟩,
     ⟨"charge_length", "charge_length", none⟩,
     ⟨"soil_type", "soil_type", none⟩,
     ⟨"source_id", "source_id", none⟩,
     ⟨"source_set_num", "source_set_num", none⟩,
     ⟨"reshoot_idx", "reshoot_idx", none⟩,
     ⟨"depth_idx", "depth_idx", none⟩,
     ⟨"offset_crossline", "offset_crossline", none⟩,
     ⟨"offset_inline", "offset_inline", none⟩,
     ⟨"size", "size", none⟩,
     ⟨"offset_depth", "offset_depth", none⟩,
     ⟨"gen_hdr_block_type", "gen_hdr_block_type", none⟩]

/-- `GeneralHeaderAir`. CommonSEGD.hpp:605-620, pybind.cpp:611-642 -/
def pyGeneralHeaderAir : PyClass where
  name := "GeneralHeaderAir"
  members :=
    ["expanded_file_number", "sou_line_num", "sou_point_num", "sou_point_index",
     "depth", "air_pressure", "source_id", "source_set_num",
     "reshoot_idx", "group_idx", "depth_idx", "offset_crossline",
     "offset_inline", "size", "offset_depth", "gen_hdr_block_type"]
  attrs :=
    [⟨"expanded_file_number", "expanded_file_number", none⟩,
     ⟨"sou_line_num", "sou_line_num", none⟩,
     ⟨"sou_point_num", "sou_point_num", none⟩,
     ⟨"sou_point_index", "sou_point_index", none⟩,
     ⟨"depth", "depth", none⟩,
     ⟨"air_pressure", "air_pressure", none⟩,
     ⟨"source_id", "source_id", none⟩,
     ⟨"source_set_num", "source_set_num", none⟩,
     ⟨"reshoot_idx", "reshoot_idx", none⟩,
     ⟨"group_idx", "group_idx", none⟩,
     ⟨"depth_idx", "depth_idx", none⟩,
     ⟨"offset_crossline", "offset_crossline", none⟩,
     ⟨"offset_inline", "offset_inline", none⟩,
     ⟨"size", "size", none⟩,
     ⟨"offset_depth", "offset_depth", none⟩,
     ⟨"gen_hdr_block_type", "gen_hdr_block_type", none⟩]

/-- `GeneralHeaderWat`. CommonSEGD.hpp:667-682, pybind.cpp:650-681 -/
def pyGeneralHeaderWat : PyClass where
  name := "GeneralHeaderWat"
  members :=
    ["expanded_file_number", "sou_line_num", "sou_point_num", "sou_point_index",
     "depth", "air_pressure", "source_id", "source_set_num",
     "reshoot_idx", "group_idx", "depth_idx", "offset_crossline",
     "offset_inline", "size", "offset_depth", "gen_hdr_block_type"]
  attrs :=
    [⟨"expanded_file_number", "expanded_file_number", none⟩,
     ⟨"sou_line_num", "sou_line_num", none⟩,
     ⟨"sou_point_num", "sou_point_num", none⟩,
     ⟨"sou_point_index", "sou_point_index", none⟩,
     ⟨"depth", "depth", none⟩,
     ⟨"air_pressure", "air_pressure", none⟩,
     ⟨"source_id", "source_id", none⟩,
     ⟨"source_set_num", "source_set_num", none⟩,
     ⟨"reshoot_idx", "reshoot_idx", none⟩,
     ⟨"group_idx", "group_idx", none⟩,
     ⟨"depth_idx", "depth_idx", none⟩,
     ⟨"offset_crossline", "offset_crossline", none⟩,
     ⟨"offset_inline", "offset_inline", none⟩,
     ⟨"size", "size", none⟩,
     ⟨"offset_depth", "offset_depth", none⟩,
     ⟨"gen_hdr_block_type", "gen_hdr_block_type", none⟩]

/-- `GeneralHeaderEle`. CommonSEGD.hpp:729-744, pybind.cpp:689-718 -/
def pyGeneralHeaderEle : PyClass where
  name := "GeneralHeaderEle"
  members :=
    ["expanded_file_number", "sou_line_num", "sou_point_num", "sou_point_index",
     "source_type", "moment", "source_id", "source_set_num",
     "reshoot_idx", "group_idx", "depth_idx", "offset_crossline",
     "offset_inline", "size", "offset_depth", "gen_hdr_block_type"]
  attrs :=
    [⟨"expanded_file_number", "expanded_file_number", none⟩,
     ⟨"sou_line_num", "sou_line_num", none⟩,
     ⟨"sou_point_num", "sou_point_num", none⟩,
     ⟨"sou_point_index", "sou_point_index", none⟩,
     ⟨"source_type", "source_type", none⟩,
     ⟨"moment", "moment", none⟩,
     ⟨"source_id", "source_id", none⟩,
     ⟨"source_set_num", "source_set_num", none⟩,
     ⟨"reshoot_idx", "reshoot_idx", none⟩,
     ⟨"group_idx", "depth_idx", none⟩,
     ⟨"offset_crossline", "offset_inline", none⟩,
     ⟨"offset_inline", "offset_inline", none⟩,
     ⟨"size", "size", none⟩,
     ⟨"offset_depth", "offset_depth", none⟩,
     ⟨"gen_hdr_block_type", "gen_hdr_block_type", none⟩]

/-- `GeneralHeaderOth`. CommonSEGD.hpp:791-804, pybind.cpp:726-753 -/
def pyGeneralHeaderOth : PyClass where
  name := "GeneralHeaderOth"
  members :=
    ["expanded_file_number", "sou_line_num", "sou_point_num", "sou_point_index",
     "source_id", "source_set_num", "reshoot_idx", "group_idx",
     "depth_idx", "offset_crossline", "offset_inline", "size",
     "offset_depth", "gen_hdr_block_type"]
  attrs :=
    [⟨"expanded_file_number", "expanded_file_number", none⟩,
     ⟨"sou_line_num", "sou_line_num", none⟩,
     ⟨"sou_point_num", "sou_point_num", none⟩,
     ⟨"sou_point_index", "sou_point_index", none⟩,
     ⟨"source_id", "source_id", none⟩,
     ⟨"source_set_num", "source_set_num", none⟩,
     ⟨"reshoot_idx", "reshoot_idx", none⟩,
     ⟨"group_idx", "group_idx", none⟩,
     ⟨"depth_idx", "depth_idx", none⟩,
     ⟨"offset_crossline", "offset_crossline", none⟩,
     ⟨"offset_inline", "offset_inline", none⟩,
     ⟨"size", "size", none⟩,
     ⟨"offset_depth", "offset_depth", none⟩,
     ⟨"gen_hdr_block_type", "gen_hdr_block_type", none⟩]

/-- `GeneralHeaderAdd`. CommonSEGD.hpp:849-854, pybind.cpp:761-777 -/
def pyGeneralHeaderAdd : PyClass where
  name := "GeneralHeaderAdd"
  members :=
    ["time", "source_status", "source_id", "source_moving",
     "error_description", "gen_hdr_block_type"]
  attrs :=
    [⟨"time", "time", none⟩,
     ⟨"source_status", "source_status", none⟩,
     ⟨"source_id", "source_id", none⟩,
     ⟨"source_moving", "source_moving", none⟩,
     ⟨"error_description", "error_description", some 20⟩,
     ⟨"gen_hdr_block_type", "gen_hdr_block_type", none⟩]

/-- `GeneralHeaderSaux`. CommonSEGD.hpp:891-907, pybind.cpp:785-817 -/
def pyGeneralHeaderSaux : PyClass where
  name := "GeneralHeaderSaux"
  members :=
    ["source_id", "scan_type_num_1", "ch_set_num_1", "trace_num_1",
     "scan_type_num_2", "ch_set_num_2", "trace_num_2", "scan_type_num_3",
     "ch_set_num_3", "trace_num_3", "scan_type_num_4", "ch_set_num_4",
     "trace_num_4", "scan_type_num_5", "ch_set_num_5", "trace_num_5",
     "gen_hdr_block_type"]
  attrs :=
    [⟨"source_id", "source_id", none⟩,
     ⟨"scan_type_num_1", "scan_type_num_1", none⟩,
     ⟨"ch_set_num_1", "ch_set_num_1", none⟩,
     ⟨"trace_num_1", "trace_num_1", none⟩,
     ⟨"scan_type_num_2", "scan_type_num_2", none⟩,
     ⟨"ch_set_num_2", "ch_set_num_2", none⟩,
     ⟨"trace_num_2", "trace_num_2", none⟩,
     ⟨"scan_type_num_3", "scan_type_num_3", none⟩,
     ⟨"ch_set_num_3", "ch_set_num_3", none⟩,
     ⟨"trace_num_3", "trace_num_3", none⟩,
     ⟨"scan_type_num_4", "scan_type_num_4", none⟩,
     ⟨"ch_set_num_4", "ch_set_num_4", none⟩,
     ⟨"trace_num_4", "trace_num_4", none⟩,
     ⟨"scan_type_num_5", "scan_type_num_5", none⟩,
     ⟨"ch_set_num_5", "ch_set_num_5", none⟩,
     ⟨"trace_num_5", "trace_num_5", none⟩,
     ⟨"gen_hdr_block_type", "gen_hdr_block_type", none⟩]

/-- `GeneralHeaderCoord`. CommonSEGD.hpp:956-957, pybind.cpp:826-832 -/
def pyGeneralHeaderCoord : PyClass where
  name := "GeneralHeaderCoord"
  members :=
    ["crs", "gen_hdr_block_type"]
  attrs :=
    [⟨"crs", "crs", some 31⟩,
     ⟨"gen_hdr_block_type", "gen_hdr_block_type", none⟩]

/-- `GeneralHeaderPos1`. CommonSEGD.hpp:990-997, pybind.cpp:842-860 -/
def pyGeneralHeaderPos1 : PyClass where
  name := "GeneralHeaderPos1"
  members :=
    ["time_of_position", "time_of_measurement", "vert_error", "hor_error_semi_major",
     "hor_error_semi_minor", "hor_error_orientation", "position_type", "gen_hdr_block_type"]
  attrs :=
    [⟨"time_of_position", "time_of_position", none⟩,
     ⟨"time_of_measurement", "time_of_measurement", none⟩,
     ⟨"vert_error", "vert_error", none⟩,
     ⟨"hor_error_semi_major", "hor_error_semi_major", none⟩,
     ⟨"hor_error_semi_minor", "hor_error_semi_minor", none⟩,
     ⟨"hor_error_orientation", "hor_error_orientation", none⟩,
     ⟨"position_type", "position_type", none⟩,
     ⟨"gen_hdr_block_type", "gen_hdr_block_type", none⟩]

/-- `GeneralHeaderPos2`. CommonSEGD.hpp:1036-1042, pybind.cpp:868-880 -/
def pyGeneralHeaderPos2 : PyClass where
  name := "GeneralHeaderPos2"
  members :=
    ["crs_a_coord1", "crs_a_coord2", "crs_a_coord3", "crs_a_crsref",
     "pos1_valid", "pos1_quality", "gen_hdr_block_type"]
  attrs :=
    [⟨"crs_a_coord1", "crs_a_coord1", none⟩,
     ⟨"crs_a_coord2", "crs_a_coord2", none⟩,
     ⟨"crs_a_coord3", "crs_a_coord3", none⟩,
     ⟨"crs_a_crsref", "crs_a_crsref", none⟩,
     ⟨"pos1_valid", "pos1_valid", none⟩,
     ⟨"pos1_quality", "pos1_quality", none⟩,
     ⟨"gen_hdr_block_type", "gen_hdr_block_type", none⟩]

/-- `GeneralHeaderPos3`. CommonSEGD.hpp:1080-1086, pybind.cpp:888-900 -/
def pyGeneralHeaderPos3 : PyClass where
  name := "GeneralHeaderPos3"
  members :=
    ["crs_b_coord1", "crs_b_coord2", "crs_b_coord3", "crs_b_crsref",
     "pos2_valid", "pos2_quality", "gen_hdr_block_type"]
  attrs :=
    [⟨"crs_b_coord1", "crs_b_coord1", none⟩,
     ⟨"crs_b_coord2", "crs_b_coord2", none⟩,
     ⟨"crs_b_coord3", "crs_b_coord3", none⟩,
     ⟨"crs_b_crsref", "crs_b_crsref", none⟩,
     ⟨"pos2_valid", "pos2_valid", none⟩,
     ⟨"pos2_quality", "pos2_quality", none⟩,
     ⟨"gen_hdr_block_type", "gen_hdr_block_type", none⟩]

/-- `GeneralHeaderRel`. CommonSEGD.hpp:1124-1128, pybind.cpp:908-920 -/
def pyGeneralHeaderRel : PyClass where
  name := "GeneralHeaderRel"
  members :=
    ["offset_east", "offset_north", "offset_vert", "description",
     "gen_hdr_block_type"]
  attrs :=
    [⟨"offset_east", "offset_east", none⟩,
     ⟨"offset_north", "offset_north", none⟩,
     ⟨"offset_vert", "offset_vert", none⟩,
     ⟨"description", "description", some 19⟩,
     ⟨"gen_hdr_block_type", "gen_hdr_block_type", none⟩]

/-- `GeneralHeaderSen`. CommonSEGD.hpp:1164-1168, pybind.cpp:928-943 -/
def pyGeneralHeaderSen : PyClass where
  name := "GeneralHeaderSen"
  members :=
    ["instrument_test_time", "sensor_sensitivity", "instr_test_result", "serial_number",
     "gen_hdr_block_type"]
  attrs :=
    [⟨"instrument_test_time", "instrument_test_time", none⟩,
     ⟨"sensor_sensitivity", "sensor_sensitivity", none⟩,
     ⟨"instr_test_result", "instr_test_result", none⟩,
     ⟨"serial_number", "serial_number", some 28⟩,
     ⟨"gen_hdr_block_type", "gen_hdr_block_type", none⟩]

/-- `GeneralHeaderSCa`. CommonSEGD.hpp:1204-1211, pybind.cpp:951-965 -/
def pyGeneralHeaderSCa : PyClass where
  name := "GeneralHeaderSCa"
  members :=
    ["freq1", "amp1", "phase1", "freq2",
     "amp2", "phase2", "calib_applied", "gen_hdr_block_type"]
  attrs :=
    [⟨"freq1", "freq1", none⟩,
     ⟨"amp1", "amp1", none⟩,
     ⟨"phase1", "phase1", none⟩,
     ⟨"freq2", "freq1", none⟩,
     ⟨"amp2", "amp1", none⟩,
     ⟨"phase2", "phase1", none⟩,
     ⟨"calib_applied", "calib_applied", none⟩,
     ⟨"gen_hdr_block_type", "gen_hdr_block_type", none⟩]

/-- `GeneralHeaderTim`. CommonSEGD.hpp:1250-1256, pybind.cpp:973-983 -/
def pyGeneralHeaderTim : PyClass where
  name := "GeneralHeaderTim"
  members :=
    ["time_of_depl", "time_of_retr", "timer_offset_depl", "time_offset_retr",
     "timedrift_corr", "corr_method", "gen_hdr_block_type"]
  attrs :=
    [⟨"time_of_depl", "time_of_depl", none⟩,
     ⟨"time_of_retr", "time_of_retr", none⟩,
     ⟨"timer_offset_depl", "timer_offset_depl", none⟩,
     ⟨"time_offset_retr", "time_offset_retr", none⟩,
     ⟨"timedrift_corr", "timedrift_corr", none⟩,
     ⟨"corr_method", "corr_method", none⟩]

/-- `GeneralHeaderElSR`. CommonSEGD.hpp:1294-1301, pybind.cpp:991-1005 -/
def pyGeneralHeaderElSR : PyClass where
  name := "GeneralHeaderElSR"
  members :=
    ["equip_dim_x", "equip_dim_y", "equip_dim_z", "pos_term",
     "equip_offset_x", "equip_offset_y", "equip_offset_z", "gen_hdr_block_type"]
  attrs :=
    [⟨"equip_dim_x", "equip_dim_x", none⟩,
     ⟨"equip_dim_y", "equip_dim_y", none⟩,
     ⟨"equip_dim_z", "equip_dim_z", none⟩,
     ⟨"pos_term", "pos_term", none⟩,
     ⟨"equip_offset_x", "equip_offset_x", none⟩,
     ⟨"equip_offset_y", "equip_offset_y", none⟩,
     ⟨"equip_offset_z", "equip_offset_z", none⟩,
     ⟨"gen_hdr_block_type", "gen_hdr_block_type", none⟩]

/-- `GeneralHeaderOri`. CommonSEGD.hpp:1340-1349, pybind.cpp:1013-1031 -/
def pyGeneralHeaderOri : PyClass where
  name := "GeneralHeaderOri"
  members :=
    ["rot_x", "rot_y", "rot_z", "ref_orientation",
     "time_stamp", "ori_type", "ref_orient_valid", "rot_applied",
     "rot_north_applied", "gen_hdr_block_type"]
  attrs :=
    [⟨"rot_x", "rot_x", none⟩,
     ⟨"rot_y", "rot_y", none⟩,
     ⟨"rot_z", "rot_z", none⟩,
     ⟨"ref_orientation", "ref_orientation", none⟩,
     ⟨"time_stamp", "time_stamp", none⟩,
     ⟨"ori_type", "ori_type", none⟩,
     ⟨"ref_orient_valid", "ref_orient_valid", none⟩,
     ⟨"rot_applied", "rot_applied", none⟩,
     ⟨"rot_north_applied", "rot_north_applied", none⟩,
     ⟨"gen_hdr_block_type", "gen_hdr_block_type", none⟩]

/-- `GeneralHeaderMeas`. CommonSEGD.hpp:1391-1398, pybind.cpp:1039-1051 -/
def pyGeneralHeaderMeas : PyClass where
  name := "GeneralHeaderMeas"
  members :=
    ["timestamp", "measurement_value", "maximum_value", "minimum_value",
     "quantity_class", "unit_of_measure", "measurement_description", "gen_hdr_block_type"]
  attrs :=
    [⟨"timestamp", "timestamp", none⟩,
     ⟨"measurement_value", "measurement_value", none⟩,
     ⟨"maximum_value", "maximum_value", none⟩,
     ⟨"minimum_value", "minimum_value", none⟩,
     ⟨"quantity_class", "quantity_class", none⟩,
     ⟨"unit_of_measure", "unit_of_measure", none⟩,
     ⟨"gen_hdr_block_type", "gen_hdr_block_type", none⟩]

/-- `ChannelSetHeader`. CommonSEGD.hpp:1449-1470, pybind.cpp:1059-1105 -/
def pyChannelSetHeader : PyClass where
  name := "ChannelSetHeader"
  members :=
    ["scan_type_number", "channel_set_number", "channel_type", "channel_set_start_time",
     "channel_set_end_time", "descale_multiplier", "number_of_channels", "subscans_per_ch_set",
     "channel_gain", "alias_filter_freq", "alias_filter_slope", "low_cut_filter_freq",
     "low_cut_filter_slope", "first_notch_filter", "second_notch_filter", "third_notch_filter",
     "ext_ch_set_num", "ext_hdr_flag", "trc_hdr_ext", "vert_stack",
     "streamer_no", "array_forming"]
  attrs :=
    [⟨"scan_type_number", "scan_type_number", none⟩,
     ⟨"channel_set_number", "channel_set_number", none⟩,
     ⟨"channel_type", "channel_type", none⟩,
     ⟨"channel_set_start_time", "channel_set_start_time", none⟩,
     ⟨"channel_set_end_time", "channel_set_end_time", none⟩,
     ⟨"descale_multiplier", "descale_multiplier", none⟩,
     ⟨"number_of_channels", "number_of_channels", none⟩,
     ⟨"subscans_per_ch_set", "subscans_per_ch_set", none⟩,
     ⟨"channel_gain", "channel_gain", none⟩,
     ⟨"alias_filter_freq", "alias_filter_freq", none⟩,
     ⟨"alias_filter_slope", "alias_filter_slope", none⟩,
     ⟨"low_cut_filter_freq", "low_cut_filter_freq", none⟩,
     ⟨"low_cut_filter_slope", "low_cut_filter_slope", none⟩,
     ⟨"first_notch_filter", "first_notch_filter", none⟩,
     ⟨"second_notch_filter", "second_notch_filter", none⟩,
     ⟨"third_notch_filter", "third_notch_filter", none⟩,
     ⟨"ext_ch_set_num", "ext_ch_set_num", none⟩,
     ⟨"trc_hdr_ext", "trc_hdr_ext", none⟩,
     ⟨"vert_stack", "vert_stack", none⟩,
     ⟨"streamer_no", "streamer_no", none⟩,
     ⟨"array_forming", "array_forming", none⟩]

/-- All header classes. -/
def pyClasses : List PyClass :=
  [pyBinaryHeader,
   pyGeneralHeader,
   pyGeneralHeader2,
   pyGeneralHeaderN,
   pyGeneralHeader3,
   pyGeneralHeaderVes,
   pyGeneralHeaderSur,
   pyGeneralHeaderCli,
   pyGeneralHeaderJob,
   pyGeneralHeaderLin,
   pyGeneralHeaderVib,
   pyGeneralHeaderExp,
   pyGeneralHeaderAir,
   pyGeneralHeaderWat,
   pyGeneralHeaderEle,
   pyGeneralHeaderOth,
   pyGeneralHeaderAdd,
   pyGeneralHeaderSaux,
   pyGeneralHeaderCoord,
   pyGeneralHeaderPos1,
   pyGeneralHeaderPos2,
   pyGeneralHeaderPos3,
   pyGeneralHeaderRel,
   pyGeneralHeaderSen,
   pyGeneralHeaderSCa,
   pyGeneralHeaderTim,
   pyGeneralHeaderElSR,
   pyGeneralHeaderOri,
   pyGeneralHeaderMeas,
   pyChannelSetHeader]

/-- Methods bound with `def(name, &Class::function)`. pybind.cpp:32-1220 -/
def pyMethods : List PyMethod :=
  [⟨"Trace", "header", "header"⟩,
   ⟨"Trace", "samples", "samples"⟩,
   ⟨"Header", "get", "get"⟩,
   ⟨"Header", "set", "set"⟩,
   ⟨"Header", "keys", "keys"⟩,
   ⟨"CommonSEGY", "ebcdic_to_ascii", "ebcdic_to_ascii"⟩,
   ⟨"CommonSEGY", "ascii_to_ebcdic", "ascii_to_ebcdic"⟩,
   ⟨"BinaryHeader", "name_as_string", "name_as_string"⟩,
   ⟨"ISEGY", "read_binary_header", "read_binary_header"⟩,
   ⟨"ISEGY", "trailer_stanzas", "trailer_stanzas"⟩,
   ⟨"ISEGY", "binary_header", "binary_header"⟩,
   ⟨"ISEGY", "has_trace", "has_trace"⟩,
   ⟨"ISEGY", "read_header", "read_header"⟩,
   ⟨"ISEGY", "read_trace", "read_trace"⟩,
   ⟨"ISEGYSorted1D", "get_keys", "get_keys"⟩,
   ⟨"ISEGYSorted1D", "get_headers", "get_headers"⟩,
   ⟨"ISEGYSorted1D", "get_traces", "get_traces"⟩,
   ⟨"OSEGY", "write_trace", "write_trace"⟩,
   ⟨"GeneralHeader", "name_as_string", "name_as_string"⟩,
   ⟨"GeneralHeader2", "name_as_string", "name_as_string"⟩,
   ⟨"AdditionalGeneralHeader", "type", "type"⟩,
   ⟨"GeneralHeaderN", "name_as_string", "name_as_string"⟩,
   ⟨"GeneralHeader3", "name_as_string", "name_as_string"⟩,
   ⟨"GeneralHeaderVes", "name_as_string", "name_as_string"⟩,
   ⟨"GeneralHeaderSur", "name_as_string", "name_as_string"⟩,
   ⟨"GeneralHeaderCli", "name_as_string", "name_as_string"⟩,
   ⟨"GeneralHeaderJob", "name_as_string", "name_as_string"⟩,
   ⟨"GeneralHeaderLin", "name_as_string", "name_as_string"⟩,
   ⟨"GeneralHeaderVib", "name_as_string", "name_as_string"⟩,
   ⟨"GeneralHeaderExp", "name_as_string", "name_as_string"⟩,
   ⟨"GeneralHeaderAir", "name_as_string", "name_as_string"⟩,
   ⟨"GeneralHeaderWat", "name_as_string", "name_as_string"⟩,
   ⟨"GeneralHeaderEle", "name_as_string", "name_as_string"⟩,
   ⟨"GeneralHeaderOth", "name_as_string", "name_as_string"⟩,
   ⟨"GeneralHeaderAdd", "name_as_string", "name_as_string"⟩,
   ⟨"GeneralHeaderSaux", "name_as_string", "name_as_string"⟩,
   ⟨"GeneralHeaderCoord", "name_as_string", "name_as_string"⟩,
   ⟨"GeneralHeaderPos1", "name_as_string", "name_as_string"⟩,
   ⟨"GeneralHeaderPos2", "name_as_string", "name_as_string"⟩,
   ⟨"GeneralHeaderPos3", "name_as_string", "name_as_string"⟩,
   ⟨"GeneralHeaderRel", "name_as_string", "name_as_string"⟩,
   ⟨"GeneralHeaderSen", "name_as_string", "name_as_string"⟩,
   ⟨"GeneralHeaderSCa", "name_as_string", "name_as_string"⟩,
   ⟨"GeneralHeaderTim", "name_as_string", "name_as_string"⟩,
   ⟨"GeneralHeaderElSR", "name_as_string", "name_as_string"⟩,
   ⟨"GeneralHeaderOri", "name_as_string", "name_as_string"⟩,
   ⟨"GeneralHeaderMeas", "name_as_string", "name_as_string"⟩,
   ⟨"ChannelSetHeader", "number_of_samples", "number_of_samples"⟩,
   ⟨"ChannelSetHeader", "samp_int", "samp_int"⟩,
   ⟨"ChannelSetHeader", "filter_phase", "filter_phase"⟩,
   ⟨"ChannelSetHeader", "filter_delay", "filter_delay"⟩,
   ⟨"ChannelSetHeader", "description", "description"⟩,
   ⟨"ChannelSetHeader", "name_as_string", "name_as_string"⟩,
   ⟨"ISEGD", "general_header", "general_header"⟩,
   ⟨"ISEGD", "general_header2", "general_header2"⟩,
   ⟨"ISEGD", "general_headerN", "general_headerN"⟩,
   ⟨"ISEGD", "general_header3", "general_header3"⟩,
   ⟨"ISEGD", "general_header_vessel_crew_id", "general_header_vessel_crew_id"⟩,
   ⟨"ISEGD", "general_header_survey_name", "general_header_survey_name"⟩,
   ⟨"ISEGD", "general_header_client_name", "general_header_survey_name"⟩,
   ⟨"ISEGD", "general_header_job_id", "general_header_job_id"⟩,
   ⟨"ISEGD", "general_header_line_id", "general_header_line_id"⟩,
   ⟨"ISEGD", "general_header_vibrator_info", "general_header_vibrator_info"⟩,
   ⟨"ISEGD", "general_header_explosive_info", "general_header_airgun_info"⟩,
   ⟨"ISEGD", "general_header_airgun_info", "general_header_airgun_info"⟩,
   ⟨"ISEGD", "general_header_watergun_info", "general_header_watergun_info"⟩,
   ⟨"ISEGD", "general_header_electromagnetic_info", "general_header_electromagnetic_info"⟩,
   ⟨"ISEGD", "general_header_other_source_info", "general_header_other_source_info"⟩,
   ⟨"ISEGD", "general_header_add_source_info", "general_header_add_source_info"⟩,
   ⟨"ISEGD", "general_header_sou_aux_chan_ref", "general_header_sou_aux_chan_ref"⟩,
   ⟨"ISEGD", "general_header_sen_info_hdr_ext_blk", "general_header_sen_info_hdr_ext_blk"⟩,
   ⟨"ISEGD", "general_header_sen_calib_blk", "general_header_sen_calib_blk"⟩,
   ⟨"ISEGD", "general_header_time_drift_blk", "general_header_time_drift_blk"⟩,
   ⟨"ISEGD", "general_header_elemag_src_rec_desc_blk", "general_header_elemag_src_rec_desc_blk"⟩,
   ⟨"ISEGD", "general_header_position_blk_1", "general_header_position_blk_1"⟩,
   ⟨"ISEGD", "general_header_position_blk_2", "general_header_position_blk_2"⟩,
   ⟨"ISEGD", "general_header_position_blk_3", "general_header_position_blk_3"⟩,
   ⟨"ISEGD", "general_header_coord_ref_blk", "general_header_coord_ref_blk"⟩,
   ⟨"ISEGD", "general_header_relative_pos_blk", "general_header_relative_pos_blk"⟩,
   ⟨"ISEGD", "general_header_orient_hdr_blk", "general_header_orient_hdr_blk"⟩,
   ⟨"ISEGD", "general_header_measurement_blk", "general_header_measurement_blk"⟩,
   ⟨"ISEGD", "extended_headers", "extended_headers"⟩,
   ⟨"ISEGD", "external_headers", "external_headers"⟩,
   ⟨"ISEGD", "channel_set_headers", "channel_set_headers"⟩,
   ⟨"ISEGD", "has_record", "has_record"⟩,
   ⟨"ISEGD", "has_trace", "has_trace"⟩,
   ⟨"ISEGD", "read_trace", "read_trace"⟩,
   ⟨"OSEGD", "write_trace", "write_trace"⟩]

/-- Constants bound with `def_readonly_static`. pybind.cpp:63-301 -/
def pyConstants : List PyMethod :=
  [⟨"CommonSEGY", "default_text_header", "default_text_header"⟩,
   ⟨"CommonSEGY", "TEXT_HEADER_SIZE", "TEXT_HEADER_SIZE"⟩,
   ⟨"CommonSEGY", "TR_HEADER_SIZE", "TR_HEADER_SIZE"⟩,
   ⟨"CommonSEGY", "trace_header_description", "trace_header_description"⟩,
   ⟨"CommonSEGY", "default_trace_header", "default_trace_header"⟩,
   ⟨"CommonSEGD", "GEN_HDR_SIZE", "GEN_HDR_SIZE"⟩,
   ⟨"CommonSEGD", "GEN_TRLR_SIZE", "GEN_TRLR_SIZE"⟩,
   ⟨"CommonSEGD", "CH_SET_HDR_SIZE", "CH_SET_HDR_SIZE"⟩,
   ⟨"CommonSEGD", "CH_SET_HDR_R3_SIZE", "CH_SET_HDR_R3_SIZE"⟩,
   ⟨"CommonSEGD", "SKEW_BLOCK_SIZE", "SKEW_BLOCK_SIZE"⟩,
   ⟨"CommonSEGD", "EXTENDED_HEADER_SIZE", "EXTENDED_HEADER_SIZE"⟩,
   ⟨"CommonSEGD", "EXTERNAL_HEADER_SIZE", "EXTERNAL_HEADER_SIZE"⟩,
   ⟨"CommonSEGD", "TRACE_HEADER_SIZE", "TRACE_HEADER_SIZE"⟩,
   ⟨"CommonSEGD", "TRACE_HEADER_EXT_SIZE", "TRACE_HEADER_EXT_SIZE"⟩,
   ⟨"CommonSEGD", "sercel_428xl", "sercel_428xl"⟩,
   ⟨"CommonSEGD", "sercel_428", "sercel_428"⟩,
   ⟨"CommonSEGD", "sercel_408", "sercel_408"⟩]

/-- `TrHdrValueType`: names in Python and C++ enumerators. pybind.cpp:39-50 -/
def pyValueTypes : List (String × String) :=
  [("int8_t", "int8_t"), ("uint8_t", "uint8_t"), ("int16_t", "int16_t"), ("uint16_t", "uint16_t"), ("int32_t", "int32_t"), ("uint32_t", "uint32_t"), ("int64_t", "int64_t"), ("uint64_t", "uint64_t"), ("ibm", "ibm"), ("ieee_single", "ieee_single"), ("ieee_double", "ieee_double")]

/-- `Trace::Header::ValueType`. Trace.hpp:46-60 -/
def cppValueTypes : List String :=
  ["int8_t", "uint8_t", "int16_t", "uint16_t", "int24_t", "uint24_t", "int32_t", "uint32_t", "int64_t", "uint64_t", "ibm", "ieee_single", "ieee_double"]

/-- Lengths of the members that are `char` arrays. CommonSEGD.hpp -/
def cppTextLengths : List (String × String × Nat) :=
  [("GeneralHeaderVes", "abbr_vessel_crew_name", 3),
   ("GeneralHeaderVes", "vessel_crew_name", 28),
   ("GeneralHeaderSur", "survey_area_name", 31),
   ("GeneralHeaderCli", "client_name", 31),
   ("GeneralHeaderJob", "abbr_job_id", 5),
   ("GeneralHeaderJob", "job_id", 26),
   ("GeneralHeaderLin", "line_abbr", 7),
   ("GeneralHeaderLin", "line_id", 24),
   ("GeneralHeaderAdd", "error_description", 20),
   ("GeneralHeaderCoord", "crs", 31),
   ("GeneralHeaderRel", "description", 19),
   ("GeneralHeaderSen", "serial_number", 28)]

end Sedaman
