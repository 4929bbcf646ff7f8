import Verif.Model.SegdExt

/-!
# Built-in trace header extension maps

The tables of CommonSEGD.cpp:800-1009, entry by entry. `std::map` iterates by offset, which is
the order of the initialisers here.
-/

namespace Sedaman

/-- `CommonSEGD::sercel_428xl`. CommonSEGD.cpp:800-867 -/
def sercel428xl : ExtMap :=
  [[⟨0, "R_LINE", .u24⟩,
    ⟨3, "R_POINT", .u24⟩,
    ⟨6, "R_POINT_IDX", .u8⟩,
    ⟨7, "SAMP_NUM", .u24⟩,
    ⟨20, "SENSOR_TYPE", .u8⟩],
   [⟨0, "REC_X", .ieeeDouble⟩,
    ⟨8, "REC_Y", .ieeeDouble⟩,
    ⟨16, "R_ELEV", .ieeeSingle⟩,
    ⟨20, "SERCEL_SENSOR_TYPE", .u8⟩,
    ⟨28, "TRACE_NUMBER", .u32⟩],
   [⟨0, "RESIST_LOW_LIMIT", .ieeeSingle⟩,
    ⟨4, "RESIST_HIGH_LIMIT", .ieeeSingle⟩,
    ⟨8, "RESIST_VALUE", .ieeeSingle⟩,
    ⟨12, "TILT_LIMIT", .ieeeSingle⟩,
    ⟨16, "TILT_VALUE", .ieeeSingle⟩,
    ⟨20, "RESIST_ERROR", .u8⟩,
    ⟨21, "TILT_ERROR", .u8⟩],
   [⟨0, "CAPACIT_LOW_LIMIT", .ieeeSingle⟩,
    ⟨4, "CAPACIT_HIGH_LIMIT", .ieeeSingle⟩,
    ⟨8, "CAPACIT_VALUE", .ieeeSingle⟩,
    ⟨12, "CUT_OFF_LOW_LIMIT", .ieeeSingle⟩,
    ⟨16, "CUT_OFF_HIGH_LIMIT", .ieeeSingle⟩,
    ⟨20, "CUT_OFF_VALUE", .ieeeSingle⟩,
    ⟨24, "CAPACIT_ERROR", .u8⟩,
    ⟨25, "CUT_OFF_ERROR", .u8⟩],
   [⟨0, "LEAKAGE_LIMIT", .ieeeSingle⟩,
    ⟨4, "LEAKAGE_VALUE", .ieeeSingle⟩,
    ⟨24, "LEAKAGE_ERROR", .u8⟩],
   [⟨0, "UNIT_TYPE", .u8⟩,
    ⟨1, "UNIT_SERIAL_NUM", .u24⟩,
    ⟨4, "CHANNEL_NUM", .u8⟩,
    ⟨8, "FDU_ASS_TYPE", .u8⟩,
    ⟨9, "FDU_ASS_SERIAL", .u24⟩,
    ⟨12, "FDU_ASS_LOC", .u8⟩,
    ⟨16, "FDU_UNIT_TYPE", .u8⟩,
    ⟨17, "CHANNEL_TYPE", .u8⟩,
    ⟨20, "SENSOR_SENSITIVITY", .ieeeSingle⟩],
   [⟨0, "CONTROL_UNIT_TYPE", .u8⟩,
    ⟨1, "CONTROL_UNIT_SERIAL", .u24⟩,
    ⟨4, "CHAN_GAIN_SCALE", .u8⟩,
    ⟨5, "CHAN_FILTER", .u8⟩,
    ⟨6, "CHAN_DATA_ERROR", .u8⟩,
    ⟨7, "CHAN_EDIT_STATUS", .u8⟩,
    ⟨8, "SAMP_TO_V_CONV", .ieeeSingle⟩,
    ⟨12, "NUM_OF_STACKS_NOISY", .u8⟩,
    ⟨13, "NUM_OF_STACKS_LOW", .u8⟩,
    ⟨14, "CHAN_TYPE_ID", .u8⟩,
    ⟨15, "CHAN_PROCESS", .u8⟩,
    ⟨16, "TRC_MAX_VALUE", .ieeeSingle⟩,
    ⟨20, "TRC_MAX_TIME", .u32⟩,
    ⟨24, "NUM_OF_INTERPOLAT", .u32⟩]]

/-- `CommonSEGD::sercel_428`. CommonSEGD.cpp:869-931 -/
def sercel428 : ExtMap :=
  [[⟨0, "R_LINE", .u24⟩,
    ⟨3, "R_POINT", .u24⟩,
    ⟨6, "R_POINT_IDX", .u8⟩,
    ⟨7, "SAMP_NUM", .u24⟩,
    ⟨20, "SENSOR_TYPE", .u8⟩],
   [⟨0, "REC_X", .ieeeDouble⟩,
    ⟨8, "REC_Y", .ieeeDouble⟩,
    ⟨16, "R_ELEV", .ieeeSingle⟩,
    ⟨20, "SERCEL_SENSOR_TYPE", .u8⟩,
    ⟨28, "TRACE_NUMBER", .u32⟩],
   [⟨0, "DC_OFFSET", .ieeeSingle⟩],
   [⟨0, "CAPACIT_LOW_LIMIT", .ieeeSingle⟩,
    ⟨4, "CAPACIT_HIGH_LIMIT", .ieeeSingle⟩,
    ⟨8, "CAPACIT_VALUE", .ieeeSingle⟩,
    ⟨12, "CUT_OFF_LOW_LIMIT", .ieeeSingle⟩,
    ⟨16, "CUT_OFF_HIGH_LIMIT", .ieeeSingle⟩,
    ⟨20, "CUT_OFF_VALUE", .ieeeSingle⟩,
    ⟨24, "CAPACIT_ERROR", .u8⟩,
    ⟨25, "CUT_OFF_ERROR", .u8⟩],
   [⟨0, "LEAKAGE_LIMIT", .ieeeSingle⟩,
    ⟨4, "LEAKAGE_VALUE", .ieeeSingle⟩,
    ⟨24, "LEAKAGE_ERROR", .u8⟩],
   [⟨0, "UNIT_TYPE", .u8⟩,
    ⟨1, "UNIT_SERIAL_NUM", .u24⟩,
    ⟨4, "CHANNEL_NUM", .u8⟩,
    ⟨8, "FDU_ASS_TYPE", .u8⟩,
    ⟨9, "FDU_ASS_SERIAL", .u24⟩,
    ⟨12, "FDU_ASS_LOC", .u8⟩,
    ⟨16, "FDU_UNIT_TYPE", .u8⟩,
    ⟨20, "SENSOR_SENSITIVITY", .ieeeSingle⟩,
    ⟨24, "EXT_UNIT_SERIAL", .u32⟩,
    ⟨28, "EXT_FDU_ASS_SERIAL", .u32⟩],
   [⟨0, "CONTROL_UNIT_TYPE", .u8⟩,
    ⟨1, "CONTROL_UNIT_SERIAL", .u24⟩,
    ⟨4, "CHAN_GAIN_SCALE", .u8⟩,
    ⟨5, "CHAN_FILTER", .u8⟩,
    ⟨6, "CHAN_DATA_ERROR", .u8⟩,
    ⟨7, "CHAN_EDIT_STATUS", .u8⟩,
    ⟨8, "SAMP_TO_V_CONV", .ieeeSingle⟩,
    ⟨13, "REMOVED_OFFSET", .u8⟩,
    ⟨14, "CHAN_TYPE_ID", .u8⟩,
    ⟨15, "CHAN_PROCESS", .u8⟩,
    ⟨16, "ANAL_LOW_CUR_FILT", .ieeeSingle⟩,
    ⟨20, "DIG_LOW_CUT_FILT", .ieeeSingle⟩,
    ⟨24, "NUM_OF_EDITIONS", .u32⟩,
    ⟨28, "COMP_LOW_CUT_FILT", .ieeeSingle⟩]]

/-- `CommonSEGD::sercel_408`. CommonSEGD.cpp:933-992 -/
def sercel408 : ExtMap :=
  [[⟨0, "R_LINE", .u24⟩,
    ⟨3, "R_POINT", .u24⟩,
    ⟨6, "R_POINT_IDX", .u8⟩,
    ⟨7, "SAMP_NUM", .u24⟩,
    ⟨20, "SENSOR_TYPE", .u8⟩],
   [⟨0, "REC_X", .ieeeDouble⟩,
    ⟨8, "REC_Y", .ieeeDouble⟩,
    ⟨16, "R_ELEV", .ieeeSingle⟩,
    ⟨20, "SERCEL_SENSOR_TYPE", .u8⟩],
   [⟨0, "DC_OFFSET", .ieeeSingle⟩],
   [⟨0, "CAPACIT_LOW_LIMIT", .ieeeSingle⟩,
    ⟨4, "CAPACIT_HIGH_LIMIT", .ieeeSingle⟩,
    ⟨8, "CAPACIT_VALUE", .ieeeSingle⟩,
    ⟨12, "CUT_OFF_LOW_LIMIT", .ieeeSingle⟩,
    ⟨16, "CUT_OFF_HIGH_LIMIT", .ieeeSingle⟩,
    ⟨20, "CUT_OFF_VALUE", .ieeeSingle⟩,
    ⟨24, "CAPACIT_ERROR", .u8⟩,
    ⟨25, "CUT_OFF_ERROR", .u8⟩],
   [⟨0, "LEAKAGE_LIMIT", .ieeeSingle⟩,
    ⟨4, "LEAKAGE_VALUE", .ieeeSingle⟩,
    ⟨24, "LEAKAGE_ERROR", .u8⟩],
   [⟨0, "UNIT_TYPE", .u8⟩,
    ⟨1, "UNIT_SERIAL_NUM", .u24⟩,
    ⟨4, "CHANNEL_NUM", .u8⟩,
    ⟨8, "FDU_ASS_TYPE", .u8⟩,
    ⟨9, "FDU_ASS_SERIAL", .u24⟩,
    ⟨12, "FDU_ASS_LOC", .u8⟩,
    ⟨16, "FDU_UNIT_TYPE", .u8⟩,
    ⟨17, "CHANNEL_TYPE", .u8⟩,
    ⟨20, "SENSOR_SENSITIVITY", .ieeeSingle⟩],
   [⟨0, "CONTROL_UNIT_TYPE", .u8⟩,
    ⟨1, "CONTROL_UNIT_SERIAL", .u24⟩,
    ⟨4, "CHAN_GAIN_SCALE", .u8⟩,
    ⟨5, "CHAN_FILTER", .u8⟩,
    ⟨6, "CHAN_DATA_ERROR", .u8⟩,
    ⟨7, "CHAN_EDIT_STATUS", .u8⟩,
    ⟨8, "SAMP_TO_V_CONV", .ieeeSingle⟩,
    ⟨14, "CHAN_TYPE_ID", .u8⟩,
    ⟨15, "CHAN_PROCESS", .u8⟩,
    ⟨16, "TRC_MAX_VALUE", .ieeeSingle⟩,
    ⟨20, "TRC_MAX_TIME", .u32⟩,
    ⟨24, "NUM_OF_INTERPOLAT", .u32⟩,
    ⟨28, "COMP_LOW_CUT_FILT", .ieeeSingle⟩]]

end Sedaman
