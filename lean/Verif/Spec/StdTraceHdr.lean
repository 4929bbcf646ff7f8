/-!
# Trace header positions of the SEG-Y standard

First and last byte of each item (counted from 1 inside the 240 byte block) as listed in the
SEG-Y revision 2 standard, under the name the library gives to the item.
-/

namespace Sedaman.Spec

/-- Standard trace header. -/
def stdTraceHeader : List (String × Nat × Nat) := [
  /- Trace sequence number within line -/ ("TRC_SEQ_LINE", 1, 4),
  /- Trace sequence number within SEG-Y file -/ ("TRC_SEQ_SGY", 5, 8),
  /- Original field record number -/ ("FFID", 9, 12),
  /- Trace number within the original field record -/ ("CHAN", 13, 16),
  /- Energy source point number -/ ("ESP", 17, 20),
  /- Ensemble number -/ ("ENS_NO", 21, 24),
  /- Trace number within the ensemble -/ ("SEQ_NO", 25, 28),
  /- Trace identification code -/ ("TRACE_ID", 29, 30),
  /- Number of vertically summed traces -/ ("VERT_SUM", 31, 32),
  /- Number of horizontally stacked traces -/ ("HOR_SUM", 33, 34),
  /- Data use -/ ("DATA_USE", 35, 36),
  /- Distance from source point to receiver group -/ ("OFFSET", 37, 40),
  /- Elevation of receiver group -/ ("R_ELEV", 41, 44),
  /- Surface elevation at source -/ ("S_ELEV", 45, 48),
  /- Source depth below surface -/ ("S_DEPTH", 49, 52),
  /- Datum elevation at receiver group -/ ("R_DATUM", 53, 56),
  /- Datum elevation at source -/ ("S_DATUM", 57, 60),
  /- Water column height at source -/ ("S_WATER", 61, 64),
  /- Water column height at group -/ ("R_WATER", 65, 68),
  /- Scalar for elevations and depths -/ ("ELEV_SCALAR", 69, 70),
  /- Scalar for coordinates -/ ("COORD_SCALAR", 71, 72),
  /- Source coordinate X -/ ("SOU_X", 73, 76),
  /- Source coordinate Y -/ ("SOU_Y", 77, 80),
  /- Group coordinate X -/ ("REC_X", 81, 84),
  /- Group coordinate Y -/ ("REC_Y", 85, 88),
  /- Coordinate units -/ ("COORD_UNITS", 89, 90),
  /- Weathering velocity -/ ("WEATH_VEL", 91, 92),
  /- Subweathering velocity -/ ("SUBWEATH_VEL", 93, 94),
  /- Uphole time at source -/ ("S_UPHOLE", 95, 96),
  /- Uphole time at group -/ ("R_UPHOLE", 97, 98),
  /- Source static correction -/ ("S_STAT", 99, 100),
  /- Group static correction -/ ("R_STAT", 101, 102),
  /- Total static applied -/ ("TOT_STAT", 103, 104),
  /- Lag time A -/ ("LAG_A", 105, 106),
  /- Lag time B -/ ("LAG_B", 107, 108),
  /- Delay recording time -/ ("DELAY_TIME", 109, 110),
  /- Mute time start -/ ("MUTE_START", 111, 112),
  /- Mute time end -/ ("MUTE_END", 113, 114),
  /- Number of samples in this trace -/ ("SAMP_NUM", 115, 116),
  /- Sample interval for this trace -/ ("SAMP_INT", 117, 118),
  /- Gain type -/ ("GAIN_TYPE", 119, 120),
  /- Instrument gain constant -/ ("GAIN_CONST", 121, 122),
  /- Instrument initial gain -/ ("INIT_GAIN", 123, 124),
  /- Correlated -/ ("CORRELATED", 125, 126),
  /- Sweep frequency at start -/ ("SW_START", 127, 128),
  /- Sweep frequency at end -/ ("SW_END", 129, 130),
  /- Sweep length -/ ("SW_LENGTH", 131, 132),
  /- Sweep type -/ ("SW_TYPE", 133, 134),
  /- Sweep taper length at start -/ ("SW_TAPER_START", 135, 136),
  /- Sweep taper length at end -/ ("SW_TAPER_END", 137, 138),
  /- Taper type -/ ("TAPER_TYPE", 139, 140),
  /- Alias filter frequency -/ ("ALIAS_FILT_FREQ", 141, 142),
  /- Alias filter slope -/ ("ALIAS_FILT_SLOPE", 143, 144),
  /- Notch filter frequency -/ ("NOTCH_FILT_FREQ", 145, 146),
  /- Notch filter slope -/ ("NOTCH_FILT_SLOPE", 147, 148),
  /- Low-cut frequency -/ ("LOW_CUT_FREQ", 149, 150),
  /- High-cut frequency -/ ("HIGH_CUT_FREQ", 151, 152),
  /- Low-cut slope -/ ("LOW_CUT_SLOPE", 153, 154),
  /- High-cut slope -/ ("HIGH_CUT_SLOPE", 155, 156),
  /- Year data recorded -/ ("YEAR", 157, 158),
  /- Day of year -/ ("DAY", 159, 160),
  /- Hour of day -/ ("HOUR", 161, 162),
  /- Minute of hour -/ ("MINUTE", 163, 164),
  /- Second of minute -/ ("SECOND", 165, 166),
  /- Time basis code -/ ("TIME_BASIS_CODE", 167, 168),
  /- Trace weighting factor -/ ("TRACE_WEIGHT", 169, 170),
  /- Group number of roll switch position one -/ ("GROUP_NUM_ROLL", 171, 172),
  /- Group number of first trace of field record -/ ("GROUP_NUM_FIRST", 173, 174),
  /- Group number of last trace of field record -/ ("GROUP_NUM_LAST", 175, 176),
  /- Gap size -/ ("GAP_SIZE", 177, 178),
  /- Over travel -/ ("OVER_TRAVEL", 179, 180),
  /- X coordinate of ensemble -/ ("CDP_X", 181, 184),
  /- Y coordinate of ensemble -/ ("CDP_Y", 185, 188),
  /- In-line number -/ ("INLINE", 189, 192),
  /- Cross-line number -/ ("XLINE", 193, 196),
  /- Shotpoint number -/ ("SP_NUM", 197, 200),
  /- Scalar for shotpoint number -/ ("SP_NUM_SCALAR", 201, 202),
  /- Trace value measurement unit -/ ("TR_VAL_UNIT", 203, 204),
  /- Transduction constant, mantissa -/ ("TRANS_CONST_MANT", 205, 208),
  /- Transduction constant, exponent -/ ("TRANS_CONST_EXP", 209, 210),
  /- Transduction units -/ ("TRANS_UNITS", 211, 212),
  /- Device/trace identifier -/ ("DEVICE_ID", 213, 214),
  /- Scalar for times -/ ("TIME_SCALAR", 215, 216),
  /- Source type/orientation -/ ("SOURCE_TYPE", 217, 218),
  /- Source energy direction, vertical -/ ("SOU_V_DIR", 219, 220),
  /- Source energy direction, cross-line -/ ("SOU_X_DIR", 221, 222),
  /- Source energy direction, in-line -/ ("SOU_I_DIR", 223, 224),
  /- Source measurement, mantissa -/ ("SOURCE_MEASUREMENT_MANT", 225, 228),
  /- Source measurement, exponent -/ ("SOURCE_MEASUREMENT_EXP", 229, 230),
  /- Source measurement unit -/ ("SOU_MEAS_UNIT", 231, 232)]

/-- First trace header extension (`SEG00001`). -/
def stdTraceExtension : List (String × Nat × Nat) := [
  ("TRC_SEQ_LINE", 1, 8),
  ("TRC_SEQ_SGY", 9, 16),
  ("FFID", 17, 24),
  ("ENS_NO", 25, 32),
  ("R_ELEV", 33, 40),
  ("R_DEPTH", 41, 48),
  ("S_ELEV", 49, 56),
  ("S_DEPTH", 57, 64),
  ("R_DATUM", 65, 72),
  ("S_DATUM", 73, 80),
  ("S_WATER", 81, 88),
  ("R_WATER", 89, 96),
  ("SOU_X", 97, 104),
  ("SOU_Y", 105, 112),
  ("REC_X", 113, 120),
  ("REC_Y", 121, 128),
  ("OFFSET", 129, 136),
  ("SAMP_NUM", 137, 140),
  ("NANOSECOND", 141, 144),
  ("SAMP_INT", 145, 152),
  ("CABLE_NUM", 153, 156),
  ("ADD_TRC_HDR_NUM", 157, 158),
  ("LAST_TRC_FLAG", 159, 160),
  ("CDP_X", 161, 168),
  ("CDP_Y", 169, 176)]

end Sedaman.Spec
