import Verif.Model.Basic

/-!
# Texts for the names of header fields

Every header structure has an `enum class Name` and a static function `name_as_string` that indexes a
table of texts with the value of the enumerator. The texts and enumerators are copied from the
source by a script (non-ASCII characters do not occur).
-/

namespace Sedaman

/-- One header structure: its enumerators in the order of their values, and its table of texts. -/
structure NameTable where
  owner : String
  enumerators : List String
  texts : List String
  deriving DecidableEq, Repr

/-- `name_as_string(n)` for the enumerator with value `n`: an array access without a check.
CommonSEGY.cpp:326-329, CommonSEGD.cpp:308-311 and the like -/
def NameTable.nameAsString (t : NameTable) (n : Nat) : Out String :=
  match t.texts[n]? with
  | some s => .ok s
  | none => isUb .outOfBounds

/-- `BinaryHeader`. CommonSEGY.hpp:94-139, CommonSEGY.cpp:279-329 -/
def namesBinaryHeader : NameTable where
  owner := "BinaryHeader"
  enumerators := [
      "JOB_ID",
      "LINE_NUM",
      "REEL_NUM",
      "TR_PER_ENS",
      "AUX_PER_ENS",
      "SAMP_INT",
      "SAMP_INT_ORIG",
      "SAMP_PER_TR",
      "SAMP_PER_TR_ORIG",
      "FORMAT_CODE",
      "ENS_FOLD",
      "SORT_CODE",
      "VERT_SUM_CODE",
      "SW_FREQ_AT_START",
      "SW_FREQ_AT_END",
      "SW_LENGTH",
      "SW_TYPE_CODE",
      "SW_CH_TR_NUM",
      "TAPER_AT_START",
      "TAPER_AT_END",
      "TAPER_TYPE",
      "CORR_TRACES",
      "BIN_GAIN_RECOV",
      "AMP_RECOV_METH",
      "MEASURE_SYSTEM",
      "IMPULSE_SIG_POL",
      "VIB_POL_CODE",
      "EXT_TR_PER_ENS",
      "EXT_AUX_PER_ENS",
      "EXT_SAMP_PER_TR",
      "EXT_SAMP_INT",
      "EXT_SAMP_INT_ORIG",
      "EXT_SAMP_PER_TR_ORIG",
      "EXT_ENS_FOLD",
      "ENDIANNESS",
      "SEGY_REV_MAJOR_VER",
      "SEGY_REV_MINOR_VER",
      "FIXED_TR_LENGTH",
      "EXT_TEXT_HEADERS_NUM",
      "MAX_NUM_ADD_TR_HEADERS",
      "TIME_BASIS_CODE",
      "NUM_OF_TR_IN_FILE",
      "BYTE_OFF_OF_FIRST_TR",
      "NUM_OF_TRAILER_STANZA"]
  texts := [
      "Job identification number",
      "Line number",
      "Reel number",
      "Number of data traces per ensemble",
      "Number of auxiliary traces per ensemble",
      "Sample interval",
      "Sample interval of original field recording.",
      "Number of samples per data trace",
      "Number of samples per data trace of original field recording",
      "Data sample format code",
      "Ensemble fold",
      "Trace sorting code",
      "Vertical sum code",
      "Sweep frequency at start (Hz)",
      "Sweep frequency at end (Hz)",
      "Sweep length (ms)",
      "Sweep type code",
      "Trace number of sweep channel",
      "Sweep trace taper length in ms at start if tapered",
      "Sweep trace taper length in ms at end",
      "Taper type",
      "Correlated data traces",
      "Binary gain recovered",
      "Amplitude recovery method",
      "Measure system",
      "Impulse signal polarity",
      "Vibratory polarity code",
      "Extended number of data traces per ensemble",
      "Extended number of auxiliary traces per ensemble",
      "Extended number of samples per data trace",
      "Extended sample interval",
      "Extended sample interval of original field recording",
      "Extended number of samples per data trace in original recording",
      "Extended ensemble fold",
      "Integer constant used to detect the byte ordering",
      "Major SEG-Y Format Revision Number",
      "Minor SEG-Y Format Revision Number",
      "Fixed length trace flag",
      "Number of Extended Textual File Header records",
      "Maximum number of additional trace headers",
      "Time basis code",
      "Number of traces in this file",
      "Byte offset of first traces relative to start of file",
      "Number of data trailer stanza records"]

/-- `GeneralHeader`. CommonSEGD.hpp:73-96, CommonSEGD.cpp:283-311 -/
def namesGeneralHeader : NameTable where
  owner := "GeneralHeader"
  enumerators := [
      "FILE_NUMBER",
      "FORMAT_CODE",
      "GENERAL_CONSTANTS",
      "YEAR",
      "GENERAL_HEADER_BLOCKS",
      "DAY",
      "HOUR",
      "MINUTE",
      "SECOND",
      "MANUFACTURERS_CODE",
      "MANUFACTURERS_NUMBER",
      "BYTES_PER_SCAN",
      "BASE_SCAN_INTERVAL",
      "POLARITY",
      "SCANS_PER_BLOCK",
      "RECORD_TYPE",
      "RECORD_LENGTH",
      "SCAN_TYPES_PER_RECORD",
      "CHANNEL_SETS_PER_SCAN_TYPE",
      "SKEW_BLOCKS",
      "EXTENDED_HEADER_BLOCKS",
      "EXTERNAL_HEADER_BLOCKS"]
  texts := [
      "File number",
      "Format code",
      "General constants",
      "Last two digits of year",
      "Number of additional blocks in General Header",
      "Julian day",
      "Hour of dat (Greenwich Mean Time)",
      "Minute of hour",
      "Second of minute",
      "Manufacturer's code",
      "Manufacturer's serial number",
      "Bytes per scan are utilized in the multiplexed formats",
      "Base scan interval",
      "Polarity",
      "Number of scans in a block. It is valid only for multiplexed data",
      "Record type",
      "Record length from time zero",
      "Scan types per record",
      "Number of channel sets per scan type",
      "Number of 32 byte fields added to the end of each scan type header",
      "Extended header length",
      "External header length"]

/-- `GeneralHeader2`. CommonSEGD.hpp:131-145, CommonSEGD.cpp:313-332 -/
def namesGeneralHeader2 : NameTable where
  owner := "GeneralHeader2"
  enumerators := [
      "EXPANDED_FILE_NUMBER",
      "EXT_CH_SETS_PER_SCAN_TYPE",
      "EXTEDNDED_HEADER_BLOCKS",
      "EXTERNAL_HEADER_BLOCKS",
      "EXTENDED_SKEW_BLOCKS",
      "SEGD_REVISION_MAJOR",
      "SEGD_REVISION_MINOR",
      "GEN_TRAILER_NUMBER_OF_BLOCKS",
      "EXTENDED_RECORD_LENGTH",
      "RECORD_SET_NUMBER",
      "EXT_NUM_ADD_BLKS_IN_GEN_HDR",
      "DOMINANT_SAMPLING_INT",
      "GEN_HEADER_BLOCK_NUM"]
  texts := [
      "Expanded File Number",
      "Extended Channel Sets per Scan Types",
      "Extended Header Blocks",
      "External Header Blocks",
      "Extended_skew_blocks",
      "SEG-D Revision Number Major",
      "SEG-D Revision Number Minor",
      "The number of 32 bytr blocks to be used to General Trailers",
      "Extended Record Length",
      "Record set number",
      "Extended Number of additional Blocks in the General Header",
      "Dominant Sampling Interval",
      "General Header Block Number"]

/-- `GeneralHeaderN`. CommonSEGD.hpp:230-240, CommonSEGD.cpp:334-349 -/
def namesGeneralHeaderN : NameTable where
  owner := "GeneralHeaderN"
  enumerators := [
      "EXPANDED_FILE_NUMBER",
      "SOURCE_LINE_NUMBER",
      "SOURCE_POINT_NUMBER",
      "SOURCE_POINT_INDEX",
      "PHASE_CONTROL",
      "TYPE_VIBRATOR",
      "PHASE_ANGLE",
      "GEN_HEADER_BLOCK_NUM",
      "SOURCE_SET_NUMBER"]
  texts := [
      "Expanded File Number",
      "Source Line Number",
      "Source Point Number",
      "Source Point Index",
      "Phase Control",
      "Type Vibrator",
      "Phase Angle",
      "General Header Block Number",
      "Source Set Number"]

/-- `GeneralHeader3`. CommonSEGD.hpp:277-285, CommonSEGD.cpp:351-364 -/
def namesGeneralHeader3 : NameTable where
  owner := "GeneralHeader3"
  enumerators := [
      "TIME_ZERO",
      "RECORD_SIZE",
      "DATA_SIZE",
      "HEADER_SIZE",
      "EXTD_REC_MODE",
      "REL_TIME_MODE",
      "GEN_HEADER_BLOCK_NUM"]
  texts := [
      "Time Zero for this record",
      "The total size of the SEG-D record in bytes",
      "The total size of the headers and data in this record in bytes",
      "The total size of the headers in this record in bytes",
      "1 for Extended Recording Mode, 0 for normal record",
      "1 if this record does not contain absolute timestamps",
      "General Header Block Number"]

/-- `GeneralHeaderVes`. CommonSEGD.hpp:310-314, CommonSEGD.cpp:366-375 -/
def namesGeneralHeaderVes : NameTable where
  owner := "GeneralHeaderVes"
  enumerators := [
      "ABBR_VESSEL_OR_CREW_NAME",
      "VESSEL_OR_CREW_NAME",
      "GEN_HEADER_TYPE"]
  texts := [
      "Abbreviated vessel or crew name",
      "Vessel or crew name",
      "General header type"]

/-- `GeneralHeaderSur`. CommonSEGD.hpp:345-348, CommonSEGD.cpp:377-385 -/
def namesGeneralHeaderSur : NameTable where
  owner := "GeneralHeaderSur"
  enumerators := [
      "SURVEY_ARE_NAME",
      "GEN_HEADER_TYPE"]
  texts := [
      "Survey Area Name",
      "General header type"]

/-- `GeneralHeaderCli`. CommonSEGD.hpp:379-382, CommonSEGD.cpp:387-395 -/
def namesGeneralHeaderCli : NameTable where
  owner := "GeneralHeaderCli"
  enumerators := [
      "CLIENT_NAME",
      "GEN_HEADER_TYPE"]
  texts := [
      "Client Area Name",
      "General header type"]

/-- `GeneralHeaderJob`. CommonSEGD.hpp:414-418, CommonSEGD.cpp:397-406 -/
def namesGeneralHeaderJob : NameTable where
  owner := "GeneralHeaderJob"
  enumerators := [
      "ABBR_JOB_ID",
      "JOB_ID",
      "GEN_HEADER_TYPE"]
  texts := [
      "Abbr Job Identification",
      "Job Identification",
      "General header type"]

/-- `GeneralHeaderLin`. CommonSEGD.hpp:450-454, CommonSEGD.cpp:408-417 -/
def namesGeneralHeaderLin : NameTable where
  owner := "GeneralHeaderLin"
  enumerators := [
      "LINE_ABBR",
      "LINE_ID",
      "GEN_HEADER_TYPE"]
  texts := [
      "Line Abbreviation",
      "Line Identification",
      "General header type"]

/-- `GeneralHeaderVib`. CommonSEGD.hpp:500-518, CommonSEGD.cpp:419-442 -/
def namesGeneralHeaderVib : NameTable where
  owner := "GeneralHeaderVib"
  enumerators := [
      "EXPANDED_FILE_NUMBER",
      "SOURCE_LINE_NUMBER",
      "SOURCE_POINT_NUMBER",
      "SOURCE_POINT_INDEX",
      "PHASE_CONTROL",
      "TYPE_VIBRATOR",
      "PHASE_ANGLE",
      "SOURCE_ID",
      "SOURCE_SET_NUM",
      "RESHOOT_INDEX",
      "GROUP_INDEX",
      "DEPTH_INDEX",
      "OFFSET_CROSSLINE",
      "OFFSET_INLINE",
      "SIZE",
      "OFFSET_DEPTH",
      "GEN_HEADER_TYPE"]
  texts := [
      "Expanded File Number",
      "Source Line Number",
      "Source Point Number",
      "Source Point Index",
      "Phase Control",
      "Type Vibrator",
      "Phase Angle",
      "Source Id",
      "Source Set No",
      "Re-shoot Index",
      "Group Index",
      "Depth Index",
      "Offset Cross-line",
      "Offset In-line",
      "Size",
      "Offset Depth",
      "General header type"]

/-- `GeneralHeaderExp`. CommonSEGD.hpp:564-582, CommonSEGD.cpp:444-467 -/
def namesGeneralHeaderExp : NameTable where
  owner := "GeneralHeaderExp"
  enumerators := [
      "EXPANDED_FILE_NUMBER",
      "SOURCE_LINE_NUMBER",
      "SOURCE_POINT_NUMBER",
      "SOURCE_POINT_INDEX",
      "DEPTH",
      "CHARGE_LENGTH",
      "SOIL_TYPE",
      "SOURCE_ID",
      "SOURCE_SET_NUM",
      "RESHOOT_INDEX",
      "GROUP_INDEX",
      "DEPTH_INDEX",
      "OFFSET_CROSSLINE",
      "OFFSET_INLINE",
      "SIZE",
      "OFFSET_DEPTH",
      "GEN_HEADER_TYPE"]
  texts := [
      "Expanded File Number",
      "Source Line Number",
      "Source Point Number",
      "Source Point Index",
      "Depth",
      "Charge Length",
      "Soil Type",
      "Source Id",
      "Source Set No",
      "Re-shoot Index",
      "Group Index",
      "Depth Index",
      "Offset Cross-line",
      "Offset In-line",
      "Size",
      "Offset Depth",
      "General header type"]

/-- `GeneralHeaderAir`. CommonSEGD.hpp:627-644, CommonSEGD.cpp:469-491 -/
def namesGeneralHeaderAir : NameTable where
  owner := "GeneralHeaderAir"
  enumerators := [
      "EXPANDED_FILE_NUMBER",
      "SOURCE_LINE_NUMBER",
      "SOURCE_POINT_NUMBER",
      "SOURCE_POINT_INDEX",
      "DEPTH",
      "AIR_PRESSURE",
      "SOURCE_ID",
      "SOURCE_SET_NUM",
      "RESHOOT_INDEX",
      "GROUP_INDEX",
      "DEPTH_INDEX",
      "OFFSET_CROSSLINE",
      "OFFSET_INLINE",
      "SIZE",
      "OFFSET_DEPTH",
      "GEN_HEADER_TYPE"]
  texts := [
      "Expanded File Number",
      "Source Line Number",
      "Source Point Number",
      "Source Point Index",
      "Depth",
      "Air pressure",
      "Source Id",
      "Source Set No",
      "Re-shoot Index",
      "Group Index",
      "Depth Index",
      "Offset Cross-line",
      "Offset In-line",
      "Size",
      "Offset Depth",
      "General header type"]

/-- `GeneralHeaderWat`. CommonSEGD.hpp:689-706, CommonSEGD.cpp:493-515 -/
def namesGeneralHeaderWat : NameTable where
  owner := "GeneralHeaderWat"
  enumerators := [
      "EXPANDED_FILE_NUMBER",
      "SOURCE_LINE_NUMBER",
      "SOURCE_POINT_NUMBER",
      "SOURCE_POINT_INDEX",
      "DEPTH",
      "AIR_PRESSURE",
      "SOURCE_ID",
      "SOURCE_SET_NUM",
      "RESHOOT_INDEX",
      "GROUP_INDEX",
      "DEPTH_INDEX",
      "OFFSET_CROSSLINE",
      "OFFSET_INLINE",
      "SIZE",
      "OFFSET_DEPTH",
      "GEN_HEADER_TYPE"]
  texts := [
      "Expanded File Number",
      "Source Line Number",
      "Source Point Number",
      "Source Point Index",
      "Depth",
      "Air pressure",
      "Source Id",
      "Source Set No",
      "Re-shoot Index",
      "Group Index",
      "Depth Index",
      "Offset Cross-line",
      "Offset In-line",
      "Size",
      "Offset Depth",
      "General header type"]

/-- `GeneralHeaderEle`. CommonSEGD.hpp:751-768, CommonSEGD.cpp:517-539 -/
def namesGeneralHeaderEle : NameTable where
  owner := "GeneralHeaderEle"
  enumerators := [
      "EXPANDED_FILE_NUMBER",
      "SOURCE_LINE_NUMBER",
      "SOURCE_POINT_NUMBER",
      "SOURCE_POINT_INDEX",
      "SOURCE_TYPE",
      "MOMENT",
      "SOURCE_ID",
      "SOURCE_SET_NUM",
      "RESHOOT_INDEX",
      "GROUP_INDEX",
      "DEPTH_INDEX",
      "OFFSET_CROSSLINE",
      "OFFSET_INLINE",
      "SIZE",
      "OFFSET_DEPTH",
      "GEN_HEADER_TYPE"]
  texts := [
      "Expanded File Number",
      "Source Line Number",
      "Source Point Number",
      "Source Point Index",
      "Source type",
      "Moment",
      "Source Id",
      "Source Set No",
      "Re-shoot Index",
      "Group Index",
      "Depth Index",
      "Offset Cross-line",
      "Offset In-line",
      "Size",
      "Offset Depth",
      "General header type"]

/-- `GeneralHeaderOth`. CommonSEGD.hpp:811-826, CommonSEGD.cpp:541-561 -/
def namesGeneralHeaderOth : NameTable where
  owner := "GeneralHeaderOth"
  enumerators := [
      "EXPANDED_FILE_NUMBER",
      "SOURCE_LINE_NUMBER",
      "SOURCE_POINT_NUMBER",
      "SOURCE_POINT_INDEX",
      "SOURCE_ID",
      "SOURCE_SET_NUM",
      "RESHOOT_INDEX",
      "GROUP_INDEX",
      "DEPTH_INDEX",
      "OFFSET_CROSSLINE",
      "OFFSET_INLINE",
      "SIZE",
      "OFFSET_DEPTH",
      "GEN_HEADER_TYPE"]
  texts := [
      "Expanded File Number",
      "Source Line Number",
      "Source Point Number",
      "Source Point Index",
      "Source Id",
      "Source Set No",
      "Re-shoot Index",
      "Group Index",
      "Depth Index",
      "Offset Cross-line",
      "Offset In-line",
      "Size",
      "Offset Depth",
      "General header type"]

/-- `GeneralHeaderAdd`. CommonSEGD.hpp:861-868, CommonSEGD.cpp:563-575 -/
def namesGeneralHeaderAdd : NameTable where
  owner := "GeneralHeaderAdd"
  enumerators := [
      "TIME",
      "SOURCCE_STATUS",
      "SOURCE_ID",
      "SOURCE_MOVING",
      "ERROR_DESCRIPTION",
      "GEN_HEADER_TYPE"]
  texts := [
      "Time",
      "Source Status",
      "Source Id",
      "Source Moving",
      "Error description",
      "General header type"]

/-- `GeneralHeaderSaux`. CommonSEGD.hpp:914-932, CommonSEGD.cpp:577-600 -/
def namesGeneralHeaderSaux : NameTable where
  owner := "GeneralHeaderSaux"
  enumerators := [
      "SOURCE_ID",
      "SCAN_TYPE_NUM_1",
      "CH_SET_NUM_1",
      "TRACE_NUM_1",
      "SCAN_TYPE_NUM_2",
      "CH_SET_NUM_2",
      "TRACE_NUM_2",
      "SCAN_TYPE_NUM_3",
      "CH_SET_NUM_3",
      "TRACE_NUM_3",
      "SCAN_TYPE_NUM_4",
      "CH_SET_NUM_4",
      "TRACE_NUM_4",
      "SCAN_TYPE_NUM_5",
      "CH_SET_NUM_5",
      "TRACE_NUM_5",
      "GEN_HEADER_TYPE"]
  texts := [
      "Source Id",
      "Scan Type Number 1",
      "Channel Set Number 1",
      "Trace Number 1",
      "Scan Type Number 2",
      "Channel Set Number 2",
      "Trace Number 2",
      "Scan Type Number 3",
      "Channel Set Number 3",
      "Trace Number 3",
      "Scan Type Number 4",
      "Channel Set Number 4",
      "Trace Number 4",
      "Scan Type Number 5",
      "Channel Set Number 5",
      "Trace Number 5",
      "General header type"]

/-- `GeneralHeaderCoord`. CommonSEGD.hpp:964-967, CommonSEGD.cpp:602-610 -/
def namesGeneralHeaderCoord : NameTable where
  owner := "GeneralHeaderCoord"
  enumerators := [
      "COORD_REF_SYS",
      "GEN_HEADER_TYPE"]
  texts := [
      "Coordinate Reference System (CRS) identification",
      "General header type"]

/-- `GeneralHeaderPos1`. CommonSEGD.hpp:1004-1013, CommonSEGD.cpp:612-626 -/
def namesGeneralHeaderPos1 : NameTable where
  owner := "GeneralHeaderPos1"
  enumerators := [
      "TIME_OF_POSITION",
      "TIME_OF_MEASUREMENT",
      "VERTICAL_ERROR",
      "HOR_ERR_SEMI_MAJOR",
      "HOR_ERR_SEMI_MINOR",
      "HOR_ERR_ORIENTATION",
      "POSITION_TYPE",
      "GEN_HEADER_TYPE"]
  texts := [
      "Time of position",
      "Time of measurement/calculation",
      "Vertical error",
      "Horizontal error ellipse semi-major dimension",
      "Horizontal error ellipse semi-minor dimension",
      "Horizontal error ellipse orientation",
      "Position Type",
      "General header type"]

/-- `GeneralHeaderPos2`. CommonSEGD.hpp:1049-1057, CommonSEGD.cpp:628-641 -/
def namesGeneralHeaderPos2 : NameTable where
  owner := "GeneralHeaderPos2"
  enumerators := [
      "CRS_A_COORD1",
      "CRS_A_COORD2",
      "CRS_A_COORD3",
      "CRS_A_CRSREF",
      "POS1_VALID",
      "POS1_QUALITY",
      "GEN_HEADER_TYPE"]
  texts := [
      "Coord tuple 1 / CRS A Coord 1",
      "Coord tuple 1 / CRS A Coord 2",
      "Coord tuple 1 / CRS A Coord 3",
      "CRS A CRSREF Stanza ID 1",
      "Position 1 valid",
      "Position 1 quality",
      "General header type"]

/-- `GeneralHeaderPos3`. CommonSEGD.hpp:1093-1101, CommonSEGD.cpp:643-656 -/
def namesGeneralHeaderPos3 : NameTable where
  owner := "GeneralHeaderPos3"
  enumerators := [
      "CRS_B_COORD1",
      "CRS_B_COORD2",
      "CRS_B_COORD3",
      "CRS_B_CRSREF",
      "POS2_VALID",
      "POS2_QUALITY",
      "GEN_HEADER_TYPE"]
  texts := [
      "Coord tuple 2 / CRS B Coord 1",
      "Coord tuple 2 / CRS B Coord 2",
      "Coord tuple 2 / CRS B Coord 3",
      "CRS B CRSREF Stanza ID 1",
      "Position 2 valid",
      "Position 2 quality",
      "General header type"]

/-- `GeneralHeaderRel`. CommonSEGD.hpp:1135-1141, CommonSEGD.cpp:658-669 -/
def namesGeneralHeaderRel : NameTable where
  owner := "GeneralHeaderRel"
  enumerators := [
      "OFFSET_EAST",
      "OFFSET_NORTH",
      "OFFSET_VERT",
      "DESCRIPTION",
      "GEN_HEADER_TYPE"]
  texts := [
      "Offset easting",
      "Offset northing",
      "Offset vertical",
      "Description",
      "General header type"]

/-- `GeneralHeaderSen`. CommonSEGD.hpp:1175-1181, CommonSEGD.cpp:671-682 -/
def namesGeneralHeaderSen : NameTable where
  owner := "GeneralHeaderSen"
  enumerators := [
      "INSTRUMENT_TEST_TIME",
      "SENSOR_SENSITIVITY",
      "INSTR_TEST_RESULT",
      "SERIAL_NUMBER",
      "GEN_HEADER_TYPE"]
  texts := [
      "Instrument Test Time",
      "Sensor Sensitivity",
      "Instr Test Result",
      "Serial Number",
      "General header type"]

/-- `GeneralHeaderSCa`. CommonSEGD.hpp:1218-1227, CommonSEGD.cpp:684-698 -/
def namesGeneralHeaderSCa : NameTable where
  owner := "GeneralHeaderSCa"
  enumerators := [
      "FREQUENCY_1",
      "AMPLITUDE_1",
      "PHASE_1",
      "FREQUENCY_2",
      "AMPLITUDE_2",
      "PHASE_2",
      "ALIBRATION_APPLIED",
      "GEN_HEADER_TYPE"]
  texts := [
      "Frequency 1",
      "Amplitude 1",
      "Phase 1",
      "Frequency 2",
      "Amplitude 2",
      "Phase 2",
      "Calibration applied",
      "General header type"]

/-- `GeneralHeaderTim`. CommonSEGD.hpp:1263-1271, CommonSEGD.cpp:700-713 -/
def namesGeneralHeaderTim : NameTable where
  owner := "GeneralHeaderTim"
  enumerators := [
      "TIME_OF_DEPLOYMENT",
      "TIME_OF_RETRIEVAL",
      "TIMER_OFFSET_DEPLOYMENT",
      "TIME_OFFSET_RETRIEVAL",
      "TIMEDRIFT_CORRECTED",
      "CORRECTION_METHOD",
      "GEN_HEADER_TYPE"]
  texts := [
      "Time of deployment",
      "Time of retrieval",
      "Timer Offset Deployment",
      "Time Offset Retrieval",
      "Timedrift corrected",
      "Correction method",
      "General header type"]

/-- `GeneralHeaderElSR`. CommonSEGD.hpp:1308-1317, CommonSEGD.cpp:715-729 -/
def namesGeneralHeaderElSR : NameTable where
  owner := "GeneralHeaderElSR"
  enumerators := [
      "EQUIPMENT_DIMENTION_X",
      "EQUIPMENT_DIMENTION_Y",
      "EQUIPMENT_DIMENTION_Z",
      "POSITIVE_TERMINAL",
      "EQUIPMENT_OFFSET_X",
      "EQUIPMENT_OFFSET_Y",
      "EQUIPMENT_OFFSET_Z",
      "GEN_HEADER_TYPE"]
  texts := [
      "Equipment Dimension X",
      "Equipment Dimension Y",
      "Equipment Dimension Z",
      "Positive terminal",
      "Equipment Offset X",
      "Equipment Offset Y",
      "Equipment Offset Z",
      "General header type"]

/-- `GeneralHeaderOri`. CommonSEGD.hpp:1356-1368, CommonSEGD.cpp:731-746 -/
def namesGeneralHeaderOri : NameTable where
  owner := "GeneralHeaderOri"
  enumerators := [
      "ROTATION_X_AXIS",
      "ROTATION_Y_AXIS",
      "ROTATION_Z_AXIS",
      "REFERENCE_ORIENT",
      "TIME_STAMP",
      "ORIENT_TYPE",
      "REF_ORIENT_VALID",
      "ROTATION_APPLIED",
      "ROT_NORTH",
      "APPLIED",
      "GEN_HEADER_TYPE"]
  texts := [
      "Rotation x axis",
      "Rotation Y axis",
      "Rotation Z axis",
      "Reference Orientation",
      "Time Stamp",
      "Orientation Type",
      "Ref Orient Valid",
      "Rot North Applied",
      "General header type"]

/-- `GeneralHeaderMeas`. CommonSEGD.hpp:1405-1414, CommonSEGD.cpp:748-762 -/
def namesGeneralHeaderMeas : NameTable where
  owner := "GeneralHeaderMeas"
  enumerators := [
      "TIMESTAMP",
      "MEASUREMENT_VALUE",
      "MAXIMUM_VALUE",
      "MINIMUM_VALUE",
      "QUANTITY_CLASS",
      "UNIT_OF_MEASURE",
      "MEASUREMENT_DESCRIPTION",
      "GEN_HEADER_TYPE"]
  texts := [
      "Timestamp",
      "Measurement Value",
      "Maximum Value",
      "Minimum Value",
      "Quantity Class",
      "Unit Of Measure",
      "Measurement Description",
      "General header type"]

/-- `ChannelSetHeader`. CommonSEGD.hpp:1483-1512, CommonSEGD.cpp:764-798 -/
def namesChannelSetHeader : NameTable where
  owner := "ChannelSetHeader"
  enumerators := [
      "SCAN_TYPE_NUMBER",
      "CHANNEL_SET_NUMBER",
      "CHANNEL_TYPE",
      "CHANNEL_SET_START_TIME",
      "CHANNEL_SET_END_TIME",
      "DESCALE_MULTIPLIER",
      "NUMBER_OF_CHANNELS",
      "SUBSCANS_PER_CH_SET",
      "CHANNEL_GAIN",
      "ALIAS_FILTER_FREQ",
      "ALIAS_FILTER_SLOPE",
      "LOW_CUT_FILTER_FREQ",
      "LOW_CUT_FILTER_SLOPE",
      "FIRST_NOTCH_FILTER",
      "SECOND_NOTCH_FILTER",
      "THIRD_NOTCH_FILTER",
      "EXT_CH_SET_NUM",
      "EXT_HDR_FLAG",
      "TRC_HDR_EXT",
      "VERT_STACK",
      "STREAMER_NO",
      "ARRAY_FORMING",
      "NUMBER_OF_SAMPLES",
      "SAMPLE_INTERVAL",
      "FILTER_PHASE",
      "PHYSICAL_UNIT",
      "FILTER_DELAY",
      "DESCRIPTION"]
  texts := [
      "Scan type number",
      "Channel set number",
      "Channel type",
      "Channel set start time",
      "Channel set end time",
      "Descale multiplier",
      "Number of channels",
      "Subscans per channel set",
      "Channel gain",
      "Alias filter frequency",
      "Alias filter slope",
      "Low cut filter frequency",
      "Low cut filter slope",
      "First notch filter",
      "Second notch filter",
      "Third notch filter",
      "Extended channel set number",
      "Extended header flag",
      "Trace header extension",
      "Verical stack",
      "Streamer no",
      "Array forming",
      "Number of samples",
      "Sample interval",
      "Filter phase",
      "Physical unit",
      "Filter delay",
      "Description"]

/-- All structures of CommonSEGD.hpp with names. -/
def segdNames : List NameTable :=
  [namesGeneralHeader,
   namesGeneralHeader2,
   namesGeneralHeaderN,
   namesGeneralHeader3,
   namesGeneralHeaderVes,
   namesGeneralHeaderSur,
   namesGeneralHeaderCli,
   namesGeneralHeaderJob,
   namesGeneralHeaderLin,
   namesGeneralHeaderVib,
   namesGeneralHeaderExp,
   namesGeneralHeaderAir,
   namesGeneralHeaderWat,
   namesGeneralHeaderEle,
   namesGeneralHeaderOth,
   namesGeneralHeaderAdd,
   namesGeneralHeaderSaux,
   namesGeneralHeaderCoord,
   namesGeneralHeaderPos1,
   namesGeneralHeaderPos2,
   namesGeneralHeaderPos3,
   namesGeneralHeaderRel,
   namesGeneralHeaderSen,
   namesGeneralHeaderSCa,
   namesGeneralHeaderTim,
   namesGeneralHeaderElSR,
   namesGeneralHeaderOri,
   namesGeneralHeaderMeas,
   namesChannelSetHeader]

end Sedaman
