{
 "claims": [
  {
   "property": "C01",
   "status": "proved",
   "theorems": [
    "Sedaman.Props.C01_bcd_roundtrip",
    "Sedaman.Props.C01_negative_not_encoded",
    "Sedaman.Props.C01_zero_count_undefined"
   ],
   "note": "Operand widths up to 8 bytes. Negative values and a zero count are outside the property (separate theorems show what happens)."
  },
  {
   "property": "C02",
   "status": "proved",
   "theorems": [
    "Sedaman.Props.C02_toBcd_layout",
    "Sedaman.Props.C02_digits_value",
    "Sedaman.Props.C02_toBcd_short"
   ],
   "note": ""
  },
  {
   "property": "C03",
   "status": "proved",
   "theorems": [
    "Sedaman.Props.C03_fromBcd_value",
    "Sedaman.Props.C03_fromBcd_short",
    "Sedaman.Props.C03_decimal_nibbles_reproduced",
    "Sedaman.Props.C03_read_write_identity"
   ],
   "note": "The accumulator is modelled unbounded; every call in the library stays below the C++ type bound."
  },
  {
   "property": "C04",
   "status": "proved",
   "theorems": [
    "Sedaman.Props.C04_roundtrip",
    "Sedaman.Props.C04_width",
    "Sedaman.Props.C04_rewrite",
    "Sedaman.Props.C04_short",
    "Sedaman.Props.C04_u24_needs_left_to_right"
   ],
   "note": ""
  },
  {
   "property": "C05",
   "status": "proved",
   "theorems": [
    "Sedaman.Props.C05_marker",
    "Sedaman.Props.C05_bytes_on_disk",
    "Sedaman.Props.C05_value_read"
   ],
   "note": ""
  },
  {
   "property": "C06",
   "status": "proved",
   "theorems": [
    "Sedaman.Props.C06_tables_total",
    "Sedaman.Props.C06_ascii_roundtrip",
    "Sedaman.Props.C06_ebcdic_roundtrip",
    "Sedaman.Props.C06_length",
    "Sedaman.Props.C06_injective",
    "Sedaman.Props.C06_code_page"
   ],
   "note": ""
  },
  {
   "property": "C07",
   "status": "partial",
   "theorems": [
    "Sedaman.Props.C07_roundtrip_partial",
    "Sedaman.Props.C07_swapped_marker_lost",
    "Sedaman.Props.C07_other_markers",
    "Sedaman.Props.C07_rewrite_partial"
   ],
   "note": "Proved for the markers 0 and 0x01020304, from headers and from bytes. False for the third accepted marker 0x04030201 (C07_swapped_marker_lost)."
  },
  {
   "property": "C08",
   "status": "proved",
   "theorems": [
    "Sedaman.Props.C08_size",
    "Sedaman.Props.C08_layout",
    "Sedaman.Props.C08_disjoint",
    "Sedaman.Props.C08_unassigned_zero"
   ],
   "note": ""
  },
  {
   "property": "C09",
   "status": "proved",
   "theorems": [
    "Sedaman.Props.C09_reader_accepts",
    "Sedaman.Props.C09_reader_rejects",
    "Sedaman.Props.C09_writer_accepts",
    "Sedaman.Props.C09_writer_rejects",
    "Sedaman.Props.C09_same_codes",
    "Sedaman.Props.C09_sizes"
   ],
   "note": ""
  },
  {
   "property": "C10",
   "status": "partial",
   "theorems": [
    "Sedaman.Props.C10_integer_samples_partial",
    "Sedaman.Props.C10_negative_undefined",
    "Sedaman.Props.C10_read_exact"
   ],
   "note": "Proved for non-negative samples. For samples of at most -1 every integer writer converts double to an unsigned parameter type, which is undefined behaviour (C10_negative_undefined). Reading is exact for negative numbers too."
  },
  {
   "property": "C11",
   "status": "proved",
   "theorems": [
    "Sedaman.Props.C11_double_exact",
    "Sedaman.Props.C11_single_exact",
    "Sedaman.Props.C11_single_value",
    "Sedaman.Props.C11_single_nearest"
   ],
   "note": "NaN payloads are outside the float model for format 5."
  },
  {
   "property": "C12",
   "status": "partial",
   "theorems": [
    "Sedaman.Props.C12_accurate_exists",
    "Sedaman.Props.C12_exponent",
    "Sedaman.Props.C12_rewritten_partial",
    "Sedaman.Props.C12_near_partial",
    "Sedaman.Props.C12_power_lost",
    "Sedaman.Props.C12_largest_undefined",
    "Sedaman.Props.C12_decode_value",
    "Sedaman.Props.C12_encode_decode_partial",
    "Sedaman.Props.C12_error_below_one_unit_partial",
    "Sedaman.Props.C12_zero_undefined",
    "Sedaman.Props.C12_low_estimate_loses_value"
   ],
   "note": "Decoding is exact without conditions. Encoding is proved twice: for any estimate that gives the exact base 16 exponent, and for the estimate the code computes from an accurate logarithm (C12_exponent, C12_rewritten_partial, C12_near_partial; numbers just below a power of 16 may be stored with one hexadecimal digit less). False otherwise: powers of 16 below 16^-31 may be lost (C12_power_lost, C12_low_estimate_loses_value), numbers just below 16^63 are undefined behaviour (C12_largest_undefined), and so is encoding 0 (C12_zero_undefined)."
  },
  {
   "property": "C13",
   "status": "partial",
   "theorems": [
    "Sedaman.Props.C13_no_overlap",
    "Sedaman.Props.C13_in_bounds_partial",
    "Sedaman.Props.C13_first_field_unchecked",
    "Sedaman.Props.C13_wrap_unchecked",
    "Sedaman.Props.C13_empty_map_undefined",
    "Sedaman.Props.C13_accepts_safe_maps",
    "Sedaman.Props.C13_rejects_name",
    "Sedaman.Props.C13_rejects_overlap",
    "Sedaman.Props.C13_rejects_bounds",
    "Sedaman.Props.C13_rejects_count"
   ],
   "note": "No overlap and name length are proved without conditions. In-bounds is proved when the first field of each block is in bounds and no field end wraps around 2^32; both gaps are real (C13_first_field_unchecked, C13_wrap_unchecked, C13_empty_map_undefined). Completeness (no safe map is refused) is proved."
  },
  {
   "property": "C14",
   "status": "proved",
   "theorems": [
    "Sedaman.Props.C14_accepted",
    "Sedaman.Props.C14_safe",
    "Sedaman.Props.C14_positions",
    "Sedaman.Props.C14_types"
   ],
   "note": ""
  },
  {
   "property": "C15",
   "status": "partial",
   "theorems": [
    "Sedaman.Props.C15_write_succeeds",
    "Sedaman.Props.C15_roundtrip_partial",
    "Sedaman.Props.C15_ibm_unset_undefined",
    "Sedaman.Props.C15_single_field_rounds",
    "Sedaman.Props.C15_reduced_in_range"
   ],
   "note": "Proved for every safe block of distinctly named fields of any type: names, integer fields reduced to their width, single precision fields as the nearest single to the integer (one rounding, from 64-bit integer to float), double and IBM fields as the value comes back in the format of the field. The property is false for an IBM float field that is not set: writing is undefined behaviour instead of storing zero (C15_ibm_unset_undefined), and single precision fields round integers above 2^24 (C15_single_field_rounds)."
  },
  {
   "property": "C16",
   "status": "proved",
   "theorems": [
    "Sedaman.Props.C16_block",
    "Sedaman.Props.C16_history_free",
    "Sedaman.Props.C16_first_block"
   ],
   "note": ""
  },
  {
   "property": "C17",
   "status": "partial",
   "theorems": [
    "Sedaman.Props.C17_double_value_refused",
    "Sedaman.Props.C17_fails",
    "Sedaman.Props.C17_integer_in_double_field_partial"
   ],
   "note": "False: a double header value always makes the writer throw (C17_double_value_refused, C17_fails). What works: integers in a double field."
  },
  {
   "property": "C18",
   "status": "proved",
   "theorems": [
    "Sedaman.Props.C18_header_succeeds",
    "Sedaman.Props.C18_same"
   ],
   "note": ""
  },
  {
   "property": "C19",
   "status": "proved",
   "theorems": [
    "Sedaman.Props.C19_visits",
    "Sedaman.Props.C19_fixed",
    "Sedaman.Props.C19_variable"
   ],
   "note": ""
  },
  {
   "property": "C20",
   "status": "partial",
   "theorems": [
    "Sedaman.Props.C20_roundtrip_partial",
    "Sedaman.Props.C20_exact",
    "Sedaman.Props.C20_comes_unique",
    "Sedaman.Props.C20_double",
    "Sedaman.Props.C20_single",
    "Sedaman.Props.C20_ibm_partial",
    "Sedaman.Props.C20_integer_partial",
    "Sedaman.Props.C20_swapped_marker_fails"
   ],
   "note": "Proved for binary headers with marker 0 or 0x01020304 and no revision 1/2 members, maps the library accepts whose fields are disjoint, in the block and distinctly named, integer header values and samples the writers do not fail on; samples and floating point header fields come back as the format stores them (C20_exact, C20_double, C20_single, C20_ibm_partial, C20_integer_partial). Missing: the marker 0x04030201, for which the property is false (C20_swapped_marker_fails), and values on which the encoders have undefined behaviour (C10_negative_undefined, C12_zero_undefined)."
  },
  {
   "property": "C21",
   "status": "partial",
   "theorems": [
    "Sedaman.Props.C21_roundtrip_partial",
    "Sedaman.Props.C21_swapped_marker_fails"
   ],
   "note": "Proved for fixed and variable length files with declared extended text headers, under the map, value and marker conditions of C20. Missing: the marker 0x04030201, for which the property is false (C21_swapped_marker_fails), and values on which the encoders have undefined behaviour."
  },
  {
   "property": "C22",
   "status": "partial",
   "theorems": [
    "Sedaman.Props.C22_roundtrip_partial",
    "Sedaman.Props.C22_swapped_marker_fails"
   ],
   "note": "As C21, with all 44 members of the binary header returned. Requires a right or absent offset of the first trace. False for the marker 0x04030201 (C22_swapped_marker_fails)."
  },
  {
   "property": "C23",
   "status": "partial",
   "theorems": [
    "Sedaman.Props.C23_delimited_partial",
    "Sedaman.Props.C23_counted_never_opens",
    "Sedaman.Props.C23_counted_example",
    "Sedaman.Props.C23_fixed_fails",
    "Sedaman.Props.C23_undeclared_dropped"
   ],
   "note": "Proved for variable length traces, a count of -1 and an end stanza that comes last (C23_delimited_partial). False otherwise: no file with a positive number of stanzas opens (C23_counted_never_opens, C23_counted_example), fixed length files fail (C23_fixed_fails), and stanzas the header does not announce are dropped (C23_undeclared_dropped)."
  },
  {
   "property": "C24",
   "status": "partial",
   "theorems": [
    "Sedaman.Props.C24_writer_blocks",
    "Sedaman.Props.C24_reader_blocks",
    "Sedaman.Props.C24_mismatch"
   ],
   "note": "False: with k additional headers announced the writer stores k-1 extra blocks and the reader consumes k. Both counts are proved for all files and all k (C24_writer_blocks, C24_reader_blocks) and C24_mismatch is a concrete file that comes back wrong."
  },
  {
   "property": "C25",
   "status": "proved",
   "theorems": [
    "Sedaman.Props.C25_rev0_refuses",
    "Sedaman.Props.C25_rev1_refuses",
    "Sedaman.Props.C25_rev2_refuses",
    "Sedaman.Props.C25_trailer_refused",
    "Sedaman.Props.C25_accepts",
    "Sedaman.Props.C25_kept"
   ],
   "note": ""
  },
  {
   "property": "C26",
   "status": "partial",
   "theorems": [
    "Sedaman.Props.C26_rev1",
    "Sedaman.Props.C26_rev2",
    "Sedaman.Props.C26_rev0_damaged",
    "Sedaman.Props.C26_rev0_partial"
   ],
   "note": "Revisions 1 and 2 proved. False for revision 0: the default text of OSEGYRev0 has 32 form feeds and 3220 characters, so line tags are displaced and the end is cut (C26_rev0_damaged); C26_rev0_partial states what does hold."
  },
  {
   "property": "C27",
   "status": "proved",
   "theorems": [
    "Sedaman.Props.C27_first_trace",
    "Sedaman.Props.C27_read_back",
    "Sedaman.Props.C27_later_traces",
    "Sedaman.Props.C27_too_many_samples",
    "Sedaman.Props.C27_bad_interval"
   ],
   "note": ""
  },
  {
   "property": "C28",
   "status": "partial",
   "theorems": [
    "Sedaman.Props.C28_roundtrip_partial",
    "Sedaman.Props.C28_zero_sample_undefined"
   ],
   "note": "Proved for traces whose samples the IBM encoder accepts (they may be truncated, see C20_ibm_partial), at most 32767 samples and a usable interval. Missing: a zero sample is undefined behaviour in the IBM encoder (C28_zero_sample_undefined)."
  },
  {
   "property": "C29",
   "status": "partial",
   "theorems": [
    "Sedaman.Props.C29_exact_partial",
    "Sedaman.Props.C29_at_most",
    "Sedaman.Props.C29_too_many_undefined",
    "Sedaman.Props.C29_too_few_stale"
   ],
   "note": "Exactly the announced count is proved to be written faithfully. More samples than announced write beyond the buffer (C29_too_many_undefined); fewer leave bytes of earlier traces in the file (C29_too_few_stale)."
  },
  {
   "property": "C30",
   "status": "partial",
   "theorems": [
    "Sedaman.Props.C30_read_counted",
    "Sedaman.Props.C30_read_delimited",
    "Sedaman.Props.C30_stored_count",
    "Sedaman.Props.C30_undeclared_lost"
   ],
   "note": "Reading is proved (counted and delimited). The writer stores the count the caller put into the binary header, not the number of text headers it writes (C30_stored_count), so an undeclared extended header is lost to the reader (C30_undeclared_lost)."
  },
  {
   "property": "C31",
   "status": "proved",
   "theorems": [
    "Sedaman.Props.C31_override"
   ],
   "note": ""
  },
  {
   "property": "C32",
   "status": "proved",
   "theorems": [
    "Sedaman.Props.C32_decision",
    "Sedaman.Props.C32_every_trace"
   ],
   "note": ""
  },
  {
   "property": "C33",
   "status": "proved",
   "theorems": [
    "Sedaman.Props.C33_position"
   ],
   "note": ""
  },
  {
   "property": "C34",
   "status": "proved",
   "theorems": [
    "Sedaman.Props.C34_short_header",
    "Sedaman.Props.C34_short_samples_fixed",
    "Sedaman.Props.C34_short_samples_variable",
    "Sedaman.Props.C34_bytes_of_file",
    "Sedaman.Props.C34_short_file"
   ],
   "note": ""
  },
  {
   "property": "C35",
   "status": "partial",
   "theorems": [
    "Sedaman.Props.C35_read_trace",
    "Sedaman.Props.C35_read_header_partial",
    "Sedaman.Props.C35_read_trace_terminates",
    "Sedaman.Props.C35_negative_count_stalls"
   ],
   "note": "Proved for reading traces. A negative sample count makes header-only reading stand still (C35_negative_count_stalls), so the header-only bound needs non-negative counts (C35_read_header_partial)."
  },
  {
   "property": "C36",
   "status": "proved",
   "theorems": [
    "Sedaman.Props.C36_appends",
    "Sedaman.Props.C36_growth"
   ],
   "note": ""
  },
  {
   "property": "C37",
   "status": "partial",
   "theorems": [
    "Sedaman.Props.C37_traces_partial",
    "Sedaman.Props.C37_headers",
    "Sedaman.Props.C37_nan_fails"
   ],
   "note": "Proved for every file whose traces are readable and whose keys are not NaN (C37_traces_partial), and for headers on every file the constructor returns on (C37_headers). Missing: a NaN key is undefined behaviour (C37_nan_fails), and a file without traces cannot be opened (C41_empty_undefined)."
  },
  {
   "property": "C38",
   "status": "proved",
   "theorems": [
    "Sedaman.Props.C38_keys"
   ],
   "note": "For every file the constructor returns on, after any history of calls."
  },
  {
   "property": "C39",
   "status": "partial",
   "theorems": [
    "Sedaman.Props.C39_traces_partial",
    "Sedaman.Props.C39_headers_partial",
    "Sedaman.Props.C39_absent",
    "Sedaman.Props.C39_nan_fails"
   ],
   "note": "Proved for every value except NaN and every limit, after any history of calls. Looking up NaN breaks the ordering requirement of std::map (C39_nan_fails)."
  },
  {
   "property": "C40",
   "status": "proved",
   "theorems": [
    "Sedaman.Props.C40_interleaved",
    "Sedaman.Props.C40_interleaved_headers"
   ],
   "note": "Any history of calls that return; for histories with calls that throw see C78."
  },
  {
   "property": "C41",
   "status": "partial",
   "theorems": [
    "Sedaman.Props.C41_missing_partial",
    "Sedaman.Props.C41_empty_undefined",
    "Sedaman.Props.C41_outcome_unique"
   ],
   "note": "Missing header: proved (C41_missing_partial, keys before it not NaN). File without traces: the property is false, the constructor dereferences the end iterator of an empty map (C41_empty_undefined)."
  },
  {
   "property": "C42",
   "status": "proved",
   "theorems": [
    "Sedaman.Props.C42_get_after_sets",
    "Sedaman.Props.C42_keys_once",
    "Sedaman.Props.C42_key_set",
    "Sedaman.Props.C42_copy_independent"
   ],
   "note": ""
  },
  {
   "property": "C43",
   "status": "partial",
   "theorems": [
    "Sedaman.Props.C43_text_partial",
    "Sedaman.Props.C43_move_partial",
    "Sedaman.Props.C43_copy_undefined",
    "Sedaman.Props.C43_zero_byte_cuts",
    "Sedaman.Props.C43_moved_from"
   ],
   "note": "Text and move proved for strings without zero bytes (C43_text_partial, C43_move_partial). Copying fails: the copy constructor dereferences a null unique_ptr for every exception (C43_copy_undefined). what() is cut at a zero byte (C43_zero_byte_cuts)."
  },
  {
   "property": "C44",
   "status": "partial",
   "theorems": [
    "Sedaman.Props.C44_stored",
    "Sedaman.Props.C44_roundtrip_partial",
    "Sedaman.Props.C44_base_scan_undefined",
    "Sedaman.Props.C44_record_length_lost",
    "Sedaman.Props.C44_scans_rounded",
    "Sedaman.Props.C44_file_number_escaped"
   ],
   "note": "Fields within their decimal digits are returned unchanged and the block has 32 bytes, for any libm log2 that truncates correctly. Not covered: base scan intervals of 8 ms and more fit the byte but the conversion to signed char is undefined (C44_base_scan_undefined); with an extended record length the record length reads back as 1665 (C44_record_length_lost); scans per block that are not a power of two are rounded down (C44_scans_rounded); C44_stored states what is read for every header."
  },
  {
   "property": "C45",
   "status": "proved",
   "theorems": [
    "Sedaman.Props.C45_roundtrip"
   ],
   "note": "For every in-range header; members without a place in a revision 2 block keep the reader's values."
  },
  {
   "property": "C46",
   "status": "partial",
   "theorems": [
    "Sedaman.Props.C46_roundtrip_partial",
    "Sedaman.Props.C46_negative_undefined",
    "Sedaman.Props.C46_large_read_negative"
   ],
   "note": "Line and point numbers that are non-negative multiples of 2^-16 below 2^23. Negative numbers are undefined behaviour in the writer (C46_negative_undefined); numbers from 2^23 read back negative (C46_large_read_negative)."
  },
  {
   "property": "C47",
   "status": "partial",
   "theorems": [
    "Sedaman.Props.C47_stored",
    "Sedaman.Props.C47_roundtrip_partial",
    "Sedaman.Props.C47_negative_descale_undefined",
    "Sedaman.Props.C47_negative_descale_read",
    "Sedaman.Props.C47_flag_sign_extended",
    "Sedaman.Props.C47_channels_lost",
    "Sedaman.Props.C47_odd_time_rounded"
   ],
   "note": "Headers whose fields fit, with a non-negative descale multiplier k/1024 (k < 2^15), a power-of-two number of subscans below 2^10 and an extended header flag below 8, are returned unchanged. Negative multipliers are undefined behaviour in the writer (C47_negative_descale_undefined), flags from 8 come back sign extended (C47_flag_sign_extended). C47_stored states what is read for every header with a non-negative multiplier."
  },
  {
   "property": "C48",
   "status": "partial",
   "theorems": [
    "Sedaman.Props.C48_roundtrip_partial",
    "Sedaman.Props.C48_skew_undefined",
    "Sedaman.Props.C48_no_channel_set",
    "Sedaman.Props.C48_wrong_alternative"
   ],
   "note": "The round trip is proved for every header whose numbers fit the fields (file number below 2^24, scan type below 100, channel set below 2^16, channel below 10000, times on the 1/256 grid). Missing: sample skews of 0.5 and more, whose conversion to a signed char is undefined (C48_skew_undefined), and headers without a channel set number, where an empty optional is dereferenced (C48_no_channel_set)."
  },
  {
   "property": "C49",
   "status": "partial",
   "theorems": [
    "Sedaman.Props.C49_large_partial",
    "Sedaman.Props.C49_channel_lost",
    "Sedaman.Props.C49_file_number_wraps"
   ],
   "note": "Large file numbers and channel set numbers are carried by the extended fields. Channel numbers above 9999 have no extended field in revision 2.1 and are all read back as 16665 (C49_channel_lost); file numbers of 2^24 and more lose their high bits (C49_file_number_wraps)."
  },
  {
   "property": "C50",
   "status": "partial",
   "theorems": [
    "Sedaman.Props.C50_codes",
    "Sedaman.Props.C50_unsupported",
    "Sedaman.Props.C50_double_exact",
    "Sedaman.Props.C50_single",
    "Sedaman.Props.C50_single_exact",
    "Sedaman.Props.C50_single_nearest",
    "Sedaman.Props.C50_i32_le",
    "Sedaman.Props.C50_integer_partial",
    "Sedaman.Props.C50_negative_undefined",
    "Sedaman.Props.C50_i24_le_wrong",
    "Sedaman.Props.C50_packed_reader",
    "Sedaman.Props.C50_trace_samples_partial",
    "Sedaman.Props.C50_size_wraps"
   ],
   "note": "Format codes, bits per sample and rejection: all codes. Double precision (8080, 9080): every bit pattern. Single precision (8058, 9058): exact for single precision values, nearest otherwise. 9038: every 32-bit integer. 8036 and 8038: non-negative samples only; negative ones are undefined behaviour in the writer (C50_negative_undefined). Whole traces with a power of two scale: C50_trace_samples_partial, below 2^32 bits of data (C50_size_wraps). 9036 returns wrong values (C50_i24_le_wrong); packed formats cannot be read (C50_packed_reader); their writers are the subject of C68."
  },
  {
   "property": "C51",
   "status": "partial",
   "theorems": [
    "Sedaman.Props.C51_limit_partial",
    "Sedaman.Props.C51_all_accepted_partial",
    "Sedaman.Props.C51_failed_call",
    "Sedaman.Props.C51_uninitialised",
    "Sedaman.Props.C51_uninitialised_more"
   ],
   "note": "Proved: from a writer whose counter started at zero, write_trace throws without writing exactly from the announced number of traces on, and every list of acceptable traces up to that number is accepted. Missing: the counter of announced channels is never initialised by the writer (OSEGD.cpp), so on other heap contents the limit is wrong; C51_uninitialised gives witnesses in both directions."
  },
  {
   "property": "C52",
   "status": "partial",
   "theorems": [
    "Sedaman.Props.C52_has_trace",
    "Sedaman.Props.C52_next",
    "Sedaman.Props.C52_record",
    "Sedaman.Props.C52_end_throws",
    "Sedaman.Props.C52_agree_partial",
    "Sedaman.Props.C52_empty_record",
    "Sedaman.Props.C52_beyond_end",
    "Sedaman.Props.C52_trailer_misread"
   ],
   "note": "Proved for every reachable state: has_trace is true exactly while fewer traces were read than announced; each trace but the last stays in the record; after the last one the reader is at the end with has_record = has_trace = false, or has read the headers that start right behind the trace; at the end read_trace throws. Missing: agreement of has_record and has_trace in records that announce no traces and in files whose skew blocks reach beyond the end (C52_empty_record, C52_beyond_end); general trailers are taken for records (C52_trailer_misread)."
  },
  {
   "property": "C53",
   "status": "partial",
   "theorems": [
    "Sedaman.Props.C53_buffer_overflow",
    "Sedaman.Props.C53_roundtrip_partial",
    "Sedaman.Props.C53_standard_partial",
    "Sedaman.Props.C53_missing_key",
    "Sedaman.Props.C53_more_blocks_than_maps",
    "Sedaman.Props.C53_u64_misread",
    "Sedaman.Props.C53_rev3_shifted",
    "Sedaman.Props.C53_rev1_indices_misread"
   ],
   "note": "The round trip of map-driven and standard (revision 2) extensions is proved under the assumption that at least 32 bytes may be used at the 20 byte buffer in which the blocks are put together; as written, every trace with an extension block leaves that buffer (C53_buffer_overflow). Missing too: unsigned 64-bit fields, read from the wrong place (C53_u64_misread), and the standard extension of revisions 1 and 3, where writer and reader disagree (C53_rev1_indices_misread, C53_rev3_shifted)."
  },
  {
   "property": "C54",
   "status": "proved",
   "theorems": [
    "Sedaman.Props.C54_safe",
    "Sedaman.Props.C54_names",
    "Sedaman.Props.C54_reads_any_blocks"
   ],
   "note": "All three built-in maps, checked completely, and lifted to reading blocks of any content."
  },
  {
   "property": "C55",
   "status": "partial",
   "theorems": [
    "Sedaman.Props.C55_sample_double",
    "Sedaman.Props.C55_sample_single",
    "Sedaman.Props.C55_sample_integer",
    "Sedaman.Props.C55_sample_ibm",
    "Sedaman.Props.C55_negative_sample_fails",
    "Sedaman.Props.C55_zero_sample_fails",
    "Sedaman.Props.C55_float_field_fails",
    "Sedaman.Props.C55_marker_fails",
    "Sedaman.Props.C55_copy_partial"
   ],
   "note": "Proved for files with marker 0 or 0x01020304, integer header fields and samples the library writes as it reads them (C55_copy_partial; C55_sample_* say which samples those are). False otherwise: negative integer samples and IBM zeros are undefined behaviour on writing, floating point header fields make the writer throw, and the marker of a big endian file is stored swapped."
  },
  {
   "property": "C56",
   "status": "proved",
   "theorems": [
    "Sedaman.Props.C56_binary_header"
   ],
   "note": "All 44 enumerators of BinaryHeader::Name; table copied from the source and checked completely."
  },
  {
   "property": "C57",
   "status": "partial",
   "theorems": [
    "Sedaman.Props.C57_segd_partial",
    "Sedaman.Props.C57_orientation_fails"
   ],
   "note": "Holds for 28 of 29 structures (C57_segd_partial). Fails for GeneralHeaderOri: 11 enumerators but 9 texts, so name_as_string reads past the table (C57_orientation_fails)."
  },
  {
   "property": "C58",
   "status": "partial",
   "theorems": [
    "Sedaman.Props.C58_described_partial",
    "Sedaman.Props.C58_distinct_partial",
    "Sedaman.Props.C58_fails"
   ],
   "note": "Holds for all names but five (C58_described_partial) and texts are distinct apart from HOUR (C58_distinct_partial). Fails: TRANS_CONST_MANT/EXP, SOURCE_MEASUREMENT_MANT/EXP and NANOSECOND have no entry, and HOUR has the text of YEAR (C58_fails)."
  },
  {
   "property": "C59",
   "status": "partial",
   "theorems": [
    "Sedaman.Props.C59_maps_partial",
    "Sedaman.Props.C59_standard_partial",
    "Sedaman.Props.C59_no_extension",
    "Sedaman.Props.C59_no_general_header2",
    "Sedaman.Props.C59_block_count",
    "Sedaman.Props.C59_same_number",
    "Sedaman.Props.C59_many_channel_sets"
   ],
   "note": "Proved for every consistent set of revision 2.1 headers and every list of traces as long as the channel sets announce, with extension maps (C59_maps_partial) and with the standard revision 2 extension block (C59_standard_partial), for the byte-aligned sample formats. Missing: traces without extension blocks, no general header 2 announced, a number of additional headers that differs from the announced one, two additional headers with one number, more than 99 channel sets; for each of these a concrete counterexample is proved. Packed sample formats, values that do not fit their field, and revision 1 standard extensions are outside the theorem (see C50, C53)."
  },
  {
   "property": "C60",
   "status": "partial",
   "theorems": [
    "Sedaman.Props.C60_block_partial",
    "Sedaman.Props.C60_source_partial",
    "Sedaman.Props.C60_source_type_wrong",
    "Sedaman.Props.C60_sensor_overread",
    "Sedaman.Props.C60_unknown_ignored"
   ],
   "note": "Proved: every known block other than the six source blocks and the sensor block is decoded member by member from the offsets of the standard, reports the type in its last byte, is filed under that type, and unknown blocks are ignored. Source blocks: all members but the last four are right. Missing: source blocks read the last four 16-bit members from one byte each and report byte 27 as the type (C60_source_type_wrong); every sensor block is read beyond its 32 bytes (C60_sensor_overread)."
  },
  {
   "property": "C61",
   "status": "partial",
   "theorems": [
    "Sedaman.Props.C61_current_partial",
    "Sedaman.Props.C61_stale_block",
    "Sedaman.Props.C61_stale_revision",
    "Sedaman.Props.C61_wrong_class"
   ],
   "note": "Proved for every file and record that has general header 2: after moving to a record the getters return what a new reader of the file from that point returns (headers, channel sets, extended/external headers, counters, blocks of the record). Missing: blocks and header members of earlier records are never cleared (C61_stale_block, C61_stale_revision); a block getter dereferences a null pointer when a revision 2 block has its number (C61_wrong_class)."
  },
  {
   "property": "C62",
   "status": "partial",
   "theorems": [
    "Sedaman.Props.C62_refused_traces_leave_nothing_partial",
    "Sedaman.Props.C62_what_is_left",
    "Sedaman.Props.C62_later_traces_lost",
    "Sedaman.Props.C62_unchanged_partial",
    "Sedaman.Props.C62_partial_trace_left",
    "Sedaman.Props.C62_bad_channel_set"
   ],
   "note": "Proved: the exact condition under which a failed call changes nothing (the announced number was reached, or no trace header can be made), and that otherwise the 20 bytes of the header stay (C62_what_is_left); for whole histories of writable traces, traces with values of the wrong kind for the trace header and surplus traces the file is that of the accepted traces alone. Missing because false of the code: failures in the extension or the samples leave a partial trace behind (C62_partial_trace_left) and make later traces unreadable (C62_later_traces_lost); a missing channel set number is undefined behaviour (C62_bad_channel_set)."
  },
  {
   "property": "C63",
   "status": "partial",
   "theorems": [
    "Sedaman.Props.C63_layout",
    "Sedaman.Props.C63_read_partial",
    "Sedaman.Props.C63_members_wrong",
    "Sedaman.Props.C63_header3_missing"
   ],
   "note": "Proved: every member of general header 2 is stored where the revision 3 standard has it (C63_layout); the reader returns file number, channel sets, extended header, skew and trailer blocks and the revision, and C63_read_partial says exactly what it returns for the other five members. Missing: those five members and the extended record length (C63_members_wrong); general header 3 is never written (C63_header3_missing)."
  },
  {
   "property": "C64",
   "status": "partial",
   "theorems": [
    "Sedaman.Props.C64_block_partial",
    "Sedaman.Props.C64_blocks_partial",
    "Sedaman.Props.C64_lost",
    "Sedaman.Props.C64_sensor_overflow",
    "Sedaman.Props.C64_unknown_zero"
   ],
   "note": "Proved for the block classes with codes in keptTypes (12 of 24): each block, and a whole map of them, comes back with all members. Missing: name blocks and source blocks get a wrong type byte and are ignored by the reader (C64_lost), the sensor block is written beyond its buffer (C64_sensor_overflow)."
  },
  {
   "property": "C65",
   "status": "partial",
   "theorems": [
    "Sedaman.Props.C65_read_partial",
    "Sedaman.Props.C65_members_wrong",
    "Sedaman.Props.C65_fraction_lost",
    "Sedaman.Props.C65_undefined",
    "Sedaman.Props.C65_sets_partial"
   ],
   "note": "Proved: the block is 96 bytes and the reader returns all members except those listed in chSetStoredR3; a whole list of headers is read from the file in order (C65_sets_partial). Missing: channel set number (start time is stored instead), alias filter slope and low cut filter frequency (exchanged), filter delays above 255, header extension flags above 7 (C65_members_wrong), fractions of the descale multiplier (C65_fraction_lost); negative multipliers and missing sample numbers are undefined behaviour (C65_undefined)."
  },
  {
   "property": "C66",
   "status": "proved",
   "theorems": [
    "Sedaman.Props.C66_value_semantics"
   ],
   "note": "Refinement of a heap model with explicit freed cells to plain values, for every history; a moved-from object has arbitrary contents until it is assigned. Allocation never fails in the model."
  },
  {
   "property": "C67",
   "status": "partial",
   "theorems": [
    "Sedaman.Props.C67_attribute_partial",
    "Sedaman.Props.C67_history_partial",
    "Sedaman.Props.C67_misbound",
    "Sedaman.Props.C67_wrong_member",
    "Sedaman.Props.C67_not_exposed",
    "Sedaman.Props.C67_text_lengths",
    "Sedaman.Props.C67_text",
    "Sedaman.Props.C67_text_padded",
    "Sedaman.Props.C67_methods_partial",
    "Sedaman.Props.C67_wrong_methods",
    "Sedaman.Props.C67_value_types"
   ],
   "note": "Proved for every class but GeneralHeaderEle and GeneralHeaderSCa, five of whose attributes are bound to another member (C67_misbound). Six members have no attribute (C67_not_exposed), two methods of ISEGD call another function (C67_wrong_methods), two value types are missing (C67_value_types). Shorter texts come back padded with NULs, longer ones cut (C67_text_padded)."
  },
  {
   "property": "C68",
   "status": "partial",
   "theorems": [
    "Sedaman.Props.C68_hexadecimal_partial",
    "Sedaman.Props.C68_small_undefined",
    "Sedaman.Props.C68_8024_no_fraction",
    "Sedaman.Props.C68_8022_no_fraction",
    "Sedaman.Props.C68_8048_no_bias",
    "Sedaman.Props.C68_one_byte",
    "Sedaman.Props.C68_8015_short",
    "Sedaman.Props.C68_8015_overflow",
    "Sedaman.Props.C68_8015_no_fraction",
    "Sedaman.Props.C68_8015_sign_bit"
   ],
   "note": "Proved for format 8044: every trace whose samples have magnitudes strictly between 1/256 and 4096 is written with one word per sample and an error below one fraction unit (C68_hexadecimal_partial). Missing: in every packed format zero and samples below the exponent range make the conversion undefined (C68_small_undefined). 8024, 8022 and 8015 lose the fraction (C68_8024_no_fraction, C68_8022_no_fraction, C68_8015_no_fraction; the latter also writes the sign of every fourth sample for all four). 8048 omits the exponent bias (C68_8048_no_bias). 8022 and 8042 write every sample to the first byte of the trace (C68_one_byte). 8015 holds samples back for the next trace and then overruns its buffer (C68_8015_short, C68_8015_overflow). Samples of 1 and above reach into the sign bit in 8015 (C68_8015_sign_bit)."
  },
  {
   "property": "C69",
   "status": "partial",
   "theorems": [
    "Sedaman.Props.C69_open_partial",
    "Sedaman.Props.C69_read_partial",
    "Sedaman.Props.C69_loops_end",
    "Sedaman.Props.C69_trace_size_undefined",
    "Sedaman.Props.C69_trailer_undefined",
    "Sedaman.Props.C69_header_count_undefined"
   ],
   "note": "C69_open_partial and C69_read_partial: defined for every file, map inside its blocks and history, provided samples*size and trailer stanzas*3200 fit an int and the number of additional headers is not 2^31-1. C69_trace_size_undefined, C69_trailer_undefined and C69_header_count_undefined show that each condition is needed. C69_loops_end has no conditions."
  },
  {
   "property": "C70",
   "status": "partial",
   "theorems": [
    "Sedaman.Props.C70_open_partial",
    "Sedaman.Props.C70_read_partial",
    "Sedaman.Props.C70_reads_bounded",
    "Sedaman.Props.C70_sensor_undefined",
    "Sedaman.Props.C70_scan_type_undefined",
    "Sedaman.Props.C70_channel_set_undefined",
    "Sedaman.Props.C70_packed_undefined",
    "Sedaman.Props.C70_extension_undefined",
    "Sedaman.Props.C70_five_u64_undefined",
    "Sedaman.Props.C70_sample_bits_undefined"
   ],
   "note": "Opening is defined for every file without a revision 3 sensor block (type 0x41), and reading a trace for every reader state and every file content when the extension map stays inside its blocks, the format is a plain one, the sample bits fit 32 bits and the trace names a channel set the record has. A loop reads at most one trace per 20 bytes. Outside these conditions the property is false: C70_*_undefined give the undefined behaviour, for scan type and channel set numbers as families."
  },
  {
   "property": "C71",
   "status": "partial",
   "theorems": [
    "Sedaman.Props.C71_accepted_partial",
    "Sedaman.Props.C71_accepts_partial",
    "Sedaman.Props.C71_inconsistent_throws",
    "Sedaman.Props.C71_missing_blocks_undefined",
    "Sedaman.Props.C71_surplus_dropped"
   ],
   "note": "C71_accepted_partial and C71_accepts_partial characterise when the constructor returns; C71_inconsistent_throws: a channel set table of another shape is rejected. The property fails for header blocks: C71_missing_blocks_undefined (too few or too short: read past the end) and C71_surplus_dropped (too many: accepted and left out), both for all such arguments. Assumes scan_types_per_record is an int and the vector has fewer than 2^63 elements."
  },
  {
   "property": "C72",
   "status": "proved",
   "theorems": [
    "Sedaman.Props.C72_header_size",
    "Sedaman.Props.C72_trace_size",
    "Sedaman.Props.C72_file_size"
   ],
   "note": "C72_header_size, C72_trace_size and C72_file_size, for every host environment, argument set, trace and sample format; no conditions besides the calls having returned."
  },
  {
   "property": "C73",
   "status": "partial",
   "theorems": [
    "Sedaman.Props.C73_same_outcomes",
    "Sedaman.Props.C73_refused_traces_leave_nothing_partial",
    "Sedaman.Props.C73_negative_count_leaves_header",
    "Sedaman.Props.C73_additional_leaves_header"
   ],
   "note": "False for a negative SAMP_NUM in files of variable length traces and for floating point values in additional header blocks: the trace is refused after its first header block was written. Proved for all other traces."
  },
  {
   "property": "C74",
   "status": "partial",
   "theorems": [
    "Sedaman.Props.C74_same_until_failure",
    "Sedaman.Props.C74_stream_failure_is_final",
    "Sedaman.Props.C74_nothing_after_failure_partial",
    "Sedaman.Props.C74_bad_count_continues_in_samples",
    "Sedaman.Props.C74_false_trace"
   ],
   "note": "Proved for every fixed length file and, in any file, for every failure of the stream: all later calls throw. False for variable length files: a negative number of samples throws length_error with the stream left behind the header blocks, and the next read_trace returns a trace made of sample bytes (C74_bad_count_continues_in_samples, C74_false_trace)."
  },
  {
   "property": "C75",
   "status": "partial",
   "theorems": [
    "Sedaman.Props.C75_same_until_failure",
    "Sedaman.Props.C75_stream_failure_is_final",
    "Sedaman.Props.C75_nothing_after_failure_partial",
    "Sedaman.Props.C75_false_trace",
    "Sedaman.Props.C75_unguarded_undefined",
    "Sedaman.Props.C75_never_ends"
   ],
   "note": "Proved for programs that ask has_trace and extension maps that store the counts as integers: after the first failure only exceptions follow (C75_nothing_after_failure_partial), and for every program a failure of the stream is final. False otherwise: a map with a floating SAMP_NUM, SCAN_TYPE_NUM or CH_SET_NUM throws bad_variant_access with the stream inside the trace, and the next call returns samples as a trace (C75_false_trace); a call without asking has_trace after an unsupported format is undefined (C75_unguarded_undefined). has_trace may stay true for ever after a failure (C75_never_ends)."
  },
  {
   "property": "C76",
   "status": "partial",
   "theorems": [
    "Sedaman.Props.C76_depends_on_bytes_read_partial",
    "Sedaman.Props.C76_trailing_bytes",
    "Sedaman.Props.C76_lost_trace"
   ],
   "note": "Proved for every trace but the last of the last record: any file with the same bytes up to the reader's position gives the same traces. False for the last trace of a record when 1 to 31 bytes follow it: read_trace reads the next record's headers before it returns, throws and loses the trace (C76_trailing_bytes, a family; C76_lost_trace, a file)."
  },
  {
   "property": "C77",
   "status": "partial",
   "theorems": [
    "Sedaman.Props.C77_segy",
    "Sedaman.Props.C77_sorted",
    "Sedaman.Props.C77_segy_file",
    "Sedaman.Props.C77_segd_partial",
    "Sedaman.Props.C77_segd_file",
    "Sedaman.Props.C77_incomplete_unnoticed",
    "Sedaman.Props.C77_empty_record_undefined",
    "Sedaman.Props.C77_beyond_end_throws"
   ],
   "note": "Proved in full for ISEGY and ISEGYSorted1D, and for SEG-D files that OSEGD wrote. False in general for ISEGD, whose __next__ asks has_record: for a file that ends behind a trace of an incomplete record the Python loop ends silently although has_trace is true and read_trace throws (C77_incomplete_unnoticed); a record without traces leads to undefined behaviour or an exception (C77_empty_record_undefined, C77_beyond_end_throws). C77_segd_partial proves the equivalence for all other files."
  },
  {
   "property": "C78",
   "status": "proved",
   "theorems": [
    "Sedaman.Props.C78_refused_calls_vanish",
    "Sedaman.Props.C78_in_order",
    "Sedaman.Props.C78_stays",
    "Sedaman.Props.C78_endless",
    "Sedaman.Props.C78_no_io_error",
    "Sedaman.Props.C78_length_error"
   ],
   "note": "The model says nothing about calls after undefined behaviour (looking up NaN, reading behind the last trace). C78_endless: after one exception a loop over has_trace that catches and calls read_trace again never ends, because a failed call does not move the iterators."
  },
  {
   "property": "C79",
   "status": "partial",
   "theorems": [
    "Sedaman.Props.C79_kept_partial",
    "Sedaman.Props.C79_lost",
    "Sedaman.Props.C79_table",
    "Sedaman.Props.C79_negative_undefined",
    "Sedaman.Props.C79_long_wraps",
    "Sedaman.Props.C79_ibm_single",
    "Sedaman.Props.C79_traces",
    "Sedaman.Props.C79_rewritten"
   ],
   "note": "C79_table decides all 169 pairs of formats. The property as stated fails where the table has no entry although the numbers could be represented: negative integers cannot be written in any integer format (C79_negative_undefined, conversion to an unsigned parameter), zero cannot be written in format 1 (C79_lost), 64 bit integers pass through a double (C79_long_wraps). For the pairs of the table it is proved for single samples (C79_kept_partial), all traces of all files (C79_traces) and whole rewritten files (C79_rewritten). NaN payloads are not modelled."
  },
  {
   "property": "C80",
   "status": "partial",
   "theorems": [
    "Sedaman.Props.C80_header_values",
    "Sedaman.Props.C80_trace_header_values",
    "Sedaman.Props.C80_value_unique",
    "Sedaman.Props.C80_any_map",
    "Sedaman.Props.C80_read_binary_header",
    "Sedaman.Props.C80_samples_partial",
    "Sedaman.Props.C80_iteration_partial",
    "Sedaman.Props.C80_without_samp_num"
   ],
   "note": "Header values, opening and read_binary_header are proved for all maps. Samples and iteration need that all traces have the same length or that both maps have SAMP_NUM in the same field: where traces may differ in length, a map without SAMP_NUM gives no samples and takes the samples of one trace for the header of the next (C80_without_samp_num)."
  },
  {
   "property": "C81",
   "status": "partial",
   "theorems": [
    "Sedaman.Props.C81_same_start_partial",
    "Sedaman.Props.C81_complete_traces_partial",
    "Sedaman.Props.C81_incomplete_trace_partial",
    "Sedaman.Props.C81_header_of_incomplete_trace",
    "Sedaman.Props.C81_cut_trailer"
   ],
   "note": "Proved for files without trailer stanzas and for read_trace. With an end stanza a cut file cannot be opened at all (C81_cut_trailer). read_header returns the header of an incomplete trace, after which has_trace stays true for ever (C81_header_of_incomplete_trace)."
  },
  {
   "property": "C82",
   "status": "partial",
   "theorems": [
    "Sedaman.Props.C82_copy_rev1_partial",
    "Sedaman.Props.C82_copy_rev2_partial",
    "Sedaman.Props.C82_copy_stanzas_partial",
    "Sedaman.Props.C82_additional_headers_fail",
    "Sedaman.Props.C82_counted_stanzas_fail",
    "Sedaman.Props.C82_fixed_stanzas_fail",
    "Sedaman.Props.C82_gap_fails"
   ],
   "note": "Three theorems: revision 1 (all of it), revision 2 without stanzas, revision 2 with stanzas delimited by the end stanza after traces of variable length. The property is false for additional trace headers, counted stanzas, stanzas after fixed length traces and a gap in front of the first trace (counterexample theorems); samples and header fields as in C55."
  },
  {
   "property": "C83",
   "status": "partial",
   "theorems": [
    "Sedaman.Props.C83_sort_rev0_partial",
    "Sedaman.Props.C83_sort_rev1_partial",
    "Sedaman.Props.C83_sort_rev2_partial"
   ],
   "note": "Proved for revision 0 files (as in C55), for revision 1 files and for revision 2 files without stanzas, additional trace headers and gap (C82 says why these fail), integer header fields, samples that are rewritten (C55), at least one trace (C41_empty_undefined)."
  },
  {
   "property": "C84",
   "status": "partial",
   "theorems": [
    "Sedaman.Props.C84_copy_maps_partial",
    "Sedaman.Props.C84_copy_standard_partial",
    "Sedaman.Props.C84_unused_bytes_lost",
    "Sedaman.Props.C84_trailer_fails"
   ],
   "note": "Proved for the files of C59, with extension maps and with the standard extension block. False for files with bytes the library does not know and with a general trailer (C84_unused_bytes_lost, C84_trailer_fails)."
  },
  {
   "property": "C85",
   "status": "partial",
   "theorems": [
    "Sedaman.Props.C85_read_single_partial",
    "Sedaman.Props.C85_read_double_partial",
    "Sedaman.Props.C85_zero_misread",
    "Sedaman.Props.C85_infinity_misread",
    "Sedaman.Props.C85_write_single_wrong",
    "Sedaman.Props.C85_write_double_wrong",
    "Sedaman.Props.C85_write_zero_undefined"
   ],
   "note": "Reading is right exactly for numbers of the normal range (C85_zero_misread, C85_infinity_misread). Writing is wrong for every number of the normal range (C85_write_single_wrong, C85_write_double_wrong) and undefined for zero. The double of such a host is taken for exact."
  },
  {
   "property": "C86",
   "status": "partial",
   "theorems": [
    "Sedaman.Props.C86_finished_rev0",
    "Sedaman.Props.C86_finished_rev1",
    "Sedaman.Props.C86_finished_rev2",
    "Sedaman.Props.C86_rev0_partial",
    "Sedaman.Props.C86_rev1_partial",
    "Sedaman.Props.C86_rev2_partial",
    "Sedaman.Props.C86_automatic_partial",
    "Sedaman.Props.C86_stanzas_lost"
   ],
   "note": "Proved for every k, every list of traces and all revisions without trailer stanzas, under the conditions under which traces come back at all (those of C20, C21, C22, C28). C86_stanzas_lost proves the opposite for files with trailer stanzas: before the very last byte is on disk the file cannot be opened and all traces are lost. C86_finished_* tie the list of writes to the writer model for any history of successful calls."
  },
  {
   "property": "C87",
   "status": "partial",
   "theorems": [
    "Sedaman.Props.C87_maps_partial",
    "Sedaman.Props.C87_standard_partial",
    "Sedaman.Props.C87_skew_missing",
    "Sedaman.Props.C87_refused_maps_partial",
    "Sedaman.Props.C87_refused_standard_partial"
   ],
   "note": "Proved for every number of bytes on disk, for the files of C59 (extension maps, and the standard extension block), also for programs that go on after refused traces (values of the wrong kind, surplus traces). Missing: what C59 leaves out, and traces that are refused after their header was written, where the property is false (C62_later_traces_lost). One clause is false of the code: a file whose last header blocks are skew blocks opens although they are missing, because the reader only seeks over them (C87_skew_missing)."
  },
  {
   "property": "C88",
   "status": "partial",
   "theorems": [
    "Sedaman.Props.C88_joined_partial",
    "Sedaman.Props.C88_maps_partial",
    "Sedaman.Props.C88_standard_partial",
    "Sedaman.Props.C88_empty_record",
    "Sedaman.Props.C88_stale_revision"
   ],
   "note": "Proved for every list of files each of whose records has general header 2, a scan type, no skew escape before revision 3, and at least one trace; and for the files of C59 joined. False: a record without traces hides the records behind it (C88_empty_record); a record without general header 2 takes counts from an earlier record (C88_stale_revision). What C59 leaves out is missing for written files."
  },
  {
   "property": "C89",
   "status": "partial",
   "theorems": [
    "Sedaman.Props.C89_big_to_little_partial",
    "Sedaman.Props.C89_little_to_big_partial",
    "Sedaman.Props.C89_trailers",
    "Sedaman.Props.C89_stanzas_to_little_partial",
    "Sedaman.Props.C89_stanzas_to_big_partial"
   ],
   "note": "Proved for all files without trailer stanzas whose headers lie in front of the first trace and that consist of whole traces (C89_big_to_little_partial, C89_little_to_big_partial), and for files with stanzas up to an end stanza behind traces of variable length that say at the places of the standard how long they are, with or without additional trace headers (C89_stanzas_to_little_partial, C89_stanzas_to_big_partial), in both directions. False with trailer stanzas behind traces of fixed length: they are looked for among the samples, whose bytes differ (C89_trailers). Files with a positive number of stanzas cannot be opened in either order (C23_counted_never_opens)."
  },
  {
   "property": "C90",
   "status": "partial",
   "theorems": [
    "Sedaman.Props.C90_little",
    "Sedaman.Props.C90_segy_reads_partial",
    "Sedaman.Props.C90_segy_samples_partial",
    "Sedaman.Props.C90_segy_sample_writers_partial",
    "Sedaman.Props.C90_segy_exchange_partial",
    "Sedaman.Props.C90_same_host",
    "Sedaman.Props.C90_segy_three_bytes_fail",
    "Sedaman.Props.C90_segy_three_bytes_written",
    "Sedaman.Props.C90_segy_no_marker_fails",
    "Sedaman.Props.C90_segy_other_marker_fails",
    "Sedaman.Props.C90_segd_reads_partial",
    "Sedaman.Props.C90_segd_writes_partial",
    "Sedaman.Props.C90_segd_fails",
    "Sedaman.Props.C90_segd_little_partial",
    "Sedaman.Props.C90_segd_little_writes_partial",
    "Sedaman.Props.C90_segd_little_is_model",
    "Sedaman.Props.C90_segd_9036_fails",
    "Sedaman.Props.C90_segd_9038_fails"
   ],
   "note": "Proved for every host order, file order and value: integers of 1, 2, 4 and 8 bytes and all SEG-Y sample formats except 7 and 15, SEG-D reading and writing, formats 9038/9058/9080; same-host round trips also for three bytes. The property is false on a big-endian host for integers of three bytes (C90_segy_three_bytes_fail, C90_segy_three_bytes_written, C90_segd_fails), files without marker (C90_segy_no_marker_fails), the marker 0x04030201 (C90_segy_other_marker_fails), SEG-D signed four-byte integers, which throw (C90_segd_fails, C90_segd_9038_fails), and format 9036 (C90_segd_9036_fails)."
  },
  {
   "property": "C91",
   "status": "partial",
   "theorems": [
    "Sedaman.Props.C91_x86",
    "Sedaman.Props.C91_arm",
    "Sedaman.Props.C91_truncates",
    "Sedaman.Props.C91_integer_samples",
    "Sedaman.Props.C91_negative_to_zero",
    "Sedaman.Props.C91_ibm_zero",
    "Sedaman.Props.C91_ibm_infinity",
    "Sedaman.Props.C91_rewrites",
    "Sedaman.Props.C91_rewrites_zero",
    "Sedaman.Props.C91_other_zeros",
    "Sedaman.Props.C91_copy_partial",
    "Sedaman.Props.C91_kept",
    "Sedaman.Props.C91_roundtrip_partial"
   ],
   "note": "Proved: where the computer wraps negative numbers (shown for x86-64 as compiled by GCC) every sample with integer part in the range of an integer format comes back truncated, every integer unchanged (C91_truncates, C91_integer_samples); signed formats of at most four bytes are rewritten byte for byte and kept by wider ones (C91_rewrites, C91_kept); copying of fixed length revision 0 integer files needs no condition on samples (C91_copy_partial), reading back gives the written samples (C91_roundtrip_partial); a zero in IBM format is stored as four zero bytes and comes back as 0 on both computers (C91_ibm_zero, C91_rewrites_zero). The property fails on ARM64, where negative samples silently become 0 in every integer format (C91_arm, C91_negative_to_zero). Infinity in IBM format is written as 0 on x86-64 and as the largest number on ARM64 (C91_ibm_infinity); zero words with exponent or sign bits are rewritten as plus zero (C91_other_zeros). The descriptions of the two computers are assumptions; that GCC generates this code is part of the trusted base."
  },
  {
   "property": "C92",
   "status": "partial",
   "theorems": [
    "Sedaman.Props.C92_stable_accurate",
    "Sedaman.Props.C92_stable_double",
    "Sedaman.Props.C92_stable_single",
    "Sedaman.Props.C92_stable_integer",
    "Sedaman.Props.C92_stable_ibm",
    "Sedaman.Props.C92_stable_ibm_zero",
    "Sedaman.Props.C92_rev0_partial",
    "Sedaman.Props.C92_rev1_partial",
    "Sedaman.Props.C92_rev2_partial",
    "Sedaman.Props.C92_float_field_fails",
    "Sedaman.Props.C92_low_revision_fails",
    "Sedaman.Props.C92_inexact_log_fails"
   ],
   "note": "Proved for the files of the conditions of C20, C21 and C22 (endianness marker 0 or 0x01020304, integer header fields, no trailer stanzas or additional headers), in each of the three revisions, and for samples that are stable: all of formats 5 and 6, in the integer formats those whose integer part is in the range of the format (negative ones where the computer wraps), and IBM values in range when the logarithm is exact. False otherwise: a header field declared as floating point, revision 2 fields in a header of a lower revision, and a rounded logarithm each give a second copy that differs (proved)."
  },
  {
   "property": "C93",
   "status": "partial",
   "theorems": [
    "Sedaman.Props.C93_disk",
    "Sedaman.Props.C93_which_call",
    "Sedaman.Props.C93_no_error",
    "Sedaman.Props.C93_lost_partial",
    "Sedaman.Props.C93_silent_loss",
    "Sedaman.Props.C93_destructor",
    "Sedaman.Props.C93_stanza_loss",
    "Sedaman.Props.C93_rev0_partial",
    "Sedaman.Props.C93_rev1_partial",
    "Sedaman.Props.C93_rev2_partial",
    "Sedaman.Props.C93_segd_maps_partial",
    "Sedaman.Props.C93_segd_standard_partial",
    "Sedaman.Props.C93_nothing_stored"
   ],
   "note": "Proved for every program, buffer limit, schedule and number of accepted bytes: the file holds exactly the bytes the device accepted and gives the traces completed by them (under the conditions of C86 and C87), a call throws once more bytes are missing than the stream keeps back, and nothing throws when all bytes are accepted. False of the code: nothing is flushed before the destructor, so up to a buffer of bytes, and so a whole small file, is lost without an exception (C93_silent_loss, C93_nothing_stored); the destructor of OSEGYRev2 calls seekg, whose exception terminates the program (C93_destructor); trailer stanzas can be lost silently (C93_stanza_loss)."
  },
  {
   "property": "C94",
   "status": "partial",
   "theorems": [
    "Sedaman.Props.C94_str_back",
    "Sedaman.Props.C94_str_when",
    "Sedaman.Props.C94_text_headers",
    "Sedaman.Props.C94_str_header_partial",
    "Sedaman.Props.C94_str_refused",
    "Sedaman.Props.C94_stanzas_partial",
    "Sedaman.Props.C94_stanzas_when",
    "Sedaman.Props.C94_ebcdic_stanzas",
    "Sedaman.Props.C94_values_partial",
    "Sedaman.Props.C94_values_accepted",
    "Sedaman.Props.C94_large_int"
   ],
   "note": "Proved: text headers read in Python are stored by a writer as the same bytes; a str comes back as it was, exactly when it has no surrogates; 64-bit integers and all floats come back equal and of the same kind. False of the code: trailer stanzas that are not UTF-8 (EBCDIC) raise UnicodeDecodeError (C94_ebcdic_stanzas), a str of 3200 characters with one that is not ASCII is refused (C94_str_refused), integers beyond 64 bits become floats (C94_large_int). The conversions of pybind11 are assumptions."
  },
  {
   "property": "C95",
   "status": "partial",
   "theorems": [
    "Sedaman.Props.C95_texts",
    "Sedaman.Props.C95_small_partial",
    "Sedaman.Props.C95_fixed_partial",
    "Sedaman.Props.C95_returned",
    "Sedaman.Props.C95_open_large",
    "Sedaman.Props.C95_trace_large",
    "Sedaman.Props.C95_segd_held",
    "Sedaman.Props.C95_segd_trace_partial",
    "Sedaman.Props.C95_segd_large",
    "Sedaman.Props.C95_segd_file_large"
   ],
   "note": "Proved: the texts, stanzas and SEG-D header blocks an open reader keeps are at most twice the file (C95_texts, C95_segd_held); when read_trace returns a trace, reader and trace together take at most eleven times the file (C95_returned); without 32-bit counts the reader never takes more than half a megabyte besides, even after calls that throw (C95_small_partial); less than 2 GB for traces of fixed length (C95_fixed_partial); a SEG-D trace has no more samples than the file has bytes (C95_segd_trace_partial). False of the code: a file of 3600 bytes makes the constructor take 2 GB (C95_open_large), one of 4080 bytes makes read_trace take 16 GB before it throws (C95_trace_large and its example), and in formats 8022 and 8042 a file of 376 bytes gives a trace of 2^29 + 1 samples (C95_segd_file_large). Only sizes are counted; memory is taken to be unlimited (bad_alloc is not modelled)."
  },
  {
   "property": "C96",
   "status": "partial",
   "theorems": [
    "Sedaman.Props.C96_maps_partial",
    "Sedaman.Props.C96_standard_partial",
    "Sedaman.Props.C96_overflow",
    "Sedaman.Props.C96_underflow",
    "Sedaman.Props.C96_negative_integer"
   ],
   "note": "Proved for whole files (any number of traces, extension maps or the standard extension block): headers come back, and every sample in the range of the format comes back unchanged (8080, 9080), within a relative error of 2^-24 (8058, 9058) or as the truncated quotient times the descale factor (8036, 8038, 9038). Missing because it is false of the code: samples outside the range (infinity, zero), negative samples in 8036 and 8038 (undefined conversion), 9036 and the packed formats (C50), and the files C59 excludes."
  },
  {
   "property": "C97",
   "status": "partial",
   "theorems": [
    "Sedaman.Props.C97_rev0_partial",
    "Sedaman.Props.C97_rev1_partial",
    "Sedaman.Props.C97_rev2_partial",
    "Sedaman.Props.C97_counts",
    "Sedaman.Props.C97_numbers_kept",
    "Sedaman.Props.C97_count_wraps",
    "Sedaman.Props.C97_coordinates_refused",
    "Sedaman.Props.C97_fractions_refused",
    "Sedaman.Props.C97_automatic_refused",
    "Sedaman.Props.C97_no_count_refused"
   ],
   "note": "Proved for revisions 0, 1 and 2 with explicit headers, header maps of integer fields whose names are not those of SEG-D values with a binary point, sample formats 5 and 6 (6 exact), and known trace lengths; file and channel numbers are kept by the default map. False in general: C97_coordinates_refused (Sercel extension maps with the default SEG-Y map), C97_fractions_refused, C97_automatic_refused (writers without explicit headers), C97_no_count_refused, C97_count_wraps."
  },
  {
   "property": "C98",
   "status": "partial",
   "theorems": [
    "Sedaman.Props.C98_no_channel_set",
    "Sedaman.Props.C98_standard_partial",
    "Sedaman.Props.C98_default_map",
    "Sedaman.Props.C98_channel_10000",
    "Sedaman.Props.C98_negative_file_number"
   ],
   "note": "Proved for traces to which the user adds channel set, extension count and number of samples, with file numbers below 2^24, channel numbers below 10000, descale factor one and finite samples that fit the format. False in general: C98_no_channel_set (no SEG-D writer accepts a SEG-Y trace as it is), C98_channel_10000, C98_negative_file_number; the other header values are not kept."
  },
  {
   "property": "C99",
   "status": "partial",
   "theorems": [
    "Sedaman.Props.C99_sample",
    "Sedaman.Props.C99_rev0_partial",
    "Sedaman.Props.C99_automatic_partial",
    "Sedaman.Props.C99_rev1_partial",
    "Sedaman.Props.C99_rev2_partial",
    "Sedaman.Props.C99_word",
    "Sedaman.Props.C99_copy_partial"
   ],
   "note": "Proved, with an accurate logarithm (Spec.AccurateLog) and where minus infinity converts to zero bits (x86-64), for samples that are zero or of a magnitude between 16^-31 and the largest IBM number, under the conditions on headers of C20, C21, C22 and C28; and for copies of files of zeros and normalised words other than powers of 16 below 16^-31. False for the others: C12_power_lost (16^-39 is stored as zero by a correctly rounded logarithm) and C12_largest_undefined (numbers just below 16^63)."
  },
  {
   "property": "C100",
   "status": "partial",
   "theorems": [
    "Sedaman.Props.C100_changes_partial",
    "Sedaman.Props.C100_same_partial",
    "Sedaman.Props.C100_file_partial",
    "Sedaman.Props.C100_automatic_partial",
    "Sedaman.Props.C100_unmapped",
    "Sedaman.Props.C100_stale"
   ],
   "note": "Proved for traces that have as many samples as announced (fixed length: the binary header; variable length: the trace header). False for shorter traces: C100_stale shows that the rest of such a trace is taken from the trace written before it."
  },
  {
   "property": "C101",
   "status": "proved",
   "theorems": [
    "Sedaman.Props.C101_pieces",
    "Sedaman.Props.C101_put_together",
    "Sedaman.Props.C101_join",
    "Sedaman.Props.C101_split",
    "Sedaman.Props.C101_choose",
    "Sedaman.Props.C101_trailers_lost"
   ],
   "note": "The conditions of the statement are needed: C101_trailers_lost shows files with trailer stanzas for which joining fails."
  },
  {
   "property": "C102",
   "status": "partial",
   "theorems": [
    "Sedaman.Props.C102_rev0_partial",
    "Sedaman.Props.C102_rev1_partial",
    "Sedaman.Props.C102_rev2_partial",
    "Sedaman.Props.C102_lengths",
    "Sedaman.Props.C102_one_length",
    "Sedaman.Props.C102_float_refused"
   ],
   "note": "Proved for header maps of integers, where one header block is used, sample formats of the table of C79, and new binary headers as in C20, C21 and C22. False with floating point fields in the map: C102_float_refused shows that every writer refuses each trace of such a file."
  },
  {
   "property": "C103",
   "status": "partial",
   "theorems": [
    "Sedaman.Props.C103_call_partial",
    "Sedaman.Props.C103_file_partial",
    "Sedaman.Props.C103_changes_partial",
    "Sedaman.Props.C103_unmapped",
    "Sedaman.Props.C103_held_back",
    "Sedaman.Props.C103_first_byte"
   ],
   "note": "Bytes and outcome as functions of the trace for every format but 8015 (C103_call_partial, C103_file_partial), places of differences for every format but 8015, 8022 and 8042 and traces with equal numbers of extension blocks (C103_changes_partial), names without effect for all formats (C103_unmapped). False for 8015, which writes samples of earlier traces (C103_held_back), and for 8022 and 8042, where the last sample is stored in the place of the first (C103_first_byte)."
  },
  {
   "property": "C104",
   "status": "partial",
   "theorems": [
    "Sedaman.Props.C104_alone_partial",
    "Sedaman.Props.C104_order_partial",
    "Sedaman.Props.C104_shared"
   ],
   "note": "Proved for all programs in which at most one writer of SEG-D files in format 8015 is used, and for all other objects without this condition (C104_alone_partial, C104_order_partial). False for two writers in format 8015, which share a static array (C104_shared)."
  },
  {
   "property": "C105",
   "status": "partial",
   "theorems": [
    "Sedaman.Props.C105_cut_partial",
    "Sedaman.Props.C105_choose_partial",
    "Sedaman.Props.C105_stale"
   ],
   "note": "Proved for all files in which every record has general header 2 (before revision 3 also no escape value for skew blocks), a scan type and traces: C105_cut_partial, C105_choose_partial. False for other records, which use what the header before them left in the reader (C105_stale); a record without traces hides those behind it (C88_empty_record)."
  },
  {
   "property": "C106",
   "status": "partial",
   "theorems": [
    "Sedaman.Props.C106_order_partial",
    "Sedaman.Props.C106_integer_partial",
    "Sedaman.Props.C106_long_reversed",
    "Sedaman.Props.C106_ibm_partial",
    "Sedaman.Props.C106_ibm_log_partial",
    "Sedaman.Props.C106_ibm_reversed",
    "Sedaman.Props.C106_opposite_partial",
    "Sedaman.Props.C106_opposite_undefined",
    "Sedaman.Props.C106_trace_partial"
   ],
   "note": "Single and double precision: proved for all samples that are numbers. Integer formats: proved for samples whose integer part is not negative and in range; large values wrap (C106_long_reversed) and writing negative samples is undefined behaviour (C106_opposite_undefined). IBM: the order is kept when the exponents are exact, and with an accurate logarithm away from powers of 16; next to one the order of two samples is reversed (C106_ibm_reversed). Sign: proved for all floating point formats."
  },
  {
   "property": "C107",
   "status": "partial",
   "theorems": [
    "Sedaman.Props.C107_headers_partial",
    "Sedaman.Props.C107_traces_partial",
    "Sedaman.Props.C107_length_damaged",
    "Sedaman.Props.C107_end_damaged",
    "Sedaman.Props.C107_format_damaged"
   ],
   "note": "Proved for files without trailer stanzas and with a counted number of texts, when neither the binary header nor the numbers of samples of variable length traces are damaged: the file opens with the same binary header, undamaged texts are the same, as many traces are read at the same places, and in each trace every header value and sample whose bytes are not damaged is the same. False of the code where these bytes are damaged: C107_length_damaged, C107_end_damaged and C107_format_damaged show that one damaged byte there changes undamaged traces or makes the file unreadable."
  },
  {
   "property": "C108",
   "status": "partial",
   "theorems": [
    "Sedaman.Props.C108_traces_partial",
    "Sedaman.Props.C108_set_damaged",
    "Sedaman.Props.C108_count_damaged",
    "Sedaman.Props.C108_held_formats"
   ],
   "note": "Proved for damage outside the record headers and, in traces, outside the channel set numbers, the number of extension blocks and these blocks, in all formats but 8022 and 8042: the file opens, as many traces can be read, each is at its place, and has_trace and has_record answer alike; values of the 20-byte trace header and samples whose bytes are sound are unchanged. Missing, because false of the code or left out: a damaged channel set number makes reading undefined, a damaged number of samples loses the following traces (counterexamples), formats 8022 and 8042 read all samples from the first byte (counterexample), values of a damaged extension block are not tracked one by one."
  },
  {
   "property": "C109",
   "status": "partial",
   "theorems": [
    "Sedaman.Props.C109_order_partial",
    "Sedaman.Props.C109_integer_partial",
    "Sedaman.Props.C109_opposite_partial",
    "Sedaman.Props.C109_i24_reversed",
    "Sedaman.Props.C109_large_reversed",
    "Sedaman.Props.C109_negative_undefined"
   ],
   "note": "Order: proved for formats 8058, 9058, 8080 and 9080 with every positive descale factor and all samples that are numbers, and for formats 8036, 8038 and 9038 when the scaled samples are in range (not negative in the first two). Sign: proved for the four floating point formats. False of the code, with counterexamples: 9036 (1 and -1 come back as 256 and 4294967295), large numbers in 8036 and 8038, negative numbers in 8036 and 8038 (undefined behaviour). Formats 8015, 8024, 8044 and 8048 cannot be read at all and 8022, 8042 hold one sample only (C50)."
  },
  {
   "property": "C110",
   "status": "proved",
   "theorems": [
    "Sedaman.Props.C110_layout",
    "Sedaman.Props.C110_texts",
    "Sedaman.Props.C110_close",
    "Sedaman.Props.C110_positions"
   ],
   "note": "For every accepted history. The number of further header blocks is stated as the code has it (one less than announced), which is the defect recorded under C24."
  },
  {
   "property": "C111",
   "status": "partial",
   "theorems": [
    "Sedaman.Props.C111_rev0_partial",
    "Sedaman.Props.C111_rev1_partial",
    "Sedaman.Props.C111_rev2_partial"
   ],
   "note": "Proved for every non-empty list of header names and the files of C83: revision 0, 1 and 2 files without trailer stanzas and additional trace headers, integer header fields, samples that are rewritten (C55), at least one trace. Missing: the files C83 leaves out, where sorting by one header already fails."
  },
  {
   "property": "C112",
   "status": "partial",
   "theorems": [
    "Sedaman.Props.C112_maps_partial",
    "Sedaman.Props.C112_standard_partial",
    "Sedaman.Props.C112_negative_integer"
   ],
   "note": "C112_maps_partial and C112_standard_partial: for every file written under the conditions of C96 (values fit, samples in the range of the first format) and every other byte format, if the samples read are in the range of the new format the second file has the same headers but for the format, the same trace headers, and samples kept as the new format can. Not covered: formats with packed exponents, samples outside the range, files of other revisions; C112_negative_integer shows that a negative sample rewritten as big endian integer is undefined behaviour."
  },
  {
   "property": "C113",
   "status": "partial",
   "theorems": [
    "Sedaman.Props.C113_rev0_partial",
    "Sedaman.Props.C113_rev1_partial",
    "Sedaman.Props.C113_rev2_partial",
    "Sedaman.Props.C113_filter"
   ],
   "note": "C113_rev0_partial, C113_rev1_partial and C113_rev2_partial: for files that meet the conditions of C55 and C82 (binary headers without stray bytes, maps of integers, samples that are written as they were read, no additional trace headers, no trailer stanzas) and every list of positions. C113_filter: the traces that pass a test are such a choice. Not covered: files that are not copied byte for byte (see the counterexamples of C23, C24, C55 and C82)."
  },
  {
   "property": "C114",
   "status": "partial",
   "theorems": [
    "Sedaman.Props.C114_rev0_partial",
    "Sedaman.Props.C114_rev1_partial",
    "Sedaman.Props.C114_rev2_partial",
    "Sedaman.Props.C114_value_too_large",
    "Sedaman.Props.C114_sample_number_larger",
    "Sedaman.Props.C114_sample_number_smaller"
   ],
   "note": "For values that fit their fields; in revision 1 and 2 files with traces of different lengths the number of samples is not edited; revision 2 without additional trace headers and stanzas; maps with integer fields. C114_value_too_large, C114_sample_number_larger and C114_sample_number_smaller show that the first two conditions are needed: a value that does not fit is stored reduced, a larger number of samples adds samples, a smaller one is undefined behaviour."
  },
  {
   "property": "C115",
   "status": "partial",
   "theorems": [
    "Sedaman.Props.C115_rev3_partial",
    "Sedaman.Props.C115_rev2_partial",
    "Sedaman.Props.C115_rev0_partial"
   ],
   "note": "All three layouts: general header 1 alone, revisions 1 and 2, revision 3. What a block means is the subject of C44 to C47, C60, C63 and C65. Missing: the numbers are those the library decodes from general headers 1 and 2; in revision 3 it takes the extended number of external header blocks from the wrong bytes (C63), so that a record which uses that escape value is not read as the standard says. Additional blocks that can not be decoded (C60_sensor_overread) are excluded."
  },
  {
   "property": "C116",
   "status": "partial",
   "theorems": [
    "Sedaman.Props.C116_rev0_partial",
    "Sedaman.Props.C116_rev1_partial",
    "Sedaman.Props.C116_rev2_partial",
    "Sedaman.Props.C116_fewer_samples",
    "Sedaman.Props.C116_more_samples",
    "Sedaman.Props.C116_sample_too_large"
   ],
   "note": "Proved for files of all three revisions under the conditions of C55 and C82, when every trace gets as many samples as it had. With fewer or more samples the property is false: C116_fewer_samples (a zero nobody wrote comes back), C116_more_samples (undefined behaviour). Samples out of the range of an integer format come back as other numbers: C116_sample_too_large."
  },
  {
   "property": "C117",
   "status": "partial",
   "theorems": [
    "Sedaman.Props.C117_maps_partial",
    "Sedaman.Props.C117_standard_partial",
    "Sedaman.Props.C117_fewer_samples",
    "Sedaman.Props.C117_more_samples"
   ],
   "note": "Proved for files the library wrote under the conditions of C96, with extension maps (C117_maps_partial) and with the standard extension block (C117_standard_partial), for new samples in the range of the format and as many as the trace had. False for other numbers of samples: C117_fewer_samples, C117_more_samples. Formats without whole bytes per sample, negative integers in big endian formats (C112_negative_integer) and revision 3 writing are excluded as in C96."
  },
  {
   "property": "C118",
   "status": "partial",
   "theorems": [
    "Sedaman.Props.C118_rev0_partial",
    "Sedaman.Props.C118_rev1_partial",
    "Sedaman.Props.C118_rev2_partial",
    "Sedaman.Props.C118_sample_number_larger",
    "Sedaman.Props.C118_sample_number_smaller"
   ],
   "note": "Proved for all three revisions under the conditions of C55 and C82 for the old and the new headers; additional trace headers and trailer stanzas are excluded. Without the same number of samples it is false: C118_sample_number_larger, C118_sample_number_smaller."
  },
  {
   "property": "C119",
   "status": "partial",
   "theorems": [
    "Sedaman.Props.C119_rev0_partial",
    "Sedaman.Props.C119_rev1_partial",
    "Sedaman.Props.C119_rev2_partial",
    "Sedaman.Props.C119_different_lengths",
    "Sedaman.Props.C119_length_not_told"
   ],
   "note": "Proved for header blocks of integer fields, zeros outside the fields, samples that survive re-encoding, numbers of samples told by the headers of both files, and no additional trace headers or trailer stanzas. Different numbers of samples in revision 0, and traces that do not tell their length in a file of variable length, break the property: C119_different_lengths, C119_length_not_told."
  },
  {
   "property": "C120",
   "status": "partial",
   "theorems": [
    "Sedaman.Props.C120_rev0_partial",
    "Sedaman.Props.C120_rev1_partial",
    "Sedaman.Props.C120_rev2_partial",
    "Sedaman.Props.C120_small_format"
   ],
   "note": "Proved for maps of one block of integer fields, sample formats that keep all values of the old formats (keptBy), numbers of samples told by the new headers, and new files without additional trace headers or trailer stanzas. A format that is too small makes the program undefined: C120_small_format."
  },
  {
   "property": "C121",
   "status": "partial",
   "theorems": [
    "Sedaman.Props.C121_rev0_partial",
    "Sedaman.Props.C121_rev1_partial",
    "Sedaman.Props.C121_rev2_partial"
   ],
   "note": "Proved for explicit headers, maps of one block of integer fields whose names are those of integers in the SEG-D files, numbers of samples told by the new headers, and new files without additional trace headers or trailer stanzas. Traces of SEG-D files with coordinates are refused by maps that have fields for them: C97_coordinates_refused."
  },
  {
   "property": "C122",
   "status": "partial",
   "theorems": [
    "Sedaman.Props.C122_partial",
    "Sedaman.Props.C122_one_result",
    "Sedaman.Props.C122_interrupted",
    "Sedaman.Props.C122_narrow"
   ],
   "note": "Proved for maps of one block of integer fields, formats in the table keptBy, files that tell the lengths of all traces, and files without additional trace headers or trailer stanzas. A format that does not keep the values changes them for good: C122_narrow. Maps with floating point fields are refused: C102_float_refused. C122_one_result and C122_interrupted hold for every chain, but say only that each step is a function of what it is given and of nothing else; they do not constrain what a step does."
  }
 ]
}