{"id": "C01", "title": "BCD encode/decode round-trip", "statement": "Writing a non-negative number that has at most `num` decimal digits with to_bcd and reading it back with from_bcd using the same nibble count and skip flag returns the same number, and both calls move the buffer cursor by the same amount, (num + skip)/2 bytes.", "quantifier": "every digit count num >= 1, both skip flags, every value 0 <= v < 10^num that fits the integer type, every operand width, every prior buffer content whose skipped nibble is arbitrary", "why_tests_cant": "10^12 values per width and every buffer content; the double-dabble loop has a carry chain whose failures depend on digit patterns", "anchors": ["include/util.hpp:from_bcd", "include/util.hpp:to_bcd"]}
{"id": "C02", "title": "to_bcd writes exactly the low decimal digits and touches nothing else", "statement": "to_bcd(v, skip, num) stores the num low decimal digits of v (v mod 10^num), most significant first; with skip the high nibble of the first byte is kept (OR-ed into a zero low nibble), and every byte past the written nibbles is unchanged.", "quantifier": "every v of every unsigned width, every num >= 1, both skip flags, every buffer", "why_tests_cant": "the claim is about all values including those with more digits than num, and about all bytes not written", "anchors": ["include/util.hpp:to_bcd"]}
{"id": "C03", "title": "from_bcd value law", "statement": "from_bcd reads num nibbles starting at the high (or, with skip, low) nibble and returns their base-10 positional value; a nibble A..F is not rejected but counts 10..15; decimal nibbles are reproduced by to_bcd.", "quantifier": "every byte string, num >= 1 and skip flag", "why_tests_cant": "all byte strings of all lengths", "anchors": ["include/util.hpp:from_bcd"]}
{"id": "C04", "title": "Raw integer write/read round-trip", "statement": "For every width (8, 16, 24, 32, 64 bits), signed or unsigned, and every supported byte-order marker, the value stored by the SEG-Y writer is returned unchanged by the SEG-Y reader configured with the same marker; 24-bit signed values are sign-extended.", "quantifier": "all values in range of each width, both byte orders", "why_tests_cant": "2^64 values per width", "anchors": ["src/ISEGY.cpp:assign_raw_readers", "src/OSEGY.cpp:assign_raw_writers", "include/util.hpp:swap", "include/util.hpp:read", "include/util.hpp:write"]}
{"id": "C05", "title": "Byte order marker semantics", "statement": "Marker 0x01020304 means little-endian bytes on disk, 0 and 0x04030201 mean big-endian bytes on disk, for reader and writer alike; every other marker makes both reader and writer construction throw 'unsupported endianness'.", "quantifier": "all 2^32 marker values, all integer widths and values", "why_tests_cant": "2^32 markers times all values", "anchors": ["src/ISEGY.cpp:assign_raw_readers", "src/OSEGY.cpp:assign_raw_writers"]}
{"id": "C06", "title": "EBCDIC/ASCII conversion is lossless", "statement": "ascii_to_ebcdic followed by ebcdic_to_ascii (and the other way round) gives back the original string, for every string; lengths are preserved and distinct strings stay distinct.", "quantifier": "every byte string of every length", "why_tests_cant": "unbounded string lengths; tables must be mutually inverse on all 256 bytes", "anchors": ["src/CommonSEGY.cpp:e2a", "src/CommonSEGY.cpp:a2e", "src/CommonSEGY.cpp:ebcdic_to_ascii", "src/CommonSEGY.cpp:ascii_to_ebcdic"]}
{"id": "C07", "title": "Binary header round-trip", "statement": "A binary header written by a SEG-Y writer and read back by ISEGY comes back field for field (fields that only exist from revision 2 on are returned as written when the major revision is above 1 and as zero otherwise).", "quantifier": "every binary header value with any supported byte-order marker", "why_tests_cant": "44 fields with a joint space of 2^2400 values", "anchors": ["src/OSEGY.cpp:write_bin_header", "src/ISEGY.cpp:fill_bin_header"]}
{"id": "C08", "title": "Binary header disk layout follows the SEG-Y standard", "statement": "The binary header occupies exactly bytes 3201-3600 of the file; each field is found at the byte position the SEG-Y rev2 standard gives it, in the selected byte order, and all unassigned bytes are zero.", "quantifier": "every header value, both byte orders, every field", "why_tests_cant": "positions must be right for all values; a swapped pair of adjacent fields passes symmetric round-trip tests", "anchors": ["src/OSEGY.cpp:write_bin_header"]}
{"id": "C09", "title": "Sample format table is consistent", "statement": "For every format code, reader and writer either both accept it or both throw 'unsupported format'; for accepted codes the size used to compute buffer and skip lengths equals the number of bytes one sample occupies when written and when read.", "quantifier": "all 2^16 format codes, all samples", "why_tests_cant": "65536 codes times all samples", "anchors": ["src/ISEGY.cpp:assign_sample_reader", "src/ISEGY.cpp:assign_bytes_per_sample", "src/OSEGY.cpp:assign_sample_writer", "src/OSEGY.cpp:assign_bytes_per_sample"]}
{"id": "C10", "title": "Integer sample formats preserve representable samples", "statement": "For integer sample formats (2,3,7,8,9 signed, 10,11,12,15,16 unsigned) a sample that is an integer in the range of the format (and below 2^53 in magnitude) is read back unchanged.", "quantifier": "every in-range integer, every integer format, both byte orders", "why_tests_cant": "2^64 values; negative values exercise a double-to-unsigned conversion that sanitizers do not flag by default", "anchors": ["src/OSEGY.cpp:assign_sample_writer", "src/ISEGY.cpp:assign_sample_reader"]}
{"id": "C11", "title": "IEEE sample formats", "statement": "Format 6 returns every double bit for bit. Format 5 returns every sample that is exactly a single-precision number unchanged, and rounds other finite samples to the nearest single (ties to even).", "quantifier": "all 2^64 doubles, both byte orders", "why_tests_cant": "2^64 values", "anchors": ["src/OSEGY.cpp:write_IEEE_float", "src/OSEGY.cpp:write_IEEE_double", "src/ISEGY.cpp:dbl_from_IEEE_float", "src/ISEGY.cpp:dbl_from_IEEE_double"]}
{"id": "C12", "title": "IBM floating point samples", "statement": "Decoding a 4-byte IBM float gives exactly (-1)^s * fraction * 16^(exp-70); encoding a decoded normalised number gives back the same four bytes; a sample that is not exactly representable loses less than one unit of the last of 24 fraction bits; encoding the sample 0 is defined.", "quantifier": "all 2^32 IBM words, all finite doubles in range", "why_tests_cant": "2^32 words and 2^64 doubles; the exponent is computed through log()", "anchors": ["src/ISEGY.cpp:dbl_from_ibm_float", "src/OSEGY.cpp:write_ibm_float"]}
{"id": "C13", "title": "Accepted trace header maps are safe", "statement": "If constructing a reader or writer accepts a trace header map, then in every header block all fields lie inside the 240 byte block and no two fields overlap, so no trace read or write can access memory outside the block buffer.", "quantifier": "every map (any number of blocks, any offsets 0..2^32-1, any types)", "why_tests_cant": "unbounded family of maps; the failing offsets wrap around 2^32", "anchors": ["src/CommonSEGY.cpp:check_tr_hdr_map"]}
{"id": "C14", "title": "The default trace header map", "statement": "default_trace_header passes the map check, lies in bounds without overlaps, matches the SEG-Y byte positions (e.g. samples in trace at bytes 115-116, FFID at 9-12), and no name occurs twice inside one block.", "quantifier": "all entries of the default map", "why_tests_cant": "finite table, checked completely", "anchors": ["src/CommonSEGY.cpp:default_trace_header"]}
{"id": "C15", "title": "Trace header write/read round-trip", "statement": "For any accepted in-bounds map, a trace header written and read back returns for every mapped name the integer that was set (reduced to the field's width), zero for mapped names that were not set, and no other names.", "quantifier": "every map, every header contents, both byte orders", "why_tests_cant": "unbounded number of fields, names and values", "anchors": ["src/OSEGY.cpp:write_trace_header", "src/ISEGY.cpp:read_trc_header"]}
{"id": "C16", "title": "Trace header block is exactly 240 bytes and unmapped bytes are zero", "statement": "Every trace header written occupies exactly 240 bytes; bytes not covered by a mapped field are zero, whatever was written for earlier traces.", "quantifier": "every map, every sequence of traces", "why_tests_cant": "stale buffer contents only show up for particular sequences", "anchors": ["src/OSEGY.cpp:write_trace_header"]}
{"id": "C17", "title": "Floating-point header values survive", "statement": "A header value that is a double and is mapped to a floating-point field (ibm, ieee_single, ieee_double) can be written and is read back.", "quantifier": "every double value and float-typed field", "why_tests_cant": "all doubles", "anchors": ["src/OSEGY.cpp:write_trace_header", "src/OSEGY.cpp:write_additional_trace_headers"]}
{"id": "C18", "title": "read_header and read_trace are interchangeable for navigation", "statement": "From any position, if both succeed, read_header and read_trace return the same header and leave the reader at the same position, in fixed and variable length files.", "quantifier": "every file content and reader state", "why_tests_cant": "all file contents", "anchors": ["src/ISEGY.cpp:read_header", "src/ISEGY.cpp:read_trace"]}
{"id": "C19", "title": "Iteration visits every trace exactly once", "statement": "In a file consisting of the headers followed by n well-formed traces, has_trace is true before each of the n reads and false after the n-th; the i-th read returns the i-th trace.", "quantifier": "every n, every trace contents, fixed and variable length", "why_tests_cant": "unbounded n", "anchors": ["src/ISEGY.cpp:has_trace", "src/ISEGY.cpp:read_trace"]}
{"id": "C20", "title": "SEG-Y revision 0 end-to-end round-trip", "statement": "Traces written through OSEGYRev0 with an explicit binary header are returned by ISEGY in order, with the same text header, binary header, header values and samples.", "quantifier": "every text header, binary header, map, number of traces and sample values representable in the chosen format", "why_tests_cant": "unbounded sequences of traces", "anchors": ["src/OSEGYRev0.cpp", "src/ISEGY.cpp"]}
{"id": "C21", "title": "SEG-Y revision 1 end-to-end round-trip", "statement": "Traces written through OSEGYRev1 (fixed length or variable length, with extended text headers whose number is declared in the binary header) are returned by ISEGY in order.", "quantifier": "every list of text headers, binary header, map, traces of different lengths", "why_tests_cant": "unbounded sequences", "anchors": ["src/OSEGYRev1.cpp", "src/ISEGY.cpp"]}
{"id": "C22", "title": "SEG-Y revision 2 end-to-end round-trip", "statement": "Traces written through OSEGYRev2 without additional trace headers or trailer stanzas are returned by ISEGY in order, including counts and extended fields of the binary header.", "quantifier": "as C21, with extended binary header fields", "why_tests_cant": "unbounded sequences", "anchors": ["src/OSEGYRev2.cpp", "src/ISEGY.cpp"]}
{"id": "C23", "title": "Trailer stanzas round-trip", "statement": "Trailer stanzas passed to OSEGYRev2 are returned by ISEGY::trailer_stanzas after the traces, and has_trace becomes false before them.", "quantifier": "every number and content of stanzas and traces", "why_tests_cant": "unbounded lists", "anchors": ["src/OSEGYRev2.cpp:~OSEGYRev2", "src/OSEGY.cpp:write_trailer_stanzas", "src/ISEGY.cpp:read_trailer_stanzas"]}
{"id": "C24", "title": "Additional trace headers round-trip", "statement": "When the binary header announces k additional trace headers, the writer stores exactly k extra 240-byte blocks per trace, which is what the reader consumes.", "quantifier": "every k, every trace", "why_tests_cant": "off-by-one depends on k", "anchors": ["src/OSEGY.cpp:write_additional_trace_headers", "src/ISEGY.cpp:read_trc_header"]}
{"id": "C25", "title": "Text header size validation", "statement": "Writers accept text headers (and trailer stanzas) of exactly 3200 bytes and throw for any other non-default length; the accepted bytes are stored unchanged at the start of the file.", "quantifier": "every list of strings", "why_tests_cant": "all strings", "anchors": ["src/OSEGYRev0.cpp", "src/OSEGYRev1.cpp", "src/OSEGYRev2.cpp"]}
{"id": "C26", "title": "Default text headers", "statement": "Without a user text header the writers store a 40-line, 80-column header: revision 0 without a revision stamp (in EBCDIC), revision 1 with the revision 1 stamp and revision 2 with the revision 2 stamp.", "quantifier": "the three writers", "why_tests_cant": "exact 3200-byte contents; checked completely", "anchors": ["src/CommonSEGY.cpp:default_text_header", "src/OSEGYRev0.cpp", "src/OSEGYRev1.cpp", "src/OSEGYRev2.cpp"]}
{"id": "C27", "title": "Automatic binary header", "statement": "When no binary header is given, the first trace decides: number of samples and sample interval are copied from its SAMP_NUM and SAMP_INT into the binary header on disk; more than 32767 samples, an interval above 32767 or one that truncates to 0 are rejected; later traces never change the binary header.", "quantifier": "every first trace and every sequence of later traces", "why_tests_cant": "unbounded sequences and all values", "anchors": ["src/OSEGYRev0.cpp", "src/OSEGYRev1.cpp", "src/OSEGYRev2.cpp:set_min_hdrs"]}
{"id": "C28", "title": "Automatic headers end-to-end", "statement": "A file produced by OSEGYRev0 without a binary header from traces that all have SAMP_NUM samples is read back by ISEGY trace by trace.", "quantifier": "every sequence of equal-length traces", "why_tests_cant": "unbounded sequences", "anchors": ["src/OSEGYRev0.cpp", "src/ISEGY.cpp"]}
{"id": "C29", "title": "Stored samples come from the trace being written", "statement": "The sample block written for a trace encodes exactly that trace's samples: no memory outside the sample buffer is touched and no bytes of an earlier trace are stored.", "quantifier": "every sequence of traces whose sample counts may differ from the declared count", "why_tests_cant": "needs particular length sequences; heap overflow is silent", "anchors": ["src/OSEGY.cpp:write_trace_samples_fix", "src/OSEGY.cpp:write_trace_samples_var"]}
{"id": "C30", "title": "Extended text headers are delimited correctly", "statement": "With a positive count n the reader returns the n records after the binary header; with -1 it returns records up to and including the first one starting with ((SEG: EndText)); traces start right after. The writer's files declare the number of extended headers they contain.", "quantifier": "every n and record contents", "why_tests_cant": "unbounded lists", "anchors": ["src/ISEGY.cpp:read_ext_text_headers", "src/OSEGY.cpp:write_ext_text_headers"]}
{"id": "C31", "title": "User supplied binary header overrides the file", "statement": "When ISEGY is opened with a binary header, everything except the byte order is taken from it and the file's 400 bytes only decide the byte order.", "quantifier": "every file and every header", "why_tests_cant": "all files", "anchors": ["src/ISEGY.cpp:fill_bin_header", "src/ISEGY.cpp:initialization"]}
{"id": "C32", "title": "Samples per trace decision", "statement": "The number of samples per trace used for fixed length reading is the extended count if non-zero, otherwise the 16-bit count read as unsigned (so 32768..65535 work).", "quantifier": "all header values", "why_tests_cant": "2^48 combinations", "anchors": ["src/ISEGY.cpp:initialization"]}
{"id": "C33", "title": "First trace position", "statement": "A non-zero byte offset of first trace is honoured; otherwise traces start right after the last extended text header.", "quantifier": "all headers and files", "why_tests_cant": "all files", "anchors": ["src/ISEGY.cpp:initialization"]}
{"id": "C34", "title": "Truncated files are reported", "statement": "If the file ends before the requested header or sample bytes, reading throws; a trace is never returned with bytes that are not in the file.", "quantifier": "every file length and position", "why_tests_cant": "all truncation points", "anchors": ["src/ISEGY.cpp:read_trc_header", "src/ISEGY.cpp:read_trc_smpls_fix", "src/ISEGY.cpp:initialization"]}
{"id": "C35", "title": "Reading makes progress", "statement": "Each successful read_header or read_trace moves the reader strictly forward, so a has_trace loop over a finite file terminates.", "quantifier": "every file content", "why_tests_cant": "needs negative sample counts in headers", "anchors": ["src/ISEGY.cpp:read_header", "src/ISEGY.cpp:has_trace"]}
{"id": "C36", "title": "Writing appends", "statement": "Each write_trace only appends bytes: everything written before (except the binary header, which the first trace of an automatic file rewrites in place) stays unchanged, and the file length grows by 240 + samples*size.", "quantifier": "every sequence of writes", "why_tests_cant": "unbounded sequences", "anchors": ["src/OSEGY.cpp:write_trace_header", "src/OSEGY.cpp:write_trace_samples_fix"]}
{"id": "C37", "title": "Sorted reader visits a permutation in key order", "statement": "ISEGYSorted1D returns every trace of the file exactly once, in non-decreasing order of the chosen header, traces with equal keys in file order.", "quantifier": "every file and key name", "why_tests_cant": "unbounded number of traces and key patterns", "anchors": ["src/ISEGYSorted1D.cpp"]}
{"id": "C38", "title": "Sorted reader keys", "statement": "get_keys returns exactly the distinct values of the chosen header, strictly ascending.", "quantifier": "every file", "why_tests_cant": "unbounded", "anchors": ["src/ISEGYSorted1D.cpp:get_keys"]}
{"id": "C39", "title": "Sorted reader queries", "statement": "get_headers(v, m)/get_traces(v, m) return the first m traces (in file order) whose chosen header equals v, and nothing for absent values.", "quantifier": "every file, value and limit", "why_tests_cant": "unbounded", "anchors": ["src/ISEGYSorted1D.cpp:get_headers", "src/ISEGYSorted1D.cpp:get_traces"]}
{"id": "C40", "title": "Queries do not disturb iteration", "statement": "Any interleaving of get_keys/get_headers/get_traces with read_header/read_trace leaves the sequence of traces returned by the iteration unchanged.", "quantifier": "every history of calls", "why_tests_cant": "unbounded histories", "anchors": ["src/ISEGYSorted1D.cpp"]}
{"id": "C41", "title": "Sorted reader error cases", "statement": "A trace lacking the chosen header makes construction throw; opening a file without traces and asking has_trace returns false.", "quantifier": "every file", "why_tests_cant": "needs files with missing headers or no traces", "anchors": ["src/ISEGYSorted1D.cpp:Impl"]}
{"id": "C42", "title": "Trace::Header behaves like a map", "statement": "After any sequence of set calls, get(k) returns the last value set for k (or the initial one), keys lists each present key exactly once, and copies are independent.", "quantifier": "every sequence of operations", "why_tests_cant": "unbounded histories", "anchors": ["src/Trace.cpp", "include/Trace.hpp"]}
{"id": "C43", "title": "Exception message", "statement": "The text of a sedaman::Exception is 'file line message'; moving it keeps the text; copying it is defined and keeps the text.", "quantifier": "every file name, line, message", "why_tests_cant": "all strings", "anchors": ["src/Exception.cpp"]}
{"id": "C44", "title": "SEG-D general header 1 round-trip", "statement": "Every general header block 1 whose fields fit their BCD/byte fields is returned unchanged by the reader, and the block is 32 bytes.", "quantifier": "every in-range field combination", "why_tests_cant": "22 fields", "anchors": ["src/OSEGD.cpp:write_general_header1", "src/ISEGD.cpp:read_gen_hdr1"]}
{"id": "C45", "title": "SEG-D general header 2 (rev 2) round-trip", "statement": "Every in-range general header block 2 is returned unchanged.", "quantifier": "every in-range field combination", "why_tests_cant": "joint space too large", "anchors": ["src/OSEGD.cpp:write_general_header2", "src/ISEGD.cpp:read_gen_hdr2_rev2"]}
{"id": "C46", "title": "SEG-D additional general header round-trip", "statement": "Additional general header blocks (general header N) written by OSEGDRev2_1 are returned by the reader, source line/point numbers included.", "quantifier": "every in-range field combination", "why_tests_cant": "fractional source numbers", "anchors": ["src/OSEGD.cpp", "src/ISEGD.cpp:read_rev2_add_gen_hdr_blks"]}
{"id": "C47", "title": "SEG-D channel set header round-trip", "statement": "Every in-range channel set header is returned unchanged (times in even milliseconds, descale multiplier with its sign and 10 fraction bits).", "quantifier": "every in-range field combination", "why_tests_cant": "sign-magnitude fixed point and BCD nibble packing", "anchors": ["src/OSEGD.cpp:write_ch_set_hdr", "src/ISEGD.cpp:read_ch_set_hdr"]}
{"id": "C48", "title": "SEG-D trace header round-trip", "statement": "File number, scan type, channel set, channel number and the other trace header fields written for a trace are returned by the reader.", "quantifier": "every in-range field combination", "why_tests_cant": "limits of 2- and 4-digit BCD fields with escape values", "anchors": ["src/OSEGD.cpp:write_trace_header", "src/ISEGD.cpp:read_trace_header"]}
{"id": "C49", "title": "SEG-D large file, channel set and channel numbers", "statement": "Numbers too large for their BCD field (file number > 9999, channel set > 99, channel > 9999) are carried by the extended fields and returned correctly.", "quantifier": "every number above the BCD limit", "why_tests_cant": "boundary values", "anchors": ["src/OSEGD.cpp:write_trace_header", "src/ISEGD.cpp:read_trace_header"]}
{"id": "C50", "title": "SEG-D sample codecs", "statement": "For the byte-oriented formats (8058, 8080, 8036, 8038, 9038, 9058, 9080) each trace sample written is returned by the reader (up to the format's precision); bits per sample agree on both sides; unsupported formats are rejected.", "quantifier": "all samples and format codes", "why_tests_cant": "2^64 samples", "anchors": ["src/OSEGD.cpp:assign_sample_writers", "src/ISEGD.cpp:assign_sample_reading"]}
{"id": "C51", "title": "SEG-D writer trace limit", "statement": "OSEGDRev2_1 accepts exactly as many traces as the channel sets announce and throws on the next one without writing.", "quantifier": "every channel set table and sequence of traces", "why_tests_cant": "unbounded", "anchors": ["src/OSEGDRev2_1.cpp", "src/OSEGD.cpp"]}
{"id": "C52", "title": "SEG-D reader trace counting", "statement": "After the announced number of traces has been read the reader either moves to the next record or reports the end; has_record/has_trace agree with that.", "quantifier": "every channel set table and number of records", "why_tests_cant": "unbounded", "anchors": ["src/ISEGD.cpp:read_trace", "src/ISEGD.cpp:has_record", "src/ISEGD.cpp:has_trace"]}
{"id": "C53", "title": "SEG-D trace header extensions", "statement": "Every trace header extension field written is read back.", "quantifier": "every extension map and values", "why_tests_cant": "all maps", "anchors": ["src/OSEGD.cpp:write_ext_trace_headers", "src/ISEGD.cpp:read_trace_header_ext"]}
{"id": "C54", "title": "Built-in SEG-D extension maps", "statement": "The sercel maps lie within 32-byte blocks without overlaps.", "quantifier": "all entries", "why_tests_cant": "finite table, checked completely", "anchors": ["src/CommonSEGD.cpp:sercel_428xl"]}
{"id": "C55", "title": "Copying a revision 0 file reproduces it byte for byte", "statement": "Reading a fixed length file with ISEGY and writing text header, binary header and all traces with OSEGYRev0 gives the identical file (unmapped header bytes being zero).", "quantifier": "every file of the right shape", "why_tests_cant": "all files (this is what tests/segy/verify_writing.cpp samples with one file)", "anchors": ["tests/segy/verify_writing.cpp", "src/ISEGY.cpp", "src/OSEGYRev0.cpp"]}
{"id": "C56", "title": "Field name tables are complete", "statement": "name_as_string returns a distinct text for each enumerator of BinaryHeader::Name, never reading past the table.", "quantifier": "all enumerators", "why_tests_cant": "finite table, checked completely", "anchors": ["src/CommonSEGY.cpp:bin_names"]}
{"id": "C57", "title": "SEG-D field name tables are complete", "statement": "For every SEG-D header structure (general headers, channel set header), name_as_string returns a distinct text for each enumerator of its Name enumeration, never reading past the table.", "quantifier": "all structures and enumerators", "why_tests_cant": "finite tables, checked completely; a test samples a few names", "anchors": ["src/CommonSEGD.cpp:name_as_string", "include/CommonSEGD.hpp"]}
{"id": "C58", "title": "Trace header descriptions", "statement": "Every name of the default SEG-Y trace header map has a description in the library's description table, and different names have different descriptions.", "quantifier": "all names of the default map", "why_tests_cant": "finite table, checked completely; a test looks up a few names", "anchors": ["src/CommonSEGY.cpp:trace_header_description", "src/CommonSEGY.cpp:default_trace_header"]}
{"id": "C59", "title": "SEG-D revision 2.1 end to end", "statement": "A file written by OSEGDRev2_1 (general headers, channel sets, extended and external headers, traces) opened by ISEGD gives back the same headers, channel sets, extended/external header bytes and the same traces in the same order, and then reports the end.", "quantifier": "every consistent set of headers, every extension map and every list of traces as long as the channel sets announce", "why_tests_cant": "unbounded number of traces and blocks, joint header space", "anchors": ["src/OSEGDRev2_1.cpp", "src/OSEGD.cpp", "src/ISEGD.cpp"]}
{"id": "C60", "title": "SEG-D revision 3 general header blocks", "statement": "Every typed 32-byte general header block the reader knows (vessel, survey area, client, job, line, source, ... blocks) is decoded without leaving the block, and its reported block type is the one stored in the last byte of the block.", "quantifier": "every block content and block code", "why_tests_cant": "24 block layouts times 256^32 contents", "anchors": ["src/ISEGD.cpp:read_general_header_block", "include/CommonSEGD.hpp"]}
{"id": "C61", "title": "SEG-D getters describe the current record", "statement": "After the reader has moved to a record, the headers, channel sets and blocks returned by the getters are those of that record only, as if the file began there; asking for a block that is not present is reported, not undefined.", "quantifier": "every file with any number of records", "why_tests_cant": "unbounded number of records, each with its own set of blocks", "anchors": ["src/ISEGD.cpp:read_headers", "src/ISEGD.cpp:general_header2", "src/ISEGD.cpp:channel_sets"]}
{"id": "C62", "title": "A failed SEG-D write leaves the file unchanged", "statement": "If OSEGDRev2_1::write_trace throws, nothing has been written: the file is what it was before the call, and a later correct trace is stored as if the failed call had not happened.", "quantifier": "every writer state and every trace", "why_tests_cant": "every way a trace can be unacceptable, at every point of a history", "anchors": ["src/OSEGDRev2_1.cpp:write_trace", "src/OSEGD.cpp:write_trace_header", "src/OSEGD.cpp:write_ext_trace_headers"]}
{"id": "C63", "title": "SEG-D revision 3 general headers 2 and 3 round-trip", "statement": "A writer class derived from OSEGD that calls write_general_header2_and_3 stores both general headers 2 and 3, each in a block of 32 bytes, and ISEGD returns every member of both as it was given.", "quantifier": "every pair of headers whose members fit their fields", "why_tests_cant": "joint space of all members; a shift by a few bytes needs particular values to show", "anchors": ["src/OSEGD.cpp:write_general_header2_and_3", "src/ISEGD.cpp:read_gen_hdr2_rev3", "src/ISEGD.cpp:read_gen_hdr3"]}
{"id": "C64", "title": "SEG-D revision 3 typed blocks round-trip", "statement": "Every typed general header block (vessel, survey area, client, job, line, source, sensor, ... blocks) written by write_rev3_add_gen_hdrs is returned by ISEGD under its type with the members it was given; a whole list of blocks comes back complete.", "quantifier": "every list of blocks of different types, every member value that fits its field", "why_tests_cant": "24 block layouts, unbounded value space, every combination of blocks", "anchors": ["src/OSEGD.cpp:write_rev3_add_gen_hdrs", "src/ISEGD.cpp:read_rev3_add_gen_hdr_blks"]}
{"id": "C65", "title": "SEG-D revision 3 channel set header round-trip", "statement": "Every revision 3 channel set header written by write_ch_set_hdr takes 96 bytes and is returned by ISEGD with the members it was given.", "quantifier": "every header whose members fit their fields", "why_tests_cant": "28 members; mistakes only show for values that differ between members", "anchors": ["src/OSEGD.cpp:write_ch_set_hdr", "src/ISEGD.cpp:read_ch_set_hdr"]}
{"id": "C66", "title": "Traces and headers are values", "statement": "Trace and Trace::Header objects behave like independent values: after any history of creation, copy construction, copy assignment (self assignment included), move construction, move assignment, header and sample changes and destruction, every live object that was not moved from has exactly the contents it would have if each object held its own map and vector; no operation uses freed memory or frees twice, and changing a copy never changes the original.", "quantifier": "every history of operations over any number of objects", "why_tests_cant": "double frees and aliasing depend on the order of copies, moves and destructions", "anchors": ["src/Trace.cpp", "include/Trace.hpp"]}
{"id": "C67", "title": "Python attributes and methods", "statement": "Through the Python module every public data member of every header class is an attribute of the same name; reading the attribute gives that member, assigning to it changes that member and no other; every bound method is the C++ member function of the same name; the value type enumeration has every C++ value.", "quantifier": "every header class, attribute, object contents and sequence of assignments; every method and enumerator", "why_tests_cant": "hundreds of hand-written bindings of the same shape; a wrong one is only seen when that very pair of members is compared", "anchors": ["src/pybind/pybind.cpp", "include/CommonSEGD.hpp", "include/CommonSEGY.hpp"]}
{"id": "C68", "title": "SEG-D samples with packed exponents", "statement": "A trace written in a SEG-D format with packed exponents (8015, 8022, 8024, 8042, 8044, 8048) consists of one group of bits per sample, in the order of the samples, and the number each group denotes under the SEG-D standard differs from the sample by less than one unit of the last fraction bit, for every sample in the range of the format including zero.", "quantifier": "every format, every list of samples in range, every history of traces written before", "why_tests_cant": "2^64 values per sample; the state left by earlier traces matters", "anchors": ["src/OSEGD.cpp:assign_sample_writers", "src/OSEGD.cpp:write_trace_samples"]}
{"id": "C69", "title": "Files from elsewhere", "statement": "Whatever bytes a file contains, opening it with ISEGY and every later read_header and read_trace either returns or throws an exception; none of them reads outside a buffer, overflows an integer or runs into other undefined behaviour, and the loops over text records end.", "quantifier": "every byte sequence, every user supplied binary header, every trace header map inside its blocks, every history of calls", "why_tests_cant": "every count and size in the header is under the control of whoever made the file", "anchors": ["src/ISEGY.cpp:initialization", "src/ISEGY.cpp:read_trailer_stanzas", "src/ISEGY.cpp:read_trc_header", "src/ISEGY.cpp:read_header", "src/ISEGY.cpp:read_trace"]}
{"id": "C70", "title": "SEG-D files from elsewhere", "statement": "Whatever bytes a file contains, opening it with ISEGD and every later read_trace either returns or throws an exception; none of them reads outside a buffer or runs into other undefined behaviour, and a loop over has_trace ends after at most one trace for every 20 bytes of the file.", "quantifier": "every byte sequence, every trace header extension map, every reader state", "why_tests_cant": "every count, format code and channel set number is under the control of whoever made the file", "anchors": ["src/ISEGD.cpp:read_headers_before_traces", "src/ISEGD.cpp:read_trace_header", "src/ISEGD.cpp:read_trace_header_ext", "src/ISEGD.cpp:read_trace_samples", "src/ISEGD.cpp:read_trace"]}
{"id": "C71", "title": "SEG-D writer arguments", "statement": "The constructor of OSEGDRev2_1 returns only if the number of scan types, the number of channel sets in every scan type and the numbers of extended and external header blocks agree with the general headers, and throws otherwise.", "quantifier": "every combination of headers, channel set table and header blocks", "why_tests_cant": "the disagreement may be in any of arbitrarily many scan types or blocks", "anchors": ["src/OSEGDRev2_1.cpp:OSEGDRev2_1::Impl::Impl", "src/OSEGD.cpp:OSEGD::OSEGD"]}
{"id": "C72", "title": "SEG-D file layout", "statement": "The headers of a new SEG-D file take exactly 32 bytes for each general header, additional block, channel set, skew block, extended and external header block asked for, and every accepted write_trace appends exactly 20 bytes, 32 for every extension and the bits of its samples, so that readers find every trace where the headers say.", "quantifier": "every set of arguments and every sequence of accepted traces in every sample format", "why_tests_cant": "sizes must hold for all counts and formats, and for every earlier history of the shared buffers", "anchors": ["src/OSEGDRev2_1.cpp:write_trace", "src/OSEGD.cpp:write_trace_header", "src/OSEGD.cpp:write_ext_trace_headers", "src/OSEGD.cpp:write_trace_samples"]}
{"id": "C73", "title": "SEG-Y writing after a refused trace", "statement": "A write_trace call that throws leaves no trace behind: a program that catches the exception and goes on gets the file it would have got from the accepted traces alone. Only the binary header of an automatic writer that has accepted no trace yet may show the attempt.", "quantifier": "every history of accepted and refused traces of the three SEG-Y writers", "why_tests_cant": "the failing trace may come anywhere in a history, fail at any field, and leave members of the writer half updated", "anchors": ["src/OSEGY.cpp:OSEGY", "src/OSEGY.cpp:write_trace_header", "src/OSEGY.cpp:write_additional_trace_headers", "src/OSEGY.cpp:write_trace_samples_var", "src/OSEGYRev0.cpp:write_trace", "src/OSEGYRev1.cpp:write_trace", "src/OSEGYRev2.cpp:write_trace"]}
{"id": "C74", "title": "SEG-Y reading after an exception", "statement": "A program that catches what read_trace or read_header throws and goes on reading is never given data that is no trace of the file: the calls before the failure return the traces of the file, the calls after it throw.", "quantifier": "every file that opens, every sequence of read_trace and read_header calls, every point of failure", "why_tests_cant": "the failure may come at any byte of the file and after any history; tests stop at the first exception", "anchors": ["src/ISEGY.cpp:fill_buf_from_file", "src/ISEGY.cpp:file_skip_bytes", "src/ISEGY.cpp:read_header", "src/ISEGY.cpp:read_trace", "src/ISEGY.cpp:has_trace", "src/CommonSEGY.cpp:CommonSEGY"]}
{"id": "C75", "title": "SEG-D reading after an exception", "statement": "A program that catches what ISEGD::read_trace throws and goes on is never given data that is no trace of the file: calls before the failure return the traces of the file, calls after it throw, and it is never led into undefined behaviour by an exception it caught.", "quantifier": "every file that opens, every extension map, every number of calls, every point of failure", "why_tests_cant": "the failure may come at any byte of the file and after any number of records; tests stop at the first exception", "anchors": ["src/ISEGD.cpp:ISEGD::read_trace", "src/ISEGD.cpp:ISEGD::has_trace", "src/ISEGD.cpp:ISEGD::has_record", "src/ISEGD.cpp:read_headers_before_traces", "src/ISEGD.cpp:read_trace_samples", "src/ISEGD.cpp:fill_buf_from_file"]}
{"id": "C76", "title": "SEG-D traces do not depend on what follows them", "statement": "A trace whose bytes are complete in the file is returned by ISEGD::read_trace, whatever bytes follow it or are missing behind it.", "quantifier": "every pair of files with a common beginning, every number of traces read", "why_tests_cant": "the bytes behind a trace are arbitrary; tests use complete files that end with the last trace", "anchors": ["src/ISEGD.cpp:ISEGD::read_trace", "src/ISEGD.cpp:read_headers_before_traces", "src/ISEGD.cpp:read_general_headers"]}
{"id": "C77", "title": "Iteration in Python", "statement": "Iterating over a reader in Python (for t in reader) gives exactly the traces that C++ code gets from has_trace and read_trace: all of them, in order, and then stops; a further loop gives nothing.", "quantifier": "every file, every reader (ISEGY, ISEGYSorted1D, ISEGD), every number of traces", "why_tests_cant": "the loop may run over any number of traces; tests iterate over one small file", "anchors": ["src/pybind/pybind.cpp:__next__", "src/ISEGD.cpp:ISEGD::has_record", "src/ISEGD.cpp:ISEGD::has_trace", "src/ISEGD.cpp:ISEGD::read_trace"]}
{"id": "C78", "title": "Sorted reading after an exception", "statement": "A program that catches what an ISEGYSorted1D throws and goes on gets from every call that returns what it would have got had the calls that threw not been made: no trace is skipped or repeated, and has_trace and the keys do not change by a call that throws. Once the reader is open there are no I/O errors: only read_trace and get_traces throw, only std::length_error, and only for a trace with a negative count of samples, which read_header still gets past.", "quantifier": "every file that opens, every sequence of calls, every point of failure", "why_tests_cant": "the failing call may come at any place of any sequence of calls on any file; tests stop at the first exception", "anchors": ["src/ISEGYSorted1D.cpp:ISEGYSorted1D::read_trace", "src/ISEGYSorted1D.cpp:ISEGYSorted1D::read_header", "src/ISEGYSorted1D.cpp:ISEGYSorted1D::get_traces", "src/ISEGYSorted1D.cpp:ISEGYSorted1D::get_headers", "src/ISEGY.cpp:ISEGY::read_trace"]}
{"id": "C79", "title": "Changing the sample format", "statement": "A program that reads the traces of a SEG-Y file and writes them to a file with another sample format, one that can represent every number of the old format, reads from the new file exactly the samples of the old one, whatever the byte orders of the two files.", "quantifier": "every file, every pair of the thirteen sample formats, every sample, both byte orders of both files", "why_tests_cant": "169 pairs of formats with up to 2^64 samples each; the pairs that lose samples do so for few of them or by undefined behaviour that seems to work", "anchors": ["src/ISEGY.cpp:Impl::assign_sample_reader", "src/OSEGY.cpp:Impl::assign_sample_writer", "src/OSEGY.cpp:Impl::write_ibm_float", "src/OSEGY.cpp:Impl::write_IEEE_float"]}
{"id": "C80", "title": "The trace header map only says what to report", "statement": "The trace header map given to a SEG-Y reader decides which header values are reported and nothing else: each name of the map gets the value stored at its place in the trace, no other names appear, and text headers, binary header, trailer stanzas, samples and the number of traces are the same with every map that is accepted. `read_binary_header` reports the binary header of every such reader.", "quantifier": "every file, every pair of accepted trace header maps, every sequence of reads", "why_tests_cant": "the map is data supplied by the user; fields of one name, in several blocks or at any offset, can only be checked for all maps by a proof", "anchors": ["src/ISEGY.cpp:ISEGY::ISEGY", "src/ISEGY.cpp:ISEGY::read_trace", "src/ISEGY.cpp:ISEGY::read_header", "src/ISEGY.cpp:ISEGY::read_binary_header", "src/ISEGY.cpp:Impl::read_trc_header"]}
{"id": "C81", "title": "SEG-Y files that are cut short or still grow", "statement": "A SEG-Y file that is cut anywhere behind its headers can still be opened, with the same headers; the traces that are complete in it are read exactly like from the whole file; then has_trace is true exactly if a part of another trace is left, and reading that part throws. Likewise, what is appended to a file does not change how the traces in front of it are read.", "quantifier": "every file, every place where it is cut, every continuation, every sequence of reads", "why_tests_cant": "every byte of the file is a place to cut it, and there are arbitrarily many continuations", "anchors": ["src/ISEGY.cpp:ISEGY::Impl::initialization", "src/ISEGY.cpp:ISEGY::read_trace", "src/ISEGY.cpp:ISEGY::read_header", "src/ISEGY.cpp:ISEGY::has_trace", "src/ISEGY.cpp:Impl::read_trailer_stanzas"]}
{"id": "C82", "title": "Copying revision 1 and 2 SEG-Y files", "statement": "Opening a revision 1 or 2 SEG-Y file, reading all its traces and writing its text headers, its binary header, the traces and the trailer stanzas with the writer of that revision gives a file with the same bytes, for files whose unassigned bytes are zero and whose samples the library writes as it reads them.", "quantifier": "every file of revision 1 or 2 with such headers and samples: traces of one or of different lengths, any number of text headers, additional trace headers and trailer stanzas", "why_tests_cant": "equality of arbitrarily long files, over all header values, sample values, map layouts and numbers of traces", "anchors": ["src/ISEGY.cpp:ISEGY::ISEGY", "src/ISEGY.cpp:ISEGY::read_trace", "src/OSEGYRev1.cpp:OSEGYRev1::write_trace", "src/OSEGYRev2.cpp:OSEGYRev2::write_trace", "src/OSEGYRev2.cpp:OSEGYRev2::~OSEGYRev2"]}
{"id": "C83", "title": "Sorting a SEG-Y file", "statement": "Opening a SEG-Y file with the sorted reader for a header name and writing every trace it reads with the writer of that revision gives a file with the same headers and the bytes of the same traces, each exactly once; read in file order it gives the traces in ascending order of that header, those with equal values in the order they had before; sorting the result again gives the same file.", "quantifier": "every file of revision 0, 1 or 2 whose headers and samples the library writes as it reads them, every header name of the map", "why_tests_cant": "all permutations of arbitrarily many traces, with all values of the key and all repetitions of it", "anchors": ["src/ISEGYSorted1D.cpp:ISEGYSorted1D::ISEGYSorted1D", "src/ISEGYSorted1D.cpp:ISEGYSorted1D::read_trace", "src/OSEGYRev0.cpp:OSEGYRev0::write_trace", "src/OSEGYRev1.cpp:OSEGYRev1::write_trace", "src/OSEGYRev2.cpp:OSEGYRev2::write_trace", "src/ISEGY.cpp:ISEGY::read_trace"]}
{"id": "C84", "title": "Copying a SEG-D file", "statement": "Reading a SEG-D file of one record to its end and passing everything the reader shows (general headers, channel sets, extended and external headers) and every trace it returns to the revision 2.1 writer gives a file with the same bytes.", "quantifier": "every SEG-D revision 2.1 file whose values fit their fields, every number and kind of headers, channel sets and traces, both ways to describe trace header extensions", "why_tests_cant": "all contents of all headers and samples, arbitrarily many traces", "anchors": ["src/ISEGD.cpp:ISEGD::read_trace", "src/ISEGD.cpp:ISEGD::general_headerN", "src/OSEGDRev2_1.cpp:OSEGDRev2_1::OSEGDRev2_1", "src/OSEGDRev2_1.cpp:OSEGDRev2_1::write_trace", "src/OSEGD.cpp:OSEGD::Impl::write_ext_trace_headers", "src/CommonSEGD.cpp:CommonSEGD::CommonSEGD"]}
{"id": "C85", "title": "IEEE numbers on hosts without IEEE double", "statement": "Compiled for a host whose double is not the IEEE double, the library reads the bytes of a finite IEEE single or double precision number as that number, and writes a number that has such bytes as these bytes.", "quantifier": "every pattern of 4 and 8 bytes, every number of the range, both byte orders", "why_tests_cant": "there are 2^32 and 2^64 patterns, and no test machine takes this branch", "anchors": ["src/ISEGY.cpp:ISEGY::Impl::dbl_from_IEEE_float", "src/ISEGY.cpp:ISEGY::Impl::dbl_from_IEEE_double", "src/OSEGY.cpp:OSEGY::Impl::write_IEEE_float", "src/OSEGY.cpp:OSEGY::Impl::write_IEEE_double", "src/ISEGD.cpp:ISEGD::Impl::dbl_from_IEEE_float", "src/OSEGD.cpp:OSEGD::Impl::write_IEEE_float"]}
{"id": "C86", "title": "A program that is stopped while it writes a SEG-Y file", "statement": "If a program that writes a SEG-Y file is stopped at any moment (killed, or aborted by an exception nobody catches), the traces whose bytes were handed over completely can be read from the file, with the text headers and the binary header. One incomplete trace behind them is reported by an exception and not returned.", "quantifier": "every number of bytes that got to the file, every list of traces, all revisions, explicit and automatic binary headers", "why_tests_cant": "there is one crash point for every byte of every file", "anchors": ["src/OSEGYRev0.cpp:OSEGYRev0::Impl::write_trace", "src/OSEGYRev1.cpp:OSEGYRev1::Impl::write_trace", "src/OSEGYRev2.cpp:OSEGYRev2::Impl::write_trace", "src/OSEGYRev2.cpp:OSEGYRev2::~OSEGYRev2", "src/OSEGY.cpp:OSEGY::Impl::write_trailer_stanzas", "src/ISEGY.cpp:ISEGY::Impl::read_trailer_stanzas"]}
{"id": "C87", "title": "A program that is stopped while it writes a SEG-D file", "statement": "If a program that writes a SEG-D revision 2.1 file is stopped at any moment, the traces whose bytes were handed over completely can be read from the file, with the headers. After them has_trace() still promises the traces the channel sets announce, and read_trace() reports by an exception that they are missing. A file with incomplete headers does not open.", "quantifier": "every number of bytes that got to the file, every list of at most as many traces as announced, with extension maps or the standard extension block", "why_tests_cant": "there is one crash point for every byte of every file", "anchors": ["src/OSEGDRev2_1.cpp:OSEGDRev2_1::write_trace", "src/OSEGDRev2_1.cpp:OSEGDRev2_1::OSEGDRev2_1", "src/ISEGD.cpp:ISEGD::read_trace", "src/ISEGD.cpp:ISEGD::has_trace", "src/ISEGD.cpp:ISEGD::Impl::read_headers_before_traces"]}
{"id": "C88", "title": "SEG-D files of several records", "statement": "SEG-D files put one behind the other make a SEG-D file: it opens, while (has_trace()) read_trace() gives the traces of all files in this order, each as it comes from its own file, and then the file ends. The files of several writers joined in this way give back all traces that were written.", "quantifier": "every list of files that open and give at least one trace, with any number of records and traces", "why_tests_cant": "the number of records and the state one record leaves behind for the next are unbounded", "anchors": ["src/ISEGD.cpp:ISEGD::read_trace", "src/ISEGD.cpp:ISEGD::has_trace", "src/ISEGD.cpp:ISEGD::has_record", "src/ISEGD.cpp:ISEGD::Impl::read_headers_before_traces", "src/OSEGDRev2_1.cpp:OSEGDRev2_1::write_trace"]}
{"id": "C89", "title": "Byte order of SEG-Y files", "statement": "A little endian SEG-Y file and a big endian one with the same contents look the same to a program: both open, with the same text headers and the same binary header but for the byte order marker, and while (has_trace()) gives the same traces, with the same header values and bit for bit the same samples.", "quantifier": "every pair of files in which the numbers of the binary header, of the fields of the trace header map and of the samples have their bytes in opposite order; every map, sample format, revision, number of header blocks and traces", "why_tests_cant": "a field read in the wrong order or not swapped shows only with values, formats and maps that a test happens to use", "anchors": ["src/ISEGY.cpp:ISEGY::Impl::fill_bin_header", "src/ISEGY.cpp:ISEGY::Impl::assign_raw_readers", "src/ISEGY.cpp:ISEGY::Impl::assign_sample_reader", "src/ISEGY.cpp:ISEGY::read_trace"]}
{"id": "C90", "title": "Computers of either byte order", "statement": "Files do not depend on the byte order of the computer: a file with a byte order marker is read and written with the same numbers on a little endian and on a big endian computer, SEG-D files are big endian on both, and what one computer writes the other one reads.", "quantifier": "both byte orders of the computer, both byte orders of the file, every kind of integer and sample format, every value", "why_tests_cant": "all developers and the CI use little endian machines; tests never run the other branch", "anchors": ["src/ISEGY.cpp:assign_raw_readers", "src/OSEGY.cpp:assign_raw_writers", "src/ISEGD.cpp:assign_raw_readers", "src/OSEGD.cpp:assign_raw_writers", "src/util.hpp:swap"]}
{"id": "C91", "title": "Negative integer samples and IBM zeros on real computers", "statement": "On a computer whose compiler gives numbers where C++ leaves the conversion to an unsigned integer undefined, files with negative integer samples and with zeros in IBM format are written correctly: integer samples come back unchanged, zeros come back as zero, and a copied file equals the original byte for byte.", "quantifier": "every integer sample format, every sample in its range, both byte orders, every fixed length revision 0 file of integers of at most four bytes; the computers x86-64 and ARM64", "why_tests_cant": "tests run on x86-64 only, on five files; the result depends on what the compiler makes of undefined behaviour", "anchors": ["src/OSEGY.cpp:write_ibm_float", "src/OSEGY.cpp:assign_sample_writer", "tests/segy/verify_writing.cpp:main"]}
{"id": "C92", "title": "A written file is reproduced when it is read and written again", "statement": "If a program writes traces to a SEG-Y file, reads the file, and writes the text headers, the binary header and the traces it read to another file with the same header map, the second file equals the first byte for byte. The first writing may round samples and drop header values without a field; the second one changes nothing more.", "quantifier": "every list of traces the writers accept, every header map, binary header, sample format and byte order, files of revision 0, 1 and 2", "why_tests_cant": "rounding is idempotent only for some conversions, and a single deviating bit pattern (a logarithm rounded up) changes the copy; tests copy five files", "anchors": ["src/OSEGY.cpp:OSEGY::Impl", "src/OSEGY.cpp:write_ibm_float", "src/ISEGY.cpp:ISEGY::Impl"]}
{"id": "C93", "title": "A device that stops accepting bytes", "statement": "If the device stops accepting bytes while a program writes a SEG-Y or SEG-D file (a full disk), a call of the library throws an exception the program can catch, and the file that is left gives exactly the traces whose bytes were accepted. If the device accepts everything, no call throws.", "quantifier": "every program that opens a writer and writes traces, every number of bytes the device accepts, every size of the buffer of the stream and every moment at which it hands over bytes", "why_tests_cant": "the moment at which the device is full and the way the stream buffers cannot be varied in tests", "anchors": ["src/OSEGY.cpp:OSEGY::Impl", "src/OSEGYRev2.cpp:OSEGYRev2::~OSEGYRev2", "src/CommonSEGY.cpp:CommonSEGY::Impl", "src/OSEGDRev2_1.cpp:OSEGDRev2_1::write_trace"]}
{"id": "C94", "title": "Texts and header values in Python", "statement": "In Python, the text headers and trailer stanzas of a file can be read and given to a writer, which stores the same bytes; a text given as str is stored with one byte for each character; a number set in a trace header comes back as the same number.", "quantifier": "every file, every text and every number", "why_tests_cant": "the conversions fail only for certain byte sequences and magnitudes, which sample files in one encoding do not contain", "anchors": ["src/pybind/pybind.cpp:ISEGY_py", "src/pybind/pybind.cpp:OSEGYRev0_py", "src/pybind/pybind.cpp:OSEGYRev1_py", "src/pybind/pybind.cpp:OSEGYRev2_py", "src/pybind/pybind.cpp:Header_py", "include/Trace.hpp:Trace::Header::Value"]}
{"id": "C95", "title": "Memory is bounded by the size of the file", "statement": "Opening a file and reading from it takes an amount of memory that is at most a small multiple of the size of the file, whatever its bytes are and whatever calls are made.", "quantifier": "every file, every header map and every sequence of calls, including calls that throw", "why_tests_cant": "the files that break it are damaged or malicious; a test reads files somebody has written", "anchors": ["src/ISEGY.cpp:ISEGY::Impl::initialization", "src/ISEGY.cpp:ISEGY::read_trace", "src/ISEGD.cpp:ISEGD::Impl::read_trace_samples", "src/ISEGD.cpp:ISEGD::Impl::read_headers_before_traces"]}
{"id": "C96", "title": "SEG-D files keep samples as well as the format can", "statement": "Samples written to a SEG-D file and read from it again come back unchanged in double precision, with a relative error of at most one part in 2^24 in single precision, and as the part in front of the point of the quotient by the descale factor, times this factor, in the integer formats; headers come back as written.", "quantifier": "all headers that fit and agree, all numbers of traces and samples, all samples, descale factors and formats the writer accepts", "why_tests_cant": "rounding goes wrong for single values out of 2^64, and the descale factor, the format and the header all take part in it", "anchors": ["src/OSEGD.cpp:assign_sample_writers", "src/ISEGD.cpp:assign_sample_reading"]}
{"id": "C97", "title": "SEG-D traces can be written to SEG-Y files", "statement": "Traces read from a SEG-D file can be written to a SEG-Y file of any revision; reading that file returns the same samples and the values the headers of both formats have.", "quantifier": "all SEG-D files of any content, all numbers of traces and samples, all extension maps and header maps, all three revisions", "why_tests_cant": "the two halves of the library are tested apart; what a SEG-D header may contain depends on the file, its revision and the extension maps", "anchors": ["src/ISEGD.cpp:read_trace", "src/OSEGY.cpp:write_trace_header", "src/OSEGYRev0.cpp:write_trace", "src/OSEGYRev1.cpp:write_trace", "src/OSEGYRev2.cpp:write_trace"]}
{"id": "C98", "title": "SEG-Y traces can be written to SEG-D files", "statement": "Traces read from a SEG-Y file can be written to a SEG-D file; reading that file returns the same samples and the values the headers of both formats have.", "quantifier": "all SEG-Y files of any content, all maps, all numbers of traces and samples, all SEG-D headers that fit and agree", "why_tests_cant": "the two halves of the library are tested apart; a SEG-D writer relies on header values that SEG-Y traces do not have", "anchors": ["src/OSEGD.cpp:write_trace_header", "src/ISEGY.cpp:read_trace"]}
{"id": "C99", "title": "Samples in IBM format, the default, keep six digits", "statement": "Where the C library's logarithm is accurate to 0.6 units of the last place, samples written to a SEG-Y file in IBM format come back with a relative error of at most 1/(2^20-1), zeros come back as zeros, and a file of normalised IBM numbers is copied byte for byte.", "quantifier": "every finite sample, every number of traces, every header map, revision 0 (with and without a binary header), 1 and 2", "why_tests_cant": "the exponent of each sample goes through five roundings of a logarithm; which samples are next to a wrong exponent cannot be found by trying", "anchors": ["src/OSEGY.cpp:write_ibm_float", "src/ISEGY.cpp:dbl_from_ibm_float", "src/OSEGYRev0.cpp:write_trace"]}
{"id": "C100", "title": "What a trace becomes in the file depends on that trace alone", "statement": "The bytes that a writer puts into a SEG-Y file for a trace depend on the trace and on the arguments of the constructor, not on the traces written before or after it. If two traces differ in some header values and samples only, their bytes differ only where these values and samples are stored. Header values under names that the map does not mention have no effect. So changing, leaving out, adding or moving one trace leaves the bytes of all others as they are.", "quantifier": "all revisions, constructor arguments, histories of write_trace calls, pairs of traces and byte positions", "why_tests_cant": "a test compares files for a few pairs of traces; an effect of an earlier trace on a later one shows only for particular histories", "anchors": ["src/OSEGY.cpp:write_trace_header", "src/OSEGY.cpp:write_additional_trace_headers", "src/OSEGY.cpp:write_trace_samples_fix", "src/OSEGY.cpp:write_trace_samples_var", "src/OSEGYRev0.cpp:write_trace", "src/OSEGYRev1.cpp:write_trace", "src/OSEGYRev2.cpp:write_trace"]}
{"id": "C101", "title": "SEG-Y files can be cut between traces and put together", "statement": "A SEG-Y file without trailer stanzas, with a count of additional trace headers that is not negative and whose first trace lies behind its headers is read as its traces exactly if its bytes behind the headers are pieces that are read as these traces on their own. So the bytes of the traces of one file can be put behind another file with an equal binary header and the same byte order, and the joined file is read as the traces of both; a file can be cut between two traces; and any choice of the traces of a file, in any order, makes a file with the same headers that is read as just that choice.", "quantifier": "all files, maps, user supplied binary headers, places to cut and choices of traces, for fixed and variable trace length", "why_tests_cant": "a test joins or cuts a few files; that nothing but a trace's own bytes is used to read it is a statement about all files", "anchors": ["src/ISEGY.cpp:read_trace", "src/ISEGY.cpp:read_trc_header", "src/ISEGY.cpp:read_trc_smpls_fix", "src/ISEGY.cpp:initialization"]}
{"id": "C102", "title": "Changing revision, byte order and header map of a SEG-Y file", "statement": "The traces of a SEG-Y file of any content and revision can be written to a new file of any revision, with other text headers, byte order, sample format and places of the header values, and are read from it with the same samples and the same header values. The new sample format and the types in the new header map have to hold the values of the old ones. Files of traces of different lengths stay so without further conditions on the traces.", "quantifier": "all files, user supplied binary headers, header maps, and arguments of the writers of the three revisions", "why_tests_cant": "a test converts a few files; whether every value that can be read can be written and is read again the same is a statement about all contents of files", "anchors": ["src/ISEGY.cpp:read_trace", "src/ISEGY.cpp:read_trc_header", "src/OSEGY.cpp:write_trace_header", "src/OSEGY.cpp:write_trace_samples_fix", "src/OSEGY.cpp:write_trace_samples_var", "src/OSEGYRev0.cpp:write_trace", "src/OSEGYRev1.cpp:write_trace", "src/OSEGYRev2.cpp:write_trace"]}
{"id": "C103", "title": "What a trace becomes in a SEG-D file depends on that trace alone", "statement": "The bytes that a writer puts into a SEG-D file for a trace, and whether it accepts the trace, depend on the trace and on the arguments of the constructor, not on accepted or refused traces before it. If two traces differ in some header values and samples only, their bytes differ only where these values and samples are stored. Header values under names that neither the trace header nor its extension mention have no effect. So changing, leaving out, adding or moving one trace leaves the bytes of all others as they are.", "quantifier": "all arguments of the constructor, histories of calls, traces and positions of bytes", "why_tests_cant": "a test compares two files; whether a buffer or a static array carries something from one trace to another depends on the whole history", "anchors": ["src/OSEGD.cpp:write_trace_header", "src/OSEGD.cpp:write_ext_trace_headers", "src/OSEGD.cpp:write_trace_samples", "src/OSEGD.cpp:assign_sample_writers", "src/OSEGDRev2_1.cpp:write_trace"]}
{"id": "C104", "title": "Objects do not influence each other", "statement": "In a program with any number of readers and writers of SEG-Y and SEG-D files, each with a file of its own, every object behaves as if it was the only one: its calls return and throw the same, and its file gets the same bytes, in whatever order the objects are called. So programs that call the objects in different orders, but each object in the same order, get the same results.", "quantifier": "all lists of objects in any state, programs (sequences of calls of any of them) and outcomes of calls", "why_tests_cant": "what one object leaves behind for another depends on the order of all calls in the process; tests use one object at a time", "anchors": ["src/OSEGD.cpp:assign_sample_writers", "src/ISEGD.cpp:assign_sample_reading", "src/OSEGD.cpp:write_trace_samples", "include/ISEGY.hpp:read_trace", "include/OSEGY.hpp:write_trace"]}
{"id": "C105", "title": "SEG-D files can be cut into their records", "statement": "A SEG-D file that can be read to its end is made of files of one record each, one behind the other. Each of these pieces can be opened and read by itself and gives the traces that the record gives in the whole file, as many as its channel sets announce. So records of any number of files can be picked, left out, repeated and put in another order, and the new file gives the traces of these records.", "quantifier": "all files of any number of records, in any revision and sample format, extension maps and choices of records", "why_tests_cant": "what an earlier record leaves in the reader matters only for some contents of later headers; tests read whole files of one or two records", "anchors": ["src/ISEGD.cpp:read_headers_before_traces", "src/ISEGD.cpp:read_trace", "src/ISEGD.cpp:has_record", "src/ISEGD.cpp:read_general_headers"]}
{"id": "C106", "title": "Order and sign of SEG-Y samples", "statement": "Samples that are written to a SEG-Y file in any supported sample format and read back keep their order: a sample that was not greater than another one is not greater after reading, so that peaks and troughs stay where they were. A sample with the other sign comes back with the other sign, so that reversing the polarity before writing is the same as reversing it after reading.", "quantifier": "all pairs of samples that are numbers (infinite ones included), all supported sample formats, both byte orders", "why_tests_cant": "The order has to hold for every pair of 2^64 doubles; it breaks only for pairs on both sides of a rounding boundary, next to powers of 16 in IBM format, or at the ends of the integer ranges.", "anchors": ["src/OSEGY.cpp:assign_sample_writer", "src/OSEGY.cpp:write_ibm_float", "src/ISEGY.cpp:assign_sample_reader"]}
{"id": "C107", "title": "Damaged bytes of a SEG-Y file", "statement": "If some bytes of a SEG-Y file are damaged, without changing its size, only what is stored in these bytes is damaged. The file can still be opened and all its traces are still found; texts, header values and samples whose own bytes are not damaged are read like from the sound file.", "quantifier": "all SEG-Y files, all ways to change any number of their bytes, all header maps, every trace of the file", "why_tests_cant": "There is no list of all damaged files; whether a wrong value in one place shifts or spoils what is read elsewhere is a claim about every byte of every file.", "anchors": ["src/ISEGY.cpp:read_trace", "src/ISEGY.cpp:read_header", "src/ISEGY.cpp:ISEGY", "src/ISEGY.cpp:read_ext_text_headers"]}
{"id": "C108", "title": "Damaged bytes of a SEG-D file", "statement": "If some bytes of a SEG-D file are damaged, without changing its size, only what is stored in these bytes is damaged. All records and traces are still found; header values and samples whose own bytes are not damaged are read like from the sound file.", "quantifier": "all SEG-D files of any number of records, in any revision and sample format, all ways to change any number of their bytes, all extension maps, every trace of the file", "why_tests_cant": "There is no list of all damaged files; whether a wrong value in one place shifts or spoils what is read elsewhere is a claim about every byte of every file.", "anchors": ["src/ISEGD.cpp:read_trace", "src/ISEGD.cpp:read_trace_header", "src/ISEGD.cpp:read_trace_header_ext", "src/ISEGD.cpp:read_trace_samples", "src/ISEGD.cpp:ISEGD"]}
{"id": "C109", "title": "Order and sign of SEG-D samples", "statement": "The samples of a trace that are written to a SEG-D file in any supported sample format, with any descale factor of the channel set, and read back keep their order: a sample that was not greater than another one is not greater after reading, so that peaks and troughs stay where they were. Reversing the polarity of a trace before writing is the same as reversing it after reading.", "quantifier": "all lists of samples (infinite ones included), all positive descale factors, all supported sample formats", "why_tests_cant": "The samples are divided, rounded to the format and multiplied again; whether the three roundings together can swap two samples is a claim about all pairs of numbers and all factors.", "anchors": ["src/ISEGD.cpp:read_trace_samples", "src/OSEGD.cpp:write_trace_samples", "src/ISEGD.cpp:assign_sample_reading", "src/OSEGD.cpp:assign_sample_writers"]}
{"id": "C110", "title": "Layout of written SEG-Y files", "statement": "At any moment, the file behind a SEG-Y writer consists of nothing but the first text header (3200 bytes), the binary header (400 bytes), the other text headers (3200 bytes each) and one piece per accepted trace, in the order of the calls. A piece is the 240 bytes of the header, in revision 2 files 240 bytes for each further header block (one less than announced, see C24), and the announced number of samples times the size of a sample in the format of the file. In files of traces of one length, trace k is therefore found at the position computed from the headers alone. Closing a revision 2 file always succeeds and adds the trailer stanzas, 3200 bytes each, if the binary header given announces any, and nothing otherwise.", "quantifier": "All three revisions, all constructor arguments with at most 65536 text headers that are accepted, and all sequences of accepted traces, of any number, whatever their headers and number of samples.", "why_tests_cant": "Needs an induction over every sequence of write_trace calls; a test fixes one file, and the automatic rewriting of the binary header at the first trace happens in the middle of the sequence.", "anchors": ["src/OSEGY.cpp:write_trace", "src/OSEGY.cpp:set_min_hdrs", "src/OSEGYRev2.cpp:~OSEGYRev2"]}
{"id": "C111", "title": "Sorting by several headers", "statement": "A SEG-Y file is sorted by several headers by sorting it once for each, the least significant first: each time the sorted reader is opened for one header and everything it reads is written to a new file. The last file has the headers of the first and the bytes of its traces, each exactly once, and gives the traces in the order by all these headers (the first header in which two traces differ decides); traces that agree in all of them keep the order of the first file.", "quantifier": "every file of revision 0, 1 or 2 whose headers and samples the library writes as it reads them, every non-empty list of header names of the map", "why_tests_cant": "the number of headers, the number of traces and all patterns of equal values are unbounded; it depends on every pass being stable", "anchors": ["src/ISEGYSorted1D.cpp:ISEGYSorted1D::ISEGYSorted1D", "src/ISEGYSorted1D.cpp:ISEGYSorted1D::read_trace", "src/OSEGYRev0.cpp:OSEGYRev0::write_trace", "src/OSEGYRev1.cpp:OSEGYRev1::write_trace", "src/OSEGYRev2.cpp:OSEGYRev2::write_trace"]}
{"id": "C112", "title": "Changing the sample format of a SEG-D file", "statement": "Reading a SEG-D file of one record to its end and passing everything the reader shows, with another sample format in general header 1, and every trace it returns to the revision 2.1 writer gives a file with the same headers but for the format and the same trace headers, whose samples are those of the first file as well as the new format can hold them: unchanged in double precision, to one part in 2^24 in single precision, cut to whole multiples of the descale factor in the integer formats.", "quantifier": "every SEG-D revision 2.1 file the library wrote whose values fit their fields, every sample format the writer accepts for both files, every number of headers, channel sets, traces and samples", "why_tests_cant": "all samples, descale factors and pairs of formats; the header of each trace has to pass through the reader and the writer unharmed", "anchors": ["src/ISEGD.cpp:ISEGD::read_trace", "src/ISEGD.cpp:assign_sample_reading", "src/OSEGD.cpp:assign_sample_writers", "src/OSEGDRev2_1.cpp:OSEGDRev2_1::OSEGDRev2_1", "src/OSEGDRev2_1.cpp:OSEGDRev2_1::write_trace"]}
{"id": "C113", "title": "Picking traces of a SEG-Y file", "statement": "Any choice of the traces of a SEG-Y file, in any order and with repetitions, can be written to a new file with the headers the reader shows: the new file is made of the headers of the first file followed by the bytes of the chosen traces as they are there, and reading it gives the chosen traces in the chosen order. Nothing of the other traces is left in it.", "quantifier": "every file of revision 0, 1 or 2 whose headers and samples the library writes as it reads them, every list of positions", "why_tests_cant": "the choices are unbounded in number and length; a buffer or a count that remembers a trace that was read or written before would only show for some of them", "anchors": ["src/ISEGY.cpp:ISEGY::read_trace", "src/OSEGYRev0.cpp:OSEGYRev0::write_trace", "src/OSEGYRev1.cpp:OSEGYRev1::write_trace", "src/OSEGYRev2.cpp:OSEGYRev2::write_trace"]}
{"id": "C114", "title": "Editing trace headers of a SEG-Y file", "statement": "A program that reads a SEG-Y file, sets trace header values and writes the traces with the headers the reader shows changes the bytes of the edited fields in the edited traces and no other byte of the file. Reading the new file gives the traces with the new values, the other values and the samples as they were.", "quantifier": "every file of revision 0, 1 or 2 whose headers and samples the library writes as it reads them, any number of edits of any traces", "why_tests_cant": "the combinations of fields, traces and values are unbounded; a write that reaches into a neighbouring field or a buffer that keeps bytes of another trace would only show for some of them", "anchors": ["src/ISEGY.cpp:ISEGY::read_trace", "src/Trace.cpp:Trace::Header::set", "src/OSEGYRev0.cpp:OSEGYRev0::write_trace", "src/OSEGYRev1.cpp:OSEGYRev1::write_trace", "src/OSEGYRev2.cpp:OSEGYRev2::write_trace", "src/OSEGY.cpp:OSEGY::write_trace_header"]}
{"id": "C115", "title": "The headers of a SEG-D record are read from their own blocks", "statement": "In a SEG-D record of any revision ISEGD reads every header from the block that belongs to it: the general headers, the additional blocks, the channel set headers of each scan type (32 bytes, 96 from revision 3 on), the extended and the external header blocks, skipping the skew blocks. It shows all of them in the order of the file, expects as many traces as the channel sets have channels, and stands in front of the first trace.", "quantifier": "every record with any number of additional blocks, scan types, channel sets, skew, extended and external header blocks, followed by anything", "why_tests_cant": "the numbers of blocks are unbounded and come from two general headers with escape values; one block too many or too few shifts everything behind it", "anchors": ["src/ISEGD.cpp:ISEGD::Impl::read_headers_before_traces", "src/ISEGD.cpp:ISEGD::Impl::read_general_headers", "src/ISEGD.cpp:ISEGD::Impl::read_ch_set_hdr"]}
{"id": "C116", "title": "Replacing the samples of a SEG-Y file", "statement": "A program reads a SEG-Y file, gives every trace new samples, and writes it with the headers the reader shows. In the new file every byte is as before except those of the samples, which encode the new samples. Reading it shows the same file headers, the same trace headers, and for every trace the new samples as the sample format can hold them, as many as were given.", "quantifier": "all files of revisions 0, 1 and 2, all sample formats, any number of traces, all lists of new samples", "why_tests_cant": "the place of each trace depends on all traces before it, and the new samples are arbitrary doubles", "anchors": ["src/ISEGY.cpp:ISEGY::read_trace", "src/OSEGYRev0.cpp:OSEGYRev0::write_trace", "src/OSEGYRev1.cpp:OSEGYRev1::write_trace", "src/OSEGYRev2.cpp:OSEGYRev2::write_trace", "src/OSEGY.cpp:OSEGY::Impl::write_trace_samples_fix", "src/OSEGY.cpp:OSEGY::Impl::write_trace_samples_var"]}
{"id": "C117", "title": "Replacing the samples of a SEG-D file", "statement": "A program reads a SEG-D file, gives every trace new samples, and writes the traces with the headers the reader shows, in the same sample format or in another. Reading the new file shows the same headers of the record, the same trace headers with all their extension values, and for every trace the new samples as well as the format keeps them, as many as were given.", "quantifier": "all records of the revisions the writer supports, all extension maps, all sample formats with whole bytes per sample, any number of traces, all lists of new samples", "why_tests_cant": "the samples are arbitrary doubles, the headers pass through the file twice, and the place of each trace depends on all traces before it", "anchors": ["src/ISEGD.cpp:ISEGD::read_trace", "src/OSEGD.cpp:assign_sample_writers", "src/OSEGDRev2_1.cpp:OSEGDRev2_1::OSEGDRev2_1", "src/OSEGDRev2_1.cpp:OSEGDRev2_1::write_trace"]}
{"id": "C118", "title": "Changing the file headers of a SEG-Y file", "statement": "A program reads a SEG-Y file and writes its traces under other text headers and another binary header with the same sample format, byte order and number of samples. The new file is the new headers followed by the bytes of the traces exactly as they were, wherever in the file they now begin. Reading it shows the new headers and the same traces.", "quantifier": "all files of revisions 0, 1 and 2, all old and new headers of the same kind, any number of extended text headers before and after, any number of traces", "why_tests_cant": "the headers have thousands of free bytes, their number moves all traces, and every trace passes through memory and back", "anchors": ["src/ISEGY.cpp:ISEGY::read_trace", "src/OSEGYRev0.cpp:OSEGYRev0::OSEGYRev0", "src/OSEGYRev1.cpp:OSEGYRev1::OSEGYRev1", "src/OSEGYRev2.cpp:OSEGYRev2::OSEGYRev2", "src/OSEGY.cpp:OSEGY::Impl::write_trace_samples_fix"]}
{"id": "C119", "title": "Merging SEG-Y files", "statement": "A program reads several SEG-Y files of the same sample format and byte order with the same trace header map, and writes all their traces, file after file, with one writer. The new file is the new headers followed by the bytes of all traces exactly as they were in the old files. Reading it shows the traces of the first file, then those of the second, and so on. The old files and the new file may be of different revisions.", "quantifier": "any number of files of revisions 0, 1 and 2 in any mixture, any number of extended text headers and traces in each, a new file of any revision", "why_tests_cant": "the number of files and their mixture of revisions are free, and each trace was cut out by the rules of one header and is put in by the rules of another", "anchors": ["src/ISEGY.cpp:ISEGY::read_trace", "src/OSEGYRev0.cpp:OSEGYRev0::OSEGYRev0", "src/OSEGYRev1.cpp:OSEGYRev1::OSEGYRev1", "src/OSEGYRev2.cpp:OSEGYRev2::OSEGYRev2", "src/OSEGY.cpp:OSEGY::Impl::write_trace_samples_fix", "src/OSEGY.cpp:OSEGY::Impl::write_trace_samples_var"]}
{"id": "C120", "title": "Collecting traces from several SEG-Y files", "statement": "A program opens several SEG-Y files of different revisions, byte orders, sample formats and trace header maps, picks traces from them in any order, some of them more than once, and writes them to one new file. If the sample format and the header map of the new file can hold the values, every trace of the new file shows the samples and header values of the trace it was made from.", "quantifier": "any number of files of any content, revision, byte order, sample format and map, any choice and order of traces, a new file of any revision", "why_tests_cant": "files of every kind can be mixed in every order, and each value must survive a change of its place, byte order and type", "anchors": ["src/ISEGY.cpp:ISEGY::read_trace", "src/OSEGYRev0.cpp:OSEGYRev0::OSEGYRev0", "src/OSEGYRev1.cpp:OSEGYRev1::OSEGYRev1", "src/OSEGYRev2.cpp:OSEGYRev2::OSEGYRev2", "src/OSEGY.cpp:OSEGY::Impl::write_trace_header"]}
{"id": "C121", "title": "One SEG-Y file from SEG-D and SEG-Y files", "statement": "A program reads field data from SEG-D files and processed data from SEG-Y files, and writes traces of both kinds, in any order, to one new SEG-Y file of IEEE samples. No trace is refused, and every trace comes back with the values its fields can hold. A trace of a SEG-Y file comes back the same if format and map hold its values, whatever stands before and after it, and in double precision the samples of every trace come back the same.", "quantifier": "any number of SEG-D and SEG-Y files of any content, any choice and order of traces, a new file of any revision", "why_tests_cant": "the traces carry headers of different origins, with different names and types of values, and can be mixed in every order", "anchors": ["src/ISEGD.cpp:ISEGD::read_trace", "src/ISEGY.cpp:ISEGY::read_trace", "src/OSEGY.cpp:OSEGY::Impl::write_trace_header", "src/OSEGYRev0.cpp:OSEGYRev0::OSEGYRev0", "src/OSEGYRev1.cpp:OSEGYRev1::OSEGYRev1", "src/OSEGYRev2.cpp:OSEGYRev2::OSEGYRev2"]}
{"id": "C122", "title": "Chains of conversions of a SEG-Y file", "statement": "A SEG-Y file is read and written as a second file of another kind, that one is read and written as a third, and so on, any number of times. If every sample format can hold the values of the one before and every header map those of the one before, no step fails and the last file shows the traces of the first, with the same samples and header values.", "quantifier": "all files of any content, chains of any length, every file in the chain with its own revision, text headers, byte order, sample format and header map", "why_tests_cant": "the length of the chain is not bounded, and every link can be any combination of revision, format, byte order and map", "anchors": ["src/ISEGY.cpp:ISEGY::read_trace", "src/OSEGYRev0.cpp:OSEGYRev0::OSEGYRev0", "src/OSEGYRev1.cpp:OSEGYRev1::OSEGYRev1", "src/OSEGYRev2.cpp:OSEGYRev2::OSEGYRev2", "src/OSEGY.cpp:OSEGY::Impl::write_trace_header"]}
