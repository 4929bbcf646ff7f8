# Formal model of andalevor/sedaman in Lean 4

sedaman is a C++ library that reads and writes the seismic formats SEG-Y (rev 0, 1, 2)
and SEG-D (rev 2.1 and parts of rev 3). The model follows the C++ sources function by
function; every definition cites the file and lines it models.

## How the model is built

- **Bytes** are `BitVec 8`; files and buffers are `List Byte`. Integers are `Int`/`Nat`
  together with an explicit width where the code uses a fixed-width type: storing reduces
  modulo 2^(8n), loading sign-extends. Arithmetic that can wrap in the code (e.g. the
  32-bit sums of the map check) is written with the wrap.
- **Outcomes** are `Except Err α`. `Err.exn` is a thrown C++ exception, `Err.ub` is
  undefined behaviour (out-of-bounds access, dereferencing an empty optional or an end
  iterator, out-of-range floating-to-integer conversion). A theorem that claims success
  therefore also claims absence of UB.
- **Files** are a byte list plus a position. `read` of more bytes than available throws
  (the library enables stream exceptions), `seekg` may go past the end without an error,
  `write` overwrites and extends.
- **Doubles** are 64-bit patterns. A small exact layer decodes a pattern to `±m·2^e` and
  rounds to nearest even; no Lean `Float` is used anywhere.
- **std::map** is a list kept sorted by key (maps are passed in iteration order),
  **std::unordered_map** is an association list whose order is not observable.
- **libm** `log` is an abstract parameter, used for the exponent estimates of the IBM float encoder and of the
  packed SEG-D sample writers (`PackEst`). The C68 theorems about values assume that the estimates are exact
  (`Spec.PackEstOk`, shown satisfiable by `packEst_exists`); the theorems about buffers assume nothing.
  For the IBM encoder `Model/LogLib` computes the estimate from `log` as the code does, one rounding per
  operation; C99 and the C12 theorems that mention `UsesLog` assume of `log` only `Spec.AccurateLog` (an error
  of at most 0.6 units of the last place, as glibc states, and log(2) rounded to the nearest `double`).
- The static array of pending samples in the SEG-D writer of format 8015 belongs to the process. The model
  keeps it in the writer, so it assumes that no other SEG-D writer of the process uses format 8015.

## Trusted base

- Lean's kernel and the axioms `propext`, `Classical.choice`, `Quot.sound`. No own axioms,
  no `sorry`, no `native_decide`, no `bv_decide`.
- The reading of the C++ sources that the model records (sources are not executed).
- Host platform assumptions: little-endian (except in C90, which compares the two kinds of hosts), two's complement, 8-bit `char` (signed),
  IEEE-754 `float`/`double` with round-to-nearest-even, `long`/`size_t` of 64 bits.
- What a compiler makes of converting a `double` that does not fit an unsigned type is undefined behaviour in the model
  unless a theorem assumes otherwise (C91). The descriptions of x86-64 and ARM64 in `Spec/Platform` are
  our reading of the instruction sets and of the code GCC generates. Only the writers of SEG-Y samples and IBM
  floats have this parameter; in the SEG-D writers such a conversion is always undefined.
- The operands of `read(..) | read(..) << 16` in the 24-bit readers are evaluated left to
  right (the standard leaves the order unspecified).
- Padding bytes of `BinaryHeader` compare equal in the `memcmp` against a zero header.
- libstdc++ `fstream`: joint get/put position, seeking past the end is allowed, short reads
  raise an exception. A device that refuses bytes is modelled for the writers (`Model/Stream`, C93, with the assumptions on
  `fstream` stated there); read errors and concurrent modification are not.
- Memory allocation failure is modelled only where a negative size reaches `resize`
  (an exception).

## Not modelled

- `tests/`, CMake files. Of `src/pybind/pybind.cpp` only the tables of attributes, methods,
  constants and value types (C67), the lambdas for iteration (C77), and texts, header values and the
  constructors of SEG-Y writers (C94, with the conversions of pybind11 as assumptions) are modelled, not
  pybind11 itself, and numpy arrays.
- The rounding of a `double` that is not the IEEE one: the branches for such hosts are modelled with exact arithmetic (`Model/FloatAny`, C85), everything else assumes the IEEE `double`.

## Plan per property

- **C01 BCD encode/decode round-trip** — util.hpp model (Verif/Util.lean): nibble cursor reader and bit-level double dabble on a bounded bit set; round-trip from C02 and C03.
- **C02 to_bcd writes exactly the low decimal digits and touches nothing else** — Invariant of the double-dabble loop by induction over the bit count; digits of the shifted prefix in base 10.
- **C03 from_bcd value law** — Induction over the nibble list.
- **C04 Raw integer write/read round-trip** — Two's complement little-endian object representation plus `swap` as byte reversal; generic width lemma, instantiated per reader/writer.
- **C05 Byte order marker semantics** — Reader/writer configuration as a function of the marker returning an outcome; case split over all markers.
- **C06 EBCDIC/ASCII conversion is lossless** — 256-entry tables, `decide +kernel` over the table lifted to all strings by induction.
- **C07 Binary header round-trip** — Sequential writer (byte concatenation) against cursor parser; rewriting with the per-field round-trip lemma. The marker 0x04030201 is expected to fail: counterexample theorem.
- **C08 Binary header disk layout follows the SEG-Y standard** — Separate specification table (offset, width, field) from the SEG-Y standard; slice lemma.
- **C09 Sample format table is consistent** — Functions of the format code; lengths of encoded samples.
- **C10 Integer sample formats preserve representable samples** — Doubles are 64-bit patterns with an exact dyadic reading; integer conversion both ways. Negative samples in signed formats go through a double-to-unsigned conversion: UB outcome, counterexample.
- **C11 IEEE sample formats** — Generic binary floating format codec with round-to-nearest-even; exactness lemma.
- **C12 IBM floating point samples** — Exact dyadic reading of IBM words; log() is a parameter with a stated accuracy assumption; zero is a UB outcome.
- **C13 Accepted trace header maps are safe** — Model of check_tr_hdr_map with 32-bit arithmetic; soundness for non-first entries, counterexample for the first entry and for wrap-around.
- **C14 The default trace header map** — Finite table, `decide +kernel`.
- **C15 Trace header write/read round-trip** — Random access buffer writes/reads with UB on out-of-range; disjoint field lemma, induction over the map.
- **C16 Trace header block is exactly 240 bytes and unmapped bytes are zero** — As C15.
- **C17 Floating-point header values survive** — Expected to fail (bad_variant_access): counterexample and the integer part as partial.
- **C18 read_header and read_trace are interchangeable for navigation** — File cursor model, case split fixed/variable.
- **C19 Iteration visits every trace exactly once** — Induction over the number of traces.
- **C20 SEG-Y revision 0 end-to-end round-trip** — Composition of C07, C10-C12, C15, C19.
- **C21 SEG-Y revision 1 end-to-end round-trip** — As C20 with extended text headers and both length modes.
- **C22 SEG-Y revision 2 end-to-end round-trip** — As C21.
- **C23 Trailer stanzas round-trip** — Expected to fail for positive counts (seek past the end); partial theorem for count -1 in variable length files.
- **C24 Additional trace headers round-trip** — Expected to fail (off by one): counterexample, partial for no additional headers.
- **C25 Text header size validation** — Decision logic.
- **C26 Default text headers** — Exact evaluation on the 3200 byte constant; revision 0 expected to fail.
- **C27 Automatic binary header** — Writer state machine; induction over traces.
- **C28 Automatic headers end-to-end** — As C20.
- **C29 Stored samples come from the trace being written** — Buffer model with UB outcome on overflow; counterexamples for too many / too few samples; partial for equal counts.
- **C30 Extended text headers are delimited correctly** — Induction over records; the writer part fails (count set after the header is written).
- **C31 User supplied binary header overrides the file** — Reader initialisation model.
- **C32 Samples per trace decision** — Decision logic.
- **C33 First trace position** — Reader initialisation model.
- **C34 Truncated files are reported** — File read outcome.
- **C35 Reading makes progress** — Expected to fail for negative SAMP_NUM: counterexample; partial for non-negative counts.
- **C36 Writing appends** — Writer state machine invariant.
- **C37 Sorted reader visits a permutation in key order** — Refinement of the index/cursor machine to a sorted stable list.
- **C38 Sorted reader keys** — As C37.
- **C39 Sorted reader queries** — As C37.
- **C40 Queries do not disturb iteration** — Induction over call histories.
- **C41 Sorted reader error cases** — Outcome analysis; empty file is UB.
- **C42 Trace::Header behaves like a map** — Association-list model refined to functions.
- **C43 Exception message** — String model; copy constructor dereferences a null pointer: UB counterexample.
- **C44 SEG-D general header 1 round-trip** — Parser/writer pair.
- **C45 SEG-D general header 2 (rev 2) round-trip** — Parser/writer pair.
- **C46 SEG-D additional general header round-trip** — Parser/writer pair.
- **C47 SEG-D channel set header round-trip** — Parser/writer pair.
- **C48 SEG-D trace header round-trip** — Parser/writer pair.
- **C49 SEG-D large file, channel set and channel numbers** — Case analysis; the channel number is expected to be lost above 9999.
- **C50 SEG-D sample codecs** — Sample codecs on dyadics.
- **C51 SEG-D writer trace limit** — Writer state machine.
- **C52 SEG-D reader trace counting** — Reader state machine.
- **C53 SEG-D trace header extensions** — Buffer model; 32 bytes are written into a 20 byte buffer: UB counterexample.
- **C54 Built-in SEG-D extension maps** — Finite table.
- **C55 Copying a revision 0 file reproduces it byte for byte** — Composition, inverse direction of C20.
- **C56 Field name tables are complete** — Finite table.
- **C57 SEG-D field name tables are complete** — Finite tables generated from the source.
- **C58 Trace header descriptions** — Finite table; fails for five names and one text.
- **C59 SEG-D revision 2.1 end to end** — Composition of the SEG-D header, extension, trace header and sample round trips along the cursor of the reader; induction over blocks, channel sets and traces.
- **C60 SEG-D revision 3 general header blocks** — Table of block layouts; case analysis over the 24 codes. The sensor block is expected to be read beyond its end and the source blocks report another byte: counterexamples, partial for the rest.
- **C61 SEG-D getters describe the current record** — Reading the headers at a position compared with opening the remaining file. Fails for the block map, which is never cleared: counterexample, partial for the other getters.
- **C62 A failed SEG-D write leaves the file unchanged** — Writer state machine. Fails: the trace header is written before the extension is checked; partial for the calls that throw on the count or on values of the wrong kind, for whole histories by induction over the calls: such calls leave the writer as it was, so the state after all calls is that after the accepted ones.
- **C63 SEG-D revision 3 general headers 2 and 3 round-trip** — Exact bytes of the written block, then the reader on those bytes. Fails: the reader does not skip the extended record length, general header 3 is never written; partial with the exact value of every misread member.
- **C64 SEG-D revision 3 typed blocks round-trip** — Generic encoder over the block descriptions used for C60; partial for the twelve block classes whose members survive, induction over the block map. Fails for name and source blocks (wrong type byte) and the sensor block (buffer overflow).
- **C65 SEG-D revision 3 channel set header round-trip** — Exact bytes, then the reader. Fails for five members; partial with the exact value of each, fractions and negative multipliers shown separately.
- **C66 Traces and headers are values** — Heap of map and vector cells with explicit freed state; simulation invariant against a machine that holds the values directly, induction over the history.
- **C67 Python attributes and methods** — Tables of attributes, methods and data members copied from the sources; generic get/set laws for tables whose attributes name their own member. Fails for five attributes, six members, two methods and two value types: exact lists, partial for the rest.
- **C68 SEG-D samples with packed exponents** — Exact binary64 arithmetic of the encoders with the logarithm as a parameter; partial for 8044 above 1/256. Fails for the other formats and for small samples and zero: theorems that give the bytes written instead.
- **C69 Files from elsewhere** — Undefined behaviour is a separate outcome of the model; composition lemmas show that no step produces it, fuel lemmas that the record loops end. Partial: fails when a product of header values leaves `int` (trace size, trailer size) and for 2^31-1 announced additional headers; witnesses given.
- **C70 SEG-D files from elsewhere** — As C69, for the SEG-D reader: each reading function is shown to need no more bytes than its buffer has, for every content. Partial: sensor blocks of revision 3, scan type and channel set numbers the record does not have, the packed sample formats, more extensions than maps and 2^32 bits of samples are undefined behaviour; witnesses given.
- **C71 SEG-D writer arguments** — The outcome of the constructor model is determined completely for headers that can be encoded: returns, throws, or undefined. Partial: missing or short header blocks are read past their end, surplus blocks are dropped silently; both proved as families.
- **C72 SEG-D file layout** — A lemma that no statement on the output cursor changes the size of its buffer, for every header writer and sample writer; then induction over scan types, blocks and traces.
- **C73 SEG-Y writing after a refused trace** — A second model of write_trace returns the writer also after an exception; it is proved to agree with the first on all outcomes. Then a simulation between the history with and the history without the refused traces, by induction over the calls. Partial: a negative count, or a floating point value in an additional header block, is noticed after the first header block is in the file; both shown by theorems.
- **C74 SEG-Y reading after an exception** — A second model of reading returns the reader with the failbit of its stream also after an exception; it is proved to agree with the first up to the first failure. Then: a failed stream stays failed for every later call (induction over the calls), and in a fixed length file every failure is one of the stream. Partial: in a variable length file a negative count throws length_error and leaves the stream behind the header, so the next call takes samples for a trace header; shown by a theorem and a file.
- **C75 SEG-D reading after an exception** — A second model of the SEG-D reader returns the members and the failbit also after an exception (channel sets appended one by one, counters raised before the next block is read); it is proved to agree with the first up to the first failure by a simulation relation. Then: a failed stream stays failed, and with an extension map that stores the counts as integers the only other exception is an unsupported format of the next record, after which has_trace is false. Partial: a map with a floating count lets the next call take samples for a header (file given); a call without asking has_trace after an unsupported format is undefined (file given). Also shown: has_trace can stay true for ever after a failure.
- **C76 SEG-D traces do not depend on what follows them** — Locality: every reading function, if it succeeds and leaves the position at p, gives the same on any file with the same first p bytes (one lemma per function, composed by a bind lemma, induction over loops and calls). Partial: the last trace of a record is returned only after the headers behind it are read, so fewer than 32 further bytes make the call throw and lose the trace; proved for every such file.
- **C77 Iteration in Python** — The three lambdas bound as __next__ are one model function over the has and read functions of each reader; a Python for loop is the relation that calls it until it raises StopIteration. Induction over the traces shows that the loop and the C++ loop are the same for ISEGY and ISEGYSorted1D. The lambda of ISEGD asks has_record instead of has_trace: proved equal for files without empty records whose last record is complete; with concrete files: an incomplete last record ends the Python loop silently, an empty record leads to undefined behaviour.
- **C78 Sorted reading after an exception** — The sorted reader on top of the model of ISEGY that keeps its state after an exception. The functions of ISEGY are shown not to look at curr_pos and to change only file position, curr_pos and buffer length, also when they throw; so after the seekg of the sorted reader a call gives the same as in the first model whatever failed before (simulation relation, induction over the calls). For the exceptions: the position where the data end lies in the file, a scan that once left the file never comes back, so all traces the constructor met lie in the file, and only the resize of the sample buffer is left to throw. Also shown: a loop over has_trace that catches and calls read_trace again never ends.
- **C79 Changing the sample format** — A table of the formats that keep all samples of each format; a theorem says that it is exactly right. Kept: by the round trips of C10 and C11 and the exactness of small integers as singles. Lost: a sample for each of the other pairs, evaluated by the kernel in all byte orders, and undefined for zero in format 1. The table has fewer pairs than the property wants: negative integers cannot be written in any integer format. Lifted to all traces of all files and, with C20, to a whole file that is rewritten.
- **C80 The trace header map only says what to report** — Specification of what a map makes of bytes: for each name the value of the last field of that name, found at 240 times the block plus the offset. Induction over the fields and blocks shows that the headers of `read_trace` and `read_header` are exactly that. Opening with two accepted maps gives the same result apart from the map. Samples and iteration agree if all traces have one length or `SAMP_NUM` is the same field in both maps; a map without `SAMP_NUM` is a counterexample.
- **C81 SEG-Y files that are cut short or still grow** — Two files with a common start: opening and the reads that end in it are the same, by induction over the records, header blocks and traces, each of which reads bytes of the common start only. A cut file is the special case of a prefix; the read that reaches behind its end throws, shown by following each read of the trace. Needs that there are no trailer stanzas; counterexamples for trailer stanzas and for `read_header`, which does not look at the samples.
- **C82 Copying revision 1 and 2 SEG-Y files** — As C55: the binary header is rewritten (C07), each trace is the block a writer produces for some trace (constructed from the bytes), so the file is what a writer produces and C21, C22 and C23 say how it is read; writing what was read produces the same blocks. Without additional trace headers, with stanzas only in the delimited form for traces of variable length, and without a gap in front of the first trace; the other cases have counterexamples.
- **C83 Sorting a SEG-Y file** — C37 for the order, C55 and C82 for the bytes: each trace is read from its chunk, wherever the chunk lies, so a permutation of the traces is a permutation of the chunks; the writer produces the permuted chunks and the reader visits them in their new order. Two stable sorts of the same list are equal, hence sorting again changes nothing. For the files of C55 and C82 that have a trace; a file without traces is undefined behaviour (C41_empty_undefined).
- **C84 Copying a SEG-D file** — C59 says what the reader returns. The second writer gets arguments that differ only in members that are not written (the four of general header 2, the number of samples of a channel set) and in the order of the additional headers, which the map sorts again; header values that come back differ from the written ones only where the field stores the same bytes (zero for a value that was not set, the reduced integer, the line number as double). Each function of the writer is shown to depend on nothing else, and the writers are compared state by state. Conditions as in C59; counterexamples for bytes the library does not know and for a general trailer.
- **C85 IEEE numbers on hosts without IEEE double** — The branch for other hosts with exact (rational) arithmetic, since nothing is known about the double of such a host. Reading is compared with the decoder of IEEE patterns field by field, for every width of fraction and exponent, then for 23/8 and 52/11 bits; it is right exactly for normal numbers. The writer adds one to the exponent, so for every number of the normal range the bytes stand for a greater number, proved from the floor of the logarithm.
- **C86 A program that is stopped while it writes a SEG-Y file** — The calls of file.write of the constructors, of write_trace and of the destructor in the order of the code, each with its position. What is on disk after k bytes is a fold over single bytes. It is proved that all of them together give the file of the writer model (also when an automatic binary header is stored again in front), that without that rewriting the disk always holds a prefix of the file, and then, with the results about cut files (C81) and about reading back (C20-C23, C28), which traces come back for every k. With trailer stanzas the property is false for every k before the last byte.
- **C87 A program that is stopped while it writes a SEG-D file** — The SEG-D writer only appends, so the disk holds a prefix of the file of the writer model. A relation between reading a file and reading its first k bytes (the same result or a stream exception, and the exception as soon as bytes beyond k are needed) is proved for every function of the reader; seeks over skew blocks are the exception and give a counterexample. Together with the single trace round trips of C59 this says for every k what comes back. Programs that go on after refused traces are reduced to the accepted traces by C62.
- **C88 SEG-D files of several records** — A simulation relates a reader of one file to a reader of the joined file that is the length of the earlier files further on: same current record, same place, same revision and channel sets. It is kept by reading a trace and by moving to the next record when the record has general header 2, so the traces are the same; the end of one file in the joined file is where the headers of the next are read. Induction over the list of files; with the single trace round trips of C59 also for written files. Counterexamples: a record without traces hides the records behind it, a record without general header 2 takes counts from the record before it.
- **C89 Byte order of SEG-Y files** — Every number reader is a function of the number its bytes make in the byte order, and reversed bytes make the same number in the other order. The parse of the binary header is followed field by field with the two places side by side; the fields of the map by induction over blocks and fields, the samples by induction over the pieces. Opening the second file is then derived from opening the first, and the traces follow by the loop theorem of C19. With stanzas behind traces of variable length the walk of the constructor over the traces is followed as well. Counterexample: behind traces of fixed length trailer stanzas are looked for among the samples, whose bytes differ.
- **C90 Computers of either byte order** — The functions that look at object representations (read, write, swap, the two sets of raw readers and writers, the SEG-D samples that ask for the host order) are modelled once more with the byte order of the host as a parameter. Swapping is the same function on both hosts, so every reader of 1, 2, 4 or 8 bytes equals the reader of the little-endian model for the byte order of the file; integers of three bytes equal it with their first two bytes exchanged. Counterexamples: three bytes, files without marker, the marker 0x04030201, SEG-D write_i32 (never assigned on a big-endian host), format 9036.
- **C91 Negative integer samples and IBM zeros on real computers** — The platform parameter of the sample writers contains, besides the logarithm, what the computer makes of a conversion that C++ leaves undefined (or nothing). Spec/Platform states two assumptions, wrapping negative numbers and zero bits for minus infinity, and describes the code of GCC for x86-64 and ARM64. From wrapping follow the round trip of every integer, byte for byte copies of integer files (C55 without its condition on samples) and the conversion between signed formats; x86-64 is shown to wrap. On ARM64 negative samples become zero: the negation is proved for every negative sample.
- **C92 A written file is reproduced when it is read and written again** — A sample is called stable if it can be written and the bytes it is stored as are rewritten by the library (Rewrites, from C55). For each sample format we prove which samples are stable; for files, the round trip theorems C20 to C22 give the traces that are read, whose header blocks and samples are encoded as the same bytes. The exactness of the logarithm is a hypothesis for IBM samples. Negations: floating point header fields, revision 2 fields in a header of lower revision, a logarithm rounded up.
- **C93 A device that stops accepting bytes** — Model/Stream models the stream as a buffer that hands over bytes according to an arbitrary schedule, within a limit on the number of bytes kept back, to a device that accepts some number of bytes. An invariant over the calls says which bytes are on disk, how many are kept back, and when the stream is bad. With it, what is on disk at the end is what is on disk in a program that is stopped (C86, C87), and we prove which programs throw, end normally, or are terminated. Negations: all calls return although bytes (in a small file, all) were refused; the destructor of OSEGYRev2 throws, which terminates the program.
- **C94 Texts and header values in Python** — The bindings are modelled as the C++ functions with the conversions of pybind11 around them (UTF-8 for str, bytes as they are, the alternatives of a variant in order); these conversions are assumptions. UTF-8 encoding and decoding are proved inverse to each other; then texts that get to Python come back as the same bytes. Negations: stanzas in EBCDIC raise UnicodeDecodeError, a str with a character that is not ASCII is refused as header, integers from 2^63 on become floats.
- **C95 Memory is bounded by the size of the file** — The bytes a reader keeps are counted: texts, stanzas and the buffer for samples (SEG-Y), extended and external headers (SEG-D). Bounds by invariants over all calls, with or without exceptions. Negations: the buffer is sized by a 32-bit count of the binary header at opening and by a 32-bit count of a trace header before the samples are read (2 GB and 16 GB from files of a few kilobytes); the size in 32 bits of formats 8022 and 8042 gives traces of 2^29 samples from one byte. Memory is taken to be unlimited (`bad_alloc` is not modelled).
- **C96 SEG-D files keep samples as well as the format can** — End-to-end law over whole files: the theorems of C59 with the exactness of the samples replaced by a relation between sample and sample read, and the error of a division by a power of two, a rounding to single precision or a truncation, and a multiplication bounded in rational numbers. Negations: samples above the range of single precision come back as infinity, below as zero; negative samples in big endian integer formats are undefined; packed and three byte little endian formats (C50).
- **C97 SEG-D traces can be written to SEG-Y files** — Invariant of the SEG-D reader by induction over extension blocks and fields: the header of any trace of any file has only the names, kinds and ranges of a small table. With it the end-to-end laws of C20 to C22 apply to SEG-D traces. Negations, each for all files: the receiver coordinates of Sercel extensions are refused by the default map, a writer without explicit headers accepts no SEG-D trace, a trace without extension blocks is refused by files of variable length, more than 32767 samples are not kept in the header.
- **C98 SEG-Y traces can be written to SEG-D files** — C80 says which names a SEG-Y trace has; the end-to-end law of C59 then applies to the trace with the channel set, one extension block and the number of samples added. Negation for all files: without these additions every SEG-D writer refuses the trace, reading an empty optional. Counterexamples: large channel numbers and negative file numbers.
- **C99 Samples in IBM format, the default, keep six digits** — The expression for the exponent is modelled operation by operation in double, with the logarithm a parameter that is only known to be accurate (a statement about real logarithms, shown satisfiable). Rounding is monotone, so the exponent of every number between two powers of 16 follows from a table of exponents at points next to the powers, evaluated in the kernel. The end-to-end laws of C20, C21, C22, C28 and C55 then need no assumption about the estimate. Negations: small powers of 16 are stored as zero, numbers just below 16^63 are undefined behaviour.
- **C100 What a trace becomes in the file depends on that trace alone** — Spec/Locality.lean says which byte of a trace belongs to which header value or sample. Every successful call is shown to add header block, additional blocks and samples as functions of the trace (Lemmas/Locality.lean); a byte that differs is traced back to a field or sample that differs. File level: one function gives the bytes of every trace in every history. Shorter traces than announced are the counterexample.
- **C101 SEG-Y files can be cut between traces and put together** — The converse of C19: whatever was read as a trace is a piece of the file that is read the same on its own (Lemmas/Pieces.lean). Joining, splitting and choosing follow from the equivalence. Files with trailer stanzas are the counterexample that the condition is needed.
- **C102 Changing revision, byte order and header map of a SEG-Y file** — Spec/Rewrite.lean says when a file was read to its end and when one list of header fields holds the values of another. C80 gives the header values of any trace that was read, hence their ranges; C79 the samples; C20, C21 and C22 the way through the new file (Lemmas/Rewrite.lean). Floating point header fields, which no writer accepts, are the counterexample.
- **C103 What a trace becomes in a SEG-D file depends on that trace alone** — Spec/SegdLocality.lean lists the places of header values and says which bytes belong to which part of a trace. The writer is split into functions of the trace for header, extension blocks and samples (Lemmas/SegdLocality.lean); that the sample buffer is filled, or holds zeros behind its first byte, is an invariant of all histories. The static array of format 8015 and the one-byte formats are the counterexamples.
- **C104 Objects do not influence each other** — Model/Process.lean: a list of objects and the one static array that calls change. Induction over the program: a call leaves the other objects as they are, and the array too unless the object writes format 8015 (Lemmas/Process.lean). Two writers in this format are the counterexample. Threads that run at the same time are not modelled.
- **C105 SEG-D files can be cut into their records** — Converse of C88. Lemmas/SegdSplit.lean: a reader in the middle of a file and a reader of the file that starts at the record stay abreast; the first record of a file is split off (gives_first), induction over the traces. Records that are not on their own (without general header 2, escape values) are the counterexample.
- **C106 Order and sign of SEG-Y samples** — The number held by a double (rational or infinite) gives the order. Rounding to `float` is proved monotone from the bit patterns: over a common exponent the rounded significand grows with the significand, and a larger exponent gives a larger pattern. Integer formats: truncation and rounding to `double` are monotone. IBM: the fraction is truncated, so the order is kept when both exponents are exact, and with an accurate logarithm except next to powers of 16, where a pair of samples is shown that changes places. Sign: the bit patterns of a value and its opposite differ by 2^63, and this is followed through both conversions. Negative samples in integer formats are undefined behaviour, and large values wrap: shown by counterexamples.
- **C107 Damaged bytes of a SEG-Y file** — Two files of the same size; `Agree` says in which bytes they agree. Opening depends on the binary header and the file size only, texts are cut out at fixed places. By induction over the traces the reader is at the same place in both files as long as the lengths of traces do not depend on damaged bytes, and each header value and sample is a function of its own bytes (from C80 and the decoding of samples). Counterexamples in the model show what damage does in the number of samples of a variable length trace, in the end mark of uncounted texts and in the binary header. Files with trailer stanzas are left out.
- **C108 Damaged bytes of a SEG-D file** — Two files of the same size; `Agree` says in which bytes they agree. Every function of the reader depends only on the bytes between the position before and after it, so headers of records that are not damaged are read alike. By induction over the traces, also over the ends of records, the reader is at the same place in both files as long as channel set numbers, the number of extension blocks and the blocks themselves are not damaged; each value of the trace header and each sample is a function of its own bytes. Counterexamples show damage in the number of the channel set (undefined behaviour), in the number of samples (the following traces are lost) and in formats 8022 and 8042 (the first sample byte stands for all samples).
- **C109 Order and sign of SEG-D samples** — Rounding to single and double precision is monotone (from C106); multiplication by a positive double is exact before rounding, and the quotient of the model keeps enough digits to be monotone in the dividend before rounding. The composition is lifted from one sample to the lists of samples written and read by the library. Signs go through all three operations unchanged. Formats 8036, 8038 and 9038 keep the order of numbers in their range; counterexamples: negative and large numbers in 8036 and 8038, and format 9036.
- **C110 Layout of written SEG-Y files** — A specification of the layout (LaidOut) that names the pieces and their lengths; induction over the history of accepted traces from what one step appends (C36) and from the automatic headers of the first trace, which replace bytes 3200 to 3600 only. The positions in files of fixed length traces and the bytes added on closing follow.
- **C111 Sorting by several headers** — The order by several headers and its stable sort are specified by themselves (LexBefore, LexSort). A stable sort by one header of a list stably sorted by others is one by all of them; induction over the list of headers, with C83 for each pass, whose output again meets the conditions of C83.
- **C112 Changing the sample format of a SEG-D file** — The first file by C96. The traces that were read are written like the original traces with the samples that were read (the argument of C84), so C96 in the new format gives the second file.
- **C113 Picking traces of a SEG-Y file** — The lemmas of C83 relate the bytes of each trace, the trace that is read from them and the bytes that are written for it. The relation holds for every choice of positions (induction over the choice).
- **C114 Editing trace headers of a SEG-Y file** — The bytes of a trace and the trace that is read from them are related by the lemmas of C83. An edit of the trace and the replacement of the bytes of the field keep that relation (the fields of an accepted map do not overlap), so by induction any list of edits does; the written file then follows as in C113.
- **C115 The headers of a SEG-D record are read from their own blocks** — A specification takes the headers as a list of blocks with the sizes and numbers the general headers announce. Induction over the additional blocks, the channel sets, the scan types and the raw blocks shows that the reader has exactly the following block before it each time.
- **C116 Replacing the samples of a SEG-Y file** — The traces read are those of the bytes (C55, C82). Changing the samples keeps the header block, so the chunk written for the trace is the old 240 bytes and the new encodings; the lengths stay known to the reader. Reading the new pieces gives the headers again, because all their values fit, and each sample as the format stores it.
- **C117 Replacing the samples of a SEG-D file** — The proof of C112 with the samples of the first reading replaced by any others of the same number: a trace header that came back writes the same bytes as the one it came from, so the second file is the one that would have been written from the original headers and the new samples, and C96 says how that one is read.
- **C118 Changing the file headers of a SEG-Y file** — The traces read from the pieces (C55, C82) write the same pieces under any header with the same format, order and lengths; the new file is then read like the old one, with the new headers in front.
- **C119 Merging SEG-Y files** — Each piece of bytes gives one trace whose length is told by the headers of the old and of the new file. Induction over the files reads all of them; the pieces of all files are then written and read as one file (C55, C82).
- **C120 Collecting traces from several SEG-Y files** — Each trace read from any file can be stored in a format and map that hold the values of the file (C79, C102), whatever was stored before it (C20, C21, C22).
- **C121 One SEG-Y file from SEG-D and SEG-Y files** — Traces of SEG-D files can be stored in IEEE formats under maps of integers (C97), traces of SEG-Y files in formats and maps that hold their values (C120); the file of both is read back by C20, C21, C22, trace by trace.
- **C122 Chains of conversions of a SEG-Y file** — Induction over the chain. What makes a trace storable in the next file (C79, C102) depends only on its samples and on the values under its names, which each step keeps; formats that keep values compose.

## Which parts of the code are modelled

| Source | Model modules |
|---|---|
| `include/util.hpp` and the BCD, byte order and raw read/write helpers of the base classes | `Model/Util`, `Model/RawIO` |
| EBCDIC tables | `Model/Ebcdic` |
| IEEE and IBM floating point conversion, sample codecs of SEG-Y | `Model/Float`, `Model/Samples` |
| `CommonSEGY` (binary header, default map, map check, text headers, descriptions, names) | `Model/BinHeader`, `Model/HdrMap`, `Model/TextHdr`, `Model/Names`, `Model/Description` |
| `ISEGY` | `Model/TraceHdr`, `Model/File`, `Model/ISEGY`, `Model/ISEGYFail` |
| `OSEGY`, `OSEGYRev0`, `OSEGYRev1`, `OSEGYRev2` | `Model/TraceHdr`, `Model/OSEGY`, `Model/OSEGYFail` |
| `ISEGYSorted1D` | `Model/Sorted1D`, `Model/Sorted1DFail` |
| `Trace`, `Trace::Header` | `Model/HdrMap`, `Model/TraceObj` |
| `Exception` | `Model/Exception` |
| `ISEGD` (headers, records, traces, samples, revision 3 blocks) | `Model/SegdCur`, `SegdGen`, `SegdChSet`, `SegdTrace`, `SegdExt`, `SegdSample`, `SegdRev3`, `SegdReader`, `SegdFail` |
| `OSEGD`, `OSEGDRev2_1` | the same, and `Model/SegdWriter` |
| revision 3 member functions of `OSEGD` (no public class uses them yet) | `Model/SegdRev3W` |
| sercel extension maps | `Model/Sercel` |
| the conversion of IEEE numbers for hosts without IEEE `double` | `Model/FloatAny` |
| the order in which SEG-Y writers hand bytes over, for programs that are stopped (a stopped process: bytes get to the file in the order of the calls; loss of power, and writes reordered by the operating system, are not considered) | `Model/OSEGYDisk` |
| attribute and method tables, iteration, texts and header values of `src/pybind/pybind.cpp` | `Model/PyBind`, `Model/PyIter`, `Model/PyText` |
| `std::fstream` on a device that stops accepting bytes, for the writers | `Model/Stream` |

The same names under `Spec` are the independent specifications (layout tables, abstract machines,
what a file or record is), under `Lemmas` the helper lemmas, under `Props` the theorems `Cnn_…`.

Additions to the trusted base that belong to single parts:

- `tellg`/`seekg` on a stream opened for output only act on the joint position (libstdc++).
- The little-endian 24-bit SEG-D reader (9036) depends on an unspecified evaluation order, as the
  24-bit SEG-Y readers do.
- `log2`, `log` and `pow` are parameters. Theorems state what they need of them (exact powers, correct
  truncation). With glibc, `log(16^k)/log(2)/4` comes out slightly below k for k in
  {-62,-59,-58,-55,-51,-47,-39}; the IBM encoder then stores a zero fraction (C12).
- The estimate of the IBM exponent is taken to be evaluated in IEEE `double` (no extended precision, no
  reassociation), as x86-64 compilers do without `-ffast-math`.
- After a call that throws, the C++ stream keeps its error bits. `Model/ISEGYFail`,
  `Model/Sorted1DFail` and `Model/SegdFail` follow the readers through this; the other reader models do not
  continue after a throwing call.
- Digit grouping by a user-installed global locale in the text of exceptions is not modelled.
- pybind11 converts values before a setter runs; only that setter is modelled.

## Where the code does not have the property

For each property with status `partial` this is what holds and what does not. Theorems named in
brackets are concrete counterexamples, proved about the model.

- **C07** Proved for the markers 0 and 0x01020304, from headers and from bytes. False for the third accepted marker 0x04030201 (C07_swapped_marker_lost).
- **C10** Proved for non-negative samples. For samples of at most -1 every integer writer converts double to an unsigned parameter type, which is undefined behaviour (C10_negative_undefined). Reading is exact for negative numbers too.
- **C100** Proved for traces that have as many samples as announced (fixed length: the binary header; variable length: the trace header). False for shorter traces: C100_stale shows that the rest of such a trace is taken from the trace written before it.
- **C102** Proved for header maps of integers, where one header block is used, sample formats of the table of C79, and new binary headers as in C20, C21 and C22. False with floating point fields in the map: C102_float_refused shows that every writer refuses each trace of such a file.
- **C103** Bytes and outcome as functions of the trace for every format but 8015 (C103_call_partial, C103_file_partial), places of differences for every format but 8015, 8022 and 8042 and traces with equal numbers of extension blocks (C103_changes_partial), names without effect for all formats (C103_unmapped). False for 8015, which writes samples of earlier traces (C103_held_back), and for 8022 and 8042, where the last sample is stored in the place of the first (C103_first_byte).
- **C104** Proved for all programs in which at most one writer of SEG-D files in format 8015 is used, and for all other objects without this condition (C104_alone_partial, C104_order_partial). False for two writers in format 8015, which share a static array (C104_shared).
- **C105** Proved for all files in which every record has general header 2 (before revision 3 also no escape value for skew blocks), a scan type and traces: C105_cut_partial, C105_choose_partial. False for other records, which use what the header before them left in the reader (C105_stale); a record without traces hides those behind it (C88_empty_record).
- **C106** Single and double precision: proved for all samples that are numbers. Integer formats: proved for samples whose integer part is not negative and in range; large values wrap (C106_long_reversed) and writing negative samples is undefined behaviour (C106_opposite_undefined). IBM: the order is kept when the exponents are exact, and with an accurate logarithm away from powers of 16; next to one the order of two samples is reversed (C106_ibm_reversed). Sign: proved for all floating point formats.
- **C107** Proved for files without trailer stanzas and with a counted number of texts, when neither the binary header nor the numbers of samples of variable length traces are damaged: the file opens with the same binary header, undamaged texts are the same, as many traces are read at the same places, and in each trace every header value and sample whose bytes are not damaged is the same. False of the code where these bytes are damaged: C107_length_damaged, C107_end_damaged and C107_format_damaged show that one damaged byte there changes undamaged traces or makes the file unreadable.
- **C108** Proved for damage outside the record headers and, in traces, outside the channel set numbers, the number of extension blocks and these blocks, in all formats but 8022 and 8042: the file opens, as many traces can be read, each is at its place, and has_trace and has_record answer alike; values of the 20-byte trace header and samples whose bytes are sound are unchanged. Missing, because false of the code or left out: a damaged channel set number makes reading undefined, a damaged number of samples loses the following traces (counterexamples), formats 8022 and 8042 read all samples from the first byte (counterexample), values of a damaged extension block are not tracked one by one.
- **C109** Order: proved for formats 8058, 9058, 8080 and 9080 with every positive descale factor and all samples that are numbers, and for formats 8036, 8038 and 9038 when the scaled samples are in range (not negative in the first two). Sign: proved for the four floating point formats. False of the code, with counterexamples: 9036 (1 and -1 come back as 256 and 4294967295), large numbers in 8036 and 8038, negative numbers in 8036 and 8038 (undefined behaviour). Formats 8015, 8024, 8044 and 8048 cannot be read at all and 8022, 8042 hold one sample only (C50).
- **C111** Proved for every non-empty list of header names and the files of C83: revision 0, 1 and 2 files without trailer stanzas and additional trace headers, integer header fields, samples that are rewritten (C55), at least one trace. Missing: the files C83 leaves out, where sorting by one header already fails.
- **C112** C112_maps_partial and C112_standard_partial: for every file written under the conditions of C96 (values fit, samples in the range of the first format) and every other byte format, if the samples read are in the range of the new format the second file has the same headers but for the format, the same trace headers, and samples kept as the new format can. Not covered: formats with packed exponents, samples outside the range, files of other revisions; C112_negative_integer shows that a negative sample rewritten as big endian integer is undefined behaviour.
- **C113** C113_rev0_partial, C113_rev1_partial and C113_rev2_partial: for files that meet the conditions of C55 and C82 (binary headers without stray bytes, maps of integers, samples that are written as they were read, no additional trace headers, no trailer stanzas) and every list of positions. C113_filter: the traces that pass a test are such a choice. Not covered: files that are not copied byte for byte (see the counterexamples of C23, C24, C55 and C82).
- **C114** For values that fit their fields; in revision 1 and 2 files with traces of different lengths the number of samples is not edited; revision 2 without additional trace headers and stanzas; maps with integer fields. C114_value_too_large, C114_sample_number_larger and C114_sample_number_smaller show that the first two conditions are needed: a value that does not fit is stored reduced, a larger number of samples adds samples, a smaller one is undefined behaviour.
- **C115** All three layouts: general header 1 alone, revisions 1 and 2, revision 3. What a block means is the subject of C44 to C47, C60, C63 and C65. Missing: the numbers are those the library decodes from general headers 1 and 2; in revision 3 it takes the extended number of external header blocks from the wrong bytes (C63), so that a record which uses that escape value is not read as the standard says. Additional blocks that can not be decoded (C60_sensor_overread) are excluded.
- **C116** Proved for files of all three revisions under the conditions of C55 and C82, when every trace gets as many samples as it had. With fewer or more samples the property is false: C116_fewer_samples (a zero nobody wrote comes back), C116_more_samples (undefined behaviour). Samples out of the range of an integer format come back as other numbers: C116_sample_too_large.
- **C117** Proved for files the library wrote under the conditions of C96, with extension maps (C117_maps_partial) and with the standard extension block (C117_standard_partial), for new samples in the range of the format and as many as the trace had. False for other numbers of samples: C117_fewer_samples, C117_more_samples. Formats without whole bytes per sample, negative integers in big endian formats (C112_negative_integer) and revision 3 writing are excluded as in C96.
- **C118** Proved for all three revisions under the conditions of C55 and C82 for the old and the new headers; additional trace headers and trailer stanzas are excluded. Without the same number of samples it is false: C118_sample_number_larger, C118_sample_number_smaller.
- **C119** Proved for header blocks of integer fields, zeros outside the fields, samples that survive re-encoding, numbers of samples told by the headers of both files, and no additional trace headers or trailer stanzas. Different numbers of samples in revision 0, and traces that do not tell their length in a file of variable length, break the property: C119_different_lengths, C119_length_not_told.
- **C12** Decoding is exact without conditions. Encoding is proved twice: for any estimate that gives the exact base 16 exponent, and for the estimate the code computes from an accurate logarithm (C12_exponent, C12_rewritten_partial, C12_near_partial; numbers just below a power of 16 may be stored with one hexadecimal digit less). False otherwise: powers of 16 below 16^-31 may be lost (C12_power_lost, C12_low_estimate_loses_value), numbers just below 16^63 are undefined behaviour (C12_largest_undefined), and so is encoding 0 (C12_zero_undefined).
- **C120** Proved for maps of one block of integer fields, sample formats that keep all values of the old formats (keptBy), numbers of samples told by the new headers, and new files without additional trace headers or trailer stanzas. A format that is too small makes the program undefined: C120_small_format.
- **C121** Proved for explicit headers, maps of one block of integer fields whose names are those of integers in the SEG-D files, numbers of samples told by the new headers, and new files without additional trace headers or trailer stanzas. Traces of SEG-D files with coordinates are refused by maps that have fields for them: C97_coordinates_refused.
- **C122** Proved for maps of one block of integer fields, formats in the table keptBy, files that tell the lengths of all traces, and files without additional trace headers or trailer stanzas. A format that does not keep the values changes them for good: C122_narrow. Maps with floating point fields are refused: C102_float_refused. C122_one_result and C122_interrupted hold for every chain, but say only that each step is a function of what it is given and of nothing else; they do not constrain what a step does.
- **C13** No overlap and name length are proved without conditions. In-bounds is proved when the first field of each block is in bounds and no field end wraps around 2^32; both gaps are real (C13_first_field_unchecked, C13_wrap_unchecked, C13_empty_map_undefined). Completeness (no safe map is refused) is proved.
- **C15** Proved for every safe block of distinctly named fields of any type: names, integer fields reduced to their width, single precision fields as the nearest single to the integer (one rounding, from 64-bit integer to float), double and IBM fields as the value comes back in the format of the field. The property is false for an IBM float field that is not set: writing is undefined behaviour instead of storing zero (C15_ibm_unset_undefined), and single precision fields round integers above 2^24 (C15_single_field_rounds).
- **C17** False: a double header value always makes the writer throw (C17_double_value_refused, C17_fails). What works: integers in a double field.
- **C20** Proved for binary headers with marker 0 or 0x01020304 and no revision 1/2 members, maps the library accepts whose fields are disjoint, in the block and distinctly named, integer header values and samples the writers do not fail on; samples and floating point header fields come back as the format stores them (C20_exact, C20_double, C20_single, C20_ibm_partial, C20_integer_partial). Missing: the marker 0x04030201, for which the property is false (C20_swapped_marker_fails), and values on which the encoders have undefined behaviour (C10_negative_undefined, C12_zero_undefined).
- **C21** Proved for fixed and variable length files with declared extended text headers, under the map, value and marker conditions of C20. Missing: the marker 0x04030201, for which the property is false (C21_swapped_marker_fails), and values on which the encoders have undefined behaviour.
- **C22** As C21, with all 44 members of the binary header returned. Requires a right or absent offset of the first trace. False for the marker 0x04030201 (C22_swapped_marker_fails).
- **C23** Proved for variable length traces, a count of -1 and an end stanza that comes last (C23_delimited_partial). False otherwise: no file with a positive number of stanzas opens (C23_counted_never_opens, C23_counted_example), fixed length files fail (C23_fixed_fails), and stanzas the header does not announce are dropped (C23_undeclared_dropped).
- **C24** False: with k additional headers announced the writer stores k-1 extra blocks and the reader consumes k. Both counts are proved for all files and all k (C24_writer_blocks, C24_reader_blocks) and C24_mismatch is a concrete file that comes back wrong.
- **C26** Revisions 1 and 2 proved. False for revision 0: the default text of OSEGYRev0 has 32 form feeds and 3220 characters, so line tags are displaced and the end is cut (C26_rev0_damaged); C26_rev0_partial states what does hold.
- **C28** Proved for traces whose samples the IBM encoder accepts (they may be truncated, see C20_ibm_partial), at most 32767 samples and a usable interval. Missing: a zero sample is undefined behaviour in the IBM encoder (C28_zero_sample_undefined).
- **C29** Exactly the announced count is proved to be written faithfully. More samples than announced write beyond the buffer (C29_too_many_undefined); fewer leave bytes of earlier traces in the file (C29_too_few_stale).
- **C30** Reading is proved (counted and delimited). The writer stores the count the caller put into the binary header, not the number of text headers it writes (C30_stored_count), so an undeclared extended header is lost to the reader (C30_undeclared_lost).
- **C35** Proved for reading traces. A negative sample count makes header-only reading stand still (C35_negative_count_stalls), so the header-only bound needs non-negative counts (C35_read_header_partial).
- **C37** Proved for every file whose traces are readable and whose keys are not NaN (C37_traces_partial), and for headers on every file the constructor returns on (C37_headers). Missing: a NaN key is undefined behaviour (C37_nan_fails), and a file without traces cannot be opened (C41_empty_undefined).
- **C39** Proved for every value except NaN and every limit, after any history of calls. Looking up NaN breaks the ordering requirement of std::map (C39_nan_fails).
- **C41** Missing header: proved (C41_missing_partial, keys before it not NaN). File without traces: the property is false, the constructor dereferences the end iterator of an empty map (C41_empty_undefined).
- **C43** Text and move proved for strings without zero bytes (C43_text_partial, C43_move_partial). Copying fails: the copy constructor dereferences a null unique_ptr for every exception (C43_copy_undefined). what() is cut at a zero byte (C43_zero_byte_cuts).
- **C44** Fields within their decimal digits are returned unchanged and the block has 32 bytes, for any libm log2 that truncates correctly. Not covered: base scan intervals of 8 ms and more fit the byte but the conversion to signed char is undefined (C44_base_scan_undefined); with an extended record length the record length reads back as 1665 (C44_record_length_lost); scans per block that are not a power of two are rounded down (C44_scans_rounded); C44_stored states what is read for every header.
- **C46** Line and point numbers that are non-negative multiples of 2^-16 below 2^23. Negative numbers are undefined behaviour in the writer (C46_negative_undefined); numbers from 2^23 read back negative (C46_large_read_negative).
- **C47** Headers whose fields fit, with a non-negative descale multiplier k/1024 (k < 2^15), a power-of-two number of subscans below 2^10 and an extended header flag below 8, are returned unchanged. Negative multipliers are undefined behaviour in the writer (C47_negative_descale_undefined), flags from 8 come back sign extended (C47_flag_sign_extended). C47_stored states what is read for every header with a non-negative multiplier.
- **C48** The round trip is proved for every header whose numbers fit the fields (file number below 2^24, scan type below 100, channel set below 2^16, channel below 10000, times on the 1/256 grid). Missing: sample skews of 0.5 and more, whose conversion to a signed char is undefined (C48_skew_undefined), and headers without a channel set number, where an empty optional is dereferenced (C48_no_channel_set).
- **C49** Large file numbers and channel set numbers are carried by the extended fields. Channel numbers above 9999 have no extended field in revision 2.1 and are all read back as 16665 (C49_channel_lost); file numbers of 2^24 and more lose their high bits (C49_file_number_wraps).
- **C50** Format codes, bits per sample and rejection: all codes. Double precision (8080, 9080): every bit pattern. Single precision (8058, 9058): exact for single precision values, nearest otherwise. 9038: every 32-bit integer. 8036 and 8038: non-negative samples only; negative ones are undefined behaviour in the writer (C50_negative_undefined). Whole traces with a power of two scale: C50_trace_samples_partial, below 2^32 bits of data (C50_size_wraps). 9036 returns wrong values (C50_i24_le_wrong); packed formats cannot be read (C50_packed_reader); their writers are the subject of C68.
- **C51** Proved: from a writer whose counter started at zero, write_trace throws without writing exactly from the announced number of traces on, and every list of acceptable traces up to that number is accepted. Missing: the counter of announced channels is never initialised by the writer (OSEGD.cpp), so on other heap contents the limit is wrong; C51_uninitialised gives witnesses in both directions.
- **C52** Proved for every reachable state: has_trace is true exactly while fewer traces were read than announced; each trace but the last stays in the record; after the last one the reader is at the end with has_record = has_trace = false, or has read the headers that start right behind the trace; at the end read_trace throws. Missing: agreement of has_record and has_trace in records that announce no traces and in files whose skew blocks reach beyond the end (C52_empty_record, C52_beyond_end); general trailers are taken for records (C52_trailer_misread).
- **C53** The round trip of map-driven and standard (revision 2) extensions is proved under the assumption that at least 32 bytes may be used at the 20 byte buffer in which the blocks are put together; as written, every trace with an extension block leaves that buffer (C53_buffer_overflow). Missing too: unsigned 64-bit fields, read from the wrong place (C53_u64_misread), and the standard extension of revisions 1 and 3, where writer and reader disagree (C53_rev1_indices_misread, C53_rev3_shifted).
- **C55** Proved for files with marker 0 or 0x01020304, integer header fields and samples the library writes as it reads them (C55_copy_partial; C55_sample_* say which samples those are). False otherwise: negative integer samples and IBM zeros are undefined behaviour on writing, floating point header fields make the writer throw, and the marker of a big endian file is stored swapped.
- **C57** Holds for 28 of 29 structures (C57_segd_partial). Fails for GeneralHeaderOri: 11 enumerators but 9 texts, so name_as_string reads past the table (C57_orientation_fails).
- **C58** Holds for all names but five (C58_described_partial) and texts are distinct apart from HOUR (C58_distinct_partial). Fails: TRANS_CONST_MANT/EXP, SOURCE_MEASUREMENT_MANT/EXP and NANOSECOND have no entry, and HOUR has the text of YEAR (C58_fails).
- **C59** Proved for every consistent set of revision 2.1 headers and every list of traces as long as the channel sets announce, with extension maps (C59_maps_partial) and with the standard revision 2 extension block (C59_standard_partial), for the byte-aligned sample formats. Missing: traces without extension blocks, no general header 2 announced, a number of additional headers that differs from the announced one, two additional headers with one number, more than 99 channel sets; for each of these a concrete counterexample is proved. Packed sample formats, values that do not fit their field, and revision 1 standard extensions are outside the theorem (see C50, C53).
- **C60** Proved: every known block other than the six source blocks and the sensor block is decoded member by member from the offsets of the standard, reports the type in its last byte, is filed under that type, and unknown blocks are ignored. Source blocks: all members but the last four are right. Missing: source blocks read the last four 16-bit members from one byte each and report byte 27 as the type (C60_source_type_wrong); every sensor block is read beyond its 32 bytes (C60_sensor_overread).
- **C61** Proved for every file and record that has general header 2: after moving to a record the getters return what a new reader of the file from that point returns (headers, channel sets, extended/external headers, counters, blocks of the record). Missing: blocks and header members of earlier records are never cleared (C61_stale_block, C61_stale_revision); a block getter dereferences a null pointer when a revision 2 block has its number (C61_wrong_class).
- **C62** Proved: the exact condition under which a failed call changes nothing (the announced number was reached, or no trace header can be made), and that otherwise the 20 bytes of the header stay (C62_what_is_left); for whole histories of writable traces, traces with values of the wrong kind for the trace header and surplus traces the file is that of the accepted traces alone. Missing because false of the code: failures in the extension or the samples leave a partial trace behind (C62_partial_trace_left) and make later traces unreadable (C62_later_traces_lost); a missing channel set number is undefined behaviour (C62_bad_channel_set).
- **C63** Proved: every member of general header 2 is stored where the revision 3 standard has it (C63_layout); the reader returns file number, channel sets, extended header, skew and trailer blocks and the revision, and C63_read_partial says exactly what it returns for the other five members. Missing: those five members and the extended record length (C63_members_wrong); general header 3 is never written (C63_header3_missing).
- **C64** Proved for the block classes with codes in keptTypes (12 of 24): each block, and a whole map of them, comes back with all members. Missing: name blocks and source blocks get a wrong type byte and are ignored by the reader (C64_lost), the sensor block is written beyond its buffer (C64_sensor_overflow).
- **C65** Proved: the block is 96 bytes and the reader returns all members except those listed in chSetStoredR3; a whole list of headers is read from the file in order (C65_sets_partial). Missing: channel set number (start time is stored instead), alias filter slope and low cut filter frequency (exchanged), filter delays above 255, header extension flags above 7 (C65_members_wrong), fractions of the descale multiplier (C65_fraction_lost); negative multipliers and missing sample numbers are undefined behaviour (C65_undefined).
- **C67** Proved for every class but GeneralHeaderEle and GeneralHeaderSCa, five of whose attributes are bound to another member (C67_misbound). Six members have no attribute (C67_not_exposed), two methods of ISEGD call another function (C67_wrong_methods), two value types are missing (C67_value_types). Shorter texts come back padded with NULs, longer ones cut (C67_text_padded).
- **C68** Proved for format 8044: every trace whose samples have magnitudes strictly between 1/256 and 4096 is written with one word per sample and an error below one fraction unit (C68_hexadecimal_partial). Missing: in every packed format zero and samples below the exponent range make the conversion undefined (C68_small_undefined). 8024, 8022 and 8015 lose the fraction (C68_8024_no_fraction, C68_8022_no_fraction, C68_8015_no_fraction; the latter also writes the sign of every fourth sample for all four). 8048 omits the exponent bias (C68_8048_no_bias). 8022 and 8042 write every sample to the first byte of the trace (C68_one_byte). 8015 holds samples back for the next trace and then overruns its buffer (C68_8015_short, C68_8015_overflow). Samples of 1 and above reach into the sign bit in 8015 (C68_8015_sign_bit).
- **C69** C69_open_partial and C69_read_partial: defined for every file, map inside its blocks and history, provided samples*size and trailer stanzas*3200 fit an int and the number of additional headers is not 2^31-1. C69_trace_size_undefined, C69_trailer_undefined and C69_header_count_undefined show that each condition is needed. C69_loops_end has no conditions.
- **C70** Opening is defined for every file without a revision 3 sensor block (type 0x41), and reading a trace for every reader state and every file content when the extension map stays inside its blocks, the format is a plain one, the sample bits fit 32 bits and the trace names a channel set the record has. A loop reads at most one trace per 20 bytes. Outside these conditions the property is false: C70_*_undefined give the undefined behaviour, for scan type and channel set numbers as families.
- **C71** C71_accepted_partial and C71_accepts_partial characterise when the constructor returns; C71_inconsistent_throws: a channel set table of another shape is rejected. The property fails for header blocks: C71_missing_blocks_undefined (too few or too short: read past the end) and C71_surplus_dropped (too many: accepted and left out), both for all such arguments. Assumes scan_types_per_record is an int and the vector has fewer than 2^63 elements.
- **C73** False for a negative SAMP_NUM in files of variable length traces and for floating point values in additional header blocks: the trace is refused after its first header block was written. Proved for all other traces.
- **C74** Proved for every fixed length file and, in any file, for every failure of the stream: all later calls throw. False for variable length files: a negative number of samples throws length_error with the stream left behind the header blocks, and the next read_trace returns a trace made of sample bytes (C74_bad_count_continues_in_samples, C74_false_trace).
- **C75** Proved for programs that ask has_trace and extension maps that store the counts as integers: after the first failure only exceptions follow (C75_nothing_after_failure_partial), and for every program a failure of the stream is final. False otherwise: a map with a floating SAMP_NUM, SCAN_TYPE_NUM or CH_SET_NUM throws bad_variant_access with the stream inside the trace, and the next call returns samples as a trace (C75_false_trace); a call without asking has_trace after an unsupported format is undefined (C75_unguarded_undefined). has_trace may stay true for ever after a failure (C75_never_ends).
- **C76** Proved for every trace but the last of the last record: any file with the same bytes up to the reader's position gives the same traces. False for the last trace of a record when 1 to 31 bytes follow it: read_trace reads the next record's headers before it returns, throws and loses the trace (C76_trailing_bytes, a family; C76_lost_trace, a file).
- **C77** Proved in full for ISEGY and ISEGYSorted1D, and for SEG-D files that OSEGD wrote. False in general for ISEGD, whose __next__ asks has_record: for a file that ends behind a trace of an incomplete record the Python loop ends silently although has_trace is true and read_trace throws (C77_incomplete_unnoticed); a record without traces leads to undefined behaviour or an exception (C77_empty_record_undefined, C77_beyond_end_throws). C77_segd_partial proves the equivalence for all other files.
- **C79** C79_table decides all 169 pairs of formats. The property as stated fails where the table has no entry although the numbers could be represented: negative integers cannot be written in any integer format (C79_negative_undefined, conversion to an unsigned parameter), zero cannot be written in format 1 (C79_lost), 64 bit integers pass through a double (C79_long_wraps). For the pairs of the table it is proved for single samples (C79_kept_partial), all traces of all files (C79_traces) and whole rewritten files (C79_rewritten). NaN payloads are not modelled.
- **C80** Header values, opening and read_binary_header are proved for all maps. Samples and iteration need that all traces have the same length or that both maps have SAMP_NUM in the same field: where traces may differ in length, a map without SAMP_NUM gives no samples and takes the samples of one trace for the header of the next (C80_without_samp_num).
- **C81** Proved for files without trailer stanzas and for read_trace. With an end stanza a cut file cannot be opened at all (C81_cut_trailer). read_header returns the header of an incomplete trace, after which has_trace stays true for ever (C81_header_of_incomplete_trace).
- **C82** Three theorems: revision 1 (all of it), revision 2 without stanzas, revision 2 with stanzas delimited by the end stanza after traces of variable length. The property is false for additional trace headers, counted stanzas, stanzas after fixed length traces and a gap in front of the first trace (counterexample theorems); samples and header fields as in C55.
- **C83** Proved for revision 0 files (as in C55), for revision 1 files and for revision 2 files without stanzas, additional trace headers and gap (C82 says why these fail), integer header fields, samples that are rewritten (C55), at least one trace (C41_empty_undefined).
- **C84** Proved for the files of C59, with extension maps and with the standard extension block. False for files with bytes the library does not know and with a general trailer (C84_unused_bytes_lost, C84_trailer_fails).
- **C85** Reading is right exactly for numbers of the normal range (C85_zero_misread, C85_infinity_misread). Writing is wrong for every number of the normal range (C85_write_single_wrong, C85_write_double_wrong) and undefined for zero. The double of such a host is taken for exact.
- **C86** Proved for every k, every list of traces and all revisions without trailer stanzas, under the conditions under which traces come back at all (those of C20, C21, C22, C28). C86_stanzas_lost proves the opposite for files with trailer stanzas: before the very last byte is on disk the file cannot be opened and all traces are lost. C86_finished_* tie the list of writes to the writer model for any history of successful calls.
- **C87** Proved for every number of bytes on disk, for the files of C59 (extension maps, and the standard extension block), also for programs that go on after refused traces (values of the wrong kind, surplus traces). Missing: what C59 leaves out, and traces that are refused after their header was written, where the property is false (C62_later_traces_lost). One clause is false of the code: a file whose last header blocks are skew blocks opens although they are missing, because the reader only seeks over them (C87_skew_missing).
- **C88** Proved for every list of files each of whose records has general header 2, a scan type, no skew escape before revision 3, and at least one trace; and for the files of C59 joined. False: a record without traces hides the records behind it (C88_empty_record); a record without general header 2 takes counts from an earlier record (C88_stale_revision). What C59 leaves out is missing for written files.
- **C89** Proved for all files without trailer stanzas whose headers lie in front of the first trace and that consist of whole traces (C89_big_to_little_partial, C89_little_to_big_partial), and for files with stanzas up to an end stanza behind traces of variable length that say at the places of the standard how long they are, with or without additional trace headers (C89_stanzas_to_little_partial, C89_stanzas_to_big_partial), in both directions. False with trailer stanzas behind traces of fixed length: they are looked for among the samples, whose bytes differ (C89_trailers). Files with a positive number of stanzas cannot be opened in either order (C23_counted_never_opens).
- **C90** Proved for every host order, file order and value: integers of 1, 2, 4 and 8 bytes and all SEG-Y sample formats except 7 and 15, SEG-D reading and writing, formats 9038/9058/9080; same-host round trips also for three bytes. The property is false on a big-endian host for integers of three bytes (C90_segy_three_bytes_fail, C90_segy_three_bytes_written, C90_segd_fails), files without marker (C90_segy_no_marker_fails), the marker 0x04030201 (C90_segy_other_marker_fails), SEG-D signed four-byte integers, which throw (C90_segd_fails, C90_segd_9038_fails), and format 9036 (C90_segd_9036_fails).
- **C91** Proved: where the computer wraps negative numbers (shown for x86-64 as compiled by GCC) every sample with integer part in the range of an integer format comes back truncated, every integer unchanged (C91_truncates, C91_integer_samples); signed formats of at most four bytes are rewritten byte for byte and kept by wider ones (C91_rewrites, C91_kept); copying of fixed length revision 0 integer files needs no condition on samples (C91_copy_partial), reading back gives the written samples (C91_roundtrip_partial); a zero in IBM format is stored as four zero bytes and comes back as 0 on both computers (C91_ibm_zero, C91_rewrites_zero). The property fails on ARM64, where negative samples silently become 0 in every integer format (C91_arm, C91_negative_to_zero). Infinity in IBM format is written as 0 on x86-64 and as the largest number on ARM64 (C91_ibm_infinity); zero words with exponent or sign bits are rewritten as plus zero (C91_other_zeros). The descriptions of the two computers are assumptions; that GCC generates this code is part of the trusted base.
- **C92** Proved for the files of the conditions of C20, C21 and C22 (endianness marker 0 or 0x01020304, integer header fields, no trailer stanzas or additional headers), in each of the three revisions, and for samples that are stable: all of formats 5 and 6, in the integer formats those whose integer part is in the range of the format (negative ones where the computer wraps), and IBM values in range when the logarithm is exact. False otherwise: a header field declared as floating point, revision 2 fields in a header of a lower revision, and a rounded logarithm each give a second copy that differs (proved).
- **C93** Proved for every program, buffer limit, schedule and number of accepted bytes: the file holds exactly the bytes the device accepted and gives the traces completed by them (under the conditions of C86 and C87), a call throws once more bytes are missing than the stream keeps back, and nothing throws when all bytes are accepted. False of the code: nothing is flushed before the destructor, so up to a buffer of bytes, and so a whole small file, is lost without an exception (C93_silent_loss, C93_nothing_stored); the destructor of OSEGYRev2 calls seekg, whose exception terminates the program (C93_destructor); trailer stanzas can be lost silently (C93_stanza_loss).
- **C94** Proved: text headers read in Python are stored by a writer as the same bytes; a str comes back as it was, exactly when it has no surrogates; 64-bit integers and all floats come back equal and of the same kind. False of the code: trailer stanzas that are not UTF-8 (EBCDIC) raise UnicodeDecodeError (C94_ebcdic_stanzas), a str of 3200 characters with one that is not ASCII is refused (C94_str_refused), integers beyond 64 bits become floats (C94_large_int). The conversions of pybind11 are assumptions.
- **C95** Proved: the texts, stanzas and SEG-D header blocks an open reader keeps are at most twice the file (C95_texts, C95_segd_held); when read_trace returns a trace, reader and trace together take at most eleven times the file (C95_returned); without 32-bit counts the reader never takes more than half a megabyte besides, even after calls that throw (C95_small_partial); less than 2 GB for traces of fixed length (C95_fixed_partial); a SEG-D trace has no more samples than the file has bytes (C95_segd_trace_partial). False of the code: a file of 3600 bytes makes the constructor take 2 GB (C95_open_large), one of 4080 bytes makes read_trace take 16 GB before it throws (C95_trace_large and its example), and in formats 8022 and 8042 a file of 376 bytes gives a trace of 2^29 + 1 samples (C95_segd_file_large). Only sizes are counted; memory is taken to be unlimited (bad_alloc is not modelled).
- **C96** Proved for whole files (any number of traces, extension maps or the standard extension block): headers come back, and every sample in the range of the format comes back unchanged (8080, 9080), within a relative error of 2^-24 (8058, 9058) or as the truncated quotient times the descale factor (8036, 8038, 9038). Missing because it is false of the code: samples outside the range (infinity, zero), negative samples in 8036 and 8038 (undefined conversion), 9036 and the packed formats (C50), and the files C59 excludes.
- **C97** Proved for revisions 0, 1 and 2 with explicit headers, header maps of integer fields whose names are not those of SEG-D values with a binary point, sample formats 5 and 6 (6 exact), and known trace lengths; file and channel numbers are kept by the default map. False in general: C97_coordinates_refused (Sercel extension maps with the default SEG-Y map), C97_fractions_refused, C97_automatic_refused (writers without explicit headers), C97_no_count_refused, C97_count_wraps.
- **C98** Proved for traces to which the user adds channel set, extension count and number of samples, with file numbers below 2^24, channel numbers below 10000, descale factor one and finite samples that fit the format. False in general: C98_no_channel_set (no SEG-D writer accepts a SEG-Y trace as it is), C98_channel_10000, C98_negative_file_number; the other header values are not kept.
- **C99** Proved, with an accurate logarithm (Spec.AccurateLog) and where minus infinity converts to zero bits (x86-64), for samples that are zero or of a magnitude between 16^-31 and the largest IBM number, under the conditions on headers of C20, C21, C22 and C28; and for copies of files of zeros and normalised words other than powers of 16 below 16^-31. False for the others: C12_power_lost (16^-39 is stored as zero by a correctly rounded logarithm) and C12_largest_undefined (numbers just below 16^63).

Further observations made while modelling, covered by the theorems above or outside the properties:

- Automatic headers of revision 1 and 2 carry revision number 0 while traces are stored with their own
  length, so the reader takes the file for a fixed length one.
- `OSEGYRev1` and `OSEGYRev2` set the number of extended text headers in memory after the binary header
  was stored; 65537 texts wrap the 16-bit count.
- A negative SAMP_INT passes the checks of the automatic binary header.
- More than 9999 channels in a SEG-D channel set are lost; trailers are never skipped; a record without
  channels is read again and again by a `has_record` loop.
- In `OSEGD` general header 2 is stored even when general header 1 does not announce it.
- In Python, the static functions `ebcdic_to_ascii`, `ascii_to_ebcdic` and `read_binary_header` are bound as
  methods, `ISEGD.__next__` stops by `has_record`, the header classes of SEG-D have no constructor, and the
  constructor of `OSEGDRev2_1` takes no extended headers, external headers or extension maps.
- `samples_as_numpy_array` is `py::array_t<double>(t.samples())`. As far as we know pybind11, this takes the samples
  as the shape of a new array, not as its contents; `samples()` returns a copy, so that changing its elements in
  Python does not change the trace. Neither is modelled.

## Validation of the model

The model is computable. `validation/` holds two scripts that run it on the sample files of the repository and the
results: all expectations of the tests in `tests/segy` are reproduced, including `verify_writing` (the copy of each
of the five files is equal to it byte for byte, with the conversions of x86-64). This is testing of the model, not
part of any proof.
