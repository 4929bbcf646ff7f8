# Validation of the model on the sample files of the repository

The model is a collection of computable functions, so it can be run. The two scripts in this folder run
it on the five files in `samples/` of the repository. They are not part of the proofs: they are Lean
programs, kept as text because nothing outside `lean/Verif` is to be built.

    cd lean
    cp ../validation/run_reader.txt /tmp/reader.lean
    lake env lean --run /tmp/reader.lean /repo/samples/ibm.sgy
    cp ../validation/run_samples.txt /tmp/samples.lean
    lake env lean --run /tmp/samples.lean

What was compared with the expectations in `tests/segy` of the repository:

| test | result of the model |
|---|---|
| `check_bin_header` | all values of the binary header |
| `count_all_traces` | 160 traces of 501 samples in each file |
| `check_reading_samples_*` | the sum of the first trace, bit for bit, and the sums of all shifted traces |
| `verify_writing` (copying with `OSEGYRev0`) | on x86-64 (`Spec.x86Conv`) the copy of each of the five files equals the file, byte for byte |

Without assumptions about the computer writing is undefined for exactly the zero samples of `ibm.sgy`
(12721 of 80160) and the negative samples of `4I.sgy` (33394), `2I.sgy` and `1I.sgy` (32652 each). On
ARM64 (`Spec.armConv`) these negative samples are written as zero: the test `verify_writing` would fail
there for the integer formats. This is the subject of C91.
