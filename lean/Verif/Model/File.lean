import Verif.Model.Basic

/-!
# Files

The part of `std::fstream` (opened with `exceptions(failbit | badbit)`, CommonSEGY.cpp:26-29) that
the library uses, on an ordinary disk file. The operating system is assumed not to fail: the only
failures are reads beyond the end of the file and seeks to negative positions.

Simplification: a call that throws leaves the stream in a failed state in which every later call
throws as well; the model gives no state at all after an exception.
-/

namespace Sedaman

/-- An open file: its bytes and the position (`tellg`). -/
structure File where
  data : Bytes
  pos : Nat
  deriving DecidableEq, Repr

/-- `file.read(buf, n)`: sets `failbit`, hence throws, when fewer than `n` bytes are left. -/
def File.read (f : File) (n : Nat) : Out (Bytes × File) :=
  let chunk := (f.data.drop f.pos).take n
  if chunk.length = n then .ok (chunk, { f with pos := f.pos + n })
  else throwExn .iosFailure

/-- `file.seekg(p)`: any non-negative position is accepted, also beyond the end. -/
def File.seek (f : File) (p : Int) : Out File :=
  if p < 0 then throwExn .iosFailure else .ok { f with pos := p.toNat }

/-- `file.seekg(off, ios_base::cur)`. -/
def File.seekCur (f : File) (off : Int) : Out File := f.seek (f.pos + off)

/-- `file.seekg(off, ios_base::end)`. -/
def File.seekEnd (f : File) (off : Int) : Out File := f.seek (f.data.length + off)

/-- `file.write(bs)`: overwrites from the position on and extends the file; a gap beyond the end is
filled with zeros. -/
def File.write (f : File) (bs : Bytes) : File :=
  { data := (f.data ++ List.replicate (f.pos - f.data.length) 0).take f.pos ++ bs ++
      f.data.drop (f.pos + bs.length)
    pos := f.pos + bs.length }

/-- `vector<char>::resize(n)` for an `n` of type `size_t`: the prefix is kept, new bytes are zero.
More than `max_size()` (2^63 - 1) throws `length_error`; memory is assumed not to run out. -/
def resizeVec (buf : Bytes) (n : Nat) : Out Bytes :=
  if 2 ^ 63 ≤ n then throwExn .lengthError
  else .ok (buf.take n ++ List.replicate (n - buf.length) 0)

/-- Product of two `int`s: overflow is undefined behaviour. -/
def mulInt32 (a b : Int) : Out Int :=
  if -2 ^ 31 ≤ a * b ∧ a * b < 2 ^ 31 then .ok (a * b) else isUb .signedOverflow

/-- Product of an `int64_t` and an `int`: overflow is undefined behaviour. -/
def mulInt64 (a b : Int) : Out Int :=
  if -2 ^ 63 ≤ a * b ∧ a * b < 2 ^ 63 then .ok (a * b) else isUb .signedOverflow

end Sedaman
