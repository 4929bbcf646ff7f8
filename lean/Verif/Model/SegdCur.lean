import Verif.Model.Util

/-!
# Output cursor over a header buffer

The SEG-D writer fills fixed-size buffers through a moving `char*`. The buffer is split at the
pointer. Storing or moving past the end of the buffer is undefined behaviour.
-/

namespace Sedaman

/-- A buffer split at the write pointer. -/
structure Cur where
  done : Bytes
  rest : Bytes
  deriving DecidableEq, Repr

/-- Statements that move the write pointer. -/
abbrev Wr := StateT Cur Out

/-- Bytes stored at the pointer, which moves behind them (`write<T>(&buf, …)`,
`*buf++ = …`). util.hpp:56-61 -/
def wrPut (bs : Bytes) : Wr Unit := fun c =>
  if bs.length ≤ c.rest.length then .ok ((), ⟨c.done ++ bs, c.rest.drop bs.length⟩)
  else isUb .outOfBounds

/-- `to_bcd(&buf, val, skip, num)` for a value of a `w`-byte type. util.hpp:139-190 -/
def wrBcd (w : Nat) (val : Int) (skip : Bool) (num : Nat) : Wr Unit := fun c => do
  let (r, adv) ← toBcd w val skip num c.rest
  pure ((), ⟨c.done ++ r.take adv, r.drop adv⟩)

/-- `*buf = b` (pointer not moved). -/
def wrPoke (b : Byte) : Wr Unit := fun c =>
  match c.rest with
  | [] => isUb .outOfBounds
  | _ :: r => .ok ((), ⟨c.done, b :: r⟩)

/-- `*buf++ |= b` -/
def wrOr (b : Byte) : Wr Unit := fun c =>
  match c.rest with
  | [] => isUb .outOfBounds
  | a :: r => .ok ((), ⟨c.done ++ [a ||| b], r⟩)

/-- `buf += n` -/
def wrSkip (n : Nat) : Wr Unit := fun c =>
  if n ≤ c.rest.length then .ok ((), ⟨c.done ++ c.rest.take n, c.rest.drop n⟩)
  else isUb .outOfBounds

/-- Run statements on a zeroed buffer of `n` bytes and return the whole buffer. -/
def wrBlock (n : Nat) (w : Wr Unit) : Out Bytes := do
  let (_, c) ← w ⟨[], List.replicate n 0⟩
  pure (c.done ++ c.rest)

/-- `buf += n` of a reading pointer. -/
def rdSkip (n : Nat) : Rd Unit := do
  let _ ← rdBytes n
  pure ()

end Sedaman
