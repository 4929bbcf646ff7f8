import Verif.Model.Basic

/-!
# Model of include/util.hpp
-/

namespace Sedaman

/-- `read<T>` for an unsigned `T` of `n` bytes. util.hpp:39-46 -/
def readU (n : Nat) : Rd Nat := do
  let b ← rdBytes n
  pure (leVal b)

/-- `read<T>` for a signed `T` of `n` bytes. util.hpp:39-46 -/
def readS (n : Nat) : Rd Int := do
  let b ← rdBytes n
  pure (toS n (leVal b))

/-- `write<T>`: the bytes stored at the cursor for an integer converted to an `n`-byte `T`.
util.hpp:56-61. Signed and unsigned `T` have the same object representation. -/
def writeI (n : Nat) (v : Int) : Bytes := leBytes n (toU n v)

/-- `swap` for an unsigned `n`-byte type: reverse the object representation.
util.hpp:70-80 -/
def swapU (n : Nat) (u : Nat) : Nat := leVal (leBytes n u).reverse

/-- `swap` for a signed `n`-byte type. util.hpp:70-80 -/
def swapS (n : Nat) (v : Int) : Int := toS n (swapU n (toU n v))

/-! ## Binary coded decimal -/

/-- High nibble of a byte: `(static_cast<unsigned>(*ptr) & 0xf0) >> 4`. util.hpp:97 -/
def hiNib (b : Byte) : Nat := b.toNat / 16

/-- Low nibble of a byte: `static_cast<unsigned>(*ptr) & 0x0f`. util.hpp:98 -/
def loNib (b : Byte) : Nat := b.toNat % 16

/-- The loop of `from_bcd`: `i` counts the nibbles still to be read; two nibbles per
iteration while `i > 1`, and a final high nibble when one is left. util.hpp:110-125 -/
def fromBcdLoop : Nat → Nat → Bytes → Out Nat
  | 0, result, _ => .ok result
  | 1, _, [] => isUb .outOfBounds
  | 1, result, b :: _ => .ok (result * 10 + hiNib b)
  | _ + 2, _, [] => isUb .outOfBounds
  | i + 2, result, b :: bs =>
    fromBcdLoop i ((result * 10 + hiNib b) * 10 + loNib b) bs

/-- `from_bcd`. util.hpp:91-128. Returns the number and the advanced cursor
(`*buf += (num + skip_first) / 2`). The accumulator is unbounded: all instantiations in the
code use at most 12 nibbles of a 64-bit or 4 nibbles of a 32-bit type, which cannot
overflow. `num = 0` is excluded by the `assert`. The first byte is always dereferenced. -/
def fromBcd (skip : Bool) (num : Nat) : Rd Nat := fun bs =>
  match bs with
  | [] => isUb .outOfBounds
  | b :: rest => do
    let r0 := if skip then 0 else hiNib b
    let c0 := if skip then 0 else 1
    let r1 := if num ≠ c0 then r0 * 10 + loNib b else r0
    let c1 := if num ≠ c0 then c0 + 1 else c0
    let r ← fromBcdLoop (num - c1) r1 rest
    let adv := (num + skip.toNat) / 2
    pure (r, (b :: rest).drop adv)

/-- Number of bits of the `std::bitset` used by `to_bcd` for a `w`-byte value:
`ceil(w * 8 / 3.0) * 4 + w * 8`. util.hpp:144 (with `ceil` of util.hpp:24-29) -/
def bcdBits (w : Nat) : Nat := (w * 8 + 2) / 3 * 4 + w * 8

/-- One BCD digit of the bit set: `(storage & mask) >> shift` with
`mask = bitset(0xf) << shift`, in a bit set of `n` bits. util.hpp:149-151, 157 -/
def bcdDigit (n shift storage : Nat) : Nat :=
  (storage &&& (0xf <<< shift % 2 ^ n)) >>> shift

/-- Body of the inner loop for one digit: if the digit exceeds 4, clear it and store
`digit + 3`. util.hpp:157-162 -/
def dabbleDigit (n shift storage : Nat) : Nat :=
  let d := bcdDigit n shift storage
  if d > 4 then
    (storage &&& ((2 ^ n - 1) ^^^ (0xf <<< shift % 2 ^ n))) ||| ((d + 3) <<< shift % 2 ^ n)
  else storage

/-- Inner loop over the `num` digits. util.hpp:156-163 -/
def dabbleDigits (n base : Nat) : Nat → Nat → Nat → Nat
  | 0, _, storage => storage
  | k + 1, j, storage => dabbleDigits n base k (j + 1) (dabbleDigit n (base + j * 4) storage)

/-- Outer loop: adjust all digits, then shift the bit set left by one. util.hpp:155-165 -/
def dabbleLoop (n base num : Nat) : Nat → Nat → Nat
  | 0, storage => storage
  | k + 1, storage =>
    dabbleLoop n base num k ((dabbleDigits n base num 0 storage) <<< 1 % 2 ^ n)

/-- Final contents of the bit set for a value of `w` bytes. `bitset(val)` converts the value
to `unsigned long long` first, so a negative value is sign-extended to 64 bits.
util.hpp:143-165 -/
def bcdStorage (w : Nat) (val : Int) (num : Nat) : Nat :=
  dabbleLoop (bcdBits w) (w * 8) num (w * 8) (toU 8 val % 2 ^ bcdBits w)

/-- Digit `i` (0 = least significant) extracted for output. util.hpp:166-189 -/
def bcdOut (w : Nat) (val : Int) (num i : Nat) : Nat :=
  bcdDigit (bcdBits w) (w * 8 + i * 4) (bcdStorage w val num)

/-- Output loop: `num` counts the digits left; two digits per byte, and a last single digit
goes to the high nibble of a byte that is not advanced over. `dig i` is digit `i`.
Returns the new buffer contents from the cursor on and the number of bytes the cursor
moved. util.hpp:173-189 -/
def bcdEmit (dig : Nat → Nat) : Nat → Bytes → Out (Bytes × Nat)
  | 0, buf => .ok (buf, 0)
  | 1, [] => isUb .outOfBounds
  | 1, _ :: bs => .ok (BitVec.ofNat 8 (dig 0 <<< 4) :: bs, 0)
  | _ + 2, [] => isUb .outOfBounds
  | k + 2, _ :: bs => do
    let b := BitVec.ofNat 8 (dig (k + 1) <<< 4) ||| BitVec.ofNat 8 (dig k)
    let (r, adv) ← bcdEmit dig k bs
    pure (b :: r, adv + 1)

/-- `to_bcd` for a value whose type has `w` bytes. util.hpp:139-190. Works on the buffer
contents from the cursor on; returns the new contents and how far the cursor moved.
`num = 0` reads `bcd_dig_mask[-1]`: undefined behaviour. -/
def toBcd (w : Nat) (val : Int) (skip : Bool) (num : Nat) (buf : Bytes) :
    Out (Bytes × Nat) :=
  match num with
  | 0 => isUb .outOfBounds
  | k + 1 =>
    let dig := bcdOut w val (k + 1)
    if skip then
      match buf with
      | [] => isUb .outOfBounds
      | b :: bs => do
        let (r, adv) ← bcdEmit dig k bs
        pure ((b ||| BitVec.ofNat 8 (dig k)) :: r, adv + 1)
    else bcdEmit dig (k + 1) buf

end Sedaman
