import Verif.Model.RawIO

/-!
# Specification of fixed-width integers on disk

A number of `n` bytes is a list of bytes; big-endian puts the most significant byte first.
-/

namespace Sedaman.Spec

/-- Value of a byte string, most significant byte first. -/
def beNat (bs : Bytes) : Nat := bs.foldl (fun a b => a * 256 + b.toNat) 0

/-- Unsigned value of a byte string in a given byte order. -/
def decNat : ByteOrder → Bytes → Nat
  | .be, bs => beNat bs
  | .le, bs => beNat bs.reverse

/-- Two's complement value of a byte string in a given byte order. -/
def decInt (bo : ByteOrder) (bs : Bytes) : Int :=
  if 2 * decNat bo bs < 256 ^ bs.length then (decNat bo bs : Int)
  else (decNat bo bs : Int) - (256 ^ bs.length : Nat)

/-- The `n` bytes that represent `v` (reduced modulo `256^n`), most significant first. -/
def beBytes : Nat → Int → Bytes
  | 0, _ => []
  | n + 1, v => beBytes n (v / 256) ++ [BitVec.ofInt 8 v]

/-- The `n` bytes that represent `v` in a given byte order. -/
def encInt : ByteOrder → Nat → Int → Bytes
  | .be, n, v => beBytes n v
  | .le, n, v => (beBytes n v).reverse

/-- Kinds of integers the library stores. -/
inductive IntKind where
  | u8 | i8 | u16 | i16 | u24 | i24 | u32 | i32 | u64 | i64
  deriving DecidableEq, Repr

/-- Bytes on disk. -/
def IntKind.size : IntKind → Nat
  | u8 | i8 => 1
  | u16 | i16 => 2
  | u24 | i24 => 3
  | u32 | i32 => 4
  | u64 | i64 => 8

/-- Whether the kind is signed. -/
def IntKind.signed : IntKind → Bool
  | i8 | i16 | i24 | i32 | i64 => true
  | u8 | u16 | u24 | u32 | u64 => false

/-- Range of the kind. -/
def IntKind.InRange (k : IntKind) (v : Int) : Prop :=
  if k.signed then -(2 : Int) ^ (8 * k.size - 1) ≤ v ∧ v < (2 : Int) ^ (8 * k.size - 1)
  else 0 ≤ v ∧ v < (2 : Int) ^ (8 * k.size)

instance (k : IntKind) (v : Int) : Decidable (k.InRange v) := by
  unfold IntKind.InRange; infer_instance

/-- The library's writer for each kind. -/
def IntKind.write (bo : ByteOrder) : IntKind → Int → Bytes
  | u8 => writeU8
  | i8 => writeI8
  | u16 => writeU16 bo
  | i16 => writeI16 bo
  | u24 => writeU24 bo
  | i24 => writeI24 bo
  | u32 => writeU32 bo
  | i32 => writeI32 bo
  | u64 => writeU64 bo
  | i64 => writeI64 bo

/-- View an unsigned reader as a reader of integers. -/
def asInt (r : Rd Nat) : Rd Int := fun bs => do
  let (n, rest) ← r bs
  pure ((n : Int), rest)

/-- The library's reader for each kind. -/
def IntKind.read (bo : ByteOrder) : IntKind → Rd Int
  | u8 => asInt readU8
  | i8 => readI8
  | u16 => asInt (readU16 bo)
  | i16 => readI16 bo
  | u24 => asInt (readU24 bo)
  | i24 => readI24 bo
  | u32 => asInt (readU32 bo)
  | i32 => readI32 bo
  | u64 => asInt (readU64 bo)
  | i64 => readI64 bo

end Sedaman.Spec
