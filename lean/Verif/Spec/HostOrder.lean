import Verif.Model.HostOrder
import Verif.Spec.RawIO

/-!
# Specification: computers of either byte order
-/

namespace Sedaman.Spec

/-- The library's reader for each kind of integer on a computer with byte order `h`, once one of the
two sets of readers was selected. -/
def IntKind.readOn (h : ByteOrder) (s : RawSet) : IntKind → Rd Int
  | u8 => asInt (readU8H h)
  | i8 => readI8H h
  | u16 => asInt (readU16H h s)
  | i16 => readI16H h s
  | u24 => asInt (readU24H h s)
  | i24 => readI24H h s
  | u32 => asInt (readU32H h s)
  | i32 => readI32H h s
  | u64 => asInt (readU64H h s)
  | i64 => readI64H h s

/-- The library's writer for each kind of integer on a computer with byte order `h`. -/
def IntKind.writeOn (h : ByteOrder) (s : RawSet) : IntKind → Int → Bytes
  | u8 => writeU8H h
  | i8 => writeI8H h
  | u16 => writeU16H h s
  | i16 => writeI16H h s
  | u24 => writeU24H h s
  | i24 => writeI24H h s
  | u32 => writeU32H h s
  | i32 => writeI32H h s
  | u64 => writeU64H h s
  | i64 => writeI64H h s

/-- The same for the SEG-D writer. -/
def IntKind.writeSegdOn (h : ByteOrder) : IntKind → Int → Out Bytes
  | i32, v => segdWriteI32 h v
  | k, v => .ok (k.writeOn h (segdSet h) v)

/-- The other byte order. -/
def other : ByteOrder → ByteOrder
  | .le => .be
  | .be => .le

/-- The byte order of a file that is read or written with one of the two sets on a computer with byte
order `h`. -/
def fileOrder (h : ByteOrder) : RawSet → ByteOrder
  | .native => h
  | .swapped => other h

/-- The four bytes that say that a SEG-Y file is in byte order `o`: the number 0x01020304 in that
order. -/
def markerBytes (o : ByteOrder) : Bytes := encInt o 4 0x01020304

end Sedaman.Spec
