import Verif.Model.Basic

/-!
# `sedaman::Exception`

A `std::string` is its bytes. A moved from object has a null `pimpl`.
-/

namespace Sedaman

/-- Decimal digits of a number, as `ostream << unsigned long long` prints them in the default
locale. -/
def decimal (n : Nat) : Bytes :=
  if n < 10 then [BitVec.ofNat 8 (48 + n)]
  else decimal (n / 10) ++ [BitVec.ofNat 8 (48 + n % 10)]

/-- An exception object: the message of its `pimpl`, or a null `pimpl`. Exception.hpp:28-71 -/
structure Exception where
  pimpl : Option Bytes
  deriving DecidableEq, Repr

/-- `join_message`. Exception.cpp:31-38 -/
def joinMessage (file : Bytes) (line : Nat) (msg : Bytes) : Bytes :=
  file ++ [0x20] ++ decimal line ++ [0x20] ++ msg

/-- Both constructors from a file name, a line (`unsigned long long`) and a message; the one that
takes temporaries copies them as well. Exception.cpp:20-29, 52-62 -/
def Exception.make (file : Bytes) (line : Nat) (msg : Bytes) : Exception :=
  ⟨some (joinMessage file (line % 2 ^ 64) msg)⟩

/-- `what()`: a pointer to a C string, which ends at the first zero byte. Exception.cpp:40-43 -/
def Exception.what (e : Exception) : Out Bytes :=
  match e.pimpl with
  | none => isUb .nullDeref
  | some s => .ok (s.takeWhile (· ≠ 0))

/-- Move constructor: the new object and the old one afterwards. Exception.cpp:48-51 -/
def Exception.moveFrom (e : Exception) : Exception × Exception := (⟨e.pimpl⟩, ⟨none⟩)

/-- Copy constructor: assigns to `this->pimpl->d_message`, where `this->pimpl` has just been
default constructed and is null. Exception.cpp:44-47 -/
def Exception.copyFrom (e : Exception) : Out Exception :=
  match (none : Option Bytes), e.pimpl with
  | some _, some s => .ok ⟨some s⟩
  | _, _ => isUb .nullDeref

end Sedaman
