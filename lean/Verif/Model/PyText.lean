import Verif.Model.ISEGY
import Verif.Model.OSEGY

/-!
# Texts and header values in Python

What happens to texts and numbers on their way between Python and the library. The conversions
themselves are those of pybind11 and of Python (assumptions): a C++ `string` becomes a `str` by decoding UTF-8, which
raises `UnicodeDecodeError` if it is not UTF-8; an argument of type `string` may be a `str`, which is encoded in
UTF-8, or `bytes`, which are taken as they are; the alternatives of a `variant` are tried in their order.
-/

namespace Sedaman

/-- The numbers of the bytes of a character in UTF-8. There are none for a surrogate, which a Python `str` may contain. -/
def utf8Char (c : Nat) : Option (List Nat) :=
  if c < 0x80 then some [c]
  else if c < 0x800 then some [0xC0 + c / 64, 0x80 + c % 64]
  else if 0xD800 ≤ c ∧ c < 0xE000 then none
  else if c < 0x10000 then some [0xE0 + c / 4096, 0x80 + c / 64 % 64, 0x80 + c % 64]
  else if c < 0x110000 then some [0xF0 + c / 262144, 0x80 + c / 4096 % 64, 0x80 + c / 64 % 64, 0x80 + c % 64]
  else none

/-- A `str` in UTF-8. -/
def utf8Encode : List Nat → Option (List Nat)
  | [] => some []
  | c :: cs => do
    let b ← utf8Char c
    let bs ← utf8Encode cs
    pure (b ++ bs)

/-- A byte that continues a character. -/
def utf8Cont (b : Nat) : Bool := 0x80 ≤ b && b < 0xC0

/-- The `str` of bytes in UTF-8, if there is one: no characters encoded longer than necessary, no surrogates. -/
def utf8Decode : List Nat → Option (List Nat)
  | [] => some []
  | a :: r =>
    if a < 0x80 then (utf8Decode r).map fun cs => a :: cs
    else match r with
    | [] => none
    | b :: r =>
      if 0xC2 ≤ a && a < 0xE0 && utf8Cont b then (utf8Decode r).map fun cs => ((a - 0xC0) * 64 + (b - 0x80)) :: cs
      else match r with
      | [] => none
      | c :: r =>
        let n := (a - 0xE0) * 4096 + (b - 0x80) * 64 + (c - 0x80)
        if 0xE0 ≤ a && a < 0xF0 && utf8Cont b && utf8Cont c && 0x800 ≤ n && !(0xD800 ≤ n && n < 0xE000) then
          (utf8Decode r).map fun cs => n :: cs
        else match r with
        | [] => none
        | d :: r =>
          let n := (a - 0xF0) * 262144 + (b - 0x80) * 4096 + (c - 0x80) * 64 + (d - 0x80)
          if 0xF0 ≤ a && a < 0xF5 && utf8Cont b && utf8Cont c && utf8Cont d && 0x10000 ≤ n && n < 0x110000 then
            (utf8Decode r).map fun cs => n :: cs
          else none

/-- A text in Python: a `str`, given by its code points, or `bytes`. -/
inductive PyText where
  | str (cs : List Nat)
  | bytes (b : Bytes)
  deriving DecidableEq, Repr

/-- A text as an argument of type `string`; `none` is a `TypeError`. -/
def PyText.toCpp : PyText → Option Bytes
  | .str cs => (utf8Encode cs).map (·.map (BitVec.ofNat 8))
  | .bytes b => some b

/-- A C++ `string` as a result; `none` is a `UnicodeDecodeError`. -/
def PyText.ofCpp (b : Bytes) : Option PyText := (utf8Decode (b.map BitVec.toNat)).map .str

/-- A number in Python. -/
inductive PyNum where
  | int (v : Int)
  | float (d : Dbl)
  deriving DecidableEq, Repr

/-- A number as an argument of type `variant<int64_t, double>`: an `int` that does not fit 64 bits is taken as a
`double` if it is not too large for that; `none` is a `TypeError`. Trace.hpp:41, pybind.cpp:31, 53, 56 -/
def PyNum.toCpp : PyNum → Option Value
  | .int v =>
    if -2 ^ 63 ≤ v ∧ v < 2 ^ 63 then some (.int v)
    else match (dblOfInt v).val with
      | .fin .. => some (.dbl (dblOfInt v))
      | _ => none
  | .float d => some (.dbl d)

/-- A `variant<int64_t, double>` as a result. -/
def PyNum.ofCpp : Value → PyNum
  | .int v => .int v
  | .dbl d => .float d

/-- `header.set(key, v)`; `none` is a `TypeError`. pybind.cpp:56-58 -/
def pyHeaderSet (h : Header) (key : String) (v : PyNum) : Option Header := v.toCpp.map (h.set key)

/-- `header.get(key)`: `None` without such a key. pybind.cpp:54-55 -/
def pyHeaderGet (h : Header) (key : String) : Option PyNum := (h.get key).map PyNum.ofCpp

/-- How a call in Python ends other than by returning: by an exception of the conversions, or as in C++. -/
inductive PyErr where
  | typeError
  | unicodeError
  | cpp (e : Err)
  deriving DecidableEq, Repr

/-- The arguments of a call, all converted before the call. -/
def pyTexts : List PyText → Except PyErr (List Bytes)
  | [] => .ok []
  | t :: ts =>
    match t.toCpp, pyTexts ts with
    | some b, .ok bs => .ok (b :: bs)
    | _, _ => .error .typeError

/-- A call of C++. -/
def pyCall {α : Type} : Out α → Except PyErr α
  | .ok a => .ok a
  | .error e => .error (.cpp e)

/-- `ISEGY.text_headers`, whose texts are given as `bytes`. pybind.cpp:189-199 -/
def pyTextHeaders (r : Reader) : List PyText := r.texts.map .bytes

/-- `ISEGY.trailer_stanzas`, whose texts are given as `str`. pybind.cpp:200-201 -/
def pyTrailerStanzas (r : Reader) : Except PyErr (List PyText) :=
  match r.trailers.mapM PyText.ofCpp with
  | some ts => .ok ts
  | none => .error .unicodeError

/-- `OSEGYRev0(file_name, text_header, bin_header, tr_hdr_map)`. pybind.cpp:246-254 -/
def pyRev0 (text : PyText) (bh : BinHeader) (m : HdrMap) : Except PyErr Writer := do
  match ← pyTexts [text] with
  | t :: _ => pyCall (openRev0 t bh m)
  | [] => .error .typeError

/-- `OSEGYRev1(file_name, text_headers, bin_header, tr_hdr_map)`. pybind.cpp:256-264 -/
def pyRev1 (texts : List PyText) (bh : BinHeader) (m : HdrMap) : Except PyErr Writer := do
  pyCall (openRev1 (← pyTexts texts) bh m)

/-- `OSEGYRev2(file_name, text_headers, bin_header, trailer_stanzas, tr_hdr_map)`. pybind.cpp:266-275 -/
def pyRev2 (texts : List PyText) (bh : BinHeader) (trailers : List PyText) (m : HdrMap) : Except PyErr Writer := do
  let texts ← pyTexts texts
  let trailers ← pyTexts trailers
  pyCall (openRev2 texts bh trailers m)

end Sedaman
