import Verif.Model.Ebcdic

/-! # Property C06: EBCDIC/ASCII conversion is lossless -/

namespace Sedaman.Props

/-- **C06.** Both tables cover all 256 character codes, so no lookup leaves the table. -/
theorem C06_tables_total : e2aTable.length = 256 ∧ a2eTable.length = 256 := by decide +kernel

/-- A statement checked for all 256 codes holds for every byte. -/
private theorem forall_byte {p : Byte → Prop} (h : ∀ i : Fin 256, p (BitVec.ofFin i)) (b : Byte) : p b := by
  have := h b.toFin
  rwa [BitVec.ofFin_toFin] at this

private theorem e2a_a2e (b : Byte) : tableAt e2aTable (tableAt a2eTable b) = b :=
  forall_byte (p := fun b => tableAt e2aTable (tableAt a2eTable b) = b) (by decide +kernel) b

private theorem a2e_e2a (b : Byte) : tableAt a2eTable (tableAt e2aTable b) = b :=
  forall_byte (p := fun b => tableAt a2eTable (tableAt e2aTable b) = b) (by decide +kernel) b

/-- **C06.** ASCII to EBCDIC and back is the identity on every string. -/
theorem C06_ascii_roundtrip (s : Bytes) : ebcdicToAscii (asciiToEbcdic s) = s := by
  unfold ebcdicToAscii asciiToEbcdic
  rw [List.map_map]
  conv => rhs; rw [← List.map_id s]
  exact List.map_congr_left fun b _ => e2a_a2e b

/-- **C06.** EBCDIC to ASCII and back is the identity on every string. -/
theorem C06_ebcdic_roundtrip (s : Bytes) : asciiToEbcdic (ebcdicToAscii s) = s := by
  unfold ebcdicToAscii asciiToEbcdic
  rw [List.map_map]
  conv => rhs; rw [← List.map_id s]
  exact List.map_congr_left fun b _ => a2e_e2a b

/-- **C06.** Lengths are preserved. -/
theorem C06_length (s : Bytes) :
    (asciiToEbcdic s).length = s.length ∧ (ebcdicToAscii s).length = s.length := by
  simp [asciiToEbcdic, ebcdicToAscii]

/-- **C06.** Distinct strings stay distinct. -/
theorem C06_injective (s t : Bytes) :
    (asciiToEbcdic s = asciiToEbcdic t → s = t) ∧ (ebcdicToAscii s = ebcdicToAscii t → s = t) := by
  constructor
  · intro h
    rw [← C06_ascii_roundtrip s, h, C06_ascii_roundtrip]
  · intro h
    rw [← C06_ebcdic_roundtrip s, h, C06_ebcdic_roundtrip]

/-- **C06.** The code page is EBCDIC: blank is 0x40, digits are F0–F9, capital letters are
C1–C9, D1–D9 and E2–E9. -/
theorem C06_code_page :
    asciiToEbcdic [0x20] = [0x40] ∧
    (∀ i : Fin 10, asciiToEbcdic [BitVec.ofNat 8 (0x30 + i)] = [BitVec.ofNat 8 (0xf0 + i)]) ∧
    (∀ i : Fin 9, asciiToEbcdic [BitVec.ofNat 8 (0x41 + i)] = [BitVec.ofNat 8 (0xc1 + i)]) ∧
    (∀ i : Fin 9, asciiToEbcdic [BitVec.ofNat 8 (0x4a + i)] = [BitVec.ofNat 8 (0xd1 + i)]) ∧
    (∀ i : Fin 8, asciiToEbcdic [BitVec.ofNat 8 (0x53 + i)] = [BitVec.ofNat 8 (0xe2 + i)]) := by
  decide +kernel

/-- "C 1" in EBCDIC. -/
example : asciiToEbcdic [0x43, 0x20, 0x31] = [0xc3, 0x40, 0xf1] := by decide +kernel

end Sedaman.Props
