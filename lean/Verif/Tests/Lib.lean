import Verif.Tests.Support
/-!
# The tests of `src/lib.rs`
-/
namespace Dmi.Tests

/-! ## Entry points -/

/-- The entry point in `tests/data/entry.bin`. -/
def entryV2 : EntryPoint := .V2 {
  signature := 0x5f4d535f, checksum := 240, len := 31, major := 2, minor := 7, struct_max := 138
  revision := 0, formatted := [0, 0, 0, 0, 0], dmi_signature := u8! "_DMI_", dmi_checksum := 239
  smbios_len := 2736, smbios_address := 3668561920, smbios_count := 69, bcd_revision := 0x27 }

/-- The entry point in `tests/data/dmidecode.bin`. -/
def entryDmidecode : EntryPoint := .V2 {
  signature := 0x5f4d535f, checksum := 240, len := 31, major := 2, minor := 7, struct_max := 138
  revision := 0, formatted := [0, 0, 0, 0, 0], dmi_signature := u8! "_DMI_", dmi_checksum := 34
  smbios_len := 2736, smbios_address := 32, smbios_count := 69, bcd_revision := 0x27 }

/-- The entry point in `tests/data/entry_v3.bin`. -/
def entryV3 : EntryPoint := .V3 {
  signature := u8! "_SM3_", checksum := 237, len := 24, major := 3, minor := 0, docrev := 0
  revision := 1, reserved := 0, smbios_len_max := 5525, smbios_address := 0xEAE00 }

/-- The entry point in `tests/data/entry_v3_short.bin`. -/
def entryV3Short : EntryPoint := .V3 {
  signature := u8! "_SM3_", checksum := 100, len := 24, major := 3, minor := 0, docrev := 0
  revision := 1, reserved := 0, smbios_len_max := 7483, smbios_address := 0xED9B0 }

/-- The entry point in `tests/data/dmi.0.bin`. -/
def entryDmi0 : EntryPoint := .V3 {
  signature := u8! "_SM3_", checksum := 25, len := 24, major := 3, minor := 2, docrev := 0
  revision := 1, reserved := 0, smbios_len_max := 4869, smbios_address := 32 }

/-- `found_smbios_entry`, `src/lib.rs` 811-815. -/
example : EntryPoint.search ENTRY_V2_BIN = .ok entryV2 := by
  unfold EntryPoint.search; rw [findSignature_eq]; decide +kernel
example : EntryPoint.search DMIDECODE_BIN = .ok entryDmidecode := by
  unfold EntryPoint.search; rw [findSignature_eq]; decide +kernel

/-- `found_smbios_entry_v3`, `src/lib.rs` 817-820. -/
example : EntryPoint.search ENTRY_V3_BIN = .ok entryV3 := by
  unfold EntryPoint.search; rw [findSignature_eq]; decide +kernel
example : EntryPoint.search ENTRY_V3_SHORT = .ok entryV3Short := by
  unfold EntryPoint.search; rw [findSignature_eq]; decide +kernel
example : EntryPoint.search DMI_0_BIN = .ok entryDmi0 := by
  unfold EntryPoint.search; rw [findSignature_eq]; decide +kernel

/-- `doesnt_find_smbios_entry`, `src/lib.rs` 822-826. -/
example : EntryPoint.search DMI_V2_BIN = .err .NotFound := by
  unfold EntryPoint.search; rw [findSignature_eq]; decide +kernel

/-- `found_signature`, `src/lib.rs` 828-833. -/
example : findSignature ENTRY_V2_BIN = some (.V2, 0) := by rw [findSignature_eq]; decide +kernel
example : findSignature ENTRY_V3_BIN = some (.V3, 0) := by rw [findSignature_eq]; decide +kernel
example : findSignature DMIDECODE_BIN = some (.V2, 0) := by rw [findSignature_eq]; decide +kernel

/-- `doesnt_find_signature`, `src/lib.rs` 835-840. -/
example : findSignature DMI_V2_BIN = none := by rw [findSignature_eq]; decide +kernel
example : findSignature DMI_V3_BIN = none := by rw [findSignature_eq]; decide +kernel

/-! ## Iterating the tables -/

/-- The number of items and how many of them are `Ok`. -/
def counts (l : List (Except MalformedStructureError Structure)) : Nat × Nat :=
  (l.length, (oks l).length)

/-- `iterator_through_structures`, `src/lib.rs` 842-851, and the example in the documentation of
`EntryPoint::structures`, `src/lib.rs` 154-163, which unwraps every item. The entry point announces 69
structures. -/
example : Yields true entryDmidecode (DMIDECODE_BIN.drop 32) (counts · = (69, 69)) :=
  yields (by decide +kernel)
example : Yields false entryDmidecode (DMIDECODE_BIN.drop 32) (counts · = (69, 69)) :=
  yields (by decide +kernel)

/-- `iterator_through_structures_v3_short`, `src/lib.rs` 853-859. The table is shorter than the entry point
says; iteration ends with the end-of-table structure. -/
example : Yields true entryV3Short DMI_V3_SHORT (counts · = (102, 102)) := yields (by decide +kernel)

/-- `iterator_through_structures_v3`, `src/lib.rs` 861-867. -/
example : Yields true entryV3 DMI_V3_BIN (counts · = (99, 99)) := yields (by decide +kernel)

/-- The table of the tests in `src/structures`. -/
example : Yields true entryDmi0 (DMI_0_BIN.drop 32) (counts · = (77, 77)) := yields (by decide +kernel)

/-- The crate's own test data makes it read out of bounds: in `tests/data/dmi_v3_short.bin` there are
processors of length 2Ah at offsets 3549 and 3753, but at version 3.0 the decoder reads 30h bytes. In
`tests/data/dmi.0.bin` there is a base board of length 8 at offset 182. -/
example : Structures.next true { entryV3Short.structures DMI_V3_SHORT with idx := 3549 } = .ub :=
  ub_of (by decide +kernel)
example : Structures.next true { entryV3Short.structures DMI_V3_SHORT with idx := 3753 } = .ub :=
  ub_of (by decide +kernel)
example : Structures.next true { entryDmi0.structures (DMI_0_BIN.drop 32) with idx := 182 } = .ub :=
  ub_of (by decide +kernel)

/-! ## Helpers -/

/-- `find_nulnul_*`, `src/lib.rs` 869-897. -/
example : findNulNul [] = none := by decide
example : findNulNul [0] = none := by decide
example : findNulNul [0, 0] = some 1 := by decide
example : findNulNul [1, 2, 3, 4, 0, 5, 4, 3, 2, 1, 0, 0] = some 11 := by decide
example : findNulNul [1, 2, 3, 4, 0, 5, 4, 3, 2, 1, 0, 0, 1, 2, 3] = some 11 := by decide

/-- `structure_strings`, `src/lib.rs` 899-923. -/
example : (StructureStrings.new [65, 66, 67, 0, 68, 69, 0, 70, 0, 71, 72, 73, 0, 0]).collect =
    [u8! "ABC", u8! "DE", u8! "F", u8! "GHI"] := by decide +kernel
example : (StructureStrings.new [0, 0]).collect = [] := by decide +kernel
example : (StructureStrings.new [65, 66, 67, 0, 68, 69, 0, 70, 0, 71, 72, 73]).collect =
    [u8! "ABC", u8! "DE", u8! "F", u8! "GHI"] := by decide +kernel
example : (StructureStrings.new [65, 66, 67, 0, 0, 68, 69, 0, 0, 0, 0, 0]).collect = [u8! "ABC"] := by
  decide +kernel
example : (StructureStrings.new [0, 0, 65, 66, 67]).collect = [] := by decide +kernel

end Dmi.Tests
