import Verif.Tests.Support
import Verif.Model.BitFields
import Verif.Host
/-!
# The tests of `src/bitfield.rs`
-/
namespace Dmi.Tests
open bitfield Fmt
open bitfield.LayoutItem (sig res)

/-- `INDEX_SAMPLE`, `src/bitfield.rs` 341-344. -/
def INDEX_SAMPLE : List Nat :=
  [2, 3, 5, 7, 11, 13, 17, 19, 23, 29, 31, 37, 41, 43, 47, 53, 59, 61, 67, 71, 73, 79, 83, 89, 97, 101,
   103, 107, 109, 113, 127]

/-- `LAYOUT`, `src/bitfield.rs` 345-354. -/
def LAYOUT : Layout := layout 8 [
  sig "A" "A Long",
  sig "B" "B Long",
  res "Reserved 1" 1,
  sig "C" "C Long",
  sig "D" "D Long",
  sig "E" "E Long",
  res "Reserved 2" 2]

/-- `layout_macro`, `src/bitfield.rs` 355-368. -/
example : LAYOUT = [
    .Significant "A" "A Long",
    .Significant "B" "B Long",
    .Reserved "Reserved 1",
    .Significant "C" "C Long",
    .Significant "D" "D Long",
    .Significant "E" "E Long",
    .Reserved "Reserved 2",
    .Reserved "Reserved 2"] := by decide +kernel

/-- `iter`, `src/bitfield.rs` 369-391. -/
example : both (fun oc => runR (Iter.next oc) 200 (.new 8 0b10101001 LAYOUT))
    (some (([true, false, false, true, false, true, false, true].zip LAYOUT).mapIdx fun i p =>
      ⟨i, p.1, p.2⟩)) := by decide +kernel

/-- What `format!` makes of the items of an iterator of flags. -/
def texts (alt : Bool) (l : Option (List Flag)) : Option (List Text) := l.map (·.map (Flag.display alt))

/-- `significants`, `src/bitfield.rs` 393-404. -/
example : both (fun oc => texts false (runR (Significants.next oc) 200 (.new 8 0b10101001 LAYOUT)))
    (some [txt! "A", txt! "C", txt! "E"]) := by decide +kernel
example : both (fun oc => texts true (runR (Significants.next oc) 200 (.new 8 0b10101001 LAYOUT)))
    (some [txt! "A Long", txt! "C Long", txt! "E Long"]) := by decide +kernel

/-- The ranges `Reserved` yields. -/
def ranges (oc : Bool) (width value : Nat) (l : Layout) : Option (List (Nat × Nat)) :=
  (runR (Reserved.next oc) 200 (.new (.new width value l))).map (·.map fun v => (v.start, v.stop))

/-- `reserved`, `src/bitfield.rs` 406-461. -/
example : both (fun oc => ranges oc 8 255 (layout 8 [
    sig "S A" "A Long", sig "S B" "B Long", sig "S C" "C Long", sig "S D" "D Long", sig "S E" "E Long",
    sig "S F" "F Long", sig "S G" "G Long", sig "S H" "H Long"])) (some []) := by decide +kernel
example : both (fun oc => ranges oc 8 255 (layout 8 [res "R 1" 8])) (some [(0, 7)]) := by decide +kernel
example : both (fun oc => ranges oc 8 255 (layout 8 [
    sig "S A" "A Long", sig "S B" "B Long", sig "S C" "C Long", sig "S D" "D Long", sig "S E" "E Long",
    sig "S F" "F Long", res "R 1" 2])) (some [(6, 7)]) := by decide +kernel
example : both (fun oc => ranges oc 16 65535 (layout 16 [
    sig "S A" "A Long", sig "S B" "B Long", res "R 1" 1, sig "S C" "C Long", sig "S C" "C Long",
    sig "S D" "D Long", sig "S E" "E Long", res "R 2" 2, sig "S C" "C Long", res "R 2" 2, res "R 3" 4]))
    (some [(2, 2), (7, 8), (10, 11), (12, 15)]) := by decide +kernel

/-- `from_iterator_shift_overflow`, `src/bitfield.rs` 463-467 (with overflow checks). -/
example : fromPositions true 8 INDEX_SAMPLE = .panic := by decide +kernel

/-- `from_iterator_values`, `src/bitfield.rs` 468-505. -/
example : both (fun oc => fromPositions oc 8 (INDEX_SAMPLE.takeWhile (· < 8))) (.ok 0b10101100) := by
  decide +kernel
example : both (fun oc => fromPositions oc 16 (INDEX_SAMPLE.takeWhile (· < 16)))
    (.ok 0b0010100010101100) := by decide +kernel
example : both (fun oc => fromPositions oc 32 (INDEX_SAMPLE.takeWhile (· < 32))) (.ok 2693408940) := by
  decide +kernel
example : both (fun oc => fromPositions oc 64 (INDEX_SAMPLE.takeWhile (· < 64)))
    (.ok 2891462833508853932) := by decide +kernel
example : both (fun oc => fromPositions oc 128 (INDEX_SAMPLE.takeWhile (· < 128)))
    (.ok 170152392186162032610075049835446806700) := by decide +kernel

/-! ## The bit fields of `src/structures/000_bios.rs` -/

/-- `PRIMES`, `src/structures/000_bios.rs` 365. -/
def PRIMES : List Nat := [2, 3, 5, 7, 11, 13, 17, 19, 23, 29, 31, 37, 41, 43, 47, 53, 59, 61]

/-- The positions of the set flags. -/
def setPositions {α : Type} [BitField α] (oc : Bool) (a : α) : Option (List Nat) :=
  (runR (Iter.next oc) 200 (BitField.iter a)).map (·.filterMap fun f =>
    if f.is_set then some f.position else none)

/-- What `format!` makes of the significant flags. -/
def significantTexts {α : Type} [BitField α] (alt oc : Bool) (a : α) : Option (List Text) :=
  texts alt (runR (Significants.next oc) 200 (BitField.significants a))

/-- The reserved fields. -/
def reservedFields {α : Type} [BitField α] (oc : Bool) (a : α) : Option (List ReservedRange) :=
  runR (Reserved.next oc) 200 (BitField.reserved a)

/-- `characteristics`, `src/structures/000_bios.rs` 373-410. -/
example : (match fromPositions true 64 PRIMES with
    | .ok n => setPositions true (bios.Characteristics.mk (.ofNat n))
    | _ => none) = some PRIMES := by decide +kernel
example : both (fun oc => significantTexts false oc (bios.Characteristics.mk 0b01010000))
    (some [txt! "ISA is supported", txt! "EISA is supported"]) := by decide +kernel
example : both (fun oc => significantTexts true oc (bios.Characteristics.mk 0b01010000))
    (some [txt! "ISA is supported", txt! "EISA is supported"]) := by decide +kernel
example : both (fun oc => reservedFields oc (bios.Characteristics.mk 0))
    (some [⟨"Reserved for BIOS vendor", 32, 47⟩, ⟨"Reserved for system vendor", 48, 63⟩]) := by
  decide +kernel

/-- `characteristics_extension1`, `src/structures/000_bios.rs` 411-442. -/
example : both (fun oc => significantTexts false oc (bios.CharacteristicsExtension1.mk 0b01000001))
    (some [txt! "ACPI is supported", txt! "IEEE 1394 boot is supported"]) := by decide +kernel
example : both (fun oc => significantTexts true oc (bios.CharacteristicsExtension1.mk 0b01000001))
    (some [txt! "ACPI is supported", txt! "1394 boot is supported"]) := by decide +kernel
example : both (fun oc => reservedFields oc (bios.CharacteristicsExtension1.mk 0)) (some []) := by
  decide +kernel

/-- `characteristics_extension2`, `src/structures/000_bios.rs` 443-478. -/
example : both (fun oc => significantTexts false oc (bios.CharacteristicsExtension2.mk 0b00011000))
    (some [txt! "UEFI is supported", txt! "System is a virtual machine"]) := by decide +kernel
example : both (fun oc => significantTexts true oc (bios.CharacteristicsExtension2.mk 0b00011000))
    (some [txt! "UEFI is supported", txt! "SMBIOS table describes a virtual machine. (If this bit is not set, no inference can be made about the virtuality of the system.)"]) := by
  decide +kernel
example : both (fun oc => reservedFields oc (bios.CharacteristicsExtension2.mk 0))
    (some [⟨"Reserved for future assignment", 5, 7⟩]) := by decide +kernel

/-- `rom_size`, `src/structures/000_bios.rs` 479-500. -/
example : (bios.RomSize.mk 0x7F none).toU64 = .ok ((8 : UInt64) <<< 20) := by decide +kernel
example : (bios.RomSize.mk 0xFE none).toU64 = .ok (((16 : UInt64) <<< 20) - 65536) := by decide +kernel
example : (bios.RomSize.mk 0xFF (some 0x0010)).toU64 = .ok ((16 : UInt64) <<< 20) := by decide +kernel
example : (bios.RomSize.mk 0xFF (some 64)).toU64 = .ok ((64 : UInt64) <<< 20) := by decide +kernel
example : (bios.RomSize.mk 0xFF (some 0x4030)).toU64 = .ok ((48 : UInt64) <<< 30) := by decide +kernel

end Dmi.Tests
