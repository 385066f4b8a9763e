import Verif.Model.Layouts
/-!
# Model of `src/structures/000_bios.rs` (BIOS Information, type 0)
-/
namespace Dmi.bios

/-- `Characteristics`, `src/structures/000_bios.rs` 43. -/
structure Characteristics where
  value : UInt64
deriving DecidableEq, Repr

/-- `CharacteristicsExtension1`, `src/structures/000_bios.rs` 48. -/
structure CharacteristicsExtension1 where
  value : UInt8
deriving DecidableEq, Repr

/-- `CharacteristicsExtension2`, `src/structures/000_bios.rs` 53. -/
structure CharacteristicsExtension2 where
  value : UInt8
deriving DecidableEq, Repr

/-- `BiosRevision`, `src/structures/000_bios.rs` 57-60. -/
structure BiosRevision where
  major : UInt8
  minor : UInt8
deriving DecidableEq, Repr

/-- `FirmwareRevision`, `src/structures/000_bios.rs` 65-68. -/
structure FirmwareRevision where
  major : UInt8
  minor : UInt8
deriving DecidableEq, Repr

/-- `RomSize`, `src/structures/000_bios.rs` 72-78. -/
structure RomSize where
  basic : UInt8
  extended : Option UInt16
deriving DecidableEq, Repr

/-- `Bios`, `src/structures/000_bios.rs` 12-39. -/
structure Bios where
  handle : UInt16
  vendor : Str
  bios_version : Str
  bios_starting_address_segment : UInt16
  bios_release_date : Str
  rom_size : RomSize
  bios_characteristics : Characteristics
  bios_characteristics_exttension_1 : Option CharacteristicsExtension1
  bios_characteristics_exttension_2 : Option CharacteristicsExtension2
  bios_revision : Option BiosRevision
  firmware_revision : Option FirmwareRevision
deriving DecidableEq, Repr

/-- `BiosPacked2_0` (14 bytes), `src/structures/000_bios.rs` 117-126. -/
structure BiosPacked2_0 where
  vendor : UInt8
  bios_version : UInt8
  bios_starting_address_segment : UInt16
  bios_release_date : UInt8
  bios_rom_size : UInt8
  bios_characteristics : UInt64

/-- Memory layout of `BiosPacked2_0`, `src/structures/000_bios.rs` 117-126. -/
def BiosPacked2_0.packed : Packed BiosPacked2_0 := do
  let vendor ← .u8
  let bios_version ← .u8
  let bios_starting_address_segment ← .u16
  let bios_release_date ← .u8
  let bios_rom_size ← .u8
  let bios_characteristics ← .u64
  pure { vendor, bios_version, bios_starting_address_segment, bios_release_date, bios_rom_size,
         bios_characteristics }

/-- `BiosPacked2_4` (20 bytes), `src/structures/000_bios.rs` 100-115. -/
structure BiosPacked2_4 where
  vendor : UInt8
  bios_version : UInt8
  bios_starting_address_segment : UInt16
  bios_release_date : UInt8
  bios_rom_size : UInt8
  bios_characteristics : UInt64
  bios_characteristics_exttension_1 : UInt8
  bios_characteristics_exttension_2 : UInt8
  system_bios_major_release : UInt8
  system_bios_minor_release : UInt8
  embedded_controller_firmware_major_release : UInt8
  embedded_controller_firmware_minor_release : UInt8

/-- Memory layout of `BiosPacked2_4`, `src/structures/000_bios.rs` 100-115. -/
def BiosPacked2_4.packed : Packed BiosPacked2_4 := do
  let vendor ← .u8
  let bios_version ← .u8
  let bios_starting_address_segment ← .u16
  let bios_release_date ← .u8
  let bios_rom_size ← .u8
  let bios_characteristics ← .u64
  let bios_characteristics_exttension_1 ← .u8
  let bios_characteristics_exttension_2 ← .u8
  let system_bios_major_release ← .u8
  let system_bios_minor_release ← .u8
  let embedded_controller_firmware_major_release ← .u8
  let embedded_controller_firmware_minor_release ← .u8
  pure { vendor, bios_version, bios_starting_address_segment, bios_release_date, bios_rom_size,
         bios_characteristics, bios_characteristics_exttension_1, bios_characteristics_exttension_2,
         system_bios_major_release, system_bios_minor_release,
         embedded_controller_firmware_major_release, embedded_controller_firmware_minor_release }

/-- `BiosPacked3_1` (22 bytes), `src/structures/000_bios.rs` 82-98. -/
structure BiosPacked3_1 where
  vendor : UInt8
  bios_version : UInt8
  bios_starting_address_segment : UInt16
  bios_release_date : UInt8
  bios_rom_size : UInt8
  bios_characteristics : UInt64
  bios_characteristics_exttension_1 : UInt8
  bios_characteristics_exttension_2 : UInt8
  system_bios_major_release : UInt8
  system_bios_minor_release : UInt8
  embedded_controller_firmware_major_release : UInt8
  embedded_controller_firmware_minor_release : UInt8
  extended_bios_rom_size : UInt16

/-- Memory layout of `BiosPacked3_1`, `src/structures/000_bios.rs` 82-98. -/
def BiosPacked3_1.packed : Packed BiosPacked3_1 := do
  let vendor ← .u8
  let bios_version ← .u8
  let bios_starting_address_segment ← .u16
  let bios_release_date ← .u8
  let bios_rom_size ← .u8
  let bios_characteristics ← .u64
  let bios_characteristics_exttension_1 ← .u8
  let bios_characteristics_exttension_2 ← .u8
  let system_bios_major_release ← .u8
  let system_bios_minor_release ← .u8
  let embedded_controller_firmware_major_release ← .u8
  let embedded_controller_firmware_minor_release ← .u8
  let extended_bios_rom_size ← .u16
  pure { vendor, bios_version, bios_starting_address_segment, bios_release_date, bios_rom_size,
         bios_characteristics, bios_characteristics_exttension_1, bios_characteristics_exttension_2,
         system_bios_major_release, system_bios_minor_release,
         embedded_controller_firmware_major_release, embedded_controller_firmware_minor_release,
         extended_bios_rom_size }

/-- `Bios::try_from`, `src/structures/000_bios.rs` 81-207. -/
def Bios.try_from (s : RawStructure) : R Bios :=
  if s.version.ge (.ofPair 3 1) then do
    let packed ← letAsStruct BiosPacked3_1.packed s.data
    pure {
      handle := s.handle
      vendor := ← s.find_string packed.vendor
      bios_version := ← s.find_string packed.bios_version
      bios_starting_address_segment := packed.bios_starting_address_segment
      bios_release_date := ← s.find_string packed.bios_release_date
      rom_size := { basic := packed.bios_rom_size, extended := some packed.extended_bios_rom_size }
      bios_characteristics := ⟨packed.bios_characteristics⟩
      bios_characteristics_exttension_1 := some ⟨packed.bios_characteristics_exttension_1⟩
      bios_characteristics_exttension_2 := some ⟨packed.bios_characteristics_exttension_2⟩
      bios_revision := some ⟨packed.system_bios_major_release, packed.system_bios_minor_release⟩
      firmware_revision := some ⟨packed.embedded_controller_firmware_major_release,
        packed.embedded_controller_firmware_minor_release⟩ }
  else if s.version.ge (.ofPair 2 4) then do
    let packed ← letAsStruct BiosPacked2_4.packed s.data
    pure {
      handle := s.handle
      vendor := ← s.find_string packed.vendor
      bios_version := ← s.find_string packed.bios_version
      bios_starting_address_segment := packed.bios_starting_address_segment
      bios_release_date := ← s.find_string packed.bios_release_date
      rom_size := { basic := packed.bios_rom_size, extended := none }
      bios_characteristics := ⟨packed.bios_characteristics⟩
      bios_characteristics_exttension_1 := some ⟨packed.bios_characteristics_exttension_1⟩
      bios_characteristics_exttension_2 := some ⟨packed.bios_characteristics_exttension_2⟩
      bios_revision := some ⟨packed.system_bios_major_release, packed.system_bios_minor_release⟩
      firmware_revision := some ⟨packed.embedded_controller_firmware_major_release,
        packed.embedded_controller_firmware_minor_release⟩ }
  else do
    let packed ← letAsStruct BiosPacked2_0.packed s.data
    pure {
      handle := s.handle
      vendor := ← s.find_string packed.vendor
      bios_version := ← s.find_string packed.bios_version
      bios_starting_address_segment := packed.bios_starting_address_segment
      bios_release_date := ← s.find_string packed.bios_release_date
      rom_size := { basic := packed.bios_rom_size, extended := none }
      bios_characteristics := ⟨packed.bios_characteristics⟩
      bios_characteristics_exttension_1 := none
      bios_characteristics_exttension_2 := none
      bios_revision := none
      firmware_revision := none }

/-- `impl From<RomSize> for u64`, `src/structures/000_bios.rs` 318-334. `unimplemented!()` and
`unreachable!()` are panics. -/
def RomSize.toU64 (r : RomSize) : Fault UInt64 :=
  if r.basic ≠ 0xFF then .ok ((r.basic + 1).toUInt64 * ((64 : UInt64) <<< 10))
  else match r.extended with
    | some extended =>
      let unit := (extended >>> 14) &&& 0b11
      let size := (extended &&& 0x3fff).toUInt64
      if unit = 0b00 then .ok (size <<< 20)
      else if unit = 0b01 then .ok (size <<< 30)
      else .panic
    | none => .panic

end Dmi.bios
