import Verif.Model.BitFields
import Verif.Model.S016
import Verif.Model.S017
/-!
# `Default` of the public types

A derived `Default` gives every field its own default (`0`, `""`, `None`, an empty slice), an
enumeration the variant marked `#[default]`.
-/
namespace Dmi

/-- `FlagType::default()`, `src/bitfield.rs` 20-23. -/
def bitfield.FlagType.default : bitfield.FlagType := .Unknown

/-- `Iter::default()`, `src/bitfield.rs` 32-37, for a value type of `width` bits. -/
def bitfield.Iter.default (width : Nat) : bitfield.Iter :=
  { value := 0, width, index := 0, layout := [] }

/-- `Significants::default()`, `src/bitfield.rs` 44-45. -/
def bitfield.Significants.default (width : Nat) : bitfield.Iter := .default width

/-- `Reserved::default()`, `src/bitfield.rs` 50-55. -/
def bitfield.Reserved.default (width : Nat) : bitfield.Reserved :=
  { iter := .default width, desc := none, start := 0 }

/-- `Characteristics::default()`, `src/structures/000_bios.rs` 42-43. -/
def bios.Characteristics.default : bios.Characteristics := ⟨0⟩
/-- `CharacteristicsExtension1::default()`, `src/structures/000_bios.rs` 47-48. -/
def bios.CharacteristicsExtension1.default : bios.CharacteristicsExtension1 := ⟨0⟩
/-- `CharacteristicsExtension2::default()`, `src/structures/000_bios.rs` 52-53. -/
def bios.CharacteristicsExtension2.default : bios.CharacteristicsExtension2 := ⟨0⟩
/-- `BiosRevision::default()`, `src/structures/000_bios.rs` 56-60. -/
def bios.BiosRevision.default : bios.BiosRevision := { major := 0, minor := 0 }
/-- `FirmwareRevision::default()`, `src/structures/000_bios.rs` 64-68. -/
def bios.FirmwareRevision.default : bios.FirmwareRevision := { major := 0, minor := 0 }
/-- `RomSize::default()`, `src/structures/000_bios.rs` 71-78. -/
def bios.RomSize.default : bios.RomSize := { basic := 0, extended := none }

/-- `Bios::default()`, `src/structures/000_bios.rs` 11-39. -/
def bios.Bios.default : bios.Bios where
  handle := 0
  vendor := []
  bios_version := []
  bios_starting_address_segment := 0
  bios_release_date := []
  rom_size := .default
  bios_characteristics := .default
  bios_characteristics_exttension_1 := none
  bios_characteristics_exttension_2 := none
  bios_revision := none
  firmware_revision := none

/-- `LanguageFlags::default()`, `src/structures/013_bios_language.rs` 29-30. -/
def bios_language.LanguageFlags.default : bios_language.LanguageFlags := ⟨0⟩

/-- `MemoryArrayLocation::default()`, `src/structures/016_physical_memory_array.rs` 11-15. -/
def physical_memory_array.MemoryArrayLocation.default :
    physical_memory_array.MemoryArrayLocation := .Unknown
/-- `MemoryArrayUse::default()`, `src/structures/016_physical_memory_array.rs` 78-82. -/
def physical_memory_array.MemoryArrayUse.default : physical_memory_array.MemoryArrayUse := .Unknown
/-- `MemoryArrayErrorCorrectionTypes::default()`,
`src/structures/016_physical_memory_array.rs` 121-125. -/
def physical_memory_array.MemoryArrayErrorCorrectionTypes.default :
    physical_memory_array.MemoryArrayErrorCorrectionTypes := .Unknown

/-- `PhysicalMemoryArray::default()`, `src/structures/016_physical_memory_array.rs` 168-195. -/
def physical_memory_array.PhysicalMemoryArray.default :
    physical_memory_array.PhysicalMemoryArray where
  handle := 0
  location := .default
  use := .default
  memory_error_correction := .default
  maximum_capacity := none
  memory_error_information_handle := none
  number_of_memory_devices := 0
  extended_maximum_capacity := none

/-- `FormFactor::default()`, `src/structures/017_memory_device.rs` 101-105. -/
def memory_device.FormFactor.default : memory_device.FormFactor := .Unknown
/-- `MemoryTechnology::default()`, `src/structures/017_memory_device.rs` 146-150. -/
def memory_device.MemoryTechnology.default : memory_device.MemoryTechnology := .Unknown
/-- `Type::default()`, `src/structures/017_memory_device.rs` 174-178. -/
def memory_device.MemoryType.default : memory_device.MemoryType := .Unknown
/-- `impl Default for Detail`, `src/structures/017_memory_device.rs` 279-283: `Detail::UNKNOWN`. -/
def memory_device.Detail.default : memory_device.Detail := ⟨0b0000000000000100⟩

/-- `MemoryDevice::default()`, `src/structures/017_memory_device.rs` 301-378. -/
def memory_device.MemoryDevice.default : memory_device.MemoryDevice where
  handle := 0
  physical_memory_handle := 0
  memory_error_handle := none
  total_width := none
  data_width := none
  size := none
  form_factor := .default
  device_set := none
  device_locator := []
  bank_locator := []
  memory_type := .default
  type_detail := .default
  speed := none
  manufacturer := []
  serial := []
  asset_tag := []
  part_number := []
  attributes := 0
  extended_size := 0
  configured_memory_speed := none
  minimum_voltage := none
  maximum_voltage := none
  configured_voltage := none
  memory_technology := none
  operating_mode_capability := none
  firmware_version := none
  module_manufacturer := none
  module_product_id := none
  memory_subsystem_controller_manufacturer_id := none
  memory_subsystem_controller_product_id := none
  non_volatile_size := none
  volatile_size := none
  cache_size := none
  logical_size := none
  extended_speed := none
  extended_configured_memory_speed := none

end Dmi
