import Verif.Model.Lib
/-!
# Model of `src/structures/017_memory_device.rs` (Memory Device, type 17)
-/
namespace Dmi.memory_device

/-- `Detail` (`bitflags!`), `src/structures/017_memory_device.rs` 256-277. -/
structure Detail where
  bits : UInt16
deriving DecidableEq, Repr

/-- The declared flags of `Detail`, `src/structures/017_memory_device.rs` 260-275. -/
def Detail.flags : List (String × UInt16) :=
  [("RESERVED", 0b0000000000000000), ("OTHER", 0b0000000000000010),
   ("UNKNOWN", 0b0000000000000100), ("FAST_PAGED", 0b0000000000001000),
   ("STATIC_COLUMN", 0b0000000000010000), ("PSEUDO_STATIC", 0b0000000000100000),
   ("RAMBUS", 0b0000000001000000), ("SYNCHRONOUS", 0b0000000010000000),
   ("CMOS", 0b0000000100000000), ("EDO", 0b0000001000000000), ("WINDOW_DRAM", 0b0000010000000000),
   ("CACHE_DRAM", 0b0000100000000000), ("NON_VOLATILE", 0b0001000000000000),
   ("REGISTERED", 0b0010000000000000), ("UNREGISTERED", 0b0100000000000000),
   ("LRDIMM", 0b1000000000000000)]

/-- `Detail::from_bits_truncate` (crate `bitflags`): keep the bits occurring in a declared
flag. -/
def Detail.fromBitsTruncate (b : UInt16) : Detail :=
  ⟨b &&& (flags.map (·.2)).foldl (· ||| ·) 0⟩

/-- `Detail::contains` (crate `bitflags`): all bits of the given flag are set. -/
def Detail.contains (f : Detail) (flag : UInt16) : Bool := f.bits &&& flag == flag

/-- `OperatingModes` (`bitflags!`), `src/structures/017_memory_device.rs` 285-295. -/
structure OperatingModes where
  bits : UInt16
deriving DecidableEq, Repr

/-- The declared flags of `OperatingModes`, `src/structures/017_memory_device.rs` 288-293. -/
def OperatingModes.flags : List (String × UInt16) :=
  [("RESERVED", 0b0000000000000000), ("OTHER", 0b0000000000000010),
   ("UNKNOWN", 0b0000000000000100), ("VOLATILE", 0b0000000000001000),
   ("BYTE_ACCESSIBLE_PERSISTENT", 0b0000000000010000),
   ("BLOCK_ACCESSIBLE_PERSISTENT", 0b0000000000100000)]

/-- `OperatingModes::from_bits_truncate` (crate `bitflags`): keep the bits occurring in a declared
flag. -/
def OperatingModes.fromBitsTruncate (b : UInt16) : OperatingModes :=
  ⟨b &&& (flags.map (·.2)).foldl (· ||| ·) 0⟩

/-- `OperatingModes::contains` (crate `bitflags`): all bits of the given flag are set. -/
def OperatingModes.contains (f : OperatingModes) (flag : UInt16) : Bool := f.bits &&& flag == flag

/-- `MemoryDevice`, `src/structures/017_memory_device.rs` 302-378. -/
structure MemoryDevice where
  handle : UInt16
  physical_memory_handle : UInt16
  memory_error_handle : Option UInt16
  total_width : Option UInt16
  data_width : Option UInt16
  size : Option UInt16
  form_factor : FormFactor
  device_set : Option UInt8
  device_locator : Str
  bank_locator : Str
  memory_type : MemoryType
  type_detail : Detail
  speed : Option UInt16
  manufacturer : Str
  serial : Str
  asset_tag : Str
  part_number : Str
  attributes : UInt8
  extended_size : UInt32
  configured_memory_speed : Option UInt16
  minimum_voltage : Option UInt16
  maximum_voltage : Option UInt16
  configured_voltage : Option UInt16
  memory_technology : Option MemoryTechnology
  operating_mode_capability : Option OperatingModes
  firmware_version : Option Str
  module_manufacturer : Option UInt16
  module_product_id : Option UInt16
  memory_subsystem_controller_manufacturer_id : Option UInt16
  memory_subsystem_controller_product_id : Option UInt16
  non_volatile_size : Option UInt64
  volatile_size : Option UInt64
  cache_size : Option UInt64
  logical_size : Option UInt64
  extended_speed : Option UInt32
  extended_configured_memory_speed : Option UInt32
deriving DecidableEq, Repr

/-- `MemoryDevice::try_from`, `src/structures/017_memory_device.rs` 381-431. `device_set` goes through
`impl From<T> for Option<T>` (core), i.e. `Some`. -/
def MemoryDevice.try_from [Usize] (oc : Bool) (s : RawStructure) : R MemoryDevice :=
  if s.data.length + 4 < 0x15 then
    .err (.InvalidFormattedSectionLength .MemoryDevice s.handle "at least" 0x15)
  else do
    pure {
      handle := s.handle
      physical_memory_handle := ← s.get16 oc 0x04
      memory_error_handle := (← (s.get16 oc 0x06).toOption).filter (fun v => v != 0xFFFE)
      total_width := (← (s.get16 oc 0x08).toOption).filter (fun v => v != 0xFFFF)
      data_width := (← (s.get16 oc 0x0A).toOption).filter (fun v => v != 0xFFFF)
      size := (← (s.get16 oc 0x0C).toOption).filter (fun v => v != 0xFFFF)
      form_factor := FormFactor.ofU8 (← s.get8 oc 0x0E)
      device_set := some (← s.get8 oc 0x0F)
      device_locator := ← s.get_string oc 0x10
      bank_locator := ← s.get_string oc 0x11
      memory_type := MemoryType.ofU8 (← s.get8 oc 0x12)
      type_detail := Detail.fromBitsTruncate (← s.get16 oc 0x13)
      speed := (← (s.get16 oc 0x15).toOption).filter (fun v => v != 0x0000)
      manufacturer := ← s.get_string oc 0x17
      serial := ← s.get_string oc 0x18
      asset_tag := ← s.get_string oc 0x19
      part_number := ← s.get_string oc 0x1A
      attributes := ← s.get8 oc 0x1B
      extended_size := ← s.get32 oc 0x1C
      configured_memory_speed := (← (s.get16 oc 0x20).toOption).filter (fun v => v != 0x0000)
      minimum_voltage := (← (s.get16 oc 0x22).toOption).filter (fun v => v != 0x0000)
      maximum_voltage := (← (s.get16 oc 0x24).toOption).filter (fun v => v != 0x0000)
      configured_voltage := (← (s.get16 oc 0x26).toOption).filter (fun v => v != 0x0000)
      memory_technology := (← (s.get8 oc 0x28).toOption).map MemoryTechnology.ofU8
      operating_mode_capability := (← (s.get16 oc 0x29).toOption).map OperatingModes.fromBitsTruncate
      firmware_version := ← (s.get_string oc 0x2B).toOption
      module_manufacturer := ← (s.get16 oc 0x2C).toOption
      module_product_id := ← (s.get16 oc 0x2E).toOption
      memory_subsystem_controller_manufacturer_id := ← (s.get16 oc 0x30).toOption
      memory_subsystem_controller_product_id := ← (s.get16 oc 0x32).toOption
      non_volatile_size := ← (s.get64 oc 0x34).toOption
      volatile_size := ← (s.get64 oc 0x3C).toOption
      cache_size := ← (s.get64 oc 0x44).toOption
      logical_size := ← (s.get64 oc 0x4C).toOption
      extended_speed := ← (s.get32 oc 0x54).toOption
      extended_configured_memory_speed := ← (s.get32 oc 0x58).toOption }

end Dmi.memory_device
