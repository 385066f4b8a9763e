import Verif.Model.Lib
/-!
# Model of `src/structures/004_processor.rs` (Processor Information, type 4)
-/
namespace Dmi.processor

/-- `ProcessorStatus` (`bitflags!`), `src/structures/004_processor.rs` 42-53. -/
structure ProcessorStatus where
  bits : UInt8
deriving DecidableEq, Repr

/-- The declared flags of `ProcessorStatus`, `src/structures/004_processor.rs` 46-51. -/
def ProcessorStatus.flags : List (String × UInt8) :=
  [("CPU_SOCKET_POPULATED", 0b0100_0000), ("CPU_ENABLED", 0b0000_0001),
   ("CPU_DISABLED_BY_USER", 0b0000_0010), ("CPU_DISABLED_BY_BIOS", 0b0000_0011),
   ("CPU_IDLE", 0b0000_0100), ("CPU_OTHER", 0b000_0111)]

/-- `ProcessorStatus::from_bits_truncate` (crate `bitflags`): keep the bits occurring in a declared
flag. -/
def ProcessorStatus.fromBitsTruncate (b : UInt8) : ProcessorStatus :=
  ⟨b &&& (flags.map (·.2)).foldl (· ||| ·) 0⟩

/-- `ProcessorStatus::contains` (crate `bitflags`): all bits of the given flag are set. -/
def ProcessorStatus.contains (f : ProcessorStatus) (flag : UInt8) : Bool := f.bits &&& flag == flag

/-- `ProcessorCharacteristics` (`bitflags!`), `src/structures/004_processor.rs` 55-69. -/
structure ProcessorCharacteristics where
  bits : UInt16
deriving DecidableEq, Repr

/-- The declared flags of `ProcessorCharacteristics`, `src/structures/004_processor.rs` 59-67. -/
def ProcessorCharacteristics.flags : List (String × UInt16) :=
  [("RESERVED", 0b0000_0001), ("UNKNOWN", 0b0000_0010), ("CAPABLE_64BIT", 0b0000_0100),
   ("MULTICORE", 0b0000_1000), ("HARDWARE_THREAD", 0b0001_0000),
   ("EXECUTE_PROTECTION", 0b0010_0000), ("ENHANCED_VIRTUALIZATION", 0b0100_0000),
   ("POWER_PERFORMANCE_CONTROL", 0b1000_0000), ("ARM64_SOC_ID", 0b0000_0010_0000_0000)]

/-- `ProcessorCharacteristics::from_bits_truncate` (crate `bitflags`): keep the bits occurring in a declared
flag. -/
def ProcessorCharacteristics.fromBitsTruncate (b : UInt16) : ProcessorCharacteristics :=
  ⟨b &&& (flags.map (·.2)).foldl (· ||| ·) 0⟩

/-- `ProcessorCharacteristics::contains` (crate `bitflags`): all bits of the given flag are set. -/
def ProcessorCharacteristics.contains (f : ProcessorCharacteristics) (flag : UInt16) : Bool :=
  f.bits &&& flag == flag

/-- `VoltageLegacy` (`bitflags!`), `src/structures/004_processor.rs` 393-401. -/
structure VoltageLegacy where
  bits : UInt8
deriving DecidableEq, Repr

/-- `src/structures/004_processor.rs` 397. -/
def VoltageLegacy.VOLTAGE_CAPABILITY_5V0 : UInt8 := 0b0000_0001
/-- `src/structures/004_processor.rs` 398. -/
def VoltageLegacy.VOLTAGE_CAPABILITY_3V3 : UInt8 := 0b0000_0010
/-- `src/structures/004_processor.rs` 399. -/
def VoltageLegacy.VOLTAGE_CAPABILITY_2V9 : UInt8 := 0b0000_0100

/-- The declared flags of `VoltageLegacy`, `src/structures/004_processor.rs` 397-399. -/
def VoltageLegacy.flags : List (String × UInt8) :=
  [("VOLTAGE_CAPABILITY_5V0", VOLTAGE_CAPABILITY_5V0),
   ("VOLTAGE_CAPABILITY_3V3", VOLTAGE_CAPABILITY_3V3),
   ("VOLTAGE_CAPABILITY_2V9", VOLTAGE_CAPABILITY_2V9)]

/-- `VoltageLegacy::from_bits_truncate` (crate `bitflags`): keep the bits occurring in a declared
flag. -/
def VoltageLegacy.fromBitsTruncate (b : UInt8) : VoltageLegacy :=
  ⟨b &&& (flags.map (·.2)).foldl (· ||| ·) 0⟩

/-- `VoltageLegacy::contains` (crate `bitflags`): all bits of the given flag are set. -/
def VoltageLegacy.contains (f : VoltageLegacy) (flag : UInt8) : Bool := f.bits &&& flag == flag

/-- `Voltage`, `src/structures/004_processor.rs` 387-391. -/
inductive Voltage where
  | Legacy (v : VoltageLegacy)
  | Current (v : UInt8)
  | Undefined (v : UInt8)
deriving DecidableEq, Repr

/-- `impl From<u8> for Voltage`, `src/structures/004_processor.rs` 1467-1479. -/
def Voltage.ofU8 (byte : UInt8) : Voltage :=
  if byte &&& 0b1000_0000 = 0 then
    if byte &&& 0b0111_1000 ≠ 0 then .Undefined byte
    else .Legacy (VoltageLegacy.fromBitsTruncate byte)
  else .Current (byte &&& 0b0111_1111)

/-- `impl From<u8> for ProcessorFamily`, `src/structures/004_processor.rs` 825-829. -/
def ProcessorFamily.ofU8 (byte : UInt8) : ProcessorFamily := ProcessorFamily.ofU16 byte.toUInt16

/-- `Processor`, `src/structures/004_processor.rs` 76-126. -/
structure Processor where
  handle : UInt16
  socket_designation : Str
  processor_type : ProcessorType
  processor_family : ProcessorFamily
  processor_manufacturer : Str
  processor_id : UInt64
  processor_version : Str
  voltage : Voltage
  external_clock : UInt16
  max_speed : UInt16
  current_speed : UInt16
  status : ProcessorStatus
  processor_upgrade : ProcessorUpgrade
  l1_cache_handle : Option UInt16
  l2_cache_handle : Option UInt16
  l3_cache_handle : Option UInt16
  serial_number : Option Str
  asset_tag : Option Str
  part_number : Option Str
  core_count : Option UInt16
  core_enabled : Option UInt16
  thread_count : Option UInt16
  processor_characteristics : Option ProcessorCharacteristics
deriving DecidableEq, Repr

/-- `ProcessorPacked2_0` (22 bytes), `src/structures/004_processor.rs` 472-487. -/
structure ProcessorPacked2_0 where
  socket_designation : UInt8
  processor_type : UInt8
  processor_family : UInt8
  processor_manufacturer : UInt8
  processor_id : UInt64
  processor_version : UInt8
  voltage : UInt8
  external_clock : UInt16
  max_speed : UInt16
  current_speed : UInt16
  status : UInt8
  processor_upgrade : UInt8

/-- Memory layout of `ProcessorPacked2_0`. -/
def ProcessorPacked2_0.packed : Packed ProcessorPacked2_0 := do
  let socket_designation ← .u8
  let processor_type ← .u8
  let processor_family ← .u8
  let processor_manufacturer ← .u8
  let processor_id ← .u64
  let processor_version ← .u8
  let voltage ← .u8
  let external_clock ← .u16
  let max_speed ← .u16
  let current_speed ← .u16
  let status ← .u8
  let processor_upgrade ← .u8
  pure {
    socket_designation, processor_type, processor_family, processor_manufacturer, processor_id,
    processor_version, voltage, external_clock, max_speed, current_speed, status,
    processor_upgrade }

/-- `ProcessorPacked2_1` (28 bytes), `src/structures/004_processor.rs` 489-507. -/
structure ProcessorPacked2_1 where
  socket_designation : UInt8
  processor_type : UInt8
  processor_family : UInt8
  processor_manufacturer : UInt8
  processor_id : UInt64
  processor_version : UInt8
  voltage : UInt8
  external_clock : UInt16
  max_speed : UInt16
  current_speed : UInt16
  status : UInt8
  processor_upgrade : UInt8
  l1_cache_handle : UInt16
  l2_cache_handle : UInt16
  l3_cache_handle : UInt16

/-- Memory layout of `ProcessorPacked2_1`. -/
def ProcessorPacked2_1.packed : Packed ProcessorPacked2_1 := do
  let socket_designation ← .u8
  let processor_type ← .u8
  let processor_family ← .u8
  let processor_manufacturer ← .u8
  let processor_id ← .u64
  let processor_version ← .u8
  let voltage ← .u8
  let external_clock ← .u16
  let max_speed ← .u16
  let current_speed ← .u16
  let status ← .u8
  let processor_upgrade ← .u8
  let l1_cache_handle ← .u16
  let l2_cache_handle ← .u16
  let l3_cache_handle ← .u16
  pure {
    socket_designation, processor_type, processor_family, processor_manufacturer, processor_id,
    processor_version, voltage, external_clock, max_speed, current_speed, status,
    processor_upgrade, l1_cache_handle, l2_cache_handle, l3_cache_handle }

/-- `ProcessorPacked2_3` (31 bytes), `src/structures/004_processor.rs` 509-530. -/
structure ProcessorPacked2_3 where
  socket_designation : UInt8
  processor_type : UInt8
  processor_family : UInt8
  processor_manufacturer : UInt8
  processor_id : UInt64
  processor_version : UInt8
  voltage : UInt8
  external_clock : UInt16
  max_speed : UInt16
  current_speed : UInt16
  status : UInt8
  processor_upgrade : UInt8
  l1_cache_handle : UInt16
  l2_cache_handle : UInt16
  l3_cache_handle : UInt16
  serial_number : UInt8
  asset_tag : UInt8
  part_number : UInt8

/-- Memory layout of `ProcessorPacked2_3`. -/
def ProcessorPacked2_3.packed : Packed ProcessorPacked2_3 := do
  let socket_designation ← .u8
  let processor_type ← .u8
  let processor_family ← .u8
  let processor_manufacturer ← .u8
  let processor_id ← .u64
  let processor_version ← .u8
  let voltage ← .u8
  let external_clock ← .u16
  let max_speed ← .u16
  let current_speed ← .u16
  let status ← .u8
  let processor_upgrade ← .u8
  let l1_cache_handle ← .u16
  let l2_cache_handle ← .u16
  let l3_cache_handle ← .u16
  let serial_number ← .u8
  let asset_tag ← .u8
  let part_number ← .u8
  pure {
    socket_designation, processor_type, processor_family, processor_manufacturer, processor_id,
    processor_version, voltage, external_clock, max_speed, current_speed, status,
    processor_upgrade, l1_cache_handle, l2_cache_handle, l3_cache_handle, serial_number,
    asset_tag, part_number }

/-- `ProcessorPacked2_5` (36 bytes), `src/structures/004_processor.rs` 532-557. -/
structure ProcessorPacked2_5 where
  socket_designation : UInt8
  processor_type : UInt8
  processor_family : UInt8
  processor_manufacturer : UInt8
  processor_id : UInt64
  processor_version : UInt8
  voltage : UInt8
  external_clock : UInt16
  max_speed : UInt16
  current_speed : UInt16
  status : UInt8
  processor_upgrade : UInt8
  l1_cache_handle : UInt16
  l2_cache_handle : UInt16
  l3_cache_handle : UInt16
  serial_number : UInt8
  asset_tag : UInt8
  part_number : UInt8
  core_count : UInt8
  core_enabled : UInt8
  thread_count : UInt8
  processor_characteristics : UInt16

/-- Memory layout of `ProcessorPacked2_5`. -/
def ProcessorPacked2_5.packed : Packed ProcessorPacked2_5 := do
  let socket_designation ← .u8
  let processor_type ← .u8
  let processor_family ← .u8
  let processor_manufacturer ← .u8
  let processor_id ← .u64
  let processor_version ← .u8
  let voltage ← .u8
  let external_clock ← .u16
  let max_speed ← .u16
  let current_speed ← .u16
  let status ← .u8
  let processor_upgrade ← .u8
  let l1_cache_handle ← .u16
  let l2_cache_handle ← .u16
  let l3_cache_handle ← .u16
  let serial_number ← .u8
  let asset_tag ← .u8
  let part_number ← .u8
  let core_count ← .u8
  let core_enabled ← .u8
  let thread_count ← .u8
  let processor_characteristics ← .u16
  pure {
    socket_designation, processor_type, processor_family, processor_manufacturer, processor_id,
    processor_version, voltage, external_clock, max_speed, current_speed, status,
    processor_upgrade, l1_cache_handle, l2_cache_handle, l3_cache_handle, serial_number,
    asset_tag, part_number, core_count, core_enabled, thread_count, processor_characteristics }

/-- `ProcessorPacked2_6` (38 bytes), `src/structures/004_processor.rs` 559-585. -/
structure ProcessorPacked2_6 where
  socket_designation : UInt8
  processor_type : UInt8
  processor_family : UInt8
  processor_manufacturer : UInt8
  processor_id : UInt64
  processor_version : UInt8
  voltage : UInt8
  external_clock : UInt16
  max_speed : UInt16
  current_speed : UInt16
  status : UInt8
  processor_upgrade : UInt8
  l1_cache_handle : UInt16
  l2_cache_handle : UInt16
  l3_cache_handle : UInt16
  serial_number : UInt8
  asset_tag : UInt8
  part_number : UInt8
  core_count : UInt8
  core_enabled : UInt8
  thread_count : UInt8
  processor_characteristics : UInt16
  processor_family_2 : UInt16

/-- Memory layout of `ProcessorPacked2_6`. -/
def ProcessorPacked2_6.packed : Packed ProcessorPacked2_6 := do
  let socket_designation ← .u8
  let processor_type ← .u8
  let processor_family ← .u8
  let processor_manufacturer ← .u8
  let processor_id ← .u64
  let processor_version ← .u8
  let voltage ← .u8
  let external_clock ← .u16
  let max_speed ← .u16
  let current_speed ← .u16
  let status ← .u8
  let processor_upgrade ← .u8
  let l1_cache_handle ← .u16
  let l2_cache_handle ← .u16
  let l3_cache_handle ← .u16
  let serial_number ← .u8
  let asset_tag ← .u8
  let part_number ← .u8
  let core_count ← .u8
  let core_enabled ← .u8
  let thread_count ← .u8
  let processor_characteristics ← .u16
  let processor_family_2 ← .u16
  pure {
    socket_designation, processor_type, processor_family, processor_manufacturer, processor_id,
    processor_version, voltage, external_clock, max_speed, current_speed, status,
    processor_upgrade, l1_cache_handle, l2_cache_handle, l3_cache_handle, serial_number,
    asset_tag, part_number, core_count, core_enabled, thread_count, processor_characteristics,
    processor_family_2 }

/-- `ProcessorPacked3_0` (44 bytes), `src/structures/004_processor.rs` 587-616. -/
structure ProcessorPacked3_0 where
  socket_designation : UInt8
  processor_type : UInt8
  processor_family : UInt8
  processor_manufacturer : UInt8
  processor_id : UInt64
  processor_version : UInt8
  voltage : UInt8
  external_clock : UInt16
  max_speed : UInt16
  current_speed : UInt16
  status : UInt8
  processor_upgrade : UInt8
  l1_cache_handle : UInt16
  l2_cache_handle : UInt16
  l3_cache_handle : UInt16
  serial_number : UInt8
  asset_tag : UInt8
  part_number : UInt8
  core_count : UInt8
  core_enabled : UInt8
  thread_count : UInt8
  processor_characteristics : UInt16
  processor_family_2 : UInt16
  core_count_2 : UInt16
  core_enabled_2 : UInt16
  thread_count_2 : UInt16

/-- Memory layout of `ProcessorPacked3_0`. -/
def ProcessorPacked3_0.packed : Packed ProcessorPacked3_0 := do
  let socket_designation ← .u8
  let processor_type ← .u8
  let processor_family ← .u8
  let processor_manufacturer ← .u8
  let processor_id ← .u64
  let processor_version ← .u8
  let voltage ← .u8
  let external_clock ← .u16
  let max_speed ← .u16
  let current_speed ← .u16
  let status ← .u8
  let processor_upgrade ← .u8
  let l1_cache_handle ← .u16
  let l2_cache_handle ← .u16
  let l3_cache_handle ← .u16
  let serial_number ← .u8
  let asset_tag ← .u8
  let part_number ← .u8
  let core_count ← .u8
  let core_enabled ← .u8
  let thread_count ← .u8
  let processor_characteristics ← .u16
  let processor_family_2 ← .u16
  let core_count_2 ← .u16
  let core_enabled_2 ← .u16
  let thread_count_2 ← .u16
  pure {
    socket_designation, processor_type, processor_family, processor_manufacturer, processor_id,
    processor_version, voltage, external_clock, max_speed, current_speed, status,
    processor_upgrade, l1_cache_handle, l2_cache_handle, l3_cache_handle, serial_number,
    asset_tag, part_number, core_count, core_enabled, thread_count, processor_characteristics,
    processor_family_2, core_count_2, core_enabled_2, thread_count_2 }

/-- The `match` choosing between the two family fields, `src/structures/004_processor.rs` 734-737
and 769-772. -/
def chooseFamily (processor_family : UInt8) (processor_family_2 : UInt16) : ProcessorFamily :=
  match ProcessorFamily.ofU8 processor_family with
  | .ProcessorFamily2 => ProcessorFamily.ofU16 processor_family_2
  | family => family

/-- `Processor::try_from`, `src/structures/004_processor.rs` 471-822. -/
def Processor.try_from (s : RawStructure) : R Processor :=
  if s.version.lt (.ofPair 2 1) then do
    let packed ← letAsStruct ProcessorPacked2_0.packed s.data
    pure {
      handle := s.handle
      socket_designation := ← s.find_string packed.socket_designation
      processor_type := ProcessorType.ofU8 packed.processor_type
      processor_family := ProcessorFamily.ofU8 packed.processor_family
      processor_manufacturer := ← s.find_string packed.processor_manufacturer
      processor_id := packed.processor_id
      processor_version := ← s.find_string packed.processor_version
      voltage := Voltage.ofU8 packed.voltage
      external_clock := packed.external_clock
      max_speed := packed.max_speed
      current_speed := packed.current_speed
      status := ProcessorStatus.fromBitsTruncate packed.status
      processor_upgrade := ProcessorUpgrade.ofU8 packed.processor_upgrade
      l1_cache_handle := none
      l2_cache_handle := none
      l3_cache_handle := none
      serial_number := none
      asset_tag := none
      part_number := none
      core_count := none
      core_enabled := none
      thread_count := none
      processor_characteristics := none }
  else if s.version.lt (.ofPair 2 3) then do
    let packed ← letAsStruct ProcessorPacked2_1.packed s.data
    pure {
      handle := s.handle
      socket_designation := ← s.find_string packed.socket_designation
      processor_type := ProcessorType.ofU8 packed.processor_type
      processor_family := ProcessorFamily.ofU8 packed.processor_family
      processor_manufacturer := ← s.find_string packed.processor_manufacturer
      processor_id := packed.processor_id
      processor_version := ← s.find_string packed.processor_version
      voltage := Voltage.ofU8 packed.voltage
      external_clock := packed.external_clock
      max_speed := packed.max_speed
      current_speed := packed.current_speed
      status := ProcessorStatus.fromBitsTruncate packed.status
      processor_upgrade := ProcessorUpgrade.ofU8 packed.processor_upgrade
      l1_cache_handle := some packed.l1_cache_handle
      l2_cache_handle := some packed.l2_cache_handle
      l3_cache_handle := some packed.l3_cache_handle
      serial_number := none
      asset_tag := none
      part_number := none
      core_count := none
      core_enabled := none
      thread_count := none
      processor_characteristics := none }
  else if s.version.lt (.ofPair 2 5) then do
    let packed ← letAsStruct ProcessorPacked2_3.packed s.data
    pure {
      handle := s.handle
      socket_designation := ← s.find_string packed.socket_designation
      processor_type := ProcessorType.ofU8 packed.processor_type
      processor_family := ProcessorFamily.ofU8 packed.processor_family
      processor_manufacturer := ← s.find_string packed.processor_manufacturer
      processor_id := packed.processor_id
      processor_version := ← s.find_string packed.processor_version
      voltage := Voltage.ofU8 packed.voltage
      external_clock := packed.external_clock
      max_speed := packed.max_speed
      current_speed := packed.current_speed
      status := ProcessorStatus.fromBitsTruncate packed.status
      processor_upgrade := ProcessorUpgrade.ofU8 packed.processor_upgrade
      l1_cache_handle := some packed.l1_cache_handle
      l2_cache_handle := some packed.l2_cache_handle
      l3_cache_handle := some packed.l3_cache_handle
      serial_number := some (← s.find_string packed.serial_number)
      asset_tag := some (← s.find_string packed.asset_tag)
      part_number := some (← s.find_string packed.part_number)
      core_count := none
      core_enabled := none
      thread_count := none
      processor_characteristics := none }
  else if s.version.lt (.ofPair 2 6) then do
    let packed ← letAsStruct ProcessorPacked2_5.packed s.data
    pure {
      handle := s.handle
      socket_designation := ← s.find_string packed.socket_designation
      processor_type := ProcessorType.ofU8 packed.processor_type
      processor_family := ProcessorFamily.ofU8 packed.processor_family
      processor_manufacturer := ← s.find_string packed.processor_manufacturer
      processor_id := packed.processor_id
      processor_version := ← s.find_string packed.processor_version
      voltage := Voltage.ofU8 packed.voltage
      external_clock := packed.external_clock
      max_speed := packed.max_speed
      current_speed := packed.current_speed
      status := ProcessorStatus.fromBitsTruncate packed.status
      processor_upgrade := ProcessorUpgrade.ofU8 packed.processor_upgrade
      l1_cache_handle := some packed.l1_cache_handle
      l2_cache_handle := some packed.l2_cache_handle
      l3_cache_handle := some packed.l3_cache_handle
      serial_number := some (← s.find_string packed.serial_number)
      asset_tag := some (← s.find_string packed.asset_tag)
      part_number := some (← s.find_string packed.part_number)
      core_count := some packed.core_count.toUInt16
      core_enabled := some packed.core_enabled.toUInt16
      thread_count := some packed.thread_count.toUInt16
      processor_characteristics := none }
  else if s.version.lt (.ofPair 3 0) then do
    let packed ← letAsStruct ProcessorPacked2_6.packed s.data
    let processor_family := chooseFamily packed.processor_family packed.processor_family_2
    pure {
      handle := s.handle
      socket_designation := ← s.find_string packed.socket_designation
      processor_type := ProcessorType.ofU8 packed.processor_type
      processor_family := processor_family
      processor_manufacturer := ← s.find_string packed.processor_manufacturer
      processor_id := packed.processor_id
      processor_version := ← s.find_string packed.processor_version
      voltage := Voltage.ofU8 packed.voltage
      external_clock := packed.external_clock
      max_speed := packed.max_speed
      current_speed := packed.current_speed
      status := ProcessorStatus.fromBitsTruncate packed.status
      processor_upgrade := ProcessorUpgrade.ofU8 packed.processor_upgrade
      l1_cache_handle := some packed.l1_cache_handle
      l2_cache_handle := some packed.l2_cache_handle
      l3_cache_handle := some packed.l3_cache_handle
      serial_number := some (← s.find_string packed.serial_number)
      asset_tag := some (← s.find_string packed.asset_tag)
      part_number := some (← s.find_string packed.part_number)
      core_count := some packed.core_count.toUInt16
      core_enabled := some packed.core_enabled.toUInt16
      thread_count := some packed.thread_count.toUInt16
      processor_characteristics := some
        (ProcessorCharacteristics.fromBitsTruncate packed.processor_characteristics) }
  else do
    let packed ← letAsStruct ProcessorPacked3_0.packed s.data
    let processor_family := chooseFamily packed.processor_family packed.processor_family_2
    let core_count := if packed.core_count = 0xFF then some packed.core_count_2
      else some packed.core_count.toUInt16
    let core_enabled := if packed.core_enabled = 0xFF then some packed.core_enabled_2
      else some packed.core_enabled.toUInt16
    let thread_count := if packed.thread_count = 0xFF then some packed.thread_count_2
      else some packed.thread_count.toUInt16
    pure {
      handle := s.handle
      socket_designation := ← s.find_string packed.socket_designation
      processor_type := ProcessorType.ofU8 packed.processor_type
      processor_family := processor_family
      processor_manufacturer := ← s.find_string packed.processor_manufacturer
      processor_id := packed.processor_id
      processor_version := ← s.find_string packed.processor_version
      voltage := Voltage.ofU8 packed.voltage
      external_clock := packed.external_clock
      max_speed := packed.max_speed
      current_speed := packed.current_speed
      status := ProcessorStatus.fromBitsTruncate packed.status
      processor_upgrade := ProcessorUpgrade.ofU8 packed.processor_upgrade
      l1_cache_handle := some packed.l1_cache_handle
      l2_cache_handle := some packed.l2_cache_handle
      l3_cache_handle := some packed.l3_cache_handle
      serial_number := some (← s.find_string packed.serial_number)
      asset_tag := some (← s.find_string packed.asset_tag)
      part_number := some (← s.find_string packed.part_number)
      core_count := core_count
      core_enabled := core_enabled
      thread_count := thread_count
      processor_characteristics := some
        (ProcessorCharacteristics.fromBitsTruncate packed.processor_characteristics) }

end Dmi.processor
