import Verif.Model.Cost
/-!
# The decoders with a count of their work

Generated from `Model/S*.lean` by `tools/gen_cost.py`: the decoders that look up strings, with the number of
bytes their lookups look at. Everything else a decoder does takes no loop. `Props/CostDecode.lean` proves that
the results are those of the decoders.
-/
namespace Dmi

/-- An outcome and the number of bytes looked at on the way there. -/
structure CR (α : Type) where
  out : R α
  cost : Nat

/-- One computation after the other: the counts add up, up to where it ends. -/
def CR.bind {α β : Type} (x : CR α) (f : α → CR β) : CR β :=
  match x.out with
  | .ok a => ⟨(f a).out, x.cost + (f a).cost⟩
  | .err e => ⟨.err e, x.cost⟩
  | .panic => ⟨.panic, x.cost⟩
  | .ub => ⟨.ub, x.cost⟩

instance : Monad CR where
  pure a := ⟨.ok a, 0⟩
  bind := CR.bind

/-- What looks at no string. -/
def CR.free {α : Type} (x : R α) : CR α := ⟨x, 0⟩

instance : MonadLift R CR := ⟨CR.free⟩

def CR.err {α : Type} (e : MalformedStructureError) : CR α := ⟨.err e, 0⟩

def CR.panic {α : Type} : CR α := ⟨.panic, 0⟩

def CR.toOption {α : Type} (x : CR α) : CR (Option α) := ⟨x.out.toOption, x.cost⟩

def CR.map {α β : Type} (f : α → β) (x : CR α) : CR β := ⟨x.out.map f, x.cost⟩

/-- `RawStructure::find_string`, `src/lib.rs` 623-631, counted. -/
def RawStructure.find_stringW (r : RawStructure) (idx : UInt8) : CR Str :=
  ⟨(r.find_stringC idx).1, (r.find_stringC idx).2⟩

/-- `RawStructure::get_string`, `src/lib.rs` 655-657, counted. -/
def RawStructure.get_stringW [Usize] (oc : Bool) (r : RawStructure) (offset : Nat) : CR Str := do
  let idx ← r.get8 oc offset
  r.find_stringW idx

/-- `Iterator::count` (core) of the strings, at most `fuel` of them, counted. -/
def StructureStrings.countFuelC : Nat → StructureStrings → Nat × Nat
  | 0, _ => (0, 0)
  | fuel + 1, s =>
    match s.nextC with
    | ((some _, s'), c) =>
      let (n, d) := countFuelC fuel s'
      (n + 1, c + d)
    | ((none, _), c) => (0, c)

/-- `Iterator::count`, counted. -/
def StructureStrings.countW (s : StructureStrings) : CR Nat :=
  ⟨.ok (s.countFuelC (s.bytes.length + 1)).1, (s.countFuelC (s.bytes.length + 1)).2⟩

namespace bios

/-- `Bios::try_from`, `src/structures/000_bios.rs` 81-207, counted. -/
def Bios.try_fromC (s : RawStructure) : CR Bios :=
  if s.version.ge (.ofPair 3 1) then do
    let packed ← (letAsStruct BiosPacked3_1.packed s.data : R _)
    pure {
      handle := s.handle
      vendor := ← s.find_stringW packed.vendor
      bios_version := ← s.find_stringW packed.bios_version
      bios_starting_address_segment := packed.bios_starting_address_segment
      bios_release_date := ← s.find_stringW packed.bios_release_date
      rom_size := { basic := packed.bios_rom_size, extended := some packed.extended_bios_rom_size }
      bios_characteristics := ⟨packed.bios_characteristics⟩
      bios_characteristics_exttension_1 := some ⟨packed.bios_characteristics_exttension_1⟩
      bios_characteristics_exttension_2 := some ⟨packed.bios_characteristics_exttension_2⟩
      bios_revision := some ⟨packed.system_bios_major_release, packed.system_bios_minor_release⟩
      firmware_revision := some ⟨packed.embedded_controller_firmware_major_release,
        packed.embedded_controller_firmware_minor_release⟩ }
  else if s.version.ge (.ofPair 2 4) then do
    let packed ← (letAsStruct BiosPacked2_4.packed s.data : R _)
    pure {
      handle := s.handle
      vendor := ← s.find_stringW packed.vendor
      bios_version := ← s.find_stringW packed.bios_version
      bios_starting_address_segment := packed.bios_starting_address_segment
      bios_release_date := ← s.find_stringW packed.bios_release_date
      rom_size := { basic := packed.bios_rom_size, extended := none }
      bios_characteristics := ⟨packed.bios_characteristics⟩
      bios_characteristics_exttension_1 := some ⟨packed.bios_characteristics_exttension_1⟩
      bios_characteristics_exttension_2 := some ⟨packed.bios_characteristics_exttension_2⟩
      bios_revision := some ⟨packed.system_bios_major_release, packed.system_bios_minor_release⟩
      firmware_revision := some ⟨packed.embedded_controller_firmware_major_release,
        packed.embedded_controller_firmware_minor_release⟩ }
  else do
    let packed ← (letAsStruct BiosPacked2_0.packed s.data : R _)
    pure {
      handle := s.handle
      vendor := ← s.find_stringW packed.vendor
      bios_version := ← s.find_stringW packed.bios_version
      bios_starting_address_segment := packed.bios_starting_address_segment
      bios_release_date := ← s.find_stringW packed.bios_release_date
      rom_size := { basic := packed.bios_rom_size, extended := none }
      bios_characteristics := ⟨packed.bios_characteristics⟩
      bios_characteristics_exttension_1 := none
      bios_characteristics_exttension_2 := none
      bios_revision := none
      firmware_revision := none }

end bios

namespace system

/-- `System::try_from`, `src/structures/001_system.rs` 61-153, counted. -/
def System.try_fromC (s : RawStructure) : CR System :=
  if s.version.lt (.ofPair 2 1) then do
    let packed ← (letAsStruct SystemPacked2_0.packed s.data : R _)
    pure {
      handle := s.handle
      manufacturer := ← s.find_stringW packed.manufacturer
      product := ← s.find_stringW packed.product
      version := ← s.find_stringW packed.version
      serial := ← s.find_stringW packed.serial
      uuid := none
      wakeup := none
      sku := none
      family := none }
  else if s.version.lt (.ofPair 2 4) then do
    let packed ← (letAsStruct SystemPacked2_1.packed s.data : R _)
    pure {
      handle := s.handle
      manufacturer := ← s.find_stringW packed.v2_0.manufacturer
      product := ← s.find_stringW packed.v2_0.product
      version := ← s.find_stringW packed.v2_0.version
      serial := ← s.find_stringW packed.v2_0.serial
      uuid := some (decode_by_smbios_version packed.uuid s.version)
      wakeup := some (WakeupType.ofU8 packed.wakeup)
      sku := none
      family := none }
  else do
    let packed ← (letAsStruct SystemPacked2_4.packed s.data : R _)
    pure {
      handle := s.handle
      manufacturer := ← s.find_stringW packed.v2_1.v2_0.manufacturer
      product := ← s.find_stringW packed.v2_1.v2_0.product
      version := ← s.find_stringW packed.v2_1.v2_0.version
      serial := ← s.find_stringW packed.v2_1.v2_0.serial
      uuid := some (decode_by_smbios_version packed.v2_1.uuid s.version)
      wakeup := some (WakeupType.ofU8 packed.v2_1.wakeup)
      sku := some (← s.find_stringW packed.sku)
      family := some (← s.find_stringW packed.family) }

end system

namespace baseboard

/-- `BaseBoard::try_from`, `src/structures/002_baseboard.rs` 105-160, counted. -/
def BaseBoard.try_fromC (s : RawStructure) : CR BaseBoard := do
  let packed ← (letAsStruct BaseBoardPacked.packed s.data : R _)
  let asset ← if s.data.length > 4 then do pure (some (← s.find_stringW packed.asset))
    else pure none
  let feature_flags := if s.data.length > 5 then
    some (BaseBoardFlags.fromBitsTruncate packed.feature_flags) else none
  let location_in_chassis ← if s.data.length > 6 then do
      pure (some (← s.find_stringW packed.location_in_chassis))
    else pure none
  let chassis_handle := if s.data.length > 7 then some packed.chassis_handle else none
  let board_type := if s.data.length > 9 then some (BoardType.ofU8 packed.board_type) else none
  pure {
    handle := s.handle
    manufacturer := ← s.find_stringW packed.manufacturer
    product := ← s.find_stringW packed.product
    version := ← s.find_stringW packed.version
    serial := ← s.find_stringW packed.serial
    asset, feature_flags, location_in_chassis, chassis_handle, board_type }

end baseboard

namespace enclosure

/-- The SKU string, `src/structures/003_enclosure.rs` 263-266, counted. -/
def findSkuC (s : RawStructure) (sku : Option UInt8) : CR (Option Str) :=
  match sku with
  | some i => do pure (some (← s.find_stringW i))
  | none => pure none

/-- `Enclosure::try_from`, `src/structures/003_enclosure.rs` 165-269, counted. -/
def Enclosure.try_fromC [Usize] (oc : Bool) (s : RawStructure) : CR Enclosure :=
  if s.data.length < EnclosurePacked2_0.size then
    .err (.InvalidFormattedSectionLength s.info s.handle "minimum of "
      (UInt8.ofNat EnclosurePacked2_0.size))
  else do
    let minimum := s.data.take EnclosurePacked2_0.size
    let extra := s.data.drop EnclosurePacked2_0.size
    let packed ← (letAsStruct EnclosurePacked2_0.packed minimum : R _)
    let manufacturer ← s.find_stringW packed.manufacturer
    let version ← s.find_stringW packed.version
    let serial_number ← s.find_stringW packed.serial_number
    let asset_tag_number ← s.find_stringW packed.asset_tag_number
    let (o, sku) ← readOptionals oc extra
    let sku_number ← findSkuC s sku
    pure {
      handle := s.handle
      manufacturer
      chassis_lock := get_lock packed.enclosure_type
      enclosure_type := get_type packed.enclosure_type
      version, serial_number, asset_tag_number
      boot_up_state := o.boot_up_state
      power_supply_state := o.power_supply_state
      thermal_state := o.thermal_state
      security_status := o.security_status
      oem_defined := o.oem_defined
      height := o.height
      power_cords_number := o.power_cords_number
      contained_elements := o.contained_elements
      sku_number }

end enclosure

namespace processor

/-- `Processor::try_from`, `src/structures/004_processor.rs` 471-822, counted. -/
def Processor.try_fromC (s : RawStructure) : CR Processor :=
  if s.version.lt (.ofPair 2 1) then do
    let packed ← (letAsStruct ProcessorPacked2_0.packed s.data : R _)
    pure {
      handle := s.handle
      socket_designation := ← s.find_stringW packed.socket_designation
      processor_type := ProcessorType.ofU8 packed.processor_type
      processor_family := ProcessorFamily.ofU8 packed.processor_family
      processor_manufacturer := ← s.find_stringW packed.processor_manufacturer
      processor_id := packed.processor_id
      processor_version := ← s.find_stringW packed.processor_version
      voltage := Voltage.ofU8 packed.voltage
      external_clock := packed.external_clock
      max_speed := packed.max_speed
      current_speed := packed.current_speed
      status := ProcessorStatus.fromBitsTruncate packed.status
      processor_upgrade := ProcessorUpgrade.ofU8 packed.processor_upgrade
      l1_cache_handle := none
      l2_cache_handle := none
      l3_cache_handle := none
      serial_number := none
      asset_tag := none
      part_number := none
      core_count := none
      core_enabled := none
      thread_count := none
      processor_characteristics := none }
  else if s.version.lt (.ofPair 2 3) then do
    let packed ← (letAsStruct ProcessorPacked2_1.packed s.data : R _)
    pure {
      handle := s.handle
      socket_designation := ← s.find_stringW packed.socket_designation
      processor_type := ProcessorType.ofU8 packed.processor_type
      processor_family := ProcessorFamily.ofU8 packed.processor_family
      processor_manufacturer := ← s.find_stringW packed.processor_manufacturer
      processor_id := packed.processor_id
      processor_version := ← s.find_stringW packed.processor_version
      voltage := Voltage.ofU8 packed.voltage
      external_clock := packed.external_clock
      max_speed := packed.max_speed
      current_speed := packed.current_speed
      status := ProcessorStatus.fromBitsTruncate packed.status
      processor_upgrade := ProcessorUpgrade.ofU8 packed.processor_upgrade
      l1_cache_handle := some packed.l1_cache_handle
      l2_cache_handle := some packed.l2_cache_handle
      l3_cache_handle := some packed.l3_cache_handle
      serial_number := none
      asset_tag := none
      part_number := none
      core_count := none
      core_enabled := none
      thread_count := none
      processor_characteristics := none }
  else if s.version.lt (.ofPair 2 5) then do
    let packed ← (letAsStruct ProcessorPacked2_3.packed s.data : R _)
    pure {
      handle := s.handle
      socket_designation := ← s.find_stringW packed.socket_designation
      processor_type := ProcessorType.ofU8 packed.processor_type
      processor_family := ProcessorFamily.ofU8 packed.processor_family
      processor_manufacturer := ← s.find_stringW packed.processor_manufacturer
      processor_id := packed.processor_id
      processor_version := ← s.find_stringW packed.processor_version
      voltage := Voltage.ofU8 packed.voltage
      external_clock := packed.external_clock
      max_speed := packed.max_speed
      current_speed := packed.current_speed
      status := ProcessorStatus.fromBitsTruncate packed.status
      processor_upgrade := ProcessorUpgrade.ofU8 packed.processor_upgrade
      l1_cache_handle := some packed.l1_cache_handle
      l2_cache_handle := some packed.l2_cache_handle
      l3_cache_handle := some packed.l3_cache_handle
      serial_number := some (← s.find_stringW packed.serial_number)
      asset_tag := some (← s.find_stringW packed.asset_tag)
      part_number := some (← s.find_stringW packed.part_number)
      core_count := none
      core_enabled := none
      thread_count := none
      processor_characteristics := none }
  else if s.version.lt (.ofPair 2 6) then do
    let packed ← (letAsStruct ProcessorPacked2_5.packed s.data : R _)
    pure {
      handle := s.handle
      socket_designation := ← s.find_stringW packed.socket_designation
      processor_type := ProcessorType.ofU8 packed.processor_type
      processor_family := ProcessorFamily.ofU8 packed.processor_family
      processor_manufacturer := ← s.find_stringW packed.processor_manufacturer
      processor_id := packed.processor_id
      processor_version := ← s.find_stringW packed.processor_version
      voltage := Voltage.ofU8 packed.voltage
      external_clock := packed.external_clock
      max_speed := packed.max_speed
      current_speed := packed.current_speed
      status := ProcessorStatus.fromBitsTruncate packed.status
      processor_upgrade := ProcessorUpgrade.ofU8 packed.processor_upgrade
      l1_cache_handle := some packed.l1_cache_handle
      l2_cache_handle := some packed.l2_cache_handle
      l3_cache_handle := some packed.l3_cache_handle
      serial_number := some (← s.find_stringW packed.serial_number)
      asset_tag := some (← s.find_stringW packed.asset_tag)
      part_number := some (← s.find_stringW packed.part_number)
      core_count := some packed.core_count.toUInt16
      core_enabled := some packed.core_enabled.toUInt16
      thread_count := some packed.thread_count.toUInt16
      processor_characteristics := none }
  else if s.version.lt (.ofPair 3 0) then do
    let packed ← (letAsStruct ProcessorPacked2_6.packed s.data : R _)
    let processor_family := chooseFamily packed.processor_family packed.processor_family_2
    pure {
      handle := s.handle
      socket_designation := ← s.find_stringW packed.socket_designation
      processor_type := ProcessorType.ofU8 packed.processor_type
      processor_family := processor_family
      processor_manufacturer := ← s.find_stringW packed.processor_manufacturer
      processor_id := packed.processor_id
      processor_version := ← s.find_stringW packed.processor_version
      voltage := Voltage.ofU8 packed.voltage
      external_clock := packed.external_clock
      max_speed := packed.max_speed
      current_speed := packed.current_speed
      status := ProcessorStatus.fromBitsTruncate packed.status
      processor_upgrade := ProcessorUpgrade.ofU8 packed.processor_upgrade
      l1_cache_handle := some packed.l1_cache_handle
      l2_cache_handle := some packed.l2_cache_handle
      l3_cache_handle := some packed.l3_cache_handle
      serial_number := some (← s.find_stringW packed.serial_number)
      asset_tag := some (← s.find_stringW packed.asset_tag)
      part_number := some (← s.find_stringW packed.part_number)
      core_count := some packed.core_count.toUInt16
      core_enabled := some packed.core_enabled.toUInt16
      thread_count := some packed.thread_count.toUInt16
      processor_characteristics := some
        (ProcessorCharacteristics.fromBitsTruncate packed.processor_characteristics) }
  else do
    let packed ← (letAsStruct ProcessorPacked3_0.packed s.data : R _)
    let processor_family := chooseFamily packed.processor_family packed.processor_family_2
    let core_count := if packed.core_count = 0xFF then some packed.core_count_2
      else some packed.core_count.toUInt16
    let core_enabled := if packed.core_enabled = 0xFF then some packed.core_enabled_2
      else some packed.core_enabled.toUInt16
    let thread_count := if packed.thread_count = 0xFF then some packed.thread_count_2
      else some packed.thread_count.toUInt16
    pure {
      handle := s.handle
      socket_designation := ← s.find_stringW packed.socket_designation
      processor_type := ProcessorType.ofU8 packed.processor_type
      processor_family := processor_family
      processor_manufacturer := ← s.find_stringW packed.processor_manufacturer
      processor_id := packed.processor_id
      processor_version := ← s.find_stringW packed.processor_version
      voltage := Voltage.ofU8 packed.voltage
      external_clock := packed.external_clock
      max_speed := packed.max_speed
      current_speed := packed.current_speed
      status := ProcessorStatus.fromBitsTruncate packed.status
      processor_upgrade := ProcessorUpgrade.ofU8 packed.processor_upgrade
      l1_cache_handle := some packed.l1_cache_handle
      l2_cache_handle := some packed.l2_cache_handle
      l3_cache_handle := some packed.l3_cache_handle
      serial_number := some (← s.find_stringW packed.serial_number)
      asset_tag := some (← s.find_stringW packed.asset_tag)
      part_number := some (← s.find_stringW packed.part_number)
      core_count := core_count
      core_enabled := core_enabled
      thread_count := thread_count
      processor_characteristics := some
        (ProcessorCharacteristics.fromBitsTruncate packed.processor_characteristics) }

end processor

namespace cache

/-- `Cache::try_from`, `src/structures/007_cache.rs` 170-271, counted. -/
def Cache.try_fromC (s : RawStructure) : CR Cache :=
  if s.version.gt (.ofPair 3 1) then do
    let packed ← (letAsStruct CachePacked3_1.packed s.data : R _)
    pure {
      handle := s.handle
      socket_designation := ← s.find_stringW packed.socket_designation
      cache_configuration := ← (CacheConfiguration.ofU16 packed.cache_configuration : R _)
      maximum_cache_size := CacheSize.ofU16 packed.maximum_cache_size
      installed_size := CacheSize.ofU16 packed.installed_size
      supported_sram_type := CacheSramType.fromBitsTruncate packed.supported_sram_type
      current_sram_type := CacheSramType.fromBitsTruncate packed.current_sram_type
      cache_speed := some packed.cache_speed
      error_correction_type := some (CacheErrorCorrectionType.ofU8 packed.error_correction_type)
      system_cache_type := some (SystemCacheType.ofU8 packed.system_cache_type)
      associativity := some (CacheAssociativity.ofU8 packed.associativity)
      maximum_cache_size_2 := some (CacheSize2.ofU32 packed.maximum_cache_size_2)
      installed_size_2 := some (CacheSize2.ofU32 packed.installed_size_2) }
  else if s.version.gt (.ofPair 2 1) then do
    let packed ← (letAsStruct CachePacked2_1.packed s.data : R _)
    pure {
      handle := s.handle
      socket_designation := ← s.find_stringW packed.socket_designation
      cache_configuration := ← (CacheConfiguration.ofU16 packed.cache_configuration : R _)
      maximum_cache_size := CacheSize.ofU16 packed.maximum_cache_size
      installed_size := CacheSize.ofU16 packed.installed_size
      supported_sram_type := CacheSramType.fromBitsTruncate packed.supported_sram_type
      current_sram_type := CacheSramType.fromBitsTruncate packed.current_sram_type
      cache_speed := some packed.cache_speed
      error_correction_type := some (CacheErrorCorrectionType.ofU8 packed.error_correction_type)
      system_cache_type := some (SystemCacheType.ofU8 packed.system_cache_type)
      associativity := some (CacheAssociativity.ofU8 packed.associativity)
      maximum_cache_size_2 := none
      installed_size_2 := none }
  else if s.version.gt (.ofPair 2 0) then do
    let packed ← (letAsStruct CachePacked2_0.packed s.data : R _)
    pure {
      handle := s.handle
      socket_designation := ← s.find_stringW packed.socket_designation
      cache_configuration := ← (CacheConfiguration.ofU16 packed.cache_configuration : R _)
      maximum_cache_size := CacheSize.ofU16 packed.maximum_cache_size
      installed_size := CacheSize.ofU16 packed.installed_size
      supported_sram_type := CacheSramType.fromBitsTruncate packed.supported_sram_type
      current_sram_type := CacheSramType.fromBitsTruncate packed.current_sram_type
      cache_speed := none
      error_correction_type := none
      system_cache_type := none
      associativity := none
      maximum_cache_size_2 := none
      installed_size_2 := none }
  else .panic -- `unreachable!()`

end cache

namespace port_connector

/-- `PortConnector::try_from`, `src/structures/008_port_connector.rs` 129-149, counted. -/
def PortConnector.try_fromC (s : RawStructure) : CR PortConnector := do
  let packed ← (letAsStruct PortConnectorPacked.packed s.data : R _)
  pure {
    handle := s.handle
    internal_reference_designator := ← s.find_stringW packed.internal_reference_designator
    internal_connector_type := ConnectorType.ofU8 packed.internal_connector_type
    external_reference_designator := ← s.find_stringW packed.external_reference_designator
    external_connector_type := ConnectorType.ofU8 packed.external_connector_type
    port_type := PortType.ofU8 packed.port_type }

end port_connector

namespace system_slots

/-- `SystemSlots::decode`, `src/structures/009_system_slots.rs` 362-402, counted. -/
def SystemSlots.decodeC [Usize] (oc : Bool) (s : RawStructure) : CR SystemSlots := do
  let peer_grouping_count := (← (s.get8 oc 0x12).toOption).getD 0
  let n := peer_grouping_count.toNat
  pure {
    handle := s.handle
    slot_designation := ← s.get_stringW oc 0x04
    slot_type := SlotType.ofU8 (← s.get8 oc 0x05)
    slot_data_bus_width := SlotWidth.ofU8 (← s.get8 oc 0x06)
    current_usage := CurrentUsage.ofU8 (← s.get8 oc 0x07)
    slot_length := SlotLength.ofU8 (← s.get8 oc 0x08)
    slot_id := ← s.get16 oc 0x09
    slot_characteristics_1 := ⟨← s.get8 oc 0x0B⟩
    slot_characteristics_2 := (← (s.get8 oc 0x0C).toOption).map (⟨·⟩)
    segment_group_number := (← (s.get16 oc 0x0D).toOption).filter (fun v => v != 0xFFFF)
    bus_number := (← (s.get8 oc 0x0F).toOption).filter (fun v => v != 0xFF)
    device_and_function_number :=
      ((← (s.get8 oc 0x10).toOption).filter (fun v => v != 0xFF)).map DeviceAndFunctionNumber.ofU8
    data_bus_width := ← (s.get8 oc 0x11).toOption
    peer_devices := (← s.get_slice oc 0x13 (5 * n)).map PeerDevices.ofSlice
    slot_information := ← (s.get8 oc (0x14 + 5 * n)).toOption
    slot_physical_width := (← (s.get8 oc (0x15 + 5 * n)).toOption).map SlotWidth.ofU8
    slot_pitch := (← (s.get16 oc (0x16 + 5 * n)).toOption).map (⟨·⟩) }

/-- `SystemSlots::try_from`, `src/structures/009_system_slots.rs` 343-404, counted. -/
def SystemSlots.try_fromC [Usize] (oc : Bool) (s : RawStructure) : CR SystemSlots :=
  let v := s.version
  let l := s.data.length + 4
  if (!verLt v 2 0 && verLt v 2 1) && l != 0x0C then
    .err (.InvalidFormattedSectionLength .SystemSlots s.handle "" 0x0C)
  else if (!verLt v 2 1 && verLt v 2 6) && l != 0x0D then
    .err (.InvalidFormattedSectionLength .SystemSlots s.handle "" 0x0D)
  else if (!verLt v 2 6 && verLt v 3 2) && l != 0x11 then
    .err (.InvalidFormattedSectionLength .SystemSlots s.handle "" 0x11)
  else if !verLt v 3 2 && l < 0x11 then
    .err (.InvalidFormattedSectionLength .SystemSlots s.handle "minimum of " 0x11)
  else SystemSlots.decodeC oc s

end system_slots

namespace system_configuration_options

/-- `SystemConfigurationOptions::try_from`, `src/structures/012_system_configuration_options.rs` 22-37, counted. -/
def SystemConfigurationOptions.try_fromC [Usize] (oc : Bool)
    (s : RawStructure) : CR SystemConfigurationOptions := do
  let count ← s.get8 oc 0x04
  let strings := s.stringsIter
  let number ← strings.countW
  if count.toNat ≠ number then
    .err (.InvalidStringIndex .SystemConfigurationOptions s.handle count)
  else pure { handle := s.handle, strings }

end system_configuration_options

namespace group_associations

/-- `GroupAssociations::try_from`, `src/structures/014_group_associations.rs` 42-58, counted. -/
def GroupAssociations.try_fromC [Usize] (oc : Bool) (s : RawStructure) : CR GroupAssociations := do
  let size ← (subUsize oc s.length.toNat 0x05 : R _)
  let slice ← (Res.ofOption (.InvalidFormattedSectionLength .GroupAssociations s.handle "" s.length)
    (← s.get_slice oc 0x05 size) : R _)
  pure {
    handle := s.handle
    group_name := ← s.get_stringW oc 0x04
    items := .new slice }

end group_associations

namespace memory_device

/-- `MemoryDevice::try_from`, `src/structures/017_memory_device.rs` 381-431, counted. -/
def MemoryDevice.try_fromC [Usize] (oc : Bool) (s : RawStructure) : CR MemoryDevice :=
  if s.data.length + 4 < 0x15 then
    .err (.InvalidFormattedSectionLength .MemoryDevice s.handle "at least" 0x15)
  else do
    pure {
      handle := s.handle
      physical_memory_handle := ← s.get16 oc 0x04
      memory_error_handle := (← (s.get16 oc 0x06).toOption).filter (fun v => v != 0xFFFE)
      total_width := (← (s.get16 oc 0x08).toOption).filter (fun v => v != 0xFFFF)
      data_width := (← (s.get16 oc 0x0A).toOption).filter (fun v => v != 0xFFFF)
      size := (← (s.get16 oc 0x0C).toOption).filter (fun v => v != 0xFFFF)
      form_factor := FormFactor.ofU8 (← s.get8 oc 0x0E)
      device_set := some (← s.get8 oc 0x0F)
      device_locator := ← s.get_stringW oc 0x10
      bank_locator := ← s.get_stringW oc 0x11
      memory_type := MemoryType.ofU8 (← s.get8 oc 0x12)
      type_detail := Detail.fromBitsTruncate (← s.get16 oc 0x13)
      speed := (← (s.get16 oc 0x15).toOption).filter (fun v => v != 0x0000)
      manufacturer := ← s.get_stringW oc 0x17
      serial := ← s.get_stringW oc 0x18
      asset_tag := ← s.get_stringW oc 0x19
      part_number := ← s.get_stringW oc 0x1A
      attributes := ← s.get8 oc 0x1B
      extended_size := ← s.get32 oc 0x1C
      configured_memory_speed := (← (s.get16 oc 0x20).toOption).filter (fun v => v != 0x0000)
      minimum_voltage := (← (s.get16 oc 0x22).toOption).filter (fun v => v != 0x0000)
      maximum_voltage := (← (s.get16 oc 0x24).toOption).filter (fun v => v != 0x0000)
      configured_voltage := (← (s.get16 oc 0x26).toOption).filter (fun v => v != 0x0000)
      memory_technology := (← (s.get8 oc 0x28).toOption).map MemoryTechnology.ofU8
      operating_mode_capability := (← (s.get16 oc 0x29).toOption).map OperatingModes.fromBitsTruncate
      firmware_version := ← (s.get_stringW oc 0x2B).toOption
      module_manufacturer := ← (s.get16 oc 0x2C).toOption
      module_product_id := ← (s.get16 oc 0x2E).toOption
      memory_subsystem_controller_manufacturer_id := ← (s.get16 oc 0x30).toOption
      memory_subsystem_controller_product_id := ← (s.get16 oc 0x32).toOption
      non_volatile_size := ← (s.get64 oc 0x34).toOption
      volatile_size := ← (s.get64 oc 0x3C).toOption
      cache_size := ← (s.get64 oc 0x44).toOption
      logical_size := ← (s.get64 oc 0x4C).toOption
      extended_speed := ← (s.get32 oc 0x54).toOption
      extended_configured_memory_speed := ← (s.get32 oc 0x58).toOption }

end memory_device

namespace portable_battery

/-- The string operand of `ManufactureDate::new`/`SerialNumber::new`, `src/structures/022_portable_battery.rs` 112-116, 120-124, counted. -/
def optStringC [Usize] (oc : Bool) (s : RawStructure) (offset : Nat) : CR (Option Str) := do
  match (← (s.get8 oc offset).toOption).filter (fun idx => idx != 0) with
  | none => pure none
  | some idx => (s.find_stringW idx).toOption

/-- `PortableBattery::try_from`, `src/structures/022_portable_battery.rs` 92-136, counted. -/
def PortableBattery.try_fromC [Usize] (oc : Bool) (s : RawStructure) : CR PortableBattery :=
  if s.version = .ofPair 2 1 ∧ s.length ≠ 0x10 then
    .err (.InvalidFormattedSectionLength .PortableBattery s.handle "" 0x10)
  else if s.version.ge (.ofPair 2 2) ∧ s.length ≠ 0x1A then
    .err (.InvalidFormattedSectionLength .PortableBattery s.handle "" 0x1A)
  else do
    pure {
      handle := s.handle
      location := ← s.get_stringW oc 0x04
      manufacturer := ← s.get_stringW oc 0x05
      manufacture_date := ManufactureDate.new (← optStringC oc s 0x06) (← (s.get16 oc 0x12).toOption)
      serial_number := SerialNumber.new (← optStringC oc s 0x07) (← (s.get16 oc 0x10).toOption)
      device_name := ← s.get_stringW oc 0x08
      device_chemistry :=
        DeviceChemistry.new (← s.get8 oc 0x09) (← (s.get_stringW oc 0x14).toOption)
      design_capacity := DesignCapacity.new (← s.get16 oc 0x0A) (← (s.get8 oc 0x15).toOption)
      design_voltage := ← s.get16 oc 0x0C
      sbds_version_number := ← s.get_stringW oc 0x0E
      maximum_error_in_battery_data := ← s.get8 oc 0x0F
      oem_specific := ← (s.get32 oc 0x16).toOption }

end portable_battery

/-- The `match` on the type in `Structures::next`, `src/lib.rs` 487-519, counted. -/
def decodeStructureC [Usize] (oc : Bool) (s : RawStructure) : CR Structure :=
  match s.info with
  | .Bios => (bios.Bios.try_fromC s).map .Bios
  | .System => (system.System.try_fromC s).map .System
  | .BaseBoard => (baseboard.BaseBoard.try_fromC s).map .BaseBoard
  | .Enclosure => (enclosure.Enclosure.try_fromC oc s).map .Enclosure
  | .Processor => (processor.Processor.try_fromC s).map .Processor
  | .Cache => (cache.Cache.try_fromC s).map .Cache
  | .PortConnector => (port_connector.PortConnector.try_fromC s).map .PortConnector
  | .SystemSlots => (system_slots.SystemSlots.try_fromC oc s).map .SystemSlots
  | .OemStrings => CR.free ((oem_strings.OemStrings.try_from s).map .OemStrings)
  | .SystemConfigurationOptions =>
    (system_configuration_options.SystemConfigurationOptions.try_fromC oc s).map .SystemConfigurationOptions
  | .BiosLanguage => CR.free ((bios_language.BiosLanguage.try_from s).map .BiosLanguage)
  | .GroupAssociations =>
    (group_associations.GroupAssociations.try_fromC oc s).map .GroupAssociations
  | .SystemEventLog => CR.free ((system_event_log.SystemEventLog.try_from oc s).map .SystemEventLog)
  | .PhysicalMemoryArray =>
    CR.free ((physical_memory_array.PhysicalMemoryArray.try_from s).map .PhysicalMemoryArray)
  | .MemoryDevice => (memory_device.MemoryDevice.try_fromC oc s).map .MemoryDevice
  | .MemoryError32 => CR.free ((memory_error_32.MemoryError32.try_from oc s).map .MemoryError32)
  | .MemoryArrayMappedAddress =>
    CR.free ((memory_array_mapped_address.MemoryArrayMappedAddress.try_from oc s).map .MemoryArrayMappedAddress)
  | .MemoryDeviceMappedAddress =>
    CR.free ((memory_device_mapped_address.MemoryDeviceMappedAddress.try_from oc s).map .MemoryDeviceMappedAddress)
  | .BuiltInPointingDevice =>
    CR.free ((built_in_pointing_device.BuiltInPointingDevice.try_from oc s).map .BuiltInPointingDevice)
  | .PortableBattery => (portable_battery.PortableBattery.try_fromC oc s).map .PortableBattery
  | _ => pure (.Other s)

/-- `Structures::next`, `src/lib.rs` 467-520, with the number of executions of the loop body of `find_nulnul` and
the number of bytes the decoder's lookups look at. -/
def Structures.nextW [Usize] (oc : Bool) (s : Structures) :
    Fault ((Option (Except MalformedStructureError Structure) × Structures) × Nat × Nat) := do
  let ((o, s), c) ← s.next_rawC oc
  match o with
  | none => pure ((none, s), c, 0)
  | some (.error e) => pure ((some (.error e), { s with smbios_len := s.idx }), c, 0)
  | some (.ok structure_) => do
    let s := if s.smbios_version.major ≥ 3 ∧ structure_.info = .End
      then { s with smbios_len := s.idx } else s
    let item ← (decodeStructureC oc structure_).out.toItem
    pure ((some item, s), c, (decodeStructureC oc structure_).cost)

end Dmi
