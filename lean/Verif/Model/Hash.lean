import Verif.Model.HashParts
import Verif.Model.Dispatch
/-!
# What the derived `Hash` of each type hands to the hasher

Generated from the Rust text by `tools/gen_hash.py`: the fields in the order of their declaration, behind the
discriminant (the position among the variants) in the case of an enumeration.
-/
namespace Dmi

/-- `RomSize`, `src/structures/000_bios.rs` 72-78. -/
def bios.RomSize.fed (x : bios.RomSize) : List Fed :=
  [[.u8 x.basic],
    Fed.opt (fun y => [.u16 y]) x.extended].flatten

/-- `Characteristics`, `src/structures/000_bios.rs` 43. -/
def bios.Characteristics.fed (x : bios.Characteristics) : List Fed :=
  [.u64 x.value]

/-- `CharacteristicsExtension1`, `src/structures/000_bios.rs` 48. -/
def bios.CharacteristicsExtension1.fed (x : bios.CharacteristicsExtension1) : List Fed :=
  [.u8 x.value]

/-- `CharacteristicsExtension2`, `src/structures/000_bios.rs` 53. -/
def bios.CharacteristicsExtension2.fed (x : bios.CharacteristicsExtension2) : List Fed :=
  [.u8 x.value]

/-- `BiosRevision`, `src/structures/000_bios.rs` 57-60. -/
def bios.BiosRevision.fed (x : bios.BiosRevision) : List Fed :=
  [[.u8 x.major],
    [.u8 x.minor]].flatten

/-- `FirmwareRevision`, `src/structures/000_bios.rs` 65-68. -/
def bios.FirmwareRevision.fed (x : bios.FirmwareRevision) : List Fed :=
  [[.u8 x.major],
    [.u8 x.minor]].flatten

/-- `Bios`, `src/structures/000_bios.rs` 12-39. -/
def bios.Bios.fed (x : bios.Bios) : List Fed :=
  [[.u16 x.handle],
    [.str x.vendor],
    [.str x.bios_version],
    [.u16 x.bios_starting_address_segment],
    [.str x.bios_release_date],
    x.rom_size.fed,
    x.bios_characteristics.fed,
    Fed.opt (·.fed) x.bios_characteristics_exttension_1,
    Fed.opt (·.fed) x.bios_characteristics_exttension_2,
    Fed.opt (·.fed) x.bios_revision,
    Fed.opt (·.fed) x.firmware_revision].flatten

/-- `WakeupType`, `src/structures/001_system.rs` 13-24. -/
def system.WakeupType.fields : system.WakeupType → List Fed
  | .Undefined v => [.u8 v]
  | _ => []

/-- `WakeupType`. -/
def system.WakeupType.fed (x : system.WakeupType) : List Fed := .tag (.ofNat x.ctorIdx) :: x.fields

/-- `System`, `src/structures/001_system.rs` 48-58. -/
def system.System.fed (x : system.System) : List Fed :=
  [[.u16 x.handle],
    [.str x.manufacturer],
    [.str x.product],
    [.str x.version],
    [.str x.serial],
    Fed.opt (fun y => [.uuid y]) x.uuid,
    Fed.opt (·.fed) x.wakeup,
    Fed.opt (fun y => [.str y]) x.sku,
    Fed.opt (fun y => [.str y]) x.family].flatten

/-- `BaseBoardFlags`, `src/structures/002_baseboard.rs` 77-83. -/
def baseboard.BaseBoardFlags.fed (x : baseboard.BaseBoardFlags) : List Fed := [.u8 x.bits]

/-- `BoardType`, `src/structures/002_baseboard.rs` 14-29. -/
def baseboard.BoardType.fields : baseboard.BoardType → List Fed
  | .Undefined v => [.u8 v]
  | _ => []

/-- `BoardType`. -/
def baseboard.BoardType.fed (x : baseboard.BoardType) : List Fed := .tag (.ofNat x.ctorIdx) :: x.fields

/-- `BaseBoard`, `src/structures/002_baseboard.rs` 91-102. -/
def baseboard.BaseBoard.fed (x : baseboard.BaseBoard) : List Fed :=
  [[.u16 x.handle],
    [.str x.manufacturer],
    [.str x.product],
    [.str x.version],
    [.str x.serial],
    Fed.opt (fun y => [.str y]) x.asset,
    Fed.opt (·.fed) x.feature_flags,
    Fed.opt (fun y => [.str y]) x.location_in_chassis,
    Fed.opt (fun y => [.u16 y]) x.chassis_handle,
    Fed.opt (·.fed) x.board_type].flatten

/-- `EnclosureType`, `src/structures/003_enclosure.rs` 57-108. -/
def enclosure.EnclosureType.fields : enclosure.EnclosureType → List Fed
  | .Undefined v => [.u8 v]
  | _ => []

/-- `EnclosureType`. -/
def enclosure.EnclosureType.fed (x : enclosure.EnclosureType) : List Fed := .tag (.ofNat x.ctorIdx) :: x.fields

/-- `State`, `src/structures/003_enclosure.rs` 112-120. -/
def enclosure.State.fields : enclosure.State → List Fed
  | .Undefined v => [.u8 v]
  | _ => []

/-- `State`. -/
def enclosure.State.fed (x : enclosure.State) : List Fed := .tag (.ofNat x.ctorIdx) :: x.fields

/-- `SecurityStatus`, `src/structures/003_enclosure.rs` 124-131. -/
def enclosure.SecurityStatus.fields : enclosure.SecurityStatus → List Fed
  | .Undefined v => [.u8 v]
  | _ => []

/-- `SecurityStatus`. -/
def enclosure.SecurityStatus.fed (x : enclosure.SecurityStatus) : List Fed := .tag (.ofNat x.ctorIdx) :: x.fields

/-- `impl Hash for ContainedElements`, `src/structures/003_enclosure.rs` 447-453. -/
def enclosure.ContainedElements.fed (x : enclosure.ContainedElements) : List Fed := [.chunks x.chunks, .u8 x.count, .u8 x.record_length]

/-- `Enclosure`, `src/structures/003_enclosure.rs` 16-53. -/
def enclosure.Enclosure.fed (x : enclosure.Enclosure) : List Fed :=
  [[.u16 x.handle],
    [.str x.manufacturer],
    [.bool x.chassis_lock],
    x.enclosure_type.fed,
    [.str x.version],
    [.str x.serial_number],
    [.str x.asset_tag_number],
    Fed.opt (·.fed) x.boot_up_state,
    Fed.opt (·.fed) x.power_supply_state,
    Fed.opt (·.fed) x.thermal_state,
    Fed.opt (·.fed) x.security_status,
    Fed.opt (fun y => [.u32 y]) x.oem_defined,
    Fed.opt (fun y => [.u8 y]) x.height,
    Fed.opt (fun y => [.u8 y]) x.power_cords_number,
    Fed.opt (·.fed) x.contained_elements,
    Fed.opt (fun y => [.str y]) x.sku_number].flatten

/-- `ProcessorType`, `src/structures/004_processor.rs` 18-26. -/
def processor.ProcessorType.fields : processor.ProcessorType → List Fed
  | .Undefined v => [.u8 v]
  | _ => []

/-- `ProcessorType`. -/
def processor.ProcessorType.fed (x : processor.ProcessorType) : List Fed := .tag (.ofNat x.ctorIdx) :: x.fields

/-- `ProcessorFamily`, `src/structures/004_processor.rs` 136-379. -/
def processor.ProcessorFamily.fields : processor.ProcessorFamily → List Fed
  | .Available v => [.u16 v]
  | .NotUsed v => [.u16 v]
  | _ => []

/-- `ProcessorFamily`. -/
def processor.ProcessorFamily.fed (x : processor.ProcessorFamily) : List Fed := .tag (.ofNat x.ctorIdx) :: x.fields

/-- `VoltageLegacy`, `src/structures/004_processor.rs` 396-400. -/
def processor.VoltageLegacy.fed (x : processor.VoltageLegacy) : List Fed := [.u8 x.bits]

/-- `Voltage`, `src/structures/004_processor.rs` 387-391. -/
def processor.Voltage.fields : processor.Voltage → List Fed
  | .Legacy v => v.fed
  | .Current v => [.u8 v]
  | .Undefined v => [.u8 v]

/-- `Voltage`. -/
def processor.Voltage.fed (x : processor.Voltage) : List Fed := .tag (.ofNat x.ctorIdx) :: x.fields

/-- `ProcessorStatus`, `src/structures/004_processor.rs` 45-52. -/
def processor.ProcessorStatus.fed (x : processor.ProcessorStatus) : List Fed := [.u8 x.bits]

/-- `ProcessorUpgrade`, `src/structures/004_processor.rs` 404-468. -/
def processor.ProcessorUpgrade.fields : processor.ProcessorUpgrade → List Fed
  | .Undefined v => [.u8 v]
  | _ => []

/-- `ProcessorUpgrade`. -/
def processor.ProcessorUpgrade.fed (x : processor.ProcessorUpgrade) : List Fed := .tag (.ofNat x.ctorIdx) :: x.fields

/-- `ProcessorCharacteristics`, `src/structures/004_processor.rs` 58-68. -/
def processor.ProcessorCharacteristics.fed (x : processor.ProcessorCharacteristics) : List Fed := [.u16 x.bits]

/-- `Processor`, `src/structures/004_processor.rs` 76-126. -/
def processor.Processor.fed (x : processor.Processor) : List Fed :=
  [[.u16 x.handle],
    [.str x.socket_designation],
    x.processor_type.fed,
    x.processor_family.fed,
    [.str x.processor_manufacturer],
    [.u64 x.processor_id],
    [.str x.processor_version],
    x.voltage.fed,
    [.u16 x.external_clock],
    [.u16 x.max_speed],
    [.u16 x.current_speed],
    x.status.fed,
    x.processor_upgrade.fed,
    Fed.opt (fun y => [.u16 y]) x.l1_cache_handle,
    Fed.opt (fun y => [.u16 y]) x.l2_cache_handle,
    Fed.opt (fun y => [.u16 y]) x.l3_cache_handle,
    Fed.opt (fun y => [.str y]) x.serial_number,
    Fed.opt (fun y => [.str y]) x.asset_tag,
    Fed.opt (fun y => [.str y]) x.part_number,
    Fed.opt (fun y => [.u16 y]) x.core_count,
    Fed.opt (fun y => [.u16 y]) x.core_enabled,
    Fed.opt (fun y => [.u16 y]) x.thread_count,
    Fed.opt (·.fed) x.processor_characteristics].flatten

/-- `CacheLevel`, `src/structures/007_cache.rs` 67-76. -/
def cache.CacheLevel.fed (x : cache.CacheLevel) : List Fed := [.tag (.ofNat x.ctorIdx)]

/-- `CacheLocation`, `src/structures/007_cache.rs` 79-84. -/
def cache.CacheLocation.fed (x : cache.CacheLocation) : List Fed := [.tag (.ofNat x.ctorIdx)]

/-- `CacheOperationalMode`, `src/structures/007_cache.rs` 87-92. -/
def cache.CacheOperationalMode.fed (x : cache.CacheOperationalMode) : List Fed := [.tag (.ofNat x.ctorIdx)]

/-- `CacheConfiguration`, `src/structures/007_cache.rs` 53-64. -/
def cache.CacheConfiguration.fed (x : cache.CacheConfiguration) : List Fed :=
  [x.level.fed,
    [.bool x.socketed],
    x.location.fed,
    [.bool x.enabled_at_boot_time],
    x.operational_mode.fed].flatten

/-- `CacheSize`, `src/structures/007_cache.rs` 96-99. -/
def cache.CacheSize.fields : cache.CacheSize → List Fed
  | .Granularity1K v => [.u16 v]
  | .Granularity64K v => [.u16 v]

/-- `CacheSize`. -/
def cache.CacheSize.fed (x : cache.CacheSize) : List Fed := .tag (.ofNat x.ctorIdx) :: x.fields

/-- `CacheSramType`, `src/structures/007_cache.rs` 104-112. -/
def cache.CacheSramType.fed (x : cache.CacheSramType) : List Fed := [.u16 x.bits]

/-- `CacheErrorCorrectionType`, `src/structures/007_cache.rs` 117-125. -/
def cache.CacheErrorCorrectionType.fields : cache.CacheErrorCorrectionType → List Fed
  | .Undefined v => [.u8 v]
  | _ => []

/-- `CacheErrorCorrectionType`. -/
def cache.CacheErrorCorrectionType.fed (x : cache.CacheErrorCorrectionType) : List Fed := .tag (.ofNat x.ctorIdx) :: x.fields

/-- `SystemCacheType`, `src/structures/007_cache.rs` 133-140. -/
def cache.SystemCacheType.fields : cache.SystemCacheType → List Fed
  | .Undefined v => [.u8 v]
  | _ => []

/-- `SystemCacheType`. -/
def cache.SystemCacheType.fed (x : cache.SystemCacheType) : List Fed := .tag (.ofNat x.ctorIdx) :: x.fields

/-- `CacheAssociativity`, `src/structures/007_cache.rs` 144-160. -/
def cache.CacheAssociativity.fields : cache.CacheAssociativity → List Fed
  | .Undefined v => [.u8 v]
  | _ => []

/-- `CacheAssociativity`. -/
def cache.CacheAssociativity.fed (x : cache.CacheAssociativity) : List Fed := .tag (.ofNat x.ctorIdx) :: x.fields

/-- `CacheSize2`, `src/structures/007_cache.rs` 164-167. -/
def cache.CacheSize2.fields : cache.CacheSize2 → List Fed
  | .Granularity1K v => [.u32 v]
  | .Granularity64K v => [.u32 v]

/-- `CacheSize2`. -/
def cache.CacheSize2.fed (x : cache.CacheSize2) : List Fed := .tag (.ofNat x.ctorIdx) :: x.fields

/-- `Cache`, `src/structures/007_cache.rs` 19-50. -/
def cache.Cache.fed (x : cache.Cache) : List Fed :=
  [[.u16 x.handle],
    [.str x.socket_designation],
    x.cache_configuration.fed,
    x.maximum_cache_size.fed,
    x.installed_size.fed,
    x.supported_sram_type.fed,
    x.current_sram_type.fed,
    Fed.opt (fun y => [.u8 y]) x.cache_speed,
    Fed.opt (·.fed) x.error_correction_type,
    Fed.opt (·.fed) x.system_cache_type,
    Fed.opt (·.fed) x.associativity,
    Fed.opt (·.fed) x.maximum_cache_size_2,
    Fed.opt (·.fed) x.installed_size_2].flatten

/-- `ConnectorType`, `src/structures/008_port_connector.rs` 38-82. -/
def port_connector.ConnectorType.fields : port_connector.ConnectorType → List Fed
  | .Undefined v => [.u8 v]
  | _ => []

/-- `ConnectorType`. -/
def port_connector.ConnectorType.fed (x : port_connector.ConnectorType) : List Fed := .tag (.ofNat x.ctorIdx) :: x.fields

/-- `PortType`, `src/structures/008_port_connector.rs` 85-126. -/
def port_connector.PortType.fields : port_connector.PortType → List Fed
  | .Undefined v => [.u8 v]
  | _ => []

/-- `PortType`. -/
def port_connector.PortType.fed (x : port_connector.PortType) : List Fed := .tag (.ofNat x.ctorIdx) :: x.fields

/-- `PortConnector`, `src/structures/008_port_connector.rs` 19-34. -/
def port_connector.PortConnector.fed (x : port_connector.PortConnector) : List Fed :=
  [[.u16 x.handle],
    [.str x.internal_reference_designator],
    x.internal_connector_type.fed,
    [.str x.external_reference_designator],
    x.external_connector_type.fed,
    x.port_type.fed].flatten

/-- `SlotType`, `src/structures/009_system_slots.rs` 73-235. -/
def system_slots.SlotType.fields : system_slots.SlotType → List Fed
  | .Undefined v => [.u8 v]
  | _ => []

/-- `SlotType`. -/
def system_slots.SlotType.fed (x : system_slots.SlotType) : List Fed := .tag (.ofNat x.ctorIdx) :: x.fields

/-- `SlotWidth`, `src/structures/009_system_slots.rs` 238-266. -/
def system_slots.SlotWidth.fields : system_slots.SlotWidth → List Fed
  | .Undefined v => [.u8 v]
  | _ => []

/-- `SlotWidth`. -/
def system_slots.SlotWidth.fed (x : system_slots.SlotWidth) : List Fed := .tag (.ofNat x.ctorIdx) :: x.fields

/-- `CurrentUsage`, `src/structures/009_system_slots.rs` 269-278. -/
def system_slots.CurrentUsage.fields : system_slots.CurrentUsage → List Fed
  | .Undefined v => [.u8 v]
  | _ => []

/-- `CurrentUsage`. -/
def system_slots.CurrentUsage.fed (x : system_slots.CurrentUsage) : List Fed := .tag (.ofNat x.ctorIdx) :: x.fields

/-- `SlotLength`, `src/structures/009_system_slots.rs` 281-291. -/
def system_slots.SlotLength.fields : system_slots.SlotLength → List Fed
  | .Undefined v => [.u8 v]
  | _ => []

/-- `SlotLength`. -/
def system_slots.SlotLength.fed (x : system_slots.SlotLength) : List Fed := .tag (.ofNat x.ctorIdx) :: x.fields

/-- `SlotCharacteristics1`, `src/structures/009_system_slots.rs` 294. -/
def system_slots.SlotCharacteristics1.fed (x : system_slots.SlotCharacteristics1) : List Fed :=
  [.u8 x.bits]

/-- `SlotCharacteristics2`, `src/structures/009_system_slots.rs` 297. -/
def system_slots.SlotCharacteristics2.fed (x : system_slots.SlotCharacteristics2) : List Fed :=
  [.u8 x.bits]

/-- `DeviceAndFunctionNumber`, `src/structures/009_system_slots.rs` 314. -/
def system_slots.DeviceAndFunctionNumber.fed (x : system_slots.DeviceAndFunctionNumber) : List Fed :=
  [[.u8 x.device],
    [.u8 x.function]].flatten

/-- `impl Hash for PeerDevices`, `src/structures/009_system_slots.rs` 857-861. -/
def system_slots.PeerDevices.fed (x : system_slots.PeerDevices) : List Fed := [.chunks x.chunks]

/-- `SlotPitch`, `src/structures/009_system_slots.rs` 340. -/
def system_slots.SlotPitch.fed (x : system_slots.SlotPitch) : List Fed :=
  [.u16 x.value]

/-- `SystemSlots`, `src/structures/009_system_slots.rs` 22-70. -/
def system_slots.SystemSlots.fed (x : system_slots.SystemSlots) : List Fed :=
  [[.u16 x.handle],
    [.str x.slot_designation],
    x.slot_type.fed,
    x.slot_data_bus_width.fed,
    x.current_usage.fed,
    x.slot_length.fed,
    [.u16 x.slot_id],
    x.slot_characteristics_1.fed,
    Fed.opt (·.fed) x.slot_characteristics_2,
    Fed.opt (fun y => [.u16 y]) x.segment_group_number,
    Fed.opt (fun y => [.u8 y]) x.bus_number,
    Fed.opt (·.fed) x.device_and_function_number,
    Fed.opt (fun y => [.u8 y]) x.data_bus_width,
    Fed.opt (·.fed) x.peer_devices,
    Fed.opt (fun y => [.u8 y]) x.slot_information,
    Fed.opt (·.fed) x.slot_physical_width,
    Fed.opt (·.fed) x.slot_pitch].flatten

/-- `StructureStrings`, `src/lib.rs` 662-665. -/
def StructureStrings.fed (x : StructureStrings) : List Fed :=
  [[.slice x.bytes],
    [.usize x.start]].flatten

/-- `OemStrings`, `src/structures/011_oem_strings.rs` 10-15. -/
def oem_strings.OemStrings.fed (x : oem_strings.OemStrings) : List Fed :=
  [[.u16 x.handle],
    x.strings.fed].flatten

/-- `SystemConfigurationOptions`, `src/structures/012_system_configuration_options.rs` 14-19. -/
def system_configuration_options.SystemConfigurationOptions.fed (x : system_configuration_options.SystemConfigurationOptions) : List Fed :=
  [[.u16 x.handle],
    x.strings.fed].flatten

/-- `SmbiosVersion`, `src/lib.rs` 291-294. -/
def SmbiosVersion.fed (x : SmbiosVersion) : List Fed :=
  [[.u8 x.major],
    [.u8 x.minor]].flatten

/-- `InfoType`, `src/lib.rs` 689-713. -/
def InfoType.fields : InfoType → List Fed
  | .Oem v => [.u8 v]
  | _ => []

/-- `InfoType`. -/
def InfoType.fed (x : InfoType) : List Fed := .tag (.ofNat x.ctorIdx) :: x.fields

/-- `RawStructure`, `src/lib.rs` 571-578. -/
def RawStructure.fed (x : RawStructure) : List Fed :=
  [x.version.fed,
    x.info.fed,
    [.u8 x.length],
    [.u16 x.handle],
    [.slice x.data],
    [.slice x.strings]].flatten

/-- `InstallableLanguages`, `src/structures/013_bios_language.rs` 23-26. -/
def bios_language.InstallableLanguages.fed (x : bios_language.InstallableLanguages) : List Fed :=
  [x.structure_.fed,
    [.u8 x.index]].flatten

/-- `LanguageFlags`, `src/structures/013_bios_language.rs` 30. -/
def bios_language.LanguageFlags.fed (x : bios_language.LanguageFlags) : List Fed :=
  [.u8 x.bits]

/-- `BiosLanguage`, `src/structures/013_bios_language.rs` 10-19. -/
def bios_language.BiosLanguage.fed (x : bios_language.BiosLanguage) : List Fed :=
  [[.u16 x.handle],
    x.installable_languages.fed,
    Fed.opt (·.fed) x.flags,
    [.u8 x.current_language]].flatten

/-- `GroupItems`, `src/structures/014_group_associations.rs` 27-30. -/
def group_associations.GroupItems.fed (x : group_associations.GroupItems) : List Fed :=
  [[.slice x.data],
    [.usize x.index]].flatten

/-- `GroupAssociations`, `src/structures/014_group_associations.rs` 16-23. -/
def group_associations.GroupAssociations.fed (x : group_associations.GroupAssociations) : List Fed :=
  [[.u16 x.handle],
    [.str x.group_name],
    x.items.fed].flatten

/-- `AccessMethod`, `src/structures/015_system_event_log/mod.rs` 59-74. -/
def system_event_log.AccessMethod.fields : system_event_log.AccessMethod → List Fed
  | .IndexedIoOne8bitIndexOne8bitData index data => [[.u8 index], [.u8 data]].flatten
  | .IndexedIoTwo8bitIndexOne8bitData index0 index1 data => [[.slice [index0, index1]], [.u8 data]].flatten
  | .IndexedIoOne16bitIndexOne8bitData index data => [[.u16 index], [.u8 data]].flatten
  | .MemoryMappedPhysicaAddress physical_address => [.u32 physical_address]
  | .GeneralPurposeNonVolatileData gpnv_handle => [.u16 gpnv_handle]
  | .Available method address => [[.u8 method], [.u32 address]].flatten
  | .OemSpecific method address => [[.u8 method], [.u32 address]].flatten

/-- `AccessMethod`. -/
def system_event_log.AccessMethod.fed (x : system_event_log.AccessMethod) : List Fed := .tag (.ofNat x.ctorIdx) :: x.fields

/-- `LogStatus`, `src/structures/015_system_event_log/mod.rs` 81. -/
def system_event_log.LogStatus.fed (x : system_event_log.LogStatus) : List Fed :=
  [.u8 x.bits]

/-- `LogHeaderFormat`, `src/structures/015_system_event_log/mod.rs` 85-94. -/
def system_event_log.LogHeaderFormat.fields : system_event_log.LogHeaderFormat → List Fed
  | .Available v => [.u8 v]
  | .OemSpecific v => [.u8 v]
  | _ => []

/-- `LogHeaderFormat`. -/
def system_event_log.LogHeaderFormat.fed (x : system_event_log.LogHeaderFormat) : List Fed := .tag (.ofNat x.ctorIdx) :: x.fields

/-- `impl Hash for SupportedEventLogTypeDescriptors`, `src/structures/015_system_event_log/mod.rs` 368-372. -/
def system_event_log.SupportedEventLogTypeDescriptors.fed (x : system_event_log.SupportedEventLogTypeDescriptors) : List Fed := [.chunks x.chunks]

/-- `SystemEventLog`, `src/structures/015_system_event_log/mod.rs` 30-53. -/
def system_event_log.SystemEventLog.fed (x : system_event_log.SystemEventLog) : List Fed :=
  [[.u16 x.handle],
    [.u16 x.log_area_length],
    [.u16 x.log_header_start_offset],
    [.u16 x.log_data_start_offset],
    x.access_method.fed,
    x.log_status.fed,
    [.u32 x.log_change_token],
    Fed.opt (·.fed) x.log_header_format,
    Fed.opt (·.fed) x.supported_event_log_type_descriptors].flatten

/-- `FormFactor`, `src/structures/017_memory_device.rs` 102-120. -/
def memory_device.FormFactor.fields : memory_device.FormFactor → List Fed
  | .Undefined v => [.u8 v]
  | _ => []

/-- `FormFactor`. -/
def memory_device.FormFactor.fed (x : memory_device.FormFactor) : List Fed := .tag (.ofNat x.ctorIdx) :: x.fields

/-- `Type`, `src/structures/017_memory_device.rs` 175-211. -/
def memory_device.MemoryType.fields : memory_device.MemoryType → List Fed
  | .Undefined v => [.u8 v]
  | _ => []

/-- `Type`. -/
def memory_device.MemoryType.fed (x : memory_device.MemoryType) : List Fed := .tag (.ofNat x.ctorIdx) :: x.fields

/-- `Detail`, `src/structures/017_memory_device.rs` 259-276. -/
def memory_device.Detail.fed (x : memory_device.Detail) : List Fed := [.u16 x.bits]

/-- `MemoryTechnology`, `src/structures/017_memory_device.rs` 147-157. -/
def memory_device.MemoryTechnology.fields : memory_device.MemoryTechnology → List Fed
  | .Undefined v => [.u8 v]
  | _ => []

/-- `MemoryTechnology`. -/
def memory_device.MemoryTechnology.fed (x : memory_device.MemoryTechnology) : List Fed := .tag (.ofNat x.ctorIdx) :: x.fields

/-- `OperatingModes`, `src/structures/017_memory_device.rs` 287-294. -/
def memory_device.OperatingModes.fed (x : memory_device.OperatingModes) : List Fed := [.u16 x.bits]

/-- `MemoryDevice`, `src/structures/017_memory_device.rs` 302-378. -/
def memory_device.MemoryDevice.fed (x : memory_device.MemoryDevice) : List Fed :=
  [[.u16 x.handle],
    [.u16 x.physical_memory_handle],
    Fed.opt (fun y => [.u16 y]) x.memory_error_handle,
    Fed.opt (fun y => [.u16 y]) x.total_width,
    Fed.opt (fun y => [.u16 y]) x.data_width,
    Fed.opt (fun y => [.u16 y]) x.size,
    x.form_factor.fed,
    Fed.opt (fun y => [.u8 y]) x.device_set,
    [.str x.device_locator],
    [.str x.bank_locator],
    x.memory_type.fed,
    x.type_detail.fed,
    Fed.opt (fun y => [.u16 y]) x.speed,
    [.str x.manufacturer],
    [.str x.serial],
    [.str x.asset_tag],
    [.str x.part_number],
    [.u8 x.attributes],
    [.u32 x.extended_size],
    Fed.opt (fun y => [.u16 y]) x.configured_memory_speed,
    Fed.opt (fun y => [.u16 y]) x.minimum_voltage,
    Fed.opt (fun y => [.u16 y]) x.maximum_voltage,
    Fed.opt (fun y => [.u16 y]) x.configured_voltage,
    Fed.opt (·.fed) x.memory_technology,
    Fed.opt (·.fed) x.operating_mode_capability,
    Fed.opt (fun y => [.str y]) x.firmware_version,
    Fed.opt (fun y => [.u16 y]) x.module_manufacturer,
    Fed.opt (fun y => [.u16 y]) x.module_product_id,
    Fed.opt (fun y => [.u16 y]) x.memory_subsystem_controller_manufacturer_id,
    Fed.opt (fun y => [.u16 y]) x.memory_subsystem_controller_product_id,
    Fed.opt (fun y => [.u64 y]) x.non_volatile_size,
    Fed.opt (fun y => [.u64 y]) x.volatile_size,
    Fed.opt (fun y => [.u64 y]) x.cache_size,
    Fed.opt (fun y => [.u64 y]) x.logical_size,
    Fed.opt (fun y => [.u32 y]) x.extended_speed,
    Fed.opt (fun y => [.u32 y]) x.extended_configured_memory_speed].flatten

/-- `ErrorType`, `src/structures/018_memory_error_32.rs` 40-56. -/
def memory_error_32.ErrorType.fields : memory_error_32.ErrorType → List Fed
  | .Undefined v => [.u8 v]
  | _ => []

/-- `ErrorType`. -/
def memory_error_32.ErrorType.fed (x : memory_error_32.ErrorType) : List Fed := .tag (.ofNat x.ctorIdx) :: x.fields

/-- `ErrorGranularity`, `src/structures/018_memory_error_32.rs` 60-68. -/
def memory_error_32.ErrorGranularity.fields : memory_error_32.ErrorGranularity → List Fed
  | .Undefined v => [.u8 v]
  | _ => []

/-- `ErrorGranularity`. -/
def memory_error_32.ErrorGranularity.fed (x : memory_error_32.ErrorGranularity) : List Fed := .tag (.ofNat x.ctorIdx) :: x.fields

/-- `ErrorOperation`, `src/structures/018_memory_error_32.rs` 72-80. -/
def memory_error_32.ErrorOperation.fields : memory_error_32.ErrorOperation → List Fed
  | .Undefined v => [.u8 v]
  | _ => []

/-- `ErrorOperation`. -/
def memory_error_32.ErrorOperation.fed (x : memory_error_32.ErrorOperation) : List Fed := .tag (.ofNat x.ctorIdx) :: x.fields

/-- `MemoryError32`, `src/structures/018_memory_error_32.rs` 15-35. -/
def memory_error_32.MemoryError32.fed (x : memory_error_32.MemoryError32) : List Fed :=
  [[.u16 x.handle],
    x.error_type.fed,
    x.error_granularity.fed,
    x.error_operation.fed,
    [.u32 x.vendor_syndrome],
    [.u32 x.memory_array_error_address],
    [.u32 x.device_error_address],
    [.u32 x.error_resolution]].flatten

/-- `MemoryArrayMappedAddress`, `src/structures/019_memory_array_mapped_address.rs` 14-50. -/
def memory_array_mapped_address.MemoryArrayMappedAddress.fed (x : memory_array_mapped_address.MemoryArrayMappedAddress) : List Fed :=
  [[.u16 x.handle],
    [.u32 x.starting_address],
    [.u32 x.ending_address],
    [.u16 x.memory_array_handle],
    [.u8 x.partition_width],
    Fed.opt (fun y => [.u64 y]) x.extended_starting_address,
    Fed.opt (fun y => [.u64 y]) x.extended_ending_address].flatten

/-- `MemoryDeviceMappedAddress`, `src/structures/020_memory_device_mapped_address.rs` 14-63. -/
def memory_device_mapped_address.MemoryDeviceMappedAddress.fed (x : memory_device_mapped_address.MemoryDeviceMappedAddress) : List Fed :=
  [[.u16 x.handle],
    [.u32 x.starting_address],
    [.u32 x.ending_address],
    [.u16 x.memory_device_handle],
    [.u16 x.memory_array_mapped_address_handle],
    [.u8 x.partition_row_position],
    [.u8 x.interleave_position],
    [.u8 x.interleaved_data_depth],
    Fed.opt (fun y => [.u64 y]) x.extended_starting_address,
    Fed.opt (fun y => [.u64 y]) x.extended_ending_address].flatten

/-- `Type`, `src/structures/021_built_in_pointing_device.rs` 29-40. -/
def built_in_pointing_device.DeviceType.fields : built_in_pointing_device.DeviceType → List Fed
  | .Undefined v => [.u8 v]
  | _ => []

/-- `Type`. -/
def built_in_pointing_device.DeviceType.fed (x : built_in_pointing_device.DeviceType) : List Fed := .tag (.ofNat x.ctorIdx) :: x.fields

/-- `Interface`, `src/structures/021_built_in_pointing_device.rs` 43-63. -/
def built_in_pointing_device.Interface.fields : built_in_pointing_device.Interface → List Fed
  | .Undefined v => [.u8 v]
  | _ => []

/-- `Interface`. -/
def built_in_pointing_device.Interface.fed (x : built_in_pointing_device.Interface) : List Fed := .tag (.ofNat x.ctorIdx) :: x.fields

/-- `BuiltInPointingDevice`, `src/structures/021_built_in_pointing_device.rs` 17-25. -/
def built_in_pointing_device.BuiltInPointingDevice.fed (x : built_in_pointing_device.BuiltInPointingDevice) : List Fed :=
  [[.u16 x.handle],
    x.type_.fed,
    x.interface.fed,
    [.u8 x.number_of_buttons]].flatten

/-- `ManufactureDate`, `src/structures/022_portable_battery.rs` 47-51. -/
def portable_battery.ManufactureDate.fields : portable_battery.ManufactureDate → List Fed
  | .Basic v => [.str v]
  | .SmartBatteryDataSpecification year month date => [[.u16 year], [.u8 month], [.u8 date]].flatten
  | _ => []

/-- `ManufactureDate`. -/
def portable_battery.ManufactureDate.fed (x : portable_battery.ManufactureDate) : List Fed := .tag (.ofNat x.ctorIdx) :: x.fields

/-- `SerialNumber`, `src/structures/022_portable_battery.rs` 55-59. -/
def portable_battery.SerialNumber.fields : portable_battery.SerialNumber → List Fed
  | .Basic v => [.str v]
  | .SmartBatteryDataSpecification v => [.u16 v]
  | _ => []

/-- `SerialNumber`. -/
def portable_battery.SerialNumber.fed (x : portable_battery.SerialNumber) : List Fed := .tag (.ofNat x.ctorIdx) :: x.fields

/-- `DeviceChemistry`, `src/structures/022_portable_battery.rs` 71-89. -/
def portable_battery.DeviceChemistry.fields : portable_battery.DeviceChemistry → List Fed
  | .Undefined v => [.u8 v]
  | .SmartBatteryDataSpecification v => [.str v]
  | _ => []

/-- `DeviceChemistry`. -/
def portable_battery.DeviceChemistry.fed (x : portable_battery.DeviceChemistry) : List Fed := .tag (.ofNat x.ctorIdx) :: x.fields

/-- `DesignCapacity`, `src/structures/022_portable_battery.rs` 63-66. -/
def portable_battery.DesignCapacity.fields : portable_battery.DesignCapacity → List Fed
  | .Data value multiplier => [[.u16 value], [.u8 multiplier]].flatten
  | _ => []

/-- `DesignCapacity`. -/
def portable_battery.DesignCapacity.fed (x : portable_battery.DesignCapacity) : List Fed := .tag (.ofNat x.ctorIdx) :: x.fields

/-- `PortableBattery`, `src/structures/022_portable_battery.rs` 17-43. -/
def portable_battery.PortableBattery.fed (x : portable_battery.PortableBattery) : List Fed :=
  [[.u16 x.handle],
    [.str x.location],
    [.str x.manufacturer],
    x.manufacture_date.fed,
    x.serial_number.fed,
    [.str x.device_name],
    x.device_chemistry.fed,
    x.design_capacity.fed,
    [.u16 x.design_voltage],
    [.str x.sbds_version_number],
    [.u8 x.maximum_error_in_battery_data],
    Fed.opt (fun y => [.u32 y]) x.oem_specific].flatten

/-- `MemoryArrayLocation`, `src/structures/016_physical_memory_array.rs` 12-30. -/
def physical_memory_array.MemoryArrayLocation.fields : physical_memory_array.MemoryArrayLocation → List Fed
  | .Undefined v => [.u8 v]
  | _ => []

/-- `MemoryArrayLocation`. -/
def physical_memory_array.MemoryArrayLocation.fed (x : physical_memory_array.MemoryArrayLocation) : List Fed := .tag (.ofNat x.ctorIdx) :: x.fields

/-- `MemoryArrayUse`, `src/structures/016_physical_memory_array.rs` 79-89. -/
def physical_memory_array.MemoryArrayUse.fields : physical_memory_array.MemoryArrayUse → List Fed
  | .Undefined v => [.u8 v]
  | _ => []

/-- `MemoryArrayUse`. -/
def physical_memory_array.MemoryArrayUse.fed (x : physical_memory_array.MemoryArrayUse) : List Fed := .tag (.ofNat x.ctorIdx) :: x.fields

/-- `MemoryArrayErrorCorrectionTypes`, `src/structures/016_physical_memory_array.rs` 122-132. -/
def physical_memory_array.MemoryArrayErrorCorrectionTypes.fields : physical_memory_array.MemoryArrayErrorCorrectionTypes → List Fed
  | .Undefined v => [.u8 v]
  | _ => []

/-- `MemoryArrayErrorCorrectionTypes`. -/
def physical_memory_array.MemoryArrayErrorCorrectionTypes.fed (x : physical_memory_array.MemoryArrayErrorCorrectionTypes) : List Fed := .tag (.ofNat x.ctorIdx) :: x.fields

/-- `PhysicalMemoryArray`, `src/structures/016_physical_memory_array.rs` 169-195. -/
def physical_memory_array.PhysicalMemoryArray.fed (x : physical_memory_array.PhysicalMemoryArray) : List Fed :=
  [[.u16 x.handle],
    x.location.fed,
    x.use.fed,
    x.memory_error_correction.fed,
    Fed.opt (fun y => [.u32 y]) x.maximum_capacity,
    Fed.opt (fun y => [.u16 y]) x.memory_error_information_handle,
    [.u16 x.number_of_memory_devices],
    Fed.opt (fun y => [.u64 y]) x.extended_maximum_capacity].flatten

/-- `Structure`, `src/lib.rs` 366-388. -/
def Structure.fields : Structure → List Fed
  | .Bios v => v.fed
  | .System v => v.fed
  | .BaseBoard v => v.fed
  | .Enclosure v => v.fed
  | .Processor v => v.fed
  | .Cache v => v.fed
  | .PortConnector v => v.fed
  | .SystemSlots v => v.fed
  | .OemStrings v => v.fed
  | .SystemConfigurationOptions v => v.fed
  | .BiosLanguage v => v.fed
  | .GroupAssociations v => v.fed
  | .SystemEventLog v => v.fed
  | .MemoryDevice v => v.fed
  | .MemoryError32 v => v.fed
  | .MemoryArrayMappedAddress v => v.fed
  | .MemoryDeviceMappedAddress v => v.fed
  | .BuiltInPointingDevice v => v.fed
  | .PortableBattery v => v.fed
  | .PhysicalMemoryArray v => v.fed
  | .Other v => v.fed

/-- `Structure`. -/
def Structure.fed (x : Structure) : List Fed := .tag (.ofNat x.ctorIdx) :: x.fields

/-- `ContainedElementType`, `src/structures/003_enclosure.rs` 159-162. -/
def enclosure.ContainedElementType.fields : enclosure.ContainedElementType → List Fed
  | .BoardType v => v.fed
  | .InfoType v => v.fed

/-- `ContainedElementType`. -/
def enclosure.ContainedElementType.fed (x : enclosure.ContainedElementType) : List Fed := .tag (.ofNat x.ctorIdx) :: x.fields

/-- `ContainedElement`, `src/structures/003_enclosure.rs` 144-154. -/
def enclosure.ContainedElement.fed (x : enclosure.ContainedElement) : List Fed :=
  [x.type_.fed,
    [.u8 x.minimum],
    [.u8 x.maximum]].flatten

/-- `Device`, `src/structures/009_system_slots.rs` 300-311. -/
def system_slots.Device.fed (x : system_slots.Device) : List Fed :=
  [[.u16 x.segment_group_number],
    [.u8 x.bus_number],
    x.device_and_function_number.fed,
    [.u8 x.data_bus_width]].flatten

/-- `GroupItem`, `src/structures/014_group_associations.rs` 34-39. -/
def group_associations.GroupItem.fed (x : group_associations.GroupItem) : List Fed :=
  [[.u8 x.type_],
    [.u16 x.handle]].flatten

/-- `EventLogType`, `src/structures/015_system_event_log/log_record_format.rs` 52-108. -/
def system_event_log.EventLogType.fields : system_event_log.EventLogType → List Fed
  | .Reserved v => [.u8 v]
  | .Unused v => [.u8 v]
  | .Available v => [.u8 v]
  | _ => []

/-- `EventLogType`. -/
def system_event_log.EventLogType.fed (x : system_event_log.EventLogType) : List Fed := .tag (.ofNat x.ctorIdx) :: x.fields

/-- `PostResults`, `src/structures/015_system_event_log/log_record_format.rs` 170. -/
def system_event_log.PostResults.fed (x : system_event_log.PostResults) : List Fed :=
  [.u64 x.bits]

/-- `SystemManagementType`, `src/structures/015_system_event_log/log_record_format.rs` 178-218. -/
def system_event_log.SystemManagementType.fields : system_event_log.SystemManagementType → List Fed
  | .OutOfRangeVoltageReserved v => [.u8 v]
  | .OutOfRangeTemperatureReserved v => [.u8 v]
  | .OutOfRangeFan v => [.u8 v]
  | .Reserved v => [.u32 v]
  | .OutOfRangeSystemManagementProbe v => [.u16 v]
  | .OemAssigned v => [.u32 v]
  | _ => []

/-- `SystemManagementType`. -/
def system_event_log.SystemManagementType.fed (x : system_event_log.SystemManagementType) : List Fed := .tag (.ofNat x.ctorIdx) :: x.fields

/-- `VariableDataFormatType`, `src/structures/015_system_event_log/log_record_format.rs` 117-142. -/
def system_event_log.VariableDataFormatType.fields : system_event_log.VariableDataFormatType → List Fed
  | .Handle handle => [.u16 handle]
  | .MultipleEvent counter => [.u32 counter]
  | .MultipleEventHandle handle counter => [[.u16 handle], [.u32 counter]].flatten
  | .PostResults v => v.fed
  | .SystemManagementType v => v.fed
  | .MultipleEventSystemManagementType system_management_type counter => [system_management_type.fed, [.u32
      counter]].flatten
  | .Unused v => [.u8 v]
  | .OemAssigned v => [.u8 v]
  | _ => []

/-- `VariableDataFormatType`. -/
def system_event_log.VariableDataFormatType.fed (x : system_event_log.VariableDataFormatType) : List Fed := .tag (.ofNat x.ctorIdx) :: x.fields

/-- `EventLogTypeDescriptor`, `src/structures/015_system_event_log/mod.rs` 149-152. -/
def system_event_log.EventLogTypeDescriptor.fed (x : system_event_log.EventLogTypeDescriptor) : List Fed :=
  [x.log_type.fed,
    x.variable_data_format_type.fed].flatten

/-- `ErrorGranularity`, `src/structures/017_memory_device.rs` 17-23. -/
def memory_device.ErrorGranularity.fields : memory_device.ErrorGranularity → List Fed
  | .Undefined v => [.u8 v]
  | _ => []

/-- `ErrorGranularity`. -/
def memory_device.ErrorGranularity.fed (x : memory_device.ErrorGranularity) : List Fed := .tag (.ofNat x.ctorIdx) :: x.fields

/-- `ErrorOperation`, `src/structures/017_memory_device.rs` 38-45. -/
def memory_device.ErrorOperation.fields : memory_device.ErrorOperation → List Fed
  | .Undefined v => [.u8 v]
  | _ => []

/-- `ErrorOperation`. -/
def memory_device.ErrorOperation.fed (x : memory_device.ErrorOperation) : List Fed := .tag (.ofNat x.ctorIdx) :: x.fields

/-- `ErrorType`, `src/structures/017_memory_device.rs` 61-77. -/
def memory_device.ErrorType.fields : memory_device.ErrorType → List Fed
  | .Undefined v => [.u8 v]
  | _ => []

/-- `ErrorType`. -/
def memory_device.ErrorType.fed (x : memory_device.ErrorType) : List Fed := .tag (.ofNat x.ctorIdx) :: x.fields

/-- `EntryPointV2`, `src/lib.rs` 253-268. -/
def EntryPointV2.fed (x : EntryPointV2) : List Fed :=
  [[.u32 x.signature],
    [.u8 x.checksum],
    [.u8 x.len],
    [.u8 x.major],
    [.u8 x.minor],
    [.u16 x.struct_max],
    [.u8 x.revision],
    [.slice x.formatted],
    [.slice x.dmi_signature],
    [.u8 x.dmi_checksum],
    [.u16 x.smbios_len],
    [.u32 x.smbios_address],
    [.u16 x.smbios_count],
    [.u8 x.bcd_revision]].flatten

/-- `EntryPointV3`, `src/lib.rs` 276-287. -/
def EntryPointV3.fed (x : EntryPointV3) : List Fed :=
  [[.slice x.signature],
    [.u8 x.checksum],
    [.u8 x.len],
    [.u8 x.major],
    [.u8 x.minor],
    [.u8 x.docrev],
    [.u8 x.revision],
    [.u8 x.reserved],
    [.u32 x.smbios_len_max],
    [.u64 x.smbios_address]].flatten

/-- `EntryPoint`, `src/lib.rs` 100-103. -/
def EntryPoint.fields : EntryPoint → List Fed
  | .V2 v => v.fed
  | .V3 v => v.fed

/-- `EntryPoint`. -/
def EntryPoint.fed (x : EntryPoint) : List Fed := .tag (.ofNat x.ctorIdx) :: x.fields

/-- `Structures`, `src/lib.rs` 357-362. -/
def Structures.fed (x : Structures) : List Fed :=
  [x.smbios_version.fed,
    [.u32 x.smbios_len],
    [.u32 x.idx],
    [.slice x.buffer]].flatten

end Dmi
