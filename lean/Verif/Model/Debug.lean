import Verif.Model.DebugParts
import Verif.Model.Dispatch
/-!
# What the derived `Debug` of each type tells the formatter

Generated from the Rust text by `tools/gen_debug.py`: names of types, variants and fields in the order of
their declaration.
-/
namespace Dmi
variable [Shown]

/-- `EntryPointV2`, `src/lib.rs` 253-268. -/
def EntryPointV2.dbg (x : EntryPointV2) : Dbg :=
  .struct (txt! "EntryPointV2") <|
    .cons (txt! "signature") (.num x.signature.toNat) <|
    .cons (txt! "checksum") (.num x.checksum.toNat) <|
    .cons (txt! "len") (.num x.len.toNat) <|
    .cons (txt! "major") (.num x.major.toNat) <|
    .cons (txt! "minor") (.num x.minor.toNat) <|
    .cons (txt! "struct_max") (.num x.struct_max.toNat) <|
    .cons (txt! "revision") (.num x.revision.toNat) <|
    .cons (txt! "formatted") (.bytes x.formatted) <|
    .cons (txt! "dmi_signature") (.bytes x.dmi_signature) <|
    .cons (txt! "dmi_checksum") (.num x.dmi_checksum.toNat) <|
    .cons (txt! "smbios_len") (.num x.smbios_len.toNat) <|
    .cons (txt! "smbios_address") (.num x.smbios_address.toNat) <|
    .cons (txt! "smbios_count") (.num x.smbios_count.toNat) <|
    .cons (txt! "bcd_revision") (.num x.bcd_revision.toNat) .nil

/-- `EntryPointV3`, `src/lib.rs` 276-287. -/
def EntryPointV3.dbg (x : EntryPointV3) : Dbg :=
  .struct (txt! "EntryPointV3") <|
    .cons (txt! "signature") (.bytes x.signature) <|
    .cons (txt! "checksum") (.num x.checksum.toNat) <|
    .cons (txt! "len") (.num x.len.toNat) <|
    .cons (txt! "major") (.num x.major.toNat) <|
    .cons (txt! "minor") (.num x.minor.toNat) <|
    .cons (txt! "docrev") (.num x.docrev.toNat) <|
    .cons (txt! "revision") (.num x.revision.toNat) <|
    .cons (txt! "_reserved") (.num x.reserved.toNat) <|
    .cons (txt! "smbios_len_max") (.num x.smbios_len_max.toNat) <|
    .cons (txt! "smbios_address") (.num x.smbios_address.toNat) .nil

/-- `EntryPoint`, `src/lib.rs` 100-103. -/
def EntryPoint.dbg : EntryPoint → Dbg
  | .V2 v => .tuple (txt! "V2") <| .cons [] (v.dbg) .nil
  | .V3 v => .tuple (txt! "V3") <| .cons [] (v.dbg) .nil

/-- `InvalidEntryPointError`, `src/lib.rs` 307-316. -/
def InvalidEntryPointError.dbg : InvalidEntryPointError → Dbg
  | .NotFound => .name (txt! "NotFound")
  | .TooOldVersion v => .tuple (txt! "TooOldVersion") <| .cons [] (.num v.toNat) .nil
  | .BadSize v => .tuple (txt! "BadSize") <| .cons [] (.num v.toNat) .nil
  | .BadChecksum v => .tuple (txt! "BadChecksum") <| .cons [] (.num v.toNat) .nil

/-- `InfoType`, `src/lib.rs` 689-713. -/
def InfoType.dbg : InfoType → Dbg
  | .Bios => .name (txt! "Bios")
  | .System => .name (txt! "System")
  | .BaseBoard => .name (txt! "BaseBoard")
  | .Enclosure => .name (txt! "Enclosure")
  | .Processor => .name (txt! "Processor")
  | .Cache => .name (txt! "Cache")
  | .PortConnector => .name (txt! "PortConnector")
  | .SystemSlots => .name (txt! "SystemSlots")
  | .OemStrings => .name (txt! "OemStrings")
  | .SystemConfigurationOptions => .name (txt! "SystemConfigurationOptions")
  | .GroupAssociations => .name (txt! "GroupAssociations")
  | .SystemEventLog => .name (txt! "SystemEventLog")
  | .BiosLanguage => .name (txt! "BiosLanguage")
  | .PhysicalMemoryArray => .name (txt! "PhysicalMemoryArray")
  | .MemoryDevice => .name (txt! "MemoryDevice")
  | .MemoryError32 => .name (txt! "MemoryError32")
  | .MemoryArrayMappedAddress => .name (txt! "MemoryArrayMappedAddress")
  | .MemoryDeviceMappedAddress => .name (txt! "MemoryDeviceMappedAddress")
  | .BuiltInPointingDevice => .name (txt! "BuiltInPointingDevice")
  | .PortableBattery => .name (txt! "PortableBattery")
  | .SystemBoot => .name (txt! "SystemBoot")
  | .Oem v => .tuple (txt! "Oem") <| .cons [] (.num v.toNat) .nil
  | .End => .name (txt! "End")

/-- `MalformedStructureError`, `src/lib.rs` 393-405. -/
def MalformedStructureError.dbg : MalformedStructureError → Dbg
  | .BadSize v0 v1 => .tuple (txt! "BadSize") <| .cons [] (.num v0.toNat) <| .cons [] (.num v1.toNat) .nil
  | .UnterminatedStrings v => .tuple (txt! "UnterminatedStrings") <| .cons [] (.num v.toNat) .nil
  | .InvalidStringIndex v0 v1 v2 => .tuple (txt! "InvalidStringIndex") <| .cons [] (v0.dbg) <| .cons [] (.num
      v1.toNat) <| .cons [] (.num v2.toNat) .nil
  | .InvalidSlice => .tuple (txt! "InvalidSlice") (.cons [] (.tuple (txt! "TryFromSliceError")
      (.cons [] .unit .nil)) .nil)
  | .InvalidFormattedSectionLength v0 v1 v2 v3 => .tuple (txt! "InvalidFormattedSectionLength") <| .cons []
      (v0.dbg) <| .cons [] (.num v1.toNat) <| .cons [] (.str v2.toByteArray.data.toList) <| .cons [] (.num
      v3.toNat) .nil

/-- `SmbiosVersion`, `src/lib.rs` 291-294. -/
def SmbiosVersion.dbg (x : SmbiosVersion) : Dbg :=
  .struct (txt! "SmbiosVersion") <|
    .cons (txt! "major") (.num x.major.toNat) <|
    .cons (txt! "minor") (.num x.minor.toNat) .nil

/-- `Structures`, `src/lib.rs` 357-362. -/
def Structures.dbg (x : Structures) : Dbg :=
  .struct (txt! "Structures") <|
    .cons (txt! "smbios_version") (x.smbios_version.dbg) <|
    .cons (txt! "smbios_len") (.num x.smbios_len.toNat) <|
    .cons (txt! "idx") (.num x.idx.toNat) <|
    .cons (txt! "buffer") (.bytes x.buffer) .nil

/-- `RomSize`, `src/structures/000_bios.rs` 72-78. -/
def bios.RomSize.dbg (x : bios.RomSize) : Dbg :=
  .struct (txt! "RomSize") <|
    .cons (txt! "basic") (.num x.basic.toNat) <|
    .cons (txt! "extended") (.opt (fun y => .num y.toNat) x.extended) .nil

/-- `Characteristics`, `src/structures/000_bios.rs` 43. -/
def bios.Characteristics.dbg (x : bios.Characteristics) : Dbg :=
  .tuple (txt! "Characteristics") <|
    .cons [] (.num x.value.toNat) .nil

/-- `CharacteristicsExtension1`, `src/structures/000_bios.rs` 48. -/
def bios.CharacteristicsExtension1.dbg (x : bios.CharacteristicsExtension1) : Dbg :=
  .tuple (txt! "CharacteristicsExtension1") <|
    .cons [] (.num x.value.toNat) .nil

/-- `CharacteristicsExtension2`, `src/structures/000_bios.rs` 53. -/
def bios.CharacteristicsExtension2.dbg (x : bios.CharacteristicsExtension2) : Dbg :=
  .tuple (txt! "CharacteristicsExtension2") <|
    .cons [] (.num x.value.toNat) .nil

/-- `BiosRevision`, `src/structures/000_bios.rs` 57-60. -/
def bios.BiosRevision.dbg (x : bios.BiosRevision) : Dbg :=
  .struct (txt! "BiosRevision") <|
    .cons (txt! "major") (.num x.major.toNat) <|
    .cons (txt! "minor") (.num x.minor.toNat) .nil

/-- `FirmwareRevision`, `src/structures/000_bios.rs` 65-68. -/
def bios.FirmwareRevision.dbg (x : bios.FirmwareRevision) : Dbg :=
  .struct (txt! "FirmwareRevision") <|
    .cons (txt! "major") (.num x.major.toNat) <|
    .cons (txt! "minor") (.num x.minor.toNat) .nil

/-- `Bios`, `src/structures/000_bios.rs` 12-39. -/
def bios.Bios.dbg (x : bios.Bios) : Dbg :=
  .struct (txt! "Bios") <|
    .cons (txt! "handle") (.num x.handle.toNat) <|
    .cons (txt! "vendor") (.str x.vendor) <|
    .cons (txt! "bios_version") (.str x.bios_version) <|
    .cons (txt! "bios_starting_address_segment") (.num x.bios_starting_address_segment.toNat) <|
    .cons (txt! "bios_release_date") (.str x.bios_release_date) <|
    .cons (txt! "rom_size") (x.rom_size.dbg) <|
    .cons (txt! "bios_characteristics") (x.bios_characteristics.dbg) <|
    .cons (txt! "bios_characteristics_exttension_1") (.opt (·.dbg) x.bios_characteristics_exttension_1) <|
    .cons (txt! "bios_characteristics_exttension_2") (.opt (·.dbg) x.bios_characteristics_exttension_2) <|
    .cons (txt! "bios_revision") (.opt (·.dbg) x.bios_revision) <|
    .cons (txt! "firmware_revision") (.opt (·.dbg) x.firmware_revision) .nil

/-- `WakeupType`, `src/structures/001_system.rs` 13-24. -/
def system.WakeupType.dbg : system.WakeupType → Dbg
  | .Reserved => .name (txt! "Reserved")
  | .Other => .name (txt! "Other")
  | .Unknown => .name (txt! "Unknown")
  | .APM_Timer => .name (txt! "APM_Timer")
  | .Modem_Ring => .name (txt! "Modem_Ring")
  | .LAN_Remote => .name (txt! "LAN_Remote")
  | .Power_Switch => .name (txt! "Power_Switch")
  | .PCI_PME => .name (txt! "PCI_PME")
  | .AC_Power_Restored => .name (txt! "AC_Power_Restored")
  | .Undefined v => .tuple (txt! "Undefined") <| .cons [] (.num v.toNat) .nil

/-- `System`, `src/structures/001_system.rs` 48-58. -/
def system.System.dbg (x : system.System) : Dbg :=
  .struct (txt! "System") <|
    .cons (txt! "handle") (.num x.handle.toNat) <|
    .cons (txt! "manufacturer") (.str x.manufacturer) <|
    .cons (txt! "product") (.str x.product) <|
    .cons (txt! "version") (.str x.version) <|
    .cons (txt! "serial") (.str x.serial) <|
    .cons (txt! "uuid") (.opt .uuid x.uuid) <|
    .cons (txt! "wakeup") (.opt (·.dbg) x.wakeup) <|
    .cons (txt! "sku") (.opt .str x.sku) <|
    .cons (txt! "family") (.opt .str x.family) .nil

/-- `BaseBoardFlags`, `src/structures/002_baseboard.rs` 77-83. -/
def baseboard.BaseBoardFlags.table : List (Text × Nat) :=
  [(txt! "HOSTING", 1), (txt! "REQUIRES_DAUGHTER", 2), (txt! "IS_REMOVABLE", 4), (txt! "IS_REPLACEABLE", 8),
   (txt! "IS_HOT_SWAPPABLE", 16)]

/-- `BaseBoardFlags`. -/
def baseboard.BaseBoardFlags.dbg (x : baseboard.BaseBoardFlags) : Dbg :=
  .tuple (txt! "BaseBoardFlags") (.cons [] (.flags baseboard.BaseBoardFlags.table x.bits.toNat) .nil)

/-- `BoardType`, `src/structures/002_baseboard.rs` 14-29. -/
def baseboard.BoardType.dbg : baseboard.BoardType → Dbg
  | .Unknown => .name (txt! "Unknown")
  | .Other => .name (txt! "Other")
  | .ServerBlade => .name (txt! "ServerBlade")
  | .ConnectivitySwitch => .name (txt! "ConnectivitySwitch")
  | .SystemManagementModule => .name (txt! "SystemManagementModule")
  | .ProcessorModule => .name (txt! "ProcessorModule")
  | .IoModule => .name (txt! "IoModule")
  | .MemoryModule => .name (txt! "MemoryModule")
  | .DaughterBoard => .name (txt! "DaughterBoard")
  | .MotherBoard => .name (txt! "MotherBoard")
  | .ProcessorMemoryModule => .name (txt! "ProcessorMemoryModule")
  | .ProcessorIoModule => .name (txt! "ProcessorIoModule")
  | .InterconnectBoard => .name (txt! "InterconnectBoard")
  | .Undefined v => .tuple (txt! "Undefined") <| .cons [] (.num v.toNat) .nil

/-- `BaseBoard`, `src/structures/002_baseboard.rs` 91-102. -/
def baseboard.BaseBoard.dbg (x : baseboard.BaseBoard) : Dbg :=
  .struct (txt! "BaseBoard") <|
    .cons (txt! "handle") (.num x.handle.toNat) <|
    .cons (txt! "manufacturer") (.str x.manufacturer) <|
    .cons (txt! "product") (.str x.product) <|
    .cons (txt! "version") (.str x.version) <|
    .cons (txt! "serial") (.str x.serial) <|
    .cons (txt! "asset") (.opt .str x.asset) <|
    .cons (txt! "feature_flags") (.opt (·.dbg) x.feature_flags) <|
    .cons (txt! "location_in_chassis") (.opt .str x.location_in_chassis) <|
    .cons (txt! "chassis_handle") (.opt (fun y => .num y.toNat) x.chassis_handle) <|
    .cons (txt! "board_type") (.opt (·.dbg) x.board_type) .nil

/-- `EnclosureType`, `src/structures/003_enclosure.rs` 57-108. -/
def enclosure.EnclosureType.dbg : enclosure.EnclosureType → Dbg
  | .Other => .name (txt! "Other")
  | .Unknown => .name (txt! "Unknown")
  | .Desktop => .name (txt! "Desktop")
  | .LowProfileDesktop => .name (txt! "LowProfileDesktop")
  | .PizzaBox => .name (txt! "PizzaBox")
  | .MiniTower => .name (txt! "MiniTower")
  | .Tower => .name (txt! "Tower")
  | .Portable => .name (txt! "Portable")
  | .Laptop => .name (txt! "Laptop")
  | .Notebook => .name (txt! "Notebook")
  | .HandHeld => .name (txt! "HandHeld")
  | .DockingStation => .name (txt! "DockingStation")
  | .AllInOne => .name (txt! "AllInOne")
  | .SubNotebook => .name (txt! "SubNotebook")
  | .SpaceSaving => .name (txt! "SpaceSaving")
  | .LunchBox => .name (txt! "LunchBox")
  | .MainServerChassis => .name (txt! "MainServerChassis")
  | .ExpansionChassis => .name (txt! "ExpansionChassis")
  | .SubChassis => .name (txt! "SubChassis")
  | .BusExpansionChassis => .name (txt! "BusExpansionChassis")
  | .PeripheralChassis => .name (txt! "PeripheralChassis")
  | .RaidChassis => .name (txt! "RaidChassis")
  | .RackMountChassis => .name (txt! "RackMountChassis")
  | .SealedCasePc => .name (txt! "SealedCasePc")
  | .MultiSystemChassis => .name (txt! "MultiSystemChassis")
  | .CompactPci => .name (txt! "CompactPci")
  | .AdvancedTca => .name (txt! "AdvancedTca")
  | .Blade => .name (txt! "Blade")
  | .BladeEnclosure => .name (txt! "BladeEnclosure")
  | .Tablet => .name (txt! "Tablet")
  | .Convertible => .name (txt! "Convertible")
  | .Detachable => .name (txt! "Detachable")
  | .IotGateway => .name (txt! "IotGateway")
  | .EmbeddedPc => .name (txt! "EmbeddedPc")
  | .MiniPc => .name (txt! "MiniPc")
  | .StickPc => .name (txt! "StickPc")
  | .Undefined v => .tuple (txt! "Undefined") <| .cons [] (.num v.toNat) .nil

/-- `State`, `src/structures/003_enclosure.rs` 112-120. -/
def enclosure.State.dbg : enclosure.State → Dbg
  | .Other => .name (txt! "Other")
  | .Unknown => .name (txt! "Unknown")
  | .Safe => .name (txt! "Safe")
  | .Warning => .name (txt! "Warning")
  | .Critical => .name (txt! "Critical")
  | .NonRecoverable => .name (txt! "NonRecoverable")
  | .Undefined v => .tuple (txt! "Undefined") <| .cons [] (.num v.toNat) .nil

/-- `SecurityStatus`, `src/structures/003_enclosure.rs` 124-131. -/
def enclosure.SecurityStatus.dbg : enclosure.SecurityStatus → Dbg
  | .Other => .name (txt! "Other")
  | .Unknown => .name (txt! "Unknown")
  | .None => .name (txt! "None")
  | .ExternalInterfaceLockedOut => .name (txt! "ExternalInterfaceLockedOut")
  | .ExternalInterfaceEnabled => .name (txt! "ExternalInterfaceEnabled")
  | .Undefined v => .tuple (txt! "Undefined") <| .cons [] (.num v.toNat) .nil

/-- `ContainedElements`, `src/structures/003_enclosure.rs` 135-139. -/
def enclosure.ContainedElements.dbg (x : enclosure.ContainedElements) : Dbg :=
  .struct (txt! "ContainedElements") <|
    .cons (txt! "chunks") (x.chunks.dbg) <|
    .cons (txt! "count") (.num x.count.toNat) <|
    .cons (txt! "record_length") (.num x.record_length.toNat) .nil

/-- `Enclosure`, `src/structures/003_enclosure.rs` 16-53. -/
def enclosure.Enclosure.dbg (x : enclosure.Enclosure) : Dbg :=
  .struct (txt! "Enclosure") <|
    .cons (txt! "handle") (.num x.handle.toNat) <|
    .cons (txt! "manufacturer") (.str x.manufacturer) <|
    .cons (txt! "chassis_lock") (.bool x.chassis_lock) <|
    .cons (txt! "enclosure_type") (x.enclosure_type.dbg) <|
    .cons (txt! "version") (.str x.version) <|
    .cons (txt! "serial_number") (.str x.serial_number) <|
    .cons (txt! "asset_tag_number") (.str x.asset_tag_number) <|
    .cons (txt! "boot_up_state") (.opt (·.dbg) x.boot_up_state) <|
    .cons (txt! "power_supply_state") (.opt (·.dbg) x.power_supply_state) <|
    .cons (txt! "thermal_state") (.opt (·.dbg) x.thermal_state) <|
    .cons (txt! "security_status") (.opt (·.dbg) x.security_status) <|
    .cons (txt! "oem_defined") (.opt (fun y => .num y.toNat) x.oem_defined) <|
    .cons (txt! "height") (.opt (fun y => .num y.toNat) x.height) <|
    .cons (txt! "power_cords_number") (.opt (fun y => .num y.toNat) x.power_cords_number) <|
    .cons (txt! "contained_elements") (.opt (·.dbg) x.contained_elements) <|
    .cons (txt! "sku_number") (.opt .str x.sku_number) .nil

/-- `ProcessorType`, `src/structures/004_processor.rs` 18-26. -/
def processor.ProcessorType.dbg : processor.ProcessorType → Dbg
  | .Other => .name (txt! "Other")
  | .Unknown => .name (txt! "Unknown")
  | .CentralProcessor => .name (txt! "CentralProcessor")
  | .MathProcessor => .name (txt! "MathProcessor")
  | .DspProcessor => .name (txt! "DspProcessor")
  | .VideoProcessor => .name (txt! "VideoProcessor")
  | .Undefined v => .tuple (txt! "Undefined") <| .cons [] (.num v.toNat) .nil

/-- `ProcessorFamily`, `src/structures/004_processor.rs` 136-379. -/
def processor.ProcessorFamily.dbg : processor.ProcessorFamily → Dbg
  | .Other => .name (txt! "Other")
  | .Unknown => .name (txt! "Unknown")
  | .Intel8086 => .name (txt! "Intel8086")
  | .Intel80286 => .name (txt! "Intel80286")
  | .Intel386Processor => .name (txt! "Intel386Processor")
  | .Intel486Processor => .name (txt! "Intel486Processor")
  | .Intel8087 => .name (txt! "Intel8087")
  | .Intel80287 => .name (txt! "Intel80287")
  | .Intel80387 => .name (txt! "Intel80387")
  | .Intel80487 => .name (txt! "Intel80487")
  | .IntelPentiumProcessor => .name (txt! "IntelPentiumProcessor")
  | .PentiumProProcessor => .name (txt! "PentiumProProcessor")
  | .PentiumIIProcessor => .name (txt! "PentiumIIProcessor")
  | .PentiumProcessorWithMMXTechnology => .name (txt! "PentiumProcessorWithMMXTechnology")
  | .IntelCeleronProcessor => .name (txt! "IntelCeleronProcessor")
  | .PentiumIIXeonProcessor => .name (txt! "PentiumIIXeonProcessor")
  | .PentiumIIIProcessor => .name (txt! "PentiumIIIProcessor")
  | .M1Family => .name (txt! "M1Family")
  | .M2Family => .name (txt! "M2Family")
  | .IntelCeleronMProcessor => .name (txt! "IntelCeleronMProcessor")
  | .IntelPentium4HTProcessor => .name (txt! "IntelPentium4HTProcessor")
  | .AMDDuronProcessorFamily => .name (txt! "AMDDuronProcessorFamily")
  | .K5Family => .name (txt! "K5Family")
  | .K6Family => .name (txt! "K6Family")
  | .K62 => .name (txt! "K62")
  | .K63 => .name (txt! "K63")
  | .AMDAthlonProcessorFamily => .name (txt! "AMDAthlonProcessorFamily")
  | .AMD29000Family => .name (txt! "AMD29000Family")
  | .K62Plus => .name (txt! "K62Plus")
  | .PowerPCFamily => .name (txt! "PowerPCFamily")
  | .PowerPC601 => .name (txt! "PowerPC601")
  | .PowerPC603 => .name (txt! "PowerPC603")
  | .PowerPC603Plus => .name (txt! "PowerPC603Plus")
  | .PowerPC604 => .name (txt! "PowerPC604")
  | .PowerPC620 => .name (txt! "PowerPC620")
  | .PowerPCX704 => .name (txt! "PowerPCX704")
  | .PowerPC750 => .name (txt! "PowerPC750")
  | .IntelCoreDuoProcessor => .name (txt! "IntelCoreDuoProcessor")
  | .IntelCoreDuoMobileProcessor => .name (txt! "IntelCoreDuoMobileProcessor")
  | .IntelCoreSoloMobileProcessor => .name (txt! "IntelCoreSoloMobileProcessor")
  | .IntelAtomProcessor => .name (txt! "IntelAtomProcessor")
  | .IntelCoreMProcessor => .name (txt! "IntelCoreMProcessor")
  | .IntelCoreM3Processor => .name (txt! "IntelCoreM3Processor")
  | .IntelCoreM5Processor => .name (txt! "IntelCoreM5Processor")
  | .IntelCoreM7Processor => .name (txt! "IntelCoreM7Processor")
  | .AlphaFamily => .name (txt! "AlphaFamily")
  | .Alpha21064 => .name (txt! "Alpha21064")
  | .Alpha21066 => .name (txt! "Alpha21066")
  | .Alpha21164 => .name (txt! "Alpha21164")
  | .Alpha21164PC => .name (txt! "Alpha21164PC")
  | .Alpha21164a => .name (txt! "Alpha21164a")
  | .Alpha21264 => .name (txt! "Alpha21264")
  | .Alpha21364 => .name (txt! "Alpha21364")
  | .AMDTurionIIUltraDualCoreMobileMProcessorFamily => .name (txt! "AMDTurionIIUltraDualCoreMobileMProcessorFamily")
  | .AMDTurionIIDualCoreMobileMProcessorFamily => .name (txt! "AMDTurionIIDualCoreMobileMProcessorFamily")
  | .AMDAthlonIIDualCoreMProcessorFamily => .name (txt! "AMDAthlonIIDualCoreMProcessorFamily")
  | .AMDOpteron6100SeriesProcessor => .name (txt! "AMDOpteron6100SeriesProcessor")
  | .AMDOpteron4100SeriesProcessor => .name (txt! "AMDOpteron4100SeriesProcessor")
  | .AMDOpteron6200SeriesProcessor => .name (txt! "AMDOpteron6200SeriesProcessor")
  | .AMDOpteron4200SeriesProcessor => .name (txt! "AMDOpteron4200SeriesProcessor")
  | .AMDFXSeriesProcessor => .name (txt! "AMDFXSeriesProcessor")
  | .MIPSFamily => .name (txt! "MIPSFamily")
  | .MIPSR4000 => .name (txt! "MIPSR4000")
  | .MIPSR4200 => .name (txt! "MIPSR4200")
  | .MIPSR4400 => .name (txt! "MIPSR4400")
  | .MIPSR4600 => .name (txt! "MIPSR4600")
  | .MIPSR10000 => .name (txt! "MIPSR10000")
  | .AMDCSeriesProcessor => .name (txt! "AMDCSeriesProcessor")
  | .AMDESeriesProcessor => .name (txt! "AMDESeriesProcessor")
  | .AMDASeriesProcessor => .name (txt! "AMDASeriesProcessor")
  | .AMDGSeriesProcessor => .name (txt! "AMDGSeriesProcessor")
  | .AMDZSeriesProcessor => .name (txt! "AMDZSeriesProcessor")
  | .AMDRSeriesProcessor => .name (txt! "AMDRSeriesProcessor")
  | .AMDOpteron4300SeriesProcessor => .name (txt! "AMDOpteron4300SeriesProcessor")
  | .AMDOpteron6300SeriesProcessor => .name (txt! "AMDOpteron6300SeriesProcessor")
  | .AMDOpteron3300SeriesProcessor => .name (txt! "AMDOpteron3300SeriesProcessor")
  | .AMDFireProSeriesProcessor => .name (txt! "AMDFireProSeriesProcessor")
  | .SPARCFamily => .name (txt! "SPARCFamily")
  | .SuperSPARC => .name (txt! "SuperSPARC")
  | .MicroSPARCII => .name (txt! "MicroSPARCII")
  | .MicroSPARCIIep => .name (txt! "MicroSPARCIIep")
  | .UltraSPARC => .name (txt! "UltraSPARC")
  | .UltraSPARCII => .name (txt! "UltraSPARCII")
  | .UltraSPARCIii => .name (txt! "UltraSPARCIii")
  | .UltraSPARCIII => .name (txt! "UltraSPARCIII")
  | .UltraSPARCIIIi => .name (txt! "UltraSPARCIIIi")
  | .Motorola68040Family => .name (txt! "Motorola68040Family")
  | .Motorola68xxx => .name (txt! "Motorola68xxx")
  | .Motorola68000 => .name (txt! "Motorola68000")
  | .Motorola68010 => .name (txt! "Motorola68010")
  | .Motorola68020 => .name (txt! "Motorola68020")
  | .Motorola68030 => .name (txt! "Motorola68030")
  | .AMDAthlonX4QuadCoreProcessorFamily => .name (txt! "AMDAthlonX4QuadCoreProcessorFamily")
  | .AMDOpteronX1000SeriesProcessor => .name (txt! "AMDOpteronX1000SeriesProcessor")
  | .AMDOpteronX2000SeriesAPU => .name (txt! "AMDOpteronX2000SeriesAPU")
  | .AMDOpteronASeriesProcessor => .name (txt! "AMDOpteronASeriesProcessor")
  | .AMDOpteronX3000SeriesAPU => .name (txt! "AMDOpteronX3000SeriesAPU")
  | .AMDZenProcessorFamily => .name (txt! "AMDZenProcessorFamily")
  | .HobbitFamily => .name (txt! "HobbitFamily")
  | .CrusoeTM5000Family => .name (txt! "CrusoeTM5000Family")
  | .CrusoeTM3000Family => .name (txt! "CrusoeTM3000Family")
  | .EfficeonTM8000Family => .name (txt! "EfficeonTM8000Family")
  | .Weitek => .name (txt! "Weitek")
  | .AvailableForAssignment => .name (txt! "AvailableForAssignment")
  | .ItaniumProcessor => .name (txt! "ItaniumProcessor")
  | .AMDAthlon64ProcessorFamily => .name (txt! "AMDAthlon64ProcessorFamily")
  | .AMDOpteronProcessorFamily => .name (txt! "AMDOpteronProcessorFamily")
  | .AMDSempronProcessorFamily => .name (txt! "AMDSempronProcessorFamily")
  | .AMDTurion64MobileTechnology => .name (txt! "AMDTurion64MobileTechnology")
  | .DualCoreAMDOpteronProcessorFamily => .name (txt! "DualCoreAMDOpteronProcessorFamily")
  | .AMDAthlon64X2DualCoreProcessorFamily => .name (txt! "AMDAthlon64X2DualCoreProcessorFamily")
  | .AMDTurion64X2MobileTechnology => .name (txt! "AMDTurion64X2MobileTechnology")
  | .QuadCoreAMDOpteronProcessorFamily => .name (txt! "QuadCoreAMDOpteronProcessorFamily")
  | .ThirdGenerationAMDOpteronProcessorFamily => .name (txt! "ThirdGenerationAMDOpteronProcessorFamily")
  | .AMDPhenomFXQuadCoreProcessorFamily => .name (txt! "AMDPhenomFXQuadCoreProcessorFamily")
  | .AMDPhenomX4QuadCoreProcessorFamily => .name (txt! "AMDPhenomX4QuadCoreProcessorFamily")
  | .AMDPhenomX2DualCoreProcessorFamily => .name (txt! "AMDPhenomX2DualCoreProcessorFamily")
  | .AMDAthlonX2DualCoreProcessorFamily => .name (txt! "AMDAthlonX2DualCoreProcessorFamily")
  | .PARISCFamily => .name (txt! "PARISCFamily")
  | .PARISC8500 => .name (txt! "PARISC8500")
  | .PARISC8000 => .name (txt! "PARISC8000")
  | .PARISC7300LC => .name (txt! "PARISC7300LC")
  | .PARISC7200 => .name (txt! "PARISC7200")
  | .PARISC7100LC => .name (txt! "PARISC7100LC")
  | .PARISC7100 => .name (txt! "PARISC7100")
  | .V30Family => .name (txt! "V30Family")
  | .QuadCoreIntelXeonProcessor3200Series => .name (txt! "QuadCoreIntelXeonProcessor3200Series")
  | .DualCoreIntelXeonProcessor3000Series => .name (txt! "DualCoreIntelXeonProcessor3000Series")
  | .QuadCoreIntelXeonProcessor5300Series => .name (txt! "QuadCoreIntelXeonProcessor5300Series")
  | .DualCoreIntelXeonProcessor5100Series => .name (txt! "DualCoreIntelXeonProcessor5100Series")
  | .DualCoreIntelXeonProcessor5000Series => .name (txt! "DualCoreIntelXeonProcessor5000Series")
  | .DualCoreIntelXeonProcessorLV => .name (txt! "DualCoreIntelXeonProcessorLV")
  | .DualCoreIntelXeonProcessorULV => .name (txt! "DualCoreIntelXeonProcessorULV")
  | .DualCoreIntelXeonProcessor7100Series => .name (txt! "DualCoreIntelXeonProcessor7100Series")
  | .QuadCoreIntelXeonProcessor5400Series => .name (txt! "QuadCoreIntelXeonProcessor5400Series")
  | .QuadCoreIntelXeonProcessor => .name (txt! "QuadCoreIntelXeonProcessor")
  | .DualCoreIntelXeonProcessor5200Series => .name (txt! "DualCoreIntelXeonProcessor5200Series")
  | .DualCoreIntelXeonProcessor7200Series => .name (txt! "DualCoreIntelXeonProcessor7200Series")
  | .QuadCoreIntelXeonProcessor7300Series => .name (txt! "QuadCoreIntelXeonProcessor7300Series")
  | .QuadCoreIntelXeonProcessor7400Series => .name (txt! "QuadCoreIntelXeonProcessor7400Series")
  | .MultiCoreIntelXeonProcessor7400Series => .name (txt! "MultiCoreIntelXeonProcessor7400Series")
  | .PentiumIIIXeonProcessor => .name (txt! "PentiumIIIXeonProcessor")
  | .PentiumIIIProcessorWithIntelSpeedStepTechnology => .name (txt! "PentiumIIIProcessorWithIntelSpeedStepTechnology")
  | .Pentium4Processor => .name (txt! "Pentium4Processor")
  | .IntelXeonProcessor => .name (txt! "IntelXeonProcessor")
  | .AS400Family => .name (txt! "AS400Family")
  | .IntelXeonProcessorMP => .name (txt! "IntelXeonProcessorMP")
  | .AMDAthlonXPProcessorFamily => .name (txt! "AMDAthlonXPProcessorFamily")
  | .AMDAthlonMPProcessorFamily => .name (txt! "AMDAthlonMPProcessorFamily")
  | .IntelItanium2Processor => .name (txt! "IntelItanium2Processor")
  | .IntelPentiumMProcessor => .name (txt! "IntelPentiumMProcessor")
  | .IntelCeleronDProcessor => .name (txt! "IntelCeleronDProcessor")
  | .IntelPentiumDProcessor => .name (txt! "IntelPentiumDProcessor")
  | .IntelPentiumProcessorExtremeEdition => .name (txt! "IntelPentiumProcessorExtremeEdition")
  | .IntelCoreSoloProcessor => .name (txt! "IntelCoreSoloProcessor")
  | .Ambiguous => .name (txt! "Ambiguous")
  | .IntelCore2DuoProcessor => .name (txt! "IntelCore2DuoProcessor")
  | .IntelCore2SoloProcessor => .name (txt! "IntelCore2SoloProcessor")
  | .IntelCore2ExtremeProcessor => .name (txt! "IntelCore2ExtremeProcessor")
  | .IntelCore2QuadProcessor => .name (txt! "IntelCore2QuadProcessor")
  | .IntelCore2ExtremeMobileProcessor => .name (txt! "IntelCore2ExtremeMobileProcessor")
  | .IntelCore2DuoMobileProcessor => .name (txt! "IntelCore2DuoMobileProcessor")
  | .IntelCore2SoloMobileProcessor => .name (txt! "IntelCore2SoloMobileProcessor")
  | .IntelCoreI7Processor => .name (txt! "IntelCoreI7Processor")
  | .DualCoreIntelCeleronProcessor => .name (txt! "DualCoreIntelCeleronProcessor")
  | .IBM390Family => .name (txt! "IBM390Family")
  | .G4 => .name (txt! "G4")
  | .G5 => .name (txt! "G5")
  | .ESA390G6 => .name (txt! "ESA390G6")
  | .ZArchitectureBase => .name (txt! "ZArchitectureBase")
  | .IntelCoreI5Processor => .name (txt! "IntelCoreI5Processor")
  | .IntelCoreI3Processor => .name (txt! "IntelCoreI3Processor")
  | .IntelCoreI9Processor => .name (txt! "IntelCoreI9Processor")
  | .VIAC7MProcessorFamily => .name (txt! "VIAC7MProcessorFamily")
  | .VIAC7DProcessorFamily => .name (txt! "VIAC7DProcessorFamily")
  | .VIAC7ProcessorFamily => .name (txt! "VIAC7ProcessorFamily")
  | .VIAEdenProcessorFamily => .name (txt! "VIAEdenProcessorFamily")
  | .MultiCoreIntelXeonProcessor => .name (txt! "MultiCoreIntelXeonProcessor")
  | .DualCoreIntelXeonProcessor3xxxSeries => .name (txt! "DualCoreIntelXeonProcessor3xxxSeries")
  | .QuadCoreIntelXeonProcessor3xxxSeries => .name (txt! "QuadCoreIntelXeonProcessor3xxxSeries")
  | .VIANanoProcessorFamily => .name (txt! "VIANanoProcessorFamily")
  | .DualCoreIntelXeonProcessor5xxxSeries => .name (txt! "DualCoreIntelXeonProcessor5xxxSeries")
  | .QuadCoreIntelXeonProcessor5xxxSeries => .name (txt! "QuadCoreIntelXeonProcessor5xxxSeries")
  | .DualCoreIntelXeonProcessor7xxxSeries => .name (txt! "DualCoreIntelXeonProcessor7xxxSeries")
  | .QuadCoreIntelXeonProcessor7xxxSeries => .name (txt! "QuadCoreIntelXeonProcessor7xxxSeries")
  | .MultiCoreIntelXeonProcessor7xxxSeries => .name (txt! "MultiCoreIntelXeonProcessor7xxxSeries")
  | .MultiCoreIntelXeonProcessor3400Series => .name (txt! "MultiCoreIntelXeonProcessor3400Series")
  | .AMDOpteron3000SeriesProcessor => .name (txt! "AMDOpteron3000SeriesProcessor")
  | .AMDSempronIIProcessor => .name (txt! "AMDSempronIIProcessor")
  | .EmbeddedAMDOpteronQuadCoreProcessorFamily => .name (txt! "EmbeddedAMDOpteronQuadCoreProcessorFamily")
  | .AMDPhenomTripleCoreProcessorFamily => .name (txt! "AMDPhenomTripleCoreProcessorFamily")
  | .AMDTurionUltraDualCoreMobileProcessorFamily => .name (txt! "AMDTurionUltraDualCoreMobileProcessorFamily")
  | .AMDTurionDualCoreMobileProcessorFamily => .name (txt! "AMDTurionDualCoreMobileProcessorFamily")
  | .AMDAthlonDualCoreProcessorFamily => .name (txt! "AMDAthlonDualCoreProcessorFamily")
  | .AMDSempronSIProcessorFamily => .name (txt! "AMDSempronSIProcessorFamily")
  | .AMDPhenomIIProcessorFamily => .name (txt! "AMDPhenomIIProcessorFamily")
  | .AMDAthlonIIProcessorFamily => .name (txt! "AMDAthlonIIProcessorFamily")
  | .SixCoreAMDOpteronProcessorFamily => .name (txt! "SixCoreAMDOpteronProcessorFamily")
  | .AMDSempronMProcessorFamily => .name (txt! "AMDSempronMProcessorFamily")
  | .I860 => .name (txt! "I860")
  | .I960 => .name (txt! "I960")
  | .ARMv7 => .name (txt! "ARMv7")
  | .ARMv8 => .name (txt! "ARMv8")
  | .ARMv9 => .name (txt! "ARMv9")
  | .SH3 => .name (txt! "SH3")
  | .SH4 => .name (txt! "SH4")
  | .ARM => .name (txt! "ARM")
  | .StrongARM => .name (txt! "StrongARM")
  | .Cyrix6x86 => .name (txt! "Cyrix6x86")
  | .MediaGX => .name (txt! "MediaGX")
  | .MII => .name (txt! "MII")
  | .WinChip => .name (txt! "WinChip")
  | .DSP => .name (txt! "DSP")
  | .VideoProcessor => .name (txt! "VideoProcessor")
  | .RISCVRV32 => .name (txt! "RISCVRV32")
  | .RISCVRV64 => .name (txt! "RISCVRV64")
  | .RISCVRV128 => .name (txt! "RISCVRV128")
  | .Available v => .tuple (txt! "Available") <| .cons [] (.num v.toNat) .nil
  | .NotUsed v => .tuple (txt! "NotUsed") <| .cons [] (.num v.toNat) .nil
  | .ForFutureUse => .name (txt! "ForFutureUse")
  | .ProcessorFamily2 => .name (txt! "ProcessorFamily2")
  | .OutOfSpec => .name (txt! "OutOfSpec")

/-- `VoltageLegacy`, `src/structures/004_processor.rs` 396-400. -/
def processor.VoltageLegacy.table : List (Text × Nat) :=
  [(txt! "VOLTAGE_CAPABILITY_5V0", 1), (txt! "VOLTAGE_CAPABILITY_3V3", 2), (txt! "VOLTAGE_CAPABILITY_2V9", 4)]

/-- `VoltageLegacy`. -/
def processor.VoltageLegacy.dbg (x : processor.VoltageLegacy) : Dbg :=
  .tuple (txt! "VoltageLegacy") (.cons [] (.flags processor.VoltageLegacy.table x.bits.toNat) .nil)

/-- `Voltage`, `src/structures/004_processor.rs` 387-391. -/
def processor.Voltage.dbg : processor.Voltage → Dbg
  | .Legacy v => .tuple (txt! "Legacy") <| .cons [] (v.dbg) .nil
  | .Current v => .tuple (txt! "Current") <| .cons [] (.num v.toNat) .nil
  | .Undefined v => .tuple (txt! "Undefined") <| .cons [] (.num v.toNat) .nil

/-- `ProcessorStatus`, `src/structures/004_processor.rs` 45-52. -/
def processor.ProcessorStatus.table : List (Text × Nat) :=
  [(txt! "CPU_SOCKET_POPULATED", 64), (txt! "CPU_ENABLED", 1), (txt! "CPU_DISABLED_BY_USER", 2),
   (txt! "CPU_DISABLED_BY_BIOS", 3), (txt! "CPU_IDLE", 4), (txt! "CPU_OTHER", 7)]

/-- `ProcessorStatus`. -/
def processor.ProcessorStatus.dbg (x : processor.ProcessorStatus) : Dbg :=
  .tuple (txt! "ProcessorStatus") (.cons [] (.flags processor.ProcessorStatus.table x.bits.toNat) .nil)

/-- `ProcessorUpgrade`, `src/structures/004_processor.rs` 404-468. -/
def processor.ProcessorUpgrade.dbg : processor.ProcessorUpgrade → Dbg
  | .Other => .name (txt! "Other")
  | .Unknown => .name (txt! "Unknown")
  | .DaughterBoard => .name (txt! "DaughterBoard")
  | .ZIFSocket => .name (txt! "ZIFSocket")
  | .ReplaceablePiggyBack => .name (txt! "ReplaceablePiggyBack")
  | .None => .name (txt! "None")
  | .LIFSocket => .name (txt! "LIFSocket")
  | .Slot1 => .name (txt! "Slot1")
  | .Slot2 => .name (txt! "Slot2")
  | .Socket370 => .name (txt! "Socket370")
  | .SlotA => .name (txt! "SlotA")
  | .SlotM => .name (txt! "SlotM")
  | .Socket423 => .name (txt! "Socket423")
  | .SocketA => .name (txt! "SocketA")
  | .Socket478 => .name (txt! "Socket478")
  | .Socket754 => .name (txt! "Socket754")
  | .Socket940 => .name (txt! "Socket940")
  | .Socket939 => .name (txt! "Socket939")
  | .SocketmPGA604 => .name (txt! "SocketmPGA604")
  | .SocketLGA771 => .name (txt! "SocketLGA771")
  | .SocketLGA775 => .name (txt! "SocketLGA775")
  | .SocketS1 => .name (txt! "SocketS1")
  | .SocketAM2 => .name (txt! "SocketAM2")
  | .SocketF => .name (txt! "SocketF")
  | .SocketLGA1366 => .name (txt! "SocketLGA1366")
  | .SocketG34 => .name (txt! "SocketG34")
  | .SocketAM3 => .name (txt! "SocketAM3")
  | .SocketC32 => .name (txt! "SocketC32")
  | .SocketLGA1156 => .name (txt! "SocketLGA1156")
  | .SocketLGA1567 => .name (txt! "SocketLGA1567")
  | .SocketPGA988A => .name (txt! "SocketPGA988A")
  | .SocketBGA1288 => .name (txt! "SocketBGA1288")
  | .SocketrPGA988B => .name (txt! "SocketrPGA988B")
  | .SocketBGA1023 => .name (txt! "SocketBGA1023")
  | .SocketBGA1224 => .name (txt! "SocketBGA1224")
  | .SocketLGA1155 => .name (txt! "SocketLGA1155")
  | .SocketLGA1356 => .name (txt! "SocketLGA1356")
  | .SocketLGA2011 => .name (txt! "SocketLGA2011")
  | .SocketFS1 => .name (txt! "SocketFS1")
  | .SocketFS2 => .name (txt! "SocketFS2")
  | .SocketFM1 => .name (txt! "SocketFM1")
  | .SocketFM2 => .name (txt! "SocketFM2")
  | .SocketLGA2011Three => .name (txt! "SocketLGA2011Three")
  | .SocketLGA1356Three => .name (txt! "SocketLGA1356Three")
  | .SocketLGA1150 => .name (txt! "SocketLGA1150")
  | .SocketBGA1168 => .name (txt! "SocketBGA1168")
  | .SocketBGA1234 => .name (txt! "SocketBGA1234")
  | .SocketBGA1364 => .name (txt! "SocketBGA1364")
  | .SocketAM4 => .name (txt! "SocketAM4")
  | .SocketLGA1151 => .name (txt! "SocketLGA1151")
  | .SocketBGA1356 => .name (txt! "SocketBGA1356")
  | .SocketBGA1440 => .name (txt! "SocketBGA1440")
  | .SocketBGA1515 => .name (txt! "SocketBGA1515")
  | .SocketLGA3647 => .name (txt! "SocketLGA3647")
  | .SocketSP3 => .name (txt! "SocketSP3")
  | .SocketSP3r2 => .name (txt! "SocketSP3r2")
  | .SocketLGA2066 => .name (txt! "SocketLGA2066")
  | .SocketBGA1392 => .name (txt! "SocketBGA1392")
  | .SocketBGA1510 => .name (txt! "SocketBGA1510")
  | .SocketBGA1528 => .name (txt! "SocketBGA1528")
  | .SocketLGA4189 => .name (txt! "SocketLGA4189")
  | .SocketLGA1200 => .name (txt! "SocketLGA1200")
  | .Undefined v => .tuple (txt! "Undefined") <| .cons [] (.num v.toNat) .nil

/-- `ProcessorCharacteristics`, `src/structures/004_processor.rs` 58-68. -/
def processor.ProcessorCharacteristics.table : List (Text × Nat) :=
  [(txt! "RESERVED", 1), (txt! "UNKNOWN", 2), (txt! "CAPABLE_64BIT", 4), (txt! "MULTICORE", 8),
   (txt! "HARDWARE_THREAD", 16), (txt! "EXECUTE_PROTECTION", 32), (txt! "ENHANCED_VIRTUALIZATION", 64),
   (txt! "POWER_PERFORMANCE_CONTROL", 128), (txt! "ARM64_SOC_ID", 512)]

/-- `ProcessorCharacteristics`. -/
def processor.ProcessorCharacteristics.dbg (x : processor.ProcessorCharacteristics) : Dbg :=
  .tuple (txt! "ProcessorCharacteristics") (.cons [] (.flags processor.ProcessorCharacteristics.table x.bits.toNat) .nil)

/-- `Processor`, `src/structures/004_processor.rs` 76-126. -/
def processor.Processor.dbg (x : processor.Processor) : Dbg :=
  .struct (txt! "Processor") <|
    .cons (txt! "handle") (.num x.handle.toNat) <|
    .cons (txt! "socket_designation") (.str x.socket_designation) <|
    .cons (txt! "processor_type") (x.processor_type.dbg) <|
    .cons (txt! "processor_family") (x.processor_family.dbg) <|
    .cons (txt! "processor_manufacturer") (.str x.processor_manufacturer) <|
    .cons (txt! "processor_id") (.num x.processor_id.toNat) <|
    .cons (txt! "processor_version") (.str x.processor_version) <|
    .cons (txt! "voltage") (x.voltage.dbg) <|
    .cons (txt! "external_clock") (.num x.external_clock.toNat) <|
    .cons (txt! "max_speed") (.num x.max_speed.toNat) <|
    .cons (txt! "current_speed") (.num x.current_speed.toNat) <|
    .cons (txt! "status") (x.status.dbg) <|
    .cons (txt! "processor_upgrade") (x.processor_upgrade.dbg) <|
    .cons (txt! "l1_cache_handle") (.opt (fun y => .num y.toNat) x.l1_cache_handle) <|
    .cons (txt! "l2_cache_handle") (.opt (fun y => .num y.toNat) x.l2_cache_handle) <|
    .cons (txt! "l3_cache_handle") (.opt (fun y => .num y.toNat) x.l3_cache_handle) <|
    .cons (txt! "serial_number") (.opt .str x.serial_number) <|
    .cons (txt! "asset_tag") (.opt .str x.asset_tag) <|
    .cons (txt! "part_number") (.opt .str x.part_number) <|
    .cons (txt! "core_count") (.opt (fun y => .num y.toNat) x.core_count) <|
    .cons (txt! "core_enabled") (.opt (fun y => .num y.toNat) x.core_enabled) <|
    .cons (txt! "thread_count") (.opt (fun y => .num y.toNat) x.thread_count) <|
    .cons (txt! "processor_characteristics") (.opt (·.dbg) x.processor_characteristics) .nil

/-- `CacheLevel`, `src/structures/007_cache.rs` 67-76. -/
def cache.CacheLevel.dbg : cache.CacheLevel → Dbg
  | .L1 => .name (txt! "L1")
  | .L2 => .name (txt! "L2")
  | .L3 => .name (txt! "L3")
  | .L4 => .name (txt! "L4")
  | .L5 => .name (txt! "L5")
  | .L6 => .name (txt! "L6")
  | .L7 => .name (txt! "L7")
  | .L8 => .name (txt! "L8")

/-- `CacheLocation`, `src/structures/007_cache.rs` 79-84. -/
def cache.CacheLocation.dbg : cache.CacheLocation → Dbg
  | .Internal => .name (txt! "Internal")
  | .External => .name (txt! "External")
  | .Reserved => .name (txt! "Reserved")
  | .Unknown => .name (txt! "Unknown")

/-- `CacheOperationalMode`, `src/structures/007_cache.rs` 87-92. -/
def cache.CacheOperationalMode.dbg : cache.CacheOperationalMode → Dbg
  | .WriteThrough => .name (txt! "WriteThrough")
  | .WriteBack => .name (txt! "WriteBack")
  | .ValuesWithMemoryAddress => .name (txt! "ValuesWithMemoryAddress")
  | .Unknown => .name (txt! "Unknown")

/-- `CacheConfiguration`, `src/structures/007_cache.rs` 53-64. -/
def cache.CacheConfiguration.dbg (x : cache.CacheConfiguration) : Dbg :=
  .struct (txt! "CacheConfiguration") <|
    .cons (txt! "level") (x.level.dbg) <|
    .cons (txt! "socketed") (.bool x.socketed) <|
    .cons (txt! "location") (x.location.dbg) <|
    .cons (txt! "enabled_at_boot_time") (.bool x.enabled_at_boot_time) <|
    .cons (txt! "operational_mode") (x.operational_mode.dbg) .nil

/-- `CacheSize`, `src/structures/007_cache.rs` 96-99. -/
def cache.CacheSize.dbg : cache.CacheSize → Dbg
  | .Granularity1K v => .tuple (txt! "Granularity1K") <| .cons [] (.num v.toNat) .nil
  | .Granularity64K v => .tuple (txt! "Granularity64K") <| .cons [] (.num v.toNat) .nil

/-- `CacheSramType`, `src/structures/007_cache.rs` 104-112. -/
def cache.CacheSramType.table : List (Text × Nat) :=
  [(txt! "OTHER", 1), (txt! "UNKNOWN", 2), (txt! "NONBURST", 4), (txt! "BURST", 8), (txt! "PIPELINE_BURST",
   16), (txt! "SYNCHRONOUS", 32), (txt! "ASYNCHRONOUS", 64)]

/-- `CacheSramType`. -/
def cache.CacheSramType.dbg (x : cache.CacheSramType) : Dbg :=
  .tuple (txt! "CacheSramType") (.cons [] (.flags cache.CacheSramType.table x.bits.toNat) .nil)

/-- `CacheErrorCorrectionType`, `src/structures/007_cache.rs` 117-125. -/
def cache.CacheErrorCorrectionType.dbg : cache.CacheErrorCorrectionType → Dbg
  | .Other => .name (txt! "Other")
  | .Unknown => .name (txt! "Unknown")
  | .None => .name (txt! "None")
  | .Parity => .name (txt! "Parity")
  | .SingleBitEcc => .name (txt! "SingleBitEcc")
  | .MultiBitEcc => .name (txt! "MultiBitEcc")
  | .Undefined v => .tuple (txt! "Undefined") <| .cons [] (.num v.toNat) .nil

/-- `SystemCacheType`, `src/structures/007_cache.rs` 133-140. -/
def cache.SystemCacheType.dbg : cache.SystemCacheType → Dbg
  | .Other => .name (txt! "Other")
  | .Unknown => .name (txt! "Unknown")
  | .Instruction => .name (txt! "Instruction")
  | .Data => .name (txt! "Data")
  | .Unified => .name (txt! "Unified")
  | .Undefined v => .tuple (txt! "Undefined") <| .cons [] (.num v.toNat) .nil

/-- `CacheAssociativity`, `src/structures/007_cache.rs` 144-160. -/
def cache.CacheAssociativity.dbg : cache.CacheAssociativity → Dbg
  | .Other => .name (txt! "Other")
  | .Unknown => .name (txt! "Unknown")
  | .DirectMapped => .name (txt! "DirectMapped")
  | .TwowaySetAssociative => .name (txt! "TwowaySetAssociative")
  | .FourWaySetAssociative => .name (txt! "FourWaySetAssociative")
  | .FullyAssociative => .name (txt! "FullyAssociative")
  | .EightWaySetAssociative => .name (txt! "EightWaySetAssociative")
  | .SixteenWaySetAssociative => .name (txt! "SixteenWaySetAssociative")
  | .TwelveWaySetAssociative => .name (txt! "TwelveWaySetAssociative")
  | .TwentyFourWaySetAssociative => .name (txt! "TwentyFourWaySetAssociative")
  | .ThirtyTwoWaySetAssociative => .name (txt! "ThirtyTwoWaySetAssociative")
  | .FourtyEightWaySetAssociative => .name (txt! "FourtyEightWaySetAssociative")
  | .SixtyFourWaySetAssociative => .name (txt! "SixtyFourWaySetAssociative")
  | .TwentyWaySetAssociative => .name (txt! "TwentyWaySetAssociative")
  | .Undefined v => .tuple (txt! "Undefined") <| .cons [] (.num v.toNat) .nil

/-- `CacheSize2`, `src/structures/007_cache.rs` 164-167. -/
def cache.CacheSize2.dbg : cache.CacheSize2 → Dbg
  | .Granularity1K v => .tuple (txt! "Granularity1K") <| .cons [] (.num v.toNat) .nil
  | .Granularity64K v => .tuple (txt! "Granularity64K") <| .cons [] (.num v.toNat) .nil

/-- `Cache`, `src/structures/007_cache.rs` 19-50. -/
def cache.Cache.dbg (x : cache.Cache) : Dbg :=
  .struct (txt! "Cache") <|
    .cons (txt! "handle") (.num x.handle.toNat) <|
    .cons (txt! "socket_designation") (.str x.socket_designation) <|
    .cons (txt! "cache_configuration") (x.cache_configuration.dbg) <|
    .cons (txt! "maximum_cache_size") (x.maximum_cache_size.dbg) <|
    .cons (txt! "installed_size") (x.installed_size.dbg) <|
    .cons (txt! "supported_sram_type") (x.supported_sram_type.dbg) <|
    .cons (txt! "current_sram_type") (x.current_sram_type.dbg) <|
    .cons (txt! "cache_speed") (.opt (fun y => .num y.toNat) x.cache_speed) <|
    .cons (txt! "error_correction_type") (.opt (·.dbg) x.error_correction_type) <|
    .cons (txt! "system_cache_type") (.opt (·.dbg) x.system_cache_type) <|
    .cons (txt! "associativity") (.opt (·.dbg) x.associativity) <|
    .cons (txt! "maximum_cache_size_2") (.opt (·.dbg) x.maximum_cache_size_2) <|
    .cons (txt! "installed_size_2") (.opt (·.dbg) x.installed_size_2) .nil

/-- `ConnectorType`, `src/structures/008_port_connector.rs` 38-82. -/
def port_connector.ConnectorType.dbg : port_connector.ConnectorType → Dbg
  | .None => .name (txt! "None")
  | .Centronics => .name (txt! "Centronics")
  | .MiniCentronics => .name (txt! "MiniCentronics")
  | .Proprietary => .name (txt! "Proprietary")
  | .Db25PinMale => .name (txt! "Db25PinMale")
  | .Db25PinFemale => .name (txt! "Db25PinFemale")
  | .Db15PinMale => .name (txt! "Db15PinMale")
  | .Db15PinFemale => .name (txt! "Db15PinFemale")
  | .Db9PinMale => .name (txt! "Db9PinMale")
  | .Db9PinFemale => .name (txt! "Db9PinFemale")
  | .Rj11 => .name (txt! "Rj11")
  | .Rj45 => .name (txt! "Rj45")
  | .MiniScsi => .name (txt! "MiniScsi")
  | .MiniDin => .name (txt! "MiniDin")
  | .MicroDin => .name (txt! "MicroDin")
  | .Ps2 => .name (txt! "Ps2")
  | .Infrared => .name (txt! "Infrared")
  | .HpHil => .name (txt! "HpHil")
  | .AccessBus => .name (txt! "AccessBus")
  | .SsaScsi => .name (txt! "SsaScsi")
  | .CircularDin8Male => .name (txt! "CircularDin8Male")
  | .CircularDin8Female => .name (txt! "CircularDin8Female")
  | .OnBoardIde => .name (txt! "OnBoardIde")
  | .OnBoardFloppy => .name (txt! "OnBoardFloppy")
  | .DualInline9 => .name (txt! "DualInline9")
  | .DualInline25 => .name (txt! "DualInline25")
  | .DualInline50 => .name (txt! "DualInline50")
  | .DualInline68 => .name (txt! "DualInline68")
  | .OnBoardSoundInputFromCdRom => .name (txt! "OnBoardSoundInputFromCdRom")
  | .MiniCentronicsType14 => .name (txt! "MiniCentronicsType14")
  | .MiniCentronicsType26 => .name (txt! "MiniCentronicsType26")
  | .MiniJack => .name (txt! "MiniJack")
  | .Bnc => .name (txt! "Bnc")
  | .Ieee1394 => .name (txt! "Ieee1394")
  | .SasSataPlugReceptacle => .name (txt! "SasSataPlugReceptacle")
  | .UsbTypeCReceptacle => .name (txt! "UsbTypeCReceptacle")
  | .Pc98 => .name (txt! "Pc98")
  | .Pc98Hireso => .name (txt! "Pc98Hireso")
  | .PcH98 => .name (txt! "PcH98")
  | .Pc98Note => .name (txt! "Pc98Note")
  | .Pc98Full => .name (txt! "Pc98Full")
  | .Other => .name (txt! "Other")
  | .Undefined v => .tuple (txt! "Undefined") <| .cons [] (.num v.toNat) .nil

/-- `PortType`, `src/structures/008_port_connector.rs` 85-126. -/
def port_connector.PortType.dbg : port_connector.PortType → Dbg
  | .None => .name (txt! "None")
  | .ParallelPortXtAtCompatible => .name (txt! "ParallelPortXtAtCompatible")
  | .ParallelPortPs2 => .name (txt! "ParallelPortPs2")
  | .ParallelPortEcp => .name (txt! "ParallelPortEcp")
  | .ParallelPortEpp => .name (txt! "ParallelPortEpp")
  | .ParallelPortEcpEpp => .name (txt! "ParallelPortEcpEpp")
  | .SerialPortXtAtCompatible => .name (txt! "SerialPortXtAtCompatible")
  | .SerialPort16450Compatible => .name (txt! "SerialPort16450Compatible")
  | .SerialPort16550Compatible => .name (txt! "SerialPort16550Compatible")
  | .SerialPort16550ACompatible => .name (txt! "SerialPort16550ACompatible")
  | .ScsiPort => .name (txt! "ScsiPort")
  | .MidiPort => .name (txt! "MidiPort")
  | .JoyStickPort => .name (txt! "JoyStickPort")
  | .KeyboardPort => .name (txt! "KeyboardPort")
  | .MousePort => .name (txt! "MousePort")
  | .SsaScsi => .name (txt! "SsaScsi")
  | .Usb => .name (txt! "Usb")
  | .FireWire => .name (txt! "FireWire")
  | .PcmciaType1 => .name (txt! "PcmciaType1")
  | .PcmciaType2 => .name (txt! "PcmciaType2")
  | .PcmciaType3 => .name (txt! "PcmciaType3")
  | .Cardbus => .name (txt! "Cardbus")
  | .AccessBusPort => .name (txt! "AccessBusPort")
  | .Scsi2 => .name (txt! "Scsi2")
  | .ScsiWide => .name (txt! "ScsiWide")
  | .Pc98 => .name (txt! "Pc98")
  | .Pc98Hireso => .name (txt! "Pc98Hireso")
  | .PcH98 => .name (txt! "PcH98")
  | .VideoPort => .name (txt! "VideoPort")
  | .AudioPort => .name (txt! "AudioPort")
  | .ModemPort => .name (txt! "ModemPort")
  | .NetworkPort => .name (txt! "NetworkPort")
  | .Sata => .name (txt! "Sata")
  | .Sas => .name (txt! "Sas")
  | .MultiFunctionDisplayPort => .name (txt! "MultiFunctionDisplayPort")
  | .Thunderbolt => .name (txt! "Thunderbolt")
  | .Intel8251Compatible => .name (txt! "Intel8251Compatible")
  | .Intel8251FifoCompatible => .name (txt! "Intel8251FifoCompatible")
  | .Other => .name (txt! "Other")
  | .Undefined v => .tuple (txt! "Undefined") <| .cons [] (.num v.toNat) .nil

/-- `PortConnector`, `src/structures/008_port_connector.rs` 19-34. -/
def port_connector.PortConnector.dbg (x : port_connector.PortConnector) : Dbg :=
  .struct (txt! "PortConnector") <|
    .cons (txt! "handle") (.num x.handle.toNat) <|
    .cons (txt! "internal_reference_designator") (.str x.internal_reference_designator) <|
    .cons (txt! "internal_connector_type") (x.internal_connector_type.dbg) <|
    .cons (txt! "external_reference_designator") (.str x.external_reference_designator) <|
    .cons (txt! "external_connector_type") (x.external_connector_type.dbg) <|
    .cons (txt! "port_type") (x.port_type.dbg) .nil

/-- `SlotType`, `src/structures/009_system_slots.rs` 73-235. -/
def system_slots.SlotType.dbg : system_slots.SlotType → Dbg
  | .Other => .name (txt! "Other")
  | .Unknown => .name (txt! "Unknown")
  | .Isa => .name (txt! "Isa")
  | .Mca => .name (txt! "Mca")
  | .Eisa => .name (txt! "Eisa")
  | .Pci => .name (txt! "Pci")
  | .PcCard => .name (txt! "PcCard")
  | .VlVesa => .name (txt! "VlVesa")
  | .Proprietary => .name (txt! "Proprietary")
  | .ProcessorCardSlot => .name (txt! "ProcessorCardSlot")
  | .ProprietaryMemoryCardSlot => .name (txt! "ProprietaryMemoryCardSlot")
  | .IoRiserCardSlot => .name (txt! "IoRiserCardSlot")
  | .Nubus => .name (txt! "Nubus")
  | .Pci66Mhz => .name (txt! "Pci66Mhz")
  | .Agp => .name (txt! "Agp")
  | .Agp2x => .name (txt! "Agp2x")
  | .Agp4x => .name (txt! "Agp4x")
  | .PciX => .name (txt! "PciX")
  | .Agp8x => .name (txt! "Agp8x")
  | .M2Socket1DP => .name (txt! "M2Socket1DP")
  | .M2Socket1SD => .name (txt! "M2Socket1SD")
  | .M2Socket2 => .name (txt! "M2Socket2")
  | .M2Socket3 => .name (txt! "M2Socket3")
  | .MxmType1 => .name (txt! "MxmType1")
  | .MxmType2 => .name (txt! "MxmType2")
  | .MxmType3 => .name (txt! "MxmType3")
  | .MxmType3He => .name (txt! "MxmType3He")
  | .MxmType4 => .name (txt! "MxmType4")
  | .Mxm3TypeA => .name (txt! "Mxm3TypeA")
  | .Mxm3TypeB => .name (txt! "Mxm3TypeB")
  | .U2PciExpressGen2 => .name (txt! "U2PciExpressGen2")
  | .U2PciExpressGen3 => .name (txt! "U2PciExpressGen3")
  | .PciExpressMini52pin1 => .name (txt! "PciExpressMini52pin1")
  | .PciExpressMini52pin2 => .name (txt! "PciExpressMini52pin2")
  | .PciExpressMini76pin => .name (txt! "PciExpressMini76pin")
  | .U2PciExpressGen4 => .name (txt! "U2PciExpressGen4")
  | .U2PciExpressGen5 => .name (txt! "U2PciExpressGen5")
  | .OcpNic3Small => .name (txt! "OcpNic3Small")
  | .OcpNic3Large => .name (txt! "OcpNic3Large")
  | .OcpNicPriorTo3 => .name (txt! "OcpNicPriorTo3")
  | .CxlFlexbus1 => .name (txt! "CxlFlexbus1")
  | .Pc98C20 => .name (txt! "Pc98C20")
  | .Pc98C24 => .name (txt! "Pc98C24")
  | .Pc98E => .name (txt! "Pc98E")
  | .Pc98LocalBus => .name (txt! "Pc98LocalBus")
  | .Pc98Card => .name (txt! "Pc98Card")
  | .PciExpress => .name (txt! "PciExpress")
  | .PciExpressX1 => .name (txt! "PciExpressX1")
  | .PciExpressX2 => .name (txt! "PciExpressX2")
  | .PciExpressX4 => .name (txt! "PciExpressX4")
  | .PciExpressX8 => .name (txt! "PciExpressX8")
  | .PciExpressX16 => .name (txt! "PciExpressX16")
  | .PciExpressGen2 => .name (txt! "PciExpressGen2")
  | .PciExpressGen2x1 => .name (txt! "PciExpressGen2x1")
  | .PciExpressGen2x2 => .name (txt! "PciExpressGen2x2")
  | .PciExpressGen2x4 => .name (txt! "PciExpressGen2x4")
  | .PciExpressGen2x8 => .name (txt! "PciExpressGen2x8")
  | .PciExpressGen2x16 => .name (txt! "PciExpressGen2x16")
  | .PciExpressGen3 => .name (txt! "PciExpressGen3")
  | .PciExpressGen3x1 => .name (txt! "PciExpressGen3x1")
  | .PciExpressGen3x2 => .name (txt! "PciExpressGen3x2")
  | .PciExpressGen3x4 => .name (txt! "PciExpressGen3x4")
  | .PciExpressGen3x8 => .name (txt! "PciExpressGen3x8")
  | .PciExpressGen3x16 => .name (txt! "PciExpressGen3x16")
  | .PciExpressGen4 => .name (txt! "PciExpressGen4")
  | .PciExpressGen4x1 => .name (txt! "PciExpressGen4x1")
  | .PciExpressGen4x2 => .name (txt! "PciExpressGen4x2")
  | .PciExpressGen4x4 => .name (txt! "PciExpressGen4x4")
  | .PciExpressGen4x8 => .name (txt! "PciExpressGen4x8")
  | .PciExpressGen4x16 => .name (txt! "PciExpressGen4x16")
  | .PciExpressGen5 => .name (txt! "PciExpressGen5")
  | .PciExpressGen5x1 => .name (txt! "PciExpressGen5x1")
  | .PciExpressGen5x2 => .name (txt! "PciExpressGen5x2")
  | .PciExpressGen5x4 => .name (txt! "PciExpressGen5x4")
  | .PciExpressGen5x8 => .name (txt! "PciExpressGen5x8")
  | .PciExpressGen5x16 => .name (txt! "PciExpressGen5x16")
  | .PciExpressGen6 => .name (txt! "PciExpressGen6")
  | .E1FormFactorSlot => .name (txt! "E1FormFactorSlot")
  | .E3FormFactorSlot => .name (txt! "E3FormFactorSlot")
  | .Undefined v => .tuple (txt! "Undefined") <| .cons [] (.num v.toNat) .nil

/-- `SlotWidth`, `src/structures/009_system_slots.rs` 238-266. -/
def system_slots.SlotWidth.dbg : system_slots.SlotWidth → Dbg
  | .Other => .name (txt! "Other")
  | .Unknown => .name (txt! "Unknown")
  | .Byte => .name (txt! "Byte")
  | .Word => .name (txt! "Word")
  | .Dword => .name (txt! "Dword")
  | .Qword => .name (txt! "Qword")
  | .Dqword => .name (txt! "Dqword")
  | .X1 => .name (txt! "X1")
  | .X2 => .name (txt! "X2")
  | .X4 => .name (txt! "X4")
  | .X8 => .name (txt! "X8")
  | .X12 => .name (txt! "X12")
  | .X16 => .name (txt! "X16")
  | .X32 => .name (txt! "X32")
  | .Undefined v => .tuple (txt! "Undefined") <| .cons [] (.num v.toNat) .nil

/-- `CurrentUsage`, `src/structures/009_system_slots.rs` 269-278. -/
def system_slots.CurrentUsage.dbg : system_slots.CurrentUsage → Dbg
  | .Other => .name (txt! "Other")
  | .Unknown => .name (txt! "Unknown")
  | .Available => .name (txt! "Available")
  | .InUse => .name (txt! "InUse")
  | .Unavailable => .name (txt! "Unavailable")
  | .Undefined v => .tuple (txt! "Undefined") <| .cons [] (.num v.toNat) .nil

/-- `SlotLength`, `src/structures/009_system_slots.rs` 281-291. -/
def system_slots.SlotLength.dbg : system_slots.SlotLength → Dbg
  | .Other => .name (txt! "Other")
  | .Unknown => .name (txt! "Unknown")
  | .ShortLength => .name (txt! "ShortLength")
  | .LongLength => .name (txt! "LongLength")
  | .DriveFormFactor2_5 => .name (txt! "DriveFormFactor2_5")
  | .DriveFormFactor3_5 => .name (txt! "DriveFormFactor3_5")
  | .Undefined v => .tuple (txt! "Undefined") <| .cons [] (.num v.toNat) .nil

/-- `SlotCharacteristics1`, `src/structures/009_system_slots.rs` 294. -/
def system_slots.SlotCharacteristics1.dbg (x : system_slots.SlotCharacteristics1) : Dbg :=
  .tuple (txt! "SlotCharacteristics1") <|
    .cons [] (.num x.bits.toNat) .nil

/-- `SlotCharacteristics2`, `src/structures/009_system_slots.rs` 297. -/
def system_slots.SlotCharacteristics2.dbg (x : system_slots.SlotCharacteristics2) : Dbg :=
  .tuple (txt! "SlotCharacteristics2") <|
    .cons [] (.num x.bits.toNat) .nil

/-- `DeviceAndFunctionNumber`, `src/structures/009_system_slots.rs` 314. -/
def system_slots.DeviceAndFunctionNumber.dbg (x : system_slots.DeviceAndFunctionNumber) : Dbg :=
  .tuple (txt! "DeviceAndFunctionNumber") <|
    .cons [] (.num x.device.toNat) <|
    .cons [] (.num x.function.toNat) .nil

/-- `PeerDevices`, `src/structures/009_system_slots.rs` 328. -/
def system_slots.PeerDevices.dbg (x : system_slots.PeerDevices) : Dbg :=
  .tuple (txt! "PeerDevices") <|
    .cons [] (x.chunks.dbg) .nil

/-- `SlotPitch`, `src/structures/009_system_slots.rs` 340. -/
def system_slots.SlotPitch.dbg (x : system_slots.SlotPitch) : Dbg :=
  .tuple (txt! "SlotPitch") <|
    .cons [] (.num x.value.toNat) .nil

/-- `SystemSlots`, `src/structures/009_system_slots.rs` 22-70. -/
def system_slots.SystemSlots.dbg (x : system_slots.SystemSlots) : Dbg :=
  .struct (txt! "SystemSlots") <|
    .cons (txt! "handle") (.num x.handle.toNat) <|
    .cons (txt! "slot_designation") (.str x.slot_designation) <|
    .cons (txt! "slot_type") (x.slot_type.dbg) <|
    .cons (txt! "slot_data_bus_width") (x.slot_data_bus_width.dbg) <|
    .cons (txt! "current_usage") (x.current_usage.dbg) <|
    .cons (txt! "slot_length") (x.slot_length.dbg) <|
    .cons (txt! "slot_id") (.num x.slot_id.toNat) <|
    .cons (txt! "slot_characteristics_1") (x.slot_characteristics_1.dbg) <|
    .cons (txt! "slot_characteristics_2") (.opt (·.dbg) x.slot_characteristics_2) <|
    .cons (txt! "segment_group_number") (.opt (fun y => .num y.toNat) x.segment_group_number) <|
    .cons (txt! "bus_number") (.opt (fun y => .num y.toNat) x.bus_number) <|
    .cons (txt! "device_and_function_number") (.opt (·.dbg) x.device_and_function_number) <|
    .cons (txt! "data_bus_width") (.opt (fun y => .num y.toNat) x.data_bus_width) <|
    .cons (txt! "peer_devices") (.opt (·.dbg) x.peer_devices) <|
    .cons (txt! "slot_information") (.opt (fun y => .num y.toNat) x.slot_information) <|
    .cons (txt! "slot_physical_width") (.opt (·.dbg) x.slot_physical_width) <|
    .cons (txt! "slot_pitch") (.opt (·.dbg) x.slot_pitch) .nil

/-- `StructureStrings`, `src/lib.rs` 662-665. -/
def StructureStrings.dbg (x : StructureStrings) : Dbg :=
  .struct (txt! "StructureStrings") <|
    .cons (txt! "bytes") (.bytes x.bytes) <|
    .cons (txt! "start") (.num x.start) .nil

/-- `OemStrings`, `src/structures/011_oem_strings.rs` 10-15. -/
def oem_strings.OemStrings.dbg (x : oem_strings.OemStrings) : Dbg :=
  .struct (txt! "OemStrings") <|
    .cons (txt! "handle") (.num x.handle.toNat) <|
    .cons (txt! "strings") (x.strings.dbg) .nil

/-- `SystemConfigurationOptions`, `src/structures/012_system_configuration_options.rs` 14-19. -/
def system_configuration_options.SystemConfigurationOptions.dbg (x : system_configuration_options.SystemConfigurationOptions) : Dbg :=
  .struct (txt! "SystemConfigurationOptions") <|
    .cons (txt! "handle") (.num x.handle.toNat) <|
    .cons (txt! "strings") (x.strings.dbg) .nil

/-- `RawStructure`, `src/lib.rs` 571-578. -/
def RawStructure.dbg (x : RawStructure) : Dbg :=
  .struct (txt! "RawStructure") <|
    .cons (txt! "version") (x.version.dbg) <|
    .cons (txt! "info") (x.info.dbg) <|
    .cons (txt! "length") (.num x.length.toNat) <|
    .cons (txt! "handle") (.num x.handle.toNat) <|
    .cons (txt! "data") (.bytes x.data) <|
    .cons (txt! "strings") (.bytes x.strings) .nil

/-- `InstallableLanguages`, `src/structures/013_bios_language.rs` 23-26. -/
def bios_language.InstallableLanguages.dbg (x : bios_language.InstallableLanguages) : Dbg :=
  .struct (txt! "InstallableLanguages") <|
    .cons (txt! "structure") (x.structure_.dbg) <|
    .cons (txt! "index") (.num x.index.toNat) .nil

/-- `LanguageFlags`, `src/structures/013_bios_language.rs` 30. -/
def bios_language.LanguageFlags.dbg (x : bios_language.LanguageFlags) : Dbg :=
  .tuple (txt! "LanguageFlags") <|
    .cons [] (.num x.bits.toNat) .nil

/-- `BiosLanguage`, `src/structures/013_bios_language.rs` 10-19. -/
def bios_language.BiosLanguage.dbg (x : bios_language.BiosLanguage) : Dbg :=
  .struct (txt! "BiosLanguage") <|
    .cons (txt! "handle") (.num x.handle.toNat) <|
    .cons (txt! "installable_languages") (x.installable_languages.dbg) <|
    .cons (txt! "flags") (.opt (·.dbg) x.flags) <|
    .cons (txt! "current_language") (.num x.current_language.toNat) .nil

/-- `GroupItems`, `src/structures/014_group_associations.rs` 27-30. -/
def group_associations.GroupItems.dbg (x : group_associations.GroupItems) : Dbg :=
  .struct (txt! "GroupItems") <|
    .cons (txt! "data") (.bytes x.data) <|
    .cons (txt! "index") (.num x.index) .nil

/-- `GroupAssociations`, `src/structures/014_group_associations.rs` 16-23. -/
def group_associations.GroupAssociations.dbg (x : group_associations.GroupAssociations) : Dbg :=
  .struct (txt! "GroupAssociations") <|
    .cons (txt! "handle") (.num x.handle.toNat) <|
    .cons (txt! "group_name") (.str x.group_name) <|
    .cons (txt! "items") (x.items.dbg) .nil

/-- `AccessMethod`, `src/structures/015_system_event_log/mod.rs` 59-74. -/
def system_event_log.AccessMethod.dbg : system_event_log.AccessMethod → Dbg
  | .IndexedIoOne8bitIndexOne8bitData index data => .struct (txt! "IndexedIoOne8bitIndexOne8bitData") <| .cons
      (txt! "index") (.num index.toNat) <| .cons (txt! "data") (.num data.toNat) .nil
  | .IndexedIoTwo8bitIndexOne8bitData index0 index1 data => .struct (txt! "IndexedIoTwo8bitIndexOne8bitData") <|
      .cons (txt! "index") (.bytes [index0, index1]) <| .cons (txt! "data") (.num data.toNat) .nil
  | .IndexedIoOne16bitIndexOne8bitData index data => .struct (txt! "IndexedIoOne16bitIndexOne8bitData") <|
      .cons (txt! "index") (.num index.toNat) <| .cons (txt! "data") (.num data.toNat) .nil
  | .MemoryMappedPhysicaAddress physical_address => .struct (txt! "MemoryMappedPhysicaAddress") <| .cons
      (txt! "physical_address") (.num physical_address.toNat) .nil
  | .GeneralPurposeNonVolatileData gpnv_handle => .struct (txt! "GeneralPurposeNonVolatileData") <| .cons
      (txt! "gpnv_handle") (.num gpnv_handle.toNat) .nil
  | .Available method address => .struct (txt! "Available") <| .cons (txt! "method") (.num method.toNat) <|
      .cons (txt! "address") (.num address.toNat) .nil
  | .OemSpecific method address => .struct (txt! "OemSpecific") <| .cons (txt! "method") (.num method.toNat) <|
      .cons (txt! "address") (.num address.toNat) .nil

/-- `LogStatus`, `src/structures/015_system_event_log/mod.rs` 81. -/
def system_event_log.LogStatus.dbg (x : system_event_log.LogStatus) : Dbg :=
  .tuple (txt! "LogStatus") <|
    .cons [] (.num x.bits.toNat) .nil

/-- `LogHeaderFormat`, `src/structures/015_system_event_log/mod.rs` 85-94. -/
def system_event_log.LogHeaderFormat.dbg : system_event_log.LogHeaderFormat → Dbg
  | .NoHeader => .name (txt! "NoHeader")
  | .LogHeaderType1 => .name (txt! "LogHeaderType1")
  | .Available v => .tuple (txt! "Available") <| .cons [] (.num v.toNat) .nil
  | .OemSpecific v => .tuple (txt! "OemSpecific") <| .cons [] (.num v.toNat) .nil

/-- `SupportedEventLogTypeDescriptors`, `src/structures/015_system_event_log/mod.rs` 141. -/
def system_event_log.SupportedEventLogTypeDescriptors.dbg (x : system_event_log.SupportedEventLogTypeDescriptors) : Dbg :=
  .tuple (txt! "SupportedEventLogTypeDescriptors") <|
    .cons [] (x.chunks.dbg) .nil

/-- `SystemEventLog`, `src/structures/015_system_event_log/mod.rs` 30-53. -/
def system_event_log.SystemEventLog.dbg (x : system_event_log.SystemEventLog) : Dbg :=
  .struct (txt! "SystemEventLog") <|
    .cons (txt! "handle") (.num x.handle.toNat) <|
    .cons (txt! "log_area_length") (.num x.log_area_length.toNat) <|
    .cons (txt! "log_header_start_offset") (.num x.log_header_start_offset.toNat) <|
    .cons (txt! "log_data_start_offset") (.num x.log_data_start_offset.toNat) <|
    .cons (txt! "access_method") (x.access_method.dbg) <|
    .cons (txt! "log_status") (x.log_status.dbg) <|
    .cons (txt! "log_change_token") (.num x.log_change_token.toNat) <|
    .cons (txt! "log_header_format") (.opt (·.dbg) x.log_header_format) <|
    .cons (txt! "supported_event_log_type_descriptors") (.opt (·.dbg) x.supported_event_log_type_descriptors) .nil

/-- `FormFactor`, `src/structures/017_memory_device.rs` 102-120. -/
def memory_device.FormFactor.dbg : memory_device.FormFactor → Dbg
  | .Other => .name (txt! "Other")
  | .Unknown => .name (txt! "Unknown")
  | .Simm => .name (txt! "Simm")
  | .Sip => .name (txt! "Sip")
  | .Chip => .name (txt! "Chip")
  | .Dip => .name (txt! "Dip")
  | .Zip => .name (txt! "Zip")
  | .ProprietaryCard => .name (txt! "ProprietaryCard")
  | .Dimm => .name (txt! "Dimm")
  | .Tsop => .name (txt! "Tsop")
  | .RowOfChips => .name (txt! "RowOfChips")
  | .Rimm => .name (txt! "Rimm")
  | .SoDimm => .name (txt! "SoDimm")
  | .Srimm => .name (txt! "Srimm")
  | .FbDimm => .name (txt! "FbDimm")
  | .Undefined v => .tuple (txt! "Undefined") <| .cons [] (.num v.toNat) .nil

/-- `Type`, `src/structures/017_memory_device.rs` 175-211. -/
def memory_device.MemoryType.dbg : memory_device.MemoryType → Dbg
  | .Other => .name (txt! "Other")
  | .Unknown => .name (txt! "Unknown")
  | .Dram => .name (txt! "Dram")
  | .Edram => .name (txt! "Edram")
  | .Vram => .name (txt! "Vram")
  | .Sram => .name (txt! "Sram")
  | .Ram => .name (txt! "Ram")
  | .Rom => .name (txt! "Rom")
  | .Flash => .name (txt! "Flash")
  | .Eeprom => .name (txt! "Eeprom")
  | .Feprom => .name (txt! "Feprom")
  | .Eprom => .name (txt! "Eprom")
  | .Cdram => .name (txt! "Cdram")
  | .ThreeDram => .name (txt! "ThreeDram")
  | .Sdram => .name (txt! "Sdram")
  | .Sgram => .name (txt! "Sgram")
  | .Rdram => .name (txt! "Rdram")
  | .Ddr => .name (txt! "Ddr")
  | .Ddr2 => .name (txt! "Ddr2")
  | .Ddr2FbDimm => .name (txt! "Ddr2FbDimm")
  | .Reserved => .name (txt! "Reserved")
  | .Ddr3 => .name (txt! "Ddr3")
  | .Fbd2 => .name (txt! "Fbd2")
  | .Ddr4 => .name (txt! "Ddr4")
  | .Ddr5 => .name (txt! "Ddr5")
  | .LpDdr => .name (txt! "LpDdr")
  | .LpDdr2 => .name (txt! "LpDdr2")
  | .LpDdr3 => .name (txt! "LpDdr3")
  | .LpDdr4 => .name (txt! "LpDdr4")
  | .LpDdr5 => .name (txt! "LpDdr5")
  | .LogicalNonVolatileDevice => .name (txt! "LogicalNonVolatileDevice")
  | .Hbm => .name (txt! "Hbm")
  | .Hbm2 => .name (txt! "Hbm2")
  | .Undefined v => .tuple (txt! "Undefined") <| .cons [] (.num v.toNat) .nil

/-- `Detail`, `src/structures/017_memory_device.rs` 259-276. -/
def memory_device.Detail.table : List (Text × Nat) :=
  [(txt! "RESERVED", 0), (txt! "OTHER", 2), (txt! "UNKNOWN", 4), (txt! "FAST_PAGED", 8), (txt! "STATIC_COLUMN",
   16), (txt! "PSEUDO_STATIC", 32), (txt! "RAMBUS", 64), (txt! "SYNCHRONOUS", 128), (txt! "CMOS", 256),
   (txt! "EDO", 512), (txt! "WINDOW_DRAM", 1024), (txt! "CACHE_DRAM", 2048), (txt! "NON_VOLATILE", 4096),
   (txt! "REGISTERED", 8192), (txt! "UNREGISTERED", 16384), (txt! "LRDIMM", 32768)]

/-- `Detail`. -/
def memory_device.Detail.dbg (x : memory_device.Detail) : Dbg :=
  .tuple (txt! "Detail") (.cons [] (.flags memory_device.Detail.table x.bits.toNat) .nil)

/-- `MemoryTechnology`, `src/structures/017_memory_device.rs` 147-157. -/
def memory_device.MemoryTechnology.dbg : memory_device.MemoryTechnology → Dbg
  | .Other => .name (txt! "Other")
  | .Unknown => .name (txt! "Unknown")
  | .Dram => .name (txt! "Dram")
  | .NvDimmN => .name (txt! "NvDimmN")
  | .NvDimmF => .name (txt! "NvDimmF")
  | .NvDimmP => .name (txt! "NvDimmP")
  | .IntelOptane => .name (txt! "IntelOptane")
  | .Undefined v => .tuple (txt! "Undefined") <| .cons [] (.num v.toNat) .nil

/-- `OperatingModes`, `src/structures/017_memory_device.rs` 287-294. -/
def memory_device.OperatingModes.table : List (Text × Nat) :=
  [(txt! "RESERVED", 0), (txt! "OTHER", 2), (txt! "UNKNOWN", 4), (txt! "VOLATILE", 8),
   (txt! "BYTE_ACCESSIBLE_PERSISTENT", 16), (txt! "BLOCK_ACCESSIBLE_PERSISTENT", 32)]

/-- `OperatingModes`. -/
def memory_device.OperatingModes.dbg (x : memory_device.OperatingModes) : Dbg :=
  .tuple (txt! "OperatingModes") (.cons [] (.flags memory_device.OperatingModes.table x.bits.toNat) .nil)

/-- `MemoryDevice`, `src/structures/017_memory_device.rs` 302-378. -/
def memory_device.MemoryDevice.dbg (x : memory_device.MemoryDevice) : Dbg :=
  .struct (txt! "MemoryDevice") <|
    .cons (txt! "handle") (.num x.handle.toNat) <|
    .cons (txt! "physical_memory_handle") (.num x.physical_memory_handle.toNat) <|
    .cons (txt! "memory_error_handle") (.opt (fun y => .num y.toNat) x.memory_error_handle) <|
    .cons (txt! "total_width") (.opt (fun y => .num y.toNat) x.total_width) <|
    .cons (txt! "data_width") (.opt (fun y => .num y.toNat) x.data_width) <|
    .cons (txt! "size") (.opt (fun y => .num y.toNat) x.size) <|
    .cons (txt! "form_factor") (x.form_factor.dbg) <|
    .cons (txt! "device_set") (.opt (fun y => .num y.toNat) x.device_set) <|
    .cons (txt! "device_locator") (.str x.device_locator) <|
    .cons (txt! "bank_locator") (.str x.bank_locator) <|
    .cons (txt! "memory_type") (x.memory_type.dbg) <|
    .cons (txt! "type_detail") (x.type_detail.dbg) <|
    .cons (txt! "speed") (.opt (fun y => .num y.toNat) x.speed) <|
    .cons (txt! "manufacturer") (.str x.manufacturer) <|
    .cons (txt! "serial") (.str x.serial) <|
    .cons (txt! "asset_tag") (.str x.asset_tag) <|
    .cons (txt! "part_number") (.str x.part_number) <|
    .cons (txt! "attributes") (.num x.attributes.toNat) <|
    .cons (txt! "extended_size") (.num x.extended_size.toNat) <|
    .cons (txt! "configured_memory_speed") (.opt (fun y => .num y.toNat) x.configured_memory_speed) <|
    .cons (txt! "minimum_voltage") (.opt (fun y => .num y.toNat) x.minimum_voltage) <|
    .cons (txt! "maximum_voltage") (.opt (fun y => .num y.toNat) x.maximum_voltage) <|
    .cons (txt! "configured_voltage") (.opt (fun y => .num y.toNat) x.configured_voltage) <|
    .cons (txt! "memory_technology") (.opt (·.dbg) x.memory_technology) <|
    .cons (txt! "operating_mode_capability") (.opt (·.dbg) x.operating_mode_capability) <|
    .cons (txt! "firmware_version") (.opt .str x.firmware_version) <|
    .cons (txt! "module_manufacturer") (.opt (fun y => .num y.toNat) x.module_manufacturer) <|
    .cons (txt! "module_product_id") (.opt (fun y => .num y.toNat) x.module_product_id) <|
    .cons (txt! "memory_subsystem_controller_manufacturer_id") (.opt (fun y => .num y.toNat) x.memory_subsystem_controller_manufacturer_id) <|
    .cons (txt! "memory_subsystem_controller_product_id") (.opt (fun y => .num y.toNat) x.memory_subsystem_controller_product_id) <|
    .cons (txt! "non_volatile_size") (.opt (fun y => .num y.toNat) x.non_volatile_size) <|
    .cons (txt! "volatile_size") (.opt (fun y => .num y.toNat) x.volatile_size) <|
    .cons (txt! "cache_size") (.opt (fun y => .num y.toNat) x.cache_size) <|
    .cons (txt! "logical_size") (.opt (fun y => .num y.toNat) x.logical_size) <|
    .cons (txt! "extended_speed") (.opt (fun y => .num y.toNat) x.extended_speed) <|
    .cons (txt! "extended_configured_memory_speed") (.opt (fun y => .num y.toNat) x.extended_configured_memory_speed) .nil

/-- `ErrorType`, `src/structures/018_memory_error_32.rs` 40-56. -/
def memory_error_32.ErrorType.dbg : memory_error_32.ErrorType → Dbg
  | .Other => .name (txt! "Other")
  | .Unknown => .name (txt! "Unknown")
  | .Ok => .name (txt! "Ok")
  | .BadRead => .name (txt! "BadRead")
  | .ParityError => .name (txt! "ParityError")
  | .SingleBitError => .name (txt! "SingleBitError")
  | .DoubleBitError => .name (txt! "DoubleBitError")
  | .MultiBitError => .name (txt! "MultiBitError")
  | .NibbleError => .name (txt! "NibbleError")
  | .ChecksumError => .name (txt! "ChecksumError")
  | .CrcError => .name (txt! "CrcError")
  | .CorrectedSingleBitError => .name (txt! "CorrectedSingleBitError")
  | .CorrectedError => .name (txt! "CorrectedError")
  | .UncorrectableError => .name (txt! "UncorrectableError")
  | .Undefined v => .tuple (txt! "Undefined") <| .cons [] (.num v.toNat) .nil

/-- `ErrorGranularity`, `src/structures/018_memory_error_32.rs` 60-68. -/
def memory_error_32.ErrorGranularity.dbg : memory_error_32.ErrorGranularity → Dbg
  | .Other => .name (txt! "Other")
  | .Unknown => .name (txt! "Unknown")
  | .DeviceLevel => .name (txt! "DeviceLevel")
  | .MemoryPartitionLevel => .name (txt! "MemoryPartitionLevel")
  | .Undefined v => .tuple (txt! "Undefined") <| .cons [] (.num v.toNat) .nil

/-- `ErrorOperation`, `src/structures/018_memory_error_32.rs` 72-80. -/
def memory_error_32.ErrorOperation.dbg : memory_error_32.ErrorOperation → Dbg
  | .Other => .name (txt! "Other")
  | .Unknown => .name (txt! "Unknown")
  | .Read => .name (txt! "Read")
  | .Write => .name (txt! "Write")
  | .PartialWrite => .name (txt! "PartialWrite")
  | .Undefined v => .tuple (txt! "Undefined") <| .cons [] (.num v.toNat) .nil

/-- `MemoryError32`, `src/structures/018_memory_error_32.rs` 15-35. -/
def memory_error_32.MemoryError32.dbg (x : memory_error_32.MemoryError32) : Dbg :=
  .struct (txt! "MemoryError32") <|
    .cons (txt! "handle") (.num x.handle.toNat) <|
    .cons (txt! "error_type") (x.error_type.dbg) <|
    .cons (txt! "error_granularity") (x.error_granularity.dbg) <|
    .cons (txt! "error_operation") (x.error_operation.dbg) <|
    .cons (txt! "vendor_syndrome") (.num x.vendor_syndrome.toNat) <|
    .cons (txt! "memory_array_error_address") (.num x.memory_array_error_address.toNat) <|
    .cons (txt! "device_error_address") (.num x.device_error_address.toNat) <|
    .cons (txt! "error_resolution") (.num x.error_resolution.toNat) .nil

/-- `MemoryArrayMappedAddress`, `src/structures/019_memory_array_mapped_address.rs` 14-50. -/
def memory_array_mapped_address.MemoryArrayMappedAddress.dbg (x : memory_array_mapped_address.MemoryArrayMappedAddress) : Dbg :=
  .struct (txt! "MemoryArrayMappedAddress") <|
    .cons (txt! "handle") (.num x.handle.toNat) <|
    .cons (txt! "starting_address") (.num x.starting_address.toNat) <|
    .cons (txt! "ending_address") (.num x.ending_address.toNat) <|
    .cons (txt! "memory_array_handle") (.num x.memory_array_handle.toNat) <|
    .cons (txt! "partition_width") (.num x.partition_width.toNat) <|
    .cons (txt! "extended_starting_address") (.opt (fun y => .num y.toNat) x.extended_starting_address) <|
    .cons (txt! "extended_ending_address") (.opt (fun y => .num y.toNat) x.extended_ending_address) .nil

/-- `MemoryDeviceMappedAddress`, `src/structures/020_memory_device_mapped_address.rs` 14-63. -/
def memory_device_mapped_address.MemoryDeviceMappedAddress.dbg (x : memory_device_mapped_address.MemoryDeviceMappedAddress) : Dbg :=
  .struct (txt! "MemoryDeviceMappedAddress") <|
    .cons (txt! "handle") (.num x.handle.toNat) <|
    .cons (txt! "starting_address") (.num x.starting_address.toNat) <|
    .cons (txt! "ending_address") (.num x.ending_address.toNat) <|
    .cons (txt! "memory_device_handle") (.num x.memory_device_handle.toNat) <|
    .cons (txt! "memory_array_mapped_address_handle") (.num x.memory_array_mapped_address_handle.toNat) <|
    .cons (txt! "partition_row_position") (.num x.partition_row_position.toNat) <|
    .cons (txt! "interleave_position") (.num x.interleave_position.toNat) <|
    .cons (txt! "interleaved_data_depth") (.num x.interleaved_data_depth.toNat) <|
    .cons (txt! "extended_starting_address") (.opt (fun y => .num y.toNat) x.extended_starting_address) <|
    .cons (txt! "extended_ending_address") (.opt (fun y => .num y.toNat) x.extended_ending_address) .nil

/-- `Type`, `src/structures/021_built_in_pointing_device.rs` 29-40. -/
def built_in_pointing_device.DeviceType.dbg : built_in_pointing_device.DeviceType → Dbg
  | .Other => .name (txt! "Other")
  | .Unknown => .name (txt! "Unknown")
  | .Mouse => .name (txt! "Mouse")
  | .TrackBall => .name (txt! "TrackBall")
  | .TrackPoint => .name (txt! "TrackPoint")
  | .GlidePoint => .name (txt! "GlidePoint")
  | .TouchPad => .name (txt! "TouchPad")
  | .TouchScreen => .name (txt! "TouchScreen")
  | .OpticalSensor => .name (txt! "OpticalSensor")
  | .Undefined v => .tuple (txt! "Undefined") <| .cons [] (.num v.toNat) .nil

/-- `Interface`, `src/structures/021_built_in_pointing_device.rs` 43-63. -/
def built_in_pointing_device.Interface.dbg : built_in_pointing_device.Interface → Dbg
  | .Other => .name (txt! "Other")
  | .Unknown => .name (txt! "Unknown")
  | .Serial => .name (txt! "Serial")
  | .Ps2 => .name (txt! "Ps2")
  | .Infrared => .name (txt! "Infrared")
  | .HpHil => .name (txt! "HpHil")
  | .BusMouse => .name (txt! "BusMouse")
  | .Adb => .name (txt! "Adb")
  | .BusMouseDb9 => .name (txt! "BusMouseDb9")
  | .BusMouseMicroDin => .name (txt! "BusMouseMicroDin")
  | .Usb => .name (txt! "Usb")
  | .Undefined v => .tuple (txt! "Undefined") <| .cons [] (.num v.toNat) .nil

/-- `BuiltInPointingDevice`, `src/structures/021_built_in_pointing_device.rs` 17-25. -/
def built_in_pointing_device.BuiltInPointingDevice.dbg (x : built_in_pointing_device.BuiltInPointingDevice) : Dbg :=
  .struct (txt! "BuiltInPointingDevice") <|
    .cons (txt! "handle") (.num x.handle.toNat) <|
    .cons (txt! "type_") (x.type_.dbg) <|
    .cons (txt! "interface") (x.interface.dbg) <|
    .cons (txt! "number_of_buttons") (.num x.number_of_buttons.toNat) .nil

/-- `ManufactureDate`, `src/structures/022_portable_battery.rs` 47-51. -/
def portable_battery.ManufactureDate.dbg : portable_battery.ManufactureDate → Dbg
  | .None => .name (txt! "None")
  | .Basic v => .tuple (txt! "Basic") <| .cons [] (.str v) .nil
  | .SmartBatteryDataSpecification year month date => .struct (txt! "SmartBatteryDataSpecification") <| .cons
      (txt! "year") (.num year.toNat) <| .cons (txt! "month") (.num month.toNat) <| .cons (txt! "date") (.num
      date.toNat) .nil

/-- `SerialNumber`, `src/structures/022_portable_battery.rs` 55-59. -/
def portable_battery.SerialNumber.dbg : portable_battery.SerialNumber → Dbg
  | .None => .name (txt! "None")
  | .Basic v => .tuple (txt! "Basic") <| .cons [] (.str v) .nil
  | .SmartBatteryDataSpecification v => .tuple (txt! "SmartBatteryDataSpecification") <| .cons [] (.num
      v.toNat) .nil

/-- `DeviceChemistry`, `src/structures/022_portable_battery.rs` 71-89. -/
def portable_battery.DeviceChemistry.dbg : portable_battery.DeviceChemistry → Dbg
  | .Other => .name (txt! "Other")
  | .Unknown => .name (txt! "Unknown")
  | .LeadAcid => .name (txt! "LeadAcid")
  | .NickelCadmium => .name (txt! "NickelCadmium")
  | .NickelMetalHydride => .name (txt! "NickelMetalHydride")
  | .LithiumIon => .name (txt! "LithiumIon")
  | .ZincAir => .name (txt! "ZincAir")
  | .LithiumPolymer => .name (txt! "LithiumPolymer")
  | .Undefined v => .tuple (txt! "Undefined") <| .cons [] (.num v.toNat) .nil
  | .SmartBatteryDataSpecification v => .tuple (txt! "SmartBatteryDataSpecification") <| .cons [] (.str v) .nil

/-- `DesignCapacity`, `src/structures/022_portable_battery.rs` 63-66. -/
def portable_battery.DesignCapacity.dbg : portable_battery.DesignCapacity → Dbg
  | .Unknown => .name (txt! "Unknown")
  | .Data value multiplier => .struct (txt! "Data") <| .cons (txt! "value") (.num value.toNat) <| .cons
      (txt! "multiplier") (.num multiplier.toNat) .nil

/-- `PortableBattery`, `src/structures/022_portable_battery.rs` 17-43. -/
def portable_battery.PortableBattery.dbg (x : portable_battery.PortableBattery) : Dbg :=
  .struct (txt! "PortableBattery") <|
    .cons (txt! "handle") (.num x.handle.toNat) <|
    .cons (txt! "location") (.str x.location) <|
    .cons (txt! "manufacturer") (.str x.manufacturer) <|
    .cons (txt! "manufacture_date") (x.manufacture_date.dbg) <|
    .cons (txt! "serial_number") (x.serial_number.dbg) <|
    .cons (txt! "device_name") (.str x.device_name) <|
    .cons (txt! "device_chemistry") (x.device_chemistry.dbg) <|
    .cons (txt! "design_capacity") (x.design_capacity.dbg) <|
    .cons (txt! "design_voltage") (.num x.design_voltage.toNat) <|
    .cons (txt! "sbds_version_number") (.str x.sbds_version_number) <|
    .cons (txt! "maximum_error_in_battery_data") (.num x.maximum_error_in_battery_data.toNat) <|
    .cons (txt! "oem_specific") (.opt (fun y => .num y.toNat) x.oem_specific) .nil

/-- `MemoryArrayLocation`, `src/structures/016_physical_memory_array.rs` 12-30. -/
def physical_memory_array.MemoryArrayLocation.dbg : physical_memory_array.MemoryArrayLocation → Dbg
  | .Other => .name (txt! "Other")
  | .Unknown => .name (txt! "Unknown")
  | .SystemBoardOrMotherboard => .name (txt! "SystemBoardOrMotherboard")
  | .IsaAddOnCard => .name (txt! "IsaAddOnCard")
  | .EisaAddOnCard => .name (txt! "EisaAddOnCard")
  | .PciAddOnCard => .name (txt! "PciAddOnCard")
  | .McaAddOnCard => .name (txt! "McaAddOnCard")
  | .PcmciaAddOnCard => .name (txt! "PcmciaAddOnCard")
  | .ProprietaryAddOnCard => .name (txt! "ProprietaryAddOnCard")
  | .NuBus => .name (txt! "NuBus")
  | .Pc98c20AddOnCard => .name (txt! "Pc98c20AddOnCard")
  | .Pc98c24AddOnCard => .name (txt! "Pc98c24AddOnCard")
  | .Pc98eAddOnCard => .name (txt! "Pc98eAddOnCard")
  | .Pc98LocalBusAddOnCard => .name (txt! "Pc98LocalBusAddOnCard")
  | .CxlAddOnCard => .name (txt! "CxlAddOnCard")
  | .Undefined v => .tuple (txt! "Undefined") <| .cons [] (.num v.toNat) .nil

/-- `MemoryArrayUse`, `src/structures/016_physical_memory_array.rs` 79-89. -/
def physical_memory_array.MemoryArrayUse.dbg : physical_memory_array.MemoryArrayUse → Dbg
  | .Other => .name (txt! "Other")
  | .Unknown => .name (txt! "Unknown")
  | .SystemMemory => .name (txt! "SystemMemory")
  | .VideoMemory => .name (txt! "VideoMemory")
  | .FlashMemory => .name (txt! "FlashMemory")
  | .NonVolatileRam => .name (txt! "NonVolatileRam")
  | .CacheMemory => .name (txt! "CacheMemory")
  | .Undefined v => .tuple (txt! "Undefined") <| .cons [] (.num v.toNat) .nil

/-- `MemoryArrayErrorCorrectionTypes`, `src/structures/016_physical_memory_array.rs` 122-132. -/
def physical_memory_array.MemoryArrayErrorCorrectionTypes.dbg : physical_memory_array.MemoryArrayErrorCorrectionTypes → Dbg
  | .Other => .name (txt! "Other")
  | .Unknown => .name (txt! "Unknown")
  | .None => .name (txt! "None")
  | .Parity => .name (txt! "Parity")
  | .SingleBitEcc => .name (txt! "SingleBitEcc")
  | .MultiBitEcc => .name (txt! "MultiBitEcc")
  | .CRC => .name (txt! "CRC")
  | .Undefined v => .tuple (txt! "Undefined") <| .cons [] (.num v.toNat) .nil

/-- `PhysicalMemoryArray`, `src/structures/016_physical_memory_array.rs` 169-195. -/
def physical_memory_array.PhysicalMemoryArray.dbg (x : physical_memory_array.PhysicalMemoryArray) : Dbg :=
  .struct (txt! "PhysicalMemoryArray") <|
    .cons (txt! "handle") (.num x.handle.toNat) <|
    .cons (txt! "location") (x.location.dbg) <|
    .cons (txt! "use") (x.use.dbg) <|
    .cons (txt! "memory_error_correction") (x.memory_error_correction.dbg) <|
    .cons (txt! "maximum_capacity") (.opt (fun y => .num y.toNat) x.maximum_capacity) <|
    .cons (txt! "memory_error_information_handle") (.opt (fun y => .num y.toNat) x.memory_error_information_handle) <|
    .cons (txt! "number_of_memory_devices") (.num x.number_of_memory_devices.toNat) <|
    .cons (txt! "extended_maximum_capacity") (.opt (fun y => .num y.toNat) x.extended_maximum_capacity) .nil

/-- `Structure`, `src/lib.rs` 366-388. -/
def Structure.dbg : Structure → Dbg
  | .Bios v => .tuple (txt! "Bios") <| .cons [] (v.dbg) .nil
  | .System v => .tuple (txt! "System") <| .cons [] (v.dbg) .nil
  | .BaseBoard v => .tuple (txt! "BaseBoard") <| .cons [] (v.dbg) .nil
  | .Enclosure v => .tuple (txt! "Enclosure") <| .cons [] (v.dbg) .nil
  | .Processor v => .tuple (txt! "Processor") <| .cons [] (v.dbg) .nil
  | .Cache v => .tuple (txt! "Cache") <| .cons [] (v.dbg) .nil
  | .PortConnector v => .tuple (txt! "PortConnector") <| .cons [] (v.dbg) .nil
  | .SystemSlots v => .tuple (txt! "SystemSlots") <| .cons [] (v.dbg) .nil
  | .OemStrings v => .tuple (txt! "OemStrings") <| .cons [] (v.dbg) .nil
  | .SystemConfigurationOptions v => .tuple (txt! "SystemConfigurationOptions") <| .cons [] (v.dbg) .nil
  | .BiosLanguage v => .tuple (txt! "BiosLanguage") <| .cons [] (v.dbg) .nil
  | .GroupAssociations v => .tuple (txt! "GroupAssociations") <| .cons [] (v.dbg) .nil
  | .SystemEventLog v => .tuple (txt! "SystemEventLog") <| .cons [] (v.dbg) .nil
  | .MemoryDevice v => .tuple (txt! "MemoryDevice") <| .cons [] (v.dbg) .nil
  | .MemoryError32 v => .tuple (txt! "MemoryError32") <| .cons [] (v.dbg) .nil
  | .MemoryArrayMappedAddress v => .tuple (txt! "MemoryArrayMappedAddress") <| .cons [] (v.dbg) .nil
  | .MemoryDeviceMappedAddress v => .tuple (txt! "MemoryDeviceMappedAddress") <| .cons [] (v.dbg) .nil
  | .BuiltInPointingDevice v => .tuple (txt! "BuiltInPointingDevice") <| .cons [] (v.dbg) .nil
  | .PortableBattery v => .tuple (txt! "PortableBattery") <| .cons [] (v.dbg) .nil
  | .PhysicalMemoryArray v => .tuple (txt! "PhysicalMemoryArray") <| .cons [] (v.dbg) .nil
  | .Other v => .tuple (txt! "Other") <| .cons [] (v.dbg) .nil

/-- `ContainedElementType`, `src/structures/003_enclosure.rs` 159-162. -/
def enclosure.ContainedElementType.dbg : enclosure.ContainedElementType → Dbg
  | .BoardType v => .tuple (txt! "BoardType") <| .cons [] (v.dbg) .nil
  | .InfoType v => .tuple (txt! "InfoType") <| .cons [] (v.dbg) .nil

/-- `ContainedElement`, `src/structures/003_enclosure.rs` 144-154. -/
def enclosure.ContainedElement.dbg (x : enclosure.ContainedElement) : Dbg :=
  .struct (txt! "ContainedElement") <|
    .cons (txt! "type_") (x.type_.dbg) <|
    .cons (txt! "minimum") (.num x.minimum.toNat) <|
    .cons (txt! "maximum") (.num x.maximum.toNat) .nil

/-- `Device`, `src/structures/009_system_slots.rs` 300-311. -/
def system_slots.Device.dbg (x : system_slots.Device) : Dbg :=
  .struct (txt! "Device") <|
    .cons (txt! "segment_group_number") (.num x.segment_group_number.toNat) <|
    .cons (txt! "bus_number") (.num x.bus_number.toNat) <|
    .cons (txt! "device_and_function_number") (x.device_and_function_number.dbg) <|
    .cons (txt! "data_bus_width") (.num x.data_bus_width.toNat) .nil

/-- `GroupItem`, `src/structures/014_group_associations.rs` 34-39. -/
def group_associations.GroupItem.dbg (x : group_associations.GroupItem) : Dbg :=
  .struct (txt! "GroupItem") <|
    .cons (txt! "type_") (.num x.type_.toNat) <|
    .cons (txt! "handle") (.num x.handle.toNat) .nil

/-- `EventLogType`, `src/structures/015_system_event_log/log_record_format.rs` 52-108. -/
def system_event_log.EventLogType.dbg : system_event_log.EventLogType → Dbg
  | .Reserved v => .tuple (txt! "Reserved") <| .cons [] (.num v.toNat) .nil
  | .SingleBitEccMemoryError => .name (txt! "SingleBitEccMemoryError")
  | .MultiBitEccMemoryError => .name (txt! "MultiBitEccMemoryError")
  | .ParityMemoryError => .name (txt! "ParityMemoryError")
  | .BusTimeOut => .name (txt! "BusTimeOut")
  | .IoChannelCheck => .name (txt! "IoChannelCheck")
  | .SoftwareNmi => .name (txt! "SoftwareNmi")
  | .PostMemoryResize => .name (txt! "PostMemoryResize")
  | .PostError => .name (txt! "PostError")
  | .PciParityError => .name (txt! "PciParityError")
  | .PciSystemError => .name (txt! "PciSystemError")
  | .CpuFailure => .name (txt! "CpuFailure")
  | .EisaFailSafeTimerTimeOut => .name (txt! "EisaFailSafeTimerTimeOut")
  | .CorrectableMemoryLogDisabled => .name (txt! "CorrectableMemoryLogDisabled")
  | .LoggingDisabledForSpecificEventType => .name (txt! "LoggingDisabledForSpecificEventType")
  | .SystemLimitExceeded => .name (txt! "SystemLimitExceeded")
  | .AsynchronousHardwareTimerExpired => .name (txt! "AsynchronousHardwareTimerExpired")
  | .SystemConfigurationInformation => .name (txt! "SystemConfigurationInformation")
  | .HardDiskInformation => .name (txt! "HardDiskInformation")
  | .SystemReconfigured => .name (txt! "SystemReconfigured")
  | .UncorrectableCpuComplexError => .name (txt! "UncorrectableCpuComplexError")
  | .LogAreaReset => .name (txt! "LogAreaReset")
  | .SystemBoot => .name (txt! "SystemBoot")
  | .Unused v => .tuple (txt! "Unused") <| .cons [] (.num v.toNat) .nil
  | .Available v => .tuple (txt! "Available") <| .cons [] (.num v.toNat) .nil
  | .EndOfLog => .name (txt! "EndOfLog")

/-- `PostResults`, `src/structures/015_system_event_log/log_record_format.rs` 170. -/
def system_event_log.PostResults.dbg (x : system_event_log.PostResults) : Dbg :=
  .tuple (txt! "PostResults") <|
    .cons [] (.num x.bits.toNat) .nil

/-- `SystemManagementType`, `src/structures/015_system_event_log/log_record_format.rs` 178-218. -/
def system_event_log.SystemManagementType.dbg : system_event_log.SystemManagementType → Dbg
  | .OutOfRangeVoltagePlus2_5Num1 => .name (txt! "OutOfRangeVoltagePlus2_5Num1")
  | .OutOfRangeVoltagePlus2_5Num2 => .name (txt! "OutOfRangeVoltagePlus2_5Num2")
  | .OutOfRangeVoltagePlus3_3 => .name (txt! "OutOfRangeVoltagePlus3_3")
  | .OutOfRangeVoltagePlus5 => .name (txt! "OutOfRangeVoltagePlus5")
  | .OutOfRangeVoltageMinus5 => .name (txt! "OutOfRangeVoltageMinus5")
  | .OutOfRangeVoltagePlus12 => .name (txt! "OutOfRangeVoltagePlus12")
  | .OutOfRangeVoltageMinus12 => .name (txt! "OutOfRangeVoltageMinus12")
  | .OutOfRangeVoltageReserved v => .tuple (txt! "OutOfRangeVoltageReserved") <| .cons [] (.num v.toNat) .nil
  | .OutOfRangeTemperatureSystemBoard => .name (txt! "OutOfRangeTemperatureSystemBoard")
  | .OutOfRangeTemperatureProcessor1 => .name (txt! "OutOfRangeTemperatureProcessor1")
  | .OutOfRangeTemperatureProcessor2 => .name (txt! "OutOfRangeTemperatureProcessor2")
  | .OutOfRangeTemperatureProcessor3 => .name (txt! "OutOfRangeTemperatureProcessor3")
  | .OutOfRangeTemperatureProcessor4 => .name (txt! "OutOfRangeTemperatureProcessor4")
  | .OutOfRangeTemperatureReserved v => .tuple (txt! "OutOfRangeTemperatureReserved") <| .cons [] (.num
      v.toNat) .nil
  | .OutOfRangeFan v => .tuple (txt! "OutOfRangeFan") <| .cons [] (.num v.toNat) .nil
  | .Reserved v => .tuple (txt! "Reserved") <| .cons [] (.num v.toNat) .nil
  | .ChassisSecureSwitchActivated => .name (txt! "ChassisSecureSwitchActivated")
  | .OutOfRangeSystemManagementProbe v => .tuple (txt! "OutOfRangeSystemManagementProbe") <| .cons [] (.num
      v.toNat) .nil
  | .OemAssigned v => .tuple (txt! "OemAssigned") <| .cons [] (.num v.toNat) .nil

/-- `VariableDataFormatType`, `src/structures/015_system_event_log/log_record_format.rs` 117-142. -/
def system_event_log.VariableDataFormatType.dbg : system_event_log.VariableDataFormatType → Dbg
  | .None => .name (txt! "None")
  | .Handle handle => .struct (txt! "Handle") <| .cons (txt! "handle") (.num handle.toNat) .nil
  | .MultipleEvent counter => .struct (txt! "MultipleEvent") <| .cons (txt! "counter") (.num counter.toNat) .nil
  | .MultipleEventHandle handle counter => .struct (txt! "MultipleEventHandle") <| .cons (txt! "handle") (.num
      handle.toNat) <| .cons (txt! "counter") (.num counter.toNat) .nil
  | .PostResults v => .tuple (txt! "PostResults") <| .cons [] (v.dbg) .nil
  | .SystemManagementType v => .tuple (txt! "SystemManagementType") <| .cons [] (v.dbg) .nil
  | .MultipleEventSystemManagementType system_management_type counter => .struct
      (txt! "MultipleEventSystemManagementType") <| .cons (txt! "system_management_type")
      (system_management_type.dbg) <| .cons (txt! "counter") (.num counter.toNat) .nil
  | .Unused v => .tuple (txt! "Unused") <| .cons [] (.num v.toNat) .nil
  | .OemAssigned v => .tuple (txt! "OemAssigned") <| .cons [] (.num v.toNat) .nil

/-- `EventLogTypeDescriptor`, `src/structures/015_system_event_log/mod.rs` 149-152. -/
def system_event_log.EventLogTypeDescriptor.dbg (x : system_event_log.EventLogTypeDescriptor) : Dbg :=
  .struct (txt! "EventLogTypeDescriptor") <|
    .cons (txt! "log_type") (x.log_type.dbg) <|
    .cons (txt! "variable_data_format_type") (x.variable_data_format_type.dbg) .nil

/-- `ErrorGranularity`, `src/structures/017_memory_device.rs` 17-23. -/
def memory_device.ErrorGranularity.dbg : memory_device.ErrorGranularity → Dbg
  | .Other => .name (txt! "Other")
  | .Unknown => .name (txt! "Unknown")
  | .DeviceLevel => .name (txt! "DeviceLevel")
  | .MemoryLevel => .name (txt! "MemoryLevel")
  | .Undefined v => .tuple (txt! "Undefined") <| .cons [] (.num v.toNat) .nil

/-- `ErrorOperation`, `src/structures/017_memory_device.rs` 38-45. -/
def memory_device.ErrorOperation.dbg : memory_device.ErrorOperation → Dbg
  | .Other => .name (txt! "Other")
  | .Unknown => .name (txt! "Unknown")
  | .Read => .name (txt! "Read")
  | .Write => .name (txt! "Write")
  | .PartialWrite => .name (txt! "PartialWrite")
  | .Undefined v => .tuple (txt! "Undefined") <| .cons [] (.num v.toNat) .nil

/-- `ErrorType`, `src/structures/017_memory_device.rs` 61-77. -/
def memory_device.ErrorType.dbg : memory_device.ErrorType → Dbg
  | .Other => .name (txt! "Other")
  | .Unknown => .name (txt! "Unknown")
  | .Ok => .name (txt! "Ok")
  | .BadRead => .name (txt! "BadRead")
  | .Parity => .name (txt! "Parity")
  | .SingleBit => .name (txt! "SingleBit")
  | .DoubleBit => .name (txt! "DoubleBit")
  | .MultiBit => .name (txt! "MultiBit")
  | .Nibble => .name (txt! "Nibble")
  | .Checksum => .name (txt! "Checksum")
  | .Crc => .name (txt! "Crc")
  | .CorrectedSingleBit => .name (txt! "CorrectedSingleBit")
  | .Corrected => .name (txt! "Corrected")
  | .Uncorrectable => .name (txt! "Uncorrectable")
  | .Undefined v => .tuple (txt! "Undefined") <| .cons [] (.num v.toNat) .nil

end Dmi
