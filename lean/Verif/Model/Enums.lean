import Verif.Basic
/-!
# Code tables

Every enumeration of the crate that is decoded from an integer code by a `match`, with its
decoding function (`ofU8`, `ofU16`, `ofU32` for `From<u8>`, `From<u16>`, `From<u32>`).
The arms are in source order; a Rust `match` takes the first matching arm, as does the
`if` chain here. Generated from the Rust text by `tools/gen_enums.py`.
Two types called `Type` in Rust are renamed (`memory_device::Type` → `MemoryType`,
`built_in_pointing_device::Type` → `DeviceType`) because `Type` is a Lean keyword.
-/
set_option linter.unusedVariables false
namespace Dmi

/-- `InfoType`, `src/lib.rs` 689-713. -/
inductive InfoType where
  | Bios
  | System
  | BaseBoard
  | Enclosure
  | Processor
  | Cache
  | PortConnector
  | SystemSlots
  | OemStrings
  | SystemConfigurationOptions
  | GroupAssociations
  | SystemEventLog
  | BiosLanguage
  | PhysicalMemoryArray
  | MemoryDevice
  | MemoryError32
  | MemoryArrayMappedAddress
  | MemoryDeviceMappedAddress
  | BuiltInPointingDevice
  | PortableBattery
  | SystemBoot
  | Oem (v : UInt8)
  | End
deriving DecidableEq, Repr

/-- `impl From<u8> for InfoType`, `src/lib.rs` 715-743. -/
def InfoType.ofU8 (b : UInt8) : InfoType :=
  let n := b.toNat
  if n = 0 then .Bios
  else if n = 1 then .System
  else if n = 2 then .BaseBoard
  else if n = 3 then .Enclosure
  else if n = 4 then .Processor
  else if n = 7 then .Cache
  else if n = 8 then .PortConnector
  else if n = 9 then .SystemSlots
  else if n = 11 then .OemStrings
  else if n = 12 then .SystemConfigurationOptions
  else if n = 13 then .BiosLanguage
  else if n = 14 then .GroupAssociations
  else if n = 15 then .SystemEventLog
  else if n = 16 then .PhysicalMemoryArray
  else if n = 17 then .MemoryDevice
  else if n = 18 then .MemoryError32
  else if n = 19 then .MemoryArrayMappedAddress
  else if n = 20 then .MemoryDeviceMappedAddress
  else if n = 21 then .BuiltInPointingDevice
  else if n = 22 then .PortableBattery
  else if n = 32 then .SystemBoot
  else if n = 127 then .End
  else .Oem b

/-- `WakeupType`, `src/structures/001_system.rs` 13-24. -/
inductive system.WakeupType where
  | Reserved
  | Other
  | Unknown
  | APM_Timer
  | Modem_Ring
  | LAN_Remote
  | Power_Switch
  | PCI_PME
  | AC_Power_Restored
  | Undefined (v : UInt8)
deriving DecidableEq, Repr

/-- `impl From<u8> for WakeupType`, `src/structures/001_system.rs` 26-41. -/
def system.WakeupType.ofU8 (b : UInt8) : system.WakeupType :=
  let n := b.toNat
  if n = 0 then .Reserved
  else if n = 1 then .Other
  else if n = 2 then .Unknown
  else if n = 3 then .APM_Timer
  else if n = 4 then .Modem_Ring
  else if n = 5 then .LAN_Remote
  else if n = 6 then .Power_Switch
  else if n = 7 then .PCI_PME
  else if n = 8 then .AC_Power_Restored
  else .Undefined b

/-- `BoardType`, `src/structures/002_baseboard.rs` 14-29. -/
inductive baseboard.BoardType where
  | Unknown
  | Other
  | ServerBlade
  | ConnectivitySwitch
  | SystemManagementModule
  | ProcessorModule
  | IoModule
  | MemoryModule
  | DaughterBoard
  | MotherBoard
  | ProcessorMemoryModule
  | ProcessorIoModule
  | InterconnectBoard
  | Undefined (v : UInt8)
deriving DecidableEq, Repr

/-- `impl From<u8> for BoardType`, `src/structures/002_baseboard.rs` 31-50. -/
def baseboard.BoardType.ofU8 (b : UInt8) : baseboard.BoardType :=
  let n := b.toNat
  if n = 1 then .Unknown
  else if n = 2 then .Other
  else if n = 3 then .ServerBlade
  else if n = 4 then .ConnectivitySwitch
  else if n = 5 then .SystemManagementModule
  else if n = 6 then .ProcessorModule
  else if n = 7 then .IoModule
  else if n = 8 then .MemoryModule
  else if n = 9 then .DaughterBoard
  else if n = 10 then .MotherBoard
  else if n = 11 then .ProcessorMemoryModule
  else if n = 12 then .ProcessorIoModule
  else if n = 13 then .InterconnectBoard
  else .Undefined b

/-- `EnclosureType`, `src/structures/003_enclosure.rs` 57-108. -/
inductive enclosure.EnclosureType where
  | Other
  | Unknown
  | Desktop
  | LowProfileDesktop
  | PizzaBox
  | MiniTower
  | Tower
  | Portable
  | Laptop
  | Notebook
  | HandHeld
  | DockingStation
  | AllInOne
  | SubNotebook
  | SpaceSaving
  | LunchBox
  | MainServerChassis
  | ExpansionChassis
  | SubChassis
  | BusExpansionChassis
  | PeripheralChassis
  | RaidChassis
  | RackMountChassis
  | SealedCasePc
  | MultiSystemChassis
  | CompactPci
  | AdvancedTca
  | Blade
  | BladeEnclosure
  | Tablet
  | Convertible
  | Detachable
  | IotGateway
  | EmbeddedPc
  | MiniPc
  | StickPc
  | Undefined (v : UInt8)
deriving DecidableEq, Repr

/-- `impl From<u8> for EnclosureType`, `src/structures/003_enclosure.rs` 272-314. -/
def enclosure.EnclosureType.ofU8 (b : UInt8) : enclosure.EnclosureType :=
  let n := b.toNat
  if n = 0x01 then .Other
  else if n = 0x02 then .Unknown
  else if n = 0x03 then .Desktop
  else if n = 0x04 then .LowProfileDesktop
  else if n = 0x05 then .PizzaBox
  else if n = 0x06 then .MiniTower
  else if n = 0x07 then .Tower
  else if n = 0x08 then .Portable
  else if n = 0x09 then .Laptop
  else if n = 0x0A then .Notebook
  else if n = 0x0B then .HandHeld
  else if n = 0x0C then .DockingStation
  else if n = 0x0D then .AllInOne
  else if n = 0x0E then .SubNotebook
  else if n = 0x0F then .SpaceSaving
  else if n = 0x10 then .LunchBox
  else if n = 0x11 then .MainServerChassis
  else if n = 0x12 then .ExpansionChassis
  else if n = 0x13 then .SubChassis
  else if n = 0x14 then .BusExpansionChassis
  else if n = 0x15 then .PeripheralChassis
  else if n = 0x16 then .RaidChassis
  else if n = 0x17 then .RackMountChassis
  else if n = 0x18 then .SealedCasePc
  else if n = 0x19 then .MultiSystemChassis
  else if n = 0x1A then .CompactPci
  else if n = 0x1B then .AdvancedTca
  else if n = 0x1C then .Blade
  else if n = 0x1D then .BladeEnclosure
  else if n = 0x1E then .Tablet
  else if n = 0x1F then .Convertible
  else if n = 0x20 then .Detachable
  else if n = 0x21 then .IotGateway
  else if n = 0x22 then .EmbeddedPc
  else if n = 0x23 then .MiniPc
  else if n = 0x24 then .StickPc
  else .Undefined b

/-- `State`, `src/structures/003_enclosure.rs` 112-120. -/
inductive enclosure.State where
  | Other
  | Unknown
  | Safe
  | Warning
  | Critical
  | NonRecoverable
  | Undefined (v : UInt8)
deriving DecidableEq, Repr

/-- `impl From<u8> for State`, `src/structures/003_enclosure.rs` 359-371. -/
def enclosure.State.ofU8 (b : UInt8) : enclosure.State :=
  let n := b.toNat
  if n = 0x01 then .Other
  else if n = 0x02 then .Unknown
  else if n = 0x03 then .Safe
  else if n = 0x04 then .Warning
  else if n = 0x05 then .Critical
  else if n = 0x06 then .NonRecoverable
  else .Undefined b

/-- `SecurityStatus`, `src/structures/003_enclosure.rs` 124-131. -/
inductive enclosure.SecurityStatus where
  | Other
  | Unknown
  | None
  | ExternalInterfaceLockedOut
  | ExternalInterfaceEnabled
  | Undefined (v : UInt8)
deriving DecidableEq, Repr

/-- `impl From<u8> for SecurityStatus`, `src/structures/003_enclosure.rs` 386-397. -/
def enclosure.SecurityStatus.ofU8 (b : UInt8) : enclosure.SecurityStatus :=
  let n := b.toNat
  if n = 0x01 then .Other
  else if n = 0x02 then .Unknown
  else if n = 0x03 then .None
  else if n = 0x04 then .ExternalInterfaceLockedOut
  else if n = 0x05 then .ExternalInterfaceEnabled
  else .Undefined b

/-- `ProcessorType`, `src/structures/004_processor.rs` 18-26. -/
inductive processor.ProcessorType where
  | Other
  | Unknown
  | CentralProcessor
  | MathProcessor
  | DspProcessor
  | VideoProcessor
  | Undefined (v : UInt8)
deriving DecidableEq, Repr

/-- `impl From<u8> for ProcessorType`, `src/structures/004_processor.rs` 28-40. -/
def processor.ProcessorType.ofU8 (b : UInt8) : processor.ProcessorType :=
  let n := b.toNat
  if n = 1 then .Other
  else if n = 2 then .Unknown
  else if n = 3 then .CentralProcessor
  else if n = 4 then .MathProcessor
  else if n = 5 then .DspProcessor
  else if n = 6 then .VideoProcessor
  else .Undefined b

/-- `ProcessorFamily`, `src/structures/004_processor.rs` 136-379. -/
inductive processor.ProcessorFamily where
  | Other
  | Unknown
  | Intel8086
  | Intel80286
  | Intel386Processor
  | Intel486Processor
  | Intel8087
  | Intel80287
  | Intel80387
  | Intel80487
  | IntelPentiumProcessor
  | PentiumProProcessor
  | PentiumIIProcessor
  | PentiumProcessorWithMMXTechnology
  | IntelCeleronProcessor
  | PentiumIIXeonProcessor
  | PentiumIIIProcessor
  | M1Family
  | M2Family
  | IntelCeleronMProcessor
  | IntelPentium4HTProcessor
  | AMDDuronProcessorFamily
  | K5Family
  | K6Family
  | K62
  | K63
  | AMDAthlonProcessorFamily
  | AMD29000Family
  | K62Plus
  | PowerPCFamily
  | PowerPC601
  | PowerPC603
  | PowerPC603Plus
  | PowerPC604
  | PowerPC620
  | PowerPCX704
  | PowerPC750
  | IntelCoreDuoProcessor
  | IntelCoreDuoMobileProcessor
  | IntelCoreSoloMobileProcessor
  | IntelAtomProcessor
  | IntelCoreMProcessor
  | IntelCoreM3Processor
  | IntelCoreM5Processor
  | IntelCoreM7Processor
  | AlphaFamily
  | Alpha21064
  | Alpha21066
  | Alpha21164
  | Alpha21164PC
  | Alpha21164a
  | Alpha21264
  | Alpha21364
  | AMDTurionIIUltraDualCoreMobileMProcessorFamily
  | AMDTurionIIDualCoreMobileMProcessorFamily
  | AMDAthlonIIDualCoreMProcessorFamily
  | AMDOpteron6100SeriesProcessor
  | AMDOpteron4100SeriesProcessor
  | AMDOpteron6200SeriesProcessor
  | AMDOpteron4200SeriesProcessor
  | AMDFXSeriesProcessor
  | MIPSFamily
  | MIPSR4000
  | MIPSR4200
  | MIPSR4400
  | MIPSR4600
  | MIPSR10000
  | AMDCSeriesProcessor
  | AMDESeriesProcessor
  | AMDASeriesProcessor
  | AMDGSeriesProcessor
  | AMDZSeriesProcessor
  | AMDRSeriesProcessor
  | AMDOpteron4300SeriesProcessor
  | AMDOpteron6300SeriesProcessor
  | AMDOpteron3300SeriesProcessor
  | AMDFireProSeriesProcessor
  | SPARCFamily
  | SuperSPARC
  | MicroSPARCII
  | MicroSPARCIIep
  | UltraSPARC
  | UltraSPARCII
  | UltraSPARCIii
  | UltraSPARCIII
  | UltraSPARCIIIi
  | Motorola68040Family
  | Motorola68xxx
  | Motorola68000
  | Motorola68010
  | Motorola68020
  | Motorola68030
  | AMDAthlonX4QuadCoreProcessorFamily
  | AMDOpteronX1000SeriesProcessor
  | AMDOpteronX2000SeriesAPU
  | AMDOpteronASeriesProcessor
  | AMDOpteronX3000SeriesAPU
  | AMDZenProcessorFamily
  | HobbitFamily
  | CrusoeTM5000Family
  | CrusoeTM3000Family
  | EfficeonTM8000Family
  | Weitek
  | AvailableForAssignment
  | ItaniumProcessor
  | AMDAthlon64ProcessorFamily
  | AMDOpteronProcessorFamily
  | AMDSempronProcessorFamily
  | AMDTurion64MobileTechnology
  | DualCoreAMDOpteronProcessorFamily
  | AMDAthlon64X2DualCoreProcessorFamily
  | AMDTurion64X2MobileTechnology
  | QuadCoreAMDOpteronProcessorFamily
  | ThirdGenerationAMDOpteronProcessorFamily
  | AMDPhenomFXQuadCoreProcessorFamily
  | AMDPhenomX4QuadCoreProcessorFamily
  | AMDPhenomX2DualCoreProcessorFamily
  | AMDAthlonX2DualCoreProcessorFamily
  | PARISCFamily
  | PARISC8500
  | PARISC8000
  | PARISC7300LC
  | PARISC7200
  | PARISC7100LC
  | PARISC7100
  | V30Family
  | QuadCoreIntelXeonProcessor3200Series
  | DualCoreIntelXeonProcessor3000Series
  | QuadCoreIntelXeonProcessor5300Series
  | DualCoreIntelXeonProcessor5100Series
  | DualCoreIntelXeonProcessor5000Series
  | DualCoreIntelXeonProcessorLV
  | DualCoreIntelXeonProcessorULV
  | DualCoreIntelXeonProcessor7100Series
  | QuadCoreIntelXeonProcessor5400Series
  | QuadCoreIntelXeonProcessor
  | DualCoreIntelXeonProcessor5200Series
  | DualCoreIntelXeonProcessor7200Series
  | QuadCoreIntelXeonProcessor7300Series
  | QuadCoreIntelXeonProcessor7400Series
  | MultiCoreIntelXeonProcessor7400Series
  | PentiumIIIXeonProcessor
  | PentiumIIIProcessorWithIntelSpeedStepTechnology
  | Pentium4Processor
  | IntelXeonProcessor
  | AS400Family
  | IntelXeonProcessorMP
  | AMDAthlonXPProcessorFamily
  | AMDAthlonMPProcessorFamily
  | IntelItanium2Processor
  | IntelPentiumMProcessor
  | IntelCeleronDProcessor
  | IntelPentiumDProcessor
  | IntelPentiumProcessorExtremeEdition
  | IntelCoreSoloProcessor
  | Ambiguous
  | IntelCore2DuoProcessor
  | IntelCore2SoloProcessor
  | IntelCore2ExtremeProcessor
  | IntelCore2QuadProcessor
  | IntelCore2ExtremeMobileProcessor
  | IntelCore2DuoMobileProcessor
  | IntelCore2SoloMobileProcessor
  | IntelCoreI7Processor
  | DualCoreIntelCeleronProcessor
  | IBM390Family
  | G4
  | G5
  | ESA390G6
  | ZArchitectureBase
  | IntelCoreI5Processor
  | IntelCoreI3Processor
  | IntelCoreI9Processor
  | VIAC7MProcessorFamily
  | VIAC7DProcessorFamily
  | VIAC7ProcessorFamily
  | VIAEdenProcessorFamily
  | MultiCoreIntelXeonProcessor
  | DualCoreIntelXeonProcessor3xxxSeries
  | QuadCoreIntelXeonProcessor3xxxSeries
  | VIANanoProcessorFamily
  | DualCoreIntelXeonProcessor5xxxSeries
  | QuadCoreIntelXeonProcessor5xxxSeries
  | DualCoreIntelXeonProcessor7xxxSeries
  | QuadCoreIntelXeonProcessor7xxxSeries
  | MultiCoreIntelXeonProcessor7xxxSeries
  | MultiCoreIntelXeonProcessor3400Series
  | AMDOpteron3000SeriesProcessor
  | AMDSempronIIProcessor
  | EmbeddedAMDOpteronQuadCoreProcessorFamily
  | AMDPhenomTripleCoreProcessorFamily
  | AMDTurionUltraDualCoreMobileProcessorFamily
  | AMDTurionDualCoreMobileProcessorFamily
  | AMDAthlonDualCoreProcessorFamily
  | AMDSempronSIProcessorFamily
  | AMDPhenomIIProcessorFamily
  | AMDAthlonIIProcessorFamily
  | SixCoreAMDOpteronProcessorFamily
  | AMDSempronMProcessorFamily
  | I860
  | I960
  | ARMv7
  | ARMv8
  | ARMv9
  | SH3
  | SH4
  | ARM
  | StrongARM
  | Cyrix6x86
  | MediaGX
  | MII
  | WinChip
  | DSP
  | VideoProcessor
  | RISCVRV32
  | RISCVRV64
  | RISCVRV128
  | Available (v : UInt16)
  | NotUsed (v : UInt16)
  | ForFutureUse
  | ProcessorFamily2
  | OutOfSpec
deriving DecidableEq, Repr

/-- Arms 193 onwards of `processor.ProcessorFamily.ofU16`. -/
def processor.ProcessorFamily.ofU16_3 (b : UInt16) : processor.ProcessorFamily :=
  let n := b.toNat
  if n = 0xDD then .DualCoreIntelXeonProcessor7xxxSeries
  else if n = 0xDE then .QuadCoreIntelXeonProcessor7xxxSeries
  else if n = 0xDF then .MultiCoreIntelXeonProcessor7xxxSeries
  else if n = 0xE0 then .MultiCoreIntelXeonProcessor3400Series
  else if 0xE1 ≤ n ∧ n ≤ 0xE3 then .Available b
  else if n = 0xE4 then .AMDOpteron3000SeriesProcessor
  else if n = 0xE5 then .AMDSempronIIProcessor
  else if n = 0xE6 then .EmbeddedAMDOpteronQuadCoreProcessorFamily
  else if n = 0xE7 then .AMDPhenomTripleCoreProcessorFamily
  else if n = 0xE8 then .AMDTurionUltraDualCoreMobileProcessorFamily
  else if n = 0xE9 then .AMDTurionDualCoreMobileProcessorFamily
  else if n = 0xEA then .AMDAthlonDualCoreProcessorFamily
  else if n = 0xEB then .AMDSempronSIProcessorFamily
  else if n = 0xEC then .AMDPhenomIIProcessorFamily
  else if n = 0xED then .AMDAthlonIIProcessorFamily
  else if n = 0xEE then .SixCoreAMDOpteronProcessorFamily
  else if n = 0xEF then .AMDSempronMProcessorFamily
  else if 0xF0 ≤ n ∧ n ≤ 0xF9 then .Available b
  else if n = 0xFA then .I860
  else if n = 0xFB then .I960
  else if 0xFC ≤ n ∧ n ≤ 0xFD then .Available b
  else if n = 0xFE then .ProcessorFamily2
  else if n = 0xFF then .NotUsed b
  else if n = 0x100 then .ARMv7
  else if n = 0x101 then .ARMv8
  else if n = 0x102 then .ARMv9
  else if n = 0x103 then .Available 0x103
  else if n = 0x104 then .SH3
  else if n = 0x105 then .SH4
  else if 0x106 ≤ n ∧ n ≤ 0x117 then .Available b
  else if n = 0x118 then .ARM
  else if n = 0x119 then .StrongARM
  else if 0x11A ≤ n ∧ n ≤ 0x12B then .Available b
  else if n = 0x12C then .Cyrix6x86
  else if n = 0x12D then .MediaGX
  else if n = 0x12E then .MII
  else if 0x12F ≤ n ∧ n ≤ 0x13F then .Available b
  else if n = 0x140 then .WinChip
  else if 0x141 ≤ n ∧ n ≤ 0x15D then .Available b
  else if n = 0x15E then .DSP
  else if 0x15F ≤ n ∧ n ≤ 0x1F3 then .Available b
  else if n = 0x1F4 then .VideoProcessor
  else if 0x1F5 ≤ n ∧ n ≤ 0x1FF then .Available b
  else if n = 0x200 then .RISCVRV32
  else if n = 0x201 then .RISCVRV64
  else if n = 0x202 then .RISCVRV128
  else if 0x203 ≤ n ∧ n ≤ 0xFFFD then .Available b
  else if n = 0xFFFE then .ForFutureUse
  else .NotUsed b -- last arm of an exhaustive match: n = 0xFFFF

/-- Arms 129 onwards of `processor.ProcessorFamily.ofU16`. -/
def processor.ProcessorFamily.ofU16_2 (b : UInt16) : processor.ProcessorFamily :=
  let n := b.toNat
  if n = 0x94 then .PARISC7200
  else if n = 0x95 then .PARISC7100LC
  else if n = 0x96 then .PARISC7100
  else if 0x97 ≤ n ∧ n ≤ 0x9F then .Available b
  else if n = 0xA0 then .V30Family
  else if n = 0xA1 then .QuadCoreIntelXeonProcessor3200Series
  else if n = 0xA2 then .DualCoreIntelXeonProcessor3000Series
  else if n = 0xA3 then .QuadCoreIntelXeonProcessor5300Series
  else if n = 0xA4 then .DualCoreIntelXeonProcessor5100Series
  else if n = 0xA5 then .DualCoreIntelXeonProcessor5000Series
  else if n = 0xA6 then .DualCoreIntelXeonProcessorLV
  else if n = 0xA7 then .DualCoreIntelXeonProcessorULV
  else if n = 0xA8 then .DualCoreIntelXeonProcessor7100Series
  else if n = 0xA9 then .QuadCoreIntelXeonProcessor5400Series
  else if n = 0xAA then .QuadCoreIntelXeonProcessor
  else if n = 0xAB then .DualCoreIntelXeonProcessor5200Series
  else if n = 0xAC then .DualCoreIntelXeonProcessor7200Series
  else if n = 0xAD then .QuadCoreIntelXeonProcessor7300Series
  else if n = 0xAE then .QuadCoreIntelXeonProcessor7400Series
  else if n = 0xAF then .MultiCoreIntelXeonProcessor7400Series
  else if n = 0xB0 then .PentiumIIIXeonProcessor
  else if n = 0xB1 then .PentiumIIIProcessorWithIntelSpeedStepTechnology
  else if n = 0xB2 then .Pentium4Processor
  else if n = 0xB3 then .IntelXeonProcessor
  else if n = 0xB4 then .AS400Family
  else if n = 0xB5 then .IntelXeonProcessorMP
  else if n = 0xB6 then .AMDAthlonXPProcessorFamily
  else if n = 0xB7 then .AMDAthlonMPProcessorFamily
  else if n = 0xB8 then .IntelItanium2Processor
  else if n = 0xB9 then .IntelPentiumMProcessor
  else if n = 0xBA then .IntelCeleronDProcessor
  else if n = 0xBB then .IntelPentiumDProcessor
  else if n = 0xBC then .IntelPentiumProcessorExtremeEdition
  else if n = 0xBD then .IntelCoreSoloProcessor
  else if n = 0xBE then .Ambiguous
  else if n = 0xBF then .IntelCore2DuoProcessor
  else if n = 0xC0 then .IntelCore2SoloProcessor
  else if n = 0xC1 then .IntelCore2ExtremeProcessor
  else if n = 0xC2 then .IntelCore2QuadProcessor
  else if n = 0xC3 then .IntelCore2ExtremeMobileProcessor
  else if n = 0xC4 then .IntelCore2DuoMobileProcessor
  else if n = 0xC5 then .IntelCore2SoloMobileProcessor
  else if n = 0xC6 then .IntelCoreI7Processor
  else if n = 0xC7 then .DualCoreIntelCeleronProcessor
  else if n = 0xC8 then .IBM390Family
  else if n = 0xC9 then .G4
  else if n = 0xCA then .G5
  else if n = 0xCB then .ESA390G6
  else if n = 0xCC then .ZArchitectureBase
  else if n = 0xCD then .IntelCoreI5Processor
  else if n = 0xCE then .IntelCoreI3Processor
  else if n = 0xCF then .IntelCoreI9Processor
  else if 0xD0 ≤ n ∧ n ≤ 0xD1 then .Available b
  else if n = 0xD2 then .VIAC7MProcessorFamily
  else if n = 0xD3 then .VIAC7DProcessorFamily
  else if n = 0xD4 then .VIAC7ProcessorFamily
  else if n = 0xD5 then .VIAEdenProcessorFamily
  else if n = 0xD6 then .MultiCoreIntelXeonProcessor
  else if n = 0xD7 then .DualCoreIntelXeonProcessor3xxxSeries
  else if n = 0xD8 then .QuadCoreIntelXeonProcessor3xxxSeries
  else if n = 0xD9 then .VIANanoProcessorFamily
  else if n = 0xDA then .DualCoreIntelXeonProcessor5xxxSeries
  else if n = 0xDB then .QuadCoreIntelXeonProcessor5xxxSeries
  else if n = 0xDC then .Available b
  else processor.ProcessorFamily.ofU16_3 b

/-- Arms 65 onwards of `processor.ProcessorFamily.ofU16`. -/
def processor.ProcessorFamily.ofU16_1 (b : UInt16) : processor.ProcessorFamily :=
  let n := b.toNat
  if n = 0x41 then .MIPSR4000
  else if n = 0x42 then .MIPSR4200
  else if n = 0x43 then .MIPSR4400
  else if n = 0x44 then .MIPSR4600
  else if n = 0x45 then .MIPSR10000
  else if n = 0x46 then .AMDCSeriesProcessor
  else if n = 0x47 then .AMDESeriesProcessor
  else if n = 0x48 then .AMDASeriesProcessor
  else if n = 0x49 then .AMDGSeriesProcessor
  else if n = 0x4A then .AMDZSeriesProcessor
  else if n = 0x4B then .AMDRSeriesProcessor
  else if n = 0x4C then .AMDOpteron4300SeriesProcessor
  else if n = 0x4D then .AMDOpteron6300SeriesProcessor
  else if n = 0x4E then .AMDOpteron3300SeriesProcessor
  else if n = 0x4F then .AMDFireProSeriesProcessor
  else if n = 0x50 then .SPARCFamily
  else if n = 0x51 then .SuperSPARC
  else if n = 0x52 then .MicroSPARCII
  else if n = 0x53 then .MicroSPARCIIep
  else if n = 0x54 then .UltraSPARC
  else if n = 0x55 then .UltraSPARCII
  else if n = 0x56 then .UltraSPARCIii
  else if n = 0x57 then .UltraSPARCIII
  else if n = 0x58 then .UltraSPARCIIIi
  else if 0x59 ≤ n ∧ n ≤ 0x5F then .Available b
  else if n = 0x60 then .Motorola68040Family
  else if n = 0x61 then .Motorola68xxx
  else if n = 0x62 then .Motorola68000
  else if n = 0x63 then .Motorola68010
  else if n = 0x64 then .Motorola68020
  else if n = 0x65 then .Motorola68030
  else if n = 0x66 then .AMDAthlonX4QuadCoreProcessorFamily
  else if n = 0x67 then .AMDOpteronX1000SeriesProcessor
  else if n = 0x68 then .AMDOpteronX2000SeriesAPU
  else if n = 0x69 then .AMDOpteronASeriesProcessor
  else if n = 0x6A then .AMDOpteronX3000SeriesAPU
  else if n = 0x6B then .AMDZenProcessorFamily
  else if 0x6C ≤ n ∧ n ≤ 0x6F then .Available b
  else if n = 0x70 then .HobbitFamily
  else if 0x71 ≤ n ∧ n ≤ 0x77 then .Available b
  else if n = 0x78 then .CrusoeTM5000Family
  else if n = 0x79 then .CrusoeTM3000Family
  else if n = 0x7A then .EfficeonTM8000Family
  else if 0x7B ≤ n ∧ n ≤ 0x7F then .Available b
  else if n = 0x80 then .Weitek
  else if n = 0x81 then .Available b
  else if n = 0x82 then .ItaniumProcessor
  else if n = 0x83 then .AMDAthlon64ProcessorFamily
  else if n = 0x84 then .AMDOpteronProcessorFamily
  else if n = 0x85 then .AMDSempronProcessorFamily
  else if n = 0x86 then .AMDTurion64MobileTechnology
  else if n = 0x87 then .DualCoreAMDOpteronProcessorFamily
  else if n = 0x88 then .AMDAthlon64X2DualCoreProcessorFamily
  else if n = 0x89 then .AMDTurion64X2MobileTechnology
  else if n = 0x8A then .QuadCoreAMDOpteronProcessorFamily
  else if n = 0x8B then .ThirdGenerationAMDOpteronProcessorFamily
  else if n = 0x8C then .AMDPhenomFXQuadCoreProcessorFamily
  else if n = 0x8D then .AMDPhenomX4QuadCoreProcessorFamily
  else if n = 0x8E then .AMDPhenomX2DualCoreProcessorFamily
  else if n = 0x8F then .AMDAthlonX2DualCoreProcessorFamily
  else if n = 0x90 then .PARISCFamily
  else if n = 0x91 then .PARISC8500
  else if n = 0x92 then .PARISC8000
  else if n = 0x93 then .PARISC7300LC
  else processor.ProcessorFamily.ofU16_2 b

/-- `impl From<u16> for ProcessorFamily`, `src/structures/004_processor.rs` 831-1077. -/
def processor.ProcessorFamily.ofU16 (b : UInt16) : processor.ProcessorFamily :=
  let n := b.toNat
  if n = 0x00 then .OutOfSpec
  else if n = 0x01 then .Other
  else if n = 0x02 then .Unknown
  else if n = 0x03 then .Intel8086
  else if n = 0x04 then .Intel80286
  else if n = 0x05 then .Intel386Processor
  else if n = 0x06 then .Intel486Processor
  else if n = 0x07 then .Intel8087
  else if n = 0x08 then .Intel80287
  else if n = 0x09 then .Intel80387
  else if n = 0x0A then .Intel80487
  else if n = 0x0B then .IntelPentiumProcessor
  else if n = 0x0C then .PentiumProProcessor
  else if n = 0x0D then .PentiumIIProcessor
  else if n = 0x0E then .PentiumProcessorWithMMXTechnology
  else if n = 0x0F then .IntelCeleronProcessor
  else if n = 0x10 then .PentiumIIXeonProcessor
  else if n = 0x11 then .PentiumIIIProcessor
  else if n = 0x12 then .M1Family
  else if n = 0x13 then .M2Family
  else if n = 0x14 then .IntelCeleronMProcessor
  else if n = 0x15 then .IntelPentium4HTProcessor
  else if 0x16 ≤ n ∧ n ≤ 0x17 then .Available b
  else if n = 0x18 then .AMDDuronProcessorFamily
  else if n = 0x19 then .K5Family
  else if n = 0x1A then .K6Family
  else if n = 0x1B then .K62
  else if n = 0x1C then .K63
  else if n = 0x1D then .AMDAthlonProcessorFamily
  else if n = 0x1E then .AMD29000Family
  else if n = 0x1F then .K62Plus
  else if n = 0x20 then .PowerPCFamily
  else if n = 0x21 then .PowerPC601
  else if n = 0x22 then .PowerPC603
  else if n = 0x23 then .PowerPC603Plus
  else if n = 0x24 then .PowerPC604
  else if n = 0x25 then .PowerPC620
  else if n = 0x26 then .PowerPCX704
  else if n = 0x27 then .PowerPC750
  else if n = 0x28 then .IntelCoreDuoProcessor
  else if n = 0x29 then .IntelCoreDuoMobileProcessor
  else if n = 0x2A then .IntelCoreSoloMobileProcessor
  else if n = 0x2B then .IntelAtomProcessor
  else if n = 0x2C then .IntelCoreMProcessor
  else if n = 0x2D then .IntelCoreM3Processor
  else if n = 0x2E then .IntelCoreM5Processor
  else if n = 0x2F then .IntelCoreM7Processor
  else if n = 0x30 then .AlphaFamily
  else if n = 0x31 then .Alpha21064
  else if n = 0x32 then .Alpha21066
  else if n = 0x33 then .Alpha21164
  else if n = 0x34 then .Alpha21164PC
  else if n = 0x35 then .Alpha21164a
  else if n = 0x36 then .Alpha21264
  else if n = 0x37 then .Alpha21364
  else if n = 0x38 then .AMDTurionIIUltraDualCoreMobileMProcessorFamily
  else if n = 0x39 then .AMDTurionIIDualCoreMobileMProcessorFamily
  else if n = 0x3A then .AMDAthlonIIDualCoreMProcessorFamily
  else if n = 0x3B then .AMDOpteron6100SeriesProcessor
  else if n = 0x3C then .AMDOpteron4100SeriesProcessor
  else if n = 0x3D then .AMDOpteron6200SeriesProcessor
  else if n = 0x3E then .AMDOpteron4200SeriesProcessor
  else if n = 0x3F then .AMDFXSeriesProcessor
  else if n = 0x40 then .MIPSFamily
  else processor.ProcessorFamily.ofU16_1 b

/-- `ProcessorUpgrade`, `src/structures/004_processor.rs` 404-468. -/
inductive processor.ProcessorUpgrade where
  | Other
  | Unknown
  | DaughterBoard
  | ZIFSocket
  | ReplaceablePiggyBack
  | None
  | LIFSocket
  | Slot1
  | Slot2
  | Socket370
  | SlotA
  | SlotM
  | Socket423
  | SocketA
  | Socket478
  | Socket754
  | Socket940
  | Socket939
  | SocketmPGA604
  | SocketLGA771
  | SocketLGA775
  | SocketS1
  | SocketAM2
  | SocketF
  | SocketLGA1366
  | SocketG34
  | SocketAM3
  | SocketC32
  | SocketLGA1156
  | SocketLGA1567
  | SocketPGA988A
  | SocketBGA1288
  | SocketrPGA988B
  | SocketBGA1023
  | SocketBGA1224
  | SocketLGA1155
  | SocketLGA1356
  | SocketLGA2011
  | SocketFS1
  | SocketFS2
  | SocketFM1
  | SocketFM2
  | SocketLGA2011Three
  | SocketLGA1356Three
  | SocketLGA1150
  | SocketBGA1168
  | SocketBGA1234
  | SocketBGA1364
  | SocketAM4
  | SocketLGA1151
  | SocketBGA1356
  | SocketBGA1440
  | SocketBGA1515
  | SocketLGA3647
  | SocketSP3
  | SocketSP3r2
  | SocketLGA2066
  | SocketBGA1392
  | SocketBGA1510
  | SocketBGA1528
  | SocketLGA4189
  | SocketLGA1200
  | Undefined (v : UInt8)
deriving DecidableEq, Repr

/-- `impl From<u8> for ProcessorUpgrade`, `src/structures/004_processor.rs` 1511-1579. -/
def processor.ProcessorUpgrade.ofU8 (b : UInt8) : processor.ProcessorUpgrade :=
  let n := b.toNat
  if n = 0x01 then .Other
  else if n = 0x02 then .Unknown
  else if n = 0x03 then .DaughterBoard
  else if n = 0x04 then .ZIFSocket
  else if n = 0x05 then .ReplaceablePiggyBack
  else if n = 0x06 then .None
  else if n = 0x07 then .LIFSocket
  else if n = 0x08 then .Slot1
  else if n = 0x09 then .Slot2
  else if n = 0x0a then .Socket370
  else if n = 0x0b then .SlotA
  else if n = 0x0c then .SlotM
  else if n = 0x0d then .Socket423
  else if n = 0x0e then .SocketA
  else if n = 0x0f then .Socket478
  else if n = 0x10 then .Socket754
  else if n = 0x11 then .Socket940
  else if n = 0x12 then .Socket939
  else if n = 0x13 then .SocketmPGA604
  else if n = 0x14 then .SocketLGA771
  else if n = 0x15 then .SocketLGA775
  else if n = 0x16 then .SocketS1
  else if n = 0x17 then .SocketAM2
  else if n = 0x18 then .SocketF
  else if n = 0x19 then .SocketLGA1366
  else if n = 0x1a then .SocketG34
  else if n = 0x1b then .SocketAM3
  else if n = 0x1c then .SocketC32
  else if n = 0x1d then .SocketLGA1156
  else if n = 0x1e then .SocketLGA1567
  else if n = 0x1f then .SocketPGA988A
  else if n = 0x20 then .SocketBGA1288
  else if n = 0x21 then .SocketrPGA988B
  else if n = 0x22 then .SocketBGA1023
  else if n = 0x23 then .SocketBGA1224
  else if n = 0x24 then .SocketLGA1155
  else if n = 0x25 then .SocketLGA1356
  else if n = 0x26 then .SocketLGA2011
  else if n = 0x27 then .SocketFS1
  else if n = 0x28 then .SocketFS2
  else if n = 0x29 then .SocketFM1
  else if n = 0x2a then .SocketFM2
  else if n = 0x2b then .SocketLGA2011Three
  else if n = 0x2c then .SocketLGA1356Three
  else if n = 0x2d then .SocketLGA1150
  else if n = 0x2e then .SocketBGA1168
  else if n = 0x2f then .SocketBGA1234
  else if n = 0x30 then .SocketBGA1364
  else if n = 0x31 then .SocketAM4
  else if n = 0x32 then .SocketLGA1151
  else if n = 0x33 then .SocketBGA1356
  else if n = 0x34 then .SocketBGA1440
  else if n = 0x35 then .SocketBGA1515
  else if n = 0x36 then .SocketLGA3647
  else if n = 0x37 then .SocketSP3
  else if n = 0x38 then .SocketSP3r2
  else if n = 0x39 then .SocketLGA2066
  else if n = 0x3a then .SocketBGA1392
  else if n = 0x3b then .SocketBGA1510
  else if n = 0x3c then .SocketBGA1528
  else if n = 0x3d then .SocketLGA4189
  else if n = 0x3e then .SocketLGA1200
  else .Undefined b

/-- `CacheLevel`, `src/structures/007_cache.rs` 67-76. -/
inductive cache.CacheLevel where
  | L1
  | L2
  | L3
  | L4
  | L5
  | L6
  | L7
  | L8
deriving DecidableEq, Repr

/-- `impl From<u16> for CacheLevel`, `src/structures/007_cache.rs` 305-319. -/
def cache.CacheLevel.ofU16 {ε : Type} (b : UInt16) : Res ε cache.CacheLevel :=
  let n := b.toNat
  if n = 0 then .ok .L1
  else if n = 1 then .ok .L2
  else if n = 2 then .ok .L3
  else if n = 3 then .ok .L4
  else if n = 4 then .ok .L5
  else if n = 5 then .ok .L6
  else if n = 6 then .ok .L7
  else if n = 7 then .ok .L8
  else .panic

/-- `CacheLocation`, `src/structures/007_cache.rs` 79-84. -/
inductive cache.CacheLocation where
  | Internal
  | External
  | Reserved
  | Unknown
deriving DecidableEq, Repr

/-- `impl From<u16> for CacheLocation`, `src/structures/007_cache.rs` 335-345. -/
def cache.CacheLocation.ofU16 {ε : Type} (b : UInt16) : Res ε cache.CacheLocation :=
  let n := b.toNat
  if n = 0 then .ok .Internal
  else if n = 1 then .ok .External
  else if n = 2 then .ok .Reserved
  else if n = 3 then .ok .Unknown
  else .panic

/-- `CacheOperationalMode`, `src/structures/007_cache.rs` 87-92. -/
inductive cache.CacheOperationalMode where
  | WriteThrough
  | WriteBack
  | ValuesWithMemoryAddress
  | Unknown
deriving DecidableEq, Repr

/-- `impl From<u16> for CacheOperationalMode`, `src/structures/007_cache.rs` 357-367. -/
def cache.CacheOperationalMode.ofU16 {ε : Type} (b : UInt16) : Res ε cache.CacheOperationalMode :=
  let n := b.toNat
  if n = 0 then .ok .WriteThrough
  else if n = 1 then .ok .WriteBack
  else if n = 2 then .ok .ValuesWithMemoryAddress
  else if n = 3 then .ok .Unknown
  else .panic

/-- `CacheErrorCorrectionType`, `src/structures/007_cache.rs` 117-125. -/
inductive cache.CacheErrorCorrectionType where
  | Other
  | Unknown
  | None
  | Parity
  | SingleBitEcc
  | MultiBitEcc
  | Undefined (v : UInt8)
deriving DecidableEq, Repr

/-- `impl From<u8> for CacheErrorCorrectionType`, `src/structures/007_cache.rs` 379-391. -/
def cache.CacheErrorCorrectionType.ofU8 (b : UInt8) : cache.CacheErrorCorrectionType :=
  let n := b.toNat
  if n = 0x01 then .Other
  else if n = 0x02 then .Unknown
  else if n = 0x03 then .None
  else if n = 0x04 then .Parity
  else if n = 0x05 then .SingleBitEcc
  else if n = 0x06 then .MultiBitEcc
  else .Undefined b

/-- `SystemCacheType`, `src/structures/007_cache.rs` 133-140. -/
inductive cache.SystemCacheType where
  | Other
  | Unknown
  | Instruction
  | Data
  | Unified
  | Undefined (v : UInt8)
deriving DecidableEq, Repr

/-- `impl From<u8> for SystemCacheType`, `src/structures/007_cache.rs` 406-417. -/
def cache.SystemCacheType.ofU8 (b : UInt8) : cache.SystemCacheType :=
  let n := b.toNat
  if n = 0x01 then .Other
  else if n = 0x02 then .Unknown
  else if n = 0x03 then .Instruction
  else if n = 0x04 then .Data
  else if n = 0x05 then .Unified
  else .Undefined b

/-- `CacheAssociativity`, `src/structures/007_cache.rs` 144-160. -/
inductive cache.CacheAssociativity where
  | Other
  | Unknown
  | DirectMapped
  | TwowaySetAssociative
  | FourWaySetAssociative
  | FullyAssociative
  | EightWaySetAssociative
  | SixteenWaySetAssociative
  | TwelveWaySetAssociative
  | TwentyFourWaySetAssociative
  | ThirtyTwoWaySetAssociative
  | FourtyEightWaySetAssociative
  | SixtyFourWaySetAssociative
  | TwentyWaySetAssociative
  | Undefined (v : UInt8)
deriving DecidableEq, Repr

/-- `impl From<u8> for CacheAssociativity`, `src/structures/007_cache.rs` 431-451. -/
def cache.CacheAssociativity.ofU8 (b : UInt8) : cache.CacheAssociativity :=
  let n := b.toNat
  if n = 0x01 then .Other
  else if n = 0x02 then .Unknown
  else if n = 0x03 then .DirectMapped
  else if n = 0x04 then .TwowaySetAssociative
  else if n = 0x05 then .FourWaySetAssociative
  else if n = 0x06 then .FullyAssociative
  else if n = 0x07 then .EightWaySetAssociative
  else if n = 0x08 then .SixteenWaySetAssociative
  else if n = 0x09 then .TwelveWaySetAssociative
  else if n = 0x0A then .TwentyFourWaySetAssociative
  else if n = 0x0B then .ThirtyTwoWaySetAssociative
  else if n = 0x0C then .FourtyEightWaySetAssociative
  else if n = 0x0D then .SixtyFourWaySetAssociative
  else if n = 0x0E then .TwentyWaySetAssociative
  else .Undefined b

/-- `ConnectorType`, `src/structures/008_port_connector.rs` 38-82. -/
inductive port_connector.ConnectorType where
  | None
  | Centronics
  | MiniCentronics
  | Proprietary
  | Db25PinMale
  | Db25PinFemale
  | Db15PinMale
  | Db15PinFemale
  | Db9PinMale
  | Db9PinFemale
  | Rj11
  | Rj45
  | MiniScsi
  | MiniDin
  | MicroDin
  | Ps2
  | Infrared
  | HpHil
  | AccessBus
  | SsaScsi
  | CircularDin8Male
  | CircularDin8Female
  | OnBoardIde
  | OnBoardFloppy
  | DualInline9
  | DualInline25
  | DualInline50
  | DualInline68
  | OnBoardSoundInputFromCdRom
  | MiniCentronicsType14
  | MiniCentronicsType26
  | MiniJack
  | Bnc
  | Ieee1394
  | SasSataPlugReceptacle
  | UsbTypeCReceptacle
  | Pc98
  | Pc98Hireso
  | PcH98
  | Pc98Note
  | Pc98Full
  | Other
  | Undefined (v : UInt8)
deriving DecidableEq, Repr

/-- `impl From<u8> for ConnectorType`, `src/structures/008_port_connector.rs` 152-200. -/
def port_connector.ConnectorType.ofU8 (b : UInt8) : port_connector.ConnectorType :=
  let n := b.toNat
  if n = 0x00 then .None
  else if n = 0x01 then .Centronics
  else if n = 0x02 then .MiniCentronics
  else if n = 0x03 then .Proprietary
  else if n = 0x04 then .Db25PinMale
  else if n = 0x05 then .Db25PinFemale
  else if n = 0x06 then .Db15PinMale
  else if n = 0x07 then .Db15PinFemale
  else if n = 0x08 then .Db9PinMale
  else if n = 0x09 then .Db9PinFemale
  else if n = 0x0A then .Rj11
  else if n = 0x0B then .Rj45
  else if n = 0x0C then .MiniScsi
  else if n = 0x0D then .MiniDin
  else if n = 0x0E then .MicroDin
  else if n = 0x0F then .Ps2
  else if n = 0x10 then .Infrared
  else if n = 0x11 then .HpHil
  else if n = 0x12 then .AccessBus
  else if n = 0x13 then .SsaScsi
  else if n = 0x14 then .CircularDin8Male
  else if n = 0x15 then .CircularDin8Female
  else if n = 0x16 then .OnBoardIde
  else if n = 0x17 then .OnBoardFloppy
  else if n = 0x18 then .DualInline9
  else if n = 0x19 then .DualInline25
  else if n = 0x1A then .DualInline50
  else if n = 0x1B then .DualInline68
  else if n = 0x1C then .OnBoardSoundInputFromCdRom
  else if n = 0x1D then .MiniCentronicsType14
  else if n = 0x1E then .MiniCentronicsType26
  else if n = 0x1F then .MiniJack
  else if n = 0x20 then .Bnc
  else if n = 0x21 then .Ieee1394
  else if n = 0x22 then .SasSataPlugReceptacle
  else if n = 0x23 then .UsbTypeCReceptacle
  else if n = 0xA0 then .Pc98
  else if n = 0xA1 then .Pc98Hireso
  else if n = 0xA2 then .PcH98
  else if n = 0xA3 then .Pc98Note
  else if n = 0xA4 then .Pc98Full
  else if n = 0xFF then .Other
  else .Undefined b

/-- `PortType`, `src/structures/008_port_connector.rs` 85-126. -/
inductive port_connector.PortType where
  | None
  | ParallelPortXtAtCompatible
  | ParallelPortPs2
  | ParallelPortEcp
  | ParallelPortEpp
  | ParallelPortEcpEpp
  | SerialPortXtAtCompatible
  | SerialPort16450Compatible
  | SerialPort16550Compatible
  | SerialPort16550ACompatible
  | ScsiPort
  | MidiPort
  | JoyStickPort
  | KeyboardPort
  | MousePort
  | SsaScsi
  | Usb
  | FireWire
  | PcmciaType1
  | PcmciaType2
  | PcmciaType3
  | Cardbus
  | AccessBusPort
  | Scsi2
  | ScsiWide
  | Pc98
  | Pc98Hireso
  | PcH98
  | VideoPort
  | AudioPort
  | ModemPort
  | NetworkPort
  | Sata
  | Sas
  | MultiFunctionDisplayPort
  | Thunderbolt
  | Intel8251Compatible
  | Intel8251FifoCompatible
  | Other
  | Undefined (v : UInt8)
deriving DecidableEq, Repr

/-- `impl From<u8> for PortType`, `src/structures/008_port_connector.rs` 251-296. -/
def port_connector.PortType.ofU8 (b : UInt8) : port_connector.PortType :=
  let n := b.toNat
  if n = 0x00 then .None
  else if n = 0x01 then .ParallelPortXtAtCompatible
  else if n = 0x02 then .ParallelPortPs2
  else if n = 0x03 then .ParallelPortEcp
  else if n = 0x04 then .ParallelPortEpp
  else if n = 0x05 then .ParallelPortEcpEpp
  else if n = 0x06 then .SerialPortXtAtCompatible
  else if n = 0x07 then .SerialPort16450Compatible
  else if n = 0x08 then .SerialPort16550Compatible
  else if n = 0x09 then .SerialPort16550ACompatible
  else if n = 0x0A then .ScsiPort
  else if n = 0x0B then .MidiPort
  else if n = 0x0C then .JoyStickPort
  else if n = 0x0D then .KeyboardPort
  else if n = 0x0E then .MousePort
  else if n = 0x0F then .SsaScsi
  else if n = 0x10 then .Usb
  else if n = 0x11 then .FireWire
  else if n = 0x12 then .PcmciaType1
  else if n = 0x13 then .PcmciaType2
  else if n = 0x14 then .PcmciaType3
  else if n = 0x15 then .Cardbus
  else if n = 0x16 then .AccessBusPort
  else if n = 0x17 then .Scsi2
  else if n = 0x18 then .ScsiWide
  else if n = 0x19 then .Pc98
  else if n = 0x1A then .Pc98Hireso
  else if n = 0x1B then .PcH98
  else if n = 0x1C then .VideoPort
  else if n = 0x1D then .AudioPort
  else if n = 0x1E then .ModemPort
  else if n = 0x1F then .NetworkPort
  else if n = 0x20 then .Sata
  else if n = 0x21 then .Sas
  else if n = 0x22 then .MultiFunctionDisplayPort
  else if n = 0x23 then .Thunderbolt
  else if n = 0xA0 then .Intel8251Compatible
  else if n = 0xA1 then .Intel8251FifoCompatible
  else if n = 0xFF then .Other
  else .Undefined b

/-- `SlotType`, `src/structures/009_system_slots.rs` 73-235. -/
inductive system_slots.SlotType where
  | Other
  | Unknown
  | Isa
  | Mca
  | Eisa
  | Pci
  | PcCard
  | VlVesa
  | Proprietary
  | ProcessorCardSlot
  | ProprietaryMemoryCardSlot
  | IoRiserCardSlot
  | Nubus
  | Pci66Mhz
  | Agp
  | Agp2x
  | Agp4x
  | PciX
  | Agp8x
  | M2Socket1DP
  | M2Socket1SD
  | M2Socket2
  | M2Socket3
  | MxmType1
  | MxmType2
  | MxmType3
  | MxmType3He
  | MxmType4
  | Mxm3TypeA
  | Mxm3TypeB
  | U2PciExpressGen2
  | U2PciExpressGen3
  | PciExpressMini52pin1
  | PciExpressMini52pin2
  | PciExpressMini76pin
  | U2PciExpressGen4
  | U2PciExpressGen5
  | OcpNic3Small
  | OcpNic3Large
  | OcpNicPriorTo3
  | CxlFlexbus1
  | Pc98C20
  | Pc98C24
  | Pc98E
  | Pc98LocalBus
  | Pc98Card
  | PciExpress
  | PciExpressX1
  | PciExpressX2
  | PciExpressX4
  | PciExpressX8
  | PciExpressX16
  | PciExpressGen2
  | PciExpressGen2x1
  | PciExpressGen2x2
  | PciExpressGen2x4
  | PciExpressGen2x8
  | PciExpressGen2x16
  | PciExpressGen3
  | PciExpressGen3x1
  | PciExpressGen3x2
  | PciExpressGen3x4
  | PciExpressGen3x8
  | PciExpressGen3x16
  | PciExpressGen4
  | PciExpressGen4x1
  | PciExpressGen4x2
  | PciExpressGen4x4
  | PciExpressGen4x8
  | PciExpressGen4x16
  | PciExpressGen5
  | PciExpressGen5x1
  | PciExpressGen5x2
  | PciExpressGen5x4
  | PciExpressGen5x8
  | PciExpressGen5x16
  | PciExpressGen6
  | E1FormFactorSlot
  | E3FormFactorSlot
  | Undefined (v : UInt8)
deriving DecidableEq, Repr

/-- `impl From<u8> for SlotType`, `src/structures/009_system_slots.rs` 407-492. -/
def system_slots.SlotType.ofU8 (b : UInt8) : system_slots.SlotType :=
  let n := b.toNat
  if n = 0x01 then .Other
  else if n = 0x02 then .Unknown
  else if n = 0x03 then .Isa
  else if n = 0x04 then .Mca
  else if n = 0x05 then .Eisa
  else if n = 0x06 then .Pci
  else if n = 0x07 then .PcCard
  else if n = 0x08 then .VlVesa
  else if n = 0x09 then .Proprietary
  else if n = 0x0A then .ProcessorCardSlot
  else if n = 0x0B then .ProprietaryMemoryCardSlot
  else if n = 0x0C then .IoRiserCardSlot
  else if n = 0x0D then .Nubus
  else if n = 0x0E then .Pci66Mhz
  else if n = 0x0F then .Agp
  else if n = 0x10 then .Agp2x
  else if n = 0x11 then .Agp4x
  else if n = 0x12 then .PciX
  else if n = 0x13 then .Agp8x
  else if n = 0x14 then .M2Socket1DP
  else if n = 0x15 then .M2Socket1SD
  else if n = 0x16 then .M2Socket2
  else if n = 0x17 then .M2Socket3
  else if n = 0x18 then .MxmType1
  else if n = 0x19 then .MxmType2
  else if n = 0x1A then .MxmType3
  else if n = 0x1B then .MxmType3He
  else if n = 0x1C then .MxmType4
  else if n = 0x1D then .Mxm3TypeA
  else if n = 0x1E then .Mxm3TypeB
  else if n = 0x1F then .PciExpressGen2
  else if n = 0x20 then .PciExpressGen3
  else if n = 0x21 then .PciExpressMini52pin1
  else if n = 0x22 then .PciExpressMini52pin2
  else if n = 0x23 then .PciExpressMini76pin
  else if n = 0x24 then .PciExpressGen4
  else if n = 0x25 then .PciExpressGen5
  else if n = 0x26 then .OcpNic3Small
  else if n = 0x27 then .OcpNic3Large
  else if n = 0x28 then .OcpNicPriorTo3
  else if n = 0x30 then .CxlFlexbus1
  else if n = 0xA0 then .Pc98C20
  else if n = 0xA1 then .Pc98C24
  else if n = 0xA2 then .Pc98E
  else if n = 0xA3 then .Pc98LocalBus
  else if n = 0xA4 then .Pc98Card
  else if n = 0xA5 then .PciExpress
  else if n = 0xA6 then .PciExpressX1
  else if n = 0xA7 then .PciExpressX2
  else if n = 0xA8 then .PciExpressX4
  else if n = 0xA9 then .PciExpressX8
  else if n = 0xAA then .PciExpressX16
  else if n = 0xAB then .PciExpressGen2
  else if n = 0xAC then .PciExpressGen2x1
  else if n = 0xAD then .PciExpressGen2x2
  else if n = 0xAE then .PciExpressGen2x4
  else if n = 0xAF then .PciExpressGen2x8
  else if n = 0xB0 then .PciExpressGen2x16
  else if n = 0xB1 then .PciExpressGen3
  else if n = 0xB2 then .PciExpressGen3x1
  else if n = 0xB3 then .PciExpressGen3x2
  else if n = 0xB4 then .PciExpressGen3x4
  else if n = 0xB5 then .PciExpressGen3x8
  else if n = 0xB6 then .PciExpressGen3x16
  else if n = 0xB8 then .PciExpressGen4
  else if n = 0xB9 then .PciExpressGen4x1
  else if n = 0xBA then .PciExpressGen4x2
  else if n = 0xBB then .PciExpressGen4x4
  else if n = 0xBC then .PciExpressGen4x8
  else if n = 0xBD then .PciExpressGen4x16
  else if n = 0xBE then .PciExpressGen5
  else if n = 0xBF then .PciExpressGen5x1
  else if n = 0xC0 then .PciExpressGen5x2
  else if n = 0xC1 then .PciExpressGen5x4
  else if n = 0xC2 then .PciExpressGen5x8
  else if n = 0xC3 then .PciExpressGen5x16
  else if n = 0xC4 then .PciExpressGen6
  else if n = 0xC5 then .E1FormFactorSlot
  else if n = 0xC6 then .E3FormFactorSlot
  else .Undefined b

/-- `SlotWidth`, `src/structures/009_system_slots.rs` 238-266. -/
inductive system_slots.SlotWidth where
  | Other
  | Unknown
  | Byte
  | Word
  | Dword
  | Qword
  | Dqword
  | X1
  | X2
  | X4
  | X8
  | X12
  | X16
  | X32
  | Undefined (v : UInt8)
deriving DecidableEq, Repr

/-- `impl From<u8> for SlotWidth`, `src/structures/009_system_slots.rs` 634-654. -/
def system_slots.SlotWidth.ofU8 (b : UInt8) : system_slots.SlotWidth :=
  let n := b.toNat
  if n = 0x01 then .Other
  else if n = 0x02 then .Unknown
  else if n = 0x03 then .Byte
  else if n = 0x04 then .Word
  else if n = 0x05 then .Dword
  else if n = 0x06 then .Qword
  else if n = 0x07 then .Dqword
  else if n = 0x08 then .X1
  else if n = 0x09 then .X2
  else if n = 0x0A then .X4
  else if n = 0x0B then .X8
  else if n = 0x0C then .X12
  else if n = 0x0D then .X16
  else if n = 0x0E then .X32
  else .Undefined b

/-- `CurrentUsage`, `src/structures/009_system_slots.rs` 269-278. -/
inductive system_slots.CurrentUsage where
  | Other
  | Unknown
  | Available
  | InUse
  | Unavailable
  | Undefined (v : UInt8)
deriving DecidableEq, Repr

/-- `impl From<u8> for CurrentUsage`, `src/structures/009_system_slots.rs` 677-688. -/
def system_slots.CurrentUsage.ofU8 (b : UInt8) : system_slots.CurrentUsage :=
  let n := b.toNat
  if n = 0x01 then .Other
  else if n = 0x02 then .Unknown
  else if n = 0x03 then .Available
  else if n = 0x04 then .InUse
  else if n = 0x05 then .Unavailable
  else .Undefined b

/-- `SlotLength`, `src/structures/009_system_slots.rs` 281-291. -/
inductive system_slots.SlotLength where
  | Other
  | Unknown
  | ShortLength
  | LongLength
  | DriveFormFactor2_5
  | DriveFormFactor3_5
  | Undefined (v : UInt8)
deriving DecidableEq, Repr

/-- `impl From<u8> for SlotLength`, `src/structures/009_system_slots.rs` 709-721. -/
def system_slots.SlotLength.ofU8 (b : UInt8) : system_slots.SlotLength :=
  let n := b.toNat
  if n = 0x01 then .Other
  else if n = 0x02 then .Unknown
  else if n = 0x03 then .ShortLength
  else if n = 0x04 then .LongLength
  else if n = 0x05 then .DriveFormFactor2_5
  else if n = 0x06 then .DriveFormFactor3_5
  else .Undefined b

/-- `LogHeaderFormat`, `src/structures/015_system_event_log/mod.rs` 85-94. -/
inductive system_event_log.LogHeaderFormat where
  | NoHeader
  | LogHeaderType1
  | Available (v : UInt8)
  | OemSpecific (v : UInt8)
deriving DecidableEq, Repr

/-- `impl From<u8> for LogHeaderFormat`, `src/structures/015_system_event_log/mod.rs` 334-343. -/
def system_event_log.LogHeaderFormat.ofU8 (b : UInt8) : system_event_log.LogHeaderFormat :=
  let n := b.toNat
  if n = 0x00 then .NoHeader
  else if n = 0x01 then .LogHeaderType1
  else if 0x80 ≤ n ∧ n ≤ 0xFF then .OemSpecific b
  else .Available b

/-- `EventLogType`, `src/structures/015_system_event_log/log_record_format.rs` 52-108. -/
inductive system_event_log.EventLogType where
  | Reserved (v : UInt8)
  | SingleBitEccMemoryError
  | MultiBitEccMemoryError
  | ParityMemoryError
  | BusTimeOut
  | IoChannelCheck
  | SoftwareNmi
  | PostMemoryResize
  | PostError
  | PciParityError
  | PciSystemError
  | CpuFailure
  | EisaFailSafeTimerTimeOut
  | CorrectableMemoryLogDisabled
  | LoggingDisabledForSpecificEventType
  | SystemLimitExceeded
  | AsynchronousHardwareTimerExpired
  | SystemConfigurationInformation
  | HardDiskInformation
  | SystemReconfigured
  | UncorrectableCpuComplexError
  | LogAreaReset
  | SystemBoot
  | Unused (v : UInt8)
  | Available (v : UInt8)
  | EndOfLog
deriving DecidableEq, Repr

/-- `impl From<u8> for EventLogType`, `src/structures/015_system_event_log/log_record_format.rs` 220-251. -/
def system_event_log.EventLogType.ofU8 (b : UInt8) : system_event_log.EventLogType :=
  let n := b.toNat
  if n = 0x00 ∨ n = 0x0F then .Reserved b
  else if n = 0x01 then .SingleBitEccMemoryError
  else if n = 0x02 then .MultiBitEccMemoryError
  else if n = 0x03 then .ParityMemoryError
  else if n = 0x04 then .BusTimeOut
  else if n = 0x05 then .IoChannelCheck
  else if n = 0x06 then .SoftwareNmi
  else if n = 0x07 then .PostMemoryResize
  else if n = 0x08 then .PostError
  else if n = 0x09 then .PciParityError
  else if n = 0x0A then .PciSystemError
  else if n = 0x0B then .CpuFailure
  else if n = 0x0C then .EisaFailSafeTimerTimeOut
  else if n = 0x0D then .CorrectableMemoryLogDisabled
  else if n = 0x0E then .LoggingDisabledForSpecificEventType
  else if n = 0x10 then .SystemLimitExceeded
  else if n = 0x11 then .AsynchronousHardwareTimerExpired
  else if n = 0x12 then .SystemConfigurationInformation
  else if n = 0x13 then .HardDiskInformation
  else if n = 0x14 then .SystemReconfigured
  else if n = 0x15 then .UncorrectableCpuComplexError
  else if n = 0x16 then .LogAreaReset
  else if n = 0x17 then .SystemBoot
  else if 0x18 ≤ n ∧ n ≤ 0x7F then .Unused b
  else if 0x80 ≤ n ∧ n ≤ 0xFE then .Available b
  else .EndOfLog -- last arm of an exhaustive match: n = 0xFF

/-- `MemoryArrayLocation`, `src/structures/016_physical_memory_array.rs` 12-30. -/
inductive physical_memory_array.MemoryArrayLocation where
  | Other
  | Unknown
  | SystemBoardOrMotherboard
  | IsaAddOnCard
  | EisaAddOnCard
  | PciAddOnCard
  | McaAddOnCard
  | PcmciaAddOnCard
  | ProprietaryAddOnCard
  | NuBus
  | Pc98c20AddOnCard
  | Pc98c24AddOnCard
  | Pc98eAddOnCard
  | Pc98LocalBusAddOnCard
  | CxlAddOnCard
  | Undefined (v : UInt8)
deriving DecidableEq, Repr

/-- `impl From<u8> for MemoryArrayLocation`, `src/structures/016_physical_memory_array.rs` 32-53. -/
def physical_memory_array.MemoryArrayLocation.ofU8 (b : UInt8) : physical_memory_array.MemoryArrayLocation :=
  let n := b.toNat
  if n = 1 then .Other
  else if n = 2 then .Unknown
  else if n = 3 then .SystemBoardOrMotherboard
  else if n = 4 then .IsaAddOnCard
  else if n = 5 then .EisaAddOnCard
  else if n = 6 then .PciAddOnCard
  else if n = 7 then .McaAddOnCard
  else if n = 8 then .PcmciaAddOnCard
  else if n = 9 then .ProprietaryAddOnCard
  else if n = 10 then .NuBus
  else if n = 11 then .Pc98c20AddOnCard
  else if n = 12 then .Pc98c24AddOnCard
  else if n = 13 then .Pc98eAddOnCard
  else if n = 14 then .Pc98LocalBusAddOnCard
  else if n = 15 then .CxlAddOnCard
  else .Undefined b

/-- `MemoryArrayUse`, `src/structures/016_physical_memory_array.rs` 79-89. -/
inductive physical_memory_array.MemoryArrayUse where
  | Other
  | Unknown
  | SystemMemory
  | VideoMemory
  | FlashMemory
  | NonVolatileRam
  | CacheMemory
  | Undefined (v : UInt8)
deriving DecidableEq, Repr

/-- `impl From<u8> for MemoryArrayUse`, `src/structures/016_physical_memory_array.rs` 91-104. -/
def physical_memory_array.MemoryArrayUse.ofU8 (b : UInt8) : physical_memory_array.MemoryArrayUse :=
  let n := b.toNat
  if n = 1 then .Other
  else if n = 2 then .Unknown
  else if n = 3 then .SystemMemory
  else if n = 4 then .VideoMemory
  else if n = 5 then .FlashMemory
  else if n = 6 then .NonVolatileRam
  else if n = 7 then .CacheMemory
  else .Undefined b

/-- `MemoryArrayErrorCorrectionTypes`, `src/structures/016_physical_memory_array.rs` 122-132. -/
inductive physical_memory_array.MemoryArrayErrorCorrectionTypes where
  | Other
  | Unknown
  | None
  | Parity
  | SingleBitEcc
  | MultiBitEcc
  | CRC
  | Undefined (v : UInt8)
deriving DecidableEq, Repr

/-- `impl From<u8> for MemoryArrayErrorCorrectionTypes`, `src/structures/016_physical_memory_array.rs` 134-147. -/
def physical_memory_array.MemoryArrayErrorCorrectionTypes.ofU8 (b : UInt8) : physical_memory_array.MemoryArrayErrorCorrectionTypes :=
  let n := b.toNat
  if n = 1 then .Other
  else if n = 2 then .Unknown
  else if n = 3 then .None
  else if n = 4 then .Parity
  else if n = 5 then .SingleBitEcc
  else if n = 6 then .MultiBitEcc
  else if n = 7 then .CRC
  else .Undefined b

/-- `ErrorGranularity`, `src/structures/017_memory_device.rs` 17-23. -/
inductive memory_device.ErrorGranularity where
  | Other
  | Unknown
  | DeviceLevel
  | MemoryLevel
  | Undefined (v : UInt8)
deriving DecidableEq, Repr

/-- `impl From<u8> for ErrorGranularity`, `src/structures/017_memory_device.rs` 25-35. -/
def memory_device.ErrorGranularity.ofU8 (b : UInt8) : memory_device.ErrorGranularity :=
  let n := b.toNat
  if n = 1 then .Other
  else if n = 2 then .Unknown
  else if n = 3 then .DeviceLevel
  else if n = 4 then .MemoryLevel
  else .Undefined b

/-- `ErrorOperation`, `src/structures/017_memory_device.rs` 38-45. -/
inductive memory_device.ErrorOperation where
  | Other
  | Unknown
  | Read
  | Write
  | PartialWrite
  | Undefined (v : UInt8)
deriving DecidableEq, Repr

/-- `impl From<u8> for ErrorOperation`, `src/structures/017_memory_device.rs` 47-58. -/
def memory_device.ErrorOperation.ofU8 (b : UInt8) : memory_device.ErrorOperation :=
  let n := b.toNat
  if n = 1 then .Other
  else if n = 2 then .Unknown
  else if n = 3 then .Read
  else if n = 4 then .Write
  else if n = 5 then .PartialWrite
  else .Undefined b

/-- `ErrorType`, `src/structures/017_memory_device.rs` 61-77. -/
inductive memory_device.ErrorType where
  | Other
  | Unknown
  | Ok
  | BadRead
  | Parity
  | SingleBit
  | DoubleBit
  | MultiBit
  | Nibble
  | Checksum
  | Crc
  | CorrectedSingleBit
  | Corrected
  | Uncorrectable
  | Undefined (v : UInt8)
deriving DecidableEq, Repr

/-- `impl From<u8> for ErrorType`, `src/structures/017_memory_device.rs` 79-99. -/
def memory_device.ErrorType.ofU8 (b : UInt8) : memory_device.ErrorType :=
  let n := b.toNat
  if n = 1 then .Other
  else if n = 2 then .Unknown
  else if n = 3 then .Ok
  else if n = 4 then .BadRead
  else if n = 5 then .Parity
  else if n = 6 then .SingleBit
  else if n = 7 then .DoubleBit
  else if n = 8 then .MultiBit
  else if n = 9 then .Nibble
  else if n = 10 then .Checksum
  else if n = 11 then .Crc
  else if n = 12 then .CorrectedSingleBit
  else if n = 13 then .Corrected
  else if n = 14 then .Uncorrectable
  else .Undefined b

/-- `FormFactor`, `src/structures/017_memory_device.rs` 102-120. -/
inductive memory_device.FormFactor where
  | Other
  | Unknown
  | Simm
  | Sip
  | Chip
  | Dip
  | Zip
  | ProprietaryCard
  | Dimm
  | Tsop
  | RowOfChips
  | Rimm
  | SoDimm
  | Srimm
  | FbDimm
  | Undefined (v : UInt8)
deriving DecidableEq, Repr

/-- `impl From<u8> for FormFactor`, `src/structures/017_memory_device.rs` 122-144. -/
def memory_device.FormFactor.ofU8 (b : UInt8) : memory_device.FormFactor :=
  let n := b.toNat
  if n = 0 then .Other
  else if n = 1 then .Unknown
  else if n = 2 then .Simm
  else if n = 3 then .Sip
  else if n = 4 then .Chip
  else if n = 5 then .Dip
  else if n = 6 then .Zip
  else if n = 7 then .ProprietaryCard
  else if n = 8 then .Dimm
  else if n = 9 then .Dimm
  else if n = 10 then .Tsop
  else if n = 11 then .RowOfChips
  else if n = 12 then .Rimm
  else if n = 13 then .SoDimm
  else if n = 14 then .Srimm
  else if n = 15 then .FbDimm
  else .Undefined b

/-- `MemoryTechnology`, `src/structures/017_memory_device.rs` 147-157. -/
inductive memory_device.MemoryTechnology where
  | Other
  | Unknown
  | Dram
  | NvDimmN
  | NvDimmF
  | NvDimmP
  | IntelOptane
  | Undefined (v : UInt8)
deriving DecidableEq, Repr

/-- `impl From<u8> for MemoryTechnology`, `src/structures/017_memory_device.rs` 159-172. -/
def memory_device.MemoryTechnology.ofU8 (b : UInt8) : memory_device.MemoryTechnology :=
  let n := b.toNat
  if n = 1 then .Other
  else if n = 2 then .Unknown
  else if n = 3 then .Dram
  else if n = 4 then .NvDimmN
  else if n = 5 then .NvDimmF
  else if n = 6 then .NvDimmP
  else if n = 7 then .IntelOptane
  else .Undefined b

/-- `Type`, `src/structures/017_memory_device.rs` 175-211. -/
inductive memory_device.MemoryType where
  | Other
  | Unknown
  | Dram
  | Edram
  | Vram
  | Sram
  | Ram
  | Rom
  | Flash
  | Eeprom
  | Feprom
  | Eprom
  | Cdram
  | ThreeDram
  | Sdram
  | Sgram
  | Rdram
  | Ddr
  | Ddr2
  | Ddr2FbDimm
  | Reserved
  | Ddr3
  | Fbd2
  | Ddr4
  | Ddr5
  | LpDdr
  | LpDdr2
  | LpDdr3
  | LpDdr4
  | LpDdr5
  | LogicalNonVolatileDevice
  | Hbm
  | Hbm2
  | Undefined (v : UInt8)
deriving DecidableEq, Repr

/-- `impl From<u8> for Type`, `src/structures/017_memory_device.rs` 213-254. -/
def memory_device.MemoryType.ofU8 (b : UInt8) : memory_device.MemoryType :=
  let n := b.toNat
  if n = 1 then .Other
  else if n = 2 then .Unknown
  else if n = 3 then .Dram
  else if n = 4 then .Edram
  else if n = 5 then .Vram
  else if n = 6 then .Sram
  else if n = 7 then .Ram
  else if n = 8 then .Rom
  else if n = 9 then .Flash
  else if n = 10 then .Eeprom
  else if n = 11 then .Feprom
  else if n = 12 then .Eprom
  else if n = 13 then .Cdram
  else if n = 14 then .ThreeDram
  else if n = 15 then .Sdram
  else if n = 16 then .Sgram
  else if n = 17 then .Rdram
  else if n = 18 then .Ddr
  else if n = 19 then .Ddr2
  else if n = 20 then .Ddr2FbDimm
  else if n = 21 then .Reserved
  else if n = 22 then .Reserved
  else if n = 23 then .Reserved
  else if n = 24 then .Ddr3
  else if n = 25 then .Fbd2
  else if n = 26 then .Ddr4
  else if n = 27 then .LpDdr
  else if n = 28 then .LpDdr2
  else if n = 29 then .LpDdr3
  else if n = 30 then .LpDdr4
  else if n = 31 then .LogicalNonVolatileDevice
  else if n = 32 then .Hbm
  else if n = 33 then .Hbm2
  else if n = 34 then .Ddr5
  else if n = 35 then .LpDdr5
  else .Undefined b

/-- `ErrorType`, `src/structures/018_memory_error_32.rs` 40-56. -/
inductive memory_error_32.ErrorType where
  | Other
  | Unknown
  | Ok
  | BadRead
  | ParityError
  | SingleBitError
  | DoubleBitError
  | MultiBitError
  | NibbleError
  | ChecksumError
  | CrcError
  | CorrectedSingleBitError
  | CorrectedError
  | UncorrectableError
  | Undefined (v : UInt8)
deriving DecidableEq, Repr

/-- `impl From<u8> for ErrorType`, `src/structures/018_memory_error_32.rs` 102-122. -/
def memory_error_32.ErrorType.ofU8 (b : UInt8) : memory_error_32.ErrorType :=
  let n := b.toNat
  if n = 0x01 then .Other
  else if n = 0x02 then .Unknown
  else if n = 0x03 then .Ok
  else if n = 0x04 then .BadRead
  else if n = 0x05 then .ParityError
  else if n = 0x06 then .SingleBitError
  else if n = 0x07 then .DoubleBitError
  else if n = 0x08 then .MultiBitError
  else if n = 0x09 then .NibbleError
  else if n = 0x0a then .ChecksumError
  else if n = 0x0b then .CrcError
  else if n = 0x0c then .CorrectedSingleBitError
  else if n = 0x0d then .CorrectedError
  else if n = 0x0e then .UncorrectableError
  else .Undefined b

/-- `ErrorGranularity`, `src/structures/018_memory_error_32.rs` 60-68. -/
inductive memory_error_32.ErrorGranularity where
  | Other
  | Unknown
  | DeviceLevel
  | MemoryPartitionLevel
  | Undefined (v : UInt8)
deriving DecidableEq, Repr

/-- `impl From<u8> for ErrorGranularity`, `src/structures/018_memory_error_32.rs` 145-155. -/
def memory_error_32.ErrorGranularity.ofU8 (b : UInt8) : memory_error_32.ErrorGranularity :=
  let n := b.toNat
  if n = 0x01 then .Other
  else if n = 0x02 then .Unknown
  else if n = 0x03 then .DeviceLevel
  else if n = 0x04 then .MemoryPartitionLevel
  else .Undefined b

/-- `ErrorOperation`, `src/structures/018_memory_error_32.rs` 72-80. -/
inductive memory_error_32.ErrorOperation where
  | Other
  | Unknown
  | Read
  | Write
  | PartialWrite
  | Undefined (v : UInt8)
deriving DecidableEq, Repr

/-- `impl From<u8> for ErrorOperation`, `src/structures/018_memory_error_32.rs` 168-179. -/
def memory_error_32.ErrorOperation.ofU8 (b : UInt8) : memory_error_32.ErrorOperation :=
  let n := b.toNat
  if n = 0x01 then .Other
  else if n = 0x02 then .Unknown
  else if n = 0x03 then .Read
  else if n = 0x04 then .Write
  else if n = 0x05 then .PartialWrite
  else .Undefined b

/-- `Type`, `src/structures/021_built_in_pointing_device.rs` 29-40. -/
inductive built_in_pointing_device.DeviceType where
  | Other
  | Unknown
  | Mouse
  | TrackBall
  | TrackPoint
  | GlidePoint
  | TouchPad
  | TouchScreen
  | OpticalSensor
  | Undefined (v : UInt8)
deriving DecidableEq, Repr

/-- `impl From<u8> for Type`, `src/structures/021_built_in_pointing_device.rs` 85-100. -/
def built_in_pointing_device.DeviceType.ofU8 (b : UInt8) : built_in_pointing_device.DeviceType :=
  let n := b.toNat
  if n = 0x01 then .Other
  else if n = 0x02 then .Unknown
  else if n = 0x03 then .Mouse
  else if n = 0x04 then .TrackBall
  else if n = 0x05 then .TrackPoint
  else if n = 0x06 then .GlidePoint
  else if n = 0x07 then .TouchPad
  else if n = 0x08 then .TouchScreen
  else if n = 0x09 then .OpticalSensor
  else .Undefined b

/-- `Interface`, `src/structures/021_built_in_pointing_device.rs` 43-63. -/
inductive built_in_pointing_device.Interface where
  | Other
  | Unknown
  | Serial
  | Ps2
  | Infrared
  | HpHil
  | BusMouse
  | Adb
  | BusMouseDb9
  | BusMouseMicroDin
  | Usb
  | Undefined (v : UInt8)
deriving DecidableEq, Repr

/-- `impl From<u8> for Interface`, `src/structures/021_built_in_pointing_device.rs` 118-135. -/
def built_in_pointing_device.Interface.ofU8 (b : UInt8) : built_in_pointing_device.Interface :=
  let n := b.toNat
  if n = 0x01 then .Other
  else if n = 0x02 then .Unknown
  else if n = 0x03 then .Serial
  else if n = 0x04 then .Ps2
  else if n = 0x05 then .Infrared
  else if n = 0x06 then .HpHil
  else if n = 0x07 then .BusMouse
  else if n = 0x08 then .Adb
  else if n = 0xA0 then .BusMouseDb9
  else if n = 0xA1 then .BusMouseMicroDin
  else if n = 0xA2 then .Usb
  else .Undefined b

end Dmi
