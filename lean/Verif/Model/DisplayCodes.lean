import Verif.Model.Fmt
import Verif.Model.S015
import Verif.Model.S022
/-!
# `Display` of the code enumerations

One function per `impl fmt::Display` that is a `match` over the variants of an enumeration; the
arms are in source order. `alt` is `f.alternate()` (`{:#}`). Generated from the Rust text by
`tools/gen_display.py`.
-/
set_option linter.unusedVariables false
namespace Dmi
open Fmt

/-- `impl fmt::Display for InfoType`, `src/lib.rs` 744-797. -/
def InfoType.display : InfoType → Text
  | .Bios => txt! "BIOS Information"
  | .System => txt! "System Information"
  | .BaseBoard => txt! "Baseboard (or Module) Information"
  | .Enclosure => txt! "System Enclosure or Chassis"
  | .Processor => txt! "Processor Information"
  | .Cache => txt! "Cache Information"
  | .PortConnector => txt! "Port Connector Information"
  | .SystemSlots => txt! "System Slots"
  | .OemStrings => txt! "OEM Strings"
  | .SystemConfigurationOptions => txt! "System Configuration Options"
  | .BiosLanguage => txt! "BIOS Language Information"
  | .GroupAssociations => txt! "Group Associations"
  | .SystemEventLog => txt! "System Event Log"
  | .PhysicalMemoryArray => txt! "Physical Memory Array"
  | .MemoryDevice => txt! "Memory Device"
  | .MemoryError32 => txt! "32-Bit Memory Error Information"
  | .MemoryArrayMappedAddress => txt! "Memory Array Mapped Address"
  | .MemoryDeviceMappedAddress => txt! "Memory Device Mapped Address"
  | .BuiltInPointingDevice => txt! "Built-in Pointing Device"
  | .PortableBattery => txt! "Portable Battery"
  | .SystemBoot => txt! "System Boot Information"
  | .End => txt! "End-of-Table"
  | .Oem t => txt! "OEM: " ++ dec t.toNat

/-- `impl fmt::Display for BoardType`, `src/structures/002_baseboard.rs` 51-72. -/
def baseboard.BoardType.display : baseboard.BoardType → Text
  | .Unknown => txt! "Unknown"
  | .Other => txt! "Other"
  | .ServerBlade => txt! "Server Blade"
  | .ConnectivitySwitch => txt! "Connectivity Switch"
  | .SystemManagementModule => txt! "System Management Module"
  | .ProcessorModule => txt! "Processor Module"
  | .IoModule => txt! "I/O Module"
  | .MemoryModule => txt! "Memory Module"
  | .DaughterBoard => txt! "Daughter board"
  | .MotherBoard => txt! "Motherboard (includes processor, memory, and I/O)"
  | .ProcessorMemoryModule => txt! "Processor/Memory Module"
  | .ProcessorIoModule => txt! "Processor/IO Module"
  | .InterconnectBoard => txt! "Interconnect board"
  | .Undefined t => txt! "Undefined: " ++ dec t.toNat

/-- `impl fmt::Display for EnclosureType`, `src/structures/003_enclosure.rs` 315-357. -/
def enclosure.EnclosureType.display : enclosure.EnclosureType → Text
  | .Other => txt! "Other"
  | .Unknown => txt! "Unknown"
  | .Desktop => txt! "Desktop"
  | .LowProfileDesktop => txt! "Low Profile Desktop"
  | .PizzaBox => txt! "Pizza Box"
  | .MiniTower => txt! "Mini Tower"
  | .Tower => txt! "Tower"
  | .Portable => txt! "Portable"
  | .Laptop => txt! "Laptop"
  | .Notebook => txt! "Notebook"
  | .HandHeld => txt! "Hand Held"
  | .DockingStation => txt! "Docking Station"
  | .AllInOne => txt! "All in One"
  | .SubNotebook => txt! "Sub Notebook"
  | .SpaceSaving => txt! "Space-saving"
  | .LunchBox => txt! "Lunch Box"
  | .MainServerChassis => txt! "Main Server Chassis"
  | .ExpansionChassis => txt! "Expansion Chassis"
  | .SubChassis => txt! "SubChassis"
  | .BusExpansionChassis => txt! "Bus Expansion Chassis"
  | .PeripheralChassis => txt! "Peripheral Chassis"
  | .RaidChassis => txt! "RAID Chassis"
  | .RackMountChassis => txt! "Rack Mount Chassis"
  | .SealedCasePc => txt! "Sealed-case PC"
  | .MultiSystemChassis => txt! "Multi-system chassis"
  | .CompactPci => txt! "Compact PCI"
  | .AdvancedTca => txt! "Advanced TCA"
  | .Blade => txt! "Blade"
  | .BladeEnclosure => txt! "Blade Enclosure"
  | .Tablet => txt! "Tablet"
  | .Convertible => txt! "Convertible"
  | .Detachable => txt! "Detachable"
  | .IotGateway => txt! "IoT Gateway"
  | .EmbeddedPc => txt! "Embedded PC"
  | .MiniPc => txt! "Mini PC"
  | .StickPc => txt! "Stick PC"
  | .Undefined v => txt! "Undefined: " ++ dec v.toNat

/-- `impl fmt::Display for State`, `src/structures/003_enclosure.rs` 372-384. -/
def enclosure.State.display : enclosure.State → Text
  | .Other => txt! "Other"
  | .Unknown => txt! "Unknown"
  | .Safe => txt! "Safe"
  | .Warning => txt! "Warning"
  | .Critical => txt! "Critical"
  | .NonRecoverable => txt! "Non-recoverable"
  | .Undefined v => txt! "Undefined: " ++ dec v.toNat

/-- `impl fmt::Display for SecurityStatus`, `src/structures/003_enclosure.rs` 398-409. -/
def enclosure.SecurityStatus.display : enclosure.SecurityStatus → Text
  | .Other => txt! "Other"
  | .Unknown => txt! "Unknown"
  | .None => txt! "None"
  | .ExternalInterfaceLockedOut => txt! "External interface locked out"
  | .ExternalInterfaceEnabled => txt! "External interface enabled"
  | .Undefined v => txt! "Undefined: " ++ dec v.toNat

/-- `impl fmt::Display for ProcessorFamily`, `src/structures/004_processor.rs` 1078-1465. -/
def processor.ProcessorFamily.display : processor.ProcessorFamily → Text
  | .Other => txt! "Other"
  | .Unknown => txt! "Unknown"
  | .Intel8086 => txt! "8086"
  | .Intel80286 => txt! "80286"
  | .Intel386Processor => txt! "Intel386™ processor"
  | .Intel486Processor => txt! "Intel486™ processor"
  | .Intel8087 => txt! "8087"
  | .Intel80287 => txt! "80287"
  | .Intel80387 => txt! "80387"
  | .Intel80487 => txt! "80487"
  | .IntelPentiumProcessor => txt! "Intel® Pentium® processor"
  | .PentiumProProcessor => txt! "Pentium® Pro processor"
  | .PentiumIIProcessor => txt! "Pentium® II processor"
  | .PentiumProcessorWithMMXTechnology => txt! "Pentium® processor with MMX™ technology"
  | .IntelCeleronProcessor => txt! "Intel® Celeron® processor"
  | .PentiumIIXeonProcessor => txt! "Pentium® II Xeon™ processor"
  | .PentiumIIIProcessor => txt! "Pentium® III processor"
  | .M1Family => txt! "M1 Family"
  | .M2Family => txt! "M2 Family"
  | .IntelCeleronMProcessor => txt! "Intel® Celeron® M processor"
  | .IntelPentium4HTProcessor => txt! "Intel® Pentium® 4 HT processor"
  | .AMDDuronProcessorFamily => txt! "AMD Duron™ Processor Family [1]"
  | .K5Family => txt! "K5 Family [1]"
  | .K6Family => txt! "K6 Family [1]"
  | .K62 => txt! "K6-2"
  | .K63 => txt! "K6-3"
  | .AMDAthlonProcessorFamily => txt! "AMD Athlon™ Processor Family [1]"
  | .AMD29000Family => txt! "AMD29000 Family"
  | .K62Plus => txt! "K6-2+"
  | .PowerPCFamily => txt! "Power PC Family"
  | .PowerPC601 => txt! "Power PC 601"
  | .PowerPC603 => txt! "Power PC 603"
  | .PowerPC603Plus => txt! "Power PC 603+"
  | .PowerPC604 => txt! "Power PC 604"
  | .PowerPC620 => txt! "Power PC 620"
  | .PowerPCX704 => txt! "Power PC x704"
  | .PowerPC750 => txt! "Power PC 750"
  | .IntelCoreDuoProcessor => txt! "Intel® Core™ Duo processor"
  | .IntelCoreDuoMobileProcessor => txt! "Intel® Core™ Duo mobile processor"
  | .IntelCoreSoloMobileProcessor => txt! "Intel® Core™ Solo mobile processor"
  | .IntelAtomProcessor => txt! "Intel® Atom™ processor"
  | .IntelCoreMProcessor => txt! "Intel® Core™ M processor"
  | .IntelCoreM3Processor => txt! "Intel(R) Core(TM) m3 processor"
  | .IntelCoreM5Processor => txt! "Intel(R) Core(TM) m5 processor"
  | .IntelCoreM7Processor => txt! "Intel(R) Core(TM) m7 processor"
  | .AlphaFamily => txt! "Alpha Family [2]"
  | .Alpha21064 => txt! "Alpha 21064"
  | .Alpha21066 => txt! "Alpha 21066"
  | .Alpha21164 => txt! "Alpha 21164"
  | .Alpha21164PC => txt! "Alpha 21164PC"
  | .Alpha21164a => txt! "Alpha 21164a"
  | .Alpha21264 => txt! "Alpha 21264"
  | .Alpha21364 => txt! "Alpha 21364"
  | .AMDTurionIIUltraDualCoreMobileMProcessorFamily =>
    txt! "AMD Turion™ II Ultra Dual-Core Mobile M Processor Family"
  | .AMDTurionIIDualCoreMobileMProcessorFamily =>
    txt! "AMD Turion™ II Dual-Core Mobile M Processor Family"
  | .AMDAthlonIIDualCoreMProcessorFamily => txt! "AMD Athlon™ II Dual-Core M Processor Family"
  | .AMDOpteron6100SeriesProcessor => txt! "AMD Opteron™ 6100 Series Processor"
  | .AMDOpteron4100SeriesProcessor => txt! "AMD Opteron™ 4100 Series Processor"
  | .AMDOpteron6200SeriesProcessor => txt! "AMD Opteron™ 6200 Series Processor"
  | .AMDOpteron4200SeriesProcessor => txt! "AMD Opteron™ 4200 Series Processor"
  | .AMDFXSeriesProcessor => txt! "AMD FX™ Series Processor"
  | .MIPSFamily => txt! "MIPS Family"
  | .MIPSR4000 => txt! "MIPS R4000"
  | .MIPSR4200 => txt! "MIPS R4200"
  | .MIPSR4400 => txt! "MIPS R4400"
  | .MIPSR4600 => txt! "MIPS R4600"
  | .MIPSR10000 => txt! "MIPS R10000"
  | .AMDCSeriesProcessor => txt! "AMD C-Series Processor"
  | .AMDESeriesProcessor => txt! "AMD E-Series Processor"
  | .AMDASeriesProcessor => txt! "AMD A-Series Processor"
  | .AMDGSeriesProcessor => txt! "AMD G-Series Processor"
  | .AMDZSeriesProcessor => txt! "AMD Z-Series Processor"
  | .AMDRSeriesProcessor => txt! "AMD R-Series Processor"
  | .AMDOpteron4300SeriesProcessor => txt! "AMD Opteron™ 4300 Series Processor"
  | .AMDOpteron6300SeriesProcessor => txt! "AMD Opteron™ 6300 Series Processor"
  | .AMDOpteron3300SeriesProcessor => txt! "AMD Opteron™ 3300 Series Processor"
  | .AMDFireProSeriesProcessor => txt! "AMD FirePro™ Series Processor"
  | .SPARCFamily => txt! "SPARC Family"
  | .SuperSPARC => txt! "SuperSPARC"
  | .MicroSPARCII => txt! "microSPARC II"
  | .MicroSPARCIIep => txt! "microSPARC IIep"
  | .UltraSPARC => txt! "UltraSPARC"
  | .UltraSPARCII => txt! "UltraSPARC II"
  | .UltraSPARCIii => txt! "UltraSPARC Iii"
  | .UltraSPARCIII => txt! "UltraSPARC III"
  | .UltraSPARCIIIi => txt! "UltraSPARC IIIi"
  | .Motorola68040Family => txt! "68040 Family"
  | .Motorola68xxx => txt! "68xxx"
  | .Motorola68000 => txt! "68000"
  | .Motorola68010 => txt! "68010"
  | .Motorola68020 => txt! "68020"
  | .Motorola68030 => txt! "68030"
  | .AMDAthlonX4QuadCoreProcessorFamily => txt! "AMD Athlon(TM) X4 Quad-Core Processor Family"
  | .AMDOpteronX1000SeriesProcessor => txt! "AMD Opteron(TM) X1000 Series Processor"
  | .AMDOpteronX2000SeriesAPU => txt! "AMD Opteron(TM) X2000 Series APU"
  | .AMDOpteronASeriesProcessor => txt! "AMD Opteron(TM) A-Series Processor"
  | .AMDOpteronX3000SeriesAPU => txt! "AMD Opteron(TM) X3000 Series APU"
  | .AMDZenProcessorFamily => txt! "AMD Zen Processor Family"
  | .HobbitFamily => txt! "Hobbit Family"
  | .CrusoeTM5000Family => txt! "Crusoe™ TM5000 Family"
  | .CrusoeTM3000Family => txt! "Crusoe™ TM3000 Family"
  | .EfficeonTM8000Family => txt! "Efficeon™ TM8000 Family"
  | .Weitek => txt! "Weitek"
  | .AvailableForAssignment => txt! "Available for assignment"
  | .ItaniumProcessor => txt! "Itanium™ processor"
  | .AMDAthlon64ProcessorFamily => txt! "AMD Athlon™ 64 Processor Family"
  | .AMDOpteronProcessorFamily => txt! "AMD Opteron™ Processor Family"
  | .AMDSempronProcessorFamily => txt! "AMD Sempron™ Processor Family"
  | .AMDTurion64MobileTechnology => txt! "AMD Turion™ 64 Mobile Technology"
  | .DualCoreAMDOpteronProcessorFamily => txt! "Dual-Core AMD Opteron™ Processor Family"
  | .AMDAthlon64X2DualCoreProcessorFamily => txt! "AMD Athlon™ 64 X2 Dual-Core Processor Family"
  | .AMDTurion64X2MobileTechnology => txt! "AMD Turion™ 64 X2 Mobile Technology"
  | .QuadCoreAMDOpteronProcessorFamily => txt! "Quad-Core AMD Opteron™ Processor Family"
  | .ThirdGenerationAMDOpteronProcessorFamily =>
    txt! "Third-Generation AMD Opteron™ Processor Family"
  | .AMDPhenomFXQuadCoreProcessorFamily => txt! "AMD Phenom™ FX Quad-Core Processor Family"
  | .AMDPhenomX4QuadCoreProcessorFamily => txt! "AMD Phenom™ X4 Quad-Core Processor Family"
  | .AMDPhenomX2DualCoreProcessorFamily => txt! "AMD Phenom™ X2 Dual-Core Processor Family"
  | .AMDAthlonX2DualCoreProcessorFamily => txt! "AMD Athlon™ X2 Dual-Core Processor Family"
  | .PARISCFamily => txt! "PA-RISC Family"
  | .PARISC8500 => txt! "PA-RISC 8500"
  | .PARISC8000 => txt! "PA-RISC 8000"
  | .PARISC7300LC => txt! "PA-RISC 7300LC"
  | .PARISC7200 => txt! "PA-RISC 7200"
  | .PARISC7100LC => txt! "PA-RISC 7100LC"
  | .PARISC7100 => txt! "PA-RISC 7100"
  | .V30Family => txt! "V30 Family"
  | .QuadCoreIntelXeonProcessor3200Series => txt! "Quad-Core Intel® Xeon® processor 3200 Series"
  | .DualCoreIntelXeonProcessor3000Series => txt! "Dual-Core Intel® Xeon® processor 3000 Series"
  | .QuadCoreIntelXeonProcessor5300Series => txt! "Quad-Core Intel® Xeon® processor 5300 Series"
  | .DualCoreIntelXeonProcessor5100Series => txt! "Dual-Core Intel® Xeon® processor 5100 Series"
  | .DualCoreIntelXeonProcessor5000Series => txt! "Dual-Core Intel® Xeon® processor 5000 Series"
  | .DualCoreIntelXeonProcessorLV => txt! "Dual-Core Intel® Xeon® processor LV"
  | .DualCoreIntelXeonProcessorULV => txt! "Dual-Core Intel® Xeon® processor ULV"
  | .DualCoreIntelXeonProcessor7100Series => txt! "Dual-Core Intel® Xeon® processor 7100 Series"
  | .QuadCoreIntelXeonProcessor5400Series => txt! "Quad-Core Intel® Xeon® processor 5400 Series"
  | .QuadCoreIntelXeonProcessor => txt! "Quad-Core Intel® Xeon® processor"
  | .DualCoreIntelXeonProcessor5200Series => txt! "Dual-Core Intel® Xeon® processor 5200 Series"
  | .DualCoreIntelXeonProcessor7200Series => txt! "Dual-Core Intel® Xeon® processor 7200 Series"
  | .QuadCoreIntelXeonProcessor7300Series => txt! "Quad-Core Intel® Xeon® processor 7300 Series"
  | .QuadCoreIntelXeonProcessor7400Series => txt! "Quad-Core Intel® Xeon® processor 7400 Series"
  | .MultiCoreIntelXeonProcessor7400Series => txt! "Multi-Core Intel® Xeon® processor 7400 Series"
  | .PentiumIIIXeonProcessor => txt! "Pentium® III Xeon™ processor"
  | .PentiumIIIProcessorWithIntelSpeedStepTechnology =>
    txt! "Pentium® III Processor with Intel® SpeedStep™ Technology"
  | .Pentium4Processor => txt! "Pentium® 4 Processor"
  | .IntelXeonProcessor => txt! "Intel® Xeon® processor"
  | .AS400Family => txt! "AS400 Family"
  | .IntelXeonProcessorMP => txt! "Intel® Xeon™ processor MP"
  | .AMDAthlonXPProcessorFamily => txt! "AMD Athlon™ XP Processor Family"
  | .AMDAthlonMPProcessorFamily => txt! "AMD Athlon™ MP Processor Family"
  | .IntelItanium2Processor => txt! "Intel® Itanium® 2 processor"
  | .IntelPentiumMProcessor => txt! "Intel® Pentium® M processor"
  | .IntelCeleronDProcessor => txt! "Intel® Celeron® D processor"
  | .IntelPentiumDProcessor => txt! "Intel® Pentium® D processor"
  | .IntelPentiumProcessorExtremeEdition => txt! "Intel® Pentium® Processor Extreme Edition"
  | .IntelCoreSoloProcessor => txt! "Intel® Core™ Solo Processor"
  | .Ambiguous => txt! "Ambiguous"
  | .IntelCore2DuoProcessor => txt! "Intel® Core™ 2 Duo Processor"
  | .IntelCore2SoloProcessor => txt! "Intel® Core™ 2 Solo processor"
  | .IntelCore2ExtremeProcessor => txt! "Intel® Core™ 2 Extreme processor"
  | .IntelCore2QuadProcessor => txt! "Intel® Core™ 2 Quad processor"
  | .IntelCore2ExtremeMobileProcessor => txt! "Intel® Core™ 2 Extreme mobile processor"
  | .IntelCore2DuoMobileProcessor => txt! "Intel® Core™ 2 Duo mobile processor"
  | .IntelCore2SoloMobileProcessor => txt! "Intel® Core™ 2 Solo mobile processor"
  | .IntelCoreI7Processor => txt! "Intel® Core™ i7 processor"
  | .DualCoreIntelCeleronProcessor => txt! "Dual-Core Intel® Celeron® processor"
  | .IBM390Family => txt! "IBM390 Family"
  | .G4 => txt! "G4"
  | .G5 => txt! "G5"
  | .ESA390G6 => txt! "ESA/390 G6"
  | .ZArchitectureBase => txt! "z/Architecture base"
  | .IntelCoreI5Processor => txt! "Intel® Core™ i5 processor"
  | .IntelCoreI3Processor => txt! "Intel® Core™ i3 processor"
  | .IntelCoreI9Processor => txt! "Intel® Core™ i9 processor"
  | .VIAC7MProcessorFamily => txt! "VIA C7™-M Processor Family"
  | .VIAC7DProcessorFamily => txt! "VIA C7™-D Processor Family"
  | .VIAC7ProcessorFamily => txt! "VIA C7™ Processor Family"
  | .VIAEdenProcessorFamily => txt! "VIA Eden™ Processor Family"
  | .MultiCoreIntelXeonProcessor => txt! "Multi-Core Intel® Xeon® processor"
  | .DualCoreIntelXeonProcessor3xxxSeries => txt! "Dual-Core Intel® Xeon® processor 3xxx Series"
  | .QuadCoreIntelXeonProcessor3xxxSeries => txt! "Quad-Core Intel® Xeon® processor 3xxx Series"
  | .VIANanoProcessorFamily => txt! "VIA Nano™ Processor Family"
  | .DualCoreIntelXeonProcessor5xxxSeries => txt! "Dual-Core Intel® Xeon® processor 5xxx Series"
  | .QuadCoreIntelXeonProcessor5xxxSeries => txt! "Quad-Core Intel® Xeon® processor 5xxx Series"
  | .DualCoreIntelXeonProcessor7xxxSeries => txt! "Dual-Core Intel® Xeon® processor 7xxx Series"
  | .QuadCoreIntelXeonProcessor7xxxSeries => txt! "Quad-Core Intel® Xeon® processor 7xxx Series"
  | .MultiCoreIntelXeonProcessor7xxxSeries => txt! "Multi-Core Intel® Xeon® processor 7xxx Series"
  | .MultiCoreIntelXeonProcessor3400Series => txt! "Multi-Core Intel® Xeon® processor 3400 Series"
  | .AMDOpteron3000SeriesProcessor => txt! "AMD Opteron™ 3000 Series Processor"
  | .AMDSempronIIProcessor => txt! "AMD Sempron™ II Processor"
  | .EmbeddedAMDOpteronQuadCoreProcessorFamily =>
    txt! "Embedded AMD Opteron™ Quad-Core Processor Family"
  | .AMDPhenomTripleCoreProcessorFamily => txt! "AMD Phenom™ Triple-Core Processor Family"
  | .AMDTurionUltraDualCoreMobileProcessorFamily =>
    txt! "AMD Turion™ Ultra Dual-Core Mobile Processor Family"
  | .AMDTurionDualCoreMobileProcessorFamily => txt! "AMD Turion™ Dual-Core Mobile Processor Family"
  | .AMDAthlonDualCoreProcessorFamily => txt! "AMD Athlon™ Dual-Core Processor Family"
  | .AMDSempronSIProcessorFamily => txt! "AMD Sempron™ SI Processor Family"
  | .AMDPhenomIIProcessorFamily => txt! "AMD Phenom™ II Processor Family"
  | .AMDAthlonIIProcessorFamily => txt! "AMD Athlon™ II Processor Family"
  | .SixCoreAMDOpteronProcessorFamily => txt! "Six-Core AMD Opteron™ Processor Family"
  | .AMDSempronMProcessorFamily => txt! "AMD Sempron™ M Processor Family"
  | .I860 => txt! "i860"
  | .I960 => txt! "i960"
  | .ARMv7 => txt! "ARMv7"
  | .ARMv8 => txt! "ARMv8"
  | .ARMv9 => txt! "ARMv9"
  | .SH3 => txt! "SH-3"
  | .SH4 => txt! "SH-4"
  | .ARM => txt! "ARM"
  | .StrongARM => txt! "StrongARM"
  | .Cyrix6x86 => txt! "6x86"
  | .MediaGX => txt! "MediaGX"
  | .MII => txt! "MII"
  | .WinChip => txt! "WinChip"
  | .DSP => txt! "DSP"
  | .VideoProcessor => txt! "Video Processor"
  | .RISCVRV32 => txt! "RISC-V RV32"
  | .RISCVRV64 => txt! "RISC-V RV64"
  | .RISCVRV128 => txt! "RISC-V RV128"
  | .ForFutureUse => txt! "For special use in the future"
  | .ProcessorFamily2 => txt! "Processor Family 2 has the enumerated value"
  | .Available n => txt! "Available " ++ txt! "0x" ++ hexUpper n.toNat
  | .NotUsed n =>
    txt! "Not used. " ++ hexUpper n.toNat ++ txt! "h is the un-initialized value of Flash memory."
  | .OutOfSpec => txt! "OUT OF SPEC"

/-- `impl fmt::Display for ProcessorUpgrade`, `src/structures/004_processor.rs` 1580-1648. -/
def processor.ProcessorUpgrade.display : processor.ProcessorUpgrade → Text
  | .Other => txt! "Other"
  | .Unknown => txt! "Unknown"
  | .DaughterBoard => txt! "Daughter Board"
  | .ZIFSocket => txt! "ZIF Socket"
  | .ReplaceablePiggyBack => txt! "Replaceable Piggy Back"
  | .None => txt! "None"
  | .LIFSocket => txt! "LIF Socket"
  | .Slot1 => txt! "Slot 1"
  | .Slot2 => txt! "Slot 2"
  | .Socket370 => txt! "370-pin socket"
  | .SlotA => txt! "Slot A"
  | .SlotM => txt! "Slot M"
  | .Socket423 => txt! "Socket 423"
  | .SocketA => txt! "Socket A (Socket 462)"
  | .Socket478 => txt! "Socket 478"
  | .Socket754 => txt! "Socket 754"
  | .Socket940 => txt! "Socket 940"
  | .Socket939 => txt! "Socket 939"
  | .SocketmPGA604 => txt! "Socket mPGA604"
  | .SocketLGA771 => txt! "Socket LGA771"
  | .SocketLGA775 => txt! "Socket LGA775"
  | .SocketS1 => txt! "Socket S1"
  | .SocketAM2 => txt! "Socket AM2"
  | .SocketF => txt! "Socket F (1207)"
  | .SocketLGA1366 => txt! "Socket LGA1366"
  | .SocketG34 => txt! "Socket G34"
  | .SocketAM3 => txt! "Socket AM3"
  | .SocketC32 => txt! "Socket C32"
  | .SocketLGA1156 => txt! "Socket LGA1156"
  | .SocketLGA1567 => txt! "Socket LGA1567"
  | .SocketPGA988A => txt! "Socket PGA988A"
  | .SocketBGA1288 => txt! "Socket BGA1288"
  | .SocketrPGA988B => txt! "Socket rPGA988B"
  | .SocketBGA1023 => txt! "Socket BGA1023"
  | .SocketBGA1224 => txt! "Socket BGA1224"
  | .SocketLGA1155 => txt! "Socket LGA1155"
  | .SocketLGA1356 => txt! "Socket LGA1356"
  | .SocketLGA2011 => txt! "Socket LGA2011"
  | .SocketFS1 => txt! "Socket FS1"
  | .SocketFS2 => txt! "Socket FS2"
  | .SocketFM1 => txt! "Socket FM1"
  | .SocketFM2 => txt! "Socket FM2"
  | .SocketLGA2011Three => txt! "Socket LGA2011-3"
  | .SocketLGA1356Three => txt! "Socket LGA1356-3"
  | .SocketLGA1150 => txt! "Socket LGA1150"
  | .SocketBGA1168 => txt! "Socket BGA1168"
  | .SocketBGA1234 => txt! "Socket BGA1234"
  | .SocketBGA1364 => txt! "Socket BGA1364"
  | .SocketAM4 => txt! "Socket AM4"
  | .SocketLGA1151 => txt! "Socket LGA1151"
  | .SocketBGA1356 => txt! "Socket BGA1356"
  | .SocketBGA1440 => txt! "Socket BGA1440"
  | .SocketBGA1515 => txt! "Socket BGA1515"
  | .SocketLGA3647 => txt! "Socket LGA3647-1"
  | .SocketSP3 => txt! "Socket SP3"
  | .SocketSP3r2 => txt! "Socket SP3r2"
  | .SocketLGA2066 => txt! "Socket LGA2066"
  | .SocketBGA1392 => txt! "Socket BGA1392"
  | .SocketBGA1510 => txt! "Socket BGA1510"
  | .SocketBGA1528 => txt! "Socket BGA1528"
  | .SocketLGA4189 => txt! "Socket LGA4189"
  | .SocketLGA1200 => txt! "Socket LGA1200"
  | .Undefined n => txt! "Undefined " ++ dec n.toNat

/-- `impl fmt::Display for CacheLevel`, `src/structures/007_cache.rs` 320-333. -/
def cache.CacheLevel.display : cache.CacheLevel → Text
  | .L1 => txt! "L1"
  | .L2 => txt! "L2"
  | .L3 => txt! "L3"
  | .L4 => txt! "L4"
  | .L5 => txt! "L5"
  | .L6 => txt! "L6"
  | .L7 => txt! "L7"
  | .L8 => txt! "L8"

/-- `impl fmt::Display for CacheLocation`, `src/structures/007_cache.rs` 346-355. -/
def cache.CacheLocation.display : cache.CacheLocation → Text
  | .Internal => txt! "Internal"
  | .External => txt! "External"
  | .Reserved => txt! "Reserved"
  | .Unknown => txt! "Unknown"

/-- `impl fmt::Display for CacheOperationalMode`, `src/structures/007_cache.rs` 368-377. -/
def cache.CacheOperationalMode.display : cache.CacheOperationalMode → Text
  | .WriteThrough => txt! "Write Through"
  | .WriteBack => txt! "Write Back"
  | .ValuesWithMemoryAddress => txt! "Values with Memory Address"
  | .Unknown => txt! "Unknown"

/-- `impl fmt::Display for CacheErrorCorrectionType`, `src/structures/007_cache.rs` 392-404. -/
def cache.CacheErrorCorrectionType.display : cache.CacheErrorCorrectionType → Text
  | .Other => txt! "Other"
  | .Unknown => txt! "Unknown"
  | .None => txt! "None"
  | .Parity => txt! "Parity"
  | .SingleBitEcc => txt! "Single-bit ECC"
  | .MultiBitEcc => txt! "Multi-bit ECC"
  | .Undefined t => txt! "Undefined: " ++ dec t.toNat

/-- `impl fmt::Display for SystemCacheType`, `src/structures/007_cache.rs` 418-429. -/
def cache.SystemCacheType.display : cache.SystemCacheType → Text
  | .Other => txt! "Other"
  | .Unknown => txt! "Unknown"
  | .Instruction => txt! "Instruction"
  | .Data => txt! "Data"
  | .Unified => txt! "Unified"
  | .Undefined t => txt! "Undefined: " ++ dec t.toNat

/-- `impl fmt::Display for CacheAssociativity`, `src/structures/007_cache.rs` 452-472. -/
def cache.CacheAssociativity.display : cache.CacheAssociativity → Text
  | .Other => txt! "Other"
  | .Unknown => txt! "Unknown"
  | .DirectMapped => txt! "Direct Mapped"
  | .TwowaySetAssociative => txt! "2-way Set-Associative"
  | .FourWaySetAssociative => txt! "4-way Set-Associative"
  | .FullyAssociative => txt! "Fully Associative"
  | .EightWaySetAssociative => txt! "8-way Set-Associative"
  | .SixteenWaySetAssociative => txt! "16-way Set-Associative"
  | .TwelveWaySetAssociative => txt! "12-way Set-Associative"
  | .TwentyFourWaySetAssociative => txt! "24-way Set-Associative"
  | .ThirtyTwoWaySetAssociative => txt! "32-way Set-Associative"
  | .FourtyEightWaySetAssociative => txt! "48-way Set-Associative"
  | .SixtyFourWaySetAssociative => txt! "64-way Set-Associative"
  | .TwentyWaySetAssociative => txt! "20-way Set-Associative"
  | .Undefined t => txt! "Undefined: " ++ dec t.toNat

/-- `impl fmt::Display for ConnectorType`, `src/structures/008_port_connector.rs` 201-249. -/
def port_connector.ConnectorType.display : port_connector.ConnectorType → Text
  | .None => txt! "None"
  | .Centronics => txt! "Centronics"
  | .MiniCentronics => txt! "Mini Centronics"
  | .Proprietary => txt! "Proprietary"
  | .Db25PinMale => txt! "DB-25 pin male"
  | .Db25PinFemale => txt! "DB-25 pin female"
  | .Db15PinMale => txt! "DB-15 pin male"
  | .Db15PinFemale => txt! "DB-15 pin female"
  | .Db9PinMale => txt! "DB-9 pin male"
  | .Db9PinFemale => txt! "DB-9 pin female"
  | .Rj11 => txt! "RJ-11"
  | .Rj45 => txt! "RJ-45"
  | .MiniScsi => txt! "50-pin MiniSCSI"
  | .MiniDin => txt! "Mini-DIN"
  | .MicroDin => txt! "Micro-DIN"
  | .Ps2 => txt! "PS/2"
  | .Infrared => txt! "Infrared"
  | .HpHil => txt! "HP-HIL"
  | .AccessBus => txt! "Access Bus (USB)"
  | .SsaScsi => txt! "SSA SCSI"
  | .CircularDin8Male => txt! "Circular DIN-8 male"
  | .CircularDin8Female => txt! "Circular DIN-8 female"
  | .OnBoardIde => txt! "On Board IDE"
  | .OnBoardFloppy => txt! "On Board Floppy"
  | .DualInline9 => txt! "9-pin Dual Inline (pin 10 cut)"
  | .DualInline25 => txt! "25-pin Dual Inline (pin 26 cut)"
  | .DualInline50 => txt! "50-pin Dual Inline"
  | .DualInline68 => txt! "68-pin Dual Inline"
  | .OnBoardSoundInputFromCdRom => txt! "On Board Sound Input from CD-ROM"
  | .MiniCentronicsType14 => txt! "Mini-Centronics Type-14"
  | .MiniCentronicsType26 => txt! "Mini-Centronics Type-26"
  | .MiniJack => txt! "Mini-jack (headphones)"
  | .Bnc => txt! "BNC"
  | .Ieee1394 => txt! "1394"
  | .SasSataPlugReceptacle => txt! "SAS/SATA Plug Receptacle"
  | .UsbTypeCReceptacle => txt! "USB Type-C Receptacle"
  | .Pc98 => txt! "PC-98"
  | .Pc98Hireso => txt! "PC-98Hireso"
  | .PcH98 => txt! "PC-H98"
  | .Pc98Note => txt! "PC-98Note"
  | .Pc98Full => txt! "PC-98Full"
  | .Other => txt! "Other – Use Reference Designator Strings to supply information."
  | .Undefined v => txt! "Undefined: " ++ dec v.toNat

/-- `impl fmt::Display for PortType`, `src/structures/008_port_connector.rs` 297-342. -/
def port_connector.PortType.display : port_connector.PortType → Text
  | .None => txt! "None"
  | .ParallelPortXtAtCompatible => txt! "Parallel Port XT/AT Compatible"
  | .ParallelPortPs2 => txt! "Parallel Port PS/2"
  | .ParallelPortEcp => txt! "Parallel Port ECP"
  | .ParallelPortEpp => txt! "Parallel Port EPP"
  | .ParallelPortEcpEpp => txt! "Parallel Port ECP/EPP"
  | .SerialPortXtAtCompatible => txt! "Serial Port XT/AT Compatible"
  | .SerialPort16450Compatible => txt! "Serial Port 16450 Compatible"
  | .SerialPort16550Compatible => txt! "Serial Port 16550 Compatible"
  | .SerialPort16550ACompatible => txt! "Serial Port 16550A Compatible"
  | .ScsiPort => txt! "SCSI Port"
  | .MidiPort => txt! "MIDI Port"
  | .JoyStickPort => txt! "Joy Stick Port"
  | .KeyboardPort => txt! "Keyboard Port"
  | .MousePort => txt! "Mouse Port"
  | .SsaScsi => txt! "SSA SCSI"
  | .Usb => txt! "USB"
  | .FireWire => txt! "FireWire (IEEE P1394)"
  | .PcmciaType1 => txt! "PCMCIA Type I2"
  | .PcmciaType2 => txt! "PCMCIA Type II"
  | .PcmciaType3 => txt! "PCMCIA Type III"
  | .Cardbus => txt! "Cardbus"
  | .AccessBusPort => txt! "Access Bus Port"
  | .Scsi2 => txt! "SCSI II"
  | .ScsiWide => txt! "SCSI Wide"
  | .Pc98 => txt! "PC-98"
  | .Pc98Hireso => txt! "PC-98-Hireso"
  | .PcH98 => txt! "PC-H98"
  | .VideoPort => txt! "Video Port"
  | .AudioPort => txt! "Audio Port"
  | .ModemPort => txt! "Modem Port"
  | .NetworkPort => txt! "Network Port"
  | .Sata => txt! "SATA"
  | .Sas => txt! "SAS"
  | .MultiFunctionDisplayPort => txt! "MFDP (Multi-Function Display Port)"
  | .Thunderbolt => txt! "Thunderbolt"
  | .Intel8251Compatible => txt! "8251 Compatible"
  | .Intel8251FifoCompatible => txt! "8251 FIFO Compatible"
  | .Other => txt! "Other"
  | .Undefined v => txt! "Undefined: " ++ dec v.toNat

/-- `impl fmt::Display for SlotType`, `src/structures/009_system_slots.rs` 493-632. -/
def system_slots.SlotType.display (alt : Bool) : system_slots.SlotType → Text
  | .Other => txt! "Other"
  | .Unknown => txt! "Unknown"
  | .Isa => txt! "ISA"
  | .Mca => txt! "MCA"
  | .Eisa => txt! "EISA"
  | .Pci => txt! "PCI"
  | .PcCard => txt! "PC Card (PCMCIA)"
  | .VlVesa => txt! "VL-VESA"
  | .Proprietary => txt! "Proprietary"
  | .ProcessorCardSlot => txt! "Processor Card Slot"
  | .ProprietaryMemoryCardSlot => txt! "Proprietary Memory Card Slot"
  | .IoRiserCardSlot => txt! "I/O Riser Card Slot"
  | .Nubus => txt! "NuBus"
  | .Pci66Mhz => txt! "PCI – 66MHz Capable"
  | .Agp => txt! "AGP"
  | .Agp2x => txt! "AGP 2X"
  | .Agp4x => txt! "AGP 4X"
  | .PciX => txt! "PCI-X"
  | .Agp8x => txt! "AGP 8X"
  | .M2Socket1DP => txt! "M.2 Socket 1-DP (Mechanical Key A)"
  | .M2Socket1SD => txt! "M.2 Socket 1-SD (Mechanical Key E)"
  | .M2Socket2 => txt! "M.2 Socket 2 (Mechanical Key B)"
  | .M2Socket3 => txt! "M.2 Socket 3 (Mechanical Key M)"
  | .MxmType1 => txt! "MXM Type I"
  | .MxmType2 => txt! "MXM Type II"
  | .MxmType3 => txt! "MXM Type III (standard connector)"
  | .MxmType3He => txt! "MXM Type III (HE connector)"
  | .MxmType4 => txt! "MXM Type IV"
  | .Mxm3TypeA => txt! "MXM 3.0 Type A"
  | .Mxm3TypeB => txt! "MXM 3.0 Type B"
  | .U2PciExpressGen2 => txt! "PCI Express Gen 2 SFF-8639 (U.2)"
  | .U2PciExpressGen3 => txt! "PCI Express Gen 3 SFF-8639 (U.2)"
  | .PciExpressMini52pin1 => if alt then txt! "PCI Express Mini 52-pin (CEM spec. 2.0) with bottom-side keep-outs. Use Slot Length field value 03h (short length) for \"half-Mini card\" -only support, 04h (long length) for \"full-Mini card\" or dual support."
    else txt! "PCI Express Mini 52-pin with bottom-side keep-outs"
  | .PciExpressMini52pin2 => if alt then txt! "PCI Express Mini 52-pin (CEM spec. 2.0) without bottom-side keep-outs. Use Slot Length field value 03h (short length) for \"half-Mini card\" -only support, 04h (long length) for \"full-Mini card\" or dual support."
    else txt! "PCI Express Mini 52-pin without bottom-side keep-outs"
  | .PciExpressMini76pin => if alt then txt! "PCI Express Mini 76-pin (CEM spec. 2.0) Corresponds to Display-Mini card."
    else txt! "PCI Express Mini 76-pin"
  | .U2PciExpressGen4 => txt! "PCI Express Gen 4 SFF-8639 (U.2)"
  | .U2PciExpressGen5 => txt! "PCI Express Gen 5 SFF-8639 (U.2)"
  | .OcpNic3Small => txt! "OCP NIC 3.0 Small Form Factor (SFF)"
  | .OcpNic3Large => txt! "OCP NIC 3.0 Large Form Factor (LFF)"
  | .OcpNicPriorTo3 => txt! "OCP NIC Prior to 3.0"
  | .CxlFlexbus1 => txt! "CXL Flexbus 1.0 (deprecated)"
  | .Pc98C20 => txt! "PC-98/C20"
  | .Pc98C24 => txt! "PC-98/C24"
  | .Pc98E => txt! "PC-98/E"
  | .Pc98LocalBus => txt! "PC-98/Local Bus"
  | .Pc98Card => txt! "PC-98/Card"
  | .PciExpress => txt! "PCI Express"
  | .PciExpressX1 => txt! "PCI Express x1"
  | .PciExpressX2 => txt! "PCI Express x2"
  | .PciExpressX4 => txt! "PCI Express x4"
  | .PciExpressX8 => txt! "PCI Express x8"
  | .PciExpressX16 => txt! "PCI Express x16"
  | .PciExpressGen2 => txt! "PCI Express Gen 2"
  | .PciExpressGen2x1 => txt! "PCI Express Gen 2 x1"
  | .PciExpressGen2x2 => txt! "PCI Express Gen 2 x2"
  | .PciExpressGen2x4 => txt! "PCI Express Gen 2 x4"
  | .PciExpressGen2x8 => txt! "PCI Express Gen 2 x8"
  | .PciExpressGen2x16 => txt! "PCI Express Gen 2 x16"
  | .PciExpressGen3 => txt! "PCI Express Gen 3"
  | .PciExpressGen3x1 => txt! "PCI Express Gen 3 x1"
  | .PciExpressGen3x2 => txt! "PCI Express Gen 3 x2"
  | .PciExpressGen3x4 => txt! "PCI Express Gen 3 x4"
  | .PciExpressGen3x8 => txt! "PCI Express Gen 3 x8"
  | .PciExpressGen3x16 => txt! "PCI Express Gen 3 x16"
  | .PciExpressGen4 => txt! "PCI Express Gen 4"
  | .PciExpressGen4x1 => txt! "PCI Express Gen 4 x1"
  | .PciExpressGen4x2 => txt! "PCI Express Gen 4 x2"
  | .PciExpressGen4x4 => txt! "PCI Express Gen 4 x4"
  | .PciExpressGen4x8 => txt! "PCI Express Gen 4 x8"
  | .PciExpressGen4x16 => txt! "PCI Express Gen 4 x16"
  | .PciExpressGen5 => txt! "PCI Express Gen 5"
  | .PciExpressGen5x1 => txt! "PCI Express Gen 5 x1"
  | .PciExpressGen5x2 => txt! "PCI Express Gen 5 x2"
  | .PciExpressGen5x4 => txt! "PCI Express Gen 5 x4"
  | .PciExpressGen5x8 => txt! "PCI Express Gen 5 x8"
  | .PciExpressGen5x16 => txt! "PCI Express Gen 5 x16"
  | .PciExpressGen6 => txt! "PCI Express Gen 6 and Beyond"
  | .E1FormFactorSlot => if alt then txt! "Enterprise and Datacenter 1U E1 Form Factor Slot (EDSFF E1.S, E1.L). See specifications SFF-TA-1006 and SFF-TA-1007 for more details on values for slot length and pitch."
    else txt! "EDSFF E1"
  | .E3FormFactorSlot => if alt then txt! "Enterprise and Datacenter 3\" E3 Form Factor Slot (EDSFF E3.S, E3.L). See specification SFF-TA-1008 for details on values for slot length and pitch."
    else txt! "EDSFF E3"
  | .Undefined v => txt! "Undefined: " ++ dec v.toNat

/-- `impl fmt::Display for SlotWidth`, `src/structures/009_system_slots.rs` 655-675. -/
def system_slots.SlotWidth.display : system_slots.SlotWidth → Text
  | .Other => txt! "Other"
  | .Unknown => txt! "Unknown"
  | .Byte => txt! "8 bit"
  | .Word => txt! "16 bit"
  | .Dword => txt! "32 bit"
  | .Qword => txt! "64 bit"
  | .Dqword => txt! "128 bit"
  | .X1 => txt! "1x or x1"
  | .X2 => txt! "2x or x2"
  | .X4 => txt! "4x or x4"
  | .X8 => txt! "8x or x8"
  | .X12 => txt! "12x or x12"
  | .X16 => txt! "16x or x16"
  | .X32 => txt! "32x or x32"
  | .Undefined v => txt! "Undefined: " ++ dec v.toNat

/-- `impl fmt::Display for CurrentUsage`, `src/structures/009_system_slots.rs` 689-707. -/
def system_slots.CurrentUsage.display (alt : Bool) : system_slots.CurrentUsage → Text
  | .Other => txt! "Other"
  | .Unknown => txt! "Unknown"
  | .Available => txt! "Available"
  | .InUse => txt! "In use"
  | .Unavailable => if alt then txt! "Unavailable (e.g., connected to a processor that is not installed)"
    else txt! "Unavailable"
  | .Undefined v => txt! "Undefined: " ++ dec v.toNat

/-- `impl fmt::Display for SlotLength`, `src/structures/009_system_slots.rs` 722-734. -/
def system_slots.SlotLength.display : system_slots.SlotLength → Text
  | .Other => txt! "Other"
  | .Unknown => txt! "Unknown"
  | .ShortLength => txt! "Short Length"
  | .LongLength => txt! "Long Length"
  | .DriveFormFactor2_5 => txt! "2.5\" drive form factor"
  | .DriveFormFactor3_5 => txt! "3.5\" drive form factor"
  | .Undefined v => txt! "Undefined: " ++ dec v.toNat

/-- `impl fmt::Display for LogHeaderFormat`, `src/structures/015_system_event_log/mod.rs` 344-355. -/
def system_event_log.LogHeaderFormat.display : Bool → system_event_log.LogHeaderFormat → Text
  | _, .NoHeader => txt! "No Header"
  | true, .LogHeaderType1 => txt! "Type 1 log header"
  | false, .LogHeaderType1 => txt! "Type 1"
  | true, .OemSpecific v => txt! "BIOS vendor or OEM-specific format: " ++ dec v.toNat
  | false, .OemSpecific _ => txt! "OEM-specific"
  | _, .Available v => txt! "Available: " ++ dec v.toNat

/-- `impl fmt::Display for EventLogType`, `src/structures/015_system_event_log/log_record_format.rs` 284-338. -/
def system_event_log.EventLogType.display : Bool → system_event_log.EventLogType → Text
  | true, .Reserved v => txt! "Reserved: " ++ dec v.toNat
  | false, .Reserved _ => txt! "Reserved"
  | _, .SingleBitEccMemoryError => txt! "Single-bit ECC memory error"
  | _, .MultiBitEccMemoryError => txt! "Multi-bit ECC memory error"
  | _, .ParityMemoryError => txt! "Parity memory error"
  | true, .BusTimeOut => txt! "Bus time-out"
  | false, .BusTimeOut => txt! "Bus timeout"
  | true, .IoChannelCheck => txt! "I/O Channel Check"
  | false, .IoChannelCheck => txt! "I/O channel block"
  | _, .SoftwareNmi => txt! "Software NMI"
  | true, .PostMemoryResize => txt! "POST Memory Resize"
  | false, .PostMemoryResize => txt! "POST memory resize"
  | true, .PostError => txt! "POST Error"
  | false, .PostError => txt! "POST error"
  | true, .PciParityError => txt! "PCI Parity Error"
  | false, .PciParityError => txt! "PCI parity error"
  | true, .PciSystemError => txt! "PCI System Error"
  | false, .PciSystemError => txt! "PCI system error"
  | true, .CpuFailure => txt! "CPU Failure"
  | false, .CpuFailure => txt! "CPU failure"
  | true, .EisaFailSafeTimerTimeOut => txt! "EISA FailSafe Timer time-out"
  | false, .EisaFailSafeTimerTimeOut => txt! "EISA failsafe timer timeout"
  | _, .CorrectableMemoryLogDisabled => txt! "Correctable memory log disabled"
  | true, .LoggingDisabledForSpecificEventType => txt! "Logging disabled for a specific Event Type"
  | false, .LoggingDisabledForSpecificEventType => txt! "Logging disabled"
  | true, .SystemLimitExceeded => txt! "System Limit Exceeded"
  | false, .SystemLimitExceeded => txt! "System limit exceeded"
  | true, .AsynchronousHardwareTimerExpired =>
    txt! "Asynchronous hardware timer expired and issued a system reset"
  | false, .AsynchronousHardwareTimerExpired => txt! "Asynchronous hardware timer expired"
  | _, .SystemConfigurationInformation => txt! "System configuration information"
  | true, .HardDiskInformation => txt! "Hard-disk information"
  | false, .HardDiskInformation => txt! "Hard disk information"
  | _, .SystemReconfigured => txt! "System reconfigured"
  | _, .UncorrectableCpuComplexError => txt! "Uncorrectable CPU-complex error"
  | true, .LogAreaReset => txt! "Log Area Reset/Cleared"
  | false, .LogAreaReset => txt! "Log area reset/cleared"
  | _, .SystemBoot => txt! "System boot"
  | _, .Unused v => txt! "Unused: " ++ dec v.toNat
  | true, .Available v => txt! "Available for system- and OEM-specific assignments: " ++ dec v.toNat
  | false, .Available _ => txt! "OEM-specific"
  | _, .EndOfLog => txt! "End of log"

/-- `impl fmt::Display for SystemManagementType`, `src/structures/015_system_event_log/log_record_format.rs` 503-542. -/
def system_event_log.SystemManagementType.display : system_event_log.SystemManagementType → Text
  | .OutOfRangeVoltagePlus2_5Num1 => txt! "+2.5V Out of range, #1"
  | .OutOfRangeVoltagePlus2_5Num2 => txt! "+2.5V Out of range, #2"
  | .OutOfRangeVoltagePlus3_3 => txt! "+3.3V Out of range"
  | .OutOfRangeVoltagePlus5 => txt! "+5V Out of range"
  | .OutOfRangeVoltageMinus5 => txt! "-5V Out of range"
  | .OutOfRangeVoltagePlus12 => txt! "+12V Out of range"
  | .OutOfRangeVoltageMinus12 => txt! "-12V Out of range"
  | .OutOfRangeVoltageReserved v => txt! "Out-of-range voltage reserved: " ++ dec v.toNat
  | .OutOfRangeTemperatureSystemBoard => txt! "System board temperature out of range"
  | .OutOfRangeTemperatureProcessor1 => txt! "Processor #1 temperature out of range"
  | .OutOfRangeTemperatureProcessor2 => txt! "Processor #2 temperature out of range"
  | .OutOfRangeTemperatureProcessor3 => txt! "Processor #3 temperature out of range"
  | .OutOfRangeTemperatureProcessor4 => txt! "Processor #4 temperature out of range"
  | .OutOfRangeTemperatureReserved v => txt! "Out-of-range temperatures reserved: " ++ dec v.toNat
  | .OutOfRangeFan v => txt! "Fan " ++ dec v.toNat ++ txt! " Out of range"
  | .ChassisSecureSwitchActivated => txt! "Chassis secure switch activated"
  | .OutOfRangeSystemManagementProbe v =>
    txt! "A system-management probe or cooling device with handle 0x" ++ zeroPad 4 (hexUpper v.toNat) ++ txt! " is out of range"
  | .OemAssigned v => txt! "OEM assigned: " ++ dec v.toNat
  | .Reserved v => txt! "Reserved: " ++ dec v.toNat

/-- `impl fmt::Display for MemoryArrayLocation`, `src/structures/016_physical_memory_array.rs` 55-76. -/
def physical_memory_array.MemoryArrayLocation.display : physical_memory_array.MemoryArrayLocation → Text
  | .Other => txt! "Other"
  | .Unknown => txt! "Unknown"
  | .SystemBoardOrMotherboard => txt! "System board or motherboard"
  | .IsaAddOnCard => txt! "ISA add-on card"
  | .EisaAddOnCard => txt! "EISA add-on card"
  | .PciAddOnCard => txt! "PCI add-on card"
  | .McaAddOnCard => txt! "MCA add-on card"
  | .PcmciaAddOnCard => txt! "PCMCIA add-on card"
  | .ProprietaryAddOnCard => txt! "Proprietary add-on card"
  | .NuBus => txt! "NuBus"
  | .Pc98c20AddOnCard => txt! "PC-98/C20 add-on card"
  | .Pc98c24AddOnCard => txt! "PC-98/C24 add-on card"
  | .Pc98eAddOnCard => txt! "PC-98/E add-on card"
  | .Pc98LocalBusAddOnCard => txt! "PC-98/Local bus add-on card"
  | .CxlAddOnCard => txt! "CXL add-on card"
  | .Undefined t => txt! "Undefined: " ++ dec t.toNat

/-- `impl fmt::Display for MemoryArrayUse`, `src/structures/016_physical_memory_array.rs` 106-119. -/
def physical_memory_array.MemoryArrayUse.display : physical_memory_array.MemoryArrayUse → Text
  | .Other => txt! "Other"
  | .Unknown => txt! "Unknown"
  | .SystemMemory => txt! "System memory"
  | .VideoMemory => txt! "Video memory"
  | .FlashMemory => txt! "Flash memory"
  | .NonVolatileRam => txt! "Non-volatile RAM"
  | .CacheMemory => txt! "Cache memory"
  | .Undefined t => txt! "Undefined: " ++ dec t.toNat

/-- `impl fmt::Display for MemoryArrayErrorCorrectionTypes`, `src/structures/016_physical_memory_array.rs` 149-162. -/
def physical_memory_array.MemoryArrayErrorCorrectionTypes.display : physical_memory_array.MemoryArrayErrorCorrectionTypes → Text
  | .Other => txt! "Other"
  | .Unknown => txt! "Unknown"
  | .None => txt! "None"
  | .Parity => txt! "Parity"
  | .SingleBitEcc => txt! "Single-bit ECC"
  | .MultiBitEcc => txt! "Multi-bit ECC"
  | .CRC => txt! "CRC"
  | .Undefined t => txt! "Undefined: " ++ dec t.toNat

/-- `impl fmt::Display for ErrorType`, `src/structures/018_memory_error_32.rs` 123-143. -/
def memory_error_32.ErrorType.display : memory_error_32.ErrorType → Text
  | .Other => txt! "Other"
  | .Unknown => txt! "Unknown"
  | .Ok => txt! "OK"
  | .BadRead => txt! "Bad read"
  | .ParityError => txt! "Parity error"
  | .SingleBitError => txt! "Single-bit error"
  | .DoubleBitError => txt! "Double-bit error"
  | .MultiBitError => txt! "Multi-bit error"
  | .NibbleError => txt! "Nibble error"
  | .ChecksumError => txt! "Checksum error"
  | .CrcError => txt! "CRC error"
  | .CorrectedSingleBitError => txt! "Corrected single-bit error"
  | .CorrectedError => txt! "Corrected error"
  | .UncorrectableError => txt! "Uncorrectable error"
  | .Undefined v => txt! "Undefined: " ++ dec v.toNat

/-- `impl fmt::Display for ErrorGranularity`, `src/structures/018_memory_error_32.rs` 156-166. -/
def memory_error_32.ErrorGranularity.display : memory_error_32.ErrorGranularity → Text
  | .Other => txt! "Other"
  | .Unknown => txt! "Unknown"
  | .DeviceLevel => txt! "Device level"
  | .MemoryPartitionLevel => txt! "Memory partition level"
  | .Undefined v => txt! "Undefined: " ++ dec v.toNat

/-- `impl fmt::Display for ErrorOperation`, `src/structures/018_memory_error_32.rs` 180-191. -/
def memory_error_32.ErrorOperation.display : memory_error_32.ErrorOperation → Text
  | .Other => txt! "Other"
  | .Unknown => txt! "Unknown"
  | .Read => txt! "Read"
  | .Write => txt! "Write"
  | .PartialWrite => txt! "Partial write"
  | .Undefined v => txt! "Undefined: " ++ dec v.toNat

/-- `impl fmt::Display for Type`, `src/structures/021_built_in_pointing_device.rs` 101-116. -/
def built_in_pointing_device.DeviceType.display : built_in_pointing_device.DeviceType → Text
  | .Other => txt! "Other"
  | .Unknown => txt! "Unknown"
  | .Mouse => txt! "Mouse"
  | .TrackBall => txt! "Track Ball"
  | .TrackPoint => txt! "Track Point"
  | .GlidePoint => txt! "Glide Point"
  | .TouchPad => txt! "Touch Pad"
  | .TouchScreen => txt! "Touch Screen"
  | .OpticalSensor => txt! "Optical Sensor"
  | .Undefined v => txt! "Undefined: " ++ dec v.toNat

/-- `impl fmt::Display for Interface`, `src/structures/021_built_in_pointing_device.rs` 136-153. -/
def built_in_pointing_device.Interface.display : built_in_pointing_device.Interface → Text
  | .Other => txt! "Other"
  | .Unknown => txt! "Unknown"
  | .Serial => txt! "Serial"
  | .Ps2 => txt! "PS/2"
  | .Infrared => txt! "Infrared"
  | .HpHil => txt! "HP-HIL"
  | .BusMouse => txt! "Bus mouse"
  | .Adb => txt! "ADB (Apple Desktop Bus)"
  | .BusMouseDb9 => txt! "Bus mouse DB-9"
  | .BusMouseMicroDin => txt! "Bus mouse micro-DIN"
  | .Usb => txt! "USB"
  | .Undefined v => txt! "Undefined: " ++ dec v.toNat

/-- `impl fmt::Display for DeviceChemistry`, `src/structures/022_portable_battery.rs` 206-221. -/
def portable_battery.DeviceChemistry.display : portable_battery.DeviceChemistry → Text
  | .Other => txt! "Other"
  | .Unknown => txt! "Unknown"
  | .LeadAcid => txt! "Lead Acid"
  | .NickelCadmium => txt! "Nickel Cadmium"
  | .NickelMetalHydride => txt! "Nickel metal hydride"
  | .LithiumIon => txt! "Lithium-ion"
  | .ZincAir => txt! "Zinc air"
  | .LithiumPolymer => txt! "Lithium Polymer"
  | .Undefined v => txt! "Undefined: " ++ dec v.toNat
  | .SmartBatteryDataSpecification s => str s

end Dmi
