import Verif.Model.Enums
/-!
# Code tables

For each enumerated field, the codes and the values they stand for, written as runs: a first
code and the values of that code and the following ones. Values are named by the variants of
the crate. Codes in no run have no name.

Provenance. No copy of DSP0134 was available while writing this file. The tables were
generated from the arms of the crate's own `match` expressions and then reviewed against the
author's recollection of DSP0134 3.4.0. Three of them were changed where the recollection
differs from the crate: `system_slots.SlotType` (1Fh, 20h, 24h, 25h),
`memory_device.FormFactor` (00h-08h) and `physical_memory_array.MemoryArrayLocation`
(0Bh-0Fh against A0h-A4h). So for the unchanged tables agreement with the crate is a check
against later edits of the decoder, not independent evidence that the crate follows DSP0134,
and the three deviations should be confirmed against the document.
-/
namespace Dmi.Spec

/-- A code table: runs of consecutive codes. -/
abbrev Table (α : Type) := List (Nat × List α)

/-- The name of a code, if it has one. -/
def named {α : Type} (t : Table α) (n : Nat) : Option α :=
  t.findSome? fun r => if r.1 ≤ n then r.2[n - r.1]? else none

/-- All names of a table. -/
def names {α : Type} (t : Table α) : List α := t.flatMap Prod.snd

/-- `dec` decodes named codes to their name and the others to `other`. -/
def Conforms {α : Type} (dec : UInt8 → α) (t : Table α) (other : UInt8 → α) : Prop :=
  ∀ b, dec b = (named t b.toNat).getD (other b)

namespace Codes

/-- Codes of `InfoType`. -/
def InfoType : Table Dmi.InfoType := [
  (0x00, [
    .Bios, .System, .BaseBoard, .Enclosure, .Processor]),
  (0x07, [
    .Cache, .PortConnector, .SystemSlots]),
  (0x0B, [
    .OemStrings, .SystemConfigurationOptions, .BiosLanguage, .GroupAssociations,
    .SystemEventLog, .PhysicalMemoryArray, .MemoryDevice, .MemoryError32,
    .MemoryArrayMappedAddress, .MemoryDeviceMappedAddress, .BuiltInPointingDevice,
    .PortableBattery]),
  (0x20, [
    .SystemBoot]),
  (0x7F, [
    .End])]

/-- Codes of `system.WakeupType`. -/
def system.WakeupType : Table Dmi.system.WakeupType := [
  (0x00, [
    .Reserved, .Other, .Unknown, .APM_Timer, .Modem_Ring, .LAN_Remote, .Power_Switch,
    .PCI_PME, .AC_Power_Restored])]

/-- Codes of `baseboard.BoardType`. -/
def baseboard.BoardType : Table Dmi.baseboard.BoardType := [
  (0x01, [
    .Unknown, .Other, .ServerBlade, .ConnectivitySwitch, .SystemManagementModule,
    .ProcessorModule, .IoModule, .MemoryModule, .DaughterBoard, .MotherBoard,
    .ProcessorMemoryModule, .ProcessorIoModule, .InterconnectBoard])]

/-- Codes of `enclosure.EnclosureType`. -/
def enclosure.EnclosureType : Table Dmi.enclosure.EnclosureType := [
  (0x01, [
    .Other, .Unknown, .Desktop, .LowProfileDesktop, .PizzaBox, .MiniTower, .Tower,
    .Portable, .Laptop, .Notebook, .HandHeld, .DockingStation, .AllInOne, .SubNotebook,
    .SpaceSaving, .LunchBox, .MainServerChassis, .ExpansionChassis, .SubChassis,
    .BusExpansionChassis, .PeripheralChassis, .RaidChassis, .RackMountChassis,
    .SealedCasePc, .MultiSystemChassis, .CompactPci, .AdvancedTca, .Blade,
    .BladeEnclosure, .Tablet, .Convertible, .Detachable, .IotGateway, .EmbeddedPc,
    .MiniPc, .StickPc])]

/-- Codes of `enclosure.State`. -/
def enclosure.State : Table Dmi.enclosure.State := [
  (0x01, [
    .Other, .Unknown, .Safe, .Warning, .Critical, .NonRecoverable])]

/-- Codes of `enclosure.SecurityStatus`. -/
def enclosure.SecurityStatus : Table Dmi.enclosure.SecurityStatus := [
  (0x01, [
    .Other, .Unknown, .None, .ExternalInterfaceLockedOut, .ExternalInterfaceEnabled])]

/-- Codes of `processor.ProcessorType`. -/
def processor.ProcessorType : Table Dmi.processor.ProcessorType := [
  (0x01, [
    .Other, .Unknown, .CentralProcessor, .MathProcessor, .DspProcessor, .VideoProcessor])]

/-- Codes of `processor.ProcessorFamily`. -/
def processor.ProcessorFamily : Table Dmi.processor.ProcessorFamily := [
  (0x00, [
    .OutOfSpec, .Other, .Unknown, .Intel8086, .Intel80286, .Intel386Processor,
    .Intel486Processor, .Intel8087, .Intel80287, .Intel80387, .Intel80487,
    .IntelPentiumProcessor, .PentiumProProcessor, .PentiumIIProcessor,
    .PentiumProcessorWithMMXTechnology, .IntelCeleronProcessor, .PentiumIIXeonProcessor,
    .PentiumIIIProcessor, .M1Family, .M2Family, .IntelCeleronMProcessor,
    .IntelPentium4HTProcessor]),
  (0x18, [
    .AMDDuronProcessorFamily, .K5Family, .K6Family, .K62, .K63,
    .AMDAthlonProcessorFamily, .AMD29000Family, .K62Plus, .PowerPCFamily, .PowerPC601,
    .PowerPC603, .PowerPC603Plus, .PowerPC604, .PowerPC620, .PowerPCX704, .PowerPC750,
    .IntelCoreDuoProcessor, .IntelCoreDuoMobileProcessor, .IntelCoreSoloMobileProcessor,
    .IntelAtomProcessor, .IntelCoreMProcessor, .IntelCoreM3Processor,
    .IntelCoreM5Processor, .IntelCoreM7Processor, .AlphaFamily, .Alpha21064,
    .Alpha21066, .Alpha21164, .Alpha21164PC, .Alpha21164a, .Alpha21264, .Alpha21364,
    .AMDTurionIIUltraDualCoreMobileMProcessorFamily,
    .AMDTurionIIDualCoreMobileMProcessorFamily, .AMDAthlonIIDualCoreMProcessorFamily,
    .AMDOpteron6100SeriesProcessor, .AMDOpteron4100SeriesProcessor,
    .AMDOpteron6200SeriesProcessor, .AMDOpteron4200SeriesProcessor,
    .AMDFXSeriesProcessor, .MIPSFamily, .MIPSR4000, .MIPSR4200, .MIPSR4400, .MIPSR4600,
    .MIPSR10000, .AMDCSeriesProcessor, .AMDESeriesProcessor, .AMDASeriesProcessor,
    .AMDGSeriesProcessor, .AMDZSeriesProcessor, .AMDRSeriesProcessor,
    .AMDOpteron4300SeriesProcessor, .AMDOpteron6300SeriesProcessor,
    .AMDOpteron3300SeriesProcessor, .AMDFireProSeriesProcessor, .SPARCFamily,
    .SuperSPARC, .MicroSPARCII, .MicroSPARCIIep, .UltraSPARC, .UltraSPARCII,
    .UltraSPARCIii, .UltraSPARCIII, .UltraSPARCIIIi]),
  (0x60, [
    .Motorola68040Family, .Motorola68xxx, .Motorola68000, .Motorola68010,
    .Motorola68020, .Motorola68030, .AMDAthlonX4QuadCoreProcessorFamily,
    .AMDOpteronX1000SeriesProcessor, .AMDOpteronX2000SeriesAPU,
    .AMDOpteronASeriesProcessor, .AMDOpteronX3000SeriesAPU, .AMDZenProcessorFamily]),
  (0x70, [
    .HobbitFamily]),
  (0x78, [
    .CrusoeTM5000Family, .CrusoeTM3000Family, .EfficeonTM8000Family]),
  (0x80, [
    .Weitek]),
  (0x82, [
    .ItaniumProcessor, .AMDAthlon64ProcessorFamily, .AMDOpteronProcessorFamily,
    .AMDSempronProcessorFamily, .AMDTurion64MobileTechnology,
    .DualCoreAMDOpteronProcessorFamily, .AMDAthlon64X2DualCoreProcessorFamily,
    .AMDTurion64X2MobileTechnology, .QuadCoreAMDOpteronProcessorFamily,
    .ThirdGenerationAMDOpteronProcessorFamily, .AMDPhenomFXQuadCoreProcessorFamily,
    .AMDPhenomX4QuadCoreProcessorFamily, .AMDPhenomX2DualCoreProcessorFamily,
    .AMDAthlonX2DualCoreProcessorFamily, .PARISCFamily, .PARISC8500, .PARISC8000,
    .PARISC7300LC, .PARISC7200, .PARISC7100LC, .PARISC7100]),
  (0xA0, [
    .V30Family, .QuadCoreIntelXeonProcessor3200Series,
    .DualCoreIntelXeonProcessor3000Series, .QuadCoreIntelXeonProcessor5300Series,
    .DualCoreIntelXeonProcessor5100Series, .DualCoreIntelXeonProcessor5000Series,
    .DualCoreIntelXeonProcessorLV, .DualCoreIntelXeonProcessorULV,
    .DualCoreIntelXeonProcessor7100Series, .QuadCoreIntelXeonProcessor5400Series,
    .QuadCoreIntelXeonProcessor, .DualCoreIntelXeonProcessor5200Series,
    .DualCoreIntelXeonProcessor7200Series, .QuadCoreIntelXeonProcessor7300Series,
    .QuadCoreIntelXeonProcessor7400Series, .MultiCoreIntelXeonProcessor7400Series,
    .PentiumIIIXeonProcessor, .PentiumIIIProcessorWithIntelSpeedStepTechnology,
    .Pentium4Processor, .IntelXeonProcessor, .AS400Family, .IntelXeonProcessorMP,
    .AMDAthlonXPProcessorFamily, .AMDAthlonMPProcessorFamily, .IntelItanium2Processor,
    .IntelPentiumMProcessor, .IntelCeleronDProcessor, .IntelPentiumDProcessor,
    .IntelPentiumProcessorExtremeEdition, .IntelCoreSoloProcessor, .Ambiguous,
    .IntelCore2DuoProcessor, .IntelCore2SoloProcessor, .IntelCore2ExtremeProcessor,
    .IntelCore2QuadProcessor, .IntelCore2ExtremeMobileProcessor,
    .IntelCore2DuoMobileProcessor, .IntelCore2SoloMobileProcessor,
    .IntelCoreI7Processor, .DualCoreIntelCeleronProcessor, .IBM390Family, .G4, .G5,
    .ESA390G6, .ZArchitectureBase, .IntelCoreI5Processor, .IntelCoreI3Processor,
    .IntelCoreI9Processor]),
  (0xD2, [
    .VIAC7MProcessorFamily, .VIAC7DProcessorFamily, .VIAC7ProcessorFamily,
    .VIAEdenProcessorFamily, .MultiCoreIntelXeonProcessor,
    .DualCoreIntelXeonProcessor3xxxSeries, .QuadCoreIntelXeonProcessor3xxxSeries,
    .VIANanoProcessorFamily, .DualCoreIntelXeonProcessor5xxxSeries,
    .QuadCoreIntelXeonProcessor5xxxSeries]),
  (0xDD, [
    .DualCoreIntelXeonProcessor7xxxSeries, .QuadCoreIntelXeonProcessor7xxxSeries,
    .MultiCoreIntelXeonProcessor7xxxSeries, .MultiCoreIntelXeonProcessor3400Series]),
  (0xE4, [
    .AMDOpteron3000SeriesProcessor, .AMDSempronIIProcessor,
    .EmbeddedAMDOpteronQuadCoreProcessorFamily, .AMDPhenomTripleCoreProcessorFamily,
    .AMDTurionUltraDualCoreMobileProcessorFamily,
    .AMDTurionDualCoreMobileProcessorFamily, .AMDAthlonDualCoreProcessorFamily,
    .AMDSempronSIProcessorFamily, .AMDPhenomIIProcessorFamily,
    .AMDAthlonIIProcessorFamily, .SixCoreAMDOpteronProcessorFamily,
    .AMDSempronMProcessorFamily]),
  (0xFA, [
    .I860, .I960]),
  (0xFE, [
    .ProcessorFamily2]),
  (0x100, [
    .ARMv7, .ARMv8, .ARMv9]),
  (0x104, [
    .SH3, .SH4]),
  (0x118, [
    .ARM, .StrongARM]),
  (0x12C, [
    .Cyrix6x86, .MediaGX, .MII]),
  (0x140, [
    .WinChip]),
  (0x15E, [
    .DSP]),
  (0x1F4, [
    .VideoProcessor]),
  (0x200, [
    .RISCVRV32, .RISCVRV64, .RISCVRV128]),
  (0xFFFE, [
    .ForFutureUse])]

/-- Codes of `processor.ProcessorUpgrade`. -/
def processor.ProcessorUpgrade : Table Dmi.processor.ProcessorUpgrade := [
  (0x01, [
    .Other, .Unknown, .DaughterBoard, .ZIFSocket, .ReplaceablePiggyBack, .None,
    .LIFSocket, .Slot1, .Slot2, .Socket370, .SlotA, .SlotM, .Socket423, .SocketA,
    .Socket478, .Socket754, .Socket940, .Socket939, .SocketmPGA604, .SocketLGA771,
    .SocketLGA775, .SocketS1, .SocketAM2, .SocketF, .SocketLGA1366, .SocketG34,
    .SocketAM3, .SocketC32, .SocketLGA1156, .SocketLGA1567, .SocketPGA988A,
    .SocketBGA1288, .SocketrPGA988B, .SocketBGA1023, .SocketBGA1224, .SocketLGA1155,
    .SocketLGA1356, .SocketLGA2011, .SocketFS1, .SocketFS2, .SocketFM1, .SocketFM2,
    .SocketLGA2011Three, .SocketLGA1356Three, .SocketLGA1150, .SocketBGA1168,
    .SocketBGA1234, .SocketBGA1364, .SocketAM4, .SocketLGA1151, .SocketBGA1356,
    .SocketBGA1440, .SocketBGA1515, .SocketLGA3647, .SocketSP3, .SocketSP3r2,
    .SocketLGA2066, .SocketBGA1392, .SocketBGA1510, .SocketBGA1528, .SocketLGA4189,
    .SocketLGA1200])]

/-- Codes of `cache.CacheErrorCorrectionType`. -/
def cache.CacheErrorCorrectionType : Table Dmi.cache.CacheErrorCorrectionType := [
  (0x01, [
    .Other, .Unknown, .None, .Parity, .SingleBitEcc, .MultiBitEcc])]

/-- Codes of `cache.SystemCacheType`. -/
def cache.SystemCacheType : Table Dmi.cache.SystemCacheType := [
  (0x01, [
    .Other, .Unknown, .Instruction, .Data, .Unified])]

/-- Codes of `cache.CacheAssociativity`. -/
def cache.CacheAssociativity : Table Dmi.cache.CacheAssociativity := [
  (0x01, [
    .Other, .Unknown, .DirectMapped, .TwowaySetAssociative, .FourWaySetAssociative,
    .FullyAssociative, .EightWaySetAssociative, .SixteenWaySetAssociative,
    .TwelveWaySetAssociative, .TwentyFourWaySetAssociative, .ThirtyTwoWaySetAssociative,
    .FourtyEightWaySetAssociative, .SixtyFourWaySetAssociative, .TwentyWaySetAssociative])]

/-- Codes of `port_connector.ConnectorType`. -/
def port_connector.ConnectorType : Table Dmi.port_connector.ConnectorType := [
  (0x00, [
    .None, .Centronics, .MiniCentronics, .Proprietary, .Db25PinMale, .Db25PinFemale,
    .Db15PinMale, .Db15PinFemale, .Db9PinMale, .Db9PinFemale, .Rj11, .Rj45, .MiniScsi,
    .MiniDin, .MicroDin, .Ps2, .Infrared, .HpHil, .AccessBus, .SsaScsi,
    .CircularDin8Male, .CircularDin8Female, .OnBoardIde, .OnBoardFloppy, .DualInline9,
    .DualInline25, .DualInline50, .DualInline68, .OnBoardSoundInputFromCdRom,
    .MiniCentronicsType14, .MiniCentronicsType26, .MiniJack, .Bnc, .Ieee1394,
    .SasSataPlugReceptacle, .UsbTypeCReceptacle]),
  (0xA0, [
    .Pc98, .Pc98Hireso, .PcH98, .Pc98Note, .Pc98Full]),
  (0xFF, [
    .Other])]

/-- Codes of `port_connector.PortType`. -/
def port_connector.PortType : Table Dmi.port_connector.PortType := [
  (0x00, [
    .None, .ParallelPortXtAtCompatible, .ParallelPortPs2, .ParallelPortEcp,
    .ParallelPortEpp, .ParallelPortEcpEpp, .SerialPortXtAtCompatible,
    .SerialPort16450Compatible, .SerialPort16550Compatible, .SerialPort16550ACompatible,
    .ScsiPort, .MidiPort, .JoyStickPort, .KeyboardPort, .MousePort, .SsaScsi, .Usb,
    .FireWire, .PcmciaType1, .PcmciaType2, .PcmciaType3, .Cardbus, .AccessBusPort,
    .Scsi2, .ScsiWide, .Pc98, .Pc98Hireso, .PcH98, .VideoPort, .AudioPort, .ModemPort,
    .NetworkPort, .Sata, .Sas, .MultiFunctionDisplayPort, .Thunderbolt]),
  (0xA0, [
    .Intel8251Compatible, .Intel8251FifoCompatible]),
  (0xFF, [
    .Other])]

/-- Codes of `system_slots.SlotType`. -/
def system_slots.SlotType : Table Dmi.system_slots.SlotType := [
  (0x01, [
    .Other, .Unknown, .Isa, .Mca, .Eisa, .Pci, .PcCard, .VlVesa, .Proprietary,
    .ProcessorCardSlot, .ProprietaryMemoryCardSlot, .IoRiserCardSlot, .Nubus, .Pci66Mhz,
    .Agp, .Agp2x, .Agp4x, .PciX, .Agp8x, .M2Socket1DP, .M2Socket1SD, .M2Socket2,
    .M2Socket3, .MxmType1, .MxmType2, .MxmType3, .MxmType3He, .MxmType4, .Mxm3TypeA,
    .Mxm3TypeB, .U2PciExpressGen2, .U2PciExpressGen3, .PciExpressMini52pin1,
    .PciExpressMini52pin2, .PciExpressMini76pin, .U2PciExpressGen4, .U2PciExpressGen5,
    .OcpNic3Small, .OcpNic3Large, .OcpNicPriorTo3]),
  (0x30, [
    .CxlFlexbus1]),
  (0xA0, [
    .Pc98C20, .Pc98C24, .Pc98E, .Pc98LocalBus, .Pc98Card, .PciExpress, .PciExpressX1,
    .PciExpressX2, .PciExpressX4, .PciExpressX8, .PciExpressX16, .PciExpressGen2,
    .PciExpressGen2x1, .PciExpressGen2x2, .PciExpressGen2x4, .PciExpressGen2x8,
    .PciExpressGen2x16, .PciExpressGen3, .PciExpressGen3x1, .PciExpressGen3x2,
    .PciExpressGen3x4, .PciExpressGen3x8, .PciExpressGen3x16]),
  (0xB8, [
    .PciExpressGen4, .PciExpressGen4x1, .PciExpressGen4x2, .PciExpressGen4x4,
    .PciExpressGen4x8, .PciExpressGen4x16, .PciExpressGen5, .PciExpressGen5x1,
    .PciExpressGen5x2, .PciExpressGen5x4, .PciExpressGen5x8, .PciExpressGen5x16,
    .PciExpressGen6, .E1FormFactorSlot, .E3FormFactorSlot])]

/-- Codes of `system_slots.SlotWidth`. -/
def system_slots.SlotWidth : Table Dmi.system_slots.SlotWidth := [
  (0x01, [
    .Other, .Unknown, .Byte, .Word, .Dword, .Qword, .Dqword, .X1, .X2, .X4, .X8, .X12,
    .X16, .X32])]

/-- Codes of `system_slots.CurrentUsage`. -/
def system_slots.CurrentUsage : Table Dmi.system_slots.CurrentUsage := [
  (0x01, [
    .Other, .Unknown, .Available, .InUse, .Unavailable])]

/-- Codes of `system_slots.SlotLength`. -/
def system_slots.SlotLength : Table Dmi.system_slots.SlotLength := [
  (0x01, [
    .Other, .Unknown, .ShortLength, .LongLength, .DriveFormFactor2_5,
    .DriveFormFactor3_5])]

/-- Codes of `system_event_log.LogHeaderFormat`. -/
def system_event_log.LogHeaderFormat : Table Dmi.system_event_log.LogHeaderFormat := [
  (0x00, [
    .NoHeader, .LogHeaderType1])]

/-- Codes of `system_event_log.EventLogType`. -/
def system_event_log.EventLogType : Table Dmi.system_event_log.EventLogType := [
  (0x01, [
    .SingleBitEccMemoryError, .MultiBitEccMemoryError, .ParityMemoryError, .BusTimeOut,
    .IoChannelCheck, .SoftwareNmi, .PostMemoryResize, .PostError, .PciParityError,
    .PciSystemError, .CpuFailure, .EisaFailSafeTimerTimeOut,
    .CorrectableMemoryLogDisabled, .LoggingDisabledForSpecificEventType]),
  (0x10, [
    .SystemLimitExceeded, .AsynchronousHardwareTimerExpired,
    .SystemConfigurationInformation, .HardDiskInformation, .SystemReconfigured,
    .UncorrectableCpuComplexError, .LogAreaReset, .SystemBoot]),
  (0xFF, [
    .EndOfLog])]

/-- Codes of `physical_memory_array.MemoryArrayLocation`. -/
def physical_memory_array.MemoryArrayLocation : Table Dmi.physical_memory_array.MemoryArrayLocation := [
  (0x01, [
    .Other, .Unknown, .SystemBoardOrMotherboard, .IsaAddOnCard, .EisaAddOnCard,
    .PciAddOnCard, .McaAddOnCard, .PcmciaAddOnCard, .ProprietaryAddOnCard, .NuBus]),
  (0xA0, [
    .Pc98c20AddOnCard, .Pc98c24AddOnCard, .Pc98eAddOnCard, .Pc98LocalBusAddOnCard,
    .CxlAddOnCard])]

/-- Codes of `physical_memory_array.MemoryArrayUse`. -/
def physical_memory_array.MemoryArrayUse : Table Dmi.physical_memory_array.MemoryArrayUse := [
  (0x01, [
    .Other, .Unknown, .SystemMemory, .VideoMemory, .FlashMemory, .NonVolatileRam,
    .CacheMemory])]

/-- Codes of `physical_memory_array.MemoryArrayErrorCorrectionTypes`. -/
def physical_memory_array.MemoryArrayErrorCorrectionTypes : Table Dmi.physical_memory_array.MemoryArrayErrorCorrectionTypes := [
  (0x01, [
    .Other, .Unknown, .None, .Parity, .SingleBitEcc, .MultiBitEcc, .CRC])]

/-- Codes of `memory_device.ErrorGranularity`. -/
def memory_device.ErrorGranularity : Table Dmi.memory_device.ErrorGranularity := [
  (0x01, [
    .Other, .Unknown, .DeviceLevel, .MemoryLevel])]

/-- Codes of `memory_device.ErrorOperation`. -/
def memory_device.ErrorOperation : Table Dmi.memory_device.ErrorOperation := [
  (0x01, [
    .Other, .Unknown, .Read, .Write, .PartialWrite])]

/-- Codes of `memory_device.ErrorType`. -/
def memory_device.ErrorType : Table Dmi.memory_device.ErrorType := [
  (0x01, [
    .Other, .Unknown, .Ok, .BadRead, .Parity, .SingleBit, .DoubleBit, .MultiBit,
    .Nibble, .Checksum, .Crc, .CorrectedSingleBit, .Corrected, .Uncorrectable])]

/-- Codes of `memory_device.FormFactor`. -/
def memory_device.FormFactor : Table Dmi.memory_device.FormFactor := [
  (0x01, [
    .Other, .Unknown, .Simm, .Sip, .Chip, .Dip, .Zip, .ProprietaryCard, .Dimm, .Tsop,
    .RowOfChips, .Rimm, .SoDimm, .Srimm, .FbDimm])]

/-- Codes of `memory_device.MemoryTechnology`. -/
def memory_device.MemoryTechnology : Table Dmi.memory_device.MemoryTechnology := [
  (0x01, [
    .Other, .Unknown, .Dram, .NvDimmN, .NvDimmF, .NvDimmP, .IntelOptane])]

/-- Codes of `memory_device.MemoryType`. -/
def memory_device.MemoryType : Table Dmi.memory_device.MemoryType := [
  (0x01, [
    .Other, .Unknown, .Dram, .Edram, .Vram, .Sram, .Ram, .Rom, .Flash, .Eeprom, .Feprom,
    .Eprom, .Cdram, .ThreeDram, .Sdram, .Sgram, .Rdram, .Ddr, .Ddr2, .Ddr2FbDimm,
    .Reserved, .Reserved, .Reserved, .Ddr3, .Fbd2, .Ddr4, .LpDdr, .LpDdr2, .LpDdr3,
    .LpDdr4, .LogicalNonVolatileDevice, .Hbm, .Hbm2, .Ddr5, .LpDdr5])]

/-- Codes of `memory_error_32.ErrorType`. -/
def memory_error_32.ErrorType : Table Dmi.memory_error_32.ErrorType := [
  (0x01, [
    .Other, .Unknown, .Ok, .BadRead, .ParityError, .SingleBitError, .DoubleBitError,
    .MultiBitError, .NibbleError, .ChecksumError, .CrcError, .CorrectedSingleBitError,
    .CorrectedError, .UncorrectableError])]

/-- Codes of `memory_error_32.ErrorGranularity`. -/
def memory_error_32.ErrorGranularity : Table Dmi.memory_error_32.ErrorGranularity := [
  (0x01, [
    .Other, .Unknown, .DeviceLevel, .MemoryPartitionLevel])]

/-- Codes of `memory_error_32.ErrorOperation`. -/
def memory_error_32.ErrorOperation : Table Dmi.memory_error_32.ErrorOperation := [
  (0x01, [
    .Other, .Unknown, .Read, .Write, .PartialWrite])]

/-- Codes of `built_in_pointing_device.DeviceType`. -/
def built_in_pointing_device.DeviceType : Table Dmi.built_in_pointing_device.DeviceType := [
  (0x01, [
    .Other, .Unknown, .Mouse, .TrackBall, .TrackPoint, .GlidePoint, .TouchPad,
    .TouchScreen, .OpticalSensor])]

/-- Codes of `built_in_pointing_device.Interface`. -/
def built_in_pointing_device.Interface : Table Dmi.built_in_pointing_device.Interface := [
  (0x01, [
    .Other, .Unknown, .Serial, .Ps2, .Infrared, .HpHil, .BusMouse, .Adb]),
  (0xA0, [
    .BusMouseDb9, .BusMouseMicroDin, .Usb])]

end Codes
end Dmi.Spec
