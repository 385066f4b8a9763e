import Verif.Tests.Bitfield
import Verif.Model.S018
import Verif.Model.S022
import Verif.Host
/-!
# The tests of codes and labels in `src/structures`
-/
namespace Dmi.Tests
open Fmt

/-! ## `src/structures/003_enclosure.rs` -/

/-- `enclosure_type`, `src/structures/003_enclosure.rs` 517-532. (The loop ends at 24h, so the last arm of the
`match` is not reached.) -/
example : [0x01, 0x09, 0x18, 0x22].map (fun i => (enclosure.EnclosureType.ofU8 i, (enclosure.EnclosureType.ofU8 i).display)) =
    [(.Other, txt! "Other"), (.Laptop, txt! "Laptop"), (.SealedCasePc, txt! "Sealed-case PC"),
     (.EmbeddedPc, txt! "Embedded PC")] := by decide +kernel

/-- `state`, `src/structures/003_enclosure.rs` 534-548. -/
example : [0x01, 0x04, 0x06].map (fun i => (enclosure.State.ofU8 i, (enclosure.State.ofU8 i).display)) =
    [(.Other, txt! "Other"), (.Warning, txt! "Warning"), (.NonRecoverable, txt! "Non-recoverable")] := by
  decide +kernel
example : ∀ v ∈ (List.range 256).map UInt8.ofNat, 0xF0 ≤ v → enclosure.State.ofU8 v = .Undefined v ∧
    (enclosure.State.ofU8 v).display = txt! "Undefined: " ++ dec v.toNat := by decide +kernel

/-- `security_status`, `src/structures/003_enclosure.rs` 550-564. -/
example : [0x01, 0x03, 0x05].map (fun i => (enclosure.SecurityStatus.ofU8 i, (enclosure.SecurityStatus.ofU8 i).display)) =
    [(.Other, txt! "Other"), (.None, txt! "None"),
     (.ExternalInterfaceEnabled, txt! "External interface enabled")] := by decide +kernel
example : ∀ v ∈ (List.range 256).map UInt8.ofNat, 0xF0 ≤ v →
    enclosure.SecurityStatus.ofU8 v = .Undefined v ∧
    (enclosure.SecurityStatus.ofU8 v).display = txt! "Undefined: " ++ dec v.toNat := by decide +kernel

/-- `contained_element`, `src/structures/003_enclosure.rs` 566-596. -/
example : enclosure.ContainedElement.ofSlice [0b10001001, 1, 2] = .ok ⟨.InfoType .SystemSlots, 1, 2⟩ := by
  decide +kernel
example : (enclosure.ContainedElement.mk (.InfoType .SystemSlots) 1 2).display =
    txt! "Structure type: System Slots (1-2)" := by decide +kernel
example : enclosure.ContainedElement.ofSlice [0b00000100, 1, 2] =
    .ok ⟨.BoardType .ConnectivitySwitch, 1, 2⟩ := by decide +kernel
example : (enclosure.ContainedElement.mk (.BoardType .ConnectivitySwitch) 1 2).display =
    txt! "Baseboard type: Connectivity Switch (1-2)" := by decide +kernel

/-- `contained_elements`, `src/structures/003_enclosure.rs` 598-632. -/
example : both (fun oc => match enclosure.ContainedElements.new oc
      [0x02, 0x03, 0x91, 0x01, 0x02, 0x07, 0x03, 0x04, 0x03] with
    | .ok (some (e, data)) => (runR enclosure.ContainedElements.next 10 e).map fun l => (l, data)
    | _ => none)
    (some ([⟨.InfoType .MemoryDevice, 1, 2⟩, ⟨.BoardType .IoModule, 3, 4⟩], [0x03])) := by decide +kernel

/-! ## `src/structures/004_processor.rs` -/

/-- `processor_family`, `src/structures/004_processor.rs` 1655-1709. -/
example : [0x01, 0x15, 0x0D, 0x28, 0x3D, 0x50, 0x65, 0x8F, 0xBE, 0xC9, 0xFB, 0x100, 0x104, 0x118, 0x140,
      0xFF, 0xFFFE, 0xFFFF].map
      (fun i => (processor.ProcessorFamily.ofU16 i, (processor.ProcessorFamily.ofU16 i).display)) =
    [(.Other, txt! "Other"),
     (.IntelPentium4HTProcessor, txt! "Intel® Pentium® 4 HT processor"),
     (.PentiumIIProcessor, txt! "Pentium® II processor"),
     (.IntelCoreDuoProcessor, txt! "Intel® Core™ Duo processor"),
     (.AMDOpteron6200SeriesProcessor, txt! "AMD Opteron™ 6200 Series Processor"),
     (.SPARCFamily, txt! "SPARC Family"),
     (.Motorola68030, txt! "68030"),
     (.AMDAthlonX2DualCoreProcessorFamily, txt! "AMD Athlon™ X2 Dual-Core Processor Family"),
     (.Ambiguous, txt! "Ambiguous"),
     (.G4, txt! "G4"),
     (.I960, txt! "i960"),
     (.ARMv7, txt! "ARMv7"),
     (.SH3, txt! "SH-3"),
     (.ARM, txt! "ARM"),
     (.WinChip, txt! "WinChip"),
     (.NotUsed 0xFF, txt! "Not used. FFh is the un-initialized value of Flash memory."),
     (.ForFutureUse, txt! "For special use in the future"),
     (.NotUsed 0xFFFF, txt! "Not used. FFFFh is the un-initialized value of Flash memory.")] := by
  decide +kernel
/-- The ranges of available numbers (of `203h..=FFFDh`, both ends). -/
example : ∀ r ∈ [(0x16, 0x17), (0x59, 0x5F), (0x6C, 0x6F), (0x71, 0x77), (0x7B, 0x7F), (0x81, 0x81),
      (0x97, 0x9F), (0xD0, 0xD1), (0xDC, 0xDC), (0xE1, 0xE3), (0xF0, 0xF9), (0xFC, 0xFD), (0x1F5, 0x1FF),
      (0x203, 0x210), (0xFFF0, 0xFFFD)],
    ∀ i ∈ (List.range (r.2 + 1 - r.1)).map (· + r.1),
      processor.ProcessorFamily.ofU16 (.ofNat i) = .Available (.ofNat i) ∧
      (processor.ProcessorFamily.ofU16 (.ofNat i)).display = txt! "Available 0x" ++ hexUpper i := by
  decide +kernel

/-- `processor_voltage`, `src/structures/004_processor.rs` 1711-1747. -/
example : [0b00000000, 0b00000001, 0b00000010, 0b00000111, 0b00001000, 0b10010010, 0b11111111].map
      (fun i => (processor.Voltage.ofU8 i, (processor.Voltage.ofU8 i).display)) =
    [(.Legacy ⟨0⟩, txt! "Voltage capability unknown"),
     (.Legacy ⟨processor.VoltageLegacy.VOLTAGE_CAPABILITY_5V0⟩, txt! "Processor socket accept: 5.5V "),
     (.Legacy ⟨processor.VoltageLegacy.VOLTAGE_CAPABILITY_3V3⟩, txt! "Processor socket accept: 3.3V "),
     (.Legacy ⟨processor.VoltageLegacy.VOLTAGE_CAPABILITY_5V0 |||
        processor.VoltageLegacy.VOLTAGE_CAPABILITY_3V3 ||| processor.VoltageLegacy.VOLTAGE_CAPABILITY_2V9⟩,
      txt! "Processor socket accept: 5.5V 3.3V 2.9V "),
     (.Undefined 8, txt! "Undefined 0b1000"),
     (.Current 18, txt! "Current voltage: 1.8 V"),
     (.Current 127, txt! "Current voltage: 12.7 V")] := by decide +kernel

/-- `processor_upgrade`, `src/structures/004_processor.rs` 1749-1765. -/
example : [0x01, 0x13, 0x18, 0x2B, 0x3E].map
      (fun i => (processor.ProcessorUpgrade.ofU8 i, (processor.ProcessorUpgrade.ofU8 i).display)) =
    [(.Other, txt! "Other"), (.SocketmPGA604, txt! "Socket mPGA604"), (.SocketF, txt! "Socket F (1207)"),
     (.SocketLGA2011Three, txt! "Socket LGA2011-3"), (.SocketLGA1200, txt! "Socket LGA1200")] := by
  decide +kernel
example : ∀ v ∈ (List.range 256).map UInt8.ofNat, 0x3F ≤ v →
    processor.ProcessorUpgrade.ofU8 v = .Undefined v ∧
    (processor.ProcessorUpgrade.ofU8 v).display = txt! "Undefined " ++ dec v.toNat := by decide +kernel

/-! ## `src/structures/007_cache.rs` -/

/-- `cache_configuration`, `src/structures/007_cache.rs` 496-508. -/
example : (cache.CacheConfiguration.ofU16 0b0000001010101010 : R _) = .ok {
    level := .L3, socketed := true, location := .External, enabled_at_boot_time := true
    operational_mode := .ValuesWithMemoryAddress } := by decide +kernel

/-- `cache_size`, `src/structures/007_cache.rs` 509-524. -/
example : cache.CacheSize.ofU16 0b0000001010101010 = .Granularity1K 682 ∧
    (cache.CacheSize.Granularity1K 682).bytes = 682 * 1024 := by decide +kernel
example : cache.CacheSize.ofU16 0b1000001010101010 = .Granularity64K 682 ∧
    (cache.CacheSize.Granularity64K 682).bytes = 682 * 65536 := by decide +kernel
example : cache.CacheSize2.ofU32 ((0b0000001010101010 : UInt32) <<< 16) = .Granularity1K 44695552 ∧
    (cache.CacheSize2.Granularity1K 44695552).bytes = 44695552 * 1024 := by decide +kernel
example : cache.CacheSize2.ofU32 ((0b1000001010101010 : UInt32) <<< 16) = .Granularity64K 44695552 ∧
    (cache.CacheSize2.Granularity64K 44695552).bytes = 44695552 * 65536 := by decide +kernel

/-- `cache_enums`, `src/structures/007_cache.rs` 525-542. -/
example : ["OTHER", "NONBURST", "PIPELINE_BURST", "ASYNCHRONOUS"].all (fun n =>
    (cache.CacheSramType.flags.lookup n).any (cache.CacheSramType.fromBitsTruncate 0b01010101).contains) =
    true := by decide +kernel
example : cache.CacheErrorCorrectionType.ofU8 85 = .Undefined 85 ∧
    cache.CacheErrorCorrectionType.ofU8 (85 &&& 0b111) = .SingleBitEcc ∧
    cache.SystemCacheType.ofU8 85 = .Undefined 85 ∧
    cache.SystemCacheType.ofU8 (85 &&& 0b111) = .Unified ∧
    cache.CacheAssociativity.ofU8 85 = .Undefined 85 ∧
    cache.CacheAssociativity.ofU8 (85 &&& 0b1111) = .FourWaySetAssociative := by decide +kernel

/-! ## `src/structures/008_port_connector.rs` -/

/-- `connector_type`, `src/structures/008_port_connector.rs` 348-367. -/
example : [0x01, 0x12, 0xA3, 0xFE, 0xFF].map
      (fun i => (port_connector.ConnectorType.ofU8 i, (port_connector.ConnectorType.ofU8 i).display)) =
    [(.Centronics, txt! "Centronics"), (.AccessBus, txt! "Access Bus (USB)"), (.Pc98Note, txt! "PC-98Note"),
     (.Undefined 254, txt! "Undefined: 254"),
     (.Other, txt! "Other – Use Reference Designator Strings to supply information.")] := by decide +kernel

/-- `port_type`, `src/structures/008_port_connector.rs` 368-383. -/
example : [0x00, 0x11, 0xA1, 0xFF, 0xFE].map
      (fun i => (port_connector.PortType.ofU8 i, (port_connector.PortType.ofU8 i).display)) =
    [(.None, txt! "None"), (.FireWire, txt! "FireWire (IEEE P1394)"),
     (.Intel8251FifoCompatible, txt! "8251 FIFO Compatible"), (.Other, txt! "Other"),
     (.Undefined 254, txt! "Undefined: 254")] := by decide +kernel

/-! ## `src/structures/009_system_slots.rs` -/

/-- `slot_type`, `src/structures/009_system_slots.rs` 891-924. -/
example : [0x03, 0x21, 0xA0, 0xC4, 0xFE].map
      (fun i => (system_slots.SlotType.ofU8 i, (system_slots.SlotType.ofU8 i).display false,
        (system_slots.SlotType.ofU8 i).display true)) =
    [(.Isa, txt! "ISA", txt! "ISA"),
     (.PciExpressMini52pin1, txt! "PCI Express Mini 52-pin with bottom-side keep-outs",
      txt! "PCI Express Mini 52-pin (CEM spec. 2.0) with bottom-side keep-outs. Use Slot Length field value 03h (short length) for \"half-Mini card\" -only support, 04h (long length) for \"full-Mini card\" or dual support."),
     (.Pc98C20, txt! "PC-98/C20", txt! "PC-98/C20"),
     (.PciExpressGen6, txt! "PCI Express Gen 6 and Beyond", txt! "PCI Express Gen 6 and Beyond"),
     (.Undefined 254, txt! "Undefined: 254", txt! "Undefined: 254")] := by decide +kernel

/-- `slot_width`, `src/structures/009_system_slots.rs` 926-942. -/
example : [0x01, 0x03, 0x06, 0x07, 0x0E, 0xFE].map
      (fun i => (system_slots.SlotWidth.ofU8 i, (system_slots.SlotWidth.ofU8 i).display)) =
    [(.Other, txt! "Other"), (.Byte, txt! "8 bit"), (.Qword, txt! "64 bit"), (.Dqword, txt! "128 bit"),
     (.X32, txt! "32x or x32"), (.Undefined 254, txt! "Undefined: 254")] := by decide +kernel

/-- `current_usage`, `src/structures/009_system_slots.rs` 944-963. -/
example : [0x01, 0x02, 0x04, 0x05, 0xFE].map
      (fun i => (system_slots.CurrentUsage.ofU8 i, (system_slots.CurrentUsage.ofU8 i).display true)) =
    [(.Other, txt! "Other"), (.Unknown, txt! "Unknown"), (.InUse, txt! "In use"),
     (.Unavailable, txt! "Unavailable (e.g., connected to a processor that is not installed)"),
     (.Undefined 254, txt! "Undefined: 254")] := by decide +kernel

/-- `slot_length`, `src/structures/009_system_slots.rs` 965-980. -/
example : [0x01, 0x02, 0x03, 0x05, 0xFE].map
      (fun i => (system_slots.SlotLength.ofU8 i, (system_slots.SlotLength.ofU8 i).display)) =
    [(.Other, txt! "Other"), (.Unknown, txt! "Unknown"), (.ShortLength, txt! "Short Length"),
     (.DriveFormFactor2_5, txt! "2.5\" drive form factor"), (.Undefined 254, txt! "Undefined: 254")] := by
  decide +kernel

/-- `slot_caharacteristics_1`, `src/structures/009_system_slots.rs` 982-1015. -/
example : both (fun oc => match bitfield.fromPositions oc 8 (PRIMES.takeWhile (· < 8)) with
    | .ok n => setPositions oc (system_slots.SlotCharacteristics1.mk (.ofNat n))
    | _ => none) (some [2, 3, 5, 7]) := by decide +kernel
example : both (fun oc => significantTexts false oc (system_slots.SlotCharacteristics1.mk 0b10000010))
    (some [txt! "5.0 V is provided", txt! "Modem ring resume is supported"]) := by decide +kernel
example : both (fun oc => significantTexts true oc (system_slots.SlotCharacteristics1.mk 0b10000010))
    (some [txt! "Provides 5.0 volts", txt! "PC Card slot supports Modem Ring Resume"]) := by decide +kernel
example : both (fun oc => reservedFields oc (system_slots.SlotCharacteristics1.mk 0)) (some []) := by
  decide +kernel

/-- `slot_caharacteristics_2`, `src/structures/009_system_slots.rs` 1017-1050. -/
example : both (fun oc => match bitfield.fromPositions oc 8 (PRIMES.takeWhile (· < 8)) with
    | .ok n => setPositions oc (system_slots.SlotCharacteristics2.mk (.ofNat n))
    | _ => none) (some [2, 3, 5, 7]) := by decide +kernel
example : both (fun oc => significantTexts false oc (system_slots.SlotCharacteristics2.mk 0b00010001))
    (some [txt! "PME signal is supported", txt! "Async/surprise removal is supported"]) := by decide +kernel
example : both (fun oc => significantTexts true oc (system_slots.SlotCharacteristics2.mk 0b00010001))
    (some [txt! "PCI slot supports Power Management Event (PME#) signal", txt! "Slot supports async/surprise removal (i.e., removal without prior notification to the operating system, device driver, or applications)"]) := by
  decide +kernel
example : both (fun oc => (reservedFields oc (system_slots.SlotCharacteristics2.mk 0)).map List.length)
    (some 1) := by decide +kernel

/-- `device`, `src/structures/009_system_slots.rs` 1052-1062. -/
example : (match system_slots.Device.ofSlice [0xE9, 0x05, 0xB5, 0xDF, 0x10] with
    | .ok d => some (d.display, d.toBytes)
    | _ => none) = some (txt! "05e9:b5:1b.7 (Width 16)", [0xE9, 0x05, 0xB5, 0xDF, 0x10]) := by
  decide +kernel

/-- `peer_devices`, `src/structures/009_system_slots.rs` 1064-1080. -/
example : (runR system_slots.PeerDevices.next 10 (.ofSlice
      [0x00, 0x00, 0x00, 0x08, 0x00, 0x00, 0x00, 0x00, 0xE3, 0x01, 0x00, 0x00, 0x00, 0xE4, 0x04])).map
      (·.map system_slots.Device.display) =
    some [txt! "0000:00:01.0 (Width 0)", txt! "0000:00:1c.3 (Width 1)", txt! "0000:00:1c.4 (Width 4)"] := by
  decide +kernel

/-! ## `src/structures/015_system_event_log` -/

/-- `system_management_type`, `src/structures/015_system_event_log/log_record_format.rs` 549-578. -/
example : [0x03, 0x0A, 0x1F, 0x23, 0x1BEEF, 0x20000, 0xFFFFFFFF].map
      (fun i => (system_event_log.SystemManagementType.ofU32 i,
        (system_event_log.SystemManagementType.ofU32 i).display)) =
    [(.OutOfRangeVoltagePlus5, txt! "+5V Out of range"),
     (.OutOfRangeVoltageReserved 10, txt! "Out-of-range voltage reserved: 10"),
     (.OutOfRangeTemperatureReserved 31, txt! "Out-of-range temperatures reserved: 31"),
     (.OutOfRangeFan 3, txt! "Fan 3 Out of range"),
     (.OutOfRangeSystemManagementProbe 0xBEEF,
      txt! "A system-management probe or cooling device with handle 0xBEEF is out of range"),
     (.Reserved 131072, txt! "Reserved: 131072"),
     (.OemAssigned 0xFFFFFFFF, txt! "OEM assigned: 4294967295")] := by decide +kernel

/-- `post_results`, `src/structures/015_system_event_log/log_record_format.rs` 580-616. -/
example : both (fun oc => significantTexts false oc
      (system_event_log.PostResults.mk ((0b10101010000 : UInt64) <<< 32 ||| 0b101010)))
    (some [txt! "Primary PIC (8259 #1) error", txt! "CMOS RAM Battery Failure",
      txt! "CMOS RAM Checksum Error", txt! "PCI I/O Conflict", txt! "PNP Memory Conflict"]) := by
  decide +kernel
example : both (fun oc => (runR (bitfield.Iter.next oc) 200
      (BitField.iter (system_event_log.PostResults.mk ((0b10101010000 : UInt64) <<< 32 ||| 0b101010)))).map
      (·.filterMap fun f => if f.is_set && f.type_.isReserved then some (f.position, f.display false)
        else none))
    (some [(36, txt! "Available for OEM assignment"), (38, txt! "Available for OEM assignment")]) := by
  decide +kernel

/-- `access_method`, `src/structures/015_system_event_log/mod.rs` 404-430. -/
example : [0, 1, 2, 3, 4, 5, 0x80].map
      (fun m => (system_event_log.AccessMethod.new m 0x12345678).display true) =
    [txt! "Indexed I/O, one 8-bit index port, one 8-bit data port: Index 0x78, Data 0x34",
     txt! "Indexed I/O, two 8-bit index ports, one 8-bit data port: Index [78, 56], Data 0x34",
     txt! "Indexed I/O, one 16-bit index port, one 8-bit data port: Index 0x5678, Data 0x34",
     txt! "Memory-mapped physical 32-bit address: 0x12345678",
     txt! "General-Purpose NonVolatile Data functions, handle 0x5678",
     txt! "Available: Method 5, Address 0x12345678",
     txt! "BIOS Vendor/OEM-specific: Method 128, Address 0x12345678"] := by decide +kernel

/-- `log_status`, `src/structures/015_system_event_log/mod.rs` 432-441. -/
example : both (fun oc => significantTexts true oc (system_event_log.LogStatus.mk 0b111))
    (some [txt! "Log area valid", txt! "Log area full"]) := by decide +kernel

/-- `log_header_format`, `src/structures/015_system_event_log/mod.rs` 443-456. -/
example : [0, 1, 2, 0xFF].map (fun v => (system_event_log.LogHeaderFormat.ofU8 v).display true) =
    [txt! "No Header", txt! "Type 1 log header", txt! "Available: 2",
     txt! "BIOS vendor or OEM-specific format: 255"] := by decide +kernel

/-- `supported_event_log_type_descriptors`, `src/structures/015_system_event_log/mod.rs` 458-500. -/
example : (match (system_event_log.SupportedEventLogTypeDescriptors.new
      [0x02, 0x00, 0x04, 0x01, 0x08, 0x02, 0x16, 0x03, 0x66, 0x00, 0xEE, 0x00, 0xFF, 0x00] 2 : R _) with
    | .ok d => some (run system_event_log.SupportedEventLogTypeDescriptors.next 20 d)
    | _ => none) =
    some [⟨.MultiBitEccMemoryError, .None⟩, ⟨.BusTimeOut, .Handle 0⟩, ⟨.PostError, .MultipleEvent 0⟩,
      ⟨.LogAreaReset, .MultipleEventHandle 0 0⟩, ⟨.Unused 0x66, .None⟩, ⟨.Available 0xEE, .None⟩,
      ⟨.EndOfLog, .None⟩] := by decide +kernel

/-! ## `src/structures/018_memory_error_32.rs` -/

/-- `error_operation`, `src/structures/018_memory_error_32.rs` 198-206. -/
example : [1, 2, 3, 4, 5, 6].map (fun n => (memory_error_32.ErrorOperation.ofU8 n).display) =
    [txt! "Other", txt! "Unknown", txt! "Read", txt! "Write", txt! "Partial write", txt! "Undefined: 6"] := by
  decide +kernel

/-- `error_granularity`, `src/structures/018_memory_error_32.rs` 208-223. -/
example : [0, 1, 2, 3, 4, 5].map (fun n => (memory_error_32.ErrorGranularity.ofU8 n).display) =
    [txt! "Undefined: 0", txt! "Other", txt! "Unknown", txt! "Device level", txt! "Memory partition level",
     txt! "Undefined: 5"] := by decide +kernel

/-- `error_type`, `src/structures/018_memory_error_32.rs` 225-249. -/
example : [0, 1, 2, 3, 4, 5, 6, 7, 8, 9, 10, 11, 12, 13].map
      (fun n => (memory_error_32.ErrorType.ofU8 n).display) =
    [txt! "Undefined: 0", txt! "Other", txt! "Unknown", txt! "OK", txt! "Bad read", txt! "Parity error",
     txt! "Single-bit error", txt! "Double-bit error", txt! "Multi-bit error", txt! "Nibble error",
     txt! "Checksum error", txt! "CRC error", txt! "Corrected single-bit error",
     txt! "Corrected error"] := by decide +kernel

/-! ## `src/structures/021_built_in_pointing_device.rs` -/

/-- `type_`, `src/structures/021_built_in_pointing_device.rs` 160-179. -/
example : [0, 1, 2, 3, 4, 5, 6, 7, 8, 9].map
      (fun n => (built_in_pointing_device.DeviceType.ofU8 n).display) =
    [txt! "Undefined: 0", txt! "Other", txt! "Unknown", txt! "Mouse", txt! "Track Ball",
     txt! "Track Point", txt! "Glide Point", txt! "Touch Pad", txt! "Touch Screen",
     txt! "Optical Sensor"] := by decide +kernel

/-- `interface`, `src/structures/021_built_in_pointing_device.rs` 181-203. -/
example : [0, 1, 2, 3, 4, 5, 6, 7, 8, 0xA0, 0xA1, 0xA2].map
      (fun n => (built_in_pointing_device.Interface.ofU8 n).display) =
    [txt! "Undefined: 0", txt! "Other", txt! "Unknown", txt! "Serial", txt! "PS/2", txt! "Infrared",
     txt! "HP-HIL", txt! "Bus mouse", txt! "ADB (Apple Desktop Bus)", txt! "Bus mouse DB-9",
     txt! "Bus mouse micro-DIN", txt! "USB"] := by decide +kernel

/-! ## `src/structures/022_portable_battery.rs` -/

/-- `manufacture_date`, `src/structures/022_portable_battery.rs` 249-264. -/
example : (portable_battery.ManufactureDate.new none none).display = txt! "" := by decide +kernel
example : (portable_battery.ManufactureDate.new (some (u8! "07/17/2019")) none).display =
    txt! "07/17/2019" := by decide +kernel
example : (portable_battery.ManufactureDate.new none (some 0x2841)).display = txt! "2000-02-01" := by
  decide +kernel

/-- `serial_number`, `src/structures/022_portable_battery.rs` 266-277. -/
example : (portable_battery.SerialNumber.new none none).display = txt! "" := by decide +kernel
example : (portable_battery.SerialNumber.new (some (u8! "S/N 1111")) none).display =
    txt! "S/N 1111" := by decide +kernel
example : (portable_battery.SerialNumber.new none (some 0xBEAF)).display = txt! "0xBEAF" := by
  decide +kernel

/-- `device_chemistry`, `src/structures/022_portable_battery.rs` 279-302. -/
example : [0, 1, 2, 3, 4, 5, 6, 7, 8].map (fun n => (portable_battery.DeviceChemistry.new n none).display) =
    [txt! "Undefined: 0", txt! "Other", txt! "Unknown", txt! "Lead Acid", txt! "Nickel Cadmium",
     txt! "Nickel metal hydride", txt! "Lithium-ion", txt! "Zinc air", txt! "Lithium Polymer"] := by
  decide +kernel
example : (portable_battery.DeviceChemistry.new 2 (some (u8! "PbAc"))).display = txt! "PbAc" := by
  decide +kernel

/-- `design_capacity`, `src/structures/022_portable_battery.rs` 304-312. -/
example : both (fun oc => (portable_battery.DesignCapacity.new 0 none).toU64 oc) (.ok 0) := by
  decide +kernel
example : both (fun oc => (portable_battery.DesignCapacity.new 0 (some 42)).toU64 oc) (.ok 0) := by
  decide +kernel
example : both (fun oc => (portable_battery.DesignCapacity.new 4800 none).toU64 oc) (.ok 4800) := by
  decide +kernel
example : both (fun oc => (portable_battery.DesignCapacity.new 4800 (some 2)).toU64 oc) (.ok 9600) := by
  decide +kernel

end Dmi.Tests
