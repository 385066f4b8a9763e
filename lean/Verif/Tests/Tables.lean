import Verif.Tests.Lib
import Verif.Tests.Bitfield
/-!
# The tests of `src/structures` on the table in `tests/data/dmi.0.bin`
-/
namespace Dmi.Tests
open Fmt

/-- The table. -/
abbrev dmi0 : Bytes := DMI_0_BIN.drop 32

/-- `s1 = Ok(x)` for the first structure the selector accepts. -/
def first {α : Type} (f : Structure → Option α) (l : List (Except MalformedStructureError Structure)) :
    Option α :=
  (oks l).findSome? f

/-- The BIOS structure of the table, as in `dmi_bin_full_bios_structure`. -/
def bios_sample : bios.Bios := {
  handle := 0, vendor := u8! "Dell Inc.", bios_version := u8! "2.8.2"
  bios_starting_address_segment := 0xF000, bios_release_date := u8! "08/27/2020"
  rom_size := { basic := 0xFF, extended := some 32 }
  bios_characteristics := ⟨.ofNat (([4, 7, 9, 11, 12, 15, 16, 19, 21, 22, 23, 24, 27, 28, 30,
    48, 49, 50, 51, 52].map (2 ^ ·)).sum)⟩
  bios_characteristics_exttension_1 := some ⟨0b11⟩, bios_characteristics_exttension_2 := some ⟨0b1111⟩
  bios_revision := some ⟨2, 8⟩, firmware_revision := some ⟨0xFF, 0xFF⟩ }

/-- `dmi_bin_full_bios_structure`, `src/structures/000_bios.rs` 501-563. -/
example : Yields true entryDmi0 dmi0 (fun items =>
    first (fun | .Bios b => some b | _ => none) items = some bios_sample) := yields (by decide +kernel)

/-- `dmi_bin_all_characteristics`, `src/structures/000_bios.rs` 565-612. -/
example : both (fun oc => do
      let a ← significantTexts false oc bios_sample.bios_characteristics
      let b ← significantTexts false oc (← bios_sample.bios_characteristics_exttension_1)
      let c ← significantTexts false oc (← bios_sample.bios_characteristics_exttension_2)
      pure (a ++ b ++ c))
    (some [
      txt! "ISA is supported",
      txt! "PCI is supported",
      txt! "PNP is supported",
      txt! "BIOS is upgradeable",
      txt! "BIOS shadowing is allowed",
      txt! "Boot from CD is supported",
      txt! "Selectable boot is supported",
      txt! "EDD is supported",
      txt! "Japanese floppy for Toshiba 1.2 MB is supported (int 13h)",
      txt! "5.25\"/360 kB floppy services are supported (int 13h)",
      txt! "5.25\"/1.2 MB floppy services are supported (int 13h)",
      txt! "3.5\"/720 kB floppy services are supported (int 13h)",
      txt! "8042 keyboard services are supported (int 9h)",
      txt! "Serial services are supported (int 14h)",
      txt! "CGA/mono video services are supported (int 10h)",
      txt! "ACPI is supported",
      txt! "USB legacy is supported",
      txt! "BIOS boot specification is supported",
      txt! "Function key-initiated network boot is supported",
      txt! "Targeted content distribution is supported",
      txt! "UEFI is supported"]) := by decide +kernel

/-- `dmi_bin_revisions`, `src/structures/000_bios.rs` 614-638. -/
example : bios_sample.bios_revision.map bios.BiosRevision.display = some (txt! "2.8") := by decide +kernel
example : bios_sample.firmware_revision.map bios.FirmwareRevision.display = some (txt! "N/A") := by
  decide +kernel

/-- `dmi_bin_bios_size`, `src/structures/000_bios.rs` 640-654. -/
example : bios_sample.rom_size.toU64 = .ok ((32 : UInt64) <<< 20) := by decide +kernel

/-- The chassis of the table, as in `dmi_bin` of `src/structures/003_enclosure.rs`. -/
def enclosure_sample : enclosure.Enclosure := {
  handle := 768, manufacturer := u8! "Dell Inc.", chassis_lock := true
  enclosure_type := .RackMountChassis, version := [], serial_number := u8! "XXXXXXX"
  asset_tag_number := [], boot_up_state := some .Safe, power_supply_state := some .Safe
  thermal_state := some .Safe, security_status := some .Unknown, oem_defined := some 0x01010101
  height := some 2, power_cords_number := some 2
  contained_elements := some ⟨⟨[145, 1, 2, 3, 255, 0], 3⟩, 2, 3⟩
  sku_number := some (u8! "SKU Number") }

/-- `dmi_bin`, `src/structures/003_enclosure.rs` 634-725. -/
example : Yields true entryDmi0 dmi0 (fun items =>
    first (fun | .Enclosure e => some e | _ => none) items = some enclosure_sample) :=
  yields (by decide +kernel)
example : enclosure_sample.enclosure_type.display = txt! "Rack Mount Chassis" ∧
    enclosure_sample.boot_up_state.map enclosure.State.display = some (txt! "Safe") ∧
    enclosure_sample.security_status.map enclosure.SecurityStatus.display = some (txt! "Unknown") ∧
    enclosure_sample.oem_defined.map (fun v => txt! "0x" ++ zeroPad 8 (hexUpper v.toNat)) =
      some (txt! "0x01010101") := by decide +kernel
example : (enclosure_sample.contained_elements.bind (runR enclosure.ContainedElements.next 10)).map
      (·.map enclosure.ContainedElement.display) =
    some [txt! "Structure type: Memory Device (1-2)", txt! "Baseboard type: Server Blade (255-0)"] := by
  decide +kernel

/-- `dmi_bin`, `src/structures/008_port_connector.rs` 412-478. -/
example : Yields true entryDmi0 dmi0 (fun items =>
    first (fun | .PortConnector p => if p.handle = 0x0800 then some p else none | _ => none) items = some {
      handle := 0x0800, internal_reference_designator := u8! "Internal USB port 1"
      internal_connector_type := .AccessBus, external_reference_designator := []
      external_connector_type := .None, port_type := .Usb } ∧
    first (fun | .PortConnector p => if p.handle = 0x080A then some p else none | _ => none) items = some {
      handle := 0x080A, internal_reference_designator := [], internal_connector_type := .None
      external_reference_designator := u8! "4", external_connector_type := .Rj45
      port_type := .NetworkPort }) := yields (by decide +kernel)
example : port_connector.ConnectorType.AccessBus.display = txt! "Access Bus (USB)" ∧
    port_connector.ConnectorType.None.display = txt! "None" ∧
    port_connector.PortType.Usb.display = txt! "USB" ∧
    port_connector.ConnectorType.Rj45.display = txt! "RJ-45" ∧
    port_connector.PortType.NetworkPort.display = txt! "Network Port" := by decide +kernel

/-- `dmi_bin`, `src/structures/009_system_slots.rs` 1232-1303. -/
example : Yields true entryDmi0 dmi0 (fun items =>
    ((oks items).filter (fun | .SystemSlots _ => true | _ => false)).length = 4 ∧
    first (fun | .SystemSlots s => if s.handle = 0x0900 then some s else none | _ => none) items = some {
      handle := 0x0900, slot_designation := u8! "PCIe Slot 1", slot_type := .PciExpressGen3x16
      slot_data_bus_width := .X8, current_usage := .Available, slot_length := .LongLength, slot_id := 1
      slot_characteristics_1 := ⟨0b00000100⟩, slot_characteristics_2 := some ⟨0b00000001⟩
      segment_group_number := none, bus_number := none, device_and_function_number := none
      data_bus_width := none, peer_devices := none, slot_information := none
      slot_physical_width := none, slot_pitch := none } ∧
    first (fun | .SystemSlots s => if s.handle = 0x0903 then some s else none | _ => none) items = some {
      handle := 0x0903, slot_designation := u8! "PCIe Slot 4", slot_type := .PciExpressGen3
      slot_data_bus_width := .X16, current_usage := .InUse, slot_length := .LongLength, slot_id := 4
      slot_characteristics_1 := ⟨0b00000100⟩, slot_characteristics_2 := some ⟨0b00000001⟩
      segment_group_number := some 0, bus_number := some 0xAF
      device_and_function_number := some (.ofU8 0)
      data_bus_width := none, peer_devices := none, slot_information := none
      slot_physical_width := none, slot_pitch := none }) := yields (by decide +kernel)

/-- The OEM strings of the table. -/
def oem_sample : Bytes :=
  hex! "44656c6c2053797374656d00355b303030305d0031345b315d0032365b305d0031375b323031303638363545383541453735425d0031375b323031353539453535424534323832415d0031385b305d0031395b315d0031395b315d0000"

/-- `dmi_bin`, `src/structures/011_oem_strings.rs` 60-115. -/
example : Yields true entryDmi0 dmi0 (fun items =>
    first (fun | .OemStrings o => some o | _ => none) items = some ⟨0x0B00, .new oem_sample⟩) :=
  yields (by decide +kernel)
example : (StructureStrings.new oem_sample).collect = [u8! "Dell System", u8! "5[0000]", u8! "14[1]",
    u8! "26[0]", u8! "17[20106865E85AE75B]", u8! "17[201559E55BE4282A]", u8! "18[0]", u8! "19[1]",
    u8! "19[1]"] := by decide +kernel

/-- The configuration options of the table. -/
def options_sample : Bytes :=
  hex! "4e5652414d5f434c523a20436c6561722075736572207365747461626c65204e5652414d20617265617320616e64207365742064656661756c747300505752445f454e3a20436c6f736520746f20656e61626c652070617373776f72640000"

/-- `dmi_bin`, `src/structures/012_system_configuration_options.rs` 74-117. -/
example : Yields true entryDmi0 dmi0 (fun items =>
    first (fun | .SystemConfigurationOptions o => some o | _ => none) items =
      some ⟨0x0C00, .new options_sample⟩) :=
  yields (by decide +kernel)
example : (StructureStrings.new options_sample).collect = [
    u8! "NVRAM_CLR: Clear user settable NVRAM areas and set defaults",
    u8! "PWRD_EN: Close to enable password"] := by decide +kernel

/-- `dmi_bin`, `src/structures/013_bios_language.rs` 177-207. -/
example : Yields true entryDmi0 dmi0 (fun items =>
    first (fun | .BiosLanguage b => some b | _ => none) items = some {
      handle := 0x0D00
      installable_languages := .new {
        version := ⟨3, 2⟩, info := .BiosLanguage, length := 0x16, handle := 0x0D00
        data := [1, 0, 0, 0, 0, 0, 0, 0, 0, 0, 0, 0, 0, 0, 0, 0, 0, 1]
        strings := u8! "en|US|iso8859-1" ++ [0, 0] }
      flags := some ⟨0⟩, current_language := 1 }) := yields (by decide +kernel)

end Dmi.Tests
