import Verif.Tests.Codes
import Verif.Model.Dispatch
import Verif.Proofs.Decode
import Verif.Host
/-!
# The tests of the decoders in `src/structures` on single structures
-/
namespace Dmi.Tests
open Fmt

/-! ## `src/structures/003_enclosure.rs` -/

/-- `no_sku_on_3_14`, `src/structures/003_enclosure.rs` 727-762. -/
example : enclosure.Enclosure.try_from true {
    version := ⟨3, 14⟩, info := .Enclosure, length := 20, handle := 153
    data := hex! "01010000000303030200000000000000"
    strings := hex! "476f6f676c650000" } =
    .ok {
      handle := 153, manufacturer := u8! "Google", chassis_lock := false, enclosure_type := .Other
      version := [], serial_number := [], asset_tag_number := [], boot_up_state := some .Safe
      power_supply_state := some .Safe, thermal_state := some .Safe, security_status := some .Unknown
      oem_defined := some 0, height := some 0, power_cords_number := some 0, contained_elements := none
      sku_number := none } := by decide +kernel

/-! ## `src/structures/004_processor.rs` -/

/-- `smbios_2_8_processor_intel_atom_parses`, `src/structures/004_processor.rs` 1767-1845. -/
example : processor.Processor.try_from {
    version := ⟨2, 8⟩, info := .Processor, length := 0x2a, handle := 0x48
    data := hex! "01032b02d8060400fffbebbf03906400280a6009410146004700ffff00040008080804000000"
    strings := hex! "4350553000496e74656c28522920436f72706f726174696f6e00496e74656c2852292041746f6d28544d29204350552020433237353020204020322e343047487a0050726f636573736f72496e666f5f41535345545f54414700" } =
    .ok {
      handle := 0x48, socket_designation := u8! "CPU0", processor_type := .CentralProcessor
      processor_family := .IntelAtomProcessor, processor_manufacturer := u8! "Intel(R) Corporation"
      processor_id := 13829424153406736088
      processor_version := u8! "Intel(R) Atom(TM) CPU  C2750  @ 2.40GHz", voltage := .Current 16
      external_clock := 100, max_speed := 2600, current_speed := 2400
      status := .fromBitsTruncate 0b01000001, processor_upgrade := .Other
      l1_cache_handle := some 70, l2_cache_handle := some 71, l3_cache_handle := some 65535
      serial_number := some [], asset_tag := some (u8! "ProcessorInfo_ASSET_TAG"), part_number := some []
      core_count := some 8, core_enabled := some 8, thread_count := some 8
      processor_characteristics := some (.fromBitsTruncate 0b00000100) } := by decide +kernel

/-- `smbios_2_8_processor_parses_with_processor_family_2`, `src/structures/004_processor.rs` 1847-1923. -/
example : processor.Processor.try_from {
    version := ⟨2, 8⟩, info := .Processor, length := 0x2a, handle := 0x48
    data := hex! "0103fe02d8060400fffbebbf03906400280a6009410146004700ffff00040008080804001801"
    strings := hex! "435055300046414b45204d414e5546414354555245520046414b452056455253494f4e0046414b452041535345542054414700" } =
    .ok {
      handle := 0x48, socket_designation := u8! "CPU0", processor_type := .CentralProcessor
      processor_family := .ARM, processor_manufacturer := u8! "FAKE MANUFACTURER"
      processor_id := 13829424153406736088
      processor_version := u8! "FAKE VERSION", voltage := .Current 16
      external_clock := 100, max_speed := 2600, current_speed := 2400
      status := .fromBitsTruncate 0b01000001, processor_upgrade := .Other
      l1_cache_handle := some 70, l2_cache_handle := some 71, l3_cache_handle := some 65535
      serial_number := some [], asset_tag := some (u8! "FAKE ASSET TAG"), part_number := some []
      core_count := some 8, core_enabled := some 8, thread_count := some 8
      processor_characteristics := some (.fromBitsTruncate 0b00000100) } := by decide +kernel

/-- `zero_process_family`, `src/structures/004_processor.rs` 1925-2000. -/
example : processor.Processor.try_from {
    version := ⟨3, 2⟩, info := .Processor, length := 0x32, handle := 0x000c
    data := hex! "01030000000000000000000000000000a00f0000003fffffffffffff000000000000000000000000000000000000"
    strings := hex! "4350553000" } =
    .ok {
      handle := 0x000c, socket_designation := u8! "CPU0", processor_type := .CentralProcessor
      processor_family := .OutOfSpec, processor_manufacturer := []
      processor_id := 0, processor_version := [], voltage := .Legacy ⟨0⟩
      external_clock := 0, max_speed := 4000, current_speed := 0
      status := .fromBitsTruncate 0, processor_upgrade := .Undefined 0x3f
      l1_cache_handle := some 0xffff, l2_cache_handle := some 0xffff, l3_cache_handle := some 0xffff
      serial_number := some [], asset_tag := some [], part_number := some []
      core_count := some 0, core_enabled := some 0, thread_count := some 0
      processor_characteristics := some (.fromBitsTruncate 0) } := by decide +kernel

/-! ## `src/structures/008_port_connector.rs` -/

/-- `port_connector`, `src/structures/008_port_connector.rs` 384-411. -/
example : port_connector.PortConnector.try_from {
    version := ⟨0, 0⟩, info := .PortConnector, length := 0, handle := 8
    data := hex! "0100020f0d"
    strings := hex! "4a314131004b6579626f61726400" } =
    .ok {
      handle := 8, internal_reference_designator := u8! "J1A1", internal_connector_type := .None
      external_reference_designator := u8! "Keyboard", external_connector_type := .Ps2
      port_type := .KeyboardPort } := by decide +kernel

/-! ## `src/structures/009_system_slots.rs` -/

theorem lt_mono {v : SmbiosVersion} {a b c d : Nat} (h : a < c ∨ a = c ∧ b ≤ d) (ha : a < 256)
    (hb : b < 256) (hc : c < 256) (hd : d < 256) :
    v.lt (.ofPair a b) = true → v.lt (.ofPair c d) = true := by
  intro h1
  rw [lt_iff (s := ⟨v, .End, 0, 0, [], []⟩) ha hb] at h1
  exact lt_pos (s := ⟨v, .End, 0, 0, [], []⟩) (fun hs => h1 (since_mono hs h)) hc hd

/-- The structure without data of `system_slots`, `src/structures/009_system_slots.rs` 1082-1231. -/
def noSlots (v : SmbiosVersion) : RawStructure := {
  version := v, info := .SystemSlots, length := 0, handle := 666, data := [], strings := [] }

/-- The version loop of `system_slots`: the message for each version. -/
theorem slots_messages (oc : Bool) (v : SmbiosVersion) :
    ∃ e, system_slots.SystemSlots.try_from oc (noSlots v) = .err e ∧ e.display =
      if v.lt ⟨2, 0⟩ then txt! "could not convert slice to array"
      else if v.lt ⟨2, 1⟩ then
        txt! "Formatted section length of structure SystemSlots with handle 666 should be 12 bytes"
      else if v.lt ⟨2, 6⟩ then
        txt! "Formatted section length of structure SystemSlots with handle 666 should be 13 bytes"
      else if v.lt ⟨3, 2⟩ then
        txt! "Formatted section length of structure SystemSlots with handle 666 should be 17 bytes"
      else
        txt! "Formatted section length of structure SystemSlots with handle 666 should be minimum of 17 bytes" := by
  have hd : system_slots.SystemSlots.decode oc (noSlots v) = .err .InvalidSlice := by cases oc <;> rfl
  have h20 : v.lt (.ofPair 2 0) = v.lt ⟨2, 0⟩ := rfl
  have h21 : v.lt (.ofPair 2 1) = v.lt ⟨2, 1⟩ := rfl
  have h26 : v.lt (.ofPair 2 6) = v.lt ⟨2, 6⟩ := rfl
  have h32 : v.lt (.ofPair 3 2) = v.lt ⟨3, 2⟩ := rfl
  have m1 : v.lt ⟨2, 0⟩ = true → v.lt ⟨2, 1⟩ = true :=
    lt_mono (a := 2) (b := 0) (c := 2) (d := 1) (by decide) (by decide) (by decide) (by decide) (by decide)
  have m2 : v.lt ⟨2, 1⟩ = true → v.lt ⟨2, 6⟩ = true :=
    lt_mono (a := 2) (b := 1) (c := 2) (d := 6) (by decide) (by decide) (by decide) (by decide) (by decide)
  have m3 : v.lt ⟨2, 6⟩ = true → v.lt ⟨3, 2⟩ = true :=
    lt_mono (a := 2) (b := 6) (c := 3) (d := 2) (by decide) (by decide) (by decide) (by decide) (by decide)
  unfold system_slots.SystemSlots.try_from system_slots.verLt
  rw [hd]
  simp only [noSlots, h20, h21, h26, h32]
  cases e0 : v.lt ⟨2, 0⟩ <;> cases e1 : v.lt ⟨2, 1⟩ <;> cases e2 : v.lt ⟨2, 6⟩ <;>
    cases e3 : v.lt ⟨3, 2⟩ <;> simp_all <;> decide +kernel

/-- `system_slots`, `src/structures/009_system_slots.rs` 1082-1231. -/
example : both (fun oc => system_slots.SystemSlots.try_from oc {
      version := ⟨3, 4⟩, info := .SystemSlots, length := 0, handle := 0x0023
      data := hex! "01a50a040302000c01000000e40003010001090102000212020300031b0300060de204"
      strings := u8! "SSD1" ++ [0] })
    (.ok {
      handle := 0x0023, slot_designation := u8! "SSD1", slot_type := .PciExpress
      slot_data_bus_width := .X4, current_usage := .InUse, slot_length := .ShortLength, slot_id := 2
      slot_characteristics_1 := ⟨0b00001100⟩, slot_characteristics_2 := some ⟨0b00000001⟩
      segment_group_number := some 0, bus_number := some 0, device_and_function_number := some ⟨0x1C, 4⟩
      data_bus_width := some 0
      peer_devices := some (.ofSlice (([⟨1, 1, ⟨1, 1⟩, 1⟩, ⟨2, 2, ⟨2, 2⟩, 2⟩, ⟨3, 3, ⟨3, 3⟩, 3⟩] :
        List system_slots.Device).flatMap system_slots.Device.toBytes))
      slot_information := some 0x06, slot_physical_width := some .X16
      slot_pitch := some ⟨0x04E2⟩ }) := by decide +kernel

/-! ## `src/structures/011_oem_strings.rs`, `src/structures/012_system_configuration_options.rs` -/

/-- `oem_strings`, `src/structures/011_oem_strings.rs` 32-58. -/
example : (match oem_strings.OemStrings.try_from {
    version := ⟨3, 4⟩, info := .OemStrings, length := 0x05, handle := 0x001E
    data := hex! "03"
    strings := hex! "24485541303031554b31303030300024485541303436340024585858303030300000" } with
    | .ok o => some o.strings.collect
    | _ => none) = some [u8! "$HUA001UK10000", u8! "$HUA0464", u8! "$XXX0000"] := by decide +kernel

/-- `system_configuration_options`, `src/structures/012_system_configuration_options.rs` 45-72. -/
example : both (fun oc => match system_configuration_options.SystemConfigurationOptions.try_from oc {
    version := ⟨3, 4⟩, info := .SystemConfigurationOptions, length := 0x05, handle := 0x001F
    data := hex! "03"
    strings := hex! "436f6e6669674f7074696f6e733100436f6e6669674f7074696f6e733200436f6e6669674f7074696f6e733300" } with
    | .ok o => some o.strings.collect
    | _ => none) (some [u8! "ConfigOptions1", u8! "ConfigOptions2", u8! "ConfigOptions3"]) := by
  decide +kernel

/-! ## `src/structures/013_bios_language.rs` -/

/-- `installable_languages`, `src/structures/013_bios_language.rs` 120-175. -/
example : both (fun oc => runR (bios_language.InstallableLanguages.next oc) 200 (.new {
    version := ⟨0, 0⟩, info := .BiosLanguage, length := 0x1A, handle := 0
    data := []
    strings := hex! "656e7c55537c69736f383835392d310066727c46527c69736f383835392d310065737c45537c69736f383835392d310064657c44457c69736f383835392d310069747c49547c69736f383835392d310064617c444b7c69736f383835392d310066697c46497c69736f383835392d31006e6c7c4e4c7c69736f383835392d31006e6f7c4e4f7c69736f383835392d310070747c50547c69736f383835392d310073767c53457c69736f383835392d31006a617c4a507c756e69636f6465007a687c434e7c756e69636f646500" }))
    (some [u8! "en|US|iso8859-1", u8! "fr|FR|iso8859-1", u8! "es|ES|iso8859-1", u8! "de|DE|iso8859-1", u8! "it|IT|iso8859-1", u8! "da|DK|iso8859-1", u8! "fi|FI|iso8859-1", u8! "nl|NL|iso8859-1", u8! "no|NO|iso8859-1", u8! "pt|PT|iso8859-1", u8! "sv|SE|iso8859-1", u8! "ja|JP|unicode", u8! "zh|CN|unicode"]) := by decide +kernel

/-! ## `src/structures/014_group_associations.rs` -/

/-- `group_items`, `src/structures/014_group_associations.rs` 85-111. -/
example : run group_associations.GroupItems.next 20
      (.new [4, 0x00, 0x04, 7, 0x00, 0x07, 7, 0x01, 0x07, 7, 0x02, 0x07]) =
    [⟨4, 0x0400⟩, ⟨7, 0x0700⟩, ⟨7, 0x0701⟩, ⟨7, 0x0702⟩] := by decide +kernel

/-- `group_associations`, `src/structures/014_group_associations.rs` 113-148. -/
example : both (fun oc => match group_associations.GroupAssociations.try_from oc {
    version := ⟨3, 4⟩, info := .GroupAssociations, length := 14, handle := 0x0028
    data := hex! "01040800040a00070900"
    strings := hex! "4475616c2d50726f636573736f722043505520436f6d706c65780000" } with
    | .ok g => some (g.group_name, run group_associations.GroupItems.next 20 g.items)
    | _ => none)
    (some (u8! "Dual-Processor CPU Complex", [⟨4, 0x08⟩, ⟨4, 0x0A⟩, ⟨7, 0x09⟩])) := by decide +kernel

/-! ## `src/structures/015_system_event_log` -/

/-- The descriptors in `tests/data/02daadcd/entries/15-0/bin`. -/
def seltd_sample : List system_event_log.EventLogTypeDescriptor := [
  ⟨.SingleBitEccMemoryError, .None⟩, ⟨.MultiBitEccMemoryError, .None⟩, ⟨.ParityMemoryError, .None⟩,
  ⟨.BusTimeOut, .None⟩, ⟨.IoChannelCheck, .None⟩, ⟨.SoftwareNmi, .None⟩, ⟨.PostMemoryResize, .None⟩,
  ⟨.PostError, .PostResults ⟨0⟩⟩, ⟨.PciParityError, .None⟩, ⟨.PciSystemError, .None⟩, ⟨.CpuFailure, .None⟩,
  ⟨.EisaFailSafeTimerTimeOut, .None⟩, ⟨.CorrectableMemoryLogDisabled, .None⟩,
  ⟨.LoggingDisabledForSpecificEventType, .None⟩, ⟨.SystemLimitExceeded, .None⟩,
  ⟨.AsynchronousHardwareTimerExpired, .None⟩, ⟨.SystemConfigurationInformation, .None⟩,
  ⟨.HardDiskInformation, .None⟩, ⟨.SystemReconfigured, .None⟩, ⟨.UncorrectableCpuComplexError, .None⟩,
  ⟨.LogAreaReset, .None⟩, ⟨.SystemBoot, .None⟩, ⟨.EndOfLog, .None⟩, ⟨.Available 0xB0, .OemAssigned 0xB0⟩,
  ⟨.Available 0xB1, .OemAssigned 0xB1⟩, ⟨.Available 0xE0, .OemAssigned 0xE0⟩,
  ⟨.Available 0xE1, .OemAssigned 0xE1⟩]

/-- `system_event_log`, `src/structures/015_system_event_log/mod.rs` 502-592. -/
example : both (fun oc => system_event_log.SystemEventLog.try_from oc {
      version := ⟨2, 7⟩, info := .SystemEventLog, length := 73, handle := 0x0036
      data := (ENTRY_15_0.drop 4).take 73, strings := (ENTRY_15_0.drop 4).drop 73 })
    (.ok {
      handle := 0x0036, log_area_length := 16383, log_header_start_offset := 0, log_data_start_offset := 0x10
      access_method := .MemoryMappedPhysicaAddress 0xFFC40000, log_status := ⟨0b1⟩
      log_change_token := 0x00000001, log_header_format := some .LogHeaderType1
      supported_event_log_type_descriptors := some ⟨⟨seltd_sample.flatMap (fun d =>
        [d.log_type.toU8, d.variable_data_format_type.toU8]), 2⟩⟩ }) := by decide +kernel
example : (match (system_event_log.SupportedEventLogTypeDescriptors.new
      (seltd_sample.flatMap (fun d => [d.log_type.toU8, d.variable_data_format_type.toU8])) 2 : R _) with
    | .ok d => some (run system_event_log.SupportedEventLogTypeDescriptors.next 40 d)
    | _ => none) = some seltd_sample ∧ seltd_sample.length = 27 := by decide +kernel

/-! ## `src/structures/017_memory_device.rs` -/

/-- `MemoryDevice::default()` of the fields the tests leave out. -/
def rest : memory_device.MemoryDevice := {
  handle := 0, physical_memory_handle := 0, memory_error_handle := none, total_width := none
  data_width := none, size := none, form_factor := .Unknown, device_set := none, device_locator := []
  bank_locator := [], memory_type := .Unknown, type_detail := .fromBitsTruncate 4, speed := none
  manufacturer := [], serial := [], asset_tag := [], part_number := [], attributes := 0
  extended_size := 0, configured_memory_speed := none, minimum_voltage := none, maximum_voltage := none
  configured_voltage := none, memory_technology := none, operating_mode_capability := none
  firmware_version := none, module_manufacturer := none, module_product_id := none
  memory_subsystem_controller_manufacturer_id := none, memory_subsystem_controller_product_id := none
  non_volatile_size := none, volatile_size := none, cache_size := none, logical_size := none
  extended_speed := none, extended_configured_memory_speed := none }

/-- The flag of the given name. -/
def detail (n : String) : UInt16 := (memory_device.Detail.flags.lookup n).getD 0

/-- `smbios_2_8_memory_device_with_34_bytes_parses`, `src/structures/017_memory_device.rs` 438-493. -/
example : both (fun oc => memory_device.MemoryDevice.try_from oc {
    version := ⟨2, 8⟩, info := .MemoryDevice, length := 0x22, handle := 0x4e
    data := hex! "4c00feff4000400000200900010218804040060304050602000000004006"
    strings := hex! "44494d4d2041300041305f4e6f6465305f4368616e6e656c305f44696d6d300048796e69780046414b455f53455249414c5f4e554d4245520046414b455f41535345545f5441470046414b455f504152545f4e554d42455200" })
    (.ok { rest with
      handle := 0x4e, physical_memory_handle := 76, total_width := some 64, data_width := some 64
      size := some 8192, form_factor := .Dimm, device_set := some 0, device_locator := u8! "DIMM A0"
      bank_locator := u8! "A0_Node0_Channel0_Dimm0", memory_type := .Ddr3
      type_detail := ⟨detail "SYNCHRONOUS" ||| detail "UNREGISTERED"⟩, speed := some 1600
      manufacturer := u8! "Hynix", serial := u8! "FAKE_SERIAL_NUMBER", asset_tag := u8! "FAKE_ASSET_TAG"
      part_number := u8! "FAKE_PART_NUMBER", attributes := 2, configured_memory_speed := some 1600
      minimum_voltage := none, maximum_voltage := none, configured_voltage := none }) := by decide +kernel

/-- `smbios_3_2_memory_device_with_40_bytes_parses`, `src/structures/017_memory_device.rs` 495-551. -/
example : both (fun oc => memory_device.MemoryDevice.try_from oc {
    version := ⟨3, 2⟩, info := .MemoryDevice, length := 0x28, handle := 0x3b
    data := hex! "3900feff480040000040090001021a80206a0a0304050602000000006009b004b004b004"
    strings := hex! "44494d4d5f4130005f4e6f6465305f4368616e6e656c305f44696d6d300048796e69780046414b455f53455249414c5f4e554d4245520046414b455f41535345545f5441470046414b455f504152545f4e554d42455200" })
    (.ok { rest with
      handle := 0x3b, physical_memory_handle := 57, total_width := some 72, data_width := some 64
      size := some 16384, form_factor := .Dimm, device_set := some 0, device_locator := u8! "DIMM_A0"
      bank_locator := u8! "_Node0_Channel0_Dimm0", memory_type := .Ddr4
      type_detail := ⟨detail "SYNCHRONOUS" ||| detail "REGISTERED"⟩, speed := some 2666
      manufacturer := u8! "Hynix", serial := u8! "FAKE_SERIAL_NUMBER", asset_tag := u8! "FAKE_ASSET_TAG"
      part_number := u8! "FAKE_PART_NUMBER", attributes := 2, configured_memory_speed := some 2400
      minimum_voltage := some 1200, maximum_voltage := some 1200, configured_voltage := some 1200 }) := by decide +kernel

/-- `foo`, `src/structures/017_memory_device.rs` 553-593. -/
example : both (fun oc => memory_device.MemoryDevice.try_from oc {
    version := ⟨3, 14⟩, info := .MemoryDevice, length := 34, handle := 112
    data := hex! "0002feff4000400000100900010007800000000000000000000000000000"
    strings := hex! "44494d4d20300000" })
    (.ok { rest with
      handle := 112, physical_memory_handle := 512, memory_error_handle := none, total_width := some 64
      data_width := some 64, size := some 4096, form_factor := .Dimm, device_set := some 0
      device_locator := u8! "DIMM 0", bank_locator := [], memory_type := .Ram
      type_detail := ⟨detail "SYNCHRONOUS"⟩, speed := none, manufacturer := [], serial := []
      asset_tag := [], part_number := [], attributes := 0, extended_size := 0
      configured_memory_speed := none }) := by decide +kernel

/-! ## `src/structures/018_memory_error_32.rs` to `src/structures/022_portable_battery.rs` -/

/-- `memory_error_32`, `src/structures/018_memory_error_32.rs` 251-279. -/
example : both (fun oc => memory_error_32.MemoryError32.try_from oc {
      version := ⟨2, 4⟩, info := .MemoryError32, length := 23, handle := 0x01E3
      data := (ENTRY_18_0.drop 4).take (23 - 4), strings := (ENTRY_18_0.drop 4).drop (23 - 4) })
    (.ok {
      handle := 0x01E3, error_type := .Ok, error_granularity := .Unknown, error_operation := .Unknown
      vendor_syndrome := 0, memory_array_error_address := 0x80000000, device_error_address := 0x80000000
      error_resolution := 0x80000000 }) := by decide +kernel

/-- `memory_array_mapped_address`, `src/structures/019_memory_array_mapped_address.rs` 86-113. -/
example : both (fun oc => memory_array_mapped_address.MemoryArrayMappedAddress.try_from oc {
      version := ⟨2, 7⟩, info := .MemoryArrayMappedAddress, length := 31, handle := 0x0027
      data := (ENTRY_19_0.drop 4).take (31 - 4), strings := (ENTRY_19_0.drop 4).drop (31 - 4) })
    (.ok {
      handle := 0x0027, starting_address := 0, ending_address := 0x0207C000, memory_array_handle := 0x0026
      partition_width := 255, extended_starting_address := some 0, extended_ending_address := some 0 }) := by decide +kernel

/-- `memory_device_mapped_address`, `src/structures/020_memory_device_mapped_address.rs` 102-132. -/
example : both (fun oc => memory_device_mapped_address.MemoryDeviceMappedAddress.try_from oc {
      version := ⟨2, 7⟩, info := .MemoryDeviceMappedAddress, length := 35, handle := 0x0029
      data := (ENTRY_20_0.drop 4).take (35 - 4), strings := (ENTRY_20_0.drop 4).drop (35 - 4) })
    (.ok {
      handle := 0x0029, starting_address := 0, ending_address := 0xFFFFFF, memory_device_handle := 0x0028
      memory_array_mapped_address_handle := 0x0027, partition_row_position := 0
      interleave_position := 0xFF, interleaved_data_depth := 0xFF, extended_starting_address := some 0
      extended_ending_address := some 0 }) := by decide +kernel

/-- `built_in_pointing_device`, `src/structures/021_built_in_pointing_device.rs` 205-229. -/
example : both (fun oc => built_in_pointing_device.BuiltInPointingDevice.try_from oc {
      version := ⟨2, 7⟩, info := .BuiltInPointingDevice, length := 7, handle := 0xAAAA
      data := (ENTRY_21_0.drop 4).take (7 - 4), strings := (ENTRY_21_0.drop 4).drop (7 - 4) })
    (.ok {
      handle := 0xAAAA, type_ := .Mouse, interface := .Serial, number_of_buttons := 3 }) := by decide +kernel

/-- `portable_battery`, `src/structures/022_portable_battery.rs` 314-353. -/
example : both (fun oc => portable_battery.PortableBattery.try_from oc {
      version := ⟨3, 2⟩, info := .PortableBattery, length := 26, handle := 0x002B
      data := (ENTRY_22_0.drop 4).take (26 - 4), strings := (ENTRY_22_0.drop 4).drop (26 - 4) })
    (.ok {
      handle := 0x002B, location := u8! "Front", manufacturer := u8! "LGC"
      manufacture_date := .SmartBatteryDataSpecification 2020 7 1
      serial_number := .SmartBatteryDataSpecification 0x058B, device_name := u8! "5B10W13930"
      device_chemistry := .SmartBatteryDataSpecification (u8! "LiP"), design_capacity := .Data 5100 10
      design_voltage := 15400, sbds_version_number := u8! "03.01", maximum_error_in_battery_data := 0xFF
      oem_specific := some 0 }) := by decide +kernel

end Dmi.Tests
