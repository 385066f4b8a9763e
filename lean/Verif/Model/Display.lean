import Verif.Model.DisplayCodes
import Verif.Model.S003
import Verif.Model.S004
import Verif.Model.S009
import Verif.Model.S000
/-!
# `Display` of the other types

The `impl fmt::Display` that are not a plain `match` over the variants of a code. `alt` is
`f.alternate()` (`{:#}`).
-/
namespace Dmi
open Fmt

namespace Fmt

/-- `{:#X}` of an unsigned integer. -/
def hexUpperAlt (n : Nat) : Text := txt! "0x" ++ hexUpper n
/-- `{:#b}` of an unsigned integer. -/
def binAlt (n : Nat) : Text := txt! "0b" ++ bin n
/-- The UTF-8 bytes of a `&'static str`. -/
def lit (s : String) : Text := s.toByteArray.data.toList.map UInt8.toNat

/-- A finite non-negative `f32`: `mant / 2 ^ scale` with `mant < 2 ^ 24`. (Quotients of integers below
`2 ^ 16` by ten are zero or at least `0.1`, so the exponent is in range and the value is normal.) -/
structure F32 where
  mant : Nat
  scale : Nat

/-- The quotient of `n` by `d`, rounded to an integer, ties to even. -/
def roundDiv (n d : Nat) : Nat :=
  let q := n / d
  let r := n % d
  if 2 * r < d then q else if d < 2 * r then q + 1 else if q % 2 = 0 then q else q + 1

/-- `x as f32 / 10.0` for an integer `x` below `2 ^ 16` (which `f32` represents exactly): the quotient
has 24 significant bits, that is `2 ^ 23 ≤ x * 2 ^ scale / 10 < 2 ^ 24`, and is rounded to nearest,
ties to even. -/
def divTen (x : Nat) : F32 :=
  if x = 0 then ⟨0, 0⟩
  else
    let s := 26 - Nat.log2 x
    let s := if x * 2 ^ s < 10 * 2 ^ 23 then s + 1 else s
    ⟨roundDiv (x * 2 ^ s) 10, s⟩

/-- `{:.1}` of a float: its exact value rounded to one digit after the point. -/
def fixed1 (x : F32) : Text :=
  let t := roundDiv (10 * x.mant) (2 ^ x.scale)
  dec (t / 10) ++ txt! "." ++ dec (t % 10)

end Fmt

/-- `#[derive(Debug)] enum InfoType`, `src/lib.rs` 688: the name of the variant, and its field. -/
def InfoType.debug : InfoType → Text
  | .Oem v => txt! "Oem(" ++ dec v.toNat ++ txt! ")"
  | i => (ctorNames! InfoType)[i.ctorIdx]!

/-- `impl fmt::Display for InvalidEntryPointError`, `src/lib.rs` 318-333. -/
def InvalidEntryPointError.display : InvalidEntryPointError → Text
  | .NotFound => txt! "Input did not contain a valid SMBIOS entry point"
  | .TooOldVersion version => txt! "Input version number was below 2.0: " ++ dec version.toNat
  | .BadSize size => txt! "Input contained an invalid-sized SMBIOS entry: " ++ dec size.toNat
  | .BadChecksum checksum => txt! "SMBIOS entry point has an invalid checksum: " ++ dec checksum.toNat

/-- `impl fmt::Display for MalformedStructureError`, `src/lib.rs` 407-436. The text of
`core::array::TryFromSliceError` is that of the standard library. -/
def MalformedStructureError.display : MalformedStructureError → Text
  | .BadSize offset length =>
    txt! "Structure at offset " ++ (dec offset.toNat ++ (txt! " with length " ++
      (dec length.toNat ++ txt! " extends beyond SMBIOS")))
  | .UnterminatedStrings offset =>
    txt! "Structure at offset " ++ (dec offset.toNat ++ txt! " with unterminated strings")
  | .InvalidStringIndex info_type handle index =>
    txt! "Structure " ++ (info_type.debug ++ (txt! " with handle " ++ (dec handle.toNat ++
      (txt! " has invalid string index " ++ dec index.toNat))))
  | .InvalidSlice => txt! "could not convert slice to array"
  | .InvalidFormattedSectionLength info_type handle spec length =>
    txt! "Formatted section length of structure " ++ (info_type.debug ++ (txt! " with handle " ++
      (dec handle.toNat ++ (txt! " should be " ++ (lit spec ++ (dec length.toNat ++
        txt! " bytes"))))))

/-- `source` of `impl std::error::Error for MalformedStructureError`, `src/lib.rs` 438-445: the text of
the cause, a `core::array::TryFromSliceError`. -/
def MalformedStructureError.source : MalformedStructureError → Option Text
  | .InvalidSlice => some (txt! "could not convert slice to array")
  | _ => none

/-- `impl fmt::Debug for Flag`, `src/bitfield.rs` 159-166, with the derived `Debug` of `Position` (8).
The alternate form puts every field on a line. -/
def bitfield.Flag.debug (alt : Bool) (f : bitfield.Flag) : Text :=
  let b := if f.is_set then txt! "true" else txt! "false"
  if alt then
    txt! "Flag {\n    position: Position(\n        " ++ (dec f.position ++
      (txt! ",\n    ),\n    is_set: " ++ (b ++ txt! ",\n}")))
  else
    txt! "Flag { position: Position(" ++ (dec f.position ++ (txt! "), is_set: " ++ (b ++ txt! " }")))

/-- `impl fmt::Display for Flag`, `src/bitfield.rs` 141-158. -/
def bitfield.Flag.display (alt : Bool) (f : bitfield.Flag) : Text :=
  match f.type_ with
  | .Significant meaning description => if alt then lit description else lit meaning
  | .Reserved note => lit note
  | .Unknown => txt! "Unknown"

/-- `impl fmt::Display for BiosRevision`, `src/structures/000_bios.rs` 336-344. -/
def bios.BiosRevision.display (r : bios.BiosRevision) : Text :=
  if r.major = 0xFF ∧ r.minor = 0xFF then txt! "N/A"
  else dec r.major.toNat ++ (txt! "." ++ dec r.minor.toNat)

/-- `impl fmt::Display for FirmwareRevision`, `src/structures/000_bios.rs` 346-354. -/
def bios.FirmwareRevision.display (r : bios.FirmwareRevision) : Text :=
  if r.major = 0xFF ∧ r.minor = 0xFF then txt! "N/A"
  else dec r.major.toNat ++ (txt! "." ++ dec r.minor.toNat)

/-- `impl fmt::Display for ContainedElementType`, `src/structures/003_enclosure.rs` 495-502. -/
def enclosure.ContainedElementType.display : enclosure.ContainedElementType → Text
  | .BoardType board => txt! "Baseboard type: " ++ board.display
  | .InfoType info => txt! "Structure type: " ++ info.display

/-- `impl fmt::Display for ContainedElement`, `src/structures/003_enclosure.rs` 479-483. -/
def enclosure.ContainedElement.display (e : enclosure.ContainedElement) : Text :=
  e.type_.display ++ (txt! " (" ++ (dec e.minimum.toNat ++ (txt! "-" ++ (dec e.maximum.toNat ++
    txt! ")"))))

/-- `impl fmt::Display for Voltage`, `src/structures/004_processor.rs` 1480-1509. -/
def processor.Voltage.display : processor.Voltage → Text
  | .Current v => txt! "Current voltage: " ++ (fixed1 (divTen v.toNat) ++ txt! " V")
  | .Undefined n => txt! "Undefined " ++ binAlt n.toNat
  | .Legacy legacy =>
    let s55 := if legacy.contains processor.VoltageLegacy.VOLTAGE_CAPABILITY_5V0 then txt! "5.5V " else []
    let s33 := if legacy.contains processor.VoltageLegacy.VOLTAGE_CAPABILITY_3V3 then txt! "3.3V " else []
    let s29 := if legacy.contains processor.VoltageLegacy.VOLTAGE_CAPABILITY_2V9 then txt! "2.9V " else []
    if s55.isEmpty && s33.isEmpty && s29.isEmpty then txt! "Voltage capability unknown"
    else txt! "Processor socket accept: " ++ (s55 ++ (s33 ++ s29))

/-- `impl fmt::Display for Device`, `src/structures/009_system_slots.rs` 821-833. -/
def system_slots.Device.display (d : system_slots.Device) : Text :=
  zeroPad 4 (hexLower d.segment_group_number.toNat) ++ (txt! ":" ++
    (zeroPad 2 (hexLower d.bus_number.toNat) ++ (txt! ":" ++
      (zeroPad 2 (hexLower d.device_and_function_number.device.toNat) ++ (txt! "." ++
        (hexLower d.device_and_function_number.function.toNat ++ (txt! " (Width " ++
          (dec d.data_bus_width.toNat ++ txt! ")"))))))))

/-- `impl fmt::Display for SlotPitch`, `src/structures/009_system_slots.rs` 875-883. -/
def system_slots.SlotPitch.display (p : system_slots.SlotPitch) : Text :=
  if p.value = 0 then txt! "Not given or is unknown"
  else fixed1 (divTen p.value.toNat) ++ txt! " mm"

/-- `impl fmt::Display for AccessMethod`, `src/structures/015_system_event_log/mod.rs` 268-315.
`{index:X?}` of `[u8; 2]` is a list of hexadecimal numbers. -/
def system_event_log.AccessMethod.display : Bool → system_event_log.AccessMethod → Text
  | false, .IndexedIoOne8bitIndexOne8bitData _ _ =>
    txt! "Indexed I/O, one 8-bit index port, one 8-bit data port"
  | false, .IndexedIoTwo8bitIndexOne8bitData _ _ _ =>
    txt! "Indexed I/O, two 8-bit index ports, one 8-bit data port"
  | false, .IndexedIoOne16bitIndexOne8bitData _ _ =>
    txt! "Indexed I/O, one 16-bit index port, one 8-bit data port"
  | false, .MemoryMappedPhysicaAddress _ => txt! "Memory-mapped physical 32-bit address"
  | false, .GeneralPurposeNonVolatileData _ => txt! "General-purpose non-volatile data functions"
  | false, .OemSpecific method _ => txt! "OEM-specific: " ++ dec method.toNat
  | false, .Available method _ => txt! "Available: " ++ dec method.toNat
  | true, .IndexedIoOne8bitIndexOne8bitData index data =>
    txt! "Indexed I/O, one 8-bit index port, one 8-bit data port: Index 0x" ++
      (zeroPad 2 (hexUpper index.toNat) ++ (txt! ", Data 0x" ++ zeroPad 2 (hexUpper data.toNat)))
  | true, .IndexedIoTwo8bitIndexOne8bitData index0 index1 data =>
    txt! "Indexed I/O, two 8-bit index ports, one 8-bit data port: Index [" ++
      (hexUpper index0.toNat ++ (txt! ", " ++ (hexUpper index1.toNat ++ (txt! "], Data 0x" ++
        zeroPad 2 (hexUpper data.toNat)))))
  | true, .IndexedIoOne16bitIndexOne8bitData index data =>
    txt! "Indexed I/O, one 16-bit index port, one 8-bit data port: Index 0x" ++
      (zeroPad 4 (hexUpper index.toNat) ++ (txt! ", Data 0x" ++ zeroPad 2 (hexUpper data.toNat)))
  | true, .MemoryMappedPhysicaAddress physical_address =>
    txt! "Memory-mapped physical 32-bit address: 0x" ++ zeroPad 8 (hexUpper physical_address.toNat)
  | true, .GeneralPurposeNonVolatileData gpnv_handle =>
    txt! "General-Purpose NonVolatile Data functions, handle 0x" ++
      zeroPad 4 (hexUpper gpnv_handle.toNat)
  | true, .OemSpecific method address =>
    txt! "BIOS Vendor/OEM-specific: Method " ++ (dec method.toNat ++ (txt! ", Address 0x" ++
      zeroPad 8 (hexUpper address.toNat)))
  | true, .Available method address =>
    txt! "Available: Method " ++ (dec method.toNat ++ (txt! ", Address 0x" ++
      zeroPad 8 (hexUpper address.toNat)))

/-- `impl fmt::Display for VariableDataFormatType`,
`src/structures/015_system_event_log/log_record_format.rs` 373-410. -/
def system_event_log.VariableDataFormatType.display :
    Bool → system_event_log.VariableDataFormatType → Text
  | true, .None => txt! "No standard format data is available"
  | false, .None => txt! "None"
  | true, .Handle handle => txt! "SMBIOS structure associated handle: " ++ dec handle.toNat
  | false, .Handle _ => txt! "Handle"
  | true, .MultipleEvent counter => txt! "Multiple-event counter value: " ++ dec counter.toNat
  | false, .MultipleEvent _ => txt! "Multiple-event"
  | true, .MultipleEventHandle handle counter =>
    txt! "Multiple-event: Handle 0x" ++ (zeroPad 4 (hexUpper handle.toNat) ++ (txt! ", Count " ++
      dec counter.toNat))
  | false, .MultipleEventHandle _ _ => txt! "Multiple-event handle"
  | true, .PostResults pr => txt! "POST result: " ++ hexUpperAlt pr.bits.toNat
  | false, .PostResults _ => txt! "POST results bitmap"
  | true, .SystemManagementType sm => txt! "System management: " ++ sm.display
  | false, .SystemManagementType _ => txt! "System management"
  | true, .MultipleEventSystemManagementType system_management_type counter =>
    txt! "Multiple-event system management: Type " ++ (system_management_type.display ++
      (txt! ", Count " ++ dec counter.toNat))
  | false, .MultipleEventSystemManagementType _ _ => txt! "Multiple-event system management"
  | _, .Unused v => txt! "Unused: " ++ dec v.toNat
  | true, .OemAssigned v => txt! "OEM assigned: " ++ dec v.toNat
  | false, .OemAssigned _ => txt! "OEM-specific"

/-- `impl fmt::Display for ManufactureDate`, `src/structures/022_portable_battery.rs` 152-164. -/
def portable_battery.ManufactureDate.display : portable_battery.ManufactureDate → Text
  | .None => []
  | .Basic s => str s
  | .SmartBatteryDataSpecification year month date =>
    zeroPad 4 (dec year.toNat) ++ (txt! "-" ++ (zeroPad 2 (dec month.toNat) ++ (txt! "-" ++
      zeroPad 2 (dec date.toNat))))

/-- `impl fmt::Display for SerialNumber`, `src/structures/022_portable_battery.rs` 175-183: the width
4 of `{:#04X}` counts the prefix `0x`. -/
def portable_battery.SerialNumber.display : portable_battery.SerialNumber → Text
  | .None => []
  | .Basic s => str s
  | .SmartBatteryDataSpecification word => txt! "0x" ++ zeroPad 2 (hexUpper word.toNat)

end Dmi
