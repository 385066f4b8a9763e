import Verif.Model.Lib
/-!
# Model of `src/structures/022_portable_battery.rs` (Portable Battery, type 22)
-/
namespace Dmi.portable_battery

/-- `ManufactureDate`, `src/structures/022_portable_battery.rs` 47-51. -/
inductive ManufactureDate where
  | None
  | Basic (s : Str)
  | SmartBatteryDataSpecification (year : UInt16) (month date : UInt8)
deriving DecidableEq, Repr

/-- `ManufactureDate::new`, `src/structures/022_portable_battery.rs` 140-150. The `u16` addition of
1980 to a 7-bit value cannot overflow. -/
def ManufactureDate.new (basic : Option Str) (sbds : Option UInt16) : ManufactureDate :=
  match basic, sbds with
  | some s, _ => .Basic s
  | none, some date =>
    .SmartBatteryDataSpecification
      (((date &&& 0b1111_1110_0000_0000) >>> 9) + 1980)
      ((date &&& 0b0000_0001_1110_0000) >>> 5).toUInt8
      (date &&& 0b0000_0000_0001_1111).toUInt8
  | none, none => .None

/-- `SerialNumber`, `src/structures/022_portable_battery.rs` 55-59. -/
inductive SerialNumber where
  | None
  | Basic (s : Str)
  | SmartBatteryDataSpecification (word : UInt16)
deriving DecidableEq, Repr

/-- `SerialNumber::new`, `src/structures/022_portable_battery.rs` 167-173. -/
def SerialNumber.new (basic : Option Str) (sbds : Option UInt16) : SerialNumber :=
  match basic, sbds with
  | some s, _ => .Basic s
  | none, some word => .SmartBatteryDataSpecification word
  | none, none => .None

/-- `DesignCapacity`, `src/structures/022_portable_battery.rs` 63-66. -/
inductive DesignCapacity where
  | Unknown
  | Data (value : UInt16) (multiplier : UInt8)
deriving DecidableEq, Repr

/-- `DesignCapacity::new`, `src/structures/022_portable_battery.rs` 224-233. -/
def DesignCapacity.new (value : UInt16) (multipler : Option UInt8) : DesignCapacity :=
  if value = 0 then .Unknown else .Data value (multipler.getD 1)

/-- `impl From<DesignCapacity> for u64`, `src/structures/022_portable_battery.rs` 235-242: the product
is taken in `u16`. -/
def DesignCapacity.toU64 (oc : Bool) : DesignCapacity → Fault UInt64
  | .Unknown => .ok 0
  | .Data value multiplier => do
    let p ← mulU16 oc value multiplier.toUInt16
    pure p.toUInt64

/-- `DeviceChemistry`, `src/structures/022_portable_battery.rs` 71-89. -/
inductive DeviceChemistry where
  | Other
  | Unknown
  | LeadAcid
  | NickelCadmium
  | NickelMetalHydride
  | LithiumIon
  | ZincAir
  | LithiumPolymer
  | Undefined (v : UInt8)
  | SmartBatteryDataSpecification (s : Str)
deriving DecidableEq, Repr

/-- `DeviceChemistry::new`, `src/structures/022_portable_battery.rs` 186-204. -/
def DeviceChemistry.new (basic : UInt8) (sbds : Option Str) : DeviceChemistry :=
  if basic = 0x01 then .Other
  else if basic = 0x02 then
    match sbds with
    | some s => .SmartBatteryDataSpecification s
    | none => .Unknown
  else if basic = 0x03 then .LeadAcid
  else if basic = 0x04 then .NickelCadmium
  else if basic = 0x05 then .NickelMetalHydride
  else if basic = 0x06 then .LithiumIon
  else if basic = 0x07 then .ZincAir
  else if basic = 0x08 then .LithiumPolymer
  else .Undefined basic

/-- `PortableBattery`, `src/structures/022_portable_battery.rs` 17-43. -/
structure PortableBattery where
  handle : UInt16
  location : Str
  manufacturer : Str
  manufacture_date : ManufactureDate
  serial_number : SerialNumber
  device_name : Str
  device_chemistry : DeviceChemistry
  design_capacity : DesignCapacity
  design_voltage : UInt16
  sbds_version_number : Str
  maximum_error_in_battery_data : UInt8
  oem_specific : Option UInt32
deriving DecidableEq, Repr

/-- The string operand of `ManufactureDate::new`/`SerialNumber::new`,
`src/structures/022_portable_battery.rs` 112-116, 120-124. -/
def optString [Usize] (oc : Bool) (s : RawStructure) (offset : Nat) : R (Option Str) := do
  match (← (s.get8 oc offset).toOption).filter (fun idx => idx != 0) with
  | none => pure none
  | some idx => (s.find_string idx).toOption

/-- `PortableBattery::try_from`, `src/structures/022_portable_battery.rs` 92-136. -/
def PortableBattery.try_from [Usize] (oc : Bool) (s : RawStructure) : R PortableBattery :=
  if s.version = .ofPair 2 1 ∧ s.length ≠ 0x10 then
    .err (.InvalidFormattedSectionLength .PortableBattery s.handle "" 0x10)
  else if s.version.ge (.ofPair 2 2) ∧ s.length ≠ 0x1A then
    .err (.InvalidFormattedSectionLength .PortableBattery s.handle "" 0x1A)
  else do
    pure {
      handle := s.handle
      location := ← s.get_string oc 0x04
      manufacturer := ← s.get_string oc 0x05
      manufacture_date := ManufactureDate.new (← optString oc s 0x06) (← (s.get16 oc 0x12).toOption)
      serial_number := SerialNumber.new (← optString oc s 0x07) (← (s.get16 oc 0x10).toOption)
      device_name := ← s.get_string oc 0x08
      device_chemistry :=
        DeviceChemistry.new (← s.get8 oc 0x09) (← (s.get_string oc 0x14).toOption)
      design_capacity := DesignCapacity.new (← s.get16 oc 0x0A) (← (s.get8 oc 0x15).toOption)
      design_voltage := ← s.get16 oc 0x0C
      sbds_version_number := ← s.get_string oc 0x0E
      maximum_error_in_battery_data := ← s.get8 oc 0x0F
      oem_specific := ← (s.get32 oc 0x16).toOption }

end Dmi.portable_battery
