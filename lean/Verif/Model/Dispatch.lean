import Verif.Model.S000
import Verif.Model.S001
import Verif.Model.S002
import Verif.Model.S003
import Verif.Model.S004
import Verif.Model.S007
import Verif.Model.S008
import Verif.Model.S009
import Verif.Model.S011
import Verif.Model.S013
import Verif.Model.S014
import Verif.Model.S015
import Verif.Model.S016
import Verif.Model.S017
import Verif.Model.S018
import Verif.Model.S022
/-!
# Model of the dispatch to the decoders in `src/lib.rs`
-/
namespace Dmi

/-- `Structure`, `src/lib.rs` 366-388. -/
inductive Structure where
  | Bios (x : bios.Bios)
  | System (x : system.System)
  | BaseBoard (x : baseboard.BaseBoard)
  | Enclosure (x : enclosure.Enclosure)
  | Processor (x : processor.Processor)
  | Cache (x : cache.Cache)
  | PortConnector (x : port_connector.PortConnector)
  | SystemSlots (x : system_slots.SystemSlots)
  | OemStrings (x : oem_strings.OemStrings)
  | SystemConfigurationOptions (x : system_configuration_options.SystemConfigurationOptions)
  | BiosLanguage (x : bios_language.BiosLanguage)
  | GroupAssociations (x : group_associations.GroupAssociations)
  | SystemEventLog (x : system_event_log.SystemEventLog)
  | MemoryDevice (x : memory_device.MemoryDevice)
  | MemoryError32 (x : memory_error_32.MemoryError32)
  | MemoryArrayMappedAddress (x : memory_array_mapped_address.MemoryArrayMappedAddress)
  | MemoryDeviceMappedAddress (x : memory_device_mapped_address.MemoryDeviceMappedAddress)
  | BuiltInPointingDevice (x : built_in_pointing_device.BuiltInPointingDevice)
  | PortableBattery (x : portable_battery.PortableBattery)
  | PhysicalMemoryArray (x : physical_memory_array.PhysicalMemoryArray)
  | Other (x : RawStructure)
deriving DecidableEq, Repr

/-- `Result::map`. -/
def Res.map {ε α β : Type} (f : α → β) : Res ε α → Res ε β
  | .ok a => .ok (f a)
  | .err e => .err e
  | .panic => .panic
  | .ub => .ub

/-- The `match structure.info` of `Structures::next`, `src/lib.rs` 487-519. -/
def decodeStructure [Usize] (oc : Bool) (s : RawStructure) : R Structure :=
  match s.info with
  | .Bios => (bios.Bios.try_from s).map .Bios
  | .System => (system.System.try_from s).map .System
  | .BaseBoard => (baseboard.BaseBoard.try_from s).map .BaseBoard
  | .Enclosure => (enclosure.Enclosure.try_from oc s).map .Enclosure
  | .Processor => (processor.Processor.try_from s).map .Processor
  | .Cache => (cache.Cache.try_from s).map .Cache
  | .PortConnector => (port_connector.PortConnector.try_from s).map .PortConnector
  | .SystemSlots => (system_slots.SystemSlots.try_from oc s).map .SystemSlots
  | .OemStrings => (oem_strings.OemStrings.try_from s).map .OemStrings
  | .SystemConfigurationOptions =>
    (system_configuration_options.SystemConfigurationOptions.try_from oc s).map
      .SystemConfigurationOptions
  | .BiosLanguage => (bios_language.BiosLanguage.try_from s).map .BiosLanguage
  | .GroupAssociations =>
    (group_associations.GroupAssociations.try_from oc s).map .GroupAssociations
  | .SystemEventLog => (system_event_log.SystemEventLog.try_from oc s).map .SystemEventLog
  | .PhysicalMemoryArray =>
    (physical_memory_array.PhysicalMemoryArray.try_from s).map .PhysicalMemoryArray
  | .MemoryDevice => (memory_device.MemoryDevice.try_from oc s).map .MemoryDevice
  | .MemoryError32 => (memory_error_32.MemoryError32.try_from oc s).map .MemoryError32
  | .MemoryArrayMappedAddress =>
    (memory_array_mapped_address.MemoryArrayMappedAddress.try_from oc s).map
      .MemoryArrayMappedAddress
  | .MemoryDeviceMappedAddress =>
    (memory_device_mapped_address.MemoryDeviceMappedAddress.try_from oc s).map
      .MemoryDeviceMappedAddress
  | .BuiltInPointingDevice =>
    (built_in_pointing_device.BuiltInPointingDevice.try_from oc s).map .BuiltInPointingDevice
  | .PortableBattery => (portable_battery.PortableBattery.try_from oc s).map .PortableBattery
  | _ => .ok (.Other s)

/-- A `Result` used as a value (an iterator item); only faults stay outcomes. -/
def Res.toItem {ε α : Type} : Res ε α → Fault (Except ε α)
  | .ok a => .ok (.ok a)
  | .err e => .ok (.error e)
  | .panic => .panic
  | .ub => .ub

/-- `Structures::next`, `src/lib.rs` 467-520. -/
def Structures.next [Usize] (oc : Bool) (s : Structures) :
    Fault (Option (Except MalformedStructureError Structure) × Structures) := do
  let (o, s) ← s.next_raw oc
  match o with
  | none => pure (none, s)
  | some (.error e) => pure (some (.error e), { s with smbios_len := s.idx })
  | some (.ok structure_) => do
    let s := if s.smbios_version.major ≥ 3 ∧ structure_.info = .End
      then { s with smbios_len := s.idx } else s
    let item ← (decodeStructure oc structure_).toItem
    pure (some item, s)

end Dmi
