import Verif.Model.Lib
/-!
# Model of `src/structures/011_oem_strings.rs` (OEM Strings, type 11) and
`src/structures/012_system_configuration_options.rs` (System Configuration Options, type 12)
-/
namespace Dmi

/-- `OemStrings`, `src/structures/011_oem_strings.rs` 10-15. -/
structure oem_strings.OemStrings where
  handle : UInt16
  strings : StructureStrings
deriving DecidableEq, Repr

/-- `OemStrings::try_from`, `src/structures/011_oem_strings.rs` 18-24. -/
def oem_strings.OemStrings.try_from (s : RawStructure) : R oem_strings.OemStrings :=
  .ok { handle := s.handle, strings := s.stringsIter }

/-- `SystemConfigurationOptions`, `src/structures/012_system_configuration_options.rs` 14-19. -/
structure system_configuration_options.SystemConfigurationOptions where
  handle : UInt16
  strings : StructureStrings
deriving DecidableEq, Repr

open system_configuration_options in
/-- `SystemConfigurationOptions::try_from`,
`src/structures/012_system_configuration_options.rs` 22-37. -/
def system_configuration_options.SystemConfigurationOptions.try_from [Usize] (oc : Bool)
    (s : RawStructure) : R SystemConfigurationOptions := do
  let count ← s.get8 oc 0x04
  let strings := s.stringsIter
  if count.toNat ≠ strings.count then
    .err (.InvalidStringIndex .SystemConfigurationOptions s.handle count)
  else pure { handle := s.handle, strings }

end Dmi
