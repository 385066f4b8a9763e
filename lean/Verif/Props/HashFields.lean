import Verif.Props.Hash
/-!
# C93 for the types a structure is made of

The types of the fields are public, so a caller may hash their values on their own.
-/
namespace Dmi.Props
open Spec

/-- Whatever comes before and after, the bytes written for a value of the type determine the value. -/
def ToldApart {α : Type} (fed : α → List Fed) : Prop :=
  ∀ n : Nat, 8 ∣ n → 32 ≤ n → ∀ (pre r s : Bytes) (a b : α),
    @feed ⟨n⟩ pre (fed a) ++ r = @feed ⟨n⟩ pre (fed b) ++ s → a = b ∧ r = s

/-- C93: the same for every public type without text or bytes of the table in it, among them the three codes of a
memory error that no structure contains. -/
theorem C93_field_types :
    ToldApart bios.RomSize.fed ∧
    ToldApart bios.Characteristics.fed ∧
    ToldApart bios.CharacteristicsExtension1.fed ∧
    ToldApart bios.CharacteristicsExtension2.fed ∧
    ToldApart bios.BiosRevision.fed ∧
    ToldApart bios.FirmwareRevision.fed ∧
    ToldApart system.WakeupType.fed ∧
    ToldApart baseboard.BaseBoardFlags.fed ∧
    ToldApart baseboard.BoardType.fed ∧
    ToldApart enclosure.EnclosureType.fed ∧
    ToldApart enclosure.State.fed ∧
    ToldApart enclosure.SecurityStatus.fed ∧
    ToldApart processor.ProcessorType.fed ∧
    ToldApart processor.ProcessorFamily.fed ∧
    ToldApart processor.VoltageLegacy.fed ∧
    ToldApart processor.Voltage.fed ∧
    ToldApart processor.ProcessorStatus.fed ∧
    ToldApart processor.ProcessorUpgrade.fed ∧
    ToldApart processor.ProcessorCharacteristics.fed ∧
    ToldApart cache.CacheLevel.fed ∧
    ToldApart cache.CacheLocation.fed ∧
    ToldApart cache.CacheOperationalMode.fed ∧
    ToldApart cache.CacheConfiguration.fed ∧
    ToldApart cache.CacheSize.fed ∧
    ToldApart cache.CacheSramType.fed ∧
    ToldApart cache.CacheErrorCorrectionType.fed ∧
    ToldApart cache.SystemCacheType.fed ∧
    ToldApart cache.CacheAssociativity.fed ∧
    ToldApart cache.CacheSize2.fed ∧
    ToldApart port_connector.ConnectorType.fed ∧
    ToldApart port_connector.PortType.fed ∧
    ToldApart system_slots.SlotType.fed ∧
    ToldApart system_slots.SlotWidth.fed ∧
    ToldApart system_slots.CurrentUsage.fed ∧
    ToldApart system_slots.SlotLength.fed ∧
    ToldApart system_slots.SlotCharacteristics1.fed ∧
    ToldApart system_slots.SlotCharacteristics2.fed ∧
    ToldApart system_slots.DeviceAndFunctionNumber.fed ∧
    ToldApart system_slots.SlotPitch.fed ∧
    ToldApart SmbiosVersion.fed ∧
    ToldApart InfoType.fed ∧
    ToldApart bios_language.LanguageFlags.fed ∧
    ToldApart system_event_log.LogStatus.fed ∧
    ToldApart system_event_log.LogHeaderFormat.fed ∧
    ToldApart memory_device.FormFactor.fed ∧
    ToldApart memory_device.MemoryType.fed ∧
    ToldApart memory_device.Detail.fed ∧
    ToldApart memory_device.MemoryTechnology.fed ∧
    ToldApart memory_device.OperatingModes.fed ∧
    ToldApart memory_error_32.ErrorType.fed ∧
    ToldApart memory_error_32.ErrorGranularity.fed ∧
    ToldApart memory_error_32.ErrorOperation.fed ∧
    ToldApart memory_error_32.MemoryError32.fed ∧
    ToldApart memory_array_mapped_address.MemoryArrayMappedAddress.fed ∧
    ToldApart memory_device_mapped_address.MemoryDeviceMappedAddress.fed ∧
    ToldApart built_in_pointing_device.DeviceType.fed ∧
    ToldApart built_in_pointing_device.Interface.fed ∧
    ToldApart built_in_pointing_device.BuiltInPointingDevice.fed ∧
    ToldApart portable_battery.DesignCapacity.fed ∧
    ToldApart physical_memory_array.MemoryArrayLocation.fed ∧
    ToldApart physical_memory_array.MemoryArrayUse.fed ∧
    ToldApart physical_memory_array.MemoryArrayErrorCorrectionTypes.fed ∧
    ToldApart physical_memory_array.PhysicalMemoryArray.fed ∧
    ToldApart enclosure.ContainedElementType.fed ∧
    ToldApart enclosure.ContainedElement.fed ∧
    ToldApart system_slots.Device.fed ∧
    ToldApart group_associations.GroupItem.fed ∧
    ToldApart system_event_log.EventLogType.fed ∧
    ToldApart system_event_log.PostResults.fed ∧
    ToldApart system_event_log.SystemManagementType.fed ∧
    ToldApart system_event_log.VariableDataFormatType.fed ∧
    ToldApart system_event_log.EventLogTypeDescriptor.fed ∧
    ToldApart memory_device.ErrorGranularity.fed ∧
    ToldApart memory_device.ErrorOperation.fed ∧
    ToldApart memory_device.ErrorType.fed :=
  ⟨fun n h8 h32 pre r s a b => bios.RomSize.fed_det n h8 h32 pre a b r s
      (bios.RomSize.fed_valid n a) (bios.RomSize.fed_valid n b),
    fun n h8 h32 pre r s a b => bios.Characteristics.fed_det n h8 h32 pre a b r s
      (bios.Characteristics.fed_valid n a) (bios.Characteristics.fed_valid n b),
    fun n h8 h32 pre r s a b => bios.CharacteristicsExtension1.fed_det n h8 h32 pre a b r s
      (bios.CharacteristicsExtension1.fed_valid n a) (bios.CharacteristicsExtension1.fed_valid n b),
    fun n h8 h32 pre r s a b => bios.CharacteristicsExtension2.fed_det n h8 h32 pre a b r s
      (bios.CharacteristicsExtension2.fed_valid n a) (bios.CharacteristicsExtension2.fed_valid n b),
    fun n h8 h32 pre r s a b => bios.BiosRevision.fed_det n h8 h32 pre a b r s
      (bios.BiosRevision.fed_valid n a) (bios.BiosRevision.fed_valid n b),
    fun n h8 h32 pre r s a b => bios.FirmwareRevision.fed_det n h8 h32 pre a b r s
      (bios.FirmwareRevision.fed_valid n a) (bios.FirmwareRevision.fed_valid n b),
    fun n h8 h32 pre r s a b => system.WakeupType.fed_det n h8 h32 pre a b r s
      (system.WakeupType.fed_valid n a) (system.WakeupType.fed_valid n b),
    fun n h8 h32 pre r s a b => baseboard.BaseBoardFlags.fed_det n h8 h32 pre a b r s
      (baseboard.BaseBoardFlags.fed_valid n a) (baseboard.BaseBoardFlags.fed_valid n b),
    fun n h8 h32 pre r s a b => baseboard.BoardType.fed_det n h8 h32 pre a b r s
      (baseboard.BoardType.fed_valid n a) (baseboard.BoardType.fed_valid n b),
    fun n h8 h32 pre r s a b => enclosure.EnclosureType.fed_det n h8 h32 pre a b r s
      (enclosure.EnclosureType.fed_valid n a) (enclosure.EnclosureType.fed_valid n b),
    fun n h8 h32 pre r s a b => enclosure.State.fed_det n h8 h32 pre a b r s
      (enclosure.State.fed_valid n a) (enclosure.State.fed_valid n b),
    fun n h8 h32 pre r s a b => enclosure.SecurityStatus.fed_det n h8 h32 pre a b r s
      (enclosure.SecurityStatus.fed_valid n a) (enclosure.SecurityStatus.fed_valid n b),
    fun n h8 h32 pre r s a b => processor.ProcessorType.fed_det n h8 h32 pre a b r s
      (processor.ProcessorType.fed_valid n a) (processor.ProcessorType.fed_valid n b),
    fun n h8 h32 pre r s a b => processor.ProcessorFamily.fed_det n h8 h32 pre a b r s
      (processor.ProcessorFamily.fed_valid n a) (processor.ProcessorFamily.fed_valid n b),
    fun n h8 h32 pre r s a b => processor.VoltageLegacy.fed_det n h8 h32 pre a b r s
      (processor.VoltageLegacy.fed_valid n a) (processor.VoltageLegacy.fed_valid n b),
    fun n h8 h32 pre r s a b => processor.Voltage.fed_det n h8 h32 pre a b r s
      (processor.Voltage.fed_valid n a) (processor.Voltage.fed_valid n b),
    fun n h8 h32 pre r s a b => processor.ProcessorStatus.fed_det n h8 h32 pre a b r s
      (processor.ProcessorStatus.fed_valid n a) (processor.ProcessorStatus.fed_valid n b),
    fun n h8 h32 pre r s a b => processor.ProcessorUpgrade.fed_det n h8 h32 pre a b r s
      (processor.ProcessorUpgrade.fed_valid n a) (processor.ProcessorUpgrade.fed_valid n b),
    fun n h8 h32 pre r s a b => processor.ProcessorCharacteristics.fed_det n h8 h32 pre a b r s
      (processor.ProcessorCharacteristics.fed_valid n a) (processor.ProcessorCharacteristics.fed_valid n b),
    fun n h8 h32 pre r s a b => cache.CacheLevel.fed_det n h8 h32 pre a b r s
      (cache.CacheLevel.fed_valid n a) (cache.CacheLevel.fed_valid n b),
    fun n h8 h32 pre r s a b => cache.CacheLocation.fed_det n h8 h32 pre a b r s
      (cache.CacheLocation.fed_valid n a) (cache.CacheLocation.fed_valid n b),
    fun n h8 h32 pre r s a b => cache.CacheOperationalMode.fed_det n h8 h32 pre a b r s
      (cache.CacheOperationalMode.fed_valid n a) (cache.CacheOperationalMode.fed_valid n b),
    fun n h8 h32 pre r s a b => cache.CacheConfiguration.fed_det n h8 h32 pre a b r s
      (cache.CacheConfiguration.fed_valid n a) (cache.CacheConfiguration.fed_valid n b),
    fun n h8 h32 pre r s a b => cache.CacheSize.fed_det n h8 h32 pre a b r s
      (cache.CacheSize.fed_valid n a) (cache.CacheSize.fed_valid n b),
    fun n h8 h32 pre r s a b => cache.CacheSramType.fed_det n h8 h32 pre a b r s
      (cache.CacheSramType.fed_valid n a) (cache.CacheSramType.fed_valid n b),
    fun n h8 h32 pre r s a b => cache.CacheErrorCorrectionType.fed_det n h8 h32 pre a b r s
      (cache.CacheErrorCorrectionType.fed_valid n a) (cache.CacheErrorCorrectionType.fed_valid n b),
    fun n h8 h32 pre r s a b => cache.SystemCacheType.fed_det n h8 h32 pre a b r s
      (cache.SystemCacheType.fed_valid n a) (cache.SystemCacheType.fed_valid n b),
    fun n h8 h32 pre r s a b => cache.CacheAssociativity.fed_det n h8 h32 pre a b r s
      (cache.CacheAssociativity.fed_valid n a) (cache.CacheAssociativity.fed_valid n b),
    fun n h8 h32 pre r s a b => cache.CacheSize2.fed_det n h8 h32 pre a b r s
      (cache.CacheSize2.fed_valid n a) (cache.CacheSize2.fed_valid n b),
    fun n h8 h32 pre r s a b => port_connector.ConnectorType.fed_det n h8 h32 pre a b r s
      (port_connector.ConnectorType.fed_valid n a) (port_connector.ConnectorType.fed_valid n b),
    fun n h8 h32 pre r s a b => port_connector.PortType.fed_det n h8 h32 pre a b r s
      (port_connector.PortType.fed_valid n a) (port_connector.PortType.fed_valid n b),
    fun n h8 h32 pre r s a b => system_slots.SlotType.fed_det n h8 h32 pre a b r s
      (system_slots.SlotType.fed_valid n a) (system_slots.SlotType.fed_valid n b),
    fun n h8 h32 pre r s a b => system_slots.SlotWidth.fed_det n h8 h32 pre a b r s
      (system_slots.SlotWidth.fed_valid n a) (system_slots.SlotWidth.fed_valid n b),
    fun n h8 h32 pre r s a b => system_slots.CurrentUsage.fed_det n h8 h32 pre a b r s
      (system_slots.CurrentUsage.fed_valid n a) (system_slots.CurrentUsage.fed_valid n b),
    fun n h8 h32 pre r s a b => system_slots.SlotLength.fed_det n h8 h32 pre a b r s
      (system_slots.SlotLength.fed_valid n a) (system_slots.SlotLength.fed_valid n b),
    fun n h8 h32 pre r s a b => system_slots.SlotCharacteristics1.fed_det n h8 h32 pre a b r s
      (system_slots.SlotCharacteristics1.fed_valid n a) (system_slots.SlotCharacteristics1.fed_valid n b),
    fun n h8 h32 pre r s a b => system_slots.SlotCharacteristics2.fed_det n h8 h32 pre a b r s
      (system_slots.SlotCharacteristics2.fed_valid n a) (system_slots.SlotCharacteristics2.fed_valid n b),
    fun n h8 h32 pre r s a b => system_slots.DeviceAndFunctionNumber.fed_det n h8 h32 pre a b r s
      (system_slots.DeviceAndFunctionNumber.fed_valid n a) (system_slots.DeviceAndFunctionNumber.fed_valid n b),
    fun n h8 h32 pre r s a b => system_slots.SlotPitch.fed_det n h8 h32 pre a b r s
      (system_slots.SlotPitch.fed_valid n a) (system_slots.SlotPitch.fed_valid n b),
    fun n h8 h32 pre r s a b => SmbiosVersion.fed_det n h8 h32 pre a b r s
      (SmbiosVersion.fed_valid n a) (SmbiosVersion.fed_valid n b),
    fun n h8 h32 pre r s a b => InfoType.fed_det n h8 h32 pre a b r s
      (InfoType.fed_valid n a) (InfoType.fed_valid n b),
    fun n h8 h32 pre r s a b => bios_language.LanguageFlags.fed_det n h8 h32 pre a b r s
      (bios_language.LanguageFlags.fed_valid n a) (bios_language.LanguageFlags.fed_valid n b),
    fun n h8 h32 pre r s a b => system_event_log.LogStatus.fed_det n h8 h32 pre a b r s
      (system_event_log.LogStatus.fed_valid n a) (system_event_log.LogStatus.fed_valid n b),
    fun n h8 h32 pre r s a b => system_event_log.LogHeaderFormat.fed_det n h8 h32 pre a b r s
      (system_event_log.LogHeaderFormat.fed_valid n a) (system_event_log.LogHeaderFormat.fed_valid n b),
    fun n h8 h32 pre r s a b => memory_device.FormFactor.fed_det n h8 h32 pre a b r s
      (memory_device.FormFactor.fed_valid n a) (memory_device.FormFactor.fed_valid n b),
    fun n h8 h32 pre r s a b => memory_device.MemoryType.fed_det n h8 h32 pre a b r s
      (memory_device.MemoryType.fed_valid n a) (memory_device.MemoryType.fed_valid n b),
    fun n h8 h32 pre r s a b => memory_device.Detail.fed_det n h8 h32 pre a b r s
      (memory_device.Detail.fed_valid n a) (memory_device.Detail.fed_valid n b),
    fun n h8 h32 pre r s a b => memory_device.MemoryTechnology.fed_det n h8 h32 pre a b r s
      (memory_device.MemoryTechnology.fed_valid n a) (memory_device.MemoryTechnology.fed_valid n b),
    fun n h8 h32 pre r s a b => memory_device.OperatingModes.fed_det n h8 h32 pre a b r s
      (memory_device.OperatingModes.fed_valid n a) (memory_device.OperatingModes.fed_valid n b),
    fun n h8 h32 pre r s a b => memory_error_32.ErrorType.fed_det n h8 h32 pre a b r s
      (memory_error_32.ErrorType.fed_valid n a) (memory_error_32.ErrorType.fed_valid n b),
    fun n h8 h32 pre r s a b => memory_error_32.ErrorGranularity.fed_det n h8 h32 pre a b r s
      (memory_error_32.ErrorGranularity.fed_valid n a) (memory_error_32.ErrorGranularity.fed_valid n b),
    fun n h8 h32 pre r s a b => memory_error_32.ErrorOperation.fed_det n h8 h32 pre a b r s
      (memory_error_32.ErrorOperation.fed_valid n a) (memory_error_32.ErrorOperation.fed_valid n b),
    fun n h8 h32 pre r s a b => memory_error_32.MemoryError32.fed_det n h8 h32 pre a b r s
      (memory_error_32.MemoryError32.fed_valid n a) (memory_error_32.MemoryError32.fed_valid n b),
    fun n h8 h32 pre r s a b => memory_array_mapped_address.MemoryArrayMappedAddress.fed_det n h8 h32 pre a b r s
      (memory_array_mapped_address.MemoryArrayMappedAddress.fed_valid n a) (memory_array_mapped_address.MemoryArrayMappedAddress.fed_valid n b),
    fun n h8 h32 pre r s a b => memory_device_mapped_address.MemoryDeviceMappedAddress.fed_det n h8 h32 pre a b r s
      (memory_device_mapped_address.MemoryDeviceMappedAddress.fed_valid n a) (memory_device_mapped_address.MemoryDeviceMappedAddress.fed_valid n b),
    fun n h8 h32 pre r s a b => built_in_pointing_device.DeviceType.fed_det n h8 h32 pre a b r s
      (built_in_pointing_device.DeviceType.fed_valid n a) (built_in_pointing_device.DeviceType.fed_valid n b),
    fun n h8 h32 pre r s a b => built_in_pointing_device.Interface.fed_det n h8 h32 pre a b r s
      (built_in_pointing_device.Interface.fed_valid n a) (built_in_pointing_device.Interface.fed_valid n b),
    fun n h8 h32 pre r s a b => built_in_pointing_device.BuiltInPointingDevice.fed_det n h8 h32 pre a b r s
      (built_in_pointing_device.BuiltInPointingDevice.fed_valid n a) (built_in_pointing_device.BuiltInPointingDevice.fed_valid n b),
    fun n h8 h32 pre r s a b => portable_battery.DesignCapacity.fed_det n h8 h32 pre a b r s
      (portable_battery.DesignCapacity.fed_valid n a) (portable_battery.DesignCapacity.fed_valid n b),
    fun n h8 h32 pre r s a b => physical_memory_array.MemoryArrayLocation.fed_det n h8 h32 pre a b r s
      (physical_memory_array.MemoryArrayLocation.fed_valid n a) (physical_memory_array.MemoryArrayLocation.fed_valid n b),
    fun n h8 h32 pre r s a b => physical_memory_array.MemoryArrayUse.fed_det n h8 h32 pre a b r s
      (physical_memory_array.MemoryArrayUse.fed_valid n a) (physical_memory_array.MemoryArrayUse.fed_valid n b),
    fun n h8 h32 pre r s a b => physical_memory_array.MemoryArrayErrorCorrectionTypes.fed_det n h8 h32 pre a b r s
      (physical_memory_array.MemoryArrayErrorCorrectionTypes.fed_valid n a) (physical_memory_array.MemoryArrayErrorCorrectionTypes.fed_valid n b),
    fun n h8 h32 pre r s a b => physical_memory_array.PhysicalMemoryArray.fed_det n h8 h32 pre a b r s
      (physical_memory_array.PhysicalMemoryArray.fed_valid n a) (physical_memory_array.PhysicalMemoryArray.fed_valid n b),
    fun n h8 h32 pre r s a b => enclosure.ContainedElementType.fed_det n h8 h32 pre a b r s
      (enclosure.ContainedElementType.fed_valid n a) (enclosure.ContainedElementType.fed_valid n b),
    fun n h8 h32 pre r s a b => enclosure.ContainedElement.fed_det n h8 h32 pre a b r s
      (enclosure.ContainedElement.fed_valid n a) (enclosure.ContainedElement.fed_valid n b),
    fun n h8 h32 pre r s a b => system_slots.Device.fed_det n h8 h32 pre a b r s
      (system_slots.Device.fed_valid n a) (system_slots.Device.fed_valid n b),
    fun n h8 h32 pre r s a b => group_associations.GroupItem.fed_det n h8 h32 pre a b r s
      (group_associations.GroupItem.fed_valid n a) (group_associations.GroupItem.fed_valid n b),
    fun n h8 h32 pre r s a b => system_event_log.EventLogType.fed_det n h8 h32 pre a b r s
      (system_event_log.EventLogType.fed_valid n a) (system_event_log.EventLogType.fed_valid n b),
    fun n h8 h32 pre r s a b => system_event_log.PostResults.fed_det n h8 h32 pre a b r s
      (system_event_log.PostResults.fed_valid n a) (system_event_log.PostResults.fed_valid n b),
    fun n h8 h32 pre r s a b => system_event_log.SystemManagementType.fed_det n h8 h32 pre a b r s
      (system_event_log.SystemManagementType.fed_valid n a) (system_event_log.SystemManagementType.fed_valid n b),
    fun n h8 h32 pre r s a b => system_event_log.VariableDataFormatType.fed_det n h8 h32 pre a b r s
      (system_event_log.VariableDataFormatType.fed_valid n a) (system_event_log.VariableDataFormatType.fed_valid n b),
    fun n h8 h32 pre r s a b => system_event_log.EventLogTypeDescriptor.fed_det n h8 h32 pre a b r s
      (system_event_log.EventLogTypeDescriptor.fed_valid n a) (system_event_log.EventLogTypeDescriptor.fed_valid n b),
    fun n h8 h32 pre r s a b => memory_device.ErrorGranularity.fed_det n h8 h32 pre a b r s
      (memory_device.ErrorGranularity.fed_valid n a) (memory_device.ErrorGranularity.fed_valid n b),
    fun n h8 h32 pre r s a b => memory_device.ErrorOperation.fed_det n h8 h32 pre a b r s
      (memory_device.ErrorOperation.fed_valid n a) (memory_device.ErrorOperation.fed_valid n b),
    fun n h8 h32 pre r s a b => memory_device.ErrorType.fed_det n h8 h32 pre a b r s
      (memory_device.ErrorType.fed_valid n a) (memory_device.ErrorType.fed_valid n b)⟩

/-- Two codes of a memory error, hashed after nothing. -/
example : @feed ⟨64⟩ [] (memory_device.ErrorType.Ok.fed) ≠ @feed ⟨64⟩ [] (memory_device.ErrorType.Parity.fed) := by
  decide +kernel

end Dmi.Props
