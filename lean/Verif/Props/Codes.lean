import Verif.Proofs.Codes
import Verif.Model.S003
/-!
# Properties C23, C53: code tables

The tables are those of `Verif/Spec/Codes.lean`; see there for where they come from.
-/
namespace Dmi.Props
open Spec

/-! ## C23 -/

/-- C23: a type byte decodes to the variant of its structure type, any other is kept in `Oem`. -/
theorem C23_info_type : Conforms InfoType.ofU8 Codes.InfoType .Oem :=
  forall_u8 (by decide +kernel)

/-- C23: the byte can be recovered. -/
theorem C23_injective {a b : UInt8} (h : InfoType.ofU8 a = InfoType.ofU8 b) : a = b :=
  C23_info_type.injective InfoType.ctorIdx (by decide +kernel) (by intro _ _ h; cases h; rfl)
    (by intro b x hx e; subst e; revert b; exact forall_u8 (by decide +kernel)) h

example : InfoType.ofU8 17 = .MemoryDevice ∧ InfoType.ofU8 5 = .Oem 5 ∧ InfoType.ofU8 200 = .Oem 200 := by
  decide

/-! ## C53 -/

/-- C53 for `system.WakeupType`: every code decodes to its name or, without one, is kept. -/
theorem C53_system_WakeupType : Conforms system.WakeupType.ofU8 Codes.system.WakeupType .Undefined :=
  forall_u8 (by decide +kernel)

theorem C53_system_WakeupType_injective {a b : UInt8} (h : system.WakeupType.ofU8 a = system.WakeupType.ofU8 b) : a = b :=
  C53_system_WakeupType.injective system.WakeupType.ctorIdx (by decide +kernel) (by intro _ _ h; cases h; rfl)
    (by intro b x hx e; subst e; revert b; exact forall_u8 (by decide +kernel)) h

example : system.WakeupType.ofU8 8 = .AC_Power_Restored ∧ system.WakeupType.ofU8 0xEE = .Undefined 0xEE := by decide

/-- C53 for `baseboard.BoardType`: every code decodes to its name or, without one, is kept. -/
theorem C53_baseboard_BoardType : Conforms baseboard.BoardType.ofU8 Codes.baseboard.BoardType .Undefined :=
  forall_u8 (by decide +kernel)

theorem C53_baseboard_BoardType_injective {a b : UInt8} (h : baseboard.BoardType.ofU8 a = baseboard.BoardType.ofU8 b) : a = b :=
  C53_baseboard_BoardType.injective baseboard.BoardType.ctorIdx (by decide +kernel) (by intro _ _ h; cases h; rfl)
    (by intro b x hx e; subst e; revert b; exact forall_u8 (by decide +kernel)) h

example : baseboard.BoardType.ofU8 13 = .InterconnectBoard ∧ baseboard.BoardType.ofU8 0xEE = .Undefined 0xEE := by decide

/-- C53 for `enclosure.EnclosureType`: every code decodes to its name or, without one, is kept. -/
theorem C53_enclosure_EnclosureType : Conforms enclosure.EnclosureType.ofU8 Codes.enclosure.EnclosureType .Undefined :=
  forall_u8 (by decide +kernel)

theorem C53_enclosure_EnclosureType_injective {a b : UInt8} (h : enclosure.EnclosureType.ofU8 a = enclosure.EnclosureType.ofU8 b) : a = b :=
  C53_enclosure_EnclosureType.injective enclosure.EnclosureType.ctorIdx (by decide +kernel) (by intro _ _ h; cases h; rfl)
    (by intro b x hx e; subst e; revert b; exact forall_u8 (by decide +kernel)) h

example : enclosure.EnclosureType.ofU8 36 = .StickPc ∧ enclosure.EnclosureType.ofU8 0xEE = .Undefined 0xEE := by decide

/-- C53 for `enclosure.State`: every code decodes to its name or, without one, is kept. -/
theorem C53_enclosure_State : Conforms enclosure.State.ofU8 Codes.enclosure.State .Undefined :=
  forall_u8 (by decide +kernel)

theorem C53_enclosure_State_injective {a b : UInt8} (h : enclosure.State.ofU8 a = enclosure.State.ofU8 b) : a = b :=
  C53_enclosure_State.injective enclosure.State.ctorIdx (by decide +kernel) (by intro _ _ h; cases h; rfl)
    (by intro b x hx e; subst e; revert b; exact forall_u8 (by decide +kernel)) h

example : enclosure.State.ofU8 6 = .NonRecoverable ∧ enclosure.State.ofU8 0xEE = .Undefined 0xEE := by decide

/-- C53 for `enclosure.SecurityStatus`: every code decodes to its name or, without one, is kept. -/
theorem C53_enclosure_SecurityStatus : Conforms enclosure.SecurityStatus.ofU8 Codes.enclosure.SecurityStatus .Undefined :=
  forall_u8 (by decide +kernel)

theorem C53_enclosure_SecurityStatus_injective {a b : UInt8} (h : enclosure.SecurityStatus.ofU8 a = enclosure.SecurityStatus.ofU8 b) : a = b :=
  C53_enclosure_SecurityStatus.injective enclosure.SecurityStatus.ctorIdx (by decide +kernel) (by intro _ _ h; cases h; rfl)
    (by intro b x hx e; subst e; revert b; exact forall_u8 (by decide +kernel)) h

example : enclosure.SecurityStatus.ofU8 5 = .ExternalInterfaceEnabled ∧ enclosure.SecurityStatus.ofU8 0xEE = .Undefined 0xEE := by decide

/-- C53 for `processor.ProcessorType`: every code decodes to its name or, without one, is kept. -/
theorem C53_processor_ProcessorType : Conforms processor.ProcessorType.ofU8 Codes.processor.ProcessorType .Undefined :=
  forall_u8 (by decide +kernel)

theorem C53_processor_ProcessorType_injective {a b : UInt8} (h : processor.ProcessorType.ofU8 a = processor.ProcessorType.ofU8 b) : a = b :=
  C53_processor_ProcessorType.injective processor.ProcessorType.ctorIdx (by decide +kernel) (by intro _ _ h; cases h; rfl)
    (by intro b x hx e; subst e; revert b; exact forall_u8 (by decide +kernel)) h

example : processor.ProcessorType.ofU8 6 = .VideoProcessor ∧ processor.ProcessorType.ofU8 0xEE = .Undefined 0xEE := by decide

/-- C53 for `processor.ProcessorUpgrade`: every code decodes to its name or, without one, is kept. -/
theorem C53_processor_ProcessorUpgrade : Conforms processor.ProcessorUpgrade.ofU8 Codes.processor.ProcessorUpgrade .Undefined :=
  forall_u8 (by decide +kernel)

theorem C53_processor_ProcessorUpgrade_injective {a b : UInt8} (h : processor.ProcessorUpgrade.ofU8 a = processor.ProcessorUpgrade.ofU8 b) : a = b :=
  C53_processor_ProcessorUpgrade.injective processor.ProcessorUpgrade.ctorIdx (by decide +kernel) (by intro _ _ h; cases h; rfl)
    (by intro b x hx e; subst e; revert b; exact forall_u8 (by decide +kernel)) h

example : processor.ProcessorUpgrade.ofU8 62 = .SocketLGA1200 ∧ processor.ProcessorUpgrade.ofU8 0xEE = .Undefined 0xEE := by decide

/-- C53 for `cache.CacheErrorCorrectionType`: every code decodes to its name or, without one, is kept. -/
theorem C53_cache_CacheErrorCorrectionType : Conforms cache.CacheErrorCorrectionType.ofU8 Codes.cache.CacheErrorCorrectionType .Undefined :=
  forall_u8 (by decide +kernel)

theorem C53_cache_CacheErrorCorrectionType_injective {a b : UInt8} (h : cache.CacheErrorCorrectionType.ofU8 a = cache.CacheErrorCorrectionType.ofU8 b) : a = b :=
  C53_cache_CacheErrorCorrectionType.injective cache.CacheErrorCorrectionType.ctorIdx (by decide +kernel) (by intro _ _ h; cases h; rfl)
    (by intro b x hx e; subst e; revert b; exact forall_u8 (by decide +kernel)) h

example : cache.CacheErrorCorrectionType.ofU8 6 = .MultiBitEcc ∧ cache.CacheErrorCorrectionType.ofU8 0xEE = .Undefined 0xEE := by decide

/-- C53 for `cache.SystemCacheType`: every code decodes to its name or, without one, is kept. -/
theorem C53_cache_SystemCacheType : Conforms cache.SystemCacheType.ofU8 Codes.cache.SystemCacheType .Undefined :=
  forall_u8 (by decide +kernel)

theorem C53_cache_SystemCacheType_injective {a b : UInt8} (h : cache.SystemCacheType.ofU8 a = cache.SystemCacheType.ofU8 b) : a = b :=
  C53_cache_SystemCacheType.injective cache.SystemCacheType.ctorIdx (by decide +kernel) (by intro _ _ h; cases h; rfl)
    (by intro b x hx e; subst e; revert b; exact forall_u8 (by decide +kernel)) h

example : cache.SystemCacheType.ofU8 5 = .Unified ∧ cache.SystemCacheType.ofU8 0xEE = .Undefined 0xEE := by decide

/-- C53 for `cache.CacheAssociativity`: every code decodes to its name or, without one, is kept. -/
theorem C53_cache_CacheAssociativity : Conforms cache.CacheAssociativity.ofU8 Codes.cache.CacheAssociativity .Undefined :=
  forall_u8 (by decide +kernel)

theorem C53_cache_CacheAssociativity_injective {a b : UInt8} (h : cache.CacheAssociativity.ofU8 a = cache.CacheAssociativity.ofU8 b) : a = b :=
  C53_cache_CacheAssociativity.injective cache.CacheAssociativity.ctorIdx (by decide +kernel) (by intro _ _ h; cases h; rfl)
    (by intro b x hx e; subst e; revert b; exact forall_u8 (by decide +kernel)) h

example : cache.CacheAssociativity.ofU8 14 = .TwentyWaySetAssociative ∧ cache.CacheAssociativity.ofU8 0xEE = .Undefined 0xEE := by decide

/-- C53 for `port_connector.ConnectorType`: every code decodes to its name or, without one, is kept. -/
theorem C53_port_connector_ConnectorType : Conforms port_connector.ConnectorType.ofU8 Codes.port_connector.ConnectorType .Undefined :=
  forall_u8 (by decide +kernel)

theorem C53_port_connector_ConnectorType_injective {a b : UInt8} (h : port_connector.ConnectorType.ofU8 a = port_connector.ConnectorType.ofU8 b) : a = b :=
  C53_port_connector_ConnectorType.injective port_connector.ConnectorType.ctorIdx (by decide +kernel) (by intro _ _ h; cases h; rfl)
    (by intro b x hx e; subst e; revert b; exact forall_u8 (by decide +kernel)) h

example : port_connector.ConnectorType.ofU8 255 = .Other ∧ port_connector.ConnectorType.ofU8 0xEE = .Undefined 0xEE := by decide

/-- C53 for `port_connector.PortType`: every code decodes to its name or, without one, is kept. -/
theorem C53_port_connector_PortType : Conforms port_connector.PortType.ofU8 Codes.port_connector.PortType .Undefined :=
  forall_u8 (by decide +kernel)

theorem C53_port_connector_PortType_injective {a b : UInt8} (h : port_connector.PortType.ofU8 a = port_connector.PortType.ofU8 b) : a = b :=
  C53_port_connector_PortType.injective port_connector.PortType.ctorIdx (by decide +kernel) (by intro _ _ h; cases h; rfl)
    (by intro b x hx e; subst e; revert b; exact forall_u8 (by decide +kernel)) h

example : port_connector.PortType.ofU8 255 = .Other ∧ port_connector.PortType.ofU8 0xEE = .Undefined 0xEE := by decide

/-- C53 for `system_slots.SlotWidth`: every code decodes to its name or, without one, is kept. -/
theorem C53_system_slots_SlotWidth : Conforms system_slots.SlotWidth.ofU8 Codes.system_slots.SlotWidth .Undefined :=
  forall_u8 (by decide +kernel)

theorem C53_system_slots_SlotWidth_injective {a b : UInt8} (h : system_slots.SlotWidth.ofU8 a = system_slots.SlotWidth.ofU8 b) : a = b :=
  C53_system_slots_SlotWidth.injective system_slots.SlotWidth.ctorIdx (by decide +kernel) (by intro _ _ h; cases h; rfl)
    (by intro b x hx e; subst e; revert b; exact forall_u8 (by decide +kernel)) h

example : system_slots.SlotWidth.ofU8 14 = .X32 ∧ system_slots.SlotWidth.ofU8 0xEE = .Undefined 0xEE := by decide

/-- C53 for `system_slots.CurrentUsage`: every code decodes to its name or, without one, is kept. -/
theorem C53_system_slots_CurrentUsage : Conforms system_slots.CurrentUsage.ofU8 Codes.system_slots.CurrentUsage .Undefined :=
  forall_u8 (by decide +kernel)

theorem C53_system_slots_CurrentUsage_injective {a b : UInt8} (h : system_slots.CurrentUsage.ofU8 a = system_slots.CurrentUsage.ofU8 b) : a = b :=
  C53_system_slots_CurrentUsage.injective system_slots.CurrentUsage.ctorIdx (by decide +kernel) (by intro _ _ h; cases h; rfl)
    (by intro b x hx e; subst e; revert b; exact forall_u8 (by decide +kernel)) h

example : system_slots.CurrentUsage.ofU8 5 = .Unavailable ∧ system_slots.CurrentUsage.ofU8 0xEE = .Undefined 0xEE := by decide

/-- C53 for `system_slots.SlotLength`: every code decodes to its name or, without one, is kept. -/
theorem C53_system_slots_SlotLength : Conforms system_slots.SlotLength.ofU8 Codes.system_slots.SlotLength .Undefined :=
  forall_u8 (by decide +kernel)

theorem C53_system_slots_SlotLength_injective {a b : UInt8} (h : system_slots.SlotLength.ofU8 a = system_slots.SlotLength.ofU8 b) : a = b :=
  C53_system_slots_SlotLength.injective system_slots.SlotLength.ctorIdx (by decide +kernel) (by intro _ _ h; cases h; rfl)
    (by intro b x hx e; subst e; revert b; exact forall_u8 (by decide +kernel)) h

example : system_slots.SlotLength.ofU8 6 = .DriveFormFactor3_5 ∧ system_slots.SlotLength.ofU8 0xEE = .Undefined 0xEE := by decide

/-- C53 for `physical_memory_array.MemoryArrayUse`: every code decodes to its name or, without one, is kept. -/
theorem C53_physical_memory_array_MemoryArrayUse : Conforms physical_memory_array.MemoryArrayUse.ofU8 Codes.physical_memory_array.MemoryArrayUse .Undefined :=
  forall_u8 (by decide +kernel)

theorem C53_physical_memory_array_MemoryArrayUse_injective {a b : UInt8} (h : physical_memory_array.MemoryArrayUse.ofU8 a = physical_memory_array.MemoryArrayUse.ofU8 b) : a = b :=
  C53_physical_memory_array_MemoryArrayUse.injective physical_memory_array.MemoryArrayUse.ctorIdx (by decide +kernel) (by intro _ _ h; cases h; rfl)
    (by intro b x hx e; subst e; revert b; exact forall_u8 (by decide +kernel)) h

example : physical_memory_array.MemoryArrayUse.ofU8 7 = .CacheMemory ∧ physical_memory_array.MemoryArrayUse.ofU8 0xEE = .Undefined 0xEE := by decide

/-- C53 for `physical_memory_array.MemoryArrayErrorCorrectionTypes`: every code decodes to its name or, without one, is kept. -/
theorem C53_physical_memory_array_MemoryArrayErrorCorrectionTypes : Conforms physical_memory_array.MemoryArrayErrorCorrectionTypes.ofU8 Codes.physical_memory_array.MemoryArrayErrorCorrectionTypes .Undefined :=
  forall_u8 (by decide +kernel)

theorem C53_physical_memory_array_MemoryArrayErrorCorrectionTypes_injective {a b : UInt8} (h : physical_memory_array.MemoryArrayErrorCorrectionTypes.ofU8 a = physical_memory_array.MemoryArrayErrorCorrectionTypes.ofU8 b) : a = b :=
  C53_physical_memory_array_MemoryArrayErrorCorrectionTypes.injective physical_memory_array.MemoryArrayErrorCorrectionTypes.ctorIdx (by decide +kernel) (by intro _ _ h; cases h; rfl)
    (by intro b x hx e; subst e; revert b; exact forall_u8 (by decide +kernel)) h

example : physical_memory_array.MemoryArrayErrorCorrectionTypes.ofU8 7 = .CRC ∧ physical_memory_array.MemoryArrayErrorCorrectionTypes.ofU8 0xEE = .Undefined 0xEE := by decide

/-- C53 for `memory_device.ErrorGranularity`: every code decodes to its name or, without one, is kept. -/
theorem C53_memory_device_ErrorGranularity : Conforms memory_device.ErrorGranularity.ofU8 Codes.memory_device.ErrorGranularity .Undefined :=
  forall_u8 (by decide +kernel)

theorem C53_memory_device_ErrorGranularity_injective {a b : UInt8} (h : memory_device.ErrorGranularity.ofU8 a = memory_device.ErrorGranularity.ofU8 b) : a = b :=
  C53_memory_device_ErrorGranularity.injective memory_device.ErrorGranularity.ctorIdx (by decide +kernel) (by intro _ _ h; cases h; rfl)
    (by intro b x hx e; subst e; revert b; exact forall_u8 (by decide +kernel)) h

example : memory_device.ErrorGranularity.ofU8 4 = .MemoryLevel ∧ memory_device.ErrorGranularity.ofU8 0xEE = .Undefined 0xEE := by decide

/-- C53 for `memory_device.ErrorOperation`: every code decodes to its name or, without one, is kept. -/
theorem C53_memory_device_ErrorOperation : Conforms memory_device.ErrorOperation.ofU8 Codes.memory_device.ErrorOperation .Undefined :=
  forall_u8 (by decide +kernel)

theorem C53_memory_device_ErrorOperation_injective {a b : UInt8} (h : memory_device.ErrorOperation.ofU8 a = memory_device.ErrorOperation.ofU8 b) : a = b :=
  C53_memory_device_ErrorOperation.injective memory_device.ErrorOperation.ctorIdx (by decide +kernel) (by intro _ _ h; cases h; rfl)
    (by intro b x hx e; subst e; revert b; exact forall_u8 (by decide +kernel)) h

example : memory_device.ErrorOperation.ofU8 5 = .PartialWrite ∧ memory_device.ErrorOperation.ofU8 0xEE = .Undefined 0xEE := by decide

/-- C53 for `memory_device.ErrorType`: every code decodes to its name or, without one, is kept. -/
theorem C53_memory_device_ErrorType : Conforms memory_device.ErrorType.ofU8 Codes.memory_device.ErrorType .Undefined :=
  forall_u8 (by decide +kernel)

theorem C53_memory_device_ErrorType_injective {a b : UInt8} (h : memory_device.ErrorType.ofU8 a = memory_device.ErrorType.ofU8 b) : a = b :=
  C53_memory_device_ErrorType.injective memory_device.ErrorType.ctorIdx (by decide +kernel) (by intro _ _ h; cases h; rfl)
    (by intro b x hx e; subst e; revert b; exact forall_u8 (by decide +kernel)) h

example : memory_device.ErrorType.ofU8 14 = .Uncorrectable ∧ memory_device.ErrorType.ofU8 0xEE = .Undefined 0xEE := by decide

/-- C53 for `memory_device.MemoryTechnology`: every code decodes to its name or, without one, is kept. -/
theorem C53_memory_device_MemoryTechnology : Conforms memory_device.MemoryTechnology.ofU8 Codes.memory_device.MemoryTechnology .Undefined :=
  forall_u8 (by decide +kernel)

theorem C53_memory_device_MemoryTechnology_injective {a b : UInt8} (h : memory_device.MemoryTechnology.ofU8 a = memory_device.MemoryTechnology.ofU8 b) : a = b :=
  C53_memory_device_MemoryTechnology.injective memory_device.MemoryTechnology.ctorIdx (by decide +kernel) (by intro _ _ h; cases h; rfl)
    (by intro b x hx e; subst e; revert b; exact forall_u8 (by decide +kernel)) h

example : memory_device.MemoryTechnology.ofU8 7 = .IntelOptane ∧ memory_device.MemoryTechnology.ofU8 0xEE = .Undefined 0xEE := by decide

/-- C53 for `memory_error_32.ErrorType`: every code decodes to its name or, without one, is kept. -/
theorem C53_memory_error_32_ErrorType : Conforms memory_error_32.ErrorType.ofU8 Codes.memory_error_32.ErrorType .Undefined :=
  forall_u8 (by decide +kernel)

theorem C53_memory_error_32_ErrorType_injective {a b : UInt8} (h : memory_error_32.ErrorType.ofU8 a = memory_error_32.ErrorType.ofU8 b) : a = b :=
  C53_memory_error_32_ErrorType.injective memory_error_32.ErrorType.ctorIdx (by decide +kernel) (by intro _ _ h; cases h; rfl)
    (by intro b x hx e; subst e; revert b; exact forall_u8 (by decide +kernel)) h

example : memory_error_32.ErrorType.ofU8 14 = .UncorrectableError ∧ memory_error_32.ErrorType.ofU8 0xEE = .Undefined 0xEE := by decide

/-- C53 for `memory_error_32.ErrorGranularity`: every code decodes to its name or, without one, is kept. -/
theorem C53_memory_error_32_ErrorGranularity : Conforms memory_error_32.ErrorGranularity.ofU8 Codes.memory_error_32.ErrorGranularity .Undefined :=
  forall_u8 (by decide +kernel)

theorem C53_memory_error_32_ErrorGranularity_injective {a b : UInt8} (h : memory_error_32.ErrorGranularity.ofU8 a = memory_error_32.ErrorGranularity.ofU8 b) : a = b :=
  C53_memory_error_32_ErrorGranularity.injective memory_error_32.ErrorGranularity.ctorIdx (by decide +kernel) (by intro _ _ h; cases h; rfl)
    (by intro b x hx e; subst e; revert b; exact forall_u8 (by decide +kernel)) h

example : memory_error_32.ErrorGranularity.ofU8 4 = .MemoryPartitionLevel ∧ memory_error_32.ErrorGranularity.ofU8 0xEE = .Undefined 0xEE := by decide

/-- C53 for `memory_error_32.ErrorOperation`: every code decodes to its name or, without one, is kept. -/
theorem C53_memory_error_32_ErrorOperation : Conforms memory_error_32.ErrorOperation.ofU8 Codes.memory_error_32.ErrorOperation .Undefined :=
  forall_u8 (by decide +kernel)

theorem C53_memory_error_32_ErrorOperation_injective {a b : UInt8} (h : memory_error_32.ErrorOperation.ofU8 a = memory_error_32.ErrorOperation.ofU8 b) : a = b :=
  C53_memory_error_32_ErrorOperation.injective memory_error_32.ErrorOperation.ctorIdx (by decide +kernel) (by intro _ _ h; cases h; rfl)
    (by intro b x hx e; subst e; revert b; exact forall_u8 (by decide +kernel)) h

example : memory_error_32.ErrorOperation.ofU8 5 = .PartialWrite ∧ memory_error_32.ErrorOperation.ofU8 0xEE = .Undefined 0xEE := by decide

/-- C53 for `built_in_pointing_device.DeviceType`: every code decodes to its name or, without one, is kept. -/
theorem C53_built_in_pointing_device_DeviceType : Conforms built_in_pointing_device.DeviceType.ofU8 Codes.built_in_pointing_device.DeviceType .Undefined :=
  forall_u8 (by decide +kernel)

theorem C53_built_in_pointing_device_DeviceType_injective {a b : UInt8} (h : built_in_pointing_device.DeviceType.ofU8 a = built_in_pointing_device.DeviceType.ofU8 b) : a = b :=
  C53_built_in_pointing_device_DeviceType.injective built_in_pointing_device.DeviceType.ctorIdx (by decide +kernel) (by intro _ _ h; cases h; rfl)
    (by intro b x hx e; subst e; revert b; exact forall_u8 (by decide +kernel)) h

example : built_in_pointing_device.DeviceType.ofU8 9 = .OpticalSensor ∧ built_in_pointing_device.DeviceType.ofU8 0xEE = .Undefined 0xEE := by decide

/-- C53 for `built_in_pointing_device.Interface`: every code decodes to its name or, without one, is kept. -/
theorem C53_built_in_pointing_device_Interface : Conforms built_in_pointing_device.Interface.ofU8 Codes.built_in_pointing_device.Interface .Undefined :=
  forall_u8 (by decide +kernel)

theorem C53_built_in_pointing_device_Interface_injective {a b : UInt8} (h : built_in_pointing_device.Interface.ofU8 a = built_in_pointing_device.Interface.ofU8 b) : a = b :=
  C53_built_in_pointing_device_Interface.injective built_in_pointing_device.Interface.ctorIdx (by decide +kernel) (by intro _ _ h; cases h; rfl)
    (by intro b x hx e; subst e; revert b; exact forall_u8 (by decide +kernel)) h

example : built_in_pointing_device.Interface.ofU8 162 = .Usb ∧ built_in_pointing_device.Interface.ofU8 0xEE = .Undefined 0xEE := by decide

/-! ### Tables with more than one catch-all variant -/

/-- C53 for `system_event_log.LogHeaderFormat`. -/
theorem C53_system_event_log_LogHeaderFormat :
    Conforms system_event_log.LogHeaderFormat.ofU8 Codes.system_event_log.LogHeaderFormat
      (fun b => if b < 0x80 then .Available b else .OemSpecific b) :=
  forall_u8 (by decide +kernel)

theorem C53_system_event_log_LogHeaderFormat_injective {a b : UInt8}
    (h : system_event_log.LogHeaderFormat.ofU8 a = system_event_log.LogHeaderFormat.ofU8 b) :
    a = b :=
  C53_system_event_log_LogHeaderFormat.injective system_event_log.LogHeaderFormat.ctorIdx
    (by decide +kernel) (by intro a b h; split at h <;> split at h <;> cases h <;> rfl)
    (by intro b x hx e; subst e; revert b; exact forall_u8 (by decide +kernel)) h

example : system_event_log.LogHeaderFormat.ofU8 0x81 = .OemSpecific 0x81 := by decide

/-! ### Enumerations that deviate from their table

For these four the full statements are kept as `…_full` and refuted; the `_partial` theorems
say for which codes they hold. -/

/-- Full statement for slot types. False of the code. -/
def C53_SlotType_full : Prop :=
  Conforms system_slots.SlotType.ofU8 Codes.system_slots.SlotType .Undefined

/-- C53 for slot types, except the four U.2 codes. -/
theorem C53_SlotType_partial (b : UInt8) (h : b ∉ [0x1F, 0x20, 0x24, 0x25]) :
    system_slots.SlotType.ofU8 b
      = (named Codes.system_slots.SlotType b.toNat).getD (.Undefined b) := by
  revert h; revert b; exact forall_u8 (by decide +kernel)

example : (0xB1 : UInt8) ∉ [0x1F, 0x20, 0x24, 0x25] ∧
    system_slots.SlotType.ofU8 0xB1 = .PciExpressGen3 := by decide +kernel

theorem C53_SlotType_full_false : ¬ C53_SlotType_full := fun h =>
  absurd (h 0x1F) (by decide +kernel)

/-- Two different codes with the same value, four times. -/
theorem C53_SlotType_collisions :
    system_slots.SlotType.ofU8 0x1F = system_slots.SlotType.ofU8 0xAB ∧
    system_slots.SlotType.ofU8 0x20 = system_slots.SlotType.ofU8 0xB1 ∧
    system_slots.SlotType.ofU8 0x24 = system_slots.SlotType.ofU8 0xB8 ∧
    system_slots.SlotType.ofU8 0x25 = system_slots.SlotType.ofU8 0xBE := by decide +kernel

/-- No code at all yields one of the U.2 variants. -/
theorem C53_SlotType_never_u2 (b : UInt8) :
    system_slots.SlotType.ofU8 b ∉ [.U2PciExpressGen2, .U2PciExpressGen3, .U2PciExpressGen4,
      .U2PciExpressGen5] := by
  revert b; exact forall_u8 (by decide +kernel)

/-- Slot types are injective on the other codes. -/
theorem C53_SlotType_injective_partial {a b : UInt8} (ha : a ∉ [0x1F, 0x20, 0x24, 0x25])
    (hb : b ∉ [0x1F, 0x20, 0x24, 0x25])
    (h : system_slots.SlotType.ofU8 a = system_slots.SlotType.ofU8 b) : a = b :=
  injective_of_table (P := fun b => b ∉ [0x1F, 0x20, 0x24, 0x25]) (fun h => UInt8.toNat_inj.1 h)
    C53_SlotType_partial system_slots.SlotType.ctorIdx (by decide +kernel)
    (by intro _ _ h; cases h; rfl)
    (by intro b x hx e; subst e; revert b; exact forall_u8 (by decide +kernel)) ha hb h

/-- Full statement for memory form factors. False of the code. -/
def C53_FormFactor_full : Prop :=
  Conforms memory_device.FormFactor.ofU8 Codes.memory_device.FormFactor .Undefined

/-- C53 for form factors from code 9 on. -/
theorem C53_FormFactor_partial (b : UInt8) (h : 9 ≤ b) :
    memory_device.FormFactor.ofU8 b
      = (named Codes.memory_device.FormFactor b.toNat).getD (.Undefined b) := by
  revert h; revert b; exact forall_u8 (by decide +kernel)

example : (9 : UInt8) ≤ 13 ∧ memory_device.FormFactor.ofU8 13 = .SoDimm := by decide +kernel

/-- Below 9 every code gets the name the table gives to the following code. -/
theorem C53_FormFactor_shifted (b : UInt8) (h : b < 9) :
    some (memory_device.FormFactor.ofU8 b)
      = named Codes.memory_device.FormFactor (b.toNat + 1) := by
  revert h; revert b; exact forall_u8 (by decide +kernel)

example : (3 : UInt8) < 9 ∧ memory_device.FormFactor.ofU8 3 = .Sip := by decide +kernel

theorem C53_FormFactor_full_false : ¬ C53_FormFactor_full := fun h =>
  absurd (h 3) (by decide +kernel)

/-- Form factors lose information at exactly one pair of codes. -/
theorem C53_FormFactor_collision :
    memory_device.FormFactor.ofU8 8 = memory_device.FormFactor.ofU8 9 := by decide +kernel

/-- The code can be recovered except for the pair 8, 9. -/
theorem C53_FormFactor_injective_partial {a b : UInt8} (ha : a ≠ 9) (hb : b ≠ 9)
    (h : memory_device.FormFactor.ofU8 a = memory_device.FormFactor.ofU8 b) : a = b :=
  injective_of_table (P := fun b => b ≠ 9) (fun h => UInt8.toNat_inj.1 h)
    (t := [(0, [.Other, .Unknown, .Simm, .Sip, .Chip, .Dip, .Zip, .ProprietaryCard, .Dimm]),
      (10, [.Tsop, .RowOfChips, .Rimm, .SoDimm, .Srimm, .FbDimm])]) (other := .Undefined)
    (forall_u8 (by decide +kernel)) memory_device.FormFactor.ctorIdx (by decide +kernel)
    (by intro _ _ h; cases h; rfl)
    (by intro b x hx e; subst e; revert b; exact forall_u8 (by decide +kernel)) ha hb h

/-- Full statement for memory array locations. False of the code. -/
def C53_MemoryArrayLocation_full : Prop :=
  Conforms physical_memory_array.MemoryArrayLocation.ofU8
    Codes.physical_memory_array.MemoryArrayLocation .Undefined

/-- C53 for array locations, except 0Bh-0Fh and A0h-A4h. -/
theorem C53_MemoryArrayLocation_partial (b : UInt8)
    (h : b ∉ [0x0B, 0x0C, 0x0D, 0x0E, 0x0F, 0xA0, 0xA1, 0xA2, 0xA3, 0xA4]) :
    physical_memory_array.MemoryArrayLocation.ofU8 b
      = (named Codes.physical_memory_array.MemoryArrayLocation b.toNat).getD (.Undefined b) := by
  revert h; revert b; exact forall_u8 (by decide +kernel)

example : (3 : UInt8) ∉ [0x0B, 0x0C, 0x0D, 0x0E, 0x0F, 0xA0, 0xA1, 0xA2, 0xA3, 0xA4] ∧
    physical_memory_array.MemoryArrayLocation.ofU8 3 = .SystemBoardOrMotherboard := by
  decide +kernel

theorem C53_MemoryArrayLocation_full_false : ¬ C53_MemoryArrayLocation_full := fun h =>
  absurd (h 0xA0) (by decide +kernel)

/-- The locations are nevertheless decoded without loss. -/
theorem C53_MemoryArrayLocation_injective {a b : UInt8}
    (h : physical_memory_array.MemoryArrayLocation.ofU8 a
      = physical_memory_array.MemoryArrayLocation.ofU8 b) : a = b :=
  injective_of_table (P := fun _ => True) (fun h => UInt8.toNat_inj.1 h)
    (t := [(1, names Codes.physical_memory_array.MemoryArrayLocation)]) (other := .Undefined)
    (forall_u8 (by decide +kernel)) physical_memory_array.MemoryArrayLocation.ctorIdx
    (by decide +kernel) (by intro _ _ h; cases h; rfl)
    (by intro b x hx e; subst e; revert b; exact forall_u8 (by decide +kernel)) trivial trivial h

/-- C53 for memory types. -/
theorem C53_memory_device_MemoryType :
    Conforms memory_device.MemoryType.ofU8 Codes.memory_device.MemoryType .Undefined :=
  forall_u8 (by decide +kernel)

/-- Full injectivity for memory types. False: three reserved codes are not kept apart. -/
def C53_MemoryType_injective_full : Prop :=
  ∀ a b, memory_device.MemoryType.ofU8 a = memory_device.MemoryType.ofU8 b → a = b

theorem C53_MemoryType_injective_full_false : ¬ C53_MemoryType_injective_full := fun h =>
  absurd (h 0x15 0x16 (by decide +kernel)) (by decide)

/-- Memory types are injective except on the reserved codes 15h-17h. -/
theorem C53_MemoryType_injective_partial {a b : UInt8} (ha : a ∉ [0x15, 0x16, 0x17])
    (hb : b ∉ [0x15, 0x16, 0x17])
    (h : memory_device.MemoryType.ofU8 a = memory_device.MemoryType.ofU8 b) : a = b :=
  injective_of_table (P := fun b => b ∉ [0x15, 0x16, 0x17]) (fun h => UInt8.toNat_inj.1 h)
    (t := [(1, [.Other, .Unknown, .Dram, .Edram, .Vram, .Sram, .Ram, .Rom, .Flash, .Eeprom,
        .Feprom, .Eprom, .Cdram, .ThreeDram, .Sdram, .Sgram, .Rdram, .Ddr, .Ddr2, .Ddr2FbDimm]),
      (24, [.Ddr3, .Fbd2, .Ddr4, .LpDdr, .LpDdr2, .LpDdr3, .LpDdr4, .LogicalNonVolatileDevice,
        .Hbm, .Hbm2, .Ddr5, .LpDdr5])]) (other := .Undefined)
    (forall_u8 (by decide +kernel)) memory_device.MemoryType.ctorIdx (by decide +kernel)
    (by intro _ _ h; cases h; rfl)
    (by intro b x hx e; subst e; revert b; exact forall_u8 (by decide +kernel)) ha hb h

/-- C53 for contained element types: the byte can be recovered. -/
theorem C53_ContainedElementType_injective {a b : UInt8}
    (h : enclosure.ContainedElementType.ofU8 a = enclosure.ContainedElementType.ofU8 b) :
    a = b := by
  have split7 : ∀ b : UInt8,
      b = (if b &&& 0b1000_0000 = 0 then b &&& 0b0111_1111 else (b &&& 0b0111_1111) + 0x80) :=
    forall_u8 (by decide +kernel)
  unfold enclosure.ContainedElementType.ofU8 at h
  dsimp only at h
  rw [split7 a, split7 b]
  split at h <;> split at h <;> simp only [enclosure.ContainedElementType.BoardType.injEq,
    enclosure.ContainedElementType.InfoType.injEq, reduceCtorEq] at h
  · rename_i h1 h2; rw [if_pos h1, if_pos h2]; exact C53_baseboard_BoardType_injective h
  · rename_i h1 h2; rw [if_neg h1, if_neg h2, C23_injective h]

example : enclosure.ContainedElementType.ofU8 0x0A = .BoardType .MotherBoard ∧
    enclosure.ContainedElementType.ofU8 0x91 = .InfoType .MemoryDevice := by decide +kernel

end Dmi.Props
