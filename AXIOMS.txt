C01_accepted_is_genuine: Classical.choice, Quot.sound, propext
C02_search_no_fault: Classical.choice, Quot.sound, propext
C03_badChecksum_iff: Classical.choice, Quot.sound, propext
C03_badSize_iff: Classical.choice, Quot.sound, propext
C03_notFound_iff: Classical.choice, Quot.sound, propext
C03_tooOld_iff: Classical.choice, Quot.sound, propext
C04_valid_accepted_false: Classical.choice, Quot.sound, propext
C04_valid_accepted_partial: Classical.choice, Quot.sound, propext
C04_valid_accepted_short: Classical.choice, Quot.sound, propext
C05_relocation: Classical.choice, Quot.sound, propext
C06_corruption_detected: Classical.choice, Quot.sound, propext
C07_version_lex: Quot.sound, propext
C07_version_of_pair: Classical.choice, Quot.sound, propext
C07_version_total_order: Classical.choice, Quot.sound, propext
C08_items_bounded: Classical.choice, Quot.sound, propext
C08_progress: Classical.choice, Quot.sound, propext
C08_terminates: Classical.choice, Quot.sound, propext
C09_error_final: Classical.choice, Quot.sound, propext
C09_forever: Quot.sound, propext
C09_none_final: Classical.choice, Quot.sound, propext
C100_character: Classical.choice, Quot.sound, propext
C100_full_false: Quot.sound, propext
C100_length: Classical.choice, Quot.sound, propext
C100_partial: Classical.choice, Quot.sound, propext
C100_structure: Classical.choice, Quot.sound, propext
C101_exact: Classical.choice, Quot.sound, propext
C101_full_false: Classical.choice, Quot.sound, propext
C101_partial: Classical.choice, Quot.sound, propext
C102_decoy: Classical.choice, Quot.sound, propext
C102_full_false: Classical.choice, Quot.sound, propext
C102_hidden: Classical.choice, Quot.sound, propext
C102_iff: Classical.choice, Quot.sound, propext
C102_partial: Classical.choice, Quot.sound, propext
C103_count_not_obeyed: Classical.choice, Quot.sound, propext
C103_version_and_length: Quot.sound, propext
C104_buffer_only: Classical.choice, Quot.sound, propext
C104_full_false: Quot.sound, propext
C104_length_only: Classical.choice, Quot.sound, propext
C104_partial: Classical.choice, Quot.sound, propext
C104_unnoticed: Classical.choice, Quot.sound, propext
C105_items_hash: Classical.choice, Quot.sound, propext
C105_iter: Classical.choice, Quot.sound, propext
C105_iter_hash: Classical.choice, Quot.sound, propext
C105_reserved: Classical.choice, Quot.sound, propext
C105_reserved_hash: Classical.choice, Quot.sound, propext
C105_significants: Classical.choice, Quot.sound, propext
C105_width: propext
C106_checked_partial: Classical.choice, Quot.sound, propext
C106_cut_off: Classical.choice, Quot.sound, propext
C106_endless: Classical.choice, Quot.sound, propext
C106_full_false: Classical.choice, Quot.sound, propext
C106_progress: Quot.sound, propext
C106_structure: Classical.choice, Quot.sound, propext
C107_accepts: Classical.choice, Quot.sound, propext
C107_items: Classical.choice, Quot.sound, propext
C107_next: Classical.choice, Quot.sound, propext
C107_rejects: Classical.choice, Quot.sound, propext
C107_verdict: Classical.choice, Quot.sound, propext
C108_conforming_partial: Classical.choice, Quot.sound, propext
C108_exceptions: Classical.choice, Quot.sound, propext
C108_exceptions_occur: Quot.sound, propext
C108_full_false: Classical.choice, Quot.sound, propext
C108_table_partial: Classical.choice, Quot.sound, propext
C109_ended: Classical.choice, Quot.sound, propext
C109_one_reading: Classical.choice, Quot.sound, propext
C109_overread: Classical.choice, Quot.sound, propext
C109_panicked: Classical.choice, Quot.sound, propext
C10_end_is_last: Classical.choice, Quot.sound, propext
C10_end_stops: Classical.choice, Quot.sound, propext
C10_v2_continues: Classical.choice, Quot.sound, propext
C110_each_step: Quot.sound, propext
C110_future: Classical.choice, Quot.sound, propext
C110_next: Classical.choice, Quot.sound, propext
C110_same: Classical.choice, Quot.sound, propext
C110_table: Classical.choice, Quot.sound, propext
C111_entry32: Classical.choice, Quot.sound, propext
C111_entry64: Classical.choice, Quot.sound, propext
C111_errors: Classical.choice, Quot.sound, propext
C111_stored32: Classical.choice, Quot.sound, propext
C111_stored64: Classical.choice, Quot.sound, propext
C112_errors: Classical.choice, Quot.sound, propext
C113_flawless: Classical.choice, Quot.sound, propext
C113_values: Classical.choice, Quot.sound, propext
C114_full_false: propext
C114_misnamed: propext
C114_partial: Classical.choice, Quot.sound, propext
C114_status: Classical.choice, Quot.sound, propext
C11_prefix: Classical.choice, Quot.sound, propext
C11_tiling: Classical.choice, Quot.sound, propext
C12_round_trip: Classical.choice, Quot.sound, propext
C12_round_trip_end: Classical.choice, Quot.sound, propext
C13_strings_end: Classical.choice, Quot.sound, propext
C14_bad_size: Classical.choice, Quot.sound, propext
C14_unterminated: Classical.choice, Quot.sound, propext
C15_full_false: propext
C15_no_fault_iff_partial: Classical.choice, Quot.sound, propext
C15_no_fault_partial: Classical.choice, Quot.sound, propext
C15_out_of_bounds: propext
C16_formatted_inside_partial: Classical.choice, Quot.sound, propext
C16_full_false: propext
C16_inside_iff: Classical.choice, Quot.sound, propext
C16_outside_is_last: Classical.choice, Quot.sound, propext
C17_bad_structure_isolated: Classical.choice, Quot.sound, propext
C18_dispatch: Quot.sound, propext
C18_unsupported_verbatim: Classical.choice, Quot.sound, propext
C19_find_string: Classical.choice, Quot.sound, propext
C19_find_string_any: Classical.choice, Quot.sound, propext
C20_not_fused: propext
C20_strings: Classical.choice, Quot.sound, propext
C20_strings_contiguous: Classical.choice, Quot.sound, propext
C20_strings_total: Classical.choice, Quot.sound, propext
C21_get: Classical.choice, Quot.sound, propext
C21_get_below: Quot.sound, propext
C21_get_overflow: Quot.sound, propext
C22_get_slice: Classical.choice, Quot.sound, propext
C22_get_string: Classical.choice, Quot.sound, propext
C23_info_type: propext
C23_injective: Quot.sound, propext
C24_debug: Classical.choice, Quot.sound, propext
C24_iter: Classical.choice, Quot.sound, propext
C24_short_layout_panics: Quot.sound, propext
C24_then_none: Classical.choice, Quot.sound, propext
C25_crate: Classical.choice, Quot.sound, propext
C25_significants: Classical.choice, Quot.sound, propext
C26_collect: Quot.sound, propext
C26_round_trip: Classical.choice, Quot.sound, propext
C26_too_large: Quot.sound, propext
C26_wraps: Quot.sound, propext
C27_crate: Classical.choice, Quot.sound, propext
C27_crate_layouts: Quot.sound, propext
C27_full_false: Classical.choice, Quot.sound, propext
C27_reserved_exact: Classical.choice, Quot.sound, propext
C27_reserved_partial: Classical.choice, Quot.sound, propext
C28_layouts_complete: Quot.sound, propext
C28_no_unknown: Classical.choice, Quot.sound, propext
C29_decodes: Classical.choice, Quot.sound, propext
C29_rejects: Classical.choice, Quot.sound, propext
C29_short: Classical.choice, Quot.sound, propext
C30_full_false: Classical.choice, Quot.sound, propext
C30_rom_size_partial: Classical.choice, Quot.sound, propext
C31_decodes: Classical.choice, Quot.sound, propext
C31_rejects: Classical.choice, Quot.sound, propext
C31_short: Classical.choice, Quot.sound, propext
C31_uuid_recoverable: Quot.sound, propext
C32_decodes_partial: Classical.choice, Quot.sound, propext
C32_full_false: Classical.choice, Quot.sound, propext
C32_rejects: Classical.choice, Quot.sound, propext
C32_short: Classical.choice, Quot.sound, propext
C33_decodes: Classical.choice, Quot.sound, propext
C33_rejects: Classical.choice, Quot.sound, propext
C33_short: Quot.sound, propext
C33_type_lossless: Classical.choice, Quot.sound, propext
C34_elements_partial: Classical.choice, Quot.sound, propext
C34_full_false: Quot.sound, propext
C34_listed: Classical.choice, Quot.sound, propext
C34_overflow_panics: Classical.choice, Quot.sound, propext
C34_overflow_wraps: Classical.choice, Quot.sound, propext
C34_overreads: Classical.choice, Quot.sound, propext
C34_short_records: Classical.choice, Quot.sound, propext
C35_decodes: Classical.choice, Quot.sound, propext
C35_decodes_partial: Classical.choice, Quot.sound, propext
C35_full_false: Classical.choice, Quot.sound, propext
C35_rejects: Classical.choice, Quot.sound, propext
C35_short: Classical.choice, Quot.sound, propext
C36_family: Quot.sound, propext
C36_family8_injective: Quot.sound, propext
C36_family_injective: Quot.sound, propext
C36_voltage: Quot.sound, propext
C36_voltage_injective: Quot.sound, propext
C37_decodes: Classical.choice, Quot.sound, propext
C37_decodes_partial: Classical.choice, Quot.sound, propext
C37_faults: Classical.choice, Quot.sound, propext
C37_full_false: Classical.choice, Quot.sound, propext
C37_rejects: Classical.choice, Quot.sound, propext
C38_bytes: Quot.sound, propext
C38_configuration: Classical.choice, Quot.sound, propext
C38_configuration_unique: propext
C38_size: Classical.choice, Quot.sound, propext
C38_size2: Classical.choice, Quot.sound, propext
C38_size_injective: Classical.choice, Quot.sound, propext
C39_decodes: Classical.choice, Quot.sound, propext
C39_rejects: Classical.choice, Quot.sound, propext
C39_short: Classical.choice, Quot.sound, propext
C40_decodes: Classical.choice, Quot.sound, propext
C40_rejects: Classical.choice, Quot.sound, propext
C41_device: Quot.sound, propext
C41_peers: Classical.choice, Quot.sound, propext
C41_split: Quot.sound, propext
C42_oem: Classical.choice, Quot.sound, propext
C42_options: Classical.choice, Quot.sound, propext
C42_options_short: Classical.choice, Quot.sound, propext
C43_decodes: Classical.choice, Quot.sound, propext
C43_endless: Classical.choice, Quot.sound, propext
C43_full_false: Classical.choice, Quot.sound, propext
C43_languages_partial: Classical.choice, Quot.sound, propext
C43_panics: Classical.choice, Quot.sound, propext
C43_short: Classical.choice, Quot.sound, propext
C44_decodes: Classical.choice, Quot.sound, propext
C44_short: Classical.choice, Quot.sound, propext
C45_accepts: Classical.choice, Quot.sound, propext
C45_decodes: Classical.choice, Quot.sound, propext
C45_descriptors_partial: Classical.choice, Quot.sound, propext
C45_full_false: Classical.choice, Quot.sound, propext
C45_other_lengths: Classical.choice, Quot.sound, propext
C45_panics: Classical.choice, Quot.sound, propext
C45_rejects: Classical.choice, Quot.sound, propext
C46_access_address_full_false: propext
C46_access_address_partial: Quot.sound, propext
C46_access_method: propext
C46_access_vendor: propext
C46_descriptor_inverse: Quot.sound, propext
C46_event_log_type: propext
C46_event_log_type_inverse: propext
C46_event_log_type_inverse': propext
C46_system_management: Classical.choice, Quot.sound, propext
C46_system_management_injective: Classical.choice, Quot.sound, propext
C46_variable_data_format: Quot.sound, propext
C46_variable_data_format_inverse: Quot.sound, propext
C47_2_7_false: propext
C47_decodes: Classical.choice, Quot.sound, propext
C47_decodes_partial: Classical.choice, Quot.sound, propext
C47_full_false: Classical.choice, Quot.sound, propext
C47_old: Classical.choice, Quot.sound, propext
C47_short: Classical.choice, Quot.sound, propext
C48_decodes: Classical.choice, Quot.sound, propext
C48_full_false: Classical.choice, Quot.sound, propext
C48_rejects: Classical.choice, Quot.sound, propext
C48_short: Classical.choice, Quot.sound, propext
C49_decodes: Classical.choice, Quot.sound, propext
C49_rejects: Classical.choice, Quot.sound, propext
C50_array_decodes: Classical.choice, Quot.sound, propext
C50_array_extended: Classical.choice, Quot.sound, propext
C50_array_rejects: Classical.choice, Quot.sound, propext
C50_device_decodes: Classical.choice, Quot.sound, propext
C50_device_extended: Classical.choice, Quot.sound, propext
C50_device_rejects: Classical.choice, Quot.sound, propext
C51_decodes: Classical.choice, Quot.sound, propext
C51_rejects: Classical.choice, Quot.sound, propext
C52_capacity_full_false: Quot.sound, propext
C52_capacity_overflow: Quot.sound, propext
C52_capacity_partial: Quot.sound, propext
C52_decodes: Classical.choice, Quot.sound, propext
C52_rejects: Classical.choice, Quot.sound, propext
C53_ContainedElementType_injective: Quot.sound, propext
C53_FormFactor_collision:
C53_FormFactor_full_false: propext
C53_FormFactor_injective_partial: Quot.sound, propext
C53_FormFactor_partial: propext
C53_FormFactor_shifted: propext
C53_MemoryArrayLocation_full_false: propext
C53_MemoryArrayLocation_injective: Quot.sound, propext
C53_MemoryArrayLocation_partial: propext
C53_MemoryType_injective_full_false:
C53_MemoryType_injective_partial: Quot.sound, propext
C53_SlotType_collisions:
C53_SlotType_full_false: propext
C53_SlotType_injective_partial: Quot.sound, propext
C53_SlotType_never_u2: propext
C53_SlotType_partial: propext
C53_baseboard_BoardType: propext
C53_baseboard_BoardType_injective: Quot.sound, propext
C53_built_in_pointing_device_DeviceType: propext
C53_built_in_pointing_device_DeviceType_injective: Quot.sound, propext
C53_built_in_pointing_device_Interface: propext
C53_built_in_pointing_device_Interface_injective: Quot.sound, propext
C53_cache_CacheAssociativity: propext
C53_cache_CacheAssociativity_injective: Quot.sound, propext
C53_cache_CacheErrorCorrectionType: propext
C53_cache_CacheErrorCorrectionType_injective: Quot.sound, propext
C53_cache_SystemCacheType: propext
C53_cache_SystemCacheType_injective: Quot.sound, propext
C53_enclosure_EnclosureType: propext
C53_enclosure_EnclosureType_injective: Quot.sound, propext
C53_enclosure_SecurityStatus: propext
C53_enclosure_SecurityStatus_injective: Quot.sound, propext
C53_enclosure_State: propext
C53_enclosure_State_injective: Quot.sound, propext
C53_memory_device_ErrorGranularity: propext
C53_memory_device_ErrorGranularity_injective: Quot.sound, propext
C53_memory_device_ErrorOperation: propext
C53_memory_device_ErrorOperation_injective: Quot.sound, propext
C53_memory_device_ErrorType: propext
C53_memory_device_ErrorType_injective: Quot.sound, propext
C53_memory_device_MemoryTechnology: propext
C53_memory_device_MemoryTechnology_injective: Quot.sound, propext
C53_memory_device_MemoryType: propext
C53_memory_error_32_ErrorGranularity: propext
C53_memory_error_32_ErrorGranularity_injective: Quot.sound, propext
C53_memory_error_32_ErrorOperation: propext
C53_memory_error_32_ErrorOperation_injective: Quot.sound, propext
C53_memory_error_32_ErrorType: propext
C53_memory_error_32_ErrorType_injective: Quot.sound, propext
C53_physical_memory_array_MemoryArrayErrorCorrectionTypes: propext
C53_physical_memory_array_MemoryArrayErrorCorrectionTypes_injective: Quot.sound, propext
C53_physical_memory_array_MemoryArrayUse: propext
C53_physical_memory_array_MemoryArrayUse_injective: Quot.sound, propext
C53_port_connector_ConnectorType: propext
C53_port_connector_ConnectorType_injective: Quot.sound, propext
C53_port_connector_PortType: propext
C53_port_connector_PortType_injective: Quot.sound, propext
C53_processor_ProcessorType: propext
C53_processor_ProcessorType_injective: Quot.sound, propext
C53_processor_ProcessorUpgrade: propext
C53_processor_ProcessorUpgrade_injective: Quot.sound, propext
C53_system_WakeupType: propext
C53_system_WakeupType_injective: Quot.sound, propext
C53_system_event_log_LogHeaderFormat: propext
C53_system_event_log_LogHeaderFormat_injective: Quot.sound, propext
C53_system_slots_CurrentUsage: propext
C53_system_slots_CurrentUsage_injective: Quot.sound, propext
C53_system_slots_SlotLength: propext
C53_system_slots_SlotLength_injective: Quot.sound, propext
C53_system_slots_SlotWidth: propext
C53_system_slots_SlotWidth_injective: Quot.sound, propext
C54_decoders: Classical.choice, Quot.sound, propext
C54_no_fault: Classical.choice, Quot.sound, propext
C54_no_fault_end: Classical.choice, Quot.sound, propext
C55_memory_safe: Classical.choice, Quot.sound, propext
C56_local: Classical.choice, Quot.sound, propext
C57_full_false: Classical.choice, Quot.sound, propext
C57_handle_partial: Classical.choice, Quot.sound, propext
C57_old_array: Classical.choice, Quot.sound, propext
C59_InfoType: Quot.sound, propext
C59_baseboard_BoardType: Quot.sound, propext
C59_built_in_pointing_device_DeviceType: Quot.sound, propext
C59_built_in_pointing_device_Interface: Quot.sound, propext
C59_cache_CacheAssociativity: Quot.sound, propext
C59_cache_CacheErrorCorrectionType: Quot.sound, propext
C59_cache_CacheLevel: Quot.sound, propext
C59_cache_CacheLocation: Quot.sound, propext
C59_cache_CacheOperationalMode: Quot.sound, propext
C59_cache_SystemCacheType: Quot.sound, propext
C59_enclosure_EnclosureType: Quot.sound, propext
C59_enclosure_SecurityStatus: Quot.sound, propext
C59_enclosure_State: Quot.sound, propext
C59_memory_error_32_ErrorGranularity: Quot.sound, propext
C59_memory_error_32_ErrorOperation: Quot.sound, propext
C59_memory_error_32_ErrorType: Quot.sound, propext
C59_physical_memory_array_MemoryArrayErrorCorrectionTypes: Quot.sound, propext
C59_physical_memory_array_MemoryArrayLocation: Quot.sound, propext
C59_physical_memory_array_MemoryArrayUse: Quot.sound, propext
C59_port_connector_ConnectorType: Quot.sound, propext
C59_port_connector_PortType: Quot.sound, propext
C59_portable_battery_DeviceChemistry_full_false:
C59_portable_battery_DeviceChemistry_partial: Quot.sound, propext
C59_processor_ProcessorFamily: Classical.choice, Quot.sound, propext
C59_processor_ProcessorUpgrade: Quot.sound, propext
C59_system_event_log_EventLogType_alternate: Quot.sound, propext
C59_system_event_log_EventLogType_full_false:
C59_system_event_log_EventLogType_partial: Quot.sound, propext
C59_system_event_log_LogHeaderFormat_alternate: Quot.sound, propext
C59_system_event_log_LogHeaderFormat_full_false:
C59_system_event_log_LogHeaderFormat_partial: Quot.sound, propext
C59_system_event_log_SystemManagementType: Classical.choice, Quot.sound, propext
C59_system_slots_CurrentUsage: Quot.sound, propext
C59_system_slots_SlotLength: Quot.sound, propext
C59_system_slots_SlotType: Quot.sound, propext
C59_system_slots_SlotWidth: Quot.sound, propext
C60_InfoType: Quot.sound, propext
C60_InfoType_code: Quot.sound, propext
C60_baseboard_BoardType: Quot.sound, propext
C60_baseboard_BoardType_code: Quot.sound, propext
C60_built_in_pointing_device_DeviceType: propext
C60_built_in_pointing_device_DeviceType_code: Quot.sound, propext
C60_built_in_pointing_device_Interface: Quot.sound, propext
C60_built_in_pointing_device_Interface_code: Quot.sound, propext
C60_cache_CacheAssociativity: Quot.sound, propext
C60_cache_CacheAssociativity_code: Quot.sound, propext
C60_cache_CacheErrorCorrectionType: propext
C60_cache_CacheErrorCorrectionType_code: Quot.sound, propext
C60_cache_CacheLevel: propext
C60_cache_CacheLocation: propext
C60_cache_CacheOperationalMode: propext
C60_cache_SystemCacheType: propext
C60_cache_SystemCacheType_code: Quot.sound, propext
C60_enclosure_EnclosureType: propext
C60_enclosure_EnclosureType_code: Quot.sound, propext
C60_enclosure_SecurityStatus: propext
C60_enclosure_SecurityStatus_code: Quot.sound, propext
C60_enclosure_State: propext
C60_enclosure_State_code: Quot.sound, propext
C60_memory_error_32_ErrorGranularity: propext
C60_memory_error_32_ErrorGranularity_code: Quot.sound, propext
C60_memory_error_32_ErrorOperation: propext
C60_memory_error_32_ErrorOperation_code: Quot.sound, propext
C60_memory_error_32_ErrorType: propext
C60_memory_error_32_ErrorType_code: Quot.sound, propext
C60_physical_memory_array_MemoryArrayErrorCorrectionTypes: propext
C60_physical_memory_array_MemoryArrayErrorCorrectionTypes_code: Quot.sound, propext
C60_physical_memory_array_MemoryArrayLocation: propext
C60_physical_memory_array_MemoryArrayLocation_code: Quot.sound, propext
C60_physical_memory_array_MemoryArrayUse: propext
C60_physical_memory_array_MemoryArrayUse_code: Quot.sound, propext
C60_port_connector_ConnectorType: Quot.sound, propext
C60_port_connector_ConnectorType_code: Quot.sound, propext
C60_port_connector_PortType: Quot.sound, propext
C60_port_connector_PortType_code: Quot.sound, propext
C60_portable_battery_DeviceChemistry: propext
C60_portable_battery_DeviceChemistry_code: Quot.sound, propext
C60_portable_battery_DeviceChemistry_sbds:
C60_processor_ProcessorFamily: Quot.sound, propext
C60_processor_ProcessorFamily_available: Quot.sound, propext
C60_processor_ProcessorFamily_not_used: Quot.sound, propext
C60_processor_ProcessorUpgrade: Quot.sound, propext
C60_processor_ProcessorUpgrade_code: Quot.sound, propext
C60_system_event_log_EventLogType: Quot.sound, propext
C60_system_event_log_EventLogType_alternate: Quot.sound, propext
C60_system_event_log_EventLogType_code: Quot.sound, propext
C60_system_event_log_LogHeaderFormat: Quot.sound, propext
C60_system_event_log_LogHeaderFormat_alternate: Quot.sound, propext
C60_system_event_log_LogHeaderFormat_code: Quot.sound, propext
C60_system_event_log_SystemManagementType: Quot.sound, propext
C60_system_event_log_SystemManagementType_code: Quot.sound, propext
C60_system_slots_CurrentUsage: propext
C60_system_slots_CurrentUsage_alternate: Quot.sound, propext
C60_system_slots_CurrentUsage_code: Quot.sound, propext
C60_system_slots_SlotLength: Quot.sound, propext
C60_system_slots_SlotLength_code: Quot.sound, propext
C60_system_slots_SlotType: Quot.sound, propext
C60_system_slots_SlotType_alternate: Quot.sound, propext
C60_system_slots_SlotType_code: Quot.sound, propext
C60_system_slots_SlotWidth: Quot.sound, propext
C60_system_slots_SlotWidth_code: Quot.sound, propext
C61_AccessMethod: Quot.sound, propext
C61_AccessMethod_alternate: Classical.choice, Quot.sound, propext
C61_AccessMethod_numbers: Quot.sound, propext
C61_BiosRevision: Classical.choice, Quot.sound, propext
C61_ContainedElement: Quot.sound, propext
C61_ContainedElementType_inj: Quot.sound, propext
C61_ContainedElement_inj: Classical.choice, Quot.sound, propext
C61_Device: Quot.sound, propext
C61_Device_inj: Classical.choice, Quot.sound, propext
C61_FirmwareRevision: Classical.choice, Quot.sound, propext
C61_ManufactureDate: Classical.choice, Quot.sound, propext
C61_ManufactureDate_none: Quot.sound, propext
C61_ManufactureDate_string: Quot.sound, propext
C61_SerialNumber: Quot.sound, propext
C61_SerialNumber_none:
C61_SerialNumber_string:
C61_VariableDataFormatType: Quot.sound, propext
C61_VariableDataFormatType_alternate: Classical.choice, Quot.sound, propext
C61_VariableDataFormatType_numbers: Quot.sound, propext
C62_SlotPitch_full_false: Classical.choice, Quot.sound, propext
C62_SlotPitch_partial: Classical.choice, Quot.sound, propext
C62_Voltage_current: Classical.choice, Quot.sound, propext
C62_Voltage_legacy_full_false: Quot.sound, propext
C62_Voltage_legacy_partial: Quot.sound, propext
C62_Voltage_undefined: Quot.sound, propext
C63_InfoType_debug: Quot.sound, propext
C63_decoders: Classical.choice, Quot.sound, propext
C63_entry_point: Quot.sound, propext
C63_entry_point_numbers: Quot.sound, propext
C63_malformed_full_false: propext
C63_malformed_numbers: Quot.sound, propext
C63_malformed_partial: Classical.choice, Quot.sound, propext
C63_source: Quot.sound, propext
C64_exact: Classical.choice, Quot.sound, propext
C64_exempt: Classical.choice, Quot.sound, propext
C64_full_false: Classical.choice, Quot.sound, propext
C64_iterator: Classical.choice, Quot.sound, propext
C64_names: Classical.choice, Quot.sound, propext
C64_truthful_partial: Classical.choice, Quot.sound, propext
C65_ContainedElements: Classical.choice, Quot.sound, propext
C65_Descriptors: Classical.choice, Quot.sound, propext
C65_PeerDevices: Classical.choice, Quot.sound, propext
C65_hash_faithful: Classical.choice, Quot.sound, propext
C65_sizes: Quot.sound, propext
C66_bios_partial: Classical.choice, Quot.sound, propext
C66_distinct: Classical.choice, Quot.sound, propext
C66_event_log: Classical.choice, Quot.sound, propext
C66_full_false: Classical.choice, Quot.sound, propext
C66_language: Classical.choice, Quot.sound, propext
C66_post_results: Classical.choice, Quot.sound, propext
C66_slots: Classical.choice, Quot.sound, propext
C67_all_declared:
C67_baseboard: Classical.choice, Quot.sound, propext
C67_cache: Classical.choice, Quot.sound, propext
C67_memory_device: Classical.choice, Quot.sound, propext
C67_processor: Classical.choice, Quot.sound, propext
C67_reserved_full_false: Classical.choice, Quot.sound, propext
C67_reserved_partial: Classical.choice, Quot.sound, propext
C67_status_full_false: Quot.sound, propext
C67_status_partial: Classical.choice, Quot.sound, propext
C67_voltage: Quot.sound, propext
C68_agrees: Quot.sound, propext
C68_baseboard_partial: Classical.choice, Quot.sound, propext
C68_baseboard_torn: Quot.sound, propext
C68_defined: Classical.choice, Quot.sound, propext
C68_full_false: Classical.choice, Quot.sound, propext
C68_next: Quot.sound, propext
C68_processor_partial: Classical.choice, Quot.sound, propext
C68_table: Quot.sound, propext
C69_panics: Classical.choice, Quot.sound, propext
C69_reads_out: Classical.choice, Quot.sound, propext
C69_returns: Classical.choice, Quot.sound, propext
C69_table: Classical.choice, Quot.sound, propext
C70_decodable_iff: Classical.choice, Quot.sound, propext
C70_full_false: Classical.choice, Quot.sound, propext
C70_group: Classical.choice, Quot.sound, propext
C70_ignored_partial: Classical.choice, Quot.sound, propext
C70_language: Classical.choice, Quot.sound, propext
C70_rejected: Classical.choice, Quot.sound, propext
C71_count_constant: Quot.sound, propext
C71_count_iff: Classical.choice, Quot.sound, propext
C71_count_partial: Classical.choice, Quot.sound, propext
C71_empty_records: Classical.choice, Quot.sound, propext
C71_full_false: Classical.choice, Quot.sound, propext
C72_array_false: Quot.sound, propext
C72_array_iff: Classical.choice, Quot.sound, propext
C72_extends_partial: Classical.choice, Quot.sound, propext
C72_full_false: Quot.sound, propext
C72_language_iff: Classical.choice, Quot.sound, propext
C73_full_false: Classical.choice, Quot.sound, propext
C73_hidden: Classical.choice, Quot.sound, propext
C73_iff: Classical.choice, Quot.sound, propext
C73_iff64: Classical.choice, Quot.sound, propext
C73_round_trip64_partial: Classical.choice, Quot.sound, propext
C73_round_trip_partial: Classical.choice, Quot.sound, propext
C74_table: Classical.choice, Quot.sound, propext
C74_texts: Classical.choice, Quot.sound, propext
C74_valid: Classical.choice, Quot.sound, propext
C75_conversions: propext
C75_decode: Quot.sound, propext
C75_differs: Classical.choice, Quot.sound, propext
C75_flat_next: Quot.sound, propext
C75_get: propext
C75_iterators: propext
C75_next: Quot.sound, propext
C75_runs: Quot.sound, propext
C76_any_types: Classical.choice, Quot.sound, propext
C76_content: Classical.choice, Quot.sound, propext
C76_old_arrays: Classical.choice, Quot.sound, propext
C76_tables: Classical.choice, Quot.sound, propext
C76_uuid: Quot.sound, propext
C77_accepted: Classical.choice, Quot.sound, propext
C77_full_false: Classical.choice, Quot.sound, propext
C77_handle_partial: Classical.choice, Quot.sound, propext
C77_old_array: Classical.choice, Quot.sound, propext
C78_device: Quot.sound, propext
C78_full_false: Quot.sound, propext
C78_handle: Quot.sound, propext
C78_iteration: Classical.choice, Quot.sound, propext
C78_next: Classical.choice, Quot.sound, propext
C78_old_arrays: Classical.choice, Quot.sound, propext
C78_outcome: Classical.choice, Quot.sound, propext
C78_search_partial: Quot.sound, propext
C78_value: Classical.choice, Quot.sound, propext
C78_words: Quot.sound, propext
C79_bitfield: Quot.sound, propext
C79_decode: Quot.sound, propext
C79_enclosure: Quot.sound, propext
C79_get: Quot.sound, propext
C79_narrow_next: Classical.choice, Quot.sound, propext
C79_narrow_raw: Quot.sound, propext
C79_narrow_stream: Classical.choice, Quot.sound, propext
C79_next: Classical.choice, Quot.sound, propext
C79_other_hosts: Classical.choice, Quot.sound, propext
C79_shown: Classical.choice, Quot.sound, propext
C79_stream: Classical.choice, Quot.sound, propext
C80_full_false: Classical.choice, Quot.sound, propext
C80_partial: Classical.choice, Quot.sound, propext
C80_table: Classical.choice, Quot.sound, propext
C81_full_false: Classical.choice, Quot.sound, propext
C81_partial: Classical.choice, Quot.sound, propext
C82_InfoType: Quot.sound, propext
C82_array_address: Classical.choice, Quot.sound, propext
C82_baseboard: Classical.choice, Quot.sound, propext
C82_baseboard_BoardType: Quot.sound, propext
C82_battery: Classical.choice, Quot.sound, propext
C82_bios: Classical.choice, Quot.sound, propext
C82_built_in_pointing_device_DeviceType: Quot.sound, propext
C82_built_in_pointing_device_Interface: Quot.sound, propext
C82_cache: Classical.choice, Quot.sound, propext
C82_cache_CacheAssociativity: Quot.sound, propext
C82_cache_CacheErrorCorrectionType: Quot.sound, propext
C82_cache_CacheSize: Classical.choice, Quot.sound, propext
C82_cache_CacheSize2: Classical.choice, Quot.sound, propext
C82_cache_SystemCacheType: Quot.sound, propext
C82_device_address: Classical.choice, Quot.sound, propext
C82_enclosure: Classical.choice, Quot.sound, propext
C82_enclosure_EnclosureType: Quot.sound, propext
C82_enclosure_SecurityStatus: Quot.sound, propext
C82_enclosure_State: Quot.sound, propext
C82_event_log: Classical.choice, Quot.sound, propext
C82_group: Classical.choice, Quot.sound, propext
C82_iteration: Classical.choice, Quot.sound, propext
C82_language: Classical.choice, Quot.sound, propext
C82_memory_array: Classical.choice, Quot.sound, propext
C82_memory_device: Classical.choice, Quot.sound, propext
C82_memory_device_ErrorGranularity: Quot.sound, propext
C82_memory_device_ErrorOperation: Quot.sound, propext
C82_memory_device_ErrorType: Quot.sound, propext
C82_memory_device_FormFactor: Quot.sound, propext
C82_memory_device_MemoryTechnology: Quot.sound, propext
C82_memory_device_MemoryType: Quot.sound, propext
C82_memory_error: Classical.choice, Quot.sound, propext
C82_memory_error_32_ErrorGranularity: Quot.sound, propext
C82_memory_error_32_ErrorOperation: Quot.sound, propext
C82_memory_error_32_ErrorType: Quot.sound, propext
C82_oem_strings: Quot.sound, propext
C82_options: Classical.choice, Quot.sound, propext
C82_other: Quot.sound, propext
C82_physical_memory_array_MemoryArrayErrorCorrectionTypes: Quot.sound, propext
C82_physical_memory_array_MemoryArrayLocation: Quot.sound, propext
C82_physical_memory_array_MemoryArrayUse: Quot.sound, propext
C82_pointing_device: Classical.choice, Quot.sound, propext
C82_port_connector: Classical.choice, Quot.sound, propext
C82_port_connector_ConnectorType: Quot.sound, propext
C82_port_connector_PortType: Quot.sound, propext
C82_processor: Classical.choice, Quot.sound, propext
C82_processor_ProcessorFamily: Quot.sound, propext
C82_processor_ProcessorType: Quot.sound, propext
C82_processor_ProcessorUpgrade: Quot.sound, propext
C82_processor_Voltage: Quot.sound, propext
C82_slots: Classical.choice, Quot.sound, propext
C82_system: Classical.choice, Quot.sound, propext
C82_system_WakeupType: Quot.sound, propext
C82_system_event_log_EventLogType: Quot.sound, propext
C82_system_event_log_LogHeaderFormat: Quot.sound, propext
C82_system_slots_CurrentUsage: Quot.sound, propext
C82_system_slots_SlotLength: Quot.sound, propext
C82_system_slots_SlotType: Quot.sound, propext
C82_system_slots_SlotWidth: Quot.sound, propext
C82_table: Classical.choice, Quot.sound, propext
C83_same: Classical.choice, Quot.sound, propext
C83_texts: Classical.choice, Quot.sound, propext
C84_bytes: Classical.choice, Quot.sound, propext
C84_equality: Classical.choice, Quot.sound, propext
C84_laws: Classical.choice, Quot.sound, propext
C85_behind: Quot.sound, propext
C85_cut: Classical.choice, Quot.sound, propext
C85_runs: Classical.choice, Quot.sound, propext
C86_bios: Classical.choice, Quot.sound, propext
C86_codes: propext
C86_detail: Quot.sound, propext
C86_flag_type:
C86_flags: Classical.choice, Quot.sound, propext
C86_full_false: Quot.sound, propext
C86_iterators_partial: Quot.sound, propext
C86_memory_array: Classical.choice, Quot.sound, propext
C86_memory_device: Classical.choice, Quot.sound, propext
C86_memory_device_set: Classical.choice, Quot.sound, propext
C86_rom_size: Quot.sound, propext
C86_says_nothing: Classical.choice, Quot.sound, propext
C86_says_nothing_later: Classical.choice, Quot.sound, propext
C87_device_partial: Quot.sound, propext
C87_element_partial: Quot.sound, propext
C87_full_false: Quot.sound, propext
C87_peers_partial: Quot.sound, propext
C87_round_trip: Quot.sound, propext
C87_version: Classical.choice, Quot.sound, propext
C88_area_partial: Classical.choice, Quot.sound, propext
C88_errors: Classical.choice, Quot.sound, propext
C88_full_false: Classical.choice, Quot.sound, propext
C88_longer_partial: Classical.choice, Quot.sound, propext
C88_not_found: Classical.choice, Quot.sound, propext
C88_same: Classical.choice, Quot.sound, propext
C89_complete: Classical.choice, Quot.sound, propext
C89_edit: Classical.choice, Quot.sound, propext
C89_front: Classical.choice, Quot.sound, propext
C89_next: Classical.choice, Quot.sound, propext
C89_order: Classical.choice, Quot.sound, propext
C89_runs: Classical.choice, Quot.sound, propext
C90_each: Classical.choice, Quot.sound, propext
C90_exact: Classical.choice, Quot.sound, propext
C90_linear: Quot.sound, propext
C90_same: Quot.sound, propext
C90_search: Quot.sound, propext
C90_search_exact: Quot.sound, propext
C90_string: Quot.sound, propext
C90_table: Quot.sound, propext
C91_bitfield: Classical.choice, Quot.sound, propext
C91_entry_error: Classical.choice, Quot.sound, propext
C91_entry_point: Classical.choice, Quot.sound, propext
C91_error_integers: Quot.sound, propext
C91_error_texts: propext
C91_flag: Classical.choice, Quot.sound, propext
C91_info: Classical.choice, Quot.sound, propext
C91_info_text: propext
C91_integers: Quot.sound, propext
C91_iterator: Classical.choice, Quot.sound, propext
C91_malformed: Classical.choice, Quot.sound, propext
C91_parts: Classical.choice, Quot.sound, propext
C91_range: Quot.sound, propext
C91_raw: Classical.choice, Quot.sound, propext
C91_results: Classical.choice, Quot.sound, propext
C91_structure: Classical.choice, Quot.sound, propext
C92_line: Classical.choice, Quot.sound, propext
C92_lines: Classical.choice, Quot.sound, propext
C92_string: Classical.choice, Quot.sound, propext
C93_accepted: Classical.choice, Quot.sound, propext
C93_entry: Classical.choice, Quot.sound, propext
C93_field_types: Classical.choice, Quot.sound, propext
C93_items: Classical.choice, Quot.sound, propext
C93_structure: Classical.choice, Quot.sound, propext
C94_full_false: Classical.choice, Quot.sound, propext
C94_last_partial: Classical.choice, Quot.sound, propext
C94_prefix_partial: Classical.choice, Quot.sound, propext
C94_sequence_partial: Classical.choice, Quot.sound, propext
C95_fields: Classical.choice, Quot.sound, propext
C95_same_bytes: Classical.choice, Quot.sound, propext
C95_signature: Classical.choice, Quot.sound, propext
C96_full_false: Classical.choice, Quot.sound, propext
C96_intermediate_partial: Classical.choice, Quot.sound, propext
C96_sum_false: Classical.choice, Quot.sound, propext
C97_decode: Quot.sound, propext
C97_exact: Classical.choice, Quot.sound, propext
C97_linear: Classical.choice, Quot.sound, propext
C97_lookup: Classical.choice, Quot.sound, propext
C97_options: Classical.choice, Quot.sound, propext
C97_reached: Classical.choice, Quot.sound, propext
C97_same: Classical.choice, Quot.sound, propext
C97_strings: Quot.sound, propext
C97_strings_exact: Classical.choice, Quot.sound, propext
C97_table: Classical.choice, Quot.sound, propext
C97_whole: Classical.choice, Quot.sound, propext
C98_bound: Quot.sound, propext
C98_quadratic: Classical.choice, Quot.sound, propext
C98_same: Quot.sound, propext
C99_battery: Classical.choice, Quot.sound, propext
C99_battery_partial: Classical.choice, Quot.sound, propext
C99_codes: Classical.choice, Quot.sound, propext
C99_errors: Classical.choice, Quot.sound, propext
C99_flags: Quot.sound, propext
C99_full_false: Quot.sound, propext
C99_values: Classical.choice, Quot.sound, propext
C99_voltage: Classical.choice, Quot.sound, propext
