{
 "claims": [
  {
   "property": "C01",
   "status": "proved",
   "theorems": [
    "Dmi.Props.C01_accepted_is_genuine"
   ],
   "note": "Ok implies: first aligned anchor, well-formed entry point inside the buffer, accessors equal the stored fields."
  },
  {
   "property": "C02",
   "status": "proved",
   "theorems": [
    "Dmi.Props.C02_search_no_fault"
   ],
   "note": ""
  },
  {
   "property": "C03",
   "status": "proved",
   "theorems": [
    "Dmi.Props.C03_notFound_iff",
    "Dmi.Props.C03_badSize_iff",
    "Dmi.Props.C03_tooOld_iff",
    "Dmi.Props.C03_badChecksum_iff"
   ],
   "note": ""
  },
  {
   "property": "C04",
   "status": "partial",
   "theorems": [
    "Dmi.Props.C04_valid_accepted_partial",
    "Dmi.Props.C04_valid_accepted_short",
    "Dmi.Props.C04_valid_accepted_false"
   ],
   "note": "Full statement (C04_full) is false of the code: `sub_buffer.len() as u8` truncation; negation proved with a 256-byte witness, exact acceptance condition proved."
  },
  {
   "property": "C05",
   "status": "proved",
   "theorems": [
    "Dmi.Props.C05_relocation"
   ],
   "note": ""
  },
  {
   "property": "C06",
   "status": "proved",
   "theorems": [
    "Dmi.Props.C06_corruption_detected"
   ],
   "note": ""
  },
  {
   "property": "C07",
   "status": "proved",
   "theorems": [
    "Dmi.Props.C07_version_lex",
    "Dmi.Props.C07_version_total_order",
    "Dmi.Props.C07_version_of_pair"
   ],
   "note": ""
  },
  {
   "property": "C19",
   "status": "proved",
   "theorems": [
    "Dmi.Props.C19_find_string",
    "Dmi.Props.C19_find_string_any"
   ],
   "note": "For encoded string lists and, declaratively, for arbitrary string areas. UTF-8 is specified by Lean's own character encoder."
  },
  {
   "property": "C20",
   "status": "proved",
   "theorems": [
    "Dmi.Props.C20_strings",
    "Dmi.Props.C20_strings_total",
    "Dmi.Props.C20_strings_contiguous",
    "Dmi.Props.C20_not_fused"
   ],
   "note": "Iteration is understood as calling next until the first None; the iterator is not fused after an invalid segment (C20_not_fused)."
  },
  {
   "property": "C21",
   "status": "proved",
   "theorems": [
    "Dmi.Props.C21_get",
    "Dmi.Props.C21_get_below",
    "Dmi.Props.C21_get_overflow"
   ],
   "note": "Includes the exact behaviour below offset 4 and at offsets where the usize addition overflows."
  },
  {
   "property": "C22",
   "status": "proved",
   "theorems": [
    "Dmi.Props.C22_get_slice",
    "Dmi.Props.C22_get_string"
   ],
   "note": ""
  },
  {
   "property": "C08",
   "status": "proved",
   "theorems": [
    "Dmi.Props.C08_items_bounded",
    "Dmi.Props.C08_terminates",
    "Dmi.Props.C08_progress"
   ],
   "note": ""
  },
  {
   "property": "C09",
   "status": "proved",
   "theorems": [
    "Dmi.Props.C09_none_final",
    "Dmi.Props.C09_error_final",
    "Dmi.Props.C09_forever"
   ],
   "note": ""
  },
  {
   "property": "C10",
   "status": "proved",
   "theorems": [
    "Dmi.Props.C10_end_stops",
    "Dmi.Props.C10_end_is_last",
    "Dmi.Props.C10_v2_continues"
   ],
   "note": "For buffers at least four bytes short of 4 GiB (beyond that the 32-bit cursor arithmetic overflows)."
  },
  {
   "property": "C11",
   "status": "proved",
   "theorems": [
    "Dmi.Props.C11_tiling",
    "Dmi.Props.C11_prefix"
   ],
   "note": ""
  },
  {
   "property": "C12",
   "status": "proved",
   "theorems": [
    "Dmi.Props.C12_round_trip",
    "Dmi.Props.C12_round_trip_end"
   ],
   "note": "The items are the decodings of the encoded structures; for types without decoder this is the structure itself (decoded_other)."
  },
  {
   "property": "C13",
   "status": "proved",
   "theorems": [
    "Dmi.Props.C13_strings_end"
   ],
   "note": ""
  },
  {
   "property": "C15",
   "status": "partial",
   "theorems": [
    "Dmi.Props.C15_no_fault_iff_partial",
    "Dmi.Props.C15_no_fault_partial",
    "Dmi.Props.C15_full_false",
    "Dmi.Props.C15_out_of_bounds"
   ],
   "note": "Full statement false of the code; exact fault condition and both kinds of fault proved."
  },
  {
   "property": "C16",
   "status": "partial",
   "theorems": [
    "Dmi.Props.C16_inside_iff",
    "Dmi.Props.C16_outside_is_last",
    "Dmi.Props.C16_formatted_inside_partial",
    "Dmi.Props.C16_full_false"
   ],
   "note": "Full statement false of the code: the string area is not bounded by the declared table length. C16_inside_iff says exactly which structures are inside, C16_outside_is_last that nothing follows one that is not."
  },
  {
   "property": "C17",
   "status": "proved",
   "theorems": [
    "Dmi.Props.C17_bad_structure_isolated"
   ],
   "note": ""
  },
  {
   "property": "C18",
   "status": "proved",
   "theorems": [
    "Dmi.Props.C18_dispatch",
    "Dmi.Props.C18_unsupported_verbatim"
   ],
   "note": ""
  },
  {
   "property": "C56",
   "status": "proved",
   "theorems": [
    "Dmi.Props.C56_local"
   ],
   "note": ""
  },
  {
   "property": "C24",
   "status": "proved",
   "theorems": [
    "Dmi.Props.C24_iter",
    "Dmi.Props.C24_then_none",
    "Dmi.Props.C24_short_layout_panics",
    "Dmi.Props.C24_debug"
   ],
   "note": "For every value type of at most 128 bits and every layout that is long enough."
  },
  {
   "property": "C25",
   "status": "proved",
   "theorems": [
    "Dmi.Props.C25_significants",
    "Dmi.Props.C25_crate"
   ],
   "note": ""
  },
  {
   "property": "C26",
   "status": "proved",
   "theorems": [
    "Dmi.Props.C26_collect",
    "Dmi.Props.C26_round_trip",
    "Dmi.Props.C26_too_large",
    "Dmi.Props.C26_wraps"
   ],
   "note": "Includes the panic, or the wrap without overflow checks, for positions outside the integer."
  },
  {
   "property": "C27",
   "status": "partial",
   "theorems": [
    "Dmi.Props.C27_reserved_partial",
    "Dmi.Props.C27_reserved_exact",
    "Dmi.Props.C27_crate_layouts",
    "Dmi.Props.C27_crate",
    "Dmi.Props.C27_full_false"
   ],
   "note": "General statement false of the code (one-bit group after another reserved group); exact behaviour proved for every layout; the statement holds for every layout the crate defines (C27_crate)."
  },
  {
   "property": "C28",
   "status": "proved",
   "theorems": [
    "Dmi.Props.C28_layouts_complete",
    "Dmi.Props.C28_no_unknown"
   ],
   "note": ""
  },
  {
   "property": "C23",
   "status": "proved",
   "theorems": [
    "Dmi.Props.C23_info_type",
    "Dmi.Props.C23_injective"
   ],
   "note": ""
  },
  {
   "property": "C36",
   "status": "proved",
   "theorems": [
    "Dmi.Props.C36_family",
    "Dmi.Props.C36_family_injective",
    "Dmi.Props.C36_family8_injective",
    "Dmi.Props.C36_voltage",
    "Dmi.Props.C36_voltage_injective"
   ],
   "note": "Injectivity does not depend on where the family names come from; the table itself was generated from the crate and reviewed from memory (see C58)."
  },
  {
   "property": "C46",
   "status": "partial",
   "theorems": [
    "Dmi.Props.C46_event_log_type",
    "Dmi.Props.C46_event_log_type_inverse",
    "Dmi.Props.C46_event_log_type_inverse'",
    "Dmi.Props.C46_variable_data_format",
    "Dmi.Props.C46_variable_data_format_inverse",
    "Dmi.Props.C46_descriptor_inverse",
    "Dmi.Props.C46_system_management",
    "Dmi.Props.C46_system_management_injective",
    "Dmi.Props.C46_access_method",
    "Dmi.Props.C46_access_vendor",
    "Dmi.Props.C46_access_address_partial",
    "Dmi.Props.C46_access_address_full_false"
   ],
   "note": "All conversions proved lossless except access addresses, where the full statement is false of the code; the kept bytes are proved exactly."
  },
  {
   "property": "C53",
   "status": "partial",
   "theorems": [
    "Dmi.Props.C53_system_WakeupType_injective",
    "Dmi.Props.C53_baseboard_BoardType_injective",
    "Dmi.Props.C53_enclosure_EnclosureType_injective",
    "Dmi.Props.C53_enclosure_State_injective",
    "Dmi.Props.C53_enclosure_SecurityStatus_injective",
    "Dmi.Props.C53_processor_ProcessorType_injective",
    "Dmi.Props.C53_processor_ProcessorUpgrade_injective",
    "Dmi.Props.C53_cache_CacheErrorCorrectionType_injective",
    "Dmi.Props.C53_cache_SystemCacheType_injective",
    "Dmi.Props.C53_cache_CacheAssociativity_injective",
    "Dmi.Props.C53_port_connector_ConnectorType_injective",
    "Dmi.Props.C53_port_connector_PortType_injective",
    "Dmi.Props.C53_system_slots_SlotWidth_injective",
    "Dmi.Props.C53_system_slots_CurrentUsage_injective",
    "Dmi.Props.C53_system_slots_SlotLength_injective",
    "Dmi.Props.C53_physical_memory_array_MemoryArrayUse_injective",
    "Dmi.Props.C53_physical_memory_array_MemoryArrayErrorCorrectionTypes_injective",
    "Dmi.Props.C53_memory_device_ErrorGranularity_injective",
    "Dmi.Props.C53_memory_device_ErrorOperation_injective",
    "Dmi.Props.C53_memory_device_ErrorType_injective",
    "Dmi.Props.C53_memory_device_MemoryTechnology_injective",
    "Dmi.Props.C53_memory_error_32_ErrorType_injective",
    "Dmi.Props.C53_memory_error_32_ErrorGranularity_injective",
    "Dmi.Props.C53_memory_error_32_ErrorOperation_injective",
    "Dmi.Props.C53_built_in_pointing_device_DeviceType_injective",
    "Dmi.Props.C53_built_in_pointing_device_Interface_injective",
    "Dmi.Props.C53_system_event_log_LogHeaderFormat_injective",
    "Dmi.Props.C53_ContainedElementType_injective",
    "Dmi.Props.C53_MemoryArrayLocation_injective",
    "Dmi.Props.C53_SlotType_injective_partial",
    "Dmi.Props.C53_SlotType_collisions",
    "Dmi.Props.C53_FormFactor_injective_partial",
    "Dmi.Props.C53_FormFactor_collision",
    "Dmi.Props.C53_MemoryType_injective_partial",
    "Dmi.Props.C53_MemoryType_injective_full_false"
   ],
   "note": "Proved for every enumeration; false for slot types (four colliding pairs), form factors (8 and 9) and memory types (15h-17h), where negation/collision and the exact exception are proved."
  },
  {
   "property": "C58",
   "status": "partial",
   "theorems": [
    "Dmi.Props.C53_system_WakeupType",
    "Dmi.Props.C53_baseboard_BoardType",
    "Dmi.Props.C53_enclosure_EnclosureType",
    "Dmi.Props.C53_enclosure_State",
    "Dmi.Props.C53_enclosure_SecurityStatus",
    "Dmi.Props.C53_processor_ProcessorType",
    "Dmi.Props.C53_processor_ProcessorUpgrade",
    "Dmi.Props.C53_cache_CacheErrorCorrectionType",
    "Dmi.Props.C53_cache_SystemCacheType",
    "Dmi.Props.C53_cache_CacheAssociativity",
    "Dmi.Props.C53_port_connector_ConnectorType",
    "Dmi.Props.C53_port_connector_PortType",
    "Dmi.Props.C53_system_slots_SlotWidth",
    "Dmi.Props.C53_system_slots_CurrentUsage",
    "Dmi.Props.C53_system_slots_SlotLength",
    "Dmi.Props.C53_physical_memory_array_MemoryArrayUse",
    "Dmi.Props.C53_physical_memory_array_MemoryArrayErrorCorrectionTypes",
    "Dmi.Props.C53_memory_device_ErrorGranularity",
    "Dmi.Props.C53_memory_device_ErrorOperation",
    "Dmi.Props.C53_memory_device_ErrorType",
    "Dmi.Props.C53_memory_device_MemoryTechnology",
    "Dmi.Props.C53_memory_error_32_ErrorType",
    "Dmi.Props.C53_memory_error_32_ErrorGranularity",
    "Dmi.Props.C53_memory_error_32_ErrorOperation",
    "Dmi.Props.C53_built_in_pointing_device_DeviceType",
    "Dmi.Props.C53_built_in_pointing_device_Interface",
    "Dmi.Props.C53_system_event_log_LogHeaderFormat",
    "Dmi.Props.C53_memory_device_MemoryType",
    "Dmi.Props.C53_SlotType_partial",
    "Dmi.Props.C53_SlotType_full_false",
    "Dmi.Props.C53_SlotType_never_u2",
    "Dmi.Props.C53_FormFactor_partial",
    "Dmi.Props.C53_FormFactor_shifted",
    "Dmi.Props.C53_FormFactor_full_false",
    "Dmi.Props.C53_MemoryArrayLocation_partial",
    "Dmi.Props.C53_MemoryArrayLocation_full_false",
    "Dmi.Props.C23_info_type",
    "Dmi.Props.C36_family",
    "Dmi.Props.C46_event_log_type"
   ],
   "note": "Reference tables generated from the crate and reviewed from memory of DSP0134, not compared with the document: agreement is not independent evidence of conformance. Deviations of slot type (supported by the crate's own unused variants), form factor and array location (recollection) proved."
  },
  {
   "property": "C29",
   "status": "proved",
   "theorems": [
    "Dmi.Props.C29_decodes",
    "Dmi.Props.C29_rejects",
    "Dmi.Props.C29_short"
   ],
   "note": "Structures shorter than the fixed part of their version are read out of bounds (C29_short); decoding is exact otherwise."
  },
  {
   "property": "C30",
   "status": "partial",
   "theorems": [
    "Dmi.Props.C30_rom_size_partial",
    "Dmi.Props.C30_full_false"
   ],
   "note": "Full statement (C30_full) false of the code; negation and exact result proved."
  },
  {
   "property": "C31",
   "status": "proved",
   "theorems": [
    "Dmi.Props.C31_decodes",
    "Dmi.Props.C31_rejects",
    "Dmi.Props.C31_short",
    "Dmi.Props.C31_uuid_recoverable"
   ],
   "note": "Short structures are read out of bounds (C31_short)."
  },
  {
   "property": "C32",
   "status": "partial",
   "theorems": [
    "Dmi.Props.C32_decodes_partial",
    "Dmi.Props.C32_rejects",
    "Dmi.Props.C32_short",
    "Dmi.Props.C32_full_false"
   ],
   "note": "Full statement (C32_full) false of the code; negation and exact condition proved. What the out of bounds read returns is the subject of C68."
  },
  {
   "property": "C35",
   "status": "partial",
   "theorems": [
    "Dmi.Props.C35_decodes",
    "Dmi.Props.C35_decodes_partial",
    "Dmi.Props.C35_rejects",
    "Dmi.Props.C35_short",
    "Dmi.Props.C35_full_false"
   ],
   "note": "Full statement (C35_full) false of the code; the exact decoding is proved (C35_decodes)."
  },
  {
   "property": "C37",
   "status": "partial",
   "theorems": [
    "Dmi.Props.C37_decodes",
    "Dmi.Props.C37_decodes_partial",
    "Dmi.Props.C37_rejects",
    "Dmi.Props.C37_faults",
    "Dmi.Props.C37_full_false"
   ],
   "note": "Full statement (C37_full) false of the code; the exact decoding and fault conditions are proved."
  },
  {
   "property": "C38",
   "status": "proved",
   "theorems": [
    "Dmi.Props.C38_configuration",
    "Dmi.Props.C38_configuration_unique",
    "Dmi.Props.C38_size",
    "Dmi.Props.C38_size2",
    "Dmi.Props.C38_bytes",
    "Dmi.Props.C38_size_injective"
   ],
   "note": ""
  },
  {
   "property": "C39",
   "status": "proved",
   "theorems": [
    "Dmi.Props.C39_decodes",
    "Dmi.Props.C39_rejects",
    "Dmi.Props.C39_short"
   ],
   "note": "Short structures are read out of bounds (C39_short)."
  },
  {
   "property": "C42",
   "status": "proved",
   "theorems": [
    "Dmi.Props.C42_oem",
    "Dmi.Props.C42_options",
    "Dmi.Props.C42_options_short"
   ],
   "note": ""
  },
  {
   "property": "C43",
   "status": "partial",
   "theorems": [
    "Dmi.Props.C43_decodes",
    "Dmi.Props.C43_short",
    "Dmi.Props.C43_languages_partial",
    "Dmi.Props.C43_panics",
    "Dmi.Props.C43_endless",
    "Dmi.Props.C43_full_false"
   ],
   "note": "Iteration is complete up to 253 strings (254 without overflow checks); beyond, the panic and the endless repetition are proved. The decode part is complete."
  },
  {
   "property": "C44",
   "status": "proved",
   "theorems": [
    "Dmi.Props.C44_decodes",
    "Dmi.Props.C44_short"
   ],
   "note": "For structures whose length byte agrees with the data, as the table iterator yields them."
  },
  {
   "property": "C33",
   "status": "proved",
   "theorems": [
    "Dmi.Props.C33_decodes",
    "Dmi.Props.C33_rejects",
    "Dmi.Props.C33_short",
    "Dmi.Props.C33_type_lossless"
   ],
   "note": ""
  },
  {
   "property": "C34",
   "status": "partial",
   "theorems": [
    "Dmi.Props.C34_listed",
    "Dmi.Props.C34_overreads",
    "Dmi.Props.C34_elements_partial",
    "Dmi.Props.C34_overflow_panics",
    "Dmi.Props.C34_overflow_wraps",
    "Dmi.Props.C34_short_records",
    "Dmi.Props.C34_full_false"
   ],
   "note": "Full statement (C34_full) false of the code; the overflow and the out of bounds read of short records are proved. C34_listed and C34_overreads say exactly what is listed for every decoded structure."
  },
  {
   "property": "C47",
   "status": "partial",
   "theorems": [
    "Dmi.Props.C47_decodes",
    "Dmi.Props.C47_short",
    "Dmi.Props.C47_old",
    "Dmi.Props.C47_decodes_partial",
    "Dmi.Props.C47_full_false",
    "Dmi.Props.C47_2_7_false"
   ],
   "note": "Full statement (C47_full) false of the code at versions 2.1 and 2.7 and for short structures; the exact decoding is proved (C47_decodes)."
  },
  {
   "property": "C48",
   "status": "partial",
   "theorems": [
    "Dmi.Props.C48_decodes",
    "Dmi.Props.C48_rejects",
    "Dmi.Props.C48_short",
    "Dmi.Props.C48_full_false"
   ],
   "note": "Full statement (C48_full) false of the code: 15h..1Fh bytes are rejected; the exact decoding is proved."
  },
  {
   "property": "C49",
   "status": "proved",
   "theorems": [
    "Dmi.Props.C49_decodes",
    "Dmi.Props.C49_rejects"
   ],
   "note": ""
  },
  {
   "property": "C50",
   "status": "proved",
   "theorems": [
    "Dmi.Props.C50_array_decodes",
    "Dmi.Props.C50_array_rejects",
    "Dmi.Props.C50_array_extended",
    "Dmi.Props.C50_device_decodes",
    "Dmi.Props.C50_device_rejects",
    "Dmi.Props.C50_device_extended"
   ],
   "note": ""
  },
  {
   "property": "C51",
   "status": "proved",
   "theorems": [
    "Dmi.Props.C51_decodes",
    "Dmi.Props.C51_rejects"
   ],
   "note": ""
  },
  {
   "property": "C52",
   "status": "partial",
   "theorems": [
    "Dmi.Props.C52_decodes",
    "Dmi.Props.C52_rejects",
    "Dmi.Props.C52_capacity_partial",
    "Dmi.Props.C52_capacity_overflow",
    "Dmi.Props.C52_capacity_full_false"
   ],
   "note": "Decoding is proved completely; the capacity conversion (C52_capacity_full) is false of the code above 65535 mWh, where its result is proved exactly."
  },
  {
   "property": "C40",
   "status": "proved",
   "theorems": [
    "Dmi.Props.C40_decodes",
    "Dmi.Props.C40_rejects"
   ],
   "note": "The offsets after the peer groups are those of version 3.4 of the specification as quoted by the crate (14h+5n); the crate itself suspects them to be one too large."
  },
  {
   "property": "C41",
   "status": "proved",
   "theorems": [
    "Dmi.Props.C41_split",
    "Dmi.Props.C41_device",
    "Dmi.Props.C41_peers"
   ],
   "note": ""
  },
  {
   "property": "C45",
   "status": "partial",
   "theorems": [
    "Dmi.Props.C45_decodes",
    "Dmi.Props.C45_rejects",
    "Dmi.Props.C45_accepts",
    "Dmi.Props.C45_panics",
    "Dmi.Props.C45_descriptors_partial",
    "Dmi.Props.C45_other_lengths",
    "Dmi.Props.C45_full_false"
   ],
   "note": "Full statement (C45_full) false of the code: descriptors of length 0 panic and of lengths other than 2 yield nothing, both proved; decoding is exact otherwise."
  },
  {
   "property": "C14",
   "status": "proved",
   "theorems": [
    "Dmi.Props.C14_bad_size",
    "Dmi.Props.C14_unterminated"
   ],
   "note": "For cursors at least 256 bytes below 4 GiB, with the header inside table and buffer."
  },
  {
   "property": "C54",
   "status": "proved",
   "theorems": [
    "Dmi.Props.C54_decoders",
    "Dmi.Props.C54_no_fault",
    "Dmi.Props.C54_no_fault_end"
   ],
   "note": "The minimum per type is Enough."
  },
  {
   "property": "C55",
   "status": "proved",
   "theorems": [
    "Dmi.Props.C55_memory_safe"
   ],
   "note": "About decoding; iterating the contained elements of a decoded enclosure is C34."
  },
  {
   "property": "C57",
   "status": "partial",
   "theorems": [
    "Dmi.Props.C57_handle_partial",
    "Dmi.Props.C57_old_array",
    "Dmi.Props.C57_full_false"
   ],
   "note": "Full statement (C57_full) false of the code for physical memory arrays up to version 2.1, which report handle 0 (C57_old_array)."
  },
  {
   "property": "C59",
   "status": "partial",
   "theorems": [
    "Dmi.Props.C59_InfoType",
    "Dmi.Props.C59_baseboard_BoardType",
    "Dmi.Props.C59_enclosure_EnclosureType",
    "Dmi.Props.C59_enclosure_State",
    "Dmi.Props.C59_enclosure_SecurityStatus",
    "Dmi.Props.C59_processor_ProcessorUpgrade",
    "Dmi.Props.C59_cache_CacheLevel",
    "Dmi.Props.C59_cache_CacheLocation",
    "Dmi.Props.C59_cache_CacheOperationalMode",
    "Dmi.Props.C59_cache_CacheErrorCorrectionType",
    "Dmi.Props.C59_cache_SystemCacheType",
    "Dmi.Props.C59_cache_CacheAssociativity",
    "Dmi.Props.C59_port_connector_ConnectorType",
    "Dmi.Props.C59_port_connector_PortType",
    "Dmi.Props.C59_system_slots_SlotType",
    "Dmi.Props.C59_system_slots_SlotWidth",
    "Dmi.Props.C59_system_slots_CurrentUsage",
    "Dmi.Props.C59_system_slots_SlotLength",
    "Dmi.Props.C59_physical_memory_array_MemoryArrayLocation",
    "Dmi.Props.C59_physical_memory_array_MemoryArrayUse",
    "Dmi.Props.C59_physical_memory_array_MemoryArrayErrorCorrectionTypes",
    "Dmi.Props.C59_memory_error_32_ErrorType",
    "Dmi.Props.C59_memory_error_32_ErrorGranularity",
    "Dmi.Props.C59_memory_error_32_ErrorOperation",
    "Dmi.Props.C59_built_in_pointing_device_DeviceType",
    "Dmi.Props.C59_built_in_pointing_device_Interface",
    "Dmi.Props.C59_processor_ProcessorFamily",
    "Dmi.Props.C59_system_event_log_LogHeaderFormat_alternate",
    "Dmi.Props.C59_system_event_log_LogHeaderFormat_full_false",
    "Dmi.Props.C59_system_event_log_LogHeaderFormat_partial",
    "Dmi.Props.C59_system_event_log_EventLogType_alternate",
    "Dmi.Props.C59_system_event_log_EventLogType_full_false",
    "Dmi.Props.C59_system_event_log_EventLogType_partial",
    "Dmi.Props.C59_system_event_log_SystemManagementType",
    "Dmi.Props.C59_portable_battery_DeviceChemistry_full_false",
    "Dmi.Props.C59_portable_battery_DeviceChemistry_partial"
   ],
   "note": "Proved for every enumeration; false for three, where the negation and the exact exception are proved."
  },
  {
   "property": "C60",
   "status": "proved",
   "theorems": [
    "Dmi.Props.C60_InfoType",
    "Dmi.Props.C60_InfoType_code",
    "Dmi.Props.C60_baseboard_BoardType",
    "Dmi.Props.C60_baseboard_BoardType_code",
    "Dmi.Props.C60_enclosure_EnclosureType",
    "Dmi.Props.C60_enclosure_EnclosureType_code",
    "Dmi.Props.C60_enclosure_State",
    "Dmi.Props.C60_enclosure_State_code",
    "Dmi.Props.C60_enclosure_SecurityStatus",
    "Dmi.Props.C60_enclosure_SecurityStatus_code",
    "Dmi.Props.C60_processor_ProcessorUpgrade",
    "Dmi.Props.C60_processor_ProcessorUpgrade_code",
    "Dmi.Props.C60_cache_CacheLevel",
    "Dmi.Props.C60_cache_CacheLocation",
    "Dmi.Props.C60_cache_CacheOperationalMode",
    "Dmi.Props.C60_cache_CacheErrorCorrectionType",
    "Dmi.Props.C60_cache_CacheErrorCorrectionType_code",
    "Dmi.Props.C60_cache_SystemCacheType",
    "Dmi.Props.C60_cache_SystemCacheType_code",
    "Dmi.Props.C60_cache_CacheAssociativity",
    "Dmi.Props.C60_cache_CacheAssociativity_code",
    "Dmi.Props.C60_port_connector_ConnectorType",
    "Dmi.Props.C60_port_connector_ConnectorType_code",
    "Dmi.Props.C60_port_connector_PortType",
    "Dmi.Props.C60_port_connector_PortType_code",
    "Dmi.Props.C60_system_slots_SlotType",
    "Dmi.Props.C60_system_slots_SlotType_alternate",
    "Dmi.Props.C60_system_slots_SlotType_code",
    "Dmi.Props.C60_system_slots_SlotWidth",
    "Dmi.Props.C60_system_slots_SlotWidth_code",
    "Dmi.Props.C60_system_slots_CurrentUsage",
    "Dmi.Props.C60_system_slots_CurrentUsage_alternate",
    "Dmi.Props.C60_system_slots_CurrentUsage_code",
    "Dmi.Props.C60_system_slots_SlotLength",
    "Dmi.Props.C60_system_slots_SlotLength_code",
    "Dmi.Props.C60_physical_memory_array_MemoryArrayLocation",
    "Dmi.Props.C60_physical_memory_array_MemoryArrayLocation_code",
    "Dmi.Props.C60_physical_memory_array_MemoryArrayUse",
    "Dmi.Props.C60_physical_memory_array_MemoryArrayUse_code",
    "Dmi.Props.C60_physical_memory_array_MemoryArrayErrorCorrectionTypes",
    "Dmi.Props.C60_physical_memory_array_MemoryArrayErrorCorrectionTypes_code",
    "Dmi.Props.C60_memory_error_32_ErrorType",
    "Dmi.Props.C60_memory_error_32_ErrorType_code",
    "Dmi.Props.C60_memory_error_32_ErrorGranularity",
    "Dmi.Props.C60_memory_error_32_ErrorGranularity_code",
    "Dmi.Props.C60_memory_error_32_ErrorOperation",
    "Dmi.Props.C60_memory_error_32_ErrorOperation_code",
    "Dmi.Props.C60_built_in_pointing_device_DeviceType",
    "Dmi.Props.C60_built_in_pointing_device_DeviceType_code",
    "Dmi.Props.C60_built_in_pointing_device_Interface",
    "Dmi.Props.C60_built_in_pointing_device_Interface_code",
    "Dmi.Props.C60_processor_ProcessorFamily",
    "Dmi.Props.C60_system_event_log_LogHeaderFormat",
    "Dmi.Props.C60_system_event_log_LogHeaderFormat_alternate",
    "Dmi.Props.C60_system_event_log_EventLogType",
    "Dmi.Props.C60_system_event_log_EventLogType_alternate",
    "Dmi.Props.C60_system_event_log_SystemManagementType",
    "Dmi.Props.C60_portable_battery_DeviceChemistry",
    "Dmi.Props.C60_processor_ProcessorFamily_available",
    "Dmi.Props.C60_processor_ProcessorFamily_not_used",
    "Dmi.Props.C60_system_event_log_LogHeaderFormat_code",
    "Dmi.Props.C60_system_event_log_EventLogType_code",
    "Dmi.Props.C60_system_event_log_SystemManagementType_code",
    "Dmi.Props.C60_portable_battery_DeviceChemistry_sbds",
    "Dmi.Props.C60_portable_battery_DeviceChemistry_code"
   ],
   "note": "The labels that differ from the variant name are listed in the theorems, including the code's own slip 'I/O channel block' for IoChannelCheck in the plain form."
  },
  {
   "property": "C61",
   "status": "proved",
   "theorems": [
    "Dmi.Props.C61_Device",
    "Dmi.Props.C61_Device_inj",
    "Dmi.Props.C61_ManufactureDate",
    "Dmi.Props.C61_ManufactureDate_string",
    "Dmi.Props.C61_ManufactureDate_none",
    "Dmi.Props.C61_SerialNumber",
    "Dmi.Props.C61_SerialNumber_string",
    "Dmi.Props.C61_SerialNumber_none",
    "Dmi.Props.C61_BiosRevision",
    "Dmi.Props.C61_FirmwareRevision",
    "Dmi.Props.C61_ContainedElementType_inj",
    "Dmi.Props.C61_ContainedElement",
    "Dmi.Props.C61_ContainedElement_inj",
    "Dmi.Props.C61_AccessMethod_alternate",
    "Dmi.Props.C61_AccessMethod",
    "Dmi.Props.C61_AccessMethod_numbers",
    "Dmi.Props.C61_VariableDataFormatType_alternate",
    "Dmi.Props.C61_VariableDataFormatType",
    "Dmi.Props.C61_VariableDataFormatType_numbers"
   ],
   "note": ""
  },
  {
   "property": "C62",
   "status": "partial",
   "theorems": [
    "Dmi.Props.C62_Voltage_current",
    "Dmi.Props.C62_Voltage_legacy_full_false",
    "Dmi.Props.C62_Voltage_legacy_partial",
    "Dmi.Props.C62_Voltage_undefined",
    "Dmi.Props.C62_SlotPitch_full_false",
    "Dmi.Props.C62_SlotPitch_partial"
   ],
   "note": "The full statements (C62_Voltage_legacy_full, C62_SlotPitch_full) are false of the code; negations and the exact output are proved."
  },
  {
   "property": "C63",
   "status": "partial",
   "theorems": [
    "Dmi.Props.C63_source",
    "Dmi.Props.C63_InfoType_debug",
    "Dmi.Props.C63_entry_point",
    "Dmi.Props.C63_entry_point_numbers",
    "Dmi.Props.C63_malformed_full_false",
    "Dmi.Props.C63_malformed_partial",
    "Dmi.Props.C63_malformed_numbers",
    "Dmi.Props.C63_decoders"
   ],
   "note": "Injective for all entry point errors and all errors of the decoders (C63_decoders); the full statement about arbitrary values of the public type is false (C63_malformed_full_false)."
  },
  {
   "property": "C64",
   "status": "partial",
   "theorems": [
    "Dmi.Props.C64_exact",
    "Dmi.Props.C64_names",
    "Dmi.Props.C64_truthful_partial",
    "Dmi.Props.C64_exempt",
    "Dmi.Props.C64_full_false",
    "Dmi.Props.C64_iterator"
   ],
   "note": "Full statement (C64_full) false of the code for four structure types (C64_exempt); proved for all others, and naming for all. C64_exact says exactly which errors are untrue."
  },
  {
   "property": "C65",
   "status": "proved",
   "theorems": [
    "Dmi.Props.C65_PeerDevices",
    "Dmi.Props.C65_Descriptors",
    "Dmi.Props.C65_ContainedElements",
    "Dmi.Props.C65_hash_faithful",
    "Dmi.Props.C65_sizes"
   ],
   "note": "For non-zero chunk sizes, which all constructed values have (C65_sizes); that equal hash input means equal values (C65_hash_faithful) holds for every width n of usize and assumes slices shorter than 2^n bytes, as all are."
  },
  {
   "property": "C66",
   "status": "partial",
   "theorems": [
    "Dmi.Props.C66_bios_partial",
    "Dmi.Props.C66_full_false",
    "Dmi.Props.C66_slots",
    "Dmi.Props.C66_language",
    "Dmi.Props.C66_event_log",
    "Dmi.Props.C66_post_results",
    "Dmi.Props.C66_distinct"
   ],
   "note": "Full statement (C66_full) false of the code for bits 0 and 1 of the BIOS characteristics; everything else is proved, also for these two bits what is shown."
  },
  {
   "property": "C67",
   "status": "partial",
   "theorems": [
    "Dmi.Props.C67_all_declared",
    "Dmi.Props.C67_baseboard",
    "Dmi.Props.C67_cache",
    "Dmi.Props.C67_processor",
    "Dmi.Props.C67_voltage",
    "Dmi.Props.C67_memory_device",
    "Dmi.Props.C67_status_partial",
    "Dmi.Props.C67_status_full_false",
    "Dmi.Props.C67_reserved_partial",
    "Dmi.Props.C67_reserved_full_false"
   ],
   "note": "The full statements for the processor status (C67_status_full) and the reserved flags of memory devices (C67_reserved_full) are false of the code; their exact behaviour and all other flags are proved."
  },
  {
   "property": "C68",
   "status": "partial",
   "theorems": [
    "Dmi.Props.C68_agrees",
    "Dmi.Props.C68_next",
    "Dmi.Props.C68_table",
    "Dmi.Props.C68_defined",
    "Dmi.Props.C68_baseboard_partial",
    "Dmi.Props.C68_baseboard_torn",
    "Dmi.Props.C68_processor_partial",
    "Dmi.Props.C68_full_false"
   ],
   "note": "Full statement (C68_full) false of the code: C68_full_false, C68_baseboard_torn. Agreement with the strict model, definedness and the two cases met in the crate's test data are proved."
  },
  {
   "property": "C69",
   "status": "proved",
   "theorems": [
    "Dmi.Props.C69_reads_out",
    "Dmi.Props.C69_panics",
    "Dmi.Props.C69_returns",
    "Dmi.Props.C69_table"
   ],
   "note": "For tables whose declared length is the length of the well-formed structures; C54 allows other declared lengths."
  },
  {
   "property": "C70",
   "status": "partial",
   "theorems": [
    "Dmi.Props.C70_ignored_partial",
    "Dmi.Props.C70_language",
    "Dmi.Props.C70_group",
    "Dmi.Props.C70_rejected",
    "Dmi.Props.C70_decodable_iff",
    "Dmi.Props.C70_full_false"
   ],
   "note": "The full statement C70_full (appending bytes never makes a structure undecodable) is refuted by C70_full_false: C70_rejected shows that every decodable structure that must have an exact length is rejected once it is longer. Proved for all other structures: C70_ignored_partial, C70_language, C70_group. C70_decodable_iff: these are exactly those that stay decodable."
  },
  {
   "property": "C71",
   "status": "partial",
   "theorems": [
    "Dmi.Props.C71_count_partial",
    "Dmi.Props.C71_count_constant",
    "Dmi.Props.C71_empty_records",
    "Dmi.Props.C71_full_false",
    "Dmi.Props.C71_count_iff"
   ],
   "note": "Full statement (C71_full) false of the code for elements of length 0 (C71_empty_records, C71_full_false); C71_count_iff says exactly when it holds."
  },
  {
   "property": "C72",
   "status": "partial",
   "theorems": [
    "Dmi.Props.C72_extends_partial",
    "Dmi.Props.C72_full_false",
    "Dmi.Props.C72_array_false",
    "Dmi.Props.C72_language_iff",
    "Dmi.Props.C72_array_iff"
   ],
   "note": "The full statement (C72_full) is false of the code for BIOS languages before 2.1 (C72_full_false) and memory arrays before 2.2 (C72_array_false); C72_extends_partial proves it for everything else. C72_language_iff and C72_array_iff say exactly for which of these it holds."
  },
  {
   "property": "C73",
   "status": "partial",
   "theorems": [
    "Dmi.Props.C73_round_trip_partial",
    "Dmi.Props.C73_round_trip64_partial",
    "Dmi.Props.C73_full_false",
    "Dmi.Props.C73_hidden",
    "Dmi.Props.C73_iff",
    "Dmi.Props.C73_iff64"
   ],
   "note": "The full statement (C73_full) is false of the code for images whose rest is, modulo 256, shorter than the entry point (C73_full_false, see C04); proved for all others and both formats, and C73_iff, C73_iff64 say that it holds for no other image."
  },
  {
   "property": "C74",
   "status": "proved",
   "theorems": [
    "Dmi.Props.C74_texts",
    "Dmi.Props.C74_valid",
    "Dmi.Props.C74_table"
   ],
   "note": "Iterators up to their first None; C20_not_fused shows what StructureStrings does after it."
  },
  {
   "property": "C75",
   "status": "proved",
   "theorems": [
    "Dmi.Props.C75_decode",
    "Dmi.Props.C75_differs",
    "Dmi.Props.C75_next",
    "Dmi.Props.C75_flat_next",
    "Dmi.Props.C75_runs",
    "Dmi.Props.C75_get",
    "Dmi.Props.C75_iterators",
    "Dmi.Props.C75_conversions"
   ],
   "note": "usize is 64-bit here; C79 is about other widths. Constant arithmetic that cannot overflow is not parameterised by the profile (see the comments in the model)."
  },
  {
   "property": "C76",
   "status": "proved",
   "theorems": [
    "Dmi.Props.C76_uuid",
    "Dmi.Props.C76_content",
    "Dmi.Props.C76_old_arrays",
    "Dmi.Props.C76_any_types",
    "Dmi.Props.C76_tables"
   ],
   "note": "Texts are compared as reported (C74 says where they come from); types the crate does not decode are compared as raw structures."
  },
  {
   "property": "C77",
   "status": "partial",
   "theorems": [
    "Dmi.Props.C77_handle_partial",
    "Dmi.Props.C77_old_array",
    "Dmi.Props.C77_full_false",
    "Dmi.Props.C77_accepted"
   ],
   "note": "The full statement (C77_full) is false of the code for memory arrays before 2.2 (C77_full_false, C77_old_array); C77_handle_partial proves it for everything else."
  },
  {
   "property": "C78",
   "status": "partial",
   "theorems": [
    "Dmi.Props.C78_search_partial",
    "Dmi.Props.C78_words",
    "Dmi.Props.C78_outcome",
    "Dmi.Props.C78_value",
    "Dmi.Props.C78_old_arrays",
    "Dmi.Props.C78_handle",
    "Dmi.Props.C78_next",
    "Dmi.Props.C78_iteration",
    "Dmi.Props.C78_device",
    "Dmi.Props.C78_full_false"
   ],
   "note": "The full statement (C78_full) is false of the code in both parts (C78_full_false). Proved: the exact difference between the hosts, for search (C78_search_partial), decoding (C78_outcome, C78_value), iteration (C78_next, C78_iteration) and devices (C78_device). A big-endian host is modelled by reversing the integers that are copied without conversion (Model/BigEndian)."
  },
  {
   "property": "C79",
   "status": "proved",
   "theorems": [
    "Dmi.Props.C79_narrow_raw",
    "Dmi.Props.C79_narrow_next",
    "Dmi.Props.C79_narrow_stream",
    "Dmi.Props.C79_get",
    "Dmi.Props.C79_decode",
    "Dmi.Props.C79_enclosure",
    "Dmi.Props.C79_next",
    "Dmi.Props.C79_stream",
    "Dmi.Props.C79_other_hosts",
    "Dmi.Props.C79_bitfield",
    "Dmi.Props.C79_shown"
   ],
   "note": "C79_narrow_raw, C79_narrow_next and C79_narrow_stream are about Model/Narrow, where the casts from u32 to usize truncate; the other theorems index by the u32 itself. C79_other_hosts assumes exact casts. usize computations that cannot overflow are done in Nat (see the comments in the model). The derived Debug prints the hidden chunk length (C79_shown)."
  },
  {
   "property": "C80",
   "status": "partial",
   "theorems": [
    "Dmi.Props.C80_partial",
    "Dmi.Props.C80_table",
    "Dmi.Props.C80_full_false"
   ],
   "note": "The full statement is false (C80_full_false); C80_partial is the exact extent: usable if and only if none of the four hazards is in the bytes. Formatting cannot fail in the model and is not included."
  },
  {
   "property": "C81",
   "status": "partial",
   "theorems": [
    "Dmi.Props.C81_partial",
    "Dmi.Props.C81_full_false"
   ],
   "note": "The full statement is false (C81_full_false); C81_partial is the exact extent: the iterators of a decoded structure stay ended if and only if it is not one of those described by Resumes."
  },
  {
   "property": "C82",
   "status": "proved",
   "theorems": [
    "Dmi.Props.C82_system",
    "Dmi.Props.C82_bios",
    "Dmi.Props.C82_baseboard",
    "Dmi.Props.C82_port_connector",
    "Dmi.Props.C82_processor",
    "Dmi.Props.C82_cache",
    "Dmi.Props.C82_memory_error",
    "Dmi.Props.C82_pointing_device",
    "Dmi.Props.C82_array_address",
    "Dmi.Props.C82_device_address",
    "Dmi.Props.C82_memory_array",
    "Dmi.Props.C82_memory_device",
    "Dmi.Props.C82_event_log",
    "Dmi.Props.C82_oem_strings",
    "Dmi.Props.C82_options",
    "Dmi.Props.C82_group",
    "Dmi.Props.C82_language",
    "Dmi.Props.C82_battery",
    "Dmi.Props.C82_slots",
    "Dmi.Props.C82_enclosure",
    "Dmi.Props.C82_other",
    "Dmi.Props.C82_iteration",
    "Dmi.Props.C82_table",
    "Dmi.Props.C82_InfoType",
    "Dmi.Props.C82_system_WakeupType",
    "Dmi.Props.C82_baseboard_BoardType",
    "Dmi.Props.C82_enclosure_EnclosureType",
    "Dmi.Props.C82_enclosure_State",
    "Dmi.Props.C82_enclosure_SecurityStatus",
    "Dmi.Props.C82_processor_ProcessorType",
    "Dmi.Props.C82_processor_ProcessorUpgrade",
    "Dmi.Props.C82_cache_CacheErrorCorrectionType",
    "Dmi.Props.C82_cache_SystemCacheType",
    "Dmi.Props.C82_cache_CacheAssociativity",
    "Dmi.Props.C82_port_connector_ConnectorType",
    "Dmi.Props.C82_port_connector_PortType",
    "Dmi.Props.C82_system_slots_SlotWidth",
    "Dmi.Props.C82_system_slots_CurrentUsage",
    "Dmi.Props.C82_system_slots_SlotLength",
    "Dmi.Props.C82_physical_memory_array_MemoryArrayUse",
    "Dmi.Props.C82_physical_memory_array_MemoryArrayErrorCorrectionTypes",
    "Dmi.Props.C82_memory_device_ErrorGranularity",
    "Dmi.Props.C82_memory_device_ErrorOperation",
    "Dmi.Props.C82_memory_device_ErrorType",
    "Dmi.Props.C82_memory_device_MemoryTechnology",
    "Dmi.Props.C82_memory_error_32_ErrorType",
    "Dmi.Props.C82_memory_error_32_ErrorGranularity",
    "Dmi.Props.C82_memory_error_32_ErrorOperation",
    "Dmi.Props.C82_built_in_pointing_device_DeviceType",
    "Dmi.Props.C82_built_in_pointing_device_Interface",
    "Dmi.Props.C82_system_event_log_LogHeaderFormat",
    "Dmi.Props.C82_memory_device_MemoryType",
    "Dmi.Props.C82_system_event_log_EventLogType",
    "Dmi.Props.C82_system_slots_SlotType",
    "Dmi.Props.C82_memory_device_FormFactor",
    "Dmi.Props.C82_physical_memory_array_MemoryArrayLocation",
    "Dmi.Props.C82_processor_Voltage",
    "Dmi.Props.C82_processor_ProcessorFamily",
    "Dmi.Props.C82_cache_CacheSize",
    "Dmi.Props.C82_cache_CacheSize2"
   ],
   "note": "C82_table and C82_iteration connect the description with iterations; a value whose texts need a structure of more than 4 GiB is in no table, which the descriptions by field do not mention. BIOS languages keep the whole structure and are described through it. The hidden chunk length of an empty list of contained elements is that of a 64-bit host (C79)."
  },
  {
   "property": "C83",
   "status": "proved",
   "theorems": [
    "Dmi.Props.C83_texts",
    "Dmi.Props.C83_same"
   ],
   "note": "C83_texts covers all outcomes; C83_same is the case of equal strings. The examples show that the number of strings does matter."
  },
  {
   "property": "C84",
   "status": "proved",
   "theorems": [
    "Dmi.Props.C84_equality",
    "Dmi.Props.C84_laws",
    "Dmi.Props.C84_bytes"
   ],
   "note": "C84_equality is the exact condition, C84_laws the laws, C84_bytes the connection with the stored bytes (C76). Which bytes the derived Hash writes for the other fields is left open here (any function of them); C93 says which."
  },
  {
   "property": "C85",
   "status": "proved",
   "theorems": [
    "Dmi.Props.C85_cut",
    "Dmi.Props.C85_runs",
    "Dmi.Props.C85_behind"
   ],
   "note": "C85_cut compares with a complete iteration, C85_runs with runs that may crash later; C85_behind is the case of an equal declared length. A part shorter than its declared length can be read out of bounds (C15); such reads are no items of a run."
  },
  {
   "property": "C86",
   "status": "partial",
   "theorems": [
    "Dmi.Props.C86_bios",
    "Dmi.Props.C86_memory_array",
    "Dmi.Props.C86_memory_device",
    "Dmi.Props.C86_memory_device_set",
    "Dmi.Props.C86_says_nothing",
    "Dmi.Props.C86_says_nothing_later",
    "Dmi.Props.C86_codes",
    "Dmi.Props.C86_detail",
    "Dmi.Props.C86_rom_size",
    "Dmi.Props.C86_flags",
    "Dmi.Props.C86_flag_type",
    "Dmi.Props.C86_iterators_partial",
    "Dmi.Props.C86_full_false"
   ],
   "note": "The full statement is false (C86_full_false): the default bit field iterators, with their empty layout, crash at the first call (C86_iterators_partial). All other parts are proved."
  },
  {
   "property": "C87",
   "status": "partial",
   "theorems": [
    "Dmi.Props.C87_device_partial",
    "Dmi.Props.C87_element_partial",
    "Dmi.Props.C87_peers_partial",
    "Dmi.Props.C87_full_false",
    "Dmi.Props.C87_round_trip",
    "Dmi.Props.C87_version"
   ],
   "note": "The full statement about memory safety is false (C87_full_false); C87_device_partial, C87_element_partial and C87_peers_partial are the exact extent. The round trip and the version are proved."
  },
  {
   "property": "C88",
   "status": "partial",
   "theorems": [
    "Dmi.Props.C88_same",
    "Dmi.Props.C88_longer_partial",
    "Dmi.Props.C88_full_false",
    "Dmi.Props.C88_area_partial",
    "Dmi.Props.C88_errors",
    "Dmi.Props.C88_not_found"
   ],
   "note": "The full statement is false (C88_full_false), because the length of the rest of the image is truncated to a byte; C88_longer_partial and C88_area_partial say exactly when. The other parts are proved."
  },
  {
   "property": "C89",
   "status": "proved",
   "theorems": [
    "Dmi.Props.C89_next",
    "Dmi.Props.C89_runs",
    "Dmi.Props.C89_complete",
    "Dmi.Props.C89_front",
    "Dmi.Props.C89_edit",
    "Dmi.Props.C89_order"
   ],
   "note": "C89_next is one call, C89_runs and C89_complete whole iterations, C89_front, C89_edit and C89_order the edited tables. Room is needed below 2^32, where the offsets wrap (C15)."
  },
  {
   "property": "C90",
   "status": "proved",
   "theorems": [
    "Dmi.Props.C90_linear",
    "Dmi.Props.C90_same",
    "Dmi.Props.C90_table",
    "Dmi.Props.C90_string",
    "Dmi.Props.C90_search",
    "Dmi.Props.C90_each",
    "Dmi.Props.C90_exact",
    "Dmi.Props.C90_search_exact"
   ],
   "note": "C90_linear bounds the loop of find_nulnul over a run, C90_same says that the counted run is the run of the iterator, C90_table is both for the iterator of an entry point. C90_string and C90_search are the lookups. C90_each, C90_exact and C90_search_exact give the counts themselves. How often a decoder looks up a string is counted in C97."
  },
  {
   "property": "C91",
   "status": "proved",
   "theorems": [
    "Dmi.Props.C91_structure",
    "Dmi.Props.C91_raw",
    "Dmi.Props.C91_malformed",
    "Dmi.Props.C91_entry_error",
    "Dmi.Props.C91_entry_point",
    "Dmi.Props.C91_iterator",
    "Dmi.Props.C91_info",
    "Dmi.Props.C91_results",
    "Dmi.Props.C91_parts",
    "Dmi.Props.C91_info_text",
    "Dmi.Props.C91_error_texts",
    "Dmi.Props.C91_integers",
    "Dmi.Props.C91_error_integers",
    "Dmi.Props.C91_bitfield",
    "Dmi.Props.C91_range",
    "Dmi.Props.C91_flag"
   ],
   "note": "Tells f: equal texts in either form imply equal values. Names of types, variants, fields and flags are generated from the Rust text; the formatting is that of core::fmt::builders, bitflags 2 and uuid 1. C91_info_text ties the names to those of C63. C91_flag is exact."
  },
  {
   "property": "C92",
   "status": "proved",
   "theorems": [
    "Dmi.Props.C92_line",
    "Dmi.Props.C92_lines",
    "Dmi.Props.C92_string"
   ],
   "note": "HidesControls says of the standard library's table that control characters are shown by number; C92_string does not need it."
  },
  {
   "property": "C93",
   "status": "proved",
   "theorems": [
    "Dmi.Props.C93_structure",
    "Dmi.Props.C93_items",
    "Dmi.Props.C93_entry",
    "Dmi.Props.C93_accepted",
    "Dmi.Props.C93_field_types"
   ],
   "note": "InTable: reported by some run over some buffer below 4 GiB. What is written is that of a little-endian host; the bytes that some versions of the crate uuid write before a UUID are a parameter. Values are those of the 64-bit model, also where bytes are counted for another width of usize (C79)."
  },
  {
   "property": "C94",
   "status": "partial",
   "theorems": [
    "Dmi.Props.C94_prefix_partial",
    "Dmi.Props.C94_sequence_partial",
    "Dmi.Props.C94_last_partial",
    "Dmi.Props.C94_full_false"
   ],
   "note": "The full statement (C94_full) is false of the code (C94_full_false); C94_prefix_partial and C94_sequence_partial prove it for all structures but enclosures and event logs with lists (C94_last_partial: the last structure of a sequence may be any)."
  },
  {
   "property": "C95",
   "status": "proved",
   "theorems": [
    "Dmi.Props.C95_fields",
    "Dmi.Props.C95_signature",
    "Dmi.Props.C95_same_bytes"
   ],
   "note": "C95_fields gives every field of both formats by absolute offset; C95_signature and C95_same_bytes follow from the offsets."
  },
  {
   "property": "C96",
   "status": "partial",
   "theorems": [
    "Dmi.Props.C96_intermediate_partial",
    "Dmi.Props.C96_full_false",
    "Dmi.Props.C96_sum_false"
   ],
   "note": "The full statement (C96_full) is false of the code (C96_full_false: a wrong anchor is accepted, C96_sum_false: a wrong sum is accepted); C96_intermediate_partial is what is checked."
  },
  {
   "property": "C97",
   "status": "proved",
   "theorems": [
    "Dmi.Props.C97_decode",
    "Dmi.Props.C97_linear",
    "Dmi.Props.C97_same",
    "Dmi.Props.C97_table",
    "Dmi.Props.C97_strings",
    "Dmi.Props.C97_exact",
    "Dmi.Props.C97_lookup",
    "Dmi.Props.C97_reached",
    "Dmi.Props.C97_options",
    "Dmi.Props.C97_whole",
    "Dmi.Props.C97_strings_exact"
   ],
   "note": "The counted decoders are generated from the text of the model's decoders with the lookups replaced; C97_decode and C97_same say that they compute the same. Reads of numbers by offset count as no work. C97_exact, C97_lookup and C97_options give the counts themselves, for decoding that succeeds and string sets of well-formed strings; C97_strings_exact does for listing the strings and C97_whole sums them over a table of complete structures, decoded or not; C97_reached shows that the bound is reached. InstallableLanguages looks up each language anew, see C98."
  },
  {
   "property": "C98",
   "status": "proved",
   "theorems": [
    "Dmi.Props.C98_same",
    "Dmi.Props.C98_bound",
    "Dmi.Props.C98_quadratic"
   ],
   "note": "The bound is per run that ends; C43 says which do. The statement is about the work of the code as it is, it does not say that it should be less."
  },
  {
   "property": "C99",
   "status": "partial",
   "theorems": [
    "Dmi.Props.C99_codes",
    "Dmi.Props.C99_values",
    "Dmi.Props.C99_flags",
    "Dmi.Props.C99_errors",
    "Dmi.Props.C99_voltage",
    "Dmi.Props.C99_battery",
    "Dmi.Props.C99_battery_partial",
    "Dmi.Props.C99_full_false"
   ],
   "note": "False for batteries (C99_full_false: a serial number with an escape sequence) and for the description of one flag (C99_flags says which). C99_codes, C99_values, C99_errors and C99_flags cover all other types; C99_voltage allows the trailing space."
  },
  {
   "property": "C100",
   "status": "partial",
   "theorems": [
    "Dmi.Props.C100_structure",
    "Dmi.Props.C100_partial",
    "Dmi.Props.C100_character",
    "Dmi.Props.C100_length",
    "Dmi.Props.C100_full_false"
   ],
   "note": "The full statement is false (C100_full_false: a length of 7 instead of 4 swallows the next structure). C100_partial is about any other byte, C100_character about characters, C100_length about lengths that leave the end of the structure where it is, C100_structure about whole structures. A damaged structure that crashes the decoder (C80) is excluded by the hypothesis that it decodes to an item."
  },
  {
   "property": "C101",
   "status": "partial",
   "theorems": [
    "Dmi.Props.C101_partial",
    "Dmi.Props.C101_exact",
    "Dmi.Props.C101_full_false"
   ],
   "note": "The full statement is false (C101_full_false: a memory device of a 2.1 table with the extended speed of 3.3). C101_partial holds for the types and versions of VersionChecked, C101_exact shows that each type and version left out has a counterexample. The defining versions are written from DSP0134 from memory; the standard gives none for baseboards, so their optional fields are not constrained."
  },
  {
   "property": "C102",
   "status": "partial",
   "theorems": [
    "Dmi.Props.C102_partial",
    "Dmi.Props.C102_hidden",
    "Dmi.Props.C102_iff",
    "Dmi.Props.C102_decoy",
    "Dmi.Props.C102_full_false"
   ],
   "note": "The full statement is false (C102_full_false: a paragraph with an anchor and zeros before a valid entry point, 47 bytes in all). C102_hidden and C102_decoy say how much is hidden, C102_partial and C102_iff when an entry point is returned."
  },
  {
   "property": "C103",
   "status": "proved",
   "theorems": [
    "Dmi.Props.C103_version_and_length",
    "Dmi.Props.C103_count_not_obeyed"
   ],
   "note": "C103_version_and_length is about entry points of both formats, C103_count_not_obeyed about 32-bit ones, which alone declare a number and a size."
  },
  {
   "property": "C104",
   "status": "partial",
   "theorems": [
    "Dmi.Props.C104_partial",
    "Dmi.Props.C104_unnoticed",
    "Dmi.Props.C104_length_only",
    "Dmi.Props.C104_buffer_only",
    "Dmi.Props.C104_full_false"
   ],
   "note": "The full statement is false (C104_full_false, and C104_unnoticed says exactly when). C104_partial is about a table and buffer that are cut alike, C104_length_only and C104_buffer_only about one of both; together they say what happens for every place of the cut."
  },
  {
   "property": "C105",
   "status": "proved",
   "theorems": [
    "Dmi.Props.C105_iter",
    "Dmi.Props.C105_significants",
    "Dmi.Props.C105_reserved",
    "Dmi.Props.C105_iter_hash",
    "Dmi.Props.C105_reserved_hash",
    "Dmi.Props.C105_items_hash",
    "Dmi.Props.C105_width"
   ],
   "note": "C105_iter, C105_significants and C105_reserved are about debug texts, C105_width says what they leave out; C105_iter_hash (also for Significants, a newtype that writes the same), C105_reserved_hash and C105_items_hash are about hashing. Compared are values of the same type, as by PartialEq."
  },
  {
   "property": "C106",
   "status": "partial",
   "theorems": [
    "Dmi.Props.C106_checked_partial",
    "Dmi.Props.C106_progress",
    "Dmi.Props.C106_structure",
    "Dmi.Props.C106_cut_off",
    "Dmi.Props.C106_endless",
    "Dmi.Props.C106_full_false"
   ],
   "note": "The full statement is false without overflow checks (C106_full_false; C106_endless gives a family of tables). C106_checked_partial proves it with overflow checks for every buffer; C08 proves it in both profiles below 4 GiB. C106_structure and C106_cut_off are about what is reported."
  },
  {
   "property": "C107",
   "status": "proved",
   "theorems": [
    "Dmi.Props.C107_verdict",
    "Dmi.Props.C107_accepts",
    "Dmi.Props.C107_rejects",
    "Dmi.Props.C107_next",
    "Dmi.Props.C107_items"
   ],
   "note": "The table is `troubles` in Props/Verdict.lean. C107_verdict proves it decides; C107_accepts and C107_rejects read it in both directions, C107_next and C107_items carry it to the iterator. That memory beyond the end is read is an outcome here (readsOut), as in C69."
  },
  {
   "property": "C108",
   "status": "partial",
   "theorems": [
    "Dmi.Props.C108_conforming_partial",
    "Dmi.Props.C108_exceptions",
    "Dmi.Props.C108_table_partial",
    "Dmi.Props.C108_exceptions_occur",
    "Dmi.Props.C108_full_false"
   ],
   "note": "The full statement is false (C108_full_false). C108_conforming_partial proves it for every conforming structure that is none of the four exceptions, C108_exceptions that these are never decoded, C108_exceptions_occur that each kind exists, C108_table_partial is about whole tables. The lengths and string fields of DSP0134 are written down from memory, as in C58."
  },
  {
   "property": "C109",
   "status": "proved",
   "theorems": [
    "Dmi.Props.C109_one_reading",
    "Dmi.Props.C109_ended",
    "Dmi.Props.C109_panicked",
    "Dmi.Props.C109_overread"
   ],
   "note": "The item of a structure is the outcome of its decoder, described by C29-C52, C82 and C107. Buffers of more than 4 GiB - 256 bytes are the subject of C106."
  },
  {
   "property": "C110",
   "status": "proved",
   "theorems": [
    "Dmi.Props.C110_same",
    "Dmi.Props.C110_each_step",
    "Dmi.Props.C110_future",
    "Dmi.Props.C110_next",
    "Dmi.Props.C110_table"
   ],
   "note": "C110_same for any two versions, C110_each_step that no listed version can be left out, C110_future, C110_next and C110_table for versions from 3.2 on."
  },
  {
   "property": "C111",
   "status": "proved",
   "theorems": [
    "Dmi.Props.C111_stored32",
    "Dmi.Props.C111_stored64",
    "Dmi.Props.C111_entry32",
    "Dmi.Props.C111_entry64",
    "Dmi.Props.C111_errors"
   ],
   "note": "C111_entry32 and C111_entry64 are equivalences for each value, C111_errors for each error; C111_stored32 and C111_stored64 give the bytes. The fields that are byte arrays in the code are lists in the model, so their length is part of the description."
  },
  {
   "property": "C112",
   "status": "proved",
   "theorems": [
    "Dmi.Props.C112_errors"
   ],
   "note": "One equivalence; TableError in Props/TableErrors.lean is the list. Larger buffers, where offsets wrap, are the subject of C106."
  },
  {
   "property": "C113",
   "status": "proved",
   "theorems": [
    "Dmi.Props.C113_values",
    "Dmi.Props.C113_flawless"
   ],
   "note": "C113_values for given values, C113_flawless for the bytes alone."
  },
  {
   "property": "C114",
   "status": "partial",
   "theorems": [
    "Dmi.Props.C114_partial",
    "Dmi.Props.C114_status",
    "Dmi.Props.C114_misnamed",
    "Dmi.Props.C114_full_false"
   ],
   "note": "The full statement is false (C114_full_false): a processor disabled by the firmware (state 3) is shown as CPU_ENABLED | CPU_DISABLED_BY_USER (C114_misnamed), and CPU_DISABLED_BY_BIOS and CPU_OTHER are never shown. C114_partial proves it for the six flag types in which every flag is a bit; C114_status says what is shown for the status of a processor. The flag RESERVED of memory devices has no bit in the code and is never shown."
  }
 ]
}
