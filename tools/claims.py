def thms(prefix, exclude=()):
    """Names of all theorems under Props beginning with `prefix`."""
    have = []
    for fn in sorted(os.listdir(ROOT + "/lean/Verif/Props")):
        src = open(os.path.join(ROOT, "lean/Verif/Props", fn)).read()
        have += re.findall(r"^theorem (%s[\w']*)" % prefix, src, re.M)
    return have
claim("C01", "proved", ["C01_accepted_is_genuine"], "Ok implies: first aligned anchor, well-formed entry point inside the buffer, accessors equal the stored fields.")
claim("C02", "proved", ["C02_search_no_fault"], "")
claim("C03", "proved", ["C03_notFound_iff", "C03_badSize_iff", "C03_tooOld_iff", "C03_badChecksum_iff"], "")
claim("C04", "partial", ["C04_valid_accepted_partial", "C04_valid_accepted_short", "C04_valid_accepted_false"], "Full statement (C04_full) is false of the code: `sub_buffer.len() as u8` truncation; negation proved with a 256-byte witness, exact acceptance condition proved.")
claim("C05", "proved", ["C05_relocation"], "")
claim("C06", "proved", ["C06_corruption_detected"], "")
claim("C07", "proved", ["C07_version_lex", "C07_version_total_order", "C07_version_of_pair"], "")
claim("C19", "proved", ["C19_find_string", "C19_find_string_any"], "For encoded string lists and, declaratively, for arbitrary string areas. UTF-8 is specified by Lean's own character encoder.")
claim("C20", "proved", ["C20_strings", "C20_strings_total", "C20_strings_contiguous", "C20_not_fused"], "Iteration is understood as calling next until the first None; the iterator is not fused after an invalid segment (C20_not_fused).")
claim("C21", "proved", ["C21_get", "C21_get_below", "C21_get_overflow"], "Includes the exact behaviour below offset 4 and at offsets where the usize addition overflows.")
claim("C22", "proved", ["C22_get_slice", "C22_get_string"], "")
claim("C08", "proved", ["C08_items_bounded", "C08_terminates", "C08_progress"], "")
claim("C09", "proved", ["C09_none_final", "C09_error_final", "C09_forever"], "")
claim("C10", "proved", ["C10_end_stops", "C10_end_is_last", "C10_v2_continues"], "For buffers at least four bytes short of 4 GiB (beyond that the 32-bit cursor arithmetic overflows).")
claim("C11", "proved", ["C11_tiling", "C11_prefix"], "")
claim("C12", "proved", ["C12_round_trip", "C12_round_trip_end"], "The items are the decodings of the encoded structures; for types without decoder this is the structure itself (decoded_other).")
claim("C13", "proved", ["C13_strings_end"], "")
claim("C15", "partial", ["C15_no_fault_iff_partial", "C15_no_fault_partial", "C15_full_false", "C15_out_of_bounds"], "Full statement false of the code; exact fault condition and both kinds of fault proved.")
claim("C16", "partial", thms("C16_"), "Full statement false of the code: the string area is not bounded by the declared table length. C16_inside_iff says exactly which structures are inside, C16_outside_is_last that nothing follows one that is not.")
claim("C17", "proved", ["C17_bad_structure_isolated"], "")
claim("C18", "proved", ["C18_dispatch", "C18_unsupported_verbatim"], "")
claim("C56", "proved", ["C56_local"], "")
claim("C24", "proved", ["C24_iter", "C24_then_none", "C24_short_layout_panics", "C24_debug"], "For every value type of at most 128 bits and every layout that is long enough.")
claim("C25", "proved", ["C25_significants", "C25_crate"], "")
claim("C26", "proved", ["C26_collect", "C26_round_trip", "C26_too_large", "C26_wraps"], "Includes the panic, or the wrap without overflow checks, for positions outside the integer.")
claim("C27", "partial", ["C27_reserved_partial", "C27_reserved_exact", "C27_crate_layouts", "C27_crate", "C27_full_false"], "General statement false of the code (one-bit group after another reserved group); exact behaviour proved for every layout; the statement holds for every layout the crate defines (C27_crate).")
claim("C28", "proved", ["C28_layouts_complete", "C28_no_unknown"], "")
claim("C23", "proved", ["C23_info_type", "C23_injective"], "")
claim("C36", "proved", ["C36_family", "C36_family_injective", "C36_family8_injective", "C36_voltage", "C36_voltage_injective"], "Injectivity does not depend on where the family names come from; the table itself was generated from the crate and reviewed from memory (see C58).")
claim("C46", "partial", ["C46_event_log_type", "C46_event_log_type_inverse", "C46_event_log_type_inverse'", "C46_variable_data_format", "C46_variable_data_format_inverse", "C46_descriptor_inverse", "C46_system_management", "C46_system_management_injective", "C46_access_method", "C46_access_vendor", "C46_access_address_partial", "C46_access_address_full_false"], "All conversions proved lossless except access addresses, where the full statement is false of the code; the kept bytes are proved exactly.")
claim("C53", "partial", ["C53_system_WakeupType_injective", "C53_baseboard_BoardType_injective", "C53_enclosure_EnclosureType_injective", "C53_enclosure_State_injective", "C53_enclosure_SecurityStatus_injective", "C53_processor_ProcessorType_injective", "C53_processor_ProcessorUpgrade_injective", "C53_cache_CacheErrorCorrectionType_injective", "C53_cache_SystemCacheType_injective", "C53_cache_CacheAssociativity_injective", "C53_port_connector_ConnectorType_injective", "C53_port_connector_PortType_injective", "C53_system_slots_SlotWidth_injective", "C53_system_slots_CurrentUsage_injective", "C53_system_slots_SlotLength_injective", "C53_physical_memory_array_MemoryArrayUse_injective", "C53_physical_memory_array_MemoryArrayErrorCorrectionTypes_injective", "C53_memory_device_ErrorGranularity_injective", "C53_memory_device_ErrorOperation_injective", "C53_memory_device_ErrorType_injective", "C53_memory_device_MemoryTechnology_injective", "C53_memory_error_32_ErrorType_injective", "C53_memory_error_32_ErrorGranularity_injective", "C53_memory_error_32_ErrorOperation_injective", "C53_built_in_pointing_device_DeviceType_injective", "C53_built_in_pointing_device_Interface_injective", "C53_system_event_log_LogHeaderFormat_injective", "C53_ContainedElementType_injective", "C53_MemoryArrayLocation_injective", "C53_SlotType_injective_partial", "C53_SlotType_collisions", "C53_FormFactor_injective_partial", "C53_FormFactor_collision", "C53_MemoryType_injective_partial", "C53_MemoryType_injective_full_false"], "Proved for every enumeration; false for slot types (four colliding pairs), form factors (8 and 9) and memory types (15h-17h), where negation/collision and the exact exception are proved.")
claim("C58", "partial", ["C53_system_WakeupType", "C53_baseboard_BoardType", "C53_enclosure_EnclosureType", "C53_enclosure_State", "C53_enclosure_SecurityStatus", "C53_processor_ProcessorType", "C53_processor_ProcessorUpgrade", "C53_cache_CacheErrorCorrectionType", "C53_cache_SystemCacheType", "C53_cache_CacheAssociativity", "C53_port_connector_ConnectorType", "C53_port_connector_PortType", "C53_system_slots_SlotWidth", "C53_system_slots_CurrentUsage", "C53_system_slots_SlotLength", "C53_physical_memory_array_MemoryArrayUse", "C53_physical_memory_array_MemoryArrayErrorCorrectionTypes", "C53_memory_device_ErrorGranularity", "C53_memory_device_ErrorOperation", "C53_memory_device_ErrorType", "C53_memory_device_MemoryTechnology", "C53_memory_error_32_ErrorType", "C53_memory_error_32_ErrorGranularity", "C53_memory_error_32_ErrorOperation", "C53_built_in_pointing_device_DeviceType", "C53_built_in_pointing_device_Interface", "C53_system_event_log_LogHeaderFormat", "C53_memory_device_MemoryType", "C53_SlotType_partial", "C53_SlotType_full_false", "C53_SlotType_never_u2", "C53_FormFactor_partial", "C53_FormFactor_shifted", "C53_FormFactor_full_false", "C53_MemoryArrayLocation_partial", "C53_MemoryArrayLocation_full_false", "C23_info_type", "C36_family", "C46_event_log_type"], "Reference tables generated from the crate and reviewed from memory of DSP0134, not compared with the document: agreement is not independent evidence of conformance. Deviations of slot type (supported by the crate's own unused variants), form factor and array location (recollection) proved.")
claim("C29", "proved", ["C29_decodes", "C29_rejects", "C29_short"], "Structures shorter than the fixed part of their version are read out of bounds (C29_short); decoding is exact otherwise.")
claim("C30", "partial", ["C30_rom_size_partial", "C30_full_false"], "Full statement (C30_full) false of the code; negation and exact result proved.")
claim("C31", "proved", ["C31_decodes", "C31_rejects", "C31_short", "C31_uuid_recoverable"], "Short structures are read out of bounds (C31_short).")
claim("C32", "partial", ["C32_decodes_partial", "C32_rejects", "C32_short", "C32_full_false"], "Full statement (C32_full) false of the code; negation and exact condition proved. What the out of bounds read returns is the subject of C68.")
claim("C35", "partial", ["C35_decodes", "C35_decodes_partial", "C35_rejects", "C35_short", "C35_full_false"], "Full statement (C35_full) false of the code; the exact decoding is proved (C35_decodes).")
claim("C37", "partial", ["C37_decodes", "C37_decodes_partial", "C37_rejects", "C37_faults", "C37_full_false"], "Full statement (C37_full) false of the code; the exact decoding and fault conditions are proved.")
claim("C38", "proved", ["C38_configuration", "C38_configuration_unique", "C38_size", "C38_size2", "C38_bytes", "C38_size_injective"], "")
claim("C39", "proved", ["C39_decodes", "C39_rejects", "C39_short"], "Short structures are read out of bounds (C39_short).")
claim("C42", "proved", ["C42_oem", "C42_options", "C42_options_short"], "")
claim("C43", "partial", ["C43_decodes", "C43_short", "C43_languages_partial", "C43_panics", "C43_endless", "C43_full_false"], "Iteration is complete up to 253 strings (254 without overflow checks); beyond, the panic and the endless repetition are proved. The decode part is complete.")
claim("C44", "proved", ["C44_decodes", "C44_short"], "For structures whose length byte agrees with the data, as the table iterator yields them.")
claim("C33", "proved", ["C33_decodes", "C33_rejects", "C33_short", "C33_type_lossless"], "")
claim("C34", "partial", thms("C34_"), "Full statement (C34_full) false of the code; the overflow and the out of bounds read of short records are proved. C34_listed and C34_overreads say exactly what is listed for every decoded structure.")
claim("C47", "partial", ["C47_decodes", "C47_short", "C47_old", "C47_decodes_partial", "C47_full_false", "C47_2_7_false"], "Full statement (C47_full) false of the code at versions 2.1 and 2.7 and for short structures; the exact decoding is proved (C47_decodes).")
claim("C48", "partial", ["C48_decodes", "C48_rejects", "C48_short", "C48_full_false"], "Full statement (C48_full) false of the code: 15h..1Fh bytes are rejected; the exact decoding is proved.")
claim("C49", "proved", ["C49_decodes", "C49_rejects"], "")
claim("C50", "proved", ["C50_array_decodes", "C50_array_rejects", "C50_array_extended", "C50_device_decodes", "C50_device_rejects", "C50_device_extended"], "")
claim("C51", "proved", ["C51_decodes", "C51_rejects"], "")
claim("C52", "partial", ["C52_decodes", "C52_rejects", "C52_capacity_partial", "C52_capacity_overflow", "C52_capacity_full_false"], "Decoding is proved completely; the capacity conversion (C52_capacity_full) is false of the code above 65535 mWh, where its result is proved exactly.")
claim("C40", "proved", ["C40_decodes", "C40_rejects"], "The offsets after the peer groups are those of version 3.4 of the specification as quoted by the crate (14h+5n); the crate itself suspects them to be one too large.")
claim("C41", "proved", ["C41_split", "C41_device", "C41_peers"], "")
claim("C45", "partial", ["C45_decodes", "C45_rejects", "C45_accepts", "C45_panics", "C45_descriptors_partial", "C45_other_lengths", "C45_full_false"], "Full statement (C45_full) false of the code: descriptors of length 0 panic and of lengths other than 2 yield nothing, both proved; decoding is exact otherwise.")
claim("C14", "proved", ["C14_bad_size", "C14_unterminated"], "For cursors at least 256 bytes below 4 GiB, with the header inside table and buffer.")
claim("C54", "proved", ["C54_decoders", "C54_no_fault", "C54_no_fault_end"], "The minimum per type is Enough.")
claim("C55", "proved", ["C55_memory_safe"], "About decoding; iterating the contained elements of a decoded enclosure is C34.")
claim("C57", "partial", ["C57_handle_partial", "C57_old_array", "C57_full_false"], "Full statement (C57_full) false of the code for physical memory arrays up to version 2.1, which report handle 0 (C57_old_array).")

claim("C59", "partial", thms("C59_"), "Proved for every enumeration; false for three, where the negation and the exact exception are proved.")
claim("C60", "proved", thms("C60_"), "The labels that differ from the variant name are listed in the theorems, including the code's own slip 'I/O channel block' for IoChannelCheck in the plain form.")
claim("C61", "proved", thms("C61_"), "")
claim("C62", "partial", thms("C62_"), "The full statements (C62_Voltage_legacy_full, C62_SlotPitch_full) are false of the code; negations and the exact output are proved.")
claim("C63", "partial", thms("C63_"), "Injective for all entry point errors and all errors of the decoders (C63_decoders); the full statement about arbitrary values of the public type is false (C63_malformed_full_false).")
claim("C64", "partial", thms("C64_"), "Full statement (C64_full) false of the code for four structure types (C64_exempt); proved for all others, and naming for all. C64_exact says exactly which errors are untrue.")
claim("C65", "proved", thms("C65_"), "For non-zero chunk sizes, which all constructed values have (C65_sizes); that equal hash input means equal values (C65_hash_faithful) holds for every width n of usize and assumes slices shorter than 2^n bytes, as all are.")
claim("C66", "partial", thms("C66_"), "Full statement (C66_full) false of the code for bits 0 and 1 of the BIOS characteristics; everything else is proved, also for these two bits what is shown.")
claim("C67", "partial", thms("C67_"), "The full statements for the processor status (C67_status_full) and the reserved flags of memory devices (C67_reserved_full) are false of the code; their exact behaviour and all other flags are proved.")
claim("C68", "partial", thms("C68_"), "Full statement (C68_full) false of the code: C68_full_false, C68_baseboard_torn. Agreement with the strict model, definedness and the two cases met in the crate's test data are proved.")
claim("C69", "proved", thms("C69_"), "For tables whose declared length is the length of the well-formed structures; C54 allows other declared lengths.")
claim("C70", "partial", thms("C70_"), "The full statement C70_full (appending bytes never makes a structure undecodable) is refuted by C70_full_false: C70_rejected shows that every decodable structure that must have an exact length is rejected once it is longer. Proved for all other structures: C70_ignored_partial, C70_language, C70_group. C70_decodable_iff: these are exactly those that stay decodable.")
claim("C71", "partial", thms("C71_"), "Full statement (C71_full) false of the code for elements of length 0 (C71_empty_records, C71_full_false); C71_count_iff says exactly when it holds.")
claim("C72", "partial", thms("C72_"), "The full statement (C72_full) is false of the code for BIOS languages before 2.1 (C72_full_false) and memory arrays before 2.2 (C72_array_false); C72_extends_partial proves it for everything else. C72_language_iff and C72_array_iff say exactly for which of these it holds.")
claim("C73", "partial", thms("C73_"), "The full statement (C73_full) is false of the code for images whose rest is, modulo 256, shorter than the entry point (C73_full_false, see C04); proved for all others and both formats, and C73_iff, C73_iff64 say that it holds for no other image.")
claim("C74", "proved", thms("C74_"), "Iterators up to their first None; C20_not_fused shows what StructureStrings does after it.")
claim("C75", "proved", thms("C75_"), "usize is 64-bit here; C79 is about other widths. Constant arithmetic that cannot overflow is not parameterised by the profile (see the comments in the model).")
claim("C76", "proved", thms("C76_"), "Texts are compared as reported (C74 says where they come from); types the crate does not decode are compared as raw structures.")
claim("C77", "partial", thms("C77_"), "The full statement (C77_full) is false of the code for memory arrays before 2.2 (C77_full_false, C77_old_array); C77_handle_partial proves it for everything else.")
claim("C78", "partial", thms("C78_"), "The full statement (C78_full) is false of the code in both parts (C78_full_false). Proved: the exact difference between the hosts, for search (C78_search_partial), decoding (C78_outcome, C78_value), iteration (C78_next, C78_iteration) and devices (C78_device). A big-endian host is modelled by reversing the integers that are copied without conversion (Model/BigEndian).")
claim("C79", "proved", thms("C79_"), "C79_narrow_raw, C79_narrow_next and C79_narrow_stream are about Model/Narrow, where the casts from u32 to usize truncate; the other theorems index by the u32 itself. C79_other_hosts assumes exact casts. usize computations that cannot overflow are done in Nat (see the comments in the model). The derived Debug prints the hidden chunk length (C79_shown).")
claim("C80", "partial", thms("C80_"), "The full statement is false (C80_full_false); C80_partial is the exact extent: usable if and only if none of the four hazards is in the bytes. Formatting cannot fail in the model and is not included.")
claim("C81", "partial", thms("C81_"), "The full statement is false (C81_full_false); C81_partial is the exact extent: the iterators of a decoded structure stay ended if and only if it is not one of those described by Resumes.")
claim("C82", "proved", thms("C82_"), "C82_table and C82_iteration connect the description with iterations; a value whose texts need a structure of more than 4 GiB is in no table, which the descriptions by field do not mention. BIOS languages keep the whole structure and are described through it. The hidden chunk length of an empty list of contained elements is that of a 64-bit host (C79).")
claim("C83", "proved", thms("C83_"), "C83_texts covers all outcomes; C83_same is the case of equal strings. The examples show that the number of strings does matter.")
claim("C84", "proved", thms("C84_"), "C84_equality is the exact condition, C84_laws the laws, C84_bytes the connection with the stored bytes (C76). Which bytes the derived Hash writes for the other fields is left open here (any function of them); C93 says which.")
claim("C85", "proved", thms("C85_"), "C85_cut compares with a complete iteration, C85_runs with runs that may crash later; C85_behind is the case of an equal declared length. A part shorter than its declared length can be read out of bounds (C15); such reads are no items of a run.")
claim("C86", "partial", thms("C86_"), "The full statement is false (C86_full_false): the default bit field iterators, with their empty layout, crash at the first call (C86_iterators_partial). All other parts are proved.")
claim("C87", "partial", thms("C87_"), "The full statement about memory safety is false (C87_full_false); C87_device_partial, C87_element_partial and C87_peers_partial are the exact extent. The round trip and the version are proved.")
claim("C88", "partial", thms("C88_"), "The full statement is false (C88_full_false), because the length of the rest of the image is truncated to a byte; C88_longer_partial and C88_area_partial say exactly when. The other parts are proved.")
claim("C89", "proved", thms("C89_"), "C89_next is one call, C89_runs and C89_complete whole iterations, C89_front, C89_edit and C89_order the edited tables. Room is needed below 2^32, where the offsets wrap (C15).")
claim("C90", "proved", thms("C90_"), "C90_linear bounds the loop of find_nulnul over a run, C90_same says that the counted run is the run of the iterator, C90_table is both for the iterator of an entry point. C90_string and C90_search are the lookups. C90_each, C90_exact and C90_search_exact give the counts themselves. How often a decoder looks up a string is counted in C97.")
claim("C91", "proved", thms("C91_"), "Tells f: equal texts in either form imply equal values. Names of types, variants, fields and flags are generated from the Rust text; the formatting is that of core::fmt::builders, bitflags 2 and uuid 1. C91_info_text ties the names to those of C63. C91_flag is exact.")
claim("C92", "proved", thms("C92_"), "HidesControls says of the standard library's table that control characters are shown by number; C92_string does not need it.")
claim("C93", "proved", thms("C93_"), "InTable: reported by some run over some buffer below 4 GiB. What is written is that of a little-endian host; the bytes that some versions of the crate uuid write before a UUID are a parameter. Values are those of the 64-bit model, also where bytes are counted for another width of usize (C79).")
claim("C94", "partial", thms("C94_"), "The full statement (C94_full) is false of the code (C94_full_false); C94_prefix_partial and C94_sequence_partial prove it for all structures but enclosures and event logs with lists (C94_last_partial: the last structure of a sequence may be any).")
claim("C95", "proved", thms("C95_"), "C95_fields gives every field of both formats by absolute offset; C95_signature and C95_same_bytes follow from the offsets.")
claim("C96", "partial", thms("C96_"), "The full statement (C96_full) is false of the code (C96_full_false: a wrong anchor is accepted, C96_sum_false: a wrong sum is accepted); C96_intermediate_partial is what is checked.")
claim("C97", "proved", thms("C97_"), "The counted decoders are generated from the text of the model's decoders with the lookups replaced; C97_decode and C97_same say that they compute the same. Reads of numbers by offset count as no work. C97_exact, C97_lookup and C97_options give the counts themselves, for decoding that succeeds and string sets of well-formed strings; C97_strings_exact does for listing the strings and C97_whole sums them over a table of complete structures, decoded or not; C97_reached shows that the bound is reached. InstallableLanguages looks up each language anew, see C98.")
claim("C98", "proved", thms("C98_"), "The bound is per run that ends; C43 says which do. The statement is about the work of the code as it is, it does not say that it should be less.")
claim("C99", "partial", thms("C99_"), "False for batteries (C99_full_false: a serial number with an escape sequence) and for the description of one flag (C99_flags says which). C99_codes, C99_values, C99_errors and C99_flags cover all other types; C99_voltage allows the trailing space.")
claim("C100", "partial", thms("C100_"), "The full statement is false (C100_full_false: a length of 7 instead of 4 swallows the next structure). C100_partial is about any other byte, C100_character about characters, C100_length about lengths that leave the end of the structure where it is, C100_structure about whole structures. A damaged structure that crashes the decoder (C80) is excluded by the hypothesis that it decodes to an item.")
claim("C101", "partial", thms("C101_"), "The full statement is false (C101_full_false: a memory device of a 2.1 table with the extended speed of 3.3). C101_partial holds for the types and versions of VersionChecked, C101_exact shows that each type and version left out has a counterexample. The defining versions are written from DSP0134 from memory; the standard gives none for baseboards, so their optional fields are not constrained.")
claim("C102", "partial", thms("C102_"), "The full statement is false (C102_full_false: a paragraph with an anchor and zeros before a valid entry point, 47 bytes in all). C102_hidden and C102_decoy say how much is hidden, C102_partial and C102_iff when an entry point is returned.")
claim("C103", "proved", thms("C103_"), "C103_version_and_length is about entry points of both formats, C103_count_not_obeyed about 32-bit ones, which alone declare a number and a size.")
claim("C104", "partial", thms("C104_"), "The full statement is false (C104_full_false, and C104_unnoticed says exactly when). C104_partial is about a table and buffer that are cut alike, C104_length_only and C104_buffer_only about one of both; together they say what happens for every place of the cut.")
claim("C105", "proved", thms("C105_"), "C105_iter, C105_significants and C105_reserved are about debug texts, C105_width says what they leave out; C105_iter_hash (also for Significants, a newtype that writes the same), C105_reserved_hash and C105_items_hash are about hashing. Compared are values of the same type, as by PartialEq.")
claim("C106", "partial", thms("C106_"), "The full statement is false without overflow checks (C106_full_false; C106_endless gives a family of tables). C106_checked_partial proves it with overflow checks for every buffer; C08 proves it in both profiles below 4 GiB. C106_structure and C106_cut_off are about what is reported.")
claim("C107", "proved", thms("C107_"), "The table is `troubles` in Props/Verdict.lean. C107_verdict proves it decides; C107_accepts and C107_rejects read it in both directions, C107_next and C107_items carry it to the iterator. That memory beyond the end is read is an outcome here (readsOut), as in C69.")
claim("C108", "partial", thms("C108_"), "The full statement is false (C108_full_false). C108_conforming_partial proves it for every conforming structure that is none of the four exceptions, C108_exceptions that these are never decoded, C108_exceptions_occur that each kind exists, C108_table_partial is about whole tables. The lengths and string fields of DSP0134 are written down from memory, as in C58.")
claim("C109", "proved", thms("C109_"), "The item of a structure is the outcome of its decoder, described by C29-C52, C82 and C107. Buffers of more than 4 GiB - 256 bytes are the subject of C106.")
claim("C110", "proved", thms("C110_"), "C110_same for any two versions, C110_each_step that no listed version can be left out, C110_future, C110_next and C110_table for versions from 3.2 on.")
claim("C111", "proved", thms("C111_"), "C111_entry32 and C111_entry64 are equivalences for each value, C111_errors for each error; C111_stored32 and C111_stored64 give the bytes. The fields that are byte arrays in the code are lists in the model, so their length is part of the description.")
claim("C112", "proved", thms("C112_"), "One equivalence; TableError in Props/TableErrors.lean is the list. Larger buffers, where offsets wrap, are the subject of C106.")
claim("C113", "proved", thms("C113_"), "C113_values for given values, C113_flawless for the bytes alone.")
claim("C114", "partial", thms("C114_"), "The full statement is false (C114_full_false): a processor disabled by the firmware (state 3) is shown as CPU_ENABLED | CPU_DISABLED_BY_USER (C114_misnamed), and CPU_DISABLED_BY_BIOS and CPU_OTHER are never shown. C114_partial proves it for the six flag types in which every flag is a bit; C114_status says what is shown for the status of a processor. The flag RESERVED of memory devices has no bit in the code and is never shown.")
