{"id": "C01", "title": "An accepted entry point is a genuine one", "statement": "Whenever EntryPoint::search(buffer) returns Ok(e) there is a 16-byte-aligned offset o such that the SMBIOS 2 or SMBIOS 3 anchor string starts at o, no smaller 16-aligned offset carries either anchor, the whole entry point [o, o+len) lies inside the buffer, its declared length is at least 31 (v2) / 24 (v3), its bytes sum to 0 mod 256, its major version is at least 2, and every accessor (major, minor, revision, smbios_len, smbios_address, to_version) returns the little-endian value stored at the offset the SMBIOS specification gives for that field.", "quantifier": "every byte buffer of any length", "why_tests_cant": "The buffer space is unbounded; tests contain a handful of real dumps.", "anchors": ["src/lib.rs: EntryPoint::search, EntryPointV2::search, EntryPointV3::search, find_signature, EntryPoint::{major,minor,revision,smbios_len,smbios_address,to_version}"]}
{"id": "C02", "title": "Entry point search never crashes and never reads out of bounds", "statement": "EntryPoint::search terminates with Ok or one of the four InvalidEntryPointError values; it never panics (with or without overflow checks) and its unsafe struct read never touches a byte outside the buffer.", "quantifier": "every byte buffer, both overflow-check profiles", "why_tests_cant": "Memory safety of an unsafe read must hold for all buffers, in particular truncated ones that testers do not enumerate.", "anchors": ["src/lib.rs: EntryPoint::search, let_as_struct!"]}
{"id": "C03", "title": "Entry point errors mean exactly what they say", "statement": "search returns NotFound iff no 16-aligned offset of the buffer carries an anchor; when the first anchor is found, the result is BadSize, TooOldVersion or BadChecksum exactly under the documented condition, checked in the order remaining size, declared length, version, declared length against remaining size (compared as a byte), checksum, and carries the offending value.", "quantifier": "every byte buffer", "why_tests_cant": "Each error is an iff over all buffers.", "anchors": ["src/lib.rs: EntryPoint::search, InvalidEntryPointError"]}
{"id": "C04", "title": "Every valid entry point is accepted", "statement": "If the first aligned anchor in the buffer begins a well-formed entry point (length in range and inside the buffer, version >= 2, zero checksum), search returns Ok with its fields. (False of the code: the remaining length is truncated to a byte before being compared with the declared length, so a valid entry point followed by enough data for the remaining length mod 256 to drop below its length is rejected with BadSize. What holds: it is accepted iff remaining length mod 256 >= declared length.)", "quantifier": "every buffer containing a well-formed entry point, at every position and with every amount of data after it", "why_tests_cant": "Tests use 31 byte or small dumps; the failure depends on the amount of data after the entry point modulo 256.", "anchors": ["src/lib.rs: EntryPoint::search"]}
{"id": "C05", "title": "Search is relocation-invariant", "statement": "Prepending any whole number of 16-byte paragraphs none of which starts with an anchor does not change the result of search.", "quantifier": "every buffer and every anchor-free prefix of 16-byte paragraphs", "why_tests_cant": "Ranges over all prefixes.", "anchors": ["src/lib.rs: find_signature, EntryPoint::search"]}
{"id": "C06", "title": "Corrupting one byte of an entry point is always detected", "statement": "If search accepts an entry point and one byte of it, other than the anchor bytes and the length byte, is changed to any different value, then search on the changed buffer is not Ok, and in particular never yields altered fields.", "quantifier": "every accepted buffer, every corrupted position of the checksummed region outside anchor and length, every new byte value", "why_tests_cant": "All pairs of position and value for all entry points.", "anchors": ["src/lib.rs: EntryPoint::search"]}
{"id": "C07", "title": "SMBIOS versions are totally ordered by (major, minor)", "statement": "Comparison of SmbiosVersion values is a total order, equals lexicographic comparison of (major, minor), and conversion from a pair of integers below 256 preserves it.", "quantifier": "every pair and triple of versions", "why_tests_cant": "65536^2 pairs; transitivity is a universally quantified law.", "anchors": ["src/lib.rs: SmbiosVersion"]}
{"id": "C08", "title": "Iterating the structures terminates", "statement": "For every table buffer shorter than 4 GiB and every entry point, the iterator returned by structures() reaches None (or faults) after finitely many calls: every yielded structure advances the cursor by at least 6 bytes, so at most len/6 + 2 calls are made.", "quantifier": "every buffer below 4 GiB, every declared length, every version, every number of calls", "why_tests_cant": "Non-termination on hostile tables cannot be excluded by examples.", "anchors": ["src/lib.rs: Structures::next, Structures::next_raw"]}
{"id": "C09", "title": "The structure iterator is fused", "statement": "Once next() has returned None it returns None forever; after it has yielded a size or unterminated-strings error it returns None forever.", "quantifier": "every iterator state, every number of later calls", "why_tests_cant": "Quantifies over all histories.", "anchors": ["src/lib.rs: Structures::next, Structures::next_raw, FusedIterator"]}
{"id": "C10", "title": "End-of-table ends iteration for SMBIOS 3 and only there", "statement": "When the table version is 3 or later, the item after the end-of-table structure (type 127) is None forever, whatever bytes follow; so a collected table contains at most one end-of-table item and it is the last one. For version 2 the iterator continues after a type 127 structure as after any other.", "quantifier": "every buffer, every version", "why_tests_cant": "Depends on arbitrary trailing bytes.", "anchors": ["src/lib.rs: Structures::next"]}
{"id": "C11", "title": "Yielded structures tile the table", "statement": "The successfully extracted structures are contiguous and non-overlapping: each begins where the previous one's double NUL ends, and the concatenation of their headers, formatted areas and string areas is a prefix of the buffer.", "quantifier": "every buffer and every run of the iterator", "why_tests_cant": "Quantifies over all executions.", "anchors": ["src/lib.rs: Structures::next_raw"]}
{"id": "C12", "title": "Tables round-trip", "statement": "Encoding any list of structures according to the SMBIOS layout (type, length, handle, formatted area, NUL-terminated strings, double NUL) and iterating over the result yields exactly those structures, in order, with the same type, length, handle, formatted bytes and string bytes, then None.", "quantifier": "every finite list of well-formed structures, both with the end-of-table structure and without", "why_tests_cant": "Unbounded lists of unbounded structures.", "anchors": ["src/lib.rs: Structures::next, next_raw, find_nulnul, header"]}
{"id": "C13", "title": "String areas end at the first double NUL", "statement": "The string area of a yielded structure ends with two zero bytes and contains no earlier pair of adjacent zero bytes.", "quantifier": "every buffer and structure", "why_tests_cant": "All byte contents.", "anchors": ["src/lib.rs: Structures::find_nulnul, next_raw"]}
{"id": "C14", "title": "Structural errors mean exactly what they say", "statement": "With the cursor inside the table: BadSize(offset, length) is yielded iff the structure starting at that offset with that declared formatted length does not end before the declared table length (ending exactly there leaves no room for the string terminator); UnterminatedStrings(offset) iff it fits but no two adjacent zero bytes follow its formatted area in the buffer.", "quantifier": "every buffer, cursor position and declared length", "why_tests_cant": "Iff over all buffers.", "anchors": ["src/lib.rs: Structures::next_raw, MalformedStructureError"]}
{"id": "C15", "title": "Splitting a table into structures never panics or reads out of bounds", "statement": "next() never panics and never reads outside the buffer while locating a structure. (False of the code for buffers shorter than the declared table length and for structures with a declared length below 4; it holds whenever the buffer covers the declared length and every header length is at least 4, and a fault-free run is characterised exactly.)", "quantifier": "every buffer, declared table length, cursor, both overflow-check profiles", "why_tests_cant": "Hostile or truncated tables are not in the test data.", "anchors": ["src/lib.rs: Structures::next_raw, header, let_as_struct!"]}
{"id": "C16", "title": "No structure extends past the declared table length", "statement": "Every yielded structure lies inside the first smbios_len bytes. (False of the code: only the formatted area is bounded by smbios_len; the string area may run on to the end of the buffer. The formatted area is always inside, and when the buffer is exactly smbios_len long everything is. Proved is exactly which structures are inside, namely those whose strings end within smbios_len, and that one that is not is the last.)", "quantifier": "every buffer and declared length", "why_tests_cant": "Needs tables followed by unrelated bytes.", "anchors": ["src/lib.rs: Structures::next_raw"]}
{"id": "C17", "title": "A structure that fails to decode does not disturb the rest of the iteration", "statement": "Whatever the decoding of one structure returns, the cursor moves to the byte after that structure's double NUL, so the following items are the same as if the structure had been of an unsupported type.", "quantifier": "every table and every malformed structure in it", "why_tests_cant": "All combinations of bad structure and continuation.", "anchors": ["src/lib.rs: Structures::next"]}
{"id": "C18", "title": "Structures are dispatched by type and unsupported types are preserved verbatim", "statement": "The variant of the yielded item is determined by the type byte; types without a decoder are yielded unchanged with version, type, length, handle, formatted bytes and strings equal to the bytes in the table.", "quantifier": "every table and type byte", "why_tests_cant": "256 types times all contents.", "anchors": ["src/lib.rs: Structures::next, Structure"]}
{"id": "C19", "title": "String references resolve to the right string", "statement": "In a structure whose string area encodes the strings s1..sn, reference 0 resolves to the empty string, reference i (1 <= i <= n) to si, and any larger reference is the error InvalidStringIndex carrying the structure type, handle and reference.", "quantifier": "every list of non-empty NUL-free valid UTF-8 strings, every reference", "why_tests_cant": "Unbounded string lists.", "anchors": ["src/lib.rs: RawStructure::find_string, RawStructure::strings, StructureStrings"]}
{"id": "C20", "title": "String iteration over arbitrary bytes is safe and yields only genuine strings", "statement": "strings() over any byte area terminates, and yields exactly the leading run of non-empty, NUL-free, valid UTF-8 segments in order; the first empty or invalid segment ends the iteration (so a later valid string is not reachable), and every yielded string is a contiguous part of the area.", "quantifier": "every byte area", "why_tests_cant": "All byte strings, including invalid UTF-8.", "anchors": ["src/lib.rs: StructureStrings::next"]}
{"id": "C21", "title": "Field access by offset", "statement": "raw.get::<T>(off) for off >= 4 returns the little-endian integer made of the bytes of the structure at [off, off+size) when that range is inside the formatted area and the InvalidSlice error otherwise, for T = u8, u16, u32, u64. (For off < 4 it panics under overflow checks and returns InvalidSlice without them, although the documentation promises InvalidSlice.)", "quantifier": "every structure, offset and width", "why_tests_cant": "All offsets and contents.", "anchors": ["src/lib.rs: RawStructure::get, TryFromBytes"]}
{"id": "C22", "title": "Slice and string access by offset", "statement": "get_slice(off, n) with off >= 4 returns exactly the n bytes at off, or None iff they do not fit; get_string(off) equals resolving the byte at off as a string reference, or InvalidSlice if there is no such byte.", "quantifier": "every structure, offset and size", "why_tests_cant": "All offsets and contents.", "anchors": ["src/lib.rs: RawStructure::get_slice, get_string"]}
{"id": "C23", "title": "Structure types are decoded losslessly", "statement": "InfoType::from is injective on type bytes: the byte can be recovered from the value. Types 0-4, 7-9, 11-22, 32 and 127 get the variant the SMBIOS specification names for them, every other byte (including the unassigned ones below 0x80) becomes Oem carrying the byte.", "quantifier": "every type byte", "why_tests_cant": "Relational statement over all pairs of codes.", "anchors": ["src/lib.rs: InfoType"]}
{"id": "C24", "title": "Bit iteration is faithful", "statement": "For every bit field iter() yields exactly one flag per bit, in order of position starting at 0, with is_set equal to that bit of the value and the type given by the layout, then None forever.", "quantifier": "every value, width and layout", "why_tests_cant": "2^64 values.", "anchors": ["src/bitfield.rs: BitField::iter, FlagIterator"]}
{"id": "C25", "title": "Significant flags are exactly the set, significant bits", "statement": "significants() yields in ascending order precisely the flags of bits that are set and not described as reserved, and nothing else; on the crate's own layouts these are exactly the set significant bits.", "quantifier": "every value and layout", "why_tests_cant": "2^64 values.", "anchors": ["src/bitfield.rs: Significants, BitField::significants"]}
{"id": "C26", "title": "Collecting positions builds the value with exactly these bits", "statement": "Collecting an iterator of positions into an integer yields the value whose set bits are exactly those positions (in any order, with repetitions); collecting the set positions of iter() of a value gives back the value.", "quantifier": "every finite sequence of positions below the width, every value", "why_tests_cant": "All sequences.", "anchors": ["src/bitfield.rs: FromIterator for u8/u16/u32/u64/u128"]}
{"id": "C27", "title": "Reserved ranges are the maximal runs of reserved bits", "statement": "reserved() yields in order the maximal runs of adjacent bits with the same reserved description, covering all reserved bits and no others. (False in general: a one-bit reserved group that directly follows a differently described reserved group is given a wrong range; it holds for every layout without such a group, in particular for every layout the crate defines.)", "quantifier": "every layout of every width", "why_tests_cant": "All layouts; tests cover three.", "anchors": ["src/bitfield.rs: Reserved, BitField::reserved"]}
{"id": "C28", "title": "Published bit field layouts are complete", "statement": "For each bit field type of the crate the layout has exactly as many entries as the integer has bits and every bit is described as significant or reserved, so no bit of any value is reported with unknown meaning.", "quantifier": "every bit field type, every bit position, every value", "why_tests_cant": "Values range over 2^64.", "anchors": ["src/structures/000_bios.rs, 013_bios_language.rs, 015_system_event_log: layout! instances"]}
{"id": "C29", "title": "BIOS information decodes faithfully", "statement": "For every version and every formatted area at least as long as that version defines, a Type 0 structure decodes to the vendor, version, date strings, segment, ROM size, characteristics, extension bytes and revisions stored at the offsets of the specification; fields introduced after the version are None; trailing bytes are ignored. With a shorter area the decoder reads out of bounds.", "quantifier": "every version, field value and trailing data", "why_tests_cant": "All field values.", "anchors": ["src/structures/000_bios.rs: Bios::try_from"]}
{"id": "C30", "title": "ROM size conversion", "statement": "u64::from(RomSize) is 64 KiB*(n+1) for n < 255 and otherwise the extended size in MiB or GiB. (For n = 255 without extended size, and for reserved units, the conversion panics although both are reachable from table data; the panics are characterised exactly.)", "quantifier": "every basic and extended value", "why_tests_cant": "Panics sit on corner values.", "anchors": ["src/structures/000_bios.rs: From<RomSize> for u64"]}
{"id": "C31", "title": "System information and UUID byte order", "statement": "Type 1 decodes to the strings, UUID, wake-up type, SKU and family at the specified offsets, gated by version 2.1 / 2.4; the UUID bytes are taken verbatim before 2.6 and with the first three groups byte-swapped from 2.6 on, so that the 16 bytes are recoverable in both cases.", "quantifier": "every version, every contents", "why_tests_cant": "All UUID values.", "anchors": ["src/structures/001_system.rs: System::try_from, decode_by_smbios_version"]}
{"id": "C32", "title": "Base board information decodes faithfully", "statement": "Type 2 with at least 10 formatted bytes decodes to the strings, flags (undefined flag bits dropped), location, chassis handle and board type at the specified offsets. With fewer bytes the decoder reads out of bounds, although the code means to return None for absent fields.", "quantifier": "every contents and length", "why_tests_cant": "All contents and lengths.", "anchors": ["src/structures/002_baseboard.rs: BaseBoard::try_from"]}
{"id": "C33", "title": "Enclosure optional fields appear exactly when present", "statement": "Type 3 is rejected iff it has fewer than 5 formatted bytes; each optional field is Some of the stored value iff the formatted area is long enough to contain it, for every length; lock bit and type are split from one byte losslessly.", "quantifier": "every length and contents", "why_tests_cant": "All lengths times contents.", "anchors": ["src/structures/003_enclosure.rs: Enclosure::try_from"]}
{"id": "C34", "title": "Enclosure contained elements", "statement": "count()/record length and the element records are decoded exactly; iteration yields count elements with the type, minimum and maximum stored in each record, and the SKU string is read from the byte after the records. (False when count*record_length exceeds 255: panic under overflow checks, silently wrong element list otherwise; and with records shorter than 3 bytes the elements are read out of bounds. What is listed, or read out of bounds, is proved exactly for all decoded structures.)", "quantifier": "every count, record length and record contents", "why_tests_cant": "Overflow corner cases.", "anchors": ["src/structures/003_enclosure.rs: ContainedElements"]}
{"id": "C35", "title": "Processor information decodes faithfully", "statement": "Type 4 decodes for each version to the fields the version defines at their specified offsets, later fields are None, the 16-bit family is used iff the 8-bit one is FEh (2.6+), and the 16-bit core/thread counts iff the 8-bit ones are FFh (3.0+). (The characteristics word defined since 2.5 is dropped for version 2.5 exactly.)", "quantifier": "every version, every contents", "why_tests_cant": "All field values.", "anchors": ["src/structures/004_processor.rs: Processor::try_from"]}
{"id": "C36", "title": "Processor voltage and family codes are decoded without loss", "statement": "The voltage byte is classified into current (bit 7 set), legacy capability and undefined so that the byte is recoverable; family decoding is a total, injective function on 16-bit codes: codes without a named family are carried in the Available or NotUsed variant, so every code is recoverable.", "quantifier": "all 256 / 65536 codes", "why_tests_cant": "Relational statement over pairs of codes.", "anchors": ["src/structures/004_processor.rs: Voltage, ProcessorFamily"]}
{"id": "C37", "title": "Cache information decodes faithfully", "statement": "Type 7 decodes to the fields of its version at the specified offsets. (False at the version boundaries: version 2.0 panics, 2.1 drops the fields introduced in 2.1, 3.1 drops the 32-bit sizes introduced in 3.1; it holds for all other versions.)", "quantifier": "every version and contents", "why_tests_cant": "Version boundary cases.", "anchors": ["src/structures/007_cache.rs: Cache::try_from"]}
{"id": "C38", "title": "Cache configuration and sizes", "statement": "Decoding the 16-bit cache configuration never panics, and its five sub-fields are exactly the specified bit ranges; cache sizes split granularity bit and value losslessly and bytes() equals value times 1 KiB or 64 KiB without overflow.", "quantifier": "all 65536 configurations, all 2^16 and 2^32 size words", "why_tests_cant": "2^32 values.", "anchors": ["src/structures/007_cache.rs: CacheConfiguration, CacheSize, CacheSize2"]}
{"id": "C39", "title": "Port connector information decodes faithfully", "statement": "Type 8 with at least five formatted bytes decodes to the two designators, two connector types and port type at the specified offsets; shorter areas make the decoder read out of bounds.", "quantifier": "every contents", "why_tests_cant": "All contents.", "anchors": ["src/structures/008_port_connector.rs: PortConnector::try_from"]}
{"id": "C40", "title": "System slots: length validation and decoding", "statement": "Type 9 is rejected iff its length differs from what its version requires (0Ch for 2.0, 0Dh for 2.1-2.5, 11h for 2.6-3.1, at least 11h from 3.2), otherwise decodes to the fields at the specified offsets with later fields None; with n peer groups the slot information, physical width and pitch are at 14h+5n, 15h+5n and 16h+5n.", "quantifier": "every version, length, contents", "why_tests_cant": "All combinations.", "anchors": ["src/structures/009_system_slots.rs: SystemSlots::try_from"]}
{"id": "C41", "title": "Slot addresses and peer devices", "statement": "Segment/bus/device/function addresses: device and function number split from one byte losslessly; peer devices are decoded five bytes each, as many as the count states.", "quantifier": "every byte and every peer list", "why_tests_cant": "All contents.", "anchors": ["src/structures/009_system_slots.rs: DeviceFunctionNumber, PeerDevices"]}
{"id": "C42", "title": "OEM strings and configuration options", "statement": "OEM strings always decode and expose all strings of the structure; configuration options decode iff the count byte equals the number of strings, and are rejected otherwise with the count.", "quantifier": "every contents", "why_tests_cant": "All string lists and counts.", "anchors": ["src/structures/011_oem_strings.rs, 012_system_configuration_options.rs"]}
{"id": "C43", "title": "BIOS language: installable languages", "statement": "Type 13 decodes flags and current language by version; iterating the installable languages yields all strings of the structure in order and ends. (False with many strings: with overflow checks the call after the 254th language panics, so iteration completes only up to 253 strings; without checks it completes up to 254 strings and with 255 or more never ends.)", "quantifier": "every number of strings", "why_tests_cant": "Needs a structure with 255 strings and unbounded iteration.", "anchors": ["src/structures/013_bios_language.rs"]}
{"id": "C44", "title": "Group associations decode faithfully", "statement": "Type 14 decodes the group name and one (type, handle) item per three bytes, in order; a structure of length 4 panics under overflow checks.", "quantifier": "every number of items and contents", "why_tests_cant": "All lists.", "anchors": ["src/structures/014_group_associations.rs"]}
{"id": "C45", "title": "System event log decoding", "statement": "Type 15 is accepted iff its length is 14h (2.0) or 17h + number*length of descriptors (2.1+) and the fields decode at their offsets; iterating two-byte descriptors yields them all. (Never panicking is false: a table with descriptor length 0 panics; descriptors of other lengths than 2 yield nothing.)", "quantifier": "every version, length, contents", "why_tests_cant": "Corner values.", "anchors": ["src/structures/015_system_event_log/mod.rs"]}
{"id": "C46", "title": "Event log codes round-trip", "statement": "Event log type, variable data format type, descriptor pairs, access method/address and system management type conversions lose nothing: the original code is recoverable, and conversions back to bytes are inverse. (False for the address of the indexed I/O and GPNV access methods, whose unused-looking high bytes are dropped although I/O port addresses have 16 bits; exactly the kept bytes are proved.)", "quantifier": "all codes, all 2^32 addresses", "why_tests_cant": "2^40 pairs of method and address.", "anchors": ["src/structures/015_system_event_log/*.rs"]}
{"id": "C47", "title": "Physical memory array decodes faithfully", "statement": "Type 16 decodes the fields of its version at their offsets, with 80000000h meaning 'use extended capacity' and FFFEh meaning 'no error handle'. (False at the boundaries: version 2.1 yields default values with handle 0, 2.7 loses the extended capacity; short structures panic.)", "quantifier": "every version, contents, length", "why_tests_cant": "Version boundary and short structures.", "anchors": ["src/structures/016_physical_memory_array.rs"]}
{"id": "C48", "title": "Memory device decodes faithfully for every length", "statement": "Type 17 is rejected below 15h bytes; otherwise every field present in the structure is decoded from its offset with the sentinel values mapped to None and absent later fields None. (Structures of 15h..1Fh bytes, legal for 2.1-2.6, are rejected too.) No length makes it panic or read out of bounds.", "quantifier": "every length and contents", "why_tests_cant": "All lengths times contents.", "anchors": ["src/structures/017_memory_device.rs"]}
{"id": "C49", "title": "32-bit memory error information", "statement": "Type 18 is rejected iff version >= 2.1 and length is not 17h (or too short to hold its fields), otherwise decodes all seven fields.", "quantifier": "every version, length, contents", "why_tests_cant": "All combinations.", "anchors": ["src/structures/018_memory_error_32.rs"]}
{"id": "C50", "title": "Mapped addresses", "statement": "Types 19 and 20 are rejected iff the length is not that of the version (0Fh/1Fh and 13h/23h; switch at 2.7), otherwise all fields decode; the extended addresses are Some iff present.", "quantifier": "every version, length, contents", "why_tests_cant": "All combinations.", "anchors": ["src/structures/019_memory_array_mapped_address.rs, 020_memory_device_mapped_address.rs"]}
{"id": "C51", "title": "Built-in pointing device", "statement": "Type 21 is rejected iff version >= 2.1 and length is not 7, otherwise type, interface and button count decode.", "quantifier": "every version, length, contents", "why_tests_cant": "All combinations.", "anchors": ["src/structures/021_built_in_pointing_device.rs"]}
{"id": "C52", "title": "Portable battery", "statement": "Type 22 length is validated by version; manufacture date and serial number come from the string when its reference is non-zero and names an existing string, and from the packed SBDS word, if present, otherwise (also when the reference is dangling), with day, month and year the specified bit ranges; capacity in mWh is value times multiplier. (The product overflows 16 bits: panic or wrong value for capacities above 65535 mWh.)", "quantifier": "every version, length, contents", "why_tests_cant": "Overflow corner cases.", "anchors": ["src/structures/022_portable_battery.rs"]}
{"id": "C53", "title": "Code tables lose no information", "statement": "For every enumeration with a catch-all variant, decoding is injective: two different codes never decode to the same value, and a named value is produced by exactly one code. (Exceptions, proved as such: slot type, memory form factor, memory type reserved codes.)", "quantifier": "all codes of all enumerations", "why_tests_cant": "Relational statements about all pairs of codes of all tables.", "anchors": ["all From<u8>/From<u16> impls under src/structures"]}
{"id": "C54", "title": "Well-formed tables never crash the iterator", "statement": "If the buffer covers the declared length and every structure has the formatted length its version requires (an explicit per-type minimum), next() never panics or reads out of bounds at any point of the iteration, in either overflow-check profile.", "quantifier": "every well-formed table, every call", "why_tests_cant": "All tables.", "anchors": ["src/lib.rs: Structures::next; all try_from"]}
{"id": "C55", "title": "Decoders built on checked access are memory safe on every input", "statement": "For types 3, 9, 11, 12, 14-22 no input makes the decoder read outside its slices (no undefined behaviour), whatever the version, length, contents.", "quantifier": "every raw structure", "why_tests_cant": "Memory safety for all inputs.", "anchors": ["src/structures/003..022"]}
{"id": "C56", "title": "Decoding depends only on the bytes of the table", "statement": "Bytes of the buffer after the double NUL of a structure, or before its start, do not influence the item yielded for it.", "quantifier": "every pair of buffers agreeing on the structure", "why_tests_cant": "Two-run property over all buffers.", "anchors": ["src/lib.rs: Structures::next_raw"]}
{"id": "C57", "title": "Handles are preserved", "statement": "Every successfully decoded structure carries the handle stored in its header. (False for physical memory arrays at version 2.1 or lower, which report handle 0; true for all other cases.)", "quantifier": "every structure type, version, contents", "why_tests_cant": "All contents.", "anchors": ["all try_from"]}
{"id": "C58", "title": "Codes get the names of the reference tables", "statement": "For every enumeration, a code with a name in the table of Verif/Spec/Codes.lean decodes to that name, and any other code to the catch-all variant carrying it. The tables were generated from the crate and reviewed from memory of DSP0134 (no copy was available), so only the three corrected ones say something about conformance. (False of the code for slot types 1Fh/20h/24h/25h, memory form factors 00h-08h and memory array locations 0Bh-0Fh/A0h-A4h; the deviations are proved exactly.)", "quantifier": "all codes of all enumerations", "why_tests_cant": "Needs every code of every table.", "anchors": ["all From<u8>/From<u16> impls under src/structures"]}
{"id": "C59", "title": "Distinct values print distinct labels", "statement": "For every enumeration with a Display impl, two different values print different texts, catch-all codes included, so the printed label identifies the value. (False for three: LogHeaderFormat and EventLogType print vendor codes without their number unless the alternate form is used, and a DeviceChemistry smart-battery string can equal any label; the exact exceptions are proved.)", "quantifier": "every pair of values of every enumeration, both formatter flags", "why_tests_cant": "All pairs of values, including all catch-all codes and all strings.", "anchors": ["all fmt::Display impls of enums under src/structures; src/lib.rs InfoType"]}
{"id": "C60", "title": "Printed labels carry the name and the number they stand for", "statement": "Every named variant prints its name up to spacing, punctuation and case, or the label listed for it in the theorem, and every catch-all value prints a fixed prefix followed by its code as a decimal or hexadecimal numeral of the right value (where it prints the number at all, see C59).", "quantifier": "every value of every enumeration", "why_tests_cant": "All codes of all enumerations.", "anchors": ["all fmt::Display impls of enums under src/structures; src/lib.rs InfoType"]}
{"id": "C61", "title": "Printed addresses, dates, revisions and descriptors are faithful", "statement": "Device prints ssss:bb:vv.f from its fields and determines them; ManufactureDate prints YYYY-MM-DD of the packed word, or the string, or nothing; SerialNumber 0x and the word in at least two upper-case hexadecimal digits, or the string, or nothing; BIOS and firmware revisions major.minor; contained elements, access methods and variable data formats print texts from which the value is recovered (plain form: up to the number it omits).", "quantifier": "every value of each type", "why_tests_cant": "All 2^16..2^64 values of each type.", "anchors": ["src/structures/009_system_slots.rs Device, 022_portable_battery.rs, 000_bios.rs, 003_enclosure.rs, 015_system_event_log/*.rs: fmt::Display"]}
{"id": "C62", "title": "Printed quantities equal the decoded quantities", "statement": "A processor voltage prints as the decimal numeral of its value in volts with one decimal digit, and a slot pitch as its value in millimetres. (False: the legacy 5 V code prints 5.5V and a slot pitch prints ten times its value; what is printed is proved exactly.)", "quantifier": "every voltage byte, every pitch word", "why_tests_cant": "All values; rounding of the f32 arithmetic.", "anchors": ["src/structures/004_processor.rs Voltage, 009_system_slots.rs SlotPitch: fmt::Display"]}
{"id": "C63", "title": "Error messages identify the error", "statement": "Distinct entry point errors and distinct structure errors print distinct messages, in which offsets, lengths, handles and indices are decimal numerals and the structure type is named. (False for arbitrary InvalidFormattedSectionLength values, whose free text may end in a digit; true of every error the decoders produce.)", "quantifier": "every pair of error values", "why_tests_cant": "All payloads of all pairs of errors.", "anchors": ["src/lib.rs: fmt::Display for InvalidEntryPointError, MalformedStructureError; derive(Debug) for InfoType"]}
{"id": "C64", "title": "Decoder errors name the structure and tell the truth", "statement": "An error returned for a structure carries that structure's type and handle; 'invalid string index n' is only reported if string n does not exist, and 'length should be (minimum of) n' only if the formatted section does not have (at least) n bytes. (Naming always holds. The content is false for enclosures, whose stated minimum omits the header, configuration options, whose count is reported as a bad index, group associations, whose own length is reported as required, and event logs, reported to need a minimum of 0. Proved is exactly which errors of which structures are untrue.)", "quantifier": "every structure, version, length, contents, both overflow profiles", "why_tests_cant": "All contents of all structure types.", "anchors": ["all try_from; src/lib.rs: find_string"]}
{"id": "C65", "title": "Equality of chunked iterators agrees with hashing and iteration", "statement": "The hand-written PartialEq of PeerDevices, SupportedEventLogTypeDescriptors and ContainedElements is an equivalence relation; values are equal exactly if they feed a hasher the same bytes; equal values yield equal next items and remain equal; with equal chunk sizes they are equal iff the remaining bytes (and counts) are.", "quantifier": "every pair and triple of values, at every point of the iteration", "why_tests_cant": "Relational laws over all byte sequences.", "anchors": ["src/structures/003_enclosure.rs 439-453, 009_system_slots.rs 851-861, 015_system_event_log/mod.rs 362-372"]}
{"id": "C66", "title": "The flags shown for a structure are the bits stored in it", "statement": "For BIOS characteristics (offset 0Ah) and extension bytes (12h, 13h), slot characteristics (0Bh, 0Ch), BIOS language flags (05h), event log status (0Bh) and POST results: iter() shows every bit of the stored word in order, significants() exactly the set bits that are not reserved, reserved() the runs of reserved bits, every flag prints the meaning which the reference specification (Verif/Spec/Flags.lean) gives to its bit, and different flags print different texts. (False for BIOS characteristics bits 0 and 1, which are reserved but counted as flags.)", "quantifier": "every structure the decoder accepts, every value of every bit", "why_tests_cant": "All 2^64 words, all structures.", "anchors": ["src/bitfield.rs 64-80; BitField impls and layouts in 000_bios.rs, 009_system_slots.rs, 013_bios_language.rs, 015_system_event_log"]}
{"id": "C67", "title": "Named flags tell the stored bits", "statement": "For the bitflags types (baseboard features, processor characteristics, legacy voltages, cache SRAM types, memory type detail and operating modes), contains() of a named flag on a decoded value holds iff the bit the reference specification gives to that name is set in the structure, and no flag is missing from the tables of the theorem. (False for the processor status, whose bits 2:0 are a code: a processor disabled by the BIOS also contains CPU_ENABLED; and for the RESERVED flags of memory devices, which are always contained. The tables lack bit 8 of the processor characteristics, 128-bit capable, which the crate does not know.)", "quantifier": "every structure the decoders accept", "why_tests_cant": "All flag words.", "anchors": ["bitflags! in src/structures/002_baseboard.rs, 004_processor.rs, 007_cache.rs, 017_memory_device.rs"]}
{"id": "C68", "title": "Reading past a structure takes nothing from behind it into the result", "statement": "let_as_struct! reads a whole packed struct from a slice without looking at its length. In a model in which such a read delivers the bytes that follow in the buffer: where the slice is long enough the bytes behind it do not matter and table iteration is the same as in the strict model; with 44 bytes to the end of the buffer nothing is read past the buffer; and no part of the result comes from behind the structure. (The last is false, e.g. a base board structure of 12 bytes reports a chassis handle whose high byte is the first character of its strings. It holds for all other base board structures of at least 8 bytes, whose optional fields appear exactly when they are stored, and for version 3 processor structures with the 2Ah bytes of version 2.6, unless an 8-bit count is FFh.)", "quantifier": "every structure of every type, every continuation of the buffer", "why_tests_cant": "The crate's own test data over-reads; tests see only one continuation.", "anchors": ["src/lib.rs 69-76", "src/structures/002_baseboard.rs 105-160, 004_processor.rs 471-822 and the other users of let_as_struct!"]}
{"id": "C69", "title": "Exactly which structures crash the iterator", "statement": "The decoder of a structure reads out of bounds exactly if the structure has one of seven types (0, 1, 2, 4, 7, 8, 13) and is shorter than the layout of its version; it panics exactly if it is an enclosure with at least 256 bytes of contained elements and resolvable references (overflow checks only), a cache structure before version 2.1, a group association of four bytes (overflow checks only), an event log with descriptors of length 0, or a memory array shorter than what is read. In every other case it returns a value or an error. Iterating a table of well-formed structures faults exactly if one of them, not behind an end-of-table structure in version 3, is in this list.", "quantifier": "every structure, version, length, contents; every table of well-formed structures; both overflow profiles", "why_tests_cant": "An exact characterization over all inputs.", "anchors": ["all try_from; src/lib.rs 467-520"]}
{"id": "C70", "title": "Structures longer than the decoder knows", "statement": "A later version of the standard appends fields to a structure. Bytes appended to a structure that contains all the fields its decoder knows never change the outcome, neither the fields nor an error, and in particular never make it undecodable. (A group's further bytes are further members.) Refuted as stated: system slots from 2.0 to 3.1, event logs, and from 2.1 on memory errors, mapped addresses, pointing devices and batteries must have an exact length, so that a decodable structure of these types is rejected once anything is appended.", "quantifier": "every structure of every decoded type, every version, every appended byte string; both overflow profiles", "why_tests_cant": "An equality of two decodings for all structures and all suffixes.", "anchors": ["all try_from; length checks in 009, 015, 018, 019, 020, 021, 022"]}
{"id": "C71", "title": "The number of contained elements is the number of elements listed", "statement": "`count()` of an enclosure's contained elements (which hides `Iterator::count`) is the number of elements the iterator yields, and does not change while iterating. Refuted as stated: elements of length 0 are counted but not listed. Proved is exactly when it holds for a list of elements that can be read: if and only if the stored count is 0, or the stored length is not 0 and the product of both is below 256.", "quantifier": "every enclosure structure; both overflow profiles", "why_tests_cant": "All counts, record lengths and contents.", "anchors": ["src/structures/003_enclosure.rs 412-460"]}
{"id": "C72", "title": "A later table version only adds fields", "statement": "If a structure is decodable in a table of one version and, with the same bytes, in a table of a later version, every field reported for the earlier version is reported with the same value for the later one; only absent fields become present. The exceptions the standard makes are excluded: the byte order of the UUID changes at 2.6, and the codes FEh (family, 2.6) and FFh (core and thread counts, 3.0) refer to wider fields. Refuted as stated: the current language of a BIOS language structure moves from 14h to 15h at version 2.1, and memory arrays up to version 2.1 are not read at all. Proved for all other structures and versions, and exactly for which of these two it holds all the same.", "quantifier": "every structure of every decoded type, every pair of versions; both overflow profiles", "why_tests_cant": "Relates two decodings for all structures and all pairs of versions.", "anchors": ["all try_from"]}
{"id": "C73", "title": "From a memory image to the structures", "statement": "Write an entry point of either format with arbitrary field values and the right checksum at a 16-byte boundary of a memory image, with no anchor before it, and a table of well-formed structures of the declared length (32-bit) or ending with an end-of-table structure (64-bit): then search returns the version and address written, and iterating the table yields exactly the decoded structures. Refuted as stated, because of C04: proved is that it holds exactly if the image from the entry point on is, modulo 256, not shorter than the entry point; otherwise search fails with that number as bad size.", "quantifier": "every image before and after the entry point, every field value, every list of well-formed structures; both overflow profiles", "why_tests_cant": "Composition over all images and tables.", "anchors": ["src/lib.rs: EntryPoint::search, structures; Structures::next"]}
{"id": "C74", "title": "Every reported text is stored in the structure", "statement": "Every text a decoded structure reports, in any field of any structure type or as an item of its OEM string, configuration option or language iterator, is either empty or one of the strings that structure's own string area begins with. So it is well-formed UTF-8, has no NUL, and its bytes are in the table buffer; no text is made up, or taken from another structure.", "quantifier": "every structure of every type and version, every contents; every run over every buffer below 4 GiB; both overflow profiles", "why_tests_cant": "Provenance of every field for all inputs.", "anchors": ["all try_from; src/lib.rs: find_string, strings; 011, 012, 013"]}
{"id": "C75", "title": "Builds with and without overflow checks agree", "statement": "Rust checks integer overflow in debug builds and wraps in release builds. Whatever a build with overflow checks returns (from decoding, iterating a table, access by offset, bit iteration or the computing conversions), the build without them returns too: they differ only where the checked build panics. Among structures whose length byte is right these are exactly enclosures with at least 256 bytes of contained elements whose references before them resolve, and group associations of four bytes; there the unchecked build returns a value or an error.", "quantifier": "every structure, every iterator state, every offset and size", "why_tests_cant": "Relates two builds on all inputs; tests run one of them.", "anchors": ["all arithmetic in src/lib.rs, src/bitfield.rs, src/structures/*.rs"]}
{"id": "C76", "title": "Two structures decode alike exactly if they agree in what is kept", "statement": "Two structures of the same type that both decode, whatever their lengths and the versions of their tables, give the same value exactly if they have the same handle, report the same texts, and agree in the bytes at the offsets listed for the type, where a byte counts only if the version or length makes the field present, which has to be so for both or none; of flag words only the defined bits count, and of code bytes only the code, up to the few codes the crate does not tell apart. So no stored number is dropped or mixed up with another one beyond those listed, and no other byte of the structure has an influence. The UUIDs of tables from version 2.6 on are compared in the new byte order with those before in the old one. The length itself tells something only in enclosures, slots, group associations, event logs, memory devices, mapped addresses and batteries, namely which of the listed fields are present (or, for group associations, the number of items); a field that is absent and one that holds the code for an unknown value are not told apart in slots and in the speeds and voltages of memory devices. The type is told by the value, too, so for structures of any types the same holds with the type added, and so it does for whole tables, structure by structure. (Before version 2.2 all memory arrays decode to the same value.)", "quantifier": "every pair of structures of every types, versions and lengths; both overflow profiles", "why_tests_cant": "Relates the decodings of all pairs of structures.", "anchors": ["all try_from"]}
{"id": "C77", "title": "The handle is reported, nothing else", "statement": "Give a structure another handle: it is accepted, rejected or panicked at as before, with the same value or error except that the new handle stands in place of the old one. So the handle influences no other field and no decision. Refuted as stated for memory arrays before version 2.2, which are reported with handle 0; proved for everything else.", "quantifier": "every structure of every type and version, every pair of handles; both overflow profiles", "why_tests_cant": "Relates the decodings of all pairs of structures that differ in the handle.", "anchors": ["all try_from; src/lib.rs: find_string"]}
{"id": "C78", "title": "Tables are read alike on every host", "statement": "SMBIOS tables are little-endian, whatever the host. A big-endian host should find the same entry point and report the same structures as a little-endian one. Refuted: packed structs are copied without conversion, so the address and length of the table, all handles, and the integers of BIOS, base board, enclosure, processor and cache structures are reported with their bytes reversed. Proved is the exact extent: search accepts and rejects the same buffers and differs in those integers only; each structure is accepted, rejected or panicked at alike with the same texts and error; the values are equal exactly if the handle and what is kept of those integers do not change by reversing their bytes; iteration from the same state advances alike; the conversion of a peer device to bytes and back is lossless on both hosts.", "quantifier": "every buffer, every structure, every iterator state; both overflow profiles", "why_tests_cant": "Needs a big-endian machine; relates two hosts on all inputs.", "anchors": ["src/lib.rs: let_as_struct!, EntryPointV2, EntryPointV3, HeaderPacked; 000, 002, 004, 007: packed structs; 003: read_bytes; 009: Device"]}
{"id": "C79", "title": "The width of usize makes no difference", "statement": "On a host whose usize has n bits, for any n of at least 16, every access by offset, every decoder, every step of the iteration over a table and every bit field iterator returns what it returns on a 64-bit host: the same value, error or panic, although offsets below the formatted area wrap around at 2^n in unchecked builds. On a 16-bit host the casts of the cursor from u32 to usize lose no bits, since no slice there is longer than 32767 bytes and the cursor stays within the slice. The only difference is the chunk length hidden in the iterator of an empty list of contained elements (usize::MAX); it influences neither the elements, nor the count, nor comparisons, nor what is hashed, only the output of the derived Debug.", "quantifier": "every width from 16 bits, every structure and every table that fits into a slice on the host (tables below 4 GiB), every iterator state; both overflow profiles", "why_tests_cant": "Needs machines of every pointer width; relates two hosts on all inputs.", "anchors": ["src/lib.rs: get, get_slice, get_string, Structures::next; src/bitfield.rs: next; 003: ContainedElements::new; 014: try_from"]}
{"id": "C80", "title": "Working with a decoded structure never crashes", "statement": "Once a structure has been decoded, every iterator in it (contained elements, peer devices, strings, languages, group members, event log descriptors, bit fields) reaches its end and every computing conversion (ROM size, battery capacity) returns. Refuted as stated: exactly four hazards in the bytes of the structure prevent it, namely a BIOS ROM size of FFh without an extended size in megabytes or gigabytes (panic); contained elements of fewer than three bytes each or, in unchecked builds after an overflow, with one or two bytes left over (read out of bounds); 254 strings in a BIOS language structure (panic; without checks from 255 on an endless iteration); and a battery capacity times multiplier of 2^16 or more (panic, checked builds only). If no structure in a table has a hazard, everything an iteration over it yields can be worked with.", "quantifier": "every structure of every type and version that decodes; every run over every buffer below 4 GiB; both overflow profiles", "why_tests_cant": "An exact characterization over all inputs; includes termination.", "anchors": ["src/structures/000_bios.rs RomSize, 003_enclosure.rs ContainedElements, 009_system_slots.rs PeerDevices, 013_bios_language.rs InstallableLanguages, 014, 015, 022_portable_battery.rs DesignCapacity", "src/bitfield.rs", "src/lib.rs StructureStrings"]}
{"id": "C81", "title": "Iterators that have ended stay ended", "statement": "Once an iterator in a decoded structure (contained elements, peer devices, strings, languages, group members, event log descriptors, bit fields) has returned None, after any number of items, all later calls return None, without a panic. (The iterator over the table itself: C09.) Refuted as stated, and characterized exactly: it fails for the strings of OEM string and configuration option structures if and only if a segment that is not UTF-8 has a string behind it, which is then yielded after None; and for the languages of every BIOS language structure whose iteration ends at all, because the index keeps counting: call 255 panics (checked) or the iteration starts again with an empty string (unchecked).", "quantifier": "every structure of every type and version that decodes; every number of items and of later calls; both overflow profiles", "why_tests_cant": "All continuations of all iterations over all structures.", "anchors": ["src/lib.rs StructureStrings", "src/bitfield.rs", "src/structures/003_enclosure.rs ContainedElements, 009_system_slots.rs PeerDevices, 013_bios_language.rs InstallableLanguages, 014_group_associations.rs GroupItems, 015_system_event_log/mod.rs SupportedEventLogTypeDescriptors"]}
{"id": "C82", "title": "Exactly which values are reported", "statement": "For each of the 20 structure types the values that can come out of a table of a given SMBIOS version are described field by field: which fields are present from which version or length on, which numbers, flags, codes and texts they can hold, and how they depend on each other. Every value that fits the description is reported for some structure, and no other value is reported for any structure, in any iteration over any table. So nothing is unreachable beyond what is described, and nothing unexpected can be seen. In particular the slot types of the U.2 variants are never reported, a code that has a name is never reported as undefined, and no cache is reported before version 2.1.", "quantifier": "every value of every structure type, every version, both overflow profiles; every run over every buffer below 4 GiB", "why_tests_cant": "Needs a structure for each of infinitely many values, and the absence of one for all others.", "anchors": ["all try_from; src/lib.rs: Structures::next; all impl From<u8>"]}
{"id": "C83", "title": "Strings are reported as texts, nothing else", "statement": "A structure whose string area is replaced by another one that holds as many strings is decoded with the same outcome: the same error, or a value that agrees in every number, flag, code, handle and list, and in which fields are present. Only the texts differ, and each text of the one and the text in the same field of the other are the strings at one position of the two areas, or both empty. If both areas hold the same strings, the values are equal, whatever else the areas contain; only OEM strings, configuration options, BIOS languages and uninterpreted structures keep the area itself.", "quantifier": "every structure of every type, every other string area with as many strings, both overflow profiles", "why_tests_cant": "Relates pairs of structures with any string areas; that no text leaks into another field is the absence of a dependency.", "anchors": ["all try_from; src/structures.rs: find_string, StructureStrings"]}
{"id": "C84", "title": "Comparing decoded structures compares what they hold", "statement": "Two reported structures are equal under == exactly if they are of the same type and agree in every field, including the bytes and the division into records of the lists of contained elements, peer devices and event log descriptors. The one thing that does not count is the stored length of a descriptor in event logs that list no descriptors. == is reflexive, symmetric and transitive on reported structures, and equal structures feed a hasher the same bytes. Whatever their types and lengths and the versions of their tables, == is the same as having the same type and equal handles, texts and stored numbers.", "quantifier": "every pair and triple of reported structures, from tables of the same or different versions, in both overflow profiles", "why_tests_cant": "Relational laws over all pairs of values.", "anchors": ["src/lib.rs: Structure", "src/structures/003_enclosure.rs 439-453, 009_system_slots.rs 851-861, 015_system_event_log/mod.rs 362-372"]}
{"id": "C85", "title": "A longer table only adds", "statement": "If only a first part of the table is given, because the buffer is cut off, the declared length is smaller, or both, then every run over the part yields the items that a run over the whole yields first; only the last item may instead be a BadSize or UnterminatedStrings error about the cut. With the same declared length, bytes behind the buffer change nothing at all unless a string area was cut.", "quantifier": "every table, every cut of the buffer and of the declared length, every run, both overflow profiles", "why_tests_cant": "Relates the runs over all pairs of a table and a part of it.", "anchors": ["src/lib.rs: Structures::next, next_raw, find_nulnul"]}
{"id": "C86", "title": "Default values say nothing and can be used", "statement": "The default of a type says nothing: codes are unknown, bit fields have no flag set, texts are empty and optional fields absent. The default BIOS information and the default memory array are what a structure saying nothing is reported as; the default memory device differs from that in its device set only. Default values can be used without a crash, which is false of the bit field iterators: a default iterator crashes at the first call.", "quantifier": "every type with a Default, every version, every width of a bit field, both overflow profiles", "why_tests_cant": "Quantifies over all versions and, for the iterators, over the type parameter.", "anchors": ["src/bitfield.rs 20-55", "src/structures/000_bios.rs 11-78, 013_bios_language.rs 29, 016_physical_memory_array.rs 11-195, 017_memory_device.rs 101-378"]}
{"id": "C87", "title": "The public conversions from and to bytes", "statement": "Device, ContainedElement and PeerDevices can be made from any slice by safe code; that never reads outside the slice. Refuted as stated: a Device reads out of bounds exactly from fewer than five bytes, a ContainedElement from fewer than three, and PeerDevices after yielding one device per five bytes exactly if bytes are left over. With enough bytes the stored values are read. A Device converted to bytes and back is unchanged exactly if its device number is below 32 and its function number below 8. A version made from a pair of numbers has these numbers exactly if both are below 256.", "quantifier": "every slice, every device, every pair of numbers", "why_tests_cant": "Quantifies over slices of every length and all values of public fields.", "anchors": ["src/structures/009_system_slots.rs 798-868", "src/structures/003_enclosure.rs 462-478", "src/lib.rs 296-303"]}
{"id": "C88", "title": "What follows an entry point in memory", "statement": "Whether an entry point is accepted does not depend on what follows it in memory. Refuted as stated: in a longer image the same entry point is found, but it is accepted exactly if the number of bytes from its start to the end of the image, modulo 256, is at least its length; in an image whose length is a multiple of 256 that excludes two of the sixteen possible addresses in each 256 bytes. What is accepted is determined by the bytes up to the end of the fixed part of the first entry point. An unsupported version stays one, a wrong checksum gives way to that size error only, and where nothing was found, an anchor in the longer image ends behind the shorter one.", "quantifier": "every image, every continuation of it, every other image with the same beginning", "why_tests_cant": "Relates the outcomes for all pairs of images.", "anchors": ["src/lib.rs 189-240: EntryPoint::search", "src/lib.rs 338-352: find_signature"]}
{"id": "C89", "title": "Where a structure is makes no difference", "statement": "A table behind other bytes is reported as the table by itself: the same items in the same order, the same crashes; only errors of the table tell the other offset. So a table of whatever contents with well-formed structures in front yields their items and then its own; replacing, removing, inserting or reordering structures at the beginning of a table changes their items and nothing else but these offsets, and reordering not even these.", "quantifier": "every table, well-formed or not, every bytes in front with room below 2^32, every run, both overflow profiles", "why_tests_cant": "Relates the runs over all pairs of a table and a moved or edited one.", "anchors": ["src/lib.rs: Structures::next, next_raw"]}
{"id": "C90", "title": "Reading takes linear work", "statement": "Reading a whole table, whatever its bytes, executes the loop of find_nulnul at most once for each byte of the buffer, also when structures are malformed; the call that ends the iteration executes it not at all. Looking up a string, whichever number is asked for, looks at most twice at each byte of the string set. Looking for the entry point takes one step for each sixteen bytes up to the anchor, or up to the end if there is none. Counting changes no result. The counts are exact: a structure costs one step for each byte of its string set but the last, one with a bad length none, one whose strings do not end one for each byte behind it, and a table of structures that fills the declared length the sum of its structures.", "quantifier": "every buffer with 256 bytes of room below 2^32, every start of the iterator inside it, every run; every structure and string number; every file to search", "why_tests_cant": "A hostile table that makes each structure scan the rest of the buffer would take quadratic time; tests do not show a bound over all tables.", "anchors": ["src/lib.rs: find_nulnul, Structures::next_raw, StructureStrings::next, RawStructure::find_string, find_signature"]}
{"id": "C91", "title": "Debug output shows everything", "statement": "The texts of {:?} and {:#?}, and those with hexadecimal integers ({:x?}, {:X?}, {:#x?}, {:#X?}), determine the value: two decoded structures, raw structures, entry points, errors, results, iterator items, fields, flags, structure types or table iterators that are shown by the same text are equal. Texts, quotation marks, brackets and commas inside strings cannot make two different values look the same, and unnamed bits of a flag field are shown as a number. The structure type shown is the one in the error messages. Of a bit-field flag exactly the position and the state are shown, as its own implementation says; the description of a flag and ranges of reserved bits are shown completely.", "quantifier": "every pair of values of 108 types, both forms, every choice of the characters that are shown by number", "why_tests_cant": "Relates all pairs of values; a collision caused by strings that look like output needs an adversarial pair.", "anchors": ["#[derive(Debug)] of src/lib.rs and all of src/structures", "src/bitfield.rs 160-167: impl Debug for Flag"]}
{"id": "C92", "title": "Strings of a table cannot control the terminal or forge lines in Debug output", "statement": "Whatever bytes a table has in its strings, the text {:?} of what the iterator over it yields is a single line without ASCII control characters, and the text {:#?} has no control characters but newlines. Whatever characters are shown by number, a string is shown between quotation marks without a newline, tab, carriage return or NUL, and with every quotation mark and backslash in it escaped.", "quantifier": "every item or error of every table, every string, both forms", "why_tests_cant": "Quantifies over all strings, valid for every hostile table.", "anchors": ["#[derive(Debug)] of src/lib.rs and all of src/structures"]}
{"id": "C93", "title": "What is written to a hasher determines the structure", "statement": "Two structures reported from tables write the same bytes to a hasher exactly if they are equal under ==; so a hash map keyed by structures sees no collisions but those of its hash function. The items of the iterators and the structures as stored can be told from what they write, and so can where it ends; the same goes for accepted entry points, iterators over a table and the values of every public type without text or bytes of the table in it.", "quantifier": "every pair of reported structures, from tables of the same or different versions; every width of usize from 32 bits on; every item, accepted entry point and table iterator", "why_tests_cant": "Relates all pairs of values of 106 types; a collision needs an adversarial pair.", "anchors": ["#[derive(Hash)] of src/lib.rs and all of src/structures", "src/structures/003_enclosure.rs 447-453, 009_system_slots.rs 857-861, 015_system_event_log/mod.rs 368-372"]}
{"id": "C94", "title": "Several structures written to a hasher one after the other", "statement": "Sequences of equally many reported structures write the same bytes to a hasher only if they are equal one by one. Refuted as stated: the hand-written Hash of the lists does not write how many records there are, so an event log with one event type followed by a BIOS structure writes what the log without event types followed by a group association writes. It holds for all structures but enclosures with contained elements and event logs with a list of event types: where they end shows from what they write, whatever follows. The last structure of the sequence may be any.", "quantifier": "every pair of sequences of reported structures; every width of usize from 32 bits on", "why_tests_cant": "Relates all pairs of sequences; the counterexample is adversarial.", "anchors": ["#[derive(Hash)] of src/lib.rs and all of src/structures", "src/structures/003_enclosure.rs 447-453, 009_system_slots.rs 857-861, 015_system_event_log/mod.rs 368-372"]}
{"id": "C95", "title": "Every public field of an entry point holds what is stored at its offset", "statement": "Whenever EntryPoint::search accepts a buffer, each field of the returned EntryPointV2 or EntryPointV3, including those without an accessor (checksum, largest structure, formatted area, intermediate anchor and checksum, number of structures, BCD revision, docrev), holds what is stored at the offset DSP0134 tables 1 and 2 give behind the first anchor. The signature field holds the anchor. Two accepted entry points are equal exactly if their first 31 or 24 bytes are.", "quantifier": "every buffer, every pair of buffers", "why_tests_cant": "All buffers and all positions of the anchor; tests decode a few entry points.", "anchors": ["src/lib.rs 183-287"]}
{"id": "C96", "title": "The intermediate anchor and checksum of a 32-bit entry point", "statement": "An accepted 32-bit entry point carries the intermediate anchor _DMI_ at offset 10h, and the 15 bytes from there sum to zero (DSP0134 5.2.1). Refuted: the code checks neither. What holds: the declared length is at least 31 and within the buffer, the intermediate part sums to zero exactly if the checked bytes around it do, and dmi_signature shows the stored anchor to callers who want to check it.", "quantifier": "every accepted buffer with a 32-bit entry point", "why_tests_cant": "Needs entry points with valid outer and invalid inner checksum; for all of them the relation of the sums.", "anchors": ["src/lib.rs 189-240"]}
{"id": "C97", "title": "Decoding takes linear work", "statement": "Decoding a structure looks up at most seven strings, whatever its bytes, so that its lookups look at most fourteen times at each byte of its string set, also when decoding fails; reading and decoding a whole table therefore looks at most fourteen times at each byte of the buffer, besides the search for the ends of the structures (C90). Going through all strings of a structure looks at most twice at each byte. Counting changes no result. The counts are exact: decoding that succeeds looks up each string field that the version has and that lies within the structure once, and nothing else; looking up string i looks at each byte of the strings up to it twice and at each terminator once, and at the terminator of the set if there are fewer; configuration options go through all their strings once, as does a user who lists the strings. Reading a whole table looks up what its structures look up, no more and no less. So the bound is reached: a memory device with a single string to which all its fields refer looks fourteen times at each of its bytes and seven times at its terminator.", "quantifier": "every structure; every buffer with 256 bytes of room below 2^32, every start of the iterator inside it, every run; every iterator over strings", "why_tests_cant": "A bound over all tables, hostile ones included.", "anchors": ["src/lib.rs: Structures::next, RawStructure::find_string, StructureStrings::next", "src/structures: all try_from"]}
{"id": "C98", "title": "Listing the languages of a BIOS language structure takes quadratic work", "statement": "InstallableLanguages looks up each language from the first string on. Listing all l languages looks at most 2(l+1) times at each byte of the string set, counting changes no result, and no better order holds: with n strings of one letter, a set of 2n+1 bytes, listing them looks at exactly 3n(n+1)/2 + 3n + 1 bytes.", "quantifier": "every iterator over languages and every run that ends; every n up to 253, beyond which the index overflows (C43)", "why_tests_cant": "An exact count for a whole family of string sets and a bound for all.", "anchors": ["src/structures/013_bios_language.rs 82-86", "src/lib.rs: RawStructure::find_string"]}
{"id": "C99", "title": "Printed texts are single printable lines", "statement": "What {} and {:#} print for any value of the crate's types is well-formed UTF-8 of printable characters (ASCII, trade marks, dashes, typographic quotation marks) on one line that neither begins nor ends with a space; in particular a table cannot control the terminal or forge lines through it. Refuted: the date, the serial number and the chemistry of a battery may be strings of the table and are printed unchanged, escape sequences included. It holds for all labels of codes, revisions, contained elements, device addresses, slot pitches, access methods and record formats, for all errors of the search and the iterator, and for all flags, except that the long description of the flag of language structures has two lines; a list of legacy voltages ends with a space; a battery prints such a line, nothing or one of its stored strings, and if these are printable lines, so is what is printed.", "quantifier": "every value of the 45 types with Display, both forms; every error item of every table with a buffer below 2^32 bytes; every decoded battery", "why_tests_cant": "Over all variants with all numbers, and for batteries over all strings; the line break in one description went unnoticed.", "anchors": ["impl fmt::Display in src/lib.rs, src/bitfield.rs and all of src/structures", "src/structures/013_bios_language.rs 89-103", "src/structures/022_portable_battery.rs 152-221"]}
{"id": "C100", "title": "A damaged byte changes one structure only", "statement": "Whichever byte of a structure changes, all structures before and behind it are reported as before, and only this one is decoded anew from its bytes with that one changed. Refuted as stated: a damaged length moves everything behind it. It holds for every byte of the header but the length, for every byte of the formatted area, and for every byte of the strings whose change leaves the first pair of zero bytes where it is, such as a character that becomes another; from version 3 on, unless the change makes or unmakes an end-of-table structure. It also holds for a length that ends inside the structure if from there on the first pair of zero bytes is still that at its end. The same goes for replacing a whole structure by another with the same number of bytes.", "quantifier": "every table with 260 bytes of room below 2^32, every structure of it, every byte and every new value; both overflow profiles; complete iterations, including tables that end with an error", "why_tests_cant": "Over all tables, positions and values; tests compare a few tables.", "anchors": ["src/lib.rs: Structures::next, Structures::next_raw"]}
{"id": "C101", "title": "Optional fields are only set if the version has defined them", "statement": "As the doc comments of eight types promise, an optional field is only set if the version of the table is high enough to have defined the field. Refuted as stated: enclosures and memory devices get their optional fields from the length alone, slots of 3.2 and 3.3 may have the fields of 3.4, and slots, event logs, mapped addresses and batteries are not checked below the first version they know. It holds for all other structures of every version, and for these from the version on that is checked; the exceptions are exact: for every type and version left out there is a structure that breaks the promise.", "quantifier": "every structure whose length byte is its length, every version, both overflow profiles; the versions that defined the fields are those of DSP0134", "why_tests_cant": "Over all versions and contents; tests use one version per type.", "anchors": ["src/structures/001_system.rs: System", "src/structures/009_system_slots.rs: SystemSlots::try_from", "src/structures/017_memory_device.rs: MemoryDevice::try_from"]}
{"id": "C102", "title": "A valid entry point in the image is found", "statement": "If a valid entry point begins at a 16-byte boundary of the image, then search returns an entry point. Refuted as stated, even for short images (C04 apart): only the first anchor is looked at, so an anchor that does not begin a valid entry point hides all that are behind it; six or seven bytes are enough (an anchor, any byte, and a number below the length of an entry point), whatever image follows. It holds if every anchor in the image begins a valid entry point that does not meet C04. Exactly: search returns an entry point if and only if the first anchor begins a valid one that does not meet C04.", "quantifier": "every image, every position, both formats", "why_tests_cant": "Over all images behind the false anchor; tests have images with one anchor.", "anchors": ["src/lib.rs: EntryPoint::search, find_signature"]}
{"id": "C103", "title": "What of an entry point decides how a table is read", "statement": "Two entry points, of either format, with the same version and the same length of the table read every table alike. In particular the declared number of structures and the declared size of the largest one are not obeyed: whatever they are, every structure of a well-formed table is reported.", "quantifier": "every pair of entry points, every buffer and every complete iteration; every well-formed table and all counts and sizes; both overflow profiles", "why_tests_cant": "Over all tables and field values.", "anchors": ["src/lib.rs: EntryPoint::structures"]}
{"id": "C104", "title": "A table that ends inside a structure is noticed", "statement": "If a table ends inside a structure, the structures before it are reported and then one error that gives the offset of the structure cut. Refuted as stated: one to three bytes of a structure at the end are not noticed. From four bytes on it holds: BadSize if the formatted area is cut or nothing of the strings is left, UnterminatedStrings otherwise. If only the declared length is too short, a cut inside the strings is not noticed and the structure is reported whole. If only the buffer is too short, a cut inside the header is read past and one inside the formatted area panics.", "quantifier": "every list of well-formed structures, every structure behind them and every place of the cut, with the declared length, the buffer or both cut; both overflow profiles", "why_tests_cant": "Over all tables and all cuts.", "anchors": ["src/lib.rs: Structures::next, next_raw, find_nulnul"]}
{"id": "C105", "title": "Texts and hashes of bit field views", "statement": "The debug text of an iterator over a bit field (all flags, those set, or the ranges of reserved bits) tells its value, its state and its whole layout, though not of which type the value is. What is written to a hasher for such an iterator, a flag or a range determines it, and where the rest begins; unlike the text of a flag, the bytes written for it tell its description.", "quantifier": "every iterator over a value of any of the five unsigned types and any layout, every flag and range, both forms of debug text, every size of usize that is a multiple of 8 from 32 bits on", "why_tests_cant": "Over all layouts, strings and values; tests compare a few.", "anchors": ["src/bitfield.rs: Iter, Significants, Reserved, Flag, ReservedRange"]}
{"id": "C106", "title": "Iterating ends whatever the size of the buffer", "statement": "Also over a buffer of 4 GiB or more the iteration ends or faults after finitely many calls. Refuted without overflow checks: the cursor has 32 bits, and with a header in the last four bytes of the first 4 GiB it comes back to the same place, so that one structure is reported forever, without a fault, even if the declared length of the table is five bytes. With overflow checks it holds, with at most 2^30 + 1 items, and without them every structure that begins more than four bytes below 4 GiB moves the cursor forward. A structure in a buffer of any size is extracted as it is, but of a string area of 4 GiB or more only its length modulo 4 GiB is reported, so that the reported strings are never terminated, and a structure that would still end beyond 4 GiB panics in both profiles.", "quantifier": "every buffer, of whatever size, every state of the iterator, every declared length, every version; for the endless iteration every text without zero bytes", "why_tests_cant": "Nobody tests with buffers of 4 GiB, and that an iteration never ends cannot be observed.", "anchors": ["src/lib.rs: Structures::next, Structures::next_raw"]}
{"id": "C107", "title": "Exactly which structures are rejected, and with which error", "statement": "For every structure type there is an ordered list of conditions on its version, its length and the strings it refers to, each with an error, a panic or a read beyond the end; what becomes of a structure is decided by the first condition that holds, and if none holds it is decoded. The list names for each type which lengths are wrong and how they are reported, from which length on an access fails, which string references have to exist and in which order they are looked up; nothing else about a structure can make it fail.", "quantifier": "every structure whose length byte is its length, of every type, version and content; both overflow profiles; every step and every run of the iterator", "why_tests_cant": "Over all contents and versions; tests have one structure per type, and none with two faults.", "anchors": ["src/structures/*.rs: all try_from", "src/lib.rs: Structures::next, RawStructure::get, RawStructure::find_string"]}
{"id": "C108", "title": "Structures that conform to the specification are decoded", "statement": "A structure that conforms to DSP0134 is decoded: its type is one the version knows, its length is the one given for the type and the version, every string field is 0 or the number of a string, the contained elements of an enclosure lie within it, and configuration options tell the number of strings. Refuted as stated, with exactly four exceptions, each of which occurs: base boards below 14 bytes, caches of version 2.0, event logs whose descriptors have length 0 (as they may if there are none), and memory devices below 32 bytes, that is all of minimal length up to version 2.6. Every other conforming structure is decoded, and a table of such structures is reported whole without an error.", "quantifier": "every conforming structure of every type and every version from 2.0 on; both overflow profiles; every table of them", "why_tests_cant": "Over all structures, versions and lengths; tests use structures of a few machines, all longer than the minimum.", "anchors": ["src/structures/*.rs: all try_from", "src/lib.rs: Structures::next"]}
{"id": "C109", "title": "Exactly what iterating over a table gives, whatever its bytes", "statement": "A grammar of ten cases says how any bytes are read as a table of a version and a declared length: less than a header is left of the declared length (the end) or of the buffer only (a read out of bounds), a length that does not end before the declared length (BadSize) or ends behind the buffer (a panic), no double NUL (UnterminatedStrings), a length below 4 (a panic), a structure that crashes its decoder (C69), the end-of-table structure from version 3 on, any other structure with its item and what follows it. Any bytes have exactly one reading, and the iterator yields exactly its items and then ends, panics or reads out of bounds as the reading says.", "quantifier": "every buffer of up to 4 GiB - 256 bytes, every declared length and version, both overflow profiles", "why_tests_cant": "Complete description of an iterator over arbitrary bytes.", "anchors": ["src/lib.rs: Structures::next, next_raw, find_nulnul"]}
{"id": "C110", "title": "Which versions matter, and versions to come", "statement": "The decoder of a type looks at the version of the table only to see which of a few listed versions it has reached: a structure in tables of two versions that have reached the same ones is decoded alike, or rejected with the same error, up to the version kept in undecoded structures and language structures. Each of the listed versions matters for some structure. Since none is later than 3.2, all tables of version 3.2 and later, among them versions to come, are read alike, item by item and fault by fault.", "quantifier": "every structure of every type, every pair of versions, every table of any length; both overflow profiles", "why_tests_cant": "Relates decodings under all pairs of the 65536 versions; tests use a handful.", "anchors": ["all try_from; src/lib.rs: Structures::next, next_raw"]}
{"id": "C111", "title": "Exactly which entry points and errors the search returns", "statement": "An entry point of either format is returned for some image if and only if its anchor field holds the anchor, its declared length is at least that of its fields, its major version is at least 2, and, if the declared length is just that of its fields, their bytes sum to 0. Every other field can have any value; with a longer declared length the checksum can, too. Whenever one is returned, the bytes behind the first anchor are those of its fields in the order of DSP0134 tables 1 and 2. The errors returned are NotFound, BadSize of any number below 255, TooOldVersion of 0 and 1 and BadChecksum of any number but 0, and no others.", "quantifier": "every value of EntryPointV2, EntryPointV3 and InvalidEntryPointError, every image", "why_tests_cant": "Existence and absence over all images.", "anchors": ["src/lib.rs: EntryPoint::search"]}
{"id": "C112", "title": "Exactly which errors an iteration reports", "statement": "For every version, the errors that iterating over some table can report are exactly these: BadSize with a length of at least 4 and UnterminatedStrings, at offset 0 or any offset from 6 on where a header still fits; InvalidSlice; InvalidStringIndex with any handle and any index but 0 for the ten types whose decoders look up strings and, from 2.1 on, caches, and also with index 0 for configuration options; InvalidFormattedSectionLength with any handle for ten types, with the texts and numbers listed by version, any number for the descriptors of event logs, and for group associations only without overflow checks. No other error is ever reported.", "quantifier": "every error value, every version, both overflow profiles; tables of up to 4 GiB - 256 bytes", "why_tests_cant": "Existence and absence over all tables; tests provoke a handful of errors.", "anchors": ["src/lib.rs: Structures::next, next_raw", "src/structures/*.rs: all try_from"]}
{"id": "C113", "title": "Exactly which tables are read without any error", "statement": "Iterating over a buffer of up to 4 GiB - 256 bytes gives values only, and then ends, if and only if the buffer begins with structures, one directly behind the other, such that: each has a length field of at least 4 and strings that end at the first two zero bytes; none of the conditions of C107 holds of any of them; the formatted area of each ends before the declared length of the table; and reading ends behind the last one, because less than a header is left of the declared length, or because from version 3 on the last one, and only that, is the end-of-table structure. The values are those the structures are decoded to, in this order. What follows them in the buffer makes no difference.", "quantifier": "every buffer, version and declared length; both overflow profiles", "why_tests_cant": "An equivalence over all buffers.", "anchors": ["src/lib.rs: Structures::next, next_raw", "src/structures/*.rs: all try_from"]}
{"id": "C114", "title": "Debug names exactly the flags that are set", "statement": "Every flag field is shown by {:?} and {:#?} as the name of its type and, in parentheses, the names of exactly those flags that are set, in the order of their declaration and separated by bars, followed by one hexadecimal number for the bits that have no name, if any is set, and 0x0 if no bit is set. The status of a processor, which is a number in three bits, is shown by the name of that state.", "quantifier": "every value of the seven flag types, both forms of Debug", "why_tests_cant": "16-bit flag fields have 65536 values each, and the claim ties each name to its bit.", "anchors": ["src/structures/002_baseboard.rs: BaseBoardFlags", "src/structures/004_processor.rs: VoltageLegacy, ProcessorStatus, ProcessorCharacteristics", "src/structures/007_cache.rs: CacheSramType", "src/structures/017_memory_device.rs: Detail, OperatingModes"]}
