import Verif.Model.Lib
/-!
# Model of `src/structures/007_cache.rs` (Cache Information, type 7)
-/
namespace Dmi.cache

/-- `CacheSramType` (`bitflags!`), `src/structures/007_cache.rs` 101-113. -/
structure CacheSramType where
  bits : UInt16
deriving DecidableEq, Repr

/-- The declared flags of `CacheSramType`, `src/structures/007_cache.rs` 105-111. -/
def CacheSramType.flags : List (String × UInt16) :=
  [("OTHER", 0b0000_0001), ("UNKNOWN", 0b0000_0010), ("NONBURST", 0b0000_0100),
   ("BURST", 0b0000_1000), ("PIPELINE_BURST", 0b0001_0000), ("SYNCHRONOUS", 0b0010_0000),
   ("ASYNCHRONOUS", 0b0100_0000)]

/-- `CacheSramType::from_bits_truncate` (crate `bitflags`): keep the bits occurring in a declared
flag. -/
def CacheSramType.fromBitsTruncate (b : UInt16) : CacheSramType :=
  ⟨b &&& (flags.map (·.2)).foldl (· ||| ·) 0⟩

/-- `CacheSramType::contains` (crate `bitflags`): all bits of the given flag are set. -/
def CacheSramType.contains (f : CacheSramType) (flag : UInt16) : Bool := f.bits &&& flag == flag

/-- `CacheConfiguration`, `src/structures/007_cache.rs` 53-64. -/
structure CacheConfiguration where
  level : CacheLevel
  socketed : Bool
  location : CacheLocation
  enabled_at_boot_time : Bool
  operational_mode : CacheOperationalMode
deriving DecidableEq, Repr

/-- `CacheSize`, `src/structures/007_cache.rs` 96-99. -/
inductive CacheSize where
  | Granularity1K (v : UInt16)
  | Granularity64K (v : UInt16)
deriving DecidableEq, Repr

/-- `CacheSize2`, `src/structures/007_cache.rs` 164-167. -/
inductive CacheSize2 where
  | Granularity1K (v : UInt32)
  | Granularity64K (v : UInt32)
deriving DecidableEq, Repr

/-- `impl From<u16> for CacheConfiguration`, `src/structures/007_cache.rs` 274-284. The conversions
to level, location and mode end in `unreachable!()`. -/
def CacheConfiguration.ofU16 {ε : Type} (word : UInt16) : Res ε CacheConfiguration := do
  pure {
    level := ← CacheLevel.ofU16 (word &&& 0b0000_0111)
    socketed := (word &&& 0b0000_1000) >>> 3 == 1
    location := ← CacheLocation.ofU16 ((word &&& 0b0110_0000) >>> 5)
    enabled_at_boot_time := (word &&& 0b1000_0000) >>> 7 == 1
    operational_mode := ← CacheOperationalMode.ofU16 ((word &&& 0b0000_0011_0000_0000) >>> 8) }

/-- `impl From<u16> for CacheSize`, `src/structures/007_cache.rs` 286-295. -/
def CacheSize.ofU16 (word : UInt16) : CacheSize :=
  let val := word &&& ~~~((1 : UInt16) <<< 15)
  if word &&& ((1 : UInt16) <<< 15) = 0 then .Granularity1K val else .Granularity64K val

/-- `CacheSize::bytes`, `src/structures/007_cache.rs` 297-302. The `u64` product of a 16-bit value
cannot overflow. -/
def CacheSize.bytes : CacheSize → UInt64
  | .Granularity1K val => val.toUInt64 * ((1 : UInt64) <<< 10)
  | .Granularity64K val => val.toUInt64 * ((1 : UInt64) <<< 16)

/-- `impl From<u32> for CacheSize2`, `src/structures/007_cache.rs` 474-483. -/
def CacheSize2.ofU32 (dword : UInt32) : CacheSize2 :=
  let val := dword &&& ~~~((1 : UInt32) <<< 31)
  if dword &&& ((1 : UInt32) <<< 31) = 0 then .Granularity1K val else .Granularity64K val

/-- `CacheSize2::bytes`, `src/structures/007_cache.rs` 485-490. The `u64` product of a 32-bit value
cannot overflow. -/
def CacheSize2.bytes : CacheSize2 → UInt64
  | .Granularity1K val => val.toUInt64 * ((1 : UInt64) <<< 10)
  | .Granularity64K val => val.toUInt64 * ((1 : UInt64) <<< 16)

/-- `Cache`, `src/structures/007_cache.rs` 19-50. -/
structure Cache where
  handle : UInt16
  socket_designation : Str
  cache_configuration : CacheConfiguration
  maximum_cache_size : CacheSize
  installed_size : CacheSize
  supported_sram_type : CacheSramType
  current_sram_type : CacheSramType
  cache_speed : Option UInt8
  error_correction_type : Option CacheErrorCorrectionType
  system_cache_type : Option SystemCacheType
  associativity : Option CacheAssociativity
  maximum_cache_size_2 : Option CacheSize2
  installed_size_2 : Option CacheSize2
deriving DecidableEq, Repr

/-- `CachePacked2_0` (11 bytes), `src/structures/007_cache.rs` 203-212. -/
structure CachePacked2_0 where
  socket_designation : UInt8
  cache_configuration : UInt16
  maximum_cache_size : UInt16
  installed_size : UInt16
  supported_sram_type : UInt16
  current_sram_type : UInt16

/-- Memory layout of `CachePacked2_0`. -/
def CachePacked2_0.packed : Packed CachePacked2_0 := do
  let socket_designation ← .u8
  let cache_configuration ← .u16
  let maximum_cache_size ← .u16
  let installed_size ← .u16
  let supported_sram_type ← .u16
  let current_sram_type ← .u16
  pure {
    socket_designation, cache_configuration, maximum_cache_size, installed_size,
    supported_sram_type, current_sram_type }

/-- `CachePacked2_1` (15 bytes), `src/structures/007_cache.rs` 188-201. -/
structure CachePacked2_1 where
  socket_designation : UInt8
  cache_configuration : UInt16
  maximum_cache_size : UInt16
  installed_size : UInt16
  supported_sram_type : UInt16
  current_sram_type : UInt16
  cache_speed : UInt8
  error_correction_type : UInt8
  system_cache_type : UInt8
  associativity : UInt8

/-- Memory layout of `CachePacked2_1`. -/
def CachePacked2_1.packed : Packed CachePacked2_1 := do
  let socket_designation ← .u8
  let cache_configuration ← .u16
  let maximum_cache_size ← .u16
  let installed_size ← .u16
  let supported_sram_type ← .u16
  let current_sram_type ← .u16
  let cache_speed ← .u8
  let error_correction_type ← .u8
  let system_cache_type ← .u8
  let associativity ← .u8
  pure {
    socket_designation, cache_configuration, maximum_cache_size, installed_size,
    supported_sram_type, current_sram_type, cache_speed, error_correction_type,
    system_cache_type, associativity }

/-- `CachePacked3_1` (23 bytes), `src/structures/007_cache.rs` 171-186. -/
structure CachePacked3_1 where
  socket_designation : UInt8
  cache_configuration : UInt16
  maximum_cache_size : UInt16
  installed_size : UInt16
  supported_sram_type : UInt16
  current_sram_type : UInt16
  cache_speed : UInt8
  error_correction_type : UInt8
  system_cache_type : UInt8
  associativity : UInt8
  maximum_cache_size_2 : UInt32
  installed_size_2 : UInt32

/-- Memory layout of `CachePacked3_1`. -/
def CachePacked3_1.packed : Packed CachePacked3_1 := do
  let socket_designation ← .u8
  let cache_configuration ← .u16
  let maximum_cache_size ← .u16
  let installed_size ← .u16
  let supported_sram_type ← .u16
  let current_sram_type ← .u16
  let cache_speed ← .u8
  let error_correction_type ← .u8
  let system_cache_type ← .u8
  let associativity ← .u8
  let maximum_cache_size_2 ← .u32
  let installed_size_2 ← .u32
  pure {
    socket_designation, cache_configuration, maximum_cache_size, installed_size,
    supported_sram_type, current_sram_type, cache_speed, error_correction_type,
    system_cache_type, associativity, maximum_cache_size_2, installed_size_2 }

/-- `Cache::try_from`, `src/structures/007_cache.rs` 170-271. -/
def Cache.try_from (s : RawStructure) : R Cache :=
  if s.version.gt (.ofPair 3 1) then do
    let packed ← letAsStruct CachePacked3_1.packed s.data
    pure {
      handle := s.handle
      socket_designation := ← s.find_string packed.socket_designation
      cache_configuration := ← CacheConfiguration.ofU16 packed.cache_configuration
      maximum_cache_size := CacheSize.ofU16 packed.maximum_cache_size
      installed_size := CacheSize.ofU16 packed.installed_size
      supported_sram_type := CacheSramType.fromBitsTruncate packed.supported_sram_type
      current_sram_type := CacheSramType.fromBitsTruncate packed.current_sram_type
      cache_speed := some packed.cache_speed
      error_correction_type := some (CacheErrorCorrectionType.ofU8 packed.error_correction_type)
      system_cache_type := some (SystemCacheType.ofU8 packed.system_cache_type)
      associativity := some (CacheAssociativity.ofU8 packed.associativity)
      maximum_cache_size_2 := some (CacheSize2.ofU32 packed.maximum_cache_size_2)
      installed_size_2 := some (CacheSize2.ofU32 packed.installed_size_2) }
  else if s.version.gt (.ofPair 2 1) then do
    let packed ← letAsStruct CachePacked2_1.packed s.data
    pure {
      handle := s.handle
      socket_designation := ← s.find_string packed.socket_designation
      cache_configuration := ← CacheConfiguration.ofU16 packed.cache_configuration
      maximum_cache_size := CacheSize.ofU16 packed.maximum_cache_size
      installed_size := CacheSize.ofU16 packed.installed_size
      supported_sram_type := CacheSramType.fromBitsTruncate packed.supported_sram_type
      current_sram_type := CacheSramType.fromBitsTruncate packed.current_sram_type
      cache_speed := some packed.cache_speed
      error_correction_type := some (CacheErrorCorrectionType.ofU8 packed.error_correction_type)
      system_cache_type := some (SystemCacheType.ofU8 packed.system_cache_type)
      associativity := some (CacheAssociativity.ofU8 packed.associativity)
      maximum_cache_size_2 := none
      installed_size_2 := none }
  else if s.version.gt (.ofPair 2 0) then do
    let packed ← letAsStruct CachePacked2_0.packed s.data
    pure {
      handle := s.handle
      socket_designation := ← s.find_string packed.socket_designation
      cache_configuration := ← CacheConfiguration.ofU16 packed.cache_configuration
      maximum_cache_size := CacheSize.ofU16 packed.maximum_cache_size
      installed_size := CacheSize.ofU16 packed.installed_size
      supported_sram_type := CacheSramType.fromBitsTruncate packed.supported_sram_type
      current_sram_type := CacheSramType.fromBitsTruncate packed.current_sram_type
      cache_speed := none
      error_correction_type := none
      system_cache_type := none
      associativity := none
      maximum_cache_size_2 := none
      installed_size_2 := none }
  else .panic -- `unreachable!()`

end Dmi.cache
