import Verif.Model.Lib
/-!
# Model of `src/structures/018_memory_error_32.rs` … `021_built_in_pointing_device.rs`
(32-Bit Memory Error Information, Memory Array Mapped Address, Memory Device Mapped Address,
Built-in Pointing Device; types 18-21)
-/
namespace Dmi

/-- `MemoryError32`, `src/structures/018_memory_error_32.rs` 15-35. -/
structure memory_error_32.MemoryError32 where
  handle : UInt16
  error_type : memory_error_32.ErrorType
  error_granularity : memory_error_32.ErrorGranularity
  error_operation : memory_error_32.ErrorOperation
  vendor_syndrome : UInt32
  memory_array_error_address : UInt32
  device_error_address : UInt32
  error_resolution : UInt32
deriving DecidableEq, Repr

open memory_error_32 in
/-- `MemoryError32::try_from`, `src/structures/018_memory_error_32.rs` 83-99. -/
def memory_error_32.MemoryError32.try_from [Usize] (oc : Bool) (s : RawStructure) : R MemoryError32 :=
  if s.version.ge (.ofPair 2 1) && s.length != 0x17 then
    .err (.InvalidFormattedSectionLength .MemoryError32 s.handle "" 0x17)
  else do
    pure {
      handle := s.handle
      error_type := ErrorType.ofU8 (← s.get8 oc 0x04)
      error_granularity := ErrorGranularity.ofU8 (← s.get8 oc 0x05)
      error_operation := ErrorOperation.ofU8 (← s.get8 oc 0x06)
      vendor_syndrome := ← s.get32 oc 0x07
      memory_array_error_address := ← s.get32 oc 0x0B
      device_error_address := ← s.get32 oc 0x0F
      error_resolution := ← s.get32 oc 0x13 }

/-- `MemoryArrayMappedAddress`, `src/structures/019_memory_array_mapped_address.rs` 14-50. -/
structure memory_array_mapped_address.MemoryArrayMappedAddress where
  handle : UInt16
  starting_address : UInt32
  ending_address : UInt32
  memory_array_handle : UInt16
  partition_width : UInt8
  extended_starting_address : Option UInt64
  extended_ending_address : Option UInt64
deriving DecidableEq, Repr

open memory_array_mapped_address in
/-- `MemoryArrayMappedAddress::try_from`, `src/structures/019_memory_array_mapped_address.rs` 53-78. -/
def memory_array_mapped_address.MemoryArrayMappedAddress.try_from [Usize] (oc : Bool) (s : RawStructure) :
    R MemoryArrayMappedAddress :=
  if (s.version.ge (.ofPair 2 1) && s.version.lt (.ofPair 2 7)) && s.length != 0x0F then
    .err (.InvalidFormattedSectionLength .MemoryArrayMappedAddress s.handle "" 0x0F)
  else if s.version.ge (.ofPair 2 7) && s.length != 0x1F then
    .err (.InvalidFormattedSectionLength .MemoryArrayMappedAddress s.handle "" 0x1F)
  else do
    pure {
      handle := s.handle
      starting_address := ← s.get32 oc 0x04
      ending_address := ← s.get32 oc 0x08
      memory_array_handle := ← s.get16 oc 0x0C
      partition_width := ← s.get8 oc 0x0E
      extended_starting_address := ← (s.get64 oc 0x0F).toOption
      extended_ending_address := ← (s.get64 oc 0x17).toOption }

/-- `MemoryDeviceMappedAddress`, `src/structures/020_memory_device_mapped_address.rs` 14-63. -/
structure memory_device_mapped_address.MemoryDeviceMappedAddress where
  handle : UInt16
  starting_address : UInt32
  ending_address : UInt32
  memory_device_handle : UInt16
  memory_array_mapped_address_handle : UInt16
  partition_row_position : UInt8
  interleave_position : UInt8
  interleaved_data_depth : UInt8
  extended_starting_address : Option UInt64
  extended_ending_address : Option UInt64
deriving DecidableEq, Repr

open memory_device_mapped_address in
/-- `MemoryDeviceMappedAddress::try_from`,
`src/structures/020_memory_device_mapped_address.rs` 66-94. -/
def memory_device_mapped_address.MemoryDeviceMappedAddress.try_from [Usize] (oc : Bool) (s : RawStructure) :
    R MemoryDeviceMappedAddress :=
  if (s.version.ge (.ofPair 2 1) && s.version.lt (.ofPair 2 7)) && s.length != 0x13 then
    .err (.InvalidFormattedSectionLength .MemoryDeviceMappedAddress s.handle "" 0x13)
  else if s.version.ge (.ofPair 2 7) && s.length != 0x23 then
    .err (.InvalidFormattedSectionLength .MemoryDeviceMappedAddress s.handle "" 0x23)
  else do
    pure {
      handle := s.handle
      starting_address := ← s.get32 oc 0x04
      ending_address := ← s.get32 oc 0x08
      memory_device_handle := ← s.get16 oc 0x0C
      memory_array_mapped_address_handle := ← s.get16 oc 0x0E
      partition_row_position := ← s.get8 oc 0x10
      interleave_position := ← s.get8 oc 0x11
      interleaved_data_depth := ← s.get8 oc 0x12
      extended_starting_address := ← (s.get64 oc 0x13).toOption
      extended_ending_address := ← (s.get64 oc 0x1B).toOption }

/-- `BuiltInPointingDevice`, `src/structures/021_built_in_pointing_device.rs` 17-25. -/
structure built_in_pointing_device.BuiltInPointingDevice where
  handle : UInt16
  type_ : built_in_pointing_device.DeviceType
  interface : built_in_pointing_device.Interface
  number_of_buttons : UInt8
deriving DecidableEq, Repr

open built_in_pointing_device in
/-- `BuiltInPointingDevice::try_from`, `src/structures/021_built_in_pointing_device.rs` 66-82. -/
def built_in_pointing_device.BuiltInPointingDevice.try_from [Usize] (oc : Bool) (s : RawStructure) :
    R BuiltInPointingDevice :=
  if s.version.ge (.ofPair 2 1) && s.length != 0x07 then
    .err (.InvalidFormattedSectionLength .BuiltInPointingDevice s.handle "" 0x07)
  else do
    pure {
      handle := s.handle
      type_ := DeviceType.ofU8 (← s.get8 oc 0x04)
      interface := Interface.ofU8 (← s.get8 oc 0x05)
      number_of_buttons := ← s.get8 oc 0x06 }

end Dmi
