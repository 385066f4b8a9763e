import Verif.Model.Lib
/-!
# Model of `src/structures/016_physical_memory_array.rs` (Physical Memory Array, type 16)
-/
namespace Dmi.physical_memory_array

/-- `PhysicalMemoryArray`, `src/structures/016_physical_memory_array.rs` 169-195. The default values
are those of the derived `Default` (168) and the `#[default]` variants (14, 81, 124). -/
structure PhysicalMemoryArray where
  handle : UInt16 := 0
  location : MemoryArrayLocation := .Unknown
  use : MemoryArrayUse := .Unknown
  memory_error_correction : MemoryArrayErrorCorrectionTypes := .Unknown
  maximum_capacity : Option UInt32 := none
  memory_error_information_handle : Option UInt16 := none
  number_of_memory_devices : UInt16 := 0
  extended_maximum_capacity : Option UInt64 := none
deriving DecidableEq, Repr

/-- `get_word`, `src/structures/016_physical_memory_array.rs` 251-259: the value and the advanced
pointer. The slice has the right length for `try_into`, so only the indexing can fail. -/
def get_word (pointer : Nat) (data : Bytes) : R (UInt16 × Nat) := do
  let b ← indexRange data pointer (pointer + 2)
  pure (le16 b, pointer + 2)

/-- `get_dword`, `src/structures/016_physical_memory_array.rs` 261-269. -/
def get_dword (pointer : Nat) (data : Bytes) : R (UInt32 × Nat) := do
  let b ← indexRange data pointer (pointer + 4)
  pure (le32 b, pointer + 4)

/-- `get_qword`, `src/structures/016_physical_memory_array.rs` 271-279. -/
def get_qword (pointer : Nat) (data : Bytes) : R (UInt64 × Nat) := do
  let b ← indexRange data pointer (pointer + 8)
  pure (le64 b, pointer + 8)

/-- `get_optional_word`, `src/structures/016_physical_memory_array.rs` 242-249. -/
def get_optional_word (pointer : Nat) (data : Bytes) (none_val : UInt16) :
    R (Option UInt16 × Nat) := do
  let (word, pointer) ← get_word pointer data
  if word = none_val then pure (none, pointer) else pure (some word, pointer)

/-- `get_optional_dword`, `src/structures/016_physical_memory_array.rs` 233-240. -/
def get_optional_dword (pointer : Nat) (data : Bytes) (none_val : UInt32) :
    R (Option UInt32 × Nat) := do
  let (word, pointer) ← get_dword pointer data
  if word = none_val then pure (none, pointer) else pure (some word, pointer)

/-- `get_optional_qword`, `src/structures/016_physical_memory_array.rs` 224-231. -/
def get_optional_qword (pointer : Nat) (data : Bytes) (none_val : UInt64) :
    R (Option UInt64 × Nat) := do
  let (word, pointer) ← get_qword pointer data
  if word = none_val then pure (none, pointer) else pure (some word, pointer)

/-- The first `if` of `try_from`, `src/structures/016_physical_memory_array.rs` 201-212. -/
def fill2_1 (s : RawStructure) (pma : PhysicalMemoryArray) (mem_pointer : Nat) :
    R (PhysicalMemoryArray × Nat) :=
  if s.version.gt (.ofPair 2 1) then do
    let location ← indexAt s.data mem_pointer
    let mem_pointer := mem_pointer + 1
    let use ← indexAt s.data mem_pointer
    let mem_pointer := mem_pointer + 1
    let memory_error_correction ← indexAt s.data mem_pointer
    let mem_pointer := mem_pointer + 1
    let (maximum_capacity, mem_pointer) ← get_optional_dword mem_pointer s.data 0x80000000
    let (memory_error_information_handle, mem_pointer) ←
      get_optional_word mem_pointer s.data 0xFFFE
    let (number_of_memory_devices, mem_pointer) ← get_word mem_pointer s.data
    pure ({ pma with
      handle := s.handle
      location := MemoryArrayLocation.ofU8 location
      use := MemoryArrayUse.ofU8 use
      memory_error_correction := MemoryArrayErrorCorrectionTypes.ofU8 memory_error_correction
      maximum_capacity
      memory_error_information_handle
      number_of_memory_devices }, mem_pointer)
  else pure (pma, mem_pointer)

/-- `PhysicalMemoryArray::try_from`, `src/structures/016_physical_memory_array.rs` 198-221. -/
def PhysicalMemoryArray.try_from (s : RawStructure) : R PhysicalMemoryArray := do
  let (pma, mem_pointer) ← fill2_1 s {} 0
  if s.version.gt (.ofPair 2 7) then
    if pma.maximum_capacity.isNone then do
      let (extended_maximum_capacity, _) ← get_optional_qword mem_pointer s.data 0
      pure { pma with extended_maximum_capacity }
    else pure { pma with extended_maximum_capacity := none }
  else pure pma

end Dmi.physical_memory_array
