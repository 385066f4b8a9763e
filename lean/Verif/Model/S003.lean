import Verif.Model.S002
/-!
# Model of `src/structures/003_enclosure.rs` (System Enclosure, type 3)
-/
namespace Dmi

/-- `core::slice::Chunks`: what is left of the slice, and the chunk size. -/
structure Chunks where
  rest : Bytes
  size : Nat
deriving DecidableEq, Repr

/-- `Chunks::next` (core) for a non-zero chunk size. -/
def Chunks.next (c : Chunks) : Option Bytes × Chunks :=
  if c.rest.isEmpty then (none, c)
  else (some (c.rest.take c.size), { c with rest := c.rest.drop c.size })

namespace enclosure

/-- `ContainedElementType`, `src/structures/003_enclosure.rs` 159-162. -/
inductive ContainedElementType where
  | BoardType (b : baseboard.BoardType)
  | InfoType (i : Dmi.InfoType)
deriving DecidableEq, Repr

/-- `ContainedElement`, `src/structures/003_enclosure.rs` 144-154. -/
structure ContainedElement where
  type_ : ContainedElementType
  minimum : UInt8
  maximum : UInt8
deriving DecidableEq, Repr

/-- `ContainedElements`, `src/structures/003_enclosure.rs` 135-139. -/
structure ContainedElements where
  chunks : Chunks
  count : UInt8
  record_length : UInt8
deriving DecidableEq, Repr

/-- `Enclosure`, `src/structures/003_enclosure.rs` 16-53. -/
structure Enclosure where
  handle : UInt16
  manufacturer : Str
  chassis_lock : Bool
  enclosure_type : EnclosureType
  version : Str
  serial_number : Str
  asset_tag_number : Str
  boot_up_state : Option State
  power_supply_state : Option State
  thermal_state : Option State
  security_status : Option SecurityStatus
  oem_defined : Option UInt32
  height : Option UInt8
  power_cords_number : Option UInt8
  contained_elements : Option ContainedElements
  sku_number : Option Str
deriving DecidableEq, Repr

/-- `EnclosurePacked2_0` (5 bytes), `src/structures/003_enclosure.rs` 166-174. -/
structure EnclosurePacked2_0 where
  manufacturer : UInt8
  enclosure_type : UInt8
  version : UInt8
  serial_number : UInt8
  asset_tag_number : UInt8

/-- Memory layout of `EnclosurePacked2_0`. -/
def EnclosurePacked2_0.packed : Packed EnclosurePacked2_0 := do
  let manufacturer ← .u8
  let enclosure_type ← .u8
  let version ← .u8
  let serial_number ← .u8
  let asset_tag_number ← .u8
  pure { manufacturer, enclosure_type, version, serial_number, asset_tag_number }

/-- `mem::size_of::<EnclosurePacked2_0>()`. -/
def EnclosurePacked2_0.size : Nat := 5

/-- `read_bytes`, `src/structures/003_enclosure.rs` 504-512, for a type of `size` bytes with memory
layout `p`: the value and the advanced slice. The raw read is undefined behaviour outside the slice. -/
def read_bytes {α : Type} (size : Nat) (p : Packed α) (data : Bytes) : R (Option (α × Bytes)) :=
  if data.length < size then .ok none
  else do
    let value ← letAsStruct p data
    let data ← indexFrom data size
    .ok (some (value, data))

/-- `read_bytes::<u8>`. -/
def read_bytes8 (data : Bytes) : R (Option (UInt8 × Bytes)) := read_bytes 1 .u8 data

/-- `read_bytes::<u32>`. -/
def read_bytes32 (data : Bytes) : R (Option (UInt32 × Bytes)) := read_bytes 4 .u32 data

/-- `ContainedElements::new`, `src/structures/003_enclosure.rs` 412-432: the value and the advanced
slice. `count * record_length` is a `u8` multiplication. -/
def ContainedElements.new [Usize] (oc : Bool) (data : Bytes) : R (Option (ContainedElements × Bytes)) := do
  match ← read_bytes8 data with
  | none => .ok none
  | some (count, data) =>
    match ← read_bytes8 data with
    | none => .ok none
    | some (record_length, data) =>
      if count = 0 ∨ record_length = 0 then
        .ok (some ({ chunks := { rest := [], size := 2 ^ Usize.bits - 1 }, count, record_length }, data))
      else do
        let length ← mulU8 oc count record_length
        match getRange data 0 length.toNat with
        | none => .ok none
        | some records => do
          let data' ← indexFrom data length.toNat
          .ok (some ({ chunks := { rest := records, size := record_length.toNat }, count,
                       record_length }, data'))

/-- `ContainedElements::count`, `src/structures/003_enclosure.rs` 434-436: the inherent method hides
`Iterator::count`. -/
def ContainedElements.countMethod (c : ContainedElements) : UInt8 := c.count

/-- The fields the optional chain of `Enclosure::try_from` fills in (lines 228-261). -/
structure Optionals where
  boot_up_state : Option State := none
  power_supply_state : Option State := none
  thermal_state : Option State := none
  security_status : Option SecurityStatus := none
  oem_defined : Option UInt32 := none
  height : Option UInt8 := none
  power_cords_number : Option UInt8 := none
  contained_elements : Option ContainedElements := none
deriving DecidableEq, Repr

/-- The chain of `and_then` calls, `src/structures/003_enclosure.rs` 228-261: fields are filled in
while bytes remain; the result is the SKU string reference if the chain got that far. -/
def readOptionals [Usize] (oc : Bool) (data : Bytes) : R (Optionals × Option UInt8) := do
  let e : Optionals := {}
  match ← read_bytes8 data with
  | none => .ok (e, none)
  | some (boot_up_state, data) =>
  let e := { e with boot_up_state := some (State.ofU8 boot_up_state) }
  match ← read_bytes8 data with
  | none => .ok (e, none)
  | some (power_supply_state, data) =>
  let e := { e with power_supply_state := some (State.ofU8 power_supply_state) }
  match ← read_bytes8 data with
  | none => .ok (e, none)
  | some (thermal_state, data) =>
  let e := { e with thermal_state := some (State.ofU8 thermal_state) }
  match ← read_bytes8 data with
  | none => .ok (e, none)
  | some (security_status, data) =>
  let e := { e with security_status := some (SecurityStatus.ofU8 security_status) }
  match ← read_bytes32 data with
  | none => .ok (e, none)
  | some (oem_defined, data) =>
  let e := { e with oem_defined := some oem_defined }
  match ← read_bytes8 data with
  | none => .ok (e, none)
  | some (height, data) =>
  let e := { e with height := some height }
  match ← read_bytes8 data with
  | none => .ok (e, none)
  | some (power_cords_number, data) =>
  let e := { e with power_cords_number := some power_cords_number }
  match ← ContainedElements.new oc data with
  | none => .ok (e, none)
  | some (contained_elements, data) =>
    let e := { e with contained_elements := some contained_elements }
    match ← read_bytes8 data with
    | none => .ok (e, none)
    | some (sku_number, _) => .ok (e, some sku_number)

/-- `RawEnclosureType::get_lock`, `src/structures/003_enclosure.rs` 187-189. -/
def get_lock (b : UInt8) : Bool := (b &&& 0b1000_0000) != 0

/-- `RawEnclosureType::get_type`, `src/structures/003_enclosure.rs` 190-192. -/
def get_type (b : UInt8) : EnclosureType := EnclosureType.ofU8 (b &&& 0b0111_1111)

/-- The SKU string, `src/structures/003_enclosure.rs` 263-266. -/
def findSku (s : RawStructure) (sku : Option UInt8) : R (Option Str) :=
  match sku with
  | some i => do pure (some (← s.find_string i))
  | none => pure none

/-- `Enclosure::try_from`, `src/structures/003_enclosure.rs` 165-269. -/
def Enclosure.try_from [Usize] (oc : Bool) (s : RawStructure) : R Enclosure :=
  if s.data.length < EnclosurePacked2_0.size then
    .err (.InvalidFormattedSectionLength s.info s.handle "minimum of "
      (UInt8.ofNat EnclosurePacked2_0.size))
  else do
    let minimum := s.data.take EnclosurePacked2_0.size
    let extra := s.data.drop EnclosurePacked2_0.size
    let packed ← letAsStruct EnclosurePacked2_0.packed minimum
    let manufacturer ← s.find_string packed.manufacturer
    let version ← s.find_string packed.version
    let serial_number ← s.find_string packed.serial_number
    let asset_tag_number ← s.find_string packed.asset_tag_number
    let (o, sku) ← readOptionals oc extra
    let sku_number ← findSku s sku
    pure {
      handle := s.handle
      manufacturer
      chassis_lock := get_lock packed.enclosure_type
      enclosure_type := get_type packed.enclosure_type
      version, serial_number, asset_tag_number
      boot_up_state := o.boot_up_state
      power_supply_state := o.power_supply_state
      thermal_state := o.thermal_state
      security_status := o.security_status
      oem_defined := o.oem_defined
      height := o.height
      power_cords_number := o.power_cords_number
      contained_elements := o.contained_elements
      sku_number }

/-- `impl From<u8> for ContainedElementType`, `src/structures/003_enclosure.rs` 485-494. -/
def ContainedElementType.ofU8 (byte : UInt8) : ContainedElementType :=
  let val := byte &&& 0b0111_1111
  if byte &&& 0b1000_0000 = 0 then .BoardType (baseboard.BoardType.ofU8 val)
  else .InfoType (Dmi.InfoType.ofU8 val)

/-- `impl From<&[u8]> for ContainedElement`, `src/structures/003_enclosure.rs` 462-478: an unchecked
read of three bytes. -/
def ContainedElement.ofSlice (data : Bytes) : Fault ContainedElement :=
  letAsStruct (do
    let type_ ← .u8
    let minimum ← .u8
    let maximum ← .u8
    pure { type_ := ContainedElementType.ofU8 type_, minimum, maximum }) data

/-- `ContainedElements::next`, `src/structures/003_enclosure.rs` 457-459. -/
def ContainedElements.next (c : ContainedElements) :
    Fault (Option ContainedElement × ContainedElements) :=
  match c.chunks.next with
  | (none, ch) => .ok (none, { c with chunks := ch })
  | (some a, ch) => do
    let e ← ContainedElement.ofSlice a
    .ok (some e, { c with chunks := ch })

end enclosure
end Dmi
