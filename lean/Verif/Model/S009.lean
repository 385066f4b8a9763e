import Verif.Model.S003
/-!
# Model of `src/structures/009_system_slots.rs` (System Slots, type 9)
-/
namespace Dmi.system_slots

/-- `SlotCharacteristics1`, `src/structures/009_system_slots.rs` 294, conversion 760-764. -/
structure SlotCharacteristics1 where
  bits : UInt8
deriving DecidableEq, Repr

/-- `SlotCharacteristics2`, `src/structures/009_system_slots.rs` 297, conversion 792-796. -/
structure SlotCharacteristics2 where
  bits : UInt8
deriving DecidableEq, Repr

/-- `DeviceAndFunctionNumber`, `src/structures/009_system_slots.rs` 314. -/
structure DeviceAndFunctionNumber where
  device : UInt8
  function : UInt8
deriving DecidableEq, Repr

/-- `impl From<u8> for DeviceAndFunctionNumber`, `src/structures/009_system_slots.rs` 835-839. -/
def DeviceAndFunctionNumber.ofU8 (byte : UInt8) : DeviceAndFunctionNumber :=
  ⟨byte >>> 3, byte &&& 0b0111⟩

/-- `impl From<DeviceAndFunctionNumber> for u8`, `src/structures/009_system_slots.rs` 840-844. -/
def DeviceAndFunctionNumber.toU8 (df : DeviceAndFunctionNumber) : UInt8 :=
  (df.device <<< 3) ||| df.function

/-- `Device`, `src/structures/009_system_slots.rs` 300-311. -/
structure Device where
  segment_group_number : UInt16
  bus_number : UInt8
  device_and_function_number : DeviceAndFunctionNumber
  data_bus_width : UInt8
deriving DecidableEq, Repr

/-- `DevicePacked` (5 bytes), `src/structures/009_system_slots.rs` 317-324. -/
structure DevicePacked where
  segment_group_number : UInt16
  bus_number : UInt8
  dev_and_fun_number : UInt8
  data_bus_width : UInt8

/-- Memory layout of `DevicePacked`. -/
def DevicePacked.packed : Packed DevicePacked := do
  let segment_group_number ← .u16
  let bus_number ← .u8
  let dev_and_fun_number ← .u8
  let data_bus_width ← .u8
  pure { segment_group_number, bus_number, dev_and_fun_number, data_bus_width }

/-- `impl From<&[u8]> for Device`, `src/structures/009_system_slots.rs` 798-808. -/
def Device.ofSlice (data : Bytes) : Fault Device := do
  let packed ← letAsStruct DevicePacked.packed data
  pure {
    segment_group_number := packed.segment_group_number
    bus_number := packed.bus_number
    device_and_function_number := DeviceAndFunctionNumber.ofU8 packed.dev_and_fun_number
    data_bus_width := packed.data_bus_width }

/-- `impl From<&Device> for [u8; 5]`, `src/structures/009_system_slots.rs` 809-820
(`to_ne_bytes` on a little-endian host). -/
def Device.toBytes (d : Device) : Bytes :=
  [d.segment_group_number.toUInt8, (d.segment_group_number >>> 8).toUInt8, d.bus_number,
   d.device_and_function_number.toU8, d.data_bus_width]

/-- `PeerDevices`, `src/structures/009_system_slots.rs` 328. -/
structure PeerDevices where
  chunks : Chunks
deriving DecidableEq, Repr

/-- `impl From<&[u8]> for PeerDevices`, `src/structures/009_system_slots.rs` 846-850. -/
def PeerDevices.ofSlice (data : Bytes) : PeerDevices := ⟨{ rest := data, size := 5 }⟩

/-- `PeerDevices::next`, `src/structures/009_system_slots.rs` 862-868. -/
def PeerDevices.next (p : PeerDevices) : Fault (Option Device × PeerDevices) :=
  match p.chunks.next with
  | (none, ch) => .ok (none, ⟨ch⟩)
  | (some a, ch) => do
    let d ← Device.ofSlice a
    .ok (some d, ⟨ch⟩)

/-- `SlotPitch`, `src/structures/009_system_slots.rs` 340, conversion 870-874. -/
structure SlotPitch where
  value : UInt16
deriving DecidableEq, Repr

/-- `SystemSlots`, `src/structures/009_system_slots.rs` 21-70. -/
structure SystemSlots where
  handle : UInt16
  slot_designation : Str
  slot_type : SlotType
  slot_data_bus_width : SlotWidth
  current_usage : CurrentUsage
  slot_length : SlotLength
  slot_id : UInt16
  slot_characteristics_1 : SlotCharacteristics1
  slot_characteristics_2 : Option SlotCharacteristics2
  segment_group_number : Option UInt16
  bus_number : Option UInt8
  device_and_function_number : Option DeviceAndFunctionNumber
  data_bus_width : Option UInt8
  peer_devices : Option PeerDevices
  slot_information : Option UInt8
  slot_physical_width : Option SlotWidth
  slot_pitch : Option SlotPitch
deriving DecidableEq, Repr

/-- Comparison of `(u8, u8)` pairs, as in the range tests of `try_from`: `(v.major, v.minor) < (a, b)`. -/
def verLt (v : SmbiosVersion) (a b : Nat) : Bool := v.lt (.ofPair a b)

/-- The last arm of `SystemSlots::try_from`, `src/structures/009_system_slots.rs` 362-402. The
`usize` arithmetic `0x16 + 5 * n` with `n ≤ 255` cannot overflow. -/
def SystemSlots.decode [Usize] (oc : Bool) (s : RawStructure) : R SystemSlots := do
  let peer_grouping_count := (← (s.get8 oc 0x12).toOption).getD 0
  let n := peer_grouping_count.toNat
  pure {
    handle := s.handle
    slot_designation := ← s.get_string oc 0x04
    slot_type := SlotType.ofU8 (← s.get8 oc 0x05)
    slot_data_bus_width := SlotWidth.ofU8 (← s.get8 oc 0x06)
    current_usage := CurrentUsage.ofU8 (← s.get8 oc 0x07)
    slot_length := SlotLength.ofU8 (← s.get8 oc 0x08)
    slot_id := ← s.get16 oc 0x09
    slot_characteristics_1 := ⟨← s.get8 oc 0x0B⟩
    slot_characteristics_2 := (← (s.get8 oc 0x0C).toOption).map (⟨·⟩)
    segment_group_number := (← (s.get16 oc 0x0D).toOption).filter (fun v => v != 0xFFFF)
    bus_number := (← (s.get8 oc 0x0F).toOption).filter (fun v => v != 0xFF)
    device_and_function_number :=
      ((← (s.get8 oc 0x10).toOption).filter (fun v => v != 0xFF)).map DeviceAndFunctionNumber.ofU8
    data_bus_width := ← (s.get8 oc 0x11).toOption
    peer_devices := (← s.get_slice oc 0x13 (5 * n)).map PeerDevices.ofSlice
    slot_information := ← (s.get8 oc (0x14 + 5 * n)).toOption
    slot_physical_width := (← (s.get8 oc (0x15 + 5 * n)).toOption).map SlotWidth.ofU8
    slot_pitch := (← (s.get16 oc (0x16 + 5 * n)).toOption).map (⟨·⟩) }

/-- `SystemSlots::try_from`, `src/structures/009_system_slots.rs` 343-404. -/
def SystemSlots.try_from [Usize] (oc : Bool) (s : RawStructure) : R SystemSlots :=
  let v := s.version
  let l := s.data.length + 4
  if (!verLt v 2 0 && verLt v 2 1) && l != 0x0C then
    .err (.InvalidFormattedSectionLength .SystemSlots s.handle "" 0x0C)
  else if (!verLt v 2 1 && verLt v 2 6) && l != 0x0D then
    .err (.InvalidFormattedSectionLength .SystemSlots s.handle "" 0x0D)
  else if (!verLt v 2 6 && verLt v 3 2) && l != 0x11 then
    .err (.InvalidFormattedSectionLength .SystemSlots s.handle "" 0x11)
  else if !verLt v 3 2 && l < 0x11 then
    .err (.InvalidFormattedSectionLength .SystemSlots s.handle "minimum of " 0x11)
  else SystemSlots.decode oc s

end Dmi.system_slots
