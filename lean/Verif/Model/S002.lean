import Verif.Model.Lib
/-!
# Model of `src/structures/002_baseboard.rs` (Baseboard Information, type 2)
-/
namespace Dmi.baseboard

/-- `BaseBoardFlags` (`bitflags!`), `src/structures/002_baseboard.rs` 74-84. -/
structure BaseBoardFlags where
  bits : UInt8
deriving DecidableEq, Repr

/-- The declared flags of `BaseBoardFlags`, `src/structures/002_baseboard.rs` 78-82. -/
def BaseBoardFlags.flags : List (String × UInt8) :=
  [("HOSTING", 0b0000_0001), ("REQUIRES_DAUGHTER", 0b0000_0010), ("IS_REMOVABLE", 0b0000_0100),
   ("IS_REPLACEABLE", 0b0000_1000), ("IS_HOT_SWAPPABLE", 0b0001_0000)]

/-- `BaseBoardFlags::from_bits_truncate` (crate `bitflags`): keep the bits occurring in a declared
flag. -/
def BaseBoardFlags.fromBitsTruncate (b : UInt8) : BaseBoardFlags :=
  ⟨b &&& (flags.map (·.2)).foldl (· ||| ·) 0⟩

/-- `BaseBoardFlags::contains` (crate `bitflags`): all bits of the given flag are set. -/
def BaseBoardFlags.contains (f : BaseBoardFlags) (flag : UInt8) : Bool := f.bits &&& flag == flag

/-- `BaseBoard`, `src/structures/002_baseboard.rs` 91-102. -/
structure BaseBoard where
  handle : UInt16
  manufacturer : Str
  product : Str
  version : Str
  serial : Str
  asset : Option Str
  feature_flags : Option BaseBoardFlags
  location_in_chassis : Option Str
  chassis_handle : Option UInt16
  board_type : Option BoardType
deriving DecidableEq, Repr

/-- `BaseBoardPacked` (10 bytes), `src/structures/002_baseboard.rs` 106-118. -/
structure BaseBoardPacked where
  manufacturer : UInt8
  product : UInt8
  version : UInt8
  serial : UInt8
  asset : UInt8
  feature_flags : UInt8
  location_in_chassis : UInt8
  chassis_handle : UInt16
  board_type : UInt8

/-- Memory layout of `BaseBoardPacked`. -/
def BaseBoardPacked.packed : Packed BaseBoardPacked := do
  let manufacturer ← .u8
  let product ← .u8
  let version ← .u8
  let serial ← .u8
  let asset ← .u8
  let feature_flags ← .u8
  let location_in_chassis ← .u8
  let chassis_handle ← .u16
  let board_type ← .u8
  pure { manufacturer, product, version, serial, asset, feature_flags, location_in_chassis,
         chassis_handle, board_type }

/-- `BaseBoard::try_from`, `src/structures/002_baseboard.rs` 105-160. -/
def BaseBoard.try_from (s : RawStructure) : R BaseBoard := do
  let packed ← letAsStruct BaseBoardPacked.packed s.data
  let asset ← if s.data.length > 4 then do pure (some (← s.find_string packed.asset))
    else pure none
  let feature_flags := if s.data.length > 5 then
    some (BaseBoardFlags.fromBitsTruncate packed.feature_flags) else none
  let location_in_chassis ← if s.data.length > 6 then do
      pure (some (← s.find_string packed.location_in_chassis))
    else pure none
  let chassis_handle := if s.data.length > 7 then some packed.chassis_handle else none
  let board_type := if s.data.length > 9 then some (BoardType.ofU8 packed.board_type) else none
  pure {
    handle := s.handle
    manufacturer := ← s.find_string packed.manufacturer
    product := ← s.find_string packed.product
    version := ← s.find_string packed.version
    serial := ← s.find_string packed.serial
    asset, feature_flags, location_in_chassis, chassis_handle, board_type }

end Dmi.baseboard
