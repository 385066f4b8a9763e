import Verif.Model.Lib
/-!
# Model of `src/structures/001_system.rs` (System Information, type 1)
-/
namespace Dmi.system

/-- A `uuid::Uuid`: its 16 bytes in the order `Uuid::as_bytes` gives. -/
abbrev Uuid := Bytes

/-- `uuid::Uuid::from_bytes` (crate `uuid`): the bytes verbatim. -/
def Uuid.from_bytes (b : Bytes) : Uuid := b

/-- `uuid::Uuid::from_bytes_le` (crate `uuid`): the first three groups (4, 2 and 2 bytes) are
little-endian, so each is reversed; the last eight bytes are verbatim. -/
def Uuid.from_bytes_le (b : Bytes) : Uuid :=
  (b.take 4).reverse ++ ((b.drop 4).take 2).reverse ++ ((b.drop 6).take 2).reverse ++ b.drop 8

/-- `System`, `src/structures/001_system.rs` 48-58. -/
structure System where
  handle : UInt16
  manufacturer : Str
  product : Str
  version : Str
  serial : Str
  uuid : Option Uuid
  wakeup : Option WakeupType
  sku : Option Str
  family : Option Str
deriving DecidableEq, Repr

/-- `UuidRepr::decode_by_smbios_version`, `src/structures/001_system.rs` 75-81. -/
def decode_by_smbios_version (u : Bytes) (version : SmbiosVersion) : Uuid :=
  if version.lt (.ofPair 2 6) then Uuid.from_bytes u else Uuid.from_bytes_le u

/-- `SystemPacked2_0` (4 bytes), `src/structures/001_system.rs` 85-92. -/
structure SystemPacked2_0 where
  manufacturer : UInt8
  product : UInt8
  version : UInt8
  serial : UInt8

/-- Memory layout of `SystemPacked2_0`. -/
def SystemPacked2_0.packed : Packed SystemPacked2_0 := do
  let manufacturer ← .u8
  let product ← .u8
  let version ← .u8
  let serial ← .u8
  pure { manufacturer, product, version, serial }

/-- `SystemPacked2_1` (21 bytes), `src/structures/001_system.rs` 94-100. -/
structure SystemPacked2_1 where
  v2_0 : SystemPacked2_0
  uuid : Bytes
  wakeup : UInt8

/-- Memory layout of `SystemPacked2_1`. -/
def SystemPacked2_1.packed : Packed SystemPacked2_1 := do
  let v2_0 ← SystemPacked2_0.packed
  let uuid ← .array 16
  let wakeup ← .u8
  pure { v2_0, uuid, wakeup }

/-- `SystemPacked2_4` (23 bytes), `src/structures/001_system.rs` 102-108. -/
structure SystemPacked2_4 where
  v2_1 : SystemPacked2_1
  sku : UInt8
  family : UInt8

/-- Memory layout of `SystemPacked2_4`. -/
def SystemPacked2_4.packed : Packed SystemPacked2_4 := do
  let v2_1 ← SystemPacked2_1.packed
  let sku ← .u8
  let family ← .u8
  pure { v2_1, sku, family }

/-- `System::try_from`, `src/structures/001_system.rs` 61-153. -/
def System.try_from (s : RawStructure) : R System :=
  if s.version.lt (.ofPair 2 1) then do
    let packed ← letAsStruct SystemPacked2_0.packed s.data
    pure {
      handle := s.handle
      manufacturer := ← s.find_string packed.manufacturer
      product := ← s.find_string packed.product
      version := ← s.find_string packed.version
      serial := ← s.find_string packed.serial
      uuid := none
      wakeup := none
      sku := none
      family := none }
  else if s.version.lt (.ofPair 2 4) then do
    let packed ← letAsStruct SystemPacked2_1.packed s.data
    pure {
      handle := s.handle
      manufacturer := ← s.find_string packed.v2_0.manufacturer
      product := ← s.find_string packed.v2_0.product
      version := ← s.find_string packed.v2_0.version
      serial := ← s.find_string packed.v2_0.serial
      uuid := some (decode_by_smbios_version packed.uuid s.version)
      wakeup := some (WakeupType.ofU8 packed.wakeup)
      sku := none
      family := none }
  else do
    let packed ← letAsStruct SystemPacked2_4.packed s.data
    pure {
      handle := s.handle
      manufacturer := ← s.find_string packed.v2_1.v2_0.manufacturer
      product := ← s.find_string packed.v2_1.v2_0.product
      version := ← s.find_string packed.v2_1.v2_0.version
      serial := ← s.find_string packed.v2_1.v2_0.serial
      uuid := some (decode_by_smbios_version packed.v2_1.uuid s.version)
      wakeup := some (WakeupType.ofU8 packed.v2_1.wakeup)
      sku := some (← s.find_string packed.sku)
      family := some (← s.find_string packed.family) }

end Dmi.system
