import Verif.Model.Dispatch
/-!
# What an over-read delivers

`let_as_struct!` (`src/lib.rs` 69-76) reads a whole packed struct through the pointer of a slice without
looking at its length. `Basic.lean` calls a read past the end of the slice undefined behaviour. The
formatted area of a structure is however a part of the table, so compiled code that is not optimised on
that ground reads on into the string area of the structure and the structures behind it. This file models
that behaviour ("flat memory"): `past` are the bytes that follow the formatted area in the buffer, and only
a read past the end of the whole buffer is undefined.

The decoders below are the seven that apply `let_as_struct!` to `structure.data`; all others read with
checked accesses and are the same in both models.
-/
namespace Dmi.Flat

/-- `structure`, as a reader through `structure.data.as_ptr()` sees it. -/
def seen (past : Bytes) (s : RawStructure) : RawStructure := { s with data := s.data ++ past }

/-- `Bios::try_from`, `src/structures/000_bios.rs` 81-207. `structure.data` is used for the unchecked
read only. -/
def bios (past : Bytes) (s : RawStructure) : R bios.Bios := bios.Bios.try_from (seen past s)

/-- `System::try_from`, `src/structures/001_system.rs` 61-153. `structure.data` is used for the unchecked
read only. -/
def system (past : Bytes) (s : RawStructure) : R system.System := system.System.try_from (seen past s)

/-- `BaseBoard::try_from`, `src/structures/002_baseboard.rs` 105-160. Besides the unchecked read the
decoder asks for `structure.data.len()`, which is the length of the slice. -/
def baseboard (past : Bytes) (s : RawStructure) : R baseboard.BaseBoard := do
  let packed ← letAsStruct baseboard.BaseBoardPacked.packed (s.data ++ past)
  let asset ← if s.data.length > 4 then do pure (some (← s.find_string packed.asset))
    else pure none
  let feature_flags := if s.data.length > 5 then
    some (baseboard.BaseBoardFlags.fromBitsTruncate packed.feature_flags) else none
  let location_in_chassis ← if s.data.length > 6 then do
      pure (some (← s.find_string packed.location_in_chassis))
    else pure none
  let chassis_handle := if s.data.length > 7 then some packed.chassis_handle else none
  let board_type := if s.data.length > 9 then
    some (baseboard.BoardType.ofU8 packed.board_type) else none
  pure {
    handle := s.handle
    manufacturer := ← s.find_string packed.manufacturer
    product := ← s.find_string packed.product
    version := ← s.find_string packed.version
    serial := ← s.find_string packed.serial
    asset, feature_flags, location_in_chassis, chassis_handle, board_type }

/-- `Processor::try_from`, `src/structures/004_processor.rs` 471-822. `structure.data` is used for the
unchecked read only. -/
def processor (past : Bytes) (s : RawStructure) : R processor.Processor :=
  processor.Processor.try_from (seen past s)

/-- `Cache::try_from`, `src/structures/007_cache.rs` 170-271. `structure.data` is used for the unchecked
read only. -/
def cache (past : Bytes) (s : RawStructure) : R cache.Cache := cache.Cache.try_from (seen past s)

/-- `PortConnector::try_from`, `src/structures/008_port_connector.rs` 129-149. `structure.data` is used for
the unchecked read only. -/
def port_connector (past : Bytes) (s : RawStructure) : R port_connector.PortConnector :=
  port_connector.PortConnector.try_from (seen past s)

/-- `BiosLanguage::try_from`, `src/structures/013_bios_language.rs` 33-71. The structure itself, with its
slice unchanged, is kept for the installable languages. -/
def bios_language (past : Bytes) (s : RawStructure) : R bios_language.BiosLanguage :=
  (bios_language.BiosLanguage.try_from (seen past s)).map fun b =>
    { b with installable_languages := .new s }

/-- The `match structure.info` of `Structures::next`, `src/lib.rs` 487-519. -/
def decodeStructure [Usize] (oc : Bool) (past : Bytes) (s : RawStructure) : R Structure :=
  match s.info with
  | .Bios => (bios past s).map .Bios
  | .System => (system past s).map .System
  | .BaseBoard => (baseboard past s).map .BaseBoard
  | .Processor => (processor past s).map .Processor
  | .Cache => (cache past s).map .Cache
  | .PortConnector => (port_connector past s).map .PortConnector
  | .BiosLanguage => (bios_language past s).map .BiosLanguage
  | _ => Dmi.decodeStructure oc s

/-- `Structures::next`, `src/lib.rs` 467-520. The formatted area is followed by the string area and that by
the rest of the buffer, which starts at the new cursor. -/
def next [Usize] (oc : Bool) (s : Structures) :
    Fault (Option (Except MalformedStructureError Structure) × Structures) := do
  let (o, s) ← s.next_raw oc
  match o with
  | none => pure (none, s)
  | some (.error e) => pure (some (.error e), { s with smbios_len := s.idx })
  | some (.ok structure_) => do
    let past := structure_.strings ++ s.buffer.drop s.idx.toNat
    let s := if s.smbios_version.major ≥ 3 ∧ structure_.info = .End
      then { s with smbios_len := s.idx } else s
    let item ← (decodeStructure oc past structure_).toItem
    pure (some item, s)

end Dmi.Flat
