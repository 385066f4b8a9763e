import Verif.Model.HashParts
import Verif.Model.Bitfield
/-!
# What the types of `src/bitfield.rs` write to a hasher

All of these `Hash` are derived.
-/
namespace Dmi
open bitfield

/-- The bytes of a string. -/
def Fed.string (s : String) : Fed := .str s.toByteArray.data.toList

/-- `FlagType`, `src/bitfield.rs` 20-26. -/
def bitfield.FlagType.fed : FlagType → List Fed
  | .Unknown => [.tag 0]
  | .Significant meaning description => [.tag 1, .string meaning, .string description]
  | .Reserved note => [.tag 2, .string note]

/-- `Flag`, `src/bitfield.rs` 12-17; `Position` (40-41) is a `usize`. -/
def bitfield.Flag.fed (x : Flag) : List Fed := [.usize x.position, .bool x.is_set] ++ x.type_.fed

/-- `Layout`, `src/bitfield.rs` 29: a slice (core) writes its length, then its items. -/
def bitfield.layoutFed (l : Layout) : List Fed := .usize l.length :: l.flatMap FlagType.fed

/-- A number of an unsigned type of `width` bits. The sixteen bytes of a `u128` are those of two `u64`. -/
def bitfield.valueFed (width value : Nat) : List Fed :=
  if width = 8 then [.u8 (.ofNat value)]
  else if width = 16 then [.u16 (.ofNat value)]
  else if width = 32 then [.u32 (.ofNat value)]
  else if width = 64 then [.u64 (.ofNat value)]
  else [.u64 (.ofNat value), .u64 (.ofNat (value / 2 ^ 64))]

/-- `Iter`, `src/bitfield.rs` 32-37. `Significants` (44-45) is a newtype around it and writes the same. -/
def bitfield.Iter.fed (x : Iter) : List Fed :=
  valueFed x.width x.value ++ [.usize x.index] ++ layoutFed x.layout

/-- `Reserved`, `src/bitfield.rs` 50-55. -/
def bitfield.Reserved.fed (x : Reserved) : List Fed :=
  x.iter.fed ++ Fed.opt (fun s => [.string s]) x.desc ++ [.usize x.start]

/-- `ReservedRange`, `src/bitfield.rs` 58-62. A `RangeInclusive` (core) derives `Hash` over its bounds and the
mark that it is exhausted, which a new one is not. -/
def bitfield.ReservedRange.fed (x : ReservedRange) : List Fed :=
  [.string x.description, .usize x.start, .usize x.stop, .bool false]

end Dmi
