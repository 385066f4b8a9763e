import Verif.Model.DebugParts
import Verif.Model.Bitfield
/-!
# `Debug` of the types of `src/bitfield.rs`, and of results
-/
namespace Dmi
open Fmt
open bitfield

/-- `FlagType`, `src/bitfield.rs` 21-26 (derived). -/
def bitfield.FlagType.dbg : FlagType → Dbg
  | .Unknown => .name (txt! "Unknown")
  | .Significant meaning description => .tuple (txt! "Significant") <|
      .cons [] (.str meaning.toByteArray.data.toList) <| .cons [] (.str description.toByteArray.data.toList) .nil
  | .Reserved note => .tuple (txt! "Reserved") <| .cons [] (.str note.toByteArray.data.toList) .nil

/-- `impl fmt::Debug for Flag`, `src/bitfield.rs` 160-167: position and state, not the type. `Position` (40-41)
derives `Debug`. -/
def bitfield.Flag.dbg [Shown] (x : Flag) : Dbg :=
  .struct (txt! "Flag") <|
    .cons (txt! "position") (.tuple (txt! "Position") (.cons [] (.num x.position) .nil)) <|
    .cons (txt! "is_set") (.bool x.is_set) .nil

/-- `ReservedRange`, `src/bitfield.rs` 59-62 (derived); a `RangeInclusive` (core) shows its bounds. -/
def bitfield.ReservedRange.dbg [Shown] (x : ReservedRange) : Dbg :=
  .struct (txt! "ReservedRange") <|
    .cons (txt! "description") (.str x.description.toByteArray.data.toList) <|
    .cons (txt! "range") (.name (Shown.form.text x.start ++ (txt! "..=" ++ Shown.form.text x.stop))) .nil

/-- `Iter`, `src/bitfield.rs` 32-37 (derived); `value` is a number of one of the unsigned types. -/
def bitfield.Iter.dbg [Shown] (x : Iter) : Dbg :=
  .struct (txt! "Iter") <|
    .cons (txt! "value") (.num x.value) <|
    .cons (txt! "index") (.num x.index) <|
    .cons (txt! "layout") (.list (.items (x.layout.map FlagType.dbg))) .nil

/-- `Significants`, `src/bitfield.rs` 44-45 (derived). -/
def bitfield.Significants.dbg [Shown] (x : Iter) : Dbg := .tuple (txt! "Significants") (.cons [] x.dbg .nil)

/-- `Reserved`, `src/bitfield.rs` 50-55 (derived). -/
def bitfield.Reserved.dbg [Shown] (x : Reserved) : Dbg :=
  .struct (txt! "Reserved") <|
    .cons (txt! "iter") x.iter.dbg <|
    .cons (txt! "desc") (.opt (fun s : String => .str s.toByteArray.data.toList) x.desc) <|
    .cons (txt! "start") (.num x.start) .nil

/-- `Result<T, E>` (core). -/
def Dbg.result {ε α : Type} (f : α → Dbg) (g : ε → Dbg) : Except ε α → Dbg
  | .ok a => .tuple (txt! "Ok") (.cons [] (f a) .nil)
  | .error e => .tuple (txt! "Err") (.cons [] (g e) .nil)

end Dmi
