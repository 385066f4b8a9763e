import Verif.Model.DebugTree
import Verif.Model.S003
/-!
# `Debug` of the types of other crates that occur in fields
-/
namespace Dmi
open Fmt

namespace DbgArgs

/-- The elements of a list. -/
def items : List Dbg → DbgArgs
  | [] => .nil
  | v :: l => .cons [] v (items l)

end DbgArgs

/-- How integers are shown (`core::fmt::num`): `{:?}`, `{:x?}` and `{:X?}`. In the alternate forms `{:#x?}` and
`{:#X?}` hexadecimal numbers have a prefix. -/
inductive IntForm where
  | decimal
  | hex (upper alternate : Bool)

/-- The text of an integer. -/
def IntForm.text : IntForm → Nat → Text
  | .decimal, n => dec n
  | .hex upper alternate, n =>
    (if alternate then txt! "0x" else []) ++ (if upper then hexUpper n else hexLower n)

/-- The form of integers that the caller of the formatter has chosen. -/
class Shown where
  form : IntForm

/-- `{:?}` and `{:#?}`. -/
instance Shown.usual : Shown := ⟨.decimal⟩

namespace Dbg

/-- A variant without fields. -/
def name (t : Text) : Dbg := .words t []

/-- An unsigned integer. -/
def num [Shown] (n : Nat) : Dbg := .words (Shown.form.text n) []

/-- `bool`. -/
def bool : Bool → Dbg
  | false => name (txt! "false")
  | true => name (txt! "true")

/-- `Option<T>` (core). -/
def opt {α : Type} (f : α → Dbg) : Option α → Dbg
  | none => name (txt! "None")
  | some a => .tuple (txt! "Some") (.cons [] (f a) .nil)

/-- `&[u8]` and `[u8; N]`. -/
def bytes [Shown] (b : Bytes) : Dbg := .list (.items (b.map fun x => num x.toNat))

/-- Two hexadecimal digits. -/
def hex2 (b : UInt8) : Text := zeroPad 2 (hexLower b.toNat)

/-- `uuid::fmt::Hyphenated` with small letters. -/
def hyphenated (b : Bytes) : Text :=
  (b.take 4).flatMap hex2 ++ ([45] ++ (((b.drop 4).take 2).flatMap hex2 ++ ([45] ++ (((b.drop 6).take 2).flatMap
    hex2 ++ ([45] ++ (((b.drop 8).take 2).flatMap hex2 ++ ([45] ++ (b.drop 10).flatMap hex2)))))))

/-- `uuid::Uuid`. -/
def uuid (b : Bytes) : Dbg := name (hyphenated b)

/-- `bitflags::iter::IterNames` and `parser::to_writer` (crate `bitflags` 2): of the flags in order of their
declaration those whose bits are all in the value and some of whose bits have not been shown yet; then the
number of the bits that have not been shown, if there are any. -/
def flagNames : List (Text × Nat) → Nat → Nat → List Text
  | [], _, remaining => if remaining = 0 then [] else [txt! "0x" ++ hexLower remaining]
  | (name, flag) :: table, source, remaining =>
    if source &&& flag = flag ∧ remaining &&& flag ≠ 0 then
      name :: flagNames table source (remaining ^^^ (remaining &&& flag))
    else flagNames table source remaining

/-- `InternalBitFlags` (crate `bitflags` 2). -/
def flags (table : List (Text × Nat)) (bits : Nat) : Dbg :=
  match flagNames table bits bits with
  | [] => name (txt! "0x0")
  | a :: l => .words a l

end Dbg

/-- `core::slice::Chunks`. -/
def Chunks.dbg [Shown] (c : Chunks) : Dbg :=
  .struct (txt! "Chunks") (.cons (txt! "v") (.bytes c.rest) (.cons (txt! "chunk_size") (.num c.size) .nil))

end Dmi
