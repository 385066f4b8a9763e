import Verif.Model.Lib
/-!
# Model of `src/structures/014_group_associations.rs` (Group Associations, type 14)
-/
namespace Dmi.group_associations

/-- `GroupItems`, `src/structures/014_group_associations.rs` 27-30. -/
structure GroupItems where
  data : Bytes
  index : Nat
deriving DecidableEq, Repr

/-- `GroupItem`, `src/structures/014_group_associations.rs` 34-39. -/
structure GroupItem where
  type_ : UInt8
  handle : UInt16
deriving DecidableEq, Repr

/-- `GroupAssociations`, `src/structures/014_group_associations.rs` 16-23. -/
structure GroupAssociations where
  handle : UInt16
  group_name : Str
  items : GroupItems
deriving DecidableEq, Repr

/-- `GroupItems::new`, `src/structures/014_group_associations.rs` 62-64. -/
def GroupItems.new (data : Bytes) : GroupItems := { data, index := 0 }

/-- `GroupAssociations::try_from`, `src/structures/014_group_associations.rs` 42-58. -/
def GroupAssociations.try_from [Usize] (oc : Bool) (s : RawStructure) : R GroupAssociations := do
  let size ← subUsize oc s.length.toNat 0x05
  let slice ← Res.ofOption (.InvalidFormattedSectionLength .GroupAssociations s.handle "" s.length)
    (← s.get_slice oc 0x05 size)
  pure {
    handle := s.handle
    group_name := ← s.get_string oc 0x04
    items := .new slice }

/-- `GroupItems::next`, `src/structures/014_group_associations.rs` 69-77. The `usize` addition
`start + 3` is done in `Nat`: `start` never exceeds the length of the slice. The inner
`first()?`/`try_from_bytes` failures are kept although a three byte slice cannot take them. -/
def GroupItems.next (g : GroupItems) : Option GroupItem × GroupItems :=
  let start := g.index
  let stop := start + 3
  match getRange g.data start stop with
  | none => (none, g)
  | some slice =>
    let g := { g with index := stop }
    match slice.head? with
    | none => (none, g)
    | some type_ =>
      match getFrom slice 1 with
      | none => (none, g)
      | some s =>
        if s.length = 2 then (some { type_, handle := le16 s }, g) else (none, g)

end Dmi.group_associations
