import Verif.Model.Dispatch
import Verif.Model.Eq
/-!
# Model of the derived `PartialEq` and `Hash` of `Structure`

`#[derive(PartialEq)]` compares field by field and `#[derive(Hash)]` writes field by field. All types
below `Structure` (`src/lib.rs` 365-388) derive both, except for the three chunked iterators with
hand-written implementations (`Model/Eq.lean`). So a structure without such a field is compared by
equality; of the three that have one, the other fields are compared by equality and the iterator by
its own `eq`. What a hasher is fed before and behind the iterator is not spelled out: it is any
function of the other fields.
-/
namespace Dmi

/-- The derived `PartialEq` of `Option` (core). -/
def optionEq {α : Type} (eq : α → α → Bool) : Option α → Option α → Bool
  | none, none => true
  | some a, some b => eq a b
  | _, _ => false

/-- The derived `Hash` of `Option` (core): the discriminant as an `isize`, then the value. -/
def optionHash [Usize] {α : Type} (hash : α → Bytes) : Option α → Bytes
  | none => usizeBytes 0
  | some a => usizeBytes 1 ++ hash a

/-- `#[derive(PartialEq)] struct Enclosure`, `src/structures/003_enclosure.rs` 15-16. -/
def enclosure.Enclosure.eq (a b : enclosure.Enclosure) : Bool :=
  decide ({ a with contained_elements := none } = { b with contained_elements := none }) &&
    optionEq enclosure.ContainedElements.eq a.contained_elements b.contained_elements

/-- `#[derive(PartialEq)] struct SystemSlots`, `src/structures/009_system_slots.rs` 21-22. -/
def system_slots.SystemSlots.eq (a b : system_slots.SystemSlots) : Bool :=
  decide ({ a with peer_devices := none } = { b with peer_devices := none }) &&
    optionEq system_slots.PeerDevices.eq a.peer_devices b.peer_devices

/-- `#[derive(PartialEq)] struct SystemEventLog`, `src/structures/015_system_event_log/mod.rs` 29-30. -/
def system_event_log.SystemEventLog.eq (a b : system_event_log.SystemEventLog) : Bool :=
  decide ({ a with supported_event_log_type_descriptors := none } =
      { b with supported_event_log_type_descriptors := none }) &&
    optionEq system_event_log.SupportedEventLogTypeDescriptors.eq
      a.supported_event_log_type_descriptors b.supported_event_log_type_descriptors

/-- `#[derive(PartialEq)] enum Structure`, `src/lib.rs` 365-388: the same variant with equal contents. -/
def Structure.eq : Structure → Structure → Bool
  | .Enclosure a, .Enclosure b => a.eq b
  | .SystemSlots a, .SystemSlots b => a.eq b
  | .SystemEventLog a, .SystemEventLog b => a.eq b
  | a, b => decide (a = b)

/-- `#[derive(Hash)] enum Structure`, `src/lib.rs` 365-388. The discriminant and the fields in front of
the iterator write `before`, the fields behind it `after`. -/
def Structure.hash [Usize] (before after : Structure → Bytes) : Structure → Bytes
  | .Enclosure a =>
    let rest := Structure.Enclosure { a with contained_elements := none }
    before rest ++ optionHash enclosure.ContainedElements.hash a.contained_elements ++ after rest
  | .SystemSlots a =>
    let rest := Structure.SystemSlots { a with peer_devices := none }
    before rest ++ optionHash system_slots.PeerDevices.hash a.peer_devices ++ after rest
  | .SystemEventLog a =>
    let rest := Structure.SystemEventLog { a with supported_event_log_type_descriptors := none }
    before rest ++ optionHash system_event_log.SupportedEventLogTypeDescriptors.hash
      a.supported_event_log_type_descriptors ++ after rest
  | a => before a

end Dmi
