import Verif.Model.Layouts
import Verif.Model.S000
import Verif.Model.S009
import Verif.Model.S013
import Verif.Model.S015
/-!
# The `BitField` trait and its implementations
-/
namespace Dmi
open bitfield

/-- The trait `BitField`, `src/bitfield.rs` 65-80. `width` is the number of bits of `Self::Size`. -/
class BitField (α : Type) where
  width : Nat
  LAYOUT : Layout
  value : α → Nat

/-- `BitField::iter`, `src/bitfield.rs` 69-71. -/
def BitField.iter {α : Type} [BitField α] (a : α) : Iter := .new (width α) (value a) (LAYOUT α)
/-- `BitField::significants`, `src/bitfield.rs` 72-74. -/
def BitField.significants {α : Type} [BitField α] (a : α) : Iter := .new (width α) (value a) (LAYOUT α)
/-- `BitField::reserved`, `src/bitfield.rs` 75-77. -/
def BitField.reserved {α : Type} [BitField α] (a : α) : bitfield.Reserved := .new (BitField.iter a)

/-- `src/structures/000_bios.rs` 210-269. -/
instance : BitField bios.Characteristics := ⟨64, bios.Characteristics.LAYOUT, fun a => a.value.toNat⟩
/-- `src/structures/000_bios.rs` 271-289. -/
instance : BitField bios.CharacteristicsExtension1 :=
  ⟨8, bios.CharacteristicsExtension1.LAYOUT, fun a => a.value.toNat⟩
/-- `src/structures/000_bios.rs` 291-316. -/
instance : BitField bios.CharacteristicsExtension2 :=
  ⟨8, bios.CharacteristicsExtension2.LAYOUT, fun a => a.value.toNat⟩
/-- `src/structures/009_system_slots.rs` 736-759. -/
instance : BitField system_slots.SlotCharacteristics1 :=
  ⟨8, system_slots.SlotCharacteristics1.LAYOUT, fun a => a.bits.toNat⟩
/-- `src/structures/009_system_slots.rs` 766-791. -/
instance : BitField system_slots.SlotCharacteristics2 :=
  ⟨8, system_slots.SlotCharacteristics2.LAYOUT, fun a => a.bits.toNat⟩
/-- `src/structures/013_bios_language.rs` 89-103. -/
instance : BitField bios_language.LanguageFlags :=
  ⟨8, bios_language.LanguageFlags.LAYOUT, fun a => a.bits.toNat⟩
/-- `src/structures/015_system_event_log/mod.rs` 316-327. -/
instance : BitField system_event_log.LogStatus :=
  ⟨8, system_event_log.LogStatus.LAYOUT, fun a => a.bits.toNat⟩
/-- `src/structures/015_system_event_log/log_record_format.rs` 414-471. -/
instance : BitField system_event_log.PostResults :=
  ⟨64, system_event_log.PostResults.LAYOUT, fun a => a.bits.toNat⟩

end Dmi
