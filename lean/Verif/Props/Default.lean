import Verif.Model.Default
import Verif.Props.BitFields
import Verif.Props.Reported
import Verif.Props.Reported2
import Verif.Props.Table
/-!
# C86: what default values say
-/
namespace Dmi.Props
open Spec bitfield

/-! ### Structures -/

/-- A field that is rightly not there. -/
theorem absent {α : Type} {c : Prop} {p : α → Prop} (hc : ¬ c) : Present c p (none : Option α) :=
  ⟨⟨fun h => by simp at h, fun h => absurd h hc⟩, fun a h => by cases h⟩

theorem default_detail (i : Nat) :
    memory_device.Detail.default.bits.toNat.testBit i = true ↔ i = 2 := by
  show Nat.testBit 4 i = true ↔ _
  rw [show (4 : Nat) = 2 ^ 2 from rfl, Nat.testBit_two_pow]
  simp [eq_comm]

/-- C86: the default BIOS information is what a structure saying nothing is reported as, in tables
older than 2.4 and in no others (they have more fields). -/
theorem C86_bios (oc : Bool) (ver : SmbiosVersion) :
    ReportedAt oc ver (.Bios .default) ↔ ¬ From ver 2 4 := by
  rw [C82_bios]
  constructor
  · intro h h24
    have := h.extension_1.1.mpr h24
    cases this
  · intro h24
    have h31 : ¬ From ver 3 1 := fun h => h24 (by
      unfold From at h ⊢; omega)
    exact ⟨.inl rfl, .inl rfl, .inl rfl, absent h24, absent h24, absent h24, absent h24, absent h31⟩

/-- C86: the default memory array is reported for some structure of every version. -/
theorem C86_memory_array (oc : Bool) (ver : SmbiosVersion) :
    ReportedAt oc ver (.PhysicalMemoryArray .default) := by
  rw [C82_memory_array]
  unfold MemoryArrayValue
  split
  · exact ⟨⟨2, rfl⟩, ⟨2, rfl⟩, ⟨2, rfl⟩, by decide, by decide, by decide, fun h => by cases h⟩
  · rfl

/-- C86: the default memory device is never reported: a reported one always has a device set. -/
theorem C86_memory_device (oc : Bool) (ver : SmbiosVersion) :
    ¬ ReportedAt oc ver (.MemoryDevice .default) := by
  rw [C82_memory_device]
  rintro ⟨n, -, -, h⟩
  have := h.device_set
  cases this

/-- C86: this is the only reason: with any device set it is reported, in every version. -/
theorem C86_memory_device_set (oc : Bool) (ver : SmbiosVersion) (d : UInt8) :
    ReportedAt oc ver (.MemoryDevice { memory_device.MemoryDevice.default with device_set := some d }) := by
  rw [C82_memory_device]
  refine ⟨0x20, by decide, by decide, ?_⟩
  constructor
  case form_factor => exact ⟨1, rfl⟩
  case memory_type => exact ⟨2, rfl⟩
  case type_detail =>
    intro i h
    rw [(default_detail i).mp h]; decide
  all_goals first
    | exact Or.inl rfl
    | exact absent (by decide)
    | rfl
    | (intro a h; cases h)
    | (intro h; cases h)

/-- A BIOS structure that says nothing. -/
def blankBios : Piece := ⟨0, 0, List.replicate 14 0, [0, 0]⟩

/-- A memory array structure that says nothing: location, use and error correction unknown (02h), the
capacity not represented (80000000h), no error information (FFFEh), no devices, no extended capacity. -/
def blankArray : Piece :=
  ⟨16, 0, [2, 2, 2, 0, 0, 0, 0x80, 0xFE, 0xFF, 0, 0, 0, 0, 0, 0, 0, 0, 0, 0], [0, 0]⟩

/-- A memory device structure that says nothing: no error information (FFFEh), widths and size unknown
(FFFFh), form factor as the crate reads unknown (01h), type unknown (02h), detail unknown (bit 2), the
rest zero. -/
def blankDevice : Piece :=
  ⟨17, 0, [0, 0, 0xFE, 0xFF, 0xFF, 0xFF, 0xFF, 0xFF, 0xFF, 0xFF, 1, 0, 0, 0, 2, 4, 0, 0, 0, 0, 0, 0, 0, 0,
    0, 0, 0, 0], [0, 0]⟩

example : blankBios.WF ∧ blankArray.WF ∧ blankDevice.WF :=
  ⟨⟨by decide, endsAtFirst_nil⟩, ⟨by decide, endsAtFirst_nil⟩, ⟨by decide, endsAtFirst_nil⟩⟩

/-- C86: the defaults are what structures saying nothing are reported as, but for the device set of
memory devices, which is reported as stored. -/
theorem C86_says_nothing (oc : Bool) (ver : SmbiosVersion) :
    (¬ From ver 2 4 → decodeStructure oc (blankBios.raw ver) = .ok (.Bios .default)) ∧
    decodeStructure oc (blankArray.raw ver) = .ok (.PhysicalMemoryArray .default) ∧
    decodeStructure oc (blankDevice.raw ver) = .ok
      (.MemoryDevice { memory_device.MemoryDevice.default with device_set := some 0 }) := by
  refine ⟨fun h24 => ?_, ?_, ?_⟩
  · have h31 : ¬ From ver 3 1 := fun h => h24 (by unfold From at h ⊢; omega)
    show (bios.Bios.try_from (blankBios.raw ver)).map Structure.Bios = _
    have hf : Fits (blankBios.raw ver) (biosLength (blankBios.raw ver)) := by
      unfold biosLength
      rw [if_neg (show ¬ Since (blankBios.raw ver) 3 1 from h31),
        if_neg (show ¬ Since (blankBios.raw ver) 2 4 from h24)]
      exact (by decide : 0x12 ≤ blankBios.data.length + 4)
    rw [(C29_decodes (blankBios.raw ver) hf .default).mpr ?_]
    · rfl
    · have h24' : ¬ Since (blankBios.raw ver) 2 4 := h24
      constructor
      case rom_size => rw [if_neg (show ¬ Since (blankBios.raw ver) 3 1 from h31)]; rfl
      all_goals first
        | rfl
        | exact Or.inr ⟨h24', rfl⟩
        | exact Or.inl ⟨rfl, rfl⟩
  · show (physical_memory_array.PhysicalMemoryArray.try_from (blankArray.raw ver)).map
      Structure.PhysicalMemoryArray = _
    by_cases h : Since (blankArray.raw ver) 2 2
    · rw [(C47_decodes (blankArray.raw ver) h ⟨(by decide : 0x0F ≤ blankArray.data.length + 4),
        fun _ _ => (by decide : 0x17 ≤ blankArray.data.length + 4)⟩ .default).mpr ?_]
      · rfl
      · constructor
        case maximum_capacity =>
          exact Or.inr ⟨fun h => h (by decide +kernel : u32At blankArray.data 3 = 0x80000000), rfl⟩
        case memory_error_information_handle =>
          exact Or.inr ⟨fun h => h (by decide +kernel : u16At blankArray.data 7 = 0xFFFE), rfl⟩
        case number_of_memory_devices => exact (by decide +kernel : 0 = u16At blankArray.data 9)
        case extended_maximum_capacity =>
          exact Or.inr ⟨fun h => h.2.2 (by decide +kernel : u64At blankArray.data 11 = 0), rfl⟩
        all_goals rfl
    · rw [C47_old _ h]; rfl
  · have e : memory_device.MemoryDevice.try_from oc (blankDevice.raw ver) =
        memory_device.MemoryDevice.try_from oc (blankDevice.raw ⟨2, 0⟩) := rfl
    show (memory_device.MemoryDevice.try_from oc (blankDevice.raw ver)).map Structure.MemoryDevice = _
    rw [e]
    cases oc <;> decide +kernel

/-- A BIOS structure with all fields of version 3.1 that says nothing. -/
def blankBiosLong : Piece := ⟨0, 0, List.replicate 22 0, [0, 0]⟩

example : blankBiosLong.WF ∧ From ⟨2, 4⟩ 2 4 := ⟨⟨by decide, endsAtFirst_nil⟩, by decide⟩

/-- C86: in tables since 2.4 the same holds of the further fields: each is reported as the default of
its type. -/
theorem C86_says_nothing_later (oc : Bool) (ver : SmbiosVersion) (h24 : From ver 2 4) :
    ∃ v : bios.Bios, decodeStructure oc (blankBiosLong.raw ver) = .ok (.Bios v) ∧
      v.bios_characteristics_exttension_1 = some .default ∧
      v.bios_characteristics_exttension_2 = some .default ∧
      v.bios_revision = some .default ∧ v.firmware_revision = some .default ∧
      v.rom_size = { bios.RomSize.default with extended := if From ver 3 1 then some 0 else none } ∧
      { v with
        bios_characteristics_exttension_1 := none
        bios_characteristics_exttension_2 := none
        bios_revision := none
        firmware_revision := none
        rom_size := .default } = bios.Bios.default := by
  have hf : Fits (blankBiosLong.raw ver) (biosLength (blankBiosLong.raw ver)) := by
    have : biosLength (blankBiosLong.raw ver) ≤ 0x1A := by
      unfold biosLength; split; decide; split <;> decide
    exact Nat.le_trans this (by decide : 0x1A ≤ blankBiosLong.data.length + 4)
  have h24' : Since (blankBiosLong.raw ver) 2 4 := h24
  refine ⟨⟨0, [], [], 0, [], ⟨0, if From ver 3 1 then some 0 else none⟩, ⟨0⟩, some ⟨0⟩, some ⟨0⟩,
    some ⟨0, 0⟩, some ⟨0, 0⟩⟩, ?_, rfl, rfl, rfl, rfl, rfl, rfl⟩
  show (bios.Bios.try_from (blankBiosLong.raw ver)).map Structure.Bios = _
  rw [(C29_decodes (blankBiosLong.raw ver) hf _).mpr ?_]
  · rfl
  · constructor
    all_goals first
      | rfl
      | exact Or.inl ⟨rfl, rfl⟩
      | exact Or.inl ⟨h24', _, rfl, rfl⟩

/-! ### Codes and sizes -/

/-- C86: the default of a code is the one the specification calls unknown, 02h, but for the form
factor, for which 01h is read as unknown (C53). -/
theorem C86_codes :
    physical_memory_array.MemoryArrayLocation.default = .ofU8 2 ∧
    physical_memory_array.MemoryArrayUse.default = .ofU8 2 ∧
    physical_memory_array.MemoryArrayErrorCorrectionTypes.default = .ofU8 2 ∧
    memory_device.MemoryTechnology.default = .ofU8 2 ∧
    memory_device.MemoryType.default = .ofU8 2 ∧
    memory_device.FormFactor.default = .ofU8 1 ∧
    ∀ b, memory_device.FormFactor.default = .ofU8 b → b = 1 :=
  ⟨rfl, rfl, rfl, rfl, rfl, rfl, forall_u8 (by decide +kernel)⟩

/-- C86: the default details of a memory device are those stored as bit 2 alone; of the declared
flags it contains that one and the empty one. -/
theorem C86_detail :
    (∀ i, memory_device.Detail.default.bits.toNat.testBit i = true ↔ i = 2) ∧
    ∀ f ∈ memory_device.Detail.flags,
      memory_device.Detail.default.contains f.2 = true ↔ f.1 = "UNKNOWN" ∨ f.1 = "RESERVED" := by
  exact ⟨default_detail, by decide +kernel⟩

/-- C86: the default ROM size is the least one, 64 KiB, not zero. -/
theorem C86_rom_size : bios.RomSize.default.toU64 = .ok (64 * 1024) ∧
    ∀ (r : bios.RomSize) (n : UInt64), r.extended = none → r.toU64 = .ok n → 64 * 1024 ≤ n := by
  refine ⟨by decide +kernel, ?_⟩
  rintro ⟨b, e⟩ n rfl h
  have key : ∀ b, (match bios.RomSize.toU64 ⟨b, none⟩ with
      | .ok n => decide (64 * 1024 ≤ n) | _ => true) = true := forall_u8 (by decide +kernel)
  have := key b
  rw [h] at this
  exact of_decide_eq_true this

/-! ### Bit fields -/

/-- No flag is set. -/
structure NoFlags {α : Type} [BitField α] (oc : Bool) (a : α) : Prop where
  iter : ∃ fs, CollectsR (Iter.next oc) (BitField.iter a) fs ∧
    fs.map (·.position) = List.range (BitField.width α) ∧ ∀ f ∈ fs, f.is_set = false
  significants : CollectsR (Significants.next oc) (BitField.significants a) []

theorem noFlags_of {α : Type} [BitField α] (oc : Bool) (a : α) (hv : BitField.value a = 0)
    (hw : BitField.width α ≤ 128) (hl : BitField.width α ≤ (BitField.LAYOUT α).length) :
    NoFlags oc a := by
  constructor
  · refine ⟨_, C24_iter oc _ (BitField.value a) _ hw hl, ?_, ?_⟩
    · rw [List.map_map]
      conv => rhs; rw [← List.map_id (List.range _)]
      exact List.map_congr_left fun i _ => rfl
    · intro f hf
      obtain ⟨i, -, rfl⟩ := List.mem_map.mp hf
      show (BitField.value a).testBit i = false
      rw [hv]; exact Nat.zero_testBit i
  · obtain ⟨ps, h, -, hp⟩ := C25_significants oc _ (BitField.value a) _ hw hl
    have : ps = [] := List.eq_nil_iff_forall_not_mem.mpr fun i hi => by
      have := ((hp i).mp hi).2.1
      rw [hv, Nat.zero_testBit] at this
      cases this
    rwa [this] at h

/-- C86: the default bit fields have no flag set, and iterating over them works. -/
theorem C86_flags (oc : Bool) :
    NoFlags oc bios.Characteristics.default ∧ NoFlags oc bios.CharacteristicsExtension1.default ∧
    NoFlags oc bios.CharacteristicsExtension2.default ∧ NoFlags oc bios_language.LanguageFlags.default :=
  ⟨noFlags_of oc _ rfl (by decide) (by decide +kernel), noFlags_of oc _ rfl (by decide) (by decide +kernel),
   noFlags_of oc _ rfl (by decide) (by decide +kernel), noFlags_of oc _ rfl (by decide) (by decide +kernel)⟩

/-- C86: the default description of a bit is the third kind, that of neither a flag nor a reserved
bit. -/
theorem C86_flag_type (t : FlagType) : t = .default ↔
    (∀ m d, t ≠ .Significant m d) ∧ ∀ n, t ≠ .Reserved n := by
  constructor
  · rintro rfl
    exact ⟨(fun _ _ h => by cases h), fun _ h => by cases h⟩
  · rintro ⟨h, h'⟩
    cases t with
    | Unknown => rfl
    | Significant m d => exact absurd rfl (h m d)
    | Reserved n => exact absurd rfl (h' n)

/-- The full claim about iterators: a default iterator can be used. -/
def C86_full : Prop :=
  ∀ (oc : Bool) (w : Nat), w ∈ [8, 16, 32, 64, 128] →
    (∃ fs, CollectsR (Iter.next oc) (.default w) fs) ∧
    (∃ fs, CollectsR (Significants.next oc) (Significants.default w) fs) ∧
    ∃ rs, CollectsR (Reserved.next oc) (.default w) rs

/-- C86: a default iterator describes no bit and so crashes at the first call, for values of any
width. -/
theorem C86_iterators_partial (oc : Bool) (w : Nat) (h0 : 0 < w) (hw : w ≤ 128) :
    Iter.next oc (.default w) = .panic ∧ Significants.next oc (Significants.default w) = .panic ∧
    Reserved.next oc (.default w) = .panic := by
  have h : Iter.next oc (.default w) = .panic :=
    C24_short_layout_panics oc _ (Nat.le_refl _) h0 hw
  refine ⟨h, ?_, ?_⟩
  · show significantsLoop oc (w - 0 + 1) (Iter.default w) = .panic
    unfold significantsLoop
    rw [h]; rfl
  · show reservedLoop oc (w - 0 + 1) ⟨Iter.default w, none, 0⟩ 0 = .panic
    unfold reservedLoop
    simp only [h]; rfl

example : Iter.next true (.default 8) = .panic ∧ Reserved.next false (.default 64) = .panic := by
  decide +kernel

/-- C86: so the full claim is false. -/
theorem C86_full_false : ¬ C86_full := by
  intro h
  obtain ⟨⟨fs, hc⟩, -⟩ := h true 8 (by decide)
  have hp := (C86_iterators_partial true 8 (by decide) (by decide)).1
  cases hc <;> simp_all

end Dmi.Props
