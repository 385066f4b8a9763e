import Verif.Props.Global
import Verif.Props.Language
import Verif.Props.Battery
import Verif.Props.System
import Verif.Props.Table
/-!
# C74: every reported text is stored in the string area
-/
namespace Dmi.Props
open Spec

/-- `t` is one of the strings the string area of `s` begins with. -/
def Stored (s : RawStructure) (t : Str) : Prop := ∃ l, IsStringList s.strings l ∧ t ∈ l

/-- A text that decoding `s` may report: no text, or a stored one. -/
def Honest (s : RawStructure) (t : Str) : Prop := t = [] ∨ Stored s t

/-- The texts in the fields of a decoded structure. -/
def fieldTexts : Structure → List Str
  | .Bios x => [x.vendor, x.bios_version, x.bios_release_date]
  | .System x => [x.manufacturer, x.product, x.version, x.serial] ++ x.sku.toList ++ x.family.toList
  | .BaseBoard x => [x.manufacturer, x.product, x.version, x.serial] ++ x.asset.toList ++
      x.location_in_chassis.toList
  | .Enclosure x => [x.manufacturer, x.version, x.serial_number, x.asset_tag_number] ++
      x.sku_number.toList
  | .Processor x => [x.socket_designation, x.processor_manufacturer, x.processor_version] ++
      x.serial_number.toList ++ x.asset_tag.toList ++ x.part_number.toList
  | .Cache x => [x.socket_designation]
  | .PortConnector x => [x.internal_reference_designator, x.external_reference_designator]
  | .SystemSlots x => [x.slot_designation]
  | .GroupAssociations x => [x.group_name]
  | .MemoryDevice x => [x.device_locator, x.bank_locator, x.manufacturer, x.serial, x.asset_tag,
      x.part_number] ++ x.firmware_version.toList
  | .PortableBattery x => [x.location, x.manufacturer, x.device_name, x.sbds_version_number] ++
      (match x.manufacture_date with | .Basic t => [t] | _ => []) ++
      (match x.serial_number with | .Basic t => [t] | _ => []) ++
      (match x.device_chemistry with | .SmartBatteryDataSpecification t => [t] | _ => [])
  | .OemStrings _ => []
  | .SystemConfigurationOptions _ => []
  | .BiosLanguage _ => []
  | .SystemEventLog _ => []
  | .PhysicalMemoryArray _ => []
  | .MemoryError32 _ => []
  | .MemoryArrayMappedAddress _ => []
  | .MemoryDeviceMappedAddress _ => []
  | .BuiltInPointingDevice _ => []
  | .Other _ => []

/-- A decoded structure reports the text: in a field, or as an item of one of its iterators. -/
inductive Reports (oc : Bool) : Structure → Str → Prop
  | field {st t} (h : t ∈ fieldTexts st) : Reports oc st t
  | oem {x t l} (h : Collects StructureStrings.next x.strings l) (ht : t ∈ l) :
      Reports oc (.OemStrings x) t
  | option {x t l} (h : Collects StructureStrings.next x.strings l) (ht : t ∈ l) :
      Reports oc (.SystemConfigurationOptions x) t
  | language {x t l} (h : CollectsR (bios_language.InstallableLanguages.next oc)
      x.installable_languages l) (ht : t ∈ l) : Reports oc (.BiosLanguage x) t

/-! ### Texts come from `find_string` -/

theorem stored_or_empty {s : RawStructure} {i : UInt8} {t : Str} (h : s.find_string i = .ok t) :
    Honest s t := by
  have hl := (C20_strings_total s.strings).2
  by_cases hi : i = 0
  · subst hi
    rcases ((find_string_eq s 0).1 t).1 h with ⟨-, h⟩ | ⟨h, -⟩
    · exact Or.inl h
    · exact absurd h (by decide)
  · rw [find_string_list hl i hi] at h
    refine Or.inr ⟨_, hl, ?_⟩
    cases hg : (StructureStrings.new s.strings).collect[i.toNat - 1]? with
    | none => rw [hg] at h; cases h
    | some v => rw [hg] at h; cases h; exact List.mem_of_getElem? hg

theorem honest_get {oc : Bool} {s : RawStructure} {o : Nat} {t : Str}
    (h : s.get_string oc o = .ok t) : Honest s t := by
  unfold RawStructure.get_string at h
  cases h8 : s.get8 oc o with
  | ok i => rw [h8, ok_bind] at h; exact stored_or_empty h
  | err e => rw [h8] at h; cases h
  | panic => rw [h8] at h; cases h
  | ub => rw [h8] at h; cases h

theorem honest_opt {s : RawStructure} {x : R Str} {o : Option Str} (h : x.toOption = .ok o)
    (hx : ∀ t, x = .ok t → Honest s t) : ∀ t ∈ o, Honest s t := by
  cases x with
  | ok a => cases h; intro t ht; cases ht; exact hx _ rfl
  | err e => cases h; intro t ht; cases ht
  | panic => cases h
  | ub => cases h

theorem honest_some {s : RawStructure} {a : Str} {o : Option Str}
    (h : (pure (some a) : R (Option Str)) = .ok o) (ha : Honest s a) : ∀ t ∈ o, Honest s t := by
  cases h; intro t ht; cases ht; exact ha

theorem honest_none {s : RawStructure} {o : Option Str}
    (h : (pure none : R (Option Str)) = .ok o) : ∀ t ∈ o, Honest s t := by
  cases h; intro t ht; cases ht

theorem honest_sku {s : RawStructure} {i : Option UInt8} {o : Option Str}
    (h : enclosure.findSku s i = .ok o) : ∀ t ∈ o, Honest s t := by
  unfold enclosure.findSku at h
  cases i with
  | none => exact honest_none h
  | some i =>
    cases hf : s.find_string i with
    | ok a => simp only [hf, ok_bind] at h; exact honest_some h (stored_or_empty hf)
    | err e => simp only [hf] at h; cases h
    | panic => simp only [hf] at h; cases h
    | ub => simp only [hf] at h; cases h

theorem honest_optString {oc : Bool} {s : RawStructure} {i : Nat} {o : Option Str}
    (h : portable_battery.optString oc s i = .ok o) : ∀ t ∈ o, Honest s t := by
  have : Post (fun o => ∀ t ∈ o, Honest s t) (portable_battery.optString oc s i) := by
    unfold portable_battery.optString
    refine Post.bind fun _ _ => ?_
    split
    · exact fun o h => honest_none h
    · exact fun o h => honest_opt h (fun _ => stored_or_empty)
  exact this o h

/-- Reduces a statement about all texts of a structure to one about each of them. -/
macro "texts" : tactic =>
  `(tactic| (
      simp only [fieldTexts, List.forall_mem_append, List.forall_mem_cons, List.not_mem_nil,
        Option.mem_toList, false_implies, implies_true, and_true, Option.toList_none,
        Option.toList_some]
      repeat' apply And.intro
      all_goals first
        | exact stored_or_empty ‹_›
        | exact honest_get ‹_›
        | exact honest_sku ‹_›
        | exact honest_none ‹_›
        | exact honest_some ‹_› (stored_or_empty ‹_›)
        | exact honest_opt ‹_› (fun _ => honest_get)))

theorem bios_texts (s : RawStructure) :
    Post (fun v => ∀ t ∈ fieldTexts (.Bios v), Honest s t) (bios.Bios.try_from s) := by
  unfold bios.Bios.try_from; post <;> texts

theorem system_texts (s : RawStructure) :
    Post (fun v => ∀ t ∈ fieldTexts (.System v), Honest s t) (system.System.try_from s) := by
  unfold system.System.try_from; post <;> texts

theorem baseboard_texts (s : RawStructure) :
    Post (fun v => ∀ t ∈ fieldTexts (.BaseBoard v), Honest s t) (baseboard.BaseBoard.try_from s) := by
  unfold baseboard.BaseBoard.try_from; post <;> texts

theorem enclosure_texts (oc : Bool) (s : RawStructure) :
    Post (fun v => ∀ t ∈ fieldTexts (.Enclosure v), Honest s t)
      (enclosure.Enclosure.try_from oc s) := by
  unfold enclosure.Enclosure.try_from; post <;> texts

theorem processor_texts (s : RawStructure) :
    Post (fun v => ∀ t ∈ fieldTexts (.Processor v), Honest s t) (processor.Processor.try_from s) := by
  unfold processor.Processor.try_from; post <;> texts

theorem cache_texts (s : RawStructure) :
    Post (fun v => ∀ t ∈ fieldTexts (.Cache v), Honest s t) (cache.Cache.try_from s) := by
  unfold cache.Cache.try_from; post <;> texts

theorem port_texts (s : RawStructure) :
    Post (fun v => ∀ t ∈ fieldTexts (.PortConnector v), Honest s t)
      (port_connector.PortConnector.try_from s) := by
  unfold port_connector.PortConnector.try_from; post <;> texts

theorem slots_texts (oc : Bool) (s : RawStructure) :
    Post (fun v => ∀ t ∈ fieldTexts (.SystemSlots v), Honest s t)
      (system_slots.SystemSlots.try_from oc s) := by
  unfold system_slots.SystemSlots.try_from system_slots.SystemSlots.decode; post <;> texts

theorem group_texts (oc : Bool) (s : RawStructure) :
    Post (fun v => ∀ t ∈ fieldTexts (.GroupAssociations v), Honest s t)
      (group_associations.GroupAssociations.try_from oc s) := by
  unfold group_associations.GroupAssociations.try_from; post <;> texts

theorem memory_texts (oc : Bool) (s : RawStructure) :
    Post (fun v => ∀ t ∈ fieldTexts (.MemoryDevice v), Honest s t)
      (memory_device.MemoryDevice.try_from oc s) := by
  unfold memory_device.MemoryDevice.try_from; post <;> texts

theorem date_texts {s : RawStructure} {o : Option Str} (w : Option UInt16)
    (h : ∀ t ∈ o, Honest s t) : ∀ t ∈ (match portable_battery.ManufactureDate.new o w with
      | .Basic t => [t] | _ => []), Honest s t := by
  cases o with
  | none => cases w <;> simp [portable_battery.ManufactureDate.new]
  | some t => simpa [portable_battery.ManufactureDate.new] using h

theorem serial_texts {s : RawStructure} {o : Option Str} (w : Option UInt16)
    (h : ∀ t ∈ o, Honest s t) : ∀ t ∈ (match portable_battery.SerialNumber.new o w with
      | .Basic t => [t] | _ => []), Honest s t := by
  cases o with
  | none => cases w <;> simp [portable_battery.SerialNumber.new]
  | some t => simpa [portable_battery.SerialNumber.new] using h

theorem chemistry_texts {s : RawStructure} {o : Option Str} (c : UInt8)
    (h : ∀ t ∈ o, Honest s t) : ∀ t ∈ (match portable_battery.DeviceChemistry.new c o with
      | .SmartBatteryDataSpecification t => [t] | _ => []), Honest s t := by
  unfold portable_battery.DeviceChemistry.new
  split
  · rename_i t ht
    have : o = some t := by
      repeat' split at ht
      all_goals first | (cases ht; rfl) | cases ht
    subst this
    simpa using h
  · simp

theorem battery_texts (oc : Bool) (s : RawStructure) :
    Post (fun v => ∀ t ∈ fieldTexts (.PortableBattery v), Honest s t)
      (portable_battery.PortableBattery.try_from oc s) := by
  unfold portable_battery.PortableBattery.try_from
  post
  simp only [fieldTexts, List.forall_mem_append, List.forall_mem_cons, List.not_mem_nil,
    false_implies, implies_true, and_true]
  refine ⟨⟨⟨?_, date_texts _ (honest_optString ‹_›)⟩, serial_texts _ (honest_optString ‹_›)⟩,
    chemistry_texts _ (honest_opt ‹_› (fun _ => honest_get))⟩
  exact ⟨honest_get ‹_›, honest_get ‹_›, honest_get ‹_›, honest_get ‹_›⟩

theorem fields_post (oc : Bool) (s : RawStructure) :
    Post (fun st => ∀ t ∈ fieldTexts st, Honest s t) (decodeStructure oc s) := by
  have none {α : Type} (x : R α) (f : α → Structure) (h : ∀ a, fieldTexts (f a) = []) :
      Post (fun st => ∀ t ∈ fieldTexts st, Honest s t) (x.map f) :=
    Post.map fun a _ t ht => by rw [h a] at ht; cases ht
  unfold decodeStructure
  split
  · exact Post.map (bios_texts s)
  · exact Post.map (system_texts s)
  · exact Post.map (baseboard_texts s)
  · exact Post.map (enclosure_texts oc s)
  · exact Post.map (processor_texts s)
  · exact Post.map (cache_texts s)
  · exact Post.map (port_texts s)
  · exact Post.map (slots_texts oc s)
  · exact none _ _ fun _ => rfl
  · exact none _ _ fun _ => rfl
  · exact none _ _ fun _ => rfl
  · exact Post.map (group_texts oc s)
  · exact none _ _ fun _ => rfl
  · exact none _ _ fun _ => rfl
  · exact Post.map (memory_texts oc s)
  · exact none _ _ fun _ => rfl
  · exact none _ _ fun _ => rfl
  · exact none _ _ fun _ => rfl
  · exact none _ _ fun _ => rfl
  · exact Post.map (battery_texts oc s)
  · exact Post.ok fun t ht => by cases ht

/-! ### Texts of the iterators -/

/-- The iterators of a decoded structure are over the string area of that structure. -/
def Iterates (s : RawStructure) : Structure → Prop
  | .OemStrings x => x.strings = .new s.strings
  | .SystemConfigurationOptions x => x.strings = .new s.strings
  | .BiosLanguage x => x.installable_languages.structure_ = s
  | _ => True

theorem iterates_post (oc : Bool) (s : RawStructure) :
    Post (Iterates s) (decodeStructure oc s) := by
  have triv {α : Type} (x : R α) (f : α → Structure) (h : ∀ a, Iterates s (f a)) :
      Post (Iterates s) (x.map f) := Post.map fun a _ => h a
  unfold decodeStructure
  split
  case h_9 => apply Post.map; unfold oem_strings.OemStrings.try_from; post; rfl
  case h_10 =>
    apply Post.map
    unfold system_configuration_options.SystemConfigurationOptions.try_from; post; rfl
  case h_11 => apply Post.map; unfold bios_language.BiosLanguage.try_from; post <;> rfl
  all_goals first
    | exact triv _ _ fun _ => trivial
    | exact Post.ok trivial

theorem language_texts {oc : Bool} {s : RawStructure} {i : bios_language.InstallableLanguages}
    {l : List Str} (h : CollectsR (bios_language.InstallableLanguages.next oc) i l)
    (hi : i.structure_ = s) : ∀ t ∈ l, Honest s t := by
  induction h with
  | done => intro t ht; cases ht
  | step h _ ih =>
    rename_i i i' a l _
    have hn : Post (fun r => r.2.structure_ = s ∧ ∀ t ∈ r.1, Honest s t)
        (bios_language.InstallableLanguages.next oc i) := by
      unfold bios_language.InstallableLanguages.next
      refine Post.bind fun _ _ => ?_
      rw [hi]
      split
      · rename_i hf
        exact Post.pure ⟨rfl, fun t ht => by cases ht; exact stored_or_empty hf⟩
      · exact Post.pure ⟨rfl, fun t ht => by cases ht⟩
      · exact Post.panic
      · intro v hv; cases hv
    obtain ⟨h1, h2⟩ := hn _ h
    intro t ht
    rcases List.mem_cons.1 ht with rfl | ht
    · exact h2 _ rfl
    · exact ih h1 t ht

/-! ### C74 -/

/-- C74: every text a decoded structure reports is empty or one of the strings its string area
begins with. -/
theorem C74_texts (oc : Bool) (s : RawStructure) (st : Structure) (t : Str)
    (hs : decodeStructure oc s = .ok st) (ht : Reports oc st t) : Honest s t := by
  have hi := iterates_post oc s st hs
  cases ht with
  | field h => exact fields_post oc s st hs t h
  | oem h ht =>
    have hi : _ = StructureStrings.new s.strings := hi
    rw [hi] at h
    exact .inr ⟨_, (C20_strings _ _).1 h, ht⟩
  | option h ht =>
    have hi : _ = StructureStrings.new s.strings := hi
    rw [hi] at h
    exact .inr ⟨_, (C20_strings _ _).1 h, ht⟩
  | language h ht => exact language_texts h hi t ht

/-- C74: so it is well-formed UTF-8 without NUL, and a contiguous part of the string area. -/
theorem C74_valid (oc : Bool) (s : RawStructure) (st : Structure) (t : Str)
    (hs : decodeStructure oc s = .ok st) (ht : Reports oc st t) :
    IsText t ∧ (0 : UInt8) ∉ t ∧ ∃ pre post, s.strings = pre ++ t ++ post := by
  rcases C74_texts oc s st t hs ht with rfl | ⟨l, hl, hm⟩
  · exact ⟨⟨[], rfl⟩, by simp, [], s.strings, by simp⟩
  · obtain ⟨⟨-, h1, h2⟩, h3⟩ := C20_strings_contiguous ((C20_strings _ _).2 hl) hm
    exact ⟨h2, h1, h3⟩

theorem decoded_mem {oc : Bool} {v : SmbiosVersion} {ps : List Piece} {items}
    (h : Decoded oc v ps items) {st : Structure} (hm : .ok st ∈ items) :
    ∃ p ∈ ps, decodeStructure oc (p.raw v) = .ok st := by
  induction h with
  | nil => cases hm
  | cons h _ ih =>
    rename_i p it ps items _
    rcases List.mem_cons.1 hm with rfl | hm
    · refine ⟨p, by simp, ?_⟩
      cases hd : decodeStructure oc (p.raw v) with
      | ok a => rw [hd] at h; cases h; rfl
      | err e => rw [hd] at h; cases h
      | panic => rw [hd] at h; cases h
      | ub => rw [hd] at h; cases h
    · obtain ⟨q, hq, h⟩ := ih hm
      exact ⟨q, by simp [hq], h⟩

/-- C74, of a whole table: every text reported by any structure an iteration yields is well-formed
UTF-8 without NUL, and its bytes are in the buffer, not before the cursor. -/
theorem C74_table (oc : Bool) (s s' : Structures) (items) (hb : s.buffer.length < 2 ^ 32)
    (h : Runs oc s items s') (st : Structure) (hm : .ok st ∈ items) (t : Str)
    (ht : Reports oc st t) : IsText t ∧ (0 : UInt8) ∉ t ∧
      ∃ o, s.idx.toNat ≤ o ∧ OccursAt s.buffer o t := by
  obtain ⟨ps, -, hocc, -, hd⟩ := C11_tiling hb h
  have : ∃ p ∈ ps, decodeStructure oc (p.raw s.smbios_version) = .ok st := by
    rcases hd with hd | ⟨items', e, rfl, hd⟩
    · exact decoded_mem hd hm
    · rcases List.mem_append.1 hm with hm | hm
      · exact decoded_mem hd hm
      · simp at hm
  obtain ⟨p, hp, hdec⟩ := this
  obtain ⟨h1, h2, pre, post, h3⟩ := C74_valid oc _ st t hdec ht
  refine ⟨h1, h2, ?_⟩
  obtain ⟨l1, l2, rfl⟩ := List.append_of_mem hp
  obtain ⟨b1, b2, hb', hi⟩ := hocc (by simp)
  have h3 : p.strings = pre ++ t ++ post := h3
  refine ⟨(b1 ++ l1.flatMap Piece.bytes ++ ([p.kind, UInt8.ofNat p.len] ++ enc16 p.handle ++ p.data)
    ++ pre).length, ?_, _, post ++ l2.flatMap Piece.bytes ++ b2, ?_, rfl⟩
  · simp only [List.length_append]; omega
  · rw [hb']
    simp only [List.flatMap_append, List.flatMap_cons, Piece.bytes, h3, List.append_assoc]

/-- The hypotheses are met: a board that names itself. -/
example : ∃ st, decodeStructure true exampleBoard = .ok st ∧ Reports true st (ascii "Intel") := by
  obtain ⟨st, h1, h2⟩ := exists_ok (show (decodeStructure true exampleBoard).okAnd
    (fun st => decide (ascii "Intel" ∈ fieldTexts st)) = true by decide +kernel)
  exact ⟨st, h1, .field (by simpa using h2)⟩

/-- And of the iterators: configuration options. -/
example : ∃ st, decodeStructure true exampleOptions = .ok st ∧ Reports true st (ascii "SW1-1") := by
  obtain ⟨v, h1, -, h2⟩ := (C42_options true exampleOptions _ exampleOptions_strings
    (by decide)).1 (by decide)
  refine ⟨.SystemConfigurationOptions v, ?_, .option h2 (by simp)⟩
  unfold decodeStructure
  simp only [show exampleOptions.info = .SystemConfigurationOptions from rfl, h1, Res.map]

/-- A text that is not in the string area is not honest. -/
example : ¬ Honest exampleOptions (ascii "SW1") := by
  rintro (h | ⟨l, hl, h⟩)
  · exact absurd h (by decide +kernel)
  · rw [isStringList_unique hl exampleOptions_strings] at h
    exact absurd h (by decide +kernel)

end Dmi.Props
