import Verif.Proofs.Hosts
import Verif.Props.Texts
/-!
# C83: strings are reported as texts, nothing else

A structure is decoded twice, once with its own string area and once with another one that holds
as many strings. Both attempts end alike: both succeed, or both fail with the same error. The
decoded values agree in everything but their texts (`blank`), and each text of the one and the
corresponding text of the other are the strings at one position of the two areas, or both empty.
-/
namespace Dmi.Props
open Spec

/-- The structure with another string area. -/
def Restrung (s : RawStructure) (a : Bytes) : RawStructure := { s with strings := a }

def blankDate : portable_battery.ManufactureDate → portable_battery.ManufactureDate
  | .Basic _ => .Basic []
  | d => d
def blankSerial : portable_battery.SerialNumber → portable_battery.SerialNumber
  | .Basic _ => .Basic []
  | d => d
def blankChemistry : portable_battery.DeviceChemistry → portable_battery.DeviceChemistry
  | .SmartBatteryDataSpecification _ => .SmartBatteryDataSpecification []
  | d => d

/-- The value with all texts emptied. -/
def blank : Structure → Structure
  | .Bios x => .Bios { x with vendor := [], bios_version := [], bios_release_date := [] }
  | .System x => .System { x with
      manufacturer := [], product := [], version := [], serial := []
      sku := x.sku.map fun _ => [], family := x.family.map fun _ => [] }
  | .BaseBoard x => .BaseBoard { x with
      manufacturer := [], product := [], version := [], serial := []
      asset := x.asset.map fun _ => []
      location_in_chassis := x.location_in_chassis.map fun _ => [] }
  | .Enclosure x => .Enclosure { x with
      manufacturer := [], version := [], serial_number := [], asset_tag_number := []
      sku_number := x.sku_number.map fun _ => [] }
  | .Processor x => .Processor { x with
      socket_designation := [], processor_manufacturer := [], processor_version := []
      serial_number := x.serial_number.map fun _ => []
      asset_tag := x.asset_tag.map fun _ => [], part_number := x.part_number.map fun _ => [] }
  | .Cache x => .Cache { x with socket_designation := [] }
  | .PortConnector x => .PortConnector { x with
      internal_reference_designator := [], external_reference_designator := [] }
  | .SystemSlots x => .SystemSlots { x with slot_designation := [] }
  | .OemStrings x => .OemStrings { x with strings := .new [] }
  | .SystemConfigurationOptions x => .SystemConfigurationOptions { x with strings := .new [] }
  | .BiosLanguage x => .BiosLanguage { x with
      installable_languages := { x.installable_languages with
        structure_ := Restrung x.installable_languages.structure_ [] } }
  | .GroupAssociations x => .GroupAssociations { x with group_name := [] }
  | .MemoryDevice x => .MemoryDevice { x with
      device_locator := [], bank_locator := [], manufacturer := [], serial := [], asset_tag := []
      part_number := [], firmware_version := x.firmware_version.map fun _ => [] }
  | .PortableBattery x => .PortableBattery { x with
      location := [], manufacturer := [], device_name := [], sbds_version_number := []
      manufacture_date := blankDate x.manufacture_date
      serial_number := blankSerial x.serial_number
      device_chemistry := blankChemistry x.device_chemistry }
  | .Other x => .Other (Restrung x [])
  | x => x

/-- The texts at the same position of both lists; no text stands for no text. -/
def SameRef (l l' : List Bytes) (x y : Str) : Prop :=
  x = [] ∧ y = [] ∨ ∃ i : Nat, l[i]? = some x ∧ l'[i]? = some y

/-- Both absent, or both present and related. -/
def Both {α : Type} (T : α → α → Prop) : Option α → Option α → Prop
  | none, none => True
  | some x, some y => T x y
  | _, _ => False

/-- Related element by element. -/
def Pairwise2 {α : Type} (T : α → α → Prop) : List α → List α → Prop
  | [], [] => True
  | x :: xs, y :: ys => T x y ∧ Pairwise2 T xs ys
  | _, _ => False

/-- The values differ in texts only, and have the texts of the same positions. -/
def Retexted (l l' : List Bytes) (v w : Structure) : Prop :=
  blank v = blank w ∧ Pairwise2 (Both (SameRef l l')) (textFields v) (textFields w)

/-! ### Simulation -/

section
variable {s : RawStructure} {a : Bytes} {l l' : List Bytes}

theorem Rel.refl {ε α : Type} {Q : α → α → Prop} (h : ∀ a, Q a a) (x : Res ε α) : Rel Q x x := by
  cases x <;> first | exact h _ | rfl | trivial

theorem Rel.find (hl : IsStringList s.strings l) (hl' : IsStringList a l') (he : l.length = l'.length)
    (i : UInt8) : Rel (SameRef l l') (s.find_string i) ((Restrung s a).find_string i) := by
  by_cases hi : i = 0
  · subst hi
    exact Or.inl ⟨rfl, rfl⟩
  · rw [find_string_list hl i hi, find_string_list (s := Restrung s a) hl' i hi]
    by_cases hn : i.toNat - 1 < l.length
    · rw [List.getElem?_eq_getElem hn, List.getElem?_eq_getElem (he ▸ hn)]
      exact Or.inr ⟨i.toNat - 1, List.getElem?_eq_getElem hn, List.getElem?_eq_getElem (he ▸ hn)⟩
    · rw [List.getElem?_eq_none (by omega), List.getElem?_eq_none (by omega)]
      rfl

theorem Rel.opt {α : Type} {T : α → α → Prop} {x y : R α} (h : Rel T x y) :
    Rel (Both T) x.toOption y.toOption := by
  cases x <;> cases y <;> first | exact h | trivial

theorem Rel.getString (hl : IsStringList s.strings l) (hl' : IsStringList a l')
    (he : l.length = l'.length) (oc : Bool) (o : Nat) :
    Rel (SameRef l l') (s.get_string oc o) ((Restrung s a).get_string oc o) :=
  Rel.bind (x := s.get8 oc o) fun _ _ => Rel.find hl hl' he _

/-- A step that may fail without harm. -/
theorem Rel.bind_opt {α β γ : Type} {Q : α → β → Prop} {T : γ → γ → Prop} {x y : R (Option γ)}
    {k : Option γ → R α} {k' : Option γ → R β} (h : Rel (Both T) x y) (h0 : Rel Q (k none) (k' none))
    (h1 : ∀ c d, T c d → Rel Q (k (some c)) (k' (some d))) : Rel Q (x >>= k) (y >>= k') := by
  refine .bind_rel h fun c d _ _ hc => ?_
  cases c <;> cases d <;> first | exact hc.elim | skip
  · exact h0
  · exact h1 _ _ hc
theorem Rel.bind_pure {ε α β γ δ : Type} {Q : α → β → Prop} {c : γ} {d : δ} {k : γ → Res ε α}
    {k' : δ → Res ε β} (h : Rel Q (k c) (k' d)) : Rel Q (Pure.pure c >>= k) (Pure.pure d >>= k') := h
theorem Rel.err {ε α β : Type} {Q : α → β → Prop} {e : ε} :
    Rel Q (.err e : Res ε α) (.err e : Res ε β) := rfl

theorem re_get8 (oc : Bool) (o : Nat) : (Restrung s a).get8 oc o = s.get8 oc o := rfl
theorem re_get16 (oc : Bool) (o : Nat) : (Restrung s a).get16 oc o = s.get16 oc o := rfl
theorem re_get32 (oc : Bool) (o : Nat) : (Restrung s a).get32 oc o = s.get32 oc o := rfl
theorem re_get64 (oc : Bool) (o : Nat) : (Restrung s a).get64 oc o = s.get64 oc o := rfl
theorem re_slice (oc : Bool) (o n : Nat) : (Restrung s a).get_slice oc o n = s.get_slice oc o n := rfl
theorem re_version : (Restrung s a).version = s.version := rfl
theorem re_info : (Restrung s a).info = s.info := rfl
theorem re_length : (Restrung s a).length = s.length := rfl
theorem re_data : (Restrung s a).data = s.data := rfl
theorem re_handle : (Restrung s a).handle = s.handle := rfl

end

/-- Follows two `do` blocks that differ in the string area. -/
syntax "retext" term:max term:max term:max : tactic
macro_rules
  | `(tactic| retext $hl $hl' $he) => `(tactic| (
      try dsimp +instances only [re_get8, re_get16, re_get32, re_get64, re_slice, re_version,
        re_info, re_length, re_data, re_handle]
      repeat' first
        | with_reducible exact Rel.err
        | with_reducible exact Rel.panic rfl rfl
        | ((with_reducible refine Rel.pure ?_); refine ⟨rfl, ?_⟩; simp only [textFields, Pairwise2, Both, and_true]; simp only [*, and_true]; done)
        | (with_reducible refine Rel.bind_rel (Rel.find $hl $hl' $he _) (fun _ _ _ _ _ => ?_))
        | (with_reducible refine Rel.bind_rel (Rel.getString $hl $hl' $he _ _) (fun _ _ _ _ _ => ?_))
        | (with_reducible refine Rel.bind_opt (Rel.opt (Rel.getString $hl $hl' $he _ _)) (?_) (fun _ _ _ => ?_))
        | (with_reducible refine Rel.bind_opt (Rel.opt (Rel.find $hl $hl' $he _)) (?_) (fun _ _ _ => ?_))
        | (with_reducible refine Rel.bind_pure (?_))
        | (with_reducible refine Rel.bind (fun _ _ => ?_))
        | (with_reducible refine Rel.ite ?_ ?_)))

section
variable {s : RawStructure} {a : Bytes} {l l' : List Bytes}

theorem Rel.sku (hl : IsStringList s.strings l) (hl' : IsStringList a l') (he : l.length = l'.length)
    (o : Option UInt8) :
    Rel (Both (SameRef l l')) (enclosure.findSku s o) (enclosure.findSku (Restrung s a) o) := by
  cases o with
  | none => trivial
  | some i => exact .bind_rel (Rel.find hl hl' he i) fun _ _ _ _ h => h

theorem Rel.optString (hl : IsStringList s.strings l) (hl' : IsStringList a l')
    (he : l.length = l'.length) (oc : Bool) (o : Nat) :
    Rel (Both (SameRef l l')) (portable_battery.optString oc s o)
      (portable_battery.optString oc (Restrung s a) o) := by
  unfold portable_battery.optString
  rw [re_get8]
  refine .bind fun x _ => ?_
  split
  · trivial
  · exact .opt (Rel.find hl hl' he _)

theorem date_both {T : Str → Str → Prop} {o o' : Option Str} (h : Both T o o') (w : Option UInt16) :
    blankDate (.new o w) = blankDate (.new o' w) ∧ Both T (dateText (.new o w)) (dateText (.new o' w)) := by
  cases o <;> cases o' <;> first | exact h.elim | skip
  · cases w <;> exact ⟨rfl, trivial⟩
  · cases w <;> exact ⟨rfl, h⟩
theorem serial_both {T : Str → Str → Prop} {o o' : Option Str} (h : Both T o o') (w : Option UInt16) :
    blankSerial (.new o w) = blankSerial (.new o' w) ∧
      Both T (serialText (.new o w)) (serialText (.new o' w)) := by
  cases o <;> cases o' <;> first | exact h.elim | skip
  · cases w <;> exact ⟨rfl, trivial⟩
  · cases w <;> exact ⟨rfl, h⟩
theorem chemistry_both {T : Str → Str → Prop} {o o' : Option Str} (h : Both T o o') (b : UInt8) :
    blankChemistry (.new b o) = blankChemistry (.new b o') ∧
      Both T (chemistryText (.new b o)) (chemistryText (.new b o')) := by
  cases o <;> cases o' <;> first | exact h.elim | skip
  · by_cases h2 : b = 2
    · subst h2; exact ⟨rfl, trivial⟩
    · unfold portable_battery.DeviceChemistry.new
      simp only [if_neg h2]
      repeat' split
      all_goals exact ⟨trivial, trivial⟩
  · by_cases h2 : b = 2
    · subst h2; exact ⟨rfl, h⟩
    · unfold portable_battery.DeviceChemistry.new
      simp only [if_neg h2]
      repeat' split
      all_goals exact ⟨trivial, trivial⟩

theorem retext_battery (oc : Bool) (hl : IsStringList s.strings l) (hl' : IsStringList a l')
    (he : l.length = l'.length) :
    Rel (fun v w => Retexted l l' (.PortableBattery v) (.PortableBattery w))
      (portable_battery.PortableBattery.try_from oc s)
      (portable_battery.PortableBattery.try_from oc (Restrung s a)) := by
  unfold portable_battery.PortableBattery.try_from
  dsimp +instances only [re_get8, re_get16, re_get32, re_get64, re_slice, re_version, re_info,
    re_length, re_data, re_handle]
  refine .ite .err (.ite .err ?_)
  refine .bind_rel (Rel.getString hl hl' he _ _) fun _ _ _ _ h1 => ?_
  refine .bind_rel (Rel.getString hl hl' he _ _) fun _ _ _ _ h2 => ?_
  refine .bind_rel (Rel.optString hl hl' he _ _) fun _ _ _ _ h3 => ?_
  refine .bind fun _ _ => ?_
  refine .bind_rel (Rel.optString hl hl' he _ _) fun _ _ _ _ h4 => ?_
  refine .bind fun _ _ => ?_
  refine .bind_rel (Rel.getString hl hl' he _ _) fun _ _ _ _ h5 => ?_
  refine .bind fun _ _ => ?_
  refine .bind_rel (.opt (Rel.getString hl hl' he _ _)) fun _ _ _ _ h6 => ?_
  refine .bind fun _ _ => .bind fun _ _ => .bind fun _ _ => ?_
  refine .bind_rel (Rel.getString hl hl' he _ _) fun _ _ _ _ h7 => ?_
  refine .bind fun _ _ => .bind fun _ _ => .pure ⟨?_, ?_⟩
  · simp only [blank, (date_both h3 _).1, (serial_both h4 _).1, (chemistry_both h6 _).1]
  · exact ⟨h1, h2, h5, h7, (date_both h3 _).2, (serial_both h4 _).2, (chemistry_both h6 _).2, trivial⟩

theorem count_list {s : RawStructure} (hl : IsStringList s.strings l) :
    s.stringsIter.count = l.length := by
  obtain ⟨-, h2⟩ := C20_strings_total s.strings
  unfold StructureStrings.count RawStructure.stringsIter
  rw [isStringList_unique h2 hl]

theorem retext_options (oc : Bool) (hl : IsStringList s.strings l) (hl' : IsStringList a l')
    (he : l.length = l'.length) :
    Rel (fun v w => Retexted l l' (.SystemConfigurationOptions v) (.SystemConfigurationOptions w))
      (system_configuration_options.SystemConfigurationOptions.try_from oc s)
      (system_configuration_options.SystemConfigurationOptions.try_from oc (Restrung s a)) := by
  unfold system_configuration_options.SystemConfigurationOptions.try_from
  dsimp +instances only [re_get8, re_handle]
  rw [count_list hl, count_list (s := Restrung s a) hl', he]
  exact .bind fun _ _ => .ite .err (.pure ⟨rfl, trivial⟩)

theorem decode_retext (oc : Bool) (hl : IsStringList s.strings l) (hl' : IsStringList a l')
    (he : l.length = l'.length) :
    Rel (Retexted l l') (decodeStructure oc s) (decodeStructure oc (Restrung s a)) := by
  unfold decodeStructure
  rw [re_info]
  split <;> rename_i hi
  · refine .map ?_; unfold bios.Bios.try_from; retext hl hl' he
  · refine .map ?_; unfold system.System.try_from; retext hl hl' he
  · refine .map ?_; unfold baseboard.BaseBoard.try_from; retext hl hl' he
  · refine .map ?_; unfold enclosure.Enclosure.try_from; retext hl hl' he
    refine .bind_opt (Rel.sku hl hl' he _) ?_ fun _ _ _ => ?_ <;> retext hl hl' he
  · refine .map ?_; unfold processor.Processor.try_from; retext hl hl' he
  · refine .map ?_; unfold cache.Cache.try_from; retext hl hl' he
  · refine .map ?_; unfold port_connector.PortConnector.try_from; retext hl hl' he
  · refine .map ?_; unfold system_slots.SystemSlots.try_from system_slots.SystemSlots.decode
    retext hl hl' he
  · exact ⟨rfl, trivial⟩
  · exact .map (retext_options oc hl hl' he)
  · refine .map ?_; unfold bios_language.BiosLanguage.try_from; retext hl hl' he <;>
      exact ⟨rfl, trivial⟩
  · refine .map ?_; unfold group_associations.GroupAssociations.try_from; retext hl hl' he
  · exact .map (Rel.refl (fun _ => ⟨rfl, trivial⟩) (system_event_log.SystemEventLog.try_from oc s))
  · exact .map (Rel.refl (fun _ => ⟨rfl, trivial⟩)
      (physical_memory_array.PhysicalMemoryArray.try_from s))
  · refine .map ?_; unfold memory_device.MemoryDevice.try_from; retext hl hl' he
  · exact .map (Rel.refl (fun _ => ⟨rfl, trivial⟩) (memory_error_32.MemoryError32.try_from oc s))
  · exact .map (Rel.refl (fun _ => ⟨rfl, trivial⟩)
      (memory_array_mapped_address.MemoryArrayMappedAddress.try_from oc s))
  · exact .map (Rel.refl (fun _ => ⟨rfl, trivial⟩)
      (memory_device_mapped_address.MemoryDeviceMappedAddress.try_from oc s))
  · exact .map (Rel.refl (fun _ => ⟨rfl, trivial⟩)
      (built_in_pointing_device.BuiltInPointingDevice.try_from oc s))
  · exact .map (retext_battery oc hl hl' he)
  · exact ⟨rfl, trivial⟩

end

/-! ### The property -/

/-- C83: another string area with as many strings changes texts only, position by position. -/
theorem C83_texts (oc : Bool) (s : RawStructure) (a : Bytes) (l l' : List Bytes)
    (hl : IsStringList s.strings l) (hl' : IsStringList a l') (he : l.length = l'.length) :
    (∃ v w, decodeStructure oc s = .ok v ∧ decodeStructure oc { s with strings := a } = .ok w ∧
      Retexted l l' v w) ∨
    (∃ e, decodeStructure oc s = .err e ∧ decodeStructure oc { s with strings := a } = .err e) ∨
    (decodeStructure oc s = .panic ∧ decodeStructure oc { s with strings := a } = .panic) ∨
    (decodeStructure oc s = .ub ∧ decodeStructure oc { s with strings := a } = .ub) := by
  have h := decode_retext oc hl hl' he
  unfold Restrung at h
  generalize decodeStructure oc s = x at *
  generalize decodeStructure oc { s with strings := a } = y at *
  cases x <;> cases y <;> first | exact h.elim | skip
  · exact .inl ⟨_, _, rfl, rfl, h⟩
  · exact .inr (.inl ⟨_, rfl, congrArg _ (Eq.symm h)⟩)
  · exact .inr (.inr (.inl ⟨rfl, rfl⟩))
  · exact .inr (.inr (.inr ⟨rfl, rfl⟩))

/-- Types whose values keep the whole string area and no text fields. -/
def KeepsArea : Structure → Prop
  | .OemStrings _ | .SystemConfigurationOptions _ | .BiosLanguage _ | .Other _ => True
  | _ => False

theorem blank_date {d e : portable_battery.ManufactureDate} (h : blankDate d = blankDate e)
    (t : dateText d = dateText e) : d = e := by
  cases d <;> cases e <;> simp_all [blankDate, dateText]
theorem blank_serial {d e : portable_battery.SerialNumber} (h : blankSerial d = blankSerial e)
    (t : serialText d = serialText e) : d = e := by
  cases d <;> cases e <;> simp_all [blankSerial, serialText]
theorem blank_chemistry {d e : portable_battery.DeviceChemistry}
    (h : blankChemistry d = blankChemistry e) (t : chemistryText d = chemistryText e) : d = e := by
  cases d <;> cases e <;> simp_all [blankChemistry, chemistryText]

/-- A value is its texts and the rest. -/
theorem blank_texts {v w : Structure} (h : blank v = blank w) (t : textFields v = textFields w)
    (k : ¬ KeepsArea v) : v = w := by
  cases v <;> cases w <;> first | exact absurd trivial k | skip
  all_goals first
    | exact h
    | (exfalso; exact Structure.noConfusion h)
    | skip
  all_goals
    rename_i x y
    cases x; cases y
    simp [blank] at h
    simp [textFields] at t
    casesm* _ ∧ _
    subst_vars
    first
      | rfl
      | (rename_i h1 h2 h3 t1 t2 t3; rw [blank_date h1 t1, blank_serial h2 t2, blank_chemistry h3 t3])

theorem sameRef_eq {l : List Bytes} {x y : Str} (h : SameRef l l x y) : x = y := by
  obtain ⟨rfl, rfl⟩ | ⟨i, h1, h2⟩ := h
  · rfl
  · exact Option.some.inj (h1.symm.trans h2)

theorem pairwise_eq {l : List Bytes} : ∀ {xs ys : List (Option Str)},
    Pairwise2 (Both (SameRef l l)) xs ys → xs = ys
  | [], [], _ => rfl
  | x :: xs, y :: ys, h => by
    rw [pairwise_eq h.2]
    cases x <;> cases y <;> first | exact h.1.elim | skip
    · rfl
    · rw [sameRef_eq h.1]

/-- C83: the strings count, not the bytes they are stored in. -/
theorem C83_same (oc : Bool) (s : RawStructure) (a : Bytes) (l : List Bytes)
    (hl : IsStringList s.strings l) (hl' : IsStringList a l) (v : Structure)
    (hv : decodeStructure oc s = .ok v) (k : ¬ KeepsArea v) :
    decodeStructure oc { s with strings := a } = .ok v := by
  obtain ⟨v', w, h1, h2, h3, h4⟩ | ⟨e, h, -⟩ | ⟨h, -⟩ | ⟨h, -⟩ :=
    C83_texts oc s a l l hl hl' rfl
  · rw [hv] at h1
    cases h1
    rw [h2, blank_texts h3 (pairwise_eq h4) k]
  all_goals rw [hv] at h; cases h

/-! ### Examples -/

theorem strings_of {a : Bytes} {l : List Bytes} (h : (StructureStrings.new a).collect = l) :
    IsStringList a l := h ▸ (C20_strings_total a).2

def otherNames : Bytes :=
  ascii "AMD" ++ [0] ++ ascii "X570" ++ [0] ++ ascii "Slot10" ++ [0, 0]

/-- Both areas hold three strings. -/
example : IsStringList exampleBoard.strings [ascii "Intel", ascii "S2600", ascii "Slot0"] ∧
    IsStringList otherNames [ascii "AMD", ascii "X570", ascii "Slot10"] :=
  ⟨strings_of (by decide +kernel), strings_of (by decide +kernel)⟩

/-- The maker is another one, the flags are not. -/
example : (decodeStructure true exampleBoard).okAnd (fun v => decide
      (textFields v = [ascii "Intel", ascii "S2600", ascii "", ascii "Slot0", ascii "",
        ascii "Slot0"].map some)) = true ∧
    (decodeStructure true { exampleBoard with strings := otherNames }).okAnd (fun w => decide
      (textFields w = [ascii "AMD", ascii "X570", ascii "", ascii "Slot10", ascii "",
        ascii "Slot10"].map some)) = true := by
  decide +kernel

/-- With fewer strings the same structure is refused. -/
example : decodeStructure true { exampleBoard with strings := ascii "AMD" ++ [0, 0] } =
    .err (.InvalidStringIndex .BaseBoard 2 3) := by decide +kernel

/-- Two areas with the same strings. -/
example : IsStringList (exampleBoard.strings ++ [7]) [ascii "Intel", ascii "S2600", ascii "Slot0"] ∧
    ∃ v, decodeStructure true exampleBoard = .ok v ∧ ¬ KeepsArea v := by
  refine ⟨strings_of (by decide +kernel), ?_⟩
  obtain ⟨v, h1, h2⟩ := exists_ok (show (decodeStructure true exampleBoard).okAnd
    (fun | .BaseBoard _ => true | _ => false) = true by decide +kernel)
  exact ⟨v, h1, by cases v <;> first | exact id | cases h2⟩

end Dmi.Props
