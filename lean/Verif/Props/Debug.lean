import Verif.Proofs.DebugTypes
import Verif.Proofs.DebugClean
import Verif.Proofs.Outcome
import Verif.Model.DebugBits
import Verif.Model.Display
/-!
# Properties C91, C92: derived `Debug`

`{:?}` and `{:#?}` of everything the crate returns. Which characters of strings the standard library shows by
number (`\u{…}`) is a table of its own; the theorems hold for every table. `[Shown]` is the form of integers: with
that of `{:x?}` the text `plain` is what `{:x?}` shows, and with that of `{:#x?}` the text `pretty` is what `{:#x?}`
shows. Where it is not mentioned integers are decimal.
-/
namespace Dmi.Props
open Fmt

/-- Values that are shown by the same text, in either form, are the same. -/
def Tells {α : Type} (f : α → Dbg) : Prop := ∀ (byNumber : Nat → Bool) (a b : α),
  (f a).plain byNumber = (f b).plain byNumber ∨ (f a).pretty byNumber = (f b).pretty byNumber → a = b

theorem tells {α : Type} {f : α → Dbg} (h : Good f) : Tells f := by
  intro t a b e
  rcases e with e | e
  · exact h.inj a b (plain_eq t (h.wf a) (h.wf b) e)
  · exact h.inj a b (pretty_eq t (h.wf a) (h.wf b) e)

/-- C91: the text of a decoded structure determines it. -/
theorem C91_structure [Shown] : Tells Structure.dbg := tells Structure.dbg_good

/-- C91: the same for structures that are not decoded. -/
theorem C91_raw [Shown] : Tells RawStructure.dbg := tells RawStructure.dbg_good

/-- C91: the same for what went wrong with a structure. -/
theorem C91_malformed [Shown] : Tells MalformedStructureError.dbg := tells MalformedStructureError.dbg_good

/-- C91: the same for what went wrong with an entry point. -/
theorem C91_entry_error [Shown] : Tells InvalidEntryPointError.dbg := tells InvalidEntryPointError.dbg_good

/-- C91: the same for entry points. -/
theorem C91_entry_point [Shown] : Tells EntryPoint.dbg := tells EntryPoint.dbg_good

/-- C91: the same for the iterator over a table. -/
theorem C91_iterator [Shown] : Tells Structures.dbg := tells Structures.dbg_good

/-- C91: the same for types of structures. -/
theorem C91_info [Shown] : Tells InfoType.dbg := tells InfoType.dbg_good

theorem good_result {ε α : Type} {f : α → Dbg} {g : ε → Dbg} (hf : Good f) (hg : Good g) :
    Good (Dbg.result f g) where
  wf a := by
    cases a with
    | ok a => exact ⟨by decide, rfl, hf.wf a, trivial⟩
    | error a => exact ⟨by decide, rfl, hg.wf a, trivial⟩
  inj a b e := by
    cases a with
    | ok a => cases b with
      | ok b => rw [hf.inj a b (cons_inj (tuple_inj e)).1]
      | error b =>
        have : txt! "Ok" = txt! "Err" := congrArg Dbg.head e
        exact absurd this (by decide)
    | error a => cases b with
      | ok b =>
        have : txt! "Err" = txt! "Ok" := congrArg Dbg.head e
        exact absurd this (by decide)
      | error b => rw [hg.inj a b (cons_inj (tuple_inj e)).1]

theorem good_next [Shown] : Good (Dbg.opt (Dbg.result Structure.dbg MalformedStructureError.dbg)) :=
  good_opt (good_result Structure.dbg_good MalformedStructureError.dbg_good)

theorem good_search [Shown] : Good (Dbg.result EntryPoint.dbg InvalidEntryPointError.dbg) :=
  good_result EntryPoint.dbg_good InvalidEntryPointError.dbg_good

/-- C91: the same for what the iterator over a table yields (`Option<Result<Structure, _>>`) and for what the
search for an entry point returns. -/
theorem C91_results [Shown] : Tells (Dbg.opt (Dbg.result Structure.dbg MalformedStructureError.dbg)) ∧
    Tells (Dbg.result EntryPoint.dbg InvalidEntryPointError.dbg) :=
  ⟨tells good_next, tells good_search⟩

/-- C91: the same for the types of fields and of the items of the iterators. -/
theorem C91_parts [Shown] :
    Tells EntryPointV2.dbg ∧
    Tells EntryPointV3.dbg ∧
    Tells SmbiosVersion.dbg ∧
    Tells bios.RomSize.dbg ∧
    Tells bios.Characteristics.dbg ∧
    Tells bios.CharacteristicsExtension1.dbg ∧
    Tells bios.CharacteristicsExtension2.dbg ∧
    Tells bios.BiosRevision.dbg ∧
    Tells bios.FirmwareRevision.dbg ∧
    Tells bios.Bios.dbg ∧
    Tells system.WakeupType.dbg ∧
    Tells system.System.dbg ∧
    Tells baseboard.BaseBoardFlags.dbg ∧
    Tells baseboard.BoardType.dbg ∧
    Tells baseboard.BaseBoard.dbg ∧
    Tells enclosure.EnclosureType.dbg ∧
    Tells enclosure.State.dbg ∧
    Tells enclosure.SecurityStatus.dbg ∧
    Tells enclosure.ContainedElements.dbg ∧
    Tells enclosure.Enclosure.dbg ∧
    Tells processor.ProcessorType.dbg ∧
    Tells processor.ProcessorFamily.dbg ∧
    Tells processor.VoltageLegacy.dbg ∧
    Tells processor.Voltage.dbg ∧
    Tells processor.ProcessorStatus.dbg ∧
    Tells processor.ProcessorUpgrade.dbg ∧
    Tells processor.ProcessorCharacteristics.dbg ∧
    Tells processor.Processor.dbg ∧
    Tells cache.CacheLevel.dbg ∧
    Tells cache.CacheLocation.dbg ∧
    Tells cache.CacheOperationalMode.dbg ∧
    Tells cache.CacheConfiguration.dbg ∧
    Tells cache.CacheSize.dbg ∧
    Tells cache.CacheSramType.dbg ∧
    Tells cache.CacheErrorCorrectionType.dbg ∧
    Tells cache.SystemCacheType.dbg ∧
    Tells cache.CacheAssociativity.dbg ∧
    Tells cache.CacheSize2.dbg ∧
    Tells cache.Cache.dbg ∧
    Tells port_connector.ConnectorType.dbg ∧
    Tells port_connector.PortType.dbg ∧
    Tells port_connector.PortConnector.dbg ∧
    Tells system_slots.SlotType.dbg ∧
    Tells system_slots.SlotWidth.dbg ∧
    Tells system_slots.CurrentUsage.dbg ∧
    Tells system_slots.SlotLength.dbg ∧
    Tells system_slots.SlotCharacteristics1.dbg ∧
    Tells system_slots.SlotCharacteristics2.dbg ∧
    Tells system_slots.DeviceAndFunctionNumber.dbg ∧
    Tells system_slots.PeerDevices.dbg ∧
    Tells system_slots.SlotPitch.dbg ∧
    Tells system_slots.SystemSlots.dbg ∧
    Tells StructureStrings.dbg ∧
    Tells oem_strings.OemStrings.dbg ∧
    Tells system_configuration_options.SystemConfigurationOptions.dbg ∧
    Tells bios_language.InstallableLanguages.dbg ∧
    Tells bios_language.LanguageFlags.dbg ∧
    Tells bios_language.BiosLanguage.dbg ∧
    Tells group_associations.GroupItems.dbg ∧
    Tells group_associations.GroupAssociations.dbg ∧
    Tells system_event_log.AccessMethod.dbg ∧
    Tells system_event_log.LogStatus.dbg ∧
    Tells system_event_log.LogHeaderFormat.dbg ∧
    Tells system_event_log.SupportedEventLogTypeDescriptors.dbg ∧
    Tells system_event_log.SystemEventLog.dbg ∧
    Tells memory_device.FormFactor.dbg ∧
    Tells memory_device.MemoryType.dbg ∧
    Tells memory_device.Detail.dbg ∧
    Tells memory_device.MemoryTechnology.dbg ∧
    Tells memory_device.OperatingModes.dbg ∧
    Tells memory_device.MemoryDevice.dbg ∧
    Tells memory_error_32.ErrorType.dbg ∧
    Tells memory_error_32.ErrorGranularity.dbg ∧
    Tells memory_error_32.ErrorOperation.dbg ∧
    Tells memory_error_32.MemoryError32.dbg ∧
    Tells memory_array_mapped_address.MemoryArrayMappedAddress.dbg ∧
    Tells memory_device_mapped_address.MemoryDeviceMappedAddress.dbg ∧
    Tells built_in_pointing_device.DeviceType.dbg ∧
    Tells built_in_pointing_device.Interface.dbg ∧
    Tells built_in_pointing_device.BuiltInPointingDevice.dbg ∧
    Tells portable_battery.ManufactureDate.dbg ∧
    Tells portable_battery.SerialNumber.dbg ∧
    Tells portable_battery.DeviceChemistry.dbg ∧
    Tells portable_battery.DesignCapacity.dbg ∧
    Tells portable_battery.PortableBattery.dbg ∧
    Tells physical_memory_array.MemoryArrayLocation.dbg ∧
    Tells physical_memory_array.MemoryArrayUse.dbg ∧
    Tells physical_memory_array.MemoryArrayErrorCorrectionTypes.dbg ∧
    Tells physical_memory_array.PhysicalMemoryArray.dbg ∧
    Tells enclosure.ContainedElementType.dbg ∧
    Tells enclosure.ContainedElement.dbg ∧
    Tells system_slots.Device.dbg ∧
    Tells group_associations.GroupItem.dbg ∧
    Tells system_event_log.EventLogType.dbg ∧
    Tells system_event_log.PostResults.dbg ∧
    Tells system_event_log.SystemManagementType.dbg ∧
    Tells system_event_log.VariableDataFormatType.dbg ∧
    Tells system_event_log.EventLogTypeDescriptor.dbg ∧
    Tells memory_device.ErrorGranularity.dbg ∧
    Tells memory_device.ErrorOperation.dbg ∧
    Tells memory_device.ErrorType.dbg :=
  ⟨tells EntryPointV2.dbg_good, tells EntryPointV3.dbg_good, tells SmbiosVersion.dbg_good,
   tells bios.RomSize.dbg_good, tells bios.Characteristics.dbg_good,
   tells bios.CharacteristicsExtension1.dbg_good, tells bios.CharacteristicsExtension2.dbg_good,
   tells bios.BiosRevision.dbg_good, tells bios.FirmwareRevision.dbg_good, tells bios.Bios.dbg_good,
   tells system.WakeupType.dbg_good, tells system.System.dbg_good, tells baseboard.BaseBoardFlags.dbg_good,
   tells baseboard.BoardType.dbg_good, tells baseboard.BaseBoard.dbg_good,
   tells enclosure.EnclosureType.dbg_good, tells enclosure.State.dbg_good,
   tells enclosure.SecurityStatus.dbg_good, tells enclosure.ContainedElements.dbg_good,
   tells enclosure.Enclosure.dbg_good, tells processor.ProcessorType.dbg_good,
   tells processor.ProcessorFamily.dbg_good, tells processor.VoltageLegacy.dbg_good,
   tells processor.Voltage.dbg_good, tells processor.ProcessorStatus.dbg_good,
   tells processor.ProcessorUpgrade.dbg_good, tells processor.ProcessorCharacteristics.dbg_good,
   tells processor.Processor.dbg_good, tells cache.CacheLevel.dbg_good, tells cache.CacheLocation.dbg_good,
   tells cache.CacheOperationalMode.dbg_good, tells cache.CacheConfiguration.dbg_good,
   tells cache.CacheSize.dbg_good, tells cache.CacheSramType.dbg_good,
   tells cache.CacheErrorCorrectionType.dbg_good, tells cache.SystemCacheType.dbg_good,
   tells cache.CacheAssociativity.dbg_good, tells cache.CacheSize2.dbg_good, tells cache.Cache.dbg_good,
   tells port_connector.ConnectorType.dbg_good, tells port_connector.PortType.dbg_good,
   tells port_connector.PortConnector.dbg_good, tells system_slots.SlotType.dbg_good,
   tells system_slots.SlotWidth.dbg_good, tells system_slots.CurrentUsage.dbg_good,
   tells system_slots.SlotLength.dbg_good, tells system_slots.SlotCharacteristics1.dbg_good,
   tells system_slots.SlotCharacteristics2.dbg_good, tells system_slots.DeviceAndFunctionNumber.dbg_good,
   tells system_slots.PeerDevices.dbg_good, tells system_slots.SlotPitch.dbg_good,
   tells system_slots.SystemSlots.dbg_good, tells StructureStrings.dbg_good,
   tells oem_strings.OemStrings.dbg_good,
   tells system_configuration_options.SystemConfigurationOptions.dbg_good,
   tells bios_language.InstallableLanguages.dbg_good, tells bios_language.LanguageFlags.dbg_good,
   tells bios_language.BiosLanguage.dbg_good, tells group_associations.GroupItems.dbg_good,
   tells group_associations.GroupAssociations.dbg_good, tells system_event_log.AccessMethod.dbg_good,
   tells system_event_log.LogStatus.dbg_good, tells system_event_log.LogHeaderFormat.dbg_good,
   tells system_event_log.SupportedEventLogTypeDescriptors.dbg_good,
   tells system_event_log.SystemEventLog.dbg_good, tells memory_device.FormFactor.dbg_good,
   tells memory_device.MemoryType.dbg_good, tells memory_device.Detail.dbg_good,
   tells memory_device.MemoryTechnology.dbg_good, tells memory_device.OperatingModes.dbg_good,
   tells memory_device.MemoryDevice.dbg_good, tells memory_error_32.ErrorType.dbg_good,
   tells memory_error_32.ErrorGranularity.dbg_good, tells memory_error_32.ErrorOperation.dbg_good,
   tells memory_error_32.MemoryError32.dbg_good,
   tells memory_array_mapped_address.MemoryArrayMappedAddress.dbg_good,
   tells memory_device_mapped_address.MemoryDeviceMappedAddress.dbg_good,
   tells built_in_pointing_device.DeviceType.dbg_good, tells built_in_pointing_device.Interface.dbg_good,
   tells built_in_pointing_device.BuiltInPointingDevice.dbg_good,
   tells portable_battery.ManufactureDate.dbg_good, tells portable_battery.SerialNumber.dbg_good,
   tells portable_battery.DeviceChemistry.dbg_good, tells portable_battery.DesignCapacity.dbg_good,
   tells portable_battery.PortableBattery.dbg_good,
   tells physical_memory_array.MemoryArrayLocation.dbg_good,
   tells physical_memory_array.MemoryArrayUse.dbg_good,
   tells physical_memory_array.MemoryArrayErrorCorrectionTypes.dbg_good,
   tells physical_memory_array.PhysicalMemoryArray.dbg_good, tells enclosure.ContainedElementType.dbg_good,
   tells enclosure.ContainedElement.dbg_good, tells system_slots.Device.dbg_good,
   tells group_associations.GroupItem.dbg_good, tells system_event_log.EventLogType.dbg_good,
   tells system_event_log.PostResults.dbg_good, tells system_event_log.SystemManagementType.dbg_good,
   tells system_event_log.VariableDataFormatType.dbg_good,
   tells system_event_log.EventLogTypeDescriptor.dbg_good, tells memory_device.ErrorGranularity.dbg_good,
   tells memory_device.ErrorOperation.dbg_good, tells memory_device.ErrorType.dbg_good⟩

/-- C91: `Debug` of a structure type is the text that the error messages contain. -/
theorem C91_info_text (byNumber : Nat → Bool) (a : InfoType) : a.dbg.plain byNumber = a.debug := by
  cases a with
  | Oem v =>
    simp only [InfoType.dbg, Dbg.plain, DbgArgs.plain, Dbg.num, Shown.form, IntForm.text, bars, List.flatMap_nil, List.append_nil, labelText,
      List.isEmpty_nil, if_true, List.nil_append, InfoType.debug, List.cons_append]
  | _ => rfl

/-- C91: the texts of errors. -/
theorem C91_error_texts (f : Nat → Bool) :
    (∀ o l, (MalformedStructureError.BadSize o l).dbg.plain f =
      txt! "BadSize(" ++ (dec o.toNat ++ (txt! ", " ++ (dec l.toNat ++ txt! ")")))) ∧
    (∀ o, (MalformedStructureError.UnterminatedStrings o).dbg.plain f =
      txt! "UnterminatedStrings(" ++ (dec o.toNat ++ txt! ")")) ∧
    (∀ i h n, (MalformedStructureError.InvalidStringIndex i h n).dbg.plain f =
      txt! "InvalidStringIndex(" ++ (i.debug ++ (txt! ", " ++ (dec h.toNat ++ (txt! ", " ++ (dec n.toNat ++
        txt! ")")))))) ∧
    MalformedStructureError.InvalidSlice.dbg.plain f = txt! "InvalidSlice(TryFromSliceError(()))" ∧
    (∀ i h n, (MalformedStructureError.InvalidFormattedSectionLength i h "minimum of " n).dbg.plain f =
      txt! "InvalidFormattedSectionLength(" ++ (i.debug ++ (txt! ", " ++ (dec h.toNat ++
        (txt! ", " ++ (escape f (("minimum of ").toByteArray.data.toList) ++ (txt! ", " ++ (dec n.toNat ++
        txt! ")")))))))) ∧
    InvalidEntryPointError.NotFound.dbg.plain f = txt! "NotFound" ∧
    (∀ v, (InvalidEntryPointError.TooOldVersion v).dbg.plain f =
      txt! "TooOldVersion(" ++ (dec v.toNat ++ txt! ")")) ∧
    (∀ v, (InvalidEntryPointError.BadSize v).dbg.plain f = txt! "BadSize(" ++ (dec v.toNat ++ txt! ")")) ∧
    (∀ v, (InvalidEntryPointError.BadChecksum v).dbg.plain f =
      txt! "BadChecksum(" ++ (dec v.toNat ++ txt! ")")) := by
  refine ⟨fun o l => ?_, fun o => ?_, fun i h n => ?_, rfl, fun i h n => ?_, rfl, fun v => ?_, fun v => ?_, fun v => ?_⟩
  all_goals
    simp only [MalformedStructureError.dbg, InvalidEntryPointError.dbg, Dbg.plain, DbgArgs.plain, Dbg.num, Shown.form, IntForm.text, bars,
      List.flatMap_nil, List.append_nil, labelText, List.isEmpty_nil, if_true, List.nil_append, C91_info_text,
      List.append_assoc, Bool.false_eq_true, if_false, List.cons_append]

/-- `t` is the numeral of `n` in the form: `0x` and digits without leading zeros, or only these. -/
def IsInteger : IntForm → Text → Nat → Prop
  | .decimal, t, n => IsDec 1 t n
  | .hex upper alternate, t, n => ∃ d, t = (if alternate then txt! "0x" else []) ++ d ∧
      (if upper then IsHexUpper 1 d n else IsHexLower 1 d n)

/-- C91: an integer is shown by its numeral in the form asked for, in decimal by `{:?}` and `{:#?}`, to base 16 with
small letters by `{:x?}`, with capital letters by `{:X?}` and behind `0x` by `{:#x?}` and `{:#X?}`. -/
theorem C91_integers (f : Nat → Bool) (form : IntForm) (n : Nat) :
    (@Dbg.num ⟨form⟩ n).plain f = (@Dbg.num ⟨form⟩ n).pretty f ∧ IsInteger form ((@Dbg.num ⟨form⟩ n).plain f) n := by
  have text : (@Dbg.num ⟨form⟩ n).plain f = form.text n := by
    simp only [Dbg.num, Dbg.plain, bars, List.flatMap_nil, List.append_nil]
  refine ⟨rfl, ?_⟩
  rw [text]
  cases form with
  | decimal => exact isDec n
  | hex upper alternate =>
    refine ⟨_, rfl, ?_⟩
    cases upper with
    | false => exact isHexLower n
    | true => exact isHexUpper n

/-- C91: so are the numbers in the errors of the search, whatever the form. -/
theorem C91_error_integers [Shown] (f : Nat → Bool) (v : UInt8) : ∃ t, IsInteger Shown.form t v.toNat ∧
    (InvalidEntryPointError.TooOldVersion v).dbg.plain f = txt! "TooOldVersion(" ++ (t ++ txt! ")") ∧
    (InvalidEntryPointError.BadSize v).dbg.plain f = txt! "BadSize(" ++ (t ++ txt! ")") ∧
    (InvalidEntryPointError.BadChecksum v).dbg.plain f = txt! "BadChecksum(" ++ (t ++ txt! ")") := by
  refine ⟨_, (C91_integers f Shown.form v.toNat).2, ?_, ?_, ?_⟩
  all_goals
    simp only [InvalidEntryPointError.dbg, Dbg.plain, DbgArgs.plain, labelText, List.isEmpty_nil, if_true,
      List.nil_append, List.append_nil]
    rfl

/-! ### Bit fields -/

theorem good_range [Shown] :
    Good fun p : Nat × Nat => Dbg.name (Shown.form.text p.1 ++ (txt! "..=" ++ Shown.form.text p.2)) where
  wf p := by
    refine ⟨?_, rfl⟩
    rw [isWord_iff]
    refine ⟨fun h => ?_, fun c hc => ?_⟩
    · exact ((isWord_iff _).1 (word_form Shown.form p.1)).1 (List.append_eq_nil_iff.1 h).1
    · rcases List.mem_append.1 hc with hc | hc
      · exact ((isWord_iff _).1 (word_form Shown.form p.1)).2 c hc
      · rcases List.mem_append.1 hc with hc | hc
        · exact (by decide : ∀ c ∈ txt! "..=", wordChar c = true) c hc
        · exact ((isWord_iff _).1 (word_form Shown.form p.2)).2 c hc
  inj p q e := by
    injection e with e _
    obtain ⟨h1, h2⟩ := split_unique formChar (form_chars _ _) (form_chars _ _) (fun c h => by cases h; rfl)
      (fun c h => by cases h; rfl) e
    exact Prod.ext (form_inj _ h1) (form_inj _ (List.append_cancel_left h2))

/-- C91: descriptions of flags and ranges of reserved bits are shown completely. -/
theorem C91_bitfield [Shown] : Tells bitfield.FlagType.dbg ∧ Tells bitfield.ReservedRange.dbg := by
  refine ⟨tells ⟨fun x => ?_, fun a b e => ?_⟩, tells ⟨fun x => ?_, fun a b e => ?_⟩⟩
  · cases x
    · exact ⟨by decide, rfl⟩
    · exact ⟨by decide, rfl, good_string.wf _, rfl, good_string.wf _, trivial⟩
    · exact ⟨by decide, rfl, good_string.wf _, trivial⟩
  · have h : a.ctorIdx = b.ctorIdx := by
      have idx : ∀ x : bitfield.FlagType,
          [txt! "Unknown", txt! "Significant", txt! "Reserved"].idxOf x.dbg.head = x.ctorIdx := by
        intro x; cases x <;> rfl
      rw [← idx a, ← idx b, e]
    cases a <;> cases b <;> first | exact absurd h (Nat.ne_of_beq_eq_false rfl) | skip
    · rfl
    · obtain ⟨e1, e⟩ := cons_inj (tuple_inj e)
      obtain ⟨e2, e⟩ := cons_inj e
      rw [good_string.inj _ _ e1, good_string.inj _ _ e2]
    · rw [good_string.inj _ _ (cons_inj (tuple_inj e)).1]
  · exact ⟨by decide, by decide, good_string.wf _, by decide, good_range.wf (x.start, x.stop), trivial⟩
  · obtain ⟨e1, e⟩ := cons_inj (struct_inj e)
    obtain ⟨e2, e⟩ := cons_inj e
    replace e1 := good_string.inj _ _ e1
    replace e2 := good_range.inj (a.start, a.stop) (b.start, b.stop) e2
    simp only [Prod.mk.injEq] at e2
    obtain ⟨e2, e3⟩ := e2
    cases a; cases b
    dsimp only at e1 e2 e3
    subst e1; subst e2; subst e3
    rfl

/-- C91: the text of a range of reserved bits, whatever the form of integers. -/
theorem C91_range [Shown] (f : Nat → Bool) (x : bitfield.ReservedRange) : ∃ a b,
    IsInteger Shown.form a x.start ∧ IsInteger Shown.form b x.stop ∧
    x.dbg.plain f = txt! "ReservedRange { description: " ++ (escape f x.description.toByteArray.data.toList ++
      (txt! ", range: " ++ (a ++ (txt! "..=" ++ (b ++ txt! " }"))))) := by
  have text : ∀ n, (Dbg.num n).plain f = Shown.form.text n := fun n => by
    simp only [Dbg.num, Dbg.plain, bars, List.flatMap_nil, List.append_nil]
  have h : ∀ n, IsInteger Shown.form (Shown.form.text n) n := fun n => text n ▸ (C91_integers f Shown.form n).2
  refine ⟨_, _, h _, h _, ?_⟩
  simp only [bitfield.ReservedRange.dbg, Dbg.name, Dbg.plain, DbgArgs.plain, bars, labelText, List.flatMap_nil,
    List.isEmpty_cons, Bool.false_eq_true, if_false, if_true, List.nil_append, List.append_nil, List.append_assoc,
    List.cons_append]

/-- C91: a flag shows its position and whether it is set; its description is not shown. -/
theorem C91_flag [Shown] (f : Nat → Bool) (a b : bitfield.Flag) :
    (a.dbg.plain f = b.dbg.plain f ↔ a.position = b.position ∧ a.is_set = b.is_set) ∧
    (a.dbg.pretty f = b.dbg.pretty f ↔ a.position = b.position ∧ a.is_set = b.is_set) := by
  have wf : ∀ x : bitfield.Flag, x.dbg.WF := fun x =>
    ⟨by decide, by decide, ⟨by decide, rfl, good_num.wf _, trivial⟩, by decide, good_bool.wf _, trivial⟩
  have back : a.position = b.position ∧ a.is_set = b.is_set → a.dbg = b.dbg := by
    rintro ⟨h1, h2⟩
    unfold bitfield.Flag.dbg
    rw [h1, h2]
  have forth : a.dbg = b.dbg → a.position = b.position ∧ a.is_set = b.is_set := by
    intro e
    obtain ⟨e1, e⟩ := cons_inj (struct_inj e)
    obtain ⟨e2, -⟩ := cons_inj e
    exact ⟨good_num.inj _ _ (cons_inj (tuple_inj e1)).1, good_bool.inj _ _ e2⟩
  exact ⟨⟨fun e => forth (plain_eq f (wf a) (wf b) e), fun h => by rw [back h]⟩,
    ⟨fun e => forth (pretty_eq f (wf a) (wf b) e), fun h => by rw [back h]⟩⟩

/-! ### Control characters (C92) -/

/-- A table by which control characters are shown by number, as that of the standard library is. -/
def HidesControls (byNumber : Nat → Bool) : Prop := ∀ c, c < 32 ∨ c = 127 → byNumber c = true

/-- C92: whatever bytes a table has in its strings, the text `{:?}` of what the iterator over the table yields is
a single line without control characters. -/
theorem C92_line [Shown] (f : Nat → Bool) (hf : HidesControls f) (x : Option (Except MalformedStructureError Structure)) :
    ∀ c ∈ (Dbg.opt (Dbg.result Structure.dbg MalformedStructureError.dbg) x).plain f, 32 ≤ c ∧ c ≠ 127 :=
  plain_clean hf _ (good_next.wf x)

/-- C92: in the text `{:#?}` the only control characters are newlines. -/
theorem C92_lines [Shown] (f : Nat → Bool) (hf : HidesControls f) (x : Option (Except MalformedStructureError Structure)) :
    ∀ c ∈ (Dbg.opt (Dbg.result Structure.dbg MalformedStructureError.dbg) x).pretty f,
      c = 10 ∨ 32 ≤ c ∧ c ≠ 127 :=
  pretty_clean hf _ (good_next.wf x)

/-- A text in which every quotation mark and every backslash stands behind a backslash (or is one that escapes
the character behind it). -/
def Escaped : Text → Prop
  | [] => True
  | [c] => c ≠ 34 ∧ c ≠ 92
  | c :: x :: t => if c = 92 then Escaped t else c ≠ 34 ∧ Escaped (x :: t)

theorem escaped_cons {c : Nat} {t : Text} (h : c ≠ 34) (h' : c ≠ 92) (ht : Escaped t) : Escaped (c :: t) := by
  cases t with
  | nil => exact ⟨h, h'⟩
  | cons x t => rw [Escaped, if_neg h']; exact ⟨h, ht⟩

theorem escaped_append : ∀ (x : Text) {t : Text}, (∀ c ∈ x, c ≠ 34 ∧ c ≠ 92) → Escaped t → Escaped (x ++ t)
  | [], _, _, h => h
  | c :: x, _, hx, h => escaped_cons (hx c List.mem_cons_self).1 (hx c List.mem_cons_self).2
      (escaped_append x (fun d hd => hx d (List.mem_cons_of_mem _ hd)) h)

theorem hexLower_chars {n x : Nat} (h : x ∈ hexLower n) : 48 ≤ x ∧ x ≠ 92 := by
  obtain ⟨d, hd, rfl⟩ := List.mem_map.1 h
  have := digits_lt (by decide) hd
  unfold digitChar
  split <;> omega

theorem escapeChar_string {f : Nat → Bool} {s : Bytes} {c n : Nat} (h : charAt s = some (c, n)) :
    (∀ x ∈ escapeChar f c (s.take n), x ≠ 10 ∧ x ≠ 9 ∧ x ≠ 13 ∧ x ≠ 0) ∧
    ∀ t, Escaped t → Escaped (escapeChar f c (s.take n) ++ t) := by
  have hs := (charAt_spec h).1
  have two : ∀ a : Nat, 32 ≤ a → (∀ x ∈ [92, a], x ≠ 10 ∧ x ≠ 9 ∧ x ≠ 13 ∧ x ≠ 0) ∧
      ∀ t, Escaped t → Escaped ([92, a] ++ t) := by
    intro a ha
    refine ⟨fun x hx => ?_, fun t ht => ?_⟩
    · simp only [List.mem_cons, List.not_mem_nil, or_false] at hx; omega
    · show Escaped (92 :: a :: t)
      rw [Escaped, if_pos rfl]; exact ht
  unfold escapeChar
  split
  · exact two _ (by decide)
  split
  · exact two _ (by decide)
  split
  · exact two _ (by decide)
  split
  · exact two _ (by decide)
  split
  · exact two _ (by decide)
  split
  · exact two _ (by decide)
  split
  · refine ⟨fun x hx => ?_, fun t ht => ?_⟩
    · rcases List.mem_append.1 hx with h | h
      · exact (by decide : ∀ x ∈ txt! "\\u{", x ≠ 10 ∧ x ≠ 9 ∧ x ≠ 13 ∧ x ≠ 0) x h
      · rcases List.mem_append.1 h with h | h
        · have := hexLower_chars h; omega
        · have := List.mem_singleton.1 h; omega
    · show Escaped (92 :: 117 :: (123 :: ((hexLower c ++ [125]) ++ t)))
      rw [Escaped, if_pos rfl]
      refine escaped_cons (by decide) (by decide) (escaped_append _ (fun x hx => ?_) ht)
      rcases List.mem_append.1 hx with h | h
      · have := hexLower_chars h; omega
      · have := List.mem_singleton.1 h; omega
  · rw [hs]
    refine ⟨fun x hx => ?_, fun t ht => escaped_append _ (fun x hx => ?_) ht⟩ <;>
    · rcases encNat_clean hx with rfl | h <;> omega

theorem escapeFuel_string (f : Nat → Bool) : ∀ (k : Nat) (s : Bytes),
    (∀ x ∈ escapeFuel f k s, x ≠ 10 ∧ x ≠ 9 ∧ x ≠ 13 ∧ x ≠ 0) ∧ Escaped (escapeFuel f k s)
  | 0, s => by cases s <;> exact ⟨nofun, trivial⟩
  | k + 1, [] => ⟨nofun, trivial⟩
  | k + 1, b :: r => by
    unfold escapeFuel
    split
    · rename_i c n hc
      obtain ⟨h1, h2⟩ := escapeChar_string (f := f) hc
      obtain ⟨i1, i2⟩ := escapeFuel_string f k ((b :: r).drop n)
      exact ⟨fun x hx => (List.mem_append.1 hx).elim (h1 x) (i1 x), h2 _ i2⟩
    · rename_i hc
      have hb := charAt_none hc
      obtain ⟨i1, i2⟩ := escapeFuel_string f k r
      refine ⟨fun x hx => (List.mem_append.1 hx).elim (fun hx => ?_) (i1 x), ?_⟩
      · simp only [List.mem_cons, List.not_mem_nil, or_false] at hx; omega
      · show Escaped (92 :: 120 :: (b.toNat :: escapeFuel f k r))
        rw [Escaped, if_pos rfl]
        exact escaped_cons (by omega) (by omega) i2

/-- C92: a newline, a tab, a carriage return and a NUL inside a string are never shown as they are, whatever the
table, and between the quotation marks around it every quotation mark and backslash is escaped. -/
theorem C92_string (f : Nat → Bool) (s : Str) : ∃ t, (Dbg.str s).plain f = txt! "\"" ++ (t ++ txt! "\"") ∧
    (∀ x ∈ t, x ≠ 10 ∧ x ≠ 9 ∧ x ≠ 13 ∧ x ≠ 0) ∧ Escaped t := by
  have := escapeFuel_string f s.length s
  exact ⟨_, rfl, this⟩

/-! ### Examples -/

/-- A table that shows control characters by number. -/
def showControls (c : Nat) : Bool := c < 32 || c == 127

example : HidesControls showControls := by
  intro c hc
  simp only [showControls, Bool.or_eq_true, decide_eq_true_eq, beq_iff_eq]
  exact hc

/-- The texts of a structure. -/
example :
    let x : Structure := .GroupAssociations
      { handle := 7, group_name := [97, 34, 98, 10], items := { data := [1, 2], index := 0 } }
    x.dbg.plain showControls = txt! "GroupAssociations(GroupAssociations { handle: 7, group_name: \"a\\\"b\\n\", items: GroupItems { data: [1, 2], index: 0 } })" ∧
    x.dbg.pretty showControls = txt! "GroupAssociations(\n    GroupAssociations {\n        handle: 7,\n        group_name: \"a\\\"b\\n\",\n        items: GroupItems {\n            data: [\n                1,\n                2,\n            ],\n            index: 0,\n        },\n    },\n)" := by
  decide +kernel

/-- Integers in hexadecimal form: `{:x?}`, `{:#x?}` and `{:#X?}`. -/
example :
    let x : group_associations.GroupAssociations :=
      { handle := 0x2f, group_name := [97], items := { data := [0xab], index := 0 } }
    (@group_associations.GroupAssociations.dbg ⟨.hex false false⟩ x).plain showControls =
      txt! "GroupAssociations { handle: 2f, group_name: \"a\", items: GroupItems { data: [ab], index: 0 } }" ∧
    (@group_associations.GroupAssociations.dbg ⟨.hex false true⟩ x).pretty showControls =
      txt! "GroupAssociations {\n    handle: 0x2f,\n    group_name: \"a\",\n    items: GroupItems {\n        data: [\n            0xab,\n        ],\n        index: 0x0,\n    },\n}" ∧
    (@SmbiosVersion.dbg ⟨.hex true true⟩ ⟨3, 10⟩).pretty showControls =
      txt! "SmbiosVersion {\n    major: 0x3,\n    minor: 0xA,\n}" ∧
    (@bitfield.ReservedRange.dbg ⟨.hex false false⟩ ⟨"r", 8, 15⟩).plain showControls =
      txt! "ReservedRange { description: \"r\", range: 8..=f }" := by
  decide +kernel

/-- Flags: names, and a number for bits without name; flags whose bits have all been shown are left out. -/
example :
    (memory_device.Detail.mk 0x0087).dbg.plain showControls = txt! "Detail(OTHER | UNKNOWN | SYNCHRONOUS | 0x1)" ∧
    (memory_device.Detail.mk 0).dbg.plain showControls = txt! "Detail(0x0)" ∧
    (processor.ProcessorStatus.mk 0x43).dbg.plain showControls =
      txt! "ProcessorStatus(CPU_SOCKET_POPULATED | CPU_ENABLED | CPU_DISABLED_BY_USER)" ∧
    (memory_device.Detail.mk 6).dbg.pretty showControls = txt! "Detail(\n    OTHER | UNKNOWN,\n)" := by
  decide +kernel

/-- Control characters, a character of two bytes, an error. -/
example :
    (Dbg.str [0x1b, 0x5b, 0xc3, 0xa9]).plain showControls = txt! "\"\\u{1b}[é\"" ∧
    (MalformedStructureError.InvalidStringIndex .Bios 3 9).dbg.plain showControls =
      txt! "InvalidStringIndex(Bios, 3, 9)" ∧
    (Dbg.uuid [0, 1, 2, 3, 4, 5, 6, 7, 8, 9, 10, 11, 12, 13, 14, 255]).plain showControls =
      txt! "00010203-0405-0607-0809-0a0b0c0d0eff" := by
  decide +kernel

/-- Two flags that only differ in their description. -/
example : (bitfield.Flag.mk 3 true .Unknown).dbg.plain showControls =
      (bitfield.Flag.mk 3 true (.Reserved "x")).dbg.plain showControls ∧
    (bitfield.Flag.mk 3 true .Unknown).dbg.plain showControls =
      txt! "Flag { position: Position(3), is_set: true }" := by
  decide +kernel

end Dmi.Props
