import Verif.Proofs.Fmt
import Verif.Model.DisplayCodes
/-!
# Property C59: labels of codes with several kinds of numbered variants
-/
namespace Dmi.Props
open Fmt

/-! ## Processor family -/

theorem variants_processor_ProcessorFamily (a : processor.ProcessorFamily) :
    a ∈ nullary! processor.ProcessorFamily ∨ ((∃ v, a = .Available v) ∨ ∃ v, a = .NotUsed v) := by
  cases a <;> first
    | exact .inr (.inl ⟨_, rfl⟩) | exact .inr (.inr ⟨_, rfl⟩) | exact .inl (by decide +kernel)

/-- C59: distinct values of `ProcessorFamily` have distinct labels. -/
theorem C59_processor_ProcessorFamily : ∀ a b : processor.ProcessorFamily,
    a.display = b.display → a = b := by
  refine labels_inj (fun a : processor.ProcessorFamily => a.display)
    (nullary! processor.ProcessorFamily) _ [txt! "Available 0x", txt! "Not used. "]
    variants_processor_ProcessorFamily (by decide +kernel) (by decide +kernel) ?_ ?_
  · rintro _ (⟨v, rfl⟩ | ⟨v, rfl⟩)
    · exact ⟨_, List.mem_cons_self, List.prefix_append (txt! "Available 0x") _⟩
    · exact ⟨_, List.mem_cons_of_mem _ List.mem_cons_self, by
        simp only [processor.ProcessorFamily.display, List.append_assoc]
        exact List.prefix_append _ _⟩
  · rintro _ _ (⟨v, rfl⟩ | ⟨v, rfl⟩) (⟨w, rfl⟩ | ⟨w, rfl⟩) h
    all_goals simp only [processor.ProcessorFamily.display, List.append_assoc] at h
    · rw [UInt16.toNat_inj.1 (hexUpper_inj (List.append_cancel_left (List.append_cancel_left h)))]
    · simp at h
    · simp at h
    · rw [UInt16.toNat_inj.1 (hexUpper_inj (num_split (isNum_hexUpper _) (isNum_hexUpper _)
        (by simp [isNum]) (by simp [isNum]) (List.append_cancel_left h)).1)]

/-- C60: the label of an available code is the code in hexadecimal. -/
theorem C60_processor_ProcessorFamily_available (v : UInt16) : ∃ d : Text,
    (processor.ProcessorFamily.Available v).display = txt! "Available 0x" ++ d ∧
    IsHexUpper 1 d v.toNat := ⟨_, rfl, isHexUpper _⟩

/-- C60: the label of an unused code is the code in hexadecimal. -/
theorem C60_processor_ProcessorFamily_not_used (v : UInt16) : ∃ d : Text,
    (processor.ProcessorFamily.NotUsed v).display =
      txt! "Not used. " ++ d ++ txt! "h is the un-initialized value of Flash memory." ∧
    IsHexUpper 1 d v.toNat := ⟨_, rfl, isHexUpper _⟩

example : (processor.ProcessorFamily.Available 0x1F).display = txt! "Available 0x1F" ∧
    processor.ProcessorFamily.ARMv8.display = txt! "ARMv8" := by decide +kernel

/-! ## Event log header format -/

/-- C59: distinct values of `LogHeaderFormat` have distinct alternate labels. -/
theorem C59_system_event_log_LogHeaderFormat_alternate : ∀ a b : system_event_log.LogHeaderFormat,
    a.display true = b.display true → a = b := by
  intro a b h
  cases a <;> cases b <;> simp only [system_event_log.LogHeaderFormat.display] at h <;>
    first
      | rfl
      | rw [UInt8.toNat_inj.1 (dec_inj (List.append_cancel_left h))]
      | (simp at h)

/-- C59, full statement for the plain labels of `LogHeaderFormat`: they are distinct. -/
def C59_system_event_log_LogHeaderFormat_full : Prop := ∀ a b : system_event_log.LogHeaderFormat,
  a.display false = b.display false → a = b

/-- The plain label of an OEM-specific header format does not show its number. -/
theorem C59_system_event_log_LogHeaderFormat_full_false :
    ¬ C59_system_event_log_LogHeaderFormat_full := by
  intro h
  exact absurd (h (.OemSpecific 0x80) (.OemSpecific 0x81) rfl) (by decide)

/-- C59 (partial): values of `LogHeaderFormat` with the same plain label are equal or both
OEM-specific. Missing: the plain label of the OEM-specific formats does not show the number. -/
theorem C59_system_event_log_LogHeaderFormat_partial (a b : system_event_log.LogHeaderFormat)
    (h : a.display false = b.display false) :
    a = b ∨ ∃ v w, a = .OemSpecific v ∧ b = .OemSpecific w := by
  cases a <;> cases b <;> simp only [system_event_log.LogHeaderFormat.display] at h <;>
    first
      | exact .inl rfl
      | exact .inr ⟨_, _, rfl, rfl⟩
      | exact .inl (by rw [UInt8.toNat_inj.1 (dec_inj (List.append_cancel_left h))])
      | (simp at h)

/-- C60: the labels of the numbered formats are their kind and, except for the plain label of
OEM-specific formats, the number. -/
theorem C60_system_event_log_LogHeaderFormat_code (alt : Bool) (v : UInt8) : ∃ d : Text,
    IsDec 1 d v.toNat ∧
    (system_event_log.LogHeaderFormat.OemSpecific v).display true =
      txt! "BIOS vendor or OEM-specific format: " ++ d ∧
    (system_event_log.LogHeaderFormat.OemSpecific v).display false = txt! "OEM-specific" ∧
    (system_event_log.LogHeaderFormat.Available v).display alt = txt! "Available: " ++ d :=
  ⟨_, isDec _, rfl, rfl, by cases alt <;> rfl⟩

example : (system_event_log.LogHeaderFormat.OemSpecific 200).display true =
    txt! "BIOS vendor or OEM-specific format: 200" ∧
    (system_event_log.LogHeaderFormat.Available 7).display false = txt! "Available: 7" := by
  decide +kernel

/-! ## Event log type -/

theorem variants_system_event_log_EventLogType (a : system_event_log.EventLogType) :
    a ∈ nullary! system_event_log.EventLogType ∨
    ((∃ v, a = .Reserved v) ∨ (∃ v, a = .Unused v) ∨ ∃ v, a = .Available v) := by
  cases a <;> first
    | exact .inr (.inl ⟨_, rfl⟩) | exact .inr (.inr (.inl ⟨_, rfl⟩))
    | exact .inr (.inr (.inr ⟨_, rfl⟩)) | exact .inl (by decide +kernel)

/-- C59: distinct values of `EventLogType` have distinct alternate labels. -/
theorem C59_system_event_log_EventLogType_alternate : ∀ a b : system_event_log.EventLogType,
    a.display true = b.display true → a = b := by
  refine labels_inj (fun a : system_event_log.EventLogType => a.display true)
    (nullary! system_event_log.EventLogType) _ [txt! "Reserved: ", txt! "Unused: ",
      txt! "Available for system- and OEM-specific assignments: "]
    variants_system_event_log_EventLogType (by decide +kernel) (by decide +kernel) ?_ ?_
  · rintro _ (⟨v, rfl⟩ | ⟨v, rfl⟩ | ⟨v, rfl⟩)
    · exact ⟨_, List.mem_cons_self, List.prefix_append _ _⟩
    · exact ⟨_, List.mem_cons_of_mem _ List.mem_cons_self, List.prefix_append _ _⟩
    · exact ⟨_, List.mem_cons_of_mem _ (List.mem_cons_of_mem _ List.mem_cons_self),
        List.prefix_append _ _⟩
  · rintro _ _ (⟨v, rfl⟩ | ⟨v, rfl⟩ | ⟨v, rfl⟩) (⟨w, rfl⟩ | ⟨w, rfl⟩ | ⟨w, rfl⟩) h <;>
    simp only [system_event_log.EventLogType.display] at h <;>
    first
      | rw [UInt8.toNat_inj.1 (dec_inj (List.append_cancel_left h))]
      | (simp at h)

/-- C59, full statement for the plain labels of `EventLogType`: they are distinct. -/
def C59_system_event_log_EventLogType_full : Prop := ∀ a b : system_event_log.EventLogType,
  a.display false = b.display false → a = b

/-- The plain labels of reserved and OEM types do not show their number. -/
theorem C59_system_event_log_EventLogType_full_false :
    ¬ C59_system_event_log_EventLogType_full := by
  intro h
  exact absurd (h (.Reserved 0x00) (.Reserved 0x0F) rfl) (by decide)

/-- C59 (partial): values of `EventLogType` with the same plain label are equal, both reserved, or
both available for OEM assignment. Missing: the plain labels of the latter do not show the number. -/
theorem C59_system_event_log_EventLogType_partial : ∀ a b : system_event_log.EventLogType,
    a.display false = b.display false →
    a = b ∨ (∃ v w, a = .Reserved v ∧ b = .Reserved w) ∨ ∃ v w, a = .Available v ∧ b = .Available w := by
  intro a b h
  have key := labels_rel (fun a : system_event_log.EventLogType => a.display false)
    (nullary! system_event_log.EventLogType) _ [txt! "Reserved", txt! "Unused: ",
      txt! "OEM-specific"]
    (fun a b => a = b ∨ (∃ v w, a = .Reserved v ∧ b = .Reserved w) ∨
      ∃ v w, a = .Available v ∧ b = .Available w)
    variants_system_event_log_EventLogType (by decide +kernel) (by decide +kernel) ?_ ?_ a b h
  · exact key.elim .inl id
  · rintro _ (⟨v, rfl⟩ | ⟨v, rfl⟩ | ⟨v, rfl⟩)
    · exact ⟨_, List.mem_cons_self, List.prefix_rfl⟩
    · exact ⟨_, List.mem_cons_of_mem _ List.mem_cons_self, List.prefix_append _ _⟩
    · exact ⟨_, List.mem_cons_of_mem _ (List.mem_cons_of_mem _ List.mem_cons_self),
        List.prefix_rfl⟩
  · rintro _ _ (⟨v, rfl⟩ | ⟨v, rfl⟩ | ⟨v, rfl⟩) (⟨w, rfl⟩ | ⟨w, rfl⟩ | ⟨w, rfl⟩) h <;>
    simp only [system_event_log.EventLogType.display] at h <;>
    first
      | exact .inr (.inl ⟨_, _, rfl, rfl⟩)
      | exact .inr (.inr ⟨_, _, rfl, rfl⟩)
      | exact .inl (by rw [UInt8.toNat_inj.1 (dec_inj (List.append_cancel_left h))])
      | (simp at h)

/-- C60: the labels of the numbered types are their kind and, except for the plain labels of reserved
and available types, the number. -/
theorem C60_system_event_log_EventLogType_code (alt : Bool) (v : UInt8) : ∃ d : Text,
    IsDec 1 d v.toNat ∧
    (system_event_log.EventLogType.Reserved v).display true = txt! "Reserved: " ++ d ∧
    (system_event_log.EventLogType.Reserved v).display false = txt! "Reserved" ∧
    (system_event_log.EventLogType.Unused v).display alt = txt! "Unused: " ++ d ∧
    (system_event_log.EventLogType.Available v).display true =
      txt! "Available for system- and OEM-specific assignments: " ++ d ∧
    (system_event_log.EventLogType.Available v).display false = txt! "OEM-specific" :=
  ⟨_, isDec _, rfl, rfl, by cases alt <;> rfl, rfl, rfl⟩

example : (system_event_log.EventLogType.Available 200).display true =
    txt! "Available for system- and OEM-specific assignments: 200" ∧
    system_event_log.EventLogType.IoChannelCheck.display false = txt! "I/O channel block" := by
  decide +kernel

/-! ## System management type -/

theorem variants_system_event_log_SystemManagementType (a : system_event_log.SystemManagementType) :
    a ∈ nullary! system_event_log.SystemManagementType ∨
    ((∃ v, a = .OutOfRangeVoltageReserved v) ∨ (∃ v, a = .OutOfRangeTemperatureReserved v) ∨
      (∃ v, a = .OutOfRangeFan v) ∨ (∃ v, a = .OutOfRangeSystemManagementProbe v) ∨
      (∃ v, a = .OemAssigned v) ∨ ∃ v, a = .Reserved v) := by
  cases a <;> first
    | exact .inr (.inl ⟨_, rfl⟩) | exact .inr (.inr (.inl ⟨_, rfl⟩))
    | exact .inr (.inr (.inr (.inl ⟨_, rfl⟩))) | exact .inr (.inr (.inr (.inr (.inl ⟨_, rfl⟩))))
    | exact .inr (.inr (.inr (.inr (.inr (.inl ⟨_, rfl⟩)))))
    | exact .inr (.inr (.inr (.inr (.inr (.inr ⟨_, rfl⟩))))) | exact .inl (by decide +kernel)

/-- C59: distinct values of `SystemManagementType` have distinct labels. -/
theorem C59_system_event_log_SystemManagementType : ∀ a b : system_event_log.SystemManagementType,
    a.display = b.display → a = b := by
  refine labels_inj (fun a : system_event_log.SystemManagementType => a.display)
    (nullary! system_event_log.SystemManagementType) _ [txt! "Out-of-range ", txt! "Fan ",
      txt! "A system-management probe", txt! "OEM assigned: ", txt! "Reserved: "]
    variants_system_event_log_SystemManagementType (by decide +kernel) (by decide +kernel) ?_ ?_
  · rintro _ (⟨v, rfl⟩ | ⟨v, rfl⟩ | ⟨v, rfl⟩ | ⟨v, rfl⟩ | ⟨v, rfl⟩ | ⟨v, rfl⟩) <;>
    simp only [system_event_log.SystemManagementType.display, List.append_assoc]
    · exact ⟨txt! "Out-of-range ", by decide, _, rfl⟩
    · exact ⟨txt! "Out-of-range ", by decide, _, rfl⟩
    · exact ⟨txt! "Fan ", by decide, _, rfl⟩
    · exact ⟨txt! "A system-management probe", by decide, _, rfl⟩
    · exact ⟨txt! "OEM assigned: ", by decide, _, rfl⟩
    · exact ⟨txt! "Reserved: ", by decide, _, rfl⟩
  · rintro _ _ (⟨v, rfl⟩ | ⟨v, rfl⟩ | ⟨v, rfl⟩ | ⟨v, rfl⟩ | ⟨v, rfl⟩ | ⟨v, rfl⟩)
      (⟨w, rfl⟩ | ⟨w, rfl⟩ | ⟨w, rfl⟩ | ⟨w, rfl⟩ | ⟨w, rfl⟩ | ⟨w, rfl⟩) h <;>
    simp only [system_event_log.SystemManagementType.display, List.append_assoc] at h <;>
    first
      | rw [UInt8.toNat_inj.1 (dec_inj (List.append_cancel_left h))]
      | rw [UInt32.toNat_inj.1 (dec_inj (List.append_cancel_left h))]
      | rw [UInt8.toNat_inj.1 (dec_split (by decide) (List.append_cancel_left h)).1]
      | rw [UInt16.toNat_inj.1 (pad_hexUpper_split (by decide) (List.append_cancel_left h)).1]
      | (simp at h)

/-- C60: the labels of the numbered types are their kind and the number. -/
theorem C60_system_event_log_SystemManagementType_code (v : UInt8) (w : UInt16) (x : UInt32) :
    ∃ d h e : Text, IsDec 1 d v.toNat ∧ IsHexUpper 4 h w.toNat ∧ IsDec 1 e x.toNat ∧
    (system_event_log.SystemManagementType.OutOfRangeVoltageReserved v).display =
      txt! "Out-of-range voltage reserved: " ++ d ∧
    (system_event_log.SystemManagementType.OutOfRangeTemperatureReserved v).display =
      txt! "Out-of-range temperatures reserved: " ++ d ∧
    (system_event_log.SystemManagementType.OutOfRangeFan v).display =
      txt! "Fan " ++ d ++ txt! " Out of range" ∧
    (system_event_log.SystemManagementType.OutOfRangeSystemManagementProbe w).display =
      txt! "A system-management probe or cooling device with handle 0x" ++ h ++
        txt! " is out of range" ∧
    (system_event_log.SystemManagementType.OemAssigned x).display = txt! "OEM assigned: " ++ e ∧
    (system_event_log.SystemManagementType.Reserved x).display = txt! "Reserved: " ++ e :=
  ⟨_, _, _, isDec _, isHexUpper_pad (by decide) _, isDec _, rfl, rfl, rfl, rfl, rfl, rfl⟩

example : (system_event_log.SystemManagementType.OutOfRangeSystemManagementProbe 0x1F).display =
    txt! "A system-management probe or cooling device with handle 0x001F is out of range" := by
  decide +kernel

/-! ## Battery chemistry -/

/-- C59, full statement for `DeviceChemistry`: distinct values have distinct labels. -/
def C59_portable_battery_DeviceChemistry_full : Prop := ∀ a b : portable_battery.DeviceChemistry,
  a.display = b.display → a = b

/-- A smart battery may name its chemistry like one of the coded ones: "Other". -/
theorem C59_portable_battery_DeviceChemistry_full_false :
    ¬ C59_portable_battery_DeviceChemistry_full := by
  intro h
  exact absurd (h .Other (.SmartBatteryDataSpecification [79, 116, 104, 101, 114])
    (by decide +kernel)) (by decide)

/-- C59 (partial): coded chemistries have distinct labels, and so have the names given by smart
batteries. Missing: such a name may coincide with the label of a code. -/
theorem C59_portable_battery_DeviceChemistry_partial : ∀ a b : portable_battery.DeviceChemistry,
    ((∃ s, a = .SmartBatteryDataSpecification s) ↔ ∃ s, b = .SmartBatteryDataSpecification s) →
    a.display = b.display → a = b := by
  intro a b hs h
  cases a <;> cases b <;>
    simp only [portable_battery.DeviceChemistry.display, reduceCtorEq, exists_false, iff_false,
      false_iff, portable_battery.DeviceChemistry.SmartBatteryDataSpecification.injEq,
      exists_eq', not_true_eq_false] at h hs <;>
    first
      | rfl
      | rw [UInt8.toNat_inj.1 (dec_inj (List.append_cancel_left h))]
      | rw [List.map_inj_right (fun _ _ => UInt8.toNat_inj.1) |>.1 h]
      | (simp at h)

/-- C60: the name given by a smart battery is printed as it is. -/
theorem C60_portable_battery_DeviceChemistry_sbds (s : Str) :
    (portable_battery.DeviceChemistry.SmartBatteryDataSpecification s).display =
      s.map UInt8.toNat := rfl

/-- C60: the label of a code without a name is the name of the variant and the number. -/
theorem C60_portable_battery_DeviceChemistry_code (v : UInt8) : ∃ d : Text,
    (portable_battery.DeviceChemistry.Undefined v).display = txt! "Undefined: " ++ d ∧
    IsDec 1 d v.toNat := ⟨_, rfl, isDec _⟩

example : (portable_battery.DeviceChemistry.SmartBatteryDataSpecification [80, 98]).display =
    txt! "Pb" ∧ portable_battery.DeviceChemistry.ZincAir.display = txt! "Zinc air" := by
  decide +kernel

end Dmi.Props
