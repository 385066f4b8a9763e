import Verif.Proofs.Fmt
import Verif.Model.DisplayCodes
/-!
# Properties C59, C60: labels of codes

For each enumeration with a `Display` implementation: distinct values have distinct labels, and the
label of a variant is its name up to spacing, punctuation and case, with the exceptions listed.
The theorems for enumerations with a single catch-all variant are written by `tools/gen_labels.py`.
-/
namespace Dmi.Props
open Fmt

theorem variants_InfoType (a : InfoType) :
    a ∈ nullary! InfoType ∨ ∃ v, a = .Oem v := by
  cases a <;> first | exact .inr ⟨_, rfl⟩ | exact .inl (by decide +kernel)

/-- C59: distinct values of `InfoType` have distinct labels. -/
theorem C59_InfoType : ∀ a b : InfoType,
    a.display = b.display → a = b := by
  refine labels_inj (fun a : InfoType => a.display) (nullary! InfoType) _ [txt! "OEM: "]
    variants_InfoType (by decide +kernel) (by decide +kernel) ?_ ?_
  · rintro _ ⟨v, rfl⟩; exact ⟨_, List.mem_cons_self, List.prefix_append _ _⟩
  · rintro _ _ ⟨v, rfl⟩ ⟨w, rfl⟩ h
    rw [UInt8.toNat_inj.1 (dec_inj (List.append_cancel_left h))]

/-- C60: the labels of `InfoType`. -/
theorem C60_InfoType : ∀ a ∈ nullary! InfoType,
    squash (a.display) = squash ((ctorNames! InfoType)[a.ctorIdx]!) ∨
    (a, a.display) ∈ [
      (.Bios, txt! "BIOS Information"),
      (.System, txt! "System Information"),
      (.BaseBoard, txt! "Baseboard (or Module) Information"),
      (.Enclosure, txt! "System Enclosure or Chassis"),
      (.Processor, txt! "Processor Information"),
      (.Cache, txt! "Cache Information"),
      (.PortConnector, txt! "Port Connector Information"),
      (.BiosLanguage, txt! "BIOS Language Information"),
      (.MemoryError32, txt! "32-Bit Memory Error Information"),
      (.SystemBoot, txt! "System Boot Information"),
      (.End, txt! "End-of-Table")] := by
  decide +kernel

/-- C60: the label of a code without a name is the name of the variant and the number. -/
theorem C60_InfoType_code (v : UInt8) : ∃ p d : Text, (InfoType.Oem v).display = p ++ d ∧
    squash p = squash (txt! "Oem") ∧ IsDec 1 d v.toNat :=
  ⟨txt! "OEM: ", dec v.toNat, rfl, by decide +kernel, isDec _⟩

example : InfoType.Bios.display = txt! "BIOS Information" ∧
    (InfoType.Oem 200).display = txt! "OEM: 200" := by decide +kernel

theorem variants_baseboard_BoardType (a : baseboard.BoardType) :
    a ∈ nullary! baseboard.BoardType ∨ ∃ v, a = .Undefined v := by
  cases a <;> first | exact .inr ⟨_, rfl⟩ | exact .inl (by decide +kernel)

/-- C59: distinct values of `BoardType` have distinct labels. -/
theorem C59_baseboard_BoardType : ∀ a b : baseboard.BoardType,
    a.display = b.display → a = b := by
  refine labels_inj (fun a : baseboard.BoardType => a.display) (nullary! baseboard.BoardType) _ [txt! "Undefined: "]
    variants_baseboard_BoardType (by decide +kernel) (by decide +kernel) ?_ ?_
  · rintro _ ⟨v, rfl⟩; exact ⟨_, List.mem_cons_self, List.prefix_append _ _⟩
  · rintro _ _ ⟨v, rfl⟩ ⟨w, rfl⟩ h
    rw [UInt8.toNat_inj.1 (dec_inj (List.append_cancel_left h))]

/-- C60: the labels of `BoardType`. -/
theorem C60_baseboard_BoardType : ∀ a ∈ nullary! baseboard.BoardType,
    squash (a.display) = squash ((ctorNames! baseboard.BoardType)[a.ctorIdx]!) ∨
    (a, a.display) ∈ [
      (.MotherBoard, txt! "Motherboard (includes processor, memory, and I/O)")] := by
  decide +kernel

/-- C60: the label of a code without a name is the name of the variant and the number. -/
theorem C60_baseboard_BoardType_code (v : UInt8) : ∃ p d : Text, (baseboard.BoardType.Undefined v).display = p ++ d ∧
    squash p = squash (txt! "Undefined") ∧ IsDec 1 d v.toNat :=
  ⟨txt! "Undefined: ", dec v.toNat, rfl, by decide +kernel, isDec _⟩

example : baseboard.BoardType.Unknown.display = txt! "Unknown" ∧
    (baseboard.BoardType.Undefined 200).display = txt! "Undefined: 200" := by decide +kernel

theorem variants_enclosure_EnclosureType (a : enclosure.EnclosureType) :
    a ∈ nullary! enclosure.EnclosureType ∨ ∃ v, a = .Undefined v := by
  cases a <;> first | exact .inr ⟨_, rfl⟩ | exact .inl (by decide +kernel)

/-- C59: distinct values of `EnclosureType` have distinct labels. -/
theorem C59_enclosure_EnclosureType : ∀ a b : enclosure.EnclosureType,
    a.display = b.display → a = b := by
  refine labels_inj (fun a : enclosure.EnclosureType => a.display) (nullary! enclosure.EnclosureType) _ [txt! "Undefined: "]
    variants_enclosure_EnclosureType (by decide +kernel) (by decide +kernel) ?_ ?_
  · rintro _ ⟨v, rfl⟩; exact ⟨_, List.mem_cons_self, List.prefix_append _ _⟩
  · rintro _ _ ⟨v, rfl⟩ ⟨w, rfl⟩ h
    rw [UInt8.toNat_inj.1 (dec_inj (List.append_cancel_left h))]

/-- C60: the labels of `EnclosureType`. -/
theorem C60_enclosure_EnclosureType : ∀ a ∈ nullary! enclosure.EnclosureType,
    squash (a.display) = squash ((ctorNames! enclosure.EnclosureType)[a.ctorIdx]!) := by
  decide +kernel

/-- C60: the label of a code without a name is the name of the variant and the number. -/
theorem C60_enclosure_EnclosureType_code (v : UInt8) : ∃ p d : Text, (enclosure.EnclosureType.Undefined v).display = p ++ d ∧
    squash p = squash (txt! "Undefined") ∧ IsDec 1 d v.toNat :=
  ⟨txt! "Undefined: ", dec v.toNat, rfl, by decide +kernel, isDec _⟩

example : enclosure.EnclosureType.Other.display = txt! "Other" ∧
    (enclosure.EnclosureType.Undefined 200).display = txt! "Undefined: 200" := by decide +kernel

theorem variants_enclosure_State (a : enclosure.State) :
    a ∈ nullary! enclosure.State ∨ ∃ v, a = .Undefined v := by
  cases a <;> first | exact .inr ⟨_, rfl⟩ | exact .inl (by decide +kernel)

/-- C59: distinct values of `State` have distinct labels. -/
theorem C59_enclosure_State : ∀ a b : enclosure.State,
    a.display = b.display → a = b := by
  refine labels_inj (fun a : enclosure.State => a.display) (nullary! enclosure.State) _ [txt! "Undefined: "]
    variants_enclosure_State (by decide +kernel) (by decide +kernel) ?_ ?_
  · rintro _ ⟨v, rfl⟩; exact ⟨_, List.mem_cons_self, List.prefix_append _ _⟩
  · rintro _ _ ⟨v, rfl⟩ ⟨w, rfl⟩ h
    rw [UInt8.toNat_inj.1 (dec_inj (List.append_cancel_left h))]

/-- C60: the labels of `State`. -/
theorem C60_enclosure_State : ∀ a ∈ nullary! enclosure.State,
    squash (a.display) = squash ((ctorNames! enclosure.State)[a.ctorIdx]!) := by
  decide +kernel

/-- C60: the label of a code without a name is the name of the variant and the number. -/
theorem C60_enclosure_State_code (v : UInt8) : ∃ p d : Text, (enclosure.State.Undefined v).display = p ++ d ∧
    squash p = squash (txt! "Undefined") ∧ IsDec 1 d v.toNat :=
  ⟨txt! "Undefined: ", dec v.toNat, rfl, by decide +kernel, isDec _⟩

example : enclosure.State.Other.display = txt! "Other" ∧
    (enclosure.State.Undefined 200).display = txt! "Undefined: 200" := by decide +kernel

theorem variants_enclosure_SecurityStatus (a : enclosure.SecurityStatus) :
    a ∈ nullary! enclosure.SecurityStatus ∨ ∃ v, a = .Undefined v := by
  cases a <;> first | exact .inr ⟨_, rfl⟩ | exact .inl (by decide +kernel)

/-- C59: distinct values of `SecurityStatus` have distinct labels. -/
theorem C59_enclosure_SecurityStatus : ∀ a b : enclosure.SecurityStatus,
    a.display = b.display → a = b := by
  refine labels_inj (fun a : enclosure.SecurityStatus => a.display) (nullary! enclosure.SecurityStatus) _ [txt! "Undefined: "]
    variants_enclosure_SecurityStatus (by decide +kernel) (by decide +kernel) ?_ ?_
  · rintro _ ⟨v, rfl⟩; exact ⟨_, List.mem_cons_self, List.prefix_append _ _⟩
  · rintro _ _ ⟨v, rfl⟩ ⟨w, rfl⟩ h
    rw [UInt8.toNat_inj.1 (dec_inj (List.append_cancel_left h))]

/-- C60: the labels of `SecurityStatus`. -/
theorem C60_enclosure_SecurityStatus : ∀ a ∈ nullary! enclosure.SecurityStatus,
    squash (a.display) = squash ((ctorNames! enclosure.SecurityStatus)[a.ctorIdx]!) := by
  decide +kernel

/-- C60: the label of a code without a name is the name of the variant and the number. -/
theorem C60_enclosure_SecurityStatus_code (v : UInt8) : ∃ p d : Text, (enclosure.SecurityStatus.Undefined v).display = p ++ d ∧
    squash p = squash (txt! "Undefined") ∧ IsDec 1 d v.toNat :=
  ⟨txt! "Undefined: ", dec v.toNat, rfl, by decide +kernel, isDec _⟩

example : enclosure.SecurityStatus.Other.display = txt! "Other" ∧
    (enclosure.SecurityStatus.Undefined 200).display = txt! "Undefined: 200" := by decide +kernel

theorem variants_processor_ProcessorUpgrade (a : processor.ProcessorUpgrade) :
    a ∈ nullary! processor.ProcessorUpgrade ∨ ∃ v, a = .Undefined v := by
  cases a <;> first | exact .inr ⟨_, rfl⟩ | exact .inl (by decide +kernel)

/-- C59: distinct values of `ProcessorUpgrade` have distinct labels. -/
theorem C59_processor_ProcessorUpgrade : ∀ a b : processor.ProcessorUpgrade,
    a.display = b.display → a = b := by
  refine labels_inj (fun a : processor.ProcessorUpgrade => a.display) (nullary! processor.ProcessorUpgrade) _ [txt! "Undefined "]
    variants_processor_ProcessorUpgrade (by decide +kernel) (by decide +kernel) ?_ ?_
  · rintro _ ⟨v, rfl⟩; exact ⟨_, List.mem_cons_self, List.prefix_append _ _⟩
  · rintro _ _ ⟨v, rfl⟩ ⟨w, rfl⟩ h
    rw [UInt8.toNat_inj.1 (dec_inj (List.append_cancel_left h))]

/-- C60: the labels of `ProcessorUpgrade`. -/
theorem C60_processor_ProcessorUpgrade : ∀ a ∈ nullary! processor.ProcessorUpgrade,
    squash (a.display) = squash ((ctorNames! processor.ProcessorUpgrade)[a.ctorIdx]!) ∨
    (a, a.display) ∈ [
      (.Socket370, txt! "370-pin socket"),
      (.SocketA, txt! "Socket A (Socket 462)"),
      (.SocketF, txt! "Socket F (1207)"),
      (.SocketLGA2011Three, txt! "Socket LGA2011-3"),
      (.SocketLGA1356Three, txt! "Socket LGA1356-3"),
      (.SocketLGA3647, txt! "Socket LGA3647-1")] := by
  decide +kernel

/-- C60: the label of a code without a name is the name of the variant and the number. -/
theorem C60_processor_ProcessorUpgrade_code (v : UInt8) : ∃ p d : Text, (processor.ProcessorUpgrade.Undefined v).display = p ++ d ∧
    squash p = squash (txt! "Undefined") ∧ IsDec 1 d v.toNat :=
  ⟨txt! "Undefined ", dec v.toNat, rfl, by decide +kernel, isDec _⟩

example : processor.ProcessorUpgrade.Other.display = txt! "Other" ∧
    (processor.ProcessorUpgrade.Undefined 200).display = txt! "Undefined 200" := by decide +kernel

theorem variants_cache_CacheLevel (a : cache.CacheLevel) :
    a ∈ nullary! cache.CacheLevel ∨ False := by
  cases a <;> exact .inl (by decide +kernel)

/-- C59: distinct values of `CacheLevel` have distinct labels. -/
theorem C59_cache_CacheLevel : ∀ a b : cache.CacheLevel,
    a.display = b.display → a = b := by
  refine labels_inj (fun a : cache.CacheLevel => a.display) (nullary! cache.CacheLevel) _ []
    variants_cache_CacheLevel (by decide +kernel) (by decide +kernel) ?_ ?_
  · rintro _ ⟨⟩
  · rintro _ _ ⟨⟩

/-- C60: the labels of `CacheLevel`. -/
theorem C60_cache_CacheLevel : ∀ a ∈ nullary! cache.CacheLevel,
    squash (a.display) = squash ((ctorNames! cache.CacheLevel)[a.ctorIdx]!) := by
  decide +kernel

example : cache.CacheLevel.L1.display = txt! "L1" := by decide +kernel

theorem variants_cache_CacheLocation (a : cache.CacheLocation) :
    a ∈ nullary! cache.CacheLocation ∨ False := by
  cases a <;> exact .inl (by decide +kernel)

/-- C59: distinct values of `CacheLocation` have distinct labels. -/
theorem C59_cache_CacheLocation : ∀ a b : cache.CacheLocation,
    a.display = b.display → a = b := by
  refine labels_inj (fun a : cache.CacheLocation => a.display) (nullary! cache.CacheLocation) _ []
    variants_cache_CacheLocation (by decide +kernel) (by decide +kernel) ?_ ?_
  · rintro _ ⟨⟩
  · rintro _ _ ⟨⟩

/-- C60: the labels of `CacheLocation`. -/
theorem C60_cache_CacheLocation : ∀ a ∈ nullary! cache.CacheLocation,
    squash (a.display) = squash ((ctorNames! cache.CacheLocation)[a.ctorIdx]!) := by
  decide +kernel

example : cache.CacheLocation.Internal.display = txt! "Internal" := by decide +kernel

theorem variants_cache_CacheOperationalMode (a : cache.CacheOperationalMode) :
    a ∈ nullary! cache.CacheOperationalMode ∨ False := by
  cases a <;> exact .inl (by decide +kernel)

/-- C59: distinct values of `CacheOperationalMode` have distinct labels. -/
theorem C59_cache_CacheOperationalMode : ∀ a b : cache.CacheOperationalMode,
    a.display = b.display → a = b := by
  refine labels_inj (fun a : cache.CacheOperationalMode => a.display) (nullary! cache.CacheOperationalMode) _ []
    variants_cache_CacheOperationalMode (by decide +kernel) (by decide +kernel) ?_ ?_
  · rintro _ ⟨⟩
  · rintro _ _ ⟨⟩

/-- C60: the labels of `CacheOperationalMode`. -/
theorem C60_cache_CacheOperationalMode : ∀ a ∈ nullary! cache.CacheOperationalMode,
    squash (a.display) = squash ((ctorNames! cache.CacheOperationalMode)[a.ctorIdx]!) := by
  decide +kernel

example : cache.CacheOperationalMode.WriteThrough.display = txt! "Write Through" := by decide +kernel

theorem variants_cache_CacheErrorCorrectionType (a : cache.CacheErrorCorrectionType) :
    a ∈ nullary! cache.CacheErrorCorrectionType ∨ ∃ v, a = .Undefined v := by
  cases a <;> first | exact .inr ⟨_, rfl⟩ | exact .inl (by decide +kernel)

/-- C59: distinct values of `CacheErrorCorrectionType` have distinct labels. -/
theorem C59_cache_CacheErrorCorrectionType : ∀ a b : cache.CacheErrorCorrectionType,
    a.display = b.display → a = b := by
  refine labels_inj (fun a : cache.CacheErrorCorrectionType => a.display) (nullary! cache.CacheErrorCorrectionType) _ [txt! "Undefined: "]
    variants_cache_CacheErrorCorrectionType (by decide +kernel) (by decide +kernel) ?_ ?_
  · rintro _ ⟨v, rfl⟩; exact ⟨_, List.mem_cons_self, List.prefix_append _ _⟩
  · rintro _ _ ⟨v, rfl⟩ ⟨w, rfl⟩ h
    rw [UInt8.toNat_inj.1 (dec_inj (List.append_cancel_left h))]

/-- C60: the labels of `CacheErrorCorrectionType`. -/
theorem C60_cache_CacheErrorCorrectionType : ∀ a ∈ nullary! cache.CacheErrorCorrectionType,
    squash (a.display) = squash ((ctorNames! cache.CacheErrorCorrectionType)[a.ctorIdx]!) := by
  decide +kernel

/-- C60: the label of a code without a name is the name of the variant and the number. -/
theorem C60_cache_CacheErrorCorrectionType_code (v : UInt8) : ∃ p d : Text, (cache.CacheErrorCorrectionType.Undefined v).display = p ++ d ∧
    squash p = squash (txt! "Undefined") ∧ IsDec 1 d v.toNat :=
  ⟨txt! "Undefined: ", dec v.toNat, rfl, by decide +kernel, isDec _⟩

example : cache.CacheErrorCorrectionType.Other.display = txt! "Other" ∧
    (cache.CacheErrorCorrectionType.Undefined 200).display = txt! "Undefined: 200" := by decide +kernel

theorem variants_cache_SystemCacheType (a : cache.SystemCacheType) :
    a ∈ nullary! cache.SystemCacheType ∨ ∃ v, a = .Undefined v := by
  cases a <;> first | exact .inr ⟨_, rfl⟩ | exact .inl (by decide +kernel)

/-- C59: distinct values of `SystemCacheType` have distinct labels. -/
theorem C59_cache_SystemCacheType : ∀ a b : cache.SystemCacheType,
    a.display = b.display → a = b := by
  refine labels_inj (fun a : cache.SystemCacheType => a.display) (nullary! cache.SystemCacheType) _ [txt! "Undefined: "]
    variants_cache_SystemCacheType (by decide +kernel) (by decide +kernel) ?_ ?_
  · rintro _ ⟨v, rfl⟩; exact ⟨_, List.mem_cons_self, List.prefix_append _ _⟩
  · rintro _ _ ⟨v, rfl⟩ ⟨w, rfl⟩ h
    rw [UInt8.toNat_inj.1 (dec_inj (List.append_cancel_left h))]

/-- C60: the labels of `SystemCacheType`. -/
theorem C60_cache_SystemCacheType : ∀ a ∈ nullary! cache.SystemCacheType,
    squash (a.display) = squash ((ctorNames! cache.SystemCacheType)[a.ctorIdx]!) := by
  decide +kernel

/-- C60: the label of a code without a name is the name of the variant and the number. -/
theorem C60_cache_SystemCacheType_code (v : UInt8) : ∃ p d : Text, (cache.SystemCacheType.Undefined v).display = p ++ d ∧
    squash p = squash (txt! "Undefined") ∧ IsDec 1 d v.toNat :=
  ⟨txt! "Undefined: ", dec v.toNat, rfl, by decide +kernel, isDec _⟩

example : cache.SystemCacheType.Other.display = txt! "Other" ∧
    (cache.SystemCacheType.Undefined 200).display = txt! "Undefined: 200" := by decide +kernel

theorem variants_cache_CacheAssociativity (a : cache.CacheAssociativity) :
    a ∈ nullary! cache.CacheAssociativity ∨ ∃ v, a = .Undefined v := by
  cases a <;> first | exact .inr ⟨_, rfl⟩ | exact .inl (by decide +kernel)

/-- C59: distinct values of `CacheAssociativity` have distinct labels. -/
theorem C59_cache_CacheAssociativity : ∀ a b : cache.CacheAssociativity,
    a.display = b.display → a = b := by
  refine labels_inj (fun a : cache.CacheAssociativity => a.display) (nullary! cache.CacheAssociativity) _ [txt! "Undefined: "]
    variants_cache_CacheAssociativity (by decide +kernel) (by decide +kernel) ?_ ?_
  · rintro _ ⟨v, rfl⟩; exact ⟨_, List.mem_cons_self, List.prefix_append _ _⟩
  · rintro _ _ ⟨v, rfl⟩ ⟨w, rfl⟩ h
    rw [UInt8.toNat_inj.1 (dec_inj (List.append_cancel_left h))]

/-- C60: the labels of `CacheAssociativity`. -/
theorem C60_cache_CacheAssociativity : ∀ a ∈ nullary! cache.CacheAssociativity,
    squash (a.display) = squash ((ctorNames! cache.CacheAssociativity)[a.ctorIdx]!) ∨
    (a, a.display) ∈ [
      (.TwowaySetAssociative, txt! "2-way Set-Associative"),
      (.FourWaySetAssociative, txt! "4-way Set-Associative"),
      (.EightWaySetAssociative, txt! "8-way Set-Associative"),
      (.SixteenWaySetAssociative, txt! "16-way Set-Associative"),
      (.TwelveWaySetAssociative, txt! "12-way Set-Associative"),
      (.TwentyFourWaySetAssociative, txt! "24-way Set-Associative"),
      (.ThirtyTwoWaySetAssociative, txt! "32-way Set-Associative"),
      (.FourtyEightWaySetAssociative, txt! "48-way Set-Associative"),
      (.SixtyFourWaySetAssociative, txt! "64-way Set-Associative"),
      (.TwentyWaySetAssociative, txt! "20-way Set-Associative")] := by
  decide +kernel

/-- C60: the label of a code without a name is the name of the variant and the number. -/
theorem C60_cache_CacheAssociativity_code (v : UInt8) : ∃ p d : Text, (cache.CacheAssociativity.Undefined v).display = p ++ d ∧
    squash p = squash (txt! "Undefined") ∧ IsDec 1 d v.toNat :=
  ⟨txt! "Undefined: ", dec v.toNat, rfl, by decide +kernel, isDec _⟩

example : cache.CacheAssociativity.Other.display = txt! "Other" ∧
    (cache.CacheAssociativity.Undefined 200).display = txt! "Undefined: 200" := by decide +kernel

theorem variants_port_connector_ConnectorType (a : port_connector.ConnectorType) :
    a ∈ nullary! port_connector.ConnectorType ∨ ∃ v, a = .Undefined v := by
  cases a <;> first | exact .inr ⟨_, rfl⟩ | exact .inl (by decide +kernel)

/-- C59: distinct values of `ConnectorType` have distinct labels. -/
theorem C59_port_connector_ConnectorType : ∀ a b : port_connector.ConnectorType,
    a.display = b.display → a = b := by
  refine labels_inj (fun a : port_connector.ConnectorType => a.display) (nullary! port_connector.ConnectorType) _ [txt! "Undefined: "]
    variants_port_connector_ConnectorType (by decide +kernel) (by decide +kernel) ?_ ?_
  · rintro _ ⟨v, rfl⟩; exact ⟨_, List.mem_cons_self, List.prefix_append _ _⟩
  · rintro _ _ ⟨v, rfl⟩ ⟨w, rfl⟩ h
    rw [UInt8.toNat_inj.1 (dec_inj (List.append_cancel_left h))]

/-- C60: the labels of `ConnectorType`. -/
theorem C60_port_connector_ConnectorType : ∀ a ∈ nullary! port_connector.ConnectorType,
    squash (a.display) = squash ((ctorNames! port_connector.ConnectorType)[a.ctorIdx]!) ∨
    (a, a.display) ∈ [
      (.MiniScsi, txt! "50-pin MiniSCSI"),
      (.AccessBus, txt! "Access Bus (USB)"),
      (.DualInline9, txt! "9-pin Dual Inline (pin 10 cut)"),
      (.DualInline25, txt! "25-pin Dual Inline (pin 26 cut)"),
      (.DualInline50, txt! "50-pin Dual Inline"),
      (.DualInline68, txt! "68-pin Dual Inline"),
      (.MiniJack, txt! "Mini-jack (headphones)"),
      (.Ieee1394, txt! "1394"),
      (.Other, txt! "Other – Use Reference Designator Strings to supply information.")] := by
  decide +kernel

/-- C60: the label of a code without a name is the name of the variant and the number. -/
theorem C60_port_connector_ConnectorType_code (v : UInt8) : ∃ p d : Text, (port_connector.ConnectorType.Undefined v).display = p ++ d ∧
    squash p = squash (txt! "Undefined") ∧ IsDec 1 d v.toNat :=
  ⟨txt! "Undefined: ", dec v.toNat, rfl, by decide +kernel, isDec _⟩

example : port_connector.ConnectorType.None.display = txt! "None" ∧
    (port_connector.ConnectorType.Undefined 200).display = txt! "Undefined: 200" := by decide +kernel

theorem variants_port_connector_PortType (a : port_connector.PortType) :
    a ∈ nullary! port_connector.PortType ∨ ∃ v, a = .Undefined v := by
  cases a <;> first | exact .inr ⟨_, rfl⟩ | exact .inl (by decide +kernel)

/-- C59: distinct values of `PortType` have distinct labels. -/
theorem C59_port_connector_PortType : ∀ a b : port_connector.PortType,
    a.display = b.display → a = b := by
  refine labels_inj (fun a : port_connector.PortType => a.display) (nullary! port_connector.PortType) _ [txt! "Undefined: "]
    variants_port_connector_PortType (by decide +kernel) (by decide +kernel) ?_ ?_
  · rintro _ ⟨v, rfl⟩; exact ⟨_, List.mem_cons_self, List.prefix_append _ _⟩
  · rintro _ _ ⟨v, rfl⟩ ⟨w, rfl⟩ h
    rw [UInt8.toNat_inj.1 (dec_inj (List.append_cancel_left h))]

/-- C60: the labels of `PortType`. -/
theorem C60_port_connector_PortType : ∀ a ∈ nullary! port_connector.PortType,
    squash (a.display) = squash ((ctorNames! port_connector.PortType)[a.ctorIdx]!) ∨
    (a, a.display) ∈ [
      (.FireWire, txt! "FireWire (IEEE P1394)"),
      (.PcmciaType1, txt! "PCMCIA Type I2"),
      (.PcmciaType2, txt! "PCMCIA Type II"),
      (.PcmciaType3, txt! "PCMCIA Type III"),
      (.Scsi2, txt! "SCSI II"),
      (.MultiFunctionDisplayPort, txt! "MFDP (Multi-Function Display Port)"),
      (.Intel8251Compatible, txt! "8251 Compatible"),
      (.Intel8251FifoCompatible, txt! "8251 FIFO Compatible")] := by
  decide +kernel

/-- C60: the label of a code without a name is the name of the variant and the number. -/
theorem C60_port_connector_PortType_code (v : UInt8) : ∃ p d : Text, (port_connector.PortType.Undefined v).display = p ++ d ∧
    squash p = squash (txt! "Undefined") ∧ IsDec 1 d v.toNat :=
  ⟨txt! "Undefined: ", dec v.toNat, rfl, by decide +kernel, isDec _⟩

example : port_connector.PortType.None.display = txt! "None" ∧
    (port_connector.PortType.Undefined 200).display = txt! "Undefined: 200" := by decide +kernel

theorem variants_system_slots_SlotType (a : system_slots.SlotType) :
    a ∈ nullary! system_slots.SlotType ∨ ∃ v, a = .Undefined v := by
  cases a <;> first | exact .inr ⟨_, rfl⟩ | exact .inl (by decide +kernel)

/-- C59: distinct values of `SlotType` have distinct labels. -/
theorem C59_system_slots_SlotType (alt : Bool) : ∀ a b : system_slots.SlotType,
    a.display alt = b.display alt → a = b := by
  refine labels_inj (fun a : system_slots.SlotType => a.display alt) (nullary! system_slots.SlotType) _ [txt! "Undefined: "]
    variants_system_slots_SlotType (by cases alt <;> decide +kernel) (by cases alt <;> decide +kernel) ?_ ?_
  · rintro _ ⟨v, rfl⟩; exact ⟨_, List.mem_cons_self, List.prefix_append _ _⟩
  · rintro _ _ ⟨v, rfl⟩ ⟨w, rfl⟩ h
    rw [UInt8.toNat_inj.1 (dec_inj (List.append_cancel_left h))]

/-- C60: the labels of `SlotType`. -/
theorem C60_system_slots_SlotType : ∀ a ∈ nullary! system_slots.SlotType,
    squash (a.display false) = squash ((ctorNames! system_slots.SlotType)[a.ctorIdx]!) ∨
    (a, a.display false) ∈ [
      (.PcCard, txt! "PC Card (PCMCIA)"),
      (.Pci66Mhz, txt! "PCI – 66MHz Capable"),
      (.M2Socket1DP, txt! "M.2 Socket 1-DP (Mechanical Key A)"),
      (.M2Socket1SD, txt! "M.2 Socket 1-SD (Mechanical Key E)"),
      (.M2Socket2, txt! "M.2 Socket 2 (Mechanical Key B)"),
      (.M2Socket3, txt! "M.2 Socket 3 (Mechanical Key M)"),
      (.MxmType1, txt! "MXM Type I"),
      (.MxmType2, txt! "MXM Type II"),
      (.MxmType3, txt! "MXM Type III (standard connector)"),
      (.MxmType3He, txt! "MXM Type III (HE connector)"),
      (.MxmType4, txt! "MXM Type IV"),
      (.Mxm3TypeA, txt! "MXM 3.0 Type A"),
      (.Mxm3TypeB, txt! "MXM 3.0 Type B"),
      (.U2PciExpressGen2, txt! "PCI Express Gen 2 SFF-8639 (U.2)"),
      (.U2PciExpressGen3, txt! "PCI Express Gen 3 SFF-8639 (U.2)"),
      (.PciExpressMini52pin1, txt! "PCI Express Mini 52-pin with bottom-side keep-outs"),
      (.PciExpressMini52pin2, txt! "PCI Express Mini 52-pin without bottom-side keep-outs"),
      (.U2PciExpressGen4, txt! "PCI Express Gen 4 SFF-8639 (U.2)"),
      (.U2PciExpressGen5, txt! "PCI Express Gen 5 SFF-8639 (U.2)"),
      (.OcpNic3Small, txt! "OCP NIC 3.0 Small Form Factor (SFF)"),
      (.OcpNic3Large, txt! "OCP NIC 3.0 Large Form Factor (LFF)"),
      (.OcpNicPriorTo3, txt! "OCP NIC Prior to 3.0"),
      (.CxlFlexbus1, txt! "CXL Flexbus 1.0 (deprecated)"),
      (.PciExpressGen6, txt! "PCI Express Gen 6 and Beyond"),
      (.E1FormFactorSlot, txt! "EDSFF E1"),
      (.E3FormFactorSlot, txt! "EDSFF E3")] := by
  decide +kernel

/-- C60: the alternate labels of `SlotType`. -/
theorem C60_system_slots_SlotType_alternate : ∀ a ∈ nullary! system_slots.SlotType,
    squash (a.display true) = squash ((ctorNames! system_slots.SlotType)[a.ctorIdx]!) ∨
    (a, a.display true) ∈ [
      (.PcCard, txt! "PC Card (PCMCIA)"),
      (.Pci66Mhz, txt! "PCI – 66MHz Capable"),
      (.M2Socket1DP, txt! "M.2 Socket 1-DP (Mechanical Key A)"),
      (.M2Socket1SD, txt! "M.2 Socket 1-SD (Mechanical Key E)"),
      (.M2Socket2, txt! "M.2 Socket 2 (Mechanical Key B)"),
      (.M2Socket3, txt! "M.2 Socket 3 (Mechanical Key M)"),
      (.MxmType1, txt! "MXM Type I"),
      (.MxmType2, txt! "MXM Type II"),
      (.MxmType3, txt! "MXM Type III (standard connector)"),
      (.MxmType3He, txt! "MXM Type III (HE connector)"),
      (.MxmType4, txt! "MXM Type IV"),
      (.Mxm3TypeA, txt! "MXM 3.0 Type A"),
      (.Mxm3TypeB, txt! "MXM 3.0 Type B"),
      (.U2PciExpressGen2, txt! "PCI Express Gen 2 SFF-8639 (U.2)"),
      (.U2PciExpressGen3, txt! "PCI Express Gen 3 SFF-8639 (U.2)"),
      (.PciExpressMini52pin1, txt! "PCI Express Mini 52-pin (CEM spec. 2.0) with bottom-side keep-outs. Use Slot Length field value 03h (short length) for \"half-Mini card\" -only support, 04h (long length) for \"full-Mini card\" or dual support."),
      (.PciExpressMini52pin2, txt! "PCI Express Mini 52-pin (CEM spec. 2.0) without bottom-side keep-outs. Use Slot Length field value 03h (short length) for \"half-Mini card\" -only support, 04h (long length) for \"full-Mini card\" or dual support."),
      (.PciExpressMini76pin, txt! "PCI Express Mini 76-pin (CEM spec. 2.0) Corresponds to Display-Mini card."),
      (.U2PciExpressGen4, txt! "PCI Express Gen 4 SFF-8639 (U.2)"),
      (.U2PciExpressGen5, txt! "PCI Express Gen 5 SFF-8639 (U.2)"),
      (.OcpNic3Small, txt! "OCP NIC 3.0 Small Form Factor (SFF)"),
      (.OcpNic3Large, txt! "OCP NIC 3.0 Large Form Factor (LFF)"),
      (.OcpNicPriorTo3, txt! "OCP NIC Prior to 3.0"),
      (.CxlFlexbus1, txt! "CXL Flexbus 1.0 (deprecated)"),
      (.PciExpressGen6, txt! "PCI Express Gen 6 and Beyond"),
      (.E1FormFactorSlot, txt! "Enterprise and Datacenter 1U E1 Form Factor Slot (EDSFF E1.S, E1.L). See specifications SFF-TA-1006 and SFF-TA-1007 for more details on values for slot length and pitch."),
      (.E3FormFactorSlot, txt! "Enterprise and Datacenter 3\" E3 Form Factor Slot (EDSFF E3.S, E3.L). See specification SFF-TA-1008 for details on values for slot length and pitch.")] := by
  decide +kernel

/-- C60: the label of a code without a name is the name of the variant and the number. -/
theorem C60_system_slots_SlotType_code (alt : Bool) (v : UInt8) : ∃ p d : Text, (system_slots.SlotType.Undefined v).display alt = p ++ d ∧
    squash p = squash (txt! "Undefined") ∧ IsDec 1 d v.toNat :=
  ⟨txt! "Undefined: ", dec v.toNat, rfl, by decide +kernel, isDec _⟩

example : system_slots.SlotType.Other.display false = txt! "Other" ∧
    (system_slots.SlotType.Undefined 200).display false = txt! "Undefined: 200" := by decide +kernel

theorem variants_system_slots_SlotWidth (a : system_slots.SlotWidth) :
    a ∈ nullary! system_slots.SlotWidth ∨ ∃ v, a = .Undefined v := by
  cases a <;> first | exact .inr ⟨_, rfl⟩ | exact .inl (by decide +kernel)

/-- C59: distinct values of `SlotWidth` have distinct labels. -/
theorem C59_system_slots_SlotWidth : ∀ a b : system_slots.SlotWidth,
    a.display = b.display → a = b := by
  refine labels_inj (fun a : system_slots.SlotWidth => a.display) (nullary! system_slots.SlotWidth) _ [txt! "Undefined: "]
    variants_system_slots_SlotWidth (by decide +kernel) (by decide +kernel) ?_ ?_
  · rintro _ ⟨v, rfl⟩; exact ⟨_, List.mem_cons_self, List.prefix_append _ _⟩
  · rintro _ _ ⟨v, rfl⟩ ⟨w, rfl⟩ h
    rw [UInt8.toNat_inj.1 (dec_inj (List.append_cancel_left h))]

/-- C60: the labels of `SlotWidth`. -/
theorem C60_system_slots_SlotWidth : ∀ a ∈ nullary! system_slots.SlotWidth,
    squash (a.display) = squash ((ctorNames! system_slots.SlotWidth)[a.ctorIdx]!) ∨
    (a, a.display) ∈ [
      (.Byte, txt! "8 bit"),
      (.Word, txt! "16 bit"),
      (.Dword, txt! "32 bit"),
      (.Qword, txt! "64 bit"),
      (.Dqword, txt! "128 bit"),
      (.X1, txt! "1x or x1"),
      (.X2, txt! "2x or x2"),
      (.X4, txt! "4x or x4"),
      (.X8, txt! "8x or x8"),
      (.X12, txt! "12x or x12"),
      (.X16, txt! "16x or x16"),
      (.X32, txt! "32x or x32")] := by
  decide +kernel

/-- C60: the label of a code without a name is the name of the variant and the number. -/
theorem C60_system_slots_SlotWidth_code (v : UInt8) : ∃ p d : Text, (system_slots.SlotWidth.Undefined v).display = p ++ d ∧
    squash p = squash (txt! "Undefined") ∧ IsDec 1 d v.toNat :=
  ⟨txt! "Undefined: ", dec v.toNat, rfl, by decide +kernel, isDec _⟩

example : system_slots.SlotWidth.Other.display = txt! "Other" ∧
    (system_slots.SlotWidth.Undefined 200).display = txt! "Undefined: 200" := by decide +kernel

theorem variants_system_slots_CurrentUsage (a : system_slots.CurrentUsage) :
    a ∈ nullary! system_slots.CurrentUsage ∨ ∃ v, a = .Undefined v := by
  cases a <;> first | exact .inr ⟨_, rfl⟩ | exact .inl (by decide +kernel)

/-- C59: distinct values of `CurrentUsage` have distinct labels. -/
theorem C59_system_slots_CurrentUsage (alt : Bool) : ∀ a b : system_slots.CurrentUsage,
    a.display alt = b.display alt → a = b := by
  refine labels_inj (fun a : system_slots.CurrentUsage => a.display alt) (nullary! system_slots.CurrentUsage) _ [txt! "Undefined: "]
    variants_system_slots_CurrentUsage (by cases alt <;> decide +kernel) (by cases alt <;> decide +kernel) ?_ ?_
  · rintro _ ⟨v, rfl⟩; exact ⟨_, List.mem_cons_self, List.prefix_append _ _⟩
  · rintro _ _ ⟨v, rfl⟩ ⟨w, rfl⟩ h
    rw [UInt8.toNat_inj.1 (dec_inj (List.append_cancel_left h))]

/-- C60: the labels of `CurrentUsage`. -/
theorem C60_system_slots_CurrentUsage : ∀ a ∈ nullary! system_slots.CurrentUsage,
    squash (a.display false) = squash ((ctorNames! system_slots.CurrentUsage)[a.ctorIdx]!) := by
  decide +kernel

/-- C60: the alternate labels of `CurrentUsage`. -/
theorem C60_system_slots_CurrentUsage_alternate : ∀ a ∈ nullary! system_slots.CurrentUsage,
    squash (a.display true) = squash ((ctorNames! system_slots.CurrentUsage)[a.ctorIdx]!) ∨
    (a, a.display true) ∈ [
      (.Unavailable, txt! "Unavailable (e.g., connected to a processor that is not installed)")] := by
  decide +kernel

/-- C60: the label of a code without a name is the name of the variant and the number. -/
theorem C60_system_slots_CurrentUsage_code (alt : Bool) (v : UInt8) : ∃ p d : Text, (system_slots.CurrentUsage.Undefined v).display alt = p ++ d ∧
    squash p = squash (txt! "Undefined") ∧ IsDec 1 d v.toNat :=
  ⟨txt! "Undefined: ", dec v.toNat, rfl, by decide +kernel, isDec _⟩

example : system_slots.CurrentUsage.Other.display false = txt! "Other" ∧
    (system_slots.CurrentUsage.Undefined 200).display false = txt! "Undefined: 200" := by decide +kernel

theorem variants_system_slots_SlotLength (a : system_slots.SlotLength) :
    a ∈ nullary! system_slots.SlotLength ∨ ∃ v, a = .Undefined v := by
  cases a <;> first | exact .inr ⟨_, rfl⟩ | exact .inl (by decide +kernel)

/-- C59: distinct values of `SlotLength` have distinct labels. -/
theorem C59_system_slots_SlotLength : ∀ a b : system_slots.SlotLength,
    a.display = b.display → a = b := by
  refine labels_inj (fun a : system_slots.SlotLength => a.display) (nullary! system_slots.SlotLength) _ [txt! "Undefined: "]
    variants_system_slots_SlotLength (by decide +kernel) (by decide +kernel) ?_ ?_
  · rintro _ ⟨v, rfl⟩; exact ⟨_, List.mem_cons_self, List.prefix_append _ _⟩
  · rintro _ _ ⟨v, rfl⟩ ⟨w, rfl⟩ h
    rw [UInt8.toNat_inj.1 (dec_inj (List.append_cancel_left h))]

/-- C60: the labels of `SlotLength`. -/
theorem C60_system_slots_SlotLength : ∀ a ∈ nullary! system_slots.SlotLength,
    squash (a.display) = squash ((ctorNames! system_slots.SlotLength)[a.ctorIdx]!) ∨
    (a, a.display) ∈ [
      (.DriveFormFactor2_5, txt! "2.5\" drive form factor"),
      (.DriveFormFactor3_5, txt! "3.5\" drive form factor")] := by
  decide +kernel

/-- C60: the label of a code without a name is the name of the variant and the number. -/
theorem C60_system_slots_SlotLength_code (v : UInt8) : ∃ p d : Text, (system_slots.SlotLength.Undefined v).display = p ++ d ∧
    squash p = squash (txt! "Undefined") ∧ IsDec 1 d v.toNat :=
  ⟨txt! "Undefined: ", dec v.toNat, rfl, by decide +kernel, isDec _⟩

example : system_slots.SlotLength.Other.display = txt! "Other" ∧
    (system_slots.SlotLength.Undefined 200).display = txt! "Undefined: 200" := by decide +kernel

theorem variants_physical_memory_array_MemoryArrayLocation (a : physical_memory_array.MemoryArrayLocation) :
    a ∈ nullary! physical_memory_array.MemoryArrayLocation ∨ ∃ v, a = .Undefined v := by
  cases a <;> first | exact .inr ⟨_, rfl⟩ | exact .inl (by decide +kernel)

/-- C59: distinct values of `MemoryArrayLocation` have distinct labels. -/
theorem C59_physical_memory_array_MemoryArrayLocation : ∀ a b : physical_memory_array.MemoryArrayLocation,
    a.display = b.display → a = b := by
  refine labels_inj (fun a : physical_memory_array.MemoryArrayLocation => a.display) (nullary! physical_memory_array.MemoryArrayLocation) _ [txt! "Undefined: "]
    variants_physical_memory_array_MemoryArrayLocation (by decide +kernel) (by decide +kernel) ?_ ?_
  · rintro _ ⟨v, rfl⟩; exact ⟨_, List.mem_cons_self, List.prefix_append _ _⟩
  · rintro _ _ ⟨v, rfl⟩ ⟨w, rfl⟩ h
    rw [UInt8.toNat_inj.1 (dec_inj (List.append_cancel_left h))]

/-- C60: the labels of `MemoryArrayLocation`. -/
theorem C60_physical_memory_array_MemoryArrayLocation : ∀ a ∈ nullary! physical_memory_array.MemoryArrayLocation,
    squash (a.display) = squash ((ctorNames! physical_memory_array.MemoryArrayLocation)[a.ctorIdx]!) := by
  decide +kernel

/-- C60: the label of a code without a name is the name of the variant and the number. -/
theorem C60_physical_memory_array_MemoryArrayLocation_code (v : UInt8) : ∃ p d : Text, (physical_memory_array.MemoryArrayLocation.Undefined v).display = p ++ d ∧
    squash p = squash (txt! "Undefined") ∧ IsDec 1 d v.toNat :=
  ⟨txt! "Undefined: ", dec v.toNat, rfl, by decide +kernel, isDec _⟩

example : physical_memory_array.MemoryArrayLocation.Other.display = txt! "Other" ∧
    (physical_memory_array.MemoryArrayLocation.Undefined 200).display = txt! "Undefined: 200" := by decide +kernel

theorem variants_physical_memory_array_MemoryArrayUse (a : physical_memory_array.MemoryArrayUse) :
    a ∈ nullary! physical_memory_array.MemoryArrayUse ∨ ∃ v, a = .Undefined v := by
  cases a <;> first | exact .inr ⟨_, rfl⟩ | exact .inl (by decide +kernel)

/-- C59: distinct values of `MemoryArrayUse` have distinct labels. -/
theorem C59_physical_memory_array_MemoryArrayUse : ∀ a b : physical_memory_array.MemoryArrayUse,
    a.display = b.display → a = b := by
  refine labels_inj (fun a : physical_memory_array.MemoryArrayUse => a.display) (nullary! physical_memory_array.MemoryArrayUse) _ [txt! "Undefined: "]
    variants_physical_memory_array_MemoryArrayUse (by decide +kernel) (by decide +kernel) ?_ ?_
  · rintro _ ⟨v, rfl⟩; exact ⟨_, List.mem_cons_self, List.prefix_append _ _⟩
  · rintro _ _ ⟨v, rfl⟩ ⟨w, rfl⟩ h
    rw [UInt8.toNat_inj.1 (dec_inj (List.append_cancel_left h))]

/-- C60: the labels of `MemoryArrayUse`. -/
theorem C60_physical_memory_array_MemoryArrayUse : ∀ a ∈ nullary! physical_memory_array.MemoryArrayUse,
    squash (a.display) = squash ((ctorNames! physical_memory_array.MemoryArrayUse)[a.ctorIdx]!) := by
  decide +kernel

/-- C60: the label of a code without a name is the name of the variant and the number. -/
theorem C60_physical_memory_array_MemoryArrayUse_code (v : UInt8) : ∃ p d : Text, (physical_memory_array.MemoryArrayUse.Undefined v).display = p ++ d ∧
    squash p = squash (txt! "Undefined") ∧ IsDec 1 d v.toNat :=
  ⟨txt! "Undefined: ", dec v.toNat, rfl, by decide +kernel, isDec _⟩

example : physical_memory_array.MemoryArrayUse.Other.display = txt! "Other" ∧
    (physical_memory_array.MemoryArrayUse.Undefined 200).display = txt! "Undefined: 200" := by decide +kernel

theorem variants_physical_memory_array_MemoryArrayErrorCorrectionTypes (a : physical_memory_array.MemoryArrayErrorCorrectionTypes) :
    a ∈ nullary! physical_memory_array.MemoryArrayErrorCorrectionTypes ∨ ∃ v, a = .Undefined v := by
  cases a <;> first | exact .inr ⟨_, rfl⟩ | exact .inl (by decide +kernel)

/-- C59: distinct values of `MemoryArrayErrorCorrectionTypes` have distinct labels. -/
theorem C59_physical_memory_array_MemoryArrayErrorCorrectionTypes : ∀ a b : physical_memory_array.MemoryArrayErrorCorrectionTypes,
    a.display = b.display → a = b := by
  refine labels_inj (fun a : physical_memory_array.MemoryArrayErrorCorrectionTypes => a.display) (nullary! physical_memory_array.MemoryArrayErrorCorrectionTypes) _ [txt! "Undefined: "]
    variants_physical_memory_array_MemoryArrayErrorCorrectionTypes (by decide +kernel) (by decide +kernel) ?_ ?_
  · rintro _ ⟨v, rfl⟩; exact ⟨_, List.mem_cons_self, List.prefix_append _ _⟩
  · rintro _ _ ⟨v, rfl⟩ ⟨w, rfl⟩ h
    rw [UInt8.toNat_inj.1 (dec_inj (List.append_cancel_left h))]

/-- C60: the labels of `MemoryArrayErrorCorrectionTypes`. -/
theorem C60_physical_memory_array_MemoryArrayErrorCorrectionTypes : ∀ a ∈ nullary! physical_memory_array.MemoryArrayErrorCorrectionTypes,
    squash (a.display) = squash ((ctorNames! physical_memory_array.MemoryArrayErrorCorrectionTypes)[a.ctorIdx]!) := by
  decide +kernel

/-- C60: the label of a code without a name is the name of the variant and the number. -/
theorem C60_physical_memory_array_MemoryArrayErrorCorrectionTypes_code (v : UInt8) : ∃ p d : Text, (physical_memory_array.MemoryArrayErrorCorrectionTypes.Undefined v).display = p ++ d ∧
    squash p = squash (txt! "Undefined") ∧ IsDec 1 d v.toNat :=
  ⟨txt! "Undefined: ", dec v.toNat, rfl, by decide +kernel, isDec _⟩

example : physical_memory_array.MemoryArrayErrorCorrectionTypes.Other.display = txt! "Other" ∧
    (physical_memory_array.MemoryArrayErrorCorrectionTypes.Undefined 200).display = txt! "Undefined: 200" := by decide +kernel

theorem variants_memory_error_32_ErrorType (a : memory_error_32.ErrorType) :
    a ∈ nullary! memory_error_32.ErrorType ∨ ∃ v, a = .Undefined v := by
  cases a <;> first | exact .inr ⟨_, rfl⟩ | exact .inl (by decide +kernel)

/-- C59: distinct values of `ErrorType` have distinct labels. -/
theorem C59_memory_error_32_ErrorType : ∀ a b : memory_error_32.ErrorType,
    a.display = b.display → a = b := by
  refine labels_inj (fun a : memory_error_32.ErrorType => a.display) (nullary! memory_error_32.ErrorType) _ [txt! "Undefined: "]
    variants_memory_error_32_ErrorType (by decide +kernel) (by decide +kernel) ?_ ?_
  · rintro _ ⟨v, rfl⟩; exact ⟨_, List.mem_cons_self, List.prefix_append _ _⟩
  · rintro _ _ ⟨v, rfl⟩ ⟨w, rfl⟩ h
    rw [UInt8.toNat_inj.1 (dec_inj (List.append_cancel_left h))]

/-- C60: the labels of `ErrorType`. -/
theorem C60_memory_error_32_ErrorType : ∀ a ∈ nullary! memory_error_32.ErrorType,
    squash (a.display) = squash ((ctorNames! memory_error_32.ErrorType)[a.ctorIdx]!) := by
  decide +kernel

/-- C60: the label of a code without a name is the name of the variant and the number. -/
theorem C60_memory_error_32_ErrorType_code (v : UInt8) : ∃ p d : Text, (memory_error_32.ErrorType.Undefined v).display = p ++ d ∧
    squash p = squash (txt! "Undefined") ∧ IsDec 1 d v.toNat :=
  ⟨txt! "Undefined: ", dec v.toNat, rfl, by decide +kernel, isDec _⟩

example : memory_error_32.ErrorType.Other.display = txt! "Other" ∧
    (memory_error_32.ErrorType.Undefined 200).display = txt! "Undefined: 200" := by decide +kernel

theorem variants_memory_error_32_ErrorGranularity (a : memory_error_32.ErrorGranularity) :
    a ∈ nullary! memory_error_32.ErrorGranularity ∨ ∃ v, a = .Undefined v := by
  cases a <;> first | exact .inr ⟨_, rfl⟩ | exact .inl (by decide +kernel)

/-- C59: distinct values of `ErrorGranularity` have distinct labels. -/
theorem C59_memory_error_32_ErrorGranularity : ∀ a b : memory_error_32.ErrorGranularity,
    a.display = b.display → a = b := by
  refine labels_inj (fun a : memory_error_32.ErrorGranularity => a.display) (nullary! memory_error_32.ErrorGranularity) _ [txt! "Undefined: "]
    variants_memory_error_32_ErrorGranularity (by decide +kernel) (by decide +kernel) ?_ ?_
  · rintro _ ⟨v, rfl⟩; exact ⟨_, List.mem_cons_self, List.prefix_append _ _⟩
  · rintro _ _ ⟨v, rfl⟩ ⟨w, rfl⟩ h
    rw [UInt8.toNat_inj.1 (dec_inj (List.append_cancel_left h))]

/-- C60: the labels of `ErrorGranularity`. -/
theorem C60_memory_error_32_ErrorGranularity : ∀ a ∈ nullary! memory_error_32.ErrorGranularity,
    squash (a.display) = squash ((ctorNames! memory_error_32.ErrorGranularity)[a.ctorIdx]!) := by
  decide +kernel

/-- C60: the label of a code without a name is the name of the variant and the number. -/
theorem C60_memory_error_32_ErrorGranularity_code (v : UInt8) : ∃ p d : Text, (memory_error_32.ErrorGranularity.Undefined v).display = p ++ d ∧
    squash p = squash (txt! "Undefined") ∧ IsDec 1 d v.toNat :=
  ⟨txt! "Undefined: ", dec v.toNat, rfl, by decide +kernel, isDec _⟩

example : memory_error_32.ErrorGranularity.Other.display = txt! "Other" ∧
    (memory_error_32.ErrorGranularity.Undefined 200).display = txt! "Undefined: 200" := by decide +kernel

theorem variants_memory_error_32_ErrorOperation (a : memory_error_32.ErrorOperation) :
    a ∈ nullary! memory_error_32.ErrorOperation ∨ ∃ v, a = .Undefined v := by
  cases a <;> first | exact .inr ⟨_, rfl⟩ | exact .inl (by decide +kernel)

/-- C59: distinct values of `ErrorOperation` have distinct labels. -/
theorem C59_memory_error_32_ErrorOperation : ∀ a b : memory_error_32.ErrorOperation,
    a.display = b.display → a = b := by
  refine labels_inj (fun a : memory_error_32.ErrorOperation => a.display) (nullary! memory_error_32.ErrorOperation) _ [txt! "Undefined: "]
    variants_memory_error_32_ErrorOperation (by decide +kernel) (by decide +kernel) ?_ ?_
  · rintro _ ⟨v, rfl⟩; exact ⟨_, List.mem_cons_self, List.prefix_append _ _⟩
  · rintro _ _ ⟨v, rfl⟩ ⟨w, rfl⟩ h
    rw [UInt8.toNat_inj.1 (dec_inj (List.append_cancel_left h))]

/-- C60: the labels of `ErrorOperation`. -/
theorem C60_memory_error_32_ErrorOperation : ∀ a ∈ nullary! memory_error_32.ErrorOperation,
    squash (a.display) = squash ((ctorNames! memory_error_32.ErrorOperation)[a.ctorIdx]!) := by
  decide +kernel

/-- C60: the label of a code without a name is the name of the variant and the number. -/
theorem C60_memory_error_32_ErrorOperation_code (v : UInt8) : ∃ p d : Text, (memory_error_32.ErrorOperation.Undefined v).display = p ++ d ∧
    squash p = squash (txt! "Undefined") ∧ IsDec 1 d v.toNat :=
  ⟨txt! "Undefined: ", dec v.toNat, rfl, by decide +kernel, isDec _⟩

example : memory_error_32.ErrorOperation.Other.display = txt! "Other" ∧
    (memory_error_32.ErrorOperation.Undefined 200).display = txt! "Undefined: 200" := by decide +kernel

theorem variants_built_in_pointing_device_DeviceType (a : built_in_pointing_device.DeviceType) :
    a ∈ nullary! built_in_pointing_device.DeviceType ∨ ∃ v, a = .Undefined v := by
  cases a <;> first | exact .inr ⟨_, rfl⟩ | exact .inl (by decide +kernel)

/-- C59: distinct values of `DeviceType` have distinct labels. -/
theorem C59_built_in_pointing_device_DeviceType : ∀ a b : built_in_pointing_device.DeviceType,
    a.display = b.display → a = b := by
  refine labels_inj (fun a : built_in_pointing_device.DeviceType => a.display) (nullary! built_in_pointing_device.DeviceType) _ [txt! "Undefined: "]
    variants_built_in_pointing_device_DeviceType (by decide +kernel) (by decide +kernel) ?_ ?_
  · rintro _ ⟨v, rfl⟩; exact ⟨_, List.mem_cons_self, List.prefix_append _ _⟩
  · rintro _ _ ⟨v, rfl⟩ ⟨w, rfl⟩ h
    rw [UInt8.toNat_inj.1 (dec_inj (List.append_cancel_left h))]

/-- C60: the labels of `DeviceType`. -/
theorem C60_built_in_pointing_device_DeviceType : ∀ a ∈ nullary! built_in_pointing_device.DeviceType,
    squash (a.display) = squash ((ctorNames! built_in_pointing_device.DeviceType)[a.ctorIdx]!) := by
  decide +kernel

/-- C60: the label of a code without a name is the name of the variant and the number. -/
theorem C60_built_in_pointing_device_DeviceType_code (v : UInt8) : ∃ p d : Text, (built_in_pointing_device.DeviceType.Undefined v).display = p ++ d ∧
    squash p = squash (txt! "Undefined") ∧ IsDec 1 d v.toNat :=
  ⟨txt! "Undefined: ", dec v.toNat, rfl, by decide +kernel, isDec _⟩

example : built_in_pointing_device.DeviceType.Other.display = txt! "Other" ∧
    (built_in_pointing_device.DeviceType.Undefined 200).display = txt! "Undefined: 200" := by decide +kernel

theorem variants_built_in_pointing_device_Interface (a : built_in_pointing_device.Interface) :
    a ∈ nullary! built_in_pointing_device.Interface ∨ ∃ v, a = .Undefined v := by
  cases a <;> first | exact .inr ⟨_, rfl⟩ | exact .inl (by decide +kernel)

/-- C59: distinct values of `Interface` have distinct labels. -/
theorem C59_built_in_pointing_device_Interface : ∀ a b : built_in_pointing_device.Interface,
    a.display = b.display → a = b := by
  refine labels_inj (fun a : built_in_pointing_device.Interface => a.display) (nullary! built_in_pointing_device.Interface) _ [txt! "Undefined: "]
    variants_built_in_pointing_device_Interface (by decide +kernel) (by decide +kernel) ?_ ?_
  · rintro _ ⟨v, rfl⟩; exact ⟨_, List.mem_cons_self, List.prefix_append _ _⟩
  · rintro _ _ ⟨v, rfl⟩ ⟨w, rfl⟩ h
    rw [UInt8.toNat_inj.1 (dec_inj (List.append_cancel_left h))]

/-- C60: the labels of `Interface`. -/
theorem C60_built_in_pointing_device_Interface : ∀ a ∈ nullary! built_in_pointing_device.Interface,
    squash (a.display) = squash ((ctorNames! built_in_pointing_device.Interface)[a.ctorIdx]!) ∨
    (a, a.display) ∈ [
      (.Adb, txt! "ADB (Apple Desktop Bus)")] := by
  decide +kernel

/-- C60: the label of a code without a name is the name of the variant and the number. -/
theorem C60_built_in_pointing_device_Interface_code (v : UInt8) : ∃ p d : Text, (built_in_pointing_device.Interface.Undefined v).display = p ++ d ∧
    squash p = squash (txt! "Undefined") ∧ IsDec 1 d v.toNat :=
  ⟨txt! "Undefined: ", dec v.toNat, rfl, by decide +kernel, isDec _⟩

example : built_in_pointing_device.Interface.Other.display = txt! "Other" ∧
    (built_in_pointing_device.Interface.Undefined 200).display = txt! "Undefined: 200" := by decide +kernel

/-- C60: the labels of `ProcessorFamily`. -/
theorem C60_processor_ProcessorFamily : ∀ a ∈ nullary! processor.ProcessorFamily,
    squash (a.display) = squash ((ctorNames! processor.ProcessorFamily)[a.ctorIdx]!) ∨
    (a, a.display) ∈ [
      (.Intel8086, txt! "8086"),
      (.Intel80286, txt! "80286"),
      (.Intel8087, txt! "8087"),
      (.Intel80287, txt! "80287"),
      (.Intel80387, txt! "80387"),
      (.Intel80487, txt! "80487"),
      (.AMDDuronProcessorFamily, txt! "AMD Duron™ Processor Family [1]"),
      (.K5Family, txt! "K5 Family [1]"),
      (.K6Family, txt! "K6 Family [1]"),
      (.AMDAthlonProcessorFamily, txt! "AMD Athlon™ Processor Family [1]"),
      (.K62Plus, txt! "K6-2+"),
      (.PowerPC603Plus, txt! "Power PC 603+"),
      (.IntelCoreM3Processor, txt! "Intel(R) Core(TM) m3 processor"),
      (.IntelCoreM5Processor, txt! "Intel(R) Core(TM) m5 processor"),
      (.IntelCoreM7Processor, txt! "Intel(R) Core(TM) m7 processor"),
      (.AlphaFamily, txt! "Alpha Family [2]"),
      (.Motorola68040Family, txt! "68040 Family"),
      (.Motorola68xxx, txt! "68xxx"),
      (.Motorola68000, txt! "68000"),
      (.Motorola68010, txt! "68010"),
      (.Motorola68020, txt! "68020"),
      (.Motorola68030, txt! "68030"),
      (.AMDAthlonX4QuadCoreProcessorFamily, txt! "AMD Athlon(TM) X4 Quad-Core Processor Family"),
      (.AMDOpteronX1000SeriesProcessor, txt! "AMD Opteron(TM) X1000 Series Processor"),
      (.AMDOpteronX2000SeriesAPU, txt! "AMD Opteron(TM) X2000 Series APU"),
      (.AMDOpteronASeriesProcessor, txt! "AMD Opteron(TM) A-Series Processor"),
      (.AMDOpteronX3000SeriesAPU, txt! "AMD Opteron(TM) X3000 Series APU"),
      (.Cyrix6x86, txt! "6x86"),
      (.ForFutureUse, txt! "For special use in the future"),
      (.ProcessorFamily2, txt! "Processor Family 2 has the enumerated value")] := by
  decide +kernel

/-- C60: the labels of `LogHeaderFormat`. -/
theorem C60_system_event_log_LogHeaderFormat : ∀ a ∈ nullary! system_event_log.LogHeaderFormat,
    squash (a.display false) = squash ((ctorNames! system_event_log.LogHeaderFormat)[a.ctorIdx]!) ∨
    (a, a.display false) ∈ [
      (.LogHeaderType1, txt! "Type 1")] := by
  decide +kernel

/-- C60: the alternate labels of `LogHeaderFormat`. -/
theorem C60_system_event_log_LogHeaderFormat_alternate : ∀ a ∈ nullary! system_event_log.LogHeaderFormat,
    squash (a.display true) = squash ((ctorNames! system_event_log.LogHeaderFormat)[a.ctorIdx]!) ∨
    (a, a.display true) ∈ [
      (.LogHeaderType1, txt! "Type 1 log header")] := by
  decide +kernel

/-- C60: the labels of `EventLogType`. -/
theorem C60_system_event_log_EventLogType : ∀ a ∈ nullary! system_event_log.EventLogType,
    squash (a.display false) = squash ((ctorNames! system_event_log.EventLogType)[a.ctorIdx]!) ∨
    (a, a.display false) ∈ [
      (.IoChannelCheck, txt! "I/O channel block"),
      (.LoggingDisabledForSpecificEventType, txt! "Logging disabled"),
      (.LogAreaReset, txt! "Log area reset/cleared")] := by
  decide +kernel

/-- C60: the alternate labels of `EventLogType`. -/
theorem C60_system_event_log_EventLogType_alternate : ∀ a ∈ nullary! system_event_log.EventLogType,
    squash (a.display true) = squash ((ctorNames! system_event_log.EventLogType)[a.ctorIdx]!) ∨
    (a, a.display true) ∈ [
      (.LoggingDisabledForSpecificEventType, txt! "Logging disabled for a specific Event Type"),
      (.AsynchronousHardwareTimerExpired, txt! "Asynchronous hardware timer expired and issued a system reset"),
      (.LogAreaReset, txt! "Log Area Reset/Cleared")] := by
  decide +kernel

/-- C60: the labels of `SystemManagementType`. -/
theorem C60_system_event_log_SystemManagementType : ∀ a ∈ nullary! system_event_log.SystemManagementType,
    squash (a.display) = squash ((ctorNames! system_event_log.SystemManagementType)[a.ctorIdx]!) ∨
    (a, a.display) ∈ [
      (.OutOfRangeVoltagePlus2_5Num1, txt! "+2.5V Out of range, #1"),
      (.OutOfRangeVoltagePlus2_5Num2, txt! "+2.5V Out of range, #2"),
      (.OutOfRangeVoltagePlus3_3, txt! "+3.3V Out of range"),
      (.OutOfRangeVoltagePlus5, txt! "+5V Out of range"),
      (.OutOfRangeVoltageMinus5, txt! "-5V Out of range"),
      (.OutOfRangeVoltagePlus12, txt! "+12V Out of range"),
      (.OutOfRangeVoltageMinus12, txt! "-12V Out of range"),
      (.OutOfRangeTemperatureSystemBoard, txt! "System board temperature out of range"),
      (.OutOfRangeTemperatureProcessor1, txt! "Processor #1 temperature out of range"),
      (.OutOfRangeTemperatureProcessor2, txt! "Processor #2 temperature out of range"),
      (.OutOfRangeTemperatureProcessor3, txt! "Processor #3 temperature out of range"),
      (.OutOfRangeTemperatureProcessor4, txt! "Processor #4 temperature out of range")] := by
  decide +kernel

/-- C60: the labels of `DeviceChemistry`. -/
theorem C60_portable_battery_DeviceChemistry : ∀ a ∈ nullary! portable_battery.DeviceChemistry,
    squash (a.display) = squash ((ctorNames! portable_battery.DeviceChemistry)[a.ctorIdx]!) := by
  decide +kernel

end Dmi.Props
