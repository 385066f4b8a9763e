import Verif.Props.Truth
import Verif.Props.Bitfield
import Verif.Props.Growth
import Verif.Props.Texts
import Verif.Proofs.Fmt
import Verif.Model.Display
/-!
# C99: printed texts are single printable lines

What `{}` and `{:#}` print for the values of the crate's types, character by character.
-/
set_option linter.unusedSimpArgs false
namespace Dmi.Props
open Fmt Spec

/-- Printable ASCII and the signs `®`, `™`, dashes and typographic quotation marks. -/
def Printable (c : Char) : Prop :=
  32 ≤ c.toNat ∧ c.toNat ≤ 126 ∨ c ∈ ['®', '™', '–', '—', '’', '“', '”']

/-- A text of printable characters: in particular well-formed UTF-8 without newlines and control characters. -/
def Line (t : Text) : Prop :=
  ∃ cs : List Char, t = (cs.flatMap String.utf8EncodeChar).map UInt8.toNat ∧ ∀ c ∈ cs, Printable c

/-- A printable line that does not begin or end with a space. -/
def Label (t : Text) : Prop :=
  Line t ∧ (∃ c, t.head? = some c ∧ c ≠ 32) ∧ ∃ c, t.getLast? = some c ∧ c ≠ 32

theorem Line.append {a b : Text} : Line a → Line b → Line (a ++ b) := by
  rintro ⟨x, rfl, hx⟩ ⟨y, rfl, hy⟩
  refine ⟨x ++ y, by simp, fun c hc => ?_⟩
  rcases List.mem_append.1 hc with h | h
  · exact hx c h
  · exact hy c h

theorem Line.nil : Line [] := ⟨[], rfl, nofun⟩

/-- Reads a text as printable characters. -/
def lineB : Text → Bool
  | [] => true
  | 0xC2 :: 0xAE :: r => lineB r
  | 0xE2 :: 0x84 :: 0xA2 :: r => lineB r
  | 0xE2 :: 0x80 :: c :: r => (c == 0x93 || c == 0x94 || c == 0x99 || c == 0x9C || c == 0x9D) && lineB r
  | c :: r => decide (32 ≤ c) && decide (c ≤ 126) && lineB r

theorem Line.char {t : Text} (c : Char) (hc : Printable c) (h : Line t) :
    Line ((String.utf8EncodeChar c).map UInt8.toNat ++ t) :=
  Line.append ⟨[c], by simp, fun x hx => by rw [List.mem_singleton.1 hx]; exact hc⟩ h

theorem printable_of_mem {c : Char} (h : c ∈ ['®', '™', '–', '—', '’', '“', '”']) : Printable c := .inr h

theorem line_of (t : Text) (h : lineB t = true) : Line t := by
  fun_induction lineB t
  · exact .nil
  · rename_i r ih
    exact Line.char '®' (printable_of_mem (by decide)) (ih h)
  · rename_i r ih
    exact Line.char '™' (printable_of_mem (by decide)) (ih h)
  · rename_i c r ih
    simp only [Bool.and_eq_true, Bool.or_eq_true, beq_iff_eq] at h
    obtain ⟨h1, h2⟩ := h
    rcases h1 with (((rfl | rfl) | rfl) | rfl) | rfl
    · exact Line.char '–' (printable_of_mem (by decide)) (ih h2)
    · exact Line.char '—' (printable_of_mem (by decide)) (ih h2)
    · exact Line.char '’' (printable_of_mem (by decide)) (ih h2)
    · exact Line.char '“' (printable_of_mem (by decide)) (ih h2)
    · exact Line.char '”' (printable_of_mem (by decide)) (ih h2)
  · rename_i c r _ _ _ ih
    simp only [Bool.and_eq_true, decide_eq_true_eq] at h
    obtain ⟨⟨h1, h2⟩, h3⟩ := h
    have hv : (mkChar c (by omega)).val.toNat = c := mkChar_toNat c _
    have := Line.char (mkChar c (by omega)) (.inl ⟨by show 32 ≤ _; rw [Char.toNat, hv]; exact h1,
      by rw [Char.toNat, hv]; exact h2⟩) (ih h3)
    rw [String.utf8EncodeChar, hv, if_pos (by omega)] at this
    simpa [Nat.mod_eq_of_lt (show c < 256 by omega)] using this

/-- The same for the ends of the text. -/
def labelB (t : Text) : Bool :=
  lineB t && (t.head?).any (· != 32) && (t.getLast?).any (· != 32)

theorem label_of (t : Text) (h : labelB t = true) : Label t := by
  simp only [labelB, Bool.and_eq_true, Option.any_eq_true, bne_iff_ne] at h
  exact ⟨line_of t h.1.1, h.1.2, h.2⟩

/-- Texts of which the first character is no space, and of which the last is none. -/
def Fst (t : Text) : Prop := ∃ c, t.head? = some c ∧ c ≠ 32
def Lst (t : Text) : Prop := ∃ c, t.getLast? = some c ∧ c ≠ 32

theorem Fst.append {a : Text} (b : Text) (h : Fst a) : Fst (a ++ b) := by
  obtain ⟨c, h1, h2⟩ := h
  exact ⟨c, by rw [List.head?_append, h1]; rfl, h2⟩

theorem Lst.append (a : Text) {b : Text} (h : Lst b) : Lst (a ++ b) := by
  obtain ⟨c, h1, h2⟩ := h
  exact ⟨c, by rw [List.getLast?_append, h1]; rfl, h2⟩

theorem lst_of (t : Text) (h : (t.getLast?).any (· != 32) = true) : Lst t := by
  simp only [Option.any_eq_true, bne_iff_ne] at h
  exact h

/-- A non-empty text of letters and digits. -/
theorem word {t : Text} (hn : t ≠ []) (h : ∀ c ∈ t, 48 ≤ c ∧ c ≤ 102) : Line t ∧ Fst t ∧ Lst t := by
  have l : ∀ t : Text, (∀ c ∈ t, 48 ≤ c ∧ c ≤ 102) → lineB t = true := by
    intro t
    fun_induction lineB t
    · intro; rfl
    · intro h; have := h _ List.mem_cons_self; omega
    · intro h; have := h _ List.mem_cons_self; omega
    · intro h; have := h _ List.mem_cons_self; omega
    · rename_i c r _ _ _ ih
      intro h
      have h1 := h _ List.mem_cons_self
      rw [ih (fun c hc => h c (List.mem_cons_of_mem _ hc))]
      simp only [Bool.and_true, Bool.and_eq_true, decide_eq_true_eq]
      omega
  refine ⟨line_of t (l t h), ⟨t.head hn, List.head?_eq_some_head hn, ?_⟩,
    ⟨t.getLast hn, List.getLast?_eq_some_getLast hn, ?_⟩⟩
  · have := h _ (List.head_mem hn); omega
  · have := h _ (List.getLast_mem hn); omega

theorem digit_word {a b n : Nat} (ha : a = 97 ∨ a = 65) (hb : 2 ≤ b) (hb' : b ≤ 16) :
    (digits b n).map (digitChar a) ≠ [] ∧ ∀ c ∈ (digits b n).map (digitChar a), 48 ≤ c ∧ c ≤ 102 := by
  refine ⟨fun h => digitsAux_ne_nil b n n (List.map_eq_nil_iff.1 h), fun c hc => ?_⟩
  obtain ⟨d, hd, rfl⟩ := List.mem_map.1 hc
  have := digits_lt hb hd
  unfold digitChar
  split <;> rcases ha with rfl | rfl <;> omega

theorem dec_word (n : Nat) : dec n ≠ [] ∧ ∀ c ∈ dec n, 48 ≤ c ∧ c ≤ 102 := digit_word (.inl rfl) (by decide) (by decide)
theorem hexLower_word (n : Nat) : hexLower n ≠ [] ∧ ∀ c ∈ hexLower n, 48 ≤ c ∧ c ≤ 102 :=
  digit_word (.inl rfl) (by decide) (by decide)
theorem hexUpper_word (n : Nat) : hexUpper n ≠ [] ∧ ∀ c ∈ hexUpper n, 48 ≤ c ∧ c ≤ 102 :=
  digit_word (.inr rfl) (by decide) (by decide)
theorem bin_word (n : Nat) : bin n ≠ [] ∧ ∀ c ∈ bin n, 48 ≤ c ∧ c ≤ 102 :=
  digit_word (.inl rfl) (by decide) (by decide)
theorem pad_word (w : Nat) {t : Text} (h : t ≠ [] ∧ ∀ c ∈ t, 48 ≤ c ∧ c ≤ 102) :
    zeroPad w t ≠ [] ∧ ∀ c ∈ zeroPad w t, 48 ≤ c ∧ c ≤ 102 := by
  unfold zeroPad
  refine ⟨by simp [h.1], fun c hc => ?_⟩
  rcases List.mem_append.1 hc with hc | hc
  · have := List.eq_of_mem_replicate hc; omega
  · exact h.2 c hc

theorem label_parts {t : Text} (h1 : Line t) (h2 : Fst t) (h3 : Lst t) : Label t := ⟨h1, h2, h3⟩

/-- Splits a text into literals and numbers. -/
syntax "line" : tactic
macro_rules
  | `(tactic| line) => `(tactic| first
    | exact line_of _ (by decide +kernel)
    | with_reducible exact (word (dec_word _).1 (dec_word _).2).1
    | with_reducible exact (word (hexLower_word _).1 (hexLower_word _).2).1
    | with_reducible exact (word (hexUpper_word _).1 (hexUpper_word _).2).1
    | with_reducible exact (word (bin_word _).1 (bin_word _).2).1
    | with_reducible exact (word (pad_word _ (dec_word _)).1 (pad_word _ (dec_word _)).2).1
    | with_reducible exact (word (pad_word _ (hexLower_word _)).1 (pad_word _ (hexLower_word _)).2).1
    | with_reducible exact (word (pad_word _ (hexUpper_word _)).1 (pad_word _ (hexUpper_word _)).2).1
    | assumption
    | (with_reducible apply Line.append <;> line))

/-- The first character is that of the first part. -/
syntax "fst" : tactic
macro_rules
  | `(tactic| fst) => `(tactic| first
    | exact (label_of _ (by decide +kernel)).2.1
    | exact ⟨_, rfl, by decide⟩
    | with_reducible exact (word (dec_word _).1 (dec_word _).2).2.1
    | with_reducible exact (word (pad_word _ (dec_word _)).1 (pad_word _ (dec_word _)).2).2.1
    | with_reducible exact (word (pad_word _ (hexLower_word _)).1 (pad_word _ (hexLower_word _)).2).2.1
    | assumption
    | (with_reducible refine Fst.append _ ?_; fst))

/-- The last character is that of the last part. -/
syntax "lst" : tactic
macro_rules
  | `(tactic| lst) => `(tactic| first
    | exact lst_of _ (by decide +kernel)
    | with_reducible exact (word (dec_word _).1 (dec_word _).2).2.2
    | with_reducible exact (word (hexUpper_word _).1 (hexUpper_word _).2).2.2
    | with_reducible exact (word (bin_word _).1 (bin_word _).2).2.2
    | with_reducible exact (word (pad_word _ (dec_word _)).1 (pad_word _ (dec_word _)).2).2.2
    | with_reducible exact (word (pad_word _ (hexUpper_word _)).1 (pad_word _ (hexUpper_word _)).2).2.2
    | assumption
    | (with_reducible refine Lst.append _ ?_; lst))

syntax "label" : tactic
macro_rules
  | `(tactic| label) => `(tactic| first
    | exact label_of _ (by decide +kernel)
    | exact label_parts (by line) (by fst) (by lst))

theorem label_InfoType : ∀ (a : InfoType), Label (a.display) := by
  intro a
  cases a <;> simp only [InfoType.display, if_true, Bool.false_eq_true, if_false] <;> label

theorem label_baseboard_BoardType : ∀ (a : baseboard.BoardType), Label (a.display) := by
  intro a
  cases a <;> simp only [baseboard.BoardType.display, if_true, Bool.false_eq_true, if_false] <;> label

theorem label_enclosure_EnclosureType : ∀ (a : enclosure.EnclosureType), Label (a.display) := by
  intro a
  cases a <;> simp only [enclosure.EnclosureType.display, if_true, Bool.false_eq_true, if_false] <;> label

theorem label_enclosure_State : ∀ (a : enclosure.State), Label (a.display) := by
  intro a
  cases a <;> simp only [enclosure.State.display, if_true, Bool.false_eq_true, if_false] <;> label

theorem label_enclosure_SecurityStatus : ∀ (a : enclosure.SecurityStatus), Label (a.display) := by
  intro a
  cases a <;> simp only [enclosure.SecurityStatus.display, if_true, Bool.false_eq_true, if_false] <;> label

theorem label_processor_ProcessorFamily : ∀ (a : processor.ProcessorFamily), Label (a.display) := by
  intro a
  cases a <;> simp only [processor.ProcessorFamily.display, if_true, Bool.false_eq_true, if_false] <;> label

theorem label_processor_ProcessorUpgrade : ∀ (a : processor.ProcessorUpgrade), Label (a.display) := by
  intro a
  cases a <;> simp only [processor.ProcessorUpgrade.display, if_true, Bool.false_eq_true, if_false] <;> label

theorem label_cache_CacheLevel : ∀ (a : cache.CacheLevel), Label (a.display) := by
  intro a
  cases a <;> simp only [cache.CacheLevel.display, if_true, Bool.false_eq_true, if_false] <;> label

theorem label_cache_CacheLocation : ∀ (a : cache.CacheLocation), Label (a.display) := by
  intro a
  cases a <;> simp only [cache.CacheLocation.display, if_true, Bool.false_eq_true, if_false] <;> label

theorem label_cache_CacheOperationalMode : ∀ (a : cache.CacheOperationalMode), Label (a.display) := by
  intro a
  cases a <;> simp only [cache.CacheOperationalMode.display, if_true, Bool.false_eq_true, if_false] <;> label

theorem label_cache_CacheErrorCorrectionType : ∀ (a : cache.CacheErrorCorrectionType), Label (a.display) := by
  intro a
  cases a <;> simp only [cache.CacheErrorCorrectionType.display, if_true, Bool.false_eq_true, if_false] <;> label

theorem label_cache_SystemCacheType : ∀ (a : cache.SystemCacheType), Label (a.display) := by
  intro a
  cases a <;> simp only [cache.SystemCacheType.display, if_true, Bool.false_eq_true, if_false] <;> label

theorem label_cache_CacheAssociativity : ∀ (a : cache.CacheAssociativity), Label (a.display) := by
  intro a
  cases a <;> simp only [cache.CacheAssociativity.display, if_true, Bool.false_eq_true, if_false] <;> label

theorem label_port_connector_ConnectorType : ∀ (a : port_connector.ConnectorType), Label (a.display) := by
  intro a
  cases a <;> simp only [port_connector.ConnectorType.display, if_true, Bool.false_eq_true, if_false] <;> label

theorem label_port_connector_PortType : ∀ (a : port_connector.PortType), Label (a.display) := by
  intro a
  cases a <;> simp only [port_connector.PortType.display, if_true, Bool.false_eq_true, if_false] <;> label

theorem label_system_slots_SlotType : ∀ (alt : Bool) (a : system_slots.SlotType), Label (a.display alt) := by
  intro alt a
  cases alt <;> cases a <;> simp only [system_slots.SlotType.display, if_true, Bool.false_eq_true, if_false] <;> label

theorem label_system_slots_SlotWidth : ∀ (a : system_slots.SlotWidth), Label (a.display) := by
  intro a
  cases a <;> simp only [system_slots.SlotWidth.display, if_true, Bool.false_eq_true, if_false] <;> label

theorem label_system_slots_CurrentUsage : ∀ (alt : Bool) (a : system_slots.CurrentUsage), Label (a.display alt) := by
  intro alt a
  cases alt <;> cases a <;> simp only [system_slots.CurrentUsage.display, if_true, Bool.false_eq_true, if_false] <;> label

theorem label_system_slots_SlotLength : ∀ (a : system_slots.SlotLength), Label (a.display) := by
  intro a
  cases a <;> simp only [system_slots.SlotLength.display, if_true, Bool.false_eq_true, if_false] <;> label

theorem label_system_event_log_LogHeaderFormat : ∀ (alt : Bool) (a : system_event_log.LogHeaderFormat), Label (system_event_log.LogHeaderFormat.display alt a) := by
  intro alt a
  cases alt <;> cases a <;> simp only [system_event_log.LogHeaderFormat.display, if_true, Bool.false_eq_true, if_false] <;> label

theorem label_system_event_log_EventLogType : ∀ (alt : Bool) (a : system_event_log.EventLogType), Label (system_event_log.EventLogType.display alt a) := by
  intro alt a
  cases alt <;> cases a <;> simp only [system_event_log.EventLogType.display, if_true, Bool.false_eq_true, if_false] <;> label

theorem label_system_event_log_SystemManagementType : ∀ (a : system_event_log.SystemManagementType), Label (a.display) := by
  intro a
  cases a <;> simp only [system_event_log.SystemManagementType.display, if_true, Bool.false_eq_true, if_false] <;> label

theorem label_physical_memory_array_MemoryArrayLocation : ∀ (a : physical_memory_array.MemoryArrayLocation), Label (a.display) := by
  intro a
  cases a <;> simp only [physical_memory_array.MemoryArrayLocation.display, if_true, Bool.false_eq_true, if_false] <;> label

theorem label_physical_memory_array_MemoryArrayUse : ∀ (a : physical_memory_array.MemoryArrayUse), Label (a.display) := by
  intro a
  cases a <;> simp only [physical_memory_array.MemoryArrayUse.display, if_true, Bool.false_eq_true, if_false] <;> label

theorem label_physical_memory_array_MemoryArrayErrorCorrectionTypes : ∀ (a : physical_memory_array.MemoryArrayErrorCorrectionTypes), Label (a.display) := by
  intro a
  cases a <;> simp only [physical_memory_array.MemoryArrayErrorCorrectionTypes.display, if_true, Bool.false_eq_true, if_false] <;> label

theorem label_memory_error_32_ErrorType : ∀ (a : memory_error_32.ErrorType), Label (a.display) := by
  intro a
  cases a <;> simp only [memory_error_32.ErrorType.display, if_true, Bool.false_eq_true, if_false] <;> label

theorem label_memory_error_32_ErrorGranularity : ∀ (a : memory_error_32.ErrorGranularity), Label (a.display) := by
  intro a
  cases a <;> simp only [memory_error_32.ErrorGranularity.display, if_true, Bool.false_eq_true, if_false] <;> label

theorem label_memory_error_32_ErrorOperation : ∀ (a : memory_error_32.ErrorOperation), Label (a.display) := by
  intro a
  cases a <;> simp only [memory_error_32.ErrorOperation.display, if_true, Bool.false_eq_true, if_false] <;> label

theorem label_built_in_pointing_device_DeviceType : ∀ (a : built_in_pointing_device.DeviceType), Label (a.display) := by
  intro a
  cases a <;> simp only [built_in_pointing_device.DeviceType.display, if_true, Bool.false_eq_true, if_false] <;> label

theorem label_built_in_pointing_device_Interface : ∀ (a : built_in_pointing_device.Interface), Label (a.display) := by
  intro a
  cases a <;> simp only [built_in_pointing_device.Interface.display, if_true, Bool.false_eq_true, if_false] <;> label

/-- C99: the labels of codes are printable lines that neither begin nor end with a space, in both forms. -/
theorem C99_codes :
    (∀ (a : InfoType), Label (a.display)) ∧
    (∀ (a : baseboard.BoardType), Label (a.display)) ∧
    (∀ (a : enclosure.EnclosureType), Label (a.display)) ∧
    (∀ (a : enclosure.State), Label (a.display)) ∧
    (∀ (a : enclosure.SecurityStatus), Label (a.display)) ∧
    (∀ (a : processor.ProcessorFamily), Label (a.display)) ∧
    (∀ (a : processor.ProcessorUpgrade), Label (a.display)) ∧
    (∀ (a : cache.CacheLevel), Label (a.display)) ∧
    (∀ (a : cache.CacheLocation), Label (a.display)) ∧
    (∀ (a : cache.CacheOperationalMode), Label (a.display)) ∧
    (∀ (a : cache.CacheErrorCorrectionType), Label (a.display)) ∧
    (∀ (a : cache.SystemCacheType), Label (a.display)) ∧
    (∀ (a : cache.CacheAssociativity), Label (a.display)) ∧
    (∀ (a : port_connector.ConnectorType), Label (a.display)) ∧
    (∀ (a : port_connector.PortType), Label (a.display)) ∧
    (∀ (alt : Bool) (a : system_slots.SlotType), Label (a.display alt)) ∧
    (∀ (a : system_slots.SlotWidth), Label (a.display)) ∧
    (∀ (alt : Bool) (a : system_slots.CurrentUsage), Label (a.display alt)) ∧
    (∀ (a : system_slots.SlotLength), Label (a.display)) ∧
    (∀ (alt : Bool) (a : system_event_log.LogHeaderFormat), Label (system_event_log.LogHeaderFormat.display alt a)) ∧
    (∀ (alt : Bool) (a : system_event_log.EventLogType), Label (system_event_log.EventLogType.display alt a)) ∧
    (∀ (a : system_event_log.SystemManagementType), Label (a.display)) ∧
    (∀ (a : physical_memory_array.MemoryArrayLocation), Label (a.display)) ∧
    (∀ (a : physical_memory_array.MemoryArrayUse), Label (a.display)) ∧
    (∀ (a : physical_memory_array.MemoryArrayErrorCorrectionTypes), Label (a.display)) ∧
    (∀ (a : memory_error_32.ErrorType), Label (a.display)) ∧
    (∀ (a : memory_error_32.ErrorGranularity), Label (a.display)) ∧
    (∀ (a : memory_error_32.ErrorOperation), Label (a.display)) ∧
    (∀ (a : built_in_pointing_device.DeviceType), Label (a.display)) ∧
    (∀ (a : built_in_pointing_device.Interface), Label (a.display)) :=
  ⟨label_InfoType, label_baseboard_BoardType, label_enclosure_EnclosureType, label_enclosure_State,
    label_enclosure_SecurityStatus, label_processor_ProcessorFamily, label_processor_ProcessorUpgrade,
    label_cache_CacheLevel, label_cache_CacheLocation, label_cache_CacheOperationalMode,
    label_cache_CacheErrorCorrectionType, label_cache_SystemCacheType, label_cache_CacheAssociativity,
    label_port_connector_ConnectorType, label_port_connector_PortType, label_system_slots_SlotType,
    label_system_slots_SlotWidth, label_system_slots_CurrentUsage, label_system_slots_SlotLength,
    label_system_event_log_LogHeaderFormat, label_system_event_log_EventLogType,
    label_system_event_log_SystemManagementType, label_physical_memory_array_MemoryArrayLocation,
    label_physical_memory_array_MemoryArrayUse, label_physical_memory_array_MemoryArrayErrorCorrectionTypes,
    label_memory_error_32_ErrorType, label_memory_error_32_ErrorGranularity,
    label_memory_error_32_ErrorOperation, label_built_in_pointing_device_DeviceType,
    label_built_in_pointing_device_Interface⟩

theorem fixed1_parts (x : F32) : Line (fixed1 x) ∧ Fst (fixed1 x) := by
  unfold fixed1
  exact ⟨by line, by fst⟩

theorem infoDebug_label (i : InfoType) : Label i.debug := by
  cases i <;> first
    | exact label_of _ (by decide +kernel)
    | (show Label (txt! "Oem(" ++ dec _ ++ txt! ")"); label)

/-- C99: so are revisions, contained elements, addresses of devices, slot pitches, access methods of event logs and
formats of their records. -/
theorem C99_values :
    (∀ r : bios.BiosRevision, Label r.display) ∧
    (∀ r : bios.FirmwareRevision, Label r.display) ∧
    (∀ x : enclosure.ContainedElementType, Label x.display) ∧
    (∀ x : enclosure.ContainedElement, Label x.display) ∧
    (∀ d : system_slots.Device, Label d.display) ∧
    (∀ x : system_slots.SlotPitch, Label x.display) ∧
    (∀ alt (m : system_event_log.AccessMethod), Label (system_event_log.AccessMethod.display alt m)) ∧
    (∀ alt (x : system_event_log.VariableDataFormatType),
      Label (system_event_log.VariableDataFormatType.display alt x)) := by
  have el : ∀ x : enclosure.ContainedElementType, Label x.display := by
    intro x
    cases x with
    | BoardType b =>
      obtain ⟨h1, -, h3⟩ := label_baseboard_BoardType b
      exact label_parts (Line.append (by line) h1) ⟨_, rfl, by decide⟩ (Lst.append _ h3)
    | InfoType i =>
      obtain ⟨h1, -, h3⟩ := label_InfoType i
      exact label_parts (Line.append (by line) h1) ⟨_, rfl, by decide⟩ (Lst.append _ h3)
  refine ⟨fun r => ?_, fun r => ?_, el, fun x => ?_, fun d => ?_, fun x => ?_, fun alt m => ?_, fun alt x => ?_⟩
  · unfold bios.BiosRevision.display; split <;> label
  · unfold bios.FirmwareRevision.display; split <;> label
  · obtain ⟨h1, h2, -⟩ := el x.type_
    unfold enclosure.ContainedElement.display
    exact label_parts (Line.append h1 (by line)) (Fst.append _ h2) (by lst)
  · unfold system_slots.Device.display; label
  · unfold system_slots.SlotPitch.display
    obtain ⟨h1, h2⟩ := fixed1_parts (divTen x.value.toNat)
    split
    · label
    · exact label_parts (Line.append h1 (by line)) (Fst.append _ h2) (by lst)
  · cases alt <;> cases m <;> simp only [system_event_log.AccessMethod.display] <;> label
  · cases alt <;> cases x <;> simp only [system_event_log.VariableDataFormatType.display, hexUpperAlt]
    case true.SystemManagementType sm =>
      obtain ⟨h1, -, h3⟩ := label_system_event_log_SystemManagementType sm
      exact label_parts (Line.append (by line) h1) ⟨_, rfl, by decide⟩ (Lst.append _ h3)
    case true.MultipleEventSystemManagementType sm c =>
      obtain ⟨h1, -, h3⟩ := label_system_event_log_SystemManagementType sm
      exact label_parts (by line) ⟨_, rfl, by decide⟩ (by lst)
    all_goals label

/-- The description of the one flag of language structures has two lines. -/
def TwoLines (x : String × Nat × bitfield.Layout) (i : Nat) : Prop :=
  x.2.2 = bios_language.LanguageFlags.LAYOUT ∧ i = 0

instance (x : String × Nat × bitfield.Layout) (i : Nat) : Decidable (TwoLines x i) := by
  unfold TwoLines; infer_instance

theorem layouts_labels : ∀ x ∈ crateLayouts, ∀ i < x.2.2.length, ∀ alt,
    labelB ((bitfield.Flag.mk 0 false (x.2.2.getD i .Unknown)).display alt) = true ∨ alt = true ∧ TwoLines x i := by
  decide +kernel

theorem langText : (bitfield.Flag.mk 0 false (bios_language.LanguageFlags.LAYOUT.getD 0 .Unknown)).display true =
    txt! "If the bit is 0, each language string is in the form “ISO 639-1 Language Name | ISO 3166-1-alpha-2 Territory Name | Encoding Method”." ++
    10 :: txt! "If the bit is 1, each language string consists of the two-character “ISO 639-1 Language Name” directly followed by the two-character “ISO 3166-1-alpha-2 Territory Name”." := by
  decide +kernel

/-- C99: so are the texts of all flags of the crate's bit fields, in both forms, except for one: the description of
the flag of language structures is two such lines. -/
theorem C99_flags (name : String) (w : Nat) (l : bitfield.Layout) (h : (name, w, l) ∈ crateLayouts) (v i : Nat) :
    Label ((flag v l i).display false) ∧
    (¬ (l = bios_language.LanguageFlags.LAYOUT ∧ i = 0) → Label ((flag v l i).display true)) ∧
    (l = bios_language.LanguageFlags.LAYOUT ∧ i = 0 →
      ∃ a b, (flag v l i).display true = a ++ 10 :: b ∧ Label a ∧ Label b) := by
  have e : ∀ alt, (flag v l i).display alt = (bitfield.Flag.mk 0 false (l.getD i .Unknown)).display alt := fun _ => rfl
  simp only [e]
  by_cases hi : i < l.length
  · have k := layouts_labels _ h i hi
    refine ⟨?_, fun hn => ?_, ?_⟩
    · rcases k false with k | k
      · exact label_of _ k
      · cases k.1
    · rcases k true with k | k
      · exact label_of _ k
      · exact absurd k.2 hn
    · rintro ⟨rfl, rfl⟩
      refine ⟨_, _, langText, label_of _ (by decide +kernel), label_of _ (by decide +kernel)⟩
  · rw [List.getD_eq_getElem?_getD, List.getElem?_eq_none (by omega)]
    refine ⟨label_of _ (by decide +kernel), fun _ => label_of _ (by decide +kernel), ?_⟩
    rintro ⟨rfl, rfl⟩
    exact absurd (by decide +kernel : 0 < bios_language.LanguageFlags.LAYOUT.length) hi

theorem wording_label (e : MalformedStructureError) (h : Wording e) : Label e.display := by
  cases e with
  | BadSize o l => unfold MalformedStructureError.display; label
  | UnterminatedStrings o => unfold MalformedStructureError.display; label
  | InvalidSlice => exact label_of _ (by decide +kernel)
  | InvalidStringIndex i n x =>
    obtain ⟨h1, -, -⟩ := infoDebug_label i
    exact label_parts (Line.append (by line) (Line.append h1 (by line))) ⟨_, rfl, by decide⟩
      (by unfold MalformedStructureError.display; lst)
  | InvalidFormattedSectionLength i n spec l =>
    obtain ⟨h1, -, -⟩ := infoDebug_label i
    have : ∀ s ∈ ["", "minimum of ", "at least", "17h+(x*y) = "], lineB (lit s) = true := by decide +kernel
    have hs := line_of _ (this spec h)
    refine label_parts ?_ ⟨_, rfl, by decide⟩ (by unfold MalformedStructureError.display; lst)
    unfold MalformedStructureError.display
    exact Line.append (by line) (Line.append h1 (Line.append (by line) (Line.append (by line)
      (Line.append (by line) (Line.append hs (by line))))))

/-- C99: so are the messages of all errors of the search for an entry point and of the iterator. -/
theorem C99_errors :
    (∀ e : InvalidEntryPointError, Label e.display) ∧
    ∀ (oc : Bool) (st st' : Structures) (e : MalformedStructureError), st.buffer.length < 2 ^ 32 →
      st.next oc = .ok (some (.error e), st') → Label e.display := by
  constructor
  · intro e
    cases e <;> simp only [InvalidEntryPointError.display] <;> label
  · intro oc st st' e hb h
    unfold Structures.next at h
    rcases next_raw_cases oc st hb with (h1 | h1) | h1 | ⟨hi, e', h1⟩ | ⟨p, hp, hn, h1⟩
    · rw [h1] at h; cases h
    · rw [h1] at h; cases h
    · rw [h1] at h; cases h
    · rw [h1] at h; cases h
      rcases next_raw_error h1 with ⟨_, _, rfl⟩ | ⟨_, rfl⟩
      · exact wording_label _ trivial
      · exact wording_label _ trivial
    · have hc : Coherent (p.raw st.smbios_version) := coherent_of_next_raw oc st _ _ hb h1
      rw [h1] at h
      simp only [ok_bind, bind_ok_iff, pure_eq_ok, Res.ok.injEq, Prod.mk.injEq, Option.some.injEq] at h
      obtain ⟨it, h2, h3, -⟩ := h
      rw [h3] at h2
      generalize hr : decodeStructure oc _ = r at h2
      cases r with
      | ok a => cases h2
      | err e' =>
        cases h2
        exact wording_label _ (decode_tr oc _ hc e hr).2.1
      | panic => cases h2
      | ub => cases h2

/-- C99: voltages are printable lines. Only a list of voltages ends with a space. -/
theorem C99_voltage (v : processor.Voltage) : Line v.display ∧ Fst v.display ∧
    (Lst v.display ∨ ∃ l, v = .Legacy l ∧ v.display.getLast? = some 32) := by
  cases v with
  | Current x =>
    obtain ⟨h1, -⟩ := fixed1_parts (divTen x.toNat)
    unfold processor.Voltage.display
    exact ⟨Line.append (by line) (Line.append h1 (by line)), ⟨_, rfl, by decide⟩, .inl (by lst)⟩
  | Undefined n =>
    unfold processor.Voltage.display binAlt
    exact ⟨by line, by fst, .inl (by lst)⟩
  | Legacy l =>
    unfold processor.Voltage.display
    simp only
    generalize (l.contains _ : Bool) = a
    generalize (l.contains _ : Bool) = b
    generalize (l.contains _ : Bool) = c
    cases a <;> cases b <;> cases c
    case false.false.false =>
      exact ⟨line_of _ (by decide +kernel), (label_of _ (by decide +kernel)).2.1, .inl (lst_of _ (by decide +kernel))⟩
    all_goals exact ⟨line_of _ (by decide +kernel), ⟨_, rfl, by decide⟩, .inr ⟨_, rfl, by decide +kernel⟩⟩

theorem battery_honest {oc : Bool} {s : RawStructure} {v : portable_battery.PortableBattery}
    (h : decodeStructure oc s = .ok (.PortableBattery v)) {t : Str} (ht : t ∈ fieldTexts (.PortableBattery v)) :
    Honest s t := C74_texts oc s _ t h (.field ht)

/-- C99: the date, the serial number and the chemistry of a battery are printed as such a line, as nothing at all or
as a string stored in the structure, unchanged. -/
theorem C99_battery (oc : Bool) (s : RawStructure) (v : portable_battery.PortableBattery)
    (h : decodeStructure oc s = .ok (.PortableBattery v)) :
    ∀ t ∈ [v.manufacture_date.display, v.serial_number.display, v.device_chemistry.display],
      Label t ∨ ∃ x, Honest s x ∧ t = x.map UInt8.toNat := by
  have no : ∃ x, Honest s x ∧ ([] : Text) = x.map UInt8.toNat := ⟨[], .inl rfl, rfl⟩
  simp only [List.mem_cons, List.not_mem_nil, or_false, forall_eq_or_imp, forall_eq]
  refine ⟨?_, ?_, ?_⟩
  · cases hd : v.manufacture_date with
    | None => exact .inr no
    | Basic x => exact .inr ⟨x, battery_honest h (by simp [fieldTexts, hd]), rfl⟩
    | SmartBatteryDataSpecification y m d =>
      refine .inl ?_
      unfold portable_battery.ManufactureDate.display
      label
  · cases hd : v.serial_number with
    | None => exact .inr no
    | Basic x => exact .inr ⟨x, battery_honest h (by simp [fieldTexts, hd]), rfl⟩
    | SmartBatteryDataSpecification w =>
      refine .inl ?_
      unfold portable_battery.SerialNumber.display
      label
  · cases hd : v.device_chemistry with
    | SmartBatteryDataSpecification x => exact .inr ⟨x, battery_honest h (by simp [fieldTexts, hd]), rfl⟩
    | Undefined n =>
      refine .inl ?_
      unfold portable_battery.DeviceChemistry.display
      label
    | _ => exact .inl (label_of _ (by decide +kernel))

/-- C99, the full statement: whatever is in a table, what is printed for a battery is a printable line. -/
def C99_full : Prop := ∀ (oc : Bool) (s : RawStructure) (v : portable_battery.PortableBattery),
  decodeStructure oc s = .ok (.PortableBattery v) →
  Line v.manufacture_date.display ∧ Line v.serial_number.display ∧ Line v.device_chemistry.display

/-- C99: it holds if all strings of the structure are printable lines. -/
theorem C99_battery_partial (oc : Bool) (s : RawStructure) (v : portable_battery.PortableBattery)
    (h : decodeStructure oc s = .ok (.PortableBattery v))
    (hs : ∀ l, IsStringList s.strings l → ∀ x ∈ l, Line (x.map UInt8.toNat)) :
    Line v.manufacture_date.display ∧ Line v.serial_number.display ∧ Line v.device_chemistry.display := by
  have key : ∀ t ∈ [v.manufacture_date.display, v.serial_number.display, v.device_chemistry.display], Line t := by
    intro t ht
    rcases C99_battery oc s v h t ht with h | ⟨x, h | ⟨l, hl, hx⟩, rfl⟩
    · exact h.1
    · subst h; exact .nil
    · exact hs l hl x hx
  exact ⟨key _ (by simp), key _ (by simp), key _ (by simp)⟩

/-- A battery whose serial number clears the screen of a terminal. -/
def escapeBattery : RawStructure where
  version := ⟨2, 2⟩
  info := .PortableBattery
  length := 0x1A
  handle := 0x1600
  data := [0, 0, 0, 1, 0, 2, 0x40, 0x1F, 0x5C, 0x2B, 0, 0xFF, 0x34, 0x12, 0x2F, 0x5A, 1, 10, 1, 0, 0, 0]
  strings := [27, 91, 50, 74, 0, 0]

theorem escapeBattery_decodes : ∃ v, decodeStructure true escapeBattery = .ok (.PortableBattery v) ∧
    v.serial_number.display = [27, 91, 50, 74] := by
  have h : (match decodeStructure true escapeBattery with
    | .ok (.PortableBattery v) => v.serial_number.display == [27, 91, 50, 74]
    | _ => false) = true := by decide +kernel
  split at h
  · rename_i v hv; exact ⟨v, hv, beq_iff_eq.1 h⟩
  · cases h

theorem line_ge {t : Text} (h : Line t) : ∀ b ∈ t, 32 ≤ b := by
  obtain ⟨cs, rfl, hc⟩ := h
  intro b hb
  simp only [List.mem_map, List.mem_flatMap] at hb
  obtain ⟨x, ⟨c, hm, hx⟩, rfl⟩ := hb
  rcases hc c hm with ⟨h1, h2⟩ | h
  · have hv : c.val.toNat = c.toNat := rfl
    rw [String.utf8EncodeChar, if_pos (by omega), List.mem_singleton] at hx
    rw [hx, hv, UInt8.toNat_ofNat', Nat.mod_eq_of_lt (by omega)]
    exact h1
  · have : ∀ c ∈ ['®', '™', '–', '—', '’', '“', '”'], ∀ x ∈ String.utf8EncodeChar c, 32 ≤ x.toNat := by
      decide +kernel
    exact this c h x hx

/-- C99, the full statement fails: the string is printed as it is, escape sequences included. -/
theorem C99_full_false : ¬ C99_full := by
  intro hf
  obtain ⟨v, h1, h2⟩ := escapeBattery_decodes
  have := line_ge (hf _ _ _ h1).2.1 27 (by rw [h2]; exact List.mem_cons_self)
  omega

/-! Concrete values. -/

example : processor.ProcessorFamily.Intel386Processor.display = txt! "Intel386™ processor" := rfl
example : Printable '™' ∧ ¬ Printable '\n' := by unfold Printable; decide

/-- The hypotheses of `C99_battery_partial` can be met: all strings of `exampleBattery` are printable. -/
example : (∃ v, decodeStructure true exampleBattery = .ok (.PortableBattery v) ∧
      v.serial_number.display = txt! "0x1234" ∧ v.device_chemistry.display = txt! "LION") ∧
    ∀ l, IsStringList exampleBattery.strings l → ∀ x ∈ l, Line (x.map UInt8.toNat) := by
  constructor
  · have h : (match decodeStructure true exampleBattery with
      | .ok (.PortableBattery v) => v.serial_number.display == txt! "0x1234" &&
        v.device_chemistry.display == txt! "LION"
      | _ => false) = true := by decide +kernel
    split at h
    · rename_i v hv
      rw [Bool.and_eq_true] at h
      exact ⟨v, hv, beq_iff_eq.1 h.1, beq_iff_eq.1 h.2⟩
    · cases h
  · intro l hl x hx
    rw [isStringList_unique hl (C20_strings_total exampleBattery.strings).2] at hx
    have : ∀ x ∈ (StructureStrings.new exampleBattery.strings).collect, lineB (x.map UInt8.toNat) = true := by
      decide +kernel
    exact line_of _ (this x hx)

end Dmi.Props
