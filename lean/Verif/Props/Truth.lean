import Verif.Props.Messages
import Verif.Props.Safety
/-!
# Property C64: what the errors of the decoders say is true
-/
namespace Dmi.Props
open Spec

/-- The error, if it names a structure, names this one. -/
def Names (s : RawStructure) : MalformedStructureError → Prop
  | .InvalidStringIndex i h _ => i = s.info ∧ h = s.handle
  | .InvalidFormattedSectionLength i h _ _ => i = s.info ∧ h = s.handle
  | .InvalidSlice => True
  | .BadSize _ _ => False
  | .UnterminatedStrings _ => False

/-- What the error says about the structure is true: the string does not exist; the formatted section
is shorter than, or has not, the required length. -/
def Truthful (s : RawStructure) : MalformedStructureError → Prop
  | .InvalidStringIndex _ _ n => ∀ str, ¬ HasString s.strings n.toNat str
  | .InvalidFormattedSectionLength _ _ spec l =>
    (spec = "minimum of " ∨ spec = "at least") ∧ ¬ Fits s l.toNat ∨
      (spec = "" ∨ spec = "17h+(x*y) = ") ∧ s.data.length + 4 ≠ l.toNat
  | .InvalidSlice => True
  | .BadSize _ _ => False
  | .UnterminatedStrings _ => False

/-- The types with untruthful errors. -/
def Exempt : List InfoType :=
  [.Enclosure, .SystemConfigurationOptions, .GroupAssociations, .SystemEventLog]

/-- The texts the crate puts before a required length. -/
def Wording : MalformedStructureError → Prop
  | .InvalidFormattedSectionLength _ _ spec _ =>
    spec ∈ ["", "minimum of ", "at least", "17h+(x*y) = "]
  | _ => True

/-- What is proved of every error. -/
def Says (s : RawStructure) (e : MalformedStructureError) : Prop :=
  Names s e ∧ Wording e ∧ (s.info ∈ Exempt ∨ Truthful s e)

abbrev Tr {α : Type} (s : RawStructure) (x : R α) : Prop := Errs (Says s) x

theorem says_slice (s : RawStructure) : Says s .InvalidSlice := ⟨trivial, trivial, .inr trivial⟩

theorem getBytes_tr {s' : RawStructure} (oc : Bool) (s : RawStructure) (n o : Nat) :
    Tr s' (s.getBytes oc n o) := by
  refine .bind ?_ fun _ _ => .bind ?_ fun _ _ => .ite (fun _ => .ok) fun _ => .err (says_slice _)
  · unfold subUsize; split <;> (try split) <;> nofun
  · unfold addUsize; split <;> (try split) <;> nofun
theorem find_string_tr (s : RawStructure) (i : UInt8) : Tr s (s.find_string i) := by
  rcases find_string_cases s i with ⟨_, h⟩ | ⟨hn, h⟩ <;> rw [h]
  · exact .ok
  · exact .err ⟨⟨rfl, rfl⟩, trivial, .inr hn⟩
theorem get8_tr {s' : RawStructure} (oc : Bool) (s : RawStructure) (o : Nat) : Tr s' (s.get8 oc o) :=
  .bind (getBytes_tr _ _ _ _) fun _ _ => .pure
theorem get16_tr {s' : RawStructure} (oc : Bool) (s : RawStructure) (o : Nat) :
    Tr s' (s.get16 oc o) := .bind (getBytes_tr _ _ _ _) fun _ _ => .pure
theorem get32_tr {s' : RawStructure} (oc : Bool) (s : RawStructure) (o : Nat) :
    Tr s' (s.get32 oc o) := .bind (getBytes_tr _ _ _ _) fun _ _ => .pure
theorem get64_tr {s' : RawStructure} (oc : Bool) (s : RawStructure) (o : Nat) :
    Tr s' (s.get64 oc o) := .bind (getBytes_tr _ _ _ _) fun _ _ => .pure
theorem get_string_tr (oc : Bool) (s : RawStructure) (o : Nat) : Tr s (s.get_string oc o) :=
  .bind (get8_tr _ _ _) fun _ _ => find_string_tr _ _
theorem get_slice_tr {s' : RawStructure} (oc : Bool) (s : RawStructure) (o n : Nat) :
    Tr s' (s.get_slice oc o n) := by
  refine .bind ?_ fun _ _ => .bind ?_ fun _ _ => .bind ?_ fun _ _ => .pure
  · unfold subUsize; split <;> (try split) <;> nofun
  · unfold subUsize; split <;> (try split) <;> nofun
  · unfold addUsize; split <;> (try split) <;> nofun

/-- Decomposes a `Tr` goal about a `do` block. -/
macro "tr" : tactic =>
  `(tactic| (
      repeat' first
        | with_reducible exact Errs.pure
        | with_reducible exact Errs.ok
        | with_reducible exact Errs.panic
        | with_reducible exact Errs.ub
        | with_reducible exact Errs.err (says_slice _)
        | with_reducible exact get8_tr _ _ _
        | with_reducible exact get16_tr _ _ _
        | with_reducible exact get32_tr _ _ _
        | with_reducible exact get64_tr _ _ _
        | with_reducible exact get_string_tr _ _ _
        | with_reducible exact get_slice_tr _ _ _ _
        | with_reducible exact find_string_tr _ _
        | with_reducible exact letAsStruct_errs _ _
        | with_reducible exact indexAt_errs _ _
        | with_reducible exact indexFrom_errs _ _
        | with_reducible exact indexRange_errs _ _ _
        | with_reducible exact mulU8_errs _ _ _
        | with_reducible exact subUsize_errs _ _ _
        | with_reducible exact toOption_errs
        | with_reducible exact ofOption_errs (says_slice _) _
        | (with_reducible refine Errs.err ?_)
        | (with_reducible refine Errs.bind ?_ (fun _ _ => ?_))
        | (with_reducible refine Errs.ite (fun _ => ?_) (fun _ => ?_))
        | split))

theorem read_bytes_tr {α : Type} {s : RawStructure} (n : Nat) (p : Packed α) (b : Bytes) :
    Tr s (enclosure.read_bytes n p b) := by
  unfold enclosure.read_bytes; tr
theorem elements_tr {s : RawStructure} (oc : Bool) (b : Bytes) :
    Tr s (enclosure.ContainedElements.new oc b) := by
  unfold enclosure.ContainedElements.new enclosure.read_bytes8; tr <;> exact read_bytes_tr _ _ _
theorem optionals_tr {s : RawStructure} (oc : Bool) (b : Bytes) :
    Tr s (enclosure.readOptionals oc b) := by
  unfold enclosure.readOptionals enclosure.read_bytes8 enclosure.read_bytes32
  tr <;> first | exact read_bytes_tr _ _ _ | exact elements_tr _ _
theorem configuration_tr {s : RawStructure} (w : UInt16) : Tr s (cache.CacheConfiguration.ofU16 w) := by
  unfold cache.CacheConfiguration.ofU16
  tr
  · unfold cache.CacheLevel.ofU16; simp only; tr
  · unfold cache.CacheLocation.ofU16; simp only; tr
  · unfold cache.CacheOperationalMode.ofU16; simp only; tr
theorem descriptors_tr {s' : RawStructure} (oc : Bool) (s : RawStructure) (n l : Option UInt8) :
    Tr s' (system_event_log.descriptors oc s n l) := by
  unfold system_event_log.descriptors system_event_log.SupportedEventLogTypeDescriptors.new; tr
theorem word_tr {s : RawStructure} (p : Nat) (b : Bytes) :
    Tr s (physical_memory_array.get_word p b) := by
  unfold physical_memory_array.get_word; tr
theorem dword_tr {s : RawStructure} (p : Nat) (b : Bytes) :
    Tr s (physical_memory_array.get_dword p b) := by
  unfold physical_memory_array.get_dword; tr
theorem qword_tr {s : RawStructure} (p : Nat) (b : Bytes) :
    Tr s (physical_memory_array.get_qword p b) := by
  unfold physical_memory_array.get_qword; tr
theorem optional_word_tr {s : RawStructure} (p : Nat) (b : Bytes) (n) :
    Tr s (physical_memory_array.get_optional_word p b n) := by
  unfold physical_memory_array.get_optional_word; tr; exact word_tr _ _
theorem optional_dword_tr {s : RawStructure} (p : Nat) (b : Bytes) (n) :
    Tr s (physical_memory_array.get_optional_dword p b n) := by
  unfold physical_memory_array.get_optional_dword; tr; exact dword_tr _ _
theorem optional_qword_tr {s : RawStructure} (p : Nat) (b : Bytes) (n) :
    Tr s (physical_memory_array.get_optional_qword p b n) := by
  unfold physical_memory_array.get_optional_qword; tr; exact qword_tr _ _
theorem array_tr {s' : RawStructure} (s : RawStructure) (x) (p : Nat) :
    Tr s' (physical_memory_array.fill2_1 s x p) := by
  unfold physical_memory_array.fill2_1
  tr <;> first | exact word_tr _ _ | exact optional_word_tr _ _ _ | exact optional_dword_tr _ _ _

theorem says_exempt {s : RawStructure} {e : MalformedStructureError} (h : s.info ∈ Exempt)
    (hn : Names s e) (hw : Wording e) : Says s e := ⟨hn, hw, .inl h⟩

theorem says_ne {s : RawStructure} {i : InfoType} {l : UInt8} (hi : s.info = i)
    (h : s.data.length + 4 ≠ l.toNat) :
    Says s (.InvalidFormattedSectionLength i s.handle "" l) :=
  ⟨⟨hi.symm, rfl⟩, List.mem_cons_self, .inr (.inr ⟨.inl rfl, h⟩)⟩

theorem says_min {s : RawStructure} {i : InfoType} {spec : String} {l : UInt8} (hi : s.info = i)
    (hs : spec = "minimum of " ∨ spec = "at least") (h : s.data.length + 4 < l.toNat) :
    Says s (.InvalidFormattedSectionLength i s.handle spec l) :=
  ⟨⟨hi.symm, rfl⟩, by rcases hs with rfl | rfl <;> simp [Wording],
    .inr (.inl ⟨hs, by unfold Fits; omega⟩)⟩

theorem says_len {s : RawStructure} {i : InfoType} {l : UInt8} (hc : Coherent s) (hi : s.info = i)
    (h : s.length ≠ l) : Says s (.InvalidFormattedSectionLength i s.handle "" l) :=
  says_ne hi (by unfold Coherent at hc; rw [hc]; exact fun e => h (UInt8.toNat_inj.1 e))

theorem decode_tr (oc : Bool) (s : RawStructure) (hc : Coherent s) : Tr s (decodeStructure oc s) := by
  unfold decodeStructure
  split <;> rename_i hi
  · apply Errs.map; unfold bios.Bios.try_from; tr
  · apply Errs.map; unfold system.System.try_from; tr
  · apply Errs.map; unfold baseboard.BaseBoard.try_from; tr
  · apply Errs.map; unfold enclosure.Enclosure.try_from enclosure.findSku; tr
    · exact says_exempt (s := s) (by rw [hi]; decide) ⟨rfl, rfl⟩ (by simp [Wording])
    · exact optionals_tr _ _
  · apply Errs.map; unfold processor.Processor.try_from; tr
  · apply Errs.map; unfold cache.Cache.try_from; tr <;> exact configuration_tr _
  · apply Errs.map; unfold port_connector.PortConnector.try_from; tr
  · apply Errs.map; unfold system_slots.SystemSlots.try_from system_slots.SystemSlots.decode; tr
    · exact says_ne hi (by simp_all)
    · exact says_ne hi (by simp_all)
    · exact says_ne hi (by simp_all)
    · exact says_min hi (.inl rfl) (by simp_all)
  · apply Errs.map; unfold oem_strings.OemStrings.try_from; tr
  · apply Errs.map
    unfold system_configuration_options.SystemConfigurationOptions.try_from; tr
    exact says_exempt (by rw [hi]; decide) ⟨hi.symm, rfl⟩ trivial
  · apply Errs.map; unfold bios_language.BiosLanguage.try_from; tr
  · apply Errs.map; unfold group_associations.GroupAssociations.try_from; tr
    refine ofOption_errs ?_ _
    exact says_exempt (by rw [hi]; decide) ⟨hi.symm, rfl⟩ (by simp [Wording])
  · apply Errs.map
    unfold system_event_log.SystemEventLog.try_from system_event_log.SystemEventLog.decode; tr
    · exact says_exempt (by rw [hi]; decide) ⟨hi.symm, rfl⟩ (by simp [Wording])
    · exact says_exempt (by rw [hi]; decide) ⟨hi.symm, rfl⟩ (by simp [Wording])
    · exact says_exempt (by rw [hi]; decide) ⟨hi.symm, rfl⟩ (by simp [Wording])
    · exact descriptors_tr _ _ _ _
  · apply Errs.map
    unfold physical_memory_array.PhysicalMemoryArray.try_from
    tr <;> first | exact array_tr _ _ _ | exact optional_qword_tr _ _ _
  · apply Errs.map; unfold memory_device.MemoryDevice.try_from; tr
    exact says_min hi (.inr rfl) (by simp_all)
  · apply Errs.map; unfold memory_error_32.MemoryError32.try_from; tr
    exact says_len hc hi (by simp_all)
  · apply Errs.map
    unfold memory_array_mapped_address.MemoryArrayMappedAddress.try_from; tr
    all_goals exact says_len hc hi (by simp_all)
  · apply Errs.map
    unfold memory_device_mapped_address.MemoryDeviceMappedAddress.try_from; tr
    all_goals exact says_len hc hi (by simp_all)
  · apply Errs.map
    unfold built_in_pointing_device.BuiltInPointingDevice.try_from; tr
    exact says_len hc hi (by simp_all)
  · apply Errs.map; unfold portable_battery.PortableBattery.try_from portable_battery.optString; tr
    all_goals exact says_len hc hi (by simp_all)
  · exact .ok

/-- C64: an error of a decoder is about this structure: it carries its type and handle, if any, and is
never one of the errors about the table. -/
theorem C64_names (oc : Bool) (s : RawStructure) (hc : Coherent s) (e : MalformedStructureError)
    (h : decodeStructure oc s = .err e) : Names s e := (decode_tr oc s hc e h).1

/-- C64, the full statement: what the error says is true. -/
def C64_full : Prop := ∀ (oc : Bool) (s : RawStructure) (e : MalformedStructureError), Coherent s →
  decodeStructure oc s = .err e → Truthful s e

/-- C64: what the error says is true, except for enclosures, configuration options, group associations
and event logs. -/
theorem C64_truthful_partial (oc : Bool) (s : RawStructure) (hc : Coherent s) (hi : s.info ∉ Exempt)
    (e : MalformedStructureError) (h : decodeStructure oc s = .err e) : Truthful s e :=
  (decode_tr oc s hc e h).2.2.resolve_left hi

/-- C63: the errors of the decoders have distinct messages. -/
theorem C63_decoders (oc oc' : Bool) (s s' : RawStructure) (hc : Coherent s) (hc' : Coherent s')
    (e e' : MalformedStructureError) (h : decodeStructure oc s = .err e)
    (h' : decodeStructure oc' s' = .err e') (hm : e.display = e'.display) : e = e' := by
  have key : ∀ e : MalformedStructureError, Wording e → SpecOk e := by
    intro e hw
    cases e with
    | InvalidFormattedSectionLength i h spec l =>
      have : ∀ spec ∈ ["", "minimum of ", "at least", "17h+(x*y) = "],
          ((Fmt.lit spec).getLast?).all (fun c => !(decide (48 ≤ c) && decide (c ≤ 57))) = true := by
        decide +kernel
      have := this spec hw
      intro c hcs
      rw [hcs] at this
      simp only [Option.all_some, Bool.not_eq_true', Bool.and_eq_false_iff,
        decide_eq_false_iff_not] at this
      omega
    | _ => trivial
  exact C63_malformed_partial e e' (key e (decode_tr oc s hc e h).2.1)
    (key e' (decode_tr oc' s' hc' e' h').2.1) hm

/-- Structures whose errors are wrong. -/
def shortEnclosure : RawStructure where
  version := ⟨2, 0⟩
  info := .Enclosure
  length := 8
  handle := 3
  data := [0, 0, 0, 0]
  strings := [0, 0]
def oneOption : RawStructure where
  version := ⟨2, 0⟩
  info := .SystemConfigurationOptions
  length := 5
  handle := 12
  data := [1]
  strings := [65, 0, 66, 0, 0]
def shortGroup : RawStructure where
  version := ⟨2, 0⟩
  info := .GroupAssociations
  length := 4
  handle := 14
  data := []
  strings := [0, 0]
def shortLog : RawStructure where
  version := ⟨2, 1⟩
  info := .SystemEventLog
  length := 0x14
  handle := 15
  data := [0, 0, 0, 0, 0, 0, 0, 0, 0, 0, 0, 0, 0, 0, 0, 0]
  strings := [0, 0]

/-- C64, the wrong errors: an enclosure of 8 bytes is said to need a minimum of 5, which it has (it
needs 9); of two options the string 1 is said not to exist because the count says 1; a group of 4
bytes is said to need 4 bytes; a log of 20 bytes is said to need a minimum of 0. -/
theorem C64_exempt :
    (Coherent shortEnclosure ∧ decodeStructure true shortEnclosure =
      .err (.InvalidFormattedSectionLength .Enclosure 3 "minimum of " 5) ∧ Fits shortEnclosure 5) ∧
    (Coherent oneOption ∧ decodeStructure true oneOption =
      .err (.InvalidStringIndex .SystemConfigurationOptions 12 1) ∧
      HasString oneOption.strings 1 [65]) ∧
    (Coherent shortGroup ∧ decodeStructure false shortGroup =
      .err (.InvalidFormattedSectionLength .GroupAssociations 14 "" 4) ∧
      shortGroup.data.length + 4 = 4) ∧
    (Coherent shortLog ∧ decodeStructure true shortLog =
      .err (.InvalidFormattedSectionLength .SystemEventLog 15 "minimum of " 0) ∧ Fits shortLog 0) := by
  refine ⟨by decide +kernel, ⟨by decide, by decide +kernel, ?_⟩, by decide +kernel, by decide +kernel⟩
  exact find_string_ok.1 (by decide +kernel : oneOption.find_string 1 = .ok [65])

/-- C64, full statement fails. -/
theorem C64_full_false : ¬ C64_full := by
  intro h
  obtain ⟨h1, h2, h3⟩ := C64_exempt.2.1
  exact h _ _ _ h1 h2 _ h3

/-- C64 for the iterator: an error item is one about the table (C14) or is about the structure at the
cursor. -/
theorem C64_iterator (oc : Bool) (st st' : Structures) (hb : st.buffer.length < 2 ^ 32)
    (e : MalformedStructureError) (h : st.next oc = .ok (some (.error e), st')) :
    st.next_raw oc = .ok (some (.error e), st) ∨
    ∃ p, PieceAt st.buffer st.idx.toNat p ∧ Names (p.raw st.smbios_version) e ∧
      ((p.raw st.smbios_version).info ∉ Exempt → Truthful (p.raw st.smbios_version) e) := by
  unfold Structures.next at h
  rcases next_raw_cases oc st hb with (h1 | h1) | h1 | ⟨hi, e', h1⟩ | ⟨p, hp, hn, h1⟩
  · rw [h1] at h; cases h
  · rw [h1] at h; cases h
  · rw [h1] at h; cases h
  · rw [h1] at h; cases h; exact .inl h1
  · refine .inr ⟨p, hp, ?_⟩
    have hc : Coherent (p.raw st.smbios_version) := coherent_of_next_raw oc st _ _ hb h1
    rw [h1] at h
    simp only [ok_bind, bind_ok_iff, pure_eq_ok, Res.ok.injEq, Prod.mk.injEq, Option.some.injEq] at h
    obtain ⟨it, h2, h3, -⟩ := h
    rw [h3] at h2
    generalize hr : decodeStructure oc _ = r at h2
    cases r with
    | ok a => cases h2
    | err e' =>
      cases h2
      have := decode_tr oc _ hc e hr
      exact ⟨this.1, this.2.2.resolve_left⟩
    | panic => cases h2
    | ub => cases h2

/-- A cache that refers to a string it does not have. -/
def danglingCache : RawStructure where
  version := ⟨2, 1⟩
  info := .Cache
  length := 0x13
  handle := 7
  data := [2, 0x80, 1, 0, 1, 0, 1, 0x20, 0, 0x20, 0, 0, 4, 5, 7]
  strings := ascii "L1" ++ [0, 0]

/-- The hypotheses of `C64_names`, `C64_truthful_partial` and `C63_decoders` can be met. -/
example : Coherent danglingCache ∧ danglingCache.info ∉ Exempt ∧
    decodeStructure true danglingCache = .err (.InvalidStringIndex .Cache 7 2) := by decide +kernel

/-- A table with that cache only. -/
def danglingTable : Structures where
  smbios_version := ⟨2, 1⟩
  smbios_len := 23
  idx := 0
  buffer := [7, 0x13, 7, 0] ++ danglingCache.data ++ danglingCache.strings

/-- The hypotheses of `C64_iterator` can be met. -/
example : danglingTable.buffer.length < 2 ^ 32 ∧ (danglingTable.next true).okAnd (fun p =>
    match p.1 with
    | some (.error e) => e = .InvalidStringIndex .Cache 7 2
    | _ => False) = true := by
  decide +kernel

end Dmi.Props
