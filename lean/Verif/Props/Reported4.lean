import Verif.Props.Reported3
import Verif.Props.Table
import Verif.Props.Codes
import Verif.Props.EventLogCodes
import Verif.Props.FamilyCodes
/-!
# C82: exactly which values are reported, other structures, tables and codes
-/
namespace Dmi.Props
open Spec

/-! ### Structures without decoder -/

/-- C82: raw structures are reported exactly for the types without decoder, and then every one
that fits its length field and has a terminated string area. -/
theorem C82_other (oc : Bool) (ver : SmbiosVersion) (x : RawStructure) :
    ReportedAt oc ver (.Other x) ↔
      (∃ k : UInt8, x.info = InfoType.ofU8 k ∧ ¬ k.toNat ≤ 4 ∧ ¬ (7 ≤ k.toNat ∧ k.toNat ≤ 9) ∧
        ¬ (11 ≤ k.toNat ∧ k.toNat ≤ 22)) ∧
      x.version = ver ∧ x.length.toNat = x.data.length + 4 ∧ EndsAtFirstNulNul x.strings := by
  have key : ∀ k : UInt8, (match InfoType.ofU8 k with
      | .SystemBoot => true | .End => true | .Oem _ => true | _ => false) = true ↔
      (¬ k.toNat ≤ 4 ∧ ¬ (7 ≤ k.toNat ∧ k.toNat ≤ 9) ∧ ¬ (11 ≤ k.toNat ∧ k.toNat ≤ 22)) :=
    forall_u8 (by decide +kernel)
  have dec : ∀ s : RawStructure, decodeStructure oc s = .ok (.Other x) ↔
      (match s.info with
      | .SystemBoot => true | .End => true | .Oem _ => true | _ => false) = true ∧ s = x := by
    intro s
    unfold decodeStructure
    split <;> rename_i hi
    all_goals first
      | (simp only [hi, Bool.false_eq_true, false_and, iff_false]
         intro h
         unfold Res.map at h
         split at h <;> cases h)
      | skip
    constructor
    · intro h
      cases h
      refine ⟨?_, rfl⟩
      split <;> first | rfl | skip
      rename_i h1 h2 h3
      cases hc : x.info <;> simp_all
    · rintro ⟨-, rfl⟩; rfl
  constructor
  · rintro ⟨p, hp, h⟩
    obtain ⟨h1, rfl⟩ := (dec _).1 h
    refine ⟨⟨p.kind, rfl, (key _).1 h1⟩, rfl, ?_, hp.2⟩
    show (UInt8.ofNat p.len).toNat = p.data.length + 4
    have := hp.1
    rw [UInt8.toNat_ofNat_of_lt' (by simpa using this)]
    rfl
  · rintro ⟨⟨k, hk, h0⟩, rfl, hl, hs⟩
    have hlt := x.length.toNat_lt
    refine ⟨⟨k, x.handle, x.data, x.strings⟩, ⟨?_, hs⟩, (dec _).2 ⟨(key k).2 h0, ?_⟩⟩
    · show x.data.length + 4 < 256
      omega
    · obtain ⟨xv, xi, xl, xh, xd, xs⟩ := x
      simp only at hk hl
      subst hk
      have : UInt8.ofNat (xd.length + 4) = xl := by rw [← hl]; simp
      simp only [Piece.raw, Piece.len, this]

/-! ### Tables -/

theorem collects_runs {oc : Bool} {s : Structures} {items}
    (h : CollectsR (Structures.next oc) s items) : ∃ s', Runs oc s items s' := by
  induction h with
  | done h => exact ⟨_, .nil _⟩
  | step h t ih => obtain ⟨s', r⟩ := ih; exact ⟨s', .cons h r⟩

theorem toItem_ok {ε α : Type} {x : Res ε α} {a : α} (h : x.toItem = .ok (.ok a)) : x = .ok a := by
  cases x <;> simp_all [Res.toItem]

theorem decoded_item {oc : Bool} {ver : SmbiosVersion} {ps items} (h : Decoded oc ver ps items)
    {v : Structure} (hv : .ok v ∈ items) : ∃ p ∈ ps, decodeStructure oc (p.raw ver) = .ok v := by
  induction h with
  | nil => cases hv
  | @cons p it ps items hd t ih =>
    rcases List.mem_cons.1 hv with rfl | hv
    · exact ⟨p, by simp, toItem_ok hd⟩
    · obtain ⟨q, hq, e⟩ := ih hv
      exact ⟨q, List.mem_cons_of_mem _ hq, e⟩

theorem mem_length_flatMap {p : Piece} {ps : List Piece} (h : p ∈ ps) :
    p.bytes.length ≤ (ps.flatMap Piece.bytes).length := by
  induction ps with
  | nil => cases h
  | cons q ps ih =>
    rw [List.flatMap_cons, List.length_append]
    rcases List.mem_cons.1 h with rfl | h
    · omega
    · have := ih h; omega

/-- C82: an iteration over a table reports nothing else, wherever it begins and however far it
goes. -/
theorem C82_iteration {oc : Bool} {s s' : Structures} {items} (hb : s.buffer.length < 2 ^ 32)
    (h : Runs oc s items s') {v : Structure} (hv : .ok v ∈ items) :
    ReportedAt oc s.smbios_version v := by
  obtain ⟨ps, hwf, -, -, hd | ⟨items', e, rfl, hd⟩⟩ := C11_tiling hb h
  · obtain ⟨p, hp, e⟩ := decoded_item hd hv
    exact ⟨p, hwf p hp, e⟩
  · obtain ⟨p, hp, e⟩ := decoded_item hd (by simpa using hv)
    exact ⟨p, hwf p hp, e⟩

/-- C82: the values some complete iteration over some table reports are the values one structure is
decoded to. -/
theorem C82_table (oc : Bool) (ver : SmbiosVersion) (v : Structure) :
    (∃ (b : Bytes) (n : UInt32) (items : _), b.length + 4 < 2 ^ 32 ∧
        CollectsR (Structures.next oc) ⟨ver, n, 0, b⟩ items ∧ .ok v ∈ items) ↔
      ∃ p : Piece, p.WF ∧ p.bytes.length + 4 < 2 ^ 32 ∧ decodeStructure oc (p.raw ver) = .ok v := by
  constructor
  · rintro ⟨b, n, items, hb, hc, hv⟩
    obtain ⟨s', hr⟩ := collects_runs hc
    obtain ⟨ps, hwf, hpre, hd⟩ := C11_prefix (s := ⟨ver, n, 0, b⟩) (by show b.length < _; omega) rfl hr
    have : ∃ p ∈ ps, decodeStructure oc (p.raw ver) = .ok v := by
      rcases hd with hd | ⟨items', e, rfl, hd⟩
      · exact decoded_item hd hv
      · exact decoded_item hd (by simpa using hv)
    obtain ⟨p, hp, e⟩ := this
    have h1 := mem_length_flatMap hp
    have h2 := hpre.length_le
    exact ⟨p, hwf p hp, by simp only at h2; omega, e⟩
  · rintro ⟨p, hwf, hl, e⟩
    have hn : (UInt32.ofNat p.bytes.length).toNat = p.bytes.length :=
      UInt32.toNat_ofNat_of_lt' (by simp only [UInt32.size]; omega)
    have hi : (decodeStructure oc (p.raw ver)).toItem = .ok (.ok v) := by rw [e]; rfl
    by_cases hk : ver.major.toNat < 3 ∨ p.kind ≠ 127
    · have := C12_round_trip oc ver (UInt32.ofNat p.bytes.length) [p] [.ok v] []
        (by simpa using hwf) (hk.imp id (by simp)) (by simp; omega) (by simpa using hl)
        (by simpa using hn) (.cons hi .nil)
      exact ⟨_, _, _, by simpa using hl, this, by simp⟩
    · obtain ⟨h3, hk⟩ := not_or.1 hk
      have hk : p.kind = 127 := Decidable.not_not.1 hk
      have hv : v = .Other (p.raw ver) := by
        have : decodeStructure oc (p.raw ver) = .ok (.Other (p.raw ver)) := by
          unfold decodeStructure
          have : (p.raw ver).info = .End := by show InfoType.ofU8 p.kind = _; rw [hk]; rfl
          rw [this]
        rw [this] at e; cases e; rfl
      have := C12_round_trip_end oc ver (UInt32.ofNat p.bytes.length) [] p [] []
        (by omega) (by simp) (by simp) hwf hk (by simpa using hl) (by simp [hn]) .nil
      exact ⟨_, _, _, by simpa using hl, this, by simp [hv]⟩

/-! ### Codes -/

/-- Every name of a table is the name of a code below `k`. -/
def Numbered {α : Type} (k : Nat) (t : Table α) : Prop :=
  ∀ r ∈ t, r.1 + r.2.length ≤ k ∧ ∀ i < r.2.length, named t (r.1 + i) = r.2[i]?

instance {α : Type} [DecidableEq α] (k : Nat) (t : Table α) : Decidable (Numbered k t) :=
  inferInstanceAs (Decidable (∀ r ∈ t, _))

theorem numbered {α : Type} {k : Nat} {t : Table α} (h : Numbered k t) {x : α} (hx : x ∈ names t) :
    ∃ n < k, named t n = some x := by
  obtain ⟨r, hr, hx⟩ := List.mem_flatMap.1 hx
  obtain ⟨i, hi, e⟩ := List.mem_iff_getElem.1 hx
  obtain ⟨h1, h2⟩ := h r hr
  exact ⟨r.1 + i, by omega, by rw [h2 i hi, List.getElem?_eq_getElem hi, e]⟩

/-- A decoder that conforms to a table yields the names of the table and the codes that have
none. -/
theorem coded_iff {α : Type} {dec : UInt8 → α} {t : Table α} {other : UInt8 → α}
    (h : Conforms dec t other) (hf : Numbered 256 t) (x : α) :
    Coded dec x ↔ x ∈ names t ∨ ∃ b, named t b.toNat = none ∧ x = other b := by
  constructor
  · rintro ⟨b, rfl⟩
    rw [h b]
    cases hb : named t b.toNat with
    | none => exact .inr ⟨b, hb, rfl⟩
    | some y => exact .inl (named_mem hb)
  · rintro (hx | ⟨b, hb, rfl⟩)
    · obtain ⟨n, hn, e⟩ := numbered hf hx
      refine ⟨UInt8.ofNat n, ?_⟩
      rw [h, UInt8.toNat_ofNat_of_lt' (by simpa [UInt8.size] using hn), e]
      rfl
    · exact ⟨b, by rw [h, hb]; rfl⟩

/-- C82: the values of `InfoType` that are reported. -/
theorem C82_InfoType (x : InfoType) :
    Coded InfoType.ofU8 x ↔ x ∈ names Codes.InfoType ∨ ∃ b, named Codes.InfoType b.toNat = none ∧
      x = .Oem b :=
  coded_iff C23_info_type (by decide +kernel) x

/-- C82: the values of `system.WakeupType` that are reported. -/
theorem C82_system_WakeupType (x : system.WakeupType) :
    Coded system.WakeupType.ofU8 x ↔ x ∈ names Codes.system.WakeupType ∨ ∃ b, named Codes.system.WakeupType b.toNat = none ∧
      x = .Undefined b :=
  coded_iff C53_system_WakeupType (by decide +kernel) x

/-- C82: the values of `baseboard.BoardType` that are reported. -/
theorem C82_baseboard_BoardType (x : baseboard.BoardType) :
    Coded baseboard.BoardType.ofU8 x ↔ x ∈ names Codes.baseboard.BoardType ∨ ∃ b, named Codes.baseboard.BoardType b.toNat = none ∧
      x = .Undefined b :=
  coded_iff C53_baseboard_BoardType (by decide +kernel) x

/-- C82: the values of `enclosure.EnclosureType` that are reported. -/
theorem C82_enclosure_EnclosureType (x : enclosure.EnclosureType) :
    Coded enclosure.EnclosureType.ofU8 x ↔ x ∈ names Codes.enclosure.EnclosureType ∨ ∃ b, named Codes.enclosure.EnclosureType b.toNat = none ∧
      x = .Undefined b :=
  coded_iff C53_enclosure_EnclosureType (by decide +kernel) x

/-- C82: the values of `enclosure.State` that are reported. -/
theorem C82_enclosure_State (x : enclosure.State) :
    Coded enclosure.State.ofU8 x ↔ x ∈ names Codes.enclosure.State ∨ ∃ b, named Codes.enclosure.State b.toNat = none ∧
      x = .Undefined b :=
  coded_iff C53_enclosure_State (by decide +kernel) x

/-- C82: the values of `enclosure.SecurityStatus` that are reported. -/
theorem C82_enclosure_SecurityStatus (x : enclosure.SecurityStatus) :
    Coded enclosure.SecurityStatus.ofU8 x ↔ x ∈ names Codes.enclosure.SecurityStatus ∨ ∃ b, named Codes.enclosure.SecurityStatus b.toNat = none ∧
      x = .Undefined b :=
  coded_iff C53_enclosure_SecurityStatus (by decide +kernel) x

/-- C82: the values of `processor.ProcessorType` that are reported. -/
theorem C82_processor_ProcessorType (x : processor.ProcessorType) :
    Coded processor.ProcessorType.ofU8 x ↔ x ∈ names Codes.processor.ProcessorType ∨ ∃ b, named Codes.processor.ProcessorType b.toNat = none ∧
      x = .Undefined b :=
  coded_iff C53_processor_ProcessorType (by decide +kernel) x

/-- C82: the values of `processor.ProcessorUpgrade` that are reported. -/
theorem C82_processor_ProcessorUpgrade (x : processor.ProcessorUpgrade) :
    Coded processor.ProcessorUpgrade.ofU8 x ↔ x ∈ names Codes.processor.ProcessorUpgrade ∨ ∃ b, named Codes.processor.ProcessorUpgrade b.toNat = none ∧
      x = .Undefined b :=
  coded_iff C53_processor_ProcessorUpgrade (by decide +kernel) x

/-- C82: the values of `cache.CacheErrorCorrectionType` that are reported. -/
theorem C82_cache_CacheErrorCorrectionType (x : cache.CacheErrorCorrectionType) :
    Coded cache.CacheErrorCorrectionType.ofU8 x ↔ x ∈ names Codes.cache.CacheErrorCorrectionType ∨ ∃ b, named Codes.cache.CacheErrorCorrectionType b.toNat = none ∧
      x = .Undefined b :=
  coded_iff C53_cache_CacheErrorCorrectionType (by decide +kernel) x

/-- C82: the values of `cache.SystemCacheType` that are reported. -/
theorem C82_cache_SystemCacheType (x : cache.SystemCacheType) :
    Coded cache.SystemCacheType.ofU8 x ↔ x ∈ names Codes.cache.SystemCacheType ∨ ∃ b, named Codes.cache.SystemCacheType b.toNat = none ∧
      x = .Undefined b :=
  coded_iff C53_cache_SystemCacheType (by decide +kernel) x

/-- C82: the values of `cache.CacheAssociativity` that are reported. -/
theorem C82_cache_CacheAssociativity (x : cache.CacheAssociativity) :
    Coded cache.CacheAssociativity.ofU8 x ↔ x ∈ names Codes.cache.CacheAssociativity ∨ ∃ b, named Codes.cache.CacheAssociativity b.toNat = none ∧
      x = .Undefined b :=
  coded_iff C53_cache_CacheAssociativity (by decide +kernel) x

/-- C82: the values of `port_connector.ConnectorType` that are reported. -/
theorem C82_port_connector_ConnectorType (x : port_connector.ConnectorType) :
    Coded port_connector.ConnectorType.ofU8 x ↔ x ∈ names Codes.port_connector.ConnectorType ∨ ∃ b, named Codes.port_connector.ConnectorType b.toNat = none ∧
      x = .Undefined b :=
  coded_iff C53_port_connector_ConnectorType (by decide +kernel) x

/-- C82: the values of `port_connector.PortType` that are reported. -/
theorem C82_port_connector_PortType (x : port_connector.PortType) :
    Coded port_connector.PortType.ofU8 x ↔ x ∈ names Codes.port_connector.PortType ∨ ∃ b, named Codes.port_connector.PortType b.toNat = none ∧
      x = .Undefined b :=
  coded_iff C53_port_connector_PortType (by decide +kernel) x

/-- C82: the values of `system_slots.SlotWidth` that are reported. -/
theorem C82_system_slots_SlotWidth (x : system_slots.SlotWidth) :
    Coded system_slots.SlotWidth.ofU8 x ↔ x ∈ names Codes.system_slots.SlotWidth ∨ ∃ b, named Codes.system_slots.SlotWidth b.toNat = none ∧
      x = .Undefined b :=
  coded_iff C53_system_slots_SlotWidth (by decide +kernel) x

/-- C82: the values of `system_slots.CurrentUsage` that are reported. -/
theorem C82_system_slots_CurrentUsage (x : system_slots.CurrentUsage) :
    Coded system_slots.CurrentUsage.ofU8 x ↔ x ∈ names Codes.system_slots.CurrentUsage ∨ ∃ b, named Codes.system_slots.CurrentUsage b.toNat = none ∧
      x = .Undefined b :=
  coded_iff C53_system_slots_CurrentUsage (by decide +kernel) x

/-- C82: the values of `system_slots.SlotLength` that are reported. -/
theorem C82_system_slots_SlotLength (x : system_slots.SlotLength) :
    Coded system_slots.SlotLength.ofU8 x ↔ x ∈ names Codes.system_slots.SlotLength ∨ ∃ b, named Codes.system_slots.SlotLength b.toNat = none ∧
      x = .Undefined b :=
  coded_iff C53_system_slots_SlotLength (by decide +kernel) x

/-- C82: the values of `physical_memory_array.MemoryArrayUse` that are reported. -/
theorem C82_physical_memory_array_MemoryArrayUse (x : physical_memory_array.MemoryArrayUse) :
    Coded physical_memory_array.MemoryArrayUse.ofU8 x ↔ x ∈ names Codes.physical_memory_array.MemoryArrayUse ∨ ∃ b, named Codes.physical_memory_array.MemoryArrayUse b.toNat = none ∧
      x = .Undefined b :=
  coded_iff C53_physical_memory_array_MemoryArrayUse (by decide +kernel) x

/-- C82: the values of `physical_memory_array.MemoryArrayErrorCorrectionTypes` that are reported. -/
theorem C82_physical_memory_array_MemoryArrayErrorCorrectionTypes (x : physical_memory_array.MemoryArrayErrorCorrectionTypes) :
    Coded physical_memory_array.MemoryArrayErrorCorrectionTypes.ofU8 x ↔ x ∈ names Codes.physical_memory_array.MemoryArrayErrorCorrectionTypes ∨ ∃ b, named Codes.physical_memory_array.MemoryArrayErrorCorrectionTypes b.toNat = none ∧
      x = .Undefined b :=
  coded_iff C53_physical_memory_array_MemoryArrayErrorCorrectionTypes (by decide +kernel) x

/-- C82: the values of `memory_device.ErrorGranularity` that are reported. -/
theorem C82_memory_device_ErrorGranularity (x : memory_device.ErrorGranularity) :
    Coded memory_device.ErrorGranularity.ofU8 x ↔ x ∈ names Codes.memory_device.ErrorGranularity ∨ ∃ b, named Codes.memory_device.ErrorGranularity b.toNat = none ∧
      x = .Undefined b :=
  coded_iff C53_memory_device_ErrorGranularity (by decide +kernel) x

/-- C82: the values of `memory_device.ErrorOperation` that are reported. -/
theorem C82_memory_device_ErrorOperation (x : memory_device.ErrorOperation) :
    Coded memory_device.ErrorOperation.ofU8 x ↔ x ∈ names Codes.memory_device.ErrorOperation ∨ ∃ b, named Codes.memory_device.ErrorOperation b.toNat = none ∧
      x = .Undefined b :=
  coded_iff C53_memory_device_ErrorOperation (by decide +kernel) x

/-- C82: the values of `memory_device.ErrorType` that are reported. -/
theorem C82_memory_device_ErrorType (x : memory_device.ErrorType) :
    Coded memory_device.ErrorType.ofU8 x ↔ x ∈ names Codes.memory_device.ErrorType ∨ ∃ b, named Codes.memory_device.ErrorType b.toNat = none ∧
      x = .Undefined b :=
  coded_iff C53_memory_device_ErrorType (by decide +kernel) x

/-- C82: the values of `memory_device.MemoryTechnology` that are reported. -/
theorem C82_memory_device_MemoryTechnology (x : memory_device.MemoryTechnology) :
    Coded memory_device.MemoryTechnology.ofU8 x ↔ x ∈ names Codes.memory_device.MemoryTechnology ∨ ∃ b, named Codes.memory_device.MemoryTechnology b.toNat = none ∧
      x = .Undefined b :=
  coded_iff C53_memory_device_MemoryTechnology (by decide +kernel) x

/-- C82: the values of `memory_error_32.ErrorType` that are reported. -/
theorem C82_memory_error_32_ErrorType (x : memory_error_32.ErrorType) :
    Coded memory_error_32.ErrorType.ofU8 x ↔ x ∈ names Codes.memory_error_32.ErrorType ∨ ∃ b, named Codes.memory_error_32.ErrorType b.toNat = none ∧
      x = .Undefined b :=
  coded_iff C53_memory_error_32_ErrorType (by decide +kernel) x

/-- C82: the values of `memory_error_32.ErrorGranularity` that are reported. -/
theorem C82_memory_error_32_ErrorGranularity (x : memory_error_32.ErrorGranularity) :
    Coded memory_error_32.ErrorGranularity.ofU8 x ↔ x ∈ names Codes.memory_error_32.ErrorGranularity ∨ ∃ b, named Codes.memory_error_32.ErrorGranularity b.toNat = none ∧
      x = .Undefined b :=
  coded_iff C53_memory_error_32_ErrorGranularity (by decide +kernel) x

/-- C82: the values of `memory_error_32.ErrorOperation` that are reported. -/
theorem C82_memory_error_32_ErrorOperation (x : memory_error_32.ErrorOperation) :
    Coded memory_error_32.ErrorOperation.ofU8 x ↔ x ∈ names Codes.memory_error_32.ErrorOperation ∨ ∃ b, named Codes.memory_error_32.ErrorOperation b.toNat = none ∧
      x = .Undefined b :=
  coded_iff C53_memory_error_32_ErrorOperation (by decide +kernel) x

/-- C82: the values of `built_in_pointing_device.DeviceType` that are reported. -/
theorem C82_built_in_pointing_device_DeviceType (x : built_in_pointing_device.DeviceType) :
    Coded built_in_pointing_device.DeviceType.ofU8 x ↔ x ∈ names Codes.built_in_pointing_device.DeviceType ∨ ∃ b, named Codes.built_in_pointing_device.DeviceType b.toNat = none ∧
      x = .Undefined b :=
  coded_iff C53_built_in_pointing_device_DeviceType (by decide +kernel) x

/-- C82: the values of `built_in_pointing_device.Interface` that are reported. -/
theorem C82_built_in_pointing_device_Interface (x : built_in_pointing_device.Interface) :
    Coded built_in_pointing_device.Interface.ofU8 x ↔ x ∈ names Codes.built_in_pointing_device.Interface ∨ ∃ b, named Codes.built_in_pointing_device.Interface b.toNat = none ∧
      x = .Undefined b :=
  coded_iff C53_built_in_pointing_device_Interface (by decide +kernel) x

/-- C82: the values of `system_event_log.LogHeaderFormat` that are reported. -/
theorem C82_system_event_log_LogHeaderFormat (x : system_event_log.LogHeaderFormat) :
    Coded system_event_log.LogHeaderFormat.ofU8 x ↔ x ∈ names Codes.system_event_log.LogHeaderFormat ∨ ∃ b, named Codes.system_event_log.LogHeaderFormat b.toNat = none ∧
      x = ((fun b => if b < 0x80 then .Available b else .OemSpecific b) : UInt8 → system_event_log.LogHeaderFormat) b :=
  coded_iff C53_system_event_log_LogHeaderFormat (by decide +kernel) x

/-- C82: the values of `memory_device.MemoryType` that are reported. -/
theorem C82_memory_device_MemoryType (x : memory_device.MemoryType) :
    Coded memory_device.MemoryType.ofU8 x ↔ x ∈ names Codes.memory_device.MemoryType ∨ ∃ b, named Codes.memory_device.MemoryType b.toNat = none ∧
      x = .Undefined b :=
  coded_iff C53_memory_device_MemoryType (by decide +kernel) x

/-- C82: the values of `system_event_log.EventLogType` that are reported. -/
theorem C82_system_event_log_EventLogType (x : system_event_log.EventLogType) :
    Coded system_event_log.EventLogType.ofU8 x ↔ x ∈ names Codes.system_event_log.EventLogType ∨ ∃ b, named Codes.system_event_log.EventLogType b.toNat = none ∧
      x = ((fun b => if b = 0 ∨ b = 0x0F then .Reserved b else if b < 0x80 then .Unused b else .Available b) : UInt8 → system_event_log.EventLogType) b :=
  coded_iff C46_event_log_type (by decide +kernel) x

/-- C82: slot types: the U.2 variants are never reported. -/
theorem C82_system_slots_SlotType (x : system_slots.SlotType) :
    Coded system_slots.SlotType.ofU8 x ↔
      x ∈ names Codes.system_slots.SlotType ∧
        x ∉ [.U2PciExpressGen2, .U2PciExpressGen3, .U2PciExpressGen4, .U2PciExpressGen5] ∨
      ∃ b, named Codes.system_slots.SlotType b.toNat = none ∧ x = .Undefined b := by
  constructor
  · rintro ⟨b, rfl⟩
    have : ∀ b : UInt8, system_slots.SlotType.ofU8 b ∈ names Codes.system_slots.SlotType ∧
        system_slots.SlotType.ofU8 b ∉ [.U2PciExpressGen2, .U2PciExpressGen3, .U2PciExpressGen4,
          .U2PciExpressGen5] ∨
        named Codes.system_slots.SlotType b.toNat = none ∧
          system_slots.SlotType.ofU8 b = .Undefined b := forall_u8 (by decide +kernel)
    exact (this b).imp id fun h => ⟨b, h⟩
  · rintro (⟨h1, h2⟩ | ⟨b, h, rfl⟩)
    · have : ∀ x ∈ names Codes.system_slots.SlotType,
          x ∉ [.U2PciExpressGen2, .U2PciExpressGen3, .U2PciExpressGen4, .U2PciExpressGen5] →
          ∃ n < 256, system_slots.SlotType.ofU8 (UInt8.ofNat n) = x := by decide +kernel
      obtain ⟨n, -, e⟩ := this x h1 h2
      exact ⟨_, e⟩
    · refine ⟨b, ?_⟩
      revert h; revert b; exact forall_u8 (by decide +kernel)

/-- C82: form factors: all names, and the codes above 0Fh. -/
theorem C82_memory_device_FormFactor (x : memory_device.FormFactor) :
    Coded memory_device.FormFactor.ofU8 x ↔
      x ∈ names Codes.memory_device.FormFactor ∨ ∃ b : UInt8, 0x0F < b.toNat ∧ x = .Undefined b := by
  constructor
  · rintro ⟨b, rfl⟩
    have : ∀ b : UInt8, memory_device.FormFactor.ofU8 b ∈ names Codes.memory_device.FormFactor ∨
        0x0F < b.toNat ∧ memory_device.FormFactor.ofU8 b = .Undefined b :=
      forall_u8 (by decide +kernel)
    exact (this b).imp id fun h => ⟨b, h⟩
  · rintro (h | ⟨b, h, rfl⟩)
    · have : ∀ x ∈ names Codes.memory_device.FormFactor,
          ∃ n < 256, memory_device.FormFactor.ofU8 (UInt8.ofNat n) = x := by decide +kernel
      obtain ⟨n, -, e⟩ := this x h
      exact ⟨_, e⟩
    · refine ⟨b, ?_⟩
      revert h; revert b; exact forall_u8 (by decide +kernel)

/-- C82: array locations: all names, and the code 0 and the codes above 0Fh. -/
theorem C82_physical_memory_array_MemoryArrayLocation
    (x : physical_memory_array.MemoryArrayLocation) :
    Coded physical_memory_array.MemoryArrayLocation.ofU8 x ↔
      x ∈ names Codes.physical_memory_array.MemoryArrayLocation ∨
      ∃ b : UInt8, (b = 0 ∨ 0x0F < b.toNat) ∧ x = .Undefined b := by
  constructor
  · rintro ⟨b, rfl⟩
    have : ∀ b : UInt8, physical_memory_array.MemoryArrayLocation.ofU8 b ∈
        names Codes.physical_memory_array.MemoryArrayLocation ∨
        (b = 0 ∨ 0x0F < b.toNat) ∧
          physical_memory_array.MemoryArrayLocation.ofU8 b = .Undefined b :=
      forall_u8 (by decide +kernel)
    exact (this b).imp id fun h => ⟨b, h⟩
  · rintro (h | ⟨b, h, rfl⟩)
    · have : ∀ x ∈ names Codes.physical_memory_array.MemoryArrayLocation,
          ∃ n < 256, physical_memory_array.MemoryArrayLocation.ofU8 (UInt8.ofNat n) = x := by
        decide +kernel
      obtain ⟨n, -, e⟩ := this x h
      exact ⟨_, e⟩
    · refine ⟨b, ?_⟩
      revert h; revert b; exact forall_u8 (by decide +kernel)

/-- C82: voltages: one of three fixed voltages each, or 0 to 12.7 V, or a byte from 8 to 7Fh. -/
theorem C82_processor_Voltage (x : processor.Voltage) :
    Coded processor.Voltage.ofU8 x ↔ match x with
      | .Legacy l => l.bits.toNat < 8
      | .Current c => c.toNat < 128
      | .Undefined b => 8 ≤ b.toNat ∧ b.toNat < 128 := by
  constructor
  · rintro ⟨b, rfl⟩
    have : ∀ b, (match processor.Voltage.ofU8 b with
        | .Legacy l => decide (l.bits.toNat < 8)
        | .Current c => decide (c.toNat < 128)
        | .Undefined b => decide (8 ≤ b.toNat ∧ b.toNat < 128)) = true :=
      forall_u8 (by decide +kernel)
    have := this b
    cases hx : processor.Voltage.ofU8 b <;> rw [hx] at this <;> exact of_decide_eq_true this
  · intro h
    cases x with
    | Legacy l =>
      obtain ⟨l⟩ := l
      refine ⟨l, ?_⟩
      simp only at h
      rw [C36_voltage, if_neg (by omega), if_pos h]
    | Current c =>
      simp only at h
      have hn : (UInt8.ofNat (c.toNat + 128)).toNat = c.toNat + 128 :=
        UInt8.toNat_ofNat_of_lt' (by simp only [UInt8.size]; omega)
      refine ⟨UInt8.ofNat (c.toNat + 128), ?_⟩
      rw [C36_voltage, hn, if_pos (by omega)]
      simp
    | Undefined b =>
      simp only at h
      exact ⟨b, by rw [C36_voltage, if_neg (by omega), if_neg (by omega)]⟩

/-- C82: processor families: all names, and the codes without one. -/
theorem C82_processor_ProcessorFamily (x : processor.ProcessorFamily) :
    Coded processor.ProcessorFamily.ofU16 x ↔ x ∈ names Codes.processor.ProcessorFamily ∨
      ∃ b : UInt16, named Codes.processor.ProcessorFamily b.toNat = none ∧ x = familyOther b := by
  constructor
  · rintro ⟨b, rfl⟩
    rw [C36_family b]
    cases hb : named Codes.processor.ProcessorFamily b.toNat with
    | none => exact .inr ⟨b, hb, rfl⟩
    | some y => exact .inl (named_mem hb)
  · rintro (hx | ⟨b, hb, rfl⟩)
    · have : Numbered 65536 Codes.processor.ProcessorFamily := by decide +kernel
      obtain ⟨n, hn, e⟩ := numbered this hx
      refine ⟨UInt16.ofNat n, ?_⟩
      rw [C36_family, UInt16.toNat_ofNat_of_lt' hn, e]
      rfl
    · exact ⟨b, by rw [C36_family, hb]; rfl⟩

/-- C82: 16-bit cache sizes: any number below 2^15 in either unit. -/
theorem C82_cache_CacheSize (x : cache.CacheSize) : Coded cache.CacheSize.ofU16 x ↔
    match x with
    | .Granularity1K v => v.toNat < 2 ^ 15
    | .Granularity64K v => v.toNat < 2 ^ 15 := by
  constructor
  · rintro ⟨w, rfl⟩
    have hw := w.toNat_lt
    by_cases h : w.toNat < 2 ^ 15
    · obtain ⟨v, e, hv⟩ := (C38_size w).1 h
      rw [e]; simp only; omega
    · obtain ⟨v, e, hv⟩ := (C38_size w).2 (by omega)
      rw [e]; simp only; omega
  · intro h
    cases x with
    | Granularity1K v =>
      obtain ⟨v', e, hv⟩ := (C38_size v).1 h
      exact ⟨v, by rw [e, UInt16.toNat_inj.1 hv]⟩
    | Granularity64K v =>
      simp only at h
      have hn : (UInt16.ofNat (v.toNat + 2 ^ 15)).toNat = v.toNat + 2 ^ 15 :=
        UInt16.toNat_ofNat_of_lt' (by simp only [UInt16.size]; omega)
      obtain ⟨v', e, hv⟩ := (C38_size (UInt16.ofNat (v.toNat + 2 ^ 15))).2 (by omega)
      have : v' = v := UInt16.toNat_inj.1 (by omega)
      exact ⟨_, by rw [e, this]⟩

/-- C82: 32-bit cache sizes: any number below 2^31 in either unit. -/
theorem C82_cache_CacheSize2 (x : cache.CacheSize2) : Coded cache.CacheSize2.ofU32 x ↔
    match x with
    | .Granularity1K v => v.toNat < 2 ^ 31
    | .Granularity64K v => v.toNat < 2 ^ 31 := by
  constructor
  · rintro ⟨w, rfl⟩
    have hw := w.toNat_lt
    by_cases h : w.toNat < 2 ^ 31
    · obtain ⟨v, e, hv⟩ := (C38_size2 w).1 h
      rw [e]; simp only; omega
    · obtain ⟨v, e, hv⟩ := (C38_size2 w).2 (by omega)
      rw [e]; simp only; omega
  · intro h
    cases x with
    | Granularity1K v =>
      obtain ⟨v', e, hv⟩ := (C38_size2 v).1 h
      exact ⟨v, by rw [e, UInt32.toNat_inj.1 hv]⟩
    | Granularity64K v =>
      simp only at h
      have hn : (UInt32.ofNat (v.toNat + 2 ^ 31)).toNat = v.toNat + 2 ^ 31 :=
        UInt32.toNat_ofNat_of_lt' (by simp only [UInt32.size]; omega)
      obtain ⟨v', e, hv⟩ := (C38_size2 (UInt32.ofNat (v.toNat + 2 ^ 31))).2 (by omega)
      have : v' = v := UInt32.toNat_inj.1 (by omega)
      exact ⟨_, by rw [e, this]⟩

/-! ### Examples -/

/-- A slot is never reported as U.2. -/
example (oc : Bool) (ver : SmbiosVersion) (v : system_slots.SystemSlots)
    (h : v.slot_type = .U2PciExpressGen3) : ¬ ReportedAt oc ver (.SystemSlots v) := fun hr => by
  obtain ⟨n, k, -, -, -, -, -, -, -, -, hv⟩ := (C82_slots oc ver v).1 hr
  have := (C82_system_slots_SlotType _).1 hv.slot_type
  rw [h] at this
  rcases this with ⟨-, h⟩ | ⟨b, -, h⟩
  · exact h (by decide)
  · cases h

/-- A code with a name is never reported as undefined. -/
example : ¬ Coded baseboard.BoardType.ofU8 (.Undefined 0x0A) := fun h => by
  rcases (C82_baseboard_BoardType _).1 h with h | ⟨b, h, e⟩
  · revert h; decide +kernel
  · cases e; revert h; decide +kernel

example : Coded baseboard.BoardType.ofU8 (.Undefined 0x0E) :=
  (C82_baseboard_BoardType _).2 (.inr ⟨0x0E, by decide +kernel, rfl⟩)

example : Coded processor.Voltage.ofU8 (.Current 127) := (C82_processor_Voltage _).2 (by decide)

example : ¬ Coded processor.Voltage.ofU8 (.Current 128) := fun h =>
  absurd ((C82_processor_Voltage _).1 h) (by decide)

/-- A raw structure of the reserved type 5. -/
example : ReportedAt true ⟨2, 8⟩ (.Other ⟨⟨2, 8⟩, .Oem 5, 5, 7, [9], [0, 0]⟩) :=
  (C82_other _ _ _).2 ⟨⟨5, rfl, by decide⟩, rfl, rfl, ends_nil⟩

/-- A table with one structure of that type. -/
example : ∃ (b : Bytes) (n : UInt32) (items : _), b.length + 4 < 2 ^ 32 ∧
    CollectsR (Structures.next true) ⟨⟨2, 8⟩, n, 0, b⟩ items ∧
    .ok (.Other ⟨⟨2, 8⟩, .Oem 5, 5, 0, [9], [0, 0]⟩) ∈ items :=
  (C82_table _ _ _).2 ⟨⟨5, 0, [9], [0, 0]⟩, plain_wf (by decide), by decide, by decide +kernel⟩

end Dmi.Props
