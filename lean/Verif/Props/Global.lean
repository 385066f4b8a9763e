import Verif.Proofs.Outcome
import Verif.Props.Table
import Verif.Props.Enclosure
/-!
# C14, C55, C57: properties of all decoders together
-/
namespace Dmi.Props
open Spec

/-! ### C57 -/

/-- The handle an item reports. -/
def handleOf : Structure → UInt16
  | .Bios x => x.handle
  | .System x => x.handle
  | .BaseBoard x => x.handle
  | .Enclosure x => x.handle
  | .Processor x => x.handle
  | .Cache x => x.handle
  | .PortConnector x => x.handle
  | .SystemSlots x => x.handle
  | .OemStrings x => x.handle
  | .SystemConfigurationOptions x => x.handle
  | .BiosLanguage x => x.handle
  | .GroupAssociations x => x.handle
  | .SystemEventLog x => x.handle
  | .PhysicalMemoryArray x => x.handle
  | .MemoryDevice x => x.handle
  | .MemoryError32 x => x.handle
  | .MemoryArrayMappedAddress x => x.handle
  | .MemoryDeviceMappedAddress x => x.handle
  | .BuiltInPointingDevice x => x.handle
  | .PortableBattery x => x.handle
  | .Other x => x.handle

theorem processor_handle (s : RawStructure) :
    Post (fun v => v.handle = s.handle) (processor.Processor.try_from s) := by
  unfold processor.Processor.try_from; post <;> rfl

theorem array_handle (s : RawStructure) (h : Since s 2 2) :
    Post (fun v => v.1.handle = s.handle) (physical_memory_array.fill2_1 s {} 0) := by
  unfold physical_memory_array.fill2_1
  rw [if_pos ((gt_iff (by decide) (by decide)).2 h)]
  post <;> rfl

theorem handle_post (oc : Bool) (s : RawStructure)
    (h : s.info = .PhysicalMemoryArray → Since s 2 2) :
    Post (fun st => handleOf st = s.handle) (decodeStructure oc s) := by
  unfold decodeStructure
  split
  · apply Post.map; unfold bios.Bios.try_from; post <;> rfl
  · apply Post.map; unfold system.System.try_from; post <;> rfl
  · apply Post.map; unfold baseboard.BaseBoard.try_from; post <;> rfl
  · apply Post.map; unfold enclosure.Enclosure.try_from; post <;> rfl
  · exact Post.map (processor_handle s)
  · apply Post.map; unfold cache.Cache.try_from; post <;> rfl
  · apply Post.map; unfold port_connector.PortConnector.try_from; post <;> rfl
  · apply Post.map; unfold system_slots.SystemSlots.try_from system_slots.SystemSlots.decode; post <;> rfl
  · apply Post.map; unfold oem_strings.OemStrings.try_from; post <;> rfl
  · apply Post.map
    unfold system_configuration_options.SystemConfigurationOptions.try_from; post <;> rfl
  · apply Post.map; unfold bios_language.BiosLanguage.try_from; post <;> rfl
  · apply Post.map; unfold group_associations.GroupAssociations.try_from; post <;> rfl
  · apply Post.map
    unfold system_event_log.SystemEventLog.try_from system_event_log.SystemEventLog.decode; post <;> rfl
  · rename_i hi
    apply Post.map
    unfold physical_memory_array.PhysicalMemoryArray.try_from
    refine Post.bind fun p hp => ?_
    have this := array_handle s (h hi) p hp
    post <;> exact this
  · apply Post.map; unfold memory_device.MemoryDevice.try_from; post <;> rfl
  · apply Post.map; unfold memory_error_32.MemoryError32.try_from; post <;> rfl
  · apply Post.map
    unfold memory_array_mapped_address.MemoryArrayMappedAddress.try_from; post <;> rfl
  · apply Post.map
    unfold memory_device_mapped_address.MemoryDeviceMappedAddress.try_from; post <;> rfl
  · apply Post.map
    unfold built_in_pointing_device.BuiltInPointingDevice.try_from; post <;> rfl
  · apply Post.map; unfold portable_battery.PortableBattery.try_from; post <;> rfl
  · exact Post.ok rfl

/-- C57, full statement. -/
def C57_full : Prop := ∀ (oc : Bool) (s : RawStructure) (st : Structure),
  decodeStructure oc s = .ok st → handleOf st = s.handle

/-- C57: the full statement holds of everything but physical memory arrays up to version 2.1. -/
theorem C57_handle_partial (oc : Bool) (s : RawStructure) (st : Structure)
    (h : s.info = .PhysicalMemoryArray → Since s 2 2) (hs : decodeStructure oc s = .ok st) :
    handleOf st = s.handle := handle_post oc s h st hs

/-- C57: those report handle 0. -/
theorem C57_old_array (oc : Bool) (s : RawStructure) (hi : s.info = .PhysicalMemoryArray)
    (h : ¬ Since s 2 2) : ∃ st, decodeStructure oc s = .ok st ∧ handleOf st = 0 := by
  have h2 : ¬ s.version.gt (.ofPair 2 1) = true := fun h' => h ((gt_iff (by decide) (by decide)).1 h')
  have h7 : ¬ s.version.gt (.ofPair 2 7) = true := by
    intro h'
    have := (gt_iff (by decide) (by decide)).1 h'
    apply h
    unfold Since at *
    omega
  unfold decodeStructure
  rw [hi]
  simp only
  unfold physical_memory_array.PhysicalMemoryArray.try_from physical_memory_array.fill2_1
  rw [if_neg h2, pure_eq_ok, ok_bind]
  simp only [if_neg h7]
  exact ⟨_, rfl, rfl⟩

/-- A memory array of version 2.1 with handle 1000h. -/
def oldArray : RawStructure where
  version := ⟨2, 1⟩
  info := .PhysicalMemoryArray
  length := 0x0F
  handle := 0x1000
  data := [3, 3, 3, 0, 0, 1, 0, 0xFE, 0xFF, 2, 0]
  strings := [0, 0]

example : oldArray.info = .PhysicalMemoryArray ∧ ¬ Since oldArray 2 2 := by decide
example : exampleEnclosure.info ≠ .PhysicalMemoryArray := by decide

/-- C57, the full statement fails. -/
theorem C57_full_false : ¬ C57_full := by
  intro hf
  obtain ⟨st, h1, h2⟩ := C57_old_array true oldArray rfl (by decide)
  have := hf true oldArray st h1
  rw [h2] at this
  exact absurd this (by decide)

/-! ### C14 -/

theorem read_bytes_ns {α : Type} (n : Nat) (p : Packed α) (b : Bytes) :
    NS (enclosure.read_bytes n p b) := by
  unfold enclosure.read_bytes; ns

theorem elements_ns (oc : Bool) (b : Bytes) : NS (enclosure.ContainedElements.new oc b) := by
  unfold enclosure.ContainedElements.new enclosure.read_bytes8; ns <;> exact read_bytes_ns _ _ _

theorem optionals_ns (oc : Bool) (b : Bytes) : NS (enclosure.readOptionals oc b) := by
  unfold enclosure.readOptionals enclosure.read_bytes8 enclosure.read_bytes32
  ns <;> first | exact read_bytes_ns _ _ _ | exact elements_ns _ _

theorem configuration_ns (w : UInt16) : NS (cache.CacheConfiguration.ofU16 w) := by
  unfold cache.CacheConfiguration.ofU16
  ns
  · unfold cache.CacheLevel.ofU16; simp only; ns
  · unfold cache.CacheLocation.ofU16; simp only; ns
  · unfold cache.CacheOperationalMode.ofU16; simp only; ns

theorem descriptors_ns (oc : Bool) (s : RawStructure) (n l : Option UInt8) :
    NS (system_event_log.descriptors oc s n l) := by
  unfold system_event_log.descriptors system_event_log.SupportedEventLogTypeDescriptors.new; ns

theorem word_ns (p : Nat) (b : Bytes) : NS (physical_memory_array.get_word p b) := by
  unfold physical_memory_array.get_word; ns
theorem dword_ns (p : Nat) (b : Bytes) : NS (physical_memory_array.get_dword p b) := by
  unfold physical_memory_array.get_dword; ns
theorem qword_ns (p : Nat) (b : Bytes) : NS (physical_memory_array.get_qword p b) := by
  unfold physical_memory_array.get_qword; ns
theorem optional_word_ns (p : Nat) (b : Bytes) (n) :
    NS (physical_memory_array.get_optional_word p b n) := by
  unfold physical_memory_array.get_optional_word; ns; exact word_ns _ _
theorem optional_dword_ns (p : Nat) (b : Bytes) (n) :
    NS (physical_memory_array.get_optional_dword p b n) := by
  unfold physical_memory_array.get_optional_dword; ns; exact dword_ns _ _
theorem optional_qword_ns (p : Nat) (b : Bytes) (n) :
    NS (physical_memory_array.get_optional_qword p b n) := by
  unfold physical_memory_array.get_optional_qword; ns; exact qword_ns _ _
theorem array_ns (s : RawStructure) (x) (p : Nat) : NS (physical_memory_array.fill2_1 s x p) := by
  unfold physical_memory_array.fill2_1
  ns <;> first | exact word_ns _ _ | exact optional_word_ns _ _ _ | exact optional_dword_ns _ _ _

theorem decode_ns (oc : Bool) (s : RawStructure) : NS (decodeStructure oc s) := by
  unfold decodeStructure
  split
  · apply Errs.map; unfold bios.Bios.try_from; ns
  · apply Errs.map; unfold system.System.try_from; ns
  · apply Errs.map; unfold baseboard.BaseBoard.try_from; ns
  · apply Errs.map; unfold enclosure.Enclosure.try_from enclosure.findSku; ns; exact optionals_ns _ _
  · apply Errs.map; unfold processor.Processor.try_from; ns
  · apply Errs.map; unfold cache.Cache.try_from; ns <;> exact configuration_ns _
  · apply Errs.map; unfold port_connector.PortConnector.try_from; ns
  · apply Errs.map; unfold system_slots.SystemSlots.try_from system_slots.SystemSlots.decode; ns
  · apply Errs.map; unfold oem_strings.OemStrings.try_from; ns
  · apply Errs.map
    unfold system_configuration_options.SystemConfigurationOptions.try_from; ns
  · apply Errs.map; unfold bios_language.BiosLanguage.try_from; ns
  · apply Errs.map; unfold group_associations.GroupAssociations.try_from; ns
  · apply Errs.map
    unfold system_event_log.SystemEventLog.try_from system_event_log.SystemEventLog.decode; ns
    exact descriptors_ns _ _ _ _
  · apply Errs.map
    unfold physical_memory_array.PhysicalMemoryArray.try_from
    ns <;> first | exact array_ns _ _ _ | exact optional_qword_ns _ _ _
  · apply Errs.map; unfold memory_device.MemoryDevice.try_from; ns
  · apply Errs.map; unfold memory_error_32.MemoryError32.try_from; ns
  · apply Errs.map
    unfold memory_array_mapped_address.MemoryArrayMappedAddress.try_from; ns
  · apply Errs.map
    unfold memory_device_mapped_address.MemoryDeviceMappedAddress.try_from; ns
  · apply Errs.map
    unfold built_in_pointing_device.BuiltInPointingDevice.try_from; ns
  · apply Errs.map; unfold portable_battery.PortableBattery.try_from portable_battery.optString; ns
  · exact Errs.ok

/-- The structural errors `next` yields, with the header of the structure inside table and buffer. -/
theorem next_structural (oc : Bool) (s s' : Structures) (hb : s.buffer.length < 2 ^ 32)
    (hi : s.idx.toNat + 256 < 2 ^ 32) (ht : s.idx.toNat + 4 ≤ s.smbios_len.toNat)
    (hh : s.idx.toNat + 4 ≤ s.buffer.length) (e : MalformedStructureError) (he : ¬ NotStructural e) :
    s.next oc = .ok (some (.error e), s') ↔ s' = { s with smbios_len := s.idx } ∧
      let l := byteAt s.buffer (s.idx.toNat + 1)
      if s.smbios_len.toNat ≤ s.idx.toNat + l.toNat then e = .BadSize s.idx l
      else s.idx.toNat + l.toNat ≤ s.buffer.length ∧
        findNulNul (s.buffer.drop (s.idx.toNat + l.toNat)) = none ∧ e = .UnterminatedStrings s.idx := by
  have hl256 := (byteAt s.buffer (s.idx.toNat + 1)).toNat_lt
  unfold Structures.next
  rw [next_raw_eval oc s hb (by omega) (by intro; omega)]
  simp only
  generalize hL : byteAt s.buffer (s.idx.toNat + 1) = l at *
  rw [if_neg (by omega), if_neg (by omega), if_neg (by omega)]
  split
  · simp only [ok_bind, pure_eq_ok, Res.ok.injEq, Prod.mk.injEq, Option.some.injEq,
      Except.error.injEq]
    constructor
    · rintro ⟨h1, h2⟩; exact ⟨h2.symm, h1.symm⟩
    · rintro ⟨h1, h2⟩; exact ⟨h2.symm, h1.symm⟩
  split
  · simp only [panic_bind]
    constructor
    · intro h; cases h
    · rintro ⟨-, h, -⟩; omega
  split
  · rename_i hf
    simp only [ok_bind, pure_eq_ok, Res.ok.injEq, Prod.mk.injEq, Option.some.injEq,
      Except.error.injEq, hf]
    constructor
    · rintro ⟨h1, h2⟩; exact ⟨h2.symm, by omega, trivial, h1.symm⟩
    · rintro ⟨h1, -, -, h2⟩; exact ⟨h2.symm, h1.symm⟩
  · rename_i t hf
    constructor
    · intro h
      exfalso
      split at h
      · cases h
      · simp only [ok_bind, bind_ok_iff, pure_eq_ok, Res.ok.injEq, Prod.mk.injEq, Option.some.injEq]
          at h
        obtain ⟨it, h1, h2, -⟩ := h
        rw [h2] at h1
        generalize hr : decodeStructure oc _ = r at h1
        cases r with
        | ok a => cases h1
        | err e' =>
          cases h1
          exact he (decode_ns _ _ _ hr)
        | panic => cases h1
        | ub => cases h1
    · rintro ⟨-, -, h, -⟩
      rw [hf] at h; cases h

/-- C14: `BadSize(o, l)` is yielded exactly if `o` is the offset of the current structure, `l` its
declared formatted length, and the formatted area does not end before the declared table length. -/
theorem C14_bad_size (oc : Bool) (s : Structures) (hb : s.buffer.length < 2 ^ 32)
    (hi : s.idx.toNat + 256 < 2 ^ 32) (ht : s.idx.toNat + 4 ≤ s.smbios_len.toNat)
    (hh : s.idx.toNat + 4 ≤ s.buffer.length) (o : UInt32) (l : UInt8) :
    (∃ s', s.next oc = .ok (some (.error (.BadSize o l)), s')) ↔
      o = s.idx ∧ l = byteAt s.buffer (s.idx.toNat + 1) ∧
      s.smbios_len.toNat ≤ s.idx.toNat + l.toNat := by
  constructor
  · rintro ⟨s', h⟩
    have h' := (next_structural oc s s' hb hi ht hh (.BadSize _ _) (fun h => h)).1 h
    simp only at h'
    obtain ⟨-, h'⟩ := h'
    split at h'
    · cases h'; exact ⟨rfl, rfl, ‹_›⟩
    · obtain ⟨-, -, h'⟩ := h'; cases h'
  · rintro ⟨rfl, rfl, h⟩
    refine ⟨{ s with smbios_len := s.idx }, (next_structural oc s _ hb hi ht hh (.BadSize _ _) (fun h => h)).2 ⟨rfl, ?_⟩⟩
    simp only
    rw [if_pos h]; trivial

/-- C14: `UnterminatedStrings(o)` is yielded exactly if `o` is the offset of the current structure,
its formatted area ends before the declared table length (and inside the buffer), and no two adjacent
zero bytes follow it in the buffer. -/
theorem C14_unterminated (oc : Bool) (s : Structures) (hb : s.buffer.length < 2 ^ 32)
    (hi : s.idx.toNat + 256 < 2 ^ 32) (ht : s.idx.toNat + 4 ≤ s.smbios_len.toNat)
    (hh : s.idx.toNat + 4 ≤ s.buffer.length) (o : UInt32) (l : Nat)
    (hl : l = (byteAt s.buffer (s.idx.toNat + 1)).toNat) :
    (∃ s', s.next oc = .ok (some (.error (.UnterminatedStrings o)), s')) ↔
      o = s.idx ∧ s.idx.toNat + l < s.smbios_len.toNat ∧ s.idx.toNat + l ≤ s.buffer.length ∧
      ∀ x y, s.buffer.drop (s.idx.toNat + l) ≠ x ++ [0, 0] ++ y := by
  subst hl
  constructor
  · rintro ⟨s', h⟩
    have h' := (next_structural oc s s' hb hi ht hh (.UnterminatedStrings _) (fun h => h)).1 h
    simp only at h'
    obtain ⟨-, h'⟩ := h'
    split at h'
    · cases h'
    · obtain ⟨h1, h2, h3⟩ := h'
      cases h3
      exact ⟨rfl, by omega, h1, findNulNul_none h2⟩
  · rintro ⟨rfl, h1, h2, h3⟩
    refine ⟨{ s with smbios_len := s.idx }, (next_structural oc s _ hb hi ht hh (.UnterminatedStrings _) (fun h => h)).2 ⟨rfl, ?_⟩⟩
    simp only
    rw [if_neg (by omega)]
    refine ⟨h2, ?_, trivial⟩
    cases hf : findNulNul (s.buffer.drop (s.idx.toNat + (byteAt s.buffer (s.idx.toNat + 1)).toNat)) with
    | none => rfl
    | some t =>
      obtain ⟨⟨⟨x, hx⟩, -⟩, -⟩ := findNulNul_some hf
      exact absurd (by rw [← hx, List.take_append_drop]) (h3 x _)

/-- A structure of declared length 9 in a table of declared length 9. -/
def overlongTable : Structures := ⟨⟨2, 8⟩, 9, 0, [200, 9, 1, 0, 1, 2, 3, 4, 5, 0, 0]⟩
/-- A structure whose string area has no end. -/
def unterminatedTable : Structures := ⟨⟨2, 8⟩, 9, 0, [200, 5, 1, 0, 1, 0, 65, 66, 0]⟩

example : overlongTable.next true =
    .ok (some (.error (.BadSize 0 9)), { overlongTable with smbios_len := 0 }) := by rfl
example : unterminatedTable.next true =
    .ok (some (.error (.UnterminatedStrings 0)), { unterminatedTable with smbios_len := 0 }) := by rfl
example : overlongTable.idx.toNat + 256 < 2 ^ 32 ∧
    overlongTable.idx.toNat + 4 ≤ overlongTable.smbios_len.toNat ∧
    overlongTable.idx.toNat + 4 ≤ overlongTable.buffer.length := by decide

/-! ### C55 -/

theorem read_bytes_noUb {α : Type} {n : Nat} {p : Packed α} (hp : p.Consumes n) (b : Bytes) :
    NoUb (enclosure.read_bytes n p b) := by
  unfold enclosure.read_bytes
  refine .ite (fun _ => .ok) fun h => .bind ?_ fun _ _ => .bind (indexFrom_noUb _ _) fun _ _ => .ok
  rw [NoUb, Ne, letAsStruct_ub_iff hp]
  exact h

theorem elements_noUb (oc : Bool) (b : Bytes) : NoUb (enclosure.ContainedElements.new oc b) := by
  unfold enclosure.ContainedElements.new enclosure.read_bytes8
  no_ub <;> exact read_bytes_noUb .u8 _

theorem optionals_noUb (oc : Bool) (b : Bytes) : NoUb (enclosure.readOptionals oc b) := by
  unfold enclosure.readOptionals enclosure.read_bytes8 enclosure.read_bytes32
  no_ub <;> first
    | exact read_bytes_noUb .u8 _ | exact read_bytes_noUb .u32 _ | exact elements_noUb _ _

theorem enclosure_noUb (oc : Bool) (s : RawStructure) : NoUb (enclosure.Enclosure.try_from oc s) := by
  unfold enclosure.Enclosure.try_from enclosure.EnclosurePacked2_0.size
  refine .ite (fun _ => .err) fun h => ?_
  simp only [enclosure_packed (s := s) (by unfold Fits; omega), ok_bind]
  unfold enclosure.findSku
  no_ub
  exact optionals_noUb _ _

theorem descriptors_noUb (oc : Bool) (s : RawStructure) (n l : Option UInt8) :
    NoUb (system_event_log.descriptors oc s n l) := by
  unfold system_event_log.descriptors system_event_log.SupportedEventLogTypeDescriptors.new; no_ub

theorem word_noUb (p : Nat) (b : Bytes) : NoUb (physical_memory_array.get_word p b) := by
  unfold physical_memory_array.get_word; no_ub
theorem dword_noUb (p : Nat) (b : Bytes) : NoUb (physical_memory_array.get_dword p b) := by
  unfold physical_memory_array.get_dword; no_ub
theorem qword_noUb (p : Nat) (b : Bytes) : NoUb (physical_memory_array.get_qword p b) := by
  unfold physical_memory_array.get_qword; no_ub
theorem optional_word_noUb (p : Nat) (b : Bytes) (n) :
    NoUb (physical_memory_array.get_optional_word p b n) := by
  unfold physical_memory_array.get_optional_word; no_ub; exact word_noUb _ _
theorem optional_dword_noUb (p : Nat) (b : Bytes) (n) :
    NoUb (physical_memory_array.get_optional_dword p b n) := by
  unfold physical_memory_array.get_optional_dword; no_ub; exact dword_noUb _ _
theorem optional_qword_noUb (p : Nat) (b : Bytes) (n) :
    NoUb (physical_memory_array.get_optional_qword p b n) := by
  unfold physical_memory_array.get_optional_qword; no_ub; exact qword_noUb _ _
theorem array_noUb (s : RawStructure) (x) (p : Nat) :
    NoUb (physical_memory_array.fill2_1 s x p) := by
  unfold physical_memory_array.fill2_1
  no_ub <;> first
    | exact word_noUb _ _ | exact optional_word_noUb _ _ _ | exact optional_dword_noUb _ _ _

/-- Only the decoders of seven types read without a check. -/
theorem decode_noUb (oc : Bool) (s : RawStructure) (hm : s.info ∉ [InfoType.Bios, .System, .BaseBoard,
    .Processor, .Cache, .PortConnector, .BiosLanguage]) : decodeStructure oc s ≠ .ub := by
  show NoUb _
  unfold decodeStructure
  split <;> rename_i he <;> first | (rw [he] at hm; exact absurd (by decide) hm) | skip
  · exact .map (enclosure_noUb oc s)
  · apply NoUb.map; unfold system_slots.SystemSlots.try_from system_slots.SystemSlots.decode; no_ub
  · apply NoUb.map; unfold oem_strings.OemStrings.try_from; no_ub
  · apply NoUb.map
    unfold system_configuration_options.SystemConfigurationOptions.try_from; no_ub
  · apply NoUb.map; unfold group_associations.GroupAssociations.try_from; no_ub
  · apply NoUb.map
    unfold system_event_log.SystemEventLog.try_from system_event_log.SystemEventLog.decode; no_ub
    exact descriptors_noUb _ _ _ _
  · apply NoUb.map
    unfold physical_memory_array.PhysicalMemoryArray.try_from
    no_ub <;> first | exact array_noUb _ _ _ | exact optional_qword_noUb _ _ _
  · apply NoUb.map; unfold memory_device.MemoryDevice.try_from; no_ub
  · apply NoUb.map; unfold memory_error_32.MemoryError32.try_from; no_ub
  · apply NoUb.map
    unfold memory_array_mapped_address.MemoryArrayMappedAddress.try_from; no_ub
  · apply NoUb.map
    unfold memory_device_mapped_address.MemoryDeviceMappedAddress.try_from; no_ub
  · apply NoUb.map
    unfold built_in_pointing_device.BuiltInPointingDevice.try_from; no_ub
  · apply NoUb.map; unfold portable_battery.PortableBattery.try_from portable_battery.optString; no_ub
  · exact NoUb.ok

/-- C55: decoding a structure of type 3, 9, 11, 12, 14, 15, 16, 17, 18, 19, 20, 21 or 22, whatever its
version, length, contents and strings, reads nothing outside its slices. -/
theorem C55_memory_safe (oc : Bool) (s : RawStructure) (k : UInt8)
    (hk : k.toNat ∈ [3, 9, 11, 12, 14, 15, 16, 17, 18, 19, 20, 21, 22])
    (hi : s.info = InfoType.ofU8 k) : decodeStructure oc s ≠ .ub := by
  have hcases : ∀ k : UInt8, k.toNat ∈ [3, 9, 11, 12, 14, 15, 16, 17, 18, 19, 20, 21, 22] →
      InfoType.ofU8 k ∉ [InfoType.Bios, .System, .BaseBoard, .Processor, .Cache, .PortConnector,
        .BiosLanguage] := forall_u8 (by decide +kernel)
  exact decode_noUb oc s (hi ▸ hcases k hk)

example : exampleEnclosure.info = InfoType.ofU8 3 := by decide

end Dmi.Props
