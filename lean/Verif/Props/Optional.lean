import Verif.Props.Versions
/-!
# C101: optional fields and the version that defined them

"Optional fields will only be set if the version of the parsed SMBIOS table is high enough to have
defined the field."
-/
namespace Dmi.Props
open Spec

/-- The optional fields of a structure: the version of the standard (DSP0134, section 7) that defined
the field, and whether the field is set. The standard gives no versions for the fields of a
baseboard. -/
def optionalFields : Structure → List ((Nat × Nat) × Bool)
  | .Bios b => [((2, 4), b.bios_characteristics_exttension_1.isSome),
      ((2, 4), b.bios_characteristics_exttension_2.isSome), ((2, 4), b.bios_revision.isSome),
      ((2, 4), b.firmware_revision.isSome), ((3, 1), b.rom_size.extended.isSome)]
  | .System y => [((2, 1), y.uuid.isSome), ((2, 1), y.wakeup.isSome), ((2, 4), y.sku.isSome),
      ((2, 4), y.family.isSome)]
  | .Enclosure e => [((2, 1), e.boot_up_state.isSome), ((2, 1), e.power_supply_state.isSome),
      ((2, 1), e.thermal_state.isSome), ((2, 1), e.security_status.isSome),
      ((2, 3), e.oem_defined.isSome), ((2, 3), e.height.isSome), ((2, 3), e.power_cords_number.isSome),
      ((2, 3), e.contained_elements.isSome), ((2, 7), e.sku_number.isSome)]
  | .Processor p => [((2, 1), p.l1_cache_handle.isSome), ((2, 1), p.l2_cache_handle.isSome),
      ((2, 1), p.l3_cache_handle.isSome), ((2, 3), p.serial_number.isSome),
      ((2, 3), p.asset_tag.isSome), ((2, 3), p.part_number.isSome), ((2, 5), p.core_count.isSome),
      ((2, 5), p.core_enabled.isSome), ((2, 5), p.thread_count.isSome),
      ((2, 5), p.processor_characteristics.isSome)]
  | .Cache c => [((2, 1), c.cache_speed.isSome), ((2, 1), c.error_correction_type.isSome),
      ((2, 1), c.system_cache_type.isSome), ((2, 1), c.associativity.isSome),
      ((3, 1), c.maximum_cache_size_2.isSome), ((3, 1), c.installed_size_2.isSome)]
  | .SystemSlots t => [((2, 1), t.slot_characteristics_2.isSome),
      ((2, 6), t.segment_group_number.isSome), ((2, 6), t.bus_number.isSome),
      ((2, 6), t.device_and_function_number.isSome), ((3, 2), t.data_bus_width.isSome),
      ((3, 2), t.peer_devices.isSome), ((3, 4), t.slot_information.isSome),
      ((3, 4), t.slot_physical_width.isSome), ((3, 4), t.slot_pitch.isSome)]
  | .BiosLanguage l => [((2, 1), l.flags.isSome)]
  | .SystemEventLog l => [((2, 1), l.log_header_format.isSome),
      ((2, 1), l.supported_event_log_type_descriptors.isSome)]
  | .PhysicalMemoryArray a => [((2, 1), a.maximum_capacity.isSome),
      ((2, 1), a.memory_error_information_handle.isSome),
      ((2, 7), a.extended_maximum_capacity.isSome)]
  | .MemoryDevice d => [((2, 1), d.memory_error_handle.isSome), ((2, 1), d.total_width.isSome),
      ((2, 1), d.data_width.isSome), ((2, 1), d.size.isSome), ((2, 1), d.device_set.isSome),
      ((2, 3), d.speed.isSome), ((2, 7), d.configured_memory_speed.isSome),
      ((2, 8), d.minimum_voltage.isSome), ((2, 8), d.maximum_voltage.isSome),
      ((2, 8), d.configured_voltage.isSome), ((3, 2), d.memory_technology.isSome),
      ((3, 2), d.operating_mode_capability.isSome), ((3, 2), d.firmware_version.isSome),
      ((3, 2), d.module_manufacturer.isSome), ((3, 2), d.module_product_id.isSome),
      ((3, 2), d.memory_subsystem_controller_manufacturer_id.isSome),
      ((3, 2), d.memory_subsystem_controller_product_id.isSome), ((3, 2), d.non_volatile_size.isSome),
      ((3, 2), d.volatile_size.isSome), ((3, 2), d.cache_size.isSome), ((3, 2), d.logical_size.isSome),
      ((3, 3), d.extended_speed.isSome), ((3, 3), d.extended_configured_memory_speed.isSome)]
  | .MemoryArrayMappedAddress a => [((2, 7), a.extended_starting_address.isSome),
      ((2, 7), a.extended_ending_address.isSome)]
  | .MemoryDeviceMappedAddress a => [((2, 7), a.extended_starting_address.isSome),
      ((2, 7), a.extended_ending_address.isSome)]
  | .PortableBattery b => [
      ((2, 2), match b.manufacture_date with | .SmartBatteryDataSpecification .. => true | _ => false),
      ((2, 2), match b.serial_number with | .SmartBatteryDataSpecification _ => true | _ => false),
      ((2, 2), match b.device_chemistry with | .SmartBatteryDataSpecification _ => true | _ => false),
      ((2, 2), b.oem_specific.isSome)]
  | _ => []

/-- Every optional field that is set was defined by the version of the table. -/
def OnlyDefined (s : RawStructure) (x : Structure) : Prop :=
  ∀ v b, (((v : Nat × Nat), b) ∈ optionalFields x) → b = true → Since s v.1 v.2

/-- C101 as documented. -/
def C101_full : Prop := ∀ (oc : Bool) (s : RawStructure) (x : Structure), Coherent s →
  decodeStructure oc s = .ok x → OnlyDefined s x

/-- The types and versions the statement holds for. Enclosures and memory devices are decoded by
their length alone, so it holds only where the last field is defined. The lengths of slots are
checked from 2.0 on, but not enough for 3.2 and 3.3; those of event logs from 2.0 on; those of
mapped addresses and batteries from 2.1 on. -/
def VersionChecked (s : RawStructure) : Prop :=
  match s.info with
  | .Enclosure => Since s 2 7
  | .MemoryDevice => Since s 3 3
  | .SystemSlots => Since s 2 0 ∧ (Since s 3 2 → Since s 3 4)
  | .SystemEventLog => Since s 2 0
  | .MemoryArrayMappedAddress | .MemoryDeviceMappedAddress | .PortableBattery => Since s 2 1
  | _ => True

instance (s : RawStructure) : Decidable (VersionChecked s) := by
  unfold VersionChecked; split <;> infer_instance

theorem when_some {α : Type} {c : Prop} {o : Option α} {P : α → Prop} (h : When c o P)
    (ho : o.isSome = true) : c := by
  rcases h with ⟨h, -⟩ | ⟨-, rfl⟩
  · exact h
  · cases ho

theorem later {α : Type} {s : RawStructure} {a b a' b' : Nat} {o : Option α} {P : α → Prop}
    (h : When (Since s a' b') o P) (hv : a < a' ∨ a = a' ∧ b ≤ b') (ho : o.isSome = true) :
    Since s a b := since_mono (when_some h ho) hv

theorem version_eq {s : RawStructure} {a b : UInt8} (h : Since s a.toNat b.toNat)
    (n : ¬ Since s a.toNat (b.toNat + 1)) : s.version = ⟨a, b⟩ := by
  unfold Since at h n
  have e1 : s.version.major.toNat = a.toNat := by omega
  have e2 : s.version.minor.toNat = b.toNat := by omega
  rw [← UInt8.toNat_inj.1 e1, ← UInt8.toNat_inj.1 e2]

theorem onlyDefined_cons {s : RawStructure} {l : List ((Nat × Nat) × Bool)} {a b : Nat} {p : Bool}
    (h : p = true → Since s a b) (hl : ∀ v b, (v, b) ∈ l → b = true → Since s v.1 v.2) :
    ∀ v b', (v, b') ∈ ((a, b), p) :: l → b' = true → Since s v.1 v.2 := by
  intro v b' hm hb
  rcases List.mem_cons.1 hm with e | e
  · cases e; exact h hb
  · exact hl v b' e hb

theorem onlyDefined_nil {s : RawStructure} :
    ∀ v b, (v, b) ∈ ([] : List ((Nat × Nat) × Bool)) → b = true → Since s v.1 v.2 := by
  intro v b h; cases h

/-- From the last of the versions on there is nothing to show. -/
theorem onlyDefined_late {s : RawStructure} {x : Structure} {a b : Nat} (h : Since s a b)
    (hl : ((optionalFields x).all fun f => decide (f.1.1 < a ∨ f.1.1 = a ∧ f.1.2 ≤ b)) = true) :
    OnlyDefined s x := by
  intro v p hm _
  have : v.1 < a ∨ v.1 = a ∧ v.2 ≤ b := of_decide_eq_true (List.all_eq_true.1 hl _ hm)
  unfold Since at *
  omega

variable {oc : Bool} {s : RawStructure}

theorem optional_bios {a : bios.Bios} (ha : bios.Bios.try_from s = .ok a) :
    OnlyDefined s (.Bios a) := by
  have fa : Fits s (biosLength s) := Classical.byContradiction fun h => by
    rw [C29_short s h] at ha; cases ha
  have A := (C29_decodes s fa a).1 ha
  refine onlyDefined_cons (when_some A.extension_1) (onlyDefined_cons (when_some A.extension_2)
    (onlyDefined_cons (when_some A.bios_revision) (onlyDefined_cons (when_some A.firmware_revision)
    (onlyDefined_cons (fun h => ?_) onlyDefined_nil))))
  rw [A.rom_size] at h
  dsimp only at h
  split at h
  · assumption
  · cases h

theorem optional_system {a : system.System} (ha : system.System.try_from s = .ok a) :
    OnlyDefined s (.System a) := by
  have fa : Fits s (systemLength s) := Classical.byContradiction fun h => by
    rw [C31_short s h] at ha; cases ha
  have A := (C31_decodes s fa a).1 ha
  exact onlyDefined_cons (when_some A.uuid) (onlyDefined_cons (when_some A.wakeup)
    (onlyDefined_cons (when_some A.sku) (onlyDefined_cons (when_some A.family) onlyDefined_nil)))

theorem optional_processor {a : processor.Processor} (ha : processor.Processor.try_from s = .ok a) :
    OnlyDefined s (.Processor a) := by
  have fa : Fits s (processorLength s) := Classical.byContradiction fun h => by
    rw [C35_short s h] at ha; cases ha
  have A := (C35_decodes s fa a).1 ha
  exact onlyDefined_cons (when_some A.l1_cache_handle) (onlyDefined_cons (when_some A.l2_cache_handle)
    (onlyDefined_cons (when_some A.l3_cache_handle) (onlyDefined_cons (when_some A.serial_number)
    (onlyDefined_cons (when_some A.asset_tag) (onlyDefined_cons (when_some A.part_number)
    (onlyDefined_cons (when_some A.core_count) (onlyDefined_cons (when_some A.core_enabled)
    (onlyDefined_cons (when_some A.thread_count)
    (onlyDefined_cons (later A.processor_characteristics (by decide)) onlyDefined_nil)))))))))

theorem optional_cache {a : cache.Cache} (ha : cache.Cache.try_from s = .ok a) :
    OnlyDefined s (.Cache a) := by
  have va : Since s 2 1 := Classical.byContradiction fun h => by
    rw [(C37_faults s).1.2 h] at ha; cases ha
  have fa : Fits s (cacheReads s) := Classical.byContradiction fun h => by
    rw [(C37_faults s).2.2 ⟨va, h⟩] at ha; cases ha
  have A := (C37_decodes s va fa a).1 ha
  exact onlyDefined_cons (later A.cache_speed (by decide)) (onlyDefined_cons (later A.error_correction_type (by decide))
    (onlyDefined_cons (later A.system_cache_type (by decide)) (onlyDefined_cons (later A.associativity (by decide))
    (onlyDefined_cons (later A.maximum_cache_size_2 (by decide))
    (onlyDefined_cons (later A.installed_size_2 (by decide)) onlyDefined_nil)))))

theorem optional_language {a : bios_language.BiosLanguage}
    (ha : bios_language.BiosLanguage.try_from s = .ok a) : OnlyDefined s (.BiosLanguage a) := by
  have fa : Fits s (languageLength s) := Classical.byContradiction fun h => by
    rw [C43_short s h] at ha; cases ha
  obtain ⟨_, ha', A⟩ := C43_decodes s fa
  rw [ha] at ha'
  cases ha'
  exact onlyDefined_cons (when_some A.flags) onlyDefined_nil

theorem optional_array {a : physical_memory_array.PhysicalMemoryArray}
    (ha : physical_memory_array.PhysicalMemoryArray.try_from s = .ok a) :
    OnlyDefined s (.PhysicalMemoryArray a) := by
  by_cases hs : Since s 2 2
  · have fa : ArrayFits s := Classical.byContradiction fun h => by
      rw [C47_short s hs h] at ha; cases ha
    have A := (C47_decodes s hs fa a).1 ha
    have h1 : Since s 2 1 := since_mono hs (by decide)
    exact onlyDefined_cons (fun _ => h1) (onlyDefined_cons (fun _ => h1) (onlyDefined_cons
      (fun h => since_mono (when_some A.extended_maximum_capacity h).1 (by decide)) onlyDefined_nil))
  · rw [C47_old s hs] at ha
    cases ha
    exact onlyDefined_cons (fun h => nomatch h) (onlyDefined_cons (fun h => nomatch h)
      (onlyDefined_cons (fun h => nomatch h) onlyDefined_nil))

theorem optional_slots {a : system_slots.SystemSlots} (h0 : Since s 2 0)
    (h4 : Since s 3 2 → Since s 3 4) (ha : system_slots.SystemSlots.try_from oc s = .ok a) :
    OnlyDefined s (.SystemSlots a) := by
  obtain ⟨r1, r2, r3, r4, -⟩ := C40_rejects oc s
  have hl : SlotLengthOk s :=
    ⟨fun x y => Decidable.byContradiction fun z => (by rw [r1 x y z] at ha; cases ha),
     fun x y => Decidable.byContradiction fun z => (by rw [r2 x y z] at ha; cases ha),
     fun x y => Decidable.byContradiction fun z => (by rw [r3 x y z] at ha; cases ha),
     fun x => Decidable.byContradiction fun z => by rw [r4 x (by omega)] at ha; cases ha⟩
  have A := (C40_decodes oc s hl (slots_fits hl h0) a).1 ha
  obtain ⟨l1, l2, l3, -⟩ := hl
  have k1 : Fits s 0x0D → Since s 2 1 := fun h => Decidable.byContradiction fun n => by
    have := l1 h0 n; unfold Fits at h; omega
  have k2 : Fits s 0x0F → Since s 2 6 := fun h => Decidable.byContradiction fun n => by
    have := l2 (k1 (fits_mono h (by decide))) n; unfold Fits at h; omega
  have k3 : Fits s 0x12 → Since s 3 4 := fun h => h4 (Decidable.byContradiction fun n => by
    have := l3 (k2 (fits_mono h (by decide))) n; unfold Fits at h; omega)
  have k4 : Fits s 0x12 → Since s 3 2 := fun h => since_mono (k3 h) (by decide)
  have m : ∀ {n}, Fits s (0x12 + n) → Fits s 0x12 := fun h => by unfold Fits at *; omega
  refine onlyDefined_cons (fun h => k1 (when_some A.slot_characteristics_2 h))
    (onlyDefined_cons (fun h => k2 (when_some A.segment_group_number h).1)
    (onlyDefined_cons (fun h => k2 (fits_mono (when_some A.bus_number h).1 (by decide)))
    (onlyDefined_cons (fun h => k2 (fits_mono (when_some A.device_and_function_number h).1 (by decide)))
    (onlyDefined_cons (fun h => k4 (when_some A.data_bus_width h))
    (onlyDefined_cons (fun h => k4 ?_) (onlyDefined_cons (fun h => k3 ?_)
    (onlyDefined_cons (fun h => k3 ?_) (onlyDefined_cons (fun h => k3 ?_) onlyDefined_nil))))))))
  · have := when_some A.peer_devices h; unfold Fits at *; omega
  · have := when_some A.slot_information h; unfold Fits at *; omega
  · have := when_some A.slot_physical_width h; unfold Fits at *; omega
  · have := when_some A.slot_pitch h; unfold Fits at *; omega

theorem optional_event_log {a : system_event_log.SystemEventLog} (h0 : Since s 2 0)
    (ha : system_event_log.SystemEventLog.try_from oc s = .ok a) :
    OnlyDefined s (.SystemEventLog a) := by
  by_cases h1 : Since s 2 1
  · exact onlyDefined_cons (fun _ => h1) (onlyDefined_cons (fun _ => h1) onlyDefined_nil)
  have hv : s.version = ⟨2, 0⟩ := version_eq h0 h1
  have hlen : s.data.length + 4 = 0x14 := Decidable.byContradiction fun n => by
    rw [(C45_rejects oc s).1 hv n] at ha; cases ha
  have n15 : ¬ Fits s 0x15 := fun h => by unfold Fits at h; omega
  have n17 : ¬ Fits s 0x17 := fun h => by unfold Fits at h; omega
  have A := (C45_decodes oc s ⟨fun _ => hlen, fun h => absurd h h1⟩ (by unfold Fits; omega)
    (fun h => absurd h n17) a).1 ha
  exact onlyDefined_cons (fun h => absurd (when_some A.log_header_format h) n15)
    (onlyDefined_cons (fun h => absurd (when_some A.descriptors h).1 n17) onlyDefined_nil)

theorem optional_battery {a : portable_battery.PortableBattery} (hc : Coherent s) (h1 : Since s 2 1)
    (ha : portable_battery.PortableBattery.try_from oc s = .ok a) :
    OnlyDefined s (.PortableBattery a) := by
  by_cases h2 : Since s 2 2
  · exact onlyDefined_late (a := 2) (b := 2) h2 rfl
  have hv : s.version = ⟨2, 1⟩ := version_eq h1 h2
  have hlen : s.length = 0x10 := Decidable.byContradiction fun n => by
    rw [(C52_rejects oc s).1 hv n] at ha; cases ha
  have hd : s.data.length + 4 = 0x10 := by
    unfold Coherent at hc; rw [hlen] at hc; exact hc
  have A := (C52_decodes oc s ⟨fun _ => hlen, fun h => absurd h h2⟩ (by unfold Fits; omega) a).1 ha
  have no : ∀ {n}, 0x10 < n → ¬ Fits s n := fun h k => by unfold Fits at k; omega
  refine onlyDefined_cons (fun h => ?_) (onlyDefined_cons (fun h => ?_) (onlyDefined_cons (fun h => ?_)
    (onlyDefined_cons (fun h => absurd (when_some A.oem_specific h) (no (by decide))) onlyDefined_nil)))
  · rcases A.manufacture_date with ⟨x, -, e⟩ | ⟨-, k, -⟩ | ⟨-, -, e⟩
    · rw [e] at h; cases h
    · exact absurd k (no (by decide))
    · rw [e] at h; cases h
  · rcases A.serial_number with ⟨x, -, e⟩ | ⟨-, k, -⟩ | ⟨-, -, e⟩
    · rw [e] at h; cases h
    · exact absurd k (no (by decide))
    · rw [e] at h; cases h
  · have k := A.device_chemistry
    unfold ChemistryIs at k
    split at k
    · rcases k with ⟨x, k, -⟩ | ⟨-, e⟩
      · exact absurd k (no (by decide))
      · rw [e] at h; cases h
    · exfalso
      have key : ∀ b : UInt8, ∀ c, c = ((chemistries.lookup b.toNat).getD (.Undefined b)) →
          (match c with | .SmartBatteryDataSpecification _ => true | _ => false) = false := by
        rintro b c rfl
        exact forall_u8 (P := fun b => (match ((chemistries.lookup b.toNat).getD (.Undefined b)) with
          | .SmartBatteryDataSpecification _ => true | _ => false) = false) (by decide +kernel) b
      exact absurd h (by rw [key _ _ k]; decide)

/-- C101: the documented promise holds for BIOS, system, processor, cache, BIOS language and memory
array structures of every version, and for the others where the version is checked. -/
theorem C101_partial (oc : Bool) (s : RawStructure) (x : Structure) (hc : Coherent s)
    (hv : VersionChecked s) (h : decodeStructure oc s = .ok x) : OnlyDefined s x := by
  unfold decodeStructure at h
  unfold VersionChecked at hv
  cases hinfo : s.info <;> simp only [hinfo] at h hv <;>
    first
    | (cases h; exact onlyDefined_nil)
    | (obtain ⟨y, hy, rfl⟩ := map_ok h)
  case Bios => exact optional_bios hy
  case System => exact optional_system hy
  case Processor => exact optional_processor hy
  case Cache => exact optional_cache hy
  case BiosLanguage => exact optional_language hy
  case PhysicalMemoryArray => exact optional_array hy
  case Enclosure => exact onlyDefined_late (a := 2) (b := 7) hv rfl
  case MemoryDevice => exact onlyDefined_late (a := 3) (b := 3) hv rfl
  case SystemSlots => exact optional_slots hv.1 hv.2 hy
  case SystemEventLog => exact optional_event_log hv hy
  case MemoryArrayMappedAddress =>
    obtain ⟨e1, e2⟩ := C50_array_extended oc s hc hv y hy
    exact onlyDefined_cons (when_some e1) (onlyDefined_cons (when_some e2) onlyDefined_nil)
  case MemoryDeviceMappedAddress =>
    obtain ⟨e1, e2⟩ := C50_device_extended oc s hc hv y hy
    exact onlyDefined_cons (when_some e1) (onlyDefined_cons (when_some e2) onlyDefined_nil)
  case PortableBattery => exact optional_battery hc hv hy
  all_goals exact onlyDefined_nil

/-! ### The exceptions -/

/-- A memory device with the fields of version 3.3. -/
def longDevice : RawStructure where
  version := ⟨3, 3⟩
  info := .MemoryDevice
  length := 0x5C
  handle := 0x1100
  data := [0x00, 0x10, 0xFE, 0xFF, 72, 0, 64, 0, 0, 0x20, 9, 0, 1, 0, 0x18, 0x80, 0x20] ++
    List.replicate 63 0 ++ [0x40, 0x1F, 0, 0, 0x40, 0x1F, 0, 0]
  strings := ascii "DIMM 0" ++ [0, 0]

/-- A mapped address with the fields of version 2.7. -/
def longDeviceAddress : RawStructure where
  version := ⟨2, 7⟩
  info := .MemoryDeviceMappedAddress
  length := 0x23
  handle := 0x1400
  data := [0, 0, 0, 0, 0xFF, 0xFF, 0x7F, 0, 1, 0, 2, 0, 0xFF, 1, 2] ++ List.replicate 15 0 ++ [1]
  strings := [0, 0]

theorem set_early {s : RawStructure} {a b : Nat}
    (h : (decodeStructure oc s).okAnd (fun x => (optionalFields x).contains ((a, b), true)) = true)
    (hn : ¬ Since s a b) : ∃ x, decodeStructure oc s = .ok x ∧ ¬ OnlyDefined s x := by
  cases hx : decodeStructure oc s with
  | ok x =>
    rw [hx] at h
    exact ⟨x, rfl, fun hd => hn (hd (a, b) true (List.contains_iff_mem.1 h) rfl)⟩
  | _ => rw [hx] at h; cases h

/-- C101: the exceptions are exact. For each type and version left out by `C101_partial`, there is a
structure of this type in a table of this version that sets a field the version has not defined. -/
theorem C101_exact (oc : Bool) (r : RawStructure) (hv : ¬ VersionChecked r) :
    ∃ s x, s.info = r.info ∧ s.version = r.version ∧ Coherent s ∧ decodeStructure oc s = .ok x ∧
      ¬ OnlyDefined s x := by
  unfold VersionChecked at hv
  cases hinfo : r.info <;> simp only [hinfo] at hv <;> try exact absurd trivial hv
  case Enclosure =>
    obtain ⟨x, hx⟩ := set_early (oc := oc) (s := AtVersion exampleEnclosure r.version) (a := 2) (b := 7)
      (by
        have e : decodeStructure oc (AtVersion exampleEnclosure r.version) =
          decodeStructure oc exampleEnclosure := rfl
        rw [e]; cases oc <;> decide +kernel) hv
    exact ⟨AtVersion exampleEnclosure r.version, x, rfl, rfl, (by decide : Coherent exampleEnclosure), hx⟩
  case MemoryDevice =>
    obtain ⟨x, hx⟩ := set_early (oc := oc) (s := AtVersion longDevice r.version) (a := 3) (b := 3)
      (by
        have e : decodeStructure oc (AtVersion longDevice r.version) =
          decodeStructure oc longDevice := rfl
        rw [e]; cases oc <;> decide +kernel) hv
    exact ⟨AtVersion longDevice r.version, x, rfl, rfl, (by decide : Coherent longDevice), hx⟩
  case SystemSlots =>
    have n4 : ¬ Since r 3 4 := fun h => hv ⟨since_mono h (by decide), fun _ => h⟩
    have hl : SlotLengthOk (AtVersion exampleSlot r.version) := by
      have hd : (AtVersion exampleSlot r.version).data.length + 4 = 0x1D := by
        show exampleSlot.data.length + 4 = _
        decide
      unfold SlotLengthOk
      rw [hd]
      have e : ∀ a b, Since (AtVersion exampleSlot r.version) a b ↔ Since r a b := fun _ _ => Iff.rfl
      simp only [e]
      refine ⟨fun h n => (hv ⟨h, fun k => absurd (since_mono k (by decide)) n⟩).elim,
        fun h n => (hv ⟨since_mono h (by decide), fun k => absurd (since_mono k (by decide)) n⟩).elim,
        fun h n => (hv ⟨since_mono h (by decide), fun k => absurd k n⟩).elim, fun _ => by decide⟩
    obtain ⟨x, hx⟩ := set_early (oc := oc) (s := AtVersion exampleSlot r.version) (a := 3) (b := 4)
      (by
        have e : decodeStructure oc (AtVersion exampleSlot r.version) =
            decodeStructure oc exampleSlot := by
          show Res.map _ (system_slots.SystemSlots.try_from oc (AtVersion exampleSlot r.version)) =
            Res.map _ (system_slots.SystemSlots.try_from oc exampleSlot)
          rw [slots_gate oc _ hl, slots_gate oc exampleSlot (by unfold SlotLengthOk; decide)]
          rfl
        rw [e]; cases oc <;> decide +kernel) n4
    exact ⟨AtVersion exampleSlot r.version, x, rfl, rfl, (by decide : Coherent exampleSlot), hx⟩
  case SystemEventLog =>
    have n1 : ¬ Since r 2 1 := fun h => hv (since_mono h (by decide))
    have n0 : r.version ≠ ⟨2, 0⟩ := fun h => hv (by unfold Since; rw [h]; decide)
    have hl : EventLogLength (AtVersion (exampleLog 2 [1, 0, 8, 4]) r.version) :=
      ⟨fun h => absurd h n0, fun h => absurd h n1⟩
    obtain ⟨x, hx⟩ := set_early (oc := oc) (s := AtVersion (exampleLog 2 [1, 0, 8, 4]) r.version)
      (a := 2) (b := 1)
      (by
        have e : decodeStructure oc (AtVersion (exampleLog 2 [1, 0, 8, 4]) r.version) =
            decodeStructure oc (exampleLog 2 [1, 0, 8, 4]) := by
          show Res.map _ (system_event_log.SystemEventLog.try_from oc
              (AtVersion (exampleLog 2 [1, 0, 8, 4]) r.version)) =
            Res.map _ (system_event_log.SystemEventLog.try_from oc (exampleLog 2 [1, 0, 8, 4]))
          rw [eventLog_gate oc _ hl, eventLog_gate oc _ (by unfold EventLogLength; decide)]
          rfl
        rw [e]; cases oc <;> decide +kernel) n1
    exact ⟨AtVersion (exampleLog 2 [1, 0, 8, 4]) r.version, x, rfl, rfl,
      (by decide : Coherent (exampleLog 2 [1, 0, 8, 4])), hx⟩
  case MemoryArrayMappedAddress =>
    have n7 : ¬ Since r 2 7 := fun h => hv (since_mono h (by decide))
    obtain ⟨x, hx⟩ := set_early (oc := oc) (s := AtVersion exampleArrayAddress r.version)
      (a := 2) (b := 7)
      (by
        have e : decodeStructure oc (AtVersion exampleArrayAddress r.version) =
            decodeStructure oc exampleArrayAddress := by
          show Res.map _ (memory_array_mapped_address.MemoryArrayMappedAddress.try_from oc
              (AtVersion exampleArrayAddress r.version)) =
            Res.map _ (memory_array_mapped_address.MemoryArrayMappedAddress.try_from oc exampleArrayAddress)
          congr 1
          unfold memory_array_mapped_address.MemoryArrayMappedAddress.try_from
          rw [if_neg (gate2_neg (s := AtVersion exampleArrayAddress r.version) (by decide) (by decide)
              (by decide) (by decide) fun h => absurd h hv),
            if_neg (gate_neg (s := AtVersion exampleArrayAddress r.version) (by decide) (by decide)
              fun h => absurd h n7), if_neg (by decide), if_neg (by decide)]
          rfl
        rw [e]; cases oc <;> decide +kernel) n7
    exact ⟨AtVersion exampleArrayAddress r.version, x, rfl, rfl,
      (by decide : Coherent exampleArrayAddress), hx⟩
  case MemoryDeviceMappedAddress =>
    have n7 : ¬ Since r 2 7 := fun h => hv (since_mono h (by decide))
    obtain ⟨x, hx⟩ := set_early (oc := oc) (s := AtVersion longDeviceAddress r.version)
      (a := 2) (b := 7)
      (by
        have e : decodeStructure oc (AtVersion longDeviceAddress r.version) =
            decodeStructure oc longDeviceAddress := by
          show Res.map _ (memory_device_mapped_address.MemoryDeviceMappedAddress.try_from oc
              (AtVersion longDeviceAddress r.version)) =
            Res.map _ (memory_device_mapped_address.MemoryDeviceMappedAddress.try_from oc longDeviceAddress)
          congr 1
          unfold memory_device_mapped_address.MemoryDeviceMappedAddress.try_from
          rw [if_neg (gate2_neg (s := AtVersion longDeviceAddress r.version) (by decide) (by decide)
              (by decide) (by decide) fun h => absurd h hv),
            if_neg (gate_neg (s := AtVersion longDeviceAddress r.version) (by decide) (by decide)
              fun h => absurd h n7), if_neg (by decide), if_neg (by decide)]
          rfl
        rw [e]; cases oc <;> decide +kernel) n7
    exact ⟨AtVersion longDeviceAddress r.version, x, rfl, rfl,
      (by decide : Coherent longDeviceAddress), hx⟩
  case PortableBattery =>
    have n2 : ¬ Since r 2 2 := fun h => hv (since_mono h (by decide))
    have n1 : r.version ≠ ⟨2, 1⟩ := fun h => hv (by unfold Since; rw [h]; decide)
    obtain ⟨x, hx⟩ := set_early (oc := oc) (s := AtVersion exampleBattery r.version)
      (a := 2) (b := 2)
      (by
        have e : decodeStructure oc (AtVersion exampleBattery r.version) =
            decodeStructure oc exampleBattery := by
          show Res.map _ (portable_battery.PortableBattery.try_from oc
              (AtVersion exampleBattery r.version)) =
            Res.map _ (portable_battery.PortableBattery.try_from oc exampleBattery)
          congr 1
          unfold portable_battery.PortableBattery.try_from
          rw [if_neg (fun h => n1 h.1),
            if_neg (fun h => n2 ((ge_iff (s := AtVersion exampleBattery r.version) (by decide)
              (by decide)).1 h.1)),
            if_neg (by decide), if_neg (by decide)]
          rfl
        rw [e]; cases oc <;> decide +kernel) n2
    exact ⟨AtVersion exampleBattery r.version, x, rfl, rfl, (by decide : Coherent exampleBattery), hx⟩

/-- C101: the promise is not kept by the code: a memory device of a table of version 2.1 may have the
extended speed that version 3.3 added. -/
theorem C101_full_false : ¬ C101_full := by
  intro h
  obtain ⟨s, x, -, -, hc, hx, hn⟩ :=
    C101_exact true { longDevice with version := ⟨2, 1⟩ } (by decide)
  exact hn (h true s x hc hx)

example : Coherent exampleBios ∧ VersionChecked exampleBios ∧
    (decodeStructure true exampleBios).okAnd (fun x => (optionalFields x).contains ((2, 4), true)) :=
  ⟨by decide, by decide, by decide +kernel⟩
example : VersionChecked exampleSlot ∧ ¬ VersionChecked { exampleSlot with version := ⟨3, 2⟩ } ∧
    ¬ VersionChecked { exampleEnclosure with version := ⟨2, 6⟩ } := by decide

end Dmi.Props
