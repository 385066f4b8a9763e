import Verif.Props.Newer
/-!
# C72: what the version decides

The version of the table decides which fields a structure has, not what they say.
-/
namespace Dmi.Props
open Spec
set_option linter.unusedSimpArgs false

/-- `s` in a table of version `w`. -/
def AtVersion (s : RawStructure) (w : SmbiosVersion) : RawStructure := { s with version := w }

/-- Whatever `a` tells, `b` tells too. -/
def Preserved {α : Type} (a b : Option α) : Prop := ∀ x, a = some x → b = some x

/-- Every field of `a` is the same in `b`; optional fields may be added. -/
def Extends : Structure → Structure → Prop
  | .Bios a, .Bios b => a.handle = b.handle ∧ a.vendor = b.vendor ∧ a.bios_version = b.bios_version ∧
      a.bios_starting_address_segment = b.bios_starting_address_segment ∧
      a.bios_release_date = b.bios_release_date ∧ a.rom_size.basic = b.rom_size.basic ∧
      Preserved a.rom_size.extended b.rom_size.extended ∧
      a.bios_characteristics = b.bios_characteristics ∧
      Preserved a.bios_characteristics_exttension_1 b.bios_characteristics_exttension_1 ∧
      Preserved a.bios_characteristics_exttension_2 b.bios_characteristics_exttension_2 ∧
      Preserved a.bios_revision b.bios_revision ∧ Preserved a.firmware_revision b.firmware_revision
  | .System a, .System b => a.handle = b.handle ∧ a.manufacturer = b.manufacturer ∧
      a.product = b.product ∧ a.version = b.version ∧ a.serial = b.serial ∧ Preserved a.uuid b.uuid ∧
      Preserved a.wakeup b.wakeup ∧ Preserved a.sku b.sku ∧ Preserved a.family b.family
  | .Processor a, .Processor b => a.handle = b.handle ∧ a.socket_designation = b.socket_designation ∧
      a.processor_type = b.processor_type ∧ a.processor_family = b.processor_family ∧
      a.processor_manufacturer = b.processor_manufacturer ∧ a.processor_id = b.processor_id ∧
      a.processor_version = b.processor_version ∧ a.voltage = b.voltage ∧
      a.external_clock = b.external_clock ∧ a.max_speed = b.max_speed ∧
      a.current_speed = b.current_speed ∧ a.status = b.status ∧
      a.processor_upgrade = b.processor_upgrade ∧ Preserved a.l1_cache_handle b.l1_cache_handle ∧
      Preserved a.l2_cache_handle b.l2_cache_handle ∧ Preserved a.l3_cache_handle b.l3_cache_handle ∧
      Preserved a.serial_number b.serial_number ∧ Preserved a.asset_tag b.asset_tag ∧
      Preserved a.part_number b.part_number ∧ Preserved a.core_count b.core_count ∧
      Preserved a.core_enabled b.core_enabled ∧ Preserved a.thread_count b.thread_count ∧
      Preserved a.processor_characteristics b.processor_characteristics
  | .Cache a, .Cache b => a.handle = b.handle ∧ a.socket_designation = b.socket_designation ∧
      a.cache_configuration = b.cache_configuration ∧ a.maximum_cache_size = b.maximum_cache_size ∧
      a.installed_size = b.installed_size ∧ a.supported_sram_type = b.supported_sram_type ∧
      a.current_sram_type = b.current_sram_type ∧ Preserved a.cache_speed b.cache_speed ∧
      Preserved a.error_correction_type b.error_correction_type ∧
      Preserved a.system_cache_type b.system_cache_type ∧ Preserved a.associativity b.associativity ∧
      Preserved a.maximum_cache_size_2 b.maximum_cache_size_2 ∧ Preserved a.installed_size_2 b.installed_size_2
  | .BiosLanguage a, .BiosLanguage b => a.handle = b.handle ∧ Preserved a.flags b.flags ∧
      a.current_language = b.current_language
  | .PhysicalMemoryArray a, .PhysicalMemoryArray b => a.handle = b.handle ∧ a.location = b.location ∧
      a.use = b.use ∧ a.memory_error_correction = b.memory_error_correction ∧
      a.maximum_capacity = b.maximum_capacity ∧
      a.memory_error_information_handle = b.memory_error_information_handle ∧
      a.number_of_memory_devices = b.number_of_memory_devices ∧
      Preserved a.extended_maximum_capacity b.extended_maximum_capacity
  | .Other a, .Other b => { a with version := b.version } = b
  | a, b => a = b

/-- `v` is at most `w`. -/
def NotAfter (v w : SmbiosVersion) : Prop :=
  v.major.toNat < w.major.toNat ∨ v.major.toNat = w.major.toNat ∧ v.minor.toNat ≤ w.minor.toNat

instance (v w : SmbiosVersion) : Decidable (NotAfter v w) := inferInstanceAs (Decidable (_ ∨ _))

theorem since_at {s : RawStructure} {w : SmbiosVersion} {a b : Nat} (h : NotAfter s.version w)
    (hs : Since s a b) : Since (AtVersion s w) a b := by
  unfold Since AtVersion NotAfter at *
  simp only
  omega

theorem preserved_when {α : Type} {c d : Prop} {a b : Option α} {P : α → Prop} (ha : When c a P)
    (hb : When d b P) (hcd : c → d) (u : ∀ x y, P x → P y → x = y) : Preserved a b := by
  intro x hx
  by_cases h : c
  · rw [when_pos h] at ha
    rw [when_pos (hcd h)] at hb
    obtain ⟨y, rfl, hy⟩ := ha
    obtain ⟨z, rfl, hz⟩ := hb
    rw [← hx, u _ _ hy hz]
  · rw [when_neg h] at ha
    rw [ha] at hx
    cases hx

theorem eq_unique {α : Type} {c : α} : ∀ x y, x = c → y = c → x = y := fun _ _ h k => h.trans k.symm

theorem ref_unique {s : RawStructure} {o : Nat} : ∀ x y, Ref s o x → Ref s o y → x = y := by
  intro x y hx hy
  rw [ref_iff] at hx hy
  rw [hx] at hy
  cases hy
  rfl

variable {oc : Bool} {s : RawStructure} {w : SmbiosVersion}

theorem extends_bios (hw : NotAfter s.version w) {a b : bios.Bios} (ha : bios.Bios.try_from s = .ok a)
    (hb : bios.Bios.try_from (AtVersion s w) = .ok b) : Extends (.Bios a) (.Bios b) := by
  have fa : Fits s (biosLength s) := Classical.byContradiction fun h => by
    rw [C29_short s h] at ha; cases ha
  have fb : Fits (AtVersion s w) (biosLength (AtVersion s w)) := Classical.byContradiction fun h => by
    rw [C29_short _ h] at hb; cases hb
  have A := (C29_decodes s fa a).1 ha
  have B := (C29_decodes _ fb b).1 hb
  have m : ∀ {x y}, Since s x y → Since (AtVersion s w) x y := since_at hw
  refine ⟨A.handle.trans B.handle.symm, ref_unique _ _ A.vendor B.vendor,
    ref_unique _ _ A.bios_version B.bios_version, A.segment.trans B.segment.symm,
    ref_unique _ _ A.release_date B.release_date, ?_, ?_, A.characteristics.trans B.characteristics.symm,
    preserved_when A.extension_1 B.extension_1 m eq_unique, preserved_when A.extension_2 B.extension_2 m eq_unique,
    preserved_when A.bios_revision B.bios_revision m eq_unique,
    preserved_when A.firmware_revision B.firmware_revision m eq_unique⟩
  · rw [A.rom_size, B.rom_size]; rfl
  · rw [A.rom_size, B.rom_size]
    intro x hx
    dsimp only at hx ⊢
    split at hx
    · rename_i h; rw [if_pos (m h), ← hx]; rfl
    · cases hx

theorem extends_system (hw : NotAfter s.version w) (hu : Since s 2 6 ∨ ¬ Since (AtVersion s w) 2 6)
    {a b : system.System} (ha : system.System.try_from s = .ok a)
    (hb : system.System.try_from (AtVersion s w) = .ok b) : Extends (.System a) (.System b) := by
  have fa : Fits s (systemLength s) := Classical.byContradiction fun h => by
    rw [C31_short s h] at ha; cases ha
  have fb : Fits (AtVersion s w) (systemLength (AtVersion s w)) := Classical.byContradiction fun h => by
    rw [C31_short _ h] at hb; cases hb
  have A := (C31_decodes s fa a).1 ha
  have B := (C31_decodes _ fb b).1 hb
  have m : ∀ {x y}, Since s x y → Since (AtVersion s w) x y := since_at hw
  have e : storedUuid (AtVersion s w) = storedUuid s := by
    unfold storedUuid
    rcases hu with h | h
    · rw [if_pos h, if_pos (m h)]; rfl
    · rw [if_neg h, if_neg (fun k => h (m k))]; rfl
  have Bu := B.uuid
  rw [e] at Bu
  exact ⟨A.handle.trans B.handle.symm, ref_unique _ _ A.manufacturer B.manufacturer,
    ref_unique _ _ A.product B.product, ref_unique _ _ A.version B.version,
    ref_unique _ _ A.serial B.serial, preserved_when A.uuid Bu m eq_unique,
    preserved_when A.wakeup B.wakeup m eq_unique, preserved_when A.sku B.sku m ref_unique,
    preserved_when A.family B.family m ref_unique⟩

theorem storedCount_at {o o2 : Nat} (m : Since s 3 0 → Since (AtVersion s w) 3 0)
    (h : byte s o = 0xFF → Since s 3 0 ∨ ¬ Since (AtVersion s w) 3 0) :
    storedCount (AtVersion s w) o o2 = storedCount s o o2 := by
  have e : byte (AtVersion s w) o = byte s o := rfl
  unfold storedCount
  rw [e]
  by_cases hb : byte s o = 0xFF
  · rcases h hb with h | h
    · rw [if_pos ⟨m h, hb⟩, if_pos ⟨h, hb⟩]; rfl
    · rw [if_neg fun k => h k.1, if_neg fun k => h (m k.1)]
  · rw [if_neg fun k => hb k.2, if_neg fun k => hb k.2]

theorem extends_processor (hw : NotAfter s.version w)
    (hf : byte s 0x06 = 0xFE → Since s 2 6 ∨ ¬ Since (AtVersion s w) 2 6)
    (hc : ∀ o ∈ [0x23, 0x24, 0x25], byte s o = 0xFF → Since s 3 0 ∨ ¬ Since (AtVersion s w) 3 0)
    {a b : processor.Processor} (ha : processor.Processor.try_from s = .ok a)
    (hb : processor.Processor.try_from (AtVersion s w) = .ok b) :
    Extends (.Processor a) (.Processor b) := by
  have fa : Fits s (processorLength s) := Classical.byContradiction fun h => by
    rw [C35_short s h] at ha; cases ha
  have fb : Fits (AtVersion s w) (processorLength (AtVersion s w)) :=
    Classical.byContradiction fun h => by rw [C35_short _ h] at hb; cases hb
  have A := (C35_decodes s fa a).1 ha
  have B := (C35_decodes _ fb b).1 hb
  have m : ∀ {x y}, Since s x y → Since (AtVersion s w) x y := since_at hw
  have e : storedFamily (AtVersion s w) = storedFamily s := by
    have e : byte (AtVersion s w) 0x06 = byte s 0x06 := rfl
    unfold storedFamily
    rw [e]
    by_cases hb : byte s 0x06 = 0xFE
    · rcases hf hb with h | h
      · rw [if_pos ⟨m h, hb⟩, if_pos ⟨h, hb⟩]; rfl
      · rw [if_neg fun k => h k.1, if_neg fun k => h (m k.1)]
    · rw [if_neg fun k => hb k.2, if_neg fun k => hb k.2]
  have Bf := B.processor_family
  rw [e] at Bf
  have B1 := B.core_count
  have B2 := B.core_enabled
  have B3 := B.thread_count
  rw [storedCount_at m (hc _ (by decide))] at B1 B2 B3
  refine ⟨A.handle.trans B.handle.symm, ref_unique _ _ A.socket_designation B.socket_designation,
    A.processor_type.trans B.processor_type.symm, A.processor_family.trans Bf.symm,
    ref_unique _ _ A.processor_manufacturer B.processor_manufacturer,
    A.processor_id.trans B.processor_id.symm,
    ref_unique _ _ A.processor_version B.processor_version, A.voltage.trans B.voltage.symm,
    A.external_clock.trans B.external_clock.symm, A.max_speed.trans B.max_speed.symm,
    A.current_speed.trans B.current_speed.symm, ?_,
    A.processor_upgrade.trans B.processor_upgrade.symm,
    preserved_when A.l1_cache_handle B.l1_cache_handle m eq_unique,
    preserved_when A.l2_cache_handle B.l2_cache_handle m eq_unique,
    preserved_when A.l3_cache_handle B.l3_cache_handle m eq_unique,
    preserved_when A.serial_number B.serial_number m ref_unique,
    preserved_when A.asset_tag B.asset_tag m ref_unique,
    preserved_when A.part_number B.part_number m ref_unique,
    preserved_when A.core_count B1 m eq_unique, preserved_when A.core_enabled B2 m eq_unique,
    preserved_when A.thread_count B3 m eq_unique,
    preserved_when A.processor_characteristics B.processor_characteristics m ?_⟩
  · exact (kept_status.1 A.status).symm.trans (kept_status.1 B.status)
  · intro x y hx hy
    exact (kept_characteristics.1 hx).symm.trans (kept_characteristics.1 hy)

theorem extends_cache (hw : NotAfter s.version w) {a b : cache.Cache}
    (ha : cache.Cache.try_from s = .ok a) (hb : cache.Cache.try_from (AtVersion s w) = .ok b) :
    Extends (.Cache a) (.Cache b) := by
  have va : Since s 2 1 := Classical.byContradiction fun h => by
    rw [(C37_faults s).1.2 h] at ha; cases ha
  have m : ∀ {x y}, Since s x y → Since (AtVersion s w) x y := since_at hw
  have fa : Fits s (cacheReads s) := Classical.byContradiction fun h => by
    rw [(C37_faults s).2.2 ⟨va, h⟩] at ha; cases ha
  have fb : Fits (AtVersion s w) (cacheReads (AtVersion s w)) := Classical.byContradiction fun h => by
    rw [(C37_faults _).2.2 ⟨m va, h⟩] at hb; cases hb
  have A := (C37_decodes s va fa a).1 ha
  have B := (C37_decodes _ (m va) fb b).1 hb
  refine ⟨A.handle.trans B.handle.symm, ref_unique _ _ A.socket_designation B.socket_designation,
    ?_, A.maximum_cache_size.trans B.maximum_cache_size.symm,
    A.installed_size.trans B.installed_size.symm,
    (sram_iff.1 A.supported_sram_type).symm.trans (sram_iff.1 B.supported_sram_type),
    (sram_iff.1 A.current_sram_type).symm.trans (sram_iff.1 B.current_sram_type),
    preserved_when A.cache_speed B.cache_speed m eq_unique,
    preserved_when A.error_correction_type B.error_correction_type m eq_unique,
    preserved_when A.system_cache_type B.system_cache_type m eq_unique,
    preserved_when A.associativity B.associativity m eq_unique,
    preserved_when A.maximum_cache_size_2 B.maximum_cache_size_2 m eq_unique,
    preserved_when A.installed_size_2 B.installed_size_2 m eq_unique⟩
  have h1 := (config_iff (ε := MalformedStructureError)).1 A.cache_configuration
  have h2 := (config_iff (ε := MalformedStructureError)).1 B.cache_configuration
  have h2 : _ = Res.ok b.cache_configuration := h2
  rw [show word (AtVersion s w) 0x05 = word s 0x05 from rfl, h1] at h2
  exact Res.ok.inj h2

theorem extends_language (hw : NotAfter s.version w) (hl : Since s 2 1 ∨ ¬ Since (AtVersion s w) 2 1)
    {a b : bios_language.BiosLanguage} (ha : bios_language.BiosLanguage.try_from s = .ok a)
    (hb : bios_language.BiosLanguage.try_from (AtVersion s w) = .ok b) :
    Extends (.BiosLanguage a) (.BiosLanguage b) := by
  have fa : Fits s (languageLength s) := Classical.byContradiction fun h => by
    rw [C43_short s h] at ha; cases ha
  have fb : Fits (AtVersion s w) (languageLength (AtVersion s w)) :=
    Classical.byContradiction fun h => by rw [C43_short _ h] at hb; cases hb
  obtain ⟨_, ha', A⟩ := C43_decodes s fa
  obtain ⟨_, hb', B⟩ := C43_decodes _ fb
  rw [ha] at ha'; rw [hb] at hb'
  cases ha'; cases hb'
  have m : ∀ {x y}, Since s x y → Since (AtVersion s w) x y := since_at hw
  refine ⟨A.handle.trans B.handle.symm, preserved_when A.flags B.flags m eq_unique, ?_⟩
  rw [A.current_language, B.current_language]
  rcases hl with h | h
  · rw [if_pos h, if_pos (m h)]; rfl
  · rw [if_neg h, if_neg fun k => h (m k)]; rfl

theorem extends_array (hw : NotAfter s.version w) (hs : Since s 2 2)
    {a b : physical_memory_array.PhysicalMemoryArray}
    (ha : physical_memory_array.PhysicalMemoryArray.try_from s = .ok a)
    (hb : physical_memory_array.PhysicalMemoryArray.try_from (AtVersion s w) = .ok b) :
    Extends (.PhysicalMemoryArray a) (.PhysicalMemoryArray b) := by
  have m : ∀ {x y}, Since s x y → Since (AtVersion s w) x y := since_at hw
  have fa : ArrayFits s := Classical.byContradiction fun h => by
    rw [C47_short s hs h] at ha; cases ha
  have fb : ArrayFits (AtVersion s w) := Classical.byContradiction fun h => by
    rw [C47_short _ (m hs) h] at hb; cases hb
  have A := (C47_decodes s hs fa a).1 ha
  have B := (C47_decodes _ (m hs) fb b).1 hb
  have u := fun {α : Type} {c : Prop} [Decidable c] {x y : Option α} {v : α}
    (h : When c x (· = v)) (k : When c y (· = v)) => (when_eq.1 h).trans (when_eq.1 k).symm
  refine ⟨A.handle.trans B.handle.symm, A.location.trans B.location.symm, A.use.trans B.use.symm,
    A.memory_error_correction.trans B.memory_error_correction.symm,
    u A.maximum_capacity B.maximum_capacity, u A.memory_error_information_handle
      B.memory_error_information_handle,
    A.number_of_memory_devices.trans B.number_of_memory_devices.symm,
    preserved_when A.extended_maximum_capacity B.extended_maximum_capacity
      (fun h => ⟨m h.1, h.2⟩) eq_unique⟩

/-- A field that the standard itself reads differently from `w` on: the bytes of the UUID are in
another order from 2.6 on; from 2.6 and 3.0 on FEh and FFh refer to a wider field. -/
def Reinterpreted (s : RawStructure) (w : SmbiosVersion) : Prop :=
  let from_ (a b : Nat) : Prop := ¬ Since s a b ∧ Since (AtVersion s w) a b
  match s.info with
  | .System => from_ 2 6
  | .Processor => from_ 2 6 ∧ byte s 0x06 = 0xFE ∨
      from_ 3 0 ∧ ∃ o ∈ [0x23, 0x24, 0x25], byte s o = 0xFF
  | _ => False

/-- C72, full statement: a structure decoded as one of a later version has the same fields, and
perhaps more. -/
def C72_full : Prop := ∀ (oc : Bool) (s : RawStructure) (w : SmbiosVersion) (a b : Structure),
  NotAfter s.version w → ¬ Reinterpreted s w → decodeStructure oc s = .ok a →
  decodeStructure oc (AtVersion s w) = .ok b → Extends a b

/-- The two structures of early versions that are decoded differently for no reason in the
standard. -/
def MisreadEarly (s : RawStructure) (w : SmbiosVersion) : Prop :=
  s.info = .BiosLanguage ∧ ¬ Since s 2 1 ∧ Since (AtVersion s w) 2 1 ∨
  s.info = .PhysicalMemoryArray ∧ ¬ Since s 2 2 ∧ Since (AtVersion s w) 2 2

theorem map_ok {α β : Type} {f : α → β} {x : R α} {b : β} (h : x.map f = .ok b) :
    ∃ a, x = .ok a ∧ b = f a := by
  cases x <;> cases h
  exact ⟨_, rfl, rfl⟩

theorem gate_ok {α : Type} {c : Prop} [Decidable c] {e : MalformedStructureError} {x : R α} {a : α}
    (h : (if c then .err e else x) = .ok a) : x = .ok a := by
  split at h
  · cases h
  · exact h

theorem event_log_ok {v : system_event_log.SystemEventLog}
    (h : system_event_log.SystemEventLog.try_from oc s = .ok v) :
    ∃ n l, ((s.get8 oc 0x15).toOption : R _) = .ok n ∧ ((s.get8 oc 0x16).toOption : R _) = .ok l ∧
      system_event_log.SystemEventLog.decode oc s n l = .ok v := by
  unfold system_event_log.SystemEventLog.try_from at h
  cases hn : ((s.get8 oc 0x15).toOption : R _) with
  | ok n =>
    cases hl : ((s.get8 oc 0x16).toOption : R _) with
    | ok l =>
      rw [hn, hl, ok_bind, ok_bind] at h
      refine ⟨n, l, rfl, rfl, ?_⟩
      have h := gate_ok h
      split at h
      · split at h <;> cases h
      · exact h
    | _ => rw [hn, hl] at h; cases h
  | _ => rw [hn] at h; cases h

/-- C72: the full statement holds for all structures except BIOS languages before 2.1 and memory
arrays before 2.2. -/
theorem C72_extends_partial (oc : Bool) (s : RawStructure) (w : SmbiosVersion) (a b : Structure)
    (hw : NotAfter s.version w) (hr : ¬ Reinterpreted s w) (hm : ¬ MisreadEarly s w)
    (ha : decodeStructure oc s = .ok a) (hb : decodeStructure oc (AtVersion s w) = .ok b) :
    Extends a b := by
  have hi : (AtVersion s w).info = s.info := rfl
  have dec : ∀ {p q : Prop}, ¬ (¬ p ∧ q) → p ∨ ¬ q := fun h =>
    Classical.byCases Or.inl fun hp => .inr fun hq => h ⟨hp, hq⟩
  unfold Reinterpreted at hr
  unfold decodeStructure at ha hb
  rw [hi] at hb
  cases hinfo : s.info <;> simp only [hinfo] at ha hb hr <;>
    first
    | (cases ha; cases hb; exact rfl)
    | (obtain ⟨x, hx, rfl⟩ := map_ok ha
       obtain ⟨y, hy, rfl⟩ := map_ok hb)
  case Bios => exact extends_bios hw hx hy
  case System => exact extends_system hw (dec hr) hx hy
  case Processor =>
    exact extends_processor hw (fun h => dec fun k => hr (.inl ⟨k, h⟩))
      (fun o ho h => dec fun k => hr (.inr ⟨k, o, ho, h⟩)) hx hy
  case Cache => exact extends_cache hw hx hy
  case BiosLanguage => exact extends_language hw (dec fun k => hm (.inl ⟨hinfo, k⟩)) hx hy
  case PhysicalMemoryArray =>
    by_cases hs : Since s 2 2
    · exact extends_array hw hs hx hy
    · have hn : ¬ Since (AtVersion s w) 2 2 := fun k => hm (.inr ⟨hinfo, hs, k⟩)
      rw [C47_old s hs] at hx
      rw [C47_old _ hn] at hy
      cases hx; cases hy
      exact ⟨rfl, rfl, rfl, rfl, rfl, rfl, rfl, fun _ h => h⟩
  case SystemSlots =>
    have hx := gate_ok (gate_ok (gate_ok (gate_ok hx)))
    have hy : system_slots.SystemSlots.decode oc s = .ok y :=
      gate_ok (gate_ok (gate_ok (gate_ok hy)))
    exact congrArg _ (Res.ok.inj (hx.symm.trans hy))
  case MemoryError32 | BuiltInPointingDevice =>
    have hx := gate_ok hx
    have hy := gate_ok hy
    exact congrArg _ (Res.ok.inj (hx.symm.trans hy))
  case MemoryArrayMappedAddress | MemoryDeviceMappedAddress | PortableBattery =>
    have hx := gate_ok (gate_ok hx)
    have hy := gate_ok (gate_ok hy)
    exact congrArg _ (Res.ok.inj (hx.symm.trans hy))
  case SystemEventLog =>
    obtain ⟨n, l, hn, hl, hx⟩ := event_log_ok hx
    obtain ⟨n', l', hn', hl', hy⟩ := event_log_ok hy
    cases Res.ok.inj (hn.symm.trans hn')
    cases Res.ok.inj (hl.symm.trans hl')
    exact congrArg _ (Res.ok.inj (hx.symm.trans hy))
  all_goals exact congrArg _ (Res.ok.inj (hx.symm.trans hy))

/-- A type 13 structure in a table of version 2.0. -/
def languageBefore : RawStructure where
  version := ⟨2, 0⟩
  info := .BiosLanguage
  length := 0x16
  handle := 7
  data := [2, 1, 0, 0, 0, 0, 0, 0, 0, 0, 0, 0, 0, 0, 0, 0, 0, 2]
  strings := [101, 110, 0, 102, 114]

/-- A type 16 structure in a table of version 2.1. -/
def arrayBefore : RawStructure where
  version := ⟨2, 1⟩
  info := .PhysicalMemoryArray
  length := 0x0F
  handle := 7
  data := [3, 3, 3, 0, 0, 16, 0, 0xFE, 0xFF, 2, 0]
  strings := []

/-- C72: the full statement fails for BIOS languages: in a table of version 2.0 the current language
is read from 14h instead of 15h. -/
theorem C72_full_false : ¬ C72_full := by
  intro h
  have h := h true languageBefore ⟨2, 1⟩ _ _ (by decide) (fun k => k)
    (by rfl : decodeStructure true languageBefore = .ok _)
    (by rfl : decodeStructure true (AtVersion languageBefore ⟨2, 1⟩) = .ok _)
  exact absurd h.2.2 (by decide)

/-- C72: it also fails for memory arrays: in a table of version 2.1 nothing is read, not even the
handle. -/
theorem C72_array_false : ∃ a b, decodeStructure true arrayBefore = .ok a ∧
    decodeStructure true (AtVersion arrayBefore ⟨2, 2⟩) = .ok b ∧ ¬ Extends a b :=
  ⟨_, _, rfl, rfl, fun h => absurd h.1 (by decide)⟩

/-- C72, exactly, for the first exception: from before 2.1 to 2.1 or later, a BIOS language structure
keeps its fields iff the bytes at 14h and 15h are equal. -/
theorem C72_language_iff (oc : Bool) (s : RawStructure) (w : SmbiosVersion) (a b : Structure)
    (hi : s.info = .BiosLanguage) (hs : ¬ Since s 2 1) (hw : Since (AtVersion s w) 2 1)
    (ha : decodeStructure oc s = .ok a) (hb : decodeStructure oc (AtVersion s w) = .ok b) :
    Extends a b ↔ byte s 0x14 = byte s 0x15 := by
  have hi' : (AtVersion s w).info = .BiosLanguage := hi
  unfold decodeStructure at ha hb
  simp only [hi] at ha
  simp only [hi'] at hb
  obtain ⟨x, hx, rfl⟩ := map_ok ha
  obtain ⟨y, hy, rfl⟩ := map_ok hb
  have fa : Fits s (languageLength s) := Classical.byContradiction fun h => by
    rw [C43_short s h] at hx; cases hx
  have fb : Fits (AtVersion s w) (languageLength (AtVersion s w)) :=
    Classical.byContradiction fun h => by rw [C43_short _ h] at hy; cases hy
  obtain ⟨_, hx', A⟩ := C43_decodes s fa
  obtain ⟨_, hy', B⟩ := C43_decodes _ fb
  rw [hx] at hx'; rw [hy] at hy'
  cases hx'; cases hy'
  have ca : x.current_language = byte s 0x14 := by rw [A.current_language, if_neg hs]
  have cb : y.current_language = byte s 0x15 := by rw [B.current_language, if_pos hw]; rfl
  rw [← ca, ← cb]
  exact ⟨fun h => h.2.2, fun h => ⟨A.handle.trans B.handle.symm,
    preserved_when A.flags B.flags (fun k => absurd k hs) eq_unique, h⟩⟩

/-- C72, exactly, for the second exception: from before 2.2 to 2.2 or later, a memory array keeps its
fields iff its bytes are those an empty value happens to stand for. -/
theorem C72_array_iff (oc : Bool) (s : RawStructure) (w : SmbiosVersion) (a b : Structure)
    (hi : s.info = .PhysicalMemoryArray) (hs : ¬ Since s 2 2) (hw : Since (AtVersion s w) 2 2)
    (ha : decodeStructure oc s = .ok a) (hb : decodeStructure oc (AtVersion s w) = .ok b) :
    Extends a b ↔ s.handle = 0 ∧ byte s 0x04 = 2 ∧ byte s 0x05 = 2 ∧ byte s 0x06 = 2 ∧
      dword s 0x07 = 0x80000000 ∧ word s 0x0B = 0xFFFE ∧ word s 0x0D = 0 := by
  have hi' : (AtVersion s w).info = .PhysicalMemoryArray := hi
  unfold decodeStructure at ha hb
  simp only [hi] at ha
  simp only [hi'] at hb
  obtain ⟨x, hx, rfl⟩ := map_ok ha
  obtain ⟨y, hy, rfl⟩ := map_ok hb
  rw [C47_old s hs] at hx
  cases hx
  have fb : ArrayFits (AtVersion s w) := Classical.byContradiction fun h => by
    rw [C47_short _ hw h] at hy; cases hy
  have B := (C47_decodes _ hw fb y).1 hy
  have e1 : y.handle = s.handle := B.handle
  have e2 : y.location = physical_memory_array.MemoryArrayLocation.ofU8 (byte s 0x04) := B.location
  have e3 : y.use = physical_memory_array.MemoryArrayUse.ofU8 (byte s 0x05) := B.use
  have e4 : y.memory_error_correction =
    physical_memory_array.MemoryArrayErrorCorrectionTypes.ofU8 (byte s 0x06) :=
    B.memory_error_correction
  have e5 : y.maximum_capacity = optIf (dword s 0x07 ≠ 0x80000000) (dword s 0x07) :=
    when_eq.1 B.maximum_capacity
  have e6 : y.memory_error_information_handle = optIf (word s 0x0B ≠ 0xFFFE) (word s 0x0B) :=
    when_eq.1 B.memory_error_information_handle
  have e7 : y.number_of_memory_devices = word s 0x0D := B.number_of_memory_devices
  have none_iff : ∀ {α : Type} {c : Prop} [Decidable c] {v : α}, none = optIf c v ↔ ¬ c := by
    intro α c _ v
    unfold optIf
    split <;> simp_all
  have l : ∀ n : UInt8, physical_memory_array.MemoryArrayLocation.Unknown = .ofU8 n ↔ n = 2 :=
    forall_u8 (P := fun n => physical_memory_array.MemoryArrayLocation.Unknown = .ofU8 n ↔ n = 2)
      (by decide +kernel)
  have u : ∀ n : UInt8, physical_memory_array.MemoryArrayUse.Unknown = .ofU8 n ↔ n = 2 :=
    forall_u8 (P := fun n => physical_memory_array.MemoryArrayUse.Unknown = .ofU8 n ↔ n = 2)
      (by decide +kernel)
  have c : ∀ n : UInt8, physical_memory_array.MemoryArrayErrorCorrectionTypes.Unknown = .ofU8 n ↔
      n = 2 :=
    forall_u8 (P := fun n =>
      physical_memory_array.MemoryArrayErrorCorrectionTypes.Unknown = .ofU8 n ↔ n = 2)
      (by decide +kernel)
  show (0 = y.handle ∧ _ = y.location ∧ _ = y.use ∧ _ = y.memory_error_correction ∧
    none = y.maximum_capacity ∧ none = y.memory_error_information_handle ∧
    0 = y.number_of_memory_devices ∧ Preserved none y.extended_maximum_capacity) ↔ _
  rw [e1, e2, e3, e4, e5, e6, e7, l, u, c, none_iff, none_iff, Classical.not_not, Classical.not_not,
    eq_comm, eq_comm (a := (0 : UInt16)) (b := word s 0x0D)]
  constructor
  · rintro ⟨h1, h2, h3, h4, h5, h6, h7, -⟩
    exact ⟨h1, h2, h3, h4, h5, h6, h7⟩
  · rintro ⟨h1, h2, h3, h4, h5, h6, h7⟩
    exact ⟨h1, h2, h3, h4, h5, h6, h7, nofun⟩

example : ∃ a b, decodeStructure true languageBefore = .ok a ∧
    decodeStructure true (AtVersion languageBefore ⟨2, 1⟩) = .ok b ∧ ¬ Since languageBefore 2 1 :=
  ⟨_, _, rfl, rfl, by decide⟩
/-- An array for which nothing is lost. -/
example : ∃ a b, decodeStructure true { arrayBefore with
      handle := 0, data := [2, 2, 2, 0, 0, 0, 0x80, 0xFE, 0xFF, 0, 0] } = .ok a ∧
    decodeStructure true (AtVersion { arrayBefore with
      handle := 0, data := [2, 2, 2, 0, 0, 0, 0x80, 0xFE, 0xFF, 0, 0] } ⟨2, 2⟩) = .ok b ∧
    Extends a b :=
  ⟨_, _, rfl, rfl, rfl, rfl, rfl, rfl, rfl, rfl, rfl, nofun⟩

example : NotAfter (AtVersion exampleBios ⟨2, 0⟩).version exampleBios.version ∧
    ¬ Reinterpreted (AtVersion exampleBios ⟨2, 0⟩) exampleBios.version ∧
    ¬ MisreadEarly (AtVersion exampleBios ⟨2, 0⟩) exampleBios.version ∧
    (decodeStructure true (AtVersion exampleBios ⟨2, 0⟩)).okAnd (fun _ => true) ∧
    (decodeStructure true exampleBios).okAnd (fun _ => true) :=
  ⟨by decide, fun h => h, (by rintro (⟨h, -⟩ | ⟨h, -⟩) <;> cases h), by decide +kernel, by decide +kernel⟩
example : Reinterpreted { exampleSystem with version := ⟨2, 5⟩ } ⟨2, 6⟩ := by
  show ¬ Since _ 2 6 ∧ Since _ 2 6
  decide

end Dmi.Props
