import Verif.Props.Versions
/-!
# C110: which versions matter

A decoder looks at the version of the table only to see whether it has reached the versions that are listed
here for its type. So tables of all later versions are read alike.
-/
namespace Dmi.Props
open Spec

/-- The versions from which on a structure of a type is decoded differently from before. -/
def Steps : InfoType → List (Nat × Nat)
  | .Bios => [(2, 4), (3, 1)]
  | .System => [(2, 1), (2, 4), (2, 6)]
  | .Processor => [(2, 1), (2, 3), (2, 5), (2, 6), (3, 0)]
  | .Cache => [(2, 1), (2, 2), (3, 2)]
  | .SystemSlots => [(2, 0), (2, 1), (2, 6), (3, 2)]
  | .BiosLanguage => [(2, 1)]
  | .SystemEventLog => [(2, 0), (2, 1)]
  | .PhysicalMemoryArray => [(2, 2), (2, 8)]
  | .MemoryError32 | .BuiltInPointingDevice => [(2, 1)]
  | .MemoryArrayMappedAddress | .MemoryDeviceMappedAddress => [(2, 1), (2, 7)]
  | .PortableBattery => [(2, 1), (2, 2)]
  | _ => []

/-- The same value of a table of version `w`: only undecoded structures and the languages, which keep their
structure, know the version. -/
def Reversioned (w : SmbiosVersion) : Structure → Structure
  | .Other r => .Other (AtVersion r w)
  | .BiosLanguage v => .BiosLanguage { v with
      installable_languages := { v.installable_languages with
        structure_ := AtVersion v.installable_languages.structure_ w } }
  | x => x

section
variable {s : RawStructure} {w : SmbiosVersion}

theorem ge_same {a b : Nat} (ha : a < 256) (hb : b < 256) (h : Since (AtVersion s w) a b ↔ Since s a b) :
    w.ge (.ofPair a b) = s.version.ge (.ofPair a b) :=
  Bool.eq_iff_iff.2 ((ge_iff (s := AtVersion s w) ha hb).trans (h.trans (ge_iff ha hb).symm))

theorem lt_same {a b : Nat} (ha : a < 256) (hb : b < 256) (h : Since (AtVersion s w) a b ↔ Since s a b) :
    w.lt (.ofPair a b) = s.version.lt (.ofPair a b) :=
  Bool.eq_iff_iff.2 ((lt_iff (s := AtVersion s w) ha hb).trans ((not_congr h).trans (lt_iff ha hb).symm))

theorem gt_same {a b : Nat} (ha : a < 256) (hb : b < 255) (h : Since (AtVersion s w) a (b + 1) ↔ Since s a (b + 1)) :
    w.gt (.ofPair a b) = s.version.gt (.ofPair a b) :=
  Bool.eq_iff_iff.2 ((gt_iff (s := AtVersion s w) ha hb).trans (h.trans (gt_iff ha hb).symm))

theorem version_eq_iff {a b : Nat} (ha : a < 256) (hb : b < 255) :
    s.version = .ofPair a b ↔ Since s a b ∧ ¬ Since s a (b + 1) := by
  constructor
  · intro h
    unfold Since
    rw [h]
    simp only [SmbiosVersion.ofPair, UInt8.toNat_ofNat']
    omega
  · rintro ⟨h, h'⟩
    exact since_exact h h'

theorem eq_same {a b : Nat} (ha : a < 256) (hb : b < 255) (h : Since (AtVersion s w) a b ↔ Since s a b)
    (h' : Since (AtVersion s w) a (b + 1) ↔ Since s a (b + 1)) :
    (w = .ofPair a b) = (s.version = .ofPair a b) :=
  propext ((version_eq_iff (s := AtVersion s w) ha hb).trans
    ((and_congr h (not_congr h')).trans (version_eq_iff ha hb).symm))

end

theorem map_same {α : Type} {f : α → Structure} {g : Structure → Structure} (hf : ∀ a, g (f a) = f a) (y : R α) :
    y.map f = (y.map f).map g := by
  cases y <;> simp [Res.map, hf]

/-- C110: a structure in tables of two versions that have reached the same steps of its type is decoded alike,
and rejected alike. -/
theorem C110_same (oc : Bool) (s : RawStructure) (w : SmbiosVersion)
    (h : ∀ t ∈ Steps s.info, Since (AtVersion s w) t.1 t.2 ↔ Since s t.1 t.2) :
    decodeStructure oc (AtVersion s w) = (decodeStructure oc s).map (Reversioned w) := by
  unfold decodeStructure
  rw [show (AtVersion s w).info = s.info from rfl]
  have step : ∀ {i : InfoType}, s.info = i → ∀ a b, (a, b) ∈ Steps i →
      (Since (AtVersion s w) a b ↔ Since s a b) := by
    intro i hi a b hm
    subst hi
    exact h (a, b) hm
  cases hi : s.info <;> replace step := step hi <;> simp only
  case Bios =>
    have e : bios.Bios.try_from (AtVersion s w) = bios.Bios.try_from s := by
      unfold bios.Bios.try_from
      rw [show (AtVersion s w).version = w from rfl, ge_same (by decide) (by decide) (step 3 1 (by decide)),
        ge_same (by decide) (by decide) (step 2 4 (by decide))]
      rfl
    rw [e]
    refine map_same ?_ _
    intro _; rfl
  case System =>
    have e : system.System.try_from (AtVersion s w) = system.System.try_from s := by
      unfold system.System.try_from system.decode_by_smbios_version
      rw [show (AtVersion s w).version = w from rfl, lt_same (by decide) (by decide) (step 2 1 (by decide)),
        lt_same (by decide) (by decide) (step 2 4 (by decide)),
        lt_same (by decide) (by decide) (step 2 6 (by decide))]
      rfl
    rw [e]
    refine map_same ?_ _
    intro _; rfl
  case Processor =>
    have e : processor.Processor.try_from (AtVersion s w) = processor.Processor.try_from s := by
      unfold processor.Processor.try_from
      rw [show (AtVersion s w).version = w from rfl, lt_same (by decide) (by decide) (step 2 1 (by decide)),
        lt_same (by decide) (by decide) (step 2 3 (by decide)),
        lt_same (by decide) (by decide) (step 2 5 (by decide)),
        lt_same (by decide) (by decide) (step 2 6 (by decide)),
        lt_same (by decide) (by decide) (step 3 0 (by decide))]
      rfl
    rw [e]
    refine map_same ?_ _
    intro _; rfl
  case Cache =>
    have e : cache.Cache.try_from (AtVersion s w) = cache.Cache.try_from s := by
      unfold cache.Cache.try_from
      rw [show (AtVersion s w).version = w from rfl, gt_same (by decide) (by decide) (step 3 2 (by decide)),
        gt_same (by decide) (by decide) (step 2 2 (by decide)),
        gt_same (by decide) (by decide) (step 2 1 (by decide))]
      rfl
    rw [e]
    refine map_same ?_ _
    intro _; rfl
  case SystemSlots =>
    have e : system_slots.SystemSlots.try_from oc (AtVersion s w) = system_slots.SystemSlots.try_from oc s := by
      unfold system_slots.SystemSlots.try_from system_slots.verLt
      simp only [show (AtVersion s w).version = w from rfl]
      rw [lt_same (by decide) (by decide) (step 2 0 (by decide)),
        lt_same (by decide) (by decide) (step 2 1 (by decide)),
        lt_same (by decide) (by decide) (step 2 6 (by decide)),
        lt_same (by decide) (by decide) (step 3 2 (by decide))]
      rfl
    rw [e]
    refine map_same ?_ _
    intro _; rfl
  case BiosLanguage =>
    unfold bios_language.BiosLanguage.try_from
    rw [show (AtVersion s w).version = w from rfl, ge_same (by decide) (by decide) (step 2 1 (by decide))]
    rw [show (AtVersion s w).data = s.data from rfl]
    split
    · cases (letAsStruct bios_language.BiosLanguagePacked2_1.packed s.data : R _) <;> rfl
    · cases (letAsStruct bios_language.BiosLanguagePacked2_0.packed s.data : R _) <;> rfl
  case SystemEventLog =>
    have e : system_event_log.SystemEventLog.try_from oc (AtVersion s w) =
        system_event_log.SystemEventLog.try_from oc s := by
      unfold system_event_log.SystemEventLog.try_from
      simp only [show (AtVersion s w).version = w from rfl,
        eq_same (by decide) (by decide) (step 2 0 (by decide)) (step 2 1 (by decide)),
        ge_same (by decide) (by decide) (step 2 1 (by decide))]
      rfl
    rw [e]
    refine map_same ?_ _
    intro _; rfl
  case PhysicalMemoryArray =>
    have e : physical_memory_array.PhysicalMemoryArray.try_from (AtVersion s w) =
        physical_memory_array.PhysicalMemoryArray.try_from s := by
      unfold physical_memory_array.PhysicalMemoryArray.try_from physical_memory_array.fill2_1
      rw [show (AtVersion s w).version = w from rfl, gt_same (by decide) (by decide) (step 2 2 (by decide)),
        gt_same (by decide) (by decide) (step 2 8 (by decide))]
      rfl
    rw [e]
    refine map_same ?_ _
    intro _; rfl
  case MemoryError32 =>
    have e : memory_error_32.MemoryError32.try_from oc (AtVersion s w) =
        memory_error_32.MemoryError32.try_from oc s := by
      unfold memory_error_32.MemoryError32.try_from
      rw [show (AtVersion s w).version = w from rfl, ge_same (by decide) (by decide) (step 2 1 (by decide))]
      rfl
    rw [e]
    refine map_same ?_ _
    intro _; rfl
  case BuiltInPointingDevice =>
    have e : built_in_pointing_device.BuiltInPointingDevice.try_from oc (AtVersion s w) =
        built_in_pointing_device.BuiltInPointingDevice.try_from oc s := by
      unfold built_in_pointing_device.BuiltInPointingDevice.try_from
      rw [show (AtVersion s w).version = w from rfl, ge_same (by decide) (by decide) (step 2 1 (by decide))]
      rfl
    rw [e]
    refine map_same ?_ _
    intro _; rfl
  case MemoryArrayMappedAddress =>
    have e : memory_array_mapped_address.MemoryArrayMappedAddress.try_from oc (AtVersion s w) =
        memory_array_mapped_address.MemoryArrayMappedAddress.try_from oc s := by
      unfold memory_array_mapped_address.MemoryArrayMappedAddress.try_from
      rw [show (AtVersion s w).version = w from rfl, ge_same (by decide) (by decide) (step 2 1 (by decide)),
        lt_same (by decide) (by decide) (step 2 7 (by decide)),
        ge_same (by decide) (by decide) (step 2 7 (by decide))]
      rfl
    rw [e]
    refine map_same ?_ _
    intro _; rfl
  case MemoryDeviceMappedAddress =>
    have e : memory_device_mapped_address.MemoryDeviceMappedAddress.try_from oc (AtVersion s w) =
        memory_device_mapped_address.MemoryDeviceMappedAddress.try_from oc s := by
      unfold memory_device_mapped_address.MemoryDeviceMappedAddress.try_from
      rw [show (AtVersion s w).version = w from rfl, ge_same (by decide) (by decide) (step 2 1 (by decide)),
        lt_same (by decide) (by decide) (step 2 7 (by decide)),
        ge_same (by decide) (by decide) (step 2 7 (by decide))]
      rfl
    rw [e]
    refine map_same ?_ _
    intro _; rfl
  case PortableBattery =>
    have e : portable_battery.PortableBattery.try_from oc (AtVersion s w) =
        portable_battery.PortableBattery.try_from oc s := by
      unfold portable_battery.PortableBattery.try_from
      simp only [show (AtVersion s w).version = w from rfl,
        eq_same (by decide) (by decide) (step 2 1 (by decide)) (step 2 2 (by decide)),
        ge_same (by decide) (by decide) (step 2 2 (by decide))]
      rfl
    rw [e]
    refine map_same ?_ _
    intro _; rfl
  all_goals first | rfl | (refine map_same ?_ _; intro _; rfl)

/-! ### Each step matters -/

/-- The version before. -/
def before (t : Nat × Nat) : SmbiosVersion := if t.2 = 0 then .ofPair (t.1 - 1) 255 else .ofPair t.1 (t.2 - 1)

/-- Formatted areas that are decoded differently before and after a step. -/
def telling (i : InfoType) (t : Nat × Nat) : Bytes :=
  let blank (n : Nat) : Bytes := List.replicate n 0
  match i, t with
  | .Bios, (3, 1) => (blank 22).set 5 0xFF
  | .Bios, _ => blank 20
  | .System, (2, 6) => (blank 23).set 4 1
  | .System, _ => blank 23
  | .Processor, (2, 6) => (blank 44).set 2 0xFE
  | .Processor, (3, 0) => (blank 44).set 0x1F 0xFF
  | .Processor, _ => blank 44
  | .Cache, _ => blank 32
  | .SystemSlots, (2, 1) => blank 8
  | .SystemSlots, (3, 2) => blank 20
  | .SystemSlots, _ => blank 9
  | .BiosLanguage, _ => blank 18
  | .SystemEventLog, (2, 0) => blank 17
  | .SystemEventLog, _ => blank 16
  | .PhysicalMemoryArray, _ => ((blank 19).set 6 0x80).set 11 1
  | .MemoryArrayMappedAddress, (2, 7) => blank 11
  | .MemoryDeviceMappedAddress, (2, 7) => blank 15
  | .PortableBattery, (2, 2) => blank 12
  | _, _ => blank 28

/-- A structure with such a formatted area, in a table of the version before. -/
def tellingStructure (i : InfoType) (t : Nat × Nat) : RawStructure :=
  { version := before t, info := i, length := .ofNat ((telling i t).length + 4), handle := 1,
    data := telling i t, strings := [] }

theorem steps_matter (oc : Bool) (i : InfoType) : ∀ t ∈ Steps i,
    ¬ decodeStructure oc (AtVersion (tellingStructure i t) (.ofPair t.1 t.2)) =
      (decodeStructure oc (tellingStructure i t)).map (Reversioned (.ofPair t.1 t.2)) := by
  cases oc <;> cases i <;> first | exact fun t ht => absurd ht List.not_mem_nil | decide +kernel

/-- C110, exactly: every step of every type matters. There is a structure whose length byte is right that is
decoded differently in tables of the version of the step and of the version before. -/
theorem C110_each_step (oc : Bool) (i : InfoType) (t : Nat × Nat) (ht : t ∈ Steps i) :
    ∃ s : RawStructure, s.info = i ∧ s.version = before t ∧ Coherent s ∧
      decodeStructure oc (AtVersion s (.ofPair t.1 t.2)) ≠
        (decodeStructure oc s).map (Reversioned (.ofPair t.1 t.2)) :=
  ⟨tellingStructure i t, rfl, rfl, by
    revert t
    cases i <;> first | exact fun t ht => absurd ht List.not_mem_nil | decide +kernel, steps_matter oc i t ht⟩

/-! ### Versions to come -/

/-- C110: from version 3.2 on all versions are read alike. -/
theorem C110_future (oc : Bool) (s : RawStructure) (w : SmbiosVersion) (hs : Since s 3 2)
    (hw : Since (AtVersion s w) 3 2) :
    decodeStructure oc (AtVersion s w) = (decodeStructure oc s).map (Reversioned w) := by
  apply C110_same
  intro t ht
  have : t.1 < 3 ∨ t.1 = 3 ∧ t.2 ≤ 2 := by
    revert t
    cases s.info <;> first | exact fun t ht => absurd ht List.not_mem_nil | decide
  exact ⟨fun _ => since_mono hs this, fun _ => since_mono hw this⟩

/-- The item of a table of version `w`. -/
def ItemAt (w : SmbiosVersion) : Except MalformedStructureError Structure → Except MalformedStructureError Structure
  | .ok x => .ok (Reversioned w x)
  | .error e => .error e

/-- The iterator over the same table in version `w`. -/
def TableAt (w : SmbiosVersion) (s : Structures) : Structures := { s with smbios_version := w }

theorem next_raw_at (oc : Bool) (s : Structures) (w : SmbiosVersion) :
    (TableAt w s).next_raw oc = (s.next_raw oc).map fun r => (r.1.map fun
      | .ok x => .ok (AtVersion x w)
      | .error e => .error e, TableAt w r.2) := by
  obtain ⟨v, len, idx, buffer⟩ := s
  show (⟨w, len, idx, buffer⟩ : Structures).next_raw oc = _
  unfold Structures.next_raw
  simp only
  cases (addU32 oc idx 4 : Fault _) with
  | ok a =>
    simp only [ok_bind]
    by_cases c : a > len
    · rw [if_pos c, if_pos c]; rfl
    rw [if_neg c, if_neg c]
    cases (indexFrom buffer idx.toNat : Fault _) with
    | ok b =>
      simp only [ok_bind]
      cases (letAsStruct HeaderPacked.packed b : Fault _) with
      | ok hdr =>
        simp only [ok_bind]
        cases (addU32 oc idx hdr.len.toUInt32 : Fault _) with
        | ok i =>
          simp only [ok_bind]
          by_cases c : i ≥ len
          · rw [if_pos c, if_pos c]; rfl
          rw [if_neg c, if_neg c]
          cases (indexFrom buffer i.toNat : Fault _) with
          | ok tail =>
            simp only [ok_bind]
            cases findNulNul tail with
            | none => rfl
            | some n =>
              simp only
              cases (indexRange buffer a.toNat i.toNat : Fault _) with
              | ok d =>
                simp only [ok_bind]
                cases (addU32 oc i (UInt32.ofNat (n + 1)) : Fault _) with
                | ok e =>
                  simp only [ok_bind]
                  cases (indexRange buffer i.toNat e.toNat : Fault _) <;> rfl
                | _ => rfl
              | _ => rfl
          | _ => rfl
        | _ => rfl
      | _ => rfl
    | _ => rfl
  | _ => rfl

theorem next_raw_version {oc : Bool} {s s' : Structures} {o} (h : s.next_raw oc = .ok (o, s')) :
    s'.smbios_version = s.smbios_version ∧ ∀ r, o = some (.ok r) → r.version = s.smbios_version := by
  have e := next_raw_at oc s s.smbios_version
  rw [show TableAt s.smbios_version s = s from rfl, h] at e
  have e := Prod.mk.inj (Res.ok.inj e)
  have e2 : s'.smbios_version = (TableAt s.smbios_version s').smbios_version :=
    congrArg Structures.smbios_version e.2
  refine ⟨e2, ?_⟩
  rintro r rfl
  have e1 : r.version = (AtVersion r s.smbios_version).version :=
    congrArg RawStructure.version (Except.ok.inj (Option.some.inj e.1))
  exact e1

theorem toItem_reversioned (w : SmbiosVersion) (y : R Structure) :
    (y.map (Reversioned w)).toItem = y.toItem.map (ItemAt w) := by
  cases y <;> rfl

/-- C110: so a call of `next` on a table of these versions gives the same, an item, the end or a fault. -/
theorem C110_next (oc : Bool) (s : Structures) (w : SmbiosVersion) (hs : NotAfter ⟨3, 2⟩ s.smbios_version)
    (hw : NotAfter ⟨3, 2⟩ w) :
    (TableAt w s).next oc = (s.next oc).map fun r => (r.1.map (ItemAt w), TableAt w r.2) := by
  have major : ∀ v : SmbiosVersion, NotAfter ⟨3, 2⟩ v → v.major ≥ 3 := by
    intro v hv
    rw [ge_iff_le, UInt8.le_iff_toNat_le]
    rcases hv with k | k
    · exact Nat.le_of_lt k
    · exact Nat.le_of_eq k.1
  unfold Structures.next
  rw [next_raw_at]
  cases h : s.next_raw oc with
  | ok r =>
    obtain ⟨o, s'⟩ := r
    obtain ⟨hv, hr⟩ := next_raw_version h
    match o with
    | none => rfl
    | some (.error e) => rfl
    | some (.ok x) =>
      have hx := hr x rfl
      have hd := C110_future oc x w (by unfold Since; rw [hx]; exact hs) hw
      simp only [Res.map, ok_bind, Option.map]
      rw [hd, toItem_reversioned, show (AtVersion x w).info = x.info from rfl]
      have m1 : (TableAt w s').smbios_version.major ≥ 3 := major _ hw
      have m2 : s'.smbios_version.major ≥ 3 := by rw [hv]; exact major _ hs
      cases (decodeStructure oc x).toItem with
      | ok y =>
        simp only [Res.map, ok_bind, pure_eq_ok, m1, m2, true_and]
        split <;> rfl
      | _ => rfl
  | err e => cases e
  | _ => rfl

/-- C110: so whole tables of these versions give the same items. -/
theorem C110_table (oc : Bool) (s : Structures) (w : SmbiosVersion) (hs : NotAfter ⟨3, 2⟩ s.smbios_version)
    (hw : NotAfter ⟨3, 2⟩ w) (items : List (Except MalformedStructureError Structure))
    (h : CollectsR (Structures.next oc) s items) :
    CollectsR (Structures.next oc) (TableAt w s) (items.map (ItemAt w)) := by
  induction h with
  | done h => exact .done (by rw [C110_next oc _ w hs hw, h]; rfl)
  | @step s s' i items h t ih =>
    refine .step (by rw [C110_next oc _ w hs hw, h]; rfl) (ih ?_)
    have e := C110_next oc s s.smbios_version hs hs
    rw [show TableAt s.smbios_version s = s from rfl, h] at e
    have e := congrArg Structures.smbios_version (Prod.mk.inj (Res.ok.inj e)).2
    rw [show s'.smbios_version = s.smbios_version from e]
    exact hs

example : NotAfter ⟨3, 2⟩ ⟨3, 7⟩ ∧ NotAfter ⟨3, 2⟩ ⟨4, 0⟩ ∧ ¬ NotAfter ⟨3, 2⟩ ⟨3, 1⟩ := by decide
example : ∀ t ∈ Steps .MemoryError32,
    Since (AtVersion (tellingStructure .MemoryError32 (2, 1)) ⟨1, 0⟩) t.1 t.2 ↔
      Since (tellingStructure .MemoryError32 (2, 1)) t.1 t.2 := by decide

end Dmi.Props
