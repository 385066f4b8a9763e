import Verif.Model.CostDecode
import Verif.Props.Cost
/-!
# What the counted decoders compute and count
-/
namespace Dmi
open Props

/-- The outcome is `y`, and at most `k` times `L` bytes were looked at. -/
def Counts {α : Type} (L k : Nat) (x : CR α) (y : R α) : Prop := x.out = y ∧ x.cost ≤ k * L

namespace Counts
variable {α β : Type} {L k m : Nat}

theorem pure (a : α) : Counts L k (Pure.pure a) (Pure.pure a) := ⟨rfl, Nat.zero_le _⟩
theorem err (e : MalformedStructureError) : Counts (α := α) L k (CR.err e) (.err e) := ⟨rfl, Nat.zero_le _⟩
theorem panic : Counts (α := α) L k CR.panic .panic := ⟨rfl, Nat.zero_le _⟩
theorem free (x : R α) : Counts L k (CR.free x) x := ⟨rfl, Nat.zero_le _⟩

theorem bind {x : CR α} {y : R α} {f : α → CR β} {g : α → R β} (h : Counts L k x y)
    (hf : ∀ a, Counts L m (f a) (g a)) : Counts L (k + m) (x >>= f) (y >>= g) := by
  obtain ⟨rfl, hc⟩ := h
  obtain ⟨o, c⟩ := x
  rw [Counts, Nat.add_mul]
  cases o with
  | ok a => exact ⟨(hf a).1, Nat.add_le_add hc (hf a).2⟩
  | err e => exact ⟨rfl, Nat.le_add_right_of_le hc⟩
  | panic => exact ⟨rfl, Nat.le_add_right_of_le hc⟩
  | ub => exact ⟨rfl, Nat.le_add_right_of_le hc⟩

theorem bind_free {x : R α} {f : α → CR β} {g : α → R β} (hf : ∀ a, Counts L k (f a) (g a)) :
    Counts L k (CR.free x >>= f) (x >>= g) := by
  have := bind (k := 0) (free (L := L) x) hf
  rwa [Nat.zero_add] at this

theorem bind_one {x : CR α} {y : R α} {f : α → CR β} {g : α → R β} (h : Counts L 1 x y)
    (hf : ∀ a, Counts L k (f a) (g a)) : Counts L (k + 1) (x >>= f) (y >>= g) := by
  rw [Nat.add_comm]; exact bind h hf

theorem ite {c : Prop} [Decidable c] {x x' : CR α} {y y' : R α} (h : Counts L k x y) (h' : Counts L k x' y') :
    Counts L k (if c then x else x') (if c then y else y') := by
  split
  · exact h
  · exact h'

theorem map {x : CR α} {y : R α} (f : α → β) (h : Counts L k x y) : Counts L k (x.map f) (y.map f) :=
  ⟨by rw [← h.1]; rfl, h.2⟩

theorem mono {x : CR α} {y : R α} (h : Counts L k x y) (hk : k ≤ m) : Counts L m x y :=
  ⟨h.1, Nat.le_trans h.2 (Nat.mul_le_mul_right _ hk)⟩

theorem toOption {x : CR α} {y : R α} (h : Counts L k x y) : Counts L k x.toOption y.toOption :=
  ⟨by rw [← h.1]; rfl, h.2⟩

theorem find (s : RawStructure) (i : UInt8) :
    Counts (2 * s.strings.length) 1 (s.find_stringW i) (s.find_string i) :=
  ⟨(C90_string s i).1, by rw [Nat.one_mul]; exact (C90_string s i).2⟩

theorem get [Usize] (oc : Bool) (s : RawStructure) (o : Nat) :
    Counts (2 * s.strings.length) 1 (s.get_stringW oc o) (s.get_string oc o) :=
  bind_free fun i => find s i

end Counts

theorem countFuelC_spec : ∀ (n : Nat) (s : StructureStrings), (s.countFuelC n).1 = (s.collectFuel n).length ∧
    (s.countFuelC n).2 ≤ 2 * (s.bytes.length - s.start) := by
  intro n
  induction n with
  | zero => intro s; exact ⟨rfl, Nat.zero_le _⟩
  | succ n ih =>
    intro s
    obtain ⟨h1, h2, h3⟩ := strings_count s
    rw [StructureStrings.countFuelC, StructureStrings.collectFuel, ← strings_nextC]
    cases h : s.nextC with
    | mk x c =>
    obtain ⟨o, s'⟩ := x
    rw [h] at h1 h2 h3
    cases o with
    | none => exact ⟨rfl, h1⟩
    | some a =>
      have h2 : s'.bytes = s.bytes := h2
      have h3 := h3 rfl
      have := ih s'
      simp only at h3 ⊢
      rw [h2] at this
      exact ⟨by rw [this.1]; rfl, by omega⟩

theorem Counts.count (s : RawStructure) :
    Counts (2 * s.strings.length) 1 s.stringsIter.countW (.ok s.stringsIter.count) := by
  have := countFuelC_spec (s.stringsIter.bytes.length + 1) s.stringsIter
  exact ⟨congrArg Res.ok this.1, by rw [Nat.one_mul]; exact this.2⟩

/-- Takes a counted decoder apart. -/
macro "counts" : tactic => `(tactic| repeat' first
  | exact Counts.pure _
  | exact Counts.err _
  | exact Counts.panic
  | apply Counts.ite
  | (refine Counts.bind_free fun _ => ?_)
  | (refine Counts.bind_one (Counts.find _ _) fun _ => ?_)
  | (refine Counts.bind_one (Counts.get _ _ _) fun _ => ?_)
  | (refine Counts.bind_one (Counts.toOption (Counts.get _ _ _)) fun _ => ?_))

theorem bios.Bios.counts (s : RawStructure) :
    Counts (2 * s.strings.length) 3 (bios.Bios.try_fromC s) (bios.Bios.try_from s) := by
  unfold bios.Bios.try_fromC bios.Bios.try_from
  counts

theorem system.System.counts (s : RawStructure) :
    Counts (2 * s.strings.length) 6 (system.System.try_fromC s) (system.System.try_from s) := by
  unfold system.System.try_fromC system.System.try_from
  counts

theorem baseboard.BaseBoard.counts (s : RawStructure) :
    Counts (2 * s.strings.length) 6 (baseboard.BaseBoard.try_fromC s) (baseboard.BaseBoard.try_from s) := by
  unfold baseboard.BaseBoard.try_fromC baseboard.BaseBoard.try_from
  counts

theorem processor.Processor.counts (s : RawStructure) :
    Counts (2 * s.strings.length) 6 (processor.Processor.try_fromC s) (processor.Processor.try_from s) := by
  unfold processor.Processor.try_fromC processor.Processor.try_from
  counts

theorem cache.Cache.counts (s : RawStructure) :
    Counts (2 * s.strings.length) 1 (cache.Cache.try_fromC s) (cache.Cache.try_from s) := by
  unfold cache.Cache.try_fromC cache.Cache.try_from
  counts

theorem port_connector.PortConnector.counts (s : RawStructure) :
    Counts (2 * s.strings.length) 2 (port_connector.PortConnector.try_fromC s) (port_connector.PortConnector.try_from s) := by
  unfold port_connector.PortConnector.try_fromC port_connector.PortConnector.try_from
  counts

theorem group_associations.GroupAssociations.counts [Usize] (oc : Bool) (s : RawStructure) :
    Counts (2 * s.strings.length) 1 (group_associations.GroupAssociations.try_fromC oc s) (group_associations.GroupAssociations.try_from oc s) := by
  unfold group_associations.GroupAssociations.try_fromC group_associations.GroupAssociations.try_from
  counts

theorem memory_device.MemoryDevice.counts [Usize] (oc : Bool) (s : RawStructure) :
    Counts (2 * s.strings.length) 7 (memory_device.MemoryDevice.try_fromC oc s) (memory_device.MemoryDevice.try_from oc s) := by
  unfold memory_device.MemoryDevice.try_fromC memory_device.MemoryDevice.try_from
  counts

theorem enclosure.counts_sku (s : RawStructure) (o : Option UInt8) :
    Counts (2 * s.strings.length) 1 (enclosure.findSkuC s o) (enclosure.findSku s o) := by
  cases o with
  | none => exact Counts.pure _
  | some i => exact Counts.bind_one (k := 0) (Counts.find s i) fun _ => Counts.pure _

theorem enclosure.Enclosure.counts [Usize] (oc : Bool) (s : RawStructure) :
    Counts (2 * s.strings.length) 5 (enclosure.Enclosure.try_fromC oc s) (enclosure.Enclosure.try_from oc s) := by
  unfold enclosure.Enclosure.try_fromC enclosure.Enclosure.try_from
  counts
  exact Counts.bind_one (k := 0) (enclosure.counts_sku _ _) fun _ => Counts.pure _

theorem system_slots.SystemSlots.counts [Usize] (oc : Bool) (s : RawStructure) :
    Counts (2 * s.strings.length) 1 (system_slots.SystemSlots.try_fromC oc s)
      (system_slots.SystemSlots.try_from oc s) := by
  unfold system_slots.SystemSlots.try_fromC system_slots.SystemSlots.try_from
  unfold system_slots.SystemSlots.decodeC system_slots.SystemSlots.decode
  counts

theorem system_configuration_options.SystemConfigurationOptions.counts [Usize] (oc : Bool) (s : RawStructure) :
    Counts (2 * s.strings.length) 1 (system_configuration_options.SystemConfigurationOptions.try_fromC oc s)
      (system_configuration_options.SystemConfigurationOptions.try_from oc s) := by
  unfold system_configuration_options.SystemConfigurationOptions.try_fromC
  unfold system_configuration_options.SystemConfigurationOptions.try_from
  refine Counts.bind_free fun c => ?_
  exact Counts.bind_one (k := 0) (g := fun n => if c.toNat ≠ n then _ else _) (Counts.count s) fun n =>
    Counts.ite (Counts.err _) (Counts.pure _)

theorem portable_battery.counts_opt [Usize] (oc : Bool) (s : RawStructure) (o : Nat) :
    Counts (2 * s.strings.length) 1 (portable_battery.optStringC oc s o) (portable_battery.optString oc s o) := by
  refine Counts.bind_free fun x => ?_
  cases x.filter (fun idx => idx != 0) with
  | none => exact Counts.pure _
  | some i => exact Counts.toOption (Counts.find s i)

theorem portable_battery.PortableBattery.counts [Usize] (oc : Bool) (s : RawStructure) :
    Counts (2 * s.strings.length) 7 (portable_battery.PortableBattery.try_fromC oc s)
      (portable_battery.PortableBattery.try_from oc s) := by
  unfold portable_battery.PortableBattery.try_fromC portable_battery.PortableBattery.try_from
  counts
  refine Counts.bind_one (portable_battery.counts_opt _ _ _) fun _ => ?_
  counts
  refine Counts.bind_one (portable_battery.counts_opt _ _ _) fun _ => ?_
  counts

/-- What each type looks up: so often it looks at the string set at most. -/
def lookups : InfoType → Nat
  | .Bios => 3
  | .System => 6
  | .BaseBoard => 6
  | .Enclosure => 5
  | .Processor => 6
  | .Cache => 1
  | .PortConnector => 2
  | .SystemSlots => 1
  | .SystemConfigurationOptions => 1
  | .GroupAssociations => 1
  | .MemoryDevice => 7
  | .PortableBattery => 7
  | _ => 0

theorem decode_counts [Usize] (oc : Bool) (s : RawStructure) :
    Counts (2 * s.strings.length) (lookups s.info) (decodeStructureC oc s) (decodeStructure oc s) := by
  unfold decodeStructureC decodeStructure
  cases s.info with
  | Bios => exact (bios.Bios.counts s).map _
  | System => exact (system.System.counts s).map _
  | BaseBoard => exact (baseboard.BaseBoard.counts s).map _
  | Enclosure => exact (enclosure.Enclosure.counts oc s).map _
  | Processor => exact (processor.Processor.counts s).map _
  | Cache => exact (cache.Cache.counts s).map _
  | PortConnector => exact (port_connector.PortConnector.counts s).map _
  | SystemSlots => exact (system_slots.SystemSlots.counts oc s).map _
  | SystemConfigurationOptions =>
    exact (system_configuration_options.SystemConfigurationOptions.counts oc s).map _
  | GroupAssociations => exact (group_associations.GroupAssociations.counts oc s).map _
  | MemoryDevice => exact (memory_device.MemoryDevice.counts oc s).map _
  | PortableBattery => exact (portable_battery.PortableBattery.counts oc s).map _
  | _ => first | exact Counts.free _ | exact Counts.pure _

end Dmi
