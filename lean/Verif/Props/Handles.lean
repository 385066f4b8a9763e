import Verif.Props.Truth
import Verif.Props.Global
/-!
# C77: the handle is reported, nothing else
-/
namespace Dmi.Props
open Spec

/-- The structure with another handle. -/
def Under (s : RawStructure) (h : UInt16) : RawStructure := { s with handle := h }

/-- The value with another handle. A BIOS language value holds the structure. -/
def withHandle (h : UInt16) : Structure → Structure
  | .Bios x => .Bios { x with handle := h }
  | .System x => .System { x with handle := h }
  | .BaseBoard x => .BaseBoard { x with handle := h }
  | .Enclosure x => .Enclosure { x with handle := h }
  | .Processor x => .Processor { x with handle := h }
  | .Cache x => .Cache { x with handle := h }
  | .PortConnector x => .PortConnector { x with handle := h }
  | .SystemSlots x => .SystemSlots { x with handle := h }
  | .OemStrings x => .OemStrings { x with handle := h }
  | .SystemConfigurationOptions x => .SystemConfigurationOptions { x with handle := h }
  | .BiosLanguage x => .BiosLanguage { x with
      handle := h
      installable_languages := { x.installable_languages with
        structure_ := Under x.installable_languages.structure_ h } }
  | .GroupAssociations x => .GroupAssociations { x with handle := h }
  | .SystemEventLog x => .SystemEventLog { x with handle := h }
  | .MemoryDevice x => .MemoryDevice { x with handle := h }
  | .MemoryError32 x => .MemoryError32 { x with handle := h }
  | .MemoryArrayMappedAddress x => .MemoryArrayMappedAddress { x with handle := h }
  | .MemoryDeviceMappedAddress x => .MemoryDeviceMappedAddress { x with handle := h }
  | .BuiltInPointingDevice x => .BuiltInPointingDevice { x with handle := h }
  | .PortableBattery x => .PortableBattery { x with handle := h }
  | .PhysicalMemoryArray x => .PhysicalMemoryArray { x with handle := h }
  | .Other x => .Other { x with handle := h }

/-- The error with another handle. -/
def errorWithHandle (h : UInt16) : MalformedStructureError → MalformedStructureError
  | .InvalidStringIndex i _ n => .InvalidStringIndex i h n
  | .InvalidFormattedSectionLength i _ t n => .InvalidFormattedSectionLength i h t n
  | e => e

/-- The same outcome, but for the handle. -/
def Rehandled (h : UInt16) : R Structure → R Structure → Prop
  | .ok v, y => y = .ok (withHandle h v)
  | .err e, y => y = .err (errorWithHandle h e)
  | .panic, y => y = .panic
  | .ub, y => y = .ub

/-! ### Simulation along `do` blocks -/

/-- `y` is `x` with the errors renamed and `g` applied to the value. -/
def Sim {α β : Type} (h : UInt16) (g : α → β) (x : R α) (y : R β) : Prop :=
  y = (x.mapErr (errorWithHandle h)).map g

variable {α β γ : Type} {h : UInt16} {g : α → β} {s : RawStructure}

theorem Sim.bind {x x' : R γ} {k : γ → R α} {k' : γ → R β} (hx : Sim h id x x')
    (hk : ∀ a, x = .ok a → Sim h g (k a) (k' a)) : Sim h g (x >>= k) (x' >>= k') := by
  unfold Sim at *
  subst hx
  cases x with
  | ok a => exact hk a rfl
  | _ => rfl
theorem Sim.ite {c : Prop} {d d' : Decidable c} {x y : R α} {x' y' : R β} (hx : c → Sim h g x x')
    (hy : ¬ c → Sim h g y y') : Sim h g (@ite _ c d x y) (@ite _ c d' x' y') := by
  by_cases k : c
  · rw [if_pos k, if_pos k]; exact hx k
  · rw [if_neg k, if_neg k]; exact hy k
theorem Sim.ok {a : α} {b : β} (e : b = g a) : Sim h g (.ok a) (.ok b) := by subst e; rfl
theorem Sim.pure {a : α} {b : β} (e : b = g a) : Sim h g (Pure.pure a) (Pure.pure b) := by
  subst e; rfl
theorem Sim.panic : Sim h g .panic .panic := rfl
theorem Sim.err {e e' : MalformedStructureError} (k : e' = errorWithHandle h e) :
    Sim h g (.err e) (.err e') := by subst k; rfl
theorem Sim.leaf {x : R α} (k : Errs (fun e => errorWithHandle h e = e) x) : Sim h id x x := by
  cases x with
  | err e => show _ = Res.err _; rw [k e rfl]
  | _ => rfl
theorem Sim.toOption {x x' : R α} (k : Sim h id x x') : Sim h id x.toOption x'.toOption := by
  unfold Sim at k; subst k; cases x <;> rfl
theorem Sim.ofOption {e e' : MalformedStructureError} (k : e' = errorWithHandle h e) (o : Option α) :
    Sim h id (Res.ofOption e o) (Res.ofOption e' o) := by
  subst k; cases o <;> rfl
theorem Sim.find_string (i : UInt8) : Sim h id (s.find_string i) ((Under s h).find_string i) := by
  unfold RawStructure.find_string
  exact .ite (fun _ => .ok rfl) fun _ => .ofOption rfl _
theorem getBytes_fixed (oc : Bool) (n o : Nat) :
    Errs (fun e => errorWithHandle h e = e) (s.getBytes oc n o) := by
  refine .bind ?_ fun _ _ => .bind ?_ fun _ _ => .ite (fun _ => .ok) fun _ => .err rfl
  · unfold subUsize; split <;> (try split) <;> nofun
  · unfold addUsize; split <;> (try split) <;> nofun
theorem Sim.get8 (oc : Bool) (o : Nat) : Sim h id (s.get8 oc o) ((Under s h).get8 oc o) :=
  .leaf (.bind (getBytes_fixed _ _ _) fun _ _ => .pure)
theorem Sim.get16 (oc : Bool) (o : Nat) : Sim h id (s.get16 oc o) ((Under s h).get16 oc o) :=
  .leaf (.bind (getBytes_fixed _ _ _) fun _ _ => .pure)
theorem Sim.get32 (oc : Bool) (o : Nat) : Sim h id (s.get32 oc o) ((Under s h).get32 oc o) :=
  .leaf (.bind (getBytes_fixed _ _ _) fun _ _ => .pure)
theorem Sim.get64 (oc : Bool) (o : Nat) : Sim h id (s.get64 oc o) ((Under s h).get64 oc o) :=
  .leaf (.bind (getBytes_fixed _ _ _) fun _ _ => .pure)
theorem Sim.get_string (oc : Bool) (o : Nat) :
    Sim h id (s.get_string oc o) ((Under s h).get_string oc o) :=
  .bind (.get8 _ _) fun _ _ => .find_string _
theorem Sim.get_slice (oc : Bool) (o n : Nat) :
    Sim h id (s.get_slice oc o n) ((Under s h).get_slice oc o n) := by
  refine .leaf (.bind ?_ fun _ _ => .bind ?_ fun _ _ => .bind ?_ fun _ _ => .pure)
  · unfold subUsize; split <;> (try split) <;> nofun
  · unfold subUsize; split <;> (try split) <;> nofun
  · unfold addUsize; split <;> (try split) <;> nofun

/-- Decomposes a `Sim` goal about a `do` block. -/
macro "sim" : tactic =>
  `(tactic| (
      repeat' first
        | with_reducible exact Sim.panic
        | with_reducible exact Sim.pure rfl
        | with_reducible exact Sim.ok rfl
        | with_reducible exact Sim.err rfl
        | with_reducible exact Sim.get8 _ _
        | with_reducible exact Sim.get16 _ _
        | with_reducible exact Sim.get32 _ _
        | with_reducible exact Sim.get64 _ _
        | with_reducible exact Sim.get_string _ _
        | with_reducible exact Sim.get_slice _ _ _
        | with_reducible exact Sim.find_string _
        | with_reducible exact Sim.ofOption rfl _
        | with_reducible exact Sim.leaf (letAsStruct_errs _ _)
        | with_reducible exact Sim.leaf (indexAt_errs _ _)
        | with_reducible exact Sim.leaf (indexFrom_errs _ _)
        | with_reducible exact Sim.leaf (indexRange_errs _ _ _)
        | with_reducible exact Sim.leaf (mulU8_errs _ _ _)
        | with_reducible exact Sim.leaf (subUsize_errs _ _ _)
        | (with_reducible refine Sim.toOption ?_)
        | (with_reducible refine Sim.bind ?_ (fun _ _ => ?_))
        | (with_reducible refine Sim.ite (fun _ => ?_) (fun _ => ?_))
        | split))

theorem under_version : (Under s h).version = s.version := rfl
theorem under_info : (Under s h).info = s.info := rfl
theorem under_length : (Under s h).length = s.length := rfl
theorem under_data : (Under s h).data = s.data := rfl
theorem under_strings : (Under s h).strings = s.strings := rfl
theorem under_iter : (Under s h).stringsIter = s.stringsIter := rfl
theorem under_handle : (Under s h).handle = h := rfl

/-- The fields of `Under s h` but for the handle are those of `s`. -/
macro "under" : tactic =>
  `(tactic| dsimp +instances only [under_version, under_info, under_length, under_data, under_strings,
    under_iter, under_handle])

/-- Decomposes the claim that the errors of a `do` block name no handle. -/
macro "fixed" : tactic =>
  `(tactic| (
      repeat' first
        | with_reducible exact Errs.pure
        | with_reducible exact Errs.ok
        | with_reducible exact Errs.panic
        | with_reducible exact Errs.ub
        | with_reducible exact Errs.err rfl
        | with_reducible exact letAsStruct_errs _ _
        | with_reducible exact indexAt_errs _ _
        | with_reducible exact indexFrom_errs _ _
        | with_reducible exact indexRange_errs _ _ _
        | with_reducible exact mulU8_errs _ _ _
        | with_reducible exact ofOption_errs rfl _
        | (with_reducible refine Errs.bind ?_ (fun _ _ => ?_))
        | (with_reducible refine Errs.ite (fun _ => ?_) (fun _ => ?_))
        | split))

theorem optionals_fixed (oc : Bool) (b : Bytes) :
    Errs (fun e => errorWithHandle h e = e) (enclosure.readOptionals oc b) := by
  have k1 {γ : Type} (n : Nat) (p : Packed γ) (b : Bytes) :
      Errs (fun e => errorWithHandle h e = e) (enclosure.read_bytes n p b) := by
    unfold enclosure.read_bytes
    exact .ite (fun _ => .ok) fun _ => .bind (letAsStruct_errs _ _) fun _ _ =>
      .bind (indexFrom_errs _ _) fun _ _ => .ok
  unfold enclosure.readOptionals enclosure.read_bytes8 enclosure.read_bytes32
    enclosure.ContainedElements.new enclosure.read_bytes8
  fixed <;> exact k1 _ _ _

theorem configuration_fixed (w : UInt16) :
    Errs (fun e => errorWithHandle h e = e) (cache.CacheConfiguration.ofU16 w) := by
  unfold cache.CacheConfiguration.ofU16
  fixed
  · unfold cache.CacheLevel.ofU16; simp only; fixed
  · unfold cache.CacheLocation.ofU16; simp only; fixed
  · unfold cache.CacheOperationalMode.ofU16; simp only; fixed

theorem Sim.bind_map {δ : Type} {f : γ → δ} {x : R γ} {x' : R δ} {k : γ → R α} {k' : δ → R β}
    (hx : Sim h f x x') (hk : ∀ a, x = .ok a → Sim h g (k a) (k' (f a))) :
    Sim h g (x >>= k) (x' >>= k') := by
  unfold Sim at *
  subst hx
  cases x with
  | ok a => exact hk a rfl
  | _ => rfl

theorem sim_array (hv : Since s 2 2) : Sim h (fun v => { v with handle := h })
    (physical_memory_array.PhysicalMemoryArray.try_from s)
    (physical_memory_array.PhysicalMemoryArray.try_from (Under s h)) := by
  unfold physical_memory_array.PhysicalMemoryArray.try_from
  refine .bind_map (f := fun p => ({ p.1 with handle := h }, p.2)) ?_ fun p _ => ?_
  · unfold physical_memory_array.fill2_1
    under
    rw [if_pos ((gt_iff (by decide) (by decide)).2 hv), if_pos ((gt_iff (by decide) (by decide)).2 hv)]
    unfold physical_memory_array.get_optional_dword physical_memory_array.get_optional_word
      physical_memory_array.get_dword physical_memory_array.get_word
    sim
  · unfold physical_memory_array.get_optional_qword physical_memory_array.get_qword
    under
    sim

theorem decode_sim (oc : Bool) (s : RawStructure) (h : UInt16)
    (hx : s.info = .PhysicalMemoryArray → Since s 2 2) :
    Sim h (withHandle h) (decodeStructure oc s) (decodeStructure oc (Under s h)) := by
  have map {α : Type} {g : α → α} {c : α → Structure} (hc : ∀ v, withHandle h (c v) = c (g v))
      {x y : R α} (k : Sim h g x y) : Sim h (withHandle h) (x.map c) (y.map c) := by
    unfold Sim at *; subst k
    cases x with
    | ok a => show Res.ok _ = Res.ok _; rw [hc]
    | _ => rfl
  unfold decodeStructure
  rw [under_info]
  split <;> rename_i hi
  · refine map (c := .Bios) (fun _ => rfl) ?_; unfold bios.Bios.try_from; under; sim
  · refine map (c := .System) (fun _ => rfl) ?_; unfold system.System.try_from; under; sim
  · refine map (c := .BaseBoard) (fun _ => rfl) ?_; unfold baseboard.BaseBoard.try_from; under; sim
  · refine map (c := .Enclosure) (fun _ => rfl) ?_; unfold enclosure.Enclosure.try_from enclosure.findSku; under; sim
    exact .leaf (optionals_fixed _ _)
  · refine map (c := .Processor) (fun _ => rfl) ?_; unfold processor.Processor.try_from; under; sim
  · refine map (c := .Cache) (fun _ => rfl) ?_; unfold cache.Cache.try_from; under; sim <;> exact .leaf (configuration_fixed _)
  · refine map (c := .PortConnector) (fun _ => rfl) ?_; unfold port_connector.PortConnector.try_from; under; sim
  · refine map (c := .SystemSlots) (fun _ => rfl) ?_
    unfold system_slots.SystemSlots.try_from system_slots.SystemSlots.decode; under; sim
  · refine map (c := .OemStrings) (fun _ => rfl) ?_; unfold oem_strings.OemStrings.try_from; under; sim
  · refine map (c := .SystemConfigurationOptions) (fun _ => rfl) ?_
    unfold system_configuration_options.SystemConfigurationOptions.try_from; under; sim
  · refine map (c := .BiosLanguage) (fun _ => rfl) ?_; unfold bios_language.BiosLanguage.try_from; under; sim <;>
      exact .pure rfl
  · refine map (c := .GroupAssociations) (fun _ => rfl) ?_; unfold group_associations.GroupAssociations.try_from; under; sim
    exact .ofOption rfl _
  · refine map (c := .SystemEventLog) (fun _ => rfl) ?_
    unfold system_event_log.SystemEventLog.try_from system_event_log.SystemEventLog.decode; under; sim
    unfold system_event_log.descriptors system_event_log.SupportedEventLogTypeDescriptors.new; sim
  · refine map (c := .PhysicalMemoryArray) (fun _ => rfl) ?_
    exact sim_array (hx hi)
  · refine map (c := .MemoryDevice) (fun _ => rfl) ?_; unfold memory_device.MemoryDevice.try_from; under; sim
  · refine map (c := .MemoryError32) (fun _ => rfl) ?_; unfold memory_error_32.MemoryError32.try_from; under; sim
  · refine map (c := .MemoryArrayMappedAddress) (fun _ => rfl) ?_
    unfold memory_array_mapped_address.MemoryArrayMappedAddress.try_from; under; sim
  · refine map (c := .MemoryDeviceMappedAddress) (fun _ => rfl) ?_
    unfold memory_device_mapped_address.MemoryDeviceMappedAddress.try_from; under; sim
  · refine map (c := .BuiltInPointingDevice) (fun _ => rfl) ?_
    unfold built_in_pointing_device.BuiltInPointingDevice.try_from; under; sim
  · refine map (c := .PortableBattery) (fun _ => rfl) ?_
    unfold portable_battery.PortableBattery.try_from portable_battery.optString; under; sim
  · exact .ok rfl

/-- C77, full statement: a structure with another handle decodes to the same outcome, but for the
handle. -/
def C77_full : Prop := ∀ (oc : Bool) (s : RawStructure) (h : UInt16),
  Rehandled h (decodeStructure oc s) (decodeStructure oc (Under s h))

/-- C77: the full statement holds of everything but physical memory arrays up to version 2.1. -/
theorem C77_handle_partial (oc : Bool) (s : RawStructure) (h : UInt16)
    (hx : s.info = .PhysicalMemoryArray → Since s 2 2) :
    Rehandled h (decodeStructure oc s) (decodeStructure oc (Under s h)) := by
  have k := decode_sim oc s h hx
  unfold Sim at k
  rw [k]
  cases decodeStructure oc s <;> rfl

/-- C77: those are decoded to the same value whatever the handle. -/
theorem C77_old_array (oc : Bool) (s : RawStructure) (h : UInt16) (hi : s.info = .PhysicalMemoryArray)
    (hv : ¬ Since s 2 2) : decodeStructure oc (Under s h) = decodeStructure oc s := by
  obtain ⟨st, h1, -⟩ := C57_old_array oc s hi hv
  have h2 : ¬ s.version.gt (.ofPair 2 1) = true := fun h' => hv ((gt_iff (by decide) (by decide)).1 h')
  unfold decodeStructure
  rw [under_info, hi]
  simp only
  unfold physical_memory_array.PhysicalMemoryArray.try_from physical_memory_array.fill2_1
  under
  rw [if_neg h2, if_neg h2]

/-- C77, the full statement fails. -/
theorem C77_full_false : ¬ C77_full := by
  intro hf
  obtain ⟨st, h1, h2⟩ := C57_old_array true oldArray rfl (by decide)
  have := hf true oldArray 1
  rw [C77_old_array true oldArray 1 rfl (by decide), h1] at this
  simp only [Rehandled, Res.ok.injEq] at this
  have k := congrArg handleOf this
  rw [h2] at k
  cases st <;> first | cases k | skip

/-- C77: hence whether a structure is accepted does not depend on its handle. -/
theorem C77_accepted (oc : Bool) (s : RawStructure) (h : UInt16) :
    (∃ v, decodeStructure oc (Under s h) = .ok v) ↔ ∃ v, decodeStructure oc s = .ok v := by
  by_cases hx : s.info = .PhysicalMemoryArray ∧ ¬ Since s 2 2
  · rw [C77_old_array oc s h hx.1 hx.2]
  · have k := C77_handle_partial oc s h fun e => Classical.not_not.1 fun n => hx ⟨e, n⟩
    generalize decodeStructure oc s = x at k
    generalize decodeStructure oc (Under s h) = y at k
    cases x <;> cases k <;> simp

example : exampleBoard.info = .PhysicalMemoryArray → Since exampleBoard 2 2 := by intro h; cases h
example : Rehandled 7 (decodeStructure true exampleBoard) (decodeStructure true (Under exampleBoard 7)) :=
  C77_handle_partial _ _ _ (by intro h; cases h)
/-- The error names the handle. -/
example : decodeStructure true (Under oneOption 0xABCD) =
    .err (.InvalidStringIndex .SystemConfigurationOptions 0xABCD 1) := by decide +kernel

end Dmi.Props
