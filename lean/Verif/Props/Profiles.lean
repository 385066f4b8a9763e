import Verif.Props.Crash
import Verif.Model.Flat
import Verif.Model.Bitfield
/-!
# C75: builds with and without overflow checks
-/
namespace Dmi.Props
open Spec

/-- `x`, the outcome with overflow checks, is a panic or the outcome `y` without them. -/
def Agrees {ε α : Type} (x y : Res ε α) : Prop := x = .panic ∨ x = y

namespace Agrees
variable {ε ε' α β : Type}

theorem refl (x : Res ε α) : Agrees x x := .inr rfl

theorem bind {x y : Res ε α} {f g : α → Res ε β} (h : Agrees x y) (hf : ∀ a, Agrees (f a) (g a)) :
    Agrees (x >>= f) (y >>= g) := by
  rcases h with rfl | rfl
  · exact .inl rfl
  · cases x with
    | ok a => exact hf a
    | err e => exact .inr rfl
    | panic => exact .inl rfl
    | ub => exact .inr rfl

theorem ite {c : Prop} [Decidable c] {x y x' y' : Res ε α} (h : c → Agrees x y)
    (h' : ¬ c → Agrees x' y') : Agrees (if c then x else x') (if c then y else y') := by
  split
  · exact h ‹_›
  · exact h' ‹_›

theorem map {f : α → β} {x y : Res ε α} (h : Agrees x y) : Agrees (x.map f) (y.map f) := by
  rcases h with rfl | rfl
  · exact .inl rfl
  · exact .inr rfl

theorem toOption {x y : Res ε α} (h : Agrees x y) : Agrees x.toOption y.toOption := by
  rcases h with rfl | rfl
  · exact .inl rfl
  · exact .inr rfl

theorem toItem {x y : Res ε α} (h : Agrees x y) : Agrees x.toItem y.toItem := by
  rcases h with rfl | rfl
  · exact .inl rfl
  · exact .inr rfl

theorem checked {c : Prop} [Decidable c] {a b : Res ε α} :
    Agrees (if c then a else if true then .panic else b) (if c then a else if false then .panic else b) := by
  split
  · exact .inr rfl
  · exact .inl rfl

end Agrees

theorem addU8_agrees {ε : Type} (a b : UInt8) : Agrees (addU8 true a b : Res ε _) (addU8 false a b) :=
  .checked
theorem mulU8_agrees {ε : Type} (a b : UInt8) : Agrees (mulU8 true a b : Res ε _) (mulU8 false a b) :=
  .checked
theorem mulU16_agrees {ε : Type} (a b : UInt16) :
    Agrees (mulU16 true a b : Res ε _) (mulU16 false a b) := .checked
theorem addU32_agrees {ε : Type} (a b : UInt32) :
    Agrees (addU32 true a b : Res ε _) (addU32 false a b) := .checked
theorem addUsize_agrees {ε : Type} (a b : Nat) :
    Agrees (addUsize true a b : Res ε _) (addUsize false a b) := .checked
theorem subUsize_agrees {ε : Type} (a b : Nat) :
    Agrees (subUsize true a b : Res ε _) (subUsize false a b) := .checked
theorem shlOne_agrees (w n : Nat) : Agrees (bitfield.shlOne true w n) (bitfield.shlOne false w n) :=
  .checked

/-- Decomposes an `Agrees` goal about a `do` block. -/
syntax "agree" ("[" term,* "]")? : tactic
macro_rules
  | `(tactic| agree) => `(tactic| agree [])
  | `(tactic| agree [$ts,*]) => `(tactic| (
      repeat' first
        | with_reducible exact Agrees.refl _
        $[| with_reducible exact $ts]*
        | with_reducible exact addU8_agrees _ _
        | with_reducible exact mulU8_agrees _ _
        | with_reducible exact mulU16_agrees _ _
        | with_reducible exact addU32_agrees _ _
        | with_reducible exact addUsize_agrees _ _
        | with_reducible exact subUsize_agrees _ _
        | with_reducible exact shlOne_agrees _ _
        | with_reducible refine Agrees.toOption ?_
        | with_reducible refine Agrees.bind ?_ (fun _ => ?_)
        | with_reducible refine Agrees.ite (fun _ => ?_) (fun _ => ?_)
        | split))

section
variable (s : RawStructure) (o n : Nat)

theorem getBytes_agrees : Agrees (s.getBytes true n o) (s.getBytes false n o) := by
  unfold RawStructure.getBytes; agree
theorem get8_agrees : Agrees (s.get8 true o) (s.get8 false o) := by
  unfold RawStructure.get8; agree [getBytes_agrees _ _ _]
theorem get16_agrees : Agrees (s.get16 true o) (s.get16 false o) := by
  unfold RawStructure.get16; agree [getBytes_agrees _ _ _]
theorem get32_agrees : Agrees (s.get32 true o) (s.get32 false o) := by
  unfold RawStructure.get32; agree [getBytes_agrees _ _ _]
theorem get64_agrees : Agrees (s.get64 true o) (s.get64 false o) := by
  unfold RawStructure.get64; agree [getBytes_agrees _ _ _]
theorem get128_agrees : Agrees (s.get128 true o) (s.get128 false o) := by
  unfold RawStructure.get128; agree [getBytes_agrees _ _ _]
theorem get_slice_agrees : Agrees (s.get_slice true o n) (s.get_slice false o n) := by
  unfold RawStructure.get_slice; agree
theorem get_string_agrees : Agrees (s.get_string true o) (s.get_string false o) := by
  unfold RawStructure.get_string; agree [get8_agrees _ _]
end

/-- `agree` for decoders. -/
macro "agree_get" : tactic => `(tactic|
  agree [get8_agrees _ _, get16_agrees _ _, get32_agrees _ _, get64_agrees _ _,
    get_slice_agrees _ _ _, get_string_agrees _ _])

theorem elements_agrees (b : Bytes) : Agrees (enclosure.ContainedElements.new true b)
    (enclosure.ContainedElements.new false b) := by
  unfold enclosure.ContainedElements.new; agree

theorem optionals_agrees (b : Bytes) :
    Agrees (enclosure.readOptionals true b) (enclosure.readOptionals false b) := by
  unfold enclosure.readOptionals; agree [elements_agrees _]

theorem descriptors_agrees (s : RawStructure) (a b : Option UInt8) :
    Agrees (system_event_log.descriptors true s a b) (system_event_log.descriptors false s a b) := by
  unfold system_event_log.descriptors; agree_get

theorem battery_opt_agrees (s : RawStructure) (o : Nat) :
    Agrees (portable_battery.optString true s o) (portable_battery.optString false s o) := by
  unfold portable_battery.optString; agree_get

/-- C75: the two builds decode a structure alike, unless the checked one panics. -/
theorem C75_decode (s : RawStructure) :
    Agrees (decodeStructure true s) (decodeStructure false s) := by
  unfold decodeStructure
  split <;> first | with_reducible exact Agrees.refl _ | apply Agrees.map
  · unfold enclosure.Enclosure.try_from; agree [optionals_agrees _]
  · unfold system_slots.SystemSlots.try_from system_slots.SystemSlots.decode; agree_get
  · unfold system_configuration_options.SystemConfigurationOptions.try_from; agree_get
  · unfold group_associations.GroupAssociations.try_from; agree_get
  · unfold system_event_log.SystemEventLog.try_from system_event_log.SystemEventLog.decode
    agree [descriptors_agrees _ _ _, get8_agrees _ _, get16_agrees _ _, get32_agrees _ _]
  · unfold memory_device.MemoryDevice.try_from; agree_get
  · unfold memory_error_32.MemoryError32.try_from; agree_get
  · unfold memory_array_mapped_address.MemoryArrayMappedAddress.try_from; agree_get
  · unfold memory_device_mapped_address.MemoryDeviceMappedAddress.try_from; agree_get
  · unfold built_in_pointing_device.BuiltInPointingDevice.try_from; agree_get
  · unfold portable_battery.PortableBattery.try_from
    agree [battery_opt_agrees _ _, get8_agrees _ _, get16_agrees _ _, get32_agrees _ _,
      get_string_agrees _ _]

/-- The structures the two builds treat differently: enclosures with at least 256 bytes of contained
elements, if the references before them resolve, and group associations of four bytes. -/
def ProfileMatters (s : RawStructure) : Prop :=
  (s.info = .Enclosure ∧ Fits s 0x15 ∧ 256 ≤ elementCount s * elementLength s ∧
    ¬ Dangling s 4 ∧ ¬ Dangling s 6 ∧ ¬ Dangling s 7 ∧ ¬ Dangling s 8) ∨
  (s.info = .GroupAssociations ∧ ¬ Fits s 5)

/-- C75: exactly these are decoded differently: the checked build panics, the other does not. -/
theorem C75_differs (s : RawStructure) (hc : Coherent s) :
    (decodeStructure true s ≠ decodeStructure false s ↔ ProfileMatters s) ∧
    (ProfileMatters s → decodeStructure true s = .panic ∧ (decodeStructure false s).NoFault) := by
  have hm : ProfileMatters s → decodeStructure true s = .panic ∧ (decodeStructure false s).NoFault := by
    intro h
    rw [Res.NoFault, Ne, Ne, C69_panics true s hc, C69_panics false s hc, C69_reads_out]
    unfold Panics ReadsOut
    rcases h with ⟨hi, h⟩ | ⟨hi, h⟩ <;> simp [hi, h]
  refine ⟨⟨fun h => ?_, fun h => ?_⟩, hm⟩
  · rcases C75_decode s with hp | he
    · rw [C69_panics true s hc] at hp
      have hf : ¬ Panics false s := by
        rw [← C69_panics false s hc]
        intro hf
        exact h (((C69_panics true s hc).2 hp).trans hf.symm)
      unfold Panics at hp hf
      unfold ProfileMatters
      split at hp <;> rename_i hi <;> simp only [hi] at hf
      · exact .inl ⟨hi, hp.2⟩
      · exact absurd hp hf
      · exact .inr ⟨hi, hp.2⟩
      · exact absurd hp hf
      · exact absurd hp hf
      · exact hp.elim
    · exact absurd he h
  · obtain ⟨h1, h2, -⟩ := hm h
    rw [h1]; exact fun h => h2 h.symm

/-- C75: the two builds take the same step in a table, unless the checked one panics. -/
theorem C75_next (s : Structures) : Agrees (s.next true) (s.next false) := by
  have hr : Agrees (s.next_raw true) (s.next_raw false) := by
    unfold Structures.next_raw; agree
  unfold Structures.next
  refine Agrees.bind hr fun p => ?_
  obtain ⟨o, s'⟩ := p
  rcases o with _ | _ | r
  · exact .refl _
  · exact .refl _
  · exact .bind (C75_decode r).toItem fun _ => .refl _

/-- C75: the same of the model in which reads past a structure are defined. -/
theorem C75_flat_next (s : Structures) : Agrees (Flat.next true s) (Flat.next false s) := by
  have hr : Agrees (s.next_raw true) (s.next_raw false) := by
    unfold Structures.next_raw; agree
  unfold Flat.next
  refine Agrees.bind hr fun p => ?_
  obtain ⟨o, s'⟩ := p
  rcases o with _ | _ | r
  · exact .refl _
  · exact .refl _
  · refine Agrees.bind (Agrees.toItem ?_) fun _ => .refl _
    unfold Flat.decodeStructure
    split <;> first | with_reducible exact Agrees.refl _ | exact C75_decode _

/-- C75: whatever a program with overflow checks gets out of a table, it gets without them. -/
theorem C75_runs {s s' : Structures} {items} (h : Runs true s items s') : Runs false s items s' := by
  induction h with
  | nil => exact .nil _
  | cons h _ ih =>
    rcases C75_next _ with hp | he
    · rw [hp] at h; cases h
    · exact .cons (he ▸ h) ih

/-- C75: access by offset, with any offset and size. -/
theorem C75_get (s : RawStructure) (o n : Nat) :
    Agrees (s.get8 true o) (s.get8 false o) ∧ Agrees (s.get16 true o) (s.get16 false o) ∧
    Agrees (s.get32 true o) (s.get32 false o) ∧ Agrees (s.get64 true o) (s.get64 false o) ∧
    Agrees (s.get128 true o) (s.get128 false o) ∧
    Agrees (s.get_slice true o n) (s.get_slice false o n) ∧
    Agrees (s.get_string true o) (s.get_string false o) :=
  ⟨get8_agrees s o, get16_agrees s o, get32_agrees s o, get64_agrees s o, get128_agrees s o,
    get_slice_agrees s o n, get_string_agrees s o⟩

theorem iter_agrees (it : bitfield.Iter) : Agrees (it.next true) (it.next false) := by
  unfold bitfield.Iter.next; agree

theorem significants_agrees (n : Nat) (it : bitfield.Iter) :
    Agrees (bitfield.significantsLoop true n it) (bitfield.significantsLoop false n it) := by
  induction n generalizing it with
  | zero => exact .inl rfl
  | succ n ih =>
    unfold bitfield.significantsLoop
    agree [iter_agrees _, ih _]

theorem reserved_agrees (n : Nat) (r : bitfield.Reserved) (e : Nat) :
    Agrees (bitfield.reservedLoop true n r e) (bitfield.reservedLoop false n r e) := by
  induction n generalizing r e with
  | zero => exact .inl rfl
  | succ n ih =>
    unfold bitfield.reservedLoop
    agree [iter_agrees _, ih _ _]
    rename_i f
    dsimp only
    cases f.type_ <;> cases r.desc <;> agree [ih _ _]

/-- C75: bit iteration, and the iteration over installed languages. -/
theorem C75_iterators (it : bitfield.Iter) (r : bitfield.Reserved)
    (l : bios_language.InstallableLanguages) :
    Agrees (it.next true) (it.next false) ∧
    Agrees (bitfield.Significants.next true it) (bitfield.Significants.next false it) ∧
    Agrees (r.next true) (r.next false) ∧
    Agrees (l.next true) (l.next false) := by
  refine ⟨iter_agrees it, significants_agrees _ it, reserved_agrees _ r 0, ?_⟩
  unfold bios_language.InstallableLanguages.next
  agree

/-- C75: conversions that compute: a bit field from positions, a battery's capacity. -/
theorem C75_conversions (w : Nat) (ps : List Nat) (c : portable_battery.DesignCapacity) :
    Agrees (bitfield.fromPositions true w ps) (bitfield.fromPositions false w ps) ∧
    Agrees (c.toU64 true) (c.toU64 false) := by
  constructor
  · unfold bitfield.fromPositions
    generalize 0 = z
    induction ps generalizing z with
    | nil => exact .refl _
    | cons p ps ih =>
      simp only [List.foldlM_cons]
      refine .bind ?_ ih
      agree
  · cases c <;> unfold portable_battery.DesignCapacity.toU64 <;> agree

/-- A group association of four bytes; without overflow checks its size wraps around. -/
def emptyGroup : RawStructure where
  version := ⟨2, 8⟩
  info := .GroupAssociations
  length := 4
  handle := 7
  data := []
  strings := [0, 0]

example : Coherent emptyGroup ∧ ProfileMatters emptyGroup := by
  refine ⟨rfl, .inr ⟨rfl, by decide⟩⟩
example : decodeStructure true emptyGroup = .panic ∧ (decodeStructure false emptyGroup).NoFault :=
  (C75_differs emptyGroup rfl).2 (.inr ⟨rfl, by decide⟩)

/-- An ordinary structure does not depend on the profile. -/
example : ¬ ProfileMatters exampleGroup := by
  rintro (⟨h, -⟩ | ⟨-, h⟩)
  · cases h
  · exact h (by decide)

end Dmi.Props
