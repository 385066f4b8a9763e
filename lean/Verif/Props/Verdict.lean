import Verif.Props.Crash
import Verif.Props.Slots
/-!
# C107: exactly which structures are rejected, and with which error
-/
namespace Dmi.Props
open Spec

/-- Why there is no value. -/
inductive Failure where
  | rejected (e : MalformedStructureError)
  | panics
  | readsOut

/-- What became of a decoder, without the value. -/
def failure {α : Type} : R α → Option Failure
  | .ok _ => none
  | .err e => some (.rejected e)
  | .panic => some .panics
  | .ub => some .readsOut

/-- The first condition of the list that holds decides; if none holds there is no failure. -/
inductive Turns : List (Prop × Failure) → Option Failure → Prop
  | none : Turns [] none
  | hit {p : Prop} {f l} : p → Turns ((p, f) :: l) (some f)
  | miss {p : Prop} {f l o} : ¬ p → Turns l o → Turns ((p, f) :: l) o

/-- The string referred to at offset `o` does not exist. -/
def missing (s : RawStructure) (o : Nat) : Prop × Failure :=
  (Dangling s o, .rejected (.InvalidStringIndex s.info s.handle (byte s o)))

/-- The structure has fewer than `n` bytes, which is noticed on access. -/
def cutAt (s : RawStructure) (n : Nat) : Prop × Failure := (¬ Fits s n, .rejected .InvalidSlice)

/-- The structure has fewer than `n` bytes, which is not noticed. -/
def overread (s : RawStructure) (n : Nat) : Prop × Failure := (¬ Fits s n, .readsOut)

/-- The length is wrong, which is tested before. -/
def wrongLength (s : RawStructure) (c : Prop) (spec : String) (n : UInt8) : Prop × Failure :=
  (c, .rejected (.InvalidFormattedSectionLength s.info s.handle spec n))

/-- What can go wrong with a structure, in the order in which it is found. -/
def troubles (oc : Bool) (s : RawStructure) : List (Prop × Failure) :=
  match s.info with
  | .Bios => overread s (biosLength s) :: [0x04, 0x05, 0x08].map (missing s)
  | .System => overread s (systemLength s) ::
      (if Since s 2 4 then [0x04, 0x05, 0x06, 0x07, 0x19, 0x1A] else [0x04, 0x05, 0x06, 0x07]).map (missing s)
  | .BaseBoard => overread s 0x0E :: [0x08, 0x0A, 0x04, 0x05, 0x06, 0x07].map (missing s)
  | .Enclosure => [
      wrongLength s (¬ Fits s 9) "minimum of " 5,
      missing s 4, missing s 6, missing s 7, missing s 8,
      (oc = true ∧ Fits s 0x15 ∧ 256 ≤ elementCount s * elementLength s, .panics),
      (Fits s 0x15 ∧ Fits s (0x15 + recordBytes s + 1) ∧ (missing s (0x15 + recordBytes s)).1,
        (missing s (0x15 + recordBytes s)).2)]
  | .Processor => overread s (processorLength s) ::
      (if Since s 2 3 then [0x04, 0x07, 0x10, 0x20, 0x21, 0x22] else [0x04, 0x07, 0x10]).map (missing s)
  | .Cache => [(¬ Since s 2 1, .panics), overread s (cacheReads s), missing s 4]
  | .PortConnector => [overread s 9, missing s 4, missing s 6]
  | .SystemSlots => [
      wrongLength s (Since s 2 0 ∧ ¬ Since s 2 1 ∧ s.data.length + 4 ≠ 0x0C) "" 0x0C,
      wrongLength s (Since s 2 1 ∧ ¬ Since s 2 6 ∧ s.data.length + 4 ≠ 0x0D) "" 0x0D,
      wrongLength s (Since s 2 6 ∧ ¬ Since s 3 2 ∧ s.data.length + 4 ≠ 0x11) "" 0x11,
      wrongLength s (Since s 3 2 ∧ ¬ Fits s 0x11) "minimum of " 0x11,
      cutAt s 5, missing s 4, cutAt s 0x0C]
  | .SystemConfigurationOptions => [
      cutAt s 5,
      (¬ ∃ l, IsStringList s.strings l ∧ l.length = (byte s 4).toNat,
        .rejected (.InvalidStringIndex s.info s.handle (byte s 4)))]
  | .BiosLanguage => [overread s (languageLength s)]
  | .GroupAssociations => [
      (oc = true ∧ ¬ Fits s 5, .panics), wrongLength s (¬ Fits s 5) "" s.length, missing s 4]
  | .SystemEventLog => [
      wrongLength s (s.version = ⟨2, 0⟩ ∧ s.data.length + 4 ≠ 0x14) "" 0x14,
      wrongLength s (Since s 2 1 ∧ ¬ Fits s 0x17) "minimum of " 0,
      wrongLength s (Since s 2 1 ∧ s.data.length + 4 ≠ 0x17 + descriptorCount s * descriptorLength s) "17h+(x*y) = "
        (.ofNat (0x17 + descriptorCount s * descriptorLength s)),
      cutAt s 0x14,
      (Fits s 0x17 ∧ descriptorLength s = 0, .panics)]
  | .PhysicalMemoryArray => [(Since s 2 2 ∧ ¬ ArrayFits s, .panics)]
  | .MemoryDevice => [
      wrongLength s (¬ Fits s 0x15) "at least" 0x15,
      missing s 0x10, missing s 0x11,
      cutAt s 0x18, missing s 0x17, cutAt s 0x19, missing s 0x18, cutAt s 0x1A, missing s 0x19,
      cutAt s 0x1B, missing s 0x1A, cutAt s 0x20]
  | .MemoryError32 => [wrongLength s (Since s 2 1 ∧ s.length ≠ 0x17) "" 0x17, cutAt s 0x17]
  | .MemoryArrayMappedAddress => [
      wrongLength s (Since s 2 1 ∧ ¬ Since s 2 7 ∧ s.length ≠ 0x0F) "" 0x0F,
      wrongLength s (Since s 2 7 ∧ s.length ≠ 0x1F) "" 0x1F, cutAt s 0x0F]
  | .MemoryDeviceMappedAddress => [
      wrongLength s (Since s 2 1 ∧ ¬ Since s 2 7 ∧ s.length ≠ 0x13) "" 0x13,
      wrongLength s (Since s 2 7 ∧ s.length ≠ 0x23) "" 0x23, cutAt s 0x13]
  | .BuiltInPointingDevice => [wrongLength s (Since s 2 1 ∧ s.length ≠ 7) "" 7, cutAt s 7]
  | .PortableBattery => [
      wrongLength s (s.version = ⟨2, 1⟩ ∧ s.length ≠ 0x10) "" 0x10,
      wrongLength s (Since s 2 2 ∧ s.length ≠ 0x1A) "" 0x1A,
      cutAt s 5, missing s 4, cutAt s 6, missing s 5, cutAt s 9, missing s 8,
      cutAt s 0x0F, missing s 0x0E, cutAt s 0x10]
  | _ => []

/-! ### Lemmas -/

theorem Turns.ok {α : Type} {a : α} : Turns [] (failure (.ok a : R α)) := .none
theorem Turns.pure {α : Type} {a : α} : Turns [] (failure (Pure.pure a : R α)) := .none

theorem Turns.cons {p : Prop} {f l o} (h : p → o = some f) (h' : ¬ p → Turns l o) : Turns ((p, f) :: l) o := by
  by_cases hp : p
  · rw [h hp]; exact .hit hp
  · exact .miss hp (h' hp)

theorem Turns.map {α β : Type} {g : α → β} {x : R α} {l} (h : Turns l (failure x)) : Turns l (failure (x.map g)) := by
  cases x <;> exact h

/-- The outcome is determined by the list. -/
theorem Turns.det {l o o'} (h : Turns l o) (h' : Turns l o') : o = o' := by
  induction h with
  | none => cases h'; rfl
  | hit hp => cases h' with
    | hit => rfl
    | miss hn => exact absurd hp hn
  | miss hn _ ih => cases h' with
    | hit hp => exact absurd hp hn
    | miss _ h => exact ih h

theorem Turns.of_none {l} (h : ∀ c ∈ l, ¬ c.1) : Turns l Option.none := by
  induction l with
  | nil => exact .none
  | cons c l ih => exact .miss (h c List.mem_cons_self) (ih fun c hc => h c (List.mem_cons_of_mem _ hc))

theorem Turns.none_iff {l} : Turns l Option.none ↔ ∀ c ∈ l, ¬ c.1 := by
  refine ⟨fun h => ?_, .of_none⟩
  generalize ho : Option.none = o at h
  induction h with
  | none => nofun
  | hit => cases ho
  | miss hn _ ih =>
    intro c hc
    rcases List.mem_cons.1 hc with rfl | hc
    · exact hn
    · exact ih ho c hc

section steps
variable {s : RawStructure} {α : Type} {l : List (Prop × Failure)}

theorem Turns.ref {o : Nat} {f : Str → R α} (h : ∀ v, Turns l (failure (f v))) :
    Turns (missing s o :: l) (failure (s.find_string (byte s o) >>= f)) := by
  rcases find_string_cases s (byte s o) with ⟨str, e⟩ | ⟨hd, e⟩ <;> rw [e]
  · exact .miss (fun hd => hd str (ref_iff.2 e)) (h str)
  · exact .hit (p := Dangling s o) hd

theorem Turns.fits {n : Nat} {o} (hf : Fits s n) (h : Turns l o) : Turns (cutAt s n :: l) o := .miss (fun hn => hn hf) h

/-- An access that may be beyond the end. -/
theorem Turns.access {β : Type} {n m : Nat} {x : R β} {f : β → R α}
    (hok : Fits s m → ∃ v, x = .ok v) (hbad : ¬ Fits s m → x = .err .InvalidSlice) (hm : m ≤ n)
    (h : ∀ v, Fits s m → Turns (cutAt s n :: l) (failure (f v))) :
    Turns (cutAt s n :: l) (failure (x >>= f)) := by
  by_cases hf : Fits s m
  · obtain ⟨v, e⟩ := hok hf
    rw [e]; exact h v hf
  · rw [hbad hf]
    exact .hit (p := ¬ Fits s n) fun hn => hf (fits_mono hn hm)

variable {oc : Bool} {n o : Nat}
theorem Turns.get8 {f : UInt8 → R α} (h4 : 4 ≤ o) (hb : o < 2 ^ 16) (hm : o + 1 ≤ n)
    (h : ∀ v, Fits s (o + 1) → Turns (cutAt s n :: l) (failure (f v))) :
    Turns (cutAt s n :: l) (failure (s.get8 oc o >>= f)) :=
  .access (fun hf => ⟨_, get8_ok oc hf h4 (Nat.le_refl _) hb⟩) (fun hf => get8_bad oc hf h4 hb) hm h
theorem Turns.get16 {f : UInt16 → R α} (h4 : 4 ≤ o) (hb : o < 2 ^ 16) (hm : o + 2 ≤ n)
    (h : ∀ v, Fits s (o + 2) → Turns (cutAt s n :: l) (failure (f v))) :
    Turns (cutAt s n :: l) (failure (s.get16 oc o >>= f)) :=
  .access (fun hf => ⟨_, get16_ok oc hf h4 (Nat.le_refl _) hb⟩) (fun hf => get16_bad oc hf h4 hb) hm h
theorem Turns.get32 {f : UInt32 → R α} (h4 : 4 ≤ o) (hb : o < 2 ^ 16) (hm : o + 4 ≤ n)
    (h : ∀ v, Fits s (o + 4) → Turns (cutAt s n :: l) (failure (f v))) :
    Turns (cutAt s n :: l) (failure (s.get32 oc o >>= f)) :=
  .access (fun hf => ⟨_, get32_ok oc hf h4 (Nat.le_refl _) hb⟩) (fun hf => get32_bad oc hf h4 hb) hm h
theorem Turns.get_string {f : Str → R α} (h4 : 4 ≤ o) (hb : o < 2 ^ 16)
    (h : ∀ v, Fits s (o + 1) → Turns l (failure (f v))) :
    Turns (cutAt s (o + 1) :: missing s o :: l) (failure (s.get_string oc o >>= f)) := by
  by_cases hf : Fits s (o + 1)
  · rw [get_string_ok oc hf h4 (Nat.le_refl _) hb]
    exact .fits hf (.ref fun v => h v hf)
  · rw [get_string_bad oc hf h4 hb]
    exact .hit (p := ¬ Fits s (o + 1)) hf

end steps

/-- Walks through a `do` block of lookups. -/
macro "turns" : tactic =>
  `(tactic| (
      repeat' first
        | exact Turns.none
        | (refine Turns.ref (fun _ => ?_))))

theorem assoc {α β γ : Type} {x : R α} {f : α → R β} {g : β → R γ} :
    (x >>= f) >>= g = x >>= fun a => f a >>= g := by cases x <;> rfl

theorem Turns.over {α : Type} {s : RawStructure} {n : Nat} {l} {x : R α} (h : ¬ Fits s n → x = .ub)
    (h' : Fits s n → Turns l (failure x)) : Turns (overread s n :: l) (failure x) :=
  .cons (fun hn => by rw [h hn]; rfl) fun hn => h' (Decidable.not_not.1 hn)

theorem turns_bios (s : RawStructure) : Turns (overread s (biosLength s) :: [0x04, 0x05, 0x08].map (missing s))
    (failure (bios.Bios.try_from s)) := by
  refine .over (C29_short s) fun h => ?_
  unfold bios.Bios.try_from biosLength at *
  by_cases h1 : Since s 3 1
  · rw [if_pos (ge_pos h1), bios_packed3_1 (by simpa [h1] using h)]
    turns
  rw [if_neg (ge_neg h1)]
  by_cases h2 : Since s 2 4
  · rw [if_pos (ge_pos h2), bios_packed2_4 (by simpa [h1, h2] using h)]
    turns
  · rw [if_neg (ge_neg h2), bios_packed2_0 (by simpa [h1, h2] using h)]
    turns

theorem turns_system (s : RawStructure) : Turns (overread s (systemLength s) ::
    (if Since s 2 4 then [0x04, 0x05, 0x06, 0x07, 0x19, 0x1A] else [0x04, 0x05, 0x06, 0x07]).map (missing s))
    (failure (system.System.try_from s)) := by
  refine .over (C31_short s) fun h => ?_
  unfold system.System.try_from systemLength at *
  by_cases h1 : Since s 2 4
  · have h0 : Since s 2 1 := since_mono h1 (by decide)
    rw [if_neg (lt_neg h0), if_neg (lt_neg h1), system_packed2_4 (by simpa [h1] using h), if_pos h1]
    turns
  rw [if_neg h1]
  by_cases h0 : Since s 2 1
  · rw [if_neg (lt_neg h0), if_pos (lt_pos h1), system_packed2_1 (by simpa [h0, h1] using h)]
    turns
  · rw [if_pos (lt_pos h0), system_packed2_0 (by simpa [h0, h1] using h)]
    turns

theorem turns_baseboard (s : RawStructure) : Turns (overread s 0x0E ::
    [0x08, 0x0A, 0x04, 0x05, 0x06, 0x07].map (missing s)) (failure (baseboard.BaseBoard.try_from s)) := by
  refine .over (C32_short s).2 fun h => ?_
  unfold baseboard.BaseBoard.try_from
  rw [baseboard_packed h]
  have hl : 10 ≤ s.data.length := by unfold Fits at h; omega
  have h4 : s.data.length > 4 := by omega
  have h5 : s.data.length > 5 := by omega
  have h6 : s.data.length > 6 := by omega
  have h7 : s.data.length > 7 := by omega
  have h9 : s.data.length > 9 := by omega
  simp only [ok_bind, h4, h5, h6, h7, h9, if_true, pure_eq_ok]
  turns

theorem turns_processor (s : RawStructure) : Turns (overread s (processorLength s) ::
    (if Since s 2 3 then [0x04, 0x07, 0x10, 0x20, 0x21, 0x22] else [0x04, 0x07, 0x10]).map (missing s))
    (failure (processor.Processor.try_from s)) := by
  refine .over (C35_short s) fun h => ?_
  unfold processor.Processor.try_from processorLength at *
  by_cases h0 : ¬ Since s 2 1
  · have n1 : ¬ Since s 2 3 := fun hh => h0 (since_mono hh (by decide))
    have n2 : ¬ Since s 2 5 := fun hh => h0 (since_mono hh (by decide))
    have n3 : ¬ Since s 2 6 := fun hh => h0 (since_mono hh (by decide))
    have n4 : ¬ Since s 3 0 := fun hh => h0 (since_mono hh (by decide))
    rw [if_pos (lt_pos h0), processor_packed2_0 (by simpa [h0, n1, n2, n3, n4] using h), if_neg n1]
    turns
  rw [Decidable.not_not] at h0
  rw [if_neg (lt_neg h0)]
  by_cases h1 : ¬ Since s 2 3
  · have n2 : ¬ Since s 2 5 := fun hh => h1 (since_mono hh (by decide))
    have n3 : ¬ Since s 2 6 := fun hh => h1 (since_mono hh (by decide))
    have n4 : ¬ Since s 3 0 := fun hh => h1 (since_mono hh (by decide))
    rw [if_pos (lt_pos h1), processor_packed2_1 (by simpa [h0, h1, n2, n3, n4] using h), if_neg h1]
    turns
  rw [Decidable.not_not] at h1
  rw [if_neg (lt_neg h1), if_pos h1]
  by_cases h2 : ¬ Since s 2 5
  · have n3 : ¬ Since s 2 6 := fun hh => h2 (since_mono hh (by decide))
    have n4 : ¬ Since s 3 0 := fun hh => h2 (since_mono hh (by decide))
    rw [if_pos (lt_pos h2), processor_packed2_3 (by simpa [h0, h1, h2, n3, n4] using h)]
    turns
  rw [Decidable.not_not] at h2
  rw [if_neg (lt_neg h2)]
  by_cases h3 : ¬ Since s 2 6
  · have n4 : ¬ Since s 3 0 := fun hh => h3 (since_mono hh (by decide))
    rw [if_pos (lt_pos h3), processor_packed2_5 (by simpa [h0, h1, h2, h3, n4] using h)]
    turns
  rw [Decidable.not_not] at h3
  rw [if_neg (lt_neg h3)]
  by_cases h4 : ¬ Since s 3 0
  · rw [if_pos (lt_pos h4), processor_packed2_6 (by simpa [h0, h1, h2, h3, h4] using h)]
    turns
  rw [Decidable.not_not] at h4
  rw [if_neg (lt_neg h4), processor_packed3_0 (by simpa [h0, h1, h2, h3, h4] using h)]
  turns

theorem turns_cache (s : RawStructure) : Turns [(¬ Since s 2 1, .panics), overread s (cacheReads s), missing s 4]
    (failure (cache.Cache.try_from s)) := by
  refine .cons (fun hv => by rw [(C37_faults s).1.2 hv]; rfl) fun hv => ?_
  rw [Decidable.not_not] at hv
  refine .over (fun h => (C37_faults s).2.2 ⟨hv, h⟩) fun h => ?_
  obtain ⟨c, hc, -⟩ := C38_configuration (word s 0x05)
  unfold cache.Cache.try_from cacheReads at *
  by_cases h1 : Since s 3 2
  · rw [if_pos (gt_pos h1), cache_packed3_1 (by simpa [h1] using h)]
    simp only [ok_bind, hc]
    turns
  rw [if_neg (gt_neg h1)]
  by_cases h2 : Since s 2 2
  · rw [if_pos (gt_pos h2), cache_packed2_1 (by simpa [h1, h2] using h)]
    simp only [ok_bind, hc]
    turns
  · rw [if_neg (gt_neg h2), if_pos (gt_pos hv), cache_packed2_0 (by simpa [h1, h2] using h)]
    simp only [ok_bind, hc]
    turns

theorem turns_port (s : RawStructure) : Turns [overread s 9, missing s 4, missing s 6]
    (failure (port_connector.PortConnector.try_from s)) := by
  refine .over (C39_short s).2 fun h => ?_
  unfold port_connector.PortConnector.try_from
  rw [port_packed h]
  turns

theorem turns_language (s : RawStructure) : Turns [overread s (languageLength s)]
    (failure (bios_language.BiosLanguage.try_from s)) := by
  refine .over (C43_short s) fun h => ?_
  obtain ⟨v, hv, -⟩ := C43_decodes s h
  rw [hv]
  exact .ok

theorem turns_enclosure (oc : Bool) (s : RawStructure) : Turns [
      wrongLength s (¬ Fits s 9) "minimum of " 5,
      missing s 4, missing s 6, missing s 7, missing s 8,
      (oc = true ∧ Fits s 0x15 ∧ 256 ≤ elementCount s * elementLength s, .panics),
      (Fits s 0x15 ∧ Fits s (0x15 + recordBytes s + 1) ∧ (missing s (0x15 + recordBytes s)).1,
        (missing s (0x15 + recordBytes s)).2)] (failure (enclosure.Enclosure.try_from oc s)) := by
  refine .cons (fun h => by rw [C33_short oc s h]; rfl) fun h9 => ?_
  rw [Decidable.not_not] at h9
  by_cases hov : oc = true → Fits s 0x15 → elementCount s * elementLength s < 256
  · rw [enclosure_eval oc s h9 hov]
    refine .ref fun _ => .ref fun _ => .ref fun _ => .ref fun _ => .miss (fun h => ?_) ?_
    · have := hov h.1 h.2.1; omega
    by_cases hf : Fits s 0x15 ∧ Fits s (0x15 + recordBytes s + 1)
    · simp only [optIf, if_pos hf, enclosure.findSku, assoc, pure_eq_ok, ok_bind]
      rcases find_string_cases s (byte s (0x15 + recordBytes s)) with ⟨str, e⟩ | ⟨hd, e⟩ <;> rw [e]
      · exact .miss (fun hd => hd.2.2 str (ref_iff.2 e)) .ok
      · exact .hit ⟨hf.1, hf.2, hd⟩
    · simp only [optIf, if_neg hf, enclosure.findSku, pure_eq_ok, ok_bind]
      exact .miss (fun h => hf ⟨h.1, h.2.1⟩) .ok
  · simp only [Classical.not_imp, Nat.not_lt] at hov
    obtain ⟨rfl, hf, ho⟩ := hov
    have hopt := optionals_overflow s hf ho
    unfold enclosure.Enclosure.try_from enclosure.EnclosurePacked2_0.size
    rw [if_neg (by unfold Fits at h9; omega)]
    simp only [enclosure_packed h9, ok_bind, hopt, panic_bind]
    exact .ref fun _ => .ref fun _ => .ref fun _ => .ref fun _ => .hit ⟨trivial, hf, ho⟩

theorem Turns.wrong {α : Type} {s : RawStructure} {i : InfoType} {c : Prop} {spec n l} {x : R α} (hi : s.info = i)
    (h : c → x = .err (.InvalidFormattedSectionLength i s.handle spec n)) (h' : ¬ c → Turns l (failure x)) :
    Turns (wrongLength s c spec n :: l) (failure x) :=
  .cons (fun hc => by rw [h hc, hi]; rfl) h'

theorem Turns.cut {α : Type} {s : RawStructure} {n l} {x : R α}
    (h : ¬ Fits s n → x = .err .InvalidSlice) (h' : Fits s n → Turns l (failure x)) :
    Turns (cutAt s n :: l) (failure x) :=
  .cons (fun hn => by rw [h hn]; rfl) fun hn => h' (Decidable.not_not.1 hn)

theorem turns_slots (oc : Bool) (s : RawStructure) (hi : s.info = .SystemSlots) : Turns [
      wrongLength s (Since s 2 0 ∧ ¬ Since s 2 1 ∧ s.data.length + 4 ≠ 0x0C) "" 0x0C,
      wrongLength s (Since s 2 1 ∧ ¬ Since s 2 6 ∧ s.data.length + 4 ≠ 0x0D) "" 0x0D,
      wrongLength s (Since s 2 6 ∧ ¬ Since s 3 2 ∧ s.data.length + 4 ≠ 0x11) "" 0x11,
      wrongLength s (Since s 3 2 ∧ ¬ Fits s 0x11) "minimum of " 0x11,
      cutAt s 5, missing s 4, cutAt s 0x0C] (failure (system_slots.SystemSlots.try_from oc s)) := by
  obtain ⟨r1, r2, r3, r4, -⟩ := C40_rejects oc s
  refine .wrong hi (fun h => r1 h.1 h.2.1 h.2.2) fun h1 => .wrong hi (fun h => r2 h.1 h.2.1 h.2.2) fun h2 =>
    .wrong hi (fun h => r3 h.1 h.2.1 h.2.2) fun h3 =>
    .wrong hi (fun h => r4 h.1 (by have := h.2; unfold Fits at this; omega)) fun h4 => ?_
  have hl : SlotLengthOk s :=
    ⟨fun a b => Decidable.byContradiction fun c => h1 ⟨a, b, c⟩,
      fun a b => Decidable.byContradiction fun c => h2 ⟨a, b, c⟩,
      fun a b => Decidable.byContradiction fun c => h3 ⟨a, b, c⟩,
      fun a => Decidable.byContradiction fun c => h4 ⟨a, c⟩⟩
  rw [slots_gate oc s hl, slots_eval]
  exact .get_string (by decide) (by decide) fun _ _ => .get8 (by decide) (by decide) (by decide) fun _ _ =>
    .get8 (by decide) (by decide) (by decide) fun _ _ => .get8 (by decide) (by decide) (by decide) fun _ _ =>
    .get8 (by decide) (by decide) (by decide) fun _ _ => .get16 (by decide) (by decide) (by decide) fun _ _ =>
    .get8 (by decide) (by decide) (by decide) fun _ hf => .fits hf .none

theorem turns_options (oc : Bool) (s : RawStructure) (hi : s.info = .SystemConfigurationOptions) : Turns [
      cutAt s 5,
      (¬ ∃ l, IsStringList s.strings l ∧ l.length = (byte s 4).toNat,
        .rejected (.InvalidStringIndex s.info s.handle (byte s 4)))]
      (failure (system_configuration_options.SystemConfigurationOptions.try_from oc s)) := by
  refine .cut (C42_options_short oc s) fun h => ?_
  obtain ⟨-, hl⟩ := C20_strings_total s.strings
  obtain ⟨a, b⟩ := C42_options oc s _ hl h
  by_cases e : (byte s 4).toNat = (StructureStrings.new s.strings).collect.length
  · obtain ⟨v, hv, -⟩ := a e
    rw [hv]
    exact .miss (fun hn => hn ⟨_, hl, e.symm⟩) .none
  · rw [b e, hi]
    exact .hit fun ⟨l, h1, h2⟩ => e (by rw [← h2, isStringList_unique h1 hl])

theorem turns_group (oc : Bool) (s : RawStructure) (hc : Coherent s) (hi : s.info = .GroupAssociations) : Turns [
      (oc = true ∧ ¬ Fits s 5, .panics), wrongLength s (¬ Fits s 5) "" s.length, missing s 4]
      (failure (group_associations.GroupAssociations.try_from oc s)) := by
  refine .cons (fun h => by rw [C44_short oc s hc h.2, if_pos h.1]; rfl) fun hn => ?_
  refine .wrong hi (fun h => by rw [C44_short oc s hc h, if_neg fun ho => hn ⟨ho, h⟩]) fun h => ?_
  rw [Decidable.not_not] at h
  have hlen := (Coherent.fits_iff hc 5).1 h
  have hlt := s.length.toNat_lt
  have hc' : s.data.length + 4 = s.length.toNat := hc
  have hsub : (subUsize oc s.length.toNat 5 : R Nat) = .ok (s.length.toNat - 5) := by
    unfold subUsize; rw [if_pos hlen]
  unfold group_associations.GroupAssociations.try_from
  rw [hsub, ok_bind, get_slice_ge oc s 5 _ (by decide) (by omega), if_pos (by omega),
    get_string_ok oc h (by decide) (by decide) (by decide)]
  exact .ref fun _ => .none

theorem turns_log (oc : Bool) (s : RawStructure) (hi : s.info = .SystemEventLog) : Turns [
      wrongLength s (s.version = ⟨2, 0⟩ ∧ s.data.length + 4 ≠ 0x14) "" 0x14,
      wrongLength s (Since s 2 1 ∧ ¬ Fits s 0x17) "minimum of " 0,
      wrongLength s (Since s 2 1 ∧ s.data.length + 4 ≠ 0x17 + descriptorCount s * descriptorLength s) "17h+(x*y) = "
        (.ofNat (0x17 + descriptorCount s * descriptorLength s)),
      cutAt s 0x14,
      (Fits s 0x17 ∧ descriptorLength s = 0, .panics)]
      (failure (system_event_log.SystemEventLog.try_from oc s)) := by
  obtain ⟨r1, r2, r3, r4⟩ := C45_rejects oc s
  refine .wrong hi (fun h => r1 h.1 h.2) fun h1 => .wrong hi (fun h => r2 h.1 h.2) fun h2 => ?_
  have hf : Since s 2 1 → Fits s 0x17 := fun a => Decidable.byContradiction fun c => h2 ⟨a, c⟩
  refine .wrong hi (fun h => r3 h.1 (hf h.1) h.2) fun h3 => ?_
  have hl : EventLogLength s :=
    ⟨fun a => Decidable.byContradiction fun c => h1 ⟨a, c⟩,
      fun a => ⟨hf a, Decidable.byContradiction fun c => h3 ⟨a, c⟩⟩⟩
  refine .cut (r4 hl) fun h => .cons (fun h0 => by rw [C45_panics oc s hl h0.1 h0.2]; rfl) fun h0 => ?_
  obtain ⟨v, hv⟩ := C45_accepts oc s hl h fun a b => h0 ⟨a, b⟩
  rw [hv]
  exact .none

theorem turns_array (s : RawStructure) : Turns [(Since s 2 2 ∧ ¬ ArrayFits s, .panics)]
    (failure (physical_memory_array.PhysicalMemoryArray.try_from s)) := by
  refine .cons (fun h => by rw [C47_short s h.1 h.2]; rfl) fun h => ?_
  by_cases hv : Since s 2 2
  · have hf : ArrayFits s := Decidable.byContradiction fun c => h ⟨hv, c⟩
    obtain ⟨v, e⟩ : ∃ v, physical_memory_array.PhysicalMemoryArray.try_from s = .ok v := by
      refine ⟨withExtended s
        (optIf (Since s 2 8 ∧ dword s 0x07 = 0x80000000 ∧ qword s 0x0F ≠ 0) (qword s 0x0F)), (C47_decodes s hv hf _).2 ?_⟩
      exact ⟨rfl, rfl, rfl, rfl, when_eq.2 rfl, when_eq.2 rfl, rfl, when_eq.2 rfl⟩
    rw [e]
    exact .none
  · rw [C47_old s hv]
    exact .none

theorem turns_device (oc : Bool) (s : RawStructure) (hi : s.info = .MemoryDevice) : Turns [
      wrongLength s (¬ Fits s 0x15) "at least" 0x15,
      missing s 0x10, missing s 0x11,
      cutAt s 0x18, missing s 0x17, cutAt s 0x19, missing s 0x18, cutAt s 0x1A, missing s 0x19,
      cutAt s 0x1B, missing s 0x1A, cutAt s 0x20] (failure (memory_device.MemoryDevice.try_from oc s)) := by
  unfold memory_device.MemoryDevice.try_from
  refine .wrong hi (fun h => by rw [if_pos (by unfold Fits at h; omega)]) fun h => ?_
  rw [Decidable.not_not] at h
  rw [if_neg (by unfold Fits at h; omega)]
  access_eval oc h
  exact .ref fun _ => .ref fun _ => .get_string (by decide) (by decide) fun _ _ =>
    .get_string (by decide) (by decide) fun _ _ => .get_string (by decide) (by decide) fun _ _ =>
    .get_string (by decide) (by decide) fun _ _ => .get8 (by decide) (by decide) (by decide) fun _ _ =>
    .get32 (by decide) (by decide) (by decide) fun _ hf => .fits hf .none

theorem turns_error32 (oc : Bool) (s : RawStructure) (hi : s.info = .MemoryError32) : Turns [
    wrongLength s (Since s 2 1 ∧ s.length ≠ 0x17) "" 0x17, cutAt s 0x17]
    (failure (memory_error_32.MemoryError32.try_from oc s)) := by
  refine .wrong hi (fun h => (C49_rejects oc s).1 h.1 h.2) fun h1 => ?_
  have hl : Since s 2 1 → s.length = 0x17 := fun a => Decidable.byContradiction fun c => h1 ⟨a, c⟩
  refine .cut ((C49_rejects oc s).2 hl) fun h => ?_
  unfold memory_error_32.MemoryError32.try_from
  rw [if_neg (gate_neg (by decide) (by decide) hl)]
  access_eval oc h
  exact .none

theorem turns_array_address (oc : Bool) (s : RawStructure) (hi : s.info = .MemoryArrayMappedAddress) : Turns [
      wrongLength s (Since s 2 1 ∧ ¬ Since s 2 7 ∧ s.length ≠ 0x0F) "" 0x0F,
      wrongLength s (Since s 2 7 ∧ s.length ≠ 0x1F) "" 0x1F, cutAt s 0x0F]
      (failure (memory_array_mapped_address.MemoryArrayMappedAddress.try_from oc s)) := by
  obtain ⟨r1, r2, r3⟩ := C50_array_rejects oc s
  refine .wrong hi (fun h => r1 h.1 h.2.1 h.2.2) fun h1 => .wrong hi (fun h => r2 h.1 h.2) fun h2 => ?_
  have hl : ArrayAddressLength s :=
    ⟨fun a b => Decidable.byContradiction fun c => h1 ⟨a, b, c⟩, fun a => Decidable.byContradiction fun c => h2 ⟨a, c⟩⟩
  refine .cut (r3 hl) fun h => ?_
  unfold memory_array_mapped_address.MemoryArrayMappedAddress.try_from
  rw [if_neg (gate2_neg (by decide) (by decide) (by decide) (by decide) hl.1),
    if_neg (gate_neg (by decide) (by decide) hl.2)]
  access_eval oc h
  exact .none

theorem turns_device_address (oc : Bool) (s : RawStructure) (hi : s.info = .MemoryDeviceMappedAddress) : Turns [
      wrongLength s (Since s 2 1 ∧ ¬ Since s 2 7 ∧ s.length ≠ 0x13) "" 0x13,
      wrongLength s (Since s 2 7 ∧ s.length ≠ 0x23) "" 0x23, cutAt s 0x13]
      (failure (memory_device_mapped_address.MemoryDeviceMappedAddress.try_from oc s)) := by
  obtain ⟨r1, r2, r3⟩ := C50_device_rejects oc s
  refine .wrong hi (fun h => r1 h.1 h.2.1 h.2.2) fun h1 => .wrong hi (fun h => r2 h.1 h.2) fun h2 => ?_
  have hl : DeviceAddressLength s :=
    ⟨fun a b => Decidable.byContradiction fun c => h1 ⟨a, b, c⟩, fun a => Decidable.byContradiction fun c => h2 ⟨a, c⟩⟩
  refine .cut (r3 hl) fun h => ?_
  unfold memory_device_mapped_address.MemoryDeviceMappedAddress.try_from
  rw [if_neg (gate2_neg (by decide) (by decide) (by decide) (by decide) hl.1),
    if_neg (gate_neg (by decide) (by decide) hl.2)]
  access_eval oc h
  exact .none

theorem turns_pointing (oc : Bool) (s : RawStructure) (hi : s.info = .BuiltInPointingDevice) : Turns [
    wrongLength s (Since s 2 1 ∧ s.length ≠ 7) "" 7, cutAt s 7]
    (failure (built_in_pointing_device.BuiltInPointingDevice.try_from oc s)) := by
  unfold built_in_pointing_device.BuiltInPointingDevice.try_from
  refine .wrong hi (fun h => by rw [if_pos (gate_pos (by decide) (by decide) h.1 h.2)]) fun h1 => ?_
  rw [if_neg (gate_neg (by decide) (by decide) fun a => Decidable.byContradiction fun c => h1 ⟨a, c⟩)]
  exact .get8 (by decide) (by decide) (by decide) fun _ _ => .get8 (by decide) (by decide) (by decide) fun _ _ =>
    .get8 (by decide) (by decide) (by decide) fun _ hf => .fits hf .none

theorem optString_ok (oc : Bool) (s : RawStructure) {o : Nat} (h4 : 4 ≤ o) (hb : o < 2 ^ 16) :
    ∃ v, portable_battery.optString oc s o = .ok v := by
  unfold portable_battery.optString
  rw [get8_opt oc h4 hb, ok_bind]
  split
  · exact ⟨_, rfl⟩
  · rename_i idx _
    rcases find_string_cases s idx with ⟨str, e⟩ | ⟨-, e⟩ <;> rw [e] <;> exact ⟨_, rfl⟩

theorem turns_battery (oc : Bool) (s : RawStructure) (hi : s.info = .PortableBattery) : Turns [
      wrongLength s (s.version = ⟨2, 1⟩ ∧ s.length ≠ 0x10) "" 0x10,
      wrongLength s (Since s 2 2 ∧ s.length ≠ 0x1A) "" 0x1A,
      cutAt s 5, missing s 4, cutAt s 6, missing s 5, cutAt s 9, missing s 8,
      cutAt s 0x0F, missing s 0x0E, cutAt s 0x10] (failure (portable_battery.PortableBattery.try_from oc s)) := by
  unfold portable_battery.PortableBattery.try_from
  refine .wrong hi (fun h => if_pos h) fun h1 => ?_
  rw [if_neg (c := s.version = .ofPair 2 1 ∧ s.length ≠ 0x10) h1]
  refine .wrong hi (fun h => by rw [if_pos ⟨ge_pos h.1, h.2⟩]) fun h2 => ?_
  rw [if_neg fun h => h2 ⟨(ge_iff (by decide) (by decide)).1 h.1, h.2⟩]
  obtain ⟨d, hd⟩ := optString_ok oc s (o := 6) (by decide) (by decide)
  obtain ⟨n, hn⟩ := optString_ok oc s (o := 7) (by decide) (by decide)
  simp (disch := decide) only [ok_bind, get8_opt, get16_opt, get32_opt, get_string_opt, hd, hn]
  exact .get_string (by decide) (by decide) fun _ _ => .get_string (by decide) (by decide) fun _ _ =>
    .get_string (by decide) (by decide) fun _ _ => .get8 (by decide) (by decide) (by decide) fun _ _ =>
    .get16 (by decide) (by decide) (by decide) fun _ _ => .get16 (by decide) (by decide) (by decide) fun _ _ =>
    .get_string (by decide) (by decide) fun _ _ => .get8 (by decide) (by decide) (by decide) fun _ hf => .fits hf .none

/-- C107: what becomes of any structure is decided by the first condition of the table that holds. -/
theorem C107_verdict (oc : Bool) (s : RawStructure) (hc : Coherent s) :
    Turns (troubles oc s) (failure (decodeStructure oc s)) := by
  unfold decodeStructure troubles
  cases hi : s.info
  case Bios => exact .map (turns_bios s)
  case System => exact .map (turns_system s)
  case BaseBoard => exact .map (turns_baseboard s)
  case Enclosure => exact .map (turns_enclosure oc s)
  case Processor => exact .map (turns_processor s)
  case Cache => exact .map (turns_cache s)
  case PortConnector => exact .map (turns_port s)
  case SystemSlots => exact .map (turns_slots oc s hi)
  case SystemConfigurationOptions => 
    have h := turns_options oc s hi
    rw [hi] at h
    exact .map h
  case BiosLanguage => exact .map (turns_language s)
  case GroupAssociations => exact .map (turns_group oc s hc hi)
  case SystemEventLog => exact .map (turns_log oc s hi)
  case PhysicalMemoryArray => exact .map (turns_array s)
  case MemoryDevice => exact .map (turns_device oc s hi)
  case MemoryError32 => exact .map (turns_error32 oc s hi)
  case MemoryArrayMappedAddress => exact .map (turns_array_address oc s hi)
  case MemoryDeviceMappedAddress => exact .map (turns_device_address oc s hi)
  case BuiltInPointingDevice => exact .map (turns_pointing oc s hi)
  case PortableBattery => exact .map (turns_battery oc s hi)
  all_goals exact .none

theorem Turns.some_iff {l f} : Turns l (some f) ↔
    ∃ pre c post, l = pre ++ c :: post ∧ (∀ d ∈ pre, ¬ d.1) ∧ c.1 ∧ c.2 = f := by
  constructor
  · intro h
    generalize ho : some f = o at h
    induction h with
    | none => cases ho
    | hit hp => cases ho; exact ⟨[], _, _, rfl, nofun, hp, rfl⟩
    | miss hn _ ih =>
      obtain ⟨pre, c, post, rfl, h1, h2⟩ := ih ho
      refine ⟨_ :: pre, c, post, rfl, ?_, h2⟩
      intro d hd
      rcases List.mem_cons.1 hd with rfl | hd
      · exact hn
      · exact h1 d hd
  · rintro ⟨pre, ⟨p, g⟩, post, rfl, h1, h2, rfl⟩
    induction pre with
    | nil => exact .hit h2
    | cons d pre ih => exact .miss (h1 d List.mem_cons_self) (ih fun d hd => h1 d (List.mem_cons_of_mem _ hd))

/-- C107: a structure is decoded exactly if no condition of the table holds. -/
theorem C107_accepts (oc : Bool) (s : RawStructure) (hc : Coherent s) :
    (∃ v, decodeStructure oc s = .ok v) ↔ ∀ c ∈ troubles oc s, ¬ c.1 := by
  have h := C107_verdict oc s hc
  rw [← Turns.none_iff]
  constructor
  · rintro ⟨v, hv⟩
    rw [hv] at h
    exact h
  · intro h'
    have := h.det h'
    cases hd : decodeStructure oc s with
    | ok v => exact ⟨v, rfl⟩
    | err | panic | ub => rw [hd] at this; cases this

/-- C107: an error is returned exactly if it is the one of the first condition that holds. -/
theorem C107_rejects (oc : Bool) (s : RawStructure) (hc : Coherent s) (e : MalformedStructureError) :
    decodeStructure oc s = .err e ↔ ∃ pre c post, troubles oc s = pre ++ c :: post ∧ (∀ d ∈ pre, ¬ d.1) ∧
      c.1 ∧ c.2 = .rejected e := by
  have h := C107_verdict oc s hc
  rw [← Turns.some_iff]
  constructor
  · intro hv
    rw [hv] at h
    exact h
  · intro h'
    have := h.det h'
    cases hd : decodeStructure oc s with
    | err e' => rw [hd] at this; cases this; rfl
    | ok | panic | ub => rw [hd] at this; cases this

/-- C107 for one step of the iterator. -/
theorem C107_next (oc : Bool) (s : Structures) (p : Piece) (hb : s.buffer.length < 2 ^ 32)
    (hp : PieceAt s.buffer s.idx.toNat p) (hl : s.idx.toNat + p.len < s.smbios_len.toNat) :
    ∃ o, Turns (troubles oc (p.raw s.smbios_version)) o ∧
      match o with
      | none => ∃ v s', s.next oc = .ok (some (.ok v), s')
      | some (.rejected e) => ∃ s', s.next oc = .ok (some (.error e), s')
      | some .panics => s.next oc = .panic
      | some .readsOut => s.next oc = .ub := by
  have h := C107_verdict oc (p.raw s.smbios_version) (piece_coherent p _ hp.1)
  have hn := next_piece oc s p hb hp hl
  refine ⟨_, h, ?_⟩
  cases hd : decodeStructure oc (p.raw s.smbios_version) <;> rw [hd] at hn
  · exact ⟨_, _, hn⟩
  · exact ⟨_, hn⟩
  · exact hn
  · exact hn

/-- C107 for whole runs, where C11 gives the structures. -/
theorem C107_items (oc : Bool) (v : SmbiosVersion) (ps : List Piece) (items) (hw : ∀ p ∈ ps, p.WF)
    (h : Decoded oc v ps items) : items.length = ps.length ∧ ∀ i (hi : i < items.length) (hp : i < ps.length),
      Turns (troubles oc (ps[i].raw v)) (match items[i] with
        | .ok _ => none
        | .error e => some (.rejected e)) := by
  induction h with
  | nil => exact ⟨rfl, nofun⟩
  | @cons p it ps items hd _ ih =>
    obtain ⟨hlen, ih⟩ := ih fun p hp => hw p (List.mem_cons_of_mem _ hp)
    refine ⟨by simp [hlen], fun i hi hp => ?_⟩
    cases i with
    | succ i => exact ih i (Nat.lt_of_succ_lt_succ hi) (Nat.lt_of_succ_lt_succ hp)
    | zero =>
      have h := C107_verdict oc (p.raw v) (piece_coherent p _ (hw p List.mem_cons_self))
      simp only [List.getElem_cons_zero]
      cases hr : decodeStructure oc (p.raw v) <;> rw [hr] at hd h <;> cases hd <;> exact h

/-! ### Examples -/

/-- A base board that refers to two strings it does not have: the asset tag is the one that is named, though
the manufacturer comes first. -/
def doubtfulBoard : RawStructure :=
  { exampleBoard with data := [9, 2, 0, 3, 8, 0xE9, 3, 0x34, 0x12, 0x0A, 0] }

example : Coherent doubtfulBoard ∧ (missing doubtfulBoard 4).1 ∧ (missing doubtfulBoard 8).1 ∧
    decodeStructure true doubtfulBoard = .err (.InvalidStringIndex .BaseBoard 2 8) := by
  have h : (missing doubtfulBoard 8).1 := fun str hr => absurd (ref_iff.1 hr) (by
    rw [show doubtfulBoard.find_string (byte doubtfulBoard 8) = .err (.InvalidStringIndex .BaseBoard 2 8) from by
      decide +kernel]
    nofun)
  refine ⟨by decide, fun str hr => absurd (ref_iff.1 hr) (by
    rw [show doubtfulBoard.find_string (byte doubtfulBoard 4) = .err (.InvalidStringIndex .BaseBoard 2 9) from by
      decide +kernel]
    nofun), h, ?_⟩
  refine (C107_rejects true _ (by decide) _).2 ⟨[overread doubtfulBoard 0x0E], missing doubtfulBoard 8,
    [0x0A, 0x04, 0x05, 0x06, 0x07].map (missing doubtfulBoard), rfl, ?_, h, ?_⟩
  · intro d hd
    rw [List.mem_singleton] at hd
    subst hd
    exact fun h => h (by decide)
  · rfl

/-- No condition holds of a pointing device of seven bytes. -/
example : Coherent examplePointing ∧ ∀ c ∈ troubles true examplePointing, ¬ c.1 :=
  ⟨by decide, (C107_accepts true _ (by decide)).1 ⟨.BuiltInPointingDevice
    ⟨0x1500, .TouchPad, .Ps2, 2⟩, by decide +kernel⟩⟩

end Dmi.Props
