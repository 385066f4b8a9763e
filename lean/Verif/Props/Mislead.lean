import Verif.Props.Truth
import Verif.Props.Verdict
/-!
# C64: exactly which errors of the decoders are untrue
-/
namespace Dmi.Props
open Spec

/-- The errors that say something untrue: an enclosure with at least one byte behind its header is said
not to have 5 bytes; if there are more options than counted, one of them is said not to exist; a group
is said not to have the bytes it has; a log is said to have fewer than no bytes, or not to have the
bytes it has because the required number does not fit a byte. -/
def Misleading (s : RawStructure) : MalformedStructureError → Prop
  | .InvalidFormattedSectionLength _ _ _ _ => match s.info with
    | .Enclosure => s.data ≠ []
    | .GroupAssociations => True
    | .SystemEventLog => Since s 2 1 ∧
        (¬ Fits s 0x17 ∨ (0x17 + descriptorCount s * descriptorLength s) % 256 = s.length.toNat)
    | _ => False
  | .InvalidStringIndex _ _ _ => s.info = .SystemConfigurationOptions ∧
      ∃ l, IsStringList s.strings l ∧ (byte s 4).toNat < l.length
  | _ => False

theorem stringList_exists (area : Bytes) : ∃ l, IsStringList area l := by
  obtain ⟨h, -⟩ := StructureStrings.collectFuel_spec _ (StructureStrings.new area) (Nat.le_add_left _ _)
    (Nat.zero_le _)
  exact ⟨_, (C20_strings area _).1 h⟩

theorem hasString_iff {s : RawStructure} {l : List Bytes} (hl : IsStringList s.strings l) (i : UInt8) :
    (∃ str, HasString s.strings i.toNat str) ↔ i.toNat ≤ l.length := by
  simp only [← (find_string_eq s i).1]
  by_cases hi : i = 0
  · subst hi
    exact ⟨fun _ => Nat.zero_le _, fun _ => ⟨[], rfl⟩⟩
  · have hp : 0 < i.toNat := Nat.pos_of_ne_zero fun h => hi (UInt8.toNat_inj.1 h)
    rw [find_string_list hl i hi]
    constructor
    · rintro ⟨str, h⟩
      refine Nat.le_of_not_lt fun hn => ?_
      rw [List.getElem?_eq_none (by omega)] at h
      cases h
    · intro hn
      rw [List.getElem?_eq_getElem (by omega)]
      exact ⟨_, rfl⟩

theorem missing_truthful {s : RawStructure} {o : Nat} (h : Dangling s o) :
    Truthful s (.InvalidStringIndex s.info s.handle (byte s o)) := fun str hs => h str hs

/-- C64, exactly: an error of a decoder says the truth iff it is not one of those listed. -/
theorem C64_exact (oc : Bool) (s : RawStructure) (hc : Coherent s) (e : MalformedStructureError)
    (h : decodeStructure oc s = .err e) : Truthful s e ↔ ¬ Misleading s e := by
  by_cases hx : s.info ∈ Exempt
  · have ht := C107_verdict oc s hc
    rw [h] at ht
    replace ht : Turns (troubles oc s) (some (.rejected e)) := ht
    have hlen : s.data.length + 4 = s.length.toNat := hc
    simp only [Exempt, List.mem_cons, List.not_mem_nil, or_false] at hx
    rcases hx with hi | hi | hi | hi
    · simp only [troubles, hi] at ht
      have hm : ∀ o, Dangling s o → (Truthful s (.InvalidStringIndex s.info s.handle (byte s o)) ↔
          ¬ Misleading s (.InvalidStringIndex s.info s.handle (byte s o))) := fun o h =>
        iff_of_true (missing_truthful h) fun m => absurd (hi.symm.trans m.1) nofun
      rcases ht with ⟨⟩ | h1 | ⟨-, ⟨⟩ | h1 | ⟨-, ⟨⟩ | h1 | ⟨-, ⟨⟩ | h1 | ⟨-, ⟨⟩ | h1 | ⟨-, ht⟩⟩⟩⟩⟩
      · simp only [Truthful, Misleading, hi]
        have : ¬ Fits s 9 := h1
        simp only [true_and, String.reduceEq, or_self, false_and, or_false, ne_eq,
          Classical.not_not]
        unfold Fits
        rw [← List.length_eq_zero_iff, show (5 : UInt8).toNat = 5 from rfl]
        omega
      · exact hm _ h1
      · exact hm _ h1
      · exact hm _ h1
      · exact hm _ h1
      · cases ht with
        | miss _ ht =>
          cases ht with
          | hit h1 => exact hm _ h1.2.2
          | miss _ ht => cases ht
    · simp only [troubles, hi] at ht
      cases ht with
      | hit h1 => exact iff_of_true trivial id
      | miss _ ht =>
        cases ht with
        | hit h1 =>
          obtain ⟨l, hl⟩ := stringList_exists s.strings
          have hn : (byte s 4).toNat ≠ l.length := fun hn => h1 ⟨l, hl, hn.symm⟩
          have := hasString_iff hl (byte s 4)
          simp only [Truthful, Misleading, hi, true_and]
          rw [← not_exists, this]
          refine not_congr ⟨fun h => ⟨l, hl, by omega⟩, ?_⟩
          rintro ⟨l', hl', h⟩
          rw [isStringList_unique hl hl']
          omega
        | miss _ ht => cases ht
    · simp only [troubles, hi] at ht
      cases ht with
      | miss _ ht =>
        cases ht with
        | hit h1 =>
          simp only [Truthful, Misleading, hi]
          simp [hlen]
        | miss _ ht =>
          cases ht with
          | hit h1 => exact iff_of_true (missing_truthful h1) fun m => absurd (hi.symm.trans m.1) nofun
          | miss _ ht => cases ht
    · simp only [troubles, hi] at ht
      cases ht with
      | hit h1 =>
        refine iff_of_true (.inr ⟨.inl rfl, h1.2⟩) fun m => ?_
        simp only [Misleading, hi] at m
        have := m.1
        unfold Since at this
        rw [h1.1] at this
        exact absurd this (by decide)
      | miss _ ht =>
        cases ht with
        | hit h1 =>
          refine iff_of_false ?_ fun hm => hm ?_
          · rintro (⟨-, h⟩ | ⟨h, -⟩)
            · exact h (Nat.zero_le _)
            · exact absurd h (by decide)
          · simp only [Misleading, hi]
            exact ⟨h1.1, .inl h1.2⟩
        | miss h2 ht =>
          cases ht with
          | hit h1 =>
            have hf : Fits s 0x17 := Classical.not_not.1 fun hf => h2 ⟨h1.1, hf⟩
            simp only [Truthful, Misleading, hi, h1.1, hf, not_true, false_or, true_and, String.reduceEq, or_true,
              or_self, false_and, UInt8.toNat_ofNat', hlen, ne_eq]
            exact not_congr ⟨Eq.symm, Eq.symm⟩
          | miss _ ht =>
            cases ht with
            | hit h1 => exact iff_of_true trivial id
            | miss _ ht =>
              cases ht with
              | miss _ ht => cases ht
  · refine iff_of_true (C64_truthful_partial oc s hc hx e h) fun hm => ?_
    simp only [Exempt, List.mem_cons, List.not_mem_nil, or_false, not_or] at hx
    cases e <;> simp only [Misleading] at hm
    · exact hx.2.1 hm.1
    · split at hm <;> simp_all

/-- The enclosure, the options and the log of `C64_exempt` are misleading. -/
example : shortEnclosure.data ≠ [] ∧ Since shortLog 2 1 ∧ ¬ Fits shortLog 0x17 := by decide

/-- An enclosure of which only the header is there is rejected with an error that is true. -/
def bareEnclosure : RawStructure := { shortEnclosure with length := 4, data := [] }

example : Coherent bareEnclosure ∧ decodeStructure true bareEnclosure =
    .err (.InvalidFormattedSectionLength .Enclosure 3 "minimum of " 5) ∧ ¬ Fits bareEnclosure 5 := by
  decide +kernel

end Dmi.Props
