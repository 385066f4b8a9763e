import Verif.Proofs.Decode
import Verif.Props.Strings
import Verif.Model.S011
import Verif.Model.S013
import Verif.Model.S014
/-!
# C42, C43, C44: OEM strings (11), configuration options (12), BIOS language (13), group
associations (14)
-/
namespace Dmi.Props
open Spec

theorem nth_of_collects {st : StructureStrings} {l : List Str}
    (h : Collects StructureStrings.next st l) : ∀ n, st.nth n = l[n]? := by
  induction h with
  | done h => intro n; cases n <;> simp [StructureStrings.nth, h]
  | step h t ih => intro n; cases n <;> simp [StructureStrings.nth, h, ih]

/-- In terms of the list of strings of the structure, reference `i` is the `i`-th one. -/
theorem find_string_list {s : RawStructure} {l : List Bytes} (hl : IsStringList s.strings l)
    (i : UInt8) (hi : i ≠ 0) : s.find_string i =
      Res.ofOption (.InvalidStringIndex s.info s.handle i) l[i.toNat - 1]? := by
  unfold RawStructure.find_string
  rw [if_neg hi, nth_of_collects (st := s.stringsIter) (l := l) ((C20_strings s.strings l).2 hl)]

/-! ### C42 -/

section Oem
open oem_strings system_configuration_options

/-- C42: an OEM strings structure always decodes, and its iterator yields all strings of the
structure. -/
theorem C42_oem (s : RawStructure) : ∃ v, OemStrings.try_from s = .ok v ∧ v.handle = s.handle ∧
    ∀ l, Collects StructureStrings.next v.strings l ↔ IsStringList s.strings l :=
  ⟨_, rfl, rfl, C20_strings s.strings⟩

/-- C42: configuration options decode iff the count byte is the number of strings. -/
theorem C42_options (oc : Bool) (s : RawStructure) (l : List Bytes)
    (hl : IsStringList s.strings l) (h : Fits s 5) :
    ((byte s 0x04).toNat = l.length →
      ∃ v, SystemConfigurationOptions.try_from oc s = .ok v ∧ v.handle = s.handle ∧
        Collects StructureStrings.next v.strings l) ∧
    ((byte s 0x04).toNat ≠ l.length → SystemConfigurationOptions.try_from oc s =
      .err (.InvalidStringIndex .SystemConfigurationOptions s.handle (byte s 0x04))) := by
  have hc : s.stringsIter.count = l.length := by
    obtain ⟨-, h2⟩ := C20_strings_total s.strings
    unfold StructureStrings.count RawStructure.stringsIter
    rw [isStringList_unique h2 hl]
  unfold SystemConfigurationOptions.try_from
  rw [get8_ok oc h (by decide) (by decide) (by decide), ok_bind]
  simp only [hc]
  constructor
  · intro he
    rw [if_neg (by simpa using he)]
    exact ⟨_, rfl, rfl, (C20_strings _ _).2 hl⟩
  · intro hne
    rw [if_pos hne]

/-- C42: without a count byte configuration options are rejected. -/
theorem C42_options_short (oc : Bool) (s : RawStructure) (h : ¬ Fits s 5) :
    SystemConfigurationOptions.try_from oc s = .err .InvalidSlice := by
  unfold SystemConfigurationOptions.try_from
  rw [get8_bad oc h (by decide) (by decide), err_bind]

/-- Two configuration options. -/
def exampleOptions : RawStructure where
  version := ⟨2, 0⟩
  info := .SystemConfigurationOptions
  length := 5
  handle := 0x0C00
  data := [2]
  strings := ascii "JP2: 1-2 Cache Size is 256K" ++ [0] ++ ascii "SW1-1" ++ [0, 0]

theorem exampleOptions_strings : IsStringList exampleOptions.strings
    [ascii "JP2: 1-2 Cache Size is 256K", ascii "SW1-1"] := by
  have h := (C20_strings_total exampleOptions.strings).2
  have e : (StructureStrings.new exampleOptions.strings).collect =
    [ascii "JP2: 1-2 Cache Size is 256K", ascii "SW1-1"] := by decide +kernel
  rwa [e] at h

example : Fits exampleOptions 5 ∧ (byte exampleOptions 4).toNat = 2 := by decide
example : SystemConfigurationOptions.try_from true { exampleOptions with data := [3] } =
    .err (.InvalidStringIndex .SystemConfigurationOptions 0x0C00 3) := by decide +kernel

end Oem

/-! ### C43 -/

section Language
open bios_language

/-- The fields of a type 13 structure. From 2.1 on the current language is at 15h, after the flags
and 15 reserved bytes; before 2.1 the crate takes the structure to have no flags byte. -/
structure LanguageFields (s : RawStructure) (v : BiosLanguage) : Prop where
  handle : v.handle = s.handle
  flags : When (Since s 2 1) v.flags (· = ⟨byte s 0x05⟩)
  current_language : v.current_language = if Since s 2 1 then byte s 0x15 else byte s 0x14
  installable_languages : v.installable_languages = .new s

/-- Length of a type 13 structure. -/
def languageLength (s : RawStructure) : Nat := if Since s 2 1 then 0x16 else 0x15

theorem language_packed2_1 {s : RawStructure} (h : Fits s 0x16) :
    (letAsStruct BiosLanguagePacked2_1.packed s.data : R _) = .ok
      ⟨byte s 4, byte s 5, bytesAt s.data 2 15, byte s 0x15⟩ := by
  have h : 18 ≤ s.data.length := by unfold Fits at h; omega
  unfold BiosLanguagePacked2_1.packed
  packed_eval

theorem language_packed2_0 {s : RawStructure} (h : Fits s 0x15) :
    (letAsStruct BiosLanguagePacked2_0.packed s.data : R _) = .ok
      ⟨byte s 4, bytesAt s.data 1 15, byte s 0x14⟩ := by
  have h : 17 ≤ s.data.length := by unfold Fits at h; omega
  unfold BiosLanguagePacked2_0.packed
  packed_eval

/-- C43: a long enough structure always decodes, to exactly the stored values. -/
theorem C43_decodes (s : RawStructure) (h : Fits s (languageLength s)) :
    ∃ v, BiosLanguage.try_from s = .ok v ∧ LanguageFields s v := by
  unfold BiosLanguage.try_from languageLength at *
  by_cases h1 : Since s 2 1
  · rw [if_pos (ge_pos h1), language_packed2_1 (by simpa [h1] using h)]
    exact ⟨_, rfl, rfl, by simp [When, h1], by simp [h1], rfl⟩
  · rw [if_neg (ge_neg h1), language_packed2_0 (by simpa [h1] using h)]
    exact ⟨_, rfl, rfl, by simp [When, h1], by simp [h1], rfl⟩

/-- C43: in a shorter structure the decoder reads out of bounds. -/
theorem C43_short (s : RawStructure) (h : ¬ Fits s (languageLength s)) :
    BiosLanguage.try_from s = .ub := by
  unfold BiosLanguage.try_from languageLength Fits at *
  by_cases h1 : Since s 2 1
  · rw [if_pos h1] at h
    rw [if_pos (ge_pos h1), letAsStruct_short (n := 18)
      (by unfold BiosLanguagePacked2_1.packed; consumes) (by omega), ub_bind]
  · rw [if_neg h1] at h
    rw [if_neg (ge_neg h1), letAsStruct_short (n := 17)
      (by unfold BiosLanguagePacked2_0.packed; consumes) (by omega), ub_bind]

/-- C43, full statement: iterating the installable languages yields all strings and ends, in both
overflow-check profiles. -/
def C43_full : Prop := ∀ (oc : Bool) (s : RawStructure) (l : List Bytes),
  IsStringList s.strings l → CollectsR (InstallableLanguages.next oc) (.new s) l

theorem language_next (oc : Bool) (s : RawStructure) (l : List Bytes)
    (hl : IsStringList s.strings l) (k : Nat) (hk : k + 1 < 256) (hoc : oc = true → k + 1 < 255) :
    InstallableLanguages.next oc ⟨s, .ofNat (k + 1)⟩ =
      .ok (l[k]?, ⟨s, .ofNat (k + 1) + 1⟩) := by
  have hi : (UInt8.ofNat (k + 1)).toNat = k + 1 := by simp; omega
  have hadd : (addU8 oc (.ofNat (k + 1)) 1 : Fault UInt8) = .ok (.ofNat (k + 1) + 1) := by
    unfold addU8
    rw [hi]
    split
    · rfl
    · rw [if_neg]
      intro h
      have := hoc h
      have e1 : (1 : UInt8).toNat = 1 := rfl
      omega
  have hne : UInt8.ofNat (k + 1) ≠ 0 := by
    intro h
    have := congrArg UInt8.toNat h
    rw [hi] at this
    exact absurd this (by simp)
  unfold InstallableLanguages.next
  simp only [hadd, ok_bind]
  rw [find_string_list hl _ hne, hi, Nat.add_sub_cancel]
  cases l[k]? <;> rfl

theorem ofNat_succ (k : Nat) : UInt8.ofNat (k + 1) + 1 = UInt8.ofNat (k + 1 + 1) := by
  rw [UInt8.ofNat_add (k + 1) 1]
  rfl

theorem language_collects (oc : Bool) (s : RawStructure) (l : List Bytes)
    (hl : IsStringList s.strings l) (h1 : l.length ≤ 254) (h2 : oc = true → l.length ≤ 253) :
    ∀ n k, n + k = l.length → CollectsR (InstallableLanguages.next oc) ⟨s, .ofNat (k + 1)⟩
      (l.drop k) := by
  intro n
  induction n with
  | zero =>
    intro k hk
    have hk : k = l.length := by omega
    subst hk
    rw [List.drop_length]
    refine .done (s' := ⟨s, .ofNat (l.length + 1) + 1⟩) ?_
    rw [language_next oc s l hl _ (by omega) (fun h => by have := h2 h; omega),
      List.getElem?_eq_none (Nat.le_refl _)]
  | succ n ih =>
    intro k hk
    have hlt : k < l.length := by omega
    rw [List.drop_eq_getElem_cons hlt]
    refine .step (s' := ⟨s, .ofNat (k + 1 + 1)⟩) ?_ (ih (k + 1) (by omega))
    rw [language_next oc s l hl _ (by omega) (fun h => by have := h2 h; omega),
      List.getElem?_eq_getElem hlt, ofNat_succ]

/-- C43: with at most 253 strings (254 without overflow checks), iterating the installable
languages yields all strings of the structure in order and ends. -/
theorem C43_languages_partial (oc : Bool) (s : RawStructure) (l : List Bytes)
    (hl : IsStringList s.strings l) (h : l.length ≤ if oc then 253 else 254) :
    CollectsR (InstallableLanguages.next oc) (.new s) l := by
  have := language_collects oc s l hl (by split at h <;> omega)
    (fun ho => by simpa [ho] using h) l.length 0 rfl
  rwa [List.drop_zero] at this

theorem language_yields (oc : Bool) (s : RawStructure) (l : List Bytes)
    (hl : IsStringList s.strings l) : ∀ n k, n + k ≤ 254 → n + k ≤ l.length →
    Yields (InstallableLanguages.next oc) ⟨s, .ofNat (k + 1)⟩ ((l.drop k).take n)
      ⟨s, .ofNat (n + k + 1)⟩ := by
  intro n
  induction n with
  | zero => intro k _ _; rw [List.take_zero, Nat.zero_add]; exact .nil
  | succ n ih =>
    intro k h1 h2
    have hlt : k < l.length := by omega
    rw [List.drop_eq_getElem_cons hlt, List.take_succ_cons]
    refine .cons (s' := ⟨s, .ofNat (k + 1 + 1)⟩) ?_ ?_
    · rw [language_next oc s l hl _ (by omega) (fun h => by omega),
        List.getElem?_eq_getElem hlt, ofNat_succ]
    · have := ih (k + 1) (by omega) (by omega)
      rwa [show n + 1 + k + 1 = n + (k + 1) + 1 by omega]

/-- C43: with overflow checks and 254 strings or more, the call after the 254th language panics. -/
theorem C43_panics (s : RawStructure) (l : List Bytes) (hl : IsStringList s.strings l)
    (h : 254 ≤ l.length) : ∃ st, Yields (InstallableLanguages.next true) (.new s) (l.take 254) st ∧
      InstallableLanguages.next true st = .panic := by
  refine ⟨⟨s, 255⟩, ?_, rfl⟩
  have := language_yields true s l hl 254 0 (by omega) (by omega)
  rwa [List.drop_zero] at this

/-- C43: without overflow checks and with 255 strings or more, the iteration never ends: after any
number of calls there is one more item. -/
theorem C43_endless (s : RawStructure) (l : List Bytes) (hl : IsStringList s.strings l)
    (h : 255 ≤ l.length) (n : Nat) :
    ∃ items st, items.length = n ∧ Yields (InstallableLanguages.next false) (.new s) items st := by
  have step : ∀ i : UInt8, ∃ a, InstallableLanguages.next false ⟨s, i⟩ = .ok (some a, ⟨s, i + 1⟩) := by
    intro i
    have hadd : (addU8 false i 1 : Fault UInt8) = .ok (i + 1) := by
      unfold addU8; split <;> simp
    unfold InstallableLanguages.next
    simp only [hadd, ok_bind]
    by_cases hi : i = 0
    · subst hi; exact ⟨[], rfl⟩
    · have hlt := i.toNat_lt
      rw [find_string_list hl i hi, List.getElem?_eq_getElem (by omega)]
      exact ⟨_, rfl⟩
  have gen : ∀ n (i : UInt8), ∃ items st, items.length = n ∧
      Yields (InstallableLanguages.next false) ⟨s, i⟩ items st := by
    intro n
    induction n with
    | zero => intro i; exact ⟨[], _, rfl, .nil⟩
    | succ n ih =>
      intro i
      obtain ⟨a, ha⟩ := step i
      obtain ⟨items, st, h1, h2⟩ := ih (i + 1)
      exact ⟨a :: items, st, by simp [h1], .cons ha h2⟩
  exact gen n 1

/-- A structure with `n` one-letter languages. -/
def manyLanguages (n : Nat) : RawStructure where
  version := ⟨2, 1⟩
  info := .BiosLanguage
  length := 0x16
  handle := 0x0D00
  data := .ofNat n :: 1 :: List.replicate 15 0 ++ [1]
  strings := (List.replicate n [0x61, 0]).flatten ++ [0]

theorem manyLanguages_strings (n : Nat) :
    IsStringList (manyLanguages n).strings (List.replicate n [0x61]) := by
  refine ⟨[0, 0], ⟨?_, ?_⟩, ?_⟩
  · simp [manyLanguages, List.flatMap, List.map_replicate]
  · intro t ht
    rw [List.eq_of_mem_replicate ht]
    exact goodStr_ascii (by simp) (by simp)
  · intro t r hg he
    cases t with
    | nil => exact hg.1 rfl
    | cons x t =>
      injection he with h1 h2
      exact hg.2.1 (by rw [h1]; simp)

example : Fits (manyLanguages 3) (languageLength (manyLanguages 3)) := by decide
example : CollectsR (InstallableLanguages.next true) (.new (manyLanguages 3))
    [[0x61], [0x61], [0x61]] :=
  C43_languages_partial true _ _ (manyLanguages_strings 3) (by decide)

/-- C43, the full statement fails: 254 languages with overflow checks. -/
theorem C43_full_false : ¬ C43_full := by
  intro hf
  have hl := manyLanguages_strings 254
  have hc := hf true _ _ hl
  obtain ⟨st, hy, hp⟩ := C43_panics _ _ hl (by rw [List.length_replicate]; exact Nat.le_refl _)
  have key : ∀ {s : InstallableLanguages} {a b : List Str} {st},
      Yields (InstallableLanguages.next true) s a st →
      CollectsR (InstallableLanguages.next true) s b → InstallableLanguages.next true st ≠ .panic := by
    clear hf hl hc hy hp st
    intro s a b st hy
    induction hy generalizing b with
    | nil =>
      intro hc hp
      cases hc with
      | done h => rw [hp] at h; cases h
      | step h t => rw [hp] at h; cases h
    | cons h t ih =>
      intro hc
      cases hc with
      | done h' => rw [h] at h'; simp at h'
      | step h' t' =>
        rw [h] at h'
        simp only [Res.ok.injEq, Prod.mk.injEq] at h'
        obtain ⟨-, rfl⟩ := h'
        exact ih t'
  exact key hy hc hp

end Language

/-! ### C44 -/

section Group
open group_associations

/-- The fields of a type 14 structure: its items are those stored from offset 05h on, three bytes
each, a type and a handle. -/
structure GroupFields (s : RawStructure) (v : GroupAssociations) : Prop where
  handle : v.handle = s.handle
  group_name : Ref s 0x04 v.group_name
  items : Collects GroupItems.next v.items
    ((List.range ((s.length.toNat - 5) / 3)).map fun k =>
      ⟨byte s (5 + 3 * k), word s (5 + 3 * k + 1)⟩)

theorem group_next (d : Bytes) (k : Nat) : GroupItems.next ⟨d, 3 * k⟩ =
    if 3 * k + 3 ≤ d.length then
      (some ⟨byteAt d (3 * k), u16At d (3 * k + 1)⟩, ⟨d, 3 * (k + 1)⟩)
    else (none, ⟨d, 3 * k⟩) := by
  unfold GroupItems.next getRange
  by_cases h : 3 * k + 3 ≤ d.length
  · rw [if_pos h]
    simp only
    rw [if_pos ⟨by omega, h⟩, show 3 * k + 3 - 3 * k = 3 by omega,
      take_eq_bytesAt d (3 * k) 3 (by omega)]
    have h2 : le16 (bytesAt d (3 * k + 1) 2) = u16At d (3 * k + 1) := by
      unfold le16 u16At; rw [leNat_bytesAt]
    rw [← h2]
    rfl
  · rw [if_neg h]
    simp only
    rw [if_neg (by omega)]

theorem group_collects (d : Bytes) : ∀ n k, n + k = d.length / 3 →
    Collects GroupItems.next ⟨d, 3 * k⟩
      ((List.range' k n).map fun k => ⟨byteAt d (3 * k), u16At d (3 * k + 1)⟩) := by
  intro n
  induction n with
  | zero =>
    intro k hk
    exact .done (s' := ⟨d, 3 * k⟩) (by rw [group_next, if_neg (by omega)])
  | succ n ih =>
    intro k hk
    rw [List.range'_succ, List.map_cons]
    exact .step (s' := ⟨d, 3 * (k + 1)⟩) (by rw [group_next, if_pos (by omega)])
      (ih (k + 1) (by omega))

/-- C44: a structure of at least five bytes decodes iff its group name exists, to the stored name
and items, in order. -/
theorem C44_decodes (oc : Bool) (s : RawStructure) (hc : Coherent s) (h : Fits s 5) :
    (∀ v, GroupAssociations.try_from oc s = .ok v → GroupFields s v) ∧
    (∀ str, Ref s 0x04 str → ∃ v, GroupAssociations.try_from oc s = .ok v) ∧
    ErrOnly (BadRef s [0x04]) (GroupAssociations.try_from oc s) := by
  have hlen := (Coherent.fits_iff hc 5).1 h
  have hlt := s.length.toNat_lt
  have hc' : s.data.length + 4 = s.length.toNat := hc
  have hsub : (subUsize oc s.length.toNat 5 : R Nat) = .ok (s.length.toNat - 5) := by
    unfold subUsize; rw [if_pos hlen]
  have heval : GroupAssociations.try_from oc s = (do
      let name ← s.find_string (byte s 4)
      pure ⟨s.handle, name, .new (bytesAt s.data 1 (s.length.toNat - 5))⟩) := by
    unfold GroupAssociations.try_from
    rw [hsub, ok_bind, get_slice_ge oc s 5 _ (by decide) (by omega), if_pos (by omega),
      get_string_ok oc h (by decide) (by decide) (by decide)]
    rfl
  rw [heval]
  refine ⟨?_, ?_, by err_only⟩
  · intro v hv
    simp only [bind_ok_iff, pure_eq_ok, Res.ok.injEq] at hv
    obtain ⟨str, hs, rfl⟩ := hv
    refine ⟨rfl, ref_iff.2 hs, ?_⟩
    have hl : (bytesAt s.data 1 (s.length.toNat - 5)).length = s.length.toNat - 5 := by
      simp [bytesAt]
    have := group_collects (bytesAt s.data 1 (s.length.toNat - 5)) ((s.length.toNat - 5) / 3) 0
      (by rw [hl, Nat.add_zero])
    have e : ∀ j, j < s.length.toNat - 5 →
        byteAt (bytesAt s.data 1 (s.length.toNat - 5)) j = byte s (5 + j) := by
      intro j hj
      rw [byteAt_eq (by rw [hl]; exact hj)]
      simp only [bytesAt, List.getElem_map, List.getElem_range, byte]
      congr 1
      omega
    simp only [GroupItems.new]
    have e2 : ((List.range' 0 ((s.length.toNat - 5) / 3)).map fun k =>
          (⟨byteAt (bytesAt s.data 1 (s.length.toNat - 5)) (3 * k),
            u16At (bytesAt s.data 1 (s.length.toNat - 5)) (3 * k + 1)⟩ : GroupItem)) =
        ((List.range ((s.length.toNat - 5) / 3)).map fun k =>
          ⟨byte s (5 + 3 * k), word s (5 + 3 * k + 1)⟩) := by
      rw [List.range_eq_range']
      apply List.map_congr_left
      intro k hk
      simp only [List.mem_range'_1] at hk
      have hb : ∀ j, 3 * k ≤ j → j < 3 * k + 3 →
          byteAt (bytesAt s.data 1 (s.length.toNat - 5)) j = byteAt s.data (1 + j) := by
        intro j h1 h2
        rw [e j (by omega)]
        unfold byte
        congr 1
        omega
      simp only [byte, word, u16At, leAt]
      rw [hb (3 * k) (by omega) (by omega), hb (3 * k + 1) (by omega) (by omega),
        hb (3 * k + 1 + 1) (by omega) (by omega)]
      have a0 : 5 + 3 * k - 4 = 1 + 3 * k := by omega
      have a1 : 5 + 3 * k + 1 - 4 = 1 + (3 * k + 1) := by omega
      rw [a0, a1]
      rfl
    rw [← e2]
    exact this
  · intro str hs
    rw [ref_iff] at hs
    rw [hs]
    exact ⟨_, rfl⟩

/-- C44: a structure of four bytes panics under overflow checks and is rejected otherwise. -/
theorem C44_short (oc : Bool) (s : RawStructure) (hc : Coherent s) (h : ¬ Fits s 5) :
    GroupAssociations.try_from oc s = if oc then .panic
      else .err (.InvalidFormattedSectionLength .GroupAssociations s.handle "" s.length) := by
  have hlen := mt (Coherent.fits_iff hc 5).2 h
  have h4 := Coherent.four_le hc
  have e : s.length.toNat = 4 := by omega
  unfold GroupAssociations.try_from subUsize
  rw [e]
  cases oc with
  | true => rfl
  | false =>
    have hd : s.data = [] := by
      have : s.data.length + 4 = s.length.toNat := hc
      exact List.eq_nil_of_length_eq_zero (by omega)
    simp only [RawStructure.get_slice, hd]
    rfl

/-- A group of two items. -/
def exampleGroup : RawStructure where
  version := ⟨2, 0⟩
  info := .GroupAssociations
  length := 0x0B
  handle := 0x0E00
  data := [1, 4, 0x00, 0x04, 7, 0x01, 0x07]
  strings := ascii "CPU" ++ [0, 0]

example : Coherent exampleGroup ∧ Fits exampleGroup 5 := by decide
example : (GroupAssociations.try_from true exampleGroup).okAnd (fun v =>
    v.group_name = ascii "CPU" ∧ v.items.next.1 = some ⟨4, 0x0400⟩ ∧
    v.items.next.2.next.1 = some ⟨7, 0x0701⟩ ∧ v.items.next.2.next.2.next.1 = none) = true := by
  decide +kernel
example : Coherent { exampleGroup with length := 4, data := [] } ∧
    ¬ Fits { exampleGroup with length := 4, data := [] } 5 := by decide

end Group

end Dmi.Props
