import Verif.Props.Cost
import Verif.Props.Language
import Mathlib.Tactic.Ring
/-!
# C98: what listing the languages costs
-/
namespace Dmi
open bios_language

namespace Props

/-- Calls of the iterator over languages with the count, up to and including the one that answers `None`. -/
inductive CountedLanguages (oc : Bool) : InstallableLanguages → List Str → Nat → Prop
  | done {i i' c} (h : i.nextC oc = .ok ((none, i'), c)) : CountedLanguages oc i [] c
  | step {i i' a l c d} (h : i.nextC oc = .ok ((some a, i'), c)) (t : CountedLanguages oc i' l d) :
      CountedLanguages oc i (a :: l) (c + d)

theorem languages_nextC (oc : Bool) (i : InstallableLanguages) :
    (i.nextC oc >>= fun x => .ok x.1) = i.next oc ∧
    ∀ x c, i.nextC oc = .ok (x, c) → c ≤ 2 * i.structure_.strings.length ∧ x.2.structure_ = i.structure_ := by
  obtain ⟨h1, h2⟩ := C90_string i.structure_ i.index
  unfold InstallableLanguages.nextC InstallableLanguages.next
  rw [← h1]
  cases addU8 (ε := Empty) oc i.index 1 with
  | err e => exact ⟨rfl, fun _ _ h => nomatch h⟩
  | panic => exact ⟨rfl, fun _ _ h => nomatch h⟩
  | ub => exact ⟨rfl, fun _ _ h => nomatch h⟩
  | ok j =>
    generalize i.structure_.find_stringC i.index = y at *
    obtain ⟨r, c⟩ := y
    cases r with
    | ok s => exact ⟨rfl, fun _ _ h => by cases h; exact ⟨h2, rfl⟩⟩
    | err e => exact ⟨rfl, fun _ _ h => by cases h; exact ⟨h2, rfl⟩⟩
    | panic => exact ⟨rfl, fun _ _ h => nomatch h⟩
    | ub => exact ⟨rfl, fun _ _ h => nomatch h⟩

/-- C98: the count changes nothing. -/
theorem C98_same (oc : Bool) (i : InstallableLanguages) (l : List Str) :
    (∃ c, CountedLanguages oc i l c) ↔ CollectsR (InstallableLanguages.next oc) i l := by
  constructor
  · rintro ⟨c, h⟩
    induction h with
    | done h => exact .done (by rw [← (languages_nextC oc _).1, h]; rfl)
    | step h t ih => exact .step (by rw [← (languages_nextC oc _).1, h]; rfl) ih
  · intro h
    induction h with
    | done h =>
      rw [← (languages_nextC oc _).1] at h
      simp only [bind_ok_iff, Res.ok.injEq] at h
      obtain ⟨⟨y, c⟩, h1, rfl⟩ := h
      exact ⟨c, .done h1⟩
    | step h t ih =>
      rw [← (languages_nextC oc _).1] at h
      simp only [bind_ok_iff, Res.ok.injEq] at h
      obtain ⟨⟨y, c⟩, h1, rfl⟩ := h
      obtain ⟨d, ih⟩ := ih
      exact ⟨c + d, .step h1 ih⟩

/-- C98: each call looks at most twice at each byte of the string set, so listing them all takes at most this
for each language and once more. -/
theorem C98_bound (oc : Bool) {i : InstallableLanguages} {l : List Str} {c : Nat}
    (h : CountedLanguages oc i l c) : c ≤ (l.length + 1) * (2 * i.structure_.strings.length) := by
  induction h with
  | done h => have := ((languages_nextC oc _).2 _ _ h).1; simpa using this
  | @step i i' a l c d h t ih =>
    have k := (languages_nextC oc _).2 _ _ h
    have k2 : i'.structure_ = i.structure_ := k.2
    rw [k2] at ih
    rw [List.length_cons, Nat.add_mul (l.length + 1)]
    have := k.1
    omega

/-- `n` strings of one letter each. -/
def letters (n : Nat) : Bytes := (List.replicate n [0x61, 0]).flatten ++ [0]

theorem letters_succ (n : Nat) : letters (n + 1) = 0x61 :: 0 :: letters n := rfl

theorem letters_length (n : Nat) : (letters n).length = 2 * n + 1 := by
  induction n with
  | zero => rfl
  | succ n ih => rw [letters_succ, List.length_cons, List.length_cons, ih]; omega

theorem letters_drop (n : Nat) : ∀ k, k ≤ n → (letters n).drop (2 * k) = letters (n - k) := by
  induction n with
  | zero => intro k hk; obtain rfl : k = 0 := by omega
            rfl
  | succ n ih =>
    intro k hk
    cases k with
    | zero => rfl
    | succ k =>
      rw [letters_succ, show 2 * (k + 1) = 2 * k + 1 + 1 from rfl, List.drop_succ_cons, List.drop_succ_cons,
        ih k (by omega), Nat.add_sub_add_right]

theorem letters_next (n k : Nat) (hk : k < n) :
    (StructureStrings.mk (letters n) (2 * k)).nextC = ((some [0x61], ⟨letters n, 2 * (k + 1)⟩), 3) := by
  have hg : getFrom (letters n) (2 * k) = some (0x61 :: 0 :: letters (n - k - 1)) := by
    unfold getFrom
    rw [if_pos (by rw [letters_length]; omega), letters_drop n k (by omega), ← letters_succ]
    rw [show n - k - 1 + 1 = n - k by omega]
  unfold StructureStrings.nextC
  simp only [hg]
  have hb : beforeNul (0x61 :: 0 :: letters (n - k - 1)) = [0x61] := rfl
  have hm : min 2 (letters (n - k - 1)).length.succ.succ = 2 := by omega
  simp [hb, show fromUtf8 [0x61] = some [0x61] from by decide +kernel]
  omega

theorem letters_nth (n m : Nat) : ∀ k, k + m < n →
    (StructureStrings.mk (letters n) (2 * k)).nthC m = (some [0x61], 3 * (m + 1)) := by
  induction m with
  | zero => intro k hk; rw [StructureStrings.nthC, letters_next n k (by omega)]
  | succ m ih =>
    intro k hk
    rw [StructureStrings.nthC, letters_next n k (by omega)]
    simp only
    rw [ih (k + 1) (by omega)]
    simp only [Prod.mk.injEq, true_and]
    omega

theorem letters_end (n m : Nat) : ∀ k, k + m = n →
    (StructureStrings.mk (letters n) (2 * k)).nthC m = (none, 3 * m + 1) := by
  induction m with
  | zero =>
    intro k hk
    obtain rfl : k = n := hk
    have hg : getFrom (letters k) (2 * k) = some [0] := by
      unfold getFrom
      rw [if_pos (by rw [letters_length]; omega), letters_drop k k (by omega), Nat.sub_self]
      rfl
    rw [StructureStrings.nthC]
    unfold StructureStrings.nextC
    simp only [hg]
    rfl
  | succ m ih =>
    intro k hk
    rw [StructureStrings.nthC, letters_next n k (by omega)]
    simp only
    rw [ih (k + 1) (by omega)]
    simp only [Prod.mk.injEq, true_and]
    omega

theorem letters_find (oc : Bool) (s : RawStructure) (k : Nat) (h8 : k + 1 < 255) {o : Option Str} {c : Nat}
    (h : s.stringsIter.nthC k = (o, c)) : InstallableLanguages.nextC oc ⟨s, .ofNat (k + 1)⟩ =
      .ok ((o, ⟨s, .ofNat (k + 1 + 1)⟩), c) := by
  have hi : (UInt8.ofNat (k + 1)).toNat = k + 1 := by simp; omega
  have hadd : (addU8 oc (.ofNat (k + 1)) 1 : Fault UInt8) = .ok (.ofNat (k + 1) + 1) := by
    unfold addU8
    rw [if_pos (by rw [hi, show (1 : UInt8).toNat = 1 from rfl]; omega)]
  have hz : UInt8.ofNat (k + 1) ≠ 0 := fun h => by rw [h] at hi; simp at hi
  unfold InstallableLanguages.nextC
  rw [hadd, ok_bind]
  unfold RawStructure.find_stringC
  rw [if_neg hz, hi, Nat.add_sub_cancel, h, ofNat_succ]
  cases o <;> rfl

theorem letters_run (oc : Bool) (s : RawStructure) (n : Nat) (hn : n ≤ 253) (hs : s.strings = letters n)
    (m : Nat) : ∀ k, k + m = n → ∃ c, CountedLanguages oc ⟨s, .ofNat (k + 1)⟩ (List.replicate m [0x61]) c ∧
      2 * c + 3 * k * (k + 1) = 3 * n * (n + 1) + 2 * (3 * n + 1) := by
  have it : s.stringsIter = ⟨letters n, 0⟩ := by rw [← hs]; rfl
  induction m with
  | zero =>
    intro k hk
    obtain rfl : k = n := hk
    refine ⟨3 * k + 1, .done (letters_find oc s k (by omega) ?_), by omega⟩
    rw [it]
    exact letters_end k k 0 (by omega)
  | succ m ih =>
    intro k hk
    obtain ⟨c, h1, h2⟩ := ih (k + 1) (by omega)
    refine ⟨3 * (k + 1) + c, .step (letters_find oc s k (by omega) ?_) h1, ?_⟩
    · rw [it]
      exact letters_nth n k 0 (by omega)
    · rw [← h2]
      ring

/-- C98: and it does take that order of work, since every call starts from the first string again. With `n` strings
of one letter the string set has `2 * n + 1` bytes, and listing them looks at `3 * n * (n + 1) / 2 + 3 * n + 1`. -/
theorem C98_quadratic (oc : Bool) (s : RawStructure) (n : Nat) (hn : n ≤ 253) (hs : s.strings = letters n) :
    s.strings.length = 2 * n + 1 ∧ ∃ c, CountedLanguages oc (.new s) (List.replicate n [0x61]) c ∧
      2 * c = 3 * n * (n + 1) + 2 * (3 * n + 1) := by
  obtain ⟨c, h1, h2⟩ := letters_run oc s n hn hs n 0 (by omega)
  exact ⟨by rw [hs, letters_length], c, h1, by simpa using h2⟩

/-- Three languages of one letter: 28 looks for seven bytes. -/
def letterLanguages : RawStructure where
  version := ⟨2, 8⟩
  info := .BiosLanguage
  length := 0x16
  handle := 7
  data := 3 :: 0 :: List.replicate 15 0 ++ [1]
  strings := letters 3

example : letterLanguages.strings = [0x61, 0, 0x61, 0, 0x61, 0, 0] := by decide +kernel

example : ∃ c, CountedLanguages true (.new letterLanguages) [[0x61], [0x61], [0x61]] c ∧ c = 28 := by
  obtain ⟨-, c, h1, h2⟩ := C98_quadratic true letterLanguages 3 (by decide) rfl
  exact ⟨c, h1, by omega⟩

end Props
end Dmi
