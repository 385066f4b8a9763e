import Verif.Spec.Strings
import Verif.Proofs.Utf8
/-!
# Lemmas about string areas
-/
namespace Dmi
open Spec

theorem fromUtf8_eq_some (b s : Bytes) : fromUtf8 b = some s ↔ b = s ∧ IsText s := by
  unfold fromUtf8
  by_cases h : utf8Valid b = true
  · rw [if_pos h]
    constructor
    · intro h'; injection h' with h'; subst h'; exact ⟨rfl, (utf8Valid_iff b).1 h⟩
    · rintro ⟨rfl, -⟩; rfl
  · rw [if_neg h]
    constructor
    · intro h'; cases h'
    · rintro ⟨rfl, h'⟩; exact absurd ((utf8Valid_iff b).2 h') h

theorem fromUtf8_eq_none (b : Bytes) : fromUtf8 b = none ↔ ¬ IsText b := by
  unfold fromUtf8
  by_cases h : utf8Valid b = true
  · rw [if_pos h]; simp [IsText, ← utf8Valid_iff, h]
  · rw [if_neg h]; simp [IsText, ← utf8Valid_iff, h]

theorem beforeNul_no_zero (b : Bytes) : (0 : UInt8) ∉ beforeNul b := by
  unfold beforeNul
  intro h
  have := List.all_takeWhile (l := b) (p := fun x => decide (x ≠ 0))
  rw [List.all_eq_true] at this
  have := this 0 h
  simp at this

/-- The first segment of `b` and what follows its terminator. -/
theorem beforeNul_split (b : Bytes) :
    b ++ [0] = beforeNul b ++ [0] ++ (b ++ [0]).drop ((beforeNul b).length + 1) := by
  induction b with
  | nil => rfl
  | cons x b ih =>
    by_cases hx : x = 0
    · subst hx; simp [beforeNul]
    · have : beforeNul (x :: b) = x :: beforeNul b := by simp [beforeNul, hx]
      rw [this]
      simp only [List.cons_append, List.length_cons, List.drop_succ_cons]
      rw [List.cons.injEq]
      exact ⟨rfl, by simpa using ih⟩

theorem zero_split_unique {s s' r r' : Bytes} (hs : (0 : UInt8) ∉ s) (hs' : (0 : UInt8) ∉ s')
    (h : s ++ [0] ++ r = s' ++ [0] ++ r') : s = s' ∧ r = r' := by
  induction s generalizing s' with
  | nil =>
    cases s' with
    | nil => simpa using h
    | cons y s' =>
      simp only [List.nil_append, List.cons_append, List.cons.injEq] at h
      exact absurd (by rw [← h.1]; simp) hs'
  | cons x s ih =>
    cases s' with
    | nil =>
      simp only [List.nil_append, List.cons_append, List.cons.injEq] at h
      exact absurd (by rw [h.1]; simp) hs
    | cons y s' =>
      simp only [List.cons_append, List.cons.injEq] at h
      have := ih (fun hm => hs (List.mem_cons_of_mem _ hm)) (fun hm => hs' (List.mem_cons_of_mem _ hm)) h.2
      exact ⟨by rw [h.1, this.1], this.2⟩

/-- What is left of the area, with the end counting as a terminator. -/
def StructureStrings.left (st : StructureStrings) : Bytes := (st.bytes ++ [0]).drop st.start

theorem StructureStrings.left_new (b : Bytes) : (StructureStrings.new b).left = b ++ [0] := rfl

theorem StructureStrings.next_cases (st : StructureStrings) :
    (∃ s st', st.next = (some s, st') ∧ GoodStr s ∧ st.left = s ++ [0] ++ st'.left ∧
      st'.bytes = st.bytes ∧ st'.start = st.start + s.length + 1 ∧
      st.start + s.length ≤ st.bytes.length) ∨
    (∃ st', st.next = (none, st') ∧ ∀ s r, GoodStr s → st.left ≠ s ++ [0] ++ r) := by
  unfold StructureStrings.next getFrom
  by_cases hle : st.start ≤ st.bytes.length
  · simp only [if_pos hle]
    have hleft : st.left = st.bytes.drop st.start ++ [0] := by
      unfold StructureStrings.left
      rw [List.drop_append_of_le_length hle]
    generalize hrest : st.bytes.drop st.start = rest at *
    have hsplit := beforeNul_split rest
    have hno := beforeNul_no_zero rest
    have hlen : (beforeNul rest).length ≤ rest.length := by
      unfold beforeNul; exact (List.takeWhile_sublist _).length_le
    have hrl : rest.length = st.bytes.length - st.start := by rw [← hrest]; simp
    by_cases hemp : (beforeNul rest).isEmpty = true
    · right
      rw [if_pos hemp]
      refine ⟨st, rfl, ?_⟩
      intro s r hs h
      rw [hleft, hsplit] at h
      have := (zero_split_unique hno hs.2.1 h).1
      rw [List.isEmpty_iff] at hemp
      exact hs.1 (by rw [← this, hemp])
    · rw [if_neg hemp]
      rw [List.isEmpty_iff] at hemp
      cases hu : fromUtf8 (beforeNul rest) with
      | some s =>
        left
        obtain ⟨rfl, htext⟩ := (fromUtf8_eq_some _ _).1 hu
        refine ⟨_, _, rfl, ⟨hemp, hno, htext⟩, ?_, rfl, rfl, by omega⟩
        rw [hleft]
        conv => lhs; rw [hsplit]
        congr 1
        unfold StructureStrings.left
        dsimp only
        rw [← List.drop_drop (i := (beforeNul rest).length + 1)]
        rw [List.drop_append_of_le_length hle, hrest]
      | none =>
        right
        refine ⟨_, rfl, ?_⟩
        intro s r hs h
        rw [hleft, hsplit] at h
        have := (zero_split_unique hno hs.2.1 h).1
        rw [fromUtf8_eq_none, this] at hu
        exact hu hs.2.2
  · right
    simp only [if_neg hle]
    refine ⟨st, rfl, ?_⟩
    intro s r hs h
    have : st.left = [] := by
      unfold StructureStrings.left
      apply List.drop_eq_nil_of_le
      simp; omega
    rw [this] at h
    simp at h

theorem good_split_unique {s s' r r' : Bytes} (hs : GoodStr s) (hs' : GoodStr s')
    (h : s ++ [0] ++ r = s' ++ [0] ++ r') : s = s' ∧ r = r' :=
  zero_split_unique hs.2.1 hs'.2.1 h

/-- `nth` follows the leading strings. -/
theorem StructureStrings.nth_eq_some (st : StructureStrings) (n : Nat) (s : Bytes) :
    st.nth n = some s ↔ ∃ (l : List Bytes) (rest : Bytes), st.left = l.flatMap (· ++ [0]) ++ rest ∧ (∀ t ∈ l, GoodStr t) ∧
      l.length = n + 1 ∧ l.getLast? = some s := by
  induction n generalizing st with
  | zero =>
    rw [StructureStrings.nth]
    constructor
    · intro h
      rcases st.next_cases with ⟨t, st', hn, hg, hl, -⟩ | ⟨st', hn, -⟩
      · rw [hn] at h
        simp only [Option.some.injEq] at h
        subst h
        exact ⟨[t], st'.left, by simpa using hl, by simpa using hg, rfl, rfl⟩
      · rw [hn] at h; cases h
    · rintro ⟨l, rest, hl, hg, hlen, hlast⟩
      obtain ⟨t, rfl⟩ : ∃ t, l = [t] := List.length_eq_one_iff.1 (by omega)
      simp only [List.getLast?_singleton, Option.some.injEq] at hlast
      subst hlast
      have ht := hg t (by simp)
      have hl' : st.left = t ++ [0] ++ rest := by simpa using hl
      rcases st.next_cases with ⟨u, st', hn, hgu, hlu, -⟩ | ⟨st', hn, hno⟩
      · rw [hn]
        rw [hlu] at hl'
        rw [(good_split_unique hgu ht hl').1]
      · exact absurd hl' (hno t rest ht)
  | succ n ih =>
    rw [StructureStrings.nth]
    rcases st.next_cases with ⟨u, st', hn, hgu, hlu, -⟩ | ⟨st', hn, hno⟩
    · rw [hn]
      simp only
      rw [ih]
      constructor
      · rintro ⟨l, rest, hl, hg, hlen, hlast⟩
        refine ⟨u :: l, rest, ?_, ?_, by simp [hlen], ?_⟩
        · rw [List.flatMap_cons, hlu, hl, List.append_assoc _ _ rest]
        · intro t ht
          rcases List.mem_cons.1 ht with rfl | ht
          · exact hgu
          · exact hg t ht
        · rw [List.getLast?_cons, hlast]; rfl
      · rintro ⟨l, rest, hl, hg, hlen, hlast⟩
        cases l with
        | nil => simp at hlen
        | cons t l =>
          have ht := hg t (by simp)
          rw [List.flatMap_cons, hlu, List.append_assoc (t ++ [0])] at hl
          obtain ⟨rfl, h2⟩ := good_split_unique hgu ht hl
          refine ⟨l, rest, h2, fun x hx => hg x (List.mem_cons_of_mem _ hx), by simpa using hlen, ?_⟩
          rw [List.getLast?_cons] at hlast
          cases hc : l.getLast? with
          | none =>
            rw [List.getLast?_eq_none_iff] at hc
            subst hc; simp at hlen
          | some y => rw [hc] at hlast; simpa using hlast
    · rw [hn]
      constructor
      · intro h; cases h
      · rintro ⟨l, rest, hl, hg, hlen, -⟩
        cases l with
        | nil => simp at hlen
        | cons t l =>
          rw [List.flatMap_cons, List.append_assoc (t ++ [0])] at hl
          exact absurd hl (hno t _ (hg t (by simp)))

/-- `find_string` implements the declarative meaning of references. -/
theorem find_string_eq (r : RawStructure) (i : UInt8) :
    (∀ s, r.find_string i = .ok s ↔ HasString r.strings i.toNat s) ∧
    ((∀ s, ¬ HasString r.strings i.toNat s) →
      r.find_string i = .err (.InvalidStringIndex r.info r.handle i)) := by
  unfold RawStructure.find_string
  by_cases hi : i = 0
  · subst hi
    simp only [if_true]
    constructor
    · intro s
      simp only [HasString]
      constructor
      · intro h; injection h with h; left; exact ⟨rfl, h.symm⟩
      · rintro (⟨-, rfl⟩ | ⟨h, -⟩)
        · rfl
        · exact absurd h (by decide)
    · intro h; exact absurd (Or.inl ⟨rfl, rfl⟩) (h [])
  · have hpos : 0 < i.toNat := by
      rcases Nat.eq_zero_or_pos i.toNat with h | h
      · exact absurd (UInt8.toNat.inj h) hi
      · exact h
    rw [if_neg hi]
    have key : ∀ s, r.stringsIter.nth (i.toNat - 1) = some s ↔ HasString r.strings i.toNat s := by
      intro s
      rw [StructureStrings.nth_eq_some]
      unfold HasString Leading RawStructure.stringsIter
      rw [StructureStrings.left_new]
      constructor
      · rintro ⟨l, rest, h1, h2, h3, h4⟩
        exact Or.inr ⟨hpos, l, rest, ⟨h1, h2⟩, by omega, h4⟩
      · rintro (⟨h, -⟩ | ⟨-, l, rest, ⟨h1, h2⟩, h3, h4⟩)
        · omega
        · exact ⟨l, rest, h1, h2, by omega, h4⟩
    constructor
    · intro s
      rw [← key s]
      cases r.stringsIter.nth (i.toNat - 1) <;> simp [Res.ofOption]
    · intro h
      cases hn : r.stringsIter.nth (i.toNat - 1) with
      | none => rfl
      | some s => exact absurd ((key s).1 hn) (h s)

theorem find_string_noFault (r : RawStructure) (i : UInt8) : (r.find_string i).NoFault := by
  unfold RawStructure.find_string
  split
  · constructor <;> simp
  · cases r.stringsIter.nth (i.toNat - 1) <;> constructor <;> simp [Res.ofOption]

/-- A reference means at most one string. -/
theorem hasString_unique {area : Bytes} {i : Nat} {s t : Bytes} (h256 : i < 256)
    (h : HasString area i s) (h' : HasString area i t) : s = t := by
  let r : RawStructure := ⟨⟨0, 0⟩, .Bios, 0, 0, [], area⟩
  have e : (UInt8.ofNat i).toNat = i := by simp; omega
  have h1 := (find_string_eq r (UInt8.ofNat i)).1 s
  have h2 := (find_string_eq r (UInt8.ofNat i)).1 t
  rw [e] at h1 h2
  have := (h1.2 h).symm.trans (h2.2 h')
  injection this

/-- The strings actually collected. -/
theorem StructureStrings.collectFuel_spec (fuel : Nat) (st : StructureStrings)
    (hf : st.bytes.length + 1 ≤ st.start + fuel) (hst : st.start ≤ st.bytes.length + 1) :
    Collects StructureStrings.next st (st.collectFuel fuel) ∧
    ∃ rest, st.left = (st.collectFuel fuel).flatMap (· ++ [0]) ++ rest ∧
      (∀ t ∈ st.collectFuel fuel, GoodStr t) ∧ ∀ s r, GoodStr s → rest ≠ s ++ [0] ++ r := by
  induction fuel generalizing st with
  | zero =>
    rw [StructureStrings.collectFuel]
    rcases st.next_cases with ⟨u, st', hn, hgu, hlu, hb, hs, hle⟩ | ⟨st', hn, hno⟩
    · omega
    · exact ⟨.done hn, st.left, rfl, by simp, hno⟩
  | succ fuel ih =>
    rw [StructureStrings.collectFuel]
    rcases st.next_cases with ⟨u, st', hn, hgu, hlu, hb, hs, hle⟩ | ⟨st', hn, hno⟩
    · rw [hn]
      simp only
      have hu : 1 ≤ u.length := List.length_pos_iff.2 hgu.1
      obtain ⟨hc, rest, h1, h2, h3⟩ := ih st' (by rw [hb]; omega) (by rw [hb]; omega)
      refine ⟨.step hn hc, rest, ?_, ?_, h3⟩
      · rw [List.flatMap_cons, hlu, h1, List.append_assoc (u ++ [0])]
      · intro t ht
        rcases List.mem_cons.1 ht with rfl | ht
        · exact hgu
        · exact h2 t ht
    · rw [hn]
      exact ⟨.done hn, st.left, rfl, by simp, hno⟩

theorem Collects.unique {σ α : Type} {next : σ → Option α × σ} {s : σ} {l l' : List α}
    (h : Collects next s l) (h' : Collects next s l') : l = l' := by
  induction h generalizing l' with
  | done h =>
    cases h' with
    | done => rfl
    | step h2 _ => rw [h] at h2; simp at h2
  | step h t ih =>
    cases h' with
    | done h2 => rw [h] at h2; simp at h2
    | step h2 t2 =>
      rw [h] at h2
      simp only [Prod.mk.injEq, Option.some.injEq] at h2
      obtain ⟨rfl, rfl⟩ := h2
      rw [ih t2]

theorem isStringList_unique {area : Bytes} {l l' : List Bytes} (h : IsStringList area l)
    (h' : IsStringList area l') : l = l' := by
  obtain ⟨rest, ⟨h1, h2⟩, h3⟩ := h
  obtain ⟨rest', ⟨h1', h2'⟩, h3'⟩ := h'
  rw [h1] at h1'
  clear h1
  induction l generalizing l' with
  | nil =>
    cases l' with
    | nil => rfl
    | cons t l' =>
      exfalso
      simp only [List.flatMap_nil, List.nil_append, List.flatMap_cons] at h1'
      rw [List.append_assoc (t ++ [0])] at h1'
      exact h3 t _ (h2' t (by simp)) h1'
  | cons s l ih =>
    cases l' with
    | nil =>
      exfalso
      simp only [List.flatMap_nil, List.nil_append, List.flatMap_cons] at h1'
      rw [List.append_assoc (s ++ [0])] at h1'
      exact h3' s _ (h2 s (by simp)) h1'.symm
    | cons t l' =>
      simp only [List.flatMap_cons] at h1'
      rw [List.append_assoc (s ++ [0]), List.append_assoc (t ++ [0])] at h1'
      obtain ⟨rfl, h⟩ := good_split_unique (h2 s (by simp)) (h2' t (by simp)) h1'
      rw [ih (fun x hx => h2 x (List.mem_cons_of_mem _ hx)) h
        (fun x hx => h2' x (List.mem_cons_of_mem _ hx))]

theorem strings_collect (area : Bytes) :
    Collects StructureStrings.next (.new area) (StructureStrings.new area).collect ∧
    IsStringList area (StructureStrings.new area).collect := by
  unfold StructureStrings.collect
  have h0 : (StructureStrings.new area).bytes = area := rfl
  have h1 : (StructureStrings.new area).start = 0 := rfl
  obtain ⟨hc, rest, h2, h3, h4⟩ := StructureStrings.collectFuel_spec (area.length + 1) (.new area)
    (by rw [h0, h1]; omega) (by rw [h1]; omega)
  exact ⟨hc, rest, ⟨h2, h3⟩, h4⟩

end Dmi
