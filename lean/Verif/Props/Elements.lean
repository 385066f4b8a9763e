import Verif.Props.Accessors
/-!
# C34, C71: exactly which contained elements an enclosure lists
-/
namespace Dmi.Props
open Spec enclosure

/-- The record at byte `o` of `d`. -/
def recordAt (d : Bytes) (o : Nat) : ContainedElement :=
  ⟨elementType (byteAt d o), byteAt d (o + 1), byteAt d (o + 2)⟩

theorem next_record (d : Bytes) (o n k : Nat) (c r : UInt8) (hn : 0 < n) :
    ContainedElements.next ⟨⟨bytesAt d o n, k⟩, c, r⟩ =
      if 3 ≤ min k n then .ok (some (recordAt d o), ⟨⟨bytesAt d (o + k) (n - k), k⟩, c, r⟩)
      else .ub := by
  unfold ContainedElements.next Chunks.next
  have hne : (bytesAt d o n).isEmpty = false := by
    rw [List.isEmpty_eq_false_iff, ← List.length_pos_iff]; simpa [bytesAt] using hn
  simp only [hne, Bool.false_eq_true, if_false]
  have ht : (bytesAt d o n).take k = bytesAt d o (min k n) := by
    by_cases h : k ≤ n
    · rw [take_bytesAt _ _ _ _ h, Nat.min_eq_left h]
    · rw [List.take_of_length_le (by simp [bytesAt]; omega), Nat.min_eq_right (by omega)]
  rw [ht, drop_bytesAt]
  split
  · rename_i h
    rw [ofSlice_bytesAt _ _ _ h, ok_bind]
    rfl
  · unfold ContainedElement.ofSlice
    rw [letAsStruct_short (n := 3) (by consumes) (by simp [bytesAt]; omega), ub_bind]

theorem next_no_record (d : Bytes) (o k : Nat) (c r : UInt8) :
    ContainedElements.next ⟨⟨bytesAt d o 0, k⟩, c, r⟩ = .ok (none, ⟨⟨bytesAt d o 0, k⟩, c, r⟩) := rfl

/-- Records of `k` bytes, the last perhaps shorter, can be read if each has three bytes. -/
def Readable (n k : Nat) : Prop := (n = 0 ∨ 3 ≤ k) ∧ (n % k = 0 ∨ 3 ≤ n % k)

instance (n k : Nat) : Decidable (Readable n k) := by unfold Readable; infer_instance

theorem readable_step {n k : Nat} (hk : 0 < k) (hn : 0 < n) :
    Readable n k ↔ 3 ≤ min k n ∧ Readable (n - k) k := by
  unfold Readable
  by_cases h : k ≤ n
  · have : n % k = (n - k) % k := Nat.mod_eq_sub_mod h
    rw [← this, Nat.min_eq_left h]
    omega
  · rw [show n - k = 0 by omega, Nat.mod_eq_of_lt (by omega : n < k), Nat.min_eq_right (by omega)]
    simp only [Nat.zero_mod, true_or, and_true]
    omega

theorem rounds_step {n k : Nat} (hk : 0 < k) (hn : 0 < n) :
    (n + k - 1) / k = (n - k + k - 1) / k + 1 := by
  by_cases h : k ≤ n
  · rw [show n + k - 1 = (n - k + k - 1) + k by omega, Nat.add_div_right _ hk]
  · rw [show n - k + k - 1 = k - 1 by omega, Nat.div_eq_of_lt (by omega : k - 1 < k),
      show n + k - 1 = (n - 1) + k by omega, Nat.add_div_right _ hk,
      Nat.div_eq_of_lt (by omega : n - 1 < k)]

theorem records_collect (d : Bytes) (k : Nat) (c r : UInt8) (hk : 0 < k) : ∀ n o l,
    CollectsR ContainedElements.next ⟨⟨bytesAt d o n, k⟩, c, r⟩ l ↔
      Readable n k ∧ l = (List.range ((n + k - 1) / k)).map fun i => recordAt d (o + i * k) := by
  intro n
  induction n using Nat.strongRecOn with
  | _ n ih =>
    intro o l
    by_cases hn : n = 0
    · subst hn
      rw [Nat.zero_add, Nat.div_eq_of_lt (by omega : k - 1 < k)]
      constructor
      · intro h
        cases h with
        | done => exact ⟨⟨.inl rfl, .inl (Nat.zero_mod k)⟩, rfl⟩
        | step h => rw [next_no_record] at h; cases h
      · rintro ⟨-, rfl⟩
        exact .done (next_no_record d o k c r)
    · have hp : 0 < n := by omega
      rw [readable_step hk hp, rounds_step hk hp, List.range_succ_eq_map, List.map_cons, List.map_map]
      have hnext := next_record d o n k c r hp
      have e : ((fun i => recordAt d (o + i * k)) ∘ Nat.succ) =
          fun i => recordAt d (o + k + i * k) := by
        funext i
        simp only [Function.comp, Nat.succ_mul]
        congr 1; omega
      rw [e, Nat.zero_mul, Nat.add_zero]
      constructor
      · intro h
        cases h with
        | done h => rw [hnext] at h; split at h <;> cases h
        | step h t =>
          rw [hnext] at h
          split at h
          · rename_i h3
            cases h
            obtain ⟨h1, rfl⟩ := (ih (n - k) (by omega) (o + k) _).1 t
            exact ⟨⟨h3, h1⟩, rfl⟩
          · cases h
      · rintro ⟨⟨h3, h1⟩, rfl⟩
        rw [if_pos h3] at hnext
        exact .step hnext ((ih (n - k) (by omega) (o + k) _).2 ⟨h1, rfl⟩)

theorem records_overread (d : Bytes) (k : Nat) (c r : UInt8) (hk : 0 < k) : ∀ n o,
    ¬ Readable n k → ∃ l e, Spec.Yields ContainedElements.next ⟨⟨bytesAt d o n, k⟩, c, r⟩ l e ∧
      e.next = .ub := by
  intro n
  induction n using Nat.strongRecOn with
  | _ n ih =>
    intro o h
    by_cases hn : n = 0
    · subst hn; exact absurd ⟨.inl rfl, .inl (Nat.zero_mod k)⟩ h
    · have hp : 0 < n := by omega
      have hnext := next_record d o n k c r hp
      rw [readable_step hk hp] at h
      by_cases h3 : 3 ≤ min k n
      · rw [if_pos h3] at hnext
        obtain ⟨l, e, hy, he⟩ := ih (n - k) (by omega) (o + k) fun h1 => h ⟨h3, h1⟩
        exact ⟨_, e, .cons hnext hy, he⟩
      · rw [if_neg h3] at hnext
        exact ⟨[], _, .nil, hnext⟩

/-- A decoded structure with element records has, under overflow checks, at most 255 bytes of them. -/
theorem elements_fit {oc : Bool} {s : RawStructure} {v : Enclosure}
    (hv : Enclosure.try_from oc s = .ok v) :
    oc = true → Fits s 0x15 → elementCount s * elementLength s < 256 := by
  rintro rfl hf
  refine Nat.lt_of_not_le fun hov => ?_
  have h9 : Fits s 9 := fits_mono hf (by decide)
  unfold Enclosure.try_from EnclosurePacked2_0.size at hv
  rw [if_neg (by unfold Fits at h9; omega)] at hv
  simp only [enclosure_packed h9, ok_bind, optionals_overflow s hf hov, panic_bind, bind_ok_iff] at hv
  obtain ⟨_, -, _, -, _, -, _, -, h⟩ := hv
  cases h

/-- What a decoded structure keeps of its element records. -/
theorem elements_kept {oc : Bool} {s : RawStructure} {v : Enclosure} {e : ContainedElements}
    (hv : Enclosure.try_from oc s = .ok v) (he : v.contained_elements = some e) :
    e = ⟨initialChunks s, byte s 0x13, byte s 0x14⟩ := by
  have h9 : Fits s 9 := by
    refine Classical.byContradiction fun h => ?_
    rw [C33_short oc s h] at hv; cases hv
  rw [enclosure_eval oc s h9 (elements_fit hv)] at hv
  simp only [bind_ok_iff, pure_eq_ok, Res.ok.injEq] at hv
  obtain ⟨a, -, b, -, c, -, d, -, f, -, rfl⟩ := hv
  simp only [optIf] at he
  split at he
  · exact (Option.some.inj he).symm
  · cases he

theorem element_recordAt (s : RawStructure) (i : Nat) :
    recordAt s.data (0x11 + i * elementLength s) = element s i := by
  unfold recordAt element byte
  rw [show 0x15 + i * elementLength s - 4 = 0x11 + i * elementLength s by omega,
    show 0x15 + i * elementLength s + 1 - 4 = 0x11 + i * elementLength s + 1 by omega,
    show 0x15 + i * elementLength s + 2 - 4 = 0x11 + i * elementLength s + 2 by omega]

/-- C34: exactly what a decoded enclosure lists: the records found in the space computed modulo 256,
of which the last may be incomplete, if each of them has three bytes. -/
theorem C34_listed (oc : Bool) (s : RawStructure) (v : Enclosure) (e : ContainedElements)
    (l : List ContainedElement) (hv : Enclosure.try_from oc s = .ok v)
    (he : v.contained_elements = some e) :
    CollectsR ContainedElements.next e l ↔
      (recordBytes s = 0 ∨ 3 ≤ elementLength s) ∧
      (recordBytes s % elementLength s = 0 ∨ 3 ≤ recordBytes s % elementLength s) ∧
      l = (List.range ((recordBytes s + elementLength s - 1) / elementLength s)).map (element s) := by
  rw [elements_kept hv he, ← and_assoc]
  by_cases h0 : elementCount s = 0 ∨ elementLength s = 0
  · have hr : recordBytes s = 0 := by
      unfold recordBytes; rcases h0 with h | h <;> simp [h]
    have hz : (recordBytes s + elementLength s - 1) / elementLength s = 0 := by
      rw [hr, Nat.zero_add]
      by_cases h : elementLength s = 0
      · rw [h]
      · exact Nat.div_eq_of_lt (by omega)
    rw [hz, hr, initialChunks, if_pos h0]
    constructor
    · intro h
      cases h with
      | done => exact ⟨⟨.inl rfl, .inl (Nat.zero_mod _)⟩, rfl⟩
      | step h => cases h
    · rintro ⟨-, rfl⟩
      exact .done rfl
  · rw [initialChunks, if_neg h0, records_collect _ _ _ _ (by omega)]
    simp only [element_recordAt]
    rfl

/-- C34: otherwise the iteration reads past a record. -/
theorem C34_overreads (oc : Bool) (s : RawStructure) (v : Enclosure) (e : ContainedElements)
    (hv : Enclosure.try_from oc s = .ok v) (he : v.contained_elements = some e)
    (h : ¬ ((recordBytes s = 0 ∨ 3 ≤ elementLength s) ∧
      (recordBytes s % elementLength s = 0 ∨ 3 ≤ recordBytes s % elementLength s))) :
    ∃ l e', Spec.Yields ContainedElements.next e l e' ∧ e'.next = .ub := by
  rw [elements_kept hv he]
  have h0 : ¬ (elementCount s = 0 ∨ elementLength s = 0) := by
    intro h0
    have hr : recordBytes s = 0 := by
      unfold recordBytes; rcases h0 with h | h <;> simp [h]
    rw [hr] at h
    exact h ⟨.inl rfl, .inl (Nat.zero_mod _)⟩
  rw [initialChunks, if_neg h0]
  exact records_overread _ _ _ _ (by omega) _ _ h

/-- C71, exactly: the number of a decoded enclosure is the number of elements it lists iff it is 0, or
the elements are not empty and have at most 255 bytes together. -/
theorem C71_count_iff (oc : Bool) (s : RawStructure) (v : Enclosure) (e : ContainedElements)
    (l : List ContainedElement) (hv : Enclosure.try_from oc s = .ok v)
    (he : v.contained_elements = some e) (hl : CollectsR ContainedElements.next e l) :
    e.countMethod.toNat = l.length ↔ (byte s 0x13).toNat = 0 ∨
      (byte s 0x14).toNat ≠ 0 ∧ (byte s 0x13).toNat * (byte s 0x14).toNat < 256 := by
  obtain ⟨-, -, rfl⟩ := (C34_listed oc s v e l hv he).1 hl
  rw [elements_kept hv he, List.length_map, List.length_range]
  show elementCount s = _ ↔ elementCount s = 0 ∨ elementLength s ≠ 0 ∧
    elementCount s * elementLength s < 256
  unfold recordBytes
  generalize elementCount s = c
  have hk : elementLength s < 256 := (byte s 0x14).toNat_lt
  revert hk
  generalize elementLength s = k
  intro hk
  by_cases h0 : k = 0
  · subst h0; simp
  have hp : 0 < k := by omega
  by_cases hlt : c * k < 256
  · rw [Nat.mod_eq_of_lt hlt]
    have : (c * k + k - 1) / k = c := by
      rw [show c * k + k - 1 = (k - 1) + k * c by rw [Nat.mul_comm]; omega, Nat.add_mul_div_left _ _ hp,
        Nat.div_eq_of_lt (by omega : k - 1 < k), Nat.zero_add]
    rw [this]
    simp only [true_iff]
    exact .inr ⟨h0, hlt⟩
  · have hc : c ≠ 0 := by rintro rfl; omega
    have h1 : (c * k % 256 + k - 1) / k < c := by
      rw [Nat.div_lt_iff_lt_mul hp]
      omega
    constructor
    · intro h; omega
    · rintro (h | ⟨-, h⟩)
      · exact absurd h hc
      · exact absurd h hlt

/-- An enclosure with 86 elements of three bytes: 258 bytes are taken for two, which is not a record. -/
def manyElements : RawStructure := { exampleEnclosure with
  length := 0x18
  data := [1, 0x83, 2, 3, 4, 3, 3, 3, 2, 0x78, 0x56, 0x34, 0x12, 2, 1, 86, 3, 1, 2, 0] }

example : (Enclosure.try_from false manyElements).okAnd (fun v => v.contained_elements.isSome) = true ∧
    recordBytes manyElements = 2 ∧ ¬ 3 ≤ recordBytes manyElements % elementLength manyElements := by
  decide +kernel

example : (Enclosure.try_from true exampleEnclosure).okAnd (fun v => v.contained_elements.isSome) = true ∧
    (recordBytes exampleEnclosure = 0 ∨ 3 ≤ elementLength exampleEnclosure) ∧
    recordBytes exampleEnclosure % elementLength exampleEnclosure = 0 := by
  decide +kernel

end Dmi.Props
