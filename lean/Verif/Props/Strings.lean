import Verif.Proofs.Get
/-!
# C19–C22: strings and field access
-/
namespace Dmi.Props
open Spec

theorem goodStr_ascii {s : Bytes} (h : s ≠ []) (ha : ∀ b ∈ s, 0 < b.toNat ∧ b.toNat < 128) :
    GoodStr s := by
  refine ⟨h, fun h0 => absurd (ha 0 h0).1 (by decide), ?_⟩
  clear h
  induction s with
  | nil => exact ⟨[], rfl⟩
  | cons x s ih =>
    obtain ⟨cs, hcs⟩ := ih (fun b hb => ha b (List.mem_cons_of_mem _ hb))
    have hx := ha x (by simp)
    refine ⟨mkChar x.toNat (by omega) :: cs, ?_⟩
    rw [List.flatMap_cons, ← hcs, String.utf8EncodeChar, mkChar_toNat, if_pos (by omega)]
    simp

/-- A raw structure with the given string area, for the examples. -/
def rawWith (data strings : Bytes) : RawStructure :=
  { version := ⟨2, 8⟩, info := .System, length := UInt8.ofNat (data.length + 4), handle := 0x100,
    data, strings }

/-! ### C19 -/

/-- C19: in the encoding of the strings `l`, reference 0 is the empty string, reference `i` is the
`i`-th string, larger references are an error naming structure type, handle and reference. -/
theorem C19_find_string (r : RawStructure) (l : List Bytes) (hl : ∀ s ∈ l, GoodStr s)
    (hr : r.strings = encodeStrings l) (i : UInt8) :
    r.find_string i =
      if i = 0 then .ok []
      else match l[i.toNat - 1]? with
        | some s => .ok s
        | none => .err (.InvalidStringIndex r.info r.handle i) := by
  by_cases hi : i = 0
  · subst hi; rfl
  rw [if_neg hi]
  have hpos : 0 < i.toNat := by
    rcases Nat.eq_zero_or_pos i.toNat with h | h
    · exact absurd (UInt8.toNat.inj h) hi
    · exact h
  have harea : ∃ rest, r.strings ++ [0] = l.flatMap (· ++ [0]) ++ rest ∧
      ∀ s t, GoodStr s → rest ≠ s ++ [0] ++ t := by
    rw [hr]
    have hz : ∀ rest : Bytes, rest.head? = some 0 → ∀ s t, GoodStr s → rest ≠ s ++ [0] ++ t := by
      intro rest hrest s t hs heq
      rw [heq] at hrest
      cases s with
      | nil => exact hs.1 rfl
      | cons x s =>
        simp only [List.cons_append, List.head?_cons, Option.some.injEq] at hrest
        exact hs.2.1 (by rw [hrest]; simp)
    cases l with
    | nil => exact ⟨[0, 0, 0], rfl, hz _ rfl⟩
    | cons a l => exact ⟨[0, 0], by simp [encodeStrings], hz _ rfl⟩
  obtain ⟨rest, harea, hrest⟩ := harea
  cases hg : l[i.toNat - 1]? with
  | some s =>
    simp only
    rw [(find_string_eq r i).1]
    refine Or.inr ⟨hpos, l.take i.toNat, (l.drop i.toNat).flatMap (· ++ [0]) ++ rest, ⟨?_, ?_⟩, ?_, ?_⟩
    · rw [← List.append_assoc, ← List.flatMap_append, List.take_append_drop, harea]
    · intro s hs; exact hl s (List.mem_of_mem_take hs)
    · obtain ⟨h, -⟩ := List.getElem?_eq_some_iff.1 hg
      simp; omega
    · obtain ⟨h, -⟩ := List.getElem?_eq_some_iff.1 hg
      rw [List.getLast?_eq_getElem?, List.length_take, Nat.min_eq_left (by omega),
        List.getElem?_take, if_pos (by omega), hg]
  | none =>
    simp only
    refine (find_string_eq r i).2 ?_
    intro s hs
    have hlen := List.getElem?_eq_none_iff.1 hg
    rcases hs with ⟨h, -⟩ | ⟨-, l', rest', ⟨h1, h2⟩, h3, -⟩
    · omega
    · -- a longer run of strings would have to continue into `rest`
      rw [harea] at h1
      have hlt : l.length < l'.length := by omega
      clear harea hr hg h3 hlen
      induction l generalizing l' with
      | nil =>
        cases l' with
        | nil => simp at hlt
        | cons t l' =>
          simp only [List.flatMap_nil, List.nil_append, List.flatMap_cons] at h1
          rw [List.append_assoc (t ++ [0])] at h1
          exact hrest t _ (h2 t (by simp)) h1
      | cons a l ih =>
        cases l' with
        | nil => simp at hlt
        | cons t l' =>
          simp only [List.flatMap_cons] at h1
          rw [List.append_assoc (a ++ [0]), List.append_assoc (t ++ [0])] at h1
          obtain ⟨rfl, h⟩ := good_split_unique (hl a (by simp)) (h2 t (by simp)) h1
          exact ih (fun x hx => hl x (List.mem_cons_of_mem _ hx)) l' h
            (fun x hx => h2 x (List.mem_cons_of_mem _ hx)) (by simpa using hlt)

/-- C19, for arbitrary string areas: references resolve exactly to the declared meaning, everything
else is the error. -/
theorem C19_find_string_any (r : RawStructure) (i : UInt8) :
    (∀ s, r.find_string i = .ok s ↔ HasString r.strings i.toNat s) ∧
    ((∀ s, ¬ HasString r.strings i.toNat s) →
      r.find_string i = .err (.InvalidStringIndex r.info r.handle i)) :=
  find_string_eq r i

example : (rawWith [] (encodeStrings [ascii "Dell", ascii "R610"])).find_string 2 =
    .ok (ascii "R610") := by
  rw [C19_find_string _ [ascii "Dell", ascii "R610"] _ rfl]
  · rfl
  · intro s hs
    simp only [List.mem_cons, List.not_mem_nil, or_false] at hs
    rcases hs with rfl | rfl <;> exact goodStr_ascii (by decide) (by decide)

example : ∀ s ∈ [ascii "Dell", [0xC3, 0xA4]], GoodStr s := by
  intro s hs
  simp only [List.mem_cons, List.not_mem_nil, or_false] at hs
  rcases hs with rfl | rfl
  · exact goodStr_ascii (by decide) (by decide)
  · exact ⟨by decide, by decide, ['ä'], by decide⟩

/-! ### C20 -/

/-- C20: collecting the strings of any byte area terminates with exactly the leading run of
non-empty, NUL-free, valid UTF-8 segments. -/
theorem C20_strings (area : Bytes) (l : List Bytes) :
    Collects StructureStrings.next (.new area) l ↔ IsStringList area l := by
  obtain ⟨h1, h2⟩ := strings_collect area
  constructor
  · intro h; rw [h.unique h1]; exact h2
  · intro h; rw [isStringList_unique h h2]; exact h1

/-- C20: the run exists, and the collected list is it. -/
theorem C20_strings_total (area : Bytes) :
    Collects StructureStrings.next (.new area) (StructureStrings.new area).collect ∧
    IsStringList area (StructureStrings.new area).collect := strings_collect area

/-- C20: every yielded string is a contiguous part of the area, valid, non-empty, NUL-free. -/
theorem C20_strings_contiguous {area : Bytes} {l : List Bytes}
    (h : Collects StructureStrings.next (.new area) l) {s : Bytes} (hs : s ∈ l) :
    GoodStr s ∧ ∃ pre post, area = pre ++ s ++ post := by
  obtain ⟨rest, ⟨h1, h2⟩, -⟩ := (C20_strings area l).1 h
  refine ⟨h2 s hs, ?_⟩
  obtain ⟨l1, l2, rfl⟩ := List.append_of_mem hs
  have h3 : area ++ [0] = l1.flatMap (· ++ [0]) ++ s ++ ([0] ++ (l2.flatMap (· ++ [0]) ++ rest)) := by
    rw [h1]; simp
  have h4 := congrArg (List.take area.length) h3
  rw [List.take_left, List.take_append] at h4
  have hlen := congrArg List.length h3
  simp only [List.length_append, List.length_cons, List.length_nil] at hlen
  rw [List.take_of_length_le (by simp only [List.length_append]; omega)] at h4
  exact ⟨l1.flatMap (· ++ [0]), _, h4⟩

/-- The documented iterator protocol would allow a caller to continue after `None`; this iterator is
then not fused: after an invalid segment it goes on with the next one. -/
theorem C20_not_fused : ∃ area s st st', (StructureStrings.new area).next = (none, st) ∧
    st.next = (some s, st') := by
  refine ⟨[0xFF, 0, 0x41, 0, 0], [0x41], _, _, rfl, rfl⟩

example : Collects StructureStrings.next (.new [0x41, 0, 0xFF, 0, 0x42, 0, 0]) [[0x41]] :=
  .step (s' := ⟨[0x41, 0, 0xFF, 0, 0x42, 0, 0], 2⟩) rfl (.done rfl)

/-! ### C21 -/

/-- C21: the four integer widths, offset at least 4. The bound on the offset excludes only offsets
within 16 of `usize::MAX`, see `C21_get_overflow`. -/
theorem C21_get (oc : Bool) (r : RawStructure) (off : Nat) (h4 : 4 ≤ off) (hmax : off < 2 ^ 64 - 16) :
    (r.get8 oc off = if off + 1 ≤ r.data.length + 4 then
      .ok (byteAt r.data (off - 4)) else .err .InvalidSlice) ∧
    (r.get16 oc off = if off + 2 ≤ r.data.length + 4 then
      .ok (u16At r.data (off - 4)) else .err .InvalidSlice) ∧
    (r.get32 oc off = if off + 4 ≤ r.data.length + 4 then
      .ok (u32At r.data (off - 4)) else .err .InvalidSlice) ∧
    (r.get64 oc off = if off + 8 ≤ r.data.length + 4 then
      .ok (u64At r.data (off - 4)) else .err .InvalidSlice) ∧
    (r.get128 oc off = if off + 16 ≤ r.data.length + 4 then
      .ok (BitVec.ofNat 128 (leAt r.data (off - 4) 16)) else .err .InvalidSlice) :=
  ⟨get8_ge oc r off h4 (by omega), get16_ge oc r off h4 (by omega), get32_ge oc r off h4 (by omega),
    get64_ge oc r off h4 (by omega), get128_ge oc r off h4 (by omega)⟩

/-- C21: below offset 4, a panic under overflow checks and `InvalidSlice` otherwise. -/
theorem C21_get_below (oc : Bool) (r : RawStructure) (off : Nat) (h4 : off < 4)
    (hdata : r.data.length < 2 ^ 63) :
    (r.get8 oc off = if oc then .panic else .err .InvalidSlice) ∧
    (r.get16 oc off = if oc then .panic else .err .InvalidSlice) ∧
    (r.get32 oc off = if oc then .panic else .err .InvalidSlice) ∧
    (r.get64 oc off = if oc then .panic else .err .InvalidSlice) ∧
    (r.get128 oc off = if oc then .panic else .err .InvalidSlice) := by
  refine ⟨?_, ?_, ?_, ?_, ?_⟩
  · unfold RawStructure.get8; rw [getBytes_lt oc r 1 off h4 (by decide) (by decide) hdata]
    cases oc <;> rfl
  · unfold RawStructure.get16; rw [getBytes_lt oc r 2 off h4 (by decide) (by decide) hdata]
    cases oc <;> rfl
  · unfold RawStructure.get32; rw [getBytes_lt oc r 4 off h4 (by decide) (by decide) hdata]
    cases oc <;> rfl
  · unfold RawStructure.get64; rw [getBytes_lt oc r 8 off h4 (by decide) (by decide) hdata]
    cases oc <;> rfl
  · unfold RawStructure.get128; rw [getBytes_lt oc r 16 off h4 (by decide) (by decide) hdata]
    cases oc <;> rfl

/-- C21: at the very top of the address space `offset - 4 + size` overflows: a panic under overflow
checks, `InvalidSlice` otherwise. -/
theorem C21_get_overflow (oc : Bool) (r : RawStructure) (size off : Nat) (h4 : 4 ≤ off)
    (hoff : off < 2 ^ 64) (hov : 2 ^ 64 ≤ off - 4 + size) (hs16 : size ≤ 16)
    (hdata : r.data.length < 2 ^ 63) :
    r.getBytes oc size off = if oc then .panic else .err .InvalidSlice := by
  unfold RawStructure.getBytes
  simp only [subUsize_host64, addUsize_host64]
  simp only [if_pos h4, Bind.bind, Res.bind, if_neg (Nat.not_lt.2 hov)]
  cases oc with
  | true => rfl
  | false =>
    have key : ∀ stop, getRange r.data (off - 4) stop = none := by
      intro stop; unfold getRange; rw [if_neg (by omega)]
    simp only [Bool.false_eq_true, if_false, key, Option.getD_none, List.length_nil]
    rw [if_neg (by omega)]

example : (rawWith [1, 2, 3, 4, 5] [0, 0]).get16 true 5 = .ok 0x0302 := by
  rw [(C21_get _ _ _ (by decide) (by decide)).2.1]; decide
example : (rawWith [1, 2, 3, 4, 5] [0, 0]).get32 false 6 = .err .InvalidSlice := by
  rw [(C21_get _ _ _ (by decide) (by decide)).2.2.1]; decide
example : (rawWith [1, 2, 3, 4, 5] [0, 0]).get8 true 3 = .panic :=
  (C21_get_below _ _ _ (by decide) (by decide)).1

/-! ### C22 -/

/-- C22: slices. -/
theorem C22_get_slice (oc : Bool) (r : RawStructure) (off n : Nat) (h4 : 4 ≤ off)
    (hmax : off - 4 + n < 2 ^ 64) :
    r.get_slice oc off n = .ok (if off + n ≤ r.data.length + 4 then
      some (bytesAt r.data (off - 4) n) else none) :=
  get_slice_ge oc r off n h4 hmax

/-- C22: strings by offset, for every meaning of the reference. -/
theorem C22_get_string (oc : Bool) (r : RawStructure) (off : Nat) (h4 : 4 ≤ off)
    (hmax : off < 2 ^ 64 - 16) :
    (r.data.length + 4 < off + 1 → r.get_string oc off = .err .InvalidSlice) ∧
    (off + 1 ≤ r.data.length + 4 →
      (∀ s, r.get_string oc off = .ok s ↔ HasString r.strings (byteAt r.data (off - 4)).toNat s) ∧
      ((∀ s, ¬ HasString r.strings (byteAt r.data (off - 4)).toNat s) → r.get_string oc off =
        .err (.InvalidStringIndex r.info r.handle (byteAt r.data (off - 4))))) := by
  rw [get_string_ge oc r off h4 (by omega)]
  constructor
  · intro h; rw [if_neg (by omega)]
  · intro h
    simp only [if_pos h]
    exact find_string_eq r _

example : (rawWith [1, 2, 3] [0, 0]).get_slice true 5 2 = .ok (some [2, 3]) := by
  rw [C22_get_slice _ _ _ _ (by decide) (by decide)]; decide
example : (rawWith [0, 2, 3] [0, 0]).get_string true 4 = .ok [] :=
  (((C22_get_string _ _ _ (by decide) (by decide)).2 (by decide)).1 _).2 (Or.inl ⟨by decide, rfl⟩)

end Dmi.Props
