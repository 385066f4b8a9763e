import Verif.Spec.Table
import Verif.Proofs.EntryPoint2
/-!
# Lemmas about the structure iterator
-/
namespace Dmi
open Spec

/-! ## `find_nulnul` -/

theorem findNulNul_some {b : Bytes} {t : Nat} (h : findNulNul b = some t) :
    EndsAtFirstNulNul (b.take (t + 1)) ∧ t + 1 ≤ b.length ∧ 1 ≤ t := by
  fun_induction findNulNul b generalizing t
  · cases h
  · cases h
  · rename_i a c r hz
    obtain ⟨rfl, rfl⟩ := hz
    simp only [Option.some.injEq] at h
    subst h
    refine ⟨⟨⟨[], rfl⟩, ?_⟩, by simp, by omega⟩
    intro x y hxy
    have := congrArg List.length hxy
    simp at this
    exact List.length_eq_zero_iff.1 (by omega)
  · rename_i a c r hz ih
    cases hf : findNulNul (c :: r) with
    | none => rw [hf] at h; cases h
    | some t' =>
      rw [hf] at h
      simp only [Option.map_some, Option.some.injEq] at h
      subst h
      obtain ⟨⟨⟨x, hx⟩, hfirst⟩, hlen, h1⟩ := ih hf
      refine ⟨⟨⟨a :: x, ?_⟩, ?_⟩, by simp only [List.length_cons] at *; omega, by omega⟩
      · rw [List.take_succ_cons, hx]; rfl
      · intro x' y hxy
        rw [List.take_succ_cons] at hxy
        cases x' with
        | nil =>
          exfalso
          simp only [List.nil_append, List.cons_append, List.cons.injEq, List.take_succ_cons] at hxy
          exact hz ⟨hxy.1, hxy.2.1⟩
        | cons z x' =>
          simp only [List.cons_append, List.cons.injEq] at hxy
          exact hfirst x' y (by simpa using hxy.2)

theorem findNulNul_none {b : Bytes} (h : findNulNul b = none) (x y : Bytes) :
    b ≠ x ++ [0, 0] ++ y := by
  fun_induction findNulNul b generalizing x
  · simp
  · intro h'
    have := congrArg List.length h'
    simp at this; omega
  · cases h
  · rename_i a c r hz ih
    cases hf : findNulNul (c :: r) with
    | some t' => rw [hf] at h; cases h
    | none =>
      intro hxy
      cases x with
      | nil =>
        simp only [List.nil_append, List.cons_append, List.cons.injEq] at hxy
        exact hz ⟨hxy.1, hxy.2.1⟩
      | cons z x =>
        simp only [List.cons_append, List.cons.injEq] at hxy
        exact ih hf x (by simpa using hxy.2)

theorem EndsAtFirstNulNul.length {a : Bytes} (h : EndsAtFirstNulNul a) : 2 ≤ a.length := by
  obtain ⟨⟨x, rfl⟩, -⟩ := h
  simp

theorem EndsAtFirstNulNul.unique {a a' r r' : Bytes} (h : EndsAtFirstNulNul a)
    (h' : EndsAtFirstNulNul a') (e : a ++ r = a' ++ r') : a = a' := by
  have main : ∀ {a a' r r' : Bytes}, EndsAtFirstNulNul a → EndsAtFirstNulNul a' →
      a ++ r = a' ++ r' → a.length ≤ a'.length → a = a' := by
    intro a a' r r' h h' e hle
    obtain ⟨⟨x, hx⟩, -⟩ := h
    have hp : a <+: a' := List.prefix_of_prefix_length_le (List.prefix_append a r)
      (e ▸ List.prefix_append a' r') hle
    obtain ⟨y, hy⟩ := hp
    have := h'.2 x y (by rw [← hy, hx])
    rw [← hy, this, List.append_nil]
  rcases Nat.le_total a.length a'.length with hle | hle
  · exact main h h' e hle
  · exact (main h' h e.symm hle).symm

theorem findNulNul_append {a r : Bytes} (h : EndsAtFirstNulNul a) :
    findNulNul (a ++ r) = some (a.length - 1) := by
  have h2 := EndsAtFirstNulNul.length h
  cases hf : findNulNul (a ++ r) with
  | none =>
    obtain ⟨⟨x, hx⟩, -⟩ := h
    exact absurd (by rw [hx]) (findNulNul_none hf x r)
  | some t =>
    obtain ⟨h1, h3, h4⟩ := findNulNul_some hf
    have := EndsAtFirstNulNul.unique h1 h (List.take_append_drop (t + 1) (a ++ r))
    have hl := congrArg List.length this
    rw [List.length_take, Nat.min_eq_left h3] at hl
    rw [← hl]; rfl

/-! ## Arithmetic -/

theorem addU32_ok {ε : Type} (oc : Bool) (a b : UInt32) (h : a.toNat + b.toNat < 2 ^ 32) :
    (addU32 oc a b : Res ε UInt32) = .ok (a + b) := by
  unfold addU32; rw [if_pos h]

theorem u32_add_toNat (a b : UInt32) (h : a.toNat + b.toNat < 2 ^ 32) :
    (a + b).toNat = a.toNat + b.toNat := by
  rw [UInt32.toNat_add]; omega

/-! ## The header -/

theorem HeaderPacked.packed_eval {ε : Type} (b : Bytes) (h : 4 ≤ b.length) :
    (letAsStruct HeaderPacked.packed b : Res ε _) =
      .ok { kind := byteAt b 0, len := byteAt b 1, handle := u16At b 2 } := by
  unfold HeaderPacked.packed
  packed_eval

theorem HeaderPacked.packed_short {ε : Type} (b : Bytes) (h : b.length < 4) :
    (letAsStruct HeaderPacked.packed b : Res ε HeaderPacked) = .ub := by
  have hc : HeaderPacked.packed.Consumes 4 := by unfold HeaderPacked.packed; consumes
  exact letAsStruct_short hc h

/-- Evaluation of `next_raw` away from the 4 GiB boundary. -/
theorem next_raw_eval (oc : Bool) (s : Structures) (hb : s.buffer.length < 2 ^ 32)
    (hi : s.idx.toNat + 4 < 2 ^ 32)
    (hl : s.idx.toNat + 4 ≤ s.buffer.length →
      s.idx.toNat + (byteAt s.buffer (s.idx.toNat + 1)).toNat < 2 ^ 32) :
    s.next_raw oc =
      if s.smbios_len.toNat < s.idx.toNat + 4 then .ok (none, s)
      else if s.buffer.length < s.idx.toNat then .panic
      else if s.buffer.length < s.idx.toNat + 4 then .ub
      else if s.smbios_len.toNat ≤ s.idx.toNat + (byteAt s.buffer (s.idx.toNat + 1)).toNat then
        .ok (some (.error (.BadSize s.idx (byteAt s.buffer (s.idx.toNat + 1)))), s)
      else if s.buffer.length < s.idx.toNat + (byteAt s.buffer (s.idx.toNat + 1)).toNat then .panic
      else match findNulNul
          (s.buffer.drop (s.idx.toNat + (byteAt s.buffer (s.idx.toNat + 1)).toNat)) with
        | none => .ok (some (.error (.UnterminatedStrings s.idx)), s)
        | some t =>
          if (byteAt s.buffer (s.idx.toNat + 1)).toNat < 4 then .panic
          else .ok (some (.ok {
            version := s.smbios_version
            info := InfoType.ofU8 (byteAt s.buffer s.idx.toNat)
            length := byteAt s.buffer (s.idx.toNat + 1)
            handle := u16At s.buffer (s.idx.toNat + 2)
            data := (s.buffer.drop (s.idx.toNat + 4)).take
              ((byteAt s.buffer (s.idx.toNat + 1)).toNat - 4)
            strings := (s.buffer.drop
              (s.idx.toNat + (byteAt s.buffer (s.idx.toNat + 1)).toNat)).take (t + 1) }),
            { s with idx :=
                .ofNat (s.idx.toNat + (byteAt s.buffer (s.idx.toNat + 1)).toNat + t + 1) }) := by
  obtain ⟨v, n, idx, b⟩ := s
  simp only at hb hi hl ⊢
  generalize hI : idx.toNat = i at *
  have e4 : (4 : UInt32).toNat = 4 := rfl
  have hadd4 : (idx + 4).toNat = i + 4 := by
    rw [u32_add_toNat _ _ (by rw [hI, e4]; exact hi), hI]; rfl
  unfold Structures.next_raw
  simp only [Bind.bind, Res.bind, addU32_ok oc idx 4 (by rw [hI, e4]; exact hi), Pure.pure]
  have hgt : (idx + 4 > n) ↔ n.toNat < i + 4 := by
    rw [gt_iff_lt, UInt32.lt_iff_toNat_lt, hadd4]
  by_cases c1 : n.toNat < i + 4
  · rw [if_pos (hgt.2 c1), if_pos c1]
  rw [if_neg (fun h => c1 (hgt.1 h)), if_neg c1]
  by_cases c2 : b.length < i
  · rw [if_pos c2]
    simp [indexFrom, getFrom, hI, Nat.not_le.2 c2]
  rw [if_neg c2]
  have hfrom : (indexFrom b i : Res Empty Bytes) = .ok (b.drop i) := by
    simp [indexFrom, getFrom, Nat.not_lt.1 c2]
  simp only [hI, hfrom]
  by_cases c3 : b.length < i + 4
  · rw [if_pos c3, HeaderPacked.packed_short _ (by simp; omega)]
  rw [if_neg c3, HeaderPacked.packed_eval _ (by simp; omega)]
  have h16 : u16At (b.drop i) 2 = u16At b (i + 2) := by unfold u16At; rw [leAt_drop]
  simp only [byteAt_drop, h16, Nat.add_zero]
  have hl' := hl (by omega)
  generalize hL : byteAt b (i + 1) = l at *
  have hlt := l.toNat_lt
  have hl32 : l.toUInt32.toNat = l.toNat := by simp
  have haddl : (idx + l.toUInt32).toNat = i + l.toNat := by
    rw [u32_add_toNat _ _ (by rw [hI, hl32]; exact hl'), hI, hl32]
  rw [addU32_ok oc idx l.toUInt32 (by rw [hI, hl32]; exact hl')]
  have hge : (idx + l.toUInt32 ≥ n) ↔ n.toNat ≤ i + l.toNat := by
    rw [ge_iff_le, UInt32.le_iff_toNat_le, haddl]
  by_cases c4 : n.toNat ≤ i + l.toNat
  · simp only [if_pos (hge.2 c4), if_pos c4]
  simp only [if_neg (fun h => c4 (hge.1 h)), if_neg c4, haddl]
  by_cases c5 : b.length < i + l.toNat
  · rw [if_pos c5]
    simp [indexFrom, getFrom, Nat.not_le.2 c5]
  rw [if_neg c5]
  have hfrom2 : (indexFrom b (i + l.toNat) : Res Empty Bytes) = .ok (b.drop (i + l.toNat)) := by
    simp [indexFrom, getFrom, Nat.not_lt.1 c5]
  simp only [hfrom2]
  cases hf : findNulNul (b.drop (i + l.toNat)) with
  | none => rfl
  | some t =>
    simp only [hadd4]
    obtain ⟨-, htlen, -⟩ := findNulNul_some hf
    rw [List.length_drop] at htlen
    by_cases c6 : l.toNat < 4
    · rw [if_pos c6]
      have : (indexRange b (i + 4) (i + l.toNat) : Res Empty Bytes) = .panic := by
        unfold indexRange getRange; rw [if_neg (by omega)]
      simp only [this]
    · rw [if_neg c6]
      have hr1 : (indexRange b (i + 4) (i + l.toNat) : Res Empty Bytes) =
          .ok ((b.drop (i + 4)).take (l.toNat - 4)) := by
        unfold indexRange getRange; rw [if_pos (by omega)]
        simp only
        congr 2; omega
      have ht32 : (UInt32.ofNat (t + 1)).toNat = t + 1 := by simp; omega
      have hend : (idx + l.toUInt32 + UInt32.ofNat (t + 1)).toNat = i + l.toNat + t + 1 := by
        rw [u32_add_toNat _ _ (by rw [haddl, ht32]; omega), haddl, ht32]; omega
      have hr2 : (indexRange b (i + l.toNat) (i + l.toNat + t + 1) : Res Empty Bytes) =
          .ok ((b.drop (i + l.toNat)).take (t + 1)) := by
        unfold indexRange getRange; rw [if_pos (by omega)]
        simp only
        congr 2; omega
      simp only [hr1, addU32_ok oc (idx + l.toUInt32) (UInt32.ofNat (t + 1))
        (by rw [haddl, ht32]; omega), hend, hr2]
      have hnext : idx + l.toUInt32 + UInt32.ofNat (t + 1) = UInt32.ofNat (i + l.toNat + t + 1) := by
        apply UInt32.toNat.inj
        rw [hend]; simp; omega
      rw [hnext]

end Dmi
