import Verif.Proofs.Table
import Verif.Proofs.Get
/-!
# The structure iterator in terms of pieces
-/
namespace Dmi
open Spec

theorem enc16_length (n : UInt16) : (enc16 n).length = 2 := rfl

theorem Spec.Piece.bytes_length (p : Piece) : p.bytes.length = p.len + p.strings.length := by
  simp [Piece.bytes, Piece.len, enc16_length]; omega

theorem occursAt_drop_eq {b sig : Bytes} {i : Nat} (h : OccursAt b i sig) :
    ∃ rest, b.drop i = sig ++ rest ∧ i ≤ b.length := by
  obtain ⟨pre, post, rfl, rfl⟩ := h
  exact ⟨post, by simp, by simp⟩

theorem drop_eq_occursAt {b sig rest : Bytes} {i : Nat} (h : b.drop i = sig ++ rest)
    (hi : i ≤ b.length) : OccursAt b i sig := by
  refine ⟨b.take i, rest, ?_, by simp; omega⟩
  rw [List.append_assoc, ← h, List.take_append_drop]

theorem byteAt_eq_of_drop {b : Bytes} {i : Nat} {x : UInt8} {r : Bytes} (h : b.drop i = x :: r) :
    byteAt b i = x := by
  have := byteAt_drop b i 0
  rw [Nat.add_zero] at this
  rw [← this, h]; rfl

theorem u16At_enc16 (n : UInt16) (r : Bytes) : u16At (enc16 n ++ r) 0 = n := by
  apply UInt16.toNat.inj
  rw [u16At_toNat]
  have := n.toNat_lt
  simp [enc16, leBytes, leAt, byteAt]
  omega

theorem enc16_u16At (b : Bytes) (o : Nat) : enc16 (u16At b o) = [byteAt b o, byteAt b (o + 1)] := by
  have h0 := (byteAt b o).toNat_lt
  have h1 := (byteAt b (o + 1)).toNat_lt
  unfold enc16
  rw [u16At_toNat]
  simp only [leBytes, leAt, List.cons.injEq, and_true]
  constructor <;> (apply UInt8.toNat.inj; simp) <;> omega

/-- The parts of a piece found at `i`. -/
theorem Spec.PieceAt.parts {b : Bytes} {i : Nat} {p : Piece} (h : PieceAt b i p) :
    i + p.bytes.length ≤ b.length ∧
    byteAt b i = p.kind ∧ (byteAt b (i + 1)).toNat = p.len ∧ byteAt b (i + 1) = UInt8.ofNat p.len ∧
    u16At b (i + 2) = p.handle ∧
    (b.drop (i + 4)).take (p.len - 4) = p.data ∧
    ∃ rest, b.drop (i + p.len) = p.strings ++ rest := by
  obtain ⟨⟨hlen, -⟩, hocc⟩ := h
  obtain ⟨rest, hd, hi⟩ := occursAt_drop_eq hocc
  have hb : i + p.bytes.length ≤ b.length := by
    have := congrArg List.length hd
    simp only [List.length_drop, List.length_append] at this
    have := List.length_pos_iff.2 (show p.bytes ≠ [] by simp [Piece.bytes])
    omega
  have hd' : b.drop i = p.kind :: UInt8.ofNat p.len :: (enc16 p.handle ++ (p.data ++ (p.strings ++ rest))) := by
    rw [hd]; simp [Piece.bytes]
  have hd1 : b.drop (i + 1) = UInt8.ofNat p.len :: (enc16 p.handle ++ (p.data ++ (p.strings ++ rest))) := by
    rw [← List.drop_drop, hd']; rfl
  have hd2 : b.drop (i + 2) = enc16 p.handle ++ (p.data ++ (p.strings ++ rest)) := by
    rw [← List.drop_drop, hd']; rfl
  have hd4 : b.drop (i + 4) = p.data ++ (p.strings ++ rest) := by
    rw [← List.drop_drop (i := 2), hd2]; rfl
  have hl := byteAt_eq_of_drop hd1
  refine ⟨hb, byteAt_eq_of_drop hd', ?_, hl, ?_, ?_, rest, ?_⟩
  · rw [hl]; simp; omega
  · have := leAt_drop b (i + 2) 0 2
    unfold u16At
    rw [← Nat.add_zero (i + 2), ← this, hd2]
    exact u16At_enc16 _ _
  · rw [hd4]; simp [Piece.len]
  · have : i + p.len = i + 4 + p.data.length := by unfold Piece.len; omega
    rw [this, ← List.drop_drop, hd4, List.drop_left]

/-- At most one piece is found at an offset. -/
theorem Spec.PieceAt.unique {b : Bytes} {i : Nat} {p q : Piece} (hp : PieceAt b i p) (hq : PieceAt b i q) :
    p = q := by
  obtain ⟨-, hk, hl, -, hh, hdt, r, hr⟩ := (PieceAt.parts hp)
  obtain ⟨-, hk', hl', -, hh', hdt', r', hr'⟩ := (PieceAt.parts hq)
  have hlen : p.len = q.len := hl.symm.trans hl'
  have hs : p.strings = q.strings := by
    rw [hlen] at hr
    exact EndsAtFirstNulNul.unique hp.1.2 hq.1.2 (hr.symm.trans hr')
  obtain ⟨k, h, d, s⟩ := p
  obtain ⟨k', h', d', s'⟩ := q
  simp only [Piece.mk.injEq]
  refine ⟨hk.symm.trans hk', hh.symm.trans hh', ?_, hs⟩
  rw [hlen] at hdt
  exact hdt.symm.trans hdt'

theorem ofNat_toNat_u32 (n : UInt32) : UInt32.ofNat n.toNat = n := by simp

/-- The result of `next_raw` when a piece starts at the cursor and its formatted area ends inside the
declared table length. -/
theorem next_raw_piece (oc : Bool) (s : Structures) (p : Piece) (hb : s.buffer.length < 2 ^ 32)
    (hp : PieceAt s.buffer s.idx.toNat p) (hn : s.idx.toNat + p.len < s.smbios_len.toNat) :
    s.next_raw oc = .ok (some (.ok (p.raw s.smbios_version)),
      { s with idx := .ofNat (s.idx.toNat + p.bytes.length) }) := by
  obtain ⟨hfit, hk, hl, hl8, hh, hdt, r, hr⟩ := (PieceAt.parts hp)
  have hbl := Piece.bytes_length p
  have h4 : 4 ≤ p.len := by unfold Piece.len; omega
  have hs2 := EndsAtFirstNulNul.length hp.1.2
  rw [next_raw_eval oc s hb (by omega) (by intro; omega)]
  rw [if_neg (by omega), if_neg (by omega), if_neg (by omega), if_neg (by omega), if_neg (by omega)]
  rw [hl, hr, findNulNul_append hp.1.2]
  simp only
  rw [if_neg (by omega), hk, hh, hdt, hl8]
  have e1 : s.idx.toNat + p.len + (p.strings.length - 1) + 1 = s.idx.toNat + p.bytes.length := by omega
  have e2 : p.strings.length - 1 + 1 = p.strings.length := by omega
  rw [e1, e2, List.take_left]
  rfl

/-- What `next_raw` does at the top of the 32-bit range. -/
theorem next_raw_boundary (oc : Bool) (s : Structures) (hb : s.buffer.length < 2 ^ 32)
    (h : ¬ (s.idx.toNat + 4 < 2 ^ 32 ∧ (s.idx.toNat + 4 ≤ s.buffer.length →
      s.idx.toNat + (byteAt s.buffer (s.idx.toNat + 1)).toNat < 2 ^ 32))) :
    s.next_raw oc = .panic ∨ s.next_raw oc = .ub ∨ s.next_raw oc = .ok (none, s) ∨
    (s.idx.toNat + 4 < 2 ^ 32 ∧ ∃ e, s.next_raw oc = .ok (some (.error e), s)) := by
  obtain ⟨v, n, idx, b⟩ := s
  simp only at hb h ⊢
  have e4 : (4 : UInt32).toNat = 4 := rfl
  unfold Structures.next_raw
  by_cases hi : idx.toNat + 4 < 2 ^ 32
  · -- the structure length overflows
    have h2 : idx.toNat + 4 ≤ b.length ∧ 2 ^ 32 ≤ idx.toNat + (byteAt b (idx.toNat + 1)).toNat := by
      refine ⟨?_, ?_⟩
      · rcases Nat.lt_or_ge b.length (idx.toNat + 4) with h' | h'
        · exact absurd ⟨hi, fun h'' => by omega⟩ h
        · exact h'
      · rcases Nat.lt_or_ge (idx.toNat + (byteAt b (idx.toNat + 1)).toNat) (2 ^ 32) with h' | h'
        · exact absurd ⟨hi, fun _ => h'⟩ h
        · exact h'
    simp only [Bind.bind, Res.bind, addU32_ok oc idx 4 (by rw [e4]; exact hi), Pure.pure]
    split
    · exact Or.inr (Or.inr (Or.inl rfl))
    have hfrom : (indexFrom b idx.toNat : Res Empty Bytes) = .ok (b.drop idx.toNat) := by
      simp only [indexFrom, getFrom]; rw [if_pos (by omega)]
    simp only [hfrom]
    rw [HeaderPacked.packed_eval _ (by simp; omega)]
    simp only [byteAt_drop]
    generalize byteAt b (idx.toNat + 1) = l at *
    have hlt := l.toNat_lt
    have hl32 : l.toUInt32.toNat = l.toNat := by simp
    have hov : ¬ idx.toNat + l.toUInt32.toNat < 2 ^ 32 := by rw [hl32]; omega
    cases oc with
    | true =>
      left
      unfold addU32
      rw [if_neg hov]
      rfl
    | false =>
      have hadd : (addU32 false idx l.toUInt32 : Res Empty UInt32) = .ok (idx + l.toUInt32) := by
        unfold addU32; rw [if_neg hov]; rfl
      rw [hadd]
      simp only
      have hsmall : (idx + l.toUInt32).toNat = idx.toNat + l.toNat - 2 ^ 32 := by
        rw [UInt32.toNat_add, hl32]; omega
      split
      · exact Or.inr (Or.inr (Or.inr ⟨hi, _, rfl⟩))
      cases hfi : (indexFrom b (idx + l.toUInt32).toNat : Res Empty Bytes) with
      | err e => cases e
      | panic => left; rfl
      | ub => right; left; rfl
      | ok tail =>
        simp only
        cases findNulNul tail with
        | none => exact Or.inr (Or.inr (Or.inr ⟨hi, _, rfl⟩))
        | some t =>
          left
          have : (idx + 4).toNat = idx.toNat + 4 := u32_add_toNat _ _ (by rw [e4]; exact hi)
          have hr : (indexRange b (idx + 4).toNat (idx + l.toUInt32).toNat : Res Empty Bytes) = .panic := by
            unfold indexRange getRange
            rw [if_neg (by rw [this, hsmall]; omega)]
          simp only [hr]
  · -- the header overflows
    have hov : ¬ idx.toNat + (4 : UInt32).toNat < 2 ^ 32 := by rw [e4]; exact hi
    cases oc with
    | true =>
      left
      unfold addU32
      rw [if_neg hov]
      rfl
    | false =>
      have hadd : (addU32 false idx 4 : Res Empty UInt32) = .ok (idx + 4) := by
        unfold addU32; rw [if_neg hov]; rfl
      simp only [Bind.bind, Res.bind, hadd, Pure.pure]
      split
      · exact Or.inr (Or.inr (Or.inl rfl))
      by_cases hle : idx.toNat ≤ b.length
      · right; left
        have hfrom : (indexFrom b idx.toNat : Res Empty Bytes) = .ok (b.drop idx.toNat) := by
          simp [indexFrom, getFrom, hle]
        simp only [hfrom]
        rw [HeaderPacked.packed_short _ (by simp; omega)]
      · left
        have hfrom : (indexFrom b idx.toNat : Res Empty Bytes) = .panic := by
          simp [indexFrom, getFrom, hle]
        simp only [hfrom]

/-- The four kinds of outcome of `next_raw`. -/
theorem next_raw_cases (oc : Bool) (s : Structures) (hb : s.buffer.length < 2 ^ 32) :
    (s.next_raw oc = .panic ∨ s.next_raw oc = .ub) ∨ s.next_raw oc = .ok (none, s) ∨
    (s.idx.toNat + 4 < 2 ^ 32 ∧ ∃ e, s.next_raw oc = .ok (some (.error e), s)) ∨
    (∃ p, PieceAt s.buffer s.idx.toNat p ∧ s.idx.toNat + p.len < s.smbios_len.toNat ∧
      s.next_raw oc = .ok (some (.ok (p.raw s.smbios_version)),
        { s with idx := .ofNat (s.idx.toNat + p.bytes.length) })) := by
  by_cases h : s.idx.toNat + 4 < 2 ^ 32 ∧ (s.idx.toNat + 4 ≤ s.buffer.length →
      s.idx.toNat + (byteAt s.buffer (s.idx.toNat + 1)).toNat < 2 ^ 32)
  · have hev := next_raw_eval oc s hb h.1 h.2
    by_cases c1 : s.smbios_len.toNat < s.idx.toNat + 4
    · rw [if_pos c1] at hev; exact Or.inr (Or.inl hev)
    rw [if_neg c1] at hev
    by_cases c2 : s.buffer.length < s.idx.toNat
    · rw [if_pos c2] at hev; exact Or.inl (Or.inl hev)
    rw [if_neg c2] at hev
    by_cases c3 : s.buffer.length < s.idx.toNat + 4
    · rw [if_pos c3] at hev; exact Or.inl (Or.inr hev)
    rw [if_neg c3] at hev
    by_cases c4 : s.smbios_len.toNat ≤ s.idx.toNat + (byteAt s.buffer (s.idx.toNat + 1)).toNat
    · rw [if_pos c4] at hev; exact Or.inr (Or.inr (Or.inl ⟨h.1, _, hev⟩))
    rw [if_neg c4] at hev
    by_cases c5 : s.buffer.length < s.idx.toNat + (byteAt s.buffer (s.idx.toNat + 1)).toNat
    · rw [if_pos c5] at hev; exact Or.inl (Or.inl hev)
    rw [if_neg c5] at hev
    cases hf : findNulNul (s.buffer.drop
        (s.idx.toNat + (byteAt s.buffer (s.idx.toNat + 1)).toNat)) with
    | none => rw [hf] at hev; exact Or.inr (Or.inr (Or.inl ⟨h.1, _, hev⟩))
    | some t =>
      rw [hf] at hev
      simp only at hev
      by_cases c6 : (byteAt s.buffer (s.idx.toNat + 1)).toNat < 4
      · rw [if_pos c6] at hev; exact Or.inl (Or.inl hev)
      right; right; right
      clear hev
      generalize hI : s.idx.toNat = i at *
      generalize hB : s.buffer = b at *
      obtain ⟨hends, htl, ht1⟩ := findNulNul_some hf
      have hl256 := (byteAt b (i + 1)).toNat_lt
      generalize hL : byteAt b (i + 1) = l at *
      let p : Piece := ⟨byteAt b i, u16At b (i + 2), (b.drop (i + 4)).take (l.toNat - 4),
        (b.drop (i + l.toNat)).take (t + 1)⟩
      rw [List.length_drop] at htl
      have hplen : p.len = l.toNat := by
        show ((b.drop (i + 4)).take (l.toNat - 4)).length + 4 = l.toNat
        rw [List.length_take, List.length_drop]; omega
      have hocc : OccursAt b i p.bytes := by
        apply drop_eq_occursAt (rest := b.drop (i + l.toNat + (t + 1)))
        · unfold Piece.bytes
          rw [hplen]
          show b.drop i = [byteAt b i, UInt8.ofNat l.toNat] ++ enc16 (u16At b (i + 2)) ++
            (b.drop (i + 4)).take (l.toNat - 4) ++ (b.drop (i + l.toNat)).take (t + 1) ++ _
          rw [enc16_u16At, ← List.drop_drop (i := t + 1), List.append_assoc _ (List.take _ _) (List.drop _ _),
            List.take_append_drop]
          have e : i + l.toNat = i + 4 + (l.toNat - 4) := by omega
          rw [e, ← List.drop_drop (i := l.toNat - 4), List.append_assoc _ (List.take _ _) (List.drop _ _), List.take_append_drop]
          rw [drop_eq_cons (b := b) (o := i) (by omega), drop_eq_cons (b := b) (o := (i + 1)) (by omega),
            drop_eq_cons (b := b) (o := (i + 2)) (by omega), drop_eq_cons (b := b) (o := (i + 3)) (by omega), hL]
          simp
        · omega
      have hpa : PieceAt b i p := ⟨⟨by rw [hplen]; exact hl256, hends⟩, hocc⟩
      have hnext := next_raw_piece oc s p (by rw [hB]; exact hb) (by rw [hB, hI]; exact hpa)
        (by rw [hI, hplen]; omega)
      rw [hI] at hnext
      exact ⟨p, hpa, by rw [hplen]; omega, by rw [← hB]; exact hnext⟩
  · rcases next_raw_boundary oc s hb h with h | h | h | h
    · exact Or.inl (Or.inl h)
    · exact Or.inl (Or.inr h)
    · exact Or.inr (Or.inl h)
    · exact Or.inr (Or.inr (Or.inl h))

end Dmi
