import Verif.Spec.Bytes
/-!
# Reading packed structs
-/
namespace Dmi
open Spec

theorem leAt_lt (b : Bytes) (o w : Nat) : leAt b o w < 256 ^ w := by
  induction w generalizing o with
  | zero => simp [leAt]
  | succ w ih =>
    have := ih (o + 1)
    have := (byteAt b o).toNat_lt
    simp only [leAt, Nat.pow_succ]
    omega

theorem byteAt_eq {b : Bytes} {o : Nat} (h : o < b.length) : byteAt b o = b[o] := by
  simp [byteAt, h]

theorem drop_eq_cons {b : Bytes} {o : Nat} (h : o < b.length) :
    b.drop o = byteAt b o :: b.drop (o + 1) := by
  rw [List.drop_eq_getElem_cons h, byteAt_eq h]

theorem leNat_take (b : Bytes) (o w : Nat) (h : o + w ≤ b.length) :
    leNat ((b.drop o).take w) = leAt b o w := by
  induction w generalizing o with
  | zero => simp [leNat, leAt]
  | succ w ih =>
    rw [drop_eq_cons (by omega), List.take_succ_cons, leNat, leAt, ih (o + 1) (by omega)]

theorem take_eq_bytesAt (b : Bytes) (o w : Nat) (h : o + w ≤ b.length) :
    (b.drop o).take w = bytesAt b o w := by
  apply List.ext_getElem
  · simp [bytesAt]; omega
  · intro i h1 h2
    simp only [bytesAt, List.length_map, List.length_range] at h2
    simp [bytesAt, byteAt_eq (b := b) (o := o + i) (by omega)]

namespace Packed

theorem u8_drop {b : Bytes} {o : Nat} (h : o < b.length) :
    u8 (b.drop o) = some (byteAt b o, b.drop (o + 1)) := by
  rw [drop_eq_cons h]; rfl

theorem u16_drop {b : Bytes} {o : Nat} (h : o + 2 ≤ b.length) :
    u16 (b.drop o) = some (u16At b o, b.drop (o + 2)) := by
  have e := leNat_take b o 2 h
  rw [drop_eq_cons (b := b) (o := o) (by omega), drop_eq_cons (b := b) (o := o + 1) (by omega)] at e ⊢
  simp only [u16, le16, u16At, ← e]; rfl

theorem u32_drop {b : Bytes} {o : Nat} (h : o + 4 ≤ b.length) :
    u32 (b.drop o) = some (u32At b o, b.drop (o + 4)) := by
  have e := leNat_take b o 4 h
  rw [drop_eq_cons (b := b) (o := o) (by omega), drop_eq_cons (b := b) (o := o + 1) (by omega),
    drop_eq_cons (b := b) (o := o + 1 + 1) (by omega),
    drop_eq_cons (b := b) (o := o + 1 + 1 + 1) (by omega)] at e ⊢
  simp only [u32, le32, u32At, ← e]; rfl

theorem u64_drop {b : Bytes} {o : Nat} (h : o + 8 ≤ b.length) :
    u64 (b.drop o) = some (u64At b o, b.drop (o + 8)) := by
  have e := leNat_take b o 8 h
  rw [drop_eq_cons (b := b) (o := o) (by omega), drop_eq_cons (b := b) (o := o + 1) (by omega),
    drop_eq_cons (b := b) (o := o + 1 + 1) (by omega),
    drop_eq_cons (b := b) (o := o + 1 + 1 + 1) (by omega),
    drop_eq_cons (b := b) (o := o + 1 + 1 + 1 + 1) (by omega),
    drop_eq_cons (b := b) (o := o + 1 + 1 + 1 + 1 + 1) (by omega),
    drop_eq_cons (b := b) (o := o + 1 + 1 + 1 + 1 + 1 + 1) (by omega),
    drop_eq_cons (b := b) (o := o + 1 + 1 + 1 + 1 + 1 + 1 + 1) (by omega)] at e ⊢
  simp only [u64, le64, u64At, ← e]; rfl

theorem array_drop {b : Bytes} {o n : Nat} (h : o + n ≤ b.length) :
    array n (b.drop o) = some (bytesAt b o n, b.drop (o + n)) := by
  unfold array
  rw [if_pos (by simp; omega), take_eq_bytesAt b o n h, List.drop_drop]

/-- `p` consumes exactly `n` bytes and fails iff there are fewer. -/
def Consumes {α : Type} (p : Packed α) (n : Nat) : Prop :=
  ∀ b : Bytes, (b.length < n → p b = none) ∧ (n ≤ b.length → ∃ a, p b = some (a, b.drop n))

theorem Consumes.u8 : Consumes u8 1 := by
  intro b; match b with
  | [] => simp [Packed.u8]
  | _ :: _ => simp [Packed.u8]

theorem Consumes.u16 : Consumes u16 2 := by
  intro b; match b with
  | [] => simp [Packed.u16]
  | [_] => simp [Packed.u16]
  | _ :: _ :: _ => simp [Packed.u16]; 

theorem Consumes.u32 : Consumes u32 4 := by
  intro b; match b with
  | [] | [_] | [_, _] | [_, _, _] => simp [Packed.u32]
  | _ :: _ :: _ :: _ :: _ => simp [Packed.u32]

theorem Consumes.u64 : Consumes u64 8 := by
  intro b; match b with
  | [] | [_] | [_, _] | [_, _, _] | [_, _, _, _] | [_, _, _, _, _] | [_, _, _, _, _, _]
  | [_, _, _, _, _, _, _] => simp [Packed.u64]
  | _ :: _ :: _ :: _ :: _ :: _ :: _ :: _ :: _ => simp [Packed.u64]

theorem Consumes.array (n : Nat) : Consumes (array n) n := by
  intro b
  constructor
  · intro h; simp [Packed.array]; omega
  · intro h; simp [Packed.array, h]

theorem Consumes.pure {α : Type} (a : α) : Consumes (Pure.pure a : Packed α) 0 := by
  intro b
  exact ⟨fun h => absurd h (Nat.not_lt_zero _), fun _ => ⟨a, rfl⟩⟩

theorem Consumes.bind {α β : Type} {p : Packed α} {f : α → Packed β} {m n : Nat}
    (hp : Consumes p m) (hf : ∀ a, Consumes (f a) n) : Consumes (p >>= f) (m + n) := by
  intro b
  show (_ → Packed.bind p f b = none) ∧ (_ → ∃ a, Packed.bind p f b = _)
  unfold Packed.bind
  constructor
  · intro h
    by_cases hm : b.length < m
    · rw [(hp b).1 hm]
    · obtain ⟨a, ha⟩ := (hp b).2 (by omega)
      rw [ha]
      exact (hf a _).1 (by rw [List.length_drop]; omega)
  · intro h
    obtain ⟨a, ha⟩ := (hp b).2 (by omega)
    obtain ⟨c, hc⟩ := (hf a (b.drop m)).2 (by rw [List.length_drop]; omega)
    exact ⟨c, by rw [ha]; simp only [hc, List.drop_drop]⟩

theorem Consumes.cast {α : Type} {p : Packed α} {m n : Nat} (h : Consumes p m) (e : m = n) :
    Consumes p n := e ▸ h

end Packed

theorem letAsStruct_ub_iff {ε α : Type} {p : Packed α} {n : Nat} (h : p.Consumes n) (b : Bytes) :
    (letAsStruct p b : Res ε α) = .ub ↔ b.length < n := by
  unfold letAsStruct
  by_cases hb : b.length < n
  · rw [(h b).1 hb]; simp [hb]
  · obtain ⟨a, ha⟩ := (h b).2 (by omega)
    rw [ha]; simp; omega

theorem letAsStruct_short {ε α : Type} {p : Packed α} {n : Nat} (h : p.Consumes n) {b : Bytes}
    (hb : b.length < n) : (letAsStruct p b : Res ε α) = .ub := (letAsStruct_ub_iff h b).2 hb

/-- Proves `Consumes` of a `do` block of field reads. -/
macro "consumes" : tactic =>
  `(tactic| (
      apply Packed.Consumes.cast
      · repeat' first
          | exact Packed.Consumes.u8
          | exact Packed.Consumes.u16
          | exact Packed.Consumes.u32
          | exact Packed.Consumes.u64
          | exact Packed.Consumes.array _
          | exact Packed.Consumes.pure _
          | apply Packed.Consumes.bind
          | intro _
      · rfl))

theorem letAsStruct_eval {ε α : Type} {p : Packed α} {b : Bytes} {a : α} {r : Bytes}
    (h : p (b.drop 0) = some (a, r)) : (letAsStruct p b : Res ε α) = .ok a := by
  rw [List.drop_zero] at h
  simp only [letAsStruct, h]

/-- Evaluates a packed reader on a long enough buffer. -/
macro "packed_eval" : tactic =>
  `(tactic| (
      apply letAsStruct_eval
      simp (disch := omega) only [Bind.bind, Packed.bind, Pure.pure, Packed.pure,
        Packed.u8_drop, Packed.u16_drop, Packed.u32_drop, Packed.u64_drop, Packed.array_drop,
        Nat.reduceAdd]
      rfl))

end Dmi
