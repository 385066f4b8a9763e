import Verif.Proofs.EntryPoint
import Verif.Proofs.Strings
/-!
# Lemmas about access by offset
-/
namespace Dmi
open Spec

theorem getBytes_ge (oc : Bool) (r : RawStructure) (size off : Nat) (h4 : 4 ≤ off)
    (hmax : off - 4 + size < 2 ^ 64) (hs : 0 < size) :
    r.getBytes oc size off = if off + size ≤ r.data.length + 4 then
      .ok (bytesAt r.data (off - 4) size) else .err .InvalidSlice := by
  have hg : getRange r.data (off - 4) (off - 4 + size) = if off + size ≤ r.data.length + 4 then
      some (bytesAt r.data (off - 4) size) else none := by
    unfold getRange
    by_cases hl : off + size ≤ r.data.length + 4
    · rw [if_pos (by omega), if_pos hl, Nat.add_sub_cancel_left,
        take_eq_bytesAt _ _ _ (by omega)]
    · rw [if_neg (by omega), if_neg hl]
  unfold RawStructure.getBytes
  simp only [subUsize_host64, addUsize_host64]
  simp only [if_pos h4, Bind.bind, Res.bind, if_pos hmax, hg]
  by_cases hl : off + size ≤ r.data.length + 4
  · simp [hl, bytesAt]
  · simp only [hl, if_false, Option.getD_none, List.length_nil]
    rw [if_neg (by omega)]

theorem leNat_bytesAt (b : Bytes) (o w : Nat) : leNat (bytesAt b o w) = leAt b o w := by
  induction w generalizing o with
  | zero => rfl
  | succ w ih =>
    have : bytesAt b o (w + 1) = byteAt b o :: bytesAt b (o + 1) w := by
      unfold bytesAt
      rw [List.range_succ_eq_map]
      simp only [List.map_cons, List.map_map, Nat.add_zero, List.cons.injEq, true_and]
      apply List.map_congr_left
      intro i _
      simp only [Function.comp]
      congr 1; omega
    rw [this, leNat, ih, leAt]

theorem get8_ge (oc : Bool) (r : RawStructure) (off : Nat) (h4 : 4 ≤ off)
    (hmax : off - 4 + 1 < 2 ^ 64) :
    r.get8 oc off = if off + 1 ≤ r.data.length + 4 then .ok (byteAt r.data (off - 4))
      else .err .InvalidSlice := by
  unfold RawStructure.get8
  rw [getBytes_ge oc r 1 off h4 hmax (by decide)]
  split
  · simp only [Bind.bind, Res.bind, Pure.pure, leNat_bytesAt, leAt_one]
    simp
  · rfl

theorem get16_ge (oc : Bool) (r : RawStructure) (off : Nat) (h4 : 4 ≤ off)
    (hmax : off - 4 + 2 < 2 ^ 64) :
    r.get16 oc off = if off + 2 ≤ r.data.length + 4 then .ok (u16At r.data (off - 4))
      else .err .InvalidSlice := by
  unfold RawStructure.get16
  rw [getBytes_ge oc r 2 off h4 hmax (by decide)]
  split
  · simp only [Bind.bind, Res.bind, Pure.pure, le16, leNat_bytesAt, u16At]
  · rfl

theorem get32_ge (oc : Bool) (r : RawStructure) (off : Nat) (h4 : 4 ≤ off)
    (hmax : off - 4 + 4 < 2 ^ 64) :
    r.get32 oc off = if off + 4 ≤ r.data.length + 4 then .ok (u32At r.data (off - 4))
      else .err .InvalidSlice := by
  unfold RawStructure.get32
  rw [getBytes_ge oc r 4 off h4 hmax (by decide)]
  split
  · simp only [Bind.bind, Res.bind, Pure.pure, le32, leNat_bytesAt, u32At]
  · rfl

theorem get64_ge (oc : Bool) (r : RawStructure) (off : Nat) (h4 : 4 ≤ off)
    (hmax : off - 4 + 8 < 2 ^ 64) :
    r.get64 oc off = if off + 8 ≤ r.data.length + 4 then .ok (u64At r.data (off - 4))
      else .err .InvalidSlice := by
  unfold RawStructure.get64
  rw [getBytes_ge oc r 8 off h4 hmax (by decide)]
  split
  · simp only [Bind.bind, Res.bind, Pure.pure, le64, leNat_bytesAt, u64At]
  · rfl

theorem get128_ge (oc : Bool) (r : RawStructure) (off : Nat) (h4 : 4 ≤ off)
    (hmax : off - 4 + 16 < 2 ^ 64) :
    r.get128 oc off = if off + 16 ≤ r.data.length + 4 then
        .ok (BitVec.ofNat 128 (leAt r.data (off - 4) 16))
      else .err .InvalidSlice := by
  unfold RawStructure.get128
  rw [getBytes_ge oc r 16 off h4 hmax (by decide)]
  split
  · simp only [Bind.bind, Res.bind, Pure.pure, leNat_bytesAt]
  · rfl

theorem get_slice_ge (oc : Bool) (r : RawStructure) (off size : Nat) (h4 : 4 ≤ off)
    (hmax : off - 4 + size < 2 ^ 64) :
    r.get_slice oc off size = .ok (if off + size ≤ r.data.length + 4 then
      some (bytesAt r.data (off - 4) size) else none) := by
  unfold RawStructure.get_slice
  simp only [subUsize_host64, addUsize_host64]
  simp only [if_pos h4, Bind.bind, Res.bind, if_pos hmax, getRange, Pure.pure]
  by_cases hl : off + size ≤ r.data.length + 4
  · rw [if_pos (by omega), if_pos hl]
    simp only [Nat.add_sub_cancel_left]
    rw [take_eq_bytesAt _ _ _ (by omega)]
  · rw [if_neg (by omega), if_neg hl]

theorem get_string_ge (oc : Bool) (r : RawStructure) (off : Nat) (h4 : 4 ≤ off)
    (hmax : off - 4 + 1 < 2 ^ 64) :
    r.get_string oc off = if off + 1 ≤ r.data.length + 4 then
      r.find_string (byteAt r.data (off - 4)) else .err .InvalidSlice := by
  unfold RawStructure.get_string
  rw [get8_ge oc r off h4 hmax]
  split <;> rfl

/-- Below offset 4: a panic under overflow checks, `InvalidSlice` otherwise. -/
theorem getBytes_lt (oc : Bool) (r : RawStructure) (size off : Nat) (h4 : off < 4)
    (hs : 0 < size) (hs16 : size ≤ 16) (hdata : r.data.length < 2 ^ 63) :
    r.getBytes oc size off = if oc then .panic else .err .InvalidSlice := by
  unfold RawStructure.getBytes
  simp only [subUsize_host64, addUsize_host64]
  simp only [if_neg (Nat.not_le.2 h4)]
  cases oc with
  | true => rfl
  | false =>
    have e : (2 ^ 64 + off - 4) % 2 ^ 64 = 2 ^ 64 + off - 4 := by omega
    simp only [Bool.false_eq_true, if_false, Bind.bind, Res.bind, e]
    have key : ∀ stop, getRange r.data (2 ^ 64 + off - 4) stop = none := by
      intro stop; unfold getRange; rw [if_neg (by omega)]
    split
    · rename_i a h
      simp only [key, Option.getD_none, List.length_nil]
      rw [if_neg (by omega)]
    · rename_i h; revert h; split <;> intro h <;> cases h
    · rename_i h; revert h; split <;> intro h <;> cases h
    · rename_i h; revert h; split <;> intro h <;> cases h

end Dmi
