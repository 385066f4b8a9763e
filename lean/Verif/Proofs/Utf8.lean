import Verif.Model.Lib
import Verif.Host
/-!
# The UTF-8 validator of the model accepts exactly the encodings of sequences of characters

`String.utf8EncodeChar` is Lean's encoder of Unicode scalar values.
-/
namespace Dmi

theorem inRange_iff (lo hi b : UInt8) : inRange lo hi b = true ↔
    lo.toNat ≤ b.toNat ∧ b.toNat ≤ hi.toNat := by
  simp [inRange, UInt8.le_iff_toNat_le]

theorem isCont_iff (b : UInt8) : isCont b = true ↔ 128 ≤ b.toNat ∧ b.toNat ≤ 191 := by
  simp [isCont, inRange_iff]

theorem u8_eq_iff (a b : UInt8) : a = b ↔ a.toNat = b.toNat := UInt8.toNat_inj.symm

theorem utf8Valid_encode (c : Char) (r : Bytes) :
    utf8Valid (String.utf8EncodeChar c ++ r) = utf8Valid r := by
  have hv : c.val.toNat < 0xd800 ∨ 0xdfff < c.val.toNat ∧ c.val.toNat < 0x110000 := c.valid
  unfold String.utf8EncodeChar
  generalize c.val.toNat = v at hv
  have t : ∀ n, (UInt8.ofNat n).toNat = n % 256 := fun n => by simp
  dsimp only
  split
  · rw [List.singleton_append, utf8Valid.eq_def]
    dsimp only
    rw [if_pos]
    rw [UInt8.lt_iff_toNat_lt]
    simp only [t, UInt8.toNat_ofNat]; omega
  split
  · simp only [List.cons_append, List.nil_append]
    rw [utf8Valid.eq_def]
    simp only [UInt8.lt_iff_toNat_lt, inRange_iff]
    rw [if_neg (by simp only [t, UInt8.toNat_ofNat]; omega),
      if_pos (by simp only [t, UInt8.toNat_ofNat]; omega)]
    have : isCont (UInt8.ofNat (v % 64 + 128)) = true := by
      rw [isCont_iff, t]; omega
    simp only [this, Bool.true_and]
  split
  · simp only [List.cons_append, List.nil_append]
    rw [utf8Valid.eq_def]
    simp only [UInt8.lt_iff_toNat_lt, inRange_iff]
    rw [if_neg (by simp only [t, UInt8.toNat_ofNat]; omega),
      if_neg (by simp only [t, UInt8.toNat_ofNat]; omega),
      if_pos (by simp only [t, UInt8.toNat_ofNat]; omega)]
    have h2 : isCont (UInt8.ofNat (v % 64 + 128)) = true := by
      rw [isCont_iff, t]; omega
    have h1 : (if UInt8.ofNat (v / 4096 % 16 + 224) = 224 then
        inRange 160 191 (UInt8.ofNat (v / 64 % 64 + 128))
        else if UInt8.ofNat (v / 4096 % 16 + 224) = 237 then
          inRange 128 159 (UInt8.ofNat (v / 64 % 64 + 128))
        else isCont (UInt8.ofNat (v / 64 % 64 + 128))) = true := by
      simp only [u8_eq_iff, t, UInt8.toNat_ofNat]
      split
      · rw [inRange_iff, t]; simp only [UInt8.toNat_ofNat]; omega
      split
      · rw [inRange_iff, t]; simp only [UInt8.toNat_ofNat]; omega
      · rw [isCont_iff, t]; omega
    rw [h1, h2]; simp
  · simp only [List.cons_append, List.nil_append]
    rw [utf8Valid.eq_def]
    simp only [UInt8.lt_iff_toNat_lt, inRange_iff]
    rw [if_neg (by simp only [t, UInt8.toNat_ofNat]; omega),
      if_neg (by simp only [t, UInt8.toNat_ofNat]; omega),
      if_neg (by simp only [t, UInt8.toNat_ofNat]; omega),
      if_pos (by simp only [t, UInt8.toNat_ofNat]; omega)]
    have h2 : isCont (UInt8.ofNat (v / 64 % 64 + 128)) = true := by
      rw [isCont_iff, t]; omega
    have h3 : isCont (UInt8.ofNat (v % 64 + 128)) = true := by
      rw [isCont_iff, t]; omega
    have h1 : (if UInt8.ofNat (v / 262144 % 8 + 240) = 240 then
        inRange 144 191 (UInt8.ofNat (v / 4096 % 64 + 128))
        else if UInt8.ofNat (v / 262144 % 8 + 240) = 244 then
          inRange 128 143 (UInt8.ofNat (v / 4096 % 64 + 128))
        else isCont (UInt8.ofNat (v / 4096 % 64 + 128))) = true := by
      simp only [u8_eq_iff, t, UInt8.toNat_ofNat]
      split
      · rw [inRange_iff, t]; simp only [UInt8.toNat_ofNat]; omega
      split
      · rw [inRange_iff, t]; simp only [UInt8.toNat_ofNat]; omega
      · rw [isCont_iff, t]; omega
    rw [h1, h2, h3]; simp

theorem utf8Valid_flatMap (cs : List Char) : utf8Valid (cs.flatMap String.utf8EncodeChar) = true := by
  induction cs with
  | nil => rfl
  | cons c cs ih => rw [List.flatMap_cons, utf8Valid_encode, ih]

/-- The character with a given scalar value. -/
def mkChar (v : Nat) (h : v < 0xd800 ∨ 0xdfff < v ∧ v < 0x110000) : Char :=
  ⟨UInt32.ofNat v, by
    have : (UInt32.ofNat v).toNat = v := by simp; omega
    show Nat.isValidChar (UInt32.ofNat v).toNat
    rw [this]; exact h⟩

theorem mkChar_toNat (v : Nat) (h) : (mkChar v h).val.toNat = v := by
  show (UInt32.ofNat v).toNat = v
  simp; omega

theorem utf8Valid_exists (s : Bytes) (h : utf8Valid s = true) :
    ∃ cs : List Char, s = cs.flatMap String.utf8EncodeChar := by
  have t : ∀ n, (UInt8.ofNat n).toNat = n % 256 := fun n => by simp
  fun_induction utf8Valid s
  · exact ⟨[], rfl⟩
  · rename_i b0 r h0 ih
    obtain ⟨cs, rfl⟩ := ih h
    rw [UInt8.lt_iff_toNat_lt] at h0
    simp only [UInt8.toNat_ofNat] at h0
    refine ⟨mkChar b0.toNat (by omega) :: cs, ?_⟩
    rw [List.flatMap_cons, String.utf8EncodeChar, mkChar_toNat]
    rw [if_pos (by omega)]
    simp
  · rename_i b0 h0 h1 b1 r ih
    simp only [Bool.and_eq_true, isCont_iff] at h
    obtain ⟨cs, rfl⟩ := ih h.2
    simp only [inRange_iff, UInt8.toNat_ofNat] at h1
    refine ⟨mkChar ((b0.toNat - 0xc0) * 64 + (b1.toNat - 0x80)) (by omega) :: cs, ?_⟩
    rw [List.flatMap_cons, String.utf8EncodeChar, mkChar_toNat]
    rw [if_neg (by omega), if_pos (by omega)]
    simp only [List.cons_append, List.nil_append, List.cons.injEq, u8_eq_iff, t, and_true]
    omega
  · cases h
  · rename_i b0 h0 h1 h2 b1 b2 r ih
    simp only [Bool.and_eq_true, isCont_iff] at h
    obtain ⟨cs, rfl⟩ := ih h.2
    simp only [inRange_iff, UInt8.toNat_ofNat] at h2
    have hb1 : 128 ≤ b1.toNat ∧ b1.toNat ≤ 191 ∧ (b0.toNat = 224 → 160 ≤ b1.toNat) ∧
        (b0.toNat = 237 → b1.toNat ≤ 159) := by
      have h' := h.1.1
      simp only [u8_eq_iff, UInt8.toNat_ofNat] at h'
      split at h'
      · rw [inRange_iff] at h'; simp only [UInt8.toNat_ofNat] at h'; omega
      split at h'
      · rw [inRange_iff] at h'; simp only [UInt8.toNat_ofNat] at h'; omega
      · rw [isCont_iff] at h'; omega
    have hb2 := h.1.2
    refine ⟨mkChar ((b0.toNat - 0xe0) * 4096 + (b1.toNat - 0x80) * 64 + (b2.toNat - 0x80))
      (by omega) :: cs, ?_⟩
    rw [List.flatMap_cons, String.utf8EncodeChar, mkChar_toNat]
    rw [if_neg (by omega), if_neg (by omega), if_pos (by omega)]
    simp only [List.cons_append, List.nil_append, List.cons.injEq, u8_eq_iff, t, and_true]
    omega
  · cases h
  · rename_i b0 h0 h1 h2 h3 b1 b2 b3 r ih
    simp only [Bool.and_eq_true, isCont_iff] at h
    obtain ⟨cs, rfl⟩ := ih h.2
    simp only [inRange_iff, UInt8.toNat_ofNat] at h3
    have hb1 : 128 ≤ b1.toNat ∧ b1.toNat ≤ 191 ∧ (b0.toNat = 240 → 144 ≤ b1.toNat) ∧
        (b0.toNat = 244 → b1.toNat ≤ 143) := by
      have h' := h.1.1.1
      simp only [u8_eq_iff, UInt8.toNat_ofNat] at h'
      split at h'
      · rw [inRange_iff] at h'; simp only [UInt8.toNat_ofNat] at h'; omega
      split at h'
      · rw [inRange_iff] at h'; simp only [UInt8.toNat_ofNat] at h'; omega
      · rw [isCont_iff] at h'; omega
    have hb2 := h.1.1.2
    have hb3 := h.1.2
    refine ⟨mkChar ((b0.toNat - 0xf0) * 262144 + (b1.toNat - 0x80) * 4096 +
      (b2.toNat - 0x80) * 64 + (b3.toNat - 0x80)) (by omega) :: cs, ?_⟩
    rw [List.flatMap_cons, String.utf8EncodeChar, mkChar_toNat]
    rw [if_neg (by omega), if_neg (by omega), if_neg (by omega)]
    simp only [List.cons_append, List.nil_append, List.cons.injEq, u8_eq_iff, t, and_true]
    omega
  · cases h
  · cases h

/-- The validator accepts exactly the encodings of character sequences. -/
theorem utf8Valid_iff (s : Bytes) : utf8Valid s = true ↔
    ∃ cs : List Char, s = cs.flatMap String.utf8EncodeChar := by
  constructor
  · exact utf8Valid_exists s
  · rintro ⟨cs, rfl⟩; exact utf8Valid_flatMap cs

end Dmi
