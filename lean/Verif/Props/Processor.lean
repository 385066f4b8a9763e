import Verif.Proofs.Decode
import Verif.Proofs.Finite
import Verif.Model.S004
/-!
# C35: processor information (type 4)
-/
namespace Dmi.Props
open Spec processor
set_option linter.unusedSimpArgs false

/-- Length of a type 4 structure of the given version. -/
def processorLength (s : RawStructure) : Nat :=
  if Since s 3 0 then 0x30 else if Since s 2 6 then 0x2A else if Since s 2 5 then 0x28
  else if Since s 2 3 then 0x23 else if Since s 2 1 then 0x20 else 0x1A

/-- The family: the 16-bit code if the table has one and the 8-bit code says so. -/
def storedFamily (s : RawStructure) : UInt16 :=
  if Since s 2 6 ∧ byte s 0x06 = 0xFE then word s 0x28 else (byte s 0x06).toUInt16

/-- A count: from 3.0 on, the 16-bit count at `o2` if the 8-bit count at `o` is FFh. -/
def storedCount (s : RawStructure) (o o2 : Nat) : UInt16 :=
  if Since s 3 0 ∧ byte s o = 0xFF then word s o2 else (byte s o).toUInt16

/-- The fields of a type 4 structure. The undefined bits of the status (3, 4, 5, 7) and of the
characteristics (8, 10-15) are dropped. `ch` says when the characteristics are present. -/
structure ProcessorFields (s : RawStructure) (ch : Prop) (v : Processor) : Prop where
  handle : v.handle = s.handle
  socket_designation : Ref s 0x04 v.socket_designation
  processor_type : v.processor_type = ProcessorType.ofU8 (byte s 0x05)
  processor_family : v.processor_family = ProcessorFamily.ofU16 (storedFamily s)
  processor_manufacturer : Ref s 0x07 v.processor_manufacturer
  processor_id : v.processor_id = qword s 0x08
  processor_version : Ref s 0x10 v.processor_version
  voltage : v.voltage = Voltage.ofU8 (byte s 0x11)
  external_clock : v.external_clock = word s 0x12
  max_speed : v.max_speed = word s 0x14
  current_speed : v.current_speed = word s 0x16
  status : Kept [0, 1, 2, 6] (byte s 0x18).toNat v.status.bits.toNat
  processor_upgrade : v.processor_upgrade = ProcessorUpgrade.ofU8 (byte s 0x19)
  l1_cache_handle : When (Since s 2 1) v.l1_cache_handle (· = word s 0x1A)
  l2_cache_handle : When (Since s 2 1) v.l2_cache_handle (· = word s 0x1C)
  l3_cache_handle : When (Since s 2 1) v.l3_cache_handle (· = word s 0x1E)
  serial_number : When (Since s 2 3) v.serial_number (Ref s 0x20)
  asset_tag : When (Since s 2 3) v.asset_tag (Ref s 0x21)
  part_number : When (Since s 2 3) v.part_number (Ref s 0x22)
  core_count : When (Since s 2 5) v.core_count (· = storedCount s 0x23 0x2A)
  core_enabled : When (Since s 2 5) v.core_enabled (· = storedCount s 0x24 0x2C)
  thread_count : When (Since s 2 5) v.thread_count (· = storedCount s 0x25 0x2E)
  processor_characteristics : When ch v.processor_characteristics fun c =>
    Kept [0, 1, 2, 3, 4, 5, 6, 7, 9] (word s 0x26).toNat c.bits.toNat

theorem kept_unique {bits : List Nat} {w c d : Nat} (hc : Kept bits w c) (hd : Kept bits w d) :
    c = d := Nat.eq_of_testBit_eq fun i => (hc i).trans (hd i).symm

theorem kept_status' (b : UInt8) :
    Kept [0, 1, 2, 6] b.toNat (ProcessorStatus.fromBitsTruncate b).bits.toNat := by
  intro i
  unfold ProcessorStatus.fromBitsTruncate
  rw [UInt8.toNat_and, Nat.testBit_and]
  congr 1
  by_cases h : i < 8
  · revert i; decide
  · rw [Nat.testBit_lt_two_pow (Nat.lt_of_lt_of_le (UInt8.toNat_lt _)
      (Nat.pow_le_pow_right (by decide) (by omega : 8 ≤ i)))]
    symm
    simp only [List.contains_eq_mem, List.mem_cons, List.not_mem_nil, or_false,
      decide_eq_false_iff_not]
    omega

theorem kept_status {b : UInt8} {c : ProcessorStatus} :
    Kept [0, 1, 2, 6] b.toNat c.bits.toNat ↔ ProcessorStatus.fromBitsTruncate b = c := by
  constructor
  · intro h
    have := UInt8.toNat_inj.1 (kept_unique (kept_status' b) h)
    generalize ProcessorStatus.fromBitsTruncate b = g at this
    obtain ⟨g⟩ := g; obtain ⟨c⟩ := c; simp only at this; rw [this]
  · rintro rfl; exact kept_status' b

theorem kept_characteristics' (w : UInt16) : Kept [0, 1, 2, 3, 4, 5, 6, 7, 9] w.toNat
    (ProcessorCharacteristics.fromBitsTruncate w).bits.toNat := by
  intro i
  unfold ProcessorCharacteristics.fromBitsTruncate
  rw [UInt16.toNat_and, Nat.testBit_and]
  congr 1
  by_cases h : i < 16
  · revert i; decide
  · rw [Nat.testBit_lt_two_pow (Nat.lt_of_lt_of_le (UInt16.toNat_lt _)
      (Nat.pow_le_pow_right (by decide) (by omega : 16 ≤ i)))]
    symm
    simp only [List.contains_eq_mem, List.mem_cons, List.not_mem_nil, or_false,
      decide_eq_false_iff_not]
    omega

theorem kept_characteristics {w : UInt16} {c : ProcessorCharacteristics} :
    Kept [0, 1, 2, 3, 4, 5, 6, 7, 9] w.toNat c.bits.toNat ↔
      ProcessorCharacteristics.fromBitsTruncate w = c := by
  constructor
  · intro h
    have := UInt16.toNat_inj.1 (kept_unique (kept_characteristics' w) h)
    generalize ProcessorCharacteristics.fromBitsTruncate w = g at this
    obtain ⟨g⟩ := g; obtain ⟨c⟩ := c; simp only at this; rw [this]
  · rintro rfl; exact kept_characteristics' w

theorem family2_iff : ∀ b : UInt8, ProcessorFamily.ofU8 b = .ProcessorFamily2 ↔ b = 0xFE := by
  apply forall_u8; decide +kernel

theorem family_match (b : UInt8) (w : UInt16) :
    chooseFamily b w = ProcessorFamily.ofU16 (if b = 0xFE then w else b.toUInt16) := by
  unfold chooseFamily
  split
  · next h => rw [if_pos ((family2_iff b).1 h)]
  · next h => rw [if_neg (fun hb => h ((family2_iff b).2 hb))]; rfl

theorem ite_some {α : Type} {c : Prop} [Decidable c] {a b : α} :
    (if c then some a else some b) = some (if c then a else b) := by split <;> rfl

theorem processor_packed2_0 {s : RawStructure} (h : Fits s 0x1a) :
    (letAsStruct ProcessorPacked2_0.packed s.data : R _) = .ok
      ⟨byte s 0x4, byte s 0x5, byte s 0x6, byte s 0x7, qword s 0x8, byte s 0x10, byte s
        0x11, word s 0x12, word s 0x14, word s 0x16, byte s 0x18, byte s 0x19⟩ := by
  have h : 22 ≤ s.data.length := by unfold Fits at h; omega
  unfold ProcessorPacked2_0.packed
  packed_eval

theorem processor_packed2_1 {s : RawStructure} (h : Fits s 0x20) :
    (letAsStruct ProcessorPacked2_1.packed s.data : R _) = .ok
      ⟨byte s 0x4, byte s 0x5, byte s 0x6, byte s 0x7, qword s 0x8, byte s 0x10, byte s
        0x11, word s 0x12, word s 0x14, word s 0x16, byte s 0x18, byte s 0x19, word s
        0x1A, word s 0x1C, word s 0x1E⟩ := by
  have h : 28 ≤ s.data.length := by unfold Fits at h; omega
  unfold ProcessorPacked2_1.packed
  packed_eval

theorem processor_packed2_3 {s : RawStructure} (h : Fits s 0x23) :
    (letAsStruct ProcessorPacked2_3.packed s.data : R _) = .ok
      ⟨byte s 0x4, byte s 0x5, byte s 0x6, byte s 0x7, qword s 0x8, byte s 0x10, byte s
        0x11, word s 0x12, word s 0x14, word s 0x16, byte s 0x18, byte s 0x19, word s
        0x1A, word s 0x1C, word s 0x1E, byte s 0x20, byte s 0x21, byte s 0x22⟩ := by
  have h : 31 ≤ s.data.length := by unfold Fits at h; omega
  unfold ProcessorPacked2_3.packed
  packed_eval

theorem processor_packed2_5 {s : RawStructure} (h : Fits s 0x28) :
    (letAsStruct ProcessorPacked2_5.packed s.data : R _) = .ok
      ⟨byte s 0x4, byte s 0x5, byte s 0x6, byte s 0x7, qword s 0x8, byte s 0x10, byte s
        0x11, word s 0x12, word s 0x14, word s 0x16, byte s 0x18, byte s 0x19, word s
        0x1A, word s 0x1C, word s 0x1E, byte s 0x20, byte s 0x21, byte s 0x22, byte s
        0x23, byte s 0x24, byte s 0x25, word s 0x26⟩ := by
  have h : 36 ≤ s.data.length := by unfold Fits at h; omega
  unfold ProcessorPacked2_5.packed
  packed_eval

theorem processor_packed2_6 {s : RawStructure} (h : Fits s 0x2a) :
    (letAsStruct ProcessorPacked2_6.packed s.data : R _) = .ok
      ⟨byte s 0x4, byte s 0x5, byte s 0x6, byte s 0x7, qword s 0x8, byte s 0x10, byte s
        0x11, word s 0x12, word s 0x14, word s 0x16, byte s 0x18, byte s 0x19, word s
        0x1A, word s 0x1C, word s 0x1E, byte s 0x20, byte s 0x21, byte s 0x22, byte s
        0x23, byte s 0x24, byte s 0x25, word s 0x26, word s 0x28⟩ := by
  have h : 38 ≤ s.data.length := by unfold Fits at h; omega
  unfold ProcessorPacked2_6.packed
  packed_eval

theorem processor_packed3_0 {s : RawStructure} (h : Fits s 0x30) :
    (letAsStruct ProcessorPacked3_0.packed s.data : R _) = .ok
      ⟨byte s 0x4, byte s 0x5, byte s 0x6, byte s 0x7, qword s 0x8, byte s 0x10, byte s
        0x11, word s 0x12, word s 0x14, word s 0x16, byte s 0x18, byte s 0x19, word s
        0x1A, word s 0x1C, word s 0x1E, byte s 0x20, byte s 0x21, byte s 0x22, byte s
        0x23, byte s 0x24, byte s 0x25, word s 0x26, word s 0x28, word s 0x2A, word s
        0x2C, word s 0x2E⟩ := by
  have h : 44 ≤ s.data.length := by unfold Fits at h; omega
  unfold ProcessorPacked3_0.packed
  packed_eval

/-- C35, full statement: the characteristics are present from version 2.5 on. -/
def C35_full : Prop := ∀ (s : RawStructure) (v : Processor), Fits s (processorLength s) →
  (Processor.try_from s = .ok v ↔ ProcessorFields s (Since s 2 5) v)

/-- C35: a long enough structure decodes to exactly the stored values, but the characteristics
are present only from version 2.6 on. -/
theorem C35_decodes (s : RawStructure) (h : Fits s (processorLength s)) (v : Processor) :
    Processor.try_from s = .ok v ↔ ProcessorFields s (Since s 2 6) v := by
  unfold Processor.try_from processorLength at *
  by_cases h0 : ¬ Since s 2 1
  · have n1 : ¬ Since s 2 3 := fun hh => h0 (since_mono hh (by decide))
    have n2 : ¬ Since s 2 5 := fun hh => h0 (since_mono hh (by decide))
    have n3 : ¬ Since s 2 6 := fun hh => h0 (since_mono hh (by decide))
    have n4 : ¬ Since s 3 0 := fun hh => h0 (since_mono hh (by decide))
    rw [if_pos (lt_pos h0), processor_packed2_0 (by simpa [h0, n1, n2, n3, n4] using h)]
    decode_iff v [kept_status, kept_characteristics, storedFamily, storedCount, ProcessorFamily.ofU8]
  rw [Decidable.not_not] at h0
  rw [if_neg (lt_neg h0)]
  by_cases h1 : ¬ Since s 2 3
  · have n2 : ¬ Since s 2 5 := fun hh => h1 (since_mono hh (by decide))
    have n3 : ¬ Since s 2 6 := fun hh => h1 (since_mono hh (by decide))
    have n4 : ¬ Since s 3 0 := fun hh => h1 (since_mono hh (by decide))
    rw [if_pos (lt_pos h1), processor_packed2_1 (by simpa [h0, h1, n2, n3, n4] using h)]
    decode_iff v [kept_status, kept_characteristics, storedFamily, storedCount, ProcessorFamily.ofU8]
  rw [Decidable.not_not] at h1
  rw [if_neg (lt_neg h1)]
  by_cases h2 : ¬ Since s 2 5
  · have n3 : ¬ Since s 2 6 := fun hh => h2 (since_mono hh (by decide))
    have n4 : ¬ Since s 3 0 := fun hh => h2 (since_mono hh (by decide))
    rw [if_pos (lt_pos h2), processor_packed2_3 (by simpa [h0, h1, h2, n3, n4] using h)]
    decode_iff v [kept_status, kept_characteristics, storedFamily, storedCount, ProcessorFamily.ofU8]
  rw [Decidable.not_not] at h2
  rw [if_neg (lt_neg h2)]
  by_cases h3 : ¬ Since s 2 6
  · have n4 : ¬ Since s 3 0 := fun hh => h3 (since_mono hh (by decide))
    rw [if_pos (lt_pos h3), processor_packed2_5 (by simpa [h0, h1, h2, h3, n4] using h)]
    decode_iff v [kept_status, kept_characteristics, storedFamily, storedCount, ProcessorFamily.ofU8]
  rw [Decidable.not_not] at h3
  rw [if_neg (lt_neg h3)]
  by_cases h4 : ¬ Since s 3 0
  · rw [if_pos (lt_pos h4), processor_packed2_6 (by simpa [h0, h1, h2, h3, h4] using h)]
    simp only [ok_bind, family_match, ite_some]
    decode_iff v [kept_status, kept_characteristics, storedFamily, storedCount, ProcessorFamily.ofU8]
  rw [Decidable.not_not] at h4
  rw [if_neg (lt_neg h4)]
  rw [processor_packed3_0 (by simpa [h0, h1, h2, h3, h4] using h)]
  simp only [ok_bind, family_match, ite_some]
  decode_iff v [kept_status, kept_characteristics, storedFamily, storedCount, ProcessorFamily.ofU8]

/-- C35: the full statement holds for every version except 2.5. -/
theorem C35_decodes_partial (s : RawStructure) (h : Fits s (processorLength s)) (v : Processor)
    (hv : ¬ (s.version.major = 2 ∧ s.version.minor = 5)) :
    Processor.try_from s = .ok v ↔ ProcessorFields s (Since s 2 5) v := by
  have : Since s 2 5 ↔ Since s 2 6 := by
    unfold Since
    rw [← UInt8.toNat_inj, ← UInt8.toNat_inj] at hv
    simp only [UInt8.reduceToNat] at hv
    omega
  rw [C35_decodes s h, propext this]

/-- C35: a long enough structure can only be rejected for a reference to a missing string. -/
theorem C35_rejects (s : RawStructure) (h : Fits s (processorLength s)) :
    ErrOnly (BadRef s (if Since s 2 3 then [0x04, 0x07, 0x10, 0x20, 0x21, 0x22]
      else [0x04, 0x07, 0x10])) (Processor.try_from s) := by
  unfold Processor.try_from processorLength at *
  by_cases h0 : ¬ Since s 2 1
  · have n1 : ¬ Since s 2 3 := fun hh => h0 (since_mono hh (by decide))
    have n2 : ¬ Since s 2 5 := fun hh => h0 (since_mono hh (by decide))
    have n3 : ¬ Since s 2 6 := fun hh => h0 (since_mono hh (by decide))
    have n4 : ¬ Since s 3 0 := fun hh => h0 (since_mono hh (by decide))
    rw [if_pos (lt_pos h0), processor_packed2_0 (by simpa [h0, n1, n2, n3, n4] using h)]
    simp only [h0, n1, n2, n3, n4, if_true, if_false, not_true, not_false_eq_true]
    err_only
  rw [Decidable.not_not] at h0
  rw [if_neg (lt_neg h0)]
  by_cases h1 : ¬ Since s 2 3
  · have n2 : ¬ Since s 2 5 := fun hh => h1 (since_mono hh (by decide))
    have n3 : ¬ Since s 2 6 := fun hh => h1 (since_mono hh (by decide))
    have n4 : ¬ Since s 3 0 := fun hh => h1 (since_mono hh (by decide))
    rw [if_pos (lt_pos h1), processor_packed2_1 (by simpa [h0, h1, n2, n3, n4] using h)]
    simp only [h0, h1, n2, n3, n4, if_true, if_false, not_true, not_false_eq_true]
    err_only
  rw [Decidable.not_not] at h1
  rw [if_neg (lt_neg h1)]
  by_cases h2 : ¬ Since s 2 5
  · have n3 : ¬ Since s 2 6 := fun hh => h2 (since_mono hh (by decide))
    have n4 : ¬ Since s 3 0 := fun hh => h2 (since_mono hh (by decide))
    rw [if_pos (lt_pos h2), processor_packed2_3 (by simpa [h0, h1, h2, n3, n4] using h)]
    simp only [h0, h1, h2, n3, n4, if_true, if_false, not_true, not_false_eq_true]
    err_only
  rw [Decidable.not_not] at h2
  rw [if_neg (lt_neg h2)]
  by_cases h3 : ¬ Since s 2 6
  · have n4 : ¬ Since s 3 0 := fun hh => h3 (since_mono hh (by decide))
    rw [if_pos (lt_pos h3), processor_packed2_5 (by simpa [h0, h1, h2, h3, n4] using h)]
    simp only [h0, h1, h2, h3, n4, if_true, if_false, not_true, not_false_eq_true]
    err_only
  rw [Decidable.not_not] at h3
  rw [if_neg (lt_neg h3)]
  by_cases h4 : ¬ Since s 3 0
  · rw [if_pos (lt_pos h4), processor_packed2_6 (by simpa [h0, h1, h2, h3, h4] using h)]
    simp only [h0, h1, h2, h3, h4, if_true, if_false, not_true, not_false_eq_true]
    err_only
  rw [Decidable.not_not] at h4
  rw [if_neg (lt_neg h4)]
  rw [processor_packed3_0 (by simpa [h0, h1, h2, h3, h4] using h)]
  simp only [h0, h1, h2, h3, h4, if_true, if_false, not_true, not_false_eq_true]
  err_only

/-- C35: in a shorter structure the decoder reads out of bounds. -/
theorem C35_short (s : RawStructure) (h : ¬ Fits s (processorLength s)) :
    Processor.try_from s = .ub := by
  unfold Processor.try_from processorLength Fits at *
  by_cases h0 : ¬ Since s 2 1
  · have n1 : ¬ Since s 2 3 := fun hh => h0 (since_mono hh (by decide))
    have n2 : ¬ Since s 2 5 := fun hh => h0 (since_mono hh (by decide))
    have n3 : ¬ Since s 2 6 := fun hh => h0 (since_mono hh (by decide))
    have n4 : ¬ Since s 3 0 := fun hh => h0 (since_mono hh (by decide))
    simp only [h0, n1, n2, n3, n4, if_true, if_false] at h
    rw [if_pos (lt_pos h0), letAsStruct_short (n := 22) (by unfold ProcessorPacked2_0.packed; consumes)
      (by omega), ub_bind]
  rw [Decidable.not_not] at h0
  rw [if_neg (lt_neg h0)]
  by_cases h1 : ¬ Since s 2 3
  · have n2 : ¬ Since s 2 5 := fun hh => h1 (since_mono hh (by decide))
    have n3 : ¬ Since s 2 6 := fun hh => h1 (since_mono hh (by decide))
    have n4 : ¬ Since s 3 0 := fun hh => h1 (since_mono hh (by decide))
    simp only [h0, h1, n2, n3, n4, if_true, if_false] at h
    rw [if_pos (lt_pos h1), letAsStruct_short (n := 28) (by unfold ProcessorPacked2_1.packed; consumes)
      (by omega), ub_bind]
  rw [Decidable.not_not] at h1
  rw [if_neg (lt_neg h1)]
  by_cases h2 : ¬ Since s 2 5
  · have n3 : ¬ Since s 2 6 := fun hh => h2 (since_mono hh (by decide))
    have n4 : ¬ Since s 3 0 := fun hh => h2 (since_mono hh (by decide))
    simp only [h0, h1, h2, n3, n4, if_true, if_false] at h
    rw [if_pos (lt_pos h2), letAsStruct_short (n := 31) (by unfold ProcessorPacked2_3.packed; consumes)
      (by omega), ub_bind]
  rw [Decidable.not_not] at h2
  rw [if_neg (lt_neg h2)]
  by_cases h3 : ¬ Since s 2 6
  · have n4 : ¬ Since s 3 0 := fun hh => h3 (since_mono hh (by decide))
    simp only [h0, h1, h2, h3, n4, if_true, if_false] at h
    rw [if_pos (lt_pos h3), letAsStruct_short (n := 36) (by unfold ProcessorPacked2_5.packed; consumes)
      (by omega), ub_bind]
  rw [Decidable.not_not] at h3
  rw [if_neg (lt_neg h3)]
  by_cases h4 : ¬ Since s 3 0
  · simp only [h0, h1, h2, h3, h4, if_true, if_false] at h
    rw [if_pos (lt_pos h4), letAsStruct_short (n := 38) (by unfold ProcessorPacked2_6.packed; consumes)
      (by omega), ub_bind]
  rw [Decidable.not_not] at h4
  rw [if_neg (lt_neg h4)]
  simp only [h0, h1, h2, h3, h4, if_true, if_false] at h
  rw [letAsStruct_short (n := 44) (by unfold ProcessorPacked3_0.packed; consumes)
    (by omega), ub_bind]

/-- A 3.0 structure using the 16-bit family and core count. -/
def exampleProcessor : RawStructure where
  version := ⟨3, 0⟩
  info := .Processor
  length := 0x30
  handle := 0x0400
  data := [1, 3, 0xFE, 2, 0x57, 6, 5, 0, 0xFF, 0xFB, 0xEB, 0xBF, 3, 0x8C, 100, 0, 0xA0, 0x0F,
    0x98, 0x08, 0x41, 0x2B, 7, 0, 8, 0, 9, 0, 0, 0, 0, 0xFF, 24, 48, 0xFC, 0x02, 0x00, 0x01,
    0x2C, 0x01, 0xFF, 0xFF, 0xFF, 0xFF]
  strings := ascii "CPU0" ++ [0] ++ ascii "Intel" ++ [0] ++ ascii "Xeon" ++ [0, 0]

example : Fits exampleProcessor (processorLength exampleProcessor) := by decide
example : (Processor.try_from exampleProcessor).okAnd (fun v =>
    v.socket_designation = ascii "CPU0" ∧ v.processor_id = 0xBFEBFBFF00050657 ∧
    v.processor_family = .ARMv7 ∧ v.voltage = .Current 0x0C ∧ v.max_speed = 4000 ∧
    v.current_speed = 2200 ∧ v.status = ⟨0x41⟩ ∧ v.l3_cache_handle = some 9 ∧
    v.core_count = some 300 ∧ v.core_enabled = some 24 ∧ v.thread_count = some 48 ∧
    v.processor_characteristics = some ⟨0x02FC⟩) = true := by decide +kernel
example : Processor.try_from { exampleProcessor with strings := [0, 0] } =
    .err (.InvalidStringIndex .Processor 0x0400 1) := by decide +kernel
example : ¬ Fits { exampleProcessor with data := exampleProcessor.data.take 43 }
    (processorLength exampleProcessor) := by decide

/-- C35, the full statement fails at version 2.5: the characteristics are dropped. -/
theorem C35_full_false : ¬ C35_full := by
  intro hf
  have hfit : Fits { exampleProcessor with version := ⟨2, 5⟩ }
      (processorLength { exampleProcessor with version := ⟨2, 5⟩ }) := by decide
  obtain ⟨v, hv, hn⟩ := exists_ok
    (x := Processor.try_from { exampleProcessor with version := ⟨2, 5⟩ })
    (p := fun v => decide (v.processor_characteristics = none)) (by decide +kernel)
  have h := ((hf _ v hfit).1 hv).processor_characteristics
  rw [when_pos (by decide), of_decide_eq_true hn] at h
  obtain ⟨a, ha, -⟩ := h
  exact nomatch ha

end Dmi.Props
