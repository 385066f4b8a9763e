import Verif.Props.Memory
import Verif.Proofs.Finite
import Verif.Model.S016
import Verif.Model.S017
/-!
# C47, C48: physical memory arrays (16) and memory devices (17)
-/
namespace Dmi.Props
open Spec

theorem kept_unique16 {bits : List Nat} {w : Nat} {c d : UInt16} (hc : Kept bits w c.toNat)
    (hd : Kept bits w d.toNat) : c = d :=
  UInt16.toNat_inj.1 (Nat.eq_of_testBit_eq fun i => (hc i).trans (hd i).symm)

theorem kept_and16 (bits : List Nat) (w m : UInt16) (hb : ∀ i ∈ bits, i < 16)
    (hm : ∀ i, i < 16 → m.toNat.testBit i = bits.contains i) :
    Kept bits w.toNat (w &&& m).toNat := by
  intro i
  rw [UInt16.toNat_and, Nat.testBit_and]
  congr 1
  by_cases h : i < 16
  · exact hm i h
  · rw [Nat.testBit_lt_two_pow (Nat.lt_of_lt_of_le (UInt16.toNat_lt _)
      (Nat.pow_le_pow_right (by decide) (by omega : 16 ≤ i)))]
    symm
    simp only [List.contains_eq_mem, decide_eq_false_iff_not]
    exact fun hi => h (hb i hi)

/-! ### C48 -/

section Device
open memory_device

/-- The positions of the flags of `Type Detail` and of `Operating Mode Capability`. -/
def detailBits : List Nat := [1, 2, 3, 4, 5, 6, 7, 8, 9, 10, 11, 12, 13, 14, 15]
def modeBits : List Nat := [1, 2, 3, 4, 5]

/-- The fields of a type 17 structure: each optional one is there iff the structure is long enough
to hold it and it does not have the value that means "unknown". -/
structure MemoryDeviceFields (s : RawStructure) (v : MemoryDevice) : Prop where
  handle : v.handle = s.handle
  physical_memory_handle : v.physical_memory_handle = word s 0x04
  memory_error_handle : When (word s 0x06 ≠ 0xFFFE) v.memory_error_handle (· = word s 0x06)
  total_width : When (word s 0x08 ≠ 0xFFFF) v.total_width (· = word s 0x08)
  data_width : When (word s 0x0A ≠ 0xFFFF) v.data_width (· = word s 0x0A)
  size : When (word s 0x0C ≠ 0xFFFF) v.size (· = word s 0x0C)
  form_factor : v.form_factor = FormFactor.ofU8 (byte s 0x0E)
  device_set : v.device_set = some (byte s 0x0F)
  device_locator : Ref s 0x10 v.device_locator
  bank_locator : Ref s 0x11 v.bank_locator
  memory_type : v.memory_type = MemoryType.ofU8 (byte s 0x12)
  type_detail : Kept detailBits (word s 0x13).toNat v.type_detail.bits.toNat
  speed : When (word s 0x15 ≠ 0) v.speed (· = word s 0x15)
  manufacturer : Ref s 0x17 v.manufacturer
  serial : Ref s 0x18 v.serial
  asset_tag : Ref s 0x19 v.asset_tag
  part_number : Ref s 0x1A v.part_number
  attributes : v.attributes = byte s 0x1B
  extended_size : v.extended_size = dword s 0x1C
  configured_memory_speed : When (Fits s 0x22 ∧ word s 0x20 ≠ 0) v.configured_memory_speed
    (· = word s 0x20)
  minimum_voltage : When (Fits s 0x24 ∧ word s 0x22 ≠ 0) v.minimum_voltage (· = word s 0x22)
  maximum_voltage : When (Fits s 0x26 ∧ word s 0x24 ≠ 0) v.maximum_voltage (· = word s 0x24)
  configured_voltage : When (Fits s 0x28 ∧ word s 0x26 ≠ 0) v.configured_voltage (· = word s 0x26)
  memory_technology : When (Fits s 0x29) v.memory_technology (· = MemoryTechnology.ofU8 (byte s 0x28))
  operating_mode_capability : When (Fits s 0x2B) v.operating_mode_capability
    (fun m => Kept modeBits (word s 0x29).toNat m.bits.toNat)
  firmware_version : When (Fits s 0x2C ∧ ¬ Dangling s 0x2B) v.firmware_version (Ref s 0x2B)
  module_manufacturer : When (Fits s 0x2E) v.module_manufacturer (· = word s 0x2C)
  module_product_id : When (Fits s 0x30) v.module_product_id (· = word s 0x2E)
  memory_subsystem_controller_manufacturer_id :
    When (Fits s 0x32) v.memory_subsystem_controller_manufacturer_id (· = word s 0x30)
  memory_subsystem_controller_product_id :
    When (Fits s 0x34) v.memory_subsystem_controller_product_id (· = word s 0x32)
  non_volatile_size : When (Fits s 0x3C) v.non_volatile_size (· = qword s 0x34)
  volatile_size : When (Fits s 0x44) v.volatile_size (· = qword s 0x3C)
  cache_size : When (Fits s 0x4C) v.cache_size (· = qword s 0x44)
  logical_size : When (Fits s 0x54) v.logical_size (· = qword s 0x4C)
  extended_speed : When (Fits s 0x58) v.extended_speed (· = dword s 0x54)
  extended_configured_memory_speed :
    When (Fits s 0x5C) v.extended_configured_memory_speed (· = dword s 0x58)

theorem kept_detail {w : UInt16} {c : Detail} :
    Kept detailBits w.toNat c.bits.toNat ↔ c = Detail.fromBitsTruncate w := by
  have h := kept_and16 detailBits w 0xFFFE (by decide) (by decide)
  constructor
  · intro hc
    obtain ⟨c⟩ := c
    show Detail.mk c = ⟨_⟩
    have e : c = _ := kept_unique16 hc h
    rw [e]
    rfl
  · rintro rfl; exact h

theorem kept_modes {w : UInt16} {c : OperatingModes} :
    Kept modeBits w.toNat c.bits.toNat ↔ c = OperatingModes.fromBitsTruncate w := by
  have h := kept_and16 modeBits w 0x3E (by decide) (by decide)
  constructor
  · intro hc
    obtain ⟨c⟩ := c
    show OperatingModes.mk c = ⟨_⟩
    have e : c = _ := kept_unique16 hc h
    rw [e]
    rfl
  · rintro rfl; exact h

theorem optIf_fits {α : Type} {s : RawStructure} {n : Nat} {c : Prop} [Decidable c] {a : α}
    (h : Fits s n) : optIf (Fits s n ∧ c) a = optIf c a := by
  unfold optIf; simp [h]

/-- C48: a structure of at least 20h bytes decodes to exactly the stored values. -/
theorem C48_decodes (oc : Bool) (s : RawStructure) (h : Fits s 0x20) (v : MemoryDevice) :
    MemoryDevice.try_from oc s = .ok v ↔ MemoryDeviceFields s v := by
  unfold MemoryDevice.try_from
  rw [if_neg (by unfold Fits at h; omega)]
  access_eval oc h [optIf_fits (fits_mono h (by decide : 0x06 + 2 ≤ 0x20)),
    optIf_fits (fits_mono h (by decide : 0x08 + 2 ≤ 0x20)),
    optIf_fits (fits_mono h (by decide : 0x0A + 2 ≤ 0x20)),
    optIf_fits (fits_mono h (by decide : 0x0C + 2 ≤ 0x20)),
    optIf_fits (fits_mono h (by decide : 0x15 + 2 ≤ 0x20))]
  access_iff v [kept_detail, kept_modes]

/-- C48: such a structure can only be rejected for a reference to a missing string. -/
theorem C48_rejects (oc : Bool) (s : RawStructure) (h : Fits s 0x20) :
    ErrOnly (BadRef s [0x10, 0x11, 0x17, 0x18, 0x19, 0x1A]) (MemoryDevice.try_from oc s) := by
  unfold MemoryDevice.try_from
  rw [if_neg (by unfold Fits at h; omega)]
  access_eval oc h
  err_only

/-- C48: below 15h bytes a structure is rejected for its length; from there to 1Fh bytes it is
rejected as well, for an access beyond its end or a dangling reference. -/
theorem C48_short (oc : Bool) (s : RawStructure) :
    (¬ Fits s 0x15 → MemoryDevice.try_from oc s =
      .err (.InvalidFormattedSectionLength .MemoryDevice s.handle "at least" 0x15)) ∧
    (Fits s 0x15 → ¬ Fits s 0x20 → ∃ e, MemoryDevice.try_from oc s = .err e ∧
      BadAccess s [0x10, 0x11, 0x17, 0x18, 0x19, 0x1A] e) := by
  unfold MemoryDevice.try_from
  constructor
  · intro h
    rw [if_pos (by unfold Fits at h; omega)]
  · intro h1 h
    rw [if_neg (by unfold Fits at h1; omega)]
    apply err_of_not_ok
    · access_only
    · intro v hv
      simp (disch := decide) only [bind_ok_iff, get16_opt, get32_iff] at hv
      obtain ⟨_, -, _, -, _, -, _, -, _, -, _, -, _, -, _, -, _, -, _, -, _, -, _, -, _, -, _, -, _,
        -, _, -, _, -, _, hr, -⟩ := hv
      exact h hr.1

/-- C48, full statement: also the structures of version 2.1 to 2.6, of at least 15h bytes, decode
if their references exist. -/
def C48_full : Prop := ∀ (oc : Bool) (s : RawStructure), Fits s 0x15 →
  (∀ o, 4 ≤ o → Fits s (o + 1) → ¬ Dangling s o) → ∃ v, MemoryDevice.try_from oc s = .ok v

/-- A memory device as of version 2.1 (15h bytes), 2.3 (1Bh) or 2.7 (22h). -/
def exampleMemoryDevice (n : Nat) : RawStructure where
  version := ⟨2, 7⟩
  info := .MemoryDevice
  length := .ofNat (n + 4)
  handle := 0x1100
  data := ([0x00, 0x10, 0xFE, 0xFF, 72, 0, 64, 0, 0, 0x20, 9, 0, 1, 0, 0x18, 0x80, 0x20, 0, 0, 1, 0,
    0, 0, 1, 0, 0, 0, 0, 0x35, 0x05] : Bytes).take n
  strings := ascii "DIMM 0" ++ [0, 0]

example : Fits (exampleMemoryDevice 30) 0x20 := by decide
example : (MemoryDevice.try_from true (exampleMemoryDevice 30)).okAnd (fun v =>
    v.memory_error_handle = none ∧ v.total_width = some 72 ∧ v.size = some 0x2000 ∧
    v.device_locator = ascii "DIMM 0" ∧ v.memory_type = .Ddr3 ∧
    v.configured_memory_speed = some 0x0535 ∧ v.minimum_voltage = none) = true := by decide +kernel

/-- A structure of 15h bytes none of which is a dangling reference. -/
def memoryDevice21 : RawStructure where
  version := ⟨2, 1⟩
  info := .MemoryDevice
  length := 0x15
  handle := 0x1100
  data := List.replicate 17 0
  strings := [0, 0]

/-- C48, the full statement fails: the decoder demands fields of later versions. -/
theorem C48_full_false : ¬ C48_full := by
  intro hf
  obtain ⟨v, hv⟩ := hf true memoryDevice21 (by decide) (by
    intro o h4 hfit hd
    have h0 : byte memoryDevice21 o = 0 := by
      have hfit : o + 1 ≤ 17 + 4 := hfit
      have : ∀ o, o < 21 → 4 ≤ o → byte memoryDevice21 o = 0 := by decide
      exact this o (by omega) h4
    refine hd [] (ref_iff.2 ?_)
    rw [h0]
    rfl)
  have : MemoryDevice.try_from true memoryDevice21 = .err .InvalidSlice := by decide +kernel
  rw [this] at hv
  cases hv

end Device

/-! ### C47 -/

section Array
open physical_memory_array

/-- The fields of a type 16 structure, the extended capacity being one from version `a.b` on. -/
structure MemoryArrayFields (a b : Nat) (s : RawStructure) (v : PhysicalMemoryArray) : Prop where
  handle : v.handle = s.handle
  location : v.location = MemoryArrayLocation.ofU8 (byte s 0x04)
  use : v.use = MemoryArrayUse.ofU8 (byte s 0x05)
  memory_error_correction :
    v.memory_error_correction = MemoryArrayErrorCorrectionTypes.ofU8 (byte s 0x06)
  maximum_capacity : When (dword s 0x07 ≠ 0x80000000) v.maximum_capacity (· = dword s 0x07)
  memory_error_information_handle :
    When (word s 0x0B ≠ 0xFFFE) v.memory_error_information_handle (· = word s 0x0B)
  number_of_memory_devices : v.number_of_memory_devices = word s 0x0D
  extended_maximum_capacity :
    When (Since s a b ∧ dword s 0x07 = 0x80000000 ∧ qword s 0x0F ≠ 0)
      v.extended_maximum_capacity (· = qword s 0x0F)

theorem indexRange_eq {ε : Type} (d : Bytes) (o w : Nat) : (indexRange d o (o + w) : Res ε Bytes) =
    if o + w ≤ d.length then .ok (bytesAt d o w) else .panic := by
  unfold indexRange getRange
  by_cases h : o + w ≤ d.length
  · rw [if_pos h, if_pos (by omega), Nat.add_sub_cancel_left, take_eq_bytesAt _ _ _ h]
  · rw [if_neg h, if_neg (by omega)]

theorem indexAt_eq {ε : Type} (d : Bytes) (o : Nat) : (indexAt d o : Res ε UInt8) =
    if o < d.length then .ok (byteAt d o) else .panic := by
  unfold indexAt
  by_cases h : o < d.length
  · rw [if_pos h, List.getElem?_eq_getElem h, byteAt_eq h]
  · rw [if_neg h, List.getElem?_eq_none (by omega)]

theorem get_word_eq (d : Bytes) (o : Nat) : get_word o d =
    if o + 2 ≤ d.length then .ok (u16At d o, o + 2) else .panic := by
  unfold get_word
  rw [indexRange_eq]
  split
  · simp [le16, leNat_bytesAt, u16At]
  · rfl

theorem get_optional_dword_eq (d : Bytes) (o : Nat) (k : UInt32) : get_optional_dword o d k =
    if o + 4 ≤ d.length then .ok (optIf (u32At d o ≠ k) (u32At d o), o + 4) else .panic := by
  unfold get_optional_dword get_dword
  rw [indexRange_eq]
  split
  · simp only [ok_bind, pure_eq_ok, le32, leNat_bytesAt, optIf]
    rw [show UInt32.ofNat (leAt d o 4) = u32At d o from rfl]
    by_cases h : u32At d o = k <;> simp [h]
  · rfl

theorem get_optional_word_eq (d : Bytes) (o : Nat) (k : UInt16) : get_optional_word o d k =
    if o + 2 ≤ d.length then .ok (optIf (u16At d o ≠ k) (u16At d o), o + 2) else .panic := by
  unfold get_optional_word
  rw [get_word_eq]
  split
  · simp only [ok_bind, pure_eq_ok, optIf]
    by_cases h : u16At d o = k <;> simp [h]
  · rfl

theorem get_optional_qword_eq (d : Bytes) (o : Nat) (k : UInt64) : get_optional_qword o d k =
    if o + 8 ≤ d.length then .ok (optIf (u64At d o ≠ k) (u64At d o), o + 8) else .panic := by
  unfold get_optional_qword get_qword
  rw [indexRange_eq]
  split
  · simp only [ok_bind, pure_eq_ok, le64, leNat_bytesAt, optIf]
    rw [show UInt64.ofNat (leAt d o 8) = u64At d o from rfl]
    by_cases h : u64At d o = k <;> simp [h]
  · rfl

/-- The fields filled in for versions after 2.1. -/
def filled (s : RawStructure) : PhysicalMemoryArray where
  handle := s.handle
  location := MemoryArrayLocation.ofU8 (byte s 0x04)
  use := MemoryArrayUse.ofU8 (byte s 0x05)
  memory_error_correction := MemoryArrayErrorCorrectionTypes.ofU8 (byte s 0x06)
  maximum_capacity := optIf (dword s 0x07 ≠ 0x80000000) (dword s 0x07)
  memory_error_information_handle := optIf (word s 0x0B ≠ 0xFFFE) (word s 0x0B)
  number_of_memory_devices := word s 0x0D
  extended_maximum_capacity := none

/-- The same with an extended capacity. -/
def withExtended (s : RawStructure) (x : Option UInt64) : PhysicalMemoryArray :=
  { filled s with extended_maximum_capacity := x }

theorem fill_ok {s : RawStructure} (h : Fits s 0x0F) (hv : Since s 2 2) :
    fill2_1 s {} 0 = .ok (filled s, 11) := by
  have h : 11 ≤ s.data.length := by unfold Fits at h; omega
  unfold fill2_1
  rw [if_pos (gt_pos hv)]
  simp only [indexAt_eq, get_word_eq, get_optional_dword_eq, get_optional_word_eq]
  simp (disch := omega) only [if_pos, ok_bind]
  rfl

theorem fill_bad {s : RawStructure} (h : ¬ Fits s 0x0F) (hv : Since s 2 2) :
    fill2_1 s {} 0 = .panic := by
  have h : ¬ 11 ≤ s.data.length := by unfold Fits at h; omega
  unfold fill2_1
  rw [if_pos (gt_pos hv)]
  simp only [indexAt_eq, get_word_eq, get_optional_dword_eq, get_optional_word_eq]
  by_cases h1 : 0 < s.data.length
  rotate_left
  · rw [if_neg h1, panic_bind]
  rw [if_pos h1, ok_bind]
  by_cases h2 : 0 + 1 < s.data.length
  rotate_left
  · rw [if_neg h2, panic_bind]
  rw [if_pos h2, ok_bind]
  by_cases h3 : 0 + 1 + 1 < s.data.length
  rotate_left
  · rw [if_neg h3, panic_bind]
  rw [if_pos h3, ok_bind]
  by_cases h4 : 0 + 1 + 1 + 1 + 4 ≤ s.data.length
  rotate_left
  · rw [if_neg h4, panic_bind]
  rw [if_pos h4, ok_bind]
  by_cases h5 : 0 + 1 + 1 + 1 + 4 + 2 ≤ s.data.length
  rotate_left
  · rw [if_neg h5, panic_bind]
  rw [if_pos h5, ok_bind]
  rw [if_neg (by omega), panic_bind]

/-- The structure is long enough for everything the decoder reads. -/
def ArrayFits (s : RawStructure) : Prop :=
  Fits s 0x0F ∧ (Since s 2 8 → dword s 0x07 = 0x80000000 → Fits s 0x17)

instance (s : RawStructure) : Decidable (ArrayFits s) := inferInstanceAs (Decidable (_ ∧ _))

/-- C47: what the decoder does from version 2.2 on: the extended capacity is read from 2.8 on
only. -/
theorem C47_decodes (s : RawStructure) (hv : Since s 2 2) (h : ArrayFits s)
    (v : PhysicalMemoryArray) :
    PhysicalMemoryArray.try_from s = .ok v ↔ MemoryArrayFields 2 8 s v := by
  unfold PhysicalMemoryArray.try_from
  rw [fill_ok h.1 hv, ok_bind]
  have hfin : ∀ w : PhysicalMemoryArray, w = withExtended s
      (optIf (Since s 2 8 ∧ dword s 0x07 = 0x80000000 ∧ qword s 0x0F ≠ 0) (qword s 0x0F)) →
      ((.ok w : R PhysicalMemoryArray) = .ok v ↔ MemoryArrayFields 2 8 s v) := by
    rintro w rfl
    constructor
    · intro he
      injection he with he
      subst he
      exact ⟨rfl, rfl, rfl, rfl, when_eq.2 rfl, when_eq.2 rfl, rfl, when_eq.2 rfl⟩
    · intro hf
      cases v
      cases hf
      simp only [when_eq, withExtended, filled] at *
      subst_vars
      rfl
  have hnone : (filled s).maximum_capacity.isNone = decide (dword s 0x07 = 0x80000000) := by
    by_cases h : dword s 0x07 = 0x80000000 <;> simp [filled, optIf, h]
  by_cases h28 : Since s 2 8
  · simp only [gt_pos h28, if_true]
    by_cases hd : dword s 0x07 = 0x80000000
    · rw [hnone, if_pos (by simp [hd])]
      have hf := h.2 h28 hd
      rw [get_optional_qword_eq, if_pos (by unfold Fits at hf; omega), ok_bind]
      apply hfin
      simp [h28, hd, withExtended]
      rfl
    · rw [hnone, if_neg (by simp [hd])]
      apply hfin
      simp [hd, optIf, withExtended]
  · simp only [if_neg (gt_neg h28)]
    apply hfin
    simp [h28, optIf, withExtended, filled]

/-- C47: with fewer bytes than it reads the decoder panics. -/
theorem C47_short (s : RawStructure) (hv : Since s 2 2) (h : ¬ ArrayFits s) :
    PhysicalMemoryArray.try_from s = .panic := by
  unfold PhysicalMemoryArray.try_from
  by_cases hf : Fits s 0x0F
  · have h' : Since s 2 8 ∧ dword s 0x07 = 0x80000000 ∧ ¬ Fits s 0x17 := by
      apply Decidable.byContradiction
      intro hn
      refine h ⟨hf, fun h1 h2 => Decidable.byContradiction fun h3 => hn ⟨h1, h2, h3⟩⟩
    obtain ⟨h28, hd, hn⟩ := h'
    rw [fill_ok hf hv, ok_bind]
    simp only [gt_pos h28, if_true]
    have hnone : (filled s).maximum_capacity.isNone = true := by simp [filled, optIf, hd]
    rw [if_pos hnone, get_optional_qword_eq, if_neg (by unfold Fits at hn; omega), panic_bind]
  · rw [fill_bad hf hv, panic_bind]

/-- C47: up to version 2.1 nothing is decoded: the result is the default value, whatever the
contents. -/
theorem C47_old (s : RawStructure) (hv : ¬ Since s 2 2) :
    PhysicalMemoryArray.try_from s = .ok
      ⟨0, .Unknown, .Unknown, .Unknown, none, none, 0, none⟩ := by
  unfold PhysicalMemoryArray.try_from fill2_1
  rw [if_neg (gt_neg hv)]
  simp only [pure_eq_ok, ok_bind]
  rw [if_neg (gt_neg (fun h => hv (since_mono h (by decide))))]

/-- C47, full statement: from version 2.1 on a long enough structure decodes to exactly the stored
values, the extended capacity being one from 2.7 on. -/
def C47_full : Prop := ∀ (s : RawStructure), Since s 2 1 →
  Fits s (if Since s 2 7 then 0x17 else 0x0F) → ∀ v : PhysicalMemoryArray,
    PhysicalMemoryArray.try_from s = .ok v ↔ MemoryArrayFields 2 7 s v

/-- C47: the full statement holds for all versions but 2.1 and 2.7. -/
theorem C47_decodes_partial (s : RawStructure) (h22 : Since s 2 2) (h27 : Since s 2 7 → Since s 2 8)
    (h : Fits s (if Since s 2 7 then 0x17 else 0x0F)) (v : PhysicalMemoryArray) :
    PhysicalMemoryArray.try_from s = .ok v ↔ MemoryArrayFields 2 7 s v := by
  have hf : ArrayFits s := by
    by_cases h7 : Since s 2 7
    · rw [if_pos h7] at h
      exact ⟨fits_mono h (by decide), fun _ _ => h⟩
    · rw [if_neg h7] at h
      exact ⟨h, fun h8 => absurd (since_mono h8 (by decide)) h7⟩
  have hiff : Since s 2 7 ↔ Since s 2 8 := ⟨h27, fun h => since_mono h (by decide)⟩
  rw [C47_decodes s h22 hf v]
  constructor
  · intro ⟨a, b, c, d, e, f, g, i⟩
    exact ⟨a, b, c, d, e, f, g, by rwa [hiff]⟩
  · intro ⟨a, b, c, d, e, f, g, i⟩
    exact ⟨a, b, c, d, e, f, g, by rwa [← hiff]⟩

/-- A memory array with extended capacity. -/
def exampleMemoryArray (v : SmbiosVersion) : RawStructure where
  version := v
  info := .PhysicalMemoryArray
  length := 0x17
  handle := 0x1000
  data := [3, 3, 5, 0, 0, 0, 0x80, 0xFE, 0xFF, 4, 0, 0, 0, 0, 0, 0, 4, 0, 0]
  strings := [0, 0]

example : Since (exampleMemoryArray ⟨3, 0⟩) 2 2 ∧ ArrayFits (exampleMemoryArray ⟨3, 0⟩) := by decide
example : PhysicalMemoryArray.try_from (exampleMemoryArray ⟨3, 0⟩) = .ok
    ⟨0x1000, .SystemBoardOrMotherboard, .SystemMemory, .SingleBitEcc, none, none, 4,
      some 0x40000000000⟩ := by decide +kernel
example : ¬ ArrayFits { exampleMemoryArray ⟨3, 0⟩ with data := [3, 3, 5] } := by decide

/-- C47, the full statement fails, at version 2.1 and at version 2.7. -/
theorem C47_full_false : ¬ C47_full := by
  intro hf
  have h := hf (exampleMemoryArray ⟨2, 1⟩) (by decide) (by decide)
  rw [C47_old _ (by decide)] at h
  have := ((h _).1 rfl).handle
  exact absurd this (by decide)

/-- C47: at version 2.7 the extended capacity is lost. -/
theorem C47_2_7_false : ∃ s, s.version = ⟨2, 7⟩ ∧ Fits s 0x17 ∧ dword s 0x07 = 0x80000000 ∧
    qword s 0x0F ≠ 0 ∧
    ∃ v, PhysicalMemoryArray.try_from s = .ok v ∧ v.extended_maximum_capacity = none :=
  ⟨exampleMemoryArray ⟨2, 7⟩, rfl, by decide, by decide +kernel, by decide +kernel,
    ⟨0x1000, .SystemBoardOrMotherboard, .SystemMemory, .SingleBitEcc, none, none, 4, none⟩,
    by decide +kernel, rfl⟩

end Array

/-- Both cases of `C48_short` occur. -/
example : ¬ Fits (exampleMemoryDevice 10) 0x15 ∧ Fits (exampleMemoryDevice 20) 0x15 ∧
    ¬ Fits (exampleMemoryDevice 20) 0x20 := by decide

/-- The hypotheses of `C47_decodes_partial` and of `C47_old` can be met. -/
example : (Since (exampleMemoryArray ⟨3, 0⟩) 2 2 ∧
      (Since (exampleMemoryArray ⟨3, 0⟩) 2 7 → Since (exampleMemoryArray ⟨3, 0⟩) 2 8) ∧
      Fits (exampleMemoryArray ⟨3, 0⟩) 0x17) ∧
    ¬ Since (exampleMemoryArray ⟨2, 1⟩) 2 2 := by decide

end Dmi.Props
