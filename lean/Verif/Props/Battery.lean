import Verif.Props.Memory
import Verif.Proofs.Finite
import Verif.Model.S022
/-!
# C52: portable batteries (type 22)
-/
namespace Dmi.Props
open Spec portable_battery

/-- A non-zero reference at `o` to the string `x`. -/
def Named (s : RawStructure) (o : Nat) (x : Str) : Prop := byte s o ≠ 0 ∧ Ref s o x

/-- The date is the named string, or else the packed date at 12h if there is one: the year since
1980 in bits 15:9, the month in bits 8:5, the day in bits 4:0. -/
def DateIs (s : RawStructure) (d : ManufactureDate) : Prop :=
  (∃ x, Named s 0x06 x ∧ d = .Basic x) ∨
  ((∀ x, ¬ Named s 0x06 x) ∧ Fits s 0x14 ∧
    ∃ y m day, d = .SmartBatteryDataSpecification y m day ∧
      y.toNat = 1980 + (word s 0x12).toNat / 512 ∧ m.toNat = (word s 0x12).toNat / 32 % 16 ∧
      day.toNat = (word s 0x12).toNat % 32) ∨
  ((∀ x, ¬ Named s 0x06 x) ∧ ¬ Fits s 0x14 ∧ d = .None)

/-- The serial number is the named string, or else the word at 10h if there is one. -/
def SerialIs (s : RawStructure) (d : SerialNumber) : Prop :=
  (∃ x, Named s 0x07 x ∧ d = .Basic x) ∨
  ((∀ x, ¬ Named s 0x07 x) ∧ Fits s 0x12 ∧ d = .SmartBatteryDataSpecification (word s 0x10)) ∨
  ((∀ x, ¬ Named s 0x07 x) ∧ ¬ Fits s 0x12 ∧ d = .None)

/-- Names of chemistry codes. -/
def chemistries : List (Nat × DeviceChemistry) :=
  [(1, .Other), (3, .LeadAcid), (4, .NickelCadmium), (5, .NickelMetalHydride), (6, .LithiumIon),
   (7, .ZincAir), (8, .LithiumPolymer)]

/-- The chemistry: code 02h refers to the string at 14h, if there is one; the others are names. -/
def ChemistryIs (s : RawStructure) (c : DeviceChemistry) : Prop :=
  if byte s 0x09 = 2 then
    (∃ x, Fits s 0x15 ∧ Ref s 0x14 x ∧ c = .SmartBatteryDataSpecification x) ∨
    (¬ (Fits s 0x15 ∧ ¬ Dangling s 0x14) ∧ c = .Unknown)
  else c = ((chemistries.lookup (byte s 0x09).toNat).getD (.Undefined (byte s 0x09)))

/-- The capacity: 0 means unknown, the multiplier is 1 if there is none. -/
def CapacityIs (s : RawStructure) (c : DesignCapacity) : Prop :=
  c = if word s 0x0A = 0 then .Unknown
    else .Data (word s 0x0A) (if Fits s 0x16 then byte s 0x15 else 1)

/-- The fields of a type 22 structure. -/
structure BatteryFields (s : RawStructure) (v : PortableBattery) : Prop where
  handle : v.handle = s.handle
  location : Ref s 0x04 v.location
  manufacturer : Ref s 0x05 v.manufacturer
  manufacture_date : DateIs s v.manufacture_date
  serial_number : SerialIs s v.serial_number
  device_name : Ref s 0x08 v.device_name
  device_chemistry : ChemistryIs s v.device_chemistry
  design_capacity : CapacityIs s v.design_capacity
  design_voltage : v.design_voltage = word s 0x0C
  sbds_version_number : Ref s 0x0E v.sbds_version_number
  maximum_error_in_battery_data : v.maximum_error_in_battery_data = byte s 0x0F
  oem_specific : When (Fits s 0x1A) v.oem_specific (· = dword s 0x16)

/-! #### Evaluation -/

def namedAt (s : RawStructure) (o : Nat) : Option Str :=
  if byte s o = 0 then none
  else match s.find_string (byte s o) with
    | .ok x => some x
    | _ => none

theorem namedAt_some {s : RawStructure} {o : Nat} {x : Str} :
    namedAt s o = some x ↔ Named s o x := by
  unfold namedAt Named
  by_cases h : byte s o = 0
  · simp [h]
  · rw [if_neg h, ref_iff]
    rcases find_string_cases s (byte s o) with ⟨str, hs⟩ | ⟨-, hs⟩ <;> rw [hs] <;> simp [h]

theorem namedAt_none {s : RawStructure} {o : Nat} :
    namedAt s o = none ↔ ∀ x, ¬ Named s o x := by
  rw [Option.eq_none_iff_forall_ne_some]
  simp only [ne_eq, namedAt_some]

theorem optString_eval {s : RawStructure} {n o : Nat} (oc : Bool) (hf : Fits s n) (h4 : 4 ≤ o)
    (hn : o + 1 ≤ n) (hm : o < 2 ^ 16) : optString oc s o = .ok (namedAt s o) := by
  unfold optString namedAt
  rw [get8_opt oc h4 hm, ok_bind, optIf_filter]
  by_cases h : byte s o = 0
  · simp [optIf, h]
  · rw [optIf, if_pos ⟨fits_mono hf hn, h⟩, if_neg h]
    simp only
    rcases find_string_cases s (byte s o) with ⟨str, hs⟩ | ⟨-, hs⟩ <;> rw [hs] <;> rfl

theorem date_parts (w : UInt16) :
    (((w &&& 0b1111_1110_0000_0000) >>> 9) + 1980).toNat = 1980 + w.toNat / 512 ∧
    ((w &&& 0b0000_0001_1110_0000) >>> 5).toUInt8.toNat = w.toNat / 32 % 16 ∧
    (w &&& 0b0000_0000_0001_1111).toUInt8.toNat = w.toNat % 32 := by
  have hw := w.toNat_lt
  have a : (w &&& 0b1111_1110_0000_0000).toNat = w.toNat / 512 * 512 := by
    rw [UInt16.toNat_and]
    show w.toNat &&& 0xFE00 = _
    apply Nat.eq_of_testBit_eq
    intro i
    rw [Nat.testBit_and, show 512 = 2 ^ 9 from rfl, Nat.mul_comm, Nat.testBit_two_pow_mul,
      Nat.testBit_div_two_pow]
    by_cases h : i < 16
    · have : ∀ i, i < 16 → (0xFE00 : Nat).testBit i = decide (9 ≤ i) := by decide
      rw [this i h]
      by_cases h9 : 9 ≤ i
      · simp [h9]
      · simp [h9]
    · have : w.toNat.testBit i = false := Nat.testBit_lt_two_pow
        (Nat.lt_of_lt_of_le hw (Nat.pow_le_pow_right (by decide) (by omega : 16 ≤ i)))
      by_cases h9 : 9 ≤ i <;> simp [this, h9]
  have b : (w &&& 0b0000_0001_1110_0000).toNat = w.toNat / 32 % 16 * 32 := by
    rw [UInt16.toNat_and]
    show w.toNat &&& 0x1E0 = _
    apply Nat.eq_of_testBit_eq
    intro i
    rw [Nat.testBit_and, show 32 = 2 ^ 5 from rfl, show 16 = 2 ^ 4 from rfl, Nat.mul_comm,
      Nat.testBit_two_pow_mul, Nat.testBit_mod_two_pow, Nat.testBit_div_two_pow]
    by_cases h : i < 16
    · have : ∀ i, i < 16 → (0x1E0 : Nat).testBit i = decide (5 ≤ i ∧ i < 9) := by decide
      rw [this i h]
      by_cases h5 : 5 ≤ i
      · by_cases h9 : i < 9
        · simp [h5, h9, show i - 5 < 4 by omega]
        · simp [h5, h9, show ¬ i - 5 < 4 by omega]
      · simp [h5]
    · have : w.toNat.testBit i = false := Nat.testBit_lt_two_pow
        (Nat.lt_of_lt_of_le hw (Nat.pow_le_pow_right (by decide) (by omega : 16 ≤ i)))
      by_cases h5 : 5 ≤ i <;> simp [this, h5]
  have c : (w &&& 0b0000_0000_0001_1111).toNat = w.toNat % 32 := by
    rw [UInt16.toNat_and]
    exact Nat.and_two_pow_sub_one_eq_mod w.toNat 5
  refine ⟨?_, ?_, ?_⟩
  · rw [UInt16.toNat_add, UInt16.toNat_shiftRight, a]
    rw [show (9 : UInt16).toNat % 16 = 9 from rfl, show (1980 : UInt16).toNat = 1980 from rfl,
      Nat.shiftRight_eq_div_pow]
    omega
  · rw [UInt16.toNat_toUInt8, UInt16.toNat_shiftRight, b]
    rw [show (5 : UInt16).toNat % 16 = 5 from rfl, Nat.shiftRight_eq_div_pow]
    omega
  · rw [UInt16.toNat_toUInt8, c]
    omega

theorem date_iff {s : RawStructure} {d : ManufactureDate} : DateIs s d ↔
    d = ManufactureDate.new (namedAt s 0x06) (optIf (Fits s (0x12 + 2)) (word s 0x12)) := by
  unfold DateIs
  rw [← namedAt_none]
  simp only [← namedAt_some]
  cases hx : namedAt s 0x06 with
  | some x => simp [ManufactureDate.new]
  | none =>
    by_cases hf : Fits s 0x14
    · obtain ⟨h1, h2, h3⟩ := date_parts (word s 0x12)
      simp only [optIf, hf, ManufactureDate.new, reduceCtorEq, false_and, exists_false, false_or,
        true_and, not_true_eq_false, or_false, if_true]
      constructor
      · rintro ⟨y, m, day, rfl, a, b, c⟩
        rw [UInt16.toNat_inj.1 (a.trans h1.symm), UInt8.toNat_inj.1 (b.trans h2.symm),
          UInt8.toNat_inj.1 (c.trans h3.symm)]
      · intro h; exact ⟨_, _, _, h, h1, h2, h3⟩
    · simp [optIf, hf, ManufactureDate.new]

theorem serial_iff {s : RawStructure} {d : SerialNumber} : SerialIs s d ↔
    d = SerialNumber.new (namedAt s 0x07) (optIf (Fits s (0x10 + 2)) (word s 0x10)) := by
  unfold SerialIs
  rw [← namedAt_none]
  simp only [← namedAt_some]
  cases hx : namedAt s 0x07 with
  | some x => simp [SerialNumber.new]
  | none =>
    by_cases hf : Fits s 0x12
    · simp [optIf, hf, SerialNumber.new]
    · simp [optIf, hf, SerialNumber.new]

theorem chemistry_names : ∀ b : UInt8, b ≠ 2 → ∀ x, DeviceChemistry.new b x =
    ((chemistries.lookup b.toNat).getD (.Undefined b)) := by
  have h : ∀ b : UInt8, b ≠ 2 → DeviceChemistry.new b none =
      ((chemistries.lookup b.toNat).getD (.Undefined b)) := forall_u8 (by decide +kernel)
  intro b hb x
  rw [← h b hb]
  unfold DeviceChemistry.new
  simp only [if_neg hb]

theorem chemistry_iff {s : RawStructure} {c : DeviceChemistry} : ChemistryIs s c ↔
    c = DeviceChemistry.new (byte s 0x09) (stringAt s 0x14) := by
  unfold ChemistryIs
  by_cases hb : byte s 0x09 = 2
  · rw [if_pos hb, hb]
    have hw := (when_string (s := s) (o := 0x14) (x := stringAt s 0x14)).2 rfl
    rcases hw with ⟨h1, x, hx, hr⟩ | ⟨h1, hx⟩
    · rw [hx]
      constructor
      · rintro (⟨y, hy1, hy2, rfl⟩ | ⟨hn, -⟩)
        · rw [ref_iff] at hr hy2
          rw [hr] at hy2
          injection hy2 with e
          rw [e]
          rfl
        · exact absurd h1 hn
      · intro h; exact .inl ⟨x, h1.1, hr, h⟩
    · rw [hx]
      constructor
      · rintro (⟨y, hy1, hy2, -⟩ | ⟨-, rfl⟩)
        · exact absurd ⟨hy1, fun hd => hd y hy2⟩ h1
        · rfl
      · intro h; exact .inr ⟨h1, h⟩
  · rw [if_neg hb, chemistry_names _ hb]

theorem capacity_iff {s : RawStructure} {c : DesignCapacity} : CapacityIs s c ↔
    c = DesignCapacity.new (word s 0x0A) (optIf (Fits s (0x15 + 1)) (byte s 0x15)) := by
  unfold CapacityIs DesignCapacity.new optIf
  by_cases h : Fits s 0x16 <;> simp [h]

/-! ### C52 -/

/-- The length byte is the one required for the version. -/
def BatteryLength (s : RawStructure) : Prop :=
  (s.version = ⟨2, 1⟩ → s.length = 0x10) ∧ (Since s 2 2 → s.length = 0x1A)

/-- C52: a structure of the right length decodes to exactly the stored values. -/
theorem C52_decodes (oc : Bool) (s : RawStructure) (hl : BatteryLength s) (h : Fits s 0x10)
    (v : PortableBattery) : PortableBattery.try_from oc s = .ok v ↔ BatteryFields s v := by
  unfold PortableBattery.try_from
  rw [if_neg (fun hn => hn.2 (hl.1 hn.1)),
    if_neg (fun hn => hn.2 (hl.2 ((ge_iff (by decide) (by decide)).1 hn.1)))]
  access_eval oc h [optString_eval oc h]
  access_iff v [date_iff, serial_iff, chemistry_iff, capacity_iff]

/-- C52: every structure the decoder rejects, and why. -/
theorem C52_rejects (oc : Bool) (s : RawStructure) :
    (s.version = ⟨2, 1⟩ → s.length ≠ 0x10 → PortableBattery.try_from oc s =
      .err (.InvalidFormattedSectionLength .PortableBattery s.handle "" 0x10)) ∧
    (Since s 2 2 → s.length ≠ 0x1A → PortableBattery.try_from oc s =
      .err (.InvalidFormattedSectionLength .PortableBattery s.handle "" 0x1A)) ∧
    (BatteryLength s → Fits s 0x10 →
      ErrOnly (BadRef s [0x04, 0x05, 0x08, 0x0E]) (PortableBattery.try_from oc s)) ∧
    (BatteryLength s → ¬ Fits s 0x10 → ∃ e, PortableBattery.try_from oc s = .err e ∧
      BadAccess s [0x04, 0x05, 0x08, 0x0E] e) := by
  unfold PortableBattery.try_from
  refine ⟨?_, ?_, ?_, ?_⟩
  · intro h1 h2
    rw [if_pos ⟨h1, h2⟩]
  · intro h1 h2
    rw [if_neg, if_pos ⟨ge_pos h1, h2⟩]
    rintro ⟨h3, -⟩
    have : ¬ Since s 2 2 := by unfold Since; rw [h3]; decide
    exact this h1
  · intro hl h
    rw [if_neg (fun hn => hn.2 (hl.1 hn.1)),
      if_neg (fun hn => hn.2 (hl.2 ((ge_iff (by decide) (by decide)).1 hn.1)))]
    access_eval oc h [optString_eval oc h]
    err_only
  · intro hl h
    rw [if_neg (fun hn => hn.2 (hl.1 hn.1)),
      if_neg (fun hn => hn.2 (hl.2 ((ge_iff (by decide) (by decide)).1 hn.1)))]
    have key : ∀ o, 4 ≤ o → o < 2 ^ 16 →
        ErrOnly (BadAccess s [0x04, 0x05, 0x08, 0x0E]) (optString oc s o) := by
      intro o h4 hm
      by_cases hf : Fits s (o + 1)
      · rw [optString_eval oc hf h4 (Nat.le_refl _) hm]; exact .ok _
      · unfold optString
        rw [get8_opt oc h4 hm, optIf, if_neg hf]
        exact .ok none
    apply err_of_not_ok
    · simp (disch := decide) only [ok_bind, get8_opt, get16_opt, get32_opt, get_string_opt]
      refine .bind (.get_string (by decide) (by decide) (by decide)) fun _ _ =>
        .bind (.get_string (by decide) (by decide) (by decide)) fun _ _ =>
        .bind (key _ (by decide) (by decide)) fun _ _ =>
        .bind (key _ (by decide) (by decide)) fun _ _ => ?_
      access_only
    · intro v hv
      simp (disch := decide) only [bind_ok_iff, get8_iff] at hv
      obtain ⟨_, -, _, -, _, -, _, -, _, -, _, -, _, -, _, -, _, -, _, -, _, -, _, -, _, -, _, hr,
        -⟩ := hv
      exact h hr.1

/-- C52, full statement for the capacity in mWh. -/
def C52_capacity_full : Prop := ∀ (oc : Bool) (c : DesignCapacity), ∃ r : UInt64,
  c.toU64 oc = .ok r ∧
  r.toNat = match c with
    | .Unknown => 0
    | .Data value multiplier => value.toNat * multiplier.toNat

/-- C52: the full statement holds up to 65535 mWh. -/
theorem C52_capacity_partial (oc : Bool) (value : UInt16) (multiplier : UInt8)
    (h : value.toNat * multiplier.toNat < 65536) :
    (∃ r : UInt64, (DesignCapacity.Data value multiplier).toU64 oc = .ok r ∧
      r.toNat = value.toNat * multiplier.toNat) ∧
    DesignCapacity.Unknown.toU64 oc = .ok 0 := by
  refine ⟨⟨(value * multiplier.toUInt16).toUInt64, ?_, ?_⟩, rfl⟩
  · unfold DesignCapacity.toU64 mulU16
    simp only [UInt8.toNat_toUInt16]
    rw [if_pos h]
    rfl
  · simp only [UInt16.toNat_toUInt64, UInt16.toNat_mul, UInt8.toNat_toUInt16]
    omega

/-- C52: above, the conversion panics under overflow checks and is reduced modulo 65536
otherwise. -/
theorem C52_capacity_overflow (value : UInt16) (multiplier : UInt8)
    (h : 65536 ≤ value.toNat * multiplier.toNat) :
    (DesignCapacity.Data value multiplier).toU64 true = .panic ∧
    ∃ r : UInt64, (DesignCapacity.Data value multiplier).toU64 false = .ok r ∧
      r.toNat = value.toNat * multiplier.toNat % 65536 := by
  refine ⟨?_, (value * multiplier.toUInt16).toUInt64, ?_, ?_⟩
  · unfold DesignCapacity.toU64 mulU16
    simp only [UInt8.toNat_toUInt16]
    rw [if_neg (by omega)]
    rfl
  · unfold DesignCapacity.toU64 mulU16
    simp only [UInt8.toNat_toUInt16]
    rw [if_neg (by omega)]
    rfl
  · simp only [UInt16.toNat_toUInt64, UInt16.toNat_mul, UInt8.toNat_toUInt16]

example : (8000 : UInt16).toNat * (1 : UInt8).toNat < 65536 := by decide
example : 65536 ≤ (8000 : UInt16).toNat * (10 : UInt8).toNat := by decide

/-- C52, the full statement for the capacity fails: 80 Wh. -/
theorem C52_capacity_full_false : ¬ C52_capacity_full := by
  intro hf
  obtain ⟨r, hr, -⟩ := hf true (.Data 8000 10)
  rw [(C52_capacity_overflow 8000 10 (by decide)).1] at hr
  cases hr

/-- A battery with packed date and serial number. -/
def exampleBattery : RawStructure where
  version := ⟨2, 2⟩
  info := .PortableBattery
  length := 0x1A
  handle := 0x1600
  data := [1, 2, 0, 0, 3, 2, 0x40, 0x1F, 0x5C, 0x2B, 4, 0xFF, 0x34, 0x12, 0x2F, 0x5A, 5, 10,
    1, 0, 0, 0]
  strings := ascii "Rear" ++ [0] ++ ascii "Maker" ++ [0] ++ ascii "Name" ++ [0] ++ ascii "1.1" ++ [0] ++
    ascii "LION" ++ [0, 0]

example : BatteryLength exampleBattery ∧ Fits exampleBattery 0x10 := by
  unfold BatteryLength; decide
example : (PortableBattery.try_from true exampleBattery).okAnd (fun v =>
    v.manufacture_date = .SmartBatteryDataSpecification 2025 1 15 ∧
    v.serial_number = .SmartBatteryDataSpecification 0x1234 ∧
    v.device_chemistry = .SmartBatteryDataSpecification (ascii "LION") ∧
    v.design_capacity = .Data 8000 10) = true := by decide +kernel

end Dmi.Props
