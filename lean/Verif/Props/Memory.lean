import Verif.Proofs.Decode
import Verif.Model.S018
/-!
# C49, C50, C51: memory errors (18), mapped addresses (19, 20), pointing devices (21)
-/
namespace Dmi.Props
open Spec

theorem err_of_not_ok {α : Type} {P : MalformedStructureError → Prop} {x : R α} (h : ErrOnly P x)
    (hn : ∀ v, x ≠ .ok v) : ∃ e, x = .err e ∧ P e := by
  cases x with
  | ok a => exact absurd rfl (hn a)
  | err e => exact ⟨e, rfl, h.2 e rfl⟩
  | panic => exact absurd rfl h.1.1
  | ub => exact absurd rfl h.1.2

theorem slice_of_not_ok {s : RawStructure} {α : Type} {x : R α} (h : ErrOnly (BadAccess s []) x)
    (hn : ∀ v, x ≠ .ok v) : x = .err .InvalidSlice := by
  obtain ⟨e, he, h⟩ := err_of_not_ok h hn
  rcases h with rfl | ⟨o, ho, -⟩
  · exact he
  · cases ho

theorem gate_neg {s : RawStructure} {a b : Nat} {l : UInt8} (ha : a < 256) (hb : b < 256)
    (h : Since s a b → s.length = l) :
    ¬ (s.version.ge (.ofPair a b) && s.length != l) = true := by
  simp only [Bool.and_eq_true, ge_iff ha hb, bne_iff_ne]
  exact fun hn => hn.2 (h hn.1)

theorem gate_pos {s : RawStructure} {a b : Nat} {l : UInt8} (ha : a < 256) (hb : b < 256)
    (h : Since s a b) (hl : s.length ≠ l) :
    (s.version.ge (.ofPair a b) && s.length != l) = true := by
  simp only [Bool.and_eq_true, ge_iff ha hb, bne_iff_ne]
  exact ⟨h, hl⟩

theorem gate2_neg {s : RawStructure} {a b c d : Nat} {l : UInt8} (ha : a < 256) (hb : b < 256)
    (hc : c < 256) (hd : d < 256) (h : Since s a b → ¬ Since s c d → s.length = l) :
    ¬ ((s.version.ge (.ofPair a b) && s.version.lt (.ofPair c d)) && s.length != l) = true := by
  simp only [Bool.and_eq_true, ge_iff ha hb, lt_iff hc hd, bne_iff_ne]
  exact fun hn => hn.2 (h hn.1.1 hn.1.2)

theorem gate2_pos {s : RawStructure} {a b c d : Nat} {l : UInt8} (ha : a < 256) (hb : b < 256)
    (hc : c < 256) (hd : d < 256) (h : Since s a b) (h' : ¬ Since s c d) (hl : s.length ≠ l) :
    ((s.version.ge (.ofPair a b) && s.version.lt (.ofPair c d)) && s.length != l) = true := by
  simp only [Bool.and_eq_true, ge_iff ha hb, lt_iff hc hd, bne_iff_ne]
  exact ⟨⟨h, h'⟩, hl⟩

/-! ### C49 -/

section MemoryError
open memory_error_32

/-- The fields of a type 18 structure. -/
structure MemoryErrorFields (s : RawStructure) (v : MemoryError32) : Prop where
  handle : v.handle = s.handle
  error_type : v.error_type = ErrorType.ofU8 (byte s 0x04)
  error_granularity : v.error_granularity = ErrorGranularity.ofU8 (byte s 0x05)
  error_operation : v.error_operation = ErrorOperation.ofU8 (byte s 0x06)
  vendor_syndrome : v.vendor_syndrome = dword s 0x07
  memory_array_error_address : v.memory_array_error_address = dword s 0x0B
  device_error_address : v.device_error_address = dword s 0x0F
  error_resolution : v.error_resolution = dword s 0x13

/-- C49: a structure of the right length decodes to exactly the stored values. -/
theorem C49_decodes (oc : Bool) (s : RawStructure) (hl : Since s 2 1 → s.length = 0x17)
    (h : Fits s 0x17) (v : MemoryError32) :
    MemoryError32.try_from oc s = .ok v ↔ MemoryErrorFields s v := by
  unfold MemoryError32.try_from
  rw [if_neg (gate_neg (by decide) (by decide) hl)]
  access_eval oc h
  access_iff v

/-- C49: every structure the decoder rejects, and why. -/
theorem C49_rejects (oc : Bool) (s : RawStructure) :
    (Since s 2 1 → s.length ≠ 0x17 → MemoryError32.try_from oc s =
      .err (.InvalidFormattedSectionLength .MemoryError32 s.handle "" 0x17)) ∧
    ((Since s 2 1 → s.length = 0x17) → ¬ Fits s 0x17 →
      MemoryError32.try_from oc s = .err .InvalidSlice) := by
  unfold MemoryError32.try_from
  constructor
  · intro h1 h2
    rw [if_pos (gate_pos (by decide) (by decide) h1 h2)]
  · intro hl h
    rw [if_neg (gate_neg (by decide) (by decide) hl)]
    apply slice_of_not_ok (s := s)
    · access_only
    · intro v hv
      simp (disch := decide) only [bind_ok_iff, get32_iff] at hv
      obtain ⟨_, -, _, -, _, -, _, -, _, -, _, -, _, hr, -⟩ := hv
      exact h hr.1

def exampleMemoryError : RawStructure where
  version := ⟨2, 1⟩
  info := .MemoryError32
  length := 0x17
  handle := 0x1200
  data := [3, 2, 2, 0, 0, 0, 0, 0, 0, 0, 0x80, 0, 0, 0, 0x80, 0, 0, 0, 0x80]
  strings := [0, 0]

example : (Since exampleMemoryError 2 1 → exampleMemoryError.length = 0x17) ∧
    Fits exampleMemoryError 0x17 := by decide
example : (MemoryError32.try_from true exampleMemoryError).okAnd (fun v =>
    v.error_type = .Ok ∧ v.error_resolution = 0x80000000) = true := by decide +kernel

end MemoryError

/-! ### C50 -/

section ArrayAddress
open memory_array_mapped_address

/-- The length byte is the one required for the version. -/
def ArrayAddressLength (s : RawStructure) : Prop :=
  (Since s 2 1 → ¬ Since s 2 7 → s.length = 0x0F) ∧ (Since s 2 7 → s.length = 0x1F)

/-- The fields of a type 19 structure. -/
structure ArrayAddressFields (s : RawStructure) (v : MemoryArrayMappedAddress) : Prop where
  handle : v.handle = s.handle
  starting_address : v.starting_address = dword s 0x04
  ending_address : v.ending_address = dword s 0x08
  memory_array_handle : v.memory_array_handle = word s 0x0C
  partition_width : v.partition_width = byte s 0x0E
  extended_starting_address :
    When (Fits s 0x17) v.extended_starting_address (· = qword s 0x0F)
  extended_ending_address : When (Fits s 0x1F) v.extended_ending_address (· = qword s 0x17)

/-- C50: a structure of the right length decodes to exactly the stored values. -/
theorem C50_array_decodes (oc : Bool) (s : RawStructure) (hl : ArrayAddressLength s)
    (h : Fits s 0x0F) (v : MemoryArrayMappedAddress) :
    MemoryArrayMappedAddress.try_from oc s = .ok v ↔ ArrayAddressFields s v := by
  unfold MemoryArrayMappedAddress.try_from
  rw [if_neg (gate2_neg (by decide) (by decide) (by decide) (by decide) hl.1),
    if_neg (gate_neg (by decide) (by decide) hl.2)]
  access_eval oc h
  access_iff v

/-- C50: every structure the decoder rejects, and why. -/
theorem C50_array_rejects (oc : Bool) (s : RawStructure) :
    (Since s 2 1 → ¬ Since s 2 7 → s.length ≠ 0x0F → MemoryArrayMappedAddress.try_from oc s =
      .err (.InvalidFormattedSectionLength .MemoryArrayMappedAddress s.handle "" 0x0F)) ∧
    (Since s 2 7 → s.length ≠ 0x1F → MemoryArrayMappedAddress.try_from oc s =
      .err (.InvalidFormattedSectionLength .MemoryArrayMappedAddress s.handle "" 0x1F)) ∧
    (ArrayAddressLength s → ¬ Fits s 0x0F →
      MemoryArrayMappedAddress.try_from oc s = .err .InvalidSlice) := by
  unfold MemoryArrayMappedAddress.try_from
  refine ⟨?_, ?_, ?_⟩
  · intro h1 h2 h3
    rw [if_pos (gate2_pos (by decide) (by decide) (by decide) (by decide) h1 h2 h3)]
  · intro h1 h2
    rw [if_neg (gate2_neg (by decide) (by decide) (by decide) (by decide) (fun _ h => absurd h1 h)),
      if_pos (gate_pos (by decide) (by decide) h1 h2)]
  · intro hl h
    rw [if_neg (gate2_neg (by decide) (by decide) (by decide) (by decide) hl.1),
      if_neg (gate_neg (by decide) (by decide) hl.2)]
    apply slice_of_not_ok (s := s)
    · access_only
    · intro v hv
      simp (disch := decide) only [bind_ok_iff, get8_iff] at hv
      obtain ⟨_, -, _, -, _, -, _, hr, -⟩ := hv
      exact h hr.1

/-- C50: as the table iterator yields them, structures have the extended addresses iff the version
is 2.7 or later. -/
theorem C50_array_extended (oc : Bool) (s : RawStructure) (hc : Coherent s) (h1 : Since s 2 1)
    (v : MemoryArrayMappedAddress) (hv : MemoryArrayMappedAddress.try_from oc s = .ok v) :
    When (Since s 2 7) v.extended_starting_address (· = qword s 0x0F) ∧
    When (Since s 2 7) v.extended_ending_address (· = qword s 0x17) := by
  have hl : ArrayAddressLength s := by
    constructor
    · intro h1 h2
      apply Decidable.byContradiction
      intro h3
      rw [(C50_array_rejects oc s).1 h1 h2 h3] at hv
      cases hv
    · intro h1
      apply Decidable.byContradiction
      intro h3
      rw [(C50_array_rejects oc s).2.1 h1 h3] at hv
      cases hv
  by_cases h27 : Since s 2 7
  · have hf : Fits s 0x1F := (hc.fits_iff _).2 (by rw [hl.2 h27]; decide)
    have := (C50_array_decodes oc s hl (fits_mono hf (by decide)) v).1 hv
    have a := this.extended_starting_address
    have b := this.extended_ending_address
    rw [when_pos (fits_mono hf (by decide))] at a
    rw [when_pos hf] at b
    exact ⟨(when_pos h27).2 a, (when_pos h27).2 b⟩
  · have hlen := hl.1 h1 h27
    have hf : Fits s 0x0F := (hc.fits_iff _).2 (by rw [hlen]; decide)
    have hn : ¬ Fits s 0x17 := by rw [hc.fits_iff, hlen]; decide
    have := (C50_array_decodes oc s hl hf v).1 hv
    have a := this.extended_starting_address
    have b := this.extended_ending_address
    rw [when_neg hn] at a
    rw [when_neg (fun h => hn (fits_mono h (by decide)))] at b
    exact ⟨(when_neg h27).2 a, (when_neg h27).2 b⟩

def exampleArrayAddress : RawStructure where
  version := ⟨2, 7⟩
  info := .MemoryArrayMappedAddress
  length := 0x1F
  handle := 0x1300
  data := [0, 0, 0, 0, 0xFF, 0xFF, 0x7F, 0, 1, 0, 1] ++ List.replicate 15 0 ++ [1]
  strings := [0, 0]

example : ArrayAddressLength exampleArrayAddress ∧ Coherent exampleArrayAddress ∧
    Since exampleArrayAddress 2 1 ∧ Fits exampleArrayAddress 0x0F := by
  unfold ArrayAddressLength; decide
example : (MemoryArrayMappedAddress.try_from true exampleArrayAddress).okAnd (fun v =>
    v.ending_address = 0x7FFFFF ∧ v.extended_starting_address = some 0 ∧
    v.extended_ending_address = some 0x0100000000000000) = true := by decide +kernel

end ArrayAddress

section DeviceAddress
open memory_device_mapped_address

/-- The length byte is the one required for the version. -/
def DeviceAddressLength (s : RawStructure) : Prop :=
  (Since s 2 1 → ¬ Since s 2 7 → s.length = 0x13) ∧ (Since s 2 7 → s.length = 0x23)

/-- The fields of a type 20 structure. -/
structure DeviceAddressFields (s : RawStructure) (v : MemoryDeviceMappedAddress) : Prop where
  handle : v.handle = s.handle
  starting_address : v.starting_address = dword s 0x04
  ending_address : v.ending_address = dword s 0x08
  memory_device_handle : v.memory_device_handle = word s 0x0C
  memory_array_mapped_address_handle : v.memory_array_mapped_address_handle = word s 0x0E
  partition_row_position : v.partition_row_position = byte s 0x10
  interleave_position : v.interleave_position = byte s 0x11
  interleaved_data_depth : v.interleaved_data_depth = byte s 0x12
  extended_starting_address :
    When (Fits s 0x1B) v.extended_starting_address (· = qword s 0x13)
  extended_ending_address : When (Fits s 0x23) v.extended_ending_address (· = qword s 0x1B)

/-- C50: a structure of the right length decodes to exactly the stored values. -/
theorem C50_device_decodes (oc : Bool) (s : RawStructure) (hl : DeviceAddressLength s)
    (h : Fits s 0x13) (v : MemoryDeviceMappedAddress) :
    MemoryDeviceMappedAddress.try_from oc s = .ok v ↔ DeviceAddressFields s v := by
  unfold MemoryDeviceMappedAddress.try_from
  rw [if_neg (gate2_neg (by decide) (by decide) (by decide) (by decide) hl.1),
    if_neg (gate_neg (by decide) (by decide) hl.2)]
  access_eval oc h
  access_iff v

/-- C50: every structure the decoder rejects, and why. -/
theorem C50_device_rejects (oc : Bool) (s : RawStructure) :
    (Since s 2 1 → ¬ Since s 2 7 → s.length ≠ 0x13 → MemoryDeviceMappedAddress.try_from oc s =
      .err (.InvalidFormattedSectionLength .MemoryDeviceMappedAddress s.handle "" 0x13)) ∧
    (Since s 2 7 → s.length ≠ 0x23 → MemoryDeviceMappedAddress.try_from oc s =
      .err (.InvalidFormattedSectionLength .MemoryDeviceMappedAddress s.handle "" 0x23)) ∧
    (DeviceAddressLength s → ¬ Fits s 0x13 →
      MemoryDeviceMappedAddress.try_from oc s = .err .InvalidSlice) := by
  unfold MemoryDeviceMappedAddress.try_from
  refine ⟨?_, ?_, ?_⟩
  · intro h1 h2 h3
    rw [if_pos (gate2_pos (by decide) (by decide) (by decide) (by decide) h1 h2 h3)]
  · intro h1 h2
    rw [if_neg (gate2_neg (by decide) (by decide) (by decide) (by decide) (fun _ h => absurd h1 h)),
      if_pos (gate_pos (by decide) (by decide) h1 h2)]
  · intro hl h
    rw [if_neg (gate2_neg (by decide) (by decide) (by decide) (by decide) hl.1),
      if_neg (gate_neg (by decide) (by decide) hl.2)]
    apply slice_of_not_ok (s := s)
    · access_only
    · intro v hv
      simp (disch := decide) only [bind_ok_iff, get8_iff] at hv
      obtain ⟨_, -, _, -, _, -, _, -, _, -, _, -, _, hr, -⟩ := hv
      exact h hr.1

/-- C50: as the table iterator yields them, structures have the extended addresses iff the version
is 2.7 or later. -/
theorem C50_device_extended (oc : Bool) (s : RawStructure) (hc : Coherent s) (h1 : Since s 2 1)
    (v : MemoryDeviceMappedAddress) (hv : MemoryDeviceMappedAddress.try_from oc s = .ok v) :
    When (Since s 2 7) v.extended_starting_address (· = qword s 0x13) ∧
    When (Since s 2 7) v.extended_ending_address (· = qword s 0x1B) := by
  have hl : DeviceAddressLength s := by
    constructor
    · intro h1 h2
      apply Decidable.byContradiction
      intro h3
      rw [(C50_device_rejects oc s).1 h1 h2 h3] at hv
      cases hv
    · intro h1
      apply Decidable.byContradiction
      intro h3
      rw [(C50_device_rejects oc s).2.1 h1 h3] at hv
      cases hv
  by_cases h27 : Since s 2 7
  · have hf : Fits s 0x23 := (hc.fits_iff _).2 (by rw [hl.2 h27]; decide)
    have := (C50_device_decodes oc s hl (fits_mono hf (by decide)) v).1 hv
    have a := this.extended_starting_address
    have b := this.extended_ending_address
    rw [when_pos (fits_mono hf (by decide))] at a
    rw [when_pos hf] at b
    exact ⟨(when_pos h27).2 a, (when_pos h27).2 b⟩
  · have hlen := hl.1 h1 h27
    have hf : Fits s 0x13 := (hc.fits_iff _).2 (by rw [hlen]; decide)
    have hn : ¬ Fits s 0x1B := by rw [hc.fits_iff, hlen]; decide
    have := (C50_device_decodes oc s hl hf v).1 hv
    have a := this.extended_starting_address
    have b := this.extended_ending_address
    rw [when_neg hn] at a
    rw [when_neg (fun h => hn (fits_mono h (by decide)))] at b
    exact ⟨(when_neg h27).2 a, (when_neg h27).2 b⟩

def exampleDeviceAddress : RawStructure where
  version := ⟨2, 6⟩
  info := .MemoryDeviceMappedAddress
  length := 0x13
  handle := 0x1400
  data := [0, 0, 0, 0, 0xFF, 0xFF, 0x7F, 0, 1, 0, 2, 0, 0xFF, 1, 2]
  strings := [0, 0]

example : DeviceAddressLength exampleDeviceAddress ∧ Coherent exampleDeviceAddress ∧
    Since exampleDeviceAddress 2 1 ∧ Fits exampleDeviceAddress 0x13 := by
  unfold DeviceAddressLength; decide
example : (MemoryDeviceMappedAddress.try_from true exampleDeviceAddress).okAnd (fun v =>
    v.interleaved_data_depth = 2 ∧ v.extended_starting_address = none) = true := by decide +kernel

end DeviceAddress

/-! ### C51 -/

section Pointing
open built_in_pointing_device

/-- The fields of a type 21 structure. -/
structure PointingFields (s : RawStructure) (v : BuiltInPointingDevice) : Prop where
  handle : v.handle = s.handle
  type_ : v.type_ = DeviceType.ofU8 (byte s 0x04)
  interface : v.interface = Interface.ofU8 (byte s 0x05)
  number_of_buttons : v.number_of_buttons = byte s 0x06

/-- C51: a structure of the right length decodes to exactly the stored values. -/
theorem C51_decodes (oc : Bool) (s : RawStructure) (hl : Since s 2 1 → s.length = 7)
    (h : Fits s 7) (v : BuiltInPointingDevice) :
    BuiltInPointingDevice.try_from oc s = .ok v ↔ PointingFields s v := by
  unfold BuiltInPointingDevice.try_from
  rw [if_neg (gate_neg (by decide) (by decide) hl)]
  access_eval oc h
  access_iff v

/-- C51: every structure the decoder rejects, and why. -/
theorem C51_rejects (oc : Bool) (s : RawStructure) :
    (Since s 2 1 → s.length ≠ 7 → BuiltInPointingDevice.try_from oc s =
      .err (.InvalidFormattedSectionLength .BuiltInPointingDevice s.handle "" 7)) ∧
    ((Since s 2 1 → s.length = 7) → ¬ Fits s 7 →
      BuiltInPointingDevice.try_from oc s = .err .InvalidSlice) := by
  unfold BuiltInPointingDevice.try_from
  constructor
  · intro h1 h2
    rw [if_pos (gate_pos (by decide) (by decide) h1 h2)]
  · intro hl h
    rw [if_neg (gate_neg (by decide) (by decide) hl)]
    apply slice_of_not_ok (s := s)
    · access_only
    · intro v hv
      simp (disch := decide) only [bind_ok_iff, get8_iff] at hv
      obtain ⟨_, -, _, -, _, hr, -⟩ := hv
      exact h hr.1

def examplePointing : RawStructure where
  version := ⟨2, 1⟩
  info := .BuiltInPointingDevice
  length := 7
  handle := 0x1500
  data := [7, 4, 2]
  strings := [0, 0]

example : (Since examplePointing 2 1 → examplePointing.length = 7) ∧ Fits examplePointing 7 := by
  decide
example : (BuiltInPointingDevice.try_from true examplePointing).okAnd (fun v =>
    v.type_ = .TouchPad ∧ v.number_of_buttons = 2) = true := by decide +kernel

end Pointing

end Dmi.Props
