import Verif.Props.Memory
import Verif.Props.Enclosure
import Verif.Props.EventLogCodes
import Verif.Proofs.Finite
import Verif.Model.S009
/-!
# C40, C41: system slots (type 9)
-/
namespace Dmi.Props
open Spec system_slots

/-- The length rule of the version: 0Ch for 2.0, 0Dh for 2.1 to 2.5, 11h for 2.6 to 3.1, at least
11h from 3.2. -/
def SlotLengthOk (s : RawStructure) : Prop :=
  (Since s 2 0 → ¬ Since s 2 1 → s.data.length + 4 = 0x0C) ∧
  (Since s 2 1 → ¬ Since s 2 6 → s.data.length + 4 = 0x0D) ∧
  (Since s 2 6 → ¬ Since s 3 2 → s.data.length + 4 = 0x11) ∧
  (Since s 3 2 → 0x11 ≤ s.data.length + 4)

/-- The number of peer groups: the byte at 12h, if there is one. -/
def peerCount (s : RawStructure) : Nat := if Fits s 0x13 then (byte s 0x12).toNat else 0

/-- The device (bits 7:3) and function (bits 2:0) numbers of a byte. -/
def DevFn (b : UInt8) (d : DeviceAndFunctionNumber) : Prop :=
  d.device.toNat = b.toNat / 8 ∧ d.function.toNat = b.toNat % 8

/-- The fields of a type 9 structure. -/
structure SlotFields (s : RawStructure) (v : SystemSlots) : Prop where
  handle : v.handle = s.handle
  slot_designation : Ref s 0x04 v.slot_designation
  slot_type : v.slot_type = SlotType.ofU8 (byte s 0x05)
  slot_data_bus_width : v.slot_data_bus_width = SlotWidth.ofU8 (byte s 0x06)
  current_usage : v.current_usage = CurrentUsage.ofU8 (byte s 0x07)
  slot_length : v.slot_length = SlotLength.ofU8 (byte s 0x08)
  slot_id : v.slot_id = word s 0x09
  slot_characteristics_1 : v.slot_characteristics_1 = ⟨byte s 0x0B⟩
  slot_characteristics_2 : When (Fits s 0x0D) v.slot_characteristics_2 (· = ⟨byte s 0x0C⟩)
  segment_group_number :
    When (Fits s 0x0F ∧ word s 0x0D ≠ 0xFFFF) v.segment_group_number (· = word s 0x0D)
  bus_number : When (Fits s 0x10 ∧ byte s 0x0F ≠ 0xFF) v.bus_number (· = byte s 0x0F)
  device_and_function_number :
    When (Fits s 0x11 ∧ byte s 0x10 ≠ 0xFF) v.device_and_function_number (DevFn (byte s 0x10))
  data_bus_width : When (Fits s 0x12) v.data_bus_width (· = byte s 0x11)
  peer_devices : When (Fits s (0x13 + 5 * peerCount s)) v.peer_devices
    (· = ⟨⟨bytesAt s.data 0x0F (5 * peerCount s), 5⟩⟩)
  slot_information : When (Fits s (0x14 + 5 * peerCount s + 1)) v.slot_information
    (· = byte s (0x14 + 5 * peerCount s))
  slot_physical_width : When (Fits s (0x15 + 5 * peerCount s + 1)) v.slot_physical_width
    (· = SlotWidth.ofU8 (byte s (0x15 + 5 * peerCount s)))
  slot_pitch : When (Fits s (0x16 + 5 * peerCount s + 2)) v.slot_pitch
    (· = ⟨word s (0x16 + 5 * peerCount s)⟩)

theorem devFn_iff {b : UInt8} {d : DeviceAndFunctionNumber} :
    DevFn b d ↔ d = DeviceAndFunctionNumber.ofU8 b := by
  have key : ∀ b : UInt8, DevFn b (.ofU8 b) := by
    intro b
    have : ∀ b : UInt8, (b >>> 3).toNat = b.toNat / 8 ∧ (b &&& 0b0111).toNat = b.toNat % 8 :=
      forall_u8 (by decide +kernel)
    exact this b
  constructor
  · rintro ⟨h1, h2⟩
    obtain ⟨k1, k2⟩ := key b
    cases d
    simp only [DeviceAndFunctionNumber.ofU8] at *
    rw [UInt8.toNat_inj.1 (h1.trans k1.symm), UInt8.toNat_inj.1 (h2.trans k2.symm)]
  · rintro rfl; exact key b

theorem devFn_fun {b : UInt8} : DevFn b = (· = DeviceAndFunctionNumber.ofU8 b) := by
  funext d; exact propext devFn_iff

theorem peerCount_lt (s : RawStructure) : peerCount s < 256 := by
  unfold peerCount; split
  · exact (byte s 0x12).toNat_lt
  · decide

theorem slots_eval (oc : Bool) (s : RawStructure) : SystemSlots.decode oc s = (do
    let slot_designation ← s.get_string oc 0x04
    let slot_type ← s.get8 oc 0x05
    let slot_data_bus_width ← s.get8 oc 0x06
    let current_usage ← s.get8 oc 0x07
    let slot_length ← s.get8 oc 0x08
    let slot_id ← s.get16 oc 0x09
    let slot_characteristics_1 ← s.get8 oc 0x0B
    pure {
      handle := s.handle
      slot_designation
      slot_type := SlotType.ofU8 slot_type
      slot_data_bus_width := SlotWidth.ofU8 slot_data_bus_width
      current_usage := CurrentUsage.ofU8 current_usage
      slot_length := SlotLength.ofU8 slot_length
      slot_id
      slot_characteristics_1 := ⟨slot_characteristics_1⟩
      slot_characteristics_2 := optIf (Fits s 0x0D) ⟨byte s 0x0C⟩
      segment_group_number := optIf (Fits s 0x0F ∧ word s 0x0D ≠ 0xFFFF) (word s 0x0D)
      bus_number := optIf (Fits s 0x10 ∧ byte s 0x0F ≠ 0xFF) (byte s 0x0F)
      device_and_function_number := optIf (Fits s 0x11 ∧ byte s 0x10 ≠ 0xFF)
        (DeviceAndFunctionNumber.ofU8 (byte s 0x10))
      data_bus_width := optIf (Fits s 0x12) (byte s 0x11)
      peer_devices := optIf (Fits s (0x13 + 5 * peerCount s))
        ⟨⟨bytesAt s.data 0x0F (5 * peerCount s), 5⟩⟩
      slot_information := optIf (Fits s (0x14 + 5 * peerCount s + 1))
        (byte s (0x14 + 5 * peerCount s))
      slot_physical_width := optIf (Fits s (0x15 + 5 * peerCount s + 1))
        (SlotWidth.ofU8 (byte s (0x15 + 5 * peerCount s)))
      slot_pitch := optIf (Fits s (0x16 + 5 * peerCount s + 2))
        ⟨word s (0x16 + 5 * peerCount s)⟩ }) := by
  have hn := peerCount_lt s
  have e : ((optIf (Fits s (0x12 + 1)) (byte s 0x12)).getD 0).toNat = peerCount s := by
    unfold optIf peerCount
    by_cases h : Fits s 0x13 <;> simp [h]
  unfold SystemSlots.decode
  rw [get8_opt oc (by decide) (by decide), ok_bind]
  simp only [e]
  have hs : (s.get_slice oc 0x13 (5 * peerCount s)) =
      .ok (optIf (Fits s (0x13 + 5 * peerCount s)) (bytesAt s.data 0x0F (5 * peerCount s))) := by
    rw [get_slice_ge oc s _ _ (by decide) (by omega)]
    rfl
  rw [hs, get8_opt oc (o := 0x14 + 5 * peerCount s) (by omega) (by omega),
    get8_opt oc (o := 0x15 + 5 * peerCount s) (by omega) (by omega),
    get16_opt oc (o := 0x16 + 5 * peerCount s) (by omega) (by omega)]
  simp (disch := decide) only [ok_bind, get8_opt, get16_opt, optIf_map, optIf_filter]
  rfl

/-- The length rule lets exactly the lengths through that it should. -/
theorem slots_gate (oc : Bool) (s : RawStructure) (h : SlotLengthOk s) :
    SystemSlots.try_from oc s = SystemSlots.decode oc s := by
  obtain ⟨h1, h2, h3, h4⟩ := h
  unfold SystemSlots.try_from verLt
  have lt0 := @lt_iff s 2 0 (by decide) (by decide)
  have lt1 := @lt_iff s 2 1 (by decide) (by decide)
  have lt6 := @lt_iff s 2 6 (by decide) (by decide)
  have lt2 := @lt_iff s 3 2 (by decide) (by decide)
  simp only [Bool.and_eq_true, Bool.not_eq_true', ← Bool.not_eq_true, lt0, lt1, lt6, lt2,
    Classical.not_not, bne_iff_ne, decide_eq_true_eq]
  rw [if_neg (fun h => h.2 (h1 h.1.1 h.1.2)), if_neg (fun h => h.2 (h2 h.1.1 h.1.2)),
    if_neg (fun h => h.2 (h3 h.1.1 h.1.2)), if_neg (fun h => Nat.not_lt.2 (h4 h.1) h.2)]

/-- C40: a structure of the right length decodes to exactly the stored values. -/
theorem C40_decodes (oc : Bool) (s : RawStructure) (hl : SlotLengthOk s) (h : Fits s 0x0C)
    (v : SystemSlots) : SystemSlots.try_from oc s = .ok v ↔ SlotFields s v := by
  rw [slots_gate oc s hl, slots_eval]
  access_eval oc h
  access_iff v [devFn_fun]

/-- The length rule implies the fixed part from version 2.0 on. -/
theorem slots_fits {s : RawStructure} (hl : SlotLengthOk s) (h2 : Since s 2 0) : Fits s 0x0C := by
  obtain ⟨h1, h3, h4, h5⟩ := hl
  unfold Fits
  by_cases a : Since s 2 1
  · by_cases b : Since s 2 6
    · by_cases c : Since s 3 2
      · have := h5 c; omega
      · have := h4 b c; omega
    · have := h3 a b; omega
  · have := h1 h2 a; omega

theorem since_mono {s : RawStructure} {a b c d : Nat} (h : Since s a b)
    (hl : c < a ∨ c = a ∧ d ≤ b) : Since s c d := by
  unfold Since at *; omega

/-- C40: every structure the decoder rejects, and why. -/
theorem C40_rejects (oc : Bool) (s : RawStructure) :
    (Since s 2 0 → ¬ Since s 2 1 → s.data.length + 4 ≠ 0x0C → SystemSlots.try_from oc s =
      .err (.InvalidFormattedSectionLength .SystemSlots s.handle "" 0x0C)) ∧
    (Since s 2 1 → ¬ Since s 2 6 → s.data.length + 4 ≠ 0x0D → SystemSlots.try_from oc s =
      .err (.InvalidFormattedSectionLength .SystemSlots s.handle "" 0x0D)) ∧
    (Since s 2 6 → ¬ Since s 3 2 → s.data.length + 4 ≠ 0x11 → SystemSlots.try_from oc s =
      .err (.InvalidFormattedSectionLength .SystemSlots s.handle "" 0x11)) ∧
    (Since s 3 2 → s.data.length + 4 < 0x11 → SystemSlots.try_from oc s =
      .err (.InvalidFormattedSectionLength .SystemSlots s.handle "minimum of " 0x11)) ∧
    (SlotLengthOk s → Fits s 0x0C → ErrOnly (BadRef s [0x04]) (SystemSlots.try_from oc s)) ∧
    (SlotLengthOk s → ¬ Fits s 0x0C → ∃ e, SystemSlots.try_from oc s = .err e ∧
      BadAccess s [0x04] e) := by
  refine ⟨?_, ?_, ?_, ?_, ?_, ?_⟩
  rotate_right 2
  · intro hl h
    rw [slots_gate oc s hl, slots_eval]
    access_eval oc h
    err_only
  · intro hl h
    rw [slots_gate oc s hl, slots_eval]
    apply err_of_not_ok
    · access_only
    · intro v hv
      simp (disch := decide) only [bind_ok_iff, get8_iff] at hv
      obtain ⟨_, -, _, -, _, -, _, -, _, -, _, -, _, hr, -⟩ := hv
      exact h hr.1
  all_goals
    unfold SystemSlots.try_from verLt
    have lt0 := @lt_iff s 2 0 (by decide) (by decide)
    have lt1 := @lt_iff s 2 1 (by decide) (by decide)
    have lt6 := @lt_iff s 2 6 (by decide) (by decide)
    have lt2 := @lt_iff s 3 2 (by decide) (by decide)
    simp only [Bool.and_eq_true, Bool.not_eq_true', ← Bool.not_eq_true, lt0, lt1, lt6, lt2,
      Classical.not_not, bne_iff_ne, decide_eq_true_eq]
  · intro a b c
    rw [if_pos ⟨⟨a, b⟩, c⟩]
  · intro a b c
    rw [if_neg (fun h => h.1.2 a), if_pos ⟨⟨a, b⟩, c⟩]
  · intro a b c
    rw [if_neg (fun h => h.1.2 (since_mono a (by decide))), if_neg (fun h => h.1.2 a),
      if_pos ⟨⟨a, b⟩, c⟩]
  · intro a c
    rw [if_neg (fun h => h.1.2 (since_mono a (by decide))),
      if_neg (fun h => h.1.2 (since_mono a (by decide))), if_neg (fun h => h.1.2 a),
      if_pos ⟨a, c⟩]

/-! ### C41 -/

/-- C41: device and function number come from one byte without loss. -/
theorem C41_split (b : UInt8) :
    DevFn b (.ofU8 b) ∧ (DeviceAndFunctionNumber.ofU8 b).toU8 = b := by
  refine ⟨devFn_iff.2 rfl, ?_⟩
  have : ∀ b : UInt8, (DeviceAndFunctionNumber.ofU8 b).toU8 = b := forall_u8 (by decide +kernel)
  exact this b

/-- C41: a device is decoded from five bytes and encoded back to them. -/
theorem C41_device (a b c d e : UInt8) : ∃ v, Device.ofSlice [a, b, c, d, e] = .ok v ∧
    v.segment_group_number.toNat = a.toNat + 256 * b.toNat ∧ v.bus_number = c ∧
    DevFn d v.device_and_function_number ∧ v.data_bus_width = e ∧
    v.toBytes = [a, b, c, d, e] := by
  refine ⟨_, rfl, ?_, rfl, devFn_iff.2 rfl, rfl, ?_⟩
  · exact le16_toNat2 a b
  · have h := le16_toNat2 a b
    have ha := a.toNat_lt
    have hb := b.toNat_lt
    simp only [Device.toBytes, (C41_split d).2]
    have e1 : (le16 [a, b]).toUInt8 = a := by
      apply UInt8.toNat_inj.1; rw [UInt16.toNat_toUInt8, h]; omega
    have e2 : (le16 [a, b] >>> 8).toUInt8 = b := by
      apply UInt8.toNat_inj.1
      rw [UInt16.toNat_toUInt8, UInt16.toNat_shiftRight, h,
        show (8 : UInt16).toNat % 16 = 8 from rfl, Nat.shiftRight_eq_div_pow]
      omega
    show [(le16 [a, b]).toUInt8, (le16 [a, b] >>> 8).toUInt8, c, d, e] = _
    rw [e1, e2]

/-- The peer device of group `i`. -/
def PeerIs (s : RawStructure) (i : Nat) (d : Device) : Prop :=
  d.segment_group_number = word s (0x13 + 5 * i) ∧ d.bus_number = byte s (0x15 + 5 * i) ∧
  DevFn (byte s (0x16 + 5 * i)) d.device_and_function_number ∧
  d.data_bus_width = byte s (0x17 + 5 * i)

def peerAt (s : RawStructure) (i : Nat) : Device where
  segment_group_number := word s (0x13 + 5 * i)
  bus_number := byte s (0x15 + 5 * i)
  device_and_function_number := .ofU8 (byte s (0x16 + 5 * i))
  data_bus_width := byte s (0x17 + 5 * i)

theorem device_bytesAt (s : RawStructure) (i : Nat) :
    Device.ofSlice (bytesAt s.data (0x0F + 5 * i) 5) = .ok (peerAt s i) := by
  have e : bytesAt s.data (0x0F + 5 * i) 5 = [byte s (0x13 + 5 * i), byte s (0x14 + 5 * i),
      byte s (0x15 + 5 * i), byte s (0x16 + 5 * i), byte s (0x17 + 5 * i)] := by
    simp only [byte, bytesAt, List.range_succ, List.range_zero, List.map_cons,
      List.map_nil, List.nil_append, List.cons_append]
    rw [show 0x13 + 5 * i - 4 = 0x0F + 5 * i by omega,
      show 0x14 + 5 * i - 4 = 0x0F + 5 * i + 1 by omega,
      show 0x15 + 5 * i - 4 = 0x0F + 5 * i + 2 by omega,
      show 0x16 + 5 * i - 4 = 0x0F + 5 * i + 3 by omega,
      show 0x17 + 5 * i - 4 = 0x0F + 5 * i + 4 by omega]
    rfl
  have w : word s (0x13 + 5 * i) = le16 [byte s (0x13 + 5 * i), byte s (0x14 + 5 * i)] := by
    unfold word u16At le16 byte
    congr 1
    rw [show 0x14 + 5 * i - 4 = 0x13 + 5 * i - 4 + 1 by omega]
    rfl
  rw [e, peerAt, w]
  rfl

theorem peers_collect (s : RawStructure) : ∀ k j,
    CollectsR PeerDevices.next ⟨⟨bytesAt s.data (0x0F + 5 * j) (5 * k), 5⟩⟩
      ((List.range' j k).map (peerAt s)) := by
  intro k
  induction k with
  | zero => intro j; exact .done rfl
  | succ k ih =>
    intro j
    rw [List.range'_succ, List.map_cons]
    refine .step (s' := ⟨⟨bytesAt s.data (0x0F + 5 * (j + 1)) (5 * k), 5⟩⟩) ?_ (ih (j + 1))
    unfold PeerDevices.next Chunks.next
    have hne : (bytesAt s.data (0x0F + 5 * j) (5 * (k + 1))).isEmpty = false := by
      rw [List.isEmpty_eq_false_iff, ← List.length_pos_iff]
      simp [bytesAt]
    simp only [hne, Bool.false_eq_true, if_false]
    rw [take_bytesAt _ _ _ _ (by omega), device_bytesAt, ok_bind, drop_bytesAt]
    simp only [show 0x0F + 5 * j + 5 = 0x0F + 5 * (j + 1) by omega,
      show 5 * (k + 1) - 5 = 5 * k by omega]

/-- C41: iterating the peer devices of a decoded structure yields as many as the count states,
each with the stored values, and never faults; they are absent exactly if the structure is too
short for them. -/
theorem C41_peers (oc : Bool) (s : RawStructure) (v : SystemSlots)
    (hv : SystemSlots.try_from oc s = .ok v) :
    When (Fits s (0x13 + 5 * peerCount s)) v.peer_devices (fun p => ∃ l : List Device,
      CollectsR PeerDevices.next p l ∧ l.length = peerCount s ∧
      ∀ i (h : i < l.length), PeerIs s i l[i]) := by
  have hd : SystemSlots.decode oc s = .ok v := by
    unfold SystemSlots.try_from at hv
    simp only at hv
    repeat' split at hv
    all_goals first | exact hv | cases hv
  rw [slots_eval] at hd
  simp only [bind_ok_iff, pure_eq_ok, Res.ok.injEq] at hd
  obtain ⟨_, -, _, -, _, -, _, -, _, -, _, -, _, -, rfl⟩ := hd
  apply optIf_when
  refine ⟨(List.range' 0 (peerCount s)).map (peerAt s), peers_collect s _ 0, by simp, ?_⟩
  intro i hi
  simp only [List.getElem_map, List.getElem_range', Nat.zero_add, Nat.one_mul]
  exact ⟨rfl, rfl, devFn_iff.2 rfl, rfl⟩

/-- A slot of version 3.4 with one peer device. -/
def exampleSlot : RawStructure where
  version := ⟨3, 4⟩
  info := .SystemSlots
  length := 0x1D
  handle := 0x0900
  data := [1, 0xA5, 0x0D, 4, 4, 1, 0, 0x0C, 1, 0, 0, 3, 0x1A, 8, 1, 0, 0, 4, 0x1B, 8, 0, 5, 0x0B,
    0x34, 0x12]
  strings := ascii "PCIE1" ++ [0, 0]

example : SlotLengthOk exampleSlot ∧ Fits exampleSlot 0x0C := by unfold SlotLengthOk; decide
example : (SystemSlots.try_from true exampleSlot).okAnd (fun v =>
    v.slot_designation = ascii "PCIE1" ∧
    v.device_and_function_number = some ⟨3, 2⟩ ∧ v.slot_information = some 5 ∧
    v.slot_pitch = some ⟨0x1234⟩) = true := by decide +kernel

/-- The hypotheses of `C41_peers` can be met: one peer device at 13h. -/
example : peerCount exampleSlot = 1 ∧ Fits exampleSlot (0x13 + 5 * peerCount exampleSlot) ∧
    PeerIs exampleSlot 0 ⟨0, 4, ⟨3, 3⟩, 8⟩ := by unfold PeerIs DevFn; decide +kernel

/-- The cases of `C40_rejects` occur. -/
example :
    (SystemSlots.try_from true { exampleSlot with version := ⟨2, 0⟩ }).okAnd (fun _ => true) = false ∧
    (SystemSlots.try_from true { exampleSlot with version := ⟨2, 3⟩ }).okAnd (fun _ => true) = false ∧
    (SystemSlots.try_from true { exampleSlot with version := ⟨2, 6⟩ }).okAnd (fun _ => true) = false ∧
    (SystemSlots.try_from true { exampleSlot with data := exampleSlot.data.take 8 }).okAnd (fun _ => true) = false := by
  decide +kernel

end Dmi.Props
