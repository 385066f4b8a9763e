import Verif.Props.Slots
import Verif.Props.Enclosure
/-!
# C87: the public conversions from and to bytes
-/
namespace Dmi.Props
open Spec system_slots enclosure

/-- The device stored in the five bytes at `o`. -/
def DeviceAt (data : Bytes) (o : Nat) (d : Device) : Prop :=
  d.segment_group_number = u16At data o ∧ d.bus_number = byteAt data (o + 2) ∧
  DevFn (byteAt data (o + 3)) d.device_and_function_number ∧ d.data_bus_width = byteAt data (o + 4)

/-- The full claim: converting bytes never reads beyond them. -/
def C87_full : Prop :=
  ∀ data : Bytes, Device.ofSlice data ≠ .ub ∧ ContainedElement.ofSlice data ≠ .ub ∧
    ∃ l, CollectsR PeerDevices.next (.ofSlice data) l

theorem five_bytes {data : Bytes} (h : 5 ≤ data.length) :
    ∃ a b c d e r, data = a :: b :: c :: d :: e :: r := by
  match data, h with
  | a :: b :: c :: d :: e :: r, _ => exact ⟨a, b, c, d, e, r, rfl⟩

theorem device_of_five (a b c d e : UInt8) (r : Bytes) :
    Device.ofSlice (a :: b :: c :: d :: e :: r) = .ok ⟨le16 [a, b], c, .ofU8 d, e⟩ := rfl

/-- C87: a device is read out of bounds exactly from fewer than five bytes; otherwise it is the one
stored in the first five. -/
theorem C87_device_partial (data : Bytes) :
    (Device.ofSlice data = .ub ↔ data.length < 5) ∧
    (5 ≤ data.length → ∃ d, Device.ofSlice data = .ok d ∧ DeviceAt data 0 d) := by
  have long : 5 ≤ data.length → ∃ d, Device.ofSlice data = .ok d ∧ DeviceAt data 0 d := by
    intro h
    obtain ⟨a, b, c, d, e, r, rfl⟩ := five_bytes h
    refine ⟨_, device_of_five a b c d e r, ?_, rfl, devFn_iff.2 rfl, rfl⟩
    rfl
  refine ⟨⟨fun h => ?_, fun h => ?_⟩, long⟩
  · refine Nat.not_le.mp fun h5 => ?_
    obtain ⟨d, hd, -⟩ := long h5
    rw [hd] at h; cases h
  · match data, h with
    | [], _ => rfl
    | [_], _ => rfl
    | [_, _], _ => rfl
    | [_, _, _], _ => rfl
    | [_, _, _, _], _ => rfl
    | _ :: _ :: _ :: _ :: _ :: _, h => simp only [List.length_cons] at h; omega

/-- C87: a contained element is read out of bounds exactly from fewer than three bytes; otherwise
it is the one stored in the first three. -/
theorem C87_element_partial (data : Bytes) :
    (ContainedElement.ofSlice data = .ub ↔ data.length < 3) ∧
    (3 ≤ data.length → ∃ e, ContainedElement.ofSlice data = .ok e ∧
      e.minimum = byteAt data 1 ∧ e.maximum = byteAt data 2 ∧
      e.type_ = if (byteAt data 0).toNat < 128 then .BoardType (baseboard.BoardType.ofU8 (byteAt data 0))
        else .InfoType (InfoType.ofU8 (byteAt data 0 - 128))) := by
  have ty : ∀ b : UInt8, ContainedElementType.ofU8 b = if b.toNat < 128 then
      .BoardType (baseboard.BoardType.ofU8 b) else .InfoType (InfoType.ofU8 (b - 128)) :=
    forall_u8 (by decide +kernel)
  refine ⟨⟨fun h => ?_, fun h => ?_⟩, fun h => ?_⟩
  · match data, h with
    | [], _ => decide
    | [_], _ => simp
    | [_, _], _ => simp
    | _ :: _ :: _ :: _, h => cases h
  · match data, h with
    | [], _ => rfl
    | [_], _ => rfl
    | [_, _], _ => rfl
    | _ :: _ :: _ :: _, h => simp only [List.length_cons] at h; omega
  · match data, h with
    | a :: b :: c :: r, _ => exact ⟨⟨.ofU8 a, b, c⟩, rfl, rfl, rfl, ty a⟩

/-- Calls of `next` yield the given items; the next one reads out of bounds. -/
inductive UbAfter {σ α : Type} (next : σ → Fault (Option α × σ)) : σ → List α → Prop
  | now {s} (h : next s = .ub) : UbAfter next s []
  | step {s s' a l} (h : next s = .ok (some a, s')) (t : UbAfter next s' l) : UbAfter next s (a :: l)

theorem byteAt_add5 (a b c d e : UInt8) (r : Bytes) (o : Nat) :
    byteAt (a :: b :: c :: d :: e :: r) (o + 5) = byteAt r o := by
  simp [byteAt]

theorem deviceAt_add5 {a b c d e : UInt8} {r : Bytes} {o : Nat} {v : Device} (h : DeviceAt r o v) :
    DeviceAt (a :: b :: c :: d :: e :: r) (o + 5) v := by
  have h8 := byteAt_add5 a b c d e r
  obtain ⟨h1, h2, h3, h4⟩ := h
  refine ⟨?_, ?_, ?_, ?_⟩
  · rw [h1]
    unfold u16At
    simp only [leAt]
    rw [show o + 5 + 1 = o + 1 + 5 by omega, h8, h8]
  · rw [h2, show o + 5 + 2 = o + 2 + 5 by omega, h8]
  · rw [show o + 5 + 3 = o + 3 + 5 by omega, h8]; exact h3
  · rw [h4, show o + 5 + 4 = o + 4 + 5 by omega, h8]

/-- C87: peer devices made from any bytes yield one device per five bytes; if bytes are left over,
the call after these reads out of bounds. -/
theorem C87_peers_partial (data : Bytes) : ∃ l : List Device,
    l.length = data.length / 5 ∧ (∀ i (h : i < l.length), DeviceAt data (5 * i) l[i]) ∧
    (if data.length % 5 = 0 then CollectsR PeerDevices.next (.ofSlice data) l
     else UbAfter PeerDevices.next (.ofSlice data) l) := by
  induction hn : data.length using Nat.strongRecOn generalizing data with
  | ind n ih =>
    subst hn
    by_cases h5 : 5 ≤ data.length
    · obtain ⟨a, b, c, d, e, r, rfl⟩ := five_bytes h5
      obtain ⟨l, h1, h2, h3⟩ := ih r.length (by simp; omega) r rfl
      have hlen : (a :: b :: c :: d :: e :: r).length = r.length + 5 := rfl
      have hstep : PeerDevices.next (.ofSlice (a :: b :: c :: d :: e :: r)) =
          .ok (some ⟨le16 [a, b], c, .ofU8 d, e⟩, .ofSlice r) := rfl
      refine ⟨⟨le16 [a, b], c, .ofU8 d, e⟩ :: l, ?_, ?_, ?_⟩
      · rw [hlen, List.length_cons, h1]; omega
      · intro i hi
        cases i with
        | zero => exact ⟨rfl, rfl, devFn_iff.2 rfl, rfl⟩
        | succ i => exact deviceAt_add5 (h2 i (by simpa using hi))
      · rw [hlen, Nat.add_mod_right]
        split
        · rename_i h0; rw [if_pos h0] at h3; exact .step hstep h3
        · rename_i h0; rw [if_neg h0] at h3; exact .step hstep h3
    · refine ⟨[], ?_, fun i hi => by simp at hi, ?_⟩
      · rw [List.length_nil]; omega
      · match data, h5 with
        | [], _ => exact .done rfl
        | [_], _ => exact .now rfl
        | [_, _], _ => exact .now rfl
        | [_, _, _], _ => exact .now rfl
        | [_, _, _, _], _ => exact .now rfl
        | _ :: _ :: _ :: _ :: _ :: _, h => simp at h

example : UbAfter PeerDevices.next (.ofSlice [1, 0, 2, 0xFF, 4, 9]) [⟨1, 2, ⟨31, 7⟩, 4⟩] :=
  .step rfl (.now rfl)

/-- C87: so the full claim is false. -/
theorem C87_full_false : ¬ C87_full := fun h => (h []).1 rfl

/-- C87: a device converted to bytes and back is the same exactly if its device number is below 32
and its function number below 8. -/
theorem C87_round_trip (d : Device) :
    Device.ofSlice d.toBytes = .ok d ↔ d.device_and_function_number.device.toNat < 32 ∧
      d.device_and_function_number.function.toNat < 8 := by
  obtain ⟨s, b, ⟨dv, fn⟩, w⟩ := d
  have hs : le16 [s.toUInt8, (s >>> 8).toUInt8] = s := by
    apply UInt16.toNat_inj.1
    rw [le16_toNat2, UInt16.toNat_toUInt8, UInt16.toNat_toUInt8, UInt16.toNat_shiftRight,
      show (8 : UInt16).toNat % 16 = 8 from rfl, Nat.shiftRight_eq_div_pow]
    have := s.toNat_lt
    omega
  have hd : ∀ x : UInt8, (DeviceAndFunctionNumber.ofU8 x).device.toNat < 32 ∧
      (DeviceAndFunctionNumber.ofU8 x).function.toNat < 8 := forall_u8 (by decide +kernel)
  have key : Device.ofSlice (Device.mk s b ⟨dv, fn⟩ w).toBytes =
      .ok ⟨s, b, .ofU8 (DeviceAndFunctionNumber.mk dv fn).toU8, w⟩ := by
    show Res.ok _ = _
    rw [hs]
  rw [key]
  constructor
  · intro h
    injection h with h
    injection h with _ _ h _
    rw [← h]; exact hd _
  · rintro ⟨h1, h2⟩
    have all : ∀ i : Fin 32, ∀ j : Fin 8, DeviceAndFunctionNumber.ofU8
        (DeviceAndFunctionNumber.mk (UInt8.ofNat i) (UInt8.ofNat j)).toU8 =
        ⟨UInt8.ofNat i, UInt8.ofNat j⟩ := by decide +kernel
    have := all ⟨dv.toNat, h1⟩ ⟨fn.toNat, h2⟩
    simp only [UInt8.ofNat_toNat] at this
    rw [this]

example : Device.ofSlice (Device.toBytes ⟨1, 2, ⟨32, 0⟩, 4⟩) = .ok ⟨1, 2, ⟨0, 0⟩, 4⟩ := rfl

/-- C87: a version made from two numbers has these numbers exactly if both are below 256; otherwise
their remainders. -/
theorem C87_version (a b : Nat) :
    (SmbiosVersion.ofPair a b).major.toNat = a % 256 ∧ (SmbiosVersion.ofPair a b).minor.toNat = b % 256 ∧
    ((SmbiosVersion.ofPair a b).major.toNat = a ∧ (SmbiosVersion.ofPair a b).minor.toNat = b ↔
      a < 256 ∧ b < 256) := by
  have ha : (SmbiosVersion.ofPair a b).major.toNat = a % 256 := UInt8.toNat_ofNat'
  have hb : (SmbiosVersion.ofPair a b).minor.toNat = b % 256 := UInt8.toNat_ofNat'
  refine ⟨ha, hb, ?_⟩
  rw [ha, hb]
  omega

end Dmi.Props
