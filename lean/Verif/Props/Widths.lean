import Verif.Proofs.Get
import Verif.Proofs.Outcome
import Verif.Props.Eq
import Verif.Props.Safety
import Verif.Props.Enclosure
import Verif.Props.Language
import Verif.Props.Table
import Verif.Proofs.Hosts
import Verif.Model.BigEndian
import Verif.Model.Flat
import Verif.Model.Layouts
/-!
# Hosts with a `usize` of another width (C79)

The theorems elsewhere are about 64-bit hosts. Here `n` is any width from `b` bits on, where `b` is at least 16
and everything addressed has fewer than `2 ^ b` bytes. No slice is longer than `isize::MAX`, so `b` can be the
width itself, up to 64 bits. In a table the data of a structure have at most 251 bytes.
-/
namespace Dmi.Props

open Dmi Spec
set_option linter.unusedSimpArgs false

/-- Access at `start .. start + size` with the start and the end computed modulo `2 ^ n`. -/
theorem getRange_wrapped (n : Nat) (d : Bytes) (hd : d.length + 4 < 2 ^ n) (k : Nat)
    (hk : 0 < k) (hk4 : k ≤ 4) (stop : Nat) : getRange d ((2 ^ n - k) % 2 ^ n) stop = none := by
  rw [Nat.mod_eq_of_lt (by omega)]
  unfold getRange
  rw [if_neg (by omega)]

theorem getBytes_any (n : Nat) (oc : Bool) (r : RawStructure)
    (hd : r.data.length + 4 < 2 ^ n) (size off : Nat) (hs : 0 < size) (hs' : size ≤ 16)
    (ho : off + 12 < 2 ^ n) : @RawStructure.getBytes ⟨n⟩ oc r size off =
      if 4 ≤ off then
        if ((getRange r.data (off - 4) (off - 4 + size)).getD []).length = size then
          .ok ((getRange r.data (off - 4) (off - 4 + size)).getD []) else .err .InvalidSlice
      else if oc then .panic else .err .InvalidSlice := by
  unfold RawStructure.getBytes subUsize addUsize
  by_cases h4 : 4 ≤ off
  · simp only [if_pos h4, ok_bind]
    rw [if_pos (by omega)]
    rfl
  · simp only [if_neg h4]
    cases oc with
    | true => rfl
    | false =>
      have e : 2 ^ n + off - 4 = 2 ^ n - (4 - off) := by omega
      simp only [Bool.false_eq_true, if_false, ok_bind, e]
      have key := getRange_wrapped n r.data hd (4 - off) (by omega) (by omega)
      split <;> simp only [ok_bind, key, Option.getD_none, List.length_nil] <;> rw [if_neg (by omega)]

theorem pow_width {b n : Nat} (hn : b ≤ n) : 2 ^ b ≤ 2 ^ n := Nat.pow_le_pow_right (by decide) hn

theorem getBytes_width (b n : Nat) (h64 : b ≤ 64) (hn : b ≤ n) (oc : Bool) (r : RawStructure)
    (hd : r.data.length + 4 < 2 ^ b) (size off : Nat) (hs : 0 < size) (hs' : size ≤ 16)
    (ho : off + 12 < 2 ^ b) :
    @RawStructure.getBytes ⟨n⟩ oc r size off = @RawStructure.getBytes host64 oc r size off := by
  have h1 := pow_width hn
  have h2 := pow_width h64
  rw [getBytes_any n oc r (by omega) size off hs hs' (by omega),
    getBytes_any 64 oc r (by omega) size off hs hs' (by omega)]

theorem get_slice_width (b n : Nat) (h64 : b ≤ 64) (hn : b ≤ n) (oc : Bool) (r : RawStructure)
    (hd : r.data.length + 4 < 2 ^ b) (off size : Nat) (hs : off + size < 2 ^ b + 4) :
    @RawStructure.get_slice ⟨n⟩ oc r off size = @RawStructure.get_slice host64 oc r off size := by
  have key : ∀ n, b ≤ n → @RawStructure.get_slice ⟨n⟩ oc r off size =
      if 4 ≤ off then .ok (getRange r.data (off - 4) (off - 4 + size))
      else if oc then .panic else .ok none := by
    intro n hn
    have hp := pow_width hn
    unfold RawStructure.get_slice subUsize addUsize
    by_cases h4 : 4 ≤ off
    · simp only [if_pos h4, ok_bind]
      rw [if_pos (by omega)]
      rfl
    · simp only [if_neg h4]
      cases oc with
      | true => rfl
      | false =>
        have e : 2 ^ n + off - 4 = 2 ^ n - (4 - off) := by omega
        simp only [Bool.false_eq_true, if_false, ok_bind, e]
        have key := getRange_wrapped n r.data (by omega) (4 - off) (by omega) (by omega)
        split <;> simp only [ok_bind, key] <;> rfl
  rw [key n hn, key 64 h64]

/-- C79: reading fields by offset does not depend on the width of `usize`. -/
theorem C79_get (b n : Nat) (h64 : b ≤ 64) (hn : b ≤ n) (oc : Bool) (r : RawStructure)
    (hd : r.data.length + 4 < 2 ^ b) (off : Nat) (ho : off + 12 < 2 ^ b) :
    @RawStructure.get8 ⟨n⟩ oc r off = @RawStructure.get8 ⟨64⟩ oc r off ∧
    @RawStructure.get16 ⟨n⟩ oc r off = @RawStructure.get16 ⟨64⟩ oc r off ∧
    @RawStructure.get32 ⟨n⟩ oc r off = @RawStructure.get32 ⟨64⟩ oc r off ∧
    @RawStructure.get64 ⟨n⟩ oc r off = @RawStructure.get64 ⟨64⟩ oc r off ∧
    @RawStructure.get128 ⟨n⟩ oc r off = @RawStructure.get128 ⟨64⟩ oc r off ∧
    @RawStructure.get_string ⟨n⟩ oc r off = @RawStructure.get_string ⟨64⟩ oc r off ∧
    ∀ size, off + size < 2 ^ b + 4 →
      @RawStructure.get_slice ⟨n⟩ oc r off size = @RawStructure.get_slice ⟨64⟩ oc r off size := by
  have k := fun m h1 h2 => getBytes_width b n h64 hn oc r hd m off h1 h2 ho
  unfold RawStructure.get_string RawStructure.get8 RawStructure.get16 RawStructure.get32
    RawStructure.get64 RawStructure.get128
  simp only [k 1 (by decide) (by decide), k 2 (by decide) (by decide), k 4 (by decide) (by decide),
    k 8 (by decide) (by decide), k 16 (by decide) (by decide), true_and]
  exact fun size hs => get_slice_width b n h64 hn oc r hd off size hs

/-! ### Decoders -/

section Decoders
variable (b n : Nat) (h16 : 16 ≤ b) (h64 : b ≤ 64) (hn : b ≤ n) (oc : Bool) (s : RawStructure)
  (hd : s.data.length + 4 < 2 ^ b)
include h16 h64 hn hd

theorem get8_width (off : Nat) (ho : off + 12 < 2 ^ 16) :
    @RawStructure.get8 ⟨n⟩ oc s off = @RawStructure.get8 ⟨64⟩ oc s off :=
  (C79_get b n h64 hn oc s hd off (Nat.lt_of_lt_of_le ho (pow_width h16))).1

theorem get16_width (off : Nat) (ho : off + 12 < 2 ^ 16) :
    @RawStructure.get16 ⟨n⟩ oc s off = @RawStructure.get16 ⟨64⟩ oc s off :=
  (C79_get b n h64 hn oc s hd off (Nat.lt_of_lt_of_le ho (pow_width h16))).2.1

theorem get32_width (off : Nat) (ho : off + 12 < 2 ^ 16) :
    @RawStructure.get32 ⟨n⟩ oc s off = @RawStructure.get32 ⟨64⟩ oc s off :=
  (C79_get b n h64 hn oc s hd off (Nat.lt_of_lt_of_le ho (pow_width h16))).2.2.1

theorem get64_width (off : Nat) (ho : off + 12 < 2 ^ 16) :
    @RawStructure.get64 ⟨n⟩ oc s off = @RawStructure.get64 ⟨64⟩ oc s off :=
  (C79_get b n h64 hn oc s hd off (Nat.lt_of_lt_of_le ho (pow_width h16))).2.2.2.1

theorem get_string_width (off : Nat) (ho : off + 12 < 2 ^ 16) :
    @RawStructure.get_string ⟨n⟩ oc s off = @RawStructure.get_string ⟨64⟩ oc s off :=
  (C79_get b n h64 hn oc s hd off (Nat.lt_of_lt_of_le ho (pow_width h16))).2.2.2.2.2.1

theorem slots_width :
    @system_slots.SystemSlots.try_from ⟨n⟩ oc s = @system_slots.SystemSlots.try_from ⟨64⟩ oc s := by
  have key : @system_slots.SystemSlots.decode ⟨n⟩ oc s = @system_slots.SystemSlots.decode ⟨64⟩ oc s := by
    unfold system_slots.SystemSlots.decode
    simp (discharger := decide) only [get8_width b n h16 h64 hn oc s hd, get16_width b n h16 h64 hn oc s hd,
      get_string_width b n h16 h64 hn oc s hd]
    have k8 : ∀ (c : UInt8) (a : Nat), a < 256 → @RawStructure.get8 ⟨n⟩ oc s (a + 5 * c.toNat) =
        @RawStructure.get8 ⟨64⟩ oc s (a + 5 * c.toNat) := fun c a ha =>
      get8_width b n h16 h64 hn oc s hd _ (by have := c.toNat_lt; omega)
    have k16 : ∀ (c : UInt8) (a : Nat), a < 256 → @RawStructure.get16 ⟨n⟩ oc s (a + 5 * c.toNat) =
        @RawStructure.get16 ⟨64⟩ oc s (a + 5 * c.toNat) := fun c a ha =>
      get16_width b n h16 h64 hn oc s hd _ (by have := c.toNat_lt; omega)
    have ks : ∀ c : UInt8, @RawStructure.get_slice ⟨n⟩ oc s 0x13 (5 * c.toNat) =
        @RawStructure.get_slice ⟨64⟩ oc s 0x13 (5 * c.toNat) := fun c =>
      (C79_get b n h64 hn oc s hd 0x13 (Nat.lt_of_lt_of_le (by decide) (pow_width h16))).2.2.2.2.2.2 _ (by have := c.toNat_lt; have := pow_width h16; omega)
    simp (discharger := decide) only [k8, k16, ks]
  unfold system_slots.SystemSlots.try_from
  rw [key]

theorem options_width :
    @system_configuration_options.SystemConfigurationOptions.try_from ⟨n⟩ oc s =
      @system_configuration_options.SystemConfigurationOptions.try_from ⟨64⟩ oc s := by
  unfold system_configuration_options.SystemConfigurationOptions.try_from
  simp (discharger := decide) only [get8_width b n h16 h64 hn oc s hd]

theorem group_width :
    @group_associations.GroupAssociations.try_from ⟨n⟩ oc s =
      @group_associations.GroupAssociations.try_from ⟨64⟩ oc s := by
  unfold group_associations.GroupAssociations.try_from
  have hl : s.length.toNat < 256 := s.length.toNat_lt
  simp (discharger := decide) only [get_string_width b n h16 h64 hn oc s hd]
  by_cases h : 5 ≤ s.length.toNat
  · simp only [subUsize, if_pos h, ok_bind,
      (C79_get b n h64 hn oc s hd 5 (Nat.lt_of_lt_of_le (by decide) (pow_width h16))).2.2.2.2.2.2 (s.length.toNat - 5) (by have := pow_width h16; omega)]
  · cases oc with
    | true => simp only [subUsize, if_neg h]; rfl
    | false =>
      have key : ∀ m, b ≤ m →
          @RawStructure.get_slice ⟨m⟩ false s 5 ((2 ^ m + s.length.toNat - 5) % 2 ^ m) = .ok none := by
        intro m hm
        have hp := pow_width hm
        have hq := pow_width h16
        rw [Nat.mod_eq_of_lt (by omega)]
        simp only [RawStructure.get_slice, subUsize, addUsize, if_pos (show 4 ≤ 5 by decide), ok_bind]
        split
        · simp only [ok_bind, getRange]
          rw [if_neg (by omega)]; rfl
        · simp only [Bool.false_eq_true, if_false, ok_bind, getRange]
          rw [if_neg]
          · rfl
          · intro hc
            have : 5 - 4 + (2 ^ m + s.length.toNat - 5) = 2 ^ m := by omega
            rw [this, Nat.mod_self] at hc
            omega
      simp only [subUsize, if_neg h, Bool.false_eq_true, if_false, ok_bind, key n hn, key 64 h64]

theorem event_log_width :
    @system_event_log.SystemEventLog.try_from ⟨n⟩ oc s =
      @system_event_log.SystemEventLog.try_from ⟨64⟩ oc s := by
  have k1 : ∀ a c, @system_event_log.descriptors ⟨n⟩ oc s a c =
      @system_event_log.descriptors ⟨64⟩ oc s a c := by
    intro a c
    unfold system_event_log.descriptors
    cases a with
    | none => rfl
    | some a =>
      cases c with
      | none => rfl
      | some c =>
        have : a.toNat * c.toNat ≤ 255 * 255 :=
          Nat.mul_le_mul (by have := a.toNat_lt; omega) (by have := c.toNat_lt; omega)
        simp only [(C79_get b n h64 hn oc s hd 0x17 (Nat.lt_of_lt_of_le (by decide) (pow_width h16))).2.2.2.2.2.2 (a.toNat * c.toNat) (by have := pow_width h16; omega)]
  unfold system_event_log.SystemEventLog.try_from system_event_log.SystemEventLog.decode
  simp (discharger := decide) only [get8_width b n h16 h64 hn oc s hd, get16_width b n h16 h64 hn oc s hd,
    get32_width b n h16 h64 hn oc s hd, k1]

theorem memory_device_width :
    @memory_device.MemoryDevice.try_from ⟨n⟩ oc s = @memory_device.MemoryDevice.try_from ⟨64⟩ oc s := by
  unfold memory_device.MemoryDevice.try_from
  simp (discharger := decide) only [get8_width b n h16 h64 hn oc s hd, get16_width b n h16 h64 hn oc s hd,
    get32_width b n h16 h64 hn oc s hd, get64_width b n h16 h64 hn oc s hd, get_string_width b n h16 h64 hn oc s hd]

theorem memory_error_width :
    @memory_error_32.MemoryError32.try_from ⟨n⟩ oc s =
      @memory_error_32.MemoryError32.try_from ⟨64⟩ oc s := by
  unfold memory_error_32.MemoryError32.try_from
  simp (discharger := decide) only [get8_width b n h16 h64 hn oc s hd, get16_width b n h16 h64 hn oc s hd,
    get32_width b n h16 h64 hn oc s hd, get64_width b n h16 h64 hn oc s hd, get_string_width b n h16 h64 hn oc s hd]

theorem array_mapped_width :
    @memory_array_mapped_address.MemoryArrayMappedAddress.try_from ⟨n⟩ oc s =
      @memory_array_mapped_address.MemoryArrayMappedAddress.try_from ⟨64⟩ oc s := by
  unfold memory_array_mapped_address.MemoryArrayMappedAddress.try_from
  simp (discharger := decide) only [get8_width b n h16 h64 hn oc s hd, get16_width b n h16 h64 hn oc s hd,
    get32_width b n h16 h64 hn oc s hd, get64_width b n h16 h64 hn oc s hd, get_string_width b n h16 h64 hn oc s hd]

theorem device_mapped_width :
    @memory_device_mapped_address.MemoryDeviceMappedAddress.try_from ⟨n⟩ oc s =
      @memory_device_mapped_address.MemoryDeviceMappedAddress.try_from ⟨64⟩ oc s := by
  unfold memory_device_mapped_address.MemoryDeviceMappedAddress.try_from
  simp (discharger := decide) only [get8_width b n h16 h64 hn oc s hd, get16_width b n h16 h64 hn oc s hd,
    get32_width b n h16 h64 hn oc s hd, get64_width b n h16 h64 hn oc s hd, get_string_width b n h16 h64 hn oc s hd]

theorem pointing_width :
    @built_in_pointing_device.BuiltInPointingDevice.try_from ⟨n⟩ oc s =
      @built_in_pointing_device.BuiltInPointingDevice.try_from ⟨64⟩ oc s := by
  unfold built_in_pointing_device.BuiltInPointingDevice.try_from
  simp (discharger := decide) only [get8_width b n h16 h64 hn oc s hd, get16_width b n h16 h64 hn oc s hd,
    get32_width b n h16 h64 hn oc s hd, get64_width b n h16 h64 hn oc s hd, get_string_width b n h16 h64 hn oc s hd]

theorem battery_width :
    @portable_battery.PortableBattery.try_from ⟨n⟩ oc s =
      @portable_battery.PortableBattery.try_from ⟨64⟩ oc s := by
  unfold portable_battery.PortableBattery.try_from portable_battery.optString
  simp (discharger := decide) only [get8_width b n h16 h64 hn oc s hd, get16_width b n h16 h64 hn oc s hd,
    get32_width b n h16 h64 hn oc s hd, get64_width b n h16 h64 hn oc s hd, get_string_width b n h16 h64 hn oc s hd]

end Decoders

/-! ### The empty list of contained elements

`ContainedElements::new` makes the iterator of an empty list with `chunks_exact(usize::MAX)`, which is where a
decoded value depends on the width. -/

/-- The contained elements as a host with an `n`-bit `usize` has them. -/
def elementsOn (n : Nat) (c : enclosure.ContainedElements) : enclosure.ContainedElements :=
  if c.count = 0 ∨ c.record_length = 0 then { c with chunks := { c.chunks with size := 2 ^ n - 1 } } else c

/-- The decoded structure as a host with an `n`-bit `usize` has it. -/
def structureOn (n : Nat) : Structure → Structure
  | .Enclosure e => .Enclosure { e with contained_elements := e.contained_elements.map (elementsOn n) }
  | t => t

/-- Two runs that differ in what they return. -/
theorem bind_map_congr {ε α β γ : Type} {x : Res ε α} {f : α → Res ε γ} {g : α → Res ε β} {k : β → γ}
    (h : ∀ a, f a = (g a).map k) : (x >>= f) = (x >>= g).map k := by
  cases x with
  | ok a => exact h a
  | _ => rfl

theorem elements_width (n : Nat) (oc : Bool) (data : Bytes) :
    @enclosure.ContainedElements.new ⟨n⟩ oc data =
      (@enclosure.ContainedElements.new ⟨64⟩ oc data).map
        (Option.map fun p => (elementsOn n p.1, p.2)) := by
  unfold enclosure.ContainedElements.new
  refine bind_map_congr fun o => ?_
  rcases o with _ | ⟨count, d⟩
  · rfl
  refine bind_map_congr fun o => ?_
  rcases o with _ | ⟨rl, d⟩
  · rfl
  by_cases h : count = 0 ∨ rl = 0
  · simp only [if_pos h, Res.map, Option.map, elementsOn]
  · simp only [if_neg h]
    refine bind_map_congr fun l => ?_
    cases getRange d 0 l.toNat with
    | none => rfl
    | some r =>
      refine bind_map_congr fun d' => ?_
      simp only [Res.map, Option.map, elementsOn, if_neg h]

/-- The optional part of an enclosure as a host with an `n`-bit `usize` has it. -/
def optionalsOn (n : Nat) (o : enclosure.Optionals) : enclosure.Optionals :=
  { o with contained_elements := o.contained_elements.map (elementsOn n) }

theorem optionals_width (n : Nat) (oc : Bool) (data : Bytes) :
    @enclosure.readOptionals ⟨n⟩ oc data =
      (@enclosure.readOptionals ⟨64⟩ oc data).map fun p => (optionalsOn n p.1, p.2) := by
  unfold enclosure.readOptionals
  iterate 7
    refine bind_map_congr fun o => ?_
    rcases o with _ | ⟨_, _⟩
    · rfl
    dsimp only
  rw [elements_width]
  cases @enclosure.ContainedElements.new ⟨64⟩ oc _ with
  | ok o =>
    rcases o with _ | ⟨_, d⟩
    · rfl
    show (enclosure.read_bytes8 d >>= _) = (enclosure.read_bytes8 d >>= _).map _
    refine bind_map_congr fun o => ?_
    rcases o with _ | ⟨_, _⟩ <;> rfl
  | _ => rfl

theorem enclosure_width (n : Nat) (oc : Bool) (s : RawStructure) :
    @enclosure.Enclosure.try_from ⟨n⟩ oc s =
      (@enclosure.Enclosure.try_from ⟨64⟩ oc s).map fun e =>
        { e with contained_elements := e.contained_elements.map (elementsOn n) } := by
  unfold enclosure.Enclosure.try_from
  split
  · rfl
  iterate 5 refine bind_map_congr fun _ => ?_
  rw [optionals_width]
  cases @enclosure.readOptionals ⟨64⟩ oc _ with
  | ok o =>
    show (enclosure.findSku s o.2 >>= _) = (enclosure.findSku s o.2 >>= _).map _
    exact bind_map_congr fun _ => rfl
  | _ => rfl

/-- C79: a host with a `usize` of `n` bits, 16 or more, decodes every structure as a 64-bit host does, with the same
error, panic or value, up to the chunk length of an empty list of contained elements. -/
theorem C79_decode (b n : Nat) (h16 : 16 ≤ b) (h64 : b ≤ 64) (hn : b ≤ n) (oc : Bool) (s : RawStructure)
    (hd : s.data.length + 4 < 2 ^ b) :
    @decodeStructure ⟨n⟩ oc s = (@decodeStructure ⟨64⟩ oc s).map (structureOn n) := by
  have mm : ∀ {α : Type} (x : R α) (f : α → Structure), (∀ a, structureOn n (f a) = f a) →
      x.map f = (x.map f).map (structureOn n) := by
    intro α x f h
    cases x with
    | ok a => exact congrArg Res.ok (h a).symm
    | _ => rfl
  unfold decodeStructure
  split
  all_goals
    try rw [slots_width b n h16 h64 hn oc s hd]
    try rw [options_width b n h16 h64 hn oc s hd]
    try rw [group_width b n h16 h64 hn oc s hd]
    try rw [event_log_width b n h16 h64 hn oc s hd]
    try rw [memory_device_width b n h16 h64 hn oc s hd]
    try rw [memory_error_width b n h16 h64 hn oc s hd]
    try rw [array_mapped_width b n h16 h64 hn oc s hd]
    try rw [device_mapped_width b n h16 h64 hn oc s hd]
    try rw [pointing_width b n h16 h64 hn oc s hd]
    try rw [battery_width b n h16 h64 hn oc s hd]
    try rw [enclosure_width n oc s]
    first
    | exact mm _ _ fun _ => rfl
    | rfl
    | cases @enclosure.Enclosure.try_from ⟨64⟩ oc s <;> rfl

/-- An empty list has no bytes left to divide. -/
def Emptied (c : enclosure.ContainedElements) : Prop :=
  c.count = 0 ∨ c.record_length = 0 → c.chunks.rest = []

theorem elements_emptied (m : Nat) (oc : Bool) (data : Bytes) :
    Post (fun o => ∀ p, o = some p → Emptied p.1) (@enclosure.ContainedElements.new ⟨m⟩ oc data) := by
  unfold enclosure.ContainedElements.new
  post
  all_goals intro p hp; cases hp
  · exact fun _ => rfl
  · exact fun hc => absurd hc (by assumption)

theorem enclosure_emptied (m : Nat) (oc : Bool) (s : RawStructure) :
    Post (fun e => ∀ c, e.contained_elements = some c → Emptied c)
      (@enclosure.Enclosure.try_from ⟨m⟩ oc s) := by
  have key : ∀ b, Post (fun p => ∀ c, p.1.contained_elements = some c → Emptied c)
      (@enclosure.readOptionals ⟨m⟩ oc b) := by
    intro b
    unfold enclosure.readOptionals
    iterate 7
      refine Post.bind fun o _ => ?_
      rcases o with _ | ⟨_, _⟩
      · exact Post.ok fun c hc => by cases hc
      dsimp only
    refine Post.bind fun o ho => ?_
    rcases o with _ | ⟨e, _⟩
    · exact Post.ok fun c hc => by cases hc
    have := elements_emptied m oc _ _ ho _ rfl
    refine Post.bind fun o _ => ?_
    rcases o with _ | ⟨_, _⟩
    all_goals exact Post.ok fun c hc => by cases hc; exact this
  unfold enclosure.Enclosure.try_from
  split
  · exact Post.err
  iterate 5 refine Post.bind fun _ _ => ?_
  refine Post.bind fun o ho => ?_
  refine Post.bind fun _ _ => ?_
  exact Post.pure fun c hc => key _ _ ho c hc

theorem elementsOn_rest (n : Nat) (c : enclosure.ContainedElements) :
    (elementsOn n c).count = c.count ∧ (elementsOn n c).record_length = c.record_length ∧
    (elementsOn n c).chunks.rest = c.chunks.rest := by
  unfold elementsOn
  split <;> exact ⟨rfl, rfl, rfl⟩

/-- C79: that chunk length shows neither in the elements nor in the count nor in comparisons: there are no
bytes to divide into chunks. -/
theorem C79_enclosure (n m : Nat) (oc : Bool) (s : RawStructure) (e : enclosure.Enclosure)
    (he : @decodeStructure ⟨m⟩ oc s = .ok (.Enclosure e)) (c : enclosure.ContainedElements)
    (hc : e.contained_elements = some c) :
    (elementsOn n c).count = c.count ∧ (elementsOn n c).record_length = c.record_length ∧
    (elementsOn n c).chunks.rest = c.chunks.rest ∧
    (c.count = 0 ∨ c.record_length = 0 → c.chunks.rest = []) ∧
    (∀ l, CollectsR enclosure.ContainedElements.next (elementsOn n c) l ↔
      CollectsR enclosure.ContainedElements.next c l) ∧
    ∀ d, (elementsOn n c).eq d = c.eq d ∧ d.eq (elementsOn n c) = d.eq c := by
  have hem : Emptied c := by
    have out : ∀ {α : Type} {x : R α} {f : α → Structure} {y : Structure}, x.map f = .ok y →
        ∃ a, x = .ok a ∧ f a = y := by
      intro α x f y h
      cases x with
      | ok a => exact ⟨a, rfl, Res.ok.inj h⟩
      | _ => cases h
    unfold decodeStructure at he
    split at he
    case h_4 =>
      obtain ⟨a, ha, h⟩ := out he
      cases h
      exact enclosure_emptied m oc s _ ha c hc
    all_goals first
      | (obtain ⟨_, _, h⟩ := out he; cases h; done)
      | cases he
  obtain ⟨h1, h2, h3⟩ := elementsOn_rest n c
  refine ⟨h1, h2, h3, hem, ?_⟩
  by_cases h : c.count = 0 ∨ c.record_length = 0
  · have hr := hem h
    have hr' : (elementsOn n c).chunks.rest = [] := h3.trans hr
    have none_next : ∀ a : enclosure.ContainedElements, a.chunks.rest = [] →
        a.next = .ok (none, a) := by
      intro a ha
      unfold enclosure.ContainedElements.next Chunks.next
      rw [ha]
      rfl
    have none_iff : ∀ (a : enclosure.ContainedElements) l, a.chunks.rest = [] →
        (CollectsR enclosure.ContainedElements.next a l ↔ l = []) := by
      intro a l ha
      constructor
      · intro hl
        cases hl with
        | done => rfl
        | step h => rw [none_next a ha] at h; cases h
      · rintro rfl
        exact .done (none_next a ha)
    refine ⟨fun l => by rw [none_iff _ _ hr, none_iff _ _ hr'], fun d => ?_⟩
    have left : ∀ a b : Chunks, a.rest = [] → a.eq b = b.rest.isEmpty := by
      intro a b ha
      unfold Chunks.eq
      rw [ha]
      simp only [List.length_nil, Nat.zero_add, Chunks.eqFuel, Chunks.next, ha, List.isEmpty_nil,
        if_true]
      cases b.rest <;> rfl
    have right : ∀ a b b' : Chunks, b.rest = [] → b'.rest = [] → a.eq b = a.eq b' := by
      intro a b b' hb hb'
      unfold Chunks.eq
      simp only [Chunks.eqFuel, Chunks.next, hb, hb', List.isEmpty_nil, if_true]
      cases a.rest <;> rfl
    unfold enclosure.ContainedElements.eq
    rw [h1, h2, left _ _ hr, left _ _ hr', right d.chunks _ _ hr hr']
    exact ⟨rfl, rfl⟩
  · have : elementsOn n c = c := by unfold elementsOn; rw [if_neg h]
    rw [this]
    exact ⟨fun _ => Iff.rfl, fun _ => ⟨rfl, rfl⟩⟩

/-! ### Iterating over the table -/

/-- The item of the iterator as a host with an `n`-bit `usize` has it. -/
def itemOn (n : Nat) :
    Except MalformedStructureError Structure → Except MalformedStructureError Structure
  | .ok t => .ok (structureOn n t)
  | .error e => .error e

theorem toItem_map (n : Nat) (x : R Structure) :
    (x.map (structureOn n)).toItem = x.toItem.map (itemOn n) := by
  cases x <;> rfl

/-- C79: a step of the iterator. -/
theorem C79_next (n : Nat) (hn : 16 ≤ n) (oc : Bool) (s : Structures)
    (hb : s.buffer.length < 2 ^ 32) :
    @Structures.next ⟨n⟩ oc s =
      (@Structures.next ⟨64⟩ oc s).map fun p => (p.1.map (itemOn n), p.2) := by
  unfold Structures.next
  cases hr : s.next_raw oc with
  | ok p =>
    obtain ⟨o, s'⟩ := p
    simp only [ok_bind]
    rcases o with _ | _ | r
    · rfl
    · rfl
    · have hc : r.data.length + 4 = r.length.toNat := coherent_of_next_raw oc s s' r hb hr
      have := r.length.toNat_lt
      dsimp only
      rw [C79_decode 16 n (Nat.le_refl _) (by decide) hn oc r (by omega), toItem_map]
      cases (@decodeStructure ⟨64⟩ oc r).toItem <;> rfl
  | _ => rfl

/-- C79: a loop over the table gives as many items, in the same order; item by item they are the same errors
and the same structures. -/
theorem C79_stream (n : Nat) (hn : 16 ≤ n) (oc : Bool) (s : Structures)
    (hb : s.buffer.length < 2 ^ 32) (l : List (Except MalformedStructureError Structure)) :
    CollectsR (@Structures.next ⟨n⟩ oc) s l ↔
      ∃ l', CollectsR (@Structures.next ⟨64⟩ oc) s l' ∧ l = l'.map (itemOn n) := by
  have back : ∀ {x : Fault (Option (Except MalformedStructureError Structure) × Structures)} {o s'},
      (x.map fun p => (p.1.map (itemOn n), p.2)) = .ok (o, s') →
      ∃ o', x = .ok (o', s') ∧ o = o'.map (itemOn n) := by
    intro x o s' h
    cases x with
    | ok p => cases h; exact ⟨p.1, rfl, rfl⟩
    | _ => cases h
  constructor
  · intro h
    induction h with
    | done h =>
      rw [C79_next n hn oc _ hb] at h
      obtain ⟨o', h, ho⟩ := back h
      cases o' with
      | none => exact ⟨[], .done h, rfl⟩
      | some _ => cases ho
    | step h t ih =>
      rw [C79_next n hn oc _ hb] at h
      obtain ⟨o', h', ho⟩ := back h
      cases o' with
      | none => cases ho
      | some i =>
        cases ho
        obtain ⟨l', t', rfl⟩ := ih (by rw [(runs_buffer hb (.cons h' (.nil _))).1]; exact hb)
        exact ⟨i :: l', .step h' t', rfl⟩
  · rintro ⟨l', h, rfl⟩
    induction h with
    | done h => exact .done (by rw [C79_next n hn oc _ hb, h]; rfl)
    | step h t ih =>
      exact .step (by rw [C79_next n hn oc _ hb, h]; rfl)
        (ih (by rw [(runs_buffer hb (.cons h (.nil _))).1]; exact hb))

/-- C79: the same for reads past the formatted area (C68) and for big-endian hosts (C78). -/
theorem C79_other_hosts (n : Nat) (hn : 16 ≤ n) (oc : Bool) (s : Structures)
    (hb : s.buffer.length < 2 ^ 32) :
    (@Flat.next ⟨n⟩ oc s = (@Flat.next ⟨64⟩ oc s).map fun p => (p.1.map (itemOn n), p.2)) ∧
    @BigEndian.next ⟨n⟩ oc s = (@BigEndian.next ⟨64⟩ oc s).map fun p => (p.1.map (itemOn n), p.2) := by
  have mm : ∀ {α : Type} (x : R α) (f : α → Structure), (∀ a, structureOn n (f a) = f a) →
      x.map f = (x.map f).map (structureOn n) := by
    intro α x f h
    cases x with
    | ok a => exact congrArg Res.ok (h a).symm
    | _ => rfl
  have fd : ∀ past (r : RawStructure), r.data.length + 4 < 2 ^ 16 → @Flat.decodeStructure ⟨n⟩ oc past r =
      (@Flat.decodeStructure ⟨64⟩ oc past r).map (structureOn n) := by
    intro past r hr
    unfold Flat.decodeStructure
    split
    case h_8 => exact C79_decode 16 n (Nat.le_refl _) (by decide) hn oc r hr
    all_goals exact mm _ _ fun _ => rfl
  unfold Flat.next BigEndian.next
  cases hr : s.next_raw oc with
  | ok p =>
    obtain ⟨o, s'⟩ := p
    simp only [ok_bind]
    rcases o with _ | _ | r
    · exact ⟨rfl, rfl⟩
    · exact ⟨rfl, rfl⟩
    · have hc : r.data.length + 4 = r.length.toNat := coherent_of_next_raw oc s s' r hb hr
      have := r.length.toNat_lt
      have hs : (BigEndian.seen r).data.length = r.data.length := length_reverse _ _
      dsimp only
      rw [fd _ r (by omega), C79_decode 16 n (Nat.le_refl _) (by decide) hn oc (BigEndian.seen r) (by omega), toItem_map, toItem_map]
      constructor
      · cases (@Flat.decodeStructure ⟨64⟩ oc _ r).toItem <;> rfl
      · cases (@decodeStructure ⟨64⟩ oc (BigEndian.seen r)).toItem <;> rfl
  | _ => exact ⟨rfl, rfl⟩

/-! ### Bit fields -/

open bitfield in
theorem iter_width (n : Nat) (hn : 16 ≤ n) (oc : Bool) (it : Iter) (hl : it.layout.length < 2 ^ 16) :
    @Iter.next ⟨n⟩ oc it = @Iter.next ⟨64⟩ oc it ∧
    ∀ o it', @Iter.next ⟨64⟩ oc it = .ok (o, it') → it'.layout = it.layout := by
  have key : ∀ m, 16 ≤ m → @Iter.next ⟨m⟩ oc it =
      if it.index = it.width then pure (none, it)
      else (shlOne oc 128 it.index : Fault Nat) >>= fun k =>
        match it.layout[it.index]? with
        | none => .panic
        | some type_ => pure (some { position := it.index, is_set := (it.value &&& k) != 0, type_ },
            { it with index := it.index + 1 }) := by
    intro m hm
    have hp := pow_width hm
    unfold Iter.next
    split
    · rfl
    · congr 1
      funext k
      by_cases hi : it.index < it.layout.length
      · simp only [addUsize]
        rw [if_pos (by omega)]
        rfl
      · have : it.layout[it.index]? = none := List.getElem?_eq_none (by omega)
        simp only [this, addUsize]
        split
        · rfl
        · split <;> rfl
  refine ⟨by rw [key n hn, key 64 (by decide)], ?_⟩
  rw [key 64 (by decide)]
  intro o it' h
  split at h
  · cases h; rfl
  · obtain ⟨k, _, h⟩ := bind_ok_iff.1 h
    split at h
    · cases h
    · cases h; rfl

open bitfield in
/-- C79: the iterators over bit fields. -/
theorem C79_bitfield (n : Nat) (hn : 16 ≤ n) (oc : Bool) :
    (∀ it : Iter, it.layout.length < 2 ^ 16 →
      @Iter.next ⟨n⟩ oc it = @Iter.next ⟨64⟩ oc it ∧
      @Significants.next ⟨n⟩ oc it = @Significants.next ⟨64⟩ oc it) ∧
    ∀ r : Reserved, r.iter.layout.length < 2 ^ 16 →
      @Reserved.next ⟨n⟩ oc r = @Reserved.next ⟨64⟩ oc r := by
  have sig : ∀ (fuel : Nat) (it : Iter), it.layout.length < 2 ^ 16 →
      @significantsLoop ⟨n⟩ oc fuel it = @significantsLoop ⟨64⟩ oc fuel it := by
    intro fuel
    induction fuel with
    | zero => intro it _; rfl
    | succ fuel ih =>
      intro it hl
      obtain ⟨h1, h2⟩ := iter_width n hn oc it hl
      unfold significantsLoop
      rw [h1]
      cases h : @Iter.next ⟨64⟩ oc it with
      | ok p =>
        simp only [ok_bind]
        split
        · rfl
        · rw [ih p.2 (by rw [h2 _ _ h]; exact hl)]
      | _ => rfl
  have res : ∀ (fuel : Nat) (r : Reserved) (stop : Nat), r.iter.layout.length < 2 ^ 16 →
      @reservedLoop ⟨n⟩ oc fuel r stop = @reservedLoop ⟨64⟩ oc fuel r stop := by
    intro fuel
    induction fuel with
    | zero => intro r stop _; rfl
    | succ fuel ih =>
      intro r stop hl
      obtain ⟨h1, h2⟩ := iter_width n hn oc r.iter hl
      unfold reservedLoop
      rw [h1]
      cases h : @Iter.next ⟨64⟩ oc r.iter with
      | ok p =>
        have hl' : p.2.layout.length < 2 ^ 16 := by rw [h2 _ _ h]; exact hl
        simp only [ok_bind]
        split
        · rfl
        · split
          · split
            · rfl
            · exact ih _ _ hl'
          · exact ih _ _ hl'
          · rfl
          · exact ih _ _ hl'
      | _ => rfl
  exact ⟨fun it hl => ⟨(iter_width n hn oc it hl).1, sig _ it hl⟩, fun r hl => res _ r 0 hl⟩

/-! ### Examples -/

/-- An enclosure whose contained elements are absent: their number and length are 0. -/
def emptyEnclosure : RawStructure :=
  { exampleEnclosure with
    length := 0x16
    data := [1, 0x83, 2, 3, 4, 3, 3, 3, 2, 0x78, 0x56, 0x34, 0x12, 2, 1, 0, 0, 5] }

-- a 32-bit and a 64-bit host, the lengths, and where the values differ
example : 16 ≤ 16 ∧ emptyEnclosure.data.length + 4 < 2 ^ 16 ∧ exampleGroup.data.length + 4 < 2 ^ 16 := by decide
example : (@decodeStructure ⟨32⟩ true emptyEnclosure).okAnd (fun t =>
    match t with
    | .Enclosure e => e.contained_elements == some ⟨⟨[], 2 ^ 32 - 1⟩, 0, 0⟩ &&
        e.sku_number == some (ascii "SKU")
    | _ => false) = true := by decide +kernel
example : (@decodeStructure ⟨64⟩ true emptyEnclosure).okAnd (fun t =>
    match t with
    | .Enclosure e => e.contained_elements == some ⟨⟨[], 2 ^ 64 - 1⟩, 0, 0⟩ &&
        e.sku_number == some (ascii "SKU")
    | _ => false) = true := by decide +kernel
-- in an unchecked build the offset of a field before the formatted area wraps around, at either width
example : @RawStructure.get8 ⟨32⟩ false exampleGroup 3 = .err .InvalidSlice ∧
    @RawStructure.get8 ⟨64⟩ false exampleGroup 3 = .err .InvalidSlice ∧
    @RawStructure.get8 ⟨32⟩ true exampleGroup 3 = .panic ∧
    @RawStructure.get8 ⟨32⟩ true exampleGroup 4 = .ok 1 := by decide +kernel
-- a group of four bytes
example : (@group_associations.GroupAssociations.try_from ⟨32⟩ false
    { exampleGroup with length := 4, data := [] }).okAnd (fun _ => true) = false ∧
    (@group_associations.GroupAssociations.try_from ⟨32⟩ true
      { exampleGroup with length := 4, data := [] }) = .panic := by
  refine ⟨by decide +kernel, rfl⟩
-- a table with a structure
example : (⟨⟨2, 8⟩, 10, 0, samplePiece.bytes ++ [9]⟩ : Structures).buffer.length < 2 ^ 32 := by decide
example : (@Structures.next ⟨32⟩ true ⟨⟨2, 8⟩, 10, 0, samplePiece.bytes ++ [9]⟩).okAnd
    (fun p => p.1.isSome) = true := by decide +kernel
-- all layouts are short
example : (bios.Characteristics.LAYOUT).length < 2 ^ 16 := by decide +kernel

end Dmi.Props
