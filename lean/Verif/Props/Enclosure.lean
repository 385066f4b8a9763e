import Verif.Proofs.Decode
import Verif.Proofs.Finite
import Verif.Props.Strings
import Verif.Model.S003
/-!
# C33, C34: enclosures (type 3)
-/
set_option linter.unusedSimpArgs false

namespace Dmi.Props
open Spec enclosure

/-- Number and length of the contained element records. -/
def elementCount (s : RawStructure) : Nat := (byte s 0x13).toNat
def elementLength (s : RawStructure) : Nat := (byte s 0x14).toNat

/-- Bytes of contained element records, if the product of number and length fits one byte (what
the crate computes in general). -/
def recordBytes (s : RawStructure) : Nat := elementCount s * elementLength s % 256

/-- What is contained: bit 7 tells structure types from board types, bits 6:0 are the code. -/
def elementType (b : UInt8) : ContainedElementType :=
  if 128 ≤ b.toNat then .InfoType (InfoType.ofU8 (.ofNat (b.toNat - 128)))
  else .BoardType (baseboard.BoardType.ofU8 b)

theorem elementType_eq : ∀ b : UInt8, ContainedElementType.ofU8 b = elementType b :=
  forall_u8 (by decide +kernel)

/-- The `k`-th contained element record. -/
def element (s : RawStructure) (k : Nat) : ContainedElement where
  type_ := elementType (byte s (0x15 + k * elementLength s))
  minimum := byte s (0x15 + k * elementLength s + 1)
  maximum := byte s (0x15 + k * elementLength s + 2)

/-- The fields of a type 3 structure: each optional one is there iff the structure is long enough
to hold it. -/
structure EnclosureFields (s : RawStructure) (v : Enclosure) : Prop where
  handle : v.handle = s.handle
  manufacturer : Ref s 0x04 v.manufacturer
  chassis_lock : v.chassis_lock = decide (128 ≤ (byte s 0x05).toNat)
  enclosure_type : v.enclosure_type = EnclosureType.ofU8 (byte s 0x05 % 128)
  version : Ref s 0x06 v.version
  serial_number : Ref s 0x07 v.serial_number
  asset_tag_number : Ref s 0x08 v.asset_tag_number
  boot_up_state : When (Fits s 0x0A) v.boot_up_state (· = State.ofU8 (byte s 0x09))
  power_supply_state : When (Fits s 0x0B) v.power_supply_state (· = State.ofU8 (byte s 0x0A))
  thermal_state : When (Fits s 0x0C) v.thermal_state (· = State.ofU8 (byte s 0x0B))
  security_status : When (Fits s 0x0D) v.security_status (· = SecurityStatus.ofU8 (byte s 0x0C))
  oem_defined : When (Fits s 0x11) v.oem_defined (· = dword s 0x0D)
  height : When (Fits s 0x12) v.height (· = byte s 0x11)
  power_cords_number : When (Fits s 0x13) v.power_cords_number (· = byte s 0x12)
  contained_elements : When (Fits s 0x15 ∧ Fits s (0x15 + recordBytes s)) v.contained_elements
    (fun e => e.count = byte s 0x13 ∧ e.record_length = byte s 0x14)
  sku_number : When (Fits s 0x15 ∧ Fits s (0x15 + recordBytes s + 1)) v.sku_number
    (Ref s (0x15 + recordBytes s))

/-! #### Evaluation -/

theorem lock_type (b : UInt8) : get_lock b = decide (128 ≤ b.toNat) ∧
    get_type b = EnclosureType.ofU8 (b % 128) := by
  have : ∀ b : UInt8, get_lock b = decide (128 ≤ b.toNat) ∧ b &&& 0b0111_1111 = b % 128 := by
    exact forall_u8 (by decide +kernel)
  exact ⟨(this b).1, by rw [get_type, (this b).2]⟩

theorem read8_drop (d : Bytes) (o : Nat) : read_bytes8 (d.drop o) = .ok (
    if o + 1 ≤ d.length then some (byteAt d o, d.drop (o + 1)) else none) := by
  unfold read_bytes8 read_bytes
  by_cases h : o + 1 ≤ d.length
  · rw [if_neg (by simp; omega), if_pos h]
    simp only [letAsStruct, Packed.u8_drop (show o < d.length by omega), ok_bind, indexFrom, getFrom,
      List.length_drop, List.drop_drop]
    rw [if_pos (by omega)]
    rfl
  · rw [if_pos (by simp; omega), if_neg h]

theorem read32_drop (d : Bytes) (o : Nat) : read_bytes32 (d.drop o) = .ok (
    if o + 4 ≤ d.length then some (u32At d o, d.drop (o + 4)) else none) := by
  unfold read_bytes32 read_bytes
  by_cases h : o + 4 ≤ d.length
  · rw [if_neg (by simp; omega), if_pos h]
    simp only [letAsStruct, Packed.u32_drop (show o + 4 ≤ d.length by omega), ok_bind, indexFrom,
      getFrom, List.length_drop, List.drop_drop]
    rw [if_pos (by omega)]
    rfl
  · rw [if_pos (by simp; omega), if_neg h]

/-- The state of the element iterator right after decoding. -/
def initialChunks (s : RawStructure) : Chunks :=
  if elementCount s = 0 ∨ elementLength s = 0 then ⟨[], 2 ^ 64 - 1⟩
  else ⟨bytesAt s.data 0x11 (recordBytes s), elementLength s⟩

theorem elements_new (oc : Bool) (s : RawStructure)
    (hov : oc = true → Fits s 0x15 → elementCount s * elementLength s < 256) :
    ContainedElements.new oc (s.data.drop 15) = .ok (
      if Fits s 0x15 ∧ Fits s (0x15 + recordBytes s) then
        some (⟨initialChunks s, byte s 0x13, byte s 0x14⟩, s.data.drop (0x11 + recordBytes s))
      else none) := by
  unfold ContainedElements.new
  simp only [read8_drop, ok_bind]
  by_cases h1 : 15 + 1 ≤ s.data.length
  rotate_left
  · rw [if_neg h1, if_neg (by unfold Fits; omega)]
  rw [if_pos h1]
  simp only [read8_drop, ok_bind]
  by_cases h2 : 15 + 1 + 1 ≤ s.data.length
  rotate_left
  · rw [if_neg h2, if_neg (by unfold Fits; omega)]
  rw [if_pos h2]
  have hf : Fits s 0x15 := by unfold Fits; omega
  have hc : byteAt s.data 15 = byte s 0x13 := rfl
  have hl : byteAt s.data (15 + 1) = byte s 0x14 := rfl
  simp only [hc, hl]
  have z : ∀ b : UInt8, b = 0 ↔ b.toNat = 0 := by
    intro b; constructor
    · intro h; rw [h]; rfl
    · intro h; exact UInt8.toNat_inj.1 h
  by_cases h3 : elementCount s = 0 ∨ elementLength s = 0
  · have hr : recordBytes s = 0 := by
      unfold recordBytes; rcases h3 with h | h <;> simp [h]
    rw [if_pos (by rw [z, z]; exact h3), hr, if_pos ⟨hf, hf⟩, initialChunks, if_pos h3]
    rfl
  · rw [if_neg (by rw [z, z]; exact h3)]
    have hm : (mulU8 oc (byte s 0x13) (byte s 0x14) : R UInt8) =
        .ok (byte s 0x13 * byte s 0x14) := by
      unfold mulU8
      split
      · rfl
      · rename_i hn
        rw [if_neg]
        intro ho
        exact hn (hov ho hf)
    have hn : (byte s 0x13 * byte s 0x14).toNat = recordBytes s := by
      simp [recordBytes, elementCount, elementLength, UInt8.toNat_mul]
    rw [hm, ok_bind, hn]
    unfold getRange indexFrom getFrom
    simp only [List.length_drop, Nat.sub_zero, List.drop_drop]
    by_cases h4 : Fits s (0x15 + recordBytes s)
    · have h4' : 0x15 + recordBytes s ≤ s.data.length + 4 := h4
      rw [if_pos (c := _ ∧ _) ⟨Nat.zero_le _, by omega⟩, if_pos (c := _ ∧ _) ⟨hf, h4⟩]
      simp only
      rw [if_pos (by omega), ok_bind, take_eq_bytesAt _ _ _ (by omega), initialChunks, if_neg h3]
      rfl
    · have h4' : ¬ 0x15 + recordBytes s ≤ s.data.length + 4 := h4
      rw [if_neg (c := _ ∧ _) (by omega), if_neg (c := _ ∧ _) (fun h => h4 h.2)]

theorem optionals_eval (oc : Bool) (s : RawStructure)
    (hov : oc = true → Fits s 0x15 → elementCount s * elementLength s < 256) :
    readOptionals oc (s.data.drop 5) = .ok ({
      boot_up_state := optIf (Fits s 0x0A) (State.ofU8 (byte s 0x09))
      power_supply_state := optIf (Fits s 0x0B) (State.ofU8 (byte s 0x0A))
      thermal_state := optIf (Fits s 0x0C) (State.ofU8 (byte s 0x0B))
      security_status := optIf (Fits s 0x0D) (SecurityStatus.ofU8 (byte s 0x0C))
      oem_defined := optIf (Fits s 0x11) (dword s 0x0D)
      height := optIf (Fits s 0x12) (byte s 0x11)
      power_cords_number := optIf (Fits s 0x13) (byte s 0x12)
      contained_elements := optIf (Fits s 0x15 ∧ Fits s (0x15 + recordBytes s))
        ⟨initialChunks s, byte s 0x13, byte s 0x14⟩ },
      optIf (Fits s 0x15 ∧ Fits s (0x15 + recordBytes s + 1))
        (byte s (0x15 + recordBytes s))) := by
  unfold readOptionals
  simp only [read8_drop, ok_bind]
  have nf : ∀ n, ¬ n ≤ s.data.length + 4 → ¬ Fits s n := fun n h => h
  have pf : ∀ n, n ≤ s.data.length + 4 → Fits s n := fun n h => h
  by_cases h1 : 5 + 1 ≤ s.data.length
  rotate_left
  · simp (disch := omega) only [if_neg h1, optIf, nf, if_false, false_and]
  simp only [if_pos h1, read8_drop, ok_bind]
  by_cases h2 : 5 + 1 + 1 ≤ s.data.length
  rotate_left
  · simp (disch := omega) only [if_neg h2, optIf, nf, pf, if_false, if_true, false_and]; rfl
  simp only [if_pos h2, read8_drop, ok_bind]
  by_cases h3 : 5 + 1 + 1 + 1 ≤ s.data.length
  rotate_left
  · simp (disch := omega) only [if_neg h3, optIf, nf, pf, if_false, if_true, false_and]; rfl
  simp only [if_pos h3, read8_drop, ok_bind]
  by_cases h4 : 5 + 1 + 1 + 1 + 1 ≤ s.data.length
  rotate_left
  · simp (disch := omega) only [if_neg h4, optIf, nf, pf, if_false, if_true, false_and]; rfl
  simp only [if_pos h4, read32_drop, ok_bind]
  by_cases h5 : 5 + 1 + 1 + 1 + 1 + 4 ≤ s.data.length
  rotate_left
  · simp (disch := omega) only [if_neg h5, optIf, nf, pf, if_false, if_true, false_and]; rfl
  simp only [if_pos h5, read8_drop, ok_bind]
  by_cases h6 : 5 + 1 + 1 + 1 + 1 + 4 + 1 ≤ s.data.length
  rotate_left
  · simp (disch := omega) only [if_neg h6, optIf, nf, pf, if_false, if_true, false_and]; rfl
  simp only [if_pos h6, read8_drop, ok_bind]
  by_cases h7 : 5 + 1 + 1 + 1 + 1 + 4 + 1 + 1 ≤ s.data.length
  rotate_left
  · simp (disch := omega) only [if_neg h7, optIf, nf, pf, if_false, if_true, false_and]; rfl
  simp only [if_pos h7]
  rw [show 5 + 1 + 1 + 1 + 1 + 4 + 1 + 1 = 15 from rfl, elements_new oc s hov, ok_bind]
  by_cases h8 : Fits s 0x15 ∧ Fits s (0x15 + recordBytes s)
  rotate_left
  · have h9 : ¬ (Fits s 0x15 ∧ Fits s (0x15 + recordBytes s + 1)) := by
      unfold Fits at *; omega
    simp (disch := omega) only [if_neg h8, if_neg h9, optIf, pf, if_true]; rfl
  simp only [if_pos h8, read8_drop, ok_bind]
  by_cases h9 : Fits s 0x15 ∧ Fits s (0x15 + recordBytes s + 1)
  · have h9' : 0x11 + recordBytes s + 1 ≤ s.data.length := by unfold Fits at h9; omega
    have e : byteAt s.data (0x11 + recordBytes s) = byte s (0x15 + recordBytes s) := by
      unfold byte; congr 1; omega
    simp (disch := omega) only [if_pos h8, if_pos h9, if_pos h9', optIf, pf, if_true, e]; rfl
  · have h9' : ¬ 0x11 + recordBytes s + 1 ≤ s.data.length := by unfold Fits at h9 h8; omega
    simp (disch := omega) only [if_pos h8, if_neg h9, if_neg h9', optIf, pf, if_true]; rfl

theorem enclosure_packed {s : RawStructure} (h : Fits s 9) :
    (letAsStruct EnclosurePacked2_0.packed (s.data.take 5) : R _) = .ok
      ⟨byte s 4, byte s 5, byte s 6, byte s 7, byte s 8⟩ := by
  unfold Fits at h
  have e : ∀ o, o < 5 → byteAt (s.data.take 5) o = byteAt s.data o := by
    intro o ho
    rw [byteAt_eq (by simp; omega), byteAt_eq (by omega), List.getElem_take]
  have h : 5 ≤ (s.data.take 5).length := by simp; omega
  unfold EnclosurePacked2_0.packed
  have : (letAsStruct EnclosurePacked2_0.packed (s.data.take 5) : R _) = .ok
      ⟨byteAt (s.data.take 5) 0, byteAt (s.data.take 5) 1, byteAt (s.data.take 5) 2,
        byteAt (s.data.take 5) 3, byteAt (s.data.take 5) 4⟩ := by
    unfold EnclosurePacked2_0.packed
    packed_eval
  rw [e _ (by decide), e _ (by decide), e _ (by decide), e _ (by decide), e _ (by decide)] at this
  exact this

theorem enclosure_eval (oc : Bool) (s : RawStructure) (h : Fits s 9)
    (hov : oc = true → Fits s 0x15 → elementCount s * elementLength s < 256) :
    Enclosure.try_from oc s = (do
      let manufacturer ← s.find_string (byte s 4)
      let version ← s.find_string (byte s 6)
      let serial_number ← s.find_string (byte s 7)
      let asset_tag_number ← s.find_string (byte s 8)
      let sku_number ← findSku s (optIf (Fits s 0x15 ∧ Fits s (0x15 + recordBytes s + 1))
        (byte s (0x15 + recordBytes s)))
      pure {
        handle := s.handle
        manufacturer
        chassis_lock := get_lock (byte s 5)
        enclosure_type := get_type (byte s 5)
        version, serial_number, asset_tag_number
        boot_up_state := optIf (Fits s 0x0A) (State.ofU8 (byte s 0x09))
        power_supply_state := optIf (Fits s 0x0B) (State.ofU8 (byte s 0x0A))
        thermal_state := optIf (Fits s 0x0C) (State.ofU8 (byte s 0x0B))
        security_status := optIf (Fits s 0x0D) (SecurityStatus.ofU8 (byte s 0x0C))
        oem_defined := optIf (Fits s 0x11) (dword s 0x0D)
        height := optIf (Fits s 0x12) (byte s 0x11)
        power_cords_number := optIf (Fits s 0x13) (byte s 0x12)
        contained_elements := optIf (Fits s 0x15 ∧ Fits s (0x15 + recordBytes s))
          ⟨initialChunks s, byte s 0x13, byte s 0x14⟩
        sku_number }) := by
  unfold Enclosure.try_from EnclosurePacked2_0.size
  rw [if_neg (by unfold Fits at h; omega)]
  simp only [enclosure_packed h, ok_bind, optionals_eval oc s hov]

theorem findSku_ok {s : RawStructure} {c : Prop} [Decidable c] {o : Nat} {x : Option Str} :
    findSku s (optIf c (byte s o)) = .ok x ↔ When c x (Ref s o) := by
  by_cases hc : c
  · rw [when_pos hc]
    simp only [optIf, if_pos hc, findSku, bind_ok_iff, pure_eq_ok, Res.ok.injEq, ref_iff]
    constructor
    · rintro ⟨a, h, rfl⟩; exact ⟨a, rfl, h⟩
    · rintro ⟨a, rfl, h⟩; exact ⟨a, h, rfl⟩
  · rw [when_neg hc]
    simp only [optIf, if_neg hc, findSku, pure_eq_ok, Res.ok.injEq]
    exact eq_comm

/-! ### C33 -/

/-- C33: a structure of at least nine bytes (and, under overflow checks, with no more than 255
bytes of contained elements) decodes exactly if its references exist, to exactly the stored
values. -/
theorem C33_decodes (oc : Bool) (s : RawStructure) (h : Fits s 9)
    (hov : oc = true → Fits s 0x15 → elementCount s * elementLength s < 256) :
    (∀ v, Enclosure.try_from oc s = .ok v → EnclosureFields s v) ∧
    ((∃ v, Enclosure.try_from oc s = .ok v) ↔
      ¬ Dangling s 4 ∧ ¬ Dangling s 6 ∧ ¬ Dangling s 7 ∧ ¬ Dangling s 8 ∧
      (Fits s 0x15 ∧ Fits s (0x15 + recordBytes s + 1) → ¬ Dangling s (0x15 + recordBytes s))) := by
  rw [enclosure_eval oc s h hov]
  constructor
  · intro v hv
    simp only [bind_ok_iff, pure_eq_ok, Res.ok.injEq, findSku_ok] at hv
    obtain ⟨a, ha, b, hb, c, hc, d, hd, e, he, rfl⟩ := hv
    exact ⟨rfl, ref_iff.2 ha, (lock_type _).1, (lock_type _).2, ref_iff.2 hb, ref_iff.2 hc,
      ref_iff.2 hd, optIf_when _ _ _ rfl, optIf_when _ _ _ rfl, optIf_when _ _ _ rfl,
      optIf_when _ _ _ rfl, optIf_when _ _ _ rfl, optIf_when _ _ _ rfl, optIf_when _ _ _ rfl,
      optIf_when _ _ _ ⟨rfl, rfl⟩, he⟩
  · simp only [bind_ok_iff, pure_eq_ok, Res.ok.injEq, findSku_ok, Dangling, Classical.not_forall, Classical.not_not,
      ref_iff]
    constructor
    · rintro ⟨v, a, ha, b, hb, c, hc, d, hd, e, he, -⟩
      refine ⟨⟨a, ha⟩, ⟨b, hb⟩, ⟨c, hc⟩, ⟨d, hd⟩, fun hs => ?_⟩
      rw [when_pos hs] at he
      obtain ⟨x, -, hx⟩ := he
      exact ⟨x, ref_iff.1 hx⟩
    · rintro ⟨⟨a, ha⟩, ⟨b, hb⟩, ⟨c, hc⟩, ⟨d, hd⟩, hs⟩
      by_cases hf : Fits s 0x15 ∧ Fits s (0x15 + recordBytes s + 1)
      · obtain ⟨e, he⟩ := hs hf
        exact ⟨_, a, ha, b, hb, c, hc, d, hd, some e, (when_pos hf).2 ⟨e, rfl, ref_iff.2 he⟩, rfl⟩
      · exact ⟨_, a, ha, b, hb, c, hc, d, hd, none, (when_neg hf).2 rfl, rfl⟩

/-- C33: such a structure can only be rejected for a reference to a missing string. -/
theorem C33_rejects (oc : Bool) (s : RawStructure) (h : Fits s 9)
    (hov : oc = true → Fits s 0x15 → elementCount s * elementLength s < 256) :
    ErrOnly (BadRef s [4, 6, 7, 8, 0x15 + recordBytes s]) (Enclosure.try_from oc s) := by
  rw [enclosure_eval oc s h hov]
  have key : ErrOnly (BadRef s [4, 6, 7, 8, 0x15 + recordBytes s])
      (findSku s (optIf (Fits s 0x15 ∧ Fits s (0x15 + recordBytes s + 1))
        (byte s (0x15 + recordBytes s)))) := by
    by_cases hf : Fits s 0x15 ∧ Fits s (0x15 + recordBytes s + 1)
    · simp only [optIf, if_pos hf, findSku]
      exact .bind (.find_string s (by simp)) fun _ _ => .pure _
    · simp only [optIf, if_neg hf, findSku]
      exact .pure _
  exact .bind (.find_string s (o := 4) (by simp)) fun _ _ =>
    .bind (.find_string s (o := 6) (by simp)) fun _ _ =>
    .bind (.find_string s (o := 7) (by simp)) fun _ _ =>
    .bind (.find_string s (o := 8) (by simp)) fun _ _ =>
    .bind key fun _ _ => .pure _

/-- C33: shorter structures are rejected for their length. -/
theorem C33_short (oc : Bool) (s : RawStructure) (h : ¬ Fits s 9) : Enclosure.try_from oc s =
    .err (.InvalidFormattedSectionLength s.info s.handle "minimum of " 5) := by
  unfold Enclosure.try_from EnclosurePacked2_0.size
  rw [if_pos (by unfold Fits at h; omega)]
  rfl

/-- C33: lock bit and type come from one byte without loss. -/
theorem C33_type_lossless (a b : UInt8) (hl : get_lock a = get_lock b)
    (ht : get_type a = get_type b) : a = b := by
  revert a b
  have : ∀ n : Nat, n < 128 → ∀ m : Nat, m < 128 →
      EnclosureType.ofU8 (.ofNat n) = EnclosureType.ofU8 (.ofNat m) → n = m := by
    decide +kernel
  intro a b hl ht
  rw [(lock_type a).1, (lock_type b).1] at hl
  rw [(lock_type a).2, (lock_type b).2] at ht
  have e : ∀ c : UInt8, c % 128 = .ofNat (c.toNat % 128) := by
    intro c; apply UInt8.toNat_inj.1; simp [UInt8.toNat_mod]; omega
  rw [e a, e b] at ht
  have := this _ (Nat.mod_lt _ (by decide)) _ (Nat.mod_lt _ (by decide)) ht
  have la := a.toNat_lt
  have lb := b.toNat_lt
  have hl : 128 ≤ a.toNat ↔ 128 ≤ b.toNat := by simpa using hl
  apply UInt8.toNat_inj.1
  omega

/-! ### C34 -/

/-- C34, full statement: a structure that contains all its element records lists exactly them, in
both overflow-check profiles. -/
def C34_full : Prop := ∀ (oc : Bool) (s : RawStructure),
  Fits s 0x15 → Fits s (0x15 + elementCount s * elementLength s) →
  (Enclosure.try_from oc s).NoFault ∧
  ∀ v, Enclosure.try_from oc s = .ok v → ∃ e, v.contained_elements = some e ∧
    CollectsR ContainedElements.next e
      (if elementLength s = 0 then [] else (List.range (elementCount s)).map (element s))

theorem ofSlice_bytesAt (d : Bytes) (o n : Nat) (hn : 3 ≤ n) :
    ContainedElement.ofSlice (bytesAt d o n) = .ok
      ⟨elementType (byteAt d o), byteAt d (o + 1), byteAt d (o + 2)⟩ := by
  rw [← elementType_eq]
  obtain ⟨m, rfl⟩ : ∃ m, n = 3 + m := ⟨n - 3, by omega⟩
  have : bytesAt d o (3 + m) =
      byteAt d o :: byteAt d (o + 1) :: byteAt d (o + 2) :: bytesAt d (o + 3) m := by
    apply List.ext_getElem
    · simp [bytesAt]; omega
    · intro i h1 h2
      match i with
      | 0 => simp [bytesAt]
      | 1 => simp [bytesAt]
      | 2 => simp [bytesAt]
      | i + 3 => simp [bytesAt]; congr 1; omega
  rw [this]
  rfl

theorem drop_bytesAt (d : Bytes) (o n k : Nat) :
    (bytesAt d o n).drop k = bytesAt d (o + k) (n - k) := by
  apply List.ext_getElem
  · simp [bytesAt]
  · intro i h1 h2; simp [bytesAt]; congr 1; omega

theorem take_bytesAt (d : Bytes) (o n k : Nat) (h : k ≤ n) :
    (bytesAt d o n).take k = bytesAt d o k := by
  apply List.ext_getElem
  · simp [bytesAt]; omega
  · intro i h1 h2; simp [bytesAt]

theorem elements_yield (s : RawStructure) (c r : UInt8) (hm : 3 ≤ elementLength s) :
    ∀ k j L, (j + k) * elementLength s ≤ L →
    Yields ContainedElements.next
      ⟨⟨bytesAt s.data (0x11 + j * elementLength s) (L - j * elementLength s), elementLength s⟩, c, r⟩
      ((List.range' j k).map (element s))
      ⟨⟨bytesAt s.data (0x11 + (j + k) * elementLength s) (L - (j + k) * elementLength s),
        elementLength s⟩, c, r⟩ := by
  intro k
  induction k with
  | zero => intro j L _; exact .nil
  | succ k ih =>
    intro j L hL
    have e1 : (j + (k + 1)) * elementLength s = (j + k) * elementLength s + elementLength s := by
      rw [← Nat.add_assoc, Nat.add_mul, Nat.one_mul]
    have e2 : (j + 1) * elementLength s = j * elementLength s + elementLength s := by
      rw [Nat.add_mul, Nat.one_mul]
    have e3 : j * elementLength s ≤ (j + k) * elementLength s := Nat.mul_le_mul_right _ (by omega)
    have hle : elementLength s ≤ L - j * elementLength s := by omega
    rw [List.range'_succ, List.map_cons]
    refine .cons (s' := ⟨⟨bytesAt s.data (0x11 + (j + 1) * elementLength s)
      (L - (j + 1) * elementLength s), elementLength s⟩, c, r⟩) ?_ ?_
    · unfold ContainedElements.next Chunks.next
      have hne : (bytesAt s.data (0x11 + j * elementLength s)
          (L - j * elementLength s)).isEmpty = false := by
        rw [List.isEmpty_eq_false_iff, ← List.length_pos_iff]
        simp [bytesAt]; omega
      simp only [hne, Bool.false_eq_true, if_false]
      rw [take_bytesAt _ _ _ _ hle, ofSlice_bytesAt _ _ _ hm, ok_bind, drop_bytesAt,
        show 0x11 + j * elementLength s + elementLength s = 0x11 + (j + 1) * elementLength s by omega,
        show L - j * elementLength s - elementLength s = L - (j + 1) * elementLength s by omega]
      have a0 : 0x15 + j * elementLength s - 4 = 0x11 + j * elementLength s := by omega
      have a1 : 0x15 + j * elementLength s + 1 - 4 = 0x11 + j * elementLength s + 1 := by omega
      have a2 : 0x15 + j * elementLength s + 2 - 4 = 0x11 + j * elementLength s + 2 := by omega
      simp only [element, byte, a0, a1, a2]
    · have := ih (j + 1) L (by rw [show j + 1 + k = j + (k + 1) by omega]; exact hL)
      rwa [show j + 1 + k = j + (k + 1) by omega] at this

theorem collectsR_of_yields {σ α : Type} {next : σ → Fault (Option α × σ)} {s s' : σ}
    {l : List α} (h : Yields next s l s') {l' : List α} (h' : CollectsR next s' l') :
    CollectsR next s (l ++ l') := by
  induction h with
  | nil => exact h'
  | cons h _ ih => exact .step h (ih h')

/-- The contained elements of a decoded structure. -/
theorem contained_of_ok {oc : Bool} {s : RawStructure} (h : Fits s 0x15)
    (h2 : Fits s (0x15 + recordBytes s))
    (hov : oc = true → Fits s 0x15 → elementCount s * elementLength s < 256) {v : Enclosure}
    (hv : Enclosure.try_from oc s = .ok v) :
    v.contained_elements = some ⟨initialChunks s, byte s 0x13, byte s 0x14⟩ := by
  rw [enclosure_eval oc s (fits_mono h (by decide)) hov] at hv
  simp only [bind_ok_iff, pure_eq_ok, Res.ok.injEq] at hv
  obtain ⟨a, ha, b, hb, c, hc, d, hd, e, he, rfl⟩ := hv
  simp [optIf, h, h2]

/-- C34: the full statement holds when the records have at least three bytes (or there are none)
and at most 255 bytes together. -/
theorem C34_elements_partial (oc : Bool) (s : RawStructure) (h : Fits s 0x15)
    (h2 : Fits s (0x15 + elementCount s * elementLength s))
    (hlt : elementCount s * elementLength s < 256)
    (hm : elementCount s = 0 ∨ elementLength s = 0 ∨ 3 ≤ elementLength s) :
    (Enclosure.try_from oc s).NoFault ∧
    ∀ v, Enclosure.try_from oc s = .ok v → ∃ e, v.contained_elements = some e ∧
      CollectsR ContainedElements.next e
        (if elementLength s = 0 then [] else (List.range (elementCount s)).map (element s)) := by
  have hr : recordBytes s = elementCount s * elementLength s := Nat.mod_eq_of_lt hlt
  refine ⟨(C33_rejects oc s (fits_mono h (by decide)) (fun _ _ => hlt)).1, fun v hv => ?_⟩
  refine ⟨_, contained_of_ok h (by rw [hr]; exact h2) (fun _ _ => hlt) hv, ?_⟩
  by_cases h0 : elementCount s = 0 ∨ elementLength s = 0
  · have e : (if elementLength s = 0 then [] else (List.range (elementCount s)).map (element s)) =
        [] := by rcases h0 with h | h <;> simp [h]
    rw [e, initialChunks, if_pos h0]
    exact .done rfl
  · have hm : 3 ≤ elementLength s := by omega
    rw [initialChunks, if_neg h0, if_neg (by omega), hr, List.range_eq_range']
    have hy := elements_yield s (byte s 0x13) (byte s 0x14) hm (elementCount s) 0
      (elementCount s * elementLength s) (by rw [Nat.zero_add]; exact Nat.le_refl _)
    simp only [Nat.zero_mul, Nat.zero_add, Nat.add_zero, Nat.sub_zero, Nat.sub_self] at hy
    have := collectsR_of_yields hy (l' := []) (.done rfl)
    rwa [List.append_nil] at this

theorem optionals_overflow (s : RawStructure) (h : Fits s 0x15)
    (hov : 256 ≤ elementCount s * elementLength s) :
    readOptionals true (s.data.drop 5) = .panic := by
  have hf : 0x15 ≤ s.data.length + 4 := h
  have hnew : ContainedElements.new true (s.data.drop 15) = .panic := by
    have e0 : ¬ (byte s 0x13 = 0 ∨ byte s 0x14 = 0) := by
      rintro (e | e)
      · simp [elementCount, e] at hov
      · simp [elementLength, e] at hov
    unfold ContainedElements.new
    rw [read8_drop, if_pos (by omega)]
    simp only [read8_drop, ok_bind]
    rw [if_pos (by omega)]
    simp only
    rw [show byteAt s.data 15 = byte s 0x13 from rfl,
      show byteAt s.data (15 + 1) = byte s 0x14 from rfl, if_neg e0]
    have : (mulU8 true (byte s 0x13) (byte s 0x14) : R UInt8) = .panic := by
      unfold mulU8
      rw [if_neg (by unfold elementCount elementLength at hov; omega), if_pos rfl]
    rw [this, panic_bind]
  unfold readOptionals
  simp only [read8_drop, ok_bind]
  simp (disch := omega) only [if_pos, read8_drop, read32_drop, ok_bind]
  rw [show 5 + 1 + 1 + 1 + 1 + 4 + 1 + 1 = 15 from rfl, hnew, panic_bind]

/-- C34: under overflow checks, a structure with more than 255 bytes of records panics as soon as
its first references are found. -/
theorem C34_overflow_panics (s : RawStructure) (h : Fits s 0x15)
    (hov : 256 ≤ elementCount s * elementLength s)
    (hs : ¬ Dangling s 4 ∧ ¬ Dangling s 6 ∧ ¬ Dangling s 7 ∧ ¬ Dangling s 8) :
    Enclosure.try_from true s = .panic := by
  have hf : 0x15 ≤ s.data.length + 4 := h
  have h9 : Fits s 9 := fits_mono h (by decide)
  have hopt := optionals_overflow s h hov
  simp only [Dangling, Classical.not_forall, Classical.not_not, ref_iff] at hs
  obtain ⟨⟨a, ha⟩, ⟨b, hb⟩, ⟨c, hc⟩, ⟨d, hd⟩⟩ := hs
  unfold Enclosure.try_from EnclosurePacked2_0.size
  rw [if_neg (by omega)]
  simp only [enclosure_packed h9, ok_bind, ha, hb, hc, hd, hopt, panic_bind]

/-- C34: without overflow checks only the product modulo 256 is used: fewer elements are listed
than the structure states, and the SKU reference is taken from inside the records. -/
theorem C34_overflow_wraps (s : RawStructure) (h : Fits s 0x15)
    (h2 : Fits s (0x15 + elementCount s * elementLength s))
    (hov : 256 ≤ elementCount s * elementLength s) (hm : 3 ≤ elementLength s) :
    recordBytes s / elementLength s < elementCount s ∧
    ∀ v, Enclosure.try_from false s = .ok v →
      (∃ e e', v.contained_elements = some e ∧ e.count = byte s 0x13 ∧
        Yields ContainedElements.next e
          ((List.range (recordBytes s / elementLength s)).map (element s)) e' ∧
        e'.chunks.rest.length = recordBytes s % elementLength s) ∧
      ∃ x, v.sku_number = some x ∧ Ref s (0x15 + recordBytes s) x := by
  have hlt : recordBytes s < elementCount s * elementLength s := by unfold recordBytes; omega
  have hf : Fits s (0x15 + recordBytes s + 1) := fits_mono h2 (by omega)
  refine ⟨(Nat.div_lt_iff_lt_mul (by omega)).2 hlt, fun v hv => ⟨?_, ?_⟩⟩
  · have h0 : ¬ (elementCount s = 0 ∨ elementLength s = 0) := by
      rintro (e | e) <;> simp [e] at hov
    have hy := elements_yield s (byte s 0x13) (byte s 0x14) hm
      (recordBytes s / elementLength s) 0 (recordBytes s)
      (by rw [Nat.zero_add]; exact Nat.div_mul_le_self _ _)
    simp only [Nat.zero_mul, Nat.zero_add, Nat.add_zero, Nat.sub_zero] at hy
    have hc := contained_of_ok h (fits_mono hf (by omega)) (fun h => by cases h) hv
    rw [initialChunks, if_neg h0] at hc
    rw [List.range_eq_range']
    refine ⟨_, _, hc, rfl, hy, ?_⟩
    simp only [bytesAt, List.length_map, List.length_range]
    have := Nat.div_add_mod (recordBytes s) (elementLength s)
    rw [Nat.mul_comm] at this
    omega
  · have := ((C33_decodes false s (fits_mono h (by decide)) (fun h => by cases h)).1 v hv).sku_number
    rw [when_pos ⟨h, hf⟩] at this
    exact this

/-- C34: records of one or two bytes are read out of bounds. -/
theorem C34_short_records (oc : Bool) (s : RawStructure) (h : Fits s 0x15)
    (h2 : Fits s (0x15 + recordBytes s)) (h3 : 0 < recordBytes s)
    (hov : oc = true → elementCount s * elementLength s < 256) (hm : elementLength s < 3)
    (v : Enclosure) (hv : Enclosure.try_from oc s = .ok v) :
    ∃ e, v.contained_elements = some e ∧ e.next = .ub := by
  refine ⟨_, contained_of_ok h h2 (fun ho _ => hov ho) hv, ?_⟩
  have h0 : ¬ (elementCount s = 0 ∨ elementLength s = 0) := by
    rintro (e | e) <;> simp [recordBytes, e] at h3
  unfold ContainedElements.next Chunks.next
  simp only [initialChunks, if_neg h0]
  have hne : (bytesAt s.data 0x11 (recordBytes s)).isEmpty = false := by
    rw [List.isEmpty_eq_false_iff, ← List.length_pos_iff]; simpa [bytesAt] using h3
  simp only [hne, Bool.false_eq_true, if_false]
  unfold ContainedElement.ofSlice
  rw [letAsStruct_short (n := 3) (by consumes) (by simp; omega), ub_bind]

/-! #### Examples -/

/-- An enclosure with one contained element and a SKU number. -/
def exampleEnclosure : RawStructure where
  version := ⟨2, 7⟩
  info := .Enclosure
  length := 0x19
  handle := 0x0300
  data := [1, 0x83, 2, 3, 4, 3, 3, 3, 2, 0x78, 0x56, 0x34, 0x12, 2, 1, 1, 3, 0x8A, 0, 4, 5]
  strings := ascii "Maker" ++ [0] ++ ascii "v1" ++ [0] ++ ascii "S/N" ++ [0] ++ ascii "Tag" ++ [0] ++
    ascii "SKU" ++ [0, 0]

example : Fits exampleEnclosure 0x19 ∧ elementCount exampleEnclosure * elementLength exampleEnclosure
    < 256 ∧ 3 ≤ elementLength exampleEnclosure := by decide
example : (Enclosure.try_from true exampleEnclosure).okAnd (fun v =>
    v.chassis_lock ∧ v.enclosure_type = .Desktop ∧ v.oem_defined = some 0x12345678 ∧
    v.sku_number = some (ascii "SKU") ∧
    v.contained_elements.map (·.next) = some (.ok (some ⟨.ofU8 0x8A, 0, 4⟩, ⟨⟨[], 3⟩, 1, 3⟩)))
    = true := by decide +kernel
example : ¬ Fits { exampleEnclosure with data := [1, 2, 3, 4] } 9 := by decide

/-- An enclosure with `n` records of `m` bytes and no strings. -/
def bigEnclosure (n m : UInt8) : RawStructure where
  version := ⟨2, 7⟩
  info := .Enclosure
  length := 255
  handle := 0x0300
  data := [0, 3, 0, 0, 0, 3, 3, 3, 2, 0, 0, 0, 0, 2, 1, n, m] ++
    List.replicate (n.toNat * m.toNat + 1) 0
  strings := [0, 0]

example : Fits (bigEnclosure 64 4) (0x15 + elementCount (bigEnclosure 64 4) *
      elementLength (bigEnclosure 64 4)) ∧
    256 ≤ elementCount (bigEnclosure 64 4) * elementLength (bigEnclosure 64 4) := by decide +kernel
example : Enclosure.try_from true (bigEnclosure 64 4) = .panic := by decide +kernel
example : (Enclosure.try_from false (bigEnclosure 64 4)).okAnd (fun v =>
    v.contained_elements.map (fun e => e.next.okAnd (fun r => r.1.isNone)) = some true) = true := by
  decide +kernel
example : (Enclosure.try_from true (bigEnclosure 5 2)).okAnd (fun v =>
    v.contained_elements.map (·.next) = some .ub) = true := by decide +kernel

/-- C34, the full statement fails. -/
theorem C34_full_false : ¬ C34_full := by
  intro hf
  have := (hf true (bigEnclosure 64 4) (by decide +kernel) (by decide +kernel)).1.1
  exact this (by decide +kernel)

end Dmi.Props
