import Verif.Proofs.Decode
import Verif.Model.S000
/-!
# C29, C30: BIOS information (type 0)
-/
namespace Dmi.Props
open Spec bios

/-- Length of a type 0 structure of the given version. -/
def biosLength (s : RawStructure) : Nat :=
  if Since s 3 1 then 0x1A else if Since s 2 4 then 0x18 else 0x12

/-- The fields of a type 0 structure. -/
structure BiosFields (s : RawStructure) (v : Bios) : Prop where
  handle : v.handle = s.handle
  vendor : Ref s 0x04 v.vendor
  bios_version : Ref s 0x05 v.bios_version
  segment : v.bios_starting_address_segment = word s 0x06
  release_date : Ref s 0x08 v.bios_release_date
  characteristics : v.bios_characteristics = ⟨qword s 0x0A⟩
  extension_1 : When (Since s 2 4) v.bios_characteristics_exttension_1 (· = ⟨byte s 0x12⟩)
  extension_2 : When (Since s 2 4) v.bios_characteristics_exttension_2 (· = ⟨byte s 0x13⟩)
  bios_revision : When (Since s 2 4) v.bios_revision (· = ⟨byte s 0x14, byte s 0x15⟩)
  firmware_revision : When (Since s 2 4) v.firmware_revision (· = ⟨byte s 0x16, byte s 0x17⟩)
  rom_size : v.rom_size = ⟨byte s 0x09, if Since s 3 1 then some (word s 0x18) else none⟩

theorem bios_packed3_1 {s : RawStructure} (h : Fits s 0x1A) :
    (letAsStruct BiosPacked3_1.packed s.data : R _) = .ok
      ⟨byte s 4, byte s 5, word s 6, byte s 8, byte s 9, qword s 0xA, byte s 0x12, byte s 0x13,
        byte s 0x14, byte s 0x15, byte s 0x16, byte s 0x17, word s 0x18⟩ := by
  have h : 22 ≤ s.data.length := by unfold Fits at h; omega
  unfold BiosPacked3_1.packed
  packed_eval

theorem bios_packed2_4 {s : RawStructure} (h : Fits s 0x18) :
    (letAsStruct BiosPacked2_4.packed s.data : R _) = .ok
      ⟨byte s 4, byte s 5, word s 6, byte s 8, byte s 9, qword s 0xA, byte s 0x12, byte s 0x13,
        byte s 0x14, byte s 0x15, byte s 0x16, byte s 0x17⟩ := by
  have h : 20 ≤ s.data.length := by unfold Fits at h; omega
  unfold BiosPacked2_4.packed
  packed_eval

theorem bios_packed2_0 {s : RawStructure} (h : Fits s 0x12) :
    (letAsStruct BiosPacked2_0.packed s.data : R _) = .ok
      ⟨byte s 4, byte s 5, word s 6, byte s 8, byte s 9, qword s 0xA⟩ := by
  have h : 14 ≤ s.data.length := by unfold Fits at h; omega
  unfold BiosPacked2_0.packed
  packed_eval

/-- C29: a long enough structure decodes to exactly the stored values. -/
theorem C29_decodes (s : RawStructure) (h : Fits s (biosLength s)) (v : Bios) :
    Bios.try_from s = .ok v ↔ BiosFields s v := by
  unfold Bios.try_from biosLength at *
  by_cases h1 : Since s 3 1
  · have h2 : Since s 2 4 := since_mono h1 (by decide)
    rw [if_pos (ge_pos h1), bios_packed3_1 (by simpa [h1] using h)]
    decode_iff v
  rw [if_neg (ge_neg h1)]
  by_cases h2 : Since s 2 4
  · rw [if_pos (ge_pos h2), bios_packed2_4 (by simpa [h1, h2] using h)]
    decode_iff v
  · rw [if_neg (ge_neg h2), bios_packed2_0 (by simpa [h1, h2] using h)]
    decode_iff v

/-- C29: a long enough structure can only be rejected for a reference to a missing string. -/
theorem C29_rejects (s : RawStructure) (h : Fits s (biosLength s)) :
    ErrOnly (BadRef s [0x04, 0x05, 0x08]) (Bios.try_from s) := by
  unfold Bios.try_from biosLength at *
  by_cases h1 : Since s 3 1
  · rw [if_pos (ge_pos h1), bios_packed3_1 (by simpa [h1] using h)]
    err_only
  rw [if_neg (ge_neg h1)]
  by_cases h2 : Since s 2 4
  · rw [if_pos (ge_pos h2), bios_packed2_4 (by simpa [h1, h2] using h)]
    err_only
  · rw [if_neg (ge_neg h2), bios_packed2_0 (by simpa [h1, h2] using h)]
    err_only

/-- C29: in a shorter structure the decoder reads out of bounds. -/
theorem C29_short (s : RawStructure) (h : ¬ Fits s (biosLength s)) : Bios.try_from s = .ub := by
  unfold Bios.try_from biosLength Fits at *
  by_cases h1 : Since s 3 1
  · rw [if_pos h1] at h
    rw [if_pos (ge_pos h1), letAsStruct_short (n := 22) (by unfold BiosPacked3_1.packed; consumes)
      (by omega), ub_bind]
  rw [if_neg (ge_neg h1)]
  rw [if_neg h1] at h
  by_cases h2 : Since s 2 4
  · rw [if_pos h2] at h
    rw [if_pos (ge_pos h2), letAsStruct_short (n := 20) (by unfold BiosPacked2_4.packed; consumes)
      (by omega), ub_bind]
  · rw [if_neg h2] at h
    rw [if_neg (ge_neg h2), letAsStruct_short (n := 14) (by unfold BiosPacked2_0.packed; consumes)
      (by omega), ub_bind]

/-- A version 3.1 structure with three strings; the ROM size is 2 GiB (extended). -/
def exampleBios : RawStructure where
  version := ⟨3, 1⟩
  info := .Bios
  length := 0x1A
  handle := 0x1234
  data := [1, 2, 0x00, 0xF0, 3, 0xFF, 0x80, 0x98, 0x8B, 0x3F, 1, 0, 0, 0, 0x03, 0x0D, 5, 6, 0xFF,
    0xFE, 0x02, 0x40]
  strings := ascii "AMI" ++ [0] ++ ascii "1.0" ++ [0] ++ ascii "01/02/2020" ++ [0, 0]

example : Fits exampleBios (biosLength exampleBios) := by decide
example : Bios.try_from exampleBios = .ok {
    handle := 0x1234
    vendor := ascii "AMI"
    bios_version := ascii "1.0"
    bios_starting_address_segment := 0xF000
    bios_release_date := ascii "01/02/2020"
    rom_size := ⟨0xFF, some 0x4002⟩
    bios_characteristics := ⟨0x13F8B9880⟩
    bios_characteristics_exttension_1 := some ⟨3⟩
    bios_characteristics_exttension_2 := some ⟨0x0D⟩
    bios_revision := some ⟨5, 6⟩
    firmware_revision := some ⟨0xFF, 0xFE⟩ } := by decide +kernel
/-- The same bytes in a version 2.3 table: the later fields are absent. -/
example : (Bios.try_from { exampleBios with version := ⟨2, 3⟩ }).okAnd (fun v =>
    v.bios_revision = none ∧ v.bios_characteristics_exttension_1 = none ∧
    v.rom_size = ⟨0xFF, none⟩) = true := by decide +kernel
example : Bios.try_from { exampleBios with strings := ascii "AMI" ++ [0, 0] } =
    .err (.InvalidStringIndex .Bios 0x1234 2) := by decide +kernel
example : ¬ Fits { exampleBios with data := exampleBios.data.take 21 } (biosLength exampleBios) := by
  decide

/-! ### C30 -/

/-- The ROM size in bytes, where defined: a count of 64 KiB blocks minus one, with 255 meaning that
the extended word holds the size in its low 14 bits and the unit (0 MiB, 1 GiB) in the top two. -/
def romBytes (basic : UInt8) (extended : Option UInt16) : Option Nat :=
  if basic.toNat < 255 then some (65536 * (basic.toNat + 1))
  else match extended with
    | none => none
    | some w =>
      if w.toNat / 2 ^ 14 = 0 then some (w.toNat % 2 ^ 14 * 1024 ^ 2)
      else if w.toNat / 2 ^ 14 = 1 then some (w.toNat % 2 ^ 14 * 1024 ^ 3)
      else none

theorem rom_basic : ∀ b : UInt8, b.toNat < 255 →
    ((b + 1).toUInt64 * ((64 : UInt64) <<< 10)).toNat = 65536 * (b.toNat + 1) := by
  intro b hb
  have : ((64 : UInt64) <<< 10) = 65536 := by decide
  rw [this, UInt64.toNat_mul, UInt8.toNat_toUInt64, UInt8.toNat_add]
  simp only [UInt8.reduceToNat, UInt64.reduceToNat]
  omega

theorem rom_unit (w : UInt16) : ((w >>> 14) &&& 0b11).toNat = w.toNat / 2 ^ 14 := by
  have := w.toNat_lt
  rw [UInt16.toNat_and, UInt16.toNat_shiftRight]
  simp only [UInt16.reduceToNat, Nat.reduceMod]
  rw [show (3 : Nat) = 2 ^ 2 - 1 from rfl, Nat.and_two_pow_sub_one_eq_mod,
    Nat.shiftRight_eq_div_pow]
  omega

theorem rom_size (w : UInt16) : (w &&& 0x3fff).toUInt64.toNat = w.toNat % 2 ^ 14 := by
  rw [UInt16.toNat_toUInt64, UInt16.toNat_and]
  simp only [UInt16.reduceToNat]
  rw [show (16383 : Nat) = 2 ^ 14 - 1 from rfl, Nat.and_two_pow_sub_one_eq_mod]

theorem rom_shl (w : UInt16) (k : UInt64) (hk : k.toNat ≤ 30) :
    ((w &&& 0x3fff).toUInt64 <<< k).toNat = w.toNat % 2 ^ 14 * 2 ^ k.toNat := by
  rw [UInt64.toNat_shiftLeft, rom_size, Nat.mod_eq_of_lt (by omega : k.toNat < 64),
    Nat.shiftLeft_eq]
  apply Nat.mod_eq_of_lt
  have h1 : w.toNat % 2 ^ 14 < 2 ^ 14 := Nat.mod_lt _ (by decide)
  have h2 : 2 ^ k.toNat ≤ 2 ^ 30 := Nat.pow_le_pow_right (by decide) hk
  calc _ < 2 ^ 14 * 2 ^ k.toNat := Nat.mul_lt_mul_of_pos_right h1 (Nat.two_pow_pos _)
    _ ≤ 2 ^ 14 * 2 ^ 30 := Nat.mul_le_mul_left _ h2
    _ ≤ _ := by decide

/-- C30, full statement: the size of every decoded structure can be computed. -/
def C30_full : Prop :=
  ∀ s v, Bios.try_from s = .ok v → ∃ n, v.rom_size.toU64 = .ok n

/-- C30: where the size is defined the conversion gives it, without overflow; everywhere else it
panics. -/
theorem C30_rom_size_partial (r : RomSize) :
    (∀ n, romBytes r.basic r.extended = some n → ∃ m, r.toU64 = .ok m ∧ m.toNat = n) ∧
    (romBytes r.basic r.extended = none → r.toU64 = .panic) := by
  obtain ⟨b, e⟩ := r
  have hb := b.toNat_lt
  have hiff : b ≠ 0xFF ↔ b.toNat < 255 := by
    rw [ne_eq, ← UInt8.toNat_inj]; simp only [UInt8.reduceToNat]; omega
  unfold RomSize.toU64 romBytes
  by_cases h : b.toNat < 255
  · simp only [hiff, h, if_true]
    refine ⟨fun n hn => ⟨_, rfl, ?_⟩, nofun⟩
    rw [rom_basic b h]; exact Option.some.inj hn
  · simp only [hiff, h, if_false]
    cases e with
    | none => exact ⟨nofun, fun _ => rfl⟩
    | some w =>
      have h0 : ((w >>> 14) &&& 0b11) = 0b00 ↔ w.toNat / 2 ^ 14 = 0 := by
        rw [← UInt16.toNat_inj, rom_unit]; rfl
      have h1 : ((w >>> 14) &&& 0b11) = 0b01 ↔ w.toNat / 2 ^ 14 = 1 := by
        rw [← UInt16.toNat_inj, rom_unit]; rfl
      simp only [h0, h1]
      split
      · refine ⟨fun n hn => ⟨_, rfl, ?_⟩, nofun⟩
        rw [rom_shl w 20 (by decide)]
        exact Option.some.inj hn
      · split
        · refine ⟨fun n hn => ⟨_, rfl, ?_⟩, nofun⟩
          rw [rom_shl w 30 (by decide)]
          exact Option.some.inj hn
        · exact ⟨nofun, fun _ => rfl⟩

/-- C30: the panics are reachable: from a table before 3.1 with ROM size byte FFh, and from a 3.1
table with a reserved unit. -/
theorem C30_full_false : ¬ C30_full ∧
    (∃ s v, ¬ Since s 3 1 ∧ Bios.try_from s = .ok v ∧ v.rom_size.toU64 = .panic) ∧
    (∃ s v, Since s 3 1 ∧ Bios.try_from s = .ok v ∧ v.rom_size.toU64 = .panic) := by
  have h1 : ∃ s v, ¬ Since s 3 1 ∧ Bios.try_from s = .ok v ∧ v.rom_size.toU64 = .panic := by
    obtain ⟨v, hv, hp⟩ := exists_ok (x := Bios.try_from { exampleBios with version := ⟨2, 4⟩ })
      (p := fun v => decide (v.rom_size.toU64 = .panic)) (by decide +kernel)
    exact ⟨_, v, by decide, hv, of_decide_eq_true hp⟩
  have h2 : ∃ s v, Since s 3 1 ∧ Bios.try_from s = .ok v ∧ v.rom_size.toU64 = .panic := by
    obtain ⟨v, hv, hp⟩ := exists_ok
      (x := Bios.try_from { exampleBios with data := exampleBios.data.take 21 ++ [0x80] })
      (p := fun v => decide (v.rom_size.toU64 = .panic)) (by decide +kernel)
    exact ⟨_, v, by decide, hv, of_decide_eq_true hp⟩
  refine ⟨fun h => ?_, h1, h2⟩
  obtain ⟨s, v, -, hv, hp⟩ := h1
  obtain ⟨n, hn⟩ := h s v hv
  rw [hp] at hn
  exact nomatch hn

example : romBytes 0xFF (some 0x4002) = some (2 * 1024 ^ 3) := by decide +kernel
example : RomSize.toU64 ⟨0xFF, some 0x4002⟩ = .ok 0x80000000 := by decide +kernel
example : RomSize.toU64 ⟨0xFE, none⟩ = .ok 0xFF0000 := by decide +kernel

end Dmi.Props
