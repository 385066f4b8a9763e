import Verif.Proofs.Decode
import Verif.Model.S007
/-!
# C37, C38: cache information (type 7)
-/
namespace Dmi.Props
open Spec cache
set_option linter.unusedSimpArgs false

/-! ### C38 -/

/-- The sub-fields of the cache configuration word: bits 0-2 the level minus one, bit 3 socketed,
bits 5-6 the location, bit 7 enabled at boot, bits 8-9 the operational mode. -/
structure ConfigFields (w : Nat) (c : CacheConfiguration) : Prop where
  level : [CacheLevel.L1, .L2, .L3, .L4, .L5, .L6, .L7, .L8][w % 8]? = some c.level
  socketed : c.socketed = w.testBit 3
  location : [CacheLocation.Internal, .External, .Reserved, .Unknown][w / 2 ^ 5 % 4]? =
    some c.location
  enabled_at_boot_time : c.enabled_at_boot_time = w.testBit 7
  operational_mode : [CacheOperationalMode.WriteThrough, .WriteBack, .ValuesWithMemoryAddress,
    .Unknown][w / 2 ^ 8 % 4]? = some c.operational_mode

theorem mask_shift (w m k : UInt16) (j : Nat) (hm : m.toNat >>> (k.toNat % 16) = 2 ^ j - 1) :
    ((w &&& m) >>> k).toNat = w.toNat / 2 ^ (k.toNat % 16) % 2 ^ j := by
  rw [UInt16.toNat_shiftRight, UInt16.toNat_and, Nat.shiftRight_and_distrib, hm,
    Nat.and_two_pow_sub_one_eq_mod, Nat.shiftRight_eq_div_pow]

theorem flag_bit (w m k : UInt16) (hm : m.toNat >>> (k.toNat % 16) = 2 ^ 1 - 1) :
    ((w &&& m) >>> k == 1) = w.toNat.testBit (k.toNat % 16) := by
  rw [Nat.testBit_eq_decide_div_mod_eq, Bool.eq_iff_iff, beq_iff_eq, decide_eq_true_iff,
    ← UInt16.toNat_inj, mask_shift w m k 1 hm]
  rfl

theorem level_ok {ε : Type} (x : UInt16) (h : x.toNat < 8) : ∃ c,
    (CacheLevel.ofU16 x : Res ε _) = .ok c ∧
    [CacheLevel.L1, .L2, .L3, .L4, .L5, .L6, .L7, .L8][x.toNat]? = some c := by
  unfold CacheLevel.ofU16
  generalize x.toNat = n at *
  match n, h with
  | 0, _ | 1, _ | 2, _ | 3, _ | 4, _ | 5, _ | 6, _ | 7, _ => exact ⟨_, rfl, rfl⟩

theorem location_ok {ε : Type} (x : UInt16) (h : x.toNat < 4) : ∃ c,
    (CacheLocation.ofU16 x : Res ε _) = .ok c ∧
    [CacheLocation.Internal, .External, .Reserved, .Unknown][x.toNat]? = some c := by
  unfold CacheLocation.ofU16
  generalize x.toNat = n at *
  match n, h with
  | 0, _ | 1, _ | 2, _ | 3, _ => exact ⟨_, rfl, rfl⟩

theorem mode_ok {ε : Type} (x : UInt16) (h : x.toNat < 4) : ∃ c,
    (CacheOperationalMode.ofU16 x : Res ε _) = .ok c ∧
    [CacheOperationalMode.WriteThrough, .WriteBack, .ValuesWithMemoryAddress,
    .Unknown][x.toNat]? = some c := by
  unfold CacheOperationalMode.ofU16
  generalize x.toNat = n at *
  match n, h with
  | 0, _ | 1, _ | 2, _ | 3, _ => exact ⟨_, rfl, rfl⟩

/-- C38: every configuration word decodes, to exactly its sub-fields. -/
theorem C38_configuration (w : UInt16) : ∃ c, (∀ ε : Type,
    (CacheConfiguration.ofU16 w : Res ε _) = .ok c) ∧ ConfigFields w.toNat c := by
  have m0 : (w &&& 0b0000_0111).toNat = w.toNat % 8 := by
    rw [UInt16.toNat_and]; exact Nat.and_two_pow_sub_one_eq_mod _ 3
  have m5 := mask_shift w 0b0110_0000 5 2 rfl
  have m8 := mask_shift w 0b0000_0011_0000_0000 8 2 rfl
  obtain ⟨l, -, hl⟩ := level_ok (ε := Empty) (w &&& 0b0000_0111) (by omega)
  obtain ⟨o, -, ho⟩ := location_ok (ε := Empty) ((w &&& 0b0110_0000) >>> 5)
    (by rw [m5]; exact Nat.mod_lt _ (by decide))
  obtain ⟨m, -, hm⟩ := mode_ok (ε := Empty) ((w &&& 0b0000_0011_0000_0000) >>> 8)
    (by rw [m8]; exact Nat.mod_lt _ (by decide))
  refine ⟨⟨l, w.toNat.testBit 3, o, w.toNat.testBit 7, m⟩, fun ε => ?_, ?_⟩
  · obtain ⟨l', hl1, hl2⟩ := level_ok (ε := ε) (w &&& 0b0000_0111) (by omega)
    obtain ⟨o', ho1, ho2⟩ := location_ok (ε := ε) ((w &&& 0b0110_0000) >>> 5)
      (by rw [m5]; exact Nat.mod_lt _ (by decide))
    obtain ⟨m', hm1, hm2⟩ := mode_ok (ε := ε) ((w &&& 0b0000_0011_0000_0000) >>> 8)
      (by rw [m8]; exact Nat.mod_lt _ (by decide))
    obtain rfl := Option.some.inj (hl.symm.trans hl2)
    obtain rfl := Option.some.inj (ho.symm.trans ho2)
    obtain rfl := Option.some.inj (hm.symm.trans hm2)
    unfold CacheConfiguration.ofU16
    rw [hl1, ho1, hm1, flag_bit w 0b0000_1000 3 rfl, flag_bit w 0b1000_0000 7 rfl]
    rfl
  · rw [m0] at hl; rw [m5] at ho; rw [m8] at hm
    exact ⟨hl, rfl, ho, rfl, hm⟩

/-- C38: the sub-fields determine the configuration, so bits 4 and 10-15 (reserved) are the only
ones lost. -/
theorem C38_configuration_unique (w : Nat) (c d : CacheConfiguration) (hc : ConfigFields w c)
    (hd : ConfigFields w d) : c = d := by
  obtain ⟨c1, c2, c3, c4, c5⟩ := hc
  obtain ⟨d1, d2, d3, d4, d5⟩ := hd
  obtain ⟨_, _, _, _, _⟩ := c
  obtain ⟨_, _, _, _, _⟩ := d
  simp only at *
  rw [c1, Option.some.injEq] at d1
  rw [c3, Option.some.injEq] at d3
  rw [c5, Option.some.injEq] at d5
  simp [d1, d3, d5, c2, d2, c4, d4]

theorem config_iff {ε : Type} {w : UInt16} {c : CacheConfiguration} :
    ConfigFields w.toNat c ↔ (CacheConfiguration.ofU16 w : Res ε _) = .ok c := by
  obtain ⟨d, hd, hs⟩ := C38_configuration w
  rw [hd ε]
  constructor
  · intro h; rw [C38_configuration_unique _ _ _ hs h]
  · intro h; cases h; exact hs

example : ConfigFields 0x0180 ⟨.L1, false, .Internal, true, .WriteBack⟩ :=
  ⟨rfl, rfl, rfl, rfl, rfl⟩

/-- C38: a 16-bit size is its low 15 bits in units of 1 KiB or, with the top bit set, 64 KiB. -/
theorem C38_size (w : UInt16) :
    (w.toNat < 2 ^ 15 → ∃ v, CacheSize.ofU16 w = .Granularity1K v ∧ v.toNat = w.toNat) ∧
    (2 ^ 15 ≤ w.toNat →
      ∃ v, CacheSize.ofU16 w = .Granularity64K v ∧ v.toNat = w.toNat - 2 ^ 15) := by
  have hw := w.toNat_lt
  have hv : (w &&& ~~~((1 : UInt16) <<< 15)).toNat = w.toNat % 2 ^ 15 := by
    rw [UInt16.toNat_and]
    exact Nat.and_two_pow_sub_one_eq_mod _ 15
  have hb : w &&& ((1 : UInt16) <<< 15) = 0 ↔ w.toNat < 2 ^ 15 := by
    rw [← UInt16.toNat_inj, UInt16.toNat_and,
      show ((1 : UInt16) <<< 15).toNat = 2 ^ 15 from rfl]
    refine and_two_pow_eq_zero.trans ?_
    omega
  unfold CacheSize.ofU16
  constructor
  · intro h
    rw [if_pos (hb.2 h)]
    exact ⟨_, rfl, by rw [hv]; omega⟩
  · intro h
    rw [if_neg (fun h' => absurd (hb.1 h') (by omega))]
    exact ⟨_, rfl, by rw [hv]; omega⟩

/-- C38: the same for the 32-bit sizes. -/
theorem C38_size2 (w : UInt32) :
    (w.toNat < 2 ^ 31 → ∃ v, CacheSize2.ofU32 w = .Granularity1K v ∧ v.toNat = w.toNat) ∧
    (2 ^ 31 ≤ w.toNat →
      ∃ v, CacheSize2.ofU32 w = .Granularity64K v ∧ v.toNat = w.toNat - 2 ^ 31) := by
  have hw := w.toNat_lt
  have hv : (w &&& ~~~((1 : UInt32) <<< 31)).toNat = w.toNat % 2 ^ 31 := by
    rw [UInt32.toNat_and]
    exact Nat.and_two_pow_sub_one_eq_mod _ 31
  have hb : w &&& ((1 : UInt32) <<< 31) = 0 ↔ w.toNat < 2 ^ 31 := by
    rw [← UInt32.toNat_inj, UInt32.toNat_and,
      show ((1 : UInt32) <<< 31).toNat = 2 ^ 31 from rfl]
    refine and_two_pow_eq_zero.trans ?_
    omega
  unfold CacheSize2.ofU32
  constructor
  · intro h
    rw [if_pos (hb.2 h)]
    exact ⟨_, rfl, by rw [hv]; omega⟩
  · intro h
    rw [if_neg (fun h' => absurd (hb.1 h') (by omega))]
    exact ⟨_, rfl, by rw [hv]; omega⟩

/-- C38: sizes in bytes, without overflow. -/
theorem C38_bytes :
    (∀ v, (CacheSize.Granularity1K v).bytes.toNat = v.toNat * 1024) ∧
    (∀ v, (CacheSize.Granularity64K v).bytes.toNat = v.toNat * 65536) ∧
    (∀ v, (CacheSize2.Granularity1K v).bytes.toNat = v.toNat * 1024) ∧
    (∀ v, (CacheSize2.Granularity64K v).bytes.toNat = v.toNat * 65536) := by
  have k : ((1 : UInt64) <<< 10) = 1024 := by decide
  have k' : ((1 : UInt64) <<< 16) = 65536 := by decide
  refine ⟨fun v => ?_, fun v => ?_, fun v => ?_, fun v => ?_⟩ <;> have := v.toNat_lt <;>
    simp only [CacheSize.bytes, CacheSize2.bytes, k, k', UInt64.toNat_mul, UInt16.toNat_toUInt64,
      UInt32.toNat_toUInt64, UInt64.reduceToNat] <;> omega

/-- C38: no size word is confused with another. -/
theorem C38_size_injective :
    (∀ a b, CacheSize.ofU16 a = CacheSize.ofU16 b → a = b) ∧
    (∀ a b, CacheSize2.ofU32 a = CacheSize2.ofU32 b → a = b) := by
  constructor <;> intro a b h
  · rw [← UInt16.toNat_inj]
    obtain ⟨a1, a2⟩ := C38_size a
    obtain ⟨b1, b2⟩ := C38_size b
    by_cases ha : a.toNat < 2 ^ 15 <;> by_cases hb : b.toNat < 2 ^ 15
    · obtain ⟨v, e, n⟩ := a1 ha; obtain ⟨v', e', n'⟩ := b1 hb
      rw [e, e'] at h; cases h; omega
    · obtain ⟨v, e, n⟩ := a1 ha; obtain ⟨v', e', n'⟩ := b2 (by omega)
      rw [e, e'] at h; cases h
    · obtain ⟨v, e, n⟩ := a2 (by omega); obtain ⟨v', e', n'⟩ := b1 hb
      rw [e, e'] at h; cases h
    · obtain ⟨v, e, n⟩ := a2 (by omega); obtain ⟨v', e', n'⟩ := b2 (by omega)
      rw [e, e'] at h; cases h; omega
  · rw [← UInt32.toNat_inj]
    obtain ⟨a1, a2⟩ := C38_size2 a
    obtain ⟨b1, b2⟩ := C38_size2 b
    by_cases ha : a.toNat < 2 ^ 31 <;> by_cases hb : b.toNat < 2 ^ 31
    · obtain ⟨v, e, n⟩ := a1 ha; obtain ⟨v', e', n'⟩ := b1 hb
      rw [e, e'] at h; cases h; omega
    · obtain ⟨v, e, n⟩ := a1 ha; obtain ⟨v', e', n'⟩ := b2 (by omega)
      rw [e, e'] at h; cases h
    · obtain ⟨v, e, n⟩ := a2 (by omega); obtain ⟨v', e', n'⟩ := b1 hb
      rw [e, e'] at h; cases h
    · obtain ⟨v, e, n⟩ := a2 (by omega); obtain ⟨v', e', n'⟩ := b2 (by omega)
      rw [e, e'] at h; cases h; omega

example : CacheSize.ofU16 0x8010 = .Granularity64K 16 := by decide
example : (CacheSize2.ofU32 0xFFFFFFFF).bytes = 0x7FFFFFFF0000 := by decide

/-! ### C37 -/

/-- Length of a type 7 structure of the given version. -/
def cacheLength (s : RawStructure) : Nat :=
  if Since s 3 1 then 0x1B else if Since s 2 1 then 0x13 else 0x0F

/-- The fields of a type 7 structure; `f21` and `f31` say when the fields introduced in 2.1 and
3.1 are present. Bits 7-15 of the SRAM types are reserved. -/
structure CacheFields (s : RawStructure) (f21 f31 : Prop) (v : Cache) : Prop where
  handle : v.handle = s.handle
  socket_designation : Ref s 0x04 v.socket_designation
  cache_configuration : ConfigFields (word s 0x05).toNat v.cache_configuration
  maximum_cache_size : v.maximum_cache_size = CacheSize.ofU16 (word s 0x07)
  installed_size : v.installed_size = CacheSize.ofU16 (word s 0x09)
  supported_sram_type : v.supported_sram_type.bits.toNat = (word s 0x0B).toNat % 128
  current_sram_type : v.current_sram_type.bits.toNat = (word s 0x0D).toNat % 128
  cache_speed : When f21 v.cache_speed (· = byte s 0x0F)
  error_correction_type : When f21 v.error_correction_type
    (· = CacheErrorCorrectionType.ofU8 (byte s 0x10))
  system_cache_type : When f21 v.system_cache_type (· = SystemCacheType.ofU8 (byte s 0x11))
  associativity : When f21 v.associativity (· = CacheAssociativity.ofU8 (byte s 0x12))
  maximum_cache_size_2 : When f31 v.maximum_cache_size_2 (· = CacheSize2.ofU32 (dword s 0x13))
  installed_size_2 : When f31 v.installed_size_2 (· = CacheSize2.ofU32 (dword s 0x17))

theorem sram_iff {w : UInt16} {c : CacheSramType} :
    c.bits.toNat = w.toNat % 128 ↔ CacheSramType.fromBitsTruncate w = c := by
  have h : (CacheSramType.fromBitsTruncate w).bits.toNat = w.toNat % 128 := by
    unfold CacheSramType.fromBitsTruncate
    rw [UInt16.toNat_and]
    exact Nat.and_two_pow_sub_one_eq_mod _ 7
  rw [← h]
  constructor
  · intro e
    have e := UInt16.toNat_inj.1 e
    generalize CacheSramType.fromBitsTruncate w = g at e
    obtain ⟨g⟩ := g; obtain ⟨c⟩ := c; simp only at e; rw [e]
  · rintro rfl; rfl

theorem cache_packed2_0 {s : RawStructure} (h : Fits s 0x0F) :
    (letAsStruct CachePacked2_0.packed s.data : R _) = .ok
      ⟨byte s 4, word s 5, word s 7, word s 9, word s 0xB, word s 0xD⟩ := by
  have h : 11 ≤ s.data.length := by unfold Fits at h; omega
  unfold CachePacked2_0.packed
  packed_eval

theorem cache_packed2_1 {s : RawStructure} (h : Fits s 0x13) :
    (letAsStruct CachePacked2_1.packed s.data : R _) = .ok
      ⟨byte s 4, word s 5, word s 7, word s 9, word s 0xB, word s 0xD, byte s 0xF, byte s 0x10,
        byte s 0x11, byte s 0x12⟩ := by
  have h : 15 ≤ s.data.length := by unfold Fits at h; omega
  unfold CachePacked2_1.packed
  packed_eval

theorem cache_packed3_1 {s : RawStructure} (h : Fits s 0x1B) :
    (letAsStruct CachePacked3_1.packed s.data : R _) = .ok
      ⟨byte s 4, word s 5, word s 7, word s 9, word s 0xB, word s 0xD, byte s 0xF, byte s 0x10,
        byte s 0x11, byte s 0x12, dword s 0x13, dword s 0x17⟩ := by
  have h : 23 ≤ s.data.length := by unfold Fits at h; omega
  unfold CachePacked3_1.packed
  packed_eval

/-- The length the decoder reads. -/
def cacheReads (s : RawStructure) : Nat :=
  if Since s 3 2 then 0x1B else if Since s 2 2 then 0x13 else 0x0F

/-- C37, full statement. -/
def C37_full : Prop := ∀ (s : RawStructure) (v : Cache), Since s 2 0 → Fits s (cacheLength s) →
  (Cache.try_from s = .ok v ↔ CacheFields s (Since s 2 1) (Since s 3 1) v)

/-- C37: from version 2.1 on a long enough structure decodes to exactly the stored values, but the
fields of 2.1 are only present from 2.2 on and those of 3.1 from 3.2 on. -/
theorem C37_decodes (s : RawStructure) (hv : Since s 2 1) (h : Fits s (cacheReads s)) (v : Cache) :
    Cache.try_from s = .ok v ↔ CacheFields s (Since s 2 2) (Since s 3 2) v := by
  unfold Cache.try_from cacheReads at *
  by_cases h1 : Since s 3 2
  · have h2 : Since s 2 2 := since_mono h1 (by decide)
    rw [if_pos (gt_pos h1), cache_packed3_1 (by simpa [h1] using h)]
    decode_iff v [config_iff (ε := MalformedStructureError), sram_iff]
  rw [if_neg (gt_neg h1)]
  by_cases h2 : Since s 2 2
  · rw [if_pos (gt_pos h2), cache_packed2_1 (by simpa [h1, h2] using h)]
    decode_iff v [config_iff (ε := MalformedStructureError), sram_iff]
  · rw [if_neg (gt_neg h2), if_pos (gt_pos hv), cache_packed2_0 (by simpa [h1, h2] using h)]
    decode_iff v [config_iff (ε := MalformedStructureError), sram_iff]

/-- C37: the full statement holds for every version except 2.0, 2.1 and 3.1. -/
theorem C37_decodes_partial (s : RawStructure) (hv : Since s 2 1)
    (h21 : s.version ≠ ⟨2, 1⟩) (h31 : s.version ≠ ⟨3, 1⟩) (h : Fits s (cacheLength s))
    (v : Cache) :
    Cache.try_from s = .ok v ↔ CacheFields s (Since s 2 1) (Since s 3 1) v := by
  have aux : ∀ (a : Nat) (A : UInt8), A.toNat = a → s.version ≠ ⟨A, 1⟩ →
      (Since s a 1 ↔ Since s a 2) := by
    intro a A hA hne
    unfold Since
    have : ¬ (s.version.major.toNat = a ∧ s.version.minor.toNat = 1) := by
      rintro ⟨x, y⟩
      apply hne
      rw [← hA] at x
      have x := UInt8.toNat_inj.1 x
      have y : s.version.minor = 1 := UInt8.toNat_inj.1 y
      generalize s.version = w at x y
      obtain ⟨w1, w2⟩ := w
      simp only at x y
      rw [x, y]
    omega
  have e2 := aux 2 2 rfl h21
  have e3 := aux 3 3 rfl h31
  have : cacheReads s = cacheLength s := by
    unfold cacheReads cacheLength; simp only [e2, e3]
  rw [C37_decodes s hv (this ▸ h), propext e2, propext e3]

/-- C37: from version 2.1 on, a long enough structure can only be rejected for a reference to a
missing string. -/
theorem C37_rejects (s : RawStructure) (hv : Since s 2 1) (h : Fits s (cacheReads s)) :
    ErrOnly (BadRef s [0x04]) (Cache.try_from s) := by
  obtain ⟨c, hc, -⟩ := C38_configuration (word s 0x05)
  unfold Cache.try_from cacheReads at *
  by_cases h1 : Since s 3 2
  · rw [if_pos (gt_pos h1), cache_packed3_1 (by simpa [h1] using h)]
    simp only [ok_bind, hc]
    err_only
  rw [if_neg (gt_neg h1)]
  by_cases h2 : Since s 2 2
  · rw [if_pos (gt_pos h2), cache_packed2_1 (by simpa [h1, h2] using h)]
    simp only [ok_bind, hc]
    err_only
  · rw [if_neg (gt_neg h2), if_pos (gt_pos hv), cache_packed2_0 (by simpa [h1, h2] using h)]
    simp only [ok_bind, hc]
    err_only

/-- C37: the decoder panics exactly for version 2.0 and before, and reads out of bounds exactly
when the structure is shorter than what it reads. -/
theorem C37_faults (s : RawStructure) :
    (Cache.try_from s = .panic ↔ ¬ Since s 2 1) ∧
    (Cache.try_from s = .ub ↔ Since s 2 1 ∧ ¬ Fits s (cacheReads s)) := by
  by_cases hv : Since s 2 1
  · by_cases h : Fits s (cacheReads s)
    · have := (C37_rejects s hv h).1
      exact ⟨⟨fun hp => absurd hp this.1, fun hn => absurd hv hn⟩,
        ⟨fun hu => absurd hu this.2, fun hn => absurd h hn.2⟩⟩
    · have hu : Cache.try_from s = .ub := by
        unfold Cache.try_from cacheReads Fits at *
        by_cases h1 : Since s 3 2
        · rw [if_pos h1] at h
          rw [if_pos (gt_pos h1), letAsStruct_short (n := 23)
            (by unfold CachePacked3_1.packed; consumes) (by omega), ub_bind]
        rw [if_neg (gt_neg h1)]
        rw [if_neg h1] at h
        by_cases h2 : Since s 2 2
        · rw [if_pos h2] at h
          rw [if_pos (gt_pos h2), letAsStruct_short (n := 15)
            (by unfold CachePacked2_1.packed; consumes) (by omega), ub_bind]
        · rw [if_neg h2] at h
          rw [if_neg (gt_neg h2), if_pos (gt_pos hv), letAsStruct_short (n := 11)
            (by unfold CachePacked2_0.packed; consumes) (by omega), ub_bind]
      rw [hu]
      exact ⟨⟨nofun, fun hn => absurd hv hn⟩, ⟨fun _ => ⟨hv, h⟩, fun _ => rfl⟩⟩
  · have hp : Cache.try_from s = .panic := by
      unfold Cache.try_from
      rw [if_neg (gt_neg fun h => hv (since_mono h (by decide))),
        if_neg (gt_neg fun h => hv (since_mono h (by decide))), if_neg (gt_neg hv)]
    rw [hp]
    exact ⟨⟨fun _ => hv, fun _ => rfl⟩, ⟨nofun, fun hn => absurd hn.1 hv⟩⟩

/-- A 3.2 structure: a 2 MiB second-level cache, installed size in the 32-bit field. -/
def exampleCache : RawStructure where
  version := ⟨3, 2⟩
  info := .Cache
  length := 0x1B
  handle := 0x0700
  data := [1, 0x81, 0x01, 0x00, 0x08, 0x20, 0x80, 0x20, 0, 0x20, 0, 0, 5, 5, 7, 0, 8, 0, 0, 0, 8,
    0, 0]
  strings := ascii "L2-Cache" ++ [0, 0]

example : Since exampleCache 2 1 ∧ Fits exampleCache (cacheReads exampleCache) ∧
    exampleCache.version ≠ ⟨2, 1⟩ ∧ exampleCache.version ≠ ⟨3, 1⟩ ∧
    Fits exampleCache (cacheLength exampleCache) := by decide
example : Cache.try_from exampleCache = .ok {
    handle := 0x0700
    socket_designation := ascii "L2-Cache"
    cache_configuration := ⟨.L2, false, .Internal, true, .WriteBack⟩
    maximum_cache_size := .Granularity1K 2048
    installed_size := .Granularity64K 32
    supported_sram_type := ⟨0x20⟩
    current_sram_type := ⟨0x20⟩
    cache_speed := some 0
    error_correction_type := some .SingleBitEcc
    system_cache_type := some .Unified
    associativity := some .EightWaySetAssociative
    maximum_cache_size_2 := some (.Granularity1K 2048)
    installed_size_2 := some (.Granularity1K 2048) } := by decide +kernel

/-- C37, the full statement fails at 2.0 (panic), at 2.1 (the speed and the other fields of 2.1 are
dropped) and at 3.1 (the 32-bit sizes are dropped). -/
theorem C37_full_false : ¬ C37_full ∧
    (∀ s, s.version = ⟨2, 0⟩ → Cache.try_from s = .panic) ∧
    (∀ s v, s.version = ⟨2, 1⟩ → Cache.try_from s = .ok v → v.cache_speed = none ∧
      v.error_correction_type = none ∧ v.system_cache_type = none ∧ v.associativity = none) ∧
    (∀ s v, s.version = ⟨3, 1⟩ → Cache.try_from s = .ok v → v.maximum_cache_size_2 = none ∧
      v.installed_size_2 = none) := by
  have fits : ∀ s v, Since s 2 1 → Cache.try_from s = .ok v → Fits s (cacheReads s) := by
    intro s v hs hv
    apply Decidable.byContradiction
    intro hn
    rw [(C37_faults s).2.2 ⟨hs, hn⟩] at hv
    exact nomatch hv
  have h31 : ∀ s v, s.version = ⟨3, 1⟩ → Cache.try_from s = .ok v →
      v.maximum_cache_size_2 = none ∧ v.installed_size_2 = none := by
    intro s v hs hv
    have h21 : Since s 2 1 := by unfold Since; rw [hs]; decide
    have hf := (C37_decodes s h21 (fits s v h21 hv) v).1 hv
    have hn : ¬ Since s 3 2 := by unfold Since; rw [hs]; decide
    exact ⟨(when_neg hn).1 hf.maximum_cache_size_2, (when_neg hn).1 hf.installed_size_2⟩
  refine ⟨fun hf => ?_, ?_, ?_, h31⟩
  · obtain ⟨v, hv, -⟩ := exists_ok (x := Cache.try_from { exampleCache with version := ⟨3, 1⟩ })
      (p := fun _ => true) (by decide +kernel)
    have h := ((hf _ v (by decide) (by decide)).1 hv).maximum_cache_size_2
    rw [when_pos (by decide), (h31 _ v rfl hv).1] at h
    obtain ⟨a, ha, -⟩ := h
    exact nomatch ha
  · intro s hs
    exact (C37_faults s).1.2 (by unfold Since; rw [hs]; decide)
  · intro s v hs hv
    have h21 : Since s 2 1 := by unfold Since; rw [hs]; decide
    have hf := (C37_decodes s h21 (fits s v h21 hv) v).1 hv
    have hn : ¬ Since s 2 2 := by unfold Since; rw [hs]; decide
    exact ⟨(when_neg hn).1 hf.cache_speed, (when_neg hn).1 hf.error_correction_type,
      (when_neg hn).1 hf.system_cache_type, (when_neg hn).1 hf.associativity⟩

end Dmi.Props
