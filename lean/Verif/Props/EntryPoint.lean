import Verif.Proofs.EntryPoint2
/-!
# C01–C07: entry points and versions
-/
namespace Dmi.Props
open Spec

/-! ### Sample data used by the examples -/

/-- A 31-byte SMBIOS 2.8 entry point. -/
def sampleV2 : Bytes :=
  [95, 83, 77, 95, 59, 31, 2, 8, 52, 18, 0, 0, 0, 0, 0, 0, 95, 68, 77, 73, 95, 119, 128, 2, 0, 16,
   14, 0, 33, 0, 40]

/-- A 24-byte SMBIOS 3.1 entry point. -/
def sampleV3 : Bytes :=
  [95, 83, 77, 51, 95, 80, 24, 3, 1, 0, 1, 0, 94, 9, 0, 0, 0, 48, 235, 127, 1, 0, 0, 0]

theorem sampleV2_first (post : Bytes) : FirstAnchor (sampleV2 ++ post) 0 fmtV2 := by
  refine ⟨Or.inl rfl, ⟨rfl, [], sampleV2.drop 4 ++ post, ?_, rfl⟩, fun o' h => by omega⟩
  rfl

theorem sampleV3_first (post : Bytes) : FirstAnchor (sampleV3 ++ post) 0 fmtV3 := by
  refine ⟨Or.inr rfl, ⟨rfl, [], sampleV3.drop 5 ++ post, ?_, rfl⟩, fun o' h => by omega⟩
  rfl

theorem sampleV2_wf : WellFormed fmtV2 sampleV2 0 := by
  constructor <;> decide +kernel

theorem sampleV3_wf : WellFormed fmtV3 sampleV3 0 := by
  constructor <;> decide +kernel

/-! ### C04 (used by the examples of the others) -/

/-- The full statement of C04. It is false of the code, see `C04_valid_accepted_false`. -/
def C04_full : Prop := ∀ (b : Bytes) (o : Nat) (F : EpFormat),
  FirstAnchor b o F → WellFormed F b o → ∃ e, EntryPoint.search b = .ok e ∧ Shows F b o e

/-- C04 (part that holds): a well-formed entry point at the first anchor is accepted, with its
fields, exactly when the number of bytes from the anchor to the end of the buffer, *modulo 256*, is
at least its declared length; otherwise it is rejected with `BadSize` of that number. Missing from
the full statement: acceptance in the latter case. -/
theorem C04_valid_accepted_partial {b : Bytes} {o : Nat} {F : EpFormat} (h : FirstAnchor b o F)
    (wf : WellFormed F b o) :
    (epLen F b o ≤ (b.length - o) % 256 → ∃ e, EntryPoint.search b = .ok e ∧ Shows F b o e) ∧
    ((b.length - o) % 256 < epLen F b o →
      EntryPoint.search b = .err (.BadSize (UInt8.ofNat (b.length - o)))) := by
  obtain ⟨e, hs, he⟩ := search_first h
  rw [if_neg (Nat.not_lt.2 wf.size), if_neg (Nat.not_lt.2 wf.minLen),
    if_neg (Nat.not_lt.2 wf.version)] at he
  constructor
  · intro hle
    rw [if_neg (Nat.not_lt.2 hle), if_neg (by simp [wf.checksum])] at he
    exact ⟨e, he, hs wf.size⟩
  · intro hlt
    rw [if_pos hlt] at he
    exact he

example : ∃ e, EntryPoint.search sampleV2 = .ok e ∧ Shows fmtV2 sampleV2 0 e :=
  (C04_valid_accepted_partial (by simpa using sampleV2_first []) sampleV2_wf).1 (by decide +kernel)

example : ∃ e, EntryPoint.search sampleV3 = .ok e ∧ Shows fmtV3 sampleV3 0 e :=
  (C04_valid_accepted_partial (by simpa using sampleV3_first []) sampleV3_wf).1 (by decide +kernel)

/-- A valid entry point followed by data up to 256 bytes in total is rejected as too small. -/
theorem C04_valid_accepted_false : ¬ C04_full := by
  intro h
  have hf := sampleV2_first (List.replicate 225 0)
  have wf : WellFormed fmtV2 (sampleV2 ++ List.replicate 225 0) 0 := by
    constructor <;> decide +kernel
  obtain ⟨e, he, -⟩ := h _ _ _ hf wf
  have := (C04_valid_accepted_partial hf wf).2 (by decide +kernel)
  rw [he] at this
  cases this

/-- For buffers shorter than 256 bytes after the anchor the full statement holds. -/
theorem C04_valid_accepted_short {b : Bytes} {o : Nat} {F : EpFormat} (h : FirstAnchor b o F)
    (wf : WellFormed F b o) (hlen : b.length - o < 256) :
    ∃ e, EntryPoint.search b = .ok e ∧ Shows F b o e := by
  refine (C04_valid_accepted_partial h wf).1 ?_
  have := wf.fits
  rw [Nat.mod_eq_of_lt hlen]; omega

example : sampleV2.length - 0 < 256 := by decide

/-! ### C01 -/

/-- C01: an accepted entry point is the well-formed one at the first anchor, and the accessors
return the stored values. -/
theorem C01_accepted_is_genuine {b : Bytes} {e : EntryPoint} (h : EntryPoint.search b = .ok e) :
    ∃ o F, FirstAnchor b o F ∧ WellFormed F b o ∧ Shows F b o e := by
  obtain ⟨o, F, hf⟩ := search_ok_first h
  obtain ⟨e', hs, he⟩ := search_first hf
  rw [h] at he
  refine ⟨o, F, hf, ?_⟩
  split at he; · cases he
  split at he; · cases he
  split at he; · cases he
  split at he; · cases he
  split at he; · cases he
  rename_i h1 h2 h3 h4 h5
  cases he
  have := Nat.mod_le (b.length - o) 256
  have hlt : o < b.length := hf.anchor.2.lt (by rcases hf.format with rfl | rfl <;> decide)
  exact ⟨⟨by omega, by omega, by omega, by omega, by simpa using h5⟩, hs (by omega)⟩

example : ∃ e, EntryPoint.search sampleV3 = .ok e ∧ e.major = 3 ∧ e.minor = 1 ∧ e.revision = 1 ∧
    e.smbios_len = 0x95E ∧ e.smbios_address = 0x17FEB3000 := by
  obtain ⟨e, he, hs⟩ := (C04_valid_accepted_partial (by simpa using sampleV3_first [])
    sampleV3_wf).1 (by decide +kernel)
  refine ⟨e, he, ?_, ?_, ?_, ?_, ?_⟩
  · apply UInt8.toNat.inj; rw [hs.major]; decide +kernel
  · apply UInt8.toNat.inj; rw [hs.minor]; decide +kernel
  · apply UInt8.toNat.inj; rw [hs.revision]; decide +kernel
  · apply UInt32.toNat.inj; rw [hs.smbios_len]; decide +kernel
  · apply UInt64.toNat.inj; rw [hs.smbios_address]; decide +kernel

/-! ### C02 -/

/-- C02: `search` never panics and never reads out of bounds. (The model of `search` contains no
overflow-checked operation, so this covers both profiles.) -/
theorem C02_search_no_fault (b : Bytes) : (EntryPoint.search b).NoFault := by
  by_cases hex : ∃ o F, FirstAnchor b o F
  · obtain ⟨o, F, hf⟩ := hex
    obtain ⟨e, -, he⟩ := search_first hf
    rw [he]
    constructor <;> repeat' split
    all_goals simp
  · have : EntryPoint.search b = .err .NotFound := by
      apply search_notFound
      intro o F hF hA
      obtain ⟨o', F', h⟩ := FirstAnchor.exists_of_anchor hF hA
      exact hex ⟨o', F', h⟩
    rw [this]
    constructor <;> simp

/-! ### C03 -/

/-- C03 (`NotFound`): exactly when there is no anchor. -/
theorem C03_notFound_iff (b : Bytes) :
    EntryPoint.search b = .err .NotFound ↔ ∀ o F, IsFormat F → ¬ AnchorAt b o F := by
  constructor
  · intro h o F hF hA
    obtain ⟨o', F', hf⟩ := FirstAnchor.exists_of_anchor hF hA
    obtain ⟨e, -, he⟩ := search_first hf
    rw [h] at he
    revert he
    repeat' split
    all_goals simp
  · exact search_notFound

/-- Case analysis of the outcome at the first anchor. -/
theorem search_cases {b : Bytes} {P : Res InvalidEntryPointError EntryPoint → Prop}
    (hn : (∀ o F, IsFormat F → ¬ AnchorAt b o F) → P (.err .NotFound))
    (hf : ∀ o F e, FirstAnchor b o F → (F.minLen ≤ b.length - o → Shows F b o e) → P (
      if b.length - o < F.minLen then .err (.BadSize (UInt8.ofNat (b.length - o)))
      else if epLen F b o < F.minLen then .err (.BadSize (UInt8.ofNat (epLen F b o)))
      else if epMajor F b o < 2 then .err (.TooOldVersion (UInt8.ofNat (epMajor F b o)))
      else if (b.length - o) % 256 < epLen F b o then .err (.BadSize (UInt8.ofNat (b.length - o)))
      else if byteSum (bytesAt b o (epLen F b o)) ≠ 0 then
        .err (.BadChecksum (UInt8.ofNat (byteSum (bytesAt b o (epLen F b o)))))
      else .ok e)) : P (EntryPoint.search b) := by
  by_cases hex : ∃ o F, FirstAnchor b o F
  · obtain ⟨o, F, h⟩ := hex
    obtain ⟨e, hs, he⟩ := search_first h
    rw [he]
    exact hf o F e h hs
  · have hno : ∀ o F, IsFormat F → ¬ AnchorAt b o F := by
      intro o F hF hA
      obtain ⟨o', F', h⟩ := FirstAnchor.exists_of_anchor hF hA
      exact hex ⟨o', F', h⟩
    rw [search_notFound hno]
    exact hn hno

theorem leAt_one_lt (b : Bytes) (o : Nat) : leAt b o 1 < 256 := by
  rw [leAt_one]; exact UInt8.toNat_lt _

theorem u8_eq_ofNat {v : UInt8} {n : Nat} : UInt8.ofNat n = v ↔ v.toNat = n % 256 := by
  constructor
  · rintro rfl; simp
  · intro h; apply UInt8.toNat.inj; simp [h]

/-- C03 (`BadSize`): the anchor is too close to the end of the buffer, or the declared length is
smaller than the entry point, or (the version being supported) the number of bytes left, taken
modulo 256, is smaller than the declared length. -/
theorem C03_badSize_iff (b : Bytes) (v : UInt8) :
    EntryPoint.search b = .err (.BadSize v) ↔ ∃ o F, FirstAnchor b o F ∧
      ((b.length - o < F.minLen ∧ v.toNat = b.length - o) ∨
       (F.minLen ≤ b.length - o ∧ epLen F b o < F.minLen ∧ v.toNat = epLen F b o) ∨
       (F.minLen ≤ b.length - o ∧ F.minLen ≤ epLen F b o ∧ 2 ≤ epMajor F b o ∧
        (b.length - o) % 256 < epLen F b o ∧ v.toNat = (b.length - o) % 256)) := by
  constructor
  · refine search_cases (b := b) (P := fun r => r = .err (.BadSize v) → _) ?_ ?_
    · intro _ h; cases h
    · intro o F e hF hs h
      refine ⟨o, F, hF, ?_⟩
      have hm : F.minLen < 256 := by rcases hF.format with rfl | rfl <;> decide
      have hl : epLen F b o < 256 := leAt_one_lt _ _
      revert h
      repeat' split
      · intro h; injection h with h; injection h with h; rw [u8_eq_ofNat] at h; left; omega
      · intro h; injection h with h; injection h with h; rw [u8_eq_ofNat] at h; right; left; omega
      · intro h; cases h
      · intro h; injection h with h; injection h with h; rw [u8_eq_ofNat] at h; right; right; omega
      · intro h; cases h
      · intro h; cases h
  · rintro ⟨o, F, hF, h⟩
    obtain ⟨e, -, he⟩ := search_first hF
    rw [he]
    have hm : F.minLen < 256 := by rcases hF.format with rfl | rfl <;> decide
    have hl : epLen F b o < 256 := leAt_one_lt _ _
    rcases h with ⟨h1, h2⟩ | ⟨h1, h2, h3⟩ | ⟨h1, h2, h3, h4, h5⟩
    · rw [if_pos h1, u8_eq_ofNat.2]; omega
    · rw [if_neg (by omega), if_pos h2, u8_eq_ofNat.2]; omega
    · rw [if_neg (by omega), if_neg (by omega), if_neg (by omega), if_pos h4, u8_eq_ofNat.2 h5]

/-- C03 (`TooOldVersion`): the lengths are in range and the major version is 0 or 1. -/
theorem C03_tooOld_iff (b : Bytes) (v : UInt8) :
    EntryPoint.search b = .err (.TooOldVersion v) ↔ ∃ o F, FirstAnchor b o F ∧
      F.minLen ≤ b.length - o ∧ F.minLen ≤ epLen F b o ∧ epMajor F b o < 2 ∧
      v.toNat = epMajor F b o := by
  constructor
  · refine search_cases (b := b) (P := fun r => r = .err (.TooOldVersion v) → _) ?_ ?_
    · intro _ h; cases h
    · intro o F e hF hs h
      refine ⟨o, F, hF, ?_⟩
      revert h
      repeat' split
      · intro h; cases h
      · intro h; cases h
      · intro h; injection h with h; injection h with h; rw [u8_eq_ofNat] at h; omega
      · intro h; cases h
      · intro h; cases h
      · intro h; cases h
  · rintro ⟨o, F, hF, h1, h2, h3, h4⟩
    obtain ⟨e, -, he⟩ := search_first hF
    rw [he, if_neg (by omega), if_neg (by omega), if_pos h3, u8_eq_ofNat.2]; omega

/-- C03 (`BadChecksum`): everything else is in order but the bytes do not sum to zero. -/
theorem C03_badChecksum_iff (b : Bytes) (v : UInt8) :
    EntryPoint.search b = .err (.BadChecksum v) ↔ ∃ o F, FirstAnchor b o F ∧
      F.minLen ≤ b.length - o ∧ F.minLen ≤ epLen F b o ∧ 2 ≤ epMajor F b o ∧
      epLen F b o ≤ (b.length - o) % 256 ∧ v.toNat = byteSum (bytesAt b o (epLen F b o)) ∧
      v ≠ 0 := by
  constructor
  · refine search_cases (b := b) (P := fun r => r = .err (.BadChecksum v) → _) ?_ ?_
    · intro _ h; cases h
    · intro o F e hF hs h
      refine ⟨o, F, hF, ?_⟩
      have hb : byteSum (bytesAt b o (epLen F b o)) < 256 := Nat.mod_lt _ (by decide)
      revert h
      repeat' split
      · intro h; cases h
      · intro h; cases h
      · intro h; cases h
      · intro h; cases h
      · intro h; injection h with h; injection h with h; rw [u8_eq_ofNat] at h
        refine ⟨by omega, by omega, by omega, by omega, by omega, ?_⟩
        rintro rfl
        simp at h; omega
      · intro h; cases h
  · rintro ⟨o, F, hF, h1, h2, h3, h4, h5, h6⟩
    obtain ⟨e, -, he⟩ := search_first hF
    have hb : byteSum (bytesAt b o (epLen F b o)) < 256 := Nat.mod_lt _ (by decide)
    have h7 : byteSum (bytesAt b o (epLen F b o)) ≠ 0 := by
      intro hz; rw [hz] at h5; exact h6 (UInt8.toNat.inj h5)
    rw [he, if_neg (by omega), if_neg (by omega), if_neg (by omega), if_neg (by omega), if_pos h7,
      u8_eq_ofNat.2]
    omega

/-- All four kinds of error occur. -/
example : EntryPoint.search [] = .err .NotFound :=
  (C03_notFound_iff _).2 fun o F hF hA =>
    Nat.not_lt_zero _ (hA.2.lt (by rcases hF with rfl | rfl <;> decide))

example : EntryPoint.search (ascii "_SM_") = .err (.BadSize 4) :=
  (C03_badSize_iff _ _).2 ⟨0, fmtV2, ⟨Or.inl rfl, ⟨rfl, [], [], rfl, rfl⟩, fun _ h => by omega⟩,
    Or.inl (by decide +kernel)⟩

example : EntryPoint.search (sampleV2.set 6 1) = .err (.TooOldVersion 1) :=
  (C03_tooOld_iff _ _).2 ⟨0, fmtV2, ⟨Or.inl rfl, ⟨rfl, [], (sampleV2.set 6 1).drop 4, rfl, rfl⟩,
    fun _ h => by omega⟩, by decide +kernel⟩

example : EntryPoint.search (sampleV2.set 4 60) = .err (.BadChecksum 1) :=
  (C03_badChecksum_iff _ _).2 ⟨0, fmtV2, ⟨Or.inl rfl, ⟨rfl, [], (sampleV2.set 4 60).drop 4, rfl,
    rfl⟩, fun _ h => by omega⟩, by decide +kernel⟩

/-! ### C05 -/

/-- C05: anchor-free 16-byte paragraphs before a buffer do not change the result. -/
theorem C05_relocation (p b : Bytes) (hp : p.length % 16 = 0)
    (hno : ∀ o F, IsFormat F → ¬ AnchorAt p o F) :
    EntryPoint.search (p ++ b) = EntryPoint.search b :=
  search_append p b hp hno

example : EntryPoint.search (List.replicate 32 0 ++ sampleV2) = EntryPoint.search sampleV2 := by
  refine C05_relocation _ _ (by decide) ?_
  rintro o F hF ⟨-, h⟩
  rw [occursAt_iff _ _ _ (IsFormat.anchor_ne hF)] at h
  have := h 0 (List.length_pos_iff.2 (IsFormat.anchor_ne hF))
  have h0 : F.anchor[0]? = some 0x5f := by rcases hF with rfl | rfl <;> decide
  rw [h0, List.getElem?_replicate] at this
  split at this
  · injection this with this; revert this; decide
  · cases this

/-! ### C06 -/

/-- C06: with an accepted entry point at `o`, changing any byte of it except the anchor and the
length byte makes `search` reject the buffer. -/
theorem C06_corruption_detected {b : Bytes} {e : EntryPoint} {o : Nat} {F : EpFormat}
    (h : EntryPoint.search b = .ok e) (hF : FirstAnchor b o F) (k : Nat) (x : UInt8)
    (hk : k < epLen F b o) (hanchor : F.anchor.length ≤ k) (hlen : k ≠ F.lenOff)
    (hx : x ≠ byteAt b (o + k)) (e' : EntryPoint) :
    EntryPoint.search (b.set (o + k) x) ≠ .ok e' := by
  intro hok
  obtain ⟨o1, F1, hf1, wf, -⟩ := C01_accepted_is_genuine h
  obtain ⟨rfl, rfl⟩ := hF.unique hf1
  have hb : o + k < b.length := by have := wf.fits; omega
  have hget : ∀ i, i ≠ o + k → (b.set (o + k) x)[i]? = b[i]? := by
    intro i hi; rw [List.getElem?_set_ne (by omega)]
  have hfirst : FirstAnchor (b.set (o + k) x) o F := by
    refine ⟨hF.format, (anchorAt_congr hF.format ?_).2 hF.anchor, ?_⟩
    · intro i hi; exact hget _ (by omega)
    · intro o' ho' F' hF' hA
      refine hF.first o' ho' F' hF' ((anchorAt_congr hF' ?_).1 hA)
      intro i hi
      have := IsFormat.anchor_le hF'
      have h1 := hA.1
      have h2 := hF.anchor.1
      exact hget _ (by omega)
  obtain ⟨o2, F2, hf2, wf2, -⟩ := C01_accepted_is_genuine hok
  obtain ⟨rfl, rfl⟩ := hfirst.unique hf2
  have hl : epLen F (b.set (o + k) x) o = epLen F b o := by
    unfold epLen
    rw [leAt_one, leAt_one, byteAt_set _ _ _ _ hb, if_neg (by omega)]
  have hc := wf2.checksum
  rw [hl] at hc
  exact byteSum_set b o k (epLen F b o) x hk hb hx (hc.trans wf.checksum.symm)

example : ∀ e', EntryPoint.search (sampleV2.set 24 1) ≠ .ok e' := by
  intro e'
  obtain ⟨e, he, -⟩ := (C04_valid_accepted_partial (by simpa using sampleV2_first [])
    sampleV2_wf).1 (by decide +kernel)
  exact C06_corruption_detected he (by simpa using sampleV2_first []) 24 1 (by decide +kernel)
    (by decide) (by decide) (by decide +kernel) e'

/-! ### C07 -/

/-- C07: `<`, `<=`, `>`, `>=` of versions are the lexicographic order of `(major, minor)`. -/
theorem C07_version_lex (v w : SmbiosVersion) :
    (v.lt w = true ↔ v.major.toNat < w.major.toNat ∨
      v.major.toNat = w.major.toNat ∧ v.minor.toNat < w.minor.toNat) ∧
    (v.gt w = true ↔ w.lt v = true) ∧ (v.le w = true ↔ ¬ w.lt v = true) ∧
    (v.ge w = true ↔ ¬ v.lt w = true) ∧ (v.cmp w = .eq ↔ v = w) := by
  obtain ⟨v1, v2⟩ := v
  obtain ⟨w1, w2⟩ := w
  have key : ∀ a b : UInt8, compare a b = if a.toNat < b.toNat then .lt
      else if a.toNat = b.toNat then .eq else .gt := by
    intro a b
    show compareOfLessAndEq a b = _
    unfold compareOfLessAndEq
    simp only [UInt8.lt_iff_toNat_lt, ← UInt8.toNat_inj]
  simp only [SmbiosVersion.lt, SmbiosVersion.gt, SmbiosVersion.le, SmbiosVersion.ge,
    SmbiosVersion.cmp, key, SmbiosVersion.mk.injEq, ← UInt8.toNat_inj]
  rcases Nat.lt_trichotomy v1.toNat w1.toNat with h | h | h <;>
  rcases Nat.lt_trichotomy v2.toNat w2.toNat with h' | h' | h' <;>
  simp [h, h', Nat.lt_irrefl, Nat.lt_asymm, Nat.ne_of_gt, Nat.ne_of_lt] <;> omega

/-- C07: it is a total order. -/
theorem C07_version_total_order (u v w : SmbiosVersion) :
    (v.le v = true) ∧ (v.le w = true ∨ w.le v = true) ∧
    (v.le w = true → w.le v = true → v = w) ∧ (u.le v = true → v.le w = true → u.le w = true) ∧
    (v.lt w = true ↔ v.le w = true ∧ v ≠ w) := by
  have ext : ∀ a b : SmbiosVersion, a = b ↔ a.major.toNat = b.major.toNat ∧
      a.minor.toNat = b.minor.toNat := by
    rintro ⟨a1, a2⟩ ⟨b1, b2⟩
    simp [← UInt8.toNat_inj]
  have lt := fun a b => (C07_version_lex a b).1
  have le := fun a b => (C07_version_lex a b).2.2.1
  simp only [ne_eq, le, lt, ext]
  omega

/-- C07: conversion from pairs of integers below 256 preserves the order. -/
theorem C07_version_of_pair (a b c d : Nat) (ha : a < 256) (hb : b < 256) (hc : c < 256)
    (hd : d < 256) : ((SmbiosVersion.ofPair a b).lt (SmbiosVersion.ofPair c d) = true ↔
      a < c ∨ a = c ∧ b < d) := by
  rw [(C07_version_lex _ _).1]
  simp only [SmbiosVersion.ofPair, UInt8.toNat_ofNat']
  omega

example : (SmbiosVersion.ofPair 2 8).lt (SmbiosVersion.ofPair 3 0) = true := by decide

end Dmi.Props
