import Verif.Proofs.Decode
import Verif.Props.EntryPoint
/-!
# C88: what surrounds an entry point in memory

The same entry point is searched in images that differ behind it: longer ones, or other ones.
-/
namespace Dmi.Props
open Spec

/-- The two images have the same first `n` bytes. -/
def SameUpTo (n : Nat) (b c : Bytes) : Prop := ∀ i < n, b[i]? = c[i]?

theorem SameUpTo.byteAt {n i : Nat} {b c : Bytes} (h : SameUpTo n b c) (hi : i < n) :
    byteAt b i = byteAt c i := by
  simp only [Spec.byteAt, List.getD_eq_getElem?_getD, h i hi]

theorem SameUpTo.leAt {n : Nat} {b c : Bytes} (h : SameUpTo n b c) :
    ∀ {w o : Nat}, o + w ≤ n → leAt b o w = leAt c o w
  | 0, _, _ => rfl
  | w + 1, o, hw => by
    rw [Spec.leAt, Spec.leAt, h.byteAt (by omega), h.leAt (w := w) (by omega)]

theorem SameUpTo.bytesAt {n o w : Nat} {b c : Bytes} (h : SameUpTo n b c) (hw : o + w ≤ n) :
    bytesAt b o w = bytesAt c o w := by
  unfold Spec.bytesAt
  refine List.map_congr_left fun i hi => h.byteAt ?_
  have := List.mem_range.1 hi
  omega

theorem SameUpTo.symm {n : Nat} {b c : Bytes} (h : SameUpTo n b c) : SameUpTo n c b :=
  fun i hi => (h i hi).symm

theorem SameUpTo.append (b x : Bytes) : SameUpTo b.length b (b ++ x) :=
  fun i hi => by rw [List.getElem?_append_left hi]

/-- The first anchor is found by looking at nothing behind it. -/
theorem SameUpTo.firstAnchor {n o : Nat} {F : EpFormat} {b c : Bytes} (h : SameUpTo n b c)
    (hF : FirstAnchor b o F) (hn : o + F.anchor.length ≤ n) : FirstAnchor c o F := by
  refine ⟨hF.format, (anchorAt_congr hF.format ?_).1 hF.anchor, ?_⟩
  · intro i hi; exact h (o + i) (by omega)
  · intro o' ho' F' hF' hA
    refine hF.first o' ho' F' hF' ((anchorAt_congr (b := c) hF' ?_).1 hA)
    intro i hi
    have := IsFormat.anchor_le hF'
    have h1 := hA.1
    have h2 := hF.anchor.1
    exact (h (o' + i) (by omega)).symm

/-- An accepted entry point is read from the bytes behind its anchor. -/
theorem search_value {b : Bytes} {e : EntryPoint} {o : Nat} {F : EpFormat}
    (h : EntryPoint.search b = .ok e) (hF : FirstAnchor b o F) :
    (F = fmtV2 ∧ ∃ p, (letAsStruct EntryPointV2.packed (b.drop o) :
      Res InvalidEntryPointError _) = .ok p ∧ e = .V2 p) ∨
    (F = fmtV3 ∧ ∃ p, (letAsStruct EntryPointV3.packed (b.drop o) :
      Res InvalidEntryPointError _) = .ok p ∧ e = .V3 p) := by
  have hlt : o < b.length := hF.anchor.2.lt (IsFormat.anchor_ne hF.format)
  have hsub : (indexFrom b o : Res InvalidEntryPointError Bytes) = .ok (b.drop o) := by
    simp [indexFrom, getFrom, Nat.le_of_lt hlt]
  unfold EntryPoint.search at h
  rcases findSignature_some hF with ⟨rfl, hs⟩ | ⟨rfl, hs⟩
  · left
    rw [hs] at h
    simp only [hsub, bind_ok_iff, pure_eq_ok] at h
    obtain ⟨_, h1, _, -, p, hp, _, -, _, h2, _, -, _, -, _, -, _, -, h3⟩ := h
    injection h1 with h1
    injection h2 with h2
    injection h3 with h3
    subst h1 h2 h3
    exact ⟨rfl, p, hp, rfl⟩
  · right
    rw [hs] at h
    simp only [hsub, bind_ok_iff, pure_eq_ok] at h
    obtain ⟨_, h1, _, -, p, hp, _, -, _, h2, _, -, _, -, _, -, _, -, h3⟩ := h
    injection h1 with h1
    injection h2 with h2
    injection h3 with h3
    subst h1 h2 h3
    exact ⟨rfl, p, hp, rfl⟩

/-- C88 (the bytes that count): if the entry point of one image is accepted, and another image agrees
with it up to the end of the fixed part of that entry point, then no other entry point is accepted in
the other image. -/
theorem C88_same {b c : Bytes} {e e' : EntryPoint} {o : Nat} {F : EpFormat}
    (hb : EntryPoint.search b = .ok e) (hc : EntryPoint.search c = .ok e') (hF : FirstAnchor b o F)
    (h : SameUpTo (o + F.minLen) b c) : e' = e := by
  have hm : F.anchor.length ≤ F.minLen := by rcases hF.format with rfl | rfl <;> decide
  have hF' := h.firstAnchor hF (by omega)
  obtain ⟨_, _, hf, wf, -⟩ := C01_accepted_is_genuine hb
  obtain ⟨rfl, rfl⟩ := hF.unique hf
  obtain ⟨_, _, hf', wf', -⟩ := C01_accepted_is_genuine hc
  obtain ⟨rfl, rfl⟩ := hF'.unique hf'
  have s1 := wf.size
  have s2 := wf'.size
  have same : SameUpTo F.minLen (b.drop o) (c.drop o) := fun i hi => by
    rw [List.getElem?_drop, List.getElem?_drop, h _ (by omega)]
  rcases search_value hb hF with ⟨rfl, p, hp, rfl⟩ | ⟨rfl, p, hp, rfl⟩
  · rcases search_value hc hF' with ⟨-, q, hq, rfl⟩ | ⟨h, -⟩
    · have hM : fmtV2.minLen = 31 := rfl
      rw [hM] at s1 s2 same
      rw [EntryPointV2.packed_eval _ (by rw [List.length_drop]; omega)] at hp hq
      injection hp with hp
      injection hq with hq
      rw [← hp, ← hq]
      simp only [u16At, u32At, same.byteAt (i := 4) (by omega), same.byteAt (i := 5) (by omega),
        same.byteAt (i := 6) (by omega), same.byteAt (i := 7) (by omega),
        same.byteAt (i := 10) (by omega), same.byteAt (i := 21) (by omega),
        same.byteAt (i := 30) (by omega), same.leAt (o := 0) (w := 4) (by omega),
        same.leAt (o := 8) (w := 2) (by omega), same.leAt (o := 22) (w := 2) (by omega),
        same.leAt (o := 24) (w := 4) (by omega), same.leAt (o := 28) (w := 2) (by omega),
        same.bytesAt (o := 11) (w := 5) (by omega), same.bytesAt (o := 16) (w := 5) (by omega)]
    · exact absurd h fmt_ne
  · rcases search_value hc hF' with ⟨h, -⟩ | ⟨-, q, hq, rfl⟩
    · exact absurd h.symm fmt_ne
    · have hM : fmtV3.minLen = 24 := rfl
      rw [hM] at s1 s2 same
      rw [EntryPointV3.packed_eval _ (by rw [List.length_drop]; omega)] at hp hq
      injection hp with hp
      injection hq with hq
      rw [← hp, ← hq]
      simp only [u32At, u64At, same.byteAt (i := 5) (by omega),
        same.byteAt (i := 6) (by omega), same.byteAt (i := 7) (by omega),
        same.byteAt (i := 8) (by omega), same.byteAt (i := 9) (by omega),
        same.byteAt (i := 10) (by omega), same.byteAt (i := 11) (by omega),
        same.leAt (o := 12) (w := 4) (by omega), same.leAt (o := 16) (w := 8) (by omega),
        same.bytesAt (o := 0) (w := 5) (by omega)]

/-- The full statement of C88: what follows an accepted entry point makes no difference. It is false
of the code, see `C88_full_false`. -/
def C88_full : Prop := ∀ (b x : Bytes) (e : EntryPoint),
  EntryPoint.search b = .ok e → EntryPoint.search (b ++ x) = .ok e

/-- C88 (part that holds): in a longer image the same entry point is found. It is accepted exactly if
the number of bytes from its start to the end of the image, *modulo 256*, is at least its length, and
else rejected because of that number. -/
theorem C88_longer_partial {b : Bytes} {e : EntryPoint} (h : EntryPoint.search b = .ok e) (x : Bytes) :
    ∃ o F, FirstAnchor b o F ∧ EntryPoint.search (b ++ x) =
      if epLen F b o ≤ (b.length + x.length - o) % 256 then .ok e
      else .err (.BadSize (UInt8.ofNat (b.length + x.length - o))) := by
  obtain ⟨o, F, hF, wf, -⟩ := C01_accepted_is_genuine h
  refine ⟨o, F, hF, ?_⟩
  have hs := SameUpTo.append b x
  have hm : F.anchor.length ≤ F.minLen ∧ F.lenOff < F.minLen ∧ F.majorOff < F.minLen ∧ 0 < F.minLen := by
    rcases hF.format with rfl | rfl <;> decide
  have h1 := wf.size
  have h2 := wf.fits
  have hF' := hs.firstAnchor hF (by omega)
  have hl : epLen F (b ++ x) o = epLen F b o := (hs.leAt (by omega)).symm
  have hv : epMajor F (b ++ x) o = epMajor F b o := (hs.leAt (by omega)).symm
  have wf' : WellFormed F (b ++ x) o := by
    constructor
    · rw [List.length_append]; omega
    · rw [hl]; exact wf.minLen
    · rw [hl, List.length_append]; omega
    · rw [hv]; exact wf.version
    · rw [hl, ← hs.bytesAt (by omega)]; exact wf.checksum
  obtain ⟨ha, hr⟩ := C04_valid_accepted_partial hF' wf'
  rw [hl, List.length_append] at ha hr
  split
  · rename_i c
    obtain ⟨e', he, -⟩ := ha c
    rw [he, C88_same h he hF fun i hi => hs i (by omega)]
  · rename_i c
    exact hr (by omega)

/-- An image that is not the whole memory: 31 bytes, and 32 bytes more. -/
example : ∃ e, EntryPoint.search sampleV2 = .ok e ∧
    EntryPoint.search (sampleV2 ++ List.replicate 32 0) = .ok e := by
  obtain ⟨e, he, -⟩ := (C04_valid_accepted_partial (by simpa using sampleV2_first [])
    sampleV2_wf).1 (by decide +kernel)
  refine ⟨e, he, ?_⟩
  obtain ⟨o, F, hF, hs⟩ := C88_longer_partial he (List.replicate 32 0)
  obtain ⟨rfl, rfl⟩ := hF.unique (by simpa using sampleV2_first [])
  rw [hs, if_pos (by decide +kernel)]

/-- C88 in full is false: 225 bytes behind the entry point hide it. -/
theorem C88_full_false : ¬ C88_full := by
  intro h
  obtain ⟨e, he, -⟩ := (C04_valid_accepted_partial (by simpa using sampleV2_first [])
    sampleV2_wf).1 (by decide +kernel)
  have h1 := h sampleV2 (List.replicate 225 0) e he
  obtain ⟨o, F, hF, hs⟩ := C88_longer_partial he (List.replicate 225 0)
  obtain ⟨rfl, rfl⟩ := hF.unique (by simpa using sampleV2_first [])
  rw [h1, if_neg (by decide +kernel)] at hs
  cases hs

/-- C88 (the memory area that is searched by convention): in an image whose length is a multiple of
256, such as the 64 KiB from F0000h, the crate accepts a well-formed entry point of the usual length at
the first anchor exactly if its address is not the first or the last of the sixteen addresses
possible in each 256 bytes. -/
theorem C88_area_partial {b : Bytes} {o : Nat} {F : EpFormat} (hF : FirstAnchor b o F)
    (wf : WellFormed F b o) (hu : epLen F b o ≤ 32) (hb : b.length % 256 = 0) :
    (∃ e, EntryPoint.search b = .ok e) ↔ o % 256 ≠ 0 ∧ o % 256 ≠ 240 := by
  obtain ⟨ha, hr⟩ := C04_valid_accepted_partial hF wf
  have h16 := hF.anchor.1
  have h1 := wf.size
  have h2 := wf.fits
  have h3 := wf.minLen
  have hm : 24 ≤ F.minLen := by rcases hF.format with rfl | rfl <;> decide
  constructor
  · rintro ⟨e, he⟩
    by_cases c : (b.length - o) % 256 < epLen F b o
    · rw [hr c] at he; cases he
    · omega
  · intro hne
    obtain ⟨e, he, -⟩ := ha (by omega)
    exact ⟨e, he⟩

/-- An image of 256 bytes that begins with an entry point. -/
example : ¬ ∃ e, EntryPoint.search (sampleV2 ++ List.replicate 225 0) = .ok e :=
  fun h => ((C88_area_partial (sampleV2_first _) (by constructor <;> decide +kernel)
    (by decide +kernel) (by decide +kernel)).1 h).1 rfl

/-- C88 (errors): behind an entry point of an unsupported version nothing makes a difference, and
behind one with a wrong checksum only the number of bytes. -/
theorem C88_errors (b x : Bytes) (v : UInt8) :
    (EntryPoint.search b = .err (.TooOldVersion v) →
      EntryPoint.search (b ++ x) = .err (.TooOldVersion v)) ∧
    (EntryPoint.search b = .err (.BadChecksum v) → ∃ o F, FirstAnchor b o F ∧
      EntryPoint.search (b ++ x) =
        if epLen F b o ≤ (b.length + x.length - o) % 256 then .err (.BadChecksum v)
        else .err (.BadSize (UInt8.ofNat (b.length + x.length - o)))) := by
  have hs := SameUpTo.append b x
  have key : ∀ {o F}, FirstAnchor b o F → F.minLen ≤ b.length - o → FirstAnchor (b ++ x) o F ∧
      epLen F (b ++ x) o = epLen F b o ∧ epMajor F (b ++ x) o = epMajor F b o := by
    intro o F hF h1
    have hm : F.anchor.length ≤ F.minLen ∧ F.lenOff < F.minLen ∧ F.majorOff < F.minLen ∧ 0 < F.minLen := by
      rcases hF.format with rfl | rfl <;> decide
    exact ⟨hs.firstAnchor hF (by omega), (hs.leAt (by omega)).symm, (hs.leAt (by omega)).symm⟩
  constructor
  · intro h
    obtain ⟨o, F, hF, h1, h2, h3, h4⟩ := (C03_tooOld_iff _ _).1 h
    obtain ⟨hF', hl, hv⟩ := key hF h1
    refine (C03_tooOld_iff _ _).2 ⟨o, F, hF', ?_, ?_, ?_, ?_⟩
    · rw [List.length_append]; omega
    · rw [hl]; exact h2
    · rw [hv]; exact h3
    · rw [hv]; exact h4
  · intro h
    obtain ⟨o, F, hF, h1, h2, h3, h4, h5, h6⟩ := (C03_badChecksum_iff _ _).1 h
    obtain ⟨hF', hl, hv⟩ := key hF h1
    have hm := Nat.mod_le (b.length - o) 256
    have hp : 0 < F.minLen := by rcases hF.format with rfl | rfl <;> decide
    refine ⟨o, F, hF, ?_⟩
    split
    · rename_i c
      refine (C03_badChecksum_iff _ _).2 ⟨o, F, hF', ?_, ?_, ?_, ?_, ?_, h6⟩
      · rw [List.length_append]; omega
      · rw [hl]; exact h2
      · rw [hv]; exact h3
      · rw [hl, List.length_append]; exact c
      · rw [hl, ← hs.bytesAt (by omega)]; exact h5
    · rename_i c
      refine (C03_badSize_iff _ _).2 ⟨o, F, hF', Or.inr (Or.inr ⟨?_, ?_, ?_, ?_, ?_⟩)⟩
      · rw [List.length_append]; omega
      · rw [hl]; exact h2
      · rw [hv]; exact h3
      · rw [hl, List.length_append]; omega
      · rw [List.length_append]; simp

example : EntryPoint.search (sampleV2.set 6 1 ++ [1, 2, 3]) = .err (.TooOldVersion 1) :=
  (C88_errors _ _ _).1 (by decide +kernel)

/-- C88 (nothing found): an anchor found only in the longer image ends behind the shorter one. -/
theorem C88_not_found {b x : Bytes} {o : Nat} {F : EpFormat}
    (h : EntryPoint.search b = .err .NotFound) (hF : FirstAnchor (b ++ x) o F) :
    b.length < o + F.anchor.length := by
  refine Nat.lt_of_not_le fun hc => ?_
  have := ((SameUpTo.append b x).symm).firstAnchor hF (by omega)
  exact (C03_notFound_iff b).1 h o F this.format this.anchor

example : EntryPoint.search (List.replicate 16 0) = .err .NotFound ∧
    FirstAnchor (List.replicate 16 0 ++ sampleV2) 16 fmtV2 := by
  constructor
  · decide +kernel
  · refine ⟨Or.inl rfl, ⟨rfl, List.replicate 16 0, sampleV2.drop 4, by decide +kernel, rfl⟩, ?_⟩
    rintro o' ho' F' hF' ⟨h1, h2⟩
    obtain rfl : o' = 0 := by omega
    obtain ⟨pre, post, h, hp⟩ := h2
    obtain rfl : pre = [] := List.length_eq_zero_iff.1 hp
    rcases hF' with rfl | rfl <;> cases congrArg List.head? h

end Dmi.Props
