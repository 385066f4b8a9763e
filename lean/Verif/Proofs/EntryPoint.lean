import Verif.Spec.EntryPoint
import Verif.Proofs.Packed
/-!
# Lemmas about `EntryPoint::search`
-/
namespace Dmi
open Spec

theorem isPrefixOf_iff_occurs (sig l : Bytes) : sig.isPrefixOf l = true ↔ OccursAt l 0 sig := by
  rw [List.isPrefixOf_iff_prefix]
  constructor
  · rintro ⟨t, rfl⟩; exact ⟨[], t, rfl, rfl⟩
  · rintro ⟨pre, post, rfl, h⟩
    rw [List.length_eq_zero_iff] at h; subst h; exact ⟨post, rfl⟩

theorem prefix_take_iff {sig l : Bytes} {n : Nat} (h : sig.length ≤ n) :
    sig <+: l.take n ↔ sig <+: l := by
  constructor
  · intro hp; exact hp.trans (List.take_prefix _ _)
  · rintro ⟨t, rfl⟩
    rw [List.take_append, List.take_of_length_le h]
    exact List.prefix_append _ _

theorem occursAt_drop (b sig : Bytes) (o k : Nat) (hk : k ≤ o) (hb : o ≤ b.length):
    OccursAt (b.drop k) (o - k) sig ↔ OccursAt b o sig := by
  constructor
  · rintro ⟨pre, post, h, hl⟩
    refine ⟨b.take k ++ pre, post, ?_, ?_⟩
    · rw [List.append_assoc, List.append_assoc, ← List.append_assoc pre, ← h, List.take_append_drop]
    · simp; omega
  · rintro ⟨pre, post, h, hl⟩
    refine ⟨pre.drop k, post, ?_, ?_⟩
    · rw [h, List.append_assoc, List.drop_append_of_le_length (by omega), List.append_assoc]
    · simp; omega

theorem Spec.OccursAt.lt {b sig : Bytes} {o : Nat} (h : OccursAt b o sig) (hs : sig ≠ []) :
    o < b.length := by
  obtain ⟨pre, post, rfl, rfl⟩ := h
  have := List.length_pos_iff.mpr hs
  simp; omega

/-- What the chunk loop computes, by induction over the remaining buffer. -/
theorem findSignatureLoop_spec (n : Nat) (b : Bytes) (i : Nat) (hn : b.length ≤ n) :
    match findSignatureLoop (chunks 16 b) i with
    | none => ∀ o F, IsFormat F → ¬ AnchorAt b o F
    | some (k, off) => i * 16 ≤ off ∧ ∃ F, FirstAnchor b (off - i * 16) F ∧
        (k = .V2 ∧ F = fmtV2 ∨ k = .V3 ∧ F = fmtV3) := by
  induction n generalizing b i with
  | zero =>
    have : b = [] := List.length_eq_zero_iff.mp (by omega)
    subst this
    unfold chunks
    simp only [true_or, dite_true, findSignatureLoop]
    rintro o F hF ⟨-, ho⟩
    exact Nat.not_lt_zero _ (ho.lt (by rcases hF with rfl | rfl <;> decide))
  | succ n ih =>
    by_cases hb : b = []
    · subst hb; exact ih [] i (by simp)
    unfold chunks
    rw [dif_neg (by simp [hb])]
    have hpos := List.length_pos_iff.mpr hb
    have key : ∀ sig : Bytes, sig.length ≤ 16 → (sig.isPrefixOf (b.take 16) = true ↔ OccursAt b 0 sig) := by
      intro sig hs
      rw [List.isPrefixOf_iff_prefix, prefix_take_iff hs, ← List.isPrefixOf_iff_prefix,
        isPrefixOf_iff_occurs]
    unfold findSignatureLoop
    have k2 := key V2_SIG (by decide)
    have k3 := key V3_SIG (by decide)
    have e2 : V2_SIG = fmtV2.anchor := by decide
    have e3 : V3_SIG = fmtV3.anchor := by decide
    by_cases h2 : V2_SIG.isPrefixOf (b.take 16) = true
    · simp only [h2, if_true]
      refine ⟨Nat.le_refl _, fmtV2, ⟨Or.inl rfl, ⟨?_, ?_⟩, ?_⟩, by simp⟩
      · simp
      · rw [Nat.sub_self, ← e2]; exact k2.1 h2
      · intro o' ho'; omega
    · simp only [h2, if_false, Bool.false_eq_true]
      by_cases h3 : V3_SIG.isPrefixOf (b.take 16) = true
      · simp only [h3, if_true]
        refine ⟨Nat.le_refl _, fmtV3, ⟨Or.inr rfl, ⟨?_, ?_⟩, ?_⟩, by simp⟩
        · simp
        · rw [Nat.sub_self, ← e3]; exact k3.1 h3
        · intro o' ho'; omega
      · simp only [h3, if_false, Bool.false_eq_true]
        have no0 : ∀ F, IsFormat F → ¬ AnchorAt b 0 F := by
          rintro F (rfl | rfl) ⟨-, ho⟩
          · exact h2 (k2.2 (e2 ▸ ho))
          · exact h3 (k3.2 (e3 ▸ ho))
        have nz : ∀ F, IsFormat F → F.anchor ≠ [] := by rintro F (rfl | rfl) <;> decide
        have shift : ∀ o F, IsFormat F → 16 ≤ o →
            (AnchorAt (b.drop 16) (o - 16) F ↔ AnchorAt b o F) := by
          intro o F hF ho
          unfold AnchorAt
          by_cases hob : o ≤ b.length
          · rw [occursAt_drop b _ o 16 ho hob]
            constructor <;> (rintro ⟨h, h'⟩; exact ⟨by omega, h'⟩)
          · constructor
            · rintro ⟨-, h⟩
              have := h.lt (nz F hF)
              rw [List.length_drop] at this; omega
            · rintro ⟨-, h⟩
              have := h.lt (nz F hF); omega
        have low : ∀ o F, IsFormat F → o < 16 → ¬ AnchorAt b o F := by
          intro o F hF ho hA
          have : o = 0 := by have := hA.1; omega
          subst this; exact no0 F hF hA
        have := ih (b.drop 16) (i + 1) (by rw [List.length_drop]; omega)
        split at this
        · rename_i hnone
          try rw [hnone]
          intro o F hF hA
          by_cases ho : o < 16
          · exact low o F hF ho hA
          · exact this (o - 16) F hF ((shift o F hF (by omega)).2 hA)
        · rename_i k off hsome
          try rw [hsome]
          obtain ⟨h16, F, hfirst, hk⟩ := this
          refine ⟨by omega, F, ⟨hfirst.format, ?_, ?_⟩, hk⟩
          · have e : off - (i + 1) * 16 = off - i * 16 - 16 := by omega
            exact (shift _ F hfirst.format (by omega)).1 (e ▸ hfirst.anchor)
          · intro o' ho' F' hF' hA
            by_cases hlo : o' < 16
            · exact low o' F' hF' hlo hA
            · exact hfirst.first (o' - 16) (by omega) F' hF' ((shift o' F' hF' (by omega)).2 hA)

theorem findSignature_none {b : Bytes} : findSignature b = none ↔
    ∀ o F, IsFormat F → ¬ AnchorAt b o F := by
  have := findSignatureLoop_spec b.length b 0 (Nat.le_refl _)
  unfold findSignature
  split at this
  · rename_i h; rw [h]; exact ⟨fun _ => this, fun _ => rfl⟩
  · rename_i k off h
    rw [h]
    obtain ⟨-, F, hF, -⟩ := this
    constructor
    · intro h; cases h
    · intro h; exact absurd hF.anchor (h _ F hF.format)

theorem Spec.FirstAnchor.unique {b : Bytes} {o o' : Nat} {F F' : EpFormat} (h : FirstAnchor b o F)
    (h' : FirstAnchor b o' F') : o = o' ∧ F = F' := by
  have ho : o = o' := by
    rcases Nat.lt_trichotomy o o' with hlt | heq | hgt
    · exact absurd h.anchor (h'.first o hlt F h.format)
    · exact heq
    · exact absurd h'.anchor (h.first o' hgt F' h'.format)
  subst ho
  refine ⟨rfl, ?_⟩
  have diff : ¬ (OccursAt b o fmtV2.anchor ∧ OccursAt b o fmtV3.anchor) := by
    rintro ⟨⟨p, q, h1, l1⟩, ⟨p', q', h2, l2⟩⟩
    rw [h1, List.append_assoc, List.append_assoc] at h2
    have := List.append_inj_right h2 (l1.trans l2.symm)
    have h3 := congrArg (fun l => l[3]?) this
    have e2 : fmtV2.anchor = [0x5f, 0x53, 0x4d, 0x5f] := by decide
    have e3 : fmtV3.anchor = [0x5f, 0x53, 0x4d, 0x33, 0x5f] := by decide
    rw [e2, e3] at h3
    simp at h3
  rcases h.format with rfl | rfl <;> rcases h'.format with rfl | rfl
  · rfl
  · exact absurd ⟨h.anchor.2, h'.anchor.2⟩ diff
  · exact absurd ⟨h'.anchor.2, h.anchor.2⟩ diff
  · rfl

theorem findSignature_some {b : Bytes} {o : Nat} {F : EpFormat} (h : FirstAnchor b o F) :
    (F = fmtV2 ∧ findSignature b = some (.V2, o)) ∨
    (F = fmtV3 ∧ findSignature b = some (.V3, o)) := by
  have := findSignatureLoop_spec b.length b 0 (Nat.le_refl _)
  unfold findSignature
  split at this
  · exact absurd h.anchor (this o F h.format)
  · rename_i k off hs
    rw [hs]
    obtain ⟨-, F', hF', hk⟩ := this
    obtain ⟨rfl, rfl⟩ := h.unique hF'
    rcases hk with ⟨rfl, rfl⟩ | ⟨rfl, rfl⟩
    · exact Or.inl ⟨rfl, rfl⟩
    · exact Or.inr ⟨rfl, rfl⟩

theorem Spec.FirstAnchor.exists_of_anchor {b : Bytes} {o : Nat} {F : EpFormat} (hF : IsFormat F)
    (h : AnchorAt b o F) : ∃ o' F', FirstAnchor b o' F' := by
  have := findSignatureLoop_spec b.length b 0 (Nat.le_refl _)
  split at this
  · exact absurd h (this o F hF)
  · obtain ⟨-, F', hF', -⟩ := this
    exact ⟨_, _, hF'⟩

/-! ## Checksum -/

theorem foldl_add_toNat (l : Bytes) (a : UInt8) :
    (l.foldl (fun s v => s + v) a).toNat = (a.toNat + (l.map UInt8.toNat).sum) % 256 := by
  induction l generalizing a with
  | nil => simp
  | cons x l ih =>
    rw [List.foldl_cons, ih, UInt8.toNat_add, List.map_cons, List.sum_cons]
    omega

theorem foldl_add_byteSum (l : Bytes) :
    (l.foldl (fun s v => s + v) (0 : UInt8)).toNat = byteSum l := by
  rw [foldl_add_toNat]; simp [byteSum]

/-! ## The packed entry points -/

theorem EntryPointV2.packed_eval {ε : Type} (b : Bytes) (h : 31 ≤ b.length) :
    (letAsStruct EntryPointV2.packed b : Res ε _) = .ok {
      signature := u32At b 0, checksum := byteAt b 4, len := byteAt b 5, major := byteAt b 6,
      minor := byteAt b 7, struct_max := u16At b 8, revision := byteAt b 10,
      formatted := bytesAt b 11 5, dmi_signature := bytesAt b 16 5, dmi_checksum := byteAt b 21,
      smbios_len := u16At b 22, smbios_address := u32At b 24, smbios_count := u16At b 28,
      bcd_revision := byteAt b 30 } := by
  unfold EntryPointV2.packed
  packed_eval

theorem EntryPointV3.packed_eval {ε : Type} (b : Bytes) (h : 24 ≤ b.length) :
    (letAsStruct EntryPointV3.packed b : Res ε _) = .ok {
      signature := bytesAt b 0 5, checksum := byteAt b 5, len := byteAt b 6, major := byteAt b 7,
      minor := byteAt b 8, docrev := byteAt b 9, revision := byteAt b 10, reserved := byteAt b 11,
      smbios_len_max := u32At b 12, smbios_address := u64At b 16 } := by
  unfold EntryPointV3.packed
  packed_eval

theorem byteAt_drop (b : Bytes) (o k : Nat) : byteAt (b.drop o) k = byteAt b (o + k) := by
  simp [byteAt, List.getD_eq_getElem?_getD]

theorem leAt_drop (b : Bytes) (o k w : Nat) : leAt (b.drop o) k w = leAt b (o + k) w := by
  induction w generalizing k with
  | zero => rfl
  | succ w ih => rw [leAt, leAt, byteAt_drop, ih, Nat.add_assoc]

theorem leAt_one (b : Bytes) (o : Nat) : leAt b o 1 = (byteAt b o).toNat := by
  simp [leAt]

theorem u16At_toNat (b : Bytes) (o : Nat) : (u16At b o).toNat = leAt b o 2 := by
  have := leAt_lt b o 2
  simp only [u16At, UInt16.toNat_ofNat']; omega

theorem u32At_toNat (b : Bytes) (o : Nat) : (u32At b o).toNat = leAt b o 4 := by
  have := leAt_lt b o 4
  simp only [u32At, UInt32.toNat_ofNat']; omega

theorem u64At_toNat (b : Bytes) (o : Nat) : (u64At b o).toNat = leAt b o 8 := by
  have := leAt_lt b o 8
  simp only [u64At, UInt64.toNat_ofNat']; omega

theorem fmt_ne : fmtV2 ≠ fmtV3 := by
  intro h
  have := congrArg EpFormat.minLen h
  revert this; decide

/-- The outcome of `search` in terms of the first anchor. -/
theorem search_first {b : Bytes} {o : Nat} {F : EpFormat} (h : FirstAnchor b o F) :
    ∃ e, (F.minLen ≤ b.length - o → Shows F b o e) ∧ EntryPoint.search b =
      if b.length - o < F.minLen then .err (.BadSize (UInt8.ofNat (b.length - o)))
      else if epLen F b o < F.minLen then .err (.BadSize (UInt8.ofNat (epLen F b o)))
      else if epMajor F b o < 2 then .err (.TooOldVersion (UInt8.ofNat (epMajor F b o)))
      else if (b.length - o) % 256 < epLen F b o then .err (.BadSize (UInt8.ofNat (b.length - o)))
      else if byteSum (bytesAt b o (epLen F b o)) ≠ 0 then
        .err (.BadChecksum (UInt8.ofNat (byteSum (bytesAt b o (epLen F b o)))))
      else .ok e := by
  have hlt : o < b.length := h.anchor.2.lt (by rcases h.format with rfl | rfl <;> decide)
  have hsub : (indexFrom b o : Res InvalidEntryPointError Bytes) = .ok (b.drop o) := by
    simp [indexFrom, getFrom, Nat.le_of_lt hlt]
  have hlen : (b.drop o).length = b.length - o := by simp
  -- the part after reading the struct
  have tail : ∀ (e : EntryPoint) (len : Nat), e.len.toNat = len → len < 256 →
      (do
        libEnsure (e.major ≥ 2) (InvalidEntryPointError.TooOldVersion e.major)
        libEnsure (UInt8.ofNat (b.drop o).length ≥ e.len)
          (.BadSize (UInt8.ofNat (b.drop o).length))
        let body ← indexRange (b.drop o) 0 e.len.toNat
        let sum := body.foldl (fun s v => s + v) 0
        libEnsure (sum == 0) (.BadChecksum sum)
        pure e : Res InvalidEntryPointError EntryPoint) =
      if e.major.toNat < 2 then .err (.TooOldVersion e.major)
      else if (b.length - o) % 256 < len then .err (.BadSize (UInt8.ofNat (b.length - o)))
      else if byteSum (bytesAt b o len) ≠ 0 then
        .err (.BadChecksum (UInt8.ofNat (byteSum (bytesAt b o len))))
      else .ok e := by
    intro e len hel hl256
    have hmaj : (decide (e.major ≥ 2)) = !decide (e.major.toNat < 2) := by
      by_cases c : e.major.toNat < 2 <;> simp [UInt8.le_iff_toNat_le, c] <;> omega
    have hsz : (decide (UInt8.ofNat (b.length - o) ≥ e.len)) =
        !decide ((b.length - o) % 256 < len) := by
      by_cases c : (b.length - o) % 256 < len <;>
        simp [UInt8.le_iff_toNat_le, hel, c] <;> omega
    rw [hlen]
    simp only [libEnsure, hmaj, hsz]
    by_cases c1 : e.major.toNat < 2
    · simp [c1, Bind.bind, Res.bind]
    by_cases c2 : (b.length - o) % 256 < len
    · simp [c1, c2, Bind.bind, Res.bind]
    have hle : len ≤ b.length - o := by
      have := Nat.mod_le (b.length - o) 256; omega
    have hbody : (indexRange (b.drop o) 0 e.len.toNat : Res InvalidEntryPointError Bytes)
        = .ok (bytesAt b o len) := by
      unfold indexRange getRange
      rw [hel, if_pos ⟨Nat.zero_le _, by rw [hlen]; exact hle⟩]
      simp only [List.drop_zero, Nat.sub_zero]
      rw [take_eq_bytesAt b o len (by omega)]
    have hsum := foldl_add_byteSum (bytesAt b o len)
    have hb : ((bytesAt b o len).foldl (fun s v => s + v) (0 : UInt8))
        = UInt8.ofNat (byteSum (bytesAt b o len)) := by
      rw [← hsum]; simp
    have hlt256 : byteSum (bytesAt b o len) < 256 := Nat.mod_lt _ (by decide)
    simp only [c1, c2, Bind.bind, Res.bind, hbody, hb]
    by_cases c3 : byteSum (bytesAt b o len) = 0
    · simp [c3, Pure.pure]
    · have : UInt8.ofNat (byteSum (bytesAt b o len)) ≠ 0 := by
        intro hz
        have := congrArg UInt8.toNat hz
        simp at this; omega
      simp [c3, this]
  rcases findSignature_some h with ⟨rfl, hfs⟩ | ⟨rfl, hfs⟩
  · -- version 2
    by_cases hs : b.length - o < 31
    · have hm : (fmtV2.minLen) = 31 := rfl
      refine ⟨.V2 ⟨0,0,0,0,0,0,0,[],[],0,0,0,0,0⟩, fun hle => by rw [hm] at hle; omega, ?_⟩
      have hb : (decide ((b.drop o).length ≥ EntryPointV2.size)) = false := by
        rw [hlen]; simp [EntryPointV2.size]; omega
      unfold EntryPoint.search
      simp only [hfs, hsub, Bind.bind, Res.bind, libEnsure, hb]
      rw [if_pos (show b.length - o < fmtV2.minLen from hs), hlen]
      rfl
    · have hb : (decide ((b.drop o).length ≥ EntryPointV2.size)) = true := by
        rw [hlen]; simp [EntryPointV2.size]; omega
      have hp := EntryPointV2.packed_eval (ε := InvalidEntryPointError) (b.drop o) (by rw [hlen]; omega)
      simp only [byteAt_drop] at hp
      revert hp
      generalize hP : EntryPointV2.mk _ _ _ _ _ _ _ _ _ _ _ _ _ _ = P
      intro hp
      have hPlen : P.len = byteAt b (o + 5) := by rw [← hP]
      have hPmaj : P.major = byteAt b (o + 6) := by rw [← hP]
      have hPmin : P.minor = byteAt b (o + 7) := by rw [← hP]
      have hPrev : P.revision = byteAt b (o + 10) := by rw [← hP]
      have hPsl : P.smbios_len = u16At (b.drop o) 22 := by rw [← hP]
      have hPad : P.smbios_address = u32At (b.drop o) 24 := by rw [← hP]
      have heplen : epLen fmtV2 b o = P.len.toNat := by rw [hPlen, epLen, leAt_one]; rfl
      have hepmaj : epMajor fmtV2 b o = P.major.toNat := by rw [hPmaj, epMajor, leAt_one]; rfl
      refine ⟨.V2 P, fun _ => ⟨?_, ?_, ?_, ?_, ?_, ?_, ?_, ?_⟩, ?_⟩
      · simp
      · simp [fmt_ne]
      · exact hepmaj.symm
      · simp [EntryPoint.minor, hPmin, leAt_one, fmtV2]
      · simp [EntryPoint.revision, hPrev, leAt_one, fmtV2]
      · simp [EntryPoint.smbios_len, hPsl, u16At_toNat, leAt_drop, fmtV2]
      · simp [EntryPoint.smbios_address, hPad, u32At_toNat, leAt_drop, fmtV2]
      · refine ⟨hepmaj.symm, ?_⟩
        simp [EntryPoint.to_version, EntryPoint.minor, hPmin, leAt_one, fmtV2]
      · have ht := tail (.V2 P) P.len.toNat rfl P.len.toNat_lt
        have hm : fmtV2.minLen = 31 := rfl
        have hl : (decide (P.len.toNat ≥ EntryPointV2.size)) = !decide (P.len.toNat < 31) := by
          by_cases c : P.len.toNat < 31 <;> simp [EntryPointV2.size, c] <;> omega
        unfold EntryPoint.search
        simp only [hfs, hsub, Bind.bind, Res.bind, libEnsure, hb, hp, hl] at ht ⊢
        rw [if_neg (show ¬ b.length - o < fmtV2.minLen from hs), heplen, hepmaj, hm]
        by_cases c : P.len.toNat < 31
        · simp [c]
        · simp only [c, decide_false, Bool.not_false, if_true, if_false, Pure.pure] at ht ⊢
          rw [ht]
          simp [EntryPoint.major]
  · -- version 3
    by_cases hs : b.length - o < 24
    · have hm : (fmtV3.minLen) = 24 := rfl
      refine ⟨.V3 ⟨[],0,0,0,0,0,0,0,0,0⟩, fun hle => by rw [hm] at hle; omega, ?_⟩
      have hb : (decide ((b.drop o).length ≥ EntryPointV3.size)) = false := by
        rw [hlen]; simp [EntryPointV3.size]; omega
      unfold EntryPoint.search
      simp only [hfs, hsub, Bind.bind, Res.bind, libEnsure, hb]
      rw [if_pos (show b.length - o < fmtV3.minLen from hs), hlen]
      rfl
    · have hb : (decide ((b.drop o).length ≥ EntryPointV3.size)) = true := by
        rw [hlen]; simp [EntryPointV3.size]; omega
      have hp := EntryPointV3.packed_eval (ε := InvalidEntryPointError) (b.drop o) (by rw [hlen]; omega)
      simp only [byteAt_drop] at hp
      revert hp
      generalize hP : EntryPointV3.mk _ _ _ _ _ _ _ _ _ _ = P
      intro hp
      have hPlen : P.len = byteAt b (o + 6) := by rw [← hP]
      have hPmaj : P.major = byteAt b (o + 7) := by rw [← hP]
      have hPmin : P.minor = byteAt b (o + 8) := by rw [← hP]
      have hPrev : P.revision = byteAt b (o + 10) := by rw [← hP]
      have hPsl : P.smbios_len_max = u32At (b.drop o) 12 := by rw [← hP]
      have hPad : P.smbios_address = u64At (b.drop o) 16 := by rw [← hP]
      have heplen : epLen fmtV3 b o = P.len.toNat := by rw [hPlen, epLen, leAt_one]; rfl
      have hepmaj : epMajor fmtV3 b o = P.major.toNat := by rw [hPmaj, epMajor, leAt_one]; rfl
      refine ⟨.V3 P, fun _ => ⟨?_, ?_, ?_, ?_, ?_, ?_, ?_, ?_⟩, ?_⟩
      · simp [fmt_ne.symm]
      · simp
      · exact hepmaj.symm
      · simp [EntryPoint.minor, hPmin, leAt_one, fmtV3]
      · simp [EntryPoint.revision, hPrev, leAt_one, fmtV3]
      · simp [EntryPoint.smbios_len, hPsl, u32At_toNat, leAt_drop, fmtV3]
      · simp [EntryPoint.smbios_address, hPad, u64At_toNat, leAt_drop, fmtV3]
      · refine ⟨hepmaj.symm, ?_⟩
        simp [EntryPoint.to_version, EntryPoint.minor, hPmin, leAt_one, fmtV3]
      · have ht := tail (.V3 P) P.len.toNat rfl P.len.toNat_lt
        have hm : fmtV3.minLen = 24 := rfl
        have hl : (decide (P.len.toNat ≥ EntryPointV3.size)) = !decide (P.len.toNat < 24) := by
          by_cases c : P.len.toNat < 24 <;> simp [EntryPointV3.size, c] <;> omega
        unfold EntryPoint.search
        simp only [hfs, hsub, Bind.bind, Res.bind, libEnsure, hb, hp, hl] at ht ⊢
        rw [if_neg (show ¬ b.length - o < fmtV3.minLen from hs), heplen, hepmaj, hm]
        by_cases c : P.len.toNat < 24
        · simp [c]
        · simp only [c, decide_false, Bool.not_false, if_true, if_false, Pure.pure] at ht ⊢
          rw [ht]
          simp [EntryPoint.major]

end Dmi
