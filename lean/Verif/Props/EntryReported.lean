import Verif.Props.EntryFields
import Verif.Props.EndToEnd
/-!
# C111: exactly which entry points and which errors the search reports
-/
namespace Dmi.Props
open Spec

/-- DSP0134 table 1: the 31 bytes that hold the fields of a 32-bit entry point. -/
def bytesOfV2 (p : EntryPointV2) : Bytes :=
  enc32 p.signature ++ [p.checksum, p.len, p.major, p.minor] ++ enc16 p.struct_max ++ [p.revision] ++
    p.formatted ++ p.dmi_signature ++ [p.dmi_checksum] ++ enc16 p.smbios_len ++ enc32 p.smbios_address ++
    enc16 p.smbios_count ++ [p.bcd_revision]

/-- DSP0134 table 2: the 24 bytes that hold the fields of a 64-bit entry point. -/
def bytesOfV3 (p : EntryPointV3) : Bytes :=
  p.signature ++ [p.checksum, p.len, p.major, p.minor, p.docrev, p.revision, p.reserved] ++
    enc32 p.smbios_len_max ++ enc64 p.smbios_address

theorem leBytes_stored (b : Bytes) (w o : Nat) : leBytes w (leAt b o w) = bytesAt b o w := by
  induction w generalizing o with
  | zero => rfl
  | succ w ih =>
    have lt := (byteAt b o).toNat_lt
    have h1 : UInt8.ofNat (leAt b o (w + 1)) = byteAt b o := by
      apply UInt8.toNat.inj
      rw [leAt, UInt8.toNat_ofNat']
      omega
    have h2 : leAt b o (w + 1) / 256 = leAt b (o + 1) w := by rw [leAt]; omega
    rw [leBytes, h1, h2, ih, Nat.add_comm w 1, bytesAt_two]
    rfl

theorem one_stored {b : Bytes} {o : Nat} {x : UInt8} (h : x.toNat = leAt b o 1) : bytesAt b o 1 = [x] := by
  rw [leAt_one] at h
  rw [UInt8.toNat.inj h]
  rfl

/-- C111: the bytes behind the first anchor are those of the fields returned, in the order of table 1. -/
theorem C111_stored32 {b : Bytes} {p : EntryPointV2} {o : Nat} (h : EntryPoint.search b = .ok (.V2 p))
    (hf : FirstAnchor b o fmtV2) : bytesAt b o 31 = bytesOfV2 p := by
  rcases search_fields h hf with ⟨_, q, hq, f⟩ | ⟨hc, _⟩
  rotate_left
  · exact absurd hc fmt_ne
  cases hq
  rw [bytesOfV2, enc32, enc32, enc16, enc16, enc16, f.signature, f.struct_max, f.smbios_len, f.smbios_address,
    f.smbios_count, f.formatted, f.dmi_signature]
  simp only [leBytes_stored]
  rw [show [p.checksum, p.len, p.major, p.minor] = [p.checksum] ++ [p.len] ++ [p.major] ++ [p.minor] from rfl,
    ← one_stored f.checksum, ← one_stored f.len, ← one_stored f.major, ← one_stored f.minor, ← one_stored f.revision,
    ← one_stored f.dmi_checksum, ← one_stored f.bcd_revision]
  rfl

/-- C111: the same for table 2. -/
theorem C111_stored64 {b : Bytes} {p : EntryPointV3} {o : Nat} (h : EntryPoint.search b = .ok (.V3 p))
    (hf : FirstAnchor b o fmtV3) : bytesAt b o 24 = bytesOfV3 p := by
  rcases search_fields h hf with ⟨hc, _⟩ | ⟨_, q, hq, f⟩
  · exact absurd hc.symm fmt_ne
  cases hq
  rw [bytesOfV3, enc32, enc64, f.signature, f.smbios_len_max, f.smbios_address]
  simp only [leBytes_stored]
  rw [show [p.checksum, p.len, p.major, p.minor, p.docrev, p.revision, p.reserved] =
      [p.checksum] ++ [p.len] ++ [p.major] ++ [p.minor] ++ [p.docrev] ++ [p.revision] ++ [p.reserved] from rfl,
    ← one_stored f.checksum, ← one_stored f.len, ← one_stored f.major, ← one_stored f.minor, ← one_stored f.docrev,
    ← one_stored f.revision, ← one_stored f.reserved]
  rfl

/-- The 32-bit entry points there are: the declared length is at least 31 and the major version at least 2; if no
byte follows the fields, they sum to zero. -/
structure EntryValue32 (p : EntryPointV2) : Prop where
  signature : enc32 p.signature = ascii "_SM_"
  formatted : p.formatted.length = 5
  dmi_signature : p.dmi_signature.length = 5
  len : 31 ≤ p.len.toNat
  major : 2 ≤ p.major.toNat
  sum : p.len.toNat = 31 → byteSum (bytesOfV2 p) = 0

/-- The 64-bit entry points there are. -/
structure EntryValue64 (p : EntryPointV3) : Prop where
  signature : p.signature = ascii "_SM3_"
  len : 24 ≤ p.len.toNat
  major : 2 ≤ p.major.toNat
  sum : p.len.toNat = 24 → byteSum (bytesOfV3 p) = 0

/-- What has to follow `x` so that `n` bytes sum to zero, if anything follows. -/
def filler (x : Bytes) (n : Nat) : Bytes :=
  if n = x.length then []
  else UInt8.ofNat (256 - byteSum x) :: List.replicate (n - x.length - 1) 0

theorem filler_length {x : Bytes} {n : Nat} (h : x.length ≤ n) : (x ++ filler x n).length = n := by
  unfold filler
  split <;> simp <;> omega

theorem filler_sum {x : Bytes} {n : Nat} (h : n = x.length → byteSum x = 0) : byteSum (x ++ filler x n) = 0 := by
  unfold filler
  split
  · rename_i e
    rw [List.append_nil, h e]
  · rw [byteSum_two]
    have lt : byteSum x < 256 := Nat.mod_lt _ (by decide)
    have z : ∀ k, ((List.replicate k (0 : UInt8)).map UInt8.toNat).sum = 0 := by
      intro k
      induction k with
      | zero => rfl
      | succ k ih => rw [List.replicate_succ, List.map_cons, List.sum_cons, ih]; rfl
    rw [show byteSum (UInt8.ofNat (256 - byteSum x) :: List.replicate (n - x.length - 1) 0) =
      ((256 - byteSum x) % 256 + 0) % 256 from by
        rw [byteSum, List.map_cons, List.sum_cons, z, UInt8.toNat_ofNat']]
    omega

theorem bytesAt_all (b : Bytes) : bytesAt b 0 b.length = b := by
  have := take_eq_bytesAt b 0 b.length (by omega)
  simpa using this.symm

theorem le_inj {w n m : Nat} (h : leBytes w n = leBytes w m) (hn : n < 256 ^ w) (hm : m < 256 ^ w) : n = m := by
  have h2 := congrArg (fun l => leAt ([] ++ l ++ []) ([] : Bytes).length w) h
  simp only [leAt_leBytes] at h2
  rwa [Nat.mod_eq_of_lt hn, Nat.mod_eq_of_lt hm] at h2

theorem enc16_inj {x y : UInt16} (h : enc16 x = enc16 y) : x = y :=
  UInt16.toNat.inj (le_inj h x.toNat_lt y.toNat_lt)

theorem enc32_inj {x y : UInt32} (h : enc32 x = enc32 y) : x = y :=
  UInt32.toNat.inj (le_inj h x.toNat_lt y.toNat_lt)

theorem enc64_inj {x y : UInt64} (h : enc64 x = enc64 y) : x = y :=
  UInt64.toNat.inj (le_inj h x.toNat_lt y.toNat_lt)

theorem bytesOfV2_inj {p q : EntryPointV2} (hp : p.formatted.length = 5) (hq : q.formatted.length = 5)
    (hp' : p.dmi_signature.length = 5) (hq' : q.dmi_signature.length = 5) (h : bytesOfV2 p = bytesOfV2 q) : p = q := by
  obtain ⟨h, a14⟩ := List.append_inj' h rfl
  obtain ⟨h, a13⟩ := List.append_inj' h rfl
  obtain ⟨h, a12⟩ := List.append_inj' h rfl
  obtain ⟨h, a11⟩ := List.append_inj' h rfl
  obtain ⟨h, a10⟩ := List.append_inj' h rfl
  obtain ⟨h, a9⟩ := List.append_inj' h (hp'.trans hq'.symm)
  obtain ⟨h, a8⟩ := List.append_inj' h (hp.trans hq.symm)
  obtain ⟨h, a7⟩ := List.append_inj' h rfl
  obtain ⟨h, a6⟩ := List.append_inj' h rfl
  obtain ⟨a1, h⟩ := List.append_inj' h rfl
  simp only [List.cons.injEq, and_true] at h a14 a10 a7
  obtain ⟨a2, a3, a4, a5⟩ := h
  obtain ⟨⟩ := p
  obtain ⟨⟩ := q
  simp only [EntryPointV2.mk.injEq]
  exact ⟨enc32_inj a1, a2, a3, a4, a5, enc16_inj a6, a7, a8, a9, a10, enc16_inj a11, enc32_inj a12, enc16_inj a13, a14⟩

theorem bytesOfV3_inj {p q : EntryPointV3} (h : bytesOfV3 p = bytesOfV3 q) : p = q := by
  obtain ⟨h, a10⟩ := List.append_inj' h rfl
  obtain ⟨h, a9⟩ := List.append_inj' h rfl
  obtain ⟨a1, h⟩ := List.append_inj' h rfl
  simp only [List.cons.injEq, and_true] at h
  obtain ⟨a2, a3, a4, a5, a6, a7, a8⟩ := h
  obtain ⟨⟩ := p
  obtain ⟨⟩ := q
  simp only [EntryPointV3.mk.injEq]
  exact ⟨a1, a2, a3, a4, a5, a6, a7, a8, enc32_inj a9, enc64_inj a10⟩

/-- What stands at the beginning. -/
theorem bytesAt_front (x y : Bytes) : bytesAt (x ++ y) 0 x.length = x := by
  have := take_eq_bytesAt (x ++ y) 0 x.length (by simp)
  simpa using this.symm

/-- C111: exactly these 32-bit entry points are returned. -/
theorem C111_entry32 (p : EntryPointV2) : (∃ b, EntryPoint.search b = .ok (.V2 p)) ↔ EntryValue32 p := by
  constructor
  · rintro ⟨b, h⟩
    obtain ⟨o, F, hf, wf, c⟩ := C95_fields h
    rcases c with ⟨rfl, q, hq, f⟩ | ⟨_, q, hq, _⟩
    rotate_left
    · cases hq
    cases hq
    have hl : epLen fmtV2 b o = p.len.toNat := f.len.symm
    refine ⟨(C95_signature h).1 p rfl, ?_, ?_, hl ▸ wf.minLen, ?_, fun e => ?_⟩
    · rw [f.formatted]; simp [bytesAt]
    · rw [f.dmi_signature]; simp [bytesAt]
    · rw [f.major]; exact wf.version
    · rw [← C111_stored32 h hf, ← e, ← hl]
      exact wf.checksum
  · intro v
    have hx : (bytesOfV2 p).length = 31 := by
      simp [bytesOfV2, enc32, enc16, leBytes, v.formatted, v.dmi_signature]
    have hb := filler_length (x := bytesOfV2 p) (n := p.len.toNat) (by have := v.len; omega)
    have hsum := filler_sum (x := bytesOfV2 p) (n := p.len.toNat) (fun e => v.sum (by omega))
    generalize filler (bytesOfV2 p) p.len.toNat = t at hb hsum
    refine ⟨bytesOfV2 p ++ t, ?_⟩
    have hf : FirstAnchor (bytesOfV2 p ++ t) 0 fmtV2 := by
      refine ⟨.inl rfl, ⟨rfl, [], (bytesOfV2 p).drop 4 ++ t, ?_, rfl⟩, fun o' h => by omega⟩
      rw [show fmtV2.anchor = _ from v.signature.symm]
      rfl
    have he : epLen fmtV2 (bytesOfV2 p ++ t) 0 = p.len.toNat := leAt_one _ _
    have hM : epMajor fmtV2 (bytesOfV2 p ++ t) 0 = p.major.toNat := leAt_one _ _
    have lt := p.len.toNat_lt
    have wf : WellFormed fmtV2 (bytesOfV2 p ++ t) 0 := by
      refine ⟨?_, ?_, ?_, ?_, ?_⟩
      · rw [hb]; exact v.len
      · rw [he]; exact v.len
      · rw [he, hb]; omega
      · rw [hM]; exact v.major
      · rw [he, ← hb, bytesAt_all, hsum]
    obtain ⟨e, hok, _⟩ := C04_valid_accepted_short hf wf (by rw [hb]; omega)
    rcases search_fields hok hf with ⟨_, q, rfl, f⟩ | ⟨hc, _⟩
    rotate_left
    · exact absurd hc fmt_ne
    have hs := C111_stored32 hok hf
    rw [← hx, bytesAt_front] at hs
    have hq : p = q := bytesOfV2_inj v.formatted (by rw [f.formatted]; simp [bytesAt]) v.dmi_signature
      (by rw [f.dmi_signature]; simp [bytesAt]) hs
    rw [hok, hq]

/-- C111: exactly these 64-bit entry points are returned. -/
theorem C111_entry64 (p : EntryPointV3) : (∃ b, EntryPoint.search b = .ok (.V3 p)) ↔ EntryValue64 p := by
  constructor
  · rintro ⟨b, h⟩
    obtain ⟨o, F, hf, wf, c⟩ := C95_fields h
    rcases c with ⟨_, q, hq, _⟩ | ⟨rfl, q, hq, f⟩
    · cases hq
    cases hq
    have hl : epLen fmtV3 b o = p.len.toNat := f.len.symm
    refine ⟨(C95_signature h).2 p rfl, hl ▸ wf.minLen, ?_, fun e => ?_⟩
    · rw [f.major]; exact wf.version
    · rw [← C111_stored64 h hf, ← e, ← hl]
      exact wf.checksum
  · intro v
    have hx : (bytesOfV3 p).length = 24 := by
      simp [bytesOfV3, enc32, enc64, leBytes, v.signature, ascii]
    have hb := filler_length (x := bytesOfV3 p) (n := p.len.toNat) (by have := v.len; omega)
    have hsum := filler_sum (x := bytesOfV3 p) (n := p.len.toNat) (fun e => v.sum (by omega))
    generalize filler (bytesOfV3 p) p.len.toNat = t at hb hsum
    refine ⟨bytesOfV3 p ++ t, ?_⟩
    have hf : FirstAnchor (bytesOfV3 p ++ t) 0 fmtV3 := by
      refine ⟨.inr rfl, ⟨rfl, [], (bytesOfV3 p).drop 5 ++ t, ?_, rfl⟩, fun o' h => by omega⟩
      rw [bytesOfV3, v.signature]
      rfl
    have he : epLen fmtV3 (bytesOfV3 p ++ t) 0 = p.len.toNat := by
      rw [bytesOfV3, v.signature]
      exact leAt_one _ _
    have hM : epMajor fmtV3 (bytesOfV3 p ++ t) 0 = p.major.toNat := by
      rw [bytesOfV3, v.signature]
      exact leAt_one _ _
    have lt := p.len.toNat_lt
    have wf : WellFormed fmtV3 (bytesOfV3 p ++ t) 0 := by
      refine ⟨?_, ?_, ?_, ?_, ?_⟩
      · rw [hb]; exact v.len
      · rw [he]; exact v.len
      · rw [he, hb]; omega
      · rw [hM]; exact v.major
      · rw [he, ← hb, bytesAt_all, hsum]
    obtain ⟨e, hok, _⟩ := C04_valid_accepted_short hf wf (by rw [hb]; omega)
    rcases search_fields hok hf with ⟨hc, _⟩ | ⟨_, q, rfl, f⟩
    · exact absurd hc.symm fmt_ne
    have hs := C111_stored64 hok hf
    rw [← hx, bytesAt_front] at hs
    rw [hok, bytesOfV3_inj hs]

example : EntryValue32 ⟨0x5F4D535F, 59, 31, 2, 8, 0x1234, 0, [0, 0, 0, 0, 0], [95, 68, 77, 73, 95], 119, 640,
    0x000E1000, 33, 0x28⟩ := by
  constructor <;> decide +kernel

/-- With a declared length of 32 any checksum will do. -/
example : EntryValue32 ⟨0x5F4D535F, 0, 32, 2, 8, 0x1234, 0, [0, 0, 0, 0, 0], [95, 68, 77, 73, 95], 119, 640,
    0x000E1000, 33, 0x28⟩ := by
  constructor <;> decide +kernel

example : EntryValue64 ⟨ascii "_SM3_", 80, 24, 3, 1, 0, 1, 0, 2398, 0x17FEB3000⟩ := by
  constructor <;> decide +kernel

/-- The errors the search reports. -/
def SearchError : InvalidEntryPointError → Prop
  | .NotFound => True
  | .BadSize v => v.toNat < 255
  | .TooOldVersion v => v.toNat < 2
  | .BadChecksum v => v.toNat ≠ 0

/-- C111: exactly these errors are returned. -/
theorem C111_errors (e : InvalidEntryPointError) : (∃ b, EntryPoint.search b = .err e) ↔ SearchError e := by
  have first : ∀ r : Bytes, FirstAnchor ([95, 83, 77, 95] ++ r) 0 fmtV2 := fun r =>
    ⟨.inl rfl, ⟨rfl, [], r, rfl, rfl⟩, fun o' h => by omega⟩
  cases e with
  | NotFound => exact ⟨fun _ => trivial, fun _ => ⟨[], by decide +kernel⟩⟩
  | BadSize v =>
    constructor
    · rintro ⟨b, h⟩
      obtain ⟨o, F, hF, c⟩ := (C03_badSize_iff b v).1 h
      have hm : F.minLen < 255 := by rcases hF.format with rfl | rfl <;> decide
      have hl : epLen F b o < 256 := leAt_one_lt _ _
      show v.toNat < 255
      omega
    · intro h
      refine ⟨[95, 83, 77, 95] ++ ([0, 255, 2] ++ List.replicate (v.toNat + 249) 0), ?_⟩
      have hlen : ([95, 83, 77, 95] ++ ([0, 255, 2] ++ List.replicate (v.toNat + 249) (0 : UInt8))).length =
          v.toNat + 256 := by simp
      refine (C03_badSize_iff _ v).2 ⟨0, fmtV2, first _, .inr (.inr ⟨?_, ?_, ?_, ?_, ?_⟩)⟩
      · rw [hlen]; show 31 ≤ _; omega
      · show 31 ≤ 255; decide
      · show 2 ≤ 2; decide
      · rw [hlen]
        show _ < 255
        have : v.toNat < 255 := h
        omega
      · rw [hlen]
        have : v.toNat < 255 := h
        omega
  | TooOldVersion v =>
    constructor
    · rintro ⟨b, h⟩
      obtain ⟨o, F, hF, _, _, h1, h2⟩ := (C03_tooOld_iff b v).1 h
      show v.toNat < 2
      omega
    · intro h
      refine ⟨[95, 83, 77, 95] ++ ([0, 31, v] ++ List.replicate 24 0), ?_⟩
      have hM : epMajor fmtV2 ([95, 83, 77, 95] ++ ([0, 31, v] ++ List.replicate 24 0)) 0 = v.toNat := leAt_one _ _
      refine (C03_tooOld_iff _ v).2 ⟨0, fmtV2, first _, ?_, ?_, ?_, hM.symm⟩
      · show 31 ≤ 31; decide
      · show 31 ≤ 31; decide
      · rw [hM]; exact h
  | BadChecksum v =>
    constructor
    · rintro ⟨b, h⟩
      obtain ⟨o, F, hF, _, _, _, _, _, h1⟩ := (C03_badChecksum_iff b v).1 h
      exact fun h2 => h1 (UInt8.toNat.inj h2)
    · intro h
      refine ⟨[95, 83, 77, 95] ++ ([v - 127, 31, 2] ++ List.replicate 24 0), ?_⟩
      refine (C03_badChecksum_iff _ v).2 ⟨0, fmtV2, first _, ?_, ?_, ?_, ?_, ?_, fun h2 => h (h2 ▸ rfl)⟩
      · show 31 ≤ 31; decide
      · show 31 ≤ 31; decide
      · show 2 ≤ 2; decide
      · show 31 ≤ 31; decide
      · exact forall_u8 (P := fun v => v.toNat = byteSum (bytesAt ([95, 83, 77, 95] ++ ([v - 127, 31, 2] ++
          List.replicate 24 0)) 0 31)) (by decide +kernel) v

example : SearchError (.BadSize 254) ∧ ¬ SearchError (.BadSize 255) ∧ ¬ SearchError (.TooOldVersion 2) ∧
    ¬ SearchError (.BadChecksum 0) := by
  simp [SearchError]

end Dmi.Props
