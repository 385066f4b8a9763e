import Verif.Props.EntryPoint
import Verif.Proofs.Decode
/-!
# C95, C96: the public fields of entry points
-/
namespace Dmi.Props
open Spec

/-- DSP0134 table 1: where the fields of a 32-bit entry point at `o` are. -/
structure FieldsV2 (b : Bytes) (o : Nat) (p : EntryPointV2) : Prop where
  signature : p.signature.toNat = leAt b (o + 0x00) 4
  checksum : p.checksum.toNat = leAt b (o + 0x04) 1
  len : p.len.toNat = leAt b (o + 0x05) 1
  major : p.major.toNat = leAt b (o + 0x06) 1
  minor : p.minor.toNat = leAt b (o + 0x07) 1
  struct_max : p.struct_max.toNat = leAt b (o + 0x08) 2
  revision : p.revision.toNat = leAt b (o + 0x0A) 1
  formatted : p.formatted = bytesAt b (o + 0x0B) 5
  dmi_signature : p.dmi_signature = bytesAt b (o + 0x10) 5
  dmi_checksum : p.dmi_checksum.toNat = leAt b (o + 0x15) 1
  smbios_len : p.smbios_len.toNat = leAt b (o + 0x16) 2
  smbios_address : p.smbios_address.toNat = leAt b (o + 0x18) 4
  smbios_count : p.smbios_count.toNat = leAt b (o + 0x1C) 2
  bcd_revision : p.bcd_revision.toNat = leAt b (o + 0x1E) 1

/-- DSP0134 table 2: where the fields of a 64-bit entry point at `o` are. -/
structure FieldsV3 (b : Bytes) (o : Nat) (p : EntryPointV3) : Prop where
  signature : p.signature = bytesAt b (o + 0x00) 5
  checksum : p.checksum.toNat = leAt b (o + 0x05) 1
  len : p.len.toNat = leAt b (o + 0x06) 1
  major : p.major.toNat = leAt b (o + 0x07) 1
  minor : p.minor.toNat = leAt b (o + 0x08) 1
  docrev : p.docrev.toNat = leAt b (o + 0x09) 1
  revision : p.revision.toNat = leAt b (o + 0x0A) 1
  reserved : p.reserved.toNat = leAt b (o + 0x0B) 1
  smbios_len_max : p.smbios_len_max.toNat = leAt b (o + 0x0C) 4
  smbios_address : p.smbios_address.toNat = leAt b (o + 0x10) 8

theorem bytesAt_from (b : Bytes) (o k w : Nat) : bytesAt (b.drop o) k w = bytesAt b (o + k) w := by
  simp only [bytesAt, byteAt_drop, Nat.add_assoc]

theorem libEnsure_holds {ε : Type} {c : Bool} {e : ε} {u : Unit} (h : libEnsure c e = .ok u) : c = true := by
  cases c with
  | true => rfl
  | false => cases h

/-- The entry point accepted is the one laid out at the first anchor. -/
theorem search_fields {b : Bytes} {e : EntryPoint} (h : EntryPoint.search b = .ok e) {o : Nat} {F : EpFormat}
    (hf : FirstAnchor b o F) :
    (F = fmtV2 ∧ ∃ p, e = .V2 p ∧ FieldsV2 b o p) ∨ (F = fmtV3 ∧ ∃ p, e = .V3 p ∧ FieldsV3 b o p) := by
  have hlt : o < b.length := hf.anchor.2.lt (by rcases hf.format with rfl | rfl <;> decide)
  have hsub : (indexFrom b o : Res InvalidEntryPointError Bytes) = .ok (b.drop o) := by
    simp [indexFrom, getFrom, Nat.le_of_lt hlt]
  have hlen : (b.drop o).length = b.length - o := by simp
  have one : ∀ k, (byteAt b (o + k)).toNat = leAt b (o + k) 1 := fun k => (leAt_one b _).symm
  unfold EntryPoint.search at h
  rcases findSignature_some hf with ⟨rfl, hfs⟩ | ⟨rfl, hfs⟩
  · refine .inl ⟨rfl, ?_⟩
    simp only [hfs, bind_ok_iff, hsub, Res.ok.injEq] at h
    obtain ⟨_, rfl, _, c, p, hp, _, _, ep, hq, _, _, _, _, _, _, _, _, he⟩ := h
    have c := of_decide_eq_true (libEnsure_holds c)
    rw [EntryPointV2.packed_eval _ c] at hp
    cases hp; cases hq; cases he
    refine ⟨_, rfl, ?_⟩
    constructor <;> simp only [byteAt_drop, one, u16At_toNat, u32At_toNat, leAt_drop, bytesAt_from]
  · refine .inr ⟨rfl, ?_⟩
    simp only [hfs, bind_ok_iff, hsub, Res.ok.injEq] at h
    obtain ⟨_, rfl, _, c, p, hp, _, _, ep, hq, _, _, _, _, _, _, _, _, he⟩ := h
    have c := of_decide_eq_true (libEnsure_holds c)
    rw [EntryPointV3.packed_eval _ c] at hp
    cases hp; cases hq; cases he
    refine ⟨_, rfl, ?_⟩
    constructor <;> simp only [byteAt_drop, one, u32At_toNat, u64At_toNat, leAt_drop, bytesAt_from]

/-! ### C95 -/

/-- C95: every field of an accepted entry point, not only those behind accessors, holds what is stored at its
offset behind the first anchor. -/
theorem C95_fields {b : Bytes} {e : EntryPoint} (h : EntryPoint.search b = .ok e) :
    ∃ o F, FirstAnchor b o F ∧ WellFormed F b o ∧
      ((F = fmtV2 ∧ ∃ p, e = .V2 p ∧ FieldsV2 b o p) ∨ (F = fmtV3 ∧ ∃ p, e = .V3 p ∧ FieldsV3 b o p)) := by
  obtain ⟨o, F, hf, wf, _⟩ := C01_accepted_is_genuine h
  exact ⟨o, F, hf, wf, search_fields h hf⟩

theorem occurs_stored {b : Bytes} {o : Nat} {sig : Bytes} (h : OccursAt b o sig) :
    bytesAt b o sig.length = sig := by
  obtain ⟨pre, post, rfl, rfl⟩ := h
  rw [← take_eq_bytesAt _ _ _ (by simp), List.append_assoc]
  simp

/-- C95: what the `signature` field holds: the number read from `_SM_`, or the bytes `_SM3_`. -/
theorem C95_signature {b : Bytes} {e : EntryPoint} (h : EntryPoint.search b = .ok e) :
    (∀ p, e = .V2 p → enc32 p.signature = ascii "_SM_") ∧ (∀ p, e = .V3 p → p.signature = ascii "_SM3_") := by
  obtain ⟨o, F, hf, _, c⟩ := C95_fields h
  rcases c with ⟨rfl, q, rfl, f⟩ | ⟨rfl, q, rfl, f⟩
  · refine ⟨fun p e => ?_, nofun⟩
    cases e
    have := occurs_stored hf.anchor.2
    rw [enc32, f.signature]
    rw [show fmtV2.anchor = [95, 83, 77, 95] from by decide +kernel] at this
    replace this : [byteAt b (o + 0), byteAt b (o + 1), byteAt b (o + 2), byteAt b (o + 3)] = [95, 83, 77, 95] :=
      this
    simp only [List.cons.injEq, and_true] at this
    obtain ⟨h0, h1, h2, h3⟩ := this
    have e : leAt b (o + 0) 4 = 0x5F4D535F := by
      simp only [leAt]
      rw [h0, show o + 0 + 1 = o + 1 from rfl, h1, show o + 1 + 1 = o + 2 from rfl, h2,
        show o + 2 + 1 = o + 3 from rfl, h3]
      decide
    rw [show leAt b (o + 0x00) 4 = 0x5F4D535F from e]
    decide +kernel
  · refine ⟨nofun, fun p e => ?_⟩
    cases e
    have := occurs_stored hf.anchor.2
    rw [f.signature]
    exact this

/-- C95: entry points are the same (also by the derived `PartialEq`) exactly when the bytes of their fields are:
31 bytes of a 32-bit one, 24 of a 64-bit one. -/
theorem C95_same_bytes {b c : Bytes} {d e : EntryPoint} (hd : EntryPoint.search b = .ok d)
    (he : EntryPoint.search c = .ok e) {o q : Nat} {F G : EpFormat} (hf : FirstAnchor b o F)
    (hg : FirstAnchor c q G) : d = e ↔ F = G ∧ bytesAt b o F.minLen = bytesAt c q F.minLen := by
  have bytes : ∀ {w}, bytesAt b o w = bytesAt c q w ↔ ∀ k, k < w → byteAt b (o + k) = byteAt c (q + k) := by
    intro w
    rw [bytesAt, bytesAt, List.map_inj_left]
    exact ⟨fun h k hk => h k (List.mem_range.2 hk), fun h k hk => h k (List.mem_range.1 hk)⟩
  have le : ∀ {w k n : Nat}, (∀ k, k < w → byteAt b (o + k) = byteAt c (q + k)) → k + n ≤ w →
      leAt b (o + k) n = leAt c (q + k) n := by
    intro w k n h hk
    induction n generalizing k with
    | zero => rfl
    | succ n ih =>
      rw [leAt, leAt, h k (by omega), Nat.add_assoc o, Nat.add_assoc q, ih (by omega)]
  have sub : ∀ {w k n : Nat}, (∀ k, k < w → byteAt b (o + k) = byteAt c (q + k)) → k + n ≤ w →
      bytesAt b (o + k) n = bytesAt c (q + k) n := by
    intro w k n h hk
    rw [bytesAt, bytesAt, List.map_inj_left]
    intro a ha
    have := List.mem_range.1 ha
    rw [Nat.add_assoc o, Nat.add_assoc q, h _ (by omega)]
  have back : ∀ {n k j : Nat}, leAt b (o + k) n = leAt c (q + k) n → k ≤ j → j < k + n →
      byteAt b (o + j) = byteAt c (q + j) := by
    intro n
    induction n with
    | zero => omega
    | succ n ih =>
      intro k j h h1 h2
      rw [leAt, leAt] at h
      have x1 := (byteAt b (o + k)).toNat_lt
      have x2 := (byteAt c (q + k)).toNat_lt
      by_cases hj : j = k
      · subst hj
        apply UInt8.toNat.inj; omega
      · exact ih (k := k + 1) (by rw [← Nat.add_assoc, ← Nat.add_assoc]; omega) (by omega) (by omega)
  have bback : ∀ {n k j : Nat}, bytesAt b (o + k) n = bytesAt c (q + k) n → k ≤ j → j < k + n →
      byteAt b (o + j) = byteAt c (q + j) := by
    intro n k j h h1 h2
    rw [bytesAt, bytesAt, List.map_inj_left] at h
    have := h (j - k) (List.mem_range.2 (by omega))
    rwa [show o + k + (j - k) = o + j from by omega, show q + k + (j - k) = q + j from by omega] at this
  rcases search_fields hd hf with ⟨rfl, p, rfl, f⟩ | ⟨rfl, p, rfl, f⟩ <;>
    rcases search_fields he hg with ⟨rfl, r, rfl, g⟩ | ⟨rfl, r, rfl, g⟩
  · rw [bytes]
    constructor
    · intro h
      cases h
      refine ⟨rfl, fun k hk => ?_⟩
      replace hk : k < 31 := hk
      have : k < 4 ∨ k = 4 ∨ k = 5 ∨ k = 6 ∨ k = 7 ∨ (8 ≤ k ∧ k < 10) ∨ k = 10 ∨ (11 ≤ k ∧ k < 16) ∨
        (16 ≤ k ∧ k < 21) ∨ k = 21 ∨ (22 ≤ k ∧ k < 24) ∨ (24 ≤ k ∧ k < 28) ∨ (28 ≤ k ∧ k < 30) ∨ k = 30 := by omega
      rcases this with h | h | h | h | h | h | h | h | h | h | h | h | h | h
      · exact back (f.signature.symm.trans g.signature) (by omega) (by omega)
      · exact back (f.checksum.symm.trans g.checksum) (by omega) (by omega)
      · exact back (f.len.symm.trans g.len) (by omega) (by omega)
      · exact back (f.major.symm.trans g.major) (by omega) (by omega)
      · exact back (f.minor.symm.trans g.minor) (by omega) (by omega)
      · exact back (f.struct_max.symm.trans g.struct_max) (by omega) (by omega)
      · exact back (f.revision.symm.trans g.revision) (by omega) (by omega)
      · exact bback (f.formatted.symm.trans g.formatted) (by omega) (by omega)
      · exact bback (f.dmi_signature.symm.trans g.dmi_signature) (by omega) (by omega)
      · exact back (f.dmi_checksum.symm.trans g.dmi_checksum) (by omega) (by omega)
      · exact back (f.smbios_len.symm.trans g.smbios_len) (by omega) (by omega)
      · exact back (f.smbios_address.symm.trans g.smbios_address) (by omega) (by omega)
      · exact back (f.smbios_count.symm.trans g.smbios_count) (by omega) (by omega)
      · exact back (f.bcd_revision.symm.trans g.bcd_revision) (by omega) (by omega)
    · rintro ⟨_, h⟩
      replace h : ∀ k, k < 31 → byteAt b (o + k) = byteAt c (q + k) := h
      obtain ⟨a1, a2, a3, a4, a5, a6, a7, a8, a9, a10, a11, a12, a13, a14⟩ := p
      obtain ⟨b1, b2, b3, b4, b5, b6, b7, b8, b9, b10, b11, b12, b13, b14⟩ := r
      simp only [EntryPoint.V2.injEq, EntryPointV2.mk.injEq]
      exact ⟨UInt32.toNat.inj (f.signature.trans ((le h (by omega)).trans g.signature.symm)),
        UInt8.toNat.inj (f.checksum.trans ((le h (by omega)).trans g.checksum.symm)),
        UInt8.toNat.inj (f.len.trans ((le h (by omega)).trans g.len.symm)),
        UInt8.toNat.inj (f.major.trans ((le h (by omega)).trans g.major.symm)),
        UInt8.toNat.inj (f.minor.trans ((le h (by omega)).trans g.minor.symm)),
        UInt16.toNat.inj (f.struct_max.trans ((le h (by omega)).trans g.struct_max.symm)),
        UInt8.toNat.inj (f.revision.trans ((le h (by omega)).trans g.revision.symm)),
        f.formatted.trans ((sub h (by omega)).trans g.formatted.symm),
        f.dmi_signature.trans ((sub h (by omega)).trans g.dmi_signature.symm),
        UInt8.toNat.inj (f.dmi_checksum.trans ((le h (by omega)).trans g.dmi_checksum.symm)),
        UInt16.toNat.inj (f.smbios_len.trans ((le h (by omega)).trans g.smbios_len.symm)),
        UInt32.toNat.inj (f.smbios_address.trans ((le h (by omega)).trans g.smbios_address.symm)),
        UInt16.toNat.inj (f.smbios_count.trans ((le h (by omega)).trans g.smbios_count.symm)),
        UInt8.toNat.inj (f.bcd_revision.trans ((le h (by omega)).trans g.bcd_revision.symm))⟩
  · exact ⟨nofun, fun h => absurd h.1 fmt_ne⟩
  · exact ⟨nofun, fun h => absurd h.1.symm fmt_ne⟩
  · rw [bytes]
    constructor
    · intro h
      cases h
      refine ⟨rfl, fun k hk => ?_⟩
      replace hk : k < 24 := hk
      have : k < 5 ∨ k = 5 ∨ k = 6 ∨ k = 7 ∨ k = 8 ∨ k = 9 ∨ k = 10 ∨ k = 11 ∨ (12 ≤ k ∧ k < 16) ∨
        (16 ≤ k ∧ k < 24) := by omega
      rcases this with h | h | h | h | h | h | h | h | h | h
      · exact bback (f.signature.symm.trans g.signature) (by omega) (by omega)
      · exact back (f.checksum.symm.trans g.checksum) (by omega) (by omega)
      · exact back (f.len.symm.trans g.len) (by omega) (by omega)
      · exact back (f.major.symm.trans g.major) (by omega) (by omega)
      · exact back (f.minor.symm.trans g.minor) (by omega) (by omega)
      · exact back (f.docrev.symm.trans g.docrev) (by omega) (by omega)
      · exact back (f.revision.symm.trans g.revision) (by omega) (by omega)
      · exact back (f.reserved.symm.trans g.reserved) (by omega) (by omega)
      · exact back (f.smbios_len_max.symm.trans g.smbios_len_max) (by omega) (by omega)
      · exact back (f.smbios_address.symm.trans g.smbios_address) (by omega) (by omega)
    · rintro ⟨_, h⟩
      replace h : ∀ k, k < 24 → byteAt b (o + k) = byteAt c (q + k) := h
      obtain ⟨a1, a2, a3, a4, a5, a6, a7, a8, a9, a10⟩ := p
      obtain ⟨b1, b2, b3, b4, b5, b6, b7, b8, b9, b10⟩ := r
      simp only [EntryPoint.V3.injEq, EntryPointV3.mk.injEq]
      exact ⟨f.signature.trans ((sub h (by omega)).trans g.signature.symm),
        UInt8.toNat.inj (f.checksum.trans ((le h (by omega)).trans g.checksum.symm)),
        UInt8.toNat.inj (f.len.trans ((le h (by omega)).trans g.len.symm)),
        UInt8.toNat.inj (f.major.trans ((le h (by omega)).trans g.major.symm)),
        UInt8.toNat.inj (f.minor.trans ((le h (by omega)).trans g.minor.symm)),
        UInt8.toNat.inj (f.docrev.trans ((le h (by omega)).trans g.docrev.symm)),
        UInt8.toNat.inj (f.revision.trans ((le h (by omega)).trans g.revision.symm)),
        UInt8.toNat.inj (f.reserved.trans ((le h (by omega)).trans g.reserved.symm)),
        UInt32.toNat.inj (f.smbios_len_max.trans ((le h (by omega)).trans g.smbios_len_max.symm)),
        UInt64.toNat.inj (f.smbios_address.trans ((le h (by omega)).trans g.smbios_address.symm))⟩

example : ∃ p, EntryPoint.search sampleV2 = .ok (.V2 p) ∧ p.struct_max = 0x1234 ∧ p.dmi_checksum = 119 ∧
    p.smbios_count = 33 ∧ p.bcd_revision = 0x28 := by
  refine ⟨⟨0x5F4D535F, 59, 31, 2, 8, 0x1234, 0, [0, 0, 0, 0, 0], [95, 68, 77, 73, 95], 119, 640, 0x000E1000, 33, 0x28⟩,
    ?_, ?_⟩ <;> decide +kernel

example : ∃ p, EntryPoint.search sampleV3 = .ok (.V3 p) ∧ p.checksum = 80 ∧ p.len = 24 ∧ p.docrev = 0 := by
  refine ⟨⟨[95, 83, 77, 51, 95], 80, 24, 3, 1, 0, 1, 0, 2398, 0x17FEB3000⟩, ?_, ?_⟩ <;> decide +kernel

/-! ### C96 -/

/-- C96 as one would have it (DSP0134, 5.2.1): an accepted 32-bit entry point carries the intermediate anchor
`_DMI_`, and its bytes 10h to 1Eh sum to zero. False of the code, see `C96_full_false`. -/
def C96_full : Prop := ∀ (b : Bytes) (p : EntryPointV2) (o : Nat), EntryPoint.search b = .ok (.V2 p) →
  FirstAnchor b o fmtV2 → p.dmi_signature = ascii "_DMI_" ∧ byteSum (bytesAt b (o + 0x10) 15) = 0

theorem byteSum_two (x y : Bytes) : byteSum (x ++ y) = (byteSum x + byteSum y) % 256 := by
  simp only [byteSum, List.map_append, List.sum_append]
  omega

theorem bytesAt_two (b : Bytes) (o v w : Nat) : bytesAt b o (v + w) = bytesAt b o v ++ bytesAt b (o + v) w := by
  simp only [bytesAt, List.range_add, List.map_append, List.map_map, Nat.add_assoc]
  rfl

/-- C96 (part that holds): the bytes that are checked are all up to the declared length, those of the intermediate
part among them, so that part sums to zero exactly when the bytes around it do; and a caller who wants to
check the intermediate anchor finds its bytes in `dmi_signature`. Missing from the full statement: the code
checks neither. -/
theorem C96_intermediate_partial {b : Bytes} {p : EntryPointV2} {o : Nat}
    (h : EntryPoint.search b = .ok (.V2 p)) (hf : FirstAnchor b o fmtV2) :
    31 ≤ p.len.toNat ∧ o + p.len.toNat ≤ b.length ∧
    (byteSum (bytesAt b (o + 0x10) 15) = 0 ↔
      (byteSum (bytesAt b o 0x10) + byteSum (bytesAt b (o + 0x1F) (p.len.toNat - 0x1F))) % 256 = 0) ∧
    (p.dmi_signature = ascii "_DMI_" ↔ OccursAt b (o + 0x10) (ascii "_DMI_")) := by
  rcases search_fields h hf with ⟨_, q, hq, f⟩ | ⟨hc, _⟩
  rotate_left
  · exact absurd hc fmt_ne
  cases hq
  obtain ⟨o', F', hf', wf, _⟩ := C01_accepted_is_genuine h
  have hoF : o' = o ∧ F' = fmtV2 := by
    rcases findSignature_some hf with ⟨_, h1⟩ | ⟨hc, _⟩
    · rcases findSignature_some hf' with ⟨e, h2⟩ | ⟨e, h2⟩ <;> rw [h1] at h2
      · simp only [Option.some.injEq, Prod.mk.injEq, true_and] at h2
        exact ⟨h2.symm, e⟩
      · simp at h2
    · exact absurd hc fmt_ne
  obtain ⟨rfl, rfl⟩ := hoF
  have hl : epLen fmtV2 b o' = p.len.toNat := f.len.symm
  have h1 : 31 ≤ p.len.toNat := hl ▸ wf.minLen
  have h2 : o' + p.len.toNat ≤ b.length := hl ▸ wf.fits
  refine ⟨h1, h2, ?_, ?_⟩
  · have hs := wf.checksum
    rw [hl, show p.len.toNat = 16 + (15 + (p.len.toNat - 31)) from by omega, bytesAt_two, bytesAt_two,
      byteSum_two, byteSum_two] at hs
    have lt : byteSum (bytesAt b (o' + 16) 15) < 256 := Nat.mod_lt _ (by decide)
    rw [show o' + 16 + 15 = o' + 31 from rfl] at hs
    omega
  · rw [f.dmi_signature]
    constructor
    · intro e
      have t := take_eq_bytesAt b (o' + 16) 5 (by omega)
      refine ⟨b.take (o' + 16), b.drop (o' + 21), ?_, by rw [List.length_take]; omega⟩
      rw [← e, ← t, List.append_assoc, show b.drop (o' + 21) = (b.drop (o' + 16)).drop 5 from by
        rw [List.drop_drop], List.take_append_drop, List.take_append_drop]
    · intro e
      exact occurs_stored e

/-- An entry point as the specification wants it. -/
def goodIntermediate : Bytes :=
  [95, 83, 77, 95, 51, 31, 2, 8, 52, 18, 0, 0, 0, 0, 0, 0, 95, 68, 77, 73, 95, 127, 128, 2, 0, 16,
   14, 0, 33, 0, 40]

/-- The same with the anchor `_XMI_`, and an intermediate checksum to go with it. -/
def wrongIntermediate : Bytes :=
  [95, 83, 77, 95, 51, 31, 2, 8, 52, 18, 0, 0, 0, 0, 0, 0, 95, 88, 77, 73, 95, 107, 128, 2, 0, 16,
   14, 0, 33, 0, 40]

theorem C96_full_false : ¬ C96_full := by
  intro h
  have hs : ∃ p, EntryPoint.search wrongIntermediate = .ok (.V2 p) ∧ p.dmi_signature ≠ ascii "_DMI_" := by
    refine ⟨⟨0x5F4D535F, 51, 31, 2, 8, 0x1234, 0, [0, 0, 0, 0, 0], [95, 88, 77, 73, 95], 107, 640, 0x000E1000, 33, 0x28⟩,
      ?_, ?_⟩ <;> decide +kernel
  obtain ⟨p, hp, hn⟩ := hs
  exact hn (h _ p 0 hp ⟨.inl rfl, ⟨rfl, [], wrongIntermediate.drop 4, rfl, rfl⟩, fun o' h => by omega⟩).1

/-- The same with one more in the intermediate checksum and one less in the checksum. -/
def wrongSum : Bytes :=
  [95, 83, 77, 95, 50, 31, 2, 8, 52, 18, 0, 0, 0, 0, 0, 0, 95, 68, 77, 73, 95, 128, 128, 2, 0, 16,
   14, 0, 33, 0, 40]

/-- C96: neither is the intermediate sum checked. -/
theorem C96_sum_false : ∃ p, EntryPoint.search wrongSum = .ok (.V2 p) ∧ p.dmi_signature = ascii "_DMI_" ∧
    FirstAnchor wrongSum 0 fmtV2 ∧ byteSum (bytesAt wrongSum 0x10 15) ≠ 0 := by
  refine ⟨⟨0x5F4D535F, 50, 31, 2, 8, 0x1234, 0, [0, 0, 0, 0, 0], [95, 68, 77, 73, 95], 128, 640, 0x000E1000, 33, 0x28⟩,
    ?_, ?_, ?_, ?_⟩
  · decide +kernel
  · decide +kernel
  · exact ⟨.inl rfl, ⟨rfl, [], wrongSum.drop 4, rfl, rfl⟩, fun o' h => by omega⟩
  · decide +kernel

/-- An entry point that is accepted and has both. -/
example : (∃ p, EntryPoint.search goodIntermediate = .ok (.V2 p)) ∧ FirstAnchor goodIntermediate 0 fmtV2 ∧
    byteSum (bytesAt goodIntermediate 0x10 15) = 0 ∧ OccursAt goodIntermediate 0x10 (ascii "_DMI_") := by
  refine ⟨⟨⟨0x5F4D535F, 51, 31, 2, 8, 0x1234, 0, [0, 0, 0, 0, 0], [95, 68, 77, 73, 95], 127, 640, 0x000E1000, 33, 0x28⟩,
    ?_⟩, ⟨.inl rfl, ⟨rfl, [], goodIntermediate.drop 4, rfl, rfl⟩, fun o' h => by omega⟩, ?_,
    goodIntermediate.take 16, goodIntermediate.drop 21, ?_, ?_⟩ <;> decide +kernel

end Dmi.Props
