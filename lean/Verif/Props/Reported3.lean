import Verif.Props.Reported2
import Verif.Props.EventLog
import Verif.Props.Battery
import Verif.Props.Language
import Verif.Props.Slots
import Verif.Props.Enclosure
/-!
# C82: exactly which values are reported, structures with lists
-/
namespace Dmi.Props
open Spec

theorem bytesAt_append (a b c : Bytes) : bytesAt (a ++ b ++ c) a.length b.length = b := by
  rw [← take_eq_bytesAt _ _ _ (by simp)]
  simp

section EventLog
open system_event_log

/-- The access methods: the numbered ones leave 05h to 7Fh for later and 80h and above for vendors. -/
def MethodValue : AccessMethod → Prop
  | .Available m _ => 5 ≤ m.toNat ∧ m.toNat < 128
  | .OemSpecific m _ => 128 ≤ m.toNat
  | _ => True

theorem le16_pair (w : UInt16) : le16 [w.toUInt8, (w >>> 8).toUInt8] = w := by
  apply UInt16.toNat.inj
  have := w.toNat_lt
  simp only [le16, leNat, UInt16.toNat_ofNat', UInt16.toNat_toUInt8, UInt16.toNat_shiftRight]
  simp only [show (8 : UInt16).toNat % 16 = 8 from rfl, Nat.shiftRight_eq_div_pow]
  omega

theorem address_bytes (a b c : UInt8) : ∃ w : UInt32, w.toUInt8 = a ∧ (w >>> 8).toUInt8 = b ∧
    (w >>> 16).toUInt8 = c := by
  have ha := a.toNat_lt
  have hb := b.toNat_lt
  have hc := c.toNat_lt
  have hw : (UInt32.ofNat (a.toNat + 256 * b.toNat + 65536 * c.toNat)).toNat =
      a.toNat + 256 * b.toNat + 65536 * c.toNat := by
    rw [UInt32.toNat_ofNat']; omega
  refine ⟨.ofNat (a.toNat + 256 * b.toNat + 65536 * c.toNat), ?_, ?_, ?_⟩ <;>
    apply UInt8.toNat.inj <;>
    simp only [UInt32.toNat_toUInt8, UInt32.toNat_shiftRight, hw, Nat.shiftRight_eq_div_pow,
      show (8 : UInt32).toNat % 32 = 8 from rfl, show (16 : UInt32).toNat % 32 = 16 from rfl] <;>
    omega

theorem method_iff (x : AccessMethod) : MethodValue x ↔ ∃ m a, AccessMethod.new m a = x := by
  constructor
  · intro h
    cases x with
    | IndexedIoOne8bitIndexOne8bitData i d =>
      obtain ⟨w, h1, -, h3⟩ := address_bytes i 0 d
      exact ⟨0, w, by unfold AccessMethod.new; rw [if_pos rfl, h1, h3]⟩
    | IndexedIoTwo8bitIndexOne8bitData i j d =>
      obtain ⟨w, h1, h2, h3⟩ := address_bytes i j d
      exact ⟨1, w, by unfold AccessMethod.new; rw [if_neg (by decide), if_pos rfl, h1, h2, h3]⟩
    | IndexedIoOne16bitIndexOne8bitData i d =>
      obtain ⟨w, h1, h2, h3⟩ := address_bytes i.toUInt8 (i >>> 8).toUInt8 d
      exact ⟨2, w, by
        unfold AccessMethod.new
        rw [if_neg (by decide), if_neg (by decide), if_pos rfl, h1, h2, h3, le16_pair]⟩
    | MemoryMappedPhysicaAddress a => exact ⟨3, a, rfl⟩
    | GeneralPurposeNonVolatileData g =>
      obtain ⟨w, h1, h2, -⟩ := address_bytes g.toUInt8 (g >>> 8).toUInt8 0
      exact ⟨4, w, by
        unfold AccessMethod.new
        rw [if_neg (by decide), if_neg (by decide), if_neg (by decide), if_neg (by decide),
          if_pos rfl, h1, h2, le16_pair]⟩
    | Available m a =>
      obtain ⟨h5, h128⟩ := h
      have hne : ∀ k : UInt8, k.toNat < 5 → m ≠ k := fun k hk e => by rw [e] at h5; omega
      refine ⟨m, a, ?_⟩
      unfold AccessMethod.new
      rw [if_neg (hne 0 (by decide)), if_neg (hne 1 (by decide)), if_neg (hne 2 (by decide)),
        if_neg (hne 3 (by decide)), if_neg (hne 4 (by decide)), if_neg]
      rw [UInt8.le_iff_toNat_le]
      show ¬ 128 ≤ m.toNat
      omega
    | OemSpecific m a =>
      have h128 : 128 ≤ m.toNat := h
      have hne : ∀ k : UInt8, k.toNat < 5 → m ≠ k := fun k hk e => by rw [e] at h128; omega
      refine ⟨m, a, ?_⟩
      unfold AccessMethod.new
      rw [if_neg (hne 0 (by decide)), if_neg (hne 1 (by decide)), if_neg (hne 2 (by decide)),
        if_neg (hne 3 (by decide)), if_neg (hne 4 (by decide)), if_pos]
      rw [UInt8.le_iff_toNat_le]
      exact h128
  · rintro ⟨m, a, rfl⟩
    have key : ∀ m : UInt8, (m ≠ 0 ∧ m ≠ 1 ∧ m ≠ 2 ∧ m ≠ 3 ∧ m ≠ 4 → 5 ≤ m.toNat) ∧
        (0x80 ≤ m ↔ 128 ≤ m.toNat) := forall_u8 (by decide +kernel)
    unfold AccessMethod.new
    simp only
    repeat' split
    all_goals first | trivial | skip
    · refine ⟨(key m).1 ⟨‹_›, ‹_›, ‹_›, ‹_›, ‹_›⟩, ?_⟩
      rename_i h
      rw [(key m).2] at h
      omega

/-- The values of type 15 reported for tables of version `ver`. Descriptors are kept as the bytes
of the list and the length of each. -/
structure EventLogValue (ver : SmbiosVersion) (v : SystemEventLog) : Prop where
  access_method : MethodValue v.access_method
  log_header_format : ∀ a, v.log_header_format = some a → Coded LogHeaderFormat.ofU8 a
  descriptors : ∀ d, v.supported_event_log_type_descriptors = some d →
    0 < d.chunks.size ∧ d.chunks.size < 256 ∧ d.chunks.size ∣ d.chunks.rest.length ∧
    0x17 + d.chunks.rest.length < 256 ∧ v.log_header_format.isSome = true
  version20 : ver = ⟨2, 0⟩ →
    v.log_header_format = none ∧ v.supported_event_log_type_descriptors = none
  since21 : From ver 2 1 →
    v.log_header_format.isSome = true ∧ v.supported_event_log_type_descriptors.isSome = true

/-- C82: exactly these event log values are reported. -/
theorem C82_event_log (oc : Bool) (ver : SmbiosVersion) (v : SystemEventLog) :
    ReportedAt oc ver (.SystemEventLog v) ↔ EventLogValue ver v := by
  rw [reported_iff (dec := SystemEventLog.try_from oc) (info := .SystemEventLog)]
  · constructor
    · rintro ⟨p, hp, -, h⟩
      have hl : EventLogLength (p.raw ver) := by
        refine ⟨fun hv => ?_, fun hv => ?_⟩
        · refine Decidable.not_not.mp fun hn => ?_
          rw [(C45_rejects oc _).1 hv hn] at h; cases h
        · have h17 : Fits (p.raw ver) 0x17 := by
            refine Decidable.not_not.mp fun hn => ?_
            rw [(C45_rejects oc _).2.1 hv hn] at h; cases h
          refine ⟨h17, Decidable.not_not.mp fun hn => ?_⟩
          rw [(C45_rejects oc _).2.2.1 hv h17 hn] at h; cases h
      have hf : Fits (p.raw ver) 0x14 := by
        refine Decidable.not_not.mp fun hn => ?_
        rw [(C45_rejects oc _).2.2.2 hl hn] at h; cases h
      have h0 : Fits (p.raw ver) 0x17 → descriptorLength (p.raw ver) ≠ 0 := fun h17 e => by
        rw [C45_panics oc _ hl h17 e] at h; cases h
      have F := (C45_decodes oc _ hl hf h0 v).mp h
      have hlen : p.data.length + 4 < 256 := hp.1
      refine ⟨(method_iff _).mpr ⟨_, _, F.access_method.symm⟩,
        when_imp F.log_header_format fun a _ ha => ⟨_, ha.symm⟩,
        when_imp F.descriptors fun d hd e => ?_, fun hv => ?_, fun hv => ?_⟩
      · subst e
        have hb : (bytesAt (p.raw ver).data 0x13 (descriptorCount (p.raw ver) *
          descriptorLength (p.raw ver))).length = descriptorCount (p.raw ver) *
          descriptorLength (p.raw ver) := by simp [bytesAt]
        refine ⟨Nat.pos_of_ne_zero (h0 hd.1), UInt8.toNat_lt _, ?_, ?_, ?_⟩
        · rw [hb]; exact Nat.dvd_mul_left _ _
        · rw [hb]
          have := hd.2
          unfold Fits at this
          exact Nat.lt_of_le_of_lt this hlen
        · exact (when_isSome F.log_header_format).mpr (fits_mono hd.1 (by decide))
      · have e := hl.1 hv
        rw [when_none F.log_header_format, when_none F.descriptors]
        unfold HasDescriptors Fits
        rw [e]
        exact ⟨by decide, fun h => absurd h.1 (by decide)⟩
      · have e := hl.2 hv
        rw [when_isSome F.log_header_format, when_isSome F.descriptors]
        exact ⟨fits_mono e.1 (by decide), e.1, Nat.le_of_eq e.2.symm⟩
    · intro V
      obtain ⟨m, a, hm⟩ := (method_iff _).mp V.access_method
      let base := enc16 v.log_area_length ++ (enc16 v.log_header_start_offset ++
        (enc16 v.log_data_start_offset ++ ([m, v.log_status.bits] ++
        (enc32 v.log_change_token ++ enc32 a))))
      have lb : base.length = 16 := rfl
      have build : ∀ d : Bytes, d.length < 236 →
          EventLogLength (Piece.raw ⟨15, v.handle, base ++ d, [0, 0]⟩ ver) →
          (Fits (Piece.raw ⟨15, v.handle, base ++ d, [0, 0]⟩ ver) 0x17 →
            descriptorLength (Piece.raw ⟨15, v.handle, base ++ d, [0, 0]⟩ ver) ≠ 0) →
          When (Fits (Piece.raw ⟨15, v.handle, base ++ d, [0, 0]⟩ ver) 0x15) v.log_header_format
            (· = LogHeaderFormat.ofU8
              (byte (Piece.raw ⟨15, v.handle, base ++ d, [0, 0]⟩ ver) 0x14)) →
          When (HasDescriptors (Piece.raw ⟨15, v.handle, base ++ d, [0, 0]⟩ ver))
            v.supported_event_log_type_descriptors
            (· = ⟨⟨bytesAt (base ++ d) 0x13
              (descriptorCount (Piece.raw ⟨15, v.handle, base ++ d, [0, 0]⟩ ver) *
                descriptorLength (Piece.raw ⟨15, v.handle, base ++ d, [0, 0]⟩ ver)),
              descriptorLength (Piece.raw ⟨15, v.handle, base ++ d, [0, 0]⟩ ver)⟩⟩) →
          ∃ p : Piece, p.WF ∧ InfoType.ofU8 p.kind = .SystemEventLog ∧
            SystemEventLog.try_from oc (p.raw ver) = .ok v := by
        intro d hd hl h0 h1 h2
        refine ⟨⟨15, v.handle, base ++ d, [0, 0]⟩, ⟨?_, ends_nil⟩, rfl,
          (C45_decodes oc _ hl ?_ h0 v).mpr ?_⟩
        · show (base ++ d).length + 4 < 256
          rw [List.length_append]; omega
        · show 0x14 ≤ (base ++ d).length + 4
          rw [List.length_append]; omega
        · refine ⟨rfl, (u16At_enc _).symm, (u16At_enc _).symm, (u16At_enc _).symm, ?_, rfl,
            (u32At_enc _).symm, h1, h2⟩
          rw [← hm]
          have e : dword (Piece.raw ⟨15, v.handle, base ++ d, [0, 0]⟩ ver) 0x10 = a := u32At_enc _
          rw [e]
          rfl
      cases e2 : v.supported_event_log_type_descriptors with
      | none =>
        have n21 : ¬ From ver 2 1 := fun h => by
          have := (V.since21 h).2; rw [e2] at this; cases this
        cases e1 : v.log_header_format with
        | none =>
          refine build [] (by decide) ⟨fun _ => rfl, fun h => absurd h n21⟩
            (fun h => absurd (show 0x17 ≤ 20 from h) (by decide)) ?_ ?_
          · rw [e1]
            exact Or.inr ⟨fun h => absurd (show 0x15 ≤ 20 from h) (by decide), rfl⟩
          · rw [e2]
            exact Or.inr ⟨fun h => absurd (show 0x17 ≤ 20 from h.1) (by decide), rfl⟩
        | some x =>
          have n20 : ver ≠ ⟨2, 0⟩ := fun h => by
            have := (V.version20 h).1; rw [e1] at this; cases this
          obtain ⟨b, hb⟩ := V.log_header_format x e1
          refine build [b] (by len_ok) ⟨fun h => absurd h n20, fun h => absurd h n21⟩
            (fun h => absurd (show 0x17 ≤ 21 from h) (by decide)) ?_ ?_
          · rw [e1]
            exact Or.inl ⟨Nat.le_refl 21, x, rfl, hb.symm⟩
          · rw [e2]
            exact Or.inr ⟨fun h => absurd (show 0x17 ≤ 21 from h.1) (by decide), rfl⟩
      | some x =>
        obtain ⟨⟨rest, size⟩⟩ := x
        obtain ⟨h0, h256, ⟨k, hk⟩, hlt, hs⟩ := V.descriptors _ e2
        simp only at h0 h256 hk hlt
        obtain ⟨f, hf⟩ := Option.isSome_iff_exists.mp hs
        obtain ⟨b, hb⟩ := V.log_header_format f hf
        have n20 : ver ≠ ⟨2, 0⟩ := fun h => by
          have := (V.version20 h).2; rw [e2] at this; cases this
        have hk256 : k < 256 := by
          have : 1 * k ≤ size * k := Nat.mul_le_mul_right k h0
          omega
        let s := Piece.raw ⟨15, v.handle, base ++ ([b, .ofNat k, .ofNat size] ++ rest), [0, 0]⟩ ver
        have hc : descriptorCount s = k := by
          show (UInt8.ofNat k).toNat = k
          rw [UInt8.toNat_ofNat']; omega
        have hz : descriptorLength s = size := by
          show (UInt8.ofNat size).toNat = size
          rw [UInt8.toNat_ofNat']; omega
        have hsz : s.data.length + 4 = 0x17 + rest.length := by
          show (base ++ ([b, .ofNat k, .ofNat size] ++ rest)).length + 4 = _
          rw [List.length_append (as := base), lb, List.length_append]
          show 16 + (3 + rest.length) + 4 = _
          omega
        have hprod : k * size = rest.length := by rw [hk, Nat.mul_comm]
        refine build ([b, .ofNat k, .ofNat size] ++ rest) ?_
          ⟨fun h => absurd h n20, fun _ => ⟨?_, ?_⟩⟩ (fun _ => ?_) ?_ ?_
        · rw [List.length_append]
          show 3 + rest.length < 236
          omega
        · show 0x17 ≤ s.data.length + 4
          omega
        · show s.data.length + 4 = 0x17 + descriptorCount s * descriptorLength s
          rw [hc, hz, hsz, hprod]
        · show descriptorLength s ≠ 0
          rw [hz]; omega
        · rw [hf]
          refine Or.inl ⟨?_, f, rfl, hb.symm⟩
          show 0x15 ≤ s.data.length + 4
          omega
        · rw [e2]
          refine Or.inl ⟨⟨?_, ?_⟩, _, rfl, ?_⟩
          · show 0x17 ≤ s.data.length + 4
            omega
          · show 0x17 + descriptorCount s * descriptorLength s ≤ s.data.length + 4
            rw [hc, hz, hsz, hprod]
            exact Nat.le_refl _
          · show _ = (⟨⟨bytesAt (base ++ ([b, .ofNat k, .ofNat size] ++ rest)) 0x13
              (descriptorCount s * descriptorLength s), descriptorLength s⟩⟩ : SupportedEventLogTypeDescriptors)
            rw [hc, hz, hprod]
            have := bytesAt_append (base ++ [b, .ofNat k, .ofNat size]) rest []
            rw [List.append_nil, List.append_assoc] at this
            rw [show (0x13 : Nat) = (base ++ [b, .ofNat k, .ofNat size]).length from rfl, this]
  dispatch_ok

example : ∃ v, EventLogValue ⟨3, 4⟩ v :=
  some_reported (f := .SystemEventLog) 15 (List.replicate 18 0 ++ [2]) (by decide)
    (fun | .SystemEventLog v => some v | _ => none)
    (by intro x v h; cases x <;> cases h; rfl)
    (fun v => (C82_event_log _ _ v).1)
    (by decide +kernel)

end EventLog

section Oem
open oem_strings system_configuration_options

/-- C82: OEM strings are reported as any string area. -/
theorem C82_oem_strings (oc : Bool) (ver : SmbiosVersion) (v : OemStrings) :
    ReportedAt oc ver (.OemStrings v) ↔ ∃ area, EndsAtFirstNulNul area ∧ v.strings = .new area := by
  rw [reported_iff (dec := OemStrings.try_from) (info := .OemStrings)]
  · constructor
    · rintro ⟨p, hp, -, h⟩
      rw [← Res.ok.inj h]
      exact ⟨p.strings, hp.2, rfl⟩
    · rintro ⟨area, ha, hv⟩
      refine ⟨⟨11, v.handle, [], area⟩, ⟨by len_ok, ha⟩, rfl, ?_⟩
      show Res.ok (⟨v.handle, .new area⟩ : OemStrings) = _
      rw [← hv]
  dispatch_ok

example : ReportedAt false ⟨3, 4⟩ (.OemStrings ⟨7, .new [0x41, 0, 0]⟩) :=
  (C82_oem_strings _ _ _).2 ⟨_, ends_cons (by decide) ends_nil, rfl⟩

/-- C82: Configuration options are reported as any string area with fewer than 256 strings. -/
theorem C82_options (oc : Bool) (ver : SmbiosVersion) (v : SystemConfigurationOptions) :
    ReportedAt oc ver (.SystemConfigurationOptions v) ↔ ∃ area l, EndsAtFirstNulNul area ∧
      IsStringList area l ∧ l.length < 256 ∧ v.strings = .new area := by
  rw [reported_iff (dec := SystemConfigurationOptions.try_from oc)
    (info := .SystemConfigurationOptions)]
  · have eval : ∀ s : RawStructure, Fits s 5 → ∀ l, IsStringList s.strings l →
        (byte s 4).toNat = l.length →
        SystemConfigurationOptions.try_from oc s = .ok ⟨s.handle, .new s.strings⟩ := by
      intro s h l hl he
      have hc : s.stringsIter.count = l.length := by
        obtain ⟨-, h2⟩ := C20_strings_total s.strings
        unfold StructureStrings.count RawStructure.stringsIter
        rw [isStringList_unique h2 hl]
      unfold SystemConfigurationOptions.try_from
      rw [get8_ok oc h (by decide) (by decide) (by decide), ok_bind]
      simp only [hc]
      rw [if_neg (by simpa using he)]
      rfl
    constructor
    · rintro ⟨p, hp, -, h⟩
      have hf : Fits (p.raw ver) 5 := by
        refine Decidable.not_not.mp fun hn => ?_
        rw [C42_options_short oc _ hn] at h; cases h
      have hl := (C20_strings_total (p.raw ver).strings).2
      have he : (byte (p.raw ver) 4).toNat = (StructureStrings.new (p.raw ver).strings).collect.length := by
        refine Decidable.not_not.mp fun hn => ?_
        rw [(C42_options oc _ _ hl hf).2 hn] at h; cases h
      rw [eval _ hf _ hl he] at h
      rw [← Res.ok.inj h]
      exact ⟨p.strings, _, hp.2, hl, he ▸ UInt8.toNat_lt _, rfl⟩
    · rintro ⟨area, l, ha, hl, h256, hv⟩
      refine ⟨⟨12, v.handle, [.ofNat l.length], area⟩, ⟨by len_ok, ha⟩, rfl, ?_⟩
      rw [eval _ (by len_ok) l hl]
      · show Res.ok (⟨v.handle, .new area⟩ : SystemConfigurationOptions) = _
        rw [← hv]
      · show (UInt8.ofNat l.length).toNat = l.length
        rw [UInt8.toNat_ofNat']; omega
  dispatch_ok

example : ∃ v, ReportedAt false ⟨3, 4⟩ (.SystemConfigurationOptions v) :=
  some_reported (f := .SystemConfigurationOptions) 12 [0] (by decide)
    (fun | .SystemConfigurationOptions v => some v | _ => none)
    (by intro x v h; cases x <;> cases h; rfl) (fun _ h => h) (by decide +kernel)

end Oem

section Group
open group_associations

/-- C82: Group associations are reported with any name and any item bytes that fit. -/
theorem C82_group (oc : Bool) (ver : SmbiosVersion) (v : GroupAssociations) :
    ReportedAt oc ver (.GroupAssociations v) ↔
      Storable v.group_name ∧ v.items.index = 0 ∧ v.items.data.length < 251 := by
  rw [reported_iff (dec := GroupAssociations.try_from oc) (info := .GroupAssociations)]
  · have eval : ∀ s : RawStructure, Coherent s → Fits s 5 → GroupAssociations.try_from oc s = (do
        let name ← s.find_string (byte s 4)
        pure ⟨s.handle, name, .new (bytesAt s.data 1 (s.length.toNat - 5))⟩) := by
      intro s hc h
      have hlen := (Coherent.fits_iff hc 5).1 h
      have hlt := s.length.toNat_lt
      have hc' : s.data.length + 4 = s.length.toNat := hc
      have hsub : (subUsize oc s.length.toNat 5 : R Nat) = .ok (s.length.toNat - 5) := by
        unfold subUsize; rw [if_pos hlen]
      unfold GroupAssociations.try_from
      rw [hsub, ok_bind, get_slice_ge oc s 5 _ (by decide) (by omega), if_pos (by omega),
        get_string_ok oc h (by decide) (by decide) (by decide)]
      rfl
    constructor
    · rintro ⟨p, hp, -, h⟩
      have hc := written_coherent ver hp
      have hf : Fits (p.raw ver) 5 := by
        refine Decidable.not_not.mp fun hn => ?_
        rw [C44_short oc _ hc hn] at h
        cases oc <;> cases h
      rw [eval _ hc hf] at h
      simp only [bind_ok_iff, pure_eq_ok, Res.ok.injEq] at h
      obtain ⟨name, hn, rfl⟩ := h
      refine ⟨storable_of_ref (ref_iff.mpr hn), rfl, ?_⟩
      show (bytesAt _ 1 _).length < 251
      have := (p.raw ver).length.toNat_lt
      simp only [bytesAt, List.length_map, List.length_range]
      omega
    · rintro ⟨hs, hi, hl⟩
      have hts : ∀ t ∈ [v.group_name], Storable t := by simp [hs]
      let p : Piece := ⟨14, v.handle, refTo 1 v.group_name :: v.items.data, textArea [v.group_name]⟩
      have hp : p.WF := ⟨by show v.items.data.length + 1 + 4 < 256; omega, textArea_ends hts⟩
      have hc := written_coherent ver hp
      refine ⟨p, hp, rfl, ?_⟩
      rw [eval _ hc (by show 5 ≤ v.items.data.length + 1 + 4; omega)]
      have hr : (p.raw ver).find_string (byte (p.raw ver) 4) = .ok v.group_name :=
        ref_iff.mp (textArea_ref hts 0 rfl (by decide))
      rw [hr, ok_bind]
      have hc' : v.items.data.length + 1 + 4 = (p.raw ver).length.toNat := hc
      rw [show (p.raw ver).length.toNat - 5 = v.items.data.length by omega]
      have hb : bytesAt (p.raw ver).data 1 v.items.data.length = v.items.data := by
        have := bytesAt_append [refTo 1 v.group_name] v.items.data []
        rw [List.append_nil] at this
        exact this
      rw [hb]
      obtain ⟨handle, name, ⟨data, index⟩⟩ := v
      simp only at hi
      subst hi
      rfl
  dispatch_ok

example : ReportedAt false ⟨3, 4⟩ (.GroupAssociations ⟨7, [], ⟨[1, 2, 3], 0⟩⟩) :=
  (C82_group _ _ _).2 ⟨.inl rfl, rfl, by decide⟩

/-- Associations that have been iterated over are no decoded value. -/
example : ¬ ReportedAt false ⟨3, 4⟩ (.GroupAssociations ⟨7, [], ⟨[1, 2, 3], 1⟩⟩) := fun h =>
  absurd ((C82_group _ _ _).1 h).2.1 (by decide)

end Group

section Language
open bios_language

/-- C82: BIOS languages are reported with the structure itself as the list of languages. -/
theorem C82_language (oc : Bool) (ver : SmbiosVersion) (v : BiosLanguage) :
    ReportedAt oc ver (.BiosLanguage v) ↔ ∃ p : Piece, p.WF ∧ InfoType.ofU8 p.kind = .BiosLanguage ∧
      (if From ver 2 1 then 0x16 else 0x15) ≤ p.len ∧ v.handle = p.handle ∧
      v.installable_languages = ⟨p.raw ver, 1⟩ ∧
      v.flags = (if From ver 2 1 then some ⟨byteAt p.data 1⟩ else none) ∧
      v.current_language = byteAt p.data (if From ver 2 1 then 17 else 16) := by
  rw [reported_iff (dec := BiosLanguage.try_from) (info := .BiosLanguage)]
  · refine exists_congr fun p => and_congr_right fun hp => and_congr_right fun hk => ?_
    have hlen : ∀ n, Fits (p.raw ver) n ↔ n ≤ p.len := fun n => Iff.rfl
    have e : languageLength (p.raw ver) = if From ver 2 1 then 0x16 else 0x15 := rfl
    rw [← e]
    constructor
    · intro h
      have hf : Fits (p.raw ver) (languageLength (p.raw ver)) := by
        refine Decidable.not_not.mp fun hn => ?_
        rw [C43_short _ hn] at h; cases h
      obtain ⟨v', hv', F⟩ := C43_decodes _ hf
      rw [h] at hv'
      cases hv'
      refine ⟨hf, F.handle, F.installable_languages, ?_, ?_⟩
      · by_cases hv : From ver 2 1
        · rw [if_pos hv]
          obtain ⟨a, ha, rfl⟩ := (when_pos hv).mp F.flags
          exact ha
        · rw [if_neg hv]
          exact (when_neg hv).mp F.flags
      · by_cases hv : From ver 2 1
        · rw [if_pos hv, F.current_language, if_pos (show Since (p.raw ver) 2 1 from hv)]; rfl
        · rw [if_neg hv, F.current_language, if_neg (show ¬ Since (p.raw ver) 2 1 from hv)]; rfl
    · rintro ⟨hf, h1, h2, h3, h4⟩
      obtain ⟨v', hv', F⟩ := C43_decodes _ hf
      rw [hv']
      congr 1
      obtain ⟨hh, il, fl, cl⟩ := v
      obtain ⟨hh', il', fl', cl'⟩ := v'
      simp only at h1 h2 h3 h4
      have f1 := F.handle
      have f2 := F.installable_languages
      have f3 := F.flags
      have f4 := F.current_language
      simp only at f1 f2 f3 f4
      have g3 : fl' = fl := by
        rw [h3]
        by_cases hv : From ver 2 1
        · rw [if_pos hv]
          obtain ⟨a, ha, rfl⟩ := (when_pos hv).mp f3
          exact ha
        · rw [if_neg hv]
          exact (when_neg hv).mp f3
      have g4 : cl' = cl := by
        rw [h4, f4]
        by_cases hv : From ver 2 1
        · rw [if_pos hv, if_pos (show Since (p.raw ver) 2 1 from hv)]; rfl
        · rw [if_neg hv, if_neg (show ¬ Since (p.raw ver) 2 1 from hv)]; rfl
      rw [f1, f2, g3, g4, h1, h2]
      rfl
  dispatch_ok

example : ∃ v, ReportedAt false ⟨3, 4⟩ (.BiosLanguage v) :=
  some_reported (f := .BiosLanguage) 13 (List.replicate 18 0) (by decide)
    (fun | .BiosLanguage v => some v | _ => none)
    (by intro x v h; cases x <;> cases h; rfl) (fun _ h => h) (by decide +kernel)

end Language

section Battery
open portable_battery

/-- The values of type 22 reported for structures of length `n`. -/
structure BatteryValue (n : Nat) (v : PortableBattery) : Prop where
  location : Storable v.location
  manufacturer : Storable v.manufacturer
  manufacture_date : match v.manufacture_date with
    | .Basic x => GoodStr x
    | .SmartBatteryDataSpecification y m d =>
      0x14 ≤ n ∧ 1980 ≤ y.toNat ∧ y.toNat < 2108 ∧ m.toNat < 16 ∧ d.toNat < 32
    | .None => n < 0x14
  serial_number : match v.serial_number with
    | .Basic x => GoodStr x
    | .SmartBatteryDataSpecification _ => 0x12 ≤ n
    | .None => n < 0x12
  device_name : Storable v.device_name
  device_chemistry : match v.device_chemistry with
    | .SmartBatteryDataSpecification x => 0x15 ≤ n ∧ Storable x
    | .Undefined b => b = 0 ∨ 8 < b.toNat
    | _ => True
  design_capacity : match v.design_capacity with
    | .Unknown => True
    | .Data w m => w ≠ 0 ∧ (n < 0x16 → m = 1)
  sbds_version_number : Storable v.sbds_version_number
  oem_specific : Present (0x1A ≤ n) Any v.oem_specific

theorem named_good {s : RawStructure} {o : Nat} {x : Str} (h : Named s o x) : GoodStr x := by
  rcases h.2 with ⟨h0, -⟩ | ⟨-, l, rest, hl, -, hlast⟩
  · exact absurd (UInt8.toNat.inj h0) h.1
  · exact hl.2 x (List.mem_of_getLast? hlast)

theorem chemistry_code : ∀ b : UInt8, b ≠ 2 →
    (match ((chemistries.lookup b.toNat).getD (.Undefined b)) with
    | .SmartBatteryDataSpecification _ => False
    | .Undefined b => b = 0 ∨ 8 < b.toNat
    | _ => True) := by
  have : ∀ b : UInt8, (match (chemistries.lookup b.toNat) with
    | some (.SmartBatteryDataSpecification _) => false
    | some (.Undefined _) => false
    | some _ => true
    | none => decide (b = 2 ∨ b = 0 ∨ 8 < b.toNat)) = true := forall_u8 (by decide +kernel)
  intro b hb
  have h := this b
  cases e : chemistries.lookup b.toNat with
  | none => rw [e] at h; exact (of_decide_eq_true h).resolve_left hb
  | some c =>
    rw [e] at h
    cases c <;> first | trivial | cases h

theorem chemistry_stored (c : DeviceChemistry) (h : match c with
    | .SmartBatteryDataSpecification _ => False
    | .Undefined b => b = 0 ∨ 8 < b.toNat
    | .Unknown => False
    | _ => True) : ∃ b : UInt8, b ≠ 2 ∧ c = (chemistries.lookup b.toNat).getD (.Undefined b) := by
  cases c with
  | Other => exact ⟨1, by decide, rfl⟩
  | Unknown => exact h.elim
  | LeadAcid => exact ⟨3, by decide, rfl⟩
  | NickelCadmium => exact ⟨4, by decide, rfl⟩
  | NickelMetalHydride => exact ⟨5, by decide, rfl⟩
  | LithiumIon => exact ⟨6, by decide, rfl⟩
  | ZincAir => exact ⟨7, by decide, rfl⟩
  | LithiumPolymer => exact ⟨8, by decide, rfl⟩
  | SmartBatteryDataSpecification x => exact h.elim
  | Undefined b =>
    have key : ∀ b : UInt8, b = 0 ∨ 8 < b.toNat → b ≠ 2 ∧ chemistries.lookup b.toNat = none :=
      forall_u8 (by decide +kernel)
    obtain ⟨h1, h2⟩ := key b h
    exact ⟨b, h1, by rw [h2]; rfl⟩

theorem cut_length {kind : UInt8} {handle : UInt16} {d strings : Bytes} {n : Nat}
    (ver : SmbiosVersion) (hn : 4 ≤ n) (hd : n ≤ d.length + 4) :
    ((cut kind handle d strings n).raw ver).length = .ofNat n := by
  show UInt8.ofNat ((d.take (n - 4)).length + 4) = _
  rw [List.length_take]
  congr 1
  omega

theorem length_value {p : Piece} (hp : p.WF) {ver : SmbiosVersion} {b : UInt8}
    (h : (p.raw ver).length = b) : p.len = b.toNat := by
  rw [← h]
  exact written_coherent ver hp

set_option maxHeartbeats 1000000 in
/-- C82: exactly these battery values are reported. -/
theorem C82_battery (oc : Bool) (ver : SmbiosVersion) (v : PortableBattery) :
    ReportedAt oc ver (.PortableBattery v) ↔ ∃ n, 0x10 ≤ n ∧ n < 256 ∧ (ver = ⟨2, 1⟩ → n = 0x10) ∧
      (From ver 2 2 → n = 0x1A) ∧ BatteryValue n v := by
  rw [reported_iff (dec := PortableBattery.try_from oc) (info := .PortableBattery)]
  · constructor
    · rintro ⟨p, hp, -, h⟩
      have hl : BatteryLength (p.raw ver) := by
        refine ⟨fun hv => ?_, fun hv => ?_⟩ <;> refine Decidable.not_not.mp fun hn => ?_
        · rw [(C52_rejects oc _).1 hv hn] at h; cases h
        · rw [(C52_rejects oc _).2.1 hv hn] at h; cases h
      have hf : Fits (p.raw ver) 0x10 := by
        refine Decidable.not_not.mp fun hn => ?_
        obtain ⟨e, he, -⟩ := (C52_rejects oc _).2.2.2 hl hn
        rw [he] at h; cases h
      have F := (C52_decodes oc _ hl hf v).mp h
      refine ⟨p.len, hf, hp.1, fun hv => length_value hp (hl.1 hv), fun hv => length_value hp (hl.2 hv),
        storable_of_ref F.location, storable_of_ref F.manufacturer, ?_, ?_,
        storable_of_ref F.device_name, ?_, ?_, storable_of_ref F.sbds_version_number,
        present_of_when F.oem_specific fun _ _ => trivial⟩
      · rcases F.manufacture_date with ⟨x, hx, e⟩ | ⟨-, h14, y, m, d, e, hy, hm, hd⟩ | ⟨-, h14, e⟩
        · rw [e]; exact named_good hx
        · rw [e]
          have := (word (p.raw ver) 0x12).toNat_lt
          exact ⟨h14, by omega, by omega, by omega, by omega⟩
        · rw [e]; exact Nat.lt_of_not_le h14
      · rcases F.serial_number with ⟨x, hx, e⟩ | ⟨-, h14, e⟩ | ⟨-, h14, e⟩
        · rw [e]; exact named_good hx
        · rw [e]; exact h14
        · rw [e]; exact Nat.lt_of_not_le h14
      · have hc := F.device_chemistry
        unfold ChemistryIs at hc
        split at hc
        · rcases hc with ⟨x, h15, hr, e⟩ | ⟨-, e⟩
          · rw [e]; exact ⟨h15, storable_of_ref hr⟩
          · rw [e]; trivial
        · have := chemistry_code _ ‹_›
          rw [← hc] at this
          cases e : v.device_chemistry <;> rw [e] at this <;> first | exact this.elim | exact this | trivial
      · have hc := F.design_capacity
        unfold CapacityIs at hc
        split at hc
        · rw [hc]; trivial
        · rw [hc]
          refine ⟨‹_›, fun hn => ?_⟩
          rw [if_neg (c := Fits (p.raw ver) 0x16) (fun hf => absurd (show 0x16 ≤ p.len from hf) (by omega))]
    · rintro ⟨n, h10, h256, h21, h22, V⟩
      let date : Bytes := match v.manufacture_date with
        | .Basic x => x
        | _ => []
      let serial : Bytes := match v.serial_number with
        | .Basic x => x
        | _ => []
      let chem : Bytes := match v.device_chemistry with
        | .SmartBatteryDataSpecification x => x
        | _ => []
      let ts := [v.location, v.manufacturer, date, serial, v.device_name, v.sbds_version_number, chem]
      have hts : ∀ t ∈ ts, Storable t := by
        have h1 : Storable date := by
          have := V.manufacture_date
          simp only [date]
          split <;> simp_all [Storable]
        have h2 : Storable serial := by
          have := V.serial_number
          simp only [serial]
          split <;> simp_all [Storable]
        have h3 : Storable chem := by
          have := V.device_chemistry
          simp only [chem]
          split <;> simp_all [Storable]
        simp [ts, V.location, V.manufacturer, h1, h2, V.device_name, V.sbds_version_number, h3]
      obtain ⟨dw, hdw⟩ : ∃ w : UInt16, ∀ y m d,
          v.manufacture_date = .SmartBatteryDataSpecification y m d →
          y.toNat = 1980 + w.toNat / 512 ∧ m.toNat = w.toNat / 32 % 16 ∧ d.toNat = w.toNat % 32 := by
        have := V.manufacture_date
        cases e : v.manufacture_date with
        | None => exact ⟨0, by simp⟩
        | Basic x => exact ⟨0, by simp⟩
        | SmartBatteryDataSpecification y m d =>
          rw [e] at this
          obtain ⟨-, h1, h2, h3, h4⟩ := this
          refine ⟨.ofNat ((y.toNat - 1980) * 512 + m.toNat * 32 + d.toNat), ?_⟩
          intro y' m' d' e'
          cases e'
          rw [UInt16.toNat_ofNat']
          omega
      let sw : UInt16 := match v.serial_number with
        | .SmartBatteryDataSpecification w => w
        | _ => 0
      obtain ⟨cb, hcb⟩ : ∃ b : UInt8, (if b = 2 then
          (∃ x, v.device_chemistry = .SmartBatteryDataSpecification x) ∨ v.device_chemistry = .Unknown
        else v.device_chemistry = (chemistries.lookup b.toNat).getD (.Undefined b)) := by
        have := V.device_chemistry
        cases e : v.device_chemistry with
        | SmartBatteryDataSpecification x => exact ⟨2, by simp⟩
        | Unknown => exact ⟨2, by simp⟩
        | _ =>
          rw [e] at this
          obtain ⟨b, h1, h2⟩ := chemistry_stored v.device_chemistry (by rw [e]; first | trivial | exact this)
          exact ⟨b, by rw [if_neg h1, ← h2, e]⟩
      let cr : UInt8 := match v.device_chemistry with
        | .SmartBatteryDataSpecification x => refTo 7 x
        | _ => 255
      let cw : UInt16 := match v.design_capacity with
        | .Data w _ => w
        | _ => 0
      let cm : UInt8 := match v.design_capacity with
        | .Data _ m => m
        | _ => 1
      let d : Bytes := [refTo 1 v.location, refTo 2 v.manufacturer, refTo 3 date, refTo 4 serial,
        refTo 5 v.device_name, cb] ++ (enc16 cw ++ (enc16 v.design_voltage ++
        ([refTo 6 v.sbds_version_number, v.maximum_error_in_battery_data] ++ (enc16 sw ++ (enc16 dw ++
        ([cr, cm] ++ (enc32 (v.oem_specific.getD 0) ++ List.replicate 230 0)))))))
      have hd : d.length = 252 := by
        simp only [d, List.length_append, List.length_cons, List.length_nil, List.length_replicate,
          enc16_length, enc32_length]
      have hfit := fun k => cut_fits (kind := 22) (handle := v.handle) (d := d)
        (strings := textArea ts) (n := n) ver (by omega) (by omega) k
      have hlen := cut_length (kind := 22) (handle := v.handle) (d := d)
        (strings := textArea ts) (n := n) ver (by omega) (by omega)
      have named : ∀ i o t, 4 ≤ o → o + 1 ≤ 0x10 → ts[i]? = some t → i < 255 →
          byteAt d (o - 4) = refTo (.ofNat (i + 1)) t →
          (GoodStr t → Named ((cut 22 v.handle d (textArea ts) n).raw ver) o t) ∧
          (t = [] → ∀ x, ¬ Named ((cut 22 v.handle d (textArea ts) n).raw ver) o x) := by
        intro i o t h4 ho ht hi hb
        have hb' := cut_byte (kind := 22) (handle := v.handle) (d := d)
          (strings := textArea ts) (n := n) ver h4 (by omega)
        rw [hb] at hb'
        constructor
        · intro hg
          refine ⟨?_, ?_⟩
          · rw [hb']
            unfold refTo
            rw [if_neg hg.1]
            intro e
            have := congrArg UInt8.toNat e
            rw [UInt8.toNat_ofNat'] at this
            simp at this
            omega
          · unfold Ref
            rw [hb']
            exact textArea_ref hts i ht hi
        · intro e x hx
          apply hx.1
          rw [hb', e]
          rfl
      refine ⟨cut 22 v.handle d (textArea ts) n, cut_wf (by omega) (textArea_ends hts) h256, rfl,
        (C52_decodes oc _ ⟨fun hv => ?_, fun hv => ?_⟩ ((hfit _).mpr h10) v).mpr ?_⟩
      · rw [hlen, h21 hv]; rfl
      · rw [hlen, h22 hv]; rfl
      · exact {
          handle := rfl
          location := by
            unfold Ref; rw [cut_byte ver (by decide) (by omega)]
            exact textArea_ref hts 0 rfl (by decide)
          manufacturer := by
            unfold Ref; rw [cut_byte ver (by decide) (by omega)]
            exact textArea_ref hts 1 rfl (by decide)
          manufacture_date := by
            have hn := named 2 0x06 date (by decide) (by decide) rfl (by decide) rfl
            have hv := V.manufacture_date
            unfold DateIs
            cases e : v.manufacture_date with
            | None =>
              rw [e] at hv
              refine Or.inr (Or.inr ⟨hn.2 (by simp only [date, e]), ?_, rfl⟩)
              rw [hfit]; omega
            | Basic x =>
              rw [e] at hv
              have ed : date = x := by simp only [date, e]
              rw [ed] at hn
              exact Or.inl ⟨x, hn.1 hv, rfl⟩
            | SmartBatteryDataSpecification y m day =>
              rw [e] at hv
              refine Or.inr (Or.inl ⟨hn.2 (by simp only [date, e]), (hfit _).mpr hv.1, y, m, day, rfl, ?_⟩)
              have hw : word ((cut 22 v.handle d (textArea ts) n).raw ver) 0x12 = dw := by
                rw [cut_word ver (by decide) hv.1]; exact u16At_enc _
              rw [hw]
              exact hdw y m day e
          serial_number := by
            have hn := named 3 0x07 serial (by decide) (by decide) rfl (by decide) rfl
            have hv := V.serial_number
            unfold SerialIs
            cases e : v.serial_number with
            | None =>
              rw [e] at hv
              refine Or.inr (Or.inr ⟨hn.2 (by simp only [serial, e]), ?_, rfl⟩)
              rw [hfit]; omega
            | Basic x =>
              rw [e] at hv
              have ed : serial = x := by simp only [serial, e]
              rw [ed] at hn
              exact Or.inl ⟨x, hn.1 hv, rfl⟩
            | SmartBatteryDataSpecification w =>
              rw [e] at hv
              refine Or.inr (Or.inl ⟨hn.2 (by simp only [serial, e]), (hfit _).mpr hv, ?_⟩)
              have hw : word ((cut 22 v.handle d (textArea ts) n).raw ver) 0x10 = sw := by
                rw [cut_word ver (by decide) hv]; exact u16At_enc _
              rw [hw]
              simp only [sw, e]
          device_name := by
            unfold Ref; rw [cut_byte ver (by decide) (by omega)]
            exact textArea_ref hts 4 rfl (by decide)
          device_chemistry := by
            have hb : byte ((cut 22 v.handle d (textArea ts) n).raw ver) 0x09 = cb := by
              rw [cut_byte ver (by decide) (by omega)]; rfl
            have hr : 0x15 ≤ n → byte ((cut 22 v.handle d (textArea ts) n).raw ver) 0x14 = cr :=
              fun h => by rw [cut_byte ver (by decide) h]; rfl
            unfold ChemistryIs
            rw [hb]
            split
            · rw [if_pos ‹_›] at hcb
              rcases hcb with ⟨x, e⟩ | e
              · have hv := V.device_chemistry
                rw [e] at hv
                refine Or.inl ⟨x, (hfit _).mpr hv.1, ?_, e⟩
                unfold Ref
                rw [hr hv.1]
                simp only [cr, e]
                exact textArea_ref hts 6 (by simp only [ts, chem, e]; rfl) (by decide)
              · refine Or.inr ⟨fun h => h.2 ?_, e⟩
                refine dangling_of (ts := ts) rfl hts ?_ (by len_ok)
                rw [hr ((hfit _).mp h.1)]
                simp only [cr, e]
            · rw [if_neg ‹_›] at hcb
              exact hcb
          design_capacity := by
            have hw : word ((cut 22 v.handle d (textArea ts) n).raw ver) 0x0A = cw := by
              rw [cut_word ver (by decide) (by omega)]; exact u16At_enc _
            have hv := V.design_capacity
            unfold CapacityIs
            rw [hw]
            cases e : v.design_capacity with
            | Unknown => rw [if_pos (by simp only [cw, e])]
            | Data w m =>
              rw [e] at hv
              have ew : cw = w := by simp only [cw, e]
              rw [ew, if_neg hv.1]
              by_cases h16 : 0x16 ≤ n
              · rw [if_pos ((hfit _).mpr h16), cut_byte ver (by decide) h16]
                have : byteAt d (0x15 - 4) = cm := rfl
                rw [this]
                simp only [cm, e]
              · rw [if_neg (fun h => h16 ((hfit _).mp h)), hv.2 (by omega)]
          design_voltage := by
            rw [cut_word ver (by decide) (by omega)]; exact (u16At_enc _).symm
          sbds_version_number := by
            unfold Ref; rw [cut_byte ver (by decide) (by omega)]
            exact textArea_ref hts 5 rfl (by decide)
          maximum_error_in_battery_data := by rw [cut_byte ver (by decide) (by omega)]; rfl
          oem_specific := when_cut (hfit _) V.oem_specific fun h a ha => by
            rw [cut_dword ver (by decide) h]; exact (getD_of ha).trans (u32At_enc _).symm }
  dispatch_ok

example : ∃ v, ∃ n, n < 256 ∧ BatteryValue n v :=
  some_reported (f := .PortableBattery) 22 (List.replicate 22 0) (by decide)
    (fun | .PortableBattery v => some v | _ => none)
    (by intro x v h; cases x <;> cases h; rfl)
    (fun v h => let ⟨n, _, h, _, _, h'⟩ := (C82_battery _ _ v).1 h; ⟨n, h, h'⟩)
    (by decide +kernel)

end Battery

/-! ### Lists in the middle of a structure -/

theorem byteAt_append (a b : Bytes) (i : Nat) : byteAt (a ++ b) (a.length + i) = byteAt b i := by
  unfold byteAt
  rw [List.getD_eq_getElem?_getD, List.getD_eq_getElem?_getD,
    List.getElem?_append_right (Nat.le_add_right _ _), Nat.add_sub_cancel_left]

theorem leAt_behind (a b : Bytes) : ∀ k i, leAt (a ++ b) (a.length + i) k = leAt b i k
  | 0, _ => rfl
  | k + 1, i => by
    show (byteAt _ _).toNat + 256 * leAt _ (a.length + i + 1) k =
      (byteAt b i).toNat + 256 * leAt b (i + 1) k
    rw [byteAt_append, Nat.add_assoc, leAt_behind a b k (i + 1)]

theorem u16At_append (a b : Bytes) (i : Nat) : u16At (a ++ b) (a.length + i) = u16At b i :=
  congrArg UInt16.ofNat (leAt_behind a b 2 i)

theorem bytesAt_take {d : Bytes} {n o w : Nat} (h : o + w ≤ n) :
    bytesAt (d.take n) o w = bytesAt d o w := by
  unfold bytesAt
  apply List.map_congr_left
  intro i hi
  rw [List.mem_range] at hi
  exact byteAt_take (by omega)

section Slots
open system_slots

/-- The values of type 9 reported for structures of length `n` with `k` peer groups. -/
structure SlotValue (n k : Nat) (v : SystemSlots) : Prop where
  slot_designation : Storable v.slot_designation
  slot_type : Coded SlotType.ofU8 v.slot_type
  slot_data_bus_width : Coded SlotWidth.ofU8 v.slot_data_bus_width
  current_usage : Coded CurrentUsage.ofU8 v.current_usage
  slot_length : Coded SlotLength.ofU8 v.slot_length
  slot_characteristics_2 : Present (0x0D ≤ n) Any v.slot_characteristics_2
  segment_group_number : ∀ a, v.segment_group_number = some a → 0x0F ≤ n ∧ a ≠ 0xFFFF
  bus_number : ∀ a, v.bus_number = some a → 0x10 ≤ n ∧ a ≠ 0xFF
  device_and_function_number : ∀ a, v.device_and_function_number = some a → 0x11 ≤ n ∧
    a.device.toNat < 32 ∧ a.function.toNat < 8 ∧ ¬ (a.device = 31 ∧ a.function = 7)
  data_bus_width : Present (0x12 ≤ n) Any v.data_bus_width
  peer_devices : Present (0x13 + 5 * k ≤ n)
    (fun p => p.chunks.size = 5 ∧ p.chunks.rest.length = 5 * k) v.peer_devices
  slot_information : Present (0x15 + 5 * k ≤ n) Any v.slot_information
  slot_physical_width : Present (0x16 + 5 * k ≤ n) (Coded SlotWidth.ofU8) v.slot_physical_width
  slot_pitch : Present (0x18 + 5 * k ≤ n) Any v.slot_pitch

theorem devFn_stored (x : DeviceAndFunctionNumber) (h1 : x.device.toNat < 32)
    (h2 : x.function.toNat < 8) (h3 : ¬ (x.device = 31 ∧ x.function = 7)) :
    ∃ b : UInt8, b ≠ 0xFF ∧ DevFn b x := by
  refine ⟨.ofNat (8 * x.device.toNat + x.function.toNat), ?_, ?_⟩
  · intro e
    have := congrArg UInt8.toNat e
    rw [UInt8.toNat_ofNat'] at this
    have e255 : (0xFF : UInt8).toNat = 255 := rfl
    exact h3 ⟨UInt8.toNat.inj (show _ = 31 by omega), UInt8.toNat.inj (show _ = 7 by omega)⟩
  · unfold DevFn
    rw [UInt8.toNat_ofNat']
    omega

theorem devFn_range : ∀ b : UInt8, b ≠ 0xFF → b.toNat / 8 < 32 ∧ b.toNat % 8 < 8 ∧
    ¬ (b.toNat / 8 = 31 ∧ b.toNat % 8 = 7) := forall_u8 (by decide +kernel)

set_option maxHeartbeats 1000000 in
/-- C82: exactly these slot values are reported. -/
theorem C82_slots (oc : Bool) (ver : SmbiosVersion) (v : SystemSlots) :
    ReportedAt oc ver (.SystemSlots v) ↔ ∃ n k, 0x0C ≤ n ∧ n < 256 ∧ k < 256 ∧ (n < 0x13 → k = 0) ∧
      (From ver 2 0 → ¬ From ver 2 1 → n = 0x0C) ∧ (From ver 2 1 → ¬ From ver 2 6 → n = 0x0D) ∧
      (From ver 2 6 → ¬ From ver 3 2 → n = 0x11) ∧ (From ver 3 2 → 0x11 ≤ n) ∧ SlotValue n k v := by
  rw [reported_iff (dec := SystemSlots.try_from oc) (info := .SystemSlots)]
  · constructor
    · rintro ⟨p, hp, -, h⟩
      have hl : SlotLengthOk (p.raw ver) := by
        refine ⟨fun h1 h2 => ?_, fun h1 h2 => ?_, fun h1 h2 => ?_, fun h1 => ?_⟩ <;>
          refine Decidable.not_not.mp fun hn => ?_
        · rw [(C40_rejects oc _).1 h1 h2 hn] at h; cases h
        · rw [(C40_rejects oc _).2.1 h1 h2 hn] at h; cases h
        · rw [(C40_rejects oc _).2.2.1 h1 h2 hn] at h; cases h
        · rw [(C40_rejects oc _).2.2.2.1 h1 (by omega)] at h; cases h
      have hf : Fits (p.raw ver) 0x0C := by
        refine Decidable.not_not.mp fun hn => ?_
        obtain ⟨e, he, -⟩ := (C40_rejects oc _).2.2.2.2.2 hl hn
        rw [he] at h; cases h
      have F := (C40_decodes oc _ hl hf v).mp h
      refine ⟨p.len, peerCount (p.raw ver), hf, hp.1, ?_, ?_, hl.1, hl.2.1, hl.2.2.1, hl.2.2.2, ?_⟩
      · unfold peerCount
        split
        · exact UInt8.toNat_lt _
        · decide
      · intro hn
        unfold peerCount
        rw [if_neg (c := Fits (p.raw ver) 0x13) (fun h => absurd (show 0x13 ≤ p.len from h) (by omega))]
      · exact {
          slot_designation := storable_of_ref F.slot_designation
          slot_type := ⟨_, F.slot_type.symm⟩
          slot_data_bus_width := ⟨_, F.slot_data_bus_width.symm⟩
          current_usage := ⟨_, F.current_usage.symm⟩
          slot_length := ⟨_, F.slot_length.symm⟩
          slot_characteristics_2 := present_of_when F.slot_characteristics_2 fun _ _ => trivial
          segment_group_number := when_imp F.segment_group_number fun a hc ha => ⟨hc.1, ha ▸ hc.2⟩
          bus_number := when_imp F.bus_number fun a hc ha => ⟨hc.1, ha ▸ hc.2⟩
          device_and_function_number := when_imp F.device_and_function_number fun a hc ha => by
            obtain ⟨h1, h2, h3⟩ := devFn_range _ hc.2
            refine ⟨hc.1, ha.1 ▸ h1, ha.2 ▸ h2, fun hn => h3 ⟨?_, ?_⟩⟩
            · rw [← ha.1, hn.1]; rfl
            · rw [← ha.2, hn.2]; rfl
          data_bus_width := present_of_when F.data_bus_width fun _ _ => trivial
          peer_devices := present_of_when F.peer_devices fun a ha => by
            rw [ha]; exact ⟨rfl, by simp [bytesAt]⟩
          slot_information := by
            have := present_of_when F.slot_information (q := Any) fun _ _ => trivial
            rwa [show 0x14 + 5 * peerCount (p.raw ver) + 1 = 0x15 + 5 * peerCount (p.raw ver) by
              omega] at this
          slot_physical_width := by
            have := present_of_when F.slot_physical_width (q := Coded SlotWidth.ofU8)
              fun _ ha => ⟨_, ha.symm⟩
            rwa [show 0x15 + 5 * peerCount (p.raw ver) + 1 = 0x16 + 5 * peerCount (p.raw ver) by
              omega] at this
          slot_pitch := by
            have := present_of_when F.slot_pitch (q := Any) fun _ _ => trivial
            rwa [show 0x16 + 5 * peerCount (p.raw ver) + 2 = 0x18 + 5 * peerCount (p.raw ver) by
              omega] at this }
    · rintro ⟨n, k, h0c, h256, hk, hk0, l1, l2, l3, l4, V⟩
      obtain ⟨ty, hty⟩ := V.slot_type
      obtain ⟨wd, hwd⟩ := V.slot_data_bus_width
      obtain ⟨cu, hcu⟩ := V.current_usage
      obtain ⟨sl, hsl⟩ := V.slot_length
      obtain ⟨ph, hph⟩ := present_coded V.slot_physical_width
      obtain ⟨df, hdf⟩ : ∃ b : UInt8, match v.device_and_function_number with
          | none => b = 0xFF
          | some x => b ≠ 0xFF ∧ DevFn b x := by
        cases e : v.device_and_function_number with
        | none => exact ⟨0xFF, rfl⟩
        | some x =>
          obtain ⟨-, h1, h2, h3⟩ := V.device_and_function_number x e
          exact devFn_stored x h1 h2 h3
      obtain ⟨peers, hpl, hpeers⟩ : ∃ b : Bytes, b.length = 5 * k ∧
          ∀ a, v.peer_devices = some a → a = ⟨⟨b, 5⟩⟩ := by
        cases e : v.peer_devices with
        | none => exact ⟨List.replicate (5 * k) 0, List.length_replicate .., by simp⟩
        | some a =>
          obtain ⟨h1, h2⟩ := V.peer_devices.2 a e
          refine ⟨a.chunks.rest, h2, fun a' e' => ?_⟩
          rw [← Option.some.inj e', ← h1]
      let ts := [v.slot_designation]
      have hts : ∀ t ∈ ts, Storable t := by simp [ts, V.slot_designation]
      let pre : Bytes := [refTo 1 v.slot_designation, ty, wd, cu, sl] ++ (enc16 v.slot_id ++
        ([v.slot_characteristics_1.bits, (v.slot_characteristics_2.getD ⟨0⟩).bits] ++
        (enc16 (v.segment_group_number.getD 0xFFFF) ++ [v.bus_number.getD 0xFF, df,
          v.data_bus_width.getD 0, .ofNat k])))
      let post : Bytes := [0, v.slot_information.getD 0, ph] ++ (enc16 (v.slot_pitch.getD ⟨0⟩).value ++
        List.replicate 252 0)
      let d : Bytes := pre ++ (peers ++ post)
      have lpre : pre.length = 15 := rfl
      have hd : 252 ≤ d.length := by
        show 252 ≤ (pre ++ (peers ++ post)).length
        rw [List.length_append, List.length_append (as := peers)]
        have : 252 ≤ post.length := by
          show 252 ≤ ([0, v.slot_information.getD 0, ph] ++ (enc16 (v.slot_pitch.getD ⟨0⟩).value ++
            List.replicate 252 (0 : UInt8))).length
          rw [List.length_append, List.length_append, List.length_replicate]
          omega
        omega
      have hfit := fun j => cut_fits (kind := 9) (handle := v.handle) (d := d)
        (strings := textArea ts) (n := n) ver (by omega) (by omega) j
      have hpost : ∀ i, byteAt d (15 + 5 * k + i) = byteAt post i := by
        intro i
        have h1 := (byteAt_append pre (peers ++ post) (peers.length + i)).trans (byteAt_append peers post i)
        rw [lpre, hpl, ← Nat.add_assoc] at h1
        exact h1
      have hpost16 : ∀ i, u16At d (15 + 5 * k + i) = u16At post i := by
        intro i
        have h1 := (u16At_append pre (peers ++ post) (peers.length + i)).trans (u16At_append peers post i)
        rw [lpre, hpl, ← Nat.add_assoc] at h1
        exact h1
      have hpc : peerCount ((cut 9 v.handle d (textArea ts) n).raw ver) = k := by
        unfold peerCount
        by_cases h13 : 0x13 ≤ n
        · rw [if_pos ((hfit _).mpr h13), cut_byte ver (by decide) h13]
          show (UInt8.ofNat k).toNat = k
          rw [UInt8.toNat_ofNat']; omega
        · rw [if_neg (fun h => h13 ((hfit _).mp h)), hk0 (by omega)]
      have hlen : ((cut 9 v.handle d (textArea ts) n).raw ver).data.length + 4 = n := by
        show (d.take (n - 4)).length + 4 = n
        rw [List.length_take]; omega
      refine ⟨cut 9 v.handle d (textArea ts) n, cut_wf (by omega) (textArea_ends hts) h256, rfl,
        (C40_decodes oc _ ?_ ((hfit _).mpr h0c) v).mpr ?_⟩
      · unfold SlotLengthOk
        rw [hlen]
        exact ⟨l1, l2, l3, l4⟩
      · exact {
          handle := rfl
          slot_designation := by
            unfold Ref; rw [cut_byte ver (by decide) (by omega)]
            exact textArea_ref hts 0 rfl (by decide)
          slot_type := by rw [cut_byte ver (by decide) (by omega)]; exact hty.symm
          slot_data_bus_width := by rw [cut_byte ver (by decide) (by omega)]; exact hwd.symm
          current_usage := by rw [cut_byte ver (by decide) (by omega)]; exact hcu.symm
          slot_length := by rw [cut_byte ver (by decide) (by omega)]; exact hsl.symm
          slot_id := by rw [cut_word ver (by decide) (by omega)]; exact (u16At_enc _).symm
          slot_characteristics_1 := by rw [cut_byte ver (by decide) (by omega)]; rfl
          slot_characteristics_2 := when_cut (hfit _) V.slot_characteristics_2 fun h a ha => by
            rw [cut_byte ver (by decide) h]
            show a = ⟨(v.slot_characteristics_2.getD ⟨0⟩).bits⟩
            rw [ha]; rfl
          segment_group_number := when_cut_ne (hfit _) V.segment_group_number fun h => by
            rw [cut_word ver (by decide) h]; exact u16At_enc _
          bus_number := when_cut_ne (hfit _) V.bus_number fun h => by
            rw [cut_byte ver (by decide) h]; rfl
          device_and_function_number := by
            have hb : 0x11 ≤ n → byte ((cut 9 v.handle d (textArea ts) n).raw ver) 0x10 = df :=
              fun h => by rw [cut_byte ver (by decide) h]; rfl
            cases e : v.device_and_function_number with
            | none =>
              rw [e] at hdf
              exact Or.inr ⟨fun h => h.2 (by rw [hb ((hfit _).mp h.1)]; exact hdf), rfl⟩
            | some x =>
              rw [e] at hdf
              have h11 := (V.device_and_function_number x e).1
              rw [hb h11]
              exact Or.inl ⟨⟨(hfit _).mpr h11, hdf.1⟩, x, rfl, hdf.2⟩
          data_bus_width := when_cut (hfit _) V.data_bus_width fun h a ha => by
            rw [cut_byte ver (by decide) h]; exact getD_of ha
          peer_devices := by
            rw [hpc]
            refine when_cut (hfit _) V.peer_devices fun h a ha => ?_
            rw [hpeers a ha]
            have h1 : bytesAt (d.take (n - 4)) 0x0F (5 * k) = bytesAt d 0x0F (5 * k) :=
              bytesAt_take (by omega)
            have h2 := bytesAt_append pre peers post
            rw [lpre, hpl, List.append_assoc] at h2
            show (⟨⟨peers, 5⟩⟩ : PeerDevices) = ⟨⟨bytesAt (d.take (n - 4)) 0x0F (5 * k), 5⟩⟩
            rw [h1]
            show _ = (⟨⟨bytesAt (pre ++ (peers ++ post)) 0x0F (5 * k), 5⟩⟩ : PeerDevices)
            rw [h2]
          slot_information := by
            rw [hpc]
            refine when_cut (m := 0x15 + 5 * k) ((hfit _).trans (by omega)) V.slot_information
              fun h a ha => ?_
            rw [cut_byte ver (by omega) (by omega),
              show 0x14 + 5 * k - 4 = 15 + 5 * k + 1 by omega, hpost]
            exact getD_of ha
          slot_physical_width := by
            rw [hpc]
            refine when_cut (m := 0x16 + 5 * k) ((hfit _).trans (by omega)) V.slot_physical_width
              fun h a ha => ?_
            rw [cut_byte ver (by omega) (by omega),
              show 0x15 + 5 * k - 4 = 15 + 5 * k + 2 by omega, hpost]
            exact hph a ha
          slot_pitch := by
            rw [hpc]
            refine when_cut (m := 0x18 + 5 * k) ((hfit _).trans (by omega)) V.slot_pitch
              fun h a ha => ?_
            rw [cut_word ver (by omega) (by omega),
              show 0x16 + 5 * k - 4 = 15 + 5 * k + 3 by omega, hpost16]
            have e : u16At post 3 = (v.slot_pitch.getD ⟨0⟩).value := u16At_enc _
            rw [e, ha]; rfl }
  dispatch_ok

example : ∃ v, ∃ n k, n < 256 ∧ SlotValue n k v :=
  some_reported (f := .SystemSlots) 9 (List.replicate 20 0) (by decide)
    (fun | .SystemSlots v => some v | _ => none)
    (by intro x v h; cases x <;> cases h; rfl)
    (fun v h => let ⟨n, k, _, h, _, _, _, _, _, _, h'⟩ := (C82_slots _ _ v).1 h; ⟨n, k, h, h'⟩)
    (by decide +kernel)

end Slots

section Enclosure
open enclosure

/-- The values of type 3 reported for structures of length `n` with `c` element records of `l`
bytes each; the space of the records is computed modulo 256. -/
structure EnclosureValue (n : Nat) (c l : UInt8) (v : Enclosure) : Prop where
  manufacturer : Storable v.manufacturer
  enclosure_type : ∃ b : UInt8, b.toNat < 128 ∧ EnclosureType.ofU8 b = v.enclosure_type
  version : Storable v.version
  serial_number : Storable v.serial_number
  asset_tag_number : Storable v.asset_tag_number
  boot_up_state : Present (0x0A ≤ n) (Coded State.ofU8) v.boot_up_state
  power_supply_state : Present (0x0B ≤ n) (Coded State.ofU8) v.power_supply_state
  thermal_state : Present (0x0C ≤ n) (Coded State.ofU8) v.thermal_state
  security_status : Present (0x0D ≤ n) (Coded SecurityStatus.ofU8) v.security_status
  oem_defined : Present (0x11 ≤ n) Any v.oem_defined
  height : Present (0x12 ≤ n) Any v.height
  power_cords_number : Present (0x13 ≤ n) Any v.power_cords_number
  contained_elements : Present (0x15 + c.toNat * l.toNat % 256 ≤ n) (fun e => e.count = c ∧
    e.record_length = l ∧
    (if c.toNat = 0 ∨ l.toNat = 0 then e.chunks = ⟨[], 2 ^ 64 - 1⟩
      else e.chunks.size = l.toNat ∧ e.chunks.rest.length = c.toNat * l.toNat % 256))
    v.contained_elements
  sku_number : Present (0x16 + c.toNat * l.toNat % 256 ≤ n) Storable v.sku_number

theorem optIf_of_when {α : Type} {c : Prop} [Decidable c] {o : Option α} {x : α}
    (h : When c o (· = x)) : o = optIf c x := by
  unfold optIf
  rcases h with ⟨h, a, rfl, rfl⟩ | ⟨h, rfl⟩
  · rw [if_pos h]
  · rw [if_neg h]

/-- The decoder of type 3 accepts a structure as exactly its fields. -/
theorem enclosure_iff (oc : Bool) (s : RawStructure) (h : Fits s 9)
    (hov : oc = true → Fits s 0x15 → elementCount s * elementLength s < 256) (v : Enclosure) :
    Enclosure.try_from oc s = .ok v ↔ EnclosureFields s v ∧
      ∀ e, v.contained_elements = some e → e.chunks = initialChunks s := by
  constructor
  · intro hv
    refine ⟨(C33_decodes oc s h hov).1 v hv, ?_⟩
    rw [enclosure_eval oc s h hov] at hv
    simp only [bind_ok_iff, pure_eq_ok, Res.ok.injEq] at hv
    obtain ⟨a, -, b, -, c, -, d, -, e, -, rfl⟩ := hv
    intro e he
    simp only [optIf] at he
    split at he
    · rw [← Option.some.inj he]
    · cases he
  · rintro ⟨F, hc⟩
    rw [enclosure_eval oc s h hov]
    simp only [bind_ok_iff, pure_eq_ok, Res.ok.injEq, findSku_ok]
    refine ⟨_, ref_iff.mp F.manufacturer, _, ref_iff.mp F.version, _, ref_iff.mp F.serial_number, _,
      ref_iff.mp F.asset_tag_number, _, F.sku_number, ?_⟩
    have h1 := optIf_of_when F.boot_up_state
    have h2 := optIf_of_when F.power_supply_state
    have h3 := optIf_of_when F.thermal_state
    have h4 := optIf_of_when F.security_status
    have h5 := optIf_of_when F.oem_defined
    have h6 := optIf_of_when F.height
    have h7 := optIf_of_when F.power_cords_number
    have h8 : v.contained_elements = optIf (Fits s 0x15 ∧ Fits s (0x15 + recordBytes s))
        ⟨initialChunks s, byte s 0x13, byte s 0x14⟩ := by
      have := F.contained_elements
      unfold optIf
      rcases this with ⟨hp, e, he, h1, h2⟩ | ⟨hn, he⟩
      · rw [if_pos hp, he, ← h1, ← h2, ← hc e he]
      · rw [if_neg hn, he]
    have h9 := F.chassis_lock.trans (lock_type _).1.symm
    have h10 := F.enclosure_type.trans (lock_type _).2.symm
    have h0 := F.handle
    obtain ⟨a1, a2, a3, a4, a5, a6, a7, a8, a9, a10, a11, a12, a13, a14, a15, a16⟩ := v
    simp only at *
    rw [h0, h1, h2, h3, h4, h5, h6, h7, h8, h9, h10]

theorem lock_stored : ∀ b : UInt8, b.toNat < 128 →
    b % 128 = b ∧ decide (128 ≤ b.toNat) = false ∧ (b + 128) % 128 = b ∧
    decide (128 ≤ (b + 128).toNat) = true := forall_u8 (by decide +kernel)

theorem mod128 : ∀ b : UInt8, (b % 128).toNat < 128 := forall_u8 (by decide +kernel)

set_option maxHeartbeats 1000000 in
/-- C82: exactly these enclosure values are reported. -/
theorem C82_enclosure (oc : Bool) (ver : SmbiosVersion) (v : Enclosure) :
    ReportedAt oc ver (.Enclosure v) ↔ ∃ n c l, 9 ≤ n ∧ n < 256 ∧
      (oc = true → 0x15 ≤ n → c.toNat * l.toNat < 256) ∧ EnclosureValue n c l v := by
  rw [reported_iff (dec := Enclosure.try_from oc) (info := .Enclosure)]
  · constructor
    · rintro ⟨p, hp, -, h⟩
      have hf : Fits (p.raw ver) 9 := by
        refine Decidable.not_not.mp fun hn => ?_
        rw [C33_short oc _ hn] at h; cases h
      have hov : oc = true → Fits (p.raw ver) 0x15 →
          elementCount (p.raw ver) * elementLength (p.raw ver) < 256 := by
        intro ho h15
        refine Decidable.not_not.mp fun hn => ?_
        subst ho
        unfold Enclosure.try_from EnclosurePacked2_0.size at h
        rw [if_neg (by unfold Fits at hf; omega)] at h
        simp only [enclosure_packed hf, ok_bind, optionals_overflow _ h15 (by omega), panic_bind,
          bind_ok_iff] at h
        obtain ⟨_, _, _, _, _, _, _, _, h⟩ := h
        cases h
      obtain ⟨F, hc⟩ := (enclosure_iff oc _ hf hov v).mp h
      refine ⟨p.len, byte (p.raw ver) 0x13, byte (p.raw ver) 0x14, hf, hp.1, hov, ?_⟩
      have both : ∀ m, Fits (p.raw ver) 0x15 ∧ Fits (p.raw ver) (0x15 + m) ↔ 0x15 + m ≤ p.len := by
        intro m
        show 0x15 ≤ p.len ∧ 0x15 + m ≤ p.len ↔ _
        omega
      exact {
        manufacturer := storable_of_ref F.manufacturer
        enclosure_type := ⟨_, mod128 _, F.enclosure_type.symm⟩
        version := storable_of_ref F.version
        serial_number := storable_of_ref F.serial_number
        asset_tag_number := storable_of_ref F.asset_tag_number
        boot_up_state := present_of_when F.boot_up_state fun _ ha => ⟨_, ha.symm⟩
        power_supply_state := present_of_when F.power_supply_state fun _ ha => ⟨_, ha.symm⟩
        thermal_state := present_of_when F.thermal_state fun _ ha => ⟨_, ha.symm⟩
        security_status := present_of_when F.security_status fun _ ha => ⟨_, ha.symm⟩
        oem_defined := present_of_when F.oem_defined fun _ _ => trivial
        height := present_of_when F.height fun _ _ => trivial
        power_cords_number := present_of_when F.power_cords_number fun _ _ => trivial
        contained_elements := by
          have h1 := present_iff.mpr F.contained_elements
          rw [propext (both _)] at h1
          refine ⟨h1.1, fun e he => ⟨(h1.2 e he).1, (h1.2 e he).2, ?_⟩⟩
          rw [hc e he]
          unfold initialChunks elementCount elementLength
          split
          · rfl
          · exact ⟨rfl, by simp [bytesAt]; rfl⟩
        sku_number := by
          have h1 := present_of_when F.sku_number fun _ => storable_of_ref
          rw [Nat.add_assoc, propext (both _)] at h1
          have e : 0x15 + (recordBytes (p.raw ver) + 1) = 0x16 + recordBytes (p.raw ver) := by omega
          rw [e] at h1
          exact h1 }
    · rintro ⟨n, c, l, h9, h256, hov, V⟩
      obtain ⟨ty, hty, hety⟩ := V.enclosure_type
      obtain ⟨b1, hb1⟩ := present_coded V.boot_up_state
      obtain ⟨b2, hb2⟩ := present_coded V.power_supply_state
      obtain ⟨b3, hb3⟩ := present_coded V.thermal_state
      obtain ⟨b4, hb4⟩ := present_coded V.security_status
      obtain ⟨r, hr⟩ : ∃ r, r = c.toNat * l.toNat % 256 := ⟨_, rfl⟩
      obtain ⟨recs, hrl, hrecs⟩ : ∃ b : Bytes, b.length = r ∧
          ∀ e, v.contained_elements = some e → e.count = c ∧ e.record_length = l ∧
            e.chunks = if c.toNat = 0 ∨ l.toNat = 0 then ⟨[], 2 ^ 64 - 1⟩ else ⟨b, l.toNat⟩ := by
        cases e : v.contained_elements with
        | none => exact ⟨List.replicate r 0, List.length_replicate .., by simp⟩
        | some a =>
          obtain ⟨h1, h2, h3⟩ := V.contained_elements.2 a e
          by_cases hz : c.toNat = 0 ∨ l.toNat = 0
          · rw [if_pos hz] at h3
            refine ⟨List.replicate r 0, List.length_replicate .., fun a' e' => ?_⟩
            rw [← Option.some.inj e']
            exact ⟨h1, h2, by rw [if_pos hz]; exact h3⟩
          · rw [if_neg hz] at h3
            refine ⟨a.chunks.rest, by rw [hr]; exact h3.2, fun a' e' => ?_⟩
            rw [← Option.some.inj e']
            refine ⟨h1, h2, ?_⟩
            rw [if_neg hz, ← h3.1]
      let ts := [v.manufacturer, v.version, v.serial_number, v.asset_tag_number,
        v.sku_number.getD []]
      have hts : ∀ t ∈ ts, Storable t := by
        simp [ts, V.manufacturer, V.version, V.serial_number, V.asset_tag_number,
          storable_getD V.sku_number]
      let tb : UInt8 := if v.chassis_lock then ty + 128 else ty
      let pre : Bytes := [refTo 1 v.manufacturer, tb, refTo 2 v.version, refTo 3 v.serial_number,
        refTo 4 v.asset_tag_number, b1, b2, b3, b4] ++ (enc32 (v.oem_defined.getD 0) ++
        [v.height.getD 0, v.power_cords_number.getD 0, c, l])
      let post : Bytes := [refTo 5 (v.sku_number.getD [])] ++ List.replicate 252 0
      let d : Bytes := pre ++ (recs ++ post)
      have lpre : pre.length = 17 := rfl
      have hd : 252 ≤ d.length := by
        show 252 ≤ (pre ++ (recs ++ post)).length
        rw [List.length_append, List.length_append (as := recs)]
        have : 252 ≤ post.length := by
          show 252 ≤ ([refTo 5 (v.sku_number.getD [])] ++ List.replicate 252 (0 : UInt8)).length
          rw [List.length_append, List.length_replicate]
          omega
        omega
      have hfit := fun j => cut_fits (kind := 3) (handle := v.handle) (d := d)
        (strings := textArea ts) (n := n) ver (by omega) (by omega) j
      have hc : 0x15 ≤ n → byte ((cut 3 v.handle d (textArea ts) n).raw ver) 0x13 = c :=
        fun h => by rw [cut_byte ver (by decide) (by omega)]; rfl
      have hl : 0x15 ≤ n → byte ((cut 3 v.handle d (textArea ts) n).raw ver) 0x14 = l :=
        fun h => by rw [cut_byte ver (by decide) h]; rfl
      have hrec : 0x15 ≤ n → recordBytes ((cut 3 v.handle d (textArea ts) n).raw ver) = r := by
        intro h
        unfold recordBytes elementCount elementLength
        rw [hc h, hl h, hr]
      refine ⟨cut 3 v.handle d (textArea ts) n, cut_wf (by omega) (textArea_ends hts) h256, rfl,
        (enclosure_iff oc _ ((hfit _).mpr h9) ?_ v).mpr ⟨?_, ?_⟩⟩
      · intro ho h15
        have h15 := (hfit _).mp h15
        unfold elementCount elementLength
        rw [hc h15, hl h15]
        exact hov ho h15
      · have htb : byte ((cut 3 v.handle d (textArea ts) n).raw ver) 0x05 = tb := by
          rw [cut_byte ver (by decide) (by omega)]; rfl
        obtain ⟨k1, k2, k3, k4⟩ := lock_stored ty hty
        exact {
          handle := rfl
          manufacturer := by
            unfold Ref; rw [cut_byte ver (by decide) (by omega)]
            exact textArea_ref hts 0 rfl (by decide)
          chassis_lock := by
            rw [htb]
            cases e : v.chassis_lock
            · simp only [tb, e, Bool.false_eq_true, if_false]; exact k2.symm
            · simp only [tb, e, if_true]; exact k4.symm
          enclosure_type := by
            rw [htb, ← hety]
            cases e : v.chassis_lock
            · simp only [tb, e, Bool.false_eq_true, if_false]; rw [k1]
            · simp only [tb, e, if_true]; rw [k3]
          version := by
            unfold Ref; rw [cut_byte ver (by decide) (by omega)]
            exact textArea_ref hts 1 rfl (by decide)
          serial_number := by
            unfold Ref; rw [cut_byte ver (by decide) (by omega)]
            exact textArea_ref hts 2 rfl (by decide)
          asset_tag_number := by
            unfold Ref; rw [cut_byte ver (by decide) (by omega)]
            exact textArea_ref hts 3 rfl (by decide)
          boot_up_state := when_cut (hfit _) V.boot_up_state fun h a ha => by
            rw [cut_byte ver (by decide) h]; exact hb1 a ha
          power_supply_state := when_cut (hfit _) V.power_supply_state fun h a ha => by
            rw [cut_byte ver (by decide) h]; exact hb2 a ha
          thermal_state := when_cut (hfit _) V.thermal_state fun h a ha => by
            rw [cut_byte ver (by decide) h]; exact hb3 a ha
          security_status := when_cut (hfit _) V.security_status fun h a ha => by
            rw [cut_byte ver (by decide) h]; exact hb4 a ha
          oem_defined := when_cut (hfit _) V.oem_defined fun h a ha => by
            rw [cut_dword ver (by decide) h]; exact (getD_of ha).trans (u32At_enc _).symm
          height := when_cut (hfit _) V.height fun h a ha => by
            rw [cut_byte ver (by decide) h]; exact getD_of ha
          power_cords_number := when_cut (hfit _) V.power_cords_number fun h a ha => by
            rw [cut_byte ver (by decide) h]; exact getD_of ha
          contained_elements := by
            refine when_cut (m := 0x15 + r) (n := n) ?_ (by rw [hr]; exact V.contained_elements)
              fun h a ha => ?_
            · rw [hfit, hfit]
              constructor
              · rintro ⟨h1, h2⟩; rwa [hrec h1] at h2
              · intro h; rw [hrec (by omega)]; omega
            · rw [hc (by omega), hl (by omega)]
              exact ⟨(hrecs a ha).1, (hrecs a ha).2.1⟩
          sku_number := by
            refine when_cut (m := 0x16 + r) (n := n) ?_ (by rw [hr]; exact V.sku_number)
              fun h a ha => ?_
            · rw [hfit, hfit]
              constructor
              · rintro ⟨h1, h2⟩; rw [hrec h1] at h2; omega
              · intro h; rw [hrec (by omega)]; omega
            · unfold Ref
              rw [hrec (by omega), cut_byte ver (by omega) (by omega)]
              have h1 := (byteAt_append pre (recs ++ post) (recs.length + 0)).trans
                (byteAt_append recs post 0)
              rw [lpre, hrl] at h1
              rw [show 0x15 + r - 4 = 17 + (r + 0) by omega]
              have h2 : byteAt d (17 + (r + 0)) = refTo 5 (v.sku_number.getD []) := h1
              rw [h2]
              exact textArea_opt hts 4 rfl (by decide) a ha }
      · intro e he
        have h15 : 0x15 + r ≤ n := by
          have := V.contained_elements.1.mp (by rw [he]; rfl)
          omega
        rw [(hrecs e he).2.2]
        unfold initialChunks
        rw [hrec (by omega)]
        unfold elementCount elementLength
        rw [hc (by omega), hl (by omega)]
        split
        · rfl
        · have h1 : bytesAt (d.take (n - 4)) 0x11 r = bytesAt d 0x11 r := bytesAt_take (by omega)
          have h2 := bytesAt_append pre recs post
          rw [lpre, hrl, List.append_assoc] at h2
          show _ = (⟨bytesAt (d.take (n - 4)) 0x11 r, l.toNat⟩ : Chunks)
          rw [h1]
          show _ = (⟨bytesAt (pre ++ (recs ++ post)) 0x11 r, l.toNat⟩ : Chunks)
          rw [h2]
  dispatch_ok

example : ∃ v, ∃ n c l, n < 256 ∧ EnclosureValue n c l v :=
  some_reported (f := .Enclosure) 3 (List.replicate 20 0) (by decide)
    (fun | .Enclosure v => some v | _ => none)
    (by intro x v h; cases x <;> cases h; rfl)
    (fun v h => let ⟨n, c, l, _, h, _, h'⟩ := (C82_enclosure _ _ v).1 h; ⟨n, c, l, h, h'⟩)
    (by decide +kernel)

end Enclosure

end Dmi.Props
