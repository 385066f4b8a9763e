import Verif.Props.Safety
/-!
# C69: exactly which structures crash the decoders
-/
namespace Dmi.Props
open Spec

/-- The structures whose decoder reads out of bounds. -/
def ReadsOut (s : RawStructure) : Prop :=
  match s.info with
  | .Bios => ¬ Fits s (biosLength s)
  | .System => ¬ Fits s (systemLength s)
  | .BaseBoard => ¬ Fits s 0x0E
  | .Processor => ¬ Fits s (processorLength s)
  | .Cache => Since s 2 1 ∧ ¬ Fits s (cacheReads s)
  | .PortConnector => ¬ Fits s 0x09
  | .BiosLanguage => ¬ Fits s (languageLength s)
  | _ => False

/-- The structures whose decoder panics, with overflow checks (`oc`) or without. -/
def Panics (oc : Bool) (s : RawStructure) : Prop :=
  match s.info with
  | .Enclosure => oc = true ∧ Fits s 0x15 ∧ 256 ≤ elementCount s * elementLength s ∧
      ¬ Dangling s 4 ∧ ¬ Dangling s 6 ∧ ¬ Dangling s 7 ∧ ¬ Dangling s 8
  | .Cache => ¬ Since s 2 1
  | .GroupAssociations => oc = true ∧ ¬ Fits s 0x05
  | .SystemEventLog => EventLogLength s ∧ Fits s 0x17 ∧ descriptorLength s = 0
  | .PhysicalMemoryArray => Since s 2 2 ∧ ¬ ArrayFits s
  | _ => False

theorem map_panic {ε α β : Type} {f : α → β} {x : Res ε α} : x.map f = .panic ↔ x = .panic := by
  cases x <;> simp [Res.map]

theorem map_ub {ε α β : Type} {f : α → β} {x : Res ε α} : x.map f = .ub ↔ x = .ub := by
  cases x <;> simp [Res.map]

/-- C69: the decoder of a structure reads out of bounds exactly in the listed cases. -/
theorem C69_reads_out (oc : Bool) (s : RawStructure) :
    decodeStructure oc s = .ub ↔ ReadsOut s := by
  by_cases hm : s.info ∈ [InfoType.Bios, .System, .BaseBoard, .Processor, .Cache, .PortConnector,
      .BiosLanguage]
  · unfold decodeStructure ReadsOut
    simp only [List.mem_cons, List.not_mem_nil, or_false] at hm
    rcases hm with h | h | h | h | h | h | h <;> rw [h] <;> simp only [map_ub]
    · exact ⟨fun hu hf => (C29_rejects s hf).1.2 hu, C29_short s⟩
    · exact ⟨fun hu hf => (C31_rejects s hf).1.2 hu, C31_short s⟩
    · exact C32_short s
    · exact ⟨fun hu hf => (C35_rejects s hf).1.2 hu, C35_short s⟩
    · exact (C37_faults s).2
    · exact C39_short s
    · refine ⟨fun hu hf => ?_, C43_short s⟩
      obtain ⟨v, hv, -⟩ := C43_decodes s hf
      rw [hv] at hu
      cases hu
  · refine ⟨fun hu => absurd hu (decode_noUb oc s hm), fun hr => ?_⟩
    unfold ReadsOut at hr
    split at hr <;> simp_all

theorem enclosure_panic (oc : Bool) (s : RawStructure) :
    enclosure.Enclosure.try_from oc s = .panic ↔ oc = true ∧ Fits s 0x15 ∧
      256 ≤ elementCount s * elementLength s ∧
      ¬ Dangling s 4 ∧ ¬ Dangling s 6 ∧ ¬ Dangling s 7 ∧ ¬ Dangling s 8 := by
  constructor
  · intro hp
    by_cases h9 : Fits s 9
    · have ho : oc = true ∧ Fits s 0x15 ∧ 256 ≤ elementCount s * elementLength s := by
        apply Decidable.byContradiction
        intro hn
        refine (C33_rejects oc s h9 fun ho hf => ?_).1.1 hp
        apply Decidable.byContradiction
        intro hlt
        exact hn ⟨ho, hf, by omega⟩
      refine ⟨ho.1, ho.2.1, ho.2.2, ?_⟩
      have hf : 0x15 ≤ s.data.length + 4 := ho.2.1
      unfold enclosure.Enclosure.try_from enclosure.EnclosurePacked2_0.size at hp
      rw [if_neg (by omega)] at hp
      simp only [enclosure_packed h9, ok_bind] at hp
      have aux : ∀ (o : Nat) {β : Type} {f : Str → R β}, (s.find_string (byte s o) >>= f) = .panic →
          ¬ Dangling s o ∧ ∃ a, f a = .panic := by
        intro o β f h
        rcases find_string_cases s (byte s o) with ⟨str, e⟩ | ⟨-, e⟩
        · rw [e] at h
          exact ⟨fun hd => hd str (ref_iff.2 e), str, h⟩
        · rw [e] at h
          cases h
      obtain ⟨h4, _, hp⟩ := aux _ hp
      obtain ⟨h6, _, hp⟩ := aux _ hp
      obtain ⟨h7, _, hp⟩ := aux _ hp
      obtain ⟨h8, _, hp⟩ := aux _ hp
      exact ⟨h4, h6, h7, h8⟩
    · rw [C33_short oc s h9] at hp
      cases hp
  · rintro ⟨rfl, h1, h2, h3⟩
    exact C34_overflow_panics s h1 h2 h3

theorem log_panic (oc : Bool) (s : RawStructure) :
    system_event_log.SystemEventLog.try_from oc s = .panic ↔
      EventLogLength s ∧ Fits s 0x17 ∧ descriptorLength s = 0 := by
  constructor
  · intro hp
    have h : Fits s 0x17 ∧ descriptorLength s = 0 := by
      apply Decidable.byContradiction
      intro hn
      exact (log_nf oc s fun hf h0 => hn ⟨hf, h0⟩).1 hp
    refine ⟨?_, h⟩
    have hr := C45_rejects oc s
    constructor
    · intro hv
      apply Decidable.byContradiction
      intro hn
      have := hr.1 hv hn
      rw [hp] at this
      cases this
    · intro hv
      refine ⟨h.1, Decidable.byContradiction fun hn => ?_⟩
      have := hr.2.2.1 hv h.1 hn
      rw [hp] at this
      cases this
  · rintro ⟨hl, hf, h0⟩
    exact C45_panics oc s hl hf h0

theorem array_panic (s : RawStructure) :
    physical_memory_array.PhysicalMemoryArray.try_from s = .panic ↔ Since s 2 2 ∧ ¬ ArrayFits s := by
  constructor
  · intro hp
    apply Decidable.byContradiction
    intro hn
    refine (array_nf s fun hv => ?_).1 hp
    apply Decidable.byContradiction
    intro hf
    exact hn ⟨hv, hf⟩
  · rintro ⟨hv, hf⟩
    exact C47_short s hv hf

theorem group_panic (oc : Bool) (s : RawStructure) (hc : Coherent s) :
    group_associations.GroupAssociations.try_from oc s = .panic ↔ oc = true ∧ ¬ Fits s 5 := by
  by_cases hf : Fits s 5
  · exact ⟨fun hp => absurd hp (C44_decodes oc s hc hf).2.2.1.1, fun h => absurd hf h.2⟩
  · rw [C44_short oc s hc hf]
    cases oc <;> simp [hf]

/-- C69: the decoder of a structure whose length byte is the length of its formatted area panics exactly
in the listed cases. -/
theorem C69_panics (oc : Bool) (s : RawStructure) (hc : Coherent s) :
    decodeStructure oc s = .panic ↔ Panics oc s := by
  by_cases hu : decodeStructure oc s = .ub
  · rw [hu]
    refine ⟨nofun, fun hp => ?_⟩
    rw [C69_reads_out] at hu
    unfold ReadsOut at hu
    unfold Panics at hp
    split at hu <;> rename_i hi <;> first | exact hu.elim | (simp only [hi] at hp)
    exact absurd hu.1 hp
  by_cases hm : s.info ∈ [InfoType.Enclosure, .Cache, .GroupAssociations, .SystemEventLog,
      .PhysicalMemoryArray]
  · unfold decodeStructure Panics
    simp only [List.mem_cons, List.not_mem_nil, or_false] at hm
    rcases hm with h | h | h | h | h <;> rw [h] <;> simp only [map_panic]
    · exact enclosure_panic oc s
    · exact (C37_faults s).1
    · exact group_panic oc s hc
    · exact log_panic oc s
    · exact array_panic s
  · refine ⟨fun hp => absurd hp (C54_decoders oc s hc ?_).1, fun hp => ?_⟩
    · rw [C69_reads_out] at hu
      unfold ReadsOut at hu
      unfold Enough
      split <;> rename_i hi <;> simp only [hi, Decidable.not_not] at hu <;>
        first | exact hu | trivial | (rw [hi] at hm; exact absurd (by decide) hm)
    · unfold Panics at hp
      split at hp <;> rename_i hi <;> first | exact hp.elim | (rw [hi] at hm; exact absurd (by decide) hm)

/-- C69: in every other case the decoder returns a value or an error. -/
theorem C69_returns (oc : Bool) (s : RawStructure) (hc : Coherent s) :
    ((∃ v, decodeStructure oc s = .ok v) ∨ ∃ e, decodeStructure oc s = .err e) ↔
      ¬ Panics oc s ∧ ¬ ReadsOut s := by
  rw [← C69_panics oc s hc, ← C69_reads_out oc s]
  cases decodeStructure oc s <;> simp

/-- The decoder of the structure faults. -/
def Crashes (oc : Bool) (s : RawStructure) : Prop := Panics oc s ∨ ReadsOut s

theorem crashes_iff (oc : Bool) (s : RawStructure) (hc : Coherent s) :
    ¬ (decodeStructure oc s).NoFault ↔ Crashes oc s := by
  unfold Crashes
  rw [← C69_panics oc s hc, ← C69_reads_out oc s]
  unfold Res.NoFault
  cases decodeStructure oc s <;> simp

/-- After some items the iterator faults. -/
def RunsIntoFault (oc : Bool) (s : Structures) : Prop :=
  ∃ items s', Runs oc s items s' ∧ ¬ (s'.next oc).NoFault

theorem into_fault_step {oc : Bool} {s s' : Structures} {item} (h : s.next oc = .ok (some item, s')) :
    RunsIntoFault oc s ↔ RunsIntoFault oc s' := by
  constructor
  · rintro ⟨items, t, hr, hf⟩
    cases hr with
    | nil => rw [h] at hf; exact absurd NF.ok hf
    | cons h' tl =>
      rw [h] at h'
      cases h'
      exact ⟨_, t, tl, hf⟩
  · rintro ⟨items, t, hr, hf⟩
    exact ⟨_, t, .cons h hr, hf⟩

theorem no_fault_at_end {oc : Bool} {s : Structures} (h : s.next oc = .ok (none, s)) :
    ¬ RunsIntoFault oc s := by
  rintro ⟨items, t, hr, hf⟩
  cases hr with
  | nil => rw [h] at hf; exact hf NF.ok
  | cons h' tl => rw [h] at h'; cases h'

/-- A structure that is reached crashes its decoder. -/
def ReachedCrash (oc : Bool) (v : SmbiosVersion) (ps : List Piece) : Prop :=
  ∃ pre p rest, ps = pre ++ p :: rest ∧ (v.major.toNat < 3 ∨ ∀ q ∈ pre, q.kind ≠ 127) ∧
    Crashes oc (p.raw v)

theorem reached_cons {oc : Bool} {v : SmbiosVersion} {p : Piece} {ps : List Piece}
    (hp : ¬ Crashes oc (p.raw v)) :
    ReachedCrash oc v (p :: ps) ↔ (v.major.toNat < 3 ∨ p.kind ≠ 127) ∧ ReachedCrash oc v ps := by
  constructor
  · rintro ⟨pre, q, rest, he, hk, hq⟩
    cases pre with
    | nil => cases he; exact absurd hq hp
    | cons q' pre =>
      cases he
      refine ⟨hk.imp id fun h => h _ (by simp), pre, q, rest, rfl, hk.imp id fun h x hx => ?_, hq⟩
      exact h x (by simp [hx])
  · rintro ⟨hk', pre, q, rest, rfl, hk, hq⟩
    refine ⟨p :: pre, q, rest, rfl, ?_, hq⟩
    rcases hk' with h | h
    · exact Or.inl h
    rcases hk with h' | h'
    · exact Or.inl h'
    refine Or.inr fun x hx => ?_
    rcases List.mem_cons.1 hx with rfl | hx
    · exact h
    · exact h' x hx

theorem table_fault (oc : Bool) (ps : List Piece) (s : Structures) (rest : Bytes)
    (hb : s.buffer.length + 4 < 2 ^ 32) (hwf : ∀ p ∈ ps, p.WF)
    (hrest : s.buffer.drop s.idx.toNat = ps.flatMap Piece.bytes ++ rest)
    (hidx : s.idx.toNat ≤ s.buffer.length)
    (hn : s.smbios_len.toNat = s.idx.toNat + (ps.flatMap Piece.bytes).length) :
    RunsIntoFault oc s ↔ ReachedCrash oc s.smbios_version ps := by
  induction ps generalizing s with
  | nil =>
    simp only [List.flatMap_nil, List.length_nil, Nat.add_zero] at hn
    refine ⟨fun h => absurd h (no_fault_at_end (next_at_end oc s (by omega) (by omega))), ?_⟩
    rintro ⟨pre, p, rest, he, -⟩
    cases pre <;> cases he
  | cons p ps ih =>
    have hw := hwf p (by simp)
    rw [List.flatMap_cons, List.append_assoc] at hrest
    rw [List.flatMap_cons, List.length_append] at hn
    have hpa : PieceAt s.buffer s.idx.toNat p := ⟨hw, drop_eq_occursAt hrest hidx⟩
    have hfit := (PieceAt.parts hpa).1
    have hplen := Piece.bytes_length p
    have hs2 := EndsAtFirstNulNul.length hw.2
    have hnext := next_piece oc s p (by omega) hpa (by omega)
    have hcr := crashes_iff oc (p.raw s.smbios_version) (piece_coherent p _ hw)
    have hai := after_idx (by omega) hpa
    have hdrop : s.buffer.drop (s.idx.toNat + p.bytes.length) = ps.flatMap Piece.bytes ++ rest := by
      rw [← List.drop_drop, hrest, List.drop_left]
    have step : ∀ item, s.next oc = .ok (some item, s.after p) →
        ¬ Crashes oc (p.raw s.smbios_version) →
        (RunsIntoFault oc s ↔ ReachedCrash oc s.smbios_version (p :: ps)) := by
      intro item h hno
      rw [into_fault_step h, reached_cons hno]
      by_cases he : s.smbios_version.major ≥ 3 ∧ p.kind = 127
      · have hl : (s.after p).smbios_len = (s.after p).idx := by
          unfold Structures.after
          rw [if_pos he]
        have h3 : 3 ≤ s.smbios_version.major.toNat := he.1
        refine ⟨fun h => absurd h (no_fault_at_end (next_at_end oc _ (by rw [hai]; omega) ?_)), ?_⟩
        · rw [hl]; omega
        · rintro ⟨h | h, -⟩
          · omega
          · exact absurd he.2 h
      · have hl : (s.after p).smbios_len = s.smbios_len := by
          unfold Structures.after
          simp only [if_neg he]
        rw [ih (s.after p) hb (fun q hq => hwf q (by simp [hq])) (by rw [hai]; exact hdrop)
          (by rw [hai]; exact hfit) (by rw [hl, hai]; omega)]
        refine ⟨fun h => ⟨?_, h⟩, fun h => h.2⟩
        by_cases h3 : s.smbios_version.major.toNat < 3
        · exact Or.inl h3
        · exact Or.inr fun hk => he ⟨by
            rw [ge_iff_le, UInt8.le_iff_toNat_le]
            exact Nat.le_of_not_lt h3, hk⟩
    have fault : ∀ {x}, s.next oc = x → ¬ x.NoFault → Crashes oc (p.raw s.smbios_version) →
        (RunsIntoFault oc s ↔ ReachedCrash oc s.smbios_version (p :: ps)) := by
      intro x hx hf hc
      exact ⟨fun _ => ⟨[], p, ps, rfl, Or.inr (by simp), hc⟩, fun _ => ⟨[], s, .nil s, by rwa [hx]⟩⟩
    cases hd : decodeStructure oc (p.raw s.smbios_version) with
    | ok st =>
      rw [hd] at hnext hcr
      exact step _ hnext fun hc => hcr.2 hc NF.ok
    | err e =>
      rw [hd] at hnext hcr
      exact step _ hnext fun hc => hcr.2 hc NF.err
    | panic =>
      rw [hd] at hnext hcr
      exact fault hnext (fun h => h.1 rfl) (hcr.1 fun h => h.1 rfl)
    | ub =>
      rw [hd] at hnext hcr
      exact fault hnext (fun h => h.2 rfl) (hcr.1 fun h => h.2 rfl)

/-- C69: iterating over a table of well-formed structures faults exactly if the decoder of one of them
does, not counting those behind an end-of-table structure in version 3. -/
theorem C69_table (oc : Bool) (v : SmbiosVersion) (n : UInt32) (ps : List Piece) (post : Bytes)
    (hwf : ∀ p ∈ ps, p.WF) (hlen : (ps.flatMap Piece.bytes ++ post).length + 4 < 2 ^ 32)
    (hn : n.toNat = (ps.flatMap Piece.bytes).length) :
    (∃ items s', Runs oc ⟨v, n, 0, ps.flatMap Piece.bytes ++ post⟩ items s' ∧
      (s'.next oc = .panic ∨ s'.next oc = .ub)) ↔
    ∃ pre p rest, ps = pre ++ p :: rest ∧ (v.major.toNat < 3 ∨ ∀ q ∈ pre, q.kind ≠ 127) ∧
      (Panics oc (p.raw v) ∨ ReadsOut (p.raw v)) := by
  have h := table_fault oc ps ⟨v, n, 0, ps.flatMap Piece.bytes ++ post⟩ post hlen hwf rfl
    (Nat.zero_le _) (by rw [hn]; exact (Nat.zero_add _).symm)
  refine Iff.trans ?_ h
  have e : ∀ x : Fault (Option (Except MalformedStructureError Structure) × Structures),
      (x = .panic ∨ x = .ub) ↔ ¬ x.NoFault := by
    intro x
    unfold Res.NoFault
    cases x <;> simp
  simp only [RunsIntoFault, e]

/-! ### Examples -/

/-- A group association of four bytes: a panic, but only with overflow checks. -/
def bareGroup : RawStructure := { exampleGroup with length := 4, data := [] }

example : Coherent bareGroup ∧ Panics true bareGroup ∧ ¬ Panics false bareGroup :=
  ⟨by decide, (C69_panics true _ (by decide)).1 (by decide +kernel),
    fun h => absurd ((C69_panics false _ (by decide)).2 h) (by decide +kernel)⟩
example : ReadsOut { exampleBoard with length := 8, data := [1, 2, 0, 3] } :=
  (C69_reads_out true _).1 (by decide +kernel)
/-- A table with a port connector structure that is too short. -/
example : ({ portPiece with data := [0, 1] } : Piece).WF ∧
    ReadsOut (({ portPiece with data := [0, 1] } : Piece).raw ⟨2, 8⟩) :=
  ⟨⟨by decide, endsAtFirst_nil⟩, (C69_reads_out true _).1 (by decide +kernel)⟩

end Dmi.Props
