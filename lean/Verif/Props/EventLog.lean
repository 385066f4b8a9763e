import Verif.Props.Memory
import Verif.Props.Enclosure
import Verif.Model.S015
/-!
# C45: system event logs (type 15)
-/
namespace Dmi.Props
open Spec system_event_log

/-- Number and length of the descriptors, at 15h and 16h. -/
def descriptorCount (s : RawStructure) : Nat := (byte s 0x15).toNat
def descriptorLength (s : RawStructure) : Nat := (byte s 0x16).toNat

/-- The length rule: 14h for 2.0; from 2.1 on 17h and the space of the descriptors. -/
def EventLogLength (s : RawStructure) : Prop :=
  (s.version = ⟨2, 0⟩ → s.data.length + 4 = 0x14) ∧
  (Since s 2 1 → Fits s 0x17 ∧
    s.data.length + 4 = 0x17 + descriptorCount s * descriptorLength s)

/-- The structure has descriptors. -/
def HasDescriptors (s : RawStructure) : Prop :=
  Fits s 0x17 ∧ Fits s (0x17 + descriptorCount s * descriptorLength s)

instance (s : RawStructure) : Decidable (HasDescriptors s) := by
  unfold HasDescriptors; infer_instance

/-- The descriptor of index `i`. -/
def descriptorAt (s : RawStructure) (i : Nat) : EventLogTypeDescriptor where
  log_type := EventLogType.ofU8 (byte s (0x17 + descriptorLength s * i))
  variable_data_format_type :=
    VariableDataFormatType.ofU8 (byte s (0x18 + descriptorLength s * i))

/-- The fields of a type 15 structure. -/
structure EventLogFields (s : RawStructure) (v : SystemEventLog) : Prop where
  handle : v.handle = s.handle
  log_area_length : v.log_area_length = word s 0x04
  log_header_start_offset : v.log_header_start_offset = word s 0x06
  log_data_start_offset : v.log_data_start_offset = word s 0x08
  access_method : v.access_method = AccessMethod.new (byte s 0x0A) (dword s 0x10)
  log_status : v.log_status = ⟨byte s 0x0B⟩
  log_change_token : v.log_change_token = dword s 0x0C
  log_header_format :
    When (Fits s 0x15) v.log_header_format (· = LogHeaderFormat.ofU8 (byte s 0x14))
  descriptors : When (HasDescriptors s) v.supported_event_log_type_descriptors
    (· = ⟨⟨bytesAt s.data 0x13 (descriptorCount s * descriptorLength s), descriptorLength s⟩⟩)

theorem descriptors_eval (oc : Bool) (s : RawStructure)
    (h0 : Fits s 0x17 → descriptorLength s ≠ 0) :
    descriptors oc s (optIf (Fits s (0x15 + 1)) (byte s 0x15))
      (optIf (Fits s (0x16 + 1)) (byte s 0x16)) =
    .ok (optIf (HasDescriptors s)
      ⟨⟨bytesAt s.data 0x13 (descriptorCount s * descriptorLength s), descriptorLength s⟩⟩) := by
  have hlt : (byte s 0x15).toNat * (byte s 0x16).toNat ≤ 255 * 255 :=
    Nat.mul_le_mul (Nat.le_of_lt_succ (byte s 0x15).toNat_lt)
      (Nat.le_of_lt_succ (byte s 0x16).toNat_lt)
  by_cases h17 : Fits s 0x17
  · rw [optIf, if_pos (fits_mono h17 (by decide)), optIf, if_pos h17]
    unfold descriptors
    simp only
    rw [get_slice_ge oc s _ _ (by decide) (by omega), ok_bind]
    by_cases hd : Fits s (0x17 + (byte s 0x15).toNat * (byte s 0x16).toNat)
    · rw [if_pos (c := _ ≤ _) hd, optIf, if_pos (c := HasDescriptors s) ⟨h17, hd⟩]
      simp only [SupportedEventLogTypeDescriptors.new]
      rw [if_neg (c := (byte s 0x16).toNat = 0) (h0 h17)]
      rfl
    · rw [if_neg (c := _ ≤ _) hd, optIf, if_neg (c := HasDescriptors s) (fun h => hd h.2)]
      rfl
  · rw [optIf, optIf, optIf, if_neg (c := HasDescriptors s) (fun h => h17 h.1),
      if_neg (c := Fits s (0x16 + 1)) h17]
    unfold descriptors
    split <;> first | rfl | simp_all

theorem eventLog_gate (oc : Bool) (s : RawStructure) (hl : EventLogLength s) :
    SystemEventLog.try_from oc s = SystemEventLog.decode oc s
      (optIf (Fits s (0x15 + 1)) (byte s 0x15)) (optIf (Fits s (0x16 + 1)) (byte s 0x16)) := by
  unfold SystemEventLog.try_from
  rw [get8_opt oc (by decide) (by decide), ok_bind, get8_opt oc (by decide) (by decide), ok_bind]
  simp only
  rw [if_neg (fun h => h.2 (hl.1 h.1)), if_neg]
  rintro ⟨hv, hn⟩
  obtain ⟨h1, h2⟩ := hl.2 ((ge_iff (by decide) (by decide)).1 hv)
  apply hn
  rw [optIf, if_pos (fits_mono h1 (by decide)), optIf, if_pos h1, h2]
  rfl

/-- C45: a structure of the right length, without descriptors of length 0, decodes to exactly the
stored values. -/
theorem C45_decodes (oc : Bool) (s : RawStructure) (hl : EventLogLength s) (h : Fits s 0x14)
    (h0 : Fits s 0x17 → descriptorLength s ≠ 0) (v : SystemEventLog) :
    SystemEventLog.try_from oc s = .ok v ↔ EventLogFields s v := by
  rw [eventLog_gate oc s hl]
  unfold SystemEventLog.decode
  rw [descriptors_eval oc s h0]
  access_eval oc h
  access_iff v

/-- C45: descriptors of length 0 panic. -/
theorem C45_panics (oc : Bool) (s : RawStructure) (hl : EventLogLength s) (h : Fits s 0x17)
    (h0 : descriptorLength s = 0) : SystemEventLog.try_from oc s = .panic := by
  have h14 : Fits s 0x14 := fits_mono h (by decide)
  rw [eventLog_gate oc s hl]
  unfold SystemEventLog.decode
  rw [get8_ok oc h14 (by decide) (by decide) (by decide), ok_bind,
    get32_ok oc h14 (by decide) (by decide) (by decide), ok_bind,
    optIf, if_pos (fits_mono h (by decide)), optIf, if_pos h]
  unfold descriptors
  simp only
  rw [show (byte s 0x16).toNat = 0 from h0, get_slice_ge oc s _ _ (by decide) (by simp), ok_bind,
    if_pos (by rw [Nat.mul_zero]; exact h)]
  rfl

/-- C45: every structure the decoder rejects, and why. -/
theorem C45_rejects (oc : Bool) (s : RawStructure) :
    (s.version = ⟨2, 0⟩ → s.data.length + 4 ≠ 0x14 → SystemEventLog.try_from oc s =
      .err (.InvalidFormattedSectionLength .SystemEventLog s.handle "" 0x14)) ∧
    (Since s 2 1 → ¬ Fits s 0x17 → SystemEventLog.try_from oc s =
      .err (.InvalidFormattedSectionLength .SystemEventLog s.handle "minimum of " 0)) ∧
    (Since s 2 1 → Fits s 0x17 →
      s.data.length + 4 ≠ 0x17 + descriptorCount s * descriptorLength s →
      SystemEventLog.try_from oc s =
        .err (.InvalidFormattedSectionLength .SystemEventLog s.handle "17h+(x*y) = "
          (.ofNat (0x17 + descriptorCount s * descriptorLength s)))) ∧
    (EventLogLength s → ¬ Fits s 0x14 → SystemEventLog.try_from oc s = .err .InvalidSlice) := by
  have hv20 : ∀ {s : RawStructure}, Since s 2 1 → s.version ≠ .ofPair 2 0 := by
    intro s h1 h2
    have : ¬ Since s 2 1 := by unfold Since; rw [h2]; decide
    exact this h1
  refine ⟨?_, ?_, ?_, ?_⟩
  · intro h1 h2
    unfold SystemEventLog.try_from
    rw [get8_opt oc (by decide) (by decide), ok_bind, get8_opt oc (by decide) (by decide), ok_bind]
    simp only
    rw [if_pos ⟨h1, h2⟩]
  · intro h1 h2
    unfold SystemEventLog.try_from
    rw [get8_opt oc (by decide) (by decide), ok_bind, get8_opt oc (by decide) (by decide), ok_bind]
    simp only
    have e : ((optIf (Fits s (0x15 + 1)) (byte s 0x15)).bind fun x =>
        (optIf (Fits s (0x16 + 1)) (byte s 0x16)).map fun y => 0x17 + x.toNat * y.toNat) = none := by
      rw [show optIf (Fits s (0x16 + 1)) (byte s 0x16) = none from if_neg h2]
      cases optIf (Fits s (0x15 + 1)) (byte s 0x15) <;> rfl
    rw [e, if_neg (fun h => hv20 h1 h.1), if_pos ⟨ge_pos h1, by simp⟩]
  · intro h1 h2 h3
    unfold SystemEventLog.try_from
    rw [get8_opt oc (by decide) (by decide), ok_bind, get8_opt oc (by decide) (by decide), ok_bind]
    simp only
    have e : ((optIf (Fits s (0x15 + 1)) (byte s 0x15)).bind fun x =>
        (optIf (Fits s (0x16 + 1)) (byte s 0x16)).map fun y => 0x17 + x.toNat * y.toNat) =
        some (0x17 + descriptorCount s * descriptorLength s) := by
      rw [optIf, if_pos (fits_mono h2 (by decide)), optIf, if_pos h2]
      rfl
    rw [e, if_neg (fun h => hv20 h1 h.1), if_pos ⟨ge_pos h1, by simpa using h3⟩]
  · intro hl h
    have h17 : ¬ Fits s 0x17 := fun h' => h (fits_mono h' (by decide))
    rw [eventLog_gate oc s hl]
    unfold SystemEventLog.decode
    rw [descriptors_eval oc s (fun h' => absurd h' h17)]
    apply slice_of_not_ok (s := s)
    · access_only
    · intro v hv
      simp (disch := decide) only [bind_ok_iff, get32_iff] at hv
      obtain ⟨_, -, _, hr, -⟩ := hv
      exact h hr.1

/-- C45: with the right length, and without descriptors of length 0, nothing else is rejected. -/
theorem C45_accepts (oc : Bool) (s : RawStructure) (hl : EventLogLength s) (h : Fits s 0x14)
    (h0 : Fits s 0x17 → descriptorLength s ≠ 0) :
    ∃ v, SystemEventLog.try_from oc s = .ok v := by
  rw [eventLog_gate oc s hl]
  unfold SystemEventLog.decode
  rw [descriptors_eval oc s h0]
  access_eval oc h
  exact ⟨_, rfl⟩

/-! #### The descriptors -/

theorem descriptors_collect (s : RawStructure) (h2 : descriptorLength s = 2) : ∀ k j,
    Collects SupportedEventLogTypeDescriptors.next ⟨⟨bytesAt s.data (0x13 + 2 * j) (k * 2), 2⟩⟩
      ((List.range' j k).map (descriptorAt s)) := by
  intro k
  induction k with
  | zero => intro j; exact .done rfl
  | succ k ih =>
    intro j
    rw [List.range'_succ, List.map_cons]
    refine .step (s' := ⟨⟨bytesAt s.data (0x13 + 2 * (j + 1)) (k * 2), 2⟩⟩) ?_ (ih (j + 1))
    unfold SupportedEventLogTypeDescriptors.next Chunks.next
    have hne : (bytesAt s.data (0x13 + 2 * j) ((k + 1) * 2)).isEmpty = false := by
      rw [List.isEmpty_eq_false_iff, ← List.length_pos_iff]
      simp [bytesAt]
    have e : bytesAt s.data (0x13 + 2 * j) 2 =
        [byte s (0x17 + 2 * j), byte s (0x18 + 2 * j)] := by
      simp only [byte, bytesAt, List.range_succ, List.range_zero, List.map_cons,
        List.map_nil, List.nil_append, List.cons_append]
      rw [show 0x17 + 2 * j - 4 = 0x13 + 2 * j by omega,
        show 0x18 + 2 * j - 4 = 0x13 + 2 * j + 1 by omega]
      rfl
    simp only [hne, Bool.false_eq_true, if_false]
    rw [take_bytesAt _ _ _ _ (by omega), e, drop_bytesAt]
    simp only [show 0x13 + 2 * j + 2 = 0x13 + 2 * (j + 1) by omega,
      show (k + 1) * 2 - 2 = k * 2 by omega, descriptorAt, h2]

/-- C45, full statement: a structure of the right length decodes without fault, and iterating its
descriptors yields all of them, whatever their length. -/
def C45_full : Prop := ∀ (oc : Bool) (s : RawStructure), EventLogLength s → Fits s 0x14 →
  ∃ v, SystemEventLog.try_from oc s = .ok v ∧
    When (HasDescriptors s) v.supported_event_log_type_descriptors (fun d =>
      Collects SupportedEventLogTypeDescriptors.next d
        ((List.range (descriptorCount s)).map (descriptorAt s)))

/-- C45: the full statement holds for descriptors of length 2. -/
theorem C45_descriptors_partial (oc : Bool) (s : RawStructure) (hl : EventLogLength s)
    (h : Fits s 0x14) (h2 : Fits s 0x17 → descriptorLength s = 2) :
    ∃ v, SystemEventLog.try_from oc s = .ok v ∧
      When (HasDescriptors s) v.supported_event_log_type_descriptors (fun d =>
        Collects SupportedEventLogTypeDescriptors.next d
          ((List.range (descriptorCount s)).map (descriptorAt s))) := by
  have h0 : Fits s 0x17 → descriptorLength s ≠ 0 := fun h => by rw [h2 h]; decide
  obtain ⟨v, hv⟩ := C45_accepts oc s hl h h0
  refine ⟨v, hv, ?_⟩
  have := ((C45_decodes oc s hl h h0 v).1 hv).descriptors
  rw [when_eq] at this
  rw [this]
  by_cases hd : HasDescriptors s
  · refine .inl ⟨hd, _, by rw [optIf, if_pos hd], ?_⟩
    have hc := descriptors_collect s (h2 hd.1) (descriptorCount s) 0
    rw [h2 hd.1, List.range_eq_range']
    exact hc
  · exact .inr ⟨hd, by rw [optIf, if_neg hd]⟩

/-- C45: descriptors of other lengths are decoded but iterating them yields nothing. -/
theorem C45_other_lengths (oc : Bool) (s : RawStructure) (hl : EventLogLength s)
    (h : Fits s 0x17) (hd : HasDescriptors s) (h0 : descriptorLength s ≠ 0)
    (h2 : descriptorLength s ≠ 2) :
    ∃ v d, SystemEventLog.try_from oc s = .ok v ∧
      v.supported_event_log_type_descriptors = some d ∧
      Collects SupportedEventLogTypeDescriptors.next d [] := by
  have h14 : Fits s 0x14 := fits_mono h (by decide)
  obtain ⟨v, hv⟩ := C45_accepts oc s hl h14 (fun _ => h0)
  have := ((C45_decodes oc s hl h14 (fun _ => h0) v).1 hv).descriptors
  rw [when_eq, optIf, if_pos hd] at this
  refine ⟨v, _, hv, this, ?_⟩
  by_cases hn : descriptorCount s = 0
  · refine .done (s' := ⟨⟨bytesAt s.data 0x13 (descriptorCount s * descriptorLength s),
      descriptorLength s⟩⟩) ?_
    simp [SupportedEventLogTypeDescriptors.next, Chunks.next, hn, bytesAt]
  · have hle : descriptorLength s ≤ descriptorCount s * descriptorLength s :=
      Nat.le_mul_of_pos_left _ (Nat.pos_of_ne_zero hn)
    have hne : (bytesAt s.data 0x13 (descriptorCount s * descriptorLength s)).isEmpty = false := by
      rw [List.isEmpty_eq_false_iff, ← List.length_pos_iff]
      simp only [bytesAt, List.length_map, List.length_range]
      omega
    refine .done (s' := ⟨⟨(bytesAt s.data 0x13
      (descriptorCount s * descriptorLength s)).drop (descriptorLength s), descriptorLength s⟩⟩) ?_
    unfold SupportedEventLogTypeDescriptors.next Chunks.next
    simp only [hne, Bool.false_eq_true, if_false]
    rw [take_bytesAt _ _ _ _ hle]
    split
    · rename_i heq; cases heq
    · rename_i a b ch heq
      have hlen : (bytesAt s.data 0x13 (descriptorLength s)).length = 2 := by
        have := congrArg (fun p => p.1) heq
        simp only [Option.some.injEq] at this
        rw [this]; rfl
      simp only [bytesAt, List.length_map, List.length_range] at hlen
      exact absurd hlen h2
    · rename_i heq
      injection heq with _ e
      rw [← e]

/-- An event log of version 2.1 with two descriptors of length `m`. -/
def exampleLog (m : UInt8) (rest : Bytes) : RawStructure where
  version := ⟨2, 1⟩
  info := .SystemEventLog
  length := 0x17 + 2 * m
  handle := 0x0F00
  data := [0, 2, 0, 0, 0x10, 0, 4, 1, 0, 0, 0, 0, 1, 0, 0, 0, 1, 2, m] ++ rest
  strings := [0, 0]

example : EventLogLength (exampleLog 2 [1, 0, 8, 4]) ∧ Fits (exampleLog 2 [1, 0, 8, 4]) 0x17 ∧
    descriptorLength (exampleLog 2 [1, 0, 8, 4]) = 2 := by unfold EventLogLength; decide
example : EventLogLength (exampleLog 3 [1, 0, 0, 8, 4, 0]) ∧
    HasDescriptors (exampleLog 3 [1, 0, 0, 8, 4, 0]) := by unfold EventLogLength; decide
example : (SystemEventLog.try_from true (exampleLog 2 [1, 0, 8, 4])).okAnd (fun v =>
    v.log_area_length = 0x200 ∧ v.access_method = .GeneralPurposeNonVolatileData 0x0001) = true := by
  decide +kernel

/-- C45, the full statement fails: descriptors of length 0. -/
theorem C45_full_false : ¬ C45_full := by
  intro hf
  have hl : EventLogLength (exampleLog 0 []) := by unfold EventLogLength; decide
  obtain ⟨v, hv, -⟩ := hf true (exampleLog 0 []) hl (by decide)
  rw [C45_panics true _ hl (by decide) (by decide)] at hv
  cases hv

/-- The hypotheses of `C45_panics` can be met. -/
example : EventLogLength (exampleLog 0 []) ∧ Fits (exampleLog 0 []) 0x17 ∧
    descriptorLength (exampleLog 0 []) = 0 := by unfold EventLogLength; decide

end Dmi.Props
