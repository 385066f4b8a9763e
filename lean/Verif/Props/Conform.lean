import Verif.Props.Verdict
/-!
# C108: structures that conform to the specification are decoded

The lengths are those DSP0134 gives for each type and version, and the string fields those it defines.
-/
namespace Dmi.Props
open Spec

/-- The type is one of the version. -/
def VersionKnows (s : RawStructure) : Prop :=
  match s.info with
  | .PhysicalMemoryArray | .MemoryDevice | .MemoryError32 | .MemoryArrayMappedAddress | .MemoryDeviceMappedAddress
  | .BuiltInPointingDevice | .PortableBattery => Since s 2 1
  | _ => Since s 2 0

/-- The length the specification gives for the type and the version: that of the fields defined, or more where it
says "at least". -/
def RightLength (s : RawStructure) : Prop :=
  match s.info with
  | .Bios => Fits s (if Since s 3 1 then 0x1A else if Since s 2 4 then 0x18 else if Since s 2 3 then 0x14 else
      if Since s 2 1 then 0x13 else 0x12)
  | .System => Fits s (if Since s 2 4 then 0x1B else if Since s 2 1 then 0x19 else 0x08)
  | .BaseBoard => Fits s 0x08
  | .Enclosure => Fits s (if Since s 2 1 then 0x0D else 0x09)
  | .Processor => Fits s (if Since s 3 6 then 0x32 else if Since s 3 0 then 0x30 else if Since s 2 6 then 0x2A else
      if Since s 2 5 then 0x28 else if Since s 2 3 then 0x23 else if Since s 2 1 then 0x20 else 0x1A)
  | .Cache => Fits s (if Since s 3 1 then 0x1B else if Since s 2 1 then 0x13 else 0x0F)
  | .PortConnector => Fits s 0x09
  | .SystemSlots => if Since s 3 2 then Fits s 0x11 else
      s.data.length + 4 = if Since s 2 6 then 0x11 else if Since s 2 1 then 0x0D else 0x0C
  | .OemStrings | .SystemConfigurationOptions | .GroupAssociations => Fits s 0x05
  | .BiosLanguage => Fits s 0x16
  | .SystemEventLog => if Since s 2 1 then
      Fits s 0x17 ∧ s.data.length + 4 = 0x17 + descriptorCount s * descriptorLength s else s.data.length + 4 = 0x14
  | .PhysicalMemoryArray => Fits s (if Since s 2 7 then 0x17 else 0x0F)
  | .MemoryDevice => Fits s (if Since s 3 3 then 0x5C else if Since s 3 2 then 0x54 else if Since s 2 8 then 0x28 else
      if Since s 2 7 then 0x22 else if Since s 2 6 then 0x1C else if Since s 2 3 then 0x1B else 0x15)
  | .MemoryError32 => s.data.length + 4 = 0x17
  | .MemoryArrayMappedAddress => s.data.length + 4 = if Since s 2 7 then 0x1F else 0x0F
  | .MemoryDeviceMappedAddress => s.data.length + 4 = if Since s 2 7 then 0x23 else 0x13
  | .BuiltInPointingDevice => s.data.length + 4 = 0x07
  | .PortableBattery => s.data.length + 4 = if Since s 2 2 then 0x1A else 0x10
  | _ => True

/-- The fields that are numbers of strings. -/
def stringFields (s : RawStructure) : List Nat :=
  match s.info with
  | .Bios => [0x04, 0x05, 0x08]
  | .System => [0x04, 0x05, 0x06, 0x07, 0x19, 0x1A]
  | .BaseBoard => [0x04, 0x05, 0x06, 0x07, 0x08, 0x0A]
  | .Enclosure => [0x04, 0x06, 0x07, 0x08, 0x15 + elementCount s * elementLength s]
  | .Processor => [0x04, 0x07, 0x10, 0x20, 0x21, 0x22]
  | .Cache | .SystemSlots | .GroupAssociations => [0x04]
  | .PortConnector => [0x04, 0x06]
  | .MemoryDevice => [0x10, 0x11, 0x17, 0x18, 0x19, 0x1A, 0x2B]
  | .PortableBattery => [0x04, 0x05, 0x06, 0x07, 0x08, 0x0E, 0x14]
  | _ => []

/-- A structure that conforms to the specification: its type and length are those of the version, every string
field that lies within it is 0 or the number of a string, an enclosure holds its contained elements, and
configuration options tell how many strings there are. -/
structure Conforms (s : RawStructure) : Prop where
  coherent : Coherent s
  version : VersionKnows s
  length : RightLength s
  strings : ∀ o ∈ stringFields s, Fits s (o + 1) → ¬ Dangling s o
  elements : s.info = .Enclosure → Fits s 0x15 → Fits s (0x15 + elementCount s * elementLength s)
  options : s.info = .SystemConfigurationOptions → ∃ l, IsStringList s.strings l ∧ l.length = (byte s 4).toNat

/-- C108, full statement. -/
def C108_full : Prop := ∀ (oc : Bool) (s : RawStructure), Conforms s → ∃ v, decodeStructure oc s = .ok v

/-- The conforming structures that are not decoded. -/
def NotRead (s : RawStructure) : Prop :=
  match s.info with
  | .BaseBoard => ¬ Fits s 0x0E
  | .Cache => ¬ Since s 2 1
  | .SystemEventLog => Since s 2 1 ∧ descriptorLength s = 0
  | .MemoryDevice => ¬ Fits s 0x20
  | _ => False

/-- Facts about versions and lengths. -/
macro "lengths" : tactic => `(tactic| (
  repeat' split at *
  all_goals (
    try simp only [ne_eq, ← UInt8.toNat_inj, UInt8.reduceToNat] at *
    simp only [Since, Fits] at *
    omega)))

theorem version_cases {s : RawStructure} (h : s.version = ⟨2, n⟩) : s.version.major.toNat = 2 ∧
    s.version.minor.toNat = n.toNat := by rw [h]; exact ⟨rfl, rfl⟩

/-- C108: a conforming structure is decoded unless it is one of those. -/
theorem C108_conforming_partial (oc : Bool) (s : RawStructure) (h : Conforms s) (hn : ¬ NotRead s) :
    ∃ v, decodeStructure oc s = .ok v := by
  obtain ⟨hc, hv, hl, hs, he, ho⟩ := h
  rw [C107_accepts oc s hc]
  unfold VersionKnows at hv
  unfold RightLength at hl
  unfold stringFields at hs
  unfold NotRead at hn
  unfold troubles
  have hlen : s.data.length + 4 = s.length.toNat := hc
  clear hc
  cases hi : s.info
  all_goals
    simp only [hi, reduceCtorEq, false_implies, true_implies] at hv hl hs he ho hn ⊢
  case Enclosure =>
    have hmod : Fits s 0x15 → elementCount s * elementLength s < 256 := by
      intro hf
      have := he hf
      have := s.length.toNat_lt
      unfold Fits at *
      omega
    simp only [List.forall_mem_cons, missing, wrongLength, Decidable.not_not]
    refine ⟨?_, hs _ (by simp) ?_, hs _ (by simp) ?_, hs _ (by simp) ?_, hs _ (by simp) ?_, fun h => ?_, fun h => ?_, nofun⟩
    · clear hs; lengths
    · clear hs; lengths
    · clear hs; lengths
    · clear hs; lengths
    · clear hs; lengths
    · have := hmod h.2.1
      omega
    · obtain ⟨h1, h2, h3⟩ := h
      have e : recordBytes s = elementCount s * elementLength s := Nat.mod_eq_of_lt (hmod h1)
      rw [e] at h2 h3
      exact hs _ (by simp) h2 h3
  case SystemConfigurationOptions =>
    simp only [List.forall_mem_cons, cutAt, Decidable.not_not]
    exact ⟨hl, fun h => h ho, nofun⟩
  case SystemEventLog =>
    clear he ho
    simp only [List.forall_mem_cons, cutAt, wrongLength, Decidable.not_not]
    refine ⟨fun h => ?_, fun h => ?_, fun h => ?_, ?_, fun h => ?_, nofun⟩
    · have := version_cases h.1
      rw [if_neg (by unfold Since; simp only [UInt8.reduceToNat] at this; omega)] at hl
      exact h.2 hl
    · rw [if_pos h.1] at hl
      exact h.2 hl.1
    · rw [if_pos h.1] at hl
      exact h.2 hl.2
    · clear hs; lengths
    · refine hn ⟨?_, h.2⟩
      apply Decidable.byContradiction
      intro h'
      rw [if_neg h'] at hl
      have := h.1
      unfold Fits at this
      omega
  case PortableBattery =>
    clear he ho
    simp only [List.forall_mem_cons, missing, cutAt, wrongLength, Decidable.not_not]
    refine ⟨fun h => ?_, ?_⟩
    · have := version_cases h.1
      rw [if_neg (by unfold Since; simp only [UInt8.reduceToNat] at this; omega)] at hl
      refine h.2 (UInt8.toNat_inj.1 ?_)
      rw [← hlen]
      exact hl
    · repeat' apply And.intro
      all_goals first
        | (intro c hc; cases hc; done)
        | (refine hs _ (by simp) ?_; clear hs; lengths)
        | (clear hs; lengths)
  case System =>
    clear he ho
    simp only [List.forall_mem_cons, overread, Decidable.not_not, systemLength]
    refine ⟨hl, ?_⟩
    split at hl
    · rename_i h
      simp only [if_pos h, List.map_cons, List.map_nil, List.forall_mem_cons, missing]
      refine ⟨?_, ?_, ?_, ?_, ?_, ?_, nofun⟩
      all_goals exact hs _ (by simp) (fits_mono hl (by decide))
    · rename_i h
      have hl : Fits s 8 := by clear hs; lengths
      simp only [if_neg h, List.map_cons, List.map_nil, List.forall_mem_cons, missing]
      refine ⟨?_, ?_, ?_, ?_, nofun⟩
      all_goals exact hs _ (by simp) (fits_mono hl (by decide))
  case Processor =>
    clear he ho
    simp only [List.forall_mem_cons, overread, Decidable.not_not, processorLength]
    refine ⟨by clear hs; lengths, ?_⟩
    by_cases h : Since s 2 3
    · have hl : Fits s 0x23 := by clear hs; lengths
      simp only [if_pos h, List.map_cons, List.map_nil, List.forall_mem_cons, missing]
      refine ⟨?_, ?_, ?_, ?_, ?_, ?_, nofun⟩
      all_goals exact hs _ (by simp) (fits_mono hl (by decide))
    · have hl : Fits s 0x1A := by clear hs; lengths
      simp only [if_neg h, List.map_cons, List.map_nil, List.forall_mem_cons, missing]
      refine ⟨?_, ?_, ?_, nofun⟩
      all_goals exact hs _ (by simp) (fits_mono hl (by decide))
  case PhysicalMemoryArray =>
    clear he ho
    simp only [List.forall_mem_cons]
    refine ⟨fun h => h.2 ⟨by clear hs h; lengths, fun h8 _ => by clear hs h; lengths⟩, nofun⟩
  all_goals
    clear he ho
    try simp only [List.map_cons, List.map_nil, List.forall_mem_cons, missing, cutAt, overread,
      wrongLength, Decidable.not_not, biosLength, cacheReads, languageLength]
    repeat' apply And.intro
    all_goals first
      | (intro c hc; cases hc; done)
      | (refine hs _ (by simp) ?_; clear hs; lengths)
      | (clear hs; lengths)

/-- C108: those are not decoded, so the exceptions are exact. -/
theorem C108_exceptions (oc : Bool) (s : RawStructure) (h : Conforms s) (hn : NotRead s) :
    ¬ ∃ v, decodeStructure oc s = .ok v := by
  rw [C107_accepts oc s h.coherent]
  have hl := h.length
  unfold RightLength at hl
  unfold NotRead at hn
  unfold troubles
  intro hf
  split at hn <;> rename_i hi <;> try simp only [hi] at hl hf
  · exact hf (overread s 0x0E) (by simp) hn
  · exact hf (¬ Since s 2 1, .panics) (by simp) hn
  · rw [if_pos hn.1] at hl
    exact hf (Fits s 0x17 ∧ descriptorLength s = 0, .panics) (by simp) ⟨hl.1, hn.2⟩
  · exact hf (cutAt s 0x20) (by simp) hn
  · exact hn

/-- C108 for tables: if all structures conform and none is an exception, each is reported decoded. -/
theorem C108_table_partial (oc : Bool) (v : SmbiosVersion) (n : UInt32) (ps : List Piece) (post : Bytes)
    (hps : ∀ p ∈ ps, p.WF ∧ Conforms (p.raw v) ∧ ¬ NotRead (p.raw v))
    (hnoend : v.major.toNat < 3 ∨ ∀ p ∈ ps, p.kind ≠ 127)
    (hlen : (ps.flatMap Piece.bytes ++ post).length + 4 < 2 ^ 32) (hn : n.toNat = (ps.flatMap Piece.bytes).length) :
    ∃ sts : List Structure, sts.length = ps.length ∧
      CollectsR (Structures.next oc) ⟨v, n, 0, ps.flatMap Piece.bytes ++ post⟩ (sts.map .ok) := by
  have hd : ∃ sts : List Structure, sts.length = ps.length ∧ Decoded oc v ps (sts.map .ok) := by
    clear hnoend hlen hn
    induction ps with
    | nil => exact ⟨[], rfl, .nil⟩
    | cons p ps ih =>
      obtain ⟨sts, hl, hd⟩ := ih fun q hq => hps q (List.mem_cons_of_mem _ hq)
      obtain ⟨-, hc, hr⟩ := hps p List.mem_cons_self
      obtain ⟨st, hst⟩ := C108_conforming_partial oc _ hc hr
      exact ⟨st :: sts, by simp [hl], .cons (by rw [hst]; rfl) hd⟩
  obtain ⟨sts, hl, hd⟩ := hd
  refine ⟨sts, hl, C12_round_trip oc v n ps _ post (fun p hp => (hps p hp).1) hnoend (by omega) ?_ hn hd⟩
  rw [List.length_append] at hlen
  omega

/-- A structure of zeros. -/
def minimal (v : SmbiosVersion) (i : InfoType) (n : UInt8) : RawStructure where
  version := v
  info := i
  length := n
  handle := 0
  data := List.replicate (n.toNat - 4) 0
  strings := [0, 0]

theorem minimal_byte (v i n) (o : Nat) : byte (minimal v i n) o = 0 := by
  unfold byte byteAt minimal
  simp only [List.getD_eq_getElem?_getD, List.getElem?_replicate]
  split <;> rfl

theorem minimal_refs (v i n) (o : Nat) : ¬ Dangling (minimal v i n) o := by
  intro h
  refine h [] ?_
  unfold Ref
  rw [minimal_byte]
  exact Or.inl ⟨rfl, rfl⟩

theorem minimal_conforms (v i n) (h4 : 4 ≤ n.toNat) (hv : VersionKnows (minimal v i n)) (hl : RightLength (minimal v i n))
    (hi : i ≠ .SystemConfigurationOptions) : Conforms (minimal v i n) where
  coherent := by
    show (List.replicate (n.toNat - 4) 0).length + 4 = n.toNat
    rw [List.length_replicate]; omega
  version := hv
  length := hl
  strings := fun o _ _ => minimal_refs v i n o
  elements := fun _ h => by
    have h0 : elementCount (minimal v i n) = 0 := by
      unfold elementCount
      rw [minimal_byte]
      rfl
    rw [h0, Nat.zero_mul]
    exact h
  options := fun h => absurd h hi

/-- C108: each kind of exception occurs. -/
theorem C108_exceptions_occur : ∀ i ∈ [InfoType.BaseBoard, .Cache, .SystemEventLog, .MemoryDevice],
    ∃ s, s.info = i ∧ Conforms s ∧ NotRead s := by
  intro i hi
  simp only [List.mem_cons, List.not_mem_nil, or_false] at hi
  rcases hi with rfl | rfl | rfl | rfl
  · exact ⟨minimal ⟨2, 0⟩ .BaseBoard 8, rfl, minimal_conforms _ _ _ (by decide)
      (show Since (minimal ⟨2, 0⟩ .BaseBoard 8) 2 0 by decide) (show Fits (minimal ⟨2, 0⟩ .BaseBoard 8) 8 by decide)
      (by decide), show ¬ Fits (minimal ⟨2, 0⟩ .BaseBoard 8) 0x0E by decide⟩
  · exact ⟨minimal ⟨2, 0⟩ .Cache 0x0F, rfl, minimal_conforms _ _ _ (by decide)
      (show Since (minimal ⟨2, 0⟩ .Cache 0x0F) 2 0 by decide) (show Fits (minimal ⟨2, 0⟩ .Cache 0x0F) 0x0F by decide)
      (by decide), show ¬ Since (minimal ⟨2, 0⟩ .Cache 0x0F) 2 1 by decide⟩
  · exact ⟨minimal ⟨2, 1⟩ .SystemEventLog 0x17, rfl, minimal_conforms _ _ _ (by decide)
      (show Since (minimal ⟨2, 1⟩ .SystemEventLog 0x17) 2 0 by decide)
      (show Fits (minimal ⟨2, 1⟩ .SystemEventLog 0x17) 0x17 ∧
        (minimal ⟨2, 1⟩ .SystemEventLog 0x17).data.length + 4 = 0x17 + descriptorCount (minimal ⟨2, 1⟩ .SystemEventLog 0x17) *
          descriptorLength (minimal ⟨2, 1⟩ .SystemEventLog 0x17) by decide)
      (by decide), show Since (minimal ⟨2, 1⟩ .SystemEventLog 0x17) 2 1 ∧
        descriptorLength (minimal ⟨2, 1⟩ .SystemEventLog 0x17) = 0 by decide⟩
  · exact ⟨minimal ⟨2, 6⟩ .MemoryDevice 0x1C, rfl, minimal_conforms _ _ _ (by decide)
      (show Since (minimal ⟨2, 6⟩ .MemoryDevice 0x1C) 2 1 by decide)
      (show Fits (minimal ⟨2, 6⟩ .MemoryDevice 0x1C) 0x1C by decide)
      (by decide), show ¬ Fits (minimal ⟨2, 6⟩ .MemoryDevice 0x1C) 0x20 by decide⟩

/-- C108, the full statement fails, for instance for a memory device of version 2.6. -/
theorem C108_full_false : ¬ C108_full := by
  intro h
  obtain ⟨s, -, hc, hn⟩ := C108_exceptions_occur .MemoryDevice (by simp)
  exact C108_exceptions true s hc hn (h true s hc)

/-- A conforming structure that is no exception: a memory device of version 2.7. -/
example : Conforms (minimal ⟨2, 7⟩ .MemoryDevice 0x22) ∧ ¬ NotRead (minimal ⟨2, 7⟩ .MemoryDevice 0x22) :=
  ⟨minimal_conforms _ _ _ (by decide) (show Since (minimal ⟨2, 7⟩ .MemoryDevice 0x22) 2 1 by decide)
    (show Fits (minimal ⟨2, 7⟩ .MemoryDevice 0x22) 0x22 by decide) (by decide),
    fun h => absurd (show Fits (minimal ⟨2, 7⟩ .MemoryDevice 0x22) 0x20 by decide) h⟩

end Dmi.Props
