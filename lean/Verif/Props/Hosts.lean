import Verif.Proofs.Hosts
import Verif.Props.EndToEnd
/-!
# C78: tables on big-endian hosts

The table is little-endian. The crate copies some of its integers without converting them, so that a
big-endian host reports them with the bytes reversed.
-/
namespace Dmi.Props
open Spec BigEndian

/-- C78, full statement: big-endian hosts report what little-endian hosts do. -/
def C78_full : Prop :=
  (∀ b, BigEndian.search b = EntryPoint.search b) ∧ ∀ oc s, BigEndian.next oc s = s.next oc

/-! ### Entry points -/

/-- The integers wider than a byte with the bytes reversed. -/
def entrySwapped : EntryPoint → EntryPoint
  | .V2 p => .V2 { p with
      signature := .ofNat (swapped 4 p.signature.toNat)
      struct_max := .ofNat (swapped 2 p.struct_max.toNat)
      smbios_len := .ofNat (swapped 2 p.smbios_len.toNat)
      smbios_address := .ofNat (swapped 4 p.smbios_address.toNat)
      smbios_count := .ofNat (swapped 2 p.smbios_count.toNat) }
  | .V3 p => .V3 { p with
      smbios_len_max := .ofNat (swapped 4 p.smbios_len_max.toNat)
      smbios_address := .ofNat (swapped 8 p.smbios_address.toNat) }

theorem leAt_reverse (ws : List (Nat × Nat)) (b : Bytes) {o w : Nat} (hp : ws.Pairwise Apart)
    (hm : (o, w) ∈ ws) (h : o + w ≤ b.length) : leAt (reverse ws b) o w = swapped w (leAt b o w) := by
  rw [swapped_leAt]
  exact leAt_mirror _ _ fun i hi => byteAt_reverse_inside ws b hp hm h hi

theorem bytesAt_reverse (ws : List (Nat × Nat)) (b : Bytes) {o w : Nat}
    (h : ∀ p ∈ ws, o + w ≤ p.1 ∨ p.1 + p.2 ≤ o) : bytesAt (reverse ws b) o w = bytesAt b o w := by
  unfold bytesAt
  apply List.map_congr_left
  intro i hi
  rw [List.mem_range] at hi
  exact byteAt_reverse_outside _ _ fun p hp => by have := h p hp; omega

theorem v2_reversed {ε : Type} (b : Bytes) (h : 31 ≤ b.length) : ∃ p,
    (letAsStruct EntryPointV2.packed b : Res ε _) = .ok p ∧ ∃ q,
    (letAsStruct EntryPointV2.packed (reverse v2Words b) : Res ε _) = .ok q ∧
    EntryPoint.V2 q = entrySwapped (.V2 p) := by
  refine ⟨_, EntryPointV2.packed_eval b h, _, EntryPointV2.packed_eval _ (by rw [length_reverse]; exact h), ?_⟩
  have o : ∀ i, (∀ p ∈ v2Words, i < p.1 ∨ p.1 + p.2 ≤ i) → byteAt (reverse v2Words b) i = byteAt b i :=
    fun i h => byteAt_reverse_outside _ _ h
  have d : v2Words.Pairwise Apart := by decide
  simp (disch := decide) only [entrySwapped, o, bytesAt_reverse]
  simp only [u16At_toNat, u32At_toNat]
  rw [← leAt_reverse v2Words b d (by decide) (by omega), ← leAt_reverse v2Words b d (by decide) (by omega),
    ← leAt_reverse v2Words b d (by decide) (by omega), ← leAt_reverse v2Words b d (by decide) (by omega),
    ← leAt_reverse v2Words b d (by decide) (by omega)]
  rfl

theorem v3_reversed {ε : Type} (b : Bytes) (h : 24 ≤ b.length) : ∃ p,
    (letAsStruct EntryPointV3.packed b : Res ε _) = .ok p ∧ ∃ q,
    (letAsStruct EntryPointV3.packed (reverse v3Words b) : Res ε _) = .ok q ∧
    EntryPoint.V3 q = entrySwapped (.V3 p) := by
  refine ⟨_, EntryPointV3.packed_eval b h, _, EntryPointV3.packed_eval _ (by rw [length_reverse]; exact h), ?_⟩
  have o : ∀ i, (∀ p ∈ v3Words, i < p.1 ∨ p.1 + p.2 ≤ i) → byteAt (reverse v3Words b) i = byteAt b i :=
    fun i h => byteAt_reverse_outside _ _ h
  have d : v3Words.Pairwise Apart := by decide
  simp (disch := decide) only [entrySwapped, o, bytesAt_reverse]
  simp only [u64At_toNat, u32At_toNat]
  rw [← leAt_reverse v3Words b d (by decide) (by omega), ← leAt_reverse v3Words b d (by decide) (by omega)]
  rfl

theorem swapped_major (e : EntryPoint) : (entrySwapped e).major = e.major := by cases e <;> rfl
theorem swapped_len (e : EntryPoint) : (entrySwapped e).len = e.len := by cases e <;> rfl

theorem map_ok_eq {ε α β : Type} (f : α → β) (a : α) : (Res.ok a : Res ε α).map f = .ok (f a) := rfl
theorem bind_congr_ok {ε α β : Type} {x : Res ε α} {k k' : α → Res ε β}
    (h : ∀ a, x = .ok a → k a = k' a) : x >>= k = x >>= k' := by
  cases x with
  | ok a => exact h a rfl
  | _ => rfl
theorem libEnsure_true {ε : Type} {c : Prop} [Decidable c] (h : c) (e : ε) :
    libEnsure (decide c) e = .ok () := by simp [libEnsure, h]
theorem libEnsure_false {ε : Type} {c : Prop} [Decidable c] (h : ¬ c) (e : ε) :
    libEnsure (decide c) e = .err e := by simp [libEnsure, h]

/-- C78: the same buffers are accepted, rejected alike; table address, table length, number and size of
structures are reported with their bytes reversed. -/
theorem C78_search_partial (b : Bytes) : BigEndian.search b = (EntryPoint.search b).map entrySwapped := by
  unfold BigEndian.search EntryPoint.search
  cases findSignature b with
  | none => rfl
  | some x =>
    obtain ⟨kind, start⟩ := x
    simp only [map_bind]
    refine bind_congr_ok fun sub _ => ?_
    cases kind
    · by_cases h : sub.length ≥ EntryPointV2.size
      · obtain ⟨p, hp, q, hq, e⟩ := v2_reversed (ε := InvalidEntryPointError) sub h
        have l : q.len = p.len := by
          have := congrArg EntryPoint.len e
          rwa [swapped_len] at this
        simp only [hp, hq, libEnsure_true h, ok_bind, pure_eq_ok, l, e, swapped_major, swapped_len,
          map_bind, map_ok_eq]
      · simp only [libEnsure_false h]
        rfl
    · by_cases h : sub.length ≥ EntryPointV3.size
      · obtain ⟨p, hp, q, hq, e⟩ := v3_reversed (ε := InvalidEntryPointError) sub h
        have l : q.len = p.len := by
          have := congrArg EntryPoint.len e
          rwa [swapped_len] at this
        simp only [hp, hq, libEnsure_true h, ok_bind, pure_eq_ok, l, e, swapped_major, swapped_len,
          map_bind, map_ok_eq]
      · simp only [libEnsure_false h]
        rfl

/-! ### Structures -/

theorem native_four (i : InfoType) : ∀ p ∈ nativeWords i, 4 ≤ p.1 := by
  cases i <;> simp [nativeWords]

theorem native_apart (i : InfoType) : (nativeWords i).Pairwise Apart := by
  cases i <;> first | exact .nil | (simp only [nativeWords]; decide)

/-- The structure as the decoders of a big-endian host see it, under its own handle. -/
def turned (s : RawStructure) : RawStructure :=
  { s with data := reverse ((nativeWords s.info).map fun p => (p.1 - 4, p.2)) s.data }

theorem seen_eq (s : RawStructure) : seen s = Under (turned s) (swap16 s.handle) := rfl

theorem seen_outside {s : RawStructure} {o : Nat} (h4 : 4 ≤ o)
    (h : ∀ p ∈ nativeWords s.info, o < p.1 ∨ p.1 + p.2 ≤ o) : byte (seen s) o = byte s o := by
  unfold byte seen
  apply byteAt_reverse_outside
  intro p hp
  obtain ⟨q, hq, rfl⟩ := List.mem_map.1 hp
  have h1 := native_four _ q hq
  have h2 := h q hq
  simp only
  omega

theorem seen_inside {s : RawStructure} {o w i : Nat} (hm : (o, w) ∈ nativeWords s.info)
    (hf : Fits s (o + w)) (hi : i < w) : byte (seen s) (o + i) = byte s (o + w - 1 - i) := by
  have h1 := native_four _ _ hm
  unfold Fits at hf
  simp only at h1
  unfold byte
  rw [show o + i - 4 = o - 4 + i by omega, show o + w - 1 - i - 4 = o - 4 + w - 1 - i by omega]
  apply byteAt_reverse_inside
  · have := native_apart s.info
    rw [List.pairwise_map]
    refine this.imp_of_mem ?_
    intro a b ha hb hab
    have := native_four _ _ ha
    have := native_four _ _ hb
    unfold Apart at *
    simp only
    omega
  · exact List.mem_map.2 ⟨_, hm, rfl⟩
  · omega
  · exact hi

/-- C78: of the bytes of a structure exactly the integers listed are read in reverse order. -/
theorem C78_words (s : RawStructure) :
    (∀ o w, (o, w) ∈ nativeWords s.info → Fits s (o + w) → ∀ i < w,
      byte (seen s) (o + i) = byte s (o + w - 1 - i)) ∧
    (∀ o, 4 ≤ o → (∀ p ∈ nativeWords s.info, o < p.1 ∨ p.1 + p.2 ≤ o) → byte (seen s) o = byte s o) ∧
    (seen s).data.length = s.data.length ∧ (seen s).info = s.info ∧ (seen s).version = s.version ∧
    (seen s).length = s.length ∧ (seen s).strings = s.strings :=
  ⟨fun _ _ hm hf _ hi => seen_inside hm hf hi, fun _ h4 h => seen_outside h4 h,
    length_reverse _ _, rfl, rfl, rfl, rfl⟩

theorem twin_turned (s : RawStructure) : Twin s (turned s) :=
  ⟨rfl, rfl, rfl, rfl, rfl, length_reverse _ _, fun _ h4 h => seen_outside (s := s) h4 h⟩

/-- The error with the bytes of the handle reversed. -/
def errorSwapped : MalformedStructureError → MalformedStructureError
  | .InvalidStringIndex i h n => .InvalidStringIndex i (swap16 h) n
  | .InvalidFormattedSectionLength i h t n => .InvalidFormattedSectionLength i (swap16 h) t n
  | e => e

/-- The same outcome with the same texts. -/
def Outcome : R Structure → R Structure → Prop
  | .ok v, .ok v' => textFields v = textFields v'
  | .err e, .err e' => e' = errorSwapped e
  | .panic, .panic => True
  | .ub, .ub => True
  | _, _ => False

theorem texts_withHandle (h : UInt16) (v : Structure) : textFields (withHandle h v) = textFields v := by
  cases v <;> rfl

theorem error_own_handle (oc : Bool) (s : RawStructure) (hx : s.info = .PhysicalMemoryArray → Since s 2 2)
    (e : MalformedStructureError) (h : decodeStructure oc s = .err e) :
    errorWithHandle (swap16 s.handle) e = errorSwapped e := by
  have k := decode_sim oc s s.handle hx
  rw [show Under s s.handle = s from rfl] at k
  unfold Sim at k
  rw [h] at k
  have : e = errorWithHandle s.handle e := by
    simpa [Res.mapErr, Res.map] using k
  cases e <;> first | rfl | (simp [errorWithHandle] at this; subst this; rfl)

/-- C78: a structure is accepted, rejected, panicked at alike, and its texts are the same. -/
theorem C78_outcome (oc : Bool) (s : RawStructure) :
    Outcome (decodeStructure oc s) (decodeStructure oc (seen s)) := by
  rw [seen_eq]
  have T := twin_decode oc (twin_turned s)
  by_cases hx : s.info = .PhysicalMemoryArray ∧ ¬ Since s 2 2
  · rw [C77_old_array oc _ _ (show (turned s).info = _ from hx.1) hx.2]
    obtain ⟨v, h1, -⟩ := C57_old_array oc s hx.1 hx.2
    obtain ⟨v', h2, -⟩ := C57_old_array oc (turned s) hx.1 hx.2
    rw [h1, h2] at T ⊢
    exact T
  · have hx : s.info = .PhysicalMemoryArray → Since s 2 2 := fun e => Classical.not_not.1 fun n => hx ⟨e, n⟩
    have k := decode_sim oc (turned s) (swap16 s.handle) hx
    have eh := error_own_handle oc s hx
    unfold Sim at k
    rw [k]
    generalize decodeStructure oc s = x at *
    generalize decodeStructure oc (turned s) = y at *
    cases x <;> cases y <;> first | exact T.elim | trivial | skip
    · show _ = textFields (withHandle _ _)
      rw [texts_withHandle]; exact T
    · cases T
      exact eh _ rfl

/-! ### Values -/

/-- The `w` bytes at offset `o` read the same in both directions. -/
def Palindrome (s : RawStructure) (o w : Nat) : Prop := ∀ i < w, byte s (o + i) = byte s (o + w - 1 - i)

/-- The bits at the given positions are unchanged by exchanging the bytes of the word at `o`. -/
def EqualBits (bits : List Nat) (s : RawStructure) (o : Nat) : Prop :=
  ∀ i ∈ bits, (leAt s.data (o - 4) 2).testBit i = (beAt s.data (o - 4) 2).testBit i

/-- What is kept of the integers read without conversion does not change when their bytes are
reversed. -/
def Symmetric (s : RawStructure) : Prop :=
  match s.info with
  | .Bios => Palindrome s 0x06 2 ∧ Palindrome s 0x0A 8 ∧ (Since s 3 1 → Palindrome s 0x18 2)
  | .BaseBoard => Palindrome s 0x0B 2
  | .Enclosure => Fits s 0x11 → Palindrome s 0x0D 4
  | .Processor =>
      (Since s 2 6 → byte s 0x06 = 0xFE → Palindrome s 0x28 2) ∧
      Palindrome s 0x08 8 ∧ Palindrome s 0x12 2 ∧ Palindrome s 0x14 2 ∧ Palindrome s 0x16 2 ∧
      (Since s 2 1 → Palindrome s 0x1A 2 ∧ Palindrome s 0x1C 2 ∧ Palindrome s 0x1E 2) ∧
      (Since s 3 0 → (byte s 0x23 = 0xFF → Palindrome s 0x2A 2) ∧
        (byte s 0x24 = 0xFF → Palindrome s 0x2C 2) ∧ (byte s 0x25 = 0xFF → Palindrome s 0x2E 2)) ∧
      (Since s 2 6 → EqualBits [0, 1, 2, 3, 4, 5, 6, 7, 9] s 0x26)
  | .Cache =>
      EqualBits [0, 1, 2, 3, 5, 6, 7, 8, 9] s 0x05 ∧ Palindrome s 0x07 2 ∧ Palindrome s 0x09 2 ∧
      EqualBits (List.range 7) s 0x0B ∧ EqualBits (List.range 7) s 0x0D ∧
      (Since s 3 2 → Palindrome s 0x13 4 ∧ Palindrome s 0x17 4)
  | _ => True

variable {s : RawStructure} {o w : Nat}

theorem same_inside (hm : (o, w) ∈ nativeWords s.info) (hf : Fits s (o + w)) :
    SameBytes s (seen s) o w ↔ Palindrome s o w := by
  unfold SameBytes Palindrome
  constructor <;> intro h i hi
  · rw [h i hi, seen_inside hm hf hi]
  · rw [h i hi, seen_inside hm hf hi]

theorem same_outside (h4 : 4 ≤ o) (h : ∀ p ∈ nativeWords s.info, o + w ≤ p.1 ∨ p.1 + p.2 ≤ o) :
    SameBytes s (seen s) o w ↔ True :=
  iff_true_intro fun i hi => (seen_outside (by omega) fun p hp => by have := h p hp; omega).symm

theorem word_toNat (s : RawStructure) (o : Nat) : (word s o).toNat = leAt s.data (o - 4) 2 := u16At_toNat _ _

theorem seen_word (hm : (o, 2) ∈ nativeWords s.info) (hf : Fits s (o + 2)) :
    (word (seen s) o).toNat = beAt s.data (o - 4) 2 := by
  have h1 := native_four _ _ hm
  simp only at h1
  rw [word_toNat]
  apply leAt_mirror
  intro i hi
  have := seen_inside hm hf hi
  unfold byte at this
  rwa [show o + i - 4 = o - 4 + i by omega, show o + 2 - 1 - i - 4 = o - 4 + 2 - 1 - i by omega] at this

theorem same_bits {bits : List Nat} (hm : (o, 2) ∈ nativeWords s.info) (hf : Fits s (o + 2)) :
    SameBits bits (word s o).toNat (word (seen s) o).toNat ↔ EqualBits bits s o := by
  rw [seen_word hm hf, word_toNat]; rfl

theorem same_seen_word (hm : (o, 2) ∈ nativeWords s.info) (hf : Fits s (o + 2)) :
    word s o = word (seen s) o ↔ Palindrome s o 2 := by
  rw [word_agree (native_four _ _ hm), same_inside hm hf]

theorem fits_le {n m : Nat} (h : Fits s n) (hm : m ≤ n) : Fits s m := by unfold Fits at *; omega

theorem since_seen {a b : Nat} {p : Prop} : JointlySince s (seen s) a b p ↔ (Since s a b → p) :=
  and_iff_right Iff.rfl

theorem symmetric_bios (hi : s.info = .Bios) (hf : Fits s (biosLength s)) :
    SameNumbers s (seen s) ↔ Symmetric s := by
  have a {o w} (h : 4 ≤ o ∧ ∀ p ∈ nativeWords .Bios, o + w ≤ p.1 ∨ p.1 + p.2 ≤ o) :
      SameBytes s (seen s) o w ↔ True := same_outside h.1 (hi ▸ h.2)
  have b {o w} (hm : (o, w) ∈ nativeWords .Bios) : Fits s (o + w) → (SameBytes s (seen s) o w ↔ Palindrome s o w) :=
    same_inside (hi ▸ hm)
  unfold SameNumbers Symmetric
  simp only [hi]
  have f : 0x12 ≤ biosLength s := by unfold biosLength; (repeat' split) <;> decide
  have f' : Since s 3 1 → Fits s 0x1A := by
    intro h; unfold biosLength at hf; rwa [if_pos h] at hf
  simp (disch := decide) only [since_seen, sameAt_cons, sameAt_nil, a, and_true, true_and, implies_true]
  rw [b (by decide) (fits_le hf (by omega)), b (by decide) (fits_le hf (by omega))]
  constructor
  · rintro ⟨⟨h1, h2⟩, h3⟩
    exact ⟨h1, h2, fun h => (b (by decide) (f' h)).1 (h3 h)⟩
  · rintro ⟨h1, h2, h3⟩
    exact ⟨⟨h1, h2⟩, fun h => (b (by decide) (f' h)).2 (h3 h)⟩

theorem symmetric_baseboard (hi : s.info = .BaseBoard) (hf : Fits s 0x0E) :
    SameNumbers s (seen s) ↔ Symmetric s := by
  have a {o w} (h : 4 ≤ o ∧ ∀ p ∈ nativeWords .BaseBoard, o + w ≤ p.1 ∨ p.1 + p.2 ≤ o) :
      SameBytes s (seen s) o w ↔ True := same_outside h.1 (hi ▸ h.2)
  have b {o w} (hm : (o, w) ∈ nativeWords .BaseBoard) :
      Fits s (o + w) → (SameBytes s (seen s) o w ↔ Palindrome s o w) := same_inside (hi ▸ hm)
  unfold SameNumbers Symmetric
  simp only [hi]
  rw [show byte (seen s) 0x09 = byte s 0x09 from seen_outside (by decide) (by rw [hi]; decide)]
  simp (disch := decide) only [sameAt_cons, sameAt_nil, a, and_true]
  rw [b (by decide) (fits_le hf (by omega))]
  exact and_iff_right fun _ _ => rfl

theorem symmetric_enclosure (hi : s.info = .Enclosure) : SameNumbers s (seen s) ↔ Symmetric s := by
  have a {o w} (h : 4 ≤ o ∧ ∀ p ∈ nativeWords .Enclosure, o + w ≤ p.1 ∨ p.1 + p.2 ≤ o) :
      SameBytes s (seen s) o w ↔ True := same_outside h.1 (hi ▸ h.2)
  have b {o w} (hm : (o, w) ∈ nativeWords .Enclosure) :
      Fits s (o + w) → (SameBytes s (seen s) o w ↔ Palindrome s o w) := same_inside (hi ▸ hm)
  have c : ∀ w, SameBytes s (seen s) 0x13 w ↔ True := fun w => a ⟨by decide, by
    simp only [nativeWords, List.mem_singleton, forall_eq]; omega⟩
  have r : recordBytes (seen s) = recordBytes s := by
    unfold recordBytes elementCount elementLength
    rw [seen_outside (by decide) (by rw [hi]; decide), seen_outside (by decide) (by rw [hi]; decide)]
  have e : HasElements (seen s) ↔ HasElements s := by
    unfold HasElements
    rw [r]; unfold Fits; rw [show (seen s).data.length = s.data.length from length_reverse _ _]
  have g {n p} : JointlyFit s (seen s) n p ↔ (Fits s n → p) := by
    unfold JointlyFit Jointly Fits; rw [show (seen s).data.length = s.data.length from length_reverse _ _]
    exact and_iff_right Iff.rfl
  unfold SameNumbers Symmetric
  simp only [hi]
  simp (disch := decide) only [g, sameAt_cons, sameAt_nil, a, c, e, and_true, true_and, implies_true]
  constructor
  · exact fun h k => (b (by decide) k).1 (h k)
  · exact fun h k => (b (by decide) k).2 (h k)

theorem symmetric_cache (hi : s.info = .Cache) (hf : Fits s (cacheReads s)) :
    SameNumbers s (seen s) ↔ Symmetric s := by
  have a {o w} (h : 4 ≤ o ∧ ∀ p ∈ nativeWords .Cache, o + w ≤ p.1 ∨ p.1 + p.2 ≤ o) :
      SameBytes s (seen s) o w ↔ True := same_outside h.1 (hi ▸ h.2)
  have b {o w} (hm : (o, w) ∈ nativeWords .Cache) :
      Fits s (o + w) → (SameBytes s (seen s) o w ↔ Palindrome s o w) := same_inside (hi ▸ hm)
  have c {bits o} (hm : (o, 2) ∈ nativeWords .Cache) : Fits s (o + 2) →
      (SameBits bits (word s o).toNat (word (seen s) o).toNat ↔ EqualBits bits s o) := same_bits (hi ▸ hm)
  have f : 0x0F ≤ cacheReads s := by unfold cacheReads; (repeat' split) <;> decide
  have f' : Since s 3 2 → Fits s 0x1B := by
    intro h; unfold cacheReads at hf; rwa [if_pos h] at hf
  unfold SameNumbers Symmetric
  simp only [hi]
  simp (disch := decide) only [since_seen, sameAt_cons, sameAt_nil, a, and_true, true_and, implies_true]
  rw [c (by decide) (fits_le hf (by omega)), c (by decide) (fits_le hf (by omega)),
    c (by decide) (fits_le hf (by omega)), b (by decide) (fits_le hf (by omega)),
    b (by decide) (fits_le hf (by omega)), and_assoc]
  refine and_congr_right fun _ => and_congr_right fun _ => and_congr_right fun _ =>
    and_congr_right fun _ => and_congr_right fun _ => forall_congr' fun h => ?_
  rw [b (by decide) (fits_le (f' h) (by decide)), b (by decide) (fits_le (f' h) (by decide))]

theorem symmetric_processor (hi : s.info = .Processor) (hf : Fits s (processorLength s)) :
    SameNumbers s (seen s) ↔ Symmetric s := by
  have a {o w} (h : 4 ≤ o ∧ ∀ p ∈ nativeWords .Processor, o + w ≤ p.1 ∨ p.1 + p.2 ≤ o) :
      SameBytes s (seen s) o w ↔ True := same_outside h.1 (hi ▸ h.2)
  have a' {o} (h : 4 ≤ o ∧ ∀ p ∈ nativeWords .Processor, o < p.1 ∨ p.1 + p.2 ≤ o) :
      byte (seen s) o = byte s o := seen_outside h.1 (hi ▸ h.2)
  have b {o w} (hm : (o, w) ∈ nativeWords .Processor) :
      Fits s (o + w) → (SameBytes s (seen s) o w ↔ Palindrome s o w) := same_inside (hi ▸ hm)
  have c {bits o} (hm : (o, 2) ∈ nativeWords .Processor) : Fits s (o + 2) →
      (SameBits bits (word s o).toNat (word (seen s) o).toNat ↔ EqualBits bits s o) := same_bits (hi ▸ hm)
  have d {o} (hm : (o, 2) ∈ nativeWords .Processor) : Fits s (o + 2) →
      (word s o = word (seen s) o ↔ Palindrome s o 2) := same_seen_word (hi ▸ hm)
  have f0 : 0x1A ≤ processorLength s := by unfold processorLength; (repeat' split) <;> decide
  have f1 : Since s 2 1 → 0x20 ≤ processorLength s := by
    intro h; unfold processorLength; (repeat' split) <;> decide
  have f2 : Since s 2 6 → 0x2A ≤ processorLength s := by
    intro h; unfold processorLength; (repeat' split) <;> decide
  have f3 : Since s 3 0 → 0x30 ≤ processorLength s := by
    intro h; unfold processorLength; rw [if_pos h]; decide
  have fam : storedFamily s = storedFamily (seen s) ↔
      (Since s 2 6 → byte s 0x06 = 0xFE → Palindrome s 0x28 2) := by
    unfold storedFamily
    rw [a' (by decide)]
    by_cases h : Since s 2 6 ∧ byte s 0x06 = 0xFE
    · rw [if_pos h, if_pos (c := Since (seen s) 2 6 ∧ _) h, d (by decide) (fits_le hf (f2 h.1))]
      simp [h]
    · rw [if_neg h, if_neg (c := Since (seen s) 2 6 ∧ _) h]
      exact iff_of_true rfl fun h1 h2 => absurd ⟨h1, h2⟩ h
  have cnt {o o2} (h : 4 ≤ o ∧ ∀ p ∈ nativeWords .Processor, o < p.1 ∨ p.1 + p.2 ≤ o)
      (hm : (o2, 2) ∈ nativeWords .Processor) (h2 : o2 + 2 ≤ 0x30) :
      storedCount s o o2 = storedCount (seen s) o o2 ↔
      (Since s 3 0 → byte s o = 0xFF → Palindrome s o2 2) := by
    unfold storedCount
    rw [a' h]
    by_cases h : Since s 3 0 ∧ byte s o = 0xFF
    · rw [if_pos h, if_pos (c := Since (seen s) 3 0 ∧ _) h, d hm (fits_le hf (by have := f3 h.1; omega))]
      simp [h]
    · rw [if_neg h, if_neg (c := Since (seen s) 3 0 ∧ _) h]
      exact iff_of_true rfl fun h1 h2 => absurd ⟨h1, h2⟩ h
  unfold SameNumbers Symmetric
  simp only [hi]
  rw [a' (by decide), fam, cnt (by decide) (by decide) (by decide), cnt (by decide) (by decide) (by decide),
    cnt (by decide) (by decide) (by decide)]
  simp (disch := decide) only [since_seen, sameAt_cons, sameAt_nil, a, and_true, true_and]
  rw [b (by decide) (fits_le hf (by omega)), b (by decide) (fits_le hf (by omega)),
    b (by decide) (fits_le hf (by omega)), b (by decide) (fits_le hf (by omega))]
  constructor
  · rintro ⟨h1, -, ⟨h2, h3, h4, h5⟩, h6, h7, h8⟩
    refine ⟨h1, h2, h3, h4, h5, fun h => ?_, fun h => ?_, fun h => ?_⟩
    · obtain ⟨x, y, z⟩ := h6 h
      have := f1 h
      exact ⟨(b (by decide) (fits_le hf (by omega))).1 x, (b (by decide) (fits_le hf (by omega))).1 y,
        (b (by decide) (fits_le hf (by omega))).1 z⟩
    · obtain ⟨x, y, z⟩ := h7 (since_mono h (by decide))
      exact ⟨x h, y h, z h⟩
    · have := f2 h
      exact (c (by decide) (fits_le hf (by omega))).1 (h8 h)
  · rintro ⟨h1, h2, h3, h4, h5, h6, h7, h8⟩
    refine ⟨h1, fun _ _ => rfl, ⟨h2, h3, h4, h5⟩, fun h => ?_,
      fun h => ⟨fun k => (h7 k).1, fun k => (h7 k).2.1, fun k => (h7 k).2.2⟩, fun h => ?_⟩
    · obtain ⟨x, y, z⟩ := h6 h
      have := f1 h
      exact ⟨(b (by decide) (fits_le hf (by omega))).2 x, (b (by decide) (fits_le hf (by omega))).2 y,
        (b (by decide) (fits_le hf (by omega))).2 z⟩
    · have := f2 h
      exact (c (by decide) (fits_le hf (by omega))).2 (h8 h)

/-- C78: a structure decodes to the same value on both hosts exactly if its handle and what is kept of
the integers listed do not change by reversing their bytes. -/
theorem C78_value (oc : Bool) (s : RawStructure) (hc : Coherent s)
    (hx : s.info = .PhysicalMemoryArray → Since s 2 2) (v v' : Structure)
    (h : decodeStructure oc s = .ok v) (h' : decodeStructure oc (seen s) = .ok v') :
    v = v' ↔ s.handle = swap16 s.handle ∧ Symmetric s := by
  have S : Alike s (seen s) := ⟨rfl, hc, by
    unfold Coherent at *; rw [show (seen s).data.length = s.data.length from length_reverse _ _]; exact hc⟩
  have t : textFields v = textFields v' := by
    have := C78_outcome oc s
    rw [h, h'] at this
    exact this
  have C := C76_content oc s (seen s) S (fun k => ⟨hx k, hx k⟩) v v' h h'
  have key : (SameNumbers s (seen s) ↔ Symmetric s) → (v = v' ↔ s.handle = swap16 s.handle ∧ Symmetric s) := by
    intro k
    rw [C, k]
    exact ⟨fun x => ⟨x.1, x.2.2⟩, fun x => ⟨x.1, t, x.2⟩⟩
  by_cases e : nativeWords s.info = []
  · have y : Symmetric s := by
      unfold Symmetric
      split <;> rename_i k <;> first | trivial | (rw [k] at e; cases e)
    constructor
    · exact fun k => ⟨(C.1 k).1, y⟩
    · rintro ⟨k, -⟩
      have : seen s = s := by
        unfold seen
        rw [e, ← k]
        rfl
      rw [this, h] at h'
      exact Res.ok.inj h'
  · apply key
    generalize hi : s.info = i at *
    cases i <;> first | exact absurd rfl e | skip
    all_goals
      unfold decodeStructure at h
      simp only [hi] at h
      obtain ⟨x, h, -⟩ := map_ok h
    · refine symmetric_bios hi (Classical.byContradiction fun k => ?_)
      rw [C29_short s k] at h; cases h
    · refine symmetric_baseboard hi (Classical.byContradiction fun k => ?_)
      rw [(C32_short s).2 k] at h; cases h
    · exact symmetric_enclosure hi
    · refine symmetric_processor hi (Classical.byContradiction fun k => ?_)
      rw [C35_short s k] at h; cases h
    · refine symmetric_cache hi (Classical.byContradiction fun k => ?_)
      by_cases hv : Since s 2 1
      · rw [(C37_faults s).2.2 ⟨hv, k⟩] at h; cases h
      · rw [(C37_faults s).1.2 hv] at h; cases h

/-- C78: memory arrays before version 2.2 decode to the same value. -/
theorem C78_old_arrays (oc : Bool) (s : RawStructure) (hi : s.info = .PhysicalMemoryArray)
    (hv : ¬ Since s 2 2) : decodeStructure oc (seen s) = decodeStructure oc s := by
  obtain ⟨v, h, h'⟩ := C76_old_arrays oc s (seen s) hi hi hv hv
  rw [h, h']

/-- The bytes of the handle are reversed. -/
theorem C78_handle (w : UInt16) : (swap16 w).toNat = swapped 2 w.toNat := by
  have h := w.toNat_lt
  have h1 : (w >>> 8).toUInt8.toNat = w.toNat / 256 := by
    rw [UInt16.toNat_toUInt8, UInt16.toNat_shiftRight]
    simp [Nat.shiftRight_eq_div_pow]
    omega
  have h2 : w.toUInt8.toNat = w.toNat % 256 := by simp
  unfold swap16 le16
  simp only [leNat, h1, h2, swapped]
  have h3 : w.toNat / 256 < 256 := by omega
  rw [UInt16.toNat_ofNat', Nat.mod_eq_of_lt (by omega), Nat.mod_eq_of_lt h3]
  omega

/-! ### Iteration -/

/-- Both nothing, the same error with the handle reversed, or values with the same texts. -/
def Item : Option (Except MalformedStructureError Structure) →
    Option (Except MalformedStructureError Structure) → Prop
  | none, none => True
  | some (.error e), some (.error e') => e' = errorSwapped e
  | some (.ok v), some (.ok v') => textFields v = textFields v'
  | _, _ => False

/-- The same state and a corresponding item. -/
def Step : Fault (Option (Except MalformedStructureError Structure) × Structures) →
    Fault (Option (Except MalformedStructureError Structure) × Structures) → Prop
  | .ok (i, s), .ok (i', s') => s' = s ∧ Item i i'
  | .panic, .panic => True
  | .ub, .ub => True
  | _, _ => False

theorem next_raw_plain (oc : Bool) (s : Structures) :
    Post (fun r => ∀ e, r.1 = some (.error e) → errorSwapped e = e) (s.next_raw oc) := by
  unfold Structures.next_raw
  post <;> · intro e h; cases h; try rfl

/-- C78: iteration advances alike. -/
theorem C78_next (oc : Bool) (s : Structures) : Step (s.next oc) (BigEndian.next oc s) := by
  have p := next_raw_plain oc s
  unfold Structures.next BigEndian.next
  cases h : s.next_raw oc with
  | ok r =>
    obtain ⟨o, s'⟩ := r
    simp only [ok_bind]
    match o with
    | none => exact ⟨rfl, trivial⟩
    | some (.error e) => exact ⟨rfl, (p _ h e rfl).symm⟩
    | some (.ok t) =>
      simp only
      have k := C78_outcome oc t
      generalize decodeStructure oc t = x at *
      generalize decodeStructure oc (seen t) = y at *
      cases x <;> cases y <;> first | exact k.elim | exact ⟨rfl, k⟩ | trivial
  | err e => cases e
  | panic => trivial
  | ub => trivial

theorem step_ok {i : Option (Except MalformedStructureError Structure)} {s : Structures}
    {y : Fault (Option (Except MalformedStructureError Structure) × Structures)}
    (h : Step (.ok (i, s)) y) : ∃ i', y = .ok (i', s) ∧ Item i i' := by
  cases y with
  | ok r =>
    obtain ⟨i', s'⟩ := r
    obtain ⟨h1, h2⟩ := h
    exact ⟨i', by rw [h1], h2⟩
  | _ => exact h.elim

/-- C78: hence the same number of structures is iterated, with the same texts and errors. -/
theorem C78_iteration (oc : Bool) (s : Structures) (l : List (Except MalformedStructureError Structure))
    (h : CollectsR (Structures.next oc) s l) :
    ∃ l', CollectsR (BigEndian.next oc) s l' ∧ l'.length = l.length ∧
      ∀ p ∈ l.zip l', Item (some p.1) (some p.2) := by
  induction h with
  | @done s s' h =>
    have k := C78_next oc s
    rw [h] at k
    obtain ⟨i', hy, k⟩ := step_ok k
    cases i' with
    | none => exact ⟨[], CollectsR.done hy, rfl, by simp⟩
    | some i' => unfold Item at k; exact k.elim
  | @step s s' a l h _ ih =>
    obtain ⟨l', h1, h2, h3⟩ := ih
    have k := C78_next oc s
    rw [h] at k
    obtain ⟨i', hy, k⟩ := step_ok k
    cases i' with
    | none => unfold Item at k; cases a <;> exact k.elim
    | some b =>
      refine ⟨b :: l', .step hy h1, by simp [h2], ?_⟩
      intro p hp
      rw [List.zip_cons_cons, List.mem_cons] at hp
      rcases hp with rfl | hp
      · exact k
      · exact h3 p hp

/-! ### Devices -/

/-- C78: the segment group of a peer device is read in reverse order, but encoded back to the bytes it
was read from. -/
theorem C78_device (a b c d e : UInt8) : ∃ v, BigEndian.device [a, b, c, d, e] = .ok v ∧
    v.segment_group_number.toNat = 256 * a.toNat + b.toNat ∧ v.bus_number = c ∧
    DevFn d v.device_and_function_number ∧ v.data_bus_width = e ∧
    BigEndian.deviceBytes v = [a, b, c, d, e] := by
  obtain ⟨v, h1, h2, h3, h4, h5, h6⟩ := C41_device b a c d e
  refine ⟨v, h1, by omega, h3, h4, h5, ?_⟩
  unfold system_slots.Device.toBytes at h6
  simp only [List.cons.injEq] at h6
  obtain ⟨k1, k2, k3⟩ := h6
  unfold BigEndian.deviceBytes
  rw [k1, k2]
  simp [k3]

/-! ### Witnesses -/

/-- The handle of a decoded item. -/
def itemHandle : Fault (Option (Except MalformedStructureError Structure) × Structures) → Option UInt16
  | .ok (some (.ok v), _) => handleOf v
  | _ => none

/-- C78, the full statement fails in both parts: the address of the table is misread, and so is the
handle of a structure. -/
theorem C78_full_false : ¬ C78_full ∧ (¬ ∀ b, BigEndian.search b = EntryPoint.search b) ∧
    ¬ ∀ oc s, BigEndian.next oc s = s.next oc := by
  have h1 : ¬ ∀ b, BigEndian.search b = EntryPoint.search b := by
    intro h
    have := congrArg (fun r => r.okAnd fun e => e.smbios_address == 0xE0000) (h (exampleEntry 10).bytes)
    exact absurd this (by decide +kernel)
  have h2 : ¬ ∀ oc s, BigEndian.next oc s = s.next oc := by
    intro h
    have := congrArg itemHandle (h true ⟨⟨2, 8⟩, 10, 0, [128, 6, 0x34, 0x12, 1, 2, 65, 0, 0, 0]⟩)
    exact absurd this (by decide +kernel)
  exact ⟨fun h => h1 h.1, h1, h2⟩

/-- The length of the table is misread as well: iteration reads past the end of a table that a
little-endian host reads without fault (see the example of C73). -/
example : (BigEndian.search (exampleEntry 10).bytes).okAnd (fun e =>
    e.smbios_len == 2560 && match BigEndian.next true { e.structures samplePiece.bytes with idx := 10 } with
      | .ub => true
      | _ => false) = true := by decide +kernel

/-- Equal bytes are read alike. -/
example : Coherent exampleBoard ∧ ¬ Symmetric exampleBoard ∧
    Symmetric { exampleBoard with data := [1, 2, 0, 3, 0, 9, 3, 0x12, 0x12, 0x0A, 0] } := by
  refine ⟨by decide, fun h => ?_, ?_⟩
  · exact absurd (h 0 (by decide)) (by decide)
  · show Palindrome _ _ _
    unfold Palindrome
    decide

example : ∃ v v', decodeStructure true exampleBoard = .ok v ∧
    decodeStructure true (seen exampleBoard) = .ok v' ∧ v ≠ v' := by
  have hc : Coherent exampleBoard := by decide
  obtain ⟨v, h, -⟩ := exists_ok (show (decodeStructure true exampleBoard).okAnd (fun _ => true) = true by
    decide +kernel)
  obtain ⟨v', h', -⟩ := exists_ok (show (decodeStructure true (seen exampleBoard)).okAnd
    (fun _ => true) = true by decide +kernel)
  exact ⟨v, v', h, h', fun e => absurd ((C78_value true _ hc (by intro h; cases h) v v' h h').1 e).1
    (by decide +kernel)⟩

/-- The chassis handle of a base board on both hosts. -/
example : (baseboard.BaseBoard.try_from exampleBoard).okAnd (fun v => v.chassis_handle == some 0x1234) ∧
    (baseboard.BaseBoard.try_from (seen exampleBoard)).okAnd (fun v => v.chassis_handle == some 0x3412) := by
  decide +kernel

/-- The hypotheses of `C78_old_arrays` can be met. -/
example : oldArray.info = .PhysicalMemoryArray ∧ ¬ Since oldArray 2 2 := by decide

end Dmi.Props
