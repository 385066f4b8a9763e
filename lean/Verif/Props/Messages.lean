import Verif.Proofs.Fmt
import Verif.Proofs.Outcome
import Verif.Model.Display
/-!
# Property C63: error messages identify the error
-/
namespace Dmi.Props
open Fmt

/-! ### Names of structure types in messages -/

theorem debug_variants (a : InfoType) : a ∈ nullary! InfoType ∨ ∃ v, a = .Oem v := by
  cases a <;> first | exact .inr ⟨_, rfl⟩ | exact .inl (by decide +kernel)

/-- C63: the derived `Debug` text of a structure type identifies it. -/
theorem C63_InfoType_debug : ∀ a b : InfoType, a.debug = b.debug → a = b := by
  refine labels_inj (fun a : InfoType => a.debug) (nullary! InfoType) _ [txt! "Oem("]
    debug_variants (by decide +kernel) (by decide +kernel) ?_ ?_
  · rintro _ ⟨v, rfl⟩
    exact ⟨_, List.mem_cons_self, by
      show txt! "Oem(" <+: txt! "Oem(" ++ dec v.toNat ++ txt! ")"
      rw [List.append_assoc]; exact List.prefix_append _ _⟩
  · rintro _ _ ⟨v, rfl⟩ ⟨w, rfl⟩ h
    have h' := List.append_cancel_left (List.append_cancel_right h)
    rw [UInt8.toNat_inj.1 (dec_inj h')]

theorem debug_no_space (a : InfoType) : ∀ c ∈ a.debug, (c != 32) = true := by
  rcases debug_variants a with h | ⟨v, rfl⟩
  · revert a; decide +kernel
  · intro c hc
    rcases List.mem_append.1 hc with hc | hc
    · rcases List.mem_append.1 hc with hc | hc
      · exact (by decide : ∀ c ∈ txt! "Oem(", (c != 32) = true) c hc
      · have := dec_digit _ c hc
        simp only [bne_iff_ne]; omega
    · exact (by decide : ∀ c ∈ txt! ")", (c != 32) = true) c hc

theorem debug_head (a : InfoType) : ∀ c, a.debug.head? = some c → 65 ≤ c ∧ c ≤ 90 := by
  rcases debug_variants a with h | ⟨v, rfl⟩
  · intro c hc
    have : ∀ a ∈ nullary! InfoType, (a.debug.head?).any (fun c => 65 ≤ c && c ≤ 90) = true := by
      decide +kernel
    have := this a h
    rw [hc] at this
    simpa using this
  · intro c hc; cases hc; decide

theorem debug_split {a b : InfoType} {y y' : Text} (h : a.debug ++ 32 :: y = b.debug ++ 32 :: y') :
    a = b ∧ y = y' := by
  obtain ⟨h1, h2⟩ := split_unique (· != 32) (debug_no_space a) (debug_no_space b)
    (fun c hc => by cases hc; rfl) (fun c hc => by cases hc; rfl) h
  exact ⟨C63_InfoType_debug a b h1, List.tail_eq_of_cons_eq h2⟩

/-! ### Entry point errors -/

/-- Texts that differ at position `k`. -/
theorem text_ne {x y : Text} (k a b : Nat) (hab : a ≠ b) (h : x = y) (ha : x[k]? = some a)
    (hb : y[k]? = some b) : False := by
  subst h; rw [ha] at hb; exact hab (Option.some.inj hb)

/-- C63: distinct entry point errors have distinct messages. -/
theorem C63_entry_point : ∀ a b : InvalidEntryPointError, a.display = b.display → a = b := by
  rintro (_ | v | v | v) (_ | w | w | w) h
  case NotFound.NotFound => rfl
  case TooOldVersion.TooOldVersion | BadSize.BadSize | BadChecksum.BadChecksum =>
    have h := dec_inj (List.append_cancel_left h)
    rw [UInt8.toNat_inj.1 h]
  case BadChecksum.NotFound => exact (text_ne 0 83 73 (by decide) h rfl rfl).elim
  case BadChecksum.TooOldVersion => exact (text_ne 0 83 73 (by decide) h rfl rfl).elim
  case BadChecksum.BadSize => exact (text_ne 0 83 73 (by decide) h rfl rfl).elim
  case NotFound.BadChecksum => exact (text_ne 0 73 83 (by decide) h rfl rfl).elim
  case TooOldVersion.BadChecksum => exact (text_ne 0 73 83 (by decide) h rfl rfl).elim
  case BadSize.BadChecksum => exact (text_ne 0 73 83 (by decide) h rfl rfl).elim
  case NotFound.TooOldVersion => exact (text_ne 6 100 118 (by decide) h rfl rfl).elim
  case NotFound.BadSize => exact (text_ne 6 100 99 (by decide) h rfl rfl).elim
  case TooOldVersion.NotFound => exact (text_ne 6 118 100 (by decide) h rfl rfl).elim
  case TooOldVersion.BadSize => exact (text_ne 6 118 99 (by decide) h rfl rfl).elim
  case BadSize.NotFound => exact (text_ne 6 99 100 (by decide) h rfl rfl).elim
  case BadSize.TooOldVersion => exact (text_ne 6 99 118 (by decide) h rfl rfl).elim

/-- C63: the offending value of an entry point is printed in decimal. -/
theorem C63_entry_point_numbers (v : UInt8) : ∃ d : Text, IsDec 1 d v.toNat ∧
    (InvalidEntryPointError.TooOldVersion v).display =
      txt! "Input version number was below 2.0: " ++ d ∧
    (InvalidEntryPointError.BadSize v).display =
      txt! "Input contained an invalid-sized SMBIOS entry: " ++ d ∧
    (InvalidEntryPointError.BadChecksum v).display =
      txt! "SMBIOS entry point has an invalid checksum: " ++ d :=
  ⟨dec v.toNat, isDec _, rfl, rfl, rfl⟩

example : (InvalidEntryPointError.BadChecksum 254).display =
    txt! "SMBIOS entry point has an invalid checksum: 254" := by decide +kernel

/-! ### Structure errors -/

theorem lit_inj {a b : String} (h : lit a = lit b) : a = b := by
  have h := (List.map_inj_right (fun _ _ h => UInt8.toNat_inj.1 h)).1 h
  refine String.toByteArray_inj.1 ?_
  cases ha : a.toByteArray; cases hb : b.toByteArray
  rw [ha, hb] at h
  congr
  exact Array.toList_inj.1 h

/-- The text before the number in a message about the length does not end in a digit. -/
def SpecOk : MalformedStructureError → Prop
  | .InvalidFormattedSectionLength _ _ spec _ =>
    ∀ c, (lit spec).getLast? = some c → ¬ (48 ≤ c ∧ c ≤ 57)
  | _ => True

/-- C63: distinct structure errors have distinct messages, in full. -/
def C63_malformed_full : Prop := ∀ a b : MalformedStructureError, a.display = b.display → a = b

/-- C63, full statement fails: the type is public and allows any text before the number. -/
theorem C63_malformed_full_false : ¬ C63_malformed_full := by
  intro h
  have := h (.InvalidFormattedSectionLength .Bios 0 "1" 2) (.InvalidFormattedSectionLength .Bios 0 "" 12)
    (by decide +kernel)
  injection this with _ _ h _
  exact absurd h (by decide)

theorem isDigit_false {c : Nat} (h : ¬ (48 ≤ c ∧ c ≤ 57)) : isDigit c = false := by
  simp only [isDigit, Bool.and_eq_false_iff, decide_eq_false_iff_not]; omega

theorem debug_at {a : InfoType} {y z : Text} (h : a.debug ++ y = 97 :: z) (hy : ∀ c, y.head? = some c → c = 32) :
    False := by
  cases hd : a.debug with
  | nil =>
    rw [hd, List.nil_append] at h
    have := hy 97 (by rw [h]; rfl)
    cases this
  | cons c t =>
    rw [hd] at h
    have := debug_head a c (by rw [hd]; rfl)
    injection h with h1 h2
    omega

/-- C63: distinct structure errors have distinct messages, provided the text before a required length
does not end in a digit (true of every error of the crate, `C63_spec_ok`). -/
theorem C63_malformed_partial (a b : MalformedStructureError) (ha : SpecOk a) (hb : SpecOk b)
    (h : a.display = b.display) : a = b := by
  rcases a with ⟨o, l⟩ | o | ⟨i, n, x⟩ | _ | ⟨i, n, s, l⟩ <;>
    rcases b with ⟨o', l'⟩ | o' | ⟨i', n', x'⟩ | _ | ⟨i', n', s', l'⟩
  case BadSize.BadSize =>
    obtain ⟨h1, h2⟩ := dec_split (by decide) (List.append_cancel_left h)
    obtain ⟨h3, _⟩ := dec_split (by decide) (List.append_cancel_left (as := txt! "with length ") h2)
    rw [UInt32.toNat_inj.1 h1, UInt8.toNat_inj.1 h3]
  case BadSize.UnterminatedStrings =>
    obtain ⟨_, h2⟩ := dec_split (by decide) (List.append_cancel_left h)
    exact (text_ne 5 108 117 (by decide) h2 rfl rfl).elim
  case UnterminatedStrings.BadSize =>
    obtain ⟨_, h2⟩ := dec_split (by decide) (List.append_cancel_left h)
    exact (text_ne 5 117 108 (by decide) h2 rfl rfl).elim
  case UnterminatedStrings.UnterminatedStrings =>
    obtain ⟨h1, _⟩ := dec_split (by decide) (List.append_cancel_left h)
    rw [UInt32.toNat_inj.1 h1]
  case InvalidStringIndex.InvalidStringIndex =>
    obtain ⟨h1, h2⟩ := debug_split (List.append_cancel_left (as := txt! "Structure ") h)
    obtain ⟨h3, h4⟩ := dec_split (by decide) (List.append_cancel_left (as := txt! "with handle ") h2)
    have h5 := dec_inj (List.append_cancel_left (as := txt! "has invalid string index ") h4)
    rw [h1, UInt16.toNat_inj.1 h3, UInt8.toNat_inj.1 h5]
  case InvalidFormattedSectionLength.InvalidFormattedSectionLength =>
    obtain ⟨h1, h2⟩ := debug_split
      (List.append_cancel_left (as := txt! "Formatted section length of structure ") h)
    obtain ⟨h3, h4⟩ := dec_split (by decide) (List.append_cancel_left (as := txt! "with handle ") h2)
    have h5 := List.append_cancel_left (as := txt! "should be ") h4
    rw [← List.append_assoc, ← List.append_assoc] at h5
    obtain ⟨h6, h7⟩ := dec_snoc (fun c hc => isDigit_false (ha c hc))
      (fun c hc => isDigit_false (hb c hc)) (List.append_cancel_right h5)
    rw [h1, UInt16.toNat_inj.1 h3, lit_inj h6, UInt8.toNat_inj.1 h7]
  case InvalidSlice.InvalidSlice => rfl
  case BadSize.InvalidStringIndex | UnterminatedStrings.InvalidStringIndex =>
    exact (debug_at (List.append_cancel_left (as := txt! "Structure ") h).symm
      (fun c hc => by cases hc; rfl)).elim
  case InvalidStringIndex.BadSize | InvalidStringIndex.UnterminatedStrings =>
    exact (debug_at (List.append_cancel_left (as := txt! "Structure ") h)
      (fun c hc => by cases hc; rfl)).elim
  case BadSize.InvalidSlice | UnterminatedStrings.InvalidSlice | InvalidStringIndex.InvalidSlice =>
    exact (text_ne 0 83 99 (by decide) h rfl rfl).elim
  case InvalidSlice.BadSize | InvalidSlice.UnterminatedStrings | InvalidSlice.InvalidStringIndex =>
    exact (text_ne 0 99 83 (by decide) h rfl rfl).elim
  case InvalidSlice.InvalidFormattedSectionLength =>
    exact (text_ne 0 99 70 (by decide) h rfl rfl).elim
  case InvalidFormattedSectionLength.InvalidSlice =>
    exact (text_ne 0 70 99 (by decide) h rfl rfl).elim
  case BadSize.InvalidFormattedSectionLength | UnterminatedStrings.InvalidFormattedSectionLength |
      InvalidStringIndex.InvalidFormattedSectionLength =>
    exact (text_ne 0 83 70 (by decide) h rfl rfl).elim
  all_goals exact (text_ne 0 70 83 (by decide) h rfl rfl).elim

/-- C63: the numbers in the messages are decimal, and the structure type is printed by name. -/
theorem C63_malformed_numbers (o : UInt32) (l x : UInt8) (i : InfoType) (n : UInt16) (s : String) :
    ∃ o' l' x' n' : Text, IsDec 1 o' o.toNat ∧ IsDec 1 l' l.toNat ∧ IsDec 1 x' x.toNat ∧
      IsDec 1 n' n.toNat ∧
    (MalformedStructureError.BadSize o l).display = txt! "Structure at offset " ++ o' ++
      txt! " with length " ++ l' ++ txt! " extends beyond SMBIOS" ∧
    (MalformedStructureError.UnterminatedStrings o).display = txt! "Structure at offset " ++ o' ++
      txt! " with unterminated strings" ∧
    (MalformedStructureError.InvalidStringIndex i n x).display = txt! "Structure " ++ i.debug ++
      txt! " with handle " ++ n' ++ txt! " has invalid string index " ++ x' ∧
    (MalformedStructureError.InvalidFormattedSectionLength i n s l).display =
      txt! "Formatted section length of structure " ++ i.debug ++ txt! " with handle " ++ n' ++
      txt! " should be " ++ lit s ++ l' ++ txt! " bytes" := by
  refine ⟨dec o.toNat, dec l.toNat, dec x.toNat, dec n.toNat, isDec _, isDec _, isDec _, isDec _, ?_⟩
  simp only [MalformedStructureError.display, List.append_assoc, and_self]

example : SpecOk (.InvalidStringIndex .System 1 9) ∧
    (MalformedStructureError.InvalidStringIndex .System 1 9).display =
      txt! "Structure System with handle 1 has invalid string index 9" ∧
    (MalformedStructureError.BadSize 96 200).display =
      txt! "Structure at offset 96 with length 200 extends beyond SMBIOS" :=
  ⟨trivial, by decide +kernel⟩

/-- The text for memory devices lacks a space (`src/structures/017_memory_device.rs` 388). -/
example : (MalformedStructureError.InvalidFormattedSectionLength .MemoryDevice 5 "at least" 21).display =
    txt! "Formatted section length of structure MemoryDevice with handle 5 should be at least21 bytes" := by
  decide +kernel

end Dmi.Props
