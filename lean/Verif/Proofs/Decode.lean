import Verif.Spec.Structure
import Verif.Proofs.Get
import Verif.Props.EntryPoint
/-!
# Lemmas for the decoders of the structure types
-/
namespace Dmi
open Spec

@[simp] theorem bind_ok_iff {ε α β : Type} {x : Res ε α} {f : α → Res ε β} {b : β} :
    (x >>= f) = .ok b ↔ ∃ a, x = .ok a ∧ f a = .ok b := by
  cases x <;> simp [Bind.bind, Res.bind]

@[simp] theorem ok_bind {ε α β : Type} {a : α} {f : α → Res ε β} :
    ((.ok a : Res ε α) >>= f) = f a := rfl
@[simp] theorem err_bind {ε α β : Type} {e : ε} {f : α → Res ε β} :
    ((.err e : Res ε α) >>= f) = .err e := rfl
@[simp] theorem panic_bind {ε α β : Type} {f : α → Res ε β} :
    ((.panic : Res ε α) >>= f) = .panic := rfl
@[simp] theorem ub_bind {ε α β : Type} {f : α → Res ε β} :
    ((.ub : Res ε α) >>= f) = .ub := rfl
@[simp] theorem pure_eq_ok {ε α : Type} {a : α} : (pure a : Res ε α) = .ok a := rfl

theorem find_string_ok {s : RawStructure} {i : UInt8} {str : Bytes} :
    s.find_string i = .ok str ↔ HasString s.strings i.toNat str := (find_string_eq s i).1 str

theorem ge_iff {s : RawStructure} {a b : Nat} (ha : a < 256) (hb : b < 256) :
    s.version.ge (.ofPair a b) = true ↔ Since s a b := by
  have h := Props.C07_version_lex s.version (.ofPair a b)
  rw [h.2.2.2.1, h.1]
  simp only [SmbiosVersion.ofPair, UInt8.toNat_ofNat', Since]
  omega

theorem lt_iff {s : RawStructure} {a b : Nat} (ha : a < 256) (hb : b < 256) :
    s.version.lt (.ofPair a b) = true ↔ ¬ Since s a b := by
  have h := Props.C07_version_lex s.version (.ofPair a b)
  rw [h.1]
  simp only [SmbiosVersion.ofPair, UInt8.toNat_ofNat', Since]
  omega

theorem gt_iff {s : RawStructure} {a b : Nat} (ha : a < 256) (hb : b < 255) :
    s.version.gt (.ofPair a b) = true ↔ Since s a (b + 1) := by
  have h := Props.C07_version_lex s.version (.ofPair a b)
  rw [h.2.1, (Props.C07_version_lex _ _).1]
  simp only [SmbiosVersion.ofPair, UInt8.toNat_ofNat', Since]
  omega

/-! ### Bits -/

theorem and_two_pow_eq_zero {a k : Nat} : a &&& 2 ^ k = 0 ↔ a / 2 ^ k % 2 = 0 := by
  have hb : a / 2 ^ k % 2 = 0 ↔ a.testBit k = false := by
    rw [Nat.testBit_eq_decide_div_mod_eq, decide_eq_false_iff_not]; omega
  rw [hb]
  constructor
  · intro h
    have := congrArg (fun n => n.testBit k) h
    simpa [Nat.testBit_and, Nat.testBit_two_pow] using this
  · intro h
    apply Nat.eq_of_testBit_eq
    intro i
    rw [Nat.testBit_and, Nat.testBit_two_pow, Nat.zero_testBit]
    by_cases hi : k = i
    · rw [← hi, h]; rfl
    · simp [hi]

/-! ### Concrete evaluation -/

/-- The run succeeds with a value passing the test. -/
def Res.okAnd {ε α : Type} (x : Res ε α) (p : α → Bool) : Bool :=
  match x with
  | .ok a => p a
  | _ => false

theorem exists_ok {ε α : Type} {x : Res ε α} {p : α → Bool} (h : x.okAnd p = true) :
    ∃ a, x = .ok a ∧ p a = true := by
  cases x with
  | ok a => exact ⟨a, rfl, h⟩
  | _ => cases h

/-! ### `ErrOnly` -/

theorem Spec.ErrOnly.ok {ε α : Type} {P : ε → Prop} (a : α) : ErrOnly P (.ok a) :=
  ⟨⟨nofun, nofun⟩, nofun⟩

theorem Spec.ErrOnly.pure {ε α : Type} {P : ε → Prop} (a : α) : ErrOnly P (Pure.pure a : Res ε α) :=
  ErrOnly.ok a

theorem Spec.ErrOnly.err {ε α : Type} {P : ε → Prop} {e : ε} (h : P e) :
    ErrOnly P (.err e : Res ε α) := ⟨⟨nofun, nofun⟩, fun _ he => by cases he; exact h⟩

theorem Spec.ErrOnly.bind {ε α β : Type} {P : ε → Prop} {x : Res ε α} {f : α → Res ε β}
    (hx : ErrOnly P x) (hf : ∀ a, x = .ok a → ErrOnly P (f a)) : ErrOnly P (x >>= f) := by
  cases x with
  | ok a => exact hf a rfl
  | err e => exact ErrOnly.err (hx.2 e rfl)
  | panic => exact absurd rfl hx.1.1
  | ub => exact absurd rfl hx.1.2

theorem Spec.ErrOnly.mono {ε α : Type} {P Q : ε → Prop} {x : Res ε α} (h : ErrOnly P x)
    (hpq : ∀ e, P e → Q e) : ErrOnly Q x := ⟨h.1, fun e he => hpq e (h.2 e he)⟩

theorem find_string_cases (s : RawStructure) (i : UInt8) :
    (∃ str, s.find_string i = .ok str) ∨
      ((∀ str, ¬ HasString s.strings i.toNat str) ∧
        s.find_string i = .err (.InvalidStringIndex s.info s.handle i)) := by
  by_cases h : ∃ str, HasString s.strings i.toNat str
  · obtain ⟨str, h⟩ := h; exact Or.inl ⟨str, find_string_ok.2 h⟩
  · have h' : ∀ str, ¬ HasString s.strings i.toNat str := fun str hs => h ⟨str, hs⟩
    exact Or.inr ⟨h', (find_string_eq s i).2 h'⟩

theorem Spec.ErrOnly.find_string (s : RawStructure) {o : Nat} {os : List Nat} (ho : o ∈ os) :
    ErrOnly (BadRef s os) (s.find_string (byte s o)) := by
  rcases find_string_cases s (byte s o) with ⟨str, h⟩ | ⟨hd, h⟩
  · rw [h]; exact ErrOnly.ok str
  · rw [h]; exact ErrOnly.err ⟨o, ho, hd, rfl⟩

/-- Decomposes an `ErrOnly` goal about a `do` block of string lookups. -/
macro "err_only" : tactic =>
  `(tactic| (
      try simp only [ok_bind]
      repeat' first
        | exact ErrOnly.pure _
        | exact ErrOnly.ok _
        | (apply ErrOnly.find_string; decide)
        | (refine ErrOnly.bind ?_ (fun _ _ => ?_))))

theorem when_pos {α : Type} {c : Prop} {o : Option α} {p : α → Prop} (h : c) :
    When c o p ↔ ∃ a, o = some a ∧ p a := by simp [When, h]

theorem when_neg {α : Type} {c : Prop} {o : Option α} {p : α → Prop} (h : ¬ c) :
    When c o p ↔ o = none := by simp [When, h]

theorem ref_iff {s : RawStructure} {o : Nat} {str : Bytes} :
    Ref s o str ↔ s.find_string (byte s o) = .ok str := find_string_ok.symm

/-- Splits all existential and conjunctive hypotheses. -/
macro "destruct_all" : tactic =>
  `(tactic| repeat first | cases ‹Exists _› | cases ‹And _ _›)

/-- Proves that a `do` block of string lookups yields exactly the value described by a structure
of field equations. The versions involved must be decided in the context; the lemmas in brackets
relate descriptions of fields to the functions that compute them. -/
syntax "decode_iff" ident (" [" Lean.Parser.Tactic.simpLemma,* "]")? : tactic
macro_rules
  | `(tactic| decode_iff $v) => `(tactic| decode_iff $v [ref_iff])
  | `(tactic| decode_iff $v [$ls,*]) => `(tactic| (
      constructor
      · simp only [ok_bind, bind_ok_iff, pure_eq_ok, Res.ok.injEq, forall_exists_index, and_imp]
        intros
        subst_vars
        constructor <;> first | with_reducible rfl |
          (with_reducible apply ref_iff.2; with_reducible assumption) |
          (simp [When, ref_iff, $ls,*, *]; done)
      · intro h
        cases $v:ident
        cases h
        simp only [When, ref_iff, $ls,*] at *
        simp_all
        try destruct_all
        try simp_all))

/-! ### Checked access -/

theorem get8_ok {s : RawStructure} {n o : Nat} (oc : Bool) (hf : Fits s n) (h4 : 4 ≤ o)
    (hn : o + 1 ≤ n) (hm : o < 2 ^ 16) : s.get8 oc o = .ok (byte s o) := by
  rw [get8_ge oc s o h4 (by omega), if_pos (by unfold Fits at hf; omega)]; rfl

theorem get16_ok {s : RawStructure} {n o : Nat} (oc : Bool) (hf : Fits s n) (h4 : 4 ≤ o)
    (hn : o + 2 ≤ n) (hm : o < 2 ^ 16) : s.get16 oc o = .ok (word s o) := by
  rw [get16_ge oc s o h4 (by omega), if_pos (by unfold Fits at hf; omega)]; rfl

theorem get32_ok {s : RawStructure} {n o : Nat} (oc : Bool) (hf : Fits s n) (h4 : 4 ≤ o)
    (hn : o + 4 ≤ n) (hm : o < 2 ^ 16) : s.get32 oc o = .ok (dword s o) := by
  rw [get32_ge oc s o h4 (by omega), if_pos (by unfold Fits at hf; omega)]; rfl

theorem get64_ok {s : RawStructure} {n o : Nat} (oc : Bool) (hf : Fits s n) (h4 : 4 ≤ o)
    (hn : o + 8 ≤ n) (hm : o < 2 ^ 16) : s.get64 oc o = .ok (qword s o) := by
  rw [get64_ge oc s o h4 (by omega), if_pos (by unfold Fits at hf; omega)]; rfl

theorem get_string_ok {s : RawStructure} {n o : Nat} (oc : Bool) (hf : Fits s n) (h4 : 4 ≤ o)
    (hn : o + 1 ≤ n) (hm : o < 2 ^ 16) : s.get_string oc o = s.find_string (byte s o) := by
  rw [get_string_ge oc s o h4 (by omega), if_pos (by unfold Fits at hf; omega)]; rfl

theorem get8_bad {s : RawStructure} {o : Nat} (oc : Bool) (hf : ¬ Fits s (o + 1)) (h4 : 4 ≤ o)
    (hm : o < 2 ^ 16) : s.get8 oc o = .err .InvalidSlice := by
  rw [get8_ge oc s o h4 (by omega), if_neg (by unfold Fits at hf; omega)]

theorem get16_bad {s : RawStructure} {o : Nat} (oc : Bool) (hf : ¬ Fits s (o + 2)) (h4 : 4 ≤ o)
    (hm : o < 2 ^ 16) : s.get16 oc o = .err .InvalidSlice := by
  rw [get16_ge oc s o h4 (by omega), if_neg (by unfold Fits at hf; omega)]

theorem get32_bad {s : RawStructure} {o : Nat} (oc : Bool) (hf : ¬ Fits s (o + 4)) (h4 : 4 ≤ o)
    (hm : o < 2 ^ 16) : s.get32 oc o = .err .InvalidSlice := by
  rw [get32_ge oc s o h4 (by omega), if_neg (by unfold Fits at hf; omega)]

theorem get64_bad {s : RawStructure} {o : Nat} (oc : Bool) (hf : ¬ Fits s (o + 8)) (h4 : 4 ≤ o)
    (hm : o < 2 ^ 16) : s.get64 oc o = .err .InvalidSlice := by
  rw [get64_ge oc s o h4 (by omega), if_neg (by unfold Fits at hf; omega)]

theorem get_string_bad {s : RawStructure} {o : Nat} (oc : Bool) (hf : ¬ Fits s (o + 1))
    (h4 : 4 ≤ o) (hm : o < 2 ^ 16) : s.get_string oc o = .err .InvalidSlice := by
  rw [get_string_ge oc s o h4 (by omega), if_neg (by unfold Fits at hf; omega)]

theorem Spec.Coherent.fits_iff {s : RawStructure} (h : Coherent s) (n : Nat) :
    Fits s n ↔ n ≤ s.length.toNat := by
  unfold Coherent at h; unfold Fits; omega

theorem fits_mono {s : RawStructure} {m n : Nat} (h : Fits s n) (hle : m ≤ n) : Fits s m := by
  unfold Fits at *; omega

theorem Spec.Coherent.four_le {s : RawStructure} (h : Coherent s) : 4 ≤ s.length.toNat := by
  unfold Coherent at h; omega

theorem since_mono {s : RawStructure} {a b c d : Nat} (h : Since s a b)
    (hle : c < a ∨ c = a ∧ d ≤ b) : Since s c d := by
  unfold Since at *; omega

theorem ge_pos {s : RawStructure} {a b : Nat} (h : Since s a b) (ha : a < 256 := by decide)
    (hb : b < 256 := by decide) : s.version.ge (.ofPair a b) = true := (ge_iff ha hb).2 h

theorem ge_neg {s : RawStructure} {a b : Nat} (h : ¬ Since s a b) (ha : a < 256 := by decide)
    (hb : b < 256 := by decide) : ¬ s.version.ge (.ofPair a b) = true := by
  rwa [ge_iff ha hb]

theorem lt_pos {s : RawStructure} {a b : Nat} (h : ¬ Since s a b) (ha : a < 256 := by decide)
    (hb : b < 256 := by decide) : s.version.lt (.ofPair a b) = true := (lt_iff ha hb).2 h

theorem lt_neg {s : RawStructure} {a b : Nat} (h : Since s a b) (ha : a < 256 := by decide)
    (hb : b < 256 := by decide) : ¬ s.version.lt (.ofPair a b) = true := by
  rw [lt_iff ha hb]; exact fun hn => hn h

theorem gt_pos {s : RawStructure} {a b : Nat} (h : Since s a (b + 1)) (ha : a < 256 := by decide)
    (hb : b < 255 := by decide) : s.version.gt (.ofPair a b) = true := (gt_iff ha hb).2 h

theorem gt_neg {s : RawStructure} {a b : Nat} (h : ¬ Since s a (b + 1)) (ha : a < 256 := by decide)
    (hb : b < 255 := by decide) : ¬ s.version.gt (.ofPair a b) = true := by
  rwa [gt_iff ha hb]

/-! ### Optional fields -/

/-- `some a` if `c` holds. -/
def optIf {α : Type} (c : Prop) [Decidable c] (a : α) : Option α := if c then some a else none

theorem when_eq {α : Type} {c : Prop} [Decidable c] {o : Option α} {a : α} :
    When c o (fun x => x = a) ↔ o = optIf c a := by
  by_cases h : c
  · rw [when_pos h, optIf, if_pos h]; exact ⟨fun ⟨_, h1, h2⟩ => h2 ▸ h1, fun h => ⟨a, h, rfl⟩⟩
  · rw [when_neg h, optIf, if_neg h]

theorem optIf_when {α : Type} (c : Prop) [Decidable c] (a : α) (p : α → Prop) (h : p a) :
    When c (optIf c a) p := by
  by_cases hc : c
  · exact .inl ⟨hc, a, by simp [optIf, hc], h⟩
  · exact .inr ⟨hc, by simp [optIf, hc]⟩

theorem optIf_map {α β : Type} (f : α → β) {c : Prop} [Decidable c] {a : α} :
    (optIf c a).map f = optIf c (f a) := by
  unfold optIf; split <;> rfl

theorem optIf_filter {α : Type} [DecidableEq α] {c : Prop} [Decidable c] {a k : α} :
    (optIf c a).filter (fun v => v != k) = optIf (c ∧ a ≠ k) a := by
  unfold optIf
  by_cases hc : c <;> by_cases ha : a = k <;> simp [hc, ha, Option.filter]

theorem get8_opt {s : RawStructure} {o : Nat} (oc : Bool) (h4 : 4 ≤ o) (hm : o < 2 ^ 16) :
    (s.get8 oc o).toOption = .ok (optIf (Fits s (o + 1)) (byte s o)) := by
  by_cases h : Fits s (o + 1)
  · rw [get8_ok oc h h4 (Nat.le_refl _) hm, optIf, if_pos h]; rfl
  · rw [get8_bad oc h h4 hm, optIf, if_neg h]; rfl

theorem get16_opt {s : RawStructure} {o : Nat} (oc : Bool) (h4 : 4 ≤ o) (hm : o < 2 ^ 16) :
    (s.get16 oc o).toOption = .ok (optIf (Fits s (o + 2)) (word s o)) := by
  by_cases h : Fits s (o + 2)
  · rw [get16_ok oc h h4 (Nat.le_refl _) hm, optIf, if_pos h]; rfl
  · rw [get16_bad oc h h4 hm, optIf, if_neg h]; rfl

theorem get32_opt {s : RawStructure} {o : Nat} (oc : Bool) (h4 : 4 ≤ o) (hm : o < 2 ^ 16) :
    (s.get32 oc o).toOption = .ok (optIf (Fits s (o + 4)) (dword s o)) := by
  by_cases h : Fits s (o + 4)
  · rw [get32_ok oc h h4 (Nat.le_refl _) hm, optIf, if_pos h]; rfl
  · rw [get32_bad oc h h4 hm, optIf, if_neg h]; rfl

theorem get64_opt {s : RawStructure} {o : Nat} (oc : Bool) (h4 : 4 ≤ o) (hm : o < 2 ^ 16) :
    (s.get64 oc o).toOption = .ok (optIf (Fits s (o + 8)) (qword s o)) := by
  by_cases h : Fits s (o + 8)
  · rw [get64_ok oc h h4 (Nat.le_refl _) hm, optIf, if_pos h]; rfl
  · rw [get64_bad oc h h4 hm, optIf, if_neg h]; rfl

/-- The string a reference that may be missing or dangling means, if any. -/
def stringAt (s : RawStructure) (o : Nat) : Option Str :=
  if Fits s (o + 1) then
    match s.find_string (byte s o) with
    | .ok x => some x
    | _ => none
  else none

theorem get_string_opt {s : RawStructure} {o : Nat} (oc : Bool) (h4 : 4 ≤ o) (hm : o < 2 ^ 16) :
    (s.get_string oc o).toOption = .ok (stringAt s o) := by
  by_cases h : Fits s (o + 1)
  · rw [get_string_ok oc h h4 (Nat.le_refl _) hm, stringAt, if_pos h]
    rcases find_string_cases s (byte s o) with ⟨str, h⟩ | ⟨-, h⟩ <;> rw [h] <;> rfl
  · rw [get_string_bad oc h h4 hm, stringAt, if_neg h]; rfl

theorem when_string {s : RawStructure} {o : Nat} {x : Option Str} :
    When (Fits s (o + 1) ∧ ¬ Dangling s o) x (Ref s o) ↔ x = stringAt s o := by
  unfold stringAt
  by_cases h : Fits s (o + 1)
  · rw [if_pos h]
    rcases find_string_cases s (byte s o) with ⟨str, hs⟩ | ⟨hd, hs⟩
    · have hr : Ref s o str := ref_iff.2 hs
      rw [when_pos ⟨h, fun hd => hd str hr⟩, hs]
      constructor
      · rintro ⟨a, rfl, ha⟩
        rw [ref_iff, hs] at ha
        injection ha with ha
        rw [ha]
      · intro hx; exact ⟨str, hx, hr⟩
    · rw [when_neg (fun hn => hn.2 hd), hs]
  · rw [if_neg h, when_neg (fun hn => h hn.1)]

theorem get8_iff {s : RawStructure} {o : Nat} {a : UInt8} (oc : Bool) (h4 : 4 ≤ o)
    (hm : o < 2 ^ 16) : s.get8 oc o = .ok a ↔ Fits s (o + 1) ∧ byte s o = a := by
  by_cases h : Fits s (o + 1)
  · rw [get8_ok oc h h4 (Nat.le_refl _) hm]; simp [h]
  · rw [get8_bad oc h h4 hm]; simp [h]

theorem get16_iff {s : RawStructure} {o : Nat} {a : UInt16} (oc : Bool) (h4 : 4 ≤ o)
    (hm : o < 2 ^ 16) : s.get16 oc o = .ok a ↔ Fits s (o + 2) ∧ word s o = a := by
  by_cases h : Fits s (o + 2)
  · rw [get16_ok oc h h4 (Nat.le_refl _) hm]; simp [h]
  · rw [get16_bad oc h h4 hm]; simp [h]

theorem get32_iff {s : RawStructure} {o : Nat} {a : UInt32} (oc : Bool) (h4 : 4 ≤ o)
    (hm : o < 2 ^ 16) : s.get32 oc o = .ok a ↔ Fits s (o + 4) ∧ dword s o = a := by
  by_cases h : Fits s (o + 4)
  · rw [get32_ok oc h h4 (Nat.le_refl _) hm]; simp [h]
  · rw [get32_bad oc h h4 hm]; simp [h]

/-- The error of a checked access beyond the structure, or of a dangling reference. -/
def Spec.BadAccess (s : RawStructure) (os : List Nat) (e : MalformedStructureError) : Prop :=
  e = .InvalidSlice ∨ BadRef s os e

theorem Spec.ErrOnly.get8 {s : RawStructure} {o : Nat} {oc : Bool} {os : List Nat} (h4 : 4 ≤ o)
    (hm : o < 2 ^ 16) : ErrOnly (BadAccess s os) (s.get8 oc o) := by
  by_cases h : Fits s (o + 1)
  · rw [get8_ok oc h h4 (Nat.le_refl _) hm]; exact .ok _
  · rw [get8_bad oc h h4 hm]; exact .err (.inl rfl)

theorem Spec.ErrOnly.get16 {s : RawStructure} {o : Nat} {oc : Bool} {os : List Nat} (h4 : 4 ≤ o)
    (hm : o < 2 ^ 16) : ErrOnly (BadAccess s os) (s.get16 oc o) := by
  by_cases h : Fits s (o + 2)
  · rw [get16_ok oc h h4 (Nat.le_refl _) hm]; exact .ok _
  · rw [get16_bad oc h h4 hm]; exact .err (.inl rfl)

theorem Spec.ErrOnly.get32 {s : RawStructure} {o : Nat} {oc : Bool} {os : List Nat} (h4 : 4 ≤ o)
    (hm : o < 2 ^ 16) : ErrOnly (BadAccess s os) (s.get32 oc o) := by
  by_cases h : Fits s (o + 4)
  · rw [get32_ok oc h h4 (Nat.le_refl _) hm]; exact .ok _
  · rw [get32_bad oc h h4 hm]; exact .err (.inl rfl)

theorem Spec.ErrOnly.get_string {s : RawStructure} {o : Nat} {oc : Bool} {os : List Nat}
    (ho : o ∈ os) (h4 : 4 ≤ o) (hm : o < 2 ^ 16) :
    ErrOnly (BadAccess s os) (s.get_string oc o) := by
  by_cases h : Fits s (o + 1)
  · rw [get_string_ok oc h h4 (Nat.le_refl _) hm]
    exact (ErrOnly.find_string s ho).mono fun e he => .inr he
  · rw [get_string_bad oc h h4 hm]; exact .err (.inl rfl)

/-- Decomposes an `ErrOnly` goal about a `do` block of checked accesses. -/
macro "access_only" : tactic =>
  `(tactic| (
      try simp (disch := decide) only [ok_bind, get8_opt, get16_opt, get32_opt, get64_opt,
        get_string_opt]
      repeat' first
        | (with_reducible refine ErrOnly.bind ?_ (fun _ _ => ?_))
        | with_reducible exact ErrOnly.pure _
        | with_reducible exact ErrOnly.ok _
        | ((with_reducible apply ErrOnly.get8) <;> decide)
        | ((with_reducible apply ErrOnly.get16) <;> decide)
        | ((with_reducible apply ErrOnly.get32) <;> decide)
        | ((with_reducible apply ErrOnly.get_string) <;> decide)))

/-- Evaluates a `do` block of checked accesses given `hf : Fits s n`. -/
syntax "access_eval" term:max ident (" [" Lean.Parser.Tactic.simpLemma,* "]")? : tactic
macro_rules
  | `(tactic| access_eval $oc $hf) => `(tactic| access_eval $oc $hf [ok_bind])
  | `(tactic| access_eval $oc $hf [$ls,*]) => `(tactic| (
      try simp (disch := decide) only [ok_bind, get8_opt, get16_opt, get32_opt, get64_opt,
        get_string_opt]
      simp (disch := decide) only [ok_bind, get8_ok $oc $hf, get16_ok $oc $hf, get32_ok $oc $hf,
        get64_ok $oc $hf, get_string_ok $oc $hf, optIf_map, optIf_filter, $ls,*]))

/-- Like `decode_iff`, for an evaluated `do` block of checked accesses. -/
syntax "access_iff" ident (" [" Lean.Parser.Tactic.simpLemma,* "]")? : tactic
macro_rules
  | `(tactic| access_iff $v) => `(tactic| access_iff $v [ref_iff])
  | `(tactic| access_iff $v [$ls,*]) => `(tactic| (
      constructor
      · simp only [ok_bind, bind_ok_iff, pure_eq_ok, Res.ok.injEq, forall_exists_index, and_imp]
        intros
        subst_vars
        constructor <;> first | with_reducible rfl |
          (with_reducible apply ref_iff.2; with_reducible assumption) |
          with_reducible exact when_eq.2 rfl | with_reducible exact when_string.2 rfl |
          (simp only [$ls,*]; with_reducible exact when_eq.2 rfl) | (simp [$ls,*]; done)
      · intro h
        cases $v:ident
        cases h
        simp only [when_eq, when_string, ref_iff, $ls,*] at *
        subst_vars
        simp only [*, ok_bind, pure_eq_ok]))

end Dmi
