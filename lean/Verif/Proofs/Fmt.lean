import Verif.Spec.Text
/-!
# Lemmas on formatted numbers and on labels of enumerations
-/
namespace Dmi.Fmt

theorem ofDigits_snoc (b : Nat) (l : List Nat) (d : Nat) :
    ofDigits b (l ++ [d]) = ofDigits b l * b + d := by simp [ofDigits]

theorem ofDigits_digitsAux (b : Nat) : ∀ f n, ofDigits b (digitsAux b f n) = n
  | 0, n => by simp [ofDigits, digitsAux]
  | f + 1, n => by
    unfold digitsAux
    split
    · simp [ofDigits]
    · rw [ofDigits_snoc, ofDigits_digitsAux b f]
      exact Nat.div_add_mod' n b

theorem ofDigits_digits (b n : Nat) : ofDigits b (digits b n) = n := ofDigits_digitsAux b n n

theorem digitsAux_lt {b : Nat} (hb : 2 ≤ b) : ∀ {f n}, n ≤ f → ∀ d ∈ digitsAux b f n, d < b
  | 0, n, h, d, hd => by
    simp only [digitsAux, List.mem_singleton] at hd; omega
  | f + 1, n, h, d, hd => by
    unfold digitsAux at hd
    split at hd
    · rw [List.mem_singleton] at hd; omega
    · rcases List.mem_append.1 hd with hd | hd
      · refine digitsAux_lt hb ?_ d hd
        have : n / b < n := Nat.div_lt_self (by omega) (by omega)
        omega
      · rw [List.mem_singleton] at hd
        subst hd; exact Nat.mod_lt _ (by omega)

theorem digits_lt {b : Nat} (hb : 2 ≤ b) {n d : Nat} (h : d ∈ digits b n) : d < b :=
  digitsAux_lt hb (Nat.le_refl n) d h

theorem digitsAux_ne_nil (b : Nat) : ∀ f n, digitsAux b f n ≠ []
  | 0, n => by simp [digitsAux]
  | f + 1, n => by unfold digitsAux; split <;> simp

theorem digitChar_inj {a x y : Nat} (ha : 58 ≤ a) (h : digitChar a x = digitChar a y) : x = y := by
  unfold digitChar at h; split at h <;> split at h <;> omega

theorem charDigit_digitChar {a : Nat} (ha : 58 ≤ a) (d : Nat) : charDigit a (digitChar a d) = d := by
  unfold charDigit digitChar; split <;> split <;> omega

theorem ofDigits_zeros (b k : Nat) (l : List Nat) :
    ofDigits b (List.replicate k 0 ++ l) = ofDigits b l := by
  unfold ofDigits
  rw [List.foldl_append]
  congr 1
  induction k with
  | zero => rfl
  | succ k ih => rw [List.replicate_succ, List.foldl_cons, Nat.zero_mul, ih]

theorem value_zeroPad (a b w : Nat) (t : Text) : value a b (zeroPad w t) = value a b t := by
  unfold value zeroPad
  rw [List.map_append, List.map_replicate]
  exact ofDigits_zeros _ _ _

theorem value_digits {a : Nat} (ha : 58 ≤ a) (b n : Nat) :
    value a b ((digits b n).map (digitChar a)) = n := by
  unfold value
  rw [List.map_map]
  have : (charDigit a ∘ digitChar a) = id := by funext d; exact charDigit_digitChar ha d
  rw [this, List.map_id, ofDigits_digits]

theorem value_dec (n : Nat) : value 97 10 (dec n) = n := value_digits (by decide) _ _
theorem value_hexLower (n : Nat) : value 97 16 (hexLower n) = n := value_digits (by decide) _ _
theorem value_hexUpper (n : Nat) : value 65 16 (hexUpper n) = n := value_digits (by decide) _ _
theorem value_bin (n : Nat) : value 97 2 (bin n) = n := value_digits (by decide) _ _

theorem dec_inj {m n : Nat} (h : dec m = dec n) : m = n := by
  rw [← value_dec m, h, value_dec]
theorem hexUpper_inj {m n : Nat} (h : hexUpper m = hexUpper n) : m = n := by
  rw [← value_hexUpper m, h, value_hexUpper]
theorem hexLower_inj {m n : Nat} (h : hexLower m = hexLower n) : m = n := by
  rw [← value_hexLower m, h, value_hexLower]
theorem bin_inj {m n : Nat} (h : bin m = bin n) : m = n := by
  rw [← value_bin m, h, value_bin]
theorem pad_dec_inj {w w' m n : Nat} (h : zeroPad w (dec m) = zeroPad w' (dec n)) : m = n := by
  rw [← value_dec m, ← value_zeroPad 97 10 w, h, value_zeroPad, value_dec]
theorem pad_hexLower_inj {w w' m n : Nat} (h : zeroPad w (hexLower m) = zeroPad w' (hexLower n)) :
    m = n := by
  rw [← value_hexLower m, ← value_zeroPad 97 16 w, h, value_zeroPad, value_hexLower]
theorem pad_hexUpper_inj {w w' m n : Nat} (h : zeroPad w (hexUpper m) = zeroPad w' (hexUpper n)) :
    m = n := by
  rw [← value_hexUpper m, ← value_zeroPad 65 16 w, h, value_zeroPad, value_hexUpper]

/-- Characters of numbers: `0-9`, `a-f` and `A-F`. -/
def isNum (c : Nat) : Bool := (48 ≤ c && c ≤ 57) || (97 ≤ c && c ≤ 102) || (65 ≤ c && c ≤ 70)

theorem isNum_digits {a b n : Nat} (ha : a = 97 ∨ a = 65) (hb : 2 ≤ b) (hb' : b ≤ 16) :
    ∀ c ∈ (digits b n).map (digitChar a), isNum c = true := by
  intro c hc
  obtain ⟨d, hd, rfl⟩ := List.mem_map.1 hc
  have := digits_lt hb hd
  unfold isNum digitChar
  simp only [Bool.or_eq_true, Bool.and_eq_true, decide_eq_true_eq]
  split <;> omega

theorem isNum_dec (n : Nat) : ∀ c ∈ dec n, isNum c = true :=
  isNum_digits (.inl rfl) (by decide) (by decide)
theorem isNum_hexLower (n : Nat) : ∀ c ∈ hexLower n, isNum c = true :=
  isNum_digits (.inl rfl) (by decide) (by decide)
theorem isNum_hexUpper (n : Nat) : ∀ c ∈ hexUpper n, isNum c = true :=
  isNum_digits (.inr rfl) (by decide) (by decide)
theorem isNum_bin (n : Nat) : ∀ c ∈ bin n, isNum c = true :=
  isNum_digits (.inl rfl) (by decide) (by decide)
theorem isNum_zeroPad {w : Nat} {t : Text} (h : ∀ c ∈ t, isNum c = true) :
    ∀ c ∈ zeroPad w t, isNum c = true := by
  intro c hc
  rcases List.mem_append.1 hc with hc | hc
  · rw [(List.mem_replicate.1 hc).2]; decide
  · exact h c hc

theorem dec_digit (n : Nat) : ∀ c ∈ dec n, 48 ≤ c ∧ c ≤ 57 := by
  intro c hc
  obtain ⟨d, hd, rfl⟩ := List.mem_map.1 hc
  have := digits_lt (by decide) hd
  unfold digitChar; split <;> omega

/-- The split of a text after the characters with a property is unique. -/
theorem split_unique (p : Nat → Bool) {x x' y y' : Text} (hx : ∀ c ∈ x, p c = true)
    (hx' : ∀ c ∈ x', p c = true) (hy : ∀ c, y.head? = some c → p c = false)
    (hy' : ∀ c, y'.head? = some c → p c = false) (h : x ++ y = x' ++ y') : x = x' ∧ y = y' := by
  have key : ∀ (x y : Text), (∀ c ∈ x, p c = true) →
      (∀ c, y.head? = some c → p c = false) → (x ++ y).takeWhile p = x := by
    intro x y hx hy
    rw [List.takeWhile_append_of_pos hx]
    cases y with
    | nil => simp
    | cons c y => simp [hy c rfl]
  have e : x = x' := by rw [← key x y hx hy, h, key x' y' hx' hy']
  subst e
  exact ⟨rfl, List.append_cancel_left h⟩

/-- A number is followed by something else: the split is unique. -/
theorem num_split {x x' y y' : Text} (hx : ∀ c ∈ x, isNum c = true) (hx' : ∀ c ∈ x', isNum c = true)
    (hy : ∀ c, y.head? = some c → isNum c = false) (hy' : ∀ c, y'.head? = some c → isNum c = false)
    (h : x ++ y = x' ++ y') : x = x' ∧ y = y' := split_unique isNum hx hx' hy hy' h

/-- Decimal digits. -/
def isDigit (c : Nat) : Bool := 48 ≤ c && c ≤ 57

theorem isDigit_dec (n : Nat) : ∀ c ∈ dec n, isDigit c = true := by
  intro c hc
  have := dec_digit n c hc
  simp [isDigit, this]

/-- A text determines the decimal number at its end if it does not follow a digit. -/
theorem dec_snoc {m n : Nat} {x y : Text} (hx : ∀ c, x.getLast? = some c → isDigit c = false)
    (hy : ∀ c, y.getLast? = some c → isDigit c = false) (h : x ++ dec m = y ++ dec n) :
    x = y ∧ m = n := by
  have h := congrArg List.reverse h
  rw [List.reverse_append, List.reverse_append] at h
  have := split_unique isDigit (fun c hc => isDigit_dec m c (List.mem_reverse.1 hc))
    (fun c hc => isDigit_dec n c (List.mem_reverse.1 hc))
    (by rw [List.head?_reverse]; exact hx) (by rw [List.head?_reverse]; exact hy) h
  exact ⟨List.reverse_inj.1 this.2, dec_inj (List.reverse_inj.1 this.1)⟩

/-- A text determines the number it begins with if the number is followed by a literal. -/
theorem dec_split {m n c : Nat} {y y' : Text} (hc : isNum c = false)
    (h : dec m ++ c :: y = dec n ++ c :: y') : m = n ∧ y = y' := by
  have := num_split (isNum_dec m) (isNum_dec n) (by simpa using hc) (by simpa using hc) h
  exact ⟨dec_inj this.1, List.tail_eq_of_cons_eq this.2⟩

theorem pad_dec_split {w w' m n c : Nat} {y y' : Text} (hc : isNum c = false)
    (h : zeroPad w (dec m) ++ c :: y = zeroPad w' (dec n) ++ c :: y') : m = n ∧ y = y' := by
  have := num_split (isNum_zeroPad (isNum_dec m)) (isNum_zeroPad (isNum_dec n)) (by simpa using hc)
    (by simpa using hc) h
  exact ⟨pad_dec_inj this.1, List.tail_eq_of_cons_eq this.2⟩

theorem pad_hexLower_split {w w' m n c : Nat} {y y' : Text} (hc : isNum c = false)
    (h : zeroPad w (hexLower m) ++ c :: y = zeroPad w' (hexLower n) ++ c :: y') :
    m = n ∧ y = y' := by
  have := num_split (isNum_zeroPad (isNum_hexLower m)) (isNum_zeroPad (isNum_hexLower n))
    (by simpa using hc) (by simpa using hc) h
  exact ⟨pad_hexLower_inj this.1, List.tail_eq_of_cons_eq this.2⟩

theorem pad_hexUpper_split {w w' m n c : Nat} {y y' : Text} (hc : isNum c = false)
    (h : zeroPad w (hexUpper m) ++ c :: y = zeroPad w' (hexUpper n) ++ c :: y') :
    m = n ∧ y = y' := by
  have := num_split (isNum_zeroPad (isNum_hexUpper m)) (isNum_zeroPad (isNum_hexUpper n))
    (by simpa using hc) (by simpa using hc) h
  exact ⟨pad_hexUpper_inj this.1, List.tail_eq_of_cons_eq this.2⟩

theorem hexUpper_split {m n c : Nat} {y y' : Text} (hc : isNum c = false)
    (h : hexUpper m ++ c :: y = hexUpper n ++ c :: y') : m = n ∧ y = y' := by
  have := num_split (isNum_hexUpper m) (isNum_hexUpper n) (by simpa using hc) (by simpa using hc) h
  exact ⟨hexUpper_inj this.1, List.tail_eq_of_cons_eq this.2⟩

theorem hexLower_split {m n c : Nat} {y y' : Text} (hc : isNum c = false)
    (h : hexLower m ++ c :: y = hexLower n ++ c :: y') : m = n ∧ y = y' := by
  have := num_split (isNum_hexLower m) (isNum_hexLower n) (by simpa using hc) (by simpa using hc) h
  exact ⟨hexLower_inj this.1, List.tail_eq_of_cons_eq this.2⟩

/-! ## Numerals -/

theorem digitsAux_head {b : Nat} (hb : 2 ≤ b) : ∀ {f n}, n ≤ f → n ≠ 0 →
    (digitsAux b f n).head? ≠ some 0
  | 0, n, h, h0 => by omega
  | f + 1, n, h, h0 => by
    unfold digitsAux
    split
    · simpa using h0
    · rename_i hn
      have h1 : n / b ≠ 0 := by
        intro e
        rcases Nat.div_eq_zero_iff.1 e with e | e <;> omega
      have h2 : n / b ≤ f := by
        have := Nat.div_lt_self (Nat.pos_of_ne_zero h0) hb
        omega
      have ih := digitsAux_head hb h2 h1
      have hne := digitsAux_ne_nil b f (n / b)
      cases e : digitsAux b f (n / b) with
      | nil => exact (hne e).elim
      | cons c l => rw [e] at ih; exact ih

theorem digits_head {b n : Nat} (hb : 2 ≤ b) (h : n ≠ 0) : (digits b n).head? ≠ some 0 :=
  digitsAux_head hb (Nat.le_refl n) h

theorem isNumeral_pad {a b w : Nat} (ha : 58 ≤ a) (hb : 2 ≤ b) (hw : 1 ≤ w) (n : Nat) :
    IsNumeral a b w (zeroPad w ((digits b n).map (digitChar a))) n := by
  refine ⟨?_, ?_, ?_, ?_⟩
  · intro c hc
    rcases List.mem_append.1 hc with hc | hc
    · exact ⟨0, by omega, by rw [(List.mem_replicate.1 hc).2]; rfl⟩
    · obtain ⟨d, hd, rfl⟩ := List.mem_map.1 hc
      exact ⟨d, digits_lt hb hd, rfl⟩
  · simp only [zeroPad, List.length_append, List.length_replicate]; omega
  · intro h
    simp only [zeroPad, List.length_append, List.length_replicate, List.length_map] at h ⊢
    have e : w - (digits b n).length = 0 := by omega
    rw [e, List.replicate_zero, List.nil_append, List.head?_map]
    by_cases h0 : n = 0
    · subst h0
      have : (digits b 0).length = 1 := rfl
      omega
    · have := digits_head hb h0
      intro h
      obtain ⟨d, hd, he⟩ := Option.map_eq_some_iff.1 h
      have : d = 0 := by unfold digitChar at he; split at he <;> omega
      subst this
      contradiction
  · rw [value_zeroPad, value_digits ha]

theorem zeroPad_one {b n : Nat} (f : Nat → Nat) :
    zeroPad 1 ((digits b n).map f) = (digits b n).map f := by
  have : 1 ≤ (digits b n).length := List.length_pos_iff.2 (digitsAux_ne_nil _ _ _)
  unfold zeroPad
  rw [List.length_map, show 1 - (digits b n).length = 0 by omega]
  rfl

theorem isNumeral_digits {a b : Nat} (ha : 58 ≤ a) (hb : 2 ≤ b) (n : Nat) :
    IsNumeral a b 1 ((digits b n).map (digitChar a)) n := by
  rw [← zeroPad_one]; exact isNumeral_pad ha hb (by decide) n

theorem isDec (n : Nat) : IsDec 1 (dec n) n := isNumeral_digits (by decide) (by decide) n
theorem isHexLower (n : Nat) : IsHexLower 1 (hexLower n) n :=
  isNumeral_digits (by decide) (by decide) n
theorem isHexUpper (n : Nat) : IsHexUpper 1 (hexUpper n) n :=
  isNumeral_digits (by decide) (by decide) n
theorem isBin (n : Nat) : IsBin 1 (bin n) n := isNumeral_digits (by decide) (by decide) n
theorem isDec_pad {w : Nat} (hw : 1 ≤ w) (n : Nat) : IsDec w (zeroPad w (dec n)) n :=
  isNumeral_pad (by decide) (by decide) hw n
theorem isHexLower_pad {w : Nat} (hw : 1 ≤ w) (n : Nat) : IsHexLower w (zeroPad w (hexLower n)) n :=
  isNumeral_pad (by decide) (by decide) hw n
theorem isHexUpper_pad {w : Nat} (hw : 1 ≤ w) (n : Nat) : IsHexUpper w (zeroPad w (hexUpper n)) n :=
  isNumeral_pad (by decide) (by decide) hw n

theorem digitsAux_length {b : Nat} (hb : 2 ≤ b) : ∀ {f w n}, n ≤ f → n < b ^ (w + 1) →
    (digitsAux b f n).length ≤ w + 1
  | 0, w, n, _, _ => by simp [digitsAux]
  | f + 1, w, n, h, hn => by
    unfold digitsAux
    split
    · simp
    · cases w with
      | zero => rw [Nat.pow_one] at hn; omega
      | succ w =>
        have h2 : n / b ≤ f := by
          have := Nat.div_lt_self (n := n) (k := b) (by omega) hb
          omega
        have := digitsAux_length hb h2 (w := w)
          (Nat.div_lt_of_lt_mul (by rw [Nat.pow_succ, Nat.mul_comm] at hn; exact hn))
        rw [List.length_append, List.length_singleton]; omega

theorem dec_length {w n : Nat} (h : n < 10 ^ (w + 1)) : (dec n).length ≤ w + 1 := by
  rw [dec, List.length_map]; exact digitsAux_length (by decide) (Nat.le_refl n) h

theorem pad_dec_length {w n : Nat} (h : n < 10 ^ (w + 1)) :
    (zeroPad (w + 1) (dec n)).length = w + 1 := by
  have := dec_length h
  simp only [zeroPad, List.length_append, List.length_replicate]; omega

/-! ## Labels of enumerations -/

/-- A number standing for a text. -/
def key (t : Text) : Nat := t.foldl (fun a c => a * 256 + c) 1

/-- Are all numbers of a list different? -/
def distinct : List Nat → Bool
  | [] => true
  | a :: l => l.all (fun b => a != b) && distinct l

theorem inj_of_distinct {α : Type} (f : α → Nat) : ∀ {l : List α}, distinct (l.map f) = true →
    ∀ a ∈ l, ∀ b ∈ l, f a = f b → a = b
  | [], _, a, ha, _, _, _ => absurd ha List.not_mem_nil
  | x :: l, h, a, ha, b, hb, e => by
    simp only [List.map_cons, distinct, Bool.and_eq_true, List.all_eq_true, bne_iff_ne,
      List.mem_map, forall_exists_index, and_imp, forall_apply_eq_imp_iff₂] at h
    rcases List.mem_cons.1 ha with rfl | ha' <;> rcases List.mem_cons.1 hb with rfl | hb'
    · rfl
    · exact absurd e (h.1 b hb')
    · exact absurd e.symm (h.1 a ha')
    · exact inj_of_distinct f h.2 a ha' b hb' e

/-- Labels of an enumeration with plain variants `all` and numbered variants `P`: if the plain labels
are distinct and have none of the prefixes of the numbered labels, equal labels belong to equal plain
variants or to two numbered variants. -/
theorem labels_rel {α : Type} (disp : α → Text) (all : List α) (P : α → Prop) (pres : List Text)
    (R : α → α → Prop) (hall : ∀ a, a ∈ all ∨ P a)
    (hd : distinct (all.map fun a => key (disp a)) = true)
    (hpre : (all.all fun a => pres.all fun p => !p.isPrefixOf (disp a)) = true)
    (hP : ∀ a, P a → ∃ p ∈ pres, p <+: disp a)
    (hPP : ∀ a b, P a → P b → disp a = disp b → R a b) :
    ∀ a b, disp a = disp b → a = b ∨ R a b := by
  have no : ∀ a b, a ∈ all → P b → disp a = disp b → False := by
    intro a b ha hb e
    obtain ⟨p, hp, hpb⟩ := hP b hb
    rw [← e] at hpb
    have := List.all_eq_true.1 (List.all_eq_true.1 hpre a ha) p hp
    rw [List.isPrefixOf_iff_prefix.2 hpb] at this
    cases this
  intro a b e
  rcases hall a with ha | ha <;> rcases hall b with hb | hb
  · exact .inl (inj_of_distinct (fun a => key (disp a)) hd a ha b hb (by simp only [e]))
  · exact (no a b ha hb e).elim
  · exact (no b a hb ha e.symm).elim
  · exact .inr (hPP a b ha hb e)

/-- The same, if the labels of numbered variants are distinct too. -/
theorem labels_inj {α : Type} (disp : α → Text) (all : List α) (P : α → Prop) (pres : List Text)
    (hall : ∀ a, a ∈ all ∨ P a)
    (hd : distinct (all.map fun a => key (disp a)) = true)
    (hpre : (all.all fun a => pres.all fun p => !p.isPrefixOf (disp a)) = true)
    (hP : ∀ a, P a → ∃ p ∈ pres, p <+: disp a)
    (hPP : ∀ a b, P a → P b → disp a = disp b → a = b) :
    ∀ a b, disp a = disp b → a = b :=
  fun a b e => (labels_rel disp all P pres Eq hall hd hpre hP hPP a b e).elim id id

end Dmi.Fmt
