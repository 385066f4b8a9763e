import Verif.Model.DebugTree
import Verif.Proofs.Fmt
import Verif.Proofs.Utf8
/-!
# The text of a derived `Debug` determines what was told to the formatter
-/
namespace Dmi
open Fmt

/-- The bytes of a code point, as numbers. -/
def encNat (c : Nat) : List Nat :=
  if c < 0x80 then [c]
  else if c < 0x800 then [0xC0 + c / 64, 0x80 + c % 64]
  else if c < 0x10000 then [0xE0 + c / 4096, 0x80 + c / 64 % 64, 0x80 + c % 64]
  else [0xF0 + c / 262144, 0x80 + c / 4096 % 64, 0x80 + c / 64 % 64, 0x80 + c % 64]

/-- The length of a character, by its first byte. -/
def charWidth (b : Nat) : Nat := if b < 0x80 then 1 else if b < 0xE0 then 2 else if b < 0xF0 then 3 else 4

theorem charAt_spec {s : Bytes} {c n : Nat} (h : charAt s = some (c, n)) :
    str (s.take n) = encNat c ∧ n ≤ s.length ∧ ∃ b r, s = b :: r ∧ n = charWidth b.toNat := by
  unfold charAt at h
  split at h
  · cases h
  rename_i b0 r
  have l0 := b0.toNat_lt
  split at h
  · rename_i h0
    rw [UInt8.lt_iff_toNat_lt] at h0
    have h0 : b0.toNat < 128 := h0
    cases h
    refine ⟨?_, by simp, b0, r, rfl, by rw [charWidth, if_pos h0]⟩
    rw [encNat, if_pos h0]; rfl
  split at h
  · rename_i h0
    rw [inRange_iff] at h0
    have h0 : 194 ≤ b0.toNat ∧ b0.toNat ≤ 223 := h0
    split at h
    · rename_i b1 r1
      split at h
      · rename_i h1
        rw [isCont_iff] at h1
        simp only [Option.some.injEq, Prod.mk.injEq] at h
        obtain ⟨rfl, rfl⟩ := h
        refine ⟨?_, by simp, b0, _, rfl, by rw [charWidth, if_neg (by omega), if_pos (by omega)]⟩
        rw [encNat, if_neg (by omega), if_pos (by omega)]
        simp only [str, List.take_succ_cons, List.take_zero, List.map_cons, List.map_nil, List.cons.injEq,
          and_true]
        omega
      · cases h
    · cases h
  split at h
  · rename_i h0
    rw [inRange_iff] at h0
    have h0 : 224 ≤ b0.toNat ∧ b0.toNat ≤ 239 := h0
    split at h
    · rename_i b1 b2 r1
      split at h
      · rename_i h1
        rw [Bool.and_eq_true, isCont_iff] at h1
        obtain ⟨h1, h2⟩ := h1
        have h1 : 128 ≤ b1.toNat ∧ b1.toNat ≤ 191 ∧ (b0.toNat = 224 → 160 ≤ b1.toNat) := by
          unfold second3 at h1
          split at h1
          · rw [inRange_iff] at h1
            have h1 : 160 ≤ b1.toNat ∧ b1.toNat ≤ 191 := h1
            omega
          · rename_i he
            have he : b0.toNat ≠ 224 := fun e => he (UInt8.toNat_inj.1 e)
            split at h1
            · rw [inRange_iff] at h1
              have h1 : 128 ≤ b1.toNat ∧ b1.toNat ≤ 159 := h1
              omega
            · rw [isCont_iff] at h1
              omega
        simp only [Option.some.injEq, Prod.mk.injEq] at h
        obtain ⟨rfl, rfl⟩ := h
        refine ⟨?_, by simp, b0, _, rfl,
          by rw [charWidth, if_neg (by omega), if_neg (by omega), if_pos (by omega)]⟩
        rw [encNat, if_neg (by omega), if_neg (by omega), if_pos (by omega)]
        simp only [str, List.take_succ_cons, List.take_zero, List.map_cons, List.map_nil, List.cons.injEq,
          and_true]
        omega
      · cases h
    · cases h
  split at h
  · rename_i h0
    rw [inRange_iff] at h0
    have h0 : 240 ≤ b0.toNat ∧ b0.toNat ≤ 244 := h0
    split at h
    · rename_i b1 b2 b3 r1
      split at h
      · rename_i h1
        rw [Bool.and_eq_true, Bool.and_eq_true, isCont_iff, isCont_iff] at h1
        obtain ⟨⟨h1, h2⟩, h3⟩ := h1
        have h1 : 128 ≤ b1.toNat ∧ b1.toNat ≤ 191 ∧ (b0.toNat = 240 → 144 ≤ b1.toNat) := by
          unfold second4 at h1
          split at h1
          · rw [inRange_iff] at h1
            have h1 : 144 ≤ b1.toNat ∧ b1.toNat ≤ 191 := h1
            omega
          · rename_i he
            have he : b0.toNat ≠ 240 := fun e => he (UInt8.toNat_inj.1 e)
            split at h1
            · rw [inRange_iff] at h1
              have h1 : 128 ≤ b1.toNat ∧ b1.toNat ≤ 143 := h1
              omega
            · rw [isCont_iff] at h1
              omega
        simp only [Option.some.injEq, Prod.mk.injEq] at h
        obtain ⟨rfl, rfl⟩ := h
        refine ⟨?_, by simp, b0, _, rfl,
          by rw [charWidth, if_neg (by omega), if_neg (by omega), if_neg (by omega)]⟩
        rw [encNat, if_neg (by omega), if_neg (by omega), if_neg (by omega)]
        simp only [str, List.take_succ_cons, List.take_zero, List.map_cons, List.map_nil, List.cons.injEq,
          and_true]
        omega
      · cases h
    · cases h
  · cases h

theorem str_inj {a b : Bytes} (h : str a = str b) : a = b :=
  List.map_inj_right (fun _ _ e => UInt8.toNat_inj.1 e) |>.1 h

theorem encNat_head {c x : Nat} {t : List Nat} (h : encNat c = x :: t) (hx : x < 128) : c = x := by
  unfold encNat at h
  split at h
  · cases h; rfl
  · split at h
    · cases h; omega
    · split at h <;> cases h <;> omega

/-- The characters with an escape of two letters. -/
def shortEscapes : List (Nat × Nat) := [(0, 48), (9, 116), (13, 114), (10, 110), (92, 92), (34, 34)]

theorem escapeChar_cases (f : Nat → Bool) (c : Nat) (e : Bytes) :
    (∃ x, (c, x) ∈ shortEscapes ∧ escapeChar f c e = [92, x]) ∨
    escapeChar f c e = 92 :: 117 :: 123 :: (hexLower c ++ [125]) ∨
    (escapeChar f c e = str e ∧ c ≠ 92 ∧ c ≠ 34) := by
  unfold escapeChar shortEscapes
  split
  · subst c; exact .inl ⟨48, by simp, rfl⟩
  split
  · subst c; exact .inl ⟨116, by simp, rfl⟩
  split
  · subst c; exact .inl ⟨114, by simp, rfl⟩
  split
  · subst c; exact .inl ⟨110, by simp, rfl⟩
  split
  · subst c; exact .inl ⟨92, by simp, rfl⟩
  split
  · subst c; exact .inl ⟨34, by simp, rfl⟩
  split
  · exact .inr (.inl rfl)
  · exact .inr (.inr ⟨rfl, by assumption, by assumption⟩)

theorem short_inj {c c' x : Nat} (h : (c, x) ∈ shortEscapes) (h' : (c', x) ∈ shortEscapes) :
    c = c' ∧ x ≠ 117 ∧ x ≠ 120 := by
  simp only [shortEscapes, List.mem_cons, Prod.mk.injEq, List.not_mem_nil, or_false] at h h'
  omega

/-- The text of one character, followed by anything, determines the character. -/
theorem escapeChar_inj (f : Nat → Bool) {s s' : Bytes} {c n c' n' : Nat} {r r' : Text}
    (h : charAt s = some (c, n)) (h' : charAt s' = some (c', n'))
    (e : escapeChar f c (s.take n) ++ r = escapeChar f c' (s'.take n') ++ r') :
    s.take n = s'.take n' ∧ r = r' := by
  obtain ⟨a1, a2, b, t, rfl, a3⟩ := charAt_spec h
  obtain ⟨b1, b2, b', t', rfl, b3⟩ := charAt_spec h'
  have key : c = c' → (b :: t).take n = (b' :: t').take n' := fun e => str_inj (by rw [a1, b1, e])
  have hn : ∃ k, n = k + 1 := ⟨n - 1, by rw [a3, charWidth]; split <;> (try split) <;> (try split) <;> rfl⟩
  have hn' : ∃ k, n' = k + 1 := ⟨n' - 1, by rw [b3, charWidth]; split <;> (try split) <;> (try split) <;> rfl⟩
  obtain ⟨k, rfl⟩ := hn
  obtain ⟨k', rfl⟩ := hn'
  have raw : c ≠ 92 → b.toNat ≠ 92 := fun q e => q ((encNat_head (x := 92) (t := str (t.take k)) (by
    rw [← a1, ← e]; rfl) (by decide)))
  have raw' : c' ≠ 92 → b'.toNat ≠ 92 := fun q e => q ((encNat_head (x := 92) (t := str (t'.take k')) (by
    rw [← b1, ← e]; rfl) (by decide)))
  rcases escapeChar_cases f c ((b :: t).take (k + 1)) with ⟨x, m, q⟩ | q | ⟨q, q1, -⟩ <;>
    rcases escapeChar_cases f c' ((b' :: t').take (k' + 1)) with ⟨x', m', q'⟩ | q' | ⟨q', q1', -⟩ <;>
    rw [q, q'] at e
  · simp only [List.cons_append, List.nil_append, List.cons.injEq, true_and] at e
    obtain ⟨rfl, e⟩ := e
    exact ⟨key (short_inj m m').1, e⟩
  · simp only [List.cons_append, List.nil_append, List.cons.injEq, true_and] at e
    exact absurd e.1 (short_inj m m).2.1
  · simp only [str, List.take_succ_cons, List.map_cons, List.cons_append, List.cons.injEq] at e
    exact absurd e.1.symm (raw' q1')
  · simp only [List.cons_append, List.nil_append, List.cons.injEq, true_and] at e
    exact absurd e.1.symm (short_inj m' m').2.1
  · simp only [List.cons_append, List.append_assoc, List.nil_append, List.cons.injEq, true_and] at e
    obtain ⟨e1, e2⟩ := hexLower_split (by decide) e
    exact ⟨key e1, e2⟩
  · simp only [str, List.take_succ_cons, List.map_cons, List.cons_append, List.cons.injEq] at e
    exact absurd e.1.symm (raw' q1')
  · simp only [str, List.take_succ_cons, List.map_cons, List.cons_append, List.cons.injEq] at e
    exact absurd e.1 (raw q1)
  · simp only [str, List.take_succ_cons, List.map_cons, List.cons_append, List.cons.injEq] at e
    exact absurd e.1 (raw q1)
  · have hb : b.toNat = b'.toNat := by
      simp only [str, List.take_succ_cons, List.map_cons, List.cons_append, List.cons.injEq] at e
      exact e.1
    have hk : k + 1 = k' + 1 := by rw [a3, b3, hb]
    have hl : (str ((b :: t).take (k + 1))).length = (str ((b' :: t').take (k' + 1))).length := by
      rw [str, str, List.length_map, List.length_map, List.length_take, List.length_take]
      omega
    obtain ⟨e1, e2⟩ := List.append_inj e hl
    exact ⟨str_inj e1, e2⟩

/-- No character begins with a quotation mark, nor with the mark of a byte that is none. -/
theorem escapeChar_head (f : Nat → Bool) {b : UInt8} {t : Bytes} {c n : Nat} {r : Text}
    (h : charAt (b :: t) = some (c, n)) :
    (∀ r', escapeChar f c ((b :: t).take n) ++ r ≠ 34 :: r') ∧
    (∀ r', escapeChar f c ((b :: t).take n) ++ r ≠ 92 :: 120 :: r') := by
  obtain ⟨a1, a2, b', t', e, a3⟩ := charAt_spec h
  cases e
  obtain ⟨k, rfl⟩ : ∃ k, n = k + 1 :=
    ⟨n - 1, by rw [a3, charWidth]; split <;> (try split) <;> (try split) <;> rfl⟩
  have raw : ∀ x, x < 128 → c ≠ x → b.toNat ≠ x := fun x hx q e =>
    q ((encNat_head (x := x) (t := str (t.take k)) (by rw [← a1, ← e]; rfl) hx))
  rcases escapeChar_cases f c ((b :: t).take (k + 1)) with ⟨x, m, q⟩ | q | ⟨q, q1, q2⟩ <;> rw [q]
  · refine ⟨fun r' e => (by cases e), fun r' e => ?_⟩
    simp only [List.cons_append, List.cons.injEq, true_and] at e
    exact (short_inj m m).2.2 e.1
  · exact ⟨fun r' e => (by cases e), fun r' e => (by cases e)⟩
  · refine ⟨fun r' e => ?_, fun r' e => ?_⟩ <;>
      simp only [str, List.take_succ_cons, List.map_cons, List.cons_append, List.cons.injEq] at e
    · exact raw 34 (by decide) q2 e.1
    · exact raw 92 (by decide) q1 e.1

/-- The text of a string up to its closing quotation mark determines the string. -/
theorem escapeFuel_inj (f : Nat → Bool) : ∀ (k k' : Nat) (s s' : Bytes) (r r' : Text), s.length ≤ k →
    s'.length ≤ k' → escapeFuel f k s ++ 34 :: r = escapeFuel f k' s' ++ 34 :: r' → s = s' ∧ r = r' := by
  have nil : ∀ k, escapeFuel f k [] = [] := by intro k; cases k <;> rfl
  have head : ∀ k b t r r', (b :: t : Bytes).length ≤ k → escapeFuel f k (b :: t) ++ r ≠ 34 :: r' := by
    intro k b t r r' hk e
    cases k with
    | zero => cases hk
    | succ k =>
    rw [escapeFuel] at e
    split at e
    · rename_i c n h
      rw [List.append_assoc] at e
      exact (escapeChar_head f h).1 _ e
    · cases e
  intro k
  induction k with
  | zero =>
    intro k' s s' r r' hk hk' e
    cases s with
    | cons b t => cases hk
    | nil =>
    cases s' with
    | nil => rw [nil, nil] at e; cases e; exact ⟨rfl, rfl⟩
    | cons b' t' => rw [nil] at e; exact absurd e.symm (head _ _ _ _ _ hk')
  | succ k ih =>
    intro k' s s' r r' hk hk' e
    cases s with
    | nil =>
      cases s' with
      | nil => rw [nil, nil] at e; cases e; exact ⟨rfl, rfl⟩
      | cons b' t' => rw [nil] at e; exact absurd e.symm (head _ _ _ _ _ hk')
    | cons b t =>
    cases s' with
    | nil => rw [nil] at e; exact absurd e (head _ _ _ _ _ hk)
    | cons b' t' =>
    cases k' with
    | zero => cases hk'
    | succ k' =>
    rw [escapeFuel, escapeFuel] at e
    have len : ∀ {b : UInt8} {t : Bytes} {c n k : Nat}, charAt (b :: t) = some (c, n) →
        (b :: t).length ≤ k + 1 → ((b :: t).drop n).length ≤ k := by
      intro b t c n k h hk
      obtain ⟨-, h2, _, _, h3, h4⟩ := charAt_spec h
      have : 1 ≤ n := by rw [h4, charWidth]; split <;> (try split) <;> (try split) <;> decide
      rw [List.length_drop]
      omega
    split at e <;> split at e
    · rename_i c n h _ c' n' h'
      rw [List.append_assoc, List.append_assoc] at e
      obtain ⟨e1, e2⟩ := escapeChar_inj f h h' e
      obtain ⟨e3, e4⟩ := ih _ _ _ _ _ (len h hk) (len h' hk') e2
      refine ⟨?_, e4⟩
      rw [← List.take_append_drop n (b :: t), e1, e3, List.take_append_drop]
    · rename_i c n h _ h'
      rw [List.append_assoc] at e
      exact absurd e ((escapeChar_head f h).2 _)
    · rename_i h _ c n h'
      rw [List.append_assoc (escapeChar _ _ _)] at e
      exact absurd e.symm ((escapeChar_head f h').2 _)
    · simp only [List.cons_append, List.nil_append, List.cons.injEq, true_and] at e
      obtain ⟨e1, e2⟩ := e
      simp only [List.length_cons] at hk hk'
      obtain ⟨e3, e4⟩ := ih _ _ _ _ _ (by omega) (by omega) e2
      exact ⟨by rw [UInt8.toNat_inj.1 e1, e3], e4⟩

theorem escape_inj (f : Nat → Bool) {s s' : Bytes} {r r' : Text} (e : escape f s ++ r = escape f s' ++ r') :
    s = s' ∧ r = r' := by
  unfold escape at e
  simp only [List.cons_append, List.append_assoc, List.nil_append, List.cons.injEq, true_and] at e
  exact escapeFuel_inj f _ _ _ _ _ _ (Nat.le_refl _) (Nat.le_refl _) e

/-! ## Trees -/

/-- Characters of numbers and identifiers: any but space, newline, bar, quotation mark, comma, colon and
the brackets. -/
def wordChar (c : Nat) : Bool :=
  decide (32 < c) && !(c == 127 || c == 124 || c == 34 || c == 44 || c == 58 || c == 40 || c == 41 || c == 91 ||
    c == 93 || c == 123 || c == 125)

/-- A word is not empty. -/
def isWord (t : Text) : Bool := !t.isEmpty && t.all wordChar

mutual
/-- What a derived `Debug` tells has words as names; fields of structs have names, others have none. -/
def Dbg.WF : Dbg → Prop
  | .words t l => isWord t = true ∧ l.all isWord = true
  | .unit => True
  | .str _ => True
  | .tuple n a => isWord n = true ∧ a.WF false
  | .struct n a => isWord n = true ∧ a.WF true
  | .list a => a.WF false
def DbgArgs.WF (named : Bool) : DbgArgs → Prop
  | .nil => True
  | .cons l v r => (if named then isWord l = true else l = []) ∧ v.WF ∧ r.WF named
end

theorem isWord_iff (t : Text) : isWord t = true ↔ t ≠ [] ∧ ∀ c ∈ t, wordChar c = true := by
  unfold isWord
  rw [Bool.and_eq_true, List.all_eq_true]
  cases t <;> simp

theorem word_cons {t : Text} (h : isWord t = true) : ∃ c r, t = c :: r ∧ wordChar c = true := by
  obtain ⟨h1, h2⟩ := (isWord_iff t).1 h
  cases t with
  | nil => exact absurd rfl h1
  | cons c r => exact ⟨c, r, rfl, h2 c List.mem_cons_self⟩

/-- What may follow a value: a comma, a closing bracket or a closing brace behind a space. -/
def Stop (r : Text) : Prop :=
  r = [] ∨ (∃ t, r = 44 :: t) ∨ (∃ t, r = 41 :: t) ∨ (∃ t, r = 93 :: t) ∨ ∃ t, r = 32 :: 125 :: t

/-- What follows the fields. -/
def Close (r : Text) : Prop := (∃ t, r = 41 :: t) ∨ (∃ t, r = 93 :: t) ∨ ∃ t, r = 32 :: 125 :: t

theorem Close.stop {r : Text} (h : Close r) : Stop r := .inr (.inr h)

/-- What follows a word. -/
def NoWord (r : Text) : Prop := ∀ c, r.head? = some c → wordChar c = false

theorem Stop.noWord {r : Text} (h : Stop r) : NoWord r := by
  intro c hc
  rcases h with rfl | ⟨t, rfl⟩ | ⟨t, rfl⟩ | ⟨t, rfl⟩ | ⟨t, rfl⟩ <;> cases hc <;> rfl

theorem word_split {w w' k k' : Text} (h : isWord w = true) (h' : isWord w' = true) (hk : NoWord k)
    (hk' : NoWord k') (e : w ++ k = w' ++ k') : w = w' ∧ k = k' :=
  split_unique wordChar ((isWord_iff w).1 h).2 ((isWord_iff w').1 h').2 hk hk' e

theorem noWord_cons {c : Nat} {r : Text} (h : wordChar c = false) : NoWord (c :: r) := by
  intro c' hc; cases hc; exact h

/-- The words behind the first one. -/
def barred (l : List Text) : Text := l.flatMap fun t => txt! " | " ++ t

theorem barred_noWord (l : List Text) {r : Text} (h : NoWord r) : NoWord (barred l ++ r) := by
  cases l with
  | nil => exact h
  | cons t l => exact noWord_cons rfl

theorem barred_inj : ∀ {l l' : List Text} {r r' : Text}, l.all isWord = true → l'.all isWord = true →
    Stop r → Stop r' → barred l ++ r = barred l' ++ r' → l = l' ∧ r = r'
  | [], [], _, _, _, _, _, _, e => ⟨rfl, e⟩
  | [], t :: l, r, r', _, _, h, _, e => by
    exfalso
    have e : r = 32 :: 124 :: (32 :: t ++ barred l ++ r') := by simpa [barred] using e
    rcases h with rfl | ⟨t, rfl⟩ | ⟨t, rfl⟩ | ⟨t, rfl⟩ | ⟨t, rfl⟩ <;> cases e
  | t :: l, [], r, r', _, _, _, h, e => by
    exfalso
    have e : r' = 32 :: 124 :: (32 :: t ++ barred l ++ r) := by simpa [barred] using e.symm
    rcases h with rfl | ⟨t, rfl⟩ | ⟨t, rfl⟩ | ⟨t, rfl⟩ | ⟨t, rfl⟩ <;> cases e
  | t :: l, t' :: l', r, r', w, w', h, h', e => by
    rw [List.all_cons, Bool.and_eq_true] at w w'
    have e : t ++ (barred l ++ r) = t' ++ (barred l' ++ r') := by
      simpa only [barred, List.flatMap_cons, List.append_assoc, List.cons_append, List.nil_append,
        List.cons.injEq, true_and] using e
    obtain ⟨rfl, e2⟩ := word_split w.1 w'.1 (barred_noWord l h.noWord) (barred_noWord l' h'.noWord) e
    obtain ⟨rfl, rfl⟩ := barred_inj w.2 w'.2 h h' e2
    exact ⟨rfl, rfl⟩

theorem bars_eq (t : Text) (l : List Text) (r : Text) : bars t l ++ r = t ++ (barred l ++ r) := by
  rw [bars, List.append_assoc]; rfl

/-- A value with a name in front begins with a word, and what follows tells which kind of value it is. -/
theorem kinds (l : List Text) {r x y : Text} (h : Stop r) :
    barred l ++ r ≠ 40 :: x ∧ barred l ++ r ≠ 32 :: 123 :: y := by
  cases l with
  | nil =>
    rcases h with rfl | ⟨t, rfl⟩ | ⟨t, rfl⟩ | ⟨t, rfl⟩ | ⟨t, rfl⟩ <;>
      exact ⟨fun e => (by cases e), fun e => (by cases e)⟩
  | cons t l => exact ⟨fun e => (by cases e), fun e => (by cases e)⟩

/-- The first character of a value. -/
theorem plain_head (f : Nat → Bool) (d : Dbg) (h : d.WF) :
    ∃ c t, d.plain f = c :: t ∧ (wordChar c = true ∨ c = 34 ∨ c = 91 ∨ c = 40) := by
  cases d with
  | words t l =>
    obtain ⟨c, r, rfl, hc⟩ := word_cons h.1
    exact ⟨c, _, rfl, .inl hc⟩
  | unit => exact ⟨40, _, by rw [Dbg.plain], .inr (.inr (.inr rfl))⟩
  | str s => exact ⟨34, _, rfl, .inr (.inl rfl)⟩
  | tuple n a =>
    obtain ⟨c, r, rfl, hc⟩ := word_cons h.1
    exact ⟨c, _, by rw [Dbg.plain, List.cons_append], .inl hc⟩
  | struct n a =>
    obtain ⟨c, r, rfl, hc⟩ := word_cons h.1
    exact ⟨c, _, by rw [Dbg.plain, List.cons_append], .inl hc⟩
  | list a => exact ⟨91, _, by rw [Dbg.plain]; rfl, .inr (.inr (.inl rfl))⟩

theorem word_ne {c x : Nat} {t y : Text} (h : wordChar c = true ∨ c = 34 ∨ c = 91 ∨ c = 40) (hx : wordChar x = false)
    (h1 : x ≠ 34) (h2 : x ≠ 91) (h3 : x ≠ 40) : c :: t ≠ x :: y := by
  intro e
  cases e
  rcases h with h | h | h | h
  · rw [h] at hx; cases hx
  · exact h1 h
  · exact h2 h
  · exact h3 h

theorem str_ne (f : Nat → Bool) (s : Str) {t k r : Text} (h : isWord t = true) : escape f s ++ r ≠ t ++ k := by
  obtain ⟨c, u, rfl, hc⟩ := word_cons h
  intro e
  rw [escape, List.cons_append, List.cons_append, List.cons.injEq] at e
  rw [← e.1] at hc
  cases hc

theorem list_ne {t k r : Text} (h : isWord t = true) : 91 :: r ≠ t ++ k := by
  obtain ⟨c, u, rfl, hc⟩ := word_cons h
  intro e
  cases e
  cases hc

theorem unit_ne {t k r : Text} (h : isWord t = true) : 40 :: r ≠ t ++ k := by
  obtain ⟨c, u, rfl, hc⟩ := word_cons h
  intro e
  cases e
  cases hc

/-- The text of the name of a field, behind which comes a value. -/
theorem label_inj {named : Bool} {l l' x x' : Text} (h : if named then isWord l = true else l = [])
    (h' : if named then isWord l' = true else l' = []) (e : labelText l ++ x = labelText l' ++ x') :
    l = l' ∧ x = x' := by
  cases named with
  | false =>
    obtain rfl : l = [] := h
    obtain rfl : l' = [] := h'
    exact ⟨rfl, e⟩
  | true =>
    have h : isWord l = true := h
    have h' : isWord l' = true := h'
    obtain ⟨c, u, hl, -⟩ := word_cons h
    obtain ⟨c', u', hl', -⟩ := word_cons h'
    rw [labelText, labelText, if_neg (by rw [hl]; nofun), if_neg (by rw [hl']; nofun), List.append_assoc,
      List.append_assoc] at e
    obtain ⟨rfl, e2⟩ := word_split h h' (noWord_cons rfl) (noWord_cons rfl) e
    cases e2
    exact ⟨rfl, rfl⟩

/-- A field begins as a value or a word does. -/
theorem field_head {named : Bool} {l x : Text} (h : if named then isWord l = true else l = [])
    (hx : ∃ c t, x = c :: t ∧ (wordChar c = true ∨ c = 34 ∨ c = 91 ∨ c = 40)) :
    ∃ c t, labelText l ++ x = c :: t ∧ (wordChar c = true ∨ c = 34 ∨ c = 91 ∨ c = 40) := by
  cases named with
  | false =>
    obtain rfl : l = [] := h
    exact hx
  | true =>
    have h : isWord l = true := h
    obtain ⟨c, u, rfl, hc⟩ := word_cons h
    exact ⟨c, _, by rw [labelText, if_neg nofun]; rfl, .inl hc⟩

theorem close_ne {c : Nat} {t r : Text} (h : wordChar c = true ∨ c = 34 ∨ c = 91 ∨ c = 40) (hr : Close r) : r ≠ c :: t := by
  rintro rfl
  rcases hr with ⟨_, e⟩ | ⟨_, e⟩ | ⟨_, e⟩ <;> exact word_ne h rfl (by decide) (by decide) (by decide) e

theorem plain_tuple (f : Nat → Bool) (n : Text) (a : DbgArgs) (r : Text) :
    (Dbg.tuple n a).plain f ++ r = n ++ 40 :: (a.plain f true ++ 41 :: r) := by
  simp only [Dbg.plain, List.append_assoc, List.cons_append, List.nil_append]

theorem plain_struct (f : Nat → Bool) (n : Text) (a : DbgArgs) (r : Text) :
    (Dbg.struct n a).plain f ++ r = n ++ 32 :: 123 :: 32 :: (a.plain f true ++ 32 :: 125 :: r) := by
  simp only [Dbg.plain, List.append_assoc, List.cons_append, List.nil_append]

theorem plain_list (f : Nat → Bool) (a : DbgArgs) (r : Text) :
    (Dbg.list a).plain f ++ r = 91 :: (a.plain f true ++ 93 :: r) := by
  simp only [Dbg.plain, List.append_assoc, List.cons_append, List.nil_append]

theorem plain_cons (f : Nat → Bool) (first : Bool) (l : Text) (v : Dbg) (a : DbgArgs) (r : Text) :
    (DbgArgs.cons l v a).plain f first ++ r =
      (if first then [] else txt! ", ") ++ (labelText l ++ (v.plain f ++ (a.plain f false ++ r))) := by
  simp only [DbgArgs.plain, List.append_assoc]

mutual
theorem plain_inj (f : Nat → Bool) : ∀ (d d' : Dbg) (r r' : Text), d.WF → d'.WF → Stop r → Stop r' →
    d.plain f ++ r = d'.plain f ++ r' → d = d' ∧ r = r'
  | .words t l, d', r, r', w, w', s, s', e => by
    rw [Dbg.plain, bars_eq] at e
    have hk := barred_noWord l s.noWord
    cases d' with
    | words t' l' =>
      rw [Dbg.plain, bars_eq] at e
      obtain ⟨rfl, e2⟩ := word_split w.1 w'.1 hk (barred_noWord l' s'.noWord) e
      obtain ⟨rfl, rfl⟩ := barred_inj w.2 w'.2 s s' e2
      exact ⟨rfl, rfl⟩
    | unit => rw [Dbg.plain] at e; exact absurd e.symm (unit_ne w.1)
    | str x => exact absurd e.symm (str_ne f x w.1)
    | tuple n a =>
      rw [plain_tuple] at e
      exact absurd (word_split w.1 w'.1 hk (noWord_cons rfl) e).2 (kinds l (y := []) s).1
    | struct n a =>
      rw [plain_struct] at e
      exact absurd (word_split w.1 w'.1 hk (noWord_cons rfl) e).2 (kinds l (x := []) s).2
    | list a =>
      rw [plain_list] at e
      exact absurd e.symm (list_ne w.1)
  | .unit, d', r, r', w, w', s, s', e => by
    rw [Dbg.plain] at e
    cases d' with
    | words t' l' => rw [Dbg.plain, bars_eq] at e; exact absurd e (unit_ne w'.1)
    | unit => rw [Dbg.plain] at e; cases e; exact ⟨rfl, rfl⟩
    | str x => cases e
    | tuple n a => rw [plain_tuple] at e; exact absurd e (unit_ne w'.1)
    | struct n a => rw [plain_struct] at e; exact absurd e (unit_ne w'.1)
    | list a => rw [plain_list] at e; cases e
  | .str x, d', r, r', w, w', s, s', e => by
    rw [Dbg.plain] at e
    cases d' with
    | words t' l' => rw [Dbg.plain, bars_eq] at e; exact absurd e (str_ne f x w'.1)
    | unit => rw [Dbg.plain] at e; cases e
    | str x' =>
      rw [Dbg.plain] at e
      obtain ⟨rfl, rfl⟩ := escape_inj f e
      exact ⟨rfl, rfl⟩
    | tuple n a => rw [plain_tuple] at e; exact absurd e (str_ne f x w'.1)
    | struct n a => rw [plain_struct] at e; exact absurd e (str_ne f x w'.1)
    | list a => rw [plain_list] at e; cases e
  | .tuple n a, d', r, r', w, w', s, s', e => by
    rw [plain_tuple] at e
    cases d' with
    | words t' l' =>
      rw [Dbg.plain, bars_eq] at e
      exact absurd (word_split w.1 w'.1 (noWord_cons rfl) (barred_noWord l' s'.noWord) e).2.symm
        (kinds l' (y := []) s').1
    | unit => rw [Dbg.plain] at e; exact absurd e.symm (unit_ne w.1)
    | str x => exact absurd e.symm (str_ne f x w.1)
    | tuple n' a' =>
      rw [plain_tuple] at e
      obtain ⟨rfl, e2⟩ := word_split w.1 w'.1 (noWord_cons rfl) (noWord_cons rfl) e
      simp only [List.cons.injEq, true_and] at e2
      obtain ⟨rfl, e3⟩ := plainArgs_inj f false true a a' _ _ w.2 w'.2 (.inl ⟨_, rfl⟩) (.inl ⟨_, rfl⟩) e2
      cases e3
      exact ⟨rfl, rfl⟩
    | struct n' a' =>
      rw [plain_struct] at e
      have := (word_split w.1 w'.1 (noWord_cons rfl) (noWord_cons rfl) e).2
      cases this
    | list a' => rw [plain_list] at e; exact absurd e.symm (list_ne w.1)
  | .struct n a, d', r, r', w, w', s, s', e => by
    rw [plain_struct] at e
    cases d' with
    | words t' l' =>
      rw [Dbg.plain, bars_eq] at e
      exact absurd (word_split w.1 w'.1 (noWord_cons rfl) (barred_noWord l' s'.noWord) e).2.symm
        (kinds l' (x := []) s').2
    | unit => rw [Dbg.plain] at e; exact absurd e.symm (unit_ne w.1)
    | str x => exact absurd e.symm (str_ne f x w.1)
    | tuple n' a' =>
      rw [plain_tuple] at e
      have := (word_split w.1 w'.1 (noWord_cons rfl) (noWord_cons rfl) e).2
      cases this
    | struct n' a' =>
      rw [plain_struct] at e
      obtain ⟨rfl, e2⟩ := word_split w.1 w'.1 (noWord_cons rfl) (noWord_cons rfl) e
      simp only [List.cons.injEq, true_and] at e2
      obtain ⟨rfl, e3⟩ := plainArgs_inj f true true a a' _ _ w.2 w'.2 (.inr (.inr ⟨_, rfl⟩))
        (.inr (.inr ⟨_, rfl⟩)) e2
      cases e3
      exact ⟨rfl, rfl⟩
    | list a' => rw [plain_list] at e; exact absurd e.symm (list_ne w.1)
  | .list a, d', r, r', w, w', s, s', e => by
    rw [plain_list] at e
    cases d' with
    | words t' l' => rw [Dbg.plain, bars_eq] at e; exact absurd e (list_ne w'.1)
    | unit => rw [Dbg.plain] at e; cases e
    | str x => cases e
    | tuple n' a' => rw [plain_tuple] at e; exact absurd e (list_ne w'.1)
    | struct n' a' => rw [plain_struct] at e; exact absurd e (list_ne w'.1)
    | list a' =>
      rw [plain_list] at e
      simp only [List.cons.injEq, true_and] at e
      obtain ⟨rfl, e3⟩ := plainArgs_inj f false true a a' _ _ w w' (.inr (.inl ⟨_, rfl⟩))
        (.inr (.inl ⟨_, rfl⟩)) e
      cases e3
      exact ⟨rfl, rfl⟩
theorem plainArgs_inj (f : Nat → Bool) (named first : Bool) : ∀ (a a' : DbgArgs) (r r' : Text), a.WF named →
    a'.WF named → Close r → Close r' → a.plain f first ++ r = a'.plain f first ++ r' → a = a' ∧ r = r'
  | .nil, .nil, r, r', w, w', s, s', e => ⟨rfl, by simpa only [DbgArgs.plain, List.nil_append] using e⟩
  | .nil, .cons l v x, r, r', w, w', s, s', e => by
    exfalso
    rw [plain_cons, DbgArgs.plain, List.nil_append] at e
    cases first with
    | true =>
      obtain ⟨c, t, h1, h2⟩ := plain_head f v w'.2.1
      obtain ⟨c, t, h3, h4⟩ := field_head (x := v.plain f ++ (x.plain f false ++ r')) w'.1
        ⟨c, t ++ (x.plain f false ++ r'), by rw [h1]; rfl, h2⟩
      rw [if_pos rfl, List.nil_append, h3] at e
      exact close_ne h4 s e
    | false =>
      rcases s with ⟨_, rfl⟩ | ⟨_, rfl⟩ | ⟨_, rfl⟩ <;> cases e
  | .cons l v x, .nil, r, r', w, w', s, s', e => by
    exfalso
    rw [plain_cons, DbgArgs.plain, List.nil_append] at e
    cases first with
    | true =>
      obtain ⟨c, t, h1, h2⟩ := plain_head f v w.2.1
      obtain ⟨c, t, h3, h4⟩ := field_head (x := v.plain f ++ (x.plain f false ++ r)) w.1
        ⟨c, t ++ (x.plain f false ++ r), by rw [h1]; rfl, h2⟩
      rw [if_pos rfl, List.nil_append, h3] at e
      exact close_ne h4 s' e.symm
    | false =>
      rcases s' with ⟨_, rfl⟩ | ⟨_, rfl⟩ | ⟨_, rfl⟩ <;> cases e
  | .cons l v x, .cons l' v' x', r, r', w, w', s, s', e => by
    rw [plain_cons, plain_cons] at e
    obtain ⟨rfl, e2⟩ := label_inj w.1 w'.1 (List.append_cancel_left e)
    have st : ∀ (y : DbgArgs) (q : Text), Close q → Stop (y.plain f false ++ q) := by
      intro y q h
      cases y with
      | nil => rw [DbgArgs.plain]; exact h.stop
      | cons _ _ _ => rw [DbgArgs.plain]; exact .inr (.inl ⟨_, rfl⟩)
    obtain ⟨rfl, e3⟩ := plain_inj f v v' _ _ w.2.1 w'.2.1 (st x r s) (st x' r' s') e2
    obtain ⟨rfl, rfl⟩ := plainArgs_inj f named false x x' r r' w.2.2 w'.2.2 s s' e3
    exact ⟨rfl, rfl⟩
end

/-! ### The alternate form -/

/-- The text ends at the beginning of a line, given whether it begins there. -/
def EndsLine : Bool → Text → Prop
  | b, [] => b = true
  | _, c :: r => EndsLine (c = 10) r

theorem endsLine_snoc : ∀ (b : Bool) (x y : Text), EndsLine true y → EndsLine b (x ++ 44 :: 10 :: y)
  | _, [], _, h => h
  | _, _ :: x, y, h => endsLine_snoc _ x y h

theorem pad_append : ∀ (b : Bool) (x y : Text), EndsLine b x → pad b (x ++ y) = pad b x ++ pad true y
  | b, [], y, h => by obtain rfl : b = true := h; rfl
  | b, c :: x, y, h => by
    rw [List.cons_append, pad, pad, pad_append _ x y h, List.append_assoc, List.cons_append]

theorem pad_inj : ∀ (b : Bool) (x x' r r' : Text), EndsLine b x → EndsLine b x' →
    (∀ t, r ≠ 32 :: t) → (∀ t, r' ≠ 32 :: t) → pad b x ++ r = pad b x' ++ r' → x = x' ∧ r = r'
  | b, [], [], r, r', _, _, _, _, e => ⟨rfl, e⟩
  | b, [], c :: x, r, r', h, _, hr, _, e => by
    obtain rfl : b = true := h
    exact absurd e (hr _)
  | b, c :: x, [], r, r', _, h, _, hr, e => by
    obtain rfl : b = true := h
    exact absurd e.symm (hr _)
  | b, c :: x, c' :: x', r, r', h, h', hr, hr', e => by
    rw [pad, pad, List.append_assoc, List.append_assoc] at e
    have e := List.append_cancel_left e
    rw [List.cons_append, List.cons_append, List.cons.injEq] at e
    obtain ⟨rfl, e⟩ := e
    obtain ⟨rfl, rfl⟩ := pad_inj _ x x' r r' h h' hr hr' e
    exact ⟨rfl, rfl⟩

/-- The lines of the fields before they are moved to the right. -/
def lines (f : Nat → Bool) : DbgArgs → Text
  | .nil => []
  | .cons l v r => labelText l ++ (v.pretty f ++ 44 :: 10 :: lines f r)

theorem lines_ends (f : Nat → Bool) : ∀ a : DbgArgs, EndsLine true (lines f a)
  | .nil => rfl
  | .cons l v r => by
    rw [lines, ← List.append_assoc]
    exact endsLine_snoc _ _ _ (lines_ends f r)

theorem pretty_args (f : Nat → Bool) : ∀ a : DbgArgs, a.pretty f = pad true (lines f a)
  | .nil => by rw [DbgArgs.pretty]; rfl
  | .cons l v r => by
    rw [DbgArgs.pretty, lines, pretty_args f r]
    have : labelText l ++ (v.pretty f ++ 44 :: 10 :: lines f r) =
        (labelText l ++ (v.pretty f ++ [44, 10])) ++ lines f r := by
      simp only [List.append_assoc, List.cons_append, List.nil_append]
    rw [this]
    refine (pad_append true _ _ ?_).symm
    rw [← List.append_assoc]
    exact endsLine_snoc _ _ [] rfl

theorem pretty_tuple (f : Nat → Bool) (n : Text) (a : DbgArgs) (r : Text) :
    (Dbg.tuple n a).pretty f ++ r = n ++ 40 :: 10 :: (pad true (lines f a) ++ 41 :: r) := by
  simp only [Dbg.pretty, pretty_args, List.append_assoc, List.cons_append, List.nil_append]

theorem pretty_struct (f : Nat → Bool) (n : Text) (a : DbgArgs) (r : Text) :
    (Dbg.struct n a).pretty f ++ r = n ++ 32 :: 123 :: 10 :: (pad true (lines f a) ++ 125 :: r) := by
  simp only [Dbg.pretty, pretty_args, List.append_assoc, List.cons_append, List.nil_append]

/-- What is between the brackets of a list. -/
def listBody (f : Nat → Bool) : DbgArgs → Text
  | .nil => []
  | a => 10 :: pad true (lines f a)

theorem pretty_list (f : Nat → Bool) (a : DbgArgs) (r : Text) :
    (Dbg.list a).pretty f ++ r = 91 :: (listBody f a ++ 93 :: r) := by
  cases a with
  | nil => rw [Dbg.pretty]; rfl
  | cons l v x =>
    rw [Dbg.pretty, pretty_args, listBody]
    · simp only [List.append_assoc, List.cons_append, List.nil_append]
    · nofun
    · nofun

theorem listBody_inj (f : Nat → Bool) (a a' : DbgArgs) (r r' : Text)
    (e : listBody f a ++ 93 :: r = listBody f a' ++ 93 :: r') : lines f a = lines f a' ∧ r = r' := by
  cases a with
  | nil =>
    cases a' with
    | nil => cases e; exact ⟨rfl, rfl⟩
    | cons l' v' x' => cases e
  | cons l v x =>
    cases a' with
    | nil => cases e
    | cons l' v' x' =>
      have e : pad true (lines f (.cons l v x)) ++ 93 :: r = pad true (lines f (.cons l' v' x')) ++ 93 :: r' :=
        List.tail_eq_of_cons_eq e
      obtain ⟨e1, e2⟩ := pad_inj true _ _ _ _ (lines_ends f _) (lines_ends f _)
        (fun _ h => by cases h) (fun _ h => by cases h) e
      exact ⟨e1, List.tail_eq_of_cons_eq e2⟩

mutual
theorem pretty_inj (f : Nat → Bool) : ∀ (d d' : Dbg) (r r' : Text), d.WF → d'.WF → Stop r → Stop r' →
    d.pretty f ++ r = d'.pretty f ++ r' → d = d' ∧ r = r'
  | .words t l, d', r, r', w, w', s, s', e => by
    rw [Dbg.pretty, bars_eq] at e
    have hk := barred_noWord l s.noWord
    cases d' with
    | words t' l' =>
      rw [Dbg.pretty, bars_eq] at e
      obtain ⟨rfl, e2⟩ := word_split w.1 w'.1 hk (barred_noWord l' s'.noWord) e
      obtain ⟨rfl, rfl⟩ := barred_inj w.2 w'.2 s s' e2
      exact ⟨rfl, rfl⟩
    | unit => rw [Dbg.pretty] at e; exact absurd e.symm (unit_ne w.1)
    | str x => exact absurd e.symm (str_ne f x w.1)
    | tuple n a =>
      rw [pretty_tuple] at e
      exact absurd (word_split w.1 w'.1 hk (noWord_cons rfl) e).2 (kinds l (y := []) s).1
    | struct n a =>
      rw [pretty_struct] at e
      exact absurd (word_split w.1 w'.1 hk (noWord_cons rfl) e).2 (kinds l (x := []) s).2
    | list a =>
      rw [pretty_list] at e
      exact absurd e.symm (list_ne w.1)
  | .unit, d', r, r', w, w', s, s', e => by
    rw [Dbg.pretty] at e
    cases d' with
    | words t' l' => rw [Dbg.pretty, bars_eq] at e; exact absurd e (unit_ne w'.1)
    | unit => rw [Dbg.pretty] at e; cases e; exact ⟨rfl, rfl⟩
    | str x => cases e
    | tuple n a => rw [pretty_tuple] at e; exact absurd e (unit_ne w'.1)
    | struct n a => rw [pretty_struct] at e; exact absurd e (unit_ne w'.1)
    | list a => rw [pretty_list] at e; cases e
  | .str x, d', r, r', w, w', s, s', e => by
    rw [Dbg.pretty] at e
    cases d' with
    | words t' l' => rw [Dbg.pretty, bars_eq] at e; exact absurd e (str_ne f x w'.1)
    | unit => rw [Dbg.pretty] at e; cases e
    | str x' =>
      rw [Dbg.pretty] at e
      obtain ⟨rfl, rfl⟩ := escape_inj f e
      exact ⟨rfl, rfl⟩
    | tuple n a => rw [pretty_tuple] at e; exact absurd e (str_ne f x w'.1)
    | struct n a => rw [pretty_struct] at e; exact absurd e (str_ne f x w'.1)
    | list a => rw [pretty_list] at e; cases e
  | .tuple n a, d', r, r', w, w', s, s', e => by
    rw [pretty_tuple] at e
    cases d' with
    | words t' l' =>
      rw [Dbg.pretty, bars_eq] at e
      exact absurd (word_split w.1 w'.1 (noWord_cons rfl) (barred_noWord l' s'.noWord) e).2.symm
        (kinds l' (y := []) s').1
    | unit => rw [Dbg.pretty] at e; exact absurd e.symm (unit_ne w.1)
    | str x => exact absurd e.symm (str_ne f x w.1)
    | tuple n' a' =>
      rw [pretty_tuple] at e
      obtain ⟨rfl, e2⟩ := word_split w.1 w'.1 (noWord_cons rfl) (noWord_cons rfl) e
      simp only [List.cons.injEq, true_and] at e2
      obtain ⟨e3, e4⟩ := pad_inj true _ _ _ _ (lines_ends f a) (lines_ends f a') (fun _ h => by cases h) (fun _ h => by cases h) e2
      obtain rfl := lines_inj f false a a' w.2 w'.2 e3
      cases e4
      exact ⟨rfl, rfl⟩
    | struct n' a' =>
      rw [pretty_struct] at e
      have := (word_split w.1 w'.1 (noWord_cons rfl) (noWord_cons rfl) e).2
      cases this
    | list a' => rw [pretty_list] at e; exact absurd e.symm (list_ne w.1)
  | .struct n a, d', r, r', w, w', s, s', e => by
    rw [pretty_struct] at e
    cases d' with
    | words t' l' =>
      rw [Dbg.pretty, bars_eq] at e
      exact absurd (word_split w.1 w'.1 (noWord_cons rfl) (barred_noWord l' s'.noWord) e).2.symm
        (kinds l' (x := []) s').2
    | unit => rw [Dbg.pretty] at e; exact absurd e.symm (unit_ne w.1)
    | str x => exact absurd e.symm (str_ne f x w.1)
    | tuple n' a' =>
      rw [pretty_tuple] at e
      have := (word_split w.1 w'.1 (noWord_cons rfl) (noWord_cons rfl) e).2
      cases this
    | struct n' a' =>
      rw [pretty_struct] at e
      obtain ⟨rfl, e2⟩ := word_split w.1 w'.1 (noWord_cons rfl) (noWord_cons rfl) e
      simp only [List.cons.injEq, true_and] at e2
      obtain ⟨e3, e4⟩ := pad_inj true _ _ _ _ (lines_ends f a) (lines_ends f a') (fun _ h => by cases h) (fun _ h => by cases h) e2
      obtain rfl := lines_inj f true a a' w.2 w'.2 e3
      cases e4
      exact ⟨rfl, rfl⟩
    | list a' => rw [pretty_list] at e; exact absurd e.symm (list_ne w.1)
  | .list a, d', r, r', w, w', s, s', e => by
    rw [pretty_list] at e
    cases d' with
    | words t' l' => rw [Dbg.pretty, bars_eq] at e; exact absurd e (list_ne w'.1)
    | unit => rw [Dbg.pretty] at e; cases e
    | str x => cases e
    | tuple n' a' => rw [pretty_tuple] at e; exact absurd e (list_ne w'.1)
    | struct n' a' => rw [pretty_struct] at e; exact absurd e (list_ne w'.1)
    | list a' =>
      rw [pretty_list] at e
      simp only [List.cons.injEq, true_and] at e
      obtain ⟨e3, rfl⟩ := listBody_inj f a a' _ _ e
      obtain rfl := lines_inj f false a a' w w' e3
      exact ⟨rfl, rfl⟩
theorem lines_inj (f : Nat → Bool) (named : Bool) : ∀ (a a' : DbgArgs), a.WF named → a'.WF named →
    lines f a = lines f a' → a = a'
  | .nil, .nil, _, _, _ => rfl
  | .nil, .cons l v x, _, _, e => by
    have := congrArg List.length e
    simp only [lines, List.length_append, List.length_cons, List.length_nil] at this
    omega
  | .cons l v x, .nil, _, _, e => by
    have := congrArg List.length e
    simp only [lines, List.length_append, List.length_cons, List.length_nil] at this
    omega
  | .cons l v x, .cons l' v' x', w, w', e => by
    rw [lines, lines] at e
    obtain ⟨rfl, e2⟩ := label_inj w.1 w'.1 e
    obtain ⟨rfl, e3⟩ := pretty_inj f v v' _ _ w.2.1 w'.2.1 (.inr (.inl ⟨_, rfl⟩)) (.inr (.inl ⟨_, rfl⟩)) e2
    simp only [List.cons.injEq, true_and] at e3
    rw [lines_inj f named x x' w.2.2 w'.2.2 e3]
end

/-- The text of `{:?}` determines the tree. -/
theorem plain_eq (f : Nat → Bool) {d d' : Dbg} (w : d.WF) (w' : d'.WF) (e : d.plain f = d'.plain f) : d = d' :=
  (plain_inj f d d' [] [] w w' (.inl rfl) (.inl rfl) (by rw [e])).1

/-- The text of `{:#?}` determines the tree. -/
theorem pretty_eq (f : Nat → Bool) {d d' : Dbg} (w : d.WF) (w' : d'.WF) (e : d.pretty f = d'.pretty f) : d = d' :=
  (pretty_inj f d d' [] [] w w' (.inl rfl) (.inl rfl) (by rw [e])).1

end Dmi
