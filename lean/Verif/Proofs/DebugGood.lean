import Verif.Model.DebugParts
import Verif.Proofs.Debug
import Verif.Proofs.Finite
/-!
# What a derived `Debug` tells determines the value

`Good f`: the trees of `f` have words as names, and distinct values have distinct trees. Numbers, strings,
options, flags and so on are good, and structs and enumerations of good parts are.
-/
namespace Dmi
open Fmt

/-- The trees are well-formed and determine the value. -/
structure Good {α : Type} (f : α → Dbg) : Prop where
  wf : ∀ a, (f a).WF
  inj : ∀ a b, f a = f b → a = b

theorem word_dec (n : Nat) : isWord (dec n) = true := by
  rw [isWord_iff]
  refine ⟨fun h => ?_, fun c hc => ?_⟩
  · exact digitsAux_ne_nil 10 n n (List.map_eq_nil_iff.1 h)
  · have := dec_digit n c hc
    simp only [wordChar, Bool.and_eq_true, decide_eq_true_eq, Bool.not_eq_true', Bool.or_eq_false_iff,
      beq_eq_false_iff_ne]
    omega

theorem word_hex (n : Nat) : isWord (txt! "0x" ++ hexLower n) = true := by
  rw [isWord_iff]
  refine ⟨nofun, fun c hc => ?_⟩
  rcases List.mem_append.1 hc with hc | hc
  · exact (by decide : ∀ c ∈ txt! "0x", wordChar c = true) c hc
  · obtain ⟨d, hd, rfl⟩ := List.mem_map.1 hc
    have := digits_lt (by decide) hd
    unfold digitChar
    simp only [wordChar, Bool.and_eq_true, decide_eq_true_eq, Bool.not_eq_true', Bool.or_eq_false_iff,
      beq_eq_false_iff_ne]
    split <;> omega

theorem Good.comp {α β : Type} {f : α → Dbg} (h : Good f) (g : β → α) (hg : ∀ a b, g a = g b → a = b) :
    Good fun b => f (g b) :=
  ⟨fun b => h.wf (g b), fun a b e => hg a b (h.inj _ _ e)⟩

theorem isNum_word {c : Nat} (h : isNum c = true) : wordChar c = true := by
  simp only [isNum, Bool.or_eq_true, Bool.and_eq_true, decide_eq_true_eq] at h
  simp only [wordChar, Bool.and_eq_true, decide_eq_true_eq, Bool.not_eq_true', Bool.or_eq_false_iff,
    beq_eq_false_iff_ne]
  omega

/-- Characters of integers in any form. -/
def formChar (c : Nat) : Bool := isNum c || c == 120

theorem form_chars (f : IntForm) (n : Nat) : ∀ c ∈ f.text n, formChar c = true := by
  intro c hc
  cases f with
  | decimal => exact Bool.or_eq_true_iff.2 (.inl (isNum_dec n c hc))
  | hex upper alternate =>
    rcases List.mem_append.1 hc with hc | hc
    · cases alternate with
      | false => cases hc
      | true => exact (by decide : ∀ c ∈ txt! "0x", formChar c = true) c hc
    · cases upper with
      | false => exact Bool.or_eq_true_iff.2 (.inl (isNum_hexLower n c hc))
      | true => exact Bool.or_eq_true_iff.2 (.inl (isNum_hexUpper n c hc))

theorem formChar_word {c : Nat} (h : formChar c = true) : wordChar c = true := by
  rcases Bool.or_eq_true_iff.1 h with h | h
  · exact isNum_word h
  · rw [beq_iff_eq.1 h]; decide

theorem word_form (f : IntForm) (n : Nat) : isWord (f.text n) = true := by
  rw [isWord_iff]
  refine ⟨fun h => ?_, fun c hc => formChar_word (form_chars f n c hc)⟩
  cases f with
  | decimal => exact digitsAux_ne_nil 10 n n (List.map_eq_nil_iff.1 h)
  | hex upper alternate =>
    have h := (List.append_eq_nil_iff.1 h).2
    cases upper with
    | false => exact digitsAux_ne_nil 16 n n (List.map_eq_nil_iff.1 h)
    | true => exact digitsAux_ne_nil 16 n n (List.map_eq_nil_iff.1 h)

theorem form_inj (f : IntForm) {m n : Nat} (h : f.text m = f.text n) : m = n := by
  cases f with
  | decimal => exact dec_inj h
  | hex upper alternate =>
    have h := List.append_cancel_left h
    cases upper with
    | false => exact hexLower_inj h
    | true => exact hexUpper_inj h

theorem good_num [Shown] : Good Dbg.num :=
  ⟨fun n => ⟨word_form _ n, rfl⟩, fun a b e => form_inj _ (by injection e)⟩

theorem good_u8 [Shown] : Good fun n : UInt8 => Dbg.num n.toNat := good_num.comp _ fun _ _ => UInt8.toNat_inj.1
theorem good_u16 [Shown] : Good fun n : UInt16 => Dbg.num n.toNat := good_num.comp _ fun _ _ => UInt16.toNat_inj.1
theorem good_u32 [Shown] : Good fun n : UInt32 => Dbg.num n.toNat := good_num.comp _ fun _ _ => UInt32.toNat_inj.1
theorem good_u64 [Shown] : Good fun n : UInt64 => Dbg.num n.toNat := good_num.comp _ fun _ _ => UInt64.toNat_inj.1

theorem good_bool : Good Dbg.bool where
  wf a := by cases a <;> exact ⟨by decide, rfl⟩
  inj a b e := by
    cases a <;> cases b <;> first | rfl | (injection e with e; exact absurd e (by decide))

theorem good_str : Good Dbg.str := ⟨fun _ => trivial, fun _ _ e => by injection e⟩

theorem good_string : Good fun s : String => Dbg.str s.toByteArray.data.toList :=
  good_str.comp _ fun a b e => by
    have := congrArg List.toArray e
    simp only [Array.toArray_toList] at this
    cases a; cases b
    simp_all [ByteArray.ext_iff]

theorem cons_inj {l l' : Text} {v v' : Dbg} {r r' : DbgArgs} (e : DbgArgs.cons l v r = .cons l' v' r') :
    v = v' ∧ r = r' := by
  injection e with _ h1 h2; exact ⟨h1, h2⟩

theorem tuple_inj {n n' : Text} {a a' : DbgArgs} (e : Dbg.tuple n a = .tuple n' a') : a = a' := by
  injection e

theorem struct_inj {n n' : Text} {a a' : DbgArgs} (e : Dbg.struct n a = .struct n' a') : a = a' := by
  injection e

theorem args_wf {α : Type} {f : α → Dbg} (h : Good f) : ∀ l : List α, (DbgArgs.items (l.map f)).WF false
  | [] => trivial
  | a :: l => ⟨rfl, h.wf a, args_wf h l⟩

theorem args_inj {α : Type} {f : α → Dbg} (h : Good f) : ∀ l l' : List α,
    DbgArgs.items (l.map f) = DbgArgs.items (l'.map f) → l = l'
  | [], [], _ => rfl
  | [], _ :: _, e => by cases e
  | _ :: _, [], e => by cases e
  | a :: l, b :: l', e => by
    obtain ⟨h1, h2⟩ := cons_inj e
    rw [h.inj a b h1, args_inj h l l' h2]

theorem good_list {α : Type} {f : α → Dbg} (h : Good f) : Good fun l : List α => Dbg.list (.items (l.map f)) :=
  ⟨fun l => args_wf h l, fun a b e => args_inj h a b (by injection e)⟩

theorem good_bytes [Shown] : Good Dbg.bytes := good_list good_u8

theorem good_opt {α : Type} {f : α → Dbg} (h : Good f) : Good (Dbg.opt f) where
  wf a := by
    cases a with
    | none => exact ⟨by decide, rfl⟩
    | some a => exact ⟨by decide, rfl, h.wf a, trivial⟩
  inj a b e := by
    cases a with
    | none => cases b with
      | none => rfl
      | some b => cases e
    | some a => cases b with
      | none => cases e
      | some b => rw [h.inj a b (cons_inj (tuple_inj e)).1]

theorem good_chunks [Shown] : Good Chunks.dbg where
  wf a := ⟨by decide, by decide, good_bytes.wf _, by decide, good_num.wf _, trivial⟩
  inj a b e := by
    obtain ⟨e1, e⟩ := cons_inj (struct_inj e)
    obtain ⟨e2, -⟩ := cons_inj e
    have h1 := good_bytes.inj _ _ e1
    have h2 := good_num.inj _ _ e2
    cases a; cases b
    dsimp only at h1 h2
    subst h1 h2
    rfl

/-! ## UUIDs -/

theorem hex2_cons (b : UInt8) : ∃ x y, Dbg.hex2 b = [x, y] ∧ x ≠ 45 ∧ y ≠ 45 ∧ wordChar x = true ∧
    wordChar y = true := by
  have : (Dbg.hex2 b).length = 2 ∧ ∀ c ∈ Dbg.hex2 b, c ≠ 45 ∧ wordChar c = true :=
    forall_u8 (P := fun b => (Dbg.hex2 b).length = 2 ∧ ∀ c ∈ Dbg.hex2 b, c ≠ 45 ∧ wordChar c = true)
      (by decide +kernel) b
  obtain ⟨h1, h2⟩ := this
  match h : Dbg.hex2 b, h1 with
  | [x, y], _ =>
    rw [h] at h2
    have hx := h2 x (by simp)
    have hy := h2 y (by simp)
    exact ⟨x, y, rfl, hx.1, hy.1, hx.2, hy.2⟩

theorem hex2_inj {a b : UInt8} (e : Dbg.hex2 a = Dbg.hex2 b) : a = b :=
  UInt8.toNat_inj.1 (pad_hexLower_inj e)

theorem hexes_inj : ∀ a b : Bytes, a.flatMap Dbg.hex2 = b.flatMap Dbg.hex2 → a = b
  | [], [], _ => rfl
  | [], y :: b, e => by
    obtain ⟨p, q, h, -⟩ := hex2_cons y
    rw [List.flatMap_cons, h] at e; cases e
  | x :: a, [], e => by
    obtain ⟨p, q, h, -⟩ := hex2_cons x
    rw [List.flatMap_cons, h] at e; cases e
  | x :: a, y :: b, e => by
    obtain ⟨p, q, h, -⟩ := hex2_cons x
    obtain ⟨p', q', h', -⟩ := hex2_cons y
    rw [List.flatMap_cons, List.flatMap_cons, h, h'] at e
    simp only [List.cons_append, List.nil_append, List.cons.injEq] at e
    obtain ⟨rfl, rfl, e⟩ := e
    rw [hex2_inj (h.trans h'.symm), hexes_inj a b e]

theorem hexes_chars : ∀ (b : Bytes), ∀ c ∈ b.flatMap Dbg.hex2, c ≠ 45 ∧ wordChar c = true := by
  intro b c hc
  obtain ⟨x, -, hx⟩ := List.mem_flatMap.1 hc
  obtain ⟨p, q, h, h1, h2, h3, h4⟩ := hex2_cons x
  rw [h] at hx
  rcases List.mem_cons.1 hx with rfl | hx
  · exact ⟨h1, h3⟩
  · obtain rfl := List.mem_singleton.1 hx
    exact ⟨h2, h4⟩

theorem hexes_filter (b : Bytes) : (b.flatMap Dbg.hex2).filter (· != 45) = b.flatMap Dbg.hex2 :=
  List.filter_eq_self.2 fun c hc => by simp [(hexes_chars b c hc).1]

theorem hyphenated_filter (b : Bytes) : (Dbg.hyphenated b).filter (· != 45) = b.flatMap Dbg.hex2 := by
  have key : b = b.take 4 ++ ((b.drop 4).take 2 ++ ((b.drop 6).take 2 ++ ((b.drop 8).take 2 ++ b.drop 10))) := by
    have h1 := List.take_append_drop 4 b
    have h2 := List.take_append_drop 2 (b.drop 4)
    have h3 := List.take_append_drop 2 (b.drop 6)
    have h4 := List.take_append_drop 2 (b.drop 8)
    rw [List.drop_drop] at h2 h3 h4
    rw [h4, h3, h2, h1]
  conv => rhs; rw [key]
  unfold Dbg.hyphenated
  simp only [List.filter_append, hexes_filter, List.flatMap_append]
  rfl

theorem good_uuid : Good Dbg.uuid where
  wf b := by
    refine ⟨?_, rfl⟩
    rw [isWord_iff]
    refine ⟨?_, fun c hc => ?_⟩
    · unfold Dbg.hyphenated
      simp
    · unfold Dbg.hyphenated at hc
      simp only [List.mem_append] at hc
      have h45 : c ∈ [45] → wordChar c = true := fun h => by rw [List.mem_singleton.1 h]; rfl
      rcases hc with h | h | h | h | h | h | h | h | h <;> first | exact h45 h | exact (hexes_chars _ _ h).2
  inj a b e := by
    apply hexes_inj
    rw [← hyphenated_filter, ← hyphenated_filter]
    injection e with e
    rw [e]

/-! ## Flags -/

/-- The flags shown, as one number, and the bits left over. -/
def flagOr : List (Text × Nat) → Nat → Nat → Nat
  | [], _, _ => 0
  | (_, v) :: t, s, r =>
    if s &&& v = v ∧ r &&& v ≠ 0 then v ||| flagOr t s (r ^^^ (r &&& v)) else flagOr t s r

def flagRest : List (Text × Nat) → Nat → Nat → Nat
  | [], _, r => r
  | (_, v) :: t, s, r =>
    if s &&& v = v ∧ r &&& v ≠ 0 then flagRest t s (r ^^^ (r &&& v)) else flagRest t s r

theorem flag_total : ∀ (t : List (Text × Nat)) (s r e : Nat), s = e ||| r →
    s = e ||| (flagOr t s r ||| flagRest t s r)
  | [], s, r, e, h => by rw [flagOr, flagRest, Nat.zero_or, h]
  | (n, v) :: t, s, r, e, h => by
    rw [flagOr, flagRest]
    split
    · rename_i hc
      have h' : s = (e ||| v) ||| (r ^^^ (r &&& v)) := by
        apply Nat.eq_of_testBit_eq
        intro i
        have h1 := congrArg (Nat.testBit · i) h
        have h2 := congrArg (Nat.testBit · i) hc.1
        simp only [Nat.testBit_or, Nat.testBit_and, Nat.testBit_xor] at h1 h2 ⊢
        revert h1 h2
        cases s.testBit i <;> cases e.testBit i <;> cases r.testBit i <;> cases v.testBit i <;> simp
      have := flag_total t s _ _ h'
      rw [Nat.or_assoc] at this
      rw [Nat.or_assoc v]
      exact this
    · exact flag_total t s r e h

/-- What is shown are names of the table or a number. -/
theorem flag_mem : ∀ (t : List (Text × Nat)) (s r : Nat) (x : Text), x ∈ Dbg.flagNames t s r →
    x ∈ t.map Prod.fst ∨ ∃ n, x = txt! "0x" ++ hexLower n
  | [], s, r, x, h => by
    unfold Dbg.flagNames at h
    split at h
    · cases h
    · exact .inr ⟨_, List.mem_singleton.1 h⟩
  | (n, v) :: t, s, r, x, h => by
    unfold Dbg.flagNames at h
    split at h
    · rcases List.mem_cons.1 h with rfl | h
      · exact .inl List.mem_cons_self
      · rcases flag_mem t _ _ x h with h | h
        · exact .inl (List.mem_cons_of_mem _ h)
        · exact .inr h
    · rcases flag_mem t _ _ x h with h | h
      · exact .inl (List.mem_cons_of_mem _ h)
      · exact .inr h

/-- Names of flags: words, distinct, and not numbers. -/
def flagTableOk (t : List (Text × Nat)) : Prop :=
  (t.map Prod.fst).Nodup ∧ ∀ x ∈ t.map Prod.fst, isWord x = true ∧ x.head? ≠ some 48

instance (t : List (Text × Nat)) : Decidable (flagTableOk t) := by unfold flagTableOk; infer_instance

theorem flag_names_inj : ∀ (t : List (Text × Nat)) (s r s' r' : Nat), flagTableOk t →
    Dbg.flagNames t s r = Dbg.flagNames t s' r' → flagOr t s r = flagOr t s' r' ∧ flagRest t s r = flagRest t s' r'
  | [], s, r, s', r', _, e => by
    refine ⟨rfl, ?_⟩
    unfold Dbg.flagNames at e
    unfold flagRest
    split at e <;> split at e
    · omega
    · cases e
    · cases e
    · injection e with e _
      exact hexLower_inj (List.append_cancel_left e)
  | (n, v) :: t, s, r, s', r', ok, e => by
    have ok' : flagTableOk t := ⟨(List.nodup_cons.1 ok.1).2, fun x hx => ok.2 x (List.mem_cons_of_mem _ hx)⟩
    have fresh : ∀ s r, n ∉ Dbg.flagNames t s r := by
      intro s r hm
      rcases flag_mem t s r n hm with h | ⟨k, h⟩
      · exact (List.nodup_cons.1 ok.1).1 h
      · exact (ok.2 n List.mem_cons_self).2 (by rw [h]; rfl)
    unfold Dbg.flagNames at e
    unfold flagOr flagRest
    by_cases h1 : s &&& v = v ∧ r &&& v ≠ 0
    · by_cases h2 : s' &&& v = v ∧ r' &&& v ≠ 0
      · rw [if_pos h1, if_pos h2] at e
        rw [if_pos h1, if_pos h1, if_pos h2, if_pos h2]
        injection e with _ e
        obtain ⟨e1, e2⟩ := flag_names_inj t _ _ _ _ ok' e
        rw [e1, e2]
        exact ⟨rfl, rfl⟩
      · rw [if_pos h1, if_neg h2] at e
        exact absurd (e ▸ List.mem_cons_self) (fresh s' r')
    · by_cases h2 : s' &&& v = v ∧ r' &&& v ≠ 0
      · rw [if_neg h1, if_pos h2] at e
        exact absurd (e ▸ List.mem_cons_self) (fresh s r)
      · rw [if_neg h1, if_neg h2] at e
        rw [if_neg h1, if_neg h1, if_neg h2, if_neg h2]
        exact flag_names_inj t _ _ _ _ ok' e

theorem flag_zero : ∀ (t : List (Text × Nat)) (s r : Nat), Dbg.flagNames t s r = [] → r = 0
  | [], s, r, e => by
    unfold Dbg.flagNames at e
    split at e
    · assumption
    · cases e
  | (n, v) :: t, s, r, e => by
    unfold Dbg.flagNames at e
    split at e
    · cases e
    · exact flag_zero t s r e

theorem flag_words {t : List (Text × Nat)} (ok : flagTableOk t) (s r : Nat) :
    (Dbg.flagNames t s r).all isWord = true := by
  rw [List.all_eq_true]
  intro x hx
  rcases flag_mem t s r x hx with h | ⟨k, rfl⟩
  · exact (ok.2 x h).1
  · exact word_hex k

/-- No word shown for a number that is not zero is `0x0`. -/
theorem flag_not_zero : ∀ {t : List (Text × Nat)} (_ : flagTableOk t) (s r : Nat),
    txt! "0x0" ∉ Dbg.flagNames t s r
  | [], _, s, r, h => by
    unfold Dbg.flagNames at h
    split at h
    · cases h
    · rename_i hr
      have := List.mem_singleton.1 h
      have : txt! "0" = hexLower r := List.append_cancel_left (as := txt! "0x") this
      exact hr (hexLower_inj (this.symm.trans (by decide)))
  | (n, v) :: t, ok, s, r, h => by
    have ok' : flagTableOk t := ⟨(List.nodup_cons.1 ok.1).2, fun x hx => ok.2 x (List.mem_cons_of_mem _ hx)⟩
    unfold Dbg.flagNames at h
    split at h
    · rcases List.mem_cons.1 h with h | h
      · exact (ok.2 n List.mem_cons_self).2 (by rw [← h]; rfl)
      · exact flag_not_zero ok' _ _ h
    · exact flag_not_zero ok' _ _ h

theorem good_flags {t : List (Text × Nat)} (ok : flagTableOk t) : Good (Dbg.flags t) where
  wf s := by
    have := flag_words ok s s
    unfold Dbg.flags
    split
    · exact ⟨by decide, rfl⟩
    · rename_i a l h
      rw [h, List.all_cons, Bool.and_eq_true] at this
      exact this
  inj a b e := by
    have same : Dbg.flagNames t a a = Dbg.flagNames t b b := by
      unfold Dbg.flags at e
      have ha := flag_not_zero ok a a
      have hb := flag_not_zero ok b b
      cases h1 : Dbg.flagNames t a a with
      | nil =>
        cases h2 : Dbg.flagNames t b b with
        | nil => rfl
        | cons y l' =>
          rw [h1, h2] at e
          injection e with e _
          exact absurd (by rw [h2, e]; exact List.mem_cons_self) hb
      | cons x l =>
        cases h2 : Dbg.flagNames t b b with
        | nil =>
          rw [h1, h2] at e
          injection e with e _
          exact absurd (by rw [h1, ← e]; exact List.mem_cons_self) ha
        | cons y l' =>
          rw [h1, h2] at e
          injection e with e e2
          rw [e, e2]
    obtain ⟨e1, e2⟩ := flag_names_inj t _ _ _ _ ok same
    rw [flag_total t a a 0 (Nat.zero_or a).symm, flag_total t b b 0 (Nat.zero_or b).symm, e1, e2]

/-! ## Enumerations -/

/-- The only word. -/
def Dbg.word? : Dbg → Option Text
  | .words t [] => some t
  | _ => none

/-- The name of a struct or variant. -/
def Dbg.head : Dbg → Text
  | .words t _ => t
  | .tuple n _ => n
  | .struct n _ => n
  | _ => []

theorem mem_nodup_map {α β : Type} (f : α → β) : ∀ {l : List α}, (l.map f).Nodup → ∀ a ∈ l, ∀ b ∈ l,
    f a = f b → a = b
  | [], _, _, ha, _, _, _ => by cases ha
  | x :: l, nd, a, ha, b, hb, e => by
    rw [List.map_cons, List.nodup_cons] at nd
    rcases List.mem_cons.1 ha with rfl | ha
    · rcases List.mem_cons.1 hb with rfl | hb
      · rfl
      · exact absurd (e ▸ List.mem_map_of_mem hb) nd.1
    · rcases List.mem_cons.1 hb with h | hb
      · subst h; exact absurd (e ▸ List.mem_map_of_mem ‹a ∈ l›) nd.1
      · exact mem_nodup_map f nd.2 a ha b hb e

/-- An enumeration most of whose variants have no fields. For these `g` is the same in decimal form. -/
theorem good_enum {T : Type} (f g : T → Dbg) (L : List T) (P : T → Prop)
    (cover : ∀ a, (a ∈ L ∧ f a = g a) ∨ P a)
    (nd : (L.map fun a => (g a).word?).Nodup) (ok : (L.all fun a => (g a).word?.any isWord) = true)
    (other : ∀ a, P a → (f a).word? = none ∧ (f a).WF) (inj : ∀ a b, P a → P b → f a = f b → a = b) : Good f := by
  have some' : ∀ a ∈ L, ∃ t, g a = .words t [] ∧ isWord t = true := by
    intro a ha
    have := List.all_eq_true.1 ok a ha
    match h : g a with
    | .words t [] => rw [h] at this; exact ⟨t, rfl, this⟩
    | .words t (_ :: _) | .unit | .str _ | .tuple _ _ | .struct _ _ | .list _ => rw [h] at this; cases this
  refine ⟨fun a => ?_, fun a b e => ?_⟩
  · rcases cover a with ⟨h, hg⟩ | h
    · obtain ⟨t, h1, h2⟩ := some' a h
      rw [hg, h1]; exact ⟨h2, rfl⟩
    · exact (other a h).2
  · rcases cover a with ⟨ha, ga⟩ | ha <;> rcases cover b with ⟨hb, gb⟩ | hb
    · exact mem_nodup_map _ nd a ha b hb (by rw [← ga, ← gb, e])
    · obtain ⟨t, h1, -⟩ := some' a ha
      have := (other b hb).1
      rw [← e, ga, h1] at this; cases this
    · obtain ⟨t, h1, -⟩ := some' b hb
      have := (other a ha).1
      rw [e, gb, h1] at this; cases this
    · exact inj a b ha hb e

end Dmi
