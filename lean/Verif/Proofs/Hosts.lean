import Verif.Model.BigEndian
import Verif.Props.Content
import Verif.Props.Handles
import Verif.Host
/-!
# Lemmas about reversed integers
-/
namespace Dmi.Props
open Spec BigEndian

/-! ### Bytes of the reversed sequence -/

theorem length_reverseAt (b : Bytes) (o w : Nat) : (reverseAt b o w).length = b.length := by
  simp only [reverseAt, List.length_append, List.length_reverse, List.length_take, List.length_drop]
  omega

theorem length_reverse (ws : List (Nat × Nat)) (b : Bytes) : (reverse ws b).length = b.length := by
  unfold reverse
  induction ws generalizing b with
  | nil => rfl
  | cons p ws ih => rw [List.foldl_cons, ih, length_reverseAt]

theorem byteAt_reverseAt_outside (b : Bytes) {o w i : Nat} (h : i < o ∨ o + w ≤ i) :
    byteAt (reverseAt b o w) i = byteAt b i := by
  unfold byteAt reverseAt
  rw [List.getD_eq_getElem?_getD, List.getD_eq_getElem?_getD]
  congr 1
  rcases h with h | h
  · by_cases hb : i < b.length
    · rw [List.getElem?_append_left (by simp; omega), List.getElem?_take_of_lt h]
    · have := length_reverseAt b o w
      unfold reverseAt at this
      rw [List.getElem?_eq_none (by omega), List.getElem?_eq_none (by omega)]
  · by_cases hb : i < b.length
    · rw [List.getElem?_append_right (by simp; omega), List.getElem?_append_right (by simp; omega),
        List.getElem?_drop]
      congr 1
      simp
      omega
    · have := length_reverseAt b o w
      unfold reverseAt at this
      rw [List.getElem?_eq_none (by omega), List.getElem?_eq_none (by omega)]

theorem byteAt_reverseAt_inside (b : Bytes) {o w i : Nat} (h : o + w ≤ b.length) (hi : i < w) :
    byteAt (reverseAt b o w) (o + i) = byteAt b (o + w - 1 - i) := by
  unfold byteAt reverseAt
  rw [List.getD_eq_getElem?_getD, List.getD_eq_getElem?_getD]
  congr 1
  have hl : (List.take w (List.drop o b)).length = w := by simp; omega
  rw [List.getElem?_append_right (by simp; omega), List.getElem?_append_left (by simp; omega),
    List.getElem?_reverse (by rw [hl, List.length_take]; omega), hl, List.length_take,
    List.getElem?_take_of_lt (by omega), List.getElem?_drop]
  congr 1
  omega

/-- The words do not overlap. -/
def Apart (p q : Nat × Nat) : Prop := p.1 + p.2 ≤ q.1 ∨ q.1 + q.2 ≤ p.1

instance (p q : Nat × Nat) : Decidable (Apart p q) := inferInstanceAs (Decidable (_ ∨ _))

theorem byteAt_reverse_outside (ws : List (Nat × Nat)) (b : Bytes) {i : Nat}
    (h : ∀ p ∈ ws, i < p.1 ∨ p.1 + p.2 ≤ i) : byteAt (reverse ws b) i = byteAt b i := by
  unfold reverse
  induction ws generalizing b with
  | nil => rfl
  | cons p ws ih =>
    rw [List.foldl_cons, ih _ fun q hq => h q (List.mem_cons_of_mem _ hq),
      byteAt_reverseAt_outside _ (h p List.mem_cons_self)]

theorem byteAt_reverse_inside (ws : List (Nat × Nat)) (b : Bytes) {o w i : Nat}
    (hp : ws.Pairwise Apart) (hm : (o, w) ∈ ws) (h : o + w ≤ b.length) (hi : i < w) :
    byteAt (reverse ws b) (o + i) = byteAt b (o + w - 1 - i) := by
  unfold reverse
  induction ws generalizing b with
  | nil => cases hm
  | cons p ws ih =>
    rw [List.foldl_cons]
    rw [List.pairwise_cons] at hp
    rcases List.mem_cons.1 hm with rfl | hm
    · rw [show ws.foldl (fun b p => reverseAt b p.1 p.2) (reverseAt b (o, w).1 (o, w).2) =
        reverse ws (reverseAt b o w) from rfl, byteAt_reverse_outside, byteAt_reverseAt_inside b h hi]
      intro q hq
      have := hp.1 q hq
      unfold Apart at this
      simp only at this
      omega
    · rw [ih _ hp.2 hm (by rw [length_reverseAt]; exact h), byteAt_reverseAt_outside]
      have := hp.1 _ hm
      unfold Apart at this
      simp only at this
      omega

/-! ### Numbers -/

/-- The big-endian number made of the `w` bytes at offset `o`. -/
def beAt (b : Bytes) (o : Nat) : Nat → Nat
  | 0 => 0
  | w + 1 => 256 ^ w * (byteAt b o).toNat + beAt b (o + 1) w

theorem leAt_snoc (b : Bytes) (o w : Nat) :
    leAt b o (w + 1) = leAt b o w + 256 ^ w * (byteAt b (o + w)).toNat := by
  induction w generalizing o with
  | zero => simp [leAt]
  | succ w ih =>
    rw [leAt, ih, leAt, show o + 1 + w = o + (w + 1) by omega, Nat.pow_succ]
    rw [Nat.mul_add, Nat.add_assoc, ← Nat.mul_assoc, Nat.mul_comm (256 ^ w) 256]

theorem leAt_mirror (b b' : Bytes) {o o' w : Nat}
    (h : ∀ i < w, byteAt b' (o' + i) = byteAt b (o + w - 1 - i)) : leAt b' o' w = beAt b o w := by
  induction w generalizing o with
  | zero => rfl
  | succ w ih =>
    rw [leAt_snoc, beAt, ih (o := o + 1), h w (by omega), Nat.add_comm,
      show o + (w + 1) - 1 - w = o by omega]
    intro i hi
    rw [h i (by omega)]
    congr 1
    omega

/-- The number with its `w` bytes in reverse order. -/
def swapped : Nat → Nat → Nat
  | 0, _ => 0
  | w + 1, n => 256 ^ w * (n % 256) + swapped w (n / 256)

theorem swapped_leAt (b : Bytes) (o w : Nat) : swapped w (leAt b o w) = beAt b o w := by
  induction w generalizing o with
  | zero => rfl
  | succ w ih =>
    have := (byteAt b o).toNat_lt
    rw [leAt, swapped, beAt, show ((byteAt b o).toNat + 256 * leAt b (o + 1) w) % 256 =
      (byteAt b o).toNat by omega, show ((byteAt b o).toNat + 256 * leAt b (o + 1) w) / 256 =
      leAt b (o + 1) w by omega, ih]

/-! ### Outcomes -/

/-- The same outcome; values are related by `Q`. -/
def Rel {ε α β : Type} (Q : α → β → Prop) : Res ε α → Res ε β → Prop
  | .ok a, .ok b => Q a b
  | .err e, .err e' => e = e'
  | .panic, .panic => True
  | .ub, .ub => True
  | _, _ => False

theorem Rel.bind {ε α β γ : Type} {Q : α → β → Prop} {x : Res ε γ} {k : γ → Res ε α} {k' : γ → Res ε β}
    (h : ∀ a, x = .ok a → Rel Q (k a) (k' a)) : Rel Q (x >>= k) (x >>= k') := by
  cases x with
  | ok a => exact h a rfl
  | err e => exact rfl
  | panic => trivial
  | ub => trivial
theorem Rel.bind_rel {ε α β γ δ : Type} {P : γ → δ → Prop} {Q : α → β → Prop} {x : Res ε γ}
    {y : Res ε δ} {k : γ → Res ε α} {k' : δ → Res ε β} (hx : Rel P x y)
    (h : ∀ a b, x = .ok a → y = .ok b → P a b → Rel Q (k a) (k' b)) : Rel Q (x >>= k) (y >>= k') := by
  cases x <;> cases y <;> first | exact hx.elim | skip
  · exact h _ _ rfl rfl hx
  · exact hx
  · trivial
  · trivial
theorem Rel.ok {ε α β : Type} {Q : α → β → Prop} {a : α} {b : β} (h : Q a b) :
    Rel Q (.ok a : Res ε α) (.ok b) := h
theorem Rel.pure {ε α β : Type} {Q : α → β → Prop} {a : α} {b : β} (h : Q a b) :
    Rel Q (Pure.pure a : Res ε α) (Pure.pure b) := h
theorem Rel.ub {ε α β : Type} {Q : α → β → Prop} {x : Res ε α} {y : Res ε β} (h : x = .ub)
    (h' : y = .ub) : Rel Q x y := by subst h h'; trivial
theorem Rel.panic {ε α β : Type} {Q : α → β → Prop} {x : Res ε α} {y : Res ε β} (h : x = .panic)
    (h' : y = .panic) : Rel Q x y := by subst h h'; trivial
theorem Rel.map {ε α β γ δ : Type} {Q : γ → δ → Prop} {f : α → γ} {g : β → δ} {x : Res ε α}
    {y : Res ε β} (h : Rel (fun a b => Q (f a) (g b)) x y) : Rel Q (x.map f) (y.map g) := by
  cases x <;> cases y <;> exact h

theorem Rel.ite {ε α β : Type} {Q : α → β → Prop} {c : Prop} [Decidable c] {x y : Res ε α}
    {x' y' : Res ε β} (h : Rel Q x x') (k : Rel Q y y') :
    Rel Q (if c then x else y) (if c then x' else y') := by
  by_cases hc : c
  · rw [if_pos hc, if_pos hc]; exact h
  · rw [if_neg hc, if_neg hc]; exact k

/-- Decomposes a `Rel` goal about two `do` blocks of the same steps. -/
macro "rel" : tactic =>
  `(tactic| (
      repeat' first
        | ((with_reducible refine Rel.pure ?_); exact rfl)
        | ((with_reducible refine Rel.ok ?_); exact rfl)
        | (with_reducible refine Rel.bind (fun _ _ => ?_))
        | (with_reducible refine Rel.ite ?_ ?_)))

/-- The structures are the same outside the integers read without conversion. -/
structure Twin (s t : RawStructure) : Prop where
  version : t.version = s.version
  info : t.info = s.info
  length : t.length = s.length
  handle : t.handle = s.handle
  strings : t.strings = s.strings
  size : t.data.length = s.data.length
  byte : ∀ o, 4 ≤ o → (∀ p ∈ nativeWords s.info, o < p.1 ∨ p.1 + p.2 ≤ o) → byte t o = byte s o

namespace Twin
variable {s t : RawStructure} (T : Twin s t)
include T

theorem since (a b : Nat) : Since t a b = Since s a b := by unfold Since; rw [T.version]
theorem fits (n : Nat) : Fits t n = Fits s n := by unfold Fits; rw [T.size]
theorem find (i : UInt8) : t.find_string i = s.find_string i := by
  unfold RawStructure.find_string RawStructure.stringsIter
  rw [T.info, T.handle, T.strings]

end Twin

/-- Same texts. -/
def SameTexts (v v' : Structure) : Prop := textFields v = textFields v'

variable {s t : RawStructure}

theorem Rel.packed {ε α β γ : Type} {Q : β → γ → Prop} (T : Twin s t) {p : Packed α} {n : Nat}
    (hc : p.Consumes n) {a b : α} {k : α → Res ε β} {k' : α → Res ε γ}
    (ha : Fits s (n + 4) → (letAsStruct p s.data : Res ε α) = .ok a)
    (hb : Fits t (n + 4) → (letAsStruct p t.data : Res ε α) = .ok b) (h : Rel Q (k a) (k' b)) :
    Rel Q (letAsStruct p s.data >>= k) (letAsStruct p t.data >>= k') := by
  by_cases f : Fits s (n + 4)
  · rw [ha f, hb (by rw [T.fits]; exact f)]; exact h
  · have hl := T.size
    unfold Fits at f
    rw [letAsStruct_short hc (by omega), letAsStruct_short hc (by omega)]
    trivial

/-- Compares the results of two packed structs. -/
syntax "packed_rel" term:max num ident term:max "[" Lean.Parser.Tactic.simpLemma,* "]" : tactic
macro_rules
  | `(tactic| packed_rel $T $n $p $l [$xs,*]) => `(tactic| (
      refine Rel.packed $T (n := $n) (by unfold $p; consumes) $l $l ?_
      simp (disch := decide) only [$xs,*]
      rel))

theorem twin_bios (T : Twin s t) (hi : s.info = .Bios) :
    Rel (fun v w => SameTexts (.Bios v) (.Bios w)) (bios.Bios.try_from s) (bios.Bios.try_from t) := by
  have b : ∀ o, 4 ≤ o → (∀ p ∈ nativeWords .Bios, o < p.1 ∨ p.1 + p.2 ≤ o) → byte t o = byte s o := by
    rw [← hi]; exact T.byte
  unfold bios.Bios.try_from
  rw [T.version]
  split
  · packed_rel T 22 bios.BiosPacked3_1.packed bios_packed3_1 [T.find, b]
  split
  · packed_rel T 20 bios.BiosPacked2_4.packed bios_packed2_4 [T.find, b]
  · packed_rel T 14 bios.BiosPacked2_0.packed bios_packed2_0 [T.find, b]

theorem twin_baseboard (T : Twin s t) (hi : s.info = .BaseBoard) :
    Rel (fun v w => SameTexts (.BaseBoard v) (.BaseBoard w)) (baseboard.BaseBoard.try_from s)
      (baseboard.BaseBoard.try_from t) := by
  have b : ∀ o, 4 ≤ o → (∀ p ∈ nativeWords .BaseBoard, o < p.1 ∨ p.1 + p.2 ≤ o) → byte t o = byte s o := by
    rw [← hi]; exact T.byte
  unfold baseboard.BaseBoard.try_from
  rw [T.size]
  packed_rel T 10 baseboard.BaseBoardPacked.packed baseboard_packed [T.find, b]

theorem twin_processor (T : Twin s t) (hi : s.info = .Processor) :
    Rel (fun v w => SameTexts (.Processor v) (.Processor w)) (processor.Processor.try_from s)
      (processor.Processor.try_from t) := by
  have b : ∀ o, 4 ≤ o → (∀ p ∈ nativeWords .Processor, o < p.1 ∨ p.1 + p.2 ≤ o) → byte t o = byte s o := by
    rw [← hi]; exact T.byte
  unfold processor.Processor.try_from
  rw [T.version]
  split
  · packed_rel T 22 processor.ProcessorPacked2_0.packed processor_packed2_0 [T.find, b]
  split
  · packed_rel T 28 processor.ProcessorPacked2_1.packed processor_packed2_1 [T.find, b]
  split
  · packed_rel T 31 processor.ProcessorPacked2_3.packed processor_packed2_3 [T.find, b]
  split
  · packed_rel T 36 processor.ProcessorPacked2_5.packed processor_packed2_5 [T.find, b]
  split
  · packed_rel T 38 processor.ProcessorPacked2_6.packed processor_packed2_6 [T.find, b]
  · packed_rel T 44 processor.ProcessorPacked3_0.packed processor_packed3_0 [T.find, b]

theorem twin_cache (T : Twin s t) (hi : s.info = .Cache) :
    Rel (fun v w => SameTexts (.Cache v) (.Cache w)) (cache.Cache.try_from s)
      (cache.Cache.try_from t) := by
  have b : ∀ o, 4 ≤ o → (∀ p ∈ nativeWords .Cache, o < p.1 ∨ p.1 + p.2 ≤ o) → byte t o = byte s o := by
    rw [← hi]; exact T.byte
  obtain ⟨c, hc, -⟩ := C38_configuration (word s 0x05)
  obtain ⟨d, hd, -⟩ := C38_configuration (word t 0x05)
  unfold cache.Cache.try_from
  rw [T.version]
  split
  · packed_rel T 23 cache.CachePacked3_1.packed cache_packed3_1 [T.find, b, hc, hd, ok_bind]
  split
  · packed_rel T 15 cache.CachePacked2_1.packed cache_packed2_1 [T.find, b, hc, hd, ok_bind]
  split
  · packed_rel T 11 cache.CachePacked2_0.packed cache_packed2_0 [T.find, b, hc, hd, ok_bind]
  · trivial

theorem twin_optionals (oc : Bool) (T : Twin s t) (hi : s.info = .Enclosure) :
    Rel (fun v w => v.2 = w.2) (enclosure.readOptionals oc (s.data.drop 5))
      (enclosure.readOptionals oc (t.data.drop 5)) := by
  have b : ∀ o, (∀ p ∈ nativeWords .Enclosure, o + 4 < p.1 ∨ p.1 + p.2 ≤ o + 4) →
      byteAt t.data o = byteAt s.data o := by
    rw [← hi]; intro o h
    have := T.byte (o + 4) (by omega) h
    simpa [byte] using this
  have d : t.data.drop 13 = s.data.drop 13 := by
    apply List.ext_getElem
    · simp [T.size]
    · intro i h h'
      rw [List.getElem_drop, List.getElem_drop]
      rw [List.length_drop] at h h'
      rw [← byteAt_eq (by omega), ← byteAt_eq (by omega)]
      apply b
      simp only [nativeWords, List.mem_singleton, forall_eq]
      omega
  unfold enclosure.readOptionals
  simp (disch := decide) only [read8_drop, ok_bind, T.size, b]
  by_cases h1 : 5 + 1 ≤ s.data.length
  rotate_left
  · simp only [if_neg h1]; exact Rel.ok rfl
  simp (disch := decide) only [if_pos h1, read8_drop, ok_bind, T.size, b]
  by_cases h2 : 5 + 1 + 1 ≤ s.data.length
  rotate_left
  · simp only [if_neg h2]; exact Rel.ok rfl
  simp (disch := decide) only [if_pos h2, read8_drop, ok_bind, T.size, b]
  by_cases h3 : 5 + 1 + 1 + 1 ≤ s.data.length
  rotate_left
  · simp only [if_neg h3]; exact Rel.ok rfl
  simp (disch := decide) only [if_pos h3, read8_drop, ok_bind, T.size, b]
  by_cases h4 : 5 + 1 + 1 + 1 + 1 ≤ s.data.length
  rotate_left
  · simp only [if_neg h4]; exact Rel.ok rfl
  simp (disch := decide) only [if_pos h4, read32_drop, ok_bind, T.size]
  by_cases h5 : 5 + 1 + 1 + 1 + 1 + 4 ≤ s.data.length
  rotate_left
  · simp only [if_neg h5]; exact Rel.ok rfl
  simp only [if_pos h5, d]
  refine Rel.bind fun x _ => ?_
  cases x with
  | none => exact Rel.ok rfl
  | some x =>
    refine Rel.bind fun x _ => ?_
    cases x with
    | none => exact Rel.ok rfl
    | some x =>
      refine Rel.bind fun x _ => ?_
      cases x with
      | none => exact Rel.ok rfl
      | some x =>
        refine Rel.bind fun x _ => ?_
        cases x with
        | none => exact Rel.ok rfl
        | some x => exact Rel.ok rfl

theorem twin_enclosure (oc : Bool) (T : Twin s t) (hi : s.info = .Enclosure) :
    Rel (fun v w => SameTexts (.Enclosure v) (.Enclosure w)) (enclosure.Enclosure.try_from oc s)
      (enclosure.Enclosure.try_from oc t) := by
  have b : ∀ o, 4 ≤ o → (∀ p ∈ nativeWords .Enclosure, o < p.1 ∨ p.1 + p.2 ≤ o) → byte t o = byte s o := by
    rw [← hi]; exact T.byte
  by_cases h : Fits s 9
  · have h' : Fits t 9 := by rw [T.fits]; exact h
    unfold enclosure.Enclosure.try_from enclosure.EnclosurePacked2_0.size
    unfold Fits at h
    rw [T.size, if_neg (by omega), if_neg (by omega)]
    simp (disch := decide) only [enclosure_packed h, enclosure_packed h', T.find, b, ok_bind]
    refine Rel.bind fun _ _ => ?_
    refine Rel.bind fun _ _ => ?_
    refine Rel.bind fun _ _ => ?_
    refine Rel.bind fun _ _ => ?_
    refine Rel.bind_rel (twin_optionals oc T hi) fun x y _ _ e => ?_
    unfold enclosure.findSku
    simp only [e, T.find]
    rel
  · rw [C33_short oc s h, C33_short oc t (by rw [T.fits]; exact h), T.info, T.handle]
    exact rfl

theorem texts_refl {α : Type} {c : α → Structure} (x : R α) :
    Rel (fun v w => SameTexts (c v) (c w)) x x := by
  cases x <;> first | exact rfl | trivial

/-- The decoders do the same on both structures. -/
theorem twin_decode (oc : Bool) (T : Twin s t) :
    Rel SameTexts (decodeStructure oc s) (decodeStructure oc t) := by
  have e : nativeWords s.info = [] → t = s := by
    intro e
    obtain ⟨_, _, _, _, _, d⟩ := s
    obtain ⟨_, _, _, _, _, d'⟩ := t
    obtain ⟨h1, h2, h3, h4, h5, h6, h7⟩ := T
    simp only at *
    subst h1 h2 h3 h4 h5
    congr
    apply List.ext_getElem h6
    intro i h h'
    have := h7 (i + 4) (by omega) (by rw [e]; nofun)
    unfold byte at this
    rwa [Nat.add_sub_cancel, byteAt_eq h, byteAt_eq h'] at this
  have i := T.info
  generalize hs : s.info = k at *
  unfold decodeStructure
  rw [i, hs]
  cases k <;> first
    | exact (twin_bios T hs).map
    | exact (twin_baseboard T hs).map
    | exact (twin_processor T hs).map
    | exact (twin_cache T hs).map
    | exact (twin_enclosure oc T hs).map
    | (rw [e rfl]; exact Rel.map (texts_refl _))
    | (rw [e rfl]; exact rfl)

end Dmi.Props
