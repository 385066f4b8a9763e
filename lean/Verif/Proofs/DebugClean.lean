import Verif.Proofs.Debug
/-!
# Debug texts have no control characters
-/
namespace Dmi
open Fmt

/-- Not a control character of ASCII. -/
def Clean (x : Nat) : Prop := 32 ≤ x ∧ x ≠ 127

instance (x : Nat) : Decidable (Clean x) := by unfold Clean; infer_instance

theorem encNat_clean {c x : Nat} (h : x ∈ encNat c) : x = c ∨ 128 ≤ x := by
  unfold encNat at h
  split at h
  · exact .inl (List.mem_singleton.1 h)
  · split at h
    · simp only [List.mem_cons, List.not_mem_nil, or_false] at h; omega
    · split at h <;> simp only [List.mem_cons, List.not_mem_nil, or_false] at h <;> omega

theorem hexLower_clean {n x : Nat} (h : x ∈ hexLower n) : Clean x := by
  obtain ⟨d, hd, rfl⟩ := List.mem_map.1 h
  have := digits_lt (by decide) hd
  unfold digitChar Clean
  split <;> omega

theorem escapeChar_clean {f : Nat → Bool} (hf : ∀ c, c < 32 ∨ c = 127 → f c = true) {s : Bytes} {c n x : Nat}
    (h : charAt s = some (c, n)) (hx : x ∈ escapeChar f c (s.take n)) : Clean x := by
  have hs := (charAt_spec h).1
  unfold escapeChar at hx
  have two : ∀ {a : Nat}, Clean a → x ∈ [92, a] → Clean x := by
    intro a ha h
    simp only [List.mem_cons, List.not_mem_nil, or_false] at h
    rcases h with rfl | rfl
    · decide
    · exact ha
  split at hx
  · exact two (by decide) hx
  split at hx
  · exact two (by decide) hx
  split at hx
  · exact two (by decide) hx
  split at hx
  · exact two (by decide) hx
  split at hx
  · exact two (by decide) hx
  split at hx
  · exact two (by decide) hx
  split at hx
  · rcases List.mem_append.1 hx with h | h
    · exact (by decide : ∀ x ∈ txt! "\\u{", Clean x) x h
    · rcases List.mem_append.1 h with h | h
      · exact hexLower_clean h
      · rw [List.mem_singleton.1 h]; decide
  · rename_i hc
    rw [hs] at hx
    unfold Clean
    rcases encNat_clean hx with rfl | h
    · have : ¬(x < 32 ∨ x = 127) := fun h => hc (hf x h)
      omega
    · omega

theorem charAt_none {b : UInt8} {r : Bytes} (h : charAt (b :: r) = none) : 128 ≤ b.toNat := by
  unfold charAt at h
  by_cases hb : b < 0x80
  · dsimp only at h; rw [if_pos hb] at h; cases h
  · exact Nat.le_of_not_lt hb

theorem escapeFuel_clean {f : Nat → Bool} (hf : ∀ c, c < 32 ∨ c = 127 → f c = true) : ∀ (k : Nat) (s : Bytes),
    ∀ x ∈ escapeFuel f k s, Clean x
  | 0, s, x, h => by cases s <;> cases h
  | k + 1, [], x, h => by cases h
  | k + 1, b :: r, x, h => by
    unfold escapeFuel at h
    split at h
    · rename_i c n hc
      rcases List.mem_append.1 h with h | h
      · exact escapeChar_clean hf hc h
      · exact escapeFuel_clean hf k _ x h
    · rename_i hc
      rcases List.mem_append.1 h with h | h
      · have := charAt_none hc
        simp only [List.mem_cons, List.not_mem_nil, or_false] at h
        unfold Clean
        omega
      · exact escapeFuel_clean hf k _ x h

theorem escape_clean {f : Nat → Bool} (hf : ∀ c, c < 32 ∨ c = 127 → f c = true) (s : Str) :
    ∀ x ∈ escape f s, Clean x := by
  intro x h
  rcases List.mem_cons.1 h with rfl | h
  · decide
  · rcases List.mem_append.1 h with h | h
    · exact escapeFuel_clean hf _ _ x h
    · rw [List.mem_singleton.1 h]; decide

theorem word_clean {t : Text} (h : isWord t = true) : ∀ x ∈ t, Clean x := by
  intro x hx
  have := ((isWord_iff t).1 h).2 x hx
  simp only [wordChar, Bool.and_eq_true, decide_eq_true_eq, Bool.not_eq_true', Bool.or_eq_false_iff,
    beq_eq_false_iff_ne] at this
  unfold Clean
  omega

theorem bars_clean {t : Text} {l : List Text} (h : isWord t = true) (hl : l.all isWord = true) :
    ∀ x ∈ bars t l, Clean x := by
  intro x hx
  rcases List.mem_append.1 hx with hx | hx
  · exact word_clean h x hx
  · obtain ⟨u, hu, hx⟩ := List.mem_flatMap.1 hx
    rcases List.mem_append.1 hx with hx | hx
    · exact (by decide : ∀ x ∈ txt! " | ", Clean x) x hx
    · exact word_clean (List.all_eq_true.1 hl u hu) x hx

theorem label_clean {named : Bool} {l : Text} (h : if named then isWord l = true else l = []) :
    ∀ x ∈ labelText l, Clean x := by
  intro x hx
  unfold labelText at hx
  split at hx
  · cases hx
  · rename_i hl
    cases named with
    | false => exact absurd (by rw [if_neg (by decide)] at h; rw [h]; rfl) hl
    | true =>
      rcases List.mem_append.1 hx with hx | hx
      · exact word_clean h x hx
      · exact (by decide : ∀ x ∈ txt! ": ", Clean x) x hx

mutual
theorem plain_clean {f : Nat → Bool} (hf : ∀ c, c < 32 ∨ c = 127 → f c = true) : ∀ (d : Dbg), d.WF →
    ∀ x ∈ d.plain f, Clean x
  | .words t l, w, x, h => bars_clean w.1 w.2 x (by rwa [Dbg.plain] at h)
  | .unit, _, x, h => (by decide : ∀ x ∈ txt! "()", Clean x) x (by rwa [Dbg.plain] at h)
  | .str s, _, x, h => escape_clean hf s x (by rwa [Dbg.plain] at h)
  | .tuple n a, w, x, h => by
    rw [Dbg.plain] at h
    simp only [List.mem_append] at h
    rcases h with h | h | h | h
    · exact word_clean w.1 x h
    · exact (by decide : ∀ x ∈ txt! "(", Clean x) x h
    · exact plainArgs_clean hf false true a w.2 x h
    · exact (by decide : ∀ x ∈ txt! ")", Clean x) x h
  | .struct n a, w, x, h => by
    rw [Dbg.plain] at h
    simp only [List.mem_append] at h
    rcases h with h | h | h | h
    · exact word_clean w.1 x h
    · exact (by decide : ∀ x ∈ txt! " { ", Clean x) x h
    · exact plainArgs_clean hf true true a w.2 x h
    · exact (by decide : ∀ x ∈ txt! " }", Clean x) x h
  | .list a, w, x, h => by
    rw [Dbg.plain] at h
    simp only [List.mem_append] at h
    rcases h with h | h | h
    · exact (by decide : ∀ x ∈ txt! "[", Clean x) x h
    · exact plainArgs_clean hf false true a w x h
    · exact (by decide : ∀ x ∈ txt! "]", Clean x) x h
theorem plainArgs_clean {f : Nat → Bool} (hf : ∀ c, c < 32 ∨ c = 127 → f c = true) (named first : Bool) :
    ∀ (a : DbgArgs), a.WF named → ∀ x ∈ a.plain f first, Clean x
  | .nil, _, x, h => by rw [DbgArgs.plain] at h; cases h
  | .cons l v r, w, x, h => by
    rw [DbgArgs.plain] at h
    simp only [List.mem_append] at h
    rcases h with h | h | h | h
    · cases first with
      | false => exact (by decide : ∀ x ∈ txt! ", ", Clean x) x h
      | true => cases h
    · exact label_clean w.1 x h
    · exact plain_clean hf v w.2.1 x h
    · exact plainArgs_clean hf named false r w.2.2 x h
end

/-- Not a control character except the newline. -/
def CleanLines (x : Nat) : Prop := x = 10 ∨ Clean x

instance (x : Nat) : Decidable (CleanLines x) := by unfold CleanLines; infer_instance

theorem pad_clean : ∀ (b : Bool) (t : Text), (∀ x ∈ t, CleanLines x) → ∀ x ∈ pad b t, CleanLines x
  | _, [], _, x, h => by cases h
  | b, c :: r, ht, x, h => by
    rw [pad] at h
    rcases List.mem_append.1 h with h | h
    · cases b with
      | false => cases h
      | true => exact (by decide : ∀ x ∈ txt! "    ", CleanLines x) x h
    · rcases List.mem_cons.1 h with rfl | h
      · exact ht _ List.mem_cons_self
      · exact pad_clean _ r (fun y hy => ht y (List.mem_cons_of_mem _ hy)) x h

mutual
theorem pretty_clean {f : Nat → Bool} (hf : ∀ c, c < 32 ∨ c = 127 → f c = true) : ∀ (d : Dbg), d.WF →
    ∀ x ∈ d.pretty f, CleanLines x
  | .words t l, w, x, h => .inr (bars_clean w.1 w.2 x (by rwa [Dbg.pretty] at h))
  | .unit, _, x, h => (by decide : ∀ x ∈ txt! "()", CleanLines x) x (by rwa [Dbg.pretty] at h)
  | .str s, _, x, h => .inr (escape_clean hf s x (by rwa [Dbg.pretty] at h))
  | .tuple n a, w, x, h => by
    rw [Dbg.pretty] at h
    simp only [List.mem_append] at h
    rcases h with h | h | h | h
    · exact .inr (word_clean w.1 x h)
    · exact (by decide : ∀ x ∈ txt! "(\n", CleanLines x) x h
    · exact prettyArgs_clean hf false a w.2 x h
    · exact (by decide : ∀ x ∈ txt! ")", CleanLines x) x h
  | .struct n a, w, x, h => by
    rw [Dbg.pretty] at h
    simp only [List.mem_append] at h
    rcases h with h | h | h | h
    · exact .inr (word_clean w.1 x h)
    · exact (by decide : ∀ x ∈ txt! " {\n", CleanLines x) x h
    · exact prettyArgs_clean hf true a w.2 x h
    · exact (by decide : ∀ x ∈ txt! "}", CleanLines x) x h
  | .list .nil, _, x, h => by
    rw [Dbg.pretty] at h
    exact (by decide : ∀ x ∈ txt! "[]", CleanLines x) x h
  | .list (.cons l v r), w, x, h => by
    rw [Dbg.pretty] at h
    · simp only [List.mem_append] at h
      rcases h with h | h | h
      · exact (by decide : ∀ x ∈ txt! "[\n", CleanLines x) x h
      · exact prettyArgs_clean hf false (.cons l v r) w x h
      · exact (by decide : ∀ x ∈ txt! "]", CleanLines x) x h
    · nofun
theorem prettyArgs_clean {f : Nat → Bool} (hf : ∀ c, c < 32 ∨ c = 127 → f c = true) (named : Bool) :
    ∀ (a : DbgArgs), a.WF named → ∀ x ∈ a.pretty f, CleanLines x
  | .nil, _, x, h => by rw [DbgArgs.pretty] at h; cases h
  | .cons l v r, w, x, h => by
    rw [DbgArgs.pretty] at h
    rcases List.mem_append.1 h with h | h
    · refine pad_clean true _ (fun y hy => ?_) x h
      simp only [List.mem_append] at hy
      rcases hy with hy | hy | hy
      · exact .inr (label_clean w.1 y hy)
      · exact pretty_clean hf v w.2.1 y hy
      · exact (by decide : ∀ x ∈ txt! ",\n", CleanLines x) y hy
    · exact prettyArgs_clean hf named r w.2.2 x h
end

end Dmi
