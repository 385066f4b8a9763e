import Verif.Spec.Codes
import Verif.Proofs.Finite
/-!
# Lemmas on code tables
-/
namespace Dmi
open Spec

theorem named_mem {α : Type} {t : Table α} {n : Nat} {x : α} (h : named t n = some x) :
    x ∈ names t := by
  induction t with
  | nil => simp [named] at h
  | cons r t ih =>
    simp only [named, List.findSome?_cons] at h
    simp only [names, List.flatMap_cons, List.mem_append]
    split at h
    · rename_i y hy
      split at hy
      · cases h; exact Or.inl (List.mem_of_getElem? hy)
      · cases hy
    · exact Or.inr (ih h)

/-- Runs that end before the code do not matter. -/
theorem named_skip {α : Type} (t u : Table α) (n : Nat)
    (h : ∀ r ∈ t, r.1 + r.2.length ≤ n) : named (t ++ u) n = named u n := by
  induction t with
  | nil => rfl
  | cons r t ih =>
    have hr := h r (by simp)
    have : (if r.1 ≤ n then r.2[n - r.1]? else none) = none := by
      rw [if_pos (by omega)]; exact List.getElem?_eq_none (by omega)
    simp only [named, List.cons_append, List.findSome?_cons, this]
    exact ih (fun x hx => h x (by simp [hx]))

/-- In a table without repeated names a name determines its code. -/
theorem named_inj {α : Type} {t : Table α} (hn : (names t).Nodup) {m n : Nat} {x : α}
    (hm : named t m = some x) (h : named t n = some x) : m = n := by
  induction t with
  | nil => simp [named] at h
  | cons r t ih =>
    have hnd : r.2.Nodup ∧ (names t).Nodup ∧ ∀ a ∈ r.2, ∀ b ∈ names t, a ≠ b := by
      simpa [names, List.flatMap_cons, List.nodup_append] using hn
    obtain ⟨h1, h2, h3⟩ := hnd
    have key : ∀ k, named (r :: t) k = some x →
        (r.1 ≤ k ∧ r.2[k - r.1]? = some x) ∨ named t k = some x := by
      intro k hk
      simp only [named, List.findSome?_cons] at hk
      split at hk
      · rename_i y hy
        split at hy
        · cases hk; exact Or.inl ⟨by assumption, hy⟩
        · cases hy
      · exact Or.inr hk
    rcases key m hm with ⟨lm, gm⟩ | gm <;> rcases key n h with ⟨ln, gn⟩ | gn
    · obtain ⟨im, em⟩ := List.getElem?_eq_some_iff.1 gm
      obtain ⟨i_n, en⟩ := List.getElem?_eq_some_iff.1 gn
      have hp := List.pairwise_iff_getElem.1 h1
      rcases Nat.lt_trichotomy (m - r.1) (n - r.1) with hlt | heq | hlt
      · exact absurd (em.trans en.symm) (hp _ _ im i_n hlt)
      · omega
      · exact absurd (en.trans em.symm) (hp _ _ i_n im hlt)
    · exact absurd rfl (h3 x (List.mem_of_getElem? gm) x (named_mem gn))
    · exact absurd rfl (h3 x (List.mem_of_getElem? gn) x (named_mem gm))
    · exact ih h2 gm gn

/-- A decoder that follows a table without repetitions is injective, on the codes where it
does. -/
theorem injective_of_table {C α : Type} {code : C → Nat} (hc : ∀ {a b}, code a = code b → a = b)
    {P : C → Prop} {dec : C → α} {t : Table α} {other : C → α}
    (h : ∀ b, P b → dec b = (named t (code b)).getD (other b))
    (f : α → Nat) (hn : ((names t).map f).Nodup)
    (ho : ∀ a b, other a = other b → a = b) (hd : ∀ b, ∀ x ∈ names t, x ≠ other b)
    {a b : C} (pa : P a) (pb : P b) (e : dec a = dec b) : a = b := by
  have hn' : (names t).Nodup := List.Pairwise.of_map f (fun _ _ hab e => hab (congrArg f e)) hn
  rw [h a pa, h b pb] at e
  cases ha : named t (code a) <;> cases hb : named t (code b) <;>
    simp only [ha, hb, Option.getD] at e
  · exact ho _ _ e
  · exact absurd e.symm (hd _ _ (named_mem hb))
  · exact absurd e (hd _ _ (named_mem ha))
  · subst e; exact hc (named_inj hn' ha hb)

/-- A decoder that conforms to a table without repetitions is injective. -/
theorem Spec.Conforms.injective {α : Type} {dec : UInt8 → α} {t : Table α} {other : UInt8 → α}
    (h : Conforms dec t other) (f : α → Nat) (hn : ((names t).map f).Nodup)
    (ho : ∀ a b, other a = other b → a = b) (hd : ∀ b, ∀ x ∈ names t, x ≠ other b)
    {a b : UInt8} (e : dec a = dec b) : a = b :=
  injective_of_table (P := fun _ => True) (fun h => UInt8.toNat_inj.1 h) (fun b _ => h b)
    f hn ho hd trivial trivial e

end Dmi
