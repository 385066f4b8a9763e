import Verif.Props.Widths
import Verif.Props.Debug
import Verif.Model.Hash
import Verif.Model.Compare
/-!
# What shows of the width of `usize` in a decoded structure (C79)

`structureOn n t` differs from `t` in the chunk length of an empty list of contained elements at most.
-/
namespace Dmi.Props

open Dmi Spec

/-- C79: comparisons and hashing do not show that chunk length; `{:?}` and `{:#?}` do, in each form of integers, where
there is a difference. -/
theorem C79_shown [Shown] (n m : Nat) (oc : Bool) (s : RawStructure) (t : Structure)
    (h : @decodeStructure ⟨m⟩ oc s = .ok t) :
    (∀ u, (structureOn n t).eq u = t.eq u ∧ u.eq (structureOn n t) = u.eq t) ∧
    (∀ w pre, @feed ⟨w⟩ pre (structureOn n t).fed = @feed ⟨w⟩ pre t.fed) ∧
    (∀ byNumber, (structureOn n t).dbg.plain byNumber = t.dbg.plain byNumber ↔ structureOn n t = t) ∧
    ∀ byNumber, (structureOn n t).dbg.pretty byNumber = t.dbg.pretty byNumber ↔ structureOn n t = t := by
  refine ⟨?_, ?_, fun f => ⟨fun e => C91_structure f _ _ (.inl e), fun e => by rw [e]⟩,
    fun f => ⟨fun e => C91_structure f _ _ (.inr e), fun e => by rw [e]⟩⟩
  · intro u
    cases t
    case Enclosure e =>
      have key : ∀ b : enclosure.Enclosure,
          ({ e with contained_elements := e.contained_elements.map (elementsOn n) } : enclosure.Enclosure).eq b =
            e.eq b ∧
          b.eq { e with contained_elements := e.contained_elements.map (elementsOn n) } = b.eq e := by
        intro b
        unfold enclosure.Enclosure.eq
        cases hc : e.contained_elements with
        | none => exact ⟨rfl, rfl⟩
        | some c =>
          have hq := (C79_enclosure n m oc s e h c hc).2.2.2.2.2
          cases hd : b.contained_elements with
          | none => exact ⟨rfl, rfl⟩
          | some d =>
            simp only [Option.map_some, optionEq]
            rw [(hq d).1, (hq d).2]
            exact ⟨rfl, rfl⟩
      cases u
      case Enclosure b => exact key b
      all_goals exact ⟨by simp [structureOn, Structure.eq], by simp [structureOn, Structure.eq]⟩
    all_goals exact ⟨rfl, rfl⟩
  · intro w pre
    cases t
    case Enclosure e =>
      cases hc : e.contained_elements with
      | none => simp only [structureOn, hc, Option.map_none]; rw [← hc]
      | some c =>
        obtain ⟨h1, h2, h3, h4, -⟩ := C79_enclosure n m oc s e h c hc
        have hh : @Chunks.hash ⟨w⟩ (elementsOn n c).chunks = @Chunks.hash ⟨w⟩ c.chunks := by
          by_cases hz : c.count = 0 ∨ c.record_length = 0
          · have hr := h4 hz
            unfold Chunks.hash
            rw [h3, hr]
            simp [Chunks.hashFuel, Chunks.next, hr, h3.trans hr]
          · unfold elementsOn
            rw [if_neg hz]
        have hf : @feed ⟨w⟩ pre (Fed.opt (·.fed) (some (elementsOn n c))) =
            @feed ⟨w⟩ pre (Fed.opt (·.fed) (some c)) := by
          simp only [Fed.opt, enclosure.ContainedElements.fed, feed, List.flatMap_cons, List.flatMap_nil, Fed.bytes,
            h1, h2, hh]
        unfold feed at hf ⊢
        simp only [structureOn, hc, Option.map_some, Structure.fed, Structure.fields, enclosure.Enclosure.fed,
          List.flatten_cons, List.flatMap_cons, List.flatMap_append, hf]
        rfl
    all_goals rfl

example : ∃ t, @decodeStructure ⟨64⟩ true emptyEnclosure = .ok t := ⟨_, rfl⟩

end Dmi.Props
