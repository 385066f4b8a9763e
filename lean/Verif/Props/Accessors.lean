import Verif.Props.Enclosure
import Verif.Props.Bitfield
import Verif.Proofs.Fmt
import Verif.Model.Display
/-!
# C71: the number of contained elements; further parts of C24 and C63
-/
namespace Dmi.Props
open Spec Fmt

/-! ### C71 -/

section
open enclosure

/-- C71, full statement: the number an enclosure gives for its contained elements is the number of
elements it lists. -/
def C71_full : Prop := ∀ (oc : Bool) (s : RawStructure) (v : Enclosure) (e : ContainedElements)
  (l : List ContainedElement), Enclosure.try_from oc s = .ok v → v.contained_elements = some e →
  CollectsR ContainedElements.next e l → e.countMethod.toNat = l.length

/-- C71 holds for structures that contain all their records, of at least three bytes each and at most
255 bytes together, or none. -/
theorem C71_count_partial (oc : Bool) (s : RawStructure) (v : Enclosure) (e : ContainedElements)
    (l : List ContainedElement) (h : Fits s 0x15)
    (h2 : Fits s (0x15 + elementCount s * elementLength s))
    (hlt : elementCount s * elementLength s < 256)
    (hm : elementCount s = 0 ∨ 3 ≤ elementLength s)
    (hv : Enclosure.try_from oc s = .ok v) (he : v.contained_elements = some e)
    (hl : CollectsR ContainedElements.next e l) :
    e.countMethod.toNat = l.length ∧ l.length = (byte s 0x13).toNat := by
  have hr : recordBytes s = elementCount s * elementLength s := Nat.mod_eq_of_lt hlt
  have hc := contained_of_ok h (by rw [hr]; exact h2) (fun _ _ => hlt) hv
  obtain ⟨e', he', hl'⟩ := (C34_elements_partial oc s h h2 hlt
    (hm.elim .inl fun h => .inr (.inr h))).2 v hv
  rw [he] at he' hc
  cases he'
  rw [collectsR_unique hl hl']
  have : e.countMethod = byte s 0x13 := by
    simp only [Option.some.injEq] at hc
    rw [hc]
    rfl
  rw [this]
  rcases hm with h | h
  · rw [h]; simp only [elementCount] at h; simp [h]
  · rw [if_neg (by omega)]; simp [elementCount]

/-- C71: the number stays the same while the elements are listed. -/
theorem C71_count_constant (e e' : ContainedElements) (a : Option ContainedElement)
    (h : e.next = .ok (a, e')) : e'.countMethod = e.countMethod := by
  unfold ContainedElements.next at h
  split at h
  · cases h; rfl
  · simp only [bind_ok_iff, Res.ok.injEq, Prod.mk.injEq] at h
    obtain ⟨x, -, -, rfl⟩ := h
    rfl

/-- C71: elements of length 0 are counted but never listed. -/
theorem C71_empty_records (oc : Bool) (s : RawStructure) (v : Enclosure) (h : Fits s 0x15)
    (h0 : elementLength s = 0) (hv : Enclosure.try_from oc s = .ok v) :
    ∃ e, v.contained_elements = some e ∧ e.countMethod = byte s 0x13 ∧
      CollectsR ContainedElements.next e [] := by
  refine ⟨_, contained_of_ok h (by rw [recordBytes, h0]; exact h) (fun _ _ => by rw [h0, Nat.mul_zero]; decide) hv, rfl, ?_⟩
  rw [initialChunks, if_pos (.inr h0)]
  exact .done rfl

/-- An enclosure with five contained elements of length 0. -/
def emptyElements : RawStructure := { exampleEnclosure with
  length := 0x16
  data := [1, 0x83, 2, 3, 4, 3, 3, 3, 2, 0x78, 0x56, 0x34, 0x12, 2, 1, 5, 0, 5] }

/-- C71, the full statement fails: elements of length 0. -/
theorem C71_full_false : ¬ C71_full := by
  intro hf
  have hok : ∃ v, Enclosure.try_from true emptyElements = .ok v := by
    have : (Enclosure.try_from true emptyElements).okAnd (fun _ => true) = true := by decide +kernel
    cases h : Enclosure.try_from true emptyElements with
    | ok v => exact ⟨v, rfl⟩
    | _ => rw [h] at this; cases this
  obtain ⟨v, hv⟩ := hok
  obtain ⟨e, he, hc, hl⟩ := C71_empty_records true emptyElements v (by decide) (by decide) hv
  have := hf true emptyElements v e [] hv he hl
  rw [hc] at this
  revert this
  decide

example : Fits exampleEnclosure 0x15 ∧
    Fits exampleEnclosure (0x15 + elementCount exampleEnclosure * elementLength exampleEnclosure) ∧
    elementCount exampleEnclosure * elementLength exampleEnclosure < 256 ∧
    3 ≤ elementLength exampleEnclosure := by decide

end

/-! ### C24, C63 -/

/-- C24: the debug output of a flag tells exactly its position and whether it is set. -/
theorem C24_debug (alt : Bool) (f g : bitfield.Flag) :
    f.debug alt = g.debug alt ↔ f.position = g.position ∧ f.is_set = g.is_set := by
  constructor
  · intro h
    unfold bitfield.Flag.debug at h
    have key : ∀ {t u : Text} {a b : Bool},
        (if a then txt! "true" else txt! "false") ++ t = (if b then txt! "true" else txt! "false") ++ u →
        a = b := by
      intro t u a b h
      cases a <;> cases b <;> first | rfl | (simp at h)
    cases alt
    · obtain ⟨h1, h2⟩ := dec_split (c := 41) (by decide) (List.append_cancel_left h)
      exact ⟨h1, key (List.append_cancel_left (as := txt! ", is_set: ") h2)⟩
    · obtain ⟨h1, h2⟩ := dec_split (c := 44) (by decide) (List.append_cancel_left h)
      exact ⟨h1, key (List.append_cancel_left (as := txt! "\n    ),\n    is_set: ") h2)⟩
  · rintro ⟨h1, h2⟩
    unfold bitfield.Flag.debug
    rw [h1, h2]

/-- C63: an error has a cause exactly if it is a failed conversion, and then prints as its cause. -/
theorem C63_source (e : MalformedStructureError) :
    (e.source ≠ none ↔ e = .InvalidSlice) ∧ ∀ t, e.source = some t → e.display = t := by
  cases e <;> simp [MalformedStructureError.source, MalformedStructureError.display]

/-- The hypotheses of `C71_empty_records` can be met. -/
example : let s := { exampleEnclosure with data := (exampleEnclosure.data.set 0x10 0).set 0x11 5 }
    Fits s 0x15 ∧ elementLength s = 0 ∧
    (enclosure.Enclosure.try_from true s).okAnd (fun v =>
      v.contained_elements.map (·.countMethod) = some 1) = true := by
  decide +kernel

end Dmi.Props
