import Verif.Props.Content
import Verif.Props.Codes
import Verif.Props.Safety
import Verif.Spec.Reported
/-!
# C76 for structures of any types and for whole tables
-/
namespace Dmi.Props
open Spec

theorem ok_of_item {x : R Structure} {v : Structure} (h : x.toItem = .ok (.ok v)) : x = .ok v := by
  cases x <;> cases h
  rfl

/-- A value tells the type of its structure. -/
theorem kind_of_value {oc : Bool} {v w : SmbiosVersion} {p p' : Piece} {x : Structure}
    (h : decodeStructure oc (p.raw v) = .ok x) (h' : decodeStructure oc (p'.raw w) = .ok x) :
    p.kind = p'.kind := by
  have a := C18_dispatch oc (p.raw v) p.kind x rfl h
  have a' := C18_dispatch oc (p'.raw w) p'.kind x rfl h'
  by_cases k : p.kind.toNat ∈ supportedTypes <;> by_cases k' : p'.kind.toNat ∈ supportedTypes
  · have e := (a.1 k).symm.trans (a'.1 k')
    exact UInt8.toNat_inj.mp (Option.some.inj e)
  · have e := a.1 k
    rw [a'.2 k'] at e; cases e
  · have e := a'.1 k'
    rw [a.2 k] at e; cases e
  · have e := (a.2 k).symm.trans (a'.2 k')
    have e : p.raw v = p'.raw w := by injection e
    exact C23_injective (congrArg RawStructure.info e)

/-- The pieces, in tables of versions `v` and `w`, agree in what is kept of them: type, handle, the texts of the
values `x` and `x'` reported for them, and the numbers. -/
def KeptAlike (v w : SmbiosVersion) (p p' : Piece) (x x' : Structure) : Prop :=
  p.kind = p'.kind ∧ p.handle = p'.handle ∧ textFields x = textFields x' ∧ SameNumbers (p.raw v) (p'.raw w)

/-- C76: two structures of whatever types, in tables of whatever versions, are reported as the same value exactly if
they agree in type, handle, texts and the numbers kept. -/
theorem C76_any_types (oc : Bool) (v w : SmbiosVersion) (p p' : Piece) (hw : p.WF) (hw' : p'.WF)
    (hx : p.kind = 16 → From v 2 2 ∧ From w 2 2) (x x' : Structure)
    (h : decodeStructure oc (p.raw v) = .ok x) (h' : decodeStructure oc (p'.raw w) = .ok x') :
    x = x' ↔ KeptAlike v w p p' x x' := by
  have key (hk : p.kind = p'.kind) := C76_content oc (p.raw v) (p'.raw w)
    ⟨congrArg InfoType.ofU8 hk.symm, piece_coherent p v hw, piece_coherent p' w hw'⟩
    (fun hi => hx (C23_injective (a := p.kind) (b := 16) hi)) x x' h h'
  constructor
  · intro e
    have hk : p.kind = p'.kind := kind_of_value h (e ▸ h')
    exact ⟨hk, (key hk).mp e⟩
  · rintro ⟨hk, r⟩
    exact (key hk).mpr r

/-- The pieces agree one by one. -/
inductive KeptAlikeAll (v w : SmbiosVersion) : List Piece → List Piece → List Structure → List Structure → Prop
  | nil : KeptAlikeAll v w [] [] [] []
  | cons {p p' x x' ps ps' xs xs'} : KeptAlike v w p p' x x' → KeptAlikeAll v w ps ps' xs xs' →
      KeptAlikeAll v w (p :: ps) (p' :: ps') (x :: xs) (x' :: xs')

/-- C76 for tables: two tables, of one version or of two, whose structures are all decoded give the same values
exactly if the structures agree one by one. -/
theorem C76_tables (oc : Bool) (v w : SmbiosVersion) : ∀ (ps ps' : List Piece) (xs xs' : List Structure),
    (∀ p ∈ ps, p.WF) → (∀ p ∈ ps', p.WF) → ((∃ p ∈ ps, p.kind = 16) → From v 2 2 ∧ From w 2 2) →
    Decoded oc v ps (xs.map .ok) → Decoded oc w ps' (xs'.map .ok) → (xs = xs' ↔ KeptAlikeAll v w ps ps' xs xs') := by
  intro ps
  induction ps with
  | nil =>
    intro ps' xs xs' _ _ _ hd hd'
    have e : xs = [] := by cases xs with | nil => rfl | cons => cases hd
    subst e
    constructor
    · rintro rfl
      cases ps' with
      | nil => exact .nil
      | cons => cases hd'
    · intro h; cases h; rfl
  | cons p ps ih =>
    intro ps' xs xs' hw hw' hx hd hd'
    cases xs with
    | nil => cases hd
    | cons x xs =>
    cases ps' with
    | nil =>
      have e : xs' = [] := by cases xs' with | nil => rfl | cons => cases hd'
      subst e
      exact ⟨nofun, nofun⟩
    | cons p' ps' =>
    cases xs' with
    | nil => cases hd'
    | cons x' xs' =>
    cases hd with | cons h hd =>
    cases hd' with | cons h' hd' =>
    have one := C76_any_types oc v w p p' (hw p List.mem_cons_self) (hw' p' List.mem_cons_self)
      (fun k => hx ⟨p, List.mem_cons_self, k⟩) x x' (ok_of_item h) (ok_of_item h')
    have rest := ih ps' xs xs' (fun q hq => hw q (List.mem_cons_of_mem _ hq))
      (fun q hq => hw' q (List.mem_cons_of_mem _ hq))
      (fun ⟨q, hq, k⟩ => hx ⟨q, List.mem_cons_of_mem _ hq, k⟩) hd hd'
    rw [List.cons.injEq, one, rest]
    constructor
    · rintro ⟨a, b⟩; exact .cons a b
    · intro h; cases h with | cons a b => exact ⟨a, b⟩

/-- Two tables of a base board and an unsupported structure; the base boards differ in reserved bits and in their
length. -/
def oneTable : List Piece := [⟨2, 1, [0, 0, 0, 0, 0, 0x01, 0, 0, 0, 10, 0], [0, 0]⟩, ⟨200, 2, [], [0, 0]⟩]

def otherTable : List Piece := [⟨2, 1, [0, 0, 0, 0, 0, 0xE1, 0, 0, 0, 10, 1, 7, 7], [0, 0]⟩, ⟨200, 2, [], [0, 0]⟩]

def theirValues : List Structure :=
  [.BaseBoard ⟨1, [], [], [], [], some [], some ⟨1⟩, some [], some 0, some .MotherBoard⟩,
   .Other ((⟨200, 2, [], [0, 0]⟩ : Piece).raw ⟨2, 8⟩)]

example : (∀ p ∈ oneTable ++ otherTable, p.WF) ∧ oneTable.map (·.data.length) ≠ otherTable.map (·.data.length) ∧
    Decoded true ⟨2, 8⟩ oneTable (theirValues.map .ok) ∧
    Decoded true ⟨2, 8⟩ otherTable (theirValues.map .ok) := by
  refine ⟨?_, by decide, ?_, ?_⟩
  · intro p hp
    simp only [oneTable, otherTable, List.cons_append, List.nil_append, List.mem_cons, List.not_mem_nil,
      or_false] at hp
    rcases hp with rfl | rfl | rfl | rfl <;> exact ⟨by decide, endsAtFirst_nil⟩
  · exact .cons rfl (.cons rfl .nil)
  · exact .cons rfl (.cons rfl .nil)

/-- In tables of two versions. -/
example : Decoded true ⟨2, 8⟩ (oneTable.take 1) ((theirValues.take 1).map .ok) ∧
    Decoded true ⟨3, 4⟩ (otherTable.take 1) ((theirValues.take 1).map .ok) :=
  ⟨.cons rfl .nil, .cons rfl .nil⟩

end Dmi.Props
