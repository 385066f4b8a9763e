import Verif.Props.ContentTables
import Verif.Props.Reading
/-!
# C113: exactly which tables are read without any error
-/
namespace Dmi.Props
open Spec

/-- Each of the structures, put one after the other from offset `o` on, has its formatted area end before `n`. -/
def EndBefore (n o : Nat) (ps : List Piece) : Prop :=
  ∀ a p z, ps = a ++ p :: z → o + (a.flatMap Piece.bytes).length + p.len < n

/-- Where reading ends: less than a header is left of the `n` bytes and there is no end-of-table structure that
counts, or the last structure, and only that, is one. -/
def StopsAfter (v : SmbiosVersion) (n o : Nat) (ps : List Piece) : Prop :=
  (n < o + (ps.flatMap Piece.bytes).length + 4 ∧ (v.major.toNat < 3 ∨ ∀ p ∈ ps, p.kind ≠ 127)) ∨
  (3 ≤ v.major.toNat ∧ ∃ a e, ps = a ++ [e] ∧ e.kind = 127 ∧ ∀ p ∈ a, p.kind ≠ 127)

theorem endBefore_cons {n o : Nat} {p : Piece} {ps : List Piece} :
    EndBefore n o (p :: ps) ↔ o + p.len < n ∧ EndBefore n (o + p.bytes.length) ps := by
  constructor
  · intro h
    refine ⟨h [] p ps rfl, fun a q z e => ?_⟩
    have := h (p :: a) q z (by rw [e]; rfl)
    rw [List.flatMap_cons, List.length_append] at this
    omega
  · rintro ⟨h, h'⟩ a q z e
    cases a with
    | nil =>
      cases e
      exact h
    | cons p' a =>
      rw [List.cons_append, List.cons.injEq] at e
      obtain ⟨rfl, e⟩ := e
      have := h' a q z e
      rw [List.flatMap_cons, List.length_append]
      omega

theorem stopsAfter_cons {v : SmbiosVersion} {n o : Nat} {p : Piece} {ps : List Piece}
    (hk : v.major.toNat < 3 ∨ p.kind ≠ 127) :
    StopsAfter v n o (p :: ps) ↔ StopsAfter v n (o + p.bytes.length) ps := by
  unfold StopsAfter
  rw [List.flatMap_cons, List.length_append]
  constructor
  · rintro (⟨h, h'⟩ | ⟨h, a, e, he, hx, ha⟩)
    · exact .inl ⟨by omega, h'.imp id fun h q hq => h q (List.mem_cons_of_mem _ hq)⟩
    · cases a with
      | nil =>
        cases he
        rcases hk with hk | hk
        · omega
        · exact absurd hx hk
      | cons p' a =>
        rw [List.cons_append, List.cons.injEq] at he
        exact .inr ⟨h, a, e, he.2, hx, fun q hq => ha q (List.mem_cons_of_mem _ hq)⟩
  · rintro (⟨h, h'⟩ | ⟨h, a, e, he, hx, ha⟩)
    · refine .inl ⟨by omega, ?_⟩
      rcases h' with h' | h'
      · exact .inl h'
      · refine hk.imp id fun hk q hq => ?_
        rcases List.mem_cons.1 hq with rfl | hq
        · exact hk
        · exact h' q hq
    · refine .inr ⟨h, p :: a, e, by rw [he]; rfl, hx, fun q hq => ?_⟩
      rcases List.mem_cons.1 hq with rfl | hq
      · exact hk.resolve_left (by omega)
      · exact ha q hq

theorem endBefore_nil {n o : Nat} : EndBefore n o [] := by
  intro a p z e
  cases a <;> cases e

theorem flat_cons {b : Bytes} {o : Nat} {p : Piece} {ps : List Piece} (h : OccursAt b o ((p :: ps).flatMap Piece.bytes)) :
    OccursAt b o p.bytes ∧ OccursAt b (o + p.bytes.length) (ps.flatMap Piece.bytes) := by
  obtain ⟨x, y, e, hx⟩ := h
  rw [List.flatMap_cons] at e
  exact ⟨⟨x, ps.flatMap Piece.bytes ++ y, by simp [e], hx⟩, x ++ p.bytes, y, by simp [e], by simp [hx]⟩

theorem cons_flat {b : Bytes} {o : Nat} {p : Piece} {ps : List Piece} (h : OccursAt b o p.bytes)
    (h' : OccursAt b (o + p.bytes.length) (ps.flatMap Piece.bytes)) :
    OccursAt b o ((p :: ps).flatMap Piece.bytes) := by
  obtain ⟨x, y, e, hx⟩ := h
  obtain ⟨x', y', e', hx'⟩ := h'
  refine ⟨x, y', ?_, hx⟩
  have e2 : (x ++ p.bytes) ++ y = x' ++ (ps.flatMap Piece.bytes ++ y') := by
    rw [← e, e', List.append_assoc]
  obtain ⟨rfl, -⟩ := List.append_inj e2 (by simp [hx, hx'])
  rw [e', List.flatMap_cons]
  simp

theorem end_decodes (oc : Bool) (v : SmbiosVersion) {p : Piece} (hk : p.kind = 127) :
    decodeStructure oc (p.raw v) = .ok (.Other (p.raw v)) := by
  have hi : (p.raw v).info = .End := by
    show InfoType.ofU8 p.kind = _
    rw [hk]; rfl
  unfold decodeStructure
  rw [hi]

theorem flawless_from {oc v n b o items stop} (h : Reading oc v n b o items stop) :
    ∀ xs : List Structure, items = xs.map .ok → stop = .ended → ∃ ps : List Piece,
      (∀ p ∈ ps, p.WF) ∧ (ps = [] ∨ OccursAt b o (ps.flatMap Piece.bytes)) ∧ EndBefore n o ps ∧
      StopsAfter v n o ps ∧ Decoded oc v ps (xs.map .ok) := by
  induction h with
  | done h =>
    intro xs hx _
    have : xs = [] := List.map_eq_nil_iff.1 hx.symm
    subst this
    exact ⟨[], (fun _ h => nomatch h), .inl rfl, endBefore_nil, .inl ⟨by simpa using h, .inr nofun⟩, .nil⟩
  | header | beyond | small | panics | reads => intro _ _ h; cases h
  | size => intro xs hx; cases xs <;> cases hx
  | strings => intro xs hx; cases xs <;> cases hx
  | @last o p hp hn hv hk =>
    intro xs hx _
    refine ⟨[p], fun q hq => List.mem_singleton.1 hq ▸ hp.1, .inr (by simpa using hp.2), ?_,
      .inr ⟨hv, [], p, rfl, hk, nofun⟩, ?_⟩
    · exact endBefore_cons.2 ⟨hn, endBefore_nil⟩
    · rw [← hx]
      exact .cons (by rw [end_decodes oc v hk]; rfl) .nil
  | @item o p i items stop hp hn hk hi ht ih =>
    intro xs hx hs
    cases xs with
    | nil => cases hx
    | cons x xs =>
    rw [List.map_cons, List.cons.injEq] at hx
    obtain ⟨rfl, hx⟩ := hx
    obtain ⟨ps, hw, hq, hb, hz, hd⟩ := ih xs hx hs
    refine ⟨p :: ps, ?_, .inr ?_, endBefore_cons.2 ⟨hn, hb⟩, (stopsAfter_cons hk).2 hz, .cons ?_ hd⟩
    · intro q hq
      rcases List.mem_cons.1 hq with rfl | hq
      · exact hp.1
      · exact hw q hq
    · rcases hq with rfl | hq
      · simpa using hp.2
      · exact cons_flat hp.2 hq
    · rw [show decodeStructure oc (p.raw v) = .ok x from hi]; rfl

theorem flawless_to {oc v n b} : ∀ (ps : List Piece) (o : Nat) (xs : List Structure), (∀ p ∈ ps, p.WF) →
    (ps = [] ∨ OccursAt b o (ps.flatMap Piece.bytes)) → EndBefore n o ps → StopsAfter v n o ps →
    Decoded oc v ps (xs.map .ok) → Reading oc v n b o (xs.map .ok) .ended := by
  intro ps
  induction ps with
  | nil =>
    intro o xs _ _ _ hz hd
    cases xs with
    | cons => cases hd
    | nil =>
    rcases hz with ⟨h, -⟩ | ⟨-, a, e, he, -⟩
    · exact .done (by simpa using h)
    · cases a <;> cases he
  | cons p ps ih =>
    intro o xs hw hq hb hz hd
    cases xs with
    | nil => cases hd
    | cons x xs =>
    cases hd with | cons h hd =>
    have hq := flat_cons (hq.resolve_left nofun)
    rw [endBefore_cons] at hb
    have hp : PieceAt b o p := ⟨hw p List.mem_cons_self, hq.1⟩
    have hx := ok_of_item h
    by_cases hk : v.major.toNat < 3 ∨ p.kind ≠ 127
    · exact .item hp hb.1 hk hx (ih _ xs (fun q h => hw q (List.mem_cons_of_mem _ h)) (.inr hq.2) hb.2
        ((stopsAfter_cons hk).1 hz) hd)
    · have hv : 3 ≤ v.major.toNat := Nat.le_of_not_lt fun h => hk (.inl h)
      have hk : p.kind = 127 := Classical.byContradiction fun h => hk (.inr h)
      have hps : ps = [] := by
        rcases hz with ⟨-, h | h⟩ | ⟨-, a, e, he, -, ha⟩
        · omega
        · exact absurd hk (h p List.mem_cons_self)
        · cases a with
          | nil => cases he; rfl
          | cons p' a =>
            rw [List.cons_append, List.cons.injEq] at he
            exact absurd (he.1 ▸ hk) (ha p' List.mem_cons_self)
      subst hps
      have hxs : xs = [] := by cases xs with | nil => rfl | cons => cases hd
      subst hxs
      rw [end_decodes oc v hk] at hx
      cases hx
      exact .last hp hb.1 hv hk

/-- C113: iterating over a table gives the values `xs` and then ends exactly if the table begins with structures that
are decoded to these values, each of which ends in time, and nothing more is to be read. -/
theorem C113_values (oc : Bool) (v : SmbiosVersion) (n : UInt32) (b : Bytes) (hb : b.length + 256 ≤ 2 ^ 32)
    (xs : List Structure) :
    CollectsR (Structures.next oc) ⟨v, n, 0, b⟩ (xs.map .ok) ↔ ∃ ps : List Piece, (∀ p ∈ ps, p.WF) ∧
      ps.flatMap Piece.bytes <+: b ∧ EndBefore n.toNat 0 ps ∧ StopsAfter v n.toNat 0 ps ∧
      Decoded oc v ps (xs.map .ok) := by
  rw [C109_ended oc v n b hb]
  constructor
  · intro h
    obtain ⟨ps, hw, hq, r⟩ := flawless_from h xs rfl rfl
    refine ⟨ps, hw, ?_, r⟩
    rcases hq with rfl | ⟨x, y, e, hx⟩
    · exact List.nil_prefix
    · rw [List.length_eq_zero_iff.1 hx] at e
      exact ⟨y, e.symm⟩
  · rintro ⟨ps, hw, ⟨y, e⟩, hb, hz, hd⟩
    exact flawless_to ps 0 xs hw (.inr ⟨[], y, e.symm, rfl⟩) hb hz hd

/-- None of the conditions under which a structure is not decoded holds. -/
def Untroubled (oc : Bool) (v : SmbiosVersion) (p : Piece) : Prop := ∀ c ∈ troubles oc (p.raw v), ¬ c.1

theorem sound_decoded {oc v} : ∀ {ps : List Piece}, (∀ p ∈ ps, p.WF) →
    ((∃ xs : List Structure, Decoded oc v ps (xs.map .ok)) ↔ ∀ p ∈ ps, Untroubled oc v p) := by
  intro ps
  induction ps with
  | nil => exact fun _ => ⟨fun _ => nofun, fun _ => ⟨[], .nil⟩⟩
  | cons p ps ih =>
    intro hw
    have ih := ih fun q hq => hw q (List.mem_cons_of_mem _ hq)
    have one := C107_accepts oc (p.raw v) (piece_coherent p v (hw p List.mem_cons_self))
    constructor
    · rintro ⟨xs, hd⟩ q hq
      cases xs with
      | nil => cases hd
      | cons x xs =>
      cases hd with | cons h hd =>
      rcases List.mem_cons.1 hq with rfl | hq
      · exact one.1 ⟨x, ok_of_item h⟩
      · exact ih.1 ⟨xs, hd⟩ q hq
    · intro h
      obtain ⟨x, hx⟩ := one.2 (h p List.mem_cons_self)
      obtain ⟨xs, hd⟩ := ih.2 fun q hq => h q (List.mem_cons_of_mem _ hq)
      exact ⟨x :: xs, .cons (by rw [hx]; rfl) hd⟩

/-- C113: a table is read to its end without an error, panic or read out of bounds exactly if it begins with sound
structures, each of which ends in time, and nothing more is to be read. -/
theorem C113_flawless (oc : Bool) (v : SmbiosVersion) (n : UInt32) (b : Bytes) (hb : b.length + 256 ≤ 2 ^ 32) :
    (∃ xs : List Structure, CollectsR (Structures.next oc) ⟨v, n, 0, b⟩ (xs.map .ok)) ↔
      ∃ ps : List Piece, (∀ p ∈ ps, p.WF ∧ Untroubled oc v p) ∧ ps.flatMap Piece.bytes <+: b ∧
        EndBefore n.toNat 0 ps ∧ StopsAfter v n.toNat 0 ps := by
  constructor
  · rintro ⟨xs, h⟩
    obtain ⟨ps, hw, hp, he, hz, hd⟩ := (C113_values oc v n b hb xs).1 h
    exact ⟨ps, fun p h => ⟨hw p h, (sound_decoded hw).1 ⟨xs, hd⟩ p h⟩, hp, he, hz⟩
  · rintro ⟨ps, hs, hp, he, hz⟩
    have hw : ∀ p ∈ ps, p.WF := fun p h => (hs p h).1
    obtain ⟨xs, hd⟩ := (sound_decoded hw).2 fun p h => (hs p h).2
    exact ⟨xs, (C113_values oc v n b hb xs).2 ⟨ps, hw, hp, he, hz, hd⟩⟩

/-- Two structures, with bytes behind the declared length. -/
example : CollectsR (Structures.next true) ⟨⟨2, 8⟩, 23, 0, oneTable.flatMap Piece.bytes ++ [1, 2]⟩
    (theirValues.map .ok) := by
  refine (C113_values true ⟨2, 8⟩ 23 _ (by decide +kernel) _).2 ⟨oneTable, ?_, ⟨[1, 2], rfl⟩, ?_, ?_,
    .cons rfl (.cons rfl .nil)⟩
  · intro p hp
    simp only [oneTable, List.mem_cons, List.not_mem_nil, or_false] at hp
    rcases hp with rfl | rfl <;> exact ⟨by decide, endsAtFirst_nil⟩
  · exact endBefore_cons.2 ⟨by decide, endBefore_cons.2 ⟨by decide, endBefore_nil⟩⟩
  · exact .inl ⟨by decide +kernel, .inl (by decide)⟩

example : StopsAfter ⟨3, 0⟩ 1000 0 [⟨200, 2, [], [0, 0]⟩, ⟨127, 3, [], [0, 0]⟩] :=
  .inr ⟨by decide, [⟨200, 2, [], [0, 0]⟩], ⟨127, 3, [], [0, 0]⟩, rfl, rfl, fun p hp => by
    rw [List.mem_singleton.1 hp]; decide⟩

example : Untroubled true ⟨2, 8⟩ ⟨200, 2, [], [0, 0]⟩ ∧
    ¬ Untroubled true ⟨2, 8⟩ ⟨21, 0, [3, 4], [0, 0]⟩ :=
  ⟨(C107_accepts true _ (by decide)).1 ⟨_, rfl⟩, fun h => by
    obtain ⟨v, hv⟩ := (C107_accepts true _ (by decide)).2 h
    cases hv⟩

end Dmi.Props
