import Verif.Proofs.Decode
import Verif.Proofs.Flat
import Verif.Props.Table
/-!
# C85: a longer table only adds

The same table is read twice, once cut off: of the buffer, of the declared length, or of both only a
first part is given. What is reported for the part is what is reported first for the whole, except
that a last item may complain about the cut.
-/
namespace Dmi.Props
open Spec

/-- `t` reads the same table as `s`, from the same place, but has more of it. -/
structure Grown (s t : Structures) : Prop where
  version : t.smbios_version = s.smbios_version
  idx : t.idx = s.idx
  len : s.smbios_len ≤ t.smbios_len
  buffer : s.buffer <+: t.buffer

/-- The two errors of a table that is cut off. -/
def CutOff (e : MalformedStructureError) : Prop :=
  (∃ i l, e = .BadSize i l) ∨ ∃ i, e = .UnterminatedStrings i

theorem indexFrom_grown {ε : Type} {b c w : Bytes} {i : Nat}
    (h : (indexFrom b i : Res ε Bytes) = .ok w) : (indexFrom (b ++ c) i : Res ε Bytes) = .ok (w ++ c) := by
  unfold indexFrom getFrom at *
  by_cases hi : i ≤ b.length
  · rw [if_pos hi] at h
    injection h with h
    rw [if_pos (by rw [List.length_append]; omega), List.drop_append_of_le_length hi, h]
  · rw [if_neg hi] at h
    cases h

theorem indexRange_grown {ε : Type} {b c w : Bytes} {i j : Nat}
    (h : (indexRange b i j : Res ε Bytes) = .ok w) : (indexRange (b ++ c) i j : Res ε Bytes) = .ok w := by
  unfold indexRange getRange at *
  by_cases hi : i ≤ j ∧ j ≤ b.length
  · rw [if_pos hi] at h
    injection h with h
    rw [if_pos ⟨hi.1, by rw [List.length_append]; omega⟩, ← h, List.drop_append_of_le_length (by omega),
      List.take_append_of_le_length (by rw [List.length_drop]; omega)]
  · rw [if_neg hi] at h
    cases h

theorem header_grown {ε : Type} {w c : Bytes} {x : HeaderPacked}
    (h : (letAsStruct HeaderPacked.packed w : Res ε _) = .ok x) :
    (letAsStruct HeaderPacked.packed (w ++ c) : Res ε _) = .ok x := by
  have hm : HeaderPacked.packed.Mono := by unfold HeaderPacked.packed; packed_mono
  unfold letAsStruct at *
  cases e : HeaderPacked.packed w with
  | none => rw [e] at h; cases h
  | some y =>
    rw [e] at h
    rw [hm w c y.1 y.2 e]
    exact h

theorem findNulNul_grown : ∀ {b c : Bytes} {k : Nat}, findNulNul b = some k →
    findNulNul (b ++ c) = some k
  | [], _, _, h => nomatch h
  | [_], _, _, h => nomatch h
  | x :: y :: t, c, k, h => by
    rw [findNulNul] at h
    rw [List.cons_append, List.cons_append, findNulNul]
    by_cases hz : x = 0 ∧ y = 0
    · rw [if_pos hz] at h ⊢
      exact h
    · rw [if_neg hz] at h ⊢
      obtain ⟨m, hm, rfl⟩ := Option.map_eq_some_iff.1 h
      rw [← List.cons_append, findNulNul_grown hm]
      rfl

/-- A structure split off stays the same. -/
theorem next_raw_grown {oc : Bool} {s t s1 : Structures} {r : RawStructure} (g : Grown s t)
    (h : s.next_raw oc = .ok (some (.ok r), s1)) :
    t.next_raw oc = .ok (some (.ok r), { t with idx := s1.idx }) ∧ s1 = { s with idx := s1.idx } := by
  obtain ⟨v, n, i, b⟩ := s
  obtain ⟨v', n', i', b'⟩ := t
  obtain ⟨hv, hi, hn, c, hc⟩ := g
  simp only at hv hi hn hc
  subst hv hi hc
  unfold Structures.next_raw at h ⊢
  obtain ⟨he, e1, h⟩ := bind_ok_iff.1 h
  simp only [e1, ok_bind]
  split at h
  · cases h
  · rename_i c1
    obtain ⟨w, e2, h⟩ := bind_ok_iff.1 h
    obtain ⟨x, e3, h⟩ := bind_ok_iff.1 h
    obtain ⟨si, e4, h⟩ := bind_ok_iff.1 h
    rw [if_neg fun k => c1 (UInt32.lt_of_le_of_lt hn k)]
    simp only [indexFrom_grown e2, ok_bind, header_grown e3, e4]
    split at h
    · cases h
    · rename_i c2
      rw [if_neg fun k => c2 (UInt32.le_trans hn k)]
      obtain ⟨u, e5, h⟩ := bind_ok_iff.1 h
      simp only [indexFrom_grown e5, ok_bind]
      split at h
      · cases h
      · rename_i k e6
        simp only [findNulNul_grown e6]
        obtain ⟨a1, e7, h⟩ := bind_ok_iff.1 h
        obtain ⟨a2, e8, h⟩ := bind_ok_iff.1 h
        obtain ⟨a3, e9, h⟩ := bind_ok_iff.1 h
        obtain ⟨a4, e10, h⟩ := bind_ok_iff.1 h
        obtain ⟨a5, e11, h⟩ := bind_ok_iff.1 h
        simp only [pure_eq_ok, Res.ok.injEq, Prod.mk.injEq, Option.some.injEq, Except.ok.injEq] at h
        obtain ⟨rfl, rfl⟩ := h
        obtain rfl : he = a1 := Res.ok.inj (e1.symm.trans e7)
        obtain rfl : a3 = a5 := Res.ok.inj (e9.symm.trans e11)
        simp only [e9, ok_bind, indexRange_grown e8, indexRange_grown e10]
        exact ⟨rfl, trivial⟩

theorem next_raw_error {oc : Bool} {s s1 : Structures} {e}
    (h : s.next_raw oc = .ok (some (.error e), s1)) : CutOff e := by
  unfold Structures.next_raw at h
  obtain ⟨_, -, h⟩ := bind_ok_iff.1 h
  split at h
  · cases h
  · obtain ⟨_, -, h⟩ := bind_ok_iff.1 h
    obtain ⟨_, -, h⟩ := bind_ok_iff.1 h
    obtain ⟨_, -, h⟩ := bind_ok_iff.1 h
    split at h
    · cases h
      exact .inl ⟨_, _, rfl⟩
    · obtain ⟨_, -, h⟩ := bind_ok_iff.1 h
      split at h
      · cases h
        exact .inr ⟨_, rfl⟩
      · obtain ⟨_, -, h⟩ := bind_ok_iff.1 h
        obtain ⟨_, -, h⟩ := bind_ok_iff.1 h
        obtain ⟨_, -, h⟩ := bind_ok_iff.1 h
        obtain ⟨_, -, h⟩ := bind_ok_iff.1 h
        obtain ⟨_, -, h⟩ := bind_ok_iff.1 h
        cases h

theorem next_grown {oc : Bool} {s t s1 : Structures} {item} (hb : s.buffer.length < 2 ^ 32)
    (g : Grown s t) (h : s.next oc = .ok (some item, s1)) :
    (∃ t1, t.next oc = .ok (some item, t1) ∧ Grown s1 t1) ∨
    (∃ e, item = .error e ∧ CutOff e ∧ s1.next oc = .ok (none, s1)) := by
  have h' := h
  unfold Structures.next at h
  obtain ⟨⟨o, s2⟩, e1, h⟩ := bind_ok_iff.1 h
  cases o with
  | none => cases h
  | some x =>
    cases x with
    | error e =>
      refine .inr ⟨e, ?_, next_raw_error e1, (C09_error_final oc s _ s1 e item hb e1 h').2⟩
      cases h; rfl
    | ok r =>
      left
      obtain ⟨e2, e3⟩ := next_raw_grown g e1
      unfold Structures.next
      rw [e2, ok_bind]
      simp only at h ⊢
      obtain ⟨it, e4, h⟩ := bind_ok_iff.1 h
      rw [e4, ok_bind]
      simp only [pure_eq_ok, Res.ok.injEq, Prod.mk.injEq, Option.some.injEq] at h
      obtain ⟨rfl, rfl⟩ := h
      refine ⟨_, rfl, ?_⟩
      rw [e3]
      simp only [g.version]
      split
      · exact ⟨rfl, rfl, Nat.le_refl _, g.buffer⟩
      · exact ⟨rfl, rfl, g.len, g.buffer⟩

theorem runs_grown {oc : Bool} {s t s' : Structures} {items} (hb : s.buffer.length < 2 ^ 32)
    (g : Grown s t) (h : Runs oc s items s') :
    (∃ t', Runs oc t items t' ∧ Grown s' t') ∨
    ∃ items' e t', items = items' ++ [.error e] ∧ CutOff e ∧ Runs oc t items' t' := by
  induction h generalizing t with
  | nil => exact .inl ⟨t, .nil _, g⟩
  | @cons s item s1 items s' h r ih =>
    obtain ⟨t1, h1, g1⟩ | ⟨e, rfl, hc, hn⟩ := next_grown hb g h
    · have hb' := (runs_buffer (by omega) (Runs.cons h (.nil _))).1
      obtain ⟨t2, h2, g2⟩ | ⟨items', e, t2, rfl, hc, h2⟩ := ih (by rw [hb']; exact hb) g1
      · exact .inl ⟨t2, .cons h1 h2, g2⟩
      · exact .inr ⟨_ :: items', e, t2, rfl, hc, .cons h1 h2⟩
    · cases r with
      | nil => exact .inr ⟨[], e, t, rfl, hc, .nil _⟩
      | cons h2 _ => rw [hn] at h2; cases h2

/-- A run is the beginning of the complete iteration. -/
theorem runs_prefix {oc : Bool} {s s' : Structures} {items all} (h : Runs oc s items s')
    (ha : CollectsR (Structures.next oc) s all) : items <+: all := by
  induction h generalizing all with
  | nil => exact List.nil_prefix
  | cons h _ ih =>
    cases ha with
    | done h' => rw [h] at h'; cases h'
    | step h' r =>
      rw [h] at h'
      cases h'
      exact List.cons_prefix_cons.2 ⟨rfl, ih r⟩

/-- C85: what a part of a table yields, in any run, is what the whole yields first; only the last
item may be an error about the cut. -/
theorem C85_cut {oc : Bool} {s s' t : Structures} {items all} (hb : s.buffer.length < 2 ^ 32)
    (hv : t.smbios_version = s.smbios_version) (hi : t.idx = s.idx) (hn : s.smbios_len ≤ t.smbios_len)
    (hc : s.buffer <+: t.buffer) (h : Runs oc s items s')
    (ha : CollectsR (Structures.next oc) t all) :
    items <+: all ∨ ∃ items' e, items = items' ++ [.error e] ∧ CutOff e ∧ items' <+: all := by
  obtain ⟨t', r, -⟩ | ⟨items', e, t', rfl, hc, r⟩ := runs_grown hb ⟨hv, hi, hn, hc⟩ h
  · exact .inl (runs_prefix r ha)
  · exact .inr ⟨items', e, rfl, hc, runs_prefix r ha⟩

/-- The same without a complete iteration over the whole, which may crash later on. -/
theorem C85_runs {oc : Bool} {s s' t : Structures} {items} (hb : s.buffer.length < 2 ^ 32)
    (hv : t.smbios_version = s.smbios_version) (hi : t.idx = s.idx) (hn : s.smbios_len ≤ t.smbios_len)
    (hc : s.buffer <+: t.buffer) (h : Runs oc s items s') :
    (∃ t', Runs oc t items t') ∨
    ∃ items' e t', items = items' ++ [.error e] ∧ CutOff e ∧ Runs oc t items' t' := by
  obtain ⟨t', r, -⟩ | h := runs_grown hb ⟨hv, hi, hn, hc⟩ h
  · exact .inl ⟨t', r⟩
  · exact .inr h

/-- The end of the table and a structure beyond it are told by the declared length alone. -/
theorem next_raw_same {oc : Bool} {s t s1 : Structures} {o} (g : Grown s t)
    (hn : t.smbios_len = s.smbios_len) (h : s.next_raw oc = .ok (o, s1))
    (hu : ∀ i, o ≠ some (.error (.UnterminatedStrings i))) :
    t.next_raw oc = .ok (o, { t with idx := s1.idx }) ∧ s1 = { s with idx := s1.idx } := by
  obtain _ | _ | r := o
  · obtain ⟨v, n, i, b⟩ := s
    obtain ⟨v', n', i', b'⟩ := t
    obtain ⟨hv, hi, -, c, hc⟩ := g
    simp only at hv hi hn hc
    subst hv hi hn hc
    unfold Structures.next_raw at h ⊢
    obtain ⟨he, e1, h⟩ := bind_ok_iff.1 h
    simp only [e1, ok_bind]
    split at h
    · rename_i c1
      cases h
      rw [if_pos c1]
      exact ⟨rfl, rfl⟩
    · exfalso
      obtain ⟨_, -, h⟩ := bind_ok_iff.1 h
      obtain ⟨_, -, h⟩ := bind_ok_iff.1 h
      obtain ⟨_, -, h⟩ := bind_ok_iff.1 h
      split at h
      · cases h
      · obtain ⟨_, -, h⟩ := bind_ok_iff.1 h
        split at h
        · cases h
        · obtain ⟨_, -, h⟩ := bind_ok_iff.1 h
          obtain ⟨_, -, h⟩ := bind_ok_iff.1 h
          obtain ⟨_, -, h⟩ := bind_ok_iff.1 h
          obtain ⟨_, -, h⟩ := bind_ok_iff.1 h
          obtain ⟨_, -, h⟩ := bind_ok_iff.1 h
          cases h
  · rename_i e
    obtain ⟨v, n, i, b⟩ := s
    obtain ⟨v', n', i', b'⟩ := t
    obtain ⟨hv, hi, -, c, hc⟩ := g
    simp only at hv hi hn hc
    subst hv hi hn hc
    unfold Structures.next_raw at h ⊢
    obtain ⟨he, e1, h⟩ := bind_ok_iff.1 h
    simp only [e1, ok_bind]
    split at h
    · cases h
    · rename_i c1
      obtain ⟨w, e2, h⟩ := bind_ok_iff.1 h
      obtain ⟨x, e3, h⟩ := bind_ok_iff.1 h
      obtain ⟨si, e4, h⟩ := bind_ok_iff.1 h
      rw [if_neg c1]
      simp only [indexFrom_grown e2, ok_bind, header_grown e3, e4]
      split at h
      · rename_i c2
        cases h
        rw [if_pos c2]
        exact ⟨rfl, rfl⟩
      · exfalso
        obtain ⟨_, -, h⟩ := bind_ok_iff.1 h
        split at h
        · cases h
          exact hu _ rfl
        · obtain ⟨_, -, h⟩ := bind_ok_iff.1 h
          obtain ⟨_, -, h⟩ := bind_ok_iff.1 h
          obtain ⟨_, -, h⟩ := bind_ok_iff.1 h
          obtain ⟨_, -, h⟩ := bind_ok_iff.1 h
          obtain ⟨_, -, h⟩ := bind_ok_iff.1 h
          cases h
  · exact next_raw_grown g h

theorem next_same {oc : Bool} {s t s1 : Structures} {o} (g : Grown s t)
    (hn : t.smbios_len = s.smbios_len) (h : s.next oc = .ok (o, s1))
    (hu : ∀ i, o ≠ some (.error (.UnterminatedStrings i))) :
    ∃ t1, t.next oc = .ok (o, t1) ∧ Grown s1 t1 ∧ t1.smbios_len = s1.smbios_len := by
  unfold Structures.next at h
  obtain ⟨⟨x, s2⟩, e1, h⟩ := bind_ok_iff.1 h
  have hx : ∀ i, x ≠ some (.error (.UnterminatedStrings i)) := by
    rintro i rfl
    cases h
    exact hu i rfl
  obtain ⟨e2, e3⟩ := next_raw_same g hn e1 hx
  unfold Structures.next
  rw [e2, ok_bind]
  obtain _ | _ | r := x
  · cases h
    exact ⟨_, rfl, by rw [e3]; exact ⟨g.version, rfl, g.len, g.buffer⟩, by rw [e3]; exact hn⟩
  · cases h
    exact ⟨_, rfl, by rw [e3]; exact ⟨g.version, rfl, Nat.le_refl _, g.buffer⟩, rfl⟩
  · simp only at h ⊢
    obtain ⟨it, e4, h⟩ := bind_ok_iff.1 h
    rw [e4, ok_bind]
    simp only [pure_eq_ok, Res.ok.injEq, Prod.mk.injEq] at h
    obtain ⟨rfl, rfl⟩ := h
    refine ⟨_, rfl, ?_⟩
    rw [e3]
    simp only [g.version]
    split
    · exact ⟨⟨rfl, rfl, Nat.le_refl _, g.buffer⟩, rfl⟩
    · exact ⟨⟨rfl, rfl, g.len, g.buffer⟩, hn⟩

/-- C85: bytes behind the buffer add nothing if the declared length is the same and no string area
was cut. -/
theorem C85_behind {oc : Bool} {s t : Structures} {items}
    (hv : t.smbios_version = s.smbios_version) (hi : t.idx = s.idx) (hn : t.smbios_len = s.smbios_len)
    (hc : s.buffer <+: t.buffer) (h : CollectsR (Structures.next oc) s items)
    (hu : ∀ i, .error (.UnterminatedStrings i) ∉ items) :
    CollectsR (Structures.next oc) t items := by
  have g : Grown s t := ⟨hv, hi, hn ▸ Nat.le_refl _, hc⟩
  clear hv hi hc
  induction h generalizing t with
  | done h =>
    obtain ⟨t1, h1, -⟩ := next_same g hn h nofun
    exact .done h1
  | step h _ ih =>
    obtain ⟨t1, h1, g1, n1⟩ := next_same g hn h fun i e => hu i (by cases e; exact .head _)
    exact .step h1 (ih n1 (fun i k => hu i (.tail _ k)) g1)

/-! ### Examples -/

/-- Two structures. -/
def twoPieces : Bytes := [200, 4, 1, 0, 0, 0, 200, 5, 2, 0, 9, 65, 0, 0]

/-- Cut in the string area, in the declared length, and not at all. -/
example : CollectsR (Structures.next true) ⟨⟨2, 8⟩, 14, 0, twoPieces.take 12⟩
      [.ok (.Other ⟨⟨2, 8⟩, .Oem 200, 4, 1, [], [0, 0]⟩), .error (.UnterminatedStrings 6)] ∧
    CollectsR (Structures.next true) ⟨⟨2, 8⟩, 10, 0, twoPieces⟩
      [.ok (.Other ⟨⟨2, 8⟩, .Oem 200, 4, 1, [], [0, 0]⟩), .error (.BadSize 6 5)] ∧
    CollectsR (Structures.next true) ⟨⟨2, 8⟩, 14, 0, twoPieces⟩
      [.ok (.Other ⟨⟨2, 8⟩, .Oem 200, 4, 1, [], [0, 0]⟩),
        .ok (.Other ⟨⟨2, 8⟩, .Oem 200, 5, 2, [9], [65, 0, 0]⟩)] := by
  refine ⟨.step rfl (.step rfl (.done rfl)), .step rfl (.step rfl (.done rfl)),
    .step rfl (.step rfl (.done rfl))⟩

/-- The hypotheses hold of the part and the whole. -/
example : (10 : UInt32) ≤ 14 ∧ twoPieces.take 12 <+: twoPieces := ⟨by decide, List.take_prefix _ _⟩

end Dmi.Props
