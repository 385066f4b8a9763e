import Verif.Proofs.Bitfield
import Verif.Model.Layouts
/-!
# C24–C28: bit fields
-/
namespace Dmi.Props
open Spec bitfield

/-- The bit field types of the crate: name, number of bits of the value type, layout. -/
def crateLayouts : List (String × Nat × Layout) := [
  ("bios::Characteristics", 64, bios.Characteristics.LAYOUT),
  ("bios::CharacteristicsExtension1", 8, bios.CharacteristicsExtension1.LAYOUT),
  ("bios::CharacteristicsExtension2", 8, bios.CharacteristicsExtension2.LAYOUT),
  ("system_slots::SlotCharacteristics1", 8, system_slots.SlotCharacteristics1.LAYOUT),
  ("system_slots::SlotCharacteristics2", 8, system_slots.SlotCharacteristics2.LAYOUT),
  ("bios_language::LanguageFlags", 8, bios_language.LanguageFlags.LAYOUT),
  ("system_event_log::LogStatus", 8, system_event_log.LogStatus.LAYOUT),
  ("system_event_log::PostResults", 64, system_event_log.PostResults.LAYOUT)]

/-! ### C24 -/

/-- C24: `iter()` yields one flag per bit in order, with the bit's value and description. -/
theorem C24_iter (oc : Bool) (w v : Nat) (l : Layout) (hw : w ≤ 128) (hl : w ≤ l.length) :
    CollectsR (Iter.next oc) (Iter.new w v l) ((List.range w).map (flag v l)) := by
  have := iter_collects oc w (Iter.new w v l) (by simp [Iter.new]) hw hl
  rwa [List.range_eq_range']

/-- Calls of `next` yielding the given items lead from one state to another. -/
inductive IterRuns (oc : Bool) : Iter → List Flag → Iter → Prop
  | nil (s) : IterRuns oc s [] s
  | cons {s s' s'' f l} (h : s.next oc = .ok (some f, s')) (t : IterRuns oc s' l s'') :
      IterRuns oc s (f :: l) s''

/-- C24: after the last flag `None` forever. -/
theorem C24_then_none (oc : Bool) (w v : Nat) (l : Layout) (hw : w ≤ 128) (hl : w ≤ l.length)
    (s : Iter) (h : IterRuns oc (Iter.new w v l) ((List.range w).map (flag v l)) s) :
    s.next oc = .ok (none, s) := by
  have key : ∀ k (it s : Iter) fs, it.index + k = it.width → it.width ≤ 128 →
      it.width ≤ it.layout.length → fs.length = k → IterRuns oc it fs s → s.index = s.width := by
    intro k
    induction k with
    | zero =>
      intro it s fs h1 _ _ h2 h
      cases h with
      | nil => omega
      | cons => simp at h2
    | succ k ih =>
      intro it s fs h1 h3 h4 h2 h
      cases h with
      | nil => simp at h2
      | cons hn t =>
        rw [Iter.next_lt oc it (by omega) h3 h4] at hn
        cases hn
        exact ih { it with index := it.index + 1 } s _ (by simp only; omega) h3 h4 (by simpa using h2) t
  exact Iter.next_end oc s (key w _ s _ (by simp [Iter.new]) hw hl (by simp) h)

/-- C24: with a layout that is too short (none in the crate) iteration panics at the first bit
without description. -/
theorem C24_short_layout_panics (oc : Bool) (it : Iter) (h : it.layout.length ≤ it.index)
    (hi : it.index < it.width) (hw : it.width ≤ 128) : it.next oc = .panic := by
  unfold Iter.next
  rw [if_neg (by omega)]
  have hget : it.layout[it.index]? = none := List.getElem?_eq_none h
  have hadd : addUsize (ε := Empty) oc it.index 1 = .ok (it.index + 1) := by
    rw [addUsize_host64, if_pos (by omega)]
  simp only [Bind.bind, Res.bind, shlOne_ok oc (show it.index < 128 by omega), hadd, hget]

example : (8 ≤ 128) ∧ 8 ≤ bios.CharacteristicsExtension1.LAYOUT.length := by decide

/-! ### C25 -/

/-- C25: `significants()` yields in ascending order the flags of the bits that are set and not
described as reserved. -/
theorem C25_significants (oc : Bool) (w v : Nat) (l : Layout) (hw : w ≤ 128) (hl : w ≤ l.length) :
    ∃ ps : List Nat, CollectsR (Significants.next oc) (Iter.new w v l) (ps.map (flag v l)) ∧
      ps.Pairwise (· < ·) ∧
      ∀ i, i ∈ ps ↔ i < w ∧ v.testBit i = true ∧ ∀ d, ¬ ReservedAs l i d := by
  refine ⟨(List.range w).filter (Significant v l), ?_, ?_, ?_⟩
  · have := significants_collects oc w (Iter.new w v l) (by simp [Iter.new]) hw hl
    rwa [List.range_eq_range']
  · exact List.Pairwise.filter _ List.pairwise_lt_range
  · intro i
    rw [List.mem_filter, List.mem_range, Significant, Bool.and_eq_true, Bool.not_eq_true']
    have : i < w → ((l.getD i .Unknown).isReserved = false ↔ ∀ d, ¬ ReservedAs l i d) := by
      intro hi
      have hget : l[i]? = some l[i] := List.getElem?_eq_getElem (by omega)
      simp only [List.getD, hget, Option.getD, ReservedAs, Option.some.injEq]
      cases l[i] <;> simp [FlagType.isReserved]
    constructor
    · rintro ⟨h1, h2, h3⟩; exact ⟨h1, h2, (this h1).1 h3⟩
    · rintro ⟨h1, h2, h3⟩; exact ⟨h1, h2, (this h1).2 h3⟩

/-- Every described bit of the crate's layouts that is not reserved is significant. -/
theorem layouts_described : ∀ x ∈ crateLayouts, x.2.2.length = x.2.1 ∧ x.2.1 ≤ 128 ∧
    ∀ t ∈ x.2.2, t ≠ .Unknown := by decide +kernel

/-- C25: on the crate's layouts these are exactly the bits that are set and significant. -/
theorem C25_crate (oc : Bool) (name : String) (w : Nat) (l : Layout) (v : Nat)
    (h : (name, w, l) ∈ crateLayouts) :
    ∃ ps : List Nat, CollectsR (Significants.next oc) (Iter.new w v l) (ps.map (flag v l)) ∧
      ps.Pairwise (· < ·) ∧
      ∀ i, i ∈ ps ↔ v.testBit i = true ∧ ∃ m d, l[i]? = some (.Significant m d) := by
  obtain ⟨h1, h2, h3⟩ := layouts_described _ h
  simp only at h1 h2 h3
  obtain ⟨ps, a, b, c⟩ := C25_significants oc w v l h2 (by omega)
  refine ⟨ps, a, b, fun i => ?_⟩
  rw [c]
  constructor
  · rintro ⟨hi, hv, hr⟩
    refine ⟨hv, ?_⟩
    have hget : l[i]? = some l[i] := List.getElem?_eq_getElem (by omega)
    cases ht : l[i] with
    | Unknown => exact absurd ht (h3 _ (List.getElem_mem _))
    | Significant m d => exact ⟨m, d, by rw [hget, ht]⟩
    | Reserved d => exact absurd (by rw [ReservedAs, hget, ht]) (hr d)
  · rintro ⟨hv, m, d, ht⟩
    obtain ⟨hi, -⟩ := List.getElem?_eq_some_iff.1 ht
    refine ⟨by omega, hv, fun d' hr => ?_⟩
    rw [ReservedAs, ht] at hr; cases hr

example : ("bios_language::LanguageFlags", 8, bios_language.LanguageFlags.LAYOUT) ∈ crateLayouts := by
  decide +kernel

/-! ### C26 -/

theorem collectsR_unique {ε σ α : Type} {next : σ → Res ε (Option α × σ)} {s : σ} {x y : List α}
    (hx : CollectsR next s x) (hy : CollectsR next s y) : x = y := by
  induction hx generalizing y with
  | done h =>
    cases hy with
    | done => rfl
    | step h' => rw [h] at h'; cases h'
  | step h t ih =>
    cases hy with
    | done h' => rw [h] at h'; cases h'
    | step h' t' =>
      rw [h] at h'; cases h'
      rw [ih t']

theorem fold_positions (oc : Bool) (w : Nat) (ps : List Nat) (acc : Nat) (h : ∀ p ∈ ps, p < w) :
    ∃ n, ps.foldlM (m := Res Empty) (fun acc p => do
        let m ← shlOne oc w p
        pure (acc ||| m)) acc = .ok n ∧
      ∀ i, n.testBit i = true ↔ acc.testBit i = true ∨ i ∈ ps := by
  induction ps generalizing acc with
  | nil => exact ⟨acc, rfl, by simp⟩
  | cons p ps ih =>
    obtain ⟨n, h1, h2⟩ := ih (acc ||| 2 ^ p) (fun q hq => h q (List.mem_cons_of_mem _ hq))
    refine ⟨n, ?_, ?_⟩
    · rw [List.foldlM_cons]
      simp only [Bind.bind, Res.bind, shlOne_ok oc (h p (by simp)), Pure.pure]
      exact h1
    · intro i
      rw [h2, Nat.testBit_or, Nat.testBit_two_pow, List.mem_cons]
      simp only [Bool.or_eq_true, decide_eq_true_eq]
      constructor
      · rintro ((h | h) | h)
        · exact Or.inl h
        · exact Or.inr (Or.inl h.symm)
        · exact Or.inr (Or.inr h)
      · rintro (h | h | h)
        · exact Or.inl (Or.inl h)
        · exact Or.inl (Or.inr h.symm)
        · exact Or.inr h

/-- C26: collecting positions into an integer of `w` bits yields the value whose set bits are exactly
these positions. -/
theorem C26_collect (oc : Bool) (w : Nat) (ps : List Nat) (h : ∀ p ∈ ps, p < w) :
    ∃ n, fromPositions oc w ps = .ok n ∧ n < 2 ^ w ∧ ∀ i, n.testBit i = true ↔ i ∈ ps := by
  obtain ⟨n, h1, h2⟩ := fold_positions oc w ps 0 h
  have h3 : ∀ i, n.testBit i = true ↔ i ∈ ps := by
    intro i; rw [h2]; simp
  refine ⟨n, h1, Nat.lt_pow_two_of_testBit n fun i hi => ?_, h3⟩
  cases ht : n.testBit i with
  | false => rfl
  | true => have := h i ((h3 i).1 ht); omega

/-- C26: collecting the positions of the set flags of a value gives back the value. -/
theorem C26_round_trip (oc oc' : Bool) (w v : Nat) (l : Layout) (hw : w ≤ 128) (hl : w ≤ l.length)
    (hv : v < 2 ^ w) (fs : List Flag) (h : CollectsR (Iter.next oc') (Iter.new w v l) fs) :
    fromPositions oc w ((fs.filter (·.is_set)).map (·.position)) = .ok v := by
  have := collectsR_unique h (C24_iter oc' w v l hw hl)
  subst this
  obtain ⟨n, h1, h2, h3⟩ := C26_collect oc w
    (((((List.range w).map (flag v l))).filter (·.is_set)).map (·.position)) (by
      intro p hp
      simp only [List.mem_map, List.mem_filter, List.mem_range] at hp
      obtain ⟨f, ⟨⟨i, hi, rfl⟩, -⟩, rfl⟩ := hp
      exact hi)
  rw [h1]
  congr 1
  apply Nat.eq_of_testBit_eq
  intro i
  rw [Bool.eq_iff_iff, h3]
  simp only [List.mem_map, List.mem_filter, List.mem_range]
  constructor
  · rintro ⟨f, ⟨⟨j, hj, rfl⟩, hs⟩, rfl⟩
    exact hs
  · intro hi
    refine ⟨flag v l i, ⟨⟨i, ?_, rfl⟩, hi⟩, rfl⟩
    rcases Nat.lt_or_ge i w with h | h
    · exact h
    · rw [Nat.testBit_lt_two_pow (Nat.lt_of_lt_of_le hv (Nat.pow_le_pow_right (by decide) h))] at hi
      cases hi

/-- C26: a position outside the integer panics under overflow checks. -/
theorem C26_too_large (w : Nat) (ps : List Nat) (h : ∃ p ∈ ps, w ≤ p) :
    fromPositions true w ps = .panic := by
  unfold fromPositions
  generalize 0 = acc
  induction ps generalizing acc with
  | nil => obtain ⟨p, hp, -⟩ := h; cases hp
  | cons p ps ih =>
    rw [List.foldlM_cons]
    by_cases hp : p < w
    · simp only [Bind.bind, Res.bind, shlOne_ok true hp, Pure.pure]
      apply ih
      obtain ⟨q, hq, hw⟩ := h
      rcases List.mem_cons.1 hq with rfl | hq
      · omega
      · exact ⟨q, hq, hw⟩
    · simp [Bind.bind, Res.bind, shlOne, hp]

/-- C26: without overflow checks positions count modulo the width of the integer, so that a position
outside sets another bit. -/
theorem C26_wraps (w : Nat) (hw : 0 < w) (ps : List Nat) :
    ∃ n, fromPositions false w ps = .ok n ∧ n < 2 ^ w ∧
      ∀ i, n.testBit i = true ↔ ∃ p ∈ ps, p % w = i := by
  have key : ∀ (ps : List Nat) (acc : Nat), ps.foldlM (m := Res Empty) (fun acc p => do
        let m ← shlOne false w p
        pure (acc ||| m)) acc = (ps.map (· % w)).foldlM (m := Res Empty) (fun acc p => do
        let m ← shlOne false w p
        pure (acc ||| m)) acc := by
    intro ps
    induction ps with
    | nil => intro acc; rfl
    | cons p ps ih =>
      intro acc
      rw [List.map_cons, List.foldlM_cons, List.foldlM_cons]
      have : shlOne false w p = shlOne false w (p % w) := by
        rw [shlOne_ok false (Nat.mod_lt p hw)]
        unfold shlOne
        split
        · rw [Nat.mod_eq_of_lt ‹_›]
        · rfl
      rw [this]
      simp only [Bind.bind, Res.bind, shlOne_ok false (Nat.mod_lt p hw), Pure.pure]
      exact ih _
  obtain ⟨n, h1, h2, h3⟩ := C26_collect false w (ps.map (· % w)) (by
    intro p hp
    obtain ⟨q, -, rfl⟩ := List.mem_map.1 hp
    exact Nat.mod_lt q hw)
  refine ⟨n, ?_, h2, fun i => by rw [h3, List.mem_map]⟩
  rw [← h1]
  exact key ps 0

example : fromPositions false 8 [3, 9] = .ok 0x0a := by decide +kernel
example : ∀ p ∈ [3, 1, 3, 7], p < 8 := by decide
example : fromPositions true 8 [3, 1, 3, 7] = .ok 0x8a := by decide +kernel

/-! ### C27 -/

/-- Full statement of C27; false of the code. -/
def C27_full : Prop := ∀ (oc : Bool) (w v : Nat) (l : Layout), w ≤ 128 → l.length = w →
  ∃ rs, CollectsR (Reserved.next oc) (Reserved.new (Iter.new w v l)) rs ∧
    rs.Pairwise (fun x y => x.start < y.start) ∧
    ∀ x : ReservedRange, x ∈ rs ↔ MaxRun l x.description x.start x.stop

/-- C27, exactly what the code does: the maximal runs in order, with the wrong end 0 for one-bit
runs that directly follow another reserved run. -/
theorem C27_reserved_exact (oc : Bool) (w v : Nat) (l : Layout) (hw : w ≤ 128) (hl : l.length = w) :
    ∃ rs, CollectsR (Reserved.next oc) (Reserved.new (Iter.new w v l)) rs ∧
      rs.Pairwise (fun x y => x.start < y.start) ∧
      ∀ x : ReservedRange, x ∈ rs ↔ ∃ b, MaxRun l x.description x.start b ∧
        ((¬ Squeezed l x.start b ∧ x.stop = b) ∨ (Squeezed l x.start b ∧ x.stop = 0)) := by
  have h1 := reserved_collects oc _ (Reserved.new (Iter.new w v l)) (Nat.le_refl _) hl (Nat.zero_le _) hw
  obtain ⟨h2, h3, -⟩ := ranges_spec l l 0 none rfl (Nat.zero_le _) (by simp [OpenOK])
  refine ⟨_, h1, h3, fun x => ?_⟩
  refine (h2 x).trans ?_
  constructor
  · rintro ⟨d, a, b, hm, ⟨rfl, rfl, hy⟩, -⟩
    exact ⟨b, hm, hy⟩
  · rintro ⟨b, hm, hy⟩
    exact ⟨x.description, x.start, b, hm, ⟨rfl, rfl, hy⟩, Nat.zero_le _⟩

/-- C27 (part that holds): for layouts without one-bit reserved runs squeezed against another reserved
run, the yielded ranges are the maximal runs of reserved bits, in order. -/
theorem C27_reserved_partial (oc : Bool) (w v : Nat) (l : Layout) (hw : w ≤ 128) (hl : l.length = w)
    (hs : ∀ d a, MaxRun l d a a → ¬ Squeezed l a a) :
    ∃ rs, CollectsR (Reserved.next oc) (Reserved.new (Iter.new w v l)) rs ∧
      rs.Pairwise (fun x y => x.start < y.start) ∧
      ∀ x : ReservedRange, x ∈ rs ↔ MaxRun l x.description x.start x.stop := by
  obtain ⟨rs, h1, h2, h3⟩ := C27_reserved_exact oc w v l hw hl
  refine ⟨rs, h1, h2, fun x => ?_⟩
  rw [h3]
  constructor
  · rintro ⟨b, hm, ⟨-, hb⟩ | ⟨hsq, -⟩⟩
    · rwa [hb]
    · have := hsq.1
      subst this
      exact absurd hsq (hs _ _ hm)
  · intro hm
    refine ⟨x.stop, hm, Or.inl ⟨fun hsq => ?_, rfl⟩⟩
    have h := hsq.1
    rw [← h] at hm hsq
    exact hs _ _ hm hsq

/-- C27: no layout of the crate has a squeezed run: adjacent entries reserved for different purposes
are followed by an entry reserved for the same purpose as the second. -/
theorem C27_crate_layouts : ∀ x ∈ crateLayouts, ∀ d a, MaxRun x.2.2 d a a → ¬ Squeezed x.2.2 a a := by
  have hdec : ∀ x ∈ crateLayouts, ∀ a ∈ List.range x.2.2.length, 0 < a →
      (match x.2.2[a - 1]?, x.2.2[a]?, x.2.2[a + 1]? with
       | some (.Reserved d), some (.Reserved d'), t => decide (d = d' ∨ t = some (.Reserved d'))
       | _, _, _ => true) = true := by decide +kernel
  rintro x hx d a hm ⟨-, h0, d', hd'⟩
  have hra := hm.2.1 a (Nat.le_refl _) (Nat.le_refl _)
  have hlt : a < x.2.2.length := (List.getElem?_eq_some_iff.1 hra).1
  have := hdec x hx a (List.mem_range.2 hlt) h0
  unfold ReservedAs at hra hd'
  rw [hra, hd'] at this
  simp only [decide_eq_true_eq] at this
  rcases this with h | h
  · subst h; exact hm.2.2.1 ⟨h0, hd'⟩
  · exact hm.2.2.2 h

/-- C27: so the statement holds for every bit field of the crate. -/
theorem C27_crate (oc : Bool) (name : String) (w v : Nat) (l : Layout)
    (h : (name, w, l) ∈ crateLayouts) :
    ∃ rs, CollectsR (Reserved.next oc) (Reserved.new (Iter.new w v l)) rs ∧
      rs.Pairwise (fun x y => x.start < y.start) ∧
      ∀ x : ReservedRange, x ∈ rs ↔ MaxRun l x.description x.start x.stop := by
  obtain ⟨h1, h2, -⟩ := layouts_described _ h
  exact C27_reserved_partial oc w v l h2 h1 (C27_crate_layouts _ h)

/-- A layout with a single bit "B" between "A" and a significant bit. -/
def squeezedLayout : Layout := [.Significant "S" "S", .Reserved "A", .Reserved "B", .Significant "T" "T"]

/-- The range of "B" is reported as `2..=0`. -/
theorem C27_full_false : ¬ C27_full := by
  intro h
  obtain ⟨rs, h1, -, h3⟩ := h true 4 0 squeezedLayout (by decide) rfl
  have h2 : CollectsR (Reserved.next true) (Reserved.new (Iter.new 4 0 squeezedLayout))
      [⟨"A", 1, 1⟩, ⟨"B", 2, 0⟩] := .step rfl (.step rfl (.done rfl))
  have hb : (⟨"B", 2, 0⟩ : ReservedRange) ∈ rs := by rw [collectsR_unique h1 h2]; simp
  have := ((h3 _).1 hb).1
  simp at this

/-! ### C28 -/

/-- C28: the layouts describe every bit. -/
theorem C28_layouts_complete (name : String) (w : Nat) (l : Layout) (h : (name, w, l) ∈ crateLayouts) :
    l.length = w ∧ ∀ i < w, (∃ m d, l[i]? = some (.Significant m d)) ∨ (∃ d, ReservedAs l i d) := by
  obtain ⟨h1, h2, h3⟩ := layouts_described _ h
  simp only at h1 h2 h3
  refine ⟨h1, fun i hi => ?_⟩
  have hget : l[i]? = some l[i] := List.getElem?_eq_getElem (by omega)
  cases ht : l[i] with
  | Unknown => exact absurd ht (h3 _ (List.getElem_mem _))
  | Significant m d => exact Or.inl ⟨m, d, by rw [hget, ht]⟩
  | Reserved d => exact Or.inr ⟨d, by rw [ReservedAs, hget, ht]⟩

/-- C28: so `iter()` never reports a flag of unknown type, for any value. -/
theorem C28_no_unknown (oc : Bool) (name : String) (w v : Nat) (l : Layout)
    (h : (name, w, l) ∈ crateLayouts) :
    ∃ fs, CollectsR (Iter.next oc) (Iter.new w v l) fs ∧ fs.length = w ∧
      ∀ f ∈ fs, f.type_ ≠ .Unknown := by
  obtain ⟨h1, h2, h3⟩ := layouts_described _ h
  simp only at h1 h2 h3
  refine ⟨_, C24_iter oc w v l h2 (by omega), by simp, ?_⟩
  intro f hf
  obtain ⟨i, hi, rfl⟩ := List.mem_map.1 hf
  have hi := List.mem_range.1 hi
  have hget : l[i]? = some l[i] := List.getElem?_eq_getElem (by omega)
  simp only [flag, List.getD, hget, Option.getD]
  exact h3 _ (List.getElem_mem _)

/-- The hypotheses of `C24_short_layout_panics` can be met. -/
example : let it := Iter.new 8 0xFF []
    it.layout.length ≤ it.index ∧ it.index < it.width ∧ it.width ≤ 128 := by decide

/-- The hypothesis of `C26_too_large` can be met. -/
example : (∃ p ∈ [3, 8], 8 ≤ p) ∧ fromPositions true 8 [3, 8] = .panic := by decide

end Dmi.Props
