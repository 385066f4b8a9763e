import Verif.Spec.Bitfield
/-!
# Bit field iterators
-/
namespace Dmi
open Spec bitfield

theorem shlOne_ok (oc : Bool) {w n : Nat} (h : n < w) : shlOne oc w n = .ok (2 ^ n) := by
  unfold shlOne; rw [if_pos h]

theorem and_two_pow_ne (v i : Nat) : ((v &&& 2 ^ i) != 0) = v.testBit i := by
  have h : v &&& 2 ^ i = if v.testBit i then 2 ^ i else 0 := by
    apply Nat.eq_of_testBit_eq
    intro j
    rw [Nat.testBit_and, Nat.testBit_two_pow]
    by_cases hij : i = j
    · subst hij
      cases h : v.testBit i <;> simp
    · cases h : v.testBit i <;> simp [hij]
  have hp : 2 ^ i ≠ 0 := Nat.pos_iff_ne_zero.1 (Nat.two_pow_pos i)
  rw [h]
  cases v.testBit i <;> simp

/-- `Iter::next` inside the field. -/
theorem Iter.next_lt (oc : Bool) (it : Iter) (h1 : it.index < it.width) (h2 : it.width ≤ 128)
    (h3 : it.width ≤ it.layout.length) :
    it.next oc = .ok (some (flag it.value it.layout it.index), { it with index := it.index + 1 }) := by
  unfold Iter.next
  rw [if_neg (by omega)]
  have hget : it.layout[it.index]? = some it.layout[it.index] := List.getElem?_eq_getElem (by omega)
  have hadd : addUsize (ε := Empty) oc it.index 1 = .ok (it.index + 1) := by
    rw [addUsize_host64, if_pos (by omega)]
  simp only [Bind.bind, Res.bind, shlOne_ok oc (show it.index < 128 by omega), hadd, hget,
    and_two_pow_ne, Pure.pure]
  simp only [flag, List.getD, hget, Option.getD]

theorem Iter.next_end (oc : Bool) (it : Iter) (h : it.index = it.width) :
    it.next oc = .ok (none, it) := by
  unfold Iter.next; rw [if_pos h]; rfl

theorem iter_collects (oc : Bool) (k : Nat) (it : Iter) (hk : it.index + k = it.width)
    (h2 : it.width ≤ 128) (h3 : it.width ≤ it.layout.length) :
    CollectsR (Iter.next oc) it
      ((List.range' it.index k).map (flag it.value it.layout)) := by
  induction k generalizing it with
  | zero => exact .done (Iter.next_end oc it (by omega))
  | succ k ih =>
    rw [List.range'_succ, List.map_cons]
    exact .step (Iter.next_lt oc it (by omega) h2 h3)
      (ih { it with index := it.index + 1 } (by simp only; omega) h2 h3)

/-! ### `significants` -/

/-- The bits `significants` looks for. -/
def Significant (v : Nat) (l : Layout) (i : Nat) : Bool :=
  v.testBit i && !(l.getD i .Unknown).isReserved

theorem significantsLoop_spec (oc : Bool) (k : Nat) (it : Iter) (fuel : Nat)
    (hk : it.index + k = it.width) (hf : k < fuel)
    (h2 : it.width ≤ 128) (h3 : it.width ≤ it.layout.length) :
    (significantsLoop oc fuel it = .ok (none, { it with index := it.width }) ∧
      (List.range' it.index k).filter (Significant it.value it.layout) = []) ∨
    (∃ j k', it.index ≤ j ∧ j + 1 + k' = it.width ∧
      significantsLoop oc fuel it =
        .ok (some (flag it.value it.layout j), { it with index := j + 1 }) ∧
      (List.range' it.index k).filter (Significant it.value it.layout) =
        j :: (List.range' (j + 1) k').filter (Significant it.value it.layout)) := by
  induction k generalizing it fuel with
  | zero =>
    obtain ⟨fuel, rfl⟩ : ∃ f, fuel = f + 1 := ⟨fuel - 1, by omega⟩
    left
    unfold significantsLoop
    rw [Iter.next_end oc it (by omega)]
    have : it.index = it.width := by omega
    refine ⟨?_, by simp⟩
    simp only [Bind.bind, Res.bind, Pure.pure]
    obtain ⟨v, w, i, l⟩ := it
    simp only at this
    rw [this]
  | succ k ih =>
    obtain ⟨fuel, rfl⟩ : ∃ f, fuel = f + 1 := ⟨fuel - 1, by omega⟩
    unfold significantsLoop
    rw [Iter.next_lt oc it (by omega) h2 h3]
    simp only [Bind.bind, Res.bind, Pure.pure]
    rw [List.range'_succ, List.filter_cons]
    by_cases hs : Significant it.value it.layout it.index = true
    · right
      refine ⟨it.index, k, Nat.le_refl _, by omega, ?_, by rw [if_pos hs]⟩
      rw [if_neg]
      simp only [Significant, Bool.and_eq_true, Bool.not_eq_true'] at hs
      simp only [flag, hs.1, hs.2]; simp
    · rw [if_neg hs, if_pos]
      · rcases ih { it with index := it.index + 1 } fuel (by simp only; omega) (by omega) h2 h3 with
          ⟨ha, hb⟩ | ⟨j, k', h1, h2', ha, hb⟩
        · left; exact ⟨ha, hb⟩
        · right; exact ⟨j, k', by simp only at h1; omega, h2', ha, hb⟩
      · simp only [Significant, Bool.and_eq_true, Bool.not_eq_true', not_and] at hs
        simp only [flag]
        cases hv : it.value.testBit it.index with
        | false => simp
        | true =>
          have := hs hv
          simp only [Bool.not_eq_false] at this
          rw [this]; simp

theorem significants_collects (oc : Bool) (k : Nat) (it : Iter) (hk : it.index + k = it.width)
    (h2 : it.width ≤ 128) (h3 : it.width ≤ it.layout.length) :
    CollectsR (Significants.next oc) it
      (((List.range' it.index k).filter (Significant it.value it.layout)).map
        (flag it.value it.layout)) := by
  induction k using Nat.strongRecOn generalizing it with
  | ind k ih =>
    rcases significantsLoop_spec oc k it (it.width - it.index + 1) hk (by omega) h2 h3 with
      ⟨ha, hb⟩ | ⟨j, k', h1, h2', ha, hb⟩
    · rw [hb]; exact .done ha
    · rw [hb, List.map_cons]
      exact .step ha (ih k' (by omega) { it with index := j + 1 } h2' h2 h3)

/-! ### `reserved` -/

/-- The group that is open when the iterator is at a position: description, start, last bit. -/
abbrev Open := Option (String × Nat × Nat)

/-- The ranges still to be yielded, given the remaining layout entries. -/
def ranges : Layout → Nat → Open → List ReservedRange
  | [], _, none => []
  | [], _, some (d, a, e) => [⟨d, a, e⟩]
  | .Reserved s :: t, p, some (d, a, e) =>
    if s ≠ d then ⟨d, a, e⟩ :: ranges t (p + 1) (some (s, p, 0))
    else ranges t (p + 1) (some (s, a, p))
  | .Reserved s :: t, p, none => ranges t (p + 1) (some (s, p, p))
  | .Unknown :: t, p, some (d, a, e) => ⟨d, a, e⟩ :: ranges t (p + 1) none
  | .Significant _ _ :: t, p, some (d, a, e) => ⟨d, a, e⟩ :: ranges t (p + 1) none
  | .Unknown :: t, p, none => ranges t (p + 1) none
  | .Significant _ _ :: t, p, none => ranges t (p + 1) none

/-- The open group of an iterator state. -/
def openOf (r : Reserved) (e : Nat) : Open := r.desc.map fun d => (d, r.start, e)

theorem reservedLoop_spec (oc : Bool) (t : Layout) (r : Reserved) (e fuel : Nat)
    (ht : r.iter.layout.drop r.iter.index = t) (hw : r.iter.layout.length = r.iter.width)
    (hi : r.iter.index ≤ r.iter.width) (hf : t.length < fuel) (h2 : r.iter.width ≤ 128) :
    (∃ r', reservedLoop oc fuel r e = .ok (none, r') ∧ ranges t r.iter.index (openOf r e) = []) ∨
    (∃ r' x, reservedLoop oc fuel r e = .ok (some x, r') ∧
      r'.iter.layout = r.iter.layout ∧ r'.iter.width = r.iter.width ∧
      r.iter.index ≤ r'.iter.index ∧ r'.iter.index ≤ r'.iter.width ∧
      (r.iter.index < r'.iter.index ∨ r'.desc = none ∧ r.desc ≠ none) ∧
      ranges t r.iter.index (openOf r e) =
        x :: ranges (r'.iter.layout.drop r'.iter.index) r'.iter.index (openOf r' 0)) := by
  induction t generalizing r e fuel with
  | nil =>
    obtain ⟨fuel, rfl⟩ : ∃ f, fuel = f + 1 := ⟨fuel - 1, by omega⟩
    have hl : r.iter.layout.length ≤ r.iter.index := List.drop_eq_nil_iff.1 ht
    unfold reservedLoop
    rw [Iter.next_end oc r.iter (by omega)]
    simp only [Bind.bind, Res.bind, Pure.pure]
    cases hd : r.desc with
    | none =>
      left
      simp only [openOf, hd, Option.map]
      exact ⟨_, rfl, rfl⟩
    | some d =>
      right
      simp only [openOf, hd, Option.map]
      refine ⟨_, _, rfl, rfl, rfl, Nat.le_refl _, hi, Or.inr ⟨rfl, by simp⟩, ?_⟩
      simp only [ht]
      rfl
  | cons ty t ih =>
    obtain ⟨fuel, rfl⟩ : ∃ f, fuel = f + 1 := ⟨fuel - 1, by omega⟩
    have hlt : r.iter.index < r.iter.layout.length := by
      rcases Nat.lt_or_ge r.iter.index r.iter.layout.length with h | h
      · exact h
      · rw [List.drop_eq_nil_of_le h] at ht; cases ht
    have ht' : r.iter.layout.drop (r.iter.index + 1) = t := by
      rw [← List.drop_drop, ht]; rfl
    have hty : r.iter.layout.getD r.iter.index .Unknown = ty := by
      have := congrArg (·[0]?) ht
      simp only [List.getElem?_drop, Nat.add_zero, List.getElem?_cons_zero] at this
      simp [List.getD, this]
    have hlen : t.length < fuel := by simp at hf; omega
    unfold reservedLoop
    rw [Iter.next_lt oc r.iter (by omega) h2 (by omega)]
    simp only [Bind.bind, Res.bind, Pure.pure, flag, hty]
    have step : ∀ (d' : Option String) (a' e' : Nat),
        ranges (ty :: t) r.iter.index (openOf r e) =
          ranges t (r.iter.index + 1) (d'.map fun d => (d, a', e')) →
        (∃ r', reservedLoop oc fuel ⟨{ r.iter with index := r.iter.index + 1 }, d', a'⟩ e' =
            .ok (none, r') ∧ ranges (ty :: t) r.iter.index (openOf r e) = []) ∨
        (∃ r' x, reservedLoop oc fuel ⟨{ r.iter with index := r.iter.index + 1 }, d', a'⟩ e' =
            .ok (some x, r') ∧
          r'.iter.layout = r.iter.layout ∧ r'.iter.width = r.iter.width ∧
          r.iter.index ≤ r'.iter.index ∧ r'.iter.index ≤ r'.iter.width ∧
          (r.iter.index < r'.iter.index ∨ r'.desc = none ∧ r.desc ≠ none) ∧
          ranges (ty :: t) r.iter.index (openOf r e) =
            x :: ranges (r'.iter.layout.drop r'.iter.index) r'.iter.index (openOf r' 0)) := by
      intro d' a' e' heq
      rcases ih ⟨{ r.iter with index := r.iter.index + 1 }, d', a'⟩ e' fuel ht' hw
        (by simp only; omega) hlen h2 with ⟨r', h1, h3⟩ | ⟨r', x, h1, h3, h4, h5, h6, h7, h8⟩
      · left; exact ⟨r', h1, by rw [heq]; exact h3⟩
      · right
        simp only at h3 h4 h5 h7
        exact ⟨r', x, h1, h3, h4, by omega, h6, Or.inl (by omega), by rw [heq]; exact h8⟩
    generalize hP : (r.desc ≠ none) = P at step ⊢
    cases hd : r.desc with
    | none =>
      cases ty with
      | Reserved s =>
        simp only
        apply step (some s) r.iter.index r.iter.index
        simp only [openOf, hd, Option.map, ranges]
      | Unknown =>
        simp only
        apply step none r.start r.iter.index
        simp only [openOf, hd, Option.map, ranges]
      | Significant m d =>
        simp only
        apply step none r.start r.iter.index
        simp only [openOf, hd, Option.map, ranges]
    | some d =>
      cases ty with
      | Reserved s =>
        simp only
        by_cases hs : s = d
        · rw [if_neg (by simpa using hs)]
          apply step (some s) r.start r.iter.index
          simp only [openOf, hd, Option.map, ranges]
          rw [if_neg (by simpa using hs)]
        · rw [if_pos hs]
          right
          refine ⟨_, _, rfl, rfl, rfl, Nat.le_succ _, by simp only; omega, Or.inl (Nat.lt_succ_self _), ?_⟩
          simp only [openOf, hd, Option.map, ranges, ht']
          rw [if_pos hs]
      | Unknown =>
        right
        refine ⟨_, _, rfl, rfl, rfl, Nat.le_succ _, by simp only; omega, Or.inl (Nat.lt_succ_self _), ?_⟩
        simp only [openOf, hd, Option.map, ranges, ht']
      | Significant m d =>
        right
        refine ⟨_, _, rfl, rfl, rfl, Nat.le_succ _, by simp only; omega, Or.inl (Nat.lt_succ_self _), ?_⟩
        simp only [openOf, hd, Option.map, ranges, ht']

theorem reserved_collects (oc : Bool) (k : Nat) (r : Reserved)
    (hk : 2 * (r.iter.width - r.iter.index) + (if r.desc = none then 0 else 1) ≤ k)
    (hw : r.iter.layout.length = r.iter.width) (hi : r.iter.index ≤ r.iter.width)
    (h2 : r.iter.width ≤ 128) :
    CollectsR (Reserved.next oc) r
      (ranges (r.iter.layout.drop r.iter.index) r.iter.index (openOf r 0)) := by
  induction k using Nat.strongRecOn generalizing r with
  | ind k ih =>
    rcases reservedLoop_spec oc _ r 0 (r.iter.width - r.iter.index + 1) rfl hw hi
      (by rw [List.length_drop]; omega) h2 with ⟨r', h1, h3⟩ | ⟨r', x, h1, h3, h4, h5, h6, h7, h8⟩
    · rw [h3]; exact .done h1
    · rw [h8]
      refine .step h1 (ih (2 * (r'.iter.width - r'.iter.index) + (if r'.desc = none then 0 else 1))
        ?_ r' (Nat.le_refl _) (by rw [h3, h4]; exact hw) h6 (by omega))
      rcases h7 with h7 | ⟨h7, h9⟩
      · split <;> split at hk <;> omega
      · rw [if_pos h7]; rw [if_neg h9] at hk; omega

/-- What the code yields for a maximal run: the right range, except for squeezed runs, whose end is
given as 0. -/
def Yields (l : Layout) (d : String) (a b : Nat) (x : ReservedRange) : Prop :=
  x.description = d ∧ x.start = a ∧
    ((¬ Squeezed l a b ∧ x.stop = b) ∨ (Squeezed l a b ∧ x.stop = 0))

theorem maxRun_unique {l : Layout} {d d' : String} {a b a' b' i : Nat} (h : MaxRun l d a b)
    (h' : MaxRun l d' a' b') (h1 : a ≤ i) (h2 : i ≤ b) (h3 : a' ≤ i) (h4 : i ≤ b') :
    d = d' ∧ a = a' ∧ b = b' := by
  obtain ⟨hab, hall, hl, hr⟩ := h
  obtain ⟨hab', hall', hl', hr'⟩ := h'
  have e1 := hall i h1 h2
  have e2 := hall' i h3 h4
  unfold ReservedAs at *
  rw [e1] at e2
  have hd : d = d' := by injection e2 with e2; injection e2
  subst hd
  refine ⟨rfl, ?_, ?_⟩
  · rcases Nat.lt_trichotomy a a' with h | h | h
    · exact absurd ⟨by omega, hall (a' - 1) (by omega) (by omega)⟩ hl'
    · exact h
    · exact absurd ⟨by omega, hall' (a - 1) (by omega) (by omega)⟩ hl
  · rcases Nat.lt_trichotomy b b' with h | h | h
    · exact absurd (hall' (b + 1) (by omega) (by omega)) hr
    · exact h
    · exact absurd (hall (b' + 1) (by omega) (by omega)) hr'

open Classical in
/-- The open group describes the bits before `p`. -/
def OpenOK (l : Layout) (p : Nat) : Open → Prop
  | none => ¬ (0 < p ∧ ∃ d, ReservedAs l (p - 1) d)
  | some (d, a, e) => a < p ∧ (∀ i, a ≤ i → i < p → ReservedAs l i d) ∧
      ¬ (0 < a ∧ ReservedAs l (a - 1) d) ∧
      e = if Squeezed l a (p - 1) then 0 else p - 1

/-- The run is still to be yielded. -/
def Reach (p : Nat) (o : Open) (a b : Nat) : Prop :=
  match o with | none => p ≤ a | some _ => p ≤ b + 1

/-- Lower bound for the ranges still to be yielded. -/
def Lower (p : Nat) (o : Open) (x : Nat) : Prop :=
  match o with | none => p ≤ x | some (_, a, _) => a ≤ x

theorem close_group {l : Layout} {p : Nat} {d : String} {a e : Nat}
    (h : OpenOK l p (some (d, a, e))) (h5 : ¬ ReservedAs l p d) : MaxRun l d a (p - 1) ∧
      ∀ x : ReservedRange, Yields l d a (p - 1) x ↔ x = ⟨d, a, e⟩ := by
  obtain ⟨h1, h2, h3, h4⟩ := h
  refine ⟨⟨by omega, fun i hi hi' => h2 i hi (by omega), h3, ?_⟩, ?_⟩
  · rwa [Nat.sub_add_cancel (by omega)]
  · intro x
    rw [h4]
    obtain ⟨xd, xa, xe⟩ := x
    unfold Yields
    simp only [ReservedRange.mk.injEq]
    by_cases hs : Squeezed l a (p - 1)
    · simp [hs]
    · simp [hs]

open Classical in
theorem ranges_spec (l : Layout) (t : Layout) (p : Nat) (o : Open) (ht : l.drop p = t)
    (hp : p ≤ l.length) (ho : OpenOK l p o) :
    (∀ x, x ∈ ranges t p o ↔ ∃ d a b, MaxRun l d a b ∧ Yields l d a b x ∧ Reach p o a b) ∧
    (ranges t p o).Pairwise (fun x y => x.start < y.start) ∧
    (∀ x ∈ ranges t p o, Lower p o x.start) := by
  have hres : ∀ {i d}, ReservedAs l i d → i < l.length := by
    intro i d h
    rcases Nat.lt_or_ge i l.length with h' | h'
    · exact h'
    · rw [ReservedAs, List.getElem?_eq_none h'] at h; cases h
  induction t generalizing p o with
  | nil =>
    have hpl : l.length ≤ p := List.drop_eq_nil_iff.1 ht
    have hpn : ∀ d, ¬ ReservedAs l p d := fun d h => by have := hres h; omega
    cases o with
    | none =>
      refine ⟨fun x => ?_, by simp [ranges], by simp [ranges]⟩
      simp only [ranges, List.not_mem_nil, false_iff]
      rintro ⟨d, a, b, hm, -, h⟩
      exact absurd (hres (hm.2.1 a (Nat.le_refl _) hm.1)) (by simp only [Reach] at h; omega)
    | some q =>
      obtain ⟨d, a, e⟩ := q
      obtain ⟨hm, hy⟩ := close_group ho (hpn d)
      refine ⟨fun x => ?_, by simp [ranges], by simp [ranges, Lower]⟩
      simp only [ranges, List.mem_singleton]
      constructor
      · rintro rfl
        exact ⟨d, a, p - 1, hm, (hy _).2 rfl, by simp only [Reach]; omega⟩
      · rintro ⟨d', a', b', hm', hy', h⟩
        simp only [Reach] at h
        have hb' := hres (hm'.2.1 b' hm'.1 (Nat.le_refl _))
        have hap : a < p := ho.1
        obtain ⟨rfl, rfl, rfl⟩ := maxRun_unique hm hm' (i := p - 1) (by omega) (by omega)
          (by have := hm'.1
              have := ho.1
              rcases Nat.lt_or_ge (p - 1) a' with hx | hx
              · omega
              · exact hx) (by omega)
        exact (hy _).1 hy'
  | cons ty t ih =>
    have hlt : p < l.length := by
      rcases Nat.lt_or_ge p l.length with h | h
      · exact h
      · rw [List.drop_eq_nil_of_le h] at ht; cases ht
    have ht' : l.drop (p + 1) = t := by rw [← List.drop_drop, ht]; rfl
    have hty : l[p]? = some ty := by
      have := congrArg (·[0]?) ht
      simpa only [List.getElem?_drop, Nat.add_zero, List.getElem?_cons_zero] using this
    have ih' := fun o ho => ih (p + 1) o ht' (by omega) ho
    -- a position that is not reserved
    have notRes : (∀ d, ty ≠ .Reserved d) → ∀ d, ¬ ReservedAs l p d := by
      intro h d hr
      rw [ReservedAs, hty] at hr
      injection hr with hr
      exact h d hr
    have nonres_none : (∀ d, ty ≠ .Reserved d) →
        (∀ x, x ∈ ranges t (p + 1) none ↔ ∃ d a b, MaxRun l d a b ∧ Yields l d a b x ∧ p ≤ a) ∧
        (ranges t (p + 1) none).Pairwise (fun x y => x.start < y.start) ∧
        (∀ x ∈ ranges t (p + 1) none, p + 1 ≤ x.start) := by
      intro h
      obtain ⟨i1, i2, i3⟩ := ih' none (by
        simp only [OpenOK, Nat.add_sub_cancel]
        rintro ⟨-, d, hr⟩
        exact notRes h d hr)
      refine ⟨fun x => ?_, i2, i3⟩
      rw [i1]
      constructor
      · rintro ⟨d, a, b, h1, h2, h3⟩
        exact ⟨d, a, b, h1, h2, by simp only [Reach] at h3; omega⟩
      · rintro ⟨d, a, b, h1, h2, h3⟩
        refine ⟨d, a, b, h1, h2, ?_⟩
        simp only [Reach]
        rcases Nat.lt_or_ge p a with h4 | h4
        · omega
        · have : a = p := by omega
          subst this
          exact absurd (h1.2.1 a (Nat.le_refl _) h1.1) (notRes h d)
    have yields_start : ∀ {d a b x}, Yields l d a b x → x.start = a := fun h => h.2.1
    cases o with
    | none =>
      simp only [OpenOK] at ho
      cases ty with
      | Unknown =>
        obtain ⟨i1, i2, i3⟩ := nonres_none (by simp)
        exact ⟨i1, i2, fun x hx => by have := i3 x hx; simp only [Lower]; omega⟩
      | Significant m m' =>
        obtain ⟨i1, i2, i3⟩ := nonres_none (by simp)
        exact ⟨i1, i2, fun x hx => by have := i3 x hx; simp only [Lower]; omega⟩
      | Reserved s =>
        have hpr : ReservedAs l p s := hty
        have hnsq : ¬ Squeezed l p p := by
          rintro ⟨-, h0, hd⟩; exact ho ⟨h0, hd⟩
        obtain ⟨i1, i2, i3⟩ := ih' (some (s, p, p)) (by
          simp only [OpenOK]
          refine ⟨by omega, ?_, ?_, ?_⟩
          · intro i h1 h2
            have : i = p := by omega
            subst this; exact hpr
          · rintro ⟨h0, h1⟩; exact ho ⟨h0, s, h1⟩
          · rw [Nat.add_sub_cancel, if_neg hnsq])
        simp only [ranges]
        refine ⟨fun x => ?_, i2, fun x hx => by have := i3 x hx; simpa [Lower] using this⟩
        rw [i1]
        simp only [Reach]
        constructor
        · rintro ⟨d, a, b, h1, h2, h3⟩
          refine ⟨d, a, b, h1, h2, ?_⟩
          rcases Nat.lt_or_ge a p with h4 | h4
          · exact absurd ⟨by omega, d, h1.2.1 (p - 1) (by omega) (by omega)⟩ ho
          · exact h4
        · rintro ⟨d, a, b, h1, h2, h3⟩
          exact ⟨d, a, b, h1, h2, by have := h1.1; omega⟩
    | some q =>
      obtain ⟨d, a, e⟩ := q
      have hok := ho
      simp only [OpenOK] at ho
      -- runs that reach `p - 1` while bit `p` is not reserved for `d`
      have closing : ¬ ReservedAs l p d → ∀ x : ReservedRange,
          (∃ d' a' b', MaxRun l d' a' b' ∧ Yields l d' a' b' x ∧ p ≤ b' + 1) ↔
          x = ⟨d, a, e⟩ ∨ (∃ d' a' b', MaxRun l d' a' b' ∧ Yields l d' a' b' x ∧ p ≤ a') := by
        intro hn x
        obtain ⟨hm, hy⟩ := close_group hok hn
        constructor
        · rintro ⟨d', a', b', h1, h2, h3⟩
          rcases Nat.lt_or_ge a' p with h4 | h4
          · left
            have := ho.1
            obtain ⟨rfl, rfl, rfl⟩ := maxRun_unique hm h1 (i := p - 1) (by omega) (by omega)
              (by omega) (by omega)
            exact (hy x).1 h2
          · right; exact ⟨d', a', b', h1, h2, h4⟩
        · rintro (rfl | ⟨d', a', b', h1, h2, h3⟩)
          · exact ⟨d, a, p - 1, hm, (hy _).2 rfl, by omega⟩
          · exact ⟨d', a', b', h1, h2, by have := h1.1; omega⟩
      have nonres : (∀ d, ty ≠ .Reserved d) →
          (∀ x, x ∈ (⟨d, a, e⟩ :: ranges t (p + 1) none : List ReservedRange) ↔
            ∃ d a b, MaxRun l d a b ∧ Yields l d a b x ∧ p ≤ b + 1) ∧
          (⟨d, a, e⟩ :: ranges t (p + 1) none : List ReservedRange).Pairwise
            (fun x y => x.start < y.start) ∧
          (∀ x ∈ (⟨d, a, e⟩ :: ranges t (p + 1) none : List ReservedRange), a ≤ x.start) := by
        intro h
        obtain ⟨i1, i2, i3⟩ := nonres_none h
        refine ⟨fun x => ?_, ?_, ?_⟩
        · rw [List.mem_cons, i1, closing (notRes h d)]
        · rw [List.pairwise_cons]
          refine ⟨fun x hx => ?_, i2⟩
          have := i3 x hx; have := ho.1
          simp only; omega
        · intro x hx
          rcases List.mem_cons.1 hx with rfl | hx
          · exact Nat.le_refl _
          · have := i3 x hx; have := ho.1; omega
      cases ty with
      | Unknown => exact nonres (by simp)
      | Significant m m' => exact nonres (by simp)
      | Reserved s =>
        have hpr : ReservedAs l p s := hty
        simp only [ranges]
        by_cases hs : s = d
        · subst hs
          rw [if_neg (by simp)]
          have hnsq : ¬ Squeezed l a p := by
            rintro ⟨h0, -⟩; have := ho.1; omega
          obtain ⟨i1, i2, i3⟩ := ih' (some (s, a, p)) (by
            simp only [OpenOK]
            refine ⟨by have := ho.1; omega, ?_, ho.2.2.1, by rw [Nat.add_sub_cancel, if_neg hnsq]⟩
            intro i h1 h2
            rcases Nat.lt_or_ge i p with h3 | h3
            · exact ho.2.1 i h1 h3
            · have : i = p := by omega
              subst this; exact hpr)
          refine ⟨fun x => ?_, i2, i3⟩
          rw [i1]
          simp only [Reach]
          constructor
          · rintro ⟨d, a, b, h1, h2, h3⟩
            exact ⟨d, a, b, h1, h2, by omega⟩
          · rintro ⟨d', a', b', h1, h2, h3⟩
            refine ⟨d', a', b', h1, h2, ?_⟩
            rcases Nat.lt_or_ge p (b' + 1) with h4 | h4
            · omega
            · -- the run would end at p - 1, but bit p continues it
              exfalso
              have hbe : b' = p - 1 := by omega
              have e1 := h1.2.1 b' h1.1 (Nat.le_refl _)
              have e2 := ho.2.1 (p - 1) (by have := ho.1; omega) (by have := ho.1; omega)
              rw [hbe] at e1
              unfold ReservedAs at e1 e2
              rw [e1] at e2
              have hdd : d' = s := by injection e2 with e2; injection e2
              subst hdd
              apply h1.2.2.2
              rw [hbe, Nat.sub_add_cancel (by have := ho.1; omega)]
              exact hpr
        · rw [if_pos hs]
          have hnd : ¬ ReservedAs l p d := by
            intro h
            unfold ReservedAs at h hpr
            rw [h] at hpr
            injection hpr with hpr; injection hpr with hpr
            exact hs hpr.symm
          have hsq : Squeezed l p p := ⟨rfl, by have := ho.1; omega, d,
            ho.2.1 (p - 1) (by have := ho.1; omega) (by have := ho.1; omega)⟩
          obtain ⟨i1, i2, i3⟩ := ih' (some (s, p, 0)) (by
            simp only [OpenOK]
            refine ⟨by omega, ?_, ?_, by rw [Nat.add_sub_cancel, if_pos hsq]⟩
            · intro i h1 h2
              have : i = p := by omega
              subst this; exact hpr
            · rintro ⟨h0, h1⟩
              have e2 := ho.2.1 (p - 1) (by have := ho.1; omega) (by have := ho.1; omega)
              unfold ReservedAs at e2 h1
              rw [e2] at h1
              injection h1 with h1; injection h1 with h1
              exact hs h1.symm)
          simp only [Reach, Lower] at i1 i3
          refine ⟨fun x => ?_, ?_, ?_⟩
          · simp only [Reach]
            rw [List.mem_cons, i1, closing hnd]
            constructor
            · rintro (h | ⟨d', a', b', h1, h2, h3⟩)
              · exact Or.inl h
              · refine Or.inr ⟨d', a', b', h1, h2, ?_⟩
                rcases Nat.lt_or_ge a' p with h4 | h4
                · exfalso
                  have e1 := h1.2.1 p (by omega) (by omega)
                  have e2 := h1.2.1 (p - 1) (by omega) (by omega)
                  have e3 := ho.2.1 (p - 1) (by have := ho.1; omega) (by have := ho.1; omega)
                  unfold ReservedAs at e1 e2 e3 hpr
                  rw [e2] at e3; rw [hpr] at e1
                  injection e3 with e3; injection e3 with e3
                  injection e1 with e1; injection e1 with e1
                  exact hs (e1.trans e3)
                · exact h4
            · rintro (h | ⟨d', a', b', h1, h2, h3⟩)
              · exact Or.inl h
              · exact Or.inr ⟨d', a', b', h1, h2, by have := h1.1; omega⟩
          · rw [List.pairwise_cons]
            refine ⟨fun x hx => ?_, i2⟩
            have := i3 x hx; have := ho.1
            simp only; omega
          · intro x hx
            simp only [Lower]
            rcases List.mem_cons.1 hx with rfl | hx
            · exact Nat.le_refl _
            · have := i3 x hx; have := ho.1; omega

end Dmi
