import Verif.Proofs.EntryPoint
/-!
# Further lemmas about `EntryPoint::search`: relocation and single-byte changes
-/
namespace Dmi
open Spec

theorem occursAt_iff (b sig : Bytes) (o : Nat) (hs : sig ≠ []) :
    OccursAt b o sig ↔ ∀ i < sig.length, b[o + i]? = sig[i]? := by
  constructor
  · rintro ⟨pre, post, rfl, rfl⟩ i hi
    rw [List.append_assoc, List.getElem?_append_right (by omega), Nat.add_sub_cancel_left,
      List.getElem?_append_left hi]
  · intro h
    have hpos := List.length_pos_iff.mpr hs
    have hlen : o + sig.length ≤ b.length := by
      have := h (sig.length - 1) (by omega)
      rw [List.getElem?_eq_getElem (by omega : sig.length - 1 < sig.length)] at this
      obtain ⟨h', -⟩ := List.getElem?_eq_some_iff.mp this
      omega
    refine ⟨b.take o, b.drop (o + sig.length), ?_, by simp; omega⟩
    have : sig = (b.drop o).take sig.length := by
      apply List.ext_getElem?
      intro i
      rw [List.getElem?_take]
      by_cases hi : i < sig.length
      · rw [if_pos hi, List.getElem?_drop, h i hi]
      · rw [if_neg hi, List.getElem?_eq_none (by omega)]
    rw [List.append_assoc]
    conv => lhs; rw [← List.take_append_drop o b]
    congr 1
    conv => lhs; rw [← List.take_append_drop sig.length (b.drop o)]
    rw [← this, List.drop_drop]

theorem IsFormat.anchor_ne {F : EpFormat} (h : IsFormat F) : F.anchor ≠ [] := by
  rcases h with rfl | rfl <;> decide

theorem IsFormat.anchor_le {F : EpFormat} (h : IsFormat F) : F.anchor.length ≤ 5 := by
  rcases h with rfl | rfl <;> decide

/-- Anchors depend only on the first five bytes of their paragraph. -/
theorem anchorAt_congr {b b' : Bytes} {o : Nat} {F : EpFormat} (hF : IsFormat F)
    (h : ∀ i < F.anchor.length, b[o + i]? = b'[o + i]?) : AnchorAt b o F ↔ AnchorAt b' o F := by
  unfold AnchorAt
  rw [occursAt_iff _ _ _ (IsFormat.anchor_ne hF), occursAt_iff _ _ _ (IsFormat.anchor_ne hF)]
  constructor
  · rintro ⟨h1, h2⟩; exact ⟨h1, fun i hi => by rw [← h i hi]; exact h2 i hi⟩
  · rintro ⟨h1, h2⟩; exact ⟨h1, fun i hi => by rw [h i hi]; exact h2 i hi⟩

theorem anchorAt_append (p b : Bytes) (o : Nat) (F : EpFormat) (hF : IsFormat F)
    (hp : p.length % 16 = 0) : AnchorAt (p ++ b) (p.length + o) F ↔ AnchorAt b o F := by
  unfold AnchorAt
  rw [occursAt_iff _ _ _ (IsFormat.anchor_ne hF), occursAt_iff _ _ _ (IsFormat.anchor_ne hF)]
  have : ∀ i, (p ++ b)[p.length + o + i]? = b[o + i]? := by
    intro i
    rw [List.getElem?_append_right (by omega)]
    congr 1; omega
  simp only [this]
  constructor <;> (rintro ⟨h1, h2⟩; exact ⟨by omega, h2⟩)

theorem anchorAt_append_left (p b : Bytes) (o : Nat) (F : EpFormat) (hF : IsFormat F)
    (hp : p.length % 16 = 0) (ho : o < p.length) : AnchorAt (p ++ b) o F ↔ AnchorAt p o F := by
  by_cases h16 : o % 16 = 0
  · apply anchorAt_congr hF
    intro i hi
    have := IsFormat.anchor_le hF
    rw [List.getElem?_append_left (by omega)]
  · unfold AnchorAt; simp [h16]

theorem search_append (p b : Bytes) (hp : p.length % 16 = 0)
    (hno : ∀ o F, IsFormat F → ¬ AnchorAt p o F) :
    EntryPoint.search (p ++ b) = EntryPoint.search b := by
  by_cases hex : ∃ o F, FirstAnchor b o F
  · obtain ⟨o, F, hfirst⟩ := hex
    have hfirst' : FirstAnchor (p ++ b) (p.length + o) F := by
      refine ⟨hfirst.format, (anchorAt_append p b o F hfirst.format hp).2 hfirst.anchor, ?_⟩
      intro o' ho' F' hF' hA
      by_cases hlo : o' < p.length
      · exact hno o' F' hF' ((anchorAt_append_left p b o' F' hF' hp hlo).1 hA)
      · have e : o' = p.length + (o' - p.length) := by omega
        rw [e, anchorAt_append p b _ F' hF' hp] at hA
        exact hfirst.first _ (by omega) F' hF' hA
    have hlt : o < b.length := hfirst.anchor.2.lt (IsFormat.anchor_ne hfirst.format)
    have hsub : (indexFrom b o : Res InvalidEntryPointError Bytes) = .ok (b.drop o) := by
      simp [indexFrom, getFrom, Nat.le_of_lt hlt]
    have hsub' : (indexFrom (p ++ b) (p.length + o) : Res InvalidEntryPointError Bytes)
        = .ok (b.drop o) := by
      have : (p ++ b).drop (p.length + o) = b.drop o := by
        rw [List.drop_append, List.drop_eq_nil_of_le (by omega)]; simp
      simp [indexFrom, getFrom, Nat.le_of_lt hlt]
    unfold EntryPoint.search
    rcases findSignature_some hfirst with ⟨rfl, h1⟩ | ⟨rfl, h1⟩ <;>
    rcases findSignature_some hfirst' with ⟨hF, h2⟩ | ⟨hF, h2⟩
    · simp only [h1, h2, hsub, hsub']
    · exact absurd hF fmt_ne
    · exact absurd hF.symm fmt_ne
    · simp only [h1, h2, hsub, hsub']
  · have n1 : findSignature b = none := by
      rw [findSignature_none]
      intro o F hF hA
      obtain ⟨o', F', h⟩ := FirstAnchor.exists_of_anchor hF hA
      exact hex ⟨o', F', h⟩
    have n2 : findSignature (p ++ b) = none := by
      rw [findSignature_none] at n1 ⊢
      intro o F hF hA
      by_cases hlo : o < p.length
      · exact hno o F hF ((anchorAt_append_left p b o F hF hp hlo).1 hA)
      · have e : o = p.length + (o - p.length) := by omega
        rw [e, anchorAt_append p b _ F hF hp] at hA
        exact n1 _ F hF hA
    unfold EntryPoint.search
    rw [n1, n2]

/-! ## One changed byte -/

theorem byteAt_set (b : Bytes) (i k : Nat) (x : UInt8) (hi : i < b.length) :
    byteAt (b.set i x) k = if k = i then x else byteAt b k := by
  simp only [byteAt, List.getD_eq_getElem?_getD, List.getElem?_set]
  by_cases h : i = k
  · subst h; simp [hi]
  · simp [h, Ne.symm h]

theorem sum_map_range_single (f g : Nat → Nat) (n k : Nat) (hk : k < n)
    (h : ∀ i, i ≠ k → f i = g i) :
    ((List.range n).map f).sum + g k = ((List.range n).map g).sum + f k := by
  induction n with
  | zero => omega
  | succ n ih =>
    rw [List.range_succ, List.map_append, List.map_append, List.sum_append, List.sum_append]
    simp only [List.map_cons, List.map_nil, List.sum_cons, List.sum_nil, Nat.add_zero]
    by_cases hkn : k = n
    · subst hkn
      have : (List.range k).map f = (List.range k).map g := by
        apply List.map_congr_left
        intro i hi
        rw [List.mem_range] at hi
        exact h i (by omega)
      rw [this]; omega
    · have := ih (by omega)
      have hn := h n (by omega)
      omega

theorem byteSum_set (b : Bytes) (o k n : Nat) (x : UInt8) (hk : k < n) (hb : o + k < b.length)
    (hx : x ≠ byteAt b (o + k)) :
    byteSum (bytesAt (b.set (o + k) x) o n) ≠ byteSum (bytesAt b o n) := by
  unfold byteSum bytesAt
  rw [List.map_map, List.map_map]
  have := sum_map_range_single (UInt8.toNat ∘ fun i => byteAt (b.set (o + k) x) (o + i))
    (UInt8.toNat ∘ fun i => byteAt b (o + i)) n k hk (by
      intro i hi
      simp only [Function.comp]
      rw [byteAt_set _ _ _ _ hb, if_neg (by omega)])
  simp only [Function.comp] at this ⊢
  rw [byteAt_set _ _ _ _ hb, if_pos rfl] at this
  have h1 := x.toNat_lt
  have h2 := (byteAt b (o + k)).toNat_lt
  have h3 : x.toNat ≠ (byteAt b (o + k)).toNat := fun h => hx (UInt8.toNat.inj h)
  omega

theorem search_ok_first {b : Bytes} {e : EntryPoint} (h : EntryPoint.search b = .ok e) :
    ∃ o F, FirstAnchor b o F := by
  by_cases hex : ∃ o F, FirstAnchor b o F
  · exact hex
  · have n1 : findSignature b = none := by
      rw [findSignature_none]
      intro o F hF hA
      obtain ⟨o', F', h⟩ := FirstAnchor.exists_of_anchor hF hA
      exact hex ⟨o', F', h⟩
    unfold EntryPoint.search at h
    rw [n1] at h
    cases h

theorem search_notFound {b : Bytes} (h : ∀ o F, IsFormat F → ¬ AnchorAt b o F) :
    EntryPoint.search b = .err .NotFound := by
  unfold EntryPoint.search
  rw [findSignature_none.2 h]

end Dmi
