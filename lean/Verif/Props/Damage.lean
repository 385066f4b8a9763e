import Verif.Props.Moved
/-!
# C100: one damaged byte changes one structure

A table that was read to its end is read again after one byte of one of its structures has changed.
-/
namespace Dmi.Props
open Spec

/-- From a cursor on, only the bytes from there on matter. -/
theorem collects_tail (oc : Bool) (v : SmbiosVersion) (n i : UInt32) {b b' : Bytes}
    (hl : b'.length = b.length) (hd : b'.drop i.toNat = b.drop i.toNat) (hi : i.toNat ≤ b.length)
    (hb : b.length + 260 ≤ 2 ^ 32) {l}
    (h : CollectsR (Structures.next oc) ⟨v, n, i, b⟩ l) : CollectsR (Structures.next oc) ⟨v, n, i, b'⟩ l := by
  by_cases hn : i.toNat ≤ n.toNat
  · have key : ∀ a : Bytes, a.length = b.length →
        (⟨v, n, i, a⟩ : Structures) = Behind (a.take i.toNat) ⟨v, n - i, 0, a.drop i.toNat⟩ ∧
        (a.take i.toNat).length = i.toNat := by
      intro a ha
      have hx : (a.take i.toNat).length = i.toNat := by rw [List.length_take]; omega
      refine ⟨?_, hx⟩
      unfold Behind
      simp only [hx, List.take_append_drop, Structures.mk.injEq, true_and, and_true]
      have e : UInt32.ofNat i.toNat = i := by simp
      rw [e]
      exact ⟨by simp, by simp⟩
    have hr : ∀ a : Bytes, a.length = b.length →
        Room (a.take i.toNat).length ⟨v, n - i, 0, a.drop i.toNat⟩ := by
      intro a ha
      have hx := (key a ha).2
      have := UInt32.toNat_lt n
      refine ⟨by simp, ?_, ?_⟩
      · simp only [hx, List.length_drop]; omega
      · simp only [hx]
        rw [UInt32.toNat_sub_of_le _ _ (by rw [UInt32.le_iff_toNat_le]; exact hn)]
        omega
    rw [(key b rfl).1, C89_complete oc _ _ (hr b rfl)] at h
    rw [(key b' hl).1, C89_complete oc _ _ (hr b' hl), hd, (key b' hl).2]
    rw [(key b rfl).2] at h
    exact h
  · have stop : ∀ a : Bytes, (⟨v, n, i, a⟩ : Structures).next oc = .ok (none, ⟨v, n, i, a⟩) := fun a =>
      next_at_end oc _ (by simp only; omega) (by simp only; omega)
    cases h with
    | done h => exact .done (stop b')
    | step h t => rw [stop b] at h; cases h

theorem occursAt_take {b b' x : Bytes} {i k : Nat} (h : OccursAt b i x) (hk : i + x.length ≤ k)
    (ht : b'.take k = b.take k) : OccursAt b' i x := by
  obtain ⟨pre, post, rfl, rfl⟩ := h
  refine ⟨pre, (post.take (k - (pre.length + x.length))) ++ b'.drop k, ?_, rfl⟩
  rw [← List.append_assoc]
  have : (pre ++ x ++ post).take k = pre ++ x ++ post.take (k - (pre.length + x.length)) := by
    rw [List.take_append, List.take_of_length_le (by rw [List.length_append]; exact hk), List.length_append]
  rw [← this, ← ht, List.take_append_drop]

/-- Up to a structure, only the bytes before it matter. -/
theorem runs_head {oc : Bool} {s t : Structures} {items} (b' : Bytes) (h : Runs oc s items t)
    (hb : s.buffer.length < 2 ^ 32) (hl : b'.length = s.buffer.length)
    (ht : b'.take t.idx.toNat = s.buffer.take t.idx.toNat)
    (hs : t.next oc ≠ .ok (none, t)) :
    Runs oc { s with buffer := b' } items { t with buffer := b' } := by
  induction h with
  | nil => exact .nil _
  | @cons s s1 t item items h r ih =>
    rcases next_cases oc s hb with (h1 | h1) | h1 | ⟨hi, e, -, h1⟩ | ⟨p, it, hp, hn, hd, h1⟩
    · rw [h] at h1; cases h1
    · rw [h] at h1; cases h1
    · rw [h] at h1; cases h1
    · rw [h] at h1
      cases h1
      have := next_at_end oc { s with smbios_len := s.idx } hi (by simp only; omega)
      cases r with
      | nil => exact absurd this hs
      | cons h2 _ => rw [this] at h2; cases h2
    · rw [h] at h1
      cases h1
      have hidx := after_idx hb hp
      have hle : (s.after p).idx.toNat ≤ t.idx.toNat := by
        obtain ⟨_, -, -, e, -⟩ := C11_tiling (s := s.after p) hb r
        omega
      have hp' : PieceAt b' s.idx.toNat p := ⟨hp.1, occursAt_take hp.2 (by omega) ht⟩
      have h2 := next_piece oc { s with buffer := b' } p (by simp only; omega) hp' hn
      simp only at h2
      rw [hd] at h2
      exact .cons h2 (ih hb hl ht hs)

theorem runs_then {oc : Bool} {s t : Structures} {xs ys} (h : Runs oc s xs t)
    (hc : CollectsR (Structures.next oc) t ys) : CollectsR (Structures.next oc) s (xs ++ ys) := by
  induction h with
  | nil => exact hc
  | cons h _ ih => exact .step h (ih hc)

/-- C100 (a whole structure): the table is read, `xs` having been reported when the iterator stands before the
structure `p`. If `p` is replaced by another structure with the same number of bytes, whose formatted area is
inside the declared length, the other structures are reported as before. (Of version 3 on, neither or both have to be the end of the table.) -/
theorem C100_structure {oc : Bool} {s s1 s2 : Structures} {xs more} {p q : Piece} {x y} {b' : Bytes}
    (hb : s.buffer.length + 260 ≤ 2 ^ 32) (h1 : Runs oc s xs s1)
    (h2 : s1.next oc = .ok (some x, s2)) (h3 : CollectsR (Structures.next oc) s2 more)
    (hp : PieceAt s.buffer s1.idx.toNat p) (hn : s1.idx.toNat + p.len < s1.smbios_len.toNat)
    (hq : PieceAt b' s1.idx.toNat q) (hl : b'.length = s.buffer.length)
    (hpq : q.bytes.length = p.bytes.length) (hqn : s1.idx.toNat + q.len < s1.smbios_len.toNat)
    (hend : s.smbios_version.major.toNat < 3 ∨ (p.kind = 127 ↔ q.kind = 127))
    (ht : b'.take s1.idx.toNat = s.buffer.take s1.idx.toNat)
    (hd : b'.drop (s1.idx.toNat + p.bytes.length) = s.buffer.drop (s1.idx.toNat + p.bytes.length))
    (hy : (decodeStructure oc (q.raw s.smbios_version)).toItem = .ok y) :
    CollectsR (Structures.next oc) { s with buffer := b' } (xs ++ y :: more) := by
  have hb' : s.buffer.length < 2 ^ 32 := by omega
  obtain ⟨e1, e2⟩ := runs_buffer hb' h1
  have r := runs_head b' h1 hb' hl ht (by rw [h2]; intro k; cases k)
  have n1 := next_piece oc s1 p (by rw [e1]; exact hb') (by rw [e1]; exact hp) hn
  obtain ⟨it, -, n2⟩ := bind_ok_iff.1 (n1.symm.trans h2)
  simp only [Res.ok.injEq, Prod.mk.injEq] at n2
  obtain ⟨-, rfl⟩ := n2
  have n3 := next_piece oc { s1 with buffer := b' } q (by simp only; omega) hq (by simp only; omega)
  simp only at n3
  rw [← e2] at hy
  rw [hy] at n3
  refine runs_then r (.step n3 ?_)
  have hidx := after_idx (s := s1) (by rw [e1]; exact hb') (by rw [e1]; exact hp)
  have hfit := (PieceAt.parts hp).1
  have ea : Structures.after { s1 with buffer := b' } q = { s1.after p with buffer := b' } := by
    unfold Structures.after
    simp only [hpq]
    congr 1
    have hk : (s1.smbios_version.major ≥ 3 ∧ q.kind = 127) ↔ (s1.smbios_version.major ≥ 3 ∧ p.kind = 127) := by
      rw [e2]
      rcases hend with k | k
      · have : ¬ s.smbios_version.major ≥ 3 := by
          rw [ge_iff_le, UInt8.le_iff_toNat_le]
          have : (3 : UInt8).toNat = 3 := rfl
          omega
        constructor <;> exact fun z => absurd z.1 this
      · rw [k]
    by_cases c : s1.smbios_version.major ≥ 3 ∧ p.kind = 127
    · rw [if_pos c, if_pos (hk.2 c)]
    · rw [if_neg c, if_neg (fun z => c (hk.1 z))]
  rw [ea]
  have es : s1.after p = ⟨s1.smbios_version, (s1.after p).smbios_len, (s1.after p).idx, s.buffer⟩ := by
    rw [← e1]; rfl
  rw [es] at h3
  exact collects_tail oc _ _ _ hl (by rw [hidx]; exact hd) (by rw [hidx]; exact hfit) hb h3

/-! ### One byte -/

theorem nul_pair {a : Bytes} {i : Nat} (h0 : a[i]? = some 0) (h1 : a[i + 1]? = some 0) :
    a = a.take i ++ [0, 0] ++ a.drop (i + 2) := by
  obtain ⟨l0, e0⟩ := List.getElem?_eq_some_iff.1 h0
  obtain ⟨l1, e1⟩ := List.getElem?_eq_some_iff.1 h1
  conv => lhs; rw [← List.take_append_drop i a, List.drop_eq_getElem_cons l0, List.drop_eq_getElem_cons l1, e0, e1]
  rw [List.append_assoc]
  rfl

theorem nul_pair_at (x y : Bytes) : (x ++ [0, 0] ++ y)[x.length]? = some 0 ∧
    (x ++ [0, 0] ++ y)[x.length + 1]? = some 0 := by
  constructor
  · rw [List.append_assoc, List.getElem?_append_right (Nat.le_refl _), Nat.sub_self]; rfl
  · rw [List.append_assoc, List.getElem?_append_right (by omega), Nat.add_sub_cancel_left]; rfl

/-- A character of a string that becomes another character leaves the string area terminated where it was. -/
theorem ends_set {a : Bytes} {k : Nat} {c : UInt8} (h : EndsAtFirstNulNul a) (hk : a[k]? ≠ some 0)
    (hc : c ≠ 0) : EndsAtFirstNulNul (a.set k c) := by
  have same : ∀ i : Nat, (a.set k c)[i]? = some 0 ↔ a[i]? = some 0 := by
    intro i
    rw [List.getElem?_set]
    by_cases e : k = i
    · subst e
      rw [if_pos rfl]
      constructor
      · split
        · intro z; exact absurd (Option.some.inj z) hc
        · intro z; cases z
      · intro z; exact absurd z hk
    · rw [if_neg e]
  obtain ⟨⟨x, e⟩, u⟩ := h
  constructor
  · have hp := nul_pair_at x []
    rw [List.append_nil, ← e] at hp
    have h2 := nul_pair ((same _).2 hp.1) ((same _).2 hp.2)
    rw [List.drop_of_length_le (by rw [List.length_set, e, List.length_append]; simp)] at h2
    exact ⟨_, by rw [List.append_nil] at h2; exact h2⟩
  · intro x y e'
    have hp := nul_pair_at x y
    rw [← e'] at hp
    have h2 := u _ _ (nul_pair ((same _).1 hp.1) ((same _).1 hp.2))
    have h3 := congrArg List.length h2
    have h4 := congrArg List.length e'
    simp only [List.length_drop, List.length_nil, List.length_set, List.length_append, List.length_cons] at h3 h4
    exact List.length_eq_zero_iff.1 (by omega)

/-- The structure `p` with byte `j` changed to `c` is again a structure of the same size, unless the byte is
the length or the change moves the end of the strings. -/
theorem piece_set {p : Piece} (hp : p.WF) {j : Nat} (c : UInt8) (h1 : j ≠ 1)
    (hs : p.len ≤ j → EndsAtFirstNulNul (p.strings.set (j - p.len) c)) :
    ∃ q : Piece, q.WF ∧ q.bytes = p.bytes.set j c ∧ q.len = p.len ∧
      q.kind = if j = 0 then c else p.kind := by
  obtain ⟨kind, handle, data, strings⟩ := p
  unfold Piece.WF Piece.len at *
  simp only at hp hs
  by_cases j0 : j = 0
  · subst j0
    exact ⟨⟨c, handle, data, strings⟩, hp, rfl, rfl, rfl⟩
  by_cases j2 : j = 2
  · subst j2
    have e := enc16_u16At ((enc16 handle).set 0 c) 0
    refine ⟨⟨kind, u16At ((enc16 handle).set 0 c) 0, data, strings⟩, hp, ?_, rfl, by rw [if_neg (by decide)]⟩
    unfold Piece.bytes Piece.len
    simp only [e]
    rfl
  by_cases j3 : j = 3
  · subst j3
    have e := enc16_u16At ((enc16 handle).set 1 c) 0
    refine ⟨⟨kind, u16At ((enc16 handle).set 1 c) 0, data, strings⟩, hp, ?_, rfl, by rw [if_neg (by decide)]⟩
    unfold Piece.bytes Piece.len
    simp only [e]
    rfl
  have four : ∀ d : Bytes, ([kind, UInt8.ofNat (d.length + 4)] ++ enc16 handle).length = 4 := fun _ => rfl
  by_cases jd : j < data.length + 4
  · refine ⟨⟨kind, handle, data.set (j - 4) c, strings⟩, ⟨?_, hp.2⟩, ?_, ?_, by rw [if_neg j0]⟩
    · simp only [List.length_set]; exact hp.1
    · unfold Piece.bytes Piece.len
      simp only [List.length_set]
      rw [List.set_append_left _ _ (by rw [List.length_append, four]; omega),
        List.set_append_right _ _ (by rw [four]; omega), four]
    · simp only [List.length_set]
  · refine ⟨⟨kind, handle, data, strings.set (j - (data.length + 4)) c⟩, ⟨hp.1, hs (by omega)⟩, ?_, rfl,
      by rw [if_neg j0]⟩
    unfold Piece.bytes Piece.len
    simp only
    rw [List.set_append_right _ _ (by rw [List.length_append, four]; omega), List.length_append, four,
      Nat.add_comm 4]

theorem occursAt_set {b x : Bytes} {i j : Nat} (h : OccursAt b i x) (hj : j < x.length) (c : UInt8) :
    OccursAt (b.set (i + j) c) i (x.set j c) := by
  obtain ⟨pre, post, rfl, rfl⟩ := h
  refine ⟨pre, post, ?_, rfl⟩
  rw [List.append_assoc, List.set_append_right _ _ (by omega), Nat.add_sub_cancel_left,
    List.set_append_left _ _ hj, List.append_assoc]

/-- The full claim: whichever byte of a structure changes, the others are reported as before. It is false of
the code (and of the format): a damaged length moves the structures that follow. -/
def C100_full : Prop :=
  ∀ (oc : Bool) (s s1 s2 : Structures) (xs more all : List (Except MalformedStructureError Structure)) (p : Piece)
    (x : Except MalformedStructureError Structure) (j : Nat) (c : UInt8), s.buffer.length + 260 ≤ 2 ^ 32 →
    Runs oc s xs s1 → s1.next oc = .ok (some x, s2) → CollectsR (Structures.next oc) s2 more →
    PieceAt s.buffer s1.idx.toNat p → s1.idx.toNat + p.len < s1.smbios_len.toNat → j < p.bytes.length →
    CollectsR (Structures.next oc) { s with buffer := s.buffer.set (s1.idx.toNat + j) c } all →
    ∃ y, all = xs ++ y :: more

/-- C100: a byte of a structure changes that is neither its length nor part of the end of its strings (nor
turns it into the end of the table or the end of the table into it). Then exactly this structure is decoded
anew, from its bytes with that one changed; all structures before and behind it are reported as before. -/
theorem C100_partial {oc : Bool} {s s1 s2 : Structures} {xs more} {p : Piece} {x} {j : Nat} (c : UInt8)
    (hb : s.buffer.length + 260 ≤ 2 ^ 32) (h1 : Runs oc s xs s1)
    (h2 : s1.next oc = .ok (some x, s2)) (h3 : CollectsR (Structures.next oc) s2 more)
    (hp : PieceAt s.buffer s1.idx.toNat p) (hn : s1.idx.toNat + p.len < s1.smbios_len.toNat)
    (hj : j < p.bytes.length) (hj1 : j ≠ 1)
    (hend : j = 0 → s.smbios_version.major.toNat < 3 ∨ (p.kind = 127 ↔ c = 127))
    (hstr : p.len ≤ j → EndsAtFirstNulNul (p.strings.set (j - p.len) c)) :
    ∃ q : Piece, q.WF ∧ q.bytes = p.bytes.set j c ∧
      ∀ y, (decodeStructure oc (q.raw s.smbios_version)).toItem = .ok y →
        CollectsR (Structures.next oc) { s with buffer := s.buffer.set (s1.idx.toNat + j) c }
          (xs ++ y :: more) := by
  obtain ⟨q, hq, eb, el, ek⟩ := piece_set hp.1 c hj1 hstr
  refine ⟨q, hq, eb, fun y hy => ?_⟩
  refine C100_structure hb h1 h2 h3 hp hn (q := q) ⟨hq, ?_⟩ (List.length_set ..) ?_ (by rw [el]; exact hn) ?_ ?_ ?_ hy
  · rw [eb]; exact occursAt_set hp.2 hj c
  · rw [eb, List.length_set]
  · by_cases j0 : j = 0
    · rw [if_pos j0] at ek
      rw [ek]
      exact hend j0
    · rw [if_neg j0] at ek
      rw [ek]
      exact .inr Iff.rfl
  · exact List.take_set_of_le (by omega)
  · exact List.drop_set_of_lt (by omega)

/-- C100 (texts): a character of a string of a structure becomes another. -/
theorem C100_character {oc : Bool} {s s1 s2 : Structures} {xs more} {p : Piece} {x} {k : Nat} {c : UInt8}
    (hb : s.buffer.length + 260 ≤ 2 ^ 32) (h1 : Runs oc s xs s1)
    (h2 : s1.next oc = .ok (some x, s2)) (h3 : CollectsR (Structures.next oc) s2 more)
    (hp : PieceAt s.buffer s1.idx.toNat p) (hn : s1.idx.toNat + p.len < s1.smbios_len.toNat)
    (hk : k < p.strings.length) (hold : p.strings[k]? ≠ some 0) (hc : c ≠ 0) {y}
    (hy : (decodeStructure oc ({ p with strings := p.strings.set k c }.raw s.smbios_version)).toItem = .ok y) :
    CollectsR (Structures.next oc) { s with buffer := s.buffer.set (s1.idx.toNat + (p.len + k)) c }
      (xs ++ y :: more) := by
  have hw := ends_set hp.1.2 hold hc
  have eb : ({ p with strings := p.strings.set k c } : Piece).bytes = p.bytes.set (p.len + k) c := by
    have four : ([p.kind, UInt8.ofNat p.len] ++ enc16 p.handle ++ p.data).length = p.len := by
      rw [List.length_append]; unfold Piece.len; rw [Nat.add_comm]; rfl
    unfold Piece.bytes
    simp only
    rw [List.set_append_right _ _ (by rw [four]; omega), four, Nat.add_sub_cancel_left]
    rfl
  have hjl : p.len + k < p.bytes.length := by rw [Spec.Piece.bytes_length]; omega
  refine C100_structure hb h1 h2 h3 hp hn (q := { p with strings := p.strings.set k c }) ⟨⟨hp.1.1, hw⟩, ?_⟩
    (List.length_set ..) ?_ hn (.inr Iff.rfl) ?_ ?_ hy
  · rw [eb]; exact occursAt_set hp.2 hjl c
  · rw [eb, List.length_set]
  · exact List.take_set_of_le (by omega)
  · exact List.drop_set_of_lt (by omega)

/-- The bytes of `p` with its formatted area ending after `n` bytes. -/
def Divided (p : Piece) (n : Nat) : Piece :=
  { p with data := (p.data ++ p.strings).take (n - 4), strings := (p.data ++ p.strings).drop (n - 4) }

/-- C100 (the length): the length of a structure changes. If the new one ends inside the structure, and from
there on the first pair of zero bytes is still that at its end, the structures before and behind it are reported
as before; the bytes of this one are only divided differently. -/
theorem C100_length {oc : Bool} {s s1 s2 : Structures} {xs more} {p : Piece} {x} {c : UInt8}
    (hb : s.buffer.length + 260 ≤ 2 ^ 32) (h1 : Runs oc s xs s1)
    (h2 : s1.next oc = .ok (some x, s2)) (h3 : CollectsR (Structures.next oc) s2 more)
    (hp : PieceAt s.buffer s1.idx.toNat p) (hn : s1.idx.toNat + p.len < s1.smbios_len.toNat)
    (hc : 4 ≤ c.toNat) (hcn : s1.idx.toNat + c.toNat < s1.smbios_len.toNat)
    (he : EndsAtFirstNulNul ((p.data ++ p.strings).drop (c.toNat - 4))) {y}
    (hy : (decodeStructure oc ((Divided p c.toNat).raw s.smbios_version)).toItem = .ok y) :
    CollectsR (Structures.next oc) { s with buffer := s.buffer.set (s1.idx.toNat + 1) c }
      (xs ++ y :: more) := by
  have h2l := EndsAtFirstNulNul.length he
  rw [List.length_drop] at h2l
  have el : (Divided p c.toNat).len = c.toNat := by
    unfold Piece.len Divided
    simp only [List.length_take]
    omega
  have eb : (Divided p c.toNat).bytes = p.bytes.set 1 c := by
    unfold Piece.bytes
    rw [el, UInt8.ofNat_toNat]
    simp [Divided, List.take_append_drop]
  have hjl : 1 < p.bytes.length := by rw [Spec.Piece.bytes_length]; unfold Piece.len; omega
  refine C100_structure hb h1 h2 h3 hp hn (q := Divided p c.toNat) ⟨⟨?_, he⟩, ?_⟩
    (List.length_set ..) ?_ (by rw [el]; exact hcn) (.inr Iff.rfl) ?_ ?_ hy
  · rw [el]; exact UInt8.toNat_lt c
  · rw [eb]; exact occursAt_set hp.2 hjl c
  · rw [eb, List.length_set]
  · exact List.take_set_of_le (by omega)
  · exact List.drop_set_of_lt (by omega)

/-- Two OEM structures; the length of the first becomes 7, and the second is lost. -/
theorem C100_full_false : ¬ C100_full := by
  intro h
  obtain ⟨y, e⟩ := h true ⟨⟨2, 8⟩, 12, 0, [200, 4, 1, 0, 0, 0, 201, 4, 2, 0, 0, 0]⟩
    ⟨⟨2, 8⟩, 12, 0, [200, 4, 1, 0, 0, 0, 201, 4, 2, 0, 0, 0]⟩
    ⟨⟨2, 8⟩, 12, 6, [200, 4, 1, 0, 0, 0, 201, 4, 2, 0, 0, 0]⟩ []
    [.ok (.Other ⟨⟨2, 8⟩, .Oem 201, 4, 2, [], [0, 0]⟩)]
    [.ok (.Other ⟨⟨2, 8⟩, .Oem 200, 7, 1, [0, 0, 201], [4, 2, 0, 0]⟩)]
    ⟨200, 1, [], [0, 0]⟩ (.ok (.Other ⟨⟨2, 8⟩, .Oem 200, 4, 1, [], [0, 0]⟩)) 1 7 (by decide)
    (.nil _) rfl
    (.step (s' := ⟨⟨2, 8⟩, 12, 12, [200, 4, 1, 0, 0, 0, 201, 4, 2, 0, 0, 0]⟩) rfl (.done rfl))
    ⟨⟨by decide, endsAtFirst_nil⟩, [], [201, 4, 2, 0, 0, 0], rfl, rfl⟩ (by decide) (by decide)
    (.step (s' := ⟨⟨2, 8⟩, 12, 11, [200, 7, 1, 0, 0, 0, 201, 4, 2, 0, 0, 0]⟩) rfl (.done rfl))
  have := congrArg List.length e
  simp at this

/-- The length of the first structure becomes 5: its string `AB` becomes the byte 41h and the string `B`. -/
example (oc : Bool) : CollectsR (Structures.next oc)
    ⟨⟨2, 8⟩, 15, 0, (samplePiece.bytes ++ [200, 4, 0, 0, 65]).set 1 (UInt8.ofNat (samplePiece.len + 1))⟩
    [.ok (.Other { samplePiece.raw ⟨2, 8⟩ with
        length := UInt8.ofNat (samplePiece.len + 1), data := samplePiece.data ++ [0x41], strings := [0x42, 0, 0] }),
      .error (.UnterminatedStrings 10)] := by
  exact C100_length (oc := oc) (s := ⟨⟨2, 8⟩, 15, 0, samplePiece.bytes ++ [200, 4, 0, 0, 65]⟩)
    (s2 := ⟨⟨2, 8⟩, 15, 10, samplePiece.bytes ++ [200, 4, 0, 0, 65]⟩) (xs := []) (p := samplePiece)
    (x := .ok (.Other (samplePiece.raw ⟨2, 8⟩))) (by decide) (.nil _) (by cases oc <;> rfl)
    (.step (s' := ⟨⟨2, 8⟩, 10, 10, samplePiece.bytes ++ [200, 4, 0, 0, 65]⟩) (by cases oc <;> rfl)
      (.done (by cases oc <;> rfl)))
    ⟨samplePiece_wf, [], [200, 4, 0, 0, 65], rfl, rfl⟩ (by decide) (by decide) (by decide)
    ⟨⟨[0x42], rfl⟩, by
      intro a b e
      replace e : [0x42, 0, 0] = a ++ [0, 0] ++ b := e
      match a, e with
      | [], e => cases e
      | [_], e => simpa using (congrArg (List.drop 3) e).symm
      | _ :: _ :: a, e => exact absurd (congrArg List.length e) (by simp; omega)⟩
    (by cases oc <;> rfl)

/-- The letter `A` of the first structure becomes `C`; the broken structure behind it is reported as before. -/
example (oc : Bool) : CollectsR (Structures.next oc)
    ⟨⟨2, 8⟩, 15, 0, (samplePiece.bytes ++ [200, 4, 0, 0, 65]).set 6 0x43⟩
    [.ok (.Other { samplePiece.raw ⟨2, 8⟩ with strings := [0x43, 0x42, 0, 0] }),
      .error (.UnterminatedStrings 10)] := by
  exact C100_character (oc := oc) (s := ⟨⟨2, 8⟩, 15, 0, samplePiece.bytes ++ [200, 4, 0, 0, 65]⟩)
    (s2 := ⟨⟨2, 8⟩, 15, 10, samplePiece.bytes ++ [200, 4, 0, 0, 65]⟩) (xs := []) (p := samplePiece) (k := 0)
    (x := .ok (.Other (samplePiece.raw ⟨2, 8⟩))) (by decide) (.nil _) (by cases oc <;> rfl)
    (.step (s' := ⟨⟨2, 8⟩, 10, 10, samplePiece.bytes ++ [200, 4, 0, 0, 65]⟩) (by cases oc <;> rfl)
      (.done (by cases oc <;> rfl)))
    ⟨samplePiece_wf, [], [200, 4, 0, 0, 65], rfl, rfl⟩ (by decide) (by decide) (by decide) (by decide)
    (by cases oc <;> rfl)

/-- The second byte of the handle of the first structure changes: the hypotheses of `C100_partial` hold. -/
example (oc : Bool) : ∃ q : Piece, q.WF ∧ q.bytes = samplePiece.bytes.set 3 0x99 ∧
    ∀ y, (decodeStructure oc (q.raw ⟨2, 8⟩)).toItem = .ok y → CollectsR (Structures.next oc)
      ⟨⟨2, 8⟩, 15, 0, (samplePiece.bytes ++ [200, 4, 0, 0, 65]).set 3 0x99⟩
      [y, .error (.UnterminatedStrings 10)] :=
  C100_partial (oc := oc) (s := ⟨⟨2, 8⟩, 15, 0, samplePiece.bytes ++ [200, 4, 0, 0, 65]⟩)
    (s2 := ⟨⟨2, 8⟩, 15, 10, samplePiece.bytes ++ [200, 4, 0, 0, 65]⟩) (xs := []) (p := samplePiece) (j := 3)
    (x := .ok (.Other (samplePiece.raw ⟨2, 8⟩))) 0x99 (by decide) (.nil _) (by cases oc <;> rfl)
    (.step (s' := ⟨⟨2, 8⟩, 10, 10, samplePiece.bytes ++ [200, 4, 0, 0, 65]⟩) (by cases oc <;> rfl)
      (.done (by cases oc <;> rfl)))
    ⟨samplePiece_wf, [], [200, 4, 0, 0, 65], rfl, rfl⟩ (by decide) (by decide) (by decide)
    (fun h => by cases h) (fun h => absurd h (by decide))

end Dmi.Props
