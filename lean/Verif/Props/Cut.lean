import Verif.Props.Damage
import Verif.Props.Reported4
/-!
# C104: a table that is cut off
-/
namespace Dmi.Props
open Spec

/-! ### The call of `next` at the cut -/

/-- What `next` does at a cursor behind `pre`, where only `t` is left of the buffer. -/
theorem next_left (oc : Bool) (v : SmbiosVersion) (n : UInt32) (pre t : Bytes) (l : UInt8)
    (hl : 4 ≤ t.length → byteAt t 1 = l) (hb : (pre ++ t).length < 2 ^ 32)
    (h4 : pre.length + 4 < 2 ^ 32) (h256 : pre.length + l.toNat < 2 ^ 32)
    (hf : n.toNat ≤ pre.length + l.toNat ∨ findNulNul (t.drop l.toNat) = none) :
    (⟨v, n, .ofNat pre.length, pre ++ t⟩ : Structures).next oc =
      if n.toNat < pre.length + 4 then .ok (none, ⟨v, n, .ofNat pre.length, pre ++ t⟩)
      else if t.length < 4 then .ub
      else if n.toNat ≤ pre.length + l.toNat then
        .ok (some (.error (.BadSize (.ofNat pre.length) l)),
          ⟨v, .ofNat pre.length, .ofNat pre.length, pre ++ t⟩)
      else if t.length < l.toNat then .panic
      else .ok (some (.error (.UnterminatedStrings (.ofNat pre.length))),
        ⟨v, .ofNat pre.length, .ofNat pre.length, pre ++ t⟩) := by
  have hi : (UInt32.ofNat pre.length).toNat = pre.length := by rw [UInt32.toNat_ofNat']; omega
  have hle : (pre ++ t).length = pre.length + t.length := List.length_append
  have hby : byteAt (pre ++ t) (pre.length + 1) = byteAt t 1 := byteAt_append pre t 1
  unfold Structures.next
  rw [next_raw_eval oc _ hb (by simp only [hi]; exact h4)
    (by simp only [hi, hle, hby]; intro h; rw [hl (by omega)]; exact h256)]
  simp only [hi, hle, hby]
  by_cases c1 : n.toNat < pre.length + 4
  · rw [if_pos c1, if_pos c1]; rfl
  rw [if_neg c1, if_neg c1, if_neg (by omega)]
  by_cases c2 : t.length < 4
  · rw [if_pos (by omega), if_pos c2]; rfl
  rw [if_neg (by omega), if_neg c2, hl (by omega)]
  by_cases c3 : n.toNat ≤ pre.length + l.toNat
  · rw [if_pos c3, if_pos c3]; rfl
  rw [if_neg c3, if_neg c3]
  by_cases c4 : t.length < l.toNat
  · rw [if_pos (by omega), if_pos c4]; rfl
  rw [if_neg (by omega), if_neg c4]
  have hf := hf.resolve_left c3
  rw [List.drop_append, List.drop_of_length_le (by omega), List.nil_append, Nat.add_sub_cancel_left, hf]
  rfl

/-- A first part of a structure that is long enough shows the length of the structure. -/
theorem part_len {p : Piece} {t rest : Bytes} (ht : t ++ rest = p.bytes) (h : 4 ≤ t.length) :
    byteAt t 1 = UInt8.ofNat p.len := by
  match t, h with
  | a :: b :: c, _ =>
    rw [show p.bytes = p.kind :: UInt8.ofNat p.len :: (enc16 p.handle ++ p.data ++ p.strings) by
      simp [Piece.bytes]] at ht
    simp only [List.cons_append, List.cons.injEq] at ht
    exact ht.2.1

/-- A first part of a string area has no pair of zero bytes. -/
theorem part_unterminated {p : Piece} (hp : p.WF) {t rest : Bytes} (ht : t ++ rest = p.bytes)
    (hr : rest ≠ []) : findNulNul (t.drop p.len) = none := by
  cases hf : findNulNul (t.drop p.len) with
  | none => rfl
  | some k =>
    exfalso
    obtain ⟨h1, h2, -⟩ := findNulNul_some hf
    obtain ⟨⟨x, hx⟩, -⟩ := h1
    have four : ([p.kind, UInt8.ofNat p.len] ++ enc16 p.handle ++ p.data).length = p.len := by
      rw [List.length_append]; unfold Piece.len; rw [Nat.add_comm]; rfl
    have hd : p.bytes.drop p.len = p.strings := by
      rw [Piece.bytes, List.drop_append, four, Nat.sub_self, List.drop_of_length_le (by omega)]; rfl
    rw [List.length_drop] at h2
    rw [← ht, List.drop_append, show p.len - t.length = 0 by omega, List.drop_zero,
      ← List.take_append_drop (k + 1) (t.drop p.len), hx] at hd
    have := hp.2.2 x _ (by rw [← hd, List.append_assoc])
    exact hr (List.append_eq_nil_iff.1 this).2

/-! ### The runs -/

/-- C104 as one would expect it: if the table ends inside a structure, this is told by an error behind
the structures that are complete. -/
def C104_full : Prop := ∀ (oc : Bool) (v : SmbiosVersion) (n : UInt32) (ps : List Piece) (items)
  (p : Piece) (t rest : Bytes), (∀ q ∈ ps, q.WF) → (v.major.toNat < 3 ∨ ∀ q ∈ ps, q.kind ≠ 127) →
  p.WF → t ++ rest = p.bytes → t ≠ [] → rest ≠ [] →
  (ps.flatMap Piece.bytes ++ p.bytes).length < 2 ^ 32 →
  n.toNat = (ps.flatMap Piece.bytes ++ t).length → Decoded oc v ps items →
  ∃ e, CollectsR (Structures.next oc) ⟨v, n, 0, ps.flatMap Piece.bytes ++ t⟩ (items ++ [.error e])

variable {oc : Bool} {v : SmbiosVersion} {n : UInt32} {ps : List Piece}
  {items : List (Except MalformedStructureError Structure)} {p : Piece} {t rest : Bytes}

/-- The complete structures come first. -/
theorem cut_runs (t : Bytes) (hwf : ∀ q ∈ ps, q.WF) (hnoend : v.major.toNat < 3 ∨ ∀ q ∈ ps, q.kind ≠ 127)
    (hlen : (ps.flatMap Piece.bytes ++ t).length < 2 ^ 32)
    (hn : (ps.flatMap Piece.bytes).length ≤ n.toNat) (hd : Decoded oc v ps items) :
    Runs oc ⟨v, n, 0, ps.flatMap Piece.bytes ++ t⟩ items
      ⟨v, n, .ofNat (ps.flatMap Piece.bytes).length, ps.flatMap Piece.bytes ++ t⟩ := by
  have := decoded_runs oc v n ps items [] t hwf hnoend (by simpa using hlen) (by simpa using hn) hd
  simpa using this

theorem part_length (hp : p.WF) (ht : t ++ rest = p.bytes) :
    t.length ≤ p.bytes.length ∧ p.len + 2 ≤ p.bytes.length ∧ 4 ≤ p.len ∧
      (UInt8.ofNat p.len).toNat = p.len := by
  have h1 := congrArg List.length ht
  rw [List.length_append] at h1
  have h2 := Piece.bytes_length p
  have h3 := EndsAtFirstNulNul.length hp.2
  have h4 : (UInt8.ofNat p.len).toNat = p.len := by
    have := hp.1
    rw [UInt8.toNat_ofNat']; omega
  refine ⟨by omega, by omega, by unfold Piece.len; omega, h4⟩

/-- C104: if at least four bytes of the structure are there, the cut is told by an error that gives
the offset of the structure, and what is missing: a part of the formatted area, or all of the
strings (`BadSize`), or a part of the strings (`UnterminatedStrings`). -/
theorem C104_partial (hwf : ∀ q ∈ ps, q.WF) (hnoend : v.major.toNat < 3 ∨ ∀ q ∈ ps, q.kind ≠ 127)
    (hp : p.WF) (ht : t ++ rest = p.bytes) (h4 : 4 ≤ t.length) (hr : rest ≠ [])
    (hlen : (ps.flatMap Piece.bytes ++ p.bytes).length < 2 ^ 32)
    (hn : n.toNat = (ps.flatMap Piece.bytes ++ t).length) (hd : Decoded oc v ps items) :
    CollectsR (Structures.next oc) ⟨v, n, 0, ps.flatMap Piece.bytes ++ t⟩
      (items ++ [.error (if t.length ≤ p.len
        then .BadSize (.ofNat (ps.flatMap Piece.bytes).length) (.ofNat p.len)
        else .UnterminatedStrings (.ofNat (ps.flatMap Piece.bytes).length))]) := by
  obtain ⟨l1, l2, l3, l4⟩ := part_length hp ht
  rw [List.length_append] at hlen hn
  refine runs_then (cut_runs t hwf hnoend (by rw [List.length_append]; omega) (by omega) hd) ?_
  generalize ps.flatMap Piece.bytes = pre at *
  have hx := next_left oc v n pre t (.ofNat p.len) (part_len ht)
    (by rw [List.length_append]; omega) (by omega) (by omega)
    (.inr (by rw [l4]; exact part_unterminated hp ht hr))
  rw [if_neg (by omega), if_neg (by omega), l4] at hx
  have hi : (UInt32.ofNat pre.length).toNat = pre.length := by rw [UInt32.toNat_ofNat']; omega
  have hend := next_at_end oc ⟨v, .ofNat pre.length, .ofNat pre.length, pre ++ t⟩
    (by simp only [hi]; omega) (by simp only [hi]; omega)
  by_cases c : t.length ≤ p.len
  · rw [if_pos (by omega)] at hx
    rw [if_pos c]
    exact .step hx (.done hend)
  · rw [if_neg (by omega), if_neg (by omega)] at hx
    rw [if_neg c]
    exact .step hx (.done hend)

/-- C104: if only one to three bytes are there, they go unnoticed. -/
theorem C104_unnoticed (hwf : ∀ q ∈ ps, q.WF) (hnoend : v.major.toNat < 3 ∨ ∀ q ∈ ps, q.kind ≠ 127)
    (h4 : t.length < 4) (hlen : (ps.flatMap Piece.bytes).length + 4 < 2 ^ 32)
    (hn : n.toNat = (ps.flatMap Piece.bytes ++ t).length) (hd : Decoded oc v ps items) :
    CollectsR (Structures.next oc) ⟨v, n, 0, ps.flatMap Piece.bytes ++ t⟩ items := by
  rw [List.length_append] at hn
  have hi : (UInt32.ofNat (ps.flatMap Piece.bytes).length).toNat = (ps.flatMap Piece.bytes).length := by
    rw [UInt32.toNat_ofNat']; omega
  exact runs_collects (cut_runs t hwf hnoend (by rw [List.length_append]; omega) (by omega) hd)
    (next_at_end oc _ (by simp only [hi]; omega) (by simp only [hi]; omega))

/-- C104: if only the declared length ends inside the structure and the buffer goes on, a length that
ends inside the formatted area or right behind it is told, but inside the strings it is not: the
structure is then reported with all of its strings. -/
theorem C104_length_only (post : Bytes) (hwf : ∀ q ∈ ps, q.WF)
    (hnoend : v.major.toNat < 3 ∨ ∀ q ∈ ps, q.kind ≠ 127) (hp : p.WF)
    (hlen : (ps.flatMap Piece.bytes ++ (p.bytes ++ post)).length + 4 < 2 ^ 32)
    (hn : (ps.flatMap Piece.bytes).length ≤ n.toNat)
    (hn' : n.toNat ≤ (ps.flatMap Piece.bytes ++ p.bytes).length) (hd : Decoded oc v ps items) :
    (n.toNat < (ps.flatMap Piece.bytes).length + 4 →
      CollectsR (Structures.next oc) ⟨v, n, 0, ps.flatMap Piece.bytes ++ (p.bytes ++ post)⟩ items) ∧
    ((ps.flatMap Piece.bytes).length + 4 ≤ n.toNat →
      n.toNat ≤ (ps.flatMap Piece.bytes).length + p.len →
      CollectsR (Structures.next oc) ⟨v, n, 0, ps.flatMap Piece.bytes ++ (p.bytes ++ post)⟩
        (items ++ [.error (.BadSize (.ofNat (ps.flatMap Piece.bytes).length) (.ofNat p.len))])) ∧
    ((ps.flatMap Piece.bytes).length + p.len < n.toNat →
      ∀ x, (decodeStructure oc (p.raw v)).toItem = .ok x →
      CollectsR (Structures.next oc) ⟨v, n, 0, ps.flatMap Piece.bytes ++ (p.bytes ++ post)⟩
        (items ++ [x])) := by
  obtain ⟨-, l2, l3, l4⟩ := part_length hp (List.append_nil p.bytes)
  simp only [List.length_append] at hlen hn'
  have run := cut_runs (p.bytes ++ post) hwf hnoend (by simp only [List.length_append]; omega) hn hd
  generalize ps.flatMap Piece.bytes = pre at *
  have hi : (UInt32.ofNat pre.length).toNat = pre.length := by rw [UInt32.toNat_ofNat']; omega
  refine ⟨fun h => ?_, fun h h' => ?_, fun h x hx => ?_⟩
  · exact runs_collects run (next_at_end oc _ (by simp only [hi]; omega) (by simp only [hi]; omega))
  · refine runs_then run ?_
    have hby : byteAt (p.bytes ++ post) 1 = UInt8.ofNat p.len := by simp [Piece.bytes, byteAt]
    have hx := next_left oc v n pre (p.bytes ++ post) (.ofNat p.len) (fun _ => hby)
      (by simp only [List.length_append]; omega) (by omega) (by omega) (.inl (by rw [l4]; omega))
    rw [if_neg (by omega), if_neg (by rw [List.length_append]; omega), l4, if_pos h'] at hx
    exact .step hx (.done (next_at_end oc _ (by simp only [hi]; omega) (by simp only [hi]; omega)))
  · refine runs_then run ?_
    have hpa : PieceAt (pre ++ (p.bytes ++ post)) pre.length p :=
      ⟨hp, pre, post, by rw [List.append_assoc], rfl⟩
    have hs := next_piece oc ⟨v, n, .ofNat pre.length, pre ++ (p.bytes ++ post)⟩ p
      (by simp only [List.length_append]; omega) (by simp only [hi]; exact hpa)
      (by simp only [hi]; exact h)
    simp only [hx, ok_bind] at hs
    have ha := after_idx (s := ⟨v, n, .ofNat pre.length, pre ++ (p.bytes ++ post)⟩) (p := p)
      (by simp only [List.length_append]; omega) (by simp only [hi]; exact hpa)
    simp only [hi] at ha
    refine .step hs (.done (next_at_end oc _ (by omega) ?_))
    rw [ha]
    simp only [Structures.after, hi]
    split
    · rw [UInt32.toNat_ofNat']; omega
    · omega

/-- C104: if only the buffer ends inside the structure and the declared length goes on behind the
formatted area, the cut is told inside the strings; inside the formatted area the iterator panics,
and within the header it reads behind the buffer. -/
theorem C104_buffer_only (hwf : ∀ q ∈ ps, q.WF)
    (hnoend : v.major.toNat < 3 ∨ ∀ q ∈ ps, q.kind ≠ 127) (hp : p.WF) (ht : t ++ rest = p.bytes)
    (hr : rest ≠ []) (hlen : (ps.flatMap Piece.bytes ++ p.bytes).length < 2 ^ 32)
    (hn : (ps.flatMap Piece.bytes).length + p.len < n.toNat) (hd : Decoded oc v ps items) :
    ∃ s, Runs oc ⟨v, n, 0, ps.flatMap Piece.bytes ++ t⟩ items s ∧
      (t.length < 4 → s.next oc = .ub) ∧
      (4 ≤ t.length → t.length < p.len → s.next oc = .panic) ∧
      (p.len ≤ t.length → CollectsR (Structures.next oc) ⟨v, n, 0, ps.flatMap Piece.bytes ++ t⟩
        (items ++ [.error (.UnterminatedStrings (.ofNat (ps.flatMap Piece.bytes).length))])) := by
  obtain ⟨l1, l2, l3, l4⟩ := part_length hp ht
  rw [List.length_append] at hlen
  have run := cut_runs (n := n) t hwf hnoend (by rw [List.length_append]; omega) (by omega) hd
  refine ⟨_, run, ?_⟩
  generalize ps.flatMap Piece.bytes = pre at *
  have hx := next_left oc v n pre t (.ofNat p.len) (part_len ht)
    (by rw [List.length_append]; omega) (by omega) (by omega)
    (.inr (by rw [l4]; exact part_unterminated hp ht hr))
  rw [if_neg (by omega), l4] at hx
  refine ⟨fun h => ?_, fun h h' => ?_, fun h => ?_⟩
  · rw [hx, if_pos h]
  · rw [hx, if_neg (by omega), if_neg (by omega), if_pos h']
  · rw [if_neg (by omega), if_neg (by omega), if_neg (by omega)] at hx
    have hi : (UInt32.ofNat pre.length).toNat = pre.length := by rw [UInt32.toNat_ofNat']; omega
    exact runs_then run (.step hx (.done (next_at_end oc _ (by simp only [hi]; omega)
      (by simp only [hi]; omega))))

/-- C104 in full is false: one byte of a structure at the end of a table is not noticed. -/
theorem C104_full_false : ¬ C104_full := by
  intro h
  obtain ⟨e, k⟩ := h true ⟨2, 8⟩ 1 [] [] ⟨126, 1, [], [0, 0]⟩ [126] [4, 1, 0, 0, 0] nofun (.inl (by decide))
    ⟨by decide, endsAtFirst_nil⟩ rfl nofun nofun (by decide) rfl .nil
  cases k with
  | step h _ => exact nomatch h

/-- To show that the hypotheses can be met, with every kind of cut: a structure of seven bytes, to be cut
behind one of six. -/
def cutPiece : Piece := ⟨201, 2, [7], [0, 0]⟩
theorem cutPiece_wf : cutPiece.WF := ⟨by decide, endsAtFirst_nil⟩
def cutFirst : List Piece := [⟨200, 1, [], [0, 0]⟩]
def cutItems : List (Except MalformedStructureError Structure) :=
  [.ok (.Other ⟨⟨2, 8⟩, .Oem 200, 4, 1, [], [0, 0]⟩)]
theorem cutFirst_wf : ∀ q ∈ cutFirst, q.WF := by
  intro q h
  cases List.mem_singleton.1 h
  exact ⟨by decide, endsAtFirst_nil⟩

example : CollectsR (Structures.next true) ⟨⟨2, 8⟩, 11, 0, [200, 4, 1, 0, 0, 0, 201, 5, 2, 0, 7]⟩
    (cutItems ++ [.error (.BadSize 6 5)]) :=
  C104_partial (ps := cutFirst) (p := cutPiece) (t := [201, 5, 2, 0, 7]) (rest := [0, 0]) cutFirst_wf
    (.inl (by decide)) cutPiece_wf rfl (by decide) nofun (by decide) rfl (.cons rfl .nil)
example : CollectsR (Structures.next true) ⟨⟨2, 8⟩, 12, 0, [200, 4, 1, 0, 0, 0, 201, 5, 2, 0, 7, 0]⟩
    (cutItems ++ [.error (.UnterminatedStrings 6)]) :=
  C104_partial (ps := cutFirst) (p := cutPiece) (t := [201, 5, 2, 0, 7, 0]) (rest := [0]) cutFirst_wf
    (.inl (by decide)) cutPiece_wf rfl (by decide) nofun (by decide) rfl (.cons rfl .nil)
example : CollectsR (Structures.next true) ⟨⟨2, 8⟩, 9, 0, [200, 4, 1, 0, 0, 0, 201, 5, 2]⟩ cutItems :=
  C104_unnoticed (ps := cutFirst) (t := [201, 5, 2]) cutFirst_wf (.inl (by decide)) (by decide)
    (by decide) rfl (.cons rfl .nil)
example : CollectsR (Structures.next true) ⟨⟨2, 8⟩, 12, 0, [200, 4, 1, 0, 0, 0, 201, 5, 2, 0, 7, 0, 0, 9]⟩
    (cutItems ++ [.ok (.Other ⟨⟨2, 8⟩, .Oem 201, 5, 2, [7], [0, 0]⟩)]) :=
  (C104_length_only (ps := cutFirst) (p := cutPiece) [9] cutFirst_wf (.inl (by decide)) cutPiece_wf
    (by decide) (by decide) (by decide) (.cons rfl .nil)).2.2 (by decide) _ rfl
example : ∃ s, Runs true ⟨⟨2, 8⟩, 13, 0, [200, 4, 1, 0, 0, 0, 201, 5]⟩ cutItems s ∧ s.next true = .ub := by
  obtain ⟨s, h, h1, -⟩ := C104_buffer_only (oc := true) (v := ⟨2, 8⟩) (n := 13) (ps := cutFirst)
    (items := cutItems) (p := cutPiece) (t := [201, 5]) (rest := [2, 0, 7, 0, 0]) cutFirst_wf
    (.inl (by decide)) cutPiece_wf rfl nofun (by decide) (by decide) (.cons rfl .nil)
  exact ⟨s, h, h1 (by decide)⟩

end Dmi.Props
