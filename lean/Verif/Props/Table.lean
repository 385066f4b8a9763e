import Verif.Proofs.Table3
import Verif.Props.Strings
/-!
# C08–C13, C15–C18, C56: iterating the structures

Buffers are assumed to be shorter than 4 GiB where the 32-bit cursor matters. The cursor starts at 0
(`EntryPoint::structures`); the theorems are stated for every cursor position, so that they apply to
every state of every iteration.
-/
namespace Dmi.Props
open Spec

/-! ### Sample table -/

/-- An OEM structure (type 200) with two formatted bytes and one string. -/
def samplePiece : Piece :=
  { kind := 200, handle := 0x1234, data := [7, 8], strings := [0x41, 0x42, 0, 0] }

/-- An end-of-table structure. -/
def sampleEnd : Piece := { kind := 127, handle := 0x1235, data := [], strings := [0, 0] }

theorem endsAtFirst_nil : EndsAtFirstNulNul [0, 0] := by
  refine ⟨⟨[], rfl⟩, fun x y h => ?_⟩
  have := congrArg List.length h
  simp at this
  exact List.length_eq_zero_iff.1 (by omega)

theorem endsAtFirst_sample : EndsAtFirstNulNul [0x41, 0x42, 0, 0] :=
  (findNulNul_some (b := [0x41, 0x42, 0, 0]) (t := 3) (by decide)).1

theorem samplePiece_wf : samplePiece.WF := ⟨by decide, endsAtFirst_sample⟩
theorem sampleEnd_wf : sampleEnd.WF := ⟨by decide, endsAtFirst_nil⟩

/-- The two structures followed by some garbage. -/
def sampleTable : Bytes := samplePiece.bytes ++ sampleEnd.bytes ++ [1, 2, 3]

/-! ### C08 -/

theorem runs_length {oc : Bool} {s s' : Structures} {items} (hb : s.buffer.length < 2 ^ 32)
    (h : Runs oc s items s') : 6 * items.length ≤ (s.buffer.length - s.idx.toNat) + 6 := by
  induction h with
  | nil => simp
  | cons h t ih =>
    rename_i s s1 s2 item items
    rcases next_cases oc s hb with (h1 | h1) | h1 | ⟨hi, e, -, h1⟩ | ⟨p, it, hp, hn, hd, h1⟩
    · rw [h] at h1; cases h1
    · rw [h] at h1; cases h1
    · rw [h] at h1; cases h1
    · rw [h] at h1; cases h1
      cases t with
      | nil => simp
      | cons h2 _ =>
        rw [next_at_end oc { s with smbios_len := s.idx } hi (by simp only; omega)] at h2
        cases h2
    · rw [h] at h1; cases h1
      have hidx := after_idx hb hp
      have hfit := (PieceAt.parts hp).1
      have h6 := piece_bytes_ge p hp.1
      have := ih hb
      rw [hidx] at this
      have hbuf : (s.after p).buffer = s.buffer := rfl
      rw [hbuf] at this
      simp only [List.length_cons]
      omega

/-- C08: at most one item per six bytes, plus one. -/
theorem C08_items_bounded {oc : Bool} {s s' : Structures} {items}
    (hb : s.buffer.length < 2 ^ 32) (h : Runs oc s items s') :
    items.length ≤ s.buffer.length / 6 + 1 := by
  have := runs_length hb h
  omega

/-- C08: so calling `next` repeatedly reaches `None` (or a fault) after finitely many calls. -/
theorem C08_terminates (oc : Bool) (s : Structures) (hb : s.buffer.length < 2 ^ 32) :
    ∃ items s', Runs oc s items s' ∧ items.length ≤ s.buffer.length / 6 + 1 ∧
      (s'.next oc = .ok (none, s') ∨ s'.next oc = .panic ∨ s'.next oc = .ub) := by
  have key : ∀ k items s', Runs oc s items s' → items.length + k = s.buffer.length / 6 + 2 →
      ∃ items s', Runs oc s items s' ∧
        (s'.next oc = .ok (none, s') ∨ s'.next oc = .panic ∨ s'.next oc = .ub) := by
    intro k
    induction k with
    | zero =>
      intro items s' h hl
      have := C08_items_bounded hb h
      omega
    | succ k ih =>
      intro items s' h hl
      have hb' : s'.buffer.length < 2 ^ 32 := by rw [(runs_buffer hb h).1]; exact hb
      rcases next_cases oc s' hb' with (h1 | h1) | h1 | ⟨hi, e, -, h1⟩ | ⟨p, it, hp, hn, hd, h1⟩
      · exact ⟨items, s', h, Or.inr (Or.inl h1)⟩
      · exact ⟨items, s', h, Or.inr (Or.inr h1)⟩
      · exact ⟨items, s', h, Or.inl h1⟩
      · exact ih _ _ (h.snoc h1) (by simp; omega)
      · exact ih _ _ (h.snoc h1) (by simp; omega)
  obtain ⟨items, s', h1, h2⟩ := key (s.buffer.length / 6 + 2) [] s (.nil _) (by simp)
  exact ⟨items, s', h1, C08_items_bounded hb h1, h2⟩

/-- C08: every yielded structure advances the cursor by at least six bytes; the cursor stays inside
the buffer. -/
theorem C08_progress {oc : Bool} {s s1 s' : Structures} {r : RawStructure} {item}
    (hb : s.buffer.length < 2 ^ 32) (hraw : s.next_raw oc = .ok (some (.ok r), s1))
    (h : s.next oc = .ok (some item, s')) :
    s.idx.toNat + 6 ≤ s'.idx.toNat ∧ s'.idx.toNat ≤ s.buffer.length := by
  rcases next_cases oc s hb with (h1 | h1) | h1 | ⟨hi, e, hr, h1⟩ | ⟨p, it, hp, hn, hd, h1⟩
  · rw [h] at h1; cases h1
  · rw [h] at h1; cases h1
  · rw [h] at h1; cases h1
  · rw [hraw] at hr; cases hr
  · rw [h] at h1; cases h1
    rw [after_idx hb hp]
    have := piece_bytes_ge p hp.1
    have := (PieceAt.parts hp).1
    omega

example : sampleTable.length < 2 ^ 32 := by decide +kernel

/-! ### C09 -/

/-- C09: `None` is final. -/
theorem C09_none_final (oc : Bool) (s s' : Structures) (hb : s.buffer.length < 2 ^ 32)
    (h : s.next oc = .ok (none, s')) : s' = s ∧ s'.next oc = .ok (none, s') := by
  rcases next_cases oc s hb with (h1 | h1) | h1 | ⟨hi, e, -, h1⟩ | ⟨p, it, hp, hn, hd, h1⟩
  · rw [h] at h1; cases h1
  · rw [h] at h1; cases h1
  · have h2 := h
    rw [h1] at h2; cases h2
    exact ⟨rfl, h1⟩
  · rw [h] at h1; cases h1
  · rw [h] at h1; cases h1

/-- C09: after a structural error (the structure could not be extracted) the iterator is finished. -/
theorem C09_error_final (oc : Bool) (s s1 s' : Structures) (e : MalformedStructureError) (item)
    (hb : s.buffer.length < 2 ^ 32) (hraw : s.next_raw oc = .ok (some (.error e), s1))
    (h : s.next oc = .ok (some item, s')) :
    item = .error e ∧ s'.next oc = .ok (none, s') := by
  rcases next_cases oc s hb with (h1 | h1) | h1 | ⟨hi, e', hr, h1⟩ | ⟨p, it, hp, hn, hd, h1⟩
  · rw [h] at h1; cases h1
  · rw [h] at h1; cases h1
  · rw [h] at h1; cases h1
  · rw [hraw] at hr; cases hr
    rw [h] at h1; cases h1
    exact ⟨rfl, next_at_end oc _ hi (by simp only; omega)⟩
  · rw [next_raw_piece oc s p hb hp hn] at hraw; cases hraw

/-- Repeated calls. -/
def callN (oc : Bool) : Nat → Structures → Fault (Option (Except MalformedStructureError Structure))
  | 0, s => (s.next oc).map Prod.fst
  | n + 1, s => s.next oc >>= fun x => callN oc n x.2

/-- C09: "forever", for any number of later calls. -/
theorem C09_forever (oc : Bool) (s : Structures) (h : s.next oc = .ok (none, s)) (n : Nat) :
    callN oc n s = .ok none := by
  induction n with
  | zero => simp [callN, h, Res.map]
  | succ n ih => simpa [callN, h, Bind.bind, Res.bind] using ih

example : (⟨⟨2, 8⟩, 3, 0, [1, 2, 3]⟩ : Structures).next true =
    .ok (none, ⟨⟨2, 8⟩, 3, 0, [1, 2, 3]⟩) := next_at_end _ _ (by decide) (by decide)

example : ∃ s1 s' item e, (⟨⟨2, 8⟩, 10, 0, [1, 20, 3, 0, 0, 0]⟩ : Structures).next_raw true =
      .ok (some (.error e), s1) ∧
    (⟨⟨2, 8⟩, 10, 0, [1, 20, 3, 0, 0, 0]⟩ : Structures).next true = .ok (some item, s') :=
  ⟨_, _, _, _, rfl, rfl⟩

/-! ### C10 -/

theorem decode_end (oc : Bool) (r : RawStructure) (h : r.info = .End) :
    decodeStructure oc r = .ok (.Other r) := by
  unfold decodeStructure; rw [h]

/-- C10: for version 3 and later, once the end-of-table structure has been yielded the iterator is
finished, whatever follows. -/
theorem C10_end_stops (oc : Bool) (s s' : Structures) (p : Piece)
    (item) (hb : s.buffer.length + 4 < 2 ^ 32) (hv : 3 ≤ s.smbios_version.major.toNat)
    (hp : PieceAt s.buffer s.idx.toNat p) (hend : p.kind = 127)
    (hn : s.idx.toNat + p.len < s.smbios_len.toNat)
    (h : s.next oc = .ok (some item, s')) :
    item = .ok (.Other (p.raw s.smbios_version)) ∧ s'.next oc = .ok (none, s') := by
  have hb' : s.buffer.length < 2 ^ 32 := by omega
  have hnext := next_piece oc s p hb' hp hn
  have hinfo : (p.raw s.smbios_version).info = .End := (ofU8_eq_end _).2 hend
  rw [decode_end _ _ hinfo, h] at hnext
  simp only [Res.toItem, Bind.bind, Res.bind, Res.ok.injEq, Prod.mk.injEq, Option.some.injEq] at hnext
  obtain ⟨rfl, rfl⟩ := hnext
  refine ⟨rfl, ?_⟩
  have hidx := after_idx hb' hp
  have hfit := (PieceAt.parts hp).1
  apply next_at_end
  · omega
  · have : (s.after p).smbios_len = (s.after p).idx := by
      unfold Structures.after
      simp only
      rw [if_pos]
      exact ⟨by rw [ge_iff_le, UInt8.le_iff_toNat_le]; exact hv, hend⟩
    rw [this]; omega

/-- An item of a run is an end-of-table structure. -/
def IsEndItem (item : Except MalformedStructureError Structure) : Prop :=
  ∃ r, item = .ok (.Other r) ∧ r.info = .End

theorem map_item_other {ε α : Type} {x : Res ε α} {f : α → Structure} {r : RawStructure}
    (h : (x.map f).toItem = .ok (.ok (.Other r))) : ∃ a, f a = .Other r := by
  cases x with
  | ok a => injection h with h; injection h with h; exact ⟨a, h⟩
  | err e => injection h with h; cases h
  | panic => cases h
  | ub => cases h

theorem endItem_kind {oc : Bool} {r : RawStructure} {item}
    (h : (decodeStructure oc r).toItem = .ok item) (he : IsEndItem item) : r.info = .End := by
  obtain ⟨r', rfl, hr'⟩ := he
  unfold decodeStructure at h
  split at h <;> first
    | (simp only [Res.toItem, Res.ok.injEq, Except.ok.injEq, Structure.Other.injEq] at h; rw [h]; exact hr')
    | (obtain ⟨a, ha⟩ := map_item_other h; cases ha)

/-- C10: a run contains at most one end-of-table item and it is the last one. -/
theorem C10_end_is_last (oc : Bool) (s s' : Structures) (pre post : List _) (item)
    (hb : s.buffer.length + 4 < 2 ^ 32) (hv : 3 ≤ s.smbios_version.major.toNat)
    (h : Runs oc s (pre ++ item :: post) s') (he : IsEndItem item) : post = [] := by
  have hb' : s.buffer.length < 2 ^ 32 := by omega
  obtain ⟨s1, h1, h2⟩ := h.split
  obtain ⟨hbuf, hver⟩ := runs_buffer hb' h1
  cases h2 with
  | cons h3 h4 =>
    rename_i s2
    rcases next_cases oc s1 (by rw [hbuf]; exact hb') with
      (h5 | h5) | h5 | ⟨hi, e', hr, h5⟩ | ⟨p, it, hp, hn, hd, h5⟩
    · rw [h3] at h5; cases h5
    · rw [h3] at h5; cases h5
    · rw [h3] at h5; cases h5
    · rw [h3] at h5; cases h5
      obtain ⟨r, hr, -⟩ := he
      cases hr
    · have h6 := h5
      rw [h3] at h6; cases h6
      have hk : p.kind = 127 := (ofU8_eq_end _).1 (endItem_kind hd he)
      have := (C10_end_stops oc s1 _ p item (by rw [hbuf]; exact hb) (by rw [hver]; exact hv) hp hk hn h3).2
      cases h4 with
      | nil => rfl
      | cons h7 _ => rw [this] at h7; cases h7

/-- C10: for version 2 the type of a structure has no influence on how the iteration continues. -/
theorem C10_v2_continues (oc : Bool) (s s' : Structures) (p : Piece) (item)
    (hb : s.buffer.length < 2 ^ 32) (hv : s.smbios_version.major.toNat < 3)
    (hp : PieceAt s.buffer s.idx.toNat p) (hn : s.idx.toNat + p.len < s.smbios_len.toNat)
    (h : s.next oc = .ok (some item, s')) :
    s' = { s with idx := .ofNat (s.idx.toNat + p.bytes.length) } := by
  have hnext := next_piece oc s p hb hp hn
  rw [h] at hnext
  cases hd : (decodeStructure oc (p.raw s.smbios_version)).toItem with
  | err e => cases e
  | panic => rw [hd] at hnext; cases hnext
  | ub => rw [hd] at hnext; cases hnext
  | ok it =>
    rw [hd] at hnext
    simp only [Bind.bind, Res.bind, Res.ok.injEq, Prod.mk.injEq, Option.some.injEq] at hnext
    rw [hnext.2]
    unfold Structures.after
    rw [if_neg]
    rintro ⟨h1, -⟩
    rw [ge_iff_le, UInt8.le_iff_toNat_le] at h1
    have : (3 : UInt8).toNat = 3 := rfl
    omega

/-- The sample table has an end-of-table structure at offset 10. -/
example : PieceAt sampleTable 10 sampleEnd ∧ PieceAt sampleTable 0 samplePiece :=
  ⟨⟨sampleEnd_wf, samplePiece.bytes, [1, 2, 3], rfl, rfl⟩,
   ⟨samplePiece_wf, [], sampleEnd.bytes ++ [1, 2, 3], rfl, rfl⟩⟩

/-! ### C11 -/

/-- The pieces correspond one to one to decoded items. -/
inductive Decoded (oc : Bool) (v : SmbiosVersion) :
    List Piece → List (Except MalformedStructureError Structure) → Prop where
  | nil : Decoded oc v [] []
  | cons {p it ps items} : (decodeStructure oc (p.raw v)).toItem = .ok it →
      Decoded oc v ps items → Decoded oc v (p :: ps) (it :: items)

/-- C11: the structures yielded by a run lie one after the other in the buffer, starting at the
cursor; the run may end with one structural error. -/
theorem C11_tiling {oc : Bool} {s s' : Structures} {items} (hb : s.buffer.length < 2 ^ 32)
    (h : Runs oc s items s') : ∃ ps : List Piece, (∀ p ∈ ps, p.WF) ∧
      (ps ≠ [] → OccursAt s.buffer s.idx.toNat (ps.flatMap Piece.bytes)) ∧
      s'.idx.toNat = s.idx.toNat + (ps.flatMap Piece.bytes).length ∧
      (Decoded oc s.smbios_version ps items ∨
       ∃ items' e, items = items' ++ [.error e] ∧ Decoded oc s.smbios_version ps items') := by
  induction h with
  | nil => exact ⟨[], by simp, by simp, by simp, Or.inl .nil⟩
  | cons h t ih =>
    rename_i s s1 s2 item items
    rcases next_cases oc s hb with (h1 | h1) | h1 | ⟨hi, e, -, h1⟩ | ⟨p, it, hp, hn, hd, h1⟩
    · rw [h] at h1; cases h1
    · rw [h] at h1; cases h1
    · rw [h] at h1; cases h1
    · rw [h] at h1; cases h1
      cases t with
      | nil => exact ⟨[], by simp, by simp, by simp, Or.inr ⟨[], e, rfl, .nil⟩⟩
      | cons h2 _ =>
        rw [next_at_end oc { s with smbios_len := s.idx } hi (by simp only; omega)] at h2
        cases h2
    · rw [h] at h1; cases h1
      have hidx := after_idx hb hp
      obtain ⟨ps, hwf, hocc, hend, hdec⟩ := ih hb
      have hbuf : (s.after p).buffer = s.buffer := rfl
      have hver : (s.after p).smbios_version = s.smbios_version := rfl
      rw [hbuf, hidx] at hocc
      rw [hidx] at hend
      rw [hver] at hdec
      refine ⟨p :: ps, ?_, ?_, ?_, ?_⟩
      · intro q hq
        rcases List.mem_cons.1 hq with rfl | hq
        · exact hp.1
        · exact hwf q hq
      · intro _
        rw [List.flatMap_cons]
        by_cases hps : ps = []
        · subst hps; simpa using hp.2
        · obtain ⟨rest, hr, -⟩ := occursAt_drop_eq hp.2
          obtain ⟨rest', hr', -⟩ := occursAt_drop_eq (hocc hps)
          have hfit := (PieceAt.parts hp).1
          apply drop_eq_occursAt (rest := rest')
          · rw [← List.drop_drop, hr, List.drop_left] at hr'
            rw [hr, hr', List.append_assoc]
          · omega
      · rw [hend, List.flatMap_cons, List.length_append]; omega
      · rcases hdec with hdec | ⟨items', e, rfl, hdec⟩
        · exact Or.inl (.cons hd hdec)
        · exact Or.inr ⟨item :: items', e, rfl, .cons hd hdec⟩

/-- C11: from the start of the table the concatenation is a prefix of the buffer. -/
theorem C11_prefix {oc : Bool} {s s' : Structures} {items} (hb : s.buffer.length < 2 ^ 32)
    (h0 : s.idx = 0) (h : Runs oc s items s') : ∃ ps : List Piece, (∀ p ∈ ps, p.WF) ∧
      ps.flatMap Piece.bytes <+: s.buffer ∧
      (Decoded oc s.smbios_version ps items ∨
       ∃ items' e, items = items' ++ [.error e] ∧ Decoded oc s.smbios_version ps items') := by
  obtain ⟨ps, hwf, hocc, -, hdec⟩ := C11_tiling hb h
  refine ⟨ps, hwf, ?_, hdec⟩
  by_cases hps : ps = []
  · subst hps; simp
  · obtain ⟨rest, hr, -⟩ := occursAt_drop_eq (hocc hps)
    rw [h0] at hr
    exact ⟨rest, by simpa using hr.symm⟩

/-! ### C12 -/

theorem decoded_runs (oc : Bool) (v : SmbiosVersion) (n : UInt32) (ps : List Piece) (items)
    (pre post : Bytes)
    (hwf : ∀ p ∈ ps, p.WF) (hnoend : v.major.toNat < 3 ∨ ∀ p ∈ ps, p.kind ≠ 127)
    (hlen : (pre ++ ps.flatMap Piece.bytes ++ post).length < 2 ^ 32)
    (hn : pre.length + (ps.flatMap Piece.bytes).length ≤ n.toNat)
    (hd : Decoded oc v ps items) :
    Runs oc ⟨v, n, .ofNat pre.length, pre ++ ps.flatMap Piece.bytes ++ post⟩ items
      ⟨v, n, .ofNat (pre.length + (ps.flatMap Piece.bytes).length),
        pre ++ ps.flatMap Piece.bytes ++ post⟩ := by
  induction hd generalizing pre with
  | nil => simpa using Runs.nil _
  | cons hd t ih =>
    rename_i p it ps items
    have hpwf := hwf p (by simp)
    rw [List.flatMap_cons] at hlen hn ⊢
    simp only [List.length_append] at hlen hn
    have hpre : (UInt32.ofNat pre.length).toNat = pre.length := by simp; omega
    have hs2 := EndsAtFirstNulNul.length hpwf.2
    have hpl := Piece.bytes_length p
    have hnext := next_piece oc ⟨v, n, .ofNat pre.length,
      pre ++ (p.bytes ++ ps.flatMap Piece.bytes) ++ post⟩ p (by simp only [List.length_append]; omega)
      ⟨hpwf, by
        simp only
        rw [hpre]
        exact ⟨pre, ps.flatMap Piece.bytes ++ post, by simp, rfl⟩⟩
      (by simp only; rw [hpre]; omega)
    simp only at hnext
    rw [hd] at hnext
    have hafter : (⟨v, n, .ofNat pre.length, pre ++ (p.bytes ++ ps.flatMap Piece.bytes) ++ post⟩
        : Structures).after p = ⟨v, n, .ofNat (pre ++ p.bytes).length,
          (pre ++ p.bytes) ++ ps.flatMap Piece.bytes ++ post⟩ := by
      unfold Structures.after
      simp only [hpre, List.length_append, List.append_assoc]
      rw [if_neg]
      rintro ⟨h1, h2⟩
      rcases hnoend with h | h
      · rw [ge_iff_le, UInt8.le_iff_toNat_le] at h1
        have : (3 : UInt8).toNat = 3 := rfl
        omega
      · exact h p (by simp) h2
    rw [hafter] at hnext
    have := ih (pre ++ p.bytes) (fun q hq => hwf q (List.mem_cons_of_mem _ hq))
      (hnoend.imp id (fun h q hq => h q (List.mem_cons_of_mem _ hq)))
      (by simp only [List.length_append]; omega) (by simp only [List.length_append]; omega)
    refine .cons hnext ?_
    have e : (pre ++ p.bytes).length + (ps.flatMap Piece.bytes).length =
        pre.length + (p.bytes ++ ps.flatMap Piece.bytes).length := by
      simp only [List.length_append]; omega
    rw [e] at this
    simpa [List.append_assoc] using this

theorem runs_collects {oc : Bool} {s s' s'' : Structures} {items} (h : Runs oc s items s')
    (hn : s'.next oc = .ok (none, s'')) : CollectsR (Structures.next oc) s items := by
  induction h with
  | nil => exact .done hn
  | cons h t ih => exact .step h (ih hn)

/-- C12 without end-of-table structure (version 2, or no type 127 present): iterating over an encoded
table whose declared length is its actual length yields the decoding of exactly the encoded
structures, in order, then `None`; whatever lies after the table is not touched. -/
theorem C12_round_trip (oc : Bool) (v : SmbiosVersion) (n : UInt32) (ps : List Piece) (items)
    (post : Bytes) (hwf : ∀ p ∈ ps, p.WF)
    (hnoend : v.major.toNat < 3 ∨ ∀ p ∈ ps, p.kind ≠ 127)
    (hlen : (ps.flatMap Piece.bytes ++ post).length < 2 ^ 32)
    (hlen4 : (ps.flatMap Piece.bytes).length + 4 < 2 ^ 32)
    (hn : n.toNat = (ps.flatMap Piece.bytes).length)
    (hd : Decoded oc v ps items) :
    CollectsR (Structures.next oc) ⟨v, n, 0, ps.flatMap Piece.bytes ++ post⟩ items := by
  have := decoded_runs oc v n ps items [] post hwf hnoend (by simpa using hlen)
    (by rw [List.length_nil]; omega) hd
  simp only [List.nil_append, List.length_nil, Nat.zero_add] at this
  refine runs_collects this (next_at_end oc _ ?_ ?_)
  · have : (UInt32.ofNat (ps.flatMap Piece.bytes).length).toNat = (ps.flatMap Piece.bytes).length := by
      rw [UInt32.toNat_ofNat']; omega
    simp only [this]; omega
  · have : (UInt32.ofNat (ps.flatMap Piece.bytes).length).toNat = (ps.flatMap Piece.bytes).length := by
      rw [UInt32.toNat_ofNat']; omega
    simp only [this]; omega

/-- C12 with the end-of-table structure (version 3 and later): the declared length is only an upper
bound, iteration ends after the end-of-table structure. -/
theorem C12_round_trip_end (oc : Bool) (v : SmbiosVersion) (n : UInt32) (ps : List Piece) (e : Piece)
    (items) (post : Bytes) (hv : 3 ≤ v.major.toNat)
    (hwf : ∀ p ∈ ps, p.WF) (hnoend : ∀ p ∈ ps, p.kind ≠ 127) (he : e.WF) (hend : e.kind = 127)
    (hlen : (ps.flatMap Piece.bytes ++ e.bytes ++ post).length + 4 < 2 ^ 32)
    (hn : (ps.flatMap Piece.bytes ++ e.bytes).length ≤ n.toNat)
    (hd : Decoded oc v ps items) :
    CollectsR (Structures.next oc) ⟨v, n, 0, ps.flatMap Piece.bytes ++ e.bytes ++ post⟩
      (items ++ [.ok (.Other (e.raw v))]) := by
  simp only [List.length_append] at hlen hn
  have hrun := decoded_runs oc v n ps items [] (e.bytes ++ post) hwf (Or.inr hnoend)
    (by simp only [List.length_append, List.length_nil]; omega) (by rw [List.length_nil]; omega) hd
  simp only [List.nil_append, List.length_nil, Nat.zero_add, ← List.append_assoc] at hrun
  have hi : (UInt32.ofNat (ps.flatMap Piece.bytes).length).toNat = (ps.flatMap Piece.bytes).length := by
    rw [UInt32.toNat_ofNat']; omega
  have hpa : PieceAt (ps.flatMap Piece.bytes ++ e.bytes ++ post)
      (UInt32.ofNat (ps.flatMap Piece.bytes).length).toNat e := ⟨he, by
    rw [hi]; exact ⟨_, post, rfl, rfl⟩⟩
  have hs2 := EndsAtFirstNulNul.length he.2
  have hel := Piece.bytes_length e
  have hb : (ps.flatMap Piece.bytes ++ e.bytes ++ post).length < 2 ^ 32 := by
    simp only [List.length_append]; omega
  have hnn : (ps.flatMap Piece.bytes).length + e.len < n.toNat := by omega
  have hnext := next_piece oc ⟨v, n, .ofNat (ps.flatMap Piece.bytes).length,
    ps.flatMap Piece.bytes ++ e.bytes ++ post⟩ e hb hpa (by simp only [hi]; exact hnn)
  have hinfo : (e.raw v).info = .End := (ofU8_eq_end _).2 hend
  simp only [decode_end _ _ hinfo] at hnext
  have hstop := (C10_end_stops oc _ _ e _ (by simp only [List.length_append]; omega) hv hpa hend
    (by simp only [hi]; exact hnn) hnext).2
  exact runs_collects (hrun.snoc hnext) hstop

/-- Encoding and decoding of structures of types without decoder is the identity. -/
theorem decoded_other (oc : Bool) (v : SmbiosVersion) (ps : List Piece)
    (h : ∀ p ∈ ps, 128 ≤ p.kind.toNat) :
    Decoded oc v ps (ps.map fun p => .ok (.Other (p.raw v))) := by
  induction ps with
  | nil => exact .nil
  | cons p ps ih =>
    refine .cons ?_ (ih fun q hq => h q (List.mem_cons_of_mem _ hq))
    have hk := h p (by simp)
    have : (p.raw v).info = .Oem p.kind := by
      show InfoType.ofU8 p.kind = _
      unfold InfoType.ofU8
      simp only
      repeat rw [if_neg (by omega)]
    unfold decodeStructure
    rw [this]
    rfl

example : CollectsR (Structures.next true) ⟨⟨2, 8⟩, 10, 0, samplePiece.bytes ++ [9]⟩
    [.ok (.Other (samplePiece.raw ⟨2, 8⟩))] := by
  have := C12_round_trip true ⟨2, 8⟩ 10 [samplePiece] _ [9] (by simpa using samplePiece_wf)
    (Or.inl (by decide)) (by decide +kernel) (by decide +kernel) (by decide +kernel)
    (decoded_other true ⟨2, 8⟩ [samplePiece] (by simp [samplePiece]))
  simpa using this

example : CollectsR (Structures.next true) ⟨⟨3, 1⟩, 5000, 0, sampleTable⟩
    [.ok (.Other (samplePiece.raw ⟨3, 1⟩)), .ok (.Other (sampleEnd.raw ⟨3, 1⟩))] := by
  have := C12_round_trip_end true ⟨3, 1⟩ 5000 [samplePiece] sampleEnd _ [1, 2, 3] (by decide)
    (by simpa using samplePiece_wf) (by simp [samplePiece]) sampleEnd_wf rfl
    (by decide +kernel) (by decide +kernel)
    (decoded_other true ⟨3, 1⟩ [samplePiece] (by simp [samplePiece]))
  simpa [sampleTable] using this

/-! ### C13 -/

/-- C13: the string area of an extracted structure ends at its first double NUL; the structure is
found in the buffer at the cursor. -/
theorem C13_strings_end (oc : Bool) (s s' : Structures) (r : RawStructure)
    (hb : s.buffer.length < 2 ^ 32) (h : s.next_raw oc = .ok (some (.ok r), s')) :
    EndsAtFirstNulNul r.strings ∧ OccursAt s.buffer (s.idx.toNat + r.length.toNat) r.strings ∧
    s'.idx.toNat = s.idx.toNat + r.length.toNat + r.strings.length := by
  rcases next_raw_cases oc s hb with (h1 | h1) | h1 | ⟨hi, e, h1⟩ | ⟨p, hp, hn, h1⟩
  · rw [h] at h1; cases h1
  · rw [h] at h1; cases h1
  · rw [h] at h1; cases h1
  · rw [h] at h1; cases h1
  · rw [h] at h1; cases h1
    obtain ⟨hfit, hk, hl, hl8, hh, hdt, rest, hr⟩ := PieceAt.parts hp
    have hlen : ((p.raw s.smbios_version).length).toNat = p.len := by rw [← hl, hl8]; rfl
    refine ⟨hp.1.2, ?_, ?_⟩
    · rw [hlen]
      have := Piece.bytes_length p
      exact drop_eq_occursAt hr (by omega)
    · rw [hlen]
      show (UInt32.ofNat (s.idx.toNat + p.bytes.length)).toNat = s.idx.toNat + p.len + p.strings.length
      have := Piece.bytes_length p
      simp; omega

example : ∃ r s', (⟨⟨3, 1⟩, 5000, 0, sampleTable⟩ : Structures).next_raw true =
    .ok (some (.ok r), s') := ⟨_, _, by
  exact next_raw_piece true ⟨⟨3, 1⟩, 5000, 0, sampleTable⟩ samplePiece (by decide +kernel)
    ⟨samplePiece_wf, [], sampleEnd.bytes ++ [1, 2, 3], rfl, rfl⟩ (by decide +kernel)⟩

/-! ### C15 -/

/-- Full statement of C15; false of the code. -/
def C15_full : Prop := ∀ (oc : Bool) (s : Structures), s.buffer.length < 2 ^ 32 →
  (s.next_raw oc).NoFault

/-- C15 (part that holds): extraction is free of faults exactly when, the header being inside the
declared length, it is also inside the buffer, and, the formatted area being inside the declared
length, it is inside the buffer too and, if the string area is terminated, the length field is at
least 4. Missing from the full statement: freedom from faults in the other cases. (Cursors within 256
bytes of 4 GiB are excluded.) -/
theorem C15_no_fault_iff_partial (oc : Bool) (s : Structures) (hb : s.buffer.length < 2 ^ 32)
    (hi : s.idx.toNat + 256 < 2 ^ 32) : (s.next_raw oc).NoFault ↔
      (s.idx.toNat + 4 ≤ s.smbios_len.toNat → s.idx.toNat + 4 ≤ s.buffer.length ∧
        (s.idx.toNat + (byteAt s.buffer (s.idx.toNat + 1)).toNat < s.smbios_len.toNat →
          s.idx.toNat + (byteAt s.buffer (s.idx.toNat + 1)).toNat ≤ s.buffer.length ∧
          (4 ≤ (byteAt s.buffer (s.idx.toNat + 1)).toNat ∨
            ∀ x y, s.buffer.drop (s.idx.toNat + (byteAt s.buffer (s.idx.toNat + 1)).toNat) ≠
              x ++ [0, 0] ++ y))) := by
  have hl256 := (byteAt s.buffer (s.idx.toNat + 1)).toNat_lt
  rw [next_raw_eval oc s hb (by omega) (by intro; omega)]
  generalize (byteAt s.buffer (s.idx.toNat + 1)) = l at *
  split
  · simp [Res.NoFault]; omega
  split
  · simp [Res.NoFault]; omega
  split
  · simp [Res.NoFault]; omega
  split
  · simp [Res.NoFault]; omega
  split
  · simp [Res.NoFault]; omega
  split
  · rename_i hf
    simp only [Res.NoFault]
    constructor
    · intro _ _
      exact ⟨by omega, fun _ => ⟨by omega, Or.inr (findNulNul_none hf)⟩⟩
    · intro _; simp
  · rename_i t hf
    split
    · constructor
      · rintro ⟨h, -⟩; exact absurd rfl h
      · intro h
        rcases ((h (by omega)).2 (by omega)).2 with h4 | h4
        · omega
        · obtain ⟨⟨⟨x, hx⟩, -⟩, -⟩ := findNulNul_some hf
          exact absurd (by rw [← hx, List.take_append_drop]) (h4 x _)
    · simp only [Res.NoFault]
      constructor
      · intro _ _; exact ⟨by omega, fun _ => ⟨by omega, Or.inl (by omega)⟩⟩
      · intro _; simp

/-- C15: in particular no fault when the buffer covers the declared length and header lengths are at
least 4. -/
theorem C15_no_fault_partial (oc : Bool) (s : Structures) (hb : s.buffer.length < 2 ^ 32)
    (hi : s.idx.toNat + 256 < 2 ^ 32) (hcov : s.smbios_len.toNat ≤ s.buffer.length)
    (h4 : s.idx.toNat + 4 ≤ s.smbios_len.toNat → 4 ≤ (byteAt s.buffer (s.idx.toNat + 1)).toNat) :
    (s.next_raw oc).NoFault := by
  rw [C15_no_fault_iff_partial oc s hb hi]
  intro h
  exact ⟨by omega, fun h' => ⟨by omega, Or.inl (h4 h)⟩⟩

/-- A header length of 0 makes the iterator panic. -/
theorem C15_full_false : ¬ C15_full := by
  intro h
  exact (h true ⟨⟨2, 8⟩, 6, 0, [0, 0, 0, 0, 0, 0]⟩ (by decide)).1 rfl

/-- A buffer shorter than the declared length makes the iterator read out of bounds. -/
theorem C15_out_of_bounds : ∃ s : Structures, s.buffer.length < s.smbios_len.toNat ∧
    s.next_raw true = .ub ∧ s.next_raw false = .ub :=
  ⟨⟨⟨2, 8⟩, 6, 0, [0, 4, 0]⟩, by decide, rfl, rfl⟩

example : (⟨⟨2, 8⟩, 6, 0, [126, 4, 0, 0, 0, 0]⟩ : Structures).smbios_len.toNat ≤ 6 := by decide

/-! ### C16 -/

/-- Full statement of C16; false of the code. -/
def C16_full : Prop := ∀ (oc : Bool) (s s' : Structures) (r : RawStructure),
  s.buffer.length < 2 ^ 32 → s.next_raw oc = .ok (some (.ok r), s') →
    s'.idx.toNat ≤ s.smbios_len.toNat

/-- C16 (part that holds): the formatted area ends before the declared length, and everything ends
before the end of the buffer. Missing: the string area may go beyond the declared length. -/
theorem C16_formatted_inside_partial (oc : Bool) (s s' : Structures) (r : RawStructure)
    (hb : s.buffer.length < 2 ^ 32) (h : s.next_raw oc = .ok (some (.ok r), s')) :
    s.idx.toNat + r.length.toNat < s.smbios_len.toNat ∧ s'.idx.toNat ≤ s.buffer.length ∧
    (s.buffer.length ≤ s.smbios_len.toNat → s'.idx.toNat ≤ s.smbios_len.toNat) := by
  rcases next_raw_cases oc s hb with (h1 | h1) | h1 | ⟨hi, e, h1⟩ | ⟨p, hp, hn, h1⟩
  · rw [h] at h1; cases h1
  · rw [h] at h1; cases h1
  · rw [h] at h1; cases h1
  · rw [h] at h1; cases h1
  · rw [h] at h1; cases h1
    obtain ⟨hfit, hk, hl, hl8, hh, hdt, rest, hr⟩ := PieceAt.parts hp
    have hlen : ((p.raw s.smbios_version).length).toNat = p.len := by rw [← hl, hl8]; rfl
    have hidx : (UInt32.ofNat (s.idx.toNat + p.bytes.length)).toNat = s.idx.toNat + p.bytes.length := by
      simp; omega
    rw [hlen]
    refine ⟨hn, ?_, ?_⟩
    · show (UInt32.ofNat (s.idx.toNat + p.bytes.length)).toNat ≤ _
      rw [hidx]; exact hfit
    · intro hle
      show (UInt32.ofNat (s.idx.toNat + p.bytes.length)).toNat ≤ _
      rw [hidx]; omega

/-- A structure whose strings run past the declared table length of 5 is yielded. -/
theorem C16_full_false : ¬ C16_full := by
  intro h
  have := h true ⟨⟨2, 8⟩, 5, 0, [126, 4, 1, 0, 65, 66, 67, 0, 0]⟩ _ _ (by decide)
    (rfl : _ = Res.ok (some (Except.ok (RawStructure.mk ⟨2, 8⟩ (.Oem 126) 4 1 []
      [65, 66, 67, 0, 0])), Structures.mk ⟨2, 8⟩ 5 9 [126, 4, 1, 0, 65, 66, 67, 0, 0]))
  revert this; decide

/-! ### C17 -/

/-- Two iterator states that only differ in bytes before the cursor. -/
structure Agree (s t : Structures) : Prop where
  version : s.smbios_version = t.smbios_version
  len : s.smbios_len = t.smbios_len
  idx : s.idx = t.idx
  length : s.buffer.length = t.buffer.length
  rest : s.buffer.drop s.idx.toNat = t.buffer.drop s.idx.toNat
  inside : s.idx.toNat ≤ s.buffer.length

theorem agree_next {oc : Bool} {s t s' : Structures} {o} (hb : s.buffer.length + 256 < 2 ^ 32)
    (ha : Agree s t) (h : s.next oc = .ok (o, s')) :
    ∃ t', t.next oc = .ok (o, t') ∧ Agree s' t' := by
  obtain ⟨v, n, i, b⟩ := s
  obtain ⟨v', n', i', b'⟩ := t
  obtain ⟨rfl, rfl, rfl, hlen, hrest, hin⟩ := ha
  simp only at hb hlen hrest hin
  have hbyte : ∀ k, byteAt b (i.toNat + k) = byteAt b' (i.toNat + k) := by
    intro k; rw [← byteAt_drop, ← byteAt_drop, hrest]
  have hdrop : ∀ k, b.drop (i.toNat + k) = b'.drop (i.toNat + k) := by
    intro k; rw [← List.drop_drop, ← List.drop_drop, hrest]
  have hu16 : ∀ k, u16At b (i.toNat + k) = u16At b' (i.toNat + k) := by
    intro k; unfold u16At; rw [← leAt_drop, ← leAt_drop, hrest]
  have h0 := hbyte 0
  rw [Nat.add_zero] at h0
  have hl256 := (byteAt b (i.toNat + 1)).toNat_lt
  have hraw : ∀ o1 s1, Structures.next_raw oc ⟨v, n, i, b⟩ = .ok (o1, s1) →
      ∃ t1, Structures.next_raw oc ⟨v, n, i, b'⟩ = .ok (o1, t1) ∧ Agree s1 t1 ∧
        s1.smbios_version = v := by
    intro o1 s1 h1
    have hagree : Agree ⟨v, n, i, b⟩ ⟨v, n, i, b'⟩ := ⟨rfl, rfl, rfl, hlen, hrest, hin⟩
    rw [next_raw_eval oc _ (by simp only; omega) (by simp only; omega) (by simp only; intro; omega)] at h1
    rw [next_raw_eval oc _ (by simp only; omega) (by simp only; omega)
      (by simp only; rw [← hbyte]; intro; omega)]
    simp only at h1 ⊢
    rw [← hbyte 1, ← hdrop, ← hdrop, ← hlen, ← h0, ← hu16]
    split at h1
    · rename_i c; rw [if_pos c]; cases h1; exact ⟨_, rfl, hagree, rfl⟩
    rename_i c1; rw [if_neg c1]
    split at h1
    · cases h1
    rename_i c2; rw [if_neg c2]
    split at h1
    · cases h1
    rename_i c3; rw [if_neg c3]
    split at h1
    · rename_i c; rw [if_pos c]; cases h1; exact ⟨_, rfl, hagree, rfl⟩
    rename_i c4; rw [if_neg c4]
    split at h1
    · cases h1
    rename_i c5; rw [if_neg c5]
    split at h1
    · cases h1; exact ⟨_, rfl, hagree, rfl⟩
    · rename_i t hf
      split at h1
      · cases h1
      rename_i c6; rw [if_neg c6]
      cases h1
      obtain ⟨-, htl, -⟩ := findNulNul_some hf
      rw [List.length_drop] at htl
      refine ⟨_, rfl, ⟨rfl, rfl, rfl, hlen, ?_, ?_⟩, rfl⟩
      · simp only
        have : (UInt32.ofNat (i.toNat + (byteAt b (i.toNat + 1)).toNat + t + 1)).toNat =
          i.toNat + ((byteAt b (i.toNat + 1)).toNat + t + 1) := by simp; omega
        rw [this]; exact hdrop _
      · simp only
        have : (UInt32.ofNat (i.toNat + (byteAt b (i.toNat + 1)).toNat + t + 1)).toNat =
          i.toNat + ((byteAt b (i.toNat + 1)).toNat + t + 1) := by simp; omega
        rw [this]; omega
  unfold Structures.next at h ⊢
  cases hr : Structures.next_raw oc ⟨v, n, i, b⟩ with
  | err e => cases e
  | panic => rw [hr] at h; cases h
  | ub => rw [hr] at h; cases h
  | ok x =>
    obtain ⟨o1, s1⟩ := x
    obtain ⟨t1, ht1, ha1, hv1⟩ := hraw o1 s1 hr
    rw [hr] at h
    rw [ht1]
    simp only [Bind.bind, Res.bind] at h ⊢
    cases o1 with
    | none =>
      simp only [Pure.pure] at h ⊢
      cases h; exact ⟨t1, rfl, ha1⟩
    | some x =>
      cases x with
      | error e =>
        simp only [Pure.pure] at h ⊢
        cases h
        exact ⟨_, rfl, ⟨ha1.version, ha1.idx, ha1.idx, ha1.length, ha1.rest, ha1.inside⟩⟩
      | ok r =>
        simp only at h ⊢
        cases hd : (decodeStructure oc r).toItem with
        | err e => cases e
        | panic => rw [hd] at h; cases h
        | ub => rw [hd] at h; cases h
        | ok item =>
          rw [hd] at h
          simp only [Pure.pure, Res.ok.injEq, Prod.mk.injEq] at h ⊢
          obtain ⟨rfl, rfl⟩ := h
          refine ⟨_, ⟨rfl, rfl⟩, ?_⟩
          rw [← ha1.version]
          split
          · exact ⟨rfl, ha1.idx, ha1.idx, ha1.length, ha1.rest, ha1.inside⟩
          · exact ha1

theorem agree_runs {oc : Bool} {s t s' : Structures} {items} (hb : s.buffer.length + 256 < 2 ^ 32)
    (ha : Agree s t) (h : Runs oc s items s') : ∃ t', Runs oc t items t' ∧ Agree s' t' := by
  induction h generalizing t with
  | nil => exact ⟨t, .nil _, ha⟩
  | cons h r ih =>
    obtain ⟨t1, ht1, ha1⟩ := agree_next hb ha h
    have hb' := (runs_buffer (by omega) (Runs.cons h (.nil _))).1
    obtain ⟨t2, ht2, ha2⟩ := ih (by rw [hb']; exact hb) ha1
    exact ⟨t2, .cons ht1 ht2, ha2⟩

/-- C17: whatever the decoding of the structure `p` at the cursor yields, the iteration goes on
exactly as if the same bytes carried a type without decoder: the state after the item agrees with
that of the other table, and all later runs yield the same items. -/
theorem C17_bad_structure_isolated {oc : Bool} (s s' : Structures) (p : Piece) (item)
    (pre post : Bytes) (k : UInt8) (hk : 128 ≤ k.toNat)
    (hbuf : s.buffer = pre ++ p.bytes ++ post) (hidx : s.idx.toNat = pre.length)
    (hb : s.buffer.length + 256 < 2 ^ 32) (hwf : p.WF)
    (hend : s.smbios_version.major.toNat < 3 ∨ p.kind ≠ 127)
    (hn : s.idx.toNat + p.len < s.smbios_len.toNat)
    (h : s.next oc = .ok (some item, s')) :
    s'.idx.toNat = pre.length + p.bytes.length ∧
    ∃ t', ({ s with buffer := pre ++ { p with kind := k }.bytes ++ post } : Structures).next oc =
        .ok (some (.ok (.Other ({ p with kind := k }.raw s.smbios_version))), t') ∧
      Agree s' t' ∧
      ∀ items, (∃ s'', Runs oc s' items s'') ↔ (∃ t'', Runs oc t' items t'') := by
  have hb' : s.buffer.length < 2 ^ 32 := by omega
  have hp : PieceAt s.buffer s.idx.toNat p := ⟨hwf, by rw [hbuf, hidx]; exact ⟨pre, post, rfl, rfl⟩⟩
  have hnext := next_piece oc s p hb' hp hn
  have hs' : s' = s.after p := by
    rw [h] at hnext
    cases hd : (decodeStructure oc (p.raw s.smbios_version)).toItem with
    | err e => cases e
    | panic => rw [hd] at hnext; cases hnext
    | ub => rw [hd] at hnext; cases hnext
    | ok it =>
      rw [hd] at hnext
      simp only [Bind.bind, Res.bind, Res.ok.injEq, Prod.mk.injEq] at hnext
      exact hnext.2
  subst hs'
  let q : Piece := { p with kind := k }
  have hqlen : q.bytes.length = p.bytes.length := by
    rw [Piece.bytes_length, Piece.bytes_length]; rfl
  have hqwf : q.WF := hwf
  let t : Structures := { s with buffer := pre ++ q.bytes ++ post }
  have htlen : t.buffer.length = s.buffer.length := by
    show (pre ++ q.bytes ++ post).length = _
    rw [hbuf]; simp only [List.length_append, hqlen]
  have hq : PieceAt t.buffer t.idx.toNat q := ⟨hqwf, by
    show OccursAt (pre ++ q.bytes ++ post) s.idx.toNat q.bytes
    rw [hidx]; exact ⟨pre, post, rfl, rfl⟩⟩
  have htnext := next_piece oc t q (by rw [htlen]; exact hb') hq hn
  have hinfo : (q.raw t.smbios_version).info = .Oem k := by
    show InfoType.ofU8 k = _
    unfold InfoType.ofU8
    simp only
    repeat rw [if_neg (by omega)]
  have hdq : decodeStructure oc (q.raw t.smbios_version) = .ok (.Other (q.raw t.smbios_version)) := by
    unfold decodeStructure; rw [hinfo]
  rw [hdq] at htnext
  have hai := after_idx hb' hp
  have hfit := (PieceAt.parts hp).1
  have hagree : Agree (s.after p) (t.after q) := by
    have hti : t.idx.toNat + q.bytes.length = s.idx.toNat + p.bytes.length := by rw [hqlen]
    refine ⟨rfl, ?_, ?_, htlen.symm, ?_, ?_⟩
    · unfold Structures.after
      simp only
      rw [if_neg, if_neg]
      · rintro ⟨-, h2⟩
        have : k = 127 := h2
        rw [this] at hk
        revert hk; decide
      · rintro ⟨h1, h2⟩
        rcases hend with h' | h'
        · rw [ge_iff_le, UInt8.le_iff_toNat_le] at h1
          have : (3 : UInt8).toNat = 3 := rfl
          omega
        · exact h' h2
    · show UInt32.ofNat _ = UInt32.ofNat _
      rw [hti]
    · rw [hai]
      show s.buffer.drop _ = (pre ++ q.bytes ++ post).drop _
      rw [hbuf, hidx]
      have e1 : (pre ++ p.bytes ++ post).drop (pre.length + p.bytes.length) = post := by
        rw [show pre.length + p.bytes.length = (pre ++ p.bytes).length by simp, List.drop_left]
      have e2 : (pre ++ q.bytes ++ post).drop (pre.length + p.bytes.length) = post := by
        rw [show pre.length + p.bytes.length = (pre ++ q.bytes).length by simp [hqlen],
          List.drop_left]
      rw [e1, e2]
    · rw [hai]; exact hfit
  refine ⟨by rw [hai, hidx], t.after q, htnext, hagree, ?_⟩
  intro items
  constructor
  · rintro ⟨s'', hr⟩
    obtain ⟨t'', ht, -⟩ := agree_runs (by exact hb) hagree hr
    exact ⟨t'', ht⟩
  · rintro ⟨t'', hr⟩
    have hsymm : Agree (t.after q) (s.after p) :=
      ⟨hagree.version.symm, hagree.len.symm, hagree.idx.symm, hagree.length.symm,
        by rw [← hagree.idx]; exact hagree.rest.symm,
        by rw [← hagree.idx, ← hagree.length]; exact hagree.inside⟩
    obtain ⟨s'', hs, -⟩ := agree_runs (by show t.buffer.length + 256 < _; rw [htlen]; exact hb) hsymm hr
    exact ⟨s'', hs⟩

/-- A portable battery structure that is too short is an error item; the iteration goes on. -/
example : ∃ item s', (⟨⟨2, 8⟩, 8, 0, [22, 4, 0, 0, 0, 0, 1, 1]⟩ : Structures).next true =
    .ok (some (.error item), s') ∧ s'.idx = 6 :=
  ⟨.InvalidFormattedSectionLength .PortableBattery 0 "" 0x1A,
    ⟨⟨2, 8⟩, 8, 6, [22, 4, 0, 0, 0, 0, 1, 1]⟩, rfl, rfl⟩

/-! ### C18 -/

/-- The type number of the kinds with a decoder. -/
def infoNumber : InfoType → Option Nat
  | .Bios => some 0 | .System => some 1 | .BaseBoard => some 2 | .Enclosure => some 3
  | .Processor => some 4 | .Cache => some 7 | .PortConnector => some 8 | .SystemSlots => some 9
  | .OemStrings => some 11 | .SystemConfigurationOptions => some 12 | .BiosLanguage => some 13
  | .GroupAssociations => some 14 | .SystemEventLog => some 15 | .PhysicalMemoryArray => some 16
  | .MemoryDevice => some 17 | .MemoryError32 => some 18 | .MemoryArrayMappedAddress => some 19
  | .MemoryDeviceMappedAddress => some 20 | .BuiltInPointingDevice => some 21
  | .PortableBattery => some 22 | _ => none

/-- C18: a decoded item is of the variant of its type byte. -/
theorem C18_dispatch (oc : Bool) (r : RawStructure) (k : UInt8) (st : Structure)
    (hk : r.info = InfoType.ofU8 k) (h : decodeStructure oc r = .ok st) :
    (k.toNat ∈ supportedTypes → typeNumber st = some k.toNat) ∧
    (k.toNat ∉ supportedTypes → st = .Other r) := by
  have mapok : ∀ {α : Type} {x : R α} {f : α → Structure}, x.map f = .ok st → ∃ a, st = f a := by
    intro α x f h
    cases x with
    | ok a => injection h with h; exact ⟨a, h.symm⟩
    | err e => cases h
    | panic => cases h
    | ub => cases h
  have table : ∀ k : UInt8, infoNumber (InfoType.ofU8 k) =
      if k.toNat ∈ supportedTypes then some k.toNat else none := by
    apply forall_u8
    decide +kernel
  have tk := table k
  rw [← hk] at tk
  unfold decodeStructure at h
  split at h
  all_goals
    rename_i hinfo
    first
    | (rw [hinfo] at tk
       simp only [infoNumber] at tk
       obtain ⟨a, rfl⟩ := mapok h
       by_cases hs : k.toNat ∈ supportedTypes
       · rw [if_pos hs] at tk
         exact ⟨fun _ => tk, fun h => absurd hs h⟩
       · rw [if_neg hs] at tk; cases tk)
    | skip
  injection h with h
  subst h
  have hns : k.toNat ∉ supportedTypes := by
    intro hs
    rw [if_pos hs] at tk
    cases hi : r.info <;> first | (rw [hi] at tk; cases tk; done) | (exfalso; simp_all)
  exact ⟨fun h => absurd h hns, fun _ => rfl⟩

/-- C18: a structure of a type without decoder is yielded verbatim: version, type, length, handle,
formatted bytes and strings are those found in the table. -/
theorem C18_unsupported_verbatim (oc : Bool) (s : Structures) (p : Piece)
    (hb : s.buffer.length < 2 ^ 32) (hp : PieceAt s.buffer s.idx.toNat p)
    (hn : s.idx.toNat + p.len < s.smbios_len.toNat) (hk : p.kind.toNat ∉ supportedTypes) :
    ∃ s', s.next oc = .ok (some (.ok (.Other (p.raw s.smbios_version))), s') := by
  have hinfo : ∀ k : UInt8, k.toNat ∉ supportedTypes →
      InfoType.ofU8 k = .SystemBoot ∨ InfoType.ofU8 k = .End ∨ InfoType.ofU8 k = .Oem k := by
    apply forall_u8
    decide +kernel
  have hd : decodeStructure oc (p.raw s.smbios_version) = .ok (.Other (p.raw s.smbios_version)) := by
    have h1 : (p.raw s.smbios_version).info = InfoType.ofU8 p.kind := rfl
    unfold decodeStructure
    rcases hinfo p.kind hk with h | h | h <;> rw [h1, h]
  have := next_piece oc s p hb hp hn
  rw [hd] at this
  exact ⟨_, this⟩

example : (200 : UInt8).toNat ∉ supportedTypes ∧ (22 : UInt8).toNat ∈ supportedTypes := by decide

/-! ### C56 -/

/-- C56: the item yielded for a structure depends only on its own bytes (and the version): if the
bytes of the structure extracted from `s` are found at the cursor of `t`, `t` yields the same item
(or the same fault) and advances by the same amount. -/
theorem C56_local (oc : Bool) (s t s1 : Structures) (r : RawStructure)
    (hbs : s.buffer.length < 2 ^ 32) (hbt : t.buffer.length < 2 ^ 32)
    (hv : s.smbios_version = t.smbios_version)
    (hraw : s.next_raw oc = .ok (some (.ok r), s1))
    (hsame : OccursAt t.buffer t.idx.toNat
      ((s.buffer.drop s.idx.toNat).take (s1.idx.toNat - s.idx.toNat)))
    (hn : t.idx.toNat + r.length.toNat < t.smbios_len.toNat) :
    (s.next oc).map Prod.fst = (t.next oc).map Prod.fst ∧
    ∀ o s' o' t', s.next oc = .ok (o, s') → t.next oc = .ok (o', t') →
      s'.idx.toNat - s.idx.toNat = t'.idx.toNat - t.idx.toNat := by
  rcases next_raw_cases oc s hbs with (h1 | h1) | h1 | ⟨hi, e, h1⟩ | ⟨p, hp, hn', h1⟩
  · rw [hraw] at h1; cases h1
  · rw [hraw] at h1; cases h1
  · rw [hraw] at h1; cases h1
  · rw [hraw] at h1; cases h1
  · rw [hraw] at h1; cases h1
    obtain ⟨hfit, hk, hl, hl8, hh, hdt, rest, hr⟩ := PieceAt.parts hp
    have hlen : ((p.raw s.smbios_version).length).toNat = p.len := by rw [← hl, hl8]; rfl
    have hidx : (UInt32.ofNat (s.idx.toNat + p.bytes.length)).toNat = s.idx.toNat + p.bytes.length := by
      simp; omega
    simp only [hidx, Nat.add_sub_cancel_left] at hsame
    obtain ⟨rest', hd', -⟩ := occursAt_drop_eq hp.2
    rw [hd', List.take_left] at hsame
    rw [hlen] at hn
    have hpt : PieceAt t.buffer t.idx.toNat p := ⟨hp.1, hsame⟩
    have e1 := next_piece oc s p hbs hp hn'
    have e2 := next_piece oc t p hbt hpt hn
    rw [← hv] at e2
    rw [e1, e2]
    cases hd : (decodeStructure oc (p.raw s.smbios_version)).toItem with
    | err e => cases e
    | panic => exact ⟨rfl, fun o s' o' t' h => by cases h⟩
    | ub => exact ⟨rfl, fun o s' o' t' h => by cases h⟩
    | ok item =>
      refine ⟨rfl, ?_⟩
      intro o s' o' t' h h'
      simp only [Bind.bind, Res.bind, Res.ok.injEq, Prod.mk.injEq] at h h'
      rw [← h.2, ← h'.2, after_idx hbs hp, after_idx hbt hpt]
      omega

example : ∃ r s1, (⟨⟨3, 1⟩, 5000, 0, sampleTable⟩ : Structures).next_raw true =
      .ok (some (.ok r), s1) ∧
    OccursAt ([1, 1] ++ samplePiece.bytes) 2
      ((sampleTable.drop 0).take (s1.idx.toNat - 0)) := by
  refine ⟨_, _, next_raw_piece true ⟨⟨3, 1⟩, 5000, 0, sampleTable⟩ samplePiece (by decide +kernel)
    ⟨samplePiece_wf, [], sampleEnd.bytes ++ [1, 2, 3], rfl, rfl⟩ (by decide +kernel), [1, 1], [], ?_, rfl⟩
  decide +kernel

end Dmi.Props
