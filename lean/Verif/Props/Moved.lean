import Verif.Proofs.Decode
import Verif.Props.Truth
/-!
# C89: where a structure is makes no difference

The same table is read from the beginning of a buffer and behind other bytes. From there, what is
reported for a table with a structure in front, and for one in which a structure is replaced.
-/
namespace Dmi.Props
open Spec

/-- The error as it is reported by an iterator that starts `a` bytes further on. -/
def Later (a : UInt32) : MalformedStructureError → MalformedStructureError
  | .BadSize o l => .BadSize (o + a) l
  | .UnterminatedStrings o => .UnterminatedStrings (o + a)
  | e => e

/-- The item as it is reported by an iterator that starts `a` bytes further on: structures are the same,
errors of the table tell the other offset. -/
def LaterItem (a : UInt32) : Except MalformedStructureError Structure → Except MalformedStructureError Structure
  | .ok x => .ok x
  | .error e => .error (Later a e)

/-- The same iterator with other bytes in front of its table. -/
def Behind (pre : Bytes) (s : Structures) : Structures :=
  { s with idx := s.idx + .ofNat pre.length, smbios_len := s.smbios_len + .ofNat pre.length,
           buffer := pre ++ s.buffer }

/-- The cursor is inside the buffer, and the numbers stay clear of 2³² even behind `a` more bytes. -/
structure Room (a : Nat) (s : Structures) : Prop where
  cursor : s.idx.toNat ≤ s.buffer.length
  buffer : a + s.buffer.length + 260 ≤ 2 ^ 32
  len : a + s.smbios_len.toNat < 2 ^ 32

theorem indexFrom_behind {ε : Type} (pre b : Bytes) (i : Nat) :
    (indexFrom (pre ++ b) (i + pre.length) : Res ε Bytes) = indexFrom b i := by
  unfold indexFrom getFrom
  by_cases h : i ≤ b.length
  · rw [if_pos (by rw [List.length_append]; omega), if_pos h, Nat.add_comm, List.drop_length_add_append]
  · rw [if_neg (by rw [List.length_append]; omega), if_neg h]

theorem indexRange_behind {ε : Type} (pre b : Bytes) (i j : Nat) :
    (indexRange (pre ++ b) (i + pre.length) (j + pre.length) : Res ε Bytes) = indexRange b i j := by
  unfold indexRange getRange
  by_cases h : i ≤ j ∧ j ≤ b.length
  · rw [if_pos (by rw [List.length_append]; omega), if_pos h, Nat.add_sub_add_right, Nat.add_comm i,
      List.drop_length_add_append]
  · rw [if_neg (by rw [List.length_append]; omega), if_neg h]

theorem findNulNul_lt : ∀ {b : Bytes} {k : Nat}, findNulNul b = some k → k < b.length
  | [], _, h => nomatch h
  | [_], _, h => nomatch h
  | x :: y :: t, k, h => by
    rw [findNulNul] at h
    by_cases hz : x = 0 ∧ y = 0
    · rw [if_pos hz] at h
      cases h
      simp
    · rw [if_neg hz] at h
      obtain ⟨m, hm, rfl⟩ := Option.map_eq_some_iff.1 h
      have := findNulNul_lt hm
      simp only [List.length_cons] at this ⊢
      omega

/-- Splitting off a structure behind other bytes. -/
theorem next_raw_behind (oc : Bool) (pre : Bytes) (s : Structures) (h : Room pre.length s) :
    (Behind pre s).next_raw oc = (s.next_raw oc >>= fun x => .ok
      (x.1.map (fun r => match r with
        | .ok r => .ok r
        | .error e => .error (Later (.ofNat pre.length) e)), Behind pre x.2)) := by
  obtain ⟨v, n, i, b⟩ := s
  obtain ⟨h1, h2, h3⟩ := h
  simp only at h1 h2 h3
  have ha : (UInt32.ofNat pre.length).toNat = pre.length := by
    rw [UInt32.toNat_ofNat']; omega
  generalize hA : UInt32.ofNat pre.length = a at ha
  have e4 : (4 : UInt32).toNat = 4 := rfl
  have hia : (i + a).toNat = i.toNat + pre.length := by rw [u32_add_toNat _ _ (by omega), ha]
  have hna : (n + a).toNat = n.toNat + pre.length := by rw [u32_add_toNat _ _ (by omega), ha]
  have add : ∀ x : UInt32, i.toNat + x.toNat + pre.length < 2 ^ 32 →
      (i + x).toNat = i.toNat + x.toNat ∧ (i + a + x).toNat = i.toNat + x.toNat + pre.length := by
    intro x hx
    refine ⟨u32_add_toNat _ _ (by omega), ?_⟩
    rw [u32_add_toNat _ _ (by omega), hia]; omega
  unfold Structures.next_raw Behind
  simp only [hA]
  rw [addU32_ok oc i 4 (by omega), addU32_ok oc (i + a) 4 (by omega), ok_bind, ok_bind]
  obtain ⟨f1, f2⟩ := add 4 (by omega)
  have c : (i + a + 4 > n + a) ↔ (i + 4 > n) := by
    rw [gt_iff_lt, gt_iff_lt, UInt32.lt_iff_toNat_lt, UInt32.lt_iff_toNat_lt, f1, f2, hna]; omega
  by_cases c1 : i + 4 > n
  · rw [if_pos (c.2 c1), if_pos c1]
    rfl
  rw [if_neg (fun k => c1 (c.1 k)), if_neg c1, hia, indexFrom_behind]
  cases e1 : (indexFrom b i.toNat : Fault Bytes) with
  | err e => cases e
  | panic => rfl
  | ub => rfl
  | ok w =>
  rw [ok_bind, ok_bind]
  cases e2 : (letAsStruct HeaderPacked.packed w : Fault _) with
  | err e => cases e
  | panic => rfl
  | ub => rfl
  | ok x =>
  rw [ok_bind, ok_bind]
  have hx : x.len.toUInt32.toNat < 256 := by
    have := UInt8.toNat_lt x.len
    simpa using this
  rw [addU32_ok oc i _ (by omega), addU32_ok oc (i + a) _ (by omega), ok_bind, ok_bind]
  obtain ⟨g1, g2⟩ := add x.len.toUInt32 (by omega)
  have c' : (i + a + x.len.toUInt32 ≥ n + a) ↔ (i + x.len.toUInt32 ≥ n) := by
    rw [ge_iff_le, ge_iff_le, UInt32.le_iff_toNat_le, UInt32.le_iff_toNat_le, g1, g2, hna]; omega
  by_cases c2 : i + x.len.toUInt32 ≥ n
  · rw [if_pos (c'.2 c2), if_pos c2]
    rfl
  rw [if_neg (fun k => c2 (c'.1 k)), if_neg c2, g2, ← g1, indexFrom_behind]
  cases e3 : (indexFrom b (i + x.len.toUInt32).toNat : Fault Bytes) with
  | err e => cases e
  | panic => rfl
  | ub => rfl
  | ok tail =>
  rw [ok_bind, ok_bind]
  cases e5 : findNulNul tail with
  | none => rfl
  | some k =>
  have hk : (UInt32.ofNat (k + 1)).toNat = k + 1 ∧ i.toNat + x.len.toUInt32.toNat + (k + 1) ≤ b.length := by
    have := findNulNul_lt e5
    unfold indexFrom getFrom at e3
    by_cases hl : (i + x.len.toUInt32).toNat ≤ b.length
    · rw [if_pos hl] at e3
      cases e3
      rw [List.length_drop, g1] at this
      rw [UInt32.toNat_ofNat']
      omega
    · rw [if_neg hl] at e3
      cases e3
  have hs1 : (i + x.len.toUInt32 + UInt32.ofNat (k + 1)).toNat =
      i.toNat + x.len.toUInt32.toNat + (k + 1) := by
    rw [u32_add_toNat _ _ (by omega)]; omega
  have hs2 : (i + a + x.len.toUInt32 + UInt32.ofNat (k + 1)).toNat =
      (i + x.len.toUInt32 + UInt32.ofNat (k + 1)).toNat + pre.length := by
    rw [u32_add_toNat _ _ (by omega)]; omega
  simp only [ok_bind, addU32_ok oc (i + x.len.toUInt32) (UInt32.ofNat (k + 1)) (by omega),
    addU32_ok oc (i + a + x.len.toUInt32) (UInt32.ofNat (k + 1)) (by omega)]
  rw [f2, ← f1, indexRange_behind, hs2, indexRange_behind]
  cases e6 : (indexRange b (i + 4).toNat (i + x.len.toUInt32).toNat : Fault Bytes) with
  | err e => cases e
  | panic => rfl
  | ub => rfl
  | ok d =>
  rw [ok_bind, ok_bind]
  cases e7 : (indexRange b (i + x.len.toUInt32).toNat
      (i + x.len.toUInt32 + UInt32.ofNat (k + 1)).toNat : Fault Bytes) with
  | err e => cases e
  | panic => rfl
  | ub => rfl
  | ok t =>
  rw [ok_bind, ok_bind]
  simp only [pure_eq_ok, ok_bind, Option.map_some, Res.ok.injEq, Prod.mk.injEq, Structures.mk.injEq,
    true_and, and_true]
  apply UInt32.toNat.inj
  rw [hs2, u32_add_toNat _ a (by omega), ha]

/-- Errors of the decoders tell no offset. -/
theorem later_item {oc : Bool} {r : RawStructure} {item} (a : UInt32) (hc : Coherent r)
    (h : (decodeStructure oc r).toItem = .ok item) : LaterItem a item = item := by
  cases e : decodeStructure oc r with
  | ok x => rw [e] at h; cases h; rfl
  | err x =>
    have := C64_names oc r hc x e
    rw [e] at h
    cases h
    cases x <;> first | rfl | cases this
  | panic => rw [e] at h; cases h
  | ub => rw [e] at h; cases h

/-- C89 (one call): behind other bytes the iterator yields the same item, with the other offset in an
error of the table, and goes on behind the same bytes; or crashes likewise. -/
theorem C89_next (oc : Bool) (pre : Bytes) (s : Structures) (h : Room pre.length s) :
    (Behind pre s).next oc = (s.next oc >>= fun x => .ok
      (x.1.map (LaterItem (.ofNat pre.length)), Behind pre x.2)) := by
  have hb : s.buffer.length < 2 ^ 32 := by have := h.buffer; omega
  unfold Structures.next
  rw [next_raw_behind oc pre s h]
  cases e1 : s.next_raw oc with
  | err e => cases e
  | panic => rfl
  | ub => rfl
  | ok x =>
  obtain ⟨o, s1⟩ := x
  rw [ok_bind, ok_bind, ok_bind]
  obtain _ | _ | r := o
  · rfl
  · rfl
  · simp only [Option.map_some]
    have hc := coherent_of_next_raw oc s s1 r hb e1
    cases e2 : (decodeStructure oc r).toItem with
    | err e => cases e
    | panic => rfl
    | ub => rfl
    | ok item =>
      simp only [ok_bind, pure_eq_ok, Option.map_some, later_item _ hc e2, Res.ok.injEq, Prod.mk.injEq,
        true_and]
      show (if s1.smbios_version.major ≥ 3 ∧ r.info = .End then _ else _) = _
      split <;> rfl

theorem Room.next {oc : Bool} {a : Nat} {s s' : Structures} {o} (h : Room a s)
    (hn : s.next oc = .ok (o, s')) : Room a s' := by
  obtain ⟨h1, h2, h3⟩ := h
  rcases next_cases oc s (by omega) with (k | k) | k | ⟨hi, e, -, k⟩ | ⟨p, it, hp, hl, hd, k⟩
  · rw [hn] at k; cases k
  · rw [hn] at k; cases k
  · rw [hn] at k; cases k; exact ⟨h1, h2, h3⟩
  · rw [hn] at k; cases k; exact ⟨h1, h2, by simp only; omega⟩
  · rw [hn] at k
    cases k
    have hx := after_idx (by omega) hp
    have hy := (PieceAt.parts hp).1
    refine ⟨by rw [hx]; exact hy, h2, ?_⟩
    unfold Structures.after
    simp only
    split
    · rw [UInt32.toNat_ofNat']; omega
    · exact h3

/-- C89 (runs): the runs behind other bytes are the runs of the table by itself, with the other
offsets. -/
theorem C89_runs (oc : Bool) (pre : Bytes) (s : Structures) (h : Room pre.length s) (items t) :
    Runs oc (Behind pre s) items t ↔ ∃ items' t', Runs oc s items' t' ∧
      items = items'.map (LaterItem (.ofNat pre.length)) ∧ t = Behind pre t' := by
  constructor
  · intro r
    generalize hu : Behind pre s = u at r
    induction r generalizing s with
    | nil => exact ⟨[], s, .nil _, rfl, hu.symm⟩
    | cons hn _ ih =>
      subst hu
      rw [C89_next oc pre s h] at hn
      obtain ⟨⟨o, s1⟩, e1, e2⟩ := bind_ok_iff.1 hn
      simp only [Res.ok.injEq, Prod.mk.injEq] at e2
      obtain ⟨e2, e3⟩ := e2
      obtain ⟨x, rfl, rfl⟩ := Option.map_eq_some_iff.1 e2
      obtain ⟨items', t', r', rfl, rfl⟩ := ih s1 (h.next e1) e3
      exact ⟨x :: items', t', .cons e1 r', rfl, rfl⟩
  · rintro ⟨items', t', r, rfl, rfl⟩
    induction r with
    | nil => exact .nil _
    | cons hn _ ih => exact .cons (by rw [C89_next oc pre _ h, hn]; rfl) (ih (h.next hn))

/-- C89 (complete iterations). -/
theorem C89_complete (oc : Bool) (pre : Bytes) (s : Structures) (h : Room pre.length s) (items) :
    CollectsR (Structures.next oc) (Behind pre s) items ↔ ∃ items',
      CollectsR (Structures.next oc) s items' ∧ items = items'.map (LaterItem (.ofNat pre.length)) := by
  constructor
  · intro r
    generalize hu : Behind pre s = u at r
    induction r generalizing s with
    | done hn =>
      subst hu
      rw [C89_next oc pre s h] at hn
      obtain ⟨⟨o, s1⟩, e1, e2⟩ := bind_ok_iff.1 hn
      simp only [Res.ok.injEq, Prod.mk.injEq] at e2
      obtain rfl := Option.map_eq_none_iff.1 e2.1
      exact ⟨[], .done e1, rfl⟩
    | step hn _ ih =>
      subst hu
      rw [C89_next oc pre s h] at hn
      obtain ⟨⟨o, s1⟩, e1, e2⟩ := bind_ok_iff.1 hn
      simp only [Res.ok.injEq, Prod.mk.injEq] at e2
      obtain ⟨e2, e3⟩ := e2
      obtain ⟨x, rfl, rfl⟩ := Option.map_eq_some_iff.1 e2
      obtain ⟨items', r', rfl⟩ := ih s1 (h.next e1) e3
      exact ⟨x :: items', .step e1 r', rfl⟩
  · rintro ⟨items', r, rfl⟩
    induction r with
    | done hn => exact .done (by rw [C89_next oc pre _ h, hn]; rfl)
    | step hn _ ih => exact .step (by rw [C89_next oc pre _ h, hn]; rfl) (ih (h.next hn))

theorem runs_collectsR {oc : Bool} {s t : Structures} {items} (h : Runs oc s items t) (all) :
    CollectsR (Structures.next oc) s all ↔ ∃ more, CollectsR (Structures.next oc) t more ∧
      all = items ++ more := by
  induction h generalizing all with
  | nil => exact ⟨fun c => ⟨all, c, rfl⟩, fun ⟨_, c, e⟩ => e ▸ c⟩
  | @cons s s1 _ item items hn _ ih =>
    constructor
    · intro c
      cases c with
      | done k => rw [hn] at k; cases k
      | step k c =>
        rw [hn] at k
        cases k
        obtain ⟨more, c', rfl⟩ := (ih _).1 c
        exact ⟨more, c', rfl⟩
    · rintro ⟨more, c, rfl⟩
      exact .step hn ((ih _).2 ⟨more, c, rfl⟩)

/-- C89 (structures in front): a table, of whatever contents, with well-formed structures in front of it
yields their items and then its own, with the other offsets in an error of the table. -/
theorem C89_front {oc : Bool} {v : SmbiosVersion} {n m : UInt32} {ps : List Piece} {items}
    (rest : Bytes) (hwf : ∀ p ∈ ps, p.WF) (hnoend : v.major.toNat < 3 ∨ ∀ p ∈ ps, p.kind ≠ 127)
    (hd : Decoded oc v ps items)
    (hlen : (ps.flatMap Piece.bytes).length + rest.length + 260 ≤ 2 ^ 32)
    (hm : m.toNat = (ps.flatMap Piece.bytes).length + n.toNat) (all) :
    CollectsR (Structures.next oc) ⟨v, m, 0, ps.flatMap Piece.bytes ++ rest⟩ all ↔
      ∃ more, CollectsR (Structures.next oc) ⟨v, n, 0, rest⟩ more ∧
        all = items ++ more.map (LaterItem (.ofNat (ps.flatMap Piece.bytes).length)) := by
  have hr := decoded_runs oc v m ps items [] rest hwf hnoend
    (by simp only [List.length_append, List.length_nil]; omega) (by simp only [List.length_nil]; omega) hd
  simp only [List.nil_append, List.length_nil, Nat.zero_add] at hr
  have hmm := UInt32.toNat_lt m
  have hs : (⟨v, m, .ofNat (ps.flatMap Piece.bytes).length, ps.flatMap Piece.bytes ++ rest⟩ : Structures) =
      Behind (ps.flatMap Piece.bytes) ⟨v, n, 0, rest⟩ := by
    unfold Behind
    simp only [Structures.mk.injEq, true_and, and_true]
    refine ⟨UInt32.toNat.inj ?_, by simp⟩
    rw [UInt32.toNat_add, UInt32.toNat_ofNat']
    omega
  rw [hs] at hr
  have room : Room (ps.flatMap Piece.bytes).length ⟨v, n, 0, rest⟩ :=
    ⟨Nat.zero_le _, hlen, by simp only; omega⟩
  refine (runs_collectsR hr all).trans ?_
  constructor
  · rintro ⟨_, c, rfl⟩
    obtain ⟨more, c', rfl⟩ := (C89_complete oc _ _ room _).1 c
    exact ⟨more, c', rfl⟩
  · rintro ⟨more, c, rfl⟩
    exact ⟨_, (C89_complete oc _ _ room _).2 ⟨more, c, rfl⟩, rfl⟩

/-- A broken table of five bytes, by itself and behind a structure of ten bytes. -/
theorem broken_table (oc : Bool) : CollectsR (Structures.next oc) ⟨⟨2, 8⟩, 5, 0, [200, 4, 0, 0, 65]⟩
    [.error (.UnterminatedStrings 0)] :=
  .step (s' := ⟨⟨2, 8⟩, 0, 0, [200, 4, 0, 0, 65]⟩) (by cases oc <;> rfl) (.done (by cases oc <;> rfl))

example (oc : Bool) : CollectsR (Structures.next oc) ⟨⟨2, 8⟩, 15, 0, samplePiece.bytes ++ [200, 4, 0, 0, 65]⟩
    [.ok (.Other (samplePiece.raw ⟨2, 8⟩)), .error (.UnterminatedStrings 10)] := by
  have := (C89_front (oc := oc) (v := ⟨2, 8⟩) (n := 5) (m := 15) (ps := [samplePiece]) [200, 4, 0, 0, 65]
    (by simpa using samplePiece_wf) (.inl (by decide)) (decoded_other oc _ [samplePiece] (by decide +kernel))
    (by decide) (by decide) _).2 ⟨_, broken_table oc, rfl⟩
  exact this

/-- C89 (editing a table): if the structures `ps` at the beginning of a table are replaced by `qs` (of
other number, contents or order), the items of `ps` give way to those of `qs`, and nothing else changes
but the offsets in an error of the table. -/
theorem C89_edit {oc : Bool} {v : SmbiosVersion} {n m k : UInt32} {ps qs : List Piece} {xs ys all}
    (rest : Bytes) (hp : ∀ p ∈ ps, p.WF) (hq : ∀ q ∈ qs, q.WF)
    (hnp : v.major.toNat < 3 ∨ ∀ p ∈ ps, p.kind ≠ 127) (hnq : v.major.toNat < 3 ∨ ∀ q ∈ qs, q.kind ≠ 127)
    (hx : Decoded oc v ps xs) (hy : Decoded oc v qs ys)
    (hlp : (ps.flatMap Piece.bytes).length + rest.length + 260 ≤ 2 ^ 32)
    (hlq : (qs.flatMap Piece.bytes).length + rest.length + 260 ≤ 2 ^ 32)
    (hm : m.toNat = (ps.flatMap Piece.bytes).length + n.toNat)
    (hk : k.toNat = (qs.flatMap Piece.bytes).length + n.toNat)
    (h : CollectsR (Structures.next oc) ⟨v, m, 0, ps.flatMap Piece.bytes ++ rest⟩ all) :
    ∃ more : List (Except MalformedStructureError Structure),
      all = xs ++ more.map (LaterItem (.ofNat (ps.flatMap Piece.bytes).length)) ∧
      CollectsR (Structures.next oc) ⟨v, k, 0, qs.flatMap Piece.bytes ++ rest⟩
        (ys ++ more.map (LaterItem (.ofNat (qs.flatMap Piece.bytes).length))) := by
  obtain ⟨more, c, rfl⟩ := (C89_front rest hp hnp hx hlp hm all).1 h
  exact ⟨more, rfl, (C89_front rest hq hnq hy hlq hk _).2 ⟨more, c, rfl⟩⟩

/-- The structure of ten bytes is removed. -/
example (oc : Bool) : ∃ all, CollectsR (Structures.next oc)
    ⟨⟨2, 8⟩, 15, 0, [samplePiece].flatMap Piece.bytes ++ [200, 4, 0, 0, 65]⟩ all ∧
    ∃ more : List (Except MalformedStructureError Structure),
      CollectsR (Structures.next oc) ⟨⟨2, 8⟩, 5, 0, [].flatMap Piece.bytes ++ [200, 4, 0, 0, 65]⟩
        ([] ++ more.map (LaterItem (.ofNat ([].flatMap Piece.bytes).length))) := by
  have h := (C89_front (oc := oc) (v := ⟨2, 8⟩) (n := 5) (m := 15) (ps := [samplePiece]) [200, 4, 0, 0, 65]
    (by simpa using samplePiece_wf) (.inl (by decide)) (decoded_other oc _ [samplePiece] (by decide +kernel))
    (by decide) (by decide) _).2 ⟨_, broken_table oc, rfl⟩
  obtain ⟨more, -, c⟩ := C89_edit (k := 5) (qs := []) (n := 5) [200, 4, 0, 0, 65]
    (by simpa using samplePiece_wf) nofun
    (.inl (by decide)) (.inl (by decide)) (decoded_other oc _ [samplePiece] (by decide +kernel)) .nil
    (by decide) (by decide) (by decide) (by decide) h
  exact ⟨_, h, more, c⟩

theorem Decoded.perm {oc : Bool} {v : SmbiosVersion} {ps qs : List Piece} (h : ps.Perm qs) :
    ∀ {xs}, Decoded oc v ps xs → ∃ ys, Decoded oc v qs ys ∧ xs.Perm ys := by
  induction h with
  | nil => exact fun d => ⟨_, d, .refl _⟩
  | cons _ _ ih =>
    rintro _ (_ | ⟨e, d⟩)
    obtain ⟨ys, d', p⟩ := ih d
    exact ⟨_, .cons e d', p.cons _⟩
  | swap _ _ _ =>
    rintro _ (_ | ⟨e, _ | ⟨e', d⟩⟩)
    exact ⟨_, .cons e' (.cons e d), .swap _ _ _⟩
  | trans _ _ ih1 ih2 =>
    intro _ d
    obtain ⟨_, d1, p1⟩ := ih1 d
    obtain ⟨ys, d2, p2⟩ := ih2 d1
    exact ⟨ys, d2, p1.trans p2⟩

/-- C89 (order): the structures at the beginning of a table put in another order give their items in
that order; everything behind, offsets included, stays the same. -/
theorem C89_order {oc : Bool} {v : SmbiosVersion} {n m : UInt32} {ps qs : List Piece} {xs all}
    (rest : Bytes) (hp : ∀ p ∈ ps, p.WF) (hnp : v.major.toNat < 3 ∨ ∀ p ∈ ps, p.kind ≠ 127)
    (hx : Decoded oc v ps xs) (ho : ps.Perm qs)
    (hlp : (ps.flatMap Piece.bytes).length + rest.length + 260 ≤ 2 ^ 32)
    (hm : m.toNat = (ps.flatMap Piece.bytes).length + n.toNat)
    (h : CollectsR (Structures.next oc) ⟨v, m, 0, ps.flatMap Piece.bytes ++ rest⟩ all) :
    ∃ ys more, Decoded oc v qs ys ∧ xs.Perm ys ∧ all = xs ++ more ∧
      CollectsR (Structures.next oc) ⟨v, m, 0, qs.flatMap Piece.bytes ++ rest⟩ (ys ++ more) := by
  obtain ⟨ys, hy, hxy⟩ := hx.perm ho
  have hl : (qs.flatMap Piece.bytes).length = (ps.flatMap Piece.bytes).length :=
    (ho.flatMap_right _).length_eq.symm
  obtain ⟨more, rfl, c⟩ := C89_edit rest hp (fun q h => hp q (ho.mem_iff.2 h)) hnp
    (hnp.imp_right fun h q hq => h q (ho.mem_iff.2 hq)) hx hy hlp (by rw [hl]; exact hlp) hm
    (by rw [hl]; exact hm) h
  exact ⟨ys, _, hy, hxy, rfl, by rw [hl] at c; exact c⟩

end Dmi.Props
