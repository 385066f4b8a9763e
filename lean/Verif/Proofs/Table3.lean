import Verif.Proofs.Table2
import Verif.Proofs.Finite
/-!
# The iterator's `next` in terms of pieces
-/
namespace Dmi
open Spec

theorem ofU8_eq_end (k : UInt8) : InfoType.ofU8 k = .End ↔ k = 127 := by
  revert k
  apply forall_u8
  decide +kernel

/-- The iterator after it has passed the piece `p`. -/
def Structures.after (s : Structures) (p : Piece) : Structures :=
  { s with
    idx := .ofNat (s.idx.toNat + p.bytes.length)
    smbios_len := if s.smbios_version.major ≥ 3 ∧ p.kind = 127 then
      .ofNat (s.idx.toNat + p.bytes.length) else s.smbios_len }

theorem after_idx {s : Structures} {p : Piece} (hb : s.buffer.length < 2 ^ 32)
    (hp : PieceAt s.buffer s.idx.toNat p) :
    (s.after p).idx.toNat = s.idx.toNat + p.bytes.length := by
  have := (PieceAt.parts hp).1
  unfold Structures.after
  simp; omega

/-- `next` when a piece is at the cursor. -/
theorem next_piece (oc : Bool) (s : Structures) (p : Piece) (hb : s.buffer.length < 2 ^ 32)
    (hp : PieceAt s.buffer s.idx.toNat p) (hn : s.idx.toNat + p.len < s.smbios_len.toNat) :
    s.next oc = ((decodeStructure oc (p.raw s.smbios_version)).toItem >>= fun item =>
      .ok (some item, s.after p)) := by
  unfold Structures.next
  rw [next_raw_piece oc s p hb hp hn]
  simp only [Bind.bind, Res.bind, Pure.pure]
  have : (if s.smbios_version.major ≥ 3 ∧ (p.raw s.smbios_version).info = .End then
      ({ smbios_version := s.smbios_version,
         smbios_len := UInt32.ofNat (s.idx.toNat + p.bytes.length),
         idx := UInt32.ofNat (s.idx.toNat + p.bytes.length), buffer := s.buffer } : Structures)
      else { smbios_version := s.smbios_version, smbios_len := s.smbios_len,
             idx := UInt32.ofNat (s.idx.toNat + p.bytes.length), buffer := s.buffer }) =
      s.after p := by
    unfold Structures.after Piece.raw
    simp only [ofU8_eq_end]
    split <;> rfl
  simp only [this]

/-- The kinds of outcome of `next`. -/
theorem next_cases (oc : Bool) (s : Structures) (hb : s.buffer.length < 2 ^ 32) :
    (s.next oc = .panic ∨ s.next oc = .ub) ∨ s.next oc = .ok (none, s) ∨
    (s.idx.toNat + 4 < 2 ^ 32 ∧ ∃ e, s.next_raw oc = .ok (some (.error e), s) ∧
      s.next oc = .ok (some (.error e), { s with smbios_len := s.idx })) ∨
    (∃ p item, PieceAt s.buffer s.idx.toNat p ∧ s.idx.toNat + p.len < s.smbios_len.toNat ∧
      (decodeStructure oc (p.raw s.smbios_version)).toItem = .ok item ∧
      s.next oc = .ok (some item, s.after p)) := by
  rcases next_raw_cases oc s hb with (h | h) | h | ⟨hi, e, h⟩ | ⟨p, hp, hn, h⟩
  · left; left; unfold Structures.next; rw [h]; rfl
  · left; right; unfold Structures.next; rw [h]; rfl
  · right; left; unfold Structures.next; rw [h]; rfl
  · right; right; left
    refine ⟨hi, e, h, ?_⟩
    unfold Structures.next; rw [h]; rfl
  · have hnext := next_piece oc s p hb hp hn
    cases hd : (decodeStructure oc (p.raw s.smbios_version)).toItem with
    | err e => cases e
    | panic => rw [hd] at hnext; left; left; exact hnext
    | ub => rw [hd] at hnext; left; right; exact hnext
    | ok item =>
      rw [hd] at hnext
      exact Or.inr (Or.inr (Or.inr ⟨p, item, hp, hn, hd, hnext⟩))

/-- With the cursor at the declared end the iterator is finished. -/
theorem next_at_end (oc : Bool) (s : Structures) (hi : s.idx.toNat + 4 < 2 ^ 32)
    (hn : s.smbios_len.toNat < s.idx.toNat + 4) : s.next oc = .ok (none, s) := by
  have e4 : (4 : UInt32).toNat = 4 := rfl
  have hadd4 : (s.idx + 4).toNat = s.idx.toNat + 4 := u32_add_toNat _ _ (by rw [e4]; exact hi)
  have : s.next_raw oc = .ok (none, s) := by
    unfold Structures.next_raw
    simp only [Bind.bind, Res.bind, addU32_ok oc s.idx 4 (by rw [e4]; exact hi), Pure.pure]
    rw [if_pos]
    rw [gt_iff_lt, UInt32.lt_iff_toNat_lt, hadd4]; exact hn
  unfold Structures.next
  rw [this]; rfl

theorem piece_bytes_ge (p : Piece) (h : p.WF) : 6 ≤ p.bytes.length := by
  have := EndsAtFirstNulNul.length h.2
  rw [Piece.bytes_length]; unfold Piece.len; omega

theorem runs_buffer {oc : Bool} {s s' : Structures} {items} (hb : s.buffer.length < 2 ^ 32)
    (h : Runs oc s items s') : s'.buffer = s.buffer ∧ s'.smbios_version = s.smbios_version := by
  induction h with
  | nil => exact ⟨rfl, rfl⟩
  | cons h t ih =>
    rename_i s s1 s2 item items
    rcases next_cases oc s hb with (h1 | h1) | h1 | ⟨hi, e, -, h1⟩ | ⟨p, it, hp, hn, hd, h1⟩
    · rw [h] at h1; cases h1
    · rw [h] at h1; cases h1
    · rw [h] at h1; cases h1
    · rw [h] at h1; cases h1; exact ih hb
    · rw [h] at h1; cases h1; exact ih hb

/-- Runs can be extended at the end. -/
theorem Spec.Runs.snoc {oc : Bool} {s s' s'' : Structures} {items item} (h : Runs oc s items s')
    (hn : s'.next oc = .ok (some item, s'')) : Runs oc s (items ++ [item]) s'' := by
  induction h with
  | nil => exact .cons hn (.nil _)
  | cons h t ih => exact .cons h (ih hn)

theorem Spec.Runs.trans {oc : Bool} {s s' s'' : Structures} {l l'} (h : Runs oc s l s')
    (h' : Runs oc s' l' s'') : Runs oc s (l ++ l') s'' := by
  induction h with
  | nil => exact h'
  | cons h t ih => exact .cons h (ih h')

theorem Spec.Runs.split {oc : Bool} {s s'' : Structures} {l l'} (h : Runs oc s (l ++ l') s'') :
    ∃ s', Runs oc s l s' ∧ Runs oc s' l' s'' := by
  induction l generalizing s with
  | nil => exact ⟨s, .nil _, h⟩
  | cons a l ih =>
    cases h with
    | cons h t =>
      obtain ⟨s', h1, h2⟩ := ih t
      exact ⟨s', .cons h h1, h2⟩

end Dmi
