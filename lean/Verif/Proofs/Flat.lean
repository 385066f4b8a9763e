import Verif.Model.Flat
import Verif.Proofs.Table3
import Verif.Host
/-!
# The flat memory iterator in terms of pieces
-/
namespace Dmi
open Spec

/-- `next` when a piece is at the cursor. -/
theorem flat_next_piece (oc : Bool) (s : Structures) (p : Piece) (hb : s.buffer.length < 2 ^ 32)
    (hp : PieceAt s.buffer s.idx.toNat p) (hn : s.idx.toNat + p.len < s.smbios_len.toNat) :
    Flat.next oc s = ((Flat.decodeStructure oc
      (p.strings ++ s.buffer.drop (s.idx.toNat + p.bytes.length)) (p.raw s.smbios_version)).toItem >>=
      fun item => .ok (some item, s.after p)) := by
  have hi := after_idx hb hp
  unfold Flat.next
  rw [next_raw_piece oc s p hb hp hn]
  simp only [Structures.after] at hi
  simp only [Bind.bind, Res.bind, Pure.pure, hi]
  have : (if s.smbios_version.major ≥ 3 ∧ (p.raw s.smbios_version).info = .End then
      ({ smbios_version := s.smbios_version,
         smbios_len := UInt32.ofNat (s.idx.toNat + p.bytes.length),
         idx := UInt32.ofNat (s.idx.toNat + p.bytes.length), buffer := s.buffer } : Structures)
      else { smbios_version := s.smbios_version, smbios_len := s.smbios_len,
             idx := UInt32.ofNat (s.idx.toNat + p.bytes.length), buffer := s.buffer }) =
      s.after p := by
    unfold Structures.after Piece.raw
    simp only [ofU8_eq_end]
    split <;> rfl
  simp only [this]
  rfl

/-- With the cursor at the declared end the iterator is finished. -/
theorem flat_next_at_end (oc : Bool) (s : Structures) (hi : s.idx.toNat + 4 < 2 ^ 32)
    (hn : s.smbios_len.toNat < s.idx.toNat + 4) : Flat.next oc s = .ok (none, s) := by
  have e4 : (4 : UInt32).toNat = 4 := rfl
  have hadd4 : (s.idx + 4).toNat = s.idx.toNat + 4 := u32_add_toNat _ _ (by rw [e4]; exact hi)
  have : s.next_raw oc = .ok (none, s) := by
    unfold Structures.next_raw
    simp only [Bind.bind, Res.bind, addU32_ok oc s.idx 4 (by rw [e4]; exact hi), Pure.pure]
    rw [if_pos]
    rw [gt_iff_lt, UInt32.lt_iff_toNat_lt, hadd4]; exact hn
  unfold Flat.next
  rw [this]; rfl

/-! ### Bytes behind a struct do not change how it is read -/

/-- What `p` reads does not depend on what follows the bytes it consumes. -/
def Packed.Mono {α : Type} (p : Packed α) : Prop :=
  ∀ (b m : Bytes) (a : α) (r : Bytes), p b = some (a, r) → p (b ++ m) = some (a, r ++ m)

namespace Packed.Mono

theorem u8 : Mono u8 := by
  intro b m a r h
  match b, h with
  | _ :: _, h => cases h; rfl

theorem u16 : Mono u16 := by
  intro b m a r h
  match b, h with
  | _ :: _ :: _, h => cases h; rfl

theorem u32 : Mono u32 := by
  intro b m a r h
  match b, h with
  | _ :: _ :: _ :: _ :: _, h => cases h; rfl

theorem u64 : Mono u64 := by
  intro b m a r h
  match b, h with
  | _ :: _ :: _ :: _ :: _ :: _ :: _ :: _ :: _, h => cases h; rfl

theorem array (n : Nat) : Mono (array n) := by
  intro b m a r h
  unfold Packed.array at *
  split at h
  · next hn =>
    cases h
    rw [if_pos (by rw [List.length_append]; omega), List.take_append_of_le_length hn,
      List.drop_append_of_le_length hn]
  · cases h

theorem pure {α : Type} (a : α) : Mono (Pure.pure a : Packed α) := by
  intro b m a r h
  cases h; rfl

theorem bind {α β : Type} {p : Packed α} {f : α → Packed β} (hp : Mono p) (hf : ∀ a, Mono (f a)) :
    Mono (p >>= f) := by
  intro b m a r h
  change Packed.bind p f b = _ at h
  show Packed.bind p f (b ++ m) = _
  unfold Packed.bind at *
  cases e : p b with
  | none => rw [e] at h; cases h
  | some x =>
    rw [e] at h
    rw [hp b m x.1 x.2 e]
    exact hf x.1 x.2 m a r h

end Packed.Mono

/-- Proves `Mono` of a `do` block of field reads. -/
macro "packed_mono" : tactic =>
  `(tactic| (
      repeat' first
        | exact Packed.Mono.u8
        | exact Packed.Mono.u16
        | exact Packed.Mono.u32
        | exact Packed.Mono.u64
        | exact Packed.Mono.array _
        | exact Packed.Mono.pure _
        | apply Packed.Mono.bind
        | intro _))

theorem letAsStruct_append {ε α β : Type} {p : Packed α} (hp : p.Mono) {b m : Bytes}
    {f g : α → Res ε β} (h : (letAsStruct p b >>= f) ≠ .ub)
    (hg : ∀ a, (letAsStruct p b : Res ε α) = .ok a → f a ≠ .ub → g a = f a) :
    (letAsStruct p (b ++ m) >>= g) = (letAsStruct p b >>= f) := by
  unfold letAsStruct at *
  cases e : p b with
  | none => rw [e] at h; exact absurd rfl h
  | some x =>
    rw [e] at h
    rw [hp b m x.1 x.2 e]
    exact hg x.1 (by rw [e]) h

end Dmi
