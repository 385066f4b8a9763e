import Verif.Props.Widths
import Verif.Model.Narrow
/-!
# Hosts with a 16-bit `usize` (C79)

The cursor over a table is a `u32` and is cast to `usize` for every access. On a 16-bit host the cast could
lose bits. It does not: a slice there has at most `isize::MAX` bytes, and the cursor stays within it.
-/
namespace Dmi.Props

open Dmi Spec

/-- A sum of `u32` is not above the sum of the numbers, with and without overflow checks. -/
theorem addU32_le {oc : Bool} {a b r : UInt32} (h : (addU32 oc a b : Res Empty UInt32) = .ok r) :
    r.toNat ≤ a.toNat + b.toNat := by
  have key : (a + b).toNat ≤ a.toNat + b.toNat := by
    rw [UInt32.toNat_add]
    exact Nat.mod_le _ _
  unfold addU32 at h
  split at h
  · cases h; exact key
  · split at h
    · cases h
    · cases h; exact key

/-- The length of a slice leaves room for the longest formatted area. -/
theorem room {n len : Nat} (hn : 16 ≤ n) (hl : len < 2 ^ (n - 1)) : len + 256 ≤ 2 ^ n := by
  obtain ⟨m, rfl⟩ : ∃ m, n = m + 1 := ⟨n - 1, by omega⟩
  have : 2 ^ 15 ≤ 2 ^ m := Nat.pow_le_pow_right (by decide) (by omega)
  rw [Nat.add_sub_cancel] at hl
  rw [Nat.pow_succ]
  omega

/-- C79: extracting a structure: no cast from `u32` to `usize` loses bits. -/
theorem C79_narrow_raw (n : Nat) (hn : 16 ≤ n) (oc : Bool) (s : Structures)
    (hl : s.buffer.length < 2 ^ (n - 1)) (hi : s.idx.toNat ≤ s.buffer.length) :
    @Narrow.next_raw ⟨n⟩ oc s = s.next_raw oc := by
  have hroom := room hn hl
  have cast : ∀ x : UInt32, x.toNat < 2 ^ n → @Narrow.castUsize ⟨n⟩ x = x.toNat :=
    fun x hx => Nat.mod_eq_of_lt hx
  unfold Narrow.next_raw Structures.next_raw
  rw [cast s.idx (by omega)]
  cases ha : (addU32 oc s.idx 4 : Res Empty UInt32) with
  | ok hdr_end =>
    have h4 : hdr_end.toNat ≤ s.idx.toNat + 4 := addU32_le ha
    simp only [ok_bind]
    split
    · rfl
    congr 1
    funext working
    congr 1
    funext header
    cases hs : (addU32 oc s.idx header.len.toUInt32 : Res Empty UInt32) with
    | ok strings_idx =>
      have hsi := addU32_le hs
      have hl32 : header.len.toUInt32.toNat = header.len.toNat := by simp
      have := header.len.toNat_lt
      simp only [ok_bind]
      split
      · rfl
      rw [cast strings_idx (by omega)]
      cases ht : (indexFrom s.buffer strings_idx.toNat : Res Empty Bytes) with
      | ok tail =>
        have htl : strings_idx.toNat + tail.length = s.buffer.length := by
          unfold indexFrom getFrom at ht
          split at ht
          · rename_i x hx
            split at hx
            · cases hx; cases ht
              rw [List.length_drop]; omega
            · cases hx
          · cases ht
        simp only [ok_bind]
        cases hf : findNulNul tail with
        | none => rfl
        | some t =>
          have hft := (findNulNul_some hf).2.1
          have hlen : (UInt32.ofNat (t + 1)).toNat ≤ t + 1 := by
            rw [UInt32.toNat_ofNat']
            exact Nat.mod_le _ _
          simp only
          rw [cast hdr_end (by omega)]
          congr 1
          funext data
          cases he : (addU32 oc strings_idx (UInt32.ofNat (t + 1)) : Res Empty UInt32) with
          | ok strings_end =>
            have := addU32_le he
            simp only [ok_bind]
            rw [cast strings_end (by omega)]
          | _ => rfl
      | _ => rfl
    | _ => rfl
  | _ => rfl

/-- The cursor stays within the buffer. -/
theorem next_within {oc : Bool} {s s' : Structures} {o} (hb : s.buffer.length < 2 ^ 32)
    (hi : s.idx.toNat ≤ s.buffer.length) (h : @Structures.next ⟨64⟩ oc s = .ok (o, s')) :
    s'.buffer = s.buffer ∧ s'.idx.toNat ≤ s'.buffer.length := by
  have h' : s.next oc = .ok (o, s') := h
  rcases next_cases oc s hb with (h1 | h1) | h1 | ⟨_, e, _, h1⟩ | ⟨p, it, hp, hn, hd, h1⟩
  · rw [h'] at h1; cases h1
  · rw [h'] at h1; cases h1
  · rw [h'] at h1; cases h1; exact ⟨rfl, hi⟩
  · rw [h'] at h1; cases h1; exact ⟨rfl, hi⟩
  · have hfit := (PieceAt.parts hp).1
    rw [h'] at h1
    cases h1
    have key : (s.after p).buffer = s.buffer ∧
        (s.after p).idx = .ofNat (s.idx.toNat + p.bytes.length) := by
      unfold Structures.after
      split <;> exact ⟨rfl, rfl⟩
    refine ⟨key.1, ?_⟩
    rw [key.1, key.2, UInt32.toNat_ofNat']
    exact Nat.le_trans (Nat.mod_le _ _) hfit

/-- C79: a step of the iterator, with the casts. -/
theorem C79_narrow_next (n : Nat) (hn : 16 ≤ n) (oc : Bool) (s : Structures)
    (hb : s.buffer.length < 2 ^ 32) (hl : s.buffer.length < 2 ^ (n - 1))
    (hi : s.idx.toNat ≤ s.buffer.length) :
    @Narrow.next ⟨n⟩ oc s =
      (@Structures.next ⟨64⟩ oc s).map fun p => (p.1.map (itemOn n), p.2) := by
  rw [← C79_next n hn oc s hb]
  unfold Narrow.next Structures.next
  rw [C79_narrow_raw n hn oc s hl hi]
  rfl

theorem narrow_stream (n : Nat) (hn : 16 ≤ n) (oc : Bool) (s : Structures)
    (hb : s.buffer.length < 2 ^ 32) (hl : s.buffer.length < 2 ^ (n - 1))
    (hi : s.idx.toNat ≤ s.buffer.length) (l : List (Except MalformedStructureError Structure)) :
    CollectsR (@Narrow.next ⟨n⟩ oc) s l ↔
      ∃ l', CollectsR (@Structures.next ⟨64⟩ oc) s l' ∧ l = l'.map (itemOn n) := by
  have back : ∀ {x : Fault (Option (Except MalformedStructureError Structure) × Structures)} {o s'},
      (x.map fun p => (p.1.map (itemOn n), p.2)) = .ok (o, s') →
      ∃ o', x = .ok (o', s') ∧ o = o'.map (itemOn n) := by
    intro x o s' h
    cases x with
    | ok p => cases h; exact ⟨p.1, rfl, rfl⟩
    | _ => cases h
  constructor
  · intro h
    induction h with
    | done h =>
      rw [C79_narrow_next n hn oc _ hb hl hi] at h
      obtain ⟨o', h, ho⟩ := back h
      cases o' with
      | none => exact ⟨[], .done h, rfl⟩
      | some _ => cases ho
    | step h t ih =>
      rw [C79_narrow_next n hn oc _ hb hl hi] at h
      obtain ⟨o', h', ho⟩ := back h
      cases o' with
      | none => cases ho
      | some i =>
        cases ho
        obtain ⟨hbuf, hi'⟩ := next_within hb hi h'
        obtain ⟨l', t', rfl⟩ := ih (hbuf ▸ hb) (hbuf ▸ hl) hi'
        exact ⟨i :: l', .step h' t', rfl⟩
  · rintro ⟨l', h, rfl⟩
    induction h with
    | done h => exact .done (by rw [C79_narrow_next n hn oc _ hb hl hi, h]; rfl)
    | step h t ih =>
      obtain ⟨hbuf, hi'⟩ := next_within hb hi h
      exact .step (by rw [C79_narrow_next n hn oc _ hb hl hi, h]; rfl)
        (ih (hbuf ▸ hb) (hbuf ▸ hl) hi')

/-- C79: a loop over a table on a host with a `usize` of `n` bits, 16 or more, in a slice as long as it can be
there. -/
theorem C79_narrow_stream (n : Nat) (hn : 16 ≤ n) (oc : Bool) (e : EntryPoint) (buffer : Bytes)
    (hb : buffer.length < 2 ^ 32) (hl : buffer.length < 2 ^ (n - 1))
    (l : List (Except MalformedStructureError Structure)) :
    CollectsR (@Narrow.next ⟨n⟩ oc) (e.structures buffer) l ↔
      ∃ l', CollectsR (@Structures.next ⟨64⟩ oc) (e.structures buffer) l' ∧ l = l'.map (itemOn n) :=
  narrow_stream n hn oc (e.structures buffer) hb hl (Nat.zero_le _) l

/-! ### Examples -/

/-- A table of one structure and a rest. -/
def narrowTable : Structures := ⟨⟨2, 8⟩, 10, 0, samplePiece.bytes ++ [9]⟩

example : 16 ≤ 16 ∧ narrowTable.buffer.length < 2 ^ (16 - 1) ∧
    narrowTable.idx.toNat ≤ narrowTable.buffer.length := by decide
example : (@Narrow.next ⟨16⟩ true narrowTable).okAnd (fun p => p.1.isSome && p.2.idx != 0) = true := by
  decide +kernel
-- the casts can lose bits, for a cursor that a slice of such a host does not reach
example : @Narrow.castUsize ⟨16⟩ 65540 = 4 ∧ @Narrow.castUsize ⟨32⟩ 65540 = 65540 := by decide
-- with 8 bits the cursor would come back to the beginning
example : (@Narrow.next_raw ⟨8⟩ true ⟨⟨2, 8⟩, 1000, 256, samplePiece.bytes⟩).okAnd
      (fun p => p.1.isSome) = true ∧
    Structures.next_raw true ⟨⟨2, 8⟩, 1000, 256, samplePiece.bytes⟩ = .panic :=
  ⟨by decide +kernel, rfl⟩

end Dmi.Props
