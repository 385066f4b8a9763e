import Verif.Props.Reading
/-!
# C16: exactly which structures extend past the declared length of the table
-/
namespace Dmi.Props
open Spec

/-- C16, exactly: a structure that is yielded lies inside the declared length iff its strings are ended by a
pair of zero bytes within that length. -/
theorem C16_inside_iff (oc : Bool) (s s' : Structures) (r : RawStructure)
    (hb : s.buffer.length < 2 ^ 32) (h : s.next_raw oc = .ok (some (.ok r), s')) :
    s'.idx.toNat ≤ s.smbios_len.toNat ↔
      Terminated (s.buffer.take s.smbios_len.toNat) (s.idx.toNat + r.length.toNat) := by
  rcases next_raw_cases oc s hb with (h1 | h1) | h1 | ⟨hi, e, h1⟩ | ⟨p, hp, hn, h1⟩
  · rw [h] at h1; cases h1
  · rw [h] at h1; cases h1
  · rw [h] at h1; cases h1
  · rw [h] at h1; cases h1
  rw [h] at h1; cases h1
  obtain ⟨hfit, -, hl, hl8, -, -, rest, hr⟩ := PieceAt.parts hp
  have hlen : ((p.raw s.smbios_version).length).toNat = p.len := by rw [← hl, hl8]; rfl
  have hidx : (UInt32.ofNat (s.idx.toNat + p.bytes.length)).toNat = s.idx.toNat + p.bytes.length := by
    simp; omega
  show (UInt32.ofNat (s.idx.toNat + p.bytes.length)).toNat ≤ _ ↔ _
  rw [hidx, hlen]
  unfold Terminated
  rw [List.drop_take, hr]
  have hpl := Piece.bytes_length p
  obtain ⟨⟨x, hx⟩, hu⟩ := hp.1.2
  constructor
  · intro hle
    refine ⟨x, rest.take (s.smbios_len.toNat - (s.idx.toNat + p.len) - p.strings.length), ?_⟩
    rw [List.take_append, List.take_of_length_le (by omega), ← hx]
  · rintro ⟨y, z, hy⟩
    have hcut := congrArg List.length hy
    simp only [List.length_take, List.length_append, List.length_cons, List.length_nil] at hcut
    apply Nat.le_of_not_lt
    intro hlt
    rw [List.take_append, show s.smbios_len.toNat - (s.idx.toNat + p.len) - p.strings.length = 0 by omega,
      List.take_zero, List.append_nil] at hy
    have hs := List.take_append_drop (s.smbios_len.toNat - (s.idx.toNat + p.len)) p.strings
    rw [hy] at hs
    have hz := hu y (z ++ p.strings.drop (s.smbios_len.toNat - (s.idx.toNat + p.len)))
      (by rw [← List.append_assoc, hs])
    have hz := congrArg List.length hz
    simp only [List.length_append, List.length_drop, List.length_nil] at hz
    omega

/-- C16: if a structure does not lie inside the declared length, nothing follows it. -/
theorem C16_outside_is_last (oc : Bool) (s s' : Structures) (r : RawStructure)
    (hb : s.buffer.length + 4 < 2 ^ 32) (h : s.next_raw oc = .ok (some (.ok r), s'))
    (ho : s.smbios_len.toNat < s'.idx.toNat + 4) : s'.next oc = .ok (none, s') := by
  rcases next_raw_cases oc s (by omega) with (h1 | h1) | h1 | ⟨hi, e, h1⟩ | ⟨p, hp, hn, h1⟩
  · rw [h] at h1; cases h1
  · rw [h] at h1; cases h1
  · rw [h] at h1; cases h1
  · rw [h] at h1; cases h1
  rw [h] at h1; cases h1
  obtain ⟨hfit, -⟩ := PieceAt.parts hp
  have hidx : (UInt32.ofNat (s.idx.toNat + p.bytes.length)).toNat = s.idx.toNat + p.bytes.length := by
    simp; omega
  refine next_at_end oc _ ?_ ho
  show (UInt32.ofNat (s.idx.toNat + p.bytes.length)).toNat + 4 < _
  omega

/-- The structure of `C16_full_false`: it ends 4 bytes behind the declared length, and is the last. -/
example : (⟨⟨2, 8⟩, 5, 0, [126, 4, 1, 0, 65, 66, 67, 0, 0, 126, 4, 2, 0, 0, 0]⟩ : Structures).next_raw true =
    .ok (some (.ok ⟨⟨2, 8⟩, .Oem 126, 4, 1, [], [65, 66, 67, 0, 0]⟩),
      ⟨⟨2, 8⟩, 5, 9, [126, 4, 1, 0, 65, 66, 67, 0, 0, 126, 4, 2, 0, 0, 0]⟩) := rfl
example : Terminated (([126, 4, 1, 0, 65, 66, 67, 0, 0, 126, 4, 2, 0, 0, 0] : Bytes).take 9) 4 :=
  ⟨[65, 66, 67], [], rfl⟩

end Dmi.Props
