import Verif.Props.EntryPoint
import Verif.Props.Table
/-!
# C102, C103: which entry point is used, and what for
-/
namespace Dmi.Props
open Spec

/-! ### C102 -/

/-- C102 as one would expect it of a search: if there is a valid entry point in the image, then one is
returned. -/
def C102_full : Prop := ∀ (b : Bytes) (o : Nat) (F : EpFormat), IsFormat F → AnchorAt b o F →
  WellFormed F b o → ∃ e, EntryPoint.search b = .ok e

/-- C102: if every anchor in the image begins a valid entry point, and none of them meets C04, then
an entry point is returned. -/
theorem C102_partial (b : Bytes) (o : Nat) (F : EpFormat) (hF : IsFormat F) (ha : AnchorAt b o F)
    (h : ∀ o' F', IsFormat F' → AnchorAt b o' F' →
      WellFormed F' b o' ∧ epLen F' b o' ≤ (b.length - o') % 256) :
    ∃ o' F' e, o' ≤ o ∧ AnchorAt b o' F' ∧ EntryPoint.search b = .ok e ∧ Shows F' b o' e := by
  obtain ⟨o', F', hf⟩ := FirstAnchor.exists_of_anchor hF ha
  obtain ⟨wf, hm⟩ := h o' F' hf.format hf.anchor
  obtain ⟨e, he, hs⟩ := (C04_valid_accepted_partial hf wf).1 hm
  exact ⟨o', F', e, Nat.le_of_not_lt fun hlt => hf.first o hlt F hF ha, hf.anchor, he, hs⟩

/-- C102: an anchor that does not begin a valid entry point hides all that are behind it. -/
theorem C102_hidden {b : Bytes} {o : Nat} {F : EpFormat} (h : FirstAnchor b o F)
    (hn : ¬ WellFormed F b o) (e : EntryPoint) : EntryPoint.search b ≠ .ok e := by
  intro he
  obtain ⟨_, _, hf, wf, -⟩ := C01_accepted_is_genuine he
  obtain ⟨rfl, rfl⟩ := h.unique hf
  exact hn wf

/-- C102, exactly: an entry point is returned iff the first anchor begins a valid one that does not meet C04. -/
theorem C102_iff (b : Bytes) : (∃ e, EntryPoint.search b = .ok e) ↔
    ∃ o F, FirstAnchor b o F ∧ WellFormed F b o ∧ epLen F b o ≤ (b.length - o) % 256 := by
  constructor
  · rintro ⟨e, he⟩
    obtain ⟨o, F, hf, wf, -⟩ := C01_accepted_is_genuine he
    refine ⟨o, F, hf, wf, Nat.le_of_not_lt fun h => ?_⟩
    rw [(C04_valid_accepted_partial hf wf).2 h] at he
    cases he
  · rintro ⟨o, F, hf, wf, h⟩
    obtain ⟨e, he, -⟩ := (C04_valid_accepted_partial hf wf).1 h
    exact ⟨e, he⟩

/-- C102: six or seven bytes at a 16-byte boundary are enough: an anchor, any byte, and a number
below the length of an entry point. Whatever image is behind them, nothing is found in it. -/
theorem C102_decoy (pre rest : Bytes) (hp : pre.length % 16 = 0)
    (hno : ∀ o F, IsFormat F → ¬ AnchorAt pre o F) (c l : UInt8) (e : EntryPoint) :
    (l.toNat < 0x1F → EntryPoint.search (pre ++ (ascii "_SM_" ++ c :: l :: rest)) ≠ .ok e) ∧
    (l.toNat < 0x18 → EntryPoint.search (pre ++ (ascii "_SM3_" ++ c :: l :: rest)) ≠ .ok e) := by
  rw [C05_relocation _ _ hp hno, C05_relocation _ _ hp hno]
  constructor
  · intro hl
    refine C102_hidden (o := 0) (F := fmtV2)
      ⟨.inl rfl, ⟨rfl, [], c :: l :: rest, rfl, rfl⟩, fun o' h => absurd h (Nat.not_lt_zero _)⟩ ?_ e
    intro wf
    have h1 : 0x1F ≤ epLen fmtV2 (ascii "_SM_" ++ c :: l :: rest) 0 := wf.minLen
    have h2 : epLen fmtV2 (ascii "_SM_" ++ c :: l :: rest) 0 = l.toNat := by
      simp [epLen, leAt, byteAt, fmtV2, ascii]
    rw [h2] at h1
    exact absurd h1 (Nat.not_le.2 hl)
  · intro hl
    refine C102_hidden (o := 0) (F := fmtV3)
      ⟨.inr rfl, ⟨rfl, [], c :: l :: rest, rfl, rfl⟩, fun o' h => absurd h (Nat.not_lt_zero _)⟩ ?_ e
    intro wf
    have h1 : 0x18 ≤ epLen fmtV3 (ascii "_SM3_" ++ c :: l :: rest) 0 := wf.minLen
    have h2 : epLen fmtV3 (ascii "_SM3_" ++ c :: l :: rest) 0 = l.toNat := by
      simp [epLen, leAt, byteAt, fmtV3, ascii]
    rw [h2] at h1
    exact absurd h1 (Nat.not_le.2 hl)

/-- A paragraph with an anchor and nothing else. -/
def decoyParagraph : Bytes := ascii "_SM_" ++ List.replicate 12 0

/-- C102 in full is false: the entry point behind such a paragraph is valid, and is not found. -/
theorem C102_full_false : ¬ C102_full := by
  intro h
  have hd : decoyParagraph ++ sampleV2 =
    [] ++ (ascii "_SM_" ++ 0 :: 0 :: (List.replicate 10 0 ++ sampleV2)) := by decide +kernel
  obtain ⟨e, he⟩ := h (decoyParagraph ++ sampleV2) 16 fmtV2 (.inl rfl)
    ⟨rfl, decoyParagraph, sampleV2.drop 4, rfl, rfl⟩ (by constructor <;> decide +kernel)
  rw [hd] at he
  exact (C102_decoy [] (List.replicate 10 0 ++ sampleV2) rfl (by
    rintro o F hF ⟨-, k⟩
    exact absurd (k.lt (IsFormat.anchor_ne hF)) (Nat.not_lt_zero _)) 0 0 e).1 (by decide) he

/-- The hypotheses of `C102_partial` can be met. -/
example : IsFormat fmtV2 ∧ AnchorAt sampleV2 0 fmtV2 ∧ WellFormed fmtV2 sampleV2 0 ∧
    epLen fmtV2 sampleV2 0 ≤ (sampleV2.length - 0) % 256 :=
  ⟨.inl rfl, ⟨rfl, [], sampleV2.drop 4, rfl, rfl⟩, sampleV2_wf, by decide +kernel⟩
example : FirstAnchor (decoyParagraph ++ sampleV2) 0 fmtV2 ∧
    ¬ WellFormed fmtV2 (decoyParagraph ++ sampleV2) 0 :=
  ⟨⟨.inl rfl, ⟨rfl, [], List.replicate 12 0 ++ sampleV2, rfl, rfl⟩, fun _ h => absurd h (Nat.not_lt_zero _)⟩,
    fun wf => absurd wf.minLen (by decide +kernel)⟩

/-! ### C103 -/

/-- C103: two entry points with the same version and the same length of the table read every table
alike, whatever else they say. -/
theorem C103_version_and_length (oc : Bool) (e e' : EntryPoint) (hM : e.major = e'.major)
    (hm : e.minor = e'.minor) (hl : e.smbios_len = e'.smbios_len) (buffer : Bytes)
    (items : List (Except MalformedStructureError Structure)) :
    CollectsR (fun s => s.next oc) (e.structures buffer) items ↔
      CollectsR (fun s => s.next oc) (e'.structures buffer) items := by
  have : e.structures buffer = e'.structures buffer := by
    unfold EntryPoint.structures EntryPoint.to_version
    rw [hM, hm, hl]
  rw [this]

/-- C103: in particular, the declared number of structures and the declared size of the largest one are
not obeyed: whatever they are, every structure of a well-formed table is reported. -/
theorem C103_count_not_obeyed (oc : Bool) (p : EntryPointV2) (ps : List Piece) (items)
    (post : Bytes) (hwf : ∀ q ∈ ps, q.WF)
    (hnoend : p.major.toNat < 3 ∨ ∀ q ∈ ps, q.kind ≠ 127)
    (hlen : (ps.flatMap Piece.bytes ++ post).length < 2 ^ 32)
    (hn : p.smbios_len.toNat = (ps.flatMap Piece.bytes).length)
    (hd : Decoded oc ⟨p.major, p.minor⟩ ps items) (count largest : UInt16) :
    CollectsR (fun s => s.next oc)
      ((EntryPoint.V2 { p with smbios_count := count, struct_max := largest }).structures
        (ps.flatMap Piece.bytes ++ post)) items := by
  have h16 := p.smbios_len.toNat_lt
  refine C12_round_trip oc ⟨p.major, p.minor⟩ p.smbios_len.toUInt32 ps items post hwf hnoend hlen
    (by omega) ?_ hd
  rw [UInt16.toNat_toUInt32]; exact hn

/-- An entry point that declares 10 bytes of structures. -/
def tenBytes : EntryPointV2 := ⟨0, 0, 31, 2, 8, 0, 0, [], [], 0, 10, 0, 0, 40⟩

/-- It declares no structure, and one is read. -/
example : CollectsR (fun s => s.next true)
    ((EntryPoint.V2 { tenBytes with smbios_count := 0, struct_max := 0 }).structures samplePiece.bytes)
    [.ok (.Other (samplePiece.raw ⟨2, 8⟩))] := by
  have := C103_count_not_obeyed true tenBytes [samplePiece] _ [] (by simpa using samplePiece_wf)
    (Or.inl (by decide)) (by decide +kernel) (by decide +kernel)
    (decoded_other true ⟨2, 8⟩ [samplePiece] (by simp [samplePiece])) 0 0
  simpa using this
example : (EntryPoint.V2 tenBytes).smbios_len =
    (EntryPoint.V3 ⟨[], 0, 24, 2, 8, 0, 0, 0, 10, 0⟩).smbios_len := by decide

end Dmi.Props
