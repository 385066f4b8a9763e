import Verif.Props.Global
import Verif.Props.Bios
import Verif.Props.System
import Verif.Props.Processor
import Verif.Props.Cache
import Verif.Props.Language
import Verif.Props.MemoryDevice
import Verif.Props.EventLog
/-!
# C54: tables whose structures are long enough never crash the iterator
-/
namespace Dmi.Props
open Spec

/-- The explicit minimum: what a structure has to satisfy for its decoder not to fault. -/
def Enough (s : RawStructure) : Prop :=
  match s.info with
  | .Bios => Fits s (biosLength s)
  | .System => Fits s (systemLength s)
  | .BaseBoard => Fits s 0x0E
  | .Enclosure => Fits s 0x15 → elementCount s * elementLength s < 256
  | .Processor => Fits s (processorLength s)
  | .Cache => Since s 2 1 ∧ Fits s (cacheReads s)
  | .PortConnector => Fits s 0x09
  | .BiosLanguage => Fits s (languageLength s)
  | .GroupAssociations => Fits s 0x05
  | .SystemEventLog => Fits s 0x17 → descriptorLength s ≠ 0
  | .PhysicalMemoryArray => Since s 2 2 → ArrayFits s
  | _ => True

theorem small (k : Nat) (b : UInt8) (hk : 4 ≤ k ∧ k < 2 ^ 62) :
    4 ≤ k + 5 * b.toNat ∧ k + 5 * b.toNat < 2 ^ 63 := by
  have := b.toNat_lt
  omega

theorem enclosure_nf (oc : Bool) (s : RawStructure)
    (h : Fits s 0x15 → elementCount s * elementLength s < 256) :
    (enclosure.Enclosure.try_from oc s).NoFault := by
  by_cases h9 : Fits s 9
  · exact (C33_rejects oc s h9 fun _ => h).1
  · rw [C33_short oc s h9]; exact NF.err

theorem array_nf (s : RawStructure) (h : Since s 2 2 → ArrayFits s) :
    (physical_memory_array.PhysicalMemoryArray.try_from s).NoFault := by
  by_cases hv : Since s 2 2
  · have hf := h hv
    unfold physical_memory_array.PhysicalMemoryArray.try_from
    rw [fill_ok hf.1 hv]
    simp only [ok_bind]
    refine NF.ite (fun h8 => NF.ite (fun hn => ?_) fun _ => NF.pure) fun _ => NF.pure
    have h17 : Fits s 0x17 := by
      refine hf.2 ((gt_iff (by decide) (by decide)).1 h8) ?_
      simp only [filled, optIf] at hn
      apply Classical.not_not.1
      intro hne
      rw [if_pos hne] at hn
      cases hn
    rw [get_optional_qword_eq, if_pos (by unfold Fits at h17; omega)]
    exact NF.ok
  · rw [C47_old s hv]; exact NF.ok

theorem log_nf (oc : Bool) (s : RawStructure) (h : Fits s 0x17 → descriptorLength s ≠ 0) :
    (system_event_log.SystemEventLog.try_from oc s).NoFault := by
  unfold system_event_log.SystemEventLog.try_from system_event_log.SystemEventLog.decode
  rw [get8_opt oc (by decide) (by decide), ok_bind, get8_opt oc (by decide) (by decide), ok_bind,
    descriptors_eval oc s h]
  simp only
  no_fault

/-- C54: a structure that satisfies the minimum decodes, or is rejected, without panic and without
reading out of bounds, in both overflow-check profiles. -/
theorem C54_decoders (oc : Bool) (s : RawStructure) (hc : Coherent s) (h : Enough s) :
    (decodeStructure oc s).NoFault := by
  unfold Enough at h
  unfold decodeStructure
  split <;> rename_i hi <;> simp only [hi] at h
  · exact NF.map (C29_rejects s h).1
  · exact NF.map (C31_rejects s h).1
  · exact NF.map (C32_rejects s h).1
  · exact NF.map (enclosure_nf oc s h)
  · exact NF.map (C35_rejects s h).1
  · exact NF.map (C37_rejects s h.1 h.2).1
  · exact NF.map (C39_rejects s h).1
  · apply NF.map
    unfold system_slots.SystemSlots.try_from system_slots.SystemSlots.decode
    no_fault
    all_goals first
      | exact small _ _ (by decide)
      | exact ⟨by decide, (small 0x13 _ (by decide)).2⟩
  · exact NF.map NF.ok
  · apply NF.map
    unfold system_configuration_options.SystemConfigurationOptions.try_from; no_fault
  · obtain ⟨v, hv, -⟩ := C43_decodes s h
    rw [hv]; exact NF.map NF.ok
  · exact NF.map (C44_decodes oc s hc h).2.2.1
  · exact NF.map (log_nf oc s h)
  · exact NF.map (array_nf s h)
  · apply NF.map; unfold memory_device.MemoryDevice.try_from; no_fault
  · apply NF.map; unfold memory_error_32.MemoryError32.try_from; no_fault
  · apply NF.map
    unfold memory_array_mapped_address.MemoryArrayMappedAddress.try_from; no_fault
  · apply NF.map
    unfold memory_device_mapped_address.MemoryDeviceMappedAddress.try_from; no_fault
  · apply NF.map
    unfold built_in_pointing_device.BuiltInPointingDevice.try_from; no_fault
  · apply NF.map; unfold portable_battery.PortableBattery.try_from portable_battery.optString; no_fault
  · exact NF.ok

theorem piece_coherent (p : Piece) (v : SmbiosVersion) (h : p.WF) : Coherent (p.raw v) := by
  have := h.1
  show p.data.length + 4 = (UInt8.ofNat p.len).toNat
  rw [UInt8.toNat_ofNat']
  unfold Piece.len at *
  omega

/-- The length byte of every structure the iterator extracts is the length of its formatted area. -/
theorem coherent_of_next_raw (oc : Bool) (s s' : Structures) (r : RawStructure)
    (hb : s.buffer.length < 2 ^ 32) (h : s.next_raw oc = .ok (some (.ok r), s')) : Coherent r := by
  rcases next_raw_cases oc s hb with (h1 | h1) | h1 | ⟨hi, e, h1⟩ | ⟨p, hp, hn, h1⟩
  · rw [h] at h1; cases h1
  · rw [h] at h1; cases h1
  · rw [h] at h1; cases h1
  · rw [h] at h1; cases h1
  · rw [h] at h1; cases h1
    exact piece_coherent p _ hp.1

/-- What is left of the table is a sequence of well-formed structures that satisfy the minimum, and
it reaches to the declared length or contains the structure that ends the table. -/
def Sound (s : Structures) (ps : List Piece) : Prop :=
  (∀ p ∈ ps, p.WF ∧ Enough (p.raw s.smbios_version)) ∧
  (∃ rest, s.buffer.drop s.idx.toNat = ps.flatMap Piece.bytes ++ rest) ∧
  s.idx.toNat ≤ s.buffer.length ∧
  (s.smbios_len.toNat ≤ s.idx.toNat + (ps.flatMap Piece.bytes).length + 3 ∨
    3 ≤ s.smbios_version.major.toNat ∧ ∃ p ∈ ps, p.kind = 127)

theorem sound_step (oc : Bool) (s : Structures) (ps : List Piece)
    (hb : s.buffer.length + 4 < 2 ^ 32) (h : Sound s ps) :
    (s.next oc).NoFault ∧ ∀ item s', s.next oc = .ok (some item, s') →
      s'.buffer = s.buffer ∧ ∃ ps', Sound s' ps' := by
  obtain ⟨hps, ⟨rest, hrest⟩, hidx, hend⟩ := h
  by_cases hstop : s.smbios_len.toNat < s.idx.toNat + 4
  · rw [next_at_end oc s (by omega) hstop]
    exact ⟨NF.ok, fun _ _ h => by cases h⟩
  cases ps with
  | nil =>
    rcases hend with hend | ⟨-, p, hp, -⟩
    · simp only [List.flatMap_nil, List.length_nil] at hend; omega
    · cases hp
  | cons p ps =>
    obtain ⟨hwf, hen⟩ := hps p (by simp)
    rw [List.flatMap_cons, List.append_assoc] at hrest
    have hpa : PieceAt s.buffer s.idx.toNat p := ⟨hwf, drop_eq_occursAt hrest hidx⟩
    obtain ⟨hfit, hk, hl, hl8, -, -, -⟩ := PieceAt.parts hpa
    have hplen := Piece.bytes_length p
    by_cases hn : s.idx.toNat + p.len < s.smbios_len.toNat
    · have hnf := C54_decoders oc (p.raw s.smbios_version) (piece_coherent p _ hwf) hen
      rw [next_piece oc s p (by omega) hpa hn]
      have hsound : ∃ ps', Sound (s.after p) ps' := by
        have hai := after_idx (by omega) hpa
        have hdrop : s.buffer.drop (s.idx.toNat + p.bytes.length) =
            ps.flatMap Piece.bytes ++ rest := by
          rw [← List.drop_drop, hrest, List.drop_left]
        by_cases he : s.smbios_version.major ≥ 3 ∧ p.kind = 127
        · refine ⟨[], nofun, ⟨_, rfl⟩, by rw [hai]; exact hfit, Or.inl ?_⟩
          have : (s.after p).smbios_len = (s.after p).idx := by
            unfold Structures.after
            rw [if_pos he]
          rw [this]; simp
        · have hlen : (s.after p).smbios_len = s.smbios_len := by
            unfold Structures.after
            simp only [if_neg he]
          refine ⟨ps, fun q hq => hps q (by simp [hq]), ⟨rest, by rw [hai]; exact hdrop⟩,
            by rw [hai]; exact hfit, ?_⟩
          rw [hlen, hai]
          rcases hend with hend | ⟨hv, q, hq, hq127⟩
          · left
            rw [List.flatMap_cons, List.length_append] at hend
            omega
          · right
            refine ⟨hv, q, ?_, hq127⟩
            rcases List.mem_cons.1 hq with rfl | hq
            · exact absurd ⟨hv, hq127⟩ he
            · exact hq
      cases hd : decodeStructure oc (p.raw s.smbios_version) with
      | ok st =>
        refine ⟨NF.ok, fun item s' h => ?_⟩
        cases h
        exact ⟨rfl, hsound⟩
      | err e =>
        refine ⟨NF.ok, fun item s' h => ?_⟩
        cases h
        exact ⟨rfl, hsound⟩
      | panic => exact absurd hd hnf.1
      | ub => exact absurd hd hnf.2
    · have hraw : s.next_raw oc = .ok (some (.error (.BadSize s.idx
          (byteAt s.buffer (s.idx.toNat + 1)))), s) := by
        have hlt := (byteAt s.buffer (s.idx.toNat + 1)).toNat_lt
        have hl' : (byteAt s.buffer (s.idx.toNat + 1)).toNat = p.len := hl
        have hle : 4 ≤ p.len := by unfold Piece.len; omega
        rw [next_raw_eval oc s (by omega) (by omega) (by intro; omega), if_neg hstop,
          if_neg (by omega), if_neg (by omega), if_pos (by omega)]
      unfold Structures.next
      rw [hraw]
      refine ⟨NF.ok, fun item s' h => ?_⟩
      cases h
      exact ⟨rfl, [], nofun, ⟨_, rfl⟩, hidx, Or.inl (by simp)⟩

theorem sound_runs {oc : Bool} {s s' : Structures} {items} (h : Runs oc s items s')
    (hb : s.buffer.length + 4 < 2 ^ 32) (hs : ∃ ps, Sound s ps) : (s'.next oc).NoFault := by
  induction h with
  | nil =>
    obtain ⟨ps, hs⟩ := hs
    exact (sound_step oc _ ps hb hs).1
  | cons h t ih =>
    obtain ⟨ps, hs⟩ := hs
    obtain ⟨h1, h2⟩ := (sound_step oc _ ps hb hs).2 _ _ h
    exact ih (by rw [h1]; exact hb) h2

/-- C54: iterating over a table of well-formed structures satisfying the minimum, of declared length
up to the length of the table, never panics or reads out of bounds: not after any number of calls, in
neither overflow-check profile, whatever follows the table. (The declared length may also cut the
table off anywhere.) -/
theorem C54_no_fault (oc : Bool) (v : SmbiosVersion) (n : UInt32) (ps : List Piece) (post : Bytes)
    (hps : ∀ p ∈ ps, p.WF ∧ Enough (p.raw v))
    (hlen : (ps.flatMap Piece.bytes ++ post).length + 4 < 2 ^ 32)
    (hn : n.toNat ≤ (ps.flatMap Piece.bytes).length) {items} {s' : Structures}
    (h : Runs oc ⟨v, n, 0, ps.flatMap Piece.bytes ++ post⟩ items s') : (s'.next oc).NoFault :=
  sound_runs h hlen ⟨ps, hps, ⟨post, rfl⟩, Nat.zero_le _, Or.inl (by
    show n.toNat ≤ 0 + (ps.flatMap Piece.bytes).length + 3; omega)⟩

/-- C54: from version 3 on the same holds for any declared length, provided the table contains the
end-of-table structure. -/
theorem C54_no_fault_end (oc : Bool) (v : SmbiosVersion) (n : UInt32) (ps : List Piece)
    (post : Bytes) (hv : 3 ≤ v.major.toNat) (hps : ∀ p ∈ ps, p.WF ∧ Enough (p.raw v))
    (he : ∃ p ∈ ps, p.kind = 127) (hlen : (ps.flatMap Piece.bytes ++ post).length + 4 < 2 ^ 32)
    {items} {s' : Structures}
    (h : Runs oc ⟨v, n, 0, ps.flatMap Piece.bytes ++ post⟩ items s') : (s'.next oc).NoFault :=
  sound_runs h hlen ⟨ps, hps, ⟨post, rfl⟩, Nat.zero_le _, Or.inr ⟨hv, he⟩⟩

/-- A port connector structure of minimal length. -/
def portPiece : Piece := { kind := 8, handle := 1, data := [0, 1, 0, 1, 2], strings := [0, 0] }

example : portPiece.WF ∧ Enough (portPiece.raw ⟨2, 8⟩) := ⟨⟨by decide, endsAtFirst_nil⟩,
  show Fits (portPiece.raw ⟨2, 8⟩) 0x09 by decide⟩
example : sampleEnd.WF ∧ Enough (sampleEnd.raw ⟨3, 1⟩) := ⟨sampleEnd_wf, trivial⟩

end Dmi.Props
