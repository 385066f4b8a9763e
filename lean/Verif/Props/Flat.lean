import Verif.Proofs.Flat
import Verif.Props.Bios
import Verif.Props.System
import Verif.Props.Processor
import Verif.Props.Cache
import Verif.Props.Language
import Verif.Props.Global
/-!
# C68: over-reads in flat memory
-/
namespace Dmi.Props
open Spec
set_option linter.unusedSimpArgs false

/-! ### Where nothing is read out of bounds -/

section Agrees

theorem map_bind {ε α β γ : Type} {x : Res ε α} {g : α → Res ε β} {f : β → γ} :
    (x >>= g).map f = x >>= fun a => (g a).map f := by cases x <;> rfl

theorem flat_bios (past : Bytes) (s : RawStructure) (h : bios.Bios.try_from s ≠ .ub) :
    Flat.bios past s = bios.Bios.try_from s := by
  unfold Flat.bios bios.Bios.try_from
  unfold bios.Bios.try_from at h
  show (if s.version.ge (.ofPair 3 1) then _ else if s.version.ge (.ofPair 2 4) then _ else _) = _
  repeat' split
  all_goals
    simp only [*, if_true, if_false] at h
    exact letAsStruct_append (by
      first | unfold bios.BiosPacked3_1.packed | unfold bios.BiosPacked2_4.packed |
        unfold bios.BiosPacked2_0.packed
      packed_mono) h fun _ _ _ => rfl

theorem flat_system (past : Bytes) (s : RawStructure) (h : system.System.try_from s ≠ .ub) :
    Flat.system past s = system.System.try_from s := by
  unfold Flat.system system.System.try_from
  unfold system.System.try_from at h
  show (if s.version.lt (.ofPair 2 1) then _ else if s.version.lt (.ofPair 2 4) then _ else _) = _
  repeat' split
  all_goals
    simp only [*, if_true, if_false] at h
    exact letAsStruct_append (by
      try unfold system.SystemPacked2_4.packed
      try unfold system.SystemPacked2_1.packed
      unfold system.SystemPacked2_0.packed
      packed_mono) h fun _ _ _ => rfl

theorem flat_baseboard (past : Bytes) (s : RawStructure) (h : baseboard.BaseBoard.try_from s ≠ .ub) :
    Flat.baseboard past s = baseboard.BaseBoard.try_from s :=
  letAsStruct_append (by unfold baseboard.BaseBoardPacked.packed; packed_mono) h fun _ _ _ => rfl

theorem flat_processor (past : Bytes) (s : RawStructure) (h : processor.Processor.try_from s ≠ .ub) :
    Flat.processor past s = processor.Processor.try_from s := by
  unfold Flat.processor processor.Processor.try_from
  unfold processor.Processor.try_from at h
  show (if s.version.lt (.ofPair 2 1) then _ else if s.version.lt (.ofPair 2 3) then _
    else if s.version.lt (.ofPair 2 5) then _ else if s.version.lt (.ofPair 2 6) then _
    else if s.version.lt (.ofPair 3 0) then _ else _) = _
  repeat' split
  all_goals
    simp only [*, if_true, if_false] at h
    exact letAsStruct_append (by
      first | unfold processor.ProcessorPacked2_0.packed | unfold processor.ProcessorPacked2_1.packed |
        unfold processor.ProcessorPacked2_3.packed | unfold processor.ProcessorPacked2_5.packed |
        unfold processor.ProcessorPacked2_6.packed | unfold processor.ProcessorPacked3_0.packed
      packed_mono) h fun _ _ _ => rfl

theorem flat_cache (past : Bytes) (s : RawStructure) (h : cache.Cache.try_from s ≠ .ub) :
    Flat.cache past s = cache.Cache.try_from s := by
  unfold Flat.cache cache.Cache.try_from
  unfold cache.Cache.try_from at h
  show (if s.version.gt (.ofPair 3 1) then _ else if s.version.gt (.ofPair 2 1) then _
    else if s.version.gt (.ofPair 2 0) then _ else _) = _
  repeat' split
  all_goals
    simp only [*, if_true, if_false] at h
    first
    | exact letAsStruct_append (by
        first | unfold cache.CachePacked3_1.packed | unfold cache.CachePacked2_1.packed |
          unfold cache.CachePacked2_0.packed
        packed_mono) h fun _ _ _ => rfl
    | rfl

theorem flat_port_connector (past : Bytes) (s : RawStructure)
    (h : port_connector.PortConnector.try_from s ≠ .ub) :
    Flat.port_connector past s = port_connector.PortConnector.try_from s :=
  letAsStruct_append (by unfold port_connector.PortConnectorPacked.packed; packed_mono) h
    fun _ _ _ => rfl

theorem flat_bios_language (past : Bytes) (s : RawStructure)
    (h : bios_language.BiosLanguage.try_from s ≠ .ub) :
    Flat.bios_language past s = bios_language.BiosLanguage.try_from s := by
  unfold Flat.bios_language bios_language.BiosLanguage.try_from
  unfold bios_language.BiosLanguage.try_from at h
  show Res.map _ (if s.version.ge (.ofPair 2 1) then _ else _) = _
  repeat' split
  all_goals
    simp only [*, if_true, if_false] at h
    rw [map_bind]
    exact letAsStruct_append (by
      first | unfold bios_language.BiosLanguagePacked2_1.packed |
        unfold bios_language.BiosLanguagePacked2_0.packed
      packed_mono) h fun _ _ _ => rfl

/-- C68: where the decoder stays inside the formatted area, the bytes behind it do not matter. -/
theorem C68_agrees (oc : Bool) (past : Bytes) (s : RawStructure)
    (h : decodeStructure oc s ≠ .ub) : Flat.decodeStructure oc past s = decodeStructure oc s := by
  have aux : ∀ {α : Type} {x y : R α} {f : α → Structure}, (x ≠ .ub → y = x) → x.map f ≠ .ub →
      y.map f = x.map f := by
    intro α x y f hxy hx
    rw [hxy]
    rintro rfl
    exact hx rfl
  unfold Flat.decodeStructure
  unfold decodeStructure at *
  cases hi : s.info <;> simp only [hi] at h ⊢
  · exact aux (flat_bios past s) h
  · exact aux (flat_system past s) h
  · exact aux (flat_baseboard past s) h
  · exact aux (flat_processor past s) h
  · exact aux (flat_cache past s) h
  · exact aux (flat_port_connector past s) h
  · exact aux (flat_bios_language past s) h

/-- C68: the same for one step of the table iterator. -/
theorem C68_next (oc : Bool) (s : Structures) (h : s.next oc ≠ .ub) : Flat.next oc s = s.next oc := by
  unfold Flat.next
  unfold Structures.next at *
  cases hr : s.next_raw oc with
  | ok x =>
    obtain ⟨o, s1⟩ := x
    rw [hr] at h
    match o, h with
    | none, _ => rfl
    | some (.error e), _ => rfl
    | some (.ok r), h =>
      simp only [ok_bind] at h ⊢
      rw [C68_agrees]
      intro hu
      rw [hu] at h
      exact h rfl
  | err e => rfl
  | panic => rfl
  | ub => rfl

/-- C68: an iteration that stays inside the formatted areas yields the same items. -/
theorem C68_table (oc : Bool) (s : Structures) (items) (h : CollectsR (Structures.next oc) s items) :
    CollectsR (Flat.next oc) s items := by
  induction h with
  | done h => exact .done ((C68_next oc _ (by rw [h]; nofun)).trans h)
  | step h _ ih => exact .step ((C68_next oc _ (by rw [h]; nofun)).trans h) ih

end Agrees

/-! ### Where the whole struct lies in the buffer -/

theorem fits_seen {past : Bytes} {s : RawStructure} {n : Nat}
    (h : n ≤ s.data.length + 4 + past.length) : Fits (Flat.seen past s) n := by
  unfold Fits Flat.seen; simp only [List.length_append]; omega

/-- C68: with 44 bytes from the start of the formatted area to the end of the buffer (behind the four
header bytes) nothing is read past the end of the buffer. -/
theorem C68_defined (oc : Bool) (past : Bytes) (s : RawStructure)
    (h : 44 ≤ s.data.length + past.length) : Flat.decodeStructure oc past s ≠ .ub := by
  have hf : ∀ n, n ≤ 0x30 → Fits (Flat.seen past s) n := fun n hn => fits_seen (by omega)
  show NoUb _
  unfold Flat.decodeStructure
  split
  · refine .map (C29_rejects _ (hf _ ?_)).1.2
    unfold biosLength; repeat' split
    all_goals omega
  · refine .map (C31_rejects _ (hf _ ?_)).1.2
    unfold systemLength; repeat' split
    all_goals omega
  · apply NoUb.map
    unfold Flat.baseboard
    refine .bind ?_ fun _ _ => ?_
    · exact (letAsStruct_nf (n := 10) (by unfold baseboard.BaseBoardPacked.packed; consumes)
        (by rw [List.length_append]; omega)).2
    · no_ub
  · refine .map (C35_rejects _ (hf _ ?_)).1.2
    unfold processorLength; repeat' split
    all_goals omega
  · apply NoUb.map
    intro hu
    refine ((C37_faults _).2.1 hu).2 (hf _ ?_)
    unfold cacheReads; repeat' split
    all_goals omega
  · exact .map (C39_rejects _ (hf _ (by omega))).1.2
  · refine .map (.map ?_)
    obtain ⟨v, hv, -⟩ := C43_decodes (Flat.seen past s) (hf _ (by unfold languageLength; split <;> omega))
    rw [hv]; exact .ok
  · exact decode_noUb oc s (by simp_all)

/-- C68, full statement: no part of the result comes from behind the structure. -/
def C68_full : Prop := ∀ (oc : Bool) (past past' : Bytes) (s : RawStructure),
  Flat.decodeStructure oc past s ≠ .ub → Flat.decodeStructure oc past' s ≠ .ub →
  Flat.decodeStructure oc past s = Flat.decodeStructure oc past' s

section Inside

theorem byte_seen {past : Bytes} {s : RawStructure} {o : Nat} (h : Fits s (o + 1)) (ho : 4 ≤ o) :
    byte (Flat.seen past s) o = byte s o := by
  unfold Fits at h
  unfold byte Flat.seen byteAt
  simp only [List.getD_eq_getElem?_getD]
  rw [List.getElem?_append_left (by omega)]

theorem leAt_append (a b : Bytes) (o w : Nat) (h : o + w ≤ a.length) :
    leAt (a ++ b) o w = leAt a o w := by
  induction w generalizing o with
  | zero => rfl
  | succ w ih =>
    rw [leAt, leAt, ih (o + 1) (by omega)]
    unfold byteAt
    simp only [List.getD_eq_getElem?_getD]
    rw [List.getElem?_append_left (by omega)]

theorem word_seen {past : Bytes} {s : RawStructure} {o : Nat} (h : Fits s (o + 2)) (ho : 4 ≤ o) :
    word (Flat.seen past s) o = word s o := by
  unfold Fits at h
  unfold word Flat.seen u16At
  rw [leAt_append _ _ _ _ (by omega)]

theorem qword_seen {past : Bytes} {s : RawStructure} {o : Nat} (h : Fits s (o + 8)) (ho : 4 ≤ o) :
    qword (Flat.seen past s) o = qword s o := by
  unfold Fits at h
  unfold qword Flat.seen u64At
  rw [leAt_append _ _ _ _ (by omega)]

/-- The fields of a type 2 structure of at least eight bytes: an optional field is present exactly when
the structure is long enough to store it. -/
structure BoardFieldsPresent (s : RawStructure) (v : baseboard.BaseBoard) : Prop where
  handle : v.handle = s.handle
  manufacturer : Ref s 0x04 v.manufacturer
  product : Ref s 0x05 v.product
  version : Ref s 0x06 v.version
  serial : Ref s 0x07 v.serial
  asset : When (Fits s 0x09) v.asset (Ref s 0x08)
  feature_flags : When (Fits s 0x0A) v.feature_flags fun f =>
    f.bits.toNat = (byte s 0x09).toNat % 32
  location_in_chassis : When (Fits s 0x0B) v.location_in_chassis (Ref s 0x0A)
  chassis_handle : When (Fits s 0x0D) v.chassis_handle (· = word s 0x0B)
  board_type : When (Fits s 0x0E) v.board_type (· = baseboard.BoardType.ofU8 (byte s 0x0D))

theorem flag_bits {b : UInt8} {f : baseboard.BaseBoardFlags} :
    f.bits.toNat = b.toNat % 32 ↔ baseboard.BaseBoardFlags.fromBitsTruncate b = f := flags_eq.symm

/-- C68: unless it has exactly twelve bytes, a base board structure with at least the eight bytes of
version 2.0 decodes to what it stores, whatever lies behind it. -/
theorem C68_baseboard_partial (past : Bytes) (s : RawStructure) (h : Fits s 0x08)
    (hn : s.data.length ≠ 8) (hm : 10 ≤ s.data.length + past.length) (v : baseboard.BaseBoard) :
    Flat.baseboard past s = .ok v ↔ BoardFieldsPresent s v := by
  have hp := baseboard_packed (s := Flat.seen past s) (fits_seen (by omega))
  change letAsStruct _ (s.data ++ past) = _ at hp
  unfold Flat.baseboard
  rw [hp]
  have e4 : byte (Flat.seen past s) 4 = byte s 4 := byte_seen (by unfold Fits at *; omega) (by omega)
  have e5 : byte (Flat.seen past s) 5 = byte s 5 := byte_seen (by unfold Fits at *; omega) (by omega)
  have e6 : byte (Flat.seen past s) 6 = byte s 6 := byte_seen (by unfold Fits at *; omega) (by omega)
  have e7 : byte (Flat.seen past s) 7 = byte s 7 := byte_seen (by unfold Fits at *; omega) (by omega)
  have f9 : Fits s 0x09 ↔ s.data.length > 4 := by unfold Fits; omega
  have fA : Fits s 0x0A ↔ s.data.length > 5 := by unfold Fits; omega
  have fB : Fits s 0x0B ↔ s.data.length > 6 := by unfold Fits; omega
  have fD : Fits s 0x0D ↔ s.data.length > 7 := by unfold Fits; omega
  have fE : Fits s 0x0E ↔ s.data.length > 9 := by unfold Fits; omega
  simp only [ok_bind, e4, e5, e6, e7, ← f9, ← fA, ← fB, ← fD, ← fE]
  clear f9 fA fB fD fE hp e4 e5 e6 e7
  by_cases h9 : Fits s 0x09
  · rw [byte_seen (o := 8) h9 (by omega)]
    by_cases hA : Fits s 0x0A
    · rw [byte_seen (o := 9) hA (by omega)]
      by_cases hB : Fits s 0x0B
      · rw [byte_seen (o := 0x0A) hB (by omega)]
        by_cases hD : Fits s 0x0D
        · rw [word_seen (o := 0x0B) hD (by omega)]
          by_cases hE : Fits s 0x0E
          · rw [byte_seen (o := 0x0D) hE (by omega)]
            simp only [h9, hA, hB, hD, hE, if_true]
            decode_iff v [flag_bits]
          · simp only [h9, hA, hB, hD, hE, if_true, if_false]
            decode_iff v [flag_bits]
        · have hE : ¬ Fits s 0x0E := by unfold Fits at *; omega
          simp only [h9, hA, hB, hD, hE, if_true, if_false]
          decode_iff v [flag_bits]
      · have hD : ¬ Fits s 0x0D := by unfold Fits at *; omega
        have hE : ¬ Fits s 0x0E := by unfold Fits at *; omega
        simp only [h9, hA, hB, hD, hE, if_true, if_false]
        decode_iff v [flag_bits]
    · have hB : ¬ Fits s 0x0B := by unfold Fits at *; omega
      have hD : ¬ Fits s 0x0D := by unfold Fits at *; omega
      have hE : ¬ Fits s 0x0E := by unfold Fits at *; omega
      simp only [h9, hA, hB, hD, hE, if_true, if_false]
      decode_iff v [flag_bits]
  · have hA : ¬ Fits s 0x0A := by unfold Fits at *; omega
    have hB : ¬ Fits s 0x0B := by unfold Fits at *; omega
    have hD : ¬ Fits s 0x0D := by unfold Fits at *; omega
    have hE : ¬ Fits s 0x0E := by unfold Fits at *; omega
    simp only [h9, hA, hB, hD, hE, if_true, if_false]
    decode_iff v [flag_bits]

/-- C68: in a base board structure of twelve bytes, which stores one byte of the two of the chassis
handle, the other byte of the handle is the byte behind the structure, the first of its string area. -/
theorem C68_baseboard_torn (past : Bytes) (s : RawStructure) (h : s.data.length = 8)
    (hm : 2 ≤ past.length) (v : baseboard.BaseBoard) (hv : Flat.baseboard past s = .ok v) :
    ∃ w, v.chassis_handle = some w ∧
      w.toNat = (byte s 0x0B).toNat + 256 * (past.getD 0 0).toNat := by
  have hp := baseboard_packed (s := Flat.seen past s) (fits_seen (by omega))
  change letAsStruct _ (s.data ++ past) = _ at hp
  unfold Flat.baseboard at hv
  rw [hp] at hv
  have h4 : s.data.length > 4 := by omega
  have h6 : s.data.length > 6 := by omega
  have h7 : s.data.length > 7 := by omega
  simp only [ok_bind, bind_ok_iff, h4, h6, h7, if_true, pure_eq_ok, Res.ok.injEq] at hv
  obtain ⟨_, -, _, -, _, -, _, -, _, -, _, -, rfl⟩ := hv
  refine ⟨_, rfl, ?_⟩
  have e : byteAt (s.data ++ past) 7 = byte s 0x0B := by
    unfold byte byteAt
    simp only [List.getD_eq_getElem?_getD]
    rw [List.getElem?_append_left (by omega)]
  have e' : byteAt (s.data ++ past) 8 = past.getD 0 0 := by
    unfold byteAt
    simp only [List.getD_eq_getElem?_getD]
    rw [List.getElem?_append_right (by omega), h]
  show (u16At (s.data ++ past) 7).toNat = _
  unfold u16At
  simp only [leAt, e, e']
  have := (byte s 0x0B).toNat_lt
  have := (past.getD 0 0).toNat_lt
  rw [UInt16.toNat_ofNat']
  omega

/-- C68: a version 3 processor structure with the 2Ah bytes of version 2.6 (the 16-bit counts are not
stored) decodes to what it stores, whatever lies behind it, if no 8-bit count is FFh. -/
theorem C68_processor_partial (past : Bytes) (s : RawStructure) (hv : Since s 3 0) (h : Fits s 0x2A)
    (hc : byte s 0x23 ≠ 0xFF ∧ byte s 0x24 ≠ 0xFF ∧ byte s 0x25 ≠ 0xFF)
    (hm : 44 ≤ s.data.length + past.length) (v : processor.Processor) :
    Flat.processor past s = .ok v ↔ ProcessorFields s (Since s 2 6) v := by
  have hb : ∀ o, 4 ≤ o → o < 0x2A → byte (Flat.seen past s) o = byte s o := fun o h4 ho =>
    byte_seen (by unfold Fits at *; omega) h4
  have hw : ∀ o, 4 ≤ o → o < 0x29 → word (Flat.seen past s) o = word s o := fun o h4 ho =>
    word_seen (by unfold Fits at *; omega) h4
  have hq : qword (Flat.seen past s) 8 = qword s 8 := qword_seen (by unfold Fits at *; omega) (by omega)
  have hr : ∀ o str, 4 ≤ o → o < 0x2A → (Ref (Flat.seen past s) o str ↔ Ref s o str) := by
    intro o str h4 ho
    unfold Ref
    rw [hb o h4 ho]
    rfl
  have hS : ∀ a b, Since (Flat.seen past s) a b ↔ Since s a b := fun _ _ => Iff.rfl
  have hcount : ∀ o o2, 4 ≤ o → o < 0x2A → byte s o ≠ 0xFF →
      storedCount (Flat.seen past s) o o2 = storedCount s o o2 := by
    intro o o2 h4 ho hne
    unfold storedCount
    rw [hb o h4 ho, if_neg (fun h => hne h.2), if_neg (fun h => hne h.2)]
  have hfam : storedFamily (Flat.seen past s) = storedFamily s := by
    unfold storedFamily
    rw [hb 6 (by omega) (by omega), hw 0x28 (by omega) (by omega)]
    rfl
  have h30 : processorLength (Flat.seen past s) = 0x30 := if_pos hv
  unfold Flat.processor
  rw [C35_decodes (Flat.seen past s) (by rw [h30]; exact fits_seen (by omega)) v]
  have c1 := hcount 0x23 0x2A (by omega) (by omega) hc.1
  have c2 := hcount 0x24 0x2C (by omega) (by omega) hc.2.1
  have c3 := hcount 0x25 0x2E (by omega) (by omega) hc.2.2
  have hR : ∀ o, 4 ≤ o → o < 0x2A → Ref (Flat.seen past s) o = Ref s o := fun o h4 ho =>
    funext fun str => propext (hr o str h4 ho)
  constructor
  · rintro ⟨f1, f2, f3, f4, f5, f6, f7, f8, f9, f10, f11, f12, f13, f14, f15, f16, f17, f18, f19, f20,
      f21, f22, f23⟩
    simp (disch := omega) only [hb, hw, hq, hR, hfam, c1, c2, c3, hS] at f2 f3 f4 f5 f6 f7 f8 f9 f10
    simp (disch := omega) only [hb, hw, hq, hR, hfam, c1, c2, c3, hS] at f11 f12 f13 f14 f15 f16 f17
    simp (disch := omega) only [hb, hw, hq, hR, hfam, c1, c2, c3, hS] at f18 f19 f20 f21 f22 f23
    constructor <;> assumption
  · rintro ⟨f1, f2, f3, f4, f5, f6, f7, f8, f9, f10, f11, f12, f13, f14, f15, f16, f17, f18, f19, f20,
      f21, f22, f23⟩
    constructor <;>
      (try simp (disch := omega) only [hb, hw, hq, hR, hfam, c1, c2, c3, hS]) <;> assumption
end Inside

/-- A base board structure of twelve bytes. -/
def tornBoard : RawStructure := { exampleBoard with length := 12, data := exampleBoard.data.take 8 }

/-- C68, the full statement fails: the chassis handle of a base board structure of twelve bytes. -/
theorem C68_full_false : ¬ C68_full := fun h => by
  have h0 := h true [0, 0] [1, 0] tornBoard (by decide +kernel) (by decide +kernel)
  revert h0
  decide +kernel

example : Fits exampleBoard 0x08 ∧ exampleBoard.data.length ≠ 8 ∧
    10 ≤ exampleBoard.data.length + ([] : Bytes).length := by decide
/-- The eight bytes of version 2.0, followed by the string area. -/
example : Flat.baseboard exampleBoard.strings { exampleBoard with data := [1, 2, 0, 3] } = .ok {
    handle := 2
    manufacturer := ascii "Intel"
    product := ascii "S2600"
    version := []
    serial := ascii "Slot0"
    asset := none
    feature_flags := none
    location_in_chassis := none
    chassis_handle := none
    board_type := none } := by decide +kernel
/-- A version 3.0 structure of 2Ah bytes, as found in `tests/data/dmi_v3_short.bin`. -/
def shortProcessor : RawStructure := { exampleProcessor with
  length := 0x2A
  data := (exampleProcessor.data.set 0x1F 20).take 0x26 }

example : Since shortProcessor 3 0 ∧ Fits shortProcessor 0x2A ∧ byte shortProcessor 0x23 ≠ 0xFF ∧
    byte shortProcessor 0x24 ≠ 0xFF ∧ byte shortProcessor 0x25 ≠ 0xFF ∧
    44 ≤ shortProcessor.data.length + shortProcessor.strings.length := by decide +kernel
example : processor.Processor.try_from shortProcessor = .ub := by decide +kernel
example : (Flat.processor shortProcessor.strings shortProcessor).okAnd (fun v =>
    v.core_count = some 20) = true := by decide +kernel
example : baseboard.BaseBoard.try_from { exampleBoard with data := [1, 2, 0, 3] } = .ub := by
  decide +kernel
example : (Flat.baseboard tornBoard.strings tornBoard).okAnd (fun v =>
    v.chassis_handle = some 0x4934) = true := by decide +kernel

end Dmi.Props
