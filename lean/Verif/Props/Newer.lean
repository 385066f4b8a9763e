import Verif.Props.Flat
import Verif.Props.Crash
import Verif.Props.Slots
import Verif.Props.Battery
/-!
# C70: structures longer than the decoder knows

A later version of the standard appends fields to a structure. A decoder that does not know them should
report the fields it knows as before.
-/
namespace Dmi.Props
open Spec
set_option linter.unusedSimpArgs false

/-- `s` with the bytes `x` appended to its formatted area. -/
def Longer (s : RawStructure) (x : Bytes) : RawStructure :=
  { s with data := s.data ++ x, length := UInt8.ofNat (s.length.toNat + x.length) }

/-- The length of the fields the decoder knows, header included. -/
def knownLength (s : RawStructure) : Nat :=
  match s.info with
  | .Bios => biosLength s
  | .System => systemLength s
  | .BaseBoard => 0x0E
  | .Enclosure => 0x16 + elementCount s * elementLength s
  | .Processor => processorLength s
  | .Cache => cacheReads s
  | .PortConnector => 0x09
  | .SystemSlots => 0x18 + 5 * peerCount s
  | .SystemConfigurationOptions => 0x05
  | .BiosLanguage => languageLength s
  | .SystemEventLog => 0x17 + descriptorCount s * descriptorLength s
  | .PhysicalMemoryArray => if Since s 2 8 then 0x17 else 0x0F
  | .MemoryDevice => 0x5C
  | .MemoryError32 => 0x17
  | .MemoryArrayMappedAddress => 0x1F
  | .MemoryDeviceMappedAddress => 0x23
  | .BuiltInPointingDevice => 0x07
  | .PortableBattery => 0x1A
  | _ => 4

/-- The structures that have to have an exact length. -/
def ExactLength (s : RawStructure) : Prop :=
  match s.info with
  | .SystemSlots => Since s 2 0 ∧ ¬ Since s 3 2
  | .SystemEventLog => Since s 2 0
  | .MemoryError32 | .MemoryArrayMappedAddress | .MemoryDeviceMappedAddress
  | .BuiltInPointingDevice | .PortableBattery => Since s 2 1
  | _ => False

section
variable {s : RawStructure} {x : Bytes}

theorem longer_byteAt {o : Nat} (h : o < s.data.length) : byteAt (s.data ++ x) o = byteAt s.data o := by
  unfold byteAt
  rw [List.getD_eq_getElem?_getD, List.getD_eq_getElem?_getD, List.getElem?_append_left h]

theorem longer_byte {o : Nat} (h4 : 4 ≤ o) (h : Fits s (o + 1)) : byte (Longer s x) o = byte s o :=
  longer_byteAt (by unfold Fits at h; omega)

theorem longer_bytesAt {o n : Nat} (h : o + n ≤ s.data.length) :
    bytesAt (s.data ++ x) o n = bytesAt s.data o n := by
  unfold bytesAt
  apply List.map_congr_left
  intro i hi
  rw [List.mem_range] at hi
  exact longer_byteAt (by omega)

theorem longer_getBytes (oc : Bool) (n o : Nat) (h4 : 4 ≤ o) (hm : o < 2 ^ 16) (hn : 0 < n) (hn' : n ≤ 16)
    (h : Fits s (o + n)) : (Longer s x).getBytes oc n o = s.getBytes oc n o := by
  unfold Fits at h
  rw [getBytes_ge oc _ n o h4 (by omega) hn, getBytes_ge oc _ n o h4 (by omega) hn, if_pos h, if_pos]
  · exact congrArg _ (longer_bytesAt (by omega))
  · unfold Longer; simp only [List.length_append]; omega

theorem longer_get8 (oc : Bool) (o : Nat) (h4 : 4 ≤ o) (hm : o < 2 ^ 16) (h : Fits s (o + 1)) :
    (Longer s x).get8 oc o = s.get8 oc o := by
  unfold RawStructure.get8; rw [longer_getBytes oc 1 o h4 hm (by decide) (by decide) h]

theorem longer_get16 (oc : Bool) (o : Nat) (h4 : 4 ≤ o) (hm : o < 2 ^ 16) (h : Fits s (o + 2)) :
    (Longer s x).get16 oc o = s.get16 oc o := by
  unfold RawStructure.get16; rw [longer_getBytes oc 2 o h4 hm (by decide) (by decide) h]

theorem longer_get32 (oc : Bool) (o : Nat) (h4 : 4 ≤ o) (hm : o < 2 ^ 16) (h : Fits s (o + 4)) :
    (Longer s x).get32 oc o = s.get32 oc o := by
  unfold RawStructure.get32; rw [longer_getBytes oc 4 o h4 hm (by decide) (by decide) h]

theorem longer_get64 (oc : Bool) (o : Nat) (h4 : 4 ≤ o) (hm : o < 2 ^ 16) (h : Fits s (o + 8)) :
    (Longer s x).get64 oc o = s.get64 oc o := by
  unfold RawStructure.get64; rw [longer_getBytes oc 8 o h4 hm (by decide) (by decide) h]

theorem longer_find (i : UInt8) : (Longer s x).find_string i = s.find_string i := rfl

theorem longer_get_string (oc : Bool) (o : Nat) (h4 : 4 ≤ o) (hm : o < 2 ^ 16) (h : Fits s (o + 1)) :
    (Longer s x).get_string oc o = s.get_string oc o := by
  unfold RawStructure.get_string; rw [longer_get8 oc o h4 hm h]; rfl

theorem longer_get_slice (oc : Bool) (o n : Nat) (h4 : 4 ≤ o) (hm : o < 2 ^ 16) (hn : n < 2 ^ 17)
    (h : Fits s (o + n)) : (Longer s x).get_slice oc o n = s.get_slice oc o n := by
  unfold Fits at h
  rw [get_slice_ge oc _ o n h4 (by omega), get_slice_ge oc _ o n h4 (by omega), if_pos h, if_pos]
  · exact congrArg (fun b => Res.ok (some b)) (longer_bytesAt (by omega))
  · unfold Longer; simp only [List.length_append]; omega

theorem longer_optString (oc : Bool) (o : Nat) (h4 : 4 ≤ o) (hm : o < 2 ^ 16) (h : Fits s (o + 1)) :
    portable_battery.optString oc (Longer s x) o = portable_battery.optString oc s o := by
  unfold portable_battery.optString; rw [longer_get8 oc o h4 hm h]; rfl

theorem longer_fits {n : Nat} (h : Fits s n) : Fits (Longer s x) n := by
  unfold Fits Longer at *; simp only [List.length_append]; omega

/-- Reads inside the structure give the same in the longer one. -/
macro "longer" k:ident : tactic => `(tactic|
  simp (disch := first | omega | exact fits_mono $k (by omega)) only
    [longer_get8, longer_get16, longer_get32, longer_get64, longer_get_string, longer_optString,
    longer_get_slice])

theorem longer_device (oc : Bool) (h : Fits s 0x5C) :
    memory_device.MemoryDevice.try_from oc (Longer s x) = memory_device.MemoryDevice.try_from oc s := by
  unfold memory_device.MemoryDevice.try_from
  have h1 : 0x5C ≤ s.data.length + 4 := h
  have h2 : 0x5C ≤ (Longer s x).data.length + 4 := longer_fits h
  rw [if_neg (by omega), if_neg (by omega)]
  longer h
  rfl

theorem longer_slots (oc : Bool) (h : Fits s (0x18 + 5 * peerCount s))
    (he : ¬ (Since s 2 0 ∧ ¬ Since s 3 2)) :
    system_slots.SystemSlots.try_from oc (Longer s x) = system_slots.SystemSlots.try_from oc s := by
  have h1 : 0x18 + 5 * peerCount s ≤ s.data.length + 4 := h
  have h2 : 0x18 + 5 * peerCount s ≤ (Longer s x).data.length + 4 := longer_fits h
  have h13 : Fits s 0x13 := fits_mono h (by omega)
  have hp : peerCount s = (byte s 0x12).toNat := if_pos h13
  have hv : ∀ a b, Since (Longer s x) a b ↔ Since s a b := fun _ _ => Iff.rfl
  have hd : system_slots.SystemSlots.decode oc (Longer s x) = system_slots.SystemSlots.decode oc s := by
    have hlt := (byte s 0x12).toNat_lt
    unfold system_slots.SystemSlots.decode
    rw [longer_get8 oc 0x12 (by decide) (by decide) h13, get8_ok oc h13 (by decide) (by decide) (by decide)]
    simp only [Res.toOption, ok_bind, Option.getD_some]
    rw [hp] at h
    longer h
    rfl
  unfold system_slots.SystemSlots.try_from
  simp only [hd]
  have hv2 : ∀ a b, system_slots.verLt (Longer s x).version a b = system_slots.verLt s.version a b :=
    fun _ _ => rfl
  simp only [hv2]
  by_cases h20 : Since s 2 0
  · have h32 : Since s 3 2 := Decidable.byContradiction fun hn => he ⟨h20, hn⟩
    simp only [system_slots.verLt, lt_neg h32, lt_neg (since_mono h32 (by omega) : Since s 2 1),
      lt_neg (since_mono h32 (by omega) : Since s 2 6), Bool.and_false, Bool.false_and, Bool.not_false,
      Bool.true_and, if_neg, Bool.false_eq_true, not_false_eq_true, if_false]
    rw [if_neg (by simp; omega), if_neg (by simp; omega)]
  · have g : ∀ a b, 2 ≤ a → a < 256 → b < 256 → s.version.lt (.ofPair a b) = true := by
      intro a b ha ha' hb
      refine lt_pos (fun hs => h20 (since_mono hs (by omega))) ha' hb
    simp only [system_slots.verLt, g 2 0 (by decide) (by decide) (by decide),
      g 2 1 (by decide) (by decide) (by decide), g 2 6 (by decide) (by decide) (by decide),
      g 3 2 (by decide) (by decide) (by decide), Bool.not_true, Bool.false_and, Bool.false_eq_true, if_false]

theorem longer_enclosure (oc : Bool) (hc : Coherent s)
    (h : Fits s (0x16 + elementCount s * elementLength s)) :
    enclosure.Enclosure.try_from oc (Longer s x) = enclosure.Enclosure.try_from oc s := by
  have h15 : Fits s 0x15 := fits_mono h (by omega)
  have hb : elementCount s * elementLength s < 256 := by
    have := s.length.toNat_lt
    unfold Fits Coherent at *
    omega
  have e13 : elementCount (Longer s x) = elementCount s :=
    congrArg UInt8.toNat (longer_byte (by decide) (fits_mono h15 (by decide)))
  have e14 : elementLength (Longer s x) = elementLength s :=
    congrArg UInt8.toNat (longer_byte (by decide) (fits_mono h15 (by decide)))
  have er : recordBytes s = elementCount s * elementLength s := Nat.mod_eq_of_lt hb
  have er' : recordBytes (Longer s x) = recordBytes s := by unfold recordBytes; rw [e13, e14]
  have ed : dword (Longer s x) 0x0D = dword s 0x0D := by
    have := longer_get32 (s := s) (x := x) oc 0x0D (by decide) (by decide) (fits_mono h15 (by decide))
    rw [get32_ok oc (longer_fits h15) (by decide) (by decide) (by decide),
      get32_ok oc h15 (by decide) (by decide) (by decide)] at this
    exact Res.ok.inj this
  have ec : initialChunks (Longer s x) = initialChunks s := by
    unfold initialChunks
    rw [er', e13, e14]
    have : bytesAt (Longer s x).data 0x11 (recordBytes s) = bytesAt s.data 0x11 (recordBytes s) :=
      longer_bytesAt (by unfold Fits at h; omega)
    rw [this]
  have hby : ∀ o, 4 ≤ o → o < 0x16 + recordBytes s → byte (Longer s x) o = byte s o :=
    fun o h4 ho => longer_byte h4 (fits_mono h (by omega))
  have hf : ∀ n, n ≤ 0x16 + recordBytes s → Fits s n := fun n hn => fits_mono h (by omega)
  have hf' : ∀ n, n ≤ 0x16 + recordBytes s → Fits (Longer s x) n := fun n hn => longer_fits (hf n hn)
  rw [enclosure_eval oc s (hf _ (by omega)) fun _ _ => hb,
    enclosure_eval oc (Longer s x) (longer_fits (hf _ (by omega))) fun _ _ => by rw [e13, e14]; exact hb]
  simp (disch := omega) only [er', ec, ed, hby, longer_find, optIf, hf, hf', if_true, and_self]
  rfl

theorem longer_word {o : Nat} (h4 : 4 ≤ o) (hm : o < 2 ^ 16) (h : Fits s (o + 2)) :
    word (Longer s x) o = word s o := by
  have := longer_get16 (s := s) (x := x) true o h4 hm h
  rw [get16_ok true (longer_fits h) h4 (by omega) hm, get16_ok true h h4 (by omega) hm] at this
  exact Res.ok.inj this

theorem longer_dword {o : Nat} (h4 : 4 ≤ o) (hm : o < 2 ^ 16) (h : Fits s (o + 4)) :
    dword (Longer s x) o = dword s o := by
  have := longer_get32 (s := s) (x := x) true o h4 hm h
  rw [get32_ok true (longer_fits h) h4 (by omega) hm, get32_ok true h h4 (by omega) hm] at this
  exact Res.ok.inj this

theorem longer_qword {o : Nat} (h4 : 4 ≤ o) (hm : o < 2 ^ 16) (h : Fits s (o + 8)) :
    qword (Longer s x) o = qword s o := by
  have := longer_get64 (s := s) (x := x) true o h4 hm h
  rw [get64_ok true (longer_fits h) h4 (by omega) hm, get64_ok true h h4 (by omega) hm] at this
  exact Res.ok.inj this

theorem longer_array (h : Fits s (if Since s 2 8 then 0x17 else 0x0F)) :
    physical_memory_array.PhysicalMemoryArray.try_from (Longer s x) =
      physical_memory_array.PhysicalMemoryArray.try_from s := by
  have hv : ∀ a b, Since (Longer s x) a b ↔ Since s a b := fun _ _ => Iff.rfl
  by_cases h22 : Since s 2 2
  · have hF : Fits s 0x0F := fits_mono h (by split <;> omega)
    have hfill : filled (Longer s x) = filled s := by
      unfold filled
      simp (disch := first | omega | exact fits_mono hF (by omega)) only
        [longer_byte, longer_word, longer_dword]
      rfl
    unfold physical_memory_array.PhysicalMemoryArray.try_from
    rw [fill_ok hF h22, fill_ok (longer_fits hF) ((hv _ _).2 h22), hfill]
    simp only [ok_bind]
    show (if s.version.gt (.ofPair 2 7) then _ else _) = (if s.version.gt (.ofPair 2 7) then _ else _)
    by_cases h28 : Since s 2 8
    · rw [if_pos h28] at h
      have q : qword (Longer s x) 0x0F = qword s 0x0F := longer_qword (by decide) (by decide) h
      have h1 : 0x17 ≤ s.data.length + 4 := h
      have h2 : 0x17 ≤ (Longer s x).data.length + 4 := longer_fits h
      have q' : u64At (Longer s x).data 11 = u64At s.data 11 := q
      rw [get_optional_qword_eq, get_optional_qword_eq, q',
        if_pos (show 11 + 8 ≤ s.data.length by omega),
        if_pos (show 11 + 8 ≤ (Longer s x).data.length by omega)]
    · rw [if_neg (gt_neg h28), if_neg (gt_neg h28)]
  · rw [C47_old s h22, C47_old (Longer s x) (mt (hv _ _).1 h22)]

theorem longer_error32 (oc : Bool) (h : Fits s 0x17) (he : ¬ Since s 2 1) :
    memory_error_32.MemoryError32.try_from oc (Longer s x) = memory_error_32.MemoryError32.try_from oc s := by
  have hg : s.version.ge (.ofPair 2 1) = false := by simpa using ge_neg he
  have hg' : (Longer s x).version.ge (.ofPair 2 1) = false := hg
  unfold memory_error_32.MemoryError32.try_from
  simp only [hg, hg', Bool.false_and, Bool.false_eq_true, if_false]
  longer h
  rfl

theorem longer_mapped (oc : Bool) (h : Fits s 0x1F) (he : ¬ Since s 2 1) :
    memory_array_mapped_address.MemoryArrayMappedAddress.try_from oc (Longer s x) =
      memory_array_mapped_address.MemoryArrayMappedAddress.try_from oc s := by
  have hg : s.version.ge (.ofPair 2 1) = false := by simpa using ge_neg he
  have hg' : (Longer s x).version.ge (.ofPair 2 1) = false := hg
  have hk : s.version.ge (.ofPair 2 7) = false := by
    simpa using ge_neg (fun h => he (since_mono h (by decide)))
  have hk' : (Longer s x).version.ge (.ofPair 2 7) = false := hk
  unfold memory_array_mapped_address.MemoryArrayMappedAddress.try_from
  simp only [hg, hg', hk, hk', Bool.false_and, Bool.false_eq_true, if_false]
  longer h
  rfl

theorem longer_device_mapped (oc : Bool) (h : Fits s 0x23) (he : ¬ Since s 2 1) :
    memory_device_mapped_address.MemoryDeviceMappedAddress.try_from oc (Longer s x) =
      memory_device_mapped_address.MemoryDeviceMappedAddress.try_from oc s := by
  have hg : s.version.ge (.ofPair 2 1) = false := by simpa using ge_neg he
  have hg' : (Longer s x).version.ge (.ofPair 2 1) = false := hg
  have hk : s.version.ge (.ofPair 2 7) = false := by
    simpa using ge_neg (fun h => he (since_mono h (by decide)))
  have hk' : (Longer s x).version.ge (.ofPair 2 7) = false := hk
  unfold memory_device_mapped_address.MemoryDeviceMappedAddress.try_from
  simp only [hg, hg', hk, hk', Bool.false_and, Bool.false_eq_true, if_false]
  longer h
  rfl

theorem longer_pointing (oc : Bool) (h : Fits s 0x07) (he : ¬ Since s 2 1) :
    built_in_pointing_device.BuiltInPointingDevice.try_from oc (Longer s x) =
      built_in_pointing_device.BuiltInPointingDevice.try_from oc s := by
  have hg : s.version.ge (.ofPair 2 1) = false := by simpa using ge_neg he
  have hg' : (Longer s x).version.ge (.ofPair 2 1) = false := hg
  unfold built_in_pointing_device.BuiltInPointingDevice.try_from
  simp only [hg, hg', Bool.false_and, Bool.false_eq_true, if_false]
  longer h
  rfl

theorem longer_battery (oc : Bool) (h : Fits s 0x1A) (he : ¬ Since s 2 1) :
    portable_battery.PortableBattery.try_from oc (Longer s x) =
      portable_battery.PortableBattery.try_from oc s := by
  have hg : s.version ≠ .ofPair 2 1 := fun hv => he (by unfold Since; rw [hv]; decide)
  have hg' : (Longer s x).version ≠ .ofPair 2 1 := hg
  have hk : ¬ s.version.ge (.ofPair 2 2) = true := ge_neg (fun h => he (since_mono h (by decide)))
  have hk' : ¬ (Longer s x).version.ge (.ofPair 2 2) = true := hk
  unfold portable_battery.PortableBattery.try_from
  rw [if_neg (fun hh => hg hh.1), if_neg (fun hh => hk hh.1), if_neg (fun hh => hg' hh.1),
    if_neg (fun hh => hk' hh.1)]
  longer h
  rfl

theorem longer_log (oc : Bool) (h : Fits s (0x17 + descriptorCount s * descriptorLength s))
    (he : ¬ Since s 2 0) :
    system_event_log.SystemEventLog.try_from oc (Longer s x) =
      system_event_log.SystemEventLog.try_from oc s := by
  have hg : s.version ≠ .ofPair 2 0 := fun hv => he (by unfold Since; rw [hv]; decide)
  have hg' : (Longer s x).version ≠ .ofPair 2 0 := hg
  have hk : ¬ s.version.ge (.ofPair 2 1) = true := ge_neg (fun h => he (since_mono h (by decide)))
  have hk' : ¬ (Longer s x).version.ge (.ofPair 2 1) = true := hk
  have h17 : Fits s 0x17 := fits_mono h (by omega)
  have hm : descriptorCount s * descriptorLength s < 2 ^ 17 := by
    have h1 := (byte s 0x15).toNat_lt
    have h2 := (byte s 0x16).toNat_lt
    have := Nat.mul_le_mul (Nat.le_of_lt h1) (Nat.le_of_lt h2)
    unfold descriptorCount descriptorLength
    omega
  unfold system_event_log.SystemEventLog.try_from
  longer h17
  rw [get8_ok oc h17 (by decide) (by decide) (by decide), get8_ok oc h17 (by decide) (by decide) (by decide)]
  simp only [Res.toOption, ok_bind]
  rw [if_neg (fun hh => hg hh.1), if_neg (fun hh => hk hh.1), if_neg (fun hh => hg' hh.1),
    if_neg (fun hh => hk' hh.1)]
  unfold system_event_log.SystemEventLog.decode system_event_log.descriptors
  simp only []
  have hs := longer_get_slice (x := x) oc 0x17 _ (by decide) (by decide) hm h
  unfold descriptorCount descriptorLength at hs
  rw [hs]
  longer h17
  rfl

theorem longer_board (h : Fits s 0x0E) :
    baseboard.BaseBoard.try_from (Longer s x) = baseboard.BaseBoard.try_from s := by
  have hu := mt (C32_short s).1 (not_not_intro h)
  rw [← flat_baseboard x s hu]
  have h1 : 0x0E ≤ s.data.length + 4 := h
  have h2 : 0x0E ≤ (s.data ++ x).length + 4 := longer_fits (x := x) h
  unfold Flat.baseboard baseboard.BaseBoard.try_from
  show (letAsStruct _ (s.data ++ x) >>= fun _ => _) = _
  congr 1
  funext packed
  have e : ∀ n, n ≤ 9 → ((Longer s x).data.length > n) = (s.data.length > n) := by
    intro n hn
    have : (Longer s x).data.length = (s.data ++ x).length := rfl
    apply propext
    omega
  simp only [e 4 (by decide), e 5 (by decide), e 6 (by decide), e 7 (by decide), e 9 (by decide)]
  rfl

theorem longer_options (oc : Bool) (h : Fits s 5) :
    system_configuration_options.SystemConfigurationOptions.try_from oc (Longer s x) =
      system_configuration_options.SystemConfigurationOptions.try_from oc s := by
  unfold system_configuration_options.SystemConfigurationOptions.try_from
  longer h
  rfl

end

/-- C70: bytes appended to a structure that contains all fields known to the decoder, and need not have
an exact length, change nothing. (The members of a group fill its structure and the languages keep the
structure itself: see `C70_group`, `C70_language`; structures of other types are kept as they are.) -/
theorem C70_ignored_partial (oc : Bool) (s : RawStructure) (x : Bytes) (hc : Coherent s)
    (hk : Fits s (knownLength s)) (he : ¬ ExactLength s)
    (ht : s.info ≠ .GroupAssociations ∧ s.info ≠ .BiosLanguage ∧ ∀ st, decodeStructure oc s ≠ .ok (.Other st)) :
    decodeStructure oc (Longer s x) = decodeStructure oc s := by
  have hu : ¬ ReadsOut s := by
    unfold ReadsOut
    unfold knownLength at hk
    split <;> simp_all
  have hub := mt (C69_reads_out oc s).1 hu
  obtain ⟨hgr, hla, hot⟩ := ht
  have hi' : (Longer s x).info = s.info := rfl
  unfold decodeStructure at hub hot ⊢
  unfold knownLength at hk
  unfold ExactLength at he
  have nu : ∀ {α : Type} {f : α → Structure} {y : R α}, y.map f ≠ .ub → y ≠ .ub := by
    rintro α f y h rfl; exact h rfl
  rw [hi']
  cases hi : s.info <;> simp only [hi] at hub hot hk he hgr hla ⊢
  · exact congrArg _ (flat_bios x s (nu hub))
  · exact congrArg _ (flat_system x s (nu hub))
  · exact congrArg _ (longer_board hk)
  · exact congrArg _ (longer_enclosure oc hc hk)
  · exact congrArg _ (flat_processor x s (nu hub))
  · exact congrArg _ (flat_cache x s (nu hub))
  · exact congrArg _ (flat_port_connector x s (nu hub))
  · exact congrArg _ (longer_slots oc hk he)
  · rfl
  · exact congrArg _ (longer_options oc hk)
  · exact absurd rfl hgr
  · exact congrArg _ (longer_log oc hk he)
  · exact absurd rfl hla
  · exact congrArg _ (longer_array hk)
  · exact congrArg _ (longer_device oc hk)
  · exact congrArg _ (longer_error32 oc hk he)
  · exact congrArg _ (longer_mapped oc hk he)
  · exact congrArg _ (longer_device_mapped oc hk he)
  · exact congrArg _ (longer_pointing oc hk he)
  · exact congrArg _ (longer_battery oc hk he)
  all_goals exact absurd rfl (hot s)

section
open bios_language

theorem longer_next (oc : Bool) (s : RawStructure) (x : Bytes) (i : UInt8) :
    InstallableLanguages.next oc ⟨Longer s x, i⟩ =
      (InstallableLanguages.next oc ⟨s, i⟩).map fun r => (r.1, ⟨Longer s x, r.2.index⟩) := by
  unfold InstallableLanguages.next
  cases addU8 (ε := Empty) oc i 1 with
  | ok j =>
    simp only [ok_bind, longer_find]
    cases s.find_string i <;> rfl
  | err e => cases e
  | panic => rfl
  | ub => rfl

theorem next_structure {oc : Bool} {s : RawStructure} {i : UInt8} {a : Option Str}
    {t : InstallableLanguages} (h : InstallableLanguages.next oc ⟨s, i⟩ = .ok (a, t)) :
    t = ⟨s, t.index⟩ := by
  unfold InstallableLanguages.next at h
  cases hj : addU8 (ε := Empty) oc i 1 <;> rw [hj] at h <;> simp only [ok_bind] at h
  · cases hf : s.find_string i <;> simp only [hf] at h <;> cases h <;> rfl
  all_goals cases h

theorem longer_languages (oc : Bool) (s : RawStructure) (x : Bytes) (l : List Str) (i : UInt8) :
    CollectsR (InstallableLanguages.next oc) ⟨Longer s x, i⟩ l ↔
      CollectsR (InstallableLanguages.next oc) ⟨s, i⟩ l := by
  constructor
  · intro h
    generalize ht : (⟨Longer s x, i⟩ : InstallableLanguages) = t at h
    induction h generalizing i with
    | done h =>
      subst ht
      rw [longer_next] at h
      cases hn : InstallableLanguages.next oc ⟨s, i⟩ with
      | ok r =>
        rw [hn] at h
        obtain ⟨a, t⟩ := r
        cases h
        exact .done hn
      | _ => rw [hn] at h; cases h
    | step h t ih =>
      subst ht
      rw [longer_next] at h
      cases hn : InstallableLanguages.next oc ⟨s, i⟩ with
      | ok r =>
        rw [hn] at h
        obtain ⟨a, t⟩ := r
        cases h
        rw [next_structure hn] at hn
        exact .step hn (ih _ rfl)
      | _ => rw [hn] at h; cases h
  · intro h
    generalize ht : (⟨s, i⟩ : InstallableLanguages) = t at h
    induction h generalizing i with
    | done h =>
      subst ht
      exact .done (by rw [longer_next, h]; rfl)
    | step h t ih =>
      subst ht
      exact .step (by rw [longer_next, h]; rfl) (ih _ (next_structure h).symm)

/-- C70 for BIOS languages: the fields are the same, and so is the list of languages. -/
theorem C70_language (oc : Bool) (s : RawStructure) (x : Bytes) (hi : s.info = .BiosLanguage)
    (hk : Fits s (knownLength s)) :
    ∃ v v' : BiosLanguage, decodeStructure oc s = .ok (.BiosLanguage v) ∧
      decodeStructure oc (Longer s x) = .ok (.BiosLanguage v') ∧
      v'.handle = v.handle ∧ v'.flags = v.flags ∧ v'.current_language = v.current_language ∧
      ∀ l, CollectsR (InstallableLanguages.next oc) v'.installable_languages l ↔
        CollectsR (InstallableLanguages.next oc) v.installable_languages l := by
  have hk : Fits s (languageLength s) := by unfold knownLength at hk; rwa [hi] at hk
  have hk' : Fits (Longer s x) (languageLength (Longer s x)) := longer_fits hk
  obtain ⟨v, hv, f⟩ := C43_decodes s hk
  obtain ⟨v', hv', f'⟩ := C43_decodes (Longer s x) hk'
  have d : ∀ t : RawStructure, t.info = .BiosLanguage → decodeStructure oc t =
      (BiosLanguage.try_from t).map .BiosLanguage := by
    intro t ht; unfold decodeStructure; rw [ht]
  refine ⟨v, v', by rw [d s hi, hv]; rfl, by rw [d (Longer s x) hi, hv']; rfl, f'.handle.trans f.handle.symm, ?_, ?_, ?_⟩
  · have a := f.flags
    have b := f'.flags
    by_cases h : Since s 2 1
    · have h' : Since (Longer s x) 2 1 := h
      rw [when_pos h] at a
      rw [when_pos h'] at b
      obtain ⟨w, e, rfl⟩ := a
      obtain ⟨w', e', rfl⟩ := b
      rw [e, e', longer_byte (by decide) (fits_mono hk (by unfold languageLength; rw [if_pos h]; decide))]
    · have h' : ¬ Since (Longer s x) 2 1 := h
      rw [when_neg h] at a
      rw [when_neg h'] at b
      rw [a, b]
  · rw [f.current_language, f'.current_language]
    unfold languageLength at hk
    by_cases h : Since s 2 1
    · have h' : Since (Longer s x) 2 1 := h
      rw [if_pos h] at hk
      rw [if_pos h, if_pos h', longer_byte (by decide) hk]
    · have h' : ¬ Since (Longer s x) 2 1 := h
      rw [if_neg h] at hk
      rw [if_neg h, if_neg h', longer_byte (by decide) hk]
  · intro l
    rw [f.installable_languages, f'.installable_languages]
    exact longer_languages oc s x l 1

end

/-- C70 for groups: appended bytes are further members. -/
theorem C70_group (oc : Bool) (s : RawStructure) (x : Bytes) (hc : Coherent s)
    (hx : s.length.toNat + x.length < 256) (g : group_associations.GroupAssociations)
    (h : group_associations.GroupAssociations.try_from oc s = .ok g) :
    group_associations.GroupAssociations.try_from oc (Longer s x) =
      .ok { g with items := { g.items with data := g.items.data ++ x } } := by
  have h5 : Fits s 5 := by
    apply Decidable.byContradiction
    intro h5
    rw [C44_short oc s hc h5] at h
    split at h <;> cases h
  have hlen := (Coherent.fits_iff hc 5).1 h5
  have hc' : s.data.length + 4 = s.length.toNat := hc
  have hl : (Longer s x).length.toNat = s.length.toNat + x.length := by
    unfold Longer; rw [UInt8.toNat_ofNat']; omega
  have hd : (Longer s x).data = s.data ++ x := rfl
  have hsub : ∀ n, 5 ≤ n → (subUsize oc n 5 : R Nat) = .ok (n - 5) := by
    intro n hn; unfold subUsize; rw [if_pos hn]
  unfold group_associations.GroupAssociations.try_from at h ⊢
  rw [hsub _ hlen, ok_bind, get_slice_ge oc s 5 _ (by decide) (by omega), if_pos (by omega)] at h
  rw [hl, hsub _ (by omega), ok_bind, get_slice_ge oc _ 5 _ (by decide) (by omega),
    if_pos (by rw [hd, List.length_append]; omega), longer_get_string oc 4 (by decide) (by decide) h5]
  simp only [ok_bind, Res.ofOption, bind_ok_iff, pure_eq_ok, Res.ok.injEq] at h ⊢
  obtain ⟨str, hs, rfl⟩ := h
  refine ⟨str, hs, ?_⟩
  have e : bytesAt (Longer s x).data (5 - 4) (s.length.toNat + x.length - 5) =
      bytesAt s.data (5 - 4) (s.length.toNat - 5) ++ x := by
    rw [← take_eq_bytesAt _ _ _ (by rw [hd, List.length_append]; omega), ← take_eq_bytesAt _ _ _ (by omega),
      hd, List.take_of_length_le (by simp only [List.length_drop, List.length_append]; omega),
      List.take_of_length_le (by simp only [List.length_drop]; omega), List.drop_append_of_le_length (by omega)]
  rw [e]
  rfl

theorem longer_length {s : RawStructure} {x : Bytes} (h0 : x ≠ [])
    (hx : s.length.toNat + x.length < 256) {n : UInt8} (h : s.length = n) : (Longer s x).length ≠ n := by
  have := List.length_pos_iff.2 h0
  intro e
  rw [← h] at e
  have := congrArg UInt8.toNat e
  unfold Longer at this
  simp only [UInt8.toNat_ofNat'] at this
  omega

theorem longer_data {s : RawStructure} {x : Bytes} (h0 : x ≠ [])
    {n : Nat} (h : s.data.length + 4 = n) : (Longer s x).data.length + 4 ≠ n := by
  have := List.length_pos_iff.2 h0
  have e : (Longer s x).data.length = (s.data ++ x).length := rfl
  rw [List.length_append] at e
  omega

theorem since_exact {s : RawStructure} {a b : Nat} (h : Since s a b) (h' : ¬ Since s a (b + 1)) :
    s.version = ⟨.ofNat a, .ofNat b⟩ := by
  unfold Since at h h'
  have h1 : a = s.version.major.toNat := by omega
  have h2 : b = s.version.minor.toNat := by omega
  rw [h1, h2, UInt8.ofNat_toNat, UInt8.ofNat_toNat]

/-- C70: a structure that has to have an exact length is rejected when it is longer. -/
theorem C70_rejected (oc : Bool) (s : RawStructure) (x : Bytes) (h0 : x ≠ [])
    (hx : s.length.toNat + x.length < 256) (he : ExactLength s) (st : Structure)
    (h : decodeStructure oc s = .ok st) :
    ∃ what n, decodeStructure oc (Longer s x) =
      .err (.InvalidFormattedSectionLength s.info s.handle what n) := by
  unfold ExactLength at he
  unfold decodeStructure at h ⊢
  have hi' : (Longer s x).info = s.info := rfl
  rw [hi']
  have nu : ∀ {α : Type} {f : α → Structure} {y : R α} {e}, y.map f = .ok st → y ≠ .err e := by
    rintro α f y e h rfl; cases h
  have fin : ∀ {α : Type} {f : α → Structure} {y : R α} {i w n},
      y = .err (.InvalidFormattedSectionLength i s.handle w n) → 
      ∃ what n, y.map f = .err (.InvalidFormattedSectionLength i s.handle what n) := by
    rintro α f y i w n rfl; exact ⟨w, n, rfl⟩
  split at he <;> (try exact he.elim) <;> rename_i hi <;> simp only [hi] at h ⊢
  · obtain ⟨h20, h32⟩ := he
    by_cases h21 : Since s 2 1
    · by_cases h26 : Since s 2 6
      · exact fin ((C40_rejects oc (Longer s x)).2.2.1 h26 h32 (longer_data h0
          (Classical.byContradiction fun hq => nu h ((C40_rejects oc s).2.2.1 h26 h32 hq))))
      · exact fin ((C40_rejects oc (Longer s x)).2.1 h21 h26 (longer_data h0
          (Classical.byContradiction fun hq => nu h ((C40_rejects oc s).2.1 h21 h26 hq))))
    · exact fin ((C40_rejects oc (Longer s x)).1 h20 h21 (longer_data h0
          (Classical.byContradiction fun hq => nu h ((C40_rejects oc s).1 h20 h21 hq))))
  · by_cases h21 : Since s 2 1
    · have hf : Fits s 0x17 := Classical.byContradiction fun hq => nu h ((C45_rejects oc s).2.1 h21 hq)
      have e1 : descriptorCount (Longer s x) = descriptorCount s :=
        congrArg UInt8.toNat (longer_byte (by decide) (fits_mono hf (by decide)))
      have e2 : descriptorLength (Longer s x) = descriptorLength s :=
        congrArg UInt8.toNat (longer_byte (by decide) hf)
      exact fin ((C45_rejects oc (Longer s x)).2.2.1 h21 (longer_fits hf) (by
        rw [e1, e2]
        exact longer_data h0
          (Classical.byContradiction fun hq => nu h ((C45_rejects oc s).2.2.1 h21 hf hq))))
    · have hv : s.version = ⟨2, 0⟩ := since_exact he h21
      exact fin ((C45_rejects oc (Longer s x)).1 hv (longer_data h0
          (Classical.byContradiction fun hq => nu h ((C45_rejects oc s).1 hv hq))))
  · exact fin ((C49_rejects oc (Longer s x)).1 he (longer_length h0 hx
      (Classical.byContradiction fun hq => nu h ((C49_rejects oc s).1 he hq))))
  · by_cases h27 : Since s 2 7
    · exact fin ((C50_array_rejects oc (Longer s x)).2.1 h27 (longer_length h0 hx
        (Classical.byContradiction fun hq => nu h ((C50_array_rejects oc s).2.1 h27 hq))))
    · exact fin ((C50_array_rejects oc (Longer s x)).1 he h27 (longer_length h0 hx
        (Classical.byContradiction fun hq => nu h ((C50_array_rejects oc s).1 he h27 hq))))
  · by_cases h27 : Since s 2 7
    · exact fin ((C50_device_rejects oc (Longer s x)).2.1 h27 (longer_length h0 hx
        (Classical.byContradiction fun hq => nu h ((C50_device_rejects oc s).2.1 h27 hq))))
    · exact fin ((C50_device_rejects oc (Longer s x)).1 he h27 (longer_length h0 hx
        (Classical.byContradiction fun hq => nu h ((C50_device_rejects oc s).1 he h27 hq))))
  · exact fin ((C51_rejects oc (Longer s x)).1 he (longer_length h0 hx
      (Classical.byContradiction fun hq => nu h ((C51_rejects oc s).1 he hq))))
  · by_cases h22 : Since s 2 2
    · exact fin ((C52_rejects oc (Longer s x)).2.1 h22 (longer_length h0 hx
        (Classical.byContradiction fun hq => nu h ((C52_rejects oc s).2.1 h22 hq))))
    · have hv : s.version = ⟨2, 1⟩ := since_exact he h22
      exact fin ((C52_rejects oc (Longer s x)).1 hv (longer_length h0 hx
        (Classical.byContradiction fun hq => nu h ((C52_rejects oc s).1 hv hq))))

/-- C70, exactly: a decodable structure that contains all the fields its decoder knows stays decodable with
bytes appended iff it need not have an exact length. -/
theorem C70_decodable_iff (oc : Bool) (s : RawStructure) (x : Bytes) (hc : Coherent s) (h0 : x ≠ [])
    (hx : s.length.toNat + x.length < 256) (hk : Fits s (knownLength s)) (st : Structure)
    (h : decodeStructure oc s = .ok st) :
    (∃ st', decodeStructure oc (Longer s x) = .ok st') ↔ ¬ ExactLength s := by
  constructor
  · rintro ⟨st', h'⟩ he
    obtain ⟨w, n, e⟩ := C70_rejected oc s x h0 hx he st h
    rw [e] at h'
    cases h'
  · intro he
    by_cases hg : s.info = .GroupAssociations
    · unfold decodeStructure at h ⊢
      rw [show (Longer s x).info = s.info from rfl, hg]
      simp only [hg] at h
      cases hs : group_associations.GroupAssociations.try_from oc s <;> rw [hs] at h <;> cases h
      exact ⟨_, by rw [C70_group oc s x hc hx _ hs]; rfl⟩
    by_cases hl : s.info = .BiosLanguage
    · obtain ⟨_, _, -, h', -⟩ := C70_language oc s x hl hk
      exact ⟨_, h'⟩
    by_cases ho : ∃ r, decodeStructure oc s = .ok (.Other r)
    · obtain ⟨r, ho⟩ := ho
      have no : ∀ {α : Type} {f : α → Structure} {y : R α}, (∀ a, f a ≠ .Other r) →
          y.map f ≠ .ok (.Other r) := by
        intro α f y hf hy
        cases y with
        | ok a => exact hf a (Res.ok.inj hy)
        | _ => cases hy
      unfold decodeStructure at ho ⊢
      rw [show (Longer s x).info = s.info from rfl]
      revert ho
      cases s.info <;> intro ho <;> first | exact ⟨_, rfl⟩ | skip
      all_goals
        exact absurd ho (no fun _ => nofun)
    · exact ⟨st, (C70_ignored_partial oc s x hc hk he ⟨hg, hl, fun r hr => ho ⟨r, hr⟩⟩).trans h⟩

/-- C70, the full statement: appending bytes to a structure never makes it undecodable. -/
def C70_full : Prop := ∀ (oc : Bool) (s : RawStructure) (x : Bytes), Coherent s →
  s.length.toNat + x.length < 256 → (∃ st, decodeStructure oc s = .ok st) →
  ∃ st, decodeStructure oc (Longer s x) = .ok st

/-- A built-in pointing device of SMBIOS 3.4. -/
def pointingDevice : RawStructure :=
  { version := ⟨3, 4⟩, info := .BuiltInPointingDevice, length := 7, handle := 0x15,
    data := [0x07, 0x04, 0x03], strings := [] }

/-- A structure of the memory device type of SMBIOS 3.4. -/
def memoryDevice : RawStructure :=
  { version := ⟨3, 4⟩, info := .MemoryDevice, length := 0x5C, handle := 0x15,
    data := List.replicate 0x58 0, strings := [] }

/-- C70, the full statement fails: a pointing device. -/
theorem C70_full_false : ¬ C70_full := by
  intro h
  obtain ⟨st, hs⟩ := h true pointingDevice [0] (by decide) (by decide)
    ⟨_, (by rfl : decodeStructure true pointingDevice = .ok _)⟩
  obtain ⟨w, n, e⟩ := C70_rejected true pointingDevice [0] (by decide) (by decide)
    (show Since _ 2 1 by decide) _
    (by rfl : decodeStructure true pointingDevice = .ok _)
  rw [e] at hs
  cases hs

example : decodeStructure true (Longer memoryDevice [1, 2, 3]) = decodeStructure true memoryDevice :=
  C70_ignored_partial true memoryDevice [1, 2, 3] (by decide) (by decide) (fun h => h)
    ⟨by decide, by decide, fun st h => by cases h⟩
example : Coherent pointingDevice ∧ Fits pointingDevice (knownLength pointingDevice) ∧ ExactLength pointingDevice ∧
    (decodeStructure true pointingDevice).okAnd (fun _ => true) :=
  ⟨by decide, by decide, (show Since _ 2 1 by decide), by decide +kernel⟩
example : (manyLanguages 3).info = .BiosLanguage ∧ Fits (manyLanguages 3) (knownLength (manyLanguages 3)) :=
  ⟨rfl, by decide⟩
example : Coherent exampleGroup ∧ exampleGroup.length.toNat + [1, 2, 3].length < 256 ∧
    (group_associations.GroupAssociations.try_from true exampleGroup).okAnd (fun _ => true) :=
  ⟨by decide, by decide, by decide +kernel⟩

end Dmi.Props
