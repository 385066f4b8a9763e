import Verif.Proofs.Reported
import Verif.Props.Bios
import Verif.Props.System
import Verif.Props.Processor
import Verif.Props.Cache
import Verif.Props.Memory
import Verif.Props.MemoryDevice
/-!
# C82: exactly which values are reported
-/
namespace Dmi.Props
open Spec

section System
open system

/-- The values of type 1 reported for tables of version `ver`. -/
structure SystemValue (ver : SmbiosVersion) (v : System) : Prop where
  manufacturer : Storable v.manufacturer
  product : Storable v.product
  version : Storable v.version
  serial : Storable v.serial
  uuid : Present (From ver 2 1) (·.length = 16) v.uuid
  wakeup : Present (From ver 2 1) (Coded WakeupType.ofU8) v.wakeup
  sku : Present (From ver 2 4) Storable v.sku
  family : Present (From ver 2 4) Storable v.family

theorem map_getD {u : Bytes} {n : Nat} (h : u.length = n) :
    (List.range n).map (fun i => u.getD i 0) = u := by
  subst h
  apply List.ext_getElem
  · simp
  · intro i h1 h2
    simp [List.getElem?_eq_getElem h2]

/-- C82: exactly these system information values are reported. -/
theorem C82_system (oc : Bool) (ver : SmbiosVersion) (v : System) :
    ReportedAt oc ver (.System v) ↔ SystemValue ver v := by
  rw [reported_iff (dec := System.try_from) (info := .System)]
  · constructor
    · rintro ⟨p, -, -, h⟩
      have hf : Fits (p.raw ver) (systemLength (p.raw ver)) := by
        refine Decidable.not_not.mp fun hn => ?_
        rw [C31_short _ hn] at h; cases h
      have F := (C31_decodes _ hf v).mp h
      exact ⟨storable_of_ref F.manufacturer, storable_of_ref F.product, storable_of_ref F.version,
        storable_of_ref F.serial,
        present_of_when F.uuid fun a ha => by subst ha; unfold storedUuid; split <;> rfl,
        present_of_when F.wakeup fun a ha => ⟨_, ha.symm⟩,
        present_of_when F.sku fun a => storable_of_ref,
        present_of_when F.family fun a => storable_of_ref⟩
    · intro V
      obtain ⟨w, hw⟩ := present_coded V.wakeup
      let u := v.uuid.getD []
      let f : Nat → UInt8 := fun i =>
        if From ver 2 6 then u.getD (uuidOrder.getD i 0) 0 else u.getD i 0
      let ts := [v.manufacturer, v.product, v.version, v.serial, v.sku.getD [], v.family.getD []]
      have hts : ∀ t ∈ ts, Storable t := by
        simp [ts, V.manufacturer, V.product, V.version, V.serial, storable_getD V.sku,
          storable_getD V.family]
      let p : Piece := ⟨1, v.handle, [refTo 1 v.manufacturer, refTo 2 v.product, refTo 3 v.version,
        refTo 4 v.serial, f 0, f 1, f 2, f 3, f 4, f 5, f 6, f 7, f 8, f 9, f 10, f 11, f 12, f 13,
        f 14, f 15, w, refTo 5 (v.sku.getD []), refTo 6 (v.family.getD [])], textArea ts⟩
      refine ⟨p, ⟨by len_ok, textArea_ends hts⟩, rfl, (C31_decodes _ ?_ v).mpr ?_⟩
      · unfold systemLength; split
        · len_ok
        · split <;> len_ok
      · constructor
        · rfl
        · exact textArea_ref hts 0 rfl (by decide)
        · exact textArea_ref hts 1 rfl (by decide)
        · exact textArea_ref hts 2 rfl (by decide)
        · exact textArea_ref hts 3 rfl (by decide)
        · refine when_of_present V.uuid fun a ha => ?_
          have hl := V.uuid.2 a ha
          have hu : u = a := by simp [u, ha]
          by_cases h26 : Since (p.raw ver) 2 6
          · have e : f = fun i => a.getD (uuidOrder.getD i 0) 0 := funext fun i => by
              simp only [f, if_pos (show From ver 2 6 from h26), hu]
            have : storedUuid (p.raw ver) = uuidOrder.map f := by
              unfold storedUuid; rw [if_pos h26]; rfl
            rw [this, e]
            exact (map_getD hl).symm
          · have e : f = fun i => a.getD i 0 := funext fun i => by
              simp only [f, if_neg (show ¬ From ver 2 6 from h26), hu]
            have : storedUuid (p.raw ver) = (List.range 16).map f := by
              unfold storedUuid; rw [if_neg h26]; rfl
            rw [this, e]
            exact (map_getD hl).symm
        · exact when_of_present V.wakeup hw
        · exact when_of_present V.sku (textArea_opt hts 4 rfl (by decide))
        · exact when_of_present V.family (textArea_opt hts 5 rfl (by decide))
  dispatch_ok

example : ∃ v, SystemValue ⟨3, 4⟩ v :=
  some_reported (f := .System) 1 (List.replicate 23 0) (by decide)
    (fun | .System v => some v | _ => none)
    (by intro x v h; cases x <;> cases h; rfl)
    (fun v => (C82_system _ _ v).1)
    (by decide +kernel)

end System

section Bios
open bios

/-- The values of type 0 reported for tables of version `ver`. -/
structure BiosValue (ver : SmbiosVersion) (v : Bios) : Prop where
  vendor : Storable v.vendor
  bios_version : Storable v.bios_version
  release_date : Storable v.bios_release_date
  extension_1 : Present (From ver 2 4) Any v.bios_characteristics_exttension_1
  extension_2 : Present (From ver 2 4) Any v.bios_characteristics_exttension_2
  bios_revision : Present (From ver 2 4) Any v.bios_revision
  firmware_revision : Present (From ver 2 4) Any v.firmware_revision
  extended_size : Present (From ver 3 1) Any v.rom_size.extended

/-- C82: exactly these BIOS values are reported. -/
theorem C82_bios (oc : Bool) (ver : SmbiosVersion) (v : Bios) :
    ReportedAt oc ver (.Bios v) ↔ BiosValue ver v := by
  rw [reported_iff (dec := Bios.try_from) (info := .Bios)]
  · constructor
    · rintro ⟨p, -, -, h⟩
      have hf : Fits (p.raw ver) (biosLength (p.raw ver)) := by
        refine Decidable.not_not.mp fun hn => ?_
        rw [C29_short _ hn] at h; cases h
      have F := (C29_decodes _ hf v).mp h
      refine ⟨storable_of_ref F.vendor, storable_of_ref F.bios_version,
        storable_of_ref F.release_date, present_of_when F.extension_1 fun _ _ => trivial,
        present_of_when F.extension_2 fun _ _ => trivial,
        present_of_when F.bios_revision fun _ _ => trivial,
        present_of_when F.firmware_revision fun _ _ => trivial, ?_, fun _ _ => trivial⟩
      rw [F.rom_size]
      show (if From ver 3 1 then _ else _ : Option UInt16).isSome = true ↔ _
      split <;> simp_all
    · intro V
      let ts := [v.vendor, v.bios_version, v.bios_release_date]
      have hts : ∀ t ∈ ts, Storable t := by
        simp [ts, V.vendor, V.bios_version, V.release_date]
      let p : Piece := ⟨0, v.handle, [refTo 1 v.vendor, refTo 2 v.bios_version] ++
        enc16 v.bios_starting_address_segment ++ [refTo 3 v.bios_release_date, v.rom_size.basic] ++
        enc64 v.bios_characteristics.value ++
        [(v.bios_characteristics_exttension_1.getD ⟨0⟩).value,
          (v.bios_characteristics_exttension_2.getD ⟨0⟩).value,
          (v.bios_revision.getD ⟨0, 0⟩).major, (v.bios_revision.getD ⟨0, 0⟩).minor,
          (v.firmware_revision.getD ⟨0, 0⟩).major, (v.firmware_revision.getD ⟨0, 0⟩).minor] ++
        enc16 (v.rom_size.extended.getD 0), textArea ts⟩
      refine ⟨p, ⟨by len_ok, textArea_ends hts⟩, rfl, (C29_decodes _ ?_ v).mpr ?_⟩
      · unfold biosLength; split
        · len_ok
        · split <;> len_ok
      · constructor
        · rfl
        · exact textArea_ref hts 0 rfl (by decide)
        · exact textArea_ref hts 1 rfl (by decide)
        · stored
        · exact textArea_ref hts 2 rfl (by decide)
        · exact congrArg Characteristics.mk (u64At_enc _).symm
        · exact when_of_present V.extension_1 (by stored_opt)
        · exact when_of_present V.extension_2 (by stored_opt)
        · exact when_of_present V.bios_revision (by stored_opt)
        · exact when_of_present V.firmware_revision (by stored_opt)
        · have hx := V.extended_size
          have hw : word (p.raw ver) 0x18 = v.rom_size.extended.getD 0 := u16At_enc _
          rw [hw]
          refine congrArg (RomSize.mk v.rom_size.basic) ?_
          show _ = if From ver 3 1 then _ else _
          split
          · obtain ⟨a, ha⟩ := Option.isSome_iff_exists.mp (hx.1.mpr ‹_›)
            rw [ha]; rfl
          · cases e : v.rom_size.extended with
            | none => rfl
            | some a => exact absurd (hx.1.mp (by rw [e]; rfl)) ‹_›
  dispatch_ok

example : ∃ v, BiosValue ⟨3, 4⟩ v :=
  some_reported (f := .Bios) 0 (List.replicate 22 0) (by decide)
    (fun | .Bios v => some v | _ => none)
    (by intro x v h; cases x <;> cases h; rfl)
    (fun v => (C82_bios _ _ v).1)
    (by decide +kernel)

end Bios

section BaseBoard
open baseboard

/-- The values of type 2 reported, whatever the version. -/
structure BaseBoardValue (v : BaseBoard) : Prop where
  manufacturer : Storable v.manufacturer
  product : Storable v.product
  version : Storable v.version
  serial : Storable v.serial
  asset : Present True Storable v.asset
  feature_flags : Present True (·.bits.toNat < 32) v.feature_flags
  location_in_chassis : Present True Storable v.location_in_chassis
  chassis_handle : Present True Any v.chassis_handle
  board_type : Present True (Coded BoardType.ofU8) v.board_type

theorem present_true {α : Type} {p : α → Prop} {o : Option α} :
    Present True p o ↔ ∃ a, o = some a ∧ p a := by
  rw [present_iff, when_pos trivial]

/-- C82: exactly these baseboard values are reported. -/
theorem C82_baseboard (oc : Bool) (ver : SmbiosVersion) (v : BaseBoard) :
    ReportedAt oc ver (.BaseBoard v) ↔ BaseBoardValue v := by
  rw [reported_iff (dec := BaseBoard.try_from) (info := .BaseBoard)]
  · constructor
    · rintro ⟨p, -, -, h⟩
      have hf : Fits (p.raw ver) 0x0E := by
        refine Decidable.not_not.mp fun hn => ?_
        rw [(C32_short _).mpr hn] at h; cases h
      have F := (C32_decodes_partial _ hf v).mp h
      obtain ⟨a, ha, ha'⟩ := F.asset
      obtain ⟨l, hl, hl'⟩ := F.location_in_chassis
      obtain ⟨f, hf, hf'⟩ := F.feature_flags
      exact ⟨storable_of_ref F.manufacturer, storable_of_ref F.product,
        storable_of_ref F.version, storable_of_ref F.serial,
        present_true.mpr ⟨a, ha, storable_of_ref ha'⟩,
        present_true.mpr ⟨f, hf, by rw [hf']; omega⟩,
        present_true.mpr ⟨l, hl, storable_of_ref hl'⟩,
        present_true.mpr ⟨_, F.chassis_handle, trivial⟩,
        present_true.mpr ⟨_, F.board_type, _, rfl⟩⟩
    · intro V
      obtain ⟨a, ha, ha'⟩ := present_true.mp V.asset
      obtain ⟨l, hl, hl'⟩ := present_true.mp V.location_in_chassis
      obtain ⟨f, hf, hf'⟩ := present_true.mp V.feature_flags
      obtain ⟨c, hc, -⟩ := present_true.mp V.chassis_handle
      obtain ⟨-, hb, b, rfl⟩ := present_true.mp V.board_type
      let ts := [v.manufacturer, v.product, v.version, v.serial, a, l]
      have hts : ∀ t ∈ ts, Storable t := by
        simp [ts, V.manufacturer, V.product, V.version, V.serial, ha', hl']
      let p : Piece := ⟨2, v.handle, [refTo 1 v.manufacturer, refTo 2 v.product,
        refTo 3 v.version, refTo 4 v.serial, refTo 5 a, f.bits, refTo 6 l] ++ enc16 c ++ [b],
        textArea ts⟩
      refine ⟨p, ⟨by len_ok, textArea_ends hts⟩, rfl, (C32_decodes_partial _ ?_ v).mpr ?_⟩
      · len_ok
      · constructor
        · rfl
        · exact textArea_ref hts 0 rfl (by decide)
        · exact textArea_ref hts 1 rfl (by decide)
        · exact textArea_ref hts 2 rfl (by decide)
        · exact textArea_ref hts 3 rfl (by decide)
        · exact ⟨a, ha, textArea_ref hts 4 rfl (by decide)⟩
        · exact ⟨f, hf, (Nat.mod_eq_of_lt hf').symm⟩
        · exact ⟨l, hl, textArea_ref hts 5 rfl (by decide)⟩
        · exact hc.trans (congrArg some (u16At_enc _).symm)
        · exact hb
  dispatch_ok

example : ∃ v, BaseBoardValue v :=
  some_reported (f := .BaseBoard) 2 (List.replicate 12 0) (by decide)
    (fun | .BaseBoard v => some v | _ => none)
    (by intro x v h; cases x <;> cases h; rfl)
    (fun v => (C82_baseboard _ _ v).1)
    (by decide +kernel)

end BaseBoard

section PortConnector
open port_connector

/-- The values of type 8 reported, whatever the version. -/
structure PortConnectorValue (v : PortConnector) : Prop where
  internal_reference_designator : Storable v.internal_reference_designator
  internal_connector_type : Coded ConnectorType.ofU8 v.internal_connector_type
  external_reference_designator : Storable v.external_reference_designator
  external_connector_type : Coded ConnectorType.ofU8 v.external_connector_type
  port_type : Coded PortType.ofU8 v.port_type

/-- C82: exactly these port connector values are reported. -/
theorem C82_port_connector (oc : Bool) (ver : SmbiosVersion) (v : PortConnector) :
    ReportedAt oc ver (.PortConnector v) ↔ PortConnectorValue v := by
  rw [reported_iff (dec := PortConnector.try_from) (info := .PortConnector)]
  · constructor
    · rintro ⟨p, -, -, h⟩
      have hf : Fits (p.raw ver) 0x09 := by
        refine Decidable.not_not.mp fun hn => ?_
        rw [(C39_short _).mpr hn] at h; cases h
      have F := (C39_decodes _ hf v).mp h
      exact ⟨storable_of_ref F.internal_reference_designator, ⟨_, F.internal_connector_type.symm⟩,
        storable_of_ref F.external_reference_designator, ⟨_, F.external_connector_type.symm⟩,
        ⟨_, F.port_type.symm⟩⟩
    · intro V
      obtain ⟨i, hi⟩ := V.internal_connector_type
      obtain ⟨e, he⟩ := V.external_connector_type
      obtain ⟨t, ht⟩ := V.port_type
      let ts := [v.internal_reference_designator, v.external_reference_designator]
      have hts : ∀ t ∈ ts, Storable t := by
        simp [ts, V.internal_reference_designator, V.external_reference_designator]
      let p : Piece := ⟨8, v.handle, [refTo 1 v.internal_reference_designator, i,
        refTo 2 v.external_reference_designator, e, t], textArea ts⟩
      refine ⟨p, ⟨by len_ok, textArea_ends hts⟩, rfl, (C39_decodes _ ?_ v).mpr ?_⟩
      · len_ok
      · exact ⟨rfl, textArea_ref hts 0 rfl (by decide), hi.symm,
          textArea_ref hts 1 rfl (by decide), he.symm, ht.symm⟩
  dispatch_ok

example : ∃ v, PortConnectorValue v :=
  some_reported (f := .PortConnector) 8 (List.replicate 5 0) (by decide)
    (fun | .PortConnector v => some v | _ => none)
    (by intro x v h; cases x <;> cases h; rfl)
    (fun v => (C82_port_connector _ _ v).1)
    (by decide +kernel)

end PortConnector

section Processor
open processor

/-- The values of type 4 reported for tables of version `ver`. Families beyond one byte are there from
2.6 on, counts beyond one byte from 3.0 on; bits without a name are dropped. -/
structure ProcessorValue (ver : SmbiosVersion) (v : Processor) : Prop where
  socket_designation : Storable v.socket_designation
  processor_type : Coded ProcessorType.ofU8 v.processor_type
  processor_family : ∃ n : UInt16, (¬ From ver 2 6 → n.toNat < 256) ∧
    ProcessorFamily.ofU16 n = v.processor_family
  processor_manufacturer : Storable v.processor_manufacturer
  processor_version : Storable v.processor_version
  voltage : Coded Voltage.ofU8 v.voltage
  status : OnlyBits [0, 1, 2, 6] v.status.bits.toNat
  processor_upgrade : Coded ProcessorUpgrade.ofU8 v.processor_upgrade
  l1_cache_handle : Present (From ver 2 1) Any v.l1_cache_handle
  l2_cache_handle : Present (From ver 2 1) Any v.l2_cache_handle
  l3_cache_handle : Present (From ver 2 1) Any v.l3_cache_handle
  serial_number : Present (From ver 2 3) Storable v.serial_number
  asset_tag : Present (From ver 2 3) Storable v.asset_tag
  part_number : Present (From ver 2 3) Storable v.part_number
  core_count : Present (From ver 2 5) (fun n => ¬ From ver 3 0 → n.toNat < 256) v.core_count
  core_enabled : Present (From ver 2 5) (fun n => ¬ From ver 3 0 → n.toNat < 256) v.core_enabled
  thread_count : Present (From ver 2 5) (fun n => ¬ From ver 3 0 → n.toNat < 256) v.thread_count
  processor_characteristics : Present (From ver 2 6)
    (fun c => OnlyBits [0, 1, 2, 3, 4, 5, 6, 7, 9] c.bits.toNat) v.processor_characteristics

/-- A number beyond one byte is stored as an escape code and a word. -/
theorem wide_stored {c : Prop} [Decidable c] (k : UInt8) (n : UInt16) (h : ¬ c → n.toNat < 256) :
    ∃ (b : UInt8) (w : UInt16), (if c ∧ b = k then w else b.toUInt16) = n := by
  by_cases hc : c
  · exact ⟨k, n, by simp [hc]⟩
  · refine ⟨n.toUInt8, 0, ?_⟩
    rw [if_neg (fun x => hc x.1)]
    apply UInt16.toNat.inj
    have := h hc
    simp only [UInt8.toNat_toUInt16, UInt16.toNat_toUInt8]
    omega

theorem wide_stored_opt {c d : Prop} [Decidable c] (k : UInt8) {o : Option UInt16}
    (h : Present d (fun n => ¬ c → n.toNat < 256) o) :
    ∃ (b : UInt8) (w : UInt16), ∀ a, o = some a → a = if c ∧ b = k then w else b.toUInt16 := by
  cases o with
  | none => exact ⟨0, 0, by simp⟩
  | some a =>
    obtain ⟨b, w, e⟩ := wide_stored (c := c) k a (h.2 a rfl)
    exact ⟨b, w, by simpa using e.symm⟩

theorem stored_narrow {c : Prop} [Decidable c] {w : UInt16} {b k : UInt8} (hc : ¬ c) :
    (if c ∧ b = k then w else b.toUInt16).toNat < 256 := by
  rw [if_neg (fun x => hc x.1), UInt8.toNat_toUInt16]
  exact b.toNat_lt

set_option maxHeartbeats 1000000 in
/-- C82: exactly these processor values are reported. -/
theorem C82_processor (oc : Bool) (ver : SmbiosVersion) (v : Processor) :
    ReportedAt oc ver (.Processor v) ↔ ProcessorValue ver v := by
  rw [reported_iff (dec := Processor.try_from) (info := .Processor)]
  · constructor
    · rintro ⟨p, -, -, h⟩
      have hf : Fits (p.raw ver) (processorLength (p.raw ver)) := by
        refine Decidable.not_not.mp fun hn => ?_
        rw [C35_short _ hn] at h; cases h
      have F := (C35_decodes _ hf v).mp h
      refine ⟨storable_of_ref F.socket_designation, ⟨_, F.processor_type.symm⟩,
        ⟨_, fun hv => ?_, F.processor_family.symm⟩, storable_of_ref F.processor_manufacturer,
        storable_of_ref F.processor_version, ⟨_, F.voltage.symm⟩, onlyBits_of_kept F.status,
        ⟨_, F.processor_upgrade.symm⟩, present_of_when F.l1_cache_handle fun _ _ => trivial,
        present_of_when F.l2_cache_handle fun _ _ => trivial,
        present_of_when F.l3_cache_handle fun _ _ => trivial,
        present_of_when F.serial_number fun _ => storable_of_ref,
        present_of_when F.asset_tag fun _ => storable_of_ref,
        present_of_when F.part_number fun _ => storable_of_ref,
        present_of_when F.core_count fun a ha hv => ?_,
        present_of_when F.core_enabled fun a ha hv => ?_,
        present_of_when F.thread_count fun a ha hv => ?_,
        present_of_when F.processor_characteristics fun _ => onlyBits_of_kept⟩
      · exact stored_narrow (c := Since (p.raw ver) 2 6) hv
      · rw [ha]; exact stored_narrow (c := Since (p.raw ver) 3 0) hv
      · rw [ha]; exact stored_narrow (c := Since (p.raw ver) 3 0) hv
      · rw [ha]; exact stored_narrow (c := Since (p.raw ver) 3 0) hv
    · intro V
      obtain ⟨pt, hpt⟩ := V.processor_type
      obtain ⟨n, hn, hfam⟩ := V.processor_family
      obtain ⟨fb, fw, hn⟩ := wide_stored 0xFE n hn
      obtain ⟨vo, hvo⟩ := V.voltage
      obtain ⟨up, hup⟩ := V.processor_upgrade
      obtain ⟨c1, w1, h1⟩ := wide_stored_opt 0xFF V.core_count
      obtain ⟨c2, w2, h2⟩ := wide_stored_opt 0xFF V.core_enabled
      obtain ⟨c3, w3, h3⟩ := wide_stored_opt 0xFF V.thread_count
      let ts := [v.socket_designation, v.processor_manufacturer, v.processor_version,
        v.serial_number.getD [], v.asset_tag.getD [], v.part_number.getD []]
      have hts : ∀ t ∈ ts, Storable t := by
        simp [ts, V.socket_designation, V.processor_manufacturer, V.processor_version,
          storable_getD V.serial_number, storable_getD V.asset_tag, storable_getD V.part_number]
      let p : Piece := ⟨4, v.handle, [refTo 1 v.socket_designation, pt, fb,
        refTo 2 v.processor_manufacturer] ++ (enc64 v.processor_id ++
        ([refTo 3 v.processor_version, vo] ++ (enc16 v.external_clock ++ (enc16 v.max_speed ++
        (enc16 v.current_speed ++ ([v.status.bits, up] ++ (enc16 (v.l1_cache_handle.getD 0) ++
        (enc16 (v.l2_cache_handle.getD 0) ++ (enc16 (v.l3_cache_handle.getD 0) ++
        ([refTo 4 (v.serial_number.getD []), refTo 5 (v.asset_tag.getD []),
          refTo 6 (v.part_number.getD []), c1, c2, c3] ++
        (enc16 (v.processor_characteristics.getD ⟨0⟩).bits ++ (enc16 fw ++ (enc16 w1 ++ (enc16 w2 ++
        enc16 w3)))))))))))))), textArea ts⟩
      refine ⟨p, ⟨by len_ok, textArea_ends hts⟩, rfl, (C35_decodes _ ?_ v).mpr ?_⟩
      · refine fits_mono (n := 0x30) (by len_ok) ?_
        unfold processorLength
        repeat' split
        all_goals decide
      · have e1 : word (p.raw ver) 0x28 = fw := u16At_enc _
        have e2 : word (p.raw ver) 0x2A = w1 := u16At_enc _
        have e3 : word (p.raw ver) 0x2C = w2 := u16At_enc _
        have e4 : word (p.raw ver) 0x2E = w3 := u16At_enc _
        have e5 : word (p.raw ver) 0x26 = (v.processor_characteristics.getD ⟨0⟩).bits := u16At_enc _
        constructor
        · rfl
        · exact textArea_ref hts 0 rfl (by decide)
        · exact hpt.symm
        · rw [← hfam, ← hn]; unfold storedFamily; rw [e1]; rfl
        · exact textArea_ref hts 1 rfl (by decide)
        · exact (u64At_enc _).symm
        · exact textArea_ref hts 2 rfl (by decide)
        · exact hvo.symm
        · exact (u16At_enc _).symm
        · exact (u16At_enc _).symm
        · exact (u16At_enc _).symm
        · exact kept_self V.status
        · exact hup.symm
        · exact when_of_present V.l1_cache_handle fun a ha => (getD_of ha).trans (u16At_enc _).symm
        · exact when_of_present V.l2_cache_handle fun a ha => (getD_of ha).trans (u16At_enc _).symm
        · exact when_of_present V.l3_cache_handle fun a ha => (getD_of ha).trans (u16At_enc _).symm
        · exact when_of_present V.serial_number (textArea_opt hts 3 rfl (by decide))
        · exact when_of_present V.asset_tag (textArea_opt hts 4 rfl (by decide))
        · exact when_of_present V.part_number (textArea_opt hts 5 rfl (by decide))
        · refine when_of_present V.core_count fun a ha => ?_
          rw [h1 a ha]; unfold storedCount; rw [e2]; rfl
        · refine when_of_present V.core_enabled fun a ha => ?_
          rw [h2 a ha]; unfold storedCount; rw [e3]; rfl
        · refine when_of_present V.thread_count fun a ha => ?_
          rw [h3 a ha]; unfold storedCount; rw [e4]; rfl
        · refine when_of_present V.processor_characteristics fun a ha => ?_
          rw [e5, ha]
          exact kept_self (V.processor_characteristics.2 a ha)
  dispatch_ok

example : ∃ v, ProcessorValue ⟨3, 4⟩ v :=
  some_reported (f := .Processor) 4 (List.replicate 44 0) (by decide)
    (fun | .Processor v => some v | _ => none)
    (by intro x v h; cases x <;> cases h; rfl)
    (fun v => (C82_processor _ _ v).1)
    (by decide +kernel)

end Processor

section Cache
open cache

/-- The values of type 7 reported for tables of version `ver`; none are before 2.1. -/
structure CacheValue (ver : SmbiosVersion) (v : Cache) : Prop where
  version : From ver 2 1
  socket_designation : Storable v.socket_designation
  maximum_cache_size : Coded CacheSize.ofU16 v.maximum_cache_size
  installed_size : Coded CacheSize.ofU16 v.installed_size
  supported_sram_type : v.supported_sram_type.bits.toNat < 128
  current_sram_type : v.current_sram_type.bits.toNat < 128
  cache_speed : Present (From ver 2 2) Any v.cache_speed
  error_correction_type : Present (From ver 2 2) (Coded CacheErrorCorrectionType.ofU8)
    v.error_correction_type
  system_cache_type : Present (From ver 2 2) (Coded SystemCacheType.ofU8) v.system_cache_type
  associativity : Present (From ver 2 2) (Coded CacheAssociativity.ofU8) v.associativity
  maximum_cache_size_2 : Present (From ver 3 2) (Coded CacheSize2.ofU32) v.maximum_cache_size_2
  installed_size_2 : Present (From ver 3 2) (Coded CacheSize2.ofU32) v.installed_size_2

/-- Every configuration can be stored. -/
theorem config_stored (c : CacheConfiguration) : ∃ w : UInt16, ConfigFields w.toNat c := by
  obtain ⟨l, s, o, e, m⟩ := c
  have key : ∀ (l : CacheLevel) (o : CacheLocation) (m : CacheOperationalMode) (s e : Bool),
      ∃ n < 1024, [CacheLevel.L1, .L2, .L3, .L4, .L5, .L6, .L7, .L8][n % 8]? = some l ∧
        s = n.testBit 3 ∧
        [CacheLocation.Internal, .External, .Reserved, .Unknown][n / 2 ^ 5 % 4]? = some o ∧
        e = n.testBit 7 ∧ [CacheOperationalMode.WriteThrough, .WriteBack, .ValuesWithMemoryAddress,
          .Unknown][n / 2 ^ 8 % 4]? = some m := by
    intro l o m s e
    let n := (match l with | .L1 => 0 | .L2 => 1 | .L3 => 2 | .L4 => 3 | .L5 => 4 | .L6 => 5 | .L7 => 6 | .L8 => 7)
      + (if s then 8 else 0)
      + (match o with | .Internal => 0 | .External => 32 | .Reserved => 64 | .Unknown => 96)
      + (if e then 128 else 0)
      + (match m with | .WriteThrough => 0 | .WriteBack => 256 | .ValuesWithMemoryAddress => 512 | .Unknown => 768)
    refine ⟨n, ?_⟩
    cases s <;> cases e <;> cases l <;> cases o <;> cases m <;> decide +kernel
  obtain ⟨n, hn, h1, h2, h3, h4, h5⟩ := key l o m s e
  have : (UInt16.ofNat n).toNat = n := by rw [UInt16.toNat_ofNat']; omega
  exact ⟨.ofNat n, by rw [this]; exact ⟨h1, h2, h3, h4, h5⟩⟩

/-- C82: exactly these cache values are reported. -/
theorem C82_cache (oc : Bool) (ver : SmbiosVersion) (v : Cache) :
    ReportedAt oc ver (.Cache v) ↔ CacheValue ver v := by
  rw [reported_iff (dec := Cache.try_from) (info := .Cache)]
  · constructor
    · rintro ⟨p, -, -, h⟩
      have hv : Since (p.raw ver) 2 1 := by
        refine Decidable.not_not.mp fun hn => ?_
        rw [(C37_faults _).1.mpr hn] at h; cases h
      have hf : Fits (p.raw ver) (cacheReads (p.raw ver)) := by
        refine Decidable.not_not.mp fun hn => ?_
        rw [(C37_faults _).2.mpr ⟨hv, hn⟩] at h; cases h
      have F := (C37_decodes _ hv hf v).mp h
      refine ⟨hv, storable_of_ref F.socket_designation, ⟨_, F.maximum_cache_size.symm⟩,
        ⟨_, F.installed_size.symm⟩, ?_, ?_, present_of_when F.cache_speed fun _ _ => trivial,
        present_of_when F.error_correction_type fun _ ha => ⟨_, ha.symm⟩,
        present_of_when F.system_cache_type fun _ ha => ⟨_, ha.symm⟩,
        present_of_when F.associativity fun _ ha => ⟨_, ha.symm⟩,
        present_of_when F.maximum_cache_size_2 fun _ ha => ⟨_, ha.symm⟩,
        present_of_when F.installed_size_2 fun _ ha => ⟨_, ha.symm⟩⟩
      · rw [F.supported_sram_type]; omega
      · rw [F.current_sram_type]; omega
    · intro V
      obtain ⟨cw, hcw⟩ := config_stored v.cache_configuration
      obtain ⟨m, hm⟩ := V.maximum_cache_size
      obtain ⟨i, hi⟩ := V.installed_size
      obtain ⟨e, he⟩ := present_coded V.error_correction_type
      obtain ⟨y, hy⟩ := present_coded V.system_cache_type
      obtain ⟨a, ha⟩ := present_coded V.associativity
      obtain ⟨m2, hm2⟩ := present_coded V.maximum_cache_size_2
      obtain ⟨i2, hi2⟩ := present_coded V.installed_size_2
      let ts := [v.socket_designation]
      have hts : ∀ t ∈ ts, Storable t := by simp [ts, V.socket_designation]
      let p : Piece := ⟨7, v.handle, [refTo 1 v.socket_designation] ++ enc16 cw ++ enc16 m ++
        enc16 i ++ enc16 v.supported_sram_type.bits ++ enc16 v.current_sram_type.bits ++
        [v.cache_speed.getD 0, e, y, a] ++ enc32 m2 ++ enc32 i2, textArea ts⟩
      refine ⟨p, ⟨by len_ok, textArea_ends hts⟩, rfl, (C37_decodes (p.raw ver) V.version ?_ v).mpr ?_⟩
      · refine fits_mono (n := 0x1B) (by len_ok) ?_
        unfold cacheReads
        repeat' split
        all_goals decide
      · have e1 : word (p.raw ver) 0x05 = cw := u16At_enc _
        have e2 : word (p.raw ver) 0x07 = m := u16At_enc _
        have e3 : word (p.raw ver) 0x09 = i := u16At_enc _
        have e4 : word (p.raw ver) 0x0B = v.supported_sram_type.bits := u16At_enc _
        have e5 : word (p.raw ver) 0x0D = v.current_sram_type.bits := u16At_enc _
        have e6 : dword (p.raw ver) 0x13 = m2 := u32At_enc _
        have e7 : dword (p.raw ver) 0x17 = i2 := u32At_enc _
        constructor
        · rfl
        · exact textArea_ref hts 0 rfl (by decide)
        · rw [e1]; exact hcw
        · rw [e2]; exact hm.symm
        · rw [e3]; exact hi.symm
        · rw [e4]; exact (Nat.mod_eq_of_lt V.supported_sram_type).symm
        · rw [e5]; exact (Nat.mod_eq_of_lt V.current_sram_type).symm
        · exact when_of_present V.cache_speed (by stored_opt)
        · exact when_of_present V.error_correction_type he
        · exact when_of_present V.system_cache_type hy
        · exact when_of_present V.associativity ha
        · rw [e6]; exact when_of_present V.maximum_cache_size_2 hm2
        · rw [e7]; exact when_of_present V.installed_size_2 hi2
  dispatch_ok

example : ∃ v, CacheValue ⟨3, 4⟩ v :=
  some_reported (f := .Cache) 7 (List.replicate 23 0) (by decide)
    (fun | .Cache v => some v | _ => none)
    (by intro x v h; cases x <;> cases h; rfl)
    (fun v => (C82_cache _ _ v).1)
    (by decide +kernel)

end Cache

section MemoryError
open memory_error_32

/-- The values of type 18 reported, whatever the version. -/
structure MemoryErrorValue (v : MemoryError32) : Prop where
  error_type : Coded ErrorType.ofU8 v.error_type
  error_granularity : Coded ErrorGranularity.ofU8 v.error_granularity
  error_operation : Coded ErrorOperation.ofU8 v.error_operation

/-- C82: exactly these 32-bit memory error values are reported. -/
theorem C82_memory_error (oc : Bool) (ver : SmbiosVersion) (v : MemoryError32) :
    ReportedAt oc ver (.MemoryError32 v) ↔ MemoryErrorValue v := by
  rw [reported_iff (dec := MemoryError32.try_from oc) (info := .MemoryError32)]
  · constructor
    · rintro ⟨p, -, -, h⟩
      have hl : Since (p.raw ver) 2 1 → (p.raw ver).length = 0x17 := fun hv => by
        refine Decidable.not_not.mp fun hn => ?_
        rw [(C49_rejects oc _).1 hv hn] at h; cases h
      have hf : Fits (p.raw ver) 0x17 := by
        refine Decidable.not_not.mp fun hn => ?_
        rw [(C49_rejects oc _).2 hl hn] at h; cases h
      have F := (C49_decodes oc _ hl hf v).mp h
      exact ⟨⟨_, F.error_type.symm⟩, ⟨_, F.error_granularity.symm⟩, ⟨_, F.error_operation.symm⟩⟩
    · intro V
      obtain ⟨t, ht⟩ := V.error_type
      obtain ⟨g, hg⟩ := V.error_granularity
      obtain ⟨o, ho⟩ := V.error_operation
      let p : Piece := ⟨18, v.handle, [t, g, o] ++ enc32 v.vendor_syndrome ++
        enc32 v.memory_array_error_address ++ enc32 v.device_error_address ++
        enc32 v.error_resolution, [0, 0]⟩
      refine ⟨p, ⟨by len_ok, ends_nil⟩, rfl, (C49_decodes oc _ (fun _ => rfl) (by len_ok) v).mpr ?_⟩
      exact ⟨rfl, ht.symm, hg.symm, ho.symm, (u32At_enc _).symm, (u32At_enc _).symm,
        (u32At_enc _).symm, (u32At_enc _).symm⟩
  dispatch_ok

example : ∃ v, MemoryErrorValue v :=
  some_reported (f := .MemoryError32) 18 (List.replicate 19 0) (by decide)
    (fun | .MemoryError32 v => some v | _ => none)
    (by intro x v h; cases x <;> cases h; rfl)
    (fun v => (C82_memory_error _ _ v).1)
    (by decide +kernel)

end MemoryError

section PointingDevice
open built_in_pointing_device

/-- The values of type 21 reported, whatever the version. -/
structure PointingValue (v : BuiltInPointingDevice) : Prop where
  type_ : Coded DeviceType.ofU8 v.type_
  interface : Coded Interface.ofU8 v.interface

/-- C82: exactly these pointing device values are reported. -/
theorem C82_pointing_device (oc : Bool) (ver : SmbiosVersion) (v : BuiltInPointingDevice) :
    ReportedAt oc ver (.BuiltInPointingDevice v) ↔ PointingValue v := by
  rw [reported_iff (dec := BuiltInPointingDevice.try_from oc) (info := .BuiltInPointingDevice)]
  · constructor
    · rintro ⟨p, -, -, h⟩
      have hl : Since (p.raw ver) 2 1 → (p.raw ver).length = 7 := fun hv => by
        refine Decidable.not_not.mp fun hn => ?_
        rw [(C51_rejects oc _).1 hv hn] at h; cases h
      have hf : Fits (p.raw ver) 7 := by
        refine Decidable.not_not.mp fun hn => ?_
        rw [(C51_rejects oc _).2 hl hn] at h; cases h
      have F := (C51_decodes oc _ hl hf v).mp h
      exact ⟨⟨_, F.type_.symm⟩, ⟨_, F.interface.symm⟩⟩
    · intro V
      obtain ⟨t, ht⟩ := V.type_
      obtain ⟨i, hi⟩ := V.interface
      let p : Piece := ⟨21, v.handle, [t, i, v.number_of_buttons], [0, 0]⟩
      refine ⟨p, ⟨by len_ok, ends_nil⟩, rfl, (C51_decodes oc _ (fun _ => rfl) (by len_ok) v).mpr ?_⟩
      exact ⟨rfl, ht.symm, hi.symm, rfl⟩
  dispatch_ok

example : ∃ v, PointingValue v :=
  some_reported (f := .BuiltInPointingDevice) 21 (List.replicate 3 0) (by decide)
    (fun | .BuiltInPointingDevice v => some v | _ => none)
    (by intro x v h; cases x <;> cases h; rfl)
    (fun v => (C82_pointing_device _ _ v).1)
    (by decide +kernel)

end PointingDevice

section ArrayAddress
open memory_array_mapped_address

/-- The values of type 19 reported for tables of version `ver`. -/
structure ArrayAddressValue (ver : SmbiosVersion) (v : MemoryArrayMappedAddress) : Prop where
  since27 : From ver 2 7 →
    v.extended_starting_address.isSome = true ∧ v.extended_ending_address.isSome = true
  since21 : From ver 2 1 → ¬ From ver 2 7 →
    v.extended_starting_address = none ∧ v.extended_ending_address = none
  before : v.extended_ending_address.isSome = true → v.extended_starting_address.isSome = true

theorem when_isSome {α : Type} {c : Prop} {o : Option α} {p : α → Prop} (h : When c o p) :
    o.isSome = true ↔ c := (present_iff.mpr h).1

theorem when_none {α : Type} {c : Prop} {o : Option α} {p : α → Prop} (h : When c o p) :
    o = none ↔ ¬ c := by
  rw [← when_isSome h]; cases o <;> simp

/-- The written length field. -/
theorem piece_length {p : Piece} (ver : SmbiosVersion) (n : Nat) (h : p.len = n) :
    (p.raw ver).length = UInt8.ofNat n := by rw [← h]; rfl

theorem written_coherent {p : Piece} (ver : SmbiosVersion) (h : p.WF) : Coherent (p.raw ver) := by
  show p.data.length + 4 = (UInt8.ofNat p.len).toNat
  have := h.1
  rw [UInt8.toNat_ofNat']
  unfold Piece.len at *
  omega

/-- C82: exactly these array address values are reported. -/
theorem C82_array_address (oc : Bool) (ver : SmbiosVersion) (v : MemoryArrayMappedAddress) :
    ReportedAt oc ver (.MemoryArrayMappedAddress v) ↔ ArrayAddressValue ver v := by
  rw [reported_iff (dec := MemoryArrayMappedAddress.try_from oc) (info := .MemoryArrayMappedAddress)]
  · constructor
    · rintro ⟨p, hp, -, h⟩
      have hl : ArrayAddressLength (p.raw ver) := by
        refine ⟨fun h1 h2 => ?_, fun h1 => ?_⟩ <;> refine Decidable.not_not.mp fun hn => ?_
        · rw [(C50_array_rejects oc _).1 h1 h2 hn] at h; cases h
        · rw [(C50_array_rejects oc _).2.1 h1 hn] at h; cases h
      have hf : Fits (p.raw ver) 0x0F := by
        refine Decidable.not_not.mp fun hn => ?_
        rw [(C50_array_rejects oc _).2.2 hl hn] at h; cases h
      have F := (C50_array_decodes oc _ hl hf v).mp h
      have hc := written_coherent ver hp
      refine ⟨fun hv => ?_, fun h1 h2 => ?_, ?_⟩
      · have e := hl.2 hv
        rw [when_isSome F.extended_starting_address, when_isSome F.extended_ending_address]
        simp only [hc.fits_iff, e]
        decide
      · have e := hl.1 h1 h2
        rw [when_none F.extended_starting_address, when_none F.extended_ending_address]
        simp only [hc.fits_iff, e]
        decide
      · rw [when_isSome F.extended_starting_address, when_isSome F.extended_ending_address]
        exact fun h => fits_mono h (by decide)
    · intro V
      let base := enc32 v.starting_address ++ enc32 v.ending_address ++
        enc16 v.memory_array_handle ++ [v.partition_width]
      have build : ∀ d : Bytes, d.length < 200 → ArrayAddressLength (Piece.raw ⟨19, v.handle, base ++ d, [0, 0]⟩ ver) →
          When (8 ≤ d.length) v.extended_starting_address
            (· = qword (Piece.raw ⟨19, v.handle, base ++ d, [0, 0]⟩ ver) 0x0F) →
          When (16 ≤ d.length) v.extended_ending_address
            (· = qword (Piece.raw ⟨19, v.handle, base ++ d, [0, 0]⟩ ver) 0x17) →
          ∃ p : Piece, p.WF ∧ InfoType.ofU8 p.kind = .MemoryArrayMappedAddress ∧
            MemoryArrayMappedAddress.try_from oc (p.raw ver) = .ok v := by
        intro d hd hl h1 h2
        have lb : base.length = 11 := rfl
        refine ⟨⟨19, v.handle, base ++ d, [0, 0]⟩, ⟨?_, ends_nil⟩, rfl,
          (C50_array_decodes oc _ hl ?_ v).mpr ?_⟩
        · show (base ++ d).length + 4 < 256
          rw [List.length_append]; omega
        · show 0x0F ≤ (base ++ d).length + 4
          rw [List.length_append]; omega
        · have c : ∀ n, Fits (Piece.raw ⟨19, v.handle, base ++ d, [0, 0]⟩ ver) (n + 15) ↔ n ≤ d.length := by
            intro n
            show n + 15 ≤ (base ++ d).length + 4 ↔ _
            rw [List.length_append]; omega
          refine ⟨rfl, (u32At_enc _).symm, (u32At_enc _).symm, (u16At_enc _).symm, rfl, ?_, ?_⟩
          · rw [show Fits _ 0x17 = _ from propext (c 8)]; exact h1
          · rw [show Fits _ 0x1F = _ from propext (c 16)]; exact h2
      cases e1 : v.extended_starting_address with
      | none =>
        have e2 : v.extended_ending_address = none := by
          cases e2 : v.extended_ending_address with
          | none => rfl
          | some b => have := V.before (by rw [e2]; rfl); rw [e1] at this; cases this
        have h27 : ¬ From ver 2 7 := fun h => by have := (V.since27 h).1; rw [e1] at this; cases this
        refine build [] (by decide) ⟨fun _ _ => rfl, fun h => absurd h h27⟩ ?_ ?_
        · rw [e1]; exact Or.inr ⟨by decide, rfl⟩
        · rw [e2]; exact Or.inr ⟨by decide, rfl⟩
      | some a =>
        have h21 : From ver 2 1 → From ver 2 7 := fun h => by
          refine Decidable.not_not.mp fun hn => ?_
          have := (V.since21 h hn).1; rw [e1] at this; cases this
        cases e2 : v.extended_ending_address with
        | none =>
          have h27 : ¬ From ver 2 7 := fun h => by have := (V.since27 h).2; rw [e2] at this; cases this
          refine build (enc64 a) (by len_ok) ⟨fun h hn => absurd (h21 h) hn, fun h => absurd h h27⟩ ?_ ?_
          · rw [e1]; exact Or.inl ⟨by len_ok, a, rfl, (u64At_enc a).symm⟩
          · rw [e2]; exact Or.inr ⟨by show ¬ 16 ≤ 8; decide, rfl⟩
        | some b =>
          refine build (enc64 a ++ enc64 b) (by len_ok) ⟨fun h hn => absurd (h21 h) hn, fun _ => rfl⟩ ?_ ?_
          · rw [e1]; exact Or.inl ⟨by len_ok, a, rfl, (u64At_enc a).symm⟩
          · rw [e2]; exact Or.inl ⟨by len_ok, b, rfl, (u64At_enc b).symm⟩
  dispatch_ok

example : ∃ v, ArrayAddressValue ⟨3, 4⟩ v :=
  some_reported (f := .MemoryArrayMappedAddress) 19 (List.replicate 27 0) (by decide)
    (fun | .MemoryArrayMappedAddress v => some v | _ => none)
    (by intro x v h; cases x <;> cases h; rfl)
    (fun v => (C82_array_address _ _ v).1)
    (by decide +kernel)

end ArrayAddress

section DeviceAddress
open memory_device_mapped_address

/-- The values of type 20 reported for tables of version `ver`. -/
structure DeviceAddressValue (ver : SmbiosVersion) (v : MemoryDeviceMappedAddress) : Prop where
  since27 : From ver 2 7 →
    v.extended_starting_address.isSome = true ∧ v.extended_ending_address.isSome = true
  since21 : From ver 2 1 → ¬ From ver 2 7 →
    v.extended_starting_address = none ∧ v.extended_ending_address = none
  before : v.extended_ending_address.isSome = true → v.extended_starting_address.isSome = true

/-- C82: exactly these device address values are reported. -/
theorem C82_device_address (oc : Bool) (ver : SmbiosVersion) (v : MemoryDeviceMappedAddress) :
    ReportedAt oc ver (.MemoryDeviceMappedAddress v) ↔ DeviceAddressValue ver v := by
  rw [reported_iff (dec := MemoryDeviceMappedAddress.try_from oc) (info := .MemoryDeviceMappedAddress)]
  · constructor
    · rintro ⟨p, hp, -, h⟩
      have hl : DeviceAddressLength (p.raw ver) := by
        refine ⟨fun h1 h2 => ?_, fun h1 => ?_⟩ <;> refine Decidable.not_not.mp fun hn => ?_
        · rw [(C50_device_rejects oc _).1 h1 h2 hn] at h; cases h
        · rw [(C50_device_rejects oc _).2.1 h1 hn] at h; cases h
      have hf : Fits (p.raw ver) 0x13 := by
        refine Decidable.not_not.mp fun hn => ?_
        rw [(C50_device_rejects oc _).2.2 hl hn] at h; cases h
      have F := (C50_device_decodes oc _ hl hf v).mp h
      have hc := written_coherent ver hp
      refine ⟨fun hv => ?_, fun h1 h2 => ?_, ?_⟩
      · have e := hl.2 hv
        rw [when_isSome F.extended_starting_address, when_isSome F.extended_ending_address]
        simp only [hc.fits_iff, e]
        decide
      · have e := hl.1 h1 h2
        rw [when_none F.extended_starting_address, when_none F.extended_ending_address]
        simp only [hc.fits_iff, e]
        decide
      · rw [when_isSome F.extended_starting_address, when_isSome F.extended_ending_address]
        exact fun h => fits_mono h (by decide)
    · intro V
      let base := enc32 v.starting_address ++ enc32 v.ending_address ++
        enc16 v.memory_device_handle ++ enc16 v.memory_array_mapped_address_handle ++
        [v.partition_row_position, v.interleave_position, v.interleaved_data_depth]
      have build : ∀ d : Bytes, d.length < 200 → DeviceAddressLength (Piece.raw ⟨20, v.handle, base ++ d, [0, 0]⟩ ver) →
          When (8 ≤ d.length) v.extended_starting_address
            (· = qword (Piece.raw ⟨20, v.handle, base ++ d, [0, 0]⟩ ver) 0x13) →
          When (16 ≤ d.length) v.extended_ending_address
            (· = qword (Piece.raw ⟨20, v.handle, base ++ d, [0, 0]⟩ ver) 0x1B) →
          ∃ p : Piece, p.WF ∧ InfoType.ofU8 p.kind = .MemoryDeviceMappedAddress ∧
            MemoryDeviceMappedAddress.try_from oc (p.raw ver) = .ok v := by
        intro d hd hl h1 h2
        have lb : base.length = 15 := rfl
        refine ⟨⟨20, v.handle, base ++ d, [0, 0]⟩, ⟨?_, ends_nil⟩, rfl,
          (C50_device_decodes oc _ hl ?_ v).mpr ?_⟩
        · show (base ++ d).length + 4 < 256
          rw [List.length_append]; omega
        · show 0x13 ≤ (base ++ d).length + 4
          rw [List.length_append]; omega
        · have c : ∀ n, Fits (Piece.raw ⟨20, v.handle, base ++ d, [0, 0]⟩ ver) (n + 19) ↔ n ≤ d.length := by
            intro n
            show n + 19 ≤ (base ++ d).length + 4 ↔ _
            rw [List.length_append]; omega
          refine ⟨rfl, (u32At_enc _).symm, (u32At_enc _).symm, (u16At_enc _).symm, (u16At_enc _).symm, rfl, rfl, rfl,
            ?_, ?_⟩
          · rw [show Fits _ 0x1B = _ from propext (c 8)]; exact h1
          · rw [show Fits _ 0x23 = _ from propext (c 16)]; exact h2
      cases e1 : v.extended_starting_address with
      | none =>
        have e2 : v.extended_ending_address = none := by
          cases e2 : v.extended_ending_address with
          | none => rfl
          | some b => have := V.before (by rw [e2]; rfl); rw [e1] at this; cases this
        have h27 : ¬ From ver 2 7 := fun h => by have := (V.since27 h).1; rw [e1] at this; cases this
        refine build [] (by decide) ⟨fun _ _ => rfl, fun h => absurd h h27⟩ ?_ ?_
        · rw [e1]; exact Or.inr ⟨by decide, rfl⟩
        · rw [e2]; exact Or.inr ⟨by decide, rfl⟩
      | some a =>
        have h21 : From ver 2 1 → From ver 2 7 := fun h => by
          refine Decidable.not_not.mp fun hn => ?_
          have := (V.since21 h hn).1; rw [e1] at this; cases this
        cases e2 : v.extended_ending_address with
        | none =>
          have h27 : ¬ From ver 2 7 := fun h => by have := (V.since27 h).2; rw [e2] at this; cases this
          refine build (enc64 a) (by len_ok) ⟨fun h hn => absurd (h21 h) hn, fun h => absurd h h27⟩ ?_ ?_
          · rw [e1]; exact Or.inl ⟨by len_ok, a, rfl, (u64At_enc a).symm⟩
          · rw [e2]; exact Or.inr ⟨by show ¬ 16 ≤ 8; decide, rfl⟩
        | some b =>
          refine build (enc64 a ++ enc64 b) (by len_ok) ⟨fun h hn => absurd (h21 h) hn, fun _ => rfl⟩ ?_ ?_
          · rw [e1]; exact Or.inl ⟨by len_ok, a, rfl, (u64At_enc a).symm⟩
          · rw [e2]; exact Or.inl ⟨by len_ok, b, rfl, (u64At_enc b).symm⟩
  dispatch_ok

example : ∃ v, DeviceAddressValue ⟨3, 4⟩ v :=
  some_reported (f := .MemoryDeviceMappedAddress) 20 (List.replicate 31 0) (by decide)
    (fun | .MemoryDeviceMappedAddress v => some v | _ => none)
    (by intro x v h; cases x <;> cases h; rfl)
    (fun v => (C82_device_address _ _ v).1)
    (by decide +kernel)

end DeviceAddress

section MemoryArray
open physical_memory_array

/-- The values of type 16 reported for tables of version `ver`: before 2.2 always the same one; the
codes for an unknown capacity, for a missing handle and a zero extended capacity are not values. An
extended capacity is there from 2.8 on and only if there is no other. -/
def MemoryArrayValue (ver : SmbiosVersion) (v : PhysicalMemoryArray) : Prop :=
  if From ver 2 2 then
    Coded MemoryArrayLocation.ofU8 v.location ∧ Coded MemoryArrayUse.ofU8 v.use ∧
    Coded MemoryArrayErrorCorrectionTypes.ofU8 v.memory_error_correction ∧
    v.maximum_capacity ≠ some 0x80000000 ∧ v.memory_error_information_handle ≠ some 0xFFFE ∧
    v.extended_maximum_capacity ≠ some 0 ∧
    (v.extended_maximum_capacity.isSome = true → From ver 2 8 ∧ v.maximum_capacity = none)
  else v = ⟨0, .Unknown, .Unknown, .Unknown, none, none, 0, none⟩

/-- A number other than the one that means "none". -/
theorem when_ne {α : Type} {k w : α} {o : Option α} (h : When (w ≠ k) o (· = w)) : o ≠ some k := by
  rintro rfl
  rcases h with ⟨h, a, e, rfl⟩ | ⟨-, h⟩
  · cases e; exact h rfl
  · cases h

theorem ne_when {α : Type} {k : α} {o : Option α} (h : o ≠ some k) :
    When (o.getD k ≠ k) o (· = o.getD k) := by
  cases o with
  | none => exact Or.inr ⟨by simp, rfl⟩
  | some a => exact Or.inl ⟨fun e => h (congrArg some e), a, rfl, rfl⟩

/-- C82: exactly these memory array values are reported. -/
theorem C82_memory_array (oc : Bool) (ver : SmbiosVersion) (v : PhysicalMemoryArray) :
    ReportedAt oc ver (.PhysicalMemoryArray v) ↔ MemoryArrayValue ver v := by
  rw [reported_iff (dec := PhysicalMemoryArray.try_from) (info := .PhysicalMemoryArray)]
  · unfold MemoryArrayValue
    constructor
    · rintro ⟨p, -, -, h⟩
      by_cases hv : Since (p.raw ver) 2 2
      · rw [if_pos (show From ver 2 2 from hv)]
        have hf : ArrayFits (p.raw ver) := by
          refine Decidable.not_not.mp fun hn => ?_
          rw [C47_short _ hv hn] at h; cases h
        have F := (C47_decodes _ hv hf v).mp h
        refine ⟨⟨_, F.location.symm⟩, ⟨_, F.use.symm⟩, ⟨_, F.memory_error_correction.symm⟩,
          when_ne F.maximum_capacity, when_ne F.memory_error_information_handle, ?_, ?_⟩
        · intro e
          have := F.extended_maximum_capacity
          rw [e] at this
          rcases this with ⟨h, a, e, rfl⟩ | ⟨-, h⟩
          · exact h.2.2 (Option.some.inj e).symm
          · cases h
        · rw [when_isSome F.extended_maximum_capacity]
          exact fun h => ⟨h.1, (when_none F.maximum_capacity).mpr fun hn => hn h.2.1⟩
      · rw [if_neg (show ¬ From ver 2 2 from hv)]
        rw [C47_old _ hv] at h
        exact (Res.ok.inj h).symm
    · by_cases hv : From ver 2 2
      · rw [if_pos hv]
        rintro ⟨⟨l, hl⟩, ⟨u, hu⟩, ⟨c, hc⟩, h1, h2, h3, h4⟩
        let p : Piece := ⟨16, v.handle, [l, u, c] ++ enc32 (v.maximum_capacity.getD 0x80000000) ++
          enc16 (v.memory_error_information_handle.getD 0xFFFE) ++ enc16 v.number_of_memory_devices ++
          enc64 (v.extended_maximum_capacity.getD 0), [0, 0]⟩
        refine ⟨p, ⟨by len_ok, ends_nil⟩, rfl, (C47_decodes (p.raw ver) hv ?_ v).mpr ?_⟩
        · have hf : Fits (p.raw ver) 0x17 := by len_ok
          exact ⟨fits_mono hf (by decide), fun _ _ => hf⟩
        · have e1 : dword (p.raw ver) 0x07 = v.maximum_capacity.getD 0x80000000 := u32At_enc _
          have e2 : word (p.raw ver) 0x0B = v.memory_error_information_handle.getD 0xFFFE := u16At_enc _
          have e3 : qword (p.raw ver) 0x0F = v.extended_maximum_capacity.getD 0 := u64At_enc _
          refine ⟨rfl, hl.symm, hu.symm, hc.symm, ?_, ?_, (u16At_enc _).symm, ?_⟩
          · rw [e1]; exact ne_when h1
          · rw [e2]; exact ne_when h2
          · rw [e1, e3]
            cases e : v.extended_maximum_capacity with
            | none => exact Or.inr ⟨fun h => h.2.2 rfl, rfl⟩
            | some a =>
              rw [e] at h3 h4
              obtain ⟨h5, h6⟩ := h4 rfl
              exact Or.inl ⟨⟨h5, by rw [h6]; rfl, fun e => h3 (congrArg some e)⟩, a, rfl, rfl⟩
      · rw [if_neg hv]
        rintro rfl
        exact ⟨⟨16, 0, [], [0, 0]⟩, ⟨by decide, ends_nil⟩, rfl,
          C47_old _ hv⟩
  dispatch_ok

example : ∃ v, MemoryArrayValue ⟨3, 4⟩ v :=
  some_reported (f := .PhysicalMemoryArray) 16 (List.replicate 19 0) (by decide)
    (fun | .PhysicalMemoryArray v => some v | _ => none)
    (by intro x v h; cases x <;> cases h; rfl)
    (fun v => (C82_memory_array _ _ v).1)
    (by decide +kernel)

end MemoryArray

end Dmi.Props
