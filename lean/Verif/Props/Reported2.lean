import Verif.Props.Reported
import Verif.Props.Strings
/-!
# C82: exactly which values are reported, structures of variable length
-/
namespace Dmi.Props
open Spec

/-! ### Structures cut off at some length -/

theorem byteAt_take {d : Bytes} {n o : Nat} (h : o < n) : byteAt (d.take n) o = byteAt d o := by
  unfold byteAt
  rw [List.getD_eq_getElem?_getD, List.getD_eq_getElem?_getD, List.getElem?_take, if_pos h]

theorem leAt_take (d : Bytes) (n : Nat) : ∀ k o, o + k ≤ n → leAt (d.take n) o k = leAt d o k
  | 0, _, _ => rfl
  | k + 1, o, h => by
    show (byteAt _ o).toNat + 256 * leAt _ (o + 1) k = (byteAt d o).toNat + 256 * leAt d (o + 1) k
    rw [byteAt_take (by omega), leAt_take d n k (o + 1) (by omega)]

theorem enc16_length (w : UInt16) : (enc16 w).length = 2 := rfl
theorem enc32_length (w : UInt32) : (enc32 w).length = 4 := rfl
theorem enc64_length (w : UInt64) : (enc64 w).length = 8 := rfl

/-- The structure whose formatted area has `n` bytes, the first ones of `d` after the header. -/
def cut (kind : UInt8) (handle : UInt16) (d : Bytes) (strings : Bytes) (n : Nat) : Piece :=
  ⟨kind, handle, d.take (n - 4), strings⟩

section Cut
variable {kind : UInt8} {handle : UInt16} {d strings : Bytes} {n : Nat} (ver : SmbiosVersion)

theorem cut_fits (hn : 4 ≤ n) (hd : n ≤ d.length + 4) (k : Nat) :
    Fits ((cut kind handle d strings n).raw ver) k ↔ k ≤ n := by
  show k ≤ (d.take (n - 4)).length + 4 ↔ _
  rw [List.length_take]
  omega

theorem cut_byte {o : Nat} (h4 : 4 ≤ o) (h : o + 1 ≤ n) :
    byte ((cut kind handle d strings n).raw ver) o = byteAt d (o - 4) := byteAt_take (by omega)

theorem cut_word {o : Nat} (h4 : 4 ≤ o) (h : o + 2 ≤ n) :
    word ((cut kind handle d strings n).raw ver) o = u16At d (o - 4) := by
  show UInt16.ofNat _ = UInt16.ofNat _
  rw [← leAt_take d (n - 4) 2 (o - 4) (by omega)]
  rfl

theorem cut_dword {o : Nat} (h4 : 4 ≤ o) (h : o + 4 ≤ n) :
    dword ((cut kind handle d strings n).raw ver) o = u32At d (o - 4) := by
  show UInt32.ofNat _ = UInt32.ofNat _
  rw [← leAt_take d (n - 4) 4 (o - 4) (by omega)]
  rfl

theorem cut_qword {o : Nat} (h4 : 4 ≤ o) (h : o + 8 ≤ n) :
    qword ((cut kind handle d strings n).raw ver) o = u64At d (o - 4) := by
  show UInt64.ofNat _ = UInt64.ofNat _
  rw [← leAt_take d (n - 4) 8 (o - 4) (by omega)]
  rfl

theorem cut_wf (hn : 4 ≤ n) (hs : EndsAtFirstNulNul strings) (h : n < 256) :
    (cut kind handle d strings n).WF := by
  refine ⟨?_, hs⟩
  show (d.take (n - 4)).length + 4 < 256
  rw [List.length_take]
  omega

end Cut

/-- A few texts leave references dangling. -/
theorem dangling_of {s : RawStructure} {ts : List Bytes} (hs : s.strings = textArea ts)
    (h : ∀ t ∈ ts, Storable t) {o : Nat} (ho : byte s o = 255) (hl : ts.length < 255) :
    Dangling s o := by
  intro str hr
  have h1 := ref_iff.mp hr
  rw [C19_find_string s _ (placeholder_good h) hs, ho, if_neg (by decide)] at h1
  rw [List.getElem?_eq_none (by simp; show _ ≤ 255 - 1; omega)] at h1
  cases h1

section Device
open memory_device

/-- The values of type 17 reported for structures of length `n`, whatever the version. -/
structure DeviceValue (n : Nat) (v : MemoryDevice) : Prop where
  memory_error_handle : v.memory_error_handle ≠ some 0xFFFE
  total_width : v.total_width ≠ some 0xFFFF
  data_width : v.data_width ≠ some 0xFFFF
  size : v.size ≠ some 0xFFFF
  form_factor : Coded FormFactor.ofU8 v.form_factor
  device_set : v.device_set.isSome = true
  device_locator : Storable v.device_locator
  bank_locator : Storable v.bank_locator
  memory_type : Coded MemoryType.ofU8 v.memory_type
  type_detail : OnlyBits [1, 2, 3, 4, 5, 6, 7, 8, 9, 10, 11, 12, 13, 14, 15] v.type_detail.bits.toNat
  speed : v.speed ≠ some 0
  manufacturer : Storable v.manufacturer
  serial : Storable v.serial
  asset_tag : Storable v.asset_tag
  part_number : Storable v.part_number
  configured_memory_speed : ∀ a, v.configured_memory_speed = some a → 0x22 ≤ n ∧ a ≠ 0
  minimum_voltage : ∀ a, v.minimum_voltage = some a → 0x24 ≤ n ∧ a ≠ 0
  maximum_voltage : ∀ a, v.maximum_voltage = some a → 0x26 ≤ n ∧ a ≠ 0
  configured_voltage : ∀ a, v.configured_voltage = some a → 0x28 ≤ n ∧ a ≠ 0
  memory_technology : Present (0x29 ≤ n) (Coded MemoryTechnology.ofU8) v.memory_technology
  operating_mode_capability : Present (0x2B ≤ n)
    (fun m => OnlyBits [1, 2, 3, 4, 5] m.bits.toNat) v.operating_mode_capability
  firmware_version : ∀ a, v.firmware_version = some a → 0x2C ≤ n ∧ Storable a
  module_manufacturer : Present (0x2E ≤ n) Any v.module_manufacturer
  module_product_id : Present (0x30 ≤ n) Any v.module_product_id
  memory_subsystem_controller_manufacturer_id :
    Present (0x32 ≤ n) Any v.memory_subsystem_controller_manufacturer_id
  memory_subsystem_controller_product_id :
    Present (0x34 ≤ n) Any v.memory_subsystem_controller_product_id
  non_volatile_size : Present (0x3C ≤ n) Any v.non_volatile_size
  volatile_size : Present (0x44 ≤ n) Any v.volatile_size
  cache_size : Present (0x4C ≤ n) Any v.cache_size
  logical_size : Present (0x54 ≤ n) Any v.logical_size
  extended_speed : Present (0x58 ≤ n) Any v.extended_speed
  extended_configured_memory_speed : Present (0x5C ≤ n) Any v.extended_configured_memory_speed

theorem when_imp {α : Type} {c : Prop} {p q : α → Prop} {o : Option α} (h : When c o p)
    (hq : ∀ a, c → p a → q a) (a : α) (ha : o = some a) : q a := by
  subst ha
  rcases h with ⟨h, b, e, hb⟩ | ⟨-, h⟩
  · cases e; exact hq _ h hb
  · cases h

/-- A field at the end of a structure cut off at `n`. -/
theorem when_cut {α : Type} {c : Prop} {m n : Nat} {p q : α → Prop} {o : Option α}
    (hc : c ↔ m ≤ n) (h : Present (m ≤ n) q o) (hp : m ≤ n → ∀ a, o = some a → p a) :
    When c o p := by
  rw [propext hc]
  by_cases hm : m ≤ n
  · exact when_of_present h (hp hm)
  · exact Or.inr ⟨hm, by
      cases o with
      | none => rfl
      | some a => exact absurd (h.1.mp rfl) hm⟩

/-- The same for a field one value of which means that it is not there. -/
theorem when_cut_ne {α : Type} {c : Prop} {m n : Nat} {k w : α} {o : Option α}
    (hc : c ↔ m ≤ n) (h : ∀ a, o = some a → m ≤ n ∧ a ≠ k) (hw : m ≤ n → w = o.getD k) :
    When (c ∧ w ≠ k) o (· = w) := by
  rw [propext hc]
  cases o with
  | none => exact Or.inr ⟨fun h => h.2 (hw h.1), rfl⟩
  | some a => exact Or.inl ⟨⟨(h a rfl).1, hw (h a rfl).1 ▸ (h a rfl).2⟩, a, rfl, (hw (h a rfl).1).symm⟩

set_option maxHeartbeats 2000000 in
/-- C82: exactly these memory device values are reported. -/
theorem C82_memory_device (oc : Bool) (ver : SmbiosVersion) (v : MemoryDevice) :
    ReportedAt oc ver (.MemoryDevice v) ↔ ∃ n, 0x20 ≤ n ∧ n < 256 ∧ DeviceValue n v := by
  rw [reported_iff (dec := MemoryDevice.try_from oc) (info := .MemoryDevice)]
  · constructor
    · rintro ⟨p, hp, -, h⟩
      have hf : Fits (p.raw ver) 0x20 := by
        refine Decidable.not_not.mp fun hn => ?_
        by_cases h15 : Fits (p.raw ver) 0x15
        · obtain ⟨e, he, -⟩ := (C48_short oc _).2 h15 hn
          rw [he] at h; cases h
        · rw [(C48_short oc _).1 h15] at h; cases h
      have F := (C48_decodes oc _ hf v).mp h
      refine ⟨p.data.length + 4, hf, hp.1, ?_⟩
      exact {
        memory_error_handle := when_ne F.memory_error_handle
        total_width := when_ne F.total_width
        data_width := when_ne F.data_width
        size := when_ne F.size
        form_factor := ⟨_, F.form_factor.symm⟩
        device_set := by rw [F.device_set]; rfl
        device_locator := storable_of_ref F.device_locator
        bank_locator := storable_of_ref F.bank_locator
        memory_type := ⟨_, F.memory_type.symm⟩
        type_detail := onlyBits_of_kept F.type_detail
        speed := when_ne F.speed
        manufacturer := storable_of_ref F.manufacturer
        serial := storable_of_ref F.serial
        asset_tag := storable_of_ref F.asset_tag
        part_number := storable_of_ref F.part_number
        configured_memory_speed := when_imp F.configured_memory_speed fun a hc ha => ⟨hc.1, ha ▸ hc.2⟩
        minimum_voltage := when_imp F.minimum_voltage fun a hc ha => ⟨hc.1, ha ▸ hc.2⟩
        maximum_voltage := when_imp F.maximum_voltage fun a hc ha => ⟨hc.1, ha ▸ hc.2⟩
        configured_voltage := when_imp F.configured_voltage fun a hc ha => ⟨hc.1, ha ▸ hc.2⟩
        memory_technology := present_of_when F.memory_technology fun _ ha => ⟨_, ha.symm⟩
        operating_mode_capability :=
          present_of_when F.operating_mode_capability fun _ ha => onlyBits_of_kept ha
        firmware_version := when_imp F.firmware_version fun a hc ha => ⟨hc.1, storable_of_ref ha⟩
        module_manufacturer := present_of_when F.module_manufacturer fun _ _ => trivial
        module_product_id := present_of_when F.module_product_id fun _ _ => trivial
        memory_subsystem_controller_manufacturer_id :=
          present_of_when F.memory_subsystem_controller_manufacturer_id fun _ _ => trivial
        memory_subsystem_controller_product_id :=
          present_of_when F.memory_subsystem_controller_product_id fun _ _ => trivial
        non_volatile_size := present_of_when F.non_volatile_size fun _ _ => trivial
        volatile_size := present_of_when F.volatile_size fun _ _ => trivial
        cache_size := present_of_when F.cache_size fun _ _ => trivial
        logical_size := present_of_when F.logical_size fun _ _ => trivial
        extended_speed := present_of_when F.extended_speed fun _ _ => trivial
        extended_configured_memory_speed :=
          present_of_when F.extended_configured_memory_speed fun _ _ => trivial }
    · rintro ⟨n, h20, h256, V⟩
      obtain ⟨ff, hff⟩ := V.form_factor
      obtain ⟨mt, hmt⟩ := V.memory_type
      obtain ⟨tech, htech⟩ := present_coded V.memory_technology
      obtain ⟨set, hset⟩ := Option.isSome_iff_exists.mp V.device_set
      let ts := [v.device_locator, v.bank_locator, v.manufacturer, v.serial, v.asset_tag,
        v.part_number, v.firmware_version.getD []]
      have hts : ∀ t ∈ ts, Storable t := by
        have : Storable (v.firmware_version.getD []) := by
          cases e : v.firmware_version with
          | none => exact storable_nil
          | some a => exact (V.firmware_version a e).2
        simp [ts, V.device_locator, V.bank_locator, V.manufacturer, V.serial, V.asset_tag,
          V.part_number, this]
      let fw : UInt8 := match v.firmware_version with
        | none => 255
        | some t => refTo 7 t
      let d : Bytes := enc16 v.physical_memory_handle ++ (enc16 (v.memory_error_handle.getD 0xFFFE) ++
        (enc16 (v.total_width.getD 0xFFFF) ++ (enc16 (v.data_width.getD 0xFFFF) ++
        (enc16 (v.size.getD 0xFFFF) ++ ([ff, set, refTo 1 v.device_locator, refTo 2 v.bank_locator,
          mt] ++ (enc16 v.type_detail.bits ++ (enc16 (v.speed.getD 0) ++
        ([refTo 3 v.manufacturer, refTo 4 v.serial, refTo 5 v.asset_tag, refTo 6 v.part_number,
          v.attributes] ++ (enc32 v.extended_size ++
        (enc16 (v.configured_memory_speed.getD 0) ++ (enc16 (v.minimum_voltage.getD 0) ++
        (enc16 (v.maximum_voltage.getD 0) ++ (enc16 (v.configured_voltage.getD 0) ++
        ([tech] ++ (enc16 (v.operating_mode_capability.getD ⟨0⟩).bits ++ ([fw] ++
        (enc16 (v.module_manufacturer.getD 0) ++ (enc16 (v.module_product_id.getD 0) ++
        (enc16 (v.memory_subsystem_controller_manufacturer_id.getD 0) ++
        (enc16 (v.memory_subsystem_controller_product_id.getD 0) ++
        (enc64 (v.non_volatile_size.getD 0) ++ (enc64 (v.volatile_size.getD 0) ++
        (enc64 (v.cache_size.getD 0) ++ (enc64 (v.logical_size.getD 0) ++
        (enc32 (v.extended_speed.getD 0) ++
        (enc32 (v.extended_configured_memory_speed.getD 0) ++
        List.replicate 164 0))))))))))))))))))))))))))
      have hd : d.length = 252 := by
        simp only [d, List.length_append, List.length_cons, List.length_nil, List.length_replicate,
          enc16_length, enc32_length, enc64_length]
      have hfit := fun k => cut_fits (kind := 17) (handle := v.handle) (d := d)
        (strings := textArea ts) (n := n) ver (by omega) (by omega) k
      refine ⟨cut 17 v.handle d (textArea ts) n, cut_wf (by omega) (textArea_ends hts) h256, rfl,
        (C48_decodes oc _ ((hfit _).mpr h20) v).mpr ?_⟩
      exact {
        handle := rfl
        physical_memory_handle := by
          rw [cut_word ver (by decide) (by omega)]; exact (u16At_enc _).symm
        memory_error_handle := by
          rw [cut_word ver (by decide) (by omega)]
          exact (u16At_enc (v.memory_error_handle.getD 0xFFFE)).symm ▸ ne_when V.memory_error_handle
        total_width := by
          rw [cut_word ver (by decide) (by omega)]
          exact (u16At_enc (v.total_width.getD 0xFFFF)).symm ▸ ne_when V.total_width
        data_width := by
          rw [cut_word ver (by decide) (by omega)]
          exact (u16At_enc (v.data_width.getD 0xFFFF)).symm ▸ ne_when V.data_width
        size := by
          rw [cut_word ver (by decide) (by omega)]
          exact (u16At_enc (v.size.getD 0xFFFF)).symm ▸ ne_when V.size
        form_factor := by rw [cut_byte ver (by decide) (by omega)]; exact hff.symm
        device_set := by rw [cut_byte ver (by decide) (by omega)]; exact hset
        device_locator := by
          unfold Ref; rw [cut_byte ver (by decide) (by omega)]
          exact textArea_ref hts 0 rfl (by decide)
        bank_locator := by
          unfold Ref; rw [cut_byte ver (by decide) (by omega)]
          exact textArea_ref hts 1 rfl (by decide)
        memory_type := by rw [cut_byte ver (by decide) (by omega)]; exact hmt.symm
        type_detail := by
          rw [cut_word ver (by decide) (by omega)]
          exact (u16At_enc v.type_detail.bits).symm ▸ kept_self V.type_detail
        speed := by
          rw [cut_word ver (by decide) (by omega)]
          exact (u16At_enc (v.speed.getD 0)).symm ▸ ne_when V.speed
        manufacturer := by
          unfold Ref; rw [cut_byte ver (by decide) (by omega)]
          exact textArea_ref hts 2 rfl (by decide)
        serial := by
          unfold Ref; rw [cut_byte ver (by decide) (by omega)]
          exact textArea_ref hts 3 rfl (by decide)
        asset_tag := by
          unfold Ref; rw [cut_byte ver (by decide) (by omega)]
          exact textArea_ref hts 4 rfl (by decide)
        part_number := by
          unfold Ref; rw [cut_byte ver (by decide) (by omega)]
          exact textArea_ref hts 5 rfl (by decide)
        attributes := by rw [cut_byte ver (by decide) (by omega)]; rfl
        extended_size := by
          rw [cut_dword ver (by decide) (by omega)]; exact (u32At_enc _).symm
        configured_memory_speed := when_cut_ne (hfit _) V.configured_memory_speed fun h => by
          rw [cut_word ver (by decide) h]; exact u16At_enc _
        minimum_voltage := when_cut_ne (hfit _) V.minimum_voltage fun h => by
          rw [cut_word ver (by decide) h]; exact u16At_enc _
        maximum_voltage := when_cut_ne (hfit _) V.maximum_voltage fun h => by
          rw [cut_word ver (by decide) h]; exact u16At_enc _
        configured_voltage := when_cut_ne (hfit _) V.configured_voltage fun h => by
          rw [cut_word ver (by decide) h]; exact u16At_enc _
        memory_technology := when_cut (hfit _) V.memory_technology fun h a ha => by
          rw [cut_byte ver (by decide) h]; exact htech a ha
        operating_mode_capability := when_cut (hfit _) V.operating_mode_capability fun h a ha => by
          rw [cut_word ver (by decide) h]
          have e : u16At d (0x29 - 4) = (v.operating_mode_capability.getD ⟨0⟩).bits := u16At_enc _
          rw [e, ha]
          exact kept_self (V.operating_mode_capability.2 a ha)
        firmware_version := by
          have hb : 0x2C ≤ n → byte ((cut 17 v.handle d (textArea ts) n).raw ver) 0x2B = fw :=
            fun h => by rw [cut_byte ver (by decide) h]; rfl
          cases e : v.firmware_version with
          | none =>
            refine Or.inr ⟨fun h => h.2 ?_, rfl⟩
            refine dangling_of (ts := ts) rfl hts ?_ (by len_ok)
            rw [hb ((hfit _).mp h.1)]
            simp only [fw, e]
          | some t =>
            have h1 := V.firmware_version t e
            have hr : Ref ((cut 17 v.handle d (textArea ts) n).raw ver) 0x2B t := by
              unfold Ref
              rw [hb h1.1]
              simp only [fw, e]
              exact textArea_ref hts 6 (by simp only [ts, e]; rfl) (by decide)
            exact Or.inl ⟨⟨(hfit _).mpr h1.1, fun hd => hd t hr⟩, t, rfl, hr⟩
        module_manufacturer := when_cut (hfit _) V.module_manufacturer fun h a ha => by
          rw [cut_word ver (by decide) h]; exact (getD_of ha).trans (u16At_enc _).symm
        module_product_id := when_cut (hfit _) V.module_product_id fun h a ha => by
          rw [cut_word ver (by decide) h]; exact (getD_of ha).trans (u16At_enc _).symm
        memory_subsystem_controller_manufacturer_id :=
          when_cut (hfit _) V.memory_subsystem_controller_manufacturer_id fun h a ha => by
            rw [cut_word ver (by decide) h]; exact (getD_of ha).trans (u16At_enc _).symm
        memory_subsystem_controller_product_id :=
          when_cut (hfit _) V.memory_subsystem_controller_product_id fun h a ha => by
            rw [cut_word ver (by decide) h]; exact (getD_of ha).trans (u16At_enc _).symm
        non_volatile_size := when_cut (hfit _) V.non_volatile_size fun h a ha => by
          rw [cut_qword ver (by decide) h]; exact (getD_of ha).trans (u64At_enc _).symm
        volatile_size := when_cut (hfit _) V.volatile_size fun h a ha => by
          rw [cut_qword ver (by decide) h]; exact (getD_of ha).trans (u64At_enc _).symm
        cache_size := when_cut (hfit _) V.cache_size fun h a ha => by
          rw [cut_qword ver (by decide) h]; exact (getD_of ha).trans (u64At_enc _).symm
        logical_size := when_cut (hfit _) V.logical_size fun h a ha => by
          rw [cut_qword ver (by decide) h]; exact (getD_of ha).trans (u64At_enc _).symm
        extended_speed := when_cut (hfit _) V.extended_speed fun h a ha => by
          rw [cut_dword ver (by decide) h]; exact (getD_of ha).trans (u32At_enc _).symm
        extended_configured_memory_speed :=
          when_cut (hfit _) V.extended_configured_memory_speed fun h a ha => by
            rw [cut_dword ver (by decide) h]; exact (getD_of ha).trans (u32At_enc _).symm }
  dispatch_ok

example : ∃ v, ∃ n, 0x20 ≤ n ∧ n < 256 ∧ DeviceValue n v :=
  some_reported (f := .MemoryDevice) 17 (List.replicate 60 0) (by decide)
    (fun | .MemoryDevice v => some v | _ => none)
    (by intro x v h; cases x <;> cases h; rfl)
    (fun v => (C82_memory_device _ _ v).1)
    (by decide +kernel)

end Device

end Dmi.Props
