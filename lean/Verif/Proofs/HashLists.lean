import Verif.Proofs.HashTypes
import Verif.Props.Compare
import Verif.Props.Texts
/-!
# The lists of records among what is written to a hasher

The hand-written `Hash` of the three lists of records writes the records, but not how many. Here: what follows
in the three structures shows where the list ends.
-/
namespace Dmi.Props
open Spec system_slots system_event_log enclosure

/-- The bytes of a small number: the lowest, and at least three zeros. -/
theorem usizeBytes_small {n : Nat} (h32 : 32 ≤ n) (k : Nat) (hk : k < 256) :
    ∃ t, @usizeBytes ⟨n⟩ k = UInt8.ofNat k :: 0 :: 0 :: t := by
  have e : n / 8 = (n / 8 - 3) + 1 + 1 + 1 := by omega
  have h1 : k / 256 = 0 := by omega
  have h2 : k / 65536 = 0 := by omega
  unfold usizeBytes
  show ∃ t, List.map _ (List.range (n / 8)) = _
  rw [e, List.range_succ_eq_map, List.range_succ_eq_map, List.range_succ_eq_map]
  simp only [List.map_cons, Nat.pow_zero, Nat.div_one, Nat.succ_eq_add_one, Nat.zero_add, Nat.pow_one, h1,
    show (1 + 1 : Nat) = 2 from rfl, show (256 ^ 2 : Nat) = 65536 from rfl, h2]
  exact ⟨_, rfl⟩

theorem usizeBytes_len {n : Nat} (k : Nat) : (@usizeBytes ⟨n⟩ k).length = n / 8 := by simp [usizeBytes]

/-- The chunks of a list and what they write. -/
theorem chunks_list {n : Nat} {c : Chunks} (hc : 0 < c.size) :
    ∃ l, Collects Chunks.next c l ∧ @Chunks.hash ⟨n⟩ c = l.flatMap (@hashSlice ⟨n⟩) ∧
      (∀ x ∈ l, x ≠ [] ∧ x.length ≤ c.size ∧ x.length ≤ c.rest.length) := by
  obtain ⟨l, h1, h2⟩ := @chunks_collect ⟨n⟩ (c.rest.length + 1) c hc (by omega)
  refine ⟨l, h1, h2, ?_⟩
  clear h2
  induction h1 with
  | done _ => intro x hx; cases hx
  | step h _ ih =>
    obtain ⟨n1, rfl, rfl⟩ := chunks_next_some h
    intro x hx
    rcases List.mem_cons.1 hx with rfl | hx
    · refine ⟨?_, by simp only [List.length_take]; omega, by simp only [List.length_take]; omega⟩
      intro e
      have := congrArg List.length e
      have := List.length_pos_iff.2 n1
      simp only [List.length_take, List.length_nil] at *
      omega
    · obtain ⟨g1, g2, g3⟩ := ih hc x hx
      simp only [List.length_drop] at g3
      exact ⟨g1, g2, by omega⟩

/-- Records of five bytes, followed by bytes of which the first is less than five. -/
theorem peers_split {n : Nat} (h8 : 8 ∣ n) (h32 : 32 ≤ n) : ∀ {l m : List Bytes} {x y : UInt8} {r s : Bytes},
    (∀ z ∈ l, z.length = 5) → (∀ z ∈ m, z.length = 5) → x.toNat < 5 → y.toNat < 5 →
    l.flatMap (@hashSlice ⟨n⟩) ++ x :: r = m.flatMap (@hashSlice ⟨n⟩) ++ y :: s → l = m ∧ x :: r = y :: s
  | [], [], _, _, _, _, _, _, _, _, e => ⟨rfl, e⟩
  | [], z :: m, x, _, _, _, _, hm, hx, _, e => by
    obtain ⟨t, ht⟩ := usizeBytes_small h32 z.length (by rw [hm z List.mem_cons_self]; decide)
    simp only [List.flatMap_nil, List.flatMap_cons, hashSlice, ht, List.nil_append, List.cons_append] at e
    injection e with e _
    rw [e, hm z List.mem_cons_self] at hx
    exact absurd hx (by decide)
  | z :: l, [], _, y, _, _, hl, _, _, hy, e => by
    obtain ⟨t, ht⟩ := usizeBytes_small h32 z.length (by rw [hl z List.mem_cons_self]; decide)
    simp only [List.flatMap_nil, List.flatMap_cons, hashSlice, ht, List.nil_append, List.cons_append] at e
    injection e with e _
    rw [← e, hl z List.mem_cons_self] at hy
    exact absurd hy (by decide)
  | z :: l, w :: m, _, _, _, _, hl, hm, hx, hy, e => by
    simp only [List.flatMap_cons, hashSlice, List.append_assoc] at e
    have hz := hl z List.mem_cons_self
    have hw := hm w List.mem_cons_self
    obtain ⟨-, e⟩ := List.append_inj e (by rw [usizeBytes_len, usizeBytes_len])
    obtain ⟨h1, e⟩ := List.append_inj e (hz.trans hw.symm)
    obtain ⟨h2, h3⟩ := peers_split h8 h32 (fun z hz => hl z (.tail _ hz)) (fun z hz => hm z (.tail _ hz)) hx hy e
    exact ⟨by rw [h1, h2], h3⟩

/-- How what follows a list of contained elements begins: nothing but a zero of the size of a `usize`, or a one
of this size and more. -/
def Tail (n : Nat) (r : Bytes) : Prop := r = @usizeBytes ⟨n⟩ 0 ∨ ∃ r', r = @usizeBytes ⟨n⟩ 1 ++ r'

theorem Tail.len {n : Nat} {r : Bytes} (h : Tail n r) : n / 8 ≤ r.length := by
  rcases h with rfl | ⟨r', rfl⟩
  · rw [usizeBytes_len]; exact Nat.le_refl _
  · rw [List.length_append, usizeBytes_len]; exact Nat.le_add_right ..

/-- Two bytes and a tail are not what a list of contained elements begins with. -/
theorem elements_end {n : Nat} (h32 : 32 ≤ n) {z : Bytes} {c l : UInt8} {r s : Bytes} (hz : z.length < 256)
    (hr : Tail n r) (hs : n / 8 ≤ s.length) : c :: l :: r ≠ @hashSlice ⟨n⟩ z ++ s := by
  intro e
  obtain ⟨t, ht⟩ := usizeBytes_small h32 z.length hz
  rcases hr with rfl | ⟨r', rfl⟩
  · have e := congrArg List.length e
    simp only [hashSlice, List.length_cons, List.length_append, usizeBytes_len] at e
    omega
  · obtain ⟨t', ht'⟩ := usizeBytes_small h32 1 (by decide)
    simp only [hashSlice, ht, ht', List.cons_append] at e
    injection e with _ e
    injection e with _ e
    injection e with e _
    exact absurd e (by decide)

theorem elements_split {n : Nat} (h8 : 8 ∣ n) (h32 : 32 ≤ n) : ∀ {l m : List Bytes} {c k c' k' : UInt8}
    {r s : Bytes}, (∀ z ∈ l, z.length < 256) → (∀ z ∈ m, z.length < 256) → Tail n r → Tail n s →
    l.flatMap (@hashSlice ⟨n⟩) ++ c :: k :: r = m.flatMap (@hashSlice ⟨n⟩) ++ c' :: k' :: s →
    l = m ∧ c = c' ∧ k = k' ∧ r = s
  | [], [], _, _, _, _, _, _, _, _, _, _, e => by
    simp only [List.flatMap_nil, List.nil_append, List.cons.injEq] at e
    exact ⟨rfl, e⟩
  | [], z :: m, _, _, _, _, _, _, _, hm, hr, hs, e => by
    rw [List.flatMap_nil, List.nil_append, List.flatMap_cons, List.append_assoc] at e
    refine absurd e (elements_end h32 (hm z List.mem_cons_self) hr ?_)
    have := hs.len
    simp only [List.length_append, List.length_cons]
    omega
  | z :: l, [], _, _, _, _, _, _, hl, _, hr, hs, e => by
    rw [List.flatMap_nil, List.nil_append, List.flatMap_cons, List.append_assoc] at e
    refine absurd e.symm (elements_end h32 (hl z List.mem_cons_self) hs ?_)
    have := hr.len
    simp only [List.length_append, List.length_cons]
    omega
  | z :: l, w :: m, _, _, _, _, _, _, hl, hm, hr, hs, e => by
    simp only [List.flatMap_cons, hashSlice, List.append_assoc] at e
    have lt : 256 < 2 ^ n := Nat.lt_of_lt_of_le (by decide : 256 < 2 ^ 32) (Nat.pow_le_pow_right (by decide) h32)
    obtain ⟨h1, e⟩ := usize_split h8 (Nat.lt_trans (hl z List.mem_cons_self) lt)
      (Nat.lt_trans (hm w List.mem_cons_self) lt) e
    obtain ⟨h1, e⟩ := List.append_inj e h1
    obtain ⟨h2, h3⟩ := elements_split h8 h32 (fun z hz => hl z (.tail _ hz)) (fun z hz => hm z (.tail _ hz)) hr hs e
    exact ⟨by rw [h1, h2], h3⟩

/-! ### The three structures -/

def encFront (x : Enclosure) : List Fed :=
  [[.u16 x.handle], [.str x.manufacturer], [.bool x.chassis_lock], x.enclosure_type.fed, [.str x.version],
    [.str x.serial_number], [.str x.asset_tag_number], Fed.opt (·.fed) x.boot_up_state,
    Fed.opt (·.fed) x.power_supply_state, Fed.opt (·.fed) x.thermal_state, Fed.opt (·.fed) x.security_status,
    Fed.opt (fun y => [.u32 y]) x.oem_defined, Fed.opt (fun y => [.u8 y]) x.height,
    Fed.opt (fun y => [.u8 y]) x.power_cords_number].flatten

theorem enc_split (x : Enclosure) : x.fed = encFront x ++
    (Fed.opt (·.fed) x.contained_elements ++ Fed.opt (fun y => [.str y]) x.sku_number) := by
  simp only [Enclosure.fed, encFront, List.flatten_cons, List.flatten_nil, List.append_assoc, List.append_nil]

def slotFront (x : SystemSlots) : List Fed :=
  [[.u16 x.handle], [.str x.slot_designation], x.slot_type.fed, x.slot_data_bus_width.fed, x.current_usage.fed,
    x.slot_length.fed, [.u16 x.slot_id], x.slot_characteristics_1.fed, Fed.opt (·.fed) x.slot_characteristics_2,
    Fed.opt (fun y => [.u16 y]) x.segment_group_number, Fed.opt (fun y => [.u8 y]) x.bus_number,
    Fed.opt (·.fed) x.device_and_function_number, Fed.opt (fun y => [.u8 y]) x.data_bus_width].flatten

def slotBack (x : SystemSlots) : List Fed :=
  [Fed.opt (fun y => [.u8 y]) x.slot_information, Fed.opt (·.fed) x.slot_physical_width,
    Fed.opt (·.fed) x.slot_pitch].flatten

theorem slot_split (x : SystemSlots) : x.fed = slotFront x ++ (Fed.opt (·.fed) x.peer_devices ++ slotBack x) := by
  simp only [SystemSlots.fed, slotFront, slotBack, List.flatten_cons, List.flatten_nil, List.append_assoc,
    List.append_nil]

def logFront (x : SystemEventLog) : List Fed :=
  [[.u16 x.handle], [.u16 x.log_area_length], [.u16 x.log_header_start_offset], [.u16 x.log_data_start_offset],
    x.access_method.fed, x.log_status.fed, [.u32 x.log_change_token], Fed.opt (·.fed) x.log_header_format].flatten

theorem log_split (x : SystemEventLog) : x.fed = logFront x ++
    Fed.opt (·.fed) x.supported_event_log_type_descriptors := by
  simp only [SystemEventLog.fed, logFront, List.flatten_cons, List.flatten_nil, List.append_assoc, List.append_nil]

theorem encFront_det : Det encFront fun x => ({ x with contained_elements := none, sku_number := none } : Enclosure) := by
  intro n h8 h32 pre a b r s va vb e
  have key := (show Det encFront _ from
    (det_u16.on Enclosure.handle).cons <| (det_str.on Enclosure.manufacturer).cons <|
    (det_bool.on Enclosure.chassis_lock).cons <| (EnclosureType.fed_det.on Enclosure.enclosure_type).cons <|
    (det_str.on Enclosure.version).cons <| (det_str.on Enclosure.serial_number).cons <|
    (det_str.on Enclosure.asset_tag_number).cons <| ((det_opt State.fed_det).on Enclosure.boot_up_state).cons <|
    ((det_opt State.fed_det).on Enclosure.power_supply_state).cons <|
    ((det_opt State.fed_det).on Enclosure.thermal_state).cons <|
    ((det_opt SecurityStatus.fed_det).on Enclosure.security_status).cons <|
    ((det_opt det_u32).on Enclosure.oem_defined).cons <| ((det_opt det_u8).on Enclosure.height).cons <|
    ((det_opt det_u8).on Enclosure.power_cords_number).cons det_nil) n h8 h32 pre a b r s va vb e
  refine ⟨?_, key.2⟩
  have := key.1
  simp only [Prod.mk.injEq, id] at this
  simp only [this]

theorem slotFront_det : Det slotFront fun x =>
    ({ x with
        peer_devices := none, slot_information := none, slot_physical_width := none, slot_pitch := none } :
      SystemSlots) := by
  intro n h8 h32 pre a b r s va vb e
  have key := (show Det slotFront _ from
    (det_u16.on SystemSlots.handle).cons <| (det_str.on SystemSlots.slot_designation).cons <|
    (SlotType.fed_det.on SystemSlots.slot_type).cons <| (SlotWidth.fed_det.on SystemSlots.slot_data_bus_width).cons <|
    (CurrentUsage.fed_det.on SystemSlots.current_usage).cons <| (SlotLength.fed_det.on SystemSlots.slot_length).cons <|
    (det_u16.on SystemSlots.slot_id).cons <|
    (SlotCharacteristics1.fed_det.on SystemSlots.slot_characteristics_1).cons <|
    ((det_opt SlotCharacteristics2.fed_det).on SystemSlots.slot_characteristics_2).cons <|
    ((det_opt det_u16).on SystemSlots.segment_group_number).cons <| ((det_opt det_u8).on SystemSlots.bus_number).cons <|
    ((det_opt DeviceAndFunctionNumber.fed_det).on SystemSlots.device_and_function_number).cons <|
    ((det_opt det_u8).on SystemSlots.data_bus_width).cons det_nil) n h8 h32 pre a b r s va vb e
  refine ⟨?_, key.2⟩
  have := key.1
  simp only [Prod.mk.injEq, id] at this
  simp only [this]

theorem slotBack_det : Det slotBack fun x => (x.slot_information, x.slot_physical_width, x.slot_pitch, ()) :=
  ((det_opt det_u8).on SystemSlots.slot_information).cons <|
    ((det_opt SlotWidth.fed_det).on SystemSlots.slot_physical_width).cons <|
    ((det_opt SlotPitch.fed_det).on SystemSlots.slot_pitch).cons det_nil

theorem logFront_det : Det logFront fun x =>
    ({ x with supported_event_log_type_descriptors := none } : SystemEventLog) := by
  intro n h8 h32 pre a b r s va vb e
  have key := (show Det logFront _ from
    (det_u16.on SystemEventLog.handle).cons <| (det_u16.on SystemEventLog.log_area_length).cons <|
    (det_u16.on SystemEventLog.log_header_start_offset).cons <|
    (det_u16.on SystemEventLog.log_data_start_offset).cons <|
    (AccessMethod.fed_det.on SystemEventLog.access_method).cons <|
    (LogStatus.fed_det.on SystemEventLog.log_status).cons <| (det_u32.on SystemEventLog.log_change_token).cons <|
    ((det_opt LogHeaderFormat.fed_det).on SystemEventLog.log_header_format).cons det_nil) n h8 h32 pre a b r s va vb e
  refine ⟨?_, key.2⟩
  have := key.1
  simp only [Prod.mk.injEq, id] at this
  simp only [this]

end Dmi.Props
