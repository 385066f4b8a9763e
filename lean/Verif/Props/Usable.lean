import Verif.Props.Crash
import Verif.Props.BitFields
import Verif.Props.Battery
import Verif.Props.Slots
import Verif.Props.Language
import Verif.Props.EventLog
import Verif.Props.Texts
/-!
# C80: working with a decoded structure
-/
namespace Dmi.Props
open Spec

/-- The iterator reaches its end, and does not fault before. -/
def Ends {σ α : Type} (next : σ → Fault (Option α × σ)) (s : σ) : Prop := ∃ l, CollectsR next s l

/-- The same for iterators that cannot fault. -/
def Stops {σ α : Type} (next : σ → Option α × σ) (s : σ) : Prop := ∃ l, Collects next s l

/-- The three iterators over a bit field reach their ends. -/
def BitsEnd {α : Type} [BitField α] (oc : Bool) (a : α) : Prop :=
  Ends (bitfield.Iter.next oc) (BitField.iter a) ∧
  Ends (bitfield.Significants.next oc) (BitField.significants a) ∧
  Ends (bitfield.Reserved.next oc) (BitField.reserved a)

/-- Every iterator the value contains reaches its end and every conversion it offers returns. -/
def Usable (oc : Bool) : Structure → Prop
  | .Bios v => (∃ n, v.rom_size.toU64 = .ok n) ∧ BitsEnd oc v.bios_characteristics ∧
      (∀ x, v.bios_characteristics_exttension_1 = some x → BitsEnd oc x) ∧
      ∀ x, v.bios_characteristics_exttension_2 = some x → BitsEnd oc x
  | .Enclosure v => ∀ c, v.contained_elements = some c → Ends enclosure.ContainedElements.next c
  | .SystemSlots v => BitsEnd oc v.slot_characteristics_1 ∧
      (∀ x, v.slot_characteristics_2 = some x → BitsEnd oc x) ∧
      ∀ p, v.peer_devices = some p → Ends system_slots.PeerDevices.next p
  | .OemStrings v => Stops StructureStrings.next v.strings
  | .SystemConfigurationOptions v => Stops StructureStrings.next v.strings
  | .BiosLanguage v => Ends (bios_language.InstallableLanguages.next oc) v.installable_languages ∧
      ∀ x, v.flags = some x → BitsEnd oc x
  | .GroupAssociations v => Stops group_associations.GroupItems.next v.items
  | .SystemEventLog v => BitsEnd oc v.log_status ∧
      ∀ d, v.supported_event_log_type_descriptors = some d →
        Stops system_event_log.SupportedEventLogTypeDescriptors.next d
  | .PortableBattery v => ∃ n, v.design_capacity.toU64 oc = .ok n
  | _ => True

/-- C80, full statement. -/
def C80_full : Prop :=
  ∀ (oc : Bool) (s : RawStructure) (v : Structure), decodeStructure oc s = .ok v → Usable oc v

/-- What a structure must not contain, by type: the BIOS ROM size FFh without an extended size in megabytes or
gigabytes; contained elements of fewer than three bytes or, after overflow, with one or two bytes left over; so
many languages that their 8-bit index overflows; a battery capacity that overflows 16 bits. -/
def Hazard (oc : Bool) (s : RawStructure) : Prop :=
  match s.info with
  | .Bios => byte s 0x09 = 0xFF ∧ (Since s 3 1 → 2 ^ 15 ≤ (word s 0x18).toNat)
  | .Enclosure => Fits s (0x15 + recordBytes s) ∧ 0 < recordBytes s ∧
      (elementLength s < 3 ∨ recordBytes s % elementLength s = 1 ∨ recordBytes s % elementLength s = 2)
  | .BiosLanguage => ∃ l, IsStringList s.strings l ∧ (if oc then 254 else 255) ≤ l.length
  | .PortableBattery => oc = true ∧
      2 ^ 16 ≤ (word s 0x0A).toNat * (if Fits s 0x16 then (byte s 0x15).toNat else 1)
  | _ => False

/-! ### Iterators -/

theorem bits_end {α : Type} [BitField α] (oc : Bool) (a : α) (name : String)
    (h : (name, BitField.width α, BitField.LAYOUT α) ∈ crateLayouts) : BitsEnd oc a := by
  obtain ⟨fs, h1, -⟩ := C28_no_unknown oc name _ (BitField.value a) _ h
  obtain ⟨ps, h2, -⟩ := C25_crate oc name _ _ (BitField.value a) h
  obtain ⟨rs, h3, -⟩ := C27_crate oc name _ (BitField.value a) _ h
  exact ⟨⟨fs, h1⟩, ⟨_, h2⟩, ⟨rs, h3⟩⟩

theorem ends_step {σ α : Type} {next : σ → Fault (Option α × σ)} {s s' : σ} {a : α}
    (h : next s = .ok (some a, s')) : Ends next s ↔ Ends next s' := by
  constructor
  · rintro ⟨l, hl⟩
    cases hl with
    | done h' => rw [h] at h'; cases h'
    | step h' t => rw [h] at h'; cases h'; exact ⟨_, t⟩
  · rintro ⟨l, hl⟩
    exact ⟨_, .step h hl⟩

theorem elements_end_iff : ∀ (k : Nat) (c : enclosure.ContainedElements), c.chunks.rest.length ≤ k →
    0 < c.chunks.size →
    (Ends enclosure.ContainedElements.next c ↔ c.chunks.rest = [] ∨ (3 ≤ c.chunks.size ∧
      c.chunks.rest.length % c.chunks.size ≠ 1 ∧ c.chunks.rest.length % c.chunks.size ≠ 2)) := by
  intro k
  induction k with
  | zero =>
    intro c hk hs
    have hr : c.chunks.rest = [] := List.eq_nil_of_length_eq_zero (by omega)
    refine ⟨fun _ => .inl hr, fun _ => ⟨[], .done (s' := c) ?_⟩⟩
    unfold enclosure.ContainedElements.next Chunks.next
    rw [hr]; rfl
  | succ k ih =>
    intro c hk hs
    by_cases hr : c.chunks.rest = []
    · refine ⟨fun _ => .inl hr, fun _ => ⟨[], .done (s' := c) ?_⟩⟩
      unfold enclosure.ContainedElements.next Chunks.next
      rw [hr]; rfl
    have hpos : 0 < c.chunks.rest.length := List.length_pos_iff.2 hr
    have hne : c.chunks.rest.isEmpty = false := List.isEmpty_eq_false_iff.2 hr
    have hnext : c.next = (enclosure.ContainedElement.ofSlice (c.chunks.rest.take c.chunks.size) >>=
        fun e => .ok (some e, { c with chunks := { c.chunks with
          rest := c.chunks.rest.drop c.chunks.size } })) := by
      unfold enclosure.ContainedElements.next Chunks.next
      simp only [hne, Bool.false_eq_true, if_false]
    have hl : (c.chunks.rest.take c.chunks.size).length = min c.chunks.size c.chunks.rest.length :=
      List.length_take
    by_cases h3 : 3 ≤ (c.chunks.rest.take c.chunks.size).length
    · obtain ⟨e, he⟩ : ∃ e, enclosure.ContainedElement.ofSlice (c.chunks.rest.take c.chunks.size) = .ok e := by
        match c.chunks.rest.take c.chunks.size, h3 with
        | x :: y :: z :: r, _ => exact ⟨_, rfl⟩
      rw [he, ok_bind] at hnext
      rw [ends_step hnext, ih { c with chunks := { c.chunks with
        rest := c.chunks.rest.drop c.chunks.size } } (by simp; omega) hs]
      simp only [List.drop_eq_nil_iff, hr, false_or, List.length_drop]
      by_cases hle : c.chunks.rest.length < c.chunks.size
      · rw [Nat.mod_eq_of_lt hle]
        omega
      · rw [← Nat.mod_eq_sub_mod (by omega)]
        by_cases he : c.chunks.rest.length = c.chunks.size
        · rw [he, Nat.mod_self]; omega
        · omega
    · have hu : enclosure.ContainedElement.ofSlice (c.chunks.rest.take c.chunks.size) = .ub := by
        unfold enclosure.ContainedElement.ofSlice
        rw [letAsStruct_short (n := 3) (by consumes) (by omega)]
      rw [hu, ub_bind] at hnext
      constructor
      · rintro ⟨l, h⟩
        cases h with
        | done h => rw [hnext] at h; cases h
        | step h => rw [hnext] at h; cases h
      · rintro (h | ⟨h4, h5, h6⟩)
        · exact absurd h hr
        · rw [Nat.mod_eq_of_lt (by omega)] at h5 h6
          omega

theorem groups_stop : ∀ (k : Nat) (g : group_associations.GroupItems), g.data.length ≤ g.index + k →
    Stops group_associations.GroupItems.next g := by
  intro k
  induction k with
  | zero =>
    intro g hk
    refine ⟨[], .done (s' := g) ?_⟩
    unfold group_associations.GroupItems.next getRange
    dsimp only
    rw [if_neg (by omega)]
  | succ k ih =>
    intro g hk
    by_cases hf : g.index + 3 ≤ g.data.length
    · obtain ⟨l, hl⟩ := ih { g with index := g.index + 3 } (by dsimp only; omega)
      have hlen : ((g.data.drop g.index).take 3).length = 3 := by
        rw [List.length_take, List.length_drop]; omega
      match hm : (g.data.drop g.index).take 3, hlen with
      | [x, y, z], _ =>
        refine ⟨_, .step (a := ⟨x, le16 [y, z]⟩) ?_ hl⟩
        unfold group_associations.GroupItems.next getRange
        dsimp only
        rw [if_pos (by omega), Nat.add_sub_cancel_left, hm]
        rfl
    · refine ⟨[], .done (s' := g) ?_⟩
      unfold group_associations.GroupItems.next getRange
      dsimp only
      rw [if_neg (by omega)]

theorem descriptors_stop : ∀ (k : Nat) (d : system_event_log.SupportedEventLogTypeDescriptors),
    d.chunks.rest.length ≤ k → 0 < d.chunks.size →
    Stops system_event_log.SupportedEventLogTypeDescriptors.next d := by
  intro k
  induction k with
  | zero =>
    intro d hk hs
    have hr : d.chunks.rest = [] := List.eq_nil_of_length_eq_zero (by omega)
    refine ⟨[], .done (s' := d) ?_⟩
    unfold system_event_log.SupportedEventLogTypeDescriptors.next Chunks.next
    rw [hr]; rfl
  | succ k ih =>
    intro d hk hs
    by_cases hr : d.chunks.rest = []
    · refine ⟨[], .done (s' := d) ?_⟩
      unfold system_event_log.SupportedEventLogTypeDescriptors.next Chunks.next
      rw [hr]; rfl
    have hpos : 0 < d.chunks.rest.length := List.length_pos_iff.2 hr
    have hne : d.chunks.rest.isEmpty = false := List.isEmpty_eq_false_iff.2 hr
    have hnext : d.chunks.next = (some (d.chunks.rest.take d.chunks.size),
        { d.chunks with rest := d.chunks.rest.drop d.chunks.size }) := by
      unfold Chunks.next
      rw [hne]; rfl
    obtain ⟨l, hl⟩ := ih ⟨{ d.chunks with rest := d.chunks.rest.drop d.chunks.size }⟩
      (by simp; omega) hs
    unfold Stops
    match hm : d.chunks.rest.take d.chunks.size with
    | [a, b] =>
      refine ⟨_, .step (a := ⟨.ofU8 a, .ofU8 b⟩) ?_ hl⟩
      unfold system_event_log.SupportedEventLogTypeDescriptors.next
      rw [hnext, hm]
    | [] => exact ⟨[], .done (by
        unfold system_event_log.SupportedEventLogTypeDescriptors.next
        rw [hnext, hm])⟩
    | [a] => exact ⟨[], .done (by
        unfold system_event_log.SupportedEventLogTypeDescriptors.next
        rw [hnext, hm])⟩
    | a :: b :: c :: r => exact ⟨[], .done (by
        unfold system_event_log.SupportedEventLogTypeDescriptors.next
        rw [hnext, hm])⟩

theorem descriptors_size {oc : Bool} {s : RawStructure} {v : system_event_log.SystemEventLog}
    (h : system_event_log.SystemEventLog.try_from oc s = .ok v)
    (d : system_event_log.SupportedEventLogTypeDescriptors)
    (hd : v.supported_event_log_type_descriptors = some d) : 0 < d.chunks.size := by
  have key : ∀ a b, Post (fun o => ∀ d : system_event_log.SupportedEventLogTypeDescriptors,
      o = some d → 0 < d.chunks.size) (system_event_log.descriptors oc s a b) := by
    intro a b
    unfold system_event_log.descriptors
    split
    · refine Post.bind fun o _ => ?_
      cases o with
      | none => exact Post.pure fun d h => by cases h
      | some data =>
        refine Post.bind fun e he => Post.pure fun d h => ?_
        cases h
        unfold system_event_log.SupportedEventLogTypeDescriptors.new at he
        split at he
        · cases he
        · rename_i hz
          cases he
          exact Nat.pos_of_ne_zero hz
    · exact Post.pure fun d h => by cases h
  have : Post (fun v => ∀ d, v.supported_event_log_type_descriptors = some d → 0 < d.chunks.size)
      (system_event_log.SystemEventLog.try_from oc s) := by
    have dec : ∀ a b, Post (fun v => ∀ d, v.supported_event_log_type_descriptors = some d →
        0 < d.chunks.size) (system_event_log.SystemEventLog.decode oc s a b) := by
      intro a b
      unfold system_event_log.SystemEventLog.decode
      refine Post.bind fun _ _ => Post.bind fun _ _ => Post.bind fun o ho => ?_
      have := key a b o ho
      post
      all_goals exact this
    unfold system_event_log.SystemEventLog.try_from
    post
    all_goals exact dec _ _
  exact this v h d hd

theorem ends_of_yields {σ α : Type} {next : σ → Fault (Option α × σ)} {s st : σ} {l : List α}
    (h : Spec.Yields next s l st) : Ends next s ↔ Ends next st := by
  induction h with
  | nil => exact Iff.rfl
  | cons h _ ih => rw [ends_step h, ih]

theorem length_of_yields {σ α : Type} {next : σ → Fault (Option α × σ)} {s st : σ} {l m : List α}
    (h : Spec.Yields next s l st) (hm : CollectsR next s m) : l.length ≤ m.length := by
  induction h generalizing m with
  | nil => exact Nat.zero_le _
  | cons h _ ih =>
    cases hm with
    | done h' => rw [h] at h'; cases h'
    | step h' t => rw [h] at h'; cases h'; exact Nat.succ_le_succ (ih t)

theorem languages_end_iff (oc : Bool) (s : RawStructure) :
    Ends (bios_language.InstallableLanguages.next oc) (.new s) ↔
    ¬ ∃ l, IsStringList s.strings l ∧ (if oc then 254 else 255) ≤ l.length := by
  obtain ⟨-, hl⟩ := C20_strings_total s.strings
  constructor
  · rintro he ⟨l, hl, hn⟩
    cases oc with
    | true =>
      obtain ⟨st, hy, hp⟩ := C43_panics s l hl hn
      obtain ⟨m, hm⟩ := (ends_of_yields hy).1 he
      cases hm with
      | done h => rw [hp] at h; cases h
      | step h => rw [hp] at h; cases h
    | false =>
      obtain ⟨m, hm⟩ := he
      obtain ⟨items, st, h1, h2⟩ := C43_endless s l hl hn (m.length + 1)
      have := length_of_yields h2 hm
      omega
  · intro h
    refine ⟨_, C43_languages_partial oc s _ hl ?_⟩
    have h := fun hn => h ⟨_, hl, hn⟩
    have : (StructureStrings.new s.strings).collect.length < if oc then 254 else 255 :=
      Nat.lt_of_not_le h
    cases oc <;> simp only [if_true, Bool.false_eq_true, if_false] at this ⊢ <;> omega

theorem contained_end_iff (oc : Bool) (s : RawStructure) (v : enclosure.Enclosure)
    (hv : enclosure.Enclosure.try_from oc s = .ok v) :
    (∀ c, v.contained_elements = some c → Ends enclosure.ContainedElements.next c) ↔
    ¬ (Fits s (0x15 + recordBytes s) ∧ 0 < recordBytes s ∧
      (elementLength s < 3 ∨ recordBytes s % elementLength s = 1 ∨
        recordBytes s % elementLength s = 2)) := by
  have h9 : Fits s 9 := Classical.byContradiction fun h => by
    rw [C33_short oc s h] at hv; cases hv
  have hov : oc = true → Fits s 0x15 → elementCount s * elementLength s < 256 := by
    rintro rfl h
    refine Classical.byContradiction fun hn => ?_
    unfold enclosure.Enclosure.try_from enclosure.EnclosurePacked2_0.size at hv
    rw [if_neg (by unfold Fits at h9; omega)] at hv
    simp only [enclosure_packed h9, ok_bind, optionals_overflow s h (by omega), panic_bind,
      bind_ok_iff] at hv
    obtain ⟨_, _, _, _, _, _, _, _, h⟩ := hv
    cases h
  have hc : v.contained_elements = optIf (Fits s 0x15 ∧ Fits s (0x15 + recordBytes s))
      ⟨initialChunks s, byte s 0x13, byte s 0x14⟩ := by
    rw [enclosure_eval oc s h9 hov] at hv
    simp only [bind_ok_iff, pure_eq_ok, Res.ok.injEq] at hv
    obtain ⟨a, ha, b, hb, c, hc, d, hd, e, he, rfl⟩ := hv
    rfl
  by_cases hf : Fits s (0x15 + recordBytes s)
  rotate_left
  · rw [hc, optIf, if_neg (fun h => hf h.2)]
    exact ⟨fun _ h => hf h.1, fun _ c h => by cases h⟩
  have hf' : Fits s 0x15 := fits_mono hf (by omega)
  rw [hc, optIf, if_pos ⟨hf', hf⟩]
  simp only [Option.some.injEq, forall_eq', hf, true_and]
  unfold initialChunks
  by_cases h0 : elementCount s = 0 ∨ elementLength s = 0
  · rw [if_pos h0]
    have hr : recordBytes s = 0 := by
      unfold recordBytes
      rcases h0 with h | h <;> rw [h] <;> simp
    refine ⟨fun _ h => by omega, fun _ => ⟨[], .done (s' := ⟨⟨[], _⟩, _, _⟩) rfl⟩⟩
  · rw [if_neg h0, elements_end_iff _ _ (Nat.le_refl _) (show 0 < elementLength s by omega)]
    have hlen : (bytesAt s.data 0x11 (recordBytes s)).length = recordBytes s := by
      unfold Fits at hf
      simp [bytesAt] <;> omega
    show bytesAt _ _ _ = [] ∨ 3 ≤ elementLength s ∧ (bytesAt _ _ _).length % elementLength s ≠ 1 ∧
      (bytesAt _ _ _).length % elementLength s ≠ 2 ↔ _
    rw [← List.length_eq_zero_iff, hlen]
    omega

theorem battery_fields {oc : Bool} {s : RawStructure} {v : portable_battery.PortableBattery}
    (h : portable_battery.PortableBattery.try_from oc s = .ok v) : BatteryFields s v := by
  have hl : BatteryLength s := by
    refine ⟨fun h1 => Classical.byContradiction fun k => ?_,
      fun h1 => Classical.byContradiction fun k => ?_⟩
    · rw [(C52_rejects oc s).1 h1 k] at h; cases h
    · rw [(C52_rejects oc s).2.1 h1 k] at h; cases h
  have f : Fits s 0x10 := Classical.byContradiction fun k => by
    obtain ⟨e, he, -⟩ := (C52_rejects oc s).2.2.2 hl k
    rw [he] at h; cases h
  exact (C52_decodes oc s hl f v).1 h

theorem capacity_iff' (oc : Bool) (s : RawStructure) (v : portable_battery.PortableBattery)
    (hv : portable_battery.PortableBattery.try_from oc s = .ok v) :
    (∃ n, v.design_capacity.toU64 oc = .ok n) ↔ ¬ (oc = true ∧
      2 ^ 16 ≤ (word s 0x0A).toNat * (if Fits s 0x16 then (byte s 0x15).toNat else 1)) := by
  have hc : CapacityIs s v.design_capacity := (battery_fields hv).design_capacity
  rw [hc]
  have hm : (if Fits s 0x16 then (byte s 0x15).toNat else 1) =
      (if Fits s 0x16 then byte s 0x15 else 1).toNat := by split <;> rfl
  rw [hm]
  generalize (if Fits s 0x16 then byte s 0x15 else 1) = m
  by_cases h0 : word s 0x0A = 0
  · rw [if_pos h0, h0]
    exact ⟨fun _ h => by simp at h, fun _ => ⟨_, rfl⟩⟩
  rw [if_neg h0]
  by_cases hlt : (word s 0x0A).toNat * m.toNat < 65536
  · obtain ⟨⟨r, hr, -⟩, -⟩ := C52_capacity_partial oc (word s 0x0A) m hlt
    exact ⟨fun _ h => by omega, fun _ => ⟨r, hr⟩⟩
  · obtain ⟨h1, r, h2, -⟩ := C52_capacity_overflow (word s 0x0A) m (by omega)
    cases oc with
    | true =>
      rw [h1]
      refine ⟨?_, fun h => absurd ⟨rfl, by omega⟩ h⟩
      rintro ⟨n, h⟩
      cases h
    | false =>
      refine ⟨?_, fun _ => ⟨r, h2⟩⟩
      rintro - ⟨h, -⟩
      cases h

theorem rom_iff (s : RawStructure) (v : bios.Bios) (hv : bios.Bios.try_from s = .ok v) :
    (∃ n, v.rom_size.toU64 = .ok n) ↔
    ¬ (byte s 0x09 = 0xFF ∧ (Since s 3 1 → 2 ^ 15 ≤ (word s 0x18).toNat)) := by
  have hf : Fits s (biosLength s) := Classical.byContradiction fun h => by
    rw [C29_short s h] at hv; cases hv
  have hr := ((C29_decodes s hf v).1 hv).rom_size
  obtain ⟨h1, h2⟩ := C30_rom_size_partial v.rom_size
  have hb : byte s 0x09 = 0xFF ↔ ¬ (byte s 0x09).toNat < 255 := by
    have := (byte s 0x09).toNat_lt
    rw [← UInt8.toNat_inj]
    show _ = 255 ↔ _
    omega
  have hw : (word s 0x18).toNat < 65536 := (word s 0x18).toNat_lt
  have hn : romBytes v.rom_size.basic v.rom_size.extended = none ↔
      byte s 0x09 = 0xFF ∧ (Since s 3 1 → 2 ^ 15 ≤ (word s 0x18).toNat) := by
    rw [hr, hb]
    unfold romBytes
    by_cases hlt : (byte s 0x09).toNat < 255
    · simp [hlt]
    rw [if_neg hlt]
    by_cases hs : Since s 3 1
    · simp only [hs, if_true, hlt, not_false_eq_true, true_and, forall_const]
      split
      · simp; omega
      · split
        · simp; omega
        · simp; omega
    · simp [hs, hlt]
  rw [← hn]
  constructor
  · rintro ⟨n, h⟩ h'
    rw [h2 h'] at h; cases h
  · intro h
    cases hq : romBytes v.rom_size.basic v.rom_size.extended with
    | none => exact absurd hq h
    | some n =>
      obtain ⟨m, hm, -⟩ := h1 n hq
      exact ⟨m, hm⟩

/-! ### C80 -/

/-- C80: a decoded structure can be worked with exactly if the bytes contain none of the four hazards. -/
theorem C80_partial (oc : Bool) (s : RawStructure) (v : Structure) (h : decodeStructure oc s = .ok v) :
    Usable oc v ↔ ¬ Hazard oc s := by
  have out : ∀ {α : Type} {x : R α} {f : α → Structure} {y : Structure}, x.map f = .ok y →
      ∃ a, x = .ok a ∧ f a = y := by
    intro α x f y h
    cases x with
    | ok a => exact ⟨a, rfl, Res.ok.inj h⟩
    | _ => cases h
  have triv : ∀ {p q : Prop}, p → ¬ q → (p ↔ ¬ q) := fun hp hq => ⟨fun _ => hq, fun _ => hp⟩
  unfold decodeStructure at h
  unfold Hazard
  split at h
  case h_1 hi =>
    obtain ⟨v, hv, rfl⟩ := out h
    simp only [hi]
    rw [← rom_iff s v hv]
    exact ⟨fun h => h.1, fun h => ⟨h, bits_end oc _ "bios::Characteristics" (by simp [crateLayouts, BitField.width, BitField.LAYOUT]),
      fun x _ => bits_end oc x "bios::CharacteristicsExtension1" (by simp [crateLayouts, BitField.width, BitField.LAYOUT]),
      fun x _ => bits_end oc x "bios::CharacteristicsExtension2" (by simp [crateLayouts, BitField.width, BitField.LAYOUT])⟩⟩
  case h_4 hi =>
    obtain ⟨v, hv, rfl⟩ := out h
    simp only [hi]
    exact contained_end_iff oc s v hv
  case h_8 hi =>
    obtain ⟨v, hv, rfl⟩ := out h
    simp only [hi]
    refine triv ⟨bits_end oc _ "system_slots::SlotCharacteristics1"
        (by simp [crateLayouts, BitField.width, BitField.LAYOUT]),
      fun x _ => bits_end oc x "system_slots::SlotCharacteristics2"
        (by simp [crateLayouts, BitField.width, BitField.LAYOUT]), fun p hp => ?_⟩ id
    rcases C41_peers oc s v hv with ⟨-, q, hq, l, hl, -⟩ | ⟨-, hq⟩
    · rw [hp] at hq
      cases hq
      exact ⟨l, hl⟩
    · rw [hp] at hq
      cases hq
  case h_9 hi =>
    obtain ⟨v, hv, rfl⟩ := out h
    simp only [hi]
    obtain ⟨w, hw, -, hs⟩ := C42_oem s
    rw [hv] at hw
    cases hw
    exact triv ⟨_, (hs _).2 (C20_strings_total s.strings).2⟩ id
  case h_10 hi =>
    obtain ⟨v, hv, rfl⟩ := out h
    simp only [hi]
    have hl := (C20_strings_total s.strings).2
    have hf : Fits s 5 := Classical.byContradiction fun k => by
      rw [C42_options_short oc s k] at hv; cases hv
    obtain ⟨h1, h2⟩ := C42_options oc s _ hl hf
    by_cases he : (byte s 0x04).toNat = (StructureStrings.new s.strings).collect.length
    · obtain ⟨w, hw, -, hs⟩ := h1 he
      rw [hv] at hw
      cases hw
      exact triv ⟨_, hs⟩ id
    · rw [h2 he] at hv; cases hv
  case h_11 hi =>
    obtain ⟨v, hv, rfl⟩ := out h
    simp only [hi]
    have hf : Fits s (languageLength s) := Classical.byContradiction fun k => by
      rw [C43_short s k] at hv; cases hv
    obtain ⟨w, hw, hs⟩ := C43_decodes s hf
    rw [hv] at hw
    cases hw
    show Ends _ v.installable_languages ∧ _ ↔ _
    rw [hs.installable_languages, languages_end_iff]
    exact ⟨fun h => h.1, fun h => ⟨h, fun x _ => bits_end oc x "bios_language::LanguageFlags"
      (by simp [crateLayouts, BitField.width, BitField.LAYOUT])⟩⟩
  case h_12 hi =>
    obtain ⟨v, hv, rfl⟩ := out h
    simp only [hi]
    exact triv (groups_stop _ _ (Nat.le_add_left _ _)) id
  case h_13 hi =>
    obtain ⟨v, hv, rfl⟩ := out h
    simp only [hi]
    exact triv ⟨bits_end oc _ "system_event_log::LogStatus"
      (by simp [crateLayouts, BitField.width, BitField.LAYOUT]),
      fun d hd => descriptors_stop _ d (Nat.le_refl _) (descriptors_size hv d hd)⟩ id
  case h_20 hi =>
    obtain ⟨v, hv, rfl⟩ := out h
    simp only [hi]
    exact capacity_iff' oc s v hv
  case h_21 =>
    cases h
    refine triv trivial ?_
    split <;> first | exact id | (rename_i hi; simp [hi] at *; done)
  all_goals
    rename_i hi
    obtain ⟨v, hv, rfl⟩ := out h
    simp only [hi]
    exact triv trivial id

/-- C80, of a whole table: if no structure in the buffer has a hazard, every structure an iteration yields can be
worked with. -/
theorem C80_table (oc : Bool) (s s' : Structures) (items) (hb : s.buffer.length < 2 ^ 32)
    (h : Runs oc s items s')
    (hz : ∀ i p, s.idx.toNat ≤ i → PieceAt s.buffer i p → ¬ Hazard oc (p.raw s.smbios_version))
    (v : Structure) (hm : .ok v ∈ items) : Usable oc v := by
  obtain ⟨ps, hwf, hocc, -, hd⟩ := C11_tiling hb h
  have : ∃ p ∈ ps, decodeStructure oc (p.raw s.smbios_version) = .ok v := by
    rcases hd with hd | ⟨items', e, rfl, hd⟩
    · exact decoded_mem hd hm
    · rcases List.mem_append.1 hm with hm | hm
      · exact decoded_mem hd hm
      · simp at hm
  obtain ⟨p, hp, hdec⟩ := this
  refine (C80_partial oc _ v hdec).2 ?_
  have hw := hwf p hp
  obtain ⟨l1, l2, rfl⟩ := List.append_of_mem hp
  obtain ⟨b1, b2, hb', hi⟩ := hocc (by simp)
  refine hz (b1 ++ l1.flatMap Piece.bytes).length p ?_ ⟨hw, _, l2.flatMap Piece.bytes ++ b2, ?_, rfl⟩
  · simp only [List.length_append]; omega
  · rw [hb']
    simp only [List.flatMap_append, List.flatMap_cons, List.append_assoc]

/-! ### Examples -/

/-- C80, the full statement fails: contained elements of two bytes each. -/
theorem C80_full_false : ¬ C80_full := by
  intro hf
  obtain ⟨v, h1, -⟩ := exists_ok (show (decodeStructure true (bigEnclosure 5 2)).okAnd
    (fun _ => true) = true by decide +kernel)
  exact (C80_partial true _ v h1).1 (hf true _ v h1)
    (show _ ∧ _ from ⟨by decide +kernel, by decide +kernel⟩)

/-- The four hazards occur, each in a structure that decodes. -/
example : Hazard true { exampleBios with version := ⟨2, 8⟩ } ∧
    (decodeStructure true { exampleBios with version := ⟨2, 8⟩ }).okAnd (fun _ => true) = true :=
  ⟨show _ ∧ _ from ⟨by decide, fun h => absurd h (by decide)⟩, by decide +kernel⟩
example : Hazard true (manyLanguages 254) ∧ ¬ Hazard false (manyLanguages 254) ∧
    (decodeStructure true (manyLanguages 254)).okAnd (fun _ => true) = true :=
  ⟨⟨_, manyLanguages_strings 254, by rw [List.length_replicate]; decide⟩, fun ⟨l, hl, h⟩ => by
    rw [isStringList_unique hl (manyLanguages_strings 254), List.length_replicate] at h
    exact absurd h (by decide), by decide +kernel⟩
example : Hazard true exampleBattery ∧ ¬ Hazard false exampleBattery ∧
    (decodeStructure true exampleBattery).okAnd (fun _ => true) = true :=
  ⟨⟨rfl, by decide +kernel⟩, (fun h => by cases (show _ ∧ _ from h).1), by decide +kernel⟩
/-- And structures of these types without them. -/
example : ¬ Hazard true exampleBios := by
  intro h
  have h : _ ∧ (_ → _) := h
  exact absurd (h.2 (by decide)) (by decide)
example : ¬ Hazard true exampleEnclosure := by
  rintro ⟨-, -, h⟩
  revert h
  decide

end Dmi.Props
