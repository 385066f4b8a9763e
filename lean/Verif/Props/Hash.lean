import Verif.Props.EntryFields
import Verif.Proofs.HashLists
/-!
# C93: what is written to a hasher determines the value

`Structure.fed` is the derived `Hash` of a structure: the values handed to the hasher. `feed` are the bytes the
hasher receives.
-/
namespace Dmi.Props
open Spec system_slots system_event_log enclosure

/-- The byte FFh does not occur in UTF-8. -/
theorem text_no_ff {t : Str} (h : IsText t) : (0xFF : UInt8) ∉ t := by
  obtain ⟨cs, rfl⟩ := h
  intro hm
  obtain ⟨c, -, hc⟩ := List.mem_flatMap.1 hm
  have no : ∀ k : Nat, k < 255 → (0xFF : UInt8) ≠ UInt8.ofNat k := by
    intro k hk e
    have := congrArg UInt8.toNat e
    rw [UInt8.toNat_ofNat'] at this
    simp only [show (0xFF : UInt8).toNat = 255 from rfl] at this
    omega
  unfold String.utf8EncodeChar at hc
  dsimp only at hc
  split at hc
  · rcases List.mem_cons.1 hc with e | hc
    · exact no _ (by omega) e
    · cases hc
  split at hc
  · rcases List.mem_cons.1 hc with e | hc
    · exact no _ (by omega) e
    rcases List.mem_cons.1 hc with e | hc
    · exact no _ (by omega) e
    · cases hc
  split at hc
  · rcases List.mem_cons.1 hc with e | hc
    · exact no _ (by omega) e
    rcases List.mem_cons.1 hc with e | hc
    · exact no _ (by omega) e
    rcases List.mem_cons.1 hc with e | hc
    · exact no _ (by omega) e
    · cases hc
  · rcases List.mem_cons.1 hc with e | hc
    · exact no _ (by omega) e
    rcases List.mem_cons.1 hc with e | hc
    · exact no _ (by omega) e
    rcases List.mem_cons.1 hc with e | hc
    · exact no _ (by omega) e
    rcases List.mem_cons.1 hc with e | hc
    · exact no _ (by omega) e
    · cases hc

/-- The value is reported by some iteration over some table. -/
def InTable (v : Structure) : Prop :=
  ∃ oc s items s', s.buffer.length < 2 ^ 32 ∧ Runs oc s items s' ∧ .ok v ∈ items

theorem inTable_piece {v : Structure} (h : InTable v) :
    ∃ oc ver, ∃ p : Piece, p.WF ∧ p.strings.length < 2 ^ 32 ∧ decodeStructure oc (p.raw ver) = .ok v := by
  obtain ⟨oc, s, items, s', hb, h, hv⟩ := h
  obtain ⟨ps, hwf, hocc, -, hd⟩ := C11_tiling hb h
  have : ∃ p ∈ ps, decodeStructure oc (p.raw s.smbios_version) = .ok v := by
    rcases hd with hd | ⟨items', e, rfl, hd⟩
    · exact decoded_mem hd hv
    · exact decoded_mem hd (by simpa using hv)
  obtain ⟨p, hp, e⟩ := this
  refine ⟨oc, s.smbios_version, p, hwf p hp, ?_, e⟩
  obtain ⟨pre, post, hb', -⟩ := hocc (List.ne_nil_of_mem hp)
  have h1 := (List.sublist_flatten_of_mem (List.mem_map.2 ⟨p, hp, rfl⟩ : Piece.bytes p ∈ ps.map Piece.bytes)).length_le
  rw [← List.flatMap_def] at h1
  rw [hb'] at hb
  simp only [List.length_append, Piece.bytes] at hb h1
  omega

theorem inTable_reported {v : Structure} (h : InTable v) : ∃ oc ver, ReportedAt oc ver v := by
  obtain ⟨oc, ver, p, h1, -, h2⟩ := inTable_piece h
  exact ⟨oc, ver, p, h1, h2⟩

theorem lt_width {n k : Nat} (h32 : 32 ≤ n) (h : k < 2 ^ 32) : k < 2 ^ n :=
  Nat.lt_of_lt_of_le h (Nat.pow_le_pow_right (by decide) h32)

/-- The parts of a structure other than the lists of records. -/
def lessLists : Structure → Structure
  | .Enclosure x => .Enclosure { x with contained_elements := none }
  | .SystemSlots x => .SystemSlots { x with peer_devices := none }
  | .SystemEventLog x => .SystemEventLog { x with supported_event_log_type_descriptors := none }
  | v => v

theorem other_post (oc : Bool) (s : RawStructure) :
    Post (fun v => ∀ x, v = .Other x → s = x) (decodeStructure oc s) := by
  have triv {α : Type} (x : R α) (f : α → Structure) (h : ∀ a x, f a ≠ .Other x) :
      Post (fun v => ∀ x, v = .Other x → s = x) (x.map f) := Post.map fun a _ x e => absurd e (h a x)
  unfold decodeStructure
  split
  all_goals first
    | exact triv _ _ fun _ _ => nofun
    | exact Post.ok fun x e => Structure.Other.inj e

theorem inTable_valid {n : Nat} (h32 : 32 ≤ n) {v : Structure} (h : InTable v) :
    Fed.AllValid n (lessLists v).fed := by
  obtain ⟨oc, ver, p, hp, hs, hd⟩ := inTable_piece h
  have T : ∀ t ∈ fieldTexts v, (0xFF : UInt8) ∉ t := fun t ht =>
    text_no_ff (C74_valid oc _ v t hd (.field ht)).1
  have I := iterates_post oc _ v hd
  have hs' : p.strings.length < 2 ^ n := lt_width h32 hs
  have h0 : 0 < 2 ^ n := Nat.two_pow_pos n
  have raw : Fed.AllValid n (p.raw ver).fed :=
    RawStructure.fed_valid n _ (lt_width h32 (by
      have := hp.1
      show p.data.length < _
      unfold Piece.len at this
      omega)) hs'
  refine allValid_cons.2 ⟨trivial, ?_⟩
  cases v with
  | Bios x => exact bios.Bios.fed_valid n x (T _ (by simp [fieldTexts])) (T _ (by simp [fieldTexts])) (T _ (by simp [fieldTexts]))
  | System x =>
    exact system.System.fed_valid n x (T _ (by simp [fieldTexts])) (T _ (by simp [fieldTexts]))
      (T _ (by simp [fieldTexts])) (T _ (by simp [fieldTexts]))
      ((C82_system oc ver x).1 ⟨p, hp, hd⟩).uuid.2
      (fun y hy => T y (by simp [fieldTexts, hy])) (fun y hy => T y (by simp [fieldTexts, hy]))
  | BaseBoard x =>
    exact baseboard.BaseBoard.fed_valid n x (T _ (by simp [fieldTexts])) (T _ (by simp [fieldTexts]))
      (T _ (by simp [fieldTexts])) (T _ (by simp [fieldTexts]))
      (fun y hy => T y (by simp [fieldTexts, hy])) (fun y hy => T y (by simp [fieldTexts, hy]))
  | Enclosure x =>
    exact Enclosure.fed_valid n _ (T _ (by simp [fieldTexts])) (T _ (by simp [fieldTexts]))
      (T _ (by simp [fieldTexts])) (T _ (by simp [fieldTexts])) nofun
      (fun y hy => T y (by simp only at hy; simp [fieldTexts, hy]))
  | Processor x =>
    exact processor.Processor.fed_valid n x (T _ (by simp [fieldTexts])) (T _ (by simp [fieldTexts]))
      (T _ (by simp [fieldTexts])) (fun y hy => T y (by simp [fieldTexts, hy]))
      (fun y hy => T y (by simp [fieldTexts, hy])) (fun y hy => T y (by simp [fieldTexts, hy]))
  | Cache x => exact cache.Cache.fed_valid n x (T _ (by simp [fieldTexts]))
  | PortConnector x => exact port_connector.PortConnector.fed_valid n x (T _ (by simp [fieldTexts])) (T _ (by simp [fieldTexts]))
  | SystemSlots x => exact SystemSlots.fed_valid n _ (T _ (by simp [fieldTexts])) nofun
  | OemStrings x =>
    refine oem_strings.OemStrings.fed_valid n x ?_
    rw [show x.strings = .new p.strings from I]
    exact StructureStrings.fed_valid n _ hs' h0
  | SystemConfigurationOptions x =>
    refine system_configuration_options.SystemConfigurationOptions.fed_valid n x ?_
    rw [show x.strings = .new p.strings from I]
    exact StructureStrings.fed_valid n _ hs' h0
  | BiosLanguage x =>
    refine bios_language.BiosLanguage.fed_valid n x (bios_language.InstallableLanguages.fed_valid n _ ?_)
    rw [show x.installable_languages.structure_ = p.raw ver from I]
    exact raw
  | GroupAssociations x =>
    obtain ⟨-, g1, g2⟩ := (C82_group oc ver x).1 ⟨p, hp, hd⟩
    exact group_associations.GroupAssociations.fed_valid n x (T _ (by simp [fieldTexts]))
      (group_associations.GroupItems.fed_valid n _ (lt_width h32 (by omega)) (by rw [g1]; exact h0))
  | SystemEventLog x => exact SystemEventLog.fed_valid n _ (AccessMethod.fed_valid n h32 _) nofun
  | MemoryDevice x =>
    exact memory_device.MemoryDevice.fed_valid n x (T _ (by simp [fieldTexts])) (T _ (by simp [fieldTexts]))
      (T _ (by simp [fieldTexts])) (T _ (by simp [fieldTexts])) (T _ (by simp [fieldTexts]))
      (T _ (by simp [fieldTexts])) (fun y hy => T y (by simp [fieldTexts, hy]))
  | PortableBattery x =>
    refine portable_battery.PortableBattery.fed_valid n x (T _ (by simp [fieldTexts])) (T _ (by simp [fieldTexts]))
      ?_ ?_ (T _ (by simp [fieldTexts])) ?_ (T _ (by simp [fieldTexts]))
    · refine allValid_cons.2 ⟨trivial, ?_⟩
      cases hx : x.manufacture_date with
      | Basic t => exact valid_one (T t (by simp [fieldTexts, hx]))
      | SmartBatteryDataSpecification => exact allValid_append.2 ⟨valid_u16 n _, allValid_append.2 ⟨valid_u8 n _, allValid_append.2 ⟨valid_u8 n _, allValid_nil n⟩⟩⟩
      | _ => exact allValid_nil n
    · refine allValid_cons.2 ⟨trivial, ?_⟩
      cases hx : x.serial_number with
      | Basic t => exact valid_one (T t (by simp [fieldTexts, hx]))
      | SmartBatteryDataSpecification => exact valid_u16 n _
      | _ => exact allValid_nil n
    · refine allValid_cons.2 ⟨trivial, ?_⟩
      cases hx : x.device_chemistry with
      | SmartBatteryDataSpecification t => exact valid_one (T t (by simp [fieldTexts, hx]))
      | Undefined => exact valid_u8 n _
      | _ => exact allValid_nil n
  | PhysicalMemoryArray x => exact physical_memory_array.PhysicalMemoryArray.fed_valid n x
  | MemoryError32 x => exact memory_error_32.MemoryError32.fed_valid n x
  | MemoryArrayMappedAddress x => exact memory_array_mapped_address.MemoryArrayMappedAddress.fed_valid n x
  | MemoryDeviceMappedAddress x => exact memory_device_mapped_address.MemoryDeviceMappedAddress.fed_valid n x
  | BuiltInPointingDevice x => exact built_in_pointing_device.BuiltInPointingDevice.fed_valid n x
  | Other x =>
    rw [other_post oc _ _ hd x rfl] at raw
    exact raw

/-! ### The structures with lists of records -/

theorem whole_five {c : Chunks} {l : List Bytes} (h : Collects Chunks.next c l) (hs : c.size = 5)
    (hd : 5 ∣ c.rest.length) : ∀ z ∈ l, z.length = 5 := by
  induction h with
  | done _ => intro z hz; cases hz
  | step h _ ih =>
    obtain ⟨n1, rfl, rfl⟩ := chunks_next_some h
    have := List.length_pos_iff.2 n1
    intro z hz
    rcases List.mem_cons.1 hz with rfl | hz
    · rw [List.length_take]; omega
    · refine ih hs ?_ z hz
      rw [List.length_drop]; omega


theorem valid_front {n : Nat} {l m k : List Fed} (e : l = m ++ k) (h : Fed.AllValid n l) : Fed.AllValid n m :=
  (allValid_append.1 (e ▸ h)).1

/-- Peels off an option; no validity is asked of what it holds. -/
theorem opt_cases {α : Type} {n : Nat} (h8 : 8 ∣ n) (h32 : 32 ≤ n) {pre : Bytes} {f : α → List Fed} {x y : Option α}
    {r s : Bytes} (e : @feed ⟨n⟩ pre (Fed.opt f x) ++ r = @feed ⟨n⟩ pre (Fed.opt f y) ++ s) :
    (x = none ∧ y = none ∧ r = s) ∨
    ∃ a b, x = some a ∧ y = some b ∧ @feed ⟨n⟩ pre (f a) ++ r = @feed ⟨n⟩ pre (f b) ++ s := by
  have z := tag_lt h32 0
  have o := tag_lt h32 1
  cases x <;> cases y <;>
    simp only [Fed.opt, @feed_cons ⟨n⟩, @feed_nil ⟨n⟩, Fed.bytes, List.append_assoc, List.nil_append] at e
  · exact .inl ⟨rfl, rfl, (usize_split h8 z z e).2⟩
  · exact absurd (usize_split h8 z o e).1 (by decide)
  · exact absurd (usize_split h8 o z e).1 (by decide)
  · exact .inr ⟨_, _, rfl, rfl, (usize_split h8 o o e).2⟩

theorem enclosure_fed {n : Nat} (h8 : 8 ∣ n) (h32 : 32 ≤ n) {pre : Bytes} {a b : Enclosure}
    (ha : InTable (.Enclosure a)) (hb : InTable (.Enclosure b))
    (e : @feed ⟨n⟩ pre a.fed = @feed ⟨n⟩ pre b.fed) : a.eq b = true := by
  have va := (allValid_cons.1 (inTable_valid h32 ha)).2
  have vb := (allValid_cons.1 (inTable_valid h32 hb)).2
  replace va : Fed.AllValid n (Enclosure.fed { a with contained_elements := none }) := va
  replace vb : Fed.AllValid n (Enclosure.fed { b with contained_elements := none }) := vb
  rw [enc_split] at va vb
  obtain ⟨oc, ver, ra⟩ := inTable_reported ha
  obtain ⟨oc', ver', rb⟩ := inTable_reported hb
  obtain ⟨_, _, _, -, -, -, V⟩ := (C82_enclosure ..).1 ra
  obtain ⟨_, _, _, -, -, -, W⟩ := (C82_enclosure ..).1 rb
  rw [enc_split, enc_split, @feed_append ⟨n⟩, @feed_append ⟨n⟩, @feed_append ⟨n⟩, @feed_append ⟨n⟩] at e
  obtain ⟨h1, e⟩ := encFront_det n h8 h32 pre a b _ _ (allValid_append.1 va).1 (allValid_append.1 vb).1 e
  have ska : Fed.AllValid n (Fed.opt (fun y => [.str y]) a.sku_number) := (allValid_append.1 (allValid_append.1 va).2).2
  have skb : Fed.AllValid n (Fed.opt (fun y => [.str y]) b.sku_number) := (allValid_append.1 (allValid_append.1 vb).2).2
  have done : a.sku_number = b.sku_number →
      ({ a with contained_elements := none } : Enclosure) = { b with contained_elements := none } := by
    intro h
    cases a; cases b
    simp only [Enclosure.mk.injEq] at h1 h ⊢
    simp only [h1, h, and_self]
  have sku : @feed ⟨n⟩ pre (Fed.opt (fun y => [.str y]) a.sku_number) =
      @feed ⟨n⟩ pre (Fed.opt (fun y => [.str y]) b.sku_number) → a.sku_number = b.sku_number := fun h =>
    (det_opt det_str n h8 h32 pre _ _ [] [] ska skb (by rw [h])).1
  unfold Enclosure.eq
  rw [Bool.and_eq_true, decide_eq_true_iff]
  rcases opt_cases h8 h32 e with ⟨h2, h3, e⟩ | ⟨x, y, hx, hy, e⟩
  · exact ⟨done (sku e), by rw [h2, h3]; rfl⟩
  · have small : ∀ {n c l} {v : Enclosure} (V : EnclosureValue n c l v) {x}, v.contained_elements = some x →
        x.chunks.rest.length < 256 := by
      intro n c l v V x hx
      obtain ⟨-, -, h⟩ := V.contained_elements.2 x hx
      split at h
      · rw [h]; exact (by decide : 0 < 256)
      · rw [h.2]; exact Nat.mod_lt _ (by decide)
    have px := (elements_size V hx).1
    obtain ⟨l, hl, el, bl⟩ := chunks_list (n := n) px
    obtain ⟨m, hm, em, bm⟩ := chunks_list (n := n) (elements_size W hy).1
    have tail : ∀ o : Option Str, Tail n (@feed ⟨n⟩ pre (Fed.opt (fun y => [.str y]) o)) := by
      intro o
      cases o with
      | none => exact .inl (List.append_nil _)
      | some t => exact .inr ⟨_, rfl⟩
    simp only [ContainedElements.fed, @feed_cons ⟨n⟩, @feed_nil ⟨n⟩, Fed.bytes, List.append_assoc, List.nil_append,
      List.cons_append, el, em] at e
    obtain ⟨h4, h5, h6, h7⟩ := elements_split h8 h32
      (fun z hz => Nat.lt_of_le_of_lt (bl z hz).2.2 (small V hx))
      (fun z hz => Nat.lt_of_le_of_lt (bm z hz).2.2 (small W hy)) (tail _) (tail _) e
    refine ⟨done (sku h7), ?_⟩
    rw [hx, hy]
    show ContainedElements.eq x y = true
    unfold ContainedElements.eq
    rw [Bool.and_eq_true, Bool.and_eq_true, beq_iff_eq, beq_iff_eq]
    subst h4
    exact ⟨⟨(chunks_eq_iff px).2 ⟨l, hl, hm⟩, h5⟩, h6⟩

theorem slots_fed {n : Nat} (h8 : 8 ∣ n) (h32 : 32 ≤ n) {pre r s : Bytes} {a b : SystemSlots}
    (ha : InTable (.SystemSlots a)) (hb : InTable (.SystemSlots b))
    (e : @feed ⟨n⟩ pre a.fed ++ r = @feed ⟨n⟩ pre b.fed ++ s) : a.eq b = true ∧ r = s := by
  have va := (allValid_cons.1 (inTable_valid h32 ha)).2
  have vb := (allValid_cons.1 (inTable_valid h32 hb)).2
  replace va : Fed.AllValid n (SystemSlots.fed { a with peer_devices := none }) := va
  replace vb : Fed.AllValid n (SystemSlots.fed { b with peer_devices := none }) := vb
  rw [slot_split] at va vb
  obtain ⟨oc, ver, ra⟩ := inTable_reported ha
  obtain ⟨oc', ver', rb⟩ := inTable_reported hb
  obtain ⟨_, _, -, -, -, -, -, -, -, -, V⟩ := (C82_slots ..).1 ra
  obtain ⟨_, _, -, -, -, -, -, -, -, -, W⟩ := (C82_slots ..).1 rb
  rw [slot_split, slot_split, @feed_append ⟨n⟩, @feed_append ⟨n⟩, @feed_append ⟨n⟩, @feed_append ⟨n⟩,
    List.append_assoc, List.append_assoc, List.append_assoc, List.append_assoc] at e
  obtain ⟨h1, e⟩ := slotFront_det n h8 h32 pre a b _ _ (allValid_append.1 va).1 (allValid_append.1 vb).1 e
  have ska : Fed.AllValid n (slotBack a) := (allValid_append.1 (allValid_append.1 va).2).2
  have skb : Fed.AllValid n (slotBack b) := (allValid_append.1 (allValid_append.1 vb).2).2
  have done : @feed ⟨n⟩ pre (slotBack a) ++ r = @feed ⟨n⟩ pre (slotBack b) ++ s →
      ({ a with peer_devices := none } : SystemSlots) = { b with peer_devices := none } ∧ r = s := by
    intro h
    obtain ⟨h, h'⟩ := slotBack_det n h8 h32 pre _ _ r s ska skb h
    refine ⟨?_, h'⟩
    cases a; cases b
    simp only [SystemSlots.mk.injEq, Prod.mk.injEq] at h1 h ⊢
    simp only [h1, h, and_self]
  unfold SystemSlots.eq
  rw [Bool.and_eq_true, decide_eq_true_iff]
  rcases opt_cases h8 h32 e with ⟨h2, h3, e⟩ | ⟨x, y, hx, hy, e⟩
  · exact ⟨⟨(done e).1, by rw [h2, h3]; rfl⟩, (done e).2⟩
  · obtain ⟨sx, lx⟩ := V.peer_devices.2 x hx
    obtain ⟨sy, ly⟩ := W.peer_devices.2 y hy
    have px : 0 < x.chunks.size := by omega
    have tail : ∀ c : SystemSlots, ∃ k t, k.toNat < 5 ∧ @feed ⟨n⟩ pre (slotBack c) = k :: t := by
      intro c
      unfold slotBack
      rw [List.flatten_cons, @feed_append ⟨n⟩]
      obtain ⟨t, ht⟩ := usizeBytes_small h32 0 (by decide)
      obtain ⟨t', ht'⟩ := usizeBytes_small h32 1 (by decide)
      cases c.slot_information with
      | none =>
        simp only [Fed.opt, @feed_cons ⟨n⟩, Fed.bytes, show (0 : UInt16).toNat = 0 from rfl, ht, List.cons_append]
        exact ⟨_, _, (by decide : (UInt8.ofNat 0).toNat < 5), rfl⟩
      | some k =>
        simp only [Fed.opt, @feed_cons ⟨n⟩, Fed.bytes, show (1 : UInt16).toNat = 1 from rfl, ht', List.cons_append]
        exact ⟨_, _, (by decide : (UInt8.ofNat 1).toNat < 5), rfl⟩
    obtain ⟨l, hl, el, -⟩ := chunks_list (n := n) px
    obtain ⟨m, hm, em, -⟩ := chunks_list (n := n) (c := y.chunks) (by omega)
    obtain ⟨k, t, hk, ek⟩ := tail a
    obtain ⟨k', t', hk', ek'⟩ := tail b
    simp only [PeerDevices.fed, @feed_cons ⟨n⟩, @feed_nil ⟨n⟩, Fed.bytes, List.append_nil, el, em, ek, ek', List.cons_append] at e
    obtain ⟨h4, h5⟩ := peers_split h8 h32 (whole_five hl sx ⟨_, lx⟩) (whole_five hm sy ⟨_, ly⟩) hk hk' e
    have D := done (by rw [ek, ek', List.cons_append, List.cons_append, h5])
    refine ⟨⟨D.1, ?_⟩, D.2⟩
    rw [hx, hy]
    show PeerDevices.eq x y = true
    subst h4
    exact (chunks_eq_iff px).2 ⟨l, hl, hm⟩

theorem log_fed {n : Nat} (h8 : 8 ∣ n) (h32 : 32 ≤ n) {pre : Bytes} {a b : SystemEventLog}
    (ha : InTable (.SystemEventLog a)) (hb : InTable (.SystemEventLog b))
    (e : @feed ⟨n⟩ pre a.fed = @feed ⟨n⟩ pre b.fed) : a.eq b = true := by
  have va := (allValid_cons.1 (inTable_valid h32 ha)).2
  have vb := (allValid_cons.1 (inTable_valid h32 hb)).2
  replace va : Fed.AllValid n (SystemEventLog.fed { a with supported_event_log_type_descriptors := none }) := va
  replace vb : Fed.AllValid n (SystemEventLog.fed { b with supported_event_log_type_descriptors := none }) := vb
  rw [log_split] at va vb
  obtain ⟨oc, ver, ra⟩ := inTable_reported ha
  obtain ⟨oc', ver', rb⟩ := inTable_reported hb
  have V := ((C82_event_log ..).1 ra).descriptors
  have W := ((C82_event_log ..).1 rb).descriptors
  rw [log_split, log_split, @feed_append ⟨n⟩, @feed_append ⟨n⟩] at e
  obtain ⟨h1, e⟩ := logFront_det n h8 h32 pre a b _ _ (allValid_append.1 va).1 (allValid_append.1 vb).1 e
  unfold SystemEventLog.eq
  rw [Bool.and_eq_true, decide_eq_true_iff]
  refine ⟨h1, ?_⟩
  replace e := congrArg (· ++ ([] : Bytes)) e
  rcases opt_cases h8 h32 e with ⟨h2, h3, e⟩ | ⟨x, y, hx, hy, e⟩
  · simp only [h2, h3]; rfl
  · simp only [hx, hy]
    obtain ⟨p1, -, -, p4, -⟩ := V x hx
    obtain ⟨q1, -, -, q4, -⟩ := W y hy
    simp only [SupportedEventLogTypeDescriptors.fed, @feed_cons ⟨n⟩, @feed_nil ⟨n⟩, Fed.bytes, List.append_nil] at e
    exact @chunks_eq_of_hash ⟨n⟩ h8 (Nat.lt_of_lt_of_le (by decide : 0 < 32) h32) _ _ p1 q1 (lt_width h32 (by omega)) (lt_width h32 (by omega)) e

/-! ### C93 -/

/-- The discriminant is written first. -/
theorem fed_idx {n : Nat} (h8 : 8 ∣ n) (h32 : 32 ≤ n) {pre r s : Bytes} {v w : Structure}
    (e : @feed ⟨n⟩ pre v.fed ++ r = @feed ⟨n⟩ pre w.fed ++ s) :
    v.ctorIdx = w.ctorIdx ∧ @feed ⟨n⟩ pre v.fields ++ r = @feed ⟨n⟩ pre w.fields ++ s := by
  simp only [Structure.fed, @feed_cons ⟨n⟩, Fed.bytes, List.append_assoc] at e
  obtain ⟨h, e⟩ := usize_split h8 (tag_lt h32 _) (tag_lt h32 _) e
  refine ⟨?_, e⟩
  rwa [UInt16.toNat_ofNat', UInt16.toNat_ofNat', Nat.mod_eq_of_lt (Structure.idx_lt v),
    Nat.mod_eq_of_lt (Structure.idx_lt w)] at h

theorem same_of_valid {n : Nat} (h8 : 8 ∣ n) (h32 : 32 ≤ n) {pre r s : Bytes} {v w : Structure}
    (va : Fed.AllValid n v.fed) (vb : Fed.AllValid n w.fed) (hv : InTable v)
    (e : @feed ⟨n⟩ pre v.fed ++ r = @feed ⟨n⟩ pre w.fed ++ s) : v.eq w = true ∧ r = s := by
  obtain ⟨h1, h2⟩ := Structure.fed_det n h8 h32 pre v w r s va vb e
  obtain ⟨oc, ver, rv⟩ := inTable_reported hv
  replace h1 : v = w := h1
  subst h1
  exact ⟨(C84_equality rv rv).2 (.inl rfl), h2⟩

/-- C93: two structures of tables write the same bytes to a hasher exactly if they are equal. `n` is the width of
`usize`, `pre` what the crate `uuid` writes before the bytes of a UUID. -/
theorem C93_structure (n : Nat) (h8 : 8 ∣ n) (h32 : 32 ≤ n) (pre : Bytes) {v w : Structure} (hv : InTable v)
    (hw : InTable w) : @feed ⟨n⟩ pre v.fed = @feed ⟨n⟩ pre w.fed ↔ v.eq w = true := by
  constructor
  · intro e
    replace e := congrArg (· ++ ([] : Bytes)) e
    obtain ⟨hi, ef⟩ := fed_idx h8 h32 e
    rw [List.append_nil, List.append_nil] at ef
    have vv := inTable_valid h32 hv
    have vw := inTable_valid h32 hw
    cases v <;> cases w <;> first | exact absurd hi (Nat.ne_of_beq_eq_false rfl) | skip
    case Enclosure.Enclosure => exact enclosure_fed h8 h32 hv hw ef
    case SystemSlots.SystemSlots => exact (slots_fed h8 h32 (r := []) (s := []) hv hw (congrArg (· ++ []) ef)).1
    case SystemEventLog.SystemEventLog => exact log_fed h8 h32 hv hw ef
    all_goals exact (same_of_valid h8 h32 vv vw hv e).1
  · intro heq
    obtain ⟨oc, ver, rv⟩ := inTable_reported hv
    obtain ⟨oc', ver', rw'⟩ := inTable_reported hw
    obtain rfl | h := (C84_equality rv rw').1 heq
    · rfl
    · cases v <;> cases w <;> first | exact h.elim | skip
      rename_i a b
      obtain ⟨h1, d, e, h2, h3, h4, h5⟩ := h
      have hf : logFront a = logFront b := by
        have := congrArg logFront h1
        exact this
      have hc : ∀ c : Chunks, c.rest = [] → @Chunks.hash ⟨n⟩ c = [] := by
        rintro ⟨r, k⟩ rfl
        rfl
      simp only [Structure.fed, Structure.fields, log_split, hf, h2, h3, @feed_cons ⟨n⟩, @feed_append ⟨n⟩, Fed.opt,
        SupportedEventLogTypeDescriptors.fed, Fed.bytes, hc _ h4, hc _ h5]
      rfl

/-- C93: the items of the iterators, and the structures as they are stored, can be told from what they write, and so
can where it ends. -/
theorem C93_items (n : Nat) (h8 : 8 ∣ n) (h32 : 32 ≤ n) (pre r s : Bytes) :
    (∀ a b : ContainedElement, @feed ⟨n⟩ pre a.fed ++ r = @feed ⟨n⟩ pre b.fed ++ s → a = b ∧ r = s) ∧
    (∀ a b : Device, @feed ⟨n⟩ pre a.fed ++ r = @feed ⟨n⟩ pre b.fed ++ s → a = b ∧ r = s) ∧
    (∀ a b : group_associations.GroupItem, @feed ⟨n⟩ pre a.fed ++ r = @feed ⟨n⟩ pre b.fed ++ s → a = b ∧ r = s) ∧
    (∀ a b : EventLogTypeDescriptor, @feed ⟨n⟩ pre a.fed ++ r = @feed ⟨n⟩ pre b.fed ++ s → a = b ∧ r = s) ∧
    (∀ a b : RawStructure, a.data.length < 2 ^ n → a.strings.length < 2 ^ n → b.data.length < 2 ^ n →
      b.strings.length < 2 ^ n → @feed ⟨n⟩ pre a.fed ++ r = @feed ⟨n⟩ pre b.fed ++ s → a = b ∧ r = s) :=
  ⟨fun a b => ContainedElement.fed_det n h8 h32 pre a b r s (ContainedElement.fed_valid n a) (ContainedElement.fed_valid n b),
    fun a b => Device.fed_det n h8 h32 pre a b r s (Device.fed_valid n a) (Device.fed_valid n b),
    fun a b => group_associations.GroupItem.fed_det n h8 h32 pre a b r s (group_associations.GroupItem.fed_valid n a)
      (group_associations.GroupItem.fed_valid n b),
    fun a b => EventLogTypeDescriptor.fed_det n h8 h32 pre a b r s (EventLogTypeDescriptor.fed_valid n a)
      (EventLogTypeDescriptor.fed_valid n b),
    fun a b a1 a2 b1 b2 => RawStructure.fed_det n h8 h32 pre a b r s (RawStructure.fed_valid n a a1 a2)
      (RawStructure.fed_valid n b b1 b2)⟩

/-- The arrays in an entry point have the lengths their types say. -/
def ArraysOfFive : EntryPoint → Prop
  | .V2 x => x.formatted.length = 5 ∧ x.dmi_signature.length = 5
  | .V3 x => x.signature.length = 5

/-- C93: the same for entry points and for iterators over a table. -/
theorem C93_entry (n : Nat) (h8 : 8 ∣ n) (h32 : 32 ≤ n) (pre r s : Bytes) :
    (∀ a b : EntryPoint, ArraysOfFive a → ArraysOfFive b →
      @feed ⟨n⟩ pre a.fed ++ r = @feed ⟨n⟩ pre b.fed ++ s → a = b ∧ r = s) ∧
    (∀ a b : Structures, a.buffer.length < 2 ^ n → b.buffer.length < 2 ^ n →
      @feed ⟨n⟩ pre a.fed ++ r = @feed ⟨n⟩ pre b.fed ++ s → a = b ∧ r = s) := by
  have five : 5 < 2 ^ n := lt_width h32 (by decide)
  have ok : ∀ a : EntryPoint, ArraysOfFive a → Fed.AllValid n a.fed := by
    intro a h
    refine allValid_cons.2 ⟨trivial, ?_⟩
    cases a with
    | V2 x =>
      obtain ⟨h1, h2⟩ := h
      exact EntryPointV2.fed_valid n x (by omega) (by omega)
    | V3 x =>
      replace h : x.signature.length = 5 := h
      exact EntryPointV3.fed_valid n x (by omega)
  exact ⟨fun a b ha hb => EntryPoint.fed_det n h8 h32 pre a b r s (ok a ha) (ok b hb),
    fun a b ha hb => Structures.fed_det n h8 h32 pre a b r s (Structures.fed_valid n a ha)
      (Structures.fed_valid n b hb)⟩

/-- C93: entry points that were accepted have such arrays. -/
theorem C93_accepted {b : Bytes} {e : EntryPoint} (h : EntryPoint.search b = .ok e) : ArraysOfFive e := by
  obtain ⟨o, F, _, _, c⟩ := C95_fields h
  rcases c with ⟨_, p, rfl, f⟩ | ⟨_, p, rfl, f⟩
  · exact ⟨by rw [f.formatted]; rfl, by rw [f.dmi_signature]; rfl⟩
  · exact (by rw [f.signature]; rfl : p.signature.length = 5)

/-! ### C94: several structures one after the other -/

/-- C94 as one would have it: sequences of as many structures write the same bytes only if they are equal one by
one. It fails: a list of event types does not say where it ends. -/
def C94_full : Prop := ∀ (n : Nat), 8 ∣ n → 32 ≤ n → ∀ (pre : Bytes) (vs ws : List Structure),
  (∀ v ∈ vs, InTable v) → (∀ w ∈ ws, InTable w) → vs.length = ws.length →
  @feed ⟨n⟩ pre (vs.flatMap Structure.fed) = @feed ⟨n⟩ pre (ws.flatMap Structure.fed) →
  ∀ p ∈ vs.zip ws, p.1.eq p.2 = true

/-- Not an enclosure with contained elements and not an event log with a list of event types. -/
def Closed : Structure → Prop
  | .Enclosure x => x.contained_elements = none
  | .SystemEventLog x => x.supported_event_log_type_descriptors = none
  | _ => True

/-- C94: where such a structure ends shows from what it writes. -/
theorem C94_prefix_partial (n : Nat) (h8 : 8 ∣ n) (h32 : 32 ≤ n) (pre r s : Bytes) {v w : Structure}
    (hv : InTable v) (hw : InTable w) (cv : Closed v) (cw : Closed w)
    (e : @feed ⟨n⟩ pre v.fed ++ r = @feed ⟨n⟩ pre w.fed ++ s) : v.eq w = true ∧ r = s := by
  obtain ⟨hi, ef⟩ := fed_idx h8 h32 e
  have vv := inTable_valid h32 hv
  have vw := inTable_valid h32 hw
  cases v <;> cases w <;> first | exact absurd hi (Nat.ne_of_beq_eq_false rfl) | skip
  case SystemSlots.SystemSlots => exact slots_fed h8 h32 hv hw ef
  case Enclosure.Enclosure a b =>
    rw [show lessLists (.Enclosure a) = .Enclosure a by
      cases a; cases (show _ = none from cv); rfl] at vv
    rw [show lessLists (.Enclosure b) = .Enclosure b by
      cases b; cases (show _ = none from cw); rfl] at vw
    exact same_of_valid h8 h32 vv vw hv e
  case SystemEventLog.SystemEventLog a b =>
    rw [show lessLists (.SystemEventLog a) = .SystemEventLog a by
      cases a; cases (show _ = none from cv); rfl] at vv
    rw [show lessLists (.SystemEventLog b) = .SystemEventLog b by
      cases b; cases (show _ = none from cw); rfl] at vw
    exact same_of_valid h8 h32 vv vw hv e
  all_goals exact same_of_valid h8 h32 vv vw hv e

/-- C94 for sequences of such structures. -/
theorem C94_sequence_partial (n : Nat) (h8 : 8 ∣ n) (h32 : 32 ≤ n) (pre : Bytes) :
    ∀ (vs ws : List Structure), (∀ v ∈ vs, InTable v ∧ Closed v) → (∀ w ∈ ws, InTable w ∧ Closed w) →
    vs.length = ws.length →
    @feed ⟨n⟩ pre (vs.flatMap Structure.fed) = @feed ⟨n⟩ pre (ws.flatMap Structure.fed) →
    ∀ p ∈ vs.zip ws, p.1.eq p.2 = true := by
  intro vs
  induction vs with
  | nil => intro ws _ _ _ _ p hp; rw [List.zip_nil_left] at hp; cases hp
  | cons v vs ih =>
    intro ws hv hw h e
    cases ws with
    | nil => cases h
    | cons w ws =>
      rw [List.flatMap_cons, List.flatMap_cons, @feed_append ⟨n⟩, @feed_append ⟨n⟩] at e
      have ⟨hv1, hv2⟩ := hv v List.mem_cons_self
      have ⟨hw1, hw2⟩ := hw w List.mem_cons_self
      obtain ⟨h1, e⟩ := C94_prefix_partial n h8 h32 pre _ _ hv1 hw1 hv2 hw2 e
      intro p hp
      rcases List.mem_cons.1 hp with rfl | hp
      · exact h1
      · exact ih ws (fun v h => hv v (.tail _ h)) (fun w h => hw w (.tail _ h)) (Nat.succ.inj h) e p hp

/-- C94 for sequences of such structures with any structure as the last one. -/
theorem C94_last_partial (n : Nat) (h8 : 8 ∣ n) (h32 : 32 ≤ n) (pre : Bytes) {x y : Structure} (hx : InTable x)
    (hy : InTable y) : ∀ (vs ws : List Structure), (∀ v ∈ vs, InTable v ∧ Closed v) →
    (∀ w ∈ ws, InTable w ∧ Closed w) → vs.length = ws.length →
    @feed ⟨n⟩ pre ((vs ++ [x]).flatMap Structure.fed) = @feed ⟨n⟩ pre ((ws ++ [y]).flatMap Structure.fed) →
    x.eq y = true ∧ ∀ p ∈ vs.zip ws, p.1.eq p.2 = true := by
  intro vs
  induction vs with
  | nil =>
    intro ws _ _ h e
    cases ws with
    | nil =>
      simp only [List.nil_append, List.flatMap_cons, List.flatMap_nil, List.append_nil] at e
      exact ⟨(C93_structure n h8 h32 pre hx hy).1 e, fun p hp => by cases hp⟩
    | cons => cases h
  | cons v vs ih =>
    intro ws hv hw h e
    cases ws with
    | nil => cases h
    | cons w ws =>
      rw [List.cons_append, List.cons_append, List.flatMap_cons, List.flatMap_cons, @feed_append ⟨n⟩,
        @feed_append ⟨n⟩] at e
      have ⟨hv1, hv2⟩ := hv v List.mem_cons_self
      have ⟨hw1, hw2⟩ := hw w List.mem_cons_self
      obtain ⟨h1, e⟩ := C94_prefix_partial n h8 h32 pre _ _ hv1 hw1 hv2 hw2 e
      obtain ⟨h2, h3⟩ := ih ws (fun v h => hv v (.tail _ h)) (fun w h => hw w (.tail _ h)) (Nat.succ.inj h) e
      refine ⟨h2, fun p hp => ?_⟩
      rcases List.mem_cons.1 hp with rfl | hp
      · exact h1
      · exact h3 p hp

/-! ### Examples -/

theorem inTable_of {v : Structure} (p : Piece) (hp : p.WF) (hl : p.bytes.length + 4 < 2 ^ 32) (ver : SmbiosVersion)
    (h : decodeStructure true (p.raw ver) = .ok v) : InTable v := by
  obtain ⟨b, n, items, hb, hc, hv⟩ := (C82_table true ver v).2 ⟨p, hp, hl, h⟩
  obtain ⟨s', hr⟩ := collects_runs hc
  exact ⟨true, _, items, s', by show b.length < _; omega, hr, hv⟩

/-- A BIOS structure of version 2.1. -/
def hashBios : Piece := ⟨0, 0, List.replicate 14 0, [0, 0]⟩
/-- An event log with a single descriptor of eleven bytes. -/
def hashLog1 : Piece := logPiece 1 11 [0, 0, 65, 66, 67, 68, 69, 70, 71, 255, 49]
/-- An event log without descriptors. -/
def hashLog0 : Piece := logPiece 0 11 []
/-- A group named `ABCDEFG` of 49 bytes. -/
def hashGroup : Piece := ⟨14, 0, [1, 0, 0, 0, 255, 255, 0, 0, 255] ++ List.replicate 41 0, [65, 66, 67, 68, 69, 70, 71, 0, 0]⟩

/-- What the structures decode to. -/
def decoded (p : Piece) : Structure :=
  match decodeStructure true (p.raw ⟨2, 1⟩) with | .ok v => v | _ => .Other (p.raw ⟨2, 1⟩)

theorem hash_bios : InTable (decoded hashBios) :=
  inTable_of hashBios (plain_wf (by decide)) (by decide) ⟨2, 1⟩ (by decide +kernel)
theorem hash_log1 : InTable (decoded hashLog1) :=
  inTable_of hashLog1 (plain_wf (by decide)) (by decide) ⟨2, 1⟩ (by decide +kernel)
theorem hash_log0 : InTable (decoded hashLog0) :=
  inTable_of hashLog0 (plain_wf (by decide)) (by decide) ⟨2, 1⟩ (by decide +kernel)
theorem hash_group : InTable (decoded hashGroup) :=
  inTable_of hashGroup ⟨by decide, by
    exact ends_cons (by decide) (ends_cons (by decide) (ends_cons (by decide) (ends_cons (by decide)
      (ends_cons (by decide) (ends_cons (by decide) (ends_cons (by decide) ends_nil))))))⟩ (by decide) ⟨2, 1⟩
    (by decide +kernel)

/-- C94: an event log with one event type and a BIOS structure write what the same event log without event types
and a group of structures write. -/
theorem C94_full_false : ¬ C94_full := by
  intro h
  have := h 64 (by decide) (by decide) [] [decoded hashLog1, decoded hashBios] [decoded hashLog0, decoded hashGroup]
    (by intro v hv; simp only [List.mem_cons, List.not_mem_nil, or_false] at hv
        rcases hv with rfl | rfl
        · exact hash_log1
        · exact hash_bios)
    (by intro v hv; simp only [List.mem_cons, List.not_mem_nil, or_false] at hv
        rcases hv with rfl | rfl
        · exact hash_log0
        · exact hash_group)
    rfl (by decide +kernel) _ List.mem_cons_self
  exact absurd this (by decide +kernel)

/-- The two logs alone write different bytes. -/
example : @feed ⟨64⟩ [] (decoded hashLog1).fed ≠ @feed ⟨64⟩ [] (decoded hashLog0).fed := fun e =>
  absurd ((C93_structure 64 (by decide) (by decide) [] hash_log1 hash_log0).1 e) (by decide +kernel)

/-- Entry points as they are read have such arrays. -/
example : ArraysOfFive (.V3 ⟨[0x5F, 0x53, 0x4D, 0x33, 0x5F], 0, 24, 3, 0, 0, 0, 0, 9, 0⟩) := rfl

/-- The other two meet the hypotheses of the partial results. -/
example : Closed (decoded hashBios) ∧ Closed (decoded hashGroup) := by
  constructor
  · rw [show decoded hashBios = .Bios _ from rfl]; trivial
  · trivial

end Dmi.Props
