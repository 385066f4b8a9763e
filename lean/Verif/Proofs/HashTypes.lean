import Verif.Model.Hash
import Verif.Proofs.HashGood
/-!
# What the derived `Hash` of each type writes determines the value

Written by `tools/gen_hash.py`. Values that contain one of the three chunked iterators are not meant
(`Fed.Valid`).
-/
namespace Dmi

theorem bios.RomSize.fed_det : Det bios.RomSize.fed id := by
  refine Det.of (
    (det_u8.on bios.RomSize.basic).cons <|
    ((det_opt det_u16).on bios.RomSize.extended).cons <|
    det_nil) fun a b e => ?_
  cases a; cases b
  simpa only [id, Prod.mk.injEq, and_true, bios.RomSize.mk.injEq] using e

theorem bios.RomSize.fed_valid (n : Nat) (x : bios.RomSize) : Fed.AllValid n x.fed :=
  allValid_append.2 ⟨valid_u8 n _,
  allValid_append.2 ⟨valid_opt fun _ _ => valid_u16 n _,
  allValid_nil n⟩⟩

theorem bios.Characteristics.fed_det : Det bios.Characteristics.fed id := by
  exact (det_u64.on bios.Characteristics.value).of fun a b e => by cases a; cases b; exact congrArg _ e

theorem bios.Characteristics.fed_valid (n : Nat) (x : bios.Characteristics) : Fed.AllValid n x.fed :=
  valid_u64 n _

theorem bios.CharacteristicsExtension1.fed_det : Det bios.CharacteristicsExtension1.fed id := by
  exact (det_u8.on bios.CharacteristicsExtension1.value).of fun a b e => by cases a; cases b; exact congrArg _ e

theorem bios.CharacteristicsExtension1.fed_valid (n : Nat) (x : bios.CharacteristicsExtension1) : Fed.AllValid
    n x.fed :=
  valid_u8 n _

theorem bios.CharacteristicsExtension2.fed_det : Det bios.CharacteristicsExtension2.fed id := by
  exact (det_u8.on bios.CharacteristicsExtension2.value).of fun a b e => by cases a; cases b; exact congrArg _ e

theorem bios.CharacteristicsExtension2.fed_valid (n : Nat) (x : bios.CharacteristicsExtension2) : Fed.AllValid
    n x.fed :=
  valid_u8 n _

theorem bios.BiosRevision.fed_det : Det bios.BiosRevision.fed id := by
  refine Det.of (
    (det_u8.on bios.BiosRevision.major).cons <|
    (det_u8.on bios.BiosRevision.minor).cons <|
    det_nil) fun a b e => ?_
  cases a; cases b
  simpa only [id, Prod.mk.injEq, and_true, bios.BiosRevision.mk.injEq] using e

theorem bios.BiosRevision.fed_valid (n : Nat) (x : bios.BiosRevision) : Fed.AllValid n x.fed :=
  allValid_append.2 ⟨valid_u8 n _,
  allValid_append.2 ⟨valid_u8 n _,
  allValid_nil n⟩⟩

theorem bios.FirmwareRevision.fed_det : Det bios.FirmwareRevision.fed id := by
  refine Det.of (
    (det_u8.on bios.FirmwareRevision.major).cons <|
    (det_u8.on bios.FirmwareRevision.minor).cons <|
    det_nil) fun a b e => ?_
  cases a; cases b
  simpa only [id, Prod.mk.injEq, and_true, bios.FirmwareRevision.mk.injEq] using e

theorem bios.FirmwareRevision.fed_valid (n : Nat) (x : bios.FirmwareRevision) : Fed.AllValid n x.fed :=
  allValid_append.2 ⟨valid_u8 n _,
  allValid_append.2 ⟨valid_u8 n _,
  allValid_nil n⟩⟩

theorem bios.Bios.fed_det : Det bios.Bios.fed id := by
  refine Det.of (
    (det_u16.on bios.Bios.handle).cons <|
    (det_str.on bios.Bios.vendor).cons <|
    (det_str.on bios.Bios.bios_version).cons <|
    (det_u16.on bios.Bios.bios_starting_address_segment).cons <|
    (det_str.on bios.Bios.bios_release_date).cons <|
    (bios.RomSize.fed_det.on bios.Bios.rom_size).cons <|
    (bios.Characteristics.fed_det.on bios.Bios.bios_characteristics).cons <|
    ((det_opt bios.CharacteristicsExtension1.fed_det).on bios.Bios.bios_characteristics_exttension_1).cons <|
    ((det_opt bios.CharacteristicsExtension2.fed_det).on bios.Bios.bios_characteristics_exttension_2).cons <|
    ((det_opt bios.BiosRevision.fed_det).on bios.Bios.bios_revision).cons <|
    ((det_opt bios.FirmwareRevision.fed_det).on bios.Bios.firmware_revision).cons <|
    det_nil) fun a b e => ?_
  cases a; cases b
  simpa only [id, Prod.mk.injEq, and_true, bios.Bios.mk.injEq] using e

theorem bios.Bios.fed_valid (n : Nat) (x : bios.Bios) (h1 : (0xFF : UInt8) ∉ x.vendor) (h2 : (0xFF : UInt8) ∉
    x.bios_version) (h3 : (0xFF : UInt8) ∉ x.bios_release_date) : Fed.AllValid n x.fed :=
  allValid_append.2 ⟨valid_u16 n _,
  allValid_append.2 ⟨valid_one h1,
  allValid_append.2 ⟨valid_one h2,
  allValid_append.2 ⟨valid_u16 n _,
  allValid_append.2 ⟨valid_one h3,
  allValid_append.2 ⟨bios.RomSize.fed_valid n _,
  allValid_append.2 ⟨bios.Characteristics.fed_valid n _,
  allValid_append.2 ⟨valid_opt fun _ _ => bios.CharacteristicsExtension1.fed_valid n _,
  allValid_append.2 ⟨valid_opt fun _ _ => bios.CharacteristicsExtension2.fed_valid n _,
  allValid_append.2 ⟨valid_opt fun _ _ => bios.BiosRevision.fed_valid n _,
  allValid_append.2 ⟨valid_opt fun _ _ => bios.FirmwareRevision.fed_valid n _,
  allValid_nil n⟩⟩⟩⟩⟩⟩⟩⟩⟩⟩⟩

theorem system.WakeupType.idx_lt (x : system.WakeupType) : x.ctorIdx < 65536 := by
  cases x <;> exact Nat.le_of_ble_eq_true rfl

theorem system.WakeupType.fed_det : Det system.WakeupType.fed id := by
  intro n h8 h32 pre a b r s va vb e
  replace e := idx_step h8 h32 (system.WakeupType.idx_lt a) (system.WakeupType.idx_lt b) va vb e
  clear va vb; obtain ⟨h, va, vb, e⟩ := e
  cases a <;> cases b <;> first | exact absurd h (Nat.ne_of_beq_eq_false rfl) | skip
  · exact ⟨rfl, e⟩
  · exact ⟨rfl, e⟩
  · exact ⟨rfl, e⟩
  · exact ⟨rfl, e⟩
  · exact ⟨rfl, e⟩
  · exact ⟨rfl, e⟩
  · exact ⟨rfl, e⟩
  · exact ⟨rfl, e⟩
  · exact ⟨rfl, e⟩
  · obtain ⟨h1, hr⟩ := det_u8 n h8 h32 pre _ _ r s va vb e
    cases h1
    exact ⟨rfl, hr⟩

theorem system.WakeupType.fed_valid (n : Nat) (x : system.WakeupType) : Fed.AllValid n x.fed := by
  refine allValid_cons.2 ⟨trivial, ?_⟩
  cases x <;> first | exact allValid_nil n | exact valid_u8 n _

theorem system.System.fed_det : Det system.System.fed id := by
  refine Det.of (
    (det_u16.on system.System.handle).cons <|
    (det_str.on system.System.manufacturer).cons <|
    (det_str.on system.System.product).cons <|
    (det_str.on system.System.version).cons <|
    (det_str.on system.System.serial).cons <|
    ((det_opt det_uuid).on system.System.uuid).cons <|
    ((det_opt system.WakeupType.fed_det).on system.System.wakeup).cons <|
    ((det_opt det_str).on system.System.sku).cons <|
    ((det_opt det_str).on system.System.family).cons <|
    det_nil) fun a b e => ?_
  cases a; cases b
  simpa only [id, Prod.mk.injEq, and_true, system.System.mk.injEq] using e

theorem system.System.fed_valid (n : Nat) (x : system.System) (h1 : (0xFF : UInt8) ∉ x.manufacturer) (h2 :
    (0xFF : UInt8) ∉ x.product) (h3 : (0xFF : UInt8) ∉ x.version) (h4 : (0xFF : UInt8) ∉ x.serial) (h5 : ∀ y,
    x.uuid = some y → y.length = 16) (h6 : ∀ y, x.sku = some y → (0xFF : UInt8) ∉ y) (h7 : ∀ y, x.family = some
    y → (0xFF : UInt8) ∉ y) : Fed.AllValid n x.fed :=
  allValid_append.2 ⟨valid_u16 n _,
  allValid_append.2 ⟨valid_one h1,
  allValid_append.2 ⟨valid_one h2,
  allValid_append.2 ⟨valid_one h3,
  allValid_append.2 ⟨valid_one h4,
  allValid_append.2 ⟨valid_opt fun y hy => valid_one (h5 y hy),
  allValid_append.2 ⟨valid_opt fun _ _ => system.WakeupType.fed_valid n _,
  allValid_append.2 ⟨valid_opt fun y hy => valid_one (h6 y hy),
  allValid_append.2 ⟨valid_opt fun y hy => valid_one (h7 y hy),
  allValid_nil n⟩⟩⟩⟩⟩⟩⟩⟩⟩

theorem baseboard.BaseBoardFlags.fed_det : Det baseboard.BaseBoardFlags.fed id :=
  (det_u8.on baseboard.BaseBoardFlags.bits).of fun a b e => by cases a; cases b; exact congrArg _ e

theorem baseboard.BaseBoardFlags.fed_valid (n : Nat) (x : baseboard.BaseBoardFlags) : Fed.AllValid n x.fed := valid_u8 n _

theorem baseboard.BoardType.idx_lt (x : baseboard.BoardType) : x.ctorIdx < 65536 := by
  cases x <;> exact Nat.le_of_ble_eq_true rfl

theorem baseboard.BoardType.fed_det : Det baseboard.BoardType.fed id := by
  intro n h8 h32 pre a b r s va vb e
  replace e := idx_step h8 h32 (baseboard.BoardType.idx_lt a) (baseboard.BoardType.idx_lt b) va vb e
  clear va vb; obtain ⟨h, va, vb, e⟩ := e
  cases a <;> cases b <;> first | exact absurd h (Nat.ne_of_beq_eq_false rfl) | skip
  · exact ⟨rfl, e⟩
  · exact ⟨rfl, e⟩
  · exact ⟨rfl, e⟩
  · exact ⟨rfl, e⟩
  · exact ⟨rfl, e⟩
  · exact ⟨rfl, e⟩
  · exact ⟨rfl, e⟩
  · exact ⟨rfl, e⟩
  · exact ⟨rfl, e⟩
  · exact ⟨rfl, e⟩
  · exact ⟨rfl, e⟩
  · exact ⟨rfl, e⟩
  · exact ⟨rfl, e⟩
  · obtain ⟨h1, hr⟩ := det_u8 n h8 h32 pre _ _ r s va vb e
    cases h1
    exact ⟨rfl, hr⟩

theorem baseboard.BoardType.fed_valid (n : Nat) (x : baseboard.BoardType) : Fed.AllValid n x.fed := by
  refine allValid_cons.2 ⟨trivial, ?_⟩
  cases x <;> first | exact allValid_nil n | exact valid_u8 n _

theorem baseboard.BaseBoard.fed_det : Det baseboard.BaseBoard.fed id := by
  refine Det.of (
    (det_u16.on baseboard.BaseBoard.handle).cons <|
    (det_str.on baseboard.BaseBoard.manufacturer).cons <|
    (det_str.on baseboard.BaseBoard.product).cons <|
    (det_str.on baseboard.BaseBoard.version).cons <|
    (det_str.on baseboard.BaseBoard.serial).cons <|
    ((det_opt det_str).on baseboard.BaseBoard.asset).cons <|
    ((det_opt baseboard.BaseBoardFlags.fed_det).on baseboard.BaseBoard.feature_flags).cons <|
    ((det_opt det_str).on baseboard.BaseBoard.location_in_chassis).cons <|
    ((det_opt det_u16).on baseboard.BaseBoard.chassis_handle).cons <|
    ((det_opt baseboard.BoardType.fed_det).on baseboard.BaseBoard.board_type).cons <|
    det_nil) fun a b e => ?_
  cases a; cases b
  simpa only [id, Prod.mk.injEq, and_true, baseboard.BaseBoard.mk.injEq] using e

theorem baseboard.BaseBoard.fed_valid (n : Nat) (x : baseboard.BaseBoard) (h1 : (0xFF : UInt8) ∉
    x.manufacturer) (h2 : (0xFF : UInt8) ∉ x.product) (h3 : (0xFF : UInt8) ∉ x.version) (h4 : (0xFF : UInt8) ∉
    x.serial) (h5 : ∀ y, x.asset = some y → (0xFF : UInt8) ∉ y) (h6 : ∀ y, x.location_in_chassis = some y →
    (0xFF : UInt8) ∉ y) : Fed.AllValid n x.fed :=
  allValid_append.2 ⟨valid_u16 n _,
  allValid_append.2 ⟨valid_one h1,
  allValid_append.2 ⟨valid_one h2,
  allValid_append.2 ⟨valid_one h3,
  allValid_append.2 ⟨valid_one h4,
  allValid_append.2 ⟨valid_opt fun y hy => valid_one (h5 y hy),
  allValid_append.2 ⟨valid_opt fun _ _ => baseboard.BaseBoardFlags.fed_valid n _,
  allValid_append.2 ⟨valid_opt fun y hy => valid_one (h6 y hy),
  allValid_append.2 ⟨valid_opt fun _ _ => valid_u16 n _,
  allValid_append.2 ⟨valid_opt fun _ _ => baseboard.BoardType.fed_valid n _,
  allValid_nil n⟩⟩⟩⟩⟩⟩⟩⟩⟩⟩

theorem enclosure.EnclosureType.idx_lt (x : enclosure.EnclosureType) : x.ctorIdx < 65536 := by
  cases x <;> exact Nat.le_of_ble_eq_true rfl

theorem enclosure.EnclosureType.fed_det : Det enclosure.EnclosureType.fed id := by
  refine det_enum enclosure.EnclosureType.ctorIdx (enclosure.EnclosureType.fields) (fun _ => rfl) enclosure.EnclosureType.idx_lt (nullary! enclosure.EnclosureType)
    (fun a => (∃ v, a = .Undefined v)) (fun a => ?_) (by decide +kernel) (by decide +kernel) ?_ ?_
  · cases a <;> first | exact .inr ⟨_, rfl⟩ | exact .inl (by decide +kernel)
  · rintro _ (⟨v, rfl⟩)
    · exact (by decide +kernel : 36 ∉ (nullary! enclosure.EnclosureType).map enclosure.EnclosureType.ctorIdx)
  · rintro _ _ (⟨v, rfl⟩) (⟨w, rfl⟩) h n h8 h32 pre r s va vb e
    · obtain ⟨h1, hr⟩ := det_u8 n h8 h32 pre _ _ r s va vb e
      cases h1
      exact ⟨rfl, hr⟩

theorem enclosure.EnclosureType.fed_valid (n : Nat) (x : enclosure.EnclosureType) : Fed.AllValid n x.fed := by
  refine allValid_cons.2 ⟨trivial, ?_⟩
  cases x <;> first | exact allValid_nil n | exact valid_u8 n _

theorem enclosure.State.idx_lt (x : enclosure.State) : x.ctorIdx < 65536 := by
  cases x <;> exact Nat.le_of_ble_eq_true rfl

theorem enclosure.State.fed_det : Det enclosure.State.fed id := by
  intro n h8 h32 pre a b r s va vb e
  replace e := idx_step h8 h32 (enclosure.State.idx_lt a) (enclosure.State.idx_lt b) va vb e
  clear va vb; obtain ⟨h, va, vb, e⟩ := e
  cases a <;> cases b <;> first | exact absurd h (Nat.ne_of_beq_eq_false rfl) | skip
  · exact ⟨rfl, e⟩
  · exact ⟨rfl, e⟩
  · exact ⟨rfl, e⟩
  · exact ⟨rfl, e⟩
  · exact ⟨rfl, e⟩
  · exact ⟨rfl, e⟩
  · obtain ⟨h1, hr⟩ := det_u8 n h8 h32 pre _ _ r s va vb e
    cases h1
    exact ⟨rfl, hr⟩

theorem enclosure.State.fed_valid (n : Nat) (x : enclosure.State) : Fed.AllValid n x.fed := by
  refine allValid_cons.2 ⟨trivial, ?_⟩
  cases x <;> first | exact allValid_nil n | exact valid_u8 n _

theorem enclosure.SecurityStatus.idx_lt (x : enclosure.SecurityStatus) : x.ctorIdx < 65536 := by
  cases x <;> exact Nat.le_of_ble_eq_true rfl

theorem enclosure.SecurityStatus.fed_det : Det enclosure.SecurityStatus.fed id := by
  intro n h8 h32 pre a b r s va vb e
  replace e := idx_step h8 h32 (enclosure.SecurityStatus.idx_lt a) (enclosure.SecurityStatus.idx_lt b) va vb e
  clear va vb; obtain ⟨h, va, vb, e⟩ := e
  cases a <;> cases b <;> first | exact absurd h (Nat.ne_of_beq_eq_false rfl) | skip
  · exact ⟨rfl, e⟩
  · exact ⟨rfl, e⟩
  · exact ⟨rfl, e⟩
  · exact ⟨rfl, e⟩
  · exact ⟨rfl, e⟩
  · obtain ⟨h1, hr⟩ := det_u8 n h8 h32 pre _ _ r s va vb e
    cases h1
    exact ⟨rfl, hr⟩

theorem enclosure.SecurityStatus.fed_valid (n : Nat) (x : enclosure.SecurityStatus) : Fed.AllValid n x.fed := by
  refine allValid_cons.2 ⟨trivial, ?_⟩
  cases x
  · exact allValid_nil n
  · exact allValid_nil n
  · exact allValid_nil n
  · exact allValid_nil n
  · exact allValid_nil n
  · exact valid_u8 n _

theorem enclosure.ContainedElements.fed_det : Det enclosure.ContainedElements.fed id := fun _ _ _ _ _ _ _ _ va _ _ =>
  (allValid_cons.1 va).1.elim

theorem enclosure.Enclosure.fed_det : Det enclosure.Enclosure.fed id := by
  refine Det.of (
    (det_u16.on enclosure.Enclosure.handle).cons <|
    (det_str.on enclosure.Enclosure.manufacturer).cons <|
    (det_bool.on enclosure.Enclosure.chassis_lock).cons <|
    (enclosure.EnclosureType.fed_det.on enclosure.Enclosure.enclosure_type).cons <|
    (det_str.on enclosure.Enclosure.version).cons <|
    (det_str.on enclosure.Enclosure.serial_number).cons <|
    (det_str.on enclosure.Enclosure.asset_tag_number).cons <|
    ((det_opt enclosure.State.fed_det).on enclosure.Enclosure.boot_up_state).cons <|
    ((det_opt enclosure.State.fed_det).on enclosure.Enclosure.power_supply_state).cons <|
    ((det_opt enclosure.State.fed_det).on enclosure.Enclosure.thermal_state).cons <|
    ((det_opt enclosure.SecurityStatus.fed_det).on enclosure.Enclosure.security_status).cons <|
    ((det_opt det_u32).on enclosure.Enclosure.oem_defined).cons <|
    ((det_opt det_u8).on enclosure.Enclosure.height).cons <|
    ((det_opt det_u8).on enclosure.Enclosure.power_cords_number).cons <|
    ((det_opt enclosure.ContainedElements.fed_det).on enclosure.Enclosure.contained_elements).cons <|
    ((det_opt det_str).on enclosure.Enclosure.sku_number).cons <|
    det_nil) fun a b e => ?_
  cases a; cases b
  simpa only [id, Prod.mk.injEq, and_true, enclosure.Enclosure.mk.injEq] using e

theorem enclosure.Enclosure.fed_valid (n : Nat) (x : enclosure.Enclosure) (h1 : (0xFF : UInt8) ∉
    x.manufacturer) (h2 : (0xFF : UInt8) ∉ x.version) (h3 : (0xFF : UInt8) ∉ x.serial_number) (h4 : (0xFF :
    UInt8) ∉ x.asset_tag_number) (h5 : ∀ y, x.contained_elements = some y → Fed.AllValid n y.fed) (h6 : ∀ y,
    x.sku_number = some y → (0xFF : UInt8) ∉ y) : Fed.AllValid n x.fed :=
  allValid_append.2 ⟨valid_u16 n _,
  allValid_append.2 ⟨valid_one h1,
  allValid_append.2 ⟨valid_u8 n _,
  allValid_append.2 ⟨enclosure.EnclosureType.fed_valid n _,
  allValid_append.2 ⟨valid_one h2,
  allValid_append.2 ⟨valid_one h3,
  allValid_append.2 ⟨valid_one h4,
  allValid_append.2 ⟨valid_opt fun _ _ => enclosure.State.fed_valid n _,
  allValid_append.2 ⟨valid_opt fun _ _ => enclosure.State.fed_valid n _,
  allValid_append.2 ⟨valid_opt fun _ _ => enclosure.State.fed_valid n _,
  allValid_append.2 ⟨valid_opt fun _ _ => enclosure.SecurityStatus.fed_valid n _,
  allValid_append.2 ⟨valid_opt fun _ _ => valid_u32 n _,
  allValid_append.2 ⟨valid_opt fun _ _ => valid_u8 n _,
  allValid_append.2 ⟨valid_opt fun _ _ => valid_u8 n _,
  allValid_append.2 ⟨valid_opt fun y hy => (h5 y hy),
  allValid_append.2 ⟨valid_opt fun y hy => valid_one (h6 y hy),
  allValid_nil n⟩⟩⟩⟩⟩⟩⟩⟩⟩⟩⟩⟩⟩⟩⟩⟩

theorem processor.ProcessorType.idx_lt (x : processor.ProcessorType) : x.ctorIdx < 65536 := by
  cases x <;> exact Nat.le_of_ble_eq_true rfl

theorem processor.ProcessorType.fed_det : Det processor.ProcessorType.fed id := by
  intro n h8 h32 pre a b r s va vb e
  replace e := idx_step h8 h32 (processor.ProcessorType.idx_lt a) (processor.ProcessorType.idx_lt b) va vb e
  clear va vb; obtain ⟨h, va, vb, e⟩ := e
  cases a <;> cases b <;> first | exact absurd h (Nat.ne_of_beq_eq_false rfl) | skip
  · exact ⟨rfl, e⟩
  · exact ⟨rfl, e⟩
  · exact ⟨rfl, e⟩
  · exact ⟨rfl, e⟩
  · exact ⟨rfl, e⟩
  · exact ⟨rfl, e⟩
  · obtain ⟨h1, hr⟩ := det_u8 n h8 h32 pre _ _ r s va vb e
    cases h1
    exact ⟨rfl, hr⟩

theorem processor.ProcessorType.fed_valid (n : Nat) (x : processor.ProcessorType) : Fed.AllValid n x.fed := by
  refine allValid_cons.2 ⟨trivial, ?_⟩
  cases x <;> first | exact allValid_nil n | exact valid_u8 n _

theorem processor.ProcessorFamily.idx_lt (x : processor.ProcessorFamily) : x.ctorIdx < 65536 := by
  cases x <;> exact Nat.le_of_ble_eq_true rfl

theorem processor.ProcessorFamily.fed_det : Det processor.ProcessorFamily.fed id := by
  refine det_enum processor.ProcessorFamily.ctorIdx (processor.ProcessorFamily.fields) (fun _ => rfl) processor.ProcessorFamily.idx_lt (nullary! processor.ProcessorFamily)
    (fun a => (∃ v, a = .Available v) ∨ (∃ v, a = .NotUsed v)) (fun a => ?_) (by decide +kernel) (by decide +kernel) ?_ ?_
  · cases a <;> first | exact .inr (.inl ⟨_, rfl⟩) | exact .inr (.inr ⟨_, rfl⟩) | exact .inl (by decide +kernel)
  · rintro _ (⟨v, rfl⟩ | ⟨v, rfl⟩)
    · exact (by decide +kernel : 217 ∉ (nullary! processor.ProcessorFamily).map processor.ProcessorFamily.ctorIdx)
    · exact (by decide +kernel : 218 ∉ (nullary! processor.ProcessorFamily).map processor.ProcessorFamily.ctorIdx)
  · rintro _ _ (⟨v, rfl⟩ | ⟨v, rfl⟩) (⟨w, rfl⟩ | ⟨w, rfl⟩) h n h8 h32 pre r s va vb e
    · obtain ⟨h1, hr⟩ := det_u16 n h8 h32 pre _ _ r s va vb e
      cases h1
      exact ⟨rfl, hr⟩
    · exact absurd h (Nat.ne_of_beq_eq_false rfl)
    · exact absurd h (Nat.ne_of_beq_eq_false rfl)
    · obtain ⟨h1, hr⟩ := det_u16 n h8 h32 pre _ _ r s va vb e
      cases h1
      exact ⟨rfl, hr⟩

theorem processor.ProcessorFamily.fed_valid (n : Nat) (x : processor.ProcessorFamily) : Fed.AllValid n x.fed := by
  refine allValid_cons.2 ⟨trivial, ?_⟩
  cases x <;> first | exact allValid_nil n | exact valid_u16 n _

theorem processor.VoltageLegacy.fed_det : Det processor.VoltageLegacy.fed id :=
  (det_u8.on processor.VoltageLegacy.bits).of fun a b e => by cases a; cases b; exact congrArg _ e

theorem processor.VoltageLegacy.fed_valid (n : Nat) (x : processor.VoltageLegacy) : Fed.AllValid n x.fed := valid_u8 n _

theorem processor.Voltage.idx_lt (x : processor.Voltage) : x.ctorIdx < 65536 := by
  cases x <;> exact Nat.le_of_ble_eq_true rfl

theorem processor.Voltage.fed_det : Det processor.Voltage.fed id := by
  intro n h8 h32 pre a b r s va vb e
  replace e := idx_step h8 h32 (processor.Voltage.idx_lt a) (processor.Voltage.idx_lt b) va vb e
  clear va vb; obtain ⟨h, va, vb, e⟩ := e
  cases a <;> cases b <;> first | exact absurd h (Nat.ne_of_beq_eq_false rfl) | skip
  · obtain ⟨h1, hr⟩ := processor.VoltageLegacy.fed_det n h8 h32 pre _ _ r s va vb e
    cases h1
    exact ⟨rfl, hr⟩
  · obtain ⟨h1, hr⟩ := det_u8 n h8 h32 pre _ _ r s va vb e
    cases h1
    exact ⟨rfl, hr⟩
  · obtain ⟨h1, hr⟩ := det_u8 n h8 h32 pre _ _ r s va vb e
    cases h1
    exact ⟨rfl, hr⟩

theorem processor.Voltage.fed_valid (n : Nat) (x : processor.Voltage) : Fed.AllValid n x.fed := by
  refine allValid_cons.2 ⟨trivial, ?_⟩
  cases x
  · exact processor.VoltageLegacy.fed_valid n _
  · exact valid_u8 n _
  · exact valid_u8 n _

theorem processor.ProcessorStatus.fed_det : Det processor.ProcessorStatus.fed id :=
  (det_u8.on processor.ProcessorStatus.bits).of fun a b e => by cases a; cases b; exact congrArg _ e

theorem processor.ProcessorStatus.fed_valid (n : Nat) (x : processor.ProcessorStatus) : Fed.AllValid n x.fed := valid_u8 n _

theorem processor.ProcessorUpgrade.idx_lt (x : processor.ProcessorUpgrade) : x.ctorIdx < 65536 := by
  cases x <;> exact Nat.le_of_ble_eq_true rfl

theorem processor.ProcessorUpgrade.fed_det : Det processor.ProcessorUpgrade.fed id := by
  refine det_enum processor.ProcessorUpgrade.ctorIdx (processor.ProcessorUpgrade.fields) (fun _ => rfl) processor.ProcessorUpgrade.idx_lt (nullary! processor.ProcessorUpgrade)
    (fun a => (∃ v, a = .Undefined v)) (fun a => ?_) (by decide +kernel) (by decide +kernel) ?_ ?_
  · cases a <;> first | exact .inr ⟨_, rfl⟩ | exact .inl (by decide +kernel)
  · rintro _ (⟨v, rfl⟩)
    · exact (by decide +kernel : 62 ∉ (nullary! processor.ProcessorUpgrade).map processor.ProcessorUpgrade.ctorIdx)
  · rintro _ _ (⟨v, rfl⟩) (⟨w, rfl⟩) h n h8 h32 pre r s va vb e
    · obtain ⟨h1, hr⟩ := det_u8 n h8 h32 pre _ _ r s va vb e
      cases h1
      exact ⟨rfl, hr⟩

theorem processor.ProcessorUpgrade.fed_valid (n : Nat) (x : processor.ProcessorUpgrade) : Fed.AllValid n x.fed := by
  refine allValid_cons.2 ⟨trivial, ?_⟩
  cases x <;> first | exact allValid_nil n | exact valid_u8 n _

theorem processor.ProcessorCharacteristics.fed_det : Det processor.ProcessorCharacteristics.fed id :=
  (det_u16.on processor.ProcessorCharacteristics.bits).of fun a b e => by cases a; cases b; exact congrArg _ e

theorem processor.ProcessorCharacteristics.fed_valid (n : Nat) (x : processor.ProcessorCharacteristics) : Fed.AllValid n x.fed := valid_u16 n _

theorem processor.Processor.fed_det : Det processor.Processor.fed id := by
  refine Det.of (
    (det_u16.on processor.Processor.handle).cons <|
    (det_str.on processor.Processor.socket_designation).cons <|
    (processor.ProcessorType.fed_det.on processor.Processor.processor_type).cons <|
    (processor.ProcessorFamily.fed_det.on processor.Processor.processor_family).cons <|
    (det_str.on processor.Processor.processor_manufacturer).cons <|
    (det_u64.on processor.Processor.processor_id).cons <|
    (det_str.on processor.Processor.processor_version).cons <|
    (processor.Voltage.fed_det.on processor.Processor.voltage).cons <|
    (det_u16.on processor.Processor.external_clock).cons <|
    (det_u16.on processor.Processor.max_speed).cons <|
    (det_u16.on processor.Processor.current_speed).cons <|
    (processor.ProcessorStatus.fed_det.on processor.Processor.status).cons <|
    (processor.ProcessorUpgrade.fed_det.on processor.Processor.processor_upgrade).cons <|
    ((det_opt det_u16).on processor.Processor.l1_cache_handle).cons <|
    ((det_opt det_u16).on processor.Processor.l2_cache_handle).cons <|
    ((det_opt det_u16).on processor.Processor.l3_cache_handle).cons <|
    ((det_opt det_str).on processor.Processor.serial_number).cons <|
    ((det_opt det_str).on processor.Processor.asset_tag).cons <|
    ((det_opt det_str).on processor.Processor.part_number).cons <|
    ((det_opt det_u16).on processor.Processor.core_count).cons <|
    ((det_opt det_u16).on processor.Processor.core_enabled).cons <|
    ((det_opt det_u16).on processor.Processor.thread_count).cons <|
    ((det_opt processor.ProcessorCharacteristics.fed_det).on processor.Processor.processor_characteristics).cons <|
    det_nil) fun a b e => ?_
  cases a; cases b
  simpa only [id, Prod.mk.injEq, and_true, processor.Processor.mk.injEq] using e

theorem processor.Processor.fed_valid (n : Nat) (x : processor.Processor) (h1 : (0xFF : UInt8) ∉
    x.socket_designation) (h2 : (0xFF : UInt8) ∉ x.processor_manufacturer) (h3 : (0xFF : UInt8) ∉
    x.processor_version) (h4 : ∀ y, x.serial_number = some y → (0xFF : UInt8) ∉ y) (h5 : ∀ y, x.asset_tag =
    some y → (0xFF : UInt8) ∉ y) (h6 : ∀ y, x.part_number = some y → (0xFF : UInt8) ∉ y) : Fed.AllValid n x.fed
    :=
  allValid_append.2 ⟨valid_u16 n _,
  allValid_append.2 ⟨valid_one h1,
  allValid_append.2 ⟨processor.ProcessorType.fed_valid n _,
  allValid_append.2 ⟨processor.ProcessorFamily.fed_valid n _,
  allValid_append.2 ⟨valid_one h2,
  allValid_append.2 ⟨valid_u64 n _,
  allValid_append.2 ⟨valid_one h3,
  allValid_append.2 ⟨processor.Voltage.fed_valid n _,
  allValid_append.2 ⟨valid_u16 n _,
  allValid_append.2 ⟨valid_u16 n _,
  allValid_append.2 ⟨valid_u16 n _,
  allValid_append.2 ⟨processor.ProcessorStatus.fed_valid n _,
  allValid_append.2 ⟨processor.ProcessorUpgrade.fed_valid n _,
  allValid_append.2 ⟨valid_opt fun _ _ => valid_u16 n _,
  allValid_append.2 ⟨valid_opt fun _ _ => valid_u16 n _,
  allValid_append.2 ⟨valid_opt fun _ _ => valid_u16 n _,
  allValid_append.2 ⟨valid_opt fun y hy => valid_one (h4 y hy),
  allValid_append.2 ⟨valid_opt fun y hy => valid_one (h5 y hy),
  allValid_append.2 ⟨valid_opt fun y hy => valid_one (h6 y hy),
  allValid_append.2 ⟨valid_opt fun _ _ => valid_u16 n _,
  allValid_append.2 ⟨valid_opt fun _ _ => valid_u16 n _,
  allValid_append.2 ⟨valid_opt fun _ _ => valid_u16 n _,
  allValid_append.2 ⟨valid_opt fun _ _ => processor.ProcessorCharacteristics.fed_valid n _,
  allValid_nil n⟩⟩⟩⟩⟩⟩⟩⟩⟩⟩⟩⟩⟩⟩⟩⟩⟩⟩⟩⟩⟩⟩⟩

theorem cache.CacheLevel.idx_lt (x : cache.CacheLevel) : x.ctorIdx < 65536 := by
  cases x <;> exact Nat.le_of_ble_eq_true rfl

theorem cache.CacheLevel.fed_det : Det cache.CacheLevel.fed id := by
  intro n h8 h32 pre a b r s va vb e
  replace e := idx_step h8 h32 (cache.CacheLevel.idx_lt a) (cache.CacheLevel.idx_lt b) va vb e
  clear va vb; obtain ⟨h, va, vb, e⟩ := e
  cases a <;> cases b <;> first | exact absurd h (Nat.ne_of_beq_eq_false rfl) | skip
  · exact ⟨rfl, e⟩
  · exact ⟨rfl, e⟩
  · exact ⟨rfl, e⟩
  · exact ⟨rfl, e⟩
  · exact ⟨rfl, e⟩
  · exact ⟨rfl, e⟩
  · exact ⟨rfl, e⟩
  · exact ⟨rfl, e⟩

theorem cache.CacheLevel.fed_valid (n : Nat) (x : cache.CacheLevel) : Fed.AllValid n x.fed := by
  exact valid_one trivial

theorem cache.CacheLocation.idx_lt (x : cache.CacheLocation) : x.ctorIdx < 65536 := by
  cases x <;> exact Nat.le_of_ble_eq_true rfl

theorem cache.CacheLocation.fed_det : Det cache.CacheLocation.fed id := by
  intro n h8 h32 pre a b r s va vb e
  replace e := idx_step h8 h32 (cache.CacheLocation.idx_lt a) (cache.CacheLocation.idx_lt b) va vb e
  clear va vb; obtain ⟨h, va, vb, e⟩ := e
  cases a <;> cases b <;> first | exact absurd h (Nat.ne_of_beq_eq_false rfl) | skip
  · exact ⟨rfl, e⟩
  · exact ⟨rfl, e⟩
  · exact ⟨rfl, e⟩
  · exact ⟨rfl, e⟩

theorem cache.CacheLocation.fed_valid (n : Nat) (x : cache.CacheLocation) : Fed.AllValid n x.fed := by
  exact valid_one trivial

theorem cache.CacheOperationalMode.idx_lt (x : cache.CacheOperationalMode) : x.ctorIdx < 65536 := by
  cases x <;> exact Nat.le_of_ble_eq_true rfl

theorem cache.CacheOperationalMode.fed_det : Det cache.CacheOperationalMode.fed id := by
  intro n h8 h32 pre a b r s va vb e
  replace e := idx_step h8 h32 (cache.CacheOperationalMode.idx_lt a) (cache.CacheOperationalMode.idx_lt b) va vb e
  clear va vb; obtain ⟨h, va, vb, e⟩ := e
  cases a <;> cases b <;> first | exact absurd h (Nat.ne_of_beq_eq_false rfl) | skip
  · exact ⟨rfl, e⟩
  · exact ⟨rfl, e⟩
  · exact ⟨rfl, e⟩
  · exact ⟨rfl, e⟩

theorem cache.CacheOperationalMode.fed_valid (n : Nat) (x : cache.CacheOperationalMode) : Fed.AllValid n x.fed := by
  exact valid_one trivial

theorem cache.CacheConfiguration.fed_det : Det cache.CacheConfiguration.fed id := by
  refine Det.of (
    (cache.CacheLevel.fed_det.on cache.CacheConfiguration.level).cons <|
    (det_bool.on cache.CacheConfiguration.socketed).cons <|
    (cache.CacheLocation.fed_det.on cache.CacheConfiguration.location).cons <|
    (det_bool.on cache.CacheConfiguration.enabled_at_boot_time).cons <|
    (cache.CacheOperationalMode.fed_det.on cache.CacheConfiguration.operational_mode).cons <|
    det_nil) fun a b e => ?_
  cases a; cases b
  simpa only [id, Prod.mk.injEq, and_true, cache.CacheConfiguration.mk.injEq] using e

theorem cache.CacheConfiguration.fed_valid (n : Nat) (x : cache.CacheConfiguration) : Fed.AllValid n x.fed :=
  allValid_append.2 ⟨cache.CacheLevel.fed_valid n _,
  allValid_append.2 ⟨valid_u8 n _,
  allValid_append.2 ⟨cache.CacheLocation.fed_valid n _,
  allValid_append.2 ⟨valid_u8 n _,
  allValid_append.2 ⟨cache.CacheOperationalMode.fed_valid n _,
  allValid_nil n⟩⟩⟩⟩⟩

theorem cache.CacheSize.idx_lt (x : cache.CacheSize) : x.ctorIdx < 65536 := by
  cases x <;> exact Nat.le_of_ble_eq_true rfl

theorem cache.CacheSize.fed_det : Det cache.CacheSize.fed id := by
  intro n h8 h32 pre a b r s va vb e
  replace e := idx_step h8 h32 (cache.CacheSize.idx_lt a) (cache.CacheSize.idx_lt b) va vb e
  clear va vb; obtain ⟨h, va, vb, e⟩ := e
  cases a <;> cases b <;> first | exact absurd h (Nat.ne_of_beq_eq_false rfl) | skip
  · obtain ⟨h1, hr⟩ := det_u16 n h8 h32 pre _ _ r s va vb e
    cases h1
    exact ⟨rfl, hr⟩
  · obtain ⟨h1, hr⟩ := det_u16 n h8 h32 pre _ _ r s va vb e
    cases h1
    exact ⟨rfl, hr⟩

theorem cache.CacheSize.fed_valid (n : Nat) (x : cache.CacheSize) : Fed.AllValid n x.fed := by
  refine allValid_cons.2 ⟨trivial, ?_⟩
  cases x
  · exact valid_u16 n _
  · exact valid_u16 n _

theorem cache.CacheSramType.fed_det : Det cache.CacheSramType.fed id :=
  (det_u16.on cache.CacheSramType.bits).of fun a b e => by cases a; cases b; exact congrArg _ e

theorem cache.CacheSramType.fed_valid (n : Nat) (x : cache.CacheSramType) : Fed.AllValid n x.fed := valid_u16 n _

theorem cache.CacheErrorCorrectionType.idx_lt (x : cache.CacheErrorCorrectionType) : x.ctorIdx < 65536 := by
  cases x <;> exact Nat.le_of_ble_eq_true rfl

theorem cache.CacheErrorCorrectionType.fed_det : Det cache.CacheErrorCorrectionType.fed id := by
  intro n h8 h32 pre a b r s va vb e
  replace e := idx_step h8 h32 (cache.CacheErrorCorrectionType.idx_lt a) (cache.CacheErrorCorrectionType.idx_lt b) va vb e
  clear va vb; obtain ⟨h, va, vb, e⟩ := e
  cases a <;> cases b <;> first | exact absurd h (Nat.ne_of_beq_eq_false rfl) | skip
  · exact ⟨rfl, e⟩
  · exact ⟨rfl, e⟩
  · exact ⟨rfl, e⟩
  · exact ⟨rfl, e⟩
  · exact ⟨rfl, e⟩
  · exact ⟨rfl, e⟩
  · obtain ⟨h1, hr⟩ := det_u8 n h8 h32 pre _ _ r s va vb e
    cases h1
    exact ⟨rfl, hr⟩

theorem cache.CacheErrorCorrectionType.fed_valid (n : Nat) (x : cache.CacheErrorCorrectionType) : Fed.AllValid n x.fed := by
  refine allValid_cons.2 ⟨trivial, ?_⟩
  cases x <;> first | exact allValid_nil n | exact valid_u8 n _

theorem cache.SystemCacheType.idx_lt (x : cache.SystemCacheType) : x.ctorIdx < 65536 := by
  cases x <;> exact Nat.le_of_ble_eq_true rfl

theorem cache.SystemCacheType.fed_det : Det cache.SystemCacheType.fed id := by
  intro n h8 h32 pre a b r s va vb e
  replace e := idx_step h8 h32 (cache.SystemCacheType.idx_lt a) (cache.SystemCacheType.idx_lt b) va vb e
  clear va vb; obtain ⟨h, va, vb, e⟩ := e
  cases a <;> cases b <;> first | exact absurd h (Nat.ne_of_beq_eq_false rfl) | skip
  · exact ⟨rfl, e⟩
  · exact ⟨rfl, e⟩
  · exact ⟨rfl, e⟩
  · exact ⟨rfl, e⟩
  · exact ⟨rfl, e⟩
  · obtain ⟨h1, hr⟩ := det_u8 n h8 h32 pre _ _ r s va vb e
    cases h1
    exact ⟨rfl, hr⟩

theorem cache.SystemCacheType.fed_valid (n : Nat) (x : cache.SystemCacheType) : Fed.AllValid n x.fed := by
  refine allValid_cons.2 ⟨trivial, ?_⟩
  cases x
  · exact allValid_nil n
  · exact allValid_nil n
  · exact allValid_nil n
  · exact allValid_nil n
  · exact allValid_nil n
  · exact valid_u8 n _

theorem cache.CacheAssociativity.idx_lt (x : cache.CacheAssociativity) : x.ctorIdx < 65536 := by
  cases x <;> exact Nat.le_of_ble_eq_true rfl

theorem cache.CacheAssociativity.fed_det : Det cache.CacheAssociativity.fed id := by
  intro n h8 h32 pre a b r s va vb e
  replace e := idx_step h8 h32 (cache.CacheAssociativity.idx_lt a) (cache.CacheAssociativity.idx_lt b) va vb e
  clear va vb; obtain ⟨h, va, vb, e⟩ := e
  cases a <;> cases b <;> first | exact absurd h (Nat.ne_of_beq_eq_false rfl) | skip
  · exact ⟨rfl, e⟩
  · exact ⟨rfl, e⟩
  · exact ⟨rfl, e⟩
  · exact ⟨rfl, e⟩
  · exact ⟨rfl, e⟩
  · exact ⟨rfl, e⟩
  · exact ⟨rfl, e⟩
  · exact ⟨rfl, e⟩
  · exact ⟨rfl, e⟩
  · exact ⟨rfl, e⟩
  · exact ⟨rfl, e⟩
  · exact ⟨rfl, e⟩
  · exact ⟨rfl, e⟩
  · exact ⟨rfl, e⟩
  · obtain ⟨h1, hr⟩ := det_u8 n h8 h32 pre _ _ r s va vb e
    cases h1
    exact ⟨rfl, hr⟩

theorem cache.CacheAssociativity.fed_valid (n : Nat) (x : cache.CacheAssociativity) : Fed.AllValid n x.fed := by
  refine allValid_cons.2 ⟨trivial, ?_⟩
  cases x <;> first | exact allValid_nil n | exact valid_u8 n _

theorem cache.CacheSize2.idx_lt (x : cache.CacheSize2) : x.ctorIdx < 65536 := by
  cases x <;> exact Nat.le_of_ble_eq_true rfl

theorem cache.CacheSize2.fed_det : Det cache.CacheSize2.fed id := by
  intro n h8 h32 pre a b r s va vb e
  replace e := idx_step h8 h32 (cache.CacheSize2.idx_lt a) (cache.CacheSize2.idx_lt b) va vb e
  clear va vb; obtain ⟨h, va, vb, e⟩ := e
  cases a <;> cases b <;> first | exact absurd h (Nat.ne_of_beq_eq_false rfl) | skip
  · obtain ⟨h1, hr⟩ := det_u32 n h8 h32 pre _ _ r s va vb e
    cases h1
    exact ⟨rfl, hr⟩
  · obtain ⟨h1, hr⟩ := det_u32 n h8 h32 pre _ _ r s va vb e
    cases h1
    exact ⟨rfl, hr⟩

theorem cache.CacheSize2.fed_valid (n : Nat) (x : cache.CacheSize2) : Fed.AllValid n x.fed := by
  refine allValid_cons.2 ⟨trivial, ?_⟩
  cases x
  · exact valid_u32 n _
  · exact valid_u32 n _

theorem cache.Cache.fed_det : Det cache.Cache.fed id := by
  refine Det.of (
    (det_u16.on cache.Cache.handle).cons <|
    (det_str.on cache.Cache.socket_designation).cons <|
    (cache.CacheConfiguration.fed_det.on cache.Cache.cache_configuration).cons <|
    (cache.CacheSize.fed_det.on cache.Cache.maximum_cache_size).cons <|
    (cache.CacheSize.fed_det.on cache.Cache.installed_size).cons <|
    (cache.CacheSramType.fed_det.on cache.Cache.supported_sram_type).cons <|
    (cache.CacheSramType.fed_det.on cache.Cache.current_sram_type).cons <|
    ((det_opt det_u8).on cache.Cache.cache_speed).cons <|
    ((det_opt cache.CacheErrorCorrectionType.fed_det).on cache.Cache.error_correction_type).cons <|
    ((det_opt cache.SystemCacheType.fed_det).on cache.Cache.system_cache_type).cons <|
    ((det_opt cache.CacheAssociativity.fed_det).on cache.Cache.associativity).cons <|
    ((det_opt cache.CacheSize2.fed_det).on cache.Cache.maximum_cache_size_2).cons <|
    ((det_opt cache.CacheSize2.fed_det).on cache.Cache.installed_size_2).cons <|
    det_nil) fun a b e => ?_
  cases a; cases b
  simpa only [id, Prod.mk.injEq, and_true, cache.Cache.mk.injEq] using e

theorem cache.Cache.fed_valid (n : Nat) (x : cache.Cache) (h1 : (0xFF : UInt8) ∉ x.socket_designation) :
    Fed.AllValid n x.fed :=
  allValid_append.2 ⟨valid_u16 n _,
  allValid_append.2 ⟨valid_one h1,
  allValid_append.2 ⟨cache.CacheConfiguration.fed_valid n _,
  allValid_append.2 ⟨cache.CacheSize.fed_valid n _,
  allValid_append.2 ⟨cache.CacheSize.fed_valid n _,
  allValid_append.2 ⟨cache.CacheSramType.fed_valid n _,
  allValid_append.2 ⟨cache.CacheSramType.fed_valid n _,
  allValid_append.2 ⟨valid_opt fun _ _ => valid_u8 n _,
  allValid_append.2 ⟨valid_opt fun _ _ => cache.CacheErrorCorrectionType.fed_valid n _,
  allValid_append.2 ⟨valid_opt fun _ _ => cache.SystemCacheType.fed_valid n _,
  allValid_append.2 ⟨valid_opt fun _ _ => cache.CacheAssociativity.fed_valid n _,
  allValid_append.2 ⟨valid_opt fun _ _ => cache.CacheSize2.fed_valid n _,
  allValid_append.2 ⟨valid_opt fun _ _ => cache.CacheSize2.fed_valid n _,
  allValid_nil n⟩⟩⟩⟩⟩⟩⟩⟩⟩⟩⟩⟩⟩

theorem port_connector.ConnectorType.idx_lt (x : port_connector.ConnectorType) : x.ctorIdx < 65536 := by
  cases x <;> exact Nat.le_of_ble_eq_true rfl

theorem port_connector.ConnectorType.fed_det : Det port_connector.ConnectorType.fed id := by
  refine det_enum port_connector.ConnectorType.ctorIdx (port_connector.ConnectorType.fields) (fun _ => rfl) port_connector.ConnectorType.idx_lt (nullary! port_connector.ConnectorType)
    (fun a => (∃ v, a = .Undefined v)) (fun a => ?_) (by decide +kernel) (by decide +kernel) ?_ ?_
  · cases a <;> first | exact .inr ⟨_, rfl⟩ | exact .inl (by decide +kernel)
  · rintro _ (⟨v, rfl⟩)
    · exact (by decide +kernel : 42 ∉ (nullary! port_connector.ConnectorType).map port_connector.ConnectorType.ctorIdx)
  · rintro _ _ (⟨v, rfl⟩) (⟨w, rfl⟩) h n h8 h32 pre r s va vb e
    · obtain ⟨h1, hr⟩ := det_u8 n h8 h32 pre _ _ r s va vb e
      cases h1
      exact ⟨rfl, hr⟩

theorem port_connector.ConnectorType.fed_valid (n : Nat) (x : port_connector.ConnectorType) : Fed.AllValid n x.fed := by
  refine allValid_cons.2 ⟨trivial, ?_⟩
  cases x <;> first | exact allValid_nil n | exact valid_u8 n _

theorem port_connector.PortType.idx_lt (x : port_connector.PortType) : x.ctorIdx < 65536 := by
  cases x <;> exact Nat.le_of_ble_eq_true rfl

theorem port_connector.PortType.fed_det : Det port_connector.PortType.fed id := by
  refine det_enum port_connector.PortType.ctorIdx (port_connector.PortType.fields) (fun _ => rfl) port_connector.PortType.idx_lt (nullary! port_connector.PortType)
    (fun a => (∃ v, a = .Undefined v)) (fun a => ?_) (by decide +kernel) (by decide +kernel) ?_ ?_
  · cases a <;> first | exact .inr ⟨_, rfl⟩ | exact .inl (by decide +kernel)
  · rintro _ (⟨v, rfl⟩)
    · exact (by decide +kernel : 39 ∉ (nullary! port_connector.PortType).map port_connector.PortType.ctorIdx)
  · rintro _ _ (⟨v, rfl⟩) (⟨w, rfl⟩) h n h8 h32 pre r s va vb e
    · obtain ⟨h1, hr⟩ := det_u8 n h8 h32 pre _ _ r s va vb e
      cases h1
      exact ⟨rfl, hr⟩

theorem port_connector.PortType.fed_valid (n : Nat) (x : port_connector.PortType) : Fed.AllValid n x.fed := by
  refine allValid_cons.2 ⟨trivial, ?_⟩
  cases x <;> first | exact allValid_nil n | exact valid_u8 n _

theorem port_connector.PortConnector.fed_det : Det port_connector.PortConnector.fed id := by
  refine Det.of (
    (det_u16.on port_connector.PortConnector.handle).cons <|
    (det_str.on port_connector.PortConnector.internal_reference_designator).cons <|
    (port_connector.ConnectorType.fed_det.on port_connector.PortConnector.internal_connector_type).cons <|
    (det_str.on port_connector.PortConnector.external_reference_designator).cons <|
    (port_connector.ConnectorType.fed_det.on port_connector.PortConnector.external_connector_type).cons <|
    (port_connector.PortType.fed_det.on port_connector.PortConnector.port_type).cons <|
    det_nil) fun a b e => ?_
  cases a; cases b
  simpa only [id, Prod.mk.injEq, and_true, port_connector.PortConnector.mk.injEq] using e

theorem port_connector.PortConnector.fed_valid (n : Nat) (x : port_connector.PortConnector) (h1 : (0xFF :
    UInt8) ∉ x.internal_reference_designator) (h2 : (0xFF : UInt8) ∉ x.external_reference_designator) :
    Fed.AllValid n x.fed :=
  allValid_append.2 ⟨valid_u16 n _,
  allValid_append.2 ⟨valid_one h1,
  allValid_append.2 ⟨port_connector.ConnectorType.fed_valid n _,
  allValid_append.2 ⟨valid_one h2,
  allValid_append.2 ⟨port_connector.ConnectorType.fed_valid n _,
  allValid_append.2 ⟨port_connector.PortType.fed_valid n _,
  allValid_nil n⟩⟩⟩⟩⟩⟩

theorem system_slots.SlotType.idx_lt (x : system_slots.SlotType) : x.ctorIdx < 65536 := by
  cases x <;> exact Nat.le_of_ble_eq_true rfl

theorem system_slots.SlotType.fed_det : Det system_slots.SlotType.fed id := by
  refine det_enum system_slots.SlotType.ctorIdx (system_slots.SlotType.fields) (fun _ => rfl) system_slots.SlotType.idx_lt (nullary! system_slots.SlotType)
    (fun a => (∃ v, a = .Undefined v)) (fun a => ?_) (by decide +kernel) (by decide +kernel) ?_ ?_
  · cases a <;> first | exact .inr ⟨_, rfl⟩ | exact .inl (by decide +kernel)
  · rintro _ (⟨v, rfl⟩)
    · exact (by decide +kernel : 79 ∉ (nullary! system_slots.SlotType).map system_slots.SlotType.ctorIdx)
  · rintro _ _ (⟨v, rfl⟩) (⟨w, rfl⟩) h n h8 h32 pre r s va vb e
    · obtain ⟨h1, hr⟩ := det_u8 n h8 h32 pre _ _ r s va vb e
      cases h1
      exact ⟨rfl, hr⟩

theorem system_slots.SlotType.fed_valid (n : Nat) (x : system_slots.SlotType) : Fed.AllValid n x.fed := by
  refine allValid_cons.2 ⟨trivial, ?_⟩
  cases x <;> first | exact allValid_nil n | exact valid_u8 n _

theorem system_slots.SlotWidth.idx_lt (x : system_slots.SlotWidth) : x.ctorIdx < 65536 := by
  cases x <;> exact Nat.le_of_ble_eq_true rfl

theorem system_slots.SlotWidth.fed_det : Det system_slots.SlotWidth.fed id := by
  intro n h8 h32 pre a b r s va vb e
  replace e := idx_step h8 h32 (system_slots.SlotWidth.idx_lt a) (system_slots.SlotWidth.idx_lt b) va vb e
  clear va vb; obtain ⟨h, va, vb, e⟩ := e
  cases a <;> cases b <;> first | exact absurd h (Nat.ne_of_beq_eq_false rfl) | skip
  · exact ⟨rfl, e⟩
  · exact ⟨rfl, e⟩
  · exact ⟨rfl, e⟩
  · exact ⟨rfl, e⟩
  · exact ⟨rfl, e⟩
  · exact ⟨rfl, e⟩
  · exact ⟨rfl, e⟩
  · exact ⟨rfl, e⟩
  · exact ⟨rfl, e⟩
  · exact ⟨rfl, e⟩
  · exact ⟨rfl, e⟩
  · exact ⟨rfl, e⟩
  · exact ⟨rfl, e⟩
  · exact ⟨rfl, e⟩
  · obtain ⟨h1, hr⟩ := det_u8 n h8 h32 pre _ _ r s va vb e
    cases h1
    exact ⟨rfl, hr⟩

theorem system_slots.SlotWidth.fed_valid (n : Nat) (x : system_slots.SlotWidth) : Fed.AllValid n x.fed := by
  refine allValid_cons.2 ⟨trivial, ?_⟩
  cases x <;> first | exact allValid_nil n | exact valid_u8 n _

theorem system_slots.CurrentUsage.idx_lt (x : system_slots.CurrentUsage) : x.ctorIdx < 65536 := by
  cases x <;> exact Nat.le_of_ble_eq_true rfl

theorem system_slots.CurrentUsage.fed_det : Det system_slots.CurrentUsage.fed id := by
  intro n h8 h32 pre a b r s va vb e
  replace e := idx_step h8 h32 (system_slots.CurrentUsage.idx_lt a) (system_slots.CurrentUsage.idx_lt b) va vb e
  clear va vb; obtain ⟨h, va, vb, e⟩ := e
  cases a <;> cases b <;> first | exact absurd h (Nat.ne_of_beq_eq_false rfl) | skip
  · exact ⟨rfl, e⟩
  · exact ⟨rfl, e⟩
  · exact ⟨rfl, e⟩
  · exact ⟨rfl, e⟩
  · exact ⟨rfl, e⟩
  · obtain ⟨h1, hr⟩ := det_u8 n h8 h32 pre _ _ r s va vb e
    cases h1
    exact ⟨rfl, hr⟩

theorem system_slots.CurrentUsage.fed_valid (n : Nat) (x : system_slots.CurrentUsage) : Fed.AllValid n x.fed := by
  refine allValid_cons.2 ⟨trivial, ?_⟩
  cases x
  · exact allValid_nil n
  · exact allValid_nil n
  · exact allValid_nil n
  · exact allValid_nil n
  · exact allValid_nil n
  · exact valid_u8 n _

theorem system_slots.SlotLength.idx_lt (x : system_slots.SlotLength) : x.ctorIdx < 65536 := by
  cases x <;> exact Nat.le_of_ble_eq_true rfl

theorem system_slots.SlotLength.fed_det : Det system_slots.SlotLength.fed id := by
  intro n h8 h32 pre a b r s va vb e
  replace e := idx_step h8 h32 (system_slots.SlotLength.idx_lt a) (system_slots.SlotLength.idx_lt b) va vb e
  clear va vb; obtain ⟨h, va, vb, e⟩ := e
  cases a <;> cases b <;> first | exact absurd h (Nat.ne_of_beq_eq_false rfl) | skip
  · exact ⟨rfl, e⟩
  · exact ⟨rfl, e⟩
  · exact ⟨rfl, e⟩
  · exact ⟨rfl, e⟩
  · exact ⟨rfl, e⟩
  · exact ⟨rfl, e⟩
  · obtain ⟨h1, hr⟩ := det_u8 n h8 h32 pre _ _ r s va vb e
    cases h1
    exact ⟨rfl, hr⟩

theorem system_slots.SlotLength.fed_valid (n : Nat) (x : system_slots.SlotLength) : Fed.AllValid n x.fed := by
  refine allValid_cons.2 ⟨trivial, ?_⟩
  cases x <;> first | exact allValid_nil n | exact valid_u8 n _

theorem system_slots.SlotCharacteristics1.fed_det : Det system_slots.SlotCharacteristics1.fed id := by
  exact (det_u8.on system_slots.SlotCharacteristics1.bits).of fun a b e => by cases a; cases b; exact congrArg _ e

theorem system_slots.SlotCharacteristics1.fed_valid (n : Nat) (x : system_slots.SlotCharacteristics1) :
    Fed.AllValid n x.fed :=
  valid_u8 n _

theorem system_slots.SlotCharacteristics2.fed_det : Det system_slots.SlotCharacteristics2.fed id := by
  exact (det_u8.on system_slots.SlotCharacteristics2.bits).of fun a b e => by cases a; cases b; exact congrArg _ e

theorem system_slots.SlotCharacteristics2.fed_valid (n : Nat) (x : system_slots.SlotCharacteristics2) :
    Fed.AllValid n x.fed :=
  valid_u8 n _

theorem system_slots.DeviceAndFunctionNumber.fed_det : Det system_slots.DeviceAndFunctionNumber.fed id := by
  refine Det.of (
    (det_u8.on system_slots.DeviceAndFunctionNumber.device).cons <|
    (det_u8.on system_slots.DeviceAndFunctionNumber.function).cons <|
    det_nil) fun a b e => ?_
  cases a; cases b
  simpa only [id, Prod.mk.injEq, and_true, system_slots.DeviceAndFunctionNumber.mk.injEq] using e

theorem system_slots.DeviceAndFunctionNumber.fed_valid (n : Nat) (x : system_slots.DeviceAndFunctionNumber) :
    Fed.AllValid n x.fed :=
  allValid_append.2 ⟨valid_u8 n _,
  allValid_append.2 ⟨valid_u8 n _,
  allValid_nil n⟩⟩

theorem system_slots.PeerDevices.fed_det : Det system_slots.PeerDevices.fed id := fun _ _ _ _ _ _ _ _ va _ _ =>
  (allValid_cons.1 va).1.elim

theorem system_slots.SlotPitch.fed_det : Det system_slots.SlotPitch.fed id := by
  exact (det_u16.on system_slots.SlotPitch.value).of fun a b e => by cases a; cases b; exact congrArg _ e

theorem system_slots.SlotPitch.fed_valid (n : Nat) (x : system_slots.SlotPitch) : Fed.AllValid n x.fed :=
  valid_u16 n _

theorem system_slots.SystemSlots.fed_det : Det system_slots.SystemSlots.fed id := by
  refine Det.of (
    (det_u16.on system_slots.SystemSlots.handle).cons <|
    (det_str.on system_slots.SystemSlots.slot_designation).cons <|
    (system_slots.SlotType.fed_det.on system_slots.SystemSlots.slot_type).cons <|
    (system_slots.SlotWidth.fed_det.on system_slots.SystemSlots.slot_data_bus_width).cons <|
    (system_slots.CurrentUsage.fed_det.on system_slots.SystemSlots.current_usage).cons <|
    (system_slots.SlotLength.fed_det.on system_slots.SystemSlots.slot_length).cons <|
    (det_u16.on system_slots.SystemSlots.slot_id).cons <|
    (system_slots.SlotCharacteristics1.fed_det.on system_slots.SystemSlots.slot_characteristics_1).cons <|
    ((det_opt system_slots.SlotCharacteristics2.fed_det).on system_slots.SystemSlots.slot_characteristics_2).cons <|
    ((det_opt det_u16).on system_slots.SystemSlots.segment_group_number).cons <|
    ((det_opt det_u8).on system_slots.SystemSlots.bus_number).cons <|
    ((det_opt system_slots.DeviceAndFunctionNumber.fed_det).on system_slots.SystemSlots.device_and_function_number).cons <|
    ((det_opt det_u8).on system_slots.SystemSlots.data_bus_width).cons <|
    ((det_opt system_slots.PeerDevices.fed_det).on system_slots.SystemSlots.peer_devices).cons <|
    ((det_opt det_u8).on system_slots.SystemSlots.slot_information).cons <|
    ((det_opt system_slots.SlotWidth.fed_det).on system_slots.SystemSlots.slot_physical_width).cons <|
    ((det_opt system_slots.SlotPitch.fed_det).on system_slots.SystemSlots.slot_pitch).cons <|
    det_nil) fun a b e => ?_
  cases a; cases b
  simpa only [id, Prod.mk.injEq, and_true, system_slots.SystemSlots.mk.injEq] using e

theorem system_slots.SystemSlots.fed_valid (n : Nat) (x : system_slots.SystemSlots) (h1 : (0xFF : UInt8) ∉
    x.slot_designation) (h2 : ∀ y, x.peer_devices = some y → Fed.AllValid n y.fed) : Fed.AllValid n x.fed :=
  allValid_append.2 ⟨valid_u16 n _,
  allValid_append.2 ⟨valid_one h1,
  allValid_append.2 ⟨system_slots.SlotType.fed_valid n _,
  allValid_append.2 ⟨system_slots.SlotWidth.fed_valid n _,
  allValid_append.2 ⟨system_slots.CurrentUsage.fed_valid n _,
  allValid_append.2 ⟨system_slots.SlotLength.fed_valid n _,
  allValid_append.2 ⟨valid_u16 n _,
  allValid_append.2 ⟨system_slots.SlotCharacteristics1.fed_valid n _,
  allValid_append.2 ⟨valid_opt fun _ _ => system_slots.SlotCharacteristics2.fed_valid n _,
  allValid_append.2 ⟨valid_opt fun _ _ => valid_u16 n _,
  allValid_append.2 ⟨valid_opt fun _ _ => valid_u8 n _,
  allValid_append.2 ⟨valid_opt fun _ _ => system_slots.DeviceAndFunctionNumber.fed_valid n _,
  allValid_append.2 ⟨valid_opt fun _ _ => valid_u8 n _,
  allValid_append.2 ⟨valid_opt fun y hy => (h2 y hy),
  allValid_append.2 ⟨valid_opt fun _ _ => valid_u8 n _,
  allValid_append.2 ⟨valid_opt fun _ _ => system_slots.SlotWidth.fed_valid n _,
  allValid_append.2 ⟨valid_opt fun _ _ => system_slots.SlotPitch.fed_valid n _,
  allValid_nil n⟩⟩⟩⟩⟩⟩⟩⟩⟩⟩⟩⟩⟩⟩⟩⟩⟩

theorem StructureStrings.fed_det : Det StructureStrings.fed id := by
  refine Det.of (
    (det_slice.on StructureStrings.bytes).cons <|
    (det_usize.on StructureStrings.start).cons <|
    det_nil) fun a b e => ?_
  cases a; cases b
  simpa only [id, Prod.mk.injEq, and_true, StructureStrings.mk.injEq] using e

theorem StructureStrings.fed_valid (n : Nat) (x : StructureStrings) (h1 : x.bytes.length < 2 ^ n) (h2 : x.start
    < 2 ^ n) : Fed.AllValid n x.fed :=
  allValid_append.2 ⟨valid_one h1,
  allValid_append.2 ⟨valid_one h2,
  allValid_nil n⟩⟩

theorem oem_strings.OemStrings.fed_det : Det oem_strings.OemStrings.fed id := by
  refine Det.of (
    (det_u16.on oem_strings.OemStrings.handle).cons <|
    (StructureStrings.fed_det.on oem_strings.OemStrings.strings).cons <|
    det_nil) fun a b e => ?_
  cases a; cases b
  simpa only [id, Prod.mk.injEq, and_true, oem_strings.OemStrings.mk.injEq] using e

theorem oem_strings.OemStrings.fed_valid (n : Nat) (x : oem_strings.OemStrings) (h1 : Fed.AllValid n
    x.strings.fed) : Fed.AllValid n x.fed :=
  allValid_append.2 ⟨valid_u16 n _,
  allValid_append.2 ⟨h1,
  allValid_nil n⟩⟩

theorem system_configuration_options.SystemConfigurationOptions.fed_det : Det system_configuration_options.SystemConfigurationOptions.fed id := by
  refine Det.of (
    (det_u16.on system_configuration_options.SystemConfigurationOptions.handle).cons <|
    (StructureStrings.fed_det.on system_configuration_options.SystemConfigurationOptions.strings).cons <|
    det_nil) fun a b e => ?_
  cases a; cases b
  simpa only [id, Prod.mk.injEq, and_true, system_configuration_options.SystemConfigurationOptions.mk.injEq] using e

theorem system_configuration_options.SystemConfigurationOptions.fed_valid (n : Nat) (x :
    system_configuration_options.SystemConfigurationOptions) (h1 : Fed.AllValid n x.strings.fed) : Fed.AllValid
    n x.fed :=
  allValid_append.2 ⟨valid_u16 n _,
  allValid_append.2 ⟨h1,
  allValid_nil n⟩⟩

theorem SmbiosVersion.fed_det : Det SmbiosVersion.fed id := by
  refine Det.of (
    (det_u8.on SmbiosVersion.major).cons <|
    (det_u8.on SmbiosVersion.minor).cons <|
    det_nil) fun a b e => ?_
  cases a; cases b
  simpa only [id, Prod.mk.injEq, and_true, SmbiosVersion.mk.injEq] using e

theorem SmbiosVersion.fed_valid (n : Nat) (x : SmbiosVersion) : Fed.AllValid n x.fed :=
  allValid_append.2 ⟨valid_u8 n _,
  allValid_append.2 ⟨valid_u8 n _,
  allValid_nil n⟩⟩

theorem InfoType.idx_lt (x : InfoType) : x.ctorIdx < 65536 := by
  cases x <;> exact Nat.le_of_ble_eq_true rfl

theorem InfoType.fed_det : Det InfoType.fed id := by
  intro n h8 h32 pre a b r s va vb e
  replace e := idx_step h8 h32 (InfoType.idx_lt a) (InfoType.idx_lt b) va vb e
  clear va vb; obtain ⟨h, va, vb, e⟩ := e
  cases a <;> cases b <;> first | exact absurd h (Nat.ne_of_beq_eq_false rfl) | skip
  · exact ⟨rfl, e⟩
  · exact ⟨rfl, e⟩
  · exact ⟨rfl, e⟩
  · exact ⟨rfl, e⟩
  · exact ⟨rfl, e⟩
  · exact ⟨rfl, e⟩
  · exact ⟨rfl, e⟩
  · exact ⟨rfl, e⟩
  · exact ⟨rfl, e⟩
  · exact ⟨rfl, e⟩
  · exact ⟨rfl, e⟩
  · exact ⟨rfl, e⟩
  · exact ⟨rfl, e⟩
  · exact ⟨rfl, e⟩
  · exact ⟨rfl, e⟩
  · exact ⟨rfl, e⟩
  · exact ⟨rfl, e⟩
  · exact ⟨rfl, e⟩
  · exact ⟨rfl, e⟩
  · exact ⟨rfl, e⟩
  · exact ⟨rfl, e⟩
  · obtain ⟨h1, hr⟩ := det_u8 n h8 h32 pre _ _ r s va vb e
    cases h1
    exact ⟨rfl, hr⟩
  · exact ⟨rfl, e⟩

theorem InfoType.fed_valid (n : Nat) (x : InfoType) : Fed.AllValid n x.fed := by
  refine allValid_cons.2 ⟨trivial, ?_⟩
  cases x <;> first | exact allValid_nil n | exact valid_u8 n _

theorem RawStructure.fed_det : Det RawStructure.fed id := by
  refine Det.of (
    (SmbiosVersion.fed_det.on RawStructure.version).cons <|
    (InfoType.fed_det.on RawStructure.info).cons <|
    (det_u8.on RawStructure.length).cons <|
    (det_u16.on RawStructure.handle).cons <|
    (det_slice.on RawStructure.data).cons <|
    (det_slice.on RawStructure.strings).cons <|
    det_nil) fun a b e => ?_
  cases a; cases b
  simpa only [id, Prod.mk.injEq, and_true, RawStructure.mk.injEq] using e

theorem RawStructure.fed_valid (n : Nat) (x : RawStructure) (h1 : x.data.length < 2 ^ n) (h2 : x.strings.length
    < 2 ^ n) : Fed.AllValid n x.fed :=
  allValid_append.2 ⟨SmbiosVersion.fed_valid n _,
  allValid_append.2 ⟨InfoType.fed_valid n _,
  allValid_append.2 ⟨valid_u8 n _,
  allValid_append.2 ⟨valid_u16 n _,
  allValid_append.2 ⟨valid_one h1,
  allValid_append.2 ⟨valid_one h2,
  allValid_nil n⟩⟩⟩⟩⟩⟩

theorem bios_language.InstallableLanguages.fed_det : Det bios_language.InstallableLanguages.fed id := by
  refine Det.of (
    (RawStructure.fed_det.on bios_language.InstallableLanguages.structure_).cons <|
    (det_u8.on bios_language.InstallableLanguages.index).cons <|
    det_nil) fun a b e => ?_
  cases a; cases b
  simpa only [id, Prod.mk.injEq, and_true, bios_language.InstallableLanguages.mk.injEq] using e

theorem bios_language.InstallableLanguages.fed_valid (n : Nat) (x : bios_language.InstallableLanguages) (h1 :
    Fed.AllValid n x.structure_.fed) : Fed.AllValid n x.fed :=
  allValid_append.2 ⟨h1,
  allValid_append.2 ⟨valid_u8 n _,
  allValid_nil n⟩⟩

theorem bios_language.LanguageFlags.fed_det : Det bios_language.LanguageFlags.fed id := by
  exact (det_u8.on bios_language.LanguageFlags.bits).of fun a b e => by cases a; cases b; exact congrArg _ e

theorem bios_language.LanguageFlags.fed_valid (n : Nat) (x : bios_language.LanguageFlags) : Fed.AllValid n
    x.fed :=
  valid_u8 n _

theorem bios_language.BiosLanguage.fed_det : Det bios_language.BiosLanguage.fed id := by
  refine Det.of (
    (det_u16.on bios_language.BiosLanguage.handle).cons <|
    (bios_language.InstallableLanguages.fed_det.on bios_language.BiosLanguage.installable_languages).cons <|
    ((det_opt bios_language.LanguageFlags.fed_det).on bios_language.BiosLanguage.flags).cons <|
    (det_u8.on bios_language.BiosLanguage.current_language).cons <|
    det_nil) fun a b e => ?_
  cases a; cases b
  simpa only [id, Prod.mk.injEq, and_true, bios_language.BiosLanguage.mk.injEq] using e

theorem bios_language.BiosLanguage.fed_valid (n : Nat) (x : bios_language.BiosLanguage) (h1 : Fed.AllValid n
    x.installable_languages.fed) : Fed.AllValid n x.fed :=
  allValid_append.2 ⟨valid_u16 n _,
  allValid_append.2 ⟨h1,
  allValid_append.2 ⟨valid_opt fun _ _ => bios_language.LanguageFlags.fed_valid n _,
  allValid_append.2 ⟨valid_u8 n _,
  allValid_nil n⟩⟩⟩⟩

theorem group_associations.GroupItems.fed_det : Det group_associations.GroupItems.fed id := by
  refine Det.of (
    (det_slice.on group_associations.GroupItems.data).cons <|
    (det_usize.on group_associations.GroupItems.index).cons <|
    det_nil) fun a b e => ?_
  cases a; cases b
  simpa only [id, Prod.mk.injEq, and_true, group_associations.GroupItems.mk.injEq] using e

theorem group_associations.GroupItems.fed_valid (n : Nat) (x : group_associations.GroupItems) (h1 :
    x.data.length < 2 ^ n) (h2 : x.index < 2 ^ n) : Fed.AllValid n x.fed :=
  allValid_append.2 ⟨valid_one h1,
  allValid_append.2 ⟨valid_one h2,
  allValid_nil n⟩⟩

theorem group_associations.GroupAssociations.fed_det : Det group_associations.GroupAssociations.fed id := by
  refine Det.of (
    (det_u16.on group_associations.GroupAssociations.handle).cons <|
    (det_str.on group_associations.GroupAssociations.group_name).cons <|
    (group_associations.GroupItems.fed_det.on group_associations.GroupAssociations.items).cons <|
    det_nil) fun a b e => ?_
  cases a; cases b
  simpa only [id, Prod.mk.injEq, and_true, group_associations.GroupAssociations.mk.injEq] using e

theorem group_associations.GroupAssociations.fed_valid (n : Nat) (x : group_associations.GroupAssociations) (h1
    : (0xFF : UInt8) ∉ x.group_name) (h2 : Fed.AllValid n x.items.fed) : Fed.AllValid n x.fed :=
  allValid_append.2 ⟨valid_u16 n _,
  allValid_append.2 ⟨valid_one h1,
  allValid_append.2 ⟨h2,
  allValid_nil n⟩⟩⟩

theorem system_event_log.AccessMethod.idx_lt (x : system_event_log.AccessMethod) : x.ctorIdx < 65536 := by
  cases x <;> exact Nat.le_of_ble_eq_true rfl

theorem system_event_log.AccessMethod.fed_det : Det system_event_log.AccessMethod.fed id := by
  intro n h8 h32 pre a b r s va vb e
  replace e := idx_step h8 h32 (system_event_log.AccessMethod.idx_lt a) (system_event_log.AccessMethod.idx_lt b) va vb e
  clear va vb; obtain ⟨h, va, vb, e⟩ := e
  cases a <;> cases b <;> first | exact absurd h (Nat.ne_of_beq_eq_false rfl) | skip
  · obtain ⟨h1, va, vb, e⟩ := det_u8.step h8 h32 va vb e
    obtain ⟨h2, va, vb, hr⟩ := det_u8.step h8 h32 va vb e
    cases h1; cases h2
    exact ⟨rfl, hr⟩
  · obtain ⟨h1, va, vb, e⟩ := det_slice.step h8 h32 va vb e
    obtain ⟨h2, va, vb, hr⟩ := det_u8.step h8 h32 va vb e
    injection h1 with h1 h3
    injection h3 with h3
    cases h1; cases h3; cases h2
    exact ⟨rfl, hr⟩
  · obtain ⟨h1, va, vb, e⟩ := det_u16.step h8 h32 va vb e
    obtain ⟨h2, va, vb, hr⟩ := det_u8.step h8 h32 va vb e
    cases h1; cases h2
    exact ⟨rfl, hr⟩
  · obtain ⟨h1, hr⟩ := det_u32 n h8 h32 pre _ _ r s va vb e
    cases h1
    exact ⟨rfl, hr⟩
  · obtain ⟨h1, hr⟩ := det_u16 n h8 h32 pre _ _ r s va vb e
    cases h1
    exact ⟨rfl, hr⟩
  · obtain ⟨h1, va, vb, e⟩ := det_u8.step h8 h32 va vb e
    obtain ⟨h2, va, vb, hr⟩ := det_u32.step h8 h32 va vb e
    cases h1; cases h2
    exact ⟨rfl, hr⟩
  · obtain ⟨h1, va, vb, e⟩ := det_u8.step h8 h32 va vb e
    obtain ⟨h2, va, vb, hr⟩ := det_u32.step h8 h32 va vb e
    cases h1; cases h2
    exact ⟨rfl, hr⟩

theorem system_event_log.AccessMethod.fed_valid (n : Nat) (hn : 32 ≤ n) (x : system_event_log.AccessMethod) : Fed.AllValid n x.fed := by
  refine allValid_cons.2 ⟨trivial, ?_⟩
  cases x
  · exact allValid_append.2 ⟨valid_u8 n _, allValid_append.2 ⟨valid_u8 n _, allValid_nil n⟩⟩
  · exact allValid_append.2 ⟨valid_one (Nat.lt_of_lt_of_le (by decide : 2 < 2 ^ 32) (Nat.pow_le_pow_right (by decide) hn)),
        allValid_append.2 ⟨valid_u8 n _, allValid_nil n⟩⟩
  · exact allValid_append.2 ⟨valid_u16 n _, allValid_append.2 ⟨valid_u8 n _, allValid_nil n⟩⟩
  · exact valid_u32 n _
  · exact valid_u16 n _
  · exact allValid_append.2 ⟨valid_u8 n _, allValid_append.2 ⟨valid_u32 n _, allValid_nil n⟩⟩
  · exact allValid_append.2 ⟨valid_u8 n _, allValid_append.2 ⟨valid_u32 n _, allValid_nil n⟩⟩

theorem system_event_log.LogStatus.fed_det : Det system_event_log.LogStatus.fed id := by
  exact (det_u8.on system_event_log.LogStatus.bits).of fun a b e => by cases a; cases b; exact congrArg _ e

theorem system_event_log.LogStatus.fed_valid (n : Nat) (x : system_event_log.LogStatus) : Fed.AllValid n x.fed
    :=
  valid_u8 n _

theorem system_event_log.LogHeaderFormat.idx_lt (x : system_event_log.LogHeaderFormat) : x.ctorIdx < 65536 := by
  cases x <;> exact Nat.le_of_ble_eq_true rfl

theorem system_event_log.LogHeaderFormat.fed_det : Det system_event_log.LogHeaderFormat.fed id := by
  intro n h8 h32 pre a b r s va vb e
  replace e := idx_step h8 h32 (system_event_log.LogHeaderFormat.idx_lt a) (system_event_log.LogHeaderFormat.idx_lt b) va vb e
  clear va vb; obtain ⟨h, va, vb, e⟩ := e
  cases a <;> cases b <;> first | exact absurd h (Nat.ne_of_beq_eq_false rfl) | skip
  · exact ⟨rfl, e⟩
  · exact ⟨rfl, e⟩
  · obtain ⟨h1, hr⟩ := det_u8 n h8 h32 pre _ _ r s va vb e
    cases h1
    exact ⟨rfl, hr⟩
  · obtain ⟨h1, hr⟩ := det_u8 n h8 h32 pre _ _ r s va vb e
    cases h1
    exact ⟨rfl, hr⟩

theorem system_event_log.LogHeaderFormat.fed_valid (n : Nat) (x : system_event_log.LogHeaderFormat) : Fed.AllValid n x.fed := by
  refine allValid_cons.2 ⟨trivial, ?_⟩
  cases x
  · exact allValid_nil n
  · exact allValid_nil n
  · exact valid_u8 n _
  · exact valid_u8 n _

theorem system_event_log.SupportedEventLogTypeDescriptors.fed_det : Det system_event_log.SupportedEventLogTypeDescriptors.fed id := fun _ _ _ _ _ _ _ _ va _ _ =>
  (allValid_cons.1 va).1.elim

theorem system_event_log.SystemEventLog.fed_det : Det system_event_log.SystemEventLog.fed id := by
  refine Det.of (
    (det_u16.on system_event_log.SystemEventLog.handle).cons <|
    (det_u16.on system_event_log.SystemEventLog.log_area_length).cons <|
    (det_u16.on system_event_log.SystemEventLog.log_header_start_offset).cons <|
    (det_u16.on system_event_log.SystemEventLog.log_data_start_offset).cons <|
    (system_event_log.AccessMethod.fed_det.on system_event_log.SystemEventLog.access_method).cons <|
    (system_event_log.LogStatus.fed_det.on system_event_log.SystemEventLog.log_status).cons <|
    (det_u32.on system_event_log.SystemEventLog.log_change_token).cons <|
    ((det_opt system_event_log.LogHeaderFormat.fed_det).on system_event_log.SystemEventLog.log_header_format).cons <|
    ((det_opt system_event_log.SupportedEventLogTypeDescriptors.fed_det).on system_event_log.SystemEventLog.supported_event_log_type_descriptors).cons <|
    det_nil) fun a b e => ?_
  cases a; cases b
  simpa only [id, Prod.mk.injEq, and_true, system_event_log.SystemEventLog.mk.injEq] using e

theorem system_event_log.SystemEventLog.fed_valid (n : Nat) (x : system_event_log.SystemEventLog) (h1 :
    Fed.AllValid n x.access_method.fed) (h2 : ∀ y, x.supported_event_log_type_descriptors = some y →
    Fed.AllValid n y.fed) : Fed.AllValid n x.fed :=
  allValid_append.2 ⟨valid_u16 n _,
  allValid_append.2 ⟨valid_u16 n _,
  allValid_append.2 ⟨valid_u16 n _,
  allValid_append.2 ⟨valid_u16 n _,
  allValid_append.2 ⟨h1,
  allValid_append.2 ⟨system_event_log.LogStatus.fed_valid n _,
  allValid_append.2 ⟨valid_u32 n _,
  allValid_append.2 ⟨valid_opt fun _ _ => system_event_log.LogHeaderFormat.fed_valid n _,
  allValid_append.2 ⟨valid_opt fun y hy => (h2 y hy),
  allValid_nil n⟩⟩⟩⟩⟩⟩⟩⟩⟩

theorem memory_device.FormFactor.idx_lt (x : memory_device.FormFactor) : x.ctorIdx < 65536 := by
  cases x <;> exact Nat.le_of_ble_eq_true rfl

theorem memory_device.FormFactor.fed_det : Det memory_device.FormFactor.fed id := by
  intro n h8 h32 pre a b r s va vb e
  replace e := idx_step h8 h32 (memory_device.FormFactor.idx_lt a) (memory_device.FormFactor.idx_lt b) va vb e
  clear va vb; obtain ⟨h, va, vb, e⟩ := e
  cases a <;> cases b <;> first | exact absurd h (Nat.ne_of_beq_eq_false rfl) | skip
  · exact ⟨rfl, e⟩
  · exact ⟨rfl, e⟩
  · exact ⟨rfl, e⟩
  · exact ⟨rfl, e⟩
  · exact ⟨rfl, e⟩
  · exact ⟨rfl, e⟩
  · exact ⟨rfl, e⟩
  · exact ⟨rfl, e⟩
  · exact ⟨rfl, e⟩
  · exact ⟨rfl, e⟩
  · exact ⟨rfl, e⟩
  · exact ⟨rfl, e⟩
  · exact ⟨rfl, e⟩
  · exact ⟨rfl, e⟩
  · exact ⟨rfl, e⟩
  · obtain ⟨h1, hr⟩ := det_u8 n h8 h32 pre _ _ r s va vb e
    cases h1
    exact ⟨rfl, hr⟩

theorem memory_device.FormFactor.fed_valid (n : Nat) (x : memory_device.FormFactor) : Fed.AllValid n x.fed := by
  refine allValid_cons.2 ⟨trivial, ?_⟩
  cases x <;> first | exact allValid_nil n | exact valid_u8 n _

theorem memory_device.MemoryType.idx_lt (x : memory_device.MemoryType) : x.ctorIdx < 65536 := by
  cases x <;> exact Nat.le_of_ble_eq_true rfl

theorem memory_device.MemoryType.fed_det : Det memory_device.MemoryType.fed id := by
  refine det_enum memory_device.MemoryType.ctorIdx (memory_device.MemoryType.fields) (fun _ => rfl) memory_device.MemoryType.idx_lt (nullary! memory_device.MemoryType)
    (fun a => (∃ v, a = .Undefined v)) (fun a => ?_) (by decide +kernel) (by decide +kernel) ?_ ?_
  · cases a <;> first | exact .inr ⟨_, rfl⟩ | exact .inl (by decide +kernel)
  · rintro _ (⟨v, rfl⟩)
    · exact (by decide +kernel : 33 ∉ (nullary! memory_device.MemoryType).map memory_device.MemoryType.ctorIdx)
  · rintro _ _ (⟨v, rfl⟩) (⟨w, rfl⟩) h n h8 h32 pre r s va vb e
    · obtain ⟨h1, hr⟩ := det_u8 n h8 h32 pre _ _ r s va vb e
      cases h1
      exact ⟨rfl, hr⟩

theorem memory_device.MemoryType.fed_valid (n : Nat) (x : memory_device.MemoryType) : Fed.AllValid n x.fed := by
  refine allValid_cons.2 ⟨trivial, ?_⟩
  cases x <;> first | exact allValid_nil n | exact valid_u8 n _

theorem memory_device.Detail.fed_det : Det memory_device.Detail.fed id :=
  (det_u16.on memory_device.Detail.bits).of fun a b e => by cases a; cases b; exact congrArg _ e

theorem memory_device.Detail.fed_valid (n : Nat) (x : memory_device.Detail) : Fed.AllValid n x.fed := valid_u16 n _

theorem memory_device.MemoryTechnology.idx_lt (x : memory_device.MemoryTechnology) : x.ctorIdx < 65536 := by
  cases x <;> exact Nat.le_of_ble_eq_true rfl

theorem memory_device.MemoryTechnology.fed_det : Det memory_device.MemoryTechnology.fed id := by
  intro n h8 h32 pre a b r s va vb e
  replace e := idx_step h8 h32 (memory_device.MemoryTechnology.idx_lt a) (memory_device.MemoryTechnology.idx_lt b) va vb e
  clear va vb; obtain ⟨h, va, vb, e⟩ := e
  cases a <;> cases b <;> first | exact absurd h (Nat.ne_of_beq_eq_false rfl) | skip
  · exact ⟨rfl, e⟩
  · exact ⟨rfl, e⟩
  · exact ⟨rfl, e⟩
  · exact ⟨rfl, e⟩
  · exact ⟨rfl, e⟩
  · exact ⟨rfl, e⟩
  · exact ⟨rfl, e⟩
  · obtain ⟨h1, hr⟩ := det_u8 n h8 h32 pre _ _ r s va vb e
    cases h1
    exact ⟨rfl, hr⟩

theorem memory_device.MemoryTechnology.fed_valid (n : Nat) (x : memory_device.MemoryTechnology) : Fed.AllValid n x.fed := by
  refine allValid_cons.2 ⟨trivial, ?_⟩
  cases x <;> first | exact allValid_nil n | exact valid_u8 n _

theorem memory_device.OperatingModes.fed_det : Det memory_device.OperatingModes.fed id :=
  (det_u16.on memory_device.OperatingModes.bits).of fun a b e => by cases a; cases b; exact congrArg _ e

theorem memory_device.OperatingModes.fed_valid (n : Nat) (x : memory_device.OperatingModes) : Fed.AllValid n x.fed := valid_u16 n _

theorem memory_device.MemoryDevice.fed_det : Det memory_device.MemoryDevice.fed id := by
  refine Det.of (
    (det_u16.on memory_device.MemoryDevice.handle).cons <|
    (det_u16.on memory_device.MemoryDevice.physical_memory_handle).cons <|
    ((det_opt det_u16).on memory_device.MemoryDevice.memory_error_handle).cons <|
    ((det_opt det_u16).on memory_device.MemoryDevice.total_width).cons <|
    ((det_opt det_u16).on memory_device.MemoryDevice.data_width).cons <|
    ((det_opt det_u16).on memory_device.MemoryDevice.size).cons <|
    (memory_device.FormFactor.fed_det.on memory_device.MemoryDevice.form_factor).cons <|
    ((det_opt det_u8).on memory_device.MemoryDevice.device_set).cons <|
    (det_str.on memory_device.MemoryDevice.device_locator).cons <|
    (det_str.on memory_device.MemoryDevice.bank_locator).cons <|
    (memory_device.MemoryType.fed_det.on memory_device.MemoryDevice.memory_type).cons <|
    (memory_device.Detail.fed_det.on memory_device.MemoryDevice.type_detail).cons <|
    ((det_opt det_u16).on memory_device.MemoryDevice.speed).cons <|
    (det_str.on memory_device.MemoryDevice.manufacturer).cons <|
    (det_str.on memory_device.MemoryDevice.serial).cons <|
    (det_str.on memory_device.MemoryDevice.asset_tag).cons <|
    (det_str.on memory_device.MemoryDevice.part_number).cons <|
    (det_u8.on memory_device.MemoryDevice.attributes).cons <|
    (det_u32.on memory_device.MemoryDevice.extended_size).cons <|
    ((det_opt det_u16).on memory_device.MemoryDevice.configured_memory_speed).cons <|
    ((det_opt det_u16).on memory_device.MemoryDevice.minimum_voltage).cons <|
    ((det_opt det_u16).on memory_device.MemoryDevice.maximum_voltage).cons <|
    ((det_opt det_u16).on memory_device.MemoryDevice.configured_voltage).cons <|
    ((det_opt memory_device.MemoryTechnology.fed_det).on memory_device.MemoryDevice.memory_technology).cons <|
    ((det_opt memory_device.OperatingModes.fed_det).on memory_device.MemoryDevice.operating_mode_capability).cons <|
    ((det_opt det_str).on memory_device.MemoryDevice.firmware_version).cons <|
    ((det_opt det_u16).on memory_device.MemoryDevice.module_manufacturer).cons <|
    ((det_opt det_u16).on memory_device.MemoryDevice.module_product_id).cons <|
    ((det_opt det_u16).on memory_device.MemoryDevice.memory_subsystem_controller_manufacturer_id).cons <|
    ((det_opt det_u16).on memory_device.MemoryDevice.memory_subsystem_controller_product_id).cons <|
    ((det_opt det_u64).on memory_device.MemoryDevice.non_volatile_size).cons <|
    ((det_opt det_u64).on memory_device.MemoryDevice.volatile_size).cons <|
    ((det_opt det_u64).on memory_device.MemoryDevice.cache_size).cons <|
    ((det_opt det_u64).on memory_device.MemoryDevice.logical_size).cons <|
    ((det_opt det_u32).on memory_device.MemoryDevice.extended_speed).cons <|
    ((det_opt det_u32).on memory_device.MemoryDevice.extended_configured_memory_speed).cons <|
    det_nil) fun a b e => ?_
  cases a; cases b
  simpa only [id, Prod.mk.injEq, and_true, memory_device.MemoryDevice.mk.injEq] using e

theorem memory_device.MemoryDevice.fed_valid (n : Nat) (x : memory_device.MemoryDevice) (h1 : (0xFF : UInt8) ∉
    x.device_locator) (h2 : (0xFF : UInt8) ∉ x.bank_locator) (h3 : (0xFF : UInt8) ∉ x.manufacturer) (h4 : (0xFF
    : UInt8) ∉ x.serial) (h5 : (0xFF : UInt8) ∉ x.asset_tag) (h6 : (0xFF : UInt8) ∉ x.part_number) (h7 : ∀ y,
    x.firmware_version = some y → (0xFF : UInt8) ∉ y) : Fed.AllValid n x.fed :=
  allValid_append.2 ⟨valid_u16 n _,
  allValid_append.2 ⟨valid_u16 n _,
  allValid_append.2 ⟨valid_opt fun _ _ => valid_u16 n _,
  allValid_append.2 ⟨valid_opt fun _ _ => valid_u16 n _,
  allValid_append.2 ⟨valid_opt fun _ _ => valid_u16 n _,
  allValid_append.2 ⟨valid_opt fun _ _ => valid_u16 n _,
  allValid_append.2 ⟨memory_device.FormFactor.fed_valid n _,
  allValid_append.2 ⟨valid_opt fun _ _ => valid_u8 n _,
  allValid_append.2 ⟨valid_one h1,
  allValid_append.2 ⟨valid_one h2,
  allValid_append.2 ⟨memory_device.MemoryType.fed_valid n _,
  allValid_append.2 ⟨memory_device.Detail.fed_valid n _,
  allValid_append.2 ⟨valid_opt fun _ _ => valid_u16 n _,
  allValid_append.2 ⟨valid_one h3,
  allValid_append.2 ⟨valid_one h4,
  allValid_append.2 ⟨valid_one h5,
  allValid_append.2 ⟨valid_one h6,
  allValid_append.2 ⟨valid_u8 n _,
  allValid_append.2 ⟨valid_u32 n _,
  allValid_append.2 ⟨valid_opt fun _ _ => valid_u16 n _,
  allValid_append.2 ⟨valid_opt fun _ _ => valid_u16 n _,
  allValid_append.2 ⟨valid_opt fun _ _ => valid_u16 n _,
  allValid_append.2 ⟨valid_opt fun _ _ => valid_u16 n _,
  allValid_append.2 ⟨valid_opt fun _ _ => memory_device.MemoryTechnology.fed_valid n _,
  allValid_append.2 ⟨valid_opt fun _ _ => memory_device.OperatingModes.fed_valid n _,
  allValid_append.2 ⟨valid_opt fun y hy => valid_one (h7 y hy),
  allValid_append.2 ⟨valid_opt fun _ _ => valid_u16 n _,
  allValid_append.2 ⟨valid_opt fun _ _ => valid_u16 n _,
  allValid_append.2 ⟨valid_opt fun _ _ => valid_u16 n _,
  allValid_append.2 ⟨valid_opt fun _ _ => valid_u16 n _,
  allValid_append.2 ⟨valid_opt fun _ _ => valid_u64 n _,
  allValid_append.2 ⟨valid_opt fun _ _ => valid_u64 n _,
  allValid_append.2 ⟨valid_opt fun _ _ => valid_u64 n _,
  allValid_append.2 ⟨valid_opt fun _ _ => valid_u64 n _,
  allValid_append.2 ⟨valid_opt fun _ _ => valid_u32 n _,
  allValid_append.2 ⟨valid_opt fun _ _ => valid_u32 n _,
  allValid_nil n⟩⟩⟩⟩⟩⟩⟩⟩⟩⟩⟩⟩⟩⟩⟩⟩⟩⟩⟩⟩⟩⟩⟩⟩⟩⟩⟩⟩⟩⟩⟩⟩⟩⟩⟩⟩

theorem memory_error_32.ErrorType.idx_lt (x : memory_error_32.ErrorType) : x.ctorIdx < 65536 := by
  cases x <;> exact Nat.le_of_ble_eq_true rfl

theorem memory_error_32.ErrorType.fed_det : Det memory_error_32.ErrorType.fed id := by
  intro n h8 h32 pre a b r s va vb e
  replace e := idx_step h8 h32 (memory_error_32.ErrorType.idx_lt a) (memory_error_32.ErrorType.idx_lt b) va vb e
  clear va vb; obtain ⟨h, va, vb, e⟩ := e
  cases a <;> cases b <;> first | exact absurd h (Nat.ne_of_beq_eq_false rfl) | skip
  · exact ⟨rfl, e⟩
  · exact ⟨rfl, e⟩
  · exact ⟨rfl, e⟩
  · exact ⟨rfl, e⟩
  · exact ⟨rfl, e⟩
  · exact ⟨rfl, e⟩
  · exact ⟨rfl, e⟩
  · exact ⟨rfl, e⟩
  · exact ⟨rfl, e⟩
  · exact ⟨rfl, e⟩
  · exact ⟨rfl, e⟩
  · exact ⟨rfl, e⟩
  · exact ⟨rfl, e⟩
  · exact ⟨rfl, e⟩
  · obtain ⟨h1, hr⟩ := det_u8 n h8 h32 pre _ _ r s va vb e
    cases h1
    exact ⟨rfl, hr⟩

theorem memory_error_32.ErrorType.fed_valid (n : Nat) (x : memory_error_32.ErrorType) : Fed.AllValid n x.fed := by
  refine allValid_cons.2 ⟨trivial, ?_⟩
  cases x <;> first | exact allValid_nil n | exact valid_u8 n _

theorem memory_error_32.ErrorGranularity.idx_lt (x : memory_error_32.ErrorGranularity) : x.ctorIdx < 65536 := by
  cases x <;> exact Nat.le_of_ble_eq_true rfl

theorem memory_error_32.ErrorGranularity.fed_det : Det memory_error_32.ErrorGranularity.fed id := by
  intro n h8 h32 pre a b r s va vb e
  replace e := idx_step h8 h32 (memory_error_32.ErrorGranularity.idx_lt a) (memory_error_32.ErrorGranularity.idx_lt b) va vb e
  clear va vb; obtain ⟨h, va, vb, e⟩ := e
  cases a <;> cases b <;> first | exact absurd h (Nat.ne_of_beq_eq_false rfl) | skip
  · exact ⟨rfl, e⟩
  · exact ⟨rfl, e⟩
  · exact ⟨rfl, e⟩
  · exact ⟨rfl, e⟩
  · obtain ⟨h1, hr⟩ := det_u8 n h8 h32 pre _ _ r s va vb e
    cases h1
    exact ⟨rfl, hr⟩

theorem memory_error_32.ErrorGranularity.fed_valid (n : Nat) (x : memory_error_32.ErrorGranularity) : Fed.AllValid n x.fed := by
  refine allValid_cons.2 ⟨trivial, ?_⟩
  cases x
  · exact allValid_nil n
  · exact allValid_nil n
  · exact allValid_nil n
  · exact allValid_nil n
  · exact valid_u8 n _

theorem memory_error_32.ErrorOperation.idx_lt (x : memory_error_32.ErrorOperation) : x.ctorIdx < 65536 := by
  cases x <;> exact Nat.le_of_ble_eq_true rfl

theorem memory_error_32.ErrorOperation.fed_det : Det memory_error_32.ErrorOperation.fed id := by
  intro n h8 h32 pre a b r s va vb e
  replace e := idx_step h8 h32 (memory_error_32.ErrorOperation.idx_lt a) (memory_error_32.ErrorOperation.idx_lt b) va vb e
  clear va vb; obtain ⟨h, va, vb, e⟩ := e
  cases a <;> cases b <;> first | exact absurd h (Nat.ne_of_beq_eq_false rfl) | skip
  · exact ⟨rfl, e⟩
  · exact ⟨rfl, e⟩
  · exact ⟨rfl, e⟩
  · exact ⟨rfl, e⟩
  · exact ⟨rfl, e⟩
  · obtain ⟨h1, hr⟩ := det_u8 n h8 h32 pre _ _ r s va vb e
    cases h1
    exact ⟨rfl, hr⟩

theorem memory_error_32.ErrorOperation.fed_valid (n : Nat) (x : memory_error_32.ErrorOperation) : Fed.AllValid n x.fed := by
  refine allValid_cons.2 ⟨trivial, ?_⟩
  cases x
  · exact allValid_nil n
  · exact allValid_nil n
  · exact allValid_nil n
  · exact allValid_nil n
  · exact allValid_nil n
  · exact valid_u8 n _

theorem memory_error_32.MemoryError32.fed_det : Det memory_error_32.MemoryError32.fed id := by
  refine Det.of (
    (det_u16.on memory_error_32.MemoryError32.handle).cons <|
    (memory_error_32.ErrorType.fed_det.on memory_error_32.MemoryError32.error_type).cons <|
    (memory_error_32.ErrorGranularity.fed_det.on memory_error_32.MemoryError32.error_granularity).cons <|
    (memory_error_32.ErrorOperation.fed_det.on memory_error_32.MemoryError32.error_operation).cons <|
    (det_u32.on memory_error_32.MemoryError32.vendor_syndrome).cons <|
    (det_u32.on memory_error_32.MemoryError32.memory_array_error_address).cons <|
    (det_u32.on memory_error_32.MemoryError32.device_error_address).cons <|
    (det_u32.on memory_error_32.MemoryError32.error_resolution).cons <|
    det_nil) fun a b e => ?_
  cases a; cases b
  simpa only [id, Prod.mk.injEq, and_true, memory_error_32.MemoryError32.mk.injEq] using e

theorem memory_error_32.MemoryError32.fed_valid (n : Nat) (x : memory_error_32.MemoryError32) : Fed.AllValid n
    x.fed :=
  allValid_append.2 ⟨valid_u16 n _,
  allValid_append.2 ⟨memory_error_32.ErrorType.fed_valid n _,
  allValid_append.2 ⟨memory_error_32.ErrorGranularity.fed_valid n _,
  allValid_append.2 ⟨memory_error_32.ErrorOperation.fed_valid n _,
  allValid_append.2 ⟨valid_u32 n _,
  allValid_append.2 ⟨valid_u32 n _,
  allValid_append.2 ⟨valid_u32 n _,
  allValid_append.2 ⟨valid_u32 n _,
  allValid_nil n⟩⟩⟩⟩⟩⟩⟩⟩

theorem memory_array_mapped_address.MemoryArrayMappedAddress.fed_det : Det memory_array_mapped_address.MemoryArrayMappedAddress.fed id := by
  refine Det.of (
    (det_u16.on memory_array_mapped_address.MemoryArrayMappedAddress.handle).cons <|
    (det_u32.on memory_array_mapped_address.MemoryArrayMappedAddress.starting_address).cons <|
    (det_u32.on memory_array_mapped_address.MemoryArrayMappedAddress.ending_address).cons <|
    (det_u16.on memory_array_mapped_address.MemoryArrayMappedAddress.memory_array_handle).cons <|
    (det_u8.on memory_array_mapped_address.MemoryArrayMappedAddress.partition_width).cons <|
    ((det_opt det_u64).on memory_array_mapped_address.MemoryArrayMappedAddress.extended_starting_address).cons <|
    ((det_opt det_u64).on memory_array_mapped_address.MemoryArrayMappedAddress.extended_ending_address).cons <|
    det_nil) fun a b e => ?_
  cases a; cases b
  simpa only [id, Prod.mk.injEq, and_true, memory_array_mapped_address.MemoryArrayMappedAddress.mk.injEq] using e

theorem memory_array_mapped_address.MemoryArrayMappedAddress.fed_valid (n : Nat) (x :
    memory_array_mapped_address.MemoryArrayMappedAddress) : Fed.AllValid n x.fed :=
  allValid_append.2 ⟨valid_u16 n _,
  allValid_append.2 ⟨valid_u32 n _,
  allValid_append.2 ⟨valid_u32 n _,
  allValid_append.2 ⟨valid_u16 n _,
  allValid_append.2 ⟨valid_u8 n _,
  allValid_append.2 ⟨valid_opt fun _ _ => valid_u64 n _,
  allValid_append.2 ⟨valid_opt fun _ _ => valid_u64 n _,
  allValid_nil n⟩⟩⟩⟩⟩⟩⟩

theorem memory_device_mapped_address.MemoryDeviceMappedAddress.fed_det : Det memory_device_mapped_address.MemoryDeviceMappedAddress.fed id := by
  refine Det.of (
    (det_u16.on memory_device_mapped_address.MemoryDeviceMappedAddress.handle).cons <|
    (det_u32.on memory_device_mapped_address.MemoryDeviceMappedAddress.starting_address).cons <|
    (det_u32.on memory_device_mapped_address.MemoryDeviceMappedAddress.ending_address).cons <|
    (det_u16.on memory_device_mapped_address.MemoryDeviceMappedAddress.memory_device_handle).cons <|
    (det_u16.on memory_device_mapped_address.MemoryDeviceMappedAddress.memory_array_mapped_address_handle).cons <|
    (det_u8.on memory_device_mapped_address.MemoryDeviceMappedAddress.partition_row_position).cons <|
    (det_u8.on memory_device_mapped_address.MemoryDeviceMappedAddress.interleave_position).cons <|
    (det_u8.on memory_device_mapped_address.MemoryDeviceMappedAddress.interleaved_data_depth).cons <|
    ((det_opt det_u64).on memory_device_mapped_address.MemoryDeviceMappedAddress.extended_starting_address).cons <|
    ((det_opt det_u64).on memory_device_mapped_address.MemoryDeviceMappedAddress.extended_ending_address).cons <|
    det_nil) fun a b e => ?_
  cases a; cases b
  simpa only [id, Prod.mk.injEq, and_true, memory_device_mapped_address.MemoryDeviceMappedAddress.mk.injEq] using e

theorem memory_device_mapped_address.MemoryDeviceMappedAddress.fed_valid (n : Nat) (x :
    memory_device_mapped_address.MemoryDeviceMappedAddress) : Fed.AllValid n x.fed :=
  allValid_append.2 ⟨valid_u16 n _,
  allValid_append.2 ⟨valid_u32 n _,
  allValid_append.2 ⟨valid_u32 n _,
  allValid_append.2 ⟨valid_u16 n _,
  allValid_append.2 ⟨valid_u16 n _,
  allValid_append.2 ⟨valid_u8 n _,
  allValid_append.2 ⟨valid_u8 n _,
  allValid_append.2 ⟨valid_u8 n _,
  allValid_append.2 ⟨valid_opt fun _ _ => valid_u64 n _,
  allValid_append.2 ⟨valid_opt fun _ _ => valid_u64 n _,
  allValid_nil n⟩⟩⟩⟩⟩⟩⟩⟩⟩⟩

theorem built_in_pointing_device.DeviceType.idx_lt (x : built_in_pointing_device.DeviceType) : x.ctorIdx < 65536 := by
  cases x <;> exact Nat.le_of_ble_eq_true rfl

theorem built_in_pointing_device.DeviceType.fed_det : Det built_in_pointing_device.DeviceType.fed id := by
  intro n h8 h32 pre a b r s va vb e
  replace e := idx_step h8 h32 (built_in_pointing_device.DeviceType.idx_lt a) (built_in_pointing_device.DeviceType.idx_lt b) va vb e
  clear va vb; obtain ⟨h, va, vb, e⟩ := e
  cases a <;> cases b <;> first | exact absurd h (Nat.ne_of_beq_eq_false rfl) | skip
  · exact ⟨rfl, e⟩
  · exact ⟨rfl, e⟩
  · exact ⟨rfl, e⟩
  · exact ⟨rfl, e⟩
  · exact ⟨rfl, e⟩
  · exact ⟨rfl, e⟩
  · exact ⟨rfl, e⟩
  · exact ⟨rfl, e⟩
  · exact ⟨rfl, e⟩
  · obtain ⟨h1, hr⟩ := det_u8 n h8 h32 pre _ _ r s va vb e
    cases h1
    exact ⟨rfl, hr⟩

theorem built_in_pointing_device.DeviceType.fed_valid (n : Nat) (x : built_in_pointing_device.DeviceType) : Fed.AllValid n x.fed := by
  refine allValid_cons.2 ⟨trivial, ?_⟩
  cases x <;> first | exact allValid_nil n | exact valid_u8 n _

theorem built_in_pointing_device.Interface.idx_lt (x : built_in_pointing_device.Interface) : x.ctorIdx < 65536 := by
  cases x <;> exact Nat.le_of_ble_eq_true rfl

theorem built_in_pointing_device.Interface.fed_det : Det built_in_pointing_device.Interface.fed id := by
  intro n h8 h32 pre a b r s va vb e
  replace e := idx_step h8 h32 (built_in_pointing_device.Interface.idx_lt a) (built_in_pointing_device.Interface.idx_lt b) va vb e
  clear va vb; obtain ⟨h, va, vb, e⟩ := e
  cases a <;> cases b <;> first | exact absurd h (Nat.ne_of_beq_eq_false rfl) | skip
  · exact ⟨rfl, e⟩
  · exact ⟨rfl, e⟩
  · exact ⟨rfl, e⟩
  · exact ⟨rfl, e⟩
  · exact ⟨rfl, e⟩
  · exact ⟨rfl, e⟩
  · exact ⟨rfl, e⟩
  · exact ⟨rfl, e⟩
  · exact ⟨rfl, e⟩
  · exact ⟨rfl, e⟩
  · exact ⟨rfl, e⟩
  · obtain ⟨h1, hr⟩ := det_u8 n h8 h32 pre _ _ r s va vb e
    cases h1
    exact ⟨rfl, hr⟩

theorem built_in_pointing_device.Interface.fed_valid (n : Nat) (x : built_in_pointing_device.Interface) : Fed.AllValid n x.fed := by
  refine allValid_cons.2 ⟨trivial, ?_⟩
  cases x <;> first | exact allValid_nil n | exact valid_u8 n _

theorem built_in_pointing_device.BuiltInPointingDevice.fed_det : Det built_in_pointing_device.BuiltInPointingDevice.fed id := by
  refine Det.of (
    (det_u16.on built_in_pointing_device.BuiltInPointingDevice.handle).cons <|
    (built_in_pointing_device.DeviceType.fed_det.on built_in_pointing_device.BuiltInPointingDevice.type_).cons <|
    (built_in_pointing_device.Interface.fed_det.on built_in_pointing_device.BuiltInPointingDevice.interface).cons <|
    (det_u8.on built_in_pointing_device.BuiltInPointingDevice.number_of_buttons).cons <|
    det_nil) fun a b e => ?_
  cases a; cases b
  simpa only [id, Prod.mk.injEq, and_true, built_in_pointing_device.BuiltInPointingDevice.mk.injEq] using e

theorem built_in_pointing_device.BuiltInPointingDevice.fed_valid (n : Nat) (x :
    built_in_pointing_device.BuiltInPointingDevice) : Fed.AllValid n x.fed :=
  allValid_append.2 ⟨valid_u16 n _,
  allValid_append.2 ⟨built_in_pointing_device.DeviceType.fed_valid n _,
  allValid_append.2 ⟨built_in_pointing_device.Interface.fed_valid n _,
  allValid_append.2 ⟨valid_u8 n _,
  allValid_nil n⟩⟩⟩⟩

theorem portable_battery.ManufactureDate.idx_lt (x : portable_battery.ManufactureDate) : x.ctorIdx < 65536 := by
  cases x <;> exact Nat.le_of_ble_eq_true rfl

theorem portable_battery.ManufactureDate.fed_det : Det portable_battery.ManufactureDate.fed id := by
  intro n h8 h32 pre a b r s va vb e
  replace e := idx_step h8 h32 (portable_battery.ManufactureDate.idx_lt a) (portable_battery.ManufactureDate.idx_lt b) va vb e
  clear va vb; obtain ⟨h, va, vb, e⟩ := e
  cases a <;> cases b <;> first | exact absurd h (Nat.ne_of_beq_eq_false rfl) | skip
  · exact ⟨rfl, e⟩
  · obtain ⟨h1, hr⟩ := det_str n h8 h32 pre _ _ r s va vb e
    cases h1
    exact ⟨rfl, hr⟩
  · obtain ⟨h1, va, vb, e⟩ := det_u16.step h8 h32 va vb e
    obtain ⟨h2, va, vb, e⟩ := det_u8.step h8 h32 va vb e
    obtain ⟨h3, va, vb, hr⟩ := det_u8.step h8 h32 va vb e
    cases h1; cases h2; cases h3
    exact ⟨rfl, hr⟩

theorem portable_battery.SerialNumber.idx_lt (x : portable_battery.SerialNumber) : x.ctorIdx < 65536 := by
  cases x <;> exact Nat.le_of_ble_eq_true rfl

theorem portable_battery.SerialNumber.fed_det : Det portable_battery.SerialNumber.fed id := by
  intro n h8 h32 pre a b r s va vb e
  replace e := idx_step h8 h32 (portable_battery.SerialNumber.idx_lt a) (portable_battery.SerialNumber.idx_lt b) va vb e
  clear va vb; obtain ⟨h, va, vb, e⟩ := e
  cases a <;> cases b <;> first | exact absurd h (Nat.ne_of_beq_eq_false rfl) | skip
  · exact ⟨rfl, e⟩
  · obtain ⟨h1, hr⟩ := det_str n h8 h32 pre _ _ r s va vb e
    cases h1
    exact ⟨rfl, hr⟩
  · obtain ⟨h1, hr⟩ := det_u16 n h8 h32 pre _ _ r s va vb e
    cases h1
    exact ⟨rfl, hr⟩

theorem portable_battery.DeviceChemistry.idx_lt (x : portable_battery.DeviceChemistry) : x.ctorIdx < 65536 := by
  cases x <;> exact Nat.le_of_ble_eq_true rfl

theorem portable_battery.DeviceChemistry.fed_det : Det portable_battery.DeviceChemistry.fed id := by
  intro n h8 h32 pre a b r s va vb e
  replace e := idx_step h8 h32 (portable_battery.DeviceChemistry.idx_lt a) (portable_battery.DeviceChemistry.idx_lt b) va vb e
  clear va vb; obtain ⟨h, va, vb, e⟩ := e
  cases a <;> cases b <;> first | exact absurd h (Nat.ne_of_beq_eq_false rfl) | skip
  · exact ⟨rfl, e⟩
  · exact ⟨rfl, e⟩
  · exact ⟨rfl, e⟩
  · exact ⟨rfl, e⟩
  · exact ⟨rfl, e⟩
  · exact ⟨rfl, e⟩
  · exact ⟨rfl, e⟩
  · exact ⟨rfl, e⟩
  · obtain ⟨h1, hr⟩ := det_u8 n h8 h32 pre _ _ r s va vb e
    cases h1
    exact ⟨rfl, hr⟩
  · obtain ⟨h1, hr⟩ := det_str n h8 h32 pre _ _ r s va vb e
    cases h1
    exact ⟨rfl, hr⟩

theorem portable_battery.DesignCapacity.idx_lt (x : portable_battery.DesignCapacity) : x.ctorIdx < 65536 := by
  cases x <;> exact Nat.le_of_ble_eq_true rfl

theorem portable_battery.DesignCapacity.fed_det : Det portable_battery.DesignCapacity.fed id := by
  intro n h8 h32 pre a b r s va vb e
  replace e := idx_step h8 h32 (portable_battery.DesignCapacity.idx_lt a) (portable_battery.DesignCapacity.idx_lt b) va vb e
  clear va vb; obtain ⟨h, va, vb, e⟩ := e
  cases a <;> cases b <;> first | exact absurd h (Nat.ne_of_beq_eq_false rfl) | skip
  · exact ⟨rfl, e⟩
  · obtain ⟨h1, va, vb, e⟩ := det_u16.step h8 h32 va vb e
    obtain ⟨h2, va, vb, hr⟩ := det_u8.step h8 h32 va vb e
    cases h1; cases h2
    exact ⟨rfl, hr⟩

theorem portable_battery.DesignCapacity.fed_valid (n : Nat) (x : portable_battery.DesignCapacity) : Fed.AllValid n x.fed := by
  refine allValid_cons.2 ⟨trivial, ?_⟩
  cases x
  · exact allValid_nil n
  · exact allValid_append.2 ⟨valid_u16 n _, allValid_append.2 ⟨valid_u8 n _, allValid_nil n⟩⟩

theorem portable_battery.PortableBattery.fed_det : Det portable_battery.PortableBattery.fed id := by
  refine Det.of (
    (det_u16.on portable_battery.PortableBattery.handle).cons <|
    (det_str.on portable_battery.PortableBattery.location).cons <|
    (det_str.on portable_battery.PortableBattery.manufacturer).cons <|
    (portable_battery.ManufactureDate.fed_det.on portable_battery.PortableBattery.manufacture_date).cons <|
    (portable_battery.SerialNumber.fed_det.on portable_battery.PortableBattery.serial_number).cons <|
    (det_str.on portable_battery.PortableBattery.device_name).cons <|
    (portable_battery.DeviceChemistry.fed_det.on portable_battery.PortableBattery.device_chemistry).cons <|
    (portable_battery.DesignCapacity.fed_det.on portable_battery.PortableBattery.design_capacity).cons <|
    (det_u16.on portable_battery.PortableBattery.design_voltage).cons <|
    (det_str.on portable_battery.PortableBattery.sbds_version_number).cons <|
    (det_u8.on portable_battery.PortableBattery.maximum_error_in_battery_data).cons <|
    ((det_opt det_u32).on portable_battery.PortableBattery.oem_specific).cons <|
    det_nil) fun a b e => ?_
  cases a; cases b
  simpa only [id, Prod.mk.injEq, and_true, portable_battery.PortableBattery.mk.injEq] using e

theorem portable_battery.PortableBattery.fed_valid (n : Nat) (x : portable_battery.PortableBattery) (h1 : (0xFF
    : UInt8) ∉ x.location) (h2 : (0xFF : UInt8) ∉ x.manufacturer) (h3 : Fed.AllValid n x.manufacture_date.fed)
    (h4 : Fed.AllValid n x.serial_number.fed) (h5 : (0xFF : UInt8) ∉ x.device_name) (h6 : Fed.AllValid n
    x.device_chemistry.fed) (h7 : (0xFF : UInt8) ∉ x.sbds_version_number) : Fed.AllValid n x.fed :=
  allValid_append.2 ⟨valid_u16 n _,
  allValid_append.2 ⟨valid_one h1,
  allValid_append.2 ⟨valid_one h2,
  allValid_append.2 ⟨h3,
  allValid_append.2 ⟨h4,
  allValid_append.2 ⟨valid_one h5,
  allValid_append.2 ⟨h6,
  allValid_append.2 ⟨portable_battery.DesignCapacity.fed_valid n _,
  allValid_append.2 ⟨valid_u16 n _,
  allValid_append.2 ⟨valid_one h7,
  allValid_append.2 ⟨valid_u8 n _,
  allValid_append.2 ⟨valid_opt fun _ _ => valid_u32 n _,
  allValid_nil n⟩⟩⟩⟩⟩⟩⟩⟩⟩⟩⟩⟩

theorem physical_memory_array.MemoryArrayLocation.idx_lt (x : physical_memory_array.MemoryArrayLocation) : x.ctorIdx < 65536 := by
  cases x <;> exact Nat.le_of_ble_eq_true rfl

theorem physical_memory_array.MemoryArrayLocation.fed_det : Det physical_memory_array.MemoryArrayLocation.fed id := by
  intro n h8 h32 pre a b r s va vb e
  replace e := idx_step h8 h32 (physical_memory_array.MemoryArrayLocation.idx_lt a) (physical_memory_array.MemoryArrayLocation.idx_lt b) va vb e
  clear va vb; obtain ⟨h, va, vb, e⟩ := e
  cases a <;> cases b <;> first | exact absurd h (Nat.ne_of_beq_eq_false rfl) | skip
  · exact ⟨rfl, e⟩
  · exact ⟨rfl, e⟩
  · exact ⟨rfl, e⟩
  · exact ⟨rfl, e⟩
  · exact ⟨rfl, e⟩
  · exact ⟨rfl, e⟩
  · exact ⟨rfl, e⟩
  · exact ⟨rfl, e⟩
  · exact ⟨rfl, e⟩
  · exact ⟨rfl, e⟩
  · exact ⟨rfl, e⟩
  · exact ⟨rfl, e⟩
  · exact ⟨rfl, e⟩
  · exact ⟨rfl, e⟩
  · exact ⟨rfl, e⟩
  · obtain ⟨h1, hr⟩ := det_u8 n h8 h32 pre _ _ r s va vb e
    cases h1
    exact ⟨rfl, hr⟩

theorem physical_memory_array.MemoryArrayLocation.fed_valid (n : Nat) (x : physical_memory_array.MemoryArrayLocation) : Fed.AllValid n x.fed := by
  refine allValid_cons.2 ⟨trivial, ?_⟩
  cases x <;> first | exact allValid_nil n | exact valid_u8 n _

theorem physical_memory_array.MemoryArrayUse.idx_lt (x : physical_memory_array.MemoryArrayUse) : x.ctorIdx < 65536 := by
  cases x <;> exact Nat.le_of_ble_eq_true rfl

theorem physical_memory_array.MemoryArrayUse.fed_det : Det physical_memory_array.MemoryArrayUse.fed id := by
  intro n h8 h32 pre a b r s va vb e
  replace e := idx_step h8 h32 (physical_memory_array.MemoryArrayUse.idx_lt a) (physical_memory_array.MemoryArrayUse.idx_lt b) va vb e
  clear va vb; obtain ⟨h, va, vb, e⟩ := e
  cases a <;> cases b <;> first | exact absurd h (Nat.ne_of_beq_eq_false rfl) | skip
  · exact ⟨rfl, e⟩
  · exact ⟨rfl, e⟩
  · exact ⟨rfl, e⟩
  · exact ⟨rfl, e⟩
  · exact ⟨rfl, e⟩
  · exact ⟨rfl, e⟩
  · exact ⟨rfl, e⟩
  · obtain ⟨h1, hr⟩ := det_u8 n h8 h32 pre _ _ r s va vb e
    cases h1
    exact ⟨rfl, hr⟩

theorem physical_memory_array.MemoryArrayUse.fed_valid (n : Nat) (x : physical_memory_array.MemoryArrayUse) : Fed.AllValid n x.fed := by
  refine allValid_cons.2 ⟨trivial, ?_⟩
  cases x <;> first | exact allValid_nil n | exact valid_u8 n _

theorem physical_memory_array.MemoryArrayErrorCorrectionTypes.idx_lt (x : physical_memory_array.MemoryArrayErrorCorrectionTypes) : x.ctorIdx < 65536 := by
  cases x <;> exact Nat.le_of_ble_eq_true rfl

theorem physical_memory_array.MemoryArrayErrorCorrectionTypes.fed_det : Det physical_memory_array.MemoryArrayErrorCorrectionTypes.fed id := by
  intro n h8 h32 pre a b r s va vb e
  replace e := idx_step h8 h32 (physical_memory_array.MemoryArrayErrorCorrectionTypes.idx_lt a) (physical_memory_array.MemoryArrayErrorCorrectionTypes.idx_lt b) va vb e
  clear va vb; obtain ⟨h, va, vb, e⟩ := e
  cases a <;> cases b <;> first | exact absurd h (Nat.ne_of_beq_eq_false rfl) | skip
  · exact ⟨rfl, e⟩
  · exact ⟨rfl, e⟩
  · exact ⟨rfl, e⟩
  · exact ⟨rfl, e⟩
  · exact ⟨rfl, e⟩
  · exact ⟨rfl, e⟩
  · exact ⟨rfl, e⟩
  · obtain ⟨h1, hr⟩ := det_u8 n h8 h32 pre _ _ r s va vb e
    cases h1
    exact ⟨rfl, hr⟩

theorem physical_memory_array.MemoryArrayErrorCorrectionTypes.fed_valid (n : Nat) (x : physical_memory_array.MemoryArrayErrorCorrectionTypes) : Fed.AllValid n x.fed := by
  refine allValid_cons.2 ⟨trivial, ?_⟩
  cases x <;> first | exact allValid_nil n | exact valid_u8 n _

theorem physical_memory_array.PhysicalMemoryArray.fed_det : Det physical_memory_array.PhysicalMemoryArray.fed id := by
  refine Det.of (
    (det_u16.on physical_memory_array.PhysicalMemoryArray.handle).cons <|
    (physical_memory_array.MemoryArrayLocation.fed_det.on physical_memory_array.PhysicalMemoryArray.location).cons <|
    (physical_memory_array.MemoryArrayUse.fed_det.on physical_memory_array.PhysicalMemoryArray.use).cons <|
    (physical_memory_array.MemoryArrayErrorCorrectionTypes.fed_det.on physical_memory_array.PhysicalMemoryArray.memory_error_correction).cons <|
    ((det_opt det_u32).on physical_memory_array.PhysicalMemoryArray.maximum_capacity).cons <|
    ((det_opt det_u16).on physical_memory_array.PhysicalMemoryArray.memory_error_information_handle).cons <|
    (det_u16.on physical_memory_array.PhysicalMemoryArray.number_of_memory_devices).cons <|
    ((det_opt det_u64).on physical_memory_array.PhysicalMemoryArray.extended_maximum_capacity).cons <|
    det_nil) fun a b e => ?_
  cases a; cases b
  simpa only [id, Prod.mk.injEq, and_true, physical_memory_array.PhysicalMemoryArray.mk.injEq] using e

theorem physical_memory_array.PhysicalMemoryArray.fed_valid (n : Nat) (x :
    physical_memory_array.PhysicalMemoryArray) : Fed.AllValid n x.fed :=
  allValid_append.2 ⟨valid_u16 n _,
  allValid_append.2 ⟨physical_memory_array.MemoryArrayLocation.fed_valid n _,
  allValid_append.2 ⟨physical_memory_array.MemoryArrayUse.fed_valid n _,
  allValid_append.2 ⟨physical_memory_array.MemoryArrayErrorCorrectionTypes.fed_valid n _,
  allValid_append.2 ⟨valid_opt fun _ _ => valid_u32 n _,
  allValid_append.2 ⟨valid_opt fun _ _ => valid_u16 n _,
  allValid_append.2 ⟨valid_u16 n _,
  allValid_append.2 ⟨valid_opt fun _ _ => valid_u64 n _,
  allValid_nil n⟩⟩⟩⟩⟩⟩⟩⟩

theorem Structure.idx_lt (x : Structure) : x.ctorIdx < 65536 := by
  cases x <;> exact Nat.le_of_ble_eq_true rfl

theorem Structure.fed_det : Det Structure.fed id := by
  intro n h8 h32 pre a b r s va vb e
  replace e := idx_step h8 h32 (Structure.idx_lt a) (Structure.idx_lt b) va vb e
  clear va vb; obtain ⟨h, va, vb, e⟩ := e
  cases a <;> cases b <;> first | exact absurd h (Nat.ne_of_beq_eq_false rfl) | skip
  · obtain ⟨h1, hr⟩ := bios.Bios.fed_det n h8 h32 pre _ _ r s va vb e
    cases h1
    exact ⟨rfl, hr⟩
  · obtain ⟨h1, hr⟩ := system.System.fed_det n h8 h32 pre _ _ r s va vb e
    cases h1
    exact ⟨rfl, hr⟩
  · obtain ⟨h1, hr⟩ := baseboard.BaseBoard.fed_det n h8 h32 pre _ _ r s va vb e
    cases h1
    exact ⟨rfl, hr⟩
  · obtain ⟨h1, hr⟩ := enclosure.Enclosure.fed_det n h8 h32 pre _ _ r s va vb e
    cases h1
    exact ⟨rfl, hr⟩
  · obtain ⟨h1, hr⟩ := processor.Processor.fed_det n h8 h32 pre _ _ r s va vb e
    cases h1
    exact ⟨rfl, hr⟩
  · obtain ⟨h1, hr⟩ := cache.Cache.fed_det n h8 h32 pre _ _ r s va vb e
    cases h1
    exact ⟨rfl, hr⟩
  · obtain ⟨h1, hr⟩ := port_connector.PortConnector.fed_det n h8 h32 pre _ _ r s va vb e
    cases h1
    exact ⟨rfl, hr⟩
  · obtain ⟨h1, hr⟩ := system_slots.SystemSlots.fed_det n h8 h32 pre _ _ r s va vb e
    cases h1
    exact ⟨rfl, hr⟩
  · obtain ⟨h1, hr⟩ := oem_strings.OemStrings.fed_det n h8 h32 pre _ _ r s va vb e
    cases h1
    exact ⟨rfl, hr⟩
  · obtain ⟨h1, hr⟩ := system_configuration_options.SystemConfigurationOptions.fed_det n h8 h32 pre _ _ r s va vb e
    cases h1
    exact ⟨rfl, hr⟩
  · obtain ⟨h1, hr⟩ := bios_language.BiosLanguage.fed_det n h8 h32 pre _ _ r s va vb e
    cases h1
    exact ⟨rfl, hr⟩
  · obtain ⟨h1, hr⟩ := group_associations.GroupAssociations.fed_det n h8 h32 pre _ _ r s va vb e
    cases h1
    exact ⟨rfl, hr⟩
  · obtain ⟨h1, hr⟩ := system_event_log.SystemEventLog.fed_det n h8 h32 pre _ _ r s va vb e
    cases h1
    exact ⟨rfl, hr⟩
  · obtain ⟨h1, hr⟩ := memory_device.MemoryDevice.fed_det n h8 h32 pre _ _ r s va vb e
    cases h1
    exact ⟨rfl, hr⟩
  · obtain ⟨h1, hr⟩ := memory_error_32.MemoryError32.fed_det n h8 h32 pre _ _ r s va vb e
    cases h1
    exact ⟨rfl, hr⟩
  · obtain ⟨h1, hr⟩ := memory_array_mapped_address.MemoryArrayMappedAddress.fed_det n h8 h32 pre _ _ r s va vb e
    cases h1
    exact ⟨rfl, hr⟩
  · obtain ⟨h1, hr⟩ := memory_device_mapped_address.MemoryDeviceMappedAddress.fed_det n h8 h32 pre _ _ r s va vb e
    cases h1
    exact ⟨rfl, hr⟩
  · obtain ⟨h1, hr⟩ := built_in_pointing_device.BuiltInPointingDevice.fed_det n h8 h32 pre _ _ r s va vb e
    cases h1
    exact ⟨rfl, hr⟩
  · obtain ⟨h1, hr⟩ := portable_battery.PortableBattery.fed_det n h8 h32 pre _ _ r s va vb e
    cases h1
    exact ⟨rfl, hr⟩
  · obtain ⟨h1, hr⟩ := physical_memory_array.PhysicalMemoryArray.fed_det n h8 h32 pre _ _ r s va vb e
    cases h1
    exact ⟨rfl, hr⟩
  · obtain ⟨h1, hr⟩ := RawStructure.fed_det n h8 h32 pre _ _ r s va vb e
    cases h1
    exact ⟨rfl, hr⟩

theorem enclosure.ContainedElementType.idx_lt (x : enclosure.ContainedElementType) : x.ctorIdx < 65536 := by
  cases x <;> exact Nat.le_of_ble_eq_true rfl

theorem enclosure.ContainedElementType.fed_det : Det enclosure.ContainedElementType.fed id := by
  intro n h8 h32 pre a b r s va vb e
  replace e := idx_step h8 h32 (enclosure.ContainedElementType.idx_lt a) (enclosure.ContainedElementType.idx_lt b) va vb e
  clear va vb; obtain ⟨h, va, vb, e⟩ := e
  cases a <;> cases b <;> first | exact absurd h (Nat.ne_of_beq_eq_false rfl) | skip
  · obtain ⟨h1, hr⟩ := baseboard.BoardType.fed_det n h8 h32 pre _ _ r s va vb e
    cases h1
    exact ⟨rfl, hr⟩
  · obtain ⟨h1, hr⟩ := InfoType.fed_det n h8 h32 pre _ _ r s va vb e
    cases h1
    exact ⟨rfl, hr⟩

theorem enclosure.ContainedElementType.fed_valid (n : Nat) (x : enclosure.ContainedElementType) : Fed.AllValid n x.fed := by
  refine allValid_cons.2 ⟨trivial, ?_⟩
  cases x
  · exact baseboard.BoardType.fed_valid n _
  · exact InfoType.fed_valid n _

theorem enclosure.ContainedElement.fed_det : Det enclosure.ContainedElement.fed id := by
  refine Det.of (
    (enclosure.ContainedElementType.fed_det.on enclosure.ContainedElement.type_).cons <|
    (det_u8.on enclosure.ContainedElement.minimum).cons <|
    (det_u8.on enclosure.ContainedElement.maximum).cons <|
    det_nil) fun a b e => ?_
  cases a; cases b
  simpa only [id, Prod.mk.injEq, and_true, enclosure.ContainedElement.mk.injEq] using e

theorem enclosure.ContainedElement.fed_valid (n : Nat) (x : enclosure.ContainedElement) : Fed.AllValid n x.fed
    :=
  allValid_append.2 ⟨enclosure.ContainedElementType.fed_valid n _,
  allValid_append.2 ⟨valid_u8 n _,
  allValid_append.2 ⟨valid_u8 n _,
  allValid_nil n⟩⟩⟩

theorem system_slots.Device.fed_det : Det system_slots.Device.fed id := by
  refine Det.of (
    (det_u16.on system_slots.Device.segment_group_number).cons <|
    (det_u8.on system_slots.Device.bus_number).cons <|
    (system_slots.DeviceAndFunctionNumber.fed_det.on system_slots.Device.device_and_function_number).cons <|
    (det_u8.on system_slots.Device.data_bus_width).cons <|
    det_nil) fun a b e => ?_
  cases a; cases b
  simpa only [id, Prod.mk.injEq, and_true, system_slots.Device.mk.injEq] using e

theorem system_slots.Device.fed_valid (n : Nat) (x : system_slots.Device) : Fed.AllValid n x.fed :=
  allValid_append.2 ⟨valid_u16 n _,
  allValid_append.2 ⟨valid_u8 n _,
  allValid_append.2 ⟨system_slots.DeviceAndFunctionNumber.fed_valid n _,
  allValid_append.2 ⟨valid_u8 n _,
  allValid_nil n⟩⟩⟩⟩

theorem group_associations.GroupItem.fed_det : Det group_associations.GroupItem.fed id := by
  refine Det.of (
    (det_u8.on group_associations.GroupItem.type_).cons <|
    (det_u16.on group_associations.GroupItem.handle).cons <|
    det_nil) fun a b e => ?_
  cases a; cases b
  simpa only [id, Prod.mk.injEq, and_true, group_associations.GroupItem.mk.injEq] using e

theorem group_associations.GroupItem.fed_valid (n : Nat) (x : group_associations.GroupItem) : Fed.AllValid n
    x.fed :=
  allValid_append.2 ⟨valid_u8 n _,
  allValid_append.2 ⟨valid_u16 n _,
  allValid_nil n⟩⟩

theorem system_event_log.EventLogType.idx_lt (x : system_event_log.EventLogType) : x.ctorIdx < 65536 := by
  cases x <;> exact Nat.le_of_ble_eq_true rfl

theorem system_event_log.EventLogType.fed_det : Det system_event_log.EventLogType.fed id := by
  refine det_enum system_event_log.EventLogType.ctorIdx (system_event_log.EventLogType.fields) (fun _ => rfl) system_event_log.EventLogType.idx_lt (nullary! system_event_log.EventLogType)
    (fun a => (∃ v, a = .Reserved v) ∨ (∃ v, a = .Unused v) ∨ (∃ v, a = .Available v)) (fun a => ?_) (by decide +kernel) (by decide +kernel) ?_ ?_
  · cases a <;> first | exact .inr (.inl ⟨_, rfl⟩) | exact .inr (.inr (.inl ⟨_, rfl⟩)) | exact .inr (.inr (.inr ⟨_, rfl⟩)) | exact .inl (by decide +kernel)
  · rintro _ (⟨v, rfl⟩ | ⟨v, rfl⟩ | ⟨v, rfl⟩)
    · exact (by decide +kernel : 0 ∉ (nullary! system_event_log.EventLogType).map system_event_log.EventLogType.ctorIdx)
    · exact (by decide +kernel : 23 ∉ (nullary! system_event_log.EventLogType).map system_event_log.EventLogType.ctorIdx)
    · exact (by decide +kernel : 24 ∉ (nullary! system_event_log.EventLogType).map system_event_log.EventLogType.ctorIdx)
  · rintro _ _ (⟨v, rfl⟩ | ⟨v, rfl⟩ | ⟨v, rfl⟩) (⟨w, rfl⟩ | ⟨w, rfl⟩ | ⟨w, rfl⟩) h n h8 h32 pre r s va vb e
    · obtain ⟨h1, hr⟩ := det_u8 n h8 h32 pre _ _ r s va vb e
      cases h1
      exact ⟨rfl, hr⟩
    · exact absurd h (Nat.ne_of_beq_eq_false rfl)
    · exact absurd h (Nat.ne_of_beq_eq_false rfl)
    · exact absurd h (Nat.ne_of_beq_eq_false rfl)
    · obtain ⟨h1, hr⟩ := det_u8 n h8 h32 pre _ _ r s va vb e
      cases h1
      exact ⟨rfl, hr⟩
    · exact absurd h (Nat.ne_of_beq_eq_false rfl)
    · exact absurd h (Nat.ne_of_beq_eq_false rfl)
    · exact absurd h (Nat.ne_of_beq_eq_false rfl)
    · obtain ⟨h1, hr⟩ := det_u8 n h8 h32 pre _ _ r s va vb e
      cases h1
      exact ⟨rfl, hr⟩

theorem system_event_log.EventLogType.fed_valid (n : Nat) (x : system_event_log.EventLogType) : Fed.AllValid n x.fed := by
  refine allValid_cons.2 ⟨trivial, ?_⟩
  cases x
  · exact valid_u8 n _
  · exact allValid_nil n
  · exact allValid_nil n
  · exact allValid_nil n
  · exact allValid_nil n
  · exact allValid_nil n
  · exact allValid_nil n
  · exact allValid_nil n
  · exact allValid_nil n
  · exact allValid_nil n
  · exact allValid_nil n
  · exact allValid_nil n
  · exact allValid_nil n
  · exact allValid_nil n
  · exact allValid_nil n
  · exact allValid_nil n
  · exact allValid_nil n
  · exact allValid_nil n
  · exact allValid_nil n
  · exact allValid_nil n
  · exact allValid_nil n
  · exact allValid_nil n
  · exact allValid_nil n
  · exact valid_u8 n _
  · exact valid_u8 n _
  · exact allValid_nil n

theorem system_event_log.PostResults.fed_det : Det system_event_log.PostResults.fed id := by
  exact (det_u64.on system_event_log.PostResults.bits).of fun a b e => by cases a; cases b; exact congrArg _ e

theorem system_event_log.PostResults.fed_valid (n : Nat) (x : system_event_log.PostResults) : Fed.AllValid n
    x.fed :=
  valid_u64 n _

theorem system_event_log.SystemManagementType.idx_lt (x : system_event_log.SystemManagementType) : x.ctorIdx < 65536 := by
  cases x <;> exact Nat.le_of_ble_eq_true rfl

theorem system_event_log.SystemManagementType.fed_det : Det system_event_log.SystemManagementType.fed id := by
  intro n h8 h32 pre a b r s va vb e
  replace e := idx_step h8 h32 (system_event_log.SystemManagementType.idx_lt a) (system_event_log.SystemManagementType.idx_lt b) va vb e
  clear va vb; obtain ⟨h, va, vb, e⟩ := e
  cases a <;> cases b <;> first | exact absurd h (Nat.ne_of_beq_eq_false rfl) | skip
  · exact ⟨rfl, e⟩
  · exact ⟨rfl, e⟩
  · exact ⟨rfl, e⟩
  · exact ⟨rfl, e⟩
  · exact ⟨rfl, e⟩
  · exact ⟨rfl, e⟩
  · exact ⟨rfl, e⟩
  · obtain ⟨h1, hr⟩ := det_u8 n h8 h32 pre _ _ r s va vb e
    cases h1
    exact ⟨rfl, hr⟩
  · exact ⟨rfl, e⟩
  · exact ⟨rfl, e⟩
  · exact ⟨rfl, e⟩
  · exact ⟨rfl, e⟩
  · exact ⟨rfl, e⟩
  · obtain ⟨h1, hr⟩ := det_u8 n h8 h32 pre _ _ r s va vb e
    cases h1
    exact ⟨rfl, hr⟩
  · obtain ⟨h1, hr⟩ := det_u8 n h8 h32 pre _ _ r s va vb e
    cases h1
    exact ⟨rfl, hr⟩
  · obtain ⟨h1, hr⟩ := det_u32 n h8 h32 pre _ _ r s va vb e
    cases h1
    exact ⟨rfl, hr⟩
  · exact ⟨rfl, e⟩
  · obtain ⟨h1, hr⟩ := det_u16 n h8 h32 pre _ _ r s va vb e
    cases h1
    exact ⟨rfl, hr⟩
  · obtain ⟨h1, hr⟩ := det_u32 n h8 h32 pre _ _ r s va vb e
    cases h1
    exact ⟨rfl, hr⟩

theorem system_event_log.SystemManagementType.fed_valid (n : Nat) (x : system_event_log.SystemManagementType) : Fed.AllValid n x.fed := by
  refine allValid_cons.2 ⟨trivial, ?_⟩
  cases x
  · exact allValid_nil n
  · exact allValid_nil n
  · exact allValid_nil n
  · exact allValid_nil n
  · exact allValid_nil n
  · exact allValid_nil n
  · exact allValid_nil n
  · exact valid_u8 n _
  · exact allValid_nil n
  · exact allValid_nil n
  · exact allValid_nil n
  · exact allValid_nil n
  · exact allValid_nil n
  · exact valid_u8 n _
  · exact valid_u8 n _
  · exact valid_u32 n _
  · exact allValid_nil n
  · exact valid_u16 n _
  · exact valid_u32 n _

theorem system_event_log.VariableDataFormatType.idx_lt (x : system_event_log.VariableDataFormatType) : x.ctorIdx < 65536 := by
  cases x <;> exact Nat.le_of_ble_eq_true rfl

theorem system_event_log.VariableDataFormatType.fed_det : Det system_event_log.VariableDataFormatType.fed id := by
  intro n h8 h32 pre a b r s va vb e
  replace e := idx_step h8 h32 (system_event_log.VariableDataFormatType.idx_lt a) (system_event_log.VariableDataFormatType.idx_lt b) va vb e
  clear va vb; obtain ⟨h, va, vb, e⟩ := e
  cases a <;> cases b <;> first | exact absurd h (Nat.ne_of_beq_eq_false rfl) | skip
  · exact ⟨rfl, e⟩
  · obtain ⟨h1, hr⟩ := det_u16 n h8 h32 pre _ _ r s va vb e
    cases h1
    exact ⟨rfl, hr⟩
  · obtain ⟨h1, hr⟩ := det_u32 n h8 h32 pre _ _ r s va vb e
    cases h1
    exact ⟨rfl, hr⟩
  · obtain ⟨h1, va, vb, e⟩ := det_u16.step h8 h32 va vb e
    obtain ⟨h2, va, vb, hr⟩ := det_u32.step h8 h32 va vb e
    cases h1; cases h2
    exact ⟨rfl, hr⟩
  · obtain ⟨h1, hr⟩ := system_event_log.PostResults.fed_det n h8 h32 pre _ _ r s va vb e
    cases h1
    exact ⟨rfl, hr⟩
  · obtain ⟨h1, hr⟩ := system_event_log.SystemManagementType.fed_det n h8 h32 pre _ _ r s va vb e
    cases h1
    exact ⟨rfl, hr⟩
  · obtain ⟨h1, va, vb, e⟩ := system_event_log.SystemManagementType.fed_det.step h8 h32 va vb e
    obtain ⟨h2, va, vb, hr⟩ := det_u32.step h8 h32 va vb e
    cases h1; cases h2
    exact ⟨rfl, hr⟩
  · obtain ⟨h1, hr⟩ := det_u8 n h8 h32 pre _ _ r s va vb e
    cases h1
    exact ⟨rfl, hr⟩
  · obtain ⟨h1, hr⟩ := det_u8 n h8 h32 pre _ _ r s va vb e
    cases h1
    exact ⟨rfl, hr⟩

theorem system_event_log.VariableDataFormatType.fed_valid (n : Nat) (x : system_event_log.VariableDataFormatType) : Fed.AllValid n x.fed := by
  refine allValid_cons.2 ⟨trivial, ?_⟩
  cases x
  · exact allValid_nil n
  · exact valid_u16 n _
  · exact valid_u32 n _
  · exact allValid_append.2 ⟨valid_u16 n _, allValid_append.2 ⟨valid_u32 n _, allValid_nil n⟩⟩
  · exact system_event_log.PostResults.fed_valid n _
  · exact system_event_log.SystemManagementType.fed_valid n _
  · exact allValid_append.2 ⟨system_event_log.SystemManagementType.fed_valid n _, allValid_append.2 ⟨valid_u32 n _, allValid_nil n⟩⟩
  · exact valid_u8 n _
  · exact valid_u8 n _

theorem system_event_log.EventLogTypeDescriptor.fed_det : Det system_event_log.EventLogTypeDescriptor.fed id := by
  refine Det.of (
    (system_event_log.EventLogType.fed_det.on system_event_log.EventLogTypeDescriptor.log_type).cons <|
    (system_event_log.VariableDataFormatType.fed_det.on system_event_log.EventLogTypeDescriptor.variable_data_format_type).cons <|
    det_nil) fun a b e => ?_
  cases a; cases b
  simpa only [id, Prod.mk.injEq, and_true, system_event_log.EventLogTypeDescriptor.mk.injEq] using e

theorem system_event_log.EventLogTypeDescriptor.fed_valid (n : Nat) (x :
    system_event_log.EventLogTypeDescriptor) : Fed.AllValid n x.fed :=
  allValid_append.2 ⟨system_event_log.EventLogType.fed_valid n _,
  allValid_append.2 ⟨system_event_log.VariableDataFormatType.fed_valid n _,
  allValid_nil n⟩⟩

theorem memory_device.ErrorGranularity.idx_lt (x : memory_device.ErrorGranularity) : x.ctorIdx < 65536 := by
  cases x <;> exact Nat.le_of_ble_eq_true rfl

theorem memory_device.ErrorGranularity.fed_det : Det memory_device.ErrorGranularity.fed id := by
  intro n h8 h32 pre a b r s va vb e
  replace e := idx_step h8 h32 (memory_device.ErrorGranularity.idx_lt a) (memory_device.ErrorGranularity.idx_lt b) va vb e
  clear va vb; obtain ⟨h, va, vb, e⟩ := e
  cases a <;> cases b <;> first | exact absurd h (Nat.ne_of_beq_eq_false rfl) | skip
  · exact ⟨rfl, e⟩
  · exact ⟨rfl, e⟩
  · exact ⟨rfl, e⟩
  · exact ⟨rfl, e⟩
  · obtain ⟨h1, hr⟩ := det_u8 n h8 h32 pre _ _ r s va vb e
    cases h1
    exact ⟨rfl, hr⟩

theorem memory_device.ErrorGranularity.fed_valid (n : Nat) (x : memory_device.ErrorGranularity) : Fed.AllValid n x.fed := by
  refine allValid_cons.2 ⟨trivial, ?_⟩
  cases x
  · exact allValid_nil n
  · exact allValid_nil n
  · exact allValid_nil n
  · exact allValid_nil n
  · exact valid_u8 n _

theorem memory_device.ErrorOperation.idx_lt (x : memory_device.ErrorOperation) : x.ctorIdx < 65536 := by
  cases x <;> exact Nat.le_of_ble_eq_true rfl

theorem memory_device.ErrorOperation.fed_det : Det memory_device.ErrorOperation.fed id := by
  intro n h8 h32 pre a b r s va vb e
  replace e := idx_step h8 h32 (memory_device.ErrorOperation.idx_lt a) (memory_device.ErrorOperation.idx_lt b) va vb e
  clear va vb; obtain ⟨h, va, vb, e⟩ := e
  cases a <;> cases b <;> first | exact absurd h (Nat.ne_of_beq_eq_false rfl) | skip
  · exact ⟨rfl, e⟩
  · exact ⟨rfl, e⟩
  · exact ⟨rfl, e⟩
  · exact ⟨rfl, e⟩
  · exact ⟨rfl, e⟩
  · obtain ⟨h1, hr⟩ := det_u8 n h8 h32 pre _ _ r s va vb e
    cases h1
    exact ⟨rfl, hr⟩

theorem memory_device.ErrorOperation.fed_valid (n : Nat) (x : memory_device.ErrorOperation) : Fed.AllValid n x.fed := by
  refine allValid_cons.2 ⟨trivial, ?_⟩
  cases x
  · exact allValid_nil n
  · exact allValid_nil n
  · exact allValid_nil n
  · exact allValid_nil n
  · exact allValid_nil n
  · exact valid_u8 n _

theorem memory_device.ErrorType.idx_lt (x : memory_device.ErrorType) : x.ctorIdx < 65536 := by
  cases x <;> exact Nat.le_of_ble_eq_true rfl

theorem memory_device.ErrorType.fed_det : Det memory_device.ErrorType.fed id := by
  intro n h8 h32 pre a b r s va vb e
  replace e := idx_step h8 h32 (memory_device.ErrorType.idx_lt a) (memory_device.ErrorType.idx_lt b) va vb e
  clear va vb; obtain ⟨h, va, vb, e⟩ := e
  cases a <;> cases b <;> first | exact absurd h (Nat.ne_of_beq_eq_false rfl) | skip
  · exact ⟨rfl, e⟩
  · exact ⟨rfl, e⟩
  · exact ⟨rfl, e⟩
  · exact ⟨rfl, e⟩
  · exact ⟨rfl, e⟩
  · exact ⟨rfl, e⟩
  · exact ⟨rfl, e⟩
  · exact ⟨rfl, e⟩
  · exact ⟨rfl, e⟩
  · exact ⟨rfl, e⟩
  · exact ⟨rfl, e⟩
  · exact ⟨rfl, e⟩
  · exact ⟨rfl, e⟩
  · exact ⟨rfl, e⟩
  · obtain ⟨h1, hr⟩ := det_u8 n h8 h32 pre _ _ r s va vb e
    cases h1
    exact ⟨rfl, hr⟩

theorem memory_device.ErrorType.fed_valid (n : Nat) (x : memory_device.ErrorType) : Fed.AllValid n x.fed := by
  refine allValid_cons.2 ⟨trivial, ?_⟩
  cases x <;> first | exact allValid_nil n | exact valid_u8 n _

theorem EntryPointV2.fed_det : Det EntryPointV2.fed id := by
  refine Det.of (
    (det_u32.on EntryPointV2.signature).cons <|
    (det_u8.on EntryPointV2.checksum).cons <|
    (det_u8.on EntryPointV2.len).cons <|
    (det_u8.on EntryPointV2.major).cons <|
    (det_u8.on EntryPointV2.minor).cons <|
    (det_u16.on EntryPointV2.struct_max).cons <|
    (det_u8.on EntryPointV2.revision).cons <|
    (det_slice.on EntryPointV2.formatted).cons <|
    (det_slice.on EntryPointV2.dmi_signature).cons <|
    (det_u8.on EntryPointV2.dmi_checksum).cons <|
    (det_u16.on EntryPointV2.smbios_len).cons <|
    (det_u32.on EntryPointV2.smbios_address).cons <|
    (det_u16.on EntryPointV2.smbios_count).cons <|
    (det_u8.on EntryPointV2.bcd_revision).cons <|
    det_nil) fun a b e => ?_
  cases a; cases b
  simpa only [id, Prod.mk.injEq, and_true, EntryPointV2.mk.injEq] using e

theorem EntryPointV2.fed_valid (n : Nat) (x : EntryPointV2) (h1 : x.formatted.length < 2 ^ n) (h2 :
    x.dmi_signature.length < 2 ^ n) : Fed.AllValid n x.fed :=
  allValid_append.2 ⟨valid_u32 n _,
  allValid_append.2 ⟨valid_u8 n _,
  allValid_append.2 ⟨valid_u8 n _,
  allValid_append.2 ⟨valid_u8 n _,
  allValid_append.2 ⟨valid_u8 n _,
  allValid_append.2 ⟨valid_u16 n _,
  allValid_append.2 ⟨valid_u8 n _,
  allValid_append.2 ⟨valid_one h1,
  allValid_append.2 ⟨valid_one h2,
  allValid_append.2 ⟨valid_u8 n _,
  allValid_append.2 ⟨valid_u16 n _,
  allValid_append.2 ⟨valid_u32 n _,
  allValid_append.2 ⟨valid_u16 n _,
  allValid_append.2 ⟨valid_u8 n _,
  allValid_nil n⟩⟩⟩⟩⟩⟩⟩⟩⟩⟩⟩⟩⟩⟩

theorem EntryPointV3.fed_det : Det EntryPointV3.fed id := by
  refine Det.of (
    (det_slice.on EntryPointV3.signature).cons <|
    (det_u8.on EntryPointV3.checksum).cons <|
    (det_u8.on EntryPointV3.len).cons <|
    (det_u8.on EntryPointV3.major).cons <|
    (det_u8.on EntryPointV3.minor).cons <|
    (det_u8.on EntryPointV3.docrev).cons <|
    (det_u8.on EntryPointV3.revision).cons <|
    (det_u8.on EntryPointV3.reserved).cons <|
    (det_u32.on EntryPointV3.smbios_len_max).cons <|
    (det_u64.on EntryPointV3.smbios_address).cons <|
    det_nil) fun a b e => ?_
  cases a; cases b
  simpa only [id, Prod.mk.injEq, and_true, EntryPointV3.mk.injEq] using e

theorem EntryPointV3.fed_valid (n : Nat) (x : EntryPointV3) (h1 : x.signature.length < 2 ^ n) : Fed.AllValid n
    x.fed :=
  allValid_append.2 ⟨valid_one h1,
  allValid_append.2 ⟨valid_u8 n _,
  allValid_append.2 ⟨valid_u8 n _,
  allValid_append.2 ⟨valid_u8 n _,
  allValid_append.2 ⟨valid_u8 n _,
  allValid_append.2 ⟨valid_u8 n _,
  allValid_append.2 ⟨valid_u8 n _,
  allValid_append.2 ⟨valid_u8 n _,
  allValid_append.2 ⟨valid_u32 n _,
  allValid_append.2 ⟨valid_u64 n _,
  allValid_nil n⟩⟩⟩⟩⟩⟩⟩⟩⟩⟩

theorem EntryPoint.idx_lt (x : EntryPoint) : x.ctorIdx < 65536 := by
  cases x <;> exact Nat.le_of_ble_eq_true rfl

theorem EntryPoint.fed_det : Det EntryPoint.fed id := by
  intro n h8 h32 pre a b r s va vb e
  replace e := idx_step h8 h32 (EntryPoint.idx_lt a) (EntryPoint.idx_lt b) va vb e
  clear va vb; obtain ⟨h, va, vb, e⟩ := e
  cases a <;> cases b <;> first | exact absurd h (Nat.ne_of_beq_eq_false rfl) | skip
  · obtain ⟨h1, hr⟩ := EntryPointV2.fed_det n h8 h32 pre _ _ r s va vb e
    cases h1
    exact ⟨rfl, hr⟩
  · obtain ⟨h1, hr⟩ := EntryPointV3.fed_det n h8 h32 pre _ _ r s va vb e
    cases h1
    exact ⟨rfl, hr⟩

theorem Structures.fed_det : Det Structures.fed id := by
  refine Det.of (
    (SmbiosVersion.fed_det.on Structures.smbios_version).cons <|
    (det_u32.on Structures.smbios_len).cons <|
    (det_u32.on Structures.idx).cons <|
    (det_slice.on Structures.buffer).cons <|
    det_nil) fun a b e => ?_
  cases a; cases b
  simpa only [id, Prod.mk.injEq, and_true, Structures.mk.injEq] using e

theorem Structures.fed_valid (n : Nat) (x : Structures) (h1 : x.buffer.length < 2 ^ n) : Fed.AllValid n x.fed :=
  allValid_append.2 ⟨SmbiosVersion.fed_valid n _,
  allValid_append.2 ⟨valid_u32 n _,
  allValid_append.2 ⟨valid_u32 n _,
  allValid_append.2 ⟨valid_one h1,
  allValid_nil n⟩⟩⟩⟩

end Dmi
