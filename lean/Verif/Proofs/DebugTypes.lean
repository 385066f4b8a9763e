import Verif.Model.Debug
import Verif.Proofs.DebugGood
import Verif.Spec.Text
/-!
# What the derived `Debug` of each type tells determines the value

Written by `tools/gen_debug.py`.
-/
set_option linter.unusedSectionVars false
namespace Dmi
variable [Shown]

theorem EntryPointV2.dbg_good : Good EntryPointV2.dbg where
  wf x := ⟨by decide, by decide, good_u32.wf _, by decide, good_u8.wf _, by decide, good_u8.wf _, by decide,
    good_u8.wf _, by decide, good_u8.wf _, by decide, good_u16.wf _, by decide, good_u8.wf _, by decide,
    good_bytes.wf _, by decide, good_bytes.wf _, by decide, good_u8.wf _, by decide, good_u16.wf _, by decide,
    good_u32.wf _, by decide, good_u16.wf _, by decide, good_u8.wf _, trivial⟩
  inj a b e := by
    replace e := struct_inj e
    obtain ⟨e1, e⟩ := cons_inj e
    obtain ⟨e2, e⟩ := cons_inj e
    obtain ⟨e3, e⟩ := cons_inj e
    obtain ⟨e4, e⟩ := cons_inj e
    obtain ⟨e5, e⟩ := cons_inj e
    obtain ⟨e6, e⟩ := cons_inj e
    obtain ⟨e7, e⟩ := cons_inj e
    obtain ⟨e8, e⟩ := cons_inj e
    obtain ⟨e9, e⟩ := cons_inj e
    obtain ⟨e10, e⟩ := cons_inj e
    obtain ⟨e11, e⟩ := cons_inj e
    obtain ⟨e12, e⟩ := cons_inj e
    obtain ⟨e13, e⟩ := cons_inj e
    obtain ⟨e14, e⟩ := cons_inj e
    replace e1 := good_u32.inj _ _ e1
    replace e2 := good_u8.inj _ _ e2
    replace e3 := good_u8.inj _ _ e3
    replace e4 := good_u8.inj _ _ e4
    replace e5 := good_u8.inj _ _ e5
    replace e6 := good_u16.inj _ _ e6
    replace e7 := good_u8.inj _ _ e7
    replace e8 := good_bytes.inj _ _ e8
    replace e9 := good_bytes.inj _ _ e9
    replace e10 := good_u8.inj _ _ e10
    replace e11 := good_u16.inj _ _ e11
    replace e12 := good_u32.inj _ _ e12
    replace e13 := good_u16.inj _ _ e13
    replace e14 := good_u8.inj _ _ e14
    cases a; cases b
    dsimp only at e1; subst e1
    dsimp only at e2; subst e2
    dsimp only at e3; subst e3
    dsimp only at e4; subst e4
    dsimp only at e5; subst e5
    dsimp only at e6; subst e6
    dsimp only at e7; subst e7
    dsimp only at e8; subst e8
    dsimp only at e9; subst e9
    dsimp only at e10; subst e10
    dsimp only at e11; subst e11
    dsimp only at e12; subst e12
    dsimp only at e13; subst e13
    dsimp only at e14; subst e14
    rfl

theorem EntryPointV3.dbg_good : Good EntryPointV3.dbg where
  wf x := ⟨by decide, by decide, good_bytes.wf _, by decide, good_u8.wf _, by decide, good_u8.wf _, by decide,
    good_u8.wf _, by decide, good_u8.wf _, by decide, good_u8.wf _, by decide, good_u8.wf _, by decide,
    good_u8.wf _, by decide, good_u32.wf _, by decide, good_u64.wf _, trivial⟩
  inj a b e := by
    replace e := struct_inj e
    obtain ⟨e1, e⟩ := cons_inj e
    obtain ⟨e2, e⟩ := cons_inj e
    obtain ⟨e3, e⟩ := cons_inj e
    obtain ⟨e4, e⟩ := cons_inj e
    obtain ⟨e5, e⟩ := cons_inj e
    obtain ⟨e6, e⟩ := cons_inj e
    obtain ⟨e7, e⟩ := cons_inj e
    obtain ⟨e8, e⟩ := cons_inj e
    obtain ⟨e9, e⟩ := cons_inj e
    obtain ⟨e10, e⟩ := cons_inj e
    replace e1 := good_bytes.inj _ _ e1
    replace e2 := good_u8.inj _ _ e2
    replace e3 := good_u8.inj _ _ e3
    replace e4 := good_u8.inj _ _ e4
    replace e5 := good_u8.inj _ _ e5
    replace e6 := good_u8.inj _ _ e6
    replace e7 := good_u8.inj _ _ e7
    replace e8 := good_u8.inj _ _ e8
    replace e9 := good_u32.inj _ _ e9
    replace e10 := good_u64.inj _ _ e10
    cases a; cases b
    dsimp only at e1; subst e1
    dsimp only at e2; subst e2
    dsimp only at e3; subst e3
    dsimp only at e4; subst e4
    dsimp only at e5; subst e5
    dsimp only at e6; subst e6
    dsimp only at e7; subst e7
    dsimp only at e8; subst e8
    dsimp only at e9; subst e9
    dsimp only at e10; subst e10
    rfl

theorem EntryPoint.dbg_idx (x : EntryPoint) :
    [txt! "V2", txt! "V3"].idxOf x.dbg.head = x.ctorIdx := by
  cases x <;> rfl

theorem EntryPoint.dbg_good : Good EntryPoint.dbg where
  wf x := by
    cases x
    · exact ⟨by decide, rfl, EntryPointV2.dbg_good.wf _, trivial⟩
    · exact ⟨by decide, rfl, EntryPointV3.dbg_good.wf _, trivial⟩
  inj a b e := by
    have h : a.ctorIdx = b.ctorIdx := by rw [← EntryPoint.dbg_idx a, ← EntryPoint.dbg_idx b, e]
    cases a <;> cases b <;> first | exact absurd h (Nat.ne_of_beq_eq_false rfl) | skip
    · replace e := tuple_inj e
      obtain ⟨e1, e⟩ := cons_inj e
      obtain rfl := EntryPointV2.dbg_good.inj _ _ e1
      rfl
    · replace e := tuple_inj e
      obtain ⟨e1, e⟩ := cons_inj e
      obtain rfl := EntryPointV3.dbg_good.inj _ _ e1
      rfl

theorem InvalidEntryPointError.dbg_idx (x : InvalidEntryPointError) :
    [txt! "NotFound", txt! "TooOldVersion", txt! "BadSize", txt! "BadChecksum"].idxOf x.dbg.head = x.ctorIdx :=
      by
  cases x <;> rfl

theorem InvalidEntryPointError.dbg_good : Good InvalidEntryPointError.dbg where
  wf x := by
    cases x
    · exact ⟨by decide, rfl⟩
    · exact ⟨by decide, rfl, good_u8.wf _, trivial⟩
    · exact ⟨by decide, rfl, good_u8.wf _, trivial⟩
    · exact ⟨by decide, rfl, good_u8.wf _, trivial⟩
  inj a b e := by
    have h : a.ctorIdx = b.ctorIdx := by rw [← InvalidEntryPointError.dbg_idx a, ← InvalidEntryPointError.dbg_idx b, e]
    cases a <;> cases b <;> first | exact absurd h (Nat.ne_of_beq_eq_false rfl) | skip
    · rfl
    · replace e := tuple_inj e
      obtain ⟨e1, e⟩ := cons_inj e
      obtain rfl := good_u8.inj _ _ e1
      rfl
    · replace e := tuple_inj e
      obtain ⟨e1, e⟩ := cons_inj e
      obtain rfl := good_u8.inj _ _ e1
      rfl
    · replace e := tuple_inj e
      obtain ⟨e1, e⟩ := cons_inj e
      obtain rfl := good_u8.inj _ _ e1
      rfl

theorem InfoType.dbg_idx (x : InfoType) :
    [txt! "Bios", txt! "System", txt! "BaseBoard", txt! "Enclosure", txt! "Processor", txt! "Cache",
      txt! "PortConnector", txt! "SystemSlots", txt! "OemStrings", txt! "SystemConfigurationOptions",
      txt! "GroupAssociations", txt! "SystemEventLog", txt! "BiosLanguage", txt! "PhysicalMemoryArray",
      txt! "MemoryDevice", txt! "MemoryError32", txt! "MemoryArrayMappedAddress",
      txt! "MemoryDeviceMappedAddress", txt! "BuiltInPointingDevice", txt! "PortableBattery",
      txt! "SystemBoot", txt! "Oem", txt! "End"].idxOf x.dbg.head = x.ctorIdx := by
  cases x <;> rfl

theorem InfoType.dbg_good : Good InfoType.dbg where
  wf x := by
    cases x
    · exact ⟨by decide, rfl⟩
    · exact ⟨by decide, rfl⟩
    · exact ⟨by decide, rfl⟩
    · exact ⟨by decide, rfl⟩
    · exact ⟨by decide, rfl⟩
    · exact ⟨by decide, rfl⟩
    · exact ⟨by decide, rfl⟩
    · exact ⟨by decide, rfl⟩
    · exact ⟨by decide, rfl⟩
    · exact ⟨by decide, rfl⟩
    · exact ⟨by decide, rfl⟩
    · exact ⟨by decide, rfl⟩
    · exact ⟨by decide, rfl⟩
    · exact ⟨by decide, rfl⟩
    · exact ⟨by decide, rfl⟩
    · exact ⟨by decide, rfl⟩
    · exact ⟨by decide, rfl⟩
    · exact ⟨by decide, rfl⟩
    · exact ⟨by decide, rfl⟩
    · exact ⟨by decide, rfl⟩
    · exact ⟨by decide, rfl⟩
    · exact ⟨by decide, rfl, good_u8.wf _, trivial⟩
    · exact ⟨by decide, rfl⟩
  inj a b e := by
    have h : a.ctorIdx = b.ctorIdx := by rw [← InfoType.dbg_idx a, ← InfoType.dbg_idx b, e]
    cases a <;> cases b <;> first | exact absurd h (Nat.ne_of_beq_eq_false rfl) | skip
    · rfl
    · rfl
    · rfl
    · rfl
    · rfl
    · rfl
    · rfl
    · rfl
    · rfl
    · rfl
    · rfl
    · rfl
    · rfl
    · rfl
    · rfl
    · rfl
    · rfl
    · rfl
    · rfl
    · rfl
    · rfl
    · replace e := tuple_inj e
      obtain ⟨e1, e⟩ := cons_inj e
      obtain rfl := good_u8.inj _ _ e1
      rfl
    · rfl

theorem MalformedStructureError.dbg_idx (x : MalformedStructureError) :
    [txt! "BadSize", txt! "UnterminatedStrings", txt! "InvalidStringIndex", txt! "InvalidSlice",
      txt! "InvalidFormattedSectionLength"].idxOf x.dbg.head = x.ctorIdx := by
  cases x <;> rfl

theorem MalformedStructureError.dbg_good : Good MalformedStructureError.dbg where
  wf x := by
    cases x
    · exact ⟨by decide, rfl, good_u32.wf _, rfl, good_u8.wf _, trivial⟩
    · exact ⟨by decide, rfl, good_u32.wf _, trivial⟩
    · exact ⟨by decide, rfl, InfoType.dbg_good.wf _, rfl, good_u16.wf _, rfl, good_u8.wf _, trivial⟩
    · exact ⟨by decide, rfl, ⟨by decide, rfl, trivial, trivial⟩, trivial⟩
    · exact ⟨by decide, rfl, InfoType.dbg_good.wf _, rfl, good_u16.wf _, rfl, good_string.wf _, rfl, good_u8.wf _, trivial⟩
  inj a b e := by
    have h : a.ctorIdx = b.ctorIdx := by rw [← MalformedStructureError.dbg_idx a, ← MalformedStructureError.dbg_idx b, e]
    cases a <;> cases b <;> first | exact absurd h (Nat.ne_of_beq_eq_false rfl) | skip
    · replace e := tuple_inj e
      obtain ⟨e1, e⟩ := cons_inj e
      obtain ⟨e2, e⟩ := cons_inj e
      obtain rfl := good_u32.inj _ _ e1
      obtain rfl := good_u8.inj _ _ e2
      rfl
    · replace e := tuple_inj e
      obtain ⟨e1, e⟩ := cons_inj e
      obtain rfl := good_u32.inj _ _ e1
      rfl
    · replace e := tuple_inj e
      obtain ⟨e1, e⟩ := cons_inj e
      obtain ⟨e2, e⟩ := cons_inj e
      obtain ⟨e3, e⟩ := cons_inj e
      obtain rfl := InfoType.dbg_good.inj _ _ e1
      obtain rfl := good_u16.inj _ _ e2
      obtain rfl := good_u8.inj _ _ e3
      rfl
    · rfl
    · replace e := tuple_inj e
      obtain ⟨e1, e⟩ := cons_inj e
      obtain ⟨e2, e⟩ := cons_inj e
      obtain ⟨e3, e⟩ := cons_inj e
      obtain ⟨e4, e⟩ := cons_inj e
      obtain rfl := InfoType.dbg_good.inj _ _ e1
      obtain rfl := good_u16.inj _ _ e2
      obtain rfl := good_string.inj _ _ e3
      obtain rfl := good_u8.inj _ _ e4
      rfl

theorem SmbiosVersion.dbg_good : Good SmbiosVersion.dbg where
  wf x := ⟨by decide, by decide, good_u8.wf _, by decide, good_u8.wf _, trivial⟩
  inj a b e := by
    replace e := struct_inj e
    obtain ⟨e1, e⟩ := cons_inj e
    obtain ⟨e2, e⟩ := cons_inj e
    replace e1 := good_u8.inj _ _ e1
    replace e2 := good_u8.inj _ _ e2
    cases a; cases b
    dsimp only at e1; subst e1
    dsimp only at e2; subst e2
    rfl

theorem Structures.dbg_good : Good Structures.dbg where
  wf x := ⟨by decide, by decide, SmbiosVersion.dbg_good.wf _, by decide, good_u32.wf _, by decide, good_u32.wf
    _, by decide, good_bytes.wf _, trivial⟩
  inj a b e := by
    replace e := struct_inj e
    obtain ⟨e1, e⟩ := cons_inj e
    obtain ⟨e2, e⟩ := cons_inj e
    obtain ⟨e3, e⟩ := cons_inj e
    obtain ⟨e4, e⟩ := cons_inj e
    replace e1 := SmbiosVersion.dbg_good.inj _ _ e1
    replace e2 := good_u32.inj _ _ e2
    replace e3 := good_u32.inj _ _ e3
    replace e4 := good_bytes.inj _ _ e4
    cases a; cases b
    dsimp only at e1; subst e1
    dsimp only at e2; subst e2
    dsimp only at e3; subst e3
    dsimp only at e4; subst e4
    rfl

theorem bios.RomSize.dbg_good : Good bios.RomSize.dbg where
  wf x := ⟨by decide, by decide, good_u8.wf _, by decide, (good_opt good_u16).wf _, trivial⟩
  inj a b e := by
    replace e := struct_inj e
    obtain ⟨e1, e⟩ := cons_inj e
    obtain ⟨e2, e⟩ := cons_inj e
    replace e1 := good_u8.inj _ _ e1
    replace e2 := (good_opt good_u16).inj _ _ e2
    cases a; cases b
    dsimp only at e1; subst e1
    dsimp only at e2; subst e2
    rfl

theorem bios.Characteristics.dbg_good : Good bios.Characteristics.dbg where
  wf x := ⟨by decide, rfl, good_u64.wf _, trivial⟩
  inj a b e := by
    replace e := tuple_inj e
    obtain ⟨e1, e⟩ := cons_inj e
    replace e1 := good_u64.inj _ _ e1
    cases a; cases b
    dsimp only at e1; subst e1
    rfl

theorem bios.CharacteristicsExtension1.dbg_good : Good bios.CharacteristicsExtension1.dbg where
  wf x := ⟨by decide, rfl, good_u8.wf _, trivial⟩
  inj a b e := by
    replace e := tuple_inj e
    obtain ⟨e1, e⟩ := cons_inj e
    replace e1 := good_u8.inj _ _ e1
    cases a; cases b
    dsimp only at e1; subst e1
    rfl

theorem bios.CharacteristicsExtension2.dbg_good : Good bios.CharacteristicsExtension2.dbg where
  wf x := ⟨by decide, rfl, good_u8.wf _, trivial⟩
  inj a b e := by
    replace e := tuple_inj e
    obtain ⟨e1, e⟩ := cons_inj e
    replace e1 := good_u8.inj _ _ e1
    cases a; cases b
    dsimp only at e1; subst e1
    rfl

theorem bios.BiosRevision.dbg_good : Good bios.BiosRevision.dbg where
  wf x := ⟨by decide, by decide, good_u8.wf _, by decide, good_u8.wf _, trivial⟩
  inj a b e := by
    replace e := struct_inj e
    obtain ⟨e1, e⟩ := cons_inj e
    obtain ⟨e2, e⟩ := cons_inj e
    replace e1 := good_u8.inj _ _ e1
    replace e2 := good_u8.inj _ _ e2
    cases a; cases b
    dsimp only at e1; subst e1
    dsimp only at e2; subst e2
    rfl

theorem bios.FirmwareRevision.dbg_good : Good bios.FirmwareRevision.dbg where
  wf x := ⟨by decide, by decide, good_u8.wf _, by decide, good_u8.wf _, trivial⟩
  inj a b e := by
    replace e := struct_inj e
    obtain ⟨e1, e⟩ := cons_inj e
    obtain ⟨e2, e⟩ := cons_inj e
    replace e1 := good_u8.inj _ _ e1
    replace e2 := good_u8.inj _ _ e2
    cases a; cases b
    dsimp only at e1; subst e1
    dsimp only at e2; subst e2
    rfl

theorem bios.Bios.dbg_good : Good bios.Bios.dbg where
  wf x := ⟨by decide, by decide, good_u16.wf _, by decide, good_str.wf _, by decide, good_str.wf _, by decide,
    good_u16.wf _, by decide, good_str.wf _, by decide, bios.RomSize.dbg_good.wf _, by decide,
    bios.Characteristics.dbg_good.wf _, by decide, (good_opt bios.CharacteristicsExtension1.dbg_good).wf _, by
    decide, (good_opt bios.CharacteristicsExtension2.dbg_good).wf _, by decide, (good_opt
    bios.BiosRevision.dbg_good).wf _, by decide, (good_opt bios.FirmwareRevision.dbg_good).wf _, trivial⟩
  inj a b e := by
    replace e := struct_inj e
    obtain ⟨e1, e⟩ := cons_inj e
    obtain ⟨e2, e⟩ := cons_inj e
    obtain ⟨e3, e⟩ := cons_inj e
    obtain ⟨e4, e⟩ := cons_inj e
    obtain ⟨e5, e⟩ := cons_inj e
    obtain ⟨e6, e⟩ := cons_inj e
    obtain ⟨e7, e⟩ := cons_inj e
    obtain ⟨e8, e⟩ := cons_inj e
    obtain ⟨e9, e⟩ := cons_inj e
    obtain ⟨e10, e⟩ := cons_inj e
    obtain ⟨e11, e⟩ := cons_inj e
    replace e1 := good_u16.inj _ _ e1
    replace e2 := good_str.inj _ _ e2
    replace e3 := good_str.inj _ _ e3
    replace e4 := good_u16.inj _ _ e4
    replace e5 := good_str.inj _ _ e5
    replace e6 := bios.RomSize.dbg_good.inj _ _ e6
    replace e7 := bios.Characteristics.dbg_good.inj _ _ e7
    replace e8 := (good_opt bios.CharacteristicsExtension1.dbg_good).inj _ _ e8
    replace e9 := (good_opt bios.CharacteristicsExtension2.dbg_good).inj _ _ e9
    replace e10 := (good_opt bios.BiosRevision.dbg_good).inj _ _ e10
    replace e11 := (good_opt bios.FirmwareRevision.dbg_good).inj _ _ e11
    cases a; cases b
    dsimp only at e1; subst e1
    dsimp only at e2; subst e2
    dsimp only at e3; subst e3
    dsimp only at e4; subst e4
    dsimp only at e5; subst e5
    dsimp only at e6; subst e6
    dsimp only at e7; subst e7
    dsimp only at e8; subst e8
    dsimp only at e9; subst e9
    dsimp only at e10; subst e10
    dsimp only at e11; subst e11
    rfl

theorem system.WakeupType.dbg_idx (x : system.WakeupType) :
    [txt! "Reserved", txt! "Other", txt! "Unknown", txt! "APM_Timer", txt! "Modem_Ring", txt! "LAN_Remote",
      txt! "Power_Switch", txt! "PCI_PME", txt! "AC_Power_Restored", txt! "Undefined"].idxOf x.dbg.head =
      x.ctorIdx := by
  cases x <;> rfl

theorem system.WakeupType.dbg_good : Good system.WakeupType.dbg where
  wf x := by
    cases x
    · exact ⟨by decide, rfl⟩
    · exact ⟨by decide, rfl⟩
    · exact ⟨by decide, rfl⟩
    · exact ⟨by decide, rfl⟩
    · exact ⟨by decide, rfl⟩
    · exact ⟨by decide, rfl⟩
    · exact ⟨by decide, rfl⟩
    · exact ⟨by decide, rfl⟩
    · exact ⟨by decide, rfl⟩
    · exact ⟨by decide, rfl, good_u8.wf _, trivial⟩
  inj a b e := by
    have h : a.ctorIdx = b.ctorIdx := by rw [← system.WakeupType.dbg_idx a, ← system.WakeupType.dbg_idx b, e]
    cases a <;> cases b <;> first | exact absurd h (Nat.ne_of_beq_eq_false rfl) | skip
    · rfl
    · rfl
    · rfl
    · rfl
    · rfl
    · rfl
    · rfl
    · rfl
    · rfl
    · replace e := tuple_inj e
      obtain ⟨e1, e⟩ := cons_inj e
      obtain rfl := good_u8.inj _ _ e1
      rfl

theorem system.System.dbg_good : Good system.System.dbg where
  wf x := ⟨by decide, by decide, good_u16.wf _, by decide, good_str.wf _, by decide, good_str.wf _, by decide,
    good_str.wf _, by decide, good_str.wf _, by decide, (good_opt good_uuid).wf _, by decide, (good_opt
    system.WakeupType.dbg_good).wf _, by decide, (good_opt good_str).wf _, by decide, (good_opt good_str).wf _,
    trivial⟩
  inj a b e := by
    replace e := struct_inj e
    obtain ⟨e1, e⟩ := cons_inj e
    obtain ⟨e2, e⟩ := cons_inj e
    obtain ⟨e3, e⟩ := cons_inj e
    obtain ⟨e4, e⟩ := cons_inj e
    obtain ⟨e5, e⟩ := cons_inj e
    obtain ⟨e6, e⟩ := cons_inj e
    obtain ⟨e7, e⟩ := cons_inj e
    obtain ⟨e8, e⟩ := cons_inj e
    obtain ⟨e9, e⟩ := cons_inj e
    replace e1 := good_u16.inj _ _ e1
    replace e2 := good_str.inj _ _ e2
    replace e3 := good_str.inj _ _ e3
    replace e4 := good_str.inj _ _ e4
    replace e5 := good_str.inj _ _ e5
    replace e6 := (good_opt good_uuid).inj _ _ e6
    replace e7 := (good_opt system.WakeupType.dbg_good).inj _ _ e7
    replace e8 := (good_opt good_str).inj _ _ e8
    replace e9 := (good_opt good_str).inj _ _ e9
    cases a; cases b
    dsimp only at e1; subst e1
    dsimp only at e2; subst e2
    dsimp only at e3; subst e3
    dsimp only at e4; subst e4
    dsimp only at e5; subst e5
    dsimp only at e6; subst e6
    dsimp only at e7; subst e7
    dsimp only at e8; subst e8
    dsimp only at e9; subst e9
    rfl

theorem baseboard.BaseBoardFlags.dbg_good : Good baseboard.BaseBoardFlags.dbg := by
  have h : Good (Dbg.flags baseboard.BaseBoardFlags.table) := good_flags (by decide +kernel)
  refine ⟨fun x => ⟨by decide, rfl, h.wf _, trivial⟩, fun a b e => ?_⟩
  have h1 := UInt8.toNat_inj.1 (h.inj _ _ (cons_inj (tuple_inj e)).1)
  cases a; cases b
  dsimp only at h1
  subst h1
  rfl

theorem baseboard.BoardType.dbg_idx (x : baseboard.BoardType) :
    [txt! "Unknown", txt! "Other", txt! "ServerBlade", txt! "ConnectivitySwitch",
      txt! "SystemManagementModule", txt! "ProcessorModule", txt! "IoModule", txt! "MemoryModule",
      txt! "DaughterBoard", txt! "MotherBoard", txt! "ProcessorMemoryModule", txt! "ProcessorIoModule",
      txt! "InterconnectBoard", txt! "Undefined"].idxOf x.dbg.head = x.ctorIdx := by
  cases x <;> rfl

theorem baseboard.BoardType.dbg_good : Good baseboard.BoardType.dbg where
  wf x := by
    cases x
    · exact ⟨by decide, rfl⟩
    · exact ⟨by decide, rfl⟩
    · exact ⟨by decide, rfl⟩
    · exact ⟨by decide, rfl⟩
    · exact ⟨by decide, rfl⟩
    · exact ⟨by decide, rfl⟩
    · exact ⟨by decide, rfl⟩
    · exact ⟨by decide, rfl⟩
    · exact ⟨by decide, rfl⟩
    · exact ⟨by decide, rfl⟩
    · exact ⟨by decide, rfl⟩
    · exact ⟨by decide, rfl⟩
    · exact ⟨by decide, rfl⟩
    · exact ⟨by decide, rfl, good_u8.wf _, trivial⟩
  inj a b e := by
    have h : a.ctorIdx = b.ctorIdx := by rw [← baseboard.BoardType.dbg_idx a, ← baseboard.BoardType.dbg_idx b, e]
    cases a <;> cases b <;> first | exact absurd h (Nat.ne_of_beq_eq_false rfl) | skip
    · rfl
    · rfl
    · rfl
    · rfl
    · rfl
    · rfl
    · rfl
    · rfl
    · rfl
    · rfl
    · rfl
    · rfl
    · rfl
    · replace e := tuple_inj e
      obtain ⟨e1, e⟩ := cons_inj e
      obtain rfl := good_u8.inj _ _ e1
      rfl

theorem baseboard.BaseBoard.dbg_good : Good baseboard.BaseBoard.dbg where
  wf x := ⟨by decide, by decide, good_u16.wf _, by decide, good_str.wf _, by decide, good_str.wf _, by decide,
    good_str.wf _, by decide, good_str.wf _, by decide, (good_opt good_str).wf _, by decide, (good_opt
    baseboard.BaseBoardFlags.dbg_good).wf _, by decide, (good_opt good_str).wf _, by decide, (good_opt
    good_u16).wf _, by decide, (good_opt baseboard.BoardType.dbg_good).wf _, trivial⟩
  inj a b e := by
    replace e := struct_inj e
    obtain ⟨e1, e⟩ := cons_inj e
    obtain ⟨e2, e⟩ := cons_inj e
    obtain ⟨e3, e⟩ := cons_inj e
    obtain ⟨e4, e⟩ := cons_inj e
    obtain ⟨e5, e⟩ := cons_inj e
    obtain ⟨e6, e⟩ := cons_inj e
    obtain ⟨e7, e⟩ := cons_inj e
    obtain ⟨e8, e⟩ := cons_inj e
    obtain ⟨e9, e⟩ := cons_inj e
    obtain ⟨e10, e⟩ := cons_inj e
    replace e1 := good_u16.inj _ _ e1
    replace e2 := good_str.inj _ _ e2
    replace e3 := good_str.inj _ _ e3
    replace e4 := good_str.inj _ _ e4
    replace e5 := good_str.inj _ _ e5
    replace e6 := (good_opt good_str).inj _ _ e6
    replace e7 := (good_opt baseboard.BaseBoardFlags.dbg_good).inj _ _ e7
    replace e8 := (good_opt good_str).inj _ _ e8
    replace e9 := (good_opt good_u16).inj _ _ e9
    replace e10 := (good_opt baseboard.BoardType.dbg_good).inj _ _ e10
    cases a; cases b
    dsimp only at e1; subst e1
    dsimp only at e2; subst e2
    dsimp only at e3; subst e3
    dsimp only at e4; subst e4
    dsimp only at e5; subst e5
    dsimp only at e6; subst e6
    dsimp only at e7; subst e7
    dsimp only at e8; subst e8
    dsimp only at e9; subst e9
    dsimp only at e10; subst e10
    rfl

theorem enclosure.EnclosureType.dbg_good : Good enclosure.EnclosureType.dbg := by
  refine good_enum enclosure.EnclosureType.dbg (@enclosure.EnclosureType.dbg .usual) (nullary! enclosure.EnclosureType)
    (fun a => (∃ v, a = .Undefined v)) (fun a => ?_) (by decide +kernel) (by decide +kernel) ?_ ?_
  · cases a <;> first | exact .inr ⟨_, rfl⟩ | exact .inl ⟨by decide +kernel, rfl⟩
  · rintro _ (⟨v, rfl⟩)
    · exact ⟨rfl, by decide, rfl, good_u8.wf _, trivial⟩
  · rintro _ _ (⟨v, rfl⟩) (⟨w, rfl⟩) e
    · rw [good_u8.inj _ _ (cons_inj (tuple_inj e)).1]

theorem enclosure.State.dbg_idx (x : enclosure.State) :
    [txt! "Other", txt! "Unknown", txt! "Safe", txt! "Warning", txt! "Critical", txt! "NonRecoverable",
      txt! "Undefined"].idxOf x.dbg.head = x.ctorIdx := by
  cases x <;> rfl

theorem enclosure.State.dbg_good : Good enclosure.State.dbg where
  wf x := by
    cases x
    · exact ⟨by decide, rfl⟩
    · exact ⟨by decide, rfl⟩
    · exact ⟨by decide, rfl⟩
    · exact ⟨by decide, rfl⟩
    · exact ⟨by decide, rfl⟩
    · exact ⟨by decide, rfl⟩
    · exact ⟨by decide, rfl, good_u8.wf _, trivial⟩
  inj a b e := by
    have h : a.ctorIdx = b.ctorIdx := by rw [← enclosure.State.dbg_idx a, ← enclosure.State.dbg_idx b, e]
    cases a <;> cases b <;> first | exact absurd h (Nat.ne_of_beq_eq_false rfl) | skip
    · rfl
    · rfl
    · rfl
    · rfl
    · rfl
    · rfl
    · replace e := tuple_inj e
      obtain ⟨e1, e⟩ := cons_inj e
      obtain rfl := good_u8.inj _ _ e1
      rfl

theorem enclosure.SecurityStatus.dbg_idx (x : enclosure.SecurityStatus) :
    [txt! "Other", txt! "Unknown", txt! "None", txt! "ExternalInterfaceLockedOut",
      txt! "ExternalInterfaceEnabled", txt! "Undefined"].idxOf x.dbg.head = x.ctorIdx := by
  cases x <;> rfl

theorem enclosure.SecurityStatus.dbg_good : Good enclosure.SecurityStatus.dbg where
  wf x := by
    cases x
    · exact ⟨by decide, rfl⟩
    · exact ⟨by decide, rfl⟩
    · exact ⟨by decide, rfl⟩
    · exact ⟨by decide, rfl⟩
    · exact ⟨by decide, rfl⟩
    · exact ⟨by decide, rfl, good_u8.wf _, trivial⟩
  inj a b e := by
    have h : a.ctorIdx = b.ctorIdx := by rw [← enclosure.SecurityStatus.dbg_idx a, ← enclosure.SecurityStatus.dbg_idx b, e]
    cases a <;> cases b <;> first | exact absurd h (Nat.ne_of_beq_eq_false rfl) | skip
    · rfl
    · rfl
    · rfl
    · rfl
    · rfl
    · replace e := tuple_inj e
      obtain ⟨e1, e⟩ := cons_inj e
      obtain rfl := good_u8.inj _ _ e1
      rfl

theorem enclosure.ContainedElements.dbg_good : Good enclosure.ContainedElements.dbg where
  wf x := ⟨by decide, by decide, good_chunks.wf _, by decide, good_u8.wf _, by decide, good_u8.wf _, trivial⟩
  inj a b e := by
    replace e := struct_inj e
    obtain ⟨e1, e⟩ := cons_inj e
    obtain ⟨e2, e⟩ := cons_inj e
    obtain ⟨e3, e⟩ := cons_inj e
    replace e1 := good_chunks.inj _ _ e1
    replace e2 := good_u8.inj _ _ e2
    replace e3 := good_u8.inj _ _ e3
    cases a; cases b
    dsimp only at e1; subst e1
    dsimp only at e2; subst e2
    dsimp only at e3; subst e3
    rfl

theorem enclosure.Enclosure.dbg_good : Good enclosure.Enclosure.dbg where
  wf x := ⟨by decide, by decide, good_u16.wf _, by decide, good_str.wf _, by decide, good_bool.wf _, by decide,
    enclosure.EnclosureType.dbg_good.wf _, by decide, good_str.wf _, by decide, good_str.wf _, by decide,
    good_str.wf _, by decide, (good_opt enclosure.State.dbg_good).wf _, by decide, (good_opt
    enclosure.State.dbg_good).wf _, by decide, (good_opt enclosure.State.dbg_good).wf _, by decide, (good_opt
    enclosure.SecurityStatus.dbg_good).wf _, by decide, (good_opt good_u32).wf _, by decide, (good_opt
    good_u8).wf _, by decide, (good_opt good_u8).wf _, by decide, (good_opt
    enclosure.ContainedElements.dbg_good).wf _, by decide, (good_opt good_str).wf _, trivial⟩
  inj a b e := by
    replace e := struct_inj e
    obtain ⟨e1, e⟩ := cons_inj e
    obtain ⟨e2, e⟩ := cons_inj e
    obtain ⟨e3, e⟩ := cons_inj e
    obtain ⟨e4, e⟩ := cons_inj e
    obtain ⟨e5, e⟩ := cons_inj e
    obtain ⟨e6, e⟩ := cons_inj e
    obtain ⟨e7, e⟩ := cons_inj e
    obtain ⟨e8, e⟩ := cons_inj e
    obtain ⟨e9, e⟩ := cons_inj e
    obtain ⟨e10, e⟩ := cons_inj e
    obtain ⟨e11, e⟩ := cons_inj e
    obtain ⟨e12, e⟩ := cons_inj e
    obtain ⟨e13, e⟩ := cons_inj e
    obtain ⟨e14, e⟩ := cons_inj e
    obtain ⟨e15, e⟩ := cons_inj e
    obtain ⟨e16, e⟩ := cons_inj e
    replace e1 := good_u16.inj _ _ e1
    replace e2 := good_str.inj _ _ e2
    replace e3 := good_bool.inj _ _ e3
    replace e4 := enclosure.EnclosureType.dbg_good.inj _ _ e4
    replace e5 := good_str.inj _ _ e5
    replace e6 := good_str.inj _ _ e6
    replace e7 := good_str.inj _ _ e7
    replace e8 := (good_opt enclosure.State.dbg_good).inj _ _ e8
    replace e9 := (good_opt enclosure.State.dbg_good).inj _ _ e9
    replace e10 := (good_opt enclosure.State.dbg_good).inj _ _ e10
    replace e11 := (good_opt enclosure.SecurityStatus.dbg_good).inj _ _ e11
    replace e12 := (good_opt good_u32).inj _ _ e12
    replace e13 := (good_opt good_u8).inj _ _ e13
    replace e14 := (good_opt good_u8).inj _ _ e14
    replace e15 := (good_opt enclosure.ContainedElements.dbg_good).inj _ _ e15
    replace e16 := (good_opt good_str).inj _ _ e16
    cases a; cases b
    dsimp only at e1; subst e1
    dsimp only at e2; subst e2
    dsimp only at e3; subst e3
    dsimp only at e4; subst e4
    dsimp only at e5; subst e5
    dsimp only at e6; subst e6
    dsimp only at e7; subst e7
    dsimp only at e8; subst e8
    dsimp only at e9; subst e9
    dsimp only at e10; subst e10
    dsimp only at e11; subst e11
    dsimp only at e12; subst e12
    dsimp only at e13; subst e13
    dsimp only at e14; subst e14
    dsimp only at e15; subst e15
    dsimp only at e16; subst e16
    rfl

theorem processor.ProcessorType.dbg_idx (x : processor.ProcessorType) :
    [txt! "Other", txt! "Unknown", txt! "CentralProcessor", txt! "MathProcessor", txt! "DspProcessor",
      txt! "VideoProcessor", txt! "Undefined"].idxOf x.dbg.head = x.ctorIdx := by
  cases x <;> rfl

theorem processor.ProcessorType.dbg_good : Good processor.ProcessorType.dbg where
  wf x := by
    cases x
    · exact ⟨by decide, rfl⟩
    · exact ⟨by decide, rfl⟩
    · exact ⟨by decide, rfl⟩
    · exact ⟨by decide, rfl⟩
    · exact ⟨by decide, rfl⟩
    · exact ⟨by decide, rfl⟩
    · exact ⟨by decide, rfl, good_u8.wf _, trivial⟩
  inj a b e := by
    have h : a.ctorIdx = b.ctorIdx := by rw [← processor.ProcessorType.dbg_idx a, ← processor.ProcessorType.dbg_idx b, e]
    cases a <;> cases b <;> first | exact absurd h (Nat.ne_of_beq_eq_false rfl) | skip
    · rfl
    · rfl
    · rfl
    · rfl
    · rfl
    · rfl
    · replace e := tuple_inj e
      obtain ⟨e1, e⟩ := cons_inj e
      obtain rfl := good_u8.inj _ _ e1
      rfl

theorem processor.ProcessorFamily.dbg_good : Good processor.ProcessorFamily.dbg := by
  refine good_enum processor.ProcessorFamily.dbg (@processor.ProcessorFamily.dbg .usual) (nullary! processor.ProcessorFamily)
    (fun a => (∃ v, a = .Available v) ∨ (∃ v, a = .NotUsed v)) (fun a => ?_) (by decide +kernel) (by decide +kernel) ?_ ?_
  · cases a <;> first | exact .inr (.inl ⟨_, rfl⟩) | exact .inr (.inr ⟨_, rfl⟩) | exact .inl ⟨by decide +kernel, rfl⟩
  · rintro _ (⟨v, rfl⟩ | ⟨v, rfl⟩)
    · exact ⟨rfl, by decide, rfl, good_u16.wf _, trivial⟩
    · exact ⟨rfl, by decide, rfl, good_u16.wf _, trivial⟩
  · rintro _ _ (⟨v, rfl⟩ | ⟨v, rfl⟩) (⟨w, rfl⟩ | ⟨w, rfl⟩) e
    · rw [good_u16.inj _ _ (cons_inj (tuple_inj e)).1]
    · have : txt! "Available" = txt! "NotUsed" := congrArg Dbg.head e
      exact absurd this (by decide)
    · have : txt! "NotUsed" = txt! "Available" := congrArg Dbg.head e
      exact absurd this (by decide)
    · rw [good_u16.inj _ _ (cons_inj (tuple_inj e)).1]

theorem processor.VoltageLegacy.dbg_good : Good processor.VoltageLegacy.dbg := by
  have h : Good (Dbg.flags processor.VoltageLegacy.table) := good_flags (by decide +kernel)
  refine ⟨fun x => ⟨by decide, rfl, h.wf _, trivial⟩, fun a b e => ?_⟩
  have h1 := UInt8.toNat_inj.1 (h.inj _ _ (cons_inj (tuple_inj e)).1)
  cases a; cases b
  dsimp only at h1
  subst h1
  rfl

theorem processor.Voltage.dbg_idx (x : processor.Voltage) :
    [txt! "Legacy", txt! "Current", txt! "Undefined"].idxOf x.dbg.head = x.ctorIdx := by
  cases x <;> rfl

theorem processor.Voltage.dbg_good : Good processor.Voltage.dbg where
  wf x := by
    cases x
    · exact ⟨by decide, rfl, processor.VoltageLegacy.dbg_good.wf _, trivial⟩
    · exact ⟨by decide, rfl, good_u8.wf _, trivial⟩
    · exact ⟨by decide, rfl, good_u8.wf _, trivial⟩
  inj a b e := by
    have h : a.ctorIdx = b.ctorIdx := by rw [← processor.Voltage.dbg_idx a, ← processor.Voltage.dbg_idx b, e]
    cases a <;> cases b <;> first | exact absurd h (Nat.ne_of_beq_eq_false rfl) | skip
    · replace e := tuple_inj e
      obtain ⟨e1, e⟩ := cons_inj e
      obtain rfl := processor.VoltageLegacy.dbg_good.inj _ _ e1
      rfl
    · replace e := tuple_inj e
      obtain ⟨e1, e⟩ := cons_inj e
      obtain rfl := good_u8.inj _ _ e1
      rfl
    · replace e := tuple_inj e
      obtain ⟨e1, e⟩ := cons_inj e
      obtain rfl := good_u8.inj _ _ e1
      rfl

theorem processor.ProcessorStatus.dbg_good : Good processor.ProcessorStatus.dbg := by
  have h : Good (Dbg.flags processor.ProcessorStatus.table) := good_flags (by decide +kernel)
  refine ⟨fun x => ⟨by decide, rfl, h.wf _, trivial⟩, fun a b e => ?_⟩
  have h1 := UInt8.toNat_inj.1 (h.inj _ _ (cons_inj (tuple_inj e)).1)
  cases a; cases b
  dsimp only at h1
  subst h1
  rfl

theorem processor.ProcessorUpgrade.dbg_good : Good processor.ProcessorUpgrade.dbg := by
  refine good_enum processor.ProcessorUpgrade.dbg (@processor.ProcessorUpgrade.dbg .usual) (nullary! processor.ProcessorUpgrade)
    (fun a => (∃ v, a = .Undefined v)) (fun a => ?_) (by decide +kernel) (by decide +kernel) ?_ ?_
  · cases a <;> first | exact .inr ⟨_, rfl⟩ | exact .inl ⟨by decide +kernel, rfl⟩
  · rintro _ (⟨v, rfl⟩)
    · exact ⟨rfl, by decide, rfl, good_u8.wf _, trivial⟩
  · rintro _ _ (⟨v, rfl⟩) (⟨w, rfl⟩) e
    · rw [good_u8.inj _ _ (cons_inj (tuple_inj e)).1]

theorem processor.ProcessorCharacteristics.dbg_good : Good processor.ProcessorCharacteristics.dbg := by
  have h : Good (Dbg.flags processor.ProcessorCharacteristics.table) := good_flags (by decide +kernel)
  refine ⟨fun x => ⟨by decide, rfl, h.wf _, trivial⟩, fun a b e => ?_⟩
  have h1 := UInt16.toNat_inj.1 (h.inj _ _ (cons_inj (tuple_inj e)).1)
  cases a; cases b
  dsimp only at h1
  subst h1
  rfl

theorem processor.Processor.dbg_good : Good processor.Processor.dbg where
  wf x := ⟨by decide, by decide, good_u16.wf _, by decide, good_str.wf _, by decide,
    processor.ProcessorType.dbg_good.wf _, by decide, processor.ProcessorFamily.dbg_good.wf _, by decide,
    good_str.wf _, by decide, good_u64.wf _, by decide, good_str.wf _, by decide, processor.Voltage.dbg_good.wf
    _, by decide, good_u16.wf _, by decide, good_u16.wf _, by decide, good_u16.wf _, by decide,
    processor.ProcessorStatus.dbg_good.wf _, by decide, processor.ProcessorUpgrade.dbg_good.wf _, by decide,
    (good_opt good_u16).wf _, by decide, (good_opt good_u16).wf _, by decide, (good_opt good_u16).wf _, by
    decide, (good_opt good_str).wf _, by decide, (good_opt good_str).wf _, by decide, (good_opt good_str).wf _,
    by decide, (good_opt good_u16).wf _, by decide, (good_opt good_u16).wf _, by decide, (good_opt good_u16).wf
    _, by decide, (good_opt processor.ProcessorCharacteristics.dbg_good).wf _, trivial⟩
  inj a b e := by
    replace e := struct_inj e
    obtain ⟨e1, e⟩ := cons_inj e
    obtain ⟨e2, e⟩ := cons_inj e
    obtain ⟨e3, e⟩ := cons_inj e
    obtain ⟨e4, e⟩ := cons_inj e
    obtain ⟨e5, e⟩ := cons_inj e
    obtain ⟨e6, e⟩ := cons_inj e
    obtain ⟨e7, e⟩ := cons_inj e
    obtain ⟨e8, e⟩ := cons_inj e
    obtain ⟨e9, e⟩ := cons_inj e
    obtain ⟨e10, e⟩ := cons_inj e
    obtain ⟨e11, e⟩ := cons_inj e
    obtain ⟨e12, e⟩ := cons_inj e
    obtain ⟨e13, e⟩ := cons_inj e
    obtain ⟨e14, e⟩ := cons_inj e
    obtain ⟨e15, e⟩ := cons_inj e
    obtain ⟨e16, e⟩ := cons_inj e
    obtain ⟨e17, e⟩ := cons_inj e
    obtain ⟨e18, e⟩ := cons_inj e
    obtain ⟨e19, e⟩ := cons_inj e
    obtain ⟨e20, e⟩ := cons_inj e
    obtain ⟨e21, e⟩ := cons_inj e
    obtain ⟨e22, e⟩ := cons_inj e
    obtain ⟨e23, e⟩ := cons_inj e
    replace e1 := good_u16.inj _ _ e1
    replace e2 := good_str.inj _ _ e2
    replace e3 := processor.ProcessorType.dbg_good.inj _ _ e3
    replace e4 := processor.ProcessorFamily.dbg_good.inj _ _ e4
    replace e5 := good_str.inj _ _ e5
    replace e6 := good_u64.inj _ _ e6
    replace e7 := good_str.inj _ _ e7
    replace e8 := processor.Voltage.dbg_good.inj _ _ e8
    replace e9 := good_u16.inj _ _ e9
    replace e10 := good_u16.inj _ _ e10
    replace e11 := good_u16.inj _ _ e11
    replace e12 := processor.ProcessorStatus.dbg_good.inj _ _ e12
    replace e13 := processor.ProcessorUpgrade.dbg_good.inj _ _ e13
    replace e14 := (good_opt good_u16).inj _ _ e14
    replace e15 := (good_opt good_u16).inj _ _ e15
    replace e16 := (good_opt good_u16).inj _ _ e16
    replace e17 := (good_opt good_str).inj _ _ e17
    replace e18 := (good_opt good_str).inj _ _ e18
    replace e19 := (good_opt good_str).inj _ _ e19
    replace e20 := (good_opt good_u16).inj _ _ e20
    replace e21 := (good_opt good_u16).inj _ _ e21
    replace e22 := (good_opt good_u16).inj _ _ e22
    replace e23 := (good_opt processor.ProcessorCharacteristics.dbg_good).inj _ _ e23
    cases a; cases b
    dsimp only at e1; subst e1
    dsimp only at e2; subst e2
    dsimp only at e3; subst e3
    dsimp only at e4; subst e4
    dsimp only at e5; subst e5
    dsimp only at e6; subst e6
    dsimp only at e7; subst e7
    dsimp only at e8; subst e8
    dsimp only at e9; subst e9
    dsimp only at e10; subst e10
    dsimp only at e11; subst e11
    dsimp only at e12; subst e12
    dsimp only at e13; subst e13
    dsimp only at e14; subst e14
    dsimp only at e15; subst e15
    dsimp only at e16; subst e16
    dsimp only at e17; subst e17
    dsimp only at e18; subst e18
    dsimp only at e19; subst e19
    dsimp only at e20; subst e20
    dsimp only at e21; subst e21
    dsimp only at e22; subst e22
    dsimp only at e23; subst e23
    rfl

theorem cache.CacheLevel.dbg_idx (x : cache.CacheLevel) :
    [txt! "L1", txt! "L2", txt! "L3", txt! "L4", txt! "L5", txt! "L6", txt! "L7", txt! "L8"].idxOf x.dbg.head =
      x.ctorIdx := by
  cases x <;> rfl

theorem cache.CacheLevel.dbg_good : Good cache.CacheLevel.dbg where
  wf x := by
    cases x
    · exact ⟨by decide, rfl⟩
    · exact ⟨by decide, rfl⟩
    · exact ⟨by decide, rfl⟩
    · exact ⟨by decide, rfl⟩
    · exact ⟨by decide, rfl⟩
    · exact ⟨by decide, rfl⟩
    · exact ⟨by decide, rfl⟩
    · exact ⟨by decide, rfl⟩
  inj a b e := by
    have h : a.ctorIdx = b.ctorIdx := by rw [← cache.CacheLevel.dbg_idx a, ← cache.CacheLevel.dbg_idx b, e]
    cases a <;> cases b <;> first | exact absurd h (Nat.ne_of_beq_eq_false rfl) | skip
    · rfl
    · rfl
    · rfl
    · rfl
    · rfl
    · rfl
    · rfl
    · rfl

theorem cache.CacheLocation.dbg_idx (x : cache.CacheLocation) :
    [txt! "Internal", txt! "External", txt! "Reserved", txt! "Unknown"].idxOf x.dbg.head = x.ctorIdx := by
  cases x <;> rfl

theorem cache.CacheLocation.dbg_good : Good cache.CacheLocation.dbg where
  wf x := by
    cases x
    · exact ⟨by decide, rfl⟩
    · exact ⟨by decide, rfl⟩
    · exact ⟨by decide, rfl⟩
    · exact ⟨by decide, rfl⟩
  inj a b e := by
    have h : a.ctorIdx = b.ctorIdx := by rw [← cache.CacheLocation.dbg_idx a, ← cache.CacheLocation.dbg_idx b, e]
    cases a <;> cases b <;> first | exact absurd h (Nat.ne_of_beq_eq_false rfl) | skip
    · rfl
    · rfl
    · rfl
    · rfl

theorem cache.CacheOperationalMode.dbg_idx (x : cache.CacheOperationalMode) :
    [txt! "WriteThrough", txt! "WriteBack", txt! "ValuesWithMemoryAddress", txt! "Unknown"].idxOf x.dbg.head =
      x.ctorIdx := by
  cases x <;> rfl

theorem cache.CacheOperationalMode.dbg_good : Good cache.CacheOperationalMode.dbg where
  wf x := by
    cases x
    · exact ⟨by decide, rfl⟩
    · exact ⟨by decide, rfl⟩
    · exact ⟨by decide, rfl⟩
    · exact ⟨by decide, rfl⟩
  inj a b e := by
    have h : a.ctorIdx = b.ctorIdx := by rw [← cache.CacheOperationalMode.dbg_idx a, ← cache.CacheOperationalMode.dbg_idx b, e]
    cases a <;> cases b <;> first | exact absurd h (Nat.ne_of_beq_eq_false rfl) | skip
    · rfl
    · rfl
    · rfl
    · rfl

theorem cache.CacheConfiguration.dbg_good : Good cache.CacheConfiguration.dbg where
  wf x := ⟨by decide, by decide, cache.CacheLevel.dbg_good.wf _, by decide, good_bool.wf _, by decide,
    cache.CacheLocation.dbg_good.wf _, by decide, good_bool.wf _, by decide,
    cache.CacheOperationalMode.dbg_good.wf _, trivial⟩
  inj a b e := by
    replace e := struct_inj e
    obtain ⟨e1, e⟩ := cons_inj e
    obtain ⟨e2, e⟩ := cons_inj e
    obtain ⟨e3, e⟩ := cons_inj e
    obtain ⟨e4, e⟩ := cons_inj e
    obtain ⟨e5, e⟩ := cons_inj e
    replace e1 := cache.CacheLevel.dbg_good.inj _ _ e1
    replace e2 := good_bool.inj _ _ e2
    replace e3 := cache.CacheLocation.dbg_good.inj _ _ e3
    replace e4 := good_bool.inj _ _ e4
    replace e5 := cache.CacheOperationalMode.dbg_good.inj _ _ e5
    cases a; cases b
    dsimp only at e1; subst e1
    dsimp only at e2; subst e2
    dsimp only at e3; subst e3
    dsimp only at e4; subst e4
    dsimp only at e5; subst e5
    rfl

theorem cache.CacheSize.dbg_idx (x : cache.CacheSize) :
    [txt! "Granularity1K", txt! "Granularity64K"].idxOf x.dbg.head = x.ctorIdx := by
  cases x <;> rfl

theorem cache.CacheSize.dbg_good : Good cache.CacheSize.dbg where
  wf x := by
    cases x
    · exact ⟨by decide, rfl, good_u16.wf _, trivial⟩
    · exact ⟨by decide, rfl, good_u16.wf _, trivial⟩
  inj a b e := by
    have h : a.ctorIdx = b.ctorIdx := by rw [← cache.CacheSize.dbg_idx a, ← cache.CacheSize.dbg_idx b, e]
    cases a <;> cases b <;> first | exact absurd h (Nat.ne_of_beq_eq_false rfl) | skip
    · replace e := tuple_inj e
      obtain ⟨e1, e⟩ := cons_inj e
      obtain rfl := good_u16.inj _ _ e1
      rfl
    · replace e := tuple_inj e
      obtain ⟨e1, e⟩ := cons_inj e
      obtain rfl := good_u16.inj _ _ e1
      rfl

theorem cache.CacheSramType.dbg_good : Good cache.CacheSramType.dbg := by
  have h : Good (Dbg.flags cache.CacheSramType.table) := good_flags (by decide +kernel)
  refine ⟨fun x => ⟨by decide, rfl, h.wf _, trivial⟩, fun a b e => ?_⟩
  have h1 := UInt16.toNat_inj.1 (h.inj _ _ (cons_inj (tuple_inj e)).1)
  cases a; cases b
  dsimp only at h1
  subst h1
  rfl

theorem cache.CacheErrorCorrectionType.dbg_idx (x : cache.CacheErrorCorrectionType) :
    [txt! "Other", txt! "Unknown", txt! "None", txt! "Parity", txt! "SingleBitEcc", txt! "MultiBitEcc",
      txt! "Undefined"].idxOf x.dbg.head = x.ctorIdx := by
  cases x <;> rfl

theorem cache.CacheErrorCorrectionType.dbg_good : Good cache.CacheErrorCorrectionType.dbg where
  wf x := by
    cases x
    · exact ⟨by decide, rfl⟩
    · exact ⟨by decide, rfl⟩
    · exact ⟨by decide, rfl⟩
    · exact ⟨by decide, rfl⟩
    · exact ⟨by decide, rfl⟩
    · exact ⟨by decide, rfl⟩
    · exact ⟨by decide, rfl, good_u8.wf _, trivial⟩
  inj a b e := by
    have h : a.ctorIdx = b.ctorIdx := by rw [← cache.CacheErrorCorrectionType.dbg_idx a, ← cache.CacheErrorCorrectionType.dbg_idx b, e]
    cases a <;> cases b <;> first | exact absurd h (Nat.ne_of_beq_eq_false rfl) | skip
    · rfl
    · rfl
    · rfl
    · rfl
    · rfl
    · rfl
    · replace e := tuple_inj e
      obtain ⟨e1, e⟩ := cons_inj e
      obtain rfl := good_u8.inj _ _ e1
      rfl

theorem cache.SystemCacheType.dbg_idx (x : cache.SystemCacheType) :
    [txt! "Other", txt! "Unknown", txt! "Instruction", txt! "Data", txt! "Unified", txt! "Undefined"].idxOf
      x.dbg.head = x.ctorIdx := by
  cases x <;> rfl

theorem cache.SystemCacheType.dbg_good : Good cache.SystemCacheType.dbg where
  wf x := by
    cases x
    · exact ⟨by decide, rfl⟩
    · exact ⟨by decide, rfl⟩
    · exact ⟨by decide, rfl⟩
    · exact ⟨by decide, rfl⟩
    · exact ⟨by decide, rfl⟩
    · exact ⟨by decide, rfl, good_u8.wf _, trivial⟩
  inj a b e := by
    have h : a.ctorIdx = b.ctorIdx := by rw [← cache.SystemCacheType.dbg_idx a, ← cache.SystemCacheType.dbg_idx b, e]
    cases a <;> cases b <;> first | exact absurd h (Nat.ne_of_beq_eq_false rfl) | skip
    · rfl
    · rfl
    · rfl
    · rfl
    · rfl
    · replace e := tuple_inj e
      obtain ⟨e1, e⟩ := cons_inj e
      obtain rfl := good_u8.inj _ _ e1
      rfl

theorem cache.CacheAssociativity.dbg_idx (x : cache.CacheAssociativity) :
    [txt! "Other", txt! "Unknown", txt! "DirectMapped", txt! "TwowaySetAssociative",
      txt! "FourWaySetAssociative", txt! "FullyAssociative", txt! "EightWaySetAssociative",
      txt! "SixteenWaySetAssociative", txt! "TwelveWaySetAssociative", txt! "TwentyFourWaySetAssociative",
      txt! "ThirtyTwoWaySetAssociative", txt! "FourtyEightWaySetAssociative",
      txt! "SixtyFourWaySetAssociative", txt! "TwentyWaySetAssociative", txt! "Undefined"].idxOf x.dbg.head =
      x.ctorIdx := by
  cases x <;> rfl

theorem cache.CacheAssociativity.dbg_good : Good cache.CacheAssociativity.dbg where
  wf x := by
    cases x
    · exact ⟨by decide, rfl⟩
    · exact ⟨by decide, rfl⟩
    · exact ⟨by decide, rfl⟩
    · exact ⟨by decide, rfl⟩
    · exact ⟨by decide, rfl⟩
    · exact ⟨by decide, rfl⟩
    · exact ⟨by decide, rfl⟩
    · exact ⟨by decide, rfl⟩
    · exact ⟨by decide, rfl⟩
    · exact ⟨by decide, rfl⟩
    · exact ⟨by decide, rfl⟩
    · exact ⟨by decide, rfl⟩
    · exact ⟨by decide, rfl⟩
    · exact ⟨by decide, rfl⟩
    · exact ⟨by decide, rfl, good_u8.wf _, trivial⟩
  inj a b e := by
    have h : a.ctorIdx = b.ctorIdx := by rw [← cache.CacheAssociativity.dbg_idx a, ← cache.CacheAssociativity.dbg_idx b, e]
    cases a <;> cases b <;> first | exact absurd h (Nat.ne_of_beq_eq_false rfl) | skip
    · rfl
    · rfl
    · rfl
    · rfl
    · rfl
    · rfl
    · rfl
    · rfl
    · rfl
    · rfl
    · rfl
    · rfl
    · rfl
    · rfl
    · replace e := tuple_inj e
      obtain ⟨e1, e⟩ := cons_inj e
      obtain rfl := good_u8.inj _ _ e1
      rfl

theorem cache.CacheSize2.dbg_idx (x : cache.CacheSize2) :
    [txt! "Granularity1K", txt! "Granularity64K"].idxOf x.dbg.head = x.ctorIdx := by
  cases x <;> rfl

theorem cache.CacheSize2.dbg_good : Good cache.CacheSize2.dbg where
  wf x := by
    cases x
    · exact ⟨by decide, rfl, good_u32.wf _, trivial⟩
    · exact ⟨by decide, rfl, good_u32.wf _, trivial⟩
  inj a b e := by
    have h : a.ctorIdx = b.ctorIdx := by rw [← cache.CacheSize2.dbg_idx a, ← cache.CacheSize2.dbg_idx b, e]
    cases a <;> cases b <;> first | exact absurd h (Nat.ne_of_beq_eq_false rfl) | skip
    · replace e := tuple_inj e
      obtain ⟨e1, e⟩ := cons_inj e
      obtain rfl := good_u32.inj _ _ e1
      rfl
    · replace e := tuple_inj e
      obtain ⟨e1, e⟩ := cons_inj e
      obtain rfl := good_u32.inj _ _ e1
      rfl

theorem cache.Cache.dbg_good : Good cache.Cache.dbg where
  wf x := ⟨by decide, by decide, good_u16.wf _, by decide, good_str.wf _, by decide,
    cache.CacheConfiguration.dbg_good.wf _, by decide, cache.CacheSize.dbg_good.wf _, by decide,
    cache.CacheSize.dbg_good.wf _, by decide, cache.CacheSramType.dbg_good.wf _, by decide,
    cache.CacheSramType.dbg_good.wf _, by decide, (good_opt good_u8).wf _, by decide, (good_opt
    cache.CacheErrorCorrectionType.dbg_good).wf _, by decide, (good_opt cache.SystemCacheType.dbg_good).wf _,
    by decide, (good_opt cache.CacheAssociativity.dbg_good).wf _, by decide, (good_opt
    cache.CacheSize2.dbg_good).wf _, by decide, (good_opt cache.CacheSize2.dbg_good).wf _, trivial⟩
  inj a b e := by
    replace e := struct_inj e
    obtain ⟨e1, e⟩ := cons_inj e
    obtain ⟨e2, e⟩ := cons_inj e
    obtain ⟨e3, e⟩ := cons_inj e
    obtain ⟨e4, e⟩ := cons_inj e
    obtain ⟨e5, e⟩ := cons_inj e
    obtain ⟨e6, e⟩ := cons_inj e
    obtain ⟨e7, e⟩ := cons_inj e
    obtain ⟨e8, e⟩ := cons_inj e
    obtain ⟨e9, e⟩ := cons_inj e
    obtain ⟨e10, e⟩ := cons_inj e
    obtain ⟨e11, e⟩ := cons_inj e
    obtain ⟨e12, e⟩ := cons_inj e
    obtain ⟨e13, e⟩ := cons_inj e
    replace e1 := good_u16.inj _ _ e1
    replace e2 := good_str.inj _ _ e2
    replace e3 := cache.CacheConfiguration.dbg_good.inj _ _ e3
    replace e4 := cache.CacheSize.dbg_good.inj _ _ e4
    replace e5 := cache.CacheSize.dbg_good.inj _ _ e5
    replace e6 := cache.CacheSramType.dbg_good.inj _ _ e6
    replace e7 := cache.CacheSramType.dbg_good.inj _ _ e7
    replace e8 := (good_opt good_u8).inj _ _ e8
    replace e9 := (good_opt cache.CacheErrorCorrectionType.dbg_good).inj _ _ e9
    replace e10 := (good_opt cache.SystemCacheType.dbg_good).inj _ _ e10
    replace e11 := (good_opt cache.CacheAssociativity.dbg_good).inj _ _ e11
    replace e12 := (good_opt cache.CacheSize2.dbg_good).inj _ _ e12
    replace e13 := (good_opt cache.CacheSize2.dbg_good).inj _ _ e13
    cases a; cases b
    dsimp only at e1; subst e1
    dsimp only at e2; subst e2
    dsimp only at e3; subst e3
    dsimp only at e4; subst e4
    dsimp only at e5; subst e5
    dsimp only at e6; subst e6
    dsimp only at e7; subst e7
    dsimp only at e8; subst e8
    dsimp only at e9; subst e9
    dsimp only at e10; subst e10
    dsimp only at e11; subst e11
    dsimp only at e12; subst e12
    dsimp only at e13; subst e13
    rfl

theorem port_connector.ConnectorType.dbg_good : Good port_connector.ConnectorType.dbg := by
  refine good_enum port_connector.ConnectorType.dbg (@port_connector.ConnectorType.dbg .usual) (nullary! port_connector.ConnectorType)
    (fun a => (∃ v, a = .Undefined v)) (fun a => ?_) (by decide +kernel) (by decide +kernel) ?_ ?_
  · cases a <;> first | exact .inr ⟨_, rfl⟩ | exact .inl ⟨by decide +kernel, rfl⟩
  · rintro _ (⟨v, rfl⟩)
    · exact ⟨rfl, by decide, rfl, good_u8.wf _, trivial⟩
  · rintro _ _ (⟨v, rfl⟩) (⟨w, rfl⟩) e
    · rw [good_u8.inj _ _ (cons_inj (tuple_inj e)).1]

theorem port_connector.PortType.dbg_good : Good port_connector.PortType.dbg := by
  refine good_enum port_connector.PortType.dbg (@port_connector.PortType.dbg .usual) (nullary! port_connector.PortType)
    (fun a => (∃ v, a = .Undefined v)) (fun a => ?_) (by decide +kernel) (by decide +kernel) ?_ ?_
  · cases a <;> first | exact .inr ⟨_, rfl⟩ | exact .inl ⟨by decide +kernel, rfl⟩
  · rintro _ (⟨v, rfl⟩)
    · exact ⟨rfl, by decide, rfl, good_u8.wf _, trivial⟩
  · rintro _ _ (⟨v, rfl⟩) (⟨w, rfl⟩) e
    · rw [good_u8.inj _ _ (cons_inj (tuple_inj e)).1]

theorem port_connector.PortConnector.dbg_good : Good port_connector.PortConnector.dbg where
  wf x := ⟨by decide, by decide, good_u16.wf _, by decide, good_str.wf _, by decide,
    port_connector.ConnectorType.dbg_good.wf _, by decide, good_str.wf _, by decide,
    port_connector.ConnectorType.dbg_good.wf _, by decide, port_connector.PortType.dbg_good.wf _, trivial⟩
  inj a b e := by
    replace e := struct_inj e
    obtain ⟨e1, e⟩ := cons_inj e
    obtain ⟨e2, e⟩ := cons_inj e
    obtain ⟨e3, e⟩ := cons_inj e
    obtain ⟨e4, e⟩ := cons_inj e
    obtain ⟨e5, e⟩ := cons_inj e
    obtain ⟨e6, e⟩ := cons_inj e
    replace e1 := good_u16.inj _ _ e1
    replace e2 := good_str.inj _ _ e2
    replace e3 := port_connector.ConnectorType.dbg_good.inj _ _ e3
    replace e4 := good_str.inj _ _ e4
    replace e5 := port_connector.ConnectorType.dbg_good.inj _ _ e5
    replace e6 := port_connector.PortType.dbg_good.inj _ _ e6
    cases a; cases b
    dsimp only at e1; subst e1
    dsimp only at e2; subst e2
    dsimp only at e3; subst e3
    dsimp only at e4; subst e4
    dsimp only at e5; subst e5
    dsimp only at e6; subst e6
    rfl

theorem system_slots.SlotType.dbg_good : Good system_slots.SlotType.dbg := by
  refine good_enum system_slots.SlotType.dbg (@system_slots.SlotType.dbg .usual) (nullary! system_slots.SlotType)
    (fun a => (∃ v, a = .Undefined v)) (fun a => ?_) (by decide +kernel) (by decide +kernel) ?_ ?_
  · cases a <;> first | exact .inr ⟨_, rfl⟩ | exact .inl ⟨by decide +kernel, rfl⟩
  · rintro _ (⟨v, rfl⟩)
    · exact ⟨rfl, by decide, rfl, good_u8.wf _, trivial⟩
  · rintro _ _ (⟨v, rfl⟩) (⟨w, rfl⟩) e
    · rw [good_u8.inj _ _ (cons_inj (tuple_inj e)).1]

theorem system_slots.SlotWidth.dbg_idx (x : system_slots.SlotWidth) :
    [txt! "Other", txt! "Unknown", txt! "Byte", txt! "Word", txt! "Dword", txt! "Qword", txt! "Dqword",
      txt! "X1", txt! "X2", txt! "X4", txt! "X8", txt! "X12", txt! "X16", txt! "X32", txt! "Undefined"].idxOf
      x.dbg.head = x.ctorIdx := by
  cases x <;> rfl

theorem system_slots.SlotWidth.dbg_good : Good system_slots.SlotWidth.dbg where
  wf x := by
    cases x
    · exact ⟨by decide, rfl⟩
    · exact ⟨by decide, rfl⟩
    · exact ⟨by decide, rfl⟩
    · exact ⟨by decide, rfl⟩
    · exact ⟨by decide, rfl⟩
    · exact ⟨by decide, rfl⟩
    · exact ⟨by decide, rfl⟩
    · exact ⟨by decide, rfl⟩
    · exact ⟨by decide, rfl⟩
    · exact ⟨by decide, rfl⟩
    · exact ⟨by decide, rfl⟩
    · exact ⟨by decide, rfl⟩
    · exact ⟨by decide, rfl⟩
    · exact ⟨by decide, rfl⟩
    · exact ⟨by decide, rfl, good_u8.wf _, trivial⟩
  inj a b e := by
    have h : a.ctorIdx = b.ctorIdx := by rw [← system_slots.SlotWidth.dbg_idx a, ← system_slots.SlotWidth.dbg_idx b, e]
    cases a <;> cases b <;> first | exact absurd h (Nat.ne_of_beq_eq_false rfl) | skip
    · rfl
    · rfl
    · rfl
    · rfl
    · rfl
    · rfl
    · rfl
    · rfl
    · rfl
    · rfl
    · rfl
    · rfl
    · rfl
    · rfl
    · replace e := tuple_inj e
      obtain ⟨e1, e⟩ := cons_inj e
      obtain rfl := good_u8.inj _ _ e1
      rfl

theorem system_slots.CurrentUsage.dbg_idx (x : system_slots.CurrentUsage) :
    [txt! "Other", txt! "Unknown", txt! "Available", txt! "InUse", txt! "Unavailable", txt! "Undefined"].idxOf
      x.dbg.head = x.ctorIdx := by
  cases x <;> rfl

theorem system_slots.CurrentUsage.dbg_good : Good system_slots.CurrentUsage.dbg where
  wf x := by
    cases x
    · exact ⟨by decide, rfl⟩
    · exact ⟨by decide, rfl⟩
    · exact ⟨by decide, rfl⟩
    · exact ⟨by decide, rfl⟩
    · exact ⟨by decide, rfl⟩
    · exact ⟨by decide, rfl, good_u8.wf _, trivial⟩
  inj a b e := by
    have h : a.ctorIdx = b.ctorIdx := by rw [← system_slots.CurrentUsage.dbg_idx a, ← system_slots.CurrentUsage.dbg_idx b, e]
    cases a <;> cases b <;> first | exact absurd h (Nat.ne_of_beq_eq_false rfl) | skip
    · rfl
    · rfl
    · rfl
    · rfl
    · rfl
    · replace e := tuple_inj e
      obtain ⟨e1, e⟩ := cons_inj e
      obtain rfl := good_u8.inj _ _ e1
      rfl

theorem system_slots.SlotLength.dbg_idx (x : system_slots.SlotLength) :
    [txt! "Other", txt! "Unknown", txt! "ShortLength", txt! "LongLength", txt! "DriveFormFactor2_5",
      txt! "DriveFormFactor3_5", txt! "Undefined"].idxOf x.dbg.head = x.ctorIdx := by
  cases x <;> rfl

theorem system_slots.SlotLength.dbg_good : Good system_slots.SlotLength.dbg where
  wf x := by
    cases x
    · exact ⟨by decide, rfl⟩
    · exact ⟨by decide, rfl⟩
    · exact ⟨by decide, rfl⟩
    · exact ⟨by decide, rfl⟩
    · exact ⟨by decide, rfl⟩
    · exact ⟨by decide, rfl⟩
    · exact ⟨by decide, rfl, good_u8.wf _, trivial⟩
  inj a b e := by
    have h : a.ctorIdx = b.ctorIdx := by rw [← system_slots.SlotLength.dbg_idx a, ← system_slots.SlotLength.dbg_idx b, e]
    cases a <;> cases b <;> first | exact absurd h (Nat.ne_of_beq_eq_false rfl) | skip
    · rfl
    · rfl
    · rfl
    · rfl
    · rfl
    · rfl
    · replace e := tuple_inj e
      obtain ⟨e1, e⟩ := cons_inj e
      obtain rfl := good_u8.inj _ _ e1
      rfl

theorem system_slots.SlotCharacteristics1.dbg_good : Good system_slots.SlotCharacteristics1.dbg where
  wf x := ⟨by decide, rfl, good_u8.wf _, trivial⟩
  inj a b e := by
    replace e := tuple_inj e
    obtain ⟨e1, e⟩ := cons_inj e
    replace e1 := good_u8.inj _ _ e1
    cases a; cases b
    dsimp only at e1; subst e1
    rfl

theorem system_slots.SlotCharacteristics2.dbg_good : Good system_slots.SlotCharacteristics2.dbg where
  wf x := ⟨by decide, rfl, good_u8.wf _, trivial⟩
  inj a b e := by
    replace e := tuple_inj e
    obtain ⟨e1, e⟩ := cons_inj e
    replace e1 := good_u8.inj _ _ e1
    cases a; cases b
    dsimp only at e1; subst e1
    rfl

theorem system_slots.DeviceAndFunctionNumber.dbg_good : Good system_slots.DeviceAndFunctionNumber.dbg where
  wf x := ⟨by decide, rfl, good_u8.wf _, rfl, good_u8.wf _, trivial⟩
  inj a b e := by
    replace e := tuple_inj e
    obtain ⟨e1, e⟩ := cons_inj e
    obtain ⟨e2, e⟩ := cons_inj e
    replace e1 := good_u8.inj _ _ e1
    replace e2 := good_u8.inj _ _ e2
    cases a; cases b
    dsimp only at e1; subst e1
    dsimp only at e2; subst e2
    rfl

theorem system_slots.PeerDevices.dbg_good : Good system_slots.PeerDevices.dbg where
  wf x := ⟨by decide, rfl, good_chunks.wf _, trivial⟩
  inj a b e := by
    replace e := tuple_inj e
    obtain ⟨e1, e⟩ := cons_inj e
    replace e1 := good_chunks.inj _ _ e1
    cases a; cases b
    dsimp only at e1; subst e1
    rfl

theorem system_slots.SlotPitch.dbg_good : Good system_slots.SlotPitch.dbg where
  wf x := ⟨by decide, rfl, good_u16.wf _, trivial⟩
  inj a b e := by
    replace e := tuple_inj e
    obtain ⟨e1, e⟩ := cons_inj e
    replace e1 := good_u16.inj _ _ e1
    cases a; cases b
    dsimp only at e1; subst e1
    rfl

theorem system_slots.SystemSlots.dbg_good : Good system_slots.SystemSlots.dbg where
  wf x := ⟨by decide, by decide, good_u16.wf _, by decide, good_str.wf _, by decide,
    system_slots.SlotType.dbg_good.wf _, by decide, system_slots.SlotWidth.dbg_good.wf _, by decide,
    system_slots.CurrentUsage.dbg_good.wf _, by decide, system_slots.SlotLength.dbg_good.wf _, by decide,
    good_u16.wf _, by decide, system_slots.SlotCharacteristics1.dbg_good.wf _, by decide, (good_opt
    system_slots.SlotCharacteristics2.dbg_good).wf _, by decide, (good_opt good_u16).wf _, by decide, (good_opt
    good_u8).wf _, by decide, (good_opt system_slots.DeviceAndFunctionNumber.dbg_good).wf _, by decide,
    (good_opt good_u8).wf _, by decide, (good_opt system_slots.PeerDevices.dbg_good).wf _, by decide, (good_opt
    good_u8).wf _, by decide, (good_opt system_slots.SlotWidth.dbg_good).wf _, by decide, (good_opt
    system_slots.SlotPitch.dbg_good).wf _, trivial⟩
  inj a b e := by
    replace e := struct_inj e
    obtain ⟨e1, e⟩ := cons_inj e
    obtain ⟨e2, e⟩ := cons_inj e
    obtain ⟨e3, e⟩ := cons_inj e
    obtain ⟨e4, e⟩ := cons_inj e
    obtain ⟨e5, e⟩ := cons_inj e
    obtain ⟨e6, e⟩ := cons_inj e
    obtain ⟨e7, e⟩ := cons_inj e
    obtain ⟨e8, e⟩ := cons_inj e
    obtain ⟨e9, e⟩ := cons_inj e
    obtain ⟨e10, e⟩ := cons_inj e
    obtain ⟨e11, e⟩ := cons_inj e
    obtain ⟨e12, e⟩ := cons_inj e
    obtain ⟨e13, e⟩ := cons_inj e
    obtain ⟨e14, e⟩ := cons_inj e
    obtain ⟨e15, e⟩ := cons_inj e
    obtain ⟨e16, e⟩ := cons_inj e
    obtain ⟨e17, e⟩ := cons_inj e
    replace e1 := good_u16.inj _ _ e1
    replace e2 := good_str.inj _ _ e2
    replace e3 := system_slots.SlotType.dbg_good.inj _ _ e3
    replace e4 := system_slots.SlotWidth.dbg_good.inj _ _ e4
    replace e5 := system_slots.CurrentUsage.dbg_good.inj _ _ e5
    replace e6 := system_slots.SlotLength.dbg_good.inj _ _ e6
    replace e7 := good_u16.inj _ _ e7
    replace e8 := system_slots.SlotCharacteristics1.dbg_good.inj _ _ e8
    replace e9 := (good_opt system_slots.SlotCharacteristics2.dbg_good).inj _ _ e9
    replace e10 := (good_opt good_u16).inj _ _ e10
    replace e11 := (good_opt good_u8).inj _ _ e11
    replace e12 := (good_opt system_slots.DeviceAndFunctionNumber.dbg_good).inj _ _ e12
    replace e13 := (good_opt good_u8).inj _ _ e13
    replace e14 := (good_opt system_slots.PeerDevices.dbg_good).inj _ _ e14
    replace e15 := (good_opt good_u8).inj _ _ e15
    replace e16 := (good_opt system_slots.SlotWidth.dbg_good).inj _ _ e16
    replace e17 := (good_opt system_slots.SlotPitch.dbg_good).inj _ _ e17
    cases a; cases b
    dsimp only at e1; subst e1
    dsimp only at e2; subst e2
    dsimp only at e3; subst e3
    dsimp only at e4; subst e4
    dsimp only at e5; subst e5
    dsimp only at e6; subst e6
    dsimp only at e7; subst e7
    dsimp only at e8; subst e8
    dsimp only at e9; subst e9
    dsimp only at e10; subst e10
    dsimp only at e11; subst e11
    dsimp only at e12; subst e12
    dsimp only at e13; subst e13
    dsimp only at e14; subst e14
    dsimp only at e15; subst e15
    dsimp only at e16; subst e16
    dsimp only at e17; subst e17
    rfl

theorem StructureStrings.dbg_good : Good StructureStrings.dbg where
  wf x := ⟨by decide, by decide, good_bytes.wf _, by decide, good_num.wf _, trivial⟩
  inj a b e := by
    replace e := struct_inj e
    obtain ⟨e1, e⟩ := cons_inj e
    obtain ⟨e2, e⟩ := cons_inj e
    replace e1 := good_bytes.inj _ _ e1
    replace e2 := good_num.inj _ _ e2
    cases a; cases b
    dsimp only at e1; subst e1
    dsimp only at e2; subst e2
    rfl

theorem oem_strings.OemStrings.dbg_good : Good oem_strings.OemStrings.dbg where
  wf x := ⟨by decide, by decide, good_u16.wf _, by decide, StructureStrings.dbg_good.wf _, trivial⟩
  inj a b e := by
    replace e := struct_inj e
    obtain ⟨e1, e⟩ := cons_inj e
    obtain ⟨e2, e⟩ := cons_inj e
    replace e1 := good_u16.inj _ _ e1
    replace e2 := StructureStrings.dbg_good.inj _ _ e2
    cases a; cases b
    dsimp only at e1; subst e1
    dsimp only at e2; subst e2
    rfl

theorem system_configuration_options.SystemConfigurationOptions.dbg_good : Good system_configuration_options.SystemConfigurationOptions.dbg where
  wf x := ⟨by decide, by decide, good_u16.wf _, by decide, StructureStrings.dbg_good.wf _, trivial⟩
  inj a b e := by
    replace e := struct_inj e
    obtain ⟨e1, e⟩ := cons_inj e
    obtain ⟨e2, e⟩ := cons_inj e
    replace e1 := good_u16.inj _ _ e1
    replace e2 := StructureStrings.dbg_good.inj _ _ e2
    cases a; cases b
    dsimp only at e1; subst e1
    dsimp only at e2; subst e2
    rfl

theorem RawStructure.dbg_good : Good RawStructure.dbg where
  wf x := ⟨by decide, by decide, SmbiosVersion.dbg_good.wf _, by decide, InfoType.dbg_good.wf _, by decide,
    good_u8.wf _, by decide, good_u16.wf _, by decide, good_bytes.wf _, by decide, good_bytes.wf _, trivial⟩
  inj a b e := by
    replace e := struct_inj e
    obtain ⟨e1, e⟩ := cons_inj e
    obtain ⟨e2, e⟩ := cons_inj e
    obtain ⟨e3, e⟩ := cons_inj e
    obtain ⟨e4, e⟩ := cons_inj e
    obtain ⟨e5, e⟩ := cons_inj e
    obtain ⟨e6, e⟩ := cons_inj e
    replace e1 := SmbiosVersion.dbg_good.inj _ _ e1
    replace e2 := InfoType.dbg_good.inj _ _ e2
    replace e3 := good_u8.inj _ _ e3
    replace e4 := good_u16.inj _ _ e4
    replace e5 := good_bytes.inj _ _ e5
    replace e6 := good_bytes.inj _ _ e6
    cases a; cases b
    dsimp only at e1; subst e1
    dsimp only at e2; subst e2
    dsimp only at e3; subst e3
    dsimp only at e4; subst e4
    dsimp only at e5; subst e5
    dsimp only at e6; subst e6
    rfl

theorem bios_language.InstallableLanguages.dbg_good : Good bios_language.InstallableLanguages.dbg where
  wf x := ⟨by decide, by decide, RawStructure.dbg_good.wf _, by decide, good_u8.wf _, trivial⟩
  inj a b e := by
    replace e := struct_inj e
    obtain ⟨e1, e⟩ := cons_inj e
    obtain ⟨e2, e⟩ := cons_inj e
    replace e1 := RawStructure.dbg_good.inj _ _ e1
    replace e2 := good_u8.inj _ _ e2
    cases a; cases b
    dsimp only at e1; subst e1
    dsimp only at e2; subst e2
    rfl

theorem bios_language.LanguageFlags.dbg_good : Good bios_language.LanguageFlags.dbg where
  wf x := ⟨by decide, rfl, good_u8.wf _, trivial⟩
  inj a b e := by
    replace e := tuple_inj e
    obtain ⟨e1, e⟩ := cons_inj e
    replace e1 := good_u8.inj _ _ e1
    cases a; cases b
    dsimp only at e1; subst e1
    rfl

theorem bios_language.BiosLanguage.dbg_good : Good bios_language.BiosLanguage.dbg where
  wf x := ⟨by decide, by decide, good_u16.wf _, by decide, bios_language.InstallableLanguages.dbg_good.wf _, by
    decide, (good_opt bios_language.LanguageFlags.dbg_good).wf _, by decide, good_u8.wf _, trivial⟩
  inj a b e := by
    replace e := struct_inj e
    obtain ⟨e1, e⟩ := cons_inj e
    obtain ⟨e2, e⟩ := cons_inj e
    obtain ⟨e3, e⟩ := cons_inj e
    obtain ⟨e4, e⟩ := cons_inj e
    replace e1 := good_u16.inj _ _ e1
    replace e2 := bios_language.InstallableLanguages.dbg_good.inj _ _ e2
    replace e3 := (good_opt bios_language.LanguageFlags.dbg_good).inj _ _ e3
    replace e4 := good_u8.inj _ _ e4
    cases a; cases b
    dsimp only at e1; subst e1
    dsimp only at e2; subst e2
    dsimp only at e3; subst e3
    dsimp only at e4; subst e4
    rfl

theorem group_associations.GroupItems.dbg_good : Good group_associations.GroupItems.dbg where
  wf x := ⟨by decide, by decide, good_bytes.wf _, by decide, good_num.wf _, trivial⟩
  inj a b e := by
    replace e := struct_inj e
    obtain ⟨e1, e⟩ := cons_inj e
    obtain ⟨e2, e⟩ := cons_inj e
    replace e1 := good_bytes.inj _ _ e1
    replace e2 := good_num.inj _ _ e2
    cases a; cases b
    dsimp only at e1; subst e1
    dsimp only at e2; subst e2
    rfl

theorem group_associations.GroupAssociations.dbg_good : Good group_associations.GroupAssociations.dbg where
  wf x := ⟨by decide, by decide, good_u16.wf _, by decide, good_str.wf _, by decide,
    group_associations.GroupItems.dbg_good.wf _, trivial⟩
  inj a b e := by
    replace e := struct_inj e
    obtain ⟨e1, e⟩ := cons_inj e
    obtain ⟨e2, e⟩ := cons_inj e
    obtain ⟨e3, e⟩ := cons_inj e
    replace e1 := good_u16.inj _ _ e1
    replace e2 := good_str.inj _ _ e2
    replace e3 := group_associations.GroupItems.dbg_good.inj _ _ e3
    cases a; cases b
    dsimp only at e1; subst e1
    dsimp only at e2; subst e2
    dsimp only at e3; subst e3
    rfl

theorem system_event_log.AccessMethod.dbg_idx (x : system_event_log.AccessMethod) :
    [txt! "IndexedIoOne8bitIndexOne8bitData", txt! "IndexedIoTwo8bitIndexOne8bitData",
      txt! "IndexedIoOne16bitIndexOne8bitData", txt! "MemoryMappedPhysicaAddress",
      txt! "GeneralPurposeNonVolatileData", txt! "Available", txt! "OemSpecific"].idxOf x.dbg.head = x.ctorIdx
      := by
  cases x <;> rfl

theorem system_event_log.AccessMethod.dbg_good : Good system_event_log.AccessMethod.dbg where
  wf x := by
    cases x
    · exact ⟨by decide, by decide, good_u8.wf _, by decide, good_u8.wf _, trivial⟩
    · exact ⟨by decide, by decide, good_bytes.wf _, by decide, good_u8.wf _, trivial⟩
    · exact ⟨by decide, by decide, good_u16.wf _, by decide, good_u8.wf _, trivial⟩
    · exact ⟨by decide, by decide, good_u32.wf _, trivial⟩
    · exact ⟨by decide, by decide, good_u16.wf _, trivial⟩
    · exact ⟨by decide, by decide, good_u8.wf _, by decide, good_u32.wf _, trivial⟩
    · exact ⟨by decide, by decide, good_u8.wf _, by decide, good_u32.wf _, trivial⟩
  inj a b e := by
    have h : a.ctorIdx = b.ctorIdx := by rw [← system_event_log.AccessMethod.dbg_idx a, ← system_event_log.AccessMethod.dbg_idx b, e]
    cases a <;> cases b <;> first | exact absurd h (Nat.ne_of_beq_eq_false rfl) | skip
    · replace e := struct_inj e
      obtain ⟨e1, e⟩ := cons_inj e
      obtain ⟨e2, e⟩ := cons_inj e
      obtain rfl := good_u8.inj _ _ e1
      obtain rfl := good_u8.inj _ _ e2
      rfl
    · replace e := struct_inj e
      obtain ⟨e1, e⟩ := cons_inj e
      obtain ⟨e2, e⟩ := cons_inj e
      replace e1 := good_bytes.inj _ _ e1
      obtain rfl := good_u8.inj _ _ e2
      injection e1 with h1 h2
      injection h2 with h2
      subst h1 h2
      rfl
    · replace e := struct_inj e
      obtain ⟨e1, e⟩ := cons_inj e
      obtain ⟨e2, e⟩ := cons_inj e
      obtain rfl := good_u16.inj _ _ e1
      obtain rfl := good_u8.inj _ _ e2
      rfl
    · replace e := struct_inj e
      obtain ⟨e1, e⟩ := cons_inj e
      obtain rfl := good_u32.inj _ _ e1
      rfl
    · replace e := struct_inj e
      obtain ⟨e1, e⟩ := cons_inj e
      obtain rfl := good_u16.inj _ _ e1
      rfl
    · replace e := struct_inj e
      obtain ⟨e1, e⟩ := cons_inj e
      obtain ⟨e2, e⟩ := cons_inj e
      obtain rfl := good_u8.inj _ _ e1
      obtain rfl := good_u32.inj _ _ e2
      rfl
    · replace e := struct_inj e
      obtain ⟨e1, e⟩ := cons_inj e
      obtain ⟨e2, e⟩ := cons_inj e
      obtain rfl := good_u8.inj _ _ e1
      obtain rfl := good_u32.inj _ _ e2
      rfl

theorem system_event_log.LogStatus.dbg_good : Good system_event_log.LogStatus.dbg where
  wf x := ⟨by decide, rfl, good_u8.wf _, trivial⟩
  inj a b e := by
    replace e := tuple_inj e
    obtain ⟨e1, e⟩ := cons_inj e
    replace e1 := good_u8.inj _ _ e1
    cases a; cases b
    dsimp only at e1; subst e1
    rfl

theorem system_event_log.LogHeaderFormat.dbg_idx (x : system_event_log.LogHeaderFormat) :
    [txt! "NoHeader", txt! "LogHeaderType1", txt! "Available", txt! "OemSpecific"].idxOf x.dbg.head = x.ctorIdx
      := by
  cases x <;> rfl

theorem system_event_log.LogHeaderFormat.dbg_good : Good system_event_log.LogHeaderFormat.dbg where
  wf x := by
    cases x
    · exact ⟨by decide, rfl⟩
    · exact ⟨by decide, rfl⟩
    · exact ⟨by decide, rfl, good_u8.wf _, trivial⟩
    · exact ⟨by decide, rfl, good_u8.wf _, trivial⟩
  inj a b e := by
    have h : a.ctorIdx = b.ctorIdx := by rw [← system_event_log.LogHeaderFormat.dbg_idx a, ← system_event_log.LogHeaderFormat.dbg_idx b, e]
    cases a <;> cases b <;> first | exact absurd h (Nat.ne_of_beq_eq_false rfl) | skip
    · rfl
    · rfl
    · replace e := tuple_inj e
      obtain ⟨e1, e⟩ := cons_inj e
      obtain rfl := good_u8.inj _ _ e1
      rfl
    · replace e := tuple_inj e
      obtain ⟨e1, e⟩ := cons_inj e
      obtain rfl := good_u8.inj _ _ e1
      rfl

theorem system_event_log.SupportedEventLogTypeDescriptors.dbg_good : Good system_event_log.SupportedEventLogTypeDescriptors.dbg where
  wf x := ⟨by decide, rfl, good_chunks.wf _, trivial⟩
  inj a b e := by
    replace e := tuple_inj e
    obtain ⟨e1, e⟩ := cons_inj e
    replace e1 := good_chunks.inj _ _ e1
    cases a; cases b
    dsimp only at e1; subst e1
    rfl

theorem system_event_log.SystemEventLog.dbg_good : Good system_event_log.SystemEventLog.dbg where
  wf x := ⟨by decide, by decide, good_u16.wf _, by decide, good_u16.wf _, by decide, good_u16.wf _, by decide,
    good_u16.wf _, by decide, system_event_log.AccessMethod.dbg_good.wf _, by decide,
    system_event_log.LogStatus.dbg_good.wf _, by decide, good_u32.wf _, by decide, (good_opt
    system_event_log.LogHeaderFormat.dbg_good).wf _, by decide, (good_opt
    system_event_log.SupportedEventLogTypeDescriptors.dbg_good).wf _, trivial⟩
  inj a b e := by
    replace e := struct_inj e
    obtain ⟨e1, e⟩ := cons_inj e
    obtain ⟨e2, e⟩ := cons_inj e
    obtain ⟨e3, e⟩ := cons_inj e
    obtain ⟨e4, e⟩ := cons_inj e
    obtain ⟨e5, e⟩ := cons_inj e
    obtain ⟨e6, e⟩ := cons_inj e
    obtain ⟨e7, e⟩ := cons_inj e
    obtain ⟨e8, e⟩ := cons_inj e
    obtain ⟨e9, e⟩ := cons_inj e
    replace e1 := good_u16.inj _ _ e1
    replace e2 := good_u16.inj _ _ e2
    replace e3 := good_u16.inj _ _ e3
    replace e4 := good_u16.inj _ _ e4
    replace e5 := system_event_log.AccessMethod.dbg_good.inj _ _ e5
    replace e6 := system_event_log.LogStatus.dbg_good.inj _ _ e6
    replace e7 := good_u32.inj _ _ e7
    replace e8 := (good_opt system_event_log.LogHeaderFormat.dbg_good).inj _ _ e8
    replace e9 := (good_opt system_event_log.SupportedEventLogTypeDescriptors.dbg_good).inj _ _ e9
    cases a; cases b
    dsimp only at e1; subst e1
    dsimp only at e2; subst e2
    dsimp only at e3; subst e3
    dsimp only at e4; subst e4
    dsimp only at e5; subst e5
    dsimp only at e6; subst e6
    dsimp only at e7; subst e7
    dsimp only at e8; subst e8
    dsimp only at e9; subst e9
    rfl

theorem memory_device.FormFactor.dbg_idx (x : memory_device.FormFactor) :
    [txt! "Other", txt! "Unknown", txt! "Simm", txt! "Sip", txt! "Chip", txt! "Dip", txt! "Zip",
      txt! "ProprietaryCard", txt! "Dimm", txt! "Tsop", txt! "RowOfChips", txt! "Rimm", txt! "SoDimm",
      txt! "Srimm", txt! "FbDimm", txt! "Undefined"].idxOf x.dbg.head = x.ctorIdx := by
  cases x <;> rfl

theorem memory_device.FormFactor.dbg_good : Good memory_device.FormFactor.dbg where
  wf x := by
    cases x
    · exact ⟨by decide, rfl⟩
    · exact ⟨by decide, rfl⟩
    · exact ⟨by decide, rfl⟩
    · exact ⟨by decide, rfl⟩
    · exact ⟨by decide, rfl⟩
    · exact ⟨by decide, rfl⟩
    · exact ⟨by decide, rfl⟩
    · exact ⟨by decide, rfl⟩
    · exact ⟨by decide, rfl⟩
    · exact ⟨by decide, rfl⟩
    · exact ⟨by decide, rfl⟩
    · exact ⟨by decide, rfl⟩
    · exact ⟨by decide, rfl⟩
    · exact ⟨by decide, rfl⟩
    · exact ⟨by decide, rfl⟩
    · exact ⟨by decide, rfl, good_u8.wf _, trivial⟩
  inj a b e := by
    have h : a.ctorIdx = b.ctorIdx := by rw [← memory_device.FormFactor.dbg_idx a, ← memory_device.FormFactor.dbg_idx b, e]
    cases a <;> cases b <;> first | exact absurd h (Nat.ne_of_beq_eq_false rfl) | skip
    · rfl
    · rfl
    · rfl
    · rfl
    · rfl
    · rfl
    · rfl
    · rfl
    · rfl
    · rfl
    · rfl
    · rfl
    · rfl
    · rfl
    · rfl
    · replace e := tuple_inj e
      obtain ⟨e1, e⟩ := cons_inj e
      obtain rfl := good_u8.inj _ _ e1
      rfl

theorem memory_device.MemoryType.dbg_good : Good memory_device.MemoryType.dbg := by
  refine good_enum memory_device.MemoryType.dbg (@memory_device.MemoryType.dbg .usual) (nullary! memory_device.MemoryType)
    (fun a => (∃ v, a = .Undefined v)) (fun a => ?_) (by decide +kernel) (by decide +kernel) ?_ ?_
  · cases a <;> first | exact .inr ⟨_, rfl⟩ | exact .inl ⟨by decide +kernel, rfl⟩
  · rintro _ (⟨v, rfl⟩)
    · exact ⟨rfl, by decide, rfl, good_u8.wf _, trivial⟩
  · rintro _ _ (⟨v, rfl⟩) (⟨w, rfl⟩) e
    · rw [good_u8.inj _ _ (cons_inj (tuple_inj e)).1]

theorem memory_device.Detail.dbg_good : Good memory_device.Detail.dbg := by
  have h : Good (Dbg.flags memory_device.Detail.table) := good_flags (by decide +kernel)
  refine ⟨fun x => ⟨by decide, rfl, h.wf _, trivial⟩, fun a b e => ?_⟩
  have h1 := UInt16.toNat_inj.1 (h.inj _ _ (cons_inj (tuple_inj e)).1)
  cases a; cases b
  dsimp only at h1
  subst h1
  rfl

theorem memory_device.MemoryTechnology.dbg_idx (x : memory_device.MemoryTechnology) :
    [txt! "Other", txt! "Unknown", txt! "Dram", txt! "NvDimmN", txt! "NvDimmF", txt! "NvDimmP",
      txt! "IntelOptane", txt! "Undefined"].idxOf x.dbg.head = x.ctorIdx := by
  cases x <;> rfl

theorem memory_device.MemoryTechnology.dbg_good : Good memory_device.MemoryTechnology.dbg where
  wf x := by
    cases x
    · exact ⟨by decide, rfl⟩
    · exact ⟨by decide, rfl⟩
    · exact ⟨by decide, rfl⟩
    · exact ⟨by decide, rfl⟩
    · exact ⟨by decide, rfl⟩
    · exact ⟨by decide, rfl⟩
    · exact ⟨by decide, rfl⟩
    · exact ⟨by decide, rfl, good_u8.wf _, trivial⟩
  inj a b e := by
    have h : a.ctorIdx = b.ctorIdx := by rw [← memory_device.MemoryTechnology.dbg_idx a, ← memory_device.MemoryTechnology.dbg_idx b, e]
    cases a <;> cases b <;> first | exact absurd h (Nat.ne_of_beq_eq_false rfl) | skip
    · rfl
    · rfl
    · rfl
    · rfl
    · rfl
    · rfl
    · rfl
    · replace e := tuple_inj e
      obtain ⟨e1, e⟩ := cons_inj e
      obtain rfl := good_u8.inj _ _ e1
      rfl

theorem memory_device.OperatingModes.dbg_good : Good memory_device.OperatingModes.dbg := by
  have h : Good (Dbg.flags memory_device.OperatingModes.table) := good_flags (by decide +kernel)
  refine ⟨fun x => ⟨by decide, rfl, h.wf _, trivial⟩, fun a b e => ?_⟩
  have h1 := UInt16.toNat_inj.1 (h.inj _ _ (cons_inj (tuple_inj e)).1)
  cases a; cases b
  dsimp only at h1
  subst h1
  rfl

theorem memory_device.MemoryDevice.dbg_good : Good memory_device.MemoryDevice.dbg where
  wf x := ⟨by decide, by decide, good_u16.wf _, by decide, good_u16.wf _, by decide, (good_opt good_u16).wf _,
    by decide, (good_opt good_u16).wf _, by decide, (good_opt good_u16).wf _, by decide, (good_opt good_u16).wf
    _, by decide, memory_device.FormFactor.dbg_good.wf _, by decide, (good_opt good_u8).wf _, by decide,
    good_str.wf _, by decide, good_str.wf _, by decide, memory_device.MemoryType.dbg_good.wf _, by decide,
    memory_device.Detail.dbg_good.wf _, by decide, (good_opt good_u16).wf _, by decide, good_str.wf _, by
    decide, good_str.wf _, by decide, good_str.wf _, by decide, good_str.wf _, by decide, good_u8.wf _, by
    decide, good_u32.wf _, by decide, (good_opt good_u16).wf _, by decide, (good_opt good_u16).wf _, by decide,
    (good_opt good_u16).wf _, by decide, (good_opt good_u16).wf _, by decide, (good_opt
    memory_device.MemoryTechnology.dbg_good).wf _, by decide, (good_opt
    memory_device.OperatingModes.dbg_good).wf _, by decide, (good_opt good_str).wf _, by decide, (good_opt
    good_u16).wf _, by decide, (good_opt good_u16).wf _, by decide, (good_opt good_u16).wf _, by decide,
    (good_opt good_u16).wf _, by decide, (good_opt good_u64).wf _, by decide, (good_opt good_u64).wf _, by
    decide, (good_opt good_u64).wf _, by decide, (good_opt good_u64).wf _, by decide, (good_opt good_u32).wf _,
    by decide, (good_opt good_u32).wf _, trivial⟩
  inj a b e := by
    replace e := struct_inj e
    obtain ⟨e1, e⟩ := cons_inj e
    obtain ⟨e2, e⟩ := cons_inj e
    obtain ⟨e3, e⟩ := cons_inj e
    obtain ⟨e4, e⟩ := cons_inj e
    obtain ⟨e5, e⟩ := cons_inj e
    obtain ⟨e6, e⟩ := cons_inj e
    obtain ⟨e7, e⟩ := cons_inj e
    obtain ⟨e8, e⟩ := cons_inj e
    obtain ⟨e9, e⟩ := cons_inj e
    obtain ⟨e10, e⟩ := cons_inj e
    obtain ⟨e11, e⟩ := cons_inj e
    obtain ⟨e12, e⟩ := cons_inj e
    obtain ⟨e13, e⟩ := cons_inj e
    obtain ⟨e14, e⟩ := cons_inj e
    obtain ⟨e15, e⟩ := cons_inj e
    obtain ⟨e16, e⟩ := cons_inj e
    obtain ⟨e17, e⟩ := cons_inj e
    obtain ⟨e18, e⟩ := cons_inj e
    obtain ⟨e19, e⟩ := cons_inj e
    obtain ⟨e20, e⟩ := cons_inj e
    obtain ⟨e21, e⟩ := cons_inj e
    obtain ⟨e22, e⟩ := cons_inj e
    obtain ⟨e23, e⟩ := cons_inj e
    obtain ⟨e24, e⟩ := cons_inj e
    obtain ⟨e25, e⟩ := cons_inj e
    obtain ⟨e26, e⟩ := cons_inj e
    obtain ⟨e27, e⟩ := cons_inj e
    obtain ⟨e28, e⟩ := cons_inj e
    obtain ⟨e29, e⟩ := cons_inj e
    obtain ⟨e30, e⟩ := cons_inj e
    obtain ⟨e31, e⟩ := cons_inj e
    obtain ⟨e32, e⟩ := cons_inj e
    obtain ⟨e33, e⟩ := cons_inj e
    obtain ⟨e34, e⟩ := cons_inj e
    obtain ⟨e35, e⟩ := cons_inj e
    obtain ⟨e36, e⟩ := cons_inj e
    replace e1 := good_u16.inj _ _ e1
    replace e2 := good_u16.inj _ _ e2
    replace e3 := (good_opt good_u16).inj _ _ e3
    replace e4 := (good_opt good_u16).inj _ _ e4
    replace e5 := (good_opt good_u16).inj _ _ e5
    replace e6 := (good_opt good_u16).inj _ _ e6
    replace e7 := memory_device.FormFactor.dbg_good.inj _ _ e7
    replace e8 := (good_opt good_u8).inj _ _ e8
    replace e9 := good_str.inj _ _ e9
    replace e10 := good_str.inj _ _ e10
    replace e11 := memory_device.MemoryType.dbg_good.inj _ _ e11
    replace e12 := memory_device.Detail.dbg_good.inj _ _ e12
    replace e13 := (good_opt good_u16).inj _ _ e13
    replace e14 := good_str.inj _ _ e14
    replace e15 := good_str.inj _ _ e15
    replace e16 := good_str.inj _ _ e16
    replace e17 := good_str.inj _ _ e17
    replace e18 := good_u8.inj _ _ e18
    replace e19 := good_u32.inj _ _ e19
    replace e20 := (good_opt good_u16).inj _ _ e20
    replace e21 := (good_opt good_u16).inj _ _ e21
    replace e22 := (good_opt good_u16).inj _ _ e22
    replace e23 := (good_opt good_u16).inj _ _ e23
    replace e24 := (good_opt memory_device.MemoryTechnology.dbg_good).inj _ _ e24
    replace e25 := (good_opt memory_device.OperatingModes.dbg_good).inj _ _ e25
    replace e26 := (good_opt good_str).inj _ _ e26
    replace e27 := (good_opt good_u16).inj _ _ e27
    replace e28 := (good_opt good_u16).inj _ _ e28
    replace e29 := (good_opt good_u16).inj _ _ e29
    replace e30 := (good_opt good_u16).inj _ _ e30
    replace e31 := (good_opt good_u64).inj _ _ e31
    replace e32 := (good_opt good_u64).inj _ _ e32
    replace e33 := (good_opt good_u64).inj _ _ e33
    replace e34 := (good_opt good_u64).inj _ _ e34
    replace e35 := (good_opt good_u32).inj _ _ e35
    replace e36 := (good_opt good_u32).inj _ _ e36
    cases a; cases b
    dsimp only at e1; subst e1
    dsimp only at e2; subst e2
    dsimp only at e3; subst e3
    dsimp only at e4; subst e4
    dsimp only at e5; subst e5
    dsimp only at e6; subst e6
    dsimp only at e7; subst e7
    dsimp only at e8; subst e8
    dsimp only at e9; subst e9
    dsimp only at e10; subst e10
    dsimp only at e11; subst e11
    dsimp only at e12; subst e12
    dsimp only at e13; subst e13
    dsimp only at e14; subst e14
    dsimp only at e15; subst e15
    dsimp only at e16; subst e16
    dsimp only at e17; subst e17
    dsimp only at e18; subst e18
    dsimp only at e19; subst e19
    dsimp only at e20; subst e20
    dsimp only at e21; subst e21
    dsimp only at e22; subst e22
    dsimp only at e23; subst e23
    dsimp only at e24; subst e24
    dsimp only at e25; subst e25
    dsimp only at e26; subst e26
    dsimp only at e27; subst e27
    dsimp only at e28; subst e28
    dsimp only at e29; subst e29
    dsimp only at e30; subst e30
    dsimp only at e31; subst e31
    dsimp only at e32; subst e32
    dsimp only at e33; subst e33
    dsimp only at e34; subst e34
    dsimp only at e35; subst e35
    dsimp only at e36; subst e36
    rfl

theorem memory_error_32.ErrorType.dbg_idx (x : memory_error_32.ErrorType) :
    [txt! "Other", txt! "Unknown", txt! "Ok", txt! "BadRead", txt! "ParityError", txt! "SingleBitError",
      txt! "DoubleBitError", txt! "MultiBitError", txt! "NibbleError", txt! "ChecksumError", txt! "CrcError",
      txt! "CorrectedSingleBitError", txt! "CorrectedError", txt! "UncorrectableError", txt! "Undefined"].idxOf
      x.dbg.head = x.ctorIdx := by
  cases x <;> rfl

theorem memory_error_32.ErrorType.dbg_good : Good memory_error_32.ErrorType.dbg where
  wf x := by
    cases x
    · exact ⟨by decide, rfl⟩
    · exact ⟨by decide, rfl⟩
    · exact ⟨by decide, rfl⟩
    · exact ⟨by decide, rfl⟩
    · exact ⟨by decide, rfl⟩
    · exact ⟨by decide, rfl⟩
    · exact ⟨by decide, rfl⟩
    · exact ⟨by decide, rfl⟩
    · exact ⟨by decide, rfl⟩
    · exact ⟨by decide, rfl⟩
    · exact ⟨by decide, rfl⟩
    · exact ⟨by decide, rfl⟩
    · exact ⟨by decide, rfl⟩
    · exact ⟨by decide, rfl⟩
    · exact ⟨by decide, rfl, good_u8.wf _, trivial⟩
  inj a b e := by
    have h : a.ctorIdx = b.ctorIdx := by rw [← memory_error_32.ErrorType.dbg_idx a, ← memory_error_32.ErrorType.dbg_idx b, e]
    cases a <;> cases b <;> first | exact absurd h (Nat.ne_of_beq_eq_false rfl) | skip
    · rfl
    · rfl
    · rfl
    · rfl
    · rfl
    · rfl
    · rfl
    · rfl
    · rfl
    · rfl
    · rfl
    · rfl
    · rfl
    · rfl
    · replace e := tuple_inj e
      obtain ⟨e1, e⟩ := cons_inj e
      obtain rfl := good_u8.inj _ _ e1
      rfl

theorem memory_error_32.ErrorGranularity.dbg_idx (x : memory_error_32.ErrorGranularity) :
    [txt! "Other", txt! "Unknown", txt! "DeviceLevel", txt! "MemoryPartitionLevel", txt! "Undefined"].idxOf
      x.dbg.head = x.ctorIdx := by
  cases x <;> rfl

theorem memory_error_32.ErrorGranularity.dbg_good : Good memory_error_32.ErrorGranularity.dbg where
  wf x := by
    cases x
    · exact ⟨by decide, rfl⟩
    · exact ⟨by decide, rfl⟩
    · exact ⟨by decide, rfl⟩
    · exact ⟨by decide, rfl⟩
    · exact ⟨by decide, rfl, good_u8.wf _, trivial⟩
  inj a b e := by
    have h : a.ctorIdx = b.ctorIdx := by rw [← memory_error_32.ErrorGranularity.dbg_idx a, ← memory_error_32.ErrorGranularity.dbg_idx b, e]
    cases a <;> cases b <;> first | exact absurd h (Nat.ne_of_beq_eq_false rfl) | skip
    · rfl
    · rfl
    · rfl
    · rfl
    · replace e := tuple_inj e
      obtain ⟨e1, e⟩ := cons_inj e
      obtain rfl := good_u8.inj _ _ e1
      rfl

theorem memory_error_32.ErrorOperation.dbg_idx (x : memory_error_32.ErrorOperation) :
    [txt! "Other", txt! "Unknown", txt! "Read", txt! "Write", txt! "PartialWrite", txt! "Undefined"].idxOf
      x.dbg.head = x.ctorIdx := by
  cases x <;> rfl

theorem memory_error_32.ErrorOperation.dbg_good : Good memory_error_32.ErrorOperation.dbg where
  wf x := by
    cases x
    · exact ⟨by decide, rfl⟩
    · exact ⟨by decide, rfl⟩
    · exact ⟨by decide, rfl⟩
    · exact ⟨by decide, rfl⟩
    · exact ⟨by decide, rfl⟩
    · exact ⟨by decide, rfl, good_u8.wf _, trivial⟩
  inj a b e := by
    have h : a.ctorIdx = b.ctorIdx := by rw [← memory_error_32.ErrorOperation.dbg_idx a, ← memory_error_32.ErrorOperation.dbg_idx b, e]
    cases a <;> cases b <;> first | exact absurd h (Nat.ne_of_beq_eq_false rfl) | skip
    · rfl
    · rfl
    · rfl
    · rfl
    · rfl
    · replace e := tuple_inj e
      obtain ⟨e1, e⟩ := cons_inj e
      obtain rfl := good_u8.inj _ _ e1
      rfl

theorem memory_error_32.MemoryError32.dbg_good : Good memory_error_32.MemoryError32.dbg where
  wf x := ⟨by decide, by decide, good_u16.wf _, by decide, memory_error_32.ErrorType.dbg_good.wf _, by decide,
    memory_error_32.ErrorGranularity.dbg_good.wf _, by decide, memory_error_32.ErrorOperation.dbg_good.wf _, by
    decide, good_u32.wf _, by decide, good_u32.wf _, by decide, good_u32.wf _, by decide, good_u32.wf _,
    trivial⟩
  inj a b e := by
    replace e := struct_inj e
    obtain ⟨e1, e⟩ := cons_inj e
    obtain ⟨e2, e⟩ := cons_inj e
    obtain ⟨e3, e⟩ := cons_inj e
    obtain ⟨e4, e⟩ := cons_inj e
    obtain ⟨e5, e⟩ := cons_inj e
    obtain ⟨e6, e⟩ := cons_inj e
    obtain ⟨e7, e⟩ := cons_inj e
    obtain ⟨e8, e⟩ := cons_inj e
    replace e1 := good_u16.inj _ _ e1
    replace e2 := memory_error_32.ErrorType.dbg_good.inj _ _ e2
    replace e3 := memory_error_32.ErrorGranularity.dbg_good.inj _ _ e3
    replace e4 := memory_error_32.ErrorOperation.dbg_good.inj _ _ e4
    replace e5 := good_u32.inj _ _ e5
    replace e6 := good_u32.inj _ _ e6
    replace e7 := good_u32.inj _ _ e7
    replace e8 := good_u32.inj _ _ e8
    cases a; cases b
    dsimp only at e1; subst e1
    dsimp only at e2; subst e2
    dsimp only at e3; subst e3
    dsimp only at e4; subst e4
    dsimp only at e5; subst e5
    dsimp only at e6; subst e6
    dsimp only at e7; subst e7
    dsimp only at e8; subst e8
    rfl

theorem memory_array_mapped_address.MemoryArrayMappedAddress.dbg_good : Good memory_array_mapped_address.MemoryArrayMappedAddress.dbg where
  wf x := ⟨by decide, by decide, good_u16.wf _, by decide, good_u32.wf _, by decide, good_u32.wf _, by decide,
    good_u16.wf _, by decide, good_u8.wf _, by decide, (good_opt good_u64).wf _, by decide, (good_opt
    good_u64).wf _, trivial⟩
  inj a b e := by
    replace e := struct_inj e
    obtain ⟨e1, e⟩ := cons_inj e
    obtain ⟨e2, e⟩ := cons_inj e
    obtain ⟨e3, e⟩ := cons_inj e
    obtain ⟨e4, e⟩ := cons_inj e
    obtain ⟨e5, e⟩ := cons_inj e
    obtain ⟨e6, e⟩ := cons_inj e
    obtain ⟨e7, e⟩ := cons_inj e
    replace e1 := good_u16.inj _ _ e1
    replace e2 := good_u32.inj _ _ e2
    replace e3 := good_u32.inj _ _ e3
    replace e4 := good_u16.inj _ _ e4
    replace e5 := good_u8.inj _ _ e5
    replace e6 := (good_opt good_u64).inj _ _ e6
    replace e7 := (good_opt good_u64).inj _ _ e7
    cases a; cases b
    dsimp only at e1; subst e1
    dsimp only at e2; subst e2
    dsimp only at e3; subst e3
    dsimp only at e4; subst e4
    dsimp only at e5; subst e5
    dsimp only at e6; subst e6
    dsimp only at e7; subst e7
    rfl

theorem memory_device_mapped_address.MemoryDeviceMappedAddress.dbg_good : Good memory_device_mapped_address.MemoryDeviceMappedAddress.dbg where
  wf x := ⟨by decide, by decide, good_u16.wf _, by decide, good_u32.wf _, by decide, good_u32.wf _, by decide,
    good_u16.wf _, by decide, good_u16.wf _, by decide, good_u8.wf _, by decide, good_u8.wf _, by decide,
    good_u8.wf _, by decide, (good_opt good_u64).wf _, by decide, (good_opt good_u64).wf _, trivial⟩
  inj a b e := by
    replace e := struct_inj e
    obtain ⟨e1, e⟩ := cons_inj e
    obtain ⟨e2, e⟩ := cons_inj e
    obtain ⟨e3, e⟩ := cons_inj e
    obtain ⟨e4, e⟩ := cons_inj e
    obtain ⟨e5, e⟩ := cons_inj e
    obtain ⟨e6, e⟩ := cons_inj e
    obtain ⟨e7, e⟩ := cons_inj e
    obtain ⟨e8, e⟩ := cons_inj e
    obtain ⟨e9, e⟩ := cons_inj e
    obtain ⟨e10, e⟩ := cons_inj e
    replace e1 := good_u16.inj _ _ e1
    replace e2 := good_u32.inj _ _ e2
    replace e3 := good_u32.inj _ _ e3
    replace e4 := good_u16.inj _ _ e4
    replace e5 := good_u16.inj _ _ e5
    replace e6 := good_u8.inj _ _ e6
    replace e7 := good_u8.inj _ _ e7
    replace e8 := good_u8.inj _ _ e8
    replace e9 := (good_opt good_u64).inj _ _ e9
    replace e10 := (good_opt good_u64).inj _ _ e10
    cases a; cases b
    dsimp only at e1; subst e1
    dsimp only at e2; subst e2
    dsimp only at e3; subst e3
    dsimp only at e4; subst e4
    dsimp only at e5; subst e5
    dsimp only at e6; subst e6
    dsimp only at e7; subst e7
    dsimp only at e8; subst e8
    dsimp only at e9; subst e9
    dsimp only at e10; subst e10
    rfl

theorem built_in_pointing_device.DeviceType.dbg_idx (x : built_in_pointing_device.DeviceType) :
    [txt! "Other", txt! "Unknown", txt! "Mouse", txt! "TrackBall", txt! "TrackPoint", txt! "GlidePoint",
      txt! "TouchPad", txt! "TouchScreen", txt! "OpticalSensor", txt! "Undefined"].idxOf x.dbg.head = x.ctorIdx
      := by
  cases x <;> rfl

theorem built_in_pointing_device.DeviceType.dbg_good : Good built_in_pointing_device.DeviceType.dbg where
  wf x := by
    cases x
    · exact ⟨by decide, rfl⟩
    · exact ⟨by decide, rfl⟩
    · exact ⟨by decide, rfl⟩
    · exact ⟨by decide, rfl⟩
    · exact ⟨by decide, rfl⟩
    · exact ⟨by decide, rfl⟩
    · exact ⟨by decide, rfl⟩
    · exact ⟨by decide, rfl⟩
    · exact ⟨by decide, rfl⟩
    · exact ⟨by decide, rfl, good_u8.wf _, trivial⟩
  inj a b e := by
    have h : a.ctorIdx = b.ctorIdx := by rw [← built_in_pointing_device.DeviceType.dbg_idx a, ← built_in_pointing_device.DeviceType.dbg_idx b, e]
    cases a <;> cases b <;> first | exact absurd h (Nat.ne_of_beq_eq_false rfl) | skip
    · rfl
    · rfl
    · rfl
    · rfl
    · rfl
    · rfl
    · rfl
    · rfl
    · rfl
    · replace e := tuple_inj e
      obtain ⟨e1, e⟩ := cons_inj e
      obtain rfl := good_u8.inj _ _ e1
      rfl

theorem built_in_pointing_device.Interface.dbg_idx (x : built_in_pointing_device.Interface) :
    [txt! "Other", txt! "Unknown", txt! "Serial", txt! "Ps2", txt! "Infrared", txt! "HpHil", txt! "BusMouse",
      txt! "Adb", txt! "BusMouseDb9", txt! "BusMouseMicroDin", txt! "Usb", txt! "Undefined"].idxOf x.dbg.head =
      x.ctorIdx := by
  cases x <;> rfl

theorem built_in_pointing_device.Interface.dbg_good : Good built_in_pointing_device.Interface.dbg where
  wf x := by
    cases x
    · exact ⟨by decide, rfl⟩
    · exact ⟨by decide, rfl⟩
    · exact ⟨by decide, rfl⟩
    · exact ⟨by decide, rfl⟩
    · exact ⟨by decide, rfl⟩
    · exact ⟨by decide, rfl⟩
    · exact ⟨by decide, rfl⟩
    · exact ⟨by decide, rfl⟩
    · exact ⟨by decide, rfl⟩
    · exact ⟨by decide, rfl⟩
    · exact ⟨by decide, rfl⟩
    · exact ⟨by decide, rfl, good_u8.wf _, trivial⟩
  inj a b e := by
    have h : a.ctorIdx = b.ctorIdx := by rw [← built_in_pointing_device.Interface.dbg_idx a, ← built_in_pointing_device.Interface.dbg_idx b, e]
    cases a <;> cases b <;> first | exact absurd h (Nat.ne_of_beq_eq_false rfl) | skip
    · rfl
    · rfl
    · rfl
    · rfl
    · rfl
    · rfl
    · rfl
    · rfl
    · rfl
    · rfl
    · rfl
    · replace e := tuple_inj e
      obtain ⟨e1, e⟩ := cons_inj e
      obtain rfl := good_u8.inj _ _ e1
      rfl

theorem built_in_pointing_device.BuiltInPointingDevice.dbg_good : Good built_in_pointing_device.BuiltInPointingDevice.dbg where
  wf x := ⟨by decide, by decide, good_u16.wf _, by decide, built_in_pointing_device.DeviceType.dbg_good.wf _,
    by decide, built_in_pointing_device.Interface.dbg_good.wf _, by decide, good_u8.wf _, trivial⟩
  inj a b e := by
    replace e := struct_inj e
    obtain ⟨e1, e⟩ := cons_inj e
    obtain ⟨e2, e⟩ := cons_inj e
    obtain ⟨e3, e⟩ := cons_inj e
    obtain ⟨e4, e⟩ := cons_inj e
    replace e1 := good_u16.inj _ _ e1
    replace e2 := built_in_pointing_device.DeviceType.dbg_good.inj _ _ e2
    replace e3 := built_in_pointing_device.Interface.dbg_good.inj _ _ e3
    replace e4 := good_u8.inj _ _ e4
    cases a; cases b
    dsimp only at e1; subst e1
    dsimp only at e2; subst e2
    dsimp only at e3; subst e3
    dsimp only at e4; subst e4
    rfl

theorem portable_battery.ManufactureDate.dbg_idx (x : portable_battery.ManufactureDate) :
    [txt! "None", txt! "Basic", txt! "SmartBatteryDataSpecification"].idxOf x.dbg.head = x.ctorIdx := by
  cases x <;> rfl

theorem portable_battery.ManufactureDate.dbg_good : Good portable_battery.ManufactureDate.dbg where
  wf x := by
    cases x
    · exact ⟨by decide, rfl⟩
    · exact ⟨by decide, rfl, good_str.wf _, trivial⟩
    · exact ⟨by decide, by decide, good_u16.wf _, by decide, good_u8.wf _, by decide, good_u8.wf _, trivial⟩
  inj a b e := by
    have h : a.ctorIdx = b.ctorIdx := by rw [← portable_battery.ManufactureDate.dbg_idx a, ← portable_battery.ManufactureDate.dbg_idx b, e]
    cases a <;> cases b <;> first | exact absurd h (Nat.ne_of_beq_eq_false rfl) | skip
    · rfl
    · replace e := tuple_inj e
      obtain ⟨e1, e⟩ := cons_inj e
      obtain rfl := good_str.inj _ _ e1
      rfl
    · replace e := struct_inj e
      obtain ⟨e1, e⟩ := cons_inj e
      obtain ⟨e2, e⟩ := cons_inj e
      obtain ⟨e3, e⟩ := cons_inj e
      obtain rfl := good_u16.inj _ _ e1
      obtain rfl := good_u8.inj _ _ e2
      obtain rfl := good_u8.inj _ _ e3
      rfl

theorem portable_battery.SerialNumber.dbg_idx (x : portable_battery.SerialNumber) :
    [txt! "None", txt! "Basic", txt! "SmartBatteryDataSpecification"].idxOf x.dbg.head = x.ctorIdx := by
  cases x <;> rfl

theorem portable_battery.SerialNumber.dbg_good : Good portable_battery.SerialNumber.dbg where
  wf x := by
    cases x
    · exact ⟨by decide, rfl⟩
    · exact ⟨by decide, rfl, good_str.wf _, trivial⟩
    · exact ⟨by decide, rfl, good_u16.wf _, trivial⟩
  inj a b e := by
    have h : a.ctorIdx = b.ctorIdx := by rw [← portable_battery.SerialNumber.dbg_idx a, ← portable_battery.SerialNumber.dbg_idx b, e]
    cases a <;> cases b <;> first | exact absurd h (Nat.ne_of_beq_eq_false rfl) | skip
    · rfl
    · replace e := tuple_inj e
      obtain ⟨e1, e⟩ := cons_inj e
      obtain rfl := good_str.inj _ _ e1
      rfl
    · replace e := tuple_inj e
      obtain ⟨e1, e⟩ := cons_inj e
      obtain rfl := good_u16.inj _ _ e1
      rfl

theorem portable_battery.DeviceChemistry.dbg_idx (x : portable_battery.DeviceChemistry) :
    [txt! "Other", txt! "Unknown", txt! "LeadAcid", txt! "NickelCadmium", txt! "NickelMetalHydride",
      txt! "LithiumIon", txt! "ZincAir", txt! "LithiumPolymer", txt! "Undefined",
      txt! "SmartBatteryDataSpecification"].idxOf x.dbg.head = x.ctorIdx := by
  cases x <;> rfl

theorem portable_battery.DeviceChemistry.dbg_good : Good portable_battery.DeviceChemistry.dbg where
  wf x := by
    cases x
    · exact ⟨by decide, rfl⟩
    · exact ⟨by decide, rfl⟩
    · exact ⟨by decide, rfl⟩
    · exact ⟨by decide, rfl⟩
    · exact ⟨by decide, rfl⟩
    · exact ⟨by decide, rfl⟩
    · exact ⟨by decide, rfl⟩
    · exact ⟨by decide, rfl⟩
    · exact ⟨by decide, rfl, good_u8.wf _, trivial⟩
    · exact ⟨by decide, rfl, good_str.wf _, trivial⟩
  inj a b e := by
    have h : a.ctorIdx = b.ctorIdx := by rw [← portable_battery.DeviceChemistry.dbg_idx a, ← portable_battery.DeviceChemistry.dbg_idx b, e]
    cases a <;> cases b <;> first | exact absurd h (Nat.ne_of_beq_eq_false rfl) | skip
    · rfl
    · rfl
    · rfl
    · rfl
    · rfl
    · rfl
    · rfl
    · rfl
    · replace e := tuple_inj e
      obtain ⟨e1, e⟩ := cons_inj e
      obtain rfl := good_u8.inj _ _ e1
      rfl
    · replace e := tuple_inj e
      obtain ⟨e1, e⟩ := cons_inj e
      obtain rfl := good_str.inj _ _ e1
      rfl

theorem portable_battery.DesignCapacity.dbg_idx (x : portable_battery.DesignCapacity) :
    [txt! "Unknown", txt! "Data"].idxOf x.dbg.head = x.ctorIdx := by
  cases x <;> rfl

theorem portable_battery.DesignCapacity.dbg_good : Good portable_battery.DesignCapacity.dbg where
  wf x := by
    cases x
    · exact ⟨by decide, rfl⟩
    · exact ⟨by decide, by decide, good_u16.wf _, by decide, good_u8.wf _, trivial⟩
  inj a b e := by
    have h : a.ctorIdx = b.ctorIdx := by rw [← portable_battery.DesignCapacity.dbg_idx a, ← portable_battery.DesignCapacity.dbg_idx b, e]
    cases a <;> cases b <;> first | exact absurd h (Nat.ne_of_beq_eq_false rfl) | skip
    · rfl
    · replace e := struct_inj e
      obtain ⟨e1, e⟩ := cons_inj e
      obtain ⟨e2, e⟩ := cons_inj e
      obtain rfl := good_u16.inj _ _ e1
      obtain rfl := good_u8.inj _ _ e2
      rfl

theorem portable_battery.PortableBattery.dbg_good : Good portable_battery.PortableBattery.dbg where
  wf x := ⟨by decide, by decide, good_u16.wf _, by decide, good_str.wf _, by decide, good_str.wf _, by decide,
    portable_battery.ManufactureDate.dbg_good.wf _, by decide, portable_battery.SerialNumber.dbg_good.wf _, by
    decide, good_str.wf _, by decide, portable_battery.DeviceChemistry.dbg_good.wf _, by decide,
    portable_battery.DesignCapacity.dbg_good.wf _, by decide, good_u16.wf _, by decide, good_str.wf _, by
    decide, good_u8.wf _, by decide, (good_opt good_u32).wf _, trivial⟩
  inj a b e := by
    replace e := struct_inj e
    obtain ⟨e1, e⟩ := cons_inj e
    obtain ⟨e2, e⟩ := cons_inj e
    obtain ⟨e3, e⟩ := cons_inj e
    obtain ⟨e4, e⟩ := cons_inj e
    obtain ⟨e5, e⟩ := cons_inj e
    obtain ⟨e6, e⟩ := cons_inj e
    obtain ⟨e7, e⟩ := cons_inj e
    obtain ⟨e8, e⟩ := cons_inj e
    obtain ⟨e9, e⟩ := cons_inj e
    obtain ⟨e10, e⟩ := cons_inj e
    obtain ⟨e11, e⟩ := cons_inj e
    obtain ⟨e12, e⟩ := cons_inj e
    replace e1 := good_u16.inj _ _ e1
    replace e2 := good_str.inj _ _ e2
    replace e3 := good_str.inj _ _ e3
    replace e4 := portable_battery.ManufactureDate.dbg_good.inj _ _ e4
    replace e5 := portable_battery.SerialNumber.dbg_good.inj _ _ e5
    replace e6 := good_str.inj _ _ e6
    replace e7 := portable_battery.DeviceChemistry.dbg_good.inj _ _ e7
    replace e8 := portable_battery.DesignCapacity.dbg_good.inj _ _ e8
    replace e9 := good_u16.inj _ _ e9
    replace e10 := good_str.inj _ _ e10
    replace e11 := good_u8.inj _ _ e11
    replace e12 := (good_opt good_u32).inj _ _ e12
    cases a; cases b
    dsimp only at e1; subst e1
    dsimp only at e2; subst e2
    dsimp only at e3; subst e3
    dsimp only at e4; subst e4
    dsimp only at e5; subst e5
    dsimp only at e6; subst e6
    dsimp only at e7; subst e7
    dsimp only at e8; subst e8
    dsimp only at e9; subst e9
    dsimp only at e10; subst e10
    dsimp only at e11; subst e11
    dsimp only at e12; subst e12
    rfl

theorem physical_memory_array.MemoryArrayLocation.dbg_idx (x : physical_memory_array.MemoryArrayLocation) :
    [txt! "Other", txt! "Unknown", txt! "SystemBoardOrMotherboard", txt! "IsaAddOnCard", txt! "EisaAddOnCard",
      txt! "PciAddOnCard", txt! "McaAddOnCard", txt! "PcmciaAddOnCard", txt! "ProprietaryAddOnCard",
      txt! "NuBus", txt! "Pc98c20AddOnCard", txt! "Pc98c24AddOnCard", txt! "Pc98eAddOnCard",
      txt! "Pc98LocalBusAddOnCard", txt! "CxlAddOnCard", txt! "Undefined"].idxOf x.dbg.head = x.ctorIdx := by
  cases x <;> rfl

theorem physical_memory_array.MemoryArrayLocation.dbg_good : Good physical_memory_array.MemoryArrayLocation.dbg where
  wf x := by
    cases x
    · exact ⟨by decide, rfl⟩
    · exact ⟨by decide, rfl⟩
    · exact ⟨by decide, rfl⟩
    · exact ⟨by decide, rfl⟩
    · exact ⟨by decide, rfl⟩
    · exact ⟨by decide, rfl⟩
    · exact ⟨by decide, rfl⟩
    · exact ⟨by decide, rfl⟩
    · exact ⟨by decide, rfl⟩
    · exact ⟨by decide, rfl⟩
    · exact ⟨by decide, rfl⟩
    · exact ⟨by decide, rfl⟩
    · exact ⟨by decide, rfl⟩
    · exact ⟨by decide, rfl⟩
    · exact ⟨by decide, rfl⟩
    · exact ⟨by decide, rfl, good_u8.wf _, trivial⟩
  inj a b e := by
    have h : a.ctorIdx = b.ctorIdx := by rw [← physical_memory_array.MemoryArrayLocation.dbg_idx a, ← physical_memory_array.MemoryArrayLocation.dbg_idx b, e]
    cases a <;> cases b <;> first | exact absurd h (Nat.ne_of_beq_eq_false rfl) | skip
    · rfl
    · rfl
    · rfl
    · rfl
    · rfl
    · rfl
    · rfl
    · rfl
    · rfl
    · rfl
    · rfl
    · rfl
    · rfl
    · rfl
    · rfl
    · replace e := tuple_inj e
      obtain ⟨e1, e⟩ := cons_inj e
      obtain rfl := good_u8.inj _ _ e1
      rfl

theorem physical_memory_array.MemoryArrayUse.dbg_idx (x : physical_memory_array.MemoryArrayUse) :
    [txt! "Other", txt! "Unknown", txt! "SystemMemory", txt! "VideoMemory", txt! "FlashMemory",
      txt! "NonVolatileRam", txt! "CacheMemory", txt! "Undefined"].idxOf x.dbg.head = x.ctorIdx := by
  cases x <;> rfl

theorem physical_memory_array.MemoryArrayUse.dbg_good : Good physical_memory_array.MemoryArrayUse.dbg where
  wf x := by
    cases x
    · exact ⟨by decide, rfl⟩
    · exact ⟨by decide, rfl⟩
    · exact ⟨by decide, rfl⟩
    · exact ⟨by decide, rfl⟩
    · exact ⟨by decide, rfl⟩
    · exact ⟨by decide, rfl⟩
    · exact ⟨by decide, rfl⟩
    · exact ⟨by decide, rfl, good_u8.wf _, trivial⟩
  inj a b e := by
    have h : a.ctorIdx = b.ctorIdx := by rw [← physical_memory_array.MemoryArrayUse.dbg_idx a, ← physical_memory_array.MemoryArrayUse.dbg_idx b, e]
    cases a <;> cases b <;> first | exact absurd h (Nat.ne_of_beq_eq_false rfl) | skip
    · rfl
    · rfl
    · rfl
    · rfl
    · rfl
    · rfl
    · rfl
    · replace e := tuple_inj e
      obtain ⟨e1, e⟩ := cons_inj e
      obtain rfl := good_u8.inj _ _ e1
      rfl

theorem physical_memory_array.MemoryArrayErrorCorrectionTypes.dbg_idx (x : physical_memory_array.MemoryArrayErrorCorrectionTypes) :
    [txt! "Other", txt! "Unknown", txt! "None", txt! "Parity", txt! "SingleBitEcc", txt! "MultiBitEcc",
      txt! "CRC", txt! "Undefined"].idxOf x.dbg.head = x.ctorIdx := by
  cases x <;> rfl

theorem physical_memory_array.MemoryArrayErrorCorrectionTypes.dbg_good : Good physical_memory_array.MemoryArrayErrorCorrectionTypes.dbg where
  wf x := by
    cases x
    · exact ⟨by decide, rfl⟩
    · exact ⟨by decide, rfl⟩
    · exact ⟨by decide, rfl⟩
    · exact ⟨by decide, rfl⟩
    · exact ⟨by decide, rfl⟩
    · exact ⟨by decide, rfl⟩
    · exact ⟨by decide, rfl⟩
    · exact ⟨by decide, rfl, good_u8.wf _, trivial⟩
  inj a b e := by
    have h : a.ctorIdx = b.ctorIdx := by rw [← physical_memory_array.MemoryArrayErrorCorrectionTypes.dbg_idx a, ← physical_memory_array.MemoryArrayErrorCorrectionTypes.dbg_idx b, e]
    cases a <;> cases b <;> first | exact absurd h (Nat.ne_of_beq_eq_false rfl) | skip
    · rfl
    · rfl
    · rfl
    · rfl
    · rfl
    · rfl
    · rfl
    · replace e := tuple_inj e
      obtain ⟨e1, e⟩ := cons_inj e
      obtain rfl := good_u8.inj _ _ e1
      rfl

theorem physical_memory_array.PhysicalMemoryArray.dbg_good : Good physical_memory_array.PhysicalMemoryArray.dbg where
  wf x := ⟨by decide, by decide, good_u16.wf _, by decide,
    physical_memory_array.MemoryArrayLocation.dbg_good.wf _, by decide,
    physical_memory_array.MemoryArrayUse.dbg_good.wf _, by decide,
    physical_memory_array.MemoryArrayErrorCorrectionTypes.dbg_good.wf _, by decide, (good_opt good_u32).wf _,
    by decide, (good_opt good_u16).wf _, by decide, good_u16.wf _, by decide, (good_opt good_u64).wf _, trivial⟩
  inj a b e := by
    replace e := struct_inj e
    obtain ⟨e1, e⟩ := cons_inj e
    obtain ⟨e2, e⟩ := cons_inj e
    obtain ⟨e3, e⟩ := cons_inj e
    obtain ⟨e4, e⟩ := cons_inj e
    obtain ⟨e5, e⟩ := cons_inj e
    obtain ⟨e6, e⟩ := cons_inj e
    obtain ⟨e7, e⟩ := cons_inj e
    obtain ⟨e8, e⟩ := cons_inj e
    replace e1 := good_u16.inj _ _ e1
    replace e2 := physical_memory_array.MemoryArrayLocation.dbg_good.inj _ _ e2
    replace e3 := physical_memory_array.MemoryArrayUse.dbg_good.inj _ _ e3
    replace e4 := physical_memory_array.MemoryArrayErrorCorrectionTypes.dbg_good.inj _ _ e4
    replace e5 := (good_opt good_u32).inj _ _ e5
    replace e6 := (good_opt good_u16).inj _ _ e6
    replace e7 := good_u16.inj _ _ e7
    replace e8 := (good_opt good_u64).inj _ _ e8
    cases a; cases b
    dsimp only at e1; subst e1
    dsimp only at e2; subst e2
    dsimp only at e3; subst e3
    dsimp only at e4; subst e4
    dsimp only at e5; subst e5
    dsimp only at e6; subst e6
    dsimp only at e7; subst e7
    dsimp only at e8; subst e8
    rfl

theorem Structure.dbg_idx (x : Structure) :
    [txt! "Bios", txt! "System", txt! "BaseBoard", txt! "Enclosure", txt! "Processor", txt! "Cache",
      txt! "PortConnector", txt! "SystemSlots", txt! "OemStrings", txt! "SystemConfigurationOptions",
      txt! "BiosLanguage", txt! "GroupAssociations", txt! "SystemEventLog", txt! "MemoryDevice",
      txt! "MemoryError32", txt! "MemoryArrayMappedAddress", txt! "MemoryDeviceMappedAddress",
      txt! "BuiltInPointingDevice", txt! "PortableBattery", txt! "PhysicalMemoryArray", txt! "Other"].idxOf
      x.dbg.head = x.ctorIdx := by
  cases x <;> rfl

theorem Structure.dbg_good : Good Structure.dbg where
  wf x := by
    cases x
    · exact ⟨by decide, rfl, bios.Bios.dbg_good.wf _, trivial⟩
    · exact ⟨by decide, rfl, system.System.dbg_good.wf _, trivial⟩
    · exact ⟨by decide, rfl, baseboard.BaseBoard.dbg_good.wf _, trivial⟩
    · exact ⟨by decide, rfl, enclosure.Enclosure.dbg_good.wf _, trivial⟩
    · exact ⟨by decide, rfl, processor.Processor.dbg_good.wf _, trivial⟩
    · exact ⟨by decide, rfl, cache.Cache.dbg_good.wf _, trivial⟩
    · exact ⟨by decide, rfl, port_connector.PortConnector.dbg_good.wf _, trivial⟩
    · exact ⟨by decide, rfl, system_slots.SystemSlots.dbg_good.wf _, trivial⟩
    · exact ⟨by decide, rfl, oem_strings.OemStrings.dbg_good.wf _, trivial⟩
    · exact ⟨by decide, rfl, system_configuration_options.SystemConfigurationOptions.dbg_good.wf _, trivial⟩
    · exact ⟨by decide, rfl, bios_language.BiosLanguage.dbg_good.wf _, trivial⟩
    · exact ⟨by decide, rfl, group_associations.GroupAssociations.dbg_good.wf _, trivial⟩
    · exact ⟨by decide, rfl, system_event_log.SystemEventLog.dbg_good.wf _, trivial⟩
    · exact ⟨by decide, rfl, memory_device.MemoryDevice.dbg_good.wf _, trivial⟩
    · exact ⟨by decide, rfl, memory_error_32.MemoryError32.dbg_good.wf _, trivial⟩
    · exact ⟨by decide, rfl, memory_array_mapped_address.MemoryArrayMappedAddress.dbg_good.wf _, trivial⟩
    · exact ⟨by decide, rfl, memory_device_mapped_address.MemoryDeviceMappedAddress.dbg_good.wf _, trivial⟩
    · exact ⟨by decide, rfl, built_in_pointing_device.BuiltInPointingDevice.dbg_good.wf _, trivial⟩
    · exact ⟨by decide, rfl, portable_battery.PortableBattery.dbg_good.wf _, trivial⟩
    · exact ⟨by decide, rfl, physical_memory_array.PhysicalMemoryArray.dbg_good.wf _, trivial⟩
    · exact ⟨by decide, rfl, RawStructure.dbg_good.wf _, trivial⟩
  inj a b e := by
    have h : a.ctorIdx = b.ctorIdx := by rw [← Structure.dbg_idx a, ← Structure.dbg_idx b, e]
    cases a <;> cases b <;> first | exact absurd h (Nat.ne_of_beq_eq_false rfl) | skip
    · replace e := tuple_inj e
      obtain ⟨e1, e⟩ := cons_inj e
      obtain rfl := bios.Bios.dbg_good.inj _ _ e1
      rfl
    · replace e := tuple_inj e
      obtain ⟨e1, e⟩ := cons_inj e
      obtain rfl := system.System.dbg_good.inj _ _ e1
      rfl
    · replace e := tuple_inj e
      obtain ⟨e1, e⟩ := cons_inj e
      obtain rfl := baseboard.BaseBoard.dbg_good.inj _ _ e1
      rfl
    · replace e := tuple_inj e
      obtain ⟨e1, e⟩ := cons_inj e
      obtain rfl := enclosure.Enclosure.dbg_good.inj _ _ e1
      rfl
    · replace e := tuple_inj e
      obtain ⟨e1, e⟩ := cons_inj e
      obtain rfl := processor.Processor.dbg_good.inj _ _ e1
      rfl
    · replace e := tuple_inj e
      obtain ⟨e1, e⟩ := cons_inj e
      obtain rfl := cache.Cache.dbg_good.inj _ _ e1
      rfl
    · replace e := tuple_inj e
      obtain ⟨e1, e⟩ := cons_inj e
      obtain rfl := port_connector.PortConnector.dbg_good.inj _ _ e1
      rfl
    · replace e := tuple_inj e
      obtain ⟨e1, e⟩ := cons_inj e
      obtain rfl := system_slots.SystemSlots.dbg_good.inj _ _ e1
      rfl
    · replace e := tuple_inj e
      obtain ⟨e1, e⟩ := cons_inj e
      obtain rfl := oem_strings.OemStrings.dbg_good.inj _ _ e1
      rfl
    · replace e := tuple_inj e
      obtain ⟨e1, e⟩ := cons_inj e
      obtain rfl := system_configuration_options.SystemConfigurationOptions.dbg_good.inj _ _ e1
      rfl
    · replace e := tuple_inj e
      obtain ⟨e1, e⟩ := cons_inj e
      obtain rfl := bios_language.BiosLanguage.dbg_good.inj _ _ e1
      rfl
    · replace e := tuple_inj e
      obtain ⟨e1, e⟩ := cons_inj e
      obtain rfl := group_associations.GroupAssociations.dbg_good.inj _ _ e1
      rfl
    · replace e := tuple_inj e
      obtain ⟨e1, e⟩ := cons_inj e
      obtain rfl := system_event_log.SystemEventLog.dbg_good.inj _ _ e1
      rfl
    · replace e := tuple_inj e
      obtain ⟨e1, e⟩ := cons_inj e
      obtain rfl := memory_device.MemoryDevice.dbg_good.inj _ _ e1
      rfl
    · replace e := tuple_inj e
      obtain ⟨e1, e⟩ := cons_inj e
      obtain rfl := memory_error_32.MemoryError32.dbg_good.inj _ _ e1
      rfl
    · replace e := tuple_inj e
      obtain ⟨e1, e⟩ := cons_inj e
      obtain rfl := memory_array_mapped_address.MemoryArrayMappedAddress.dbg_good.inj _ _ e1
      rfl
    · replace e := tuple_inj e
      obtain ⟨e1, e⟩ := cons_inj e
      obtain rfl := memory_device_mapped_address.MemoryDeviceMappedAddress.dbg_good.inj _ _ e1
      rfl
    · replace e := tuple_inj e
      obtain ⟨e1, e⟩ := cons_inj e
      obtain rfl := built_in_pointing_device.BuiltInPointingDevice.dbg_good.inj _ _ e1
      rfl
    · replace e := tuple_inj e
      obtain ⟨e1, e⟩ := cons_inj e
      obtain rfl := portable_battery.PortableBattery.dbg_good.inj _ _ e1
      rfl
    · replace e := tuple_inj e
      obtain ⟨e1, e⟩ := cons_inj e
      obtain rfl := physical_memory_array.PhysicalMemoryArray.dbg_good.inj _ _ e1
      rfl
    · replace e := tuple_inj e
      obtain ⟨e1, e⟩ := cons_inj e
      obtain rfl := RawStructure.dbg_good.inj _ _ e1
      rfl

theorem enclosure.ContainedElementType.dbg_idx (x : enclosure.ContainedElementType) :
    [txt! "BoardType", txt! "InfoType"].idxOf x.dbg.head = x.ctorIdx := by
  cases x <;> rfl

theorem enclosure.ContainedElementType.dbg_good : Good enclosure.ContainedElementType.dbg where
  wf x := by
    cases x
    · exact ⟨by decide, rfl, baseboard.BoardType.dbg_good.wf _, trivial⟩
    · exact ⟨by decide, rfl, InfoType.dbg_good.wf _, trivial⟩
  inj a b e := by
    have h : a.ctorIdx = b.ctorIdx := by rw [← enclosure.ContainedElementType.dbg_idx a, ← enclosure.ContainedElementType.dbg_idx b, e]
    cases a <;> cases b <;> first | exact absurd h (Nat.ne_of_beq_eq_false rfl) | skip
    · replace e := tuple_inj e
      obtain ⟨e1, e⟩ := cons_inj e
      obtain rfl := baseboard.BoardType.dbg_good.inj _ _ e1
      rfl
    · replace e := tuple_inj e
      obtain ⟨e1, e⟩ := cons_inj e
      obtain rfl := InfoType.dbg_good.inj _ _ e1
      rfl

theorem enclosure.ContainedElement.dbg_good : Good enclosure.ContainedElement.dbg where
  wf x := ⟨by decide, by decide, enclosure.ContainedElementType.dbg_good.wf _, by decide, good_u8.wf _, by
    decide, good_u8.wf _, trivial⟩
  inj a b e := by
    replace e := struct_inj e
    obtain ⟨e1, e⟩ := cons_inj e
    obtain ⟨e2, e⟩ := cons_inj e
    obtain ⟨e3, e⟩ := cons_inj e
    replace e1 := enclosure.ContainedElementType.dbg_good.inj _ _ e1
    replace e2 := good_u8.inj _ _ e2
    replace e3 := good_u8.inj _ _ e3
    cases a; cases b
    dsimp only at e1; subst e1
    dsimp only at e2; subst e2
    dsimp only at e3; subst e3
    rfl

theorem system_slots.Device.dbg_good : Good system_slots.Device.dbg where
  wf x := ⟨by decide, by decide, good_u16.wf _, by decide, good_u8.wf _, by decide,
    system_slots.DeviceAndFunctionNumber.dbg_good.wf _, by decide, good_u8.wf _, trivial⟩
  inj a b e := by
    replace e := struct_inj e
    obtain ⟨e1, e⟩ := cons_inj e
    obtain ⟨e2, e⟩ := cons_inj e
    obtain ⟨e3, e⟩ := cons_inj e
    obtain ⟨e4, e⟩ := cons_inj e
    replace e1 := good_u16.inj _ _ e1
    replace e2 := good_u8.inj _ _ e2
    replace e3 := system_slots.DeviceAndFunctionNumber.dbg_good.inj _ _ e3
    replace e4 := good_u8.inj _ _ e4
    cases a; cases b
    dsimp only at e1; subst e1
    dsimp only at e2; subst e2
    dsimp only at e3; subst e3
    dsimp only at e4; subst e4
    rfl

theorem group_associations.GroupItem.dbg_good : Good group_associations.GroupItem.dbg where
  wf x := ⟨by decide, by decide, good_u8.wf _, by decide, good_u16.wf _, trivial⟩
  inj a b e := by
    replace e := struct_inj e
    obtain ⟨e1, e⟩ := cons_inj e
    obtain ⟨e2, e⟩ := cons_inj e
    replace e1 := good_u8.inj _ _ e1
    replace e2 := good_u16.inj _ _ e2
    cases a; cases b
    dsimp only at e1; subst e1
    dsimp only at e2; subst e2
    rfl

theorem system_event_log.EventLogType.dbg_good : Good system_event_log.EventLogType.dbg := by
  refine good_enum system_event_log.EventLogType.dbg (@system_event_log.EventLogType.dbg .usual) (nullary! system_event_log.EventLogType)
    (fun a => (∃ v, a = .Reserved v) ∨ (∃ v, a = .Unused v) ∨ (∃ v, a = .Available v)) (fun a => ?_) (by decide +kernel) (by decide +kernel) ?_ ?_
  · cases a <;> first | exact .inr (.inl ⟨_, rfl⟩) | exact .inr (.inr (.inl ⟨_, rfl⟩)) | exact .inr (.inr (.inr ⟨_, rfl⟩)) | exact .inl ⟨by decide +kernel, rfl⟩
  · rintro _ (⟨v, rfl⟩ | ⟨v, rfl⟩ | ⟨v, rfl⟩)
    · exact ⟨rfl, by decide, rfl, good_u8.wf _, trivial⟩
    · exact ⟨rfl, by decide, rfl, good_u8.wf _, trivial⟩
    · exact ⟨rfl, by decide, rfl, good_u8.wf _, trivial⟩
  · rintro _ _ (⟨v, rfl⟩ | ⟨v, rfl⟩ | ⟨v, rfl⟩) (⟨w, rfl⟩ | ⟨w, rfl⟩ | ⟨w, rfl⟩) e
    · rw [good_u8.inj _ _ (cons_inj (tuple_inj e)).1]
    · have : txt! "Reserved" = txt! "Unused" := congrArg Dbg.head e
      exact absurd this (by decide)
    · have : txt! "Reserved" = txt! "Available" := congrArg Dbg.head e
      exact absurd this (by decide)
    · have : txt! "Unused" = txt! "Reserved" := congrArg Dbg.head e
      exact absurd this (by decide)
    · rw [good_u8.inj _ _ (cons_inj (tuple_inj e)).1]
    · have : txt! "Unused" = txt! "Available" := congrArg Dbg.head e
      exact absurd this (by decide)
    · have : txt! "Available" = txt! "Reserved" := congrArg Dbg.head e
      exact absurd this (by decide)
    · have : txt! "Available" = txt! "Unused" := congrArg Dbg.head e
      exact absurd this (by decide)
    · rw [good_u8.inj _ _ (cons_inj (tuple_inj e)).1]

theorem system_event_log.PostResults.dbg_good : Good system_event_log.PostResults.dbg where
  wf x := ⟨by decide, rfl, good_u64.wf _, trivial⟩
  inj a b e := by
    replace e := tuple_inj e
    obtain ⟨e1, e⟩ := cons_inj e
    replace e1 := good_u64.inj _ _ e1
    cases a; cases b
    dsimp only at e1; subst e1
    rfl

theorem system_event_log.SystemManagementType.dbg_idx (x : system_event_log.SystemManagementType) :
    [txt! "OutOfRangeVoltagePlus2_5Num1", txt! "OutOfRangeVoltagePlus2_5Num2", txt! "OutOfRangeVoltagePlus3_3",
      txt! "OutOfRangeVoltagePlus5", txt! "OutOfRangeVoltageMinus5", txt! "OutOfRangeVoltagePlus12",
      txt! "OutOfRangeVoltageMinus12", txt! "OutOfRangeVoltageReserved",
      txt! "OutOfRangeTemperatureSystemBoard", txt! "OutOfRangeTemperatureProcessor1",
      txt! "OutOfRangeTemperatureProcessor2", txt! "OutOfRangeTemperatureProcessor3",
      txt! "OutOfRangeTemperatureProcessor4", txt! "OutOfRangeTemperatureReserved", txt! "OutOfRangeFan",
      txt! "Reserved", txt! "ChassisSecureSwitchActivated", txt! "OutOfRangeSystemManagementProbe",
      txt! "OemAssigned"].idxOf x.dbg.head = x.ctorIdx := by
  cases x <;> rfl

theorem system_event_log.SystemManagementType.dbg_good : Good system_event_log.SystemManagementType.dbg where
  wf x := by
    cases x
    · exact ⟨by decide, rfl⟩
    · exact ⟨by decide, rfl⟩
    · exact ⟨by decide, rfl⟩
    · exact ⟨by decide, rfl⟩
    · exact ⟨by decide, rfl⟩
    · exact ⟨by decide, rfl⟩
    · exact ⟨by decide, rfl⟩
    · exact ⟨by decide, rfl, good_u8.wf _, trivial⟩
    · exact ⟨by decide, rfl⟩
    · exact ⟨by decide, rfl⟩
    · exact ⟨by decide, rfl⟩
    · exact ⟨by decide, rfl⟩
    · exact ⟨by decide, rfl⟩
    · exact ⟨by decide, rfl, good_u8.wf _, trivial⟩
    · exact ⟨by decide, rfl, good_u8.wf _, trivial⟩
    · exact ⟨by decide, rfl, good_u32.wf _, trivial⟩
    · exact ⟨by decide, rfl⟩
    · exact ⟨by decide, rfl, good_u16.wf _, trivial⟩
    · exact ⟨by decide, rfl, good_u32.wf _, trivial⟩
  inj a b e := by
    have h : a.ctorIdx = b.ctorIdx := by rw [← system_event_log.SystemManagementType.dbg_idx a, ← system_event_log.SystemManagementType.dbg_idx b, e]
    cases a <;> cases b <;> first | exact absurd h (Nat.ne_of_beq_eq_false rfl) | skip
    · rfl
    · rfl
    · rfl
    · rfl
    · rfl
    · rfl
    · rfl
    · replace e := tuple_inj e
      obtain ⟨e1, e⟩ := cons_inj e
      obtain rfl := good_u8.inj _ _ e1
      rfl
    · rfl
    · rfl
    · rfl
    · rfl
    · rfl
    · replace e := tuple_inj e
      obtain ⟨e1, e⟩ := cons_inj e
      obtain rfl := good_u8.inj _ _ e1
      rfl
    · replace e := tuple_inj e
      obtain ⟨e1, e⟩ := cons_inj e
      obtain rfl := good_u8.inj _ _ e1
      rfl
    · replace e := tuple_inj e
      obtain ⟨e1, e⟩ := cons_inj e
      obtain rfl := good_u32.inj _ _ e1
      rfl
    · rfl
    · replace e := tuple_inj e
      obtain ⟨e1, e⟩ := cons_inj e
      obtain rfl := good_u16.inj _ _ e1
      rfl
    · replace e := tuple_inj e
      obtain ⟨e1, e⟩ := cons_inj e
      obtain rfl := good_u32.inj _ _ e1
      rfl

theorem system_event_log.VariableDataFormatType.dbg_idx (x : system_event_log.VariableDataFormatType) :
    [txt! "None", txt! "Handle", txt! "MultipleEvent", txt! "MultipleEventHandle", txt! "PostResults",
      txt! "SystemManagementType", txt! "MultipleEventSystemManagementType", txt! "Unused",
      txt! "OemAssigned"].idxOf x.dbg.head = x.ctorIdx := by
  cases x <;> rfl

theorem system_event_log.VariableDataFormatType.dbg_good : Good system_event_log.VariableDataFormatType.dbg where
  wf x := by
    cases x
    · exact ⟨by decide, rfl⟩
    · exact ⟨by decide, by decide, good_u16.wf _, trivial⟩
    · exact ⟨by decide, by decide, good_u32.wf _, trivial⟩
    · exact ⟨by decide, by decide, good_u16.wf _, by decide, good_u32.wf _, trivial⟩
    · exact ⟨by decide, rfl, system_event_log.PostResults.dbg_good.wf _, trivial⟩
    · exact ⟨by decide, rfl, system_event_log.SystemManagementType.dbg_good.wf _, trivial⟩
    · exact ⟨by decide, by decide, system_event_log.SystemManagementType.dbg_good.wf _, by decide, good_u32.wf _, trivial⟩
    · exact ⟨by decide, rfl, good_u8.wf _, trivial⟩
    · exact ⟨by decide, rfl, good_u8.wf _, trivial⟩
  inj a b e := by
    have h : a.ctorIdx = b.ctorIdx := by rw [← system_event_log.VariableDataFormatType.dbg_idx a, ← system_event_log.VariableDataFormatType.dbg_idx b, e]
    cases a <;> cases b <;> first | exact absurd h (Nat.ne_of_beq_eq_false rfl) | skip
    · rfl
    · replace e := struct_inj e
      obtain ⟨e1, e⟩ := cons_inj e
      obtain rfl := good_u16.inj _ _ e1
      rfl
    · replace e := struct_inj e
      obtain ⟨e1, e⟩ := cons_inj e
      obtain rfl := good_u32.inj _ _ e1
      rfl
    · replace e := struct_inj e
      obtain ⟨e1, e⟩ := cons_inj e
      obtain ⟨e2, e⟩ := cons_inj e
      obtain rfl := good_u16.inj _ _ e1
      obtain rfl := good_u32.inj _ _ e2
      rfl
    · replace e := tuple_inj e
      obtain ⟨e1, e⟩ := cons_inj e
      obtain rfl := system_event_log.PostResults.dbg_good.inj _ _ e1
      rfl
    · replace e := tuple_inj e
      obtain ⟨e1, e⟩ := cons_inj e
      obtain rfl := system_event_log.SystemManagementType.dbg_good.inj _ _ e1
      rfl
    · replace e := struct_inj e
      obtain ⟨e1, e⟩ := cons_inj e
      obtain ⟨e2, e⟩ := cons_inj e
      obtain rfl := system_event_log.SystemManagementType.dbg_good.inj _ _ e1
      obtain rfl := good_u32.inj _ _ e2
      rfl
    · replace e := tuple_inj e
      obtain ⟨e1, e⟩ := cons_inj e
      obtain rfl := good_u8.inj _ _ e1
      rfl
    · replace e := tuple_inj e
      obtain ⟨e1, e⟩ := cons_inj e
      obtain rfl := good_u8.inj _ _ e1
      rfl

theorem system_event_log.EventLogTypeDescriptor.dbg_good : Good system_event_log.EventLogTypeDescriptor.dbg where
  wf x := ⟨by decide, by decide, system_event_log.EventLogType.dbg_good.wf _, by decide,
    system_event_log.VariableDataFormatType.dbg_good.wf _, trivial⟩
  inj a b e := by
    replace e := struct_inj e
    obtain ⟨e1, e⟩ := cons_inj e
    obtain ⟨e2, e⟩ := cons_inj e
    replace e1 := system_event_log.EventLogType.dbg_good.inj _ _ e1
    replace e2 := system_event_log.VariableDataFormatType.dbg_good.inj _ _ e2
    cases a; cases b
    dsimp only at e1; subst e1
    dsimp only at e2; subst e2
    rfl

theorem memory_device.ErrorGranularity.dbg_idx (x : memory_device.ErrorGranularity) :
    [txt! "Other", txt! "Unknown", txt! "DeviceLevel", txt! "MemoryLevel", txt! "Undefined"].idxOf x.dbg.head =
      x.ctorIdx := by
  cases x <;> rfl

theorem memory_device.ErrorGranularity.dbg_good : Good memory_device.ErrorGranularity.dbg where
  wf x := by
    cases x
    · exact ⟨by decide, rfl⟩
    · exact ⟨by decide, rfl⟩
    · exact ⟨by decide, rfl⟩
    · exact ⟨by decide, rfl⟩
    · exact ⟨by decide, rfl, good_u8.wf _, trivial⟩
  inj a b e := by
    have h : a.ctorIdx = b.ctorIdx := by rw [← memory_device.ErrorGranularity.dbg_idx a, ← memory_device.ErrorGranularity.dbg_idx b, e]
    cases a <;> cases b <;> first | exact absurd h (Nat.ne_of_beq_eq_false rfl) | skip
    · rfl
    · rfl
    · rfl
    · rfl
    · replace e := tuple_inj e
      obtain ⟨e1, e⟩ := cons_inj e
      obtain rfl := good_u8.inj _ _ e1
      rfl

theorem memory_device.ErrorOperation.dbg_idx (x : memory_device.ErrorOperation) :
    [txt! "Other", txt! "Unknown", txt! "Read", txt! "Write", txt! "PartialWrite", txt! "Undefined"].idxOf
      x.dbg.head = x.ctorIdx := by
  cases x <;> rfl

theorem memory_device.ErrorOperation.dbg_good : Good memory_device.ErrorOperation.dbg where
  wf x := by
    cases x
    · exact ⟨by decide, rfl⟩
    · exact ⟨by decide, rfl⟩
    · exact ⟨by decide, rfl⟩
    · exact ⟨by decide, rfl⟩
    · exact ⟨by decide, rfl⟩
    · exact ⟨by decide, rfl, good_u8.wf _, trivial⟩
  inj a b e := by
    have h : a.ctorIdx = b.ctorIdx := by rw [← memory_device.ErrorOperation.dbg_idx a, ← memory_device.ErrorOperation.dbg_idx b, e]
    cases a <;> cases b <;> first | exact absurd h (Nat.ne_of_beq_eq_false rfl) | skip
    · rfl
    · rfl
    · rfl
    · rfl
    · rfl
    · replace e := tuple_inj e
      obtain ⟨e1, e⟩ := cons_inj e
      obtain rfl := good_u8.inj _ _ e1
      rfl

theorem memory_device.ErrorType.dbg_idx (x : memory_device.ErrorType) :
    [txt! "Other", txt! "Unknown", txt! "Ok", txt! "BadRead", txt! "Parity", txt! "SingleBit",
      txt! "DoubleBit", txt! "MultiBit", txt! "Nibble", txt! "Checksum", txt! "Crc", txt! "CorrectedSingleBit",
      txt! "Corrected", txt! "Uncorrectable", txt! "Undefined"].idxOf x.dbg.head = x.ctorIdx := by
  cases x <;> rfl

theorem memory_device.ErrorType.dbg_good : Good memory_device.ErrorType.dbg where
  wf x := by
    cases x
    · exact ⟨by decide, rfl⟩
    · exact ⟨by decide, rfl⟩
    · exact ⟨by decide, rfl⟩
    · exact ⟨by decide, rfl⟩
    · exact ⟨by decide, rfl⟩
    · exact ⟨by decide, rfl⟩
    · exact ⟨by decide, rfl⟩
    · exact ⟨by decide, rfl⟩
    · exact ⟨by decide, rfl⟩
    · exact ⟨by decide, rfl⟩
    · exact ⟨by decide, rfl⟩
    · exact ⟨by decide, rfl⟩
    · exact ⟨by decide, rfl⟩
    · exact ⟨by decide, rfl⟩
    · exact ⟨by decide, rfl, good_u8.wf _, trivial⟩
  inj a b e := by
    have h : a.ctorIdx = b.ctorIdx := by rw [← memory_device.ErrorType.dbg_idx a, ← memory_device.ErrorType.dbg_idx b, e]
    cases a <;> cases b <;> first | exact absurd h (Nat.ne_of_beq_eq_false rfl) | skip
    · rfl
    · rfl
    · rfl
    · rfl
    · rfl
    · rfl
    · rfl
    · rfl
    · rfl
    · rfl
    · rfl
    · rfl
    · rfl
    · rfl
    · replace e := tuple_inj e
      obtain ⟨e1, e⟩ := cons_inj e
      obtain rfl := good_u8.inj _ _ e1
      rfl

end Dmi
