import Verif.Proofs.Fmt
import Verif.Model.Display
import Verif.Props.Battery
import Verif.Props.Labels2
import Verif.Props.Labels
/-!
# Properties C61 to C63: texts of values, quantities and errors
-/
namespace Dmi.Props
open Fmt

/-! ## C61: numbers in texts are those of the value -/

/-- C61: the text of a PCI device is `segment:bus:device.function (Width width)`, the first four
numbers hexadecimal with at least 4, 2, 2 and 1 digits. -/
theorem C61_Device (d : system_slots.Device) : ∃ s b v f w : Text,
    d.display = s ++ txt! ":" ++ b ++ txt! ":" ++ v ++ txt! "." ++ f ++ txt! " (Width " ++ w ++
      txt! ")" ∧
    IsHexLower 4 s d.segment_group_number.toNat ∧ IsHexLower 2 b d.bus_number.toNat ∧
    IsHexLower 2 v d.device_and_function_number.device.toNat ∧
    IsHexLower 1 f d.device_and_function_number.function.toNat ∧
    IsDec 1 w d.data_bus_width.toNat := by
  refine ⟨_, _, _, _, _, ?_, isHexLower_pad (by decide) _, isHexLower_pad (by decide) _,
    isHexLower_pad (by decide) _, isHexLower _, isDec _⟩
  simp only [system_slots.Device.display, List.append_assoc]

/-- C61: distinct PCI devices have distinct texts. -/
theorem C61_Device_inj (d e : system_slots.Device) (h : d.display = e.display) : d = e := by
  obtain ⟨s, b, ⟨v, f⟩, w⟩ := d
  obtain ⟨s', b', ⟨v', f'⟩, w'⟩ := e
  simp only [system_slots.Device.display] at h
  obtain ⟨h1, h⟩ := pad_hexLower_split (by decide) h
  obtain ⟨h2, h⟩ := pad_hexLower_split (by decide) h
  obtain ⟨h3, h⟩ := pad_hexLower_split (by decide) h
  obtain ⟨h4, h⟩ := hexLower_split (by decide) h
  obtain ⟨h5, -⟩ := dec_split (by decide) (List.append_cancel_left (as := txt! "(Width ") h)
  rw [UInt16.toNat_inj.1 h1, UInt8.toNat_inj.1 h2, UInt8.toNat_inj.1 h3, UInt8.toNat_inj.1 h4,
    UInt8.toNat_inj.1 h5]

example : (⟨0, 0x1f, ⟨2, 7⟩, 16⟩ : system_slots.Device).display = txt! "0000:1f:02.7 (Width 16)" := by
  decide +kernel

/-- C61: the date of a smart battery is printed as `year-month-day` with 4, 2 and 2 digits, where the
bits 0-4 of the word are the day, 5-8 the month, and 9-15 the year minus 1980. -/
theorem C61_ManufactureDate (word : UInt16) : ∃ y m d : Text,
    (portable_battery.ManufactureDate.new none (some word)).display =
      y ++ txt! "-" ++ m ++ txt! "-" ++ d ∧
    IsDec 4 y (1980 + word.toNat / 512) ∧ y.length = 4 ∧
    IsDec 2 m (word.toNat / 32 % 16) ∧ m.length = 2 ∧
    IsDec 2 d (word.toNat % 32) ∧ d.length = 2 := by
  obtain ⟨hy, hm, hd⟩ := date_parts word
  have := word.toNat_lt
  refine ⟨zeroPad 4 (dec (1980 + word.toNat / 512)), zeroPad 2 (dec (word.toNat / 32 % 16)),
    zeroPad 2 (dec (word.toNat % 32)), ?_, isDec_pad (by decide) _, pad_dec_length (by omega),
    isDec_pad (by decide) _, pad_dec_length (by omega), isDec_pad (by decide) _,
    pad_dec_length (by omega)⟩
  simp only [portable_battery.ManufactureDate.new, portable_battery.ManufactureDate.display, hy, hm,
    hd, List.append_assoc]

/-- C61: a date given as a string is printed as it is, whatever the word. -/
theorem C61_ManufactureDate_string (s : Str) (word : Option UInt16) :
    (portable_battery.ManufactureDate.new (some s) word).display = s.map UInt8.toNat := rfl

/-- C61: a missing date has an empty text. -/
theorem C61_ManufactureDate_none :
    (portable_battery.ManufactureDate.new none none).display = [] := rfl

example : (portable_battery.ManufactureDate.new none (some 0x4A3F)).display = txt! "2017-01-31" := by
  decide +kernel

/-- C61: the serial number of a smart battery is printed in hexadecimal with at least two digits. -/
theorem C61_SerialNumber (word : UInt16) : ∃ d : Text,
    (portable_battery.SerialNumber.new none (some word)).display = txt! "0x" ++ d ∧
    IsHexUpper 2 d word.toNat := ⟨_, rfl, isHexUpper_pad (by decide) _⟩

/-- C61: a serial number given as a string is printed as it is, whatever the word. -/
theorem C61_SerialNumber_string (s : Str) (word : Option UInt16) :
    (portable_battery.SerialNumber.new (some s) word).display = s.map UInt8.toNat := rfl

/-- C61: a missing serial number has an empty text. -/
theorem C61_SerialNumber_none :
    (portable_battery.SerialNumber.new none none).display = [] := rfl

example : (portable_battery.SerialNumber.new none (some 0xA)).display = txt! "0x0A" ∧
    (portable_battery.SerialNumber.new none (some 0xBEEF)).display = txt! "0xBEEF" := by
  decide +kernel

private theorem dec_ne_na (n : Nat) (y : Text) (h : dec n ++ y = txt! "N/A") : False := by
  have hne : dec n ≠ [] := by
    intro e
    exact digitsAux_ne_nil _ _ _ (List.map_eq_nil_iff.1 e)
  cases e : dec n with
  | nil => exact hne e
  | cons c l =>
    have := dec_digit n c (by rw [e]; exact List.mem_cons_self)
    rw [e] at h
    have : c = 78 := (List.cons.inj h).1
    omega

/-- C61: a BIOS revision is printed as `major.minor`, unless both are FFh (not supported). -/
theorem C61_BiosRevision (r : bios.BiosRevision) :
    (r.display = txt! "N/A" ↔ r.major.toNat = 255 ∧ r.minor.toNat = 255) ∧
    (¬ (r.major.toNat = 255 ∧ r.minor.toNat = 255) → ∃ m n : Text,
      r.display = m ++ txt! "." ++ n ∧ IsDec 1 m r.major.toNat ∧ IsDec 1 n r.minor.toNat) := by
  have e : (r.major = 0xFF ∧ r.minor = 0xFF) ↔ (r.major.toNat = 255 ∧ r.minor.toNat = 255) := by
    rw [← UInt8.toNat_inj, ← UInt8.toNat_inj]; rfl
  unfold bios.BiosRevision.display
  rw [← e]
  by_cases h : r.major = 0xFF ∧ r.minor = 0xFF
  · simp [h]
  · rw [if_neg h]
    refine ⟨⟨fun h' => ?_, fun h' => (h h').elim⟩, fun _ => ⟨_, _, ?_, isDec _, isDec _⟩⟩
    · exact (dec_ne_na _ _ h').elim
    · simp only [List.append_assoc]

/-- C61: a firmware revision is printed as `major.minor`, unless both are FFh (not supported). -/
theorem C61_FirmwareRevision (r : bios.FirmwareRevision) :
    (r.display = txt! "N/A" ↔ r.major.toNat = 255 ∧ r.minor.toNat = 255) ∧
    (¬ (r.major.toNat = 255 ∧ r.minor.toNat = 255) → ∃ m n : Text,
      r.display = m ++ txt! "." ++ n ∧ IsDec 1 m r.major.toNat ∧ IsDec 1 n r.minor.toNat) := by
  have e : (r.major = 0xFF ∧ r.minor = 0xFF) ↔ (r.major.toNat = 255 ∧ r.minor.toNat = 255) := by
    rw [← UInt8.toNat_inj, ← UInt8.toNat_inj]; rfl
  unfold bios.FirmwareRevision.display
  rw [← e]
  by_cases h : r.major = 0xFF ∧ r.minor = 0xFF
  · simp [h]
  · rw [if_neg h]
    refine ⟨⟨fun h' => ?_, fun h' => (h h').elim⟩, fun _ => ⟨_, _, ?_, isDec _, isDec _⟩⟩
    · exact (dec_ne_na _ _ h').elim
    · simp only [List.append_assoc]

example : (⟨1, 30⟩ : bios.BiosRevision).display = txt! "1.30" ∧
    (⟨0xFF, 30⟩ : bios.FirmwareRevision).display = txt! "255.30" ∧
    (⟨0xFF, 0xFF⟩ : bios.FirmwareRevision).display = txt! "N/A" := by decide +kernel

/-- C61: distinct contained element types have distinct texts. -/
theorem C61_ContainedElementType_inj (a b : enclosure.ContainedElementType)
    (h : a.display = b.display) : a = b := by
  cases a <;> cases b <;> simp only [enclosure.ContainedElementType.display] at h
  · rw [C59_baseboard_BoardType _ _ (List.append_cancel_left h)]
  · simp at h
  · simp at h
  · rw [C59_InfoType _ _ (List.append_cancel_left h)]

/-- C61: the text of a contained element is its type and `(minimum-maximum)`. -/
theorem C61_ContainedElement (e : enclosure.ContainedElement) : ∃ t m n : Text,
    e.display = t ++ txt! " (" ++ m ++ txt! "-" ++ n ++ txt! ")" ∧
    (∀ b : baseboard.BoardType, e.type_ = .BoardType b → t = txt! "Baseboard type: " ++ b.display) ∧
    (∀ i : InfoType, e.type_ = .InfoType i → t = txt! "Structure type: " ++ i.display) ∧
    IsDec 1 m e.minimum.toNat ∧ IsDec 1 n e.maximum.toNat := by
  refine ⟨e.type_.display, _, _, ?_, ?_, ?_, isDec _, isDec _⟩
  · simp only [enclosure.ContainedElement.display, List.append_assoc]
  · intro b hb; rw [hb]; rfl
  · intro b hb; rw [hb]; rfl

/-- C61: distinct contained elements have distinct texts. -/
theorem C61_ContainedElement_inj (a b : enclosure.ContainedElement) (h : a.display = b.display) :
    a = b := by
  obtain ⟨t, m, n⟩ := a
  obtain ⟨t', m', n'⟩ := b
  simp only [enclosure.ContainedElement.display, ← List.append_assoc] at h
  have h := List.append_cancel_right h
  obtain ⟨h, h1⟩ := dec_snoc (by rw [List.getLast?_concat]; simp [isDigit])
    (by rw [List.getLast?_concat]; simp [isDigit]) h
  have h := List.append_cancel_right h
  obtain ⟨h, h2⟩ := dec_snoc (by simp [isDigit]) (by simp [isDigit]) h
  have h3 := C61_ContainedElementType_inj _ _ (List.append_cancel_right h)
  rw [UInt8.toNat_inj.1 h1, UInt8.toNat_inj.1 h2, h3]

example : (⟨.BoardType .ServerBlade, 1, 4⟩ : enclosure.ContainedElement).display =
    txt! "Baseboard type: Server Blade (1-4)" := by decide +kernel

/-! Event log access methods and data formats. -/

/-- C61: the alternate text of an access method determines it. -/
theorem C61_AccessMethod_alternate (a b : system_event_log.AccessMethod)
    (h : a.display true = b.display true) : a = b := by
  cases a <;> cases b <;> simp only [system_event_log.AccessMethod.display] at h
  case IndexedIoOne8bitIndexOne8bitData.IndexedIoOne8bitIndexOne8bitData =>
    obtain ⟨h1, h⟩ := pad_hexUpper_split (by decide) (List.append_cancel_left h)
    have h2 := pad_hexUpper_inj (List.append_cancel_left (as := txt! " Data 0x") h)
    rw [UInt8.toNat_inj.1 h1, UInt8.toNat_inj.1 h2]
  case IndexedIoTwo8bitIndexOne8bitData.IndexedIoTwo8bitIndexOne8bitData =>
    obtain ⟨h1, h⟩ := hexUpper_split (by decide) (List.append_cancel_left h)
    obtain ⟨h2, h⟩ := hexUpper_split (by decide) (List.append_cancel_left (as := txt! " ") h)
    have h3 := pad_hexUpper_inj (List.append_cancel_left (as := txt! ", Data 0x") h)
    rw [UInt8.toNat_inj.1 h1, UInt8.toNat_inj.1 h2, UInt8.toNat_inj.1 h3]
  case IndexedIoOne16bitIndexOne8bitData.IndexedIoOne16bitIndexOne8bitData =>
    obtain ⟨h1, h⟩ := pad_hexUpper_split (by decide) (List.append_cancel_left h)
    have h2 := pad_hexUpper_inj (List.append_cancel_left (as := txt! " Data 0x") h)
    rw [UInt16.toNat_inj.1 h1, UInt8.toNat_inj.1 h2]
  case MemoryMappedPhysicaAddress.MemoryMappedPhysicaAddress =>
    rw [UInt32.toNat_inj.1 (pad_hexUpper_inj (List.append_cancel_left h))]
  case GeneralPurposeNonVolatileData.GeneralPurposeNonVolatileData =>
    rw [UInt16.toNat_inj.1 (pad_hexUpper_inj (List.append_cancel_left h))]
  case Available.Available =>
    obtain ⟨h1, h⟩ := dec_split (by decide) (List.append_cancel_left h)
    have h2 := pad_hexUpper_inj (List.append_cancel_left (as := txt! " Address 0x") h)
    rw [UInt8.toNat_inj.1 h1, UInt32.toNat_inj.1 h2]
  case OemSpecific.OemSpecific =>
    obtain ⟨h1, h⟩ := dec_split (by decide) (List.append_cancel_left h)
    have h2 := pad_hexUpper_inj (List.append_cancel_left (as := txt! " Address 0x") h)
    rw [UInt8.toNat_inj.1 h1, UInt32.toNat_inj.1 h2]
  all_goals simp at h

/-- The kind of an access method: its variant and, for OEM-specific and unassigned methods, the
code. -/
def accessKind : system_event_log.AccessMethod → Nat × Nat
  | .IndexedIoOne8bitIndexOne8bitData _ _ => (0, 0)
  | .IndexedIoTwo8bitIndexOne8bitData _ _ _ => (1, 0)
  | .IndexedIoOne16bitIndexOne8bitData _ _ => (2, 0)
  | .MemoryMappedPhysicaAddress _ => (3, 0)
  | .GeneralPurposeNonVolatileData _ => (4, 0)
  | .Available method _ => (5, method.toNat)
  | .OemSpecific method _ => (6, method.toNat)

/-- C61: the plain text of an access method shows its kind and nothing else. -/
theorem C61_AccessMethod (a b : system_event_log.AccessMethod) :
    a.display false = b.display false ↔ accessKind a = accessKind b := by
  constructor
  · intro h
    cases a <;> cases b <;> simp only [system_event_log.AccessMethod.display] at h
    case Available.Available => rw [accessKind, dec_inj (List.append_cancel_left h)]; rfl
    case OemSpecific.OemSpecific => rw [accessKind, dec_inj (List.append_cancel_left h)]; rfl
    all_goals first | rfl | (simp at h; done)
  · intro h
    cases a <;> cases b <;> simp [accessKind] at h <;>
      simp only [system_event_log.AccessMethod.display, h]

/-- C61: the numbers in the alternate texts of access methods. -/
theorem C61_AccessMethod_numbers (i j d : UInt8) (w : UInt16) (a : UInt32) :
    ∃ i2 i1 j1 d2 w4 a8 m : Text,
    IsHexUpper 2 i2 i.toNat ∧ IsHexUpper 1 i1 i.toNat ∧ IsHexUpper 1 j1 j.toNat ∧
    IsHexUpper 2 d2 d.toNat ∧ IsHexUpper 4 w4 w.toNat ∧ IsHexUpper 8 a8 a.toNat ∧
    IsDec 1 m i.toNat ∧
    (system_event_log.AccessMethod.IndexedIoOne8bitIndexOne8bitData i d).display true =
      txt! "Indexed I/O, one 8-bit index port, one 8-bit data port: Index 0x" ++ i2 ++
        txt! ", Data 0x" ++ d2 ∧
    (system_event_log.AccessMethod.IndexedIoTwo8bitIndexOne8bitData i j d).display true =
      txt! "Indexed I/O, two 8-bit index ports, one 8-bit data port: Index [" ++ i1 ++
        txt! ", " ++ j1 ++ txt! "], Data 0x" ++ d2 ∧
    (system_event_log.AccessMethod.IndexedIoOne16bitIndexOne8bitData w d).display true =
      txt! "Indexed I/O, one 16-bit index port, one 8-bit data port: Index 0x" ++ w4 ++
        txt! ", Data 0x" ++ d2 ∧
    (system_event_log.AccessMethod.MemoryMappedPhysicaAddress a).display true =
      txt! "Memory-mapped physical 32-bit address: 0x" ++ a8 ∧
    (system_event_log.AccessMethod.GeneralPurposeNonVolatileData w).display true =
      txt! "General-Purpose NonVolatile Data functions, handle 0x" ++ w4 ∧
    (system_event_log.AccessMethod.OemSpecific i a).display true =
      txt! "BIOS Vendor/OEM-specific: Method " ++ m ++ txt! ", Address 0x" ++ a8 ∧
    (system_event_log.AccessMethod.Available i a).display true =
      txt! "Available: Method " ++ m ++ txt! ", Address 0x" ++ a8 := by
  refine ⟨_, _, _, _, _, _, _, isHexUpper_pad (by decide) _, isHexUpper _, isHexUpper _,
    isHexUpper_pad (by decide) _, isHexUpper_pad (by decide) _, isHexUpper_pad (by decide) _,
    isDec _, ?_, ?_, ?_, ?_, ?_, ?_, ?_⟩ <;>
    simp only [system_event_log.AccessMethod.display, List.append_assoc]

example : (system_event_log.AccessMethod.IndexedIoTwo8bitIndexOne8bitData 0x0A 0xBC 0x0D).display
    true = txt! "Indexed I/O, two 8-bit index ports, one 8-bit data port: Index [A, BC], Data 0x0D" ∧
    (system_event_log.AccessMethod.OemSpecific 0x80 0xF0).display false =
      txt! "OEM-specific: 128" := by decide +kernel

/-- C61: the alternate text of a variable data format determines it with its data. -/
theorem C61_VariableDataFormatType_alternate (a b : system_event_log.VariableDataFormatType)
    (h : a.display true = b.display true) : a = b := by
  cases a <;> cases b <;>
    simp only [system_event_log.VariableDataFormatType.display, hexUpperAlt] at h
  case Handle.Handle => rw [UInt16.toNat_inj.1 (dec_inj (List.append_cancel_left h))]
  case MultipleEvent.MultipleEvent =>
    rw [UInt32.toNat_inj.1 (dec_inj (List.append_cancel_left h))]
  case MultipleEventHandle.MultipleEventHandle =>
    obtain ⟨h1, h⟩ := pad_hexUpper_split (by decide) (List.append_cancel_left h)
    have h2 := dec_inj (List.append_cancel_left (as := txt! " Count ") h)
    rw [UInt16.toNat_inj.1 h1, UInt32.toNat_inj.1 h2]
  case PostResults.PostResults r r' =>
    obtain ⟨r⟩ := r; obtain ⟨r'⟩ := r'
    have h1 : r = r' := UInt64.toNat_inj.1 (hexUpper_inj (List.append_cancel_left
      (List.append_cancel_left h)))
    rw [h1]
  case SystemManagementType.SystemManagementType =>
    rw [C59_system_event_log_SystemManagementType _ _ (List.append_cancel_left h)]
  case MultipleEventSystemManagementType.MultipleEventSystemManagementType =>
    have h := List.append_cancel_left h
    simp only [← List.append_assoc] at h
    obtain ⟨h, h1⟩ := dec_snoc (by simp [isDigit]) (by simp [isDigit]) h
    rw [UInt32.toNat_inj.1 h1, C59_system_event_log_SystemManagementType _ _
      (List.append_cancel_right h)]
  case Unused.Unused => rw [UInt8.toNat_inj.1 (dec_inj (List.append_cancel_left h))]
  case OemAssigned.OemAssigned => rw [UInt8.toNat_inj.1 (dec_inj (List.append_cancel_left h))]
  all_goals first | rfl | (simp at h; done)

/-- The kind of a variable data format: its variant and, for unused codes, the code. -/
def formatKind : system_event_log.VariableDataFormatType → Nat × Nat
  | .None => (0, 0)
  | .Handle _ => (1, 0)
  | .MultipleEvent _ => (2, 0)
  | .MultipleEventHandle _ _ => (3, 0)
  | .PostResults _ => (4, 0)
  | .SystemManagementType _ => (5, 0)
  | .MultipleEventSystemManagementType _ _ => (6, 0)
  | .Unused v => (7, v.toNat)
  | .OemAssigned _ => (8, 0)

/-- C61: the plain text of a variable data format shows its kind and nothing else; in particular not
the code of an OEM format. -/
theorem C61_VariableDataFormatType (a b : system_event_log.VariableDataFormatType) :
    a.display false = b.display false ↔ formatKind a = formatKind b := by
  constructor
  · intro h
    cases a <;> cases b <;> simp only [system_event_log.VariableDataFormatType.display] at h
    case Unused.Unused => rw [formatKind, dec_inj (List.append_cancel_left h)]; rfl
    all_goals first | rfl | (simp at h; done)
  · intro h
    cases a <;> cases b <;> simp [formatKind] at h <;>
      simp only [system_event_log.VariableDataFormatType.display, h]

/-- C61: the numbers in the alternate texts of variable data formats. -/
theorem C61_VariableDataFormatType_numbers (v : UInt8) (w : UInt16) (c : UInt32) (r : UInt64)
    (t : system_event_log.SystemManagementType) : ∃ v1 w1 w4 c1 r1 : Text,
    IsDec 1 v1 v.toNat ∧ IsDec 1 w1 w.toNat ∧ IsHexUpper 4 w4 w.toNat ∧ IsDec 1 c1 c.toNat ∧
    IsHexUpper 1 r1 r.toNat ∧
    (system_event_log.VariableDataFormatType.Handle w).display true =
      txt! "SMBIOS structure associated handle: " ++ w1 ∧
    (system_event_log.VariableDataFormatType.MultipleEvent c).display true =
      txt! "Multiple-event counter value: " ++ c1 ∧
    (system_event_log.VariableDataFormatType.MultipleEventHandle w c).display true =
      txt! "Multiple-event: Handle 0x" ++ w4 ++ txt! ", Count " ++ c1 ∧
    (system_event_log.VariableDataFormatType.PostResults ⟨r⟩).display true =
      txt! "POST result: 0x" ++ r1 ∧
    (system_event_log.VariableDataFormatType.SystemManagementType t).display true =
      txt! "System management: " ++ t.display ∧
    (system_event_log.VariableDataFormatType.MultipleEventSystemManagementType t c).display true =
      txt! "Multiple-event system management: Type " ++ t.display ++ txt! ", Count " ++ c1 ∧
    (system_event_log.VariableDataFormatType.Unused v).display true = txt! "Unused: " ++ v1 ∧
    (system_event_log.VariableDataFormatType.OemAssigned v).display true =
      txt! "OEM assigned: " ++ v1 := by
  refine ⟨_, _, _, _, _, isDec _, isDec _, isHexUpper_pad (by decide) _, isDec _, isHexUpper _,
    rfl, rfl, ?_, rfl, rfl, ?_, rfl, rfl⟩ <;>
    simp only [system_event_log.VariableDataFormatType.display, List.append_assoc]

example : (system_event_log.VariableDataFormatType.MultipleEventHandle 0x2B 10).display true =
    txt! "Multiple-event: Handle 0x002B, Count 10" := by decide +kernel

/-! ## C62: printed physical quantities -/

/-- A rounded quotient is within half of the quotient. -/
theorem roundDiv_bounds (x d : Nat) (hd : 0 < d) :
    2 * (d * roundDiv x d) ≤ 2 * x + d ∧ 2 * x ≤ 2 * (d * roundDiv x d) + d := by
  have h1 := Nat.div_add_mod x d
  have h2 := Nat.mod_lt x hd
  have h3 : d * (x / d + 1) = d * (x / d) + d := Nat.mul_succ _ _
  unfold roundDiv
  simp only
  split
  · omega
  · split
    · rw [h3]; omega
    · split
      · omega
      · rw [h3]; omega

/-- An integer is the rounded quotient if it is within less than half of the quotient. -/
theorem roundDiv_unique {x d n : Nat} (h1 : 2 * (d * n) < 2 * x + d) (h2 : 2 * x < 2 * (d * n) + d) :
    roundDiv x d = n := by
  have b := roundDiv_bounds x d (by omega)
  rcases Nat.lt_trichotomy (roundDiv x d) n with h | h | h
  · have : d * (roundDiv x d + 1) ≤ d * n := Nat.mul_le_mul_left d h
    rw [Nat.mul_succ] at this
    omega
  · exact h
  · have : d * (n + 1) ≤ d * roundDiv x d := Nat.mul_le_mul_left d h
    rw [Nat.mul_succ] at this
    omega

/-- Rounding twice, to 24 bits and to one decimal, returns the integer divided by ten. -/
theorem round_divTen {n : Nat} (h : n < 65536) :
    roundDiv (10 * (divTen n).mant) (2 ^ (divTen n).scale) = n := by
  by_cases h0 : n = 0
  · subst h0; rfl
  · unfold divTen
    rw [if_neg h0]
    have key : ∀ s, 11 ≤ s → roundDiv (10 * roundDiv (n * 2 ^ s) 10) (2 ^ s) = n := by
      intro s hs
      have b := roundDiv_bounds (n * 2 ^ s) 10 (by decide)
      have h1 : 2 ^ 11 ≤ 2 ^ s := Nat.pow_le_pow_right (by decide) hs
      have h2 : 2 ^ s * n = n * 2 ^ s := Nat.mul_comm _ _
      apply roundDiv_unique <;> omega
    have hl : Nat.log2 n < 16 := (Nat.log2_lt h0).2 h
    simp only
    split <;> exact key _ (by omega)

/-- The text of an integer divided by ten. -/
theorem fixed1_divTen {n : Nat} (h : n < 65536) :
    fixed1 (divTen n) = dec (n / 10) ++ txt! "." ++ dec (n % 10) := by
  unfold fixed1; rw [round_divTen h]

/-- A decimal number with one digit after the point: `t` is the text of `n / 10`. -/
def IsTenths (t : Text) (n : Nat) : Prop := ∃ i f : Text, t = i ++ txt! "." ++ f ∧ f.length = 1 ∧
  IsDec 1 i (n / 10) ∧ IsDec 1 f (n % 10)

theorem isTenths {n : Nat} (h : n < 65536) : IsTenths (fixed1 (divTen n)) n := by
  refine ⟨_, _, fixed1_divTen h, ?_, isDec _, isDec _⟩
  have h1 := dec_length (w := 0) (n := n % 10) (by omega)
  have h2 := (isDec (n % 10)).2.1
  omega

theorem isTenths_inj {t : Text} {m n : Nat} (hm : IsTenths t m) (hn : IsTenths t n) : m = n := by
  obtain ⟨i, f, rfl, -, hi, hf⟩ := hm
  obtain ⟨i', f', e, -, hi', hf'⟩ := hn
  have num : ∀ {t n}, IsDec 1 t n → ∀ c ∈ t, isNum c = true := by
    intro t n h c hc
    obtain ⟨d, hd, rfl⟩ := h.1 c hc
    simp only [isNum, if_pos hd, Bool.or_eq_true, Bool.and_eq_true, decide_eq_true_eq]; omega
  simp only [List.append_assoc] at e
  obtain ⟨h1, h2⟩ := num_split (num hi) (num hi') (by simp [isNum]) (by simp [isNum]) e
  have h3 := List.append_cancel_left h2
  have h4 : m / 10 = n / 10 := by rw [← hi.2.2.2, ← hi'.2.2.2, h1]
  have h5 : m % 10 = n % 10 := by rw [← hf.2.2.2, ← hf'.2.2.2, h3]
  omega

/-- C62: the current voltage of a processor is printed in volts with one decimal: bits 0-6 of the
code are tenths of volts. -/
theorem C62_Voltage_current (b : UInt8) (h : 128 ≤ b.toNat) : ∃ t : Text,
    (processor.Voltage.ofU8 b).display = txt! "Current voltage: " ++ t ++ txt! " V" ∧
    IsTenths t (b.toNat - 128) := by
  have key : ∀ b : UInt8, 128 ≤ b.toNat → ∃ v, processor.Voltage.ofU8 b = .Current v ∧
      v.toNat = b.toNat - 128 := by
    intro b h
    refine ⟨b &&& 0b0111_1111, ?_⟩
    revert b
    exact forall_u8 (by decide +kernel)
  obtain ⟨v, e, hv⟩ := key b h
  rw [e, ← hv]
  refine ⟨_, ?_, isTenths (Nat.lt_trans v.toNat_lt (by decide))⟩
  simp only [processor.Voltage.display, List.append_assoc]

/-- The voltages in tenths of volts announced by the bits of a legacy code. -/
def legacyVoltages (b : UInt8) : List Nat :=
  [(0, 50), (1, 33), (2, 29)].filterMap fun p => if b.toNat.testBit p.1 then some p.2 else none

/-- The text of a list of voltages in tenths of volts, each followed by a space. -/
def voltageList (l : List Nat) : Text :=
  l.flatMap fun n => dec (n / 10) ++ txt! "." ++ dec (n % 10) ++ txt! "V "

/-- C62, full statement for legacy voltages: the text of a code below 8 lists the voltages announced
by its bits 0-2. -/
def C62_Voltage_legacy_full : Prop := ∀ b : UInt8, b.toNat < 8 →
  (processor.Voltage.ofU8 b).display =
    if legacyVoltages b = [] then txt! "Voltage capability unknown"
    else txt! "Processor socket accept: " ++ voltageList (legacyVoltages b)

/-- The capability of 5 V is printed as 5.5 V. -/
theorem C62_Voltage_legacy_full_false : ¬ C62_Voltage_legacy_full := by
  intro h
  exact absurd (h 1 (by decide)) (by decide +kernel)

/-- C62 (partial): the text of a code below 8 lists the voltages announced by its bits 0-2, except that
5.0 V is printed as 5.5 V. -/
theorem C62_Voltage_legacy_partial : ∀ b : UInt8, b.toNat < 8 →
    (processor.Voltage.ofU8 b).display =
      if legacyVoltages b = [] then txt! "Voltage capability unknown"
      else txt! "Processor socket accept: " ++
        voltageList ((legacyVoltages b).map fun n => if n = 50 then 55 else n) :=
  forall_u8 (by decide +kernel)

/-- C62: a code with bit 7 clear and one of the bits 3-6 set is printed in binary. -/
theorem C62_Voltage_undefined (b : UInt8) (h : b.toNat < 128) (h' : 8 ≤ b.toNat) : ∃ t : Text,
    (processor.Voltage.ofU8 b).display = txt! "Undefined 0b" ++ t ∧ IsBin 1 t b.toNat := by
  have key : ∀ b : UInt8, b.toNat < 128 → 8 ≤ b.toNat →
      processor.Voltage.ofU8 b = .Undefined b := forall_u8 (by decide +kernel)
  rw [key b h h']
  exact ⟨_, rfl, isBin _⟩

example : (processor.Voltage.ofU8 0x8C).display = txt! "Current voltage: 1.2 V" ∧
    (processor.Voltage.ofU8 6).display = txt! "Processor socket accept: 3.3V 2.9V " ∧
    (processor.Voltage.ofU8 0x50).display = txt! "Undefined 0b1010000" := by decide +kernel

/-- C62, full statement for slot pitches: a non-zero pitch, in units of 1/100 mm, is printed in
millimetres, rounded to one decimal. -/
def C62_SlotPitch_full : Prop := ∀ p : system_slots.SlotPitch, p.value ≠ 0 → ∃ (t : Text) (n : Nat),
  p.display = t ++ txt! " mm" ∧ IsTenths t n ∧ 10 * n ≤ p.value.toNat + 5 ∧ p.value.toNat ≤ 10 * n + 5

/-- The pitch of 12.5 mm, encoded as 1250, is printed as 125.0 mm. -/
theorem C62_SlotPitch_full_false : ¬ C62_SlotPitch_full := by
  intro h
  obtain ⟨t, n, ht, hn, h1, -⟩ := h ⟨1250⟩ (by decide)
  have e : (⟨1250⟩ : system_slots.SlotPitch).display = fixed1 (divTen 1250) ++ txt! " mm" := rfl
  rw [e] at ht
  have e := List.append_cancel_right ht
  have := isTenths_inj (e ▸ isTenths (n := 1250) (by decide)) hn
  subst this
  exact absurd h1 (by decide)

/-- C62 (partial): the printed slot pitch is the value divided by ten, with one decimal, that is ten
times the pitch in millimetres; the value 0 means unknown. Missing: the scale. -/
theorem C62_SlotPitch_partial (p : system_slots.SlotPitch) :
    (p.value = 0 → p.display = txt! "Not given or is unknown") ∧
    (p.value ≠ 0 → ∃ t : Text, p.display = t ++ txt! " mm" ∧ IsTenths t p.value.toNat) := by
  unfold system_slots.SlotPitch.display
  refine ⟨fun h => by rw [if_pos h], fun h => ?_⟩
  rw [if_neg h]
  exact ⟨_, rfl, isTenths p.value.toNat_lt⟩

example : (⟨1250⟩ : system_slots.SlotPitch).display = txt! "125.0 mm" ∧
    (⟨65535⟩ : system_slots.SlotPitch).display = txt! "6553.5 mm" := by decide +kernel

end Dmi.Props
