import Verif.Proofs.Decode
import Verif.Model.S001
import Verif.Model.S002
import Verif.Model.S008
/-!
# C31, C32, C39: system information (type 1), base board (type 2), port connector (type 8)
-/
namespace Dmi.Props
open Spec

/-! ### C31 -/

section System
open system

/-- Length of a type 1 structure of the given version. -/
def systemLength (s : RawStructure) : Nat :=
  if Since s 2 4 then 0x1B else if Since s 2 1 then 0x19 else 0x08

/-- Where each byte of a UUID is stored from version 2.6 on: the first three groups (4, 2 and 2
bytes) are little-endian. -/
def uuidOrder : List Nat := [3, 2, 1, 0, 5, 4, 7, 6, 8, 9, 10, 11, 12, 13, 14, 15]

/-- The UUID stored at offset 08h. -/
def storedUuid (s : RawStructure) : Bytes :=
  if Since s 2 6 then uuidOrder.map fun i => byte s (0x08 + i)
  else (List.range 16).map fun i => byte s (0x08 + i)

/-- The fields of a type 1 structure. -/
structure SystemFields (s : RawStructure) (v : System) : Prop where
  handle : v.handle = s.handle
  manufacturer : Ref s 0x04 v.manufacturer
  product : Ref s 0x05 v.product
  version : Ref s 0x06 v.version
  serial : Ref s 0x07 v.serial
  uuid : When (Since s 2 1) v.uuid (· = storedUuid s)
  wakeup : When (Since s 2 1) v.wakeup (· = WakeupType.ofU8 (byte s 0x18))
  sku : When (Since s 2 4) v.sku (Ref s 0x19)
  family : When (Since s 2 4) v.family (Ref s 0x1A)

theorem uuid_le_bytesAt (b : Bytes) (o : Nat) :
    Uuid.from_bytes_le (bytesAt b o 16) = uuidOrder.map fun i => byteAt b (o + i) := rfl

theorem decode_uuid (s : RawStructure) :
    decode_by_smbios_version (bytesAt s.data 4 16) s.version = storedUuid s := by
  unfold decode_by_smbios_version storedUuid
  by_cases h : Since s 2 6
  · rw [if_neg (lt_neg h), if_pos h, uuid_le_bytesAt]; rfl
  · rw [if_pos (lt_pos h), if_neg h]; rfl

theorem system_packed2_4 {s : RawStructure} (h : Fits s 0x1B) :
    (letAsStruct SystemPacked2_4.packed s.data : R _) = .ok
      ⟨⟨⟨byte s 4, byte s 5, byte s 6, byte s 7⟩, bytesAt s.data 4 16, byte s 0x18⟩,
        byte s 0x19, byte s 0x1A⟩ := by
  have h : 23 ≤ s.data.length := by unfold Fits at h; omega
  unfold SystemPacked2_4.packed SystemPacked2_1.packed SystemPacked2_0.packed
  packed_eval

theorem system_packed2_1 {s : RawStructure} (h : Fits s 0x19) :
    (letAsStruct SystemPacked2_1.packed s.data : R _) = .ok
      ⟨⟨byte s 4, byte s 5, byte s 6, byte s 7⟩, bytesAt s.data 4 16, byte s 0x18⟩ := by
  have h : 21 ≤ s.data.length := by unfold Fits at h; omega
  unfold SystemPacked2_1.packed SystemPacked2_0.packed
  packed_eval

theorem system_packed2_0 {s : RawStructure} (h : Fits s 0x08) :
    (letAsStruct SystemPacked2_0.packed s.data : R _) = .ok
      ⟨byte s 4, byte s 5, byte s 6, byte s 7⟩ := by
  have h : 4 ≤ s.data.length := by unfold Fits at h; omega
  unfold SystemPacked2_0.packed
  packed_eval

/-- C31: a long enough structure decodes to exactly the stored values. -/
theorem C31_decodes (s : RawStructure) (h : Fits s (systemLength s)) (v : System) :
    System.try_from s = .ok v ↔ SystemFields s v := by
  unfold System.try_from systemLength at *
  by_cases h1 : Since s 2 4
  · have h2 : Since s 2 1 := since_mono h1 (by decide)
    rw [if_neg (lt_neg h2), if_neg (lt_neg h1), system_packed2_4 (by simpa [h1] using h)]
    simp only [ok_bind, decode_uuid]
    decode_iff v
  by_cases h2 : Since s 2 1
  · rw [if_neg (lt_neg h2), if_pos (lt_pos h1), system_packed2_1 (by simpa [h1, h2] using h)]
    simp only [ok_bind, decode_uuid]
    decode_iff v
  · rw [if_pos (lt_pos h2), system_packed2_0 (by simpa [h1, h2] using h)]
    decode_iff v

/-- C31: a long enough structure can only be rejected for a reference to a missing string. -/
theorem C31_rejects (s : RawStructure) (h : Fits s (systemLength s)) :
    ErrOnly (BadRef s (if Since s 2 4 then [0x04, 0x05, 0x06, 0x07, 0x19, 0x1A]
      else [0x04, 0x05, 0x06, 0x07])) (System.try_from s) := by
  unfold System.try_from systemLength at *
  by_cases h1 : Since s 2 4
  · have h2 : Since s 2 1 := since_mono h1 (by decide)
    rw [if_pos h1, if_neg (lt_neg h2), if_neg (lt_neg h1),
      system_packed2_4 (by simpa [h1] using h)]
    err_only
  rw [if_neg h1]
  by_cases h2 : Since s 2 1
  · rw [if_neg (lt_neg h2), if_pos (lt_pos h1), system_packed2_1 (by simpa [h1, h2] using h)]
    err_only
  · rw [if_pos (lt_pos h2), system_packed2_0 (by simpa [h1, h2] using h)]
    err_only

/-- C31: in a shorter structure the decoder reads out of bounds. -/
theorem C31_short (s : RawStructure) (h : ¬ Fits s (systemLength s)) :
    System.try_from s = .ub := by
  unfold System.try_from systemLength Fits at *
  by_cases h1 : Since s 2 4
  · have h2 : Since s 2 1 := since_mono h1 (by decide)
    rw [if_pos h1] at h
    rw [if_neg (lt_neg h2), if_neg (lt_neg h1), letAsStruct_short (n := 23)
      (by unfold SystemPacked2_4.packed SystemPacked2_1.packed SystemPacked2_0.packed; consumes)
      (by omega), ub_bind]
  rw [if_neg h1] at h
  by_cases h2 : Since s 2 1
  · rw [if_pos h2] at h
    rw [if_neg (lt_neg h2), if_pos (lt_pos h1), letAsStruct_short (n := 21)
      (by unfold SystemPacked2_1.packed SystemPacked2_0.packed; consumes) (by omega), ub_bind]
  · rw [if_neg h2] at h
    rw [if_pos (lt_pos h2), letAsStruct_short (n := 4)
      (by unfold SystemPacked2_0.packed; consumes) (by omega), ub_bind]

/-- C31: the 16 stored bytes can be recovered from the UUID, at every version: reading it in the
stored order gives them back. -/
theorem C31_uuid_recoverable (s : RawStructure) :
    (List.range 16).map (fun i => byte s (0x08 + i)) =
      if Since s 2 6 then uuidOrder.map fun i => (storedUuid s).getD i 0 else storedUuid s := by
  unfold storedUuid
  split <;> rfl

/-- A version 2.6 structure (the UUID of the specification's example:
00112233-4455-6677-8899-AABBCCDDEEFF). -/
def exampleSystem : RawStructure where
  version := ⟨2, 6⟩
  info := .System
  length := 0x1B
  handle := 0x0100
  data := [1, 2, 0, 3, 0x33, 0x22, 0x11, 0x00, 0x55, 0x44, 0x77, 0x66, 0x88, 0x99, 0xAA, 0xBB,
    0xCC, 0xDD, 0xEE, 0xFF, 6, 0, 4]
  strings := ascii "LENOVO" ++ [0] ++ ascii "X1" ++ [0] ++ ascii "PF00" ++ [0] ++ ascii "TP" ++
    [0, 0]

example : Fits exampleSystem (systemLength exampleSystem) := by decide
example : System.try_from exampleSystem = .ok {
    handle := 0x0100
    manufacturer := ascii "LENOVO"
    product := ascii "X1"
    version := []
    serial := ascii "PF00"
    uuid := some [0x00, 0x11, 0x22, 0x33, 0x44, 0x55, 0x66, 0x77, 0x88, 0x99, 0xAA, 0xBB, 0xCC,
      0xDD, 0xEE, 0xFF]
    wakeup := some .Power_Switch
    sku := some []
    family := some (ascii "TP") } := by decide +kernel
example : (System.try_from { exampleSystem with version := ⟨2, 5⟩ }).okAnd (fun v =>
    v.uuid = some ((exampleSystem.data.drop 4).take 16)) = true := by decide +kernel
example : System.try_from { exampleSystem with strings := ascii "LENOVO" ++ [0, 0] } =
    .err (.InvalidStringIndex .System 0x0100 2) := by decide +kernel
example : ¬ Fits { exampleSystem with data := exampleSystem.data.take 22 }
    (systemLength exampleSystem) := by decide

end System

/-! ### C32 -/

section BaseBoard
open baseboard

/-- The fields of a type 2 structure of at least 0Eh bytes. Flag bits 5-7 are undefined. -/
structure BaseBoardFields (s : RawStructure) (v : BaseBoard) : Prop where
  handle : v.handle = s.handle
  manufacturer : Ref s 0x04 v.manufacturer
  product : Ref s 0x05 v.product
  version : Ref s 0x06 v.version
  serial : Ref s 0x07 v.serial
  asset : ∃ a, v.asset = some a ∧ Ref s 0x08 a
  feature_flags : ∃ f, v.feature_flags = some f ∧ f.bits.toNat = (byte s 0x09).toNat % 2 ^ 5
  location_in_chassis : ∃ a, v.location_in_chassis = some a ∧ Ref s 0x0A a
  chassis_handle : v.chassis_handle = some (word s 0x0B)
  board_type : v.board_type = some (BoardType.ofU8 (byte s 0x0D))

theorem flags_truncate (b : UInt8) :
    (BaseBoardFlags.fromBitsTruncate b).bits.toNat = b.toNat % 2 ^ 5 := by
  unfold BaseBoardFlags.fromBitsTruncate
  rw [UInt8.toNat_and]
  exact Nat.and_two_pow_sub_one_eq_mod _ 5

theorem flags_eq {b : UInt8} {f : BaseBoardFlags} :
    BaseBoardFlags.fromBitsTruncate b = f ↔ f.bits.toNat = b.toNat % 2 ^ 5 := by
  rw [← flags_truncate b]
  obtain ⟨f⟩ := f
  constructor
  · rintro h; rw [h]
  · intro h
    have h := UInt8.toNat_inj.1 h
    generalize BaseBoardFlags.fromBitsTruncate b = g at h
    obtain ⟨g⟩ := g
    simp only at h
    rw [h]

theorem baseboard_packed {s : RawStructure} (h : Fits s 0x0E) :
    (letAsStruct BaseBoardPacked.packed s.data : R _) = .ok
      ⟨byte s 4, byte s 5, byte s 6, byte s 7, byte s 8, byte s 9, byte s 0xA, word s 0xB,
        byte s 0xD⟩ := by
  have h : 10 ≤ s.data.length := by unfold Fits at h; omega
  unfold BaseBoardPacked.packed
  packed_eval

/-- C32, full statement: fields beyond the end of the structure are absent, no structure makes the
decoder read out of bounds. -/
def C32_full : Prop := ∀ s : RawStructure, Fits s 0x08 → BaseBoard.try_from s ≠ .ub

/-- C32: a structure of at least 0Eh bytes decodes to exactly the stored values. -/
theorem C32_decodes_partial (s : RawStructure) (h : Fits s 0x0E) (v : BaseBoard) :
    BaseBoard.try_from s = .ok v ↔ BaseBoardFields s v := by
  unfold BaseBoard.try_from
  rw [baseboard_packed h]
  have hl : 10 ≤ s.data.length := by unfold Fits at h; omega
  have h4 : s.data.length > 4 := by omega
  have h5 : s.data.length > 5 := by omega
  have h6 : s.data.length > 6 := by omega
  have h7 : s.data.length > 7 := by omega
  have h9 : s.data.length > 9 := by omega
  simp only [ok_bind, h4, h5, h6, h7, h9, if_true]
  constructor
  · simp only [bind_ok_iff, find_string_ok, pure_eq_ok, Res.ok.injEq, forall_exists_index,
      and_imp]
    intros
    subst_vars
    constructor <;> first | rfl | assumption | exact ⟨_, rfl, flags_truncate _⟩ |
      exact ⟨_, rfl, by assumption⟩
  · rintro ⟨h1, h2, h3, h4, h5, ⟨a, h6, h6'⟩, ⟨f, h7, h7'⟩, ⟨l, h8, h8'⟩, h9, h10⟩
    cases v
    simp only [Ref, ← find_string_ok, ← flags_eq] at *
    simp_all

/-- C32: such a structure can only be rejected for a reference to a missing string. -/
theorem C32_rejects (s : RawStructure) (h : Fits s 0x0E) :
    ErrOnly (BadRef s [0x04, 0x05, 0x06, 0x07, 0x08, 0x0A]) (BaseBoard.try_from s) := by
  unfold BaseBoard.try_from
  rw [baseboard_packed h]
  have hl : 10 ≤ s.data.length := by unfold Fits at h; omega
  have h4 : s.data.length > 4 := by omega
  have h5 : s.data.length > 5 := by omega
  have h6 : s.data.length > 6 := by omega
  have h7 : s.data.length > 7 := by omega
  have h9 : s.data.length > 9 := by omega
  simp only [ok_bind, h4, h5, h6, h7, h9, if_true]
  err_only

/-- C32: every shorter structure makes the decoder read out of bounds. -/
theorem C32_short (s : RawStructure) : BaseBoard.try_from s = .ub ↔ ¬ Fits s 0x0E := by
  constructor
  · intro hu h
    exact (C32_rejects s h).1.2 hu
  · intro h
    unfold BaseBoard.try_from
    unfold Fits at h
    rw [letAsStruct_short (n := 10) (by unfold BaseBoardPacked.packed; consumes) (by omega),
      ub_bind]

/-- A board with all fields. -/
def exampleBoard : RawStructure where
  version := ⟨2, 7⟩
  info := .BaseBoard
  length := 0x0F
  handle := 2
  data := [1, 2, 0, 3, 0, 0xE9, 3, 0x34, 0x12, 0x0A, 0]
  strings := ascii "Intel" ++ [0] ++ ascii "S2600" ++ [0] ++ ascii "Slot0" ++ [0, 0]

/-- C32, the full statement fails: a legal structure of eight bytes (the fields of version 2.0). -/
theorem C32_full_false : ¬ C32_full := fun h =>
  h { exampleBoard with data := [1, 2, 0, 3] } (by decide)
    ((C32_short _).2 (by decide))

example : Fits exampleBoard 0x0E := by decide
example : BaseBoard.try_from exampleBoard = .ok {
    handle := 2
    manufacturer := ascii "Intel"
    product := ascii "S2600"
    version := []
    serial := ascii "Slot0"
    asset := some []
    feature_flags := some ⟨0x09⟩
    location_in_chassis := some (ascii "Slot0")
    chassis_handle := some 0x1234
    board_type := some .MotherBoard } := by decide +kernel

end BaseBoard

/-! ### C39 -/

section PortConnector
open port_connector

/-- The fields of a type 8 structure. -/
structure PortConnectorFields (s : RawStructure) (v : PortConnector) : Prop where
  handle : v.handle = s.handle
  internal_reference_designator : Ref s 0x04 v.internal_reference_designator
  internal_connector_type : v.internal_connector_type = ConnectorType.ofU8 (byte s 0x05)
  external_reference_designator : Ref s 0x06 v.external_reference_designator
  external_connector_type : v.external_connector_type = ConnectorType.ofU8 (byte s 0x07)
  port_type : v.port_type = PortType.ofU8 (byte s 0x08)

theorem port_packed {s : RawStructure} (h : Fits s 0x09) :
    (letAsStruct PortConnectorPacked.packed s.data : R _) = .ok
      ⟨byte s 4, byte s 5, byte s 6, byte s 7, byte s 8⟩ := by
  have h : 5 ≤ s.data.length := by unfold Fits at h; omega
  unfold PortConnectorPacked.packed
  packed_eval

/-- C39: a structure of at least 9 bytes decodes to exactly the stored values. -/
theorem C39_decodes (s : RawStructure) (h : Fits s 0x09) (v : PortConnector) :
    PortConnector.try_from s = .ok v ↔ PortConnectorFields s v := by
  unfold PortConnector.try_from
  rw [port_packed h]
  decode_iff v

/-- C39: such a structure can only be rejected for a reference to a missing string. -/
theorem C39_rejects (s : RawStructure) (h : Fits s 0x09) :
    ErrOnly (BadRef s [0x04, 0x06]) (PortConnector.try_from s) := by
  unfold PortConnector.try_from
  rw [port_packed h]
  err_only

/-- C39: every shorter structure makes the decoder read out of bounds. -/
theorem C39_short (s : RawStructure) : PortConnector.try_from s = .ub ↔ ¬ Fits s 0x09 := by
  constructor
  · intro hu h
    exact (C39_rejects s h).1.2 hu
  · intro h
    unfold PortConnector.try_from
    unfold Fits at h
    rw [letAsStruct_short (n := 5) (by unfold PortConnectorPacked.packed; consumes) (by omega),
      ub_bind]

/-- An internal header brought out as a USB port. -/
def examplePort : RawStructure where
  version := ⟨2, 1⟩
  info := .PortConnector
  length := 9
  handle := 0x0808
  data := [1, 0, 2, 0x12, 0x10]
  strings := ascii "J1A1" ++ [0] ++ ascii "USB1" ++ [0, 0]

example : Fits examplePort 0x09 := by decide
example : PortConnector.try_from examplePort = .ok {
    handle := 0x0808
    internal_reference_designator := ascii "J1A1"
    internal_connector_type := .None
    external_reference_designator := ascii "USB1"
    external_connector_type := .AccessBus
    port_type := .Usb } := by decide +kernel
example : PortConnector.try_from { examplePort with strings := ascii "J1A1" ++ [0, 0] } =
    .err (.InvalidStringIndex .PortConnector 0x0808 2) := by decide +kernel

end PortConnector

end Dmi.Props
