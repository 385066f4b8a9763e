import Verif.Model.S003
/-!
# Model of `src/structures/015_system_event_log/{mod,log_record_format}.rs`
(System Event Log, type 15)
-/
namespace Dmi.system_event_log

/-! ## `src/structures/015_system_event_log/log_record_format.rs` -/

/-- `PostResults`, `src/structures/015_system_event_log/log_record_format.rs` 170, conversion 472-476. -/
structure PostResults where
  bits : UInt64
deriving DecidableEq, Repr

/-- `SystemManagementType`, `src/structures/015_system_event_log/log_record_format.rs` 178-218. -/
inductive SystemManagementType where
  | OutOfRangeVoltagePlus2_5Num1
  | OutOfRangeVoltagePlus2_5Num2
  | OutOfRangeVoltagePlus3_3
  | OutOfRangeVoltagePlus5
  | OutOfRangeVoltageMinus5
  | OutOfRangeVoltagePlus12
  | OutOfRangeVoltageMinus12
  | OutOfRangeVoltageReserved (v : UInt8)
  | OutOfRangeTemperatureSystemBoard
  | OutOfRangeTemperatureProcessor1
  | OutOfRangeTemperatureProcessor2
  | OutOfRangeTemperatureProcessor3
  | OutOfRangeTemperatureProcessor4
  | OutOfRangeTemperatureReserved (v : UInt8)
  | OutOfRangeFan (v : UInt8)
  | Reserved (v : UInt32)
  | ChassisSecureSwitchActivated
  | OutOfRangeSystemManagementProbe (v : UInt16)
  | OemAssigned (v : UInt32)
deriving DecidableEq, Repr

/-- `impl From<u32> for SystemManagementType`, `src/structures/015_system_event_log/log_record_format.rs` 478-502. -/
def SystemManagementType.ofU32 (v : UInt32) : SystemManagementType :=
  if v = 0x00000000 then .OutOfRangeVoltagePlus2_5Num1
  else if v = 0x00000001 then .OutOfRangeVoltagePlus2_5Num2
  else if v = 0x00000002 then .OutOfRangeVoltagePlus3_3
  else if v = 0x00000003 then .OutOfRangeVoltagePlus5
  else if v = 0x00000004 then .OutOfRangeVoltageMinus5
  else if v = 0x00000005 then .OutOfRangeVoltagePlus12
  else if v = 0x00000006 then .OutOfRangeVoltageMinus12
  else if 0x00000007 ≤ v ∧ v ≤ 0x0000000F then .OutOfRangeVoltageReserved v.toUInt8
  else if v = 0x00000010 then .OutOfRangeTemperatureSystemBoard
  else if v = 0x00000011 then .OutOfRangeTemperatureProcessor1
  else if v = 0x00000012 then .OutOfRangeTemperatureProcessor2
  else if v = 0x00000013 then .OutOfRangeTemperatureProcessor3
  else if v = 0x00000014 then .OutOfRangeTemperatureProcessor4
  else if 0x00000015 ≤ v ∧ v ≤ 0x1F then .OutOfRangeTemperatureReserved v.toUInt8
  else if 0x00000020 ≤ v ∧ v ≤ 0x27 then .OutOfRangeFan (v &&& 0b111).toUInt8
  else if v = 0x00000030 then .ChassisSecureSwitchActivated
  else if 0x00010000 ≤ v ∧ v ≤ 0x0001FFFF then .OutOfRangeSystemManagementProbe v.toUInt16
  else if 0x80000000 ≤ v ∧ v ≤ 0xFFFFFFFF then .OemAssigned v
  else .Reserved v

/-- `VariableDataFormatType`, `src/structures/015_system_event_log/log_record_format.rs` 117-142. -/
inductive VariableDataFormatType where
  | None
  | Handle (handle : UInt16)
  | MultipleEvent (counter : UInt32)
  | MultipleEventHandle (handle : UInt16) (counter : UInt32)
  | PostResults (r : system_event_log.PostResults)
  | SystemManagementType (t : system_event_log.SystemManagementType)
  | MultipleEventSystemManagementType (t : system_event_log.SystemManagementType) (counter : UInt32)
  | Unused (v : UInt8)
  | OemAssigned (v : UInt8)
deriving DecidableEq, Repr

/-- `impl From<u8> for VariableDataFormatType`, `src/structures/015_system_event_log/log_record_format.rs` 340-357. -/
def VariableDataFormatType.ofU8 (byte : UInt8) : VariableDataFormatType :=
  if byte = 0x00 then .None
  else if byte = 0x01 then .Handle 0
  else if byte = 0x02 then .MultipleEvent 0
  else if byte = 0x03 then .MultipleEventHandle 0 0
  else if byte = 0x04 then .PostResults ⟨0⟩
  else if byte = 0x05 then .SystemManagementType (.ofU32 0xFFFF)
  else if byte = 0x06 then .MultipleEventSystemManagementType (.ofU32 0xFFFF) 0
  else if 0x07 ≤ byte ∧ byte ≤ 0x7F then .Unused byte
  else .OemAssigned byte

/-- `impl From<VariableDataFormatType> for u8`, `src/structures/015_system_event_log/log_record_format.rs` 358-372. -/
def VariableDataFormatType.toU8 : VariableDataFormatType → UInt8
  | .None => 0x00
  | .Handle _ => 0x01
  | .MultipleEvent _ => 0x02
  | .MultipleEventHandle _ _ => 0x03
  | .PostResults _ => 0x04
  | .SystemManagementType _ => 0x05
  | .MultipleEventSystemManagementType _ _ => 0x06
  | .Unused v => v
  | .OemAssigned v => v

/-- `impl From<EventLogType> for u8`, `src/structures/015_system_event_log/log_record_format.rs` 252-283. -/
def EventLogType.toU8 : EventLogType → UInt8
  | .Reserved byte => byte
  | .SingleBitEccMemoryError => 0x01
  | .MultiBitEccMemoryError => 0x02
  | .ParityMemoryError => 0x03
  | .BusTimeOut => 0x04
  | .IoChannelCheck => 0x05
  | .SoftwareNmi => 0x06
  | .PostMemoryResize => 0x07
  | .PostError => 0x08
  | .PciParityError => 0x09
  | .PciSystemError => 0x0a
  | .CpuFailure => 0x0b
  | .EisaFailSafeTimerTimeOut => 0x0c
  | .CorrectableMemoryLogDisabled => 0x0d
  | .LoggingDisabledForSpecificEventType => 0x0e
  | .SystemLimitExceeded => 0x10
  | .AsynchronousHardwareTimerExpired => 0x11
  | .SystemConfigurationInformation => 0x12
  | .HardDiskInformation => 0x13
  | .SystemReconfigured => 0x14
  | .UncorrectableCpuComplexError => 0x15
  | .LogAreaReset => 0x16
  | .SystemBoot => 0x17
  | .Unused v => v
  | .Available v => v
  | .EndOfLog => 0xFF

/-! ## `src/structures/015_system_event_log/mod.rs` -/

/-- `AccessMethod`, `src/structures/015_system_event_log/mod.rs` 59-74. -/
inductive AccessMethod where
  | IndexedIoOne8bitIndexOne8bitData (index data : UInt8)
  | IndexedIoTwo8bitIndexOne8bitData (index0 index1 data : UInt8)
  | IndexedIoOne16bitIndexOne8bitData (index : UInt16) (data : UInt8)
  | MemoryMappedPhysicaAddress (physical_address : UInt32)
  | GeneralPurposeNonVolatileData (gpnv_handle : UInt16)
  | Available (method : UInt8) (address : UInt32)
  | OemSpecific (method : UInt8) (address : UInt32)
deriving DecidableEq, Repr

/-- `AccessMethod::new`, `src/structures/015_system_event_log/mod.rs` 226-250. -/
def AccessMethod.new (method : UInt8) (address : UInt32) : AccessMethod :=
  let index_lsb := address.toUInt8
  let index_msb := (address >>> 8).toUInt8
  let data_lsb := (address >>> 16).toUInt8
  if method = 0x00 then .IndexedIoOne8bitIndexOne8bitData index_lsb data_lsb
  else if method = 0x01 then .IndexedIoTwo8bitIndexOne8bitData index_lsb index_msb data_lsb
  else if method = 0x02 then .IndexedIoOne16bitIndexOne8bitData (le16 [index_lsb, index_msb]) data_lsb
  else if method = 0x03 then .MemoryMappedPhysicaAddress address
  else if method = 0x04 then .GeneralPurposeNonVolatileData (le16 [index_lsb, index_msb])
  else if 0x80 ≤ method then .OemSpecific method address
  else .Available method address

/-- `AccessMethod::address`, `src/structures/015_system_event_log/mod.rs` 251-266. -/
def AccessMethod.address : AccessMethod → UInt32
  | .IndexedIoOne8bitIndexOne8bitData index data => le32 [index, 0, data, 0]
  | .IndexedIoTwo8bitIndexOne8bitData index0 index1 data => le32 [index0, index1, data, 0]
  | .IndexedIoOne16bitIndexOne8bitData index data =>
      le32 [index.toUInt8, (index >>> 8).toUInt8, data, 0]
  | .MemoryMappedPhysicaAddress physical_address => physical_address
  | .GeneralPurposeNonVolatileData gpnv_handle => gpnv_handle.toUInt32
  | .OemSpecific _ address => address
  | .Available _ address => address

/-- `LogStatus`, `src/structures/015_system_event_log/mod.rs` 81, conversion 328-332. -/
structure LogStatus where
  bits : UInt8
deriving DecidableEq, Repr

/-- `SupportedEventLogTypeDescriptors`, `src/structures/015_system_event_log/mod.rs` 141. -/
structure SupportedEventLogTypeDescriptors where
  chunks : Chunks
deriving DecidableEq, Repr

/-- `EventLogTypeDescriptor`, `src/structures/015_system_event_log/mod.rs` 149-152. -/
structure EventLogTypeDescriptor where
  log_type : EventLogType
  variable_data_format_type : VariableDataFormatType
deriving DecidableEq, Repr

/-- `SystemEventLog`, `src/structures/015_system_event_log/mod.rs` 30-53. -/
structure SystemEventLog where
  handle : UInt16
  log_area_length : UInt16
  log_header_start_offset : UInt16
  log_data_start_offset : UInt16
  access_method : AccessMethod
  log_status : LogStatus
  log_change_token : UInt32
  log_header_format : Option LogHeaderFormat
  supported_event_log_type_descriptors : Option SupportedEventLogTypeDescriptors
deriving DecidableEq, Repr

/-- `SupportedEventLogTypeDescriptors::new`, `src/structures/015_system_event_log/mod.rs` 358-360: `chunks(0)` panics. -/
def SupportedEventLogTypeDescriptors.new {ε : Type} (data : Bytes) (size : Nat) :
    Res ε SupportedEventLogTypeDescriptors :=
  if size = 0 then .panic else .ok ⟨{ rest := data, size }⟩

/-- The closure computing the descriptors, `src/structures/015_system_event_log/mod.rs` 194-199. The `usize` product of two bytes cannot
overflow. -/
def descriptors [Usize] (oc : Bool) (s : RawStructure) (number length : Option UInt8) :
    R (Option SupportedEventLogTypeDescriptors) :=
  match number, length with
  | some number, some length => do
    match ← s.get_slice oc 0x17 (number.toNat * length.toNat) with
    | some data => do
      let d ← SupportedEventLogTypeDescriptors.new data length.toNat
      pure (some d)
    | none => pure none
  | _, _ => pure none

/-- The last arm of `SystemEventLog::try_from`, `src/structures/015_system_event_log/mod.rs` 188-211. -/
def SystemEventLog.decode [Usize] (oc : Bool) (s : RawStructure) (number length : Option UInt8) :
    R SystemEventLog := do
  let method ← s.get8 oc 0x0A
  let address ← s.get32 oc 0x10
  let access_method := AccessMethod.new method address
  let supported_event_log_type_descriptors ← descriptors oc s number length
  pure {
    handle := s.handle
    log_area_length := ← s.get16 oc 0x04
    log_header_start_offset := ← s.get16 oc 0x06
    log_data_start_offset := ← s.get16 oc 0x08
    access_method
    log_status := ⟨← s.get8 oc 0x0B⟩
    log_change_token := ← s.get32 oc 0x0C
    log_header_format := (← (s.get8 oc 0x14).toOption).map LogHeaderFormat.ofU8
    supported_event_log_type_descriptors }

/-- `SystemEventLog::try_from`, `src/structures/015_system_event_log/mod.rs` 155-213. -/
def SystemEventLog.try_from [Usize] (oc : Bool) (s : RawStructure) : R SystemEventLog := do
  let number ← (s.get8 oc 0x15).toOption
  let length ← (s.get8 oc 0x16).toOption
  let len_gt_2_1 : Option Nat :=
    number.bind (fun x => length.map (fun y => 0x17 + x.toNat * y.toNat))
  let l := s.data.length + 4
  if s.version = .ofPair 2 0 ∧ l ≠ 0x14 then
    .err (.InvalidFormattedSectionLength .SystemEventLog s.handle "" 0x14)
  else if s.version.ge (.ofPair 2 1) ∧ some l ≠ len_gt_2_1 then
    match len_gt_2_1 with
    | some len =>
      .err (.InvalidFormattedSectionLength .SystemEventLog s.handle "17h+(x*y) = " (UInt8.ofNat len))
    | none => .err (.InvalidFormattedSectionLength .SystemEventLog s.handle "minimum of " 0)
  else SystemEventLog.decode oc s number length

/-- `SupportedEventLogTypeDescriptors::next`, `src/structures/015_system_event_log/mod.rs` 373-383: a chunk that does not have two
bytes gives `None`. -/
def SupportedEventLogTypeDescriptors.next (d : SupportedEventLogTypeDescriptors) :
    Option EventLogTypeDescriptor × SupportedEventLogTypeDescriptors :=
  match d.chunks.next with
  | (none, ch) => (none, ⟨ch⟩)
  | (some [a, b], ch) =>
    (some { log_type := EventLogType.ofU8 a
            variable_data_format_type := VariableDataFormatType.ofU8 b }, ⟨ch⟩)
  | (some _, ch) => (none, ⟨ch⟩)

/-- `impl From<[u8; 2]> for EventLogTypeDescriptor`, `src/structures/015_system_event_log/mod.rs` 385-392. -/
def EventLogTypeDescriptor.ofBytes (a b : UInt8) : EventLogTypeDescriptor :=
  { log_type := EventLogType.ofU8 a, variable_data_format_type := VariableDataFormatType.ofU8 b }

/-- `impl From<EventLogTypeDescriptor> for [u8; 2]`, `src/structures/015_system_event_log/mod.rs` 393-397. -/
def EventLogTypeDescriptor.toBytes (d : EventLogTypeDescriptor) : UInt8 × UInt8 :=
  (d.log_type.toU8, d.variable_data_format_type.toU8)

end Dmi.system_event_log
