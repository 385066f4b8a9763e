import Verif.Basic
import Verif.Model.Enums
/-!
# Model of `src/lib.rs` (everything except the dispatch to the decoders, see `Dispatch.lean`)
-/
namespace Dmi

/-! ## Entry points -/

/-- `EntryPointFormat`, `src/lib.rs` 94-97. -/
inductive EntryPointFormat where
  | V2
  | V3
deriving DecidableEq, Repr

/-- `EntryPointV2` (`repr(C, packed)`, 31 bytes), `src/lib.rs` 253-268. -/
structure EntryPointV2 where
  signature : UInt32
  checksum : UInt8
  len : UInt8
  major : UInt8
  minor : UInt8
  struct_max : UInt16
  revision : UInt8
  formatted : Bytes
  dmi_signature : Bytes
  dmi_checksum : UInt8
  smbios_len : UInt16
  smbios_address : UInt32
  smbios_count : UInt16
  bcd_revision : UInt8
deriving DecidableEq, Repr

/-- Memory layout of `EntryPointV2`, `src/lib.rs` 250-268. -/
def EntryPointV2.packed : Packed EntryPointV2 := do
  let signature ← .u32
  let checksum ← .u8
  let len ← .u8
  let major ← .u8
  let minor ← .u8
  let struct_max ← .u16
  let revision ← .u8
  let formatted ← .array 5
  let dmi_signature ← .array 5
  let dmi_checksum ← .u8
  let smbios_len ← .u16
  let smbios_address ← .u32
  let smbios_count ← .u16
  let bcd_revision ← .u8
  pure { signature, checksum, len, major, minor, struct_max, revision, formatted, dmi_signature,
         dmi_checksum, smbios_len, smbios_address, smbios_count, bcd_revision }

/-- `mem::size_of::<EntryPointV2>()`. -/
def EntryPointV2.size : Nat := 31

/-- `EntryPointV3` (`repr(C, packed)`, 24 bytes), `src/lib.rs` 276-287. -/
structure EntryPointV3 where
  signature : Bytes
  checksum : UInt8
  len : UInt8
  major : UInt8
  minor : UInt8
  docrev : UInt8
  revision : UInt8
  reserved : UInt8
  smbios_len_max : UInt32
  smbios_address : UInt64
deriving DecidableEq, Repr

/-- Memory layout of `EntryPointV3`, `src/lib.rs` 273-287. -/
def EntryPointV3.packed : Packed EntryPointV3 := do
  let signature ← .array 5
  let checksum ← .u8
  let len ← .u8
  let major ← .u8
  let minor ← .u8
  let docrev ← .u8
  let revision ← .u8
  let reserved ← .u8
  let smbios_len_max ← .u32
  let smbios_address ← .u64
  pure { signature, checksum, len, major, minor, docrev, revision, reserved, smbios_len_max,
         smbios_address }

/-- `mem::size_of::<EntryPointV3>()`. -/
def EntryPointV3.size : Nat := 24

/-- `SmbiosVersion`, `src/lib.rs` 290-294. -/
structure SmbiosVersion where
  major : UInt8
  minor : UInt8
deriving DecidableEq, Repr

/-- Derived `Ord` of `SmbiosVersion`: compare fields in declaration order, `src/lib.rs` 290-294. -/
def SmbiosVersion.cmp (v w : SmbiosVersion) : Ordering :=
  match compare v.major w.major with
  | .eq => compare v.minor w.minor
  | o => o

/-- `a < b`. -/
def SmbiosVersion.lt (v w : SmbiosVersion) : Bool := v.cmp w == .lt
/-- `a <= b`. -/
def SmbiosVersion.le (v w : SmbiosVersion) : Bool := v.cmp w != .gt
/-- `a > b`. -/
def SmbiosVersion.gt (v w : SmbiosVersion) : Bool := v.cmp w == .gt
/-- `a >= b`. -/
def SmbiosVersion.ge (v w : SmbiosVersion) : Bool := v.cmp w != .lt

/-- `impl From<(usize, usize)> for SmbiosVersion` (truncating casts), `src/lib.rs` 296-303. -/
def SmbiosVersion.ofPair (major minor : Nat) : SmbiosVersion :=
  { major := UInt8.ofNat major, minor := UInt8.ofNat minor }

/-- `EntryPoint`, `src/lib.rs` 100-103. -/
inductive EntryPoint where
  | V2 (p : EntryPointV2)
  | V3 (p : EntryPointV3)
deriving DecidableEq, Repr

namespace EntryPoint

/-- `src/lib.rs` 107-112. -/
def len : EntryPoint → UInt8
  | V2 p => p.len
  | V3 p => p.len
/-- `src/lib.rs` 113-118. -/
def major : EntryPoint → UInt8
  | V2 p => p.major
  | V3 p => p.major
/-- `src/lib.rs` 119-124. -/
def minor : EntryPoint → UInt8
  | V2 p => p.minor
  | V3 p => p.minor
/-- `src/lib.rs` 125-130. -/
def revision : EntryPoint → UInt8
  | V2 p => p.revision
  | V3 p => p.revision
/-- `src/lib.rs` 131-136. -/
def smbios_address : EntryPoint → UInt64
  | V2 p => p.smbios_address.toUInt64
  | V3 p => p.smbios_address
/-- `src/lib.rs` 137-142. -/
def smbios_len : EntryPoint → UInt32
  | V2 p => p.smbios_len.toUInt32
  | V3 p => p.smbios_len_max
/-- `src/lib.rs` 143-148. -/
def to_version (e : EntryPoint) : SmbiosVersion := { major := e.major, minor := e.minor }

end EntryPoint

/-- `InvalidEntryPointError`, `src/lib.rs` 307-316. -/
inductive InvalidEntryPointError where
  | NotFound
  | TooOldVersion (v : UInt8)
  | BadSize (v : UInt8)
  | BadChecksum (v : UInt8)
deriving DecidableEq, Repr

/-- `V2_SIG`, `src/lib.rs` 340: `_SM_`. -/
def V2_SIG : Bytes := [0x5f, 0x53, 0x4d, 0x5f]
/-- `V3_SIG`, `src/lib.rs` 341: `_SM3_`. -/
def V3_SIG : Bytes := [0x5f, 0x53, 0x4d, 0x33, 0x5f]

/-- The loop of `find_signature` over the enumerated chunks, `src/lib.rs` 343-351.
`idx * STRIDE` cannot overflow: it is at most the length of the slice. -/
def findSignatureLoop : List Bytes → Nat → Option (EntryPointFormat × Nat)
  | [], _ => none
  | chunk :: rest, idx =>
      if V2_SIG.isPrefixOf chunk then some (.V2, idx * 16)
      else if V3_SIG.isPrefixOf chunk then some (.V3, idx * 16)
      else findSignatureLoop rest (idx + 1)

/-- `find_signature`, `src/lib.rs` 338-352. -/
def findSignature (buffer : Bytes) : Option (EntryPointFormat × Nat) :=
  findSignatureLoop (chunks 16 buffer) 0

/-- `lib_ensure!`, `src/lib.rs` 79-85. -/
def libEnsure {ε : Type} (c : Bool) (e : ε) : Res ε Unit := if c then .ok () else .err e

/-- `EntryPoint::search`, `src/lib.rs` 189-240. -/
def EntryPoint.search (buffer : Bytes) : Res InvalidEntryPointError EntryPoint :=
  match findSignature buffer with
  | none => .err .NotFound
  | some (kind, start) => do
    let sub_buffer ← indexFrom buffer start
    let entry_point ← match kind with
      | .V2 => do
        libEnsure (sub_buffer.length ≥ EntryPointV2.size) (.BadSize (UInt8.ofNat sub_buffer.length))
        let p ← letAsStruct EntryPointV2.packed sub_buffer
        libEnsure (p.len.toNat ≥ EntryPointV2.size) (.BadSize p.len)
        pure (EntryPoint.V2 p)
      | .V3 => do
        libEnsure (sub_buffer.length ≥ EntryPointV3.size) (.BadSize (UInt8.ofNat sub_buffer.length))
        let p ← letAsStruct EntryPointV3.packed sub_buffer
        libEnsure (p.len.toNat ≥ EntryPointV3.size) (.BadSize p.len)
        pure (EntryPoint.V3 p)
    libEnsure (entry_point.major ≥ 2) (.TooOldVersion entry_point.major)
    libEnsure (UInt8.ofNat sub_buffer.length ≥ entry_point.len)
      (.BadSize (UInt8.ofNat sub_buffer.length))
    let body ← indexRange sub_buffer 0 entry_point.len.toNat
    let sum := body.foldl (fun s v => s + v) 0
    libEnsure (sum == 0) (.BadChecksum sum)
    pure entry_point

/-! ## Raw structures -/

/-- `MalformedStructureError`, `src/lib.rs` 393-405. `InvalidSlice` carries a
`core::array::TryFromSliceError`, which has no contents. -/
inductive MalformedStructureError where
  | BadSize (offset : UInt32) (length : UInt8)
  | UnterminatedStrings (offset : UInt32)
  | InvalidStringIndex (info : InfoType) (handle : UInt16) (index : UInt8)
  | InvalidSlice
  | InvalidFormattedSectionLength (info : InfoType) (handle : UInt16) (spec : String) (length : UInt8)
deriving DecidableEq, Repr

/-- Outcome of a fallible function of the crate working on structures. -/
abbrev R (α : Type) := Res MalformedStructureError α

/-- `RawStructure`, `src/lib.rs` 571-578. -/
structure RawStructure where
  version : SmbiosVersion
  info : InfoType
  length : UInt8
  handle : UInt16
  data : Bytes
  strings : Bytes
deriving DecidableEq, Repr

/-! ### `str::from_utf8` (core library)

The well-formed byte sequences of the Unicode standard, table 3-7, which is what
`core::str::from_utf8` accepts. `Proofs/Utf8.lean` proves that these are exactly the
concatenations of encoded Unicode scalar values. -/

/-- `lo ≤ b ≤ hi`. -/
def inRange (lo hi b : UInt8) : Bool := lo ≤ b && b ≤ hi

/-- Continuation byte. -/
def isCont (b : UInt8) : Bool := inRange 0x80 0xBF b

/-- Whether `core::str::from_utf8` accepts the bytes. -/
def utf8Valid : Bytes → Bool
  | [] => true
  | b0 :: r =>
    if b0 < 0x80 then utf8Valid r
    else if inRange 0xC2 0xDF b0 then
      match r with
      | b1 :: r => isCont b1 && utf8Valid r
      | _ => false
    else if inRange 0xE0 0xEF b0 then
      match r with
      | b1 :: b2 :: r =>
        (if b0 = 0xE0 then inRange 0xA0 0xBF b1
         else if b0 = 0xED then inRange 0x80 0x9F b1
         else isCont b1) && isCont b2 && utf8Valid r
      | _ => false
    else if inRange 0xF0 0xF4 b0 then
      match r with
      | b1 :: b2 :: b3 :: r =>
        (if b0 = 0xF0 then inRange 0x90 0xBF b1
         else if b0 = 0xF4 then inRange 0x80 0x8F b1
         else isCont b1) && isCont b2 && isCont b3 && utf8Valid r
      | _ => false
    else false

/-- `str::from_utf8(slice).ok()`. -/
def fromUtf8 (b : Bytes) : Option Str := if utf8Valid b then some b else none

/-! ### Strings -/

/-- `StructureStrings`, `src/lib.rs` 662-665. -/
structure StructureStrings where
  bytes : Bytes
  start : Nat
deriving DecidableEq, Repr

/-- `StructureStrings::new`, `src/lib.rs` 668-670. -/
def StructureStrings.new (bytes : Bytes) : StructureStrings := { bytes, start := 0 }

/-- `StructureStrings::next`, `src/lib.rs` 675-684. The `usize` addition is done in `Nat`:
`start + slice.len() + 1` is at most the slice length plus one. -/
def StructureStrings.next (s : StructureStrings) : Option Str × StructureStrings :=
  match getFrom s.bytes s.start with
  | none => (none, s)
  | some rest =>
    let slice := beforeNul rest
    if slice.isEmpty then (none, s)
    else (fromUtf8 slice, { s with start := s.start + (slice.length + 1) })

/-- `Iterator::nth` (core): `next` until the `n`-th item, giving up at the first `None`. -/
def StructureStrings.nth (s : StructureStrings) : Nat → Option Str
  | 0 => s.next.1
  | n + 1 =>
    match s.next with
    | (some _, s') => s'.nth n
    | (none, _) => none

/-- Items until the first `None`, at most `fuel` of them. -/
def StructureStrings.collectFuel : Nat → StructureStrings → List Str
  | 0, _ => []
  | fuel + 1, s =>
    match s.next with
    | (some a, s') => a :: collectFuel fuel s'
    | (none, _) => []

/-- `Iterator::collect`. Every item advances `start`, so `bytes.length + 1` calls suffice
(proved in `Proofs/Strings.lean`: `Collects next s s.collect`). -/
def StructureStrings.collect (s : StructureStrings) : List Str := s.collectFuel (s.bytes.length + 1)

/-- `Iterator::count`. -/
def StructureStrings.count (s : StructureStrings) : Nat := s.collect.length

namespace RawStructure

/-- `RawStructure::strings`, `src/lib.rs` 613-615. The private field of the same name is `strings`. -/
def stringsIter (r : RawStructure) : StructureStrings := .new r.strings

/-- `RawStructure::find_string`, `src/lib.rs` 623-631. -/
def find_string (r : RawStructure) (idx : UInt8) : R Str :=
  if idx = 0 then .ok []
  else Res.ofOption (.InvalidStringIndex r.info r.handle idx) (r.stringsIter.nth (idx.toNat - 1))

/-- The part common to all instances of `RawStructure::get`, `src/lib.rs` 643-649: the `size`
bytes at `offset`; `try_into::<[u8; size]>` fails unless the slice has exactly that length. -/
def getBytes [Usize] (oc : Bool) (r : RawStructure) (size offset : Nat) : R Bytes := do
  let start ← subUsize oc offset 4
  let stop ← addUsize oc start size
  let slice := (getRange r.data start stop).getD []
  if slice.length = size then .ok slice else .err .InvalidSlice

/-- `get::<u8>`, `src/lib.rs` 585-589, 643-649. -/
def get8 [Usize] (oc : Bool) (r : RawStructure) (offset : Nat) : R UInt8 := do
  let b ← r.getBytes oc 1 offset
  pure (UInt8.ofNat (leNat b))

/-- `get::<u16>`, `src/lib.rs` 590-594, 643-649. -/
def get16 [Usize] (oc : Bool) (r : RawStructure) (offset : Nat) : R UInt16 := do
  let b ← r.getBytes oc 2 offset
  pure (le16 b)

/-- `get::<u32>`, `src/lib.rs` 595-599, 643-649. -/
def get32 [Usize] (oc : Bool) (r : RawStructure) (offset : Nat) : R UInt32 := do
  let b ← r.getBytes oc 4 offset
  pure (le32 b)

/-- `get::<u64>`, `src/lib.rs` 600-604, 643-649. -/
def get64 [Usize] (oc : Bool) (r : RawStructure) (offset : Nat) : R UInt64 := do
  let b ← r.getBytes oc 8 offset
  pure (le64 b)

/-- `get::<u128>`, `src/lib.rs` 605-609, 643-649. -/
def get128 [Usize] (oc : Bool) (r : RawStructure) (offset : Nat) : R (BitVec 128) := do
  let b ← r.getBytes oc 16 offset
  pure (BitVec.ofNat 128 (leNat b))

/-- `RawStructure::get_slice`, `src/lib.rs` 651-653. -/
def get_slice [Usize] (oc : Bool) (r : RawStructure) (offset size : Nat) : R (Option Bytes) := do
  let start ← subUsize oc offset 4
  let start' ← subUsize oc offset 4
  let stop ← addUsize oc start' size
  pure (getRange r.data start stop)

/-- `RawStructure::get_string`, `src/lib.rs` 655-657. -/
def get_string [Usize] (oc : Bool) (r : RawStructure) (offset : Nat) : R Str := do
  let idx ← r.get8 oc offset
  r.find_string idx

end RawStructure

/-! ## Iterating the table -/

/-- `Structures`, `src/lib.rs` 357-362. -/
structure Structures where
  smbios_version : SmbiosVersion
  smbios_len : UInt32
  idx : UInt32
  buffer : Bytes
deriving DecidableEq, Repr

/-- `EntryPoint::structures`, `src/lib.rs` 164-171. -/
def EntryPoint.structures (e : EntryPoint) (buffer : Bytes) : Structures :=
  { smbios_version := e.to_version, smbios_len := e.smbios_len, idx := 0, buffer }

/-- `find_nulnul`, `src/lib.rs` 450-462: index of the second of the first two adjacent zero bytes.
The index loop is written as recursion on the remaining bytes. -/
def findNulNul : Bytes → Option Nat
  | [] => none
  | [_] => none
  | a :: b :: t => if a = 0 ∧ b = 0 then some 1 else (findNulNul (b :: t)).map (· + 1)

/-- `HeaderPacked`, `src/lib.rs` 563-567. -/
structure HeaderPacked where
  kind : UInt8
  len : UInt8
  handle : UInt16
deriving DecidableEq, Repr

/-- Memory layout of `HeaderPacked`, `src/lib.rs` 561-567. -/
def HeaderPacked.packed : Packed HeaderPacked := do
  let kind ← .u8
  let len ← .u8
  let handle ← .u16
  pure { kind, len, handle }

/-- A fault-only outcome: used for functions that return a value (here an `Option<Result<..>>`)
and can only panic or be undefined. -/
abbrev Fault (α : Type) := Res Empty α

/-- `Structures::next_raw`, `src/lib.rs` 524-557. Returns the item and the updated iterator.
`oc` is the overflow-check profile. -/
def Structures.next_raw (oc : Bool) (s : Structures) :
    Fault (Option (Except MalformedStructureError RawStructure) × Structures) := do
  let hdr_end ← addU32 oc s.idx 4
  if hdr_end > s.smbios_len then pure (none, s)
  else do
    let working ← indexFrom s.buffer s.idx.toNat
    let header ← letAsStruct HeaderPacked.packed working
    let strings_idx ← addU32 oc s.idx header.len.toUInt32
    if strings_idx ≥ s.smbios_len then pure (some (.error (.BadSize s.idx header.len)), s)
    else do
      let tail ← indexFrom s.buffer strings_idx.toNat
      match findNulNul tail with
      | none => pure (some (.error (.UnterminatedStrings s.idx)), s)
      | some terminator => do
        let strings_len := UInt32.ofNat (terminator + 1)
        let data_idx ← addU32 oc s.idx 4
        let data ← indexRange s.buffer data_idx.toNat strings_idx.toNat
        let strings_end ← addU32 oc strings_idx strings_len
        let strings ← indexRange s.buffer strings_idx.toNat strings_end.toNat
        let next_idx ← addU32 oc strings_idx strings_len
        pure (some (.ok {
          version := s.smbios_version
          info := InfoType.ofU8 header.kind
          length := header.len
          handle := header.handle
          data := data
          strings := strings }), { s with idx := next_idx })

end Dmi
