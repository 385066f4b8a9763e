import Verif.Model.Dispatch
/-!
# Work done by the loops of `src/lib.rs`

The functions that loop over bytes, with a count of what their loops look at. Each definition is the one
of `Model/Lib` or `Model/Dispatch` with a number added to its result; `Props/Cost.lean` proves that the
results are the same. The decoders look at a structure through `get`, which takes no loop, and `find_string`.
-/
namespace Dmi

/-- `find_nulnul`, `src/lib.rs` 450-462, with the number of executions of the loop body. -/
def findNulNulC : Bytes → Option Nat × Nat
  | [] => (none, 0)
  | [_] => (none, 1)
  | a :: b :: t =>
    if a = 0 ∧ b = 0 then (some 1, 1)
    else
      let (r, c) := findNulNulC (b :: t)
      (r.map (· + 1), c + 1)

/-- `Structures::next_raw`, `src/lib.rs` 524-557, with the number of executions of the loop body of
`find_nulnul`. -/
def Structures.next_rawC (oc : Bool) (s : Structures) :
    Fault ((Option (Except MalformedStructureError RawStructure) × Structures) × Nat) := do
  let hdr_end ← addU32 oc s.idx 4
  if hdr_end > s.smbios_len then pure ((none, s), 0)
  else do
    let working ← indexFrom s.buffer s.idx.toNat
    let header ← letAsStruct HeaderPacked.packed working
    let strings_idx ← addU32 oc s.idx header.len.toUInt32
    if strings_idx ≥ s.smbios_len then pure ((some (.error (.BadSize s.idx header.len)), s), 0)
    else do
      let tail ← indexFrom s.buffer strings_idx.toNat
      match findNulNulC tail with
      | (none, c) => pure ((some (.error (.UnterminatedStrings s.idx)), s), c)
      | (some terminator, c) => do
        let strings_len := UInt32.ofNat (terminator + 1)
        let data_idx ← addU32 oc s.idx 4
        let data ← indexRange s.buffer data_idx.toNat strings_idx.toNat
        let strings_end ← addU32 oc strings_idx strings_len
        let strings ← indexRange s.buffer strings_idx.toNat strings_end.toNat
        let next_idx ← addU32 oc strings_idx strings_len
        pure ((some (.ok {
          version := s.smbios_version
          info := InfoType.ofU8 header.kind
          length := header.len
          handle := header.handle
          data := data
          strings := strings }), { s with idx := next_idx }), c)

/-- `Structures::next`, `src/lib.rs` 467-520, with the same number. -/
def Structures.nextC [Usize] (oc : Bool) (s : Structures) :
    Fault ((Option (Except MalformedStructureError Structure) × Structures) × Nat) := do
  let ((o, s), c) ← s.next_rawC oc
  match o with
  | none => pure ((none, s), c)
  | some (.error e) => pure ((some (.error e), { s with smbios_len := s.idx }), c)
  | some (.ok structure_) => do
    let s := if s.smbios_version.major ≥ 3 ∧ structure_.info = .End
      then { s with smbios_len := s.idx } else s
    let item ← (decodeStructure oc structure_).toItem
    pure ((some item, s), c)

/-- `StructureStrings::next`, `src/lib.rs` 675-684, with the number of bytes looked at: by the lazy `split`
those of the string and the separator, if there is one, and by `from_utf8` those of the string. -/
def StructureStrings.nextC (s : StructureStrings) : (Option Str × StructureStrings) × Nat :=
  match getFrom s.bytes s.start with
  | none => ((none, s), 0)
  | some rest =>
    let slice := beforeNul rest
    let split := min (slice.length + 1) rest.length
    if slice.isEmpty then ((none, s), split)
    else ((fromUtf8 slice, { s with start := s.start + (slice.length + 1) }), split + slice.length)

/-- `Iterator::nth` (core), with the number of bytes looked at. -/
def StructureStrings.nthC (s : StructureStrings) : Nat → Option Str × Nat
  | 0 => (s.nextC.1.1, s.nextC.2)
  | n + 1 =>
    match s.nextC with
    | ((some _, s'), c) =>
      let (r, d) := s'.nthC n
      (r, c + d)
    | ((none, _), c) => (none, c)

/-- `RawStructure::find_string`, `src/lib.rs` 623-631, with the number of bytes looked at. -/
def RawStructure.find_stringC (r : RawStructure) (idx : UInt8) : R Str × Nat :=
  if idx = 0 then (.ok [], 0)
  else
    let (o, c) := r.stringsIter.nthC (idx.toNat - 1)
    (Res.ofOption (.InvalidStringIndex r.info r.handle idx) o, c)

/-- `InstallableLanguages::next`, `src/structures/013_bios_language.rs` 82-86, with the number of bytes that
`find_string` looks at. -/
def bios_language.InstallableLanguages.nextC (oc : Bool) (i : bios_language.InstallableLanguages) :
    Fault ((Option Str × bios_language.InstallableLanguages) × Nat) := do
  let index' ← addU8 oc i.index 1
  match i.structure_.find_stringC i.index with
  | (.ok s, c) => pure ((some s, { i with index := index' }), c)
  | (.err _, c) => pure ((none, { i with index := index' }), c)
  | (.panic, _) => .panic
  | (.ub, _) => .ub

/-- `find_signature`, `src/lib.rs` 338-352, with the number of executions of the loop body. -/
def findSignatureLoopC : List Bytes → Nat → Option (EntryPointFormat × Nat) × Nat
  | [], _ => (none, 0)
  | chunk :: rest, idx =>
      if V2_SIG.isPrefixOf chunk then (some (.V2, idx * 16), 1)
      else if V3_SIG.isPrefixOf chunk then (some (.V3, idx * 16), 1)
      else
        let (r, c) := findSignatureLoopC rest (idx + 1)
        (r, c + 1)

end Dmi
