import Verif.Model.Dispatch
/-!
# The casts from `u32` to `usize`

`Structures.next_raw` uses a `u32` as an index without conversion, which is exact on hosts whose `usize` has 32
bits or more. Here the four casts `u32 as usize` keep only the bits that a `usize` has, as they do on a host
with a narrower `usize`. Nothing else is different.
-/
namespace Dmi.Narrow

/-- The cast `u32 as usize`, as in `self.idx as usize`, `src/lib.rs` 529. -/
def castUsize [Usize] (x : UInt32) : Nat := x.toNat % 2 ^ Usize.bits

/-- `Structures::next_raw`, `src/lib.rs` 524-557, with the casts of lines 529, 537, 550 and 551. -/
def next_raw [Usize] (oc : Bool) (s : Structures) :
    Fault (Option (Except MalformedStructureError RawStructure) × Structures) := do
  let hdr_end ← addU32 oc s.idx 4
  if hdr_end > s.smbios_len then pure (none, s)
  else do
    let working ← indexFrom s.buffer (castUsize s.idx)
    let header ← letAsStruct HeaderPacked.packed working
    let strings_idx ← addU32 oc s.idx header.len.toUInt32
    if strings_idx ≥ s.smbios_len then pure (some (.error (.BadSize s.idx header.len)), s)
    else do
      let tail ← indexFrom s.buffer (castUsize strings_idx)
      match findNulNul tail with
      | none => pure (some (.error (.UnterminatedStrings s.idx)), s)
      | some terminator => do
        let strings_len := UInt32.ofNat (terminator + 1)
        let data_idx ← addU32 oc s.idx 4
        let data ← indexRange s.buffer (castUsize data_idx) (castUsize strings_idx)
        let strings_end ← addU32 oc strings_idx strings_len
        let strings ← indexRange s.buffer (castUsize strings_idx) (castUsize strings_end)
        let next_idx ← addU32 oc strings_idx strings_len
        pure (some (.ok {
          version := s.smbios_version
          info := InfoType.ofU8 header.kind
          length := header.len
          handle := header.handle
          data := data
          strings := strings }), { s with idx := next_idx })

/-- `Structures::next`, `src/lib.rs` 467-520. -/
def next [Usize] (oc : Bool) (s : Structures) :
    Fault (Option (Except MalformedStructureError Structure) × Structures) := do
  let (o, s) ← next_raw oc s
  match o with
  | none => pure (none, s)
  | some (.error e) => pure (some (.error e), { s with smbios_len := s.idx })
  | some (.ok structure_) => do
    let s := if s.smbios_version.major ≥ 3 ∧ structure_.info = .End
      then { s with smbios_len := s.idx } else s
    let item ← (decodeStructure oc structure_).toItem
    pure (some item, s)

end Dmi.Narrow
