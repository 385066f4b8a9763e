import Verif.Model.Dispatch
import Verif.Model.S009
/-!
# Big-endian hosts

`let_as_struct!` (`src/lib.rs` 69-76) and `read_bytes` (`src/structures/003_enclosure.rs` 504-512) copy
bytes of the table into integers of the host without converting them, whereas the table is
little-endian; `get` (`src/lib.rs` 643-649), `get_word` etc. convert (`from_le_bytes`). The rest of the
model is that of a little-endian host. On a big-endian host an integer read without conversion is
what a little-endian host reads from the same bytes in reverse order. That is how this file models such
a host: the functions are those of the little-endian model, applied to the bytes with these integers
reversed. `u8` and `[u8; n]` are the same on all hosts.
-/
namespace Dmi.BigEndian

/-- The `w` bytes at position `o` in reverse order. -/
def reverseAt (b : Bytes) (o w : Nat) : Bytes := b.take o ++ (((b.drop o).take w).reverse ++ b.drop (o + w))

/-- The integers at the given positions and widths in reverse order. -/
def reverse (words : List (Nat × Nat)) (b : Bytes) : Bytes :=
  words.foldl (fun b p => reverseAt b p.1 p.2) b

/-- The integers of `EntryPointV2` wider than a byte, `src/lib.rs` 250-268. -/
def v2Words : List (Nat × Nat) := [(0x00, 4), (0x08, 2), (0x16, 2), (0x18, 4), (0x1C, 2)]

/-- The integers of `EntryPointV3` wider than a byte, `src/lib.rs` 273-287. -/
def v3Words : List (Nat × Nat) := [(0x0C, 4), (0x10, 8)]

/-- `EntryPoint::search`, `src/lib.rs` 189-240, on a big-endian host. -/
def search (buffer : Bytes) : Res InvalidEntryPointError EntryPoint :=
  match findSignature buffer with
  | none => .err .NotFound
  | some (kind, start) => do
    let sub_buffer ← indexFrom buffer start
    let entry_point ← match kind with
      | .V2 => do
        libEnsure (sub_buffer.length ≥ EntryPointV2.size) (.BadSize (UInt8.ofNat sub_buffer.length))
        let p ← letAsStruct EntryPointV2.packed (reverse v2Words sub_buffer)
        libEnsure (p.len.toNat ≥ EntryPointV2.size) (.BadSize p.len)
        pure (EntryPoint.V2 p)
      | .V3 => do
        libEnsure (sub_buffer.length ≥ EntryPointV3.size) (.BadSize (UInt8.ofNat sub_buffer.length))
        let p ← letAsStruct EntryPointV3.packed (reverse v3Words sub_buffer)
        libEnsure (p.len.toNat ≥ EntryPointV3.size) (.BadSize p.len)
        pure (EntryPoint.V3 p)
    libEnsure (entry_point.major ≥ 2) (.TooOldVersion entry_point.major)
    libEnsure (UInt8.ofNat sub_buffer.length ≥ entry_point.len)
      (.BadSize (UInt8.ofNat sub_buffer.length))
    let body ← indexRange sub_buffer 0 entry_point.len.toNat
    let sum := body.foldl (fun s v => s + v) 0
    libEnsure (sum == 0) (.BadChecksum sum)
    pure entry_point

/-- The integers wider than a byte which the decoder of a structure copies without conversion: offset
from the start of the structure, and width. These are the `u16`, `u32` and `u64` fields of the packed
structs (`src/structures/000_bios.rs` 82-126, `002_baseboard.rs` 106-120, `004_processor.rs` 472-633,
`007_cache.rs` 171-213) and `oem_defined` of an enclosure (`003_enclosure.rs` 244); the packed structs of
types 1, 8 and 13 have none. The packed structs of earlier versions are beginnings of the last one. -/
def nativeWords : InfoType → List (Nat × Nat)
  | .Bios => [(0x06, 2), (0x0A, 8), (0x18, 2)]
  | .BaseBoard => [(0x0B, 2)]
  | .Enclosure => [(0x0D, 4)]
  | .Processor => [(0x08, 8), (0x12, 2), (0x14, 2), (0x16, 2), (0x1A, 2), (0x1C, 2), (0x1E, 2),
      (0x26, 2), (0x28, 2), (0x2A, 2), (0x2C, 2), (0x2E, 2)]
  | .Cache => [(0x05, 2), (0x07, 2), (0x09, 2), (0x0B, 2), (0x0D, 2), (0x13, 4), (0x17, 4)]
  | _ => []

/-- A `u16` of the header read in the wrong order. -/
def swap16 (w : UInt16) : UInt16 := le16 [(w >>> 8).toUInt8, w.toUInt8]

/-- The structure as the decoders of a big-endian host see it: the handle comes from `HeaderPacked`
(`src/lib.rs` 561-567). -/
def seen (s : RawStructure) : RawStructure :=
  { s with
    handle := swap16 s.handle
    data := reverse ((nativeWords s.info).map fun p => (p.1 - 4, p.2)) s.data }

/-- `Structures::next`, `src/lib.rs` 467-520, on a big-endian host. `kind` and `len` of the header are
bytes, so the structures are the same, up to the handle. -/
def next [Usize] (oc : Bool) (s : Structures) :
    Fault (Option (Except MalformedStructureError Structure) × Structures) := do
  let (o, s) ← s.next_raw oc
  match o with
  | none => pure (none, s)
  | some (.error e) => pure (some (.error e), { s with smbios_len := s.idx })
  | some (.ok structure_) => do
    let s := if s.smbios_version.major ≥ 3 ∧ structure_.info = .End
      then { s with smbios_len := s.idx } else s
    let item ← (decodeStructure oc (seen structure_)).toItem
    pure (some item, s)

/-- `impl From<&[u8]> for Device`, `src/structures/009_system_slots.rs` 798-808, on a big-endian host. -/
def device (data : Bytes) : Fault system_slots.Device := system_slots.Device.ofSlice (reverseAt data 0 2)

/-- `impl From<&Device> for [u8; 5]`, `src/structures/009_system_slots.rs` 809-820: `to_ne_bytes` on a
big-endian host. -/
def deviceBytes (d : system_slots.Device) : Bytes :=
  [(d.segment_group_number >>> 8).toUInt8, d.segment_group_number.toUInt8, d.bus_number,
   d.device_and_function_number.toU8, d.data_bus_width]

end Dmi.BigEndian
