import Verif.Model.S009
import Verif.Model.S015
/-!
# Model of the hand-written `PartialEq` and `Hash` implementations

A hasher is represented by the list of bytes written to it.
-/
namespace Dmi

/-- `Iterator::eq` (core) of two `Chunks`, at most `fuel` steps. -/
def Chunks.eqFuel : Nat → Chunks → Chunks → Bool
  | 0, _, _ => true
  | fuel + 1, a, b =>
    match a.next, b.next with
    | (none, _), (none, _) => true
    | (some x, a'), (some y, b') => if x = y then eqFuel fuel a' b' else false
    | _, _ => false

/-- `Iterator::eq` (core). Every chunk takes at least a byte, so the fuel suffices
(`eqFuel_iff` in `Props/Eq.lean`). -/
def Chunks.eq (a b : Chunks) : Bool := a.eqFuel (a.rest.length + 1) b

/-- `usize::to_ne_bytes` on a little-endian host. -/
def usizeBytes [Usize] (n : Nat) : Bytes := (List.range (Usize.bits / 8)).map fun i => UInt8.ofNat (n / 256 ^ i)

/-- `<[u8] as Hash>::hash` (core): the length, then the bytes. -/
def hashSlice [Usize] (b : Bytes) : Bytes := usizeBytes b.length ++ b

/-- `for_each(|c| c.hash(state))` over `Chunks`, at most `fuel` steps. -/
def Chunks.hashFuel [Usize] : Nat → Chunks → Bytes
  | 0, _ => []
  | fuel + 1, c =>
    match c.next with
    | (none, _) => []
    | (some x, c') => hashSlice x ++ hashFuel fuel c'

def Chunks.hash [Usize] (c : Chunks) : Bytes := c.hashFuel (c.rest.length + 1)

/-- `impl PartialEq for PeerDevices`, `src/structures/009_system_slots.rs` 851-855. -/
def system_slots.PeerDevices.eq (a b : system_slots.PeerDevices) : Bool := a.chunks.eq b.chunks
/-- `impl Hash for PeerDevices`, `src/structures/009_system_slots.rs` 857-861. -/
def system_slots.PeerDevices.hash [Usize] (a : system_slots.PeerDevices) : Bytes := a.chunks.hash

/-- `impl PartialEq for SupportedEventLogTypeDescriptors`,
`src/structures/015_system_event_log/mod.rs` 362-366. -/
def system_event_log.SupportedEventLogTypeDescriptors.eq
    (a b : system_event_log.SupportedEventLogTypeDescriptors) : Bool := a.chunks.eq b.chunks
/-- `impl Hash for SupportedEventLogTypeDescriptors`,
`src/structures/015_system_event_log/mod.rs` 368-372. -/
def system_event_log.SupportedEventLogTypeDescriptors.hash [Usize]
    (a : system_event_log.SupportedEventLogTypeDescriptors) : Bytes := a.chunks.hash

/-- `impl PartialEq for ContainedElements`, `src/structures/003_enclosure.rs` 439-445. -/
def enclosure.ContainedElements.eq (a b : enclosure.ContainedElements) : Bool :=
  a.chunks.eq b.chunks && a.count == b.count && a.record_length == b.record_length
/-- `impl Hash for ContainedElements`, `src/structures/003_enclosure.rs` 447-453. -/
def enclosure.ContainedElements.hash [Usize] (a : enclosure.ContainedElements) : Bytes :=
  a.chunks.hash ++ [a.count] ++ [a.record_length]

end Dmi
