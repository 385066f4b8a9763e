import Verif.Model.Eq
/-!
# What is written to a hasher

A derived `Hash` writes the fields in the order of their declaration, and for an enumeration its discriminant
first. `Fed` is one value handed to the hasher and `Fed.bytes` the bytes by which it arrives there, as the
provided methods of `Hasher` (core) write it on a little-endian host.
-/
namespace Dmi

/-- One value handed to a hasher. -/
inductive Fed where
  /-- `write_u8`, also for `bool` -/
  | u8 (n : UInt8)
  | u16 (n : UInt16)
  | u32 (n : UInt32)
  | u64 (n : UInt64)
  | usize (n : Nat)
  /-- the discriminant of an enumeration, an `isize` -/
  | tag (n : UInt16)
  /-- `write_str` -/
  | str (s : Str)
  /-- a slice or an array of bytes -/
  | slice (b : Bytes)
  /-- `uuid::Uuid` -/
  | uuid (b : Bytes)
  /-- the chunks of an iterator one after the other -/
  | chunks (c : Chunks)

/-- The bytes of a number, lowest first. -/
def leBytes (k n : Nat) : Bytes := (List.range k).map fun i => UInt8.ofNat (n / 256 ^ i)

/-- A string is followed by the byte FFh, a slice follows its length. Whether the length (16) of a UUID is
written depends on the version of the crate `uuid`: `pre` is what is written before its bytes. -/
def Fed.bytes [Usize] (pre : Bytes) : Fed → Bytes
  | .u8 n => [n]
  | .u16 n => leBytes 2 n.toNat
  | .u32 n => leBytes 4 n.toNat
  | .u64 n => leBytes 8 n.toNat
  | .usize n => usizeBytes n
  | .tag n => usizeBytes n.toNat
  | .str s => s ++ [0xFF]
  | .slice b => hashSlice b
  | .uuid b => pre ++ b
  | .chunks c => c.hash

def feed [Usize] (pre : Bytes) (l : List Fed) : Bytes := l.flatMap (Fed.bytes pre)

/-- The derived `Hash` of `Option` (core). -/
def Fed.opt {α : Type} (f : α → List Fed) : Option α → List Fed
  | none => [.tag 0]
  | some a => .tag 1 :: f a

/-- `bool` is written as 0 or 1. -/
def Fed.bool (b : Bool) : Fed := .u8 (if b then 1 else 0)

end Dmi
