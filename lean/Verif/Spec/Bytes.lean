import Verif.Basic
import Verif.Host
/-!
# Specification vocabulary: values at byte offsets

Independent of the readers of the model: a value is described by its absolute offset and width.
-/
namespace Dmi.Spec

/-- The byte at offset `o` (0 outside the buffer; statements bound the offsets separately). -/
def byteAt (b : Bytes) (o : Nat) : UInt8 := b.getD o 0

/-- The little-endian number made of the `w` bytes at offset `o`. -/
def leAt (b : Bytes) (o : Nat) : Nat → Nat
  | 0 => 0
  | w + 1 => (byteAt b o).toNat + 256 * leAt b (o + 1) w

def u16At (b : Bytes) (o : Nat) : UInt16 := .ofNat (leAt b o 2)
def u32At (b : Bytes) (o : Nat) : UInt32 := .ofNat (leAt b o 4)
def u64At (b : Bytes) (o : Nat) : UInt64 := .ofNat (leAt b o 8)

/-- The `w` bytes at offset `o`. -/
def bytesAt (b : Bytes) (o w : Nat) : Bytes := (List.range w).map fun i => byteAt b (o + i)

/-- The little-endian encoding of `n` in `w` bytes. -/
def leBytes : Nat → Nat → Bytes
  | 0, _ => []
  | w + 1, n => UInt8.ofNat n :: leBytes w (n / 256)

/-- Encodings of machine integers. -/
def enc16 (n : UInt16) : Bytes := leBytes 2 n.toNat
def enc32 (n : UInt32) : Bytes := leBytes 4 n.toNat
def enc64 (n : UInt64) : Bytes := leBytes 8 n.toNat

/-- ASCII bytes of a literal. -/
def ascii (s : String) : Bytes := s.toList.map fun c => UInt8.ofNat c.toNat

/-- `sig` occurs in `b` at offset `o`. -/
def OccursAt (b : Bytes) (o : Nat) (sig : Bytes) : Prop :=
  ∃ pre post, b = pre ++ sig ++ post ∧ pre.length = o

end Dmi.Spec
