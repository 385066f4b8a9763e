import Verif.Spec.Structure
import Verif.Spec.Table
/-!
# What a decoded structure can be

Vocabulary for describing all values that some structure of some table decodes to, and a way to
write structures: texts are stored one after the other, an empty one as a placeholder no
reference points to.
-/
namespace Dmi.Spec

/-- Version `v` is `a.b` or later. -/
def From (v : SmbiosVersion) (a b : Nat) : Prop :=
  a < v.major.toNat ∨ a = v.major.toNat ∧ b ≤ v.minor.toNat

instance (v : SmbiosVersion) (a b : Nat) : Decidable (From v a b) :=
  inferInstanceAs (Decidable (_ ∨ _))

/-- What a string reference can stand for: no string or one that may be stored. -/
def Storable (t : Bytes) : Prop := t = [] ∨ GoodStr t

/-- A field that is present exactly if `c` holds, with a value satisfying `p`. -/
def Present {α : Type} (c : Prop) (p : α → Prop) (o : Option α) : Prop :=
  (o.isSome = true ↔ c) ∧ ∀ a, o = some a → p a

/-- The value of some code. -/
def Coded {κ α : Type} (dec : κ → α) (x : α) : Prop := ∃ b, dec b = x

/-- No bits but those at the given positions are set. -/
def OnlyBits (bits : List Nat) (n : Nat) : Prop := ∀ i, n.testBit i = true → i ∈ bits

/-- A field that can have any value. -/
def Any {α : Type} (_ : α) : Prop := True

/-- A structure in a table of version `ver` is reported as `v`. -/
def ReportedAt (oc : Bool) (ver : SmbiosVersion) (v : Structure) : Prop :=
  ∃ p : Piece, p.WF ∧ decodeStructure oc (p.raw ver) = .ok v

/-! ### Writing -/

/-- The string area with the texts `ts`, each at its position, empty ones as a dash. -/
def textArea (ts : List Bytes) : Bytes :=
  encodeStrings (ts.map fun t => if t = [] then [0x2D] else t)

/-- The reference to the text `t` stored at position `i`, from 1. -/
def refTo (i : UInt8) (t : Bytes) : UInt8 := if t = [] then 0 else i

end Dmi.Spec
