import Verif.Model.Bitfield
import Verif.Host
/-!
# Specification of bit fields
-/
namespace Dmi.Spec
open bitfield

/-- The flag of bit `i` of `value`: its position, whether the bit is set, its description. -/
def flag (value : Nat) (l : Layout) (i : Nat) : Flag :=
  { position := i, is_set := value.testBit i, type_ := l.getD i .Unknown }

/-- Bit `i` is described as reserved for `d`. -/
def ReservedAs (l : Layout) (i : Nat) (d : String) : Prop := l[i]? = some (.Reserved d)

/-- `a..=b` is a maximal run of bits reserved for `d`. -/
def MaxRun (l : Layout) (d : String) (a b : Nat) : Prop :=
  a ≤ b ∧ (∀ i, a ≤ i → i ≤ b → ReservedAs l i d) ∧
  ¬ (0 < a ∧ ReservedAs l (a - 1) d) ∧ ¬ ReservedAs l (b + 1) d

/-- A run of one bit that directly follows a bit reserved for something else. -/
def Squeezed (l : Layout) (a b : Nat) : Prop :=
  a = b ∧ 0 < a ∧ ∃ d, ReservedAs l (a - 1) d

end Dmi.Spec
