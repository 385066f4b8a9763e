import Verif.Spec.Bytes
/-!
# Specification of string areas

DSP0134 clause 6.1.3: text strings follow the formatted area; each is terminated by a zero byte and
the set is terminated by an additional zero byte. A string is referred to by its position, from 1;
0 means that there is no string.
-/
namespace Dmi.Spec

/-- Well-formed UTF-8: the encoding of some sequence of Unicode scalar values. -/
def IsText (s : Bytes) : Prop := ∃ cs : List Char, s = cs.flatMap String.utf8EncodeChar

/-- A string as it may be stored in a string area. -/
def GoodStr (s : Bytes) : Prop := s ≠ [] ∧ (0 : UInt8) ∉ s ∧ IsText s

/-- The area begins with the terminated strings `l`; `rest` is what follows them. The end of the area
counts as a terminator. -/
def Leading (area : Bytes) (l : List Bytes) (rest : Bytes) : Prop :=
  area ++ [0] = l.flatMap (· ++ [0]) ++ rest ∧ ∀ s ∈ l, GoodStr s

/-- `l` is the longest run of strings the area begins with. -/
def IsStringList (area : Bytes) (l : List Bytes) : Prop :=
  ∃ rest, Leading area l rest ∧ ∀ s rest', GoodStr s → rest ≠ s ++ [0] ++ rest'

/-- Reference `i` into the area means the string `s`. -/
def HasString (area : Bytes) (i : Nat) (s : Bytes) : Prop :=
  (i = 0 ∧ s = []) ∨ (0 < i ∧ ∃ l rest, Leading area l rest ∧ l.length = i ∧ l.getLast? = some s)

/-- The string area encoding the strings `l`. -/
def encodeStrings : List Bytes → Bytes
  | [] => [0, 0]
  | l => l.flatMap (· ++ [0]) ++ [0]

end Dmi.Spec
