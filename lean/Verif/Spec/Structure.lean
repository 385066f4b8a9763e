import Verif.Model.Lib
import Verif.Spec.Strings
import Verif.Host
/-!
# Vocabulary for the contents of one structure

Offsets count from the first byte of the structure, as in the tables of the SMBIOS
specification; the four header bytes are at 0-3 and `RawStructure.data` begins at 4.
-/
namespace Dmi.Spec

/-- Values stored at an offset. -/
def byte (s : RawStructure) (o : Nat) : UInt8 := byteAt s.data (o - 4)
def word (s : RawStructure) (o : Nat) : UInt16 := u16At s.data (o - 4)
def dword (s : RawStructure) (o : Nat) : UInt32 := u32At s.data (o - 4)
def qword (s : RawStructure) (o : Nat) : UInt64 := u64At s.data (o - 4)

/-- The string reference at offset `o` means `str`. -/
def Ref (s : RawStructure) (o : Nat) (str : Bytes) : Prop :=
  HasString s.strings (byte s o).toNat str

/-- The string reference at offset `o` means no string. -/
def Dangling (s : RawStructure) (o : Nat) : Prop := ∀ str, ¬ Ref s o str

/-- The formatted area, header included, has at least `n` bytes. -/
def Fits (s : RawStructure) (n : Nat) : Prop := n ≤ s.data.length + 4

instance (s : RawStructure) (n : Nat) : Decidable (Fits s n) := inferInstanceAs (Decidable (_ ≤ _))

/-- The length byte of the header is the length of the formatted area. True of every structure the
table iterator yields (`coherent_of_next_raw`). -/
def Coherent (s : RawStructure) : Prop := s.data.length + 4 = s.length.toNat

instance (s : RawStructure) : Decidable (Coherent s) := inferInstanceAs (Decidable (_ = _))

/-- The table has version `a.b` or later. -/
def Since (s : RawStructure) (a b : Nat) : Prop :=
  a < s.version.major.toNat ∨ a = s.version.major.toNat ∧ b ≤ s.version.minor.toNat

instance (s : RawStructure) (a b : Nat) : Decidable (Since s a b) :=
  inferInstanceAs (Decidable (_ ∨ _))

/-- `o` is `some` of something satisfying `p` when `c` holds, and `none` otherwise. -/
def When {α : Type} (c : Prop) (o : Option α) (p : α → Prop) : Prop :=
  (c ∧ ∃ a, o = some a ∧ p a) ∨ (¬ c ∧ o = none)

/-- `c` has exactly those bits of `w` whose positions are in `bits`. -/
def Kept (bits : List Nat) (w c : Nat) : Prop := ∀ i, c.testBit i = (w.testBit i && bits.contains i)

/-- The run neither panics nor reads out of bounds, and its errors satisfy `P`. -/
def ErrOnly {ε α : Type} (P : ε → Prop) (x : Res ε α) : Prop :=
  x.NoFault ∧ ∀ e, x = .err e → P e

/-- Starting from `s` the iterator yields the items `l` and is then in state `s'`. -/
inductive Yields {ε σ α : Type} (next : σ → Res ε (Option α × σ)) : σ → List α → σ → Prop
  | nil {s} : Yields next s [] s
  | cons {s s' a l s''} (h : next s = .ok (some a, s')) (t : Yields next s' l s'') :
      Yields next s (a :: l) s''

/-- The error for a dangling reference at one of the offsets `os`. -/
def BadRef (s : RawStructure) (os : List Nat) (e : MalformedStructureError) : Prop :=
  ∃ o ∈ os, Dangling s o ∧ e = .InvalidStringIndex s.info s.handle (byte s o)

end Dmi.Spec
