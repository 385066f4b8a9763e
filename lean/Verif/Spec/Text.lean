import Verif.Model.Fmt
/-!
# Reading formatted text

Numbers denoted by texts of digits, and the variants of an enumeration (taken from the declaration
of the type).
-/
namespace Dmi.Fmt

/-- The number denoted by digits to base `b`. -/
def ofDigits (b : Nat) (l : List Nat) : Nat := l.foldl (fun a d => a * b + d) 0

/-- The digit of a character. -/
def charDigit (a c : Nat) : Nat := if c < 58 then c - 48 else c - a + 10

/-- The number denoted by a text of digits. -/
def value (a b : Nat) (t : Text) : Nat := ofDigits b (t.map (charDigit a))

/-- `t` is the numeral of `n` to base `b` with at least `w` digits: only digits of the base (`a` is the
character of ten), leading zeros only to reach `w` digits, value `n`. -/
def IsNumeral (a b w : Nat) (t : Text) (n : Nat) : Prop :=
  (∀ c ∈ t, ∃ d, d < b ∧ c = if d < 10 then 48 + d else a + (d - 10)) ∧
  w ≤ t.length ∧ (w < t.length → t.head? ≠ some 48) ∧ value a b t = n

/-- Decimal numerals of at least `w` digits. -/
abbrev IsDec := IsNumeral 97 10
/-- Hexadecimal numerals with small letters of at least `w` digits. -/
abbrev IsHexLower := IsNumeral 97 16
/-- Hexadecimal numerals with capital letters of at least `w` digits. -/
abbrev IsHexUpper := IsNumeral 65 16
/-- Binary numerals of at least `w` digits. -/
abbrev IsBin := IsNumeral 97 2

open Lean Elab Term Meta in
/-- `nullary! T` lists the variants of `T` without fields. -/
elab "nullary! " t:ident : term => do
  let n ← realizeGlobalConstNoOverload t
  let some (.inductInfo i) := (← getEnv).find? n | throwError "not an inductive type"
  let mut cs := #[]
  for c in i.ctors do
    let some (.ctorInfo ci) := (← getEnv).find? c | unreachable!
    if ci.numFields = 0 then cs := cs.push (Lean.mkConst c)
  mkListLit (Lean.mkConst n) cs.toList

/-- The letters (in lower case) and digits of a text. -/
def squash (t : Text) : Text :=
  t.filterMap fun c =>
    if 97 ≤ c ∧ c ≤ 122 ∨ 48 ≤ c ∧ c ≤ 57 then some c
    else if 65 ≤ c ∧ c ≤ 90 then some (c + 32) else none

end Dmi.Fmt
