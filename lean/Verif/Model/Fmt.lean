import Lean.Elab.Term
import Lean.Meta.AppBuilder
import Verif.Basic
/-!
# `core::fmt`

The parts of Rust's formatting machinery used by the `Display` implementations of the crate.
A formatter that never fails is modelled by the text it receives: the bytes of its UTF-8 encoding, as
natural numbers.
-/
namespace Dmi

/-- Formatted text: the bytes of its UTF-8 encoding. -/
abbrev Text := List Nat

open Lean Elab Term in
/-- `txt! "…"` is the text of the literal (a list of numerals, so that the kernel compares texts
without unfolding `String`). -/
elab "txt! " s:str : term => do
  let cs := s.getString.toUTF8.toList.map fun c => mkNatLit c.toNat
  return cs.foldr (fun c l => mkApp3 (mkConst ``List.cons [Level.zero]) (mkConst ``Nat) c l)
    (mkApp (mkConst ``List.nil [Level.zero]) (mkConst ``Nat))

open Lean Elab Term Meta in
/-- `ctorNames! T` lists the names of all variants of `T`, in order (the texts printed by a derived
`Debug`). -/
elab "ctorNames! " t:ident : term => do
  let n ← realizeGlobalConstNoOverload t
  let some (.inductInfo i) := (← getEnv).find? n | throwError "not an inductive type"
  let names ← i.ctors.mapM fun c => mkListLit (Lean.mkConst ``Nat)
    (c.getString!.toUTF8.toList.map fun b => mkNatLit b.toNat)
  mkListLit (mkApp (Lean.mkConst ``List [.zero]) (Lean.mkConst ``Nat)) names

namespace Fmt

/-- The digits of `n` to base `b`, most significant first; `fuel` bounds their number minus one. -/
def digitsAux (b : Nat) : Nat → Nat → List Nat
  | 0, n => [n]
  | fuel + 1, n => if n < b then [n] else digitsAux b fuel (n / b) ++ [n % b]

/-- The digits of `n` to base `b`, most significant first, without leading zeros. -/
def digits (b n : Nat) : List Nat := digitsAux b n n

/-- The character of a digit; `a` is the character of ten. -/
def digitChar (a d : Nat) : Nat := if d < 10 then 48 + d else a + (d - 10)

/-- Zero padding on the left to a width (`{:0w}`). -/
def zeroPad (w : Nat) (t : Text) : Text := List.replicate (w - t.length) 48 ++ t

/-- `{}` of a `&str`. -/
def str (s : Str) : Text := s.map UInt8.toNat
/-- `{}` of an unsigned integer. -/
def dec (n : Nat) : Text := (digits 10 n).map (digitChar 97)
/-- `{:x}` of an unsigned integer. -/
def hexLower (n : Nat) : Text := (digits 16 n).map (digitChar 97)
/-- `{:X}` of an unsigned integer. -/
def hexUpper (n : Nat) : Text := (digits 16 n).map (digitChar 65)
/-- `{:b}` of an unsigned integer. -/
def bin (n : Nat) : Text := (digits 2 n).map (digitChar 97)

end Fmt
end Dmi
