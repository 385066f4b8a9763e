import Verif.Basic
/-!
# The host that the theorems assume

The model takes the width of `usize` as an instance argument. Everywhere but in `Props/Widths` and
`Props/Narrow` (C79) it is this one.
-/
namespace Dmi

/-- A host with a 64-bit `usize`. -/
@[reducible] instance host64 : Usize := ⟨64⟩

theorem addUsize_host64 {ε : Type} (oc : Bool) (a b : Nat) : (addUsize oc a b : Res ε Nat) =
    if a + b < 2 ^ 64 then .ok (a + b) else if oc then .panic else .ok ((a + b) % 2 ^ 64) := rfl

theorem subUsize_host64 {ε : Type} (oc : Bool) (a b : Nat) : (subUsize oc a b : Res ε Nat) =
    if b ≤ a then .ok (a - b) else if oc then .panic else .ok ((2 ^ 64 + a - b) % 2 ^ 64) := rfl

end Dmi
