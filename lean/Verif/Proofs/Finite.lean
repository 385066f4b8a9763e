import Verif.Basic
import Verif.Host
/-!
# Checking all bytes
-/
namespace Dmi

/-- A decidable property of bytes holds for all of them if it holds for the 256 numbers. -/
theorem forall_u8 {P : UInt8 → Prop} (h : ∀ n : Fin 256, P (UInt8.ofNat n.val)) (b : UInt8) : P b := by
  have := h ⟨b.toNat, b.toNat_lt⟩
  simpa using this

end Dmi
