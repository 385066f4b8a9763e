import Verif.Proofs.Codes
import Verif.Model.S004
/-!
# Property C36: processor family and voltage codes

The tables are those of `Verif/Spec/Codes.lean`; see there for where they come from.
-/
namespace Dmi.Props
open Spec

/-! ## C36 -/

/-- The variant for family codes without a name. -/
def familyOther (b : UInt16) : processor.ProcessorFamily :=
  if b = 0xFF ∨ b = 0xFFFF then .NotUsed b else .Available b

theorem family_small (n : Fin 0x203) :
    processor.ProcessorFamily.ofU16 (UInt16.ofNat n.val)
      = (named Codes.processor.ProcessorFamily n.val).getD (familyOther (UInt16.ofNat n.val)) := by
  revert n; decide +kernel

theorem family_tail (b : UInt16) (h : 0x203 ≤ b.toNat) :
    processor.ProcessorFamily.ofU16 b =
      if b.toNat ≤ 0xFFFD then .Available b
      else if b.toNat = 0xFFFE then .ForFutureUse else .NotUsed b := by
  unfold processor.ProcessorFamily.ofU16
  repeat rw [if_neg (by omega)]
  unfold processor.ProcessorFamily.ofU16_1
  repeat rw [if_neg (by omega)]
  unfold processor.ProcessorFamily.ofU16_2
  repeat rw [if_neg (by omega)]
  unfold processor.ProcessorFamily.ofU16_3
  repeat rw [if_neg (by omega)]
  simp [h]

theorem family_large (b : UInt16) (h : 0x203 ≤ b.toNat) :
    processor.ProcessorFamily.ofU16 b
      = (named Codes.processor.ProcessorFamily b.toNat).getD (familyOther b) := by
  have hs : named Codes.processor.ProcessorFamily b.toNat
      = named [(0xFFFE, [processor.ProcessorFamily.ForFutureUse])] b.toNat :=
    named_skip Codes.processor.ProcessorFamily.dropLast _ b.toNat (by
      have : ∀ r ∈ Codes.processor.ProcessorFamily.dropLast, r.1 + r.2.length ≤ 0x203 := by
        decide +kernel
      intro r hr; have := this r hr; omega)
  rw [family_tail b h, hs]
  have hlt := b.toNat_lt
  have h1 : b ≠ 0xFF := by intro e; subst e; simp at h
  by_cases c1 : b.toNat ≤ 0xFFFD
  · have h2 : b ≠ 0xFFFF := by intro e; subst e; simp at c1
    have : ¬ 0xFFFE ≤ b.toNat := by omega
    simp [named, c1, this, familyOther, h1, h2]
  · by_cases c2 : b.toNat = 0xFFFE
    · simp [named, c2]
    · have c3 : b.toNat = 0xFFFF := by omega
      have h2 : b = 0xFFFF := UInt16.toNat_inj.1 (by simpa using c3)
      subst h2; decide
/-- C36: family codes decode to their name, the others are kept. -/
theorem C36_family (b : UInt16) :
    processor.ProcessorFamily.ofU16 b
      = (named Codes.processor.ProcessorFamily b.toNat).getD (familyOther b) := by
  by_cases h : b.toNat < 0x203
  · have := family_small ⟨b.toNat, h⟩
    simpa using this
  · exact family_large b (by omega)

theorem familyOther_inj (a b : UInt16) (h : familyOther a = familyOther b) : a = b := by
  unfold familyOther at h
  split at h <;> split at h <;> cases h <;> rfl

/-- C36: every family code can be recovered. -/
theorem C36_family_injective {a b : UInt16}
    (h : processor.ProcessorFamily.ofU16 a = processor.ProcessorFamily.ofU16 b) : a = b :=
  injective_of_table (P := fun _ => True) (fun h => UInt16.toNat_inj.1 h) (fun b _ => C36_family b)
    processor.ProcessorFamily.ctorIdx (by decide +kernel) familyOther_inj
    (by
      intro b x hx e
      have key : ∀ x ∈ names Codes.processor.ProcessorFamily,
          x.ctorIdx ≠ (processor.ProcessorFamily.NotUsed 0).ctorIdx ∧
          x.ctorIdx ≠ (processor.ProcessorFamily.Available 0).ctorIdx := by decide +kernel
      have hk := key x hx
      rw [e] at hk
      unfold familyOther at hk
      split at hk
      · exact hk.1 rfl
      · exact hk.2 rfl)
    trivial trivial h

/-- C36: the eight-bit family codes are the 16-bit ones. -/
theorem C36_family8_injective {a b : UInt8}
    (h : processor.ProcessorFamily.ofU8 a = processor.ProcessorFamily.ofU8 b) : a = b := by
  have := C36_family_injective h
  have h2 := congrArg UInt16.toNat this
  exact UInt8.toNat_inj.1 (by simpa using h2)

example : processor.ProcessorFamily.ofU16 0x101 = .ARMv8 ∧
    processor.ProcessorFamily.ofU16 0x1234 = .Available 0x1234 := by decide +kernel

/-- C36: bit 7 set means a voltage in the low seven bits; otherwise the three low bits are
capabilities if no other bit is set, and the byte is kept if one is. -/
theorem C36_voltage (b : UInt8) :
    processor.Voltage.ofU8 b =
      if 128 ≤ b.toNat then .Current (UInt8.ofNat (b.toNat - 128))
      else if b.toNat < 8 then .Legacy ⟨b⟩
      else .Undefined b := by
  revert b; exact forall_u8 (by decide +kernel)

/-- C36: the voltage byte can be recovered. -/
theorem C36_voltage_injective {a b : UInt8}
    (h : processor.Voltage.ofU8 a = processor.Voltage.ofU8 b) : a = b := by
  have ha := a.toNat_lt
  have hb := b.toNat_lt
  rw [C36_voltage, C36_voltage] at h
  by_cases a1 : 128 ≤ a.toNat <;> by_cases b1 : 128 ≤ b.toNat
  · rw [if_pos a1, if_pos b1, processor.Voltage.Current.injEq] at h
    have h := congrArg UInt8.toNat h
    rw [UInt8.toNat_ofNat', UInt8.toNat_ofNat'] at h
    exact UInt8.toNat_inj.1 (by omega)
  · rw [if_pos a1, if_neg b1] at h; split at h <;> exact processor.Voltage.noConfusion h
  · rw [if_neg a1, if_pos b1] at h; split at h <;> exact processor.Voltage.noConfusion h
  · rw [if_neg a1, if_neg b1] at h
    split at h <;> split at h <;>
      simp only [processor.Voltage.Legacy.injEq, processor.Voltage.Undefined.injEq,
        processor.VoltageLegacy.mk.injEq, reduceCtorEq] at h <;> exact h

example : processor.Voltage.ofU8 0x8C = .Current 12 ∧ processor.Voltage.ofU8 0x02 = .Legacy ⟨2⟩ ∧
    processor.Voltage.ofU8 0x10 = .Undefined 0x10 := by decide

end Dmi.Props
