import Verif.Props.CostDecode
import Verif.Props.Conform
import Verif.Props.Battery
/-!
# C97: exactly what decoding looks at
-/
namespace Dmi
open Spec Props

/-- If the outcome is a value, `n` bytes were looked at. -/
def Looks {α : Type} (x : CR α) (n : Nat) : Prop := ∀ a, x.out = .ok a → x.cost = n

namespace Looks
variable {α β : Type} {n m : Nat}

theorem pure (a : α) : Looks (Pure.pure a) 0 := fun _ _ => rfl
theorem err (e : MalformedStructureError) : Looks (α := α) (CR.err e) n := nofun
theorem panic : Looks (α := α) CR.panic n := nofun
theorem free (x : R α) : Looks (CR.free x) 0 := fun _ _ => rfl

theorem bind {x : CR α} {f : α → CR β} (h : Looks x n) (hf : ∀ a, x.out = .ok a → Looks (f a) m) :
    Looks (x >>= f) (n + m) := by
  obtain ⟨o, c⟩ := x
  cases o with
  | ok a =>
    intro b hb
    have h1 : c = n := h a rfl
    have h2 : (f a).cost = m := hf a rfl b hb
    show c + (f a).cost = n + m
    rw [h1, h2]
  | err e => exact nofun
  | panic => exact nofun
  | ub => exact nofun

theorem bind_free {x : R α} {f : α → CR β} (hf : ∀ a, x = .ok a → Looks (f a) n) :
    Looks (CR.free x >>= f) n := by
  have := bind (n := 0) (free x) hf
  rwa [Nat.zero_add] at this

theorem ite {c : Prop} [Decidable c] {x y : CR α} (h : c → Looks x n) (h' : ¬ c → Looks y n) :
    Looks (if c then x else y) n := by
  split
  · rename_i hc; exact h hc
  · rename_i hc; exact h' hc

theorem map {x : CR α} (f : α → β) (h : Looks x n) : Looks (x.map f) n := by
  obtain ⟨o, c⟩ := x
  cases o with
  | ok a => exact fun _ _ => h a rfl
  | err e => exact nofun
  | panic => exact nofun
  | ub => exact nofun

theorem cast {x : CR α} (h : Looks x n) (e : n = m) : Looks x m := e ▸ h

end Looks

/-- The number of bytes that looking up string number `i` of `s` looks at. -/
def lookupCost (s : RawStructure) (i : UInt8) : Nat := (s.find_stringC i).2

namespace Looks
variable {β : Type} {n : Nat}

theorem find (s : RawStructure) (i : UInt8) : Looks (s.find_stringW i) (lookupCost s i) := fun _ _ => rfl

theorem get (oc : Bool) (s : RawStructure) {o : Nat} (h4 : 4 ≤ o ∧ o < 2 ^ 16) :
    Looks (s.get_stringW oc o) (lookupCost s (byte s o)) := by
  refine bind_free fun i hi => ?_
  by_cases h : Fits s (o + 1)
  · rw [get8_ok oc h h4.1 (Nat.le_refl _) h4.2] at hi
    cases hi
    exact find s _
  · rw [get8_bad oc h h4.1 h4.2] at hi
    cases hi

theorem get_opt (oc : Bool) (s : RawStructure) {o : Nat} (h4 : 4 ≤ o ∧ o < 2 ^ 16) :
    Looks (s.get_stringW oc o).toOption (if Fits s (o + 1) then lookupCost s (byte s o) else 0) := by
  intro a _
  show (RawStructure.get_stringW oc s o).cost = _
  have e : RawStructure.get_stringW oc s o = (CR.free (s.get8 oc o) >>= fun i => s.find_stringW i) := rfl
  rw [e]
  by_cases h : Fits s (o + 1)
  · rw [if_pos h, get8_ok oc h h4.1 (Nat.le_refl _) h4.2]
    exact Nat.zero_add _
  · rw [if_neg h, get8_bad oc h h4.1 h4.2]
    rfl

end Looks

theorem lookupCost_zero (s : RawStructure) : lookupCost s 0 = 0 := rfl

theorem packed_fits {α : Type} {p : Packed α} {k : Nat} {b : Bytes} {a : α}
    (h : (letAsStruct p b : R α) = .ok a) (hc : p.Consumes k) : k ≤ b.length := by
  apply Nat.le_of_not_lt
  intro hl
  rw [letAsStruct_short hc hl] at h
  cases h

/-- Takes a counted decoder apart. -/
macro "looks" : tactic => `(tactic| repeat' first
  | exact Looks.pure _
  | exact Looks.err _
  | exact Looks.panic
  | (refine Looks.bind_free fun _ _ => ?_)
  | (refine Looks.bind (Looks.find _ _) fun _ _ => ?_)
  | (refine Looks.bind (Looks.get _ _ ?_) fun _ _ => ?_)
  | (refine Looks.bind (Looks.get_opt _ _ ?_) fun _ _ => ?_)
  | decide)

/-- The same for the decoders that begin with a cast: `l` evaluates it. -/
macro "looks_packed" p:ident l:ident : tactic => `(tactic| (
  refine Looks.bind_free fun a ha => ?_
  have hf := packed_fits (p := $p) ha (by unfold $p; consumes)
  rw [$l (by unfold Fits; omega)] at ha
  cases ha
  looks))

/-- An optional field: its lookup, if it lies within the structure. -/
abbrev optLook (s : RawStructure) (o : Nat) : Nat := if Fits s (o + 1) then lookupCost s (byte s o) else 0

namespace bios
theorem Bios.looks (s : RawStructure) : Looks (Bios.try_fromC s)
    (lookupCost s (byte s 4) + (lookupCost s (byte s 5) + (lookupCost s (byte s 8) + 0))) := by
  unfold Bios.try_fromC
  refine .ite (fun _ => ?_) fun _ => .ite (fun _ => ?_) fun _ => ?_
  · looks_packed BiosPacked3_1.packed bios_packed3_1
  · looks_packed BiosPacked2_4.packed bios_packed2_4
  · looks_packed BiosPacked2_0.packed bios_packed2_0
end bios

namespace system
theorem System.looks (s : RawStructure) : Looks (System.try_fromC s)
    (lookupCost s (byte s 4) + (lookupCost s (byte s 5) + (lookupCost s (byte s 6) + (lookupCost s (byte s 7) +
      if Since s 2 4 then lookupCost s (byte s 0x19) + (lookupCost s (byte s 0x1A) + 0) else 0)))) := by
  unfold System.try_fromC
  by_cases h : Since s 2 4
  · have h1 : Since s 2 1 := since_mono h (by decide)
    rw [if_pos h, if_neg (lt_neg h1), if_neg (lt_neg h)]
    looks_packed SystemPacked2_4.packed system_packed2_4
  · rw [if_neg h]
    refine .ite (fun _ => ?_) fun _ => ?_
    · looks_packed SystemPacked2_0.packed system_packed2_0
    · rw [if_pos (lt_pos h)]
      looks_packed SystemPacked2_1.packed system_packed2_1
end system

namespace baseboard
theorem BaseBoard.looks (s : RawStructure) : Looks (BaseBoard.try_fromC s)
    (lookupCost s (byte s 8) + (lookupCost s (byte s 0xA) + (lookupCost s (byte s 4) +
      (lookupCost s (byte s 5) + (lookupCost s (byte s 6) + (lookupCost s (byte s 7) + 0)))))) := by
  unfold BaseBoard.try_fromC
  refine Looks.bind_free fun a ha => ?_
  have hf := packed_fits (p := BaseBoardPacked.packed) ha (by unfold BaseBoardPacked.packed; consumes)
  rw [baseboard_packed (by unfold Fits; omega)] at ha
  cases ha
  refine Looks.ite (fun _ => ?_) (fun h => absurd (by omega) h)
  refine Looks.bind (Looks.find _ _) fun _ _ => Looks.bind_free fun _ _ => ?_
  refine Looks.ite (fun _ => ?_) (fun h => absurd (by omega) h)
  refine Looks.bind (Looks.find _ _) fun _ _ => Looks.bind_free fun _ _ => ?_
  looks
end baseboard

namespace processor
theorem Processor.looks (s : RawStructure) : Looks (Processor.try_fromC s)
    (lookupCost s (byte s 4) + (lookupCost s (byte s 7) + (lookupCost s (byte s 0x10) +
      if Since s 2 3 then lookupCost s (byte s 0x20) + (lookupCost s (byte s 0x21) +
        (lookupCost s (byte s 0x22) + 0)) else 0))) := by
  unfold Processor.try_fromC
  by_cases h : Since s 2 3
  · have h1 : Since s 2 1 := since_mono h (by decide)
    rw [if_pos h, if_neg (lt_neg h1), if_neg (lt_neg h)]
    refine .ite (fun _ => ?_) fun _ => .ite (fun _ => ?_) fun _ => .ite (fun _ => ?_) fun _ => ?_
    · looks_packed ProcessorPacked2_3.packed processor_packed2_3
    · looks_packed ProcessorPacked2_5.packed processor_packed2_5
    · looks_packed ProcessorPacked2_6.packed processor_packed2_6
    · looks_packed ProcessorPacked3_0.packed processor_packed3_0
  · rw [if_neg h]
    refine .ite (fun _ => ?_) fun _ => ?_
    · looks_packed ProcessorPacked2_0.packed processor_packed2_0
    · rw [if_pos (lt_pos h)]
      looks_packed ProcessorPacked2_1.packed processor_packed2_1
end processor

namespace cache
theorem Cache.looks (s : RawStructure) : Looks (Cache.try_fromC s) (lookupCost s (byte s 4) + 0) := by
  unfold Cache.try_fromC
  refine .ite (fun _ => ?_) fun _ => .ite (fun _ => ?_) fun _ => .ite (fun _ => ?_) fun _ => Looks.panic
  · looks_packed CachePacked3_1.packed cache_packed3_1
  · looks_packed CachePacked2_1.packed cache_packed2_1
  · looks_packed CachePacked2_0.packed cache_packed2_0
end cache

namespace port_connector
theorem PortConnector.looks (s : RawStructure) : Looks (PortConnector.try_fromC s)
    (lookupCost s (byte s 4) + (lookupCost s (byte s 6) + 0)) := by
  unfold PortConnector.try_fromC
  looks_packed PortConnectorPacked.packed port_packed
end port_connector

namespace system_slots
theorem SystemSlots.looks (oc : Bool) (s : RawStructure) : Looks (SystemSlots.try_fromC oc s)
    (lookupCost s (byte s 4) + 0) := by
  unfold SystemSlots.try_fromC
  refine .ite (fun _ => .err _) fun _ => .ite (fun _ => .err _) fun _ => .ite (fun _ => .err _) fun _ =>
    .ite (fun _ => .err _) fun _ => ?_
  unfold SystemSlots.decodeC
  looks
end system_slots

namespace group_associations
theorem GroupAssociations.looks (oc : Bool) (s : RawStructure) : Looks (GroupAssociations.try_fromC oc s)
    (lookupCost s (byte s 4) + 0) := by
  unfold GroupAssociations.try_fromC
  looks
end group_associations

namespace memory_device
theorem MemoryDevice.looks (oc : Bool) (s : RawStructure) : Looks (MemoryDevice.try_fromC oc s)
    (lookupCost s (byte s 0x10) + (lookupCost s (byte s 0x11) + (lookupCost s (byte s 0x17) +
      (lookupCost s (byte s 0x18) + (lookupCost s (byte s 0x19) + (lookupCost s (byte s 0x1A) +
        (optLook s 0x2B + 0))))))) := by
  unfold MemoryDevice.try_fromC
  refine .ite (fun _ => .err _) fun _ => ?_
  looks
end memory_device

namespace enclosure
theorem Enclosure.looks (oc : Bool) (s : RawStructure) : Looks (Enclosure.try_fromC oc s)
    (lookupCost s (byte s 4) + (lookupCost s (byte s 6) + (lookupCost s (byte s 7) + (lookupCost s (byte s 8) +
      if Fits s 0x15 then optLook s (0x15 + recordBytes s) else 0)))) := by
  unfold Enclosure.try_fromC EnclosurePacked2_0.size
  refine .ite (fun _ => .err _) fun hl => ?_
  refine Looks.bind_free fun a ha => ?_
  rw [enclosure_packed (by unfold Fits; omega)] at ha
  cases ha
  refine Looks.bind (Looks.find _ _) fun _ _ => Looks.bind (Looks.find _ _) fun _ _ =>
    Looks.bind (Looks.find _ _) fun _ _ => Looks.bind (Looks.find _ _) fun _ _ => ?_
  refine Looks.bind_free fun x hx => ?_
  have hov : oc = true → Fits s 0x15 → elementCount s * elementLength s < 256 := by
    rintro rfl h
    refine Nat.lt_of_not_le fun hge => ?_
    rw [optionals_overflow s h hge] at hx
    cases hx
  rw [optionals_eval oc s hov] at hx
  cases hx
  refine Looks.cast (n := _ + 0) (Looks.bind (n := if Fits s 0x15 then optLook s (0x15 + recordBytes s) else 0) ?_
    fun _ _ => Looks.pure _) rfl
  by_cases h1 : Fits s 0x15
  · rw [if_pos h1, optLook]
    by_cases h2 : Fits s (0x15 + recordBytes s + 1)
    · rw [if_pos h2, optIf, if_pos ⟨h1, h2⟩]
      exact Looks.bind (Looks.find _ _) fun _ _ => Looks.pure _
    · rw [if_neg h2, optIf, if_neg fun h => h2 h.2]
      exact Looks.pure _
  · rw [if_neg h1, optIf, if_neg fun h => h1 h.1]
    exact Looks.pure _
end enclosure

namespace portable_battery
theorem looks_opt (oc : Bool) (s : RawStructure) {o : Nat} (h4 : 4 ≤ o ∧ o < 2 ^ 16) :
    Looks (optStringC oc s o) (optLook s o) := by
  refine Looks.bind_free fun x hx => ?_
  rw [get8_opt oc h4.1 h4.2] at hx
  cases hx
  unfold optLook
  by_cases h : Fits s (o + 1)
  · rw [optIf, if_pos h, if_pos h]
    by_cases h0 : byte s o = 0
    · rw [h0]; exact Looks.pure _
    · have e : (some (byte s o)).filter (fun idx => idx != 0) = some (byte s o) := by
        simp [Option.filter, h0]
      rw [e]
      exact fun _ _ => rfl
  · rw [optIf, if_neg h, if_neg h]
    exact Looks.pure _

theorem PortableBattery.looks (oc : Bool) (s : RawStructure) : Looks (PortableBattery.try_fromC oc s)
    (lookupCost s (byte s 4) + (lookupCost s (byte s 5) + (optLook s 6 + (optLook s 7 + (lookupCost s (byte s 8) +
      (optLook s 0x14 + (lookupCost s (byte s 0xE) + 0))))))) := by
  unfold PortableBattery.try_fromC
  refine .ite (fun _ => .err _) fun _ => .ite (fun _ => .err _) fun _ => ?_
  looks
  refine Looks.bind (looks_opt _ _ (by decide)) fun _ _ => ?_
  looks
  refine Looks.bind (looks_opt _ _ (by decide)) fun _ _ => ?_
  looks
end portable_battery

namespace Props

/-- The string fields that decoding a structure reads: those of the versions that have them, as far as they lie
within it. -/
def readFields (s : RawStructure) : List Nat :=
  match s.info with
  | .Bios => [0x04, 0x05, 0x08]
  | .System => [0x04, 0x05, 0x06, 0x07] ++ if Since s 2 4 then [0x19, 0x1A] else []
  | .BaseBoard => [0x04, 0x05, 0x06, 0x07, 0x08, 0x0A]
  | .Enclosure => [0x04, 0x06, 0x07, 0x08] ++
      if Fits s 0x15 ∧ Fits s (0x15 + recordBytes s + 1) then [0x15 + recordBytes s] else []
  | .Processor => [0x04, 0x07, 0x10] ++ if Since s 2 3 then [0x20, 0x21, 0x22] else []
  | .Cache | .SystemSlots | .GroupAssociations => [0x04]
  | .PortConnector => [0x04, 0x06]
  | .MemoryDevice => [0x10, 0x11, 0x17, 0x18, 0x19, 0x1A] ++ if Fits s 0x2C then [0x2B] else []
  | .PortableBattery => [0x04, 0x05, 0x06, 0x07, 0x08, 0x0E] ++ if Fits s 0x15 then [0x14] else []
  | _ => []

/-- C97, exactly: decoding that succeeds looks up each of these fields once, and nothing else, except that
configuration options go through all strings. -/
theorem C97_exact (oc : Bool) (s : RawStructure) (v : Structure) (h : decodeStructure oc s = .ok v)
    (hi : s.info ≠ .SystemConfigurationOptions) :
    (decodeStructureC oc s).cost = ((readFields s).map fun o => (s.find_stringC (byte s o)).2).sum := by
  have key : Looks (decodeStructureC oc s) ((readFields s).map fun o => lookupCost s (byte s o)).sum := by
    unfold decodeStructureC readFields
    cases hinfo : s.info
    case SystemConfigurationOptions => exact absurd hinfo hi
    case Bios => exact (bios.Bios.looks s).map _
    case System =>
      refine ((system.System.looks s).cast ?_).map _
      split <;> simp
    case BaseBoard =>
      refine ((baseboard.BaseBoard.looks s).cast ?_).map _
      simp; omega
    case Enclosure =>
      refine ((enclosure.Enclosure.looks oc s).cast ?_).map _
      by_cases h1 : Fits s 0x15 <;> by_cases h2 : Fits s (0x15 + recordBytes s + 1) <;> simp [h1, h2, optLook]
    case Processor =>
      refine ((processor.Processor.looks s).cast ?_).map _
      split <;> simp
    case Cache => exact (cache.Cache.looks s).map _
    case SystemSlots => exact (system_slots.SystemSlots.looks oc s).map _
    case GroupAssociations => exact (group_associations.GroupAssociations.looks oc s).map _
    case PortConnector => exact (port_connector.PortConnector.looks s).map _
    case MemoryDevice =>
      refine ((memory_device.MemoryDevice.looks oc s).cast ?_).map _
      by_cases h1 : Fits s 0x2C <;> simp [h1, optLook]
    case PortableBattery =>
      refine Looks.map _ fun a ha => ?_
      rw [portable_battery.PortableBattery.looks oc s a ha]
      have ht : portable_battery.PortableBattery.try_from oc s = .ok a := by
        rw [← (portable_battery.PortableBattery.counts oc s).1, ha]
      obtain ⟨r1, r2, -, r4⟩ := C52_rejects oc s
      have hl : BatteryLength s :=
        ⟨fun h => Decidable.byContradiction fun hn => (nomatch (r1 h hn).symm.trans ht),
          fun h => Decidable.byContradiction fun hn => nomatch (r2 h hn).symm.trans ht⟩
      have hf : Fits s 0x10 := Decidable.byContradiction fun hn => by
        obtain ⟨e, he, -⟩ := r4 hl hn
        rw [he] at ht; cases ht
      have h6 : Fits s 7 := fits_mono hf (by decide)
      have h7 : Fits s 8 := fits_mono hf (by decide)
      by_cases h1 : Fits s 0x15 <;> simp [h1, h6, h7, optLook] <;> omega
    all_goals first
      | exact Looks.pure _
      | exact Looks.free _
  exact key v (by rw [(C97_decode oc s).1, h])

theorem beforeNul_append {w : Bytes} (h : (0 : UInt8) ∉ w) (more : Bytes) : beforeNul (w ++ 0 :: more) = w := by
  unfold beforeNul
  have hp : ∀ x ∈ w, decide (x ≠ 0) = true := fun x hx => decide_eq_true fun (e : x = 0) => h (e ▸ hx)
  rw [List.takeWhile_append_of_pos hp]
  simp

theorem goodStr_next {w : Bytes} (h : GoodStr w) (pre more : Bytes) :
    (StructureStrings.mk (pre ++ (w ++ 0 :: more)) pre.length).nextC =
      ((some w, ⟨pre ++ (w ++ 0 :: more), pre.length + (w.length + 1)⟩), 2 * w.length + 1) := by
  obtain ⟨h1, h2, h3⟩ := h
  have hg : getFrom (pre ++ (w ++ 0 :: more)) pre.length = some (w ++ 0 :: more) := by
    unfold getFrom
    rw [if_pos (by simp), List.drop_left]
  unfold StructureStrings.nextC
  have he : w.isEmpty = false := by cases w with
    | nil => exact absurd rfl h1
    | cons => rfl
  simp only [hg, beforeNul_append h2, he, (fromUtf8_eq_some w w).2 ⟨rfl, h3⟩]
  simp only [Bool.false_eq_true, if_false, Prod.mk.injEq, true_and, List.length_append, List.length_cons]
  omega

theorem end_next (pre rest : Bytes) :
    (StructureStrings.mk (pre ++ 0 :: rest) pre.length).nextC = ((none, ⟨pre ++ 0 :: rest, pre.length⟩), 1) := by
  have hg : getFrom (pre ++ 0 :: rest) pre.length = some (0 :: rest) := by
    unfold getFrom
    rw [if_pos (by simp), List.drop_left]
  unfold StructureStrings.nextC
  have hb : beforeNul (0 :: rest) = [] := rfl
  simp [hg, hb]

/-- The strings of `l`, each with its terminator, and the terminator of the set. -/
theorem goodStr_nth (rest : Bytes) : ∀ (l : List Bytes) (pre : Bytes) (n : Nat), (∀ w ∈ l, GoodStr w) →
    ((StructureStrings.mk (pre ++ (l.flatMap (· ++ [0]) ++ 0 :: rest)) pre.length).nthC n).2 =
      ((l.take (n + 1)).map fun w => 2 * w.length + 1).sum + if l.length ≤ n then 1 else 0
  | [], pre, n, _ => by
    cases n <;> rw [StructureStrings.nthC, List.flatMap_nil, List.nil_append, end_next] <;> simp
  | w :: l, pre, n, h => by
    have hw := h w (by simp)
    have e : (w :: l).flatMap (· ++ [0]) ++ 0 :: rest = w ++ 0 :: (l.flatMap (· ++ [0]) ++ 0 :: rest) := by simp
    have e2 : pre ++ (w ++ 0 :: (l.flatMap (· ++ [0]) ++ 0 :: rest)) =
        (pre ++ w ++ [0]) ++ (l.flatMap (· ++ [0]) ++ 0 :: rest) := by simp
    have e3 : pre.length + (w.length + 1) = (pre ++ w ++ [0]).length := by simp
    rw [e]
    cases n with
    | zero => rw [StructureStrings.nthC, goodStr_next hw]; simp
    | succ n =>
      rw [StructureStrings.nthC, goodStr_next hw]
      have ih := goodStr_nth rest l (pre ++ w ++ [0]) n fun x hx => h x (by simp [hx])
      simp only
      rw [e2, e3, ih]
      simp only [List.take_succ_cons, List.map_cons, List.sum_cons, List.length_cons, Nat.succ_le_succ_iff]
      omega

/-- C97, exactly: looking up string `i` of a string set looks at every byte of the strings up to it twice and at
their terminators once; if there are fewer strings, also at the terminator of the set. -/
theorem C97_lookup (s : RawStructure) (l : List Bytes) (rest : Bytes) (i : UInt8)
    (hs : s.strings = l.flatMap (· ++ [0]) ++ 0 :: rest) (hl : ∀ w ∈ l, GoodStr w) :
    (s.find_stringC i).2 =
      ((l.take i.toNat).map fun w => 2 * w.length + 1).sum + if l.length < i.toNat then 1 else 0 := by
  unfold RawStructure.find_stringC
  split
  · rename_i h; rw [h]; simp
  · rename_i h
    have hi : i.toNat ≠ 0 := fun e => h (UInt8.toNat_inj.1 e)
    have := goodStr_nth rest l [] (i.toNat - 1) hl
    rw [show i.toNat - 1 + 1 = i.toNat by omega] at this
    rw [List.nil_append, ← hs] at this
    refine Eq.trans this (congrArg _ ?_)
    by_cases hc : l.length < i.toNat
    · rw [if_pos hc, if_pos (by omega)]
    · rw [if_neg hc, if_neg (by omega)]

/-- C97: the bound of fourteen looks for each byte of the string set is reached but for a constant: if all seven
fields of a memory device refer to its only string, decoding looks at all its bytes fourteen times and at the
terminator seven times. -/
theorem C97_reached (oc : Bool) (s : RawStructure) (v : Structure) (w : Bytes) (h : decodeStructure oc s = .ok v)
    (hi : s.info = .MemoryDevice) (hf : Fits s 0x2C) (hw : GoodStr w) (hs : s.strings = w ++ [0, 0])
    (hr : ∀ o ∈ readFields s, byte s o = 1) :
    (decodeStructureC oc s).cost = 14 * w.length + 7 := by
  rw [C97_exact oc s v h (by rw [hi]; nofun)]
  have hl : ∀ o ∈ readFields s, (s.find_stringC (byte s o)).2 = 2 * w.length + 1 := by
    intro o ho
    rw [hr o ho, C97_lookup s [w] [] 1 (by rw [hs]; simp) (by simpa using hw)]
    simp
  rw [List.map_congr_left hl, List.map_const', List.sum_replicate_nat]
  have : (readFields s).length = 7 := by
    unfold readFields
    rw [hi]
    simp [hf]
  rw [this]
  omega

/-- C97, exactly: configuration options go through all strings once. -/
theorem C97_options (oc : Bool) (s : RawStructure) (v : Structure) (l : List Bytes) (rest : Bytes)
    (h : decodeStructure oc s = .ok v) (hi : s.info = .SystemConfigurationOptions)
    (hs : s.strings = l.flatMap (· ++ [0]) ++ 0 :: rest) (hl : ∀ w ∈ l, GoodStr w) :
    (decodeStructureC oc s).cost = (l.map fun w => 2 * w.length + 1).sum + 1 := by
  have count : ∀ (l : List Bytes) (pre : Bytes) (fuel : Nat), (∀ w ∈ l, GoodStr w) → l.length < fuel →
      ((StructureStrings.mk (pre ++ (l.flatMap (· ++ [0]) ++ 0 :: rest)) pre.length).countFuelC fuel).2 =
        (l.map fun w => 2 * w.length + 1).sum + 1 := by
    intro l
    induction l with
    | nil =>
      intro pre fuel _ hf
      cases fuel with
      | zero => simp at hf
      | succ n => rw [StructureStrings.countFuelC, List.flatMap_nil, List.nil_append, end_next]; rfl
    | cons w l ih =>
      intro pre fuel h hf
      cases fuel with
      | zero => simp at hf
      | succ n =>
      have e : (w :: l).flatMap (· ++ [0]) ++ 0 :: rest = w ++ 0 :: (l.flatMap (· ++ [0]) ++ 0 :: rest) := by simp
      have e2 : pre ++ (w ++ 0 :: (l.flatMap (· ++ [0]) ++ 0 :: rest)) =
          (pre ++ w ++ [0]) ++ (l.flatMap (· ++ [0]) ++ 0 :: rest) := by simp
      have e3 : pre.length + (w.length + 1) = (pre ++ w ++ [0]).length := by simp
      rw [e, StructureStrings.countFuelC, goodStr_next (h w (by simp))]
      simp only
      rw [e2, e3, ih (pre ++ w ++ [0]) n (fun x hx => h x (by simp [hx])) (by simp at hf; omega)]
      simp only [List.map_cons, List.sum_cons]
      omega
  have key : Looks (decodeStructureC oc s) ((l.map fun w => 2 * w.length + 1).sum + 1) := by
    unfold decodeStructureC
    rw [hi]
    refine Looks.map _ ?_
    unfold system_configuration_options.SystemConfigurationOptions.try_fromC
    refine Looks.bind_free fun n _ => ?_
    refine Looks.bind (m := 0) (n := (l.map fun w => 2 * w.length + 1).sum + 1) ?_ fun k _ =>
      Looks.ite (fun _ => Looks.err _) fun _ => Looks.pure _
    intro a _
    have hlen : l.length < s.strings.length + 1 := by
      have hw : ∀ l : List Bytes, l.length ≤ (l.flatMap (· ++ [0])).length := by
        intro l
        induction l with
        | nil => simp
        | cons w l ih => simp only [List.flatMap_cons, List.length_append, List.length_cons]; omega
      rw [hs, List.length_append, List.length_cons]
      have := hw l
      omega
    have := count l [] (s.strings.length + 1) hl hlen
    rw [List.nil_append, ← hs] at this
    exact this
  exact key v (by rw [(C97_decode oc s).1, h])

/-! ### C90 -/

theorem findNulNulC_none : ∀ {b : Bytes} {c : Nat}, findNulNulC b = (none, c) → c = b.length
  | [], _, h => by cases h; rfl
  | [_], _, h => by cases h; rfl
  | a :: b :: t, c, h => by
    rw [findNulNulC] at h
    split at h
    · cases h
    · simp only [Prod.mk.injEq] at h
      obtain ⟨h1, rfl⟩ := h
      rw [findNulNulC_none (b := b :: t) (c := (findNulNulC (b :: t)).2)
        (by rw [← Option.map_eq_none_iff.1 h1])]
      rfl

/-- What one call counts. -/
theorem next_rawC_exact (oc : Bool) (s : Structures) (hb : s.buffer.length + 256 ≤ 2 ^ 32)
    (hi : s.idx.toNat ≤ s.buffer.length) {x : Option (Except MalformedStructureError RawStructure) × Structures}
    {c : Nat} (h : s.next_rawC oc = .ok (x, c)) :
    (∀ r, x.1 = some (.ok r) → c + 1 = r.strings.length) ∧
    (∀ i n, x.1 = some (.error (.BadSize i n)) → c = 0) ∧
    (∀ i, x.1 = some (.error (.UnterminatedStrings i)) →
      c + (s.idx.toNat + (byteAt s.buffer (s.idx.toNat + 1)).toNat) = s.buffer.length) := by
  unfold Structures.next_rawC at h
  simp only [bind_ok_iff] at h
  obtain ⟨he, h0, h⟩ := h
  split at h
  · cases h; exact ⟨nofun, nofun, nofun⟩
  simp only [bind_ok_iff] at h
  obtain ⟨w, h1, hd, h2, si, h3, h⟩ := h
  split at h
  · cases h; exact ⟨nofun, fun _ _ _ => rfl, nofun⟩
  rw [bind_ok_iff] at h
  obtain ⟨tail, h4, h⟩ := h
  have hw : w = s.buffer.drop s.idx.toNat := by
    unfold indexFrom getFrom at h1
    rw [if_pos hi] at h1
    cases h1; rfl
  have hx : hd.len.toUInt32.toNat < 256 := by
    have := UInt8.toNat_lt hd.len
    simpa using this
  have hsi : si.toNat = s.idx.toNat + hd.len.toNat := by
    rw [addU32_ok oc s.idx _ (by omega)] at h3
    cases h3
    rw [u32_add_toNat _ _ (by omega)]
    simp
  have ht : tail = s.buffer.drop si.toNat ∧ si.toNat ≤ s.buffer.length := by
    unfold indexFrom getFrom at h4
    by_cases hle : si.toNat ≤ s.buffer.length
    · rw [if_pos hle] at h4; cases h4; exact ⟨rfl, hle⟩
    · rw [if_neg hle] at h4; cases h4
  cases h5 : findNulNulC tail with
  | mk o k =>
  rw [h5] at h
  cases o with
  | none =>
    cases h
    refine ⟨nofun, nofun, fun i _ => ?_⟩
    have hl : hd.len = byteAt s.buffer (s.idx.toNat + 1) := by
      have h4w : 4 ≤ w.length := by
        apply Nat.le_of_not_lt
        intro hlt
        rw [HeaderPacked.packed_short w hlt] at h2
        cases h2
      rw [HeaderPacked.packed_eval w h4w] at h2
      cases h2
      simp [byteAt, hw]
    rw [findNulNulC_none h5, ht.1, List.length_drop, ← hl]
    omega
  | some k' =>
    simp only [bind_ok_iff] at h
    obtain ⟨di, h6, data, h7, se, h8, strs, h9, ni, h10, h⟩ := h
    cases h
    obtain rfl := findNulNulC_some h5
    refine ⟨fun r hr => ?_, nofun, nofun⟩
    cases hr
    have hk : c < tail.length := findNulNul_lt (by rw [← findNulNulC_fst, h5])
    rw [ht.1, List.length_drop] at hk
    have ek : (UInt32.ofNat (c + 1)).toNat = c + 1 := by rw [UInt32.toNat_ofNat']; omega
    rw [addU32_ok oc si (.ofNat (c + 1)) (by omega)] at h8
    cases h8
    have en : (si + UInt32.ofNat (c + 1)).toNat = si.toNat + (c + 1) := by
      rw [u32_add_toNat _ _ (by omega), ek]
    unfold indexRange getRange at h9
    rw [en, if_pos (by omega)] at h9
    cases h9
    simp
    omega

/-- C90, exactly: reading a structure executes the loop body once for each byte of its string set but the last.
A structure whose length is out of range costs nothing, and one whose strings do not end all the bytes behind it. -/
theorem C90_each (oc : Bool) (s s' : Structures) (o : Option (Except MalformedStructureError Structure)) (c : Nat)
    (hb : s.buffer.length + 256 ≤ 2 ^ 32) (hi : s.idx.toNat ≤ s.buffer.length)
    (h : s.nextC oc = .ok ((o, s'), c)) :
    (∀ p, PieceAt s.buffer s.idx.toNat p → s.idx.toNat + p.len < s.smbios_len.toNat → c + 1 = p.strings.length) ∧
    (∀ i n, s.next_raw oc = .ok (some (.error (.BadSize i n)), s) → c = 0) ∧
    (∀ i, s.next_raw oc = .ok (some (.error (.UnterminatedStrings i)), s) →
      c + (s.idx.toNat + (byteAt s.buffer (s.idx.toNat + 1)).toNat) = s.buffer.length) := by
  unfold Structures.nextC at h
  rw [bind_ok_iff] at h
  obtain ⟨⟨⟨r, s1⟩, c1⟩, h1, h⟩ := h
  have hc : c1 = c := by
    cases r with
    | none => cases h; rfl
    | some r =>
    cases r with
    | error e => cases h; rfl
    | ok r =>
      simp only [bind_ok_iff, pure_eq_ok, Res.ok.injEq, Prod.mk.injEq] at h
      obtain ⟨_, -, -, h⟩ := h
      exact h
  subst hc
  obtain ⟨k1, k2, k3⟩ := next_rawC_exact oc s hb hi h1
  have same := (next_rawC_cases oc s hb hi).1
  rw [h1, ok_bind] at same
  refine ⟨fun p hp hl => ?_, fun i n hr => ?_, fun i hr => ?_⟩
  · rw [next_raw_piece oc s p (by omega) hp hl] at same
    cases same
    exact k1 _ rfl
  · rw [hr] at same
    cases same
    exact k2 i n rfl
  · rw [hr] at same
    cases same
    exact k3 i rfl

/-- C90, exactly: a table of structures that fills the declared length costs the sum of these. -/
theorem C90_exact (oc : Bool) (ps : List Piece) : ∀ (s : Structures) (items) (c : Nat),
    s.buffer.length + 256 ≤ 2 ^ 32 → (∀ p ∈ ps, p.WF) →
    (s.smbios_version.major.toNat < 3 ∨ ∀ p ∈ ps, p.kind ≠ 127) →
    OccursAt s.buffer s.idx.toNat (ps.flatMap Piece.bytes) →
    s.smbios_len.toNat = s.idx.toNat + (ps.flatMap Piece.bytes).length → Counted oc s items c →
    c = (ps.map fun p => p.strings.length - 1).sum := by
  induction ps with
  | nil =>
    intro s items c hb hwf hend hocc hn h
    obtain ⟨-, -, hi⟩ := occursAt_drop_eq hocc
    simp only [List.flatMap_nil, List.length_nil, Nat.add_zero] at hn
    have hnext := next_at_end oc s (by omega) (by omega)
    cases h with
    | done h => exact (nextC_count oc s hb hi h).1 rfl
    | step h t =>
      rw [← nextC_fst oc s hb hi, h] at hnext
      cases hnext
  | cons p ps ih =>
    intro s items c hb hwf hend hocc hn h
    obtain ⟨rest, hr, hi⟩ := occursAt_drop_eq hocc
    rw [List.flatMap_cons, List.append_assoc] at hr
    have hp : PieceAt s.buffer s.idx.toNat p := ⟨hwf p (by simp), drop_eq_occursAt hr hi⟩
    rw [List.flatMap_cons, List.length_append] at hn
    have hs2 := EndsAtFirstNulNul.length hp.1.2
    have hpl := Piece.bytes_length p
    have hl : s.idx.toNat + p.len < s.smbios_len.toNat := by omega
    have hidx := after_idx (s := s) (by omega) hp
    have hnext := next_piece oc s p (by omega) hp hl
    cases h with
    | done h =>
      rw [← nextC_fst oc s hb hi, h] at hnext
      cases hd : (decodeStructure oc (p.raw s.smbios_version)).toItem <;> rw [hd] at hnext <;> cases hnext
    | @step _ s1 item items c d h t =>
      have h1 := (C90_each oc s s1 _ c hb hi h).1 p hp hl
      rw [← nextC_fst oc s hb hi, h] at hnext
      have e : s1 = s.after p := by
        cases hd : (decodeStructure oc (p.raw s.smbios_version)).toItem <;> rw [hd] at hnext <;> cases hnext
        rfl
      subst e
      have hlen : (s.after p).smbios_len = s.smbios_len := by
        unfold Structures.after
        simp only
        refine if_neg fun hk => ?_
        rcases hend with hend | hend
        · have := hk.1
          rw [ge_iff_le, UInt8.le_iff_toNat_le, show (3 : UInt8).toNat = 3 from rfl] at this
          omega
        · exact hend p (by simp) hk.2
      have h2 := ih (s.after p) items d hb (fun q hq => hwf q (by simp [hq]))
        (hend.imp id fun k q hq => k q (by simp [hq]))
        (drop_eq_occursAt (rest := rest) (by
          rw [hidx, ← List.drop_drop, show (s.after p).buffer = s.buffer from rfl, hr, List.drop_left])
          (by
            have := (PieceAt.parts hp).1
            rw [hidx]; exact this))
        (by rw [hlen, hidx]; omega) t
      rw [List.map_cons, List.sum_cons, ← h2]
      omega

theorem nextW_toC (oc : Bool) {s : Structures} {x : Option (Except MalformedStructureError Structure) × Structures}
    {c d : Nat} (hb : s.buffer.length + 256 ≤ 2 ^ 32) (hi : s.idx.toNat ≤ s.buffer.length)
    (h : s.nextW oc = .ok (x, c, d)) : s.nextC oc = .ok (x, c) := by
  rw [← (nextW_cases oc s hb hi).1, h]; rfl

/-- What one call that reads a structure looks up. -/
theorem nextW_piece (oc : Bool) (s : Structures) (p : Piece) (hb : s.buffer.length + 256 ≤ 2 ^ 32)
    (hp : PieceAt s.buffer s.idx.toNat p) (hl : s.idx.toNat + p.len < s.smbios_len.toNat)
    {x : Option (Except MalformedStructureError Structure) × Structures} {c d : Nat}
    (h : s.nextW oc = .ok (x, c, d)) : d = (decodeStructureC oc (p.raw s.smbios_version)).cost := by
  have hi : s.idx.toNat ≤ s.buffer.length := by have := (PieceAt.parts hp).1; omega
  unfold Structures.nextW at h
  rw [bind_ok_iff] at h
  obtain ⟨⟨⟨r, s1⟩, c1⟩, h1, h⟩ := h
  have same := (next_rawC_cases oc s hb hi).1
  rw [h1, ok_bind, next_raw_piece oc s p (by omega) hp hl] at same
  cases same
  simp only [bind_ok_iff, pure_eq_ok, Res.ok.injEq, Prod.mk.injEq] at h
  obtain ⟨_, -, -, -, h⟩ := h
  exact h.symm

/-- C97, exactly, for a whole table: reading a table that consists of the structures `ps` looks up what the
decoders of its structures look up, no more and no less. -/
theorem C97_whole (oc : Bool) (ps : List Piece) : ∀ (s : Structures) (items) (c d : Nat),
    s.buffer.length + 256 ≤ 2 ^ 32 → (∀ p ∈ ps, p.WF) →
    (s.smbios_version.major.toNat < 3 ∨ ∀ p ∈ ps, p.kind ≠ 127) →
    OccursAt s.buffer s.idx.toNat (ps.flatMap Piece.bytes) →
    s.smbios_len.toNat = s.idx.toNat + (ps.flatMap Piece.bytes).length → CountedW oc s items c d →
    c = (ps.map fun p => p.strings.length - 1).sum ∧
    d = (ps.map fun p => (decodeStructureC oc (p.raw s.smbios_version)).cost).sum := by
  induction ps with
  | nil =>
    intro s items c d hb hwf hend hocc hn h
    obtain ⟨-, -, hi⟩ := occursAt_drop_eq hocc
    simp only [List.flatMap_nil, List.length_nil, Nat.add_zero] at hn
    have hnext := next_at_end oc s (by omega) (by omega)
    cases h with
    | done h =>
      have k := nextW_toC oc hb hi h
      refine ⟨(nextC_count oc s hb hi k).1 rfl, ?_⟩
      have k2 := (nextW_cases oc s hb hi).2 _ _ _ h
      rw [← nextC_fst oc s hb hi, k] at hnext
      cases hnext
      simpa using k2.2
    | step h t =>
      have k := nextW_toC oc hb hi h
      rw [← nextC_fst oc s hb hi, k] at hnext
      cases hnext
  | cons p ps ih =>
    intro s items c d hb hwf hend hocc hn h
    obtain ⟨rest, hr, hi⟩ := occursAt_drop_eq hocc
    rw [List.flatMap_cons, List.append_assoc] at hr
    have hp : PieceAt s.buffer s.idx.toNat p := ⟨hwf p (by simp), drop_eq_occursAt hr hi⟩
    rw [List.flatMap_cons, List.length_append] at hn
    have hs2 := EndsAtFirstNulNul.length hp.1.2
    have hpl := Piece.bytes_length p
    have hl : s.idx.toNat + p.len < s.smbios_len.toNat := by omega
    have hidx := after_idx (s := s) (by omega) hp
    have hnext := next_piece oc s p (by omega) hp hl
    cases h with
    | done h =>
      have k := nextW_toC oc hb hi h
      rw [← nextC_fst oc s hb hi, k] at hnext
      cases hd : (decodeStructure oc (p.raw s.smbios_version)).toItem <;> rw [hd] at hnext <;> cases hnext
    | @step _ s1 item items c d c' d' h t =>
      have k := nextW_toC oc hb hi h
      have h1 := (C90_each oc s s1 _ c hb hi k).1 p hp hl
      have h3 := nextW_piece oc s p hb hp hl h
      rw [← nextC_fst oc s hb hi, k] at hnext
      have e : s1 = s.after p := by
        cases hd : (decodeStructure oc (p.raw s.smbios_version)).toItem <;> rw [hd] at hnext <;> cases hnext
        rfl
      subst e
      have hlen : (s.after p).smbios_len = s.smbios_len := by
        unfold Structures.after
        simp only
        refine if_neg fun hk => ?_
        rcases hend with hend | hend
        · have := hk.1
          rw [ge_iff_le, UInt8.le_iff_toNat_le, show (3 : UInt8).toNat = 3 from rfl] at this
          omega
        · exact hend p (by simp) hk.2
      have h2 := ih (s.after p) items c' d' hb (fun q hq => hwf q (by simp [hq]))
        (hend.imp id fun k q hq => k q (by simp [hq]))
        (drop_eq_occursAt (rest := rest) (by
          rw [hidx, ← List.drop_drop, show (s.after p).buffer = s.buffer from rfl, hr, List.drop_left])
          (by
            have := (PieceAt.parts hp).1
            rw [hidx]; exact this))
        (by rw [hlen, hidx]; omega) t
      rw [List.map_cons, List.sum_cons, List.map_cons, List.sum_cons]
      have h2b : d' = (ps.map fun p => (decodeStructureC oc (p.raw s.smbios_version)).cost).sum := h2.2
      rw [← h2.1, ← h2b, ← h3]
      omega

/-- C97, exactly: going through all strings of a structure looks twice at each byte of a string and once at each
terminator. -/
theorem C97_strings_exact (rest : Bytes) : ∀ (l : List Bytes) (pre : Bytes) (l' : List Str) (c : Nat),
    (∀ w ∈ l, GoodStr w) →
    CountedStrings ⟨pre ++ (l.flatMap (· ++ [0]) ++ 0 :: rest), pre.length⟩ l' c →
    l' = l ∧ c = (l.map fun w => 2 * w.length + 1).sum + 1
  | [], pre, l', c, _, h => by
    rw [List.flatMap_nil, List.nil_append] at h
    cases h with
    | done h => rw [end_next] at h; cases h; exact ⟨rfl, rfl⟩
    | step h t => rw [end_next] at h; cases h
  | w :: l, pre, l', c, hg, h => by
    have e : (w :: l).flatMap (· ++ [0]) ++ 0 :: rest = w ++ 0 :: (l.flatMap (· ++ [0]) ++ 0 :: rest) := by simp
    have e2 : pre ++ (w ++ 0 :: (l.flatMap (· ++ [0]) ++ 0 :: rest)) =
        (pre ++ w ++ [0]) ++ (l.flatMap (· ++ [0]) ++ 0 :: rest) := by simp
    have e3 : pre.length + (w.length + 1) = (pre ++ w ++ [0]).length := by simp
    rw [e] at h
    cases h with
    | done h => rw [goodStr_next (hg w (by simp))] at h; cases h
    | step h t =>
      rw [goodStr_next (hg w (by simp))] at h
      cases h
      rw [e2, e3] at t
      obtain ⟨rfl, rfl⟩ := C97_strings_exact rest l _ _ _ (fun x hx => hg x (by simp [hx])) t
      refine ⟨rfl, ?_⟩
      simp only [List.map_cons, List.sum_cons]
      omega

theorem signature_exact : ∀ (l : List Bytes) (i : Nat),
    (∀ f k, (findSignatureLoopC l i).1 = some (f, k) → k + 16 = (i + (findSignatureLoopC l i).2) * 16) ∧
    ((findSignatureLoopC l i).1 = none → (findSignatureLoopC l i).2 = l.length)
  | [], _ => ⟨nofun, fun _ => rfl⟩
  | chunk :: rest, i => by
    have ih := signature_exact rest (i + 1)
    rw [findSignatureLoopC]
    split
    · exact ⟨fun f k h => by cases h; simp only; omega, nofun⟩
    · split
      · exact ⟨fun f k h => by cases h; simp only; omega, nofun⟩
      · refine ⟨fun f k h => ?_, fun h => ?_⟩
        · have := ih.1 f k h
          simp only
          omega
        · simp only [List.length_cons]
          rw [ih.2 h]

/-- C90, exactly: the search takes one step for each sixteen bytes up to the anchor, or up to the end. -/
theorem C90_search_exact (b : Bytes) :
    (∀ f k, findSignature b = some (f, k) → k + 16 = (findSignatureLoopC (chunks 16 b) 0).2 * 16) ∧
    (findSignature b = none → (findSignatureLoopC (chunks 16 b) 0).2 = (b.length + 15) / 16) := by
  have h := signature_exact (chunks 16 b) 0
  rw [(C90_search b).1] at h
  refine ⟨fun f k hk => by rw [h.1 f k hk, Nat.zero_add], fun hn => ?_⟩
  rw [h.2 hn]
  have lower : ∀ (k : Nat) (b : Bytes), b.length ≤ k → b.length ≤ (chunks 16 b).length * 16 := by
    intro k
    induction k with
    | zero => intro b hb; omega
    | succ k ih =>
      intro b hb
      unfold chunks
      split
      · rename_i h
        rcases h with rfl | h
        · simp
        · cases h
      · have := ih (b.drop 16) (by
          rename_i h
          have : 0 < b.length := List.length_pos_iff.2 fun e => h (.inl e)
          rw [List.length_drop]; omega)
        rw [List.length_drop] at this
        rw [List.length_cons]
        omega
  have h1 := lower _ b (Nat.le_refl _)
  have h2 := chunks_count _ b (Nat.le_refl _)
  omega

/-! Concrete values: the table of `Props/Cost.lean` without its last structure, and a memory device all of whose
fields refer to its only string. -/

def costPieces : List Piece := [⟨126, 1, [], [0, 0]⟩, ⟨126, 2, [9], [65, 66, 0, 67, 0, 0]⟩]

def costDevice : RawStructure where
  version := ⟨3, 2⟩
  info := .MemoryDevice
  length := 0x2C
  handle := 5
  data := List.replicate 12 0 ++ [1, 1, 0, 0, 0, 0, 0, 1, 1, 1, 1] ++ List.replicate 16 0 ++ [1]
  strings := [65, 66, 67, 0, 0]

example : costPieces.flatMap Piece.bytes = costTable.take 17 := by decide +kernel
example : (costPieces.map fun p => p.strings.length - 1).sum = 1 + 5 := by decide +kernel
example : [Piece.mk 8 1 [1, 0, 2, 0, 0] [65, 66, 0, 67, 0, 0], ⟨14, 2, [3], [0, 0]⟩].flatMap Piece.bytes = costPorts ∧
    ([Piece.mk 8 1 [1, 0, 2, 0, 0] [65, 66, 0, 67, 0, 0], ⟨14, 2, [3], [0, 0]⟩].map fun p =>
      (decodeStructureC true (p.raw ⟨2, 8⟩)).cost) = [13, 1] := by decide +kernel
example : Fits costDevice 0x2C ∧ readFields costDevice = [0x10, 0x11, 0x17, 0x18, 0x19, 0x1A, 0x2B] ∧
    (∀ o ∈ readFields costDevice, byte costDevice o = 1) ∧
    (decodeStructureC true costDevice).cost = 14 * 3 + 7 := by decide +kernel
example : ∃ v, decodeStructure true costDevice = .ok v := ⟨_, rfl⟩
example : GoodStr [65, 66, 67] := ⟨by decide, by decide, "ABC".toList, by decide +kernel⟩

end Props

end Dmi
