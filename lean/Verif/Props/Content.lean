import Verif.Props.Versions
import Verif.Props.Codes
import Verif.Props.FamilyCodes
import Verif.Props.EventLogCodes
import Verif.Props.Texts
import Verif.Props.Profiles
import Mathlib.Tactic.CasesM
/-!
# C76: what a decoded structure tells about the stored one

Two structures of one type decode to the same value exactly if they agree in
the bytes listed here and in their texts.
-/
namespace Dmi.Props
open Spec
set_option linter.unusedSimpArgs false

/-- The `w` bytes at offset `o` are the same. -/
def SameBytes (s s' : RawStructure) (o w : Nat) : Prop := ∀ i < w, byte s (o + i) = byte s' (o + i)

/-- The bytes of the fields listed as offset and width are the same. -/
def SameAt (s s' : RawStructure) (l : List (Nat × Nat)) : Prop := ∀ p ∈ l, SameBytes s s' p.1 p.2

/-- Both or none of the conditions hold, and if they do, so does `p`. -/
def Jointly (c c' p : Prop) : Prop := (c ↔ c') ∧ (c → p)

/-- Both or none of the structures have `n` bytes or more, and if they do, `p` holds. -/
abbrev JointlyFit (s s' : RawStructure) (n : Nat) (p : Prop) : Prop := Jointly (Fits s n) (Fits s' n) p

/-- Both or none of the structures are in tables of version `a.b` or later, and if they are, `p` holds. -/
abbrev JointlySince (s s' : RawStructure) (a b : Nat) (p : Prop) : Prop := Jointly (Since s a b) (Since s' a b) p

/-- Same type, as iterated. -/
structure Alike (s s' : RawStructure) : Prop where
  info : s'.info = s.info
  coherent : Coherent s
  coherent' : Coherent s'

/-! ### Numbers and bytes -/

theorem leAt_inj {b b' : Bytes} {w o : Nat} :
    leAt b o w = leAt b' o w ↔ ∀ i < w, byteAt b (o + i) = byteAt b' (o + i) := by
  induction w generalizing o with
  | zero => simp [leAt]
  | succ w ih =>
    have h1 := (byteAt b o).toNat_lt
    have h2 := (byteAt b' o).toNat_lt
    have : leAt b o (w + 1) = leAt b' o (w + 1) ↔
        (byteAt b o).toNat = (byteAt b' o).toNat ∧ leAt b (o + 1) w = leAt b' (o + 1) w := by
      rw [leAt, leAt]; omega
    rw [this, UInt8.toNat_inj, ih]
    constructor
    · rintro ⟨h, k⟩ i hi
      cases i with
      | zero => exact h
      | succ i => rw [show o + (i + 1) = o + 1 + i by omega]; exact k i (by omega)
    · intro h
      refine ⟨h 0 (by omega), fun i hi => ?_⟩
      rw [show o + 1 + i = o + (i + 1) by omega]; exact h _ (by omega)

theorem leAt_lt (b : Bytes) (o w : Nat) : leAt b o w < 256 ^ w := by
  induction w generalizing o with
  | zero => simp [leAt]
  | succ w ih =>
    have h1 := (byteAt b o).toNat_lt
    have h2 := ih (o + 1)
    rw [leAt, Nat.pow_succ]; omega

theorem agree_iff {s s' : RawStructure} {o w : Nat} (h : 4 ≤ o) :
    leAt s.data (o - 4) w = leAt s'.data (o - 4) w ↔ SameBytes s s' o w := by
  rw [leAt_inj]
  unfold SameBytes byte
  constructor <;> intro k i hi <;> have := k i hi <;>
    rwa [show o + i - 4 = o - 4 + i by omega] at *

variable {s s' : RawStructure} {o : Nat}

theorem byte_agree : byte s o = byte s' o ↔ SameBytes s s' o 1 := by
  constructor
  · intro h i hi; cases i with
    | zero => exact h
    | succ i => omega
  · intro h; exact h 0 (by decide)

theorem word_agree (h : 4 ≤ o) : word s o = word s' o ↔ SameBytes s s' o 2 := by
  have h1 := leAt_lt s.data (o - 4) 2
  have h2 := leAt_lt s'.data (o - 4) 2
  rw [← agree_iff h, ← UInt16.toNat_inj]
  unfold word u16At
  rw [UInt16.toNat_ofNat', UInt16.toNat_ofNat', Nat.mod_eq_of_lt h1, Nat.mod_eq_of_lt h2]

theorem dword_agree (h : 4 ≤ o) : dword s o = dword s' o ↔ SameBytes s s' o 4 := by
  have h1 := leAt_lt s.data (o - 4) 4
  have h2 := leAt_lt s'.data (o - 4) 4
  rw [← agree_iff h, ← UInt32.toNat_inj]
  unfold dword u32At
  rw [UInt32.toNat_ofNat', UInt32.toNat_ofNat', Nat.mod_eq_of_lt h1, Nat.mod_eq_of_lt h2]

theorem qword_agree (h : 4 ≤ o) : qword s o = qword s' o ↔ SameBytes s s' o 8 := by
  have h1 := leAt_lt s.data (o - 4) 8
  have h2 := leAt_lt s'.data (o - 4) 8
  rw [← agree_iff h, ← UInt64.toNat_inj]
  unfold qword u64At
  rw [UInt64.toNat_ofNat', UInt64.toNat_ofNat', Nat.mod_eq_of_lt h1, Nat.mod_eq_of_lt h2]

theorem sameAt_nil : SameAt s s' [] ↔ True := by simp [SameAt]

theorem sameAt_cons {p : Nat × Nat} {l : List (Nat × Nat)} :
    SameAt s s' (p :: l) ↔ SameBytes s s' p.1 p.2 ∧ SameAt s s' l := by
  simp [SameAt]

theorem optIf_inj {α : Type} {c : Prop} [Decidable c] {a b : α} :
    optIf c a = optIf c b ↔ (c → a = b) := by
  by_cases h : c <;> simp [optIf, h]

theorem optIf_both {α : Type} {c c' : Prop} [Decidable c] [Decidable c'] {a b : α} :
    optIf c a = optIf c' b ↔ Jointly c c' (a = b) := by
  by_cases hc : c <;> by_cases hc' : c' <;> simp [optIf, Jointly, hc, hc']

theorem opt_both {α : Type} {n : Nat} {a b : α} :
    optIf (Fits s n) a = optIf (Fits s' n) b ↔ Jointly (Fits s n) (Fits s' n) (a = b) := optIf_both

theorem opt_both_and {α : Type} {p q : Prop} [Decidable p] [Decidable q] {n : Nat} {a b : α} :
    optIf (Fits s n ∧ p) a = optIf (Fits s' n ∧ q) b ↔ Jointly (Fits s n ∧ p) (Fits s' n ∧ q) (a = b) := optIf_both

theorem opt_since {α : Type} {m n : Nat} {a b : α} :
    optIf (Since s m n) a = optIf (Since s' m n) b ↔ Jointly (Since s m n) (Since s' m n) (a = b) := optIf_both

theorem ite_since {α : Type} {m n : Nat} {a b : α} :
    ((if Since s m n then some a else none) = if Since s' m n then some b else none) ↔
      Jointly (Since s m n) (Since s' m n) (a = b) := opt_since

theorem jointly_and {c c' p q : Prop} : Jointly c c' (p ∧ q) ↔ Jointly c c' p ∧ Jointly c c' q := by
  unfold Jointly
  constructor
  · rintro ⟨h, k⟩; exact ⟨⟨h, fun x => (k x).1⟩, h, fun x => (k x).2⟩
  · rintro ⟨⟨h, k⟩, -, l⟩; exact ⟨h, fun x => ⟨k x, l x⟩⟩

theorem ite_inj {α : Type} {c : Prop} [Decidable c] {a b : α} :
    (if c then some a else none) = (if c then some b else none) ↔ (c → a = b) := optIf_inj

theorem optIf_ne {α : Type} [DecidableEq α] {a b k : α} :
    optIf (a ≠ k) a = optIf (b ≠ k) b ↔ a = b := by
  by_cases h : a = k <;> by_cases h' : b = k <;> simp [optIf, h, h']
  · exact fun h => h' h.symm

theorem optIf_and_ne {α : Type} [DecidableEq α] {c : Prop} [Decidable c] {a b k : α} :
    optIf (c ∧ a ≠ k) a = optIf (c ∧ b ≠ k) b ↔ (c → a = b) := by
  by_cases h : c
  · simp only [h, true_and, true_implies]; exact optIf_ne
  · simp [optIf, h]

/-- The text of a date, serial number, chemistry stored as a string. -/
def dateText : portable_battery.ManufactureDate → Option Str
  | .Basic t => some t
  | _ => none

def serialText : portable_battery.SerialNumber → Option Str
  | .Basic t => some t
  | _ => none

def chemistryText : portable_battery.DeviceChemistry → Option Str
  | .SmartBatteryDataSpecification t => some t
  | _ => none

/-- The texts in the fields of a decoded structure, in order. -/
def textFields : Structure → List (Option Str)
  | .Bios x => [x.vendor, x.bios_version, x.bios_release_date]
  | .System x => [x.manufacturer, x.product, x.version, x.serial, x.sku, x.family]
  | .BaseBoard x => [x.manufacturer, x.product, x.version, x.serial, x.asset, x.location_in_chassis]
  | .Enclosure x => [x.manufacturer, x.version, x.serial_number, x.asset_tag_number, x.sku_number]
  | .Processor x => [x.socket_designation, x.processor_manufacturer, x.processor_version,
      x.serial_number, x.asset_tag, x.part_number]
  | .Cache x => [x.socket_designation]
  | .PortConnector x => [x.internal_reference_designator, x.external_reference_designator]
  | .SystemSlots x => [x.slot_designation]
  | .GroupAssociations x => [x.group_name]
  | .MemoryDevice x => [x.device_locator, x.bank_locator, x.manufacturer, x.serial, x.asset_tag,
      x.part_number, x.firmware_version]
  | .PortableBattery x => [x.location, x.manufacturer, x.device_name, x.sbds_version_number,
      dateText x.manufacture_date, serialText x.serial_number, chemistryText x.device_chemistry]
  | _ => []

/-- Replaces equality of stored numbers by equality of their bytes and compares the two lists. -/
syntax "same" "[" Lean.Parser.Tactic.simpLemma,* "]" : tactic
macro_rules
  | `(tactic| same [$xs,*]) => `(tactic| (
      simp (disch := decide) only [$xs,*, textFields, List.cons.injEq, Option.some.injEq, and_true,
        optIf_inj, ite_inj, optIf_ne, optIf_and_ne, byte_agree, word_agree, dword_agree, qword_agree,
        sameAt_nil, sameAt_cons, imp_and, and_assoc]
      <;> with_reducible
        constructor
        all_goals
          intro h
          casesm* _ ∧ _
          constructorm* _ ∧ _
          all_goals assumption))

theorem same_bios {v v' : bios.Bios} (h : bios.Bios.try_from s = .ok v)
    (h' : bios.Bios.try_from s' = .ok v') : v = v' ↔ s.handle = s'.handle ∧
      textFields (.Bios v) = textFields (.Bios v') ∧
      SameAt s s' [(0x06, 2), (0x09, 1), (0x0A, 8)] ∧
      JointlySince s s' 2 4 (SameAt s s' [(0x12, 1), (0x13, 1), (0x14, 1), (0x15, 1), (0x16, 1), (0x17, 1)]) ∧
      JointlySince s s' 3 1 (SameAt s s' [(0x18, 2)]) := by
  have f : Fits s (biosLength s) := Classical.byContradiction fun k => by
    rw [C29_short s k] at h; cases h
  have f' : Fits s' (biosLength s') := Classical.byContradiction fun k => by
    rw [C29_short s' k] at h'; cases h'
  obtain ⟨a1, -, -, a4, -, a6, a7, a8, a9, a10, a11⟩ := (C29_decodes s f v).1 h
  obtain ⟨b1, -, -, b4, -, b6, b7, b8, b9, b10, b11⟩ := (C29_decodes s' f' v').1 h'
  clear h h'
  obtain ⟨_, _, _, _, _, _, _, _, _, _, _⟩ := v
  obtain ⟨_, _, _, _, _, _, _, _, _, _, _⟩ := v'
  simp only [when_eq] at a1 a4 a6 a7 a8 a9 a10 a11 b1 b4 b6 b7 b8 b9 b10 b11
  subst a1 a4 a6 a7 a8 a9 a10 a11 b1 b4 b6 b7 b8 b9 b10 b11
  same [JointlySince, opt_since, ite_since, jointly_and, bios.Bios.mk.injEq,
    bios.RomSize.mk.injEq, bios.Characteristics.mk.injEq,
    bios.CharacteristicsExtension1.mk.injEq, bios.CharacteristicsExtension2.mk.injEq,
    bios.FirmwareRevision.mk.injEq, bios.BiosRevision.mk.injEq]

theorem inj_iff {α β : Type} {f : α → β} (h : ∀ {a b}, f a = f b → a = b) {a b : α} :
    f a = f b ↔ a = b := ⟨h, congrArg f⟩

/-- The bits at the given positions are the same. -/
def SameBits (bits : List Nat) (a b : Nat) : Prop := ∀ i ∈ bits, a.testBit i = b.testBit i

theorem kept_same {bits : List Nat} {w w' c c' : Nat} (h : Kept bits w c) (h' : Kept bits w' c') :
    c = c' ↔ SameBits bits w w' := by
  constructor
  · rintro rfl i hi
    have := (h i).symm.trans (h' i)
    simpa [hi] using this
  · intro k
    apply Nat.eq_of_testBit_eq
    intro i
    rw [h i, h' i]
    by_cases hi : i ∈ bits
    · rw [k i hi]
    · simp [hi]

theorem kept_mod (w n : Nat) : Kept (List.range n) w (w % 2 ^ n) := by
  intro i
  rw [Nat.testBit_mod_two_pow, Bool.and_comm]
  congr 1
  simp

theorem mod_same {w w' n : Nat} : w % 2 ^ n = w' % 2 ^ n ↔ SameBits (List.range n) w w' :=
  kept_same (kept_mod w n) (kept_mod w' n)

/-- C76: of one version, the UUIDs are the same exactly if their bytes are. -/
theorem C76_uuid (s s' : RawStructure) (hv : s'.version = s.version) :
    storedUuid s = storedUuid s' ↔ SameBytes s s' 8 16 := by
  unfold storedUuid
  have h2 : Since s' 2 6 = Since s 2 6 := by unfold Since; rw [hv]
  simp only [h2]
  have e : (List.range 16).map (fun i => byte s (8 + i)) = (List.range 16).map (fun i => byte s' (8 + i)) ↔
      SameBytes s s' 8 16 := by
    rw [List.map_inj_left]
    simp only [List.mem_range]
    rfl
  split
  · rw [← e]
    simp only [uuidOrder, List.range, List.range.loop, List.map, List.cons.injEq, and_true]
    constructor <;> intro h <;> casesm* _ ∧ _ <;> constructorm* _ ∧ _ <;> assumption
  · exact e

example : storedUuid ⟨⟨2, 5⟩, .System, 0x19, 0, [0, 0, 0, 0, 1, 2, 3, 4, 5, 6, 7, 8], []⟩ =
    storedUuid ⟨⟨2, 6⟩, .System, 0x19, 0, [0, 0, 0, 0, 4, 3, 2, 1, 6, 5, 8, 7], []⟩ := by decide +kernel

theorem same_system {v v' : system.System} (h : system.System.try_from s = .ok v)
    (h' : system.System.try_from s' = .ok v') : v = v' ↔ s.handle = s'.handle ∧
      textFields (.System v) = textFields (.System v') ∧
      JointlySince s s' 2 1 (storedUuid s = storedUuid s' ∧ SameAt s s' [(0x18, 1)]) := by
  have f : Fits s (systemLength s) := Classical.byContradiction fun k => by
    rw [C31_short s k] at h; cases h
  have f' : Fits s' (systemLength s') := Classical.byContradiction fun k => by
    rw [C31_short s' k] at h'; cases h'
  obtain ⟨a1, -, -, -, -, a2, a3, -, -⟩ := (C31_decodes s f v).1 h
  obtain ⟨b1, -, -, -, -, b2, b3, -, -⟩ := (C31_decodes s' f' v').1 h'
  clear h h'
  cases v; cases v'
  simp only [when_eq] at a1 a2 a3 b1 b2 b3
  subst a1 a2 a3 b1 b2 b3
  same [JointlySince, opt_since, jointly_and, system.System.mk.injEq, inj_iff @C53_system_WakeupType_injective]

theorem some_same {α : Type} {a b : Option α} {x y : α} (h : a = some x) (k : b = some y) :
    a = b ↔ x = y := by rw [h, k, Option.some.injEq]

theorem same_baseboard {v v' : baseboard.BaseBoard}
    (h : baseboard.BaseBoard.try_from s = .ok v) (h' : baseboard.BaseBoard.try_from s' = .ok v') :
    v = v' ↔ s.handle = s'.handle ∧ textFields (.BaseBoard v) = textFields (.BaseBoard v') ∧
      SameBits (List.range 5) (byte s 0x09).toNat (byte s' 0x09).toNat ∧
      SameAt s s' [(0x0B, 2), (0x0D, 1)] := by
  have f : Fits s 0x0E := Classical.byContradiction fun k => by
    rw [(C32_short s).2 k] at h; cases h
  have f' : Fits s' 0x0E := Classical.byContradiction fun k => by
    rw [(C32_short s').2 k] at h'; cases h'
  obtain ⟨a1, -, -, -, -, -, ⟨x, a2, a2'⟩, -, a3, a4⟩ := (C32_decodes_partial s f v).1 h
  obtain ⟨b1, -, -, -, -, -, ⟨y, b2, b2'⟩, -, b3, b4⟩ := (C32_decodes_partial s' f' v').1 h'
  clear h h'
  have k : x = y ↔ SameBits (List.range 5) (byte s 0x09).toNat (byte s' 0x09).toNat := by
    rw [← mod_same, ← a2', ← b2', UInt8.toNat_inj]
    cases x; cases y; simp
  cases v; cases v'
  simp only at a1 a2 a3 a4 b1 b2 b3 b4
  subst a1 a2 a3 a4 b1 b2 b3 b4
  same [baseboard.BaseBoard.mk.injEq, k, inj_iff @C53_baseboard_BoardType_injective]

theorem same_port {v v' : port_connector.PortConnector}
    (h : port_connector.PortConnector.try_from s = .ok v)
    (h' : port_connector.PortConnector.try_from s' = .ok v') :
    v = v' ↔ s.handle = s'.handle ∧ textFields (.PortConnector v) = textFields (.PortConnector v') ∧
      SameAt s s' [(0x05, 1), (0x07, 1), (0x08, 1)] := by
  have f : Fits s 0x09 := Classical.byContradiction fun k => by
    rw [(C39_short s).2 k] at h; cases h
  have f' : Fits s' 0x09 := Classical.byContradiction fun k => by
    rw [(C39_short s').2 k] at h'; cases h'
  obtain ⟨a1, -, a2, -, a3, a4⟩ := (C39_decodes s f v).1 h
  obtain ⟨b1, -, b2, -, b3, b4⟩ := (C39_decodes s' f' v').1 h'
  clear h h'
  cases v; cases v'
  simp only at a1 a2 a3 a4 b1 b2 b3 b4
  subst a1 a2 a3 a4 b1 b2 b3 b4
  same [port_connector.PortConnector.mk.injEq, inj_iff @C53_port_connector_ConnectorType_injective,
    inj_iff @C53_port_connector_PortType_injective]

theorem when_kept {α : Type} {c : Prop} {a b : Option α} {bits : List Nat} {w w' : Nat} {f : α → Nat}
    (ha : When c a fun x => Kept bits w (f x)) (hb : When c b fun x => Kept bits w' (f x))
    (hf : ∀ {x y}, f x = f y → x = y) : a = b ↔ (c → SameBits bits w w') := by
  by_cases h : c
  · rw [when_pos h] at ha hb
    obtain ⟨x, rfl, hx⟩ := ha
    obtain ⟨y, rfl, hy⟩ := hb
    rw [← kept_same hx hy, Option.some.injEq]
    exact ⟨fun e _ => congrArg f e, fun k => hf (k h)⟩
  · rw [when_neg h] at ha hb
    rw [ha, hb]
    simp [h]

theorem when_kept_both {α : Type} {c c' : Prop} {a b : Option α} {bits : List Nat} {w w' : Nat} {f : α → Nat}
    (ha : When c a fun x => Kept bits w (f x)) (hb : When c' b fun x => Kept bits w' (f x))
    (hf : ∀ {x y}, f x = f y → x = y) : a = b ↔ Jointly c c' (SameBits bits w w') := by
  by_cases e : c ↔ c'
  · rw [← propext e] at hb
    rw [when_kept ha hb hf]
    exact ⟨fun h => ⟨e, h⟩, fun h => h.2⟩
  · constructor
    · rintro rfl
      refine absurd ?_ e
      constructor
      · intro h
        rw [when_pos h] at ha
        obtain ⟨x, rfl, -⟩ := ha
        refine Classical.byContradiction fun k => ?_
        rw [when_neg k] at hb; cases hb
      · intro h
        rw [when_pos h] at hb
        obtain ⟨x, rfl, -⟩ := hb
        refine Classical.byContradiction fun k => ?_
        rw [when_neg k] at ha; cases ha
    · exact fun h => absurd h.1 e

theorem same_processor {v v' : processor.Processor}
    (h : processor.Processor.try_from s = .ok v) (h' : processor.Processor.try_from s' = .ok v') :
    v = v' ↔ s.handle = s'.handle ∧ textFields (.Processor v) = textFields (.Processor v') ∧
      storedFamily s = storedFamily s' ∧
      SameBits [0, 1, 2, 6] (byte s 0x18).toNat (byte s' 0x18).toNat ∧
      SameAt s s' [(0x05, 1), (0x08, 8), (0x11, 1), (0x12, 2), (0x14, 2), (0x16, 2), (0x19, 1)] ∧
      JointlySince s s' 2 1 (SameAt s s' [(0x1A, 2), (0x1C, 2), (0x1E, 2)]) ∧
      JointlySince s s' 2 5 (storedCount s 0x23 0x2A = storedCount s' 0x23 0x2A ∧
        storedCount s 0x24 0x2C = storedCount s' 0x24 0x2C ∧
        storedCount s 0x25 0x2E = storedCount s' 0x25 0x2E) ∧
      JointlySince s s' 2 6 (SameBits [0, 1, 2, 3, 4, 5, 6, 7, 9] (word s 0x26).toNat (word s' 0x26).toNat) := by
  have f : Fits s (processorLength s) := Classical.byContradiction fun k => by
    rw [C35_short s k] at h; cases h
  have f' : Fits s' (processorLength s') := Classical.byContradiction fun k => by
    rw [C35_short s' k] at h'; cases h'
  obtain ⟨a1, -, a2, a3, -, a4, -, a5, a6, a7, a8, x, a9, a10, a11, a12, -, -, -, a13, a14, a15, y⟩ :=
    (C35_decodes s f v).1 h
  obtain ⟨b1, -, b2, b3, -, b4, -, b5, b6, b7, b8, x', b9, b10, b11, b12, -, -, -, b13, b14, b15, y'⟩ :=
    (C35_decodes s' f' v').1 h'
  clear h h'
  have k1 : v.status = v'.status ↔ SameBits [0, 1, 2, 6] (byte s 0x18).toNat (byte s' 0x18).toNat := by
    rw [← kept_same x x', UInt8.toNat_inj]
    cases v.status; cases v'.status; simp
  have k2 := when_kept_both y y' (fun {x y} e => by cases x; cases y; exact congrArg _ (UInt16.toNat_inj.1 e))
  cases v; cases v'
  simp only [when_eq] at *
  subst a1 a2 a3 a4 a5 a6 a7 a8 a9 a10 a11 a12 a13 a14 a15 b1 b2 b3 b4 b5 b6 b7 b8 b9 b10 b11 b12 b13 b14 b15
  same [JointlySince, opt_since, jointly_and, processor.Processor.mk.injEq, k1, k2,
    inj_iff @C53_processor_ProcessorType_injective,
    inj_iff @C53_processor_ProcessorUpgrade_injective, inj_iff @C36_family_injective,
    inj_iff @C36_voltage_injective]

theorem level_same {α : Type} {l : List α} (hl : l.Nodup) {i j : Nat} {a b : α} (ha : l[i]? = some a)
    (hb : l[j]? = some b) : a = b ↔ i = j := by
  constructor
  · rintro rfl
    exact (List.getElem?_inj (List.getElem?_eq_some_iff.1 ha).1 hl).1 (ha.trans hb.symm)
  · rintro rfl
    exact Option.some.inj (ha.symm.trans hb)

theorem config_same {w w' : Nat} {c c' : cache.CacheConfiguration} (h : ConfigFields w c)
    (h' : ConfigFields w' c') : c = c' ↔ SameBits [0, 1, 2, 3, 5, 6, 7, 8, 9] w w' := by
  obtain ⟨h1, h2, h3, h4, h5⟩ := h
  obtain ⟨k1, k2, k3, k4, k5⟩ := h'
  have e1 := level_same (by decide) h1 k1
  have e3 := level_same (by decide) h3 k3
  have e5 := level_same (by decide) h5 k5
  rw [show 8 = 2 ^ 3 from rfl, mod_same] at e1
  rw [show 4 = 2 ^ 2 from rfl, mod_same] at e3 e5
  obtain ⟨a1, a2, a3, a4, a5⟩ := c
  obtain ⟨b1, b2, b3, b4, b5⟩ := c'
  simp only at h2 h4 k2 k4 e1 e3 e5
  subst h2 h4 k2 k4
  simp only [cache.CacheConfiguration.mk.injEq, e1, e3, e5, SameBits, List.range, List.range.loop,
    List.forall_mem_cons, List.not_mem_nil, false_implies, implies_true, and_true,
    Nat.testBit_div_two_pow, Nat.reduceAdd, and_assoc]

theorem sram_same {w w' : UInt16} {c c' : cache.CacheSramType} (h : c.bits.toNat = w.toNat % 128)
    (h' : c'.bits.toNat = w'.toNat % 128) : c = c' ↔ SameBits (List.range 7) w.toNat w'.toNat := by
  rw [← mod_same, show 2 ^ 7 = 128 from rfl, ← h, ← h', UInt16.toNat_inj]
  cases c; cases c'; simp

theorem same_cache {v v' : cache.Cache} (h : cache.Cache.try_from s = .ok v)
    (h' : cache.Cache.try_from s' = .ok v') : v = v' ↔ s.handle = s'.handle ∧
      textFields (.Cache v) = textFields (.Cache v') ∧
      SameBits [0, 1, 2, 3, 5, 6, 7, 8, 9] (word s 0x05).toNat (word s' 0x05).toNat ∧
      SameAt s s' [(0x07, 2), (0x09, 2)] ∧
      SameBits (List.range 7) (word s 0x0B).toNat (word s' 0x0B).toNat ∧
      SameBits (List.range 7) (word s 0x0D).toNat (word s' 0x0D).toNat ∧
      JointlySince s s' 2 2 (SameAt s s' [(0x0F, 1), (0x10, 1), (0x11, 1), (0x12, 1)]) ∧
      JointlySince s s' 3 2 (SameAt s s' [(0x13, 4), (0x17, 4)]) := by
  have va : Since s 2 1 := Classical.byContradiction fun k => by
    rw [(C37_faults s).1.2 k] at h; cases h
  have va' : Since s' 2 1 := Classical.byContradiction fun k => by
    rw [(C37_faults s').1.2 k] at h'; cases h'
  have f : Fits s (cacheReads s) := Classical.byContradiction fun k => by
    rw [(C37_faults s).2.2 ⟨va, k⟩] at h; cases h
  have f' : Fits s' (cacheReads s') := Classical.byContradiction fun k => by
    rw [(C37_faults s').2.2 ⟨va', k⟩] at h'; cases h'
  obtain ⟨a1, -, x, a2, a3, y, z, a4, a5, a6, a7, a8, a9⟩ := (C37_decodes s va f v).1 h
  obtain ⟨b1, -, x', b2, b3, y', z', b4, b5, b6, b7, b8, b9⟩ := (C37_decodes s' va' f' v').1 h'
  clear h h'
  have k1 := config_same x x'
  have k2 := sram_same y y'
  have k3 := sram_same z z'
  clear x x' y y' z z'
  cases v; cases v'
  simp only [when_eq] at *
  subst a1 a2 a3 a4 a5 a6 a7 a8 a9 b1 b2 b3 b4 b5 b6 b7 b8 b9
  same [JointlySince, opt_since, jointly_and, cache.Cache.mk.injEq, k1, k2, k3, inj_iff (C38_size_injective.1 _ _),
    inj_iff (C38_size_injective.2 _ _), inj_iff @C53_cache_CacheErrorCorrectionType_injective,
    inj_iff @C53_cache_SystemCacheType_injective, inj_iff @C53_cache_CacheAssociativity_injective]

/-- The code, where the first of each pair is read as the second. -/
def canonical (pairs : List (UInt8 × UInt8)) (b : UInt8) : UInt8 := (pairs.lookup b).getD b

/-- The codes are the same if the first of each pair is read as the second. -/
def SameCode (pairs : List (UInt8 × UInt8)) (a b : UInt8) : Prop := canonical pairs a = canonical pairs b

theorem codes_same {T : Type} {f : UInt8 → T} {pairs : List (UInt8 × UInt8)} {P : UInt8 → Prop}
    (h : ∀ b, P (canonical pairs b) ∧ f b = f (canonical pairs b))
    (inj : ∀ {a b}, P a → P b → f a = f b → a = b) {a b : UInt8} : f a = f b ↔ SameCode pairs a b := by
  rw [(h a).2, (h b).2]
  exact ⟨inj (h a).1 (h b).1, congrArg f⟩

theorem form_same {a b : UInt8} : memory_device.FormFactor.ofU8 a = memory_device.FormFactor.ofU8 b ↔
    SameCode [(9, 8)] a b :=
  codes_same (P := (· ≠ 9)) (forall_u8 (by decide +kernel)) C53_FormFactor_injective_partial

theorem type_same {a b : UInt8} : memory_device.MemoryType.ofU8 a = memory_device.MemoryType.ofU8 b ↔
    SameCode [(0x16, 0x15), (0x17, 0x15)] a b := by
  refine codes_same (P := (· ∉ [0x16, 0x17])) (forall_u8 (by decide +kernel)) ?_
  have k : ∀ b : UInt8, b ∉ [0x16, 0x17] →
      memory_device.MemoryType.ofU8 b = memory_device.MemoryType.ofU8 0x15 → b = 0x15 :=
    forall_u8 (by decide +kernel)
  intro a b ha hb e
  by_cases h1 : a = 0x15
  · subst h1; exact (k b hb e.symm).symm
  by_cases h2 : b = 0x15
  · subst h2; exact k a ha e
  exact C53_MemoryType_injective_partial (List.not_mem_cons_of_ne_of_not_mem h1 ha)
    (List.not_mem_cons_of_ne_of_not_mem h2 hb) e

theorem slot_same {a b : UInt8} : system_slots.SlotType.ofU8 a = system_slots.SlotType.ofU8 b ↔
    SameCode [(0x1F, 0xAB), (0x20, 0xB1), (0x24, 0xB8), (0x25, 0xBE)] a b :=
  codes_same (P := (· ∉ [0x1F, 0x20, 0x24, 0x25])) (forall_u8 (by decide +kernel))
    C53_SlotType_injective_partial

theorem same_memory_device {oc : Bool} {v v' : memory_device.MemoryDevice}
    (h : memory_device.MemoryDevice.try_from oc s = .ok v)
    (h' : memory_device.MemoryDevice.try_from oc s' = .ok v') : v = v' ↔ s.handle = s'.handle ∧
      textFields (.MemoryDevice v) = textFields (.MemoryDevice v') ∧
      SameCode [(9, 8)] (byte s 0x0E) (byte s' 0x0E) ∧
      SameCode [(0x16, 0x15), (0x17, 0x15)] (byte s 0x12) (byte s' 0x12) ∧
      SameBits detailBits (word s 0x13).toNat (word s' 0x13).toNat ∧
      SameAt s s' [(0x04, 2), (0x06, 2), (0x08, 2), (0x0A, 2), (0x0C, 2), (0x0F, 1), (0x15, 2),
        (0x1B, 1), (0x1C, 4)] ∧
      Jointly (Fits s 0x22 ∧ word s 0x20 ≠ 0) (Fits s' 0x22 ∧ word s' 0x20 ≠ 0) (SameAt s s' [(0x20, 2)]) ∧
      Jointly (Fits s 0x24 ∧ word s 0x22 ≠ 0) (Fits s' 0x24 ∧ word s' 0x22 ≠ 0) (SameAt s s' [(0x22, 2)]) ∧
      Jointly (Fits s 0x26 ∧ word s 0x24 ≠ 0) (Fits s' 0x26 ∧ word s' 0x24 ≠ 0) (SameAt s s' [(0x24, 2)]) ∧
      Jointly (Fits s 0x28 ∧ word s 0x26 ≠ 0) (Fits s' 0x28 ∧ word s' 0x26 ≠ 0) (SameAt s s' [(0x26, 2)]) ∧
      JointlyFit s s' 0x29 (SameAt s s' [(0x28, 1)]) ∧
      JointlyFit s s' 0x2B (SameBits modeBits (word s 0x29).toNat (word s' 0x29).toNat) ∧
      JointlyFit s s' 0x2E (SameAt s s' [(0x2C, 2)]) ∧ JointlyFit s s' 0x30 (SameAt s s' [(0x2E, 2)]) ∧
      JointlyFit s s' 0x32 (SameAt s s' [(0x30, 2)]) ∧ JointlyFit s s' 0x34 (SameAt s s' [(0x32, 2)]) ∧
      JointlyFit s s' 0x3C (SameAt s s' [(0x34, 8)]) ∧ JointlyFit s s' 0x44 (SameAt s s' [(0x3C, 8)]) ∧
      JointlyFit s s' 0x4C (SameAt s s' [(0x44, 8)]) ∧ JointlyFit s s' 0x54 (SameAt s s' [(0x4C, 8)]) ∧
      JointlyFit s s' 0x58 (SameAt s s' [(0x54, 4)]) ∧ JointlyFit s s' 0x5C (SameAt s s' [(0x58, 4)]) := by
  have f : Fits s 0x20 := Classical.byContradiction fun k => by
    by_cases k' : Fits s 0x15
    · obtain ⟨e, he, -⟩ := (C48_short oc s).2 k' k
      rw [he] at h; cases h
    · rw [(C48_short oc s).1 k'] at h; cases h
  have f' : Fits s' 0x20 := Classical.byContradiction fun k => by
    by_cases k' : Fits s' 0x15
    · obtain ⟨e, he, -⟩ := (C48_short oc s').2 k' k
      rw [he] at h'; cases h'
    · rw [(C48_short oc s').1 k'] at h'; cases h'
  obtain ⟨a1, a2, a3, a4, a5, a6, a7, a8, -, -, a9, x, a10, -, -, -, -, a11, a12, a13, a14, a15, a16,
    a17, y, -, a18, a19, a20, a21, a22, a23, a24, a25, a26, a27⟩ := (C48_decodes oc s f v).1 h
  obtain ⟨b1, b2, b3, b4, b5, b6, b7, b8, -, -, b9, x', b10, -, -, -, -, b11, b12, b13, b14, b15, b16,
    b17, y', -, b18, b19, b20, b21, b22, b23, b24, b25, b26, b27⟩ := (C48_decodes oc s' f' v').1 h'
  clear h h'
  have k1 : v.type_detail = v'.type_detail ↔
      SameBits detailBits (word s 0x13).toNat (word s' 0x13).toNat := by
    rw [← kept_same x x', UInt16.toNat_inj]
    cases v.type_detail; cases v'.type_detail; simp
  have k2 := when_kept_both y y' (fun {x y} e => by cases x; cases y; exact congrArg _ (UInt16.toNat_inj.1 e))
  clear x x' y y'
  cases v; cases v'
  simp only [when_eq] at *
  subst a1 a2 a3 a4 a5 a6 a7 a8 a9 a10 a11 a12 a13 a14 a15 a16 a17 a18 a19 a20 a21 a22 a23 a24 a25 a26 a27
    b1 b2 b3 b4 b5 b6 b7 b8 b9 b10 b11 b12 b13 b14 b15 b16 b17 b18 b19 b20 b21 b22 b23 b24 b25 b26 b27
  same [JointlyFit, opt_both, opt_both_and, memory_device.MemoryDevice.mk.injEq, k1, k2, form_same, type_same,
    inj_iff @C53_memory_device_MemoryTechnology_injective]

theorem same_memory_error {oc : Bool} {v v' : memory_error_32.MemoryError32}
    (h : memory_error_32.MemoryError32.try_from oc s = .ok v)
    (h' : memory_error_32.MemoryError32.try_from oc s' = .ok v') : v = v' ↔ s.handle = s'.handle ∧
      SameAt s s' [(0x04, 1), (0x05, 1), (0x06, 1), (0x07, 4), (0x0B, 4), (0x0F, 4), (0x13, 4)] := by
  have key : ∀ {s v}, memory_error_32.MemoryError32.try_from oc s = .ok v → MemoryErrorFields s v := by
    intro s v h
    have hl : Since s 2 1 → s.length = 0x17 := fun h1 => Classical.byContradiction fun k => by
      rw [(C49_rejects oc s).1 h1 k] at h; cases h
    have f : Fits s 0x17 := Classical.byContradiction fun k => by
      rw [(C49_rejects oc s).2 hl k] at h; cases h
    exact (C49_decodes oc s hl f v).1 h
  obtain ⟨a1, a2, a3, a4, a5, a6, a7, a8⟩ := key h
  obtain ⟨b1, b2, b3, b4, b5, b6, b7, b8⟩ := key h'
  clear h h'
  cases v; cases v'
  simp only at *
  subst a1 a2 a3 a4 a5 a6 a7 a8 b1 b2 b3 b4 b5 b6 b7 b8
  same [memory_error_32.MemoryError32.mk.injEq, inj_iff @C53_memory_error_32_ErrorType_injective,
    inj_iff @C53_memory_error_32_ErrorGranularity_injective,
    inj_iff @C53_memory_error_32_ErrorOperation_injective]

theorem same_array_address {oc : Bool}
    {v v' : memory_array_mapped_address.MemoryArrayMappedAddress}
    (h : memory_array_mapped_address.MemoryArrayMappedAddress.try_from oc s = .ok v)
    (h' : memory_array_mapped_address.MemoryArrayMappedAddress.try_from oc s' = .ok v') :
    v = v' ↔ s.handle = s'.handle ∧ SameAt s s' [(0x04, 4), (0x08, 4), (0x0C, 2), (0x0E, 1)] ∧
      JointlyFit s s' 0x17 (SameAt s s' [(0x0F, 8)]) ∧ JointlyFit s s' 0x1F (SameAt s s' [(0x17, 8)]) := by
  have key : ∀ {s v}, memory_array_mapped_address.MemoryArrayMappedAddress.try_from oc s = .ok v →
      ArrayAddressFields s v := by
    intro s v h
    have hl : ArrayAddressLength s := by
      refine ⟨fun h1 h2 => Classical.byContradiction fun k => ?_,
        fun h1 => Classical.byContradiction fun k => ?_⟩
      · rw [(C50_array_rejects oc s).1 h1 h2 k] at h; cases h
      · rw [(C50_array_rejects oc s).2.1 h1 k] at h; cases h
    have f : Fits s 0x0F := Classical.byContradiction fun k => by
      rw [(C50_array_rejects oc s).2.2 hl k] at h; cases h
    exact (C50_array_decodes oc s hl f v).1 h
  obtain ⟨a1, a2, a3, a4, a5, a6, a7⟩ := key h
  obtain ⟨b1, b2, b3, b4, b5, b6, b7⟩ := key h'
  clear h h'
  cases v; cases v'
  simp only [when_eq] at *
  subst a1 a2 a3 a4 a5 a6 a7 b1 b2 b3 b4 b5 b6 b7
  same [JointlyFit, opt_both, opt_both_and, memory_array_mapped_address.MemoryArrayMappedAddress.mk.injEq]

theorem same_device_address {oc : Bool}
    {v v' : memory_device_mapped_address.MemoryDeviceMappedAddress}
    (h : memory_device_mapped_address.MemoryDeviceMappedAddress.try_from oc s = .ok v)
    (h' : memory_device_mapped_address.MemoryDeviceMappedAddress.try_from oc s' = .ok v') :
    v = v' ↔ s.handle = s'.handle ∧ SameAt s s' [(0x04, 4), (0x08, 4), (0x0C, 2), (0x0E, 2),
        (0x10, 1), (0x11, 1), (0x12, 1)] ∧
      JointlyFit s s' 0x1B (SameAt s s' [(0x13, 8)]) ∧ JointlyFit s s' 0x23 (SameAt s s' [(0x1B, 8)]) := by
  have key : ∀ {s v}, memory_device_mapped_address.MemoryDeviceMappedAddress.try_from oc s = .ok v →
      DeviceAddressFields s v := by
    intro s v h
    have hl : DeviceAddressLength s := by
      refine ⟨fun h1 h2 => Classical.byContradiction fun k => ?_,
        fun h1 => Classical.byContradiction fun k => ?_⟩
      · rw [(C50_device_rejects oc s).1 h1 h2 k] at h; cases h
      · rw [(C50_device_rejects oc s).2.1 h1 k] at h; cases h
    have f : Fits s 0x13 := Classical.byContradiction fun k => by
      rw [(C50_device_rejects oc s).2.2 hl k] at h; cases h
    exact (C50_device_decodes oc s hl f v).1 h
  obtain ⟨a1, a2, a3, a4, a5, a6, a7, a8, a9, a10⟩ := key h
  obtain ⟨b1, b2, b3, b4, b5, b6, b7, b8, b9, b10⟩ := key h'
  clear h h'
  cases v; cases v'
  simp only [when_eq] at *
  subst a1 a2 a3 a4 a5 a6 a7 a8 a9 a10 b1 b2 b3 b4 b5 b6 b7 b8 b9 b10
  same [JointlyFit, opt_both, opt_both_and, memory_device_mapped_address.MemoryDeviceMappedAddress.mk.injEq]

theorem same_pointing {oc : Bool} {v v' : built_in_pointing_device.BuiltInPointingDevice}
    (h : built_in_pointing_device.BuiltInPointingDevice.try_from oc s = .ok v)
    (h' : built_in_pointing_device.BuiltInPointingDevice.try_from oc s' = .ok v') :
    v = v' ↔ s.handle = s'.handle ∧ SameAt s s' [(0x04, 1), (0x05, 1), (0x06, 1)] := by
  have key : ∀ {s v}, built_in_pointing_device.BuiltInPointingDevice.try_from oc s = .ok v →
      PointingFields s v := by
    intro s v h
    have hl : Since s 2 1 → s.length = 7 := fun h1 => Classical.byContradiction fun k => by
      rw [(C51_rejects oc s).1 h1 k] at h; cases h
    have f : Fits s 7 := Classical.byContradiction fun k => by
      rw [(C51_rejects oc s).2 hl k] at h; cases h
    exact (C51_decodes oc s hl f v).1 h
  obtain ⟨a1, a2, a3, a4⟩ := key h
  obtain ⟨b1, b2, b3, b4⟩ := key h'
  clear h h'
  cases v; cases v'
  simp only at *
  subst a1 a2 a3 a4 b1 b2 b3 b4
  same [built_in_pointing_device.BuiltInPointingDevice.mk.injEq,
    inj_iff @C53_built_in_pointing_device_DeviceType_injective,
    inj_iff @C53_built_in_pointing_device_Interface_injective]

theorem extended_same {c c' : Prop} [Decidable c] [Decidable c'] {d k : UInt32} {q q' : UInt64} :
    optIf (c ∧ d = k ∧ q ≠ 0) q = optIf (c' ∧ d = k ∧ q' ≠ 0) q' ↔
      (d = k → Jointly (c ∧ q ≠ 0) (c' ∧ q' ≠ 0) (q = q')) := by
  rw [optIf_both]
  by_cases h : d = k <;> simp [h, Jointly]

theorem same_array (hv : Since s 2 2) (hv' : Since s' 2 2)
    {v v' : physical_memory_array.PhysicalMemoryArray}
    (h : physical_memory_array.PhysicalMemoryArray.try_from s = .ok v)
    (h' : physical_memory_array.PhysicalMemoryArray.try_from s' = .ok v') :
    v = v' ↔ s.handle = s'.handle ∧
      SameAt s s' [(0x04, 1), (0x05, 1), (0x06, 1), (0x07, 4), (0x0B, 2), (0x0D, 2)] ∧
      (dword s 0x07 = 0x80000000 → Jointly (Since s 2 8 ∧ qword s 0x0F ≠ 0) (Since s' 2 8 ∧ qword s' 0x0F ≠ 0)
        (SameAt s s' [(0x0F, 8)])) := by
  have f : ArrayFits s := Classical.byContradiction fun k => by
    rw [C47_short s hv k] at h; cases h
  have f' : ArrayFits s' := Classical.byContradiction fun k => by
    rw [C47_short s' hv' k] at h'; cases h'
  obtain ⟨a1, a2, a3, a4, a5, a6, a7, a8⟩ := (C47_decodes s hv f v).1 h
  obtain ⟨b1, b2, b3, b4, b5, b6, b7, b8⟩ := (C47_decodes s' hv' f' v').1 h'
  clear h h' f f' hv hv'
  cases v; cases v'
  simp only [when_eq] at *
  subst a1 a2 a3 a4 a5 a6 a7 a8 b1 b2 b3 b4 b5 b6 b7 b8
  by_cases hd : dword s' 0x07 = dword s 0x07
  · simp only [hd]
    have e := (dword_agree (s := s) (s' := s') (o := 7) (by decide)).1 hd.symm
    same [physical_memory_array.PhysicalMemoryArray.mk.injEq, extended_same, e, true_and,
      inj_iff @C53_MemoryArrayLocation_injective,
      inj_iff @C53_physical_memory_array_MemoryArrayUse_injective,
      inj_iff @C53_physical_memory_array_MemoryArrayErrorCorrectionTypes_injective]
  · constructor
    · intro k
      simp only [physical_memory_array.PhysicalMemoryArray.mk.injEq, optIf_ne] at k
      exact absurd k.2.2.2.2.1.symm hd
    · intro k
      have := k.2.1 (0x07, 4) (by decide)
      exact absurd ((dword_agree (by decide)).2 this).symm hd

/-! ### Batteries -/

open portable_battery in
theorem date_same {c c' : Prop} [Decidable c] [Decidable c'] {n n' : Option Str} {w w' : UInt16} :
    ManufactureDate.new n (optIf c w) = .new n' (optIf c' w') ↔
    dateText (.new n (optIf c w)) = dateText (.new n' (optIf c' w')) ∧ (n = none → Jointly c c' (w = w')) := by
  by_cases h : c <;> by_cases h' : c'
  · simp only [optIf, Jointly, h, h', if_true, true_implies, iff_self, true_and]
    cases n <;> cases n' <;> simp only [ManufactureDate.new, dateText, reduceCtorEq, true_and,
      true_implies, false_implies, and_true, and_false, false_and, ManufactureDate.Basic.injEq,
      Option.some.injEq, ManufactureDate.SmartBatteryDataSpecification.injEq]
    constructor
    · rintro ⟨h1, h2, h3⟩
      obtain ⟨k1, k2, k3⟩ := date_parts w
      obtain ⟨l1, l2, l3⟩ := date_parts w'
      apply UInt16.toNat_inj.1
      have := congrArg UInt16.toNat h1
      have := congrArg UInt8.toNat h2
      have := congrArg UInt8.toNat h3
      omega
    · rintro rfl; exact ⟨rfl, rfl, rfl⟩
  all_goals cases n <;> cases n' <;> simp [ManufactureDate.new, dateText, optIf, Jointly, h, h']

open portable_battery in
theorem serial_same {c c' : Prop} [Decidable c] [Decidable c'] {n n' : Option Str} {w w' : UInt16} :
    SerialNumber.new n (optIf c w) = .new n' (optIf c' w') ↔
    serialText (.new n (optIf c w)) = serialText (.new n' (optIf c' w')) ∧ (n = none → Jointly c c' (w = w')) := by
  by_cases h : c <;> by_cases h' : c' <;> cases n <;> cases n' <;>
    simp [SerialNumber.new, serialText, optIf, Jointly, h, h']

/-- The code of a chemistry. -/
def chemistryCode : portable_battery.DeviceChemistry → UInt8
  | .Other => 1
  | .Unknown => 2
  | .LeadAcid => 3
  | .NickelCadmium => 4
  | .NickelMetalHydride => 5
  | .LithiumIon => 6
  | .ZincAir => 7
  | .LithiumPolymer => 8
  | .Undefined v => v
  | .SmartBatteryDataSpecification _ => 2

open portable_battery in
theorem chemistry_same {b b' : UInt8} {x x' : Option Str} :
    DeviceChemistry.new b x = .new b' x' ↔
    chemistryText (.new b x) = chemistryText (.new b' x') ∧ b = b' := by
  have code : ∀ (b : UInt8) (x : Option Str), b = chemistryCode (.new b x) := by
    intro b x
    by_cases h : b = 2
    · subst h; cases x <;> rfl
    · rw [chemistry_names b h]
      revert h; revert b; exact forall_u8 (by decide +kernel)
  constructor
  · intro h
    exact ⟨by rw [h], by rw [code b x, code b' x', h]⟩
  · rintro ⟨h, rfl⟩
    by_cases k : b = 2
    · subst k; cases x <;> cases x' <;> simp [DeviceChemistry.new, chemistryText] at h ⊢
      exact h
    · rw [chemistry_names _ k, chemistry_names _ k]

/-- The multiplier of the capacity of a battery, 1 if there is none. -/
def storedMultiplier (s : RawStructure) : UInt8 := if Fits s 0x16 then byte s 0x15 else 1

open portable_battery in
theorem capacity_same {c c' : Prop} [Decidable c] [Decidable c'] {w w' : UInt16} {m m' : UInt8} :
    DesignCapacity.new w (optIf c m) = .new w' (optIf c' m') ↔ w = w' ∧
      (w ≠ 0 → (if c then m else 1) = if c' then m' else 1) := by
  unfold DesignCapacity.new
  by_cases h : w = 0
  · by_cases h' : w' = 0
    · simp [h, h']
    · simp [h, h', eq_comm]
  · by_cases h' : w' = 0
    · simp [h, h']
    · by_cases hc : c <;> by_cases hc' : c' <;> simp [h, h', hc, hc', optIf]

theorem same_battery {oc : Bool} {v v' : portable_battery.PortableBattery}
    (h : portable_battery.PortableBattery.try_from oc s = .ok v)
    (h' : portable_battery.PortableBattery.try_from oc s' = .ok v') :
    v = v' ↔ s.handle = s'.handle ∧ textFields (.PortableBattery v) = textFields (.PortableBattery v') ∧
      SameAt s s' [(0x09, 1), (0x0A, 2), (0x0C, 2), (0x0F, 1)] ∧
      ((∀ x, ¬ Named s 0x06 x) → JointlyFit s s' 0x14 (SameAt s s' [(0x12, 2)])) ∧
      ((∀ x, ¬ Named s 0x07 x) → JointlyFit s s' 0x12 (SameAt s s' [(0x10, 2)])) ∧
      (word s 0x0A ≠ 0 → storedMultiplier s = storedMultiplier s') ∧
      JointlyFit s s' 0x1A (SameAt s s' [(0x16, 4)]) := by
  have key : ∀ {s v}, portable_battery.PortableBattery.try_from oc s = .ok v → BatteryFields s v := by
    intro s v h
    have hl : BatteryLength s := by
      refine ⟨fun h1 => Classical.byContradiction fun k => ?_,
        fun h1 => Classical.byContradiction fun k => ?_⟩
      · rw [(C52_rejects oc s).1 h1 k] at h; cases h
      · rw [(C52_rejects oc s).2.1 h1 k] at h; cases h
    have f : Fits s 0x10 := Classical.byContradiction fun k => by
      obtain ⟨e, he, -⟩ := (C52_rejects oc s).2.2.2 hl k
      rw [he] at h; cases h
    exact (C52_decodes oc s hl f v).1 h
  obtain ⟨a1, -, -, a2, a3, -, a4, a5, a6, -, a7, a8⟩ := key h
  obtain ⟨b1, -, -, b2, b3, -, b4, b5, b6, -, b7, b8⟩ := key h'
  clear h h'
  cases v; cases v'
  simp only [when_eq, date_iff, serial_iff, chemistry_iff, capacity_iff, ← namedAt_none] at *
  subst a1 a2 a3 a4 a5 a6 a7 a8 b1 b2 b3 b4 b5 b6 b7 b8
  same [JointlyFit, opt_both, opt_both_and, portable_battery.PortableBattery.mk.injEq,
    date_same, serial_same, chemistry_same,
    capacity_same, storedMultiplier]

/-! ### Structures with lists of records -/

theorem bytesAt_same {o n n' : Nat} (h : 4 ≤ o) :
    bytesAt s.data (o - 4) n = bytesAt s'.data (o - 4) n' ↔ n = n' ∧ SameBytes s s' o n := by
  unfold bytesAt SameBytes byte
  constructor
  · intro e
    have hl : n = n' := by simpa using congrArg List.length e
    subst hl
    refine ⟨rfl, fun i hi => ?_⟩
    rw [List.map_inj_left] at e
    have := e i (List.mem_range.2 hi)
    rwa [show o + i - 4 = o - 4 + i by omega]
  · rintro ⟨rfl, k⟩
    rw [List.map_inj_left]
    intro i hi
    have := k i (List.mem_range.1 hi)
    rwa [show o + i - 4 = o - 4 + i by omega] at this

theorem sameBytes_append {o n m : Nat} :
    SameBytes s s' o (n + m) ↔ SameBytes s s' o n ∧ SameBytes s s' (o + n) m := by
  unfold SameBytes
  constructor
  · intro h
    exact ⟨fun i hi => h i (by omega), fun i hi => by rw [Nat.add_assoc]; exact h _ (by omega)⟩
  · rintro ⟨h, k⟩ i hi
    by_cases c : i < n
    · exact h i c
    · have := k (i - n) (by omega)
      rwa [show o + n + (i - n) = o + i by omega] at this

theorem optIf_same {α : Type} {c c' : Prop} [Decidable c] [Decidable c'] {a b : α} {q : Prop}
    (h : c → c' → (a = b ↔ q)) : optIf c a = optIf c' b ↔ (c ↔ c') ∧ (c → q) := by
  by_cases hc : c <;> by_cases hc' : c' <;> simp [optIf, hc, hc']
  exact h hc hc'

/-- The list of contained elements is there. -/
def HasElements (s : RawStructure) : Prop := Fits s 0x15 ∧ Fits s (0x15 + recordBytes s)

theorem elements_same :
    (⟨initialChunks s, byte s 0x13, byte s 0x14⟩ : enclosure.ContainedElements) =
      ⟨initialChunks s', byte s' 0x13, byte s' 0x14⟩ ↔ SameBytes s s' 0x13 (2 + recordBytes s) := by
  rw [sameBytes_append, show (2 : Nat) = 1 + 1 from rfl, sameBytes_append, ← byte_agree, ← byte_agree,
    enclosure.ContainedElements.mk.injEq]
  constructor
  · rintro ⟨h1, h2, h3⟩
    refine ⟨⟨h2, h3⟩, ?_⟩
    by_cases h : elementCount s = 0 ∨ elementLength s = 0
    · have hr : recordBytes s = 0 := by
        unfold recordBytes; rcases h with h | h <;> simp [h]
      rw [hr]; intro i hi; omega
    · have e1 : elementCount s' = elementCount s := by unfold elementCount; rw [h2]
      have e2 : elementLength s' = elementLength s := by unfold elementLength; rw [h3]
      unfold initialChunks at h1
      rw [if_neg h, if_neg (by rwa [e1, e2])] at h1
      injection h1 with h1
      exact ((bytesAt_same (o := 0x15) (by decide)).1 h1).2
  · rintro ⟨⟨h2, h3⟩, h1⟩
    refine ⟨?_, h2, h3⟩
    have e1 : elementCount s' = elementCount s := by unfold elementCount; rw [h2]
    have e2 : elementLength s' = elementLength s := by unfold elementLength; rw [h3]
    unfold initialChunks
    rw [e1, e2]
    split
    · rfl
    · congr 1
      have e3 : recordBytes s' = recordBytes s := by unfold recordBytes; rw [e1, e2]
      rw [e3]
      exact (bytesAt_same (o := 0x15) (by decide)).2 ⟨rfl, h1⟩

theorem same_enclosure {oc : Bool} {v v' : enclosure.Enclosure}
    (h : enclosure.Enclosure.try_from oc s = .ok v)
    (h' : enclosure.Enclosure.try_from oc s' = .ok v') :
    v = v' ↔ s.handle = s'.handle ∧ textFields (.Enclosure v) = textFields (.Enclosure v') ∧
      SameAt s s' [(0x05, 1)] ∧
      JointlyFit s s' 0x0A (SameAt s s' [(0x09, 1)]) ∧ JointlyFit s s' 0x0B (SameAt s s' [(0x0A, 1)]) ∧
      JointlyFit s s' 0x0C (SameAt s s' [(0x0B, 1)]) ∧ JointlyFit s s' 0x0D (SameAt s s' [(0x0C, 1)]) ∧
      JointlyFit s s' 0x11 (SameAt s s' [(0x0D, 4)]) ∧ JointlyFit s s' 0x12 (SameAt s s' [(0x11, 1)]) ∧
      JointlyFit s s' 0x13 (SameAt s s' [(0x12, 1)]) ∧
      (HasElements s ↔ HasElements s') ∧
      (HasElements s → SameAt s s' [(0x13, 2 + recordBytes s)]) := by
  have key : ∀ {s v}, enclosure.Enclosure.try_from oc s = .ok v → ∃ a b c d e,
      v = enclosure.Enclosure.mk s.handle a (enclosure.get_lock (byte s 5)) (enclosure.get_type (byte s 5)) b c d
        (optIf (Fits s 0x0A) (.ofU8 (byte s 0x09))) (optIf (Fits s 0x0B) (.ofU8 (byte s 0x0A)))
        (optIf (Fits s 0x0C) (.ofU8 (byte s 0x0B))) (optIf (Fits s 0x0D) (.ofU8 (byte s 0x0C)))
        (optIf (Fits s 0x11) (dword s 0x0D)) (optIf (Fits s 0x12) (byte s 0x11))
        (optIf (Fits s 0x13) (byte s 0x12))
        (optIf (Fits s 0x15 ∧ Fits s (0x15 + recordBytes s)) ⟨initialChunks s, byte s 0x13, byte s 0x14⟩) e := by
    intro s v h
    have f : Fits s 9 := Classical.byContradiction fun k => by
      rw [C33_short oc s k] at h; cases h
    have h : enclosure.Enclosure.try_from false s = .ok v := by
      cases oc
      · exact h
      · have A : Agrees (enclosure.Enclosure.try_from true s) (enclosure.Enclosure.try_from false s) := by
          unfold enclosure.Enclosure.try_from; agree [optionals_agrees _]
        rcases A with k | k <;> rw [k] at h
        · cases h
        · exact h
    rw [enclosure_eval false s f (fun k => absurd k (by decide))] at h
    simp only [bind_ok_iff, pure_eq_ok, Res.ok.injEq] at h
    obtain ⟨a, -, b, -, c, -, d, -, e, -, rfl⟩ := h
    exact ⟨a, b, c, d, e, rfl⟩
  obtain ⟨a, b, c, d, e, rfl⟩ := key h
  obtain ⟨a', b', c', d', e', rfl⟩ := key h'
  clear h h' key
  have k1 : ∀ {a b} {p : Prop}, (enclosure.get_lock a = enclosure.get_lock b ∧
      enclosure.get_type a = enclosure.get_type b ∧ p) ↔ (a = b ∧ p) := fun {a b} p =>
    ⟨fun h => ⟨C33_type_lossless a b h.1 h.2.1, h.2.2⟩, by rintro ⟨rfl, h⟩; exact ⟨rfl, rfl, h⟩⟩
  rw [enclosure.Enclosure.mk.injEq]
  have e := optIf_same (c := Fits s 0x15 ∧ Fits s (0x15 + recordBytes s))
    (c' := Fits s' 0x15 ∧ Fits s' (0x15 + recordBytes s')) (fun _ _ => elements_same (s := s) (s' := s'))
  rw [e]
  same [JointlyFit, opt_both, opt_both_and, HasElements, inj_iff @C53_enclosure_State_injective, k1,
    inj_iff @C53_enclosure_SecurityStatus_injective]

/-- The list of peer devices is there. -/
def HasPeers (s : RawStructure) : Prop := Fits s (0x13 + 5 * peerCount s)

theorem devFn_same {a b : UInt8} : system_slots.DeviceAndFunctionNumber.ofU8 a = .ofU8 b ↔ a = b :=
  ⟨fun h => by rw [← (C41_split a).2, h, (C41_split b).2], congrArg _⟩

theorem peers_same :
    (⟨⟨bytesAt s.data 0x0F (5 * peerCount s), 5⟩⟩ : system_slots.PeerDevices) =
      ⟨⟨bytesAt s'.data 0x0F (5 * peerCount s'), 5⟩⟩ ↔
    peerCount s = peerCount s' ∧ SameBytes s s' 0x13 (5 * peerCount s) := by
  simp only [system_slots.PeerDevices.mk.injEq, Chunks.mk.injEq, and_true]
  rw [bytesAt_same (o := 0x13) (by decide)]
  constructor
  · rintro ⟨h, k⟩; exact ⟨by omega, k⟩
  · rintro ⟨h, k⟩; exact ⟨by omega, k⟩

theorem same_slots {oc : Bool} {v v' : system_slots.SystemSlots}
    (h : system_slots.SystemSlots.try_from oc s = .ok v)
    (h' : system_slots.SystemSlots.try_from oc s' = .ok v') :
    v = v' ↔ s.handle = s'.handle ∧ textFields (.SystemSlots v) = textFields (.SystemSlots v') ∧
      SameCode [(0x1F, 0xAB), (0x20, 0xB1), (0x24, 0xB8), (0x25, 0xBE)] (byte s 0x05) (byte s' 0x05) ∧
      SameAt s s' [(0x06, 1), (0x07, 1), (0x08, 1), (0x09, 2), (0x0B, 1)] ∧
      JointlyFit s s' 0x0D (SameAt s s' [(0x0C, 1)]) ∧
      Jointly (Fits s 0x0F ∧ word s 0x0D ≠ 0xFFFF) (Fits s' 0x0F ∧ word s' 0x0D ≠ 0xFFFF)
        (SameAt s s' [(0x0D, 2)]) ∧
      Jointly (Fits s 0x10 ∧ byte s 0x0F ≠ 0xFF) (Fits s' 0x10 ∧ byte s' 0x0F ≠ 0xFF)
        (SameAt s s' [(0x0F, 1)]) ∧
      Jointly (Fits s 0x11 ∧ byte s 0x10 ≠ 0xFF) (Fits s' 0x11 ∧ byte s' 0x10 ≠ 0xFF)
        (SameAt s s' [(0x10, 1)]) ∧
      JointlyFit s s' 0x12 (SameAt s s' [(0x11, 1)]) ∧
      (HasPeers s ↔ HasPeers s') ∧
      (HasPeers s → SameAt s s' [(0x12, 1), (0x13, 5 * peerCount s)] ∧
        JointlyFit s s' (0x14 + 5 * peerCount s + 1) (SameAt s s' [(0x14 + 5 * peerCount s, 1)]) ∧
        JointlyFit s s' (0x15 + 5 * peerCount s + 1) (SameAt s s' [(0x15 + 5 * peerCount s, 1)]) ∧
        JointlyFit s s' (0x16 + 5 * peerCount s + 2) (SameAt s s' [(0x16 + 5 * peerCount s, 2)])) := by
  have key : ∀ {s v}, system_slots.SystemSlots.try_from oc s = .ok v → SlotFields s v := by
    intro s v h
    have hl : SlotLengthOk s := by
      obtain ⟨r1, r2, r3, r4, -⟩ := C40_rejects oc s
      refine ⟨fun h1 h2 => Classical.byContradiction fun k => ?_,
        fun h1 h2 => Classical.byContradiction fun k => ?_,
        fun h1 h2 => Classical.byContradiction fun k => ?_,
        fun h1 => Classical.byContradiction fun k => ?_⟩
      · rw [r1 h1 h2 k] at h; cases h
      · rw [r2 h1 h2 k] at h; cases h
      · rw [r3 h1 h2 k] at h; cases h
      · rw [r4 h1 (Nat.lt_of_not_le k)] at h; cases h
    have f : Fits s 0x0C := Classical.byContradiction fun k => by
      obtain ⟨e, he, -⟩ := (C40_rejects oc s).2.2.2.2.2 hl k
      rw [he] at h; cases h
    exact (C40_decodes oc s hl f v).1 h
  obtain ⟨a1, -, a2, a3, a4, a5, a6, a7, a8, a9, a10, a11, a12, a13, a14, a15, a16⟩ := key h
  obtain ⟨b1, -, b2, b3, b4, b5, b6, b7, b8, b9, b10, b11, b12, b13, b14, b15, b16⟩ := key h'
  clear h h' key
  have tail : (v.peer_devices = v'.peer_devices ∧ v.slot_information = v'.slot_information ∧
      v.slot_physical_width = v'.slot_physical_width ∧ v.slot_pitch = v'.slot_pitch) ↔
      ((HasPeers s ↔ HasPeers s') ∧
      (HasPeers s → SameAt s s' [(0x12, 1), (0x13, 5 * peerCount s)] ∧
        JointlyFit s s' (0x14 + 5 * peerCount s + 1) (SameAt s s' [(0x14 + 5 * peerCount s, 1)]) ∧
        JointlyFit s s' (0x15 + 5 * peerCount s + 1) (SameAt s s' [(0x15 + 5 * peerCount s, 1)]) ∧
        JointlyFit s s' (0x16 + 5 * peerCount s + 2) (SameAt s s' [(0x16 + 5 * peerCount s, 2)]))) := by
    unfold HasPeers
    simp only [when_eq] at a13 a14 a15 a16 b13 b14 b15 b16
    rw [a13, a14, a15, a16, b13, b14, b15, b16]
    have later : ∀ {s n k l}, ¬ Fits s (0x13 + 5 * n) → 0x13 ≤ k → ¬ Fits s (k + 5 * n + l) := by
      unfold Fits; intro s n k l h1 h2 h3; omega
    by_cases h1 : Fits s (0x13 + 5 * peerCount s)
    · by_cases h2 : Fits s' (0x13 + 5 * peerCount s')
      · have f13 : Fits s 0x13 := fits_mono h1 (by omega)
        have f13' : Fits s' 0x13 := fits_mono h2 (by omega)
        have pc : peerCount s = peerCount s' ↔ byte s 0x12 = byte s' 0x12 := by
          unfold peerCount
          rw [if_pos f13, if_pos f13', UInt8.toNat_inj]
        rw [optIf, optIf, if_pos h1, if_pos h2, Option.some.injEq, peers_same]
        simp only [h1, h2, true_implies, iff_self, true_and, and_assoc, sameAt_cons, sameAt_nil,
          and_true]
        by_cases e : peerCount s = peerCount s'
        · have e12 : SameBytes s s' 0x12 1 := byte_agree.1 (pc.1 e)
          simp (disch := omega) only [← e, e12, optIf_both, JointlyFit, true_and, byte_agree, word_agree,
            system_slots.SlotPitch.mk.injEq, inj_iff @C53_system_slots_SlotWidth_injective]
        · have e12 : ¬ SameBytes s s' 0x12 1 := fun k => e (pc.2 (byte_agree.2 k))
          simp only [e, e12, false_and]
      · simp [optIf, h1, h2]
    · by_cases h2 : Fits s' (0x13 + 5 * peerCount s')
      · simp [optIf, h1, h2]
      · have l1 := fun k l hk => later (k := k) (l := l) h1 hk
        have l2 := fun k l hk => later (k := k) (l := l) h2 hk
        simp (disch := decide) only [optIf, h1, h2, l1, l2, if_false, false_implies, and_true, iff_self]
  clear a13 a14 a15 a16 b13 b14 b15 b16
  cases v; cases v'
  simp only [when_eq, devFn_fun] at *
  subst a1 a2 a3 a4 a5 a6 a7 a8 a9 a10 a11 a12 b1 b2 b3 b4 b5 b6 b7 b8 b9 b10 b11 b12
  rw [system_slots.SystemSlots.mk.injEq, tail]
  clear tail
  same [JointlyFit, opt_both, opt_both_and, slot_same, devFn_same, system_slots.SlotCharacteristics1.mk.injEq,
    system_slots.SlotCharacteristics2.mk.injEq, inj_iff @C53_system_slots_SlotWidth_injective,
    inj_iff @C53_system_slots_CurrentUsage_injective, inj_iff @C53_system_slots_SlotLength_injective]

/-! ### Event logs, groups and strings -/

theorem le16_same {a b c d : UInt8} : le16 [a, b] = le16 [c, d] ↔ a = c ∧ b = d := by
  have h1 := le16_toNat2 a b
  have h2 := le16_toNat2 c d
  have := a.toNat_lt; have := b.toNat_lt; have := c.toNat_lt; have := d.toNat_lt
  rw [← UInt16.toNat_inj, ← UInt8.toNat_inj, ← UInt8.toNat_inj, h1, h2]
  omega

theorem dword_parts (h : 4 ≤ o) : (dword s o).toUInt8 = byte s o ∧
    (dword s o >>> 8).toUInt8 = byte s (o + 1) ∧ (dword s o >>> 16).toUInt8 = byte s (o + 2) := by
  have e : (dword s o).toNat = (byte s o).toNat + 256 * ((byte s (o + 1)).toNat +
      256 * ((byte s (o + 2)).toNat + 256 * (byte s (o + 3)).toNat)) := by
    have := leAt_lt s.data (o - 4) 4
    unfold dword u32At
    rw [UInt32.toNat_ofNat', Nat.mod_eq_of_lt this, leAt, leAt, leAt, leAt, leAt]
    unfold byte
    rw [show o + 1 - 4 = o - 4 + 1 by omega, show o + 2 - 4 = o - 4 + 1 + 1 by omega,
      show o + 3 - 4 = o - 4 + 1 + 1 + 1 by omega]
    rfl
  have := (byte s o).toNat_lt; have := (byte s (o + 1)).toNat_lt
  have := (byte s (o + 2)).toNat_lt; have := (byte s (o + 3)).toNat_lt
  refine ⟨UInt8.toNat_inj.1 ?_, UInt8.toNat_inj.1 ?_, UInt8.toNat_inj.1 ?_⟩
  · rw [UInt32.toNat_toUInt8, e]; omega
  · rw [UInt32.toNat_toUInt8, UInt32.toNat_shiftRight, show (8 : UInt32).toNat % 32 = 8 from rfl,
      Nat.shiftRight_eq_div_pow, e]
    omega
  · rw [UInt32.toNat_toUInt8, UInt32.toNat_shiftRight, show (16 : UInt32).toNat % 32 = 16 from rfl,
      Nat.shiftRight_eq_div_pow, e]
    omega

open system_event_log in
theorem access_same : AccessMethod.new (byte s 0x0A) (dword s 0x10) = .new (byte s' 0x0A) (dword s' 0x10) ↔
    SameAt s s' [(0x0A, 1), (0x10, 1)] ∧ (byte s 0x0A ≠ 0 → SameAt s s' [(0x11, 1)]) ∧
    (byte s 0x0A ≠ 4 → SameAt s s' [(0x12, 1)]) ∧
    (byte s 0x0A ∉ [0, 1, 2, 4] → SameAt s s' [(0x13, 1)]) := by
  by_cases hm : byte s 0x0A = byte s' 0x0A
  rotate_left
  · constructor
    · intro h
      exact absurd (by rw [← C46_access_method (byte s 0x0A) (dword s 0x10), h, C46_access_method]) hm
    · intro h
      exact absurd (byte_agree.2 (h.1 (0x0A, 1) (by simp))) hm
  have d4 : dword s 0x10 = dword s' 0x10 ↔ SameBytes s s' 0x10 1 ∧ SameBytes s s' 0x11 1 ∧
      SameBytes s s' 0x12 1 ∧ SameBytes s s' 0x13 1 := by
    rw [dword_agree (by decide), show (4 : Nat) = 1 + (1 + (1 + 1)) from rfl, sameBytes_append,
      sameBytes_append, sameBytes_append]
  rw [← hm]
  simp only [sameAt_cons, sameAt_nil, and_true, byte_agree.1 hm, true_and]
  obtain ⟨p1, p2, p3⟩ := dword_parts (s := s) (o := 0x10) (by decide)
  obtain ⟨q1, q2, q3⟩ := dword_parts (s := s') (o := 0x10) (by decide)
  unfold AccessMethod.new
  simp only [p1, p2, p3, q1, q2, q3, Nat.reduceAdd]
  generalize byte s 0x0A = m
  by_cases m0 : m = 0
  · subst m0; simp [byte_agree]
  by_cases m1 : m = 1
  · subst m1; simp [byte_agree]
  by_cases m2 : m = 2
  · subst m2; simp [byte_agree, le16_same, and_assoc]
  by_cases m3 : m = 3
  · subst m3; simp [d4]
  by_cases m4 : m = 4
  · subst m4; simp [byte_agree, le16_same]
  simp only [m0, m1, m2, m3, m4, if_false]
  split <;> simp [d4, m0, m1, m2, m4]

theorem same_event_log {oc : Bool} {v v' : system_event_log.SystemEventLog}
    (h : system_event_log.SystemEventLog.try_from oc s = .ok v)
    (h' : system_event_log.SystemEventLog.try_from oc s' = .ok v') :
    v = v' ↔ s.handle = s'.handle ∧
      SameAt s s' [(0x04, 2), (0x06, 2), (0x08, 2), (0x0B, 1), (0x0C, 4)] ∧
      SameAt s s' [(0x0A, 1), (0x10, 1)] ∧ (byte s 0x0A ≠ 0 → SameAt s s' [(0x11, 1)]) ∧
      (byte s 0x0A ≠ 4 → SameAt s s' [(0x12, 1)]) ∧
      (byte s 0x0A ∉ [0, 1, 2, 4] → SameAt s s' [(0x13, 1)]) ∧
      JointlyFit s s' 0x15 (SameAt s s' [(0x14, 1)]) ∧
      (HasDescriptors s ↔ HasDescriptors s') ∧
      (HasDescriptors s → SameAt s s' [(0x15, 2 + descriptorCount s * descriptorLength s)]) := by
  have key : ∀ {s v}, system_event_log.SystemEventLog.try_from oc s = .ok v →
      EventLogFields s v ∧ (Fits s 0x17 → descriptorLength s ≠ 0) := by
    intro s v h
    obtain ⟨r1, r2, r3, r4⟩ := C45_rejects oc s
    have hl : EventLogLength s := by
      refine ⟨fun h1 => Classical.byContradiction fun k => ?_, fun h1 => ?_⟩
      · rw [r1 h1 k] at h; cases h
      · have f : Fits s 0x17 := Classical.byContradiction fun k => by rw [r2 h1 k] at h; cases h
        exact ⟨f, Classical.byContradiction fun k => by rw [r3 h1 f k] at h; cases h⟩
    have f : Fits s 0x14 := Classical.byContradiction fun k => by rw [r4 hl k] at h; cases h
    have h0 : Fits s 0x17 → descriptorLength s ≠ 0 := fun f k => by
      rw [C45_panics oc s hl f k] at h; cases h
    exact ⟨(C45_decodes oc s hl f h0 v).1 h, h0⟩
  obtain ⟨⟨a1, a2, a3, a4, a5, a6, a7, a8, a9⟩, z⟩ := key h
  obtain ⟨⟨b1, b2, b3, b4, b5, b6, b7, b8, b9⟩, z'⟩ := key h'
  clear h h' key
  have tail : v.supported_event_log_type_descriptors = v'.supported_event_log_type_descriptors ↔
      (HasDescriptors s ↔ HasDescriptors s') ∧
      (HasDescriptors s → SameBytes s s' 0x15 (2 + descriptorCount s * descriptorLength s)) := by
    rw [when_eq.1 a9, when_eq.1 b9]
    refine optIf_same fun h h' => ?_
    simp only [system_event_log.SupportedEventLogTypeDescriptors.mk.injEq, Chunks.mk.injEq]
    rw [bytesAt_same (o := 0x17) (by decide), sameBytes_append, show (2 : Nat) = 1 + 1 from rfl,
      sameBytes_append, ← byte_agree, ← byte_agree]
    have e1 : byte s 0x15 = byte s' 0x15 ↔ descriptorCount s = descriptorCount s' := by
      unfold descriptorCount; rw [UInt8.toNat_inj]
    have e2 : byte s 0x16 = byte s' 0x16 ↔ descriptorLength s = descriptorLength s' := by
      unfold descriptorLength; rw [UInt8.toNat_inj]
    rw [e1, e2]
    constructor
    · rintro ⟨⟨h1, h2⟩, h3⟩
      rw [h3] at h1
      exact ⟨⟨Nat.eq_of_mul_eq_mul_right (Nat.pos_of_ne_zero (z' h'.1)) h1, h3⟩, h2⟩
    · rintro ⟨⟨h1, h2⟩, h3⟩
      exact ⟨⟨by rw [h1, h2], h3⟩, h2⟩
  clear a9 b9
  cases v; cases v'
  simp only [when_eq] at *
  subst a1 a2 a3 a4 a5 a6 a7 a8 b1 b2 b3 b4 b5 b6 b7 b8
  rw [system_event_log.SystemEventLog.mk.injEq, tail, access_same]
  clear tail
  same [JointlyFit, opt_both, opt_both_and, system_event_log.LogStatus.mk.injEq,
    inj_iff @C53_system_event_log_LogHeaderFormat_injective]

theorem same_group (S : Alike s s') {oc : Bool} {v v' : group_associations.GroupAssociations}
    (h : group_associations.GroupAssociations.try_from oc s = .ok v)
    (h' : group_associations.GroupAssociations.try_from oc s' = .ok v') :
    v = v' ↔ s.handle = s'.handle ∧
      textFields (.GroupAssociations v) = textFields (.GroupAssociations v') ∧
      s.data.length = s'.data.length ∧ SameAt s s' [(0x05, s.data.length - 1)] := by
  have key : ∀ {s v}, Coherent s → group_associations.GroupAssociations.try_from oc s = .ok v →
      1 ≤ s.data.length ∧ v.handle = s.handle ∧ v.items = .new (bytesAt s.data 1 (s.data.length - 1)) := by
    intro s v hc h
    have f : Fits s 5 := Classical.byContradiction fun k => by
      rw [C44_short oc s hc k] at h; cases oc <;> cases h
    have hc' : s.data.length + 4 = s.length.toNat := hc
    have f' : 5 ≤ s.data.length + 4 := f
    have hlt := s.length.toNat_lt
    unfold group_associations.GroupAssociations.try_from at h
    rw [show (subUsize oc s.length.toNat 5 : R Nat) = .ok (s.data.length - 1) by
      unfold subUsize; rw [if_pos (by omega), show s.length.toNat - 5 = s.data.length - 1 by omega],
      ok_bind, get_slice_ge oc s 5 _ (by decide) (by omega), if_pos (by omega)] at h
    simp only [ok_bind, Res.ofOption, bind_ok_iff, pure_eq_ok, Res.ok.injEq] at h
    obtain ⟨_, -, rfl⟩ := h
    exact ⟨by omega, rfl, rfl⟩
  obtain ⟨a0, a1, a2⟩ := key S.coherent h
  obtain ⟨b0, b1, b2⟩ := key S.coherent' h'
  clear h h' key
  cases v; cases v'
  simp only at *
  subst a1 a2 b1 b2
  have e := bytesAt_same (s := s) (s' := s') (o := 5) (n := s.data.length - 1)
    (n' := s'.data.length - 1) (by decide)
  rw [show s.data.length - 1 = s'.data.length - 1 ↔ s.data.length = s'.data.length by omega] at e
  simp only [Nat.reduceSub] at e
  same [JointlyFit, opt_both, opt_both_and, group_associations.GroupAssociations.mk.injEq, group_associations.GroupItems.new,
    group_associations.GroupItems.mk.injEq, e]

theorem same_oem {v v' : oem_strings.OemStrings} (h : oem_strings.OemStrings.try_from s = .ok v)
    (h' : oem_strings.OemStrings.try_from s' = .ok v') :
    v = v' ↔ s.handle = s'.handle ∧ s.strings = s'.strings := by
  cases h; cases h'
  simp [RawStructure.stringsIter, StructureStrings.new]

theorem same_options {oc : Bool} {v v' : system_configuration_options.SystemConfigurationOptions}
    (h : system_configuration_options.SystemConfigurationOptions.try_from oc s = .ok v)
    (h' : system_configuration_options.SystemConfigurationOptions.try_from oc s' = .ok v') :
    v = v' ↔ s.handle = s'.handle ∧ s.strings = s'.strings := by
  have key : ∀ {s v}, system_configuration_options.SystemConfigurationOptions.try_from oc s = .ok v →
      v = ⟨s.handle, s.stringsIter⟩ := by
    intro s v h
    unfold system_configuration_options.SystemConfigurationOptions.try_from at h
    rw [bind_ok_iff] at h
    obtain ⟨_, -, h⟩ := h
    cases gate_ok h
    rfl
  rw [key h, key h']
  simp [RawStructure.stringsIter, StructureStrings.new]

theorem same_language {v v' : bios_language.BiosLanguage}
    (h : bios_language.BiosLanguage.try_from s = .ok v)
    (h' : bios_language.BiosLanguage.try_from s' = .ok v') : v = v' ↔ s = s' := by
  constructor
  · have key : ∀ {s v}, bios_language.BiosLanguage.try_from s = .ok v →
        v.installable_languages = .new s := by
      intro s v h
      have f : Fits s (languageLength s) := Classical.byContradiction fun k => by
        rw [C43_short s k] at h; cases h
      obtain ⟨_, h', A⟩ := C43_decodes s f
      rw [h] at h'; cases h'
      exact A.installable_languages
    rintro rfl
    have := (key h).symm.trans (key h')
    simpa [bios_language.InstallableLanguages.new] using this
  · rintro rfl
    rw [h] at h'; exact Res.ok.inj h'

/-! ### All types -/

/-- What of the numbers stored in `s` a decoded structure of its type keeps, and that `s'` has the
same. The texts are not included. -/
def SameNumbers (s s' : RawStructure) : Prop :=
  match s.info with
  | .Bios =>
      SameAt s s' [(0x06, 2), (0x09, 1), (0x0A, 8)] ∧
      JointlySince s s' 2 4 (SameAt s s' [(0x12, 1), (0x13, 1), (0x14, 1), (0x15, 1), (0x16, 1), (0x17, 1)]) ∧
      JointlySince s s' 3 1 (SameAt s s' [(0x18, 2)])
  | .System => JointlySince s s' 2 1 (storedUuid s = storedUuid s' ∧ SameAt s s' [(0x18, 1)])
  | .BaseBoard =>
      SameBits (List.range 5) (byte s 0x09).toNat (byte s' 0x09).toNat ∧
      SameAt s s' [(0x0B, 2), (0x0D, 1)]
  | .Enclosure =>
      SameAt s s' [(0x05, 1)] ∧
      JointlyFit s s' 0x0A (SameAt s s' [(0x09, 1)]) ∧ JointlyFit s s' 0x0B (SameAt s s' [(0x0A, 1)]) ∧
      JointlyFit s s' 0x0C (SameAt s s' [(0x0B, 1)]) ∧ JointlyFit s s' 0x0D (SameAt s s' [(0x0C, 1)]) ∧
      JointlyFit s s' 0x11 (SameAt s s' [(0x0D, 4)]) ∧ JointlyFit s s' 0x12 (SameAt s s' [(0x11, 1)]) ∧
      JointlyFit s s' 0x13 (SameAt s s' [(0x12, 1)]) ∧
      (HasElements s ↔ HasElements s') ∧
      (HasElements s → SameAt s s' [(0x13, 2 + recordBytes s)])
  | .Processor =>
      storedFamily s = storedFamily s' ∧
      SameBits [0, 1, 2, 6] (byte s 0x18).toNat (byte s' 0x18).toNat ∧
      SameAt s s' [(0x05, 1), (0x08, 8), (0x11, 1), (0x12, 2), (0x14, 2), (0x16, 2), (0x19, 1)] ∧
      JointlySince s s' 2 1 (SameAt s s' [(0x1A, 2), (0x1C, 2), (0x1E, 2)]) ∧
      JointlySince s s' 2 5 (storedCount s 0x23 0x2A = storedCount s' 0x23 0x2A ∧
        storedCount s 0x24 0x2C = storedCount s' 0x24 0x2C ∧
        storedCount s 0x25 0x2E = storedCount s' 0x25 0x2E) ∧
      JointlySince s s' 2 6 (SameBits [0, 1, 2, 3, 4, 5, 6, 7, 9] (word s 0x26).toNat (word s' 0x26).toNat)
  | .Cache =>
      SameBits [0, 1, 2, 3, 5, 6, 7, 8, 9] (word s 0x05).toNat (word s' 0x05).toNat ∧
      SameAt s s' [(0x07, 2), (0x09, 2)] ∧
      SameBits (List.range 7) (word s 0x0B).toNat (word s' 0x0B).toNat ∧
      SameBits (List.range 7) (word s 0x0D).toNat (word s' 0x0D).toNat ∧
      JointlySince s s' 2 2 (SameAt s s' [(0x0F, 1), (0x10, 1), (0x11, 1), (0x12, 1)]) ∧
      JointlySince s s' 3 2 (SameAt s s' [(0x13, 4), (0x17, 4)])
  | .PortConnector => SameAt s s' [(0x05, 1), (0x07, 1), (0x08, 1)]
  | .SystemSlots =>
      SameCode [(0x1F, 0xAB), (0x20, 0xB1), (0x24, 0xB8), (0x25, 0xBE)] (byte s 0x05) (byte s' 0x05) ∧
      SameAt s s' [(0x06, 1), (0x07, 1), (0x08, 1), (0x09, 2), (0x0B, 1)] ∧
      JointlyFit s s' 0x0D (SameAt s s' [(0x0C, 1)]) ∧
      Jointly (Fits s 0x0F ∧ word s 0x0D ≠ 0xFFFF) (Fits s' 0x0F ∧ word s' 0x0D ≠ 0xFFFF)
        (SameAt s s' [(0x0D, 2)]) ∧
      Jointly (Fits s 0x10 ∧ byte s 0x0F ≠ 0xFF) (Fits s' 0x10 ∧ byte s' 0x0F ≠ 0xFF)
        (SameAt s s' [(0x0F, 1)]) ∧
      Jointly (Fits s 0x11 ∧ byte s 0x10 ≠ 0xFF) (Fits s' 0x11 ∧ byte s' 0x10 ≠ 0xFF)
        (SameAt s s' [(0x10, 1)]) ∧
      JointlyFit s s' 0x12 (SameAt s s' [(0x11, 1)]) ∧
      (HasPeers s ↔ HasPeers s') ∧
      (HasPeers s → SameAt s s' [(0x12, 1), (0x13, 5 * peerCount s)] ∧
        JointlyFit s s' (0x14 + 5 * peerCount s + 1) (SameAt s s' [(0x14 + 5 * peerCount s, 1)]) ∧
        JointlyFit s s' (0x15 + 5 * peerCount s + 1) (SameAt s s' [(0x15 + 5 * peerCount s, 1)]) ∧
        JointlyFit s s' (0x16 + 5 * peerCount s + 2) (SameAt s s' [(0x16 + 5 * peerCount s, 2)]))
  | .OemStrings | .SystemConfigurationOptions => s.strings = s'.strings
  | .GroupAssociations => s.data.length = s'.data.length ∧ SameAt s s' [(0x05, s.data.length - 1)]
  | .SystemEventLog =>
      SameAt s s' [(0x04, 2), (0x06, 2), (0x08, 2), (0x0B, 1), (0x0C, 4)] ∧
      SameAt s s' [(0x0A, 1), (0x10, 1)] ∧ (byte s 0x0A ≠ 0 → SameAt s s' [(0x11, 1)]) ∧
      (byte s 0x0A ≠ 4 → SameAt s s' [(0x12, 1)]) ∧
      (byte s 0x0A ∉ [0, 1, 2, 4] → SameAt s s' [(0x13, 1)]) ∧
      JointlyFit s s' 0x15 (SameAt s s' [(0x14, 1)]) ∧
      (HasDescriptors s ↔ HasDescriptors s') ∧
      (HasDescriptors s → SameAt s s' [(0x15, 2 + descriptorCount s * descriptorLength s)])
  | .PhysicalMemoryArray =>
      SameAt s s' [(0x04, 1), (0x05, 1), (0x06, 1), (0x07, 4), (0x0B, 2), (0x0D, 2)] ∧
      (dword s 0x07 = 0x80000000 → Jointly (Since s 2 8 ∧ qword s 0x0F ≠ 0) (Since s' 2 8 ∧ qword s' 0x0F ≠ 0)
        (SameAt s s' [(0x0F, 8)]))
  | .MemoryDevice =>
      SameCode [(9, 8)] (byte s 0x0E) (byte s' 0x0E) ∧
      SameCode [(0x16, 0x15), (0x17, 0x15)] (byte s 0x12) (byte s' 0x12) ∧
      SameBits detailBits (word s 0x13).toNat (word s' 0x13).toNat ∧
      SameAt s s' [(0x04, 2), (0x06, 2), (0x08, 2), (0x0A, 2), (0x0C, 2), (0x0F, 1), (0x15, 2),
        (0x1B, 1), (0x1C, 4)] ∧
      Jointly (Fits s 0x22 ∧ word s 0x20 ≠ 0) (Fits s' 0x22 ∧ word s' 0x20 ≠ 0) (SameAt s s' [(0x20, 2)]) ∧
      Jointly (Fits s 0x24 ∧ word s 0x22 ≠ 0) (Fits s' 0x24 ∧ word s' 0x22 ≠ 0) (SameAt s s' [(0x22, 2)]) ∧
      Jointly (Fits s 0x26 ∧ word s 0x24 ≠ 0) (Fits s' 0x26 ∧ word s' 0x24 ≠ 0) (SameAt s s' [(0x24, 2)]) ∧
      Jointly (Fits s 0x28 ∧ word s 0x26 ≠ 0) (Fits s' 0x28 ∧ word s' 0x26 ≠ 0) (SameAt s s' [(0x26, 2)]) ∧
      JointlyFit s s' 0x29 (SameAt s s' [(0x28, 1)]) ∧
      JointlyFit s s' 0x2B (SameBits modeBits (word s 0x29).toNat (word s' 0x29).toNat) ∧
      JointlyFit s s' 0x2E (SameAt s s' [(0x2C, 2)]) ∧ JointlyFit s s' 0x30 (SameAt s s' [(0x2E, 2)]) ∧
      JointlyFit s s' 0x32 (SameAt s s' [(0x30, 2)]) ∧ JointlyFit s s' 0x34 (SameAt s s' [(0x32, 2)]) ∧
      JointlyFit s s' 0x3C (SameAt s s' [(0x34, 8)]) ∧ JointlyFit s s' 0x44 (SameAt s s' [(0x3C, 8)]) ∧
      JointlyFit s s' 0x4C (SameAt s s' [(0x44, 8)]) ∧ JointlyFit s s' 0x54 (SameAt s s' [(0x4C, 8)]) ∧
      JointlyFit s s' 0x58 (SameAt s s' [(0x54, 4)]) ∧ JointlyFit s s' 0x5C (SameAt s s' [(0x58, 4)])
  | .MemoryError32 =>
      SameAt s s' [(0x04, 1), (0x05, 1), (0x06, 1), (0x07, 4), (0x0B, 4), (0x0F, 4), (0x13, 4)]
  | .MemoryArrayMappedAddress =>
      SameAt s s' [(0x04, 4), (0x08, 4), (0x0C, 2), (0x0E, 1)] ∧
      JointlyFit s s' 0x17 (SameAt s s' [(0x0F, 8)]) ∧ JointlyFit s s' 0x1F (SameAt s s' [(0x17, 8)])
  | .MemoryDeviceMappedAddress =>
      SameAt s s' [(0x04, 4), (0x08, 4), (0x0C, 2), (0x0E, 2), (0x10, 1), (0x11, 1), (0x12, 1)] ∧
      JointlyFit s s' 0x1B (SameAt s s' [(0x13, 8)]) ∧ JointlyFit s s' 0x23 (SameAt s s' [(0x1B, 8)])
  | .BuiltInPointingDevice => SameAt s s' [(0x04, 1), (0x05, 1), (0x06, 1)]
  | .PortableBattery =>
      SameAt s s' [(0x09, 1), (0x0A, 2), (0x0C, 2), (0x0F, 1)] ∧
      ((∀ x, ¬ Named s 0x06 x) → JointlyFit s s' 0x14 (SameAt s s' [(0x12, 2)])) ∧
      ((∀ x, ¬ Named s 0x07 x) → JointlyFit s s' 0x12 (SameAt s s' [(0x10, 2)])) ∧
      (word s 0x0A ≠ 0 → storedMultiplier s = storedMultiplier s') ∧
      JointlyFit s s' 0x1A (SameAt s s' [(0x16, 4)])
  | _ => s = s'

/-- C76: two structures of one type that both decode, do so to the same value exactly if they agree in handle, texts
and the numbers kept, and in which of the fields that depend on the version or the length are there. Memory
arrays before version 2.2 are excepted: they all decode to the same value (`C76_old_arrays`). -/
theorem C76_content (oc : Bool) (s s' : RawStructure) (S : Alike s s')
    (hx : s.info = .PhysicalMemoryArray → Since s 2 2 ∧ Since s' 2 2) (v v' : Structure)
    (h : decodeStructure oc s = .ok v) (h' : decodeStructure oc s' = .ok v') :
    v = v' ↔ s.handle = s'.handle ∧ textFields v = textFields v' ∧ SameNumbers s s' := by
  have hi := S.info
  unfold decodeStructure at h h'
  unfold SameNumbers
  split at h
  all_goals
    rename_i k
    simp only [hi, k] at h' ⊢
  all_goals first
    | (obtain ⟨a, ha, rfl⟩ := map_ok h; obtain ⟨b, hb, rfl⟩ := map_ok h'; clear h h')
    | skip
  · rw [Structure.Bios.injEq, same_bios ha hb]
  · rw [Structure.System.injEq, same_system ha hb]
  · rw [Structure.BaseBoard.injEq, same_baseboard ha hb]
  · rw [Structure.Enclosure.injEq, same_enclosure ha hb]
  · rw [Structure.Processor.injEq, same_processor ha hb]
  · rw [Structure.Cache.injEq, same_cache ha hb]
  · rw [Structure.PortConnector.injEq, same_port ha hb]
  · rw [Structure.SystemSlots.injEq, same_slots ha hb]
  · rw [Structure.OemStrings.injEq, same_oem ha hb]; simp [textFields]
  · rw [Structure.SystemConfigurationOptions.injEq, same_options ha hb]; simp [textFields]
  · rw [Structure.BiosLanguage.injEq, same_language ha hb]
    simp only [textFields, true_and]
    exact ⟨fun e => ⟨by rw [e], e⟩, fun e => e.2⟩
  · rw [Structure.GroupAssociations.injEq, same_group S ha hb]
  · rw [Structure.SystemEventLog.injEq, same_event_log ha hb]; simp only [textFields, true_and]
  · rw [Structure.PhysicalMemoryArray.injEq, same_array (hx k).1 (hx k).2 ha hb]; simp only [textFields, true_and]
  · rw [Structure.MemoryDevice.injEq, same_memory_device ha hb]
  · rw [Structure.MemoryError32.injEq, same_memory_error ha hb]; simp only [textFields, true_and]
  · rw [Structure.MemoryArrayMappedAddress.injEq, same_array_address ha hb]
    simp only [textFields, true_and]
  · rw [Structure.MemoryDeviceMappedAddress.injEq, same_device_address ha hb]
    simp only [textFields, true_and]
  · rw [Structure.BuiltInPointingDevice.injEq, same_pointing ha hb]; simp only [textFields, true_and]
  · rw [Structure.PortableBattery.injEq, same_battery ha hb]
  · cases h; cases h'
    simp only [Structure.Other.injEq, textFields, true_and]
    exact ⟨fun e => ⟨by rw [e], e⟩, fun e => e.2⟩

/-- C76: memory arrays before version 2.2 all decode to the same value. -/
theorem C76_old_arrays (oc : Bool) (s s' : RawStructure) (h : s.info = .PhysicalMemoryArray)
    (h' : s'.info = .PhysicalMemoryArray) (hv : ¬ Since s 2 2) (hv' : ¬ Since s' 2 2) :
    ∃ v, decodeStructure oc s = .ok v ∧ decodeStructure oc s' = .ok v := by
  unfold decodeStructure
  simp only [h, h']
  rw [C47_old s hv, C47_old s' hv']
  exact ⟨_, rfl, rfl⟩

/-- `exampleBoard` with other feature flags and another number of contained handles. -/
def exampleBoardWith (features handles : UInt8) : RawStructure :=
  { exampleBoard with data := [1, 2, 0, 3, 0, features, 3, 0x34, 0x12, 0x0A, handles] }

theorem exampleBoardWith_alike (a b c d : UInt8) : Alike (exampleBoardWith a b) (exampleBoardWith c d) :=
  ⟨rfl, rfl, rfl⟩

/-- Bits 7:5 of the features and the number of contained handles are not kept. -/
example : ∃ v, decodeStructure true (exampleBoardWith 0xE9 0) = .ok v ∧
    decodeStructure true (exampleBoardWith 0x09 7) = .ok v := by
  obtain ⟨v, h, t⟩ := exists_ok (show (decodeStructure true (exampleBoardWith 0xE9 0)).okAnd
    (fun v => decide (textFields v = [some (ascii "Intel"), some (ascii "S2600"), some [],
      some (ascii "Slot0"), some [], some (ascii "Slot0")])) = true by decide +kernel)
  obtain ⟨v', h', t'⟩ := exists_ok (show (decodeStructure true (exampleBoardWith 0x09 7)).okAnd
    (fun v => decide (textFields v = [some (ascii "Intel"), some (ascii "S2600"), some [],
      some (ascii "Slot0"), some [], some (ascii "Slot0")])) = true by decide +kernel)
  have e : v = v' := (C76_content true _ _ (exampleBoardWith_alike ..) (by intro h; cases h) v v' h h').2
    ⟨rfl, by rw [of_decide_eq_true t, of_decide_eq_true t'], by
      simp only [SameNumbers, exampleBoardWith, exampleBoard, SameBits, SameAt, SameBytes]
      decide +kernel⟩
  exact ⟨v, h, e ▸ h'⟩

/-- Bit 0 is. -/
example (v v' : Structure) (h : decodeStructure true (exampleBoardWith 0xE9 0) = .ok v)
    (h' : decodeStructure true (exampleBoardWith 0xE8 0) = .ok v') : v ≠ v' := fun e =>
  absurd (((C76_content true _ _ (exampleBoardWith_alike ..) (by intro h; cases h) v v' h h').1 e).2.2.1
    0 (by decide)) (by decide +kernel)

end Dmi.Props
