import Verif.Props.System
import Verif.Props.Processor
import Verif.Props.Cache
import Verif.Props.MemoryDevice
/-!
# C67: named flags tell the stored bits

The types declared by `bitflags!`: `contains` of a named flag on a decoded value against the bit
which the reference specification gives to that name.
-/
namespace Dmi.Props
open Spec

/-- For every listed name and bit, the flag of that name is contained iff that bit of `w` is set. -/
def TellsBits {β : Type} (flags : List (String × β)) (contains : β → Bool) (w : Nat)
    (names : List (String × Nat)) : Prop :=
  ∀ x ∈ names, ∃ m, flags.lookup x.1 = some m ∧ (contains m = true ↔ w.testBit x.2 = true)

/-! ### The specification's names -/

/-- Baseboard feature flags (7.3.1). -/
def boardNames : List (String × Nat) :=
  [("HOSTING", 0), ("REQUIRES_DAUGHTER", 1), ("IS_REMOVABLE", 2), ("IS_REPLACEABLE", 3),
   ("IS_HOT_SWAPPABLE", 4)]

/-- The codes of a processor status (7.5, offset 18h, bits 2:0). -/
def statusCodes : List (String × Nat) :=
  [("CPU_ENABLED", 1), ("CPU_DISABLED_BY_USER", 2), ("CPU_DISABLED_BY_BIOS", 3), ("CPU_IDLE", 4),
   ("CPU_OTHER", 7)]

/-- Processor characteristics (7.5.9), without bit 8 (128-bit capable), which the crate lacks. -/
def characteristicNames : List (String × Nat) :=
  [("RESERVED", 0), ("UNKNOWN", 1), ("CAPABLE_64BIT", 2), ("MULTICORE", 3), ("HARDWARE_THREAD", 4),
   ("EXECUTE_PROTECTION", 5), ("ENHANCED_VIRTUALIZATION", 6), ("POWER_PERFORMANCE_CONTROL", 7),
   ("ARM64_SOC_ID", 9)]

/-- Voltage capability (7.5.4, legacy mode). -/
def voltageNames : List (String × Nat) :=
  [("VOLTAGE_CAPABILITY_5V0", 0), ("VOLTAGE_CAPABILITY_3V3", 1), ("VOLTAGE_CAPABILITY_2V9", 2)]

/-- Cache SRAM types (7.8.2). -/
def sramNames : List (String × Nat) :=
  [("OTHER", 0), ("UNKNOWN", 1), ("NONBURST", 2), ("BURST", 3), ("PIPELINE_BURST", 4),
   ("SYNCHRONOUS", 5), ("ASYNCHRONOUS", 6)]

/-- Memory device type detail (7.18.3); bit 0 is reserved. -/
def detailNames : List (String × Nat) :=
  [("OTHER", 1), ("UNKNOWN", 2), ("FAST_PAGED", 3), ("STATIC_COLUMN", 4), ("PSEUDO_STATIC", 5),
   ("RAMBUS", 6), ("SYNCHRONOUS", 7), ("CMOS", 8), ("EDO", 9), ("WINDOW_DRAM", 10),
   ("CACHE_DRAM", 11), ("NON_VOLATILE", 12), ("REGISTERED", 13), ("UNREGISTERED", 14),
   ("LRDIMM", 15)]

/-- Memory operating mode capability (7.18.7); bit 0 is reserved. -/
def modeNames : List (String × Nat) :=
  [("OTHER", 1), ("UNKNOWN", 2), ("VOLATILE", 3), ("BYTE_ACCESSIBLE_PERSISTENT", 4),
   ("BLOCK_ACCESSIBLE_PERSISTENT", 5)]

/-- C67: apart from the reserved bits and the processor status these are all declared flags. -/
theorem C67_all_declared :
    baseboard.BaseBoardFlags.flags.map (·.1) = boardNames.map (·.1) ∧
    processor.ProcessorStatus.flags.map (·.1) = "CPU_SOCKET_POPULATED" :: statusCodes.map (·.1) ∧
    processor.ProcessorCharacteristics.flags.map (·.1) = characteristicNames.map (·.1) ∧
    processor.VoltageLegacy.flags.map (·.1) = voltageNames.map (·.1) ∧
    cache.CacheSramType.flags.map (·.1) = sramNames.map (·.1) ∧
    memory_device.Detail.flags.map (·.1) = "RESERVED" :: detailNames.map (·.1) ∧
    memory_device.OperatingModes.flags.map (·.1) = "RESERVED" :: modeNames.map (·.1) := by
  decide +kernel

/-! ### Flags of one bit -/

theorem and_two_pow {a k : Nat} : a &&& 2 ^ k = 2 ^ k ↔ a.testBit k = true := by
  constructor
  · intro h
    have := congrArg (fun n => Nat.testBit n k) h
    simpa [Nat.testBit_and, Nat.testBit_two_pow] using this
  · intro h
    apply Nat.eq_of_testBit_eq
    intro i
    rw [Nat.testBit_and, Nat.testBit_two_pow]
    by_cases hi : k = i
    · subst hi; simp [h]
    · simp [hi]

theorem contains8 {b m : UInt8} {k : Nat} (hm : m.toNat = 2 ^ k) :
    (b &&& m == m) = true ↔ b.toNat.testBit k = true := by
  rw [beq_iff_eq, ← UInt8.toNat_inj, UInt8.toNat_and, hm]
  exact and_two_pow

theorem contains16 {b m : UInt16} {k : Nat} (hm : m.toNat = 2 ^ k) :
    (b &&& m == m) = true ↔ b.toNat.testBit k = true := by
  rw [beq_iff_eq, ← UInt16.toNat_inj, UInt16.toNat_and, hm]
  exact and_two_pow

/-- The flags of the given names are the single bits listed with them. -/
def Declares {β : Type} (toNat : β → Nat) (flags : List (String × β)) (names : List (String × Nat)) :
    Bool :=
  names.all fun x => match flags.lookup x.1 with
    | some m => toNat m == 2 ^ x.2
    | none => false

theorem tells8 {flags : List (String × UInt8)} {names : List (String × Nat)} {b : UInt8} {w : Nat}
    (hd : Declares UInt8.toNat flags names = true)
    (hb : ∀ x ∈ names, b.toNat.testBit x.2 = w.testBit x.2) :
    TellsBits flags (fun m => b &&& m == m) w names := by
  intro x hx
  have := List.all_eq_true.1 hd x hx
  cases hl : flags.lookup x.1 with
  | none => rw [hl] at this; cases this
  | some m =>
    rw [hl] at this
    refine ⟨m, rfl, ?_⟩
    rw [← hb x hx]
    exact contains8 (beq_iff_eq.1 this)

theorem tells16 {flags : List (String × UInt16)} {names : List (String × Nat)} {b : UInt16} {w : Nat}
    (hd : Declares UInt16.toNat flags names = true)
    (hb : ∀ x ∈ names, b.toNat.testBit x.2 = w.testBit x.2) :
    TellsBits flags (fun m => b &&& m == m) w names := by
  intro x hx
  have := List.all_eq_true.1 hd x hx
  cases hl : flags.lookup x.1 with
  | none => rw [hl] at this; cases this
  | some m =>
    rw [hl] at this
    refine ⟨m, rfl, ?_⟩
    rw [← hb x hx]
    exact contains16 (beq_iff_eq.1 this)

theorem kept_bits {bits : List Nat} {names : List (String × Nat)} {w c : Nat} (h : Kept bits w c)
    (hn : names.all (fun x => bits.contains x.2) = true) :
    ∀ x ∈ names, c.testBit x.2 = w.testBit x.2 := by
  intro x hx
  have := List.all_eq_true.1 hn x hx
  rw [h x.2, this, Bool.and_true]

theorem mod_bits {n : Nat} {names : List (String × Nat)} {w c : Nat} (h : c = w % 2 ^ n)
    (hn : names.all (fun x => decide (x.2 < n)) = true) :
    ∀ x ∈ names, c.testBit x.2 = w.testBit x.2 := by
  intro x hx
  have := List.all_eq_true.1 hn x hx
  rw [h, Nat.testBit_mod_two_pow, this, Bool.true_and]

/-- C67: the feature flags of a decoded board are the bits at offset 09h. -/
theorem C67_baseboard (s : RawStructure) (v : baseboard.BaseBoard)
    (h : baseboard.BaseBoard.try_from s = .ok v) :
    ∃ f, v.feature_flags = some f ∧
      TellsBits baseboard.BaseBoardFlags.flags f.contains (byte s 0x09).toNat boardNames := by
  have hf : Fits s 0x0E := by
    apply Classical.byContradiction
    intro hn
    rw [(C32_short s).2 hn] at h; cases h
  obtain ⟨f, h1, h2⟩ := ((C32_decodes_partial s hf v).1 h).feature_flags
  exact ⟨f, h1, tells8 (by decide +kernel) (mod_bits h2 (by decide))⟩

/-- C67: the SRAM types of a decoded cache are the bits at offsets 0Bh and 0Dh. -/
theorem C67_cache (s : RawStructure) (hv : Since s 2 1) (hf : Fits s (cacheReads s)) (v : cache.Cache)
    (h : cache.Cache.try_from s = .ok v) :
    TellsBits cache.CacheSramType.flags v.supported_sram_type.contains (word s 0x0B).toNat sramNames ∧
    TellsBits cache.CacheSramType.flags v.current_sram_type.contains (word s 0x0D).toNat sramNames := by
  have hc := (C37_decodes s hv hf v).1 h
  exact ⟨tells16 (by decide +kernel) (mod_bits (n := 7) hc.supported_sram_type (by decide)),
    tells16 (by decide +kernel) (mod_bits (n := 7) hc.current_sram_type (by decide))⟩

/-- C67: the characteristics of a decoded processor are the bits at offset 26h, and its socket is
populated iff bit 6 at offset 18h is set. -/
theorem C67_processor (s : RawStructure) (v : processor.Processor)
    (h : processor.Processor.try_from s = .ok v) :
    When (Since s 2 6) v.processor_characteristics (fun c =>
      TellsBits processor.ProcessorCharacteristics.flags c.contains (word s 0x26).toNat
        characteristicNames) ∧
    TellsBits processor.ProcessorStatus.flags v.status.contains (byte s 0x18).toNat
      [("CPU_SOCKET_POPULATED", 6)] := by
  have hf : Fits s (processorLength s) := by
    apply Classical.byContradiction
    intro hn
    rw [C35_short s hn] at h; cases h
  have hp := (C35_decodes s hf v).1 h
  refine ⟨?_, tells8 (by decide +kernel) (kept_bits hp.status (by decide))⟩
  rcases hp.processor_characteristics with ⟨hc, c, h1, h2⟩ | h
  · exact Or.inl ⟨hc, c, h1, tells16 (by decide +kernel) (kept_bits h2 (by decide))⟩
  · exact Or.inr h

/-- C67: the legacy voltages of a voltage byte are its bits. -/
theorem C67_voltage (b : UInt8) (h : b.toNat < 8) :
    ∃ v, processor.Voltage.ofU8 b = .Legacy v ∧
      TellsBits processor.VoltageLegacy.flags v.contains b.toNat voltageNames := by
  have key : ∀ b : UInt8, b.toNat < 8 → processor.Voltage.ofU8 b = .Legacy ⟨b⟩ :=
    forall_u8 (by decide +kernel)
  exact ⟨_, key b h, tells8 (by decide +kernel) (fun _ _ => rfl)⟩

/-- C67: type detail and operating modes of a decoded memory device are the bits at offsets 13h and
29h. -/
theorem C67_memory_device (oc : Bool) (s : RawStructure) (v : memory_device.MemoryDevice)
    (h : memory_device.MemoryDevice.try_from oc s = .ok v) :
    TellsBits memory_device.Detail.flags v.type_detail.contains (word s 0x13).toNat detailNames ∧
    When (Fits s 0x2B) v.operating_mode_capability (fun m =>
      TellsBits memory_device.OperatingModes.flags m.contains (word s 0x29).toNat modeNames) := by
  have hf : Fits s 0x20 := by
    apply Classical.byContradiction
    intro hn
    obtain ⟨h1, h2⟩ := C48_short oc s
    by_cases h15 : Fits s 0x15
    · obtain ⟨e, he, -⟩ := h2 h15 hn
      rw [h] at he; cases he
    · rw [h1 h15] at h; cases h
  have hm := (C48_decodes oc s hf v).1 h
  refine ⟨tells16 (by decide +kernel) (kept_bits hm.type_detail (by decide)), ?_⟩
  rcases hm.operating_mode_capability with ⟨hc, c, h1, h2⟩ | h
  · exact Or.inl ⟨hc, c, h1, tells16 (by decide +kernel) (kept_bits h2 (by decide))⟩
  · exact Or.inr h

/-! ### Flags of the processor status, and reserved bits -/

/-- Full statement of C67 for the processor status: a status is contained iff it is the stored one.
False of the code. -/
def C67_status_full : Prop := ∀ (s : RawStructure) (v : processor.Processor),
  processor.Processor.try_from s = .ok v → ∀ x ∈ statusCodes,
    ∃ m, processor.ProcessorStatus.flags.lookup x.1 = some m ∧
      (v.status.contains m = true ↔ (byte s 0x18).toNat % 8 = x.2)

/-- C67, exactly what the code does: a status is contained iff all its bits are in the stored code. -/
theorem C67_status_partial (s : RawStructure) (v : processor.Processor)
    (h : processor.Processor.try_from s = .ok v) : ∀ x ∈ statusCodes,
    ∃ m, processor.ProcessorStatus.flags.lookup x.1 = some m ∧
      (v.status.contains m = true ↔
        ∀ i, x.2.testBit i = true → ((byte s 0x18).toNat % 8).testBit i = true) := by
  have hf : Fits s (processorLength s) := by
    apply Classical.byContradiction
    intro hn
    rw [C35_short s hn] at h; cases h
  have hp := kept_status.1 ((C35_decodes s hf v).1 h).status
  have key : ∀ b : UInt8, ∀ x ∈ statusCodes,
      ∃ m, processor.ProcessorStatus.flags.lookup x.1 = some m ∧
      ((processor.ProcessorStatus.fromBitsTruncate b).contains m = true ↔
        ∀ i < 8, x.2.testBit i = true → (b.toNat % 8).testBit i = true) := by
    intro b x hx
    have hd : ∀ x ∈ statusCodes, ∃ m ∈ processor.ProcessorStatus.flags.map (·.2),
      processor.ProcessorStatus.flags.lookup x.1 = some m ∧ m.toNat = x.2 := by decide +kernel
    have hb : ∀ b : UInt8, ∀ m ∈ processor.ProcessorStatus.flags.map (·.2), m.toNat < 8 →
        ((processor.ProcessorStatus.fromBitsTruncate b).contains m = true ↔
        ∀ i < 8, m.toNat.testBit i = true → (b.toNat % 8).testBit i = true) :=
      forall_u8 (by decide +kernel)
    have hx8 : ∀ x ∈ statusCodes, x.2 < 8 := by decide
    obtain ⟨m, hm, h1, h2⟩ := hd x hx
    refine ⟨m, h1, ?_⟩
    rw [← h2]
    exact hb b m hm (by rw [h2]; exact hx8 x hx)
  intro x hx
  obtain ⟨m, h1, h2⟩ := key (byte s 0x18) x hx
  have hx8 : ∀ x ∈ statusCodes, x.2 < 8 := by decide
  refine ⟨m, h1, ?_⟩
  rw [← hp, h2]
  constructor
  · intro h i hi
    refine h i (Classical.byContradiction fun hn => ?_) hi
    have : 2 ^ 3 ≤ 2 ^ i := Nat.pow_le_pow_right (by decide) (by omega)
    rw [Nat.testBit_lt_two_pow (Nat.lt_of_lt_of_le (hx8 x hx) this)] at hi
    cases hi
  · intro h i _ hi
    exact h i hi

/-- A processor of version 2.0, disabled by the BIOS. -/
def disabledProcessor : RawStructure where
  version := ⟨2, 0⟩
  info := .Processor
  length := 0x1A
  handle := 4
  data := [0, 3, 1, 0, 0, 0, 0, 0, 0, 0, 0, 0, 0, 0x8C, 0, 0, 0, 0, 0, 0, 0x43, 1]
  strings := [0, 0]

/-- C67 for the processor status fails: a processor disabled by the BIOS contains `CPU_ENABLED`. -/
theorem C67_status_full_false : ¬ C67_status_full := by
  intro hf
  have hk : (processor.Processor.try_from disabledProcessor).okAnd
      (fun v => v.status.contains 1 = true) = true := by decide +kernel
  cases hv : processor.Processor.try_from disabledProcessor with
  | ok v =>
    rw [hv] at hk
    have hc : v.status.contains 1 = true := of_decide_eq_true hk
    obtain ⟨m, h1, h2⟩ := hf _ _ hv ("CPU_ENABLED", 1) (by decide)
    have : processor.ProcessorStatus.flags.lookup "CPU_ENABLED" = some 1 := by decide +kernel
    rw [this] at h1; cases h1
    exact absurd (h2.1 hc) (by decide)
  | _ => rw [hv] at hk; cases hk

/-- Full statement of C67 for the reserved bit 0 of type detail and operating modes; false of the
code. -/
def C67_reserved_full : Prop := ∀ (oc : Bool) (s : RawStructure) (v : memory_device.MemoryDevice),
  memory_device.MemoryDevice.try_from oc s = .ok v →
    TellsBits memory_device.Detail.flags v.type_detail.contains (word s 0x13).toNat [("RESERVED", 0)]

/-- C67: the flags named `RESERVED` have no bit and are always contained. -/
theorem C67_reserved_partial :
    (∃ m, memory_device.Detail.flags.lookup "RESERVED" = some m ∧
      ∀ d : memory_device.Detail, d.contains m = true) ∧
    (∃ m, memory_device.OperatingModes.flags.lookup "RESERVED" = some m ∧
      ∀ d : memory_device.OperatingModes, d.contains m = true) := by
  have h1 : memory_device.Detail.flags.lookup "RESERVED" = some 0 := by decide +kernel
  have h2 : memory_device.OperatingModes.flags.lookup "RESERVED" = some 0 := by decide +kernel
  refine ⟨⟨0, h1, fun d => ?_⟩, ⟨0, h2, fun d => ?_⟩⟩
  · simp [memory_device.Detail.contains]
  · simp [memory_device.OperatingModes.contains]

/-- A memory device of version 2.3 with type detail 0. -/
def plainDevice : RawStructure where
  version := ⟨2, 3⟩
  info := .MemoryDevice
  length := 0x20
  handle := 0x11
  data := List.replicate 28 0
  strings := [0, 0]

theorem C67_reserved_full_false : ¬ C67_reserved_full := by
  intro hf
  have hk : (memory_device.MemoryDevice.try_from true plainDevice).okAnd (fun _ => True) = true := by
    decide +kernel
  cases hv : memory_device.MemoryDevice.try_from true plainDevice with
  | ok v =>
    obtain ⟨m, h1, h2⟩ := hf _ _ _ hv ("RESERVED", 0) (by decide)
    obtain ⟨⟨m', h3, h4⟩, -⟩ := C67_reserved_partial
    rw [h1] at h3; cases h3
    exact absurd (h2.1 (h4 _)) (by decide +kernel)
  | _ => rw [hv] at hk; cases hk

example : (baseboard.BaseBoard.try_from exampleBoard).okAnd (fun v =>
    (v.feature_flags.map (·.contains 0b1000)) = some true ∧
    (v.feature_flags.map (·.contains 0b0100)) = some false) = true := by decide +kernel
example : Since exampleCache 2 1 ∧ Fits exampleCache (cacheReads exampleCache) ∧
    (cache.Cache.try_from exampleCache).okAnd (fun v =>
      v.current_sram_type.contains 0x20 = true ∧ v.current_sram_type.contains 0x10 = false) = true := by
  decide +kernel

example : (processor.Processor.try_from exampleProcessor).okAnd (fun v =>
    v.processor_characteristics.map (·.contains 0b100) = some true ∧
    v.status.contains 0b0100_0000 = true) = true := by decide +kernel

example : (memory_device.MemoryDevice.try_from true (exampleMemoryDevice 30)).okAnd (fun v =>
    v.type_detail.contains 0b10000000 = true ∧ v.type_detail.contains 0b01000000 = false) = true := by
  decide +kernel

example : processor.Voltage.ofU8 6 = .Legacy ⟨6⟩ := by decide +kernel

end Dmi.Props
