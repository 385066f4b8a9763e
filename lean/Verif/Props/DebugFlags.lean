import Verif.Model.Debug
import Verif.Proofs.DebugGood
import Verif.Proofs.DebugClean
import Verif.Proofs.Finite
/-!
# Property C114: which flags `Debug` names

The flag types of `bitflags!` show the names of flags, separated by bars, and the bits without a name as a number.
-/
namespace Dmi.Props
open Fmt

/-- Words with bars between them; `0x0` if there is none. -/
def inBars : List Text → Text
  | [] => txt! "0x0"
  | [w] => w
  | w :: v :: l => w ++ (txt! " | " ++ inBars (v :: l))

/-- The names of the bits of `n` that are set, in the order of the list, and then the number of the bits without a
name, if one of them is set. -/
def NamesBits (named : List (Nat × Text)) (n : Nat) (words : List Text) : Prop :=
  ∃ rest : Nat, (∀ i, rest.testBit i = true ↔ n.testBit i = true ∧ ∀ p ∈ named, p.1 ≠ i) ∧
    words = (named.filter fun p => n.testBit p.1).map (·.2) ++
      (if rest = 0 then [] else [txt! "0x" ++ hexLower rest])

/-- Values are shown by the name of the type and, in parentheses, the names of the bits that are set. -/
def ShowsBits {α : Type} (type : Text) (named : List (Nat × Text)) (dbg : α → Dbg) (bits : α → Nat) : Prop :=
  ∀ (byNumber : Nat → Bool) (x : α), ∃ words, NamesBits named (bits x) words ∧
    (dbg x).plain byNumber = type ++ (txt! "(" ++ (inBars words ++ txt! ")")) ∧
    (dbg x).pretty byNumber = type ++ (txt! "(\n    " ++ (inBars words ++ txt! ",\n)"))

theorem bars_inBars (a : Text) (l : List Text) : bars a l = inBars (a :: l) := by
  induction l generalizing a with
  | nil => simp only [bars, List.flatMap_nil, List.append_nil, inBars]
  | cons b l ih =>
    have := ih b
    simp only [bars] at this
    simp only [bars, List.flatMap_cons, inBars, List.append_assoc, this]

theorem plain_flags (f : Nat → Bool) (table : List (Text × Nat)) (n : Nat) :
    (Dbg.flags table n).plain f = inBars (Dbg.flagNames table n n) ∧
    (Dbg.flags table n).pretty f = inBars (Dbg.flagNames table n n) := by
  unfold Dbg.flags
  cases Dbg.flagNames table n n with
  | nil => exact ⟨rfl, rfl⟩
  | cons a l => exact ⟨bars_inBars a l, bars_inBars a l⟩

theorem flagNames_zero (t : Text) (table : List (Text × Nat)) (s r : Nat) :
    Dbg.flagNames ((t, 0) :: table) s r = Dbg.flagNames table s r := by
  simp [Dbg.flagNames]

theorem and_bit (n i : Nat) : n &&& 2 ^ i = if n.testBit i then 2 ^ i else 0 := by
  apply Nat.eq_of_testBit_eq
  intro j
  rw [Nat.testBit_and, Nat.testBit_two_pow]
  by_cases e : i = j
  · subst e
    cases n.testBit i <;> simp
  · cases n.testBit i <;> simp [e]

theorem flagNames_bits (l : List (Nat × Text)) (d : (l.map (·.1)).Nodup) (s r : Nat)
    (agree : ∀ p ∈ l, r.testBit p.1 = s.testBit p.1) :
    ∃ rest : Nat, (∀ i, rest.testBit i = true ↔ r.testBit i = true ∧ ∀ p ∈ l, p.1 ≠ i) ∧
      Dbg.flagNames (l.map fun p => (p.2, 2 ^ p.1)) s r = (l.filter fun p => s.testBit p.1).map (·.2) ++
        (if rest = 0 then [] else [txt! "0x" ++ hexLower rest]) := by
  induction l generalizing r with
  | nil => exact ⟨r, fun i => by simp, rfl⟩
  | cons p l ih =>
    obtain ⟨fresh, d⟩ := List.nodup_cons.mp d
    have other : ∀ q ∈ l, p.1 ≠ q.1 := fun q m e => fresh (List.mem_map.2 ⟨q, m, e.symm⟩)
    have here := agree p List.mem_cons_self
    rw [List.map_cons, Dbg.flagNames]
    by_cases h : s.testBit p.1 = true
    · have bit : ∀ i, (r ^^^ (r &&& 2 ^ p.1)).testBit i = (r.testBit i && !decide (p.1 = i)) := fun i => by
        rw [Nat.testBit_xor, Nat.testBit_and, Nat.testBit_two_pow]
        cases r.testBit i <;> simp
      obtain ⟨rest, hr, e⟩ := ih d (r ^^^ (r &&& 2 ^ p.1)) fun q m => by
        rw [bit, agree q (List.mem_cons_of_mem _ m)]
        simp [other q m]
      refine ⟨rest, fun i => ?_, ?_⟩
      · rw [hr, bit]
        simp only [Bool.and_eq_true, Bool.not_eq_true', decide_eq_false_iff_not, List.forall_mem_cons]
        exact ⟨fun ⟨⟨a, b⟩, c⟩ => ⟨a, b, c⟩, fun ⟨a, b, c⟩ => ⟨⟨a, b⟩, c⟩⟩
      · rw [if_pos ⟨by simp [and_bit, h], by simp [and_bit, here, h]⟩, e,
          List.filter_cons_of_pos (by simpa using h)]
        rfl
    · have h0 : s.testBit p.1 = false := by simpa using h
      obtain ⟨rest, hr, e⟩ := ih d r fun q m => agree q (List.mem_cons_of_mem _ m)
      refine ⟨rest, fun i => ?_, ?_⟩
      · rw [hr, List.forall_mem_cons]
        refine ⟨fun ⟨a, c⟩ => ⟨a, fun e => ?_, c⟩, fun ⟨a, _, c⟩ => ⟨a, c⟩⟩
        rw [← e, here, h0] at a
        exact Bool.false_ne_true a
      · rw [if_neg fun c => c.2 (by simp [and_bit, here, h0]), e, List.filter_cons_of_neg (by simp [h0])]

theorem pad_line (w : Text) (h : ∀ c ∈ w, c ≠ 10) :
    pad true (w ++ txt! ",\n") = txt! "    " ++ (w ++ txt! ",\n") := by
  have later : ∀ w : Text, (∀ c ∈ w, c ≠ 10) → pad false (w ++ txt! ",\n") = w ++ txt! ",\n" := by
    intro w
    induction w with
    | nil => intro _; rfl
    | cons c w ih =>
      intro h
      obtain ⟨hc, h⟩ := List.forall_mem_cons.1 h
      rw [List.cons_append, pad, if_neg (by decide), decide_eq_false hc, ih h]
      rfl
  cases w with
  | nil => rfl
  | cons c w =>
    obtain ⟨hc, h⟩ := List.forall_mem_cons.1 h
    rw [List.cons_append, pad, if_pos rfl, decide_eq_false hc, later w h]

theorem inBars_line (l : List Text) (h : ∀ w ∈ l, ∀ c ∈ w, c ≠ 10) : ∀ c ∈ inBars l, c ≠ 10 := by
  induction l with
  | nil => exact (by decide : ∀ c ∈ txt! "0x0", c ≠ 10)
  | cons w l ih =>
    obtain ⟨hw, h⟩ := List.forall_mem_cons.1 h
    cases l with
    | nil => exact hw
    | cons v l =>
      intro c m
      rw [inBars, List.mem_append, List.mem_append] at m
      rcases m with m | m | m
      · exact hw c m
      · exact (by decide : ∀ c ∈ txt! " | ", c ≠ 10) c m
      · exact ih h c m

theorem shows_bits {α : Type} {type : Text} {named : List (Nat × Text)} {dbg : α → Dbg} {bits : α → Nat}
    (table : List (Text × Nat)) (shown : ∀ x, dbg x = .tuple type (.cons [] (.flags table (bits x)) .nil))
    (lines : ∀ w ∈ table.map Prod.fst, ∀ c ∈ w, c ≠ 10)
    (names : ∀ x, NamesBits named (bits x) (Dbg.flagNames table (bits x) (bits x))) :
    ShowsBits type named dbg bits := by
  intro f x
  have line := inBars_line (Dbg.flagNames table (bits x) (bits x)) fun w m => by
    rcases flag_mem table _ _ w m with m | ⟨n, rfl⟩
    · exact lines w m
    · intro c m
      rcases List.mem_append.1 m with m | m
      · exact (by decide : ∀ c ∈ txt! "0x", c ≠ 10) c m
      · intro e
        exact absurd (e ▸ isNum_hexLower n c m) (by decide)
  refine ⟨_, names x, ?_, ?_⟩
  · rw [shown]
    simp only [Dbg.plain, DbgArgs.plain, plain_flags, labelText, List.isEmpty_nil, if_true, List.nil_append,
      List.append_nil]
  · rw [shown]
    simp only [Dbg.pretty, DbgArgs.pretty, plain_flags, labelText, List.isEmpty_nil, if_true, List.nil_append,
      List.append_nil, pad_line _ line, List.append_assoc]
    rfl

theorem names_bits {named : List (Nat × Text)} (d : (named.map (·.1)).Nodup) (n : Nat) :
    NamesBits named n (Dbg.flagNames (named.map fun p => (p.2, 2 ^ p.1)) n n) :=
  flagNames_bits named d n n fun _ _ => rfl

/-- The bits of the flags of a base board. -/
def boardWords : List (Nat × Text) :=
  [(0, txt! "HOSTING"), (1, txt! "REQUIRES_DAUGHTER"), (2, txt! "IS_REMOVABLE"), (3, txt! "IS_REPLACEABLE"),
   (4, txt! "IS_HOT_SWAPPABLE")]

/-- The bits of the voltages of a socket. -/
def voltageWords : List (Nat × Text) :=
  [(0, txt! "VOLTAGE_CAPABILITY_5V0"), (1, txt! "VOLTAGE_CAPABILITY_3V3"), (2, txt! "VOLTAGE_CAPABILITY_2V9")]

/-- The bits of the characteristics of a processor. -/
def processorWords : List (Nat × Text) :=
  [(0, txt! "RESERVED"), (1, txt! "UNKNOWN"), (2, txt! "CAPABLE_64BIT"), (3, txt! "MULTICORE"),
   (4, txt! "HARDWARE_THREAD"), (5, txt! "EXECUTE_PROTECTION"), (6, txt! "ENHANCED_VIRTUALIZATION"),
   (7, txt! "POWER_PERFORMANCE_CONTROL"), (9, txt! "ARM64_SOC_ID")]

/-- The bits of the types of cache memory. -/
def sramWords : List (Nat × Text) :=
  [(0, txt! "OTHER"), (1, txt! "UNKNOWN"), (2, txt! "NONBURST"), (3, txt! "BURST"), (4, txt! "PIPELINE_BURST"),
   (5, txt! "SYNCHRONOUS"), (6, txt! "ASYNCHRONOUS")]

/-- The bits of the details of a memory device. Bit 0 is reserved and has no name: the flag `RESERVED` has no bit. -/
def detailWords : List (Nat × Text) :=
  [(1, txt! "OTHER"), (2, txt! "UNKNOWN"), (3, txt! "FAST_PAGED"), (4, txt! "STATIC_COLUMN"),
   (5, txt! "PSEUDO_STATIC"), (6, txt! "RAMBUS"), (7, txt! "SYNCHRONOUS"), (8, txt! "CMOS"), (9, txt! "EDO"),
   (10, txt! "WINDOW_DRAM"), (11, txt! "CACHE_DRAM"), (12, txt! "NON_VOLATILE"), (13, txt! "REGISTERED"),
   (14, txt! "UNREGISTERED"), (15, txt! "LRDIMM")]

/-- The bits of the operating modes of a memory device, the reserved one without a name. -/
def modeWords : List (Nat × Text) :=
  [(1, txt! "OTHER"), (2, txt! "UNKNOWN"), (3, txt! "VOLATILE"), (4, txt! "BYTE_ACCESSIBLE_PERSISTENT"),
   (5, txt! "BLOCK_ACCESSIBLE_PERSISTENT")]

/-- The bits of the status of a processor as the code names them, in the order of the text. -/
def statusWords : List (Nat × Text) :=
  [(6, txt! "CPU_SOCKET_POPULATED"), (0, txt! "CPU_ENABLED"), (1, txt! "CPU_DISABLED_BY_USER"), (2, txt! "CPU_IDLE")]

/-- The names of the states of a processor, which is the number in bits 0 to 2 of the status (SMBIOS 7.5). -/
def stateName : Nat → Option Text
  | 1 => some (txt! "CPU_ENABLED")
  | 2 => some (txt! "CPU_DISABLED_BY_USER")
  | 3 => some (txt! "CPU_DISABLED_BY_BIOS")
  | 4 => some (txt! "CPU_IDLE")
  | 7 => some (txt! "CPU_OTHER")
  | _ => none

/-- C114 of flag fields in which every flag is a bit: exactly the names of the bits that are set are shown, and the bits
without a name by their number. -/
def C114_bits : Prop :=
  ShowsBits (txt! "BaseBoardFlags") boardWords baseboard.BaseBoardFlags.dbg (·.bits.toNat) ∧
  ShowsBits (txt! "VoltageLegacy") voltageWords processor.VoltageLegacy.dbg (·.bits.toNat) ∧
  ShowsBits (txt! "ProcessorCharacteristics") processorWords processor.ProcessorCharacteristics.dbg (·.bits.toNat) ∧
  ShowsBits (txt! "CacheSramType") sramWords cache.CacheSramType.dbg (·.bits.toNat) ∧
  ShowsBits (txt! "Detail") detailWords memory_device.Detail.dbg (·.bits.toNat) ∧
  ShowsBits (txt! "OperatingModes") modeWords memory_device.OperatingModes.dbg (·.bits.toNat)

/-- C114, of all flag fields: the status of a processor, too, is shown by the name of its state if that has one and the
remaining bits are not set. -/
def C114_full : Prop := C114_bits ∧ ∀ (byNumber : Nat → Bool) (state : Nat) (name : Text),
  stateName state = some name →
  (processor.ProcessorStatus.dbg ⟨UInt8.ofNat state⟩).plain byNumber = txt! "ProcessorStatus(" ++ (name ++ txt! ")")

/-- C114 without the names of the states of processors. -/
theorem C114_partial : C114_bits := by
  refine ⟨?_, ?_, ?_, ?_, ?_, ?_⟩
  · exact shows_bits _ (fun _ => rfl) (by decide) fun x => names_bits (named := boardWords) (by decide) _
  · exact shows_bits _ (fun _ => rfl) (by decide) fun x => names_bits (named := voltageWords) (by decide) _
  · exact shows_bits _ (fun _ => rfl) (by decide) fun x => names_bits (named := processorWords) (by decide) _
  · exact shows_bits _ (fun _ => rfl) (by decide) fun x => names_bits (named := sramWords) (by decide) _
  · refine shows_bits _ (fun _ => rfl) (by decide) fun x => ?_
    rw [memory_device.Detail.table, flagNames_zero]
    exact names_bits (named := detailWords) (by decide) _
  · refine shows_bits _ (fun _ => rfl) (by decide) fun x => ?_
    rw [memory_device.OperatingModes.table, flagNames_zero]
    exact names_bits (named := modeWords) (by decide) _

/-- C114: the status of a processor is shown as if its state were three flags, whatever the state.
`CPU_DISABLED_BY_BIOS` and `CPU_OTHER` are never shown. -/
theorem C114_status : ShowsBits (txt! "ProcessorStatus") statusWords processor.ProcessorStatus.dbg (·.bits.toNat) := by
  refine shows_bits processor.ProcessorStatus.table (fun _ => rfl) (by decide) fun x => ?_
  obtain ⟨b⟩ := x
  have e : Dbg.flagNames processor.ProcessorStatus.table b.toNat b.toNat =
      Dbg.flagNames (statusWords.map fun p => (p.2, 2 ^ p.1)) b.toNat b.toNat :=
    forall_u8 (P := fun b => Dbg.flagNames processor.ProcessorStatus.table b.toNat b.toNat =
      Dbg.flagNames (statusWords.map fun p => (p.2, 2 ^ p.1)) b.toNat b.toNat) (by decide +kernel) b
  show NamesBits statusWords b.toNat (Dbg.flagNames processor.ProcessorStatus.table b.toNat b.toNat)
  rw [e]
  exact names_bits (by decide) _

/-- C114: a processor that the firmware has disabled is shown as enabled and disabled by the user, and one in the state
"other" as idle besides. -/
theorem C114_misnamed (f : Nat → Bool) :
    (processor.ProcessorStatus.dbg ⟨3⟩).plain f = txt! "ProcessorStatus(CPU_ENABLED | CPU_DISABLED_BY_USER)" ∧
    (processor.ProcessorStatus.dbg ⟨7⟩).plain f =
      txt! "ProcessorStatus(CPU_ENABLED | CPU_DISABLED_BY_USER | CPU_IDLE)" := by
  constructor <;> rfl

/-- C114 is false of the code: the state 3 of a processor is not shown by its name. -/
theorem C114_full_false : ¬ C114_full := by
  intro h
  have := h.2 (fun _ => false) 3 (txt! "CPU_DISABLED_BY_BIOS") rfl
  rw [show UInt8.ofNat 3 = 3 from rfl, (C114_misnamed _).1] at this
  exact absurd this (by decide)

/-- Two named bits and one without a name. -/
example : (baseboard.BaseBoardFlags.dbg ⟨0x29⟩).plain (fun _ => false) =
    txt! "BaseBoardFlags(HOSTING | IS_REPLACEABLE | 0x20)" := rfl

/-- No bit. -/
example : (memory_device.Detail.dbg ⟨0⟩).plain (fun _ => false) = txt! "Detail(0x0)" := rfl

/-- The reserved bit of a memory device is shown by its number. -/
example : (memory_device.Detail.dbg ⟨0x81⟩).pretty (fun _ => false) =
    txt! "Detail(\n    SYNCHRONOUS | 0x1,\n)" := rfl

end Dmi.Props
