import Verif.Proofs.CostDecode
import Verif.Proofs.Strings
/-!
# C97: decoding a table takes linear work
-/
namespace Dmi.Props
open Spec

/-- C97: decoding a structure looks at its string set at most seven times, two looks for each byte each time,
whatever the structure says; `lookups` tells how often for each type. The count changes nothing. -/
theorem C97_decode [Usize] (oc : Bool) (s : RawStructure) :
    (decodeStructureC oc s).out = decodeStructure oc s ∧
    (decodeStructureC oc s).cost ≤ lookups s.info * (2 * s.strings.length) ∧
    lookups s.info ≤ 7 := by
  refine ⟨(decode_counts oc s).1, (decode_counts oc s).2, ?_⟩
  cases s.info <;> exact Nat.le_of_ble_eq_true rfl

theorem nextW_cases [Usize] (oc : Bool) (s : Structures) (hb : s.buffer.length + 256 ≤ 2 ^ 32)
    (hi : s.idx.toNat ≤ s.buffer.length) :
    (s.nextW oc >>= fun x => .ok (x.1, x.2.1)) = s.nextC oc ∧
    ∀ x c d, s.nextW oc = .ok (x, c, d) →
      s.idx.toNat ≤ x.2.idx.toNat ∧ d ≤ 14 * (x.2.idx.toNat - s.idx.toNat) := by
  obtain ⟨raw, cnt⟩ := next_rawC_cases oc s hb hi
  unfold Structures.nextW Structures.nextC
  cases h1 : s.next_rawC oc with
  | err e => cases e
  | panic => exact ⟨rfl, fun _ _ _ h => nomatch h⟩
  | ub => exact ⟨rfl, fun _ _ _ h => nomatch h⟩
  | ok x =>
  obtain ⟨⟨o, s1⟩, c1⟩ := x
  rw [h1, ok_bind] at raw
  have cases := next_raw_cases oc s (by omega)
  rw [← raw] at cases
  simp only [ok_bind]
  cases o with
  | none =>
    refine ⟨rfl, fun _ _ _ h => ?_⟩
    cases h
    rcases cases with (h | h) | h | ⟨_, e, h⟩ | ⟨p, _, _, h⟩ <;> cases h
    exact ⟨Nat.le_refl _, Nat.zero_le _⟩
  | some r =>
  cases r with
  | error e =>
    refine ⟨rfl, fun _ _ _ h => ?_⟩
    cases h
    rcases cases with (h | h) | h | ⟨_, e, h⟩ | ⟨p, _, _, h⟩ <;> cases h
    exact ⟨Nat.le_refl _, Nat.zero_le _⟩
  | ok r =>
    have dc := C97_decode oc r
    simp only
    rw [dc.1]
    refine ⟨by cases (decodeStructure oc r).toItem <;> rfl, fun x c d h => ?_⟩
    simp only [bind_ok_iff, pure_eq_ok, Res.ok.injEq, Prod.mk.injEq] at h
    obtain ⟨item, -, hx, -, rfl⟩ := h
    have e : x.2.idx = s1.idx := by
      rw [← hx]; simp only; split <;> rfl
    rw [e]
    rcases cases with (h | h) | h | ⟨_, e, h⟩ | ⟨p, hp, _, h⟩ <;> cases h
    have fit := (PieceAt.parts hp).1
    have hbl := Piece.bytes_length p
    have k := dc.2
    have hm := Nat.mul_le_mul_right (2 * (p.raw s.smbios_version).strings.length) k.2
    have hs : (p.raw s.smbios_version).strings.length ≤ p.bytes.length := by
      simp only [Piece.raw, Piece.bytes, List.length_append]; omega
    have hidx : (UInt32.ofNat (s.idx.toNat + p.bytes.length)).toNat = s.idx.toNat + p.bytes.length := by
      rw [UInt32.toNat_ofNat']; omega
    simp only [hidx]
    omega

/-- Calls of the iterator with both counts, up to and including the one that answers `None`. -/
inductive CountedW [Usize] (oc : Bool) :
    Structures → List (Except MalformedStructureError Structure) → Nat → Nat → Prop
  | done {s s' c d} (h : s.nextW oc = .ok ((none, s'), c, d)) : CountedW oc s [] c d
  | step {s s' item items c d c' d'} (h : s.nextW oc = .ok ((some item, s'), c, d))
      (t : CountedW oc s' items c' d') : CountedW oc s (item :: items) (c + c') (d + d')

/-- C97: reading and decoding a whole table executes the loop of `find_nulnul` at most once for each byte from
where the iterator stands to the end of the buffer, and the decoders' string lookups look at most fourteen times
as many bytes. -/
theorem C97_linear [Usize] (oc : Bool) {s : Structures} {items : List (Except MalformedStructureError Structure)}
    {c d : Nat} (hb : s.buffer.length + 256 ≤ 2 ^ 32) (hi : s.idx.toNat ≤ s.buffer.length)
    (h : CountedW oc s items c d) :
    c ≤ s.buffer.length - s.idx.toNat ∧ d ≤ 14 * (s.buffer.length - s.idx.toNat) := by
  have toC : ∀ {s : Structures} {x c d}, s.buffer.length + 256 ≤ 2 ^ 32 → s.idx.toNat ≤ s.buffer.length →
      s.nextW oc = .ok (x, c, d) → s.nextC oc = .ok (x, c) := by
    intro s x c d hb hi h
    rw [← (nextW_cases oc s hb hi).1, h]; rfl
  have both : Counted oc s items c ∧ d ≤ 14 * (s.buffer.length - s.idx.toNat) := by
    induction h with
    | done h =>
      have k := toC hb hi h
      obtain ⟨-, -, -, k4, -⟩ := nextC_count oc _ hb hi k
      have := (nextW_cases oc _ hb hi).2 _ _ _ h
      exact ⟨.done k, by simp only at this; omega⟩
    | step h t ih =>
      have k := toC hb hi h
      obtain ⟨-, -, k3, k4, -⟩ := nextC_count oc _ hb hi k
      have i := ih (by rw [k3]; exact hb) (by rw [k3]; exact k4)
      have := (nextW_cases oc _ hb hi).2 _ _ _ h
      rw [k3] at i
      exact ⟨.step k i.1, by have := i.2; simp only at *; omega⟩
  exact ⟨C90_linear oc hb hi both.1, both.2⟩

/-- C97: the counts change nothing: the items are those of the iterator, and every run of the iterator has
counts. -/
theorem C97_same [Usize] (oc : Bool) {s : Structures} {items : List (Except MalformedStructureError Structure)}
    (hb : s.buffer.length + 256 ≤ 2 ^ 32) (hi : s.idx.toNat ≤ s.buffer.length) :
    (∃ c d, CountedW oc s items c d) ↔ CollectsR (fun s => s.next oc) s items := by
  rw [← C90_same oc hb hi]
  constructor
  · rintro ⟨c, d, h⟩
    refine ⟨c, ?_⟩
    induction h with
    | done h => exact .done (by rw [← (nextW_cases oc _ hb hi).1, h]; rfl)
    | @step s s' item items c d c' d' h t ih =>
      have k : s.nextC oc = .ok ((some item, s'), c) := by rw [← (nextW_cases oc _ hb hi).1, h]; rfl
      obtain ⟨-, -, k3, k4, -⟩ := nextC_count oc _ hb hi k
      exact .step k (ih (by rw [k3]; exact hb) (by rw [k3]; exact k4))
  · rintro ⟨c, h⟩
    have back : ∀ (s : Structures) x c, s.buffer.length + 256 ≤ 2 ^ 32 → s.idx.toNat ≤ s.buffer.length →
        s.nextC oc = .ok (x, c) → ∃ d, s.nextW oc = .ok (x, c, d) := by
      intro s x c hb hi h
      rw [← (nextW_cases oc s hb hi).1] at h
      simp only [bind_ok_iff, Res.ok.injEq, Prod.mk.injEq] at h
      obtain ⟨⟨y, c', d⟩, h1, rfl, rfl⟩ := h
      exact ⟨d, h1⟩
    induction h with
    | done h =>
      obtain ⟨d, k⟩ := back _ _ _ hb hi h
      exact ⟨_, d, .done k⟩
    | step h t ih =>
      obtain ⟨d, k⟩ := back _ _ _ hb hi h
      obtain ⟨-, -, k3, k4, -⟩ := nextC_count oc _ hb hi h
      obtain ⟨c', d', t⟩ := ih (by rw [k3]; exact hb) (by rw [k3]; exact k4)
      exact ⟨_, _, .step k t⟩

/-- C97: for the iterator of an entry point. -/
theorem C97_table [Usize] (oc : Bool) (e : EntryPoint) (buffer : Bytes)
    {items : List (Except MalformedStructureError Structure)} (hb : buffer.length + 256 ≤ 2 ^ 32)
    (h : CollectsR (fun s => s.next oc) (e.structures buffer) items) :
    ∃ c d, CountedW oc (e.structures buffer) items c d ∧ c ≤ buffer.length ∧ d ≤ 14 * buffer.length := by
  obtain ⟨c, d, h⟩ := (C97_same oc (s := e.structures buffer) hb (Nat.zero_le _)).2 h
  exact ⟨c, d, h, C97_linear oc (s := e.structures buffer) hb (Nat.zero_le _) h⟩

/-- Calls of the iterator over strings with the count, up to and including the one that answers `None`. -/
inductive CountedStrings : StructureStrings → List Str → Nat → Prop
  | done {s s' c} (h : s.nextC = ((none, s'), c)) : CountedStrings s [] c
  | step {s s' a l c d} (h : s.nextC = ((some a, s'), c)) (t : CountedStrings s' l d) :
      CountedStrings s (a :: l) (c + d)

/-- C97: going through all strings of a structure, as users of OEM strings do, looks at most twice at each byte. -/
theorem C97_strings (s : StructureStrings) (l : List Str) :
    ((∃ c, CountedStrings s l c) ↔ Collects StructureStrings.next s l) ∧
    ∀ c, CountedStrings s l c → c ≤ 2 * (s.bytes.length - s.start) := by
  have both : ∀ {s : StructureStrings} {l c}, CountedStrings s l c → Collects StructureStrings.next s l ∧
      c ≤ 2 * (s.bytes.length - s.start) := by
    intro s l c h
    induction h with
    | @done s s' c h =>
      have k := strings_count s
      rw [h] at k
      exact ⟨.done (by rw [← strings_nextC, h]), k.1⟩
    | @step s s' a l c d h t ih =>
      have k := strings_count s
      rw [h] at k
      obtain ⟨-, k2, k3⟩ := k
      have k2 : s'.bytes = s.bytes := k2
      have k3 := k3 rfl
      obtain ⟨i1, i2⟩ := ih
      rw [k2] at i2
      exact ⟨.step (by rw [← strings_nextC, h]) i1, by simp only at k3; omega⟩
  refine ⟨⟨fun ⟨c, h⟩ => (both h).1, fun h => ?_⟩, fun c h => (both h).2⟩
  induction h with
  | @done s s' h =>
    cases e : s.nextC with
    | mk x c =>
    have := strings_nextC s
    rw [e, h] at this
    exact ⟨c, .done (by rw [e]; exact congrArg (·, c) this)⟩
  | @step s s' a l h t ih =>
    cases e : s.nextC with
    | mk x c =>
    have := strings_nextC s
    rw [e, h] at this
    obtain ⟨d, ih⟩ := ih
    exact ⟨c + d, .step (by rw [e]; exact congrArg (·, c) this) ih⟩

/-! Concrete values: a port connector with two names and a group whose name is missing. The lookups of the first
look at five bytes and at eight, that of the second at one. -/

def costPorts : Bytes :=
  [8, 9, 1, 0, 1, 0, 2, 0, 0, 65, 66, 0, 67, 0, 0] ++ [14, 5, 2, 0, 3, 0, 0]

def costPortsStart : Structures :=
  { smbios_version := ⟨2, 8⟩, smbios_len := 22, idx := 0, buffer := costPorts }

example : ∃ a b, CountedW true costPortsStart [.ok a, .error b] (5 + (1 + 0)) (13 + (1 + 0)) := by
  refine ⟨_, _, .step (s' := { costPortsStart with idx := 15 }) rfl
    (.step (s' := { costPortsStart with idx := 22 }) rfl (.done (s' := { costPortsStart with idx := 22 }) rfl))⟩

example : CountedStrings (.new [65, 66, 0, 67, 0, 0]) [[65, 66], [67]] (5 + (3 + 1)) :=
  .step (s' := ⟨[65, 66, 0, 67, 0, 0], 3⟩) rfl (.step (s' := ⟨[65, 66, 0, 67, 0, 0], 5⟩) rfl
    (.done (s' := ⟨[65, 66, 0, 67, 0, 0], 5⟩) rfl))

end Dmi.Props
