import Verif.Model.Cost
import Verif.Host
import Verif.Proofs.Decode
import Verif.Props.Table
import Verif.Props.Moved
/-!
# C90: reading a table takes linear work
-/
namespace Dmi.Props
open Spec

theorem findNulNulC_fst : ∀ b : Bytes, (findNulNulC b).1 = findNulNul b
  | [] => rfl
  | [_] => rfl
  | a :: b :: t => by
    rw [findNulNulC, findNulNul]
    split
    · rfl
    · rw [← findNulNulC_fst (b :: t)]

theorem findNulNulC_le : ∀ b : Bytes, (findNulNulC b).2 ≤ b.length
  | [] => Nat.le_refl _
  | [_] => Nat.le_refl _
  | a :: b :: t => by
    rw [findNulNulC]
    split
    · simp
    · have := findNulNulC_le (b :: t)
      simp only [List.length_cons] at this ⊢
      omega

theorem findNulNulC_some : ∀ {b : Bytes} {k c : Nat}, findNulNulC b = (some k, c) → c = k
  | [], _, _, h => by cases h
  | [_], _, _, h => by cases h
  | a :: b :: t, k, c, h => by
    rw [findNulNulC] at h
    split at h
    · cases h; rfl
    · simp only [Prod.mk.injEq] at h
      obtain ⟨h1, rfl⟩ := h
      obtain ⟨m, hm, rfl⟩ := Option.map_eq_some_iff.1 h1
      rw [findNulNulC_some (k := m) (c := (findNulNulC (b :: t)).2) (by rw [← hm])]

/-- What a call of `next_raw` with the count does, told by one without. -/
theorem next_rawC_cases (oc : Bool) (s : Structures) (hb : s.buffer.length + 256 ≤ 2 ^ 32)
    (hi : s.idx.toNat ≤ s.buffer.length) :
    (s.next_rawC oc >>= fun x => .ok x.1) = s.next_raw oc ∧
    ∀ x c, s.next_rawC oc = .ok (x, c) →
      (x.1 = none → c = 0) ∧ c ≤ s.buffer.length - s.idx.toNat ∧
      x.2.buffer = s.buffer ∧ x.2.idx.toNat ≤ s.buffer.length ∧
      (∀ r, x.1 = some (.ok r) → s.idx.toNat + c < x.2.idx.toNat) := by
  unfold Structures.next_rawC Structures.next_raw
  cases h0 : (addU32 oc s.idx 4 : Fault _) with
  | err e => cases e
  | panic => exact ⟨rfl, fun _ _ h => nomatch h⟩
  | ub => exact ⟨rfl, fun _ _ h => nomatch h⟩
  | ok he =>
  simp only [ok_bind]
  split
  · exact ⟨rfl, fun _ _ h => by cases h; simpa using hi⟩
  cases h1 : (indexFrom s.buffer s.idx.toNat : Fault Bytes) with
  | err e => cases e
  | panic => exact ⟨rfl, fun _ _ h => nomatch h⟩
  | ub => exact ⟨rfl, fun _ _ h => nomatch h⟩
  | ok w =>
  simp only [ok_bind]
  cases h2 : (letAsStruct HeaderPacked.packed w : Fault _) with
  | err e => cases e
  | panic => exact ⟨rfl, fun _ _ h => nomatch h⟩
  | ub => exact ⟨rfl, fun _ _ h => nomatch h⟩
  | ok x =>
  simp only [ok_bind]
  cases h3 : (addU32 oc s.idx x.len.toUInt32 : Fault _) with
  | err e => cases e
  | panic => exact ⟨rfl, fun _ _ h => nomatch h⟩
  | ub => exact ⟨rfl, fun _ _ h => nomatch h⟩
  | ok si =>
  simp only [ok_bind]
  split
  · exact ⟨rfl, fun _ _ h => by cases h; simpa using hi⟩
  have hx : x.len.toUInt32.toNat < 256 := by
    have := UInt8.toNat_lt x.len
    simpa using this
  have hsi : si.toNat = s.idx.toNat + x.len.toUInt32.toNat := by
    rw [addU32_ok oc s.idx _ (by omega)] at h3
    cases h3
    exact u32_add_toNat _ _ (by omega)
  cases h4 : (indexFrom s.buffer si.toNat : Fault Bytes) with
  | err e => cases e
  | panic => exact ⟨rfl, fun _ _ h => nomatch h⟩
  | ub => exact ⟨rfl, fun _ _ h => nomatch h⟩
  | ok tail =>
  have ht : si.toNat + tail.length = s.buffer.length := by
    unfold indexFrom getFrom at h4
    split at h4
    · rename_i v hv
      split at hv
      · cases h4; cases hv; rw [List.length_drop]; omega
      · cases hv
    · cases h4
  simp only [ok_bind]
  rw [← findNulNulC_fst tail]
  have hle := findNulNulC_le tail
  cases h5 : findNulNulC tail with
  | mk o c =>
  rw [h5] at hle
  cases o with
  | none =>
    refine ⟨rfl, fun _ _ h => ?_⟩
    cases h
    have : c ≤ tail.length := hle
    exact ⟨nofun, by omega, rfl, hi, nofun⟩
  | some k =>
  have hk : k < tail.length := findNulNul_lt (by rw [← findNulNulC_fst, h5])
  obtain rfl := findNulNulC_some h5
  have ek : (UInt32.ofNat (c + 1)).toNat = c + 1 := by rw [UInt32.toNat_ofNat']; omega
  have en : (si + UInt32.ofNat (c + 1)).toNat = si.toNat + (c + 1) := by
    rw [u32_add_toNat _ _ (by omega), ek]
  have es := addU32_ok (ε := Empty) oc si (.ofNat (c + 1)) (by omega)
  simp only [es, ok_bind]
  cases h6 : (indexRange s.buffer he.toNat si.toNat : Fault Bytes) with
  | err e => cases e
  | panic => exact ⟨rfl, fun _ _ h => nomatch h⟩
  | ub => exact ⟨rfl, fun _ _ h => nomatch h⟩
  | ok data =>
  simp only [ok_bind]
  cases h7 : (indexRange s.buffer si.toNat (si + UInt32.ofNat (c + 1)).toNat : Fault Bytes) with
  | err e => cases e
  | panic => exact ⟨rfl, fun _ _ h => nomatch h⟩
  | ub => exact ⟨rfl, fun _ _ h => nomatch h⟩
  | ok strs =>
  refine ⟨rfl, fun _ _ h => ?_⟩
  cases h
  refine ⟨nofun, by omega, rfl, ?_, fun _ _ => ?_⟩
  · simp only [en]; omega
  · simp only [en]; omega

/-- Calls of the iterator with the count, up to and including the one that answers `None`: the items and
the sum of the counts. -/
inductive Counted [Usize] (oc : Bool) :
    Structures → List (Except MalformedStructureError Structure) → Nat → Prop
  | done {s s' c} (h : s.nextC oc = .ok ((none, s'), c)) : Counted oc s [] c
  | step {s s' item items c d} (h : s.nextC oc = .ok ((some item, s'), c)) (t : Counted oc s' items d) :
      Counted oc s (item :: items) (c + d)

theorem nextC_fst [Usize] (oc : Bool) (s : Structures) (hb : s.buffer.length + 256 ≤ 2 ^ 32)
    (hi : s.idx.toNat ≤ s.buffer.length) :
    (s.nextC oc >>= fun x => .ok x.1) = s.next oc := by
  unfold Structures.nextC Structures.next
  rw [← (next_rawC_cases oc s hb hi).1]
  cases h : s.next_rawC oc with
  | err e => cases e
  | panic => rfl
  | ub => rfl
  | ok x =>
  obtain ⟨⟨o, s'⟩, c⟩ := x
  simp only [ok_bind]
  cases o with
  | none => rfl
  | some r =>
  cases r with
  | error e => rfl
  | ok r =>
  simp only
  cases (decodeStructure oc r).toItem <;> rfl

theorem nextC_count [Usize] (oc : Bool) (s : Structures) (hb : s.buffer.length + 256 ≤ 2 ^ 32)
    (hi : s.idx.toNat ≤ s.buffer.length) {o : Option (Except MalformedStructureError Structure)}
    {s' : Structures} {c : Nat} (h : s.nextC oc = .ok ((o, s'), c)) :
    (o = none → c = 0) ∧ c ≤ s.buffer.length - s.idx.toNat ∧ s'.buffer = s.buffer ∧
      s'.idx.toNat ≤ s.buffer.length ∧
      (o = none ∨ s.idx.toNat + c < s'.idx.toNat ∨ s'.nextC oc = .ok ((none, s'), 0)) := by
  unfold Structures.nextC at h
  cases h1 : s.next_rawC oc with
  | err e => cases e
  | panic => rw [h1] at h; cases h
  | ub => rw [h1] at h; cases h
  | ok x =>
  obtain ⟨⟨r, s1⟩, c1⟩ := x
  obtain ⟨k1, k2, k3, k4, k5⟩ := (next_rawC_cases oc s hb hi).2 _ _ h1
  rw [h1, ok_bind] at h
  cases r with
  | none =>
    cases h
    exact ⟨fun _ => k1 rfl, k2, k3, k4, .inl rfl⟩
  | some r =>
  cases r with
  | error e =>
    cases h
    refine ⟨nofun, k2, k3, k4, .inr (.inr ?_)⟩
    have k4 : s1.idx.toNat ≤ s.buffer.length := k4
    unfold Structures.nextC Structures.next_rawC
    rw [addU32_ok oc s1.idx 4 (by have : (4 : UInt32).toNat = 4 := rfl; omega), ok_bind, if_pos]
    · rfl
    · have : (4 : UInt32).toNat = 4 := rfl
      rw [gt_iff_lt, UInt32.lt_iff_toNat_lt, u32_add_toNat _ _ (by omega)]
      simp only
      omega
  | ok r =>
    simp only [bind_ok_iff, pure_eq_ok, Res.ok.injEq, Prod.mk.injEq] at h
    obtain ⟨item, -, ⟨rfl, hs⟩, rfl⟩ := h
    have e : s'.buffer = s1.buffer ∧ s'.idx = s1.idx := by
      rw [← hs]; split <;> exact ⟨rfl, rfl⟩
    exact ⟨nofun, k2, e.1.trans k3, by rw [e.2]; exact k4, .inr (.inl (by rw [e.2]; exact k5 _ rfl))⟩

/-- Reading a whole table, the call that answers `None` included, executes the body of the loop of
`find_nulnul` at most once for each byte from where the iterator stands to the end of the buffer. -/
theorem C90_linear [Usize] (oc : Bool) {s : Structures} {items : List (Except MalformedStructureError Structure)}
    {c : Nat} (hb : s.buffer.length + 256 ≤ 2 ^ 32) (hi : s.idx.toNat ≤ s.buffer.length)
    (h : Counted oc s items c) : c ≤ s.buffer.length - s.idx.toNat := by
  induction h with
  | done h => have := (nextC_count oc _ hb hi h).1 rfl; omega
  | step h t ih =>
    obtain ⟨-, k2, k3, k4, k5⟩ := nextC_count oc _ hb hi h
    have ih := ih (by rw [k3]; exact hb) (by rw [k3]; exact k4)
    rw [k3] at ih
    rcases k5 with k5 | k5 | k5
    · cases k5
    · omega
    · cases t with
      | done h' => rw [k5] at h'; cases h'; omega
      | step h' => rw [k5] at h'; cases h'

/-- The count changes nothing: the items are those of the iterator, and every run of the iterator has
a count. -/
theorem C90_same [Usize] (oc : Bool) {s : Structures} {items : List (Except MalformedStructureError Structure)}
    (hb : s.buffer.length + 256 ≤ 2 ^ 32) (hi : s.idx.toNat ≤ s.buffer.length) :
    (∃ c, Counted oc s items c) ↔ CollectsR (fun s => s.next oc) s items := by
  have back : ∀ (s : Structures) x, s.buffer.length + 256 ≤ 2 ^ 32 → s.idx.toNat ≤ s.buffer.length →
      s.next oc = .ok x → ∃ c, s.nextC oc = .ok (x, c) := by
    intro s x hb hi h
    rw [← nextC_fst oc s hb hi] at h
    simp only [bind_ok_iff, Res.ok.injEq] at h
    obtain ⟨⟨y, c⟩, h1, rfl⟩ := h
    exact ⟨c, h1⟩
  constructor
  · rintro ⟨c, h⟩
    induction h with
    | done h => exact .done (by rw [← nextC_fst oc _ hb hi, h]; rfl)
    | step h t ih =>
      obtain ⟨-, -, k3, k4, -⟩ := nextC_count oc _ hb hi h
      exact .step (by rw [← nextC_fst oc _ hb hi, h]; rfl) (ih (by rw [k3]; exact hb) (by rw [k3]; exact k4))
  · intro h
    induction h with
    | done h =>
      obtain ⟨c, h⟩ := back _ _ hb hi h
      exact ⟨c, .done h⟩
    | step h t ih =>
      obtain ⟨c, h⟩ := back _ _ hb hi h
      obtain ⟨-, -, k3, k4, -⟩ := nextC_count oc _ hb hi h
      obtain ⟨d, t⟩ := ih (by rw [k3]; exact hb) (by rw [k3]; exact k4)
      exact ⟨c + d, .step h t⟩

/-- For the iterator of an entry point: at most one execution of the loop body for each byte given. -/
theorem C90_table [Usize] (oc : Bool) (e : EntryPoint) (buffer : Bytes)
    {items : List (Except MalformedStructureError Structure)} (hb : buffer.length + 256 ≤ 2 ^ 32)
    (h : CollectsR (fun s => s.next oc) (e.structures buffer) items) :
    ∃ c, Counted oc (e.structures buffer) items c ∧ c ≤ buffer.length := by
  obtain ⟨c, h⟩ := (C90_same oc (s := e.structures buffer) hb (Nat.zero_le _)).2 h
  exact ⟨c, h, C90_linear oc (s := e.structures buffer) hb (Nat.zero_le _) h⟩

theorem strings_nextC (s : StructureStrings) : s.nextC.1 = s.next := by
  unfold StructureStrings.nextC StructureStrings.next
  cases getFrom s.bytes s.start with
  | none => rfl
  | some rest =>
    simp only
    split <;> rfl

theorem strings_nthC (n : Nat) : ∀ s : StructureStrings, (s.nthC n).1 = s.nth n := by
  induction n with
  | zero => intro s; rw [StructureStrings.nthC, StructureStrings.nth, strings_nextC]
  | succ n ih =>
    intro s
    rw [StructureStrings.nthC, StructureStrings.nth, ← strings_nextC]
    obtain ⟨⟨o, s'⟩, c⟩ := s.nextC
    cases o with
    | none => rfl
    | some a => exact ih s'

/-- One call of `next` looks at most twice at each byte it goes past. -/
theorem strings_count (s : StructureStrings) :
    s.nextC.2 ≤ 2 * (s.bytes.length - s.start) ∧ s.nextC.1.2.bytes = s.bytes ∧
    (s.nextC.1.1.isSome →
      s.nextC.2 + 2 * (s.bytes.length - s.nextC.1.2.start) ≤ 2 * (s.bytes.length - s.start)) := by
  unfold StructureStrings.nextC getFrom
  by_cases h : s.start ≤ s.bytes.length
  · rw [if_pos h]
    have hl : (beforeNul (s.bytes.drop s.start)).length ≤ s.bytes.length - s.start := by
      rw [← List.length_drop]
      exact (List.takeWhile_sublist _).length_le
    simp only [List.length_drop]
    split
    · refine ⟨by simp only; omega, rfl, nofun⟩
    · refine ⟨by simp only; omega, rfl, fun _ => by simp only; omega⟩
  · rw [if_neg h]
    exact ⟨Nat.zero_le _, rfl, nofun⟩

theorem strings_nthC_le (n : Nat) : ∀ s : StructureStrings, (s.nthC n).2 ≤ 2 * (s.bytes.length - s.start) := by
  induction n with
  | zero => intro s; exact (strings_count s).1
  | succ n ih =>
    intro s
    obtain ⟨h1, h2, h3⟩ := strings_count s
    rw [StructureStrings.nthC]
    cases h : s.nextC with
    | mk x c =>
    obtain ⟨o, s'⟩ := x
    rw [h] at h1 h2 h3
    cases o with
    | none => exact h1
    | some a =>
      have h2 : s'.bytes = s.bytes := h2
      have h3 := h3 rfl
      have := ih s'
      simp only at h3 ⊢
      rw [h2] at this
      omega

/-- Looking up a string by its number, whichever it is, takes at most two looks for each byte of the
string set: one for the end of the string and one for UTF-8. The count changes nothing. -/
theorem C90_string (r : RawStructure) (i : UInt8) :
    (r.find_stringC i).1 = r.find_string i ∧ (r.find_stringC i).2 ≤ 2 * r.strings.length := by
  unfold RawStructure.find_stringC RawStructure.find_string
  split
  · exact ⟨rfl, Nat.zero_le _⟩
  · exact ⟨by rw [← strings_nthC], strings_nthC_le _ r.stringsIter⟩

theorem findSignatureLoopC_fst : ∀ (l : List Bytes) (i : Nat),
    (findSignatureLoopC l i).1 = findSignatureLoop l i ∧ (findSignatureLoopC l i).2 ≤ l.length
  | [], _ => ⟨rfl, Nat.le_refl _⟩
  | chunk :: rest, i => by
    have ih := findSignatureLoopC_fst rest (i + 1)
    rw [findSignatureLoopC, findSignatureLoop, List.length_cons]
    split
    · exact ⟨rfl, by simp⟩
    · split
      · exact ⟨rfl, by simp⟩
      · exact ⟨ih.1, Nat.succ_le_succ ih.2⟩

theorem chunks_count : ∀ (k : Nat) (b : Bytes), b.length ≤ k → (chunks 16 b).length * 16 < b.length + 16
  | k, b, hk => by
    unfold chunks
    split
    · simp
    · rename_i h
      have hb : 0 < b.length := List.length_pos_iff.2 fun e => h (.inl e)
      rw [List.length_cons]
      cases k with
      | zero => omega
      | succ k =>
      by_cases h16 : b.length ≤ 16
      · rw [List.drop_eq_nil_of_le h16]
        have : (chunks 16 ([] : Bytes)).length = 0 := by unfold chunks; simp
        omega
      · have := chunks_count k (b.drop 16) (by rw [List.length_drop]; omega)
        rw [List.length_drop] at this
        omega

/-- Looking for the entry point takes one execution of the loop body for sixteen bytes. -/
theorem C90_search (b : Bytes) :
    (findSignatureLoopC (chunks 16 b) 0).1 = findSignature b ∧
      (findSignatureLoopC (chunks 16 b) 0).2 * 16 < b.length + 16 := by
  obtain ⟨h1, h2⟩ := findSignatureLoopC_fst (chunks 16 b) 0
  have := chunks_count _ b (Nat.le_refl _)
  exact ⟨h1, by omega⟩

/-! Concrete values: a structure without strings and one with two, then six bytes that end the table.
The loop body runs once for the first and five times for the second; the last structure is not terminated,
and its two bytes are looked at. -/

def costTable : Bytes :=
  [126, 4, 1, 0, 0, 0] ++ [126, 5, 2, 0, 9, 65, 66, 0, 67, 0, 0] ++ [126, 4, 3, 0, 65, 0]

def costStart : Structures := { smbios_version := ⟨2, 8⟩, smbios_len := 23, idx := 0, buffer := costTable }

example : Counted true costStart
    [.ok (.Other ⟨⟨2, 8⟩, .Oem 126, 4, 1, [], [0, 0]⟩),
     .ok (.Other ⟨⟨2, 8⟩, .Oem 126, 5, 2, [9], [65, 66, 0, 67, 0, 0]⟩),
     .error (.UnterminatedStrings 17)] (1 + (5 + (2 + 0))) :=
  .step (s' := { costStart with idx := 6 }) rfl
    (.step (s' := { costStart with idx := 17 }) rfl
      (.step (s' := { costStart with idx := 17, smbios_len := 17 }) rfl
        (.done (s' := { costStart with idx := 17, smbios_len := 17 }) rfl)))

example : (RawStructure.find_stringC ⟨⟨2, 8⟩, .OemStrings, 5, 2, [9], [65, 66, 0, 67, 0, 0]⟩ 2) =
    (.ok [67], 8) := by decide +kernel
/-- Asking for a string that is not there goes through all of them. -/
example : (RawStructure.find_stringC ⟨⟨2, 8⟩, .OemStrings, 5, 2, [9], [65, 66, 0, 67, 0, 0]⟩ 255) =
    (.err (.InvalidStringIndex .OemStrings 2 255), 9) := by decide +kernel

end Dmi.Props
