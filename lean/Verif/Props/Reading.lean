import Verif.Props.Crash
import Verif.Props.Verdict
/-!
# C109: exactly what iterating over a table gives, whatever its bytes
-/
namespace Dmi.Props
open Spec

/-- How an iteration ends. -/
inductive Finish where
  | ended
  | panicked
  | overread
deriving DecidableEq, Repr

/-- Two adjacent zero bytes follow at offset `o` or later. -/
def Terminated (b : Bytes) (o : Nat) : Prop := ∃ x y, b.drop o = x ++ [0, 0] ++ y

/-- The item a structure gives: what is decoded, or the error. -/
def Gives (oc : Bool) (s : RawStructure) : Except MalformedStructureError Structure → Prop
  | .ok v => decodeStructure oc s = .ok v
  | .error e => decodeStructure oc s = .err e

/-- How the bytes `b` are read as a table of version `v` and declared length `n` from offset `o` on: the items,
and how it ends. -/
inductive Reading (oc : Bool) (v : SmbiosVersion) (n : Nat) (b : Bytes) :
    Nat → List (Except MalformedStructureError Structure) → Finish → Prop
  /-- Less than a header is left of the declared length. -/
  | done {o} (h : n < o + 4) : Reading oc v n b o [] .ended
  /-- Less than a header is left of the buffer only. -/
  | header {o} (h : o + 4 ≤ n) (hb : b.length < o + 4) : Reading oc v n b o [] .overread
  /-- The length does not end before the declared length. -/
  | size {o l} (hb : o + 4 ≤ b.length) (hl : l = byteAt b (o + 1)) (h : o + 4 ≤ n) (hn : n ≤ o + l.toNat) :
      Reading oc v n b o [.error (.BadSize (.ofNat o) l)] .ended
  /-- The length ends behind the buffer. -/
  | beyond {o l} (hb : o + 4 ≤ b.length) (hl : l = byteAt b (o + 1)) (h : o + 4 ≤ n) (hn : o + l.toNat < n)
      (hx : b.length < o + l.toNat) : Reading oc v n b o [] .panicked
  /-- No two zero bytes follow. -/
  | strings {o l} (hb : o + 4 ≤ b.length) (hl : l = byteAt b (o + 1)) (h : o + 4 ≤ n) (hn : o + l.toNat < n)
      (hx : o + l.toNat ≤ b.length) (ht : ¬ Terminated b (o + l.toNat)) :
      Reading oc v n b o [.error (.UnterminatedStrings (.ofNat o))] .ended
  /-- The length is less than that of a header. -/
  | small {o l} (hb : o + 4 ≤ b.length) (hl : l = byteAt b (o + 1)) (h : o + 4 ≤ n) (h4 : l.toNat < 4)
      (hn : o + l.toNat < n) (ht : Terminated b (o + l.toNat)) : Reading oc v n b o [] .panicked
  /-- A structure the decoder panics at. -/
  | panics {o p} (hp : PieceAt b o p) (hn : o + p.len < n) (hc : Panics oc (p.raw v)) :
      Reading oc v n b o [] .panicked
  /-- A structure the decoder reads beyond. -/
  | reads {o p} (hp : PieceAt b o p) (hn : o + p.len < n) (hc : ReadsOut (p.raw v)) :
      Reading oc v n b o [] .overread
  /-- The end-of-table structure, from version 3 on. -/
  | last {o p} (hp : PieceAt b o p) (hn : o + p.len < n) (hv : 3 ≤ v.major.toNat) (hk : p.kind = 127) :
      Reading oc v n b o [.ok (.Other (p.raw v))] .ended
  /-- Any other structure. -/
  | item {o p i items stop} (hp : PieceAt b o p) (hn : o + p.len < n) (hk : v.major.toNat < 3 ∨ p.kind ≠ 127)
      (hi : Gives oc (p.raw v) i) (ht : Reading oc v n b (o + p.bytes.length) items stop) :
      Reading oc v n b o (i :: items) stop

/-! ### The same of the iterator -/

/-- Calling `next` until it does not return an item. -/
inductive Goes (oc : Bool) : Structures → List (Except MalformedStructureError Structure) → Finish → Prop
  | ended {s s'} (h : s.next oc = .ok (none, s')) : Goes oc s [] .ended
  | panicked {s} (h : s.next oc = .panic) : Goes oc s [] .panicked
  | overread {s} (h : s.next oc = .ub) : Goes oc s [] .overread
  | step {s s' i items stop} (h : s.next oc = .ok (some i, s')) (t : Goes oc s' items stop) :
      Goes oc s (i :: items) stop

theorem Goes.unique {oc s i i' z z'} (h : Goes oc s i z) (h' : Goes oc s i' z') : i = i' ∧ z = z' := by
  induction h generalizing i' z' with
  | ended h => cases h' <;> simp_all
  | panicked h => cases h' <;> simp_all
  | overread h => cases h' <;> simp_all
  | step h t ih =>
    cases h' with
    | step h' t' =>
      rw [h] at h'
      simp only [Res.ok.injEq, Prod.mk.injEq, Option.some.injEq] at h'
      obtain ⟨rfl, rfl⟩ := h'
      obtain ⟨rfl, rfl⟩ := ih t'
      exact ⟨rfl, rfl⟩
    | _ h' => rw [h] at h'; cases h'

theorem goes_ended {oc s i} : Goes oc s i .ended ↔ CollectsR (Structures.next oc) s i := by
  constructor
  · intro h
    generalize hz : Finish.ended = z at h
    induction h with
    | ended h => exact .done h
    | step h _ ih => exact .step h (ih hz)
    | _ => cases hz
  · intro h
    induction h with
    | done h => exact .ended h
    | step h _ ih => exact .step h ih

theorem goes_panicked {oc s i} : Goes oc s i .panicked ↔ ∃ s', Runs oc s i s' ∧ s'.next oc = .panic := by
  constructor
  · intro h
    generalize hz : Finish.panicked = z at h
    induction h with
    | panicked h => exact ⟨_, .nil _, h⟩
    | step h _ ih => obtain ⟨s', hr, hn⟩ := ih hz; exact ⟨s', .cons h hr, hn⟩
    | _ => cases hz
  · rintro ⟨s', hr, hn⟩
    induction hr with
    | nil => exact .panicked hn
    | cons h _ ih => exact .step h (ih hn)

theorem goes_overread {oc s i} : Goes oc s i .overread ↔ ∃ s', Runs oc s i s' ∧ s'.next oc = .ub := by
  constructor
  · intro h
    generalize hz : Finish.overread = z at h
    induction h with
    | overread h => exact ⟨_, .nil _, h⟩
    | step h _ ih => obtain ⟨s', hr, hn⟩ := ih hz; exact ⟨s', .cons h hr, hn⟩
    | _ => cases hz
  · rintro ⟨s', hr, hn⟩
    induction hr with
    | nil => exact .overread hn
    | cons h _ ih => exact .step h (ih hn)

/-! ### One call -/

theorem terminated_iff (b : Bytes) (o : Nat) : Terminated b o ↔ ∃ t, findNulNul (b.drop o) = some t := by
  constructor
  · rintro ⟨x, y, h⟩
    cases hf : findNulNul (b.drop o) with
    | none => exact absurd h (findNulNul_none hf x y)
    | some t => exact ⟨t, rfl⟩
  · rintro ⟨t, h⟩
    obtain ⟨⟨⟨x, hx⟩, -⟩, -, -⟩ := findNulNul_some h
    exact ⟨x, (b.drop o).drop (t + 1), by rw [← hx, List.take_append_drop]⟩

theorem not_terminated {b : Bytes} {o : Nat} (h : ¬ Terminated b o) : findNulNul (b.drop o) = none := by
  cases hf : findNulNul (b.drop o) with
  | none => rfl
  | some t => exact absurd ((terminated_iff b o).2 ⟨t, hf⟩) h

theorem next_finished (oc : Bool) (v : SmbiosVersion) (b : Bytes) (o : UInt32) (h : o.toNat + 4 < 2 ^ 32)
    (n : UInt32) (hn : n.toNat < o.toNat + 4) : (⟨v, n, o, b⟩ : Structures).next oc = .ok (none, ⟨v, n, o, b⟩) := by
  have e4 : (4 : UInt32).toNat = 4 := rfl
  unfold Structures.next Structures.next_raw
  simp only [Bind.bind, Res.bind, addU32_ok oc o 4 (by rw [e4]; exact h), Pure.pure]
  rw [if_pos (by rw [gt_iff_lt, UInt32.lt_iff_toNat_lt, u32_add_toNat _ _ (by rw [e4]; exact h), e4]; exact hn)]

theorem goes_of_reading {oc v b o items stop} (n : UInt32) (hb : b.length + 256 ≤ 2 ^ 32) (ho : o ≤ b.length)
    (h : Reading oc v n.toNat b o items stop) : Goes oc ⟨v, n, .ofNat o, b⟩ items stop := by
  have key : ∀ o, o ≤ b.length → (UInt32.ofNat o).toNat = o := by
    intro o ho; rw [UInt32.toNat_ofNat']; omega
  have ev : ∀ o, o ≤ b.length → _ := fun o ho => next_raw_eval oc ⟨v, n, .ofNat o, b⟩ (by simp only; omega)
    (by simp only [key o ho]; omega)
    (by
      have := (byteAt b (o + 1)).toNat_lt
      simp only [key o ho]; omega)
  induction h with
  | @done o h =>
    exact .ended (next_finished oc v b _ (by rw [key o ho]; omega) n (by rw [key o ho]; omega))
  | @header o h hl =>
    have e := ev o ho
    simp only [key o ho] at e
    rw [if_neg (by omega), if_neg (by omega), if_pos hl] at e
    exact .overread (by unfold Structures.next; rw [e]; rfl)
  | @size o l hbl hl h hn =>
    have e := ev o ho
    simp only [key o ho, ← hl] at e
    rw [if_neg (by omega), if_neg (by omega), if_neg (by omega), if_pos hn] at e
    refine .step (s' := ⟨v, .ofNat o, .ofNat o, b⟩) (by unfold Structures.next; rw [e]; rfl) (.ended
      (next_finished oc v b _ (by rw [key o ho]; omega) _ (by omega)))
  | @beyond o l hbl hl h hn hx =>
    have e := ev o ho
    simp only [key o ho, ← hl] at e
    rw [if_neg (by omega), if_neg (by omega), if_neg (by omega), if_neg (by omega), if_pos hx] at e
    exact .panicked (by unfold Structures.next; rw [e]; rfl)
  | @strings o l hbl hl h hn hx ht =>
    have e := ev o ho
    simp only [key o ho, ← hl] at e
    rw [if_neg (by omega), if_neg (by omega), if_neg (by omega), if_neg (by omega), if_neg (by omega),
      not_terminated ht] at e
    refine .step (s' := ⟨v, .ofNat o, .ofNat o, b⟩) (by unfold Structures.next; rw [e]; rfl) (.ended
      (next_finished oc v b _ (by rw [key o ho]; omega) _ (by omega)))
  | @small o l hbl hl h h4 hn ht =>
    have e := ev o ho
    obtain ⟨t, ht⟩ := (terminated_iff _ _).1 ht
    simp only [key o ho, ← hl] at e
    rw [if_neg (by omega), if_neg (by omega), if_neg (by omega), if_neg (by omega), if_neg (by omega), ht] at e
    simp only at e
    rw [if_pos h4] at e
    exact .panicked (by unfold Structures.next; rw [e]; rfl)
  | @panics o p hp hn hc =>
    have e := next_piece oc ⟨v, n, .ofNat o, b⟩ p (by simp only; omega) (by simp only [key o ho]; exact hp)
      (by simp only [key o ho]; exact hn)
    rw [(C69_panics oc _ (piece_coherent p v hp.1)).2 hc] at e
    exact .panicked e
  | @reads o p hp hn hc =>
    have e := next_piece oc ⟨v, n, .ofNat o, b⟩ p (by simp only; omega) (by simp only [key o ho]; exact hp)
      (by simp only [key o ho]; exact hn)
    rw [(C69_reads_out oc _).2 hc] at e
    exact .overread e
  | @last o p hp hn hv hk =>
    have e := next_piece oc ⟨v, n, .ofNat o, b⟩ p (by simp only; omega) (by simp only [key o ho]; exact hp)
      (by simp only [key o ho]; exact hn)
    have hd : decodeStructure oc (p.raw v) = .ok (.Other (p.raw v)) := by
      have : (p.raw v).info = .End := (ofU8_eq_end _).2 hk
      unfold decodeStructure
      rw [this]
    rw [hd] at e
    have hfit := (PieceAt.parts hp).1
    refine .step e (.ended (s' := (⟨v, n, .ofNat o, b⟩ : Structures).after p) ?_)
    unfold Structures.after
    simp only [key o ho]
    rw [if_pos ⟨UInt8.le_iff_toNat_le.2 hv, hk⟩]
    exact next_finished oc v b _ (by rw [key _ hfit]; omega) _ (by omega)
  | @item o p i items stop hp hn hk hi ht ih =>
    have e := next_piece oc ⟨v, n, .ofNat o, b⟩ p (by simp only; omega) (by simp only [key o ho]; exact hp)
      (by simp only [key o ho]; exact hn)
    have hfit := (PieceAt.parts hp).1
    have ha : (⟨v, n, .ofNat o, b⟩ : Structures).after p = ⟨v, n, .ofNat (o + p.bytes.length), b⟩ := by
      unfold Structures.after
      simp only [key o ho]
      rw [if_neg]
      rintro ⟨h1, h2⟩
      rcases hk with hk | hk
      · have := UInt8.le_iff_toNat_le.1 h1
        have : (3 : UInt8).toNat = 3 := rfl
        omega
      · exact hk h2
    rw [ha] at e
    refine .step ?_ (ih hfit)
    rw [e]
    cases i with
    | ok x => rw [show decodeStructure oc (p.raw v) = .ok x from hi]; rfl
    | error x => rw [show decodeStructure oc (p.raw v) = .err x from hi]; rfl

/-! ### Every table has a reading -/

theorem reading_exists (oc : Bool) (v : SmbiosVersion) (n : UInt32) (b : Bytes) (hb : b.length + 256 ≤ 2 ^ 32) :
    ∀ (k o : Nat), o + k = b.length → ∃ items stop, Reading oc v n.toNat b o items stop := by
  intro k
  induction k using Nat.strongRecOn with
  | _ k ih =>
  intro o ho
  have key : (UInt32.ofNat o).toNat = o := by rw [UInt32.toNat_ofNat']; omega
  by_cases c1 : n.toNat < o + 4
  · exact ⟨_, _, .done c1⟩
  by_cases c2 : b.length < o + 4
  · exact ⟨_, _, .header (by omega) c2⟩
  by_cases c3 : n.toNat ≤ o + (byteAt b (o + 1)).toNat
  · exact ⟨_, _, .size (by omega) rfl (by omega) c3⟩
  by_cases c4 : b.length < o + (byteAt b (o + 1)).toNat
  · exact ⟨_, _, .beyond (by omega) rfl (by omega) (by omega) c4⟩
  by_cases c5 : ¬ Terminated b (o + (byteAt b (o + 1)).toNat)
  · exact ⟨_, _, .strings (by omega) rfl (by omega) (by omega) (by omega) c5⟩
  by_cases c6 : (byteAt b (o + 1)).toNat < 4
  · exact ⟨_, _, .small (by omega) rfl (by omega) c6 (by omega) (Classical.not_not.1 c5)⟩
  obtain ⟨p, hp, hn⟩ : ∃ p, PieceAt b o p ∧ o + p.len < n.toNat := by
    have hlt := (byteAt b (o + 1)).toNat_lt
    have ev := next_raw_eval oc ⟨v, n, .ofNat o, b⟩ (by simp only; omega) (by simp only [key]; omega)
      (by simp only [key]; omega)
    obtain ⟨t, ht⟩ := (terminated_iff _ _).1 (Classical.not_not.1 c5)
    simp only [key] at ev
    rw [if_neg c1, if_neg (by omega), if_neg c2, if_neg c3, if_neg c4, ht] at ev
    simp only at ev
    rw [if_neg c6] at ev
    rcases next_raw_cases oc ⟨v, n, .ofNat o, b⟩ (by simp only; omega) with (h | h) | h | ⟨-, e, h⟩ | ⟨p, hp, hn, -⟩
    · rw [h] at ev; cases ev
    · rw [h] at ev; cases ev
    · rw [h] at ev; simp at ev
    · rw [h] at ev; simp at ev
    · simp only [key] at hp hn
      exact ⟨p, hp, hn⟩
  by_cases c7 : 3 ≤ v.major.toNat ∧ p.kind = 127
  · exact ⟨_, _, .last hp hn c7.1 c7.2⟩
  have hk : v.major.toNat < 3 ∨ p.kind ≠ 127 := by
    rcases Nat.lt_or_ge v.major.toNat 3 with h | h
    · exact .inl h
    · exact .inr fun h' => c7 ⟨h, h'⟩
  have hfit := (PieceAt.parts hp).1
  have hpos : 4 ≤ p.bytes.length := by
    have := Piece.bytes_length p
    unfold Piece.len at this
    omega
  obtain ⟨items, stop, ht⟩ := ih (b.length - (o + p.bytes.length)) (by omega) (o + p.bytes.length) (by omega)
  cases hd : decodeStructure oc (p.raw v) with
  | ok x => exact ⟨_, _, .item (i := .ok x) hp hn hk hd ht⟩
  | err x => exact ⟨_, _, .item (i := .error x) hp hn hk hd ht⟩
  | panic => exact ⟨_, _, .panics hp hn ((C69_panics oc _ (piece_coherent p v hp.1)).1 hd)⟩
  | ub => exact ⟨_, _, .reads hp hn ((C69_reads_out oc _).1 hd)⟩

/-! ### The theorems -/

theorem reading_iff (oc : Bool) (v : SmbiosVersion) (n : UInt32) (b : Bytes) (hb : b.length + 256 ≤ 2 ^ 32)
    (items stop) : Reading oc v n.toNat b 0 items stop ↔ Goes oc ⟨v, n, 0, b⟩ items stop := by
  refine ⟨fun h => goes_of_reading n hb (Nat.zero_le _) h, fun h => ?_⟩
  obtain ⟨i, z, hr⟩ := reading_exists oc v n b hb b.length 0 (by omega)
  obtain ⟨rfl, rfl⟩ := Goes.unique h (goes_of_reading n hb (Nat.zero_le _) hr)
  exact hr

/-- C109: any bytes have exactly one reading as a table. -/
theorem C109_one_reading (oc : Bool) (v : SmbiosVersion) (n : UInt32) (b : Bytes) (hb : b.length + 256 ≤ 2 ^ 32) :
    ∃ items stop, Reading oc v n.toNat b 0 items stop ∧
      ∀ items' stop', Reading oc v n.toNat b 0 items' stop' → items' = items ∧ stop' = stop := by
  obtain ⟨i, z, hr⟩ := reading_exists oc v n b hb b.length 0 (by omega)
  exact ⟨i, z, hr, fun i' z' h => Goes.unique ((reading_iff oc v n b hb _ _).1 h) ((reading_iff oc v n b hb _ _).1 hr)⟩

/-- C109: iterating gives the items and then `None` exactly if that is the reading. -/
theorem C109_ended (oc : Bool) (v : SmbiosVersion) (n : UInt32) (b : Bytes) (hb : b.length + 256 ≤ 2 ^ 32) (items) :
    CollectsR (Structures.next oc) ⟨v, n, 0, b⟩ items ↔ Reading oc v n.toNat b 0 items .ended := by
  rw [reading_iff oc v n b hb, goes_ended]

/-- C109: iterating gives the items and then panics exactly if that is the reading. -/
theorem C109_panicked (oc : Bool) (v : SmbiosVersion) (n : UInt32) (b : Bytes) (hb : b.length + 256 ≤ 2 ^ 32)
    (items) : (∃ s', Runs oc ⟨v, n, 0, b⟩ items s' ∧ s'.next oc = .panic) ↔
      Reading oc v n.toNat b 0 items .panicked := by
  rw [reading_iff oc v n b hb, goes_panicked]

/-- C109: iterating gives the items and then reads out of bounds exactly if that is the reading. -/
theorem C109_overread (oc : Bool) (v : SmbiosVersion) (n : UInt32) (b : Bytes) (hb : b.length + 256 ≤ 2 ^ 32)
    (items) : (∃ s', Runs oc ⟨v, n, 0, b⟩ items s' ∧ s'.next oc = .ub) ↔
      Reading oc v n.toNat b 0 items .overread := by
  rw [reading_iff oc v n b hb, goes_overread]

/-! ### Examples -/

/-- An end-of-table structure. -/
def endAlone : Piece := ⟨127, 1, [], [0, 0]⟩

/-- In version 3 the reading ends at the end-of-table structure, whatever follows. -/
example : Reading true ⟨3, 0⟩ 100 (endAlone.bytes ++ [1, 2, 3]) 0 [.ok (.Other (endAlone.raw ⟨3, 0⟩))] .ended :=
  .last (p := endAlone) ⟨⟨by decide, endsAtFirst_nil⟩, [], [1, 2, 3], rfl, rfl⟩ (by decide) (by decide) rfl
/-- In version 2 it goes on; three bytes are no header. -/
example : Reading true ⟨2, 8⟩ 100 (endAlone.bytes ++ [1, 2, 3]) 0 [.ok (.Other (endAlone.raw ⟨2, 8⟩))] .overread :=
  .item (p := endAlone) ⟨⟨by decide, endsAtFirst_nil⟩, [], [1, 2, 3], rfl, rfl⟩ (by decide) (.inl (by decide)) rfl
    (.header (by decide) (by decide))
/-- A length of 3. -/
example : Reading true ⟨2, 8⟩ 6 [0, 3, 0, 0, 0, 0] 0 [] .panicked :=
  .small (l := 3) (by decide) rfl (by decide) (by decide) (by decide) ⟨[], [0], rfl⟩

end Dmi.Props
