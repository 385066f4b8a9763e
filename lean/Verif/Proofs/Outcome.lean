import Verif.Proofs.Decode
import Verif.Model.Dispatch
import Verif.Host
/-!
# Predicates on outcomes that decompose along `do` blocks
-/
namespace Dmi
open Spec

/-- The value, if there is one, satisfies `Q`. -/
def Post {ε α : Type} (Q : α → Prop) (x : Res ε α) : Prop := ∀ v, x = .ok v → Q v

theorem Post.bind {ε α β : Type} {Q : β → Prop} {x : Res ε α} {f : α → Res ε β}
    (h : ∀ a, x = .ok a → Post Q (f a)) : Post Q (x >>= f) := by
  intro v hv
  rw [bind_ok_iff] at hv
  obtain ⟨a, ha, hv⟩ := hv
  exact h a ha v hv

theorem Post.ok {ε α : Type} {Q : α → Prop} {a : α} (h : Q a) : Post Q (.ok a : Res ε α) := by
  intro v hv; cases hv; exact h
theorem Post.pure {ε α : Type} {Q : α → Prop} {a : α} (h : Q a) : Post Q (Pure.pure a : Res ε α) :=
  .ok h
theorem Post.err {ε α : Type} {Q : α → Prop} {e : ε} : Post Q (.err e : Res ε α) := nofun
theorem Post.panic {ε α : Type} {Q : α → Prop} : Post Q (.panic : Res ε α) := nofun
theorem Post.ite {ε α : Type} {Q : α → Prop} {c : Prop} [Decidable c] {x y : Res ε α}
    (hx : c → Post Q x) (hy : ¬ c → Post Q y) : Post Q (if c then x else y) := by
  split
  · exact hx ‹_›
  · exact hy ‹_›
theorem Post.map {ε α β : Type} {Q : β → Prop} {f : α → β} {x : Res ε α}
    (h : Post (fun a => Q (f a)) x) : Post Q (x.map f) := by
  intro v hv
  cases x with
  | ok a => cases hv; exact h a rfl
  | _ => cases hv

/-- The error, if there is one, satisfies `P`; faults are allowed. -/
def Errs {ε α : Type} (P : ε → Prop) (x : Res ε α) : Prop := ∀ e, x = .err e → P e

theorem Errs.bind {ε α β : Type} {P : ε → Prop} {x : Res ε α} {f : α → Res ε β} (hx : Errs P x)
    (h : ∀ a, x = .ok a → Errs P (f a)) : Errs P (x >>= f) := by
  intro e he
  cases x with
  | ok a => exact h a rfl e he
  | err e' => cases he; exact hx e rfl
  | _ => cases he
theorem Errs.ok {ε α : Type} {P : ε → Prop} {a : α} : Errs P (.ok a : Res ε α) := nofun
theorem Errs.panic {ε α : Type} {P : ε → Prop} : Errs P (.panic : Res ε α) := nofun
theorem Errs.ub {ε α : Type} {P : ε → Prop} : Errs P (.ub : Res ε α) := nofun
theorem Errs.pure {ε α : Type} {P : ε → Prop} {a : α} : Errs P (Pure.pure a : Res ε α) := nofun
theorem Errs.err {ε α : Type} {P : ε → Prop} {e : ε} (h : P e) : Errs P (.err e : Res ε α) := by
  intro e he; cases he; exact h
theorem Errs.ite {ε α : Type} {P : ε → Prop} {c : Prop} [Decidable c] {x y : Res ε α}
    (hx : c → Errs P x) (hy : ¬ c → Errs P y) : Errs P (if c then x else y) := by
  split
  · exact hx ‹_›
  · exact hy ‹_›
theorem Errs.map {ε α β : Type} {P : ε → Prop} {f : α → β} {x : Res ε α} (h : Errs P x) :
    Errs P (x.map f) := by
  intro e he
  cases x with
  | err e' => cases he; exact h e rfl
  | _ => cases he

/-- No undefined behaviour. -/
def NoUb {ε α : Type} (x : Res ε α) : Prop := x ≠ .ub

theorem NoUb.bind {ε α β : Type} {x : Res ε α} {f : α → Res ε β} (hx : NoUb x)
    (h : ∀ a, x = .ok a → NoUb (f a)) : NoUb (x >>= f) := by
  cases x with
  | ok a => exact h a rfl
  | ub => exact absurd rfl hx
  | _ => nofun
theorem NoUb.ok {ε α : Type} {a : α} : NoUb (.ok a : Res ε α) := nofun
theorem NoUb.panic {ε α : Type} : NoUb (.panic : Res ε α) := nofun
theorem NoUb.pure {ε α : Type} {a : α} : NoUb (Pure.pure a : Res ε α) := nofun
theorem NoUb.err {ε α : Type} {e : ε} : NoUb (.err e : Res ε α) := nofun
theorem NoUb.ite {ε α : Type} {c : Prop} [Decidable c] {x y : Res ε α}
    (hx : c → NoUb x) (hy : ¬ c → NoUb y) : NoUb (if c then x else y) := by
  split
  · exact hx ‹_›
  · exact hy ‹_›
theorem NoUb.map {ε α β : Type} {f : α → β} {x : Res ε α} (h : NoUb x) : NoUb (x.map f) := by
  cases x with
  | ub => exact absurd rfl h
  | _ => nofun

/-! ### Leaves -/

theorem indexRange_noUb {ε : Type} (b : Bytes) (i j : Nat) : NoUb (indexRange b i j : Res ε _) := by
  unfold indexRange; split <;> nofun
theorem indexFrom_noUb {ε : Type} (b : Bytes) (i : Nat) : NoUb (indexFrom b i : Res ε _) := by
  unfold indexFrom; split <;> nofun
theorem indexAt_noUb {ε : Type} (b : Bytes) (i : Nat) : NoUb (indexAt b i : Res ε _) := by
  unfold indexAt; split <;> nofun
theorem subUsize_noUb {ε : Type} (oc : Bool) (i j : Nat) : NoUb (subUsize oc i j : Res ε _) := by
  unfold subUsize; split <;> (try split) <;> nofun
theorem addUsize_noUb {ε : Type} (oc : Bool) (i j : Nat) : NoUb (addUsize oc i j : Res ε _) := by
  unfold addUsize; split <;> (try split) <;> nofun
theorem mulU8_noUb {ε : Type} (oc : Bool) (i j : UInt8) : NoUb (mulU8 oc i j : Res ε _) := by
  unfold mulU8; split <;> (try split) <;> nofun
theorem find_string_noUb (s : RawStructure) (i : UInt8) : NoUb (s.find_string i) := by
  rcases find_string_cases s i with ⟨_, h⟩ | ⟨_, h⟩ <;> rw [h] <;> nofun

theorem getBytes_noUb (oc : Bool) (s : RawStructure) (n o : Nat) : NoUb (s.getBytes oc n o) :=
  .bind (subUsize_noUb _ _ _) fun _ _ => .bind (addUsize_noUb _ _ _) fun _ _ => .ite (fun _ => .ok) fun _ => .err
theorem get8_noUb (oc : Bool) (s : RawStructure) (o : Nat) : NoUb (s.get8 oc o) :=
  .bind (getBytes_noUb _ _ _ _) fun _ _ => .pure
theorem get16_noUb (oc : Bool) (s : RawStructure) (o : Nat) : NoUb (s.get16 oc o) :=
  .bind (getBytes_noUb _ _ _ _) fun _ _ => .pure
theorem get32_noUb (oc : Bool) (s : RawStructure) (o : Nat) : NoUb (s.get32 oc o) :=
  .bind (getBytes_noUb _ _ _ _) fun _ _ => .pure
theorem get64_noUb (oc : Bool) (s : RawStructure) (o : Nat) : NoUb (s.get64 oc o) :=
  .bind (getBytes_noUb _ _ _ _) fun _ _ => .pure
theorem get_string_noUb (oc : Bool) (s : RawStructure) (o : Nat) : NoUb (s.get_string oc o) :=
  .bind (get8_noUb _ _ _) fun _ _ => find_string_noUb _ _
theorem get_slice_noUb (oc : Bool) (s : RawStructure) (o n : Nat) : NoUb (s.get_slice oc o n) :=
  .bind (subUsize_noUb _ _ _) fun _ _ => .bind (subUsize_noUb _ _ _) fun _ _ =>
    .bind (addUsize_noUb _ _ _) fun _ _ => .pure
theorem toOption_noUb {ε α : Type} {x : Res ε α} (h : NoUb x) : NoUb x.toOption := by
  cases x with
  | ub => exact absurd rfl h
  | _ => nofun
theorem ofOption_noUb {ε α : Type} (e : ε) (o : Option α) : NoUb (Res.ofOption e o) := by
  cases o <;> nofun

/-- Decomposes a `NoUb` goal about a `do` block of checked accesses. -/
macro "no_ub" : tactic =>
  `(tactic| (
      repeat' first
        | with_reducible exact NoUb.pure
        | with_reducible exact NoUb.ok
        | with_reducible exact NoUb.err
        | with_reducible exact NoUb.panic
        | with_reducible exact get8_noUb _ _ _
        | with_reducible exact get16_noUb _ _ _
        | with_reducible exact get32_noUb _ _ _
        | with_reducible exact get64_noUb _ _ _
        | with_reducible exact get_string_noUb _ _ _
        | with_reducible exact get_slice_noUb _ _ _ _
        | with_reducible exact find_string_noUb _ _
        | with_reducible exact indexAt_noUb _ _
        | with_reducible exact indexFrom_noUb _ _
        | with_reducible exact indexRange_noUb _ _ _
        | with_reducible exact mulU8_noUb _ _ _
        | with_reducible exact subUsize_noUb _ _ _
        | with_reducible exact ofOption_noUb _ _
        | with_reducible apply toOption_noUb
        | (with_reducible refine NoUb.bind ?_ (fun _ _ => ?_))
        | (with_reducible refine NoUb.ite (fun _ => ?_) (fun _ => ?_))
        | split))

/-! ### No fault at all -/

theorem NF.bind {ε α β : Type} {x : Res ε α} {f : α → Res ε β} (hx : x.NoFault)
    (h : ∀ a, x = .ok a → (f a).NoFault) : (x >>= f).NoFault := by
  cases x with
  | ok a => exact h a rfl
  | err e => exact ⟨nofun, nofun⟩
  | panic => exact absurd rfl hx.1
  | ub => exact absurd rfl hx.2
theorem NF.ok {ε α : Type} {a : α} : (.ok a : Res ε α).NoFault := ⟨nofun, nofun⟩
theorem NF.err {ε α : Type} {e : ε} : (.err e : Res ε α).NoFault := ⟨nofun, nofun⟩
theorem NF.pure {ε α : Type} {a : α} : (Pure.pure a : Res ε α).NoFault := NF.ok
theorem NF.ite {ε α : Type} {c : Prop} [Decidable c] {x y : Res ε α}
    (hx : c → x.NoFault) (hy : ¬ c → y.NoFault) : (if c then x else y).NoFault := by
  split
  · exact hx ‹_›
  · exact hy ‹_›
theorem NF.map {ε α β : Type} {f : α → β} {x : Res ε α} (h : x.NoFault) : (x.map f).NoFault := by
  cases x with
  | ok a => exact NF.ok
  | err e => exact NF.err
  | panic => exact absurd rfl h.1
  | ub => exact absurd rfl h.2
theorem find_string_nf (s : RawStructure) (i : UInt8) : (s.find_string i).NoFault := by
  rcases find_string_cases s i with ⟨_, h⟩ | ⟨_, h⟩ <;> rw [h]
  · exact NF.ok
  · exact NF.err
theorem getBytes_nf (oc : Bool) (s : RawStructure) {n o : Nat} (h4 : 4 ≤ o) (hs : 0 < n)
    (hm : o - 4 + n < 2 ^ 64) : (s.getBytes oc n o).NoFault := by
  rw [getBytes_ge oc s n o h4 hm hs]; exact NF.ite (fun _ => NF.ok) fun _ => NF.err
theorem get8_nf (oc : Bool) (s : RawStructure) {o : Nat} (h : 4 ≤ o ∧ o < 2 ^ 63) :
    (s.get8 oc o).NoFault :=
  NF.bind (getBytes_nf oc s h.1 (by decide) (by omega)) fun _ _ => NF.pure
theorem get16_nf (oc : Bool) (s : RawStructure) {o : Nat} (h : 4 ≤ o ∧ o < 2 ^ 63) :
    (s.get16 oc o).NoFault :=
  NF.bind (getBytes_nf oc s h.1 (by decide) (by omega)) fun _ _ => NF.pure
theorem get32_nf (oc : Bool) (s : RawStructure) {o : Nat} (h : 4 ≤ o ∧ o < 2 ^ 63) :
    (s.get32 oc o).NoFault :=
  NF.bind (getBytes_nf oc s h.1 (by decide) (by omega)) fun _ _ => NF.pure
theorem get64_nf (oc : Bool) (s : RawStructure) {o : Nat} (h : 4 ≤ o ∧ o < 2 ^ 63) :
    (s.get64 oc o).NoFault :=
  NF.bind (getBytes_nf oc s h.1 (by decide) (by omega)) fun _ _ => NF.pure
theorem get_string_nf (oc : Bool) (s : RawStructure) {o : Nat} (h : 4 ≤ o ∧ o < 2 ^ 63) :
    (s.get_string oc o).NoFault :=
  NF.bind (get8_nf oc s h) fun _ _ => find_string_nf _ _
theorem get_slice_nf (oc : Bool) (s : RawStructure) {o n : Nat} (h : 4 ≤ o ∧ o + n < 2 ^ 63) :
    (s.get_slice oc o n).NoFault := by
  rw [get_slice_ge oc s o n h.1 (by omega)]; exact NF.ok
theorem toOption_nf {ε α : Type} {x : Res ε α} (h : x.NoFault) : x.toOption.NoFault := by
  cases x with
  | ok a => exact NF.ok
  | err e => exact NF.ok
  | panic => exact absurd rfl h.1
  | ub => exact absurd rfl h.2
theorem ofOption_nf {ε α : Type} (e : ε) (o : Option α) : (Res.ofOption e o).NoFault := by
  cases o
  · exact NF.err
  · exact NF.ok
theorem letAsStruct_nf {ε α : Type} {p : Packed α} {n : Nat} (h : p.Consumes n) {b : Bytes}
    (hb : n ≤ b.length) : (letAsStruct p b : Res ε α).NoFault := by
  refine ⟨?_, ?_⟩
  · unfold letAsStruct; split <;> nofun
  · rw [Ne, letAsStruct_ub_iff h]; omega

/-- Decomposes a `NoFault` goal about a `do` block of checked accesses. -/
macro "no_fault" : tactic =>
  `(tactic| (
      repeat' first
        | with_reducible exact NF.pure
        | with_reducible exact NF.ok
        | with_reducible exact NF.err
        | with_reducible refine get8_nf _ _ ?_
        | with_reducible refine get16_nf _ _ ?_
        | with_reducible refine get32_nf _ _ ?_
        | with_reducible refine get64_nf _ _ ?_
        | with_reducible refine get_string_nf _ _ ?_
        | with_reducible refine get_slice_nf _ _ ?_
        | with_reducible exact find_string_nf _ _
        | with_reducible exact ofOption_nf _ _
        | with_reducible apply toOption_nf
        | (with_reducible refine NF.bind ?_ (fun _ _ => ?_))
        | (with_reducible refine NF.ite (fun _ => ?_) (fun _ => ?_))
        | decide
        | split))

/-! ### Errors of the decoders -/

/-- Not one of the two errors about the table as a whole. -/
def NotStructural : MalformedStructureError → Prop
  | .BadSize _ _ => False
  | .UnterminatedStrings _ => False
  | _ => True

abbrev NS {α : Type} (x : R α) : Prop := Errs NotStructural x

theorem getBytes_ns (oc : Bool) (s : RawStructure) (n o : Nat) : NS (s.getBytes oc n o) := by
  refine .bind ?_ fun _ _ => .bind ?_ fun _ _ => .ite (fun _ => .ok) fun _ => .err trivial
  · unfold subUsize; split <;> (try split) <;> nofun
  · unfold addUsize; split <;> (try split) <;> nofun
theorem find_string_ns (s : RawStructure) (i : UInt8) : NS (s.find_string i) := by
  rcases find_string_cases s i with ⟨_, h⟩ | ⟨_, h⟩ <;> rw [h]
  · exact .ok
  · exact .err trivial
theorem get8_ns (oc : Bool) (s : RawStructure) (o : Nat) : NS (s.get8 oc o) :=
  .bind (getBytes_ns _ _ _ _) fun _ _ => .pure
theorem get16_ns (oc : Bool) (s : RawStructure) (o : Nat) : NS (s.get16 oc o) :=
  .bind (getBytes_ns _ _ _ _) fun _ _ => .pure
theorem get32_ns (oc : Bool) (s : RawStructure) (o : Nat) : NS (s.get32 oc o) :=
  .bind (getBytes_ns _ _ _ _) fun _ _ => .pure
theorem get64_ns (oc : Bool) (s : RawStructure) (o : Nat) : NS (s.get64 oc o) :=
  .bind (getBytes_ns _ _ _ _) fun _ _ => .pure
theorem get_string_ns (oc : Bool) (s : RawStructure) (o : Nat) : NS (s.get_string oc o) :=
  .bind (get8_ns _ _ _) fun _ _ => find_string_ns _ _
theorem get_slice_ns (oc : Bool) (s : RawStructure) (o n : Nat) : NS (s.get_slice oc o n) := by
  refine .bind ?_ fun _ _ => .bind ?_ fun _ _ => .bind ?_ fun _ _ => .pure
  · unfold subUsize; split <;> (try split) <;> nofun
  · unfold subUsize; split <;> (try split) <;> nofun
  · unfold addUsize; split <;> (try split) <;> nofun
theorem toOption_errs {ε α : Type} {P : ε → Prop} {x : Res ε α} : Errs P x.toOption := by
  cases x <;> nofun
theorem letAsStruct_errs {ε α : Type} {P : ε → Prop} (p : Packed α) (b : Bytes) :
    Errs P (letAsStruct p b) := by unfold letAsStruct; split <;> nofun
theorem indexAt_errs {ε : Type} {P : ε → Prop} (b : Bytes) (i : Nat) : Errs P (indexAt b i) := by
  unfold indexAt; split <;> nofun
theorem indexFrom_errs {ε : Type} {P : ε → Prop} (b : Bytes) (i : Nat) : Errs P (indexFrom b i) := by
  unfold indexFrom; split <;> nofun
theorem indexRange_errs {ε : Type} {P : ε → Prop} (b : Bytes) (i j : Nat) :
    Errs P (indexRange b i j) := by unfold indexRange; split <;> nofun
theorem mulU8_errs {ε : Type} {P : ε → Prop} (oc : Bool) (i j : UInt8) : Errs P (mulU8 oc i j) := by
  unfold mulU8; split <;> (try split) <;> nofun
theorem subUsize_errs {ε : Type} {P : ε → Prop} (oc : Bool) (i j : Nat) : Errs P (subUsize oc i j) := by
  unfold subUsize; split <;> (try split) <;> nofun
theorem ofOption_errs {ε α : Type} {P : ε → Prop} {e : ε} (h : P e) (o : Option α) :
    Errs P (Res.ofOption e o) := by
  cases o
  · exact .err h
  · exact .ok

/-- Decomposes an `NS` goal about a `do` block. -/
macro "ns" : tactic =>
  `(tactic| (
      repeat' first
        | with_reducible exact Errs.pure
        | with_reducible exact Errs.ok
        | with_reducible exact Errs.panic
        | with_reducible exact Errs.ub
        | (with_reducible refine Errs.err ?_); exact trivial
        | with_reducible exact get8_ns _ _ _
        | with_reducible exact get16_ns _ _ _
        | with_reducible exact get32_ns _ _ _
        | with_reducible exact get64_ns _ _ _
        | with_reducible exact get_string_ns _ _ _
        | with_reducible exact get_slice_ns _ _ _ _
        | with_reducible exact find_string_ns _ _
        | with_reducible exact letAsStruct_errs _ _
        | with_reducible exact indexAt_errs _ _
        | with_reducible exact indexFrom_errs _ _
        | with_reducible exact indexRange_errs _ _ _
        | with_reducible exact mulU8_errs _ _ _
        | with_reducible exact subUsize_errs _ _ _
        | with_reducible exact ofOption_errs trivial _
        | with_reducible exact toOption_errs
        | (with_reducible refine Errs.bind ?_ (fun _ _ => ?_))
        | (with_reducible refine Errs.ite (fun _ => ?_) (fun _ => ?_))
        | split))

/-- Decomposes a `Post` goal about a `do` block. -/
macro "post" : tactic =>
  `(tactic| (
      repeat' first
        | with_reducible exact Post.err
        | with_reducible exact Post.panic
        | with_reducible refine Post.pure ?_
        | with_reducible refine Post.ok ?_
        | (with_reducible refine Post.bind (fun _ _ => ?_))
        | (with_reducible refine Post.ite (fun _ => ?_) (fun _ => ?_))
        | split))

end Dmi
