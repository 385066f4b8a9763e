/-!
# Basic vocabulary of the model

Outcomes of Rust functions, byte slices, little-endian reads and machine arithmetic.
None of this is specific to the crate; it models the Rust language and `core` operations
that the crate uses.
-/

namespace Dmi

/-- A `&[u8]`. -/
abbrev Bytes := List UInt8

/-- A `&str`, represented by its UTF-8 bytes. -/
abbrev Str := List UInt8

/-- Outcome of running a Rust function returning `Result<α, ε>`:
`ok`/`err` are the two `Result` values, `panic` is a Rust panic, `ub` is undefined behaviour,
here always a raw read past the end of the slice a pointer was derived from. -/
inductive Res (ε α : Type) where
  | ok (a : α)
  | err (e : ε)
  | panic
  | ub
deriving DecidableEq, Repr

namespace Res
variable {ε α β : Type}

/-- Sequencing; `?` on `err`, faults propagate. -/
@[inline] def bind (x : Res ε α) (f : α → Res ε β) : Res ε β :=
  match x with
  | ok a => f a
  | err e => err e
  | panic => panic
  | ub => ub

instance : Monad (Res ε) where
  pure := ok
  bind := bind

/-- `Result::ok()`: turn an error value into `None`. Faults propagate. -/
def toOption (x : Res ε α) : Res ε (Option α) :=
  match x with
  | ok a => ok (some a)
  | err _ => ok none
  | panic => panic
  | ub => ub

/-- `Option::ok_or`. -/
def ofOption (e : ε) : Option α → Res ε α
  | some a => ok a
  | none => err e

/-- `Result::map_err` to another error type. -/
def mapErr {ε' : Type} (f : ε → ε') : Res ε α → Res ε' α
  | ok a => ok a
  | err e => err (f e)
  | panic => panic
  | ub => ub

/-- The function neither panics nor has undefined behaviour. -/
def NoFault (x : Res ε α) : Prop := x ≠ panic ∧ x ≠ ub

end Res

/-! ## Slices -/

/-- `slice.get(i..j)`. -/
def getRange (b : Bytes) (i j : Nat) : Option Bytes :=
  if i ≤ j ∧ j ≤ b.length then some ((b.drop i).take (j - i)) else none

/-- `slice.get(i..)`. -/
def getFrom (b : Bytes) (i : Nat) : Option Bytes :=
  if i ≤ b.length then some (b.drop i) else none

/-- `&slice[i..j]`; panics when out of range. -/
def indexRange {ε : Type} (b : Bytes) (i j : Nat) : Res ε Bytes :=
  match getRange b i j with
  | some r => .ok r
  | none => .panic

/-- `&slice[i..]`; panics when out of range. -/
def indexFrom {ε : Type} (b : Bytes) (i : Nat) : Res ε Bytes :=
  match getFrom b i with
  | some r => .ok r
  | none => .panic

/-- `slice[i]`; panics when out of range. -/
def indexAt {ε : Type} (b : Bytes) (i : Nat) : Res ε UInt8 :=
  match b[i]? with
  | some r => .ok r
  | none => .panic

/-- `slice.chunks(n)` collected, for `n > 0` (`chunks(0)` panics, modelled at the call sites). -/
def chunks (n : Nat) (b : List α) : List (List α) :=
  if _h : b = [] ∨ n = 0 then [] else b.take n :: chunks n (b.drop n)
termination_by b.length
decreasing_by
  have : b ≠ [] := fun e => _h (Or.inl e)
  have := List.length_pos_iff.mpr this
  have : n ≠ 0 := fun e => _h (Or.inr e)
  simp only [List.length_drop]; omega

/-- The first piece of `slice.split(|b| *b == 0)`: everything before the first zero byte. -/
def beforeNul (b : Bytes) : Bytes := b.takeWhile (· ≠ 0)

/-! ## Little-endian reads -/

/-- Value of a little-endian byte sequence. -/
def leNat : Bytes → Nat
  | [] => 0
  | b :: bs => b.toNat + 256 * leNat bs

/-- `u16::from_le_bytes` on a two byte slice. -/
def le16 (b : Bytes) : UInt16 := UInt16.ofNat (leNat b)
/-- `u32::from_le_bytes` on a four byte slice. -/
def le32 (b : Bytes) : UInt32 := UInt32.ofNat (leNat b)
/-- `u64::from_le_bytes` on an eight byte slice. -/
def le64 (b : Bytes) : UInt64 := UInt64.ofNat (leNat b)

/-! ## Reading `#[repr(C, packed)]` structs

A packed struct is read field by field from the front of the slice. `none` means that the read
would pass the end of the slice. -/

/-- Reader of a packed struct: consumes bytes from the front, fails when they run out. -/
def Packed (α : Type) : Type := Bytes → Option (α × Bytes)

namespace Packed
variable {α β : Type}

def pure (a : α) : Packed α := fun b => some (a, b)

def bind (p : Packed α) (f : α → Packed β) : Packed β := fun b =>
  match p b with
  | some (a, r) => f a r
  | none => none

instance : Monad Packed where
  pure := pure
  bind := bind

/-- A `[u8; n]` field. -/
def array (n : Nat) : Packed Bytes := fun b =>
  if n ≤ b.length then some (b.take n, b.drop n) else none

/-- A `u8` field. -/
def u8 : Packed UInt8 := fun b =>
  match b with
  | x :: r => some (x, r)
  | [] => none

/-- A `u16` field (little-endian host). -/
def u16 : Packed UInt16 := fun b =>
  match b with
  | x0 :: x1 :: r => some (le16 [x0, x1], r)
  | _ => none

/-- A `u32` field (little-endian host). -/
def u32 : Packed UInt32 := fun b =>
  match b with
  | x0 :: x1 :: x2 :: x3 :: r => some (le32 [x0, x1, x2, x3], r)
  | _ => none

/-- A `u64` field (little-endian host). -/
def u64 : Packed UInt64 := fun b =>
  match b with
  | x0 :: x1 :: x2 :: x3 :: x4 :: x5 :: x6 :: x7 :: r =>
      some (le64 [x0, x1, x2, x3, x4, x5, x6, x7], r)
  | _ => none

end Packed

/-- `let_as_struct!($name, $ty, $data)` (`src/lib.rs` 69-76): an unchecked `ptr::read` of the whole
struct from the start of the slice. Undefined behaviour when the slice is shorter than the struct. -/
def letAsStruct {ε α : Type} (p : Packed α) (data : Bytes) : Res ε α :=
  match p data with
  | some (a, _) => .ok a
  | none => .ub

/-! ## Machine arithmetic under an overflow-check profile

`oc = true`: overflow checks on (debug profile), overflow panics.
`oc = false`: overflow wraps. -/

/-- `a + b` on `u8`. -/
def addU8 {ε : Type} (oc : Bool) (a b : UInt8) : Res ε UInt8 :=
  if a.toNat + b.toNat < 2 ^ 8 then .ok (a + b) else if oc then .panic else .ok (a + b)

/-- `a * b` on `u8`. -/
def mulU8 {ε : Type} (oc : Bool) (a b : UInt8) : Res ε UInt8 :=
  if a.toNat * b.toNat < 2 ^ 8 then .ok (a * b) else if oc then .panic else .ok (a * b)

/-- `a * b` on `u16`. -/
def mulU16 {ε : Type} (oc : Bool) (a b : UInt16) : Res ε UInt16 :=
  if a.toNat * b.toNat < 2 ^ 16 then .ok (a * b) else if oc then .panic else .ok (a * b)

/-- `a + b` on `u32`. -/
def addU32 {ε : Type} (oc : Bool) (a b : UInt32) : Res ε UInt32 :=
  if a.toNat + b.toNat < 2 ^ 32 then .ok (a + b) else if oc then .panic else .ok (a + b)

/-- The width of `usize`, which depends on the host. Every function that computes with `usize` so that
it can overflow takes this argument. -/
class Usize where
  bits : Nat

/-- `a + b` on `usize`. -/
def addUsize {ε : Type} [u : Usize] (oc : Bool) (a b : Nat) : Res ε Nat :=
  if a + b < 2 ^ u.bits then .ok (a + b) else if oc then .panic else .ok ((a + b) % 2 ^ u.bits)

/-- `a - b` on `usize`. -/
def subUsize {ε : Type} [u : Usize] (oc : Bool) (a b : Nat) : Res ε Nat :=
  if b ≤ a then .ok (a - b) else if oc then .panic else .ok ((2 ^ u.bits + a - b) % 2 ^ u.bits)

/-! ## Iterators

An iterator is a state with a `next` function. `Collects next s l` says that calling `next`
repeatedly from `s` yields the items `l` and then `None`. -/

/-- `iter.collect()` for a `next` that cannot fault. -/
inductive Collects {σ α : Type} (next : σ → Option α × σ) : σ → List α → Prop
  | done {s s'} (h : next s = (none, s')) : Collects next s []
  | step {s s' a l} (h : next s = (some a, s')) (t : Collects next s' l) : Collects next s (a :: l)

/-- `iter.collect()` for a `next` that may fault; holds only for fault-free runs. -/
inductive CollectsR {ε σ α : Type} (next : σ → Res ε (Option α × σ)) : σ → List α → Prop
  | done {s s'} (h : next s = .ok (none, s')) : CollectsR next s []
  | step {s s' a l} (h : next s = .ok (some a, s')) (t : CollectsR next s' l) :
      CollectsR next s (a :: l)

end Dmi
