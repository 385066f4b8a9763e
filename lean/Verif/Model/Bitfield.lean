import Verif.Model.Lib
/-!
# Model of `src/bitfield.rs`
-/
namespace Dmi.bitfield

/-- `FlagType`, `src/bitfield.rs` 21-26. -/
inductive FlagType where
  | Unknown
  | Significant (meaning description : String)
  | Reserved (note : String)
deriving DecidableEq, Repr

/-- `Flag`, `src/bitfield.rs` 13-17; `position` is the `usize` in `Position`,
to which a `Position` dereferences (196-201). -/
structure Flag where
  position : Nat
  is_set : Bool
  type_ : FlagType
deriving DecidableEq, Repr

/-- `Layout`, `src/bitfield.rs` 29. -/
abbrev Layout := List FlagType

/-- One item of the `layout!` macro, `src/bitfield.rs` 110-138. -/
inductive LayoutItem where
  /-- `"Text": count,` (110-122) -/
  | res (desc : String) (count : Nat)
  /-- `"short" "long",` (123-130) and `"short",` (131-138, where `long = short`) -/
  | sig (short long : String)

/-- The array entries written for one item. -/
def LayoutItem.expand : LayoutItem → Layout
  | res desc count => List.replicate count (.Reserved desc)
  | sig short long => [.Significant short long]

/-- `layout!(length = len; items)`, `src/bitfield.rs` 103-139: an array of `Unknown` of the given
length, overwritten from index 0 by the items. (More items than `len` is a compile error in Rust.) -/
def layout (len : Nat) (items : List LayoutItem) : Layout :=
  let l := items.flatMap LayoutItem.expand
  l ++ List.replicate (len - l.length) .Unknown

/-- `Iter<T>`, `src/bitfield.rs` 33-37. `width` is `size_of::<T>() * 8`, `value` is `value.into()`
as `u128`. -/
structure Iter where
  value : Nat
  width : Nat
  index : Nat
  layout : Layout
deriving DecidableEq, Repr

/-- `BitField::iter` / `Iter::new`, `src/bitfield.rs` 69-71, 170-176. -/
def Iter.new (width value : Nat) (layout : Layout) : Iter := { value, width, index := 0, layout }

/-- `1 << n` on an unsigned type of `width` bits: an overflowing shift panics under overflow checks,
otherwise the shift amount is masked. -/
def shlOne (oc : Bool) (width n : Nat) : Fault Nat :=
  if n < width then .ok (2 ^ n) else if oc then .panic else .ok (2 ^ (n % width))

/-- `Iter::next`, `src/bitfield.rs` 180-194. -/
def Iter.next [Usize] (oc : Bool) (it : Iter) : Fault (Option Flag × Iter) :=
  if it.index = it.width then pure (none, it)
  else do
    let m ← shlOne oc 128 it.index
    let is_set := (it.value &&& m) != 0
    let p := it.index
    let index' ← addUsize oc it.index 1
    match it.layout[p]? with
    | none => .panic
    | some type_ => pure (some { position := p, is_set, type_ }, { it with index := index' })

/-- `FromIterator<Position>` for the unsigned types, `src/bitfield.rs` 203-262 (all twelve
implementations have the same body). `width` is the number of bits of the type. -/
def fromPositions (oc : Bool) (width : Nat) : List Nat → Fault Nat :=
  fun ps => ps.foldlM (fun acc p => do
    let m ← shlOne oc width p
    pure (acc ||| m)) 0

/-- `FlagType::Reserved(_)` test used by `Significants`. -/
def FlagType.isReserved : FlagType → Bool
  | .Reserved _ => true
  | _ => false

/-- The loop of `Significants::next`, `src/bitfield.rs` 272-278, with at most `fuel` rounds. -/
def significantsLoop [Usize] (oc : Bool) : Nat → Iter → Fault (Option Flag × Iter)
  | 0, _ => .panic
  | fuel + 1, it => do
    let (o, it') ← it.next oc
    match o with
    | none => pure (none, it')
    | some f =>
      if f.type_.isReserved || !f.is_set then significantsLoop oc fuel it'
      else pure (some f, it')

/-- `Significants::next`, `src/bitfield.rs` 271-279. A `Significants` is a newtype around `Iter` (`new`, 263-267).
Its iterator starts at index 0 and every round advances the index, so `width - index + 1` rounds
always suffice (proved in `Proofs/Bitfield.lean`: the fuel never runs out). -/
def Significants.next [Usize] (oc : Bool) (it : Iter) : Fault (Option Flag × Iter) :=
  significantsLoop oc (it.width - it.index + 1) it

/-- `ReservedRange`, `src/bitfield.rs` 59-62; `range` is `start..=stop`. -/
structure ReservedRange where
  description : String
  start : Nat
  stop : Nat
deriving DecidableEq, Repr

/-- `Reserved`, `src/bitfield.rs` 51-55. -/
structure Reserved where
  iter : Iter
  desc : Option String
  start : Nat
deriving DecidableEq, Repr

/-- `Reserved::new`, `src/bitfield.rs` 283-289. -/
def Reserved.new (iter : Iter) : Reserved := { iter, desc := none, start := 0 }

/-- The loop of `Reserved::next`, `src/bitfield.rs` 294-333; `stop` is the local `end`. -/
def reservedLoop [Usize] (oc : Bool) : Nat → Reserved → Nat → Fault (Option ReservedRange × Reserved)
  | 0, _, _ => .panic
  | fuel + 1, r, stop => do
    let (o, iter') ← r.iter.next oc
    let r := { r with iter := iter' }
    match o with
    | none =>
      match r.desc with
      | some description =>
          pure (some { description, start := r.start, stop }, { r with desc := none })
      | none => pure (none, r)
    | some f =>
      match f.type_, r.desc with
      | .Reserved s, some desc =>
        if s ≠ desc then
          pure (some { description := desc, start := r.start, stop },
                { r with desc := some s, start := f.position })
        else reservedLoop oc fuel { r with desc := some s } f.position
      | .Reserved s, none =>
        reservedLoop oc fuel { r with desc := some s, start := f.position } f.position
      | _, some desc =>
        pure (some { description := desc, start := r.start, stop }, { r with desc := none })
      | _, none => reservedLoop oc fuel { r with desc := none } f.position

/-- `Reserved::next`, `src/bitfield.rs` 293-334. -/
def Reserved.next [Usize] (oc : Bool) (r : Reserved) : Fault (Option ReservedRange × Reserved) :=
  reservedLoop oc (r.iter.width - r.iter.index + 1) r 0

end Dmi.bitfield
