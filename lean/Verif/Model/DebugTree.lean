import Verif.Model.Fmt
import Verif.Model.Lib
/-!
# Derived `Debug`: what the standard library makes of it

A derived `Debug` tells the formatter the name of the type or variant and, in order, the names and values of
the fields. `Dbg` is what it tells; `plain` is the text of `{:?}` and `pretty` that of `{:#?}`, following
`core::fmt::builders`. `Model/Debug.lean` has what each type of the crate tells.
-/
namespace Dmi

mutual
/-- What a derived `Debug` tells the formatter. -/
inductive Dbg where
  /-- Words separated by bars: one word is a number, a `bool`, an identifier (a variant without fields) or
  a UUID; several are the flags of a `bitflags!` type. -/
  | words (first : Text) (more : List Text)
  /-- `()`. -/
  | unit
  /-- A `&str`. -/
  | str (s : Str)
  /-- A tuple struct or variant. -/
  | tuple (name : Text) (args : DbgArgs)
  /-- A struct or variant with named fields. -/
  | struct (name : Text) (args : DbgArgs)
  /-- A slice or an array. -/
  | list (items : DbgArgs)
/-- Fields with their names; the name is empty for those of tuples and lists. -/
inductive DbgArgs where
  | nil
  | cons (label : Text) (value : Dbg) (rest : DbgArgs)
end

/-- Whether the second byte of a character of three bytes is admissible, as in `utf8Valid`. -/
def second3 (b0 b1 : UInt8) : Bool :=
  if b0 = 0xE0 then inRange 0xA0 0xBF b1 else if b0 = 0xED then inRange 0x80 0x9F b1 else isCont b1

/-- Whether the second byte of a character of four bytes is admissible, as in `utf8Valid`. -/
def second4 (b0 b1 : UInt8) : Bool :=
  if b0 = 0xF0 then inRange 0x90 0xBF b1 else if b0 = 0xF4 then inRange 0x80 0x8F b1 else isCont b1

/-- The code point at the beginning of the bytes, and the length of its encoding; `none` if there is none,
which does not happen in a `&str`. The branches are those of `utf8Valid`. -/
def charAt : Bytes → Option (Nat × Nat)
  | [] => none
  | b0 :: r =>
    if b0 < 0x80 then some (b0.toNat, 1)
    else if inRange 0xC2 0xDF b0 then
      match r with
      | b1 :: _ =>
        if isCont b1 then some ((b0.toNat - 0xC0) * 64 + (b1.toNat - 0x80), 2) else none
      | _ => none
    else if inRange 0xE0 0xEF b0 then
      match r with
      | b1 :: b2 :: _ =>
        if second3 b0 b1 && isCont b2 then
          some ((b0.toNat - 0xE0) * 4096 + (b1.toNat - 0x80) * 64 + (b2.toNat - 0x80), 3)
        else none
      | _ => none
    else if inRange 0xF0 0xF4 b0 then
      match r with
      | b1 :: b2 :: b3 :: _ =>
        if second4 b0 b1 && isCont b2 && isCont b3 then
          some ((b0.toNat - 0xF0) * 262144 + (b1.toNat - 0x80) * 4096 + (b2.toNat - 0x80) * 64 +
            (b3.toNat - 0x80), 4)
        else none
      | _ => none
    else none

/-- `char::escape_debug_ext` (core) as `str` uses it, for a code point with the given encoding. Which code
points are shown by number is a table of the standard library (those that are not printable or extend the
character before them); it is left open. -/
def escapeChar (byNumber : Nat → Bool) (c : Nat) (encoded : Bytes) : Text :=
  if c = 0 then [92, 48]
  else if c = 9 then [92, 116]
  else if c = 13 then [92, 114]
  else if c = 10 then [92, 110]
  else if c = 92 then [92, 92]
  else if c = 34 then [92, 34]
  else if byNumber c then txt! "\\u{" ++ (Fmt.hexLower c ++ [125])
  else Fmt.str encoded

/-- The characters of a `&str` in `Debug` form. At most `fuel` characters. A byte that begins no
character, which a `&str` has not, is shown behind `\x`. -/
def escapeFuel (byNumber : Nat → Bool) : Nat → Bytes → Text
  | 0, _ => []
  | _, [] => []
  | fuel + 1, b :: r =>
    match charAt (b :: r) with
    | some (c, n) => escapeChar byNumber c ((b :: r).take n) ++ escapeFuel byNumber fuel ((b :: r).drop n)
    | none => [92, 120, b.toNat] ++ escapeFuel byNumber fuel r

/-- `impl Debug for str` (core). -/
def escape (byNumber : Nat → Bool) (s : Str) : Text := 34 :: (escapeFuel byNumber s.length s ++ [34])

/-- Words separated by bars. -/
def bars (first : Text) (more : List Text) : Text := first ++ more.flatMap fun t => txt! " | " ++ t

/-- The name of a field and the colon. -/
def labelText (l : Text) : Text := if l.isEmpty then [] else l ++ txt! ": "

mutual
/-- `{:?}`: `DebugStruct`, `DebugTuple` and `DebugList` of `core::fmt::builders`. -/
def Dbg.plain (byNumber : Nat → Bool) : Dbg → Text
  | .words t l => bars t l
  | .unit => txt! "()"
  | .str s => escape byNumber s
  | .tuple n a => n ++ (txt! "(" ++ (a.plain byNumber true ++ txt! ")"))
  | .struct n a => n ++ (txt! " { " ++ (a.plain byNumber true ++ txt! " }"))
  | .list a => txt! "[" ++ (a.plain byNumber true ++ txt! "]")
/-- The fields, separated by commas. -/
def DbgArgs.plain (byNumber : Nat → Bool) (first : Bool) : DbgArgs → Text
  | .nil => []
  | .cons l v r => (if first then [] else txt! ", ") ++ (labelText l ++ (v.plain byNumber ++
      r.plain byNumber false))
end

/-- `PadAdapter` (core): four spaces at the beginning of each line. -/
def pad (newline : Bool) : Text → Text
  | [] => []
  | c :: r => (if newline then txt! "    " else []) ++ c :: pad (c = 10) r

mutual
/-- `{:#?}`: the same in the alternate form. -/
def Dbg.pretty (byNumber : Nat → Bool) : Dbg → Text
  | .words t l => bars t l
  | .unit => txt! "()"
  | .str s => escape byNumber s
  | .tuple n a => n ++ (txt! "(\n" ++ (a.pretty byNumber ++ txt! ")"))
  | .struct n a => n ++ (txt! " {\n" ++ (a.pretty byNumber ++ txt! "}"))
  | .list .nil => txt! "[]"
  | .list a => txt! "[\n" ++ (a.pretty byNumber ++ txt! "]")
/-- The fields, each on lines of its own behind four spaces. -/
def DbgArgs.pretty (byNumber : Nat → Bool) : DbgArgs → Text
  | .nil => []
  | .cons l v r => pad true (labelText l ++ (v.pretty byNumber ++ txt! ",\n")) ++ r.pretty byNumber
end

end Dmi
