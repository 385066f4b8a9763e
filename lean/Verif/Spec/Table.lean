import Verif.Spec.Bytes
import Verif.Model.Dispatch
import Verif.Host
/-!
# Specification of structure tables

DSP0134 clause 6.1.2: a structure is a four byte header (type, length of header and formatted area,
handle), the formatted area and the string area, which ends with two zero bytes.
-/
namespace Dmi.Spec

/-- The area ends with two zero bytes and contains no earlier pair of adjacent zero bytes. -/
def EndsAtFirstNulNul (a : Bytes) : Prop :=
  (∃ x, a = x ++ [0, 0]) ∧ ∀ x y, a = x ++ [0, 0] ++ y → y = []

/-- The contents of one structure. -/
structure Piece where
  kind : UInt8
  handle : UInt16
  data : Bytes
  strings : Bytes

/-- The length field counts the header and the formatted area. -/
def Piece.len (p : Piece) : Nat := p.data.length + 4

/-- The bytes of the structure. -/
def Piece.bytes (p : Piece) : Bytes :=
  [p.kind, UInt8.ofNat p.len] ++ enc16 p.handle ++ p.data ++ p.strings

/-- The length fits its field and the string area is properly terminated. -/
def Piece.WF (p : Piece) : Prop := p.len < 256 ∧ EndsAtFirstNulNul p.strings

/-- The raw structure that shows exactly this piece. -/
def Piece.raw (p : Piece) (v : SmbiosVersion) : RawStructure :=
  { version := v, info := InfoType.ofU8 p.kind, length := UInt8.ofNat p.len, handle := p.handle,
    data := p.data, strings := p.strings }

/-- The bytes of `p` are in the buffer at offset `i`. -/
def PieceAt (b : Bytes) (i : Nat) (p : Piece) : Prop := p.WF ∧ OccursAt b i p.bytes

/-- A sequence of calls of `next` that all return an item. -/
inductive Runs (oc : Bool) : Structures → List (Except MalformedStructureError Structure) →
    Structures → Prop
  | nil (s) : Runs oc s [] s
  | cons {s s' s'' item items} (h : s.next oc = .ok (some item, s')) (t : Runs oc s' items s'') :
      Runs oc s (item :: items) s''

/-- DSP0134 table 3: the structure type of each variant; `none` for `Other`. -/
def typeNumber : Structure → Option Nat
  | .Bios _ => some 0
  | .System _ => some 1
  | .BaseBoard _ => some 2
  | .Enclosure _ => some 3
  | .Processor _ => some 4
  | .Cache _ => some 7
  | .PortConnector _ => some 8
  | .SystemSlots _ => some 9
  | .OemStrings _ => some 11
  | .SystemConfigurationOptions _ => some 12
  | .BiosLanguage _ => some 13
  | .GroupAssociations _ => some 14
  | .SystemEventLog _ => some 15
  | .PhysicalMemoryArray _ => some 16
  | .MemoryDevice _ => some 17
  | .MemoryError32 _ => some 18
  | .MemoryArrayMappedAddress _ => some 19
  | .MemoryDeviceMappedAddress _ => some 20
  | .BuiltInPointingDevice _ => some 21
  | .PortableBattery _ => some 22
  | .Other _ => none

/-- The structure types the crate decodes. -/
def supportedTypes : List Nat :=
  [0, 1, 2, 3, 4, 7, 8, 9, 11, 12, 13, 14, 15, 16, 17, 18, 19, 20, 21, 22]

end Dmi.Spec
