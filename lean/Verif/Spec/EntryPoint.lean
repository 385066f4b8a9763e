import Verif.Spec.Bytes
import Verif.Model.Lib
/-!
# Specification of entry points

From the SMBIOS reference specification (DSP0134), clause 5.2: an entry point begins on a 16-byte
boundary with an anchor string; the tables below give the offsets of its fields.
-/
namespace Dmi.Spec

/-- Offsets (and widths) of the fields of an entry point. -/
structure EpFormat where
  anchor : Bytes
  minLen : Nat
  lenOff : Nat
  majorOff : Nat
  minorOff : Nat
  revisionOff : Nat
  tableLenOff : Nat
  tableLenWidth : Nat
  addrOff : Nat
  addrWidth : Nat

/-- DSP0134 table 1: 32-bit entry point. -/
def fmtV2 : EpFormat where
  anchor := ascii "_SM_"
  minLen := 0x1F
  lenOff := 0x05
  majorOff := 0x06
  minorOff := 0x07
  revisionOff := 0x0A
  tableLenOff := 0x16
  tableLenWidth := 2
  addrOff := 0x18
  addrWidth := 4

/-- DSP0134 table 2: 64-bit entry point. -/
def fmtV3 : EpFormat where
  anchor := ascii "_SM3_"
  minLen := 0x18
  lenOff := 0x06
  majorOff := 0x07
  minorOff := 0x08
  revisionOff := 0x0A
  tableLenOff := 0x0C
  tableLenWidth := 4
  addrOff := 0x10
  addrWidth := 8

/-- `F` is one of the two formats. -/
def IsFormat (F : EpFormat) : Prop := F = fmtV2 ∨ F = fmtV3

/-- The anchor of `F` starts at the 16-byte aligned offset `o`. -/
def AnchorAt (b : Bytes) (o : Nat) (F : EpFormat) : Prop := o % 16 = 0 ∧ OccursAt b o F.anchor

/-- `o` is the first aligned offset carrying an anchor, namely that of `F`. -/
structure FirstAnchor (b : Bytes) (o : Nat) (F : EpFormat) : Prop where
  format : IsFormat F
  anchor : AnchorAt b o F
  first : ∀ o' < o, ∀ F', IsFormat F' → ¬ AnchorAt b o' F'

/-- Sum of all bytes modulo 256. -/
def byteSum (l : Bytes) : Nat := (l.map UInt8.toNat).sum % 256

/-- The declared length of the entry point at `o`. -/
def epLen (F : EpFormat) (b : Bytes) (o : Nat) : Nat := leAt b (o + F.lenOff) 1

/-- The major version of the entry point at `o`. -/
def epMajor (F : EpFormat) (b : Bytes) (o : Nat) : Nat := leAt b (o + F.majorOff) 1

/-- Everything the public accessors return is what is stored at `o` in format `F`. -/
structure Shows (F : EpFormat) (b : Bytes) (o : Nat) (e : EntryPoint) : Prop where
  isV2 : (∃ p, e = .V2 p) ↔ F = fmtV2
  isV3 : (∃ p, e = .V3 p) ↔ F = fmtV3
  major : e.major.toNat = epMajor F b o
  minor : e.minor.toNat = leAt b (o + F.minorOff) 1
  revision : e.revision.toNat = leAt b (o + F.revisionOff) 1
  smbios_len : e.smbios_len.toNat = leAt b (o + F.tableLenOff) F.tableLenWidth
  smbios_address : e.smbios_address.toNat = leAt b (o + F.addrOff) F.addrWidth
  version : e.to_version.major.toNat = epMajor F b o ∧
    e.to_version.minor.toNat = leAt b (o + F.minorOff) 1

/-- A well-formed entry point at `o`: lengths in range, supported version, zero checksum. -/
structure WellFormed (F : EpFormat) (b : Bytes) (o : Nat) : Prop where
  size : F.minLen ≤ b.length - o
  minLen : F.minLen ≤ epLen F b o
  fits : o + epLen F b o ≤ b.length
  version : 2 ≤ epMajor F b o
  checksum : byteSum (bytesAt b o (epLen F b o)) = 0

end Dmi.Spec
