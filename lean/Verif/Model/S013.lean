import Verif.Model.Lib
/-!
# Model of `src/structures/013_bios_language.rs` (BIOS Language Information, type 13)
-/
namespace Dmi.bios_language

/-- `InstallableLanguages`, `src/structures/013_bios_language.rs` 23-26. -/
structure InstallableLanguages where
  structure_ : RawStructure
  index : UInt8
deriving DecidableEq, Repr

/-- `LanguageFlags`, `src/structures/013_bios_language.rs` 30. -/
structure LanguageFlags where
  bits : UInt8
deriving DecidableEq, Repr

/-- `BiosLanguage`, `src/structures/013_bios_language.rs` 10-19. -/
structure BiosLanguage where
  handle : UInt16
  installable_languages : InstallableLanguages
  flags : Option LanguageFlags
  current_language : UInt8
deriving DecidableEq, Repr

/-- `BiosLanguagePacked2_1` (18 bytes), `src/structures/013_bios_language.rs` 34-41. -/
structure BiosLanguagePacked2_1 where
  installable_languages : UInt8
  flags : UInt8
  reserved : Bytes
  current_language : UInt8

/-- Memory layout of `BiosLanguagePacked2_1`. -/
def BiosLanguagePacked2_1.packed : Packed BiosLanguagePacked2_1 := do
  let installable_languages ← .u8
  let flags ← .u8
  let reserved ← .array 15
  let current_language ← .u8
  pure { installable_languages, flags, reserved, current_language }

/-- `BiosLanguagePacked2_0` (17 bytes), `src/structures/013_bios_language.rs` 43-49. -/
structure BiosLanguagePacked2_0 where
  installable_languages : UInt8
  reserved : Bytes
  current_language : UInt8

/-- Memory layout of `BiosLanguagePacked2_0`. -/
def BiosLanguagePacked2_0.packed : Packed BiosLanguagePacked2_0 := do
  let installable_languages ← .u8
  let reserved ← .array 15
  let current_language ← .u8
  pure { installable_languages, reserved, current_language }

/-- `InstallableLanguages::new`, `src/structures/013_bios_language.rs` 75-78. -/
def InstallableLanguages.new (s : RawStructure) : InstallableLanguages :=
  { structure_ := s, index := 1 }

/-- `BiosLanguage::try_from`, `src/structures/013_bios_language.rs` 33-71. -/
def BiosLanguage.try_from (s : RawStructure) : R BiosLanguage :=
  if s.version.ge (.ofPair 2 1) then do
    let packed ← letAsStruct BiosLanguagePacked2_1.packed s.data
    pure {
      handle := s.handle
      installable_languages := .new s
      flags := some ⟨packed.flags⟩
      current_language := packed.current_language }
  else do
    let packed ← letAsStruct BiosLanguagePacked2_0.packed s.data
    pure {
      handle := s.handle
      installable_languages := .new s
      flags := none
      current_language := packed.current_language }

/-- `InstallableLanguages::next`, `src/structures/013_bios_language.rs` 82-86. -/
def InstallableLanguages.next (oc : Bool) (i : InstallableLanguages) :
    Fault (Option Str × InstallableLanguages) := do
  let index' ← addU8 oc i.index 1
  match i.structure_.find_string i.index with
  | .ok s => pure (some s, { i with index := index' })
  | .err _ => pure (none, { i with index := index' })
  | .panic => .panic
  | .ub => .ub

end Dmi.bios_language
