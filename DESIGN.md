# Formal model of jcreekmore/dmidecode in Lean 4

## Layout of this directory

* `properties.jsonl` – the properties (C01 …), generated by `tools/props.py`.
* `lean/Verif/Basic.lean` – outcomes, slices, little-endian reads, machine arithmetic, packed structs.
* `lean/Verif/Host.lean` – the pointer width (64 bits) the theorems assume unless they say otherwise.
* `lean/Verif/Model/*` – the model; every definition cites file and lines.
* `lean/Verif/Spec/*` – small specifications written independently of the model (byte encoders, offset
  tables, declarative predicates, reference tables).
* `lean/Verif/Proofs/*` – helper lemmas.
* `lean/Verif/Props/*` – the property theorems `Cnn_…`, each with an `example` that meets its hypotheses.
* `lean/Verif/Tests/*` – the crate's own unit tests, transcribed and computed by the kernel (see below).
* `MANIFEST.json` – property → theorem names and status; written and checked by `tools/manifest.py`.
* `AXIOMS.txt` – the axioms of every property theorem; written by `tools/axioms.py`.
* `seeded/LOG.jsonl` – log of seeded-bug experiments.
* `tools/gen_*.py` – generators of the enumerations, labels and layouts from the Rust text. Their output is
  committed; the build does not run them.
* `tools/audit.py` – compares packed layouts, decoder offsets, version thresholds, flag values and cited line
  ranges of the model with the Rust text. A guard against slips, not a proof.

## Modelling decisions

* **Byte buffers** are `List UInt8`. Rust integers are Lean `UInt8/16/32/64`, `u128` is `BitVec 128` or a
  bounded `Nat`; `usize` is `Nat`, with the wrap-around at `2 ^ Usize.bits` modelled explicitly where a
  `usize` subtraction/addition can overflow. The width is a parameter (`class Usize`) of every model function that
  depends on it; `Verif/Host.lean` fixes it to 64 bits for all theorems that do not mention it. No file of the
  model imports `Host`.
* **Outcomes.** Every function that can fail returns `Res ε α`:
  `ok a`, `err e` (an `Err` value), `panic` (index out of range, overflow under checks, `unreachable!` …),
  `ub` (a raw pointer read past the end of the slice it was derived from, i.e. `let_as_struct!` on too short data).
* **Overflow profile.** `oc : Bool` says whether overflow checks are compiled in (debug) or not (release: wrap).
  All theorems hold for both unless they say otherwise.
* **Over-reads.** `ub` is what the language says. What compiled code does that just reads on in the table is a
  second model, `Model/Flat.lean`, related to the first one by C68: wherever the first model does not say `ub`
  the two agree.
* **Host.** Little-endian (the crate reads packed structs by `ptr::read`), 64-bit `usize`. Only
  `Model/BigEndian` (C78) is about big-endian hosts; it reverses the bytes of the integers that are copied
  without conversion. C79 relates hosts with another width of `usize`, from 16 bits on, to 64-bit hosts. The
  casts `u32 as usize` that truncate on a 16-bit host are in `Model/Narrow`.
* **`&mut self`** methods return the new state. Iterators are a state plus a `next` function; "collecting"
  is the inductive relation (`Collects`) of repeatedly calling `next` until `None`. Loops with fuel come with
  a proof that the fuel never runs out.
* **Strings.** `&str` is its UTF-8 byte list; `str::from_utf8` is modelled by a validator for the
  well-formed byte sequences of the Unicode standard (Table 3-7), which is what the Rust documentation
  promises; `Proofs/Utf8.lean` proves it accepts exactly the concatenations of encoded scalar values.
* `&'static str` message fragments are Lean `String`s. `TryFromSliceError` carries no data.
* **Formatting.** A formatter is modelled by the text it receives (`Model/Fmt.lean`), a list of UTF-8 bytes as
  numbers so that the kernel can compare texts. `f32` division by ten and its `{}` output (shortest decimal
  that reads back) are modelled on integers in `Model/Display.lean`.
* **Hashing.** A hasher is the byte stream written to it (`Model/Eq.lean`). A derived `Hash` hands over the
  discriminant of an enumeration as an `isize` and then the fields in the order of their declaration
  (`Model/Hash.lean`, generated from the Rust text by `tools/gen_hash.py`); `Fed.bytes` are the bytes the provided
  methods of `Hasher` write on a little-endian host. Whether the crate `uuid` writes a length before a UUID depends
  on its version and is a parameter.
* **bitflags.** A flags struct is its `bits`; `from_bits_truncate`, `contains` and the flag constants follow the
  documentation of `bitflags` 2.
* **Code tables.** The `match` of each `From<u8>` is a Lean `match` with the same arms (`Model/Enums.lean`,
  generated from the Rust text).
* **Own elaborators.** `txt! "…"`, `u8! "…"`, `hex! "…"` (literals as lists of numerals), `nullary! T`,
  `ctorNames! T` (list the constructors of an enumeration). They only build terms, which the kernel checks.

## What is modelled

| Rust | Lean | Not modelled |
|---|---|---|
| `lib.rs` entry points, `search`, versions | `Model/Lib` | – |
| `lib.rs` `Structures`, `RawStructure`, `StructureStrings`, `get*`, `find_string`, `find_nulnul` | `Model/Lib` | – |
| `lib.rs` dispatch (`Structures::next`), `InfoType` | `Model/Dispatch`, `Model/Enums` | – |
| the loops of `lib.rs` and the string lookups of the decoders with a count of their work | `Model/Cost`, `Model/CostDecode` (generated) | the standard library's own cost; `get` takes no loop |
| `lib.rs` error types and their `Display` | `Model/Lib`, `Model/Display` | – |
| `bitfield.rs`, every `layout!` | `Model/Bitfield`, `Model/Layouts`, `Model/BitFields` | – |
| `structures/000_bios.rs` … `022_portable_battery.rs` (all twenty decoders, their iterators, accessors and code tables) | `Model/S000` … `Model/S022` | derived `Clone` |
| all `impl Display` | `Model/DisplayCodes`, `Model/Display` | – (every implementation writes through `write!`, so width and precision given by the caller have no effect) |
| derived `Debug` of everything returned, `Debug` of `Flag` | `Model/DebugTree` (`core::fmt::builders`, strings), `Model/DebugParts` (other crates' types), `Model/Debug` (generated), `Model/DebugBits` | `Debug` of the adapters of other iterators; the table of characters the standard library shows by number is a parameter, and so is the form of integers (`{:?}`, `{:x?}`, `{:X?}`); width, sign and precision given by the caller are not modelled |
| `Default` of all types that have it | `Model/Default` | |
| hand-written `PartialEq`/`Hash`, derived ones of `Structure` | `Model/Eq`, `Model/Compare`, `Model/HashParts`, `Model/Hash`, `Model/HashBits` | derived `PartialEq` of types without such fields is structural equality of the Lean types |
| `bitflags!` declarations | in the module of their structure, tables in `Props/Flags` | operators generated by `bitflags!` that the crate does not use |
| `log_record_format.rs` | `Model/S015` | the types no function constructs (`LogRecordFormat`, `Datetime`) |
| unit tests | `Tests/*` | – |

Simplifications are said at the definition. Time, threads, I/O and allocation play no part in the crate.

## Trusted base

* The Lean 4 kernel. The only axioms used are `propext`, `Classical.choice`, `Quot.sound`; `AXIOMS.txt` lists
  them theorem by theorem. No `sorry`, no own axioms, no `native_decide`, no `bv_decide`.
* The reading of the Rust source as the Lean definitions in `Verif/Model` and of the standard library
  functions used (`slice::get`, `split`, `chunks`, `nth`, `from_utf8`, `ptr::read`, `bitflags::from_bits_truncate`,
  `uuid::Uuid::from_bytes(_le)`, `core::fmt`). The transcription is by hand (enumerations, labels, layouts: by script).
  Evidence that it is right: all unit tests of the crate are transcribed in `Verif/Tests` with the crate's own
  table dumps, and the kernel computes the results the Rust tests assert. (These are tests, not proofs, and are not
  listed in the manifest.) Two of the dumps make the crate read outside a slice: there the test computes in the
  flat model and the strict model says `ub`.
* **What "the specification" means here.** No copy of DSP0134 was available. Offsets, sentinel values and code
  tables called "specified" were written from the crate's documentation comments, its tests and the author's
  recollection of DSP0134 3.4.0, and have not been compared with the document.
  The code tables in `Verif/Spec/Codes.lean` in particular were generated from the crate's own `match` arms and
  then reviewed; they are therefore not independent evidence that the crate follows DSP0134. Three tables were
  changed, with different support:
  * slot type 1Fh/20h/24h/25h: supported by the crate itself (variants documented as U.2 that no code produces);
  * memory form factor 00h-08h: recollection, with a hint in the crate (codes 8 and 9 both give `Dimm`);
  * memory array location A0h-A4h: recollection only.

## Plan per property

| Property | Modelled | How proved |
|---|---|---|
| C01–C06 | `EntryPoint::search`, `find_signature`, packed entry points | refinement to a declarative "first aligned anchor" spec; checksum arithmetic mod 256 |
| C07 | `SmbiosVersion` order | order laws via `Nat` lexicographic key |
| C08–C11, C13–C17, C56 | `Structures::{next,next_raw}`, `find_nulnul`, header read | invariants on the cursor, induction over runs |
| C74 | all decoders | `Post` over every decoder: each text field is a result of `find_string` (C19, C20), with C11 for whole tables |
| C75 | everything with a profile parameter | relational: `Agrees` composes along `bind`; exactness from C69 |
| C76 | all decoders | per type from the exact description of its fields; injectivity of little-endian numbers, bit selections and code tables |
| C77 | all decoders | simulation along every decoder: the handle goes into the value and the errors only |
| C78 | `Model/BigEndian`: `search`, `next`, decoders, `Device` | bytes outside the reversed integers are the same, so decoding takes the same path; values by C76 |
| C79 | everything with the parameter `Usize`; `Model/Narrow` | a wrapped offset is behind the end of every slice, at any width; then congruence along the decoders; the cursor stays within the slice, so the casts are exact |
| C80 | all iterators and conversions of decoded values | termination of each iterator by its remaining length; the hazards by C30, C34, C43, C52 |
| C81 | all iterators of decoded values | an iterator whose state does not change at `None` is fused; strings by their segments, languages by the index |
| C82 | every decoder | forward from the decoding theorems; backward by writing a structure: texts one after the other (`textArea`), numbers in place, cut off at the wanted length; decoders reach all names of their code table |
| C83 | all decoders | relational: `Rel` along every decoder with the texts related by position |
| C84 | `Model/Compare` | sizes of the chunks from C82, comparison of chunks from C65; bytes by C76 |
| C85 | `next`, `next_raw`, `find_nulnul` | simulation between the iterator over the part and that over the whole |
| C86 | `Model/Default` | from the characterisations of C82; bit fields by C24, C25 |
| C88 | `EntryPoint::search` | congruence: first anchor and fixed part depend on the bytes up to their end only; acceptance by C03, C04 |
| C89 | `next`, `next_raw` | simulation: the iterator behind other bytes computes the image of the iterator at the beginning |
| C90 | `find_nulnul`, `next_raw`, `next`, `StructureStrings::next`, `nth`, `find_string`, `find_signature` | the functions with a count of loop bodies or bytes looked at; erasing it gives the functions; each step that goes on advances further than it counts; `Props/CostExact`: the counts themselves |
| C91 | `Model/Debug*` | what is told is a tree; texts of trees whose names are words are uniquely readable, escaped strings by their characters, `{:#?}` by its lines; trees determine values type by type (generated) |
| C92 | the same | induction over trees and strings |
| C93 | `Model/Hash*` | what is written determines the value type by type (generated); the lists of records by what follows them in the three structures that have one |
| C94 | the same | the same without an end; the counterexample is evaluated |
| C95 | `Model/Lib` | the packed reads evaluated at absolute offsets; equality of fields from and to equality of bytes |
| C96 | `Model/Lib` | the checked sum split in three; two buffers evaluated |
| C97 | `Model/CostDecode` | outcome and bound together along each decoder; string sets of a run do not overlap; `Props/CostExact`: the counts themselves along each decoder that succeeds |
| C98 | `InstallableLanguages::next` with a count | exact count for `n` strings of one letter by induction |
| C99 | all `Display` implementations | a checker for printable lines with a soundness proof, composed over literals and numbers |
| C100 | `next`, `next_raw` | what is before the structure by C11, what is behind it by C89; the byte by cases on its place |
| C101 | all decoders with optional fields | per-type theorems; for the exceptions, one structure per type at a symbolic version |
| C102, C103 | `search`, `EntryPoint::structures` | C01, C04, C05 and C12 |
| C104 | `Structures::next` | evaluation of one call at the cut, behind the run of C12 |
| C105 | `Debug` and `Hash` of `bitfield` | framework of C91 and C93 |
| C106 | `Structures::next` without a bound on the buffer | evaluation of `next_raw` modulo 2^32; the endless table by an invariant with two states |
| C107 | all `try_from` | a step lemma per kind of access, each discharging the head of the list; one lemma per type; the list is a function of the type only, the relation `Turns` reads it |
| C108 | all `try_from` | from C107: the conditions of the list are refuted by arithmetic on lengths and versions |
| C109 | `Structures::next` | each case of the grammar evaluated; every offset has a case; the iterator is deterministic |
| C110 | all decoders, `next`, `next_raw` | each comparison with the version is a step; the decoders with equal comparisons are the same terms; counterexamples for each step computed |
| C111 | `EntryPoint::search` | C01, C03, C04 and C95; for each value an image is written, with a byte that makes the sum zero |
| C112 | `Structures::next`, all `try_from` | from the readings of C109 and the lists of C107; for each error a table of one structure, behind another one if the offset is not 0 |
| C113 | `Structures::next`, all `try_from` | from the readings of C109, by induction, and C107 |
| C114 | `bitflags!` types | **false** for the status of processors; the rest by induction over the list of flags |
| C87 | conversions in `Model/S003`, `S009`, `Lib` | by cases on the bytes, induction in steps of five |
| C12, C18, C73 | the same plus dispatch | spec encoder, induction over the list of structures |
| C19, C20 | `StructureStrings`, `find_string`, UTF-8 validator | spec encoder / declarative segment spec, induction |
| C21, C22 | `get`, `get_slice`, `get_string` | little-endian spec |
| C23, C36, C46, C53, C58 | all code tables | whole-table `decide` over the finite domain lifted to the type; range arguments for 16/32 bit codes |
| C24–C28, C66 | `bitfield.rs` and all `layout!` instances | induction over bit index; `Nat.testBit` |
| C29–C52, C71 | one module per structure type | per-type description of the fields by offset, "decodes to `b` iff" for all structures, versions and trailing bytes, plus exact rejection and fault conditions |
| C54, C55, C57, C64, C69, C70, C72 | dispatch and all decoders | case analysis over types using the per-type theorems; outcome calculus in `Proofs/Outcome` |
| C59–C63 | `Display` | injectivity over variants by computation, over numbers by uniqueness of digits |
| C65 | `PartialEq`, `Hash` | induction over chunks |
| C67 | `bitflags!` declarations | bit arithmetic on all values |
| C68 | flat memory model | monotonicity of packed reads in the bytes behind |

Where a property is false of the code, the negation is proved with a concrete witness (`Cnn_full_false`) and a
`_partial` theorem states what does hold.

## Bugs of the crate found by the proofs

Each is a theorem about the model with a concrete witness; the properties in parentheses have the details.

* A header length below 4 panics; a buffer shorter than the table length panics or is read out of bounds; a table
  ending within 4 bytes of 4 GiB overflows the index (C15, C54).
* In a buffer of 4 GiB, without overflow checks, the iterator may report one structure forever; string areas of 4 GiB or
  more are cut to their length modulo 4 GiB (C106).
* Entry points at offsets where the rest of the buffer is a multiple of 256 bytes long (or just above) are rejected (C04);
  in an image such as the conventional 64 KiB these are two of the sixteen possible addresses in each 256 bytes (C88).
* Up to three bytes left at the end of a table are ignored without an error (C104).
* Only the first anchor in an image is looked at; a false one hides the entry point behind it (C102).
* A structure whose formatted area ends exactly at the end of the table is reported as `BadSize`, and string areas may
  extend past the table length (C14, C16).
* Seven decoders read packed structs from short structures out of bounds (C55, C68, C69); a base board of 8 data bytes
  reports a chassis handle whose high byte comes from the string area (C68).
* `ContainedElements`: `count * record_length` overflows `u8`; record lengths below 3 are read out of bounds (C34);
  `count()` counts elements of length 0, which are never listed, and elements beyond 255 bytes (C71).
* In tables of version 2.0 the current BIOS language is read from 14h, the last reserved byte, instead of 15h (C72).
* `InstallableLanguages` panics or repeats the last language from 254 strings on (C43).
* `GroupAssociations` of length 4 panics under overflow checks (C44); event logs with descriptor length 0 panic, with a length other than 2 lose
  all descriptors (C45).
* `PhysicalMemoryArray` decodes to defaults (handle included) up to version 2.1 and loses the extended capacity at 2.7
  (C47, C57); `MemoryDevice` of 15h–1Fh bytes is rejected (C48).
* Battery capacity overflows `u16` (C52); computing the ROM size panics for some stored values (C30); caches at 2.0 panic, at 2.1
  they lose the fields of 2.1 and at 3.1 those of 3.1 (C37); base boards of fewer than 0Eh bytes are
  read out of bounds although the decoder tests for the presence of the later fields (C32); processors at 2.5 lose their
  characteristics (C35).
* Slot fields behind the peer devices are read at 14h + 5n, as the crate's comment itself doubts (C40).
* `Device::from`, `ContainedElement::from` and `PeerDevices::from` on a slice are safe functions that read out of bounds
  if the slice is too short or, for peer devices, no multiple of five bytes (C87).
* Default bit field iterators crash at the first call (C86).
* `get(offset)` with an offset below 4 panics in debug builds (C21).
* BIOS characteristics bits 0 and 1 count as flags (C66), `ProcessorStatus::contains(CPU_ENABLED)` and zero-valued `RESERVED`
  flags hold for more values than meant (C67).
* Reserved ranges of one bit directly after another group get the wrong end (C27).
* Labels: slot pitch ten times too large, legacy 5 V as "5.5V ", numbers dropped in the plain form of some codes (C59–C62).
* The date, serial number and chemistry of a battery are printed with the escape sequences they may contain, and the
  description of the language flag breaks the line (C99).
* Memory devices, and slots at 3.2 and 3.3, set fields the version of the table has not defined, contrary to their
  documentation; so do enclosures (C101).
* Several errors do not tell the truth about the length or the type (C63, C64); equality of descriptors ignores the chunk
  size (C65).
* Structures with appended fields, as a later version of the standard has them, are rejected by the decoders that insist on
  an exact length (C70).

## Seeded bugs

`seeded/LOG.jsonl` has one line per edit of the model that was tried in a scratch copy. Most edits were generated (a
literal, an operator or a field name changed), the rest written by hand.

* `theorems_failed` lists only what Lean reported. Where a helper lemma failed first, the property theorems that use it
  were not reached; up to twelve of them are listed in `theorems_using_the_failed`, found by following the constants
  used in Lean's terms (rewriting with an equation that holds by `rfl` leaves no trace there). They depend on the failed lemma; that each of them becomes false is not claimed.
* `claim_by` says whether `claim_broken` was written by hand or inferred from the theorems that failed. An inferred claim
  is no independent evidence that the English statement was broken: a proof script can also fail on an edit that
  leaves the statement true.
* An empty `theorems_failed` means that everything was still accepted. `claim_broken` then says why, and
  `theorems_tightened` what was done. Such edits were repeated after the tightening where the edited definition still exists.
* Edits for which the prover ran out of memory say nothing about the theorems. Where they were repeated with more memory
  only the repetition is logged; the others have a `note` that calls them inconclusive.
* In the scratch copies the `example`s are removed, so that only theorems count.
