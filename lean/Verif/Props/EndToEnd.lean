import Verif.Props.EntryPoint
import Verif.Props.Table
/-!
# C73: from a memory image to the structures
-/
namespace Dmi.Props
open Spec

/-- The contents of a 32-bit entry point (DSP0134 table 1). -/
structure Entry32 where
  major : UInt8
  minor : UInt8
  maxSize : UInt16
  revision : UInt8
  formatted : UInt8 × UInt8 × UInt8 × UInt8 × UInt8
  innerChecksum : UInt8
  tableLength : UInt16
  tableAddress : UInt32
  count : UInt16
  bcd : UInt8

/-- The contents of a 64-bit entry point (DSP0134 table 2). -/
structure Entry64 where
  major : UInt8
  minor : UInt8
  docrev : UInt8
  revision : UInt8
  reserved : UInt8
  tableMax : UInt32
  tableAddress : UInt64

/-- What precedes and what follows the checksum of a 32-bit entry point. -/
def Entry32.parts (e : Entry32) : Bytes × Bytes :=
  ([0x5F, 0x53, 0x4D, 0x5F],
   [0x1F, e.major, e.minor] ++ enc16 e.maxSize ++ [e.revision, e.formatted.1, e.formatted.2.1,
    e.formatted.2.2.1, e.formatted.2.2.2.1, e.formatted.2.2.2.2, 0x5F, 0x44, 0x4D, 0x49, 0x5F,
    e.innerChecksum] ++ enc16 e.tableLength ++ enc32 e.tableAddress ++ enc16 e.count ++ [e.bcd])

/-- What precedes and what follows the checksum of a 64-bit entry point. -/
def Entry64.parts (e : Entry64) : Bytes × Bytes :=
  ([0x5F, 0x53, 0x4D, 0x33, 0x5F],
   [0x18, e.major, e.minor, e.docrev, e.revision, e.reserved] ++ enc32 e.tableMax ++
    enc64 e.tableAddress)

/-- With the checksum that makes the sum of all bytes zero. -/
def withChecksum (x : Bytes × Bytes) : Bytes :=
  x.1 ++ [UInt8.ofNat (256 - byteSum (x.1 ++ x.2))] ++ x.2

/-- The bytes of the entry point. -/
def Entry32.bytes (e : Entry32) : Bytes := withChecksum e.parts
/-- The bytes of the entry point. -/
def Entry64.bytes (e : Entry64) : Bytes := withChecksum e.parts

theorem byteSum_withChecksum (x : Bytes × Bytes) : byteSum (withChecksum x) = 0 := by
  unfold withChecksum byteSum
  simp only [List.map_append, List.sum_append, List.map_cons, List.map_nil, List.sum_cons,
    List.sum_nil, UInt8.toNat_ofNat']
  omega

theorem leAt_leBytes (x y : Bytes) (w n : Nat) :
    leAt (x ++ leBytes w n ++ y) x.length w = n % 256 ^ w := by
  induction w generalizing x n with
  | zero => simp [leAt, Nat.mod_one]
  | succ w ih =>
    have hb : byteAt (x ++ leBytes (w + 1) n ++ y) x.length = UInt8.ofNat n := by
      unfold byteAt leBytes
      rw [List.append_assoc, List.getD_eq_getElem?_getD, List.getElem?_append_right (Nat.le_refl _),
        Nat.sub_self]
      rfl
    have hr : x ++ leBytes (w + 1) n ++ y = (x ++ [UInt8.ofNat n]) ++ leBytes w (n / 256) ++ y := by
      simp [leBytes]
    have hl : x.length + 1 = (x ++ [UInt8.ofNat n]).length := by simp
    rw [leAt, hb, hr, hl, ih, UInt8.toNat_ofNat', Nat.pow_succ 256 w, Nat.mul_comm (256 ^ w), Nat.mod_mul]

theorem leAt_field {b x y : Bytes} {w n : Nat} {o : Nat} (hb : b = x ++ leBytes w n ++ y)
    (ho : x.length = o) (hn : n < 256 ^ w) : leAt b o w = n := by
  rw [hb, ← ho, leAt_leBytes, Nat.mod_eq_of_lt hn]

theorem u8_of_toNat {x y : UInt8} (h : x.toNat = y.toNat) : x = y := UInt8.toNat_inj.1 h

/-- A 32-bit entry point at the start of a buffer is found, and shows what it was made of. -/
theorem search_entry32 (e : Entry32) (q : Bytes) (hv : 2 ≤ e.major.toNat)
    (hq : 0x1F ≤ (0x1F + q.length) % 256) : ∃ ep, EntryPoint.search (e.bytes ++ q) = .ok ep ∧
      ep.to_version = ⟨e.major, e.minor⟩ ∧ ep.revision = e.revision ∧
      ep.smbios_len = e.tableLength.toUInt32 ∧ ep.smbios_address = e.tableAddress.toUInt64 := by
  have hf : FirstAnchor (e.bytes ++ q) 0 fmtV2 :=
    ⟨.inl rfl, ⟨rfl, [], e.bytes.drop 4 ++ q, rfl, rfl⟩, fun o' h => by omega⟩
  have hl : (e.bytes ++ q).length = 0x1F + q.length := by rw [List.length_append]; rfl
  have he : epLen fmtV2 (e.bytes ++ q) 0 = 0x1F := rfl
  have hm : epMajor fmtV2 (e.bytes ++ q) 0 = e.major.toNat := leAt_one _ _
  have hn : leAt (e.bytes ++ q) 0x07 1 = e.minor.toNat := leAt_one _ _
  have hr : leAt (e.bytes ++ q) 0x0A 1 = e.revision.toNat := leAt_one _ _
  have hs : leAt (e.bytes ++ q) 0x16 2 = e.tableLength.toNat :=
    leAt_field (x := e.bytes.take 0x16) (y := e.bytes.drop 0x18 ++ q) rfl rfl e.tableLength.toNat_lt
  have ha : leAt (e.bytes ++ q) 0x18 4 = e.tableAddress.toNat :=
    leAt_field (x := e.bytes.take 0x18) (y := e.bytes.drop 0x1C ++ q) rfl rfl e.tableAddress.toNat_lt
  have wf : WellFormed fmtV2 (e.bytes ++ q) 0 := by
    refine ⟨?_, ?_, ?_, ?_, ?_⟩
    · rw [hl]; show 0x1F ≤ _; omega
    · rw [he]; exact Nat.le_refl _
    · rw [he, hl]; omega
    · rw [hm]; exact hv
    · rw [he]; exact byteSum_withChecksum e.parts
  obtain ⟨ep, h, sh⟩ := (C04_valid_accepted_partial hf wf).1 (by rw [he, hl]; exact hq)
  refine ⟨ep, h, ?_, ?_, ?_, ?_⟩
  · unfold EntryPoint.to_version
    rw [u8_of_toNat (sh.major.trans hm), u8_of_toNat (sh.minor.trans hn)]
  · exact u8_of_toNat (sh.revision.trans hr)
  · exact UInt32.toNat_inj.1 ((sh.smbios_len.trans hs).trans (by simp))
  · exact UInt64.toNat_inj.1 ((sh.smbios_address.trans ha).trans (by simp))

/-- A 64-bit entry point at the start of a buffer is found, and shows what it was made of. -/
theorem search_entry64 (e : Entry64) (q : Bytes) (hv : 2 ≤ e.major.toNat)
    (hq : 0x18 ≤ (0x18 + q.length) % 256) : ∃ ep, EntryPoint.search (e.bytes ++ q) = .ok ep ∧
      ep.to_version = ⟨e.major, e.minor⟩ ∧ ep.revision = e.revision ∧
      ep.smbios_len = e.tableMax ∧ ep.smbios_address = e.tableAddress := by
  have hf : FirstAnchor (e.bytes ++ q) 0 fmtV3 :=
    ⟨.inr rfl, ⟨rfl, [], e.bytes.drop 5 ++ q, rfl, rfl⟩, fun o' h => by omega⟩
  have hl : (e.bytes ++ q).length = 0x18 + q.length := by rw [List.length_append]; rfl
  have he : epLen fmtV3 (e.bytes ++ q) 0 = 0x18 := rfl
  have hm : epMajor fmtV3 (e.bytes ++ q) 0 = e.major.toNat := leAt_one _ _
  have hn : leAt (e.bytes ++ q) 0x08 1 = e.minor.toNat := leAt_one _ _
  have hr : leAt (e.bytes ++ q) 0x0A 1 = e.revision.toNat := leAt_one _ _
  have hs : leAt (e.bytes ++ q) 0x0C 4 = e.tableMax.toNat :=
    leAt_field (x := e.bytes.take 0x0C) (y := e.bytes.drop 0x10 ++ q) rfl rfl e.tableMax.toNat_lt
  have ha : leAt (e.bytes ++ q) 0x10 8 = e.tableAddress.toNat :=
    leAt_field (x := e.bytes.take 0x10) (y := e.bytes.drop 0x18 ++ q) rfl rfl e.tableAddress.toNat_lt
  have wf : WellFormed fmtV3 (e.bytes ++ q) 0 := by
    refine ⟨?_, ?_, ?_, ?_, ?_⟩
    · rw [hl]; show 0x18 ≤ _; omega
    · rw [he]; exact Nat.le_refl _
    · rw [he, hl]; omega
    · rw [hm]; exact hv
    · rw [he]; exact byteSum_withChecksum e.parts
  obtain ⟨ep, h, sh⟩ := (C04_valid_accepted_partial hf wf).1 (by rw [he, hl]; exact hq)
  refine ⟨ep, h, ?_, ?_, ?_, ?_⟩
  · unfold EntryPoint.to_version
    rw [u8_of_toNat (sh.major.trans hm), u8_of_toNat (sh.minor.trans hn)]
  · exact u8_of_toNat (sh.revision.trans hr)
  · exact UInt32.toNat_inj.1 (sh.smbios_len.trans hs)
  · exact UInt64.toNat_inj.1 (sh.smbios_address.trans ha)

/-- The memory image `m` contains no anchor. -/
def NoAnchor (m : Bytes) : Prop := ∀ o F, IsFormat F → ¬ AnchorAt m o F

/-- The crate finds an entry point in the image `m`, which tells the version and address given, and
iterating the table `b` with it yields exactly `items`. -/
def Recovers (oc : Bool) (m b : Bytes) (v : SmbiosVersion) (a : UInt64)
    (items : List (Except MalformedStructureError Structure)) : Prop :=
  ∃ ep, EntryPoint.search m = .ok ep ∧ ep.to_version = v ∧ ep.smbios_address = a ∧
    CollectsR (Structures.next oc) (ep.structures b) items

/-- C73, full statement for 32-bit entry points: an entry point at the first anchor of a memory image
and a table of well-formed structures of the declared length yield the decoded structures. -/
def C73_full : Prop := ∀ (oc : Bool) (pre suf post : Bytes) (e : Entry32) (ps : List Piece) (items),
  pre.length % 16 = 0 → NoAnchor pre → 2 ≤ e.major.toNat → (∀ p ∈ ps, p.WF) →
  (e.major.toNat < 3 ∨ ∀ p ∈ ps, p.kind ≠ 127) →
  (ps.flatMap Piece.bytes ++ post).length < 2 ^ 32 →
  e.tableLength.toNat = (ps.flatMap Piece.bytes).length → Decoded oc ⟨e.major, e.minor⟩ ps items →
  Recovers oc (pre ++ (e.bytes ++ suf)) (ps.flatMap Piece.bytes ++ post) ⟨e.major, e.minor⟩
    e.tableAddress.toUInt64 items

/-- C73: the full statement holds unless the image from the anchor on is, modulo 256, shorter than the
entry point. -/
theorem C73_round_trip_partial (oc : Bool) (pre suf post : Bytes) (e : Entry32) (ps : List Piece)
    (items) (hp : pre.length % 16 = 0) (hno : NoAnchor pre)
    (hs : 0x1F ≤ (0x1F + suf.length) % 256) (hv : 2 ≤ e.major.toNat) (hwf : ∀ p ∈ ps, p.WF)
    (hnoend : e.major.toNat < 3 ∨ ∀ p ∈ ps, p.kind ≠ 127)
    (hlen : (ps.flatMap Piece.bytes ++ post).length < 2 ^ 32)
    (hn : e.tableLength.toNat = (ps.flatMap Piece.bytes).length)
    (hd : Decoded oc ⟨e.major, e.minor⟩ ps items) :
    Recovers oc (pre ++ (e.bytes ++ suf)) (ps.flatMap Piece.bytes ++ post) ⟨e.major, e.minor⟩
      e.tableAddress.toUInt64 items := by
  obtain ⟨ep, h, v, -, l, a⟩ := search_entry32 e suf hv hs
  refine ⟨ep, (C05_relocation pre _ hp hno).trans h, v, a, ?_⟩
  unfold EntryPoint.structures
  rw [v, l]
  have := e.tableLength.toNat_lt
  exact C12_round_trip oc _ _ ps items post hwf hnoend hlen (by omega) (by simpa using hn) hd

/-- C73, 64-bit entry points, which only bound the length of the table: the end-of-table structure
ends it. The same restriction applies. -/
theorem C73_round_trip64_partial (oc : Bool) (pre suf post : Bytes) (e : Entry64) (ps : List Piece)
    (t : Piece) (items) (hp : pre.length % 16 = 0) (hno : NoAnchor pre)
    (hs : 0x18 ≤ (0x18 + suf.length) % 256) (hv : 3 ≤ e.major.toNat) (hwf : ∀ p ∈ ps, p.WF)
    (hnoend : ∀ p ∈ ps, p.kind ≠ 127) (ht : t.WF) (hend : t.kind = 127)
    (hlen : (ps.flatMap Piece.bytes ++ t.bytes ++ post).length + 4 < 2 ^ 32)
    (hn : (ps.flatMap Piece.bytes ++ t.bytes).length ≤ e.tableMax.toNat)
    (hd : Decoded oc ⟨e.major, e.minor⟩ ps items) :
    Recovers oc (pre ++ (e.bytes ++ suf)) (ps.flatMap Piece.bytes ++ t.bytes ++ post)
      ⟨e.major, e.minor⟩ e.tableAddress (items ++ [.ok (.Other (t.raw ⟨e.major, e.minor⟩))]) := by
  obtain ⟨ep, h, v, -, l, a⟩ := search_entry64 e suf (by omega) hs
  refine ⟨ep, (C05_relocation pre _ hp hno).trans h, v, a, ?_⟩
  unfold EntryPoint.structures
  rw [v, l]
  exact C12_round_trip_end oc _ _ ps t items post hv hwf hnoend ht hend hlen hn hd

/-- The entry point of the examples: version 2.8, a table of the given length. -/
def exampleEntry (n : UInt16) : Entry32 := ⟨2, 8, 0x40, 0, (0, 0, 0, 0, 0), 0, n, 0xE0000, 0, 0x28⟩

theorem noAnchor_nil : NoAnchor [] := by
  rintro o F hF ⟨-, x, y, h, -⟩
  have h : [] = x ++ F.anchor ++ y := h
  have := congrArg List.length h
  rcases hF with rfl | rfl <;> simp [fmtV2, fmtV3, ascii] at this

/-- C73, the full statement fails: the entry point and 225 further bytes, 256 in all. -/
theorem C73_full_false : ¬ C73_full := by
  intro h
  obtain ⟨ep, hs, -⟩ := h true [] (List.replicate 225 0) [] (exampleEntry 0) [] [] rfl noAnchor_nil
    (by decide) (fun _ h => by cases h) (.inl (by decide)) (by decide) rfl .nil
  have : EntryPoint.search ([] ++ ((exampleEntry 0).bytes ++ List.replicate 225 0)) = .err (.BadSize 0) := by
    decide +kernel
  rw [this] at hs
  cases hs

/-- An aligned entry point with nothing behind it; the table has one structure. -/
example : Recovers true ((exampleEntry 10).bytes) (samplePiece.bytes ++ [9]) ⟨2, 8⟩ 0xE0000
    [.ok (.Other (samplePiece.raw ⟨2, 8⟩))] := by
  have := C73_round_trip_partial true [] [] [9] (exampleEntry 10) [samplePiece] _ rfl noAnchor_nil
    (by decide) (by decide) (by simpa using samplePiece_wf) (.inl (by decide)) (by decide) rfl
    (.cons rfl .nil)
  simpa [exampleEntry] using this

/-- The same with a 64-bit entry point. -/
example : Recovers true ((⟨3, 1, 0, 1, 0, 4096, 0x17FEB3000⟩ : Entry64).bytes)
    (samplePiece.bytes ++ sampleEnd.bytes ++ [1, 2, 3]) ⟨3, 1⟩ 0x17FEB3000
    [.ok (.Other (samplePiece.raw ⟨3, 1⟩)), .ok (.Other (sampleEnd.raw ⟨3, 1⟩))] := by
  have := C73_round_trip64_partial true [] [] [1, 2, 3] ⟨3, 1, 0, 1, 0, 4096, 0x17FEB3000⟩ [samplePiece]
    sampleEnd _ rfl noAnchor_nil (by decide) (by decide) (by simpa using samplePiece_wf)
    (by simp [samplePiece]) sampleEnd_wf rfl (by decide) (by decide) (.cons rfl .nil)
  simpa using this

end Dmi.Props
