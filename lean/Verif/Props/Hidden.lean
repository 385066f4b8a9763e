import Verif.Props.EndToEnd
import Verif.Props.Image
/-!
# C73: exactly which memory images give the structures back
-/
namespace Dmi.Props
open Spec

/-- A 32-bit entry point that is followed by `suf` is hidden if the length is, modulo 256, too small. -/
theorem hidden_entry32 (e : Entry32) (suf : Bytes) (hv : 2 ≤ e.major.toNat)
    (hs : (0x1F + suf.length) % 256 < 0x1F) :
    EntryPoint.search (e.bytes ++ suf) = .err (.BadSize (UInt8.ofNat (0x1F + suf.length))) := by
  obtain ⟨ep, h, -⟩ := search_entry32 e [] hv (by decide)
  rw [List.append_nil] at h
  obtain ⟨o, F, hF, h2⟩ := C88_longer_partial h suf
  obtain ⟨rfl, rfl⟩ := hF.unique
    (⟨.inl rfl, ⟨rfl, [], e.bytes.drop 4, rfl, rfl⟩, fun o' h => by omega⟩ : FirstAnchor e.bytes 0 fmtV2)
  have hl : e.bytes.length = 0x1F := rfl
  have he : epLen fmtV2 e.bytes 0 = 0x1F := rfl
  rw [h2, hl, he, Nat.sub_zero, if_neg (by omega)]

theorem hidden_entry64 (e : Entry64) (suf : Bytes) (hv : 2 ≤ e.major.toNat)
    (hs : (0x18 + suf.length) % 256 < 0x18) :
    EntryPoint.search (e.bytes ++ suf) = .err (.BadSize (UInt8.ofNat (0x18 + suf.length))) := by
  obtain ⟨ep, h, -⟩ := search_entry64 e [] hv (by decide)
  rw [List.append_nil] at h
  obtain ⟨o, F, hF, h2⟩ := C88_longer_partial h suf
  obtain ⟨rfl, rfl⟩ := hF.unique
    (⟨.inr rfl, ⟨rfl, [], e.bytes.drop 5, rfl, rfl⟩, fun o' h => by omega⟩ : FirstAnchor e.bytes 0 fmtV3)
  have hl : e.bytes.length = 0x18 := rfl
  have he : epLen fmtV3 e.bytes 0 = 0x18 := rfl
  rw [h2, hl, he, Nat.sub_zero, if_neg (by omega)]

/-- C73: otherwise the image is refused, as too small, whatever the table. -/
theorem C73_hidden (pre suf : Bytes) (hp : pre.length % 16 = 0) (hno : NoAnchor pre) :
    (∀ e : Entry32, 2 ≤ e.major.toNat → (0x1F + suf.length) % 256 < 0x1F →
      EntryPoint.search (pre ++ (e.bytes ++ suf)) = .err (.BadSize (UInt8.ofNat (0x1F + suf.length)))) ∧
    ∀ e : Entry64, 2 ≤ e.major.toNat → (0x18 + suf.length) % 256 < 0x18 →
      EntryPoint.search (pre ++ (e.bytes ++ suf)) = .err (.BadSize (UInt8.ofNat (0x18 + suf.length))) :=
  ⟨fun e hv hs => (C05_relocation pre _ hp hno).trans (hidden_entry32 e suf hv hs),
    fun e hv hs => (C05_relocation pre _ hp hno).trans (hidden_entry64 e suf hv hs)⟩

/-- C73, exactly: the structures are recovered iff the image from the anchor on is, modulo 256, not
shorter than the entry point. -/
theorem C73_iff (oc : Bool) (pre suf post : Bytes) (e : Entry32) (ps : List Piece)
    (items) (hp : pre.length % 16 = 0) (hno : NoAnchor pre) (hv : 2 ≤ e.major.toNat)
    (hwf : ∀ p ∈ ps, p.WF) (hnoend : e.major.toNat < 3 ∨ ∀ p ∈ ps, p.kind ≠ 127)
    (hlen : (ps.flatMap Piece.bytes ++ post).length < 2 ^ 32)
    (hn : e.tableLength.toNat = (ps.flatMap Piece.bytes).length)
    (hd : Decoded oc ⟨e.major, e.minor⟩ ps items) :
    Recovers oc (pre ++ (e.bytes ++ suf)) (ps.flatMap Piece.bytes ++ post) ⟨e.major, e.minor⟩
      e.tableAddress.toUInt64 items ↔ 0x1F ≤ (0x1F + suf.length) % 256 := by
  refine ⟨fun ⟨ep, h, _⟩ => Nat.le_of_not_lt fun hs => ?_, fun hs =>
    C73_round_trip_partial oc pre suf post e ps items hp hno hs hv hwf hnoend hlen hn hd⟩
  rw [(C73_hidden pre suf hp hno).1 e hv hs] at h
  cases h

/-- C73, exactly, for 64-bit entry points. -/
theorem C73_iff64 (oc : Bool) (pre suf post : Bytes) (e : Entry64) (ps : List Piece)
    (t : Piece) (items) (hp : pre.length % 16 = 0) (hno : NoAnchor pre) (hv : 3 ≤ e.major.toNat)
    (hwf : ∀ p ∈ ps, p.WF) (hnoend : ∀ p ∈ ps, p.kind ≠ 127) (ht : t.WF) (hend : t.kind = 127)
    (hlen : (ps.flatMap Piece.bytes ++ t.bytes ++ post).length + 4 < 2 ^ 32)
    (hn : (ps.flatMap Piece.bytes ++ t.bytes).length ≤ e.tableMax.toNat)
    (hd : Decoded oc ⟨e.major, e.minor⟩ ps items) :
    Recovers oc (pre ++ (e.bytes ++ suf)) (ps.flatMap Piece.bytes ++ t.bytes ++ post)
      ⟨e.major, e.minor⟩ e.tableAddress (items ++ [.ok (.Other (t.raw ⟨e.major, e.minor⟩))]) ↔
      0x18 ≤ (0x18 + suf.length) % 256 := by
  refine ⟨fun ⟨ep, h, _⟩ => Nat.le_of_not_lt fun hs => ?_, fun hs =>
    C73_round_trip64_partial oc pre suf post e ps t items hp hno hs hv hwf hnoend ht hend hlen hn hd⟩
  rw [(C73_hidden pre suf hp hno).2 e (by omega) hs] at h
  cases h

example : (0x1F + (List.replicate 225 (0 : UInt8)).length) % 256 < 0x1F ∧ NoAnchor [] ∧
    2 ≤ (exampleEntry 10).major.toNat := ⟨by rw [List.length_replicate]; decide, noAnchor_nil, by decide⟩

end Dmi.Props
