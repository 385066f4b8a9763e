import Verif.Props.Reading
import Verif.Spec.Reported
import Verif.Proofs.Reported
/-!
# C112: exactly which errors an iteration can report
-/
namespace Dmi.Props
open Spec

/-- An iteration over some table of version `v`, from its start, reports `e`. -/
def ErrorReported (oc : Bool) (v : SmbiosVersion) (e : MalformedStructureError) : Prop :=
  ∃ (b : Bytes) (n : UInt32) (items : _) (s' : Structures), b.length + 256 ≤ 2 ^ 32 ∧
    Runs oc ⟨v, n, 0, b⟩ items s' ∧ .error e ∈ items

/-- A structure can begin at `o`: at the start, or behind one or more structures, which have at least six bytes. -/
def Begins (o : UInt32) : Prop := (o.toNat = 0 ∨ 6 ≤ o.toNat) ∧ o.toNat + 260 ≤ 2 ^ 32

/-- The types whose decoders look up strings. -/
def looksUp (v : SmbiosVersion) : InfoType → Prop
  | .Bios | .System | .BaseBoard | .Enclosure | .Processor | .PortConnector | .SystemSlots | .GroupAssociations
  | .MemoryDevice | .PortableBattery => True
  | .Cache => From v 2 1
  | _ => False

/-- The lengths the decoders ask for: the type, the text and the number in the error. -/
def asksFor (oc : Bool) (v : SmbiosVersion) (i : InfoType) (t : String) (n : UInt8) : Prop :=
  match i with
  | .Enclosure => t = "minimum of " ∧ n = 5
  | .SystemSlots =>
    (From v 2 0 ∧ ¬ From v 2 1 ∧ t = "" ∧ n = 0x0C) ∨ (From v 2 1 ∧ ¬ From v 2 6 ∧ t = "" ∧ n = 0x0D) ∨
    (From v 2 6 ∧ ¬ From v 3 2 ∧ t = "" ∧ n = 0x11) ∨ (From v 3 2 ∧ t = "minimum of " ∧ n = 0x11)
  | .GroupAssociations => oc = false ∧ t = "" ∧ n = 4
  | .SystemEventLog =>
    (v = ⟨2, 0⟩ ∧ t = "" ∧ n = 0x14) ∨ (From v 2 1 ∧ t = "minimum of " ∧ n = 0) ∨ (From v 2 1 ∧ t = "17h+(x*y) = ")
  | .MemoryDevice => t = "at least" ∧ n = 0x15
  | .MemoryError32 => From v 2 1 ∧ t = "" ∧ n = 0x17
  | .MemoryArrayMappedAddress =>
    (From v 2 1 ∧ ¬ From v 2 7 ∧ t = "" ∧ n = 0x0F) ∨ (From v 2 7 ∧ t = "" ∧ n = 0x1F)
  | .MemoryDeviceMappedAddress =>
    (From v 2 1 ∧ ¬ From v 2 7 ∧ t = "" ∧ n = 0x13) ∨ (From v 2 7 ∧ t = "" ∧ n = 0x23)
  | .BuiltInPointingDevice => From v 2 1 ∧ t = "" ∧ n = 7
  | .PortableBattery => (v = ⟨2, 1⟩ ∧ t = "" ∧ n = 0x10) ∨ (From v 2 2 ∧ t = "" ∧ n = 0x1A)
  | _ => False

/-- The errors there are for tables of version `v`. -/
def TableError (oc : Bool) (v : SmbiosVersion) : MalformedStructureError → Prop
  | .BadSize o l => Begins o ∧ 4 ≤ l.toNat
  | .UnterminatedStrings o => Begins o
  | .InvalidStringIndex i _ x => (looksUp v i ∧ x ≠ 0) ∨ i = .SystemConfigurationOptions
  | .InvalidSlice => True
  | .InvalidFormattedSectionLength i _ t n => asksFor oc v i t n

/-! ### Only these -/

theorem Turns.mem {l f} (h : Turns l (some f)) : ∃ c ∈ l, c.1 ∧ c.2 = f := by
  generalize ho : some f = o at h
  induction h with
  | none => cases ho
  | @hit p g l hp => cases ho; exact ⟨_, List.mem_cons_self, hp, rfl⟩
  | miss _ _ ih =>
    obtain ⟨c, hm, h⟩ := ih ho
    exact ⟨c, List.mem_cons_of_mem _ hm, h⟩

theorem dangling_index {s : RawStructure} {o : Nat} (h : Dangling s o) : byte s o ≠ 0 := fun e =>
  h [] (.inl ⟨by rw [e]; rfl, rfl⟩)

section only
variable {oc : Bool} {s : RawStructure} {e : MalformedStructureError}

theorem only_overread {n : Nat} : (overread s n).1 → (overread s n).2 = .rejected e → TableError oc s.version e :=
  fun _ h => by cases h

theorem only_panics {p : Prop} : p → Failure.panics = .rejected e → TableError oc s.version e :=
  fun _ h => by cases h

theorem only_cut {n : Nat} : (cutAt s n).1 → (cutAt s n).2 = .rejected e → TableError oc s.version e :=
  fun _ h => by cases h; exact trivial

theorem only_missing {o : Nat} (hl : looksUp s.version s.info) :
    (missing s o).1 → (missing s o).2 = .rejected e → TableError oc s.version e :=
  fun hp h => by cases h; exact .inl ⟨hl, dangling_index hp⟩

theorem only_wrong {c : Prop} {t : String} {n : UInt8} (ha : c → asksFor oc s.version s.info t n) :
    (wrongLength s c t n).1 → (wrongLength s c t n).2 = .rejected e → TableError oc s.version e :=
  fun hp h => by cases h; exact ha hp

theorem only_of (l : List (Prop × Failure)) (h : ∀ c ∈ l, c.1 → c.2 = .rejected e → TableError oc s.version e)
    (ht : Turns l (some (.rejected e))) : TableError oc s.version e := by
  obtain ⟨c, hm, hp, he⟩ := ht.mem
  exact h c hm hp he

theorem decode_error (hc : Coherent s) (h : decodeStructure oc s = .err e) : TableError oc s.version e := by
  have ht := C107_verdict oc s hc
  rw [h] at ht
  replace ht : Turns (troubles oc s) (some (.rejected e)) := ht
  cases hi : s.info <;> simp only [troubles, hi] at ht
  case SystemConfigurationOptions =>
    refine only_of _ ?_ ht
    simp only [List.forall_mem_cons]
    exact ⟨only_cut, fun _ h => by cases h; exact .inr rfl, nofun⟩
  case GroupAssociations =>
    cases ht with
    | miss hn ht =>
      refine only_of _ ?_ ht
      simp only [List.forall_mem_cons]
      refine ⟨fun hp h => ?_, only_missing (by rw [hi]; trivial), nofun⟩
      cases h
      have h5 : ¬ Fits s 5 := hp
      have h4 : s.length.toNat = 4 := by unfold Fits at h5; unfold Coherent at hc; omega
      show asksFor oc s.version s.info "" s.length
      rw [hi]
      refine ⟨?_, rfl, UInt8.toNat.inj h4⟩
      cases oc
      · rfl
      · exact absurd ⟨rfl, h5⟩ hn
  case Cache =>
    cases ht with
    | miss hn ht =>
      refine only_of _ ?_ ht
      simp only [List.forall_mem_cons]
      exact ⟨only_overread, only_missing (by rw [hi]; exact Classical.not_not.1 hn), nofun⟩
  case Enclosure =>
    refine only_of _ ?_ ht
    simp only [List.forall_mem_cons]
    have hl : looksUp s.version s.info := by rw [hi]; trivial
    exact ⟨only_wrong fun _ => by rw [hi]; exact ⟨rfl, rfl⟩, only_missing hl, only_missing hl, only_missing hl,
      only_missing hl, only_panics, fun hp h => only_missing hl hp.2.2 h, nofun⟩
  all_goals first
    | (cases ht; done)
    | (refine only_of _ ?_ ht
       try (split at ht)
       all_goals
         simp only [List.map_cons, List.map_nil, List.forall_mem_cons, *, if_true, if_false]
         repeat' apply And.intro
         all_goals first
           | exact only_overread
           | exact only_panics
           | exact only_cut
           | exact only_missing (by rw [hi]; trivial)
           | (refine only_wrong (fun hp => ?_)
              rw [hi]
              simp [asksFor]
              try first
                | exact hp.1
                | exact ⟨hp.1, hp.2.1⟩)
           | (intro c hc; cases hc))

end only

theorem goes_runs {oc s i z} (h : Goes oc s i z) : ∃ s', Runs oc s i s' := by
  induction h with
  | step h _ ih => obtain ⟨s', hr⟩ := ih; exact ⟨s', .cons h hr⟩
  | _ => exact ⟨_, .nil _⟩

theorem runs_goes {oc s i s' all z} (h : Runs oc s i s') (hg : Goes oc s all z) : ∃ rest, all = i ++ rest := by
  induction h generalizing all with
  | nil => exact ⟨all, rfl⟩
  | cons h _ ih =>
    cases hg with
    | step h' t' =>
      rw [h] at h'
      simp only [Res.ok.injEq, Prod.mk.injEq, Option.some.injEq] at h'
      obtain ⟨rfl, rfl⟩ := h'
      obtain ⟨rest, rfl⟩ := ih t'
      exact ⟨rest, rfl⟩
    | _ h' => rw [h] at h'; cases h'

theorem piece_six {p : Piece} (h : p.WF) : 6 ≤ p.bytes.length := by
  have h1 := Piece.bytes_length p
  have h2 := EndsAtFirstNulNul.length h.2
  unfold Piece.len at h1
  omega

theorem reading_error {oc v n b o items stop} (hb : b.length + 256 ≤ 2 ^ 32) (ho : o = 0 ∨ 6 ≤ o)
    (h : Reading oc v n b o items stop) {e : MalformedStructureError} (he : .error e ∈ items) : TableError oc v e := by
  have begins : ∀ {o}, (o = 0 ∨ 6 ≤ o) → o + 4 ≤ b.length → Begins (.ofNat o) := by
    intro o ho hl
    have : (UInt32.ofNat o).toNat = o := by rw [UInt32.toNat_ofNat']; omega
    unfold Begins
    rw [this]
    omega
  induction h with
  | size hl _ _ _ =>
    simp only [List.mem_singleton, Except.error.injEq] at he
    subst he
    exact ⟨begins ho hl, by omega⟩
  | strings hl _ _ _ _ _ =>
    simp only [List.mem_singleton, Except.error.injEq] at he
    subst he
    exact begins ho hl
  | last => simp at he
  | @item o p i items stop hp _ _ hi _ ih =>
    rcases List.mem_cons.1 he with rfl | he
    · exact decode_error (s := p.raw v) (piece_coherent p v hp.1) hi
    · exact ih (.inr (by have := piece_six hp.1; omega)) he
  | _ => cases he

/-! ### All of these -/

theorem reported_reading {oc v n b items stop} (hb : b.length + 256 ≤ 2 ^ 32) (hn : n < 2 ^ 32)
    (h : Reading oc v n b 0 items stop) {e : MalformedStructureError} (he : .error e ∈ items) :
    ErrorReported oc v e := by
  have hk : (UInt32.ofNat n).toNat = n := by rw [UInt32.toNat_ofNat']; omega
  rw [← hk] at h
  obtain ⟨s', hr⟩ := goes_runs ((reading_iff oc v _ b hb _ _).1 h)
  exact ⟨b, _, items, s', hb, hr, he⟩

/-- A structure of `o` bytes that is reported as it is. -/
def padPiece (o : Nat) : Piece := ⟨200, 0, [], List.replicate (o - 6) 65 ++ [0, 0]⟩

theorem padPiece_wf (o : Nat) : (padPiece o).WF := by
  refine ⟨by show 4 < 256; decide, ends_append ?_ ends_nil⟩
  intro h
  cases List.eq_of_mem_replicate h

theorem padPiece_length {o : Nat} (h : 6 ≤ o) : (padPiece o).bytes.length = o := by
  have h1 := Piece.bytes_length (padPiece o)
  have h2 : (padPiece o).len = 4 := rfl
  have h3 : (padPiece o).strings.length = o - 6 + 2 := by simp [padPiece]
  omega

theorem reading_behind {oc v n r items stop} {o : Nat} (h6 : 6 ≤ o) (hn : o ≤ n)
    (h : Reading oc v n ((padPiece o).bytes ++ r) o items stop) :
    Reading oc v n ((padPiece o).bytes ++ r) 0 (.ok (.Other ((padPiece o).raw v)) :: items) stop := by
  refine .item (p := padPiece o) ⟨padPiece_wf o, [], r, rfl, rfl⟩ ?_ (.inr (by show (200 : UInt8) ≠ 127; decide)) rfl ?_
  · show 0 + 4 < n
    omega
  · rw [Nat.zero_add, padPiece_length h6]
    exact h

theorem table_reported {oc : Bool} {v : SmbiosVersion} {o : UInt32} (ho : Begins o) {l : UInt8}
    {e : MalformedStructureError} (n : Nat) (hn : o.toNat + 4 ≤ n) (hn' : n ≤ o.toNat + 5)
    (h : ∀ b : Bytes, b.length = o.toNat → Reading oc v n (b ++ [200, l, 0, 0]) o.toNat [.error e] .ended) :
    ErrorReported oc v e := by
  obtain ⟨h0 | h6, hm⟩ := ho
  · have := h [] (by simp [h0])
    rw [h0] at this
    exact reported_reading (by simp) (by omega) this (List.mem_singleton.2 rfl)
  · have := reading_behind h6 (by omega) (h _ (padPiece_length h6))
    exact reported_reading (by simp [padPiece_length h6]; omega) (by omega) this (by simp)

theorem header_byte {b : Bytes} {o : Nat} {l : UInt8} (hb : b.length = o) : l = byteAt (b ++ [200, l, 0, 0]) (o + 1) := by
  subst hb
  simp [byteAt]

theorem reported_piece {oc v} {e : MalformedStructureError} (p : Piece) (hw : p.WF) (hk : p.kind ≠ 127)
    (hs : p.strings.length ≤ 10) (hd : decodeStructure oc (p.raw v) = .err e) : ErrorReported oc v e := by
  have h1 := Piece.bytes_length p
  have h2 := EndsAtFirstNulNul.length hw.2
  have h3 := hw.1
  refine reported_reading (n := p.bytes.length) (b := p.bytes) (by omega) (by omega)
    (.item (p := p) (i := .error e) ⟨hw, [], [], by simp, rfl⟩ (by omega) (.inr hk) hd (.done (by omega)))
    List.mem_cons_self

theorem rejected_of {oc : Bool} {s : RawStructure} {e : MalformedStructureError} (hc : Coherent s)
    (ht : Turns (troubles oc s) (some (.rejected e))) : decodeStructure oc s = .err e := by
  have := (C107_verdict oc s hc).det ht
  cases hd : decodeStructure oc s <;> rw [hd] at this <;> cases this
  rfl

/-- A structure without strings, with `d` equal bytes behind the header. -/
def plain (k : UInt8) (h : UInt16) (d : Nat) (x : UInt8) : Piece := ⟨k, h, List.replicate d x, [0, 0]⟩

section all
variable {oc : Bool} {v : SmbiosVersion} {e : MalformedStructureError} {k : UInt8} {h : UInt16} {d : Nat} {x : UInt8}

theorem reported_plain (k : UInt8) (h : UInt16) (d : Nat) (x : UInt8) (hd : d ≤ 251) (hk : k ≠ 127)
    (ht : Turns (troubles oc ((plain k h d x).raw v)) (some (.rejected e))) : ErrorReported oc v e := by
  have hw : (plain k h d x).WF := ⟨by simp [plain, Piece.len]; omega, ends_nil⟩
  exact reported_piece _ hw hk (by show 2 ≤ 10; decide) (rejected_of (piece_coherent _ v hw) ht)

theorem plain_fits {n : Nat} : Fits ((plain k h d x).raw v) n ↔ n ≤ d + 4 := by
  simp [Fits, plain, Piece.raw]

theorem plain_length : ((plain k h d x).raw v).data.length = d := by
  simp [plain, Piece.raw]

theorem plain_byte {o : Nat} (h4 : 4 ≤ o) (ho : o < d + 4) : byte ((plain k h d x).raw v) o = x := by
  have : o - 4 < d := by omega
  simp [byte, byteAt, plain, Piece.raw, this]

theorem no_strings {l : List Bytes} {rest : Bytes} (hl : Leading [0, 0] l rest) : l = [] := by
  cases l with
  | nil => rfl
  | cons s l =>
    obtain ⟨hne, h0, -⟩ := hl.2 s List.mem_cons_self
    have := hl.1
    cases s with
    | nil => exact absurd rfl hne
    | cons c s =>
      simp only [List.flatMap_cons, List.cons_append, List.cons.injEq] at this
      exact absurd (this.1 ▸ List.mem_cons_self) h0

theorem hit_missing {i : InfoType} {o : Nat} {l : List (Prop × Failure)} (hi : InfoType.ofU8 k = i) (h4 : 4 ≤ o)
    (ho : o < d + 4) (hx : x ≠ 0) :
    Turns (missing ((plain k h d x).raw v) o :: l) (some (.rejected (.InvalidStringIndex i h x))) := by
  have hb := plain_byte (k := k) (h := h) (x := x) (v := v) h4 ho
  have hm : missing ((plain k h d x).raw v) o = (Dangling ((plain k h d x).raw v) o,
      .rejected (.InvalidStringIndex i h x)) := by
    rw [missing, hb, ← hi]
    rfl
  rw [hm]
  refine .hit fun str hr => ?_
  rw [Ref, hb] at hr
  rcases hr with ⟨h0, -⟩ | ⟨hp, l, rest, hl, hlen, -⟩
  · exact hx (UInt8.toNat.inj h0)
  · rw [no_strings hl] at hlen
    simp at hlen
    omega

theorem past_over {n : Nat} {l o} (hn : n ≤ d + 4) (ht : Turns l o) :
    Turns (overread ((plain k h d x).raw v) n :: l) o := .miss (fun hf => hf (plain_fits.2 hn)) ht

theorem past_cut {n : Nat} {l o} (hn : n ≤ d + 4) (ht : Turns l o) :
    Turns (cutAt ((plain k h d x).raw v) n :: l) o := .miss (fun hf => hf (plain_fits.2 hn)) ht

theorem past_wrong {c : Prop} {t : String} {n : UInt8} {l o} {s : RawStructure} (hc : ¬ c) (ht : Turns l o) :
    Turns (wrongLength s c t n :: l) o := .miss hc ht

theorem hit_wrong {i : InfoType} {c : Prop} {t : String} {n : UInt8} {l} (hi : InfoType.ofU8 k = i) (hc : c) :
    Turns (wrongLength ((plain k h d x).raw v) c t n :: l)
      (some (.rejected (.InvalidFormattedSectionLength i h t n))) := by
  subst hi
  exact .hit hc

theorem reported_options (h : UInt16) (x : UInt8) :
    ErrorReported oc v (.InvalidStringIndex .SystemConfigurationOptions h x) := by
  by_cases hx : x = 0
  · subst hx
    have hw : (⟨12, h, [0], [65, 0, 0]⟩ : Piece).WF := ⟨by show 5 < 256; decide, ends_cons (by decide) ends_nil⟩
    refine reported_piece _ hw (by show (12 : UInt8) ≠ 127; decide) (by show 3 ≤ 10; decide)
      (rejected_of (piece_coherent _ v hw) ?_)
    refine .miss (fun hf => hf (by show 5 ≤ 5; decide)) (.hit ?_)
    rintro ⟨l, ⟨rest, hl, hr⟩, hn⟩
    have : l = [] := List.eq_nil_of_length_eq_zero hn
    subst this
    exact hr [65] [0, 0] ⟨by decide, by decide, ['A'], by decide⟩ hl.1.symm
  · refine reported_plain 12 h 1 x (by decide) (by decide) ?_
    refine past_cut (by decide) ?_
    show Turns [(_, Failure.rejected (.InvalidStringIndex .SystemConfigurationOptions h
      (byte ((plain 12 h 1 x).raw v) 4)))] _
    rw [plain_byte (by decide) (by decide)]
    refine .hit ?_
    rintro ⟨l, ⟨rest, hl, -⟩, hn⟩
    rw [no_strings hl] at hn
    exact hx (UInt8.toNat.inj hn.symm)

theorem reported_lookup {i : InfoType} (hl : looksUp v i) (hx : x ≠ 0) :
    ErrorReported oc v (.InvalidStringIndex i h x) := by
  cases i <;> try (exact hl.elim)
  case Bios =>
    refine reported_plain 0 h 251 x (by decide) (by decide) (past_over ?_ (hit_missing rfl (by decide) (by decide) hx))
    unfold biosLength; split <;> try split
    all_goals decide
  case System =>
    refine reported_plain 1 h 251 x (by decide) (by decide) (past_over ?_ ?_)
    · unfold systemLength; split <;> try split
      all_goals decide
    · split <;> exact hit_missing rfl (by decide) (by decide) hx
  case BaseBoard =>
    exact reported_plain 2 h 251 x (by decide) (by decide)
      (past_over (by decide) (hit_missing rfl (by decide) (by decide) hx))
  case Enclosure =>
    exact reported_plain 3 h 251 x (by decide) (by decide)
      (past_wrong (fun hf => hf (plain_fits.2 (by decide))) (hit_missing rfl (by decide) (by decide) hx))
  case Processor =>
    refine reported_plain 4 h 251 x (by decide) (by decide) (past_over ?_ ?_)
    · unfold processorLength
      repeat' split
      all_goals decide
    · split <;> exact hit_missing rfl (by decide) (by decide) hx
  case Cache =>
    refine reported_plain 7 h 251 x (by decide) (by decide)
      (.miss (fun hn => hn hl) (past_over ?_ (hit_missing rfl (by decide) (by decide) hx)))
    unfold cacheReads; split <;> try split
    all_goals decide
  case PortConnector =>
    exact reported_plain 8 h 251 x (by decide) (by decide)
      (past_over (by decide) (hit_missing rfl (by decide) (by decide) hx))
  case SystemSlots =>
    have hm : From v 2 6 → From v 2 1 := by unfold From; omega
    have hm' : From v 3 2 → From v 2 6 := by unfold From; omega
    by_cases h6 : From v 2 6
    · exact reported_plain 9 h 13 x (by decide) (by decide)
        (past_wrong (fun hc => hc.2.1 (hm h6)) (past_wrong (fun hc => hc.2.1 h6)
          (past_wrong (fun hc => hc.2.2 (by rw [plain_length])) (past_wrong (fun hc => hc.2 (plain_fits.2 (by decide)))
            (past_cut (by decide) (hit_missing rfl (by decide) (by decide) hx))))))
    by_cases h1 : From v 2 1
    · exact reported_plain 9 h 9 x (by decide) (by decide)
        (past_wrong (fun hc => hc.2.1 h1) (past_wrong (fun hc => hc.2.2 (by rw [plain_length]))
          (past_wrong (fun hc => h6 hc.1) (past_wrong (fun hc => h6 (hm' hc.1))
            (past_cut (by decide) (hit_missing rfl (by decide) (by decide) hx))))))
    · exact reported_plain 9 h 8 x (by decide) (by decide)
        (past_wrong (fun hc => hc.2.2 (by rw [plain_length])) (past_wrong (fun hc => h1 hc.1)
          (past_wrong (fun hc => h6 hc.1) (past_wrong (fun hc => h6 (hm' hc.1))
            (past_cut (by decide) (hit_missing rfl (by decide) (by decide) hx))))))
  case GroupAssociations =>
    have hf : Fits ((plain 14 h 251 x).raw v) 5 := plain_fits.2 (by decide)
    exact reported_plain 14 h 251 x (by decide) (by decide)
      (.miss (fun hc => hc.2 hf) (past_wrong (fun hc => hc hf) (hit_missing rfl (by decide) (by decide) hx)))
  case MemoryDevice =>
    exact reported_plain 17 h 251 x (by decide) (by decide)
      (past_wrong (fun hc => hc (plain_fits.2 (by decide))) (hit_missing rfl (by decide) (by decide) hx))
  case PortableBattery =>
    by_cases h2 : From v 2 2
    · exact reported_plain 22 h 22 x (by decide) (by decide)
        (past_wrong (fun hc => by
            have hv : v = ⟨2, 1⟩ := hc.1
            subst hv
            revert h2; decide)
          (past_wrong (fun hc => hc.2 rfl) (past_cut (by decide) (hit_missing rfl (by decide) (by decide) hx))))
    · exact reported_plain 22 h 12 x (by decide) (by decide)
        (past_wrong (fun hc => hc.2 rfl)
          (past_wrong (fun hc => h2 hc.1) (past_cut (by decide) (hit_missing rfl (by decide) (by decide) hx))))

/-- An event log that announces `c` descriptors of one byte and has the bytes `r` behind the announcement. -/
def logOf (h : UInt16) (c : UInt8) (r : Bytes) : Piece := ⟨15, h, List.replicate 17 0 ++ c :: 1 :: r, [0, 0]⟩

theorem reported_log (h : UInt16) (hv : From v 2 1) (n : UInt8) :
    ErrorReported oc v (.InvalidFormattedSectionLength .SystemEventLog h "17h+(x*y) = " n) := by
  have key : ∀ (c : UInt8) (r : Bytes), r.length ≤ 1 → r.length ≠ c.toNat → UInt8.ofNat (0x17 + c.toNat * 1) = n →
      ErrorReported oc v (.InvalidFormattedSectionLength .SystemEventLog h "17h+(x*y) = " n) := by
    intro c r hr hc hn
    have hd : (logOf h c r).data.length = 19 + r.length := by simp [logOf]; omega
    have hw : (logOf h c r).WF := ⟨by rw [Piece.len, hd]; omega, ends_nil⟩
    refine reported_piece _ hw (by show (15 : UInt8) ≠ 127; decide) (by show 2 ≤ 10; decide)
      (rejected_of (piece_coherent _ v hw) ?_)
    have hl : ((logOf h c r).raw v).data.length = 19 + r.length := hd
    refine past_wrong (fun h => ?_) (past_wrong (fun h => h.2 (by unfold Fits; omega)) ?_)
    · have hv' : v = ⟨2, 0⟩ := h.1
      subst hv'
      revert hv; decide
    · have e1 : descriptorCount ((logOf h c r).raw v) = c.toNat := rfl
      have e2 : descriptorLength ((logOf h c r).raw v) = 1 := rfl
      rw [e1, e2, hn]
      refine .hit (p := Since _ 2 1 ∧ _) ⟨hv, ?_⟩
      rw [hl]
      omega
  have h0 : ∀ n : UInt8, UInt8.ofNat (0x17 + (n - 0x17).toNat * 1) = n :=
    forall_u8 (P := fun n => UInt8.ofNat (0x17 + (n - 0x17).toNat * 1) = n) (by decide +kernel)
  by_cases hc : (n - 0x17).toNat = 0
  · exact key (n - 0x17) [0] (by decide) (by rw [hc]; decide) (h0 n)
  · exact key (n - 0x17) [] (by decide) (fun e => hc e.symm) (h0 n)

theorem reported_length {i : InfoType} {t : String} {n : UInt8} (ha : asksFor oc v i t n) :
    ErrorReported oc v (.InvalidFormattedSectionLength i h t n) := by
  have short : ∀ {m : Nat}, 4 < m → ∀ {k}, ¬ Fits ((plain k h 0 0).raw v) m := by
    intro m hm k hf
    have := plain_fits.1 hf
    omega
  have m61 : From v 2 6 → From v 2 1 := by unfold From; omega
  have m26 : From v 3 2 → From v 2 6 := by unfold From; omega
  have m71 : From v 2 7 → From v 2 1 := by unfold From; omega
  cases i <;> try (exact ha.elim)
  case Enclosure =>
    obtain ⟨rfl, rfl⟩ := ha
    exact reported_plain 3 h 0 0 (by decide) (by decide) (hit_wrong rfl (short (by decide)))
  case SystemSlots =>
    rcases ha with ⟨a, b, rfl, rfl⟩ | ⟨a, b, rfl, rfl⟩ | ⟨a, b, rfl, rfl⟩ | ⟨a, rfl, rfl⟩ <;>
      refine reported_plain 9 h 0 0 (by decide) (by decide) ?_
    · exact hit_wrong rfl ⟨a, b, show 0 + 4 ≠ _ by decide⟩
    · exact past_wrong (fun hc => hc.2.1 a) (hit_wrong rfl ⟨a, b, show 0 + 4 ≠ _ by decide⟩)
    · exact past_wrong (fun hc => hc.2.1 (m61 a)) (past_wrong (fun hc => hc.2.1 a) (hit_wrong rfl ⟨a, b, show 0 + 4 ≠ _ by decide⟩))
    · exact past_wrong (fun hc => hc.2.1 (m61 (m26 a))) (past_wrong (fun hc => hc.2.1 (m26 a))
        (past_wrong (fun hc => hc.2.1 a) (hit_wrong rfl ⟨a, short (by decide)⟩)))
  case GroupAssociations =>
    obtain ⟨rfl, rfl, rfl⟩ := ha
    exact reported_plain 14 h 0 0 (by decide) (by decide)
      (.miss (fun hc => nomatch hc.1) (hit_wrong rfl (short (by decide))))
  case SystemEventLog =>
    have not20 : From v 2 1 → v ≠ ⟨2, 0⟩ := by
      rintro hf rfl
      revert hf; decide
    rcases ha with ⟨rfl, rfl, rfl⟩ | ⟨a, rfl, rfl⟩ | ⟨a, rfl⟩
    · exact reported_plain 15 h 0 0 (by decide) (by decide) (hit_wrong rfl ⟨rfl, show 0 + 4 ≠ _ by decide⟩)
    · exact reported_plain 15 h 0 0 (by decide) (by decide)
        (past_wrong (fun hc => not20 a hc.1) (hit_wrong rfl ⟨a, short (by decide)⟩))
    · exact reported_log h a n
  case MemoryDevice =>
    obtain ⟨rfl, rfl⟩ := ha
    exact reported_plain 17 h 0 0 (by decide) (by decide) (hit_wrong rfl (short (by decide)))
  case MemoryError32 =>
    obtain ⟨a, rfl, rfl⟩ := ha
    exact reported_plain 18 h 0 0 (by decide) (by decide) (hit_wrong rfl ⟨a, show (4 : UInt8) ≠ _ by decide⟩)
  case MemoryArrayMappedAddress =>
    rcases ha with ⟨a, b, rfl, rfl⟩ | ⟨a, rfl, rfl⟩ <;> refine reported_plain 19 h 0 0 (by decide) (by decide) ?_
    · exact hit_wrong rfl ⟨a, b, show (4 : UInt8) ≠ _ by decide⟩
    · exact past_wrong (fun hc => hc.2.1 a) (hit_wrong rfl ⟨a, show (4 : UInt8) ≠ _ by decide⟩)
  case MemoryDeviceMappedAddress =>
    rcases ha with ⟨a, b, rfl, rfl⟩ | ⟨a, rfl, rfl⟩ <;> refine reported_plain 20 h 0 0 (by decide) (by decide) ?_
    · exact hit_wrong rfl ⟨a, b, show (4 : UInt8) ≠ _ by decide⟩
    · exact past_wrong (fun hc => hc.2.1 a) (hit_wrong rfl ⟨a, show (4 : UInt8) ≠ _ by decide⟩)
  case BuiltInPointingDevice =>
    obtain ⟨a, rfl, rfl⟩ := ha
    exact reported_plain 21 h 0 0 (by decide) (by decide) (hit_wrong rfl ⟨a, show (4 : UInt8) ≠ _ by decide⟩)
  case PortableBattery =>
    rcases ha with ⟨rfl, rfl, rfl⟩ | ⟨a, rfl, rfl⟩ <;> refine reported_plain 22 h 0 0 (by decide) (by decide) ?_
    · exact hit_wrong rfl ⟨rfl, show (4 : UInt8) ≠ _ by decide⟩
    · refine past_wrong (fun hc => ?_) (hit_wrong rfl ⟨a, show (4 : UInt8) ≠ _ by decide⟩)
      have hv : v = ⟨2, 1⟩ := hc.1
      subst hv
      revert a; decide

end all

/-! ### The theorem -/

/-- C112: exactly these errors are reported by iterations over tables of version `v`. -/
theorem C112_errors (oc : Bool) (v : SmbiosVersion) (e : MalformedStructureError) :
    ErrorReported oc v e ↔ TableError oc v e := by
  constructor
  · rintro ⟨b, n, items, s', hb, hr, he⟩
    obtain ⟨all, stop, hrd⟩ := reading_exists oc v n b hb b.length 0 (by omega)
    obtain ⟨rest, rfl⟩ := runs_goes hr ((reading_iff oc v n b hb _ _).1 hrd)
    exact reading_error hb (.inl rfl) hrd (List.mem_append_left _ he)
  · intro h
    cases e with
    | BadSize o l =>
      obtain ⟨ho, hl⟩ := h
      refine table_reported ho (l := l) (o.toNat + 4) (by omega) (by omega) fun b hb => ?_
      have := Reading.size (oc := oc) (v := v) (n := o.toNat + 4) (b := b ++ [200, l, 0, 0]) (o := o.toNat) (l := l)
        (by simp [hb]) (header_byte hb) (by omega) (by omega)
      rwa [UInt32.ofNat_toNat] at this
    | UnterminatedStrings o =>
      refine table_reported h (l := 4) (o.toNat + 5) (by omega) (by omega) fun b hb => ?_
      have := Reading.strings (oc := oc) (v := v) (n := o.toNat + 5) (b := b ++ [200, 4, 0, 0]) (o := o.toNat)
        (l := 4) (by simp [hb]) (header_byte hb) (by omega) (by show _ + 4 < _; omega) (by show _ + 4 ≤ _; simp [hb])
        (by
          rintro ⟨x, y, hd⟩
          have := congrArg List.length hd
          simp [hb] at this)
      rwa [UInt32.ofNat_toNat] at this
    | InvalidStringIndex i h' x =>
      rcases h with ⟨hl, hx⟩ | rfl
      · exact reported_lookup hl hx
      · exact reported_options _ _
    | InvalidSlice =>
      exact reported_plain 12 0 0 0 (by decide) (by decide) (.hit (p := ¬ Fits _ 5) fun hf => by
        have := plain_fits.1 hf
        omega)
    | InvalidFormattedSectionLength i h' t n => exact reported_length h

/-! ### Examples -/

/-- A structure can begin at 6 but not at 5, so no error is about offset 5. -/
example : TableError true ⟨2, 8⟩ (.BadSize 6 4) ∧ ¬ TableError true ⟨2, 8⟩ (.BadSize 5 4) ∧
    ¬ TableError true ⟨2, 8⟩ (.BadSize 6 3) := by
  simp [TableError, Begins]

/-- The same type is asked for other lengths in other versions. -/
example : TableError false ⟨2, 0⟩ (.InvalidFormattedSectionLength .SystemSlots 9 "" 0x0C) ∧
    ¬ TableError false ⟨2, 8⟩ (.InvalidFormattedSectionLength .SystemSlots 9 "" 0x0C) := by
  constructor
  · exact .inl ⟨by decide, by decide, rfl, rfl⟩
  · rintro (h | h | h | h)
    · exact absurd h.2.1 (by decide)
    · exact absurd h.2.2.2 (by decide)
    · exact absurd h.2.2.2 (by decide)
    · exact absurd h.2.2 (by decide)

/-- No string is looked up for OEM strings and memory arrays. -/
example : ¬ TableError true ⟨3, 2⟩ (.InvalidStringIndex .OemStrings 1 1) ∧
    ¬ TableError true ⟨3, 2⟩ (.InvalidStringIndex .PhysicalMemoryArray 1 1) := by
  simp [TableError, looksUp]

end Dmi.Props
