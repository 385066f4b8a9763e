import Verif.Model.Compare
import Verif.Props.Eq
import Verif.Props.ContentTables
import Verif.Props.Reported4
/-!
# C84: comparing decoded structures compares what they hold

`Structure.eq` is Rust's `==`, put together from derived comparisons and three hand-written ones.
-/
namespace Dmi.Props
open Spec system_slots system_event_log enclosure

theorem chunks_ext {a b : Chunks} (h : a.rest = b.rest) (h' : a.size = b.size) : a = b := by
  cases a; cases b; cases h; cases h'; rfl

/-- Lists of whole records are equal iff they hold the same bytes cut in the same way. -/
theorem chunks_eq_whole {a b : Chunks} (ha : 0 < a.size) (hb : 0 < b.size)
    (da : a.size ∣ a.rest.length) (db : b.size ∣ b.rest.length) :
    a.eq b = true ↔ a = b ∨ (a.rest = [] ∧ b.rest = []) := by
  constructor
  · intro h
    obtain ⟨l, h1, h2⟩ := (chunks_eq_iff ha).1 h
    have hr : a.rest = b.rest := by rw [collects_flatten h1, collects_flatten h2]
    cases h1 with
    | done h1 =>
      have := (chunks_next_none h1).1
      exact .inr ⟨this, hr ▸ this⟩
    | step h1 _ =>
      cases h2 with
      | step h2 _ =>
        obtain ⟨n1, e1, -⟩ := chunks_next_some h1
        obtain ⟨n2, e2, -⟩ := chunks_next_some h2
        refine .inl (chunks_ext hr ?_)
        have l1 := Nat.le_of_dvd (List.length_pos_iff.2 n1) da
        have l2 := Nat.le_of_dvd (List.length_pos_iff.2 n2) db
        have := congrArg List.length (e1.symm.trans e2)
        rwa [List.length_take, List.length_take, Nat.min_eq_left l1, Nat.min_eq_left l2] at this
  · rintro (rfl | ⟨h1, h2⟩)
    · exact chunks_eq_refl ha
    · refine (chunks_eq_iff ha).2 ⟨[], .done (s' := a) ?_, .done (s' := b) ?_⟩
      · unfold Chunks.next; rw [h1]; rfl
      · unfold Chunks.next; rw [h2]; rfl

theorem optionEq_iff {α : Type} {eq : α → α → Bool} {P : α → α → Prop} {x y : Option α}
    (h : ∀ a b, x = some a → y = some b → (eq a b = true ↔ P a b)) :
    optionEq eq x y = true ↔ x = none ∧ y = none ∨ ∃ a b, x = some a ∧ y = some b ∧ P a b := by
  cases x <;> cases y <;> simp [optionEq]
  exact h _ _ rfl rfl

/-- Event logs that list no event types and agree in all else. The length of a descriptor, which
both have stored, describes nothing. -/
def SameEmptyLogs : Structure → Structure → Prop
  | .SystemEventLog a, .SystemEventLog b =>
    { a with supported_event_log_type_descriptors := none } =
      { b with supported_event_log_type_descriptors := none } ∧
    ∃ d e, a.supported_event_log_type_descriptors = some d ∧
      b.supported_event_log_type_descriptors = some e ∧ d.chunks.rest = [] ∧ e.chunks.rest = []
  | _, _ => False

theorem optionEq_eq {α : Type} {eq : α → α → Bool} {x y : Option α}
    (h : ∀ a b, x = some a → y = some b → (eq a b = true ↔ a = b)) :
    optionEq eq x y = true ↔ x = y := by
  cases x <;> cases y <;> simp [optionEq]
  exact h _ _ rfl rfl

theorem split_enclosure {a b : Enclosure} : a = b ↔
    { a with contained_elements := none } = { b with contained_elements := none } ∧
      a.contained_elements = b.contained_elements := by
  refine ⟨fun h => h ▸ ⟨rfl, rfl⟩, fun ⟨h, h'⟩ => ?_⟩
  cases a; cases b
  simp only [Enclosure.mk.injEq] at h h' ⊢
  simp only [h, h', and_self]
theorem split_slots {a b : SystemSlots} : a = b ↔
    { a with peer_devices := none } = { b with peer_devices := none } ∧
      a.peer_devices = b.peer_devices := by
  refine ⟨fun h => h ▸ ⟨rfl, rfl⟩, fun ⟨h, h'⟩ => ?_⟩
  cases a; cases b
  simp only [SystemSlots.mk.injEq] at h h' ⊢
  simp only [h, h', and_self]
theorem split_log {a b : SystemEventLog} : a = b ↔
    { a with supported_event_log_type_descriptors := none } =
      { b with supported_event_log_type_descriptors := none } ∧
      a.supported_event_log_type_descriptors = b.supported_event_log_type_descriptors := by
  refine ⟨fun h => h ▸ ⟨rfl, rfl⟩, fun ⟨h, h'⟩ => ?_⟩
  cases a; cases b
  simp only [SystemEventLog.mk.injEq] at h h' ⊢
  simp only [h, h', and_self]

theorem elements_size {n : Nat} {c l : UInt8} {v : Enclosure} (V : EnclosureValue n c l v)
    {a : ContainedElements} (ha : v.contained_elements = some a) : 0 < a.chunks.size ∧
    a.chunks.size = if a.count.toNat = 0 ∨ a.record_length.toNat = 0 then 2 ^ 64 - 1
      else a.record_length.toNat := by
  obtain ⟨rfl, rfl, h⟩ := V.contained_elements.2 a ha
  split at h
  · rename_i hc
    rw [if_pos hc, h]
    exact ⟨by decide, rfl⟩
  · rename_i hc
    rw [if_neg hc, h.1]
    exact ⟨by omega, rfl⟩

theorem enclosure_eq {oc oc' : Bool} {ver ver' : SmbiosVersion} {a b : Enclosure}
    (ha : ReportedAt oc ver (.Enclosure a)) (hb : ReportedAt oc' ver' (.Enclosure b)) :
    a.eq b = true ↔ a = b := by
  obtain ⟨n, c, l, -, -, -, V⟩ := (C82_enclosure ..).1 ha
  obtain ⟨n', c', l', -, -, -, V'⟩ := (C82_enclosure ..).1 hb
  unfold Enclosure.eq
  rw [Bool.and_eq_true, decide_eq_true_iff, split_enclosure (a := a), optionEq_eq]
  intro x y hx hy
  obtain ⟨px, sx⟩ := elements_size V hx
  obtain ⟨py, sy⟩ := elements_size V' hy
  unfold ContainedElements.eq
  rw [Bool.and_eq_true, Bool.and_eq_true, beq_iff_eq, beq_iff_eq]
  constructor
  · rintro ⟨⟨h1, h2⟩, h3⟩
    have hs : x.chunks.size = y.chunks.size := by rw [sx, sy, h2, h3]
    have := chunks_ext ((chunks_eq_rest px hs).1 h1) hs
    cases x; cases y
    simp only at this h2 h3
    rw [this, h2, h3]
  · rintro rfl
    exact ⟨⟨chunks_eq_refl px, rfl⟩, rfl⟩

theorem slots_eq {oc oc' : Bool} {ver ver' : SmbiosVersion} {a b : SystemSlots}
    (ha : ReportedAt oc ver (.SystemSlots a)) (hb : ReportedAt oc' ver' (.SystemSlots b)) :
    a.eq b = true ↔ a = b := by
  obtain ⟨n, k, -, -, -, -, -, -, -, -, V⟩ := (C82_slots ..).1 ha
  obtain ⟨n', k', -, -, -, -, -, -, -, -, V'⟩ := (C82_slots ..).1 hb
  unfold SystemSlots.eq
  rw [Bool.and_eq_true, decide_eq_true_iff, split_slots (a := a), optionEq_eq]
  intro x y hx hy
  have sx := (V.peer_devices.2 x hx).1
  have sy := (V'.peer_devices.2 y hy).1
  unfold PeerDevices.eq
  rw [chunks_eq_rest (by omega) (by rw [sx, sy])]
  constructor
  · intro h
    have := chunks_ext h (sx.trans sy.symm)
    cases x; cases y
    simp only at this
    rw [this]
  · rintro rfl
    rfl

theorem log_eq {oc oc' : Bool} {ver ver' : SmbiosVersion} {a b : SystemEventLog}
    (ha : ReportedAt oc ver (.SystemEventLog a)) (hb : ReportedAt oc' ver' (.SystemEventLog b)) :
    a.eq b = true ↔ a = b ∨ SameEmptyLogs (.SystemEventLog a) (.SystemEventLog b) := by
  have V := ((C82_event_log ..).1 ha).descriptors
  have V' := ((C82_event_log ..).1 hb).descriptors
  have key : optionEq SupportedEventLogTypeDescriptors.eq a.supported_event_log_type_descriptors
      b.supported_event_log_type_descriptors = true ↔
      a.supported_event_log_type_descriptors = b.supported_event_log_type_descriptors ∨
      ∃ d e, a.supported_event_log_type_descriptors = some d ∧
        b.supported_event_log_type_descriptors = some e ∧ d.chunks.rest = [] ∧ e.chunks.rest = [] := by
    cases hx : a.supported_event_log_type_descriptors <;>
      cases hy : b.supported_event_log_type_descriptors <;> simp [optionEq]
    obtain ⟨p1, -, p3, -⟩ := V _ hx
    obtain ⟨q1, -, q3, -⟩ := V' _ hy
    unfold SupportedEventLogTypeDescriptors.eq
    rw [chunks_eq_whole p1 q1 p3 q3]
    refine or_congr_left ⟨fun h => ?_, fun h => by rw [h]⟩
    rename_i x y
    cases x; cases y
    simp only at h
    rw [h]
  unfold SystemEventLog.eq SameEmptyLogs
  rw [Bool.and_eq_true, decide_eq_true_iff, split_log (a := a), key, and_or_left]

/-- C84: two reported values are equal exactly if they hold the same, where the length of a
descriptor does not count for an event log without descriptors. -/
theorem C84_equality {oc oc' : Bool} {ver ver' : SmbiosVersion} {v w : Structure}
    (hv : ReportedAt oc ver v) (hw : ReportedAt oc' ver' w) :
    v.eq w = true ↔ v = w ∨ SameEmptyLogs v w := by
  cases v <;> cases w <;>
    first
    | (simp [Structure.eq, SameEmptyLogs]; done)
    | skip
  · simp only [Structure.eq, SameEmptyLogs, or_false, enclosure_eq hv hw, Structure.Enclosure.injEq]
  · simp only [Structure.eq, SameEmptyLogs, or_false, slots_eq hv hw, Structure.SystemSlots.injEq]
  · simp only [Structure.eq, log_eq hv hw, Structure.SystemEventLog.injEq]

theorem sameEmpty_symm {v w : Structure} (h : SameEmptyLogs v w) : SameEmptyLogs w v := by
  cases v <;> cases w <;> first | exact h.elim | skip
  obtain ⟨h1, d, e, h2, h3, h4, h5⟩ := h
  exact ⟨h1.symm, e, d, h3, h2, h5, h4⟩
theorem sameEmpty_trans {u v w : Structure} (h : SameEmptyLogs u v) (h' : SameEmptyLogs v w) :
    SameEmptyLogs u w := by
  cases u <;> cases v <;> first | exact h.elim | skip
  cases w <;> first | exact h'.elim | skip
  obtain ⟨h1, d, -, h2, -, h4, -⟩ := h
  obtain ⟨k1, -, e, -, k3, -, k5⟩ := h'
  exact ⟨h1.trans k1, d, e, h2, k3, h4, k5⟩

/-- C84: comparison is an equivalence, and equal values are hashed alike. -/
theorem C84_laws {oc oc' oc'' : Bool} {ver ver' ver'' : SmbiosVersion} {u v w : Structure}
    (hu : ReportedAt oc ver u) (hv : ReportedAt oc' ver' v) (hw : ReportedAt oc'' ver'' w) :
    u.eq u = true ∧ (u.eq v = true → v.eq u = true) ∧
    (u.eq v = true → v.eq w = true → u.eq w = true) ∧
    (u.eq v = true → ∀ before after, u.hash before after = v.hash before after) := by
  refine ⟨(C84_equality hu hu).2 (.inl rfl), fun h => ?_, fun h h' => ?_, fun h before after => ?_⟩
  · refine (C84_equality hv hu).2 ?_
    obtain rfl | h := (C84_equality hu hv).1 h
    · exact .inl rfl
    · exact .inr (sameEmpty_symm h)
  · refine (C84_equality hu hw).2 ?_
    obtain rfl | h := (C84_equality hu hv).1 h
    · exact (C84_equality hv hw).1 h'
    · obtain rfl | h' := (C84_equality hv hw).1 h'
      · exact .inr h
      · exact .inr (sameEmpty_trans h h')
  · obtain rfl | h := (C84_equality hu hv).1 h
    · rfl
    · cases u <;> cases v <;> first | exact h.elim | skip
      obtain ⟨h1, d, e, h2, h3, h4, h5⟩ := h
      obtain ⟨⟨r, n⟩⟩ := d
      obtain ⟨⟨r', n'⟩⟩ := e
      simp only at h4 h5
      subst h4 h5
      simp only [Structure.hash, h1, h2, h3]
      rfl

/-- C84: of structures in tables of whatever versions, compared by what is stored in them. -/
theorem C84_bytes (oc : Bool) (ver ver' : SmbiosVersion) (p p' : Piece) (hp : p.WF) (hp' : p'.WF)
    (hx : p.kind = 16 → From ver 2 2 ∧ From ver' 2 2)
    (v v' : Structure) (hl : ∀ a d, v = .SystemEventLog a →
      a.supported_event_log_type_descriptors = some d → d.chunks.rest ≠ [])
    (h : decodeStructure oc (p.raw ver) = .ok v) (h' : decodeStructure oc (p'.raw ver') = .ok v') :
    v.eq v' = true ↔ KeptAlike ver ver' p p' v v' := by
  rw [C84_equality ⟨p, hp, h⟩ ⟨p', hp', h'⟩]
  refine Iff.trans ⟨?_, .inl⟩ (C76_any_types oc ver ver' p p' hp hp' hx v v' h h')
  rintro (h | h)
  · exact h
  · cases v <;> cases v' <;> first | exact h.elim | skip
    obtain ⟨-, d, -, h2, -, h4, -⟩ := h
    exact absurd h4 (hl _ _ rfl h2)

/-! ### Examples -/

/-- An event log with `n` descriptors of length `m`. -/
def logPiece (n m : UInt8) (rest : Bytes) : Piece :=
  ⟨15, 0, [0, 2, 0, 0, 0x10, 0, 4, 1, 0, 0, 0, 0, 1, 0, 0, 0, 1, n, m] ++ rest, [0, 0]⟩

/-- What `==` says of two decoded structures. -/
def compared (p q : Piece) : Option Bool :=
  match decodeStructure true (p.raw ⟨3, 4⟩), decodeStructure true (q.raw ⟨3, 4⟩) with
  | .ok v, .ok w => some (v.eq w)
  | _, _ => none

/-- The length of descriptors that are not there does not count; both values are reported, and they
are not the same. -/
example : compared (logPiece 0 2 []) (logPiece 0 3 []) = some true ∧
    decodeStructure true ((logPiece 0 2 []).raw ⟨3, 4⟩) ≠
      decodeStructure true ((logPiece 0 3 []).raw ⟨3, 4⟩) ∧
    (logPiece 0 2 []).WF ∧ (logPiece 0 3 []).WF :=
  ⟨by decide +kernel, by decide +kernel, plain_wf (by decide), plain_wf (by decide)⟩

/-- That of descriptors that are there does. -/
example : compared (logPiece 3 2 [1, 0, 8, 4, 9, 0]) (logPiece 2 3 [1, 0, 8, 4, 9, 0]) = some false ∧
    compared (logPiece 3 2 [1, 0, 8, 4, 9, 0]) (logPiece 3 2 [1, 0, 8, 4, 9, 0]) = some true := by
  decide +kernel

/-- A chassis with one contained element. -/
def elementPiece (x : UInt8) : Piece :=
  ⟨3, 0, [0, 3, 0, 0, 0, 3, 3, 3, 3, 0, 0, 0, 0, 0, 1, 1, 3, 0x0A, 1, x, 0], [0, 0]⟩

/-- Its bytes are compared. -/
example : compared (elementPiece 1) (elementPiece 2) = some false ∧
    compared (elementPiece 1) (elementPiece 1) = some true := by
  decide +kernel

example : ∃ v, decodeStructure true ((elementPiece 1).raw ⟨3, 4⟩) = .ok v ∧
    ∀ a d, v = .SystemEventLog a → a.supported_event_log_type_descriptors = some d →
      d.chunks.rest ≠ [] := by
  obtain ⟨v, h1, h2⟩ := exists_ok (show (decodeStructure true ((elementPiece 1).raw ⟨3, 4⟩)).okAnd
    (fun | .Enclosure _ => true | _ => false) = true by decide +kernel)
  exact ⟨v, h1, by rintro a d rfl; cases h2⟩

example : (elementPiece 1).WF ∧ (elementPiece 2).WF :=
  ⟨plain_wf (by decide), plain_wf (by decide)⟩

end Dmi.Props
