import Verif.Props.Usable
/-!
# C81: iterators that have ended stay ended
-/
namespace Dmi.Props
open Spec

/-- `n` calls return `None`. -/
def Ended {σ α : Type} (next : σ → Fault (Option α × σ)) : Nat → σ → Prop
  | 0, _ => True
  | n + 1, s => ∃ s', next s = .ok (none, s') ∧ Ended next n s'

/-- Whenever, after any number of items, the iterator returns `None`, all later calls return `None` as well. -/
def Fused {σ α : Type} (next : σ → Fault (Option α × σ)) (s : σ) : Prop :=
  ∀ items st st', Spec.Yields next s items st → next st = .ok (none, st') → ∀ n, Ended next n st'

/-- The same for iterators that cannot fault. -/
def FusedP {σ α : Type} (next : σ → Option α × σ) (s : σ) : Prop := Fused (fun s => .ok (next s)) s

/-- The three iterators over a bit field. -/
def BitsFused {α : Type} [BitField α] (oc : Bool) (a : α) : Prop :=
  Fused (bitfield.Iter.next oc) (BitField.iter a) ∧
  Fused (bitfield.Significants.next oc) (BitField.significants a) ∧
  Fused (bitfield.Reserved.next oc) (BitField.reserved a)

/-- Every iterator the value contains stays ended. -/
def StaysEnded (oc : Bool) : Structure → Prop
  | .Bios v => BitsFused oc v.bios_characteristics ∧
      (∀ x, v.bios_characteristics_exttension_1 = some x → BitsFused oc x) ∧
      ∀ x, v.bios_characteristics_exttension_2 = some x → BitsFused oc x
  | .Enclosure v => ∀ c, v.contained_elements = some c → Fused enclosure.ContainedElements.next c
  | .SystemSlots v => BitsFused oc v.slot_characteristics_1 ∧
      (∀ x, v.slot_characteristics_2 = some x → BitsFused oc x) ∧
      ∀ p, v.peer_devices = some p → Fused system_slots.PeerDevices.next p
  | .OemStrings v => FusedP StructureStrings.next v.strings
  | .SystemConfigurationOptions v => FusedP StructureStrings.next v.strings
  | .BiosLanguage v => Fused (bios_language.InstallableLanguages.next oc) v.installable_languages ∧
      ∀ x, v.flags = some x → BitsFused oc x
  | .GroupAssociations v => FusedP group_associations.GroupItems.next v.items
  | .SystemEventLog v => BitsFused oc v.log_status ∧
      ∀ d, v.supported_event_log_type_descriptors = some d →
        FusedP system_event_log.SupportedEventLogTypeDescriptors.next d
  | _ => True

/-- C81, full statement. -/
def C81_full : Prop :=
  ∀ (oc : Bool) (s : RawStructure) (v : Structure), decodeStructure oc s = .ok v → StaysEnded oc v

/-- Segments of a string area: not empty, without NUL. -/
def Segments (l : List Bytes) : Prop := ∀ x ∈ l, x ≠ [] ∧ (0 : UInt8) ∉ x

/-- Among the segments up to the first empty one there is a string. -/
def HasGood (b : Bytes) : Prop :=
  ∃ l y rest, b = l.flatMap (· ++ [0]) ++ (y ++ [0] ++ rest) ∧ Segments l ∧ GoodStr y

/-- Among the segments up to the first empty one there is one that is not UTF-8, and after it a string. -/
def GoesOn (b : Bytes) : Prop :=
  ∃ l x rest, b = l.flatMap (· ++ [0]) ++ (x ++ [0] ++ rest) ∧ Segments l ∧ x ≠ [] ∧ (0 : UInt8) ∉ x ∧
    ¬ IsText x ∧ HasGood rest

/-- Structures whose iterators resume: strings behind one that is not UTF-8; and all BIOS languages that end. -/
def Resumes (oc : Bool) (s : RawStructure) : Prop :=
  match s.info with
  | .OemStrings => GoesOn (s.strings ++ [0])
  | .SystemConfigurationOptions => GoesOn (s.strings ++ [0])
  | .BiosLanguage => ∃ l, IsStringList s.strings l ∧ l.length < if oc then 254 else 255
  | _ => False

/-! ### Lemmas -/

section
variable {σ α : Type} {next : σ → Fault (Option α × σ)} {s s' : σ} {a : α}

theorem ended_fix (h : next s = .ok (none, s)) : ∀ n, Ended next n s
  | 0 => trivial
  | n + 1 => ⟨s, h, ended_fix h n⟩

theorem ended_none (h : next s = .ok (none, s')) : (∀ n, Ended next n s) ↔ ∀ n, Ended next n s' := by
  constructor
  · intro hn n
    obtain ⟨t, ht, h'⟩ := hn (n + 1)
    rw [h] at ht
    cases ht
    exact h'
  · rintro hn (_ | n)
    · trivial
    · exact ⟨s', h, hn n⟩

theorem ended_some (h : next s = .ok (some a, s')) : ¬ ∀ n, Ended next n s := by
  intro hn
  obtain ⟨t, ht, -⟩ := hn 1
  rw [h] at ht
  cases ht

theorem fused_step (h : next s = .ok (some a, s')) : Fused next s ↔ Fused next s' := by
  constructor
  · intro hf items st st' hy hn
    exact hf (a :: items) st st' (.cons h hy) hn
  · intro hf items st st' hy hn
    cases hy with
    | nil => rw [h] at hn; cases hn
    | cons h' t =>
      rw [h] at h'
      cases h'
      exact hf _ st st' t hn

theorem fused_none (h : next s = .ok (none, s')) : Fused next s ↔ ∀ n, Ended next n s' := by
  constructor
  · intro hf
    exact hf [] s s' .nil h
  · intro hn items st st' hy hst
    cases hy with
    | nil => rw [h] at hst; cases hst; exact hn
    | cons h' t => rw [h] at h'; cases h'

theorem fused_fault (h : ∀ x, next s ≠ .ok x) : Fused next s := by
  intro items st st' hy hst
  cases hy with
  | nil => exact absurd hst (h _)
  | cons h' t => exact absurd h' (h _)

/-- An iterator that does not change its state when it ends. -/
theorem fused_of_fix (h : ∀ s s', next s = .ok (none, s') → next s' = .ok (none, s')) (s : σ) :
    Fused next s := fun _ _ _ _ hn => ended_fix (h _ _ hn)

end

theorem iter_fix (oc : Bool) (s s' : bitfield.Iter) (h : s.next oc = .ok (none, s')) :
    s' = s ∧ s.index = s.width := by
  unfold bitfield.Iter.next at h
  split at h
  · rename_i he
    cases h
    exact ⟨rfl, he⟩
  · simp only [bind_ok_iff] at h
    obtain ⟨_, _, _, _, h⟩ := h
    split at h <;> cases h

theorem significants_fix (oc : Bool) (s s' : bitfield.Iter)
    (h : bitfield.Significants.next oc s = .ok (none, s')) :
    bitfield.Significants.next oc s' = .ok (none, s') := by
  have key : ∀ fuel s, bitfield.significantsLoop oc fuel s = .ok (none, s') → s'.index = s'.width := by
    intro fuel
    induction fuel with
    | zero => intro s h; cases h
    | succ fuel ih =>
      intro s h
      unfold bitfield.significantsLoop at h
      simp only [bind_ok_iff] at h
      obtain ⟨⟨o, t⟩, h1, h⟩ := h
      cases o with
      | none =>
        cases h
        obtain ⟨rfl, h2⟩ := iter_fix oc _ _ h1
        exact h2
      | some f =>
        dsimp only at h
        split at h
        · exact ih t h
        · cases h
  have he := key _ _ h
  unfold bitfield.Significants.next
  rw [he, Nat.sub_self]
  unfold bitfield.significantsLoop
  rw [Iter.next_end oc s' he]
  rfl

theorem reserved_fix (oc : Bool) (s s' : bitfield.Reserved)
    (h : bitfield.Reserved.next oc s = .ok (none, s')) :
    bitfield.Reserved.next oc s' = .ok (none, s') := by
  have key : ∀ fuel s e, bitfield.reservedLoop oc fuel s e = .ok (none, s') →
      s'.iter.index = s'.iter.width ∧ s'.desc = none := by
    intro fuel
    induction fuel with
    | zero => intro s e h; cases h
    | succ fuel ih =>
      intro s e h
      unfold bitfield.reservedLoop at h
      simp only [bind_ok_iff] at h
      obtain ⟨⟨o, t⟩, h1, h⟩ := h
      cases o with
      | none =>
        dsimp only at h
        split at h
        · cases h
        · rename_i hd
          cases h
          obtain ⟨rfl, h2⟩ := iter_fix oc _ _ h1
          exact ⟨h2, hd⟩
      | some f =>
        dsimp only at h
        split at h
        · split at h
          · cases h
          · exact ih _ _ h
        · exact ih _ _ h
        · cases h
        · exact ih _ _ h
  obtain ⟨he, hd⟩ := key _ _ _ h
  unfold bitfield.Reserved.next
  rw [he, Nat.sub_self]
  unfold bitfield.reservedLoop
  rw [Iter.next_end oc s'.iter he]
  simp only [ok_bind, hd]
  obtain ⟨it, d, st⟩ := s'
  cases hd
  rfl

theorem bits_fused {α : Type} [BitField α] (oc : Bool) (a : α) : BitsFused oc a := by
  refine ⟨fused_of_fix (fun s s' h => ?_) _, fused_of_fix (significants_fix oc) _,
    fused_of_fix (reserved_fix oc) _⟩
  obtain ⟨rfl, he⟩ := iter_fix oc s s' h
  exact Iter.next_end oc _ he

theorem chunks_fix {c c' : Chunks} (h : c.next = (none, c')) : c' = c := by
  unfold Chunks.next at h
  split at h <;> cases h
  rfl

theorem elements_fused (c : enclosure.ContainedElements) : Fused enclosure.ContainedElements.next c := by
  refine fused_of_fix (fun s s' h => ?_) c
  have : s' = s := by
    unfold enclosure.ContainedElements.next at h
    split at h
    · rename_i hc
      cases h
      rw [chunks_fix hc]
    · simp only [bind_ok_iff] at h
      obtain ⟨_, _, h⟩ := h
      cases h
  rw [this] at h ⊢
  exact h

theorem peers_fused (p : system_slots.PeerDevices) : Fused system_slots.PeerDevices.next p := by
  refine fused_of_fix (fun s s' h => ?_) p
  have : s' = s := by
    unfold system_slots.PeerDevices.next at h
    split at h
    · rename_i hc
      cases h
      rw [chunks_fix hc]
    · simp only [bind_ok_iff] at h
      obtain ⟨_, _, h⟩ := h
      cases h
  rw [this] at h ⊢
  exact h

theorem groups_fused (g : group_associations.GroupItems) :
    FusedP group_associations.GroupItems.next g := by
  refine fused_of_fix (fun s s' h => ?_) g
  have h : s.next = (none, s') := Res.ok.inj h
  have : s' = s := by
    by_cases hf : s.index + 3 ≤ s.data.length
    · exfalso
      have hlen : ((s.data.drop s.index).take 3).length = 3 := by
        rw [List.length_take, List.length_drop]; omega
      unfold group_associations.GroupItems.next getRange at h
      dsimp only at h
      rw [if_pos (by omega), Nat.add_sub_cancel_left] at h
      match hm : (s.data.drop s.index).take 3, hlen with
      | [x, y, z], _ =>
        rw [hm] at h
        cases h
    · unfold group_associations.GroupItems.next getRange at h
      dsimp only at h
      rw [if_neg (by omega)] at h
      cases h
      rfl
  rw [this] at h ⊢
  rw [h]

/-! ### Strings -/

theorem next_segment (st : StructureStrings) (x r : Bytes) (h : st.left = x ++ [0] ++ r)
    (hx : (0 : UInt8) ∉ x) :
    (x = [] → st.next = (none, st)) ∧
    (x ≠ [] → st.next = (fromUtf8 x, { st with start := st.start + (x.length + 1) }) ∧
      StructureStrings.left { st with start := st.start + (x.length + 1) } = r) := by
  have hlen := congrArg List.length h
  simp only [StructureStrings.left, List.length_drop, List.length_append, List.length_cons,
    List.length_nil] at hlen
  have hs : st.start ≤ st.bytes.length := by omega
  have hg : getFrom st.bytes st.start = some (st.bytes.drop st.start) := by
    unfold getFrom
    rw [if_pos hs]
  have hl : st.left = st.bytes.drop st.start ++ [0] := by
    unfold StructureStrings.left
    rw [List.drop_append_of_le_length hs]
  have hb : beforeNul (st.bytes.drop st.start) = x := by
    have := beforeNul_split (st.bytes.drop st.start)
    rw [← hl, h] at this
    exact (zero_split_unique hx (beforeNul_no_zero _) this).1.symm
  unfold StructureStrings.next
  rw [hg]
  simp only [hb]
  constructor
  · rintro rfl
    rfl
  · intro hne
    rw [if_neg (by simpa using hne)]
    refine ⟨rfl, ?_⟩
    show (st.bytes ++ [0]).drop (st.start + (x.length + 1)) = r
    rw [← List.drop_drop]
    have : (st.bytes ++ [0]).drop st.start = x ++ [0] ++ r := h
    rw [this]
    simp

theorem flat_cases {l : List Bytes} {x y r r' : Bytes} (hx : x ≠ [] ∧ (0 : UInt8) ∉ x)
    (hl : Segments l) (hy : (0 : UInt8) ∉ y)
    (h : x ++ [0] ++ r = l.flatMap (· ++ [0]) ++ (y ++ [0] ++ r')) :
    (l = [] ∧ x = y ∧ r = r') ∨ ∃ l', l = x :: l' ∧ r = l'.flatMap (· ++ [0]) ++ (y ++ [0] ++ r') := by
  cases l with
  | nil =>
    obtain ⟨h1, h2⟩ := zero_split_unique hx.2 hy (by simpa using h)
    exact .inl ⟨rfl, h1, h2⟩
  | cons z l =>
    rw [List.flatMap_cons, List.append_assoc (z ++ [0])] at h
    obtain ⟨h1, h2⟩ := zero_split_unique hx.2 (hl z (by simp)).2 h
    exact .inr ⟨l, by rw [h1], h2⟩

theorem hasGood_cons {x r : Bytes} (hx : x ≠ [] ∧ (0 : UInt8) ∉ x) :
    HasGood (x ++ [0] ++ r) ↔ IsText x ∨ HasGood r := by
  constructor
  · rintro ⟨l, y, rest, h, hl, hy⟩
    rcases flat_cases hx hl hy.2.1 h with ⟨-, rfl, -⟩ | ⟨l', rfl, h'⟩
    · exact .inl hy.2.2
    · exact .inr ⟨l', y, rest, h', fun z hz => hl z (by simp [hz]), hy⟩
  · rintro (h | ⟨l, y, rest, rfl, hl, hy⟩)
    · exact ⟨[], x, r, by simp, by simp [Segments], hx.1, hx.2, h⟩
    · refine ⟨x :: l, y, rest, by simp, ?_, hy⟩
      intro z hz
      rcases List.mem_cons.1 hz with rfl | hz
      · exact hx
      · exact hl z hz

theorem goesOn_cons {x r : Bytes} (hx : x ≠ [] ∧ (0 : UInt8) ∉ x) :
    GoesOn (x ++ [0] ++ r) ↔ (IsText x ∧ GoesOn r) ∨ (¬ IsText x ∧ HasGood r) := by
  constructor
  · rintro ⟨l, y, rest, h, hl, hy1, hy2, hy3, hg⟩
    rcases flat_cases hx hl hy2 h with ⟨-, rfl, rfl⟩ | ⟨l', rfl, h'⟩
    · exact .inr ⟨hy3, hg⟩
    · have hl' : Segments l' := fun z hz => hl z (by simp [hz])
      by_cases ht : IsText x
      · exact .inl ⟨ht, l', y, rest, h', hl', hy1, hy2, hy3, hg⟩
      · obtain ⟨m, z, q, rfl, hm, hz⟩ := hg
        refine .inr ⟨ht, l' ++ y :: m, z, q, by rw [h']; simp, ?_, hz⟩
        intro w hw
        rcases List.mem_append.1 hw with hw | hw
        · exact hl' w hw
        · rcases List.mem_cons.1 hw with rfl | hw
          · exact ⟨hy1, hy2⟩
          · exact hm w hw
  · rintro (⟨-, l, y, rest, rfl, hl, hy⟩ | ⟨ht, hg⟩)
    · refine ⟨x :: l, y, rest, by simp, ?_, hy⟩
      intro z hz
      rcases List.mem_cons.1 hz with rfl | hz
      · exact hx
      · exact hl z hz
    · exact ⟨[], x, r, by simp, by simp [Segments], hx.1, hx.2, ht, hg⟩

theorem no_good_end {b : Bytes} (h : b = [] ∨ ∃ r, b = 0 :: r) : ¬ HasGood b ∧ ¬ GoesOn b := by
  have key : ∀ (l : List Bytes) (y rest : Bytes), b = l.flatMap (· ++ [0]) ++ (y ++ [0] ++ rest) →
      Segments l → y ≠ [] → (0 : UInt8) ∉ y → False := by
    intro l y rest hb hl hy h0
    have first : ∀ (z q : Bytes), b = z ++ q → z ≠ [] → (0 : UInt8) ∉ z → False := by
      intro z q hb hz h0
      cases z with
      | nil => exact hz rfl
      | cons c z =>
        rcases h with rfl | ⟨r, rfl⟩
        · cases hb
        · cases hb
          simp at h0
    cases l with
    | nil => exact first y ([0] ++ rest) (by simpa using hb) hy h0
    | cons z l =>
      obtain ⟨h1, h2⟩ := hl z (by simp)
      exact first z ([0] ++ (l.flatMap (· ++ [0]) ++ (y ++ [0] ++ rest)))
        (by rw [hb, List.flatMap_cons]; simp only [List.append_assoc]) h1 h2
  constructor
  · rintro ⟨l, y, rest, hb, hl, hy⟩
    exact key l y rest hb hl hy.1 hy.2.1
  · rintro ⟨l, y, rest, hb, hl, hy1, hy2, -⟩
    exact key l y rest hb hl hy1 hy2

theorem strings_fused : ∀ (k : Nat) (st : StructureStrings), st.left.length ≤ k →
    ((∀ n, Ended (fun s => .ok (StructureStrings.next s)) n st) ↔ ¬ HasGood st.left) ∧
    (FusedP StructureStrings.next st ↔ ¬ GoesOn st.left) := by
  intro k
  induction k with
  | zero =>
    intro st hk
    have hl : st.left = [] := List.eq_nil_of_length_eq_zero (by omega)
    have hn : st.next = (none, st) := by
      have hs : ¬ st.start ≤ st.bytes.length := by
        unfold StructureStrings.left at hl
        rw [List.drop_eq_nil_iff] at hl
        simp at hl
        omega
      unfold StructureStrings.next getFrom
      rw [if_neg hs]
    have he := ended_fix (next := fun s => (.ok (StructureStrings.next s) : Fault _)) (s := st) (by rw [hn])
    obtain ⟨h1, h2⟩ := no_good_end (b := st.left) (.inl hl)
    exact ⟨⟨fun _ => h1, fun _ => he⟩, ⟨fun _ => h2, fun _ => (fused_none (by rw [hn])).2 he⟩⟩
  | succ k ih =>
    intro st hk
    by_cases hl : st.left = []
    · exact ih st (by rw [hl]; exact Nat.zero_le _)
    have hs : st.start ≤ st.bytes.length := by
      refine Classical.byContradiction fun hs => hl ?_
      unfold StructureStrings.left
      rw [List.drop_eq_nil_iff]
      simp
      omega
    have hle : st.left = st.bytes.drop st.start ++ [0] := by
      unfold StructureStrings.left
      rw [List.drop_append_of_le_length hs]
    have hsp := beforeNul_split (st.bytes.drop st.start)
    have h0 := beforeNul_no_zero (st.bytes.drop st.start)
    rw [← hle] at hsp
    revert hsp h0
    generalize beforeNul (st.bytes.drop st.start) = x
    generalize (List.drop (x.length + 1) st.left) = r
    intro hsp h0
    obtain ⟨n1, n2⟩ := next_segment st x r hsp h0
    by_cases hx : x = []
    · have hn := n1 hx
      subst hx
      have he := ended_fix (next := fun s => (.ok (StructureStrings.next s) : Fault _)) (s := st) (by rw [hn])
      obtain ⟨h1, h2⟩ := no_good_end (b := st.left) (.inr ⟨r, hsp⟩)
      exact ⟨⟨fun _ => h1, fun _ => he⟩, ⟨fun _ => h2, fun _ => (fused_none (by rw [hn])).2 he⟩⟩
    · obtain ⟨hn, hr⟩ := n2 hx
      obtain ⟨i1, i2⟩ := ih { st with start := st.start + (x.length + 1) } (by
        rw [hr]
        rw [hsp] at hk
        simp only [List.length_append, List.length_cons, List.length_nil] at hk
        omega)
      rw [hr] at i1 i2
      rw [hsp, hasGood_cons ⟨hx, h0⟩, goesOn_cons ⟨hx, h0⟩]
      by_cases ht : IsText x
      · have hn' : (fun s => (.ok (StructureStrings.next s) : Fault _)) st =
            .ok (some x, { st with start := st.start + (x.length + 1) }) := by
          show Res.ok (StructureStrings.next st) = _
          rw [hn, (fromUtf8_eq_some x x).2 ⟨rfl, ht⟩]
        refine ⟨⟨fun h => absurd h (ended_some hn'), fun h => absurd (.inl ht) h⟩, ?_⟩
        refine (fused_step hn').trans (i2.trans ?_)
        simp only [ht, true_and, not_true, false_and, or_false]
      · have hn' : (fun s => (.ok (StructureStrings.next s) : Fault _)) st =
            .ok (none, { st with start := st.start + (x.length + 1) }) := by
          show Res.ok (StructureStrings.next st) = _
          rw [hn, (fromUtf8_eq_none x).2 ht]
        refine ⟨(ended_none hn').trans (i1.trans ?_), (fused_none hn').trans (i1.trans ?_)⟩
        · simp only [ht, false_or]
        · simp only [ht, false_and, false_or, not_false_eq_true, true_and]

/-! ### Descriptors -/

theorem descriptors_fused : ∀ (k : Nat) (d : system_event_log.SupportedEventLogTypeDescriptors),
    d.chunks.rest.length ≤ k → 0 < d.chunks.size → d.chunks.size ∣ d.chunks.rest.length →
    (d.chunks.rest = [] ∨ d.chunks.size ≠ 2 →
      ∀ n, Ended (fun s => .ok (system_event_log.SupportedEventLogTypeDescriptors.next s)) n d) ∧
    FusedP system_event_log.SupportedEventLogTypeDescriptors.next d := by
  intro k
  induction k with
  | zero =>
    intro d hk hs hd
    have hr : d.chunks.rest = [] := List.eq_nil_of_length_eq_zero (by omega)
    have hn : d.next = (none, d) := by
      unfold system_event_log.SupportedEventLogTypeDescriptors.next Chunks.next
      rw [hr]; rfl
    have he := ended_fix (next := fun s =>
      (.ok (system_event_log.SupportedEventLogTypeDescriptors.next s) : Fault _)) (s := d) (by rw [hn])
    exact ⟨fun _ => he, (fused_none (by rw [hn])).2 he⟩
  | succ k ih =>
    intro d hk hs hd
    by_cases hr : d.chunks.rest = []
    · exact ih d (by rw [hr]; exact Nat.zero_le _) hs hd
    have hpos : 0 < d.chunks.rest.length := List.length_pos_iff.2 hr
    have hne : d.chunks.rest.isEmpty = false := List.isEmpty_eq_false_iff.2 hr
    have hle : d.chunks.size ≤ d.chunks.rest.length := Nat.le_of_dvd hpos hd
    have hnext : d.chunks.next = (some (d.chunks.rest.take d.chunks.size),
        { d.chunks with rest := d.chunks.rest.drop d.chunks.size }) := by
      unfold Chunks.next
      rw [hne]; rfl
    have hlen : (d.chunks.rest.take d.chunks.size).length = d.chunks.size := by
      rw [List.length_take]; omega
    obtain ⟨i1, i2⟩ := ih ⟨{ d.chunks with rest := d.chunks.rest.drop d.chunks.size }⟩
      (by simp; omega) hs (by
        show d.chunks.size ∣ (d.chunks.rest.drop d.chunks.size).length
        rw [List.length_drop]
        exact Nat.dvd_sub hd (Nat.dvd_refl _))
    by_cases h2 : d.chunks.size = 2
    · refine ⟨fun h => ?_, ?_⟩
      · rcases h with h | h
        · exact absurd h hr
        · exact absurd h2 h
      · rw [h2] at hlen
        match hm : d.chunks.rest.take 2, hlen with
        | [a, b], _ =>
          refine (fused_step (a := ⟨.ofU8 a, .ofU8 b⟩) ?_).2 i2
          unfold system_event_log.SupportedEventLogTypeDescriptors.next
          rw [hnext, h2, hm]
    · have hn : d.next = (none, ⟨{ d.chunks with rest := d.chunks.rest.drop d.chunks.size }⟩) := by
        unfold system_event_log.SupportedEventLogTypeDescriptors.next
        rw [hnext]
        match hm : d.chunks.rest.take d.chunks.size with
        | [] => rfl
        | [a] => rfl
        | [a, b] => rw [hm] at hlen; simp at hlen; omega
        | a :: b :: c :: r => rfl
      have he := i1 (.inr h2)
      exact ⟨fun _ => (ended_none (by rw [hn])).2 he, (fused_none (by rw [hn])).2 he⟩

theorem descriptors_whole {oc : Bool} {s : RawStructure} {v : system_event_log.SystemEventLog}
    (h : system_event_log.SystemEventLog.try_from oc s = .ok v)
    (d : system_event_log.SupportedEventLogTypeDescriptors)
    (hd : v.supported_event_log_type_descriptors = some d) : d.chunks.size ∣ d.chunks.rest.length := by
  have key : ∀ a b, Post (fun o => ∀ d : system_event_log.SupportedEventLogTypeDescriptors,
      o = some d → d.chunks.size ∣ d.chunks.rest.length) (system_event_log.descriptors oc s a b) := by
    intro a b
    unfold system_event_log.descriptors
    split
    · rename_i x y
      refine Post.bind fun o ho => ?_
      cases o with
      | none => exact Post.pure fun d h => by cases h
      | some data =>
        refine Post.bind fun e he => Post.pure fun d h => ?_
        cases h
        have hb : x.toNat * y.toNat < 2 ^ 16 := by
          have := Nat.mul_lt_mul'' x.toNat_lt y.toNat_lt
          exact this
        rw [get_slice_ge oc s _ _ (by decide) (by omega)] at ho
        unfold system_event_log.SupportedEventLogTypeDescriptors.new at he
        split at he
        · cases he
        · cases he
          show y.toNat ∣ data.length
          split at ho
          · cases ho
            simp only [bytesAt, List.length_map, List.length_range]
            exact Nat.dvd_mul_left _ _
          · cases ho
    · exact Post.pure fun d h => by cases h
  have : Post (fun v => ∀ d, v.supported_event_log_type_descriptors = some d →
      d.chunks.size ∣ d.chunks.rest.length) (system_event_log.SystemEventLog.try_from oc s) := by
    have dec : ∀ a b, Post (fun v => ∀ d, v.supported_event_log_type_descriptors = some d →
        d.chunks.size ∣ d.chunks.rest.length) (system_event_log.SystemEventLog.decode oc s a b) := by
      intro a b
      unfold system_event_log.SystemEventLog.decode
      refine Post.bind fun _ _ => Post.bind fun _ _ => Post.bind fun o ho => ?_
      have := key a b o ho
      post
      all_goals exact this
    unfold system_event_log.SystemEventLog.try_from
    post
    all_goals exact dec _ _
  exact this v h d hd

/-! ### Languages -/

theorem fused_of_yields {σ α : Type} {next : σ → Fault (Option α × σ)} {s st : σ} {l : List α}
    (h : Spec.Yields next s l st) : Fused next s ↔ Fused next st := by
  induction h with
  | nil => exact Iff.rfl
  | cons h _ ih => rw [fused_step h, ih]

theorem languages_resume (oc : Bool) (s : RawStructure) (l : List Bytes) (hl : IsStringList s.strings l)
    (hn : l.length < if oc then 254 else 255) :
    ∀ m k, m + k = 254 → l.length ≤ k →
      ¬ ∀ n, Ended (bios_language.InstallableLanguages.next oc) n ⟨s, .ofNat (k + 1)⟩ := by
  intro m
  induction m with
  | zero =>
    intro k hk hlk h
    have : k = 254 := by omega
    subst this
    cases oc with
    | true =>
      obtain ⟨st, h1, -⟩ := h 1
      cases h1
    | false =>
      rw [ended_none (s' := ⟨s, 0⟩)] at h
      · obtain ⟨st, h1, -⟩ := h 1
        cases h1
      · rw [language_next false s l hl _ (by omega) (fun h => by cases h),
          List.getElem?_eq_none (by omega)]
        rfl
  | succ m ih =>
    intro k hk hlk h
    rw [ended_none (s' := ⟨s, .ofNat (k + 1 + 1)⟩)] at h
    · exact ih (k + 1) (by omega) (by omega) h
    · rw [language_next oc s l hl _ (by omega) (fun h => by omega),
        List.getElem?_eq_none (by omega), ofNat_succ]

theorem languages_fused_iff (oc : Bool) (s : RawStructure) :
    Fused (bios_language.InstallableLanguages.next oc) (.new s) ↔
    ¬ ∃ l, IsStringList s.strings l ∧ l.length < if oc then 254 else 255 := by
  obtain ⟨-, hl⟩ := C20_strings_total s.strings
  constructor
  · rintro hf ⟨l, hl, hn⟩
    have hy := language_yields oc s l hl l.length 0 (by split at hn <;> omega) (by omega)
    rw [List.drop_zero, List.take_length, Nat.add_zero] at hy
    have hf := (fused_of_yields hy).1 hf
    have := languages_resume oc s l hl hn (254 - l.length) l.length (by split at hn <;> omega)
      (Nat.le_refl _)
    refine this ?_
    by_cases hk : oc = true ∧ l.length = 254
    · rw [hk.1, hk.2] at hn
      simp at hn
    · have h1 : bios_language.InstallableLanguages.next oc ⟨s, .ofNat (l.length + 1)⟩ =
          .ok (none, ⟨s, .ofNat (l.length + 1) + 1⟩) := by
        rw [language_next oc s l hl _ (by split at hn <;> omega) (fun h => by
          subst h; simp only [if_true] at hn; omega), List.getElem?_eq_none (Nat.le_refl _)]
      exact (ended_none h1).2 ((fused_none h1).1 hf)
  · intro h
    have hn : (if oc then 254 else 255) ≤ (StructureStrings.new s.strings).collect.length :=
      Nat.le_of_not_lt fun hn => h ⟨_, hl, hn⟩
    cases oc with
    | true =>
      obtain ⟨st, hy, hp⟩ := C43_panics s _ hl hn
      refine (fused_of_yields hy).2 (fused_fault fun x hx => ?_)
      rw [hp] at hx
      cases hx
    | false =>
      intro items st st' hy hst
      exfalso
      have hc : CollectsR (bios_language.InstallableLanguages.next false) (.new s) items := by
        have := collectsR_of_yields hy (l' := []) (.done hst)
        rwa [List.append_nil] at this
      obtain ⟨items', st'', h1, h2⟩ := C43_endless s _ hl hn (items.length + 1)
      have := length_of_yields h2 hc
      omega

/-! ### C81 -/

/-- C81: the iterators of a decoded structure stay ended, except exactly for those of the structures listed. -/
theorem C81_partial (oc : Bool) (s : RawStructure) (v : Structure) (h : decodeStructure oc s = .ok v) :
    StaysEnded oc v ↔ ¬ Resumes oc s := by
  have out : ∀ {α : Type} {x : R α} {f : α → Structure} {y : Structure}, x.map f = .ok y →
      ∃ a, x = .ok a ∧ f a = y := by
    intro α x f y h
    cases x with
    | ok a => exact ⟨a, rfl, Res.ok.inj h⟩
    | _ => cases h
  have triv : ∀ {p q : Prop}, p → ¬ q → (p ↔ ¬ q) := fun hp hq => ⟨fun _ => hq, fun _ => hp⟩
  have str := (strings_fused _ (.new s.strings) (Nat.le_refl _)).2
  rw [StructureStrings.left_new] at str
  unfold decodeStructure at h
  unfold Resumes
  split at h
  case h_1 hi =>
    obtain ⟨v, hv, rfl⟩ := out h
    simp only [hi]
    exact triv ⟨bits_fused oc _, fun x _ => bits_fused oc x, fun x _ => bits_fused oc x⟩ id
  case h_4 hi =>
    obtain ⟨v, hv, rfl⟩ := out h
    simp only [hi]
    exact triv (fun c _ => elements_fused c) id
  case h_8 hi =>
    obtain ⟨v, hv, rfl⟩ := out h
    simp only [hi]
    exact triv ⟨bits_fused oc _, fun x _ => bits_fused oc x, fun p _ => peers_fused p⟩ id
  case h_9 hi =>
    obtain ⟨v, hv, rfl⟩ := out h
    simp only [hi]
    have : v.strings = .new s.strings := by cases hv; rfl
    show FusedP _ v.strings ↔ _
    rw [this]
    exact str
  case h_10 hi =>
    obtain ⟨v, hv, rfl⟩ := out h
    simp only [hi]
    have : v.strings = .new s.strings := by
      unfold system_configuration_options.SystemConfigurationOptions.try_from at hv
      simp only [bind_ok_iff] at hv
      obtain ⟨_, _, hv⟩ := hv
      split at hv
      · cases hv
      · cases hv; rfl
    show FusedP _ v.strings ↔ _
    rw [this]
    exact str
  case h_11 hi =>
    obtain ⟨v, hv, rfl⟩ := out h
    simp only [hi]
    have hf : Fits s (languageLength s) := Classical.byContradiction fun k => by
      rw [C43_short s k] at hv; cases hv
    obtain ⟨w, hw, hs⟩ := C43_decodes s hf
    rw [hv] at hw
    cases hw
    show Fused _ v.installable_languages ∧ _ ↔ _
    rw [hs.installable_languages, languages_fused_iff]
    exact ⟨fun h => h.1, fun h => ⟨h, fun x _ => bits_fused oc x⟩⟩
  case h_12 hi =>
    obtain ⟨v, hv, rfl⟩ := out h
    simp only [hi]
    exact triv (groups_fused _) id
  case h_13 hi =>
    obtain ⟨v, hv, rfl⟩ := out h
    simp only [hi]
    exact triv ⟨bits_fused oc _, fun d hd => (descriptors_fused _ d (Nat.le_refl _)
      (descriptors_size hv d hd) (descriptors_whole hv d hd)).2⟩ id
  case h_21 =>
    cases h
    refine triv trivial ?_
    split <;> first | exact id | (rename_i hi; simp [hi] at *; done)
  all_goals
    rename_i hi
    obtain ⟨v, hv, rfl⟩ := out h
    simp only [hi]
    exact triv trivial id

/-- C81, the full statement fails: three languages. -/
theorem C81_full_false : ¬ C81_full := by
  intro hf
  obtain ⟨v, h1, -⟩ := exists_ok (show (decodeStructure true (manyLanguages 3)).okAnd
    (fun _ => true) = true by decide +kernel)
  exact (C81_partial true _ v h1).1 (hf true _ v h1) ⟨_, manyLanguages_strings 3, by decide⟩

/-- OEM strings of which the second one is not UTF-8. -/
def brokenStrings : RawStructure where
  version := ⟨2, 7⟩
  info := .OemStrings
  length := 5
  handle := 0x0B00
  data := [3]
  strings := [0x41, 0, 0xFF, 0, 0x42, 0, 0]

example : Resumes true brokenStrings ∧ (decodeStructure true brokenStrings).okAnd (fun _ => true) = true := by
  have hbad : ¬ IsText [0xFF] := (fromUtf8_eq_none [0xFF]).1 (by decide +kernel)
  refine ⟨⟨[[0x41]], [0xFF], [0x42, 0, 0, 0], by decide, ?_, by decide, by decide, hbad,
    [], [0x42], [0, 0], by decide, by simp [Segments], goodStr_ascii (by decide) (by decide)⟩, by decide +kernel⟩
  intro x hx
  rw [List.mem_singleton.1 hx]
  decide
/-- Well-formed strings do not resume. -/
example : ¬ Resumes true { brokenStrings with strings := [0x41, 0, 0xFF, 0, 0] } := by
  have h1 := (goesOn_cons (x := [0x41]) (r := [0xFF, 0, 0, 0]) (by decide))
  have h2 := (goesOn_cons (x := [0xFF]) (r := [0, 0]) (by decide))
  have h3 := no_good_end (b := [0, 0]) (.inr ⟨[0], rfl⟩)
  have hbad : ¬ IsText [0xFF] := (fromUtf8_eq_none [0xFF]).1 (by decide +kernel)
  intro h
  rcases h1.1 h with ⟨-, h⟩ | ⟨h, -⟩
  · rcases h2.1 h with ⟨h, -⟩ | ⟨-, h⟩
    · exact hbad h
    · exact h3.1 h
  · exact h (goodStr_ascii (by decide) (by decide)).2.2

end Dmi.Props
