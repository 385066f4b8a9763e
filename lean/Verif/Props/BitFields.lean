import Verif.Spec.Flags
import Verif.Spec.Text
import Verif.Model.BitFields
import Verif.Model.Display
import Verif.Props.Bitfield
import Verif.Props.Bios
import Verif.Props.Slots
import Verif.Props.Language
import Verif.Props.EventLog
/-!
# C66: the flags shown for a structure are the bits stored in it
-/
namespace Dmi.Props
open Spec bitfield Fmt

/-- The flag is presented as what the bit is used for: what it prints contains the words of the
specification, and it counts as reserved exactly if the bit is. -/
def Presents (f : Flag) : BitUse → Prop
  | .flag short long => (∀ d, f.type_ ≠ .Reserved d) ∧
      occurs short (squash (f.display false)) = true ∧ occurs long (squash (f.display true)) = true
  | .reserved what => (∃ d, f.type_ = .Reserved d) ∧
      ∀ alt, occurs what (squash (f.display alt)) = true

/-- The maximal runs of bits reserved for the same reason: reason, first bit, last bit. -/
def runs : List BitUse → Nat → List (Text × Nat × Nat)
  | [], _ => []
  | .flag .. :: us, i => runs us (i + 1)
  | .reserved w :: us, i =>
    match runs us (i + 1) with
    | (w', a, b) :: rs => if a = i + 1 ∧ w' = w then (w, i, b) :: rs else (w, i, i) :: (w', a, b) :: rs
    | [] => [(w, i, i)]

/-- The bit field iterators show the value `v` as the flags described by `us`: `iter()` every bit in
order, `significants()` the set bits that are not reserved in ascending order, `reserved()` the runs
of reserved bits. -/
structure ShowsFlags {α : Type} [BitField α] (oc : Bool) (us : List BitUse) (v : Nat) (a : α) : Prop where
  iter : ∃ fs, CollectsR (Iter.next oc) (BitField.iter a) fs ∧ fs.length = us.length ∧
    ∀ i f, fs[i]? = some f → f.position = i ∧ f.is_set = v.testBit i ∧ ∃ u, us[i]? = some u ∧ Presents f u
  significants : ∃ fs, CollectsR (Significants.next oc) (BitField.significants a) fs ∧
    (fs.map (·.position)).Pairwise (· < ·) ∧
    (∀ i, i ∈ fs.map (·.position) ↔ v.testBit i = true ∧ ∃ x y, us[i]? = some (.flag x y)) ∧
    ∀ f ∈ fs, f.is_set = true ∧ ∃ u, us[f.position]? = some u ∧ Presents f u
  reserved : ∃ rs, CollectsR (Reserved.next oc) (BitField.reserved a) rs ∧
    rs.map (fun r => (r.start, r.stop)) = (runs us 0).map (fun x => (x.2.1, x.2.2)) ∧
    ∀ (i : Nat) (r : ReservedRange) (x : Text × Nat × Nat), rs[i]? = some r → (runs us 0)[i]? = some x →
      occurs x.1 (squash (lit r.description)) = true

/-! ### Checking a layout against the specification -/

/-- `Presents` for the entry of a layout. -/
def fits : FlagType → BitUse → Bool
  | .Significant m d, .flag s l => occurs s (squash (lit m)) && occurs l (squash (lit d))
  | .Reserved d, .reserved w => occurs w (squash (lit d))
  | _, _ => false

theorem presents_of_fits {t : FlagType} {u : BitUse} (h : fits t u = true) (p : Nat) (b : Bool) :
    Presents ⟨p, b, t⟩ u := by
  cases t <;> cases u <;> simp [fits, Presents, Flag.display] at h ⊢ <;> exact h

/-- The layout describes the bits as the specification. -/
def agrees (l : Layout) (us : List BitUse) : Bool :=
  decide (l.length = us.length) && (List.range us.length).all fun i =>
    match l[i]?, us[i]? with
    | some t, some u => fits t u
    | _, _ => false

/-- The ranges of reserved bits of the layout are those of the specification. -/
def agreesRuns (l : Layout) (us : List BitUse) : Bool :=
  decide ((ranges l 0 none).map (fun r => (r.start, r.stop)) = (runs us 0).map (fun x => (x.2.1, x.2.2))) &&
  (List.range (runs us 0).length).all fun i =>
    match (ranges l 0 none)[i]?, (runs us 0)[i]? with
    | some r, some x => occurs x.1 (squash (lit r.description))
    | _, _ => true

theorem agrees_at {l : Layout} {us : List BitUse} (h : agrees l us = true) {i : Nat}
    (hi : i < us.length) :
    ∃ t u, l[i]? = some t ∧ us[i]? = some u ∧ fits t u = true := by
  simp only [agrees, Bool.and_eq_true, decide_eq_true_eq, List.all_eq_true, List.mem_range] at h
  obtain ⟨hl, ha⟩ := h
  have := ha i hi
  have h1 : l[i]? = some l[i] := List.getElem?_eq_getElem (by omega)
  have h2 : us[i]? = some us[i] := List.getElem?_eq_getElem hi
  rw [h1, h2] at this
  exact ⟨_, _, h1, h2, this⟩

theorem shows_of_agrees {α : Type} [BitField α] (oc : Bool) (us : List BitUse) (v : Nat) (a : α)
    (hv : BitField.value a = v) (hw : BitField.width α = us.length) (h128 : us.length ≤ 128)
    (h : agrees (BitField.LAYOUT α) us = true) (hr : agreesRuns (BitField.LAYOUT α) us = true) :
    ShowsFlags oc us v a := by
  subst hv
  have hlen : (BitField.LAYOUT α).length = us.length := by
    simp only [agrees, Bool.and_eq_true, decide_eq_true_eq] at h; exact h.1
  have hflag : ∀ i < us.length, ∃ u, us[i]? = some u ∧
      Presents (flag (BitField.value a) (BitField.LAYOUT α) i) u ∧
      ((∃ x y, u = .flag x y) ↔ ∀ d, ¬ ReservedAs (BitField.LAYOUT α) i d) := by
    intro i hi
    obtain ⟨t, u, h1, h2, h3⟩ := agrees_at h hi
    refine ⟨u, h2, ?_, ?_⟩
    · simp only [flag, List.getD, h1, Option.getD]
      exact presents_of_fits h3 _ _
    · simp only [ReservedAs, h1, Option.some.injEq]
      cases t <;> cases u <;> simp [fits] at h3 ⊢
  constructor
  · refine ⟨_, C24_iter oc (BitField.width α) (BitField.value a) _ (by omega) (by omega), by simp [hw], ?_⟩
    intro i f hf
    obtain ⟨hi, rfl⟩ := List.getElem?_eq_some_iff.1 hf
    simp only [List.length_map, List.length_range] at hi
    obtain ⟨u, h1, h2, -⟩ := hflag i (by omega)
    simp only [List.getElem_map, List.getElem_range]
    exact ⟨rfl, rfl, u, h1, h2⟩
  · obtain ⟨ps, h1, h2, h3⟩ := C25_significants oc (BitField.width α) (BitField.value a)
      (BitField.LAYOUT α) (by omega) (by omega)
    have hm : (ps.map (flag (BitField.value a) (BitField.LAYOUT α))).map (·.position) = ps := by
      rw [List.map_map]
      exact (List.map_congr_left (fun _ _ => rfl)).trans (List.map_id _)
    refine ⟨_, h1, by rw [hm]; exact h2, ?_, ?_⟩
    · intro i
      rw [hm, h3]
      constructor
      · rintro ⟨hi, hb, hn⟩
        obtain ⟨u, hu, -, hf⟩ := hflag i (by omega)
        obtain ⟨x, y, rfl⟩ := hf.2 hn
        exact ⟨hb, x, y, hu⟩
      · rintro ⟨hb, x, y, hu⟩
        obtain ⟨hi, -⟩ := List.getElem?_eq_some_iff.1 hu
        obtain ⟨u, hu', -, hf⟩ := hflag i hi
        rw [hu] at hu'; cases hu'
        exact ⟨by omega, hb, hf.1 ⟨x, y, rfl⟩⟩
    · intro f hf
      obtain ⟨i, hi, rfl⟩ := List.mem_map.1 hf
      obtain ⟨hi, hb, -⟩ := (h3 i).1 hi
      obtain ⟨u, hu, hp, -⟩ := hflag i (by omega)
      exact ⟨hb, u, hu, hp⟩
  · have h1 := reserved_collects oc _ (BitField.reserved a) (Nat.le_refl _)
      (by simp [BitField.reserved, BitField.iter, Reserved.new, Iter.new]; omega)
      (by simp [BitField.reserved, BitField.iter, Reserved.new, Iter.new])
      (by simp [BitField.reserved, BitField.iter, Reserved.new, Iter.new]; omega)
    refine ⟨_, h1, ?_⟩
    show (ranges (BitField.LAYOUT α) 0 none).map _ = _ ∧ ∀ (i : Nat) (r : ReservedRange) (x : Text × Nat × Nat),
      (ranges (BitField.LAYOUT α) 0 none)[i]? = some r → _
    simp only [agreesRuns, Bool.and_eq_true, decide_eq_true_eq, List.all_eq_true, List.mem_range] at hr
    refine ⟨hr.1, fun i r x hr1 hx => ?_⟩
    have := hr.2 i (List.getElem?_eq_some_iff.1 hx).1
    rw [hr1, hx] at this
    exact this

/-! ### C66 -/

theorem when_mono {α : Type} {c : Prop} {o : Option α} {p q : α → Prop} (h : When c o p)
    (hpq : ∀ a, p a → q a) : When c o q := by
  rcases h with ⟨hc, a, ha, hp⟩ | h
  · exact Or.inl ⟨hc, a, ha, hpq a hp⟩
  · exact Or.inr h

theorem okAnd_exists {ε α : Type} {x : Res ε α} {p : α → Prop} [DecidablePred p]
    (h : x.okAnd (fun a => decide (p a)) = true) : ∃ a, x = .ok a := by
  cases x with
  | ok a => exact ⟨a, rfl⟩
  | _ => cases h

/-- Full statement of C66 for the BIOS characteristics; false of the code, which does not treat the
reserved bits 0 and 1 as reserved. -/
def C66_full : Prop := ∀ (oc : Bool) (s : RawStructure) (b : bios.Bios), bios.Bios.try_from s = .ok b →
  ShowsFlags oc biosCharacteristics (qword s 0x0A).toNat b.bios_characteristics

open BitUse in
/-- What the code takes the BIOS characteristics for: bits 0 and 1 are flags named "Reserved". -/
def shownCharacteristics : List BitUse :=
  [both (txt! "reserved"), both (txt! "reserved")] ++ biosCharacteristics.drop 2

/-- The labels of the crate agree with the specification (up to the two bits above). -/
theorem tables_agree :
    (agrees bios.Characteristics.LAYOUT shownCharacteristics = true ∧
     agreesRuns bios.Characteristics.LAYOUT shownCharacteristics = true) ∧
    (agrees bios.CharacteristicsExtension1.LAYOUT biosExtension1 = true ∧
     agreesRuns bios.CharacteristicsExtension1.LAYOUT biosExtension1 = true) ∧
    (agrees bios.CharacteristicsExtension2.LAYOUT biosExtension2 = true ∧
     agreesRuns bios.CharacteristicsExtension2.LAYOUT biosExtension2 = true) ∧
    (agrees system_slots.SlotCharacteristics1.LAYOUT slotCharacteristics1 = true ∧
     agreesRuns system_slots.SlotCharacteristics1.LAYOUT slotCharacteristics1 = true) ∧
    (agrees system_slots.SlotCharacteristics2.LAYOUT slotCharacteristics2 = true ∧
     agreesRuns system_slots.SlotCharacteristics2.LAYOUT slotCharacteristics2 = true) ∧
    (agrees bios_language.LanguageFlags.LAYOUT languageFlags = true ∧
     agreesRuns bios_language.LanguageFlags.LAYOUT languageFlags = true) ∧
    (agrees system_event_log.LogStatus.LAYOUT logStatus = true ∧
     agreesRuns system_event_log.LogStatus.LAYOUT logStatus = true) ∧
    agrees system_event_log.PostResults.LAYOUT postResults = true ∧
    agreesRuns system_event_log.PostResults.LAYOUT postResults = true := by
  decide +kernel

/-- C66: the flags of a decoded BIOS structure are the bits at offsets 0Ah, 12h and 13h. Partial: bits
0 and 1 of the characteristics count as flags. -/
theorem C66_bios_partial (oc : Bool) (s : RawStructure) (b : bios.Bios)
    (h : bios.Bios.try_from s = .ok b) :
    ShowsFlags oc shownCharacteristics (qword s 0x0A).toNat b.bios_characteristics ∧
    When (Since s 2 4) b.bios_characteristics_exttension_1
      (ShowsFlags oc biosExtension1 (byte s 0x12).toNat) ∧
    When (Since s 2 4) b.bios_characteristics_exttension_2
      (ShowsFlags oc biosExtension2 (byte s 0x13).toNat) := by
  have hf : Fits s (biosLength s) := by
    apply Classical.byContradiction
    intro hn
    rw [C29_short s hn] at h; cases h
  have hb := (C29_decodes s hf b).1 h
  obtain ⟨t0, t1, t2, -⟩ := tables_agree
  refine ⟨?_, when_mono hb.extension_1 ?_, when_mono hb.extension_2 ?_⟩
  · rw [hb.characteristics]
    exact shows_of_agrees _ _ _ _ rfl rfl (by decide) t0.1 t0.2
  · rintro _ rfl
    exact shows_of_agrees _ _ _ _ rfl rfl (by decide) t1.1 t1.2
  · rintro _ rfl
    exact shows_of_agrees _ _ _ _ rfl rfl (by decide) t2.1 t2.2

example : ∃ b, bios.Bios.try_from exampleBios = .ok b :=
  okAnd_exists (p := fun _ => True) (by decide +kernel)

/-- C66 for BIOS characteristics fails: a set bit 0 is among the significant flags. -/
theorem C66_full_false : ¬ C66_full := by
  intro hf
  let s : RawStructure := ⟨⟨2, 0⟩, .Bios, 0x12, 1, [0, 0, 0, 0, 0, 0, 1, 0, 0, 0, 0, 0, 0, 0], [0, 0]⟩
  have hk : ∃ b, bios.Bios.try_from s = .ok b := okAnd_exists (p := fun _ => True) (by decide +kernel)
  obtain ⟨b, hb⟩ := hk
  obtain ⟨⟨fs, h1, -, h3⟩, -, -⟩ := hf true s b hb
  obtain ⟨⟨fs', h1', h2', h3'⟩, -, -⟩ := (C66_bios_partial true s b hb).1
  rw [collectsR_unique h1' h1] at h2' h3'
  have h0 : 0 < fs.length := by rw [h2']; decide
  obtain ⟨-, -, u, hu, hp⟩ := h3 0 _ (List.getElem?_eq_getElem h0)
  obtain ⟨-, -, u', hu', hp'⟩ := h3' 0 _ (List.getElem?_eq_getElem h0)
  cases hu; cases hu'
  obtain ⟨⟨d, hd⟩, -⟩ := hp
  exact hp'.1 d hd

/-- C66: the flags of a decoded slot are the bits at offsets 0Bh and 0Ch. -/
theorem C66_slots (oc oc' : Bool) (s : RawStructure) (v : system_slots.SystemSlots)
    (h : system_slots.SystemSlots.try_from oc s = .ok v) :
    ShowsFlags oc' slotCharacteristics1 (byte s 0x0B).toNat v.slot_characteristics_1 ∧
    When (Fits s 0x0D) v.slot_characteristics_2
      (ShowsFlags oc' slotCharacteristics2 (byte s 0x0C).toNat) := by
  obtain ⟨r1, r2, r3, r4, -, r6⟩ := C40_rejects oc s
  have hl : SlotLengthOk s := by
    rw [h] at r1 r2 r3 r4
    refine ⟨fun a b => ?_, fun a b => ?_, fun a b => ?_, fun a => ?_⟩
    · apply Classical.byContradiction
      intro hn; cases r1 a b (by omega)
    · apply Classical.byContradiction
      intro hn; cases r2 a b (by omega)
    · apply Classical.byContradiction
      intro hn; cases r3 a b (by omega)
    · apply Classical.byContradiction
      intro hn; cases r4 a (by omega)
  have hf : Fits s 0x0C := by
    apply Classical.byContradiction
    intro hn
    obtain ⟨e, he, -⟩ := r6 hl hn
    rw [h] at he; cases he
  have hb := (C40_decodes oc s hl hf v).1 h
  obtain ⟨-, -, -, t1, t2, -⟩ := tables_agree
  refine ⟨?_, when_mono hb.slot_characteristics_2 ?_⟩
  · rw [hb.slot_characteristics_1]
    exact shows_of_agrees _ _ _ _ rfl rfl (by decide) t1.1 t1.2
  · rintro _ rfl
    exact shows_of_agrees _ _ _ _ rfl rfl (by decide) t2.1 t2.2

example : ∃ v, system_slots.SystemSlots.try_from true exampleSlot = .ok v :=
  okAnd_exists (p := fun _ => True) (by decide +kernel)

/-- C66: the flags of a decoded BIOS language structure are the bits at offset 05h. -/
theorem C66_language (oc : Bool) (s : RawStructure) (v : bios_language.BiosLanguage)
    (h : bios_language.BiosLanguage.try_from s = .ok v) :
    When (Since s 2 1) v.flags (ShowsFlags oc languageFlags (byte s 0x05).toNat) := by
  have hf : Fits s (languageLength s) := by
    apply Classical.byContradiction
    intro hn
    rw [C43_short s hn] at h; cases h
  obtain ⟨v', hv, hb⟩ := C43_decodes s hf
  rw [h] at hv; cases hv
  obtain ⟨-, -, -, -, -, t, -⟩ := tables_agree
  refine when_mono hb.flags ?_
  rintro _ rfl
  exact shows_of_agrees _ _ _ _ rfl rfl (by decide) t.1 t.2

example : ∃ v, bios_language.BiosLanguage.try_from (manyLanguages 3) = .ok v :=
  okAnd_exists (p := fun _ => True) (by decide +kernel)

/-- C66: the flags of the status of a decoded event log are the bits at offset 0Bh. -/
theorem C66_event_log (oc oc' : Bool) (s : RawStructure) (v : system_event_log.SystemEventLog)
    (h : system_event_log.SystemEventLog.try_from oc s = .ok v) :
    ShowsFlags oc' logStatus (byte s 0x0B).toNat v.log_status := by
  obtain ⟨r1, r2, r3, r4⟩ := C45_rejects oc s
  rw [h] at r1 r2 r3 r4
  have hl : EventLogLength s := by
    refine ⟨fun a => ?_, fun a => ?_⟩
    · apply Classical.byContradiction
      intro hn; cases r1 a hn
    · have hf : Fits s 0x17 := by
        apply Classical.byContradiction
        intro hn; cases r2 a hn
      refine ⟨hf, ?_⟩
      apply Classical.byContradiction
      intro hn; cases r3 a hf hn
  have hf : Fits s 0x14 := by
    apply Classical.byContradiction
    intro hn; cases r4 hl hn
  have h0 : Fits s 0x17 → descriptorLength s ≠ 0 := by
    intro h17 h0
    rw [C45_panics oc s hl h17 h0] at h; cases h
  have hb := (C45_decodes oc s hl hf h0 v).1 h
  obtain ⟨-, -, -, -, -, -, t, -⟩ := tables_agree
  rw [hb.log_status]
  exact shows_of_agrees _ _ _ _ rfl rfl (by decide) t.1 t.2

example : ∃ v, system_event_log.SystemEventLog.try_from true (exampleLog 2 [1, 0, 8, 4]) = .ok v :=
  okAnd_exists (p := fun _ => True) (by decide +kernel)

/-- C66: the flags of a POST results bitmap are its bits. -/
theorem C66_post_results (oc : Bool) (n : UInt64) :
    ShowsFlags oc postResults n.toNat (⟨n⟩ : system_event_log.PostResults) := by
  obtain ⟨-, -, -, -, -, -, -, t⟩ := tables_agree
  exact shows_of_agrees _ _ _ _ rfl rfl (by decide) t.1 t.2

/-- The labels of any two significant flags of the layout differ in both forms, except for the pairs
of positions listed. -/
def distinctLabels (l : Layout) (except : List (Nat × Nat)) : Bool :=
  (List.range l.length).all fun j => (List.range j).all fun i =>
    match l[i]?, l[j]? with
    | some (.Significant m d), some (.Significant m' d') =>
      decide ((i, j) ∈ except) || decide (lit m ≠ lit m') && decide (lit d ≠ lit d')
    | some (.Reserved _), _ | _, some (.Reserved _) => true
    | _, _ => false

theorem labels_distinct :
    distinctLabels bios.Characteristics.LAYOUT [(0, 1)] = true ∧
    distinctLabels bios.CharacteristicsExtension1.LAYOUT [] = true ∧
    distinctLabels bios.CharacteristicsExtension2.LAYOUT [] = true ∧
    distinctLabels system_slots.SlotCharacteristics1.LAYOUT [] = true ∧
    distinctLabels system_slots.SlotCharacteristics2.LAYOUT [] = true ∧
    distinctLabels bios_language.LanguageFlags.LAYOUT [] = true ∧
    distinctLabels system_event_log.LogStatus.LAYOUT [] = true ∧
    distinctLabels system_event_log.PostResults.LAYOUT [] = true := by
  decide +kernel

/-- Two significant flags of the same value that print the same text, in either form, are the same,
or at the positions excepted. -/
def FlagsDiffer (α : Type) [BitField α] (except : List (Nat × Nat)) : Prop :=
  ∀ (oc : Bool) (a : α) (fs : List Flag), CollectsR (Significants.next oc) (BitField.significants a) fs →
    ∀ f ∈ fs, ∀ g ∈ fs, ∀ alt, f.display alt = g.display alt → f.position < g.position →
      (f.position, g.position) ∈ except

theorem differ_of_labels {α : Type} [BitField α] {except : List (Nat × Nat)}
    (hw : BitField.width α = (BitField.LAYOUT α).length) (h128 : (BitField.LAYOUT α).length ≤ 128)
    (h : distinctLabels (BitField.LAYOUT α) except = true) : FlagsDiffer α except := by
  intro oc a fs hc f hf g hg alt he hlt
  obtain ⟨ps, h1, h2, h3⟩ := C25_significants oc (BitField.width α) (BitField.value a)
    (BitField.LAYOUT α) (by omega) (by omega)
  rw [collectsR_unique hc h1] at hf hg
  obtain ⟨i, hi, rfl⟩ := List.mem_map.1 hf
  obtain ⟨j, hj, rfl⟩ := List.mem_map.1 hg
  obtain ⟨hi, -, ni⟩ := (h3 i).1 hi
  obtain ⟨hj, -, nj⟩ := (h3 j).1 hj
  have hlt : i < j := hlt
  show (i, j) ∈ except
  simp only [distinctLabels, List.all_eq_true, List.mem_range] at h
  have := h j (by omega) i hlt
  have e1 : (BitField.LAYOUT α)[i]? = some (BitField.LAYOUT α)[i] := List.getElem?_eq_getElem (by omega)
  have e2 : (BitField.LAYOUT α)[j]? = some (BitField.LAYOUT α)[j] := List.getElem?_eq_getElem (by omega)
  simp only [flag, List.getD, e1, e2, Option.getD] at he
  rw [e1, e2] at this
  simp only [ReservedAs, e1, e2, Option.some.injEq] at ni nj
  generalize (BitField.LAYOUT α)[i] = t at *
  generalize (BitField.LAYOUT α)[j] = u at *
  cases t <;> cases u <;> first
    | exact absurd rfl (ni _)
    | exact absurd rfl (nj _)
    | cases this; done
    | skip
  simp only [Bool.or_eq_true, Bool.and_eq_true, decide_eq_true_eq] at this
  rcases this with h | ⟨h, k⟩
  · exact h
  · cases alt
    · exact absurd he h
    · exact absurd he k

/-- C66: different flags print different texts, in both forms; only bits 0 and 1 of the BIOS
characteristics do not. -/
theorem C66_distinct : FlagsDiffer bios.Characteristics [(0, 1)] ∧
    FlagsDiffer bios.CharacteristicsExtension1 [] ∧ FlagsDiffer bios.CharacteristicsExtension2 [] ∧
    FlagsDiffer system_slots.SlotCharacteristics1 [] ∧
    FlagsDiffer system_slots.SlotCharacteristics2 [] ∧
    FlagsDiffer bios_language.LanguageFlags [] ∧ FlagsDiffer system_event_log.LogStatus [] ∧
    FlagsDiffer system_event_log.PostResults [] := by
  obtain ⟨h1, h2, h3, h4, h5, h6, h7, h8⟩ := labels_distinct
  exact ⟨differ_of_labels rfl (by decide) h1, differ_of_labels rfl (by decide) h2,
    differ_of_labels rfl (by decide) h3, differ_of_labels rfl (by decide) h4,
    differ_of_labels rfl (by decide) h5, differ_of_labels rfl (by decide) h6,
    differ_of_labels rfl (by decide) h7, differ_of_labels rfl (by decide) h8⟩

/-- The runs of reserved bits of the specification. -/
example : (runs postResults 0).map (·.2) = [(20, 23), (25, 27), (28, 38)] ∧
    (runs biosCharacteristics 0).map (·.2) = [(0, 1), (32, 47), (48, 63)] ∧
    (runs slotCharacteristics2 0).map (·.2) = [(7, 7)] := by decide +kernel

end Dmi.Props
