import Verif.Model.HashBits
import Verif.Model.DebugBits
import Verif.Model.BitFields
import Verif.Props.Debug
import Verif.Proofs.HashGood
/-!
# C105: `Debug` and `Hash` of the bit field views
-/
namespace Dmi.Props
open Spec Fmt bitfield

/-- The sizes of the unsigned types, and a value of such a type. -/
def Sized (x : Iter) : Prop := x.width ∈ [8, 16, 32, 64, 128] ∧ x.value < 2 ^ x.width

/-! ### Debug -/

theorem flagType_good : Good FlagType.dbg where
  wf x := by
    cases x
    · exact ⟨by decide, rfl⟩
    · exact ⟨by decide, rfl, good_string.wf _, rfl, good_string.wf _, trivial⟩
    · exact ⟨by decide, rfl, good_string.wf _, trivial⟩
  inj a b e := by
    exact C91_bitfield.1 (fun _ => true) a b (.inl (by rw [e]))

theorem iter_wf [Shown] (x : Iter) : x.dbg.WF :=
  ⟨by decide, by decide, good_num.wf _, by decide, good_num.wf _, by decide, (good_list flagType_good).wf _, trivial⟩

theorem iter_inj [Shown] {a b : Iter} (e : a.dbg = b.dbg) :
    a.value = b.value ∧ a.index = b.index ∧ a.layout = b.layout := by
  obtain ⟨e1, e⟩ := cons_inj (struct_inj e)
  obtain ⟨e2, e⟩ := cons_inj e
  obtain ⟨e3, -⟩ := cons_inj e
  exact ⟨good_num.inj _ _ e1, good_num.inj _ _ e2, (good_list flagType_good).inj _ _ e3⟩

theorem reserved_wf [Shown] (x : Reserved) : x.dbg.WF :=
  ⟨by decide, by decide, iter_wf _, by decide, (good_opt good_string).wf _, by decide, good_num.wf _, trivial⟩

/-- Equal texts in one of the two forms. -/
def SameText (f : Nat → Bool) (a b : Dbg) : Prop := a.plain f = b.plain f ∨ a.pretty f = b.pretty f

theorem sameText_eq {f : Nat → Bool} {a b : Dbg} (ha : a.WF) (hb : b.WF) (h : SameText f a b) : a = b :=
  h.elim (plain_eq f ha hb) (pretty_eq f ha hb)

/-- C105: the text of an iterator over a bit field tells its value, where it is and its whole layout.
(Of which type the value is, is not shown.) -/
theorem C105_iter [Shown] (f : Nat → Bool) (a b : Iter) (h : SameText f a.dbg b.dbg) :
    a.value = b.value ∧ a.index = b.index ∧ a.layout = b.layout :=
  iter_inj (sameText_eq (iter_wf a) (iter_wf b) h)

/-- C105: the same for the iterator over the flags that are set. -/
theorem C105_significants [Shown] (f : Nat → Bool) (a b : Iter) (h : SameText f (Significants.dbg a) (Significants.dbg b)) :
    a.value = b.value ∧ a.index = b.index ∧ a.layout = b.layout :=
  have wf (x : Iter) : (Significants.dbg x).WF := ⟨by decide, rfl, iter_wf x, trivial⟩
  iter_inj (cons_inj (tuple_inj (sameText_eq (wf a) (wf b) h))).1

/-- C105: the same for the iterator over the ranges of reserved bits. -/
theorem C105_reserved [Shown] (f : Nat → Bool) (a b : Reserved) (h : SameText f a.dbg b.dbg) :
    (a.iter.value = b.iter.value ∧ a.iter.index = b.iter.index ∧ a.iter.layout = b.iter.layout) ∧
    a.desc = b.desc ∧ a.start = b.start := by
  have e := sameText_eq (reserved_wf a) (reserved_wf b) h
  obtain ⟨e1, e⟩ := cons_inj (struct_inj e)
  obtain ⟨e2, e⟩ := cons_inj e
  obtain ⟨e3, -⟩ := cons_inj e
  exact ⟨iter_inj e1, (good_opt good_string).inj _ _ e2, good_num.inj _ _ e3⟩

/-! ### Hash -/

theorem ff_ne {k : Nat} (h : k < 255) : (0xFF : UInt8) ≠ UInt8.ofNat k := by
  intro e
  have := congrArg UInt8.toNat e
  rw [UInt8.toNat_ofNat', Nat.mod_eq_of_lt (by omega)] at this
  exact absurd this (by
    have : (0xFF : UInt8).toNat = 255 := rfl
    omega)

theorem char_no_ff (c : Char) : (0xFF : UInt8) ∉ String.utf8EncodeChar c := by
  unfold String.utf8EncodeChar
  simp only
  generalize c.val.toNat = v
  split
  · simp only [List.mem_singleton]; exact ff_ne (by omega)
  · split
    · simp only [List.mem_cons, List.not_mem_nil, or_false, not_or]
      exact ⟨ff_ne (by omega), ff_ne (by omega)⟩
    · split
      · simp only [List.mem_cons, List.not_mem_nil, or_false, not_or]
        exact ⟨ff_ne (by omega), ff_ne (by omega), ff_ne (by omega)⟩
      · simp only [List.mem_cons, List.not_mem_nil, or_false, not_or]
        exact ⟨ff_ne (by omega), ff_ne (by omega), ff_ne (by omega), ff_ne (by omega)⟩

theorem string_no_ff (s : String) : (0xFF : UInt8) ∉ s.toByteArray.data.toList := by
  obtain ⟨b, ⟨m, rfl⟩⟩ := s
  simp only [List.utf8Encode]
  intro h
  have : (List.flatMap String.utf8EncodeChar m).toByteArray.data.toList = m.flatMap String.utf8EncodeChar := by
    simp
  rw [this] at h
  obtain ⟨c, -, hc⟩ := List.mem_flatMap.1 h
  exact char_no_ff c hc

theorem det_string : Det (fun s : String => [Fed.string s]) id := by
  intro n h8 h32 pre a b r s va vb e
  obtain ⟨h1, h2⟩ := det_str n h8 h32 pre _ _ r s va vb e
  exact ⟨good_string.inj a b (by rw [show a.toByteArray.data.toList = b.toByteArray.data.toList from h1]), h2⟩

theorem valid_string (n : Nat) (s : String) : (Fed.string s).Valid n := string_no_ff s

theorem flagType_valid (n : Nat) (x : FlagType) : Fed.AllValid n x.fed := by
  cases x
  · exact valid_one trivial
  · exact allValid_cons.2 ⟨trivial, allValid_cons.2 ⟨valid_string n _, valid_one (valid_string n _)⟩⟩
  · exact allValid_cons.2 ⟨trivial, valid_one (valid_string n _)⟩

theorem flagType_det : Det FlagType.fed id := by
  intro n h8 h32 pre a b r s va vb e
  have idx : ∀ x : FlagType, x.fed = .tag (.ofNat x.ctorIdx) :: x.fed.tail := by
    intro x; cases x <;> rfl
  have lt : ∀ x : FlagType, x.ctorIdx < 65536 := by
    intro x
    cases x
    · exact (by decide : 0 < 65536)
    · exact (by decide : 1 < 65536)
    · exact (by decide : 2 < 65536)
  rw [idx a, idx b] at e
  rw [idx] at va vb
  obtain ⟨h1, va, vb, e⟩ := idx_step h8 h32 (lt a) (lt b) va vb e
  rcases a with _ | ⟨m, d⟩ | m <;> rcases b with _ | ⟨m', d'⟩ | m' <;>
    first | exact absurd h1 (Nat.ne_of_beq_eq_false rfl) | skip
  · exact ⟨rfl, e⟩
  · obtain ⟨h1, va, vb, e⟩ := det_string.step (l := [.string d]) (m := [.string d']) h8 h32 va vb e
    obtain ⟨h2, e⟩ := det_string n h8 h32 pre d d' r s va vb e
    simp only [id] at h1 h2
    exact ⟨by rw [h1, h2], e⟩
  · obtain ⟨h2, e⟩ := det_string n h8 h32 pre m m' r s va vb e
    simp only [id] at h2
    exact ⟨by rw [h2], e⟩

/-- Items one after the other, as many as agreed. -/
theorem det_items {α : Type} {f : α → List Fed} (h : Det f id) {n : Nat} (h8 : 8 ∣ n) (h32 : 32 ≤ n) {pre : Bytes} :
    ∀ {l m : List α} {r s : Bytes}, l.length = m.length → Fed.AllValid n (l.flatMap f) →
      Fed.AllValid n (m.flatMap f) →
      @feed ⟨n⟩ pre (l.flatMap f) ++ r = @feed ⟨n⟩ pre (m.flatMap f) ++ s → l = m ∧ r = s
  | [], [], _, _, _, _, _, e => ⟨rfl, e⟩
  | [], _ :: _, _, _, hl, _, _, _ => by cases hl
  | _ :: _, [], _, _, hl, _, _, _ => by cases hl
  | a :: l, b :: m, r, s, hl, va, vb, e => by
    rw [List.flatMap_cons] at va vb e
    rw [List.flatMap_cons] at e
    obtain ⟨h1, va, vb, e⟩ := h.step h8 h32 va vb e
    obtain ⟨h2, h3⟩ := det_items h h8 h32 (by simpa using hl) va vb e
    simp only [id] at h1
    exact ⟨by rw [h1, h2], h3⟩

theorem layout_det : Det layoutFed id := by
  intro n h8 h32 pre a b r s va vb e
  obtain ⟨h1, va, vb, e⟩ := det_usize.step (l := a.flatMap FlagType.fed) (m := b.flatMap FlagType.fed) h8 h32 va vb e
  exact det_items flagType_det h8 h32 h1 va vb e

theorem layout_valid {n : Nat} {l : Layout} (h : l.length < 2 ^ n) : Fed.AllValid n (layoutFed l) := by
  refine allValid_cons.2 ⟨h, fun i hi => ?_⟩
  obtain ⟨x, -, hx⟩ := List.mem_flatMap.1 hi
  exact flagType_valid n x i hx

theorem value_valid (n w v : Nat) : Fed.AllValid n (valueFed w v) := by
  unfold valueFed
  split
  · exact valid_u8 n _
  · split
    · exact valid_u16 n _
    · split
      · exact valid_u32 n _
      · split
        · exact valid_u64 n _
        · exact allValid_cons.2 ⟨trivial, valid_u64 n _⟩

theorem value_det (w : Nat) : Det (valueFed w) fun v => v % 2 ^ (if w ∈ [8, 16, 32, 64] then w else 128) := by
  intro n h8 h32 pre a b r s va vb e
  unfold valueFed at va vb e
  by_cases c1 : w = 8
  · subst c1
    simp only [if_true] at va vb e
    obtain ⟨h1, h2⟩ := det_u8 n h8 h32 pre _ _ r s va vb e
    have := congrArg UInt8.toNat h1
    simp only [id, UInt8.toNat_ofNat'] at this
    exact ⟨this, h2⟩
  rw [if_neg c1] at va vb
  rw [if_neg c1, if_neg c1] at e
  by_cases c2 : w = 16
  · subst c2
    simp only [if_true] at va vb e
    obtain ⟨h1, h2⟩ := det_u16 n h8 h32 pre _ _ r s va vb e
    have := congrArg UInt16.toNat h1
    simp only [id, UInt16.toNat_ofNat'] at this
    exact ⟨this, h2⟩
  rw [if_neg c2] at va vb
  rw [if_neg c2, if_neg c2] at e
  by_cases c3 : w = 32
  · subst c3
    simp only [if_true] at va vb e
    obtain ⟨h1, h2⟩ := det_u32 n h8 h32 pre _ _ r s va vb e
    have := congrArg UInt32.toNat h1
    simp only [id, UInt32.toNat_ofNat'] at this
    exact ⟨this, h2⟩
  rw [if_neg c3] at va vb
  rw [if_neg c3, if_neg c3] at e
  by_cases c4 : w = 64
  · subst c4
    simp only [if_true] at va vb e
    obtain ⟨h1, h2⟩ := det_u64 n h8 h32 pre _ _ r s va vb e
    have := congrArg UInt64.toNat h1
    simp only [id, UInt64.toNat_ofNat'] at this
    exact ⟨this, h2⟩
  rw [if_neg c4] at va vb
  rw [if_neg c4, if_neg c4] at e
  rw [if_neg (by simp only [List.mem_cons, List.not_mem_nil, or_false, not_or]; exact ⟨c1, c2, c3, c4⟩)]
  obtain ⟨h1, va, vb, e⟩ := det_u64.step (l := [.u64 (.ofNat (a / 2 ^ 64))]) (m := [.u64 (.ofNat (b / 2 ^ 64))])
    h8 h32 va vb e
  obtain ⟨h2, h3⟩ := det_u64 n h8 h32 pre _ _ r s va vb e
  replace h1 := congrArg UInt64.toNat h1
  replace h2 := congrArg UInt64.toNat h2
  simp only [id, UInt64.toNat_ofNat'] at h1 h2
  refine ⟨?_, h3⟩
  dsimp only
  omega

/-- What a program can hold: numbers of type `usize`. -/
def IterFits (n : Nat) (x : Iter) : Prop := Sized x ∧ x.index < 2 ^ n ∧ x.layout.length < 2 ^ n

theorem iter_valid {n : Nat} {x : Iter} (h : IterFits n x) : Fed.AllValid n x.fed :=
  allValid_append.2 ⟨allValid_append.2 ⟨value_valid n _ _, valid_one h.2.1⟩, layout_valid h.2.2⟩

theorem iter_step {n : Nat} (h8 : 8 ∣ n) (h32 : 32 ≤ n) {pre : Bytes} {a b : Iter} (hw : a.width = b.width)
    (ha : IterFits n a) (hb : IterFits n b) {r s : Bytes}
    (e : @feed ⟨n⟩ pre a.fed ++ r = @feed ⟨n⟩ pre b.fed ++ s) : a = b ∧ r = s := by
  have va := iter_valid ha
  have vb := iter_valid hb
  unfold Iter.fed at va vb e
  rw [List.append_assoc] at va vb e
  rw [List.append_assoc, ← hw] at e
  rw [← hw] at vb
  obtain ⟨h1, va, vb, e⟩ := (value_det a.width).step h8 h32 va vb e
  obtain ⟨h2, va, vb, e⟩ := det_usize.step h8 h32 va vb e
  obtain ⟨h3, e⟩ := layout_det n h8 h32 pre _ _ r s va vb e
  refine ⟨?_, e⟩
  have hb2 := hb.1.2
  rw [← hw] at hb2
  have ha2 := ha.1.2
  have hm := ha.1.1
  have hv : a.value = b.value := by
    have : (if a.width ∈ [8, 16, 32, 64] then a.width else 128) = a.width := by
      simp only [List.mem_cons, List.not_mem_nil, or_false] at hm ⊢
      rcases hm with h | h | h | h | h <;> rw [h] <;> rfl
    rw [this, Nat.mod_eq_of_lt ha2, Nat.mod_eq_of_lt hb2] at h1
    exact h1
  obtain ⟨av, aw, ai, al⟩ := a
  obtain ⟨bv, bw, bi, bl⟩ := b
  simp only [id] at h2 h3 hv hw
  subst h2; subst h3; subst hv; subst hw
  rfl

/-- C105: what is written to a hasher for an iterator over a bit field determines the iterator, and where
the rest begins; for the iterator over the flags that are set it is the same. -/
theorem C105_iter_hash (n : Nat) (h8 : 8 ∣ n) (h32 : 32 ≤ n) (pre r s : Bytes) (a b : Iter)
    (hw : a.width = b.width) (ha : IterFits n a) (hb : IterFits n b)
    (e : @feed ⟨n⟩ pre a.fed ++ r = @feed ⟨n⟩ pre b.fed ++ s) : a = b ∧ r = s :=
  iter_step h8 h32 hw ha hb e

/-- C105: the same for the iterator over the ranges of reserved bits. -/
theorem C105_reserved_hash (n : Nat) (h8 : 8 ∣ n) (h32 : 32 ≤ n) (pre r s : Bytes) (a b : Reserved)
    (hw : a.iter.width = b.iter.width) (ha : IterFits n a.iter) (hb : IterFits n b.iter)
    (ha' : a.start < 2 ^ n) (hb' : b.start < 2 ^ n)
    (e : @feed ⟨n⟩ pre a.fed ++ r = @feed ⟨n⟩ pre b.fed ++ s) : a = b ∧ r = s := by
  have vo : ∀ x : Option String, Fed.AllValid n (Fed.opt (fun s => [Fed.string s]) x) :=
    fun x => valid_opt fun y _ => valid_one (valid_string n y)
  unfold Reserved.fed at e
  rw [List.append_assoc, List.append_assoc, @feed_append ⟨n⟩ pre a.iter.fed, @feed_append ⟨n⟩ pre b.iter.fed,
    List.append_assoc, List.append_assoc] at e
  obtain ⟨h1, e⟩ := iter_step h8 h32 hw ha hb e
  obtain ⟨h2, va, vb, e⟩ := (det_opt det_string).step h8 h32
    (allValid_append.2 ⟨vo _, valid_one (i := .usize a.start) ha'⟩)
    (allValid_append.2 ⟨vo _, valid_one (i := .usize b.start) hb'⟩) e
  obtain ⟨h3, e'⟩ := det_usize n h8 h32 pre _ _ r s va vb e
  obtain ⟨ai, ad, as⟩ := a
  obtain ⟨bi, bd, bs⟩ := b
  simp only [id] at h1 h2 h3
  subst h1; subst h2; subst h3
  exact ⟨rfl, e'⟩

/-- C105: the same for what these iterators yield. Unlike the text of a flag (C91), the bytes written for it
tell its description, too. -/
theorem C105_items_hash (n : Nat) (h8 : 8 ∣ n) (h32 : 32 ≤ n) (pre r s : Bytes) :
    (∀ a b : Flag, a.position < 2 ^ n → b.position < 2 ^ n →
      @feed ⟨n⟩ pre a.fed ++ r = @feed ⟨n⟩ pre b.fed ++ s → a = b ∧ r = s) ∧
    (∀ a b : ReservedRange, a.start < 2 ^ n → b.start < 2 ^ n → a.stop < 2 ^ n → b.stop < 2 ^ n →
      @feed ⟨n⟩ pre a.fed ++ r = @feed ⟨n⟩ pre b.fed ++ s → a = b ∧ r = s) := by
  constructor
  · intro a b ha hb e
    have v : ∀ x : Flag, x.position < 2 ^ n →
        Fed.AllValid n ([Fed.usize x.position] ++ ([Fed.bool x.is_set] ++ x.type_.fed)) := fun x h =>
      allValid_cons.2 ⟨h, allValid_cons.2 ⟨trivial, flagType_valid n _⟩⟩
    obtain ⟨h1, va, vb, e⟩ := det_usize.step h8 h32 (v a ha) (v b hb) e
    obtain ⟨h2, va, vb, e⟩ := det_bool.step h8 h32 va vb e
    obtain ⟨h3, e'⟩ := flagType_det n h8 h32 pre _ _ r s va vb e
    obtain ⟨ap, as, at'⟩ := a
    obtain ⟨bp, bs, bt⟩ := b
    simp only [id] at h1 h2 h3
    subst h1; subst h2; subst h3
    exact ⟨rfl, e'⟩
  · intro a b ha hb ha' hb' e
    have v : ∀ x : ReservedRange, x.start < 2 ^ n → x.stop < 2 ^ n → Fed.AllValid n
        ([Fed.string x.description] ++ ([Fed.usize x.start] ++ ([Fed.usize x.stop] ++ [Fed.bool false]))) :=
      fun x h h' => allValid_cons.2 ⟨valid_string n _, allValid_cons.2 ⟨h, allValid_cons.2 ⟨h', valid_one trivial⟩⟩⟩
    obtain ⟨h1, va, vb, e⟩ := det_string.step h8 h32 (v a ha ha') (v b hb hb') e
    obtain ⟨h2, va, vb, e⟩ := det_usize.step h8 h32 va vb e
    obtain ⟨h3, va, vb, e⟩ := det_usize.step h8 h32 va vb e
    obtain ⟨-, e'⟩ := det_bool n h8 h32 pre false false r s va vb e
    obtain ⟨ad, as, at'⟩ := a
    obtain ⟨bd, bs, bt⟩ := b
    simp only [id] at h1 h2 h3
    subst h1; subst h2; subst h3
    exact ⟨rfl, e'⟩

/-- C105: of which type the value is, the text does not tell: the same for `Iter<u8>` and `Iter<u16>`. -/
theorem C105_width [Shown] (f : Nat → Bool) (v w w' : Nat) (l : Layout) :
    (Iter.new w v l).dbg.plain f = (Iter.new w' v l).dbg.plain f ∧
    (Iter.new w v l).dbg.pretty f = (Iter.new w' v l).dbg.pretty f := ⟨rfl, rfl⟩

/-! ### Examples -/

/-- An iterator over the flags of `LanguageFlags` (type 13), as `iter` makes it. -/
def exampleView : Iter := Iter.new 8 1 bios_language.LanguageFlags.LAYOUT

example : IterFits 64 exampleView ∧ IterFits 32 exampleView := by
  simp only [IterFits, Sized]; decide +kernel

example : IterFits 64 (Iter.new 128 (2 ^ 100) []) := by simp only [IterFits, Sized]; decide +kernel

example : (Iter.new 8 5 [.Unknown, .Significant "a" "b", .Reserved "r"]).dbg.plain (fun _ => false) =
    (txt! "Iter { value: 5, index: 0, layout: [Unknown, Significant(\"a\", \"b\"), Reserved(\"r\")] }") := by
  decide +kernel

example : (Significants.dbg (Iter.new 8 5 [])).plain (fun _ => false) =
    (txt! "Significants(Iter { value: 5, index: 0, layout: [] })") := by decide +kernel

example : (Reserved.new (Iter.new 8 5 [])).dbg.plain (fun _ => false) =
    (txt! "Reserved { iter: Iter { value: 5, index: 0, layout: [] }, desc: None, start: 0 }") := by decide +kernel

/-- What is written for one flag, on a host with 32 bits. -/
example : @feed ⟨32⟩ [] (Flag.fed ⟨3, true, .Significant "a" "b"⟩) =
    [3, 0, 0, 0, 1, 1, 0, 0, 0, 97, 0xFF, 98, 0xFF] := by decide +kernel

example : @feed ⟨32⟩ [] (Iter.new 16 0x1234 [.Reserved "r"]).fed =
    [0x34, 0x12, 0, 0, 0, 0, 1, 0, 0, 0, 2, 0, 0, 0, 114, 0xFF] := by decide +kernel

example : @feed ⟨32⟩ [] (Reserved.new (Iter.new 128 (2 ^ 64) [])).fed =
    [0, 0, 0, 0, 0, 0, 0, 0, 1, 0, 0, 0, 0, 0, 0, 0, 0, 0, 0, 0, 0, 0, 0, 0, 0, 0, 0, 0, 0, 0, 0, 0] := by
  decide +kernel

example : @feed ⟨32⟩ [] (ReservedRange.fed ⟨"r", 4, 7⟩) = [114, 0xFF, 4, 0, 0, 0, 7, 0, 0, 0, 0] := by decide +kernel

/-- Two flags with the same text and different bytes. -/
example : (Flag.dbg ⟨3, true, .Unknown⟩).plain (fun _ => false) =
      (Flag.dbg ⟨3, true, .Reserved "r"⟩).plain (fun _ => false) ∧
    @feed ⟨64⟩ [] (Flag.fed ⟨3, true, .Unknown⟩) ≠ @feed ⟨64⟩ [] (Flag.fed ⟨3, true, .Reserved "r"⟩) := by
  decide +kernel

end Dmi.Props
