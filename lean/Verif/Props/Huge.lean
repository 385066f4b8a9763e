import Verif.Proofs.Decode
import Verif.Props.Table
/-!
# C106: buffers of 4 GiB and more

The cursor of the iterator has 32 bits. The other theorems about it are about buffers below 4 GiB.
-/
namespace Dmi.Props
open Spec

/-- The iteration ends, or faults, after finitely many calls. -/
def ComesToAnEnd (oc : Bool) (s : Structures) : Prop := ∃ items s', Runs oc s items s' ∧
  (s'.next oc = .ok (none, s') ∨ s'.next oc = .panic ∨ s'.next oc = .ub)

/-- C106, the full statement: every iteration ends, whatever the size of the buffer. -/
def C106_full : Prop := ∀ (oc : Bool) (s : Structures), ComesToAnEnd oc s

/-! ### With overflow checks -/

theorem indexRange_ok {ε : Type} {b r : Bytes} {i j : Nat} (h : (indexRange b i j : Res ε Bytes) = .ok r) :
    i ≤ j ∧ j ≤ b.length := by
  unfold indexRange getRange at h
  by_cases c : i ≤ j ∧ j ≤ b.length
  · exact c
  · rw [if_neg c] at h; cases h

/-- What `next_raw` leaves of the iterator when the end of the header is a number of 32 bits. -/
theorem raw_step {oc : Bool} {s s1 : Structures} {o} (hi : s.idx.toNat + 4 < 2 ^ 32)
    (h : s.next_raw oc = .ok (o, s1)) :
    (o = none ∧ s1 = s) ∨ (∃ e, o = some (.error e) ∧ s1 = s) ∨
    (∃ r, o = some (.ok r) ∧ s1 = { s with idx := s1.idx } ∧ s.idx.toNat + 4 ≤ s1.idx.toNat) := by
  have e4 : (4 : UInt32).toNat = 4 := rfl
  have hadd4 : (s.idx + 4).toNat = s.idx.toNat + 4 := u32_add_toNat _ _ (by rw [e4]; exact hi)
  unfold Structures.next_raw at h
  rw [addU32_ok oc s.idx 4 (by rw [e4]; exact hi)] at h
  simp only [ok_bind] at h
  split at h
  · simp only [pure_eq_ok, Res.ok.injEq, Prod.mk.injEq] at h
    exact .inl ⟨h.1.symm, h.2.symm⟩
  obtain ⟨w, -, h⟩ := bind_ok_iff.1 h
  obtain ⟨hd, -, h⟩ := bind_ok_iff.1 h
  obtain ⟨si, -, h⟩ := bind_ok_iff.1 h
  split at h
  · simp only [pure_eq_ok, Res.ok.injEq, Prod.mk.injEq] at h
    exact .inr (.inl ⟨_, h.1.symm, h.2.symm⟩)
  obtain ⟨t, -, h⟩ := bind_ok_iff.1 h
  split at h
  · simp only [pure_eq_ok, Res.ok.injEq, Prod.mk.injEq] at h
    exact .inr (.inl ⟨_, h.1.symm, h.2.symm⟩)
  · obtain ⟨d, h1, h⟩ := bind_ok_iff.1 h
    obtain ⟨e, h2, h⟩ := bind_ok_iff.1 h
    obtain ⟨str, h3, h⟩ := bind_ok_iff.1 h
    simp only [h2, ok_bind] at h
    simp only [pure_eq_ok, Res.ok.injEq, Prod.mk.injEq] at h
    have h1 := (indexRange_ok h1).1
    have h3 := (indexRange_ok h3).1
    refine .inr (.inr ⟨_, h.1.symm, ?_, ?_⟩)
    · rw [← h.2]
    · rw [← h.2]
      simp only
      omega

/-- What `next` leaves of it: it is finished, or the cursor has moved on by four bytes or more. -/
theorem next_step {oc : Bool} {s s' : Structures} {item} (hi : s.idx.toNat + 4 < 2 ^ 32)
    (h : s.next oc = .ok (some item, s')) :
    s'.next oc = .ok (none, s') ∨ s.idx.toNat + 4 ≤ s'.idx.toNat := by
  unfold Structures.next at h
  obtain ⟨⟨o, s1⟩, hr, hk⟩ := bind_ok_iff.1 h
  clear h
  rcases raw_step hi hr with ⟨rfl, -⟩ | ⟨e, rfl, rfl⟩ | ⟨r, rfl, h1, h2⟩
  · cases hk
  · simp only [pure_eq_ok, Res.ok.injEq, Prod.mk.injEq] at hk
    rw [← hk.2]
    exact .inl (next_at_end oc _ hi (by simp only; omega))
  · simp only at hk
    obtain ⟨it, -, hk⟩ := bind_ok_iff.1 hk
    simp only [pure_eq_ok, Res.ok.injEq, Prod.mk.injEq] at hk
    right
    rw [← hk.2]
    split <;> exact h2

/-- With overflow checks the end of the header does not leave the 32 bits. -/
theorem checked_idx {s s' : Structures} {o} (h : s.next true = .ok (o, s')) : s.idx.toNat + 4 < 2 ^ 32 := by
  by_cases c : s.idx.toNat + 4 < 2 ^ 32
  · exact c
  · have : s.next_raw true = .panic := by
      unfold Structures.next_raw addU32
      rw [if_neg (by exact c)]
      rfl
    unfold Structures.next at h
    rw [this] at h
    cases h

theorem checked_runs {s s' : Structures} {items} (h : Runs true s items s') :
    4 * items.length ≤ 2 ^ 32 - s.idx.toNat + 4 := by
  induction h with
  | nil => simp
  | cons h t ih =>
    rename_i s s1 s2 item items
    have hi := checked_idx h
    rcases next_step hi h with h1 | h1
    · cases t with
      | nil => simp
      | cons h2 _ => rw [h1] at h2; cases h2
    · simp only [List.length_cons]
      have := s1.idx.toNat_lt
      omega

/-- C106: with overflow checks every iteration ends, after at most 2^30 + 1 items. -/
theorem C106_checked_partial (s : Structures) : ComesToAnEnd true s ∧
    ∀ items s', Runs true s items s' → items.length ≤ 2 ^ 30 + 1 := by
  have bound : ∀ items s', Runs true s items s' → items.length ≤ 2 ^ 30 + 1 := fun items s' h => by
    have := checked_runs h
    omega
  refine ⟨?_, bound⟩
  have key : ∀ k items s', Runs true s items s' → items.length + k = 2 ^ 30 + 2 → ComesToAnEnd true s := by
    intro k
    induction k with
    | zero => intro items s' h hl; have := bound _ _ h; omega
    | succ k ih =>
      intro items s' h hl
      cases hn : s'.next true with
      | err e => cases e
      | panic => exact ⟨items, s', h, .inr (.inl hn)⟩
      | ub => exact ⟨items, s', h, .inr (.inr hn)⟩
      | ok p =>
        obtain ⟨o, s1⟩ := p
        cases o with
        | some it => exact ih _ _ (h.snoc hn) (by simp; omega)
        | none =>
          have hi := checked_idx hn
          have hs : s1 = s' := by
            have h2 := hn
            unfold Structures.next at h2
            obtain ⟨⟨o, s2⟩, hr, h3⟩ := bind_ok_iff.1 h2
            clear h2
            rcases raw_step hi hr with ⟨rfl, rfl⟩ | ⟨e, rfl, rfl⟩ | ⟨r, rfl, -, -⟩
            · simp only [pure_eq_ok, Res.ok.injEq, Prod.mk.injEq, true_and] at h3
              exact h3.symm
            · cases h3
            · simp only at h3
              obtain ⟨it, -, h3⟩ := bind_ok_iff.1 h3
              cases h3
          rw [hs] at hn
          exact ⟨items, s', h, .inl hn⟩
  exact key (2 ^ 30 + 2) [] s (.nil _) (by simp)

/-- C106: in both profiles, an item either ends the iteration or moves the cursor on, unless the cursor is
within the last four bytes of the 4 GiB. -/
theorem C106_progress (oc : Bool) (s s' : Structures) (item) (hi : s.idx.toNat + 4 < 2 ^ 32)
    (h : s.next oc = .ok (some item, s')) :
    s'.next oc = .ok (none, s') ∨ s.idx.toNat + 4 ≤ s'.idx.toNat := next_step hi h

/-! ### Structures that are too long -/

/-- `next_raw` at a structure in a buffer of any size. -/
theorem raw_piece_any (oc : Bool) (s : Structures) (p : Piece) (hp : PieceAt s.buffer s.idx.toNat p)
    (hn : s.idx.toNat + p.len < s.smbios_len.toNat) (m : Nat) (hm : m = p.strings.length % 2 ^ 32) :
    s.next_raw oc = if s.idx.toNat + p.len + m < 2 ^ 32 then
      .ok (some (.ok { p.raw s.smbios_version with strings := p.strings.take m }),
        { s with idx := .ofNat (s.idx.toNat + p.len + m) })
      else .panic := by
  obtain ⟨hfit, hk, hl, hl8, hh, hdt, r, hr⟩ := (PieceAt.parts hp)
  have hbl := Piece.bytes_length p
  have h4 : 4 ≤ p.len := by unfold Piece.len; omega
  have hs2 := EndsAtFirstNulNul.length hp.1.2
  have hfind := findNulNul_append (r := r) hp.1.2
  have hml : m ≤ p.strings.length := by rw [hm]; exact Nat.mod_le _ _
  have hm32 : m < 2 ^ 32 := by rw [hm]; exact Nat.mod_lt _ (Nat.two_pow_pos 32)
  clear hp
  obtain ⟨v, n, idx, b⟩ := s
  simp only at *
  generalize hI : idx.toNat = i at *
  have hnlt := n.toNat_lt
  have e4 : (4 : UInt32).toNat = 4 := rfl
  have hadd4 : (idx + 4).toNat = i + 4 := by
    rw [u32_add_toNat _ _ (by rw [hI, e4]; omega), hI]; rfl
  unfold Structures.next_raw
  simp only [Bind.bind, Res.bind, addU32_ok oc idx 4 (by rw [hI, e4]; omega), Pure.pure]
  rw [if_neg (by rw [gt_iff_lt, UInt32.lt_iff_toNat_lt, hadd4]; omega)]
  have hfrom : (indexFrom b i : Res Empty Bytes) = .ok (b.drop i) := by
    simp only [indexFrom, getFrom]; rw [if_pos (by omega)]
  simp only [hI, hfrom]
  rw [HeaderPacked.packed_eval _ (by simp; omega)]
  have h16 : u16At (b.drop i) 2 = u16At b (i + 2) := by unfold u16At; rw [leAt_drop]
  simp only [byteAt_drop, h16, Nat.add_zero, hk, hh]
  generalize hL : byteAt b (i + 1) = l at *
  have hl32 : l.toUInt32.toNat = p.len := by simpa using hl
  have haddl : (idx + l.toUInt32).toNat = i + p.len := by
    rw [u32_add_toNat _ _ (by rw [hI, hl32]; omega), hI, hl32]
  rw [addU32_ok oc idx l.toUInt32 (by rw [hI, hl32]; omega)]
  simp only
  rw [if_neg (by rw [ge_iff_le, UInt32.le_iff_toNat_le, haddl]; omega)]
  have hfrom2 : (indexFrom b (i + p.len) : Res Empty Bytes) = .ok (p.strings ++ r) := by
    simp only [indexFrom, getFrom]; rw [if_pos (by omega), ← hr]
  simp only [haddl, hfrom2, hfind, hadd4]
  have hr1 : (indexRange b (i + 4) (i + p.len) : Res Empty Bytes) = .ok p.data := by
    unfold indexRange getRange; rw [if_pos (by omega)]
    simp only
    rw [← hdt]; congr 2; omega
  have e1 : p.strings.length - 1 + 1 = p.strings.length := by omega
  have ht32 : (UInt32.ofNat p.strings.length).toNat = m := by rw [hm]; simp
  simp only [hr1, e1]
  by_cases c : i + p.len + m < 2 ^ 32
  · rw [if_pos c]
    have hend : (idx + l.toUInt32 + UInt32.ofNat p.strings.length).toNat = i + p.len + m := by
      rw [u32_add_toNat _ _ (by rw [haddl, ht32]; omega), haddl, ht32]
    have hr2 : (indexRange b (i + p.len) (i + p.len + m) : Res Empty Bytes) = .ok (p.strings.take m) := by
      unfold indexRange getRange; rw [if_pos (by omega)]
      simp only
      rw [hr, List.take_append_of_le_length (by omega)]
      congr 2; omega
    simp only [addU32_ok oc (idx + l.toUInt32) (UInt32.ofNat p.strings.length) (by rw [haddl, ht32]; omega), hend, hr2]
    have hnext : idx + l.toUInt32 + UInt32.ofNat p.strings.length = UInt32.ofNat (i + p.len + m) := by
      apply UInt32.toNat.inj
      rw [hend]; simp; omega
    rw [hnext]
    unfold Piece.raw
    rw [← hl8]
  · rw [if_neg c]
    obtain ⟨q, hq⟩ := Nat.le.dest (Nat.not_lt.1 c)
    clear hm c
    unfold addU32
    rw [if_neg (by rw [haddl, ht32]; omega)]
    cases oc with
    | true => simp only [if_true]
    | false =>
      have hsmall : (idx + l.toUInt32 + UInt32.ofNat p.strings.length).toNat = q := by
        rw [UInt32.toNat_add, haddl, ht32]; omega
      have hr2 : (indexRange b (i + p.len) q : Res Empty Bytes) = .panic := by
        unfold indexRange getRange; rw [if_neg (by omega)]
      simp only [Bool.false_eq_true, if_false, hsmall, hr2]

/-- C106: a structure in a buffer of any size is extracted with all but its strings unchanged; of these come as
many bytes as the length of the string area modulo 4 GiB. If it then still ends beyond 4 GiB this is a panic, in both
profiles. -/
theorem C106_structure (oc : Bool) (s : Structures) (p : Piece) (hp : PieceAt s.buffer s.idx.toNat p)
    (hn : s.idx.toNat + p.len < s.smbios_len.toNat) :
    (s.idx.toNat + p.len + p.strings.length % 2 ^ 32 < 2 ^ 32 → s.next_raw oc =
      .ok (some (.ok { p.raw s.smbios_version with strings := p.strings.take (p.strings.length % 2 ^ 32) }),
        { s with idx := .ofNat (s.idx.toNat + p.len + p.strings.length % 2 ^ 32) })) ∧
    (2 ^ 32 ≤ s.idx.toNat + p.len + p.strings.length % 2 ^ 32 → s.next_raw oc = .panic) := by
  have h := raw_piece_any oc s p hp hn _ rfl
  exact ⟨fun c => by rw [h, if_pos c], fun c => by rw [h, if_neg (Nat.not_lt.2 c)]⟩

/-- C106: so a string area of 4 GiB or more is never reported whole: if the structure is yielded, its strings are
not terminated. -/
theorem C106_cut_off (oc : Bool) (s s' : Structures) (p : Piece) (r : RawStructure)
    (hp : PieceAt s.buffer s.idx.toNat p) (hn : s.idx.toNat + p.len < s.smbios_len.toNat)
    (hl : 2 ^ 32 ≤ p.strings.length) (h : s.next_raw oc = .ok (some (.ok r), s')) :
    ∀ x y, r.strings ≠ x ++ [0, 0] ++ y := by
  have hm := Nat.mod_lt p.strings.length (Nat.two_pow_pos 32)
  rw [raw_piece_any oc s p hp hn _ rfl] at h
  generalize p.strings.length % 2 ^ 32 = m at h hm
  split at h
  · simp only [Res.ok.injEq, Prod.mk.injEq, Option.some.injEq, Except.ok.injEq] at h
    obtain ⟨rfl, -⟩ := h
    intro x y e
    simp only at e
    have hs : p.strings = x ++ [0, 0] ++ (y ++ p.strings.drop m) := by
      rw [← List.append_assoc, ← e, List.take_append_drop]
    have := hp.1.2.2 x _ hs
    have := congrArg List.length this
    simp only [List.length_append, List.length_drop, List.length_nil] at this
    omega
  · cases h

/-! ### Without overflow checks -/

theorem ends_no_zero {a : Bytes} (h : (0 : UInt8) ∉ a) : EndsAtFirstNulNul (a ++ [0, 0]) := by
  refine ⟨⟨a, rfl⟩, fun x y e => ?_⟩
  rw [List.append_assoc] at e
  rcases List.append_eq_append_iff.1 e with ⟨t, e1, e2⟩ | ⟨t, e1, e2⟩
  · have := congrArg List.length e2
    simp only [List.length_append, List.length_cons, List.length_nil] at this
    exact List.length_eq_zero_iff.1 (by omega)
  · cases t with
    | nil =>
      simp only [List.nil_append] at e2
      have := congrArg List.length e2
      simp only [List.length_append, List.length_cons, List.length_nil] at this
      exact List.length_eq_zero_iff.1 (by omega)
    | cons c t =>
      exfalso
      have : c = 0 := by
        have := congrArg List.head? e2
        simpa using this.symm
      exact h (by rw [e1, this]; simp)

/-- The header of a structure without formatted area. -/
def bareHeader : Bytes := [200, 4, 1, 1]

/-- A structure with one long string and, 4 GiB less four bytes behind the start, another header. -/
def loopTable (v : SmbiosVersion) (n : UInt32) (text : Bytes) : Structures :=
  ⟨v, n, 0, bareHeader ++ text ++ [0, 0] ++ bareHeader⟩

/-- What is reported over and over. -/
def loopRaw (v : SmbiosVersion) (strings : Bytes) : RawStructure :=
  { version := v, info := InfoType.ofU8 200, length := 4, handle := 0x0101, data := [], strings }

theorem loop_raw (v : SmbiosVersion) (n idx : UInt32) (pre : Bytes) (hz : EndsAtFirstNulNul pre) (hn : 0 < n.toNat)
    (hi : idx.toNat + 4 = 2 ^ 32) (hl : pre.length = idx.toNat) :
    (⟨v, n, idx, pre ++ bareHeader⟩ : Structures).next_raw false =
      .ok (some (.ok (loopRaw v pre)), ⟨v, n, idx, pre ++ bareHeader⟩) := by
  have hfind := findNulNul_append (r := bareHeader) hz
  have h2 := EndsAtFirstNulNul.length hz
  have hbl : (pre ++ bareHeader).length = idx.toNat + 4 := by rw [List.length_append, hl]; rfl
  have hdrop : (pre ++ bareHeader).drop idx.toNat = bareHeader := by rw [← hl, List.drop_left]
  have htake : (pre ++ bareHeader).take idx.toNat = pre := by rw [← hl, List.take_left]
  have hofNat : UInt32.ofNat pre.length = idx := by rw [hl]; simp
  have e4 : (4 : UInt32).toNat = 4 := rfl
  have hadd : idx + 4 = 0 := by
    apply UInt32.toNat.inj
    rw [UInt32.toNat_add, e4, hi]
    rfl
  have hadd' : (addU32 false idx 4 : Res Empty UInt32) = .ok 0 := by
    unfold addU32
    rw [if_neg (by rw [e4, hi]; exact Nat.lt_irrefl _), hadd]
    rfl
  generalize hB : pre ++ bareHeader = b at *
  generalize hI : idx.toNat = i at *
  have hfrom : (indexFrom b i : Res Empty Bytes) = .ok bareHeader := by
    simp only [indexFrom, getFrom]; rw [if_pos (by omega), hdrop]
  have hfrom0 : (indexFrom b (0 : UInt32).toNat : Res Empty Bytes) = .ok b := by
    simp only [indexFrom, getFrom, UInt32.toNat_zero]; rw [if_pos (by omega), List.drop_zero]
  have hdr : (letAsStruct HeaderPacked.packed bareHeader : Res Empty _) = .ok ⟨200, 4, 0x0101⟩ := by
    rw [HeaderPacked.packed_eval _ (by decide)]; rfl
  have hlen : (addU32 false idx (4 : UInt8).toUInt32 : Res Empty UInt32) = .ok 0 := hadd'
  have hr0 : (indexRange b (0 : UInt32).toNat (0 : UInt32).toNat : Res Empty Bytes) = .ok [] := by
    unfold indexRange getRange
    rw [if_pos ⟨Nat.le_refl _, by simp⟩]
    simp
  have hz0 : (addU32 false 0 idx : Res Empty UInt32) = .ok idx := by
    unfold addU32
    rw [if_pos (by simp only [UInt32.toNat_zero]; have := idx.toNat_lt; omega), UInt32.zero_add]
  have hr1 : (indexRange b (0 : UInt32).toNat i : Res Empty Bytes) = .ok pre := by
    unfold indexRange getRange
    rw [if_pos ⟨by simp, by omega⟩]
    simp only [UInt32.toNat_zero, List.drop_zero, Nat.sub_zero, htake]
  have e1 : pre.length - 1 + 1 = pre.length := by omega
  unfold Structures.next_raw
  simp only [Bind.bind, Res.bind, Pure.pure, hadd', hI, hfrom, hdr, hlen, hfrom0, hfind, hr0, e1, hofNat, hz0, hr1]
  rw [if_neg (by rw [gt_iff_lt, UInt32.lt_iff_toNat_lt, UInt32.toNat_zero]; omega),
    if_neg (by rw [ge_iff_le, UInt32.le_iff_toNat_le, UInt32.toNat_zero]; omega)]
  rfl

theorem next_of_raw {oc : Bool} {s s1 : Structures} {r : RawStructure} {k : UInt8}
    (h : s.next_raw oc = .ok (some (.ok r), s1)) (hk : r.info = .Oem k) : s.next oc = .ok (some (.ok (.Other r)), s1) := by
  unfold Structures.next
  rw [h]
  have hd : decodeStructure oc r = .ok (.Other r) := by unfold decodeStructure; rw [hk]
  have he : ¬ (s1.smbios_version.major ≥ 3 ∧ r.info = .End) := by rw [hk]; rintro ⟨-, h⟩; cases h
  simp only [ok_bind, if_neg he, hd, Res.toItem, pure_eq_ok]

/-- C106: without overflow checks there are buffers of 4 GiB, with whatever text, on which the iteration never ends and
never faults, even if the declared length of the table is five bytes. -/
theorem C106_endless (v : SmbiosVersion) (n : UInt32) (text : Bytes) (hn : 5 ≤ n.toNat)
    (hz : (0 : UInt8) ∉ text) (hl : text.length + 10 = 2 ^ 32) :
    ∀ items s', Runs false (loopTable v n text) items s' → ∃ item s'', s'.next false = .ok (some item, s'') := by
  have hz' : (0 : UInt8) ∉ bareHeader ++ text := by
    rw [List.mem_append, not_or]; exact ⟨by decide, hz⟩
  have hpl : (bareHeader ++ text ++ [0, 0]).length + 4 = 2 ^ 32 := by
    simp only [List.length_append, bareHeader, List.length_cons, List.length_nil]
    omega
  obtain ⟨idx, hidx⟩ : ∃ idx : UInt32, idx.toNat = (bareHeader ++ text ++ [0, 0]).length :=
    ⟨.ofNat (bareHeader ++ text ++ [0, 0]).length, by rw [UInt32.toNat_ofNat', Nat.mod_eq_of_lt (by omega)]⟩
  -- the second header
  have top := loop_raw v n idx _ (ends_no_zero hz') (by omega) (by rw [hidx]; exact hpl) hidx.symm
  -- the first structure
  have bottom : (loopTable v n text).next_raw false = .ok (some (.ok (loopRaw v (text ++ [0, 0]))),
      ⟨v, n, idx, bareHeader ++ text ++ [0, 0] ++ bareHeader⟩) := by
    let p : Piece := ⟨200, 0x0101, [], text ++ [0, 0]⟩
    have hbytes : p.bytes = bareHeader ++ text ++ [0, 0] := by
      have e : enc16 0x0101 = [1, 1] := by decide
      have e4 : UInt8.ofNat p.len = 4 := by simp [p, Piece.len]
      unfold Piece.bytes
      rw [e4]
      simp only [p, e, bareHeader, List.cons_append, List.nil_append]
    have hpa : PieceAt (loopTable v n text).buffer (loopTable v n text).idx.toNat p :=
      ⟨⟨by simp [p, Piece.len], ends_no_zero hz⟩, [], bareHeader, by rw [hbytes]; rfl, rfl⟩
    have hps : p.strings.length + 8 = 2 ^ 32 := by
      simp only [p, List.length_append, List.length_cons, List.length_nil]; omega
    have hmod : p.strings.length % 2 ^ 32 = p.strings.length := Nat.mod_eq_of_lt (by omega)
    have hpn : p.len = 4 := rfl
    have h0 : (loopTable v n text).idx.toNat = 0 := rfl
    have h := (C106_structure false (loopTable v n text) p hpa (by rw [h0, hpn]; exact hn)).1
      (by rw [hmod, h0, hpn]; omega)
    rw [h, hmod, List.take_length, h0, hpn]
    have : UInt32.ofNat (0 + 4 + p.strings.length) = idx := by
      apply UInt32.toNat.inj
      rw [hidx, UInt32.toNat_ofNat', Nat.mod_eq_of_lt (by omega), ← hbytes, Piece.bytes_length, hpn]
    rw [this]
    rfl
  have inv : ∀ s items s', Runs false s items s' →
      (s = loopTable v n text ∨ s = ⟨v, n, idx, bareHeader ++ text ++ [0, 0] ++ bareHeader⟩) →
      (s' = loopTable v n text ∨ s' = ⟨v, n, idx, bareHeader ++ text ++ [0, 0] ++ bareHeader⟩) := by
    intro s items s' h
    induction h with
    | nil => exact id
    | cons h _ ih =>
      intro hs
      apply ih
      right
      rcases hs with rfl | rfl
      · rw [next_of_raw bottom (k := 200) rfl] at h
        simp only [Res.ok.injEq, Prod.mk.injEq] at h
        exact h.2.symm
      · rw [next_of_raw top (k := 200) rfl] at h
        simp only [Res.ok.injEq, Prod.mk.injEq] at h
        exact h.2.symm
  intro items s' h
  rcases inv _ _ _ h (.inl rfl) with rfl | rfl
  · exact ⟨_, _, next_of_raw bottom (k := 200) rfl⟩
  · exact ⟨_, _, next_of_raw top (k := 200) rfl⟩

/-- C106, the full statement fails. -/
theorem C106_full_false : ¬ C106_full := by
  obtain ⟨m, hm⟩ : ∃ m : Nat, m + 10 = 2 ^ 32 := ⟨2 ^ 32 - 10, by omega⟩
  intro h
  obtain ⟨items, s', hr, he⟩ := h false (loopTable ⟨3, 0⟩ 5 (List.replicate m 1))
  have hz : (0 : UInt8) ∉ List.replicate m (1 : UInt8) := fun hm => by
    have := List.eq_of_mem_replicate hm
    exact absurd this (by decide)
  obtain ⟨item, s'', hs⟩ := C106_endless ⟨3, 0⟩ 5 (List.replicate m 1) (by decide) hz
    (by rw [List.length_replicate]; exact hm) items s' hr
  rcases he with he | he | he <;> rw [hs] at he <;> cases he

/-- There is such a text. -/
example : ∃ text : Bytes, (0 : UInt8) ∉ text ∧ text.length + 10 = 2 ^ 32 := by
  obtain ⟨m, hm⟩ : ∃ m : Nat, m + 10 = 2 ^ 32 := ⟨2 ^ 32 - 10, by omega⟩
  exact ⟨List.replicate m 1, fun hm => absurd (List.eq_of_mem_replicate hm) (by decide),
    by rw [List.length_replicate]; exact hm⟩

/-- There is a structure with a string area of 4 GiB and two bytes: two bytes of it are reported. -/
example (oc : Bool) : ∃ (s s' : Structures) (p : Piece) (r : RawStructure), PieceAt s.buffer s.idx.toNat p ∧
    s.idx.toNat + p.len < s.smbios_len.toNat ∧ 2 ^ 32 ≤ p.strings.length ∧
    s.next_raw oc = .ok (some (.ok r), s') ∧ r.strings = [1, 1] := by
  obtain ⟨m, hm⟩ : ∃ m : Nat, m = 2 ^ 32 - 2 := ⟨_, rfl⟩
  let p : Piece := ⟨200, 0x0101, [], (1 :: 1 :: List.replicate m 1) ++ [0, 0]⟩
  have hz : (0 : UInt8) ∉ 1 :: 1 :: List.replicate m 1 := by
    intro h
    rw [← List.replicate_succ, ← List.replicate_succ] at h
    exact absurd (List.eq_of_mem_replicate h) (by decide)
  have hps : p.strings.length = 2 ^ 32 + 2 := by
    simp only [p, List.length_append, List.length_cons, List.length_nil, List.length_replicate]
    omega
  have hpa : PieceAt (p.bytes ++ []) 0 p := ⟨⟨by simp [p, Piece.len], ends_no_zero hz⟩, [], [], rfl, rfl⟩
  have hmod : p.strings.length % 2 ^ 32 = 2 := by rw [hps]
  have h4 : p.len < 5 := by simp [p, Piece.len]
  have hn : (0 : UInt32).toNat + p.len < (5 : UInt32).toNat := by
    simp only [UInt32.toNat_zero, Nat.zero_add]; exact h4
  have h := (C106_structure oc ⟨⟨3, 0⟩, 5, 0, p.bytes ++ []⟩ p hpa hn).1
    (by rw [hmod]; simp only [UInt32.toNat_zero]; omega)
  rw [hmod] at h
  exact ⟨⟨⟨3, 0⟩, 5, 0, p.bytes ++ []⟩, _, p, _, hpa, hn, by omega, h, rfl⟩

example : (⟨⟨2, 8⟩, 10, 0, [1, 20, 3, 0, 0, 0]⟩ : Structures).idx.toNat + 4 < 2 ^ 32 := by decide

end Dmi.Props
