import Verif.Spec.Reported
import Verif.Proofs.Decode
import Verif.Proofs.Table
/-!
# Writing structures and reading them back
-/
namespace Dmi
open Spec

/-! ### String areas -/

theorem good_dash : GoodStr [0x2D] := ⟨by decide, by decide, ⟨['-'], by decide⟩⟩

theorem ends_cons {c : UInt8} {b : Bytes} (hc : c ≠ 0) (h : EndsAtFirstNulNul b) :
    EndsAtFirstNulNul (c :: b) := by
  obtain ⟨⟨x, rfl⟩, h2⟩ := h
  refine ⟨⟨c :: x, rfl⟩, fun x' y e => ?_⟩
  cases x' with
  | nil => simp at e; exact absurd e.1 hc
  | cons d x' => simp at e; exact h2 x' y (by simp [e.2])

theorem ends_zero {d : UInt8} {b : Bytes} (hd : d ≠ 0) (h : EndsAtFirstNulNul (d :: b)) :
    EndsAtFirstNulNul (0 :: d :: b) := by
  obtain ⟨⟨x, hx⟩, h2⟩ := h
  refine ⟨⟨0 :: x, by rw [hx]; rfl⟩, fun x' y e => ?_⟩
  cases x' with
  | nil => simp at e; exact absurd e.1 hd
  | cons a x' => simp at e; exact h2 x' y (by simp [e.2])

theorem ends_append {s b : Bytes} (hs : (0 : UInt8) ∉ s) (h : EndsAtFirstNulNul b) :
    EndsAtFirstNulNul (s ++ b) := by
  induction s with
  | nil => exact h
  | cons c s ih =>
    simp at hs
    exact ends_cons (fun e => hs.1 e.symm) (ih hs.2)

theorem ends_nil : EndsAtFirstNulNul [0, 0] := by
  refine ⟨⟨[], rfl⟩, fun x y e => ?_⟩
  have := congrArg List.length e
  simp at this
  exact List.eq_nil_of_length_eq_zero (by omega)

theorem encodeStrings_ends (l : List Bytes) (h : ∀ s ∈ l, GoodStr s) :
    EndsAtFirstNulNul (encodeStrings l) := by
  have key : ∀ l : List Bytes, l ≠ [] → (∀ s ∈ l, GoodStr s) →
      EndsAtFirstNulNul (l.flatMap (· ++ [0]) ++ [0]) ∧
      ∃ c b, l.flatMap (· ++ [0]) ++ [0] = c :: b ∧ c ≠ 0 := by
    intro l
    induction l with
    | nil => intro h; exact absurd rfl h
    | cons s l ih =>
      intro _ h
      obtain ⟨hne, h0, -⟩ := h s (by simp)
      have e : (s :: l).flatMap (· ++ [0]) ++ [0] = s ++ (0 :: (l.flatMap (· ++ [0]) ++ [0])) := by
        simp
      rw [e]
      refine ⟨ends_append h0 ?_, ?_⟩
      · by_cases hl : l = []
        · subst hl; exact ends_nil
        · obtain ⟨h1, c, b, e1, hc⟩ := ih hl (fun t ht => h t (by simp [ht]))
          rw [e1] at h1 ⊢
          exact ends_zero hc h1
      · cases s with
        | nil => exact absurd rfl hne
        | cons c s => exact ⟨c, _, rfl, fun e => h0 (by simp [e])⟩
  cases l with
  | nil => exact ends_nil
  | cons a l => exact (key _ (by simp) h).1

theorem placeholder_good {ts : List Bytes} (h : ∀ t ∈ ts, Storable t) :
    ∀ s ∈ ts.map fun t => if t = [] then [0x2D] else t, GoodStr s := by
  intro s hs
  obtain ⟨t, ht, rfl⟩ := List.mem_map.mp hs
  split
  · exact good_dash
  · exact (h t ht).resolve_left ‹_›

theorem textArea_ends {ts : List Bytes} (h : ∀ t ∈ ts, Storable t) :
    EndsAtFirstNulNul (textArea ts) := encodeStrings_ends _ (placeholder_good h)

/-- The reference to a text of the area means this text. -/
theorem textArea_ref {ts : List Bytes} (h : ∀ t ∈ ts, Storable t) (i : Nat) {t : Bytes}
    (ht : ts[i]? = some t) (h255 : i < 255) : HasString (textArea ts) (refTo (.ofNat (i + 1)) t).toNat t := by
  unfold refTo
  by_cases e : t = []
  · rw [if_pos e]; exact Or.inl ⟨rfl, e⟩
  · rw [if_neg e]
    have hn : (UInt8.ofNat (i + 1)).toNat = i + 1 := by
      rw [UInt8.toNat_ofNat']; omega
    rw [hn]
    obtain ⟨l, hl⟩ : ∃ l, l = ts.map fun t => if t = [] then [0x2D] else t := ⟨_, rfl⟩
    have hi : i < ts.length := by
      rcases Nat.lt_or_ge i ts.length with h | h
      · exact h
      · rw [List.getElem?_eq_none h] at ht; simp at ht
    have hil : i < l.length := by simp [hl, hi]
    have hli : l[i] = t := by
      rw [List.getElem?_eq_getElem hi] at ht
      simp only [hl, List.getElem_map, Option.some.inj ht, if_neg e]
    refine Or.inr ⟨by omega, l.take (i + 1), (l.drop (i + 1)).flatMap (· ++ [0]) ++ [0, 0], ⟨?_, ?_⟩, ?_, ?_⟩
    · have hne : l ≠ [] := by intro h; rw [h] at hil; simp at hil
      have : textArea ts = l.flatMap (· ++ [0]) ++ [0] := by
        show encodeStrings (ts.map _) = _
        rw [← hl]
        cases l with
        | nil => exact absurd rfl hne
        | cons a l => rfl
      rw [this]
      have e2 : l.flatMap (· ++ [0]) =
          (l.take (i + 1)).flatMap (· ++ [0]) ++ (l.drop (i + 1)).flatMap (· ++ [0]) := by
        rw [← List.flatMap_append, List.take_append_drop]
      rw [e2]
      simp
    · exact fun s hs => placeholder_good h s (hl ▸ List.mem_of_mem_take hs)
    · rw [List.length_take]; omega
    · rw [List.getLast?_eq_getElem?, List.length_take, List.getElem?_take,
        if_pos (by omega), List.getElem?_eq_getElem (by omega)]
      congr 1
      have : min (i + 1) l.length - 1 = i := by omega
      simp only [this, hli]

theorem storable_of_hasString {a : Bytes} {i : Nat} {t : Bytes} (h : HasString a i t) :
    Storable t := by
  rcases h with ⟨-, h⟩ | ⟨-, l, rest, hl, -, hlast⟩
  · exact Or.inl h
  · exact Or.inr (hl.2 t (List.mem_of_getLast? hlast))

theorem storable_of_ref {s : RawStructure} {o : Nat} {t : Bytes} (h : Ref s o t) : Storable t :=
  storable_of_hasString h

/-! ### Numbers -/

theorem u16At_enc (w : UInt16) : u16At (enc16 w) 0 = w := by
  apply UInt16.toNat.inj
  have := w.toNat_lt
  simp only [u16At, enc16, leBytes, leAt, byteAt, List.getD_cons_zero, List.getD_cons_succ,
    UInt16.toNat_ofNat', UInt8.toNat_ofNat']
  omega

theorem u32At_enc (w : UInt32) : u32At (enc32 w) 0 = w := by
  apply UInt32.toNat.inj
  have := w.toNat_lt
  simp only [u32At, enc32, leBytes, leAt, byteAt, List.getD_cons_zero, List.getD_cons_succ,
    UInt32.toNat_ofNat', UInt8.toNat_ofNat']
  omega

theorem u64At_enc (w : UInt64) : u64At (enc64 w) 0 = w := by
  apply UInt64.toNat.inj
  have := w.toNat_lt
  simp only [u64At, enc64, leBytes, leAt, byteAt, List.getD_cons_zero, List.getD_cons_succ,
    UInt64.toNat_ofNat', UInt8.toNat_ofNat']
  omega

/-! ### Presence -/

theorem present_iff {α : Type} {c : Prop} {p : α → Prop} {o : Option α} :
    Present c p o ↔ When c o p := by
  unfold Present When
  cases o with
  | none => by_cases c <;> simp_all
  | some a => by_cases c <;> simp_all

theorem present_of_when {α : Type} {c : Prop} {p q : α → Prop} {o : Option α} (h : When c o p)
    (hpq : ∀ a, p a → q a) : Present c q o :=
  have h := present_iff.mpr h
  ⟨h.1, fun a ha => hpq a (h.2 a ha)⟩

theorem when_of_present {α : Type} {c : Prop} {p q : α → Prop} {o : Option α} (h : Present c p o)
    (hq : ∀ a, o = some a → q a) : When c o q := present_iff.mp ⟨h.1, hq⟩

theorem present_coded {κ α : Type} [Inhabited κ] {c : Prop} {dec : κ → α} {o : Option α}
    (h : Present c (Coded dec) o) : ∃ b, ∀ a, o = some a → a = dec b := by
  cases o with
  | none => exact ⟨default, by simp⟩
  | some a =>
    obtain ⟨b, hb⟩ := h.2 a rfl
    exact ⟨b, by simpa using hb.symm⟩

theorem storable_nil : Storable [] := Or.inl rfl

theorem storable_getD {c : Prop} {o : Option Bytes} (h : Present c Storable o) :
    Storable (o.getD []) := by
  cases o with
  | none => exact storable_nil
  | some a => exact h.2 a rfl

/-- The reference to an optional text. -/
theorem textArea_opt {ts : List Bytes} (h : ∀ t ∈ ts, Storable t) (i : Nat) {o : Option Bytes}
    (ht : ts[i]? = some (o.getD [])) (h255 : i < 255) (a : Bytes) (ha : o = some a) :
    HasString (textArea ts) (refTo (.ofNat (i + 1)) (o.getD [])).toNat a := by
  have := textArea_ref h i ht h255
  rw [ha] at this ⊢
  exact this

theorem getD_of {α : Type} {o : Option α} {a d : α} (h : o = some a) : a = o.getD d := by
  rw [h]; rfl

theorem onlyBits_of_kept {bits : List Nat} {w c : Nat} (h : Kept bits w c) : OnlyBits bits c := by
  intro i hi
  rw [h i] at hi
  simp at hi
  exact hi.2

theorem kept_self {bits : List Nat} {c : Nat} (h : OnlyBits bits c) : Kept bits c c := by
  intro i
  cases e : c.testBit i with
  | false => simp
  | true => simp [h i e]

/-- A number stored at some offset is the one that was written there. -/
macro "stored" : tactic => `(tactic| first
  | rfl
  | exact (u16At_enc _).symm
  | exact (u32At_enc _).symm
  | exact (u64At_enc _).symm)

/-- The same for an optional one. -/
macro "stored_opt" : tactic => `(tactic| (intro a ha; first
  | exact getD_of ha
  | exact (getD_of ha).trans (u16At_enc _).symm
  | exact (getD_of ha).trans (u32At_enc _).symm
  | exact (getD_of ha).trans (u64At_enc _).symm))

/-! ### Dispatch -/

theorem Res.map_ok {ε α β : Type} {f : α → β} (hf : ∀ {a b}, f a = f b → a = b) {x : Res ε α} {v : α} :
    x.map f = .ok (f v) ↔ x = .ok v := by
  cases x with
  | ok a => simp only [Res.map, Res.ok.injEq]; exact ⟨hf, congrArg f⟩
  | err e => simp [Res.map]
  | panic => simp [Res.map]
  | ub => simp [Res.map]

theorem Res.map_ne {ε α β : Type} {f : α → β} {b : β} (hf : ∀ a, f a ≠ b) (x : Res ε α) :
    x.map f ≠ .ok b := by
  cases x with
  | ok a => simpa [Res.map] using hf a
  | err e => simp [Res.map]
  | panic => simp [Res.map]
  | ub => simp [Res.map]

/-- To be reported as a value of some type is to be accepted by the decoder of this type. -/
theorem reported_iff {α : Type} {oc : Bool} {ver : SmbiosVersion} {v : α} {mk : α → Structure}
    {dec : RawStructure → R α} {info : InfoType}
    (h1 : ∀ s : RawStructure, s.info = info → decodeStructure oc s = (dec s).map mk)
    (h2 : ∀ s : RawStructure, s.info ≠ info → decodeStructure oc s ≠ .ok (mk v))
    (hi : ∀ {a b}, mk a = mk b → a = b) :
    ReportedAt oc ver (mk v) ↔
      ∃ p : Piece, p.WF ∧ InfoType.ofU8 p.kind = info ∧ dec (p.raw ver) = .ok v := by
  unfold ReportedAt
  constructor
  · rintro ⟨p, hp, h⟩
    by_cases hi' : InfoType.ofU8 p.kind = info
    · exact ⟨p, hp, hi', (Res.map_ok hi).mp ((h1 (p.raw ver) hi').symm.trans h)⟩
    · exact absurd h (h2 _ hi')
  · rintro ⟨p, hp, hi', h⟩
    exact ⟨p, hp, by rw [h1 _ hi', h]; rfl⟩

/-- The three conditions of `reported_iff` for one structure type. -/
macro "dispatch_ok" : tactic => `(tactic| (
  · intro s h
    simp only [decodeStructure, h]
  · intro s h
    unfold decodeStructure
    split <;> first
      | (exfalso; apply h; assumption)
      | (apply Res.map_ne; intro a ha; cases ha; done)
      | (intro ha; cases ha; done)
  · intro a b h
    injection h))

/-- The formatted area has the number of bytes it is written with. -/
macro "len_ok" : tactic => `(tactic| exact Nat.le_of_ble_eq_true rfl)

/-! ### Examples -/

theorem plain_wf {k : UInt8} {d : Bytes} (h : d.length < 252) : Piece.WF ⟨k, 0, d, [0, 0]⟩ :=
  ⟨by show d.length + 4 < 256; omega, ends_nil⟩

/-- The structure of type `k` with data `d` and no strings in a table of version 3.4 is reported as
a value that satisfies `P`. -/
theorem some_reported {α : Type} {P : α → Prop} {f : α → Structure} (k : UInt8) (d : Bytes)
    (hd : d.length < 252) (g : Structure → Option α) (hg : ∀ x v, g x = some v → x = f v)
    (h : ∀ v, ReportedAt false ⟨3, 4⟩ (f v) → P v)
    (e : (match decodeStructure false (Piece.raw ⟨k, 0, d, [0, 0]⟩ ⟨3, 4⟩) with
      | .ok x => (g x).isSome | _ => false) = true) : ∃ v, P v := by
  split at e
  · rename_i x hx
    cases hv : g x with
    | none => rw [hv] at e; cases e
    | some v => exact ⟨v, h v ⟨_, plain_wf hd, by rw [hx, hg x v hv]⟩⟩
  · cases e

end Dmi
