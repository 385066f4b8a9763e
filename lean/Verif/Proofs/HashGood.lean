import Verif.Model.HashParts
import Verif.Props.Eq
import Verif.Proofs.DebugGood
/-!
# When the bytes written to a hasher determine the value

`Det f g`: from bytes that begin with what `f a` writes, `g a` and the rest can be told. Numbers, strings,
slices, options and so on are of this kind, and so are structs and enumerations of such parts. The three
chunked iterators are not.
-/
namespace Dmi
open Fmt

/-- What Rust guarantees about the value: strings are UTF-8, so that no byte is FFh, and lengths are a `usize`. -/
def Fed.Valid (n : Nat) : Fed → Prop
  | .usize k => k < 2 ^ n
  | .str s => (0xFF : UInt8) ∉ s
  | .slice b => b.length < 2 ^ n
  | .uuid b => b.length = 16
  | .chunks _ => False
  | _ => True

def Fed.AllValid (n : Nat) (l : List Fed) : Prop := ∀ i ∈ l, i.Valid n

theorem allValid_nil (n : Nat) : Fed.AllValid n [] := fun _ h => by cases h

theorem allValid_cons {n : Nat} {i : Fed} {l : List Fed} :
    Fed.AllValid n (i :: l) ↔ i.Valid n ∧ Fed.AllValid n l := List.forall_mem_cons

theorem allValid_append {n : Nat} {l l' : List Fed} :
    Fed.AllValid n (l ++ l') ↔ Fed.AllValid n l ∧ Fed.AllValid n l' := List.forall_mem_append

theorem valid_one {n : Nat} {i : Fed} (h : i.Valid n) : Fed.AllValid n [i] := allValid_cons.2 ⟨h, allValid_nil n⟩

theorem valid_u8 (n : Nat) (x : UInt8) : Fed.AllValid n [.u8 x] := valid_one trivial
theorem valid_u16 (n : Nat) (x : UInt16) : Fed.AllValid n [.u16 x] := valid_one trivial
theorem valid_u32 (n : Nat) (x : UInt32) : Fed.AllValid n [.u32 x] := valid_one trivial
theorem valid_u64 (n : Nat) (x : UInt64) : Fed.AllValid n [.u64 x] := valid_one trivial

theorem valid_opt {α : Type} {n : Nat} {f : α → List Fed} : ∀ {x : Option α}, (∀ y, x = some y → Fed.AllValid n (f y)) →
    Fed.AllValid n (Fed.opt f x)
  | none, _ => valid_one trivial
  | some a, h => allValid_cons.2 ⟨trivial, h a rfl⟩

theorem feed_append [Usize] (pre : Bytes) (l l' : List Fed) : feed pre (l ++ l') = feed pre l ++ feed pre l' :=
  List.flatMap_append

theorem feed_cons [Usize] (pre : Bytes) (i : Fed) (l : List Fed) : feed pre (i :: l) = i.bytes pre ++ feed pre l :=
  rfl

theorem feed_nil [Usize] (pre : Bytes) : feed pre [] = [] := rfl

/-- Bytes that begin with what `f a` writes tell `g a`, and where the rest begins; for every width of `usize`. -/
def Det {α β : Type} (f : α → List Fed) (g : α → β) : Prop :=
  ∀ (n : Nat), 8 ∣ n → 32 ≤ n → ∀ (pre : Bytes) (a b : α) (r s : Bytes),
    Fed.AllValid n (f a) → Fed.AllValid n (f b) → @feed ⟨n⟩ pre (f a) ++ r = @feed ⟨n⟩ pre (f b) ++ s →
    g a = g b ∧ r = s

/-- The same for a single value handed over. -/
theorem det_item {α β : Type} {f : α → Fed} {g : α → β}
    (h : ∀ (n : Nat), 8 ∣ n → 32 ≤ n → ∀ (pre : Bytes) (a b : α) (r s : Bytes), (f a).Valid n → (f b).Valid n →
      @Fed.bytes ⟨n⟩ pre (f a) ++ r = @Fed.bytes ⟨n⟩ pre (f b) ++ s → g a = g b ∧ r = s) :
    Det (fun a => [f a]) g := by
  intro n h8 h32 pre a b r s va vb e
  dsimp only at e
  rw [@feed_cons ⟨n⟩, @feed_cons ⟨n⟩, @feed_nil ⟨n⟩, List.append_nil, List.append_nil] at e
  exact h n h8 h32 pre a b r s (allValid_cons.1 va).1 (allValid_cons.1 vb).1 e

theorem leBytes_length (k n : Nat) : (leBytes k n).length = k := by simp [leBytes]

theorem leBytes_eq_usize {k : Nat} (n : Nat) : leBytes k n = @usizeBytes ⟨8 * k⟩ n := by
  unfold leBytes usizeBytes
  rw [show (@Usize.bits ⟨8 * k⟩) / 8 = k from Nat.mul_div_cancel_left k (by decide)]

theorem leBytes_inj {k n m : Nat} (hn : n < 2 ^ (8 * k)) (hm : m < 2 ^ (8 * k)) (h : leBytes k n = leBytes k m) :
    n = m := by
  rw [leBytes_eq_usize, leBytes_eq_usize] at h
  exact @Props.usizeBytes_inj ⟨8 * k⟩ ⟨k, rfl⟩ n m hn hm h

theorem le_split {k n m : Nat} (hn : n < 2 ^ (8 * k)) (hm : m < 2 ^ (8 * k)) {r s : Bytes}
    (e : leBytes k n ++ r = leBytes k m ++ s) : n = m ∧ r = s := by
  obtain ⟨h1, h2⟩ := List.append_inj e (by rw [leBytes_length, leBytes_length])
  exact ⟨leBytes_inj hn hm h1, h2⟩

theorem usize_split {n : Nat} (h8 : 8 ∣ n) {k m : Nat} (hk : k < 2 ^ n) (hm : m < 2 ^ n) {r s : Bytes}
    (e : @usizeBytes ⟨n⟩ k ++ r = @usizeBytes ⟨n⟩ m ++ s) : k = m ∧ r = s := by
  obtain ⟨h1, h2⟩ := List.append_inj e (by simp [usizeBytes])
  exact ⟨@Props.usizeBytes_inj ⟨n⟩ h8 k m hk hm h1, h2⟩

theorem det_u8 : Det (fun n : UInt8 => [Fed.u8 n]) id := det_item fun _ _ _ _ a b r s _ _ e => by
  injection e with h1 h2; exact ⟨h1, h2⟩

theorem det_u16 : Det (fun n : UInt16 => [Fed.u16 n]) id := det_item fun _ _ _ _ a b r s _ _ e => by
  obtain ⟨h1, h2⟩ := le_split a.toNat_lt b.toNat_lt e
  exact ⟨UInt16.toNat_inj.1 h1, h2⟩

theorem det_u32 : Det (fun n : UInt32 => [Fed.u32 n]) id := det_item fun _ _ _ _ a b r s _ _ e => by
  obtain ⟨h1, h2⟩ := le_split a.toNat_lt b.toNat_lt e
  exact ⟨UInt32.toNat_inj.1 h1, h2⟩

theorem det_u64 : Det (fun n : UInt64 => [Fed.u64 n]) id := det_item fun _ _ _ _ a b r s _ _ e => by
  obtain ⟨h1, h2⟩ := le_split a.toNat_lt b.toNat_lt e
  exact ⟨UInt64.toNat_inj.1 h1, h2⟩

theorem det_usize : Det (fun n : Nat => [Fed.usize n]) id := det_item fun _ h8 _ _ _ _ _ _ va vb e =>
  usize_split h8 va vb e

theorem tag_lt {n : Nat} (h : 32 ≤ n) (k : UInt16) : k.toNat < 2 ^ n :=
  Nat.lt_of_lt_of_le k.toNat_lt (Nat.pow_le_pow_right (by decide) (Nat.le_trans (by decide) h))

theorem det_tag : Det (fun n : UInt16 => [Fed.tag n]) id := det_item fun _ h8 h32 _ a b r s _ _ e => by
  obtain ⟨h1, h2⟩ := usize_split h8 (tag_lt h32 a) (tag_lt h32 b) e
  exact ⟨UInt16.toNat_inj.1 h1, h2⟩

theorem det_bool : Det (fun b : Bool => [Fed.bool b]) id := by
  intro n h8 h32 pre a b r s va vb e
  obtain ⟨h1, h2⟩ := det_u8 n h8 h32 pre _ _ r s va vb e
  refine ⟨?_, h2⟩
  cases a <;> cases b <;> first | rfl | exact absurd h1 (by decide)

theorem str_split : ∀ {a b r s : Bytes}, (0xFF : UInt8) ∉ a → (0xFF : UInt8) ∉ b →
    a ++ 0xFF :: r = b ++ 0xFF :: s → a = b ∧ r = s
  | [], [], _, _, _, _, e => by injection e with _ e; exact ⟨rfl, e⟩
  | [], y :: b, _, _, _, hb, e => by
    injection e with e _
    exact absurd (e ▸ List.mem_cons_self) hb
  | x :: a, [], _, _, ha, _, e => by
    injection e with e _
    exact absurd (e ▸ List.mem_cons_self) ha
  | x :: a, y :: b, _, _, ha, hb, e => by
    injection e with e1 e2
    obtain ⟨h1, h2⟩ := str_split (fun h => ha (.tail _ h)) (fun h => hb (.tail _ h)) e2
    exact ⟨by rw [e1, h1], h2⟩

theorem det_str : Det (fun s : Str => [Fed.str s]) id := det_item fun _ _ _ _ a b r s va vb e => by
  simp only [Fed.bytes, List.append_assoc, List.cons_append, List.nil_append] at e
  exact str_split va vb e

theorem det_slice : Det (fun b : Bytes => [Fed.slice b]) id := det_item fun n h8 _ _ a b r s va vb e => by
  simp only [Fed.bytes, hashSlice, List.append_assoc] at e
  obtain ⟨h1, h2⟩ := usize_split h8 va vb e
  exact List.append_inj h2 h1

theorem det_uuid : Det (fun b : Bytes => [Fed.uuid b]) id := det_item fun _ _ _ pre a b r s va vb e => by
  simp only [Fed.bytes, List.append_assoc] at e
  exact List.append_inj (List.append_cancel_left e) (Eq.trans va vb.symm)

theorem det_chunks {β : Type} (g : Chunks → β) : Det (fun c : Chunks => [Fed.chunks c]) g :=
  det_item fun _ _ _ _ _ _ _ _ va _ _ => va.elim

theorem det_nil {α : Type} : Det (fun _ : α => []) fun _ => () := fun _ _ _ _ _ _ _ _ _ _ e => ⟨rfl, e⟩

/-- One field after another. -/
theorem Det.step {α β : Type} {f : α → List Fed} {g : α → β} (h : Det f g) {n : Nat} (h8 : 8 ∣ n) (h32 : 32 ≤ n)
    {pre : Bytes} {a b : α} {l m : List Fed} {r s : Bytes} (va : Fed.AllValid n (f a ++ l))
    (vb : Fed.AllValid n (f b ++ m)) (e : @feed ⟨n⟩ pre (f a ++ l) ++ r = @feed ⟨n⟩ pre (f b ++ m) ++ s) :
    g a = g b ∧ Fed.AllValid n l ∧ Fed.AllValid n m ∧ @feed ⟨n⟩ pre l ++ r = @feed ⟨n⟩ pre m ++ s := by
  rw [@feed_append ⟨n⟩, @feed_append ⟨n⟩, List.append_assoc, List.append_assoc] at e
  rw [allValid_append] at va vb
  obtain ⟨h1, h2⟩ := h n h8 h32 pre a b _ _ va.1 vb.1 e
  exact ⟨h1, va.2, vb.2, h2⟩

theorem Det.cons {α β γ : Type} {f F : α → List Fed} {g : α → β} {G : α → γ} (h : Det f g) (H : Det F G) :
    Det (fun a => f a ++ F a) fun a => (g a, G a) := by
  intro n h8 h32 pre a b r s va vb e
  obtain ⟨h1, va, vb, e⟩ := h.step h8 h32 va vb e
  obtain ⟨h2, h3⟩ := H n h8 h32 pre a b r s va vb e
  exact ⟨by dsimp only; rw [h1, h2], h3⟩

theorem Det.on {α β γ : Type} {f : α → List Fed} {g : α → β} (h : Det f g) (k : γ → α) :
    Det (fun c => f (k c)) fun c => g (k c) :=
  fun n h8 h32 pre a b r s va vb e => h n h8 h32 pre (k a) (k b) r s va vb e

theorem Det.of {α β : Type} {f : α → List Fed} {g : α → β} (h : Det f g) (hg : ∀ a b, g a = g b → a = b) :
    Det f id := by
  intro n h8 h32 pre a b r s va vb e
  obtain ⟨h1, h2⟩ := h n h8 h32 pre a b r s va vb e
  exact ⟨hg a b h1, h2⟩

theorem det_opt {α : Type} {f : α → List Fed} (h : Det f id) : Det (Fed.opt f) id := by
  have start : ∀ x : Option α, Fed.opt f x = [Fed.tag (if x.isSome then 1 else 0)] ++
      (match x with | none => [] | some a => f a) := fun x => by cases x <;> rfl
  intro n h8 h32 pre a b r s va vb e
  rw [start a, start b] at e
  rw [start] at va vb
  obtain ⟨h1, va, vb, e⟩ := det_tag.step h8 h32 va vb e
  cases a <;> cases b
  · exact ⟨rfl, e⟩
  · exact absurd h1 (by simp)
  · exact absurd h1 (by simp)
  · obtain ⟨h1, h2⟩ := h n h8 h32 pre _ _ r s va vb e
    exact ⟨congrArg some h1, h2⟩

/-- The discriminant of an enumeration. -/
theorem idx_step {n : Nat} (h8 : 8 ∣ n) (h32 : 32 ≤ n) {pre : Bytes} {i j : Nat} (hi : i < 65536) (hj : j < 65536)
    {l m : List Fed} {r s : Bytes} (va : Fed.AllValid n (.tag (.ofNat i) :: l))
    (vb : Fed.AllValid n (.tag (.ofNat j) :: m))
    (e : @feed ⟨n⟩ pre (.tag (.ofNat i) :: l) ++ r = @feed ⟨n⟩ pre (.tag (.ofNat j) :: m) ++ s) :
    i = j ∧ Fed.AllValid n l ∧ Fed.AllValid n m ∧ @feed ⟨n⟩ pre l ++ r = @feed ⟨n⟩ pre m ++ s := by
  obtain ⟨h1, h2⟩ := det_tag.step (l := l) (m := m) h8 h32 va vb e
  refine ⟨?_, h2⟩
  have := congrArg UInt16.toNat h1
  simp only [id, UInt16.toNat_ofNat'] at this
  rwa [Nat.mod_eq_of_lt hi, Nat.mod_eq_of_lt hj] at this

/-- An enumeration most of whose variants have no fields: `L` lists these, `P` describes the others. -/
theorem det_enum {T : Type} {f : T → List Fed} (idx : T → Nat) (rest : T → List Fed)
    (hf : ∀ a, f a = .tag (.ofNat (idx a)) :: rest a) (lt : ∀ a, idx a < 65536) (L : List T) (P : T → Prop)
    (cover : ∀ a, a ∈ L ∨ P a) (nd : (L.map idx).Nodup) (none' : (L.all fun a => (rest a).isEmpty) = true)
    (apart : ∀ a, P a → idx a ∉ L.map idx)
    (other : ∀ a b, P a → P b → idx a = idx b → ∀ (n : Nat), 8 ∣ n → 32 ≤ n → ∀ (pre r s : Bytes),
      Fed.AllValid n (rest a) → Fed.AllValid n (rest b) →
      @feed ⟨n⟩ pre (rest a) ++ r = @feed ⟨n⟩ pre (rest b) ++ s → a = b ∧ r = s) : Det f id := by
  intro n h8 h32 pre a b r s va vb e
  rw [hf a, hf b] at e
  rw [hf] at va vb
  obtain ⟨h1, va, vb, e⟩ := idx_step h8 h32 (lt a) (lt b) va vb e
  rcases cover a with ha | ha <;> rcases cover b with hb | hb
  · have none : ∀ a ∈ L, rest a = [] := fun a ha => List.isEmpty_iff.1 (List.all_eq_true.1 none' a ha)
    rw [none a ha, none b hb] at e
    exact ⟨mem_nodup_map _ nd a ha b hb h1, e⟩
  · exact absurd (List.mem_map.2 ⟨a, ha, h1⟩) (apart b hb)
  · exact absurd (List.mem_map.2 ⟨b, hb, h1.symm⟩) (apart a ha)
  · exact other a b ha hb h1 n h8 h32 pre r s va vb e

end Dmi
