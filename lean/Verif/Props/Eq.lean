import Verif.Model.Eq
import Verif.Proofs.Outcome
import Verif.Host
/-!
# Property C65: equality and hashing of the chunked iterators
-/
namespace Dmi.Props
open system_slots system_event_log enclosure

theorem chunks_next_none {c c' : Chunks} (h : c.next = (none, c')) : c.rest = [] ∧ c' = c := by
  unfold Chunks.next at h
  split at h
  · rename_i he
    cases h; exact ⟨List.isEmpty_iff.1 he, rfl⟩
  · cases h

theorem chunks_next_some {c c' : Chunks} {x : Bytes} (h : c.next = (some x, c')) :
    c.rest ≠ [] ∧ x = c.rest.take c.size ∧ c' = ⟨c.rest.drop c.size, c.size⟩ := by
  unfold Chunks.next at h
  split at h
  · cases h
  · rename_i he
    cases h; exact ⟨fun e => he (List.isEmpty_iff.2 e), rfl, rfl⟩

theorem collects_det {σ α : Type} {next : σ → Option α × σ} {s : σ} {l l' : List α}
    (h : Collects next s l) (h' : Collects next s l') : l = l' := by
  induction h generalizing l' with
  | done h =>
    cases h' with
    | done _ => rfl
    | step h2 _ => rw [h] at h2; cases h2
  | step h _ ih =>
    cases h' with
    | done h2 => rw [h] at h2; cases h2
    | step h2 t2 => rw [h] at h2; cases h2; rw [ih t2]

/-- The fuel of the model suffices: comparison and hash are those of the sequence of chunks. -/
theorem chunks_collect [Usize] : ∀ (fuel : Nat) (c : Chunks), 0 < c.size → c.rest.length < fuel →
    ∃ l, Collects Chunks.next c l ∧ c.hashFuel fuel = l.flatMap hashSlice
  | 0, _, _, h => by omega
  | fuel + 1, c, hs, hf => by
    rcases hn : c.next with ⟨_ | x, c'⟩
    · exact ⟨[], .done hn, by rw [Chunks.hashFuel, hn]; rfl⟩
    · obtain ⟨h1, h2, h3⟩ := chunks_next_some hn
      have hpos : 0 < c.rest.length := List.length_pos_iff.2 h1
      obtain ⟨l, h4, h5⟩ := chunks_collect fuel c' (by rw [h3]; exact hs)
        (by rw [h3]; simp only [List.length_drop]; omega)
      exact ⟨x :: l, .step hn h4, by rw [Chunks.hashFuel, hn]; simp only [h5, List.flatMap_cons]⟩

theorem eqFuel_iff : ∀ (fuel : Nat) (a b : Chunks), 0 < a.size → a.rest.length < fuel →
    (a.eqFuel fuel b = true ↔ ∃ l, Collects Chunks.next a l ∧ Collects Chunks.next b l)
  | 0, _, _, _, h => by omega
  | fuel + 1, a, b, hs, hf => by
    rcases hn : a.next with ⟨_ | x, a'⟩ <;> rcases hm : b.next with ⟨_ | y, b'⟩ <;>
      rw [Chunks.eqFuel, hn, hm] <;> simp only
    · exact ⟨fun _ => ⟨[], .done hn, .done hm⟩, fun _ => trivial⟩
    · refine ⟨nofun, ?_⟩
      rintro ⟨l, h1, h2⟩
      cases h1 with
      | done _ => cases h2 with | done h => rw [hm] at h; cases h
      | step h _ => rw [hn] at h; cases h
    · refine ⟨nofun, ?_⟩
      rintro ⟨l, h1, h2⟩
      cases h1 with
      | done h => rw [hn] at h; cases h
      | step h _ => cases h2 with | step h _ => rw [hm] at h; cases h
    · obtain ⟨h1, h2, h3⟩ := chunks_next_some hn
      have hpos : 0 < a.rest.length := List.length_pos_iff.2 h1
      have ih := eqFuel_iff fuel a' b' (by rw [h3]; exact hs)
        (by rw [h3]; simp only [List.length_drop]; omega)
      split
      · rename_i hxy
        rw [ih]
        constructor
        · rintro ⟨l, h4, h5⟩
          exact ⟨x :: l, .step hn h4, .step (by rw [hxy]; exact hm) h5⟩
        · rintro ⟨l, h4, h5⟩
          cases h4 with
          | done h => rw [hn] at h; cases h
          | step h t =>
            rw [hn] at h; cases h
            cases h5 with
            | step h t' => rw [hm] at h; cases h; exact ⟨_, t, t'⟩
      · rename_i hxy
        refine ⟨nofun, ?_⟩
        rintro ⟨l, h4, h5⟩
        cases h4 with
        | done h => rw [hn] at h; cases h
        | step h t =>
          rw [hn] at h; cases h
          cases h5 with
          | step h t' => rw [hm] at h; cases h; exact absurd rfl hxy

theorem chunks_eq_iff {a b : Chunks} (ha : 0 < a.size) :
    a.eq b = true ↔ ∃ l, Collects Chunks.next a l ∧ Collects Chunks.next b l :=
  eqFuel_iff _ a b ha (by omega)

theorem chunks_hash_of_eq [Usize] {a b : Chunks} (ha : 0 < a.size) (hb : 0 < b.size) (h : a.eq b = true) :
    a.hash = b.hash := by
  obtain ⟨l, h1, h2⟩ := (chunks_eq_iff ha).1 h
  obtain ⟨la, h3, h4⟩ := chunks_collect (a.rest.length + 1) a ha (by omega)
  obtain ⟨lb, h5, h6⟩ := chunks_collect (b.rest.length + 1) b hb (by omega)
  unfold Chunks.hash
  rw [h4, h6, collects_det h3 h1, collects_det h5 h2]

/-- Equal chunk iterators yield equal chunks and stay equal. -/
theorem chunks_next_of_eq {a b : Chunks} (ha : 0 < a.size) (h : a.eq b = true) :
    a.next.1 = b.next.1 ∧ a.next.2.eq b.next.2 = true ∧ a.next.2.size = a.size := by
  obtain ⟨l, h1, h2⟩ := (chunks_eq_iff ha).1 h
  cases h1 with
  | done h1 =>
    cases h2 with
    | done h2 =>
      rw [h1, h2]
      obtain ⟨-, rfl⟩ := chunks_next_none h1
      obtain ⟨-, rfl⟩ := chunks_next_none h2
      exact ⟨rfl, h, rfl⟩
  | step h1 t1 =>
    cases h2 with
    | step h2 t2 =>
      rw [h1, h2]
      have e := (chunks_next_some h1).2.2
      exact ⟨rfl, (chunks_eq_iff (by rw [e]; exact ha)).2 ⟨_, t1, t2⟩, by rw [e]⟩

theorem chunks_eq_refl {a : Chunks} (ha : 0 < a.size) : a.eq a = true := by
  obtain ⟨l, h, -⟩ := chunks_collect (a.rest.length + 1) a ha (by omega)
  exact (chunks_eq_iff ha).2 ⟨l, h, h⟩
theorem chunks_eq_symm {a b : Chunks} (ha : 0 < a.size) (hb : 0 < b.size) (h : a.eq b = true) :
    b.eq a = true := by
  obtain ⟨l, h1, h2⟩ := (chunks_eq_iff ha).1 h
  exact (chunks_eq_iff hb).2 ⟨l, h2, h1⟩
theorem chunks_eq_trans {a b c : Chunks} (ha : 0 < a.size) (hb : 0 < b.size) (h : a.eq b = true)
    (h' : b.eq c = true) : a.eq c = true := by
  obtain ⟨l, h1, h2⟩ := (chunks_eq_iff ha).1 h
  obtain ⟨l', h3, h4⟩ := (chunks_eq_iff hb).1 h'
  rw [collects_det h3 h2] at h4
  exact (chunks_eq_iff ha).2 ⟨l, h1, h4⟩

theorem collects_flatten {c : Chunks} {l : List Bytes} (h : Collects Chunks.next c l) :
    c.rest = l.flatten := by
  induction h with
  | done h => exact (chunks_next_none h).1
  | step h _ ih =>
    obtain ⟨-, h2, h3⟩ := chunks_next_some h
    rw [List.flatten_cons, ← ih, h2, h3]
    exact (List.take_append_drop _ _).symm

/-- Chunks of equal size are equal iff the same bytes are left. -/
theorem chunks_eq_rest {a b : Chunks} (ha : 0 < a.size) (hs : a.size = b.size) :
    a.eq b = true ↔ a.rest = b.rest := by
  constructor
  · intro h
    obtain ⟨l, h1, h2⟩ := (chunks_eq_iff ha).1 h
    rw [collects_flatten h1, collects_flatten h2]
  · intro h
    obtain ⟨ra, sa⟩ := a; obtain ⟨rb, sb⟩ := b
    simp only at hs h
    subst hs h
    exact chunks_eq_refl ha

theorem digits_inj : ∀ (k n m : Nat), n < 256 ^ k → m < 256 ^ k →
    (∀ i < k, n / 256 ^ i % 256 = m / 256 ^ i % 256) → n = m
  | 0, n, m, hn, hm, _ => by
    rw [Nat.pow_zero] at hn hm
    omega
  | k + 1, n, m, hn, hm, h => by
    rw [Nat.pow_succ] at hn hm
    have h0 := h 0 (by omega)
    simp only [Nat.pow_zero, Nat.div_one] at h0
    have := digits_inj k (n / 256) (m / 256) (Nat.div_lt_of_lt_mul (by omega))
      (Nat.div_lt_of_lt_mul (by omega)) fun i hi => by
        have := h (i + 1) (by omega)
        rwa [Nat.pow_succ, Nat.mul_comm, ← Nat.div_div_eq_div_mul, ← Nat.div_div_eq_div_mul] at this
    omega

theorem usizeBytes_inj [u : Usize] (hu : 8 ∣ u.bits) {n m : Nat} (hn : n < 2 ^ u.bits)
    (hm : m < 2 ^ u.bits) (h : usizeBytes n = usizeBytes m) : n = m := by
  obtain ⟨k, hk⟩ := hu
  rw [hk, Nat.pow_mul] at hn hm
  refine digits_inj k n m hn hm fun i hi => ?_
  have hl : i < u.bits / 8 := by omega
  have := congrArg (fun l => l[i]?) h
  simp only [usizeBytes, List.getElem?_map, List.getElem?_range hl, Option.map_some, Option.some.injEq,
    ← UInt8.toNat_inj, UInt8.toNat_ofNat'] at this
  exact this

/-- The bytes written for a sequence of slices determine it. -/
theorem hashSlices_inj [u : Usize] (hu : 8 ∣ u.bits) (h0 : 0 < u.bits) :
    ∀ {l l' : List Bytes}, (∀ x ∈ l, x.length < 2 ^ u.bits) →
    (∀ x ∈ l', x.length < 2 ^ u.bits) → l.flatMap hashSlice = l'.flatMap hashSlice → l = l'
  | [], [], _, _, _ => rfl
  | [], y :: l', _, _, h => by
    have := congrArg List.length h
    simp [hashSlice, usizeBytes] at this
    omega
  | x :: l, [], _, _, h => by
    have := congrArg List.length h
    simp [hashSlice, usizeBytes] at this
    omega
  | x :: l, y :: l', hl, hl', h => by
    simp only [List.flatMap_cons, hashSlice, List.append_assoc] at h
    obtain ⟨h1, h2⟩ := List.append_inj h (by simp [usizeBytes])
    obtain ⟨h3, h4⟩ := List.append_inj h2
      (usizeBytes_inj hu (hl x List.mem_cons_self) (hl' y List.mem_cons_self) h1)
    rw [h3, hashSlices_inj hu h0 (fun z hz => hl z (List.mem_cons_of_mem _ hz))
      (fun z hz => hl' z (List.mem_cons_of_mem _ hz)) h4]

theorem chunks_eq_of_hash [u : Usize] (hu : 8 ∣ u.bits) (h0 : 0 < u.bits) {a b : Chunks}
    (ha : 0 < a.size) (hb : 0 < b.size) (la : a.rest.length < 2 ^ u.bits)
    (lb : b.rest.length < 2 ^ u.bits) (h : a.hash = b.hash) : a.eq b = true := by
  obtain ⟨l, h1, h2⟩ := chunks_collect (a.rest.length + 1) a ha (by omega)
  obtain ⟨l', h3, h4⟩ := chunks_collect (b.rest.length + 1) b hb (by omega)
  unfold Chunks.hash at h
  rw [h2, h4] at h
  have short {c : Chunks} {l} (k : Collects Chunks.next c l) (hc : c.rest.length < 2 ^ u.bits) :
      ∀ x ∈ l, x.length < 2 ^ u.bits := by
    intro x hx
    rw [collects_flatten k] at hc
    exact Nat.lt_of_le_of_lt (List.sublist_flatten_of_mem hx).length_le hc
  rw [hashSlices_inj hu h0 (short h1 la) (short h3 lb) h] at h1
  exact (chunks_eq_iff ha).2 ⟨_, h1, h3⟩

/-! ### The three types -/

/-- C65: equality of peer device lists is an equivalence; equal lists feed a hasher the same bytes,
yield equal items and stay equal; lists made from slices are equal iff the slices are. -/
theorem C65_PeerDevices (a b c : PeerDevices) (ha : 0 < a.chunks.size) (hb : 0 < b.chunks.size) :
    a.eq a = true ∧ (a.eq b = true → b.eq a = true) ∧
    (a.eq b = true → b.eq c = true → a.eq c = true) ∧
    (a.eq b = true → a.hash = b.hash) ∧
    (a.eq b = true → ∀ o a', a.next = .ok (o, a') → ∃ b', b.next = .ok (o, b') ∧ a'.eq b' = true) ∧
    (∀ x y : Bytes, (PeerDevices.ofSlice x).eq (PeerDevices.ofSlice y) = true ↔ x = y) := by
  refine ⟨chunks_eq_refl ha, chunks_eq_symm ha hb, chunks_eq_trans ha hb, chunks_hash_of_eq ha hb, ?_,
    fun x y => chunks_eq_rest (show 0 < 5 by decide) rfl⟩
  intro h o a' hn
  obtain ⟨h1, h2, -⟩ := chunks_next_of_eq ha h
  unfold PeerDevices.next at hn ⊢
  rcases hna : a.chunks.next with ⟨oa, ca⟩
  rcases hnb : b.chunks.next with ⟨ob, cb⟩
  rw [hna, hnb] at h1 h2
  try rw [hna] at hn
  try rw [hnb]
  simp only at h1 h2 hn ⊢
  subst h1
  cases oa with
  | none => cases hn; exact ⟨⟨cb⟩, rfl, h2⟩
  | some x =>
    simp only [bind_ok_iff, Res.ok.injEq, Prod.mk.injEq] at hn ⊢
    obtain ⟨d, hd, rfl, rfl⟩ := hn
    exact ⟨⟨cb⟩, ⟨d, hd, rfl, rfl⟩, h2⟩

/-- C65: the same for the descriptors of an event log. -/
theorem C65_Descriptors (a b c : SupportedEventLogTypeDescriptors) (ha : 0 < a.chunks.size)
    (hb : 0 < b.chunks.size) :
    a.eq a = true ∧ (a.eq b = true → b.eq a = true) ∧
    (a.eq b = true → b.eq c = true → a.eq c = true) ∧
    (a.eq b = true → a.hash = b.hash) ∧
    (a.eq b = true → a.next.1 = b.next.1 ∧ a.next.2.eq b.next.2 = true) ∧
    (a.chunks.size = b.chunks.size → (a.eq b = true ↔ a.chunks.rest = b.chunks.rest)) := by
  refine ⟨chunks_eq_refl ha, chunks_eq_symm ha hb, chunks_eq_trans ha hb, chunks_hash_of_eq ha hb, ?_,
    chunks_eq_rest ha⟩
  intro h
  obtain ⟨h1, h2, -⟩ := chunks_next_of_eq ha h
  unfold SupportedEventLogTypeDescriptors.next
  rcases hna : a.chunks.next with ⟨oa, ca⟩
  rcases hnb : b.chunks.next with ⟨ob, cb⟩
  rw [hna, hnb] at h1 h2
  simp only at h1 h2
  subst h1
  rcases oa with _ | _ | ⟨x, _ | ⟨y, _ | _⟩⟩ <;> exact ⟨by trivial, h2⟩

/-- C65: the same for the contained elements of an enclosure, where the two counts take part. -/
theorem C65_ContainedElements (a b c : ContainedElements) (ha : 0 < a.chunks.size)
    (hb : 0 < b.chunks.size) :
    a.eq a = true ∧ (a.eq b = true → b.eq a = true) ∧
    (a.eq b = true → b.eq c = true → a.eq c = true) ∧
    (a.eq b = true → a.hash = b.hash) ∧
    (a.eq b = true → ∀ o a', a.next = .ok (o, a') → ∃ b', b.next = .ok (o, b') ∧ a'.eq b' = true) ∧
    (a.eq b = true → a.count = b.count ∧ a.record_length = b.record_length) ∧
    (a.chunks.size = b.chunks.size → a.chunks.rest = b.chunks.rest → a.count = b.count →
      a.record_length = b.record_length → a.eq b = true) ∧
    (a.chunks.size = b.chunks.size → a.eq b = true → a.chunks.rest = b.chunks.rest) := by
  have split : ∀ x y : ContainedElements, x.eq y = true ↔
      x.chunks.eq y.chunks = true ∧ x.count = y.count ∧ x.record_length = y.record_length := by
    intro x y
    simp only [ContainedElements.eq, Bool.and_eq_true, beq_iff_eq, and_assoc]
  simp only [split]
  refine ⟨⟨chunks_eq_refl ha, by trivial⟩, fun h => ⟨chunks_eq_symm ha hb h.1, h.2.1.symm, h.2.2.symm⟩,
    fun h h' => ⟨chunks_eq_trans ha hb h.1 h'.1, h.2.1.trans h'.2.1, h.2.2.trans h'.2.2⟩,
    fun h => ?_, ?_, fun h => h.2, fun h1 h2 h3 h4 => ⟨(chunks_eq_rest ha h1).2 h2, h3, h4⟩,
    fun h1 h2 => (chunks_eq_rest ha h1).1 h2.1⟩
  · rw [ContainedElements.hash, ContainedElements.hash, chunks_hash_of_eq ha hb h.1, h.2.1, h.2.2]
  intro ⟨h, hc, hr⟩ o a' hn
  obtain ⟨h1, h2, -⟩ := chunks_next_of_eq ha h
  unfold ContainedElements.next at hn ⊢
  rcases hna : a.chunks.next with ⟨oa, ca⟩
  rcases hnb : b.chunks.next with ⟨ob, cb⟩
  rw [hna, hnb] at h1 h2
  try rw [hna] at hn
  try rw [hnb]
  simp only at h1 h2 hn ⊢
  subst h1
  cases oa with
  | none => cases hn; exact ⟨_, rfl, h2, hc, hr⟩
  | some x =>
    simp only [bind_ok_iff, Res.ok.injEq, Prod.mk.injEq] at hn ⊢
    obtain ⟨d, hd, rfl, rfl⟩ := hn
    exact ⟨_, ⟨d, hd, rfl, rfl⟩, h2, hc, hr⟩

/-- C65: conversely, values that feed a hasher the same bytes are equal, whatever the width `n` of `usize`
(no slice has 2^n bytes). -/
theorem C65_hash_faithful (n : Nat) (hn : 8 ∣ n) (h0 : 0 < n) :
    (∀ a b : PeerDevices, 0 < a.chunks.size → 0 < b.chunks.size → a.chunks.rest.length < 2 ^ n →
      b.chunks.rest.length < 2 ^ n → (@PeerDevices.hash ⟨n⟩ a = @PeerDevices.hash ⟨n⟩ b ↔ a.eq b = true)) ∧
    (∀ a b : SupportedEventLogTypeDescriptors, 0 < a.chunks.size → 0 < b.chunks.size →
      a.chunks.rest.length < 2 ^ n → b.chunks.rest.length < 2 ^ n →
      (@SupportedEventLogTypeDescriptors.hash ⟨n⟩ a = @SupportedEventLogTypeDescriptors.hash ⟨n⟩ b ↔
        a.eq b = true)) ∧
    (∀ a b : ContainedElements, 0 < a.chunks.size → 0 < b.chunks.size →
      a.chunks.rest.length < 2 ^ n → b.chunks.rest.length < 2 ^ n →
      (@ContainedElements.hash ⟨n⟩ a = @ContainedElements.hash ⟨n⟩ b ↔ a.eq b = true)) := by
  have key : ∀ a b : Chunks, 0 < a.size → 0 < b.size → a.rest.length < 2 ^ n → b.rest.length < 2 ^ n →
      (@Chunks.hash ⟨n⟩ a = @Chunks.hash ⟨n⟩ b ↔ a.eq b = true) := fun a b h1 h2 h3 h4 =>
    ⟨@chunks_eq_of_hash ⟨n⟩ hn h0 a b h1 h2 h3 h4, @chunks_hash_of_eq ⟨n⟩ a b h1 h2⟩
  refine ⟨fun a b => key a.chunks b.chunks, fun a b => key a.chunks b.chunks, fun a b h1 h2 h3 h4 => ?_⟩
  unfold ContainedElements.hash
  simp only [ContainedElements.eq, Bool.and_eq_true, beq_iff_eq, ← key _ _ h1 h2 h3 h4]
  constructor
  · intro h
    rw [List.append_assoc, List.append_assoc] at h
    obtain ⟨h5, h6⟩ := List.append_inj' h rfl
    simp only [List.singleton_append, List.cons.injEq, and_true] at h6
    exact ⟨⟨h5, h6.1⟩, h6.2⟩
  · rintro ⟨⟨h5, h6⟩, h7⟩
    rw [h5, h6, h7]

/-- C65: the values the decoders make have a chunk size. -/
theorem C65_sizes :
    (∀ x : Bytes, 0 < (PeerDevices.ofSlice x).chunks.size) ∧
    (∀ (x : Bytes) (n : Nat) (d : SupportedEventLogTypeDescriptors),
      (SupportedEventLogTypeDescriptors.new x n : R _) = .ok d → 0 < d.chunks.size) ∧
    (∀ (oc : Bool) (x y : Bytes) (e : ContainedElements),
      ContainedElements.new oc x = .ok (some (e, y)) → 0 < e.chunks.size) := by
  refine ⟨fun _ => (show 0 < 5 by decide), ?_, ?_⟩
  · intro x n d h
    unfold SupportedEventLogTypeDescriptors.new at h
    split at h
    · cases h
    · cases h; show 0 < n; omega
  · intro oc x y e h
    unfold ContainedElements.new at h
    simp only [bind_ok_iff] at h
    obtain ⟨r1, -, h⟩ := h
    split at h
    · cases h
    simp only [bind_ok_iff] at h
    obtain ⟨r2, -, h⟩ := h
    split at h
    · cases h
    split at h
    · cases h; show 0 < 2 ^ 64 - 1; decide
    · rename_i hz
      simp only [bind_ok_iff] at h
      obtain ⟨n, -, h⟩ := h
      split at h
      · cases h
      · simp only [bind_ok_iff] at h
        obtain ⟨_, -, h⟩ := h
        cases h
        show 0 < UInt8.toNat _
        rcases Nat.eq_zero_or_pos (UInt8.toNat _) with h0 | h0
        · exact absurd (.inr (UInt8.toNat_inj.1 h0)) hz
        · exact h0

/-- Two lists of peers, equal iff the bytes are. -/
example : (PeerDevices.ofSlice [1, 2, 3, 4, 5]).eq (PeerDevices.ofSlice [1, 2, 3, 4, 5]) = true ∧
    (PeerDevices.ofSlice [1, 2, 3, 4, 5]).eq (PeerDevices.ofSlice [1, 2, 3, 4, 6]) = false := by
  decide +kernel

/-- Descriptors with different chunk sizes can be equal: one chunk of three bytes. -/
example : SupportedEventLogTypeDescriptors.eq ⟨⟨[1, 2, 3], 3⟩⟩ ⟨⟨[1, 2, 3], 4⟩⟩ = true := by
  decide +kernel

/-- The same bytes in chunks of another size are another value, and feed a hasher other bytes. -/
example : (⟨⟨[1, 2, 3, 4], 2⟩⟩ : SupportedEventLogTypeDescriptors).hash ≠
      (⟨⟨[1, 2, 3, 4], 4⟩⟩ : SupportedEventLogTypeDescriptors).hash ∧
    SupportedEventLogTypeDescriptors.eq ⟨⟨[1, 2, 3, 4], 2⟩⟩ ⟨⟨[1, 2, 3, 4], 4⟩⟩ = false ∧
    (⟨⟨[1, 2, 3], 3⟩⟩ : SupportedEventLogTypeDescriptors).hash =
      (⟨⟨[1, 2, 3], 4⟩⟩ : SupportedEventLogTypeDescriptors).hash := by
  decide +kernel

end Dmi.Props
