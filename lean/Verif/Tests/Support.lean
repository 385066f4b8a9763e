import Verif.Tests.Data
import Verif.Proofs.Flat
import Verif.Model.Display
import Verif.Host
/-!
# Running the model

Executable versions of what the crate's tests do with the functions of the crate: collecting an
iterator, unwrapping a result, picking the first structure of a kind.

The modules under `Verif/Tests` transcribe the crate's own unit tests: the same inputs are given to the
model and the kernel computes that the results are the ones the Rust test asserts. They prove nothing
about other inputs; they are evidence that the model says what the Rust code does.
-/
namespace Dmi.Tests
open Dmi.Fmt Dmi.Spec

/-- `u8! "…"`: the `&str` of the literal. -/
macro "u8! " s:str : term => `(str (txt! $s))

/-- `find_signature` in a form the kernel can run. -/
def scan : Nat → Bytes → Nat → Option (EntryPointFormat × Nat)
  | 0, _, _ => none
  | n + 1, b, idx =>
    if b = [] then none
    else if V2_SIG.isPrefixOf (b.take 16) then some (.V2, idx * 16)
    else if V3_SIG.isPrefixOf (b.take 16) then some (.V3, idx * 16)
    else scan n (b.drop 16) (idx + 1)

theorem scan_eq (n : Nat) (b : Bytes) (i : Nat) (h : b.length < n) :
    findSignatureLoop (chunks 16 b) i = scan n b i := by
  induction n generalizing b i with
  | zero => omega
  | succ n ih =>
    unfold scan
    by_cases hb : b = []
    · subst hb
      unfold chunks
      simp [findSignatureLoop]
    · have := List.length_pos_iff.mpr hb
      rw [if_neg hb, ← ih _ _ (by rw [List.length_drop]; omega)]
      conv => lhs; unfold chunks
      rw [dif_neg (by simp [hb])]
      rfl

theorem findSignature_eq (b : Bytes) : findSignature b = scan (b.length + 1) b 0 :=
  scan_eq _ b 0 (Nat.lt_succ_self _)

/-- An iterator that cannot fault, run to its first `None` (at most `n` items). -/
def run {σ α : Type} (next : σ → Option α × σ) : Nat → σ → List α
  | 0, _ => []
  | n + 1, s =>
    match next s with
    | (some a, s) => a :: run next n s
    | (none, _) => []

/-- An iterator run to its first `None`; `none` if it faults or gives more than `n` items. -/
def runR {ε σ α : Type} (next : σ → Res ε (Option α × σ)) : Nat → σ → Option (List α)
  | 0, _ => none
  | n + 1, s =>
    match next s with
    | .ok (some a, s) => (runR next n s).map (a :: ·)
    | .ok (none, _) => some []
    | _ => none

/-- The structures of a table from offset `idx` on, where `rest` are the bytes at `idx`: what the flat
memory iterator yields (`splits_collects`). `none` if it faults, yields an error that ends the iteration
or a structure with a length below four, or yields more than `fuel` items. -/
def splits (oc : Bool) (v : SmbiosVersion) (n : Nat) :
    Nat → Nat → Bytes → Option (List (Except MalformedStructureError Structure))
  | 0, _, _ => none
  | fuel + 1, idx, rest =>
    if n < idx + 4 then some []
    else match rest with
    | k :: l :: h0 :: h1 :: body =>
      if l.toNat < 4 ∨ n ≤ idx + l.toNat ∨ body.length < l.toNat - 4 then none
      else
        let area := body.drop (l.toNat - 4)
        match findNulNul area with
        | none => none
        | some t =>
          let p : Piece := ⟨k, UInt16.ofNat (h0.toNat + 256 * h1.toNat), body.take (l.toNat - 4),
            area.take (t + 1)⟩
          let past := area.drop (t + 1)
          match (Flat.decodeStructure oc (p.strings ++ past) (p.raw v)).toItem with
          | .ok item =>
            if 3 ≤ v.major.toNat ∧ k = 127 then some [item]
            else (splits oc v n fuel (idx + l.toNat + t + 1) past).map (item :: ·)
          | _ => none
    | _ => none

theorem splits_collects {oc : Bool} {v : SmbiosVersion} {n : UInt32} {buffer : Bytes}
    (hb : buffer.length + 4 < 2 ^ 32) {fuel idx : Nat} {items}
    (hi : idx ≤ buffer.length)
    (h : splits oc v n.toNat fuel idx (buffer.drop idx) = some items) :
    CollectsR (Flat.next oc) ⟨v, n, .ofNat idx, buffer⟩ items := by
  induction fuel generalizing idx items with
  | zero => cases h
  | succ fuel ih =>
    have hidx : (UInt32.ofNat idx).toNat = idx := by rw [UInt32.toNat_ofNat']; omega
    unfold splits at h
    split at h
    · cases h
      exact .done (flat_next_at_end oc _ (by simp only [hidx]; omega) (by simp only [hidx]; omega))
    · rename_i hn4
      split at h
      · rename_i k l h0 h1 body hrest
        split at h
        · cases h
        · rename_i hl
          dsimp only at h
          split at h
          · cases h
          · rename_i t ht
            obtain ⟨hends, htl, ht1⟩ := findNulNul_some ht
            simp only [not_or, Nat.not_lt, Nat.not_le] at hl
            obtain ⟨hl4, hln, hbl⟩ := hl
            have hlen := congrArg List.length hrest
            simp only [List.length_drop, List.length_cons] at hlen htl
            have h255 := l.toNat_lt
            generalize hp : (⟨k, UInt16.ofNat (h0.toNat + 256 * h1.toNat), body.take (l.toNat - 4),
              (body.drop (l.toNat - 4)).take (t + 1)⟩ : Piece) = p at h
            have hplen : p.len = l.toNat := by
              subst hp
              simp only [Piece.len, List.length_take]; omega
            have hstr : p.strings.length = t + 1 := by
              subst hp
              simp only [List.length_take, List.length_drop]; omega
            have hpb : p.bytes.length = l.toNat + t + 1 := by
              rw [Piece.bytes_length, hplen, hstr]; omega
            have hh : enc16 (UInt16.ofNat (h0.toNat + 256 * h1.toNat)) = [h0, h1] := by
              have a0 := h0.toNat_lt
              have a1 := h1.toNat_lt
              unfold enc16
              rw [UInt16.toNat_ofNat']
              simp only [leBytes, List.cons.injEq, and_true]
              constructor <;> (apply UInt8.toNat.inj; simp) <;> omega
            have hbytes : buffer.drop idx = p.bytes ++ (body.drop (l.toNat - 4)).drop (t + 1) := by
              rw [hrest]
              have hl8 : UInt8.ofNat p.len = l := by rw [hplen]; simp
              unfold Piece.bytes
              rw [hl8]
              subst hp
              simp only [hh, List.append_assoc, List.take_append_drop, List.cons_append,
                List.nil_append]
            have hat : PieceAt buffer idx p := by
              refine ⟨⟨by omega, by subst hp; exact hends⟩, drop_eq_occursAt hbytes hi⟩
            have hdrop : buffer.drop (idx + p.bytes.length) =
                (body.drop (l.toNat - 4)).drop (t + 1) := by
              rw [← List.drop_drop, hbytes, List.drop_left]
            have hnext := flat_next_piece oc ⟨v, n, .ofNat idx, buffer⟩ p (by simp only; omega)
              (by simp only [hidx]; exact hat) (by simp only [hidx]; omega)
            have hps : p.strings = (body.drop (l.toNat - 4)).take (t + 1) := by subst hp; rfl
            simp only [hidx, hdrop, hps] at hnext
            have hfit : idx + p.bytes.length ≤ buffer.length := hat.parts.1
            split at h
            · rename_i item hitem
              rw [hitem] at hnext
              split at h
              · rename_i hend
                cases h
                refine .step hnext (.done (s' := _) (flat_next_at_end oc _ ?_ ?_))
                all_goals
                  have hm : v.major ≥ 3 := by
                    rw [ge_iff_le, UInt8.le_iff_toNat_le]; exact hend.1
                  have hk : p.kind = 127 := by subst hp; exact hend.2
                  have hto : (UInt32.ofNat (idx + p.bytes.length)).toNat = idx + p.bytes.length := by
                    rw [UInt32.toNat_ofNat']; omega
                  simp only [Structures.after, hidx, hm, hk, and_self, if_true, hto]
                  omega
              · rename_i hend
                cases hrec : splits oc v n.toNat fuel (idx + l.toNat + t + 1)
                    ((body.drop (l.toNat - 4)).drop (t + 1)) with
                | none => rw [hrec] at h; cases h
                | some items' =>
                  rw [hrec] at h
                  cases h
                  refine .step hnext ?_
                  have hend' : ¬ (v.major ≥ 3 ∧ p.kind = 127) := by
                    rintro ⟨a, b⟩
                    rw [ge_iff_le, UInt8.le_iff_toNat_le] at a
                    exact hend ⟨a, by subst hp; exact b⟩
                  simp only [Structures.after, hidx, hend', if_false]
                  refine ih hfit ?_
                  rw [hdrop]
                  have : idx + p.bytes.length = idx + l.toNat + t + 1 := by omega
                  rw [this]; exact hrec
            · cases h
      · cases h

/-- `entry_point.structures(bin)`, collected, in the flat memory model. -/
def table (oc : Bool) (e : EntryPoint) (bin : Bytes) :
    Option (List (Except MalformedStructureError Structure)) :=
  splits oc e.to_version e.smbios_len.toNat 200 0 bin

theorem table_collects {oc : Bool} {e : EntryPoint} {bin : Bytes} {items}
    (hb : bin.length + 4 < 2 ^ 32) (h : table oc e bin = some items) :
    CollectsR (Flat.next oc) (e.structures bin) items :=
  splits_collects (idx := 0) hb (Nat.zero_le _) h

/-- Iterating `entry_point.structures(bin)` in the flat memory model ends, and what it yields satisfies
`P`. -/
def Yields (oc : Bool) (e : EntryPoint) (bin : Bytes)
    (P : List (Except MalformedStructureError Structure) → Prop) : Prop :=
  ∃ items, CollectsR (Flat.next oc) (e.structures bin) items ∧ P items

/-- `Yields`, by running the table. -/
theorem yields {oc : Bool} {e : EntryPoint} {bin : Bytes}
    {P : List (Except MalformedStructureError Structure) → Prop} [DecidablePred P]
    (h : (bin.length + 4 < 2 ^ 32 && (table oc e bin).any fun items => decide (P items)) = true) :
    Yields oc e bin P := by
  simp only [Bool.and_eq_true, decide_eq_true_eq, Option.any_eq_true] at h
  obtain ⟨hb, items, hi, hP⟩ := h
  exact ⟨items, table_collects hb hi, hP⟩

/-- `filter_map(|s| s.ok())`. -/
def oks (l : List (Except MalformedStructureError Structure)) : List Structure :=
  l.filterMap fun
    | .ok s => some s
    | .error _ => none

theorem ub_of {ε α : Type} {x : Res ε α} (h : (match x with | .ub => true | _ => false) = true) :
    x = .ub := by
  cases x <;> first | rfl | cases h

/-- Results agree in both overflow profiles. -/
def both {α : Type} (f : Bool → α) (a : α) : Prop := f true = a ∧ f false = a

instance {α : Type} [DecidableEq α] (f : Bool → α) (a : α) : Decidable (both f a) :=
  inferInstanceAs (Decidable (_ ∧ _))

end Dmi.Tests
