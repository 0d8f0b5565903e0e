import Verif.Model.SparseTools
import Mathlib.Data.Fintype.EquivFin

/- C12: compressed rows to triplets, permutation round trips (SparseTools.c). -/
namespace Verif.Sparse
open Verif

/-- C12 (triplets).  For every compressed row structure (including empty rows) every stored
position is labelled with the row that owns it, and positions behind the last row keep their
content (position 0, which the code always clears, excepted). -/
theorem triplets_label_rows (size : Nat) (Icsr : Nat → Nat) (buf : Nat → Nat)
    (h0 : Icsr 0 = 0) (hm : ∀ r < size, Icsr r ≤ Icsr (r + 1)) :
    (∀ r < size, ∀ k, Icsr r ≤ k → k < Icsr (r + 1) → (decompress size Icsr buf).out k = r) ∧
    (∀ k, Icsr size ≤ k → k ≠ 0 → (decompress size Icsr buf).out k = buf k) ∧
    (decompress size Icsr buf).m = Icsr size := by
  have inner : ∀ (o : Nat → Nat) (m p n k : Nat),
      forUp n o (fun o l => upd o (m + l) p) k = if m ≤ k ∧ k < m + n then p else o k := by
    intro o m p n k
    induction n with
    | zero => rw [if_neg (by omega)]; rfl
    | succ n ih =>
      rw [forUp_succ]
      by_cases hk : k = m + n
      · subst hk; rw [upd_same, if_pos (by omega)]
      · rw [upd_ne _ _ hk, ih]
        by_cases h1 : m ≤ k ∧ k < m + n
        · rw [if_pos h1, if_pos (by omega)]
        · rw [if_neg h1, if_neg (by omega)]
  have key := forUp_inv (s := ({ out := upd buf 0 0, m := 0, p := 0 } : Decomp))
    (f := fun s k =>
      let off := Icsr (k + 1) - Icsr k
      { out := forUp off s.out (fun o l => upd o (s.m + l) s.p), m := s.m + off, p := s.p + 1 })
    (P := fun n s => s.m = Icsr n ∧ s.p = n ∧
      (∀ r < n, ∀ k, Icsr r ≤ k → k < Icsr (r + 1) → s.out k = r) ∧
      (∀ k, Icsr n ≤ k → k ≠ 0 → s.out k = buf k) ∧ (∀ r < n, Icsr (r + 1) ≤ Icsr n)) size
    ⟨h0.symm, rfl, fun r hr => absurd hr (Nat.not_lt_zero r), fun k _ hk => upd_ne _ _ hk,
      fun r hr => absurd hr (Nat.not_lt_zero r)⟩ ?_
  · exact ⟨key.2.2.1, key.2.2.2.1, key.1⟩
  · intro n s hn ⟨e1, e2, h1, h2, h3⟩
    have hle := hm n hn
    refine ⟨?_, ?_, ?_, ?_, ?_⟩
    · show s.m + (Icsr (n + 1) - Icsr n) = _
      omega
    · show s.p + 1 = _
      omega
    · intro r hr k hk1 hk2
      show forUp _ s.out (fun o l => upd o (s.m + l) s.p) k = r
      rw [inner]
      rcases Nat.lt_or_ge r n with h | h
      · have := h3 r h
        rw [if_neg (by omega)]
        exact h1 r h k hk1 hk2
      · have : r = n := by omega
        subst this
        rw [if_pos (by omega), e2]
    · intro k hk hk0
      show forUp _ s.out (fun o l => upd o (s.m + l) s.p) k = _
      rw [inner, if_neg (by omega)]
      exact h2 k (by omega) hk0
    · intro r hr
      rcases Nat.lt_or_ge r n with h | h
      · exact le_trans (h3 r h) hle
      · have : r = n := by omega
        subst this; exact le_refl _

/-- Three rows, the middle one empty. -/
example : let Ic := fun i => [0, 2, 2, 5].getD i 5
    (List.range 6).map (decompress 3 Ic (fun _ => 9)).out = [0, 0, 2, 2, 2, 9] ∧
    Ic 0 = 0 ∧ (∀ r < 3, Ic r ≤ Ic (r + 1)) := by decide

variable {α : Type*}

theorem permuteVector_spec (v1 v2 : Nat → α) (P : Nat → Nat) (n k : Nat) :
    permuteVector v1 v2 P n k = if k < n then v2 (P k) else v1 k :=
  forUp_pointwise n v1 (fun k _ => v2 (P k)) k

theorem permuteInverse_spec (v1 v2 : Nat → α) (P : Nat → Nat) (n : Nat)
    (inj : ∀ i < n, ∀ j < n, P i = P j → i = j) :
    (∀ k < n, permuteInverseVector v1 v2 P n (P k) = v2 k) ∧
    (∀ j, (∀ k < n, P k ≠ j) → permuteInverseVector v1 v2 P n j = v1 j) := by
  unfold permuteInverseVector
  induction n with
  | zero => exact ⟨fun k hk => absurd hk (Nat.not_lt_zero k), fun _ _ => rfl⟩
  | succ n ih =>
    obtain ⟨i1, i2⟩ := ih fun i hi j hj => inj i (by omega) j (by omega)
    refine ⟨fun k hk => ?_, fun j hj => ?_⟩
    · rw [forUp_succ]
      by_cases h : k = n
      · subst h; rw [upd_same]
      · rw [upd_ne _ _ fun e => h (inj k hk n (by omega) e)]
        exact i1 k (by omega)
    · rw [forUp_succ, upd_ne _ _ fun e => hj n (by omega) e.symm]
      exact i2 j fun k hk => hj k (by omega)

/-- C12 (permutation).  For a permutation `P` of the first `n` indices, un-permuting a permuted
vector gives the vector back and vice versa, whatever the output buffers contained before. -/
theorem permutation_round_trip (P : Nat → Nat) (n : Nat) (range : ∀ i < n, P i < n)
    (inj : ∀ i < n, ∀ j < n, P i = P j → i = j) (v b1 b2 : Nat → α) :
    (∀ k < n, permuteInverseVector b1 (permuteVector b2 v P n) P n k = v k) ∧
    (∀ k < n, permuteVector b1 (permuteInverseVector b2 v P n) P n k = v k) := by
  have surj : ∀ j < n, ∃ i < n, P i = j := by
    intro j hj
    have hinj : Function.Injective (fun i : Fin n => (⟨P i, range i i.2⟩ : Fin n)) := fun a b h =>
      Fin.ext (inj a a.2 b b.2 (congrArg Fin.val h))
    obtain ⟨i, hi⟩ := (Finite.injective_iff_surjective.mp hinj) ⟨j, hj⟩
    exact ⟨i, i.2, congrArg Fin.val hi⟩
  refine ⟨fun k hk => ?_, fun k hk => ?_⟩
  · obtain ⟨i, hi, rfl⟩ := surj k hk
    rw [(permuteInverse_spec b1 _ P n inj).1 i hi, permuteVector_spec, if_pos hi]
  · rw [permuteVector_spec, if_pos hk, (permuteInverse_spec b2 v P n inj).1 k hk]

/-- A 3-cycle is a permutation in the sense of the theorem and actually moves something. -/
example : let P := fun i => [2, 0, 1].getD i 0
    (∀ i < 3, P i < 3) ∧ (∀ i < 3, ∀ j < 3, P i = P j → i = j) ∧
    (List.range 3).map (permuteVector (fun _ => 0) (fun i => i + 10) P 3) = [12, 10, 11] := by decide

end Verif.Sparse
