import Verif.Model.GridFields
import Verif.Spec.GridFields
import Mathlib.Algebra.BigOperators.Intervals
import Mathlib.Data.Rat.Floor
import Mathlib.Tactic.FieldSimp
import Mathlib.Tactic.Linarith
import Mathlib.Tactic.Ring
import Mathlib.Tactic.NormNum

/-!
C60 (averaging between cells and vertices), C61 (lithostatic pressure), C65 (upwind advection).
-/
set_option linter.unusedSectionVars false
set_option linter.unusedVariables false
set_option linter.unnecessarySeqFocus false
namespace Verif.GridField
open Verif Verif.Spec

/-! ### Loops that copy one entry per iteration -/

section
variable {α : Type*}

/-- A loop that stores to distinct places, reading only places it does not store to. -/
theorem forUp_copy (n : Nat) (a : Nat → α) (pos src : Nat → Nat)
    (hinj : ∀ i < n, ∀ j < n, pos i = pos j → i = j) (hsrc : ∀ i < n, ∀ j < n, src i ≠ pos j) :
    (∀ i < n, forUp n a (fun t k => upd t (pos k) (t (src k))) (pos i) = a (src i))
    ∧ ∀ c, (∀ i < n, c ≠ pos i) → forUp n a (fun t k => upd t (pos k) (t (src k))) c = a c := by
  induction n with
  | zero => exact ⟨fun i hi => absurd hi (by omega), fun _ _ => rfl⟩
  | succ n ih =>
    obtain ⟨h1, h2⟩ := ih (fun i hi j hj => hinj i (by omega) j (by omega)) (fun i hi j hj => hsrc i (by omega) j (by omega))
    have hs : forUp n a (fun t k => upd t (pos k) (t (src k))) (src n) = a (src n) :=
      h2 _ (fun i hi => hsrc n (by omega) i (by omega))
    constructor
    · intro i hi
      rw [forUp_succ, hs]
      by_cases hin : i = n
      · subst hin; simp
      · rw [upd_ne _ _ (fun h => hin (hinj i hi n (by omega) h)), h1 i (by omega)]
    · intro c hc
      rw [forUp_succ, hs, upd_ne _ _ (hc n (by omega)), h2 c (fun i hi => hc i (by omega))]

/-- A loop that stores values that do not depend on the array. -/
theorem forUp_store (n : Nat) (a : Nat → α) (pos : Nat → Nat) (v : Nat → α)
    (hinj : ∀ i < n, ∀ j < n, pos i = pos j → i = j) :
    (∀ i < n, forUp n a (fun t k => upd t (pos k) (v k)) (pos i) = v i)
    ∧ ∀ c, (∀ i < n, c ≠ pos i) → forUp n a (fun t k => upd t (pos k) (v k)) c = a c := by
  induction n with
  | zero => exact ⟨fun i hi => absurd hi (by omega), fun _ _ => rfl⟩
  | succ n ih =>
    obtain ⟨h1, h2⟩ := ih (fun i hi j hj => hinj i (by omega) j (by omega))
    constructor
    · intro i hi
      rw [forUp_succ]
      by_cases hin : i = n
      · subst hin; simp
      · rw [upd_ne _ _ (fun h => hin (hinj i hi n (by omega) h)), h1 i (by omega)]
    · intro c hc
      rw [forUp_succ, upd_ne _ _ (hc n (by omega)), h2 c (fun i hi => hc i (by omega))]

/-- Two nested loops that store values that do not depend on the array. -/
theorem forUp_store2 (n m : Nat) (a : Nat → α) (pos : Nat → Nat → Nat) (v : Nat → Nat → α)
    (hinj : ∀ i < n, ∀ j < m, ∀ i' < n, ∀ j' < m, pos i j = pos i' j' → i = i' ∧ j = j') :
    (∀ i < n, ∀ j < m, forUp n a (fun t k => forUp m t fun t l => upd t (pos k l) (v k l)) (pos i j) = v i j)
    ∧ ∀ c, (∀ i < n, ∀ j < m, c ≠ pos i j) →
        forUp n a (fun t k => forUp m t fun t l => upd t (pos k l) (v k l)) c = a c := by
  induction n with
  | zero => exact ⟨fun i hi => absurd hi (by omega), fun _ _ => rfl⟩
  | succ n ih =>
    obtain ⟨h1, h2⟩ := ih (fun i hi j hj i' hi' j' hj' => hinj i (by omega) j hj i' (by omega) j' hj')
    obtain ⟨g1, g2⟩ := forUp_store m (forUp n a (fun t k => forUp m t fun t l => upd t (pos k l) (v k l)))
      (pos n) (v n) (fun i hi j hj h => (hinj n (by omega) i hi n (by omega) j hj h).2)
    constructor
    · intro i hi j hj
      rw [forUp_succ]
      by_cases hin : i = n
      · subst hin; exact g1 j hj
      · rw [g2 _ (fun l hl h => hin (hinj i hi j hj n (by omega) l hl h).1), h1 i (by omega) j hj]
    · intro c hc
      rw [forUp_succ, g2 c (fun l hl => hc n (by omega) l hl), h2 c (fun i hi j hj => hc i (by omega) j hj)]

theorem lattice_inj {W i j i' j' : Nat} (hi : i < W) (hi' : i' < W) (h : i + j * W = i' + j' * W) : i = i' ∧ j = j' := by
  have e1 : (i + j * W) % W = i := by simp [Nat.mod_eq_of_lt hi]
  have e2 : (i' + j' * W) % W = i' := by simp [Nat.mod_eq_of_lt hi']
  have e3 : (i + j * W) / W = j := by rw [Nat.add_mul_div_right _ _ (by omega), Nat.div_eq_of_lt hi]; omega
  have e4 : (i' + j' * W) / W = j' := by rw [Nat.add_mul_div_right _ _ (by omega), Nat.div_eq_of_lt hi']; omega
  rw [h] at e1 e3
  exact ⟨e1.symm.trans e2, e3.symm.trans e4⟩

theorem lattice_ne {W i j i' j' : Nat} (hi : i < W) (hi' : i' < W) (h : i ≠ i' ∨ j ≠ j') : i + j * W ≠ i' + j' * W :=
  fun e => by rcases lattice_inj hi hi' e with ⟨rfl, rfl⟩; simp at h

/-- Cell column of ghosted column `i`. -/
def srcCol (per : Bool) (N i : Nat) : Nat := if i = 0 then (if per then N - 1 else 0) else if i = N + 1 then (if per then 0 else N - 1) else i - 1

/-- Every entry of the ghosted array is the value of the cell the ghost stands for. -/
theorem ghosted_eq (per : Bool) (N M : Nat) (hN : 1 ≤ N) (hM : 1 ≤ M) (z : α) (a : Nat → α) (i j : Nat) (hi : i < N + 2) (hj : j < M + 2) :
    ghosted per N M z a (i + j * (N + 2)) = a (srcCol per N i + srcCol false M j * N) := by
  unfold ghosted
  set W := N + 2 with hW
  -- interior
  set t1 : Nat → α := forUp N (fun _ => z) fun t k => forUp M t fun t l => upd t (k + (l + 1) * W + 1) (a (k + l * N)) with ht1
  have f1 : ∀ i j, 0 < i → i < N + 1 → 0 < j → j < M + 1 → t1 (i + j * W) = a ((i - 1) + (j - 1) * N) := by
    intro i j h1 h2 h3 h4
    have := (forUp_store2 N M (fun _ => z) (fun k l => k + (l + 1) * W + 1) (fun k l => a (k + l * N))
      (fun i hi j hj i' hi' j' hj' h => by
        have := lattice_inj (W := W) (i := i + 1) (j := j + 1) (i' := i' + 1) (j' := j' + 1) (by omega) (by omega) (by omega)
        omega)).1 (i - 1) (by omega) (j - 1) (by omega)
    rw [show i - 1 + (j - 1 + 1) * W + 1 = i + j * W by rw [show j - 1 + 1 = j by omega]; omega] at this
    exact this
  clear_value t1
  -- south
  set t2 : Nat → α := forUp N t1 fun t i => upd t (i + 1 + 0 * W) (t (i + 1 + 1 * W)) with ht2
  have c2 := forUp_copy N t1 (fun i => i + 1 + 0 * W) (fun i => i + 1 + 1 * W) (fun i _ j _ h => by omega)
    (fun i hi j hj => lattice_ne (by omega) (by omega) (Or.inr (by omega)))
  have f2 : ∀ i, 0 < i → i < N + 1 → t2 (i + 0 * W) = a (i - 1) := by
    intro i h1 h2
    have := c2.1 (i - 1) (by omega)
    simp only [show i - 1 + 1 = i by omega] at this
    rw [ht2, this, f1 i 1 h1 h2 (by omega) (by omega)]; simp
  have f2' : ∀ i j, i < W → 0 < j → t2 (i + j * W) = t1 (i + j * W) := fun i j h1 h2 =>
    c2.2 _ (fun k hk => lattice_ne h1 (by omega) (Or.inr (by omega)))
  clear_value t2
  -- north
  set t3 : Nat → α := forUp N t2 fun t i => upd t (i + 1 + (M + 1) * W) (t (i + 1 + M * W)) with ht3
  have c3 := forUp_copy N t2 (fun i => i + 1 + (M + 1) * W) (fun i => i + 1 + M * W) (fun i _ j _ h => by omega)
    (fun i hi j hj => lattice_ne (by omega) (by omega) (Or.inr (by omega)))
  have f3 : ∀ i, 0 < i → i < N + 1 → t3 (i + (M + 1) * W) = a ((i - 1) + (M - 1) * N) := by
    intro i h1 h2
    have := c3.1 (i - 1) (by omega)
    simp only [show i - 1 + 1 = i by omega] at this
    rw [ht3, this, f2' i M (by omega) (by omega), f1 i M h1 h2 (by omega) (by omega)]
  have f3' : ∀ i j, i < W → j < M + 1 → t3 (i + j * W) = t2 (i + j * W) := fun i j h1 h2 =>
    c3.2 _ (fun k hk => lattice_ne h1 (by omega) (Or.inr (by omega)))
  clear_value t3
  have g3 : ∀ i j, 0 < i → i < N + 1 → j < M + 2 → t3 (i + j * W) = a (srcCol per N i + srcCol false M j * N) := by
    intro i j h1 h2 h3
    have hs : srcCol per N i = i - 1 := by unfold srcCol; rw [if_neg (by omega), if_neg (by omega)]
    rw [hs]
    by_cases hj0 : j = 0
    · subst hj0; rw [f3' _ _ (by omega) (by omega), f2 i h1 h2]; simp [srcCol]
    · by_cases hj1 : j = M + 1
      · subst hj1; rw [f3 i h1 h2]; simp [srcCol]
      · rw [f3' _ _ (by omega) (by omega), f2' _ _ (by omega) (by omega), f1 i j h1 h2 (by omega) (by omega)]
        simp [srcCol, hj0, hj1]
  clear f1 f2 f2' f3 f3' c2 c3
  -- west
  set sW : Nat := (if per then W - 1 - 1 else 1) with hsW
  have hsW1 : 0 < sW ∧ sW < N + 1 := by rw [hsW]; split <;> omega
  have hsW2 : srcCol per N sW = srcCol per N 0 := by
    unfold srcCol
    cases per
    · rw [hsW]; simp; omega
    · have : sW = N := by rw [hsW, hW]; simp
      rw [this, if_neg (by omega), if_neg (by omega)]; simp
  clear_value sW
  set t4 : Nat → α := forUp M t3 fun t i => upd t (0 + (i + 1) * W) (t (sW + (i + 1) * W)) with ht4
  have c4 := forUp_copy M t3 (fun i => 0 + (i + 1) * W) (fun i => sW + (i + 1) * W)
    (fun i _ j _ h => by have := lattice_inj (W := W) (i := 0) (i' := 0) (by omega) (by omega) h; omega)
    (fun i hi j hj => lattice_ne (by omega) (by omega) (Or.inl (by omega)))
  have f4 : ∀ j, 0 < j → j < M + 1 → t4 (0 + j * W) = a (srcCol per N 0 + srcCol false M j * N) := by
    intro j h1 h2
    have := c4.1 (j - 1) (by omega)
    simp only [show j - 1 + 1 = j by omega] at this
    rw [ht4, this, g3 sW j hsW1.1 hsW1.2 (by omega), hsW2]
  have f4' : ∀ i j, 0 < i → i < W → t4 (i + j * W) = t3 (i + j * W) := fun i j h1 h2 =>
    c4.2 _ (fun k hk => lattice_ne h2 (by omega) (Or.inl (by omega)))
  clear_value t4
  -- east
  set sE : Nat := (if per then 1 else N) with hsE
  have hsE1 : 0 < sE ∧ sE < N + 1 := by rw [hsE]; split <;> omega
  have hsE2 : srcCol per N sE = srcCol per N (N + 1) := by
    rw [hsE]; unfold srcCol; cases per <;> simp <;> omega
  clear_value sE
  set t5 : Nat → α := forUp M t4 fun t i => upd t (N + 1 + (i + 1) * W) (t (sE + (i + 1) * W)) with ht5
  have c5 := forUp_copy M t4 (fun i => N + 1 + (i + 1) * W) (fun i => sE + (i + 1) * W)
    (fun i _ j _ h => by have := lattice_inj (W := W) (by omega) (by omega) h; omega)
    (fun i hi j hj => lattice_ne (by omega) (by omega) (Or.inl (by omega)))
  have f5 : ∀ j, 0 < j → j < M + 1 → t5 (N + 1 + j * W) = a (srcCol per N (N + 1) + srcCol false M j * N) := by
    intro j h1 h2
    have := c5.1 (j - 1) (by omega)
    simp only [show j - 1 + 1 = j by omega] at this
    rw [ht5, this, f4' _ _ hsE1.1 (by omega), g3 sE j hsE1.1 hsE1.2 (by omega), hsE2]
  have f5' : ∀ i j, i < N + 1 → t5 (i + j * W) = t4 (i + j * W) := fun i j h2 =>
    c5.2 _ (fun k hk => lattice_ne (by omega) (by omega) (Or.inl (by omega)))
  clear_value t5
  have g5 : ∀ i j, i < N + 2 → j < M + 2 → (0 < j ∧ j < M + 1 ∨ 0 < i ∧ i < N + 1) →
      t5 (i + j * W) = a (srcCol per N i + srcCol false M j * N) := by
    intro i j h1 h2 h3
    by_cases hi0 : i = 0
    · subst hi0; rw [f5' _ _ (by omega), f4 j (by omega) (by omega)]
    · by_cases hi1 : i = N + 1
      · subst hi1; rw [f5 j (by omega) (by omega)]
      · rw [f5' _ _ (by omega), f4' _ _ (by omega) (by omega), g3 i j (by omega) (by omega) h2]
  clear f4 f4' f5 f5' c4 c5 g3
  -- corners
  set k0 : Nat := (if per then 0 else 1) with hk0
  set k1 : Nat := (if per then N + 1 else N) with hk1
  have hk0' : k0 < N + 2 ∧ srcCol per N k0 = srcCol per N 0 := by
    rw [hk0]; unfold srcCol; cases per <;> simp <;> omega
  have hk1' : k1 < N + 2 ∧ srcCol per N k1 = srcCol per N (N + 1) := by
    rw [hk1]; unfold srcCol; cases per <;> simp <;> omega
  have hlow : srcCol false M 1 = srcCol false M 0 := by unfold srcCol; simp; omega
  have hup : srcCol false M M = srcCol false M (M + 1) := by unfold srcCol; rw [if_neg (by omega), if_neg (by omega)]; simp
  clear_value k0 k1
  have ne : ∀ {i j i' j'}, i < N + 2 → i' < N + 2 → (i ≠ i' ∨ j ≠ j') → i + j * W ≠ i' + j' * W :=
    fun h1 h2 h3 => lattice_ne h1 h2 h3
  by_cases hc : 0 < j ∧ j < M + 1 ∨ 0 < i ∧ i < N + 1
  · rw [upd_ne _ _ (ne hi (by omega) (by omega)), upd_ne _ _ (ne hi (by omega) (by omega)),
      upd_ne _ _ (ne hi (by omega) (by omega)), upd_ne _ _ (ne hi (by omega) (by omega)), g5 i j hi hj hc]
  · have hi' : i = 0 ∨ i = N + 1 := by omega
    have hj' : j = 0 ∨ j = M + 1 := by omega
    rcases hj' with rfl | rfl <;> rcases hi' with rfl | rfl
    · rw [upd_ne _ _ (ne hi (by omega) (by omega)), upd_ne _ _ (ne hi (by omega) (by omega)),
        upd_ne _ _ (ne hi (by omega) (by omega)), upd_same, g5 _ _ hk0'.1 (by omega) (by omega), hk0'.2, hlow]
    · rw [upd_ne _ _ (ne hi (by omega) (by omega)), upd_ne _ _ (ne hi (by omega) (by omega)), upd_same,
        upd_ne _ _ (ne hk1'.1 (by omega) (by omega)), g5 _ _ hk1'.1 (by omega) (by omega), hk1'.2, hlow]
    · rw [upd_ne _ _ (ne hi (by omega) (by omega)), upd_same, upd_ne _ _ (ne hk0'.1 (by omega) (by omega)),
        upd_ne _ _ (ne hk0'.1 (by omega) (by omega)), g5 _ _ hk0'.1 (by omega) (by omega), hk0'.2, hup]
    · rw [upd_same, upd_ne _ _ (ne hk1'.1 (by omega) (by omega)), upd_ne _ _ (ne hk1'.1 (by omega) (by omega)),
        upd_ne _ _ (ne hk1'.1 (by omega) (by omega)), g5 _ _ hk1'.1 (by omega) (by omega), hk1'.2, hup]
end

/-! ### C60 -/

section
variable {K : Type*} [Field K]

private theorem srcCol_left (per : Bool) (N k : Nat) (hk : k < N + 1) (hN : 1 ≤ N) : srcCol per N k = cellLeft per N k := by
  unfold srcCol cellLeft
  by_cases h : k = 0
  · simp [h]
  · rw [if_neg h, if_neg h, if_neg (by omega)]

private theorem srcCol_right (per : Bool) (N k : Nat) (hk : k < N + 1) (hN : 1 ≤ N) :
    srcCol per N (k + 1) = cellRight per N k := by
  unfold srcCol cellRight
  by_cases h : k = N
  · simp [h]
  · rw [if_neg (by omega), if_neg (by omega), if_neg h]; omega

/-- Value at every vertex after the averaging: zero at air vertices, elsewhere a quarter of the sum over
the rock cells among the four that meet there. -/
theorem centroidsToVertices_spec (per : Bool) (Nx Nz : Nat) (hx : 2 ≤ Nx) (hz : 2 ≤ Nz) (tagP tagG : Nat → Int)
    (a v : Nat → K) (k l : Nat) (hk : k < Nx) (hl : l < Nz) :
    centroidsToVertices per Nx Nz tagP tagG a v (k + l * Nx)
      = if tagG (k + l * Nx) = 30 then 0
        else ((cellsAt per (Nx - 1) (Nz - 1) k l).map fun p =>
            if AirFlag (tagP (p.1 + p.2 * (Nx - 1))) then 0 else a (p.1 + p.2 * (Nx - 1))).sum / 4 := by
  unfold centroidsToVertices
  simp only []
  have e : ∀ (w : Nat → K) c x, upd (upd w c 0) c x = upd w c x := by
    intro w c x; funext j; by_cases h : j = c <;> simp [upd, h]
  simp only [e]
  have := (forUp_store2 Nx Nz v (fun k l => k + l * Nx) (fun k l => if tagG (k + l * Nx) ≠ 30 then
      1 / 4 * (masked (ghosted per (Nx - 1) (Nz - 1) 0 tagP (k + (l + 1) * (Nx - 1 + 2) + 1 - 1 - (Nx - 1 + 2)))
          (ghosted per (Nx - 1) (Nz - 1) 0 a (k + (l + 1) * (Nx - 1 + 2) + 1 - 1 - (Nx - 1 + 2)))
        + masked (ghosted per (Nx - 1) (Nz - 1) 0 tagP (k + (l + 1) * (Nx - 1 + 2) + 1 - 0 - (Nx - 1 + 2)))
          (ghosted per (Nx - 1) (Nz - 1) 0 a (k + (l + 1) * (Nx - 1 + 2) + 1 - 0 - (Nx - 1 + 2)))
        + masked (ghosted per (Nx - 1) (Nz - 1) 0 tagP (k + (l + 1) * (Nx - 1 + 2) + 1 - 1))
          (ghosted per (Nx - 1) (Nz - 1) 0 a (k + (l + 1) * (Nx - 1 + 2) + 1 - 1))
        + masked (ghosted per (Nx - 1) (Nz - 1) 0 tagP (k + (l + 1) * (Nx - 1 + 2) + 1 - 0))
          (ghosted per (Nx - 1) (Nz - 1) 0 a (k + (l + 1) * (Nx - 1 + 2) + 1))) else 0)
    (fun i hi j hj i' hi' j' hj' h => lattice_inj hi hi' h)).1 k hk l hl
  rw [this]
  by_cases hg : tagG (k + l * Nx) = 30
  · simp [hg]
  · rw [if_pos hg, if_neg hg]
    have hN : 1 ≤ Nx - 1 := by omega
    have hM : 1 ≤ Nz - 1 := by omega
    have i1 : k + (l + 1) * (Nx - 1 + 2) + 1 - 1 - (Nx - 1 + 2) = k + l * (Nx - 1 + 2) := by rw [Nat.succ_mul]; omega
    have i2 : k + (l + 1) * (Nx - 1 + 2) + 1 - 0 - (Nx - 1 + 2) = (k + 1) + l * (Nx - 1 + 2) := by rw [Nat.succ_mul]; omega
    have i3 : k + (l + 1) * (Nx - 1 + 2) + 1 - 1 = k + (l + 1) * (Nx - 1 + 2) := by omega
    have i4 : k + (l + 1) * (Nx - 1 + 2) + 1 - 0 = (k + 1) + (l + 1) * (Nx - 1 + 2) := by omega
    have i5 : k + (l + 1) * (Nx - 1 + 2) + 1 = (k + 1) + (l + 1) * (Nx - 1 + 2) := by omega
    rw [i1, i2, i3, i4, i5]
    rw [ghosted_eq per _ _ hN hM 0 tagP k l (by omega) (by omega), ghosted_eq per _ _ hN hM 0 a k l (by omega) (by omega),
      ghosted_eq per _ _ hN hM 0 tagP (k + 1) l (by omega) (by omega), ghosted_eq per _ _ hN hM 0 a (k + 1) l (by omega) (by omega),
      ghosted_eq per _ _ hN hM 0 tagP k (l + 1) (by omega) (by omega), ghosted_eq per _ _ hN hM 0 a k (l + 1) (by omega) (by omega),
      ghosted_eq per _ _ hN hM 0 tagP (k + 1) (l + 1) (by omega) (by omega),
      ghosted_eq per _ _ hN hM 0 a (k + 1) (l + 1) (by omega) (by omega),
      srcCol_left per _ k (by omega) hN, srcCol_right per _ k (by omega) hN,
      srcCol_left false _ l (by omega) hM, srcCol_right false _ l (by omega) hM]
    simp only [cellsAt, List.map_cons, List.map_nil, List.sum_cons, List.sum_nil, masked, AirFlag, zero_mul, one_mul]
    ring

/-- Nothing but the vertices is written. -/
theorem centroidsToVertices_frame (per : Bool) (Nx Nz : Nat) (tagP tagG : Nat → Int) (a v : Nat → K) (c : Nat) (hc : Nz * Nx ≤ c) :
    centroidsToVertices per Nx Nz tagP tagG a v c = v c := by
  unfold centroidsToVertices
  simp only []
  have e : ∀ (w : Nat → K) c x, upd (upd w c 0) c x = upd w c x := by
    intro w c x; funext j; by_cases h : j = c <;> simp [upd, h]
  simp only [e]
  refine forUp_inv (P := fun _ (w : Nat → K) => w c = v c) Nx rfl ?_
  intro k w hk hw
  refine forUp_inv (P := fun _ (w : Nat → K) => w c = v c) Nz hw ?_
  intro l w hl hw
  rw [upd_ne _ _ ?_, hw]
  have : (l + 1) * Nx ≤ Nz * Nx := Nat.mul_le_mul_right _ hl
  rw [Nat.succ_mul] at this
  omega

variable [LinearOrder K] [IsStrictOrderedRing K]

/-- Where all four cells are rock, the value lies between bounds of these cells; constants are kept. -/
theorem centroidsToVertices_bounds (per : Bool) (Nx Nz : Nat) (hx : 2 ≤ Nx) (hz : 2 ≤ Nz) (tagP tagG : Nat → Int)
    (a v : Nat → K) (k l : Nat) (hk : k < Nx) (hl : l < Nz) (hg : tagG (k + l * Nx) ≠ 30)
    (hrock : ∀ p ∈ cellsAt per (Nx - 1) (Nz - 1) k l, ¬ AirFlag (tagP (p.1 + p.2 * (Nx - 1)))) (lo hi : K)
    (hb : ∀ p ∈ cellsAt per (Nx - 1) (Nz - 1) k l, lo ≤ a (p.1 + p.2 * (Nx - 1)) ∧ a (p.1 + p.2 * (Nx - 1)) ≤ hi) :
    lo ≤ centroidsToVertices per Nx Nz tagP tagG a v (k + l * Nx)
    ∧ centroidsToVertices per Nx Nz tagP tagG a v (k + l * Nx) ≤ hi := by
  rw [centroidsToVertices_spec per Nx Nz hx hz tagP tagG a v k l hk hl, if_neg hg]
  simp only [cellsAt, List.forall_mem_cons] at hrock hb
  obtain ⟨r1, r2, r3, r4, _⟩ := hrock
  obtain ⟨b1, b2, b3, b4, _⟩ := hb
  simp only [cellsAt, List.map_cons, List.map_nil, List.sum_cons, List.sum_nil, if_neg r1, if_neg r2, if_neg r3, if_neg r4]
  constructor
  · rw [le_div_iff₀ (by norm_num)]; linarith
  · rw [div_le_iff₀ (by norm_num)]; linarith

/-- Both cells a vertex column lies between exist. -/
theorem cellsAt_mem (per : Bool) (N M k l : Nat) (hN : 1 ≤ N) (hM : 1 ≤ M) (hk : k ≤ N) (hl : l ≤ M) :
    ∀ p ∈ cellsAt per N M k l, p.1 < N ∧ p.2 < M := by
  intro p hp
  simp only [cellsAt, List.mem_cons, List.not_mem_nil, or_false] at hp
  rcases hp with rfl | rfl | rfl | rfl <;> constructor <;> simp only [cellLeft, cellRight] <;> split_ifs <;> omega

/-- At a vertex that touches air the value is not the mean of the rock cells: a constant field is
reduced. -/
theorem centroidsToVertices_surface_reduced :
    centroidsToVertices false 3 3 (fun c => if c = 3 then 31 else -1) (fun _ => -1) (fun _ => (4 : ℚ)) (fun _ => 0) (1 + 1 * 3) = 3 := by
  decide +kernel

/-- Concrete case of the bounds: a vertex on the periodic side. -/
example : centroidsToVertices true 3 3 (fun _ => -1) (fun _ => -1) (fun c => (c : ℚ)) (fun _ => 0) (0 + 1 * 3) = (0 + 1 + 2 + 3) / 4 := by
  decide +kernel

/-- Rock cells get the mean of their four vertices, air cells keep their value. -/
theorem verticesToCentroids_spec (Nx Nz : Nat) (tagP : Nat → Int) (v a : Nat → K) (k l : Nat)
    (hk : k < Nx - 1) (hl : l < Nz - 1) :
    verticesToCentroids Nx Nz tagP v a (k + l * (Nx - 1))
      = if AirFlag (tagP (k + l * (Nx - 1))) then a (k + l * (Nx - 1))
        else (v (k + l * Nx) + v (k + 1 + l * Nx) + v (k + (l + 1) * Nx) + v (k + 1 + (l + 1) * Nx)) / 4 := by
  unfold verticesToCentroids
  have key : ∀ n ≤ Nx - 1, ∀ k < Nx - 1, ∀ l < Nz - 1,
      forUp n a (fun a k => forUp (Nz - 1) a fun a l =>
        if tagP (k + l * (Nx - 1)) ≠ 30 ∧ tagP (k + l * (Nx - 1)) ≠ 31 then
          upd a (k + l * (Nx - 1)) (1 / 4 * (v (k + l * Nx) + v (k + l * Nx + 1) + v (k + l * Nx + Nx) + v (k + l * Nx + 1 + Nx)))
        else a) (k + l * (Nx - 1))
      = if k < n ∧ ¬ AirFlag (tagP (k + l * (Nx - 1))) then
          1 / 4 * (v (k + l * Nx) + v (k + l * Nx + 1) + v (k + l * Nx + Nx) + v (k + l * Nx + 1 + Nx))
        else a (k + l * (Nx - 1)) := by
    intro n
    induction n with
    | zero => intro _ k _ l _; simp
    | succ n ih =>
      intro hn k hk l hl
      rw [forUp_succ]
      have ih' := ih (by omega) k hk l hl
      revert ih'
      generalize forUp n a _ = b
      intro ih'
      have inner : ∀ m ≤ Nz - 1, forUp m b (fun a l =>
          if tagP (n + l * (Nx - 1)) ≠ 30 ∧ tagP (n + l * (Nx - 1)) ≠ 31 then
            upd a (n + l * (Nx - 1)) (1 / 4 * (v (n + l * Nx) + v (n + l * Nx + 1) + v (n + l * Nx + Nx) + v (n + l * Nx + 1 + Nx)))
          else a) (k + l * (Nx - 1))
          = if k = n ∧ l < m ∧ ¬ AirFlag (tagP (k + l * (Nx - 1))) then
              1 / 4 * (v (k + l * Nx) + v (k + l * Nx + 1) + v (k + l * Nx + Nx) + v (k + l * Nx + 1 + Nx))
            else b (k + l * (Nx - 1)) := by
        intro m
        induction m with
        | zero => intro _; simp
        | succ m ihm =>
          intro hm
          rw [forUp_succ]
          have ihm' := ihm (by omega)
          by_cases hnm : k = n ∧ l = m
          · obtain ⟨rfl, rfl⟩ := hnm
            by_cases ha : AirFlag (tagP (k + l * (Nx - 1)))
            · rw [if_neg (by unfold AirFlag at ha; tauto), ihm']; simp [ha]
            · rw [if_pos (by unfold AirFlag at ha; tauto), upd_same]; simp [ha]
          · have hne : k + l * (Nx - 1) ≠ n + m * (Nx - 1) := lattice_ne hk (by omega) (by omega)
            have hcond : (k = n ∧ l < m + 1 ∧ ¬ AirFlag (tagP (k + l * (Nx - 1))))
                ↔ (k = n ∧ l < m ∧ ¬ AirFlag (tagP (k + l * (Nx - 1)))) := by
              constructor
              · rintro ⟨h1, h2, h3⟩; exact ⟨h1, by omega, h3⟩
              · rintro ⟨h1, h2, h3⟩; exact ⟨h1, by omega, h3⟩
            rw [if_congr hcond rfl rfl]
            split
            · rw [upd_ne _ _ hne]; exact ihm'
            · exact ihm'
      rw [inner _ le_rfl, ih']
      by_cases ha : AirFlag (tagP (k + l * (Nx - 1)))
      · simp [ha]
      · by_cases h1 : k = n
        · subst h1; simp [ha, hl]
        · by_cases h2 : k < n
          · simp [ha, h1, h2, Nat.lt_succ_of_lt h2]
          · simp [ha, h1, h2, show ¬ k < n + 1 by omega]
  have := key (Nx - 1) le_rfl k hk l hl
  rw [this]
  by_cases ha : AirFlag (tagP (k + l * (Nx - 1)))
  · simp [ha]
  · rw [if_pos ⟨hk, ha⟩, if_neg ha, show k + l * Nx + 1 = k + 1 + l * Nx by ring,
      show k + l * Nx + Nx = k + (l + 1) * Nx by ring, show k + 1 + l * Nx + Nx = k + 1 + (l + 1) * Nx by ring]
    ring
end

/-! ### C61 -/

section
variable {K : Type*} [Field K]

/-- First pass of the routine: zero in the top row and in air, one cell weight more than above elsewhere. -/
private theorem lith_pass (ncx ncz : Nat) (tagP : Nat → Int) (gz dz : K) (rho : Nat → K) (p : Nat → K)
    (hp : p = forUp (ncz - 1) (fun _ => (0 : K)) fun p i => forUp ncx p fun p k =>
      if tagP (k + (ncz - 2 - i) * ncx) ≠ 30 ∧ tagP (k + (ncz - 2 - i) * ncx) ≠ 31 then
        upd (upd p (k + (ncz - 2 - i) * ncx) 0) (k + (ncz - 2 - i) * ncx)
          (upd p (k + (ncz - 2 - i) * ncx) 0 (k + (ncz - 2 - i) * ncx + ncx) - gz * dz * rho (k + (ncz - 2 - i) * ncx))
      else upd p (k + (ncz - 2 - i) * ncx) 0) :
    (∀ k < ncx, p (k + (ncz - 1) * ncx) = 0)
    ∧ ∀ k < ncx, ∀ l, l + 1 < ncz → p (k + l * ncx)
        = if AirFlag (tagP (k + l * ncx)) then 0 else p (k + (l + 1) * ncx) - gz * dz * rho (k + l * ncx) := by
  have inv := forUp_inv (s := fun _ => (0 : K)) (P := fun i (p : Nat → K) => (∀ k < ncx, p (k + (ncz - 1) * ncx) = 0)
      ∧ ∀ k < ncx, ∀ l, ncz ≤ l + 1 + i → l + 1 < ncz → p (k + l * ncx)
        = if AirFlag (tagP (k + l * ncx)) then 0 else p (k + (l + 1) * ncx) - gz * dz * rho (k + l * ncx)) (ncz - 1)
    ⟨fun _ _ => rfl, fun k _ l h1 h2 => by omega⟩
    (f := fun p i => forUp ncx p fun p k =>
      if tagP (k + (ncz - 2 - i) * ncx) ≠ 30 ∧ tagP (k + (ncz - 2 - i) * ncx) ≠ 31 then
        upd (upd p (k + (ncz - 2 - i) * ncx) 0) (k + (ncz - 2 - i) * ncx)
          (upd p (k + (ncz - 2 - i) * ncx) 0 (k + (ncz - 2 - i) * ncx + ncx) - gz * dz * rho (k + (ncz - 2 - i) * ncx))
      else upd p (k + (ncz - 2 - i) * ncx) 0) ?_
  · rw [← hp] at inv
    exact ⟨inv.1, fun k hk l hl => inv.2 k hk l (by omega) hl⟩
  · intro i p hi ⟨h1, h2⟩
    -- rows above the current one are unchanged, the current row is filled from left to right
    have inner := forUp_inv (s := p) (P := fun n (q : Nat → K) =>
        (∀ k < ncx, ∀ l, l ≠ ncz - 2 - i → q (k + l * ncx) = p (k + l * ncx))
        ∧ ∀ k < n, q (k + (ncz - 2 - i) * ncx)
          = if AirFlag (tagP (k + (ncz - 2 - i) * ncx)) then 0
            else p (k + (ncz - 2 - i + 1) * ncx) - gz * dz * rho (k + (ncz - 2 - i) * ncx)) ncx
      ⟨fun _ _ _ _ => rfl, fun k hk => absurd hk (by omega)⟩
      (f := fun p k =>
        if tagP (k + (ncz - 2 - i) * ncx) ≠ 30 ∧ tagP (k + (ncz - 2 - i) * ncx) ≠ 31 then
          upd (upd p (k + (ncz - 2 - i) * ncx) 0) (k + (ncz - 2 - i) * ncx)
            (upd p (k + (ncz - 2 - i) * ncx) 0 (k + (ncz - 2 - i) * ncx + ncx) - gz * dz * rho (k + (ncz - 2 - i) * ncx))
        else upd p (k + (ncz - 2 - i) * ncx) 0) ?_
    · obtain ⟨g1, g2⟩ := inner
      refine ⟨fun k hk => by rw [g1 k hk _ (by omega), h1 k hk], ?_⟩
      intro k hk l hl1 hl2
      by_cases he : l = ncz - 2 - i
      · subst he
        rw [g2 k hk, g1 k hk _ (by omega)]
      · rw [g1 k hk l he, g1 k hk (l + 1) (by omega), h2 k hk l (by omega) hl2]
    · intro n q hn ⟨g1, g2⟩
      set L := ncz - 2 - i with hL
      have e1 : n + L * ncx + ncx = n + (L + 1) * ncx := by ring
      have e2 : upd q (n + L * ncx) 0 (n + L * ncx + ncx) = p (n + (L + 1) * ncx) := by
        rw [e1, upd_ne _ _ (lattice_ne hn hn (by omega)), g1 n hn _ (by omega)]
      rw [e2]
      constructor
      · intro k hk l hl
        have hne : k + l * ncx ≠ n + L * ncx := lattice_ne hk hn (Or.inr hl)
        split
        · rw [upd_ne _ _ hne, upd_ne _ _ hne, g1 k hk l hl]
        · rw [upd_ne _ _ hne, g1 k hk l hl]
      · intro k hk
        by_cases he : k = n
        · subst he
          by_cases ha : AirFlag (tagP (k + L * ncx))
          · rw [if_neg (by unfold AirFlag at ha; tauto), if_pos ha, upd_same]
          · rw [if_pos (by unfold AirFlag at ha; tauto), if_neg ha, upd_same]
        · have hne : k + L * ncx ≠ n + L * ncx := lattice_ne (by omega) hn (Or.inl he)
          rw [← g2 k (by omega)]
          split
          · rw [upd_ne _ _ hne, upd_ne _ _ hne]
          · rw [upd_ne _ _ hne]

/-- Half a cell weight is taken off again and the confining pressure added (second pass). -/
theorem lith_eq (ncx ncz : Nat) (tagP : Nat → Int) (gz dz bkg : K) (rho : Nat → K) :
    ∃ p : Nat → K, ((∀ k < ncx, p (k + (ncz - 1) * ncx) = 0)
      ∧ ∀ k < ncx, ∀ l, l + 1 < ncz → p (k + l * ncx)
        = if AirFlag (tagP (k + l * ncx)) then 0 else p (k + (l + 1) * ncx) - gz * dz * rho (k + l * ncx))
      ∧ ∀ k < ncx, ∀ l < ncz, lithostatic ncx ncz tagP gz dz bkg rho (k + l * ncx)
        = if AirFlag (tagP (k + l * ncx)) then p (k + l * ncx) else p (k + l * ncx) + bkg + 1 / 2 * gz * dz * rho (k + l * ncx) := by
  refine ⟨_, lith_pass ncx ncz tagP gz dz rho _ rfl, ?_⟩
  intro k hk l hl
  unfold lithostatic
  simp only []
  generalize forUp (ncz - 1) (fun (_ : Nat) => (0 : K)) _ = p
  rw [forGrid_eq]
  have hb : (fun (p : Nat → K) c => if tagP c ≠ 30 ∧ tagP c ≠ 31 then
        upd (upd p c (p c + bkg)) c (upd p c (p c + bkg) c + 1 / 2 * gz * dz * rho c) else p)
      = fun p c => upd p c ((fun c x => if AirFlag (tagP c) then x else x + bkg + 1 / 2 * gz * dz * rho c) c (p c)) := by
    funext p c j
    by_cases ha : AirFlag (tagP c)
    · rw [if_neg (by unfold AirFlag at ha; tauto)]
      simp only [if_pos ha]
      by_cases hj : j = c
      · subst hj; simp
      · rw [upd_ne _ _ hj]
    · rw [if_pos (by unfold AirFlag at ha; tauto)]
      simp only [if_neg ha, upd_same]
      by_cases hj : j = c
      · subst hj; simp
      · rw [upd_ne _ _ hj, upd_ne _ _ hj, upd_ne _ _ hj]
  rw [hb]
  refine (forUp_pointwise (ncz * ncx) p
    (fun c x => if AirFlag (tagP c) then x else x + bkg + 1 / 2 * gz * dz * rho c) (k + l * ncx)).trans (if_pos ?_)
  calc k + l * ncx < ncx + l * ncx := by omega
    _ = (l + 1) * ncx := by ring
    _ ≤ ncz * ncx := Nat.mul_le_mul_right _ hl

/-- Vertically adjacent rock cells: the pressure difference is gravity times mean density times cell
height (`gz` points upwards, so gravity is `-gz`). -/
theorem lith_difference (ncx ncz : Nat) (tagP : Nat → Int) (gz dz bkg : K) (rho : Nat → K) [NeZero (2 : K)] (k l : Nat)
    (hk : k < ncx) (hl : l + 1 < ncz) (h1 : ¬ AirFlag (tagP (k + l * ncx))) (h2 : ¬ AirFlag (tagP (k + (l + 1) * ncx))) :
    lithostatic ncx ncz tagP gz dz bkg rho (k + l * ncx) - lithostatic ncx ncz tagP gz dz bkg rho (k + (l + 1) * ncx)
      = -gz * ((rho (k + l * ncx) + rho (k + (l + 1) * ncx)) / 2) * dz := by
  obtain ⟨p, ⟨-, hp⟩, he⟩ := lith_eq ncx ncz tagP gz dz bkg rho
  rw [he k hk l (by omega), he k hk (l + 1) hl, if_neg h1, if_neg h2, hp k hk l hl, if_neg h1]
  have : (2 : K) ≠ 0 := NeZero.ne 2
  field_simp
  ring

/-- Air cells have pressure zero. -/
theorem lith_air (ncx ncz : Nat) (tagP : Nat → Int) (gz dz bkg : K) (rho : Nat → K) (k l : Nat)
    (hk : k < ncx) (hl : l < ncz) (h1 : AirFlag (tagP (k + l * ncx))) :
    lithostatic ncx ncz tagP gz dz bkg rho (k + l * ncx) = 0 := by
  obtain ⟨p, ⟨ht, hp⟩, he⟩ := lith_eq ncx ncz tagP gz dz bkg rho
  rw [he k hk l hl, if_pos h1]
  by_cases hl' : l + 1 < ncz
  · rw [hp k hk l hl', if_pos h1]
  · rw [show l = ncz - 1 by omega, ht k hk]

/-- Below a surface inside the box: the pressure of a rock cell is the confining pressure plus the weight
of the column above its centre. -/
theorem lith_weight (ncx ncz : Nat) (tagP : Nat → Int) (gz dz bkg : K) (rho : Nat → K) [NeZero (2 : K)] (k s : Nat)
    (hk : k < ncx) (hs : s < ncz) (hair : AirFlag (tagP (k + s * ncx)))
    (hrock : ∀ l < s, ¬ AirFlag (tagP (k + l * ncx))) (l : Nat) (hl : l < s) :
    lithostatic ncx ncz tagP gz dz bkg rho (k + l * ncx) = bkg + overburden (-gz) dz (fun j => rho (k + j * ncx)) l s := by
  obtain ⟨p, ⟨ht, hp⟩, he⟩ := lith_eq ncx ncz tagP gz dz bkg rho
  have h2 : (2 : K) ≠ 0 := NeZero.ne 2
  have hps : p (k + s * ncx) = 0 := by
    by_cases hl' : s + 1 < ncz
    · rw [hp k hk s hl', if_pos hair]
    · rw [show s = ncz - 1 by omega, ht k hk]
  have key : ∀ d l, l + d = s → p (k + l * ncx) = -gz * dz * ∑ j ∈ Finset.Ico l s, rho (k + j * ncx) := by
    intro d
    induction d with
    | zero => intro l h; rw [show l = s by omega, hps]; simp
    | succ d ih =>
      intro l h
      rw [hp k hk l (by omega), if_neg (hrock l (by omega)), ih (l + 1) (by omega), Finset.sum_eq_sum_Ico_succ_bot (by omega : l < s)]
      ring
  rw [he k hk l (by omega), if_neg (hrock l hl), key (s - l) l (by omega), Finset.sum_eq_sum_Ico_succ_bot hl]
  unfold overburden
  field_simp
  ring

/-- Without air the weight of the top cell is missing everywhere in the column. -/
theorem lith_top_cell_missing (ncx ncz : Nat) (tagP : Nat → Int) (gz dz bkg : K) (rho : Nat → K) [NeZero (2 : K)] (k : Nat)
    (hk : k < ncx) (hz : 0 < ncz) (hrock : ∀ l < ncz, ¬ AirFlag (tagP (k + l * ncx))) (l : Nat) (hl : l < ncz) :
    lithostatic ncx ncz tagP gz dz bkg rho (k + l * ncx)
      = bkg + overburden (-gz) dz (fun j => rho (k + j * ncx)) l ncz - -gz * dz * rho (k + (ncz - 1) * ncx) := by
  obtain ⟨p, ⟨ht, hp⟩, he⟩ := lith_eq ncx ncz tagP gz dz bkg rho
  have h2 : (2 : K) ≠ 0 := NeZero.ne 2
  have key : ∀ d l, l + d = ncz - 1 → p (k + l * ncx) = -gz * dz * ∑ j ∈ Finset.Ico l (ncz - 1), rho (k + j * ncx) := by
    intro d
    induction d with
    | zero => intro l h; rw [show l = ncz - 1 by omega, ht k hk]; simp
    | succ d ih =>
      intro l h
      rw [hp k hk l (by omega), if_neg (hrock l (by omega)), ih (l + 1) (by omega),
        Finset.sum_eq_sum_Ico_succ_bot (by omega : l < ncz - 1)]
      ring
  rw [he k hk l hl, if_neg (hrock l hl), key (ncz - 1 - l) l (by omega)]
  have e1 : ∑ j ∈ Finset.Ico l ncz, rho (k + j * ncx) = ∑ j ∈ Finset.Ico l (ncz - 1), rho (k + j * ncx) + rho (k + (ncz - 1) * ncx) := by
    obtain ⟨n, rfl⟩ : ∃ n, ncz = n + 1 := ⟨ncz - 1, by omega⟩
    rw [Finset.sum_Ico_succ_top (by omega)]; simp
  have e2 : ∑ j ∈ Finset.Ico l ncz, rho (k + j * ncx) = rho (k + l * ncx) + ∑ j ∈ Finset.Ico (l + 1) ncz, rho (k + j * ncx) :=
    Finset.sum_eq_sum_Ico_succ_bot hl _
  have e3 : ∑ j ∈ Finset.Ico l (ncz - 1), rho (k + j * ncx)
      = rho (k + l * ncx) + ∑ j ∈ Finset.Ico (l + 1) ncz, rho (k + j * ncx) - rho (k + (ncz - 1) * ncx) := by
    rw [← e2, e1]; ring
  unfold overburden
  rw [e3]
  field_simp
  ring

variable [LinearOrder K] [IsStrictOrderedRing K]

/-- Pressure does not decrease downwards between rock cells. -/
theorem lith_monotone (ncx ncz : Nat) (tagP : Nat → Int) (gz dz bkg : K) (rho : Nat → K) (hg : gz ≤ 0) (hdz : 0 ≤ dz)
    (hr : ∀ c, 0 ≤ rho c) (k l : Nat)
    (hk : k < ncx) (hl : l + 1 < ncz) (h1 : ¬ AirFlag (tagP (k + l * ncx))) (h2 : ¬ AirFlag (tagP (k + (l + 1) * ncx))) :
    lithostatic ncx ncz tagP gz dz bkg rho (k + (l + 1) * ncx) ≤ lithostatic ncx ncz tagP gz dz bkg rho (k + l * ncx) := by
  have := lith_difference ncx ncz tagP gz dz bkg rho k l hk hl h1 h2
  have h3 : 0 ≤ -gz * ((rho (k + l * ncx) + rho (k + (l + 1) * ncx)) / 2) * dz :=
    mul_nonneg (mul_nonneg (by linarith) (by linarith [hr (k + l * ncx), hr (k + (l + 1) * ncx)])) hdz
  linarith

/-- Example: three cells without air; the top cell even gets a negative pressure. -/
example : (List.range 3).map (lithostatic 1 3 (fun _ => -1) (-10) 2 0 (fun _ => (3 : ℚ))) = [90, 30, -30] := by
  decide +kernel

/-- Example: the same column under an air cell. -/
example : (List.range 3).map (lithostatic 1 3 (fun c => if c = 2 then 31 else -1) (-10) 2 0 (fun _ => (3 : ℚ))) = [90, 30, 0] := by
  decide +kernel

end

/-! ### C65 -/

section
variable {K : Type*} [Field K] [LinearOrder K]

/-- What the routine computes at an interior node: one step over half the time step. -/
theorem upwind_eq (Vx Vz F0 F : Nat → K) (dx dz dt : K) (Nx Nz k l : Nat) (hk : 0 < k ∧ k + 1 < Nx) (hl : 0 < l ∧ l + 1 < Nz) :
    upwind Vx Vz F0 F dx dz dt Nx Nz (k + l * Nx) = upwindNode Vx Vz F0 dx dz (dt / 2) Nx (k + l * Nx) := by
  unfold upwind
  rw [show (2 : Nat) = 1 + 1 from rfl, forUp_succ]
  generalize forUp 1 F _ = G
  have := (forUp_store2 (Nz - 2) (Nx - 2) G (fun i j => (i + 1) * Nx + (j + 1))
    (fun i j => upwindNode Vx Vz F0 dx dz (dt / 2) Nx ((i + 1) * Nx + (j + 1)))
    (fun i hi j hj i' hi' j' hj' h => by
      have := lattice_inj (W := Nx) (i := j + 1) (j := i + 1) (i' := j' + 1) (j' := i' + 1) (by omega) (by omega) (by omega)
      omega)).1 (l - 1) (by omega) (k - 1) (by omega)
  rw [show (l - 1 + 1) * Nx + (k - 1 + 1) = k + l * Nx by rw [show l - 1 + 1 = l by omega, show k - 1 + 1 = k by omega]; ring] at this
  exact this

variable [IsStrictOrderedRing K]

/-- The upwind value is between bounds of the node and its four neighbours when the step is small
enough. -/
private theorem node_between (Vx Vz F0 : Nat → K) (dx dz dt : K) (Nx c : Nat) (hdx : 0 < dx) (hdz : 0 < dz) (hdt : 0 ≤ dt)
    (hc : dt * (|Vx c| / dx + |Vz c| / dz) ≤ 1) (lo hi : K)
    (hb : ∀ n ∈ [c, c - 1, c + 1, c - Nx, c + Nx], lo ≤ F0 n ∧ F0 n ≤ hi) :
    lo ≤ upwindNode Vx Vz F0 dx dz dt Nx c ∧ upwindNode Vx Vz F0 dx dz dt Nx c ≤ hi := by
  simp only [List.forall_mem_cons] at hb
  obtain ⟨b0, b1, b2, b3, b4, _⟩ := hb
  have ex : ∃ u, lo ≤ u ∧ u ≤ hi ∧ (if 0 < Vx c then Vx c / dx * (F0 c - F0 (c - 1)) else Vx c / dx * (F0 (c + 1) - F0 c))
      = |Vx c| / dx * (F0 c - u) := by
    split
    · next h => exact ⟨F0 (c - 1), b1.1, b1.2, by rw [abs_of_pos h]⟩
    · next h => exact ⟨F0 (c + 1), b2.1, b2.2, by rw [abs_of_nonpos (not_lt.1 h)]; ring⟩
  have ez : ∃ u, lo ≤ u ∧ u ≤ hi ∧ (if 0 < Vz c then Vz c / dz * (F0 c - F0 (c - Nx)) else Vz c / dz * (F0 (c + Nx) - F0 c))
      = |Vz c| / dz * (F0 c - u) := by
    split
    · next h => exact ⟨F0 (c - Nx), b3.1, b3.2, by rw [abs_of_pos h]⟩
    · next h => exact ⟨F0 (c + Nx), b4.1, b4.2, by rw [abs_of_nonpos (not_lt.1 h)]; ring⟩
  obtain ⟨u, u1, u2, hu⟩ := ex
  obtain ⟨w, w1, w2, hw⟩ := ez
  unfold upwindNode
  simp only [hu, hw]
  have ha : 0 ≤ dt * (|Vx c| / dx) := mul_nonneg hdt (div_nonneg (abs_nonneg _) hdx.le)
  have hbb : 0 ≤ dt * (|Vz c| / dz) := mul_nonneg hdt (div_nonneg (abs_nonneg _) hdz.le)
  have hr : 0 ≤ 1 - dt * (|Vx c| / dx) - dt * (|Vz c| / dz) := by linarith
  generalize |Vx c| / dx = A at *
  generalize |Vz c| / dz = B at *
  have e : F0 c - dt * (A * (F0 c - u)) - dt * (B * (F0 c - w)) = (1 - dt * A - dt * B) * F0 c + dt * A * u + dt * B * w := by ring
  rw [e]
  constructor
  · have e2 : lo = (1 - dt * A - dt * B) * lo + dt * A * lo + dt * B * lo := by ring
    have := mul_le_mul_of_nonneg_left b0.1 hr
    have := mul_le_mul_of_nonneg_left u1 ha
    have := mul_le_mul_of_nonneg_left w1 hbb
    linarith
  · have e2 : hi = (1 - dt * A - dt * B) * hi + dt * A * hi + dt * B * hi := by ring
    have := mul_le_mul_of_nonneg_left b0.2 hr
    have := mul_le_mul_of_nonneg_left u2 ha
    have := mul_le_mul_of_nonneg_left w2 hbb
    linarith

/-- No new extrema: under the stability condition for the *whole* time step the advected value lies
between bounds of the old values at the node and its four neighbours.  Partial: that the field is
advanced by the requested time step is false, see `upwind_half_step`. -/
theorem upwind_partial (Vx Vz F0 F : Nat → K) (dx dz dt : K) (Nx Nz k l : Nat) (hk : 0 < k ∧ k + 1 < Nx) (hl : 0 < l ∧ l + 1 < Nz)
    (hdx : 0 < dx) (hdz : 0 < dz) (hdt : 0 ≤ dt)
    (hc : dt * (|Vx (k + l * Nx)| / dx + |Vz (k + l * Nx)| / dz) ≤ 1) (lo hi : K)
    (hb : ∀ n ∈ [k + l * Nx, k - 1 + l * Nx, k + 1 + l * Nx, k + (l - 1) * Nx, k + (l + 1) * Nx], lo ≤ F0 n ∧ F0 n ≤ hi) :
    lo ≤ upwind Vx Vz F0 F dx dz dt Nx Nz (k + l * Nx) ∧ upwind Vx Vz F0 F dx dz dt Nx Nz (k + l * Nx) ≤ hi := by
  rw [upwind_eq Vx Vz F0 F dx dz dt Nx Nz k l hk hl]
  obtain ⟨m, rfl⟩ : ∃ m, l = m + 1 := ⟨l - 1, by omega⟩
  apply node_between Vx Vz F0 dx dz (dt / 2) Nx _ hdx hdz (by linarith) _ lo hi
  · rw [show k + (m + 1) * Nx - 1 = k - 1 + (m + 1) * Nx by omega, show k + (m + 1) * Nx + 1 = k + 1 + (m + 1) * Nx by ring,
      show k + (m + 1) * Nx - Nx = k + (m + 1 - 1) * Nx by rw [Nat.succ_mul]; simp; omega,
      show k + (m + 1) * Nx + Nx = k + (m + 1 + 1) * Nx by ring]
    exact hb
  · have : 0 ≤ |Vx (k + (m + 1) * Nx)| / dx + |Vz (k + (m + 1) * Nx)| / dz :=
      add_nonneg (div_nonneg (abs_nonneg _) hdx.le) (div_nonneg (abs_nonneg _) hdz.le)
    nlinarith

/-- Half of the requested motion only: a uniform slope carried with uniform velocity moves by `dt/2`. -/
theorem upwind_half_step (vx vz sx sz dx dz dt : K) (hdx : 0 < dx) (hdz : 0 < dz) (Nx Nz k l : Nat) (hk : 0 < k ∧ k + 1 < Nx)
    (hl : 0 < l ∧ l + 1 < Nz) (F F0 : Nat → K)
    (h0 : ∀ i < Nx, ∀ j < Nz, F0 (i + j * Nx) = sx * (i * dx) + sz * (j * dz)) :
    upwind (fun _ => vx) (fun _ => vz) F0 F dx dz dt Nx Nz (k + l * Nx)
      = sx * (k * dx - vx * (dt / 2)) + sz * (l * dz - vz * (dt / 2)) := by
  rw [upwind_eq _ _ F0 F dx dz dt Nx Nz k l hk hl]
  obtain ⟨m, rfl⟩ : ∃ m, l = m + 1 := ⟨l - 1, by omega⟩
  obtain ⟨n, rfl⟩ : ∃ n, k = n + 1 := ⟨k - 1, by omega⟩
  unfold upwindNode
  rw [show n + 1 + (m + 1) * Nx - 1 = n + (m + 1) * Nx by omega, show n + 1 + (m + 1) * Nx + 1 = n + 2 + (m + 1) * Nx by ring,
    show n + 1 + (m + 1) * Nx - Nx = n + 1 + m * Nx by rw [Nat.succ_mul]; omega,
    show n + 1 + (m + 1) * Nx + Nx = n + 1 + (m + 2) * Nx by ring]
  rw [h0 _ (by omega) _ (by omega), h0 _ (by omega) _ (by omega), h0 _ (by omega) _ (by omega), h0 _ (by omega) _ (by omega),
    h0 _ (by omega) _ (by omega)]
  push_cast
  have := hdx.ne'
  have := hdz.ne'
  have q1 : ∀ a b c : K, (if (0 : K) < a then b else b) = b := fun a b c => by split <;> rfl
  have x1 : vx / dx * (sx * ((n + 1) * dx) + sz * ((m + 1) * dz) - (sx * (n * dx) + sz * ((m + 1) * dz))) = vx * sx := by
    field_simp; ring
  have x2 : vx / dx * (sx * ((n + 2) * dx) + sz * ((m + 1) * dz) - (sx * ((n + 1) * dx) + sz * ((m + 1) * dz))) = vx * sx := by
    field_simp; ring
  have z1 : vz / dz * (sx * ((n + 1) * dx) + sz * ((m + 1) * dz) - (sx * ((n + 1) * dx) + sz * (m * dz))) = vz * sz := by
    field_simp; ring
  have z2 : vz / dz * (sx * ((n + 1) * dx) + sz * ((m + 2) * dz) - (sx * ((n + 1) * dx) + sz * ((m + 1) * dz))) = vz * sz := by
    field_simp; ring
  rw [x1, x2, z1, z2, ite_self, ite_self]
  ring

/-- A concrete case of the hypotheses: a step profile is carried by half the distance. -/
example : upwind (fun _ => 1) (fun _ => 0) (fun c => if c % 4 < 2 then (1 : ℚ) else 0) (fun _ => 0) 1 1 1 4 3 (2 + 1 * 4) = 1 / 2 := by
  decide +kernel
end

end Verif.GridField
