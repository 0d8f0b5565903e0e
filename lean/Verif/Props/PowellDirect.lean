import Verif.Props.Powell

set_option linter.unusedSectionVars false
set_option linter.unusedVariables false

/-
Powell-Hestenes iterations of the direct solver: exact momentum balance after every iteration,
decreasing divergence, convergence.
-/
namespace Verif.PH

open Matrix Ksp LinSpec Finset

variable {n m : Nat}

/-- Entries equal to their mirror images. -/
def Symm {n : Nat} (A : Fin n → Fin n → ℝ) : Prop := ∀ i j, A i j = A j i

/-- Never dissipates a negative amount. -/
def NonNeg {n : Nat} (A : Fin n → Fin n → ℝ) : Prop := ∀ w : Fin n → ℝ, 0 ≤ ∑ i, w i * ∑ j, A i j * w j

/-- The gradient that is minus the transposed divergence. -/
def minusTranspose {n m : Nat} (C : Fin m → Fin n → ℝ) : Fin n → Fin m → ℝ := fun i j => -C j i

theorem dot_sub_sub {l : Nat} (a b : Vec l) :
    (a - b) ⬝ᵥ (a - b) = a ⬝ᵥ a - 2 * (a ⬝ᵥ b) + b ⬝ᵥ b := by
  rw [dotProduct_sub, sub_dotProduct, sub_dotProduct, dotProduct_comm b a]; ring

/-- Only the lower triangle of the Schur complement is handed to the factorisation; nothing is lost
when the velocity block is symmetric. -/
theorem factorised_matrix (A : Matrix (Fin n) (Fin n) ℝ) (hA : Symm A)
    (C : Matrix (Fin (m + 1)) (Fin n) ℝ) (D : Fin (m + 1) → ℝ) :
    lowerSym (schur A (gradOf C) D C) = schur A (gradOf C) D C := by
  have hs : ∀ i j, schur A (gradOf C) D C i j = schur A (gradOf C) D C j i := by
    intro i j
    simp only [schur, gradOf, Matrix.sub_apply]
    rw [hA i j]
    congr 1
    rw [mul_apply, mul_apply]
    simp only [diagonal_mul, Matrix.neg_apply, transpose_apply]
    exact Finset.sum_congr rfl fun k _ => by ring
  funext i j
  unfold lowerSym
  split_ifs
  · rfl
  · exact hs j i

theorem schur_apply (A : Matrix (Fin n) (Fin n) ℝ) (C : Matrix (Fin (m + 1)) (Fin n) ℝ)
    (D : Fin (m + 1) → ℝ) (u : Vec n) :
    schur A (gradOf C) D C *ᵥ u = A *ᵥ u - gradOf C *ᵥ (diagonal D *ᵥ (C *ᵥ u)) := by
  unfold schur
  rw [sub_mulVec, ← mulVec_mulVec, ← mulVec_mulVec]

theorem momLeft_eq (A : Matrix (Fin n) (Fin n) ℝ) (C : Matrix (Fin (m + 1)) (Fin n) ℝ) (bu u : Vec n)
    (p : Vec (m + 1)) :
    momLeft A (minusTranspose C) bu u p = bu - A *ᵥ u - gradOf C *ᵥ p := by
  funext i
  simp [momLeft, minusTranspose, gradOf, mulVec, dotProduct]

theorem contLeft_eq (C : Matrix (Fin (m + 1)) (Fin n) ℝ) (bp : Vec (m + 1)) (u : Vec n) (p : Vec (m + 1)) :
    contLeft C (fun _ => 0) bp u p = bp - C *ᵥ u := by
  funext i
  simp [contLeft, mulVec, dotProduct]

/-- Every iteration balances the momentum equations exactly, whatever the starting pressure, the penalty
and the divergence right-hand side. -/
theorem direct_momentum_exact (A : Matrix (Fin n) (Fin n) ℝ) (hA : Symm A)
    (C : Matrix (Fin (m + 1)) (Fin n) ℝ) (D : Fin (m + 1) → ℝ) (solve : Vec n → Vec n)
    (hsolve : ∀ r, Solves (lowerSym (schur A (gradOf C) D C)) r (solve r)) (bu : Vec n)
    (bp p : Vec (m + 1)) (i : Fin n) :
    momLeft A (minusTranspose C) bu (directStep C D solve bu bp p).1
      (directStep C D solve bu bp p).2 i = 0 := by
  rw [momLeft_eq]
  have h : ∀ r, schur A (gradOf C) D C *ᵥ solve r = r := by
    intro r
    have := hsolve r
    rw [factorised_matrix A hA] at this
    exact funext fun i => this i
  set u := (directStep C D solve bu bp p).1 with hu
  have h1 : schur A (gradOf C) D C *ᵥ u = bu - gradOf C *ᵥ p - gradOf C *ᵥ (diagonal D *ᵥ bp) := by
    rw [hu]; exact h _
  have h2 : (directStep C D solve bu bp p).2 = p + diagonal D *ᵥ (bp - C *ᵥ u) := rfl
  rw [h2, schur_apply] at *
  have h3 : A *ᵥ u = bu - gradOf C *ᵥ p - gradOf C *ᵥ (diagonal D *ᵥ bp) +
      gradOf C *ᵥ (diagonal D *ᵥ (C *ᵥ u)) := by rw [← h1]; abel
  rw [h3]
  simp only [mulVec_add, mulVec_sub]
  have : (bu - (bu - gradOf C *ᵥ p - gradOf C *ᵥ diagonal D *ᵥ bp + gradOf C *ᵥ diagonal D *ᵥ C *ᵥ u) -
      (gradOf C *ᵥ p + (gradOf C *ᵥ diagonal D *ᵥ bp - gradOf C *ᵥ diagonal D *ᵥ C *ᵥ u))) = 0 := by abel
  rw [this]; rfl

theorem nonneg_dot {A : Matrix (Fin n) (Fin n) ℝ} (h : NonNeg A) (w : Vec n) : 0 ≤ w ⬝ᵥ (A *ᵥ w) := by
  have := h w
  simpa [dotProduct, mulVec] using this

theorem grad_dot (C : Matrix (Fin (m + 1)) (Fin n) ℝ) (w : Vec n) (q : Vec (m + 1)) :
    w ⬝ᵥ (gradOf C *ᵥ q) = -((C *ᵥ w) ⬝ᵥ q) := by
  unfold gradOf
  rw [neg_mulVec, dotProduct_neg, dotProduct_mulVec, vecMul_transpose]

theorem diag_const (g : ℝ) (q : Vec (m + 1)) : diagonal (fun _ => g) *ᵥ q = g • q := by
  funext i; simp [mulVec_diagonal]

/-- The divergence left over never grows from one iteration to the next. -/
theorem direct_divergence_decreases (A : Matrix (Fin n) (Fin n) ℝ) (hA : Symm A) (hN : NonNeg A)
    (C : Matrix (Fin (m + 1)) (Fin n) ℝ) (g : ℝ) (hg : 0 < g) (solve : Vec n → Vec n)
    (hsolve : ∀ r, Solves (lowerSym (schur A (gradOf C) (fun _ => g) C)) r (solve r)) (bu : Vec n)
    (bp : Vec (m + 1)) (u0 : Vec n) (p0 : Vec (m + 1)) (k : Nat) :
    let it := directIter C (fun _ => g) solve bu bp u0 p0
    len (contLeft C (fun _ => 0) bp (it (k + 2)).1 (it (k + 2)).2) ≤
      len (contLeft C (fun _ => 0) bp (it (k + 1)).1 (it (k + 1)).2) := by
  intro it
  rw [contLeft_eq, contLeft_eq, len_eq, len_eq]
  apply Real.sqrt_le_sqrt
  set u1 := (it (k + 1)).1
  set u2 := (it (k + 2)).1
  set p1 := (it (k + 1)).2
  set p2 := (it (k + 2)).2
  have m1 : bu - A *ᵥ u1 - gradOf C *ᵥ p1 = 0 := by
    rw [← momLeft_eq]; funext i
    exact direct_momentum_exact A hA C _ solve hsolve bu bp _ i
  have m2 : bu - A *ᵥ u2 - gradOf C *ᵥ p2 = 0 := by
    rw [← momLeft_eq]; funext i
    exact direct_momentum_exact A hA C _ solve hsolve bu bp _ i
  have hp : p2 = p1 + g • (bp - C *ᵥ u2) := by
    show p1 + diagonal (fun _ => g) *ᵥ (bp - C *ᵥ u2) = _
    rw [diag_const]
  set r1 := bp - C *ᵥ u1 with hr1
  set r2 := bp - C *ᵥ u2 with hr2
  have hd : A *ᵥ (u2 - u1) = -(gradOf C *ᵥ (g • r2)) := by
    have e : gradOf C *ᵥ p2 = gradOf C *ᵥ p1 + gradOf C *ᵥ (g • r2) := by rw [hp, mulVec_add]
    rw [mulVec_sub]
    have e1 : A *ᵥ u1 = bu - gradOf C *ᵥ p1 := by
      have := sub_eq_zero.1 m1
      rw [← this]; abel
    have e2 : A *ᵥ u2 = bu - gradOf C *ᵥ p2 := by
      have := sub_eq_zero.1 m2
      rw [← this]; abel
    rw [e1, e2, e]; abel
  have hq := nonneg_dot hN (u2 - u1)
  rw [hd, dotProduct_neg, grad_dot, neg_neg, dotProduct_smul, smul_eq_mul] at hq
  have hC : C *ᵥ (u2 - u1) = r1 - r2 := by rw [mulVec_sub, hr1, hr2]; abel
  rw [hC, sub_dotProduct] at hq
  have hq' : 0 ≤ r1 ⬝ᵥ r2 - r2 ⬝ᵥ r2 := by
    by_contra hneg
    have := mul_neg_of_pos_of_neg hg (not_le.1 hneg)
    linarith
  have hsq : 0 ≤ (r1 - r2) ⬝ᵥ (r1 - r2) := by
    unfold dotProduct
    exact Finset.sum_nonneg fun i _ => mul_self_nonneg _
  rw [dot_sub_sub] at hsq
  linarith

/-- The iterations converge whenever the system has a solution: after `k` iterations the squared length
of the divergence left over is at most the squared distance of the starting pressure from that of a
solution, divided by `k` and by the square of the penalty. -/
theorem direct_converges (A : Matrix (Fin n) (Fin n) ℝ) (hA : Symm A) (hN : NonNeg A)
    (C : Matrix (Fin (m + 1)) (Fin n) ℝ) (g : ℝ) (hg : 0 < g) (solve : Vec n → Vec n)
    (hsolve : ∀ r, Solves (lowerSym (schur A (gradOf C) (fun _ => g) C)) r (solve r)) (bu : Vec n)
    (bp : Vec (m + 1)) (u0 : Vec n) (p0 : Vec (m + 1)) (us : Vec n) (ps : Vec (m + 1))
    (hs : Saddle A (minusTranspose C) C (fun _ => 0) bu bp us ps) (k : Nat) (hk : 0 < k) :
    let it := directIter C (fun _ => g) solve bu bp u0 p0
    len (contLeft C (fun _ => 0) bp (it k).1 (it k).2) ^ 2 ≤ len (p0 - ps) ^ 2 / (k * g ^ 2) := by
  intro it
  have hsq : ∀ {l : Nat} (v : Vec l), len v ^ 2 = v ⬝ᵥ v := by
    intro l v
    rw [len_eq]
    unfold norm2
    refine Real.sq_sqrt ?_
    unfold dotProduct
    exact Finset.sum_nonneg fun i _ => mul_self_nonneg _
  have hnn : ∀ {l : Nat} (v : Vec l), 0 ≤ v ⬝ᵥ v := by
    intro l v
    unfold dotProduct
    exact Finset.sum_nonneg fun i _ => mul_self_nonneg _
  have sm : bu - A *ᵥ us - gradOf C *ᵥ ps = 0 := by
    rw [← momLeft_eq]
    funext i
    have := hs.1 i
    unfold momLeft
    show _ = (0 : ℝ)
    linarith
  have sc : C *ᵥ us = bp := by
    funext i
    have := hs.2 i
    simpa [mulVec, dotProduct] using this
  set r : Nat → Vec (m + 1) := fun k => bp - C *ᵥ (it k).1 with hr
  have energy : ∀ k, ((it (k + 1)).2 - ps) ⬝ᵥ ((it (k + 1)).2 - ps) + g ^ 2 * (r (k + 1) ⬝ᵥ r (k + 1)) ≤
      ((it k).2 - ps) ⬝ᵥ ((it k).2 - ps) := by
    intro k
    have m1 : bu - A *ᵥ (it (k + 1)).1 - gradOf C *ᵥ (it (k + 1)).2 = 0 := by
      rw [← momLeft_eq]; funext i
      exact direct_momentum_exact A hA C _ solve hsolve bu bp _ i
    have hp : (it (k + 1)).2 = (it k).2 + g • r (k + 1) := by
      show (it k).2 + diagonal (fun _ => g) *ᵥ (bp - C *ᵥ (it (k + 1)).1) = _
      rw [diag_const]
    set e := (it (k + 1)).1 - us with he
    set q := (it (k + 1)).2 - ps with hq
    have hAe : A *ᵥ e = -(gradOf C *ᵥ q) := by
      have e1 : A *ᵥ (it (k + 1)).1 = bu - gradOf C *ᵥ (it (k + 1)).2 := by
        have := sub_eq_zero.1 m1
        rw [← this]; abel
      have e2 : A *ᵥ us = bu - gradOf C *ᵥ ps := by
        have := sub_eq_zero.1 sm
        rw [← this]; abel
      rw [he, hq, mulVec_sub, mulVec_sub, e1, e2]; abel
    have hn := nonneg_dot hN e
    rw [hAe, dotProduct_neg, grad_dot, neg_neg] at hn
    have hC : C *ᵥ e = -(r (k + 1)) := by
      show C *ᵥ ((it (k + 1)).1 - us) = -(bp - C *ᵥ (it (k + 1)).1)
      rw [mulVec_sub, sc]; abel
    rw [hC, neg_dotProduct] at hn
    have hold : (it k).2 - ps = q - g • r (k + 1) := by rw [hq, hp]; abel
    rw [hold, dot_sub_sub q, dotProduct_smul, dotProduct_smul, smul_dotProduct,
      dotProduct_comm q (r (k + 1))]
    simp only [smul_eq_mul]
    nlinarith
  have mono : ∀ j k, r (j + 1 + k) ⬝ᵥ r (j + 1 + k) ≤ r (j + 1) ⬝ᵥ r (j + 1) := by
    intro j k
    induction k with
    | zero => exact le_refl _
    | succ k ih =>
      refine le_trans ?_ ih
      have := direct_divergence_decreases A hA hN C g hg solve hsolve bu bp u0 p0 (j + k)
      dsimp only at this
      rw [contLeft_eq, contLeft_eq] at this
      have h2 := pow_le_pow_left₀ (by unfold len; exact Real.sqrt_nonneg _) this 2
      rw [hsq, hsq] at h2
      have e1 : j + k + 2 = j + 1 + (k + 1) := by omega
      have e2 : j + k + 1 = j + 1 + k := by omega
      rw [e1, e2] at h2
      exact h2
  have total : ∀ l, l ≤ k → ((it l).2 - ps) ⬝ᵥ ((it l).2 - ps) + l * (g ^ 2 * (r k ⬝ᵥ r k)) ≤
      (p0 - ps) ⬝ᵥ (p0 - ps) := by
    intro l
    induction l with
    | zero =>
      intro _
      have e : (it 0).2 = p0 := rfl
      rw [e, Nat.cast_zero, zero_mul, add_zero]
    | succ l ih =>
      intro hl
      have h1 := ih (by omega)
      have h2 := energy l
      have h3 : r k ⬝ᵥ r k ≤ r (l + 1) ⬝ᵥ r (l + 1) := by
        have := mono l (k - (l + 1))
        have e : l + 1 + (k - (l + 1)) = k := by omega
        rw [e] at this
        exact this
      have h4 : g ^ 2 * (r k ⬝ᵥ r k) ≤ g ^ 2 * (r (l + 1) ⬝ᵥ r (l + 1)) :=
        mul_le_mul_of_nonneg_left h3 (sq_nonneg g)
      push_cast
      linarith
  rw [contLeft_eq, hsq, hsq]
  have hk' : (0 : ℝ) < k := by exact_mod_cast hk
  rw [le_div_iff₀ (by positivity)]
  have h1 := total k (le_refl k)
  have h2 := hnn ((it k).2 - ps)
  have e : r k = bp - C *ᵥ (it k).1 := rfl
  rw [e] at h1
  nlinarith

/-! ### Cases that meet the hypotheses -/

/-- One velocity, one cell: `2 u - p = 6`, `u = 1`, penalty 3.  The velocity matrix is `2 + 3 = 5`. -/
example : let it := directIter (n := 1) (m := 0) !![1] (fun _ => 3) (fun r => ![r 0 / 5]) ![6] ![1] 0 0
    ∀ k, 0 < k → len (contLeft (n := 1) (m := 1) !![1] (fun _ => 0) ![1] (it k).1 (it k).2) ^ 2 ≤
      len (0 - ![(-4 : ℝ)]) ^ 2 / (k * 3 ^ 2) := by
  intro it k hk
  refine direct_converges (n := 1) (m := 0) !![2] ?_ ?_ !![1] 3 (by norm_num) _ ?_ ![6] ![1] 0 0 ![1]
    ![-4] ?_ k hk
  · intro i j; fin_cases i; fin_cases j; rfl
  · intro w; simp; nlinarith [sq_nonneg (w 0)]
  · intro r i
    fin_cases i
    simp [lowerSym, schur, gradOf, Matrix.mul_apply]
    ring
  · constructor
    · intro i; fin_cases i; simp [minusTranspose]; norm_num
    · intro i; fin_cases i; simp

end Verif.PH
