import Verif.Model.Powell
import Verif.Props.KrylovOptimal
import Mathlib.Data.Real.Basic
import Mathlib.Analysis.InnerProductSpace.Basic
import Mathlib.Algebra.Order.BigOperators.Ring.Finset

set_option linter.unusedSectionVars false
set_option linter.unusedVariables false

/-
The segregated Stokes solvers: what an iteration achieves, convergence, and what the acceptance tests
do and do not guarantee.
-/
namespace Verif.PH

open Matrix Ksp LinSpec Finset

variable {n m : Nat}

/-! ### Specification of the coupled system -/

/-- `(u, p)` solves the coupled system `A u + B p = bu`, `C u + d p = bp`. -/
def Saddle {n m : Nat} (A : Fin n → Fin n → ℝ) (B : Fin n → Fin m → ℝ) (C : Fin m → Fin n → ℝ)
    (d : Fin m → ℝ) (bu : Fin n → ℝ) (bp : Fin m → ℝ) (u : Fin n → ℝ) (p : Fin m → ℝ) : Prop :=
  (∀ i, ∑ j, A i j * u j + ∑ j, B i j * p j = bu i) ∧ ∀ i, ∑ j, C i j * u j + d i * p i = bp i

/-- Part of `bu` not balanced by `(u, p)`. -/
def momLeft {n m : Nat} (A : Fin n → Fin n → ℝ) (B : Fin n → Fin m → ℝ) (bu : Fin n → ℝ)
    (u : Fin n → ℝ) (p : Fin m → ℝ) (i : Fin n) : ℝ :=
  bu i - ∑ j, A i j * u j - ∑ j, B i j * p j

/-- Part of `bp` not balanced by `(u, p)`. -/
def contLeft {n m : Nat} (C : Fin m → Fin n → ℝ) (d : Fin m → ℝ) (bp : Fin m → ℝ) (u : Fin n → ℝ)
    (p : Fin m → ℝ) (i : Fin m) : ℝ :=
  bp i - ∑ j, C i j * u j - d i * p i

theorem momRes_eq (S : Sys n m) (bu u : Vec n) (p : Vec (m + 1)) :
    momRes S bu u p = momLeft S.A S.B bu u p := by
  funext i; simp [momRes, momLeft, mulVec, dotProduct]

theorem contRes_eq (S : Sys n m) (bp : Vec (m + 1)) (u : Vec n) (p : Vec (m + 1)) :
    contRes S bp u p = contLeft S.C S.D1 bp u p := by
  funext i
  simp only [contRes, contLeft, Pi.sub_apply, mulVec_diagonal]
  simp [mulVec, dotProduct]

/-! ### Pressure blocks -/

/-- Cell `k` carries a pressure unknown. -/
def Rock (c : Cells) (k : Nat) : Prop := k < c.ncell ∧ c.tag k ≠ 30 ∧ c.tag k ≠ 31

/-- The compressibility term of cell `k` written to equation `i`. -/
noncomputable def storage (c : Cells) (k : Nat) : ℝ :=
  (if c.volChange = 0 then c.bet k / c.dt else c.drhodp k / (c.rho k * c.dt)) * c.celvol *
    c.d (c.eqn k) ^ 2

/-- Pressure block of every cell of the default solver: an incompressible cell has no storage, the
penalty, and keeps the previous pressure in the right-hand side; a compressible cell has its storage
term, the inverse of it, and no previous pressure. -/
theorem killer_blocks (c : Cells) (hinj : ∀ k l, Rock c k → Rock c l → c.eqn k = c.eqn l → k = l)
    (hcomp : ∀ k, c.comp k = 0 ∨ c.comp k = 1) (hvol : c.volChange = 0 ∨ c.volChange = 1)
    (k : Nat) (hk : Rock c k) :
    (c.comp k = 0 → (killerBlocks c).D1 (c.eqn k) = 0 ∧ (killerBlocks c).D (c.eqn k) = c.penalty ∧
      (killerBlocks c).W (c.eqn k) = 1) ∧
    (c.comp k = 1 → (killerBlocks c).D1 (c.eqn k) = storage c k ∧
      (killerBlocks c).D (c.eqn k) = 1 / storage c k ∧ (killerBlocks c).W (c.eqn k) = 0) := by
  have key := forUp_inv (s := (⟨fun _ => 1, fun _ => 1, fun _ => 1⟩ : Blocks)) (f := killerCell c)
    (P := fun j s => (∀ k, k < j → Rock c k →
        (c.comp k = 0 → s.D1 (c.eqn k) = 0 ∧ s.D (c.eqn k) = c.penalty ∧ s.W (c.eqn k) = 1) ∧
        (c.comp k = 1 → s.D1 (c.eqn k) = storage c k ∧ s.D (c.eqn k) = 1 / storage c k ∧
          s.W (c.eqn k) = 0)) ∧
      (∀ k, j ≤ k → Rock c k → s.D1 (c.eqn k) = 1 ∧ s.D (c.eqn k) = 1 ∧ s.W (c.eqn k) = 1)) c.ncell
    ⟨fun k hk => absurd hk (Nat.not_lt_zero k), fun _ _ _ => ⟨rfl, rfl, rfl⟩⟩ ?_
  · exact key.1 k hk.1 hk
  · intro j s hj ⟨h1, h2⟩
    by_cases hr : c.tag j ≠ 30 ∧ c.tag j ≠ 31
    · have hR : Rock c j := ⟨hj, hr⟩
      obtain ⟨e1, e2, e3⟩ := h2 j (le_refl j) hR
      have hoth : ∀ k, Rock c k → k ≠ j →
          (killerCell c s j).D1 (c.eqn k) = s.D1 (c.eqn k) ∧
          (killerCell c s j).D (c.eqn k) = s.D (c.eqn k) ∧
          (killerCell c s j).W (c.eqn k) = s.W (c.eqn k) := by
        intro k hk hkj
        have hne : c.eqn k ≠ c.eqn j := fun e => hkj (hinj k j hk hR e)
        unfold killerCell
        rw [if_pos hr]
        rcases hcomp j with h0 | h0 <;> rcases hvol with hv | hv <;>
          simp [h0, hv, upd_ne _ _ hne]
      have hself : (c.comp j = 0 → (killerCell c s j).D1 (c.eqn j) = 0 ∧
            (killerCell c s j).D (c.eqn j) = c.penalty ∧ (killerCell c s j).W (c.eqn j) = 1) ∧
          (c.comp j = 1 → (killerCell c s j).D1 (c.eqn j) = storage c j ∧
            (killerCell c s j).D (c.eqn j) = 1 / storage c j ∧ (killerCell c s j).W (c.eqn j) = 0) := by
        unfold killerCell storage
        rw [if_pos hr]
        constructor
        · intro h0
          simp [h0, e2, e3]
        · intro h0
          rcases hvol with hv | hv <;> simp [h0, hv] <;> constructor <;> ring
      refine ⟨fun k hk hkR => ?_, fun k hk hkR => ?_⟩
      · by_cases hkj : k = j
        · subst hkj; exact hself
        · obtain ⟨o1, o2, o3⟩ := hoth k hkR hkj
          rw [o1, o2, o3]
          exact h1 k (by omega) hkR
      · obtain ⟨o1, o2, o3⟩ := hoth k hkR (by omega)
        rw [o1, o2, o3]
        exact h2 k (by omega) hkR
    · have e : killerCell c s j = s := by unfold killerCell; rw [if_neg hr]
      rw [e]
      refine ⟨fun k hk hkR => ?_, fun k hk hkR => h2 k (by omega) hkR⟩
      by_cases hkj : k = j
      · subst hkj; exact absurd hkR.2 hr
      · exact h1 k (by omega) hkR

/-- The blocks fit together: what an iteration keeps of the old pressure is what the inverse block times
the block leaves. -/
def Fit (S : Sys n m) : Prop := ∀ i, S.W i = 1 - S.D i * S.D1 i

/-- The blocks of the default solver fit whenever every compressible cell has a nonzero storage term and
every equation belongs to a cell. -/
theorem killer_blocks_fit (c : Cells) (hinj : ∀ k l, Rock c k → Rock c l → c.eqn k = c.eqn l → k = l)
    (hcomp : ∀ k, c.comp k = 0 ∨ c.comp k = 1) (hvol : c.volChange = 0 ∨ c.volChange = 1)
    (hst : ∀ k, Rock c k → c.comp k = 1 → storage c k ≠ 0) (S : Sys n m)
    (hall : ∀ i : Fin (m + 1), ∃ k, Rock c k ∧ c.eqn k = i)
    (hD1 : ∀ i, S.D1 i = (killerBlocks c).D1 i) (hD : ∀ i, S.D i = (killerBlocks c).D i)
    (hW : ∀ i, S.W i = (killerBlocks c).W i) : Fit S := by
  intro i
  obtain ⟨k, hk, hi⟩ := hall i
  have := killer_blocks c hinj hcomp hvol k hk
  rw [hi] at this
  rw [hD1, hD, hW]
  rcases hcomp k with h | h
  · obtain ⟨a, b, d⟩ := this.1 h
    rw [a, b, d]; ring
  · obtain ⟨a, b, d⟩ := this.2 h
    have := hst k hk h
    rw [a, b, d]; field_simp; ring

/-- The same loop in the direct compressible solver and in the Krylov one reads the block at the cell
number instead of the equation number.  Whenever air cells make the two differ, the "inverse" of a
compressible cell is 1, whatever the compressibility, or the inverse of what lies behind the array: the
pressure correction is wrong. -/
theorem comp_blocks_misread (c : Cells) (hinj : ∀ k l, Rock c k → Rock c l → c.eqn k = c.eqn l → k = l)
    (hle : ∀ k, Rock c k → c.eqn k ≤ k) (k : Nat) (hk : Rock c k) (hcomp : c.comp k = 1)
    (hne : c.eqn k < k) (neq : Nat) (junk : Nat → ℝ) :
    (compBlocks c neq junk).D (c.eqn k) = if k < neq then 1 else 1 / junk k := by
  have key := forUp_inv (s := (⟨fun _ => 1, fun _ => 1, fun _ => 1⟩ : Blocks)) (f := compCell c neq junk)
    (P := fun j s => (k < j → s.D (c.eqn k) = if k < neq then 1 else 1 / junk k) ∧ ∀ i, j ≤ i → s.D1 i = 1) c.ncell
    ⟨fun h => absurd h (Nat.not_lt_zero k), fun _ _ => rfl⟩ ?_
  · exact key.1 hk.1
  · intro j s hj ⟨h1, h2⟩
    by_cases hr : c.tag j ≠ 30 ∧ c.tag j ≠ 31
    · have hR : Rock c j := ⟨hj, hr⟩
      have hej := hle j hR
      have hD1 : ∀ i, j + 1 ≤ i → (compCell c neq junk s j).D1 i = 1 := by
        intro i hi
        have hni : i ≠ c.eqn j := by omega
        unfold compCell
        rw [if_pos hr]
        dsimp only
        by_cases h0 : c.comp j = 0
        · have : ¬ c.comp j = 1 := by omega
          simp only [h0, if_true]
          simp [upd_ne _ _ hni, h2 i (by omega)]
        · by_cases h1' : c.comp j = 1
          · simp [h1', upd_ne _ _ hni, h2 i (by omega)]
          · simp [h0, h1', h2 i (by omega)]
      refine ⟨fun hkj => ?_, hD1⟩
      by_cases hkj' : k = j
      · subst hkj'
        unfold compCell
        rw [if_pos hr]
        simp only [hcomp]
        have hnk : k ≠ c.eqn k := by omega
        simp [upd_ne _ _ hnk, h2 k (le_refl k)]
        split_ifs <;> simp
      · have hne' : c.eqn k ≠ c.eqn j := fun e => hkj' (hinj k j hk hR e)
        have : (compCell c neq junk s j).D (c.eqn k) = s.D (c.eqn k) := by
          unfold compCell
          rw [if_pos hr]
          dsimp only
          by_cases h0 : c.comp j = 0
          · simp [h0, upd_ne _ _ hne']
          · by_cases h1' : c.comp j = 1
            · simp [h1', upd_ne _ _ hne']
            · simp [h0, h1']
        rw [this]
        exact h1 (by omega)
    · have e : compCell c neq junk s j = s := by unfold compCell; rw [if_neg hr]
      rw [e]
      refine ⟨fun hkj => ?_, fun i hi => h2 i (by omega)⟩
      by_cases hkj' : k = j
      · subst hkj'; exact absurd hk.2 hr
      · exact h1 (by omega)

/-! ### An iteration of the default solver -/

/-- The momentum residual left by an iteration is exactly the residual of the velocity solve: nothing is
lost in the elimination of the pressure. -/
theorem momentum_is_krylov_residual (S : Sys n m) (hfit : Fit S) (hC : S.Cpicard = S.C) (bu : Vec n)
    (bp : Vec (m + 1)) (u : Vec n) (p : Vec (m + 1)) :
    momLeft S.A S.B bu u (newPressure S bp u p) = left (velMatrix S) (velRhs S bu bp p) u := by
  rw [← momRes_eq, left_eq]
  unfold momRes newPressure velRhs velMatrix schur
  rw [hC, sub_mulVec, ← mulVec_mulVec, ← mulVec_mulVec]
  have hW : diagonal S.W *ᵥ p = p - diagonal S.D *ᵥ (diagonal S.D1 *ᵥ p) := by
    funext i
    simp only [mulVec_diagonal, Pi.sub_apply]
    rw [hfit i]; ring
  rw [hW]
  simp only [mulVec_add, mulVec_sub]
  abel

/-- In compressible cells the continuity equation holds exactly after every iteration. -/
theorem compressible_cells_exact (S : Sys n m) (hfit : Fit S) (bp : Vec (m + 1)) (u : Vec n)
    (p : Vec (m + 1)) (i : Fin (m + 1)) (hi : S.W i = 0) :
    contLeft S.C S.D1 bp u (newPressure S bp u p) i = 0 := by
  have h1 : S.D i * S.D1 i = 1 := by have := hfit i; linarith
  have e : newPressure S bp u p i = S.D i * (bp i - ∑ j, S.C i j * u j) := by
    unfold newPressure
    simp only [Pi.add_apply, mulVec_diagonal, Pi.sub_apply]
    have : (S.C *ᵥ u) i = ∑ j, S.C i j * u j := by simp [mulVec, dotProduct]
    rw [this]
    linear_combination (-(p i)) * h1
  unfold contLeft
  rw [e]
  linear_combination (-(bp i - ∑ j, S.C i j * u j)) * h1

/-- In incompressible cells the pressure changes by the penalty times what is left of the divergence. -/
theorem incompressible_cells_penalty (S : Sys n m) (bp : Vec (m + 1)) (u : Vec n) (p : Vec (m + 1))
    (i : Fin (m + 1)) (hi : S.D1 i = 0) :
    newPressure S bp u p i = p i + S.D i * contLeft S.C S.D1 bp u (newPressure S bp u p) i := by
  unfold contLeft newPressure
  simp only [Pi.add_apply, mulVec_diagonal, Pi.sub_apply, hi]
  have : (S.C *ᵥ u) i = ∑ j, S.C i j * u j := by simp [mulVec, dotProduct]
  rw [this]; ring

/-- Solutions are exactly the states an iteration with an exact velocity solve leaves alone. -/
theorem fixed_points_are_solutions (S : Sys n m) (hfit : Fit S) (hC : S.Cpicard = S.C)
    (hD : ∀ i, S.D i ≠ 0) (bu : Vec n) (bp : Vec (m + 1)) (u : Vec n) (p : Vec (m + 1)) :
    (Solves (velMatrix S) (velRhs S bu bp p) u ∧ newPressure S bp u p = p) ↔
      Saddle S.A S.B S.C S.D1 bu bp u p := by
  have hmom : ∀ q, (∀ i, ∑ j, S.A i j * u j + ∑ j, S.B i j * q j = bu i) ↔
      momLeft S.A S.B bu u q = 0 := by
    intro q
    constructor
    · intro h; funext i; unfold momLeft; have := h i; show _ = (0 : ℝ); linarith
    · intro h i; have := congrFun h i; unfold momLeft at this
      have : bu i - ∑ j, S.A i j * u j - ∑ j, S.B i j * q j = 0 := this
      linarith
  have hsol : Solves (velMatrix S) (velRhs S bu bp p) u ↔
      left (velMatrix S) (velRhs S bu bp p) u = 0 := by
    constructor
    · intro h; funext i; unfold left; rw [h i]; simp
    · intro h i; have := congrFun h i; unfold left at this
      have : velRhs S bu bp p i - ∑ j, velMatrix S i j * u j = 0 := this
      linarith
  have hnew : newPressure S bp u p = p ↔ ∀ i, ∑ j, S.C i j * u j + S.D1 i * p i = bp i := by
    have he : ∀ i, newPressure S bp u p i = p i + S.D i * (bp i - ∑ j, S.C i j * u j - S.D1 i * p i) := by
      intro i
      unfold newPressure
      simp only [Pi.add_apply, mulVec_diagonal, Pi.sub_apply]
      have : (S.C *ᵥ u) i = ∑ j, S.C i j * u j := by simp [mulVec, dotProduct]
      rw [this]
    constructor
    · intro h i
      have h1 := he i
      rw [h] at h1
      have h2 : S.D i * (bp i - ∑ j, S.C i j * u j - S.D1 i * p i) = 0 := by linarith
      rcases mul_eq_zero.1 h2 with h3 | h3
      · exact absurd h3 (hD i)
      · linarith
    · intro h
      funext i
      rw [he i, ← h i]; ring
  constructor
  · rintro ⟨h1, h2⟩
    refine ⟨?_, hnew.1 h2⟩
    rw [hmom, ← h2, momentum_is_krylov_residual S hfit hC]
    exact hsol.1 h1
  · rintro ⟨h1, h2⟩
    have h3 := hnew.2 h2
    refine ⟨?_, h3⟩
    rw [hsol, ← momentum_is_krylov_residual S hfit hC, h3]
    exact (hmom p).1 h1

/-! ### Acceptance -/

theorem killerStep_spec {S : Sys (n + 1) m} {prec : Vec (n + 1) → Vec (n + 1)} {t : Tol}
    {bu : Vec (n + 1)} {bp : Vec (m + 1)} {k : Nat} {s s' : St n m}
    (h : killerStep S prec t bu bp k s = some s') :
    s'.fu = momLeft S.A S.B bu s'.u s'.p ∧ s'.fp = contLeft S.C S.D1 bp s'.u s'.p ∧
      s'.maxdiv = maxVal s'.fp ∧ s'.maxru = maxVal s'.fu ∧
      ∃ ok r, kspgcr (velMatrix S) prec (velRhs S bu bp s.p) s.u t.relKsp t.maxKsp = some (ok, r) ∧
        s'.u = r.x ∧ s'.p = newPressure S bp s'.u s.p := by
  unfold killerStep at h
  cases hk : kspgcr (velMatrix S) prec (velRhs S bu bp s.p) s.u t.relKsp t.maxKsp with
  | none => simp [hk] at h
  | some r =>
    obtain ⟨ok, r⟩ := r
    simp only [hk, Option.some.injEq] at h
    subst h
    exact ⟨momRes_eq S bu _ _, contRes_eq S bp _ _, rfl, rfl, ok, r, rfl, rfl, rfl⟩

/-- An iteration never makes the momentum imbalance longer than it was for the old velocity with the
pressure eliminated, and shortens it by the Krylov tolerance when the Krylov solver has converged. -/
theorem iteration_momentum (S : Sys (n + 1) m) (hfit : Fit S) (hC : S.Cpicard = S.C)
    (prec : Vec (n + 1) → Vec (n + 1)) (t : Tol) (bu : Vec (n + 1)) (bp : Vec (m + 1)) (k : Nat)
    (s s' : St n m) (h : killerStep S prec t bu bp k s = some s') :
    len (momLeft S.A S.B bu s'.u s'.p) ≤ len (momLeft S.A S.B bu s.u (newPressure S bp s.u s.p)) ∧
      (∀ r, kspgcr (velMatrix S) prec (velRhs S bu bp s.p) s.u t.relKsp t.maxKsp = some (true, r) →
        len (momLeft S.A S.B bu s'.u s'.p) <
          t.relKsp * len (momLeft S.A S.B bu s.u (newPressure S bp s.u s.p))) := by
  obtain ⟨_, _, _, _, ok, r, hk, hu, hp⟩ := killerStep_spec h
  rw [hp, momentum_is_krylov_residual S hfit hC, momentum_is_krylov_residual S hfit hC, hu]
  refine ⟨(returned_vector _ _ _ _ _ _ _ _ hk).2.1, fun r' hr' => ?_⟩
  rw [hk] at hr'
  simp only [Option.some.injEq, Prod.mk.injEq] at hr'
  obtain ⟨rfl, rfl⟩ := hr'
  exact (returned_vector _ _ _ _ _ _ _ _ hk).2.2.1 rfl

theorem killerLoop_spec {S : Sys (n + 1) m} {prec : Vec (n + 1) → Vec (n + 1)} {t : Tol}
    {bu : Vec (n + 1)} {bp : Vec (m + 1)} :
    ∀ (lft k : Nat) (s s' : St n m), 0 < lft → killerLoop S prec t bu bp lft k s = some s' →
      ∃ k' s0, killerStep S prec t bu bp k' s0 = some s' := by
  intro lft
  induction lft with
  | zero => intro k s s' h0; exact absurd h0 (lt_irrefl 0)
  | succ l ih =>
    intro k s s' _ h
    rw [killerLoop] at h
    cases hs : killerStep S prec t bu bp k s with
    | none => simp [hs] at h
    | some s1 =>
      simp only [hs] at h
      by_cases hc : converged t k s1
      · rw [if_pos hc] at h
        simp only [Option.some.injEq] at h
        subst h
        exact ⟨k, s, hs⟩
      · rw [if_neg hc] at h
        cases l with
        | zero =>
          simp only [killerLoop, Option.some.injEq] at h
          subst h
          exact ⟨k, s, hs⟩
        | succ l => exact ih (k + 1) s1 s' (Nat.succ_pos l) h

/-- After the first iteration the reference maximum is never changed again. -/
theorem killerLoop_later (S : Sys (n + 1) m) (prec : Vec (n + 1) → Vec (n + 1)) (t : Tol)
    (bu : Vec (n + 1)) (bp : Vec (m + 1)) (lft k : Nat) (hk : 0 < k) (s s' : St n m)
    (h : killerLoop S prec t bu bp lft k s = some s') : s'.maxdiv0 = s.maxdiv0 := by
  induction lft generalizing k s with
  | zero => rw [killerLoop] at h; injection h with h; rw [h]
  | succ lft ih =>
    rw [killerLoop] at h
    cases hs : killerStep S prec t bu bp k s with
    | none => rw [hs] at h; cases h
    | some s2 =>
      rw [hs] at h
      dsimp only at h
      have e2 : s2.maxdiv0 = s.maxdiv0 := by
        unfold killerStep at hs
        split at hs
        · cases hs
        · injection hs with hs
          subst hs
          simp only [if_neg (Nat.pos_iff_ne_zero.1 hk)]
      split at h
      · injection h with h; rw [← h, e2]
      · rw [ih (k + 1) (Nat.succ_pos k) s2 h, e2]

/-- The reference maximum is the largest continuity residual left by the first iteration. -/
theorem killerLoop_first (S : Sys (n + 1) m) (prec : Vec (n + 1) → Vec (n + 1)) (t : Tol)
    (bu : Vec (n + 1)) (bp : Vec (m + 1)) (lft : Nat) (hl : 0 < lft) (s s' : St n m)
    (h : killerLoop S prec t bu bp lft 0 s = some s') :
    ∃ s1, killerStep S prec t bu bp 0 s = some s1 ∧
      IsGreatest (Set.range (contLeft S.C S.D1 bp s1.u s1.p)) s'.maxdiv0 := by
  obtain ⟨lft, rfl⟩ := Nat.exists_eq_succ_of_ne_zero (Nat.pos_iff_ne_zero.1 hl)
  rw [killerLoop] at h
  cases hs : killerStep S prec t bu bp 0 s with
  | none => rw [hs] at h; cases h
  | some s2 =>
    rw [hs] at h
    dsimp only at h
    refine ⟨s2, rfl, ?_⟩
    have e : s'.maxdiv0 = s2.maxdiv0 := by
      split at h
      · injection h with h; rw [← h]
      · exact killerLoop_later S prec t bu bp lft 1 Nat.one_pos s2 s' h
    have e2 : s2.maxdiv0 = maxVal s2.fp := by
      unfold killerStep at hs
      split at hs
      · cases hs
      · injection hs with hs
        subst hs
        simp
    have h2 := (killerStep_spec hs).2.1
    rw [← h2, e, e2]
    constructor
    · obtain ⟨i, -, hi⟩ := Finset.exists_mem_eq_sup' (s := (univ : Finset (Fin (m + 1))))
        ⟨0, mem_univ _⟩ s2.fp
      exact ⟨i, hi.symm⟩
    · rintro _ ⟨i, rfl⟩
      exact Finset.le_sup' s2.fp (mem_univ i)

/-- What a solution handed back by the default solver is worth.  The residuals shown are those of the
returned velocity and pressure; compressible cells are balanced exactly; and every continuity residual is bounded **above** by the absolute tolerance or, when the largest continuity residual `d0` after the
first iteration was positive, by the relative tolerance times `d0`.  Nothing bounds the continuity
residual from below, and nothing bounds the momentum residual by its tolerances: see
`negative_divergence_accepted` and `momentum_not_checked`. -/
theorem accepted_partial (S : Sys (n + 1) m) (hfit : Fit S) (hC : S.Cpicard = S.C)
    (prec : Vec (n + 1) → Vec (n + 1)) (t : Tol) (bu : Vec (n + 1)) (bp : Vec (m + 1)) (junk : ℝ)
    (hit : 0 < t.maxPH) (s : St n m) (h : killerSolver S prec t bu bp junk = .solution s) :
    s.fu = momLeft S.A S.B bu s.u s.p ∧ s.fp = contLeft S.C S.D1 bp s.u s.p ∧
      (∀ i, S.W i = 0 → s.fp i = 0) ∧
      ∃ s1 d0, killerStep S prec t bu bp 0 (startSt bu bp junk) = some s1 ∧
        IsGreatest (Set.range (contLeft S.C S.D1 bp s1.u s1.p)) d0 ∧
        ((∀ i, s.fp i ≤ t.absDiv) ∨ (0 < d0 → ∀ i, s.fp i ≤ t.relDiv * d0)) := by
  unfold killerSolver at h
  cases hl : killerLoop S prec t bu bp t.maxPH 0 (startSt bu bp junk) with
  | none => simp [hl] at h
  | some s1 =>
    simp only [hl] at h
    by_cases hr : rejected t s1
    · rw [if_pos hr] at h; cases h
    · rw [if_neg hr] at h
      injection h with h
      subst h
      obtain ⟨k', s0, hs⟩ := killerLoop_spec _ _ _ _ hit hl
      obtain ⟨h1, h2, h3, h4, ok, r, hk, hu, hp⟩ := killerStep_spec hs
      have hub : ∀ i, s1.fp i ≤ s1.maxdiv := fun i => by
        rw [h3]; exact Finset.le_sup' s1.fp (mem_univ i)
      obtain ⟨sf, hsf, hgr⟩ := killerLoop_first S prec t bu bp _ hit _ _ hl
      refine ⟨h1, h2, ?_, sf, s1.maxdiv0, hsf, hgr, ?_⟩
      · intro i hi
        rw [h2, hp]
        exact compressible_cells_exact S hfit bp s1.u s0.p i hi
      · unfold rejected at hr
        rw [not_and_or] at hr
        rcases hr with hr | hr
        · left
          intro i
          exact le_trans (hub i) (le_trans (le_abs_self _) (not_lt.1 hr))
        · right
          intro hpos i
          refine le_trans (hub i) ?_
          by_contra hcon
          apply hr
          refine Or.inl ⟨hpos.ne', ?_⟩
          rw [lt_div_iff₀ hpos]
          linarith

end Verif.PH
