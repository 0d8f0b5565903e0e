import Verif.Props.Dissipation
import Verif.Props.Coupled
import Verif.Props.StencilExamples
import Mathlib.LinearAlgebra.Matrix.PosDef
import Mathlib.LinearAlgebra.Matrix.NonsingularInverse
import Mathlib.Algebra.Order.Star.Real

/- C145, continued: the solvers of C94, C143 applied to the assembled velocity block, and examples. -/
namespace Verif
open Finset Matrix

section
variable {K : Type*} [Field K] [LinearOrder K] [CharZero K]

omit [CharZero K] in
theorem velRow_of_mem (m : SMesh K) (n : SNode) (h : n ∈ velNodes m) : VelRow m n (velRow m n) := by
  unfold velNodes at h
  simp only [mem_union, mem_image, mem_filter, mem_product, mem_range, Prod.exists] at h
  rcases h with ⟨k, l, ⟨⟨a, b⟩, ⟨c1, c2, c3, c4⟩, d⟩, rfl⟩ | ⟨k, l, ⟨⟨a, b⟩, ⟨c1, c2, c3, c4⟩, d⟩, rfl⟩
  · have := VelRow.x (m := m) (k : Int) l (by omega) (by omega) d
    simp only [velRow]
    rwa [colOf_mk _ _ _ (by omega) (by omega), rowOf_mk _ _ _ (by omega) (by omega)]
  · have := VelRow.z (m := m) (k : Int) l (by omega) (by omega) (by omega) (by omega) d
    simp only [velRow]
    rwa [colOf_mk _ _ _ (by omega) (by omega), rowOf_mk _ _ _ (by omega) (by omega)]

end

/-- The assembled velocity block for a numbering of the unknowns. -/
noncomputable def assembled (m : SMesh ℝ) {n : Nat} (num : Fin n ≃ {d // d ∈ velNodes m}) :
    Matrix (Fin n) (Fin n) ℝ := Matrix.of fun i j => coeff (velRow m (num i).1) (num j).1

theorem assembled_work (m : SMesh ℝ) {n : Nat} (num : Fin n ≃ {d // d ∈ velNodes m})
    (w : Fin n → ℝ) :
    ∑ i, w i * ∑ j, assembled m num i j * w j =
      viscousWork m fun d => if h : d ∈ velNodes m then w (num.symm ⟨d, h⟩) else 0 := by
  unfold viscousWork
  rw [← Finset.sum_coe_sort (velNodes m), ← Equiv.sum_comp num]
  refine Finset.sum_congr rfl fun i _ => ?_
  rw [Finset.mul_sum, ← Finset.sum_coe_sort (velNodes m), ← Equiv.sum_comp num]
  refine Finset.sum_congr rfl fun j _ => ?_
  simp only [assembled, Matrix.of_apply, (num i).2, (num j).2, dif_pos, Subtype.coe_eta, Equiv.symm_apply_apply]
  ring

/-- C145.  For every numbering of the unknowns the assembled velocity block is symmetric and does no
negative work. -/
theorem assembled_block (m : SMesh ℝ) (hv : Viscous m) (hb : ClosedBox m) (hs : StableOrOff m)
    (hdx : 0 < m.dx) (hdz : 0 < m.dz) {n : Nat} (num : Fin n ≃ {d // d ∈ velNodes m}) :
    PH.Symm (assembled m num) ∧ PH.NonNeg (assembled m num) := by
  refine ⟨fun i j => ?_, fun w => ?_⟩
  · exact stokes_velocity_block_symmetric m hv.iso hv.air hb.notPeriodic _ _ _ _
      (velRow_of_mem m _ (num i).2) (velRow_of_mem m _ (num j).2)
  · rw [assembled_work]
    exact viscous_work_nonneg_partial m _ hv hb hs hdx hdz

/-- If only the field at rest does no work, the block is positive definite and every system has
exactly one solution. -/
theorem definite_of_rest (m : SMesh ℝ) (hv : Viscous m) (hb : ClosedBox m) (hs : StableOrOff m)
    (hdx : 0 < m.dx) (hdz : 0 < m.dz)
    (rest : ∀ x : SNode → ℝ, viscousWork m x = 0 → ∀ d ∈ velNodes m, x d = 0)
    {n : Nat} (num : Fin n ≃ {d // d ∈ velNodes m}) :
    (assembled m num).PosDef ∧
      ∀ b : Fin n → ℝ, ∃! w : Fin n → ℝ, ∀ i, ∑ j, assembled m num i j * w j = b i := by
  have hsy := (assembled_block m hv hb hs hdx hdz num).1
  have hnn := (assembled_block m hv hb hs hdx hdz num).2
  have key : ∀ w : Fin n → ℝ, ∑ i, w i * ∑ j, assembled m num i j * w j = 0 → w = 0 := by
    intro w hw
    rw [assembled_work] at hw
    have := rest _ hw
    funext i
    have h := this (num i).1 (num i).2
    simpa [(num i).2] using h
  have pd : (assembled m num).PosDef := by
    refine Matrix.PosDef.of_dotProduct_mulVec_pos ?_ fun w hw => ?_
    · ext i j; simp [Matrix.conjTranspose_apply, hsy j i]
    · have e : star w ⬝ᵥ (assembled m num) *ᵥ w =
          ∑ i, w i * ∑ j, assembled m num i j * w j := by
        simp [dotProduct, mulVec]
      rw [e]
      exact lt_of_le_of_ne (hnn w) fun h => hw (key w h.symm)
  refine ⟨pd, fun b => ?_⟩
  have hu : IsUnit (assembled m num) := pd.isUnit
  have hdet : IsUnit (assembled m num).det := (Matrix.isUnit_iff_isUnit_det _).1 hu
  refine ⟨(assembled m num)⁻¹ *ᵥ b, fun i => ?_, fun w hw => ?_⟩
  · have : (assembled m num) *ᵥ ((assembled m num)⁻¹ *ᵥ b) = b := by
      rw [Matrix.mulVec_mulVec, Matrix.mul_nonsing_inv _ hdet, Matrix.one_mulVec]
    have := congrFun this i
    simpa [mulVec, dotProduct] using this
  · have e : (assembled m num) *ᵥ w = b := by
      funext i; simpa [mulVec, dotProduct] using hw i
    rw [← e, Matrix.mulVec_mulVec, Matrix.nonsing_inv_mul _ hdet, Matrix.one_mulVec]

/-- C145.  Without air and with positive viscosities the block has nothing in its kernel, so the
triangular factorisation the solver relies on exists and every system has exactly one solution. -/
theorem assembled_definite (m : SMesh ℝ) (hv : Viscous m) (hb : ClosedBox m) (hs : StableOrOff m)
    (hdx : 0 < m.dx) (hdz : 0 < m.dz) (rock : AllRock m)
    (hco : ¬ (m.comp = true ∧ m.oop = true)) {n : Nat} (num : Fin n ≃ {d // d ∈ velNodes m}) :
    (assembled m num).PosDef ∧
      ∀ b : Fin n → ℝ, ∃! w : Fin n → ℝ, ∀ i, ∑ j, assembled m num i j * w j = b i := by
  exact definite_of_rest m hv hb hs hdx hdz (fun x hx => viscous_work_pos m x hv hb hs hdx hdz rock hco hx) num

/-- C145 with C94: the default solver, applied to the assembled velocity block of any closed box,
brings the divergence below any bound: after `k` iterations it is at most the distance of the start
pressure from the solution, divided by `g √k`. -/
theorem assembled_direct_converges (m : SMesh ℝ) (hv : Viscous m) (hb : ClosedBox m)
    (hs : StableOrOff m) (hdx : 0 < m.dx) (hdz : 0 < m.dz) {n q : Nat}
    (num : Fin n ≃ {d // d ∈ velNodes m}) (C : Matrix (Fin (q + 1)) (Fin n) ℝ) (g : ℝ) (hg : 0 < g)
    (solve : Ksp.Vec n → Ksp.Vec n)
    (hsolve : ∀ r, LinSpec.Solves (PH.lowerSym (PH.schur (assembled m num) (PH.gradOf C) (fun _ => g) C)) r (solve r))
    (bu : Ksp.Vec n) (bp : Ksp.Vec (q + 1)) (u0 : Ksp.Vec n) (p0 : Ksp.Vec (q + 1)) (us : Ksp.Vec n)
    (ps : Ksp.Vec (q + 1))
    (hsol : PH.Saddle (assembled m num) (PH.minusTranspose C) C (fun _ => 0) bu bp us ps) (k : Nat)
    (hk : 0 < k) :
    let it := PH.directIter C (fun _ => g) solve bu bp u0 p0
    LinSpec.len (PH.contLeft C (fun _ => 0) bp (it k).1 (it k).2) ^ 2 ≤
      LinSpec.len (p0 - ps) ^ 2 / (k * g ^ 2) :=
  PH.direct_converges _ (assembled_block m hv hb hs hdx hdz num).1
    (assembled_block m hv hb hs hdx hdz num).2 C g hg solve hsolve bu bp u0 p0 us ps hsol k hk

/-! ### examples -/

/-- Two by two cells between free-slip walls, a light layer below a heavy one, stabilised. -/
def heavyTopOn (K : Type*) [Field K] : SMesh K where
  Nx := 3
  Nz := 3
  dx := 1
  dz := 1
  tu := fun i => if i % 3 = 1 then (if i = 1 ∨ i = 10 then 13 else -1) else 0
  tv := fun i => if i = 5 ∨ i = 6 then -1 else if i = 4 ∨ i = 7 then 13 else 0
  tp := fun _ => -1
  tg := fun _ => -1
  bu := fun _ => 0
  bv := fun _ => 0
  bp := fun _ => 0
  D11 := fun _ => 1
  D22 := fun _ => 1
  D33 := fun _ => 1
  rho := fun i => if i < 2 then 4 else 1
  gx := fun _ => 0
  gz := fun _ => 1
  oop := false
  comp := false
  stab := true
  theta := 1
  dt := 1

def heavyTop : SMesh ℚ := heavyTopOn ℚ

section
variable {K : Type*} [Field K] [LinearOrder K] [IsStrictOrderedRing K]

theorem heavyTop_viscous : Viscous (heavyTopOn K) where
  iso := fun _ => rfl
  cell := fun _ _ _ _ => by simp [heavyTopOn]
  vertex := fun _ _ _ _ => by simp [heavyTopOn]
  air := fun _ h => absurd rfl h
  tags := fun _ => Or.inl rfl

theorem heavyTop_closed : ClosedBox (heavyTopOn K) where
  u := by
    intro k l hk0 hk hl0 hl
    simp only [heavyTopOn] at hk hl ⊢
    obtain rfl : k = 1 := by omega
    obtain rfl | rfl : l = 1 ∨ l = 2 := by omega
    · decide
    · decide
  v := by
    intro k l hk0 hk hl0 hl
    simp only [heavyTopOn] at hk hl ⊢
    obtain rfl : l = 1 := by omega
    obtain rfl | rfl : k = 1 ∨ k = 2 := by omega
    · decide
    · decide
  notPeriodic := by
    intro i
    simp only [heavyTopOn]
    split
    · decide
    · split <;> decide

/-- The same box with the stabilisation off. -/
def calmOn (K : Type*) [Field K] : SMesh K := { heavyTopOn K with stab := false }

theorem calm_viscous : Viscous (calmOn K) :=
  have h := heavyTop_viscous (K := K)
  ⟨h.1, h.2, h.3, h.4, h.5⟩

theorem calm_closed : ClosedBox (calmOn K) :=
  have h := heavyTop_closed (K := K)
  ⟨h.1, h.2, h.3⟩

omit [IsStrictOrderedRing K] in
theorem calm_off : StableOrOff (calmOn K) := fun h => by simp [calmOn] at h

theorem calm_rock : AllRock (calmOn K) := fun _ _ _ _ => ⟨rfl, by simp [calmOn, heavyTopOn]⟩

end

/-- Uniform upward motion of the two inner Vz nodes. -/
def rise : SNode → ℚ
  | .v _ => 1
  | _ => 0

/-- Without the condition on density the claim fails: the stabilisation of a gravitationally
unstable layer makes the velocity block do negative work, so it has no triangular factorisation with
positive diagonal. -/
theorem stabilisation_negative_work : viscousWork heavyTop rise = -2 := by decide +kernel

/-- The box with the stabilisation off, and with a stable layering. -/
def calm : SMesh ℚ := calmOn ℚ
def lightTop : SMesh ℚ := { heavyTop with rho := fun i => if i < 2 then 1 else 4 }

example : viscousWork calm rise = 4 ∧ viscousWork lightTop rise = 10 := by
  constructor <;> decide +kernel

example : 0 ≤ viscousWork calm rise :=
  viscous_work_nonneg_partial calm rise calm_viscous calm_closed calm_off
    (by norm_num [calm, calmOn, heavyTopOn]) (by norm_num [calm, calmOn, heavyTopOn])

example (x : SNode → ℚ) (h : viscousWork calm x = 0) : ∀ n ∈ velNodes calm, x n = 0 :=
  viscous_work_pos calm x calm_viscous calm_closed calm_off (by norm_num [calm, calmOn, heavyTopOn])
    (by norm_num [calm, calmOn, heavyTopOn]) calm_rock (by simp [calm, calmOn, heavyTopOn]) h

theorem demo_viscous : Viscous demoMesh0 where
  iso := fun _ => rfl
  cell := by
    intro k l _ _
    simp only [demoMesh0, demoMesh]
    split
    · exact le_rfl
    · exact add_nonneg (mul_self_nonneg _) zero_le_one
  vertex := by
    intro k l _ _
    simp only [demoMesh0, demoMesh]
    push_cast
    positivity
  air := by
    intro c h
    simp only [demoMesh0, demoMesh] at h ⊢
    split at h
    · rename_i e; rw [if_pos e]
    · exact absurd rfl h
  tags := by
    intro c
    simp only [demoMesh0, demoMesh, CellOk]
    split <;> simp

theorem demo_closed : ClosedBox demoMesh0 where
  u := by
    intro k l hk0 hk hl0 hl
    simp only [demoMesh0, demoMesh] at hk hl ⊢
    rw [if_neg (by push_cast; omega), if_neg (by push_cast; omega), if_neg (by push_cast; omega)]
    decide
  v := by
    intro k l hk0 hk hl0 hl
    simp only [demoMesh0, demoMesh] at hk hl ⊢
    rw [if_neg (by push_cast; omega), if_neg (by push_cast; omega)]
    decide
  notPeriodic := by
    intro i
    simp only [demoMesh0, demoMesh]
    split
    · decide
    · split <;> decide

/-- Over the reals, with any numbering of its four unknowns. -/
example : ∃ (n : Nat) (num : Fin n ≃ {d // d ∈ velNodes (calmOn ℝ)}), (assembled (calmOn ℝ) num).PosDef :=
  ⟨_, (velNodes (calmOn ℝ)).equivFin.symm,
    (assembled_definite (calmOn ℝ) calm_viscous calm_closed calm_off (by norm_num [calmOn, heavyTopOn])
      (by norm_num [calmOn, heavyTopOn]) calm_rock (by simp [calmOn, heavyTopOn]) _).1⟩

/-- A box with air, variable viscosity, compressible rock, free slip and no slip walls. -/
example (x : SNode → ℚ) : 0 ≤ viscousWork demoMesh0 x :=
  viscous_work_nonneg_partial demoMesh0 x demo_viscous demo_closed
    (fun h => by simp [demoMesh0] at h) (by norm_num [demoMesh0, demoMesh])
    (by norm_num [demoMesh0, demoMesh])

/-- The unknowns of the example: two Vx and two Vz nodes. -/
example : velNodes calm = {.u 4, .u 7, .v 5, .v 6} := by decide +kernel

end Verif
