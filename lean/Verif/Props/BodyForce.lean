import Verif.Model.Residual
import Mathlib.Tactic.Ring
import Mathlib.Tactic.Linarith
import Mathlib.Tactic.FieldSimp
import Mathlib.Tactic.NormNum

/- C104: what the right-hand sides of the three kinds of equations contain. -/
namespace Verif.Resid
open Verif

variable {K : Type*} [Field K] [LinearOrder K] [IsStrictOrderedRing K]

/-- C104 (horizontal force).  Horizontal gravity acts at a horizontal velocity node with the density at that
node: a density that varies linearly with depth is met exactly (the node of row `l` is half a cell below
the vertex of row `l`). -/
theorem horizontal_force_exact (m : SMesh K) (B : Body K) (k l : Int) (r0 r1 : K)
    (hl : 0 < l ∧ l < m.Nz) (ht : m.tu (k + l * m.Nx) = -1 ∨ m.tu (k + l * m.Nx) = 2 ∨ m.tu (k + l * m.Nx) = -2)
    (hr : ∀ j : Int, B.rhoS (k + j * m.Nx) = r0 + r1 * j) :
    rogerX m B k l = B.gx * (r0 + r1 * ((l : K) - 1 / 2)) := by
  have h1 := hr (l - 1)
  rw [show k + (l - 1) * (m.Nx : Int) = k + l * m.Nx - m.Nx by ring] at h1
  unfold rogerX
  simp only
  rw [if_pos ⟨hl.1, by omega, ht⟩, h1, hr l]
  push_cast
  ring

/-- C104 (river incision).  Away from the channel, further than half its width from the axis, the vertical
force is the one of a model without incision; within it, at the free surface, the force of the incision
is added. -/
theorem incision_within_channel (m : SMesh K) (B : Body K) (k l : Int) :
    (1 / 2 * B.W < |B.xvz k| → rogerZ m B k l = rogerZ m { B with surf := false } k l) ∧
    (B.surf = true → |B.xvz k| ≤ 1 / 2 * B.W → 0 < k → k < m.Nx → m.tv (k + l * (m.Nx + 1)) = -1 →
      (m.tp (k - 1 + l * (m.Nx - 1)) = 30 ∨ m.tp (k - 1 + l * (m.Nx - 1)) = 31) →
      rogerZ m B k l = rogerZ m { B with surf := false } k l -
        2 * m.theta * m.dt * B.Vinc * B.gz *
          ((m.rho (k - 1 + l * (m.Nx - 1)) - m.rho (k - 1 + (l - 1) * (m.Nx - 1))) / m.dz)) := by
  constructor
  · intro h
    unfold rogerZ
    simp only [not_le.2 h, and_false, if_false, Bool.false_eq_true, false_and]
  · intro hs hx hk1 hk2 ht ha
    have e : k - 1 + (l - 1) * ((m.Nx : Int) - 1) + (m.Nx - 1) = k - 1 + l * (m.Nx - 1) := by ring
    have hc : 0 < k ∧ k < (m.Nx : Int) + 1 - 1 ∧ m.tv (k + l * (m.Nx + 1)) = -1 := ⟨hk1, by omega, ht⟩
    have hb : B.surf = true ∧ (m.tp (k - 1 + (l - 1) * (m.Nx - 1)) = 30 ∨ m.tp (k - 1 + (l - 1) * (m.Nx - 1)) = 31 ∨
        m.tp (k - 1 + l * (m.Nx - 1)) = 30 ∨ m.tp (k - 1 + l * (m.Nx - 1)) = 31) ∧ |B.xvz k| ≤ 1 / 2 * B.W :=
      ⟨hs, by tauto, hx⟩
    unfold rogerZ
    simp only [e, if_pos hc, if_pos hb]
    simp only [Bool.false_eq_true, false_and, if_false]
    ring

omit [LinearOrder K] [IsStrictOrderedRing K] in
/-- C104 (mass).  A vanishing continuity residual is the conservation of mass: an incompressible cell has
the prescribed divergence; a compressible one has the pressure (or the density) reached by compressing it
at that divergence over the step. -/
theorem continuity_iff (bet p p0 dlog dt div b celvol : K) (hv : celvol ≠ 0) (hdt : dt ≠ 0) :
    (∀ vol, contResidual false vol bet p p0 dlog dt div b celvol = 0 ↔ div = b) ∧
    (bet ≠ 0 → (contResidual true false bet p p0 dlog dt div b celvol = 0 ↔ p = p0 - dt * (div - b) / bet)) ∧
    (contResidual true true bet p p0 dlog dt div b celvol = 0 ↔ dlog = -(dt * (div - b))) := by
  refine ⟨fun vol => ?_, fun hb => ?_, ?_⟩
  · unfold contResidual flag
    cases vol <;> simp [hv, sub_eq_zero]
  · unfold contResidual flag
    simp only [if_true, Bool.false_eq_true, if_false, mul_eq_zero, hv, or_false, one_mul]
    constructor
    · intro h
      field_simp at h ⊢
      linear_combination h
    · intro h
      subst h
      field_simp
      ring
  · unfold contResidual flag
    simp only [if_true, mul_eq_zero, hv, or_false, one_mul]
    constructor
    · intro h
      field_simp at h ⊢
      linear_combination h
    · intro h
      subst h
      field_simp
      ring

/-- Example: squeezing a cell (divergence -1/10 over a step 2, compressibility 1/5) raises its pressure from 7
to 8. -/
example : contResidual true false (1 / 5 : ℚ) 8 7 0 2 (-1 / 10) 0 3 = 0 ∧ contResidual true false (1 / 5 : ℚ) 6 7 0 2 (-1 / 10) 0 3 ≠ 0 := by
  obtain ⟨-, h, -⟩ := continuity_iff (1 / 5 : ℚ) 8 7 0 2 (-1 / 10) 0 3 (by norm_num) (by norm_num)
  obtain ⟨-, h', -⟩ := continuity_iff (1 / 5 : ℚ) 6 7 0 2 (-1 / 10) 0 3 (by norm_num) (by norm_num)
  refine ⟨(h (by norm_num)).2 (by norm_num), fun e => ?_⟩
  have := (h' (by norm_num)).1 e
  norm_num at this

end Verif.Resid
