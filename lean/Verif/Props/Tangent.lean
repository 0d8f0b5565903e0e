import Verif.Spec.Newton
import Mathlib.Analysis.Calculus.Deriv.Mul
import Mathlib.Analysis.Calculus.Deriv.Add
import Mathlib.Analysis.Calculus.Deriv.Inv
import Mathlib.Analysis.Calculus.Deriv.Pow
import Mathlib.Tactic.Ring
import Mathlib.Tactic.Linarith
import Mathlib.Tactic.FieldSimp
import Mathlib.Tactic.NormNum

/-! C117: the operators of the Newton linearisation are the derivatives of the stress law. -/
namespace Verif.Tan
open Verif Verif.Spec.Newton
set_option linter.unusedVariables false
set_option linter.unusedSimpArgs false

/-- The stress computed on the grid is the anisotropic law (for `ani = 1` the isotropic one). -/
theorem grid_stress_law (eta ani d1 d2 : ℝ) (y : Pt ℝ) :
    Aniso.gridStress d1 d2 eta ani (y.xx, y.zz, y.g / 2) = stress eta ani d1 d2 y := by
  unfold Aniso.gridStress stress
  refine Prod.ext ?_ (Prod.ext ?_ ?_) <;> simp only <;> ring

example (eta : ℝ) (y : Pt ℝ) : stress eta 1 0 0 y = (2 * eta * y.xx, 2 * eta * y.zz, eta * y.g) := by
  simp [stress]

private theorem lin (a b : ℝ) : HasDerivAt (fun t : ℝ => a + t * b) b 0 := by
  simpa using ((hasDerivAt_id (0 : ℝ)).mul_const b).const_add a

private theorem at0 (x d : Pt ℝ) : move x 0 d = x := by simp [move]

/-- Derivative of `1 - 1/δ` along a line. -/
private theorem shape {del : ℝ → ℝ} {s : ℝ} (h : HasDerivAt del s 0) (h0 : del 0 ≠ 0) :
    HasDerivAt (fun t => 1 - 1 / del t) (s / (del 0 * del 0)) 0 := by
  have := (h.inv h0).const_sub 1
  have e0 : (fun t => 1 - 1 / del t) = fun t => 1 - (del t)⁻¹ := by funext t; rw [one_div]
  rw [e0]
  refine this.congr_deriv ?_
  field_simp

/-- C117 (cells).  Let viscosity, plastic dilation rate and anisotropy factor be functions of the state with
the derivatives the routine is given.  Then the eight coefficients stored for a cell are the derivatives
of the two total normal stresses (deviatoric stress minus the pressure change `K dt` times the plastic
dilation rate) with respect to the two strain rates, the shear rate and the pressure. -/
theorem cell_tangent (eta divp del : Pt ℝ → ℝ) (d1 d2 kdt : ℝ) (x : Pt ℝ) (de dd da : Grad ℝ)
    (he : Slope eta x de) (hd : Slope divp x dd) (ha : Slope del x da) (h0 : del x ≠ 0) :
    let op := cellNewton false (eta x) (del x) d1 d2 kdt x de dd da
    Slope (fun y => (stress (eta y) (del y) d1 d2 y).1 - kdt * divp y) x op.D1 ∧
    Slope (fun y => (stress (eta y) (del y) d1 d2 y).2.1 - kdt * divp y) x op.D2 := by
  intro op
  have key : ∀ d : Pt ℝ, _ := fun d => shape (del := fun t => del (move x t d)) (ha d) (by simpa [at0] using h0)
  constructor <;> intro d
  · have h1 := lin x.xx d.xx
    have h2 := lin x.zz d.zz
    have h3 := lin x.g d.g
    have hA := key d
    have hE := he d
    have hD := hd d
    have := ((((hE.const_mul 2).mul h1).add ((((hE.const_mul 2).mul hA)).mul
      (((h2.sub h1).const_mul d1).sub (h3.const_mul d2)))).sub (hD.const_mul kdt))
    refine this.congr_deriv ?_
    simp only [op, cellNewton, dot, Bool.false_eq_true, if_false, Pi.mul_apply, Pi.sub_apply, Pi.add_apply, zero_mul, add_zero, at0]
    field_simp
    ring
  · have h1 := lin x.xx d.xx
    have h2 := lin x.zz d.zz
    have h3 := lin x.g d.g
    have hA := key d
    have hE := he d
    have hD := hd d
    have := ((((hE.const_mul 2).mul h2).sub ((((hE.const_mul 2).mul hA)).mul
      (((h2.sub h1).const_mul d1).sub (h3.const_mul d2)))).sub (hD.const_mul kdt))
    refine this.congr_deriv ?_
    simp only [op, cellNewton, dot, Bool.false_eq_true, if_false, Pi.mul_apply, Pi.sub_apply, Pi.add_apply, zero_mul, add_zero, at0]
    field_simp
    ring

/-- C117 (vertices).  The four coefficients stored for a vertex are the derivatives of the shear stress. -/
theorem vertex_tangent (eta del : Pt ℝ → ℝ) (d1 d2 : ℝ) (x : Pt ℝ) (de da : Grad ℝ)
    (he : Slope eta x de) (ha : Slope del x da) (h0 : del x ≠ 0) :
    Slope (fun y => (stress (eta y) (del y) d1 d2 y).2.2) x (vertNewton false (eta x) (del x) d1 d2 x de da) := by
  intro d
  have hA := shape (del := fun t => del (move x t d)) (ha d) (by simpa [at0] using h0)
  have h1 := lin x.xx d.xx
  have h2 := lin x.zz d.zz
  have h3 := lin x.g d.g
  have hE := he d
  have := (hE.mul h3).add ((((hE.const_mul 2).mul hA)).mul
      (((h2.sub h1).const_mul d2).add (h3.const_mul (d1 - 1 / 2))))
  refine this.congr_deriv ?_
  simp only [vertNewton, dot, Bool.false_eq_true, if_false, Pi.mul_apply, Pi.sub_apply, Pi.add_apply, zero_mul, add_zero, at0]
  field_simp
  ring

/-- C117 (Picard).  The operators of the Picard linearisation are those of Newton with every derivative set to
zero; for a viscosity that does not depend on the state, and without plastic dilation, they are therefore
the exact derivatives of the stresses too. -/
theorem picard_frozen (air : Bool) (eta ani d1 d2 kdt : ℝ) (x : Pt ℝ) :
    cellPicard air eta ani d1 d2 = cellNewton air eta ani d1 d2 kdt x ⟨0, 0, 0, 0⟩ ⟨0, 0, 0, 0⟩ ⟨0, 0, 0, 0⟩ ∧
    vertPicard air eta ani d1 d2 = vertNewton air eta ani d1 d2 x ⟨0, 0, 0, 0⟩ ⟨0, 0, 0, 0⟩ := by
  constructor
  · cases air
    · simp only [cellPicard, cellNewton, Bool.false_eq_true, if_false, CellOp.mk.injEq, Grad.mk.injEq]
      refine ⟨⟨?_, ?_, ?_, ?_⟩, ⟨?_, ?_, ?_, ?_⟩⟩ <;> ring
    · simp [cellPicard, cellNewton]
  · cases air
    · simp only [vertPicard, vertNewton, Bool.false_eq_true, if_false, Grad.mk.injEq]
      refine ⟨?_, ?_, ?_, ?_⟩ <;> ring
    · simp [vertPicard, vertNewton]

/-- C117 (Picard, exactness). -/
theorem picard_exact (eta ani d1 d2 : ℝ) (x : Pt ℝ) (h0 : ani ≠ 0) :
    Slope (fun y => (stress eta ani d1 d2 y).1) x (cellPicard false eta ani d1 d2).D1 ∧
    Slope (fun y => (stress eta ani d1 d2 y).2.1) x (cellPicard false eta ani d1 d2).D2 ∧
    Slope (fun y => (stress eta ani d1 d2 y).2.2) x (vertPicard false eta ani d1 d2) := by
  have hc : ∀ c : ℝ, Slope (fun _ => c) x ⟨0, 0, 0, 0⟩ := by
    intro c d
    simpa [dot] using hasDerivAt_const (0 : ℝ) c
  obtain ⟨h1, h2⟩ := cell_tangent (fun _ => eta) (fun _ => 0) (fun _ => ani) d1 d2 0 x _ _ _ (hc eta) (hc 0) (hc ani) h0
  have h3 := vertex_tangent (fun _ => eta) (fun _ => ani) d1 d2 x _ _ (hc eta) (hc ani) h0
  rw [(picard_frozen false eta ani d1 d2 0 x).1, (picard_frozen false eta ani d1 d2 0 x).2]
  simp only [mul_zero, sub_zero] at h1 h2
  exact ⟨h1, h2, h3⟩

/-- C117 (elasticity).  The operators are taken at the effective strain rate, strain rate plus a share of the
old stress that does not change during the step: a derivative with respect to the one is a derivative with
respect to the other. -/
theorem slope_of_effective (f : Pt ℝ → ℝ) (e T : ℝ × ℝ × ℝ) (p d1 d2 a eta : ℝ) (g : Grad ℝ)
    (h : Slope f ⟨(Rheo.effective e T d1 d2 a eta).1, (Rheo.effective e T d1 d2 a eta).2.1,
      2 * (Rheo.effective e T d1 d2 a eta).2.2, p⟩ g) :
    Slope (fun y => f ⟨(Rheo.effective (y.xx, y.zz, y.g / 2) T d1 d2 a eta).1,
      (Rheo.effective (y.xx, y.zz, y.g / 2) T d1 d2 a eta).2.1,
      2 * (Rheo.effective (y.xx, y.zz, y.g / 2) T d1 d2 a eta).2.2, y.p⟩) ⟨e.1, e.2.1, 2 * e.2.2, p⟩ g := by
  intro d
  have hd := h d
  convert hd using 3 with t
  simp only [move, Rheo.effective, Pt.mk.injEq]
  exact ⟨by ring, by ring, by ring, trivial⟩

/-- Air cells and vertices transmit no stress, whatever values the derivatives have. -/
theorem air_transmits_nothing (eta ani d1 d2 kdt : ℝ) (x : Pt ℝ) (de dd da : Grad ℝ) :
    cellNewton true eta ani d1 d2 kdt x de dd da = ⟨⟨0, 0, 0, 0⟩, ⟨0, 0, 0, 0⟩⟩ ∧
    vertNewton true eta ani d1 d2 x de da = ⟨0, 0, 0, 0⟩ := by
  simp [cellNewton, vertNewton]

/-- Example: a shear-thinning viscosity `eta = 1/(1 + Exx^2)` in pure shear at `Exx = 1`: viscosity 1/2 with
derivative -1/2.  The Newton coefficient vanishes there (the stress `2 E/(1+E^2)` has its maximum), the Picard
coefficient is 1. -/
example : Slope (fun y : Pt ℝ => 1 / (1 + y.xx ^ 2)) ⟨1, -1, 0, 0⟩ ⟨-1 / 2, 0, 0, 0⟩ ∧
    (cellNewton false (1 / 2 : ℝ) 1 0 0 0 ⟨1, -1, 0, 0⟩ ⟨-1 / 2, 0, 0, 0⟩ ⟨0, 0, 0, 0⟩ ⟨0, 0, 0, 0⟩).D1.xx = 0 ∧
    (cellPicard false (1 / 2 : ℝ) 1 0 0).D1.xx = 1 := by
  refine ⟨fun d => ?_, by simp [cellNewton]; norm_num, by simp [cellPicard]⟩
  have h := (((lin 1 d.xx).pow 2).const_add 1).inv (by norm_num)
  have e0 : (fun t : ℝ => 1 / (1 + (move ⟨1, -1, 0, 0⟩ t d).xx ^ 2)) = fun t => (1 + (1 + t * d.xx) ^ 2)⁻¹ := by
    funext t; rw [one_div]; rfl
  rw [e0]
  refine h.congr_deriv ?_
  simp [dot]
  ring

end Verif.Tan
