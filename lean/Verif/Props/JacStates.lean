import Verif.Spec.NewtonRow
import Verif.Props.Kinematics
import Mathlib.Tactic.Ring
import Mathlib.Tactic.Linarith
import Mathlib.Tactic.Lift

/- Local states as functions of the velocities: closed forms around rock. -/
namespace Verif.JacRow
open Verif Verif.Tan Verif.Spec Verif.Spec.Newton

set_option linter.unusedVariables false

/-- Factor of the volume change in the deviatoric rates. -/
noncomputable def third (m : JMesh ℝ) : ℝ := flag m.comp * (if m.oop then 3/2 else 1) / 3

/-- Deviatoric rates of a cell. -/
noncomputable def devX (m : JMesh ℝ) (u v : Int → ℝ) (a b : Int) : ℝ :=
  stretch m u a b - third m * (stretch m u a b + rise m v a b)
noncomputable def devZ (m : JMesh ℝ) (u v : Int → ℝ) (a b : Int) : ℝ :=
  rise m v a b - third m * (stretch m u a b + rise m v a b)
/-- Twice the shear rate of a vertex. -/
noncomputable def gam (m : JMesh ℝ) (u v : Int → ℝ) (a b : Int) : ℝ :=
  (u (a + (b + 1) * m.Nx) - u (a + b * m.Nx)) / m.dz + (v (a + 1 + b * (m.Nx + 1)) - v (a + b * (m.Nx + 1))) / m.dx

variable (m : JMesh ℝ) (s : Kin.Rates ℝ) (o : Nat → Pt ℝ) (junk : Nat → ℝ) (u v p : Int → ℝ)

private theorem cellRatesN {a b : Nat} (ha : a < m.Nx - 1) (hb : b < m.Nz - 1)
    (hp : m.tp (a + b * ((m.Nx : Int) - 1)) = -1) :
    (Kin.strainRates (rateInput m u v) s).exx (a + b * (m.Nx - 1)) = devX m u v a b
    ∧ (Kin.strainRates (rateInput m u v) s).ezz (a + b * (m.Nx - 1)) = devZ m u v a b := by
  have hN : ((m.Nx - 1 : Nat) : Int) = (m.Nx : Int) - 1 := by omega
  have hr : Kin.Rock (rateInput m u v) a b := by
    unfold Kin.Rock AirFlag
    simp only [rateInput]; push_cast [hN]; rw [hp]; decide
  obtain ⟨-, h2, h3⟩ := Kin.cell_rates (rateInput m u v) s (k := a) (l := b) ha hb hr
  refine ⟨h2.trans ?_, h3.trans ?_⟩
  all_goals
    simp only [Kin.volRate, Kin.stretchX, Kin.stretchZ, devX, devZ, third, stretch, rise, rateInput]
    push_cast
    have e1 : (a : Int) + b * m.Nx + 1 + m.Nx = a + 1 + (b + 1) * m.Nx := by ring
    have e2 : (a : Int) + b * m.Nx + m.Nx = a + (b + 1) * m.Nx := by ring
    have e3 : (a : Int) + b * (m.Nx + 1) + m.Nx + 1 + 1 = a + 1 + (b + 1) * (m.Nx + 1) := by ring
    have e4 : (a : Int) + b * (m.Nx + 1) + 1 = a + 1 + b * (m.Nx + 1) := by ring
    rw [e1, e2, e3, e4]
    by_cases ho : m.oop = true <;> simp only [ho, if_true, if_false, Bool.false_eq_true] <;> ring

private theorem vertN {a b : Nat} (ha : a < m.Nx) (hb : b < m.Nz) (hg : m.tg (a + b * (m.Nx : Int)) ≠ 30) :
    2 * (Kin.strainRates (rateInput m u v) s).exz (a + b * m.Nx) = gam m u v a b := by
  have hr : Kin.RockVertex (rateInput m u v) a b := by
    unfold Kin.RockVertex; simp only [rateInput]; push_cast; exact hg
  obtain ⟨h1, -⟩ := Kin.vertex_rates (rateInput m u v) s (k := a) (l := b) ha hb hr
  have h1 : (Kin.strainRates (rateInput m u v) s).exz (a + b * m.Nx) = _ := h1
  rw [h1]
  simp only [gam, rateInput]
  push_cast
  ring

/-- State of a rock cell between rock vertices. -/
theorem cellState_eq {a b : Int} (a0 : 0 ≤ a) (a1 : a < m.Nx - 1) (b0 : 0 ≤ b) (b1 : b < m.Nz - 1)
    (hp : m.tp (a + b * ((m.Nx : Int) - 1)) = -1) (g00 : m.tg (a + b * m.Nx) ≠ 30) (g10 : m.tg (a + 1 + b * m.Nx) ≠ 30)
    (g01 : m.tg (a + (b + 1) * m.Nx) ≠ 30) (g11 : m.tg (a + 1 + (b + 1) * m.Nx) ≠ 30) :
    let c := (a + b * ((m.Nx : Int) - 1)).toNat
    cellState m s o u v p c = ⟨devX m u v a b + (o c).xx, devZ m u v a b + (o c).zz,
      (gam m u v a b + gam m u v (a + 1) b + gam m u v a (b + 1) + gam m u v (a + 1) (b + 1)) / 4 + (o c).g,
      p (a + b * ((m.Nx : Int) - 1))⟩ := by
  lift a to ℕ using a0
  lift b to ℕ using b0
  have hN : ((m.Nx - 1 : Nat) : Int) = (m.Nx : Int) - 1 := by omega
  have hc : ((a : Int) + b * ((m.Nx : Int) - 1)).toNat = a + b * (m.Nx - 1) := by
    rw [← hN]; norm_cast
  intro c
  have hc' : c = a + b * (m.Nx - 1) := hc
  obtain ⟨h1, h2⟩ := cellRatesN m s u v (a := a) (b := b) (by omega) (by omega) hp
  have hr : Kin.Rock (rateInput m u v) a b := by
    unfold Kin.Rock AirFlag
    simp only [rateInput]; push_cast [hN]; rw [hp]; decide
  obtain ⟨h3, -⟩ := Kin.cell_shear (rateInput m u v) s (k := a) (l := b) (show a < m.Nx - 1 by omega) (show b < m.Nz - 1 by omega) hr
  have h3 : (Kin.strainRates (rateInput m u v) s).exzN (a + b * (m.Nx - 1)) = _ := h3
  have w00 := vertN m s u v (a := a) (b := b) (by omega) (by omega) g00
  have w10 := vertN m s u v (a := a + 1) (b := b) (by omega) (by omega) (by push_cast; exact g10)
  have w01 := vertN m s u v (a := a) (b := b + 1) (by omega) (by omega) (by push_cast; exact g01)
  have w11 := vertN m s u v (a := a + 1) (b := b + 1) (by omega) (by omega) (by push_cast; exact g11)
  have hq : 2 * Kin.quarters (rateInput m u v) (Kin.strainRates (rateInput m u v) s).exz (a + b * m.Nx)
      = (gam m u v a b + gam m u v (a + 1) b + gam m u v a (b + 1) + gam m u v (a + 1) (b + 1)) / 4 := by
    have e1 : a + b * m.Nx + 1 = a + 1 + b * m.Nx := by ring
    have e2 : a + b * m.Nx + m.Nx = a + (b + 1) * m.Nx := by ring
    have e3 : a + (b + 1) * m.Nx + 1 = a + 1 + (b + 1) * m.Nx := by ring
    have t00 : (rateInput m u v).tagG (a + b * m.Nx) ≠ 30 := by simp only [rateInput]; push_cast; exact g00
    have t10 : (rateInput m u v).tagG (a + 1 + b * m.Nx) ≠ 30 := by simp only [rateInput]; push_cast; exact g10
    have t01 : (rateInput m u v).tagG (a + (b + 1) * m.Nx) ≠ 30 := by simp only [rateInput]; push_cast; exact g01
    have t11 : (rateInput m u v).tagG (a + 1 + (b + 1) * m.Nx) ≠ 30 := by simp only [rateInput]; push_cast; exact g11
    unfold Kin.quarters
    simp only [show (rateInput m u v).Nx = m.Nx from rfl]
    rw [e1, e2, e3, if_pos t00, if_pos t10, if_pos t01, if_pos t11]
    push_cast at w10 w01 w11
    rw [← w00, ← w10, ← w01, ← w11]
    ring
  have h3' : 2 * (Kin.strainRates (rateInput m u v) s).exzN (a + b * (m.Nx - 1))
      = (gam m u v a b + gam m u v (a + 1) b + gam m u v a (b + 1) + gam m u v (a + 1) (b + 1)) / 4 := by rw [h3]; exact hq
  simp only [cellState, hc']
  rw [h1, h2, h3', show (((a + b * (m.Nx - 1) : Nat)) : Int) = a + b * ((m.Nx : Int) - 1) by push_cast [hN]; rfl]

/-- State of a rock vertex between rock cells. -/
theorem vertexState_eq {a b : Int} (a0 : 0 < a) (a1 : a < m.Nx - 1) (b0 : 0 < b) (b1 : b < m.Nz - 1)
    (hg : m.tg (a + b * m.Nx) ≠ 30)
    (p00 : m.tp (a - 1 + (b - 1) * ((m.Nx : Int) - 1)) = -1) (p10 : m.tp (a + (b - 1) * ((m.Nx : Int) - 1)) = -1)
    (p01 : m.tp (a - 1 + b * ((m.Nx : Int) - 1)) = -1) (p11 : m.tp (a + b * ((m.Nx : Int) - 1)) = -1) :
    let c := (a + b * (m.Nx : Int)).toNat
    vertexState m s o junk u v p c =
     ⟨(devX m u v (a - 1) (b - 1) + devX m u v a (b - 1) + devX m u v (a - 1) b + devX m u v a b) / 4 + (o c).xx,
      (devZ m u v (a - 1) (b - 1) + devZ m u v a (b - 1) + devZ m u v (a - 1) b + devZ m u v a b) / 4 + (o c).zz,
      gam m u v a b + (o c).g,
      (p (a - 1 + (b - 1) * ((m.Nx : Int) - 1)) + p (a + (b - 1) * ((m.Nx : Int) - 1))
        + p (a - 1 + b * ((m.Nx : Int) - 1)) + p (a + b * ((m.Nx : Int) - 1))) / 4⟩ := by
  obtain ⟨a, rfl⟩ : ∃ n : Nat, a = (n : Int) + 1 := ⟨(a - 1).toNat, by omega⟩
  obtain ⟨b, rfl⟩ : ∃ n : Nat, b = (n : Int) + 1 := ⟨(b - 1).toNat, by omega⟩
  have hN : ((m.Nx - 1 : Nat) : Int) = (m.Nx : Int) - 1 := by omega
  have hc : ((a : Int) + 1 + (b + 1) * (m.Nx : Int)).toNat = (a + 1) + (b + 1) * m.Nx := by norm_cast
  simp only [add_sub_cancel_right] at p00 p10 p01 ⊢
  have key : ∀ (f junk : Nat → ℝ),
      GridField.centroidsToVertices m.per m.Nx m.Nz (fun n => m.tp n) (fun n => m.tg n) f junk ((a + 1) + (b + 1) * m.Nx)
      = (f (a + b * (m.Nx - 1)) + f (a + 1 + b * (m.Nx - 1)) + f (a + (b + 1) * (m.Nx - 1)) + f (a + 1 + (b + 1) * (m.Nx - 1))) / 4 := by
    intro f junk
    rw [GridField.centroidsToVertices_spec m.per m.Nx m.Nz (by omega) (by omega) _ _ _ _ _ _ (by omega) (by omega)]
    have hg' : ¬ m.tg (((a + 1) + (b + 1) * m.Nx : Nat) : Int) = 30 := by push_cast; exact hg
    rw [if_neg hg']
    have hL : cellLeft m.per (m.Nx - 1) (a + 1) = a := by simp [cellLeft]
    have hR : cellRight m.per (m.Nx - 1) (a + 1) = a + 1 := by simp only [cellRight]; rw [if_neg (by omega)]
    have hL' : cellLeft false (m.Nz - 1) (b + 1) = b := by simp [cellLeft]
    have hR' : cellRight false (m.Nz - 1) (b + 1) = b + 1 := by simp only [cellRight]; rw [if_neg (by omega)]
    simp only [cellsAt, hL, hR, hL', hR', List.map_cons, List.map_nil, List.sum_cons, List.sum_nil]
    have n00 : ¬ AirFlag (m.tp ((a + b * (m.Nx - 1) : Nat) : Int)) := by push_cast [hN]; rw [p00]; decide
    have n10 : ¬ AirFlag (m.tp ((a + 1 + b * (m.Nx - 1) : Nat) : Int)) := by push_cast [hN]; rw [p10]; decide
    have n01 : ¬ AirFlag (m.tp ((a + (b + 1) * (m.Nx - 1) : Nat) : Int)) := by push_cast [hN]; rw [p01]; decide
    have n11 : ¬ AirFlag (m.tp ((a + 1 + (b + 1) * (m.Nx - 1) : Nat) : Int)) := by push_cast [hN]; rw [p11]; decide
    rw [if_neg n00, if_neg n10, if_neg n01, if_neg n11]
    ring
  have h00 := cellRatesN m s u v (a := a) (b := b) (by omega) (by omega) p00
  have h10 := cellRatesN m s u v (a := a + 1) (b := b) (by omega) (by omega) (by push_cast; exact p10)
  have h01 := cellRatesN m s u v (a := a) (b := b + 1) (by omega) (by omega) (by push_cast; exact p01)
  have h11 := cellRatesN m s u v (a := a + 1) (b := b + 1) (by omega) (by omega) (by push_cast; exact p11)
  have hsh := vertN m s u v (a := a + 1) (b := b + 1) (by omega) (by omega) (by push_cast; exact hg)
  push_cast at h10 h01 h11 hsh
  have hxx : (Kin.strainRates (rateInput m u v) s).exxS = GridField.centroidsToVertices m.per m.Nx m.Nz (fun n => m.tp n)
      (fun n => m.tg n) (Kin.strainRates (rateInput m u v) s).exx s.exxS := by
    rw [Kin.strainRates_eq]; rfl
  have hzz : (Kin.strainRates (rateInput m u v) s).ezzS = GridField.centroidsToVertices m.per m.Nx m.Nz (fun n => m.tp n)
      (fun n => m.tg n) (Kin.strainRates (rateInput m u v) s).ezz s.ezzS := by
    rw [Kin.strainRates_eq]; rfl
  simp only [vertexState, hc, hxx, hzz, key]
  rw [h00.1, h10.1, h01.1, h11.1, h00.2, h10.2, h01.2, h11.2, hsh]
  push_cast [hN]
  rfl

theorem devX_along (du dv : Int → ℝ) (t : ℝ) (a b : Int) :
    devX m (along u du t) (along v dv t) a b = devX m u v a b + t * devX m du dv a b := by
  simp only [devX, stretch, rise, along]; ring

theorem devZ_along (du dv : Int → ℝ) (t : ℝ) (a b : Int) :
    devZ m (along u du t) (along v dv t) a b = devZ m u v a b + t * devZ m du dv a b := by
  simp only [devZ, stretch, rise, along]; ring

theorem gam_along (du dv : Int → ℝ) (t : ℝ) (a b : Int) :
    gam m (along u du t) (along v dv t) a b = gam m u v a b + t * gam m du dv a b := by
  simp only [gam, along]; ring

end Verif.JacRow
