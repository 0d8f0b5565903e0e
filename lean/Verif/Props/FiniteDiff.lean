import Verif.Model.Tangent
import Verif.Model.Rheology
import Verif.Props.Tangent
import Mathlib.Analysis.Calculus.Deriv.Add
import Mathlib.Analysis.Calculus.Deriv.Mul
import Mathlib.Analysis.Calculus.Deriv.Inv
import Mathlib.Analysis.Calculus.Deriv.Comp
import Mathlib.Analysis.SpecialFunctions.Log.Deriv
import Mathlib.Analysis.SpecialFunctions.ExpDeriv
import Mathlib.Algebra.BigOperators.Group.Finset.Basic
import Mathlib.Algebra.Order.BigOperators.Group.Finset
import Mathlib.Algebra.BigOperators.Field
import Mathlib.Tactic.FieldSimp
import Mathlib.Tactic.Linarith
import Mathlib.Tactic.Positivity
import Mathlib.Tactic.Ring

/- The finite differences behind the Newton operators: they converge to the derivatives of the averaged
viscosity, density and plastic divergence that the nonlinear update stores on the grid. -/
namespace Verif.Tan
open Verif Verif.Spec.Newton Filter Topology
open scoped BigOperators

set_option linter.unusedSimpArgs false

/-- The averaged viscosity of a cell for each averaging rule. -/
noncomputable def average (av : Avg) (minf : ℝ) (n : Nat) (w eta : Nat → ℝ) : ℝ :=
  match av with
  | .arithmetic => Rheo.avgArith minf n w eta
  | .harmonic => Rheo.avgHarm minf n w eta
  | .geometric => Rheo.avgGeom minf n w eta

/-- Sum over the phases present. -/
private noncomputable def pres (minf : ℝ) (n : Nat) (w f : Nat → ℝ) : ℝ :=
  ∑ p ∈ Finset.range n, if minf < |w p| then w p * f p else 0

private theorem arith_pres (minf : ℝ) (n : Nat) (w f : Nat → ℝ) : Rheo.avgArith minf n w f = pres minf n w f := by
  unfold Rheo.avgArith pres
  induction n with
  | zero => simp [forUp]
  | succ n ih => rw [forUp_succ, Finset.sum_range_succ, ← ih]; split_ifs <;> ring

private theorem harm_pres (minf : ℝ) (n : Nat) (w f : Nat → ℝ) :
    Rheo.avgHarm minf n w f = 1 / pres minf n w fun p => 1 / f p := by
  have : ∀ n, (forUp n (0 : ℝ) fun s p => if minf < |w p| then s + w p * 1 / f p else s) =
      pres minf n w fun p => 1 / f p := by
    intro n
    unfold pres
    induction n with
    | zero => simp [forUp]
    | succ n ih => rw [forUp_succ, Finset.sum_range_succ, ← ih]; split_ifs <;> ring
  unfold Rheo.avgHarm
  rw [this]

private theorem geom_pres (minf : ℝ) (n : Nat) (w f : Nat → ℝ) :
    Rheo.avgGeom minf n w f = Real.exp (pres minf n w fun p => Real.log (f p)) := by
  have : ∀ n, (forUp n (0 : ℝ) fun s p => if minf < |w p| then s + w p * Real.log (f p) else s) =
      pres minf n w fun p => Real.log (f p) := by
    intro n
    unfold pres
    induction n with
    | zero => simp [forUp]
    | succ n ih => rw [forUp_succ, Finset.sum_range_succ, ← ih]; split_ifs <;> ring
  unfold Rheo.avgGeom
  rw [this]

/-- Weight with which a phase enters the difference of the viscosity. -/
private noncomputable def wt (av : Avg) (ref : Nat → ℝ) (p : Nat) : ℝ :=
  match av with
  | .arithmetic => 1
  | .harmonic => 1 / ref p ^ 2
  | .geometric => 1 / ref p

private theorem loop_sum (av : Avg) (cen : Nat) (sign denom minf : ℝ) (n : Nat) (w ref : Nat → ℝ) (L : Law ℝ)
    (s : Acc ℝ) :
    phaseLoop av cen sign denom minf n w ref L s =
      { eta := s.eta + sign / denom * pres minf n w (fun p => wt av ref p * L.eta p)
        ani := s.ani + sign / denom * pres minf n w (fun _ => 1)
        divp := s.divp + (if 0 < cen then sign / denom * pres minf n w L.divp else 0)
        rho := s.rho + (if cen = 2 then sign / denom * pres minf n w L.rho else 0) } := by
  unfold phaseLoop pres
  induction n with
  | zero => simp [forUp]
  | succ n ih =>
    simp only [forUp_succ] at ih ⊢
    rw [ih]
    simp only [Finset.sum_range_succ]
    by_cases hw : minf < |w n|
    · simp only [hw, if_true, Acc.mk.injEq]
      refine ⟨?_, ?_, ?_, ?_⟩
      · cases av <;> simp only [wt] <;> ring
      · split_ifs <;> ring
      · ring
      · split_ifs <;> ring
    · simp only [hw, if_false, add_zero]

private theorem diff_sum (av : Avg) (cen : Nat) (denom minf : ℝ) (n : Nat) (w ref : Nat → ℝ) (etaN : ℝ)
    (Lp Lm : Law ℝ) :
    difference av cen denom minf n w ref etaN Lp Lm =
      { eta := (pres minf n w fun p => wt av ref p * ((Lp.eta p - Lm.eta p) / denom)) *
          (match av with | .arithmetic => 1 | .harmonic => etaN ^ 2 | .geometric => etaN)
        ani := 0
        divp := if 0 < cen then pres minf n w (fun p => (Lp.divp p - Lm.divp p) / denom) else 0
        rho := if cen = 2 then pres minf n w (fun p => (Lp.rho p - Lm.rho p) / denom) else 0 } := by
  have key : ∀ f g : Nat → ℝ, 1 / denom * pres minf n w f + -1 / denom * pres minf n w g =
      pres minf n w fun p => (f p - g p) / denom := by
    intro f g
    unfold pres
    rw [Finset.mul_sum, Finset.mul_sum, ← Finset.sum_add_distrib]
    refine Finset.sum_congr rfl fun p _ => ?_
    split_ifs <;> ring
  have k2 : (fun p => (wt av ref p * Lp.eta p - wt av ref p * Lm.eta p) / denom) =
      fun p => wt av ref p * ((Lp.eta p - Lm.eta p) / denom) := by funext p; ring
  unfold difference
  simp only [loop_sum]
  cases av <;> simp only [Acc.mk.injEq, zero_add] <;> refine ⟨?_, ?_, ?_, ?_⟩ <;>
    first
      | (rw [key, k2]; try rw [mul_one])
      | (split_ifs <;> first | exact key _ _ | simp)
      | (rw [key]; simp [pres])

private theorem pres_deriv (minf : ℝ) (n : Nat) (w : Nat → ℝ) (f : ℝ → Nat → ℝ) (f' : Nat → ℝ) (x : ℝ)
    (h : ∀ p < n, minf < |w p| → HasDerivAt (fun s => f s p) (f' p) x) :
    HasDerivAt (fun s => pres minf n w (f s)) (pres minf n w f') x := by
  unfold pres
  refine HasDerivAt.fun_sum fun p hp => ?_
  by_cases hw : minf < |w p|
  · simp only [hw, if_true]
    exact (h p (Finset.mem_range.1 hp) hw).const_mul _
  · simp only [hw, if_false]
    exact hasDerivAt_const _ _

private theorem pres_tendsto {l : Filter ℝ} (minf : ℝ) (n : Nat) (w : Nat → ℝ) (f : ℝ → Nat → ℝ) (f' : Nat → ℝ)
    (h : ∀ p < n, minf < |w p| → Tendsto (fun s => f s p) l (𝓝 (f' p))) :
    Tendsto (fun s => pres minf n w (f s)) l (𝓝 (pres minf n w f')) := by
  unfold pres
  refine tendsto_finsetSum _ fun p hp => ?_
  by_cases hw : minf < |w p|
  · simp only [hw, if_true]
    exact (h p (Finset.mem_range.1 hp) hw).const_mul _
  · simp only [hw, if_false]
    exact tendsto_const_nhds

/-- The perturbations are positive and shrink with the tolerance. -/
private theorem pert_zero (x : ℝ) : Tendsto (fun tol => pert tol x) (𝓝[>] 0) (𝓝[≠] 0) := by
  refine tendsto_nhdsWithin_iff.2 ⟨?_, ?_⟩
  · have : Tendsto (fun tol : ℝ => tol * |x| + tol / 10 ^ 10) (𝓝 0) (𝓝 (0 * |x| + 0 / 10 ^ 10)) := by
      refine Continuous.tendsto ?_ 0
      fun_prop
    simp only [zero_mul, zero_div, add_zero] at this
    exact this.mono_left nhdsWithin_le_nhds
  · filter_upwards [self_mem_nhdsWithin] with tol ht
    have ht : 0 < tol := ht
    have : 0 < pert tol x := by
      unfold pert
      have := abs_nonneg x
      positivity
    exact this.ne'

private theorem central {f : ℝ → ℝ} {f' x : ℝ} (h : HasDerivAt f f' x) (c : ℝ) :
    Tendsto (fun tol => (f (x + pert tol c) - f (x - pert tol c)) / (2 * pert tol c)) (𝓝[>] 0) (𝓝 f') := by
  have hp : HasDerivAt (fun t => f (x + t)) f' 0 := by
    have := HasDerivAt.comp_const_add x 0 (f := f) (f' := f') (by simpa using h)
    exact this
  have hm : HasDerivAt (fun t => f (x - t)) (-f') 0 := by
    have := HasDerivAt.comp_const_sub x 0 (f := f) (f' := f') (by simpa using h)
    exact this
  have hd := hp.sub hm
  have := (hasDerivAt_iff_tendsto_slope_zero.1 hd).comp (pert_zero c)
  have h2 := this.div_const 2
  have e : (f' - -f') / 2 = f' := by ring
  rw [e] at h2
  refine h2.congr fun tol => ?_
  simp only [Function.comp_apply, Pi.sub_apply, zero_add, add_zero, sub_zero, sub_self, smul_eq_mul]
  by_cases h0 : pert tol c = 0
  · simp [h0]
  · field_simp

private theorem pres_pos (minf : ℝ) (n : Nat) (w f : Nat → ℝ) (hm : 0 ≤ minf) (hw : ∀ p < n, 0 ≤ w p)
    (hex : ∃ p < n, minf < |w p|) (hf : ∀ p < n, minf < |w p| → 0 < f p) : 0 < pres minf n w f := by
  unfold pres
  refine Finset.sum_pos' (fun p hp => ?_) ?_
  · split_ifs with h
    · exact mul_nonneg (hw p (Finset.mem_range.1 hp)) (hf p (Finset.mem_range.1 hp) h).le
    · exact le_rfl
  · obtain ⟨p, hp, h⟩ := hex
    refine ⟨p, Finset.mem_range.2 hp, ?_⟩
    rw [if_pos h]
    have : w p ≠ 0 := by
      rintro h0
      rw [h0, abs_zero] at h
      linarith
    exact mul_pos (lt_of_le_of_ne (hw p hp) this.symm) (hf p hp h)

/-- One variable: derivative of the average along the variable, and convergence of the difference to it. -/
private theorem one (av : Avg) (cen : Nat) (minf : ℝ) (n : Nat) (w : Nat → ℝ) (L : ℝ → Law ℝ) (x : ℝ)
    (hm : 0 ≤ minf) (hw : ∀ p < n, 0 ≤ w p) (hex : ∃ p < n, minf < |w p|)
    (hpos : ∀ p < n, minf < |w p| → 0 < (L x).eta p)
    (hd : ∀ p < n, minf < |w p| → DifferentiableAt ℝ (fun s => (L s).eta p) x) :
    ∃ d : ℝ, HasDerivAt (fun s => average av minf n w (L s).eta) d x ∧
      Tendsto (fun tol => (difference av cen (2 * pert tol x) minf n w (L x).eta (average av minf n w (L x).eta)
        (L (x + pert tol x)) (L (x - pert tol x))).eta) (𝓝[>] 0) (𝓝 d) := by
  set dv : Nat → ℝ := fun p => deriv (fun s => (L s).eta p) x with hdv
  have hD : ∀ p < n, minf < |w p| → HasDerivAt (fun s => (L s).eta p) (dv p) x := fun p hp h => (hd p hp h).hasDerivAt
  have hT : Tendsto (fun tol => pres minf n w fun p => wt av (L x).eta p *
      (((L (x + pert tol x)).eta p - (L (x - pert tol x)).eta p) / (2 * pert tol x))) (𝓝[>] 0)
      (𝓝 (pres minf n w fun p => wt av (L x).eta p * dv p)) :=
    pres_tendsto _ _ _ _ _ fun p hp h => (central (hD p hp h) x).const_mul _
  simp only [diff_sum]
  cases av with
  | arithmetic =>
    refine ⟨pres minf n w dv, ?_, ?_⟩
    · simp only [average, arith_pres]
      exact pres_deriv minf n w (fun s => (L s).eta) dv x hD
    · simpa only [wt, one_mul, mul_one] using hT
  | harmonic =>
    have hp := pres_pos minf n w (fun p => 1 / (L x).eta p) hm hw hex (fun p a b => by have := hpos p a b; positivity)
    refine ⟨(pres minf n w fun p => wt .harmonic (L x).eta p * dv p) * average .harmonic minf n w (L x).eta ^ 2, ?_, ?_⟩
    · simp only [average, harm_pres]
      have h1 := pres_deriv minf n w (fun s p => 1 / (L s).eta p) (fun p => -dv p / (L x).eta p ^ 2) x
        (fun p a b => by
          have := (hD p a b).fun_inv (hpos p a b).ne'
          simpa only [one_div] using this)
      have h2 := h1.fun_inv hp.ne'
      simp only [one_div] at h2 ⊢
      refine h2.congr_deriv ?_
      rw [show (pres minf n w fun p => -dv p / (L x).eta p ^ 2) = -(pres minf n w fun p => wt .harmonic (L x).eta p * dv p) by
        unfold pres
        rw [← Finset.sum_neg_distrib]
        refine Finset.sum_congr rfl fun p _ => ?_
        simp only [wt]
        split_ifs <;> ring]
      rw [neg_neg, div_eq_mul_inv, inv_pow]
    · exact hT.mul_const _
  | geometric =>
    refine ⟨(pres minf n w fun p => wt .geometric (L x).eta p * dv p) * average .geometric minf n w (L x).eta, ?_, ?_⟩
    · simp only [average, geom_pres]
      have h1 := pres_deriv minf n w (fun s p => Real.log ((L s).eta p)) (fun p => dv p / (L x).eta p) x
        (fun p a b => (hD p a b).log (hpos p a b).ne')
      refine h1.exp.congr_deriv ?_
      rw [mul_comm]
      congr 2
      funext p
      simp only [wt]
      ring
    · exact hT.mul_const _

private theorem half (av : Avg) (cen : Nat) (denom minf : ℝ) (n : Nat) (w ref : Nat → ℝ) (etaN : ℝ) (Lp Lm : Law ℝ) :
    (difference av cen (2 * denom) minf n w ref etaN Lp Lm).eta =
      (difference av cen denom minf n w ref etaN Lp Lm).eta / 2 := by
  simp only [diff_sum]
  have : ∀ f g : Nat → ℝ, (pres minf n w fun p => g p * (f p / (2 * denom))) = (pres minf n w fun p => g p * (f p / denom)) / 2 := by
    intro f g
    unfold pres
    rw [Finset.sum_div]
    refine Finset.sum_congr rfl fun p _ => ?_
    split_ifs <;> ring
  rw [this]
  ring

/-- C118.  For each way of averaging phases: if the viscosity of every phase present is positive and
differentiable in each entry of the state, then the averaged viscosity has derivatives with respect to the two
normal strain rates, the engineering shear rate (twice the shear strain rate) and the pressure, and the finite
differences the code forms converge to exactly these as the relative perturbation goes to zero. -/
theorem viscosity_differences_converge (cell : Bool) (av : Avg) (minf : ℝ) (n : Nat) (w : Nat → ℝ) (F : PhaseLaw ℝ)
    (xx zz xz p : ℝ) (hm : 0 ≤ minf) (hw : ∀ q < n, 0 ≤ w q) (hex : ∃ q < n, minf < |w q|)
    (hpos : ∀ q < n, minf < |w q| → 0 < (F xx zz xz p).eta q)
    (hd : ∀ q < n, minf < |w q| →
      DifferentiableAt ℝ (fun s => (F s zz xz p).eta q) xx ∧ DifferentiableAt ℝ (fun s => (F xx s xz p).eta q) zz ∧
      DifferentiableAt ℝ (fun s => (F xx zz s p).eta q) xz ∧ DifferentiableAt ℝ (fun s => (F xx zz xz s).eta q) p) :
    let avg := fun y : Pt ℝ => average av minf n w (F y.xx y.zz (y.g / 2) y.p).eta
    let fd := fun tol => derivatives cell av tol minf n w (F xx zz xz p).eta (avg ⟨xx, zz, 2 * xz, p⟩) F xx zz xz p
    ∃ g : Grad ℝ,
      (HasDerivAt (fun s => avg ⟨s, zz, 2 * xz, p⟩) g.xx xx ∧ HasDerivAt (fun s => avg ⟨xx, s, 2 * xz, p⟩) g.zz zz ∧
       HasDerivAt (fun s => avg ⟨xx, zz, s, p⟩) g.g (2 * xz) ∧ HasDerivAt (fun s => avg ⟨xx, zz, 2 * xz, s⟩) g.p p) ∧
      Tendsto (fun tol => (fd tol).1.eta) (𝓝[>] 0) (𝓝 g.xx) ∧ Tendsto (fun tol => (fd tol).2.1.eta) (𝓝[>] 0) (𝓝 g.zz) ∧
      Tendsto (fun tol => (fd tol).2.2.1.eta) (𝓝[>] 0) (𝓝 g.g) ∧ Tendsto (fun tol => (fd tol).2.2.2.eta) (𝓝[>] 0) (𝓝 g.p) := by
  intro avg fd
  obtain ⟨a, ha, ha'⟩ := one av (if cell then 1 else 0) minf n w (fun s => F s zz xz p) xx hm hw hex hpos (fun q h k => (hd q h k).1)
  obtain ⟨b, hb, hb'⟩ := one av (if cell then 1 else 0) minf n w (fun s => F xx s xz p) zz hm hw hex hpos (fun q h k => (hd q h k).2.1)
  obtain ⟨c, hc, hc'⟩ := one av (if cell then 1 else 0) minf n w (fun s => F xx zz s p) xz hm hw hex hpos (fun q h k => (hd q h k).2.2.1)
  obtain ⟨d, hdd, hd'⟩ := one av (if cell then 2 else 0) minf n w (fun s => F xx zz xz s) p hm hw hex hpos (fun q h k => (hd q h k).2.2.2)
  have e : 2 * xz / 2 = xz := by ring
  refine ⟨⟨a, b, c / 2, d⟩, ⟨?_, ?_, ?_, ?_⟩, ?_, ?_, ?_, ?_⟩
  · simpa only [avg, e] using ha
  · simpa only [avg, e] using hb
  · have hs : HasDerivAt (fun s : ℝ => s / 2) (1 / 2) (2 * xz) := (hasDerivAt_id _).div_const 2
    have hc2 : HasDerivAt (fun s => average av minf n w (F xx zz s p).eta) c (2 * xz / 2) := by rw [e]; exact hc
    exact (HasDerivAt.comp (2 * xz) hc2 hs).congr_deriv (mul_one_div c 2)
  · simpa only [avg, e] using hdd
  · simpa only [fd, derivatives, avg, e] using ha'
  · simpa only [fd, derivatives, avg, e] using hb'
  · have h4 : ∀ h : ℝ, 4 * h = 2 * (2 * h) := fun h => by ring
    have e5 : ∀ tol, (fd tol).2.2.1.eta = _ := fun tol => by
      simp only [fd, derivatives, avg, e, h4 (pert tol xz)]
      exact half _ _ _ _ _ _ _ _ _ _
    simp only [e5]
    exact hc'.div_const 2
  · simpa only [fd, derivatives, avg, e] using hd'

/-- C118 (cells).  In cells the differences of the plastic dilation rate and, for the pressure, of the density
converge to the derivatives of their arithmetic phase averages, whatever rule averages the viscosity. -/
theorem divergence_density_converge (av : Avg) (minf : ℝ) (n : Nat) (w ref : Nat → ℝ) (etaN : ℝ) (F : PhaseLaw ℝ)
    (xx zz xz p : ℝ) (dx dz ds dp dr : Nat → ℝ)
    (hx : ∀ q < n, minf < |w q| → HasDerivAt (fun s => (F s zz xz p).divp q) (dx q) xx)
    (hz : ∀ q < n, minf < |w q| → HasDerivAt (fun s => (F xx s xz p).divp q) (dz q) zz)
    (hs : ∀ q < n, minf < |w q| → HasDerivAt (fun s => (F xx zz s p).divp q) (ds q) xz)
    (hp : ∀ q < n, minf < |w q| → HasDerivAt (fun s => (F xx zz xz s).divp q) (dp q) p)
    (hr : ∀ q < n, minf < |w q| → HasDerivAt (fun s => (F xx zz xz s).rho q) (dr q) p) :
    let fd := fun tol => derivatives true av tol minf n w ref etaN F xx zz xz p
    let mean := fun f => Rheo.avgArith minf n w f
    (HasDerivAt (fun s => mean (F s zz xz p).divp) (mean dx) xx ∧ Tendsto (fun tol => (fd tol).1.divp) (𝓝[>] 0) (𝓝 (mean dx))) ∧
    (HasDerivAt (fun s => mean (F xx s xz p).divp) (mean dz) zz ∧ Tendsto (fun tol => (fd tol).2.1.divp) (𝓝[>] 0) (𝓝 (mean dz))) ∧
    (HasDerivAt (fun s => mean (F xx zz s p).divp) (mean ds) xz ∧ Tendsto (fun tol => (fd tol).2.2.1.divp) (𝓝[>] 0) (𝓝 (mean ds / 2))) ∧
    (HasDerivAt (fun s => mean (F xx zz xz s).divp) (mean dp) p ∧ Tendsto (fun tol => (fd tol).2.2.2.divp) (𝓝[>] 0) (𝓝 (mean dp))) ∧
    (HasDerivAt (fun s => mean (F xx zz xz s).rho) (mean dr) p ∧ Tendsto (fun tol => (fd tol).2.2.2.rho) (𝓝[>] 0) (𝓝 (mean dr))) := by
  intro fd mean
  simp only [fd, mean, derivatives, diff_sum, arith_pres, if_true, Nat.one_pos, Nat.zero_lt_two]
  refine ⟨⟨pres_deriv _ _ _ _ _ _ hx, ?_⟩, ⟨pres_deriv _ _ _ _ _ _ hz, ?_⟩, ⟨pres_deriv _ _ _ _ _ _ hs, ?_⟩,
    ⟨pres_deriv _ _ _ _ _ _ hp, ?_⟩, pres_deriv _ _ _ _ _ _ hr, ?_⟩
  · exact pres_tendsto _ _ _ _ _ fun q h k => central (hx q h k) xx
  · exact pres_tendsto _ _ _ _ _ fun q h k => central (hz q h k) zz
  · have : pres minf n w ds / 2 = pres minf n w fun q => ds q / 2 := by
      unfold pres
      rw [Finset.sum_div]
      refine Finset.sum_congr rfl fun q _ => ?_
      split_ifs <;> ring
    rw [this]
    refine pres_tendsto _ _ _ _ _ fun q h k => ?_
    refine ((central (hs q h k) xz).div_const 2).congr fun tol => ?_
    rw [div_div]
    congr 1
    ring
  · exact pres_tendsto _ _ _ _ _ fun q h k => central (hp q h k) p
  · exact pres_tendsto _ _ _ _ _ fun q h k => central (hr q h k) p

/-- C118 (what is left out).  Whatever the rheology and the perturbation, the difference for the anisotropy
factor is zero, so Newton's method never sees a factor that depends on the state; at vertices the dilation
rate and the density are not differenced, in cells the density only for the pressure. -/
theorem differences_left_out (cell : Bool) (av : Avg) (tol minf : ℝ) (n : Nat) (w ref : Nat → ℝ) (etaN : ℝ) (F : PhaseLaw ℝ)
    (xx zz xz p : ℝ) :
    let fd := derivatives cell av tol minf n w ref etaN F xx zz xz p
    (fd.1.ani = 0 ∧ fd.2.1.ani = 0 ∧ fd.2.2.1.ani = 0 ∧ fd.2.2.2.ani = 0) ∧
    (fd.1.rho = 0 ∧ fd.2.1.rho = 0 ∧ fd.2.2.1.rho = 0) ∧
    (cell = false → fd.1.divp = 0 ∧ fd.2.1.divp = 0 ∧ fd.2.2.1.divp = 0 ∧ fd.2.2.2.divp = 0 ∧ fd.2.2.2.rho = 0) := by
  intro fd
  simp only [fd, derivatives, diff_sum]
  refine ⟨⟨trivial, trivial, trivial, trivial⟩, ?_, fun h => ?_⟩
  · cases cell <;> simp
  · subst h; simp

/-- C118 (exact cases).  If along a variable the viscosity of each phase is at most quadratic, the difference
is the derivative at every perturbation size (arithmetic averaging, fixed reference viscosities). -/
theorem quadratic_exact (cen : Nat) (minf : ℝ) (n : Nat) (w ref : Nat → ℝ) (etaN h x : ℝ) (L : ℝ → Law ℝ)
    (a b c : Nat → ℝ) (hL : ∀ s q, (L s).eta q = a q + b q * s + c q * s ^ 2) (h0 : h ≠ 0) :
    HasDerivAt (fun s => Rheo.avgArith minf n w (L s).eta)
      (difference .arithmetic cen (2 * h) minf n w ref etaN (L (x + h)) (L (x - h))).eta x := by
  simp only [diff_sum, arith_pres, wt, one_mul, mul_one]
  refine pres_deriv minf n w (fun s => (L s).eta) _ x fun q _ _ => ?_
  simp only [hL]
  have h1 : HasDerivAt (fun s : ℝ => a q + b q * s + c q * s ^ 2) (b q * 1 + c q * (2 * x)) x := by
    have := (((hasDerivAt_id x).const_mul (b q)).const_add (a q)).add (((hasDerivAt_id x).pow 2).const_mul (c q))
    refine this.congr_deriv ?_
    simp
  refine h1.congr_deriv ?_
  field_simp
  ring

private theorem unit (f : Pt ℝ → ℝ) (x : Pt ℝ) (g : Grad ℝ) (h : Slope f x g) :
    (∀ d, HasDerivAt (fun s => f ⟨s, x.zz, x.g, x.p⟩) d x.xx → d = g.xx) ∧
    (∀ d, HasDerivAt (fun s => f ⟨x.xx, s, x.g, x.p⟩) d x.zz → d = g.zz) ∧
    (∀ d, HasDerivAt (fun s => f ⟨x.xx, x.zz, s, x.p⟩) d x.g → d = g.g) ∧
    (∀ d, HasDerivAt (fun s => f ⟨x.xx, x.zz, x.g, s⟩) d x.p → d = g.p) := by
  have sh : ∀ (k : ℝ → ℝ) (c d : ℝ), HasDerivAt k d c → HasDerivAt (fun t => k (c + t)) d 0 := by
    intro k c d hk
    exact HasDerivAt.comp_const_add c 0 (by simpa using hk)
  refine ⟨fun d hd => ?_, fun d hd => ?_, fun d hd => ?_, fun d hd => ?_⟩
  · have := h ⟨1, 0, 0, 0⟩
    simp only [move, dot, mul_one, mul_zero, add_zero] at this
    exact (sh _ _ _ hd).unique this
  · have := h ⟨0, 1, 0, 0⟩
    simp only [move, dot, mul_one, mul_zero, add_zero, zero_add] at this
    exact (sh _ _ _ hd).unique this
  · have := h ⟨0, 0, 1, 0⟩
    simp only [move, dot, mul_one, mul_zero, add_zero, zero_add] at this
    exact (sh _ _ _ hd).unique this
  · have := h ⟨0, 0, 0, 1⟩
    simp only [move, dot, mul_one, mul_zero, add_zero, zero_add] at this
    exact (sh _ _ _ hd).unique this

/-- C118 (with C117).  Isotropic vertices: if the averaged viscosity is differentiable with derivatives `g`, the
operator the code builds from its finite differences converges to one that is the derivative of the shear
stress. -/
theorem newton_vertex_converges (av : Avg) (minf : ℝ) (n : Nat) (w : Nat → ℝ) (F : PhaseLaw ℝ)
    (xx zz xz p : ℝ) (hm : 0 ≤ minf) (hw : ∀ q < n, 0 ≤ w q) (hex : ∃ q < n, minf < |w q|)
    (hpos : ∀ q < n, minf < |w q| → 0 < (F xx zz xz p).eta q)
    (hd : ∀ q < n, minf < |w q| →
      DifferentiableAt ℝ (fun s => (F s zz xz p).eta q) xx ∧ DifferentiableAt ℝ (fun s => (F xx s xz p).eta q) zz ∧
      DifferentiableAt ℝ (fun s => (F xx zz s p).eta q) xz ∧ DifferentiableAt ℝ (fun s => (F xx zz xz s).eta q) p)
    (g : Grad ℝ)
    (hg : Slope (fun y => average av minf n w (F y.xx y.zz (y.g / 2) y.p).eta) ⟨xx, zz, 2 * xz, p⟩ g) :
    let avg := fun y : Pt ℝ => average av minf n w (F y.xx y.zz (y.g / 2) y.p).eta
    let x : Pt ℝ := ⟨xx, zz, 2 * xz, p⟩
    let fd := fun tol => derivatives false av tol minf n w (F xx zz xz p).eta (avg x) F xx zz xz p
    let op := fun tol => vertNewton false (avg x) 1 0 0 x
      ⟨(fd tol).1.eta, (fd tol).2.1.eta, (fd tol).2.2.1.eta, (fd tol).2.2.2.eta⟩
      ⟨(fd tol).1.ani, (fd tol).2.1.ani, (fd tol).2.2.1.ani, (fd tol).2.2.2.ani⟩
    ∃ D : Grad ℝ, Slope (fun y => avg y * y.g) x D ∧
      Tendsto (fun tol => (op tol).xx) (𝓝[>] 0) (𝓝 D.xx) ∧ Tendsto (fun tol => (op tol).zz) (𝓝[>] 0) (𝓝 D.zz) ∧
      Tendsto (fun tol => (op tol).g) (𝓝[>] 0) (𝓝 D.g) ∧ Tendsto (fun tol => (op tol).p) (𝓝[>] 0) (𝓝 D.p) := by
  intro avg x fd op
  obtain ⟨g', ⟨h1, h2, h3, h4⟩, t1, t2, t3, t4⟩ :=
    viscosity_differences_converge false av minf n w F xx zz xz p hm hw hex hpos hd
  obtain ⟨u1, u2, u3, u4⟩ := unit _ _ _ hg
  have e1 := u1 _ h1
  have e2 := u2 _ h2
  have e3 := u3 _ h3
  have e4 := u4 _ h4
  have hone : Slope (fun _ : Pt ℝ => (1 : ℝ)) x ⟨0, 0, 0, 0⟩ := fun d => by
    simpa [dot] using hasDerivAt_const (0 : ℝ) (1 : ℝ)
  have hv := vertex_tangent avg (fun _ => 1) 0 0 x g ⟨0, 0, 0, 0⟩ hg hone one_ne_zero
  refine ⟨vertNewton false (avg x) 1 0 0 x g ⟨0, 0, 0, 0⟩, ?_, ?_⟩
  · refine fun d => (hv d).congr_of_eventuallyEq (Eventually.of_forall fun t => ?_)
    simp [stress]
  · have lo := fun tol => (differences_left_out false av tol minf n w (F xx zz xz p).eta (avg x) F xx zz xz p).1
    simp only [op, vertNewton, Bool.false_eq_true, if_false]
    rw [← e1, ← e2, ← e3, ← e4]
    have a0 : ∀ tol, (fd tol).1.ani = 0 := fun tol => (lo tol).1
    have a1 : ∀ tol, (fd tol).2.1.ani = 0 := fun tol => (lo tol).2.1
    have a2 : ∀ tol, (fd tol).2.2.1.ani = 0 := fun tol => (lo tol).2.2.1
    have a3 : ∀ tol, (fd tol).2.2.2.ani = 0 := fun tol => (lo tol).2.2.2
    simp only [a0, a1, a2, a3]
    refine ⟨?_, ?_, ?_, ?_⟩
    · exact (((t1.const_mul 2).mul_const _).const_add _).add_const _
    · exact (((t2.const_mul 2).mul_const _).const_add _).add_const _
    · exact (((t3.const_mul 2).mul_const _).const_add _).add_const _
    · exact ((t4.const_mul 2).mul_const _).add_const _

/-- C118 (with C117).  Isotropic cells: the operators built from the finite differences converge to the derivatives
of the two normal stresses, including the pressure change `K dt` times the plastic dilation rate. -/
theorem newton_cell_converges (av : Avg) (minf : ℝ) (n : Nat) (w : Nat → ℝ) (F : PhaseLaw ℝ)
    (xx zz xz p kdt : ℝ) (hm : 0 ≤ minf) (hw : ∀ q < n, 0 ≤ w q) (hex : ∃ q < n, minf < |w q|)
    (hpos : ∀ q < n, minf < |w q| → 0 < (F xx zz xz p).eta q)
    (hd : ∀ q < n, minf < |w q| →
      DifferentiableAt ℝ (fun s => (F s zz xz p).eta q) xx ∧ DifferentiableAt ℝ (fun s => (F xx s xz p).eta q) zz ∧
      DifferentiableAt ℝ (fun s => (F xx zz s p).eta q) xz ∧ DifferentiableAt ℝ (fun s => (F xx zz xz s).eta q) p)
    (hv : ∀ q < n, minf < |w q| →
      DifferentiableAt ℝ (fun s => (F s zz xz p).divp q) xx ∧ DifferentiableAt ℝ (fun s => (F xx s xz p).divp q) zz ∧
      DifferentiableAt ℝ (fun s => (F xx zz s p).divp q) xz ∧ DifferentiableAt ℝ (fun s => (F xx zz xz s).divp q) p)
    (hr : ∀ q < n, minf < |w q| → DifferentiableAt ℝ (fun s => (F xx zz xz s).rho q) p)
    (g gd : Grad ℝ)
    (hg : Slope (fun y => average av minf n w (F y.xx y.zz (y.g / 2) y.p).eta) ⟨xx, zz, 2 * xz, p⟩ g)
    (hgd : Slope (fun y => Rheo.avgArith minf n w (F y.xx y.zz (y.g / 2) y.p).divp) ⟨xx, zz, 2 * xz, p⟩ gd) :
    let avg := fun y : Pt ℝ => average av minf n w (F y.xx y.zz (y.g / 2) y.p).eta
    let dil := fun y : Pt ℝ => Rheo.avgArith minf n w (F y.xx y.zz (y.g / 2) y.p).divp
    let x : Pt ℝ := ⟨xx, zz, 2 * xz, p⟩
    let fd := fun tol => derivatives true av tol minf n w (F xx zz xz p).eta (avg x) F xx zz xz p
    let op := fun tol => cellNewton false (avg x) 1 0 0 kdt x
      ⟨(fd tol).1.eta, (fd tol).2.1.eta, (fd tol).2.2.1.eta, (fd tol).2.2.2.eta⟩
      ⟨(fd tol).1.divp, (fd tol).2.1.divp, (fd tol).2.2.1.divp, (fd tol).2.2.2.divp⟩
      ⟨(fd tol).1.ani, (fd tol).2.1.ani, (fd tol).2.2.1.ani, (fd tol).2.2.2.ani⟩
    ∃ D1 D2 : Grad ℝ, Slope (fun y => 2 * avg y * y.xx - kdt * dil y) x D1 ∧
      Slope (fun y => 2 * avg y * y.zz - kdt * dil y) x D2 ∧
      (Tendsto (fun tol => (op tol).D1.xx) (𝓝[>] 0) (𝓝 D1.xx) ∧ Tendsto (fun tol => (op tol).D1.zz) (𝓝[>] 0) (𝓝 D1.zz) ∧
       Tendsto (fun tol => (op tol).D1.g) (𝓝[>] 0) (𝓝 D1.g) ∧ Tendsto (fun tol => (op tol).D1.p) (𝓝[>] 0) (𝓝 D1.p)) ∧
      (Tendsto (fun tol => (op tol).D2.xx) (𝓝[>] 0) (𝓝 D2.xx) ∧ Tendsto (fun tol => (op tol).D2.zz) (𝓝[>] 0) (𝓝 D2.zz) ∧
       Tendsto (fun tol => (op tol).D2.g) (𝓝[>] 0) (𝓝 D2.g) ∧ Tendsto (fun tol => (op tol).D2.p) (𝓝[>] 0) (𝓝 D2.p)) := by
  intro avg dil x fd op
  obtain ⟨g', ⟨h1, h2, h3, h4⟩, t1, t2, t3, t4⟩ :=
    viscosity_differences_converge true av minf n w F xx zz xz p hm hw hex hpos hd
  obtain ⟨u1, u2, u3, u4⟩ := unit _ _ _ hg
  have e1 := u1 _ h1
  have e2 := u2 _ h2
  have e3 := u3 _ h3
  have e4 := u4 _ h4
  obtain ⟨⟨k1, s1⟩, ⟨k2, s2⟩, ⟨k3, s3⟩, ⟨k4, s4⟩, _⟩ :=
    divergence_density_converge av minf n w (F xx zz xz p).eta (avg x) F xx zz xz p _ _ _ _ _
      (fun q a b => (hv q a b).1.hasDerivAt) (fun q a b => (hv q a b).2.1.hasDerivAt)
      (fun q a b => (hv q a b).2.2.1.hasDerivAt) (fun q a b => (hv q a b).2.2.2.hasDerivAt)
      (fun q a b => (hr q a b).hasDerivAt)
  obtain ⟨v1, v2, v3, v4⟩ := unit _ _ _ hgd
  have e : 2 * xz / 2 = xz := by ring
  have f1 := v1 _ (by simpa only [e] using k1)
  have f2 := v2 _ (by simpa only [e] using k2)
  have f3 := v3 _ (by
    have hs : HasDerivAt (fun s : ℝ => s / 2) (1 / 2) (2 * xz) := (hasDerivAt_id _).div_const 2
    exact (HasDerivAt.comp (2 * xz) (by rw [e]; exact k3) hs).congr_deriv (mul_one_div _ 2))
  have f4 := v4 _ (by simpa only [e] using k4)
  have hone : Slope (fun _ : Pt ℝ => (1 : ℝ)) x ⟨0, 0, 0, 0⟩ := fun d => by
    simpa [dot] using hasDerivAt_const (0 : ℝ) (1 : ℝ)
  have hc := cell_tangent avg dil (fun _ => 1) 0 0 kdt x g gd ⟨0, 0, 0, 0⟩ hg hgd hone one_ne_zero
  refine ⟨(cellNewton false (avg x) 1 0 0 kdt x g gd ⟨0, 0, 0, 0⟩).D1,
    (cellNewton false (avg x) 1 0 0 kdt x g gd ⟨0, 0, 0, 0⟩).D2, ?_, ?_, ?_⟩
  · refine fun d => (hc.1 d).congr_of_eventuallyEq (Eventually.of_forall fun t => ?_)
    simp [stress]
  · refine fun d => (hc.2 d).congr_of_eventuallyEq (Eventually.of_forall fun t => ?_)
    simp [stress]
  · have lo := fun tol => (differences_left_out true av tol minf n w (F xx zz xz p).eta (avg x) F xx zz xz p).1
    simp only [op, cellNewton, Bool.false_eq_true, if_false]
    rw [← e1, ← e2, ← e3, ← e4, ← f1, ← f2, ← f3, ← f4]
    have a0 : ∀ tol, (fd tol).1.ani = 0 := fun tol => (lo tol).1
    have a1 : ∀ tol, (fd tol).2.1.ani = 0 := fun tol => (lo tol).2.1
    have a2 : ∀ tol, (fd tol).2.2.1.ani = 0 := fun tol => (lo tol).2.2.1
    have a3 : ∀ tol, (fd tol).2.2.2.ani = 0 := fun tol => (lo tol).2.2.2
    simp only [a0, a1, a2, a3]
    refine ⟨⟨?_, ?_, ?_, ?_⟩, ?_, ?_, ?_, ?_⟩
    · exact ((((t1.const_mul 2).mul_const _).const_add _).sub (s1.const_mul kdt)).add_const _
    · exact ((((t2.const_mul 2).mul_const _).const_add _).sub (s2.const_mul kdt)).add_const _
    · exact ((((t3.const_mul 2).mul_const _).const_add _).sub (s3.const_mul kdt)).add_const _
    · exact (((t4.const_mul 2).mul_const _).sub (s4.const_mul kdt)).add_const _
    · exact ((((t1.const_mul 2).mul_const _).const_add _).sub (s1.const_mul kdt)).add_const _
    · exact ((((t2.const_mul 2).mul_const _).const_add _).sub (s2.const_mul kdt)).add_const _
    · exact ((((t3.const_mul 2).mul_const _).const_add _).sub (s3.const_mul kdt)).add_const _
    · exact (((t4.const_mul 2).mul_const _).sub (s4.const_mul kdt)).add_const _

/-- Two phases, one with a strain-rate dependent viscosity: the hypotheses hold. -/
example :
    let F : PhaseLaw ℝ := fun xx _ xz _ => ⟨fun q => if q = 0 then 1 + xx ^ 2 + xz ^ 2 else 2, fun _ => 0, fun _ => 0⟩
    let w : Nat → ℝ := fun _ => 1 / 2
    (∀ q < 2, 0 ≤ w q) ∧ (∃ q < 2, (0 : ℝ) < |w q|) ∧ (∀ q < 2, 0 < (F 1 (-1) 0 0).eta q) ∧
    (∀ q < 2, DifferentiableAt ℝ (fun s => (F s (-1) 0 0).eta q) 1 ∧ DifferentiableAt ℝ (fun s => (F 1 s 0 0).eta q) (-1) ∧
      DifferentiableAt ℝ (fun s => (F 1 (-1) s 0).eta q) 0 ∧ DifferentiableAt ℝ (fun s => (F 1 (-1) 0 s).eta q) 0) := by
  intro F w
  refine ⟨fun q _ => by norm_num [w], ⟨0, by norm_num, by norm_num [w]⟩, fun q _ => ?_, fun q _ => ?_⟩
  · by_cases h : q = 0 <;> simp [F, h]
  · by_cases h : q = 0 <;> simp [F, h]

end Verif.Tan
