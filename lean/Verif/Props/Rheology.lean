import Verif.Model.Rheology
import Verif.Spec.Rheology
import Mathlib.Data.Rat.Floor
import Mathlib.Algebra.BigOperators.Field
import Mathlib.Algebra.Order.BigOperators.Ring.Finset
import Mathlib.Tactic.Positivity
import Mathlib.Tactic.FieldSimp
import Mathlib.Tactic.Linarith
import Mathlib.Tactic.LinearCombination
import Mathlib.Tactic.NormNum
import Mathlib.Topology.Algebra.Order.Field
import Mathlib.Topology.Instances.Real.Lemmas
import Mathlib.Topology.Order.Basic

/-!
C51 (softening), C52 (return mapping), C53 (phase averages), C55 (effective strain rate).
-/
set_option linter.unusedSectionVars false
namespace Verif.Rheo
open Verif Verif.Spec

section
variable {K : Type*} [Field K] [LinearOrder K] [IsStrictOrderedRing K]

/-! ### C51 -/

/-- Below the onset the initial value, above the end the final one. -/
theorem softenLinear_ends (v0 v1 s0 s1 : K) (h : s0 < s1) :
    (∀ s < s0, softenLinear true v0 v1 s0 s1 s = v0) ∧ (∀ s, s1 ≤ s → softenLinear true v0 v1 s0 s1 s = v1) := by
  constructor
  · intro s hs
    have h1 : ¬ s1 ≤ s := by intro h2; linarith
    have h2 : ¬ (s0 ≤ s ∧ s < s1) := fun h2 => by linarith [h2.1]
    simp [softenLinear, hs, h1, h2]
  · intro s hs
    have h2 : ¬ (s0 ≤ s ∧ s < s1) := fun h2 => by linarith [h2.2]
    simp [softenLinear, hs, h2]

/-- A switched-off parameter keeps its initial value. -/
theorem soften_off (e : K → K) (v0 v1 s0 s1 s : K) :
    softenLinear false v0 v1 s0 s1 s = v0 ∧ softenErf e false v0 v1 s0 s1 s = v0 := by
  constructor
  · simp [softenLinear]
  · simp [softenErf]

/-- Closed form when softening starts at zero strain. -/
theorem softenLinear_zero (v0 v1 s1 s : K) (h : 0 < s1) :
    softenLinear true v0 v1 0 s1 s = v0 + (v1 - v0) * (max 0 (min s s1) / s1) := by
  have hs := softenLinear_ends v0 v1 0 s1 h
  rcases lt_or_ge s 0 with h0 | h0
  · rw [hs.1 s h0, min_eq_left (by linarith), max_eq_left h0.le]; simp
  · rcases lt_or_ge s s1 with h1 | h1
    · have : ¬ s < 0 := not_lt.2 h0
      have h2 : ¬ s1 ≤ s := not_le.2 h1
      rw [min_eq_left h1.le, max_eq_right h0]
      simp only [softenLinear, h0, h1, and_self, if_true, sub_zero]
      field_simp
    · rw [hs.2 s h1, min_eq_right h1, max_eq_right h.le, div_self h.ne']; ring

/-- With onset at zero strain the softened value lies between the end values, moves steadily from the
initial to the final one, and takes them outside the window.  Partial: for a positive onset the
formula forgets to subtract the onset strain, see `softenLinear_overshoots`. -/
theorem softenLinear_partial (v0 v1 s1 : K) (h : 0 < s1) :
    (∀ s, Between v0 v1 (softenLinear true v0 v1 0 s1 s))
    ∧ MovesFromTo v0 v1 Set.univ (softenLinear true v0 v1 0 s1)
    ∧ (∀ s ≤ 0, softenLinear true v0 v1 0 s1 s = v0) ∧ (∀ s, s1 ≤ s → softenLinear true v0 v1 0 s1 s = v1) := by
  have hr : ∀ s : K, 0 ≤ max 0 (min s s1) / s1 ∧ max 0 (min s s1) / s1 ≤ 1 := by
    intro s
    refine ⟨div_nonneg (le_max_left _ _) h.le, (div_le_one h).2 (max_le h.le (min_le_right _ _))⟩
  refine ⟨?_, ?_, ?_, (softenLinear_ends v0 v1 0 s1 h).2⟩
  · intro s
    rw [softenLinear_zero _ _ _ _ h]
    obtain ⟨h0, h1⟩ := hr s
    unfold Between
    rcases le_total v0 v1 with hv | hv
    · rw [min_eq_left hv, max_eq_right hv]; constructor <;> nlinarith
    · rw [min_eq_right hv, max_eq_left hv]; constructor <;> nlinarith
  · intro s _ t _ hst
    rw [softenLinear_zero _ _ _ _ h, softenLinear_zero _ _ _ _ h]
    have : max 0 (min s s1) / s1 ≤ max 0 (min t s1) / s1 :=
      div_le_div_of_nonneg_right (max_le_max le_rfl (min_le_min hst le_rfl)) h.le
    constructor <;> intro hv <;> nlinarith
  · intro s hs
    rw [softenLinear_zero _ _ _ _ h, max_eq_left (le_trans (min_le_left _ _) hs)]; simp

/-- The initial claim is false for every window with a positive onset and distinct end values: some
strain inside the window gives a value outside the two end values. -/
theorem softenLinear_overshoots (v0 v1 s0 s1 : K) (h0 : 0 < s0) (h : s0 < s1) (hv : v0 ≠ v1) :
    ∃ s, s0 ≤ s ∧ s < s1 ∧ ¬ Between v0 v1 (softenLinear true v0 v1 s0 s1 s) := by
  refine ⟨max s0 (s1 - s0 / 2), le_max_left _ _, max_lt h (by linarith), ?_⟩
  have h1 : max s0 (s1 - s0 / 2) < s1 := max_lt h (by linarith)
  have h2 : s1 - s0 < max s0 (s1 - s0 / 2) := lt_of_lt_of_le (by linarith) (le_max_right _ _)
  have h3 : s0 ≤ max s0 (s1 - s0 / 2) := le_max_left _ _
  generalize max s0 (s1 - s0 / 2) = s at *
  have hd : 0 < s1 - s0 := by linarith
  have hf : softenLinear true v0 v1 s0 s1 s = v0 + (v1 - v0) * (s / (s1 - s0)) := by
    simp only [softenLinear, h3, h1, and_self, if_true]; field_simp
  have hq : 1 < s / (s1 - s0) := (one_lt_div hd).2 h2
  rw [hf]; unfold Between; rintro ⟨ha, hb⟩
  rcases lt_or_gt_of_ne hv with hv | hv
  · rw [max_eq_right hv.le] at hb; nlinarith
  · rw [min_eq_right hv.le] at ha; nlinarith

/-- And the value jumps at the onset by the fraction `s0/(s1-s0)` of the full drop. -/
theorem softenLinear_jump (v0 v1 s0 s1 : K) (h : s0 < s1) :
    softenLinear true v0 v1 s0 s1 s0 - v0 = (v1 - v0) * (s0 / (s1 - s0)) := by
  have : s1 - s0 ≠ 0 := by have : 0 < s1 - s0 := by linarith
                           exact this.ne'
  simp only [softenLinear, le_refl, h, and_self, if_true]; field_simp; ring

/-- Error-function softening: for any function `erfc` that is antitone with values below
two, softening from zero strain onwards stays between the end values, moves steadily from the
initial towards the final one and starts at the initial one. -/
theorem softenErf_partial (e : K → K) (he : Antitone e) (h2 : ∀ x, e x < 2)
    (v0 v1 s0 s1 : K) (h : s0 < s1) (hv : v0 ≠ v1) :
    softenErf e true v0 v1 s0 s1 0 = v0
    ∧ (∀ s, 0 ≤ s → Between v0 v1 (softenErf e true v0 v1 s0 s1 s))
    ∧ MovesFromTo v0 v1 {s | 0 ≤ s} (softenErf e true v0 v1 s0 s1) := by
  set g : K → K := fun s => 1 - e (-(s - 1 / 2 * (s1 + s0)) / (s1 - s0)) / 2 with hg
  have hd : v0 - v1 ≠ 0 := sub_ne_zero.2 hv
  have gp : ∀ s, 0 < g s := fun s => by
    have := h2 (-(s - 1 / 2 * (s1 + s0)) / (s1 - s0)); simp only [hg]; linarith
  have gm : ∀ s t, s ≤ t → g t ≤ g s := fun s t hst => by
    have : e (-(s - 1 / 2 * (s1 + s0)) / (s1 - s0)) ≤ e (-(t - 1 / 2 * (s1 + s0)) / (s1 - s0)) := by
      apply he
      apply div_le_div_of_nonneg_right _ (by linarith)
      linarith
    simp only [hg]; linarith
  have hf : ∀ s, softenErf e true v0 v1 s0 s1 s = v1 + (v0 - v1) * (g s / g 0) := by
    intro s
    have h00 := (gp 0).ne'
    have e1 : v0 - (v0 - v1) / 2 * e (-(s - 1 / 2 * (s1 + s0)) / (s1 - s0)) - v1 = (v0 - v1) * g s := by
      simp only [hg]; ring
    have e2 : v0 - (v0 - v1) / 2 * e (-(0 - 1 / 2 * (s1 + s0)) / (s1 - s0)) - v1 = (v0 - v1) * g 0 := by
      simp only [hg]; ring
    simp only [softenErf, if_true]
    rw [e1, e2]; field_simp; ring
  have hr : ∀ s, 0 ≤ s → 0 < g s / g 0 ∧ g s / g 0 ≤ 1 := fun s hs =>
    ⟨div_pos (gp s) (gp 0), (div_le_one (gp 0)).2 (gm 0 s hs)⟩
  refine ⟨?_, ?_, ?_⟩
  · rw [hf, div_self (gp 0).ne']; ring
  · intro s hs
    rw [hf]; obtain ⟨a, b⟩ := hr s hs
    unfold Between
    rcases le_total v0 v1 with hv | hv
    · rw [min_eq_left hv, max_eq_right hv]; constructor <;> nlinarith
    · rw [min_eq_right hv, max_eq_left hv]; constructor <;> nlinarith
  · intro s hs t ht hst
    rw [hf, hf]
    have : g t / g 0 ≤ g s / g 0 := div_le_div_of_nonneg_right (gm s t hst) (gp 0).le
    constructor <;> intro hv <;> nlinarith

/-! ### C52 -/

/-- The Mises cut-off caps the strength. -/
theorem yield_cap (C cosf sinf P slim : K) :
    yieldStress C cosf sinf P slim = min slim (C * cosf + P * sinf) := by
  unfold yieldStress
  simp only
  split
  · next h => rw [min_eq_left h.le]
  · next h => rw [min_eq_right (not_lt.1 h)]

/-- Below yield nothing changes. -/
theorem plastic_inactive (q : RetPar K) (pwE eps tmin ty : K) (h : q.tii - ty ≤ eps) :
    plastic q pwE eps tmin ty = ⟨q.tii, q.P, 0, q.etaVp0, false⟩ := by
  simp [plastic, not_lt.2 h]

theorem retStep_stop (q : RetPar K) (F0 : K) (s : Ret K) (h : s.stop = true) : retStep q F0 s = s := by
  simp [retStep, h]

theorem forUp_stop (q : RetPar K) (F0 : K) (s : Ret K) (h : s.stop = true) (n : Nat) :
    forUp n s (fun s _ => retStep q F0 s) = s := by
  induction n with
  | zero => rfl
  | succ n ih => rw [forUp_succ, ih, retStep_stop q F0 s h]

/-- Without dilation and with linear visco-plasticity the return mapping ends exactly on the yield
surface including overstress, strictly below the trial stress, with unchanged pressure.  Partial: with
dilation see `plastic_dilation_iff`; with a visco-plastic exponent other than one, or with overstress
and dilation together, the strength is accumulated over the passes, see `plastic_exponent_misses`. -/
theorem plastic_partial (q : RetPar K) (pwE eps tmin C cosf sinf slim : K)
    (hlin : ∀ x, q.pw x = 1) (hE : pwE = 1) (hd : q.sind = 0) (he : 0 < q.etaVe) (hv : 0 ≤ q.etaVp0)
    (ht : 0 < q.tol) (heps : 0 ≤ eps) (hs : 0 ≤ slim) (hy : 0 ≤ C * cosf + q.P * sinf)
    (hF : eps < q.tii - yieldStress C cosf sinf q.P slim) :
    let r := plastic q pwE eps tmin (yieldStress C cosf sinf q.P slim)
    r.tii = min slim (C * cosf + q.P * sinf) + q.etaVp0 * r.gdot ∧ 0 < r.gdot ∧ r.tii < q.tii
      ∧ q.tii - r.tii = q.etaVe * r.gdot ∧ r.pc = q.P ∧ r.etaVp = q.etaVp0 ∧ r.active = true := by
  intro r
  have hyield := yield_cap C cosf sinf q.P slim
  have hy0 : 0 ≤ yieldStress C cosf sinf q.P slim := by rw [hyield]; exact le_min hs hy
  rw [← hyield]
  have hr0 : r = plastic q pwE eps tmin (yieldStress C cosf sinf q.P slim) := rfl
  clear_value r
  generalize yieldStress C cosf sinf q.P slim = ty at *
  set F := q.tii - ty with hFd
  have hFp : 0 < F := lt_of_le_of_lt heps hF
  have hsum : 0 < q.etaVe + q.etaVp0 := by linarith
  set g := F / (q.etaVe + q.etaVp0) with hg
  have hgp : 0 < g := div_pos hFp hsum
  have hgF : (q.etaVe + q.etaVp0) * g = F := by rw [hg]; field_simp
  have hi : retInit q pwE ty = ⟨g, ty, q.P, q.etaVp0, 0, F, false⟩ := by
    simp only [retInit, hE, hd, mul_zero, mul_one, add_zero, ← hFd, ← hg]
  have h1 : retStep q F (retInit q pwE ty)
      = ⟨g, ty + g * q.etaVp0, q.P, q.etaVp0, q.tii - q.etaVe * g, 0, true⟩ := by
    have hz : q.tii - q.etaVe * g - (ty + g * q.etaVp0) = 0 := by
      have : q.tii = F + ty := by rw [hFd]; ring
      rw [this, ← hgF]; ring
    rw [hi]
    simp only [retStep, hlin, hd, mul_one, hz, abs_zero, ht, true_or, if_true, neg_zero, mul_zero, add_zero]
    simp
  have hall : forUp 20 (retInit q pwE ty) (fun s _ => retStep q F s)
      = ⟨g, ty + g * q.etaVp0, q.P, q.etaVp0, q.tii - q.etaVe * g, 0, true⟩ := by
    rw [show (20 : Nat) = 1 + 19 from rfl, forUp_add]
    have : forUp 1 (retInit q pwE ty) (fun s _ => retStep q F s) = retStep q F (retInit q pwE ty) := rfl
    rw [this, h1]; exact forUp_stop q F _ rfl 19
  have ht2 : q.tii - q.etaVe * g = ty + q.etaVp0 * g := by
    have : q.tii = F + ty := by rw [hFd]; ring
    rw [this, ← hgF]; ring
  have hnn : ¬ (q.tii - q.etaVe * g < 0) := by
    rw [ht2]; have := mul_nonneg hv hgp.le; intro h; linarith
  have hr : r = ⟨q.tii - q.etaVe * g, q.P, g, q.etaVp0, true⟩ := by
    rw [hr0]
    simp only [plastic, ← hFd, hF, if_true, hall, hnn, if_false]
  rw [hr]
  refine ⟨ht2, hgp, ?_, by ring, rfl, rfl, rfl⟩
  have := mul_pos he hgp
  show q.tii - q.etaVe * g < q.tii
  linarith

/-- Dilation without overstress: one pass from a state already past the first guess. -/
private structure Good (q : RetPar K) (ty g0 G : K) (s : Ret K) : Prop where
  ty : s.tyield = ty
  last : ∃ g, g0 < g ∧ g < G ∧ s.tiic = q.tii - q.etaVe * g ∧ s.pc = q.P + q.kdt * q.sind * g
    ∧ (s.stop = true → s.gdot = g)
  next : s.stop = true ∨ (g0 < s.gdot ∧ s.gdot < G)

private theorem good_step (q : RetPar K) (ty g0 G F0 : K) (s : Ret K)
    (h0 : q.etaVp0 = 0) (he : 0 < q.etaVe) (hD : 0 < q.kdt * q.sinf * q.sind)
    (hG : q.etaVe * G = q.tii - ty) (hs : s.stop = false) (hty : s.tyield = ty)
    (ha : g0 < s.gdot) (hb : s.gdot < G) : Good q ty g0 G (retStep q F0 s) := by
  have hq : q.tii - q.etaVe * s.gdot - ty = q.etaVe * (G - s.gdot) := by
    have : q.tii = q.etaVe * G + ty := by rw [hG]; ring
    rw [this]; ring
  have hpc : q.P + q.kdt * (-s.gdot * -q.sind) = q.P + q.kdt * q.sind * s.gdot := by ring
  unfold retStep
  simp only [hs, h0, zero_mul, mul_zero, add_zero, hty, zero_div, sub_zero, if_false,
    Bool.false_eq_true]
  rw [hq, hpc]
  split
  · exact ⟨rfl, ⟨s.gdot, ha, hb, rfl, rfl, fun _ => rfl⟩, Or.inl rfl⟩
  · refine ⟨rfl, ⟨s.gdot, ha, hb, rfl, rfl, ?_⟩, Or.inr ?_⟩
    · intro h; exact absurd h (by simp)
    · have hden : 0 < q.etaVe + q.kdt * q.sinf * q.sind := by linarith
      have hEq : s.gdot - q.etaVe * (G - s.gdot) / (-q.etaVe - q.kdt * q.sinf * q.sind)
          = s.gdot + (G - s.gdot) * (q.etaVe / (q.etaVe + q.kdt * q.sinf * q.sind)) := by
        have e1 : -q.etaVe - q.kdt * q.sinf * q.sind = -(q.etaVe + q.kdt * q.sinf * q.sind) := by ring
        rw [e1, div_neg]
        field_simp
        ring
      have r0 : 0 < q.etaVe / (q.etaVe + q.kdt * q.sinf * q.sind) := div_pos he hden
      have r1 : q.etaVe / (q.etaVe + q.kdt * q.sinf * q.sind) < 1 := (div_lt_one hden).2 (by linarith)
      show g0 < _ ∧ _ < G
      rw [hEq]
      generalize q.etaVe / (q.etaVe + q.kdt * q.sinf * q.sind) = r at *
      constructor <;> nlinarith

/-- With dilation and no overstress the result satisfies the Drucker-Prager condition at the corrected
pressure exactly when the very first guess is accepted by the loop's own test.  In every other case
the result lies strictly below the strength at the corrected pressure: further passes move away from
the solution, because the loop evaluates the strength at the uncorrected pressure. -/
theorem plastic_dilation_iff (q : RetPar K) (pwE eps tmin C cosf : K)
    (h0 : q.etaVp0 = 0) (he : 0 < q.etaVe) (hD : 0 < q.kdt * q.sinf * q.sind)
    (heps : 0 ≤ eps) (hy : 0 ≤ C * cosf + q.P * q.sinf)
    (hF : eps < q.tii - (C * cosf + q.P * q.sinf)) :
    let F := q.tii - (C * cosf + q.P * q.sinf)
    let rho := q.kdt * q.sinf * q.sind / (q.etaVe + q.kdt * q.sinf * q.sind)
    let r := plastic q pwE eps tmin (C * cosf + q.P * q.sinf)
    (OnYield C cosf q.sinf r.pc 0 r.gdot r.tii ↔ (F * rho < q.tol ∨ rho < q.tol))
      ∧ r.tii ≤ C * cosf + r.pc * q.sinf ∧ r.tii < q.tii ∧ C * cosf + q.P * q.sinf < r.tii := by
  intro F rho r
  have hFp : 0 < F := lt_of_le_of_lt heps hF
  have hFd : F = q.tii - (C * cosf + q.P * q.sinf) := rfl
  set ty := C * cosf + q.P * q.sinf with hty
  set D := q.kdt * q.sinf * q.sind with hDd
  have hden : 0 < q.etaVe + D := by linarith
  have hrho0 : 0 < rho := div_pos hD hden
  have hrho1 : rho < 1 := (div_lt_one hden).2 (by linarith)
  set g0 := F / (q.etaVe + D) with hg0
  have hg0p : 0 < g0 := div_pos hFp hden
  have hg0F : (q.etaVe + D) * g0 = F := by rw [hg0]; field_simp
  have hDg : D * g0 = F * rho := by
    show D * (F / (q.etaVe + D)) = F * (D / (q.etaVe + D)); ring
  have htiiF : q.tii = F + ty := by rw [hFd]; ring
  have hi : retInit q pwE ty = ⟨g0, ty, q.P, 0, 0, F, false⟩ := by
    simp only [retInit, h0, zero_mul, add_zero, ← hDd]; rfl
  have hf1 : q.tii - q.etaVe * g0 - ty = F * rho := by
    rw [htiiF, ← hDg]
    have : F = q.etaVe * g0 + D * g0 := by rw [← hg0F]; ring
    linarith
  have hpc : q.P + q.kdt * (-g0 * -q.sind) = q.P + q.kdt * q.sind * g0 := by ring
  have habs : |F * rho| = F * rho := abs_of_pos (mul_pos hFp hrho0)
  have hdiv : F * rho / F = rho := by field_simp
  by_cases hacc : F * rho < q.tol ∨ rho < q.tol
  · have h1 : retStep q F (retInit q pwE ty)
        = ⟨g0, ty, q.P + q.kdt * q.sind * g0, 0, q.tii - q.etaVe * g0, F * rho, true⟩ := by
      rw [hi]
      simp only [retStep, h0, zero_mul, mul_zero, add_zero, Bool.false_eq_true, if_false]
      rw [hf1, hpc, habs, hdiv, if_pos hacc]
    have hall : forUp 20 (retInit q pwE ty) (fun s _ => retStep q F s)
        = ⟨g0, ty, q.P + q.kdt * q.sind * g0, 0, q.tii - q.etaVe * g0, F * rho, true⟩ := by
      rw [show (20 : Nat) = 1 + 19 from rfl, forUp_add]
      have : forUp 1 (retInit q pwE ty) (fun s _ => retStep q F s) = retStep q F (retInit q pwE ty) := rfl
      rw [this, h1]; exact forUp_stop q F _ rfl 19
    have htiic : q.tii - q.etaVe * g0 = ty + F * rho := by linarith
    have hnn : ¬ (q.tii - q.etaVe * g0 < 0) := by
      rw [htiic]; have := mul_pos hFp hrho0; intro h; linarith
    have hr : r = ⟨q.tii - q.etaVe * g0, q.P + q.kdt * q.sind * g0, g0, 0, true⟩ := by
      show plastic q pwE eps tmin ty = _
      have hF' : eps < F := hF
      simp only [plastic, ← hFd, hF', if_true, hall, hnn, if_false]
    have hon : r.tii = C * cosf + r.pc * q.sinf := by
      rw [hr]; show q.tii - q.etaVe * g0 = C * cosf + (q.P + q.kdt * q.sind * g0) * q.sinf
      rw [htiic, ← hDg, hty, hDd]; ring
    refine ⟨⟨fun _ => hacc, fun _ => ?_⟩, hon.le, ?_, ?_⟩
    · unfold OnYield; rw [hon]; ring
    · rw [hr]; show q.tii - q.etaVe * g0 < q.tii
      have := mul_pos he hg0p; linarith
    · rw [hr]; show ty < q.tii - q.etaVe * g0
      rw [htiic]; have := mul_pos hFp hrho0; linarith
  · set G := F / q.etaVe with hGd
    have hG : q.etaVe * G = q.tii - ty := by rw [hGd, ← hFd]; field_simp
    have hg0G : g0 < G := by
      rw [hg0, hGd]; exact div_lt_div_of_pos_left hFp he (by linarith)
    have hEq : g0 - F * rho / (-q.etaVe - D) = g0 + F * rho / (q.etaVe + D) := by
      have e1 : -q.etaVe - D = -(q.etaVe + D) := by ring
      rw [e1, div_neg]; ring
    have h1 : retStep q F (retInit q pwE ty)
        = ⟨g0 + F * rho / (q.etaVe + D), ty, q.P + q.kdt * q.sind * g0, 0, q.tii - q.etaVe * g0, F * rho, false⟩ := by
      rw [hi]
      simp only [retStep, h0, zero_mul, mul_zero, add_zero, Bool.false_eq_true, if_false, zero_div, sub_zero]
      rw [hf1, hpc, habs, hdiv, if_neg hacc, ← hEq]
    have hg1 : g0 < g0 + F * rho / (q.etaVe + D) := by
      have := div_pos (mul_pos hFp hrho0) hden; linarith
    have hg2 : g0 + F * rho / (q.etaVe + D) < G := by
      have e2 : q.etaVe * (g0 + F * rho / (q.etaVe + D)) < q.etaVe * G := by
        rw [hG, ← hFd]
        have e3 : F * rho / (q.etaVe + D) = rho * g0 := by rw [hg0]; ring
        rw [e3]
        have e4 : q.etaVe * (g0 + rho * g0) = (F - F * rho) * (1 + rho) := by
          have : q.etaVe * g0 = F - F * rho := by rw [← hDg, ← hg0F]; ring
          calc q.etaVe * (g0 + rho * g0) = q.etaVe * g0 * (1 + rho) := by ring
            _ = _ := by rw [this]
        rw [e4]
        have : F * rho * rho > 0 := mul_pos (mul_pos hFp hrho0) hrho0
        nlinarith
      exact lt_of_mul_lt_mul_left e2 he.le
    have hgood : ∀ n, Good q ty g0 G (forUp (n + 1) (retStep q F (retInit q pwE ty)) (fun s _ => retStep q F s)) := by
      intro n
      induction n with
      | zero =>
        show Good q ty g0 G (retStep q F (retStep q F (retInit q pwE ty)))
        apply good_step q ty g0 G F _ h0 he hD hG
        all_goals rw [h1]
        · exact hg1
        · exact hg2
      | succ n ih =>
        rw [forUp_succ]
        generalize forUp (n + 1) (retStep q F (retInit q pwE ty)) (fun s _ => retStep q F s) = s at *
        cases hst : s.stop with
        | true => rw [retStep_stop q F s hst]; exact ih
        | false =>
          rcases ih.next with h | h
          · rw [hst] at h; exact absurd h (by simp)
          · exact good_step q ty g0 G F s h0 he hD hG hst ih.ty h.1 h.2
    have hall : forUp 20 (retInit q pwE ty) (fun s _ => retStep q F s)
        = forUp 19 (retStep q F (retInit q pwE ty)) (fun s _ => retStep q F s) := by
      rw [show (20 : Nat) = 1 + 19 from rfl, forUp_add]; rfl
    have hfin := hgood 18
    rw [show (18 : Nat) + 1 = 19 from rfl, ← hall] at hfin
    obtain ⟨g, ga, gb, gt, gpc, _⟩ := hfin.last
    have hlow : q.etaVe * g < q.tii - ty := by rw [← hG]; exact mul_lt_mul_of_pos_left gb he
    have hnn : ¬ ((forUp 20 (retInit q pwE ty) (fun s _ => retStep q F s)).tiic < 0) := by
      rw [gt]; intro h; linarith
    have hF' : eps < F := hF
    have hrt : r.tii = q.tii - q.etaVe * g ∧ r.pc = q.P + q.kdt * q.sind * g := by
      show (plastic q pwE eps tmin ty).tii = _ ∧ (plastic q pwE eps tmin ty).pc = _
      simp only [plastic, ← hFd, hF', if_true, hnn, if_false]
      exact ⟨gt, gpc⟩
    have hstrict : r.tii < C * cosf + r.pc * q.sinf := by
      rw [hrt.1, hrt.2]
      have e1 : C * cosf + (q.P + q.kdt * q.sind * g) * q.sinf = ty + D * g := by rw [hty, hDd]; ring
      rw [e1]
      have : F < (q.etaVe + D) * g := by rw [← hg0F]; exact mul_lt_mul_of_pos_left ga hden
      linarith
    refine ⟨⟨?_, fun h => absurd h hacc⟩, hstrict.le, ?_, ?_⟩
    · intro h
      unfold OnYield at h
      rw [zero_mul, add_zero] at h
      exact absurd h hstrict.ne
    · rw [hrt.1]; have := mul_pos he (lt_trans hg0p ga); linarith
    · rw [hrt.1]; linarith

/-- With a visco-plastic exponent other than one the strength is accumulated over the passes: with
`n_vp = 1/2` (so that the visco-plastic viscosity is proportional to the plastic rate), no dilation
and a tight tolerance, the loop stops at a stress that exceeds strength plus overstress by more than a
quarter of the trial overstress. -/
theorem plastic_exponent_misses :
    ∃ (q : RetPar ℚ) (E ty : ℚ), q.sind = 0 ∧ q.nvp = 1 / 2 ∧ (∀ x, q.pw x = x) ∧ 0 < q.etaVe ∧ 0 < q.etaVp0
      ∧ 0 < ty ∧ 0 < E ∧ q.tol = 1 / 10000
      ∧ (q.tii - ty) / 4 < (plastic q E 0 0 ty).tii
          - (ty + (plastic q E 0 0 ty).etaVp * (plastic q E 0 0 ty).gdot) :=
  ⟨⟨2, 1, 1, fun x => x, 1 / 2, 0, 1, 0, 0, 1 / 10000⟩, 1, 1, rfl, rfl, fun _ => rfl, by norm_num, by norm_num,
    by norm_num, by norm_num, rfl, by decide +kernel⟩

/-- The hypotheses of `plastic_partial` and of `plastic_dilation_iff` are met; in the second case the
first guess is not accepted. -/
example : ∃ q : RetPar ℚ, (∀ x, q.pw x = 1) ∧ q.sind = 0 ∧ 0 < q.etaVe ∧ 0 < q.etaVp0 ∧ 0 < q.tol
    ∧ 0 < q.tii - yieldStress 1 (1 / 2) (1 / 2) q.P 10 ∧ (plastic q 1 0 (1 / 10) (3 / 2)).tii = 5 / 2 :=
  ⟨⟨7 / 2, 1, 1, fun _ => 1, 1, 2, 1, 1 / 2, 0, 1 / 1000⟩, fun _ => rfl, rfl, by norm_num, by norm_num, by norm_num,
    by norm_num [yieldStress], by decide +kernel⟩

example : ∃ q : RetPar ℚ, q.etaVp0 = 0 ∧ 0 < q.etaVe ∧ 0 < q.kdt * q.sinf * q.sind
    ∧ 0 < q.tii - (1 * (1 / 2) + q.P * q.sinf) ∧ q.tol = 1 / 1000000
    ∧ (plastic q 1 0 (1 / 10) (3 / 2)).tii < 1 * (1 / 2) + (plastic q 1 0 (1 / 10) (3 / 2)).pc * q.sinf :=
  ⟨⟨7 / 2, 1, 0, fun _ => 1, 1, 2, 4, 1 / 2, 1 / 2, 1 / 1000000⟩, rfl, by norm_num, by norm_num, by norm_num, rfl,
    by decide +kernel⟩

/-! ### C53 -/

/-- The limiter's result is within the cut-offs, leaves admissible viscosities alone, and brings the
others to the cut-off they violate. -/
theorem limiter_spec (lo hi eta : K) (h : lo ≤ hi) :
    lo ≤ limiter lo hi eta ∧ limiter lo hi eta ≤ hi ∧ (lo ≤ eta → eta ≤ hi → limiter lo hi eta = eta)
    ∧ (eta ≤ lo → limiter lo hi eta = lo) ∧ (hi ≤ eta → limiter lo hi eta = hi) := by
  unfold limiter
  simp only
  refine ⟨?_, ?_, ?_, ?_, ?_⟩
  · split_ifs <;> linarith
  · split_ifs <;> linarith
  · intro h1 h2
    rw [if_neg (not_lt.2 h2), if_neg (not_lt.2 h1)]
  · intro h1
    split_ifs <;> first | rfl | linarith
  · intro h1
    split_ifs <;> first | rfl | linarith

/-- A phase sum that skips phases without a noticeable fraction is the full sum. -/
theorem phase_sum (minf : K) (h0 : 0 ≤ minf) (n : Nat) (w g : Nat → K) (hw : ∀ p < n, w p = 0 ∨ minf < w p) :
    forUp n (0 : K) (fun s p => if minf < |w p| then s + w p * g p else s) = ∑ p ∈ Finset.range n, w p * g p := by
  induction n with
  | zero => rfl
  | succ n ih =>
    rw [forUp_succ, ih (fun p hp => hw p (by omega)), Finset.sum_range_succ]
    rcases hw n (by omega) with h | h
    · simp [h, not_lt.2 h0]
    · rw [abs_of_nonneg (by linarith), if_pos h]

theorem weighted_bounds (n : Nat) (w x : Nat → K) (lo hi : K) (hw : ∀ p < n, 0 ≤ w p)
    (ht : ∑ p ∈ Finset.range n, w p = 1) (hx : ∀ p < n, lo ≤ x p ∧ x p ≤ hi) :
    lo ≤ ∑ p ∈ Finset.range n, w p * x p ∧ ∑ p ∈ Finset.range n, w p * x p ≤ hi := by
  constructor
  · calc lo = ∑ p ∈ Finset.range n, w p * lo := by rw [← Finset.sum_mul, ht, one_mul]
      _ ≤ _ := Finset.sum_le_sum fun p hp =>
        mul_le_mul_of_nonneg_left (hx p (Finset.mem_range.1 hp)).1 (hw p (Finset.mem_range.1 hp))
  · calc _ ≤ ∑ p ∈ Finset.range n, w p * hi := Finset.sum_le_sum fun p hp =>
        mul_le_mul_of_nonneg_left (hx p (Finset.mem_range.1 hp)).2 (hw p (Finset.mem_range.1 hp))
      _ = hi := by rw [← Finset.sum_mul, ht, one_mul]

/-! ### C55 -/

/-- The elastic part added to the strain rate is the one whose transversely isotropic stress, with the
elastic viscosity, is the old stress.  `d1`, `d2` may be averages of director functions: all that is
used is that the pair lies in the disk spanned by unit directors (`director_disk`, `disk_convex` in
Props/Anisotropy). -/
theorem effective_inverts (e T : K × K × K) (d1 d2 a eta : K) (hd : DirectorPair d1 d2) (ha : a < 1)
    (heta : eta ≠ 0) :
    let E := effective e T d1 d2 a eta
    transverse eta a d1 d2 (E.1 - e.1, E.2.1 - e.2.1, E.2.2 - e.2.2) = T := by
  intro E
  obtain ⟨T1, T2, T3⟩ := T
  have ha' : 0 < 1 - a := by linarith
  simp only [transverse, E, effective]
  set D11 := 2 - 2 * a * d1 with h11
  obtain ⟨u, hu⟩ : ∃ u, u = D11 * ((1 + 2 * a * (d1 - 1 / 2)) * D11 - (2 * a * d2) ^ 2)
      + 2 * a * d1 * (-2 * a * d2 * (2 * a * d2) - (1 + 2 * a * (d1 - 1 / 2)) * (2 * a * d1))
      + -2 * a * d2 * (2 * a * d1 * (2 * a * d2) - -2 * a * d2 * D11) := ⟨_, rfl⟩
  have hdet : u = 4 * (1 - a) + 16 * a ^ 2 * (d1 / 2 * (1 - 2 * d1) - d2 ^ 2) := by
    rw [hu, h11]; ring
  have hu0 : u ≠ 0 := by
    rw [hdet]
    have h1 : 0 ≤ d1 / 2 * (1 - 2 * d1) - d2 ^ 2 := sub_nonneg.2 hd
    have h2 := mul_nonneg (mul_nonneg (by norm_num : (0 : K) ≤ 16) (sq_nonneg a)) h1
    have : 0 < 4 * (1 - a) + 16 * a ^ 2 * (d1 / 2 * (1 - 2 * d1) - d2 ^ 2) := by linarith
    exact this.ne'
  rw [← hu]
  refine Prod.ext_iff.2 ⟨?_, Prod.ext_iff.2 ⟨?_, ?_⟩⟩ <;> simp only []
  · field_simp
    linear_combination (-T1) * hu
  · field_simp
    linear_combination (-T2) * hu
  · field_simp
    linear_combination (-T3) * hu

/-- With no anisotropy the elastic part is the old stress over twice the elastic viscosity. -/
theorem effective_isotropic (e T : K × K × K) (d1 d2 eta : K) :
    effective e T d1 d2 0 eta
      = (e.1 + T.1 / (2 * eta), e.2.1 + T.2.1 / (2 * eta), e.2.2 + T.2.2 / (2 * eta)) := by
  simp only [effective]
  norm_num
  refine ⟨?_, ?_, ?_⟩ <;> ring

end

/-- With onset at zero strain the softened value depends continuously on strain. -/
theorem softenLinear_continuous (v0 v1 s1 : ℝ) (h : 0 < s1) : Continuous (softenLinear true v0 v1 0 s1) := by
  have : softenLinear true v0 v1 0 s1 = fun s => v0 + (v1 - v0) * (max 0 (min s s1) / s1) :=
    funext fun s => softenLinear_zero v0 v1 s1 s h
  rw [this]
  fun_prop

/-- A positive onset makes it discontinuous. -/
theorem softenLinear_discontinuous (v0 v1 s0 s1 : ℝ) (h0 : 0 < s0) (h : s0 < s1) (hv : v0 ≠ v1) :
    ¬ Continuous (softenLinear true v0 v1 s0 s1) := by
  intro hc
  have hj := softenLinear_jump v0 v1 s0 s1 h
  have hcl : IsClosed {s | softenLinear true v0 v1 s0 s1 s = v0} := isClosed_eq hc continuous_const
  have hsub : Set.Iio s0 ⊆ {s | softenLinear true v0 v1 s0 s1 s = v0} := fun s hs =>
    (softenLinear_ends v0 v1 s0 s1 h).1 s hs
  have hmem : s0 ∈ closure (Set.Iio s0) := by rw [closure_Iio]; exact Set.mem_Iic.2 le_rfl
  have : softenLinear true v0 v1 s0 s1 s0 = v0 := hcl.closure_subset_iff.2 hsub hmem
  rw [this, sub_self] at hj
  have hd : (0 : ℝ) < s1 - s0 := by linarith
  have := mul_ne_zero (sub_ne_zero.2 (Ne.symm hv)) (div_pos h0 hd).ne'
  exact this hj.symm

/-- The hypotheses on `erfc` are met by a concrete sigmoid. -/
example : ∃ e : ℝ → ℝ, Antitone e ∧ (∀ x, e x < 2) ∧ e (-1) ≠ e 1 :=
  ⟨fun x => if x < 0 then 3 / 2 else 1 / 2, by
    intro x y hxy
    by_cases h1 : x < 0 <;> by_cases h2 : y < 0 <;> simp only [h1, h2, if_true, if_false] <;> norm_num
    exact h1 (lt_of_le_of_lt hxy h2), by
    intro x; simp only; split <;> norm_num, by norm_num⟩

/-- Mixed viscosity under each rule: bounded by smallest and largest phase viscosity, and
harmonic <= geometric <= arithmetic.  Partial: a phase present with a fraction at most `minf` (1e-13 in
the code) is dropped without renormalising, see `averages_tiny_fraction`; `averages_any` bounds the
effect. -/
theorem averages_partial (minf : ℝ) (h0 : 0 ≤ minf) (n : Nat) (w eta : Nat → ℝ) (hm : Mixture n w eta)
    (hw : ∀ p < n, w p = 0 ∨ minf < w p) :
    (∀ lo hi, (∀ p < n, lo ≤ eta p ∧ eta p ≤ hi) → 0 < lo →
      (lo ≤ avgHarm minf n w eta ∧ avgHarm minf n w eta ≤ hi)
      ∧ (lo ≤ avgGeom minf n w eta ∧ avgGeom minf n w eta ≤ hi)
      ∧ (lo ≤ avgArith minf n w eta ∧ avgArith minf n w eta ≤ hi))
    ∧ avgHarm minf n w eta ≤ avgGeom minf n w eta ∧ avgGeom minf n w eta ≤ avgArith minf n w eta := by
  have ea : avgArith minf n w eta = ∑ p ∈ Finset.range n, w p * eta p := phase_sum minf h0 n w eta hw
  have eg : avgGeom minf n w eta = Real.exp (∑ p ∈ Finset.range n, w p * Real.log (eta p)) := by
    unfold avgGeom; rw [phase_sum minf h0 n w (fun p => Real.log (eta p)) hw]
  have eh : avgHarm minf n w eta = 1 / ∑ p ∈ Finset.range n, w p * (1 / eta p) := by
    unfold avgHarm
    rw [← phase_sum minf h0 n w (fun p => 1 / eta p) hw]
    simp only [mul_div_assoc]
  have key : ∀ x : Nat → ℝ, (∀ p < n, 0 < x p) →
      0 < ∑ p ∈ Finset.range n, w p * x p
      ∧ ∑ p ∈ Finset.range n, w p * Real.log (x p) ≤ Real.log (∑ p ∈ Finset.range n, w p * x p) := by
    intro x hx
    have hA : 0 < ∑ p ∈ Finset.range n, w p * x p := by
      apply Finset.sum_pos'
      · intro p hp; exact mul_nonneg (hm.frac p (Finset.mem_range.1 hp)) (hx p (Finset.mem_range.1 hp)).le
      · by_contra hne
        have : ∑ p ∈ Finset.range n, w p = 0 := by
          apply Finset.sum_eq_zero
          intro p hp
          by_contra hwp
          exact hne ⟨p, hp, mul_pos (lt_of_le_of_ne (hm.frac p (Finset.mem_range.1 hp)) (Ne.symm hwp))
            (hx p (Finset.mem_range.1 hp))⟩
        rw [hm.total] at this; norm_num at this
    refine ⟨hA, ?_⟩
    set A := ∑ p ∈ Finset.range n, w p * x p with hAd
    have h1 : ∑ p ∈ Finset.range n, w p * Real.log (x p)
        ≤ ∑ p ∈ Finset.range n, (w p * Real.log A + (w p * x p / A - w p)) := by
      apply Finset.sum_le_sum
      intro p hp
      have hxp := hx p (Finset.mem_range.1 hp)
      have := Real.log_le_sub_one_of_pos (div_pos hxp hA)
      rw [Real.log_div hxp.ne' hA.ne'] at this
      have h2 := mul_le_mul_of_nonneg_left this (hm.frac p (Finset.mem_range.1 hp))
      have h3 : w p * (x p / A - 1) = w p * x p / A - w p := by ring
      rw [h3] at h2
      linarith
    have h2 : ∑ p ∈ Finset.range n, (w p * Real.log A + (w p * x p / A - w p)) = Real.log A := by
      rw [Finset.sum_add_distrib, Finset.sum_sub_distrib, ← Finset.sum_mul, ← Finset.sum_div, hm.total, ← hAd,
        div_self hA.ne']
      ring
    linarith
  refine ⟨?_, ?_, ?_⟩
  · intro lo hi hb hlo
    refine ⟨?_, ?_, ?_⟩
    · rw [eh]
      have hb' : ∀ p < n, 1 / hi ≤ 1 / eta p ∧ 1 / eta p ≤ 1 / lo := fun p hp =>
        ⟨one_div_le_one_div_of_le (hm.pos p hp) (hb p hp).2, one_div_le_one_div_of_le hlo (hb p hp).1⟩
      have := weighted_bounds n w (fun p => 1 / eta p) (1 / hi) (1 / lo) hm.frac hm.total hb'
      have hpos := (key (fun p => 1 / eta p) (fun p hp => one_div_pos.2 (hm.pos p hp))).1
      have hhi : 0 < hi := by
        rcases Nat.eq_zero_or_pos n with hn | hn
        · have := hm.total; rw [hn] at this; simp at this
        · exact lt_of_lt_of_le (hm.pos 0 hn) (hb 0 hn).2
      constructor
      · rw [le_one_div hlo hpos]; exact this.2
      · rw [one_div_le hpos hhi]; exact this.1
    · rw [eg]
      have hhi : 0 < hi := by
        rcases Nat.eq_zero_or_pos n with hn | hn
        · have := hm.total; rw [hn] at this; simp at this
        · exact lt_of_lt_of_le (hm.pos 0 hn) (hb 0 hn).2
      have := weighted_bounds n w (fun p => Real.log (eta p)) (Real.log lo) (Real.log hi) hm.frac hm.total
        (fun p hp => ⟨Real.log_le_log hlo (hb p hp).1, Real.log_le_log (hm.pos p hp) (hb p hp).2⟩)
      constructor
      · rw [← Real.exp_log hlo]; exact Real.exp_le_exp.2 this.1
      · rw [← Real.exp_log hhi]; exact Real.exp_le_exp.2 this.2
    · rw [ea]; exact weighted_bounds n w eta lo hi hm.frac hm.total hb
  · rw [eh, eg]
    obtain ⟨hp, hl⟩ := key (fun p => 1 / eta p) (fun p hp => one_div_pos.2 (hm.pos p hp))
    have hneg : ∑ p ∈ Finset.range n, w p * Real.log (1 / eta p) = -∑ p ∈ Finset.range n, w p * Real.log (eta p) := by
      rw [← Finset.sum_neg_distrib]
      apply Finset.sum_congr rfl
      intro p _
      rw [one_div, Real.log_inv]; ring
    simp only [hneg] at hl
    rw [one_div, ← Real.exp_log (inv_pos.2 hp), Real.log_inv]
    exact Real.exp_le_exp.2 (by linarith)
  · rw [eg, ea]
    obtain ⟨hp, hl⟩ := key eta hm.pos
    rw [← Real.exp_log hp]
    exact Real.exp_le_exp.2 hl

/-- Fractions at most `minf` are dropped and nothing is renormalised: a mixture of two phases of the
same viscosity then gets a smaller arithmetic and a larger harmonic viscosity than either phase. -/
theorem averages_tiny_fraction (minf : ℝ) (h0 : 0 < minf) (h1 : minf < 1 / 2) :
    ∃ w eta : Nat → ℝ, Mixture 2 w eta ∧ (∀ p, eta p = 1)
      ∧ avgArith minf 2 w eta < 1 ∧ 1 < avgHarm minf 2 w eta := by
  have e0 : |1 - minf| = 1 - minf := abs_of_pos (by linarith)
  have e1 : |minf| = minf := abs_of_pos h0
  have h2 : minf < 1 - minf := by linarith
  refine ⟨fun p => if p = 0 then 1 - minf else minf, fun _ => 1, ⟨?_, ?_, ?_⟩, fun _ => rfl, ?_, ?_⟩
  · intro p _; split <;> linarith
  · norm_num [Finset.sum_range_succ]
  · intro p _; norm_num
  · have : avgArith minf 2 (fun p => if p = 0 then 1 - minf else minf) (fun _ => 1) = 1 - minf := by
      simp [avgArith, forUp, e0, e1, h2]
    rw [this]; linarith
  · have : avgHarm minf 2 (fun p => if p = 0 then 1 - minf else minf) (fun _ => 1) = 1 / (1 - minf) := by
      simp [avgHarm, forUp, e0, e1, h2]
    rw [this, one_lt_div (by linarith)]; linarith

/-- Whatever the fractions, the arithmetic and the harmonic average leave the range of the phase
viscosities by at most the factor `1 - n * minf`. -/
theorem averages_any (minf : ℝ) (h0 : 0 ≤ minf) (n : Nat) (w eta : Nat → ℝ) (hm : Mixture n w eta)
    (hn : n * minf < 1) (lo hi : ℝ) (hb : ∀ p < n, lo ≤ eta p ∧ eta p ≤ hi) (hlo : 0 < lo) :
    ((1 - n * minf) * lo ≤ avgArith minf n w eta ∧ avgArith minf n w eta ≤ hi)
    ∧ (lo ≤ avgHarm minf n w eta ∧ (1 - n * minf) * avgHarm minf n w eta ≤ hi) := by
  have hhi : 0 < hi := by
    rcases Nat.eq_zero_or_pos n with h | h
    · have := hm.total; rw [h] at this; simp at this
    · exact lt_of_lt_of_le (hm.pos 0 h) (hb 0 h).2
  have key : ∀ (g : Nat → ℝ) (a b : ℝ), 0 ≤ a → 0 ≤ b → (∀ p < n, a ≤ g p ∧ g p ≤ b) →
      (1 - n * minf) * a ≤ forUp n (0 : ℝ) (fun s p => if minf < |w p| then s + w p * g p else s)
      ∧ forUp n (0 : ℝ) (fun s p => if minf < |w p| then s + w p * g p else s) ≤ b := by
    intro g a b ha hbb hg
    have hx : ∀ m ≤ n, (∑ p ∈ Finset.range m, w p - m * minf) * a
          ≤ forUp m (0 : ℝ) (fun s p => if minf < |w p| then s + w p * g p else s)
        ∧ forUp m (0 : ℝ) (fun s p => if minf < |w p| then s + w p * g p else s)
          ≤ (∑ p ∈ Finset.range m, w p) * b := by
      intro m
      induction m with
      | zero => intro _; simp [forUp]
      | succ m ih =>
        intro hmn
        obtain ⟨i1, i2⟩ := ih (by omega)
        have hwm := hm.frac m (by omega)
        obtain ⟨g1, g2⟩ := hg m (by omega)
        rw [forUp_succ, Finset.sum_range_succ, abs_of_nonneg hwm]
        generalize forUp m (0 : ℝ) (fun s p => if minf < |w p| then s + w p * g p else s) = S at *
        push_cast
        split
        · constructor
          · nlinarith [mul_le_mul_of_nonneg_left g1 hwm, mul_nonneg h0 ha]
          · nlinarith [mul_le_mul_of_nonneg_left g2 hwm]
        · next hle =>
          constructor
          · nlinarith [mul_le_mul_of_nonneg_right (not_lt.1 hle) ha]
          · nlinarith [mul_nonneg hwm hbb]
    have := hx n le_rfl
    rwa [hm.total, one_mul] at this
  refine ⟨key eta lo hi hlo.le hhi.le hb, ?_⟩
  have hb' : ∀ p < n, 1 / hi ≤ 1 / eta p ∧ 1 / eta p ≤ 1 / lo := fun p hp =>
    ⟨one_div_le_one_div_of_le (hm.pos p hp) (hb p hp).2, one_div_le_one_div_of_le hlo (hb p hp).1⟩
  obtain ⟨k1, k2⟩ := key (fun p => 1 / eta p) (1 / hi) (1 / lo) (by positivity) (by positivity) hb'
  have eh : avgHarm minf n w eta
      = 1 / forUp n (0 : ℝ) (fun s p => if minf < |w p| then s + w p * (1 / eta p) else s) := by
    unfold avgHarm; simp only [mul_div_assoc]
  rw [eh]
  generalize forUp n (0 : ℝ) (fun s p => if minf < |w p| then s + w p * (1 / eta p) else s) = S at *
  have hc : 0 < 1 - n * minf := by linarith
  have hS : 0 < S := lt_of_lt_of_le (mul_pos hc (one_div_pos.2 hhi)) k1
  constructor
  · rw [le_one_div hlo hS]; exact k2
  · rw [mul_one_div, div_le_iff₀ hS]
    have := mul_le_mul_of_nonneg_right k1 hhi.le
    rw [mul_assoc, one_div_mul_cancel hhi.ne', mul_one] at this
    linarith

/-- Non-vacuity: a two-phase mixture. -/
example : Mixture 2 (fun p => if p = 0 then (1 / 4 : ℝ) else 3 / 4) (fun p => (p : ℝ) + 1)
    ∧ ∀ p < 2, (fun p : Nat => if p = 0 then (1 / 4 : ℝ) else 3 / 4) p = 0
        ∨ (1 / 10 : ℝ) < (fun p : Nat => if p = 0 then (1 / 4 : ℝ) else 3 / 4) p := by
  refine ⟨⟨?_, ?_, ?_⟩, ?_⟩
  · intro p _; split <;> norm_num
  · norm_num [Finset.sum_range_succ]
  · intro p _; positivity
  · intro p _; right; simp only; split <;> norm_num

end Verif.Rheo
