import Verif.Spec.ViscGrid
import Verif.Props.PointLaw
import Mathlib.Analysis.SpecialFunctions.Log.Basic
import Mathlib.Analysis.SpecialFunctions.Pow.Real

/-!
C122, C123: viscosity, stress and heat at cells and vertices.
-/
namespace Verif.Point
open Verif Verif.Spec

theorem limiter_within (v : Env) (hlim : v.minEta ≤ v.maxEta) (x : ℝ) :
    v.minEta ≤ Rheo.limiter v.minEta v.maxEta x ∧ Rheo.limiter v.minEta v.maxEta x ≤ v.maxEta := by
  unfold Rheo.limiter
  dsimp only
  split <;> split <;> constructor <;> linarith

/-- Whatever the state of the node, the viscosities of a phase are within the limits; the grain size is that of the
material. -/
theorem update_limits (v : Env) (m : Mat) (huet : ℝ × ℝ → ℝ × ℝ) (i : In) (cell : Bool) (hlim : v.minEta ≤ v.maxEta)
    (o : Out) (hr : update v m huet i cell = .ok o) :
    v.minEta ≤ o.etaVE ∧ o.etaVE ≤ v.maxEta ∧ v.minEta ≤ o.eta ∧ o.eta ≤ v.maxEta ∧ o.d1 = m.gsRef := by
  unfold update at hr
  split at hr
  · exact absurd hr (by simp)
  dsimp only at hr
  split at hr
  · exact absurd hr (by simp)
  · exact absurd hr (by simp)
  unfold finish at hr
  dsimp only at hr
  split at hr
  · exact absurd hr (by simp)
  split at hr
  · exact absurd hr (by simp)
  simp only [Res.ok.injEq] at hr
  rw [← hr]
  refine ⟨(limiter_within v hlim _).1, (limiter_within v hlim _).2, ?_, ?_, rfl⟩
  · simp only
    split
    · exact hlim
    · exact (limiter_within v hlim _).1
  · simp only
    split
    · exact le_rfl
    · exact (limiter_within v hlim _).2

theorem update_codes (v : Env) (m : Mat) (huet : ℝ × ℝ → ℝ × ℝ) (i : In) (cell : Bool) (c : Nat)
    (hr : update v m huet i cell = .exit c) : c = 0 ∨ c = 1 := by
  unfold update at hr
  split at hr
  · simp only [Res.exit.injEq] at hr; exact Or.inr hr.symm
  dsimp only at hr
  split at hr
  · simp only [Res.exit.injEq] at hr; exact Or.inl hr.symm
  · exact absurd hr (by simp)
  unfold finish at hr
  dsimp only at hr
  split at hr
  · exact absurd hr (by simp)
  split at hr
  · simp only [Res.exit.injEq] at hr; exact Or.inr hr.symm
  · exact absurd hr (by simp)

/-- The sums of the loop on phases. -/
noncomputable def sums (a : Mean) (n : Nat) (w : Nat → ℝ) (o : Nat → Out) : Stored where
  eta := ∑ p ∈ Finset.range n, a.term (w p) (o p).etaVE
  etaPhys := ∑ p ∈ Finset.range n, a.term (w p) (o p).eta
  T := ⟨0, 0, 0⟩
  eIIel := share n w fun p => (o p).eIIel
  eIIpl := share n w fun p => (o p).eIIpl
  eIIcst := share n w fun p => (o p).eIIcst
  eIIpwl := share n w fun p => (o p).eIIpwl
  eIIexp := share n w fun p => (o p).eIIexp
  eIIlin := share n w fun p => (o p).eIIlin
  eIIgbs := share n w fun p => (o p).eIIgbs
  d := ∑ p ∈ Finset.range n, w p * 1 / (o p).d1
  pcorr := share n w fun p => (o p).pcorr
  divEl := share n w fun p => (o p).divEl
  divPl := share n w fun p => (o p).divPl
  wTot := share n w fun p => (o p).wTot
  wEl := share n w fun p => (o p).wEl
  wDiss := share n w fun p => (o p).wDiss
  overS := share n w fun p => (o p).overS

theorem term_zero (a : Mean) (x : ℝ) : a.term 0 x = 0 := by
  cases a <;> simp [Mean.term]

theorem loop_sums (a : Mean) (w : Nat → ℝ) (r : Nat → Res) (o : Nat → Out) (n : Nat)
    (hw : ∀ p < n, w p = 0 ∨ 1 / 10 ^ 13 < w p) (hr : ∀ p < n, 0 < w p → r p = .ok (o p)) :
    forUp n (.ok Stored.zero) (phaseStep a w r) = .ok (sums a n w o) := by
  induction n with
  | zero => simp [sums, Stored.zero, share, forUp]
  | succ n ih =>
    rw [forUp_succ, ih (fun p hp => hw p (by omega)) (fun p hp => hr p (by omega))]
    have hpos : (0 : ℝ) < 1 / 10 ^ 13 := by positivity
    rcases hw n (by omega) with h | h
    · simp only [phaseStep, h, abs_zero, not_lt.2 hpos.le, if_false]
      simp [sums, share, Finset.sum_range_succ, h, term_zero]
    · have h0 : 0 < w n := lt_trans hpos h
      simp only [phaseStep, abs_of_pos h0, h, if_true, hr n (by omega) h0]
      simp [addPhase, sums, share, Finset.sum_range_succ]

theorem close_mean (a : Mean) (n : Nat) (w x : Nat → ℝ) (hx : ∀ p < n, w p = 0 ∨ 0 < x p) :
    a.close (∑ p ∈ Finset.range n, a.term (w p) (x p)) = mean a n w x := by
  cases a with
  | arithmetic => rfl
  | harmonic => simp [Mean.close, Mean.term, mean]
  | geometric =>
    simp only [Mean.close, Mean.term, mean]
    rw [Real.exp_sum]
    refine Finset.prod_congr rfl fun p hp => ?_
    rcases hx p (Finset.mem_range.1 hp) with h | h
    · simp [h]
    · rw [Real.rpow_def_of_pos h, mul_comm]

theorem sum_bounds (n : Nat) (w x : Nat → ℝ) (lo hi : ℝ) (hw : Composition n w)
    (hx : ∀ p < n, 0 < w p → lo ≤ x p ∧ x p ≤ hi) :
    lo ≤ ∑ p ∈ Finset.range n, w p * x p ∧ ∑ p ∈ Finset.range n, w p * x p ≤ hi := by
  have hpos : (0 : ℝ) < 1 / 10 ^ 13 := by positivity
  have key : ∀ p ∈ Finset.range n, w p * lo ≤ w p * x p ∧ w p * x p ≤ w p * hi := by
    intro p hp
    rcases hw.each p (Finset.mem_range.1 hp) with h | h
    · simp [h]
    · have h0 : 0 < w p := lt_trans hpos h
      have := hx p (Finset.mem_range.1 hp) h0
      exact ⟨mul_le_mul_of_nonneg_left this.1 h0.le, mul_le_mul_of_nonneg_left this.2 h0.le⟩
  constructor
  · calc lo = ∑ p ∈ Finset.range n, w p * lo := by rw [← Finset.sum_mul, hw.total, one_mul]
      _ ≤ _ := Finset.sum_le_sum fun p hp => (key p hp).1
  · calc _ ≤ ∑ p ∈ Finset.range n, w p * hi := Finset.sum_le_sum fun p hp => (key p hp).2
      _ = hi := by rw [← Finset.sum_mul, hw.total, one_mul]

/-- A mean lies between the smallest and the largest value of the phases that are present. -/
theorem mean_between (a : Mean) (n : Nat) (w x : Nat → ℝ) (lo hi : ℝ) (hw : Composition n w) (hlo : 0 < lo)
    (hx : ∀ p < n, 0 < w p → lo ≤ x p ∧ x p ≤ hi) : lo ≤ mean a n w x ∧ mean a n w x ≤ hi := by
  have hpos : (0 : ℝ) < 1 / 10 ^ 13 := by positivity
  have hxp : ∀ p < n, w p = 0 ∨ 0 < x p := by
    intro p hp
    rcases hw.each p hp with h | h
    · exact Or.inl h
    · exact Or.inr (lt_of_lt_of_le hlo (hx p hp (lt_trans hpos h)).1)
  have hhi : 0 < hi := by
    by_contra hcon
    have hz : ∀ p ∈ Finset.range n, w p = 0 := by
      intro p hp
      rcases hw.each p (Finset.mem_range.1 hp) with h | h
      · exact h
      · have := hx p (Finset.mem_range.1 hp) (lt_trans hpos h); linarith [not_lt.1 hcon]
    have := hw.total
    rw [Finset.sum_eq_zero hz] at this
    exact zero_ne_one this
  cases a with
  | arithmetic => exact sum_bounds n w x lo hi hw hx
  | harmonic =>
    have := sum_bounds n w (fun p => 1 / x p) (1 / hi) (1 / lo) hw (fun p hp h0 => by
      have h := hx p hp h0
      exact ⟨one_div_le_one_div_of_le (lt_of_lt_of_le hlo h.1) h.2, one_div_le_one_div_of_le hlo h.1⟩)
    simp only [mean]
    have e : ∑ p ∈ Finset.range n, w p / x p = ∑ p ∈ Finset.range n, w p * (1 / x p) :=
      Finset.sum_congr rfl fun p _ => by ring
    rw [e]
    have h1 : (0 : ℝ) < 1 / hi := by positivity
    constructor
    · have := one_div_le_one_div_of_le (lt_of_lt_of_le h1 this.1) this.2
      rwa [one_div_one_div, one_div] at this
    · have := one_div_le_one_div_of_le h1 this.1
      rwa [one_div_one_div, one_div] at this
  | geometric =>
    rw [← close_mean .geometric n w x hxp]
    simp only [Mean.close, Mean.term]
    have := sum_bounds n w (fun p => Real.log (x p)) (Real.log lo) (Real.log hi) hw (fun p hp h0 => by
      have h := hx p hp h0
      exact ⟨Real.log_le_log hlo h.1, Real.log_le_log (lt_of_lt_of_le hlo h.1) h.2⟩)
    constructor
    · calc lo = Real.exp (Real.log lo) := (Real.exp_log hlo).symm
        _ ≤ _ := Real.exp_le_exp.2 this.1
    · calc _ ≤ Real.exp (Real.log hi) := Real.exp_le_exp.2 this.2
        _ = hi := Real.exp_log hhi

/-! ### C122 -/

/-- A cell of rock in which every phase present could be updated: viscosities are the chosen mean of those of the phases, the
stress is twice the viscosity times the effective strain rate, everything else is the average by fractions (the grain size the
harmonic one), and the viscosities are within the limits of the user. -/
theorem cell_update (v : Env) (a : Mean) (n : Nat) (m : Nat → Mat) (huet : Nat → ℝ × ℝ → ℝ × ℝ) (k : Node)
    (hair : k.air = false) (hw : Composition n k.w) (hmin : 0 < v.minEta) (hlim : v.minEta ≤ v.maxEta)
    (hgs : ∀ p < n, 0 < (m p).gsRef) (o : Nat → Out)
    (ho : ∀ p < n, 0 < k.w p → update v (m p) (huet p) (k.input v) true = .ok (o p)) :
    ∃ s, cellNode v a n m huet k = .ok s
      ∧ s.eta = mean a n k.w (fun p => (o p).etaVE) ∧ s.etaPhys = mean a n k.w (fun p => (o p).eta)
      ∧ s.T = nodeStress s.eta (k.eff v)
      ∧ s.eIIel = share n k.w (fun p => (o p).eIIel) ∧ s.eIIpl = share n k.w (fun p => (o p).eIIpl)
      ∧ s.eIIcst = share n k.w (fun p => (o p).eIIcst) ∧ s.eIIpwl = share n k.w (fun p => (o p).eIIpwl)
      ∧ s.eIIexp = share n k.w (fun p => (o p).eIIexp) ∧ s.eIIlin = share n k.w (fun p => (o p).eIIlin)
      ∧ s.eIIgbs = share n k.w (fun p => (o p).eIIgbs)
      ∧ s.d = mean .harmonic n k.w (fun p => (m p).gsRef)
      ∧ s.pcorr = share n k.w (fun p => (o p).pcorr) ∧ s.divEl = share n k.w (fun p => (o p).divEl)
      ∧ s.divPl = share n k.w (fun p => (o p).divPl) ∧ s.wTot = share n k.w (fun p => (o p).wTot)
      ∧ s.wEl = share n k.w (fun p => (o p).wEl) ∧ s.wDiss = share n k.w (fun p => (o p).wDiss)
      ∧ s.overS = share n k.w (fun p => (o p).overS)
      ∧ v.minEta ≤ s.eta ∧ s.eta ≤ v.maxEta ∧ v.minEta ≤ s.etaPhys ∧ s.etaPhys ≤ v.maxEta := by
  have hpos : (0 : ℝ) < 1 / 10 ^ 13 := by positivity
  have hlims := fun p (hp : p < n) (h0 : 0 < k.w p) => update_limits v (m p) (huet p) (k.input v) true hlim (o p) (ho p hp h0)
  have hsign : ∀ p < n, k.w p = 0 ∨ 0 < k.w p := fun p hp =>
    (hw.each p hp).imp id fun h => lt_trans hpos h
  have b1 := mean_between a n k.w (fun p => (o p).etaVE) v.minEta v.maxEta hw hmin
    fun p hp h0 => ⟨(hlims p hp h0).1, (hlims p hp h0).2.1⟩
  have b2 := mean_between a n k.w (fun p => (o p).eta) v.minEta v.maxEta hw hmin
    fun p hp h0 => ⟨(hlims p hp h0).2.2.1, (hlims p hp h0).2.2.2.1⟩
  have c1 := close_mean a n k.w (fun p => (o p).etaVE) fun p hp =>
    (hsign p hp).imp id fun h0 => lt_of_lt_of_le hmin (hlims p hp h0).1
  have c2 := close_mean a n k.w (fun p => (o p).eta) fun p hp =>
    (hsign p hp).imp id fun h0 => lt_of_lt_of_le hmin (hlims p hp h0).2.2.1
  have hd : ∑ p ∈ Finset.range n, k.w p * 1 / (o p).d1 = ∑ p ∈ Finset.range n, k.w p / (m p).gsRef := by
    refine Finset.sum_congr rfl fun p hp => ?_
    rcases hsign p (Finset.mem_range.1 hp) with h | h
    · simp [h]
    · rw [(hlims p (Finset.mem_range.1 hp) h).2.2.2.2, mul_one]
  have hd0 : 0 < ∑ p ∈ Finset.range n, k.w p / (m p).gsRef := by
    apply Finset.sum_pos'
    · intro p hp
      rcases hsign p (Finset.mem_range.1 hp) with h | h
      · simp [h]
      · exact (div_pos h (hgs p (Finset.mem_range.1 hp))).le
    · by_contra hcon
      push Not at hcon
      have hz : ∀ p ∈ Finset.range n, k.w p = 0 := by
        intro p hp
        rcases hsign p (Finset.mem_range.1 hp) with h | h
        · exact h
        · exact absurd (hcon p hp) (not_le.2 (div_pos h (hgs p (Finset.mem_range.1 hp))))
      have := hw.total
      rw [Finset.sum_eq_zero hz] at this
      exact zero_ne_one this
  have hcell : cellNode v a n m huet k = closeCell a (k.eff v) (sums a n k.w o) := by
    unfold cellNode
    rw [hair, loop_sums a k.w _ o n hw.each ho]
    simp
  have hne : ¬ (a.isHarmonic = true ∧ (sums a n k.w o).etaPhys = 0) := by
    rintro ⟨h1, h2⟩
    cases a with
    | harmonic =>
      simp only [sums] at h2
      rw [h2] at c2
      rw [← c2] at b2
      simp only [Mean.close, div_zero] at b2
      linarith [b2.1]
    | arithmetic => simp [Mean.isHarmonic] at h1
    | geometric => simp [Mean.isHarmonic] at h1
  rw [hcell]
  unfold closeCell
  rw [if_neg (by simp only [sums]; rw [hd]; exact hd0.ne'), if_neg hne]
  refine ⟨_, rfl, c1, c2, rfl, rfl, rfl, rfl, rfl, rfl, rfl, rfl, ?_, rfl, rfl, rfl, rfl, rfl, rfl, rfl, ?_, ?_, ?_, ?_⟩
  · simp only [sums, hd, mean, one_div]
  · simp only [sums, c1]; exact b1.1
  · simp only [sums, c1]; exact b1.2
  · simp only [sums, c2]; exact b2.1
  · simp only [sums, c2]; exact b2.2

/-- The same at a vertex of rock; nothing but viscosities and stress is stored. -/
theorem vertex_update (v : Env) (a : Mean) (n : Nat) (m : Nat → Mat) (huet : Nat → ℝ × ℝ → ℝ × ℝ) (k : Node)
    (hair : k.air = false) (hw : Composition n k.w) (hmin : 0 < v.minEta) (hlim : v.minEta ≤ v.maxEta) (o : Nat → Out)
    (ho : ∀ p < n, 0 < k.w p → update v (m p) (huet p) (k.input v) false = .ok (o p)) :
    ∃ s, vertexNode v a n m huet k = .ok s
      ∧ s.eta = mean a n k.w (fun p => (o p).etaVE) ∧ s.etaPhys = mean a n k.w (fun p => (o p).eta)
      ∧ s.T = nodeStress s.eta (k.eff v)
      ∧ v.minEta ≤ s.eta ∧ s.eta ≤ v.maxEta ∧ v.minEta ≤ s.etaPhys ∧ s.etaPhys ≤ v.maxEta := by
  have hpos : (0 : ℝ) < 1 / 10 ^ 13 := by positivity
  have hlims := fun p (hp : p < n) (h0 : 0 < k.w p) => update_limits v (m p) (huet p) (k.input v) false hlim (o p) (ho p hp h0)
  have hsign : ∀ p < n, k.w p = 0 ∨ 0 < k.w p := fun p hp =>
    (hw.each p hp).imp id fun h => lt_trans hpos h
  have b1 := mean_between a n k.w (fun p => (o p).etaVE) v.minEta v.maxEta hw hmin
    fun p hp h0 => ⟨(hlims p hp h0).1, (hlims p hp h0).2.1⟩
  have b2 := mean_between a n k.w (fun p => (o p).eta) v.minEta v.maxEta hw hmin
    fun p hp h0 => ⟨(hlims p hp h0).2.2.1, (hlims p hp h0).2.2.2.1⟩
  have c1 := close_mean a n k.w (fun p => (o p).etaVE) fun p hp =>
    (hsign p hp).imp id fun h0 => lt_of_lt_of_le hmin (hlims p hp h0).1
  have c2 := close_mean a n k.w (fun p => (o p).eta) fun p hp =>
    (hsign p hp).imp id fun h0 => lt_of_lt_of_le hmin (hlims p hp h0).2.2.1
  have hcell : vertexNode v a n m huet k = closeVertex a (k.eff v) (sums a n k.w o) := by
    unfold vertexNode
    rw [hair, loop_sums a k.w _ o n hw.each ho]
    simp
  have hne : ¬ (a.isHarmonic = true ∧ (sums a n k.w o).etaPhys = 0) := by
    rintro ⟨h1, h2⟩
    cases a with
    | harmonic =>
      simp only [sums] at h2
      rw [h2] at c2
      rw [← c2] at b2
      simp only [Mean.close, div_zero] at b2
      linarith [b2.1]
    | arithmetic => simp [Mean.isHarmonic] at h1
    | geometric => simp [Mean.isHarmonic] at h1
  rw [hcell]
  unfold closeVertex
  rw [if_neg hne]
  refine ⟨_, rfl, c1, c2, rfl, ?_, ?_, ?_, ?_⟩
  · simp only [sums, c1]; exact b1.1
  · simp only [sums, c1]; exact b1.2
  · simp only [sums, c2]; exact b2.1
  · simp only [sums, c2]; exact b2.2

end Verif.Point
