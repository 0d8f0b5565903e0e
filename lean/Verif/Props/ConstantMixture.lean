import Verif.Props.ViscGridStress

/-
C149: a material of constant viscosity mixed with another.
-/
namespace Verif.Point
open Verif Verif.Spec

/-- The mean the user chose with `eta_avg` (0 arithmetic, 1 harmonic, 2 geometric). -/
def Chosen (v : Env) (a : Mean) : Prop :=
  v.avg = (match a with | .arithmetic => 0 | .harmonic => 1 | .geometric => 2)

/-- Fractions and viscosities of the two members. -/
def members (x : ℝ) (p : Nat) : ℝ := if p = 0 then x else 1 - x
/-- See `members`. -/
def memberEta (e1 e2 : ℝ) (p : Nat) : ℝ := if p = 0 then e1 else e2

private theorem mixture_viscosity (v : Env) (m : Mat) (a : Mean) (x e2 : ℝ) (hmix : v.mixing = true) (hm : m.mixWith = some e2)
    (ha : Chosen v a) (h1 : 0 < m.eta0) (h2 : 0 < e2) :
    constantViscosity v m x = mean a 2 (members x) (memberEta m.eta0 e2) := by
  unfold constantViscosity
  unfold Chosen at ha
  rw [hmix, if_pos rfl, hm]
  dsimp only
  cases a <;> simp only at ha <;> rw [ha] <;> simp only [mean, Finset.sum_range_succ, Finset.prod_range_succ, Finset.sum_range_zero,
    Finset.prod_range_zero, members, memberEta, if_true, zero_add, one_mul, Nat.one_ne_zero, if_false] <;> norm_num
  rw [Real.exp_add, Real.rpow_def_of_pos h1, Real.rpow_def_of_pos h2, mul_comm x, mul_comm (1 - x)]

private theorem two_between (a : Mean) (x e1 e2 lo hi : ℝ) (hX : 0 ≤ x ∧ x ≤ 1) (hlo : 0 < lo) (h1 : lo ≤ e1 ∧ e1 ≤ hi) (h2 : lo ≤ e2 ∧ e2 ≤ hi) :
    lo ≤ mean a 2 (members x) (memberEta e1 e2) ∧ mean a 2 (members x) (memberEta e1 e2) ≤ hi := by
  have p1 : 0 < e1 := lt_of_lt_of_le hlo h1.1
  have p2 : 0 < e2 := lt_of_lt_of_le hlo h2.1
  have p3 : 0 < hi := lt_of_lt_of_le p1 h1.2
  have hy : 0 ≤ 1 - x := by linarith [hX.2]
  cases a <;> simp only [mean, Finset.sum_range_succ, Finset.prod_range_succ, Finset.sum_range_zero,
    Finset.prod_range_zero, members, memberEta, if_true, zero_add, one_mul, Nat.one_ne_zero, if_false]
  · constructor <;> nlinarith [mul_nonneg hX.1 (sub_nonneg.2 h1.1), mul_nonneg hX.1 (sub_nonneg.2 h1.2), mul_nonneg hy (sub_nonneg.2 h2.1),
      mul_nonneg hy (sub_nonneg.2 h2.2)]
  · have b1 : x / e1 + (1 - x) / e2 ≤ 1 / lo := by
      calc x / e1 + (1 - x) / e2 ≤ x / lo + (1 - x) / lo :=
            add_le_add (div_le_div_of_nonneg_left hX.1 hlo h1.1) (div_le_div_of_nonneg_left hy hlo h2.1)
        _ = 1 / lo := by ring
    have b2 : 1 / hi ≤ x / e1 + (1 - x) / e2 := by
      calc 1 / hi = x / hi + (1 - x) / hi := by ring
        _ ≤ _ := add_le_add (div_le_div_of_nonneg_left hX.1 p1 h1.2) (div_le_div_of_nonneg_left hy p2 h2.2)
    have b3 : 0 < x / e1 + (1 - x) / e2 := lt_of_lt_of_le (by positivity) b2
    rw [inv_eq_one_div]
    exact ⟨(le_div_comm₀ b3 hlo).1 b1, (div_le_comm₀ p3 b3).1 b2⟩
  · have e : ∀ y : ℝ, 0 < y → y ^ x * y ^ (1 - x) = y := fun y hy0 => by
      rw [← Real.rpow_add hy0, add_sub_cancel, Real.rpow_one]
    constructor
    · calc lo = lo ^ x * lo ^ (1 - x) := (e lo hlo).symm
        _ ≤ _ := mul_le_mul (Real.rpow_le_rpow hlo.le h1.1 hX.1) (Real.rpow_le_rpow hlo.le h2.1 hy) (by positivity) (by positivity)
    · calc _ ≤ hi ^ x * hi ^ (1 - x) := mul_le_mul (Real.rpow_le_rpow p1.le h1.2 hX.1) (Real.rpow_le_rpow p2.le h2.2 hy) (by positivity) (by positivity)
        _ = hi := e hi p3

/-- C149.  **A mixture of two constant viscosities has the chosen mean of the two**: a material that only creeps at constant viscosity and is declared a mixture
with a second one deforms at the arithmetic, harmonic or geometric mean of both viscosities weighted by its fraction; it is the first at
fraction one, the second at fraction zero, and never leaves the two.  The reported rate of this mechanism is the stress over twice that viscosity. -/
theorem mixture_is_mean (v : Env) (m : Mat) (a : Mean) (huet : ℝ × ℝ → ℝ × ℝ) (i : In) (cell : Bool) (e2 : ℝ) (hmix : v.mixing = true)
    (hm : m.mixWith = some e2) (ha : Chosen v a) (hel : v.el = false) (hcst : m.cst = true) (hpwl : m.pwl = false) (hexp : m.exp = false)
    (hlin : m.lin = false) (hgbs : m.gbs = false) (hpl : m.plast = false) (h1 : 0 < m.eta0) (h2 : 0 < e2) (hX : 0 ≤ i.X0 ∧ i.X0 ≤ 1)
    (hlo : v.minEta ≤ m.eta0 ∧ v.minEta ≤ e2) (hhi : m.eta0 ≤ v.maxEta ∧ e2 ≤ v.maxEta) (hbig : v.maxEta ≤ 10 ^ 100 / v.sEta)
    (hE : 1 / 10 ^ 30 ≤ invariant i.E * v.sE) (hsE : 0 < v.sE) :
    ∃ o, update v m huet i cell = .ok o
      ∧ o.etaVE = mean a 2 (members i.X0) (memberEta m.eta0 e2)
      ∧ o.T = nodeStress o.etaVE i.E ∧ o.eIIcst = invariant i.E
      ∧ min m.eta0 e2 ≤ o.etaVE ∧ o.etaVE ≤ max m.eta0 e2
      ∧ (i.X0 = 1 → o.etaVE = m.eta0) ∧ (i.X0 = 0 → o.etaVE = e2) := by
  obtain ⟨x, hx⟩ : ∃ x, x = mean a 2 (members i.X0) (memberEta m.eta0 e2) := ⟨_, rfl⟩
  have hb := two_between a i.X0 m.eta0 e2 (min m.eta0 e2) (max m.eta0 e2) hX (lt_min h1 h2) ⟨min_le_left _ _, le_max_left _ _⟩
    ⟨min_le_right _ _, le_max_right _ _⟩
  rw [← hx] at hb
  have hx0 : 0 < x := lt_of_lt_of_le (lt_min h1 h2) hb.1
  have hxlo : v.minEta ≤ x := le_trans (le_min hlo.1 hlo.2) hb.1
  have hxhi : x ≤ v.maxEta := le_trans hb.2 (max_le hhi.1 hhi.2)
  have hc : constantViscosity v m i.X0 = x := by rw [hx]; exact mixture_viscosity v m a i.X0 e2 hmix hm ha h1 h2
  have hrate : rate v i.E = invariant i.E := by
    unfold rate
    rw [if_neg (not_lt.2 hE)]
  have hI : 0 < invariant i.E := by
    have : 0 < invariant i.E * v.sE := lt_of_lt_of_le (by positivity) hE
    exact (pos_iff_pos_of_mul_pos this).2 hsE
  have hcr : creep v m huet i
      = { el := none, cst := some x, pwl := none, exp := none, lin := none, gbs := none, d := i.d } := by
    unfold creep
    simp [hel, hcst, hpwl, hexp, hlin, hgbs, hc]
  have hrun : LocalIter.run (creep v m huet i) (rate v i.E) (1 / 10 ^ 11) (10 ^ 100 / v.sEta) = .ok x (2 * x * invariant i.E) := by
    rw [hcr, hrate]
    unfold LocalIter.run
    have hg : LocalIter.guess { el := none, cst := some x, pwl := none, exp := none, lin := none, gbs := none, d := i.d }
        (invariant i.E) (10 ^ 100 / v.sEta) = x := by
      unfold LocalIter.guess LocalIter.isolated
      simp only [Option.toList_some, Option.toList_none, List.map_nil, List.append_nil, List.nil_append,
        List.foldl_cons, List.foldl_nil]
      exact min_eq_right (le_trans hxhi hbig)
    have hres : LocalIter.residual { el := none, cst := some x, pwl := none, exp := none, lin := none, gbs := none, d := i.d }
        (invariant i.E) x = 0 := by
      unfold LocalIter.residual LocalIter.elasticRate LocalIter.rates
      simp only [Option.toList_some, Option.toList_none, List.map_nil, List.map_cons, List.append_nil,
        List.sum_cons, List.sum_nil, add_zero, sub_zero]
      field_simp
      norm_num
    rw [hg, LocalIter.solve, hres]
    rw [zero_div, abs_zero, if_pos (by positivity)]
  have hy : ∀ E y t, yielding v m i E y t = ⟨t, i.P, 0, m.etaVp, false⟩ := by
    intro E y t; unfold yielding; simp [hpl]
  have hinv : ∀ t, dissInverse m (creep v m huet i) ⟨t, i.P, 0, m.etaVp, false⟩ t = 1 / x := by
    intro t
    unfold dissInverse inverse
    rw [hcr]
    simp [powerInv, linInv, cstInv]
  unfold update
  rw [if_neg (by simp [hlin])]
  dsimp only
  rw [hrun]
  simp only [finish, hy, hinv]
  rw [if_neg (by simp), if_neg (by
    rintro ⟨_, h⟩
    have : 0 < 2 * x * invariant i.E * (2 * x * invariant i.E) * (1 / x) := by positivity
    linarith)]
  have hlim : Rheo.limiter v.minEta v.maxEta (effViscosity ⟨2 * x * invariant i.E, i.P, 0, m.etaVp, false⟩ (rate v i.E) x) = x := by
    simp only [effViscosity, Bool.false_eq_true, if_false, Rheo.limiter]
    rw [if_neg (not_lt.2 hxhi), if_neg (not_lt.2 hxlo)]
  refine ⟨_, rfl, ?_⟩
  dsimp only
  rw [hlim]
  refine ⟨hx, ?_, ?_, hb.1, hb.2, fun h => ?_, fun h => ?_⟩
  · simp [effViscosity, nodeStress]
  · rw [hcr]
    simp only [cstRate]
    field_simp
  · rw [hx, h]
    cases a <;> simp [mean, Finset.sum_range_succ, Finset.prod_range_succ, members, memberEta]
  · rw [hx, h]
    cases a <;> simp [mean, Finset.sum_range_succ, Finset.prod_range_succ, members, memberEta]

/-- A mixture of `1e21` and `1e23` with the geometric mean, a quarter of the first. -/
example : ∃ o, update { settings false with mixing := true, avg := 2 } { viscous (10 ^ 21) with mixWith := some (10 ^ 23) } id
      { node (1 / 10 ^ 14) 0 with X0 := 1 / 4 } true = .ok o
    ∧ o.etaVE = mean .geometric 2 (members (1 / 4)) (memberEta (10 ^ 21) (10 ^ 23)) ∧ o.etaVE ≤ 10 ^ 23 := by
  obtain ⟨o, h1, h2, -, -, -, h3, -⟩ := mixture_is_mean { settings false with mixing := true, avg := 2 }
    { viscous (10 ^ 21) with mixWith := some (10 ^ 23) } .geometric id { node (1 / 10 ^ 14) 0 with X0 := 1 / 4 } true (10 ^ 23) rfl rfl rfl rfl rfl rfl rfl
    rfl rfl rfl (by simp [viscous]) (by norm_num) (by norm_num) (by simp only [settings, viscous]; norm_num) (by simp only [settings, viscous]; norm_num)
    (by simp only [settings]; norm_num) (by
      have := node_rate false (1 / 10 ^ 14) 0 (by norm_num)
      unfold rate at this
      split at this
      · simp only [settings] at this; norm_num at this
      · next h => exact not_lt.1 h) (by simp [settings])
  refine ⟨o, h1, h2, le_trans h3 ?_⟩
  simp only [viscous]
  norm_num

end Verif.Point
