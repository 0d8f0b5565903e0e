import Verif.Props.LocalConv
import Verif.Props.PointLaw
import Verif.Props.PointLawFaults
import Verif.Spec.GrainIter
import Mathlib.Analysis.SpecialFunctions.Pow.Deriv

/-!
C139: phases whose grain size follows the flow.
-/
namespace Verif.LocalIter
open Verif.Spec

theorem S_deriv (L : List (ℝ × ℝ)) (hL : ∀ q ∈ L, 0 < q.1 ∧ 1 ≤ q.2) (eta : ℝ) (he : 0 < eta) :
    HasDerivAt (S L) (N L eta / eta) eta := by
  induction L with
  | nil =>
    have h : S [] = fun _ => (0 : ℝ) := by funext x; simp [S]
    have h' : N [] eta / eta = 0 := by simp [N]
    rw [h, h']
    exact hasDerivAt_const eta (0 : ℝ)
  | cons q L ih =>
    have ih' := ih fun q hq => hL q (List.mem_cons_of_mem _ hq)
    obtain ⟨hA, hn⟩ := hL q (List.mem_cons_self ..)
    have h1 : HasDerivAt (fun x : ℝ => (x / q.1) ^ q.2) (1 / q.1 * q.2 * (eta / q.1) ^ (q.2 - 1)) eta :=
      ((hasDerivAt_id eta).div_const q.1).rpow_const (Or.inr hn)
    have h2 := h1.add ih'
    have h3 : (eta / q.1) ^ q.2 = (eta / q.1) ^ (q.2 - 1) * (eta / q.1) := by
      rw [← Real.rpow_add_one (div_pos he hA).ne']; congr 1; ring
    have h4 : 1 / q.1 * q.2 * (eta / q.1) ^ (q.2 - 1) + N L eta / eta = N (q :: L) eta / eta := by
      simp only [N, List.map_cons, List.sum_cons]
      rw [h3]; field_simp
    rw [h4] at h2
    exact h2

/-- The derivative used by the local iterations is that of the residual. -/
theorem slope_is_derivative (c : Creep) (hc : Physical c) (E eta : ℝ) (hE : 0 < E) (he : 0 < eta) :
    HasDerivAt (residual c E) (slope c E eta) eta := by
  have h := ((S_deriv _ (laws_ok c hc E hE) eta he).const_sub 1).const_mul E
  have h2 : E * -(N (laws c E) eta / eta) = slope c E eta := by
    rw [slope_N c hc E eta hE he]; ring
  rw [h2] at h
  refine h.congr_of_eventuallyEq ?_
  filter_upwards [lt_mem_nhds he] with x hx
  exact residual_S c hc E x hE hx

theorem S_strictMono (L : List (ℝ × ℝ)) (hL : ∀ q ∈ L, 0 < q.1 ∧ 1 ≤ q.2) (hne : L ≠ []) (x y : ℝ) (hx : 0 < x) (hxy : x < y) :
    S L x < S L y := by
  have hS := S_pos L hL hne x hx
  have hN := N_ge_S L hL x hx
  have hT := S_tangent L hL y x (hx.trans hxy) hx
  have : 0 < y / x - 1 := by rw [sub_pos, one_lt_div hx]; exact hxy
  have := mul_pos this (lt_of_lt_of_le hS hN)
  linarith

end Verif.LocalIter

namespace Verif.Point
open Verif Verif.Spec

variable (g : Gse) (q : ℝ × ℝ) (c : LocalIter.Creep) (E eta : ℝ)

/-- Exponent of the grain size in the rate of diffusion creep over that of the balance. -/
noncomputable def share (g : Gse) (m : ℝ) : ℝ := m / (g.p + 1)

noncomputable def flowConst (g : Gse) (q : ℝ × ℝ) : ℝ := g.Bg * LocalIter.pref q.1 q.2 * g.p / g.Ag

/-- Diffusion creep with the grain size eliminated: a power law in stress. -/
noncomputable def effLin (g : Gse) (q : ℝ × ℝ) (l : ℝ × ℝ × ℝ) : ℝ × ℝ × ℝ :=
  let n := l.2.1 + share g l.2.2 * (q.2 + 1)
  ((LocalIter.pref l.1 l.2.1 * flowConst g q ^ share g l.2.2) ^ (-1 / n) / 2, n, 0)

noncomputable def eff (c : LocalIter.Creep) (g : Gse) (q : ℝ × ℝ) : LocalIter.Creep :=
  { c with pwl := some q, d := 1, lin := c.lin.map (effLin g q) }

variable {g q c E eta}

theorem Bg_pos (hg : GoodGse g) : 0 < g.Bg := div_pos hg.lam (mul_pos hg.c hg.gam)

theorem pref_pos {B n : ℝ} (hB : 0 < B) : 0 < LocalIter.pref B n := by unfold LocalIter.pref; positivity

theorem flowConst_pos (hg : GoodGse g) (hq : 0 < q.1) : 0 < flowConst g q :=
  div_pos (mul_pos (mul_pos (Bg_pos hg) (pref_pos hq)) hg.p) hg.Ag

/-- The grain size as a function of stress. -/
theorem grainAt_eq (hE : 0 < E) (he : 0 < eta) :
    grainAt g q E eta = (flowConst g q * (2 * eta * E) ^ (q.2 + 1)) ^ (-1 / (g.p + 1)) := by
  unfold grainAt flowConst pwlRate
  congr 1
  rw [Real.rpow_add_one (by positivity)]
  ring

theorem grainAt_pos (hg : GoodGse g) (hq : 0 < q.1) (hE : 0 < E) (he : 0 < eta) : 0 < grainAt g q E eta := by
  rw [grainAt_eq hE he]
  have := flowConst_pos hg hq
  positivity

/-- The grain size is in balance with the flow. -/
theorem grainAt_wattmeter (hg : GoodGse g) (hq : 0 < q.1) (hE : 0 < E) (he : 0 < eta) :
    Wattmeter g (2 * eta * E) (pwlRate q E eta) (grainAt g q E eta) := by
  unfold Wattmeter
  have hd := grainAt_pos hg hq hE he
  have hA := hg.Ag
  have hp := hg.p
  have hB := Bg_pos hg
  have hw : 0 < pwlRate q E eta := by unfold pwlRate; exact mul_pos (pref_pos hq) (by positivity)
  have hx : 0 < 2 * g.Bg * E * pwlRate q E eta * eta * g.p / g.Ag := by positivity
  -- d^(1-p) = d^(-(p+1)) d^2
  have h1 : grainAt g q E eta ^ (1 - g.p) = grainAt g q E eta ^ (-(g.p + 1)) * grainAt g q E eta ^ (2 : ℝ) := by
    rw [← Real.rpow_add hd]; congr 1; ring
  have h2 : grainAt g q E eta ^ (-(g.p + 1)) = 2 * g.Bg * E * pwlRate q E eta * eta * g.p / g.Ag := by
    unfold grainAt
    rw [← Real.rpow_mul hx.le]
    have : -1 / (g.p + 1) * -(g.p + 1) = 1 := by field_simp
    rw [this, Real.rpow_one]
  rw [h1, h2]
  have : g.lam / (g.c * g.gam) = g.Bg := rfl
  rw [this]
  field_simp

theorem effLin_ok (hg : GoodGse g) (hq : 0 < q.1 ∧ 1 ≤ q.2) {l : ℝ × ℝ × ℝ} (hl : 0 < l.1 ∧ 1 ≤ l.2.1) (hm : 0 ≤ l.2.2) :
    0 < (effLin g q l).1 ∧ 1 ≤ (effLin g q l).2.1 := by
  have h1 := flowConst_pos hg hq.1
  have h2 : 0 < LocalIter.pref l.1 l.2.1 := pref_pos hl.1
  have h3 : 0 ≤ share g l.2.2 := div_nonneg hm (by linarith [hg.p])
  refine ⟨by unfold effLin; positivity, ?_⟩
  unfold effLin
  have := mul_nonneg h3 (by linarith [hq.2] : 0 ≤ q.2 + 1)
  dsimp only
  linarith [hl.2]

/-- Meaningful parameters of a phase with evolving grain size. -/
structure GoodGrain (c : LocalIter.Creep) (g : Gse) (q : ℝ × ℝ) : Prop where
  phys : Physical c
  g : GoodGse g
  q : 0 < q.1 ∧ 1 ≤ q.2
  m : ∀ l ∈ c.lin, 0 ≤ l.2.2

theorem GoodGrain.atGrain (h : GoodGrain c g q) (hE : 0 < E) (he : 0 < eta) : Physical (atGrain c g q E eta) :=
  ⟨h.phys.el, h.phys.cst, fun x hx => by
      have : x = q := by simpa [Point.atGrain] using hx.symm
      rw [this]; exact h.q, h.phys.exp, h.phys.lin, h.phys.gbs, grainAt_pos h.g h.q.1 hE he⟩

theorem GoodGrain.eff (h : GoodGrain c g q) : Physical (eff c g q) :=
  ⟨h.phys.el, h.phys.cst, fun x hx => by
      have : x = q := by simpa [Point.eff] using hx.symm
      rw [this]; exact h.q, h.phys.exp, fun x hx => by
      simp only [Point.eff, Option.mem_def, Option.map_eq_some_iff] at hx
      obtain ⟨l, hl, rfl⟩ := hx
      exact effLin_ok h.g h.q (h.phys.lin l hl) (h.m l hl), h.phys.gbs, one_pos⟩

/-- Diffusion creep at the grain size of the flow is the effective power law. -/
theorem lin_eff (hg : GoodGse g) (hq : 0 < q.1 ∧ 1 ≤ q.2) {l : ℝ × ℝ × ℝ} (hl : 0 < l.1 ∧ 1 ≤ l.2.1) (hm : 0 ≤ l.2.2)
    (hE : 0 < E) (he : 0 < eta) :
    LocalIter.pref l.1 l.2.1 * (2 * eta * E) ^ l.2.1 * grainAt g q E eta ^ (-l.2.2)
      = LocalIter.pref (effLin g q l).1 (effLin g q l).2.1 * (2 * eta * E) ^ (effLin g q l).2.1 := by
  have ht : 0 < 2 * eta * E := by positivity
  have hK := flowConst_pos hg hq.1
  have hn := (effLin_ok hg hq hl hm).2
  have hP : 0 < LocalIter.pref l.1 l.2.1 := pref_pos hl.1
  rw [grainAt_eq hE he, ← Real.rpow_mul (by positivity)]
  have e1 : -1 / (g.p + 1) * -l.2.2 = share g l.2.2 := by unfold share; ring
  rw [e1, Real.mul_rpow hK.le (by positivity), ← Real.rpow_mul ht.le]
  have e2 : LocalIter.pref (effLin g q l).1 (effLin g q l).2.1 = LocalIter.pref l.1 l.2.1 * flowConst g q ^ share g l.2.2 := by
    have hX : 0 < LocalIter.pref l.1 l.2.1 * flowConst g q ^ share g l.2.2 := by positivity
    have e3 : 2 * (effLin g q l).1
        = (LocalIter.pref l.1 l.2.1 * flowConst g q ^ share g l.2.2) ^ (-1 / (effLin g q l).2.1) := by
      unfold effLin; dsimp only; ring
    rw [LocalIter.pref, e3, ← Real.rpow_mul hX.le]
    have : -1 / (effLin g q l).2.1 * -(effLin g q l).2.1 = 1 := by field_simp
    rw [this, Real.rpow_one]
  rw [e2]
  have e4 : (effLin g q l).2.1 = l.2.1 + (q.2 + 1) * share g l.2.2 := by unfold effLin; dsimp only; ring
  rw [e4, Real.rpow_add ht]
  ring

theorem grainSlope_eq (hg : GoodGse g) (hq : 0 < q.1) (hE : 0 < E) (he : 0 < eta) :
    grainSlope g q E eta = -grainAt g q E eta * (q.2 + 1) / (eta * (g.p + 1)) := by
  unfold grainSlope
  dsimp only
  have hC : 0 < LocalIter.pref q.1 q.2 := pref_pos hq
  have hA := hg.Ag
  have hp := hg.p
  have hB := Bg_pos hg
  have hr : (2 * E * eta) ^ (-q.2) * (2 * E * eta) ^ q.2 = 1 := by
    rw [← Real.rpow_add (by positivity)]; simp
  have hz : 0 < (2 * E * eta) ^ q.2 := by positivity
  have hr' : (2 * E * eta) ^ (-q.2) = 1 / (2 * E * eta) ^ q.2 := by
    rw [eq_div_iff hz.ne']; exact hr
  rw [hr']
  field_simp

theorem residual_eff (h : GoodGrain c g q) (hE : 0 < E) (he : 0 < eta) :
    LocalIter.residual (atGrain c g q E eta) E eta = LocalIter.residual (eff c g q) E eta := by
  unfold LocalIter.residual LocalIter.elasticRate LocalIter.rates atGrain eff
  dsimp only
  congr 3
  cases hl : c.lin with
  | none => rfl
  | some l =>
    simp only [Option.map_some, Option.toList_some, List.map_cons, List.map_nil, Real.one_rpow, mul_one]
    rw [lin_eff h.g h.q (h.phys.lin l hl) (h.m l hl) hE he]

theorem slope_eff (h : GoodGrain c g q) (hE : 0 < E) (he : 0 < eta) :
    LocalIter.slope (atGrain c g q E eta) E eta + grainTerm c g q E eta = LocalIter.slope (eff c g q) E eta := by
  unfold LocalIter.slope atGrain eff grainTerm
  dsimp only
  cases hl : c.lin with
  | none => simp
  | some l =>
    simp only [Option.map_some, Option.toList_some, List.map_cons, List.map_nil, Real.one_rpow, mul_one, List.sum_cons, List.sum_nil,
      add_zero]
    rw [← lin_eff h.g h.q (h.phys.lin l hl) (h.m l hl) hE he, grainSlope_eq h.g h.q.1 hE he]
    have hd := grainAt_pos h.g h.q.1 hE he
    have hp := h.g.p
    have e4 : (effLin g q l).2.1 = l.2.1 + l.2.2 / (g.p + 1) * (q.2 + 1) := rfl
    rw [e4]
    field_simp
    ring

/-- From the third pass on the iterations use the derivative of the residual, with the change of the grain size. -/
theorem grain_slope_is_derivative (h : GoodGrain c g q) (hE : 0 < E) (he : 0 < eta) :
    HasDerivAt (fun x => LocalIter.residual (atGrain c g q E x) E x)
      (LocalIter.slope (atGrain c g q E eta) E eta + grainTerm c g q E eta) eta := by
  rw [slope_eff h hE he]
  refine (LocalIter.slope_is_derivative _ h.eff E eta hE he).congr_of_eventuallyEq ?_
  filter_upwards [lt_mem_nhds he] with x hx
  exact residual_eff h hE hx

/-- At most one viscosity balances the strain rates with the grain size in balance as well. -/
theorem grain_unique (h : GoodGrain c g q) (hE : 0 < E) (x y : ℝ) (hx : 0 < x) (hy : 0 < y)
    (h1 : LocalIter.residual (atGrain c g q E x) E x = 0) (h2 : LocalIter.residual (atGrain c g q E y) E y = 0) : x = y := by
  rw [residual_eff h hE hx, LocalIter.residual_S _ h.eff E x hE hx] at h1
  rw [residual_eff h hE hy, LocalIter.residual_S _ h.eff E y hE hy] at h2
  have h3 : LocalIter.S (LocalIter.laws (eff c g q) E) x = 1 := by
    rcases mul_eq_zero.1 h1 with h | h <;> linarith
  have h4 : LocalIter.S (LocalIter.laws (eff c g q) E) y = 1 := by
    rcases mul_eq_zero.1 h2 with h | h <;> linarith
  have hne := LocalIter.laws_ne (eff c g q) E (Or.inr (Or.inr (Or.inl rfl)))
  have hL := LocalIter.laws_ok _ h.eff E hE
  rcases lt_trichotomy x y with hlt | heq | hlt
  · have := LocalIter.S_strictMono _ hL hne x y hx hlt; linarith
  · exact heq
  · have := LocalIter.S_strictMono _ hL hne y x hy hlt; linarith

/-- The iterations: viscosity and grain size stay positive, there is no division by zero, and a result has the strain rates in
balance and the grain size in balance with the stress returned. -/
theorem grain_iterations (h : GoodGrain c g q) (tol : ℝ) (hE : 0 < E) (ht : 0 < tol) (ht2 : tol ≤ 1 / 2) :
    ∀ (n : Nat) (eta tii d : ℝ), 0 < eta → 0 < tii →
      (n = 0 → 0 < d ∧ |E - flowWithoutGbs { c with pwl := some q, d := d } tii| ≤ tol * E
        ∧ Wattmeter g tii (LocalIter.pref q.1 q.2 * tii ^ q.2) d ∧ |2 * eta * E - tii| ≤ 2 * tol * tii) →
      grainSolve c g q E tol n eta tii d = .failed ∨ ∃ e t d', grainSolve c g q E tol n eta tii d = .ok e t d'
        ∧ 0 < e ∧ 0 < t ∧ 0 < d' ∧ |E - flowWithoutGbs { c with pwl := some q, d := d' } t| ≤ tol * E
        ∧ Wattmeter g t (LocalIter.pref q.1 q.2 * t ^ q.2) d' ∧ |2 * e * E - t| ≤ 2 * tol * t := by
  intro n
  induction n with
  | zero =>
    intro eta tii d he htii hz
    obtain ⟨h1, h2, h3, h4⟩ := hz rfl
    exact Or.inr ⟨eta, tii, d, rfl, he, htii, h1, h2, h3, h4⟩
  | succ n ih =>
    intro eta tii d he _ _
    have hph := h.atGrain hE he
    have hres : LocalIter.residual (atGrain c g q E eta) E eta
        = E - flowWithoutGbs { c with pwl := some q, d := grainAt g q E eta } (2 * eta * E) := by
      have h := LocalIter.rates_flow _ hph (2 * eta * E) (by positivity)
      have h' : flowWithoutGbs (atGrain c g q E eta) (2 * eta * E)
        = flowWithoutGbs { c with pwl := some q, d := grainAt g q E eta } (2 * eta * E) := rfl
      rw [← h', ← h, LocalIter.residual]; ring
    have habs : |LocalIter.residual (atGrain c g q E eta) E eta / E|
        = |E - flowWithoutGbs { c with pwl := some q, d := grainAt g q E eta } (2 * eta * E)| / E := by
      rw [hres, abs_div, abs_of_pos hE]
    have hd := grainAt_pos h.g h.q.1 hE he
    have hw : Wattmeter g (2 * eta * E) (LocalIter.pref q.1 q.2 * (2 * eta * E) ^ q.2) (grainAt g q E eta) :=
      grainAt_wattmeter h.g h.q.1 hE he
    obtain ⟨s, hs⟩ : ∃ s, s = LocalIter.slope (atGrain c g q E eta) E eta
      + (if 1 < 20 - (n + 1) then grainTerm c g q E eta else 0) := ⟨_, rfl⟩
    have hstep : s ≠ 0 ∧ 0 < eta - LocalIter.residual (atGrain c g q E eta) E eta / s := by
      by_cases hn : 1 < 20 - (n + 1)
      · rw [if_pos hn, slope_eff h hE he] at hs
        rw [hs, residual_eff h hE he]
        have := LocalIter.newton _ h.eff E eta hE he (LocalIter.laws_ne (eff c g q) E (Or.inr (Or.inr (Or.inl rfl))))
        exact ⟨this.1, this.2.1⟩
      · rw [if_neg hn, add_zero] at hs
        rw [hs]
        have := LocalIter.newton _ hph E eta hE he (LocalIter.laws_ne (atGrain c g q E eta) E (Or.inr (Or.inr (Or.inl rfl))))
        exact ⟨this.1, this.2.1⟩
    rw [grainSolve, ← hs]
    split
    · next hlt =>
      right
      refine ⟨eta, 2 * eta * E, _, rfl, he, by positivity, hd, ?_, hw, by rw [sub_self, abs_zero]; positivity⟩
      rw [habs, div_lt_iff₀ hE] at hlt
      have : tol / 100 * E ≤ tol * E := by nlinarith [mul_pos ht hE]
      linarith
    · next hge =>
      split
      · exact Or.inl rfl
      · next hnot =>
        rw [if_neg hstep.1]
        have hlast : ∀ hn : n = 0, |2 * (eta - LocalIter.residual (atGrain c g q E eta) E eta / s) * E - 2 * eta * E|
            ≤ 2 * tol * (2 * eta * E) := by
          rintro rfl
          have hle : ¬ tol < |LocalIter.residual (atGrain c g q E eta) E eta / E| := fun h => hnot ⟨rfl, h⟩
          rw [if_pos (by norm_num), slope_eff h hE he] at hs
          rw [hs, residual_eff h hE he]
          rw [residual_eff h hE he] at hle
          have hL := LocalIter.laws_ok _ h.eff E hE
          have hN := LocalIter.N_ge_S _ hL eta he
          rw [LocalIter.residual_S _ h.eff E eta hE he] at hle ⊢
          rw [LocalIter.slope_N _ h.eff E eta hE he]
          generalize LocalIter.laws (Point.eff c g q) E = L at *
          rw [mul_div_cancel_left₀ _ hE.ne', not_lt] at hle
          have hS : 1 / 2 ≤ LocalIter.S L eta := by have := (abs_le.1 hle).2; linarith
          have hNp : 0 < LocalIter.N L eta := by linarith
          have hx : 2 * (eta - E * (1 - LocalIter.S L eta) / (-(E / eta) * LocalIter.N L eta)) * E - 2 * eta * E
              = 2 * eta * E * ((1 - LocalIter.S L eta) / LocalIter.N L eta) := by field_simp; ring
          rw [hx, abs_mul, abs_of_pos (by positivity : 0 < 2 * eta * E), abs_div, abs_of_pos hNp]
          have : |1 - LocalIter.S L eta| / LocalIter.N L eta ≤ 2 * tol := by
            rw [div_le_iff₀ hNp]
            nlinarith
          nlinarith [mul_le_mul_of_nonneg_left this (by positivity : 0 ≤ 2 * eta * E)]
        refine ih _ _ _ hstep.2 (by positivity) fun hn => ⟨hd, ?_, hw, hlast hn⟩
        have h : ¬ tol < |LocalIter.residual (atGrain c g q E eta) E eta / E| := fun h => hnot ⟨hn, h⟩
        rw [habs, not_lt, div_le_iff₀ hE] at h
        exact h

/-- Larger strain rates or viscosities (larger stresses) give smaller grains. -/
theorem grain_decreases (hg : GoodGse g) (hq : 0 < q.1 ∧ 1 ≤ q.2) (E' eta' : ℝ) (hE : 0 < E) (he : 0 < eta) (hE' : 0 < E')
    (he' : 0 < eta') (hlt : eta * E < eta' * E') : grainAt g q E' eta' < grainAt g q E eta := by
  rw [grainAt_eq hE he, grainAt_eq hE' he']
  have hK := flowConst_pos hg hq.1
  have h1 : (2 * eta * E) ^ (q.2 + 1) < (2 * eta' * E') ^ (q.2 + 1) :=
    Real.rpow_lt_rpow (by positivity) (by nlinarith) (by linarith)
  exact Real.rpow_lt_rpow_of_neg (by positivity) (mul_lt_mul_of_pos_left h1 hK) (div_neg_of_neg_of_pos (by norm_num) (by linarith [hg.p]))

theorem grainGuess_pos (etaEl : ℝ) : 0 < grainGuess g q E etaEl := Real.exp_pos _

/-- From the first guess. -/
theorem grain_run (h : GoodGrain c g q) (tol huge etaEl : ℝ) (hE : 0 < E) (ht : 0 < tol) (ht2 : tol ≤ 1 / 2) (hh : 0 < huge) :
    grainRun c g q E tol huge etaEl = .failed ∨ ∃ e t d, grainRun c g q E tol huge etaEl = .ok e t d
      ∧ 0 < e ∧ 0 < t ∧ 0 < d ∧ |E - flowWithoutGbs { c with pwl := some q, d := d } t| ≤ tol * E
      ∧ Wattmeter g t (LocalIter.pref q.1 q.2 * t ^ q.2) d ∧ |2 * e * E - t| ≤ 2 * tol * t := by
  unfold grainRun
  have hph : Physical { c with pwl := some q, d := grainGuess g q E etaEl } :=
    ⟨h.phys.el, h.phys.cst, fun x hx => by
      have : x = q := by simpa using hx.symm
      rw [this]; exact h.q, h.phys.exp, h.phys.lin, h.phys.gbs, grainGuess_pos etaEl⟩
  have hg := LocalIter.guess_pos _ hph E huge hE hh
  exact grain_iterations h tol hE ht ht2 20 _ _ _ hg (by positivity) fun h => absurd h (by norm_num)

/-- The update of a phase whose grain size follows the flow.  There is a stress, which is that returned (`2e-11`) where the rock does not yield, at
which the strain rates returned and the elastic one add up to the strain rate and the grain size returned is in balance with the work of
dislocation creep; where the rock does not yield the heat is the work of this stress on the creep rates. -/
theorem grain_update_partial (v : Env) (m : Mat) (g : Gse) (i : In) (cell : Bool) (hs : Sound v m i) (hg : GoodGse g) (hpwl : m.pwl = true)
    (hm : m.lin = true → 0 ≤ m.linLaw.m) (o : Out) (hr : updateGrain v m g i cell = .ok o) :
    ∃ t, 0 < t ∧ 0 < o.d1 ∧ Wattmeter g t o.eIIpwl o.d1
      ∧ |rate v i.E - ((if v.el then t / (2 * (i.G * v.dt)) else 0) + (o.eIIcst + o.eIIpwl + o.eIIexp + o.eIIlin))|
          ≤ 1 / 10 ^ 11 * rate v i.E
      ∧ (m.plast = false → (∃ k, 0 < k ∧ o.T = ⟨k * i.E.xx, k * i.E.zz, k * i.E.xz⟩ ∧ |k * rate v i.E - t| ≤ 2 / 10 ^ 11 * t)
          ∧ (cell = true → o.wDiss = 2 * t * (o.eIIcst + o.eIIpwl + o.eIIexp + o.eIIlin))) := by
  have hc := creep_physical v m i hs id (fun q h1 h2 => ⟨h1, h2⟩)
  have hE := (rate_ge v hs.sE i.E).2
  obtain ⟨q, hq⟩ : ∃ q, q = (prefactor v m.pre (clampT v i.T) i.P i.d i.phi m.pwlLaw, m.pwlLaw.n) := ⟨_, rfl⟩
  have hcq : (creep v m id i).pwl = some q := by simp [creep, hpwl, hq]
  have hgood : GoodGrain (creep v m id i) g q := ⟨hc, hg, hc.pwl q hcq, fun l hl => by
    by_cases hlin : m.lin = true
    · simp only [creep, hlin, if_true, Option.mem_def, Option.some.injEq] at hl
      rw [← hl]; exact hm hlin
    · simp [creep, hlin] at hl⟩
  unfold updateGrain at hr
  split at hr
  · exact Res.noConfusion hr
  split at hr
  · exact Res.noConfusion hr
  dsimp only at hr
  rw [← hq] at hr
  rcases grain_run hgood (1 / 10 ^ 11) (10 ^ 100 / v.sEta) ((moduli v i).1 * v.dtEff) hE (by positivity) (by norm_num)
    (div_pos (by positivity) hs.sEta) with hf | ⟨e, t, d, h1, he, ht, hd, hflow, hw, hst⟩
  · rw [hf] at hr; exact Res.noConfusion hr
  rw [h1] at hr
  dsimp only at hr
  obtain ⟨c, hcdef⟩ : ∃ c, c = { creep v m id i with d := d } := ⟨_, rfl⟩
  have hcp : c.pwl = some q := by rw [hcdef]; exact hcq
  have hceq : { creep v m id i with pwl := some q, d := d } = c := by rw [hcdef, ← hcq]
  have hph : Physical c := by
    rw [hcdef]
    exact ⟨hc.el, hc.cst, hc.pwl, hc.exp, hc.lin, hc.gbs, hd⟩
  rw [hceq, flow_viscous c hph t ht] at hflow
  rw [← hcdef] at hr
  have hel : part c.el (fun e => t / (2 * e)) = if v.el then t / (2 * (i.G * v.dt)) else 0 := by
    rw [hcdef]
    by_cases hv : v.el = true
    · have h0 : v.step0 = false := by simpa [Env.el] using (by simpa [Env.el] using hv : _ ∧ _).2
      simp [creep, hv, moduli, Env.dtEff, h0, part]
    · simp [creep, hv, part]
  rw [hel] at hflow
  have hinv : ∀ pl, dissInverse { m with gsRef := d } c pl t
      = 2 * creepRate c t / t + (if pl.active then some (pl.tii / pl.gdot) else none).elim 0 (fun e => 1 / e) := fun pl =>
    inverse_eq c hph d (fun _ => by rw [hcdef]) t ht _
  unfold finish at hr
  dsimp only at hr
  split at hr
  · exact Res.noConfusion hr
  split at hr
  · exact Res.noConfusion hr
  have ho := Res.ok.inj hr
  rw [← ho]
  dsimp only
  have hsum : cstRate c t + powerRate c.pwl t + powerRate c.exp t + linRate c t = creepRate c t := by
    unfold creepRate; ring
  refine ⟨t, ht, hd, ?_, ?_, fun hpl => ⟨⟨2 * e, by positivity, ?_, ?_⟩, fun hcell => ?_⟩⟩
  · rw [hcp]; exact hw
  · rw [hsum]; exact hflow
  · simp [yielding, hpl, effViscosity]
  · exact hst.trans (by rw [show (2 : ℝ) * (1 / 10 ^ 11) = 2 / 10 ^ 11 by ring])
  · rw [hsum, if_pos hcell, hinv]
    simp only [yielding, hpl, Bool.false_eq_true, if_false, Option.elim_none, add_zero]
    field_simp

/-- Dislocation and diffusion creep carry two and one third of the strain rate at a grain size of one. -/
example : let c : LocalIter.Creep := ⟨none, none, none, none, some (1, 1, 1), none, 1⟩
    GoodGrain c ⟨1, 1, 1, 1, 1⟩ (1 / 2, 1)
      ∧ grainSolve c ⟨1, 1, 1, 1, 1⟩ (1 / 2, 1) (3 / 2) (1 / 10 ^ 11) 20 (1 / 3) 1 1 = .ok (1 / 3) 1 1 := by
  intro c
  refine ⟨⟨⟨by simp [c], by simp [c], by simp [c], by simp [c], by simp [c], by simp [c], one_pos⟩, ⟨one_pos, one_pos, one_pos, one_pos, one_pos⟩,
    by norm_num, by simp [c]⟩, ?_⟩
  have hp : ∀ x : ℝ, LocalIter.pref (1 / 2) x = 1 := by intro x; norm_num [LocalIter.pref]
  have hd : grainAt ⟨1, 1, 1, 1, 1⟩ (1 / 2, 1) (3 / 2) (1 / 3) = 1 := by
    norm_num [grainAt, pwlRate, Gse.Bg, LocalIter.pref]
  have hres : LocalIter.residual (atGrain c ⟨1, 1, 1, 1, 1⟩ (1 / 2, 1) (3 / 2) (1 / 3)) (3 / 2) (1 / 3) = 0 := by
    unfold atGrain
    rw [hd]
    norm_num [LocalIter.residual, LocalIter.elasticRate, LocalIter.rates, LocalIter.pref, c, Real.rpow_neg_one]
  rw [grainSolve, hres, hd]
  norm_num

/-- A viscous rock in dislocation creep. -/
noncomputable def creepingRock : Mat :=
  { rock with cst := false, pwl := true, plast := false, pwlLaw := ⟨0, 1, 0, 0, 0, 0, 1, 1, 0, 10 ^ 20⟩ }

/-- The update of a rock in dislocation creep whose grain size follows the flow meets the hypotheses of `grain_update_partial`. -/
example : Sound (settings false) creepingRock (node (1 / 10 ^ 14) 0) ∧ GoodGse ⟨1, 3, 1, 3, 1⟩ ∧ creepingRock.pwl = true
    ∧ ∃ o, updateGrain (settings false) creepingRock ⟨1, 3, 1, 3, 1⟩ (node (1 / 10 ^ 14) 0) true = .ok o := by
  have hsound : Sound (settings false) creepingRock (node (1 / 10 ^ 14) 0) := by
    refine ⟨?_, ?_, ?_, ?_, ?_, ?_, ?_, ?_, ?_, ?_, fun _ => ⟨?_, ?_, ?_, ?_⟩, ?_, ?_, rfl, ?_, ?_, ?_⟩ <;>
      first
        | (intro e he; exact absurd he (by simp [creepingRock, rock]))
        | norm_num [settings, creepingRock, rock, node]
  have hg : GoodGse ⟨1, 3, 1, 3, 1⟩ := ⟨by norm_num, by norm_num, by norm_num, by norm_num, by norm_num⟩
  refine ⟨hsound, hg, rfl, ?_⟩
  have hB : ∀ T, (prefactor (settings false) creepingRock.pre T (node (1 / 10 ^ 14) 0).P (node (1 / 10 ^ 14) 0).d (node (1 / 10 ^ 14) 0).phi
      creepingRock.pwlLaw, creepingRock.pwlLaw.n) = ((10 : ℝ) ^ 20, (1 : ℝ)) := by
    intro T
    norm_num [prefactor, Dens.pureB, creepingRock, rock, node]
  have hc : creep (settings false) creepingRock id (node (1 / 10 ^ 14) 0)
      = ⟨none, none, some (10 ^ 20, 1), none, none, none, 1⟩ := by
    have h1 := hB (clampT (settings false) (node (1 / 10 ^ 14) 0).T)
    unfold creep
    dsimp only [id]
    rw [h1]
    simp [settings, Env.el, creepingRock, rock, node]
  have hE := (rate_ge (settings false) hsound.sE (node (1 / 10 ^ 14) 0).E).2
  unfold updateGrain
  rw [if_neg (by simp [creepingRock, rock]), if_neg (by norm_num)]
  dsimp only
  rw [hB, hc]
  obtain ⟨E, hEd⟩ : ∃ E, E = rate (settings false) (node (1 / 10 ^ 14) 0).E := ⟨_, rfl⟩
  rw [← hEd] at hE ⊢
  have hguess : ∀ d : ℝ, LocalIter.guess ⟨none, none, some (10 ^ 20, 1), none, none, none, d⟩ E (10 ^ 100 / (settings false).sEta) = 10 ^ 20 := by
    intro d
    norm_num [LocalIter.guess, LocalIter.isolated, settings]
  have hres : ∀ d : ℝ, LocalIter.residual ⟨none, none, some (10 ^ 20, 1), none, none, none, d⟩ E (10 ^ 20) = 0 := by
    intro d
    simp only [LocalIter.residual, LocalIter.elasticRate, LocalIter.rates, LocalIter.pref, Option.toList_none, Option.toList_some, List.map_nil,
      List.map_cons, List.sum_nil, List.nil_append, List.append_nil, List.sum_cons, Real.rpow_one, Real.rpow_neg_one]
    field_simp
    ring
  have hrun : ∀ x y : ℝ, ∃ d, grainRun ⟨none, none, some (10 ^ 20, 1), none, none, none, 1⟩ ⟨1, 3, 1, 3, 1⟩ (10 ^ 20, 1) E x
      (10 ^ 100 / (settings false).sEta) y = if 0 < x / 100 then .ok (10 ^ 20) (2 * 10 ^ 20 * E) d else
        grainRun ⟨none, none, some (10 ^ 20, 1), none, none, none, 1⟩ ⟨1, 3, 1, 3, 1⟩ (10 ^ 20, 1) E x
          (10 ^ 100 / (settings false).sEta) y := by
    intro x y
    by_cases hx : 0 < x / 100
    · refine ⟨grainAt ⟨1, 3, 1, 3, 1⟩ (10 ^ 20, 1) E (10 ^ 20), ?_⟩
      rw [if_pos hx]
      unfold grainRun
      dsimp only
      rw [hguess, grainSolve]
      rw [if_pos]
      have := hres (grainAt ⟨1, 3, 1, 3, 1⟩ (10 ^ 20, 1) E (10 ^ 20))
      unfold atGrain
      rw [this, zero_div, abs_zero]
      exact hx
    · exact ⟨0, by rw [if_neg hx]⟩
  obtain ⟨d, hd⟩ := hrun (1 / 10 ^ 11) ((moduli (settings false) (node (1 / 10 ^ 14) 0)).1 * (settings false).dtEff)
  rw [if_pos (by positivity)] at hd
  rw [hd]
  dsimp only [finish]
  have hw : 0 ≤ dissInverse { creepingRock with gsRef := d } ⟨none, none, some (10 ^ 20, 1), none, none, none, d⟩
      (yielding (settings false) { creepingRock with gsRef := d } (node (1 / 10 ^ 14) 0) E (10 ^ 20) (2 * 10 ^ 20 * E))
      (2 * 10 ^ 20 * E) := by
    simp only [dissInverse, inverse, powerInv, powerRate, linInv, linRate, cstInv, yielding, creepingRock, Bool.false_eq_true, if_false,
      Option.elim_none, LocalIter.pref]
    positivity
  rw [if_neg (by simp [yielding, creepingRock]), if_neg]
  · exact ⟨_, rfl⟩
  · rintro ⟨_, h⟩
    have := mul_nonneg (mul_self_nonneg (yielding (settings false) { creepingRock with gsRef := d } (node (1 / 10 ^ 14) 0) E (10 ^ 20)
      (2 * 10 ^ 20 * E)).tii) hw
    linarith

end Verif.Point
