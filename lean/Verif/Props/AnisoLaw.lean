import Verif.Spec.AnisoLaw
import Verif.Props.PointLaw
import Verif.Props.ViscGrid
import Verif.Props.Anisotropy

/-!
C135, C136: stress, strength and heat of an anisotropic phase.
-/
namespace Verif.Point
open Verif Verif.Spec

/-! ### Turning axes -/

theorem turn_turn (a b : ℝ) (t : Tensor) : turn a (turn b t) = turn (a + b) t := by
  have ha : Real.sin a ^ 2 = 1 - Real.cos a ^ 2 := by linarith [Real.sin_sq_add_cos_sq a]
  have hb : Real.sin b ^ 2 = 1 - Real.cos b ^ 2 := by linarith [Real.sin_sq_add_cos_sq b]
  unfold turn
  rw [Real.cos_add, Real.sin_add]
  ext <;> simp only <;> ring_nf <;> simp only [ha, hb] <;> ring

theorem turn_zero (t : Tensor) : turn 0 t = t := by
  unfold turn; ext <;> simp

theorem layerRate_turn (angle : ℝ) (e : Tensor) : layerRate angle e = inLayers angle e := by
  have h := Real.sin_sq_add_cos_sq (angle - Real.pi / 2)
  unfold layerRate inLayers turn ofTriple Aniso.rotate Aniso.layerOf Tensor.triple
  ext <;> simp only
  · linear_combination (-e.zz) * h
  · linear_combination (-e.xx) * h
  · linear_combination (e.xz) * h

theorem layerStress_turn (angle eta ani : ℝ) (e : Tensor) :
    layerStress angle eta ani e = turn (-(angle - Real.pi / 2)) ⟨2 * eta * (inLayers angle e).xx, 2 * eta * (inLayers angle e).zz,
      2 * eta * (inLayers angle e).xz / ani⟩ := by
  have h := Real.sin_sq_add_cos_sq (angle - Real.pi / 2)
  have hl := layerRate_turn angle e
  unfold layerRate ofTriple at hl
  unfold layerStress Aniso.localStress
  rw [← hl]
  generalize Aniso.rotate _ _ e.triple = r
  unfold Aniso.layered Aniso.rotateBack ofTriple turn Aniso.layerOf
  rw [Real.cos_neg, Real.sin_neg]
  ext <;> simp only
  · linear_combination (-(2 * eta * r.2.1)) * h
  · linear_combination (-(2 * eta * r.1)) * h
  · linear_combination (2 * eta * r.2.2 / ani) * h

/-- The stress returned for a viscosity is that of the layered material. -/
theorem layerStress_layered (angle eta ani : ℝ) (ha : ani ≠ 0) (e : Tensor) :
    Layered angle eta ani (layerStress angle eta ani e) e := by
  have h : inLayers angle (layerStress angle eta ani e) = ⟨2 * eta * (inLayers angle e).xx, 2 * eta * (inLayers angle e).zz,
      2 * eta * (inLayers angle e).xz / ani⟩ := by
    rw [layerStress_turn]
    show turn (angle - Real.pi / 2) _ = _
    rw [turn_turn, add_neg_cancel, turn_zero]
  unfold Layered
  rw [h]
  refine ⟨rfl, rfl, ?_⟩
  simp only
  field_simp

theorem inLayers_turn (angle a : ℝ) (e : Tensor) : inLayers (angle - a) (turn a e) = inLayers angle e := by
  unfold inLayers; rw [turn_turn]; congr 1; ring

/-- The law does not depend on the axes: with strain rate, old stress and layers described in axes turned by any angle, the same
stress results, described in those axes, and every other result is the same. -/
theorem aniso_turned (v : Env) (m : Mat) (i : In) (angle ani : ℝ) (cell : Bool) (a : ℝ) :
    updateAniso v m (i.turned a) (angle - a) ani cell = (updateAniso v m i angle ani cell).turned a := by
  have hc : creepAniso v m (i.turned a) = creepAniso v m i := rfl
  have hE : invariant (layerRate (angle - a) (i.turned a).E) = invariant (layerRate angle i.E) := by
    rw [layerRate_turn, layerRate_turn]
    show invariant (inLayers (angle - a) (turn a i.E)) = _
    rw [inLayers_turn]
  have hd : (i.turned a).d = i.d := rfl
  have hT : ∀ eta, layerStress (angle - a) eta ani (i.turned a).E = turn a (layerStress angle eta ani i.E) := by
    intro eta
    rw [layerStress_turn, layerStress_turn]
    have : inLayers (angle - a) (i.turned a).E = inLayers angle i.E := inLayers_turn angle a i.E
    rw [this, turn_turn]; congr 1; ring
  unfold updateAniso
  rw [hc, hE, hd]
  split
  · rfl
  dsimp only
  split
  · rfl
  · rfl
  next etaVe tii _ =>
  unfold finishAniso
  dsimp only
  rw [apply_ite (Res.turned a), apply_ite (Res.turned a)]
  simp only [hT]
  rfl

/-! ### Material at rest -/

/-- Where the effective strain rate is zero the program ends: an anisotropic material cannot be at rest. -/
theorem aniso_rest_stops (v : Env) (m : Mat) (i : In) (angle ani : ℝ) (cell : Bool) (h : i.E = ⟨0, 0, 0⟩) :
    updateAniso v m i angle ani cell = .exit 1 := by
  have hE : invariant (layerRate angle i.E) = 0 := by
    rw [layerRate_turn, h]; unfold invariant inLayers turn; simp
  unfold updateAniso
  split
  · rfl
  dsimp only
  rw [hE]
  unfold runAniso
  simp only [iterAniso, true_or, if_true]
  norm_num

/-! ### Iterations -/

theorem newton_near (c : LocalIter.Creep) (hc : Physical c) (E eta tol : ℝ) (hE : 0 < E) (he : 0 < eta) (ht : 0 < tol)
    (hne : LocalIter.laws c E ≠ []) (hS : 1 ≤ LocalIter.S (LocalIter.laws c E) eta)
    (h : |LocalIter.residual c E eta / E| ≤ tol) :
    2 * (eta - LocalIter.residual c E eta / LocalIter.slope c E eta) * E ≤ 2 * eta * E
      ∧ (1 - tol) * (2 * eta * E) ≤ 2 * (eta - LocalIter.residual c E eta / LocalIter.slope c E eta) * E := by
  obtain ⟨_, _, _, h4⟩ := LocalIter.newton c hc E eta hE he hne
  refine ⟨by have := h4 hS; nlinarith, ?_⟩
  rw [LocalIter.residual_S c hc E eta hE he, mul_div_cancel_left₀ _ hE.ne', abs_le] at h
  have hNS := LocalIter.N_ge_S _ (LocalIter.laws_ok c hc E hE) eta he
  rw [LocalIter.residual_S c hc E eta hE he, LocalIter.slope_N c hc E eta hE he]
  generalize LocalIter.laws c E = L at *
  have hN : 0 < LocalIter.N L eta := by linarith
  have hx : eta - E * (1 - LocalIter.S L eta) / (-(E / eta) * LocalIter.N L eta)
      = eta * ((LocalIter.N L eta + 1 - LocalIter.S L eta) / LocalIter.N L eta) := by
    field_simp; ring
  rw [hx]
  have h5 : 1 - tol ≤ (LocalIter.N L eta + 1 - LocalIter.S L eta) / LocalIter.N L eta := by
    rw [le_div_iff₀ hN]
    nlinarith [h.1]
  have h6 : 0 < 2 * eta * E := by positivity
  nlinarith

theorem iter_spec (c : LocalIter.Creep) (hc : Physical c) (E tol : ℝ) (hE : 0 < E) (ht : 0 < tol)
    (hne : LocalIter.laws c E ≠ []) :
    ∀ (n : Nat) (eta tii : ℝ), 0 < eta → 0 < tii → 1 ≤ LocalIter.S (LocalIter.laws c E) eta →
      (n = 0 → |E - flowWithoutGbs c tii| ≤ tol * E ∧ 2 * eta * E ≤ tii ∧ (1 - tol) * tii ≤ 2 * eta * E) →
      iterAniso c E tol n eta tii = .exit 0 ∨ ∃ e t, iterAniso c E tol n eta tii = .ok e t ∧ 0 < e ∧ 0 < t
        ∧ |E - flowWithoutGbs c t| ≤ tol * E ∧ 2 * e * E ≤ t ∧ (1 - tol) * t ≤ 2 * e * E ∧ e ≤ eta := by
  intro n
  induction n with
  | zero =>
    intro eta tii he htii _ h
    exact Or.inr ⟨eta, tii, rfl, he, htii, (h rfl).1, (h rfl).2.1, (h rfl).2.2, le_rfl⟩
  | succ n ih =>
    intro eta tii he _ hS _
    have hres : LocalIter.residual c E eta = E - flowWithoutGbs c (2 * eta * E) := by
      have h := LocalIter.rates_flow c hc (2 * eta * E) (by positivity)
      unfold LocalIter.residual; linear_combination -h
    have habs : |LocalIter.residual c E eta / E| = |E - flowWithoutGbs c (2 * eta * E)| / E := by
      rw [hres, abs_div, abs_of_pos hE]
    obtain ⟨h1, h2, h3, h4⟩ := LocalIter.newton c hc E eta hE he hne
    have hnear := newton_near c hc E eta tol hE he ht hne hS
    simp only [iterAniso]
    rw [if_neg (by simp [hE.ne', h1])]
    split
    · next hlt =>
      have hlt' : |LocalIter.residual c E eta / E| ≤ tol := by linarith
      right
      refine ⟨_, _, rfl, h2, by positivity, ?_, (hnear hlt').1, (hnear hlt').2, h4 hS⟩
      rwa [habs, div_le_iff₀ hE] at hlt'
    · next hge =>
      split
      · exact Or.inl rfl
      · next hnot =>
        have hlast : n = 0 → |LocalIter.residual c E eta / E| ≤ tol := by
          intro hn
          by_contra h
          exact hnot ⟨hn, not_le.1 h⟩
        rcases ih (eta - LocalIter.residual c E eta / LocalIter.slope c E eta) (2 * eta * E) h2 (by positivity) h3
          (fun hn => ⟨by have := hlast hn; rwa [habs, div_le_iff₀ hE] at this, hnear (hlast hn)⟩) with h | h
        · exact Or.inl h
        · obtain ⟨e', t', h5, h6, h7, h8, h9, h10, h11⟩ := h
          exact Or.inr ⟨e', t', h5, h6, h7, h8, h9, h10, le_trans h11 (h4 hS)⟩

/-- The anisotropic routine knows the same mechanisms as the isotropic one, but for mixtures, reactions and grain
boundary sliding. -/
theorem creepAniso_eq (v : Env) (m : Mat) (i : In) :
    creepAniso v m i = creep { v with mixing := false } { m with gbs := false } id i := by
  obtain ⟨elastic, step0, dt, minEta, maxEta, tol, R, mixing, avg, sE, sS, sT, sL, sEta⟩ := v
  cases elastic <;> cases step0 <;> rfl

theorem creepAniso_physical (v : Env) (m : Mat) (i : In) (hs : Sound v m i) : Physical (creepAniso v m i) := by
  rw [creepAniso_eq]
  refine creep_physical { v with mixing := false } { m with gbs := false } i ⟨hs.dt, hs.R, hs.sE, hs.sT, hs.sS, hs.sEta, hs.G, hs.d, hs.eta0, hs.pre, hs.pwl, hs.lin, hs.exp,
    rfl, hs.mix, hs.X, hs.some⟩ id fun q h1 h2 => ⟨h1, h2⟩

/-- What the iterations hand over. -/
theorem aniso_iterations (v : Env) (m : Mat) (i : In) (hs : Sound v m i) (E : ℝ) (hE : 0 < E)
    (hbig : ∃ x ∈ LocalIter.isolated (creepAniso v m i) E, x ≤ 10 ^ 100 / v.sEta) :
    runAniso (creepAniso v m i) E (1 / 10 ^ 11) (10 ^ 100 / v.sEta) = .exit 0
    ∨ ∃ etaVe tii, runAniso (creepAniso v m i) E (1 / 10 ^ 11) (10 ^ 100 / v.sEta) = .ok etaVe tii
      ∧ 0 < etaVe ∧ 0 < tii ∧ 2 * etaVe * E ≤ tii ∧ (1 - 1 / 10 ^ 11) * tii ≤ 2 * etaVe * E
      ∧ |E - (tii * (if v.el then 1 / (i.G * v.dt) else 0) / 2 + creepRate (creepAniso v m i) tii)| ≤ 1 / 10 ^ 11 * E := by
  have hc := creepAniso_physical v m i hs
  have hbp : (0 : ℝ) < 10 ^ 100 / v.sEta := div_pos (by positivity) hs.sEta
  obtain ⟨hne, hgp, hS1⟩ := LocalIter.guess_full _ hc rfl E _ hE hbp hbig
  rcases iter_spec _ hc E (1 / 10 ^ 11) hE (by positivity) hne 20 _ (2 * LocalIter.guess (creepAniso v m i) E (10 ^ 100 / v.sEta) * E)
    hgp (by positivity) hS1 (fun h => absurd h (by norm_num)) with h | ⟨e, t, h1, h2, h3, h4, h5, h6, _⟩
  · exact Or.inl h
  · refine Or.inr ⟨e, t, h1, h2, h3, h5, h6, ?_⟩
    rw [flow_viscous _ hc _ h3] at h4
    have : part (creepAniso v m i).el (fun e => t / (2 * e)) = t * (if v.el then 1 / (i.G * v.dt) else 0) / 2 := by
      by_cases hv : v.el = true
      · have hG := hs.G
        have hdt := hs.dt
        simp only [creepAniso, hv, if_true, part, Option.elim_some]
        field_simp
      · simp [creepAniso, hv, part]
    rw [this] at h4
    exact h4

/-- What a result is made of: viscosity and stress of the iterations that belong together, and the steps after them. -/
theorem aniso_core (v : Env) (m : Mat) (i : In) (angle ani : ℝ) (cell : Bool) (hs : Sound v m i)
    (hE : 0 < invariant i.E)
    (hbig : ∃ x ∈ LocalIter.isolated (creepAniso v m i) (invariant i.E), x ≤ 10 ^ 100 / v.sEta)
    (hd : m.lin = true → 0 < m.linLaw.m → 1 / 10 ^ 13 / v.sL ≤ i.d) :
    updateAniso v m i angle ani cell = .exit 0
    ∨ ∃ etaVe tii, updateAniso v m i angle ani cell
          = finishAniso v m (creepAniso v m i) i angle ani cell (invariant i.E) etaVe tii
      ∧ 0 < etaVe ∧ 0 < tii ∧ 2 * etaVe * invariant i.E ≤ tii ∧ (1 - 1 / 10 ^ 11) * tii ≤ 2 * etaVe * invariant i.E
      ∧ |invariant i.E - (tii * (if v.el then 1 / (i.G * v.dt) else 0) / 2 + creepRate (creepAniso v m i) tii)|
          ≤ 1 / 10 ^ 11 * invariant i.E := by
  have hinv : invariant (layerRate angle i.E) = invariant i.E := by
    rw [layerRate_turn]; exact invariant_turn _ _
  unfold updateAniso
  rw [if_neg (by rintro ⟨h1, h2, h3⟩; exact absurd h3 (not_lt.2 (hd h1 h2)))]
  dsimp only
  rw [hinv]
  rcases aniso_iterations v m i hs (invariant i.E) hE hbig with h | ⟨e, t, h, h1⟩
  · rw [h]; exact Or.inl rfl
  · rw [h]; exact Or.inr ⟨e, t, rfl, h1⟩

theorem strengthAniso_eq (m : Mat) (i : In) : strengthAniso m i = yieldStrength m i := by
  unfold strengthAniso yieldStrength
  split
  · next h => rw [min_eq_left h.le]
  · next h => rw [min_eq_right (not_lt.1 h)]

/-- Stress after yielding. -/
theorem plastic_facts (v : Env) (m : Mat) (i : In) (hp : GoodPlastic v m i) (hdt : 0 < v.dt) (etaVe tii : ℝ) (he : 0 < etaVe)
    (hy : Yields m i tii) :
    0 < plasticDenom v m i etaVe ∧ 0 < plasticRate v m i etaVe tii
    ∧ tii - plasticRate v m i etaVe tii * etaVe
        = yieldStrength m i + (1 / i.beta * v.dt * sinDil v i * plasticRate v m i etaVe tii) * Real.sin i.fric
          + m.etaVp * plasticRate v m i etaVe tii
    ∧ 0 ≤ 1 / i.beta * v.dt * sinDil v i * plasticRate v m i etaVe tii
    ∧ 0 < tii - plasticRate v m i etaVe tii * etaVe := by
  have hb := hp.beta
  have hsd : 0 ≤ sinDil v i := by
    unfold sinDil; split
    · next h => exact hp.angles.2 h
    · exact le_rfl
  have hk : 0 ≤ 1 / i.beta * v.dt * sinDil v i := by positivity
  have hden : 0 < plasticDenom v m i etaVe := by
    unfold plasticDenom
    have := mul_nonneg hk hp.angles.1
    linarith [hp.etaVp]
  have hF : 0 < tii - strengthAniso m i := lt_trans (by positivity) hy.2
  have hg : 0 < plasticRate v m i etaVe tii := by
    unfold plasticRate; rw [if_pos hy]; exact div_pos hF hden
  have hrel : plasticRate v m i etaVe tii * plasticDenom v m i etaVe = tii - yieldStrength m i := by
    unfold plasticRate; rw [if_pos hy, div_mul_cancel₀ _ hden.ne', strengthAniso_eq]
  have heq : tii - plasticRate v m i etaVe tii * etaVe
        = yieldStrength m i + (1 / i.beta * v.dt * sinDil v i * plasticRate v m i etaVe tii) * Real.sin i.fric
          + m.etaVp * plasticRate v m i etaVe tii := by
    unfold plasticDenom at hrel; linear_combination -hrel
  have h0 : 0 ≤ 1 / i.beta * v.dt * sinDil v i * plasticRate v m i etaVe tii := mul_nonneg hk hg.le
  refine ⟨hden, hg, heq, h0, ?_⟩
  rw [heq]
  have := hp.positive
  have := mul_nonneg h0 hp.angles.1
  have := mul_nonneg hp.etaVp hg.le
  linarith


open Classical in
/-- Facts of a result. -/
structure Facts (v : Env) (m : Mat) (i : In) (angle ani : ℝ) (etaVe tii : ℝ) (o : Out) : Prop where
  eta : 0 < etaVe
  pos : 0 < tii
  le : 2 * etaVe * invariant i.E ≤ tii
  ge : (1 - 1 / 10 ^ 11) * tii ≤ 2 * etaVe * invariant i.E
  sum : |invariant i.E - (tii * (if v.el then 1 / (i.G * v.dt) else 0) / 2 + creepRate (creepAniso v m i) tii)|
          ≤ 1 / 10 ^ 11 * invariant i.E
  T : o.T = layerStress angle o.etaVE ani i.E
  etaVE : o.etaVE = if Yields m i tii then (tii - plasticRate v m i etaVe tii * etaVe) / 2 / invariant i.E else etaVe
  el : o.eIIel = if v.el then (tii - plasticRate v m i etaVe tii * etaVe) * (tii - plasticRate v m i etaVe tii * etaVe)
    / (4 * (i.G * v.dt) * (i.G * v.dt)) else 0
  pl : o.eIIpl = plasticRate v m i etaVe tii / 2
  visc : o.eIIcst + o.eIIpwl + o.eIIexp + o.eIIlin = creepRate (creepAniso v m i) tii
  over : o.overS = m.etaVp * plasticRate v m i etaVe tii
  pc : o.pcorr = i.P + 1 / i.beta * v.dt * sinDil v i * plasticRate v m i etaVe tii
  inv : o.eta = 1 / (2 * creepRate (creepAniso v m i) tii / tii
    + (if Yields m i tii then plasticRate v m i etaVe tii / (tii - plasticRate v m i etaVe tii * etaVe) else 0))
  ne : 2 * creepRate (creepAniso v m i) tii / tii
    + (if Yields m i tii then plasticRate v m i etaVe tii / (tii - plasticRate v m i etaVe tii * etaVe) else 0) ≠ 0
  d1 : o.d1 = i.d

open Classical in
theorem aniso_facts (v : Env) (m : Mat) (i : In) (angle ani : ℝ) (cell : Bool) (hs : Sound v m i)
    (hE : 0 < invariant i.E)
    (hbig : ∃ x ∈ LocalIter.isolated (creepAniso v m i) (invariant i.E), x ≤ 10 ^ 100 / v.sEta)
    (o : Out) (hr : updateAniso v m i angle ani cell = .ok o) :
    ∃ etaVe tii, Facts v m i angle ani etaVe tii o ∧ ¬(Yields m i tii ∧ i.beta = 0) ∧
      (cell = true → o.wDiss = (tii - plasticRate v m i etaVe tii * etaVe) * (tii - plasticRate v m i etaVe tii * etaVe)
        * (2 * creepRate (creepAniso v m i) tii / tii
          + (if Yields m i tii then plasticRate v m i etaVe tii / (tii - plasticRate v m i etaVe tii * etaVe) else 0))) := by
  have hc := creepAniso_physical v m i hs
  have hd : m.lin = true → 0 < m.linLaw.m → 1 / 10 ^ 13 / v.sL ≤ i.d := by
    intro h1 h2
    by_contra h3
    unfold updateAniso at hr
    rw [if_pos ⟨h1, h2, not_le.1 h3⟩] at hr
    cases hr
  rcases aniso_core v m i angle ani cell hs hE hbig hd with h | ⟨etaVe, tii, h, h1, h2, h3, h4, h5⟩
  · rw [h] at hr; cases hr
  rw [h] at hr
  have hinv := inverse_eq _ hc i.d (fun _ => rfl) tii h2
    (if Yields m i tii then some ((tii - plasticRate v m i etaVe tii * etaVe) / plasticRate v m i etaVe tii) else none)
  have hopt : (if Yields m i tii then some ((tii - plasticRate v m i etaVe tii * etaVe) / plasticRate v m i etaVe tii)
      else none).elim 0 (fun e => 1 / e)
      = if Yields m i tii then plasticRate v m i etaVe tii / (tii - plasticRate v m i etaVe tii * etaVe) else 0 := by
    by_cases hy : Yields m i tii
    · rw [if_pos hy, if_pos hy, Option.elim_some, one_div_div]
    · rw [if_neg hy, if_neg hy, Option.elim_none]
  rw [hopt] at hinv
  unfold finishAniso at hr
  dsimp only at hr
  rw [hinv] at hr
  by_cases hbad : Yields m i tii ∧ (i.beta = 0 ∨ plasticDenom v m i etaVe = 0
      ∨ tii - plasticRate v m i etaVe tii * etaVe = 0)
  · rw [if_pos hbad] at hr; cases hr
  rw [if_neg hbad] at hr
  by_cases hz : 2 * creepRate (creepAniso v m i) tii / tii
      + (if Yields m i tii then plasticRate v m i etaVe tii / (tii - plasticRate v m i etaVe tii * etaVe) else 0) = 0
  · rw [if_pos hz] at hr; cases hr
  rw [if_neg hz] at hr
  injection hr with hr
  subst hr
  refine ⟨etaVe, tii, ⟨h1, h2, h3, h4, h5, rfl, rfl, ?_, rfl, ?_, rfl, rfl, rfl, hz, rfl⟩, fun h => hbad ⟨h.1, Or.inl h.2⟩, ?_⟩
  · by_cases hv : v.el = true
    · simp only [hv, if_true]
    · simp only [if_neg hv]
  · unfold creepRate; ring
  · intro hcell; simp only [hcell, if_true]

/-- Effective viscosity times twice the strain rate, in terms of the facts. -/
theorem Facts.stress {v : Env} {m : Mat} {i : In} {angle ani etaVe tii : ℝ} {o : Out}
    (h : Facts v m i angle ani etaVe tii o) (hs : Sound v m i) (hE : 0 < invariant i.E)
    (hp : m.plast = true → GoodPlastic v m i) :
    (Yields m i tii → 2 * o.etaVE * invariant i.E = tii - plasticRate v m i etaVe tii * etaVe)
    ∧ (¬ Yields m i tii → o.etaVE = etaVe ∧ plasticRate v m i etaVe tii = 0) ∧ 0 < o.etaVE := by
  by_cases hy : Yields m i tii
  · obtain ⟨_, _, _, _, hpos⟩ := plastic_facts v m i (hp hy.1) hs.dt etaVe tii h.eta hy
    have he := h.etaVE
    rw [if_pos hy] at he
    refine ⟨fun _ => by rw [he]; field_simp, fun hn => absurd hy hn, by rw [he]; positivity⟩
  · have he := h.etaVE
    rw [if_neg hy] at he
    refine ⟨fun hn => absurd hn hy, fun _ => ⟨he, by unfold plasticRate; rw [if_neg hy]⟩, by rw [he]; exact h.eta⟩

/-- The stress of an anisotropic phase.  For every material with meaningful parameters, every state with a strain rate other than
zero and every orientation of the layers, a result has a positive viscosity and the stress of the layered material for it;
the invariant of the stress (with shear along the layers multiplied by the anisotropy factor) does not exceed the strength at the corrected pressure and
the viscous overstress; and without yielding elastic and creep strain rates sum to the strain rate.  Missing from a full statement: with
yielding the creep rates are those of the trial stress (as in the isotropic routine) and the sum exceeds the
strain rate; the iterations may also fail, which ends the program. -/
theorem aniso_law_partial (v : Env) (m : Mat) (i : In) (angle ani : ℝ) (cell : Bool) (hs : Sound v m i)
    (hE : 0 < invariant i.E)
    (hbig : ∃ x ∈ LocalIter.isolated (creepAniso v m i) (invariant i.E), x ≤ 10 ^ 100 / v.sEta)
    (hp : m.plast = true → GoodPlastic v m i) (hani : ani ≠ 0)
    (o : Out) (hr : updateAniso v m i angle ani cell = .ok o) :
    0 < o.etaVE ∧ Layered angle o.etaVE ani o.T i.E
    ∧ (m.plast = true → 2 * o.etaVE * invariant i.E
        ≤ yieldStrength m i + (o.pcorr - i.P) * Real.sin i.fric + o.overS + 1 / 10 ^ 17)
    ∧ (o.eIIpl = 0 → |invariant i.E - (o.etaVE * invariant i.E * (if v.el then 1 / (i.G * v.dt) else 0)
        + (o.eIIcst + o.eIIpwl + o.eIIexp + o.eIIlin))| ≤ 3 / 10 ^ 11 * invariant i.E) := by
  obtain ⟨etaVe, tii, h, _, _⟩ := aniso_facts v m i angle ani cell hs hE hbig o hr
  obtain ⟨hy1, hy2, hpos⟩ := h.stress hs hE hp
  refine ⟨hpos, by rw [h.T]; exact layerStress_layered _ _ _ hani _, ?_, ?_⟩
  · intro hpl
    by_cases hy : Yields m i tii
    · obtain ⟨_, _, heq, _, _⟩ := plastic_facts v m i (hp hpl) hs.dt etaVe tii h.eta hy
      rw [hy1 hy, heq, h.pc, h.over]
      have : (0 : ℝ) < 1 / 10 ^ 17 := by positivity
      linarith
    · obtain ⟨he, hg⟩ := hy2 hy
      have hn : tii - strengthAniso m i ≤ 1 / 10 ^ 17 := by
        by_contra hc; exact hy ⟨hpl, not_le.1 hc⟩
      rw [strengthAniso_eq] at hn
      rw [he, h.pc, h.over, hg]
      have := h.le
      simp only [mul_zero, add_zero, sub_self, zero_mul]
      linarith
  · intro hpl
    have hy : ¬ Yields m i tii := by
      intro hy
      obtain ⟨_, hg, _⟩ := plastic_facts v m i (hp hy.1) hs.dt etaVe tii h.eta hy
      rw [h.pl] at hpl
      linarith
    obtain ⟨he, _⟩ := hy2 hy
    rw [h.visc, he]
    have hq0 : 0 ≤ (if v.el then 1 / (i.G * v.dt) else 0 : ℝ) := by
      split
      · exact (div_pos one_pos (mul_pos hs.G hs.dt)).le
      · exact le_rfl
    have hV := viscous_nonneg _ (creepAniso_physical v m i hs) tii h.pos
    obtain ⟨h4, h5⟩ := abs_le.1 h.sum
    generalize (if v.el then 1 / (i.G * v.dt) else 0 : ℝ) = q at *
    generalize creepRate (creepAniso v m i) tii = V at *
    have h6 := mul_le_mul_of_nonneg_right h.le hq0
    have h7 := mul_le_mul_of_nonneg_right h.ge hq0
    have h8 : tii * q ≤ 2 * (1 + 1 / 10 ^ 11) * invariant i.E := by linarith
    rw [abs_le]
    constructor <;> nlinarith

/-- The elastic strain rate reported for an anisotropic material is the square of the elastic strain rate. -/
theorem aniso_elastic_rate_squared (v : Env) (m : Mat) (i : In) (angle ani : ℝ) (cell : Bool) (hs : Sound v m i)
    (hE : 0 < invariant i.E)
    (hbig : ∃ x ∈ LocalIter.isolated (creepAniso v m i) (invariant i.E), x ≤ 10 ^ 100 / v.sEta)
    (hp : m.plast = true → GoodPlastic v m i) (hel : v.el = true)
    (o : Out) (hr : updateAniso v m i angle ani cell = .ok o) :
    ∃ s, 2 * o.etaVE * invariant i.E ≤ s ∧ (1 - 1 / 10 ^ 11) * s ≤ 2 * o.etaVE * invariant i.E
      ∧ o.eIIel = (s / (2 * (i.G * v.dt))) ^ 2 := by
  obtain ⟨etaVe, tii, h, _, _⟩ := aniso_facts v m i angle ani cell hs hE hbig o hr
  obtain ⟨hy1, hy2, hpos⟩ := h.stress hs hE hp
  have hG := mul_pos hs.G hs.dt
  refine ⟨tii - plasticRate v m i etaVe tii * etaVe, ?_⟩
  have hsq : o.eIIel = ((tii - plasticRate v m i etaVe tii * etaVe) / (2 * (i.G * v.dt))) ^ 2 := by
    rw [h.el, if_pos hel]; field_simp; ring
  by_cases hy : Yields m i tii
  · refine ⟨(hy1 hy).le, ?_, hsq⟩
    rw [← hy1 hy]
    have : 0 < 2 * o.etaVE * invariant i.E := by positivity
    nlinarith
  · obtain ⟨he, hg⟩ := hy2 hy
    refine ⟨?_, ?_, hsq⟩
    · rw [he, hg]; have := h.le; linarith
    · rw [he, hg]; have := h.ge; linarith

/-- Work of the stress of a layered material. -/
theorem layered_power (angle eta ani : ℝ) (hani : ani ≠ 0) (e : Tensor) :
    power (layerStress angle eta ani e) e
      = 4 * eta * (invariant e ^ 2 - (1 - 1 / ani) * (inLayers angle e).xz ^ 2) := by
  have hp : ∀ (a : ℝ) (t u : Tensor), power (turn a t) (turn a u) = power t u := by
    intro a t u
    have h : Real.sin a ^ 2 = 1 - Real.cos a ^ 2 := by linarith [Real.sin_sq_add_cos_sq a]
    have h4 : Real.sin a ^ 4 = (1 - Real.cos a ^ 2) ^ 2 := by rw [← h]; ring
    unfold turn power
    ring_nf
    simp only [h, h4]
    ring
  have h1 : invariant e = invariant (inLayers angle e) := (invariant_turn _ _).symm
  have h2 : power (layerStress angle eta ani e) e = power ⟨2 * eta * (inLayers angle e).xx, 2 * eta * (inLayers angle e).zz,
      2 * eta * (inLayers angle e).xz / ani⟩ (inLayers angle e) := by
    rw [layerStress_turn, ← hp (angle - Real.pi / 2), turn_turn, add_neg_cancel, turn_zero]
    rfl
  rw [h2, h1]
  have h3 := invariant_sq (inLayers angle e)
  unfold power at h3 ⊢
  field_simp
  linear_combination (-ani * eta * 2) * h3

/-- Heat of dissipation of an anisotropic phase: within a relative tolerance it is the rate of work of the invariant of the stress on the
strain rate that is not elastic, as if the anisotropy were absent. -/
theorem aniso_heat (v : Env) (m : Mat) (i : In) (angle ani : ℝ) (hs : Sound v m i) (hE : 0 < invariant i.E)
    (hbig : ∃ x ∈ LocalIter.isolated (creepAniso v m i) (invariant i.E), x ≤ 10 ^ 100 / v.sEta)
    (hp : m.plast = true → GoodPlastic v m i)
    (o : Out) (hr : updateAniso v m i angle ani true = .ok o) :
    |o.wDiss - (2 * (2 * o.etaVE * invariant i.E) * invariant i.E
        - (2 * o.etaVE * invariant i.E) * (2 * o.etaVE * invariant i.E) * (if v.el then 1 / (i.G * v.dt) else 0))|
      ≤ 1 / 10 ^ 10 * (2 * (2 * o.etaVE * invariant i.E) * invariant i.E) := by
  obtain ⟨etaVe, tii, h, _, hw⟩ := aniso_facts v m i angle ani true hs hE hbig o hr
  obtain ⟨hy1, hy2, hpos⟩ := h.stress hs hE hp
  have hw := hw rfl
  have hV := viscous_nonneg _ (creepAniso_physical v m i hs) tii h.pos
  have hq0 : 0 ≤ (if v.el then 1 / (i.G * v.dt) else 0 : ℝ) := by
    split
    · exact (div_pos one_pos (mul_pos hs.G hs.dt)).le
    · exact le_rfl
  have hsum := h.sum
  generalize (if v.el then 1 / (i.G * v.dt) else 0 : ℝ) = q at *
  by_cases hy : Yields m i tii
  · obtain ⟨_, hg, _, _, hy0⟩ := plastic_facts v m i (hp hy.1) hs.dt etaVe tii h.eta hy
    rw [if_pos hy] at hw
    rw [hy1 hy]
    have := balance_plastic (t := 1 / 10 ^ 11) (by positivity) (by norm_num) hE h.pos h.le h.ge rfl hsum hy0
      (by nlinarith [mul_pos hg h.eta]) (g := plasticRate v m i etaVe tii) (by ring) h.eta hw
    refine this.trans ?_
    have : 0 < (tii - plasticRate v m i etaVe tii * etaVe) * invariant i.E := mul_pos hy0 hE
    nlinarith
  · obtain ⟨he, hg⟩ := hy2 hy
    rw [if_neg hy, hg] at hw
    rw [he]
    have := balance_elastic (t := 1 / 10 ^ 11) (by positivity) (by norm_num) hE h.pos hq0 hV h.le h.ge hsum
      (d := o.wDiss) (by rw [hw]; ring)
    refine this.trans ?_
    have : 0 < etaVe * invariant i.E * invariant i.E := mul_pos (mul_pos h.eta hE) hE
    nlinarith

/-- So without elasticity more heat is made than the stress does work, by the part for shear along the layers. -/
theorem aniso_heat_excess (v : Env) (m : Mat) (i : In) (angle ani : ℝ) (hs : Sound v m i) (hE : 0 < invariant i.E)
    (hbig : ∃ x ∈ LocalIter.isolated (creepAniso v m i) (invariant i.E), x ≤ 10 ^ 100 / v.sEta)
    (hp : m.plast = true → GoodPlastic v m i) (hani : ani ≠ 0) (hel : v.el = false)
    (o : Out) (hr : updateAniso v m i angle ani true = .ok o) :
    |o.wDiss - (power o.T i.E + 4 * o.etaVE * (1 - 1 / ani) * (inLayers angle i.E).xz ^ 2)|
      ≤ 1 / 10 ^ 10 * (4 * o.etaVE * invariant i.E ^ 2) := by
  have h1 := aniso_heat v m i angle ani hs hE hbig hp o hr
  obtain ⟨etaVe, tii, h, _, _⟩ := aniso_facts v m i angle ani true hs hE hbig o hr
  have h2 := layered_power angle o.etaVE ani hani i.E
  rw [← h.T] at h2
  rw [if_neg (by simp [hel])] at h1
  rw [h2]
  have e1 : 4 * o.etaVE * (invariant i.E ^ 2 - (1 - 1 / ani) * (inLayers angle i.E).xz ^ 2)
      + 4 * o.etaVE * (1 - 1 / ani) * (inLayers angle i.E).xz ^ 2
      = 2 * (2 * o.etaVE * invariant i.E) * invariant i.E
        - (2 * o.etaVE * invariant i.E) * (2 * o.etaVE * invariant i.E) * 0 := by ring
  have e2 : 4 * o.etaVE * invariant i.E ^ 2 = 2 * (2 * o.etaVE * invariant i.E) * invariant i.E := by ring
  rw [e1, e2]
  exact h1

/-- For shear along the layers the heat is the work multiplied by the anisotropy factor. -/
theorem aniso_heat_overstated (v : Env) (m : Mat) (i : In) (angle ani : ℝ) (hs : Sound v m i) (hE : 0 < invariant i.E)
    (hbig : ∃ x ∈ LocalIter.isolated (creepAniso v m i) (invariant i.E), x ≤ 10 ^ 100 / v.sEta)
    (hp : m.plast = true → GoodPlastic v m i) (hani : 1 ≤ ani) (hel : v.el = false)
    (hx : (inLayers angle i.E).xx = 0) (hz : (inLayers angle i.E).zz = 0)
    (o : Out) (hr : updateAniso v m i angle ani true = .ok o) :
    0 < power o.T i.E ∧ (1 - 1 / 10 ^ 10) * (ani * power o.T i.E) ≤ o.wDiss := by
  have ha : 0 < ani := by linarith
  have h1 := aniso_heat_excess v m i angle ani hs hE hbig hp ha.ne' hel o hr
  obtain ⟨etaVe, tii, h, _, _⟩ := aniso_facts v m i angle ani true hs hE hbig o hr
  obtain ⟨_, _, hpos⟩ := h.stress hs hE hp
  have h2 := layered_power angle o.etaVE ani ha.ne' i.E
  rw [← h.T] at h2
  have h3 : (inLayers angle i.E).xz ^ 2 = invariant i.E ^ 2 := by
    have h4 : invariant i.E = invariant (inLayers angle i.E) := (invariant_turn _ _).symm
    have h5 := invariant_sq (inLayers angle i.E)
    rw [← h4] at h5
    unfold power at h5
    rw [hx, hz] at h5
    linarith
  have h4 : power o.T i.E = 4 * o.etaVE * invariant i.E ^ 2 / ani := by
    rw [h2, h3]; field_simp; ring
  have h5 : 0 < 4 * o.etaVE * invariant i.E ^ 2 := by positivity
  refine ⟨by rw [h4]; positivity, ?_⟩
  rw [h3] at h1
  have h6 : ani * power o.T i.E = 4 * o.etaVE * invariant i.E ^ 2 := by rw [h4]; field_simp
  have h7 : power o.T i.E + 4 * o.etaVE * (1 - 1 / ani) * invariant i.E ^ 2 = 4 * o.etaVE * invariant i.E ^ 2 := by
    rw [h4]; field_simp; ring
  rw [h7] at h1
  rw [h6]
  linarith [(abs_le.1 h1).1]

end Verif.Point
