import Verif.Props.PointLaw

/-!
C121: where the heat source is not the inelastic work, and where the program stops; cases that meet the hypotheses of
the theorems in Props/PointLaw.lean.
-/
namespace Verif.Point
open Verif Verif.Spec

private theorem solve_exact (c : LocalIter.Creep) (E tol : ℝ) (ht : 0 < tol) (n : Nat) (eta t : ℝ)
    (h : LocalIter.residual c E eta = 0) : LocalIter.solve c E tol (n + 1) eta t = .ok eta (2 * eta * E) := by
  simp only [LocalIter.solve, h, zero_div, abs_zero]
  rw [if_pos (by positivity)]

/-- A rock in SI units: constant viscosity `1e22`, elastic, plastic with cohesion 20 MPa, friction angle 30 degrees. -/
noncomputable def rock : Mat where
  cst := true
  pwl := false
  exp := false
  lin := false
  gbs := false
  plast := true
  eta0 := 10 ^ 22
  mixWith := none
  pre := 1
  pwlLaw := ⟨0, 1, 0, 0, 0, 0, 1, 1, 0, 1⟩
  linLaw := ⟨0, 1, 0, 0, 0, 0, 1, 1, 0, 1⟩
  gbsLaw := ⟨0, 1, 0, 0, 0, 0, 1, 1, 0, 1⟩
  expLaw := ⟨0, 1 / 2, 1, 1, 1, 1⟩
  slim := 10 ^ 9
  etaVp := 0
  nVp := 1
  gsRef := 1

/-- Settings in SI units; time step of about 3000 years. -/
noncomputable def settings (elastic : Bool) : Env where
  elastic := elastic
  step0 := false
  dt := 10 ^ 11
  minEta := 10 ^ 18
  maxEta := 10 ^ 25
  tol := 1 / 10 ^ 9
  R := 8314 / 1000
  mixing := false
  avg := 0
  sE := 1
  sS := 1
  sT := 1
  sL := 1
  sEta := 1

/-- A node deforming in pure shear at the rate `e`, without stored stress, at pressure `P`. -/
noncomputable def node (e P : ℝ) : In where
  G := 10 ^ 10
  T := 300
  P := P
  d := 1
  phi := 0
  X0 := 0
  E := ⟨e, -e, 0⟩
  old := ⟨0, 0, 0⟩
  dil := 0
  fric := Real.pi / 6
  C := 2 * 10 ^ 7
  P0 := P
  beta := 1 / 10 ^ 10

/-- Strain rate invariant of `node`. -/
theorem node_rate (b : Bool) (e P : ℝ) (h : 1 / 10 ^ 30 ≤ e) : rate (settings b) (node e P).E = e := by
  have h0 : 0 ≤ e := le_trans (by positivity) h
  have hi : invariant (node e P).E = e := by
    unfold invariant node
    dsimp only
    rw [show (1 : ℝ) / 2 * (e * e + -e * -e + -(e + -e) * -(e + -e)) + 0 * 0 = e ^ 2 by ring, Real.sqrt_sq h0]
  unfold rate
  rw [hi]
  simp only [settings, mul_one]
  rw [if_neg (not_lt.2 h)]

private theorem node_creep (e P : ℝ) : creep (settings true) rock id (node e P)
    = { el := some (10 ^ 21), cst := some (10 ^ 22), pwl := none, exp := none, lin := none, gbs := none, d := 1 } := by
  unfold creep
  simp only [settings, rock, node, Env.el, moduli, Env.dtEff, constantViscosity]
  norm_num

/-- The local iterations of `rock`. -/
theorem node_run (e : ℝ) (he : 0 < e) :
    LocalIter.run { el := some (10 ^ 21), cst := some (10 ^ 22), pwl := none, exp := none, lin := none, gbs := none, d := 1 }
      e (1 / 10 ^ 11) (10 ^ 100 / 1) = .ok (10 ^ 22 / 11) (2 * (10 ^ 22 / 11) * e) := by
  have hg : LocalIter.guess { el := some (10 ^ 21), cst := some (10 ^ 22), pwl := none, exp := none, lin := none, gbs := none, d := 1 }
      e (10 ^ 100 / 1) = 10 ^ 21 := by
    unfold LocalIter.guess LocalIter.isolated
    simp only [Option.toList_some, Option.toList_none, List.map_nil, List.append_nil, List.cons_append, List.nil_append,
      List.foldl_cons, List.foldl_nil]
    rw [min_eq_right (by norm_num : (10 : ℝ) ^ 22 ≤ 10 ^ 100 / 1), min_eq_right (by norm_num : (10 : ℝ) ^ 21 ≤ 10 ^ 22)]
  have hres : ∀ x : ℝ, LocalIter.residual { el := some (10 ^ 21), cst := some (10 ^ 22), pwl := none, exp := none, lin := none, gbs := none, d := 1 } e x
      = e - x * e * (11 / 10 ^ 22) := by
    intro x
    unfold LocalIter.residual LocalIter.elasticRate LocalIter.rates
    simp only [Option.toList_some, Option.toList_none, List.map_nil, List.map_cons, List.append_nil,
      List.sum_cons, List.sum_nil, add_zero]
    ring
  have hsl : LocalIter.slope { el := some (10 ^ 21), cst := some (10 ^ 22), pwl := none, exp := none, lin := none, gbs := none, d := 1 } e (10 ^ 21)
      = -e * (11 / 10 ^ 22) := by
    unfold LocalIter.slope
    simp only [Option.toList_some, Option.toList_none, List.map_nil, List.map_cons,
      List.sum_cons, List.sum_nil, add_zero]
    ring
  unfold LocalIter.run
  rw [hg, LocalIter.solve, hres, hsl]
  have h1 : (e - 10 ^ 21 * e * (11 / 10 ^ 22)) / e = -1 / 10 := by field_simp; norm_num
  rw [h1, if_neg (by rw [abs_div, abs_neg]; norm_num), if_neg (by norm_num), if_neg (by
    have : 0 < e * (11 / 10 ^ 22) := by positivity
    rw [neg_mul]; exact (neg_neg_of_pos this).ne)]
  have h2 : (10 : ℝ) ^ 21 - (e - 10 ^ 21 * e * (11 / 10 ^ 22)) / (-e * (11 / 10 ^ 22)) = 10 ^ 22 / 11 := by
    field_simp; norm_num
  rw [h2]
  apply solve_exact _ _ _ (by norm_num)
  rw [hres]
  field_simp
  norm_num

private theorem sound_rock (e P : ℝ) : Sound (settings true) rock (node e P) where
  dt := by simp only [settings]; positivity
  R := by simp only [settings]; norm_num
  sE := by simp only [settings]; positivity
  sT := by simp only [settings]; positivity
  sS := by simp only [settings]; positivity
  sEta := by simp only [settings]; positivity
  G := by simp only [node]; positivity
  d := by simp only [node]; positivity
  eta0 := by simp only [rock]; positivity
  pre := by simp only [rock]; positivity
  pwl := by simp [rock]
  lin := by simp [rock]
  exp := by simp [rock]
  gbs := rfl
  mix := by simp [rock]
  X := by simp [node]
  some := Or.inl rfl

private theorem simple_rock (e P : ℝ) (hP : 0 ≤ P) : SimplePlastic (settings true) rock (node e P) where
  nVp := rfl
  etaVp := le_rfl
  slim := by simp only [rock]; positivity
  dil := fun _ => by simp [node]
  positive := by
    simp only [node, Real.cos_pi_div_six, Real.sin_pi_div_six]
    positivity
  tol := by simp only [settings]; positivity

/-- In tension the program stops although nothing is wrong with the parameters: a rock of ordinary viscosity, stiffness,
cohesion and friction, deforming at `1e-17` per second at a pressure of -100 MPa.  The trial stress is 18 kPa; because the
strength is negative the stress is reset to 0.1 MPa, which is above the trial stress, the plastic rate becomes negative,
and so does the dissipation. -/
theorem tension_stops :
    Sound (settings true) rock (node (1 / 10 ^ 17) (-10 ^ 8)) ∧
    update (settings true) rock id (node (1 / 10 ^ 17) (-10 ^ 8)) true = .exit 1 := by
  refine ⟨sound_rock _ _, ?_⟩
  have hE := node_rate true (1 / 10 ^ 17) (-10 ^ 8) (by norm_num)
  unfold update
  rw [node_creep, hE, if_neg (by simp [rock])]
  have hrun := node_run (1 / 10 ^ 17) (by norm_num)
  rw [show (settings true).sEta = 1 from rfl]
  dsimp only
  rw [hrun]
  dsimp only
  have hty : strength rock (node (1 / 10 ^ 17) (-10 ^ 8)) ≤ -(3 * 10 ^ 7) := by
    unfold strength
    rw [Rheo.yield_cap]
    refine le_trans (min_le_right _ _) ?_
    simp only [node, Real.cos_pi_div_six, Real.sin_pi_div_six]
    have : Real.sqrt 3 ≤ 2 := Real.sqrt_le_iff.2 ⟨by norm_num, by norm_num⟩
    nlinarith
  have hpl : yielding (settings true) rock (node (1 / 10 ^ 17) (-10 ^ 8)) (1 / 10 ^ 17) (10 ^ 22 / 11)
      (2 * (10 ^ 22 / 11) * (1 / 10 ^ 17))
      = ⟨10 ^ 5, -10 ^ 8, (2 * (10 ^ 22 / 11) * (1 / 10 ^ 17) - 10 ^ 5) / (10 ^ 22 / 11), 0, true⟩ := by
    unfold yielding
    rw [if_pos (show rock.plast = true from rfl)]
    generalize strength rock (node (1 / 10 ^ 17) (-10 ^ 8)) = ty at *
    have hone : ∀ x : ℝ, x ^ (1 / rock.nVp - 1) = 1 := by
      intro x; simp [rock]
    obtain ⟨q, hq⟩ : ∃ q, q = retPar (settings true) rock (node (1 / 10 ^ 17) (-10 ^ 8)) (10 ^ 22 / 11)
      (2 * (10 ^ 22 / 11) * (1 / 10 ^ 17)) := ⟨_, rfl⟩
    have q1 : q.tii = 2 * (10 ^ 22 / 11) * (1 / 10 ^ 17) := by rw [hq]; rfl
    have q2 : q.etaVe = 10 ^ 22 / 11 := by rw [hq]; rfl
    have q3 : q.etaVp0 = 0 := by rw [hq]; rfl
    have q4 : q.P = -10 ^ 8 := by rw [hq]; rfl
    have q5 : q.sind = 0 := by rw [hq]; simp [retPar, moduli, settings, Env.el, node]
    have q6 : 0 < q.tol := by rw [hq]; simp only [retPar, settings]; positivity
    rw [← hq, hone]
    clear hq hone hE hrun
    have hF : 0 < q.tii - ty := by rw [q1]; linarith [show (0:ℝ) ≤ 2 * (10 ^ 22 / 11) * (1 / 10 ^ 17) by norm_num]
    have hs1 : Rheo.retStep q (q.tii - ty) (Rheo.retInit q 1 ty)
        = ⟨(q.tii - ty) / q.etaVe, ty, q.P, 0, ty, 0, true⟩ := by
      have hev : q.etaVe ≠ 0 := by rw [q2]; norm_num
      simp only [Rheo.retStep, Rheo.retInit, q3, q5, zero_mul, mul_zero, add_zero, neg_zero, Bool.false_eq_true, if_false]
      have : q.tii - q.etaVe * ((q.tii - ty) / q.etaVe) = ty := by field_simp; ring
      rw [this, sub_self, abs_zero, if_pos (Or.inl q6)]
    have hfor : forUp 20 (Rheo.retInit q 1 ty) (fun s _ => Rheo.retStep q (q.tii - ty) s)
        = ⟨(q.tii - ty) / q.etaVe, ty, q.P, 0, ty, 0, true⟩ := by
      have : ∀ n, forUp (n + 1) (Rheo.retInit q 1 ty) (fun s _ => Rheo.retStep q (q.tii - ty) s)
          = ⟨(q.tii - ty) / q.etaVe, ty, q.P, 0, ty, 0, true⟩ := by
        intro n
        induction n with
        | zero => exact hs1
        | succ n ih => rw [forUp_succ, ih, Rheo.retStep_stop _ _ _ rfl]
      exact this 19
    unfold Rheo.plastic
    rw [if_pos (by rw [q1]; linarith [show (1:ℝ) / 10 ^ 17 ≤ 2 * (10 ^ 22 / 11) * (1 / 10 ^ 17) by norm_num]), hfor]
    dsimp only
    rw [if_pos (by linarith), q1, q2, q4]
    simp [settings]
  unfold finish
  rw [hpl]
  dsimp only
  have hinv : dissInverse rock { el := some (10 ^ 21), cst := some (10 ^ 22), pwl := none, exp := none, lin := none, gbs := none, d := 1 }
      ⟨10 ^ 5, -10 ^ 8, (2 * (10 ^ 22 / 11) * (1 / 10 ^ 17) - 10 ^ 5) / (10 ^ 22 / 11), 0, true⟩
      (2 * (10 ^ 22 / 11) * (1 / 10 ^ 17)) < 0 := by
    simp only [dissInverse, inverse, powerInv, linInv, cstInv, if_true, Option.elim_some]
    norm_num
  rw [if_neg (by norm_num), if_pos ⟨rfl, by nlinarith⟩]

/-- Diffusion creep heats at the wrong grain size: in a material with Newtonian diffusion creep only, without elasticity,
the heat source is the stress power times `(d/d_ref)^m`, with `d` the grain size that controls the viscosity and `d_ref` the
reference value of the material. -/
theorem heat_wrong_grain (v : Env) (m : Mat) (huet : ℝ × ℝ → ℝ × ℝ) (i : In) (hs : Sound v m i)
    (hel : v.el = false) (hcst : m.cst = false) (hpwl : m.pwl = false) (hexp : m.exp = false) (hlin : m.lin = true)
    (hpl : m.plast = false) (hn : m.linLaw.n = 1) (hg : 0 < m.gsRef) (hd : 1 / 10 ^ 13 / v.sL ≤ i.d)
    (hfloor : 1 / 10 ^ 30 ≤ invariant i.E * v.sE)
    (hbig : prefactor v 1 (clampT v i.T) i.P 1 i.phi m.linLaw * i.d ^ m.linLaw.m ≤ 10 ^ 100 / v.sEta) :
    ∃ o, update v m huet i true = .ok o ∧ 0 < power o.T i.E
      ∧ o.wDiss = (i.d / m.gsRef) ^ m.linLaw.m * power o.T i.E := by
  have hl := hs.lin hlin
  have hrate : rate v i.E = invariant i.E := by unfold rate; rw [if_neg (not_lt.2 hfloor)]
  have hEp := (rate_ge v hs.sE i.E).2
  have hdp := hs.d
  obtain ⟨B, hB⟩ : ∃ B, B = prefactor v 1 (clampT v i.T) i.P 1 i.phi m.linLaw := ⟨_, rfl⟩
  have hBp : 0 < B := by
    rw [hB]
    unfold prefactor Dens.pureB
    have hf : 0 < m.linLaw.f ^ (-m.linLaw.r / m.linLaw.n) := by
      rcases hl.f with h | h
      · exact Real.rpow_pos_of_pos h _
      · rw [h, neg_zero, zero_div, Real.rpow_zero]; exact one_pos
    have hA := Real.rpow_pos_of_pos hl.A (-1 / m.linLaw.n)
    have hF := hl.F
    positivity
  rw [← hB] at hbig
  have hcr : creep v m huet i
      = { el := none, cst := none, pwl := none, exp := none, lin := some (B, 1, m.linLaw.m), gbs := none, d := i.d } := by
    unfold creep
    simp [hel, hcst, hpwl, hexp, hlin, hs.gbs, hn, hB]
  have hdm : 0 < i.d ^ m.linLaw.m := Real.rpow_pos_of_pos hdp _
  have hres : LocalIter.residual (creep v m huet i) (rate v i.E) (B * i.d ^ m.linLaw.m) = 0 := by
    rw [hcr]
    unfold LocalIter.residual LocalIter.elasticRate LocalIter.rates LocalIter.pref
    simp only [Option.toList_some, Option.toList_none, List.map_nil, List.map_cons, List.append_nil,
      List.nil_append, List.sum_cons, List.sum_nil, add_zero, Real.rpow_one, sub_zero]
    rw [Real.rpow_neg_one, Real.rpow_neg hdp.le]
    field_simp
    norm_num
  have hguess : LocalIter.guess (creep v m huet i) (rate v i.E) (10 ^ 100 / v.sEta) = B * i.d ^ m.linLaw.m := by
    rw [hcr]
    unfold LocalIter.guess LocalIter.isolated
    simp only [Option.toList_some, Option.toList_none, List.map_nil, List.map_cons, List.append_nil,
      List.nil_append, List.foldl_cons, List.foldl_nil, div_one, sub_self, Real.rpow_zero, mul_one]
    exact min_eq_right hbig
  have hrun : LocalIter.run (creep v m huet i) (rate v i.E) (1 / 10 ^ 11) (10 ^ 100 / v.sEta)
      = .ok (B * i.d ^ m.linLaw.m) (2 * (B * i.d ^ m.linLaw.m) * rate v i.E) := by
    unfold LocalIter.run
    rw [hguess]
    exact solve_exact _ _ _ (by positivity) _ _ _ hres
  obtain ⟨t, ht⟩ : ∃ t, t = 2 * (B * i.d ^ m.linLaw.m) * rate v i.E := ⟨_, rfl⟩
  have htp : 0 < t := by rw [ht]; positivity
  have hy : ∀ E x, yielding v m i E x t = ⟨t, i.P, 0, m.etaVp, false⟩ := by
    intro E x; unfold yielding; rw [hpl]; simp
  have hinv : dissInverse m (creep v m huet i) ⟨t, i.P, 0, m.etaVp, false⟩ t = 1 / (B * m.gsRef ^ m.linLaw.m) := by
    unfold dissInverse inverse
    rw [hcr]
    simp [powerInv, linInv, cstInv]
  have hgm : 0 < m.gsRef ^ m.linLaw.m := Real.rpow_pos_of_pos hg _
  unfold update
  rw [if_neg (fun h => absurd h.2.2 (not_lt.2 hd))]
  dsimp only
  rw [hrun, ← ht]
  simp only [finish, hy, hinv]
  rw [if_neg (by simp), if_neg (by
    rintro ⟨_, h⟩
    have : 0 < t * t * (1 / (B * m.gsRef ^ m.linLaw.m)) := by positivity
    linarith)]
  refine ⟨_, rfl, ?_⟩
  simp only [if_true, effViscosity, Bool.false_eq_true, if_false]
  have hpow : power ⟨2 * (B * i.d ^ m.linLaw.m) * i.E.xx, 2 * (B * i.d ^ m.linLaw.m) * i.E.zz,
      2 * (B * i.d ^ m.linLaw.m) * i.E.xz⟩ i.E = 2 * (B * i.d ^ m.linLaw.m) * (2 * rate v i.E ^ 2) := by
    rw [hrate, invariant_sq]; unfold power; ring
  rw [hpow]
  refine ⟨by positivity, ?_⟩
  rw [Real.div_rpow hdp.le hg.le, ht]
  field_simp

/-- Grain boundary sliding gives no heat: in a material that creeps by grain boundary sliding only, the dissipation is
zero at every stress and strain rate. -/
theorem sliding_gives_no_heat (v : Env) (m : Mat) (huet : ℝ × ℝ → ℝ × ℝ) (i : In)
    (hcst : m.cst = false) (hpwl : m.pwl = false) (hexp : m.exp = false) (hlin : m.lin = false)
    (hpl : m.plast = false) (o : Out) (hr : update v m huet i true = .ok o) : o.wDiss = 0 ∧ o.eta = v.maxEta := by
  unfold update at hr
  rw [if_neg (by simp [hlin])] at hr
  dsimp only at hr
  split at hr
  · exact absurd hr (by simp)
  · exact absurd hr (by simp)
  next etaVe tii hrun =>
  have hy : yielding v m i (rate v i.E) etaVe tii = ⟨tii, i.P, 0, m.etaVp, false⟩ := by
    unfold yielding; rw [hpl]; simp
  have hinv : dissInverse m (creep v m huet i) ⟨tii, i.P, 0, m.etaVp, false⟩ tii = 0 := by
    simp [dissInverse, inverse, creep, hcst, hpwl, hexp, hlin, powerInv, linInv, cstInv]
  simp only [finish, hy, hinv] at hr
  rw [if_neg (by simp), if_neg (by simp)] at hr
  simp only [Res.ok.injEq] at hr
  rw [← hr]
  simp

/-- The hypotheses of `heat_partial`, `update_total_partial` and `stress_below_strength` are met by a rock that deforms at
`1e-13` per second under a pressure of 100 MPa; the update gives a result, and the rock yields. -/
theorem rock_yields : Sound (settings true) rock (node (1 / 10 ^ 13) (10 ^ 8))
    ∧ SimplePlastic (settings true) rock (node (1 / 10 ^ 13) (10 ^ 8))
    ∧ 0 < yieldStrength rock (node (1 / 10 ^ 13) (10 ^ 8))
    ∧ 1 / 10 ^ 30 ≤ invariant (node (1 / 10 ^ 13) (10 ^ 8)).E * (settings true).sE
    ∧ (∃ x ∈ LocalIter.isolated (creep (settings true) rock id (node (1 / 10 ^ 13) (10 ^ 8)))
        (rate (settings true) (node (1 / 10 ^ 13) (10 ^ 8)).E), x ≤ 10 ^ 100 / (settings true).sEta)
    ∧ (node (1 / 10 ^ 13) (10 ^ 8)).E = plus ⟨1 / 10 ^ 13, -(1 / 10 ^ 13), 0⟩
        (elasticRate (10 ^ 10 * 10 ^ 11) (node (1 / 10 ^ 13) (10 ^ 8)).old ⟨0, 0, 0⟩)
    ∧ ∃ o, update (settings true) rock id (node (1 / 10 ^ 13) (10 ^ 8)) true = .ok o ∧ 0 < o.eIIpl := by
  have hs := sound_rock (1 / 10 ^ 13) (10 ^ 8)
  have hp := simple_rock (1 / 10 ^ 13) (10 ^ 8) (by norm_num)
  have hE := node_rate true (1 / 10 ^ 13) (10 ^ 8) (by norm_num)
  have h3 : 0 ≤ Real.sqrt 3 := Real.sqrt_nonneg _
  have hy : 0 < yieldStrength rock (node (1 / 10 ^ 13) (10 ^ 8)) := by
    unfold yieldStrength
    simp only [rock, node, Real.cos_pi_div_six, Real.sin_pi_div_six]
    exact lt_min (by positivity) (by positivity)
  have hyu : yieldStrength rock (node (1 / 10 ^ 13) (10 ^ 8)) ≤ 7 * 10 ^ 7 := by
    unfold yieldStrength
    refine le_trans (min_le_right _ _) ?_
    simp only [node, Real.cos_pi_div_six, Real.sin_pi_div_six]
    have : Real.sqrt 3 ≤ 2 := Real.sqrt_le_iff.2 ⟨by norm_num, by norm_num⟩
    nlinarith
  have hrun := node_run (1 / 10 ^ 13) (by norm_num)
  refine ⟨hs, hp, hy, ?_, ?_, ?_, ?_⟩
  · have hi : invariant (node (1 / 10 ^ 13) (10 ^ 8)).E = 1 / 10 ^ 13 := by
      unfold invariant node
      dsimp only
      rw [show (1 : ℝ) / 2 * (1 / 10 ^ 13 * (1 / 10 ^ 13) + -(1 / 10 ^ 13) * -(1 / 10 ^ 13)
        + -(1 / 10 ^ 13 + -(1 / 10 ^ 13)) * -(1 / 10 ^ 13 + -(1 / 10 ^ 13))) + 0 * 0 = (1 / 10 ^ 13) ^ 2 by ring,
        Real.sqrt_sq (by positivity)]
    rw [hi]; simp only [settings]; norm_num
  · rw [node_creep]
    refine ⟨10 ^ 21, ?_, ?_⟩
    · simp [LocalIter.isolated]
    · simp only [settings]; norm_num
  · simp [node, plus, elasticRate]
  · rcases update_total_partial (settings true) rock id (node (1 / 10 ^ 13) (10 ^ 8)) true hs (fun q h1 h2 => ⟨h1, h2⟩)
      (fun _ => hp) (fun _ => Or.inr hy) (by simp [rock]) (by simp [settings, node]; norm_num) with h | ⟨o, ho⟩
    · exfalso
      unfold update at h
      rw [node_creep, hE, if_neg (by simp [rock]), show (settings true).sEta = 1 from rfl] at h
      dsimp only at h
      rw [hrun] at h
      simp only [finish] at h
      split at h
      · exact absurd h (by simp)
      · split at h
        · simp at h
        · exact absurd h (by simp)
    · refine ⟨o, ho, ?_⟩
      unfold update at ho
      rw [node_creep, hE, if_neg (by simp [rock]), show (settings true).sEta = 1 from rfl] at ho
      dsimp only at ho
      rw [hrun] at ho
      have hpl : (yielding (settings true) rock (node (1 / 10 ^ 13) (10 ^ 8)) (1 / 10 ^ 13) (10 ^ 22 / 11)
          (2 * (10 ^ 22 / 11) * (1 / 10 ^ 13))).active = true
          ∧ 0 < (yielding (settings true) rock (node (1 / 10 ^ 13) (10 ^ 8)) (1 / 10 ^ 13) (10 ^ 22 / 11)
          (2 * (10 ^ 22 / 11) * (1 / 10 ^ 13))).gdot := by
        rcases yielding_simple (settings true) rock (node (1 / 10 ^ 13) (10 ^ 8)) (fun _ => hp) (1 / 10 ^ 13) (10 ^ 22 / 11)
          (2 * (10 ^ 22 / 11) * (1 / 10 ^ 13)) (by norm_num) with ⟨_, h⟩ | ⟨_, ha, _, hg, _⟩
        · have := h rfl
          have h9 : (7 * 10 ^ 7 + 1 / 10 ^ 17 : ℝ) < 2 * (10 ^ 22 / 11) * (1 / 10 ^ 13) := by norm_num
          linarith
        · exact ⟨ha, hg⟩
      simp only [finish] at ho
      split at ho
      · exact absurd ho (by simp)
      · split at ho
        · simp at ho
        · simp only [Res.ok.injEq] at ho
          rw [← ho]
          simp only
          rw [if_pos hpl.1]
          linarith [hpl.2]

/-- The same rock at `1e-16` per second creeps without yielding, with a viscosity within the limits. -/
theorem rock_creeps : Sound (settings true) rock (node (1 / 10 ^ 16) (10 ^ 8))
    ∧ SimplePlastic (settings true) rock (node (1 / 10 ^ 16) (10 ^ 8))
    ∧ 1 / 10 ^ 30 ≤ invariant (node (1 / 10 ^ 16) (10 ^ 8)).E * (settings true).sE
    ∧ (∃ x ∈ LocalIter.isolated (creep (settings true) rock id (node (1 / 10 ^ 16) (10 ^ 8)))
        (rate (settings true) (node (1 / 10 ^ 16) (10 ^ 8)).E), x ≤ 10 ^ 100 / (settings true).sEta)
    ∧ ∃ o, update (settings true) rock id (node (1 / 10 ^ 16) (10 ^ 8)) true = .ok o
      ∧ o.T = ⟨2 * o.etaVE * (1 / 10 ^ 16), 2 * o.etaVE * (-(1 / 10 ^ 16)), 2 * o.etaVE * 0⟩ := by
  have hs := sound_rock (1 / 10 ^ 16) (10 ^ 8)
  have hp := simple_rock (1 / 10 ^ 16) (10 ^ 8) (by norm_num)
  have hE := node_rate true (1 / 10 ^ 16) (10 ^ 8) (by norm_num)
  have h3 : 1 ≤ Real.sqrt 3 := Real.one_le_sqrt.2 (by norm_num)
  have hy : 5 * 10 ^ 7 ≤ yieldStrength rock (node (1 / 10 ^ 16) (10 ^ 8)) := by
    unfold yieldStrength
    simp only [rock, node, Real.cos_pi_div_six, Real.sin_pi_div_six]
    exact le_min (by norm_num) (by nlinarith)
  have hrun := node_run (1 / 10 ^ 16) (by norm_num)
  refine ⟨hs, hp, ?_, ?_, ?_⟩
  · have hi : invariant (node (1 / 10 ^ 16) (10 ^ 8)).E = 1 / 10 ^ 16 := by
      unfold invariant node
      dsimp only
      rw [show (1 : ℝ) / 2 * (1 / 10 ^ 16 * (1 / 10 ^ 16) + -(1 / 10 ^ 16) * -(1 / 10 ^ 16)
        + -(1 / 10 ^ 16 + -(1 / 10 ^ 16)) * -(1 / 10 ^ 16 + -(1 / 10 ^ 16))) + 0 * 0 = (1 / 10 ^ 16) ^ 2 by ring,
        Real.sqrt_sq (by positivity)]
    rw [hi]; simp only [settings]; norm_num
  · rw [node_creep]
    refine ⟨10 ^ 21, ?_, ?_⟩
    · simp [LocalIter.isolated]
    · simp only [settings]; norm_num
  · have hpl : yielding (settings true) rock (node (1 / 10 ^ 16) (10 ^ 8)) (1 / 10 ^ 16) (10 ^ 22 / 11)
        (2 * (10 ^ 22 / 11) * (1 / 10 ^ 16)) = ⟨2 * (10 ^ 22 / 11) * (1 / 10 ^ 16), 10 ^ 8, 0, 0, false⟩ := by
      rcases yielding_simple (settings true) rock (node (1 / 10 ^ 16) (10 ^ 8)) (fun _ => hp) (1 / 10 ^ 16) (10 ^ 22 / 11)
        (2 * (10 ^ 22 / 11) * (1 / 10 ^ 16)) (by norm_num) with ⟨h, _⟩ | ⟨_, _, h1, h2, h3, _⟩
      · exact h
      · exfalso
        have h9 : (2 * (10 ^ 22 / 11) * (1 / 10 ^ 16) : ℝ) < 5 * 10 ^ 7 := by norm_num
        have h8 : rock.etaVp = 0 := rfl
        rw [h8, zero_mul, add_zero] at h1
        linarith
    have hinv : dissInverse rock { el := some (10 ^ 21), cst := some (10 ^ 22), pwl := none, exp := none, lin := none, gbs := none, d := 1 }
        ⟨2 * (10 ^ 22 / 11) * (1 / 10 ^ 16), 10 ^ 8, 0, 0, false⟩ (2 * (10 ^ 22 / 11) * (1 / 10 ^ 16)) = 1 / 10 ^ 22 := by
      simp [dissInverse, inverse, powerInv, linInv, cstInv]
    unfold update
    rw [node_creep, hE, if_neg (by simp [rock]), show (settings true).sEta = 1 from rfl]
    dsimp only
    rw [hrun]
    simp only [finish, hpl, hinv]
    rw [if_neg (by simp), if_neg (by norm_num)]
    refine ⟨_, rfl, ?_⟩
    have hl : Rheo.limiter (settings true).minEta (settings true).maxEta ((10 : ℝ) ^ 22 / 11) = 10 ^ 22 / 11 := by
      have h1 : (settings true).minEta = 10 ^ 18 := rfl
      have h2 : (settings true).maxEta = 10 ^ 25 := rfl
      rw [h1, h2]
      unfold Rheo.limiter
      norm_num
    simp only [effViscosity, Bool.false_eq_true, if_false, hl, node]

end Verif.Point
