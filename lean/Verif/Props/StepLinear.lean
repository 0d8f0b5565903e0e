import Verif.Props.StepEnergy
import Verif.Props.Extract

/-
C151: a model of linear materials (constant viscosity, elasticity) is solved by one solution of the linear system.
-/
namespace Verif.LocalIter

/-- Viscosity found by the iteration. -/
def Out.visc : Out → Option ℝ
  | .ok eta _ => some eta
  | _ => none

/-- With elasticity and constant viscosity only, the iteration makes the same steps at any strain rate. -/
theorem solve_linear (c : Creep) (hp : c.pwl = none) (he : c.exp = none) (hl : c.lin = none) (hg : c.gbs = none) (E F tol : ℝ)
    (hE : 0 < E) (hF : 0 < F) : ∀ (n : Nat) (eta t t' : ℝ), (solve c E tol n eta t).visc = (solve c F tol n eta t').visc := by
  have hr : ∀ E : ℝ, ∀ eta, residual c E eta = E * (1 - eta * ((c.el.toList.map fun e => 1 / e).sum + (c.cst.toList.map fun e => 1 / e).sum)) := by
    intro E eta
    unfold residual elasticRate rates
    rcases c with ⟨el, cst, pwl, exp, lin, gbs, d⟩
    simp only at hp he hl hg
    subst hp he hl hg
    cases el <;> cases cst <;> simp <;> ring
  have hs : ∀ E : ℝ, ∀ eta, slope c E eta = -E * ((c.el.toList.map fun e => 1 / e).sum + (c.cst.toList.map fun e => 1 / e).sum) := by
    intro E eta
    unfold slope
    rcases c with ⟨el, cst, pwl, exp, lin, gbs, d⟩
    simp only at hp he hl hg
    subst hp he hl hg
    cases el <;> cases cst <;> simp <;> ring
  generalize (c.el.toList.map fun e => 1 / e).sum + (c.cst.toList.map fun e => 1 / e).sum = q at hr hs
  intro n
  induction n with
  | zero => intro eta t t'; rfl
  | succ n ih =>
    intro eta t t'
    have e1 : ∀ E : ℝ, 0 < E → residual c E eta / E = 1 - eta * q := fun E hE => by rw [hr]; field_simp
    have e2 : ∀ E : ℝ, 0 < E → (slope c E eta = 0 ↔ q = 0) := fun E hE => by
      rw [hs, mul_eq_zero, neg_eq_zero]
      exact ⟨fun h => h.resolve_left hE.ne', Or.inr⟩
    have e3 : ∀ E : ℝ, 0 < E → residual c E eta / slope c E eta = -((1 - eta * q) / q) := fun E hE => by
      rw [hr, hs, neg_mul, div_neg, mul_div_mul_left _ _ hE.ne']
    simp only [solve, e1 E hE, e1 F hF, e2 E hE, e2 F hF, e3 E hE, e3 F hF]
    split_ifs
    · rfl
    · rfl
    · rfl
    · exact ih _ _ _

end Verif.LocalIter

namespace Verif.Point
open Verif

/-- Constant viscosity and elasticity: the viscosity returned does not depend on strain rate, pressure, temperature or grain size, and the
pressure is not corrected. -/
theorem linear_update (v : Env) (m : Mat) (huet : ℝ × ℝ → ℝ × ℝ) (i j : In) (ci cj : Bool) (hpwl : m.pwl = false) (hexp : m.exp = false)
    (hlin : m.lin = false) (hgbs : m.gbs = false) (hpl : m.plast = false) (hsE : 0 < v.sE) (hG : i.G = j.G) (hX : i.X0 = j.X0) (a b : Out)
    (ha : update v m huet i ci = .ok a) (hb : update v m huet j cj = .ok b) : a.etaVE = b.etaVE ∧ a.pcorr = i.P := by
  have hpos : ∀ e, 0 < rate v e := fun e => by
    unfold rate
    split
    · positivity
    · next h =>
      have : 0 < invariant e * v.sE := lt_of_lt_of_le (by positivity) (not_lt.1 h)
      exact (pos_iff_pos_of_mul_pos this).2 hsE
  have hel : (creep v m huet i).el = (creep v m huet j).el ∧ (creep v m huet i).cst = (creep v m huet j).cst := by
    unfold creep moduli; rw [hX]
    constructor
    · dsimp only
      split_ifs
      · simp [hG]
      · rfl
    · rfl
  have hnone : ∀ i, (creep v m huet i).pwl = none ∧ (creep v m huet i).exp = none ∧ (creep v m huet i).lin = none
      ∧ (creep v m huet i).gbs = none := fun i => by unfold creep; simp [hpwl, hexp, hlin, hgbs]
  have hguess : ∀ E F h, LocalIter.guess (creep v m huet i) E h = LocalIter.guess (creep v m huet j) F h := by
    intro E F h
    obtain ⟨n1, n2, n3, n4⟩ := hnone i
    obtain ⟨m1, m2, m3, m4⟩ := hnone j
    unfold LocalIter.guess LocalIter.isolated
    rw [n1, n2, n3, n4, m1, m2, m3, m4, hel.1, hel.2]
    rfl
  have hsolve : ∀ E tol n eta t, LocalIter.solve (creep v m huet i) E tol n eta t = LocalIter.solve (creep v m huet j) E tol n eta t := by
    intro E tol n
    obtain ⟨n1, n2, n3, n4⟩ := hnone i
    obtain ⟨m1, m2, m3, m4⟩ := hnone j
    have h1 : ∀ eta, LocalIter.residual (creep v m huet i) E eta = LocalIter.residual (creep v m huet j) E eta := fun eta => by
      unfold LocalIter.residual LocalIter.elasticRate LocalIter.rates
      rw [n1, n2, n3, n4, m1, m2, m3, m4, hel.1, hel.2]; rfl
    have h2 : ∀ eta, LocalIter.slope (creep v m huet i) E eta = LocalIter.slope (creep v m huet j) E eta := fun eta => by
      unfold LocalIter.slope
      rw [n1, n2, n3, m1, m2, m3, hel.1, hel.2]; rfl
    induction n with
    | zero => intro eta t; rfl
    | succ n ih => intro eta t; simp only [LocalIter.solve, h1, h2, ih]
  have hvisc : (LocalIter.run (creep v m huet i) (rate v i.E) (1 / 10 ^ 11) (10 ^ 100 / v.sEta)).visc
      = (LocalIter.run (creep v m huet j) (rate v j.E) (1 / 10 ^ 11) (10 ^ 100 / v.sEta)).visc := by
    unfold LocalIter.run
    rw [hguess (rate v i.E) (rate v j.E), hsolve]
    obtain ⟨m1, m2, m3, m4⟩ := hnone j
    exact LocalIter.solve_linear _ m1 m2 m3 m4 _ _ _ (hpos _) (hpos _) _ _ _ _
  have out : ∀ (i : In) (c : Bool) (a : Out), update v m huet i c = .ok a →
      ∃ e t, LocalIter.run (creep v m huet i) (rate v i.E) (1 / 10 ^ 11) (10 ^ 100 / v.sEta) = .ok e t
        ∧ a.etaVE = Rheo.limiter v.minEta v.maxEta e ∧ a.pcorr = i.P := by
    intro i c a h
    have hyy : ∀ E y t, yielding v m i E y t = ⟨t, i.P, 0, m.etaVp, false⟩ := by
      intro E y t; unfold yielding; simp [hpl]
    unfold update at h
    rw [if_neg (by simp [hlin])] at h
    dsimp only at h
    split at h
    · exact absurd h (by simp)
    · exact absurd h (by simp)
    · next e t he =>
      refine ⟨e, t, he, ?_⟩
      simp only [finish, hyy] at h
      split at h
      · exact absurd h (by simp)
      · split at h
        · exact absurd h (by simp)
        · simp only [Res.ok.injEq] at h
          rw [← h]
          exact ⟨by simp [effViscosity], rfl⟩
  obtain ⟨e, t, h1, h2, h3⟩ := out i ci a ha
  obtain ⟨e', t', h1', h2', -⟩ := out j cj b hb
  rw [h1, h1'] at hvisc
  simp only [LocalIter.Out.visc, Option.some.injEq] at hvisc
  exact ⟨by rw [h2, h2', hvisc], h3⟩

end Verif.Point

namespace Verif.StepFlow
open Verif

/-- Two updates of a viscoelastic model, at any flows and from any states: the viscosities are the same at every rock node, and the pressure
is not corrected. -/
theorem viscoelastic_linear (S : Setting) (hS : Viscoelastic S) (b b' : Bool) (f g : LS.Fields) (t t' r r' : Mech)
    (h : updateNL S b f t = .ok r) (h' : updateNL S b' g t' = .ok r') :
    (∀ c < S.ncells, ¬ (S.m.tp c = 30 ∨ S.m.tp c = 31) → (r.cells c).eta = (r'.cells c).eta ∧ (r.cells c).pcorr = f.p c)
    ∧ ∀ c < S.nverts, S.m.tg c ≠ 30 → (r.verts c).eta = (r'.verts c).eta := by
  obtain ⟨a1, a2, a3, a4, a5, a6, -⟩ := updateNL_ok h
  obtain ⟨b1, b2, b3, b4, b5, b6, -⟩ := updateNL_ok h'
  have hs := (Point.grid_spec S.env S.mean S.n S.mats S.huet S.ncells S.nverts _ _ t.cells t.verts).1 _ _ a6
  have hs' := (Point.grid_spec S.env S.mean S.n S.mats S.huet S.ncells S.nverts _ _ t'.cells t'.verts).1 _ _ b6
  obtain ⟨p1, p2⟩ := viscoelastic_points S hS f t
  obtain ⟨q1, q2⟩ := viscoelastic_points S hS g t'
  rw [← a1] at p1
  rw [← b1] at q1
  rw [← a1, ← a2, ← a3, ← a4, ← a5] at p2
  rw [← b1, ← b2, ← b3, ← b4, ← b5] at q2
  refine ⟨fun c hc ha => ?_, fun c hc ha => ?_⟩
  · obtain ⟨w1, w2, -⟩ := hS.cells c hc ha
    choose! o ho using p1 c hc ha
    choose! o' ho' using q1 c hc ha
    obtain ⟨s, e0, e1, -, -, -, -, -, -, -, -, -, -, e2, -⟩ := Point.cell_update S.env S.mean S.n S.mats S.huet (cellData S f r.rates c)
      (by simp only [cellData]; exact decide_eq_false ha) w1 hS.minEta hS.limits (fun p hp => (hS.mats p hp).2.2.2.2.2.2.2.2.2.1) o
      (fun p hp _ => ho p hp)
    obtain ⟨s', e0', e1', -⟩ := Point.cell_update S.env S.mean S.n S.mats S.huet (cellData S g r'.rates c)
      (by simp only [cellData]; exact decide_eq_false ha) w1 hS.minEta hS.limits (fun p hp => (hS.mats p hp).2.2.2.2.2.2.2.2.2.1) o'
      (fun p hp _ => ho' p hp)
    have k1 := hs.1 c hc
    have k2 := hs'.1 c hc
    rw [e0] at k1
    rw [e0'] at k2
    simp only [Point.Outcome.ok.injEq] at k1 k2
    rw [← k1, ← k2]
    have hl : ∀ p < S.n, (o p).etaVE = (o' p).etaVE ∧ (o p).pcorr = f.p c := fun p hp => by
      obtain ⟨c1, c2, c3, c4, c5, c6, -⟩ := hS.mats p hp
      exact Point.linear_update S.env (S.mats p) (S.huet p) ((cellData S f r.rates c).input S.env)
        ((cellData S g r'.rates c).input S.env) true true c2 c3 c4 c5 c6 hS.sE rfl rfl (o p) (o' p) (ho p hp) (ho' p hp)
    refine ⟨?_, ?_⟩
    · rw [e1, e1']
      exact mean_congr S _ _ _ _ fun p hp => (hl p hp).1
    · rw [e2]
      unfold Spec.share
      rw [Finset.sum_congr rfl fun p hp => by beta_reduce; rw [(hl p (Finset.mem_range.1 hp)).2], ← Finset.sum_mul]
      have : ∑ p ∈ Finset.range S.n, (cellData S f r.rates c).w p = 1 := w1.total
      rw [this, one_mul]
  · obtain ⟨w1, w2, -⟩ := hS.verts c hc ha
    choose! o ho using p2 c hc ha
    choose! o' ho' using q2 c hc ha
    obtain ⟨s, e0, e1, -⟩ := Point.vertex_update S.env S.mean S.n S.mats S.huet (vertData S r.rates r.Ts r.Ps r.ds r.phis c)
      (by simp only [vertData]; exact decide_eq_false ha) w1 hS.minEta hS.limits o (fun p hp _ => ho p hp)
    obtain ⟨s', e0', e1', -⟩ := Point.vertex_update S.env S.mean S.n S.mats S.huet (vertData S r'.rates r'.Ts r'.Ps r'.ds r'.phis c)
      (by simp only [vertData]; exact decide_eq_false ha) w1 hS.minEta hS.limits o' (fun p hp _ => ho' p hp)
    have k1 := hs.2.1 c hc
    have k2 := hs'.2.1 c hc
    rw [e0] at k1
    rw [e0'] at k2
    simp only [Point.Outcome.ok.injEq] at k1 k2
    rw [← k1, ← k2, e1, e1']
    refine mean_congr S _ _ _ _ fun p hp => ?_
    obtain ⟨c1, c2, c3, c4, c5, c6, -⟩ := hS.mats p hp
    exact (Point.linear_update S.env (S.mats p) (S.huet p)
      ((vertData S r.rates r.Ts r.Ps r.ds r.phis c).input S.env) ((vertData S r'.rates r'.Ts r'.Ps r'.ds r'.phis c).input S.env)
      false false c2 c3 c4 c5 c6 hS.sE rfl rfl (o p) (o' p) (ho p hp) (ho' p hp)).1
where
  mean_congr (S : Setting) (a : Point.Mean) (w : Nat → ℝ) (x y : Nat → ℝ) (h : ∀ p < S.n, x p = y p) :
      Spec.mean a S.n w x = Spec.mean a S.n w y := by
    unfold Spec.mean
    cases a
    · exact Finset.sum_congr rfl fun p hp => by rw [h p (Finset.mem_range.1 hp)]
    · simp only
      rw [Finset.sum_congr rfl fun p hp => by rw [h p (Finset.mem_range.1 hp)]]
    · exact Finset.prod_congr rfl fun p hp => by rw [h p (Finset.mem_range.1 hp)]

/-- The rows of the linear system do not change from pass to pass. -/
theorem ops_same (S : Setting) (hS : Viscoelastic S) (b b' : Bool) (f g : LS.Fields) (t o r : Mech) (h : updateNL S b f t = .ok o)
    (h' : updateNL S b' g o = .ok r) : opsOf S r = opsOf S o := by
  obtain ⟨e1, e2⟩ := viscoelastic_linear S hS b' b g f o t r o h' h
  obtain ⟨-, -, -, -, -, b6, -⟩ := updateNL_ok h'
  have hs := (Point.grid_spec S.env S.mean S.n S.mats S.huet S.ncells S.nverts _ _ o.cells o.verts).1 _ _ b6
  have hc : ∀ c : Nat, S.m.tp c ≠ 30 ∧ S.m.tp c ≠ 31 → (r.cells c).eta = (o.cells c).eta := fun c hc => by
    by_cases hlt : c < S.ncells
    · exact (e1 c hlt (not_or.2 hc)).1
    · rw [hs.2.2.1 c (not_lt.1 hlt)]
  have hv : ∀ c : Nat, S.m.tg c ≠ 30 → (r.verts c).eta = (o.verts c).eta := fun c hc => by
    by_cases hlt : c < S.nverts
    · exact e2 c hlt hc
    · rw [hs.2.2.2 c (not_lt.1 hlt)]
  unfold opsOf
  congr 1
  · funext c; split_ifs with hr
    · rw [hc c hr]
    · rfl
  · funext c; split_ifs with hr
    · rw [hc c hr]
    · rfl
  · funext c; split_ifs with hr
    · rw [hv c hr]
    · rfl

/-- The flow `f` changed by `a` times `d`. -/
noncomputable def shift (f d : LS.Fields) (a : ℝ) : LS.Fields :=
  ⟨fun i => f.u i + a * d.u i, fun i => f.v i + a * d.v i, fun i => f.p i + a * d.p i⟩

private theorem arr_nat (S : Setting) (a : Nat → ℝ) (i : Nat) : S.arr a (i : Int) = a i := by simp [Setting.arr]

/-- Stress and pressure of a cell change in proportion. -/
private theorem cell_shift (S : Setting) (hS : Viscoelastic S) (hvol : S.vol = false) (f d : LS.Fields) (a : ℝ) (t o r : Mech)
    (h : updateNL S false f t = .ok o) (h' : updateNL S false (shift f d a) o = .ok r) (k l : Nat) (hk : k < S.m.Nx - 1) (hl : l < S.m.Nz - 1)
    (hok : CellOk (S.m.tp (k + l * (S.m.Nx - 1) : Nat)))
    (hd : S.m.tp (k + l * (S.m.Nx - 1) : Nat) ≠ -1 → d.p (k + l * (S.m.Nx - 1)) = 0) :
    let c := k + l * (S.m.Nx - 1)
    let M := meshWith S (opsOf S o) o.rho
    (r.cells c).T.xx = (o.cells c).T.xx + a * tauxx M (S.arr d.u) (S.arr d.v) (c : Nat)
    ∧ (r.cells c).T.zz = (o.cells c).T.zz + a * tauzz M (S.arr d.u) (S.arr d.v) (c : Nat)
    ∧ (r.cells c).pcorr = (o.cells c).pcorr + a * d.p c
    ∧ r.rates.divu c = o.rates.divu c + a * (if S.m.tp (c : Nat) = -1 then
        (if S.m.oop then 3 / 2 else 1) * ((d.u (k + 1 + (l + 1) * S.m.Nx) - d.u (k + (l + 1) * S.m.Nx)) / S.m.dx
          + (d.v (k + 1 + (l + 1) * (S.m.Nx + 1)) - d.v (k + 1 + l * (S.m.Nx + 1))) / S.m.dz) else 0) := by
  intro c M
  have hc : c < S.ncells := cell_lt _ _ k l hk hl
  have hNx := hS.Nx
  have ci : ((c : Nat) : Int) = (k : Int) + (l : Int) * ((S.m.Nx : Int) - 1) := by
    simp only [c]; push_cast [Nat.cast_sub (show 1 ≤ S.m.Nx by omega)]; ring
  have eM : (M.Nx : Int) = S.m.Nx := rfl
  obtain ⟨t1, t2⟩ := tau_mk M (S.arr d.u) (S.arr d.v) k l (by omega) (by rw [eM]; omega) (by rw [eM, ← ci]; exact hok)
  rw [eM, ← ci] at t1 t2
  have iu1 : (k : Int) + 1 + ((l : Int) + 1) * S.m.Nx = ((k + 1 + (l + 1) * S.m.Nx : Nat) : Int) := by push_cast; ring
  have iu2 : (k : Int) + ((l : Int) + 1) * S.m.Nx = ((k + (l + 1) * S.m.Nx : Nat) : Int) := by push_cast; ring
  have iv1 : (k : Int) + 1 + ((l : Int) + 1) * (S.m.Nx + 1) = ((k + 1 + (l + 1) * (S.m.Nx + 1) : Nat) : Int) := by push_cast; ring
  have iv2 : (k : Int) + 1 + (l : Int) * (S.m.Nx + 1) = ((k + 1 + l * (S.m.Nx + 1) : Nat) : Int) := by push_cast; ring
  rw [iu1, iu2, iv1, iv2] at t1 t2
  simp only [arr_nat] at t1 t2
  have d1 : M.D11 (c : Nat) = (opsOf S o).D11 c := arr_nat S (opsOf S o).D11 c
  have d2 : M.D22 (c : Nat) = (opsOf S o).D22 c := arr_nat S (opsOf S o).D22 c
  have d3 : M.dx = S.m.dx := rfl
  have d4 : M.dz = S.m.dz := rfl
  have d5 : M.tp = S.m.tp := rfl
  have d6 : M.comp = S.m.comp := rfl
  have d7 : M.oop = S.m.oop := rfl
  rw [d1, d3, d4, d5, d6, d7] at t1
  rw [d2, d3, d4, d5, d6, d7] at t2
  have hf1 : finishStep S f t = .ok ({ f with p := LS.copyArr S.ncells f.p fun c => (o.cells c).pcorr }, o) := by
    unfold finishStep; rw [final_flag_unused S hvol true false, h]
  have hf2 : finishStep S (shift f d a) o = .ok ({ shift f d a with p := LS.copyArr S.ncells (shift f d a).p fun c => (r.cells c).pcorr }, r) := by
    unfold finishStep; rw [final_flag_unused S hvol true false, h']
  by_cases ht : S.m.tp (c : Nat) = -1
  · have ha : ¬ (S.m.tp (c : Nat) = 30 ∨ S.m.tp (c : Nat) = 31) := by omega
    obtain ⟨l1, -⟩ := viscoelastic_linear S hS false false f (shift f d a) t o o r h h'
    obtain ⟨l2, -⟩ := viscoelastic_linear S hS false false (shift f d a) f o t r o h' h
    obtain ⟨-, -, -, -, s1, -⟩ := recorded_stress_of_recorded_flow S hS.Nx hS.Nz [] f _ t t o rfl hf1
    obtain ⟨-, -, -, -, s2, -⟩ := recorded_stress_of_recorded_flow S hS.Nx hS.Nz [] (shift f d a) _ o o r rfl hf2
    obtain ⟨a1, -⟩ := updateNL_ok h
    obtain ⟨b1, -⟩ := updateNL_ok h'
    obtain ⟨f1, f2, f3⟩ := cell_rates S f t.rates k l hk hl ha
    obtain ⟨g1, g2, g3⟩ := cell_rates S (shift f d a) o.rates k l hk hl ha
    have hD : (opsOf S o).D11 c = 2 * (o.cells c).eta := by simp [opsOf, ht]
    have hD2 : (opsOf S o).D22 c = 2 * (o.cells c).eta := by simp [opsOf, ht]
    rw [hD] at t1
    rw [hD2] at t2
    have hfl : (flag (S.m.tp (c : Nat) == -1) : ℝ) = 1 := by simp [flag, ht]
    rw [hfl, mul_one] at t1 t2
    have hoop : ∀ x : ℝ, (if S.m.oop then 3 / 2 else 1) * x = x + (if S.m.oop then 1 else 0) * (1 / 2) * x := fun x => by
      split_ifs <;> ring
    rw [hoop] at t1 t2
    refine ⟨?_, ?_, ?_, ?_⟩
    · rw [s2 c hc ha, s1 c hc ha, (l2 c hc ha).1, t1]
      simp only [Point.nodeStress, Point.Node.eff, cellData]
      rw [a1, b1, f2, g2]
      simp only [shift]
      ring
    · rw [s2 c hc ha, s1 c hc ha, (l2 c hc ha).1, t2]
      simp only [Point.nodeStress, Point.Node.eff, cellData]
      rw [a1, b1, f3, g3]
      simp only [shift]
      ring
    · rw [(l2 c hc ha).2, (l1 c hc ha).2]; rfl
    · rw [if_pos ht, hoop, a1, b1, f1, g1]
      simp only [shift]
      ring
  · have ha : S.m.tp (c : Nat) = 30 ∨ S.m.tp (c : Nat) = 31 := hok.resolve_left ht
    have z1 := (air_zero hf1).1 c hc ha
    have z2 := (air_zero hf2).1 c hc ha
    have hfl : (flag (S.m.tp (c : Nat) == -1) : ℝ) = 0 := by simp [flag, ht]
    rw [hfl, mul_zero, zero_mul] at t1 t2
    rw [z1, z2, t1, t2, hd ht, if_neg ht]
    obtain ⟨a1, -⟩ := updateNL_ok h
    obtain ⟨b1, -⟩ := updateNL_ok h'
    refine ⟨by simp, by simp, by simp, ?_⟩
    have e : ∀ (f : LS.Fields) (q : Kin.Rates ℝ), (Kin.strainRates (kinInp S f) q).divu c = 0 := fun f q => by
      have := Kin.strainRates_eq (kinInp S f) q
      dsimp only at this
      rw [this]
      have hc' : c < (S.m.Nx - 1) * (S.m.Nz - 1) := hc
      simp only [Kin.filled, kinInp, hc', if_true]
      have hn : ¬ (S.m.tp (c : Nat) ≠ 30 ∧ S.m.tp (c : Nat) ≠ 31) := by omega
      exact if_neg hn
    rw [a1, b1, e, e]; simp

/-- Shear stress at a vertex. -/
private theorem vertex_shift (S : Setting) (hS : Viscoelastic S) (hvol : S.vol = false) (f d : LS.Fields) (a : ℝ) (t o r : Mech)
    (h : updateNL S false f t = .ok o) (h' : updateNL S false (shift f d a) o = .ok r) (k l : Nat) (hk : k < S.m.Nx) (hl : l < S.m.Nz) :
    (r.verts (k + l * S.m.Nx)).T.xz = (o.verts (k + l * S.m.Nx)).T.xz
      + a * tauxz (meshWith S (opsOf S o) o.rho) (S.arr d.u) (S.arr d.v) (k + l * S.m.Nx : Nat) := by
  obtain ⟨c, hcd⟩ : ∃ c, c = k + l * S.m.Nx := ⟨_, rfl⟩
  obtain ⟨M, hM⟩ : ∃ M, M = meshWith S (opsOf S o) o.rho := ⟨_, rfl⟩
  have hc : c < S.nverts := by rw [hcd]; exact cell_lt _ _ k l hk hl
  have ci : ((c : Nat) : Int) = (k : Int) + (l : Int) * (S.m.Nx : Int) := by rw [hcd]; push_cast; ring
  have eM : (M.Nx : Int) = S.m.Nx := by rw [hM]; rfl
  have t1 := tauxz_mk M (S.arr d.u) (S.arr d.v) k l (by omega) (by rw [eM]; omega)
  rw [eM, ← ci] at t1
  have iu1 : (k : Int) + ((l : Int) + 1) * S.m.Nx = ((k + (l + 1) * S.m.Nx : Nat) : Int) := by push_cast; ring
  have iv1 : (k : Int) + 1 + (l : Int) * (S.m.Nx + 1) = ((k + 1 + l * (S.m.Nx + 1) : Nat) : Int) := by push_cast; ring
  have iv2 : (k : Int) + (l : Int) * (S.m.Nx + 1) = ((k + l * (S.m.Nx + 1) : Nat) : Int) := by push_cast; ring
  rw [iu1, iv1, iv2] at t1
  simp only [arr_nat] at t1
  have d1 : M.D33 (c : Nat) = (opsOf S o).D33 c := by rw [hM]; exact arr_nat S (opsOf S o).D33 c
  have d3 : M.dx = S.m.dx := by rw [hM]; rfl
  have d4 : M.dz = S.m.dz := by rw [hM]; rfl
  have d5 : M.tg = S.m.tg := by rw [hM]; rfl
  rw [d1, d3, d4, d5] at t1
  have hf1 : finishStep S f t = .ok ({ f with p := LS.copyArr S.ncells f.p fun c => (o.cells c).pcorr }, o) := by
    unfold finishStep; rw [final_flag_unused S hvol true false, h]
  have hf2 : finishStep S (shift f d a) o = .ok ({ shift f d a with p := LS.copyArr S.ncells (shift f d a).p fun c => (r.cells c).pcorr }, r) := by
    unfold finishStep; rw [final_flag_unused S hvol true false, h']
  rw [← hcd, ← hM, t1]
  by_cases ht : S.m.tg (c : Nat) = 30
  · have z1 := (air_zero hf1).2 c hc ht
    have z2 := (air_zero hf2).2 c hc ht
    rw [z1, z2]
    simp [flag, ht]
  · obtain ⟨-, l2⟩ := viscoelastic_linear S hS false false (shift f d a) f o t r o h' h
    obtain ⟨-, -, -, -, -, s1, -⟩ := recorded_stress_of_recorded_flow S hS.Nx hS.Nz [] f _ t t o rfl hf1
    obtain ⟨-, -, -, -, -, s2, -⟩ := recorded_stress_of_recorded_flow S hS.Nx hS.Nz [] (shift f d a) _ o o r rfl hf2
    obtain ⟨a1, -⟩ := updateNL_ok h
    obtain ⟨b1, -⟩ := updateNL_ok h'
    have f1 := shear_rate S f t.rates k l hk hl
    have g1 := shear_rate S (shift f d a) o.rates k l hk hl
    rw [← hcd, if_pos ht] at f1 g1
    rw [s2 c hc ht, s1 c hc ht, l2 c hc ht]
    simp only [Point.nodeStress, Point.Node.eff, vertData]
    rw [a1, b1, f1, g1]
    have hD : (opsOf S o).D33 c = (o.verts c).eta := by simp [opsOf, ht]
    have hfl : (flag (S.m.tg (c : Nat) != 30) : ℝ) = 1 := by simp [flag, ht]
    rw [hD, hfl, mul_one, hcd]
    simp only [shift]
    ring

/-- Away from stress boundaries the residual of a row is affine in stresses, pressure and velocity. -/
private theorem x_affine (m : SMesh ℝ) (s1 s2 s x1 x2 x p1 p2 p u1 u2 u : Int → ℝ) (b a : ℝ) (k l : Int) (hE : (xIn m k l).SE = 0)
    (hW : (xIn m k l).SW = 0)
    (hs : ∀ i, i = (xIdx m k l).pE ∨ i = (xIdx m k l).pW → s2 i = s1 i + a * s i ∧ p2 i = p1 i + a * p i)
    (hx : ∀ i, i = (xIdx m k l).gN ∨ i = (xIdx m k l).gS → x2 i = x1 i + a * x i)
    (hu : u2 (xIdx m k l).C = u1 (xIdx m k l).C + a * u (xIdx m k l).C) :
    xResidual m s2 x2 p2 b u2 k l = xResidual m s1 x1 p1 b u1 k l + a * xResidual m s x p 0 u k l := by
  unfold xResidual
  dsimp only
  rw [hE, hW, (hs _ (Or.inl rfl)).1, (hs _ (Or.inl rfl)).2, (hs _ (Or.inr rfl)).1, (hs _ (Or.inr rfl)).2, hx _ (Or.inl rfl), hx _ (Or.inr rfl), hu]
  ring

private theorem z_affine (m : SMesh ℝ) (s1 s2 s x1 x2 x p1 p2 p u1 u2 u : Int → ℝ) (b a : ℝ) (k l : Int) (hS : (zIn m k l).SS = 0)
    (hN : (zIn m k l).SN = 0)
    (hs : ∀ i, i = (zIdx m k l).pN ∨ i = (zIdx m k l).pS → s2 i = s1 i + a * s i ∧ p2 i = p1 i + a * p i)
    (hx : ∀ i, i = (zIdx m k l).gE ∨ i = (zIdx m k l).gW → x2 i = x1 i + a * x i)
    (hu : u2 (zIdx m k l).C = u1 (zIdx m k l).C + a * u (zIdx m k l).C) :
    zResidual m s2 x2 p2 b u2 k l = zResidual m s1 x1 p1 b u1 k l + a * zResidual m s x p 0 u k l := by
  unfold zResidual
  dsimp only
  rw [hS, hN, (hs _ (Or.inl rfl)).1, (hs _ (Or.inl rfl)).2, (hs _ (Or.inr rfl)).1, (hs _ (Or.inr rfl)).2, hx _ (Or.inl rfl), hx _ (Or.inr rfl), hu]
  ring

/-- Inner velocity nodes whose velocity is solved for. -/
def FreeU (S : Setting) (k l : Nat) : Prop := 1 ≤ k ∧ k + 1 < S.m.Nx ∧ 1 ≤ l ∧ l < S.m.Nz ∧ S.m.tu (k + l * S.m.Nx : Nat) = -1
/-- See `FreeU`. -/
def FreeV (S : Setting) (k l : Nat) : Prop := 1 ≤ k ∧ k < S.m.Nx ∧ 1 ≤ l ∧ l + 1 < S.m.Nz ∧ S.m.tv (k + l * (S.m.Nx + 1) : Nat) = -1
/-- Cells whose pressure is solved for. -/
def FreeP (S : Setting) (k l : Nat) : Prop := k < S.m.Nx - 1 ∧ l < S.m.Nz - 1 ∧ S.m.tp (k + l * (S.m.Nx - 1) : Nat) = -1

/-- The linear system assembled in the state `o` (Picard matrix; rows of Model/Stencil.lean, the compressibility of the volume equations is put in
by the solver, Solvers.c:1091), applied to a change `d` of the flow. -/
noncomputable def matrixRows (S : Setting) (o : Mech) (d : LS.Fields) : Rows where
  x := fun k l => applyTo (atNode (S.arr d.u) (S.arr d.v) (S.arr d.p))
    (xStencil (meshWith S (opsOf S o) o.rho) k l ++ xStencilP (meshWith S (opsOf S o) o.rho) k l)
  z := fun k l => applyTo (atNode (S.arr d.u) (S.arr d.v) (S.arr d.p))
    (zStencil (meshWith S (opsOf S o) o.rho) k l ++ zStencilP (meshWith S (opsOf S o) o.rho) k l)
  p := fun c => applyTo (atNode (S.arr d.u) (S.arr d.v) (S.arr d.p))
      (cStencil (meshWith S (opsOf S o) o.rho) (c % (S.m.Nx - 1) : Nat) (c / (S.m.Nx - 1) : Nat))
    + flag (S.comp c) * (S.cell c).beta / S.m.dt * (S.m.dx * S.m.dz) * d.p c

/-- `d` solves the system with the residuals `R` on the right-hand side. -/
structure Solves (S : Setting) (o : Mech) (R : Rows) (d : LS.Fields) : Prop where
  x : ∀ k l, FreeU S k l → (matrixRows S o d).x k l = R.x k l
  z : ∀ k l, FreeV S k l → (matrixRows S o d).z k l = R.z k l
  p : ∀ k l, FreeP S k l → (matrixRows S o d).p (k + l * (S.m.Nx - 1)) = R.p (k + l * (S.m.Nx - 1))

/-- A change of the flow that keeps the boundary conditions: zero in the air and in cells without pressure equation, opposite or equal behind walls
that stick or slip. -/
structure Homogeneous (S : Setting) (d : LS.Fields) : Prop where
  airU : ∀ i : Nat, S.m.tu i = 30 → d.u i = 0
  airV : ∀ i : Nat, S.m.tv i = 30 → d.v i = 0
  airP : ∀ i : Nat, S.m.tp i ≠ -1 → d.p i = 0
  south : ∀ k l, FreeU S k l → Ghost (S.m.tu (k + (l - 1) * S.m.Nx : Nat)) (d.u (k + (l - 1) * S.m.Nx)) (d.u (k + l * S.m.Nx))
  north : ∀ k l, FreeU S k l → Ghost (S.m.tu (k + (l + 1) * S.m.Nx : Nat)) (d.u (k + (l + 1) * S.m.Nx)) (d.u (k + l * S.m.Nx))
  west : ∀ k l, FreeV S k l → Ghost (S.m.tv (k - 1 + l * (S.m.Nx + 1) : Nat)) (d.v (k - 1 + l * (S.m.Nx + 1))) (d.v (k + l * (S.m.Nx + 1)))
  east : ∀ k l, FreeV S k l → Ghost (S.m.tv (k + 1 + l * (S.m.Nx + 1) : Nat)) (d.v (k + 1 + l * (S.m.Nx + 1))) (d.v (k + l * (S.m.Nx + 1)))

/-- The tags of the mesh as the numbering reads them. -/
def tagsOf (S : Setting) : Tags := ⟨fun i => S.m.tu i, fun i => S.m.tv i, fun i => S.m.tp i⟩

/-- A box without periodic sides and without prescribed stresses: legal tags, tangential conditions on the ghost nodes, cells of rock or air,
and unknown velocities at inner nodes only. -/
structure Box (S : Setting) : Prop where
  dx : S.m.dx ≠ 0
  dz : S.m.dz ≠ 0
  tags : TagsOk S.m.Nx S.m.Nz (tagsOf S)
  ghosts : GhostTagsOk S.m.Nx S.m.Nz (tagsOf S)
  periodicU : ∀ i : Nat, S.m.tu i ≠ -12
  periodicV : ∀ i : Nat, S.m.tv i ≠ -12
  cells : ∀ k l, k < S.m.Nx - 1 → l < S.m.Nz - 1 → CellOk (S.m.tp (k + l * (S.m.Nx - 1) : Nat))
  freeU : ∀ a < (S.m.Nz + 1) * S.m.Nx, extractVel (S.m.tu a) = true → FreeU S (a % S.m.Nx) (a / S.m.Nx)
  freeV : ∀ a < S.m.Nz * (S.m.Nx + 1), extractVel (S.m.tv a) = true → FreeV S (a % (S.m.Nx + 1)) (a / (S.m.Nx + 1))

/-- The velocities in the volume equation of a cell are not those of slipping ghost nodes. -/
private theorem Box.faces {S : Setting} (hB : Box S) (k l : Nat) (hk : k < S.m.Nx - 1) (hl : l < S.m.Nz - 1) :
    S.m.tu (k + (l + 1) * S.m.Nx : Nat) ≠ 13 ∧ S.m.tu (k + 1 + (l + 1) * S.m.Nx : Nat) ≠ 13
    ∧ S.m.tv (k + 1 + l * (S.m.Nx + 1) : Nat) ≠ 13 ∧ S.m.tv (k + 1 + (l + 1) * (S.m.Nx + 1) : Nat) ≠ 13 := by
  refine ⟨fun h => ?_, fun h => ?_, fun h => ?_, fun h => ?_⟩
  · have := hB.ghosts.uRows k (l + 1) (by omega) (by omega) (Or.inr h); omega
  · have := hB.ghosts.uRows (k + 1) (l + 1) (by omega) (by omega) (Or.inr h); omega
  · have := hB.ghosts.vCols (k + 1) l (by omega) (by omega) (Or.inr (Or.inl (by rw [add_comm (l * _)]; exact h))); omega
  · have := hB.ghosts.vCols (k + 1) (l + 1) (by omega) (by omega) (Or.inr (Or.inl (by rw [add_comm ((l + 1) * _)]; exact h))); omega

private theorem air_nodes {S : Setting} {d : LS.Fields} (hd : Homogeneous S d) {M : SMesh ℝ} (e1 : M.tu = S.m.tu)
    (e2 : M.tv = S.m.tv) (e3 : M.tp = S.m.tp) (ns : List SNode) (hn : ∀ n ∈ ns, ∃ j : Nat, n = .u j ∨ n = .v j ∨ n = .p j) :
    AirZeroOn M (S.arr d.u) (S.arr d.v) (S.arr d.p) ns := by
  intro n h ht
  obtain ⟨j, rfl | rfl | rfl⟩ := hn n h <;> simp only [SMesh.tag, e1, e2, e3] at ht <;> refine (arr_nat S _ j).trans ?_
  · exact hd.airU j ht
  · exact hd.airV j ht
  · exact hd.airP j (by intro q; rw [q] at ht; omega)

private theorem x_nodes_nat (M : SMesh ℝ) (k l : Nat) (hN : 2 ≤ M.Nx) (ht : M.tu (((k + 1 : Nat) : Int) + ((l + 1 : Nat) : Int) * M.Nx) = -1) :
    ∀ n ∈ xNodes M (k + 1 : Nat) (l + 1 : Nat), ∃ j : Nat, n = .u j ∨ n = .v j ∨ n = .p j := by
  obtain ⟨N, hNN⟩ : ∃ N, M.Nx = N + 1 := ⟨M.Nx - 1, by omega⟩
  have hper : (M.tu (((k + 1 : Nat) : Int) + ((l + 1 : Nat) : Int) * (M.Nx : Int)) == -2) = false := by rw [ht]; rfl
  intro n hn
  simp only [xNodes, xIdx, hper, Bool.false_eq_true, if_false] at hn
  rw [hNN] at hn
  simp only [List.mem_cons, List.not_mem_nil, or_false] at hn
  rcases hn with rfl | rfl | rfl | rfl | rfl | rfl | rfl | rfl | rfl | rfl | rfl
  · exact ⟨k + 1 + l * (N + 1), Or.inl (congrArg _ (by push_cast; ring))⟩
  · exact ⟨k + (l + 1) * (N + 1), Or.inl (congrArg _ (by push_cast; ring))⟩
  · exact ⟨k + 1 + (l + 1) * (N + 1), Or.inl (congrArg _ (by push_cast; ring))⟩
  · exact ⟨k + 2 + (l + 1) * (N + 1), Or.inl (congrArg _ (by push_cast; ring))⟩
  · exact ⟨k + 1 + (l + 2) * (N + 1), Or.inl (congrArg _ (by push_cast; ring))⟩
  · exact ⟨k + 1 + l * (N + 2), Or.inr (Or.inl (congrArg _ (by push_cast; ring)))⟩
  · exact ⟨k + 2 + l * (N + 2), Or.inr (Or.inl (congrArg _ (by push_cast; ring)))⟩
  · exact ⟨k + 1 + (l + 1) * (N + 2), Or.inr (Or.inl (congrArg _ (by push_cast; ring)))⟩
  · exact ⟨k + 2 + (l + 1) * (N + 2), Or.inr (Or.inl (congrArg _ (by push_cast; ring)))⟩
  · exact ⟨k + l * N, Or.inr (Or.inr (congrArg _ (by push_cast; ring)))⟩
  · exact ⟨k + 1 + l * N, Or.inr (Or.inr (congrArg _ (by push_cast; ring)))⟩

private theorem z_nodes_nat (M : SMesh ℝ) (k l : Nat) (hN : 2 ≤ M.Nx) (ht : ∀ i : Nat, M.tv i ≠ -12) :
    ∀ n ∈ zNodes M (k + 1 : Nat) (l + 1 : Nat), ∃ j : Nat, n = .u j ∨ n = .v j ∨ n = .p j := by
  obtain ⟨N, hNN⟩ : ∃ N, M.Nx = N + 1 := ⟨M.Nx - 1, by omega⟩
  have h1 : (M.tv (((k + 1 : Nat) : Int) + ((l + 1 : Nat) : Int) * (((N + 1 : Nat) : Int) + 1) - 1) == -12) = false := by
    rw [beq_eq_false_iff_ne, show ((k + 1 : Nat) : Int) + ((l + 1 : Nat) : Int) * (((N + 1 : Nat) : Int) + 1) - 1
      = (k + (l + 1) * (N + 2) : Nat) by push_cast; ring]
    exact ht _
  have h2 : (M.tv (((k + 1 : Nat) : Int) + ((l + 1 : Nat) : Int) * (((N + 1 : Nat) : Int) + 1) + 1) == -12) = false := by
    rw [beq_eq_false_iff_ne, show ((k + 1 : Nat) : Int) + ((l + 1 : Nat) : Int) * (((N + 1 : Nat) : Int) + 1) + 1
      = (k + 2 + (l + 1) * (N + 2) : Nat) by push_cast; ring]
    exact ht _
  intro n hn
  simp only [zNodes, zIdx] at hn
  rw [hNN] at hn
  simp only [h1, h2, Bool.false_and, Bool.false_eq_true, if_false, List.mem_cons, List.not_mem_nil, or_false] at hn
  rcases hn with rfl | rfl | rfl | rfl | rfl | rfl | rfl | rfl | rfl | rfl | rfl
  · exact ⟨k + (l + 1) * (N + 1), Or.inl (congrArg _ (by push_cast; ring))⟩
  · exact ⟨k + 1 + (l + 1) * (N + 1), Or.inl (congrArg _ (by push_cast; ring))⟩
  · exact ⟨k + (l + 2) * (N + 1), Or.inl (congrArg _ (by push_cast; ring))⟩
  · exact ⟨k + 1 + (l + 2) * (N + 1), Or.inl (congrArg _ (by push_cast; ring))⟩
  · exact ⟨k + 1 + l * (N + 2), Or.inr (Or.inl (congrArg _ (by push_cast; ring)))⟩
  · exact ⟨k + (l + 1) * (N + 2), Or.inr (Or.inl (congrArg _ (by push_cast; ring)))⟩
  · exact ⟨k + 1 + (l + 1) * (N + 2), Or.inr (Or.inl (congrArg _ (by push_cast; ring)))⟩
  · exact ⟨k + 2 + (l + 1) * (N + 2), Or.inr (Or.inl (congrArg _ (by push_cast; ring)))⟩
  · exact ⟨k + 1 + (l + 2) * (N + 2), Or.inr (Or.inl (congrArg _ (by push_cast; ring)))⟩
  · exact ⟨k + l * N, Or.inr (Or.inr (congrArg _ (by push_cast; ring)))⟩
  · exact ⟨k + (l + 1) * N, Or.inr (Or.inr (congrArg _ (by push_cast; ring)))⟩

variable {S : Setting} (hS : Viscoelastic S) (hB : Box S) (hvol : S.vol = false) {f d : LS.Fields} {a : ℝ} {t o r : Mech}
  (h : updateNL S false f t = .ok o) (hd : Homogeneous S d)
  (h' : updateNL S false (shift f d a) o = .ok r)

include hS hB hvol h hd h'

private theorem mesh_same : meshWith S (opsOf S r) r.rho = meshWith S (opsOf S o) o.rho := by
  rw [ops_same S hS false false f (shift f d a) t o r h h']
  obtain ⟨-, -, -, -, -, -, q, -⟩ := updateNL_ok h'
  rw [q, hvol]; rfl

private theorem force_same : (∀ j < S.m.Nx * (S.m.Nz + 1), r.bx j = o.bx j) ∧ ∀ j < (S.m.Nx + 1) * S.m.Nz, r.bz j = o.bz j := by
  obtain ⟨-, -, -, -, -, -, q1, q2, q3⟩ := updateNL_ok h'
  obtain ⟨-, -, -, -, -, -, -, q2', q3'⟩ := updateNL_ok h
  have e : r.rho = o.rho := by rw [q1, hvol]; rfl
  rw [e] at q2 q3
  constructor
  · intro j hj; rw [q2, q2']; simp [written, hj]
  · intro j hj; rw [q3, q3']; simp [written, hj]

private theorem x_shift (k l : Nat) (hf : FreeU S k l) :
    (rows S (opsOf S r) (shift f d a) r).x k l = (rows S (opsOf S o) f o).x k l + a * (matrixRows S o d).x k l := by
  obtain ⟨k0, k1, l0, l1, ht⟩ := hf
  obtain ⟨k, rfl⟩ : ∃ j, k = j + 1 := ⟨k - 1, by omega⟩
  obtain ⟨l, rfl⟩ : ∃ j, l = j + 1 := ⟨l - 1, by omega⟩
  have hNx := hS.Nx
  obtain ⟨M, hM⟩ : ∃ M, M = meshWith S (opsOf S o) o.rho := ⟨_, rfl⟩
  have eN : (M.Nx : Int) = S.m.Nx := by rw [hM]; rfl
  have etu : M.tu = S.m.tu := by rw [hM]; rfl
  have etv : M.tv = S.m.tv := by rw [hM]; rfl
  have etp : M.tp = S.m.tp := by rw [hM]; rfl
  have ht' : M.tu (((k + 1 : Nat) : Int) + ((l + 1 : Nat) : Int) * M.Nx) = -1 := by
    rw [etu, eN, ← ht]; congr 1
  have hper : (M.tu (((k + 1 : Nat) : Int) + ((l + 1 : Nat) : Int) * (M.Nx : Int)) == -2) = false := by rw [ht']; rfl
  have iE : (xIdx M (k + 1 : Nat) (l + 1 : Nat)).pE = (k + 1 + l * (S.m.Nx - 1) : Nat) := by
    simp only [xIdx]; rw [eN]; push_cast [Nat.cast_sub (show 1 ≤ S.m.Nx by omega)]; ring
  have iW : (xIdx M (k + 1 : Nat) (l + 1 : Nat)).pW = (k + l * (S.m.Nx - 1) : Nat) := by
    simp only [xIdx, hper]; rw [eN]; push_cast [Nat.cast_sub (show 1 ≤ S.m.Nx by omega)]; simp
  have iN : (xIdx M (k + 1 : Nat) (l + 1 : Nat)).gN = (k + 1 + (l + 1) * S.m.Nx : Nat) := by
    simp only [xIdx]; rw [eN]; push_cast; ring
  have iS : (xIdx M (k + 1 : Nat) (l + 1 : Nat)).gS = (k + 1 + l * S.m.Nx : Nat) := by
    simp only [xIdx]; rw [eN]; push_cast; ring
  have iC : (xIdx M (k + 1 : Nat) (l + 1 : Nat)).C = (k + 1 + (l + 1) * S.m.Nx : Nat) := by
    simp only [xIdx]; rw [eN]; push_cast; ring
  have hjx : k + 1 + (l + 1) * S.m.Nx < S.m.Nx * (S.m.Nz + 1) := cell_lt _ _ _ _ (by omega) (by omega)
  have cE := cell_shift S hS hvol f d a t o r h h' (k + 1) l (by omega) (by omega) (hB.cells _ _ (by omega) (by omega)) (hd.airP _)
  have cW := cell_shift S hS hvol f d a t o r h h' k l (by omega) (by omega) (hB.cells _ _ (by omega) (by omega)) (hd.airP _)
  have vN := vertex_shift S hS hvol f d a t o r h h' (k + 1) (l + 1) (by omega) (by omega)
  have vS := vertex_shift S hS hvol f d a t o r h h' (k + 1) l (by omega) (by omega)
  dsimp only at cE cW
  have bal := (x_row_stress_balance M (k + 1 : Nat) (l + 1 : Nat) (by rw [hM]; exact hB.dx) (by rw [hM]; exact hB.dz)
    (by push_cast; omega) (by rw [eN]; push_cast; omega) ht' (S.arr d.u) (S.arr d.v) (S.arr d.p) ?_ ?_ ?_ ?_ ?_).2
  · have hm := Eq.trans (show (matrixRows S o d).x (k + 1 : Nat) (l + 1 : Nat) = _ by rw [hM]; rfl) bal
    have e1 : (rows S (opsOf S r) (shift f d a) r).x (k + 1 : Nat) (l + 1 : Nat) = xResidual M (S.arr fun c => (r.cells c).T.xx)
        (S.arr fun c => (r.verts c).T.xz) (S.arr fun c => (r.cells c).pcorr) (o.bx (k + 1 + (l + 1) * S.m.Nx)) (S.arr (shift f d a).u)
        (k + 1 : Nat) (l + 1 : Nat) := by
      unfold rows
      dsimp only
      rw [mesh_same hS hB hvol h hd h', ← hM, ← (force_same hS hB hvol h hd h').1 _ hjx]
      congr 1
    have e2 : (rows S (opsOf S o) f o).x (k + 1 : Nat) (l + 1 : Nat) = xResidual M (S.arr fun c => (o.cells c).T.xx)
        (S.arr fun c => (o.verts c).T.xz) (S.arr fun c => (o.cells c).pcorr) (o.bx (k + 1 + (l + 1) * S.m.Nx)) (S.arr f.u)
        (k + 1 : Nat) (l + 1 : Nat) := by
      unfold rows
      dsimp only
      rw [← hM]
      congr 1
    rw [e1, x_affine M (S.arr fun c => (o.cells c).T.xx) _ (tauxx M (S.arr d.u) (S.arr d.v)) (S.arr fun c => (o.verts c).T.xz) _
      (tauxz M (S.arr d.u) (S.arr d.v)) (S.arr fun c => (o.cells c).pcorr) _ (S.arr d.p) (S.arr f.u) _ (S.arr d.u)
      (o.bx (k + 1 + (l + 1) * S.m.Nx)) a _ _ ?_ ?_ ?_ ?_ ?_, ← hm, ← e2]
    · simp only [xIn, flag]; rw [ht']; simp
    · simp only [xIn, flag]; rw [ht']; simp
    · rintro i (rfl | rfl)
      · rw [iE]; simp only [arr_nat]; rw [hM]; exact ⟨cE.1, cE.2.2.1⟩
      · rw [iW]; simp only [arr_nat]; rw [hM]; exact ⟨cW.1, cW.2.2.1⟩
    · rintro i (rfl | rfl)
      · rw [iN]; simp only [arr_nat]; rw [hM]; exact vN
      · rw [iS]; simp only [arr_nat]; rw [hM]; exact vS
    · rw [iC]; simp only [arr_nat]; rfl
  · exact air_nodes hd (by rw [hM]; rfl) (by rw [hM]; rfl) (by rw [hM]; rfl) _ (x_nodes_nat M k l
      (by have : 2 ≤ (M.Nx : Int) := by rw [eN]; exact_mod_cast hNx
          omega) ht')
  · have := hd.south (k + 1) (l + 1) ⟨k0, k1, l0, l1, ht⟩
    rw [etu, eN]
    have e1 : ((k + 1 : Nat) : Int) + (((l + 1 : Nat) : Int) - 1) * S.m.Nx = ((k + 1 + (l + 1 - 1) * S.m.Nx : Nat) : Int) := by push_cast; simp
    have e2 : ((k + 1 : Nat) : Int) + ((l + 1 : Nat) : Int) * S.m.Nx = ((k + 1 + (l + 1) * S.m.Nx : Nat) : Int) := by push_cast; rfl
    rw [e1, e2]; simp only [arr_nat]; exact this
  · have := hd.north (k + 1) (l + 1) ⟨k0, k1, l0, l1, ht⟩
    rw [etu, eN]
    have e1 : ((k + 1 : Nat) : Int) + (((l + 1 : Nat) : Int) + 1) * S.m.Nx = ((k + 1 + (l + 1 + 1) * S.m.Nx : Nat) : Int) := by push_cast; rfl
    have e2 : ((k + 1 : Nat) : Int) + ((l + 1 : Nat) : Int) * S.m.Nx = ((k + 1 + (l + 1) * S.m.Nx : Nat) : Int) := by push_cast; rfl
    rw [e1, e2]; simp only [arr_nat]; exact this
  · have := hB.cells k l (by omega) (by omega)
    rw [etp, eN]
    convert this using 2
    push_cast [Nat.cast_sub (show 1 ≤ S.m.Nx by omega)]; ring
  · have := hB.cells (k + 1) l (by omega) (by omega)
    rw [etp, eN]
    convert this using 2
    push_cast [Nat.cast_sub (show 1 ≤ S.m.Nx by omega)]; ring

private theorem z_shift (k l : Nat) (hf : FreeV S k l) :
    (rows S (opsOf S r) (shift f d a) r).z k l = (rows S (opsOf S o) f o).z k l + a * (matrixRows S o d).z k l := by
  obtain ⟨k0, k1, l0, l1, ht⟩ := hf
  obtain ⟨k, rfl⟩ : ∃ j, k = j + 1 := ⟨k - 1, by omega⟩
  obtain ⟨l, rfl⟩ : ∃ j, l = j + 1 := ⟨l - 1, by omega⟩
  have hNx := hS.Nx
  obtain ⟨M, hM⟩ : ∃ M, M = meshWith S (opsOf S o) o.rho := ⟨_, rfl⟩
  have eN : (M.Nx : Int) = S.m.Nx := by rw [hM]; rfl
  have eNz : (M.Nz : Int) = S.m.Nz := by rw [hM]; rfl
  have etu : M.tu = S.m.tu := by rw [hM]; rfl
  have etv : M.tv = S.m.tv := by rw [hM]; rfl
  have etp : M.tp = S.m.tp := by rw [hM]; rfl
  have ht' : M.tv (((k + 1 : Nat) : Int) + ((l + 1 : Nat) : Int) * (M.Nx + 1)) = -1 := by
    rw [etv, eN, ← ht]; congr 1
  have iP : (zIdx M (k + 1 : Nat) (l + 1 : Nat)).pN = (k + (l + 1) * (S.m.Nx - 1) : Nat) := by
    simp only [zIdx]; rw [eN]; push_cast [Nat.cast_sub (show 1 ≤ S.m.Nx by omega)]; ring
  have iQ : (zIdx M (k + 1 : Nat) (l + 1 : Nat)).pS = (k + l * (S.m.Nx - 1) : Nat) := by
    simp only [zIdx]; rw [eN]; push_cast [Nat.cast_sub (show 1 ≤ S.m.Nx by omega)]; ring
  have iE : (zIdx M (k + 1 : Nat) (l + 1 : Nat)).gE = (k + 1 + (l + 1) * S.m.Nx : Nat) := by
    simp only [zIdx]; rw [eN]; push_cast; ring
  have iW : (zIdx M (k + 1 : Nat) (l + 1 : Nat)).gW = (k + (l + 1) * S.m.Nx : Nat) := by
    simp only [zIdx]; rw [eN]; push_cast; ring
  have iC : (zIdx M (k + 1 : Nat) (l + 1 : Nat)).C = (k + 1 + (l + 1) * (S.m.Nx + 1) : Nat) := by
    simp only [zIdx]; rw [eN]; push_cast; ring
  have jW : ((k + 1 : Nat) : Int) + ((l + 1 : Nat) : Int) * ((S.m.Nx : Int) + 1) - 1 = (k + 1 - 1 + (l + 1) * (S.m.Nx + 1) : Nat) := by
    push_cast [Nat.add_sub_cancel]; ring
  have jE : ((k + 1 : Nat) : Int) + ((l + 1 : Nat) : Int) * ((S.m.Nx : Int) + 1) + 1 = (k + 1 + 1 + (l + 1) * (S.m.Nx + 1) : Nat) := by
    push_cast; ring
  have iVW : (zIdx M (k + 1 : Nat) (l + 1 : Nat)).W = (k + 1 - 1 + (l + 1) * (S.m.Nx + 1) : Nat) := by
    simp only [zIdx, etv]; rw [eN, jW]
    have : (S.m.tv ((k + 1 - 1 + (l + 1) * (S.m.Nx + 1) : Nat) : Int) == -12) = false := by rw [beq_eq_false_iff_ne]; exact hB.periodicV _
    rw [this]; rfl
  have iVE : (zIdx M (k + 1 : Nat) (l + 1 : Nat)).E = (k + 1 + 1 + (l + 1) * (S.m.Nx + 1) : Nat) := by
    simp only [zIdx, etv]; rw [eN, jE]
    have : (S.m.tv ((k + 1 + 1 + (l + 1) * (S.m.Nx + 1) : Nat) : Int) == -12) = false := by rw [beq_eq_false_iff_ne]; exact hB.periodicV _
    rw [this]; rfl
  have hjz : k + 1 + (l + 1) * (S.m.Nx + 1) < (S.m.Nx + 1) * S.m.Nz := cell_lt _ _ _ _ (by omega) (by omega)
  have cN := cell_shift S hS hvol f d a t o r h h' k (l + 1) (by omega) (by omega) (hB.cells _ _ (by omega) (by omega)) (hd.airP _)
  have cS := cell_shift S hS hvol f d a t o r h h' k l (by omega) (by omega) (hB.cells _ _ (by omega) (by omega)) (hd.airP _)
  have vE := vertex_shift S hS hvol f d a t o r h h' (k + 1) (l + 1) (by omega) (by omega)
  have vW := vertex_shift S hS hvol f d a t o r h h' k (l + 1) (by omega) (by omega)
  dsimp only at cN cS
  have hD : ∀ c : Nat, M.tp (c : Nat) ≠ -1 → CellOk (M.tp (c : Nat)) → M.D22 (c : Nat) = 0 := fun c h1 h2 => by
    have h2 := h2.resolve_left h1
    rw [etp] at h2
    rw [hM]
    refine (arr_nat S (opsOf S o).D22 c).trans ?_
    simp only [opsOf]; exact if_neg (fun q => h2.elim q.1 q.2)
  have pS : ((k + 1 : Nat) : Int) - 1 + (((l + 1 : Nat) : Int) - 1) * ((S.m.Nx : Int) - 1) = (k + l * (S.m.Nx - 1) : Nat) := by
    push_cast [Nat.cast_sub (show 1 ≤ S.m.Nx by omega)]; ring
  have pN : ((k + 1 : Nat) : Int) - 1 + ((l + 1 : Nat) : Int) * ((S.m.Nx : Int) - 1) = (k + (l + 1) * (S.m.Nx - 1) : Nat) := by
    push_cast [Nat.cast_sub (show 1 ≤ S.m.Nx by omega)]; ring
  have okS : CellOk (M.tp (k + l * (S.m.Nx - 1) : Nat)) := by rw [etp]; exact hB.cells _ _ (by omega) (by omega)
  have okN : CellOk (M.tp (k + (l + 1) * (S.m.Nx - 1) : Nat)) := by rw [etp]; exact hB.cells _ _ (by omega) (by omega)
  have vC : ((k + 1 : Nat) : Int) + ((l + 1 : Nat) : Int) * ((S.m.Nx : Int) + 1) = ((k + 1 + (l + 1) * (S.m.Nx + 1) : Nat) : Int) := by
    push_cast; rfl
  have bal := (z_row_stress_balance_local M (k + 1 : Nat) (l + 1 : Nat) (by rw [hM]; exact hB.dx) (by rw [hM]; exact hB.dz)
    (by push_cast; omega) (by rw [eN]; push_cast; omega) (by push_cast; omega) (by rw [eNz]; push_cast; omega)
    (S.arr d.u) (S.arr d.v) (S.arr d.p) ?_ ?_ ?_ ?_ ?_ ?_ ?_ ?_ ?_).2
  · have hm := Eq.trans (show (matrixRows S o d).z (k + 1 : Nat) (l + 1 : Nat) = _ by rw [hM]; rfl) bal
    have e1 : (rows S (opsOf S r) (shift f d a) r).z (k + 1 : Nat) (l + 1 : Nat) = zResidual M (S.arr fun c => (r.cells c).T.zz)
        (S.arr fun c => (r.verts c).T.xz) (S.arr fun c => (r.cells c).pcorr) (o.bz (k + 1 + (l + 1) * (S.m.Nx + 1))) (S.arr (shift f d a).v)
        (k + 1 : Nat) (l + 1 : Nat) := by
      unfold rows
      dsimp only
      rw [mesh_same hS hB hvol h hd h', ← hM, ← (force_same hS hB hvol h hd h').2 _ hjz]
      congr 1
    have e2 : (rows S (opsOf S o) f o).z (k + 1 : Nat) (l + 1 : Nat) = zResidual M (S.arr fun c => (o.cells c).T.zz)
        (S.arr fun c => (o.verts c).T.xz) (S.arr fun c => (o.cells c).pcorr) (o.bz (k + 1 + (l + 1) * (S.m.Nx + 1))) (S.arr f.v)
        (k + 1 : Nat) (l + 1 : Nat) := by
      unfold rows
      dsimp only
      rw [← hM]
      congr 1
    rw [e1, z_affine M (S.arr fun c => (o.cells c).T.zz) _ (tauzz M (S.arr d.u) (S.arr d.v)) (S.arr fun c => (o.verts c).T.xz) _
      (tauxz M (S.arr d.u) (S.arr d.v)) (S.arr fun c => (o.cells c).pcorr) _ (S.arr d.p) (S.arr f.v) _ (S.arr d.v)
      (o.bz (k + 1 + (l + 1) * (S.m.Nx + 1))) a _ _ ?_ ?_ ?_ ?_ ?_, ← hm, ← e2]
    · simp only [zIn, flag]; simp only [show M.tv (zIdx M (k + 1 : Nat) (l + 1 : Nat)).C = -1 from ht']; simp
    · simp only [zIn, flag]; simp only [show M.tv (zIdx M (k + 1 : Nat) (l + 1 : Nat)).C = -1 from ht']; simp
    · rintro i (rfl | rfl)
      · rw [iP]; simp only [arr_nat]; rw [hM]; exact ⟨cN.2.1, cN.2.2.1⟩
      · rw [iQ]; simp only [arr_nat]; rw [hM]; exact ⟨cS.2.1, cS.2.2.1⟩
    · rintro i (rfl | rfl)
      · rw [iE]; simp only [arr_nat]; rw [hM]; exact vE
      · rw [iW]; simp only [arr_nat]; rw [hM]; exact vW
    · rw [iC]; simp only [arr_nat]; rfl
  · exact air_nodes hd (by rw [hM]; rfl) (by rw [hM]; rfl) (by rw [hM]; rfl) _ (z_nodes_nat M k l
      (by have : 2 ≤ (M.Nx : Int) := by rw [eN]; exact_mod_cast hNx
          omega) (by rw [etv]; exact hB.periodicV))
  · rw [eN, pS]; exact fun q => hD _ q okS
  · rw [eN, pN]; exact fun q => hD _ q okN
  · intro _ q
    refine absurd q ?_
    rw [etv, eN, show ((k + 1 : Nat) : Int) - 1 + ((l + 1 : Nat) : Int) * ((S.m.Nx : Int) + 1) = (k + 1 - 1 + (l + 1) * (S.m.Nx + 1) : Nat) by
      rw [← jW]; ring]
    exact hB.periodicV _
  · intro _ q
    refine absurd q ?_
    rw [etv, eN, show ((k + 1 : Nat) : Int) + 1 + ((l + 1 : Nat) : Int) * ((S.m.Nx : Int) + 1) = (k + 1 + 1 + (l + 1) * (S.m.Nx + 1) : Nat) by
      rw [← jE]; ring]
    exact hB.periodicV _
  · rw [iVW, eN, vC, etv]; simp only [arr_nat]
    exact hd.west (k + 1) (l + 1) ⟨k0, k1, l0, l1, ht⟩
  · rw [iVE, eN, vC, etv]; simp only [arr_nat]
    exact hd.east (k + 1) (l + 1) ⟨k0, k1, l0, l1, ht⟩
  · rw [eN, pS]; exact okS
  · rw [eN, pN]; exact okN

private theorem p_shift (k l : Nat) (hf : FreeP S k l) :
    (rows S (opsOf S r) (shift f d a) r).p (k + l * (S.m.Nx - 1)) = (rows S (opsOf S o) f o).p (k + l * (S.m.Nx - 1))
      + a * (matrixRows S o d).p (k + l * (S.m.Nx - 1)) := by
  obtain ⟨hk, hl, ht⟩ := hf
  have hNx := hS.Nx
  have cs := (cell_shift S hS hvol f d a t o r h h' k l hk hl (hB.cells _ _ hk hl) (hd.airP _)).2.2.2
  have i1 : (k + l * (S.m.Nx - 1)) % (S.m.Nx - 1) = k := by rw [Nat.add_mul_mod_self_right, Nat.mod_eq_of_lt hk]
  have i2 : (k + l * (S.m.Nx - 1)) / (S.m.Nx - 1) = l := by
    rw [Nat.add_mul_div_right _ _ (by omega), Nat.div_eq_of_lt hk, zero_add]
  have hr : applyTo (atNode (S.arr d.u) (S.arr d.v) (S.arr d.p)) (cStencil (meshWith S (opsOf S o) o.rho) k l)
    + flag (S.comp (k + l * (S.m.Nx - 1))) * (S.cell (k + l * (S.m.Nx - 1))).beta / S.m.dt * (S.m.dx * S.m.dz) * d.p (k + l * (S.m.Nx - 1))
      = (matrixRows S o d).p (k + l * (S.m.Nx - 1)) := by
    simp only [matrixRows, i1, i2]
  obtain ⟨t1, t2, t3, t4⟩ := hB.faces k l hk hl
  rw [if_pos ht] at cs
  have iu1 : (k : Int) + ((l : Int) + 1) * S.m.Nx + 1 = ((k + 1 + (l + 1) * S.m.Nx : Nat) : Int) := by push_cast; ring
  have iu2 : (k : Int) + ((l : Int) + 1) * S.m.Nx = ((k + (l + 1) * S.m.Nx : Nat) : Int) := by push_cast; ring
  have iv1 : (k : Int) + (l : Int) * (S.m.Nx + 1) + 1 + (S.m.Nx + 1) = ((k + 1 + (l + 1) * (S.m.Nx + 1) : Nat) : Int) := by push_cast; ring
  have iv2 : (k : Int) + (l : Int) * (S.m.Nx + 1) + 1 = ((k + 1 + l * (S.m.Nx + 1) : Nat) : Int) := by push_cast; ring
  have e : applyTo (atNode (S.arr d.u) (S.arr d.v) (S.arr d.p)) (cStencil (meshWith S (opsOf S o) o.rho) k l)
      = (if S.m.oop then 3 / 2 else 1) * ((d.u (k + 1 + (l + 1) * S.m.Nx) - d.u (k + (l + 1) * S.m.Nx)) / S.m.dx
          + (d.v (k + 1 + (l + 1) * (S.m.Nx + 1)) - d.v (k + 1 + l * (S.m.Nx + 1))) / S.m.dz) * (S.m.dx * S.m.dz) := by
    have eN : ((meshWith S (opsOf S o) o.rho).Nx : Int) = S.m.Nx := rfl
    simp only [cStencil, eN]
    rw [iv1, iv2, iu1, iu2]
    have q1 : ((meshWith S (opsOf S o) o.rho).tu (k + (l + 1) * S.m.Nx : Nat) != 13) = true := by simpa [meshWith] using t1
    have q2 : ((meshWith S (opsOf S o) o.rho).tu (k + 1 + (l + 1) * S.m.Nx : Nat) != 13) = true := by simpa [meshWith] using t2
    have q3 : ((meshWith S (opsOf S o) o.rho).tv (k + 1 + l * (S.m.Nx + 1) : Nat) != 13) = true := by simpa [meshWith] using t3
    have q4 : ((meshWith S (opsOf S o) o.rho).tv (k + 1 + (l + 1) * (S.m.Nx + 1) : Nat) != 13) = true := by simpa [meshWith] using t4
    rw [q1, q2, q3, q4]
    simp only [guarded, if_true, List.cons_append, List.nil_append, applyTo, List.map_cons, List.map_nil, List.sum_cons, List.sum_nil, atNode,
      arr_nat]
    have w1 : (meshWith S (opsOf S o) o.rho).dx = S.m.dx := rfl
    have w2 : (meshWith S (opsOf S o) o.rho).dz = S.m.dz := rfl
    have w3 : (meshWith S (opsOf S o) o.rho).oop = S.m.oop := rfl
    rw [w1, w2, w3]
    ring
  rw [e] at hr
  have e1 : (rows S (opsOf S r) (shift f d a) r).p (k + l * (S.m.Nx - 1)) = (rows S (opsOf S o) f o).p (k + l * (S.m.Nx - 1))
      + a * ((if S.m.oop then 3 / 2 else 1) * ((d.u (k + 1 + (l + 1) * S.m.Nx) - d.u (k + (l + 1) * S.m.Nx)) / S.m.dx
          + (d.v (k + 1 + (l + 1) * (S.m.Nx + 1)) - d.v (k + 1 + l * (S.m.Nx + 1))) / S.m.dz) * (S.m.dx * S.m.dz)
        + flag (S.comp (k + l * (S.m.Nx - 1))) * (S.cell (k + l * (S.m.Nx - 1))).beta / S.m.dt * (S.m.dx * S.m.dz)
          * d.p (k + l * (S.m.Nx - 1))) := by
    simp only [rows, Resid.contResidual, hvol, Bool.false_eq_true, if_false]
    rw [cs]
    simp only [shift]
    ring
  rw [e1, hr]

/-- C151 (partial).  **The assembled matrix is the derivative of the residual**: for constant viscosities and elasticity, if the flow is changed by `a` times `d`, which
keeps the boundary conditions, every residual changes by `a` times the row of the assembled matrix applied to `d`; no remainder.
Missing: periodic sides, prescribed stresses, density_variations, mixed phases. -/
theorem matrix_is_derivative_partial : (∀ k l, FreeU S k l →
      (rows S (opsOf S r) (shift f d a) r).x k l = (rows S (opsOf S o) f o).x k l + a * (matrixRows S o d).x k l)
    ∧ (∀ k l, FreeV S k l → (rows S (opsOf S r) (shift f d a) r).z k l = (rows S (opsOf S o) f o).z k l + a * (matrixRows S o d).z k l)
    ∧ ∀ k l, FreeP S k l → (rows S (opsOf S r) (shift f d a) r).p (k + l * (S.m.Nx - 1)) = (rows S (opsOf S o) f o).p (k + l * (S.m.Nx - 1))
      + a * (matrixRows S o d).p (k + l * (S.m.Nx - 1)) :=
  ⟨x_shift hS hB hvol h hd h', z_shift hS hB hvol h hd h', p_shift hS hB hvol h hd h'⟩

omit hS hB hvol h hd h'

/-! ### From the solution vector to the flow -/

/-- The fields as `ExtractSolutions2` sees them. -/
def unclip (f : LS.Fields) : Fields ℝ := ⟨f.u, f.v, f.p⟩

/-- The allocated entries; what lies outside counts as zero. -/
noncomputable def clip (S : Setting) (f : Fields ℝ) : LS.Fields where
  u := fun i => if i < (S.m.Nz + 1) * S.m.Nx then f.u i else 0
  v := fun i => if i < S.m.Nz * (S.m.Nx + 1) then f.v i else 0
  p := fun i => if i < (S.m.Nz - 1) * (S.m.Nx - 1) then f.p i else 0

/-- The flow as far as it is allocated. -/
noncomputable def inner (S : Setting) (f : LS.Fields) : Fields ℝ := unclip (clip S (unclip f))

/-- `ExtractSolutions2` (StokesRoutines.c:534-574; Model/ApplyBC.lean) with the solution vector `dx` and the step `s`. -/
noncomputable def extracted (S : Setting) (bc : BCVals ℝ) (junk : Nat → Int) (oob : ℝ) (dx : Nat → ℝ) (f : LS.Fields) (s : ℝ) : LS.Fields :=
  clip S (extractSolutions S.m.Nx S.m.Nz (tagsOf S) bc (evalNumberOfEquations S.m.Nx S.m.Nz (tagsOf S) junk) oob dx s (inner S f))

/-- The change of the flow that a solution vector stands for: its entries at the nodes solved for, nothing at prescribed nodes, homogeneous
conditions at ghost nodes. -/
noncomputable def changeOf (S : Setting) (junk : Nat → Int) (oob : ℝ) (dx : Nat → ℝ) : LS.Fields :=
  extracted S ⟨fun _ => 0, fun _ => 0⟩ junk oob dx ⟨fun _ => 0, fun _ => 0, fun _ => 0⟩ 1

/-- A flow that obeys the boundary conditions. -/
structure Admissible (S : Setting) (V : BCVals ℝ) (f : LS.Fields) : Prop where
  bc : BCHold S.m.Nx S.m.Nz (tagsOf S) V (unclip f)
  u : ∀ i, (S.m.Nz + 1) * S.m.Nx ≤ i → f.u i = 0
  v : ∀ i, S.m.Nz * (S.m.Nx + 1) ≤ i → f.v i = 0
  p : ∀ i, (S.m.Nz - 1) * (S.m.Nx - 1) ≤ i → f.p i = 0

private theorem inner_zero (S : Setting) : inner S ⟨fun _ => 0, fun _ => 0, fun _ => 0⟩ = (⟨fun _ => 0, fun _ => 0, fun _ => 0⟩ : Fields ℝ) := by
  simp [inner, unclip, clip]

theorem change_bc (S : Setting) (hB : Box S) (hx : 2 ≤ S.m.Nx) (hz : 2 ≤ S.m.Nz) (junk : Nat → Int) (oob : ℝ) (dx : Nat → ℝ) :
    let g := extractSolutions S.m.Nx S.m.Nz (tagsOf S) ⟨fun _ => 0, fun _ => 0⟩ (evalNumberOfEquations S.m.Nx S.m.Nz (tagsOf S) junk) oob dx
      (1 : ℝ) ⟨fun _ => 0, fun _ => 0, fun _ => 0⟩
    (∀ d : Dof, d.InGrid S.m.Nx S.m.Nz → d.Solved (tagsOf S) →
      d.value g = dx (d.eqn (evalNumberOfEquations S.m.Nx S.m.Nz (tagsOf S) junk)).toNat) ∧
    (∀ d : Dof, d.InGrid S.m.Nx S.m.Nz → (d.tag (tagsOf S) = 0 ∨ d.tag (tagsOf S) = 30 ∨ d.tag (tagsOf S) = 31) → d.value g = 0)
    ∧ BCHold S.m.Nx S.m.Nz (tagsOf S) ⟨fun _ => 0, fun _ => 0⟩ g := by
  intro g
  obtain ⟨h1, h2, h3⟩ := increments_reach_solved S.m.Nx S.m.Nz hx hz (tagsOf S) hB.tags hB.ghosts junk
    (⟨fun _ => 0, fun _ => 0⟩ : BCVals ℝ) ⟨fun _ => 0, fun _ => 0⟩ (fun _ _ => by simp) (fun _ _ => by simp) oob dx 1
    ⟨fun _ => 0, fun _ => 0, fun _ => 0⟩
  refine ⟨fun d hd hs => ?_, fun d hd hs => ?_, h3⟩
  · rw [h1 d hd hs]; cases d <;> simp [Dof.value]
  · rw [h2 d hd hs]; cases d <;> simp [Dof.value]

/-- **A step along a solution vector changes the flow in proportion**: ghost nodes included. -/
theorem extracted_is_shift (S : Setting) (hB : Box S) (hx : 2 ≤ S.m.Nx) (hz : 2 ≤ S.m.Nz) (bc V : BCVals ℝ)
    (hVu : ∀ k : Nat, S.m.tu k = 11 → bc.u k = 2 * V.u k) (hVv : ∀ k : Nat, S.m.tv k = 11 → bc.v k = 2 * V.v k) (junk : Nat → Int) (oob : ℝ)
    (dx : Nat → ℝ) (f : LS.Fields) (hf : Admissible S V f) (s : ℝ) :
    extracted S bc junk oob dx f s = shift f (changeOf S junk oob dx) s := by
  obtain ⟨c1, c2, c3⟩ := change_bc S hB hx hz junk oob dx
  obtain ⟨h1, h2, h3⟩ := increments_reach_solved S.m.Nx S.m.Nz hx hz (tagsOf S) hB.tags hB.ghosts junk bc V hVu hVv oob dx s (unclip f)
  have hin : inner S f = unclip f := by
    unfold inner unclip clip
    congr 1 <;> funext k <;> dsimp only <;> split_ifs with hk
    · rfl
    · exact (hf.u k (by omega)).symm
    · rfl
    · exact (hf.v k (by omega)).symm
    · rfl
    · exact (hf.p k (by omega)).symm
  unfold extracted changeOf shift
  unfold extracted
  rw [hin, inner_zero]
  generalize extractSolutions S.m.Nx S.m.Nz (tagsOf S) ⟨fun _ => 0, fun _ => 0⟩ (evalNumberOfEquations S.m.Nx S.m.Nz (tagsOf S) junk) oob dx
      (1 : ℝ) ⟨fun _ => 0, fun _ => 0, fun _ => 0⟩ = e at c1 c2 c3 ⊢
  generalize extractSolutions S.m.Nx S.m.Nz (tagsOf S) bc (evalNumberOfEquations S.m.Nx S.m.Nz (tagsOf S) junk) oob dx s (unclip f) = g
    at h1 h2 h3 ⊢
  have key : ∀ d : Dof, d.InGrid S.m.Nx S.m.Nz → (d.Solved (tagsOf S) ∨ d.tag (tagsOf S) = 0 ∨ d.tag (tagsOf S) = 30 ∨ d.tag (tagsOf S) = 31) →
      d.value g = d.value (unclip f) + s * d.value e := by
    intro d hd hs
    rcases hs with hs | hs
    · rw [h1 d hd hs, c1 d hd hs]
    · rw [h2 d hd hs, c2 d hd hs]; ring
  have inU : ∀ i l, i < S.m.Nx → 0 < l → l < S.m.Nz → g.u (i + l * S.m.Nx) = f.u (i + l * S.m.Nx) + s * e.u (i + l * S.m.Nx) := by
    intro i l hi h0 hl
    have hk : i + l * S.m.Nx < (S.m.Nz + 1) * S.m.Nx := by rw [mul_comm (S.m.Nz + 1)]; exact cell_lt _ _ _ _ hi (by omega)
    have ht := hB.tags.u _ hk
    have hg := hB.ghosts.uRows i l hi (by omega)
    have hp := hB.periodicU (i + l * S.m.Nx)
    refine key (.u (i + l * S.m.Nx)) hk ?_
    simp only [Dof.Solved, Dof.tag, tagsOf, List.mem_cons, List.not_mem_nil, or_false] at ht hg ⊢
    omega
  have inV : ∀ i l, l < S.m.Nz → 0 < i → i < S.m.Nx → g.v (l * (S.m.Nx + 1) + i) = f.v (l * (S.m.Nx + 1) + i) + s * e.v (l * (S.m.Nx + 1) + i) := by
    intro i l hl h0 hi
    have hk : l * (S.m.Nx + 1) + i < S.m.Nz * (S.m.Nx + 1) := by rw [mul_comm S.m.Nz, add_comm]; exact cell_lt _ _ _ _ (by omega) hl
    have ht := hB.tags.v _ hk
    have hg := hB.ghosts.vCols i l (by omega) hl
    refine key (.v (l * (S.m.Nx + 1) + i)) hk ?_
    simp only [Dof.Solved, Dof.tag, tagsOf, List.mem_cons, List.not_mem_nil, or_false] at ht hg ⊢
    omega
  unfold clip
  congr 1
  · funext k
    dsimp only
    by_cases hk : k < (S.m.Nz + 1) * S.m.Nx
    · rw [if_pos hk, if_pos hk]
      by_cases ht : S.m.tu k = 11 ∨ S.m.tu k = 13
      · obtain ⟨i, l, hi, hl, rfl⟩ : ∃ i l, i < S.m.Nx ∧ l ≤ S.m.Nz ∧ k = i + l * S.m.Nx :=
          ⟨k % S.m.Nx, k / S.m.Nx, Nat.mod_lt _ (by omega), by
            have := Nat.div_lt_of_lt_mul (show k < S.m.Nx * (S.m.Nz + 1) by rw [mul_comm]; exact hk)
            omega, by rw [mul_comm]; exact (Nat.mod_add_div k _).symm⟩
        rcases hB.ghosts.uRows i l hi hl ht with rfl | rfl
        · have q := inU i 1 hi (by omega) (by omega)
          simp only [zero_mul, add_zero] at ht ⊢
          rcases ht with ht | ht
          · have a1 := h3.noSlipS i hi ht
            have a2 := hf.bc.noSlipS i hi ht
            have a3 := c3.noSlipS i hi ht
            simp only [unclip] at a1 a2 a3
            linear_combination 2 * a1 - 2 * a2 - 2 * s * a3 - q
          · have a1 := h3.freeSlipS i hi ht
            have a2 := hf.bc.freeSlipS i hi ht
            have a3 := c3.freeSlipS i hi ht
            simp only [unclip] at a1 a2 a3
            linear_combination a1 - a2 - s * a3 + q
        · have q := inU i (S.m.Nz - 1) hi (by omega) (by omega)
          rcases ht with ht | ht
          · have a1 := h3.noSlipN i hi ht
            have a2 := hf.bc.noSlipN i hi ht
            have a3 := c3.noSlipN i hi ht
            simp only [unclip] at a1 a2 a3
            linear_combination 2 * a1 - 2 * a2 - 2 * s * a3 - q
          · have a1 := h3.freeSlipN i hi ht
            have a2 := hf.bc.freeSlipN i hi ht
            have a3 := c3.freeSlipN i hi ht
            simp only [unclip] at a1 a2 a3
            linear_combination a1 - a2 - s * a3 + q
      · have h0 := hB.tags.u _ hk
        have hp := hB.periodicU k
        refine key (.u k) hk ?_
        simp only [Dof.Solved, Dof.tag, tagsOf, List.mem_cons, List.not_mem_nil, or_false] at h0 ⊢
        omega
    · rw [if_neg hk, if_neg hk, hf.u k (by omega)]; ring
  · funext k
    dsimp only
    by_cases hk : k < S.m.Nz * (S.m.Nx + 1)
    · rw [if_pos hk, if_pos hk]
      by_cases ht : S.m.tv k = 11 ∨ S.m.tv k = 13
      · obtain ⟨i, l, hi, hl, rfl⟩ : ∃ i l, i ≤ S.m.Nx ∧ l < S.m.Nz ∧ k = l * (S.m.Nx + 1) + i :=
          ⟨k % (S.m.Nx + 1), k / (S.m.Nx + 1), by have := Nat.mod_lt k (show 0 < S.m.Nx + 1 by omega); omega,
            Nat.div_lt_of_lt_mul (by rw [mul_comm]; exact hk), by rw [mul_comm]; exact (Nat.div_add_mod k _).symm⟩
        rcases hB.ghosts.vCols i l hi hl (by simp only [tagsOf]; tauto) with rfl | rfl
        · have q := inV 1 l hl (by omega) (by omega)
          simp only [add_zero] at ht ⊢
          rcases ht with ht | ht
          · have a1 := h3.noSlipW l hl ht
            have a2 := hf.bc.noSlipW l hl ht
            have a3 := c3.noSlipW l hl ht
            simp only [unclip] at a1 a2 a3
            linear_combination 2 * a1 - 2 * a2 - 2 * s * a3 - q
          · have a1 := h3.freeSlipW l hl ht
            have a2 := hf.bc.freeSlipW l hl ht
            have a3 := c3.freeSlipW l hl ht
            simp only [unclip] at a1 a2 a3
            linear_combination a1 - a2 - s * a3 + q
        · have q := inV (S.m.Nx - 1) l hl (by omega) (by omega)
          rcases ht with ht | ht
          · have a1 := h3.noSlipE l hl ht
            have a2 := hf.bc.noSlipE l hl ht
            have a3 := c3.noSlipE l hl ht
            simp only [unclip] at a1 a2 a3
            linear_combination 2 * a1 - 2 * a2 - 2 * s * a3 - q
          · have a1 := h3.freeSlipE l hl ht
            have a2 := hf.bc.freeSlipE l hl ht
            have a3 := c3.freeSlipE l hl ht
            simp only [unclip] at a1 a2 a3
            linear_combination a1 - a2 - s * a3 + q
      · have h0 := hB.tags.v _ hk
        have hp := hB.periodicV k
        refine key (.v k) hk ?_
        simp only [Dof.Solved, Dof.tag, tagsOf, List.mem_cons, List.not_mem_nil, or_false] at h0 ⊢
        omega
    · rw [if_neg hk, if_neg hk, hf.v k (by omega)]; ring
  · funext k
    dsimp only
    by_cases hk : k < (S.m.Nz - 1) * (S.m.Nx - 1)
    · rw [if_pos hk, if_pos hk]
      have h0 := hB.tags.p _ hk
      refine key (.p k) hk ?_
      simp only [Dof.Solved, Dof.tag, tagsOf, List.mem_cons, List.not_mem_nil, or_false] at h0 ⊢
      omega
    · rw [if_neg hk, if_neg hk, hf.p k (by omega)]; ring

/-- A solution vector keeps the boundary conditions. -/
theorem change_homogeneous (S : Setting) (hB : Box S) (hx : 2 ≤ S.m.Nx) (hz : 2 ≤ S.m.Nz) (junk : Nat → Int) (oob : ℝ) (dx : Nat → ℝ) :
    Homogeneous S (changeOf S junk oob dx) := by
  obtain ⟨-, c2, c3⟩ := change_bc S hB hx hz junk oob dx
  have e0 : changeOf S junk oob dx = clip S (extractSolutions S.m.Nx S.m.Nz (tagsOf S) ⟨fun _ => 0, fun _ => 0⟩
    (evalNumberOfEquations S.m.Nx S.m.Nz (tagsOf S) junk) oob dx (1 : ℝ) ⟨fun _ => 0, fun _ => 0, fun _ => 0⟩) := by
    unfold changeOf extracted; rw [inner_zero]
  generalize extractSolutions S.m.Nx S.m.Nz (tagsOf S) ⟨fun _ => 0, fun _ => 0⟩ (evalNumberOfEquations S.m.Nx S.m.Nz (tagsOf S) junk) oob dx
      (1 : ℝ) ⟨fun _ => 0, fun _ => 0, fun _ => 0⟩ = e at c2 c3 e0
  have uin : ∀ i l, i < S.m.Nx → l ≤ S.m.Nz → i + l * S.m.Nx < (S.m.Nz + 1) * S.m.Nx := fun i l hi hl => by
    rw [mul_comm (S.m.Nz + 1)]; exact cell_lt _ _ _ _ hi (by omega)
  have vin : ∀ i l, i ≤ S.m.Nx → l < S.m.Nz → i + l * (S.m.Nx + 1) < S.m.Nz * (S.m.Nx + 1) := fun i l hi hl => by
    rw [mul_comm S.m.Nz]; exact cell_lt _ _ _ _ (by omega) (by omega)
  refine { airU := fun i ht => ?_, airV := fun i ht => ?_, airP := fun i ht => ?_, south := fun k l hf => ?_,
           north := fun k l hf => ?_, west := fun k l hf => ?_, east := fun k l hf => ?_ } <;> rw [e0] <;> simp only [clip]
  · split_ifs with hi
    · exact c2 (.u i) hi (Or.inr (Or.inl ht))
    · rfl
  · split_ifs with hi
    · exact c2 (.v i) hi (Or.inr (Or.inl ht))
    · rfl
  · split_ifs with hi
    · have h0 := hB.tags.p _ hi
      refine c2 (.p i) hi ?_
      simp only [Dof.tag, tagsOf, List.mem_cons, List.not_mem_nil, or_false] at h0 ⊢
      omega
    · rfl
  · obtain ⟨k0, k1, l0, l1, -⟩ := hf
    rw [if_pos (uin k (l - 1) (by omega) (by omega)), if_pos (uin k l (by omega) (by omega))]
    have hr := hB.ghosts.uRows k (l - 1) (by omega) (by omega)
    refine ⟨fun ht => ?_, fun ht => ?_⟩
    · obtain rfl : l = 1 := by have := hr (Or.inl ht); omega
      have := c3.noSlipS k (by omega) (by simpa [tagsOf] using ht)
      simp only [Nat.sub_self, zero_mul, add_zero] at ht ⊢
      linarith
    · obtain rfl : l = 1 := by have := hr (Or.inr ht); omega
      have := c3.freeSlipS k (by omega) (by simpa [tagsOf] using ht)
      simpa using this
  · obtain ⟨k0, k1, l0, l1, -⟩ := hf
    rw [if_pos (uin k (l + 1) (by omega) (by omega)), if_pos (uin k l (by omega) (by omega))]
    have hr := hB.ghosts.uRows k (l + 1) (by omega) (by omega)
    refine ⟨fun ht => ?_, fun ht => ?_⟩
    · have hl : l + 1 = S.m.Nz := by have := hr (Or.inl ht); omega
      obtain rfl : l = S.m.Nz - 1 := by omega
      rw [hl] at ht ⊢
      have := c3.noSlipN k (by omega) ht
      simp only at this
      linarith
    · have hl : l + 1 = S.m.Nz := by have := hr (Or.inr ht); omega
      obtain rfl : l = S.m.Nz - 1 := by omega
      rw [hl] at ht ⊢
      exact c3.freeSlipN k (by omega) ht
  · obtain ⟨k0, k1, l0, l1, -⟩ := hf
    rw [if_pos (vin (k - 1) l (by omega) (by omega)), if_pos (vin k l (by omega) (by omega))]
    have hr := hB.ghosts.vCols (k - 1) l (by omega) (by omega)
    rw [add_comm (l * (S.m.Nx + 1))] at hr
    refine ⟨fun ht => ?_, fun ht => ?_⟩
    · obtain rfl : k = 1 := by have := hr (Or.inl ht); omega
      have := c3.noSlipW l (by omega) (by simpa [tagsOf] using ht)
      simp only [Nat.sub_self, zero_add, add_comm 1] at ht ⊢
      linarith
    · obtain rfl : k = 1 := by have := hr (Or.inr (Or.inl ht)); omega
      have := c3.freeSlipW l (by omega) (by simpa [tagsOf] using ht)
      simp only [Nat.sub_self, zero_add, add_comm 1] at ht ⊢
      exact this
  · obtain ⟨k0, k1, l0, l1, -⟩ := hf
    rw [if_pos (vin (k + 1) l (by omega) (by omega)), if_pos (vin k l (by omega) (by omega))]
    have hr := hB.ghosts.vCols (k + 1) l (by omega) (by omega)
    rw [add_comm (l * (S.m.Nx + 1))] at hr
    refine ⟨fun ht => ?_, fun ht => ?_⟩
    · have hk : k + 1 = S.m.Nx := by have := hr (Or.inl ht); omega
      obtain rfl : k = S.m.Nx - 1 := by omega
      rw [hk, add_comm S.m.Nx] at ht ⊢
      have := c3.noSlipE l (by omega) ht
      simp only at this
      rw [add_comm (S.m.Nx - 1)]
      linarith
    · have hk : k + 1 = S.m.Nx := by have := hr (Or.inr (Or.inl ht)); omega
      obtain rfl : k = S.m.Nx - 1 := by omega
      rw [hk, add_comm S.m.Nx] at ht ⊢
      have := c3.freeSlipE l (by omega) ht
      rw [add_comm (S.m.Nx - 1)]
      exact this

/-! ### One solve -/

/-- All equations hold. -/
structure Balanced (S : Setting) (R : Rows) : Prop where
  x : ∀ k l, FreeU S k l → R.x k l = 0
  z : ∀ k l, FreeV S k l → R.z k l = 0
  p : ∀ k l, FreeP S k l → R.p (k + l * (S.m.Nx - 1)) = 0

/-- The residual is `q` times the old one in all equations. -/
structure Scaled (S : Setting) (q : ℝ) (R R' : Rows) : Prop where
  x : ∀ k l, FreeU S k l → R'.x k l = q * R.x k l
  z : ∀ k l, FreeV S k l → R'.z k l = q * R.z k l
  p : ∀ k l, FreeP S k l → R'.p (k + l * (S.m.Nx - 1)) = q * R.p (k + l * (S.m.Nx - 1))

/-- What a user of a linear model relies on: settings, materials, boundary conditions and a solution `dx` of the linear system assembled in the pass
that started from the flow `f`. -/
structure LinearPass (S : Setting) where
  visco : Viscoelastic S
  box : Box S
  vol : S.vol = false
  bc : BCVals ℝ
  V : BCVals ℝ
  bcU : ∀ k : Nat, S.m.tu k = 11 → bc.u k = 2 * V.u k
  bcV : ∀ k : Nat, S.m.tv k = 11 → bc.v k = 2 * V.v k
  f : LS.Fields
  admissible : Admissible S V f
  t : Mech
  o : Mech
  found : Rows
  pass : pass S f t = .ok (o, found)
  junk : Nat → Int
  oob : ℝ
  dx : Nat → ℝ
  solves : Solves S o (rows S (opsOf S o) f o) (changeOf S junk oob dx)

/-- The flow after the step `s` along the solution. -/
noncomputable def LinearPass.flow {S : Setting} (L : LinearPass S) (s : ℝ) : LS.Fields := extracted S L.bc L.junk L.oob L.dx L.f s

private theorem LinearPass.update {S : Setting} (L : LinearPass S) : updateNL S false L.f L.t = .ok L.o
    ∧ L.found = measured S (opsOf S L.o) L.o.rho L.f L.o := by
  have h := L.pass
  unfold StepFlow.pass at h
  split at h
  · next t1 h1 =>
    simp only [Point.Outcome.ok.injEq, Prod.mk.injEq] at h
    obtain ⟨rfl, h2⟩ := h
    exact ⟨h1, h2.symm⟩
  · exact absurd h (by simp)
  · exact absurd h (by simp)

private theorem LinearPass.same {S : Setting} (L : LinearPass S) (g : LS.Fields) (b : Bool) (r : Mech) (h : updateNL S b g L.o = .ok r) :
    opsOf S r = opsOf S L.o ∧ r.rho = L.o.rho := by
  rw [final_flag_unused S L.vol b false] at h
  refine ⟨ops_same S L.visco false false L.f g L.t L.o r L.update.1 h, ?_⟩
  obtain ⟨-, -, -, -, -, -, q, -⟩ := updateNL_ok h
  rw [q, L.vol]; rfl

/-- C151 (partial).  **The residual of a linear model is linear in the step**: with constant viscosities and elasticity, after any step `s` along the solution of
the linear system every residual of the next pass is `1 + s` times the old one, with or without free surface stabilisation and diagonal
scaling, with compressible or incompressible cells.  Missing: periodic sides, prescribed stresses, density_variations, mixed phases. -/
theorem residual_linear_in_step_partial {S : Setting} (L : LinearPass S) (s : ℝ) :
    ∃ r R, pass S (L.flow s) L.o = .ok (r, R) ∧ Scaled S (1 + s) L.found R := by
  obtain ⟨h, hR⟩ := L.update
  have hx := L.visco.Nx
  have hz := L.visco.Nz
  have hd := change_homogeneous S L.box hx hz L.junk L.oob L.dx
  have hs := extracted_is_shift S L.box hx hz L.bc L.V L.bcU L.bcV L.junk L.oob L.dx L.f L.admissible s
  obtain ⟨r, h'⟩ := viscoelastic_goes_on S L.visco false (L.flow s) L.o
  refine ⟨r, measured S (opsOf S r) r.rho (L.flow s) r, by simp [StepFlow.pass, h'], ?_⟩
  obtain ⟨e1, e2⟩ := L.same _ _ _ h'
  unfold LinearPass.flow at h' ⊢
  rw [hs] at h' ⊢
  rw [hR]
  refine ⟨fun k l hf => ?_, fun k l hf => ?_, fun k l hf => ?_⟩
  · have := x_shift L.visco L.box L.vol h hd h' k l hf
    simp only [measured]
    rw [this, e1, e2, L.solves.x k l hf]; ring
  · have := z_shift L.visco L.box L.vol h hd h' k l hf
    simp only [measured]
    rw [this, e1, e2, L.solves.z k l hf]; ring
  · have := p_shift L.visco L.box L.vol h hd h' k l hf
    simp only [measured]
    rw [this, L.solves.p k l hf]; ring

/-- C151 (partial).  **One linear solve is enough**: with the full step, which is taken when the line search is off (StokesRoutines.c:802), all equations hold in
the next pass, whatever flows have been tried in between (`later`).  Missing: as above. -/
theorem one_solve_is_enough_partial {S : Setting} (L : LinearPass S) (later : List (Bool × LS.Fields)) (t3 : Mech)
    (ht : updates S later L.o = .ok t3) : ∃ r R, pass S (L.flow (-1)) t3 = .ok (r, R) ∧ Balanced S R := by
  obtain ⟨r, R, h, q⟩ := residual_linear_in_step_partial L (-1)
  refine ⟨r, R, ?_, fun k l hf => ?_, fun k l hf => ?_, fun k l hf => ?_⟩
  · unfold pass at h ⊢
    rw [update_history_free S L.visco.Nx L.visco.Nz later false _ L.o t3 ht]
    exact h
  · rw [q.x k l hf]; ring
  · rw [q.z k l hf]; ring
  · rw [q.p k l hf]; ring

private theorem one_at (b : Bool) (n t : SNode) (a : ℝ) :
    ((guarded b n a).map fun e => e.2 * (if e.1 = t then (1 : ℝ) else 0)).sum = if b = true ∧ n = t then a else 0 := by
  unfold guarded
  cases b <;> by_cases h : n = t <;> simp [h]

/-- C151.  **Diagonal scaling weights every momentum row with its own coefficient on the diagonal of the assembled matrix**: the rows measured with diag_scaling are the rows times
the change of the row by a unit change of the velocity at its node. -/
theorem scaled_by_diagonal (S : Setting) (hB : Box S) (hdiag : S.diag = true) (f : LS.Fields) (o : Mech) :
    (∀ k l : Nat, FreeU S k l → (measured S (opsOf S o) o.rho f o).x k l = (rows S (opsOf S o) f o).x k l *
      applyTo (fun n => if n = .u (k + l * S.m.Nx : Nat) then 1 else 0)
        (xStencil (meshWith S (opsOf S o) o.rho) k l ++ xStencilP (meshWith S (opsOf S o) o.rho) k l))
    ∧ ∀ k l : Nat, FreeV S k l → (measured S (opsOf S o) o.rho f o).z k l = (rows S (opsOf S o) f o).z k l *
      applyTo (fun n => if n = .v (k + l * (S.m.Nx + 1) : Nat) then 1 else 0)
        (zStencil (meshWith S (opsOf S o) o.rho) k l ++ zStencilP (meshWith S (opsOf S o) o.rho) k l) := by
  refine ⟨fun k l hf => ?_, fun k l hf => ?_⟩
  · obtain ⟨k0, k1, l0, l1, ht⟩ := hf
    simp only [measured, scaleX, hdiag, if_true]
    congr 1
    have ht' : (meshWith S (opsOf S o) o.rho).tu ((k : Int) + l * (S.m.Nx : Int)) = -1 := by
      have : ((k + l * S.m.Nx : Nat) : Int) = (k : Int) + l * (S.m.Nx : Int) := by push_cast; ring
      rw [← this]; exact ht
    have eN : (meshWith S (opsOf S o) o.rho).Nx = S.m.Nx := rfl
    have e2 : ((k + l * S.m.Nx : Nat) : Int) = (k : Int) + l * (S.m.Nx : Int) := by push_cast; ring
    have hN : (0 : Int) < S.m.Nx := by omega
    rw [e2]
    simp only [xStencil, xStencilP, xIdx, eN, ht', applyTo, List.map_append, List.sum_append, one_at, SNode.u.injEq, reduceCtorEq, and_false, if_false,
      show ((-1 : Int) == -2) = false from rfl, Bool.false_eq_true, show ((-1 : Int) != 30) = true from rfl]
    rw [if_neg (by omega), if_neg (by omega), if_pos ⟨trivial, trivial⟩, if_neg (by omega), if_neg (by omega)]
    ring
  · obtain ⟨k0, k1, l0, l1, ht⟩ := hf
    simp only [measured, scaleZ, hdiag, if_true]
    congr 1
    have e2 : ((k + l * (S.m.Nx + 1) : Nat) : Int) = (k : Int) + l * ((S.m.Nx : Int) + 1) := by push_cast; ring
    have ht' : (meshWith S (opsOf S o) o.rho).tv ((k : Int) + l * ((S.m.Nx : Int) + 1)) = -1 := by
      rw [← e2]; exact ht
    have eN : (meshWith S (opsOf S o) o.rho).Nx = S.m.Nx := rfl
    have hN : (0 : Int) < S.m.Nx := by omega
    rw [e2]
    simp only [zStencil, zStencilP, zIdx, eN, ht', applyTo, List.map_append, List.sum_append, one_at, SNode.v.injEq, reduceCtorEq, and_false, if_false,
      Bool.false_eq_true, show ((-1 : Int) != 30) = true from rfl]
    have w1 : ((meshWith S (opsOf S o) o.rho).tv ((k : Int) + l * ((S.m.Nx : Int) + 1) - 1) == -12) = false := by
      have := hB.periodicV (k - 1 + l * (S.m.Nx + 1))
      rw [show ((k - 1 + l * (S.m.Nx + 1) : Nat) : Int) = (k : Int) + l * ((S.m.Nx : Int) + 1) - 1 by push_cast [Nat.cast_sub k0]; ring] at this
      exact beq_eq_false_iff_ne.2 this
    have w2 : ((meshWith S (opsOf S o) o.rho).tv ((k : Int) + l * ((S.m.Nx : Int) + 1) + 1) == -12) = false := by
      have := hB.periodicV (k + 1 + l * (S.m.Nx + 1))
      rw [show ((k + 1 + l * (S.m.Nx + 1) : Nat) : Int) = (k : Int) + l * ((S.m.Nx : Int) + 1) + 1 by push_cast; ring] at this
      exact beq_eq_false_iff_ne.2 this
    simp only [w1, w2, Bool.false_and, Bool.false_eq_true, if_false]
    rw [if_neg (by omega), if_neg (by omega), if_pos ⟨trivial, trivial⟩, if_neg (by omega), if_neg (by omega)]
    ring

/-! ### The line search -/

/-- There are rows of each kind to be counted; otherwise a norm is `0/0` and the run stops (Props/ResidualNorm.lean, `small_grid_stops`). -/
structure Counted (S : Setting) : Prop where
  u : ∃ a < (S.m.Nz + 1) * S.m.Nx, extractVel (S.m.tu a) = true ∧ Resid.coverU S.m.Nx S.m.Nz a = true
  v : ∃ a < S.m.Nz * (S.m.Nx + 1), extractVel (S.m.tv a) = true ∧ Resid.coverV S.m.Nx a = true
  p : ∃ a < (S.m.Nz - 1) * (S.m.Nx - 1), extractP (S.m.tp a) = true

/-- The norms of the residual (StokesRoutines.c:852-892; Model/Residual.lean `evaluateResidual`): root mean squares over the momentum rows that are
counted and over all volume rows. -/
noncomputable def normsOf (S : Setting) (R : Rows) : ℝ × ℝ × ℝ :=
  let U := (Finset.range ((S.m.Nz + 1) * S.m.Nx)).filter fun a : Nat => extractVel (S.m.tu a) = true ∧ Resid.coverU S.m.Nx S.m.Nz a = true
  let V := (Finset.range (S.m.Nz * (S.m.Nx + 1))).filter fun a : Nat => extractVel (S.m.tv a) = true ∧ Resid.coverV S.m.Nx a = true
  let P := (Finset.range ((S.m.Nz - 1) * (S.m.Nx - 1))).filter fun a : Nat => extractP (S.m.tp a) = true
  (√((∑ a ∈ U, R.x (a % S.m.Nx : Nat) (a / S.m.Nx : Nat) ^ 2) / U.card),
    √((∑ a ∈ V, R.z (a % (S.m.Nx + 1) : Nat) (a / (S.m.Nx + 1) : Nat) ^ 2) / V.card), √((∑ a ∈ P, R.p a ^ 2) / P.card))

private theorem sqrt_scaled (q : ℝ) (U : Finset Nat) (x y : Nat → ℝ) (h : ∀ a ∈ U, y a = q * x a) :
    √((∑ a ∈ U, y a ^ 2) / U.card) = |q| * √((∑ a ∈ U, x a ^ 2) / U.card) := by
  rw [Finset.sum_congr rfl fun a ha => by rw [h a ha, mul_pow], ← Finset.mul_sum, mul_div_assoc, Real.sqrt_mul (sq_nonneg q), Real.sqrt_sq_eq_abs]

private theorem norms_scaled {S : Setting} (hx : 2 ≤ S.m.Nx) (hB : Box S) (q : ℝ) (R R' : Rows) (h : Scaled S q R R') :
    normsOf S R' = (|q| * (normsOf S R).1, |q| * (normsOf S R).2.1, |q| * (normsOf S R).2.2) := by
  unfold normsOf
  dsimp only
  refine Prod.ext ?_ (Prod.ext ?_ ?_)
  · refine sqrt_scaled q _ _ _ fun a ha => ?_
    simp only [Finset.mem_filter, Finset.mem_range] at ha
    exact h.x _ _ (hB.freeU a ha.1 ha.2.1)
  · refine sqrt_scaled q _ _ _ fun a ha => ?_
    simp only [Finset.mem_filter, Finset.mem_range] at ha
    exact h.z _ _ (hB.freeV a ha.1 ha.2.1)
  · refine sqrt_scaled q _ _ _ fun a ha => ?_
    simp only [Finset.mem_filter, Finset.mem_range] at ha
    have ht := hB.tags.p a ha.1
    have h1 : S.m.tp a = -1 := by
      have h2 := ha.2
      have h3 : CellOk (S.m.tp a) := by
        have := hB.cells (a % (S.m.Nx - 1)) (a / (S.m.Nx - 1)) (Nat.mod_lt _ (by omega)) (Nat.div_lt_of_lt_mul (by rw [mul_comm]; exact ha.1))
        rwa [mul_comm, Nat.mod_add_div] at this
      rcases h3 with h3 | h3 | h3 <;> rw [h3] at h2 <;> simp [extractP] at h2
      exact h3
    have e : a % (S.m.Nx - 1) + a / (S.m.Nx - 1) * (S.m.Nx - 1) = a := by rw [mul_comm]; exact Nat.mod_add_div _ _
    have := h.p (a % (S.m.Nx - 1)) (a / (S.m.Nx - 1)) ⟨Nat.mod_lt _ (by omega), Nat.div_lt_of_lt_mul (by rw [mul_comm]; exact ha.1), by
      rw [e]; exact h1⟩
    rwa [e] at this

private theorem norm3_scaled (q x z p : ℝ) : LS.norm3 (|q| * x) (|q| * z) (|q| * p) = |q| * LS.norm3 x z p := by
  unfold LS.norm3
  rw [show (|q| * x) ^ 2 + (|q| * z) ^ 2 + (|q| * p) ^ 2 = |q| ^ 2 * (x ^ 2 + z ^ 2 + p ^ 2) by ring, Real.sqrt_mul (sq_nonneg _),
    Real.sqrt_sq (abs_nonneg q)]

/-- Trial steps of which exactly one is the full step: Picard iterations (`Newton = 0`), or Newton iterations with a shortest step below one. -/
def FullStepTried (c : LS.Cfg) : Prop := c.newton = 0 ∨ c.newton = 1 ∧ 0 ≤ c.minStep ∧ c.minStep < 1

private theorem full_step (c : LS.Cfg) (h : FullStepTried c) :
    ∃ j < LS.ntry, LS.alphav c j = -1 ∧ ∀ k < LS.ntry, LS.alphav c k = -1 → k = j := by
  rcases h with h | ⟨h, h0, h1⟩
  · have e : ∀ k : Nat, LS.alphav c k = -(k : ℝ) / 2 := fun k => by
      have := (LS.trial_steps c (by simp [LS.minalpha, LS.maxalpha, h]; norm_num) k).1
      rw [this]; simp [LS.minalpha, LS.maxalpha, h]; ring
    refine ⟨2, by decide, by rw [e]; norm_num, fun k _ hk => ?_⟩
    rw [e] at hk
    have : (k : ℝ) = 2 := by linarith
    exact_mod_cast this
  · have e : ∀ k : Nat, LS.alphav c k = -c.minStep - k * ((1 - c.minStep) / 5) := fun k => by
      have := (LS.trial_steps c (by simp [LS.minalpha, LS.maxalpha, h]; linarith) k).1
      rw [this]; simp only [LS.minalpha, LS.maxalpha, h]; norm_num; ring_nf; tauto
    refine ⟨5, by decide, by rw [e]; push_cast; ring, fun k _ hk => ?_⟩
    rw [e] at hk
    have h2 : ((k : ℝ) - 5) * (1 - c.minStep) = 0 := by linarith
    rcases mul_eq_zero.1 h2 with h3 | h3
    · have : (k : ℝ) = 5 := by linarith
      exact_mod_cast this
    · linarith

/-- C151 (partial).  **The line search of a linear model takes the full step**: on a grid on which the norms exist, if they do not all vanish, it returns `-1` and
signals no stagnation; see `one_solve_is_enough_partial` for what the next pass finds.  Missing: as above. -/
theorem line_search_takes_full_step_partial {S : Setting} (L : LinearPass S) (c : LS.Cfg) (hc : FullStepTried c)
    (_hcnt : Counted S) (hr : normsOf S L.found = (c.rx0, c.rz0, c.rp0)) (hpos : 0 < LS.norm3 c.rx0 c.rz0 c.rp0) (malloc : LS.Fields) :
    let n : LS.Sizes := ⟨(S.m.Nz + 1) * S.m.Nx, S.m.Nz * (S.m.Nx + 1), (S.m.Nz - 1) * (S.m.Nx - 1)⟩
    (LS.lineSearch c n malloc (extracted S L.bc L.junk L.oob L.dx) (refresh S) (measure S (normsOf S) L.o) L.f (.ok L.o)).1 = ⟨-1, false⟩ := by
  intro n
  have hloc : ∀ a b s, LS.SameFields n a b → extracted S L.bc L.junk L.oob L.dx a s = extracted S L.bc L.junk L.oob L.dx b s := by
    intro a b s ⟨h1, h2, h3⟩
    have e : inner S a = inner S b := by
      unfold inner unclip clip
      congr 1 <;> funext k <;> dsimp only <;> split_ifs with hk
      · exact h1 k hk
      · rfl
      · exact h2 k hk
      · rfl
      · exact h3 k hk
      · rfl
    unfold extracted
    rw [e]
  have hn : ∀ s, foundNorms S (normsOf S) L.o (L.flow s) = (|1 + s| * c.rx0, |1 + s| * c.rz0, |1 + s| * c.rp0) := by
    intro s
    obtain ⟨r, R, h, q⟩ := residual_linear_in_step_partial L s
    unfold foundNorms
    rw [h]
    dsimp only
    rw [norms_scaled L.visco.Nx L.box _ _ _ q, hr]
  rw [search_measures S L.visco.Nx L.visco.Nz L.vol (normsOf S) c n malloc (extracted S L.bc L.junk L.oob L.dx) L.f L.o hloc
    (fun g t' h' => by obtain ⟨e1, e2⟩ := L.same g true t' h'; rw [e1, e2])
    (fun k _ => viscoelastic_goes_on S L.visco true _ _)]
  have hn' : ∀ s, foundNorms S (normsOf S) L.o (extracted S L.bc L.junk L.oob L.dx L.f s) = (|1 + s| * c.rx0, |1 + s| * c.rz0, |1 + s| * c.rp0) := hn
  simp only [hn']
  obtain ⟨j, hj, hj1, hj2⟩ := full_step c hc
  obtain ⟨a1, a2, -⟩ := LS.argmin_spec fun k => LS.norm3 (if k < LS.ntry then |1 + LS.alphav c k| * c.rx0 else 0)
    (if k < LS.ntry then |1 + LS.alphav c k| * c.rz0 else 0) (if k < LS.ntry then |1 + LS.alphav c k| * c.rp0 else 0)
  have a3 := a2 j hj
  rw [if_pos a1, if_pos a1, if_pos a1, if_pos hj, if_pos hj, if_pos hj, norm3_scaled, norm3_scaled, hj1] at a3
  have a4 : LS.alphav c (LS.argmin fun k => LS.norm3 (if k < LS.ntry then |1 + LS.alphav c k| * c.rx0 else 0)
    (if k < LS.ntry then |1 + LS.alphav c k| * c.rz0 else 0) (if k < LS.ntry then |1 + LS.alphav c k| * c.rp0 else 0)) = -1 := by
    norm_num at a3
    by_contra hne
    have : 0 < |1 + LS.alphav c (LS.argmin fun k => LS.norm3 (if k < LS.ntry then |1 + LS.alphav c k| * c.rx0 else 0)
        (if k < LS.ntry then |1 + LS.alphav c k| * c.rz0 else 0) (if k < LS.ntry then |1 + LS.alphav c k| * c.rp0 else 0))| :=
      abs_pos.2 fun q => hne (by linarith)
    nlinarith [mul_pos this hpos]
  unfold LS.select
  dsimp only
  simp only [a1, if_true]
  rw [a4]
  have e0 : LS.norm3 (|(1 : ℝ) + -1| * c.rx0) (|(1 : ℝ) + -1| * c.rz0) (|(1 : ℝ) + -1| * c.rp0) = 0 := by rw [norm3_scaled]; norm_num
  rw [e0, if_pos hpos]
  norm_num

end Verif.StepFlow
