import Verif.Props.PatchTest
import Verif.Spec.Maxwell

/- C156, first part: the local iteration of a Maxwell body and what a step records for it. -/
namespace Verif.LocalIter

/-- Elasticity and constant viscosity of comparable size: the iteration ends at the exact viscosity. -/
theorem run_maxwell (e eta d E tol huge : ℝ) (he : 0 < e) (heta : 0 < eta) (hE : 0 < E) (ht : 0 < tol) (h1 : tol / 100 * eta ≤ e) (h2 : tol / 100 * e ≤ eta) (hh : eta ≤ huge) :
    run { el := some e, cst := some eta, pwl := none, exp := none, lin := none, gbs := none, d := d } E tol huge = .ok (eta * e / (eta + e)) (2 * (eta * e / (eta + e)) * E) := by
  have hg : guess { el := some e, cst := some eta, pwl := none, exp := none, lin := none, gbs := none, d := d } E huge = min eta e := by
    unfold guess isolated
    simp only [Option.toList_some, Option.toList_none, List.map_nil, List.append_nil, List.cons_append, List.nil_append, List.foldl_cons, List.foldl_nil]
    rw [min_eq_right hh]
  have hr : ∀ x, residual { el := some e, cst := some eta, pwl := none, exp := none, lin := none, gbs := none, d := d } E x = E * (1 - x * (1 / e + 1 / eta)) := by
    intro x
    unfold residual elasticRate rates
    simp only [Option.toList_some, Option.toList_none, List.map_nil, List.map_cons, List.append_nil, List.sum_cons, List.sum_nil, add_zero]
    field_simp
    ring
  have hs : ∀ x, slope { el := some e, cst := some eta, pwl := none, exp := none, lin := none, gbs := none, d := d } E x = -E * (1 / e + 1 / eta) := by
    intro x
    unfold slope
    simp only [Option.toList_some, Option.toList_none, List.map_nil, List.map_cons, List.sum_cons, List.sum_nil, add_zero]
    ring
  have hq : 0 < 1 / e + 1 / eta := by positivity
  have hs0 : -E * (1 / e + 1 / eta) ≠ 0 := mul_ne_zero (neg_ne_zero.2 hE.ne') hq.ne'
  unfold run
  rw [hg]
  have hbig : ¬ |E * (1 - min eta e * (1 / e + 1 / eta)) / E| < tol / 100 := by
    rw [mul_div_cancel_left₀ _ hE.ne', not_lt]
    rcases le_total eta e with h | h
    · rw [min_eq_left h, show 1 - eta * (1 / e + 1 / eta) = -(eta / e) by field_simp; ring, abs_neg, abs_of_pos (by positivity), le_div_iff₀ he]
      exact h2
    · rw [min_eq_right h, show 1 - e * (1 / e + 1 / eta) = -(e / eta) by field_simp; ring, abs_neg, abs_of_pos (by positivity), le_div_iff₀ heta]
      exact h1
  have hnext : min eta e - E * (1 - min eta e * (1 / e + 1 / eta)) / (-E * (1 / e + 1 / eta)) = eta * e / (eta + e) := by
    generalize min eta e = m
    field_simp
    ring
  rw [solve]
  simp only [hr, hs]
  rw [if_neg hbig, if_neg (by norm_num), if_neg hs0, hnext, solve]
  simp only [hr]
  have h0 : E * (1 - eta * e / (eta + e) * (1 / e + 1 / eta)) = 0 := by field_simp; ring
  rw [h0, zero_div, abs_zero, if_pos (by positivity)]

end Verif.LocalIter

namespace Verif.StepFlow
open Verif Finset

/-- A Maxwell body: every phase has the constant viscosity `eta`, the shear modulus is `G` everywhere, the viscoelastic viscosity is not cut off,
and viscosity and `G dt` differ by less than a factor `1e13`, the tolerance of the local iteration. -/
structure Maxwell (S : Setting) (eta G : ℝ) : Prop where
  rocks : Viscoelastic S
  elastic : S.env.elastic = true
  later : S.env.step0 = false
  visc : ∀ p < S.n, (S.mats p).eta0 = eta
  phases : 0 < S.n
  cells : ∀ c < S.ncells, (S.cell c).mu = G
  verts : ∀ c < S.nverts, (S.vert c).mu = G
  stiff : 0 < G
  ratio : eta ≤ 10 ^ 13 * (G * S.env.dt)
  ratio' : G * S.env.dt ≤ 10 ^ 13 * eta
  low : S.env.minEta ≤ eta * (G * S.env.dt) / (eta + G * S.env.dt)
  high : eta * (G * S.env.dt) / (eta + G * S.env.dt) ≤ S.env.maxEta

theorem Maxwell.pos {S : Setting} {eta G : ℝ} (h : Maxwell S eta G) : 0 < eta := by
  have := (h.rocks.mats 0 h.phases).2.2.2.2.2.2.1
  rwa [h.visc 0 h.phases] at this

/-- The update of a phase of a Maxwell body. -/
private theorem maxwell_out {S : Setting} {eta G : ℝ} (h : Maxwell S eta G) {p : Nat} (hp : p < S.n) (i : Point.In) (hi : i.G = G) (c : Bool) (a : Point.Out)
    (ha : Point.update S.env (S.mats p) (S.huet p) i c = .ok a) : a.etaVE = eta * (G * S.env.dt) / (eta + G * S.env.dt)
    ∧ (c = true → a.wDiss = (2 * (eta * (G * S.env.dt) / (eta + G * S.env.dt)) * Point.rate S.env i.E) ^ 2 / eta) := by
  obtain ⟨c1, c2, c3, c4, c5, c6, c7, c8, -⟩ := h.rocks.mats p hp
  have hcr : Point.creep S.env (S.mats p) (S.huet p) i
      = { el := some (G * S.env.dt), cst := some eta, pwl := none, exp := none, lin := none, gbs := none, d := i.d } := by
    have hel : S.env.el = true := by simp [Point.Env.el, h.elastic, h.later]
    unfold Point.creep
    simp [hel, c1, c2, c3, c4, c5, Point.moduli, Point.Env.dtEff, h.later, hi, Point.constantViscosity, h.rocks.mixing, h.visc p hp]
  have hE : 0 < Point.rate S.env i.E := by
    unfold Point.rate
    have := h.rocks.sE
    split
    · positivity
    · next hn =>
      have : 0 < Point.invariant i.E * S.env.sE := lt_of_lt_of_le (by positivity) (not_lt.1 hn)
      exact (pos_iff_pos_of_mul_pos this).2 h.rocks.sE
  rw [h.visc p hp] at c8
  have g0 := h.stiff
  have d0 := h.rocks.dt
  have r1 := h.ratio
  have r2 := h.ratio'
  have ht := LocalIter.run_maxwell (G * S.env.dt) eta i.d (Point.rate S.env i.E) (1 / 10 ^ 11) (10 ^ 100 / S.env.sEta) (by positivity) h.pos hE (by positivity)
    (by norm_num at r1 r2 ⊢; linarith) (by norm_num at r1 r2 ⊢; linarith) c8
  have hyy : ∀ E y t, Point.yielding S.env (S.mats p) i E y t = ⟨t, i.P, 0, (S.mats p).etaVp, false⟩ := by
    intro E y t; unfold Point.yielding; simp [c6]
  have hinv : ∀ t, Point.dissInverse (S.mats p) { el := some (G * S.env.dt), cst := some eta, pwl := none, exp := none, lin := none, gbs := none, d := i.d }
      ⟨t, i.P, 0, (S.mats p).etaVp, false⟩ t = 1 / eta := by
    intro t
    unfold Point.dissInverse Point.inverse
    simp [Point.powerInv, Point.linInv, Point.cstInv]
  unfold Point.update at ha
  rw [if_neg (by simp [c4])] at ha
  dsimp only at ha
  rw [hcr, ht] at ha
  simp only [Point.finish, hyy, hinv] at ha
  split at ha
  · exact absurd ha (by simp)
  · split at ha
    · exact absurd ha (by simp)
    · simp only [Point.Res.ok.injEq] at ha
      rw [← ha]
      constructor
      · simp only [Point.effViscosity, Bool.false_eq_true, if_false, Rheo.limiter]
        rw [if_neg (not_lt.2 h.high), if_neg (not_lt.2 h.low)]
      · intro hc
        dsimp only
        rw [if_pos hc]
        ring

/-- What a Maxwell body records: the viscoelastic viscosity times the effective strain rate, in every cell and at every vertex. -/
theorem maxwell_recorded {S : Setting} {eta G : ℝ} (h : Maxwell S eta G) {b : Bool} {f : LS.Fields} {t r : Mech} (ho : updateNL S b f t = .ok r) :
    (∀ c < S.ncells, ¬ (S.m.tp c = 30 ∨ S.m.tp c = 31) →
      (r.cells c).T = Point.nodeStress (eta * (G * S.env.dt) / (eta + G * S.env.dt)) ((cellData S f r.rates c).eff S.env))
    ∧ ∀ c < S.nverts, S.m.tg c ≠ 30 →
      (r.verts c).T = Point.nodeStress (eta * (G * S.env.dt) / (eta + G * S.env.dt)) ((vertData S r.rates r.Ts r.Ps r.ds r.phis c).eff S.env) := by
  have hS := h.rocks
  have g0 := h.stiff
  have d0 := h.rocks.dt
  have e0 := h.pos
  have v0 : 0 < eta * (G * S.env.dt) / (eta + G * S.env.dt) := by positivity
  obtain ⟨a1, a2, a3, a4, a5, a6, -⟩ := updateNL_ok ho
  have hs := (Point.grid_spec S.env S.mean S.n S.mats S.huet S.ncells S.nverts _ _ t.cells t.verts).1 _ _ a6
  obtain ⟨p1, p2⟩ := viscoelastic_points S hS f t
  rw [← a1] at p1
  rw [← a1, ← a2, ← a3, ← a4, ← a5] at p2
  refine ⟨fun c hc ha => ?_, fun c hc ha => ?_⟩
  · obtain ⟨w1, -⟩ := hS.cells c hc ha
    choose! o ho using p1 c hc ha
    obtain ⟨s, e0, e1, -, e3, -⟩ := Point.cell_update S.env S.mean S.n S.mats S.huet (cellData S f r.rates c)
      (by simp only [cellData]; exact decide_eq_false ha) w1 hS.minEta hS.limits (fun p hp => (hS.mats p hp).2.2.2.2.2.2.2.2.2.1) o
      (fun p hp _ => ho p hp)
    have k1 := hs.1 c hc
    rw [e0] at k1
    simp only [Point.Outcome.ok.injEq] at k1
    have hb := Point.mean_between S.mean S.n (cellData S f r.rates c).w (fun p => (o p).etaVE) _ _ w1 v0
      (fun p hp _ => by rw [(maxwell_out h hp _ (h.cells c hc) true _ (ho p hp)).1]; exact ⟨le_rfl, le_rfl⟩)
    rw [← k1, e3, e1, le_antisymm hb.2 hb.1]
  · obtain ⟨w1, -⟩ := hS.verts c hc ha
    choose! o ho using p2 c hc ha
    obtain ⟨s, e0, e1, -, e3, -⟩ := Point.vertex_update S.env S.mean S.n S.mats S.huet (vertData S r.rates r.Ts r.Ps r.ds r.phis c)
      (by simp only [vertData]; exact decide_eq_false ha) w1 hS.minEta hS.limits o (fun p hp _ => ho p hp)
    have k1 := hs.2.1 c hc
    rw [e0] at k1
    simp only [Point.Outcome.ok.injEq] at k1
    have hb := Point.mean_between S.mean S.n (vertData S r.rates r.Ts r.Ps r.ds r.phis c).w (fun p => (o p).etaVE) _ _ w1 v0
      (fun p hp _ => by rw [(maxwell_out h hp _ (h.verts c hc) false _ (ho p hp)).1]; exact ⟨le_rfl, le_rfl⟩)
    rw [← k1, e3, e1, le_antisymm hb.2 hb.1]

/-- The heating of a Maxwell body: the square of the stress of the local iteration over the viscosity. -/
theorem maxwell_heating {S : Setting} {eta G : ℝ} (h : Maxwell S eta G) {b : Bool} {f : LS.Fields} {t r : Mech} (ho : updateNL S b f t = .ok r) :
    ∀ c < S.ncells, ¬ (S.m.tp c = 30 ∨ S.m.tp c = 31) →
      (r.cells c).wDiss = (2 * (eta * (G * S.env.dt) / (eta + G * S.env.dt)) * Point.rate S.env ((cellData S f r.rates c).eff S.env)) ^ 2 / eta := by
  have hS := h.rocks
  obtain ⟨a1, a2, a3, a4, a5, a6, -⟩ := updateNL_ok ho
  have hs := (Point.grid_spec S.env S.mean S.n S.mats S.huet S.ncells S.nverts _ _ t.cells t.verts).1 _ _ a6
  obtain ⟨p1, -⟩ := viscoelastic_points S hS f t
  rw [← a1] at p1
  intro c hc ha
  obtain ⟨w1, -⟩ := hS.cells c hc ha
  choose! o ho using p1 c hc ha
  obtain ⟨s, e0, -, -, -, -, -, -, -, -, -, -, -, -, -, -, -, -, e5, -⟩ := Point.cell_update S.env S.mean S.n S.mats S.huet (cellData S f r.rates c)
    (by simp only [cellData]; exact decide_eq_false ha) w1 hS.minEta hS.limits (fun p hp => (hS.mats p hp).2.2.2.2.2.2.2.2.2.1) o
    (fun p hp _ => ho p hp)
  have k1 := hs.1 c hc
  rw [e0] at k1
  simp only [Point.Outcome.ok.injEq] at k1
  rw [← k1, e5]
  unfold Spec.share
  rw [Finset.sum_congr rfl fun p hp => by beta_reduce; rw [(maxwell_out h (mem_range.1 hp) _ (h.cells c hc) true _ (ho p (mem_range.1 hp))).2 rfl], ← Finset.sum_mul]
  rw [show ∑ i ∈ range S.n, (cellData S f r.rates c).w i = 1 from w1.total, one_mul]
  rfl

/-- That stress is the one the implicit Euler rule gives for the Maxwell body. -/
theorem maxwell_euler {S : Setting} {eta G : ℝ} (h : Maxwell S eta G) (e old new : ℝ)
    (hn : new = 2 * (eta * (G * S.env.dt) / (eta + G * S.env.dt)) * (e + 1 * old / (S.env.dt * G) / 2)) : Spec.BackwardEuler eta G S.env.dt e old new := by
  have g0 := h.stiff
  have d0 := h.rocks.dt
  have e0 := h.pos
  unfold Spec.BackwardEuler
  rw [hn]
  field_simp
  ring

end Verif.StepFlow
