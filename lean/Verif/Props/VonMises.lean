import Verif.Props.StressCycle
import Verif.Spec.VonMises

/- C159: a uniform elasto-plastic body in pure shear. -/
set_option linter.unusedSimpArgs false

namespace Verif.Point
open Verif Verif.Spec

/-- A point of a Maxwell material with constant strength: the update gives a result, and its stress is that of the return mapping. -/
theorem vonMises_out (v : Env) (m : Mat) (huet : ℝ × ℝ → ℝ × ℝ) (i : In) (cell : Bool) {eta G Y vp : ℝ} (hel : v.elastic = true) (hst : v.step0 = false) (hmix : v.mixing = false)
    (hm : m.cst = true ∧ m.pwl = false ∧ m.exp = false ∧ m.lin = false ∧ m.gbs = false ∧ m.plast = true ∧ m.eta0 = eta ∧ m.nVp = 1 ∧ m.etaVp = vp ∧ Y ≤ m.slim)
    (hG : i.G = G) (hC : i.C = Y) (hf : i.fric = 0) (hd : Real.sin i.dil = 0) (heta : 0 < eta) (hbig : eta ≤ 10 ^ 100 / v.sEta) (g0 : 0 < G) (d0 : 0 < v.dt) (hY : 0 < Y) (hvp : 0 ≤ vp)
    (htol : 0 < v.tol) (hsE : 0 < v.sE) (r1 : eta ≤ 10 ^ 13 * (G * v.dt)) (r2 : G * v.dt ≤ 10 ^ 13 * eta) (hlo : v.minEta ≤ eta * (G * v.dt) / (eta + G * v.dt))
    (hhi : eta * (G * v.dt) / (eta + G * v.dt) ≤ v.maxEta) (hlo' : 2 * v.minEta * rate v i.E ≤ Y) :
    ∃ o y, update v m huet i cell = .ok o ∧ o.pcorr = i.P ∧ Spec.Yield Y vp (eta * (G * v.dt) / (eta + G * v.dt)) (2 * (eta * (G * v.dt) / (eta + G * v.dt)) * rate v i.E) y
      ∧ o.etaVE = y / (2 * rate v i.E) := by
  obtain ⟨c1, c2, c3, c4, c5, c6, c7, c8, c9, c10⟩ := hm
  have v0 : 0 < eta * (G * v.dt) / (eta + G * v.dt) := by positivity
  have hel' : v.el = true := by simp [Env.el, hel, hst]
  have hcr : creep v m huet i = { el := some (G * v.dt), cst := some eta, pwl := none, exp := none, lin := none, gbs := none, d := i.d } := by
    unfold creep
    simp [hel', c1, c2, c3, c4, c5, moduli, Env.dtEff, hst, hG, constantViscosity, hmix, c7]
  have hE := (rate_ge v hsE i.E).2
  have ht := LocalIter.run_maxwell (G * v.dt) eta i.d (rate v i.E) (1 / 10 ^ 11) (10 ^ 100 / v.sEta) (by positivity) heta hE (by positivity)
    (by norm_num at r1 r2 ⊢; linarith) (by norm_num at r1 r2 ⊢; linarith) hbig
  have hys : yieldStrength m i = Y := by
    unfold yieldStrength
    rw [hC, hf]
    simp [c10]
  have hsp : SimplePlastic v m i := ⟨c8, by rw [c9]; exact hvp, le_trans hY.le c10, fun _ => hd, by rw [hC, hf]; simp [hY.le], htol⟩
  unfold update
  rw [if_neg (by simp [c4])]
  dsimp only
  rw [hcr, ht]
  generalize eta * (G * v.dt) / (eta + G * v.dt) = ve at *
  generalize rate v i.E = E at *
  have lim : ∀ x, v.minEta ≤ x → x ≤ v.maxEta → Rheo.limiter v.minEta v.maxEta x = x := fun x h1 h2 => by
    unfold Rheo.limiter
    dsimp only
    rw [if_neg (not_lt.2 h2), if_neg (not_lt.2 h1)]
  rcases yielding_simple v m i (fun _ => hsp) E ve (2 * ve * E) v0 with ⟨hy, hle⟩ | ⟨-, ha, hty, hgd, hlt, hg, hpc, -⟩
  · have hinv : dissInverse m { el := some (G * v.dt), cst := some eta, pwl := none, exp := none, lin := none, gbs := none, d := i.d }
        ⟨2 * ve * E, i.P, 0, m.etaVp, false⟩ (2 * ve * E) = 1 / eta := by
      unfold dissInverse inverse
      simp [powerInv, linInv, cstInv]
    simp only [finish, hy, hinv]
    rw [if_neg (by simp), if_neg (by rintro ⟨-, h⟩; have : 0 < 2 * ve * E * (2 * ve * E) * (1 / eta) := by positivity
                                     linarith)]
    refine ⟨_, 2 * ve * E, rfl, rfl, Or.inl ⟨by rw [← hys]; exact hle c6, rfl⟩, ?_⟩
    simp only [effViscosity, Bool.false_eq_true, if_false]
    rw [lim _ hlo hhi]
    field_simp
  · rw [hys, c9] at hty
    have thr : Y + 1 / 10 ^ 17 < 2 * ve * E := by
      by_contra hn
      have hcap : strength m i = yieldStrength m i := Rheo.yield_cap _ _ _ _ _
      unfold yielding at ha
      rw [if_pos c6, Rheo.plastic_inactive _ _ _ _ _ (by rw [hcap, hys]; show 2 * ve * E - Y ≤ _; linarith [not_lt.1 hn])] at ha
      exact absurd ha (by simp)
    simp only [finish]
    generalize yielding v m i E ve (2 * ve * E) = pl at *
    have ty : Y ≤ pl.tii := by rw [hty]; have := mul_nonneg hvp hgd.le; linarith
    have tp : 0 < pl.tii := lt_of_lt_of_le hY ty
    have hinv : 0 ≤ dissInverse m { el := some (G * v.dt), cst := some eta, pwl := none, exp := none, lin := none, gbs := none, d := i.d } pl (2 * ve * E) := by
      unfold dissInverse inverse
      simp only [powerInv, linInv, cstInv, ha, if_true, Option.elim]
      positivity
    rw [if_neg (fun h => tp.ne' h.2), if_neg (by rintro ⟨-, h⟩; have := mul_nonneg (mul_self_nonneg pl.tii) hinv; linarith)]
    refine ⟨_, pl.tii, rfl, hpc, Or.inr ⟨?_, pl.gdot, hgd, hty, hg⟩, ?_⟩
    · exact thr
    · simp only [effViscosity, ha, if_true]
      refine lim _ ?_ (le_trans ?_ hhi)
      · rw [le_div_iff₀ (by positivity)]; nlinarith
      · rw [div_le_iff₀ (by positivity)]; nlinarith

end Verif.Point

namespace Verif.Spec

/-- The rule determines the stress. -/
theorem Yield.unique {Y vp ve s y y' : ℝ} (hv : 0 < ve) (hp : 0 ≤ vp) (h : Yield Y vp ve s y) (h' : Yield Y vp ve s y') : y = y' := by
  rcases h with ⟨a, rfl⟩ | ⟨a, g, -, b, c⟩ <;> rcases h' with ⟨a', rfl⟩ | ⟨a', g', -, b', c'⟩
  · rfl
  · linarith
  · linarith
  · have e : (ve + vp) * (g - g') = 0 := by linear_combination -c - b + c' + b'
    have : g = g' := by
      rcases mul_eq_zero.1 e with q | q
      · linarith
      · linarith
    rw [b, b', this]

/-- The stress does not exceed the trial stress, and is not below strength and trial stress together. -/
theorem Yield.bounds {Y vp ve s y : ℝ} (hv : 0 < ve) (hp : 0 ≤ vp) (h : Yield Y vp ve s y) : min s Y ≤ y ∧ y ≤ s ∧ (vp = 0 → y ≤ min s Y + 1 / 10 ^ 17) := by
  have d : (0 : ℝ) < 1 / 10 ^ 17 := by positivity
  rcases h with ⟨a, e⟩ | ⟨a, g, g0, b, c⟩
  · rw [e]
    refine ⟨min_le_left _ _, le_rfl, fun _ => ?_⟩
    rcases le_total s Y with q | q
    · rw [min_eq_left q]; linarith
    · rw [min_eq_right q]; exact a
  · have := mul_pos hv g0
    have := mul_nonneg hp g0.le
    rw [min_eq_right (by linarith)]
    refine ⟨by linarith, by linarith, fun q => ?_⟩
    rw [q] at b
    linarith

end Verif.Spec

namespace Verif.StepFlow
open Verif Verif.Hist Finset

/-- A Maxwell body that yields at the strength `Y`, whatever the pressure, with the overstress viscosity `vp`: every phase has the constant viscosity `eta`, the shear modulus is `G` everywhere,
no dilation, the viscoelastic viscosity is not cut off. -/
structure VonMises (S : Setting) (eta G Y vp : ℝ) : Prop where
  minEta : 0 < S.env.minEta
  elastic : S.env.elastic = true
  later : S.env.step0 = false
  mixing : S.env.mixing = false
  dt : 0 < S.env.dt
  sE : 0 < S.env.sE
  tol : 0 < S.env.tol
  mats : ∀ p < S.n, (S.mats p).cst = true ∧ (S.mats p).pwl = false ∧ (S.mats p).exp = false ∧ (S.mats p).lin = false ∧ (S.mats p).gbs = false ∧ (S.mats p).plast = true
    ∧ (S.mats p).eta0 = eta ∧ (S.mats p).nVp = 1 ∧ (S.mats p).etaVp = vp ∧ Y ≤ (S.mats p).slim
  grain : ∀ p < S.n, 0 < (S.mats p).gsRef
  cells : ∀ c < S.ncells, Spec.Composition S.n (S.cell c).w ∧ (S.cell c).mu = G ∧ (S.cell c).C = Y ∧ (S.cell c).fric = 0 ∧ Real.sin (S.cell c).dil = 0
  verts : ∀ c < S.nverts, Spec.Composition S.n (S.vert c).w ∧ (S.vert c).mu = G ∧ (S.vert c).C = Y ∧ (S.vert c).fric = 0 ∧ Real.sin (S.vert c).dil = 0
  visc : 0 < eta
  big : eta ≤ 10 ^ 100 / S.env.sEta
  stiff : 0 < G
  strong : 0 < Y
  over : 0 ≤ vp
  ratio : eta ≤ 10 ^ 13 * (G * S.env.dt)
  ratio' : G * S.env.dt ≤ 10 ^ 13 * eta
  low : S.env.minEta ≤ eta * (G * S.env.dt) / (eta + G * S.env.dt)
  high : eta * (G * S.env.dt) / (eta + G * S.env.dt) ≤ S.env.maxEta

section
variable {S : Setting} {eta G Y vp : ℝ} (h : VonMises S eta G Y vp)
include h

/-- The update of a phase at a node in pure shear. -/
private theorem VonMises.out {k : Point.Node} (hmu : k.mu = G) (hC : k.C = Y) (hf : k.fric = 0) (hd : Real.sin k.dil = 0) {e : ℝ} (heff : k.eff S.env = ⟨-e, e, 0⟩) (e0 : 0 < e)
    (he : 1 / 10 ^ 30 ≤ e * S.env.sE) (hlo : 2 * S.env.minEta * e ≤ Y) (cell : Bool) : ∃ y, Spec.Yield Y vp (eta * (G * S.env.dt) / (eta + G * S.env.dt))
      (2 * (eta * (G * S.env.dt) / (eta + G * S.env.dt)) * e) y ∧ ∀ p < S.n, ∃ o, Point.update S.env (S.mats p) (S.huet p) (k.input S.env) cell = .ok o ∧ o.pcorr = k.P ∧ o.etaVE = y / (2 * e) := by
  have g0 := h.stiff
  have d0 := h.dt
  have h0 := h.visc
  have v0 : 0 < eta * (G * S.env.dt) / (eta + G * S.env.dt) := by positivity
  have hr : Point.rate S.env (k.input S.env).E = e := by
    have : Point.invariant (k.input S.env).E = e := by
      show Point.invariant (k.eff S.env) = e
      rw [heff]
      unfold Point.invariant
      dsimp only
      rw [show 1 / 2 * (-e * -e + e * e + -(-e + e) * -(-e + e)) + 0 * 0 = e ^ 2 by ring, Real.sqrt_sq e0.le]
    unfold Point.rate
    rw [this, if_neg (not_lt.2 he)]
  have pt : ∀ p < S.n, ∃ o y, Point.update S.env (S.mats p) (S.huet p) (k.input S.env) cell = .ok o ∧ o.pcorr = k.P
      ∧ Spec.Yield Y vp (eta * (G * S.env.dt) / (eta + G * S.env.dt)) (2 * (eta * (G * S.env.dt) / (eta + G * S.env.dt)) * e) y ∧ o.etaVE = y / (2 * e) := fun p hp => by
    have := Point.vonMises_out S.env (S.mats p) (S.huet p) (k.input S.env) cell h.elastic h.later h.mixing (h.mats p hp) hmu hC hf hd h.visc h.big h.stiff h.dt h.strong h.over h.tol h.sE h.ratio
      h.ratio' h.low h.high (by rw [hr]; exact hlo)
    rw [hr] at this
    exact this
  by_cases hs : 2 * (eta * (G * S.env.dt) / (eta + G * S.env.dt)) * e ≤ Y + 1 / 10 ^ 17
  · refine ⟨_, Or.inl ⟨hs, rfl⟩, fun p hp => ?_⟩
    obtain ⟨o, y, a, b, c, d⟩ := pt p hp
    rw [c.unique v0 h.over (Or.inl ⟨hs, rfl⟩)] at d
    exact ⟨o, a, b, d⟩
  · generalize eta * (G * S.env.dt) / (eta + G * S.env.dt) = v at *
    have gp : 0 < (2 * v * e - Y) / (v + vp) := by
      have : (0 : ℝ) < 1 / 10 ^ 17 := by positivity
      have := h.over
      exact div_pos (by linarith [not_le.1 hs]) (by linarith)
    have hv : v + vp ≠ 0 := by have := h.over; positivity
    have hY : Spec.Yield Y vp v (2 * v * e) (Y + vp * ((2 * v * e - Y) / (v + vp))) :=
      Or.inr ⟨not_le.1 hs, (2 * v * e - Y) / (v + vp), gp, rfl, by field_simp; ring⟩
    refine ⟨_, hY, fun p hp => ?_⟩
    obtain ⟨o, y, a, b, c, d⟩ := pt p hp
    rw [c.unique v0 h.over hY] at d
    exact ⟨o, a, b, d⟩

omit h in
private theorem share_same {n : Nat} {w : Nat → ℝ} (hw : Spec.Composition n w) {g : Nat → ℝ} {x : ℝ} (hg : ∀ p < n, g p = x) : Spec.share n w g = x := by
  unfold Spec.share
  rw [Finset.sum_congr rfl fun p hp => by rw [hg p (mem_range.1 hp)], ← Finset.sum_mul, hw.total, one_mul]

/-- What a node in pure shear records. -/
private theorem VonMises.node {k : Point.Node} (hair : k.air = false) (hw : Spec.Composition S.n k.w) (hmu : k.mu = G) (hC : k.C = Y) (hf : k.fric = 0) (hd : Real.sin k.dil = 0) {e : ℝ}
    (heff : k.eff S.env = ⟨-e, e, 0⟩) (e0 : 0 < e) (he : 1 / 10 ^ 30 ≤ e * S.env.sE) (hlo : 2 * S.env.minEta * e ≤ Y) : ∃ y,
    Spec.Yield Y vp (eta * (G * S.env.dt) / (eta + G * S.env.dt)) (2 * (eta * (G * S.env.dt) / (eta + G * S.env.dt)) * e) y
    ∧ (∃ s, Point.cellNode S.env S.mean S.n S.mats S.huet k = .ok s ∧ s.T = ⟨-y, y, 0⟩ ∧ s.pcorr = k.P)
    ∧ ∃ s, Point.vertexNode S.env S.mean S.n S.mats S.huet k = .ok s ∧ s.T = ⟨-y, y, 0⟩ := by
  obtain ⟨y, hy, hc⟩ := h.out hmu hC hf hd heff e0 he hlo true
  obtain ⟨y', hy', hv⟩ := h.out hmu hC hf hd heff e0 he hlo false
  have g0 := h.stiff
  have d0 := h.dt
  have h0 := h.visc
  have s0 := h.strong
  have v0 : 0 < eta * (G * S.env.dt) / (eta + G * S.env.dt) := by positivity
  obtain rfl := hy.unique v0 h.over hy'
  have yp : 0 < y := lt_of_lt_of_le (lt_min (by positivity) s0) (hy.bounds v0 h.over).1
  have q0 : 0 < y / (2 * e) := by positivity
  have hT : Point.nodeStress (y / (2 * e)) (k.eff S.env) = ⟨-y, y, 0⟩ := by
    rw [heff]
    unfold Point.nodeStress
    rw [Point.Tensor.mk.injEq]
    refine ⟨by field_simp, by field_simp, by simp⟩
  refine ⟨y, hy, ?_, ?_⟩
  · choose! o o1 o2 o3 using hc
    obtain ⟨s, e0, e1, -, e3, -, -, -, -, -, -, -, -, e4, -⟩ := Point.cell_update S.env S.mean S.n S.mats S.huet k hair hw h.minEta (le_trans h.low h.high) h.grain o (fun p hp _ => o1 p hp)
    have hb := Point.mean_between S.mean S.n k.w (fun p => (o p).etaVE) _ _ hw q0 (fun p hp _ => by rw [o3 p hp]; exact ⟨le_rfl, le_rfl⟩)
    refine ⟨s, e0, ?_, ?_⟩
    · rw [e3, e1, le_antisymm hb.2 hb.1, hT]
    · rw [e4]; exact share_same hw o2
  · choose! o o1 o2 o3 using hv
    obtain ⟨s, e0, e1, -, e3, -⟩ := Point.vertex_update S.env S.mean S.n S.mats S.huet k hair hw h.minEta (le_trans h.low h.high) o (fun p hp _ => o1 p hp)
    have hb := Point.mean_between S.mean S.n k.w (fun p => (o p).etaVE) _ _ hw q0 (fun p hp _ => by rw [o3 p hp]; exact ⟨le_rfl, le_rfl⟩)
    refine ⟨s, e0, ?_⟩
    rw [e3, e1, le_antisymm hb.2 hb.1, hT]
end

/-- A body that is elastic, viscous and yields, in pure shear at the beginning of a step of length `dt`: all rock, the same everywhere, incompressible, of density `r`, markers everywhere, and a strength
that the lower limit of the viscosity allows. -/
structure PlasticBody (S : Setting) (C : Carriers) (eta G Y vp r dt eps : ℝ) (x z : Nat → ℝ) (bu bv : Setup.Side ℝ) (x0 z0 : ℝ) : Prop where
  shear : PureShear S eps x z bu bv
  same : SameEverywhere S
  body : VonMises S eta G Y vp
  markers : WellFed S C x0 z0
  vol : S.vol = false
  still : ∀ c, S.comp c = false ∧ S.rhsP c = 0
  rhoS : ∀ c : Int, S.body.rhoS c = r
  surf : S.body.surf = false
  fast : 1 / 10 ^ 30 ≤ eps * S.env.sE
  soft : 2 * S.env.minEta * (eps * (1 + eta / (G * dt))) ≤ Y
  step : S.env.dt = dt

section
variable {S : Setting} {C : Carriers} {eta G Y vp r dt eps : ℝ} {x z : Nat → ℝ} {bu bv : Setup.Side ℝ} {x0 z0 : ℝ} (h : PlasticBody S C eta G Y vp r dt eps x z bu bv x0 z0)
include h

theorem PlasticBody.pos : 0 < eps ∧ 0 < dt := by
  have := h.body.sE
  have := h.body.dt
  rw [h.step] at this
  have e : (0 : ℝ) < 1 / 10 ^ 30 := by positivity
  exact ⟨pos_of_mul_pos_left (lt_of_lt_of_le e h.fast) h.body.sE.le, this⟩

theorem PlasticBody.loaded {sig : Nat → Dev} {σ : Dev} (hs : Carry C sig σ) (b : OldStress) :
    PureShear (load S (toGrid S C sig b)) eps x z bu bv ∧ VonMises (load S (toGrid S C sig b)) eta G Y vp
    ∧ (∀ c < S.ncells, ((load S (toGrid S C sig b)).cell c).old = ⟨σ.xx, σ.zz, σ.xz⟩) ∧ ∀ c < S.nverts, ((load S (toGrid S C sig b)).vert c).old = ⟨σ.xx, σ.zz, σ.xz⟩ := by
  obtain ⟨gc, gv⟩ := toGrid_uniform h.same h.markers hs b
  have s := h.shear
  have m := h.body
  refine ⟨⟨s.Nx, s.Nz, s.dx, s.dz, s.stepX, s.stepZ, s.vx, s.vz, s.tu, s.tv, s.beyondU, s.beyondV, s.rock⟩,
    ⟨m.minEta, m.elastic, m.later, m.mixing, m.dt, m.sE, m.tol, m.mats, m.grain, m.cells, m.verts, m.visc, m.big, m.stiff, m.strong, m.over, m.ratio, m.ratio', m.low, m.high⟩,
    fun c hc => ?_, fun c hc => ?_⟩
  · obtain ⟨e1, e2, e3⟩ := gc c hc
    simp only [load]; rw [e1, e2, e3]
  · obtain ⟨e1, e2, e3⟩ := gv c hc
    simp only [load]; rw [e1, e2, e3]

/-- The stress of the elastic and viscous elements alone. -/
theorem PlasticBody.trial (y : ℝ) : Spec.BackwardEuler eta G dt eps y (2 * (eta * (G * dt) / (eta + G * dt)) * (eps + y / (2 * (G * dt)))) := by
  have g0 := h.body.stiff
  have h0 := h.body.visc
  have d0 := h.pos.2
  rw [backwardEuler_iff h0 g0 d0]
  field_simp
  ring

/-- What the update with the textbook flow records, whatever was in the arrays before. -/
theorem PlasticBody.recorded {sig : Nat → Dev} {y : ℝ} (y0 : 0 ≤ y) (y1 : y ≤ 2 * eta * eps) (hs : Carry C sig ⟨-y, y, 0⟩) (b : OldStress) : ∃ trial y',
    Spec.BackwardEuler eta G dt eps y trial ∧ Spec.Yield Y vp (eta * (G * dt) / (eta + G * dt)) trial y' ∧ ∀ p0 fin t,
      ∃ o, updateNL (load S (toGrid S C sig b)) fin (textbook (load S (toGrid S C sig b)) eps x z r p0) t = .ok o
        ∧ (∀ c < S.ncells, (o.cells c).T = ⟨-y', y', 0⟩ ∧ (o.cells c).pcorr = (textbook (load S (toGrid S C sig b)) eps x z r p0).p c) ∧ ∀ c < S.nverts, (o.verts c).T = ⟨-y', y', 0⟩ := by
  obtain ⟨s, m, oc, ov⟩ := h.loaded hs b
  obtain ⟨p1, p2⟩ := h.pos
  have hdt : (load S (toGrid S C sig b)).env.dt = dt := h.step
  have hnc : (load S (toGrid S C sig b)).ncells = S.ncells := rfl
  have hnv : (load S (toGrid S C sig b)).nverts = S.nverts := rfl
  have hst := h.soft
  have hme : (load S (toGrid S C sig b)).env.minEta = S.env.minEta := rfl
  have hfa : 1 / 10 ^ 30 ≤ eps * (load S (toGrid S C sig b)).env.sE := h.fast
  have hrV : ∀ c : Nat, (load S (toGrid S C sig b)).m.tg c ≠ 30 := h.same.rockV
  rw [← hme] at hst
  have g0 := m.stiff
  have h0 := m.visc
  have q : 0 < G * dt := by positivity
  have E0 : 0 < eps + y / (2 * (G * dt)) := by positivity
  have E1 : eps ≤ eps + y / (2 * (G * dt)) := by have : 0 ≤ y / (2 * (G * dt)) := by positivity
                                                 linarith
  have E2 : eps + y / (2 * (G * dt)) ≤ eps * (1 + eta / (G * dt)) := by
    have : y / (2 * (G * dt)) ≤ 2 * eta * eps / (2 * (G * dt)) := div_le_div_of_nonneg_right y1 (by positivity)
    rw [show eps * (1 + eta / (G * dt)) = eps + 2 * eta * eps / (2 * (G * dt)) by field_simp]
    linarith
  generalize hL : load S (toGrid S C sig b) = L at s m oc ov hdt hnc hnv hst hme hfa hrV
  have hE : 1 / 10 ^ 30 ≤ (eps + y / (2 * (G * dt))) * L.env.sE := le_trans hfa (mul_le_mul_of_nonneg_right E1 m.sE.le)
  have hlo : 2 * L.env.minEta * (eps + y / (2 * (G * dt))) ≤ Y := le_trans (mul_le_mul_of_nonneg_left E2 (by have := m.minEta; positivity)) hst
  have v0 : 0 < eta * (G * dt) / (eta + G * dt) := by positivity
  have node : ∀ k : Point.Node, k.air = false → Spec.Composition L.n k.w → k.mu = G → k.C = Y → k.fric = 0 → Real.sin k.dil = 0 → k.eff L.env = ⟨-(eps + y / (2 * (G * dt))), eps + y / (2 * (G * dt)), 0⟩ → _ :=
    fun k h1 h2 h3 h4 h5 h6 h7 => m.node h1 h2 h3 h4 h5 h6 h7 E0 hE hlo
  have out : ∀ k : Point.Node, k.mu = G → k.C = Y → k.fric = 0 → Real.sin k.dil = 0 → k.eff L.env = ⟨-(eps + y / (2 * (G * dt))), eps + y / (2 * (G * dt)), 0⟩ → ∀ b, _ :=
    fun k h1 h2 h3 h4 h5 b => m.out h1 h2 h3 h4 h5 E0 hE hlo b
  rw [hdt] at node out
  have rates : ∀ p0 (t : Mech), (∀ c < S.ncells, (cellData L (textbook L eps x z r p0) (Kin.strainRates (kinInp L (textbook L eps x z r p0)) t.rates) c).eff L.env
      = ⟨-(eps + y / (2 * (G * dt))), eps + y / (2 * (G * dt)), 0⟩)
      ∧ ∀ (A B D F : Nat → ℝ), ∀ c < S.nverts, (vertData L (Kin.strainRates (kinInp L (textbook L eps x z r p0)) t.rates) A B D F c).eff L.env = ⟨-(eps + y / (2 * (G * dt))), eps + y / (2 * (G * dt)), 0⟩ := by
    intro p0 t
    obtain ⟨eu, ev, -⟩ := textbook_at L eps x z r p0
    obtain ⟨r1, r2⟩ := rock_strain_rates s.Nx s.Nz s.dx.ne' s.dz.ne' (fun c => by rw [s.rock]; decide) hrV (xmin := x 0) (zmin := z 0) (a := 0) (b := -eps) (c := 0) (d := 0) (e := 0) (g := eps)
      (f := textbook L eps x z r p0)
      ⟨fun k l hk hl => by
        rw [eu k l hk (by omega), (s.coord k 0).1]
        simp only [Spec.linearFlow, Spec.uNode]; ring, fun k l hk hl => by
        rw [ev k l (by omega) hl, (s.coord 0 l).2]
        simp only [Spec.linearFlow, Spec.vNode]; ring⟩ (s := t.rates) rfl
    have z0 : (if L.m.oop then 3 / 2 * (-eps + eps) else -eps + eps) = 0 := by split_ifs <;> ring
    simp only [z0, mul_zero, sub_zero, add_zero, zero_div] at r1 r2
    refine ⟨fun c hc => ?_, fun A B D F c hc => ?_⟩
    · have e := (r1 c (by rw [hnc]; exact hc)).2
      rw [Point.Tensor.mk.injEq] at e
      simp only [Point.Node.eff, cellData, m.elastic, if_true, oc c hc, e.1, e.2.1, e.2.2, (m.cells c (by rw [hnc]; exact hc)).2.1, hdt]
      rw [Point.Tensor.mk.injEq]
      refine ⟨by field_simp; ring, by field_simp, by simp⟩
    · have e := r2 c (by rw [hnv]; exact hc)
      rw [Point.Tensor.mk.injEq] at e
      simp only [Point.Node.eff, vertData, m.elastic, if_true, ov c hc, e.1, e.2.1, e.2.2, (m.verts c (by rw [hnv]; exact hc)).2.1, hdt]
      rw [Point.Tensor.mk.injEq]
      refine ⟨by field_simp; ring, by field_simp, by simp⟩
  -- one stress for all nodes
  have n0 : 0 < S.ncells := by
    have := h.same.Nx; have := h.same.Nz
    exact Nat.mul_pos (by omega) (by omega)
  let t0 : Mech := ⟨⟨fun _ => 0, fun _ => 0, fun _ => 0, fun _ => 0, fun _ => 0, fun _ => 0, fun _ => 0, fun _ => 0, fun _ => 0, fun _ => 0⟩, fun _ => 0, fun _ => 0, fun _ => 0, fun _ => 0,
      fun _ => Point.Stored.zero, fun _ => Point.Stored.zero, fun _ => 0, fun _ => 0, fun _ => 0⟩
  obtain ⟨w0, w1, w2, w3, w4⟩ := m.cells 0 (by rw [hnc]; exact n0)
  have hair : ∀ c : Nat, ¬ (L.m.tp c = 30 ∨ L.m.tp c = 31) := fun c => by rw [s.rock]; decide
  obtain ⟨y', hy', -⟩ := node (cellData L (textbook L eps x z r 0) (Kin.strainRates (kinInp L (textbook L eps x z r 0)) t0.rates) 0) (by simp only [cellData]; exact decide_eq_false (hair 0)) w0 w1 w2 w3 w4
    ((rates 0 t0).1 0 n0)
  refine ⟨_, y', h.trial y, hy', fun p0 fin t => ?_⟩
  obtain ⟨ra, rb⟩ := rates p0 t
  obtain ⟨o, ho⟩ := update_gives_result L fin (textbook L eps x z r p0) t m.minEta (le_trans m.low m.high) m.grain (fun c hc _ => (m.cells c hc).1) (fun c hc _ => (m.verts c hc).1)
    (fun c hc _ p hp _ => by
      obtain ⟨-, w1, w2, w3, w4⟩ := m.cells c hc
      obtain ⟨_, _, hh⟩ := out (cellData L (textbook L eps x z r p0) (Kin.strainRates (kinInp L (textbook L eps x z r p0)) t.rates) c) w1 w2 w3 w4 (ra c (by rw [← hnc]; exact hc)) true
      obtain ⟨o, ho, -⟩ := hh p hp
      exact ⟨o, ho⟩)
    (fun c hc _ p hp _ => by
      obtain ⟨-, w1, w2, w3, w4⟩ := m.verts c hc
      obtain ⟨_, _, hh⟩ := out (vertData L (Kin.strainRates (kinInp L (textbook L eps x z r p0)) t.rates) _ _ _ _ c) w1 w2 w3 w4 (rb _ _ _ _ c (by rw [← hnv]; exact hc)) false
      obtain ⟨o, ho, -⟩ := hh p hp
      exact ⟨o, ho⟩)
  obtain ⟨u1, -, -, -, -, ug, -⟩ := updateNL_ok ho
  rw [u1] at ug
  obtain ⟨pc, pv, -⟩ := (Point.grid_spec L.env L.mean L.n L.mats L.huet L.ncells L.nverts _ _ t.cells t.verts).1 _ _ ug
  refine ⟨o, ho, fun c hc => ?_, fun c hc => ?_⟩
  · obtain ⟨w0, w1, w2, w3, w4⟩ := m.cells c (by rw [hnc]; exact hc)
    obtain ⟨q, hq, ⟨s, s1, s2, s3⟩, -⟩ := node (cellData L (textbook L eps x z r p0) (Kin.strainRates (kinInp L (textbook L eps x z r p0)) t.rates) c)
      (by simp only [cellData]; exact decide_eq_false (hair c)) w0 w1 w2 w3 w4 (ra c hc)
    have := pc c (by rw [hnc]; exact hc)
    rw [s1] at this
    obtain rfl : s = o.cells c := by simpa using this
    rw [hy'.unique v0 m.over hq]
    exact ⟨s2, s3⟩
  · obtain ⟨w0, w1, w2, w3, w4⟩ := m.verts c (by rw [hnv]; exact hc)
    obtain ⟨q, hq, -, s, s1, s2⟩ := node (vertData L (Kin.strainRates (kinInp L (textbook L eps x z r p0)) t.rates) o.Ts o.Ps o.ds o.phis c)
      (by simp only [vertData]; exact decide_eq_false (hrV c)) w0 w1 w2 w3 w4 (rb _ _ _ _ c hc)
    have := pv c (by rw [hnv]; exact hc)
    rw [s1] at this
    obtain rfl : s = o.verts c := by simpa using this
    rw [hy'.unique v0 m.over hq]
    exact s2

/-- C159 (balance).  Whether the body yields or not, the textbook flow of pure shear meets the walls and leaves no force unbalanced, with the weight of the rock in its pressure. -/
theorem plastic_flow_balanced {sig : Nat → Dev} {y : ℝ} (y0 : 0 ≤ y) (y1 : y ≤ 2 * eta * eps) (hs : Carry C sig ⟨-y, y, 0⟩) (b : OldStress) (p0 : ℝ) (t : Mech) (ht : ∀ c < S.ncells, t.rho c = r) (V : BCVals ℝ) :
    Admissible (load S (toGrid S C sig b)) V (textbook (load S (toGrid S C sig b)) eps x z r p0) ∧ Driven (load S (toGrid S C sig b)) bu bv (textbook (load S (toGrid S C sig b)) eps x z r p0)
    ∧ ∃ a, updateNL (load S (toGrid S C sig b)) false (textbook (load S (toGrid S C sig b)) eps x z r p0) t = .ok a
      ∧ Balanced (load S (toGrid S C sig b)) (rows (load S (toGrid S C sig b)) (opsOf (load S (toGrid S C sig b)) a) (textbook (load S (toGrid S C sig b)) eps x z r p0) a) := by
  obtain ⟨s, -⟩ := h.loaded hs b
  obtain ⟨w1, w2⟩ := s.textbook_admissible r p0 V
  obtain ⟨-, y', -, -, hh⟩ := h.recorded y0 y1 hs b
  obtain ⟨a, ha, hc, hv⟩ := hh p0 false t
  exact ⟨w1, w2, a, ha, even_stress_balanced s h.same.stab h.same.rockV h.surf h.vol h.still h.rhoS ht ha (sxx := -y') (szz := y') (sxz := 0)
    (fun c hc' => ⟨by rw [(hc c hc').1], by rw [(hc c hc').1], (hc c hc').2⟩) (fun c hc' => by rw [hv c hc'])⟩
end

/-- One time step of a yielding body in pure shear, as far as its stress is concerned: stresses `sig` of the markers to the grid, the textbook flow, stresses recorded, changes back to the markers,
which then carry `out`.  Anything may have been in the arrays before. -/
inductive PlasticStep (eta G Y vp dt eps : ℝ) (C : Carriers) (sig out : Nat → Dev) : Prop
  | mk {S : Setting} {r p0 : ℝ} {x z : Nat → ℝ} {bu bv : Setup.Side ℝ} {x0 z0 : ℝ} {b : OldStress} {f' : LS.Fields} {t1 o : Mech} {sd rot : Int} {dtm : ℝ} {damp wxz : Nat → ℝ}
    (body : PlasticBody S C eta G Y vp r dt eps x z bu bv x0 z0)
    (recorded : finishStep (load S (toGrid S C sig b)) (textbook (load S (toGrid S C sig b)) eps x z r p0) t1 = .ok (f', o)) (switch : sd = 0 ∨ sd = 1 ∨ sd = 2)
    (back : toMarkers S C sd rot dtm damp wxz o (toGrid S C sig b) sig = some out) : PlasticStep eta G Y vp dt eps C sig out

/-- C159 (one step).  If all active markers carry the stress `y` of pure shear, then after a step they all carry the stress of the yield rule, from the implicit Euler step of the Maxwell law. -/
theorem plastic_step_partial {eta G Y vp dt eps : ℝ} {C : Carriers} {sig out : Nat → Dev} (h : PlasticStep eta G Y vp dt eps C sig out) {y : ℝ} (y0 : 0 ≤ y) (y1 : y ≤ 2 * eta * eps)
    (hs : Carry C sig ⟨-y, y, 0⟩) : ∃ trial y', Carry C out ⟨-y', y', 0⟩ ∧ Spec.BackwardEuler eta G dt eps y trial ∧ Spec.Yield Y vp (eta * (G * dt) / (eta + G * dt)) trial y'
      ∧ 0 ≤ y' ∧ y' ≤ 2 * eta * eps := by
  obtain ⟨hB, hfin, hsd, hout⟩ := h
  rename_i S r p0 x z bu bv x0 z0 b f' t1 o sd rot dtm damp wxz
  obtain ⟨trial, y', e1, e2, hh⟩ := hB.recorded y0 y1 hs b
  obtain ⟨o', ho', tc, tv⟩ := hh p0 true t1
  have hfin' := (fin_ok hfin).1
  rw [ho'] at hfin'
  obtain rfl : o' = o := by simpa using hfin'
  obtain ⟨gc, gv⟩ := toGrid_uniform hB.same hB.markers hs b
  obtain ⟨out', h1, h2⟩ := toMarkers_uniform hB.same hB.markers (o := o') (g := toGrid S C sig b) (τ := ⟨-y', y', 0⟩) (fun c hc => ⟨(gc c hc).1, (gc c hc).2.1⟩) (fun c hc => (gv c hc).2.2)
    (fun c hc => by rw [(tc c hc).1]; exact ⟨rfl, rfl⟩) (fun c hc => by rw [tv c hc]) hs hsd rot dtm damp wxz
  rw [hout] at h1
  obtain rfl : out = out' := by simpa using h1
  have g0 := hB.body.stiff
  have h0 := hB.body.visc
  obtain ⟨p1, p2⟩ := hB.pos
  have := hB.body.strong
  have v0 : 0 < eta * (G * dt) / (eta + G * dt) := by positivity
  obtain ⟨b1, b2, -⟩ := e2.bounds v0 hB.body.over
  have q : 0 < eta + G * dt := by positivity
  have t0 : 0 ≤ trial ∧ trial ≤ 2 * eta * eps := by
    rw [backwardEuler_iff h0 g0 p2] at e1
    rw [e1]
    refine ⟨by positivity, ?_⟩
    rw [div_le_iff₀ q]
    nlinarith
  exact ⟨trial, y', h2, e1, e2, le_trans (le_min t0.1 this.le) b1, le_trans b2 t0.2⟩

/-- C159 (the step exists). -/
theorem plastic_step_exists {S : Setting} {C : Carriers} {eta G Y vp r dt eps : ℝ} {x z : Nat → ℝ} {bu bv : Setup.Side ℝ} {x0 z0 : ℝ} (h : PlasticBody S C eta G Y vp r dt eps x z bu bv x0 z0)
    {sig : Nat → Dev} {y : ℝ} (y0 : 0 ≤ y) (y1 : y ≤ 2 * eta * eps) (hs : Carry C sig ⟨-y, y, 0⟩) (b : OldStress) (p0 : ℝ) (t1 : Mech) {sd : Int} (hsd : sd = 0 ∨ sd = 1 ∨ sd = 2) (rot : Int) (dtm : ℝ)
    (damp wxz : Nat → ℝ) : ∃ f' o out, finishStep (load S (toGrid S C sig b)) (textbook (load S (toGrid S C sig b)) eps x z r p0) t1 = .ok (f', o)
      ∧ toMarkers S C sd rot dtm damp wxz o (toGrid S C sig b) sig = some out ∧ PlasticStep eta G Y vp dt eps C sig out := by
  obtain ⟨trial, y', e1, e2, hh⟩ := h.recorded y0 y1 hs b
  obtain ⟨o, ho, tc, tv⟩ := hh p0 true t1
  obtain ⟨gc, gv⟩ := toGrid_uniform h.same h.markers hs b
  obtain ⟨out, h1, h2⟩ := toMarkers_uniform h.same h.markers (o := o) (g := toGrid S C sig b) (τ := ⟨-y', y', 0⟩) (fun c hc => ⟨(gc c hc).1, (gc c hc).2.1⟩) (fun c hc => (gv c hc).2.2)
    (fun c hc => by rw [(tc c hc).1]; exact ⟨rfl, rfl⟩) (fun c hc => by rw [tv c hc]) hs hsd rot dtm damp wxz
  obtain ⟨f', hf⟩ : ∃ f', finishStep (load S (toGrid S C sig b)) (textbook (load S (toGrid S C sig b)) eps x z r p0) t1 = .ok (f', o) := by
    unfold finishStep; rw [ho]; exact ⟨_, rfl⟩
  exact ⟨f', o, out, hf, h1, .mk h hf hsd h1⟩

/-- C159.  **Loading curve of a yielding body**: from rest, at a constant rate and step, without overstress viscosity, the stress of every marker after any number of steps is that of the Maxwell body
until it reaches the strength, and the strength from then on, to within the tolerance `1e-17` of the yield test.  Any grids; markers move, are removed and are replaced by copies of others. -/
theorem plastic_loading_partial {eta G Y dt eps : ℝ} (h1 : 0 < eta) (h2 : 0 < G) (hY : 0 < Y) (hdt : 0 < dt) (he : 0 < eps) (C : Nat → Carriers) (sig out : Nat → Nat → Dev)
    (hstep : ∀ n, PlasticStep eta G Y 0 dt eps (C n) (sig n) (out n))
    (hmove : ∀ n, ∀ k < (C (n + 1)).n, ((C (n + 1)).s.ms k).phase ≠ -1 → ∃ j < (C n).n, ((C n).s.ms j).phase ≠ -1 ∧ sig (n + 1) k = out n j)
    (hstart : Carry (C 0) (sig 0) ⟨0, 0, 0⟩) (n : Nat) :
    ∃ y, Carry (C n) (out n) ⟨-y, y, 0⟩ ∧ min (2 * eta * eps * (1 - (1 / (1 + G * dt / eta)) ^ (n + 1))) Y ≤ y
      ∧ y ≤ min (2 * eta * eps * (1 - (1 / (1 + G * dt / eta)) ^ (n + 1))) Y + 1 / 10 ^ 17 := by
  have q : 0 < eta + G * dt := by positivity
  have v0 : 0 < eta * (G * dt) / (eta + G * dt) := by positivity
  have d0 : (0 : ℝ) < 1 / 10 ^ 17 := by positivity
  set m : Nat → ℝ := fun n => 2 * eta * eps * (1 - (1 / (1 + G * dt / eta)) ^ n) with hm
  have next : ∀ n, m (n + 1) = (eta * m n + G * dt * (2 * eta * eps)) / (eta + G * dt) := fun n => by
    have hq : (1 / (1 + G * dt / eta)) = eta / (eta + G * dt) := by field_simp
    simp only [hm, hq]
    generalize hX : (eta / (eta + G * dt)) ^ n = X
    rw [pow_succ, hX]
    field_simp
    ring
  have key : ∀ n y, 0 ≤ y → y ≤ 2 * eta * eps → min (m n) Y ≤ y → y ≤ min (m n) Y + 1 / 10 ^ 17 → Carry (C n) (sig n) ⟨-y, y, 0⟩ →
      ∃ y', 0 ≤ y' ∧ y' ≤ 2 * eta * eps ∧ min (m (n + 1)) Y ≤ y' ∧ y' ≤ min (m (n + 1)) Y + 1 / 10 ^ 17 ∧ Carry (C n) (out n) ⟨-y', y', 0⟩ := by
    intro n y a1 a2 a3 a4 hs
    obtain ⟨trial, y', c, e1, e2, b1, b2⟩ := plastic_step_partial (hstep n) a1 a2 hs
    rw [backwardEuler_iff h1 h2 hdt] at e1
    obtain ⟨f1, f2, f3⟩ := e2.bounds v0 le_rfl
    have f3 := f3 rfl
    refine ⟨y', b1, b2, ?_, ?_, c⟩
    · refine le_trans (le_min ?_ (min_le_right _ _)) f1
      rcases le_total (m n) Y with w | w
      · rw [min_eq_left w] at a3
        refine le_trans (min_le_left _ _) ?_
        rw [next, e1]
        gcongr
      · rw [min_eq_right w] at a3
        refine le_trans (min_le_right _ _) ?_
        rw [e1, le_div_iff₀ q]
        have := mul_le_mul_of_nonneg_left a3 h1.le
        have := mul_le_mul_of_nonneg_left (le_trans a3 a2) (mul_pos h2 hdt).le
        linarith
    · have t1 : trial ≤ m (n + 1) + 1 / 10 ^ 17 := by
        rw [next, e1, div_add' _ _ _ q.ne']
        refine div_le_div_of_nonneg_right ?_ q.le
        have : y ≤ m n + 1 / 10 ^ 17 := le_trans a4 (by linarith [min_le_left (m n) Y])
        have := mul_le_mul_of_nonneg_left this h1.le
        have := mul_pos d0 (mul_pos h2 hdt)
        linarith
      rcases le_total (m (n + 1)) Y with w | w
      · rw [min_eq_left w]; exact le_trans f2 t1
      · rw [min_eq_right w]; linarith [min_le_right trial Y]
  have all : ∀ n, ∃ y', 0 ≤ y' ∧ y' ≤ 2 * eta * eps ∧ min (m (n + 1)) Y ≤ y' ∧ y' ≤ min (m (n + 1)) Y + 1 / 10 ^ 17 ∧ Carry (C n) (out n) ⟨-y', y', 0⟩ := by
    intro n
    induction n with
    | zero =>
      have m0 : m 0 = 0 := by simp [hm]
      refine key 0 0 le_rfl (by positivity) ?_ ?_ (by simpa using hstart)
      · rw [m0]; exact min_le_left _ _
      · rw [m0, min_eq_left hY.le]; linarith
    | succ n ih =>
      obtain ⟨y, i1, i2, i3, i4, i5⟩ := ih
      refine key (n + 1) y i1 i2 i3 i4 fun k hk hp => ?_
      obtain ⟨j, hj, hp', e⟩ := hmove n k hk hp
      rw [e]; exact i5 j hj hp'
  obtain ⟨y, -, -, i3, i4, i5⟩ := all n
  exact ⟨y, i5, i3, i4⟩

/-- A heavy slab that yields at ten megapascal. -/
noncomputable def weakSlab (Nx Nz : Nat) (tu tv : Nat → Int) : Setting :=
  { heavySlab Nx Nz tu tv with
    mats := fun _ => { (heavySlab Nx Nz tu tv).mats 0 with plast := true, nVp := 1, etaVp := 0, slim := 10 ^ 9 }
    cell := fun c => { (heavySlab Nx Nz tu tv).cell c with C := 10 ^ 7 }
    vert := fun c => { (heavySlab Nx Nz tu tv).vert c with C := 10 ^ 7 } }

/-- The hypotheses are met on every grid: shortened by `1e-14` per second, the viscous stress would be twice the strength. -/
theorem slab_plastic (Nx Nz : Nat) (hx : 3 ≤ Nx) (hz : 2 ≤ Nz) (x0 z0 : ℝ) : ∃ bu bv,
    PlasticBody (weakSlab Nx Nz bu.type bv.type) (onVertices Nx Nz x0 z0) (10 ^ 21) (10 ^ 10) (10 ^ 7) 0 3000 (10 ^ 11) (1 / 10 ^ 14) (fun k => x0 + k * 1000) (fun l => z0 + l * 1000) bu bv x0 z0 := by
  obtain ⟨bu, bv, b⟩ := slab_maxwell Nx Nz hx hz (1 / 10 ^ 14) x0 z0
  have h := b.shear
  have s := b.same
  have k := b.markers
  have v := b.body.rocks
  have comp : Spec.Composition (weakSlab Nx Nz bu.type bv.type).n (fun _ => 1) := (v.cells 0 (Nat.mul_pos (show 0 < Nx - 1 by omega) (show 0 < Nz - 1 by omega)) (s.rock 0)).1
  refine ⟨bu, bv, ⟨h.Nx, h.Nz, h.dx, h.dz, h.stepX, h.stepZ, h.vx, h.vz, h.tu, h.tv, h.beyondU, h.beyondV, h.rock⟩,
    ⟨s.Nx, s.Nz, s.dx, s.dz, fun _ _ => rfl, fun _ _ => rfl, s.rock, s.rockV, s.stab⟩,
    ⟨v.minEta, rfl, rfl, rfl, v.dt, v.sE, ?_, fun _ _ => ⟨rfl, rfl, rfl, rfl, rfl, rfl, rfl, rfl, rfl, ?_⟩, ?_, fun c hc => ⟨comp, rfl, rfl, rfl, ?_⟩, fun c hc => ⟨comp, rfl, rfl, rfl, ?_⟩,
      by norm_num, ?_, by norm_num, by norm_num, le_rfl, ?_, ?_, ?_, ?_⟩,
    ⟨k.cells, k.nx, k.nz, k.verts, k.vnx, k.vnz, k.inside, k.fedC, k.fedV⟩, rfl, fun _ => ⟨rfl, rfl⟩, fun _ => rfl, rfl, ?_, ?_, rfl⟩
  · norm_num [weakSlab, heavySlab, stressedSlab, Point.settings]
  · norm_num [weakSlab]
  · exact fun p _ => (v.mats 0 b.body.phases).2.2.2.2.2.2.2.2.2.1
  · simp [weakSlab, heavySlab, stressedSlab, Point.halfHalf]
  · simp [weakSlab, heavySlab, stressedSlab, Point.halfHalf]
  · norm_num [weakSlab, heavySlab, stressedSlab, Point.settings]
  · norm_num [weakSlab, heavySlab, stressedSlab, Point.settings]
  · norm_num [weakSlab, heavySlab, stressedSlab, Point.settings]
  · norm_num [weakSlab, heavySlab, stressedSlab, Point.settings]
  · norm_num [weakSlab, heavySlab, stressedSlab, Point.settings]
  · norm_num [weakSlab, heavySlab, stressedSlab, Point.settings]
  · norm_num [weakSlab, heavySlab, stressedSlab, Point.settings]

/-- Non-vacuity of the loading curve: such a body can be loaded from rest for ever. -/
theorem slab_plastic_history (Nx Nz : Nat) (hx : 3 ≤ Nx) (hz : 2 ≤ Nz) (x0 z0 : ℝ) : ∃ sig out : Nat → Nat → Dev,
    (∀ n, PlasticStep (10 ^ 21) (10 ^ 10) (10 ^ 7) 0 (10 ^ 11) (1 / 10 ^ 14) (onVertices Nx Nz x0 z0) (sig n) (out n)) ∧ (∀ n, sig (n + 1) = out n)
      ∧ Carry (onVertices Nx Nz x0 z0) (sig 0) ⟨0, 0, 0⟩ := by
  obtain ⟨bu, bv, h⟩ := slab_plastic Nx Nz hx hz x0 z0
  have next : ∀ s : { sig : Nat → Dev // ∃ y : ℝ, 0 ≤ y ∧ y ≤ 2 * 10 ^ 21 * (1 / 10 ^ 14) ∧ Carry (onVertices Nx Nz x0 z0) sig ⟨-y, y, 0⟩ },
      ∃ out : { sig : Nat → Dev // ∃ y : ℝ, 0 ≤ y ∧ y ≤ 2 * 10 ^ 21 * (1 / 10 ^ 14) ∧ Carry (onVertices Nx Nz x0 z0) sig ⟨-y, y, 0⟩ },
      PlasticStep (10 ^ 21) (10 ^ 10) (10 ^ 7) 0 (10 ^ 11) (1 / 10 ^ 14) (onVertices Nx Nz x0 z0) s.1 out.1 := by
    rintro ⟨sig, y, y0, y1, hs⟩
    let t : Mech := ⟨⟨fun _ => 0, fun _ => 0, fun _ => 0, fun _ => 0, fun _ => 0, fun _ => 0, fun _ => 0, fun _ => 0, fun _ => 0, fun _ => 0⟩, fun _ => 0, fun _ => 0, fun _ => 0, fun _ => 0,
      fun _ => Point.Stored.zero, fun _ => Point.Stored.zero, fun _ => 3000, fun _ => 0, fun _ => 0⟩
    obtain ⟨-, -, out, -, -, hm⟩ := plastic_step_exists h y0 y1 hs ⟨fun _ => 0, fun _ => 0, fun _ => 0, fun _ => 0, fun _ => 0, fun _ => 0⟩ 0 t (sd := 2) (by decide) 1 (10 ^ 11) (fun _ => 1 / 2) (fun _ => 0)
    obtain ⟨-, y', hc, -, -, a, b⟩ := plastic_step_partial hm y0 y1 hs
    exact ⟨⟨out, y', a, b, hc⟩, hm⟩
  choose f hf using next
  let seq : Nat → { sig : Nat → Dev // ∃ y : ℝ, 0 ≤ y ∧ y ≤ 2 * 10 ^ 21 * (1 / 10 ^ 14) ∧ Carry (onVertices Nx Nz x0 z0) sig ⟨-y, y, 0⟩ } :=
    fun n => Nat.rec ⟨fun _ => ⟨0, 0, 0⟩, 0, le_rfl, by positivity, fun _ _ _ => by simp⟩ (fun _ s => f s) n
  exact ⟨fun n => (seq n).1, fun n => (seq (n + 1)).1, fun n => hf (seq n), fun _ => rfl, fun _ _ _ => rfl⟩

end Verif.StepFlow
