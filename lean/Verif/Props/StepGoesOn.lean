import Verif.Props.StepFinal
import Verif.Props.PointConv

/-
C148: the nonlinear update of a whole mesh gives a result; cases to which the statements about the step apply.
-/
namespace Verif.StepFlow
open Verif

private def outZero : Point.Out := ⟨0, 0, ⟨0, 0, 0⟩, 0, 0, 0, 0, 0, 0, 0, 0, 0, 0, 0, 0, 0, 0, 0⟩

private instance : Nonempty Point.Out := ⟨outZero⟩

/-- The update of the mesh gives a result when the update of every phase present at every rock node does. -/
theorem update_gives_result (S : Setting) (b : Bool) (f : LS.Fields) (t : Mech) (hmin : 0 < S.env.minEta) (hlim : S.env.minEta ≤ S.env.maxEta)
    (hgs : ∀ p < S.n, 0 < (S.mats p).gsRef)
    (hwc : ∀ c < S.ncells, ¬ (S.m.tp c = 30 ∨ S.m.tp c = 31) → Spec.Composition S.n (S.cell c).w)
    (hwv : ∀ c < S.nverts, S.m.tg c ≠ 30 → Spec.Composition S.n (S.vert c).w)
    (hc : ∀ c < S.ncells, ¬ (S.m.tp c = 30 ∨ S.m.tp c = 31) → ∀ p < S.n, 0 < (S.cell c).w p →
      ∃ o, Point.update S.env (S.mats p) (S.huet p) ((cellData S f (Kin.strainRates (kinInp S f) t.rates) c).input S.env) true = .ok o)
    (hv : ∀ c < S.nverts, S.m.tg c ≠ 30 → ∀ p < S.n, 0 < (S.vert c).w p →
      ∃ o, Point.update S.env (S.mats p) (S.huet p) ((vertData S (Kin.strainRates (kinInp S f) t.rates) (toVerts S (fun c => (S.cell c).T) t.Ts)
        (toVerts S f.p t.Ps) (toVerts S (fun c => (S.cell c).d) t.ds) (toVerts S (fun c => (S.cell c).phi) t.phis) c).input S.env) false = .ok o) :
    ∃ t', updateNL S b f t = .ok t' := by
  obtain ⟨⟨c, s⟩, e⟩ := (Point.grid_spec S.env S.mean S.n S.mats S.huet S.ncells S.nverts
    (cellData S f (Kin.strainRates (kinInp S f) t.rates))
    (vertData S (Kin.strainRates (kinInp S f) t.rates) (toVerts S (fun c => (S.cell c).T) t.Ts)
        (toVerts S f.p t.Ps) (toVerts S (fun c => (S.cell c).d) t.ds) (toVerts S (fun c => (S.cell c).phi) t.phis))
    t.cells t.verts).2
    (fun j hj => by
      by_cases ha : S.m.tp j = 30 ∨ S.m.tp j = 31
      · exact ⟨_, by unfold Point.cellNode; rw [if_pos (by simpa [cellData] using ha)]⟩
      · have h1 := hc j hj ha
        choose! o ho using h1
        obtain ⟨x, hx, -⟩ := Point.cell_update S.env S.mean S.n S.mats S.huet (cellData S f (Kin.strainRates (kinInp S f) t.rates) j)
          (by simp only [cellData]; exact decide_eq_false ha) (hwc j hj ha) hmin hlim hgs o ho
        exact ⟨x, hx⟩)
    (fun j hj => by
      by_cases ha : S.m.tg j = 30
      · exact ⟨_, by unfold Point.vertexNode; rw [if_pos (by simpa [vertData] using ha)]⟩
      · have h1 := hv j hj ha
        choose! o ho using h1
        obtain ⟨x, hx, -⟩ := Point.vertex_update S.env S.mean S.n S.mats S.huet (vertData S (Kin.strainRates (kinInp S f) t.rates)
          (toVerts S (fun c => (S.cell c).T) t.Ts) (toVerts S f.p t.Ps) (toVerts S (fun c => (S.cell c).d) t.ds)
          (toVerts S (fun c => (S.cell c).phi) t.phis) j)
          (by simp only [vertData]; exact decide_eq_false ha) (hwv j hj ha) hmin hlim o ho
        exact ⟨x, hx⟩)
  unfold updateNL
  dsimp only
  rw [e]
  exact ⟨_, rfl⟩

/-- A model of viscous or viscoelastic materials: constant viscosity, no other creep, no yielding; positive parameters; every rock vertex
has a rock cell beside it. -/
structure Viscoelastic (S : Setting) : Prop where
  Nx : 2 ≤ S.m.Nx
  Nz : 2 ≤ S.m.Nz
  minEta : 0 < S.env.minEta
  limits : S.env.minEta ≤ S.env.maxEta
  dt : 0 < S.env.dt
  R : 0 < S.env.R
  sE : 0 < S.env.sE
  sT : 0 < S.env.sT
  sS : 0 < S.env.sS
  sL : 0 < S.env.sL
  sEta : 0 < S.env.sEta
  mixing : S.env.mixing = false
  mats : ∀ p < S.n, (S.mats p).cst = true ∧ (S.mats p).pwl = false ∧ (S.mats p).exp = false ∧ (S.mats p).lin = false
    ∧ (S.mats p).gbs = false ∧ (S.mats p).plast = false ∧ 0 < (S.mats p).eta0 ∧ (S.mats p).eta0 ≤ 10 ^ 100 / S.env.sEta
    ∧ 0 < (S.mats p).pre ∧ 0 < (S.mats p).gsRef ∧ (S.mats p).mixWith = none ∧ S.huet p = id
  cells : ∀ c < S.ncells, ¬ (S.m.tp c = 30 ∨ S.m.tp c = 31) → Spec.Composition S.n (S.cell c).w ∧ 0 < (S.cell c).mu
    ∧ 4 / 10 ^ 13 / S.env.sL ≤ (S.cell c).d ∧ 0 ≤ (S.cell c).X ∧ (S.cell c).X ≤ 1
  verts : ∀ c < S.nverts, S.m.tg c ≠ 30 → Spec.Composition S.n (S.vert c).w ∧ 0 < (S.vert c).mu ∧ 0 ≤ (S.vert c).X ∧ (S.vert c).X ≤ 1
  touch : ∀ k < S.m.Nx, ∀ l < S.m.Nz, S.m.tg (k + l * S.m.Nx : Nat) ≠ 30 →
    ∃ p ∈ Spec.cellsAt S.per (S.m.Nx - 1) (S.m.Nz - 1) k l, ¬ Spec.AirFlag (S.m.tp (p.1 + p.2 * (S.m.Nx - 1) : Nat))

private theorem constant_ok (v : Point.Env) (m : Point.Mat) (i : Point.In) (cell : Bool) (hdt : 0 < v.dt) (hR : 0 < v.R) (hsE : 0 < v.sE) (hsT : 0 < v.sT)
    (hsS : 0 < v.sS) (hsL : 0 < v.sL) (hsEta : 0 < v.sEta) (hmix : v.mixing = false)
    (hm : m.cst = true ∧ m.pwl = false ∧ m.exp = false ∧ m.lin = false
    ∧ m.gbs = false ∧ m.plast = false ∧ 0 < m.eta0 ∧ m.eta0 ≤ 10 ^ 100 / v.sEta ∧ 0 < m.pre ∧ 0 < m.gsRef ∧ m.mixWith = none)
    (hG : 0 < i.G) (hd : 1 / 10 ^ 13 / v.sL ≤ i.d) (hX : 0 ≤ i.X0 ∧ i.X0 ≤ 1) : ∃ o, Point.update v m id i cell = .ok o := by
  obtain ⟨c1, c2, c3, c4, c5, c6, c7, c8, c9, c10, c11⟩ := hm
  have hd0 : 0 < i.d := lt_of_lt_of_le (by positivity) hd
  refine Point.update_goes_on v m id i cell
    ⟨hdt, hR, hsE, hsT, hsS, hsEta, hG, hd0, c7, c9, fun h => by simp [c2] at h, fun h => by simp [c4] at h, fun h => by simp [c3] at h,
      c5, by simp [c11], hX, Or.inr (Or.inl c1)⟩ (fun q a b => ⟨a, b⟩) (fun q a => a)
    ⟨fun h => by simp [c2] at h, fun h => by simp [c4] at h, fun h => by simp [c3] at h⟩ (fun h => by simp [c6] at h)
    (fun h => by simp [c6] at h) (fun _ => c10) hd ⟨m.eta0, ?_, c8⟩
  simp [LocalIter.isolated, Point.creep, c1, c2, c3, c4, Point.constantViscosity, hmix]

/-- Every phase of a viscoelastic model can be updated at every rock node, at any flow and from any state. -/
theorem viscoelastic_points (S : Setting) (hS : Viscoelastic S) (f : LS.Fields) (t : Mech) :
    (∀ c < S.ncells, ¬ (S.m.tp c = 30 ∨ S.m.tp c = 31) → ∀ p < S.n,
      ∃ o, Point.update S.env (S.mats p) (S.huet p) ((cellData S f (Kin.strainRates (kinInp S f) t.rates) c).input S.env) true = .ok o)
    ∧ ∀ c < S.nverts, S.m.tg c ≠ 30 → ∀ p < S.n,
      ∃ o, Point.update S.env (S.mats p) (S.huet p) ((vertData S (Kin.strainRates (kinInp S f) t.rates) (toVerts S (fun c => (S.cell c).T) t.Ts)
        (toVerts S f.p t.Ps) (toVerts S (fun c => (S.cell c).d) t.ds) (toVerts S (fun c => (S.cell c).phi) t.phis) c).input S.env) false = .ok o := by
  have hph : ∀ p < S.n, S.huet p = id := fun p hp => (hS.mats p hp).2.2.2.2.2.2.2.2.2.2.2
  have hmt : ∀ p < S.n, (S.mats p).cst = true ∧ (S.mats p).pwl = false ∧ (S.mats p).exp = false ∧ (S.mats p).lin = false
    ∧ (S.mats p).gbs = false ∧ (S.mats p).plast = false ∧ 0 < (S.mats p).eta0 ∧ (S.mats p).eta0 ≤ 10 ^ 100 / S.env.sEta
    ∧ 0 < (S.mats p).pre ∧ 0 < (S.mats p).gsRef ∧ (S.mats p).mixWith = none := fun p hp => by
    obtain ⟨c1, c2, c3, c4, c5, c6, c7, c8, c9, c10, c11, -⟩ := hS.mats p hp
    exact ⟨c1, c2, c3, c4, c5, c6, c7, c8, c9, c10, c11⟩
  refine ⟨fun c hc ha p hp => ?_, fun c hc ha p hp => ?_⟩
  · obtain ⟨h1, h2, h3, h4, h5⟩ := hS.cells c hc ha
    rw [hph p hp]
    refine constant_ok _ _ _ _ hS.dt hS.R hS.sE hS.sT hS.sS hS.sL hS.sEta hS.mixing (hmt p hp) h2 (le_trans ?_ h3) ⟨h4, h5⟩
    exact div_le_div_of_nonneg_right (by norm_num) hS.sL.le
  · obtain ⟨h1, h2, h4, h5⟩ := hS.verts c hc ha
    rw [hph p hp]
    refine constant_ok _ _ _ _ hS.dt hS.R hS.sE hS.sT hS.sS hS.sL hS.sEta hS.mixing (hmt p hp) h2 ?_ ⟨h4, h5⟩
    show 1 / 10 ^ 13 / S.env.sL ≤ toVerts S (fun c => (S.cell c).d) t.ds c
    have hNx := hS.Nx
    have hNz := hS.Nz
    have hcl : c / S.m.Nx < S.m.Nz := Nat.div_lt_of_lt_mul hc
    have hck : c % S.m.Nx < S.m.Nx := Nat.mod_lt _ (by omega)
    have hce : c % S.m.Nx + c / S.m.Nx * S.m.Nx = c := by rw [Nat.mul_comm]; exact Nat.mod_add_div c S.m.Nx
    have hsp := GridField.centroidsToVertices_spec S.per S.m.Nx S.m.Nz hNx hNz (fun c => S.m.tp c) (fun c => S.m.tg c) (fun c => (S.cell c).d) t.ds
      (c % S.m.Nx) (c / S.m.Nx) hck hcl
    obtain ⟨q, hq, hqa⟩ := hS.touch (c % S.m.Nx) hck (c / S.m.Nx) hcl (by rw [hce]; exact ha)
    rw [hce, if_neg ha] at hsp
    unfold toVerts
    rw [hsp]
    have hin : ∀ p ∈ Spec.cellsAt S.per (S.m.Nx - 1) (S.m.Nz - 1) (c % S.m.Nx) (c / S.m.Nx), p.1 + p.2 * (S.m.Nx - 1) < S.ncells := by
      intro p hp
      have h6 : p.1 < S.m.Nx - 1 ∧ p.2 < S.m.Nz - 1 := by
        simp only [Spec.cellsAt, List.mem_cons, List.not_mem_nil, or_false, Spec.cellLeft, Spec.cellRight] at hp
        rcases hp with rfl | rfl | rfl | rfl <;> (simp only []; repeat' split) <;> omega
      have : p.2 * (S.m.Nx - 1) + (S.m.Nx - 1) ≤ (S.m.Nx - 1) * (S.m.Nz - 1) := by
        calc p.2 * (S.m.Nx - 1) + (S.m.Nx - 1) = (S.m.Nx - 1) * (p.2 + 1) := by ring
          _ ≤ _ := Nat.mul_le_mul_left _ (by omega)
      simp only [Setting.ncells]
      omega
    have hterm : ∀ p ∈ Spec.cellsAt S.per (S.m.Nx - 1) (S.m.Nz - 1) (c % S.m.Nx) (c / S.m.Nx),
        0 ≤ (if Spec.AirFlag (S.m.tp (p.1 + p.2 * (S.m.Nx - 1) : Nat)) then 0 else (S.cell (p.1 + p.2 * (S.m.Nx - 1))).d) := by
      intro p hp
      split
      · exact le_rfl
      · next h => exact le_trans (div_nonneg (by norm_num) hS.sL.le) (hS.cells _ (hin p hp) h).2.2.1
    have hone : 4 / 10 ^ 13 / S.env.sL ≤ ((Spec.cellsAt S.per (S.m.Nx - 1) (S.m.Nz - 1) (c % S.m.Nx) (c / S.m.Nx)).map fun p =>
            if Spec.AirFlag (S.m.tp (p.1 + p.2 * (S.m.Nx - 1) : Nat)) then 0 else (S.cell (p.1 + p.2 * (S.m.Nx - 1))).d).sum := by
      refine le_trans ?_ (List.single_le_sum (fun x hx => by obtain ⟨p, hp, rfl⟩ := List.mem_map.1 hx; exact hterm p hp) _ (List.mem_map_of_mem hq))
      rw [if_neg hqa]
      exact (hS.cells _ (hin q hq) hqa).2.2.1
    rw [le_div_iff₀ (by norm_num)]
    refine le_trans (le_of_eq ?_) hone
    ring

/-- The update of a viscoelastic model gives a result at any flow and from any state: no step of such a model ends the program
there. -/
theorem viscoelastic_goes_on (S : Setting) (hS : Viscoelastic S) (b : Bool) (f : LS.Fields) (t : Mech) :
    ∃ t', updateNL S b f t = .ok t' := by
  obtain ⟨h1, h2⟩ := viscoelastic_points S hS f t
  exact update_gives_result S b f t hS.minEta hS.limits (fun p hp => (hS.mats p hp).2.2.2.2.2.2.2.2.2.1) (fun c hc ha => (hS.cells c hc ha).1)
    (fun c hc ha => (hS.verts c hc ha).1) (fun c hc ha p hp _ => h1 c hc ha p hp) (fun c hc ha p hp _ => h2 c hc ha p hp)

/-! ### A phase in tension -/

private theorem abandoned (q : Rheo.RetPar ℝ) (ty : ℝ) (hev : 0 < q.etaVe) (hvp : q.etaVp0 = 0) (hk : 0 < q.kdt) (hf : 0 < q.sinf) (hd : 0 < q.sind)
    (hF : 0 < q.tii - ty) (hten : q.tii * (q.etaVe + q.kdt * q.sinf * q.sind) < q.etaVe * (q.tii - ty)) :
    let s := forUp 20 (Rheo.retInit q 1 ty) (fun s _ => Rheo.retStep q (q.tii - ty) s)
    s.tiic < 0 ∧ q.P < s.pc := by
  have hkk : 0 < q.kdt * q.sinf * q.sind := by positivity
  have hD : 0 < q.etaVe + q.kdt * q.sinf * q.sind := by linarith
  obtain ⟨g0, hg0⟩ : ∃ g0, g0 = (q.tii - ty) / (q.etaVe + q.kdt * q.sinf * q.sind) := ⟨_, rfl⟩
  have g0pos : 0 < g0 := by rw [hg0]; positivity
  have g0neg : q.tii - q.etaVe * g0 < 0 := by
    rw [hg0, ← mul_div_assoc, sub_neg, lt_div_iff₀ hD]; exact hten
  have g0le : q.etaVe * g0 ≤ q.tii - ty := by
    rw [hg0, ← mul_div_assoc, div_le_iff₀ hD]; nlinarith
  have key : ∀ n, let s := forUp n (Rheo.retInit q 1 ty) (fun s _ => Rheo.retStep q (q.tii - ty) s)
      g0 ≤ s.gdot ∧ q.etaVe * s.gdot ≤ q.tii - ty ∧ s.tyield = ty ∧ ((n = 0 ∧ s.stop = false) ∨ (s.tiic < 0 ∧ q.P < s.pc)) := by
    intro n
    induction n with
    | zero => simp [forUp_zero, Rheo.retInit, hvp, ← hg0, g0le]
    | succ n ih =>
      dsimp only at ih ⊢
      rw [forUp_succ]
      generalize forUp n (Rheo.retInit q 1 ty) (fun s _ => Rheo.retStep q (q.tii - ty) s) = s at ih ⊢
      obtain ⟨h1, h2, h3, h4⟩ := ih
      unfold Rheo.retStep
      have hneg : q.tii - q.etaVe * s.gdot < 0 := by nlinarith
      have hpc : q.P < q.P + q.kdt * (-s.gdot * -q.sind) := by
        have : 0 < q.kdt * (s.gdot * q.sind) := mul_pos hk (mul_pos (by linarith) hd)
        linarith
      split
      · next hs =>
        refine ⟨h1, h2, h3, ?_⟩
        rcases h4 with h4 | h4
        · rw [h4.2] at hs; simp at hs
        · exact Or.inr h4
      have hf0 : 0 ≤ q.tii - q.etaVe * s.gdot - ty := by linarith
      have hfD : 0 ≤ (q.tii - q.etaVe * s.gdot - ty) / (q.etaVe + q.kdt * q.sinf * q.sind) := by positivity
      have hfD' : q.etaVe * ((q.tii - q.etaVe * s.gdot - ty) / (q.etaVe + q.kdt * q.sinf * q.sind)) ≤ q.tii - q.etaVe * s.gdot - ty := by
        rw [← mul_div_assoc, div_le_iff₀ hD]; nlinarith [mul_nonneg hf0 hkk.le]
      have hstep : s.gdot - (q.tii - q.etaVe * s.gdot - (s.tyield + s.gdot * (q.etaVp0 * q.pw |s.gdot|)))
          / (-q.etaVe - q.etaVp0 * q.pw |s.gdot| / q.nvp - q.kdt * q.sinf * q.sind)
          = s.gdot + (q.tii - q.etaVe * s.gdot - ty) / (q.etaVe + q.kdt * q.sinf * q.sind) := by
        rw [hvp, h3, zero_mul, mul_zero, add_zero, zero_div, sub_zero,
          show -q.etaVe - q.kdt * q.sinf * q.sind = -(q.etaVe + q.kdt * q.sinf * q.sind) by ring, div_neg, sub_neg_eq_add]
      dsimp only
      split
      · refine ⟨h1, h2, ?_, Or.inr ⟨hneg, hpc⟩⟩
        simp [hvp, h3]
      · refine ⟨?_, ?_, ?_, Or.inr ⟨hneg, hpc⟩⟩
        · rw [hstep]; linarith
        · rw [hstep, mul_add]; linarith
        · simp [hvp, h3]
  have := key 20
  dsimp only at this ⊢
  rcases this.2.2.2 with h | h
  · omega
  · exact h

/-- C148.  The case of `reset_volume_gap` occurs: a dilatant rock of ordinary parameters in tension keeps its pressure but records a plastic
divergence. -/
theorem reset_keeps_divergence :
    ∃ o, Point.update (Point.settings true) Point.rock id { Point.node (1 / 10 ^ 13) (-10 ^ 9) with dil := Real.pi / 6 } true = .ok o
      ∧ o.pcorr = -10 ^ 9 ∧ 0 < o.divPl := by
  obtain ⟨i, hi⟩ : ∃ i : Point.In, i = { Point.node (1 / 10 ^ 13) (-10 ^ 9) with dil := Real.pi / 6 } := ⟨_, rfl⟩
  have hrate : Point.rate (Point.settings true) i.E = 1 / 10 ^ 13 := by
    rw [hi]; exact Point.node_rate true (1 / 10 ^ 13) (-10 ^ 9) (by norm_num)
  have hcreep : Point.creep (Point.settings true) Point.rock id i
      = { el := some (10 ^ 21), cst := some (10 ^ 22), pwl := none, exp := none, lin := none, gbs := none, d := 1 } := by
    rw [hi]
    unfold Point.creep
    simp only [Point.settings, Point.rock, Point.node, Point.Env.el, Point.moduli, Point.Env.dtEff, Point.constantViscosity]
    norm_num
  have hrun := Point.node_run (1 / 10 ^ 13) (by norm_num)
  have hty : Point.strength Point.rock i ≤ -(4 * 10 ^ 8) := by
    unfold Point.strength
    rw [Rheo.yield_cap]
    refine le_trans (min_le_right _ _) ?_
    rw [hi]
    simp only [Point.node, Real.cos_pi_div_six, Real.sin_pi_div_six]
    have : Real.sqrt 3 ≤ 2 := Real.sqrt_le_iff.2 ⟨by norm_num, by norm_num⟩
    nlinarith
  obtain ⟨t, ht⟩ : ∃ t : ℝ, t = 2 * (10 ^ 22 / 11) * (1 / 10 ^ 13) := ⟨_, rfl⟩
  obtain ⟨q, hq⟩ : ∃ q, q = Point.retPar (Point.settings true) Point.rock i (10 ^ 22 / 11) t := ⟨_, rfl⟩
  have q1 : q.tii = t := by rw [hq]; rfl
  have q2 : q.etaVe = 10 ^ 22 / 11 := by rw [hq]; rfl
  have q3 : q.etaVp0 = 0 := by rw [hq]; rfl
  have q4 : q.P = -10 ^ 9 := by rw [hq, hi]; rfl
  have q5 : q.sind = 1 / 2 := by
    rw [hq, hi]; simp [Point.retPar, Point.moduli, Point.settings, Point.Env.el]
  have q6 : q.sinf = 1 / 2 := by rw [hq, hi]; simp [Point.retPar, Point.node]
  have q7 : q.kdt = 10 ^ 21 := by
    rw [hq, hi]; simp only [Point.retPar, Point.moduli, Point.settings, Point.Env.el, Point.node, Point.Env.dtEff]; norm_num
  have hab := abandoned q (Point.strength Point.rock i) (by rw [q2]; norm_num) q3 (by rw [q7]; norm_num) (by rw [q6]; norm_num)
    (by rw [q5]; norm_num) (by rw [q1, ht]; linarith [show (0:ℝ) ≤ 2 * (10 ^ 22 / 11) * (1 / 10 ^ 13) by norm_num])
    (by
      rw [q1, q2, q5, q6, q7, ht]
      generalize Point.strength Point.rock i = y at hty
      nlinarith)
  have hone : ∀ x : ℝ, x ^ (1 / Point.rock.nVp - 1) = 1 := by intro x; simp [Point.rock]
  have hcond : 1 / 10 ^ 17 < t - Point.strength Point.rock i := by
    rw [ht]; linarith [show (1:ℝ) / 10 ^ 17 ≤ 2 * (10 ^ 22 / 11) * (1 / 10 ^ 13) by norm_num]
  rw [q1] at hab
  have hpl : Point.yielding (Point.settings true) Point.rock i (1 / 10 ^ 13) (10 ^ 22 / 11) t
      = ⟨10 ^ 5, -10 ^ 9, (t - 10 ^ 5) / (10 ^ 22 / 11),
        (forUp 20 (Rheo.retInit q 1 (Point.strength Point.rock i)) (fun s _ => Rheo.retStep q (t - Point.strength Point.rock i) s)).etaVp, true⟩ := by
    unfold Point.yielding
    rw [if_pos (show Point.rock.plast = true from rfl), ← hq, hone]
    unfold Rheo.plastic
    rw [q1, if_pos hcond]
    dsimp only
    rw [if_pos hab.1, q2, q4]
    simp [Point.settings]
  have hdiv : 0 < Point.plasticDivergence (Point.settings true) Point.rock i (1 / 10 ^ 13) (10 ^ 22 / 11) t := by
    unfold Point.plasticDivergence
    dsimp only
    rw [if_pos ⟨rfl, hcond⟩, ← hq, hone]
    have hP : i.P = q.P := by rw [q4, hi]; rfl
    rw [hP]
    exact div_pos (sub_pos.2 hab.2) (by rw [q7]; norm_num)
  rw [← hi]
  unfold Point.update
  rw [hcreep, hrate, if_neg (by simp [Point.rock])]
  rw [show (Point.settings true).sEta = 1 from rfl]
  dsimp only
  rw [hrun, ← ht]
  dsimp only
  unfold Point.finish
  rw [hpl]
  dsimp only
  rw [if_neg (by norm_num), if_neg (by
    simp only [Point.dissInverse, Point.inverse, Point.powerInv, Point.linInv, Point.cstInv, if_true, Option.elim_some, ht]
    norm_num)]
  exact ⟨_, rfl, rfl, hdiv⟩

/-! ### A small model -/

/-- Mesh of 3 by 3 vertices, all of it rock, spacing 1 km. -/
def blockMesh : SMesh ℝ where
  Nx := 3
  Nz := 3
  dx := 1000
  dz := 1000
  tu := fun _ => -1
  tv := fun _ => -1
  tp := fun _ => -1
  tg := fun _ => -1
  bu := fun _ => 0
  bv := fun _ => 0
  bp := fun _ => 0
  D11 := fun _ => 0
  D22 := fun _ => 0
  D33 := fun _ => 0
  rho := fun _ => 0
  gx := fun _ => 0
  gz := fun _ => -10
  oop := false
  comp := true
  stab := false
  theta := 0
  dt := 10 ^ 11

/-- One viscoelastic, compressible material. -/
noncomputable def block : Setting where
  m := blockMesh
  per := false
  env := Point.settings true
  mean := .arithmetic
  n := 1
  mats := fun _ => Point.viscous (10 ^ 21)
  huet := fun _ => id
  cell := fun _ => { Point.halfHalf with w := fun _ => 1 }
  vert := fun _ => { Point.halfHalf with w := fun _ => 1 }
  vol := false
  dens := fun _ _ _ => 3000
  rho0 := fun _ => 3000
  body := ⟨0, -10, fun _ => 3000, false, 1, 0, fun _ => 0⟩
  rhsP := fun _ => 0
  comp := fun _ => true
  diag := false
  low := fun _ => 0

/-- The small model is viscoelastic in the sense of `viscoelastic_goes_on`. -/
theorem block_viscoelastic : Viscoelastic block where
  Nx := by decide
  Nz := by decide
  minEta := by simp only [block, Point.settings]; norm_num
  limits := by simp only [block, Point.settings]; norm_num
  dt := by simp only [block, Point.settings]; norm_num
  R := by simp only [block, Point.settings]; norm_num
  sE := by simp only [block, Point.settings]; norm_num
  sT := by simp only [block, Point.settings]; norm_num
  sS := by simp only [block, Point.settings]; norm_num
  sL := by simp only [block, Point.settings]; norm_num
  sEta := by simp only [block, Point.settings]; norm_num
  mixing := rfl
  mats := fun p _ => by
    refine ⟨rfl, rfl, rfl, rfl, rfl, rfl, ?_⟩
    simp only [block, Point.viscous, Point.rock, Point.settings]
    norm_num
  cells := fun c _ _ => by
    refine ⟨⟨fun p _ => Or.inr ?_, ?_⟩, ?_⟩ <;> simp only [block, Point.halfHalf, Point.settings] <;> norm_num
  verts := fun c _ _ => by
    refine ⟨⟨fun p _ => Or.inr ?_, ?_⟩, ?_⟩ <;> simp only [block, Point.halfHalf, Point.settings] <;> norm_num
  touch := fun k _ l _ _ => ⟨_, List.mem_cons_self, by simp [Spec.AirFlag, block, blockMesh]⟩

/-- For every flow in it a trial can be followed by a pass that takes it, and the step can be ended: the hypotheses of `predicted_is_found_partial`,
`recorded_stress_of_recorded_flow` and `recorded_residual_is_accepted_partial` are met. -/
example (g h : LS.Fields) (o t : Mech) : (∃ q : TriedThenTaken block g, q.o = o ∧ q.t1 = t ∧ q.later = [(true, h)])
    ∧ (∃ f' t1 t', updates block [(false, g), (true, h)] t = .ok t1 ∧ finishStep block h t1 = .ok (f', t'))
    ∧ ∃ tl R f' t', pass block g t = .ok (tl, R) ∧ finishStep block g tl = .ok (f', t') := by
  have go := viscoelastic_goes_on block block_viscoelastic
  refine ⟨?_, ?_, ?_⟩
  · obtain ⟨t2, h2⟩ := go true g t
    obtain ⟨t3, h3⟩ := go true h t2
    obtain ⟨t4, h4⟩ := go false g t3
    exact ⟨⟨o, t, t2, _, [(true, h)], t3, t4, _, by unfold trial; rw [h2], by simp only [updates, h3], by unfold pass; rw [h4]⟩, rfl, rfl, rfl⟩
  · obtain ⟨t2, h2⟩ := go false g t
    obtain ⟨t3, h3⟩ := go true h t2
    obtain ⟨t4, h4⟩ := go true h t3
    exact ⟨_, t3, t4, by simp only [updates, h2, h3], by unfold finishStep; rw [h4]⟩
  · obtain ⟨t2, h2⟩ := go false g t
    obtain ⟨t3, h3⟩ := go true g t2
    exact ⟨t2, _, _, t3, by unfold pass; rw [h2], by unfold finishStep; rw [h3]⟩

/-- The volume balance of every cell of the small model, at every flow. -/
example (f f' : LS.Fields) (t t' : Mech) (h : finishStep block f t = .ok (f', t')) (c : Nat) (hc : c < 4) :
    (rows block (opsOf block t') f t').p c =
      (t'.rates.divu c - (t'.cells c).divEl - (t'.cells c).divPl - block.rhsP c) * (1000 * 1000) := by
  have hw : Spec.Composition 1 (fun _ => (1 : ℝ)) := ⟨fun p _ => Or.inr (by norm_num), by simp⟩
  have hup : ∃ o, Point.update block.env (block.mats 0) (block.huet 0) ((cellData block f t'.rates c).input block.env) true = .ok o := by
    refine constant_ok (Point.settings true) (Point.viscous (10 ^ 21)) _ true ?_ ?_ ?_ ?_ ?_ ?_ ?_ rfl
      ⟨rfl, rfl, rfl, rfl, rfl, rfl, ?_⟩ ?_ ?_ ?_
    any_goals (simp only [Point.settings]; norm_num)
    · simp only [Point.viscous, Point.rock]; norm_num
    · show (0 : ℝ) < 10 ^ 10; norm_num
    · show _ ≤ (1 : ℝ); norm_num
    · show (0 : ℝ) ≤ 0 ∧ (0 : ℝ) ≤ 1; norm_num
  obtain ⟨o, ho⟩ := hup
  have hb := recorded_volume_balance_partial block rfl f f' t t' h c hc rfl (by simp [block, blockMesh]) hw
    (by simp only [block, Point.settings]; norm_num) (by simp only [block, Point.settings]; norm_num)
    (fun p hp => by simp [block, Point.viscous, Point.rock]) rfl (by simp [block, Point.halfHalf]) (by simp [block, Point.settings])
    (by simp [block, blockMesh, Point.settings]) (fun _ => o)
    (fun p hp _ => by
      have : p = 0 := by simp only [block] at hp; omega
      subst this; exact ho) (fun p _ _ hpl => by simp [block, Point.viscous] at hpl)
  exact hb.1

/-- The balance of forces at the middle node of the small model. -/
example (f f' : LS.Fields) (t t' : Mech) (h : finishStep block f t = .ok (f', t')) :
    (rows block (opsOf block t') f t').x 1 1 = -(1000 * 1000) *
      (((((t'.cells 1).T.xx - f'.p 1) - ((t'.cells 0).T.xx - f'.p 0)) / 1000
        + ((t'.verts 4).T.xz - (t'.verts 1).T.xz) / 1000) + t'.bx 4) :=
  recorded_force_balance block (by decide) rfl f f' t t' h 1 1 (by decide) (by decide) (by decide) (by decide) (by simp [block, blockMesh])

end Verif.StepFlow
