import Verif.Props.StepSimpleShear
import Verif.Props.FlowLaws

/- C163: a rock that creeps by the law of a laboratory experiment has, in a model in pure or simple shear, the stress of the experiment. -/
namespace Verif.Point
open Verif

/-- A material that only creeps by a power law, without elasticity: the update at any strain rate. -/
theorem power_update (v : Env) (m : Mat) (huet : ℝ × ℝ → ℝ × ℝ) (i : In) (cell : Bool) {B n : ℝ} (hel : v.elastic = false)
    (hcst : m.cst = false) (hpwl : m.pwl = true) (hexp : m.exp = false) (hlin : m.lin = false) (hgbs : m.gbs = false) (hpl : m.plast = false)
    (hlaw : huet (prefactor v m.pre (clampT v i.T) i.P i.d i.phi m.pwlLaw, m.pwlLaw.n) = (B, n)) (hB : 0 < B) (hn : 0 < n) (hE : 0 < rate v i.E)
    (hlo : v.minEta ≤ B * rate v i.E ^ (1 / n - 1)) (hhi : B * rate v i.E ^ (1 / n - 1) ≤ v.maxEta) (hbig : B * rate v i.E ^ (1 / n - 1) ≤ 10 ^ 100 / v.sEta) :
    ∃ o, update v m huet i cell = .ok o ∧ o.etaVE = B * rate v i.E ^ (1 / n - 1) ∧ o.pcorr = i.P ∧ o.eIIpwl = rate v i.E
      ∧ (cell = true → o.wDiss = 4 * (B * rate v i.E ^ (1 / n - 1)) * rate v i.E ^ 2) := by
  have hel' : v.el = false := by unfold Env.el; rw [hel]; rfl
  obtain ⟨y, hy⟩ : ∃ y, y = rate v i.E := ⟨_, rfl⟩
  rw [← hy] at hE hlo hhi hbig ⊢
  have hp : 0 < y ^ (1 / n - 1) := Real.rpow_pos_of_pos hE _
  obtain ⟨x, hx⟩ : ∃ x, x = B * y ^ (1 / n - 1) := ⟨_, rfl⟩
  rw [← hx] at hlo hhi hbig ⊢
  have h0 : 0 < x := by rw [hx]; positivity
  have hcr : creep v m huet i
      = { el := none, cst := none, pwl := some (B, n), exp := none, lin := none, gbs := none, d := i.d } := by
    unfold creep
    simp [hel', hcst, hpwl, hexp, hlin, hgbs, hlaw]
  have hpow : LocalIter.pref B n * (2 * x * y) ^ n = y := by
    have e1 : 2 * x * y = 2 * B * y ^ (1 / n) := by
      have : y ^ (1 / n) = y ^ (1 / n - 1) * y := by rw [← Real.rpow_add_one hE.ne']; congr 1; ring
      rw [this, hx]; ring
    unfold LocalIter.pref
    rw [e1, Real.mul_rpow (x := 2 * B) (by positivity) (by positivity), ← Real.rpow_mul hE.le, one_div, inv_mul_cancel₀ hn.ne', Real.rpow_one, ← mul_assoc,
      ← Real.rpow_add (by positivity), neg_add_cancel, Real.rpow_zero, one_mul]
  have hrun : LocalIter.run (creep v m huet i) y (1 / 10 ^ 11) (10 ^ 100 / v.sEta) = .ok x (2 * x * y) := by
    rw [hcr]
    unfold LocalIter.run
    have hg : LocalIter.guess { el := none, cst := none, pwl := some (B, n), exp := none, lin := none, gbs := none, d := i.d }
        y (10 ^ 100 / v.sEta) = x := by
      unfold LocalIter.guess LocalIter.isolated
      simp only [Option.toList_some, Option.toList_none, List.map_nil, List.map_cons, List.append_nil, List.nil_append,
        List.foldl_cons, List.foldl_nil, ← hx]
      exact min_eq_right hbig
    have hres : LocalIter.residual { el := none, cst := none, pwl := some (B, n), exp := none, lin := none, gbs := none, d := i.d }
        y x = 0 := by
      unfold LocalIter.residual LocalIter.elasticRate LocalIter.rates
      simp only [Option.toList_some, Option.toList_none, List.map_nil, List.map_cons, List.append_nil, List.nil_append,
        List.sum_cons, List.sum_nil, add_zero, sub_zero, hpow, sub_self]
    rw [hg, LocalIter.solve, hres]
    rw [zero_div, abs_zero, if_pos (by positivity)]
  have hyy : ∀ E y t, yielding v m i E y t = ⟨t, i.P, 0, m.etaVp, false⟩ := by
    intro E y t; unfold yielding; simp [hpl]
  have hrate : powerRate (creep v m huet i).pwl (2 * x * y) = y := by rw [hcr]; exact hpow
  have hinv : dissInverse m (creep v m huet i) ⟨2 * x * y, i.P, 0, m.etaVp, false⟩ (2 * x * y) = 1 / x := by
    unfold dissInverse
    rw [hrate]
    unfold inverse
    rw [hcr]
    simp [powerInv, linInv, cstInv, hx]
  unfold update
  rw [if_neg (by simp [hlin])]
  dsimp only
  rw [← hy, hrun]
  simp only [finish, hyy, hinv, hrate]
  rw [if_neg (by simp), if_neg (by
    rintro ⟨_, h⟩
    have : 0 < 2 * x * y * (2 * x * y) * (1 / x) := by positivity
    linarith)]
  refine ⟨_, rfl, ?_, rfl, rfl, fun hcell => ?_⟩
  · dsimp only
    simp only [effViscosity, Bool.false_eq_true, if_false, Rheo.limiter]
    rw [if_neg (not_lt.2 hhi), if_neg (not_lt.2 hlo)]
  · dsimp only
    rw [if_pos hcell]
    field_simp
    ring

end Verif.Point

namespace Verif.StepFlow
open Verif Finset

/-- An experiment on a rock with the published law `l0`: at temperature `T`, pressure `P`, grain size `d` and melt fraction `phi` it deforms with the strain rate invariant `eps` under the stress
invariant `tau`.  Of a shear experiment (`t = 2`) the rate measured is the shear-strain rate and the differential stress is twice the shear stress; of axial compression (`t = 1`) the rate of
shortening and the differential stress. -/
def Experiment (l0 : Flow.Law) (R T P d phi eps tau : ℝ) : Prop :=
  (l0.t = 2 ∧ ∃ s, 0 < s ∧ Spec.labRate l0.A l0.n d l0.m l0.f l0.r l0.a phi l0.Q l0.V R T P s = 2 * eps ∧ tau = s / 2)
  ∨ (l0.t = 1 ∧ ∃ s, 0 < s ∧ Real.sqrt 3 / 2 * Spec.labRate l0.A l0.n d l0.m l0.f l0.r l0.a phi l0.Q l0.V R T P s = eps ∧ tau = s / Real.sqrt 3)

/-- A body that creeps by the published law `l0` and nothing else; the material holds the law as the code reads it (`Flow.correct`).  Temperature not below zero Celsius, grain size and fugacity positive. -/
structure Creeping (S : Setting) (l0 : Flow.Law) (number : Int) : Prop where
  elastic : S.env.elastic = false
  minEta : 0 < S.env.minEta
  mats : ∀ p < S.n, (S.mats p).cst = false ∧ (S.mats p).pwl = true ∧ (S.mats p).exp = false ∧ (S.mats p).lin = false
    ∧ (S.mats p).gbs = false ∧ (S.mats p).plast = false ∧ (S.mats p).pre = 1 ∧ (S.mats p).pwlLaw = Flow.correct number l0 ∧ 0 < (S.mats p).gsRef ∧ S.huet p = id
  number : 0 ≤ number
  n : 0 < l0.n
  A : 0 < l0.A
  f : 0 < l0.f ∨ l0.r = 0
  grain : 0 < (S.cell 0).d
  warm : 27315 / 100 / S.env.sT ≤ (S.cell 0).T
  cells : ∀ c < S.ncells, Spec.Composition S.n (S.cell c).w
  verts : ∀ c < S.nverts, Spec.Composition S.n (S.vert c).w

/-- Stress `tau` at strain rate `eps` is within what the settings allow: the viscosity is between the limits, the strain rate not below the smallest the code uses. -/
structure Allowed (S : Setting) (eps tau : ℝ) : Prop where
  low : S.env.minEta ≤ tau / (2 * eps)
  high : tau / (2 * eps) ≤ S.env.maxEta
  big : tau / (2 * eps) ≤ 10 ^ 100 / S.env.sEta
  rate : 1 / 10 ^ 30 ≤ eps * S.env.sE

/-- The viscosity the code has for the law is that of the experiment. -/
theorem experiment_viscosity {l0 : Flow.Law} {number : Int} {R T P d phi eps tau : ℝ} (h : Experiment l0 R T P d phi eps tau) (he : 0 < eps) (hnum : 0 ≤ number) (hn : 0 < l0.n) (hA : 0 < l0.A)
    (hd : 0 < d) (hf : 0 < l0.f ∨ l0.r = 0) : Flow.viscosity 1 R T P d phi eps (Flow.correct number l0) = tau / (2 * eps) := by
  rcases h with ⟨ht, s, hs, e, rfl⟩ | ⟨ht, s, hs, e, rfl⟩
  · have a := Flow.shear_experiment l0 number R T P d phi s hnum ht hn hA hd hf hs
    dsimp only at a
    rw [e, Flow.shear_invariant (by linarith), show 2 * eps / 2 = eps by ring] at a
    simp only [Spec.Tensor.times, Spec.shearRate, Spec.shearStress, Spec.Tensor.mk.injEq] at a
    obtain ⟨-, -, -, a⟩ := a
    rw [eq_div_iff (by positivity)]
    linarith
  · have h3 : 0 < Real.sqrt 3 := Real.sqrt_pos.2 (by norm_num)
    have h33 : Real.sqrt 3 * Real.sqrt 3 = 3 := Real.mul_self_sqrt (by norm_num)
    have a := Flow.axial_experiment l0 number R T P d phi s hnum ht hn hA hd hf hs
    dsimp only at a
    have hpos : 0 < Spec.labRate l0.A l0.n d l0.m l0.f l0.r l0.a phi l0.Q l0.V R T P s := by
      by_contra hneg
      have : Real.sqrt 3 / 2 * Spec.labRate l0.A l0.n d l0.m l0.f l0.r l0.a phi l0.Q l0.V R T P s ≤ 0 := mul_nonpos_of_nonneg_of_nonpos (by positivity) (not_lt.1 hneg)
      linarith
    rw [Flow.axial_invariant hpos, e] at a
    simp only [Spec.Tensor.times, Spec.axialRate, Spec.axialStress, Spec.Tensor.mk.injEq] at a
    obtain ⟨a, -⟩ := a
    generalize Spec.labRate l0.A l0.n d l0.m l0.f l0.r l0.a phi l0.Q l0.V R T P s = g at *
    generalize Flow.viscosity 1 R T P d phi eps (Flow.correct number l0) = v at *
    rw [div_div, eq_div_iff (by positivity), ← e]
    linear_combination 3 * a + v * g * h33

private theorem law_here {S : Setting} {l0 : Flow.Law} {number : Int} (hC : Creeping S l0 number) {p0 eps tau : ℝ}
    (hX : Experiment l0 S.env.R (S.cell 0).T p0 (S.cell 0).d (S.cell 0).phi eps tau) (he : 0 < eps) (hA : Allowed S eps tau) (k : Point.Node)
    (kT : k.T = (S.cell 0).T) (kP : k.P = p0) (kd : k.d = (S.cell 0).d) (kphi : k.phi = (S.cell 0).phi) (hI : Point.invariant k.e = eps) (cell : Bool) (p : Nat) (hp : p < S.n) :
    ∃ o, Point.update S.env (S.mats p) (S.huet p) (k.input S.env) cell = .ok o ∧ o.etaVE = tau / (2 * eps) ∧ o.pcorr = p0 ∧ o.eIIpwl = eps ∧ (cell = true → o.wDiss = 2 * tau * eps) := by
  obtain ⟨c1, c2, c3, c4, c5, c6, c7, c8, -, c10⟩ := hC.mats p hp
  have hE : k.eff S.env = k.e := by unfold Point.Node.eff; rw [hC.elastic]; simp
  have hr : Point.rate S.env (k.input S.env).E = eps := by
    show Point.rate S.env (k.eff S.env) = eps
    unfold Point.rate
    rw [hE, hI, if_neg (not_lt.2 hA.rate)]
  have hT : Point.clampT S.env k.T = (S.cell 0).T := by unfold Point.clampT; rw [kT, if_neg (not_lt.2 hC.warm)]
  have hv := experiment_viscosity (number := number) hX he hC.number hC.n hC.A hC.grain hC.f
  unfold Flow.viscosity Dens.creepViscosity at hv
  have hB : 0 < Dens.pureB 1 (Flow.correct number l0).F S.env.R (S.cell 0).T p0 (Flow.correct number l0).V (S.cell 0).d (Flow.correct number l0).m (Flow.correct number l0).f (Flow.correct number l0).r
      (Flow.correct number l0).a (S.cell 0).phi ⟨(Flow.correct number l0).n, (Flow.correct number l0).A, (Flow.correct number l0).Q⟩ := by
    have h1 : 0 < tau / (2 * eps) := lt_of_lt_of_le hC.minEta hA.low
    rw [← hv] at h1
    exact (pos_iff_pos_of_mul_pos h1).2 (Real.rpow_pos_of_pos he _)
  obtain ⟨o, o1, o2, o3, o4, o5⟩ := Point.power_update S.env (S.mats p) (S.huet p) (k.input S.env) cell
    (B := Dens.pureB 1 (Flow.correct number l0).F S.env.R (S.cell 0).T p0 (Flow.correct number l0).V (S.cell 0).d (Flow.correct number l0).m (Flow.correct number l0).f (Flow.correct number l0).r
      (Flow.correct number l0).a (S.cell 0).phi ⟨(Flow.correct number l0).n, (Flow.correct number l0).A, (Flow.correct number l0).Q⟩) (n := (Flow.correct number l0).n)
    hC.elastic c1 c2 c3 c4 c5 c6 (by
      rw [c10, c7, c8]
      show (Point.prefactor S.env 1 (Point.clampT S.env k.T) k.P k.d k.phi _, _) = _
      rw [hT, kP, kd, kphi]
      rfl) hB hC.n (by rw [hr]; exact he) (by rw [hr, hv]; exact hA.low) (by rw [hr, hv]; exact hA.high) (by rw [hr, hv]; exact hA.big)
  rw [hr, hv] at o2 o5
  rw [hr] at o4
  exact ⟨o, o1, o2, o3.trans kP, o4, fun hc => by rw [o5 hc]; field_simp; ring⟩

private theorem creep_cell {S : Setting} {l0 : Flow.Law} {number : Int} (hC : Creeping S l0 number) {p0 eps tau : ℝ}
    (hX : Experiment l0 S.env.R (S.cell 0).T p0 (S.cell 0).d (S.cell 0).phi eps tau) (he : 0 < eps) (hA : Allowed S eps tau) (k : Point.Node) (hair : k.air = false) (hw : Spec.Composition S.n k.w)
    (kT : k.T = (S.cell 0).T) (kP : k.P = p0) (kd : k.d = (S.cell 0).d) (kphi : k.phi = (S.cell 0).phi) (hI : Point.invariant k.e = eps) :
    ∃ s, Point.cellNode S.env S.mean S.n S.mats S.huet k = .ok s ∧ s.T = Point.nodeStress (tau / (2 * eps)) k.e ∧ s.pcorr = p0 ∧ s.eIIpwl = eps ∧ s.wDiss = 2 * tau * eps := by
  have hE : k.eff S.env = k.e := by unfold Point.Node.eff; rw [hC.elastic]; simp
  have hup := fun p hp => law_here hC hX he hA k kT kP kd kphi hI true p hp
  have : Nonempty Point.Out := ⟨⟨0, 0, ⟨0, 0, 0⟩, 0, 0, 0, 0, 0, 0, 0, 0, 0, 0, 0, 0, 0, 0, 0⟩⟩
  choose! o ho1 ho2 ho3 ho4 ho5 using hup
  obtain ⟨s, e0, e1, -, e3, -, -, -, ew, -, -, -, -, e4, -, -, -, -, e5, -⟩ := Point.cell_update S.env S.mean S.n S.mats S.huet k hair hw hC.minEta
    (le_trans hA.low hA.high) (fun p hp => (hC.mats p hp).2.2.2.2.2.2.2.2.1) o (fun p hp _ => ho1 p hp)
  have share_const : ∀ (g : Nat → ℝ) (x : ℝ), (∀ p < S.n, g p = x) → Spec.share S.n k.w g = x := fun g x hg => by
    unfold Spec.share
    rw [Finset.sum_congr rfl fun p hp => by rw [hg p (mem_range.1 hp)], ← Finset.sum_mul, hw.total, one_mul]
  have heta : s.eta = tau / (2 * eps) := by
    have hb := Point.mean_between S.mean S.n k.w (fun p => (o p).etaVE) (tau / (2 * eps)) (tau / (2 * eps)) hw (lt_of_lt_of_le hC.minEta hA.low)
      (fun p hp _ => by rw [ho2 p hp]; exact ⟨le_rfl, le_rfl⟩)
    rw [e1]; exact le_antisymm hb.2 hb.1
  exact ⟨s, e0, by rw [e3, heta, hE], by rw [e4]; exact share_const _ _ ho3, by rw [ew]; exact share_const _ _ ho4, by rw [e5]; exact share_const _ _ fun p hp => ho5 p hp rfl⟩

private theorem creep_vertex {S : Setting} {l0 : Flow.Law} {number : Int} (hC : Creeping S l0 number) {p0 eps tau : ℝ}
    (hX : Experiment l0 S.env.R (S.cell 0).T p0 (S.cell 0).d (S.cell 0).phi eps tau) (he : 0 < eps) (hA : Allowed S eps tau) (k : Point.Node) (hair : k.air = false) (hw : Spec.Composition S.n k.w)
    (kT : k.T = (S.cell 0).T) (kP : k.P = p0) (kd : k.d = (S.cell 0).d) (kphi : k.phi = (S.cell 0).phi) (hI : Point.invariant k.e = eps) :
    ∃ s, Point.vertexNode S.env S.mean S.n S.mats S.huet k = .ok s ∧ s.T = Point.nodeStress (tau / (2 * eps)) k.e := by
  have hE : k.eff S.env = k.e := by unfold Point.Node.eff; rw [hC.elastic]; simp
  have hup := fun p hp => law_here hC hX he hA k kT kP kd kphi hI false p hp
  have : Nonempty Point.Out := ⟨⟨0, 0, ⟨0, 0, 0⟩, 0, 0, 0, 0, 0, 0, 0, 0, 0, 0, 0, 0, 0, 0, 0⟩⟩
  choose! o ho1 ho2 ho3 ho4 ho5 using hup
  obtain ⟨s, e0, e1, -, e3, -⟩ := Point.vertex_update S.env S.mean S.n S.mats S.huet k hair hw hC.minEta
    (le_trans hA.low hA.high) o (fun p hp _ => ho1 p hp)
  have heta : s.eta = tau / (2 * eps) := by
    have hb := Point.mean_between S.mean S.n k.w (fun p => (o p).etaVE) (tau / (2 * eps)) (tau / (2 * eps)) hw (lt_of_lt_of_le hC.minEta hA.low)
      (fun p hp _ => by rw [ho2 p hp]; exact ⟨le_rfl, le_rfl⟩)
    rw [e1]; exact le_antisymm hb.2 hb.1
  exact ⟨s, e0, by rw [e3, heta, hE]⟩

/-- The recorded mesh `o` has the stress of the experiment everywhere: the strain rate tensor `e` times `tau / eps` in every cell and at every vertex, the pressure `p0` unchanged, all of the strain
rate by creep, and heat production stress times strain rate. -/
structure AsMeasured (S : Setting) (e : Point.Tensor) (p0 eps tau : ℝ) (o : Mech) : Prop where
  cells : ∀ i < S.ncells, (o.cells i).T = ⟨tau / eps * e.xx, tau / eps * e.zz, tau / eps * e.xz⟩
  verts : ∀ i < S.nverts, (o.verts i).T = ⟨tau / eps * e.xx, tau / eps * e.zz, tau / eps * e.xz⟩
  pressure : ∀ i < S.ncells, (o.cells i).pcorr = p0
  creep : ∀ i < S.ncells, (o.cells i).eIIpwl = eps
  heat : ∀ i < S.ncells, (o.cells i).wDiss = 2 * tau * eps

/-- C163 (one update).  In an even body that creeps by a published law, in a flow with one velocity gradient, without change of volume, the update goes through and leaves the stress of the experiment. -/
theorem creep_updates {S : Setting} {l0 : Flow.Law} {number : Int} (hC : Creeping S l0 number) (hS : SameEverywhere S) {p0 eps tau : ℝ}
    (hX : Experiment l0 S.env.R (S.cell 0).T p0 (S.cell 0).d (S.cell 0).phi eps tau) (he : 0 < eps) (hA : Allowed S eps tau) {xmin zmin a b c d e : ℝ} {f : LS.Fields}
    (hw : Spec.Sampled xmin zmin S.m.dx S.m.dz S.m.Nx S.m.Nz (Spec.linearFlow a b c d e (-b)) f.u f.v) (hI : Point.invariant ⟨b, -b, (c + e) / 2⟩ = eps) (hp : ∀ i < S.ncells, f.p i = p0) (fin : Bool)
    (t : Mech) : ∃ o, updateNL S fin f t = .ok o ∧ AsMeasured S ⟨b, -b, (c + e) / 2⟩ p0 eps tau o := by
  obtain ⟨rc, rv⟩ := rock_strain_rates hS.Nx hS.Nz hS.dx hS.dz hS.rock hS.rockV hw (s := t.rates) rfl
  have h0 : ∀ x : ℝ, b - x * (if S.m.oop then 3 / 2 * (b + -b) else b + -b) = b ∧ -b - x * (if S.m.oop then 3 / 2 * (b + -b) else b + -b) = -b := fun x => by
    constructor <;> split_ifs <;> ring
  have rc' : ∀ i < S.ncells, (cellData S f (Kin.strainRates (kinInp S f) t.rates) i).e = ⟨b, -b, (c + e) / 2⟩ := fun i hi => by
    have := (rc i hi).2
    rw [(h0 _).1, (h0 _).2] at this
    exact this
  have rv' : ∀ i < S.nverts, (vertData S (Kin.strainRates (kinInp S f) t.rates) (toVerts S (fun c => (S.cell c).T) t.Ts)
      (toVerts S f.p t.Ps) (toVerts S (fun c => (S.cell c).d) t.ds) (toVerts S (fun c => (S.cell c).phi) t.phis) i).e = ⟨b, -b, (c + e) / 2⟩ := fun i hi => by
    have := rv i hi
    rw [(h0 _).1, (h0 _).2] at this
    exact this
  have nc : ∀ i < S.ncells, _ := fun i hi => creep_cell hC hX he hA (cellData S f (Kin.strainRates (kinInp S f) t.rates) i)
    (by simp only [cellData]; exact decide_eq_false (hS.rock i)) (hC.cells i hi) (by simp only [cellData]; rw [hS.cells i hi]) (hp i hi) (by simp only [cellData]; rw [hS.cells i hi])
    (by simp only [cellData]; rw [hS.cells i hi]) (by rw [rc' i hi]; exact hI)
  have nv : ∀ i < S.nverts, _ := fun i hi => creep_vertex hC hX he hA (vertData S (Kin.strainRates (kinInp S f) t.rates) (toVerts S (fun c => (S.cell c).T) t.Ts)
      (toVerts S f.p t.Ps) (toVerts S (fun c => (S.cell c).d) t.ds) (toVerts S (fun c => (S.cell c).phi) t.phis) i)
    (by simp only [vertData]; exact decide_eq_false (hS.rockV i)) (hC.verts i hi) (toVerts_same S hS _ _ _ (fun c hc => by rw [hS.cells c hc]) i hi) (toVerts_same S hS _ _ _ hp i hi)
    (toVerts_same S hS _ _ _ (fun c hc => by rw [hS.cells c hc]) i hi) (toVerts_same S hS _ _ _ (fun c hc => by rw [hS.cells c hc]) i hi) (by rw [rv' i hi]; exact hI)
  obtain ⟨o, ho⟩ : ∃ o, updateNL S fin f t = .ok o := by
    obtain ⟨⟨c, s⟩, e⟩ := (Point.grid_spec S.env S.mean S.n S.mats S.huet S.ncells S.nverts
      (cellData S f (Kin.strainRates (kinInp S f) t.rates))
      (vertData S (Kin.strainRates (kinInp S f) t.rates) (toVerts S (fun c => (S.cell c).T) t.Ts)
          (toVerts S f.p t.Ps) (toVerts S (fun c => (S.cell c).d) t.ds) (toVerts S (fun c => (S.cell c).phi) t.phis))
      t.cells t.verts).2 (fun j hj => (nc j hj).imp fun s h => h.1) (fun j hj => (nv j hj).imp fun s h => h.1)
    unfold updateNL
    dsimp only
    rw [e]
    exact ⟨_, rfl⟩
  have key : ∀ q : Point.Tensor, Point.nodeStress (tau / (2 * eps)) q = ⟨tau / eps * q.xx, tau / eps * q.zz, tau / eps * q.xz⟩ := fun q => by
    unfold Point.nodeStress
    rw [show 2 * (tau / (2 * eps)) = tau / eps by field_simp]
  obtain ⟨a1, a2, a3, a4, a5, a6, -, -, -⟩ := updateNL_ok ho
  rw [a1, a2, a3, a4, a5] at a6
  have hs := (Point.grid_spec S.env S.mean S.n S.mats S.huet S.ncells S.nverts _ _ t.cells t.verts).1 _ _ a6
  have cc : ∀ i < S.ncells, (o.cells i).T = Point.nodeStress (tau / (2 * eps)) ⟨b, -b, (c + e) / 2⟩ ∧ (o.cells i).pcorr = p0 ∧ (o.cells i).eIIpwl = eps ∧ (o.cells i).wDiss = 2 * tau * eps := fun i hi => by
    obtain ⟨s, s1, s2, s3⟩ := nc i hi
    have := hs.1 i hi
    rw [s1] at this
    simp only [Point.Outcome.ok.injEq] at this
    rw [rc' i hi] at s2
    rw [← this]
    exact ⟨s2, s3⟩
  refine ⟨o, ho, fun i hi => (cc i hi).1.trans (key _), fun i hi => ?_, fun i hi => (cc i hi).2.1, fun i hi => (cc i hi).2.2.1, fun i hi => (cc i hi).2.2.2⟩
  obtain ⟨s, s1, s2⟩ := nv i hi
  have := hs.2.1 i hi
  rw [s1] at this
  simp only [Point.Outcome.ok.injEq] at this
  rw [rv' i hi] at s2
  rw [← this]
  exact s2.trans (key _)

private theorem textbook_sampled {S : Setting} {eps : ℝ} {x z : Nat → ℝ} {bu bv : Setup.Side ℝ} (h : PureShear S eps x z bu bv) (p0 : ℝ) :
    Spec.Sampled (x 0) (z 0) S.m.dx S.m.dz S.m.Nx S.m.Nz (Spec.linearFlow 0 (-eps) 0 0 0 (- -eps)) (textbook S eps x z 0 p0).u (textbook S eps x z 0 p0).v := by
  obtain ⟨eu, ev, -⟩ := textbook_at S eps x z 0 p0
  exact ⟨fun k l hk hl => by
    rw [eu k l hk (by omega), (h.coord k 0).1]
    simp only [Spec.linearFlow, Spec.uNode]; ring, fun k l hk hl => by
    rw [ev k l (by omega) hl, (h.coord 0 l).2]
    simp only [Spec.linearFlow, Spec.vNode]; ring⟩

private theorem pure_invariant {eps : ℝ} (he : 0 < eps) : Point.invariant ⟨-eps, - -eps, (0 + 0) / 2⟩ = eps := by
  unfold Point.invariant
  dsimp only
  rw [show 1 / 2 * (-eps * -eps + - -eps * - -eps + -(-eps + - -eps) * -(-eps + - -eps)) + (0 + 0) / 2 * ((0 + 0) / 2) = eps ^ 2 by ring]
  exact Real.sqrt_sq he.le

private theorem simple_invariant {eps : ℝ} (he : 0 < eps) : Point.invariant ⟨0, -0, (2 * eps + 0) / 2⟩ = eps := by
  unfold Point.invariant
  dsimp only
  rw [show 1 / 2 * (0 * 0 + -0 * -0 + -(0 + -0) * -(0 + -0)) + (2 * eps + 0) / 2 * ((2 * eps + 0) / 2) = eps ^ 2 by ring]
  exact Real.sqrt_sq he.le

/-- Shortening at the rate `eps`, as strain rate tensor. -/
def shortening (eps : ℝ) : Point.Tensor := ⟨-eps, eps, 0⟩

/-- Simple shear with the strain rate `eps`, half the shear-strain rate. -/
def shearing (eps : ℝ) : Point.Tensor := ⟨0, 0, eps⟩

/-- C163 (pure shear, one step).  The step is recorded after one evaluation and no solve, flow and pressure stay, and the stress is that of the experiment. -/
theorem creep_pure_shear_step {S : Setting} {eps : ℝ} {x z : Nat → ℝ} {bu bv : Setup.Side ℝ} (h : PureShear S eps x z bu bv) (hS : SameEverywhere S) (hg : S.body.gx = 0 ∧ S.body.gz = 0) (hvol : S.vol = false)
    (hq : ∀ c, S.comp c = false ∧ S.rhsP c = 0) {c : Time.LoopCfg ℝ} (hT : Tested S c) {l0 : Flow.Law} {number : Int} (hC : Creeping S l0 number) {p0 tau : ℝ}
    (hX : Experiment l0 S.env.R (S.cell 0).T p0 (S.cell 0).d (S.cell 0).phi eps tau) (he : 0 < eps) (hA : Allowed S eps tau) (solve : Solver) (E D P : ℝ) (zu : Nat → ℝ) (t : Mech) (r : Time.Res ℝ) (fuel : Nat) :
    ∃ o, mechStep S (countedNorms S) c solve false E D P x z zu ⟨bu.val, bv.val⟩ r (fuel + 1) (textbook S eps x z 0 p0) t
        = some (.ok ⟨textbook S eps x z 0 p0, o, ⟨0, 0, S.env.dt, 1, ⟨0, 0, 0⟩, ⟨0, 0, 0⟩⟩⟩)
      ∧ AsMeasured S (shortening eps) p0 eps tau o := by
  have hn : S.ncells = (S.m.Nz - 1) * (S.m.Nx - 1) := mul_comm _ _
  have hp : ∀ i < S.ncells, (textbook S eps x z 0 p0).p i = p0 := fun i hi => by rw [hn] at hi; simp [textbook, hi]
  have up := creep_updates hC hS hX he hA (textbook_sampled h p0) (pure_invariant he) hp
  obtain ⟨a, ha, -⟩ := up false t
  obtain ⟨o, ho, hm⟩ := up true a
  have hb := pure_shear_any_rheology h hS hg hvol hq ha
  have e := settled_step hT.dt hT.rows hT.mom hT.div hT.stag (pure_shear_kept h E D P zu 0 p0) ha (hb.settled (by have := h.Nx; omega) h.box) solve r fuel
  have hf : finishStep S (textbook S eps x z 0 p0) a = .ok (textbook S eps x z 0 p0, o) := by
    unfold finishStep
    rw [ho]
    dsimp only
    rw [Point.Outcome.ok.injEq, Prod.mk.injEq]
    refine ⟨?_, rfl⟩
    rw [LS.Fields.mk.injEq]
    refine ⟨rfl, rfl, funext fun i => ?_⟩
    rw [LS.copyArr_apply]
    by_cases w : i < S.ncells
    · rw [if_pos w, hm.pressure i w, hp i w]
    · rw [if_neg w]
  rw [hf] at e
  refine ⟨o, e, ?_⟩
  rw [show (⟨-eps, - -eps, (0 + 0) / 2⟩ : Point.Tensor) = shortening eps by unfold shortening; simp] at hm
  exact hm

/-- C163 (simple shear, one step).  Likewise. -/
theorem creep_simple_shear_step {S : Setting} {eps : ℝ} {x z zu : Nat → ℝ} {bu bv : Setup.Side ℝ} (h : SimpleShear S eps x z zu bu bv) (hS : SameEverywhere S) (hg : S.body.gx = 0 ∧ S.body.gz = 0)
    (hvol : S.vol = false) (hq : ∀ c, S.comp c = false ∧ S.rhsP c = 0) {c : Time.LoopCfg ℝ} (hT : Tested S c) {l0 : Flow.Law} {number : Int} (hC : Creeping S l0 number) {p0 tau : ℝ}
    (hX : Experiment l0 S.env.R (S.cell 0).T p0 (S.cell 0).d (S.cell 0).phi eps tau) (he : 0 < eps) (hA : Allowed S eps tau) (solve : Solver) (E D P : ℝ) (t : Mech) (r : Time.Res ℝ) (fuel : Nat) :
    ∃ o, mechStep S (countedNorms S) c solve false E D P x z zu ⟨bu.val, bv.val⟩ r (fuel + 1) (sheared S eps zu p0) t
        = some (.ok ⟨sheared S eps zu p0, o, ⟨0, 0, S.env.dt, 1, ⟨0, 0, 0⟩, ⟨0, 0, 0⟩⟩⟩)
      ∧ AsMeasured S (shearing eps) p0 eps tau o := by
  have hn : S.ncells = (S.m.Nz - 1) * (S.m.Nx - 1) := mul_comm _ _
  have hp : ∀ i < S.ncells, (sheared S eps zu p0).p i = p0 := fun i hi => by rw [hn] at hi; simp [sheared, hi]
  have hw := h.sampled p0
  rw [show Spec.linearFlow (0 : ℝ) 0 (2 * eps) 0 0 0 = Spec.linearFlow 0 0 (2 * eps) 0 0 (-0) by rw [neg_zero]] at hw
  have up := creep_updates hC hS hX he hA hw (simple_invariant he) hp
  obtain ⟨a, ha, -⟩ := up false t
  obtain ⟨o, ho, hm⟩ := up true a
  have e := settled_step hT.dt hT.rows hT.mom hT.div hT.stag (simple_shear_kept h E D P p0) ha (simple_shear_settled h hS hg hvol hq ha) solve r fuel
  have hf : finishStep S (sheared S eps zu p0) a = .ok (sheared S eps zu p0, o) := by
    unfold finishStep
    rw [ho]
    dsimp only
    rw [Point.Outcome.ok.injEq, Prod.mk.injEq]
    refine ⟨?_, rfl⟩
    rw [LS.Fields.mk.injEq]
    refine ⟨rfl, rfl, funext fun i => ?_⟩
    rw [LS.copyArr_apply]
    by_cases w : i < S.ncells
    · rw [if_pos w, hm.pressure i w, hp i w]
    · rw [if_neg w]
  rw [hf] at e
  refine ⟨o, e, ?_⟩
  rw [show (⟨0, -0, (2 * eps + 0) / 2⟩ : Point.Tensor) = shearing eps by unfold shearing; simp] at hm
  exact hm

/-- C163.  **Pure shear of a rock reproduces the laboratory**: from the program's own start on, at every step the stress recorded in every cell and at every vertex is that of the experiment at the
temperature of that step, the pressure stays the background pressure, all strain is by creep, the heat production is stress times strain rate, and nothing is solved. -/
theorem creep_pure_shear_run {S : Nat → Setting} {eps : ℝ} {x z : Nat → ℝ} {bu bv : Setup.Side ℝ} (h : ∀ n, PureShear (S n) eps x z bu bv) (hS : ∀ n, SameEverywhere (S n))
    (hg : ∀ n, (S n).body.gx = 0 ∧ (S n).body.gz = 0) (hvol : ∀ n, (S n).vol = false) (hq : ∀ n c, (S n).comp c = false ∧ (S n).rhsP c = 0) (hper : (S 0).per = false)
    (hbox : ∀ n, (S n).m.Nx = (S 0).m.Nx ∧ (S n).m.Nz = (S 0).m.Nz) {c : Nat → Time.LoopCfg ℝ} (hT : ∀ n, Tested (S n) (c n)) {l0 : Flow.Law} {number : Int} (hC : ∀ n, Creeping (S n) l0 number) {P0 : ℝ}
    {tau : Nat → ℝ} (hX : ∀ n, Experiment l0 (S n).env.R ((S n).cell 0).T P0 ((S n).cell 0).d ((S n).cell 0).phi eps (tau n)) (he : 0 < eps) (hA : ∀ n, Allowed (S n) eps (tau n))
    {solve : Nat → Solver} {E D P : Nat → ℝ} {zu : Nat → Nat → ℝ} {t : Nat → Mech} {r : Nat → Time.Res ℝ} {fuel : Nat → Nat} {f : Nat → LS.Fields} {o : Nat → Mech} {s : Nat → Time.LoopState ℝ}
    {rho : Nat → ℝ} {f0 : LS.Fields} {zu0 : Nat → ℝ} (hstart : f 0 = runStart (S 0) eps 0 P0 x z zu0 ⟨bu.val, bv.val⟩ rho f0)
    (hrun : ∀ n, mechStep (S n) (countedNorms (S n)) (c n) (solve n) false (E n) (D n) (P n) x z (zu n) ⟨bu.val, bv.val⟩ (r n) (fuel n + 1) (f n) (t n) = some (.ok ⟨f (n + 1), o n, s n⟩)) (n : Nat) :
    f n = f 0 ∧ AsMeasured (S n) (shortening eps) P0 eps (tau n) (o n) ∧ (s n).evals = 1 := by
  have same : ∀ n p, textbook (S n) eps x z 0 p = textbook (S 0) eps x z 0 p := fun n p => by
    unfold textbook
    rw [(hbox n).1, (hbox n).2]
    simp
  have start : f 0 = textbook (S 0) eps x z 0 P0 := by
    have e : ∀ rho, runStart (S 0) eps 0 P0 x z zu0 ⟨bu.val, bv.val⟩ rho f0 = runStart (S 0) eps 0 P0 x z zu0 ⟨bu.val, bv.val⟩ (fun _ => 0) f0 := fun rho => by
      unfold runStart GridField.lithostatic
      rw [(hg 0).2]; simp
    rw [hstart, e, pure_shear_run_start (h 0) hper (hg 0).1 P0 zu0 (fun _ => 0) (r := 0) (fun _ _ => rfl) f0]
    simp
  have step : ∀ n, f n = f 0 → f (n + 1) = f 0 ∧ AsMeasured (S n) (shortening eps) P0 eps (tau n) (o n) ∧ (s n).evals = 1 := fun n hn => by
    obtain ⟨o', e, m⟩ := creep_pure_shear_step (h n) (hS n) (hg n) (hvol n) (hq n) (hT n) (hC n) (hX n) he (hA n) (solve n) (E n) (D n) (P n) (zu n) (t n) (r n) (fuel n)
    have a := hrun n
    rw [hn, start, ← same n, e] at a
    simp only [Option.some.injEq, Point.Outcome.ok.injEq, StepEnd.mk.injEq] at a
    obtain ⟨a1, a2, a3⟩ := a
    rw [← a1, ← a2, ← a3, start, same n]
    exact ⟨rfl, m, rfl⟩
  have all : ∀ n, f n = f 0 := fun n => by
    induction n with
    | zero => rfl
    | succ n ih => exact (step n ih).1
  exact ⟨all n, (step n (all n)).2⟩

/-- C163.  **Simple shear of a rock reproduces the laboratory**: likewise; the shear stress is that of a rock sheared at the shear-strain rate `2 eps`. -/
theorem creep_simple_shear_run {S : Nat → Setting} {eps : ℝ} {x z zu : Nat → ℝ} {bu bv : Setup.Side ℝ} (h : ∀ n, SimpleShear (S n) eps x z zu bu bv) (hS : ∀ n, SameEverywhere (S n))
    (hg : ∀ n, (S n).body.gx = 0 ∧ (S n).body.gz = 0) (hvol : ∀ n, (S n).vol = false) (hq : ∀ n c, (S n).comp c = false ∧ (S n).rhsP c = 0)
    (hbox : ∀ n, (S n).m.Nx = (S 0).m.Nx ∧ (S n).m.Nz = (S 0).m.Nz) {c : Nat → Time.LoopCfg ℝ} (hT : ∀ n, Tested (S n) (c n)) {l0 : Flow.Law} {number : Int} (hC : ∀ n, Creeping (S n) l0 number) {P0 : ℝ}
    {tau : Nat → ℝ} (hX : ∀ n, Experiment l0 (S n).env.R ((S n).cell 0).T P0 ((S n).cell 0).d ((S n).cell 0).phi eps (tau n)) (he : 0 < eps) (hA : ∀ n, Allowed (S n) eps (tau n))
    {solve : Nat → Solver} {E D P : Nat → ℝ} {t : Nat → Mech} {r : Nat → Time.Res ℝ} {fuel : Nat → Nat} {f : Nat → LS.Fields} {o : Nat → Mech} {s : Nat → Time.LoopState ℝ}
    {rho : Nat → ℝ} {f0 : LS.Fields} (hstart : f 0 = runStart (S 0) eps 0 P0 x z zu ⟨bu.val, bv.val⟩ rho f0)
    (hrun : ∀ n, mechStep (S n) (countedNorms (S n)) (c n) (solve n) false (E n) (D n) (P n) x z zu ⟨bu.val, bv.val⟩ (r n) (fuel n + 1) (f n) (t n) = some (.ok ⟨f (n + 1), o n, s n⟩)) (n : Nat) :
    f n = f 0 ∧ AsMeasured (S n) (shearing eps) P0 eps (tau n) (o n) ∧ (s n).evals = 1 := by
  have same : ∀ n p, sheared (S n) eps zu p = sheared (S 0) eps zu p := fun n p => by
    unfold sheared
    rw [(hbox n).1, (hbox n).2]
  have start : f 0 = sheared (S 0) eps zu P0 := hstart.trans (simple_shear_run_start (h 0) (hg 0).2 P0 rho f0)
  have step : ∀ n, f n = f 0 → f (n + 1) = f 0 ∧ AsMeasured (S n) (shearing eps) P0 eps (tau n) (o n) ∧ (s n).evals = 1 := fun n hn => by
    obtain ⟨o', e, m⟩ := creep_simple_shear_step (h n) (hS n) (hg n) (hvol n) (hq n) (hT n) (hC n) (hX n) he (hA n) (solve n) (E n) (D n) (P n) (t n) (r n) (fuel n)
    have a := hrun n
    rw [hn, start, ← same n, e] at a
    simp only [Option.some.injEq, Point.Outcome.ok.injEq, StepEnd.mk.injEq] at a
    obtain ⟨a1, a2, a3⟩ := a
    rw [← a1, ← a2, ← a3, start, same n]
    exact ⟨rfl, m, rfl⟩
  have all : ∀ n, f n = f 0 := fun n => by
    induction n with
    | zero => rfl
    | succ n ih => exact (step n ih).1
  exact ⟨all n, (step n (all n)).2⟩

/-! ### A rock meeting the hypotheses -/

/-- A law from a shear experiment with exponent 3, activation energy 500 kJ, grain size exponent 2 and a fugacity exponent of 1, which has a shear stress of 2 MPa at the strain rate `1e-15` and 300 K. -/
noncomputable def sampleLaw : Flow.Law where
  t := 2
  n := 3
  m := 2
  r := 1
  Q := 500000
  V := 1 / 10 ^ 5
  A := Real.exp (500000 / (8314 / 1000 * 300)) / (32 * 10 ^ 33)
  f := 1
  a := 30
  F := 1

/-- The experiment on it. -/
theorem sample_experiment : Experiment sampleLaw (8314 / 1000) 300 0 1 0 (1 / 10 ^ 15) (2 * 10 ^ 6) := by
  refine Or.inl ⟨rfl, 4 * 10 ^ 6, by positivity, ?_, by norm_num⟩
  unfold Spec.labRate sampleLaw
  dsimp only
  have h3 : ((4 : ℝ) * 10 ^ 6) ^ (3 : ℝ) = (4 * 10 ^ 6) ^ 3 := by
    rw [show (3 : ℝ) = ((3 : Nat) : ℝ) by norm_num, Real.rpow_natCast]
  rw [h3, Real.one_rpow, Real.one_rpow, mul_zero, Real.exp_zero, show -(500000 + 0 * (1 / 10 ^ 5)) / (8314 / 1000 * 300) = -(500000 / (8314 / 1000 * 300) : ℝ) by ring, Real.exp_neg]
  have := Real.exp_pos (500000 / (8314 / 1000 * 300))
  field_simp
  norm_num

/-- The slab of this rock, without gravity, with or without periodic sides. -/
noncomputable def creepSlab (per : Bool) (Nx Nz : Nat) (tu tv : Nat → Int) : Setting :=
  { stressedSlab Nx Nz tu tv with
    per := per
    env := Point.settings false
    mats := fun _ => { Point.viscous (10 ^ 21) with cst := false, pwl := true, pwlLaw := Flow.correct 0 sampleLaw } }

theorem creepSlab_creeping (per : Bool) (Nx Nz : Nat) (tu tv : Nat → Int) : Creeping (creepSlab per Nx Nz tu tv) sampleLaw 0 ∧ Allowed (creepSlab per Nx Nz tu tv) (1 / 10 ^ 15) (2 * 10 ^ 6) := by
  have b := block_viscoelastic
  refine ⟨⟨rfl, by norm_num [creepSlab, Point.settings], fun p _ => ⟨rfl, rfl, rfl, rfl, rfl, rfl, rfl, rfl, by norm_num [creepSlab, Point.viscous, Point.rock], rfl⟩, le_rfl, by norm_num [sampleLaw],
    by unfold sampleLaw; positivity, Or.inl (by norm_num [sampleLaw]), by norm_num [creepSlab, stressedSlab, Point.halfHalf], by norm_num [creepSlab, stressedSlab, Point.halfHalf, Point.settings],
    fun c _ => (b.cells 0 (by decide) (by simp [block, blockMesh])).1, fun c _ => (b.verts 0 (by decide) (by simp [block, blockMesh])).1⟩, ?_⟩
  constructor <;> norm_num [creepSlab, Point.settings]

/-- Non-vacuity: the steps of both benchmarks, on every grid of at least five by five vertices. -/
theorem creepSlab_steps (Nx Nz : Nat) (hx : 5 ≤ Nx) (hz : 5 ≤ Nz) (x0 z0 : ℝ) (solve : Solver) (t : Mech) :
    (∃ S : Setting, ∃ bu bv o, ∃ c : Time.LoopCfg ℝ, S.m.Nx = Nx ∧ S.m.Nz = Nz ∧ PureShear S (1 / 10 ^ 15) (fun k => x0 + k * 1000) (fun l => z0 + l * 1000) bu bv
      ∧ mechStep S (countedNorms S) c solve false 0 0 0 (fun k => x0 + k * 1000) (fun l => z0 + l * 1000) (fun _ => 0) ⟨bu.val, bv.val⟩ ⟨0, 0, 0⟩ 1
          (textbook S (1 / 10 ^ 15) (fun k => x0 + k * 1000) (fun l => z0 + l * 1000) 0 0) t
        = some (.ok ⟨textbook S (1 / 10 ^ 15) (fun k => x0 + k * 1000) (fun l => z0 + l * 1000) 0 0, o, ⟨0, 0, S.env.dt, 1, ⟨0, 0, 0⟩, ⟨0, 0, 0⟩⟩⟩)
      ∧ ∀ i < S.ncells, (o.cells i).T = ⟨-(2 * 10 ^ 6), 2 * 10 ^ 6, 0⟩)
    ∧ ∃ S : Setting, ∃ x z zu bu bv o, ∃ c : Time.LoopCfg ℝ, S.m.Nx = Nx ∧ S.m.Nz = Nz ∧ SimpleShear S (1 / 10 ^ 15) x z zu bu bv
      ∧ mechStep S (countedNorms S) c solve false 0 0 0 x z zu ⟨bu.val, bv.val⟩ ⟨0, 0, 0⟩ 1 (sheared S (1 / 10 ^ 15) zu 0) t
        = some (.ok ⟨sheared S (1 / 10 ^ 15) zu 0, o, ⟨0, 0, S.env.dt, 1, ⟨0, 0, 0⟩, ⟨0, 0, 0⟩⟩⟩)
      ∧ ∀ i < S.ncells, (o.cells i).T = ⟨0, 0, 2 * 10 ^ 6⟩ := by
  constructor
  · obtain ⟨bu, bv, h, s, -⟩ := stressed_slab_meets Nx Nz (by omega) (by omega) (1 / 10 ^ 15) x0 z0 0 0 t
    have h' : PureShear (creepSlab false Nx Nz bu.type bv.type) (1 / 10 ^ 15) (fun k => x0 + k * 1000) (fun l => z0 + l * 1000) bu bv :=
      ⟨h.Nx, h.Nz, h.dx, h.dz, h.stepX, h.stepZ, h.vx, h.vz, h.tu, h.tv, h.beyondU, h.beyondV, h.rock⟩
    have s' : SameEverywhere (creepSlab false Nx Nz bu.type bv.type) := ⟨s.Nx, s.Nz, s.dx, s.dz, fun _ _ => rfl, fun _ _ => rfl, s.rock, s.rockV, s.stab⟩
    obtain ⟨hC, hA⟩ := creepSlab_creeping false Nx Nz bu.type bv.type
    have hT : Tested (creepSlab false Nx Nz bu.type bv.type) (⟨10, 3, 0, 1, 2, 1, 1, 1, 1⟩ : Time.LoopCfg ℝ) :=
      ⟨by norm_num [creepSlab, stressedSlab, slab, boxMesh, blockMesh, Point.settings], h'.counted hx hz, one_pos, one_pos, by decide⟩
    obtain ⟨o, e, m⟩ := creep_pure_shear_step h' s' ⟨rfl, rfl⟩ rfl (fun _ => ⟨rfl, rfl⟩) hT hC sample_experiment (by positivity) hA solve 0 0 0 (fun _ => 0) t ⟨0, 0, 0⟩ 0
    refine ⟨_, bu, bv, o, _, rfl, rfl, h', e, fun i hi => ?_⟩
    rw [m.cells i hi]
    unfold shortening
    norm_num
  · obtain ⟨bu, hu, -⟩ := Setup.template_Vx (show 2 ≤ Nx by omega) 1 ((1 : ℝ) / 10 ^ 15) (((Nz : ℝ) - 1) * 1000) (fun k : Nat => x0 + (k : ℝ) * 1000) (fun _ => 0) (fun _ => 0) (Nz := Nz)
    obtain ⟨bv, hv, -⟩ := Setup.template_Vz (show 1 ≤ Nx by omega) (show 2 ≤ Nz by omega) 1 ((1 : ℝ) / 10 ^ 15) (fun l : Nat => -(((Nz : ℝ) - 1) * 1000) / 2 + l * 1000) (fun _ => 0) (fun _ => 0)
    obtain ⟨h, -, -⟩ := seam_meets Nx Nz (by omega) (by omega) (1 / 10 ^ 15) x0 hu hv
    have s := seam_even Nx Nz (by omega) (by omega) bu.type bv.type
    have h' : SimpleShear (creepSlab true Nx Nz bu.type bv.type) (1 / 10 ^ 15) (fun k => x0 + k * 1000) (fun l => -(((Nz : ℝ) - 1) * 1000) / 2 + l * 1000)
        (fun l => -(((Nz : ℝ) - 1) * 1000) / 2 + (l - 1 / 2) * 1000) bu bv := ⟨h.Nx, h.Nz, h.stepZ, h.rowsU, h.vx, h.vz, h.tu, h.tv, h.rock, rfl⟩
    have s' : SameEverywhere (creepSlab true Nx Nz bu.type bv.type) := ⟨s.Nx, s.Nz, s.dx, s.dz, fun _ _ => rfl, fun _ _ => rfl, s.rock, s.rockV, s.stab⟩
    obtain ⟨hC, hA⟩ := creepSlab_creeping true Nx Nz bu.type bv.type
    have hT : Tested (creepSlab true Nx Nz bu.type bv.type) (⟨10, 3, 0, 1, 2, 1, 1, 1, 1⟩ : Time.LoopCfg ℝ) :=
      ⟨by norm_num [creepSlab, stressedSlab, slab, boxMesh, blockMesh, Point.settings], h'.counted hx hz, one_pos, one_pos, by decide⟩
    obtain ⟨o, e, m⟩ := creep_simple_shear_step h' s' ⟨rfl, rfl⟩ rfl (fun _ => ⟨rfl, rfl⟩) hT hC sample_experiment (by positivity) hA solve 0 0 0 t ⟨0, 0, 0⟩ 0
    refine ⟨_, _, _, _, bu, bv, o, _, rfl, rfl, h', e, fun i hi => ?_⟩
    rw [m.cells i hi]
    unfold shearing
    norm_num

end Verif.StepFlow
