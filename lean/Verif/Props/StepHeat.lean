import Verif.Props.StepEnergy

/-
C150: heating of a fluid of one viscosity, and a small model in which a third of the power spent is missing from the heat.
-/
namespace Verif.Point
open Verif

/-- A material that only creeps at constant viscosity, without elasticity and mixing: the update at any strain rate. -/
theorem constant_update (v : Env) (m : Mat) (huet : ℝ × ℝ → ℝ × ℝ) (i : In) (cell : Bool) (hel : v.elastic = false) (hmix : v.mixing = false)
    (hcst : m.cst = true) (hpwl : m.pwl = false) (hexp : m.exp = false) (hlin : m.lin = false) (hgbs : m.gbs = false) (hpl : m.plast = false)
    (h0 : 0 < m.eta0) (hlo : v.minEta ≤ m.eta0) (hhi : m.eta0 ≤ v.maxEta) (hbig : m.eta0 ≤ 10 ^ 100 / v.sEta) (hsE : 0 < v.sE) :
    ∃ o, update v m huet i cell = .ok o ∧ o.etaVE = m.eta0 ∧ o.pcorr = i.P ∧ (cell = true → o.wDiss = 4 * m.eta0 * rate v i.E ^ 2) := by
  have hel' : v.el = false := by unfold Env.el; rw [hel]; rfl
  obtain ⟨x, hx⟩ : ∃ x, x = m.eta0 := ⟨_, rfl⟩
  rw [← hx] at h0 hlo hhi hbig ⊢
  have hc : constantViscosity v m i.X0 = x := by rw [hx]; unfold constantViscosity; simp [hmix]
  have hI : 0 < rate v i.E := by
    unfold rate
    split
    · positivity
    · next h =>
      have : 0 < invariant i.E * v.sE := lt_of_lt_of_le (by positivity) (not_lt.1 h)
      exact (pos_iff_pos_of_mul_pos this).2 hsE
  obtain ⟨y, hy⟩ : ∃ y, y = rate v i.E := ⟨_, rfl⟩
  have hcr : creep v m huet i
      = { el := none, cst := some x, pwl := none, exp := none, lin := none, gbs := none, d := i.d } := by
    unfold creep
    simp [hel', hcst, hpwl, hexp, hlin, hgbs, hc]
  have hrun : LocalIter.run (creep v m huet i) (rate v i.E) (1 / 10 ^ 11) (10 ^ 100 / v.sEta) = .ok x (2 * x * rate v i.E) := by
    rw [hcr]
    rw [← hy] at hI ⊢
    unfold LocalIter.run
    have hg : LocalIter.guess { el := none, cst := some x, pwl := none, exp := none, lin := none, gbs := none, d := i.d }
        y (10 ^ 100 / v.sEta) = x := by
      unfold LocalIter.guess LocalIter.isolated
      simp only [Option.toList_some, Option.toList_none, List.map_nil, List.append_nil,
        List.foldl_cons, List.foldl_nil]
      exact min_eq_right hbig
    have hres : LocalIter.residual { el := none, cst := some x, pwl := none, exp := none, lin := none, gbs := none, d := i.d }
        y x = 0 := by
      unfold LocalIter.residual LocalIter.elasticRate LocalIter.rates
      simp only [Option.toList_some, Option.toList_none, List.map_nil, List.map_cons, List.append_nil,
        List.sum_cons, List.sum_nil, add_zero, sub_zero]
      field_simp
      norm_num
    rw [hg, LocalIter.solve, hres]
    rw [zero_div, abs_zero, if_pos (by positivity)]
  have hyy : ∀ E y t, yielding v m i E y t = ⟨t, i.P, 0, m.etaVp, false⟩ := by
    intro E y t; unfold yielding; simp [hpl]
  have hinv : ∀ t, dissInverse m (creep v m huet i) ⟨t, i.P, 0, m.etaVp, false⟩ t = 1 / x := by
    intro t
    unfold dissInverse inverse
    rw [hcr]
    simp [powerInv, linInv, cstInv]
  unfold update
  rw [if_neg (by simp [hlin])]
  dsimp only
  rw [hrun]
  simp only [finish, hyy, hinv]
  rw [if_neg (by simp), if_neg (by
    rintro ⟨_, h⟩
    have : 0 < 2 * x * rate v i.E * (2 * x * rate v i.E) * (1 / x) := by positivity
    linarith)]
  refine ⟨_, rfl, ?_, rfl, fun hcell => ?_⟩
  · dsimp only
    simp only [effViscosity, Bool.false_eq_true, if_false, Rheo.limiter]
    rw [if_neg (not_lt.2 hhi), if_neg (not_lt.2 hlo)]
  · dsimp only
    rw [if_pos hcell]
    field_simp
    ring

end Verif.Point

namespace Verif.StepFlow
open Verif Finset

/-- A fluid of one constant viscosity, possibly of several phases of different density: no elasticity, no other creep, no yielding. -/
structure Isoviscous (S : Setting) (eta : ℝ) : Prop where
  elastic : S.env.elastic = false
  mixing : S.env.mixing = false
  minEta : 0 < S.env.minEta
  low : S.env.minEta ≤ eta
  high : eta ≤ S.env.maxEta
  big : eta ≤ 10 ^ 100 / S.env.sEta
  sE : 0 < S.env.sE
  mats : ∀ p < S.n, (S.mats p).cst = true ∧ (S.mats p).pwl = false ∧ (S.mats p).exp = false ∧ (S.mats p).lin = false
    ∧ (S.mats p).gbs = false ∧ (S.mats p).plast = false ∧ (S.mats p).eta0 = eta ∧ 0 < (S.mats p).gsRef
  cells : ∀ c < S.ncells, ¬ (S.m.tp c = 30 ∨ S.m.tp c = 31) → Spec.Composition S.n (S.cell c).w
  verts : ∀ c < S.nverts, S.m.tg c ≠ 30 → Spec.Composition S.n (S.vert c).w

private instance : Nonempty Point.Out := ⟨⟨0, 0, ⟨0, 0, 0⟩, 0, 0, 0, 0, 0, 0, 0, 0, 0, 0, 0, 0, 0, 0, 0⟩⟩

/-- One rock cell of such a fluid. -/
private theorem iso_cell (S : Setting) (eta : ℝ) (hS : Isoviscous S eta) (k : Point.Node) (hair : k.air = false) (hw : Spec.Composition S.n k.w) :
    ∃ s, Point.cellNode S.env S.mean S.n S.mats S.huet k = .ok s ∧ s.T = Point.nodeStress eta k.e ∧ s.pcorr = k.P
      ∧ s.wDiss = 4 * eta * Point.rate S.env k.e ^ 2 := by
  have he : k.eff S.env = k.e := by unfold Point.Node.eff; rw [hS.elastic]; simp
  have hup : ∀ p < S.n, ∃ o, Point.update S.env (S.mats p) (S.huet p) (k.input S.env) true = .ok o ∧ o.etaVE = eta
      ∧ o.pcorr = k.P ∧ o.wDiss = 4 * eta * Point.rate S.env k.e ^ 2 := by
    intro p hp
    obtain ⟨c1, c2, c3, c4, c5, c6, c7, c8⟩ := hS.mats p hp
    obtain ⟨o, o1, o2, o3, o4⟩ := Point.constant_update S.env (S.mats p) (S.huet p) (k.input S.env) true hS.elastic hS.mixing c1 c2 c3 c4 c5 c6
      (by rw [c7]; exact lt_of_lt_of_le hS.minEta hS.low) (by rw [c7]; exact hS.low) (by rw [c7]; exact hS.high) (by rw [c7]; exact hS.big) hS.sE
    have hE : (k.input S.env).E = k.e := he
    rw [c7] at o2 o4
    rw [hE] at o4
    exact ⟨o, o1, o2, o3, o4 rfl⟩
  choose! o ho1 ho2 ho3 ho4 using hup
  obtain ⟨s, e0, e1, -, e3, -, -, -, -, -, -, -, -, e4, -, -, -, -, e5, -⟩ := Point.cell_update S.env S.mean S.n S.mats S.huet k hair hw hS.minEta
    (le_trans hS.low hS.high) (fun p hp => (hS.mats p hp).2.2.2.2.2.2.2) o (fun p hp _ => ho1 p hp)
  have share_const : ∀ (g : Nat → ℝ) (x : ℝ), (∀ p < S.n, g p = x) → Spec.share S.n k.w g = x := fun g x hg => by
    unfold Spec.share
    rw [Finset.sum_congr rfl fun p hp => by rw [hg p (mem_range.1 hp)], ← Finset.sum_mul, hw.total, one_mul]
  have heta : s.eta = eta := by
    have hb := Point.mean_between S.mean S.n k.w (fun p => (o p).etaVE) eta eta hw (lt_of_lt_of_le hS.minEta hS.low)
      (fun p hp _ => by rw [ho2 p hp]; exact ⟨le_rfl, le_rfl⟩)
    rw [e1]; exact le_antisymm hb.2 hb.1
  refine ⟨s, e0, by rw [e3, heta, he], ?_, ?_⟩
  · rw [e4]; exact share_const _ _ ho3
  · rw [e5]; exact share_const _ _ ho4

/-- One rock vertex of such a fluid. -/
private theorem iso_vertex (S : Setting) (eta : ℝ) (hS : Isoviscous S eta) (k : Point.Node) (hair : k.air = false) (hw : Spec.Composition S.n k.w) :
    ∃ s, Point.vertexNode S.env S.mean S.n S.mats S.huet k = .ok s ∧ s.T = Point.nodeStress eta k.e := by
  have he : k.eff S.env = k.e := by unfold Point.Node.eff; rw [hS.elastic]; simp
  have hup : ∀ p < S.n, ∃ o, Point.update S.env (S.mats p) (S.huet p) (k.input S.env) false = .ok o ∧ o.etaVE = eta := by
    intro p hp
    obtain ⟨c1, c2, c3, c4, c5, c6, c7, c8⟩ := hS.mats p hp
    obtain ⟨o, o1, o2, -⟩ := Point.constant_update S.env (S.mats p) (S.huet p) (k.input S.env) false hS.elastic hS.mixing c1 c2 c3 c4 c5 c6
      (by rw [c7]; exact lt_of_lt_of_le hS.minEta hS.low) (by rw [c7]; exact hS.low) (by rw [c7]; exact hS.high) (by rw [c7]; exact hS.big) hS.sE
    rw [c7] at o2
    exact ⟨o, o1, o2⟩
  choose! o ho1 ho2 using hup
  obtain ⟨s, e0, e1, -, e3, -⟩ := Point.vertex_update S.env S.mean S.n S.mats S.huet k hair hw hS.minEta
    (le_trans hS.low hS.high) o (fun p hp _ => ho1 p hp)
  have heta : s.eta = eta := by
    have hb := Point.mean_between S.mean S.n k.w (fun p => (o p).etaVE) eta eta hw (lt_of_lt_of_le hS.minEta hS.low)
      (fun p hp _ => by rw [ho2 p hp]; exact ⟨le_rfl, le_rfl⟩)
    rw [e1]; exact le_antisymm hb.2 hb.1
  exact ⟨s, e0, by rw [e3, heta, he]⟩

/-- What a fluid of one viscosity records. -/
theorem isoviscous_recorded (S : Setting) (eta : ℝ) (hS : Isoviscous S eta) (f f' : LS.Fields) (t t' : Mech)
    (h : finishStep S f t = .ok (f', t')) :
    (∀ c < S.ncells, ¬ (S.m.tp c = 30 ∨ S.m.tp c = 31) →
      (t'.cells c).T = Point.nodeStress eta ⟨t'.rates.exx c, t'.rates.ezz c, t'.rates.exzN c⟩ ∧ f'.p c = f.p c
      ∧ (t'.cells c).wDiss = 4 * eta * Point.rate S.env ⟨t'.rates.exx c, t'.rates.ezz c, t'.rates.exzN c⟩ ^ 2)
    ∧ ∀ c < S.nverts, S.m.tg c ≠ 30 → (t'.verts c).T = Point.nodeStress eta ⟨t'.rates.exxS c, t'.rates.ezzS c, t'.rates.exz c⟩ := by
  unfold finishStep at h
  split at h
  · next t1 h1 =>
    simp only [Point.Outcome.ok.injEq, Prod.mk.injEq] at h
    obtain ⟨hf, rfl⟩ := h
    obtain ⟨-, -, -, -, -, a6, -, -, -⟩ := updateNL_ok h1
    have hs := (Point.grid_spec S.env S.mean S.n S.mats S.huet S.ncells S.nverts _ _ t.cells t.verts).1 _ _ a6
    refine ⟨fun c hc ha => ?_, fun c hc ha => ?_⟩
    · obtain ⟨s, s1, s2, s3, s4⟩ := iso_cell S eta hS (cellData S f t1.rates c) (by simp only [cellData]; exact decide_eq_false ha)
        (hS.cells c hc ha)
      have := hs.1 c hc
      rw [s1] at this
      simp only [Point.Outcome.ok.injEq] at this
      rw [← this]
      refine ⟨s2, ?_, s4⟩
      rw [← hf]
      simp only [LS.copyArr_apply, hc, if_true]
      rw [← this, s3]
      rfl
    · obtain ⟨s, s1, s2⟩ := iso_vertex S eta hS (vertData S t1.rates t1.Ts t1.Ps t1.ds t1.phis c) (by simp only [vertData]; exact decide_eq_false ha)
        (hS.verts c hc ha)
      have := hs.2.1 c hc
      rw [s1] at this
      simp only [Point.Outcome.ok.injEq] at this
      rw [← this]
      exact s2
  · exact absurd h (by simp)
  · exact absurd h (by simp)

/-- Such a fluid always gets to the end of a step. -/
theorem isoviscous_goes_on (S : Setting) (eta : ℝ) (hS : Isoviscous S eta) (f : LS.Fields) (t : Mech) :
    ∃ f' t', finishStep S f t = .ok (f', t') := by
  have hup : ∃ t', updateNL S true f t = .ok t' := by
    obtain ⟨⟨c, s⟩, e⟩ := (Point.grid_spec S.env S.mean S.n S.mats S.huet S.ncells S.nverts
      (cellData S f (Kin.strainRates (kinInp S f) t.rates))
      (vertData S (Kin.strainRates (kinInp S f) t.rates) (toVerts S (fun c => (S.cell c).T) t.Ts)
          (toVerts S f.p t.Ps) (toVerts S (fun c => (S.cell c).d) t.ds) (toVerts S (fun c => (S.cell c).phi) t.phis))
      t.cells t.verts).2
      (fun j hj => by
        by_cases ha : S.m.tp j = 30 ∨ S.m.tp j = 31
        · exact ⟨_, by unfold Point.cellNode; rw [if_pos (by simpa [cellData] using ha)]⟩
        · obtain ⟨s, s1, -⟩ := iso_cell S eta hS (cellData S f (Kin.strainRates (kinInp S f) t.rates) j)
            (by simp only [cellData]; exact decide_eq_false ha) (hS.cells j hj ha)
          exact ⟨s, s1⟩)
      (fun j hj => by
        by_cases ha : S.m.tg j = 30
        · exact ⟨_, by unfold Point.vertexNode; rw [if_pos (by simpa [vertData] using ha)]⟩
        · obtain ⟨s, s1, -⟩ := iso_vertex S eta hS (vertData S (Kin.strainRates (kinInp S f) t.rates) (toVerts S (fun c => (S.cell c).T) t.Ts)
            (toVerts S f.p t.Ps) (toVerts S (fun c => (S.cell c).d) t.ds) (toVerts S (fun c => (S.cell c).phi) t.phis) j)
            (by simp only [vertData]; exact decide_eq_false ha) (hS.verts j hj ha)
          exact ⟨s, s1⟩)
    unfold updateNL
    dsimp only
    rw [e]
    exact ⟨_, rfl⟩
  obtain ⟨t', ht⟩ := hup
  unfold finishStep
  rw [ht]
  exact ⟨_, _, rfl⟩

/-- C150.  **Heating never exceeds the work**: in a closed box filled with a fluid of one viscosity (any densities, with or without air and a free
surface) that obeys the equations, the recorded heating is not negative and at most the power of the body forces, up to the heating of the
lowest strain rate the code allows for (`1e-30` per second). -/
theorem heat_at_most_work (S : Setting) (eta : ℝ) (hS : Isoviscous S eta) (hx : 2 ≤ S.m.Nx) (hz : 2 ≤ S.m.Nz) (hdx : 0 < S.m.dx) (hdz : 0 < S.m.dz)
    (hs : S.m.stab = false) (f f' : LS.Fields) (t t' : Mech) (h : finishStep S f t = .ok (f', t')) (hb : ClosedFlow S f t') (hq : Solved S f t') :
    0 ≤ heatPower S t'
    ∧ heatPower S t' ≤ forcePower S f' t' + S.ncells * (S.m.dx * S.m.dz) * (4 * eta * (1 / 10 ^ 30 / S.env.sE) ^ 2) := by
  have h0 : 0 < eta := lt_of_lt_of_le hS.minEta hS.low
  obtain ⟨hc, hv⟩ := isoviscous_recorded S eta hS f f' t t' h
  have hI : ∀ e : Point.Tensor, 0 ≤ Point.invariant e := fun e => Real.sqrt_nonneg _
  have hnear := heat_near_work S hdx hdz f f' t t' h (4 * eta * (1 / 10 ^ 30 / S.env.sE) ^ 2) (by positivity) (fun c hcl ha => by
    obtain ⟨a1, -, a3⟩ := hc c hcl ha
    have e0 := Point.invariant_sq ⟨t'.rates.exx c, t'.rates.ezz c, t'.rates.exzN c⟩
    have e1 : Spec.power (Point.nodeStress eta ⟨t'.rates.exx c, t'.rates.ezz c, t'.rates.exzN c⟩)
        ⟨t'.rates.exx c, t'.rates.ezz c, t'.rates.exzN c⟩
        = 4 * eta * Point.invariant ⟨t'.rates.exx c, t'.rates.ezz c, t'.rates.exzN c⟩ ^ 2 := by
      have : Spec.power (Point.nodeStress eta ⟨t'.rates.exx c, t'.rates.ezz c, t'.rates.exzN c⟩)
        ⟨t'.rates.exx c, t'.rates.ezz c, t'.rates.exzN c⟩ = 2 * eta * Spec.power ⟨t'.rates.exx c, t'.rates.ezz c, t'.rates.exzN c⟩
        ⟨t'.rates.exx c, t'.rates.ezz c, t'.rates.exzN c⟩ := by unfold Spec.power Point.nodeStress; dsimp only; ring
      rw [this, ← e0]; ring
    rw [a1, a3, e1, ← mul_sub, abs_mul, abs_of_pos (by positivity)]
    refine mul_le_mul_of_nonneg_left ?_ (by positivity)
    have hi := hI ⟨t'.rates.exx c, t'.rates.ezz c, t'.rates.exzN c⟩
    unfold Point.rate
    generalize Point.invariant ⟨t'.rates.exx c, t'.rates.ezz c, t'.rates.exzN c⟩ = I at *
    have hsE := hS.sE
    split
    · next hlt =>
      have : I ≤ 1 / 10 ^ 30 / S.env.sE := by rw [le_div_iff₀ hsE]; exact hlt.le
      rw [abs_of_nonneg (by nlinarith)]
      nlinarith [sq_nonneg I]
    · rw [sub_self, abs_zero]; positivity)
  have hlose := shear_averaging_loses S hx hz hdx hdz f f' t t' h eta h0.le (fun c hcl ha => by rw [(hc c hcl ha).1]; rfl)
    (fun c hcl ha => by rw [hv c hcl ha]; rfl)
  have hbud := cell_budget S hx hz hdx.ne' hdz.ne' hs f f' t t' h hb hq
  refine ⟨?_, by linarith [(abs_le.1 hnear).2]⟩
  unfold heatPower
  refine mul_nonneg (by positivity) (Finset.sum_nonneg fun k hk => Finset.sum_nonneg fun l hl => ?_)
  have hcl : k + l * (S.m.Nx - 1) < S.ncells := cell_lt _ _ k l (mem_range.1 hk) (mem_range.1 hl)
  by_cases ha : S.m.tp (k + l * (S.m.Nx - 1) : Nat) = 30 ∨ S.m.tp (k + l * (S.m.Nx - 1) : Nat) = 31
  · rw [air_no_heat h _ hcl ha]
  · rw [(hc _ hcl ha).2.2]; positivity

/-! ### A small model in which heat is missing -/

/-- The mesh of `blockMesh` with sticking walls. -/
def boxMesh : SMesh ℝ :=
  { blockMesh with
    tu := fun c => if c % 3 ≠ 1 then 0 else if c = 1 ∨ c = 10 then 11 else -1
    tv := fun c => if c < 4 ∨ 8 ≤ c then 0 else if c = 4 ∨ c = 7 then 11 else -1
    comp := false }

/-- A fluid of viscosity `1e21`. -/
noncomputable def box : Setting :=
  { block with
    m := boxMesh
    env := Point.settings false
    comp := fun _ => false }

/-- What is on the mesh before: the left half is denser than the right half. -/
noncomputable def boxDens : Nat → ℝ := fun c => if c % 2 = 0 then 3240 else 3000

/-- The flow it drives: down on the left, up on the right. -/
noncomputable def boxFlow : LS.Fields where
  u := fun i => if i = 4 ∨ i = 10 then 1 / 10 ^ 13 else if i = 7 ∨ i = 1 then -(1 / 10 ^ 13) else 0
  v := fun i => if i = 6 ∨ i = 4 then 1 / 10 ^ 13 else if i = 5 ∨ i = 7 then -(1 / 10 ^ 13) else 0
  p := fun i => if i = 0 then 10 ^ 8 else if i = 1 then 10 ^ 8 - 6 * 10 ^ 5 else if i = 2 then 10 ^ 8 - 318 * 10 ^ 5
    else if i = 3 then 10 ^ 8 - 312 * 10 ^ 5 else 0

/-- The fluid has one viscosity. -/
theorem box_isoviscous : Isoviscous box (10 ^ 21) where
  elastic := rfl
  mixing := rfl
  minEta := by simp only [box, Point.settings]; norm_num
  low := by simp only [box, Point.settings]; norm_num
  high := by simp only [box, Point.settings]; norm_num
  big := by simp only [box, Point.settings]; norm_num
  sE := by simp only [box, Point.settings]; norm_num
  mats := fun p _ => by
    refine ⟨rfl, rfl, rfl, rfl, rfl, rfl, rfl, ?_⟩
    simp only [box, block, Point.viscous, Point.rock, Point.settings]
    norm_num
  cells := fun c _ _ => by
    refine ⟨fun p _ => Or.inr ?_, ?_⟩ <;> simp only [box, block, Point.halfHalf, Point.settings] <;> norm_num
  verts := fun c _ _ => by
    refine ⟨fun p _ => Or.inr ?_, ?_⟩ <;> simp only [box, block, Point.halfHalf, Point.settings] <;> norm_num

/-- Shear rates at the vertices of the box. -/
private theorem box_shear (r : Kin.Rates ℝ) (k l : Nat) (hk : k < 3) (hl : l < 3) :
    (Kin.strainRates (kinInp box boxFlow) r).exz (k + l * 3) =
      if k = 1 ∧ l ≠ 1 then 1 / 10 ^ 16 else if l = 1 ∧ k ≠ 1 then -(1 / 10 ^ 16) else 0 := by
  have e := shear_rate box boxFlow r k l hk hl
  have e2 : box.m.Nx = 3 := rfl
  have e3 : box.m.tg (k + l * box.m.Nx : Nat) ≠ 30 := by simp [box, boxMesh, blockMesh]
  rw [if_pos e3] at e
  rw [e2] at e
  rw [e]
  have d1 : box.m.dx = 1000 := rfl
  have d2 : box.m.dz = 1000 := rfl
  rw [d1, d2]
  interval_cases k <;> interval_cases l <;> norm_num [boxFlow]

/-- Rates of the cells of the box. -/
private theorem box_rates (r : Kin.Rates ℝ) (k l : Nat) (hk : k < 2) (hl : l < 2) :
    (Kin.strainRates (kinInp box boxFlow) r).divu (k + l * 2) = 0
    ∧ (Kin.strainRates (kinInp box boxFlow) r).exx (k + l * 2) = (if k = l then 1 / 10 ^ 16 else -(1 / 10 ^ 16))
    ∧ (Kin.strainRates (kinInp box boxFlow) r).ezz (k + l * 2) = (if k = l then -(1 / 10 ^ 16) else 1 / 10 ^ 16)
    ∧ (Kin.strainRates (kinInp box boxFlow) r).exzN (k + l * 2) = 0 := by
  have ha : ¬ (box.m.tp (k + l * (box.m.Nx - 1) : Nat) = 30 ∨ box.m.tp (k + l * (box.m.Nx - 1) : Nat) = 31) := by
    simp [box, boxMesh, blockMesh]
  obtain ⟨a1, a2, a3⟩ := cell_rates box boxFlow r k l hk hl ha
  have a4 := cell_shear box boxFlow r k l hk hl ha
  have e2 : box.m.Nx = 3 := rfl
  have d1 : box.m.dx = 1000 := rfl
  have d2 : box.m.dz = 1000 := rfl
  have d3 : box.m.oop = false := rfl
  have d4 : box.m.comp = false := rfl
  dsimp only at a1 a2 a3 a4
  rw [e2] at a1 a2 a3 a4
  rw [d1, d2, d3] at a1
  rw [d1, d2, d3, d4] at a2 a3
  rw [box_shear r k l (by omega) (by omega), box_shear r (k + 1) l (by omega) (by omega), box_shear r k (l + 1) (by omega) (by omega),
    box_shear r (k + 1) (l + 1) (by omega) (by omega)] at a4
  refine ⟨a1.trans ?_, a2.trans ?_, a3.trans ?_, a4.trans ?_⟩ <;>
    (clear a1 a2 a3 a4 ha; interval_cases k <;> interval_cases l <;> norm_num [boxFlow, flag])

/-- C150.  **Heat can be missing**: in this box the flow obeys all equations and nothing is stored elastically, the gravity drives it with the power
`24e-5`, and the recorded heating is `16e-5`: a third of the energy is gone.  The work of the shear at the walls and at the vertices is
done by shear rates of alternating sign, whose mean in each cell is zero. -/
theorem heat_falls_short (t : Mech) (ht : t.rho = boxDens) : ∃ f' t', finishStep box boxFlow t = .ok (f', t') ∧ ClosedFlow box boxFlow t'
    ∧ Solved box boxFlow t' ∧ forcePower box f' t' = 24 / 10 ^ 5 ∧ heatPower box t' = 16 / 10 ^ 5 := by
  obtain ⟨f', t', h⟩ := isoviscous_goes_on box _ box_isoviscous boxFlow t
  obtain ⟨hc, hv⟩ := isoviscous_recorded box _ box_isoviscous boxFlow f' t t' h
  obtain ⟨h1, h2⟩ := fin_ok h
  obtain ⟨hr, -, -, -, -, -, hrho, hbx, hbz⟩ := updateNL_ok h1
  have hrho : t'.rho = boxDens := by rw [hrho, ← ht]; rfl
  have ha : ∀ c : Nat, ¬ (box.m.tp c = 30 ∨ box.m.tp c = 31) := fun c => by simp [box, boxMesh, blockMesh]
  have hg : ∀ c : Nat, box.m.tg c ≠ 30 := fun c => by simp [box, boxMesh, blockMesh]
  have eN : box.m.Nx = 3 := rfl
  have eM : box.m.Nz = 3 := rfl
  have d1 : box.m.dx = 1000 := rfl
  have d2 : box.m.dz = 1000 := rfl
  have hbx0 : ∀ i < 12, t'.bx i = 0 := fun i hi => by
    rw [hbx]; unfold written
    rw [if_pos (show i < box.m.Nx * (box.m.Nz + 1) from hi)]
    simp [Resid.rogerX, box, block]
  have hbz1 : t'.bz 5 = -32400 := by
    rw [hbz]; unfold written
    rw [if_pos (show 5 < (box.m.Nx + 1) * box.m.Nz by decide), hrho]
    norm_num [Resid.rogerZ, meshRho, box, boxMesh, blockMesh, block, Setting.arr, boxDens, show Int.toNat 2 = 2 from rfl, show Int.toNat 3 = 3 from rfl]
  have hbz2 : t'.bz 6 = -30000 := by
    rw [hbz]; unfold written
    rw [if_pos (show 6 < (box.m.Nx + 1) * box.m.Nz by decide), hrho]
    norm_num [Resid.rogerZ, meshRho, box, boxMesh, blockMesh, block, Setting.arr, boxDens, show Int.toNat 2 = 2 from rfl, show Int.toNat 3 = 3 from rfl]
  have hbz3 : ∀ i, i = 4 ∨ i = 7 → t'.bz i = 0 := fun i hi => by
    rw [hbz]; unfold written
    rcases hi with rfl | rfl
    · rw [if_pos (show 4 < (box.m.Nx + 1) * box.m.Nz by decide)]; norm_num [Resid.rogerZ, box, boxMesh, blockMesh]
    · rw [if_pos (show 7 < (box.m.Nx + 1) * box.m.Nz by decide)]; norm_num [Resid.rogerZ, meshRho, box, boxMesh, blockMesh]
  have hT : ∀ k < 2, ∀ l < 2, (t'.cells (k + l * 2)).T.xx = (if k = l then 2 * 10 ^ 5 else -(2 * 10 ^ 5))
      ∧ (t'.cells (k + l * 2)).T.zz = (if k = l then -(2 * 10 ^ 5) else 2 * 10 ^ 5) ∧ f'.p (k + l * 2) = boxFlow.p (k + l * 2)
      ∧ (t'.cells (k + l * 2)).wDiss = 4 / 10 ^ 11 := fun k hk l hl => by
    obtain ⟨-, b2, b3, b4⟩ := box_rates t.rates k l hk hl
    obtain ⟨c1, c2, c3⟩ := hc (k + l * 2) (cell_lt 2 2 k l hk hl) (ha _)
    rw [← hr] at b2 b3 b4
    rw [b2, b3, b4] at c1 c3
    refine ⟨?_, ?_, c2, ?_⟩
    · rw [c1]; unfold Point.nodeStress; split <;> norm_num
    · rw [c1]; unfold Point.nodeStress; split <;> norm_num
    · have hi : Point.invariant ⟨if k = l then 1 / 10 ^ 16 else -(1 / 10 ^ 16), if k = l then -(1 / 10 ^ 16) else 1 / 10 ^ 16, 0⟩ = 1 / 10 ^ 16 := by
        have := Point.invariant_sq ⟨if k = l then 1 / 10 ^ 16 else -(1 / 10 ^ 16), if k = l then -(1 / 10 ^ 16) else 1 / 10 ^ 16, 0⟩
        have h0 : 0 ≤ Point.invariant ⟨if k = l then 1 / 10 ^ 16 else -(1 / 10 ^ 16), if k = l then -(1 / 10 ^ 16) else 1 / 10 ^ 16, 0⟩ :=
          Real.sqrt_nonneg _
        refine (sq_eq_sq₀ h0 (by positivity)).1 ?_
        unfold Spec.power at this
        dsimp only at this
        split at this <;> simp_all <;> linarith
      rw [c3]
      unfold Point.rate
      rw [hi, if_neg (by simp only [box, Point.settings]; norm_num)]
      norm_num
  have hS : ∀ k < 3, ∀ l < 3, (t'.verts (k + l * 3)).T.xz =
      if k = 1 ∧ l ≠ 1 then 2 * 10 ^ 5 else if l = 1 ∧ k ≠ 1 then -(2 * 10 ^ 5) else 0 := fun k hk l hl => by
    have b := box_shear t.rates k l hk hl
    rw [← hr] at b
    rw [hv (k + l * 3) (cell_lt 3 3 k l hk hl) (hg _)]
    unfold Point.nodeStress
    dsimp only
    rw [b]
    split
    · norm_num
    · split <;> norm_num
  obtain ⟨x00, z00, p00, w00⟩ := hT 0 (by decide) 0 (by decide)
  obtain ⟨x10, z10, p10, w10⟩ := hT 1 (by decide) 0 (by decide)
  obtain ⟨x01, z01, p01, w01⟩ := hT 0 (by decide) 1 (by decide)
  obtain ⟨x11, z11, p11, w11⟩ := hT 1 (by decide) 1 (by decide)
  have s10 := hS 1 (by decide) 0 (by decide)
  have s11 := hS 1 (by decide) 1 (by decide)
  have s12 := hS 1 (by decide) 2 (by decide)
  have s01 := hS 0 (by decide) 1 (by decide)
  have s21 := hS 2 (by decide) 1 (by decide)
  norm_num [boxFlow] at x00 x10 x01 x11 z00 z10 z01 z11 p00 p10 p01 p11 s10 s11 s12 s01 s21 w00 w10 w01 w11
  refine ⟨f', t', h, ?_, ?_, ?_, ?_⟩
  · constructor <;> intro i hi <;> simp only [eN, eM] at hi ⊢ <;> (try left) <;> interval_cases i <;> norm_num [boxFlow]
  · refine ⟨fun k l hk hk' hl hl' _ => ?_, fun k l hk hk' hl hl' _ => ?_, ⟨rfl, fun c _ => ⟨rfl, rfl⟩⟩, fun c hcl _ => ?_⟩
    · have hk1 : k = 1 := by rw [eN] at hk'; omega
      have hl2 : l = 1 ∨ l = 2 := by rw [eM] at hl'; omega
      have htag : box.m.tu (k + l * box.m.Nx : Nat) ≠ -2 := by
        rcases hl2 with rfl | rfl <;> subst hk1 <;> norm_num [box, boxMesh, blockMesh]
      refine ⟨htag, ?_⟩
      have e := recorded_force_balance box (by rw [eN]; norm_num) rfl boxFlow f' t t' h k l hk hk' hl hl' htag
      dsimp only at e
      rw [e, eN, d1, d2]
      rcases hl2 with rfl | rfl <;> subst hk1
      · norm_num [x00, x10, p00, p10, s10, s11, hbx0]
      · norm_num [x01, x11, p01, p11, s11, s12, hbx0]
    · have hl1 : l = 1 := by rw [eM] at hl'; omega
      have hk2 : k = 1 ∨ k = 2 := by rw [eN] at hk'; omega
      have e := recorded_force_balance_z box (by rw [eN]; norm_num) rfl boxFlow f' t t' h k l hk hk' hl hl'
      dsimp only at e
      rw [e, eN, d1, d2]
      rcases hk2 with rfl | rfl <;> subst hl1
      · norm_num [z00, z01, p00, p01, s01, s11, hbz1]
      · norm_num [z10, z11, p10, p11, s11, s21, hbz2]
    · have hdiv : t'.rates.divu c = 0 := by
        have hcl : c < 4 := hcl
        rw [hr]
        have := (box_rates t.rates (c % 2) (c / 2) (by omega) (by omega)).1
        rwa [show c % 2 + c / 2 * 2 = c by omega] at this
      simp [rows, Resid.contResidual, hdiv, box, block, boxMesh, blockMesh, flag]
  · have e : f' = { boxFlow with p := f'.p } := by rw [h2]
    unfold forcePower
    rw [e, d1, d2, eN, eM]
    simp only [Finset.sum_range_succ, Finset.sum_range_zero, boxFlow]
    norm_num [hbx0, hbz1, hbz2, hbz3 4 (by simp), hbz3 7 (by simp)]
  · unfold heatPower
    rw [d1, d2, eN, eM]
    simp only [show 3 - 1 = 2 from rfl, Finset.sum_range_succ, Finset.sum_range_zero]
    norm_num [w00, w10, w01, w11]

/-- The hypotheses of `power_balance`, `cell_budget` and `heat_at_most_work` are met by the box: the heating is `16e-5` and the bound is `24e-5`
and a little. -/
example (t : Mech) (ht : t.rho = boxDens) : ∃ f' t', finishStep box boxFlow t = .ok (f', t')
    ∧ cellPower box t' = forcePower box f' t' - (vertexShearPower box t' - cellShearPower box t')
    ∧ heatPower box t' ≤ forcePower box f' t' + box.ncells * (box.m.dx * box.m.dz) * (4 * 10 ^ 21 * (1 / 10 ^ 30 / box.env.sE) ^ 2) := by
  obtain ⟨f', t', h, hb, hq, -, -⟩ := heat_falls_short t ht
  have d1 : box.m.dx = 1000 := rfl
  have d2 : box.m.dz = 1000 := rfl
  exact ⟨f', t', h, cell_budget box (by decide) (by decide) (by rw [d1]; norm_num) (by rw [d2]; norm_num) rfl boxFlow f' t t' h hb hq,
    (heat_at_most_work box _ box_isoviscous (by decide) (by decide) (by rw [d1]; norm_num) (by rw [d2]; norm_num) rfl boxFlow f' t t' h hb hq).2⟩

end Verif.StepFlow
