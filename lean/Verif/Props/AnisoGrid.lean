import Verif.Props.AnisoLaw
import Verif.Props.ViscGridStress

/-!
C135 (faults), C136, C137, C138: anisotropic cells and vertices, the anisotropy factor, and compressibility along a run.
-/
namespace Verif.Point
open Verif Verif.Spec

/-! ### Constant viscosity -/

private theorem iter_exact (c : LocalIter.Creep) (E tol : ℝ) (ht : 0 < tol) (hE : E ≠ 0) (n : Nat) (eta t : ℝ)
    (h : LocalIter.residual c E eta = 0) (hs : LocalIter.slope c E eta ≠ 0) :
    iterAniso c E tol (n + 1) eta t = .ok eta (2 * eta * E) := by
  simp only [iterAniso, h, zero_div, abs_zero, sub_zero]
  rw [if_neg (by simp [hE, hs]), if_pos (by positivity)]

private theorem constant_run (m : Mat) (i : In) (v : Env) (hel : v.el = false) (hcst : m.cst = true)
    (hpwl : m.pwl = false) (hexp : m.exp = false) (hlin : m.lin = false) (h0 : 0 < m.eta0) (hb : m.eta0 ≤ 10 ^ 100 / v.sEta)
    (E : ℝ) (hE : 0 < E) :
    creepAniso v m i = { el := none, cst := some m.eta0, pwl := none, exp := none, lin := none, gbs := none, d := i.d }
    ∧ runAniso (creepAniso v m i) E (1 / 10 ^ 11) (10 ^ 100 / v.sEta) = .ok m.eta0 (2 * m.eta0 * E) := by
  have hc : creepAniso v m i = { el := none, cst := some m.eta0, pwl := none, exp := none, lin := none, gbs := none, d := i.d } := by
    unfold creepAniso; simp [hel, hcst, hpwl, hexp, hlin]
  refine ⟨hc, ?_⟩
  rw [hc]
  have hg : LocalIter.guess { el := none, cst := some m.eta0, pwl := none, exp := none, lin := none, gbs := none, d := i.d }
      E (10 ^ 100 / v.sEta) = m.eta0 := by
    unfold LocalIter.guess LocalIter.isolated
    simp only [Option.toList_some, Option.toList_none, List.map_nil, List.append_nil, List.foldl_cons, List.foldl_nil]
    exact min_eq_right hb
  have hres : LocalIter.residual { el := none, cst := some m.eta0, pwl := none, exp := none, lin := none, gbs := none, d := i.d }
      E m.eta0 = 0 := by
    unfold LocalIter.residual LocalIter.elasticRate LocalIter.rates
    simp only [Option.toList_some, Option.toList_none, List.map_nil, List.map_cons, List.append_nil,
      List.sum_cons, List.sum_nil, add_zero, sub_zero]
    field_simp
    norm_num
  have hsl : LocalIter.slope { el := none, cst := some m.eta0, pwl := none, exp := none, lin := none, gbs := none, d := i.d }
      E m.eta0 ≠ 0 := by
    unfold LocalIter.slope
    simp only [Option.toList_some, Option.toList_none, List.map_nil, List.map_cons, List.sum_cons, List.sum_nil, zero_add, add_zero]
    have : 0 < E / m.eta0 := by positivity
    rw [neg_div]; linarith
  unfold runAniso
  rw [hg]
  exact iter_exact _ E _ (by positivity) hE.ne' 19 _ _ hres hsl

/-- A phase of constant viscosity keeps exactly that viscosity: the limits of the user do not act. -/
theorem aniso_constant (v : Env) (m : Mat) (i : In) (angle ani : ℝ) (hel : v.el = false) (hcst : m.cst = true)
    (hpwl : m.pwl = false) (hexp : m.exp = false) (hlin : m.lin = false) (hpl : m.plast = false) (h0 : 0 < m.eta0)
    (hb : m.eta0 ≤ 10 ^ 100 / v.sEta) (hE : 0 < invariant i.E) :
    ∃ o, updateAniso v m i angle ani true = .ok o ∧ o.etaVE = m.eta0 ∧ o.eta = m.eta0
      ∧ o.T = layerStress angle m.eta0 ani i.E ∧ o.wDiss = 4 * m.eta0 * invariant i.E ^ 2 := by
  have hinv : invariant (layerRate angle i.E) = invariant i.E := by
    rw [layerRate_turn]; exact invariant_turn _ _
  obtain ⟨hc, hrun⟩ := constant_run m i v hel hcst hpwl hexp hlin h0 hb _ hE
  have hy : ∀ t, ¬ Yields m i t := fun t h => by simp [Yields, hpl] at h
  have hg : ∀ x t, plasticRate v m i x t = 0 := fun x t => by unfold plasticRate; rw [if_neg (hy t)]
  have hiv : ∀ t, inverse (creepAniso v m i) i.d (powerRate (creepAniso v m i).exp t) (powerRate (creepAniso v m i).pwl t)
      (linRate (creepAniso v m i) t) none = 1 / m.eta0 := by
    intro t; rw [hc]; simp [inverse, powerInv, linInv, cstInv]
  unfold updateAniso
  rw [if_neg (by simp [hlin])]
  dsimp only
  rw [hinv, hrun]
  unfold finishAniso
  simp only [hy, hg, if_false, false_and, hiv]
  rw [if_neg (by positivity)]
  refine ⟨_, rfl, rfl, by simp, rfl, ?_⟩
  simp only [if_true, zero_mul, sub_zero]
  field_simp
  ring

/-- So a viscosity above the upper limit goes into the Stokes equations. -/
theorem aniso_limits_ignored : ∃ (v : Env) (m : Mat) (i : In) (o : Out), v.minEta < v.maxEta
    ∧ updateAniso v m i 0 2 true = .ok o ∧ v.maxEta < o.etaVE := by
  have hE : invariant (node (1 / 10 ^ 15) (10 ^ 8)).E = 1 / 10 ^ 15 := by
    unfold invariant node
    dsimp only
    rw [show (1 : ℝ) / 2 * (1 / 10 ^ 15 * (1 / 10 ^ 15) + -(1 / 10 ^ 15) * -(1 / 10 ^ 15)
      + -(1 / 10 ^ 15 + -(1 / 10 ^ 15)) * -(1 / 10 ^ 15 + -(1 / 10 ^ 15))) + 0 * 0 = (1 / 10 ^ 15) ^ 2 by ring,
      Real.sqrt_sq (by positivity)]
  obtain ⟨o, h1, h2, _⟩ := aniso_constant (settings false) (viscous (10 ^ 30)) (node (1 / 10 ^ 15) (10 ^ 8)) 0 2 rfl rfl rfl rfl rfl rfl
    (by simp only [viscous]; positivity) (by simp only [viscous, settings]; norm_num) (by rw [hE]; positivity)
  refine ⟨_, _, _, o, ?_, h1, ?_⟩
  · simp only [settings]; norm_num
  · rw [h2]; simp only [viscous, settings]; norm_num

/-- With a compressibility of zero an anisotropic material that yields gives a number that is not finite: no result with
plastic strain rate is ever returned. -/
theorem aniso_zero_beta (v : Env) (m : Mat) (i : In) (angle ani : ℝ) (cell : Bool) (hel : v.el = false) (hcst : m.cst = true)
    (hpwl : m.pwl = false) (hexp : m.exp = false) (hlin : m.lin = false) (hpl : m.plast = true) (h0 : 0 < m.eta0)
    (hb : m.eta0 ≤ 10 ^ 100 / v.sEta) (hE : 0 < invariant i.E) (hbeta : i.beta = 0)
    (hstrong : yieldStrength m i + 1 / 10 ^ 17 < 2 * m.eta0 * invariant i.E) :
    updateAniso v m i angle ani cell = .nan := by
  have hinv : invariant (layerRate angle i.E) = invariant i.E := by
    rw [layerRate_turn]; exact invariant_turn _ _
  obtain ⟨_, hrun⟩ := constant_run m i v hel hcst hpwl hexp hlin h0 hb _ hE
  have hy : Yields m i (2 * m.eta0 * invariant i.E) := ⟨hpl, by rw [strengthAniso_eq]; linarith⟩
  unfold updateAniso
  rw [if_neg (by simp [hlin])]
  dsimp only
  rw [hinv, hrun]
  unfold finishAniso
  dsimp only
  rw [if_pos ⟨hy, Or.inl hbeta⟩]

/-! ### C136 -/

theorem aniso_positive (v : Env) (m : Mat) (i : In) (angle ani : ℝ) (cell : Bool) (hs : Sound v m i)
    (hE : 0 < invariant i.E)
    (hbig : ∃ x ∈ LocalIter.isolated (creepAniso v m i) (invariant i.E), x ≤ 10 ^ 100 / v.sEta)
    (hp : m.plast = true → GoodPlastic v m i)
    (o : Out) (hr : updateAniso v m i angle ani cell = .ok o) : 0 < o.etaVE ∧ 0 < o.eta ∧ o.d1 = i.d := by
  obtain ⟨etaVe, tii, h, _, _⟩ := aniso_facts v m i angle ani cell hs hE hbig o hr
  obtain ⟨_, _, hpos⟩ := h.stress hs hE hp
  refine ⟨hpos, ?_, h.d1⟩
  rw [h.inv]
  have hne := h.ne
  have hV := viscous_nonneg _ (creepAniso_physical v m i hs) tii h.pos
  have h1 : 0 ≤ 2 * creepRate (creepAniso v m i) tii / tii := div_nonneg (by linarith) h.pos.le
  by_cases hy : Yields m i tii
  · obtain ⟨_, hg, _, _, hy0⟩ := plastic_facts v m i (hp hy.1) hs.dt etaVe tii h.eta hy
    rw [if_pos hy]
    positivity
  · rw [if_neg hy, add_zero] at hne ⊢
    exact one_div_pos.2 (lt_of_le_of_ne h1 (Ne.symm hne))

/-- What holds at a node where every phase present has meaningful parameters. -/
structure GoodNode (v : Env) (n : Nat) (m : Nat → Mat) (k : ANode) : Prop where
  rock : k.air = false
  w : Composition n k.w
  moves : 0 < invariant (k.eff v)
  sound : ∀ p < n, 0 < k.w p → Sound v (m p) (k.input v)
  plastic : ∀ p < n, 0 < k.w p → (m p).plast = true → GoodPlastic v (m p) (k.input v)
  bounded : ∀ p < n, 0 < k.w p →
    ∃ x ∈ LocalIter.isolated (creepAniso v (m p) (k.input v)) (invariant (k.eff v)), x ≤ 10 ^ 100 / v.sEta

/-- The director functions of the node are those of the angle used by the update of the phases. -/
def ANode.Aligned (k : ANode) : Prop :=
  k.d1 = Aniso.markerD1 (Real.cos k.angle) (Real.sin k.angle) ∧ k.d2 = Aniso.markerD2 (Real.cos k.angle) (Real.sin k.angle)

theorem grid_stress (k : ANode) (hk : k.Aligned) (ha : k.ani ≠ 0) (eta : ℝ) (e : Tensor) :
    k.stress eta e = layerStress k.angle eta k.ani e := by
  unfold ANode.stress layerStress
  rw [hk.1, hk.2, ← Aniso.rotated_is_grid _ _ _ _ (Real.cos_sq_add_sin_sq k.angle) ha]
  unfold Aniso.layerOf
  dsimp only
  rw [Real.cos_sub_pi_div_two, Real.sin_sub_pi_div_two]

private theorem harmonic_ne (a : Mean) (n : Nat) (w x : Nat → ℝ) (hw : Composition n w) (hx : ∀ p < n, 0 < w p → 0 < x p) :
    ¬ (a.isHarmonic = true ∧ ∑ p ∈ Finset.range n, a.term (w p) (x p) = 0) := by
  rintro ⟨h1, h2⟩
  have hpos : (0 : ℝ) < 1 / 10 ^ 13 := by positivity
  cases a with
  | arithmetic => simp [Mean.isHarmonic] at h1
  | geometric => simp [Mean.isHarmonic] at h1
  | harmonic =>
    have hterm : ∀ p ∈ Finset.range n, 0 ≤ Mean.harmonic.term (w p) (x p) := by
      intro p hp
      rcases hw.each p (Finset.mem_range.1 hp) with h | h
      · simp [Mean.term, h]
      · have h0 := lt_trans hpos h
        have := hx p (Finset.mem_range.1 hp) h0
        simp only [Mean.term]; positivity
    have hz := (Finset.sum_eq_zero_iff_of_nonneg hterm).1 h2
    have : ∀ p ∈ Finset.range n, w p = 0 := by
      intro p hp
      rcases hw.each p (Finset.mem_range.1 hp) with h | h
      · exact h
      · have h0 := lt_trans hpos h
        have hxp := hx p (Finset.mem_range.1 hp) h0
        have := hz p hp
        simp only [Mean.term] at this
        have h3 : 0 < w p * 1 / x p := by positivity
        linarith
    have ht := hw.total
    rw [Finset.sum_eq_zero this] at ht
    exact zero_ne_one ht

/-- An anisotropic cell of rock in which every phase present could be updated: viscosities are the chosen mean of those of the
phases, between the smallest and the largest; the stress is that of the layered material with the mean viscosity; strain
rates, heat and corrected pressure are averages by fractions; the grain size of the node is kept. -/
theorem aniso_cell (v : Env) (a : Mean) (n : Nat) (m : Nat → Mat) (k : ANode) (hk : GoodNode v n m k)
    (hal : k.Aligned) (hani : k.ani ≠ 0) (hd : 0 < k.d) (o : Nat → Out)
    (ho : ∀ p < n, 0 < k.w p → updateAniso v (m p) (k.input v) k.angle k.ani true = .ok (o p)) :
    ∃ s, k.cell v a n m = .ok s
      ∧ s.eta = mean a n k.w (fun p => (o p).etaVE) ∧ s.etaPhys = mean a n k.w (fun p => (o p).eta)
      ∧ Layered k.angle s.eta k.ani s.T (k.eff v)
      ∧ s.eIIel = share n k.w (fun p => (o p).eIIel) ∧ s.eIIpl = share n k.w (fun p => (o p).eIIpl)
      ∧ s.eIIcst = share n k.w (fun p => (o p).eIIcst) ∧ s.eIIpwl = share n k.w (fun p => (o p).eIIpwl)
      ∧ s.eIIexp = share n k.w (fun p => (o p).eIIexp) ∧ s.eIIlin = share n k.w (fun p => (o p).eIIlin)
      ∧ s.eIIgbs = share n k.w (fun p => (o p).eIIgbs) ∧ s.d = k.d
      ∧ s.pcorr = share n k.w (fun p => (o p).pcorr) ∧ s.divEl = share n k.w (fun p => (o p).divEl)
      ∧ s.divPl = share n k.w (fun p => (o p).divPl) ∧ s.wTot = share n k.w (fun p => (o p).wTot)
      ∧ s.wEl = share n k.w (fun p => (o p).wEl) ∧ s.wDiss = share n k.w (fun p => (o p).wDiss)
      ∧ s.overS = share n k.w (fun p => (o p).overS)
      ∧ ∀ lo hi, 0 < lo → (∀ p < n, 0 < k.w p → lo ≤ (o p).etaVE ∧ (o p).etaVE ≤ hi) → lo ≤ s.eta ∧ s.eta ≤ hi := by
  have hpos : (0 : ℝ) < 1 / 10 ^ 13 := by positivity
  have hw := hk.w
  have hsign : ∀ p < n, k.w p = 0 ∨ 0 < k.w p := fun p hp => (hw.each p hp).imp id fun h => lt_trans hpos h
  have hq := fun p (hp : p < n) (h0 : 0 < k.w p) => aniso_positive v (m p) (k.input v) k.angle k.ani true (hk.sound p hp h0)
    hk.moves (hk.bounded p hp h0) (hk.plastic p hp h0) (o p) (ho p hp h0)
  have c1 := close_mean a n k.w (fun p => (o p).etaVE) fun p hp => (hsign p hp).imp id fun h0 => (hq p hp h0).1
  have c2 := close_mean a n k.w (fun p => (o p).eta) fun p hp => (hsign p hp).imp id fun h0 => (hq p hp h0).2.1
  have hdd : ∑ p ∈ Finset.range n, k.w p * 1 / (o p).d1 = 1 / k.d := by
    have : ∑ p ∈ Finset.range n, k.w p * 1 / (o p).d1 = ∑ p ∈ Finset.range n, k.w p * (1 / k.d) := by
      refine Finset.sum_congr rfl fun p hp => ?_
      rcases hsign p (Finset.mem_range.1 hp) with h | h
      · simp [h]
      · rw [(hq p (Finset.mem_range.1 hp) h).2.2]; show k.w p * 1 / k.d = _; ring
    rw [this, ← Finset.sum_mul, hw.total, one_mul]
  have hcell : k.cell v a n m = k.closeCell a (k.eff v) (sums a n k.w o) := by
    unfold ANode.cell
    rw [hk.rock, loop_sums a k.w _ o n hw.each ho]
    simp
  rw [hcell]
  have hne : ¬ (a.isHarmonic = true ∧ (sums a n k.w o).etaPhys = 0) :=
    harmonic_ne a n k.w (fun p => (o p).eta) hw fun p hp h0 => (hq p hp h0).2.1
  unfold ANode.closeCell
  rw [if_neg hne, if_neg (by simp only [sums]; rw [hdd]; positivity)]
  refine ⟨_, rfl, c1, c2, ?_, rfl, rfl, rfl, rfl, rfl, rfl, rfl, ?_, rfl, rfl, rfl, rfl, rfl, rfl, rfl, ?_⟩
  · rw [grid_stress k hal hani]; exact layerStress_layered _ _ _ hani _
  · simp only [sums, hdd, one_div_one_div]
  · intro lo hi hlo hb
    simp only [sums, c1]
    exact mean_between a n k.w (fun p => (o p).etaVE) lo hi hw hlo hb

/-- The same at a vertex. -/
theorem aniso_vertex (v : Env) (a : Mean) (n : Nat) (m : Nat → Mat) (k : ANode) (hk : GoodNode v n m k)
    (hal : k.Aligned) (hani : k.ani ≠ 0) (o : Nat → Out)
    (ho : ∀ p < n, 0 < k.w p → updateAniso v (m p) (k.input v) k.angle k.ani false = .ok (o p)) :
    ∃ s, k.vertex v a n m = .ok s
      ∧ s.eta = mean a n k.w (fun p => (o p).etaVE) ∧ s.etaPhys = mean a n k.w (fun p => (o p).eta)
      ∧ Layered k.angle s.eta k.ani s.T (k.eff v)
      ∧ ∀ lo hi, 0 < lo → (∀ p < n, 0 < k.w p → lo ≤ (o p).etaVE ∧ (o p).etaVE ≤ hi) → lo ≤ s.eta ∧ s.eta ≤ hi := by
  have hpos : (0 : ℝ) < 1 / 10 ^ 13 := by positivity
  have hw := hk.w
  have hsign : ∀ p < n, k.w p = 0 ∨ 0 < k.w p := fun p hp => (hw.each p hp).imp id fun h => lt_trans hpos h
  have hq := fun p (hp : p < n) (h0 : 0 < k.w p) => aniso_positive v (m p) (k.input v) k.angle k.ani false (hk.sound p hp h0)
    hk.moves (hk.bounded p hp h0) (hk.plastic p hp h0) (o p) (ho p hp h0)
  have c1 := close_mean a n k.w (fun p => (o p).etaVE) fun p hp => (hsign p hp).imp id fun h0 => (hq p hp h0).1
  have c2 := close_mean a n k.w (fun p => (o p).eta) fun p hp => (hsign p hp).imp id fun h0 => (hq p hp h0).2.1
  have hcell : k.vertex v a n m = k.closeVertex a (k.eff v) (sums a n k.w o) := by
    unfold ANode.vertex
    rw [hk.rock, loop_sums a k.w _ o n hw.each ho]
    simp
  rw [hcell]
  have hne : ¬ (a.isHarmonic = true ∧ (sums a n k.w o).etaPhys = 0) :=
    harmonic_ne a n k.w (fun p => (o p).eta) hw fun p hp h0 => (hq p hp h0).2.1
  unfold ANode.closeVertex
  rw [if_neg hne]
  refine ⟨_, rfl, c1, c2, ?_, ?_⟩
  · rw [grid_stress k hal hani]; exact layerStress_layered _ _ _ hani _
  · intro lo hi hlo hb
    simp only [sums, c1]
    exact mean_between a n k.w (fun p => (o p).etaVE) lo hi hw hlo hb

/-- A cell of rock at rest ends the program, if any phase is present. -/
theorem aniso_cell_rest_stops (v : Env) (a : Mean) (n : Nat) (m : Nat → Mat) (k : ANode) (hair : k.air = false)
    (he : k.eff v = ⟨0, 0, 0⟩) (hw : Composition n k.w) : k.cell v a n m = .exit 1 := by
  have hr : ∀ p, updateAniso v (m p) (k.input v) k.angle k.ani true = .exit 1 := fun p =>
    aniso_rest_stops v (m p) (k.input v) k.angle k.ani true he
  have hpos : (0 : ℝ) < 1 / 10 ^ 13 := by positivity
  have key : ∀ j, j ≤ n →
      (forUp j (.ok Stored.zero) (phaseStep a k.w fun p => updateAniso v (m p) (k.input v) k.angle k.ani true) = .exit 1)
      ∨ (∀ p < j, k.w p = 0) ∧ ∃ s,
        forUp j (.ok Stored.zero) (phaseStep a k.w fun p => updateAniso v (m p) (k.input v) k.angle k.ani true) = .ok s := by
    intro j
    induction j with
    | zero => intro _; exact Or.inr ⟨fun p hp => absurd hp (by omega), _, rfl⟩
    | succ j ih =>
      intro hj
      rw [forUp_succ]
      rcases ih (by omega) with h | ⟨hz, s, h⟩
      · rw [h]; exact Or.inl rfl
      · rw [h]
        rcases hw.each j (by omega) with h0 | h0
        · right
          refine ⟨fun p hp => ?_, s, ?_⟩
          · rcases Nat.lt_succ_iff_lt_or_eq.1 hp with h1 | h1
            · exact hz p h1
            · rw [h1]; exact h0
          · simp only [phaseStep, h0, abs_zero, not_lt.2 hpos.le, if_false]
        · left
          have hp := lt_trans hpos h0
          simp only [phaseStep, abs_of_pos hp, h0, if_true, hr]
  unfold ANode.cell
  rw [hair]
  simp only [Bool.false_eq_true, if_false]
  rcases key n le_rfl with h | ⟨hz, _⟩
  · rw [h]
  · have ht := hw.total
    rw [Finset.sum_eq_zero fun p hp => hz p (Finset.mem_range.1 hp)] at ht
    exact absurd ht zero_ne_one

/-- With density varying by reaction (`density_variations = 1`) every anisotropic cell of rock gets the density zero, whatever the
materials and fractions. -/
theorem aniso_density_zero (n : Nat) (w : Nat → ℝ) : ANode.density n w = 0 := by
  unfold ANode.density
  induction n with
  | zero => rfl
  | succ n ih => rw [forUp_succ, ih]; split <;> simp

/-! ### C137 -/

/-- The anisotropy factor of a phase: constant, or grown from finite strain. -/
noncomputable def phaseFactor (strainDep : Int) (factor amax ar : ℝ) : ℝ := if strainDep = 0 then factor else min ar amax

private theorem factorTerm_eq (a : Mean) (sd : Int) (hsd : sd = 0 ∨ sd = 1) (w factor amax ar : ℝ) :
    factorTerm a sd w factor amax ar = a.term w (phaseFactor sd factor amax ar) := by
  unfold factorTerm phaseFactor Aniso.factorFromStrain
  rcases hsd with h | h
  · simp [h]
  · subst h
    simp only [one_ne_zero, if_false, zero_add, if_true]
    congr 1
    split
    · next h => rw [min_eq_left h.le]
    · next h => rw [min_eq_right (not_lt.1 h)]

/-- A factor is the chosen mean of the factors of the phases, so it lies between the smallest and the largest, in particular it
is at least one. -/
theorem factor_mean (a : Mean) (n : Nat) (w : Nat → ℝ) (sd : Nat → Int) (factor amax : Nat → ℝ) (ar f : ℝ)
    (hw : Composition n w) (hsd : ∀ p < n, sd p = 0 ∨ sd p = 1)
    (h1 : ∀ p < n, 0 < w p → 1 ≤ factor p ∧ 1 ≤ amax p) (har : 1 ≤ ar)
    (hf : factorAt a n false w sd factor amax ar = .ok f) :
    f = mean a n w (fun p => phaseFactor (sd p) (factor p) (amax p) ar) ∧ 1 ≤ f
    ∧ ∀ lo hi, 0 < lo → (∀ p < n, 0 < w p → lo ≤ phaseFactor (sd p) (factor p) (amax p) ar
        ∧ phaseFactor (sd p) (factor p) (amax p) ar ≤ hi) → lo ≤ f ∧ f ≤ hi := by
  have hpos : (0 : ℝ) < 1 / 10 ^ 13 := by positivity
  have hsum : ∀ j, j ≤ n → forUp j 0 (fun s p => s + factorTerm a (sd p) (w p) (factor p) (amax p) ar)
      = ∑ p ∈ Finset.range j, a.term (w p) (phaseFactor (sd p) (factor p) (amax p) ar) := by
    intro j
    induction j with
    | zero => intro _; simp [forUp]
    | succ j ih =>
      intro hj
      rw [forUp_succ, ih (by omega), Finset.sum_range_succ, factorTerm_eq a _ (hsd j (by omega))]
  have hge : ∀ p < n, 0 < w p → 1 ≤ phaseFactor (sd p) (factor p) (amax p) ar := by
    intro p hp h0
    unfold phaseFactor
    split
    · exact (h1 p hp h0).1
    · exact le_min har (h1 p hp h0).2
  have hm : f = mean a n w (fun p => phaseFactor (sd p) (factor p) (amax p) ar) := by
    unfold factorAt at hf
    simp only [Bool.false_eq_true, if_false] at hf
    rw [hsum n le_rfl] at hf
    split at hf
    · cases hf
    · injection hf with hf
      rw [← hf]
      refine close_mean a n w _ fun p hp => ?_
      rcases hw.each p hp with h | h
      · exact Or.inl h
      · exact Or.inr (lt_of_lt_of_le one_pos (hge p hp (lt_trans hpos h)))
  refine ⟨hm, ?_, ?_⟩
  · rw [hm]
    obtain ⟨M, hM⟩ : ∃ M, ∀ p < n, phaseFactor (sd p) (factor p) (amax p) ar ≤ M := by
      refine ⟨∑ p ∈ Finset.range n, |phaseFactor (sd p) (factor p) (amax p) ar|, fun p hp => ?_⟩
      refine (le_abs_self _).trans ?_
      exact Finset.single_le_sum (f := fun p => |phaseFactor (sd p) (factor p) (amax p) ar|) (fun _ _ => abs_nonneg _)
        (Finset.mem_range.2 hp)
    exact (mean_between a n w _ 1 M hw one_pos fun p hp h0 => ⟨hge p hp h0, hM p hp⟩).1
  · intro lo hi hlo hb
    rw [hm]
    exact mean_between a n w _ lo hi hw hlo hb

/-- With the geometric mean, a node of rock whose phases are all isotropic (factor one) ends the program. -/
theorem factor_isotropic_stops (n : Nat) (w : Nat → ℝ) (sd : Nat → Int) (factor amax : Nat → ℝ) (ar : ℝ)
    (hsd : ∀ p < n, sd p = 0) (hf : ∀ p < n, w p = 0 ∨ factor p = 1) :
    factorAt .geometric n false w sd factor amax ar = .exit 1 := by
  have hsum : ∀ j, j ≤ n → forUp j 0 (fun s p => s + factorTerm .geometric (sd p) (w p) (factor p) (amax p) ar) = 0 := by
    intro j
    induction j with
    | zero => intro _; rfl
    | succ j ih =>
      intro hj
      rw [forUp_succ, ih (by omega)]
      unfold factorTerm
      rw [hsd j (by omega)]
      rcases hf j (by omega) with h | h <;> simp [h, Mean.term]
  unfold factorAt
  simp only [Bool.false_eq_true, if_false, hsum n le_rfl, if_true]

/-- With the other means it does not. -/
theorem factor_goes_on (a : Mean) (ha : a ≠ .geometric) (n : Nat) (w : Nat → ℝ) (sd : Nat → Int) (factor amax : Nat → ℝ) (ar : ℝ)
    (hw : Composition n w) (hsd : ∀ p < n, sd p = 0 ∨ sd p = 1) (h1 : ∀ p < n, 0 < w p → 1 ≤ factor p ∧ 1 ≤ amax p)
    (har : 1 ≤ ar) : ∃ f, factorAt a n false w sd factor amax ar = .ok f := by
  have hpos : (0 : ℝ) < 1 / 10 ^ 13 := by positivity
  have hsum : ∀ j, j ≤ n → forUp j 0 (fun s p => s + factorTerm a (sd p) (w p) (factor p) (amax p) ar)
      = ∑ p ∈ Finset.range j, a.term (w p) (phaseFactor (sd p) (factor p) (amax p) ar) := by
    intro j
    induction j with
    | zero => intro _; simp [forUp]
    | succ j ih =>
      intro hj
      rw [forUp_succ, ih (by omega), Finset.sum_range_succ, factorTerm_eq a _ (hsd j (by omega))]
  have hge : ∀ p < n, 0 < w p → 0 < phaseFactor (sd p) (factor p) (amax p) ar := by
    intro p hp h0
    unfold phaseFactor
    split
    · linarith [(h1 p hp h0).1]
    · exact lt_min (by linarith) (by linarith [(h1 p hp h0).2])
  have hterm : ∀ p < n, 0 ≤ a.term (w p) (phaseFactor (sd p) (factor p) (amax p) ar)
      ∧ (0 < w p → 0 < a.term (w p) (phaseFactor (sd p) (factor p) (amax p) ar)) := by
    intro p hp
    rcases hw.each p hp with h | h
    · simp [h, term_zero]
    · have h0 := lt_trans hpos h
      have := hge p hp h0
      have h2 : 0 < a.term (w p) (phaseFactor (sd p) (factor p) (amax p) ar) := by
        cases a with
        | geometric => exact absurd rfl ha
        | arithmetic => simp only [Mean.term]; positivity
        | harmonic => simp only [Mean.term]; positivity
      exact ⟨h2.le, fun _ => h2⟩
  unfold factorAt
  simp only [Bool.false_eq_true, if_false, hsum n le_rfl]
  rw [if_neg]
  · exact ⟨_, rfl⟩
  · intro hz
    have hall := (Finset.sum_eq_zero_iff_of_nonneg fun p hp => (hterm p (Finset.mem_range.1 hp)).1).1 hz
    have : ∀ p ∈ Finset.range n, w p = 0 := by
      intro p hp
      rcases hw.each p (Finset.mem_range.1 hp) with h | h
      · exact h
      · have := (hterm p (Finset.mem_range.1 hp)).2 (lt_trans hpos h)
        rw [hall p hp] at this
        exact absurd this (lt_irrefl _)
    have ht := hw.total
    rw [Finset.sum_eq_zero this] at ht
    exact zero_ne_one ht

/-- Periodic sides: the vertices at both ends of a row have the same factor, the mean of those before; the others
keep theirs. -/
theorem factor_periodic (Nx Nz : Nat) (hx : 2 ≤ Nx) (f : Nat → ℝ) (l k : Nat) (hl : l < Nz) (hk : k < Nx) :
    factorPeriodic Nx Nz f (l * Nx + k)
      = if k = 0 ∨ k = Nx - 1 then (f (l * Nx) + f (l * Nx + (Nx - 1))) / 2 else f (l * Nx + k) := by
  have key : ∀ j, j ≤ Nz → ∀ l k, k < Nx →
      forUp j f (fun f l =>
        let av := 1 / 2 * (f (l * Nx + (Nx - 1)) + f (l * Nx))
        upd (upd f (l * Nx + (Nx - 1)) av) (l * Nx) av) (l * Nx + k)
      = if l < j ∧ (k = 0 ∨ k = Nx - 1) then (f (l * Nx) + f (l * Nx + (Nx - 1))) / 2 else f (l * Nx + k) := by
    intro j
    induction j with
    | zero => intro _ l k _; simp [forUp]
    | succ j ih =>
      intro hj l k hk
      have hidx : ∀ l' k', k' < Nx → (l * Nx + k = l' * Nx + k' ↔ l = l' ∧ k = k') := by
        intro l' k' hk'
        constructor
        · intro h
          have h1 : (l * Nx + k) / Nx = l := by
            rw [mul_comm, Nat.mul_add_div (by omega), Nat.div_eq_of_lt hk, add_zero]
          have h2 : (l' * Nx + k') / Nx = l' := by
            rw [mul_comm, Nat.mul_add_div (by omega), Nat.div_eq_of_lt hk', add_zero]
          have h3 : l = l' := by rw [← h1, ← h2, h]
          subst h3
          exact ⟨rfl, by omega⟩
        · rintro ⟨rfl, rfl⟩; rfl
      rw [forUp_succ]
      have e0 := ih (by omega) j 0 (by omega)
      have e1 := ih (by omega) j (Nx - 1) (by omega)
      rw [if_neg (by omega), add_zero] at e0
      rw [if_neg (by omega)] at e1
      simp only
      rw [e0, e1]
      by_cases h0 : l = j ∧ k = 0
      · obtain ⟨rfl, rfl⟩ := h0
        rw [add_zero, upd_same, if_pos ⟨by omega, Or.inl rfl⟩]; ring
      · have n0 : l * Nx + k ≠ j * Nx := by
          have := hidx j 0 (by omega); rw [add_zero] at this; exact fun h => h0 (this.1 h)
        rw [upd_ne _ _ n0]
        by_cases h1 : l = j ∧ k = Nx - 1
        · obtain ⟨rfl, rfl⟩ := h1
          rw [upd_same, if_pos ⟨by omega, Or.inr rfl⟩]; ring
        · have n1 : l * Nx + k ≠ j * Nx + (Nx - 1) := fun h => h1 ((hidx j (Nx - 1) (by omega)).1 h)
          rw [upd_ne _ _ n1, ih (by omega) l k hk]
          refine if_congr ?_ rfl rfl
          omega
  have := key Nz le_rfl l k hk
  unfold factorPeriodic
  rw [this]
  refine if_congr ?_ rfl rfl
  simp [hl]

/-! ### C138 -/

/-- In a run with elasticity, compressibility and expansivity of every step are those of the phases present in that step. -/
theorem field_follows (restart : Bool) (now : Nat → ℝ) (k : Nat) : fieldAt true restart now (k + 1) = now (k + 1) := by
  simp [fieldAt]

/-- Without elasticity they stay what they were before the first step, however the phases move; and they are zero in every step of a run that was
taken up again. -/
theorem field_frozen (now : Nat → ℝ) (k : Nat) :
    fieldAt false false now k = now 0 ∧ fieldAt false true now k = 0 := by
  induction k with
  | zero => simp [fieldAt]
  | succ k ih => simpa [fieldAt] using ih

/-- So a restart changes the equations: with a compressibility other than zero before the first step, the run taken up again solves another problem. -/
theorem restart_changes_field (now : Nat → ℝ) (h : now 0 ≠ 0) (k : Nat) :
    fieldAt false true now k ≠ fieldAt false false now k := by
  rw [(field_frozen now k).1, (field_frozen now k).2]; exact h.symm

/-- The compressibility of a cell of rock is the harmonic mean of those of the phases, so it is not zero: the hypothesis above is met by every
mixture of compressible phases; the expansivity lies between those of the phases. -/
theorem cellBeta_mean (n : Nat) (w beta : Nat → ℝ) (hw : Composition n w) (hb : ∀ p < n, 0 < beta p) :
    cellBeta n w beta = mean .harmonic n w beta ∧ 0 < cellBeta n w beta := by
  have hsum : ∀ j, forUp j 0 (fun s p => s + w p * 1 / beta p) = ∑ p ∈ Finset.range j, w p / beta p := by
    intro j
    induction j with
    | zero => simp [forUp]
    | succ j ih => rw [forUp_succ, ih, Finset.sum_range_succ, mul_one]
  have h1 : cellBeta n w beta = mean .harmonic n w beta := by
    unfold cellBeta mean; rw [hsum, one_div]
  refine ⟨h1, ?_⟩
  have h2 := harmonic_ne .harmonic n w beta hw fun p hp _ => hb p hp
  have hpos : (0 : ℝ) < 1 / 10 ^ 13 := by positivity
  have h3 : 0 ≤ ∑ p ∈ Finset.range n, w p / beta p := by
    refine Finset.sum_nonneg fun p hp => ?_
    rcases hw.each p (Finset.mem_range.1 hp) with h | h
    · simp [h]
    · exact (div_pos (lt_trans hpos h) (hb p (Finset.mem_range.1 hp))).le
  have h4 : ∑ p ∈ Finset.range n, w p / beta p ≠ 0 := by
    intro h
    refine h2 ⟨rfl, ?_⟩
    simp only [Mean.term, mul_one]; exact h
  rw [h1]
  exact inv_pos.2 (lt_of_le_of_ne h3 (Ne.symm h4))

theorem cellAlpha_between (n : Nat) (w alpha : Nat → ℝ) (lo hi : ℝ) (hw : Composition n w)
    (hb : ∀ p < n, 0 < w p → lo ≤ alpha p ∧ alpha p ≤ hi) : lo ≤ cellAlpha n w alpha ∧ cellAlpha n w alpha ≤ hi := by
  have hsum : ∀ j, forUp j 0 (fun s p => s + w p * alpha p) = ∑ p ∈ Finset.range j, w p * alpha p := by
    intro j
    induction j with
    | zero => simp [forUp]
    | succ j ih => rw [forUp_succ, ih, Finset.sum_range_succ]
  unfold cellAlpha
  rw [hsum]
  exact sum_bounds n w alpha lo hi hw hb

/-- The hypotheses are met: two phases in equal parts, one isotropic, one with factor four, give the factor `5/2`. -/
example : Composition 2 (fun _ => 1 / 2) ∧ factorAt .arithmetic 2 false (fun _ => 1 / 2) (fun _ => 0)
    (fun p => if p = 0 then 1 else 4) (fun _ => 10) 1 = .ok (5 / 2) := by
  refine ⟨⟨fun p _ => Or.inr (by norm_num), by norm_num⟩, ?_⟩
  simp only [factorAt, forUp, factorTerm, Mean.term, Mean.close]
  norm_num

/-! ### Cases that meet the hypotheses -/

private theorem node_invariant (e P : ℝ) (h : 0 ≤ e) : invariant (node e P).E = e := by
  unfold invariant node
  dsimp only
  rw [show (1 : ℝ) / 2 * (e * e + -e * -e + -(e + -e) * -(e + -e)) + 0 * 0 = e ^ 2 by ring, Real.sqrt_sq h]

private theorem aniso_rock_creep (e P : ℝ) : creepAniso (settings true) rock (node e P)
    = { el := some (10 ^ 21), cst := some (10 ^ 22), pwl := none, exp := none, lin := none, gbs := none, d := 1 } := by
  unfold creepAniso
  simp only [settings, rock, node, Env.el]
  norm_num

private theorem aniso_rock_run (e : ℝ) (he : 0 < e) :
    runAniso { el := some (10 ^ 21), cst := some (10 ^ 22), pwl := none, exp := none, lin := none, gbs := none, d := 1 }
      e (1 / 10 ^ 11) (10 ^ 100 / 1) = .ok (10 ^ 22 / 11) (2 * (10 ^ 22 / 11) * e) := by
  have hg : LocalIter.guess { el := some (10 ^ 21), cst := some (10 ^ 22), pwl := none, exp := none, lin := none, gbs := none, d := 1 }
      e (10 ^ 100 / 1) = 10 ^ 21 := by
    unfold LocalIter.guess LocalIter.isolated
    simp only [Option.toList_some, Option.toList_none, List.map_nil, List.append_nil, List.cons_append, List.nil_append,
      List.foldl_cons, List.foldl_nil]
    rw [min_eq_right (by norm_num : (10 : ℝ) ^ 22 ≤ 10 ^ 100 / 1), min_eq_right (by norm_num : (10 : ℝ) ^ 21 ≤ 10 ^ 22)]
  have hres : ∀ x : ℝ, LocalIter.residual { el := some (10 ^ 21), cst := some (10 ^ 22), pwl := none, exp := none, lin := none, gbs := none, d := 1 } e x
      = e - x * e * (11 / 10 ^ 22) := by
    intro x
    unfold LocalIter.residual LocalIter.elasticRate LocalIter.rates
    simp only [Option.toList_some, Option.toList_none, List.map_nil, List.map_cons, List.append_nil,
      List.sum_cons, List.sum_nil, add_zero]
    ring
  have hsl : ∀ x : ℝ, LocalIter.slope { el := some (10 ^ 21), cst := some (10 ^ 22), pwl := none, exp := none, lin := none, gbs := none, d := 1 } e x
      = -e * (11 / 10 ^ 22) := by
    intro x
    unfold LocalIter.slope
    simp only [Option.toList_some, Option.toList_none, List.map_nil, List.map_cons,
      List.sum_cons, List.sum_nil, add_zero]
    ring
  have hne : -e * (11 / 10 ^ 22) ≠ 0 := by
    have : 0 < e * (11 / 10 ^ 22) := by positivity
    rw [neg_mul]; exact (neg_neg_of_pos this).ne
  unfold runAniso
  rw [hg, iterAniso, hres, hsl]
  have h1 : (e - 10 ^ 21 * e * (11 / 10 ^ 22)) / e = -1 / 10 := by field_simp; norm_num
  rw [h1, if_neg (by simp only [he.ne', hne, or_self, not_false_iff]), if_neg (by rw [abs_div, abs_neg]; norm_num),
    if_neg (by norm_num)]
  have h2 : (10 : ℝ) ^ 21 - (e - 10 ^ 21 * e * (11 / 10 ^ 22)) / (-e * (11 / 10 ^ 22)) = 10 ^ 22 / 11 := by
    field_simp; norm_num
  rw [h2]
  refine iter_exact _ _ _ (by norm_num) he.ne' 18 _ _ ?_ (by rw [hsl]; exact hne)
  rw [hres]
  field_simp
  norm_num

/-- A layered rock, elastic and plastic, that deforms at `1e-13` per second under 100 MPa yields: the hypotheses of `aniso_law_partial`,
`aniso_elastic_rate_squared` and `aniso_heat` are met, with plastic strain. -/
theorem aniso_rock_yields : Sound (settings true) rock (node (1 / 10 ^ 13) (10 ^ 8))
    ∧ 0 < invariant (node (1 / 10 ^ 13) (10 ^ 8)).E
    ∧ (∃ x ∈ LocalIter.isolated (creepAniso (settings true) rock (node (1 / 10 ^ 13) (10 ^ 8)))
        (invariant (node (1 / 10 ^ 13) (10 ^ 8)).E), x ≤ 10 ^ 100 / (settings true).sEta)
    ∧ GoodPlastic (settings true) rock (node (1 / 10 ^ 13) (10 ^ 8)) ∧ (settings true).el = true
    ∧ ∃ o, updateAniso (settings true) rock (node (1 / 10 ^ 13) (10 ^ 8)) 1 3 true = .ok o ∧ 0 < o.eIIpl := by
  obtain ⟨hs, _⟩ := rock_yields
  have hE := node_invariant (1 / 10 ^ 13) (10 ^ 8) (by positivity)
  have hst : yieldStrength rock (node (1 / 10 ^ 13) (10 ^ 8)) ≤ 10 ^ 8 := by
    unfold yieldStrength
    refine (min_le_right _ _).trans ?_
    simp only [node, Real.cos_pi_div_six, Real.sin_pi_div_six]
    have h3 : Real.sqrt 3 ≤ 2 := by rw [Real.sqrt_le_left (by norm_num)]; norm_num
    linarith
  have hgp : GoodPlastic (settings true) rock (node (1 / 10 ^ 13) (10 ^ 8)) := by
    refine ⟨le_rfl, by simp only [node]; positivity, ⟨by simp only [node, Real.sin_pi_div_six]; norm_num, fun _ => by simp [node]⟩, ?_⟩
    unfold yieldStrength
    refine lt_min (by simp only [rock]; positivity) ?_
    simp only [node, Real.cos_pi_div_six, Real.sin_pi_div_six]
    positivity
  have hbig : ∃ x ∈ LocalIter.isolated (creepAniso (settings true) rock (node (1 / 10 ^ 13) (10 ^ 8)))
        (invariant (node (1 / 10 ^ 13) (10 ^ 8)).E), x ≤ 10 ^ 100 / (settings true).sEta := by
    refine ⟨10 ^ 22, ?_, by simp only [settings]; norm_num⟩
    rw [aniso_rock_creep]
    simp [LocalIter.isolated]
  refine ⟨hs, by rw [hE]; positivity, hbig, hgp, rfl, ?_⟩
  have hinv : invariant (layerRate 1 (node (1 / 10 ^ 13) (10 ^ 8)).E) = 1 / 10 ^ 13 := by
    rw [layerRate_turn]; exact (invariant_turn _ _).trans hE
  have hy : Yields rock (node (1 / 10 ^ 13) (10 ^ 8)) (2 * (10 ^ 22 / 11) * (1 / 10 ^ 13)) := by
    refine ⟨rfl, ?_⟩
    rw [strengthAniso_eq]
    have : (10 : ℝ) ^ 8 + 1 < 2 * (10 ^ 22 / 11) * (1 / 10 ^ 13) := by norm_num
    have : (1 : ℝ) / 10 ^ 17 < 1 := by norm_num
    linarith
  obtain ⟨hden, hg, _, _, hy0⟩ := plastic_facts (settings true) rock _ hgp hs.dt (10 ^ 22 / 11) _ (by positivity) hy
  have hc := creepAniso_physical _ _ _ hs
  have ht : (0 : ℝ) < 2 * (10 ^ 22 / 11) * (1 / 10 ^ 13) := by positivity
  unfold updateAniso
  rw [if_neg (by simp [rock])]
  dsimp only
  have hrun : runAniso (creepAniso (settings true) rock (node (1 / 10 ^ 13) (10 ^ 8))) (1 / 10 ^ 13) (1 / 10 ^ 11)
      (10 ^ 100 / (settings true).sEta) = .ok (10 ^ 22 / 11) (2 * (10 ^ 22 / 11) * (1 / 10 ^ 13)) := by
    rw [aniso_rock_creep]; exact aniso_rock_run _ (by positivity)
  rw [hinv, hrun]
  unfold finishAniso
  dsimp only
  rw [inverse_eq _ hc (node (1 / 10 ^ 13) (10 ^ 8)).d (fun _ => rfl) _ ht]
  rw [if_neg (by
    rintro ⟨_, h | h | h⟩
    · have := hgp.beta; rw [h] at this; exact lt_irrefl _ this
    · exact hden.ne' h
    · exact hy0.ne' h)]
  have hne : 2 * creepRate (creepAniso (settings true) rock (node (1 / 10 ^ 13) (10 ^ 8))) (2 * (10 ^ 22 / 11) * (1 / 10 ^ 13))
      / (2 * (10 ^ 22 / 11) * (1 / 10 ^ 13)) + (some ((2 * (10 ^ 22 / 11) * (1 / 10 ^ 13)
        - plasticRate (settings true) rock (node (1 / 10 ^ 13) (10 ^ 8)) (10 ^ 22 / 11) (2 * (10 ^ 22 / 11) * (1 / 10 ^ 13))
          * (10 ^ 22 / 11)) / plasticRate (settings true) rock (node (1 / 10 ^ 13) (10 ^ 8)) (10 ^ 22 / 11)
            (2 * (10 ^ 22 / 11) * (1 / 10 ^ 13)))).elim 0 (fun e => 1 / e) ≠ 0 := by
    have hV := viscous_nonneg _ hc _ ht
    have h1 : 0 ≤ 2 * creepRate (creepAniso (settings true) rock (node (1 / 10 ^ 13) (10 ^ 8))) (2 * (10 ^ 22 / 11) * (1 / 10 ^ 13))
      / (2 * (10 ^ 22 / 11) * (1 / 10 ^ 13)) := div_nonneg (by linarith) ht.le
    have h2 := div_pos hy0 hg
    rw [Option.elim_some]
    have h3 := one_div_pos.2 h2
    linarith
  simp only [if_pos hy]
  rw [if_neg hne]
  exact ⟨_, rfl, half_pos hg⟩

/-- The hypotheses of `aniso_heat_overstated`: shear along horizontal layers. -/
example : ∃ (i : In) (o : Out), Sound (settings false) (viscous (10 ^ 21)) i ∧ 0 < invariant i.E
    ∧ (∃ x ∈ LocalIter.isolated (creepAniso (settings false) (viscous (10 ^ 21)) i) (invariant i.E), x ≤ 10 ^ 100 / (settings false).sEta)
    ∧ (inLayers (Real.pi / 2) i.E).xx = 0 ∧ (inLayers (Real.pi / 2) i.E).zz = 0
    ∧ updateAniso (settings false) (viscous (10 ^ 21)) i (Real.pi / 2) 10 true = .ok o := by
  obtain ⟨i, hi⟩ : ∃ i : In, i = { node 0 (10 ^ 8) with E := ⟨0, 0, 1 / 10 ^ 15⟩ } := ⟨_, rfl⟩
  have hE : invariant i.E = 1 / 10 ^ 15 := by
    rw [hi]
    unfold invariant
    dsimp only
    rw [show (1 : ℝ) / 2 * (0 * 0 + 0 * 0 + -(0 + 0) * -(0 + 0)) + 1 / 10 ^ 15 * (1 / 10 ^ 15) = (1 / 10 ^ 15) ^ 2 by ring,
      Real.sqrt_sq (by positivity)]
  have hEp : 0 < invariant i.E := by rw [hE]; positivity
  obtain ⟨o, ho, _⟩ := aniso_constant (settings false) (viscous (10 ^ 21)) i (Real.pi / 2) 10 rfl rfl rfl rfl rfl rfl
    (by simp only [viscous]; positivity) (by simp only [viscous, settings]; norm_num) hEp
  refine ⟨i, o, ?_, hEp, ⟨10 ^ 21, ?_, by simp only [settings]; norm_num⟩, ?_, ?_, ho⟩
  · exact { dt := by simp only [settings]; positivity
            R := by simp only [settings]; norm_num
            sE := by simp only [settings]; positivity
            sT := by simp only [settings]; positivity
            sS := by simp only [settings]; positivity
            sEta := by simp only [settings]; positivity
            G := by rw [hi]; simp only [node]; positivity
            d := by rw [hi]; simp only [node]; positivity
            eta0 := by simp only [viscous]; positivity
            pre := by simp only [viscous, rock]; positivity
            pwl := by simp [viscous, rock]
            lin := by simp [viscous, rock]
            exp := by simp [viscous, rock]
            gbs := rfl
            mix := by simp [viscous, rock]
            X := by rw [hi]; simp [node]
            some := Or.inr (Or.inl rfl) }
  · unfold creepAniso
    simp [settings, viscous, rock, Env.el, LocalIter.isolated]
  · unfold inLayers; rw [sub_self, turn_zero, hi]
  · unfold inLayers; rw [sub_self, turn_zero, hi]

/-- The hypotheses of `aniso_zero_beta`: a rock that would yield, incompressible. -/
example : ∃ i : In, 0 < invariant i.E ∧ i.beta = 0
    ∧ yieldStrength rock i + 1 / 10 ^ 17 < 2 * rock.eta0 * invariant i.E ∧ rock.plast = true := by
  refine ⟨{ node (1 / 10 ^ 13) (10 ^ 8) with beta := 0 }, ?_, rfl, ?_, rfl⟩
  · show 0 < invariant (node (1 / 10 ^ 13) (10 ^ 8)).E
    rw [node_invariant _ _ (by positivity)]; positivity
  · show yieldStrength rock (node (1 / 10 ^ 13) (10 ^ 8)) + 1 / 10 ^ 17 < 2 * rock.eta0 * invariant (node (1 / 10 ^ 13) (10 ^ 8)).E
    rw [node_invariant _ _ (by positivity)]
    have : yieldStrength rock (node (1 / 10 ^ 13) (10 ^ 8)) ≤ 10 ^ 9 := min_le_left _ _
    have h2 : (10 : ℝ) ^ 9 + 1 / 10 ^ 17 < 2 * rock.eta0 * (1 / 10 ^ 13) := by simp only [rock]; norm_num
    linarith

/-- A cell with two layered phases of viscosity `1e21` and `3e21` in equal parts. -/
noncomputable def layeredCell : ANode := { halfHalf with angle := 0, d1 := 0, d2 := 0, ani := 4 }

/-- The hypotheses of `aniso_cell` are met. -/
example : ∃ o : Nat → Out,
    GoodNode (settings false) 2 (fun p => viscous (if p = 0 then 10 ^ 21 else 3 * 10 ^ 21)) layeredCell
    ∧ layeredCell.Aligned ∧ layeredCell.ani ≠ 0 ∧ 0 < layeredCell.d
    ∧ ∀ p : Nat, updateAniso (settings false) (viscous (if p = 0 then 10 ^ 21 else 3 * 10 ^ 21)) (layeredCell.input (settings false))
        layeredCell.angle layeredCell.ani true = .ok (o p) ∧ (o p).etaVE = if p = 0 then 10 ^ 21 else 3 * 10 ^ 21 := by
  have heff : layeredCell.eff (settings false) = ⟨1 / 10 ^ 15, -(1 / 10 ^ 15), 0⟩ := by
    unfold ANode.eff; simp [settings, layeredCell, halfHalf]
  have hE : invariant (layeredCell.eff (settings false)) = 1 / 10 ^ 15 := by
    rw [heff]; exact node_invariant (1 / 10 ^ 15) 0 (by positivity)
  have hEp : 0 < invariant (layeredCell.eff (settings false)) := by rw [hE]; positivity
  have hx : ∀ p : Nat, (0 : ℝ) < (if p = 0 then 10 ^ 21 else 3 * 10 ^ 21) ∧ (if p = 0 then (10 : ℝ) ^ 21 else 3 * 10 ^ 21) ≤ 10 ^ 100 / 1 := by
    intro p; split <;> norm_num
  have hup := fun p : Nat => aniso_constant (settings false) (viscous (if p = 0 then 10 ^ 21 else 3 * 10 ^ 21))
    (layeredCell.input (settings false)) layeredCell.angle layeredCell.ani rfl rfl rfl rfl rfl rfl (hx p).1 (hx p).2 hEp
  choose o ho using hup
  refine ⟨o, ⟨rfl, halfHalf_composition, hEp, fun p _ _ => ?_, fun p _ _ h => by simp [viscous] at h, fun p _ _ => ?_⟩, ?_, ?_, ?_,
    fun p => ⟨(ho p).1, (ho p).2.1⟩⟩
  · exact { dt := by simp only [settings]; positivity
            R := by simp only [settings]; norm_num
            sE := by simp only [settings]; positivity
            sT := by simp only [settings]; positivity
            sS := by simp only [settings]; positivity
            sEta := by simp only [settings]; positivity
            G := by simp only [ANode.input, Node.input, layeredCell, halfHalf]; positivity
            d := by simp only [ANode.input, Node.input, layeredCell, halfHalf]; positivity
            eta0 := (hx p).1
            pre := by simp only [viscous, rock]; positivity
            pwl := by simp [viscous, rock]
            lin := by simp [viscous, rock]
            exp := by simp [viscous, rock]
            gbs := rfl
            mix := by simp [viscous, rock]
            X := by simp [ANode.input, Node.input, layeredCell, halfHalf]
            some := Or.inr (Or.inl rfl) }
  · refine ⟨if p = 0 then 10 ^ 21 else 3 * 10 ^ 21, ?_, (hx p).2⟩
    unfold creepAniso
    simp [settings, viscous, rock, Env.el, LocalIter.isolated]
  · constructor <;> simp [layeredCell, Aniso.markerD1, Aniso.markerD2]
  · simp [layeredCell]
  · simp [layeredCell, halfHalf]

end Verif.Point
