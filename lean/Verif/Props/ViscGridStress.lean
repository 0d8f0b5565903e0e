import Verif.Props.ViscGrid
import Verif.Props.PointLawFaults

/-!
C122, C123: strength, empty cells, the whole grid, heat in cells with several phases, density with kinetics.
-/
namespace Verif.Point
open Verif Verif.Spec

private theorem invariant_scale (k : ℝ) (hk : 0 ≤ k) (e : Tensor) :
    invariant ⟨k * e.xx, k * e.zz, k * e.xz⟩ = k * invariant e := by
  unfold invariant
  dsimp only
  rw [← Real.sqrt_sq hk, ← Real.sqrt_mul (sq_nonneg k), Real.sqrt_sq hk]
  congr 1
  ring

private theorem input_E (v : Env) (k : Node) : (k.input v).E = k.eff v := rfl

/-- Where all phases present are plastic, the stress at a cell or vertex is not above the largest of the strengths with
overstress of these phases, except for what the lower limit of the viscosity gives: with any way of averaging, for any
`M` above `strength + overstress + 1e-17` of every phase present and above twice the lower limit times the strain
rate, the invariant of the stress is at most `M`. -/
theorem node_stress_below_strength (v : Env) (a : Mean) (n : Nat) (m : Nat → Mat) (huet : Nat → ℝ × ℝ → ℝ × ℝ) (k : Node)
    (cell : Bool) (hair : k.air = false) (hw : Composition n k.w) (hmin : 0 < v.minEta) (hlim : v.minEta ≤ v.maxEta)
    (hs : ∀ p < n, 0 < k.w p → Sound v (m p) (k.input v) ∧ (m p).plast = true ∧ SimplePlastic v (m p) (k.input v))
    (hh : ∀ p < n, ∀ q, 0 < q.1 → 1 ≤ q.2 → 0 < (huet p q).1 ∧ 1 ≤ (huet p q).2)
    (hbig : ∀ p < n, 0 < k.w p → ∃ x ∈ LocalIter.isolated (creep v (m p) (huet p) (k.input v)) (rate v (k.eff v)),
      x ≤ 10 ^ 100 / v.sEta)
    (hgs : ∀ p < n, 0 < (m p).gsRef) (o : Nat → Out)
    (ho : ∀ p < n, 0 < k.w p → update v (m p) (huet p) (k.input v) cell = .ok (o p))
    (M : ℝ) (hM : ∀ p < n, 0 < k.w p → yieldStrength (m p) (k.input v) + (o p).overS + 1 / 10 ^ 17 ≤ M)
    (hM2 : 2 * v.minEta * invariant (k.eff v) ≤ M) :
    ∃ s, (if cell then cellNode v a n m huet k else vertexNode v a n m huet k) = .ok s ∧ invariant s.T ≤ M := by
  have hI : 0 ≤ invariant (k.eff v) := Real.sqrt_nonneg _
  have hphase : ∀ p < n, 0 < k.w p → v.minEta ≤ (o p).etaVE ∧ 2 * (o p).etaVE * invariant (k.eff v) ≤ M := by
    intro p hp h0
    obtain ⟨h1, h2, h3⟩ := hs p hp h0
    obtain ⟨⟨x, hx0, hT, hx⟩, hle, _, _, _, hlo, _⟩ := stress_below_strength v (m p) (huet p) (k.input v) cell h1 (hh p hp)
      (hbig p hp h0) (fun _ => h3) hlim (o p) (ho p hp h0)
    refine ⟨hlo, ?_⟩
    have h4 := le_trans (hle h2) (hM p hp h0)
    rw [hT, invariant_scale (2 * x) (by positivity), input_E] at h4
    have h5 : (o p).etaVE ≤ v.minEta ∨ (o p).etaVE ≤ x := by
      rw [hx]
      rcases le_total (min v.maxEta x) v.minEta with h | h
      · left; rw [max_eq_left h]
      · right; rw [max_eq_right h]; exact min_le_right _ _
    rcases h5 with h | h
    · exact le_trans (by nlinarith) hM2
    · exact le_trans (by nlinarith) h4
  have hmean : ∀ s : Stored, s.eta = mean a n k.w (fun p => (o p).etaVE) → 0 ≤ s.eta →
      s.T = nodeStress s.eta (k.eff v) → invariant s.T ≤ M := by
    intro s he h0 hT
    rw [hT, nodeStress, invariant_scale (2 * s.eta) (by positivity)]
    rcases eq_or_lt_of_le hI with h | h
    · rw [← h] at hM2 ⊢; simpa using hM2
    · have hb := mean_between a n k.w (fun p => (o p).etaVE) v.minEta (M / (2 * invariant (k.eff v))) hw hmin
        (fun p hp h0 => ⟨(hphase p hp h0).1, by
          rw [le_div_iff₀ (by positivity)]; nlinarith [(hphase p hp h0).2]⟩)
      rw [← he, le_div_iff₀ (by positivity)] at hb
      nlinarith [hb.2]
  cases cell with
  | true =>
    obtain ⟨s, h1, h2, _, h4, h5⟩ := cell_update v a n m huet k hair hw hmin hlim hgs o ho
    refine ⟨s, by simpa using h1, hmean s h2 ?_ h4⟩
    have := h5.2.2.2.2.2.2.2.2.2.2.2.2.2.2.2.1
    linarith
  | false =>
    obtain ⟨s, h1, h2, _, h4, h5, _⟩ := vertex_update v a n m huet k hair hw hmin hlim o ho
    exact ⟨s, by simpa using h1, hmean s h2 (by linarith) h4⟩

/-- Nodes in the air hold zeros. -/
theorem air_zero (v : Env) (a : Mean) (n : Nat) (m : Nat → Mat) (huet : Nat → ℝ × ℝ → ℝ × ℝ) (k : Node)
    (hair : k.air = true) :
    cellNode v a n m huet k = .ok ⟨0, 0, ⟨0, 0, 0⟩, 0, 0, 0, 0, 0, 0, 0, 0, 0, 0, 0, 0, 0, 0, 0⟩
    ∧ vertexNode v a n m huet k = .ok ⟨0, 0, ⟨0, 0, 0⟩, 0, 0, 0, 0, 0, 0, 0, 0, 0, 0, 0, 0, 0, 0, 0⟩ := by
  simp [cellNode, vertexNode, hair, Stored.zero]

private theorem loop_code (a : Mean) (w : Nat → ℝ) (r : Nat → Res) (n c : Nat)
    (hr : ∀ p < n, ∀ c, r p = .exit c → c = 0 ∨ c = 1)
    (h : forUp n (.ok Stored.zero) (phaseStep a w r) = .exit c) : c = 0 ∨ c = 1 := by
  have := forUp_inv (P := fun _ s => ∀ c, s = Outcome.exit c → c = 0 ∨ c = 1) (f := phaseStep a w r)
    (s := .ok Stored.zero) n (by simp) ?_
  · exact this c h
  · intro p s hp ih c hc
    cases s with
    | ok x =>
      simp only [phaseStep] at hc
      split at hc
      · split at hc
        · exact absurd hc (by simp)
        · next c' hc' =>
          simp only [Outcome.exit.injEq] at hc
          rw [← hc]; exact hr p hp c' hc'
        · exact absurd hc (by simp)
      · exact absurd hc (by simp)
    | exit c' => simp only [phaseStep, Outcome.exit.injEq] at hc; rw [← hc]; exact ih c' rfl
    | nan => simp [phaseStep] at hc

/-- The sum for the grain size grows with every phase that is present. -/
private theorem loop_grain (a : Mean) (w : Nat → ℝ) (r : Nat → Res) (n : Nat) (s : Stored)
    (hw : ∀ p < n, w p = 0 ∨ 1 / 10 ^ 13 < w p)
    (hd : ∀ p < n, ∀ o, r p = .ok o → 0 < o.d1)
    (h : forUp n (.ok Stored.zero) (phaseStep a w r) = .ok s) :
    0 ≤ s.d ∧ (s.d = 0 → ∀ p < n, w p = 0) := by
  induction n generalizing s with
  | zero =>
    simp only [forUp, Outcome.ok.injEq] at h
    rw [← h]
    exact ⟨le_rfl, fun _ p hp => absurd hp (by omega)⟩
  | succ n ih =>
    rw [forUp_succ] at h
    have hpos : (0 : ℝ) < 1 / 10 ^ 13 := by positivity
    cases hq : forUp n (.ok Stored.zero) (phaseStep a w r) with
    | exit c => rw [hq] at h; simp [phaseStep] at h
    | nan => rw [hq] at h; simp [phaseStep] at h
    | ok x =>
      rw [hq] at h
      obtain ⟨h1, h2⟩ := ih x (fun p hp => hw p (by omega)) (fun p hp => hd p (by omega)) hq
      simp only [phaseStep] at h
      rcases hw n (by omega) with h0 | h0
      · rw [h0, abs_zero, if_neg (not_lt.2 hpos.le)] at h
        simp only [Outcome.ok.injEq] at h
        rw [← h]
        refine ⟨h1, fun hz p hp => ?_⟩
        rcases Nat.lt_succ_iff_lt_or_eq.1 hp with hlt | heq
        · exact h2 hz p hlt
        · rw [heq]; exact h0
      · have hwp : 0 < w n := lt_trans hpos h0
        rw [abs_of_pos hwp, if_pos h0] at h
        split at h
        · next o hro =>
          simp only [Outcome.ok.injEq] at h
          have hdn := hd n (by omega) o hro
          have hx : s.d = x.d + w n * 1 / o.d1 := by rw [← h]; rfl
          have : 0 < w n * 1 / o.d1 := by positivity
          refine ⟨by rw [hx]; linarith, fun hz => ?_⟩
          rw [hx] at hz; linarith
        · exact absurd h (by simp)
        · exact absurd h (by simp)

/-- The program stops with "cell went empty" exactly at rock cells without any phase. -/
theorem stops_iff_empty (v : Env) (a : Mean) (n : Nat) (m : Nat → Mat) (huet : Nat → ℝ × ℝ → ℝ × ℝ) (k : Node)
    (hlim : v.minEta ≤ v.maxEta)
    (hw : ∀ p < n, k.w p = 0 ∨ 1 / 10 ^ 13 < k.w p) (hgs : ∀ p < n, 0 < (m p).gsRef) :
    cellNode v a n m huet k = .exit 345 ↔ k.air = false ∧ ∀ p < n, k.w p = 0 := by
  constructor
  · intro h
    unfold cellNode at h
    split at h
    · exact absurd h (by simp)
    next hair =>
    refine ⟨by simpa using hair, ?_⟩
    split at h
    · next s hs =>
      obtain ⟨_, h2⟩ := loop_grain a k.w _ n s hw (fun p hp o ho => by
        rw [(update_limits v (m p) (huet p) (k.input v) true hlim o ho).2.2.2.2]; exact hgs p hp) hs
      unfold closeCell at h
      split at h
      · next hz => exact h2 hz
      · split at h
        · simp at h
        · exact absurd h (by simp)
    · next r hr =>
      have h345 := loop_code a k.w _ n 345 (fun p _ c hc => update_codes v (m p) (huet p) (k.input v) true c hc) h
      omega
  · rintro ⟨hair, hz⟩
    have hloop : forUp n (.ok Stored.zero) (phaseStep a k.w fun p => update v (m p) (huet p) (k.input v) true)
        = .ok Stored.zero := by
      have := forUp_inv (P := fun _ s => s = Outcome.ok Stored.zero)
        (f := phaseStep a k.w fun p => update v (m p) (huet p) (k.input v) true) (s := .ok Stored.zero) n rfl ?_
      · exact this
      · intro p s hp hs
        have hpos : (0 : ℝ) < 1 / 10 ^ 13 := by positivity
        rw [hs]
        simp only [phaseStep]
        rw [hz p hp, abs_zero, if_neg (not_lt.2 hpos.le)]
    unfold cellNode
    rw [hair, hloop]
    simp [closeCell, Stored.zero]

/-- The loop on the nodes: it succeeds exactly when every node does; then every node holds what follows from its own data,
and nothing beyond the last node is touched. -/
theorem nodeLoop_spec (f : Node → Outcome Stored) (count : Nat) (nodes : Nat → Node) (old : Nat → Stored) :
    (∀ r, nodeLoop f count nodes old = .ok r →
      (∀ c < count, f (nodes c) = .ok (r c)) ∧ ∀ c, count ≤ c → r c = old c)
    ∧ ((∀ c < count, ∃ x, f (nodes c) = .ok x) → ∃ r, nodeLoop f count nodes old = .ok r) := by
  induction count with
  | zero =>
    refine ⟨fun r hr => ?_, fun _ => ⟨old, rfl⟩⟩
    simp only [nodeLoop, forUp, Outcome.ok.injEq] at hr
    exact ⟨fun c hc => absurd hc (by omega), fun c _ => by rw [hr]⟩
  | succ n ih =>
    obtain ⟨ih1, ih2⟩ := ih
    unfold nodeLoop at ih1 ih2 ⊢
    rw [forUp_succ]
    cases hq : forUp n (.ok old) (nodeStep f nodes) with
    | exit c =>
      refine ⟨fun r hr => by simp [nodeStep] at hr, fun h => ?_⟩
      obtain ⟨r, hr⟩ := ih2 fun c hc => h c (by omega)
      rw [hq] at hr; exact absurd hr (by simp)
    | nan =>
      refine ⟨fun r hr => by simp [nodeStep] at hr, fun h => ?_⟩
      obtain ⟨r, hr⟩ := ih2 fun c hc => h c (by omega)
      rw [hq] at hr; exact absurd hr (by simp)
    | ok r0 =>
      obtain ⟨h1, h2⟩ := ih1 r0 hq
      refine ⟨fun r hr => ?_, fun h => ?_⟩
      · simp only [nodeStep] at hr
        split at hr
        · next x hx =>
          simp only [Outcome.ok.injEq] at hr
          rw [← hr]
          refine ⟨fun c hc => ?_, fun c hc => ?_⟩
          · rcases Nat.lt_succ_iff_lt_or_eq.1 hc with hlt | heq
            · rw [upd_ne _ _ (by omega)]; exact h1 c hlt
            · rw [heq, upd_same]; exact hx
          · rw [upd_ne _ _ (by omega)]; exact h2 c (by omega)
        · exact absurd hr (by simp)
        · exact absurd hr (by simp)
      · obtain ⟨x, hx⟩ := h n (by omega)
        simp only [nodeStep, hx]
        exact ⟨_, rfl⟩

/-- The whole grid: when the routine returns, every cell and every vertex holds the result of its own data, whatever was
stored before, and nothing else is touched; it returns if every node can be updated. -/
theorem grid_spec (v : Env) (a : Mean) (n : Nat) (m : Nat → Mat) (huet : Nat → ℝ × ℝ → ℝ × ℝ) (ncells nverts : Nat)
    (cells verts : Nat → Node) (oldC oldV : Nat → Stored) :
    (∀ c s, viscosityGrid v a n m huet ncells nverts cells verts oldC oldV = .ok (c, s) →
      (∀ j < ncells, cellNode v a n m huet (cells j) = .ok (c j))
      ∧ (∀ j < nverts, vertexNode v a n m huet (verts j) = .ok (s j))
      ∧ (∀ j, ncells ≤ j → c j = oldC j) ∧ ∀ j, nverts ≤ j → s j = oldV j)
    ∧ ((∀ j < ncells, ∃ x, cellNode v a n m huet (cells j) = .ok x) →
        (∀ j < nverts, ∃ x, vertexNode v a n m huet (verts j) = .ok x) →
        ∃ r, viscosityGrid v a n m huet ncells nverts cells verts oldC oldV = .ok r) := by
  obtain ⟨c1, c2⟩ := nodeLoop_spec (cellNode v a n m huet) ncells cells oldC
  obtain ⟨v1, v2⟩ := nodeLoop_spec (vertexNode v a n m huet) nverts verts oldV
  unfold viscosityGrid
  refine ⟨fun c s h => ?_, fun hc hv => ?_⟩
  · split at h
    · next c' hc' =>
      split at h
      · next s' hs' =>
        simp only [Outcome.ok.injEq, Prod.mk.injEq] at h
        obtain ⟨rfl, rfl⟩ := h
        exact ⟨(c1 _ hc').1, (v1 _ hs').1, (c1 _ hc').2, (v1 _ hs').2⟩
      · exact absurd h (by simp)
      · exact absurd h (by simp)
    · exact absurd h (by simp)
    · exact absurd h (by simp)
  · obtain ⟨c, hc⟩ := c2 hc
    obtain ⟨s, hs⟩ := v2 hv
    rw [hc, hs]
    exact ⟨_, rfl⟩

/-! ### C123 -/

/-- A cell with a single phase is heated by the work of its stress on the inelastic strain rate, as `heat_partial` says of
the phase (viscosity within the limits). -/
theorem cell_heat_single_partial (v : Env) (a : Mean) (n : Nat) (m : Nat → Mat) (huet : Nat → ℝ × ℝ → ℝ × ℝ) (k : Node)
    (hair : k.air = false) (hw : Composition n k.w) (hmin : 0 < v.minEta) (hlim : v.minEta ≤ v.maxEta)
    (hgs : ∀ p < n, 0 < (m p).gsRef) (hstep : v.step0 = false) (p : Nat) (hp : p < n) (h1 : k.w p = 1) (o : Out)
    (hs : Sound v (m p) (k.input v))
    (hh : ∀ q, 0 < q.1 → 1 ≤ q.2 → 0 < (huet p q).1 ∧ 1 ≤ (huet p q).2)
    (hbig : ∃ x ∈ LocalIter.isolated (creep v (m p) (huet p) (k.input v)) (rate v (k.eff v)), x ≤ 10 ^ 100 / v.sEta)
    (hpl : (m p).plast = true → SimplePlastic v (m p) (k.input v)) (hd : (m p).lin = true → (m p).gsRef = k.d)
    (hfloor : 1 / 10 ^ 30 ≤ invariant (k.eff v) * v.sE)
    (ho : update v (m p) (huet p) (k.input v) true = .ok o) (hT : o.T = nodeStress o.etaVE (k.eff v)) :
    ∃ s, cellNode v a n m huet k = .ok s ∧ 0 ≤ s.wDiss
      ∧ |s.wDiss - power s.T (if v.elastic then minus k.e (elasticRate (k.mu * v.dt) s.T k.old) else k.e)|
        ≤ 1 / 10 ^ 10 * power s.T (k.eff v) := by
  have hpos : (0 : ℝ) < 1 / 10 ^ 13 := by positivity
  have hnn : ∀ q ∈ Finset.range n, 0 ≤ k.w q := fun q hq => by
    rcases hw.each q (Finset.mem_range.1 hq) with h | h
    · rw [h]
    · linarith
  have hother : ∀ q < n, q ≠ p → k.w q = 0 := by
    intro q hq hne
    have hsum := hw.total
    rw [← Finset.add_sum_erase _ _ (Finset.mem_range.2 hp), h1] at hsum
    have hz : ∑ x ∈ (Finset.range n).erase p, k.w x = 0 := by linarith
    exact (Finset.sum_eq_zero_iff_of_nonneg fun x hx => hnn x (Finset.mem_of_mem_erase hx)).1 hz q
      (Finset.mem_erase.2 ⟨hne, Finset.mem_range.2 hq⟩)
  have hshare : ∀ x : Nat → ℝ, share n k.w x = x p := by
    intro x
    unfold share
    rw [Finset.sum_eq_single p]
    · rw [h1, one_mul]
    · intro q hq hne; rw [hother q (Finset.mem_range.1 hq) hne, zero_mul]
    · intro h; exact absurd (Finset.mem_range.2 hp) h
  obtain ⟨s, e1, e2, _, e4, e5⟩ := cell_update v a n m huet k hair hw hmin hlim hgs (fun _ => o) (fun q hq h0 => by
    by_cases hne : q = p
    · rw [hne]; exact ho
    · rw [hother q hq hne] at h0; exact absurd h0 (lt_irrefl _))
  have hwd : s.wDiss = o.wDiss := by
    have := e5.2.2.2.2.2.2.2.2.2.2.2.2.2.1
    rw [this, hshare]
  have heta : s.eta = o.etaVE := by
    have hl := update_limits v (m p) (huet p) (k.input v) true hlim o ho
    have hb := mean_between a n k.w (fun _ => o.etaVE) o.etaVE o.etaVE hw (lt_of_lt_of_le hmin hl.1)
      (fun _ _ _ => ⟨le_rfl, le_rfl⟩)
    rw [← e2] at hb
    exact le_antisymm hb.2 hb.1
  have hTs : s.T = o.T := by rw [e4, heta, hT]
  have hel : v.el = v.elastic := by unfold Env.el; rw [hstep]; simp
  have hE : (k.input v).E = if v.el then plus k.e (elasticRate ((k.input v).G * v.dt) (k.input v).old ⟨0, 0, 0⟩) else k.e := by
    rw [hel]
    show k.eff v = _
    unfold Node.eff
    cases hv : v.elastic with
    | true =>
      simp only [if_true, plus, elasticRate, Node.input, sub_zero, one_mul]
      ext <;> simp only [div_div] <;> ring
    | false => simp
  have := heat_partial v (m p) (huet p) (k.input v) k.e hs hh hbig hpl hd hfloor hE o ho
  refine ⟨s, e1, by rw [hwd]; exact this.2, ?_⟩
  rw [hwd, hTs]
  have h3 := this.1
  rw [hel] at h3
  exact h3

/-- Without elasticity, a cell with several phases (viscosities within the limits) is heated like the phases side by side: by `4` times the
arithmetic mean of their viscosities times the square of the strain rate, to a relative error of `1e-10`, whichever
mean is used for the viscosity of the cell. -/
theorem cell_heat_mixed (v : Env) (a : Mean) (n : Nat) (m : Nat → Mat) (huet : Nat → ℝ × ℝ → ℝ × ℝ) (k : Node)
    (hair : k.air = false) (hw : Composition n k.w) (hmin : 0 < v.minEta) (hlim : v.minEta ≤ v.maxEta)
    (hgs : ∀ p < n, 0 < (m p).gsRef) (hel : v.elastic = false) (o : Nat → Out)
    (hs : ∀ p < n, 0 < k.w p → Sound v (m p) (k.input v))
    (hh : ∀ p < n, ∀ q, 0 < q.1 → 1 ≤ q.2 → 0 < (huet p q).1 ∧ 1 ≤ (huet p q).2)
    (hbig : ∀ p < n, 0 < k.w p → ∃ x ∈ LocalIter.isolated (creep v (m p) (huet p) (k.input v)) (rate v (k.eff v)),
      x ≤ 10 ^ 100 / v.sEta)
    (hpl : ∀ p < n, 0 < k.w p → (m p).plast = true → SimplePlastic v (m p) (k.input v))
    (hd : ∀ p < n, 0 < k.w p → (m p).lin = true → (m p).gsRef = k.d)
    (hfloor : 1 / 10 ^ 30 ≤ invariant (k.eff v) * v.sE)
    (ho : ∀ p < n, 0 < k.w p → update v (m p) (huet p) (k.input v) true = .ok (o p))
    (hT : ∀ p < n, 0 < k.w p → (o p).T = nodeStress (o p).etaVE (k.eff v)) :
    ∃ s, cellNode v a n m huet k = .ok s
      ∧ |s.wDiss - 4 * mean .arithmetic n k.w (fun p => (o p).etaVE) * invariant (k.eff v) ^ 2|
        ≤ 1 / 10 ^ 10 * (4 * mean .arithmetic n k.w (fun p => (o p).etaVE) * invariant (k.eff v) ^ 2)
      ∧ power s.T (k.eff v) = 4 * s.eta * invariant (k.eff v) ^ 2
      ∧ s.eta = mean a n k.w (fun p => (o p).etaVE) := by
  have hpos : (0 : ℝ) < 1 / 10 ^ 13 := by positivity
  have helv : v.el = false := by unfold Env.el; rw [hel]; rfl
  have hpow : ∀ x, power (nodeStress x (k.eff v)) (k.eff v) = 4 * x * invariant (k.eff v) ^ 2 := by
    intro x
    have := invariant_sq (k.eff v)
    unfold power at this
    unfold power nodeStress
    linear_combination (-(2 * x)) * this
  obtain ⟨s, e1, e2, _, e4, e5⟩ := cell_update v a n m huet k hair hw hmin hlim hgs o ho
  refine ⟨s, e1, ?_, by rw [e4, hpow], e2⟩
  have hwd : s.wDiss = share n k.w (fun p => (o p).wDiss) := e5.2.2.2.2.2.2.2.2.2.2.2.2.2.1
  have hE : k.eff v = k.e := by
    unfold Node.eff; rw [hel]; simp
  rw [hwd]
  have hb : ∀ p ∈ Finset.range n, |k.w p * (o p).wDiss - k.w p * (4 * (o p).etaVE * invariant (k.eff v) ^ 2)|
      ≤ 1 / 10 ^ 10 * (k.w p * (4 * (o p).etaVE * invariant (k.eff v) ^ 2)) := by
    intro p hp
    rcases hw.each p (Finset.mem_range.1 hp) with h | h
    · simp [h]
    · have h0 : 0 < k.w p := lt_trans hpos h
      have hp' := Finset.mem_range.1 hp
      have := (heat_partial v (m p) (huet p) (k.input v) k.e (hs p hp' h0) (hh p hp') (hbig p hp' h0) (hpl p hp' h0)
        (hd p hp' h0) hfloor (by rw [helv, input_E]; simpa using hE) (o p) (ho p hp' h0)).1
      rw [helv] at this
      simp only [Bool.false_eq_true, if_false] at this
      rw [input_E, ← hE, hT p hp' h0, hpow] at this
      rw [← mul_sub, abs_mul, abs_of_pos h0]
      calc _ ≤ k.w p * (1 / 10 ^ 10 * (4 * (o p).etaVE * invariant (k.eff v) ^ 2)) :=
            mul_le_mul_of_nonneg_left this h0.le
        _ = _ := by ring
  have hsum : 4 * mean .arithmetic n k.w (fun p => (o p).etaVE) * invariant (k.eff v) ^ 2
      = ∑ p ∈ Finset.range n, k.w p * (4 * (o p).etaVE * invariant (k.eff v) ^ 2) := by
    simp only [mean]
    rw [Finset.mul_sum, Finset.sum_mul]
    exact Finset.sum_congr rfl fun p _ => by ring
  rw [hsum, share, ← Finset.sum_sub_distrib, Finset.mul_sum]
  exact le_trans (Finset.abs_sum_le_sum_abs _ _) (Finset.sum_le_sum hb)

/-- A material of constant viscosity `x` and nothing else. -/
noncomputable def viscous (x : ℝ) : Mat :=
  { rock with eta0 := x, plast := false }

private theorem viscous_update (x : ℝ) (i : In) (hx : 10 ^ 18 ≤ x ∧ x ≤ 10 ^ 25) (hd : 1 / 10 ^ 30 ≤ invariant i.E) :
    ∃ o, update (settings false) (viscous x) id i true = .ok o ∧ o.etaVE = x
      ∧ o.T = nodeStress x i.E ∧ o.wDiss = 4 * x * invariant i.E ^ 2 := by
  have hx0 : 0 < x := lt_of_lt_of_le (by norm_num) hx.1
  have hrate : rate (settings false) i.E = invariant i.E := by
    unfold rate
    simp only [settings, mul_one]
    rw [if_neg (not_lt.2 hd)]
  have hI : 0 < invariant i.E := lt_of_lt_of_le (by positivity) hd
  have hcr : creep (settings false) (viscous x) id i
      = { el := none, cst := some x, pwl := none, exp := none, lin := none, gbs := none, d := i.d } := by
    unfold creep
    simp [settings, viscous, rock, Env.el, constantViscosity]
  have hrun : LocalIter.run (creep (settings false) (viscous x) id i) (rate (settings false) i.E) (1 / 10 ^ 11) (10 ^ 100 / 1)
      = .ok x (2 * x * invariant i.E) := by
    rw [hcr, hrate]
    unfold LocalIter.run
    have hg : LocalIter.guess { el := none, cst := some x, pwl := none, exp := none, lin := none, gbs := none, d := i.d }
        (invariant i.E) (10 ^ 100 / 1) = x := by
      unfold LocalIter.guess LocalIter.isolated
      simp only [Option.toList_some, Option.toList_none, List.map_nil, List.append_nil, List.nil_append,
        List.foldl_cons, List.foldl_nil]
      exact min_eq_right (le_trans hx.2 (by norm_num))
    have hres : LocalIter.residual { el := none, cst := some x, pwl := none, exp := none, lin := none, gbs := none, d := i.d }
        (invariant i.E) x = 0 := by
      unfold LocalIter.residual LocalIter.elasticRate LocalIter.rates
      simp only [Option.toList_some, Option.toList_none, List.map_nil, List.map_cons, List.append_nil,
        List.sum_cons, List.sum_nil, add_zero, sub_zero]
      field_simp
      norm_num
    rw [hg, LocalIter.solve, hres]
    rw [zero_div, abs_zero, if_pos (by positivity)]
  have hy : ∀ E y t, yielding (settings false) (viscous x) i E y t = ⟨t, i.P, 0, 0, false⟩ := by
    intro E y t; unfold yielding; simp [viscous, rock]
  have hinv : ∀ t, dissInverse (viscous x) (creep (settings false) (viscous x) id i) ⟨t, i.P, 0, 0, false⟩ t = 1 / x := by
    intro t
    unfold dissInverse inverse
    rw [hcr]
    simp [powerInv, linInv, cstInv]
  unfold update
  rw [if_neg (by simp [viscous, rock])]
  dsimp only
  rw [show (settings false).sEta = 1 from rfl, hrun]
  simp only [finish, hy, hinv]
  rw [if_neg (by simp), if_neg (by
    rintro ⟨_, h⟩
    have : 0 < 2 * x * invariant i.E * (2 * x * invariant i.E) * (1 / x) := by positivity
    linarith)]
  refine ⟨_, rfl, ?_, ?_, ?_⟩
  · simp only [effViscosity, Bool.false_eq_true, if_false, settings, Rheo.limiter]
    rw [if_neg (not_lt.2 hx.2), if_neg (not_lt.2 hx.1)]
  · simp [effViscosity, nodeStress]
  · simp only [if_true]; field_simp; ring

/-- A cell in pure shear at the rate `1e-15`, half of phase 0, half of phase 1. -/
noncomputable def halfHalf : Node where
  air := false
  w := fun _ => 1 / 2
  mu := 10 ^ 10
  T := 300
  P := 10 ^ 8
  d := 1
  phi := 0
  X := 0
  e := ⟨1 / 10 ^ 15, -(1 / 10 ^ 15), 0⟩
  old := ⟨0, 0, 0⟩
  dil := 0
  fric := 0
  C := 0
  P0 := 10 ^ 8
  beta := 1 / 10 ^ 10

private theorem halfHalf_eff : halfHalf.eff (settings false) = ⟨1 / 10 ^ 15, -(1 / 10 ^ 15), 0⟩ := by
  unfold Node.eff
  simp [settings, halfHalf]

private theorem halfHalf_inv : invariant (halfHalf.eff (settings false)) = 1 / 10 ^ 15 := by
  rw [halfHalf_eff]
  unfold invariant
  dsimp only
  rw [show (1 : ℝ) / 2 * (1 / 10 ^ 15 * (1 / 10 ^ 15) + -(1 / 10 ^ 15) * -(1 / 10 ^ 15)
    + -(1 / 10 ^ 15 + -(1 / 10 ^ 15)) * -(1 / 10 ^ 15 + -(1 / 10 ^ 15))) + 0 * 0 = (1 / 10 ^ 15) ^ 2 by ring,
    Real.sqrt_sq (by positivity)]

/-- Fractions of one half are a composition. -/
theorem halfHalf_composition : Composition 2 halfHalf.w := by
  refine ⟨fun p _ => Or.inr ?_, ?_⟩
  · simp only [halfHalf]; norm_num
  · simp only [halfHalf]; norm_num

/-- Hence with the arithmetic mean the heat of a mixed cell is the work of its stress, but with the harmonic mean it is
more: two phases of viscosity `1e21` and `3e21` in equal parts, without elasticity, give a cell of viscosity `1.5e21`
whose stress does `6e-9` units of work, while `8e-9` are turned into heat. -/
theorem harmonic_mixture_overheats :
    ∃ s, cellNode (settings false) .harmonic 2 (fun p => viscous (if p = 0 then 10 ^ 21 else 3 * 10 ^ 21)) (fun _ => id) halfHalf
        = .ok s
      ∧ s.eta = 3 / 2 * 10 ^ 21 ∧ power s.T halfHalf.e = 6 / 10 ^ 9 ∧ s.wDiss = 8 / 10 ^ 9 := by
  have hx : ∀ p : Nat, (10 : ℝ) ^ 18 ≤ (if p = 0 then 10 ^ 21 else 3 * 10 ^ 21) ∧ (if p = 0 then (10 : ℝ) ^ 21 else 3 * 10 ^ 21) ≤ 10 ^ 25 := by
    intro p; split <;> norm_num
  have hup := fun p : Nat => viscous_update (if p = 0 then 10 ^ 21 else 3 * 10 ^ 21) (halfHalf.input (settings false)) (hx p)
    (by rw [input_E, halfHalf_inv]; norm_num)
  choose o ho using hup
  obtain ⟨s, e1, e2, _, e4, e5⟩ := cell_update (settings false) .harmonic 2
    (fun p => viscous (if p = 0 then 10 ^ 21 else 3 * 10 ^ 21)) (fun _ => id) halfHalf rfl halfHalf_composition
    (by simp only [settings]; positivity) (by simp only [settings]; norm_num) (fun p _ => by simp [viscous, rock]) o
    (fun p _ _ => (ho p).1)
  have heta : s.eta = 3 / 2 * 10 ^ 21 := by
    rw [e2]
    simp only [mean, Finset.sum_range_succ, Finset.sum_range_zero, (ho _).2.1, halfHalf]
    norm_num
  refine ⟨s, e1, heta, ?_, ?_⟩
  · rw [e4, heta, halfHalf_eff]
    simp only [nodeStress, power, halfHalf]
    norm_num
  · have hd := fun p => (ho p).2.2.2
    simp only [input_E, halfHalf_inv] at hd
    rw [e5.2.2.2.2.2.2.2.2.2.2.2.2.2.1]
    simp only [share, Finset.sum_range_succ, Finset.sum_range_zero, hd, halfHalf]
    norm_num

/-- The hypotheses of `cell_heat_mixed` are met by the same cell. -/
example : ∃ o : Nat → Out, Composition 2 halfHalf.w
    ∧ (∀ p : Nat, Sound (settings false) (viscous (if p = 0 then 10 ^ 21 else 3 * 10 ^ 21)) (halfHalf.input (settings false)))
    ∧ (∀ p : Nat, ∃ x ∈ LocalIter.isolated (creep (settings false) (viscous (if p = 0 then 10 ^ 21 else 3 * 10 ^ 21)) id
        (halfHalf.input (settings false))) (rate (settings false) (halfHalf.eff (settings false))), x ≤ 10 ^ 100 / (settings false).sEta)
    ∧ 1 / 10 ^ 30 ≤ invariant (halfHalf.eff (settings false)) * (settings false).sE
    ∧ ∀ p : Nat, update (settings false) (viscous (if p = 0 then 10 ^ 21 else 3 * 10 ^ 21)) id (halfHalf.input (settings false)) true
        = .ok (o p) ∧ (o p).T = nodeStress (o p).etaVE (halfHalf.eff (settings false)) := by
  have hx : ∀ p : Nat, (10 : ℝ) ^ 18 ≤ (if p = 0 then 10 ^ 21 else 3 * 10 ^ 21) ∧ (if p = 0 then (10 : ℝ) ^ 21 else 3 * 10 ^ 21) ≤ 10 ^ 25 := by
    intro p; split <;> norm_num
  have hup := fun p : Nat => viscous_update (if p = 0 then 10 ^ 21 else 3 * 10 ^ 21) (halfHalf.input (settings false)) (hx p)
    (by rw [input_E, halfHalf_inv]; norm_num)
  choose o ho using hup
  refine ⟨o, halfHalf_composition, fun p => ?_, fun p => ⟨if p = 0 then 10 ^ 21 else 3 * 10 ^ 21, ?_, ?_⟩, ?_, fun p => ⟨(ho p).1, ?_⟩⟩
  · have h0 : (0 : ℝ) < if p = 0 then 10 ^ 21 else 3 * 10 ^ 21 := lt_of_lt_of_le (by norm_num) (hx p).1
    exact { dt := by simp only [settings]; positivity
            R := by simp only [settings]; norm_num
            sE := by simp only [settings]; positivity
            sT := by simp only [settings]; positivity
            sS := by simp only [settings]; positivity
            sEta := by simp only [settings]; positivity
            G := by simp only [Node.input, halfHalf]; positivity
            d := by simp only [Node.input, halfHalf]; positivity
            eta0 := h0
            pre := by simp only [viscous, rock]; positivity
            pwl := by simp [viscous, rock]
            lin := by simp [viscous, rock]
            exp := by simp [viscous, rock]
            gbs := rfl
            mix := by simp [viscous, rock]
            X := by simp [Node.input, halfHalf]
            some := Or.inr (Or.inl rfl) }
  · unfold creep
    simp [settings, viscous, rock, Env.el, constantViscosity, LocalIter.isolated]
  · refine le_trans (hx p).2 ?_
    simp only [settings]; norm_num
  · rw [halfHalf_inv]; simp only [settings]; norm_num
  · rw [(ho p).2.2.1, (ho p).2.1, input_E]

/-- A cell of rock in pure shear at the rate `e` under 100 MPa. -/
noncomputable def rockCell (e : ℝ) : Node where
  air := false
  w := fun _ => 1
  mu := 10 ^ 10
  T := 300
  P := 10 ^ 8
  d := 1
  phi := 0
  X := 0
  e := ⟨e, -e, 0⟩
  old := ⟨0, 0, 0⟩
  dil := 0
  fric := Real.pi / 6
  C := 2 * 10 ^ 7
  P0 := 10 ^ 8
  beta := 1 / 10 ^ 10

private theorem rockCell_input (e : ℝ) : (rockCell e).input (settings true) = node e (10 ^ 8) := by
  simp [Node.input, Node.eff, rockCell, node, settings]

/-- The hypotheses of `node_stress_below_strength` are met by a cell of rock that yields, and those of
`cell_heat_single_partial` by one that creeps. -/
example : Composition 1 (rockCell (1 / 10 ^ 13)).w
    ∧ Sound (settings true) rock ((rockCell (1 / 10 ^ 13)).input (settings true))
    ∧ SimplePlastic (settings true) rock ((rockCell (1 / 10 ^ 13)).input (settings true))
    ∧ (∃ o, update (settings true) rock id ((rockCell (1 / 10 ^ 13)).input (settings true)) true = .ok o ∧ 0 < o.eIIpl)
    ∧ Sound (settings true) rock ((rockCell (1 / 10 ^ 16)).input (settings true))
    ∧ SimplePlastic (settings true) rock ((rockCell (1 / 10 ^ 16)).input (settings true))
    ∧ 1 / 10 ^ 30 ≤ invariant ((rockCell (1 / 10 ^ 16)).eff (settings true)) * (settings true).sE
    ∧ ∃ o, update (settings true) rock id ((rockCell (1 / 10 ^ 16)).input (settings true)) true = .ok o
      ∧ o.T = nodeStress o.etaVE ((rockCell (1 / 10 ^ 16)).eff (settings true)) := by
  obtain ⟨a1, a2, _, _, _, _, a3⟩ := rock_yields
  obtain ⟨b1, b2, b3, _, o, b4, b5⟩ := rock_creeps
  have he := congrArg In.E (rockCell_input (1 / 10 ^ 16))
  rw [input_E] at he
  rw [rockCell_input, rockCell_input, he]
  refine ⟨⟨fun p _ => Or.inr ?_, ?_⟩, a1, a2, a3, b1, b2, b3, o, b4, b5⟩
  · simp only [rockCell]; norm_num
  · simp [rockCell]

/-! ### Density with kinetics -/

/-- Reactions that take time: the density lies between the equilibrium density at the old and at the new conditions; a
time scale of zero gives the new equilibrium. -/
theorem kinetic_between (kin : Int) (tau dt rho0 rhoEq : ℝ) (ht : 0 ≤ tau) (hdt : 0 < dt) :
    min rho0 rhoEq ≤ kineticDensity kin tau dt rho0 rhoEq ∧ kineticDensity kin tau dt rho0 rhoEq ≤ max rho0 rhoEq
      ∧ kineticDensity kin 0 dt rho0 rhoEq = rhoEq := by
  unfold kineticDensity
  have hs : 0 < tau + dt := by linarith
  refine ⟨?_, ?_, ?_⟩
  · split
    · rw [one_div, ← div_eq_inv_mul, le_div_iff₀ hs]
      nlinarith [min_le_left rho0 rhoEq, min_le_right rho0 rhoEq]
    · exact min_le_right _ _
  · split
    · rw [one_div, ← div_eq_inv_mul, div_le_iff₀ hs]
      nlinarith [le_max_left rho0 rhoEq, le_max_right rho0 rhoEq]
    · exact le_max_right _ _
  · split
    · field_simp; ring
    · rfl

/-- Without affinity (`kin = 9` and a reaction that does not run) the time scale is zero; with a positive one and
positive kinetic constants it is positive. -/
theorem kinetic_time (tau k S Q R T dG : ℝ) (hk : 0 < k) (hS : 0 < S) (hR : 0 < R) (hT : 0 < T) :
    (dG ≤ 0 → kineticTime 9 tau k S Q R T dG = 0) ∧ (0 < dG → 0 < kineticTime 9 tau k S Q R T dG) := by
  unfold kineticTime
  refine ⟨fun h => ?_, fun h => ?_⟩
  · rw [if_pos rfl, if_neg (not_lt.2 h)]
  · rw [if_pos rfl, if_pos h]
    have h1 : Real.log (1 - 6666666 / 10000000) < 0 := Real.log_neg (by norm_num) (by norm_num)
    have h2 : Real.exp (-dG / R / T) < 1 := by
      rw [Real.exp_lt_one_iff]
      have : 0 < dG / R / T := by positivity
      have h3 : -dG / R / T = -(dG / R / T) := by ring
      rw [h3]; linarith
    have h4 : 0 < 1 - Real.exp (-dG / R / T) := by linarith
    have h5 : 0 < S * (k * T * (Real.exp (-Q / R / T) * (1 - Real.exp (-dG / R / T)))) := by
      have := Real.exp_pos (-Q / R / T); positivity
    have h6 : (-2 * S * (k * T * (Real.exp (-Q / R / T) * (1 - Real.exp (-dG / R / T)))))⁻¹ < 0 := by
      rw [inv_lt_zero]; nlinarith
    exact mul_pos_of_neg_of_neg h1 h6

end Verif.Point
