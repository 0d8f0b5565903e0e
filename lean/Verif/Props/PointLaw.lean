import Verif.Spec.PointLaw
import Verif.Props.LocalIter
import Verif.Props.Rheology

/-!
C120: isotropic materials have no preferred direction.
-/
namespace Verif.Point
open Verif Verif.Spec

theorem invariant_turn (a : ℝ) (t : Tensor) : invariant (turn a t) = invariant t := by
  unfold invariant turn
  congr 1
  have h : Real.sin a ^ 2 = 1 - Real.cos a ^ 2 := by linarith [Real.sin_sq_add_cos_sq a]
  have h4 : Real.sin a ^ 4 = (1 - Real.cos a ^ 2) ^ 2 := by rw [← h]; ring
  have h3 : Real.sin a ^ 3 = Real.sin a * (1 - Real.cos a ^ 2) := by rw [← h]; ring
  simp only
  ring_nf
  simp only [h, h4, h3]
  ring

theorem turn_smul (a k : ℝ) (t : Tensor) :
    turn a ⟨k * t.xx, k * t.zz, k * t.xz⟩ = ⟨k * (turn a t).xx, k * (turn a t).zz, k * (turn a t).xz⟩ := by
  unfold turn; ext <;> simp only <;> ring

/-- The state seen in turned axes. -/
noncomputable def In.turned (a : ℝ) (i : In) : In := { i with E := turn a i.E, old := turn a i.old }

/-- The result seen in turned axes. -/
noncomputable def Res.turned (a : ℝ) : Res → Res
  | .ok o => .ok { o with T := turn a o.T }
  | r => r

private theorem finish_turn (v : Env) (m : Mat) (c : LocalIter.Creep) (i : In) (cell : Bool) (E etaVe tii a : ℝ) :
    finish v m c (i.turned a) cell E etaVe tii = (finish v m c i cell E etaVe tii).turned a := by
  have hy : yielding v m (i.turned a) E etaVe tii = yielding v m i E etaVe tii := rfl
  have hd : plasticDivergence v m (i.turned a) E etaVe tii = plasticDivergence v m i E etaVe tii := rfl
  have hm : moduli v (i.turned a) = moduli v i := rfl
  unfold finish
  rw [hy, hd, hm]
  dsimp only
  generalize yielding v m i E etaVe tii = pl
  generalize effViscosity pl E etaVe = k
  generalize dissInverse m c pl tii = w
  split
  · rfl
  · split
    · rfl
    · simp only [Res.turned]
      have hE : (i.turned a).E = turn a i.E := rfl
      have ho : (i.turned a).old = turn a i.old := rfl
      have hP : (i.turned a).P0 = i.P0 := rfl
      rw [hE, ho, hP]
      congr 2
      · exact (turn_smul a (2 * k) i.E).symm
      · split
        · refine Eq.trans ?_ (invariant_turn a _)
          congr 1
          unfold turn
          ext <;> simp only <;> ring
        · rfl

/-- The stress update does not know the direction of the axes: in turned axes it gives the same viscosities, strain
rates, works, pressure and divergences, the same stress expressed in the turned axes, and it stops the program in the
same cases. -/
theorem update_turned (v : Env) (m : Mat) (huet : ℝ × ℝ → ℝ × ℝ) (i : In) (cell : Bool) (a : ℝ) :
    update v m huet (i.turned a) cell = (update v m huet i cell).turned a := by
  have hc : creep v m huet (i.turned a) = creep v m huet i := rfl
  have hr : rate v (i.turned a).E = rate v i.E := by
    show rate v (turn a i.E) = _
    unfold rate; rw [invariant_turn]
  have hd : (i.turned a).d = i.d := rfl
  unfold update
  rw [hc, hr, hd]
  split
  · rfl
  · dsimp only
    split
    · rfl
    · rfl
    · exact finish_turn v m _ i cell _ _ _ a

/-! ### The mechanisms at a node -/

theorem law_pos (v : Env) (pre T P d phi : ℝ) (l : Flow.Law) (hl : GoodLaw l) (hp : 0 < pre) (hd : 0 < d) :
    0 < prefactor v pre T P d phi l := by
  unfold prefactor Dens.pureB
  have hf : 0 < l.f ^ (-l.r / l.n) := by
    rcases hl.f with h | h
    · exact Real.rpow_pos_of_pos h _
    · rw [h, neg_zero, zero_div, Real.rpow_zero]; exact one_pos
  have hA := Real.rpow_pos_of_pos hl.A (-1 / l.n)
  have hdd := Real.rpow_pos_of_pos hd (l.m / l.n)
  have hF := hl.F
  positivity

theorem clampT_pos (v : Env) (h : 0 < v.sT) (T : ℝ) : 0 < clampT v T := by
  have h1 : 0 < 27315 / 100 / v.sT := by positivity
  unfold clampT
  split
  · exact h1
  · linarith

theorem peierls_ok (v : Env) (T hot : ℝ) (hT : 0 < T) (hTh : T ≤ hot) (hR : 0 < v.R) (l : Flow.Peierls) (hl : GoodPeierls v.R hot l) :
    0 < (peierls v T l).1 ∧ 1 ≤ (peierls v T l).2 := by
  have hG : 0 ≤ 1 - l.G := by linarith [hl.G.2]
  have hQ := hl.Q
  have hG0 := hl.G.1
  have hmono : l.Q / v.R / hot * 2 * l.G * (1 - l.G) ≤ l.Q / v.R / T * 2 * l.G * (1 - l.G) := by
    have : l.Q / v.R / hot ≤ l.Q / v.R / T := div_le_div_of_nonneg_left (by positivity) hT hTh
    have h2 := mul_le_mul_of_nonneg_right (mul_le_mul_of_nonneg_right (mul_le_mul_of_nonneg_right this zero_le_two) hG0.le) hG
    exact h2
  have hn := hl.n
  refine ⟨?_, by show 1 ≤ _ + l.n; linarith⟩
  unfold peierls Flow.peierlsF
  dsimp only
  have h2 := hl.S; have h3 := hl.E
  positivity

private theorem cst_pos (v : Env) (m : Mat) (i : In) (hs : Sound v m i) : 0 < constantViscosity v m i.X0 := by
  unfold constantViscosity
  have h1 := hs.eta0
  obtain ⟨hx0, hx1⟩ := hs.X
  cases hm : (if v.mixing then m.mixWith else none) with
  | none => exact h1
  | some e2 =>
    have h2 : 0 < e2 := by
      apply hs.mix e2
      by_cases hv : v.mixing = true
      · simpa [hv] using hm
      · simp [hv] at hm
    have h3 : 0 ≤ 1 - i.X0 := by linarith
    have key : ∀ a b : ℝ, 0 < a → 0 < b → 0 < i.X0 * a + (1 - i.X0) * b := by
      intro a b ha hb
      rcases eq_or_lt_of_le hx0 with h | h
      · rw [← h]; linarith
      · have := mul_pos h ha; have := mul_nonneg h3 hb.le; linarith
    simp only
    split
    · exact key _ _ h1 h2
    · split
      · have := key _ _ (inv_pos.2 h1) (inv_pos.2 h2)
        simpa [div_eq_mul_inv] using inv_pos.2 this
      · split
        · exact Real.exp_pos _
        · exact h1

theorem creep_physical (v : Env) (m : Mat) (i : In) (hs : Sound v m i) (huet : ℝ × ℝ → ℝ × ℝ)
    (hh : ∀ q, 0 < q.1 → 1 ≤ q.2 → 0 < (huet q).1 ∧ 1 ≤ (huet q).2) : Physical (creep v m huet i) := by
  have hT := clampT_pos v hs.sT i.T
  refine ⟨?_, ?_, ?_, ?_, ?_, ?_, hs.d⟩
  · intro e he
    by_cases hv : v.el = true
    · have h0 : v.step0 = false := by simpa [Env.el] using (by simpa [Env.el] using hv : _ ∧ _).2
      simp only [creep, hv, if_true, moduli, Env.dtEff, h0, Option.mem_def, Option.some.injEq] at he
      rw [← he]; exact mul_pos hs.G (by simpa using hs.dt)
    · simp [creep, hv] at he
  · intro e he
    by_cases hv : m.cst = true
    · simp only [creep, hv, if_true, Option.mem_def, Option.some.injEq] at he
      rw [← he]; exact cst_pos v m i hs
    · simp [creep, hv] at he
  · intro q hq
    by_cases hv : m.pwl = true
    · simp only [creep, hv, if_true, Option.mem_def, Option.some.injEq] at hq
      rw [← hq]; exact hh _ (law_pos v _ _ _ _ _ _ (hs.pwl hv) hs.pre hs.d) (hs.pwl hv).n
    · simp [creep, hv] at hq
  · intro q hq
    by_cases hv : m.exp = true ∧ i.T < (1200 + 27315 / 100) / v.sT
    · simp only [creep, hv, and_self, if_true, Option.mem_def, Option.some.injEq] at hq
      rw [← hq]
      refine peierls_ok v _ _ hT ?_ hs.R _ (hs.exp hv.1)
      have := hs.sT
      unfold clampT
      split
      · apply div_le_div_of_nonneg_right _ this.le
        norm_num
      · exact hv.2.le
    · simp [creep, hv] at hq
  · intro q hq
    by_cases hv : m.lin = true
    · simp only [creep, hv, if_true, Option.mem_def, Option.some.injEq] at hq
      rw [← hq]; exact ⟨law_pos v _ _ _ _ _ _ (hs.lin hv) one_pos one_pos, (hs.lin hv).n⟩
    · simp [creep, hv] at hq
  · intro q hq
    simp [creep, hs.gbs] at hq

/-- Strain rate of the mechanisms that do not store energy. -/
noncomputable def creepRate (c : LocalIter.Creep) (t : ℝ) : ℝ :=
  powerRate c.exp t + powerRate c.pwl t + linRate c t + cstRate c t

private theorem pref_eq {B n t : ℝ} (hB : 0 < B) (ht : 0 ≤ t) : LocalIter.pref B n * t ^ n = (t / (2 * B)) ^ n := by
  unfold LocalIter.pref
  rw [Real.rpow_neg (by positivity), Real.div_rpow ht (by positivity)]
  field_simp

theorem powerInv_eq (o : Option (ℝ × ℝ)) (ho : ∀ q ∈ o, 0 < q.1 ∧ 1 ≤ q.2) (t : ℝ) (ht : 0 < t) :
    powerInv o (powerRate o t) = 2 * powerRate o t / t := by
  cases o with
  | none => simp [powerInv, powerRate]
  | some q =>
    obtain ⟨hB, hn⟩ := ho q rfl
    simp only [powerInv, powerRate]
    rw [pref_eq hB ht.le]
    have hx : 0 < t / (2 * q.1) := by positivity
    have h1 : ((t / (2 * q.1)) ^ q.2) ^ (1 / q.2 - 1) = (t / (2 * q.1)) / (t / (2 * q.1)) ^ q.2 := by
      rw [← Real.rpow_mul hx.le, show q.2 * (1 / q.2 - 1) = 1 - q.2 by field_simp, Real.rpow_sub hx, Real.rpow_one]
    rw [h1]
    have h2 : 0 < (t / (2 * q.1)) ^ q.2 := Real.rpow_pos_of_pos hx _
    field_simp

theorem linInv_eq (c : LocalIter.Creep) (hc : Physical c) (d1 : ℝ) (hd : c.lin.isSome → d1 = c.d) (t : ℝ)
    (ht : 0 < t) :
    linInv c d1 (linRate c t) = 2 * linRate c t / t := by
  have hl := hc.lin
  have hd0 := hc.d
  unfold linInv linRate
  cases h : c.lin with
  | none => simp
  | some q =>
    obtain ⟨hB, hn⟩ := hl q h
    rw [hd (by simp [h])]
    simp only
    generalize c.d = d at *
    rw [pref_eq hB ht.le]
    have hx : 0 < t / (2 * q.1) := by positivity
    have hX : 0 < (t / (2 * q.1)) ^ q.2.1 := Real.rpow_pos_of_pos hx _
    have h1 : ((t / (2 * q.1)) ^ q.2.1 * d ^ (-q.2.2)) ^ (1 / q.2.1 - 1)
        = (t / (2 * q.1)) / (t / (2 * q.1)) ^ q.2.1 * (d ^ (-(q.2.2 / q.2.1)) / d ^ (-q.2.2)) := by
      rw [Real.mul_rpow hX.le (Real.rpow_pos_of_pos hd0 _).le, ← Real.rpow_mul hx.le,
        show q.2.1 * (1 / q.2.1 - 1) = 1 - q.2.1 by field_simp, Real.rpow_sub hx, Real.rpow_one,
        ← Real.rpow_mul hd0.le, show -q.2.2 * (1 / q.2.1 - 1) = -(q.2.2 / q.2.1) - (-q.2.2) by field_simp; ring,
        Real.rpow_sub hd0]
    rw [h1, Real.rpow_neg hd0.le, Real.rpow_neg hd0.le]
    have h3 : 0 < d ^ q.2.2 := Real.rpow_pos_of_pos hd0 _
    have h4 : 0 < d ^ (q.2.2 / q.2.1) := Real.rpow_pos_of_pos hd0 _
    field_simp

theorem inverse_eq (c : LocalIter.Creep) (hc : Physical c) (d1 : ℝ) (hd : c.lin.isSome → d1 = c.d) (t : ℝ)
    (ht : 0 < t) (pl : Option ℝ) :
    inverse c d1 (powerRate c.exp t) (powerRate c.pwl t) (linRate c t) pl
      = 2 * creepRate c t / t + pl.elim 0 (fun e => 1 / e) := by
  unfold inverse creepRate
  rw [powerInv_eq c.exp hc.exp t ht, powerInv_eq c.pwl hc.pwl t ht, linInv_eq c hc d1 hd t ht]
  have h1 : cstInv c = 2 * cstRate c t / t := by
    unfold cstInv cstRate
    cases h : c.cst with
    | none => simp
    | some e => have := hc.cst e h; field_simp
  rw [h1]
  ring

theorem flow_viscous (c : LocalIter.Creep) (hc : Physical c) (t : ℝ) (ht : 0 < t) :
    flowWithoutGbs c t = part c.el (fun e => t / (2 * e)) + creepRate c t := by
  unfold flowWithoutGbs creepRate part
  have e0 : ∀ o : Option (ℝ × ℝ), (∀ q ∈ o, 0 < q.1 ∧ 1 ≤ q.2) →
      o.elim 0 (fun q => (t / (2 * q.1)) ^ q.2) = powerRate o t := by
    intro o ho
    cases o with
    | none => rfl
    | some q => simp [powerRate, pref_eq (ho q rfl).1 ht.le]
  have e3 : c.lin.elim 0 (fun q => (t / (2 * q.1)) ^ q.2.1 * c.d ^ (-q.2.2)) = linRate c t := by
    unfold linRate
    cases h : c.lin with
    | none => rfl
    | some q => simp [pref_eq (hc.lin q h).1 ht.le]
  have e4 : c.cst.elim 0 (fun e => t / (2 * e)) = cstRate c t := by
    unfold cstRate
    cases h : c.cst with
    | none => rfl
    | some q => simp [div_div]
  rw [e0 _ hc.pwl, e0 _ hc.exp, e3, e4]
  ring

theorem viscous_nonneg (c : LocalIter.Creep) (hc : Physical c) (t : ℝ) (ht : 0 < t) : 0 ≤ creepRate c t := by
  have hp : ∀ o : Option (ℝ × ℝ), (∀ q ∈ o, 0 < q.1 ∧ 1 ≤ q.2) → 0 ≤ powerRate o t := by
    intro o ho
    cases o with
    | none => exact le_rfl
    | some q =>
      simp only [powerRate]
      rw [pref_eq (ho q rfl).1 ht.le]
      have := (ho q rfl).1
      positivity
  have h1 := hp c.exp hc.exp
  have h2 := hp c.pwl hc.pwl
  have h3 : 0 ≤ linRate c t := by
    unfold linRate
    cases h : c.lin with
    | none => exact le_rfl
    | some q =>
      simp only
      have := (hc.lin q h).1
      have := hc.d
      rw [pref_eq (hc.lin q h).1 ht.le]
      positivity
  have h4 : 0 ≤ cstRate c t := by
    unfold cstRate
    cases h : c.cst with
    | none => exact le_rfl
    | some q => have := hc.cst q h; positivity
  unfold creepRate
  linarith

/-! ### Heat -/

theorem invariant_sq (e : Tensor) : 2 * invariant e ^ 2 = power e e := by
  unfold invariant power
  dsimp only
  rw [Real.sq_sqrt (by nlinarith [sq_nonneg e.xx, sq_nonneg e.zz, sq_nonneg e.xz, sq_nonneg (e.xx + e.zz)])]
  ring

theorem balance_elastic {t tii x E q V d : ℝ} (ht : 0 < t) (ht1 : t ≤ 1 / 10) (hE : 0 < E) (htii : 0 < tii)
    (hq : 0 ≤ q) (hV : 0 ≤ V) (h1 : x ≤ tii) (h2 : (1 - t) * tii ≤ x) (h3 : |E - (tii * q / 2 + V)| ≤ t * E)
    (hd : d = tii * tii * (2 * V / tii)) :
    |d - (2 * x * E - x * x * q)| ≤ 5 * t * (2 * x * E) := by
  have hd' : d = 2 * tii * V := by rw [hd]; field_simp
  obtain ⟨h4, h5⟩ := abs_le.1 h3
  rw [hd', abs_le]
  have hx : 0 < x := lt_of_lt_of_le (mul_pos (by linarith) htii) h2
  have e1 : tii * q ≤ 2 * E * (1 + t) := by nlinarith
  have e2 : 0 ≤ tii - x := by linarith
  have e3 : tii - x ≤ t * tii := by linarith
  have e4 : 0 ≤ tii * E := by positivity
  have e5 : 9 / 10 * tii ≤ x := by nlinarith
  have e6 : 0 ≤ (tii * tii - x * x) * q := by
    apply mul_nonneg _ hq; nlinarith
  have e7 : (tii * tii - x * x) * q ≤ 2 * t * (tii * (tii * q)) := by
    have : tii * tii - x * x ≤ 2 * t * (tii * tii) := by nlinarith
    nlinarith [mul_le_mul_of_nonneg_right this hq]
  have e8 : tii * (tii * q) ≤ tii * (2 * E * (1 + t)) := mul_le_mul_of_nonneg_left e1 htii.le
  have e9 : 9 / 10 * (tii * E) ≤ x * E := by nlinarith
  have e10 : (tii - x) * E ≤ t * (tii * E) := by nlinarith
  have e11 : 0 ≤ (tii - x) * E := by positivity
  have e12 : t * (tii * E) ≤ 10 / 9 * (t * (x * E)) := by nlinarith
  have e13 : 0 ≤ t * (x * E) := by positivity
  have e14 : t * (tii * (tii * q)) ≤ t * (tii * (2 * E * (1 + t))) := mul_le_mul_of_nonneg_left e8 ht.le
  have e15 : t * t * (tii * E) ≤ 1 / 10 * (t * (tii * E)) := by
    have := mul_nonneg ht.le e4; nlinarith
  constructor
  · nlinarith
  · nlinarith

theorem balance_plastic {t tii x y E q V etaVe g d : ℝ} (ht : 0 < t) (ht1 : t ≤ 1 / 10) (hE : 0 < E)
    (htii : 0 < tii) (h1 : x ≤ tii) (h2 : (1 - t) * tii ≤ x) (hx : x = 2 * etaVe * E)
    (h3 : |E - (tii * q / 2 + V)| ≤ t * E) (hy : 0 < y) (hyt : y ≤ tii) (hg : tii - y = etaVe * g) (hev : 0 < etaVe)
    (hd : d = y * y * (2 * V / tii + g / y)) :
    |d - (2 * y * E - y * y * q)| ≤ 5 * t * (2 * y * E) := by
  -- fraction of the trial stress that is left
  obtain ⟨r, hr⟩ : ∃ r, r = y / tii := ⟨_, rfl⟩
  have hr0 : 0 < r := by rw [hr]; positivity
  have hr1 : r ≤ 1 := by rw [hr]; exact (div_le_one htii).2 hyt
  have hyr : y = r * tii := by rw [hr]; field_simp
  have hx0 : 0 < x := by rw [hx]; positivity
  have hgg : g = (1 - r) * tii * (2 * E) / x := by
    rw [hx]; field_simp; rw [mul_comm, ← hg, hyr]; ring
  obtain ⟨s, hs⟩ : ∃ s, s = tii / x := ⟨_, rfl⟩
  have hs1 : 1 ≤ s := by rw [hs, one_le_div hx0]; exact h1
  have hs2 : s - 1 ≤ 10 / 9 * t := by
    rw [hs, tsub_le_iff_right, div_le_iff₀ hx0]; nlinarith
  have hgs : g = (1 - r) * s * (2 * E) := by rw [hgg, hs]; ring
  have hd' : d = y * (2 * r * V + g) := by rw [hd, hyr]; field_simp
  obtain ⟨h4, h5⟩ := abs_le.1 h3
  have key : d - (2 * y * E - y * y * q) = 2 * y * (r * (V + tii * q / 2 - E) + (1 - r) * (s - 1) * E) := by
    rw [hd', hgs, hyr]; ring
  rw [key, abs_mul, abs_of_pos (by positivity : 0 < 2 * y)]
  have hb : |r * (V + tii * q / 2 - E) + (1 - r) * (s - 1) * E| ≤ 5 * t * E := by
    rw [abs_le]
    have f1 : 0 ≤ (1 - r) * (s - 1) := mul_nonneg (by linarith) (by linarith)
    have f2 : (1 - r) * (s - 1) ≤ 10 / 9 * t := by nlinarith
    have f3 := mul_le_mul_of_nonneg_right f2 hE.le
    have f4 := mul_nonneg f1 hE.le
    have f5 : 0 < t * E := by positivity
    constructor <;> nlinarith
  calc 2 * y * |r * (V + tii * q / 2 - E) + (1 - r) * (s - 1) * E| ≤ 2 * y * (5 * t * E) :=
        mul_le_mul_of_nonneg_left hb (by positivity)
    _ = _ := by ring

theorem yielding_simple (v : Env) (m : Mat) (i : In) (hp : m.plast = true → SimplePlastic v m i)
    (E etaVe tii : ℝ) (he : 0 < etaVe) :
    (yielding v m i E etaVe tii = ⟨tii, i.P, 0, m.etaVp, false⟩ ∧ (m.plast = true → tii ≤ yieldStrength m i + 1 / 10 ^ 17))
    ∨ (m.plast = true ∧ (yielding v m i E etaVe tii).active = true
        ∧ (yielding v m i E etaVe tii).tii
            = yieldStrength m i + m.etaVp * (yielding v m i E etaVe tii).gdot
        ∧ 0 < (yielding v m i E etaVe tii).gdot
        ∧ (yielding v m i E etaVe tii).tii < tii
        ∧ tii - (yielding v m i E etaVe tii).tii = etaVe * (yielding v m i E etaVe tii).gdot
        ∧ (yielding v m i E etaVe tii).pc = i.P ∧ (yielding v m i E etaVe tii).etaVp = m.etaVp) := by
  by_cases hpl : m.plast = true
  · have h := hp hpl
    have hcap : strength m i = yieldStrength m i := Rheo.yield_cap _ _ _ _ _
    by_cases hF : 1 / 10 ^ 17 < tii - strength m i
    · right
      have hone : ∀ x : ℝ, x ^ (1 / m.nVp - 1) = 1 := by
        intro x; rw [h.nVp]; norm_num
      have hsind : Real.sin (moduli v i).2.1 = 0 := by
        unfold moduli
        split
        · next hv => exact h.dil hv
        · exact Real.sin_zero
      have := Rheo.plastic_partial (retPar v m i etaVe tii) (E ^ (1 / m.nVp - 1)) (1 / 10 ^ 17) (10 ^ 5 / v.sS)
        i.C (Real.cos i.fric) (Real.sin i.fric) m.slim (fun x => hone x) (hone E) hsind he h.etaVp h.tol (by positivity)
        h.slim h.positive hF
      unfold yielding
      rw [if_pos hpl]
      obtain ⟨a, b, c, d, e, f, g⟩ := this
      exact ⟨hpl, g, a, b, c, d, e, f⟩
    · left
      unfold yielding
      rw [if_pos hpl, Rheo.plastic_inactive _ _ _ _ _ (not_lt.1 hF)]
      refine ⟨rfl, fun _ => ?_⟩
      rw [hcap] at hF
      linarith [not_lt.1 hF]
  · left
    unfold yielding
    rw [if_neg hpl]
    exact ⟨rfl, fun h => absurd h hpl⟩

/-- What the local iterations hand over: viscosity, stress and rates that belong together. -/
private theorem iterations (v : Env) (m : Mat) (huet : ℝ × ℝ → ℝ × ℝ) (i : In) (hs : Sound v m i)
    (hh : ∀ q, 0 < q.1 → 1 ≤ q.2 → 0 < (huet q).1 ∧ 1 ≤ (huet q).2)
    (hbig : ∃ x ∈ LocalIter.isolated (creep v m huet i) (rate v i.E), x ≤ 10 ^ 100 / v.sEta)
    (hE : 0 < rate v i.E) (etaVe tii : ℝ)
    (hr : LocalIter.run (creep v m huet i) (rate v i.E) (1 / 10 ^ 11) (10 ^ 100 / v.sEta) = .ok etaVe tii) :
    0 < etaVe ∧ 0 < tii ∧ 2 * etaVe * rate v i.E ≤ tii ∧ (1 - 1 / 10 ^ 11) * tii ≤ 2 * etaVe * rate v i.E
      ∧ |rate v i.E - (tii * (if v.el then 1 / (i.G * v.dt) else 0) / 2 + creepRate (creep v m huet i) tii)|
          ≤ 1 / 10 ^ 11 * rate v i.E := by
  have hc := creep_physical v m i hs huet hh
  have hg : (creep v m huet i).gbs = none := by simp [creep, hs.gbs]
  have hsome : (creep v m huet i).el.isSome ∨ (creep v m huet i).cst.isSome ∨ (creep v m huet i).pwl.isSome
      ∨ (creep v m huet i).exp.isSome ∨ (creep v m huet i).lin.isSome := by
    rcases hs.some with h | h | h | h <;> simp [creep, h]
  have hbp : (0 : ℝ) < 10 ^ 100 / v.sEta := div_pos (by positivity) hs.sEta
  rcases LocalIter.run_partition _ hc (rate v i.E) (1 / 10 ^ 11) (10 ^ 100 / v.sEta) hE (by positivity) hbp hsome
    with h | ⟨e, t, h1, h2, h3, h4⟩
  · rw [h] at hr; exact absurd hr (by simp)
  · rw [h1] at hr
    obtain ⟨rfl, rfl⟩ : e = etaVe ∧ t = tii := by simpa using hr
    obtain ⟨h5, h6⟩ := LocalIter.run_stress _ hc hg (rate v i.E) (1 / 10 ^ 11) (10 ^ 100 / v.sEta) hE (by positivity)
      hbp hbig _ _ h1
    refine ⟨h2, h3, h5, h6, ?_⟩
    rw [flow_viscous _ hc _ h3] at h4
    have : part (creep v m huet i).el (fun e => t / (2 * e)) = t * (if v.el then 1 / (i.G * v.dt) else 0) / 2 := by
      by_cases hv : v.el = true
      · have h0 : v.step0 = false := by simpa [Env.el] using (by simpa [Env.el] using hv : _ ∧ _).2
        have hG := hs.G
        have hdt := hs.dt
        simp only [creep, hv, if_true, moduli, Env.dtEff, h0, part, Option.elim_some]
        simp only [Bool.false_eq_true, if_false]
        field_simp
      · simp [creep, hv, part]
    rw [this] at h4
    exact h4

theorem power_smul (k : ℝ) (e : Tensor) : power ⟨k * e.xx, k * e.zz, k * e.xz⟩ e = k * (2 * invariant e ^ 2) := by
  rw [invariant_sq]; unfold power; ring

/-- The heat source is the work of the stress on the part of the strain rate that is not elastic: for every isotropic
phase whose mechanisms have meaningful parameters, with or without elasticity and plasticity (linear in the rate, no
dilation), the dissipation handed to the energy equation at a cell is never negative and equals stress times inelastic strain
rate, to a relative error of `1e-10` of the total stress power.  `e` is the strain rate, from which the effective strain rate `i.E`
is made with the stored stress.  Partial: not with grain boundary sliding (`sliding_gives_no_heat`), with diffusion
creep only where the grain size is the reference value (`heat_wrong_grain`), and at strengths that are not negative
(`tension_stops`). -/
theorem heat_partial (v : Env) (m : Mat) (huet : ℝ × ℝ → ℝ × ℝ) (i : In) (e : Tensor) (hs : Sound v m i)
    (hh : ∀ q, 0 < q.1 → 1 ≤ q.2 → 0 < (huet q).1 ∧ 1 ≤ (huet q).2)
    (hbig : ∃ x ∈ LocalIter.isolated (creep v m huet i) (rate v i.E), x ≤ 10 ^ 100 / v.sEta)
    (hp : m.plast = true → SimplePlastic v m i) (hd : m.lin = true → m.gsRef = i.d)
    (hfloor : 1 / 10 ^ 30 ≤ invariant i.E * v.sE)
    (he : i.E = if v.el then plus e (elasticRate (i.G * v.dt) i.old ⟨0, 0, 0⟩) else e)
    (o : Out) (hr : update v m huet i true = .ok o) :
    |o.wDiss - power o.T (if v.el then minus e (elasticRate (i.G * v.dt) o.T i.old) else e)|
        ≤ 1 / 10 ^ 10 * power o.T i.E
      ∧ 0 ≤ o.wDiss := by
  have hc := creep_physical v m i hs huet hh
  have hrate : rate v i.E = invariant i.E := by unfold rate; rw [if_neg (not_lt.2 hfloor)]
  have hEp : 0 < rate v i.E := by
    rw [hrate]
    by_contra hcon
    have h1 : invariant i.E * v.sE ≤ 0 := mul_nonpos_of_nonpos_of_nonneg (not_lt.1 hcon) hs.sE.le
    have h2 : (0 : ℝ) < 1 / 10 ^ 30 := by positivity
    linarith
  unfold update at hr
  split at hr
  · exact absurd hr (by simp)
  dsimp only at hr
  split at hr
  · exact absurd hr (by simp)
  · exact absurd hr (by simp)
  next etaVe tii hrun =>
  obtain ⟨hev, htii, hx1, hx2, hpart⟩ := iterations v m huet i hs hh hbig hEp etaVe tii hrun
  have hV := viscous_nonneg _ hc tii htii
  have hq0 : 0 ≤ (if v.el then 1 / (i.G * v.dt) else 0 : ℝ) := by
    split
    · exact (div_pos one_pos (mul_pos hs.G hs.dt)).le
    · exact le_rfl
  -- the work on the inelastic part
  have hwork : ∀ T : Tensor, ∀ k, T = ⟨2 * k * i.E.xx, 2 * k * i.E.zz, 2 * k * i.E.xz⟩ →
      power T i.E = 2 * (2 * k * rate v i.E) * rate v i.E
      ∧ power T (if v.el then minus e (elasticRate (i.G * v.dt) T i.old) else e)
        = 2 * (2 * k * rate v i.E) * rate v i.E
          - (2 * k * rate v i.E) * (2 * k * rate v i.E) * (if v.el then 1 / (i.G * v.dt) else 0) := by
    intro T k hT
    have h1 : power T i.E = 2 * (2 * k * rate v i.E) * rate v i.E := by
      rw [hT, power_smul, hrate]; ring
    refine ⟨h1, ?_⟩
    have h2 : power T T = 2 * (2 * k * rate v i.E) * (2 * k * rate v i.E) := by
      rw [hT, hrate]
      have := invariant_sq i.E
      unfold power at this ⊢
      linear_combination (-(2 * k) * (2 * k)) * this
    by_cases hv : v.el = true
    · have hk : 0 < i.G * v.dt := mul_pos hs.G hs.dt
      simp only [hv, if_true] at he ⊢
      have h3 : minus e (elasticRate (i.G * v.dt) T i.old) = minus i.E ⟨T.xx / (2 * (i.G * v.dt)), T.zz / (2 * (i.G * v.dt)),
          T.xz / (2 * (i.G * v.dt))⟩ := by
        rw [he]; unfold minus plus elasticRate
        ext <;> simp only <;> ring
      rw [h3]
      have h4 : ∀ a : ℝ, power T (minus i.E ⟨T.xx * a, T.zz * a, T.xz * a⟩) = power T i.E - a * power T T := by
        intro a; unfold power minus; simp only; ring
      have h5 := h4 (1 / (2 * (i.G * v.dt)))
      simp only [mul_one_div] at h5
      rw [h5, h1, h2]
      field_simp
    · simp only [hv, Bool.false_eq_true, if_false] at he ⊢
      rw [← he, h1]; ring
  unfold finish at hr
  dsimp only at hr
  split at hr
  · exact absurd hr (by simp)
  next hnan =>
  split at hr
  · exact absurd hr (by simp)
  next hneg =>
  simp only [Res.ok.injEq] at hr
  have hpos : 0 ≤ o.wDiss := by
    rw [← hr]
    simp only [if_true]
    by_contra hcon
    exact hneg ⟨rfl, not_le.1 hcon⟩
  refine ⟨?_, hpos⟩
  obtain ⟨hT, hw⟩ : o.T = _ ∧ o.wDiss = _ := by
    constructor <;> rw [← hr]
  obtain ⟨hw1, hw2⟩ := hwork _ _ hT
  rw [hw1, hw2, hw]
  clear hr hT hw hw1 hw2 hneg
  simp only [if_true]
  have hgr : (creep v m huet i).lin.isSome → m.gsRef = (creep v m huet i).d := by
    intro h
    apply hd
    by_contra hl
    simp [creep, hl] at h
  unfold dissInverse effViscosity
  rw [inverse_eq _ hc _ hgr tii htii]
  have h5 : (5 : ℝ) * (1 / 10 ^ 11) ≤ 1 / 10 ^ 10 := by norm_num
  rcases yielding_simple v m i hp (rate v i.E) etaVe tii hev with ⟨hy, _⟩ | ⟨hpl, ha, hty, hg, hlt, hrel, _, _⟩
  · rw [hy]
    simp only [Bool.false_eq_true, if_false, Option.elim_none, add_zero]
    refine le_trans (balance_elastic (by positivity) (by norm_num) hEp htii hq0 hV hx1 hx2 hpart rfl) ?_
    exact mul_le_mul_of_nonneg_right h5 (by positivity)
  · rw [ha] at hnan ⊢
    generalize yielding v m i (rate v i.E) etaVe tii = pl at *
    simp only [if_true, Option.elim_some]
    have hne : pl.tii ≠ 0 := fun h => hnan ⟨rfl, h⟩
    have hy0 : 0 < pl.tii := by
      have h1 : 0 ≤ yieldStrength m i := le_min (hp hpl).slim (hp hpl).positive
      have h2 : 0 ≤ m.etaVp * pl.gdot := mul_nonneg (hp hpl).etaVp hg.le
      exact lt_of_le_of_ne (by rw [hty]; linarith) (Ne.symm hne)
    have hsc : 2 * (pl.tii / (2 * rate v i.E)) * rate v i.E = pl.tii := by
      field_simp
    rw [hsc, one_div_div]
    refine le_trans (balance_plastic (by positivity) (by norm_num) hEp htii hx1 hx2 rfl hpart hy0 hlt.le hrel hev
      rfl) ?_
    exact mul_le_mul_of_nonneg_right h5 (by positivity)

theorem rate_ge (v : Env) (h : 0 < v.sE) (e : Tensor) : invariant e ≤ rate v e ∧ 0 < rate v e := by
  unfold rate
  split
  · next hlt =>
    refine ⟨?_, by positivity⟩
    rw [le_div_iff₀ h]; exact hlt.le
  · next hge =>
    refine ⟨le_rfl, ?_⟩
    by_contra hcon
    have h1 : invariant e * v.sE ≤ 0 := mul_nonpos_of_nonpos_of_nonneg (not_lt.1 hcon) h.le
    have h2 : (0 : ℝ) < 1 / 10 ^ 30 := by positivity
    exact hge (by linarith)

private theorem diss_nonneg (v : Env) (m : Mat) (huet : ℝ × ℝ → ℝ × ℝ) (i : In) (hc : Physical (creep v m huet i))
    (hp : m.plast = true → SimplePlastic v m i) (hg : m.lin = true → 0 < m.gsRef) (E etaVe tii : ℝ) (hev : 0 < etaVe)
    (htii : 0 < tii) :
    0 ≤ dissInverse m (creep v m huet i) (yielding v m i E etaVe tii) tii := by
  unfold dissInverse inverse
  have hP : ∀ o : Option (ℝ × ℝ), (∀ q ∈ o, 0 < q.1 ∧ 1 ≤ q.2) → 0 ≤ powerInv o (powerRate o tii) := by
    intro o ho
    cases o with
    | none => exact le_rfl
    | some q =>
      have := (ho q rfl).1
      simp only [powerInv, powerRate, LocalIter.pref]
      positivity
  have h1 := hP _ hc.exp
  have h2 := hP _ hc.pwl
  have h3 : 0 ≤ linInv (creep v m huet i) m.gsRef (linRate (creep v m huet i) tii) := by
    unfold linInv linRate
    cases h : (creep v m huet i).lin with
    | none => exact le_rfl
    | some q =>
      have := (hc.lin q h).1
      have := hc.d
      have hl : m.lin = true := by
        by_contra hl; simp [creep, hl] at h
      have := hg hl
      simp only [LocalIter.pref]
      positivity
  have h4 : 0 ≤ cstInv (creep v m huet i) := by
    unfold cstInv
    cases h : (creep v m huet i).cst with
    | none => exact le_rfl
    | some q => have := hc.cst q h; simp only; positivity
  have h5 : 0 ≤ (if (yielding v m i E etaVe tii).active = true then
      some ((yielding v m i E etaVe tii).tii / (yielding v m i E etaVe tii).gdot) else none).elim 0 (fun e => 1 / e) := by
    rcases yielding_simple v m i hp E etaVe tii hev with ⟨hy, _⟩ | ⟨hpl, ha, hty, hgd, _⟩
    · rw [hy]; simp
    · rw [ha]
      simp only [if_true, Option.elim_some]
      have h6 : 0 ≤ yieldStrength m i := le_min (hp hpl).slim (hp hpl).positive
      have h7 := (hp hpl).etaVp
      have : 0 ≤ (yielding v m i E etaVe tii).tii := by
        rw [hty]
        have := mul_nonneg h7 hgd.le
        linarith
      positivity
  linarith

/-- With meaningful parameters and a strength that is not negative the update of a cell or vertex either gives a result or
stops because the local iterations did not converge (`exit(0)`); it never stops for a negative dissipation and never
divides by zero.  Partial: false in tension (`tension_stops`). -/
theorem update_total_partial (v : Env) (m : Mat) (huet : ℝ × ℝ → ℝ × ℝ) (i : In) (cell : Bool) (hs : Sound v m i)
    (hh : ∀ q, 0 < q.1 → 1 ≤ q.2 → 0 < (huet q).1 ∧ 1 ≤ (huet q).2)
    (hp : m.plast = true → SimplePlastic v m i) (hpos : m.plast = true → 0 < m.etaVp ∨ 0 < yieldStrength m i)
    (hg : m.lin = true → 0 < m.gsRef) (hd : 1 / 10 ^ 13 / v.sL ≤ i.d) :
    update v m huet i cell = .exit 0 ∨ ∃ o, update v m huet i cell = .ok o := by
  have hc := creep_physical v m i hs huet hh
  have hE := (rate_ge v hs.sE i.E).2
  have hsome : (creep v m huet i).el.isSome ∨ (creep v m huet i).cst.isSome ∨ (creep v m huet i).pwl.isSome
      ∨ (creep v m huet i).exp.isSome ∨ (creep v m huet i).lin.isSome := by
    rcases hs.some with h | h | h | h <;> simp [creep, h]
  unfold update
  rw [if_neg (fun h => absurd h.2.2 (not_lt.2 hd))]
  dsimp only
  rcases LocalIter.run_partition _ hc (rate v i.E) (1 / 10 ^ 11) (10 ^ 100 / v.sEta) hE (by positivity)
    (div_pos (by positivity) hs.sEta) hsome with h | ⟨etaVe, tii, h1, hev, htii, _⟩
  · rw [h]; exact Or.inl rfl
  · rw [h1]
    right
    have hdi := diss_nonneg v m huet i hc hp hg (rate v i.E) etaVe tii hev htii
    simp only [finish]
    rw [if_neg, if_neg]
    · exact ⟨_, rfl⟩
    · rintro ⟨_, h⟩
      have := mul_nonneg (mul_self_nonneg (yielding v m i (rate v i.E) etaVe tii).tii) hdi
      linarith
    · rintro ⟨ha, h0⟩
      rcases yielding_simple v m i hp (rate v i.E) etaVe tii hev with ⟨hy, _⟩ | ⟨hpl, _, hty, hgd, _⟩
      · rw [hy] at ha; exact absurd ha (by simp)
      · rw [h0] at hty
        have h6 : 0 ≤ yieldStrength m i := le_min (hp hpl).slim (hp hpl).positive
        have h7 := mul_nonneg (hp hpl).etaVp hgd.le
        rcases hpos hpl with h | h
        · have := mul_pos h hgd; linarith
        · linarith

theorem invariant_smul (k : ℝ) (hk : 0 ≤ k) (e : Tensor) :
    invariant ⟨k * e.xx, k * e.zz, k * e.xz⟩ = k * invariant e := by
  unfold invariant
  dsimp only
  rw [← Real.sqrt_sq hk, ← Real.sqrt_mul (sq_nonneg k), Real.sqrt_sq hk]
  congr 1
  ring

/-- The stress has the direction of the effective strain rate, and in a plastic material its invariant is not above the strength
plus the overstress (and the threshold of `1e-17` below which yielding is not looked for); the overstress is the visco-plastic viscosity
times the plastic rate and is not negative.  Viscosities are within the limits given by the user. -/
theorem stress_below_strength (v : Env) (m : Mat) (huet : ℝ × ℝ → ℝ × ℝ) (i : In) (cell : Bool) (hs : Sound v m i)
    (hh : ∀ q, 0 < q.1 → 1 ≤ q.2 → 0 < (huet q).1 ∧ 1 ≤ (huet q).2)
    (hbig : ∃ x ∈ LocalIter.isolated (creep v m huet i) (rate v i.E), x ≤ 10 ^ 100 / v.sEta)
    (hp : m.plast = true → SimplePlastic v m i) (hlim : v.minEta ≤ v.maxEta)
    (o : Out) (hr : update v m huet i cell = .ok o) :
    (∃ k, 0 ≤ k ∧ o.T = ⟨2 * k * i.E.xx, 2 * k * i.E.zz, 2 * k * i.E.xz⟩
      ∧ o.etaVE = max v.minEta (min v.maxEta k))
    ∧ (m.plast = true → invariant o.T ≤ yieldStrength m i + o.overS + 1 / 10 ^ 17)
    ∧ o.overS = 2 * m.etaVp * o.eIIpl ∧ 0 ≤ o.eIIpl ∧ o.pcorr = i.P
    ∧ v.minEta ≤ o.etaVE ∧ o.etaVE ≤ v.maxEta ∧ v.minEta ≤ o.eta ∧ o.eta ≤ v.maxEta := by
  have hc := creep_physical v m i hs huet hh
  obtain ⟨hinv, hEp⟩ := rate_ge v hs.sE i.E
  have hI : 0 ≤ invariant i.E := Real.sqrt_nonneg _
  have hmax : ∀ x, Rheo.limiter v.minEta v.maxEta x = max v.minEta (min v.maxEta x) := by
    intro x
    unfold Rheo.limiter
    rcases lt_or_ge v.maxEta x with h | h
    · simp only [h, if_true]
      rw [if_neg (not_lt.2 hlim), min_eq_left h.le, max_eq_right hlim]
    · simp only [not_lt.2 h, if_false]
      rw [min_eq_right h]
      split
      · next h2 => rw [max_eq_left h2.le]
      · next h2 => rw [max_eq_right (not_lt.1 h2)]
  unfold update at hr
  split at hr
  · exact absurd hr (by simp)
  dsimp only at hr
  split at hr
  · exact absurd hr (by simp)
  · exact absurd hr (by simp)
  next etaVe tii hrun =>
  obtain ⟨hev, htii, hx1, hx2, hpart⟩ := iterations v m huet i hs hh hbig hEp etaVe tii hrun
  unfold finish at hr
  dsimp only at hr
  split at hr
  · exact absurd hr (by simp)
  split at hr
  · exact absurd hr (by simp)
  simp only [Res.ok.injEq] at hr
  have hk : 0 ≤ effViscosity (yielding v m i (rate v i.E) etaVe tii) (rate v i.E) etaVe
      ∧ (m.plast = true → 2 * effViscosity (yielding v m i (rate v i.E) etaVe tii) (rate v i.E) etaVe * rate v i.E
          ≤ yieldStrength m i + m.etaVp * (yielding v m i (rate v i.E) etaVe tii).gdot + 1 / 10 ^ 17)
      ∧ (yielding v m i (rate v i.E) etaVe tii).etaVp = m.etaVp
      ∧ (yielding v m i (rate v i.E) etaVe tii).pc = i.P
      ∧ 0 ≤ (yielding v m i (rate v i.E) etaVe tii).gdot
      ∧ ((yielding v m i (rate v i.E) etaVe tii).active = false → (yielding v m i (rate v i.E) etaVe tii).gdot = 0) := by
    rcases yielding_simple v m i hp (rate v i.E) etaVe tii hev with ⟨hy, hle⟩ | ⟨hpl, ha, hty, hgd, _, _, hpc, hvp⟩
    · rw [hy]
      simp only [effViscosity, Bool.false_eq_true, if_false, mul_zero, add_zero]
      exact ⟨hev.le, fun h => le_trans hx1 (hle h), trivial, trivial, le_rfl, fun _ => trivial⟩
    · have h6 : 0 ≤ yieldStrength m i := le_min (hp hpl).slim (hp hpl).positive
      have h7 := mul_nonneg (hp hpl).etaVp hgd.le
      simp only [effViscosity, ha, if_true]
      refine ⟨?_, fun _ => ?_, hvp, hpc, hgd.le, fun h => absurd h (by simp)⟩
      · rw [hty]; positivity
      · have : 2 * ((yielding v m i (rate v i.E) etaVe tii).tii / (2 * rate v i.E)) * rate v i.E
            = (yielding v m i (rate v i.E) etaVe tii).tii := by field_simp
        rw [this, hty]
        have : (0 : ℝ) ≤ 1 / 10 ^ 17 := by positivity
        linarith
  generalize yielding v m i (rate v i.E) etaVe tii = pl at *
  obtain ⟨hk0, hk1, hvp, hpc, hgd, hina⟩ := hk
  obtain ⟨k, hkk⟩ : ∃ k, k = effViscosity pl (rate v i.E) etaVe := ⟨_, rfl⟩
  rw [← hkk] at hk0 hk1 hr
  rw [← hr]
  refine ⟨⟨k, hk0, rfl, hmax k⟩, ?_, ?_, ?_, hpc, ?_, ?_, ?_, ?_⟩
  · intro h
    simp only
    rw [invariant_smul (2 * k) (by positivity), hvp]
    refine le_trans (mul_le_mul_of_nonneg_left hinv (by positivity)) (hk1 h)
  · simp only
    rw [hvp]
    by_cases ha : pl.active = true
    · rw [if_pos ha]; ring
    · rw [if_neg ha, hina (by simpa using ha)]; ring
  · simp only
    split
    · positivity
    · exact le_rfl
  · simp only [hmax]; exact le_max_left _ _
  · simp only [hmax]; exact max_le hlim (min_le_left _ _)
  · simp only
    split
    · exact hlim
    · rw [hmax]; exact le_max_left _ _
  · simp only
    split
    · exact le_rfl
    · rw [hmax]; exact max_le hlim (min_le_left _ _)

end Verif.Point
