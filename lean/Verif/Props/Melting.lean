import Verif.Model.Melting
import Verif.Spec.Rheology
import Mathlib.Algebra.Order.Floor.Semiring
import Mathlib.Data.Rat.Floor
import Mathlib.Tactic.FieldSimp
import Mathlib.Tactic.Linarith
import Mathlib.Tactic.NormNum
import Mathlib.Tactic.Positivity

/-!
C56 (melt fraction), C57 (table look-ups), C76 (effective heat capacity).
-/
set_option linter.unusedSectionVars false
namespace Verif.Melt
open Verif Verif.Spec

/-! ### C56 -/

private theorem clamp01 (x : ℝ) : 0 ≤ (if 1 < (if x < 0 then 0 else x) then 1 else (if x < 0 then 0 else x))
    ∧ (if 1 < (if x < 0 then 0 else x) then 1 else (if x < 0 then 0 else x)) ≤ 1 := by
  constructor <;> split_ifs <;> linarith

private theorem clamp_eq (x : ℝ) :
    (if 1 < (if x < 0 then 0 else x) then 1 else (if x < 0 then 0 else x)) = min 1 (max 0 x) := by
  by_cases h : x < 0
  · rw [if_pos h, if_neg (by norm_num), max_eq_left h.le, min_eq_right zero_le_one]
  · rw [if_neg h, max_eq_right (not_lt.1 h)]
    by_cases h1 : 1 < x
    · rw [if_pos h1, min_eq_left h1.le]
    · rw [if_neg h1, min_eq_right (not_lt.1 h1)]

/-- The melt fraction is always between zero and one. -/
theorem melt_range (P T phi0 tk dt : ℝ) (m : Int) (sS sT : ℝ) :
    0 ≤ melt P T phi0 tk dt m sS sT ∧ melt P T phi0 tk dt m sS sT ≤ 1 := by
  unfold melt
  split
  · simp only []
    split
    · exact clamp01 _
    · norm_num
  · norm_num

/-- Phases without melting model do not melt. -/
theorem melt_none (P T phi0 tk dt : ℝ) (m : Int) (sS sT : ℝ) (h : m ≤ 0) : melt P T phi0 tk dt m sS sT = 0 := by
  unfold melt
  rw [if_neg (fun h2 => absurd h2.1 (by omega))]

/-- Known melting models. -/
def Known (m : Int) : Prop := m = 1 ∨ m = 10 ∨ m = 11 ∨ m = 40 ∨ m = 41

private theorem liquidus_known (m : Int) (hm : Known m) (p t t' : ℝ) : liquidus m p t = liquidus m p t' := by
  rcases hm with h | h | h | h | h <;> subst h <;> simp [liquidus]

private theorem solidus_known (m : Int) (hm : Known m) (p t t' : ℝ) : solidus m p t = solidus m p t' := by
  rcases hm with h | h | h | h | h <;> subst h <;> simp [solidus]

private theorem liquidus_pos (m : Int) (hm : Known m) (p t : ℝ) (hp : 0 < p) : 0 < liquidus m p t := by
  rcases hm with h | h | h | h | h <;> subst h <;> norm_num [liquidus] <;> positivity

private theorem capped_lt (ts tl : ℝ) : capped ts tl ≤ tl - 100 := by
  unfold capped; split <;> linarith

/-- The equilibrium law, for either sign of the curvature: zero at the solidus, one at the liquidus,
increasing. -/
private theorem law (a ts tl : ℝ) (ha : a ≠ 0) (h : ts < tl) :
    (∀ s t, s ≤ t → (Real.exp (a * s) - Real.exp (a * ts)) / (Real.exp (a * tl) - Real.exp (a * ts))
        ≤ (Real.exp (a * t) - Real.exp (a * ts)) / (Real.exp (a * tl) - Real.exp (a * ts)))
    ∧ (Real.exp (a * ts) - Real.exp (a * ts)) / (Real.exp (a * tl) - Real.exp (a * ts)) = 0
    ∧ (Real.exp (a * tl) - Real.exp (a * ts)) / (Real.exp (a * tl) - Real.exp (a * ts)) = 1 := by
  rcases lt_or_gt_of_ne ha with hn | hp
  · have hd : Real.exp (a * tl) - Real.exp (a * ts) < 0 := by
      have : Real.exp (a * tl) < Real.exp (a * ts) := Real.exp_lt_exp.2 (by nlinarith)
      linarith
    refine ⟨?_, by simp, div_self hd.ne⟩
    intro s t hst
    have : Real.exp (a * t) ≤ Real.exp (a * s) := Real.exp_le_exp.2 (by nlinarith)
    exact (div_le_div_right_of_neg hd).2 (by linarith)
  · have hd : 0 < Real.exp (a * tl) - Real.exp (a * ts) := by
      have : Real.exp (a * ts) < Real.exp (a * tl) := Real.exp_lt_exp.2 (by nlinarith)
      linarith
    refine ⟨?_, by simp, div_self hd.ne'⟩
    intro s t hst
    have : Real.exp (a * s) ≤ Real.exp (a * t) := Real.exp_le_exp.2 (by nlinarith)
    exact div_le_div_of_nonneg_right (by linarith) hd.le

private theorem curvature_ne (m : Int) (sT : ℝ) (h : 0 < sT) : curvature m sT ≠ 0 := by
  unfold curvature
  split
  · norm_num
  · positivity

private theorem melt_eq (P T phi0 tk dt : ℝ) (m : Int) (sS sT : ℝ) (hm : Known m) (hS : 0 < sS)
    (hT : 1e-13 < T) (hP : 1e-13 < P) :
    melt P T phi0 tk dt m sS sT
      = min 1 (max 0 (dt / (tk + dt) * ((Real.exp (curvature m sT * (T * sT))
            - Real.exp (curvature m sT * capped (solidus m (P / 1e6 * sS) 0) (liquidus m (P / 1e6 * sS) 0)))
          / (Real.exp (curvature m sT * liquidus m (P / 1e6 * sS) 0)
            - Real.exp (curvature m sT * capped (solidus m (P / 1e6 * sS) 0) (liquidus m (P / 1e6 * sS) 0))))
        + tk / (tk + dt) * phi0)) := by
  have hm0 : 0 < m := by rcases hm with h | h | h | h | h <;> omega
  have hp : 0 < P / 1e6 * sS := by have : 0 < P := by linarith [show (0 : ℝ) < 1e-13 by norm_num]
                                   positivity
  have hl := liquidus_pos m hm (P / 1e6 * sS) (T * sT) hp
  unfold melt
  rw [if_pos ⟨hm0, hT, hP⟩]
  simp only []
  rw [if_pos hl, clamp_eq, liquidus_known m hm _ (T * sT) 0, solidus_known m hm _ (T * sT) 0]

/-- The melt fraction does not decrease with temperature. -/
theorem melt_mono (P T T' phi0 tk dt : ℝ) (m : Int) (sS sT : ℝ) (hm : Known m) (hS : 0 < sS) (hsT : 0 < sT)
    (hk : 0 ≤ tk) (hd : 0 < dt) (h : T ≤ T') : melt P T phi0 tk dt m sS sT ≤ melt P T' phi0 tk dt m sS sT := by
  by_cases hP : 1e-13 < P
  · by_cases hT : 1e-13 < T
    · have hT' : 1e-13 < T' := lt_of_lt_of_le hT h
      rw [melt_eq P T phi0 tk dt m sS sT hm hS hT hP, melt_eq P T' phi0 tk dt m sS sT hm hS hT' hP]
      apply min_le_min le_rfl
      apply max_le_max le_rfl
      have hc := capped_lt (solidus m (P / 1e6 * sS) 0) (liquidus m (P / 1e6 * sS) 0)
      have := (law (curvature m sT) _ _ (curvature_ne m sT hsT)
        (lt_of_le_of_lt hc (by linarith : liquidus m (P / 1e6 * sS) 0 - 100 < liquidus m (P / 1e6 * sS) 0))).1
        (T * sT) (T' * sT) (mul_le_mul_of_nonneg_right h hsT.le)
      have h2 : 0 ≤ dt / (tk + dt) := by positivity
      have := mul_le_mul_of_nonneg_left this h2
      linarith
    · have : melt P T phi0 tk dt m sS sT = 0 := by
        unfold melt; rw [if_neg (fun h2 => hT h2.2.1)]
      rw [this]; exact (melt_range P T' phi0 tk dt m sS sT).1
  · have : melt P T phi0 tk dt m sS sT = 0 := by
      unfold melt; rw [if_neg (fun h2 => hP h2.2.2)]
    rw [this]; exact (melt_range P T' phi0 tk dt m sS sT).1

/-- At equilibrium kinetics a known model is solid up to the solidus (kept 100 K below the liquidus)
and molten from the liquidus on, for every pressure and previous melt fraction. -/
theorem melt_equilibrium (P T phi0 dt : ℝ) (m : Int) (sS sT : ℝ) (hm : Known m) (hS : 0 < sS) (hsT : 0 < sT)
    (hd : 0 < dt) (hP : 1e-13 < P) :
    (T * sT ≤ min (solidus m (P / 1e6 * sS) 0) (liquidus m (P / 1e6 * sS) 0 - 100) → melt P T phi0 0 dt m sS sT = 0)
    ∧ (1e-13 < T → liquidus m (P / 1e6 * sS) 0 ≤ T * sT → melt P T phi0 0 dt m sS sT = 1) := by
  have hc := capped_lt (solidus m (P / 1e6 * sS) 0) (liquidus m (P / 1e6 * sS) 0)
  have hlt : capped (solidus m (P / 1e6 * sS) 0) (liquidus m (P / 1e6 * sS) 0) < liquidus m (P / 1e6 * sS) 0 := by
    linarith
  obtain ⟨l1, l2, l3⟩ := law (curvature m sT) _ _ (curvature_ne m sT hsT) hlt
  have hq : dt / (0 + dt) = 1 := by rw [zero_add, div_self hd.ne']
  constructor
  · intro hle
    by_cases hT : 1e-13 < T
    · rw [melt_eq P T phi0 0 dt m sS sT hm hS hT hP, hq, zero_div, zero_mul, add_zero, one_mul]
      have hcap : capped (solidus m (P / 1e6 * sS) 0) (liquidus m (P / 1e6 * sS) 0)
          = min (solidus m (P / 1e6 * sS) 0) (liquidus m (P / 1e6 * sS) 0 - 100) := by
        unfold capped
        split
        · next h => rw [min_eq_right h.le]
        · next h => rw [min_eq_left (not_lt.1 h)]
      rw [← hcap] at hle
      have := l1 _ _ hle
      rw [l2] at this
      rw [max_eq_left this, min_eq_right zero_le_one]
    · unfold melt; rw [if_neg (fun h2 => hT h2.2.1)]
  · intro hT hge
    rw [melt_eq P T phi0 0 dt m sS sT hm hS hT hP, hq, zero_div, zero_mul, add_zero, one_mul]
    have := l1 _ _ hge
    rw [l3] at this
    rw [max_eq_right (by linarith), min_eq_left this]

/-- A positive model number the code does not know melts rock completely at every temperature. -/
theorem melt_unknown (P T phi0 dt : ℝ) (m : Int) (sS sT : ℝ) (h0 : 0 < m) (hm : ¬ Known m) (hsT : 0 < sT)
    (hd : 0 < dt) (hP : 1e-13 < P) (hT : 1e-13 < T) : melt P T phi0 0 dt m sS sT = 1 := by
  have hne : m ≠ 1 ∧ m ≠ 10 ∧ m ≠ 11 ∧ m ≠ 40 ∧ m ≠ 41 := by
    unfold Known at hm; push Not at hm; exact hm
  have hl : ∀ p t, liquidus m p t = t := by intro p t; simp [liquidus, hne]
  have hs : ∀ p t, solidus m p t = t := by intro p t; simp [solidus, hne]
  have htp : 0 < T * sT := mul_pos (by linarith [show (0 : ℝ) < 1e-13 by norm_num]) hsT
  unfold melt
  rw [if_pos ⟨h0, hT, hP⟩]
  simp only [hl, hs]
  rw [if_pos htp, clamp_eq, zero_div, zero_mul, add_zero, zero_add, div_self hd.ne', one_mul]
  have hc := capped_lt (T * sT) (T * sT)
  rw [(law (curvature m sT) _ _ (curvature_ne m sT hsT)
    (lt_of_le_of_lt hc (by linarith : T * sT - 100 < T * sT))).2.2]
  norm_num

/-- The hypotheses are met, and the fraction takes intermediate values. -/
example : Known 40 ∧ (1e-13 : ℝ) < 1 ∧ (0 : ℝ) < 1 ∧ liquidus 40 1000 0 - 100 > solidus 40 1000 0 := by
  refine ⟨Or.inr (Or.inr (Or.inr (Or.inl rfl))), by norm_num, by norm_num, by norm_num [liquidus, solidus]⟩

/-- Melt fraction of a cell: with non-negative phase fractions adding to at most one it lies between
zero and one. -/
theorem meltCell_range (n : Nat) (w : Nat → ℝ) (m : Nat → Int) (tk : Nat → ℝ) (P T phi0 dt sS sT : ℝ)
    (hw : ∀ p < n, 0 ≤ w p) (ht : ∑ p ∈ Finset.range n, w p ≤ 1) :
    0 ≤ meltCell n w m tk P T phi0 dt sS sT ∧ meltCell n w m tk P T phi0 dt sS sT ≤ 1 := by
  have h : ∀ k ≤ n, 0 ≤ meltCell k w m tk P T phi0 dt sS sT
      ∧ meltCell k w m tk P T phi0 dt sS sT ≤ ∑ p ∈ Finset.range k, w p := by
    intro k
    induction k with
    | zero => intro _; simp [meltCell, forUp]
    | succ k ih =>
      intro hk
      obtain ⟨i1, i2⟩ := ih (by omega)
      have hwk := hw k (by omega)
      have hr := melt_range P T phi0 (tk k) dt (m k) sS sT
      unfold meltCell at i1 i2 ⊢
      rw [forUp_succ, Finset.sum_range_succ]
      split
      · constructor
        · have := mul_nonneg hwk hr.1; linarith
        · have := mul_le_mul_of_nonneg_left hr.2 hwk; linarith
      · exact ⟨i1, by linarith⟩
  exact ⟨(h n le_rfl).1, le_trans (h n le_rfl).2 ht⟩

/-! ### C76 -/

/-- When the first cell of the grid is rock: latent heat never lowers the effective heat capacity of
a cell. -/
theorem heatCapacity_partial (flag0 : Int) (hf : flag0 ≠ 30 ∧ flag0 ≠ 31) (n : Nat) (w cp ql : Nat → ℝ) (m : Nat → Int)
    (tk : Nat → ℝ) (P T phi0 dt sS sT : ℝ) (hw : ∀ p < n, w p = 0 ∨ 1e-13 < w p) (hq : ∀ p < n, 0 ≤ ql p)
    (hm : ∀ p < n, Known (m p) ∨ m p ≤ 0) (hS : 0 < sS) (hsT : 0 < sT) (hk : ∀ p < n, 0 ≤ tk p) (hd : 0 < dt)
    (hT : 0 < T) :
    ∑ p ∈ Finset.range n, w p * cp p ≤ heatCapacity flag0 n w cp ql m tk P T phi0 dt sS sT := by
  induction n with
  | zero => simp [heatCapacity, forUp]
  | succ n ih =>
    have ih' := ih (fun p hp => hw p (by omega)) (fun p hp => hq p (by omega)) (fun p hp => hm p (by omega))
      (fun p hp => hk p (by omega))
    unfold heatCapacity at ih' ⊢
    rw [forUp_succ, Finset.sum_range_succ]
    rcases hw n (by omega) with h0 | h0
    · rw [h0, abs_zero, if_neg (by norm_num)]; linarith
    · have hwp : 0 < w n := by linarith [show (0 : ℝ) < 1e-13 by norm_num]
      rw [abs_of_pos hwp, if_pos h0, if_pos hf]
      simp only []
      have hcp : 0 ≤ (if 1e-13 < melt P T phi0 (tk n) dt (m n) sS sT then
          ql n * ((melt P (T + T * 1e-6) phi0 (tk n) dt (m n) sS sT - melt P (T - T * 1e-6) phi0 (tk n) dt (m n) sS sT)
            / (2 * (T * 1e-6))) else 0) := by
        split
        · apply mul_nonneg (hq n (by omega))
          apply div_nonneg _ (by positivity)
          rcases hm n (by omega) with hk' | hk'
          · have := melt_mono P (T - T * 1e-6) (T + T * 1e-6) phi0 (tk n) dt (m n) sS sT hk' hS hsT (hk n (by omega)) hd
              (by have := mul_pos hT (show (0 : ℝ) < 1e-6 by norm_num); linarith)
            linarith
          · rw [melt_none _ _ _ _ _ _ _ _ hk', melt_none _ _ _ _ _ _ _ _ hk']; norm_num
        · exact le_rfl
      have := mul_nonneg hwp.le hcp
      have e := mul_add (w n) (cp n) (if 1e-13 < melt P T phi0 (tk n) dt (m n) sS sT then
          ql n * ((melt P (T + T * 1e-6) phi0 (tk n) dt (m n) sS sT - melt P (T - T * 1e-6) phi0 (tk n) dt (m n) sS sT)
            / (2 * (T * 1e-6))) else 0)
      linarith

/-- The flag tested is the one of the first cell of the grid, not of the cell itself: if that cell is
air, every rock cell gets heat capacity zero. -/
theorem heatCapacity_first_cell_air (n : Nat) (w cp ql : Nat → ℝ) (m : Nat → Int) (tk : Nat → ℝ) (P T phi0 dt sS sT : ℝ) :
    heatCapacity 30 n w cp ql m tk P T phi0 dt sS sT = 0 := by
  unfold heatCapacity
  induction n with
  | zero => rfl
  | succ n ih => rw [forUp_succ, ih]; simp

/-! ### C57 -/

section
variable {K : Type*} [Field K] [LinearOrder K] [IsStrictOrderedRing K] [FloorRing K]

/-- Away from the exact lower limit the interval found lies in the table and the weight between zero
and one. -/
theorem lower_range (n : Nat) (hn : 2 ≤ n) (lo hi x : K) (h : lo < hi) (hx : x ≠ lo) :
    let d := (hi - lo) / ((n : K) - 1)
    0 ≤ lower lo hi d x ∧ lower lo hi d x + 1 < n ∧ 0 ≤ weight lo hi d x ∧ weight lo hi d x ≤ 1 := by
  intro d
  have hn1 : (1 : K) ≤ (n : K) - 1 := by
    have : (2 : K) ≤ n := by exact_mod_cast hn
    linarith
  have hd : 0 < d := div_pos (by linarith) (by linarith)
  have hdn : d * ((n : K) - 1) = hi - lo := div_mul_cancel₀ _ (by linarith)
  have hdle : d ≤ hi - lo := by rw [← hdn]; nlinarith
  have hy : lo < inside lo hi d x ∧ inside lo hi d x ≤ hi := by
    unfold inside
    simp only []
    rcases lt_or_ge x lo with h1 | h1
    · rw [if_pos h1, if_neg (by linarith)]; constructor <;> linarith
    · rw [if_neg (not_lt.2 h1)]
      split
      · constructor <;> linarith
      · next h2 => exact ⟨lt_of_le_of_ne h1 (Ne.symm hx), not_lt.1 h2⟩
  set q := (inside lo hi d x - lo) / d with hq
  have hq0 : 0 < q := div_pos (by linarith [hy.1]) hd
  have hq1 : q ≤ (n : K) - 1 := by rw [hq, div_le_iff₀ hd, mul_comm, hdn]; linarith [hy.2]
  have hc1 : 1 ≤ ⌈q⌉ := Int.one_le_ceil_iff.2 hq0
  have hc2 : ⌈q⌉ ≤ (n : Int) - 1 := Int.ceil_le.2 (by push_cast; exact hq1)
  have hlow : lower lo hi d x = ⌈q⌉ - 1 := rfl
  have hw : weight lo hi d x = (⌈q⌉ : K) - q := by
    have : inside lo hi d x = lo + q * d := by rw [hq, div_mul_cancel₀ _ hd.ne']; ring
    unfold weight
    rw [hlow, this]
    push_cast
    field_simp
    ring
  rw [hw, hlow]
  refine ⟨by omega, by omega, by linarith [Int.le_ceil q], ?_⟩
  have := Int.ceil_lt_add_one q
  linarith

/-- One-dimensional look-up: for every argument other than the exact lower limit only table entries are
read and the result lies between the entries read.  Partial: see `lookup1_lower_limit`. -/
theorem lookup1_partial (n : Nat) (hn : 2 ≤ n) (lo hi : K) (h : lo < hi) (tab : Int → K) (x : K) (hx : x ≠ lo) :
    (∀ i ∈ reads1 n lo hi x, 0 ≤ i ∧ i < n)
    ∧ ∀ a b, (∀ i ∈ reads1 n lo hi x, a ≤ tab i ∧ tab i ≤ b) → a ≤ lookup1 n lo hi tab x ∧ lookup1 n lo hi tab x ≤ b := by
  obtain ⟨h1, h2, h3, h4⟩ := lower_range n hn lo hi x h hx
  constructor
  · intro i hi'
    simp only [reads1, List.mem_cons, List.not_mem_nil, or_false] at hi'
    rcases hi' with rfl | rfl <;> constructor <;> omega
  · intro a b hab
    obtain ⟨a1, b1⟩ := hab (lower lo hi ((hi - lo) / ((n : K) - 1)) x) (by simp [reads1])
    obtain ⟨a2, b2⟩ := hab (lower lo hi ((hi - lo) / ((n : K) - 1)) x + 1) (by simp [reads1])
    simp only [lookup1]
    generalize weight lo hi ((hi - lo) / ((n : K) - 1)) x = w at *
    constructor <;> nlinarith

/-- At the exact lower limit the entry before the table is read. -/
theorem lookup1_lower_limit (n : Nat) (lo hi : K) (h : lo < hi) : -1 ∈ reads1 n lo hi lo := by
  have : inside lo hi ((hi - lo) / ((n : K) - 1)) lo = lo := by
    unfold inside; simp only []; rw [if_neg (lt_irrefl _), if_neg (not_lt.2 h.le)]
  simp [reads1, lower, this]

/-- At a table node above the first one the table entry itself is returned. -/
theorem lookup1_node (n : Nat) (hn : 2 ≤ n) (lo hi : K) (h : lo < hi) (tab : Int → K) (k : Nat) (hk : 0 < k) (hkn : k < n) :
    lookup1 n lo hi tab (lo + k * ((hi - lo) / ((n : K) - 1))) = tab k := by
  have hn1 : (1 : K) ≤ (n : K) - 1 := by
    have : (2 : K) ≤ n := by exact_mod_cast hn
    linarith
  set d := (hi - lo) / ((n : K) - 1) with hdd
  have hd : 0 < d := div_pos (by linarith) (by linarith)
  have hdn : d * ((n : K) - 1) = hi - lo := div_mul_cancel₀ _ (by linarith)
  have hk0 : (0 : K) < k := by exact_mod_cast hk
  have hkn' : (k : K) ≤ (n : K) - 1 := by
    have : (k : K) + 1 ≤ n := by exact_mod_cast hkn
    linarith
  have hin : inside lo hi d (lo + k * d) = lo + k * d := by
    unfold inside
    simp only []
    have h1 : ¬ lo + (k : K) * d < lo := by nlinarith
    have h2 : ¬ hi < lo + (k : K) * d := by nlinarith
    simp only [if_neg h1, if_neg h2]
  have hlow : lower lo hi d (lo + k * d) = (k : Int) - 1 := by
    unfold lower
    rw [hin, add_sub_cancel_left, mul_div_assoc, div_self hd.ne', mul_one]
    simp
  have hw : weight lo hi d (lo + k * d) = 0 := by
    unfold weight
    rw [hin, hlow]; push_cast; field_simp; ring
  simp only [lookup1, ← hdd, hlow, hw]
  simp

/-- Two-dimensional look-up, off the exact lower limits: only table entries are read and the result
lies between the entries read.  Partial: see `lookup2_lower_limit`. -/
theorem lookup2_partial (nT nP : Nat) (hnT : 2 ≤ nT) (hnP : 2 ≤ nP) (Tlo Thi Plo Phi : K) (hT : Tlo < Thi) (hP : Plo < Phi)
    (tab : Int → K) (T P : K) (hT0 : T ≠ Tlo) (hP0 : P ≠ Plo) :
    (∀ i ∈ reads2 nT nP Tlo Thi Plo Phi T P, 0 ≤ i ∧ i < nT * nP)
    ∧ ∀ a b, (∀ i ∈ reads2 nT nP Tlo Thi Plo Phi T P, a ≤ tab i ∧ tab i ≤ b) →
        a ≤ lookup2 nT nP Tlo Thi Plo Phi tab T P ∧ lookup2 nT nP Tlo Thi Plo Phi tab T P ≤ b := by
  obtain ⟨t1, t2, t3, t4⟩ := lower_range nT hnT Tlo Thi T hT hT0
  obtain ⟨p1, p2, p3, p4⟩ := lower_range nP hnP Plo Phi P hP hP0
  constructor
  · intro i hi
    simp only [reads2, List.mem_cons, List.not_mem_nil, or_false] at hi
    generalize lower Tlo Thi ((Thi - Tlo) / ((nT : K) - 1)) T = iT at *
    generalize lower Plo Phi ((Phi - Plo) / ((nP : K) - 1)) P = iP at *
    have hn : (0 : Int) ≤ nT := by omega
    have m1 : 0 ≤ iP * nT := mul_nonneg p1 hn
    have m2 : (iP + 1) * nT ≤ ((nP : Int) - 1) * nT := mul_le_mul_of_nonneg_right (by omega) hn
    have m3 : (iP + 1) * (nT : Int) = iP * nT + nT := by ring
    have m4 : ((nP : Int) - 1) * nT = nT * nP - nT := by ring
    rcases hi with rfl | rfl | rfl | rfl <;> constructor <;> omega
  · intro a b hab
    simp only [lookup2]
    simp only [reads2, List.forall_mem_cons] at hab
    obtain ⟨⟨a1, b1⟩, ⟨a2, b2⟩, ⟨a3, b3⟩, ⟨a4, b4⟩, _⟩ := hab
    generalize weight Tlo Thi ((Thi - Tlo) / ((nT : K) - 1)) T = wT at *
    generalize weight Plo Phi ((Phi - Plo) / ((nP : K) - 1)) P = wP at *
    generalize tab _ = v1 at a1 b1 ⊢
    generalize tab _ = v2 at a2 b2 ⊢
    generalize tab _ = v3 at a3 b3 ⊢
    generalize tab _ = v4 at a4 b4 ⊢
    have q1 : 0 ≤ (1 - wT) * (1 - wP) := mul_nonneg (by linarith) (by linarith)
    have q2 : 0 ≤ wT * (1 - wP) := mul_nonneg t3 (by linarith)
    have q3 : 0 ≤ (1 - wT) * wP := mul_nonneg (by linarith) p3
    have q4 : 0 ≤ wT * wP := mul_nonneg t3 p3
    have hs : (1 - wT) * (1 - wP) + wT * (1 - wP) + (1 - wT) * wP + wT * wP = 1 := by ring
    constructor
    · have : a = ((1 - wT) * (1 - wP) + wT * (1 - wP) + (1 - wT) * wP + wT * wP) * a := by rw [hs, one_mul]
      nlinarith [mul_le_mul_of_nonneg_left a1 q1, mul_le_mul_of_nonneg_left a2 q2, mul_le_mul_of_nonneg_left a3 q3,
        mul_le_mul_of_nonneg_left a4 q4]
    · have : b = ((1 - wT) * (1 - wP) + wT * (1 - wP) + (1 - wT) * wP + wT * wP) * b := by rw [hs, one_mul]
      nlinarith [mul_le_mul_of_nonneg_left b1 q1, mul_le_mul_of_nonneg_left b2 q2, mul_le_mul_of_nonneg_left b3 q3,
        mul_le_mul_of_nonneg_left b4 q4]

/-- At the exact lower limits an entry more than a row before the table is read. -/
theorem lookup2_lower_limit (nT nP : Nat) (Tlo Thi Plo Phi : K) (hT : Tlo < Thi) (hP : Plo < Phi) :
    -1 - (nT : Int) ∈ reads2 nT nP Tlo Thi Plo Phi Tlo Plo := by
  have e : ∀ (lo hi d : K), lo < hi → lower lo hi d lo = -1 := by
    intro lo hi d h
    have : inside lo hi d lo = lo := by
      unfold inside; simp only []; rw [if_neg (lt_irrefl _), if_neg (not_lt.2 h.le)]
    simp [lower, this]
  simp only [reads2, e _ _ _ hT, e _ _ _ hP, List.mem_cons]
  right; right; right; left; ring

end

/-- A concrete look-up off the limits. -/
example : lookup1 3 (0 : ℚ) 2 (fun i => i) (3 / 2) = 3 / 2 ∧ lookup1 3 (0 : ℚ) 2 (fun i => i) 7 = 199 / 100 := by
  decide +kernel

end Verif.Melt
