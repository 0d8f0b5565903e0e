import Verif.Model.CellSteps
import Verif.Spec.CellSteps
import Mathlib.Tactic.Linarith
import Mathlib.Tactic.FieldSimp
import Mathlib.Tactic.Ring
import Mathlib.Tactic.NormNum
import Mathlib.Tactic.Positivity
import Mathlib.Algebra.Order.Round
import Mathlib.Algebra.Order.Floor.Ring

/-! The initial cooling and the initial thermal perturbation (ThermalRoutines.c:500-542). -/
namespace Verif.CStep
open Verif Spec
set_option linter.unusedVariables false

/-! ### number of cooling steps -/

/-- **C132 (exact arithmetic).**  The initial cooling takes ten equal steps which together last exactly as long as asked. -/
theorem cooling_covers {K : Type*} [Field K] [LinearOrder K] [IsStrictOrderedRing K] [FloorRing K] (total : K) (h : total ≠ 0) :
    (coolingSteps total).2 = 10 ∧ ((coolingSteps total).2 : K) * (coolingSteps total).1 = total := by
  have e : total / (total / 10) = (10 : Int) := by
    push_cast
    field_simp
  have f : (coolingSteps total).2 = 10 := by
    show ⌊total / (total / 10)⌋ = 10
    rw [e, Int.floor_intCast]
  refine ⟨f, ?_⟩
  rw [f]
  show ((10 : Int) : K) * (total / 10) = total
  push_cast
  field_simp

theorem zpow2_pos (e : ℤ) : (0 : ℚ) < 2 ^ e := by positivity

theorem double_pos {x : ℚ} (h : Double x) : 0 < x := by
  obtain ⟨m, e, hm, -, rfl⟩ := h
  have : (0 : ℚ) < m := by exact_mod_cast lt_of_lt_of_le (by norm_num) hm
  exact mul_pos this (zpow2_pos e)

/-- An integer number of units in the last place, up to the next power of two, is a floating-point number. -/
theorem double_of {m : ℕ} (e : ℤ) (h1 : 2 ^ 52 ≤ m) (h2 : m ≤ 2 ^ 53) : Double (m * 2 ^ e) := by
  rcases h2.lt_or_eq with h | h
  · exact ⟨m, e, h1, h, rfl⟩
  · refine ⟨2 ^ 52, e + 1, le_refl _, by norm_num, ?_⟩
    rw [h, zpow_add₀ (by norm_num : (2 : ℚ) ≠ 0)]
    push_cast
    ring

/-- A floating-point number that is at least `2^52` units is a whole number of these units. -/
theorem double_multiple {y : ℚ} (hy : Double y) (b : ℤ) (h : 2 ^ 52 * 2 ^ b ≤ y) : ∃ w : ℕ, 2 ^ 52 ≤ w ∧ y = w * 2 ^ b := by
  obtain ⟨m, e, h1, h2, rfl⟩ := hy
  have hm : (m : ℚ) < 2 ^ 53 := by exact_mod_cast h2
  have hbe : b ≤ e := by
    by_contra hc
    have hc' : e + 1 ≤ b := by omega
    have a : (2 : ℚ) ^ (e + 1) ≤ 2 ^ b := zpow_le_zpow_right₀ (by norm_num) hc'
    rw [zpow_add₀ (by norm_num : (2 : ℚ) ≠ 0), zpow_one] at a
    have p := zpow2_pos e
    nlinarith
  obtain ⟨t, rfl⟩ : ∃ t : ℕ, e = b + t := ⟨(e - b).toNat, by omega⟩
  refine ⟨m * 2 ^ t, ?_, ?_⟩
  · exact h1.trans (Nat.le_mul_of_pos_right m (by positivity))
  · rw [zpow_add₀ (by norm_num : (2 : ℚ) ≠ 0), zpow_natCast]
    push_cast
    ring

/-- Rounding a number whose leading binary digit is known: a whole number of units, at most half a unit away. -/
theorem rounds_near {q y : ℚ} {b : ℤ} (h : Rounds q y) (h1 : 2 ^ 52 * 2 ^ b ≤ q) (h2 : q ≤ 2 ^ 53 * 2 ^ b) :
    ∃ w : ℕ, 2 ^ 52 ≤ w ∧ y = w * 2 ^ b ∧ |q - y| ≤ 2 ^ b / 2 := by
  have p := zpow2_pos b
  obtain ⟨hd, hn⟩ := h
  have hy : 2 ^ 52 * 2 ^ b ≤ y := by
    by_contra hc
    push Not at hc
    have := hn (2 ^ 52 * 2 ^ b) (by exact_mod_cast double_of (m := 2 ^ 52) b (le_refl _) (by norm_num))
    rw [abs_of_nonneg (by linarith), abs_of_nonneg (by linarith)] at this
    linarith
  obtain ⟨w, hw, e⟩ := double_multiple hd b hy
  refine ⟨w, hw, e, ?_⟩
  have hr := abs_sub_round (q / 2 ^ b)
  have lo : (2 ^ 52 : ℤ) ≤ round (q / 2 ^ b) := by
    rw [round_eq, Int.le_floor]
    have : (2 : ℚ) ^ 52 ≤ q / 2 ^ b := by rw [le_div_iff₀ p]; exact h1
    push_cast
    linarith
  have hi : round (q / 2 ^ b) ≤ (2 ^ 53 : ℤ) := by
    rw [round_eq, ← Int.lt_add_one_iff, Int.floor_lt]
    have : q / 2 ^ b ≤ (2 : ℚ) ^ 53 := by rw [div_le_iff₀ p]; exact h2
    push_cast
    linarith
  obtain ⟨r, hr'⟩ : ∃ r : ℕ, round (q / 2 ^ b) = (r : ℤ) := ⟨(round (q / 2 ^ b)).toNat, by omega⟩
  rw [hr'] at hr lo hi
  have := hn (r * 2 ^ b) (double_of b (by exact_mod_cast lo) (by exact_mod_cast hi))
  refine this.trans ?_
  have e2 : q - r * 2 ^ b = (q / 2 ^ b - r) * 2 ^ b := by field_simp
  rw [e2, abs_mul, abs_of_pos p]
  push_cast at hr
  nlinarith

/-- The floating-point numbers below ten are at least the distance `2^-49` below it. -/
theorem below_ten {z : ℚ} (hz : Double z) (h : z < 10) : z ≤ 10 - 2 ^ (-49 : ℤ) := by
  by_cases h8 : 8 ≤ z
  · obtain ⟨w, hw, e⟩ := double_multiple hz (-49) (by
      refine le_trans (le_of_eq ?_) h8
      norm_num)
    have : (w : ℚ) < 10 * 2 ^ 49 := by
      rw [e] at h
      have : (2 : ℚ) ^ (-49 : ℤ) = 1 / 2 ^ 49 := by norm_num
      rw [this] at h
      rw [mul_one_div, div_lt_iff₀ (by positivity)] at h
      exact h
    have h' : w < 10 * 2 ^ 49 := by exact_mod_cast this
    have h'' : (w : ℚ) ≤ 10 * 2 ^ 49 - 1 := by
      have : w + 1 ≤ 10 * 2 ^ 49 := h'
      have : (w : ℚ) + 1 ≤ 10 * 2 ^ 49 := by exact_mod_cast this
      linarith
    rw [e]
    calc (w : ℚ) * 2 ^ (-49 : ℤ) ≤ (10 * 2 ^ 49 - 1) * 2 ^ (-49 : ℤ) :=
          mul_le_mul_of_nonneg_right h'' (zpow2_pos _).le
      _ = 10 - 2 ^ (-49 : ℤ) := by norm_num
  · push Not at h8
    have : (2 : ℚ) ^ (-49 : ℤ) ≤ 2 := by norm_num
    linarith

/-- If the tenth, measured in its last place, misses its exact value by at most two fifths, the quotient rounds to ten or just above. -/
theorem quotient_rounds {x y z : ℚ} {w : ℕ} {b : ℤ} (hw : 2 ^ 52 ≤ w) (hy : y = w * 2 ^ b) (hx : |x - 10 * y| ≤ 4 * 2 ^ b)
    (hne : x ≠ 10 * y - 4 * 2 ^ b ∨ w ≠ 2 ^ 52) (hz : Rounds (x / y) z) : ⌊z⌋ = 10 := by
  have p := zpow2_pos b
  have hw' : (2 : ℚ) ^ 52 ≤ w := by exact_mod_cast hw
  have hyp : 0 < y := by rw [hy]; positivity
  obtain ⟨l, u⟩ := abs_le.1 hx
  have h10 : Double 10 := by
    refine ⟨5 * 2 ^ 50, -49, by norm_num, by norm_num, ?_⟩
    norm_num
  obtain ⟨hd, hn⟩ := hz
  have n10 := hn 10 h10
  have hb : 2 ^ b ≤ y / 2 ^ 52 := by
    rw [le_div_iff₀ (by positivity), hy]; nlinarith
  have up : x / y ≤ 10 + 1 / 2 ^ 50 := by
    rw [div_le_iff₀ hyp]
    have : 4 * (y / 2 ^ 52) = y * (1 / 2 ^ 50) := by ring
    nlinarith
  have lw : 10 - 1 / 2 ^ 50 ≤ x / y := by
    rw [le_div_iff₀ hyp]
    have : 4 * (y / 2 ^ 52) = y * (1 / 2 ^ 50) := by ring
    nlinarith
  have lw' : 10 - 1 / 2 ^ 50 ≠ x / y := by
    intro h
    rw [eq_div_iff hyp.ne'] at h
    have h3 : 4 * 2 ^ b ≤ y * (1 / 2 ^ 50) := by
      have : 4 * (y / 2 ^ 52) = y * (1 / 2 ^ 50) := by ring
      linarith
    have h4 : y * (1 / 2 ^ 50) ≤ 4 * 2 ^ b := by nlinarith
    have h5 : y * (1 / 2 ^ 50) = 4 * 2 ^ b := le_antisymm h4 h3
    rcases hne with hne | hne
    · exact hne (by linarith)
    · apply hne
      have : (w : ℚ) * 2 ^ b = 2 ^ 52 * 2 ^ b := by rw [← hy]; linarith
      exact_mod_cast mul_right_cancel₀ p.ne' this
  have lw2 : 10 - 1 / 2 ^ 50 < x / y := lt_of_le_of_ne lw lw'
  have zlo : 10 ≤ z := by
    by_contra hc
    push Not at hc
    have hz1 := below_ten hd hc
    have e49 : (2 : ℚ) ^ (-49 : ℤ) = 2 * (1 / 2 ^ 50) := by norm_num
    rw [e49] at hz1
    by_cases hq : x / y ≤ 10
    · rw [abs_of_nonneg (by linarith), abs_of_nonpos (by linarith)] at n10
      linarith
    · push Not at hq
      rw [abs_of_nonneg (by linarith), abs_of_nonneg (by linarith)] at n10
      linarith
  have zhi : z < 11 := by
    have h1 : |x / y - 10| ≤ 1 / 2 ^ 50 := abs_le.2 ⟨by linarith, by linarith⟩
    have h2 := (abs_le.1 (n10.trans h1)).1
    have : (1 : ℚ) / 2 ^ 50 < 1 / 4 := by norm_num
    linarith
  rw [Int.floor_eq_iff]
  push_cast
  exact ⟨zlo, by linarith⟩

/-- **C132 (floating-point arithmetic).**  Also with every division rounded to double precision, in any of the rounding-to-nearest
modes, the number of cooling steps comes out as ten, for every duration (overflow and underflow aside). -/
theorem cooling_steps_rounded (x y z : ℚ) (hx : Double x) (hy : Rounds (x / 10) y) (hz : Rounds (x / y) z) : ⌊z⌋ = 10 := by
  obtain ⟨X, a, h1, h2, rfl⟩ := hx
  have h1' : (2 : ℚ) ^ 52 ≤ X := by exact_mod_cast h1
  have h2' : (X : ℚ) < 2 ^ 53 := by exact_mod_cast h2
  have p := zpow2_pos a
  by_cases hX : 5 * 2 ^ 50 ≤ X
  · have hX' : (5 : ℚ) * 2 ^ 50 ≤ X := by exact_mod_cast hX
    have ea : (2 : ℚ) ^ a = 8 * 2 ^ (a - 3) := by
      rw [zpow_sub₀ (by norm_num : (2 : ℚ) ≠ 0)]; norm_num; ring
    have pb := zpow2_pos (a - 3)
    obtain ⟨w, hw, e, hh⟩ := rounds_near (b := a - 3) hy (by rw [ea]; nlinarith) (by rw [ea]; nlinarith)
    have hi : |5 * (w : ℤ) - 4 * X| ≤ 2 := by
      have : |5 * (w : ℚ) - 4 * X| ≤ 5 / 2 := by
        rw [e, ea] at hh
        have e2 : (X : ℚ) * (8 * 2 ^ (a - 3)) / 10 - w * 2 ^ (a - 3) = -(5 * w - 4 * X) * (2 ^ (a - 3) / 5) := by ring
        rw [e2, abs_mul, abs_neg, abs_of_pos (by positivity : (0 : ℚ) < 2 ^ (a - 3) / 5)] at hh
        by_contra hc
        push Not at hc
        nlinarith
      have h3 : |5 * (w : ℤ) - 4 * X| < 3 := by
        have : ((|5 * (w : ℤ) - 4 * X| : ℤ) : ℚ) < 3 := by push_cast; linarith
        exact_mod_cast this
      omega
    have hq : |5 * (w : ℚ) - 4 * X| ≤ 2 := by exact_mod_cast hi
    obtain ⟨l, u⟩ := abs_le.1 hq
    refine quotient_rounds hw e ?_ ?_ hz
    · rw [e, ea, abs_le]
      constructor <;> nlinarith
    · by_cases hw0 : w = 2 ^ 52
      · left
        rw [e, ea, hw0]
        intro h
        have h' : (8 * (X : ℚ)) = 10 * 2 ^ 52 - 4 := by
          have : (8 * (X : ℚ) - (10 * 2 ^ 52 - 4)) * 2 ^ (a - 3) = 0 := by push_cast at h; linarith
          rcases mul_eq_zero.1 this with h | h
          · linarith
          · exact absurd h pb.ne'
        have : (8 * (X : ℤ)) = 10 * 2 ^ 52 - 4 := by exact_mod_cast h'
        omega
      · exact Or.inr hw0
  · push Not at hX
    have hX' : (X : ℚ) < 5 * 2 ^ 50 := by exact_mod_cast hX
    have ea : (2 : ℚ) ^ a = 16 * 2 ^ (a - 4) := by
      rw [zpow_sub₀ (by norm_num : (2 : ℚ) ≠ 0)]; norm_num; ring
    have pb := zpow2_pos (a - 4)
    obtain ⟨w, hw, e, hh⟩ := rounds_near (b := a - 4) hy (by rw [ea]; nlinarith) (by rw [ea]; nlinarith)
    have hi : |5 * (w : ℤ) - 8 * X| ≤ 2 := by
      have : |5 * (w : ℚ) - 8 * X| ≤ 5 / 2 := by
        rw [e, ea] at hh
        have e2 : (X : ℚ) * (16 * 2 ^ (a - 4)) / 10 - w * 2 ^ (a - 4) = -(5 * w - 8 * X) * (2 ^ (a - 4) / 5) := by ring
        rw [e2, abs_mul, abs_neg, abs_of_pos (by positivity : (0 : ℚ) < 2 ^ (a - 4) / 5)] at hh
        by_contra hc
        push Not at hc
        nlinarith
      have h3 : |5 * (w : ℤ) - 8 * X| < 3 := by
        have : ((|5 * (w : ℤ) - 8 * X| : ℤ) : ℚ) < 3 := by push_cast; linarith
        exact_mod_cast this
      omega
    have hq : |5 * (w : ℚ) - 8 * X| ≤ 2 := by exact_mod_cast hi
    obtain ⟨l, u⟩ := abs_le.1 hq
    refine quotient_rounds hw e ?_ ?_ hz
    · rw [e, ea, abs_le]
      constructor <;> nlinarith
    · by_cases hw0 : w = 2 ^ 52
      · left
        rw [e, ea, hw0]
        intro h
        have h' : (16 * (X : ℚ)) = 10 * 2 ^ 52 - 4 := by
          have : (16 * (X : ℚ) - (10 * 2 ^ 52 - 4)) * 2 ^ (a - 4) = 0 := by push_cast at h; linarith
          rcases mul_eq_zero.1 this with h | h
          · linarith
          · exact absurd h pb.ne'
        have : (16 * (X : ℤ)) = 10 * 2 ^ 52 - 4 := by exact_mod_cast h'
        omega
      · exact Or.inr hw0

/-- A whole number of units at most half a unit away is a correctly rounded value. -/
theorem rounds_of {q : ℚ} {w : ℕ} {b : ℤ} (h1 : 2 ^ 52 * 2 ^ b ≤ q) (hw : 2 ^ 52 ≤ w) (hw2 : w ≤ 2 ^ 53)
    (h : |q - w * 2 ^ b| ≤ 2 ^ b / 2) : Rounds q (w * 2 ^ b) := by
  have p := zpow2_pos b
  refine ⟨double_of b hw hw2, fun z hz => ?_⟩
  obtain ⟨l, u⟩ := abs_le.1 h
  by_cases hc : 2 ^ 52 * 2 ^ b ≤ z
  · obtain ⟨v, -, rfl⟩ := double_multiple hz b hc
    rcases lt_trichotomy v w with hv | hv | hv
    · have : (v : ℚ) + 1 ≤ w := by exact_mod_cast hv
      refine h.trans (le_trans ?_ (le_abs_self _))
      nlinarith
    · rw [hv]
    · have : (w : ℚ) + 1 ≤ v := by exact_mod_cast hv
      refine h.trans (le_trans ?_ (neg_le_abs _))
      nlinarith
  · push Not at hc
    rw [abs_of_pos (show 0 < q - z by linarith)]
    rcases hw.lt_or_eq with hv | hv
    · have : (2 : ℚ) ^ 52 + 1 ≤ w := by exact_mod_cast hv
      refine abs_le.2 ⟨?_, ?_⟩ <;> nlinarith
    · have : (w : ℚ) = 2 ^ 52 := by exact_mod_cast hv.symm
      rw [this]
      refine abs_le.2 ⟨?_, ?_⟩ <;> linarith

/-- Non-vacuity: a duration of three; neither its tenth nor the quotient is exact. -/
example : Double 3 ∧ Rounds (3 / 10) (5404319552844595 * 2 ^ (-54 : ℤ)) ∧
    Rounds (3 / (5404319552844595 * 2 ^ (-54 : ℤ))) (5629499534213120 * 2 ^ (-49 : ℤ)) := by
  refine ⟨⟨3 * 2 ^ 51, -51, by norm_num, by norm_num, by norm_num⟩, ?_, ?_⟩
  · exact_mod_cast rounds_of (q := 3 / 10) (w := 5404319552844595) (b := -54) (by norm_num) (by norm_num) (by norm_num)
      (by rw [abs_le]; constructor <;> norm_num)
  · exact_mod_cast rounds_of (q := 3 / (5404319552844595 * 2 ^ (-54 : ℤ))) (w := 5629499534213120) (b := -49) (by norm_num)
      (by norm_num) (by norm_num) (by rw [abs_le]; constructor <;> norm_num)

/-! ### thermal perturbation -/

section
variable {K : Type*} [Field K] [LinearOrder K] [IsStrictOrderedRing K]

theorem ellipse_test (x0 z0 a b x z : K) (ha : 0 < a) (hb : 0 < b) :
    ((x - x0) / a) ^ 2 + ((z - z0) / b) ^ 2 < 1 ↔ InEllipse x0 z0 a b x z := by
  unfold InEllipse
  have e : ((x - x0) / a) ^ 2 + ((z - z0) / b) ^ 2 = ((x - x0) ^ 2 * b ^ 2 + (z - z0) ^ 2 * a ^ 2) / (a ^ 2 * b ^ 2) := by
    field_simp
  rw [e, div_lt_one (by positivity)]

theorem rowPert (q : Pert K) (ncx : Nat) (xc : Nat → K) (zl : K) (l n : Nat) (hn : n ≤ ncx) (T : Nat → K) (c : Nat) :
    (forUp n T fun T k => if ((xc k - q.x0) / q.radX) ^ 2 + ((zl - q.z0) / q.radZ) ^ 2 < 1
      then upd T (k + l * ncx) (T (k + l * ncx) + q.dT) else T) c =
    if l * ncx ≤ c ∧ c < l * ncx + n ∧ ((xc (c - l * ncx) - q.x0) / q.radX) ^ 2 + ((zl - q.z0) / q.radZ) ^ 2 < 1 then T c + q.dT
    else T c := by
  induction n with
  | zero =>
    rw [if_neg (by omega)]
    rfl
  | succ n ih =>
    rw [forUp_succ]
    have ih := ih (by omega)
    by_cases hc : c = n + l * ncx
    · subst hc
      have hsub : n + l * ncx - l * ncx = n := by omega
      rw [if_neg (by omega)] at ih
      by_cases ht : ((xc n - q.x0) / q.radX) ^ 2 + ((zl - q.z0) / q.radZ) ^ 2 < 1
      · rw [if_pos ht, upd_same, ih, hsub, if_pos ⟨by omega, by omega, ht⟩]
      · rw [if_neg ht, ih, hsub, if_neg (fun h => ht h.2.2)]
    · have e : (if ((xc n - q.x0) / q.radX) ^ 2 + ((zl - q.z0) / q.radZ) ^ 2 < 1
          then upd (forUp n T fun T k => if ((xc k - q.x0) / q.radX) ^ 2 + ((zl - q.z0) / q.radZ) ^ 2 < 1
            then upd T (k + l * ncx) (T (k + l * ncx) + q.dT) else T) (n + l * ncx)
            ((forUp n T fun T k => if ((xc k - q.x0) / q.radX) ^ 2 + ((zl - q.z0) / q.radZ) ^ 2 < 1
              then upd T (k + l * ncx) (T (k + l * ncx) + q.dT) else T) (n + l * ncx) + q.dT)
          else forUp n T fun T k => if ((xc k - q.x0) / q.radX) ^ 2 + ((zl - q.z0) / q.radZ) ^ 2 < 1
            then upd T (k + l * ncx) (T (k + l * ncx) + q.dT) else T) c =
          (forUp n T fun T k => if ((xc k - q.x0) / q.radX) ^ 2 + ((zl - q.z0) / q.radZ) ^ 2 < 1
            then upd T (k + l * ncx) (T (k + l * ncx) + q.dT) else T) c := by
        split_ifs
        · rw [upd_ne _ _ hc]
        · rfl
      rw [e, ih]
      exact if_congr (by constructor <;> rintro ⟨h1, h2, h3⟩ <;> exact ⟨h1, by omega, h3⟩) rfl rfl

/-- **C132 (perturbation).**  The thermal perturbation raises the temperature of exactly the cells whose centre lies inside the ellipse,
by exactly the amount asked for, once. -/
theorem perturbation_in_ellipse (q : Pert K) (hx : 0 < q.radX) (hz : 0 < q.radZ) (ncx ncz : Nat) (xc zc T : Nat → K) (k l : Nat)
    (hk : k < ncx) (hl : l < ncz) :
    (InEllipse q.x0 q.z0 q.radX q.radZ (xc k) (zc l) → thermalPert q ncx ncz xc zc T (k + l * ncx) = T (k + l * ncx) + q.dT) ∧
    (¬InEllipse q.x0 q.z0 q.radX q.radZ (xc k) (zc l) → thermalPert q ncx ncz xc zc T (k + l * ncx) = T (k + l * ncx)) := by
  have key : ∀ n, thermalPert q ncx n xc zc T (k + l * ncx) =
      if l < n ∧ ((xc k - q.x0) / q.radX) ^ 2 + ((zc l - q.z0) / q.radZ) ^ 2 < 1 then T (k + l * ncx) + q.dT
      else T (k + l * ncx) := by
    intro n
    unfold thermalPert
    induction n with
    | zero => simp [forUp]
    | succ n ih =>
      rw [forUp_succ, rowPert q ncx xc (zc n) n ncx (le_refl _), ih]
      by_cases hln : l = n
      · subst hln
        have hsub : k + l * ncx - l * ncx = k := by omega
        rw [hsub]
        by_cases ht : ((xc k - q.x0) / q.radX) ^ 2 + ((zc l - q.z0) / q.radZ) ^ 2 < 1
        · rw [if_pos ⟨by omega, by omega, ht⟩, if_neg (by omega), if_pos ⟨by omega, ht⟩]
        · rw [if_neg (fun h => ht h.2.2), if_neg (fun h => ht h.2), if_neg (fun h => ht h.2)]
      · rw [if_neg]
        · exact if_congr (by constructor <;> rintro ⟨h1, h2⟩ <;> exact ⟨by omega, h2⟩) rfl rfl
        · rintro ⟨h1, h2, -⟩
          rcases Nat.lt_or_gt_of_ne hln with h | h
          · have : (l + 1) * ncx ≤ n * ncx := Nat.mul_le_mul_right _ h
            rw [Nat.succ_mul] at this
            omega
          · have : (n + 1) * ncx ≤ l * ncx := Nat.mul_le_mul_right _ h
            rw [Nat.succ_mul] at this
            omega
  rw [key ncz, ← ellipse_test _ _ _ _ _ _ hx hz]
  exact ⟨fun h => if_pos ⟨hl, h⟩, fun h => if_neg fun h' => h h'.2⟩

/-- Non-vacuity: of two neighbouring cells one lies inside. -/
example : thermalPert ⟨100, 0, 0, 1, 2⟩ 2 1 (fun k => (k : ℚ)) (fun _ => 1) (fun _ => 300) 0 = 400 ∧
    thermalPert ⟨100, 0, 0, 1, 2⟩ 2 1 (fun k => (k : ℚ)) (fun _ => 1) (fun _ => 300) 1 = 300 := by
  have h0 := (perturbation_in_ellipse ⟨100, 0, 0, 1, 2⟩ (by norm_num) (by norm_num) 2 1 (fun k => (k : ℚ)) (fun _ => 1)
    (fun _ => 300) 0 0 (by norm_num) (by norm_num)).1 (by norm_num [InEllipse])
  have h1 := (perturbation_in_ellipse ⟨100, 0, 0, 1, 2⟩ (by norm_num) (by norm_num) 2 1 (fun k => (k : ℚ)) (fun _ => 1)
    (fun _ => 300) 1 0 (by norm_num) (by norm_num)).2 (by norm_num [InEllipse])
  norm_num at h0 h1
  exact ⟨h0, h1⟩

end

end Verif.CStep
