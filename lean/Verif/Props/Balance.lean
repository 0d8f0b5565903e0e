import Verif.Props.Setup
import Mathlib.Algebra.Order.BigOperators.Group.Finset
import Mathlib.Algebra.BigOperators.Field

/-
C49: balancing and smoothing of the prescribed side velocities in `SetBCs` (Setup.c:275-413, 495-553).
-/
set_option linter.unusedSectionVars false
set_option linter.unusedVariables false
namespace Verif.Setup
open Verif Finset

section
variable {K : Type*} [Field K] [LinearOrder K] [IsStrictOrderedRing K]

/-! ### The sum -/

/-- Spreading the opposite of a sum evenly over the zero entries makes the sum vanish. -/
theorem spread_sum (s : Finset Nat) (air : Nat → Prop) [DecidablePred air] (v : Nat → K) (S : K)
    (hS : (∑ l ∈ s, if air l then 0 else v l) = S)
    (h0 : (s.filter fun l => ¬ air l ∧ v l = 0).card ≠ 0) :
    (∑ l ∈ s, if air l then 0
      else if v l = 0 then -S / ((s.filter fun l => ¬ air l ∧ v l = 0).card : K) else v l) = 0 := by
  have e : ∀ l, (if air l then 0
      else if v l = 0 then -S / ((s.filter fun l => ¬ air l ∧ v l = 0).card : K) else v l) =
      (if air l then 0 else v l) + if ¬ air l ∧ v l = 0 then
        -S / ((s.filter fun l => ¬ air l ∧ v l = 0).card : K) else 0 := by
    intro l
    by_cases h1 : air l
    · simp [h1]
    · by_cases h2 : v l = 0 <;> simp [h1, h2]
  rw [sum_congr rfl (fun l _ => e l), sum_add_distrib, hS, ← sum_filter, sum_const, nsmul_eq_mul]
  have : ((s.filter fun l => ¬ air l ∧ v l = 0).card : K) ≠ 0 := by exact_mod_cast h0
  field_simp
  ring

theorem zeroCount_eq (node : Nat → Nat) (Nz : Nat) (t : Nat → Int) (v : Nat → K) :
    zeroCount node Nz t v =
      ((range (Nz - 1)).filter fun i => ¬ t (node (i + 1)) = 30 ∧ v (node (i + 1)) = 0).card := by
  unfold zeroCount
  induction Nz - 1 with
  | zero => rfl
  | succ n ih =>
    rw [forUp_succ, ih, range_add_one, filter_insert]
    by_cases h1 : t (node (n + 1)) = 30
    · simp [h1]
    · by_cases h2 : v (node (n + 1)) = 0
      · rw [if_neg h1, if_pos h2, if_pos ⟨h1, h2⟩, card_insert_of_notMem (by simp)]
      · simp [h1, h2]

/-- Values after the correction loop. -/
theorem correct_spec (node : Nat → Nat) (hinj : Function.Injective node) (Nz : Nat) (tol : K)
    (t : Nat → Int) (S : K) (zc : Nat) (v : Nat → K) (l : Nat) :
    (correct node Nz tol t S zc v).1 (node l) =
      if 1 ≤ l ∧ l ≤ Nz ∧ ¬ t (node l) = 30 ∧ v (node l) = 0 then -S / zc else v (node l) := by
  unfold correct
  induction Nz with
  | zero => simp; intro h1 h2; omega
  | succ n ih =>
    rw [forUp_succ]
    simp only []
    by_cases hl : l = n + 1
    · subst hl
      have hn : ¬ (1 ≤ n + 1 ∧ n + 1 ≤ n ∧ ¬ t (node (n + 1)) = 30 ∧ v (node (n + 1)) = 0) := by omega
      rw [if_neg hn] at ih
      by_cases h1 : t (node (n + 1)) = 30
      · rw [if_pos h1, ih]; simp [h1]
      · rw [if_neg h1]
        simp only [ih]
        by_cases h2 : v (node (n + 1)) = 0
        · simp [h1, h2]
        · simp [h1, h2, ih]
    · have hne : node l ≠ node (n + 1) := fun e => hl (hinj e)
      have hiff : (1 ≤ l ∧ l ≤ n + 1 ∧ ¬ t (node l) = 30 ∧ v (node l) = 0) ↔
          (1 ≤ l ∧ l ≤ n ∧ ¬ t (node l) = 30 ∧ v (node l) = 0) := by
        constructor <;> rintro ⟨a, b, c⟩ <;> exact ⟨a, by omega, c⟩
      simp only [hiff]
      rw [← ih]
      split_ifs <;> first | rfl | (simp only []; rw [upd_ne _ _ hne])

/-- C49, the part that holds for the western and eastern sides: if the sum collected is the sum over
the rows of the side (which is so when the ghost nodes of the two corners hold zero), the correction
makes the sum over these rows vanish.  Missing: the smoothing that follows destroys it
(`balanced_side_has_flux`). -/
theorem correction_balances_partial (node : Nat → Nat) (hinj : Function.Injective node) (Nz : Nat)
    (tol : K) (t : Nat → Int) (v : Nat → K) (S : K)
    (hS : (∑ i ∈ range (Nz - 1), if t (node (i + 1)) = 30 then 0 else v (node (i + 1))) = S)
    (hz : zeroCount node Nz t v ≠ 0) :
    (∑ i ∈ range (Nz - 1), if t (node (i + 1)) = 30 then 0 else
      (correct node Nz tol t S (zeroCount node Nz t v) v).1 (node (i + 1))) = 0 := by
  have key := spread_sum (range (Nz - 1)) (fun i => t (node (i + 1)) = 30) (fun i => v (node (i + 1))) S
    hS (by rw [← zeroCount_eq]; exact hz)
  rw [← zeroCount_eq] at key
  refine Eq.trans ?_ key
  apply sum_congr rfl
  intro i hi
  have hi' := mem_range.mp hi
  by_cases h1 : t (node (i + 1)) = 30
  · simp [h1]
  · rw [if_neg h1, if_neg h1, correct_spec node hinj]
    by_cases h2 : v (node (i + 1)) = 0
    · rw [if_pos ⟨by omega, by omega, h1, h2⟩, if_pos h2]
    · rw [if_neg (fun h => h2 h.2.2.2), if_neg h2]

/-! ### The smoothing -/

/-- The coefficient of one smoothing pass is 9/20 whatever the length. -/
theorem coef_eq (space : K) (nz : Nat) (hs : space ≠ 0) (hn : nz ≠ 1) : coef space nz = 9 / 20 := by
  unfold coef
  have h1 : ((nz : K) - 1) ≠ 0 := by
    intro h; apply hn; have : (nz : K) = 1 := by linarith
    exact_mod_cast this
  have : space / ((nz : K) - 1) ≠ 0 := div_ne_zero hs h1
  simp only []
  field_simp
  norm_num

theorem smoothPass_coef (space : K) (hs : space ≠ 0) (nz : Nat) (b : Nat → K) :
    smoothPass nz (coef space nz) b = smoothPass nz (9 / 20) b := by
  funext l
  unfold smoothPass
  split_ifs with h
  · rw [coef_eq space nz hs (by omega)]
  · rfl

/-- C49: the smoothing keeps the two end values. -/
theorem smooth_ends (nz : Nat) (c : K) (b : Nat → K) :
    smooth nz c b 0 = b 0 ∧ smooth nz c b (nz - 1) = b (nz - 1) := by
  unfold smooth
  refine forUp_inv (P := fun _ (a : Nat → K) => a 0 = b 0 ∧ a (nz - 1) = b (nz - 1)) 20 ⟨rfl, rfl⟩ ?_
  rintro k a _ ⟨h1, h2⟩
  unfold smoothPass
  constructor
  · rw [if_neg (by omega)]; exact h1
  · rw [if_neg (by omega)]; exact h2

/-- C49: the smoothing creates no new extrema: every bound valid for the profile before holds after. -/
theorem smooth_range (nz : Nat) (space : K) (hs : space ≠ 0) (b : Nat → K) (m M : K)
    (hb : ∀ l < nz, m ≤ b l ∧ b l ≤ M) :
    ∀ l < nz, m ≤ smooth nz (coef space nz) b l ∧ smooth nz (coef space nz) b l ≤ M := by
  unfold smooth
  refine forUp_inv (P := fun _ (a : Nat → K) => ∀ l < nz, m ≤ a l ∧ a l ≤ M) 20 hb ?_
  intro k a _ ih l hl
  rw [smoothPass_coef space hs]
  unfold smoothPass
  split_ifs with h
  · have h1 := ih l hl
    have h2 := ih (l + 1) (by omega)
    have h3 := ih (l - 1) (by omega)
    constructor <;> linarith [h1.1, h1.2, h2.1, h2.2, h3.1, h3.2]
  · exact ih l hl

/-- One smoothing pass changes the sum by what flows through the fixed ends. -/
theorem smoothPass_sum (n : Nat) (c : K) (b : Nat → K) :
    (∑ l ∈ range (n + 2), smoothPass (n + 2) c b l) =
      (∑ l ∈ range (n + 2), b l) + c * ((b 0 - b 1) + (b (n + 1) - b n)) := by
  have hin : ∀ i ∈ range n, smoothPass (n + 2) c b (i + 1) =
      b (i + 1) + c * ((b (i + 2) - b (i + 1)) - (b (i + 1) - b i)) := by
    intro i hi
    have := mem_range.mp hi
    unfold smoothPass
    rw [if_pos (by omega)]
    simp only [Nat.add_sub_cancel]
    ring
  have h0 : smoothPass (n + 2) c b 0 = b 0 := by unfold smoothPass; rw [if_neg (by omega)]
  have h1 : smoothPass (n + 2) c b (n + 1) = b (n + 1) := by unfold smoothPass; rw [if_neg (by omega)]
  rw [sum_range_succ, sum_range_succ', sum_congr rfl hin, sum_add_distrib, ← mul_sum, sum_sub_distrib,
    h0, h1, sum_range_succ (fun l => b l) (n + 1), sum_range_succ' (fun l => b l) n]
  have e1 := sum_range_sub (fun i => b (i + 1)) n
  have e2 := sum_range_sub b n
  rw [e1, e2]
  simp only [Nat.zero_add]
  ring

theorem copy_back {α : Type*} (node : Nat → Nat) (hinj : Function.Injective node) (n : Nat)
    (v b : Nat → α) (i : Nat) :
    forUp n v (fun v i => upd v (node (i + 1)) (b i)) (node (i + 1)) =
      if i < n then b i else v (node (i + 1)) := by
  induction n with
  | zero => simp
  | succ n ih =>
    rw [forUp_succ]
    by_cases h : i = n
    · subst h; simp
    · rw [upd_ne _ _ (fun e => h (by have := hinj e; omega)), ih]
      have : i < n + 1 ↔ i < n := by omega
      simp only [this]

/-- Value of row `l` after the correction. -/
def corrected (node : Nat → Nat) (Nz : Nat) (t : Nat → Int) (S : K) (v : Nat → K) (l : Nat) : K :=
  if 1 ≤ l ∧ l ≤ Nz ∧ ¬ t (node l) = 30 ∧ v (node l) = 0 then -S / zeroCount node Nz t v
  else v (node l)

/-- What balancing a western or eastern side does: if the sum is not small and some row of the side
holds zero, the zero rows receive the opposite of the sum in equal parts and the first `nz` rows are
smoothed; `nz` is at most the number of rows. -/
theorem balanceX_spec (node : Nat → Nat) (hinj : Function.Injective node) (Nz : Nat)
    (tol space : K) (t : Nat → Int) (v : Nat → K) (S : K) (hbig : tol < S ∨ S < -tol)
    (hz : zeroCount node Nz t v ≠ 0) :
    ∃ v' nz, balanceX node Nz tol space t S v = some v' ∧ nz ≤ Nz ∧
      nz = (correct node Nz tol t S (zeroCount node Nz t v) v).2 ∧
      ∀ i, v' (node (i + 1)) = if i < nz then
        smooth nz (coef space nz) (fun i => corrected node Nz t S v (i + 1)) i
        else corrected node Nz t S v (i + 1) := by
  have hc : ∀ l, (correct node Nz tol t S (zeroCount node Nz t v) v).1 (node l) =
      corrected node Nz t S v l := fun l => correct_spec node hinj Nz tol t S _ v l
  refine ⟨?w, (correct node Nz tol t S (zeroCount node Nz t v) v).2, ?h1, ?h2, rfl, ?h3⟩
  case h1 =>
    unfold balanceX
    rw [if_pos hbig]
    simp only []
    rw [if_neg hz]
  case h2 =>
    unfold correct
    refine forUp_inv (P := fun n (s : (Nat → K) × Nat) => s.2 ≤ n) Nz (le_refl 0) ?_
    intro k s _ h
    simp only []
    split_ifs <;> omega
  case h3 =>
    intro i
    rw [copy_back node hinj, hc]
    simp only [hc]

/-- C49: balancing creates no velocity outside the range of the corrected profile, and keeps the
lowest row. -/
theorem balanceX_range (node : Nat → Nat) (hinj : Function.Injective node) (Nz : Nat)
    (tol space : K) (hs : space ≠ 0) (t : Nat → Int) (v v' : Nat → K) (S m M : K)
    (hbig : tol < S ∨ S < -tol) (hb : balanceX node Nz tol space t S v = some v')
    (hr : ∀ l, 1 ≤ l → l ≤ Nz → m ≤ corrected node Nz t S v l ∧ corrected node Nz t S v l ≤ M) :
    (∀ l, 1 ≤ l → l ≤ Nz → m ≤ v' (node l) ∧ v' (node l) ≤ M) ∧
    v' (node 1) = corrected node Nz t S v 1 := by
  have hz : zeroCount node Nz t v ≠ 0 := by
    intro h
    unfold balanceX at hb
    rw [if_pos hbig] at hb
    simp [h] at hb
  obtain ⟨w, nz, h1, h2, -, h3⟩ := balanceX_spec node hinj Nz tol space t v S hbig hz
  rw [h1, Option.some.injEq] at hb
  subst hb
  constructor
  · intro l hl hl'
    obtain ⟨i, rfl⟩ : ∃ i, l = i + 1 := ⟨l - 1, by omega⟩
    rw [h3]
    split_ifs with hi
    · exact smooth_range nz space hs _ m M (fun j hj => hr (j + 1) (by omega) (by omega)) i hi
    · exact hr (i + 1) hl hl'
  · have := h3 0
    rw [Nat.zero_add] at this
    rw [this]
    split_ifs
    · exact (smooth_ends nz _ _).1
    · rfl

end

/-! ### The sum after smoothing -/

theorem smooth_four (b0 : Nat → ℚ) (h0 : b0 0 = 1) (h1 : b0 1 = -1 / 2) (h2 : b0 2 = -1 / 2)
    (h3 : b0 3 = -1 / 2) : smooth 4 (coef 1 4) b0 0 = 1 ∧ 0 ≤ smooth 4 (coef 1 4) b0 1 ∧
      -1 / 2 ≤ smooth 4 (coef 1 4) b0 2 := by
  have key := forUp_inv (P := fun n (a : Nat → ℚ) => a 0 = 1 ∧ a 3 = -1 / 2 ∧ -1 / 2 ≤ a 1 ∧
    -1 / 2 ≤ a 2 ∧ (0 < n → 0 ≤ a 1)) (f := fun b _ => smoothPass 4 (coef (1 : ℚ) 4) b) (s := b0) 20
    ⟨h0, h3, h1.ge, h2.ge, by simp⟩ ?_
  · unfold smooth
    exact ⟨key.1, key.2.2.2.2 (by norm_num), key.2.2.2.1⟩
  · rintro k a _ ⟨i0, i3, i1, i2, -⟩
    rw [smoothPass_coef (1 : ℚ) one_ne_zero]
    simp only [smoothPass]
    norm_num [i0, i3]
    refine ⟨?_, ?_, ?_⟩ <;> linarith

/-- C49 is false after smoothing: a western side of three rows with velocities 1, 0, 0 (ghost rows 0)
is accepted, and afterwards the sum over the three rows is at least one half. -/
theorem balanced_side_has_flux :
    ∃ v', balanceX (fun l => l) 4 (1 / 1000000 : ℚ) 1 (fun _ => 0) 1
      (fun l => if l = 1 then 1 else 0) = some v' ∧ 1 / 2 ≤ v' 1 + v' 2 + v' 3 := by
  have hc : (correct (fun l => l) 4 (1 / 1000000 : ℚ) (fun _ => 0) 1
      (zeroCount (fun l => l) 4 (fun _ => 0) (fun l => if l = 1 then (1 : ℚ) else 0))
      (fun l => if l = 1 then 1 else 0)).2 = 4 := by decide +kernel
  have hz : zeroCount (fun l => l) 4 (fun _ => 0) (fun l => if l = 1 then (1 : ℚ) else 0) = 2 := by
    decide +kernel
  obtain ⟨v', nz, h1, -, h2, h3⟩ := balanceX_spec (fun l => l) (fun a b h => h) 4 (1 / 1000000 : ℚ) 1
    (fun _ => 0) (fun l => if l = 1 then 1 else 0) 1 (Or.inl (by norm_num)) (by rw [hz]; norm_num)
  rw [hc] at h2
  subst h2
  refine ⟨v', h1, ?_⟩
  have g : ∀ i, i < 4 → corrected (fun l => l) 4 (fun _ => 0) (1 : ℚ) (fun l => if l = 1 then 1 else 0)
      (i + 1) = if i = 0 then 1 else -1 / 2 := by
    intro i hi
    unfold corrected
    rw [hz]
    by_cases h : i = 0
    · simp [h]
    · simp [h]; omega
  obtain ⟨a, b, c⟩ := smooth_four (fun i => corrected (fun l => l) 4 (fun _ => 0) (1 : ℚ)
    (fun l => if l = 1 then 1 else 0) (i + 1)) (by rw [g 0 (by norm_num)]; norm_num)
    (by rw [g 1 (by norm_num)]; norm_num)
    (by rw [g 2 (by norm_num)]; norm_num)
    (by rw [g 3 (by norm_num)]; norm_num)
  have e1 := h3 0
  have e2 := h3 1
  have e3 := h3 2
  rw [if_pos (by norm_num)] at e1 e2 e3
  simp only [Nat.zero_add, Nat.reduceAdd] at e1 e2 e3
  rw [e1, e2, e3, a]
  linarith

/-- What balancing the southern side does. -/
theorem balanceS_spec {K : Type*} [Field K] [LinearOrder K] [IsStrictOrderedRing K] (Nx : Nat)
    (tol space : K) (t : Nat → Int) (v : Nat → K) (S : K) (hbig : tol < S ∨ S < -tol) (zc : Nat)
    (hzc : zc = ((range (Nx + 1)).filter fun k => ¬ t k = 30 ∧ v k = 0).card) (hz : zc ≠ 0) :
    ∃ v', balanceS Nx tol space t S v = some v' ∧
      ∀ i < Nx, v' (i + 1) = smooth Nx (coef space Nx)
        (fun i => if i < Nx ∧ ¬ t (i + 1) = 30 ∧ v (i + 1) = 0 then -S / zc else v (i + 1)) i := by
  have h1 : ∀ n, (forUp n 0 fun m c => if t c = 30 then m else if v c = 0 then m + 1 else m) =
      ((range n).filter fun k => ¬ t k = 30 ∧ v k = 0).card := by
    intro n
    induction n with
    | zero => rfl
    | succ n ih =>
      rw [forUp_succ, ih, range_add_one, filter_insert]
      by_cases h1 : t n = 30
      · simp [h1]
      · by_cases h2 : v n = 0
        · rw [if_neg h1, if_pos h2, if_pos ⟨h1, h2⟩, card_insert_of_notMem (by simp)]
        · simp [h1, h2]
  have h2 : ∀ n j, (forUp n v fun v c => if t c = 30 then v else if v c = 0 then upd v c (-S / zc) else v) j
      = if j < n ∧ ¬ t j = 30 ∧ v j = 0 then -S / zc else v j := by
    intro n j
    induction n with
    | zero => simp
    | succ n ih =>
      rw [forUp_succ]
      by_cases hj : j = n
      · subst hj
        rw [if_neg (by omega)] at ih
        by_cases h1 : t j = 30
        · simp [h1, ih]
        · by_cases h2 : v j = 0
          · simp [h1, ih, h2]
          · simp [h1, ih, h2]
      · have hiff : (j < n + 1 ∧ ¬ t j = 30 ∧ v j = 0) ↔ (j < n ∧ ¬ t j = 30 ∧ v j = 0) := by
          constructor <;> rintro ⟨a, c⟩ <;> exact ⟨by omega, c⟩
        simp only [hiff]
        rw [← ih]
        split_ifs <;> first | rfl | (rw [upd_ne _ _ hj])
  refine ⟨?w, ?h1, ?h2⟩
  case h1 =>
    unfold balanceS
    rw [if_pos hbig]
    simp only []
    rw [h1, ← hzc, if_neg hz]
  case h2 =>
    intro i hi
    rw [copy_back (fun k => k) (fun a b h => h) Nx _ _ i, if_pos hi]
    congr 1
    funext j
    rw [h2]
    have : j + 1 < Nx + 1 ↔ j < Nx := by omega
    simp only [this]

/-- The southern side is not even balanced before smoothing, because the two ghost corners take part
in the correction: two nodes with velocities 1 and 0 end with a sum of at least two thirds. -/
theorem southern_side_has_flux :
    ∃ v', balanceS 3 (1 / 1000000 : ℚ) 1 (fun _ => 0) 1 (fun k => if k = 1 then 1 else 0) = some v' ∧
      2 / 3 ≤ v' 1 + v' 2 := by
  obtain ⟨v', h1, h2⟩ := balanceS_spec 3 (1 / 1000000 : ℚ) 1 (fun _ => 0) (fun k => if k = 1 then 1 else 0)
    1 (Or.inl (by norm_num)) 3 (by decide +kernel) (by norm_num)
  refine ⟨v', h1, ?_⟩
  have sm : ∀ b0 : Nat → ℚ, b0 0 = 1 → (∀ l < 3, -1 / 3 ≤ b0 l ∧ b0 l ≤ 1) →
      smooth 3 (coef 1 3) b0 0 = 1 ∧ -1 / 3 ≤ smooth 3 (coef 1 3) b0 1 := by
    intro b0 h0 hb
    exact ⟨by rw [(smooth_ends 3 (coef (1 : ℚ) 3) b0).1, h0],
      (smooth_range 3 (1 : ℚ) one_ne_zero b0 (-1 / 3) 1 hb 1 (by norm_num)).1⟩
  obtain ⟨a, b⟩ := sm (fun i => if i < 3 ∧ ¬ (0 : Int) = 30 ∧ (if i + 1 = 1 then (1 : ℚ) else 0) = 0 then
      -1 / ((3 : Nat) : ℚ) else if i + 1 = 1 then 1 else 0) (by norm_num) (by
    intro l hl
    by_cases h : l = 0
    · simp [h]; norm_num
    · simp [h, hl]; norm_num)
  have e1 := h2 0 (by norm_num)
  have e2 := h2 1 (by norm_num)
  rw [a] at e1
  simp only [Nat.zero_add, Nat.reduceAdd] at e1 e2
  rw [e1, e2]
  linarith

/-- The hypotheses of the sum statement are met by this side. -/
example : (∑ i ∈ range (4 - 1), if (0 : Int) = 30 then (0 : ℚ) else
    (fun l => if l = 1 then (1 : ℚ) else 0) (i + 1)) = 1 ∧
    zeroCount (fun l => l) 4 (fun _ => 0) (fun l => if l = 1 then (1 : ℚ) else 0) ≠ 0 := by
  decide +kernel

end Verif.Setup
