import Verif.Model.Output
import Verif.Props.Reduction
import Verif.Spec.Output
import Verif.Spec.GridFields
import Mathlib.Algebra.BigOperators.Field
import Mathlib.Algebra.Order.BigOperators.Ring.Finset
import Mathlib.Tactic.Ring
import Mathlib.Tactic.Linarith
import Mathlib.Tactic.FieldSimp
import Mathlib.Tactic.NormNum

/-
C110: the averages reported in the time series.
-/
namespace Verif.Output

open Verif.Spec Finset

set_option linter.unusedVariables false

/-- The cells below the free surface. -/
def MeanFields.rock (F : MeanFields) : Finset Nat :=
  (range (F.ncx * F.ncz)).filter fun c => ¬ AirFlag (F.typ c)

theorem active_iff (F : MeanFields) (c : Nat) : F.active c = true ↔ ¬ AirFlag (F.typ c) := by
  simp [MeanFields.active, AirFlag]

theorem total_eq (F : MeanFields) (ls : List (List Nat)) (hd : Distribution (F.ncx * F.ncz) ls)
    (v : Nat → ℝ) : F.total ls v = ∑ c ∈ F.rock, v c := by
  unfold MeanFields.total
  rw [Red.reduction_sum 0 _ _ ls hd, zero_add, MeanFields.rock, sum_filter]
  refine sum_congr rfl fun c _ => ?_
  by_cases h : F.active c = true
  · rw [if_pos h, if_pos ((active_iff F c).1 h)]
  · rw [if_neg h, if_neg (fun h' => h ((active_iff F c).2 h'))]

theorem number_eq (F : MeanFields) (ls : List (List Nat)) (hd : Distribution (F.ncx * F.ncz) ls) :
    F.number ls = #F.rock := by
  have h1 : (F.number ls : ℚ) = Red.ompSum (0 : ℚ) (fun c => if F.active c then 1 else 0) ls := by
    unfold MeanFields.number Red.ompSum
    have inner : ∀ (its : List Nat) (p : Nat),
        ((its.foldl (fun p k => p + if F.active k then 1 else 0) p : Nat) : ℚ) =
          its.foldl (fun p k => p + if F.active k then 1 else 0) (p : ℚ) := by
      intro its
      induction its with
      | nil => intro p; rfl
      | cons a its ih => intro p; rw [List.foldl_cons, List.foldl_cons, ih]; push_cast; rfl
    have outer : ∀ (ls : List (List Nat)) (p : Nat),
        ((ls.foldl (fun s its => s + its.foldl (fun p k => p + if F.active k then 1 else 0) 0) p : Nat) : ℚ)
          = ls.foldl (fun s its => s + its.foldl (fun p k => p + if F.active k then 1 else 0) 0) (p : ℚ) := by
      intro ls
      induction ls with
      | nil => intro p; rfl
      | cons a ls ih =>
        intro p
        rw [List.foldl_cons, List.foldl_cons, ih]
        push_cast
        rw [inner]
        simp
    simpa using outer ls 0
  rw [Red.reduction_sum 0 _ _ ls hd, zero_add, ← sum_filter, sum_const, nsmul_eq_mul, mul_one] at h1
  have h2 : (range (F.ncx * F.ncz)).filter (fun c => F.active c = true) = F.rock := by
    unfold MeanFields.rock
    exact filter_congr fun c _ => active_iff F c
  rw [h2] at h1
  exact_mod_cast h1

/-- Second invariant of a two-dimensional tensor with components `xx`, `zz`, `xz`. -/
noncomputable def inv2 (xx zz xz : ℝ) : ℝ := Real.sqrt ((xx ^ 2 + zz ^ 2) / 2 + xz ^ 2)

theorem seriesInv_eq (xx zz xz : ℝ) : seriesInv xx zz xz = inv2 xx zz xz := by
  unfold seriesInv inv2; congr 1; ring

/-- Mean of the four corners of cell `(k, l)`, `k` the column. -/
noncomputable def cornerMean (ncx : Nat) (f : Nat → ℝ) (c : Nat) : ℝ :=
  (∑ a ∈ range 2, ∑ b ∈ range 2, f ((c % ncx + a) + (c / ncx + b) * (ncx + 1))) / 4

theorem centre_eq (F : MeanFields) (f : Nat → ℝ) (c : Nat) : F.centre f c = cornerMean F.ncx f c := by
  unfold MeanFields.centre cornerMean
  simp only [sum_range_succ, sum_range_zero, add_zero, zero_add]
  rw [show c % F.ncx + 1 + c / F.ncx * (F.ncx + 1) = c % F.ncx + c / F.ncx * (F.ncx + 1) + 1 by ring,
    show c % F.ncx + 1 + (c / F.ncx + 1) * (F.ncx + 1) = c % F.ncx + (c / F.ncx + 1) * (F.ncx + 1) + 1 by ring]
  ring

/-- `m` is the average of `v` over the cells `A`. -/
def IsMean (A : Finset Nat) (v : Nat → ℝ) (m : ℝ) : Prop := m = (∑ c ∈ A, v c) / #A

/-- **C110.**  Whatever the schedule of the threads: with no cell below the free surface nothing is
reported (the division gives NaN); otherwise each reported mean is the average of its quantity over the
cells below the free surface, shear components being averaged from the four corners of a cell and
invariants being formed in each cell. -/
theorem series_means (F : MeanFields) (ls : List (List Nat)) (hd : Distribution (F.ncx * F.ncz) ls) :
    (F.rock = ∅ → means F ls = none) ∧
    (F.rock ≠ ∅ → ∃ M, means F ls = some M ∧
      IsMean F.rock F.T M.T ∧ IsMean F.rock F.P M.P ∧
      IsMean F.rock F.exxd M.exxd ∧ IsMean F.rock F.ezzd M.ezzd ∧
      IsMean F.rock (cornerMean F.ncx F.exz) M.exz ∧
      IsMean F.rock (fun c => inv2 (F.exxd c) (F.ezzd c) (cornerMean F.ncx F.exz c)) M.Eii ∧
      IsMean F.rock F.sxxd M.sxxd ∧ IsMean F.rock F.szzd M.szzd ∧
      IsMean F.rock (cornerMean F.ncx F.sxz) M.sxz ∧
      IsMean F.rock (fun c => inv2 (F.sxxd c) (F.szzd c) (cornerMean F.ncx F.sxz c)) M.Tii) := by
  have hc : ∀ f, F.centre f = cornerMean F.ncx f := fun f => funext fun c => centre_eq F f c
  constructor
  · intro h
    unfold means
    rw [if_pos (by rw [number_eq F ls hd, h, card_empty])]
  · intro h
    refine ⟨_, by
      unfold means
      rw [if_neg (by rw [number_eq F ls hd]; exact fun h' => h (card_eq_zero.1 h'))], ?_⟩
    simp only [total_eq F ls hd, number_eq F ls hd, hc, seriesInv_eq]
    exact ⟨rfl, rfl, rfl, rfl, rfl, rfl, rfl, rfl, rfl, rfl⟩

/-- The averages do not depend on the schedule. -/
theorem series_schedule_independent (F : MeanFields) (ls ls' : List (List Nat))
    (hd : Distribution (F.ncx * F.ncz) ls) (hd' : Distribution (F.ncx * F.ncz) ls') :
    means F ls = means F ls' := by
  unfold means
  simp only [total_eq F ls hd, total_eq F ls' hd', number_eq F ls hd, number_eq F ls' hd']

/-- An average lies between any bounds of the quantity on the cells below the surface. -/
theorem mean_bounds {A : Finset Nat} (hA : A ≠ ∅) {v : Nat → ℝ} {m : ℝ} (hm : IsMean A v m) {lo hi : ℝ}
    (hlo : ∀ c ∈ A, lo ≤ v c) (hhi : ∀ c ∈ A, v c ≤ hi) : lo ≤ m ∧ m ≤ hi := by
  have hp : (0 : ℝ) < #A := by exact_mod_cast card_pos.2 (nonempty_iff_ne_empty.2 hA)
  rw [hm]
  constructor
  · rw [le_div_iff₀ hp]
    calc lo * #A = ∑ c ∈ A, lo := by rw [sum_const, nsmul_eq_mul]; ring
      _ ≤ _ := sum_le_sum hlo
  · rw [div_le_iff₀ hp]
    calc _ ≤ ∑ c ∈ A, hi := sum_le_sum hhi
      _ = hi * #A := by rw [sum_const, nsmul_eq_mul]; ring

theorem inv2_add (a b c a' b' c' : ℝ) : inv2 (a + a') (b + b') (c + c') ≤ inv2 a b c + inv2 a' b' c' := by
  unfold inv2
  have h1 : 0 ≤ (a ^ 2 + b ^ 2) / 2 + c ^ 2 := by positivity
  have h2 : 0 ≤ (a' ^ 2 + b' ^ 2) / 2 + c' ^ 2 := by positivity
  have s1 := Real.sqrt_nonneg ((a ^ 2 + b ^ 2) / 2 + c ^ 2)
  have s2 := Real.sqrt_nonneg ((a' ^ 2 + b' ^ 2) / 2 + c' ^ 2)
  have q1 := Real.sq_sqrt h1
  have q2 := Real.sq_sqrt h2
  set x := Real.sqrt ((a ^ 2 + b ^ 2) / 2 + c ^ 2)
  set y := Real.sqrt ((a' ^ 2 + b' ^ 2) / 2 + c' ^ 2)
  apply Real.sqrt_le_iff.2
  refine ⟨by linarith, ?_⟩
  have key : (a * a' + b * b') / 2 + c * c' ≤ x * y := by
    apply le_of_sq_le_sq _ (mul_nonneg s1 s2)
    rw [mul_pow, q1, q2]
    nlinarith [sq_nonneg (a * b' - b * a'), sq_nonneg (a * c' - c * a'), sq_nonneg (b * c' - c * b')]
  nlinarith

theorem inv2_smul (t a b c : ℝ) (ht : 0 ≤ t) : inv2 (a * t) (b * t) (c * t) = inv2 a b c * t := by
  unfold inv2
  rw [show ((a * t) ^ 2 + (b * t) ^ 2) / 2 + (c * t) ^ 2 = ((a ^ 2 + b ^ 2) / 2 + c ^ 2) * t ^ 2 by ring,
    Real.sqrt_mul (by positivity), Real.sqrt_sq ht]

/-- The reported mean invariant is at least the invariant of the reported mean components. -/
theorem mean_invariant_bound {A : Finset Nat} {xx zz xz : Nat → ℝ} {mx mz mxz m : ℝ}
    (h1 : IsMean A xx mx) (h2 : IsMean A zz mz) (h3 : IsMean A xz mxz)
    (h4 : IsMean A (fun c => inv2 (xx c) (zz c) (xz c)) m) : inv2 mx mz mxz ≤ m := by
  have hs : ∀ B : Finset Nat, inv2 (∑ c ∈ B, xx c) (∑ c ∈ B, zz c) (∑ c ∈ B, xz c) ≤
      ∑ c ∈ B, inv2 (xx c) (zz c) (xz c) := by
    intro B
    induction B using Finset.induction_on with
    | empty => simp [inv2]
    | insert a B ha ih =>
      rw [sum_insert ha, sum_insert ha, sum_insert ha, sum_insert ha]
      exact le_trans (inv2_add _ _ _ _ _ _) (by linarith)
  rw [h1, h2, h3, h4]
  simp only [div_eq_mul_inv]
  rw [inv2_smul _ _ _ _ (by positivity)]
  exact mul_le_mul_of_nonneg_right (hs A) (by positivity)

/-- Second invariant of a deviatoric tensor in plane strain with out-of-plane component `-(xx + zz)`. -/
noncomputable def inv3 (xx zz xz : ℝ) : ℝ :=
  Real.sqrt ((xx ^ 2 + zz ^ 2 + (-(xx + zz)) ^ 2) / 2 + xz ^ 2)

theorem viscInv_eq (xx zz xz : ℝ) : viscInv xx zz xz = inv3 xx zz xz := by
  unfold viscInv inv3; simp only; congr 1; ring

/-- The invariant averaged in the time series leaves out the out-of-plane component that the flow laws
include: it is never larger, and equal exactly when the deformation has no in-plane divergence. -/
theorem series_invariant_omits_yy (xx zz xz : ℝ) :
    inv2 xx zz xz ≤ inv3 xx zz xz ∧ (inv2 xx zz xz = inv3 xx zz xz ↔ xx + zz = 0) := by
  unfold inv2 inv3
  constructor
  · apply Real.sqrt_le_sqrt
    nlinarith [sq_nonneg (xx + zz)]
  · rw [Real.sqrt_inj (by positivity) (by positivity)]
    constructor
    · intro h
      have : (xx + zz) ^ 2 = 0 := by nlinarith
      exact pow_eq_zero_iff (two_ne_zero) |>.1 this
    · intro h
      rw [h]; ring

/-- Dimension of each series, as SI unit of the run. -/
noncomputable def seriesUnit (u : SUnits) : Series → ℝ
  | .Uthermal | .Uelastic | .Work => u.S * u.L ^ 2
  | .Time => u.t
  | .Short => 100
  | .P | .sxxd | .szzd | .sxz | .Tii => u.S
  | .T => u.T
  | .exxd | .ezzd | .exz | .Eii => u.E

/-- The quantity each series follows. -/
noncomputable def seriesQuantity (c : Totals) (m : Means) : Series → ℝ
  | .Uthermal => c.Uthermal
  | .Uelastic => c.Uelastic
  | .Work => c.Work
  | .Time => c.time
  | .Short => (c.L0 - (c.xmax - c.xmin)) / c.L0
  | .P => m.P
  | .T => m.T
  | .sxxd => m.sxxd
  | .szzd => m.szzd
  | .sxz => m.sxz
  | .Tii => m.Tii
  | .exxd => m.exxd
  | .ezzd => m.ezzd
  | .exz => m.exz
  | .Eii => m.Eii

/-- After a run of `n` steps every series holds, at entry `k ≤ n`, the quantity it follows as it was at
the end of step `k`, in the unit of that quantity; later entries are untouched. -/
theorem series_history (u : SUnits) (c : Nat → Totals) (m : Nat → Means) (n : Nat)
    (a : Series → Nat → ℝ) (s : Series) (k : Nat) :
    seriesRun u c m n a s k =
      if k ≤ n then seriesQuantity (c k) (m k) s * seriesUnit u s else a s k := by
  have hv : ∀ c m, seriesValue u c m s = seriesQuantity c m s * seriesUnit u s := by
    intro c m
    cases s <;> simp only [seriesValue, seriesQuantity, seriesUnit, shortening] <;> ring
  unfold seriesRun
  have key : ∀ N, forUp N a (fun a k => logTimeSeries u (c k) (m k) k a) s k =
      if k < N then seriesQuantity (c k) (m k) s * seriesUnit u s else a s k := by
    intro N
    induction N with
    | zero => simp [forUp]
    | succ N ih =>
      rw [forUp_succ]
      show upd _ N _ k = _
      by_cases h : k = N
      · subst h
        rw [upd_same, if_pos (Nat.lt_succ_self k), hv]
      · rw [upd_ne _ _ h, ih]
        by_cases h' : k < N
        · rw [if_pos h', if_pos (by omega)]
        · rw [if_neg h', if_neg (by omega)]
  rw [key]
  simp only [Nat.lt_succ_iff]

/-- Two cells, the upper one in the air: the averages are those of the lower one, whatever the two
threads do. -/
noncomputable def twoCells : MeanFields where
  ncx := 1
  ncz := 2
  typ := fun c => if c = 1 then 30 else 0
  T := fun c => if c = 1 then 1000 else 3
  P := fun c => c
  exxd := fun _ => 1
  ezzd := fun _ => -1
  exz := fun v => v
  sxxd := fun _ => 2
  szzd := fun _ => -2
  sxz := fun _ => 0

theorem twoCells_rock : twoCells.rock = {0} := by
  unfold MeanFields.rock twoCells
  decide

example : Distribution (twoCells.ncx * twoCells.ncz) [[1], [0]] ∧ twoCells.rock ≠ ∅ := by
  constructor
  · show [[1], [0]].flatten.Perm (List.range 2)
    decide
  · rw [twoCells_rock]; decide

example : ∃ M, means twoCells [[1], [0]] = some M ∧ M.T = 3 := by
  obtain ⟨M, h, hT, -⟩ := (series_means twoCells [[1], [0]]
    (by show [[1], [0]].flatten.Perm (List.range 2); decide)).2 (by rw [twoCells_rock]; decide)
  refine ⟨M, h, ?_⟩
  rw [hT, twoCells_rock]
  simp [twoCells]

/-- With compression in x only, the reported invariant is smaller than the one the flow laws see. -/
example : inv2 1 0 0 < inv3 1 0 0 :=
  lt_of_le_of_ne (series_invariant_omits_yy 1 0 0).1
    (fun h => by have := (series_invariant_omits_yy 1 0 0).2.1 h; norm_num at this)

end Verif.Output
