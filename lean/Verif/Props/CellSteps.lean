import Verif.Model.CellSteps
import Verif.Spec.CellSteps
import Verif.Props.Density
import Verif.Props.HistoryUpdate
import Verif.Props.SurfaceFlow
import Mathlib.LinearAlgebra.Matrix.PosDef
import Mathlib.Algebra.Order.Star.Real
import Mathlib.Tactic.LinearCombination

/-! Thermal expansion, compressible cells, density and grain size carried by markers, and the heat solver. -/
namespace Verif.CStep
open Verif Spec
set_option linter.unusedVariables false
set_option linter.unusedSimpArgs false
set_option linter.unusedSectionVars false

/-! ### thermal expansion -/

/-- The sum of the phases as a plain sum; fractions below `1e-13` count as absent. -/
theorem divth_sum (nph : Nat) (flag0 : Int) (h : flag0 ≠ 30 ∧ flag0 ≠ 31) (frac alp rho : Nat → ℝ) (rhoN T T0 dt : ℝ) :
    divth nph flag0 frac alp rho rhoN T T0 dt =
      ∑ p ∈ Finset.range nph, if 1 / 10 ^ 13 < |frac p| then frac p * (alp p * rho p / rhoN * (T - T0) / dt) else 0 := by
  unfold divth
  rw [← Dens.forUp_sum]
  congr 1
  funext s p
  by_cases hp : (1 : ℝ) / 10 ^ 13 < |frac p| <;> simp only [hp, h, ne_eq, not_false_eq_true, and_self, if_true, if_false, add_zero]

theorem cellDensity_sum (nph : Nat) (flag : Int) (h : flag ≠ 30) (frac rho : Nat → ℝ) :
    Dens.cellDensity nph flag frac rho = ∑ p ∈ Finset.range nph, if 1 / 10 ^ 13 < |frac p| then frac p * rho p else 0 := by
  unfold Dens.cellDensity
  rw [← Dens.forUp_sum]
  congr 1
  funext s p
  by_cases hp : (1 : ℝ) / 10 ^ 13 < |frac p| <;> simp only [hp, h, ne_eq, not_false_eq_true, if_true, if_false, add_zero]

/-- **C130 (partial).**  In a cell of any mixture of materials with the linear density law whose reaction has not started and
whose pressure is the reference pressure (or which is incompressible), the expansion source is exactly the relative growth rate
of the mixture between the old and the new temperature, provided the cell density is that of the mixture and the bottom left
cell is rock. -/
theorem expansion_is_density_drop_partial (nph : Nat) (flag : Nat → Int) (h0 : flag 0 ≠ 30 ∧ flag 0 ≠ 31) (c : Nat)
    (hc : flag c ≠ 30) (frac : Nat → Nat → ℝ) (mats : Nat → Dens.Mat) (dv : Int) (phi junk : ℝ)
    (hl : ∀ p < nph, (mats p).dens = 1) (P : ℝ) (hP : ∀ p < nph, (mats p).bet * (P - (mats p).P0) = 0)
    (rhoN T T0 : Nat → ℝ) (dt : ℝ)
    (hr : rhoN c = Dens.cellDensity nph (flag c) (fun p => frac p c) fun p => Dens.evaluate dv mats p (T c) P 0 phi junk) :
    massSource nph flag frac (fun p => (mats p).alp) (fun p => (mats p).rho) rhoN T T0 dt c =
      growthRate (Dens.cellDensity nph (flag c) (fun p => frac p c) fun p => Dens.evaluate dv mats p (T0 c) P 0 phi junk)
        (rhoN c) dt := by
  unfold massSource growthRate
  rw [divth_sum nph _ h0]
  have key : rhoN c - Dens.cellDensity nph (flag c) (fun p => frac p c)
      (fun p => Dens.evaluate dv mats p (T0 c) P 0 phi junk) =
      -(∑ p ∈ Finset.range nph, if 1 / 10 ^ 13 < |frac p c| then frac p c * ((mats p).alp * (mats p).rho * (T c - T0 c))
        else 0) := by
    rw [hr, cellDensity_sum _ _ hc, cellDensity_sum _ _ hc, ← Finset.sum_sub_distrib, ← Finset.sum_neg_distrib]
    refine Finset.sum_congr rfl fun p hp => ?_
    have hp' := Finset.mem_range.1 hp
    split_ifs with hf
    · rw [Dens.eval1 (hl p hp'), Dens.eval1 (hl p hp'), hP p hp']
      ring
    · simp
  rw [key, neg_neg, Finset.sum_div]
  refine Finset.sum_congr rfl fun p _ => ?_
  split_ifs
  · rw [mul_div_assoc' , div_mul_eq_mul_div, mul_div_assoc', div_div]
  · simp

/-- A warming rock expands: non-negative expansivities and densities. -/
theorem warming_expands (nph : Nat) (flag0 : Int) (frac alp rho : Nat → ℝ) (rhoN T T0 dt : ℝ) (hf : ∀ p < nph, 0 ≤ frac p)
    (ha : ∀ p < nph, 0 ≤ alp p) (hr : ∀ p < nph, 0 ≤ rho p) (hN : 0 < rhoN) (hdt : 0 < dt) (hT : T0 ≤ T) :
    0 ≤ divth nph flag0 frac alp rho rhoN T T0 dt := by
  by_cases h : flag0 ≠ 30 ∧ flag0 ≠ 31
  · rw [divth_sum _ _ h]
    refine Finset.sum_nonneg fun p hp => ?_
    have hp' := Finset.mem_range.1 hp
    have := hf p hp'; have := ha p hp'; have := hr p hp'; have := sub_nonneg.2 hT
    split_ifs <;> positivity
  · unfold divth
    simp only [h, if_false, ite_self]
    exact forUp_inv (P := fun _ (s : ℝ) => 0 ≤ s) _ (le_refl 0) fun _ _ _ h => h

/-- **C130 (fails).**  Whether a cell expands is decided by the flag of the first cell of the grid: if that one is air, no cell
expands; if it is rock, air cells with material in them do. -/
theorem expansion_decided_elsewhere (nph : Nat) (flag : Nat → Int) (frac : Nat → Nat → ℝ) (alp rho : Nat → ℝ)
    (rhoN T T0 : Nat → ℝ) (dt : ℝ) :
    (flag 0 = 30 ∨ flag 0 = 31 → ∀ c, massSource nph flag frac alp rho rhoN T T0 dt c = 0) ∧
    (∀ flag', flag' 0 = flag 0 → massSource nph flag' frac alp rho rhoN T T0 dt = massSource nph flag frac alp rho rhoN T T0 dt) := by
  constructor
  · intro h c
    have h' : ¬(flag 0 ≠ 30 ∧ flag 0 ≠ 31) := by omega
    unfold massSource divth
    simp only [h', if_false, ite_self]
    exact forUp_inv (P := fun _ (s : ℝ) => s = 0) _ rfl fun _ _ _ h => h
  · intro flag' h
    funext c
    unfold massSource
    rw [h]

/-- **C130 (fails).**  A material of constant density expands all the same: the source does not ask for the density law. -/
theorem constant_density_expands : ∃ (mats : Nat → Dens.Mat) (T T0 : ℝ),
    (∀ T' P X phi junk, Dens.evaluate 0 mats 0 T' P X phi junk = 3300) ∧
    divth 1 (-1) (fun _ => 1) (fun p => (mats p).alp) (fun p => (mats p).rho)
      (Dens.cellDensity 1 (-1) (fun _ => 1) fun p => Dens.evaluate 0 mats p T 0 0 0 0) T T0 1 = 3 / 1000 := by
  refine ⟨fun _ => ⟨0, 3300, 0, 0, 3 / 100000, 0, 0, 0, 0, 0, 0, 0, 0, 0, fun _ => 0, 0, 0, 0, fun _ => 0⟩, 100, 0, ?_, ?_⟩
  · intro T' P X phi junk
    rw [Dens.eval0 rfl]
  · rw [divth_sum _ _ (by decide), cellDensity_sum _ _ (by decide)]
    simp only [Finset.sum_range_one]
    rw [Dens.eval0 rfl]
    norm_num

/-- What reaches the continuity equation: the source of the previous step in compressible rock cells, nothing in other rock
cells. -/
theorem expansion_where (compressible : Int) (flag comp : Nat → Int) (divth0 old : Nat → ℝ) (c : Nat)
    (h : flag c ≠ 30 ∧ flag c ≠ 31) :
    rhsP compressible flag comp divth0 old c = if compressible = 1 ∧ comp c = 1 then divth0 c else 0 := by
  unfold rhsP
  rw [if_pos h]
  by_cases h1 : compressible = 1 <;> by_cases h2 : comp c = 1 <;> simp [h1, h2]

/-- Non-vacuity of C130: half and half of two materials warming from 0 to 100 degrees. -/
example : massSource 2 (fun _ => -1) (fun _ _ => 1 / 2) (fun p => if p = 0 then 1 / 100000 else 3 / 100000)
    (fun _ => 1000) (fun _ => 998) (fun _ => 100) (fun _ => 0) 2 5 = growthRate 1000 998 2 := by
  unfold massSource
  rw [divth_sum _ _ (by decide)]
  norm_num [growthRate, Finset.sum_range_succ, abs_of_pos]

/-! ### compressible cells -/

theorem detect_spec (ncell : Nat) (flag : Nat → Int) (bet : Nat → ℝ) (comp : Nat → Int) (c : Nat) :
    detect ncell flag bet comp c = if c < ncell ∧ flag c ≠ 30 ∧ 1 / 10 ^ 13 < bet c then 1 else comp c := by
  unfold detect
  induction ncell with
  | zero => simp
  | succ n ih =>
    rw [forUp_succ]
    by_cases hc : c = n
    · subst hc
      by_cases h1 : flag c = 30
      · simp only [h1, ne_eq, not_true_eq_false, if_false, false_and, and_false]
        rw [ih]; simp [h1]
      · by_cases h2 : 1 / 10 ^ 13 < bet c
        · simp only [h1, ne_eq, not_false_eq_true, if_true, h2]
          rw [upd_same]; simp
        · simp only [h1, ne_eq, not_false_eq_true, if_true, h2, if_false]
          rw [ih]; simp [h2]
    · have : (if flag n ≠ 30 then if 1 / 10 ^ 13 < bet n then upd (forUp n comp fun comp c =>
          if flag c ≠ 30 then if 1 / 10 ^ 13 < bet c then upd comp c 1 else comp else comp) n 1
          else (forUp n comp fun comp c => if flag c ≠ 30 then if 1 / 10 ^ 13 < bet c then upd comp c 1 else comp else comp)
          else (forUp n comp fun comp c => if flag c ≠ 30 then if 1 / 10 ^ 13 < bet c then upd comp c 1 else comp else comp)) c =
          (forUp n comp fun comp c => if flag c ≠ 30 then if 1 / 10 ^ 13 < bet c then upd comp c 1 else comp else comp) c := by
        split_ifs
        · rw [upd_ne _ _ hc]
        · rfl
        · rfl
      rw [this, ih]
      exact if_congr (by constructor <;> rintro ⟨h, h'⟩ <;> exact ⟨by omega, h'⟩) rfl rfl

/-- **C131.**  After any series of time steps a cell counts as compressible exactly if in *some* step so far it was not marked
as air and its compressibility exceeded the threshold. -/
theorem compressible_history (ncell : Nat) (steps : List ((Nat → Int) × (Nat → ℝ))) (c : Nat) (hc : c < ncell) :
    detectAll ncell steps c = if ∃ s ∈ steps, s.1 c ≠ 30 ∧ 1 / 10 ^ 13 < s.2 c then 1 else 0 := by
  unfold detectAll
  suffices h : ∀ comp : Nat → Int, comp c = 0 ∨ comp c = 1 → steps.foldl (fun comp s => detect ncell s.1 s.2 comp) comp c =
      if comp c = 1 ∨ ∃ s ∈ steps, s.1 c ≠ 30 ∧ 1 / 10 ^ 13 < s.2 c then 1 else 0 by
    rw [h _ (Or.inl rfl)]
    exact if_congr (or_iff_right (by decide)) rfl rfl
  induction steps with
  | nil =>
    intro comp h
    rcases h with h | h <;> simp [h]
  | cons s rest ih =>
    intro comp h
    rw [List.foldl_cons, ih _ (by rw [detect_spec]; split_ifs <;> simp_all), detect_spec]
    by_cases hs : s.1 c ≠ 30 ∧ 1 / 10 ^ 13 < s.2 c
    · have : c < ncell ∧ s.1 c ≠ 30 ∧ 1 / 10 ^ 13 < s.2 c := ⟨hc, hs⟩
      rw [if_pos this, if_pos (Or.inl rfl), if_pos (Or.inr ⟨s, by simp, hs⟩)]
    · have : ¬(c < ncell ∧ s.1 c ≠ 30 ∧ 1 / 10 ^ 13 < s.2 c) := fun h => hs h.2
      rw [if_neg this]
      have e : (comp c = 1 ∨ ∃ s' ∈ rest, s'.1 c ≠ 30 ∧ 1 / 10 ^ 13 < s'.2 c) ↔
          (comp c = 1 ∨ ∃ s' ∈ s :: rest, s'.1 c ≠ 30 ∧ 1 / 10 ^ 13 < s'.2 c) := by
        simp only [List.mem_cons, exists_eq_or_imp, hs, false_or]
      exact if_congr e rfl rfl

/-- **C131 (partial).**  The flag describes the present state of the cell if a cell once compressible stays so. -/
theorem compressible_now_partial (ncell : Nat) (steps : List ((Nat → Int) × (Nat → ℝ))) (s : (Nat → Int) × (Nat → ℝ)) (c : Nat)
    (hc : c < ncell) (hmono : ∀ s' ∈ steps, s'.1 c ≠ 30 → 1 / 10 ^ 13 < s'.2 c → s.1 c ≠ 30 ∧ 1 / 10 ^ 13 < s.2 c) :
    detectAll ncell (steps ++ [s]) c = if s.1 c ≠ 30 ∧ 1 / 10 ^ 13 < s.2 c then 1 else 0 := by
  rw [compressible_history ncell _ c hc]
  refine if_congr ⟨?_, fun h => ⟨s, by simp, h⟩⟩ rfl rfl
  rintro ⟨s', hs', h⟩
  rcases List.mem_append.1 hs' with h' | h'
  · exact hmono s' h' h.1 h.2
  · rw [List.mem_singleton.1 h'] at h; exact h

/-- **C131 (fails).**  Incompressible material that moves into a formerly compressible cell inherits the flag; the default
solver then takes zero for the pressure entry of the cell and its reciprocal for the inverse (in the code an infinity). -/
theorem stale_compressible_flag : ∃ steps : List ((Nat → Int) × (Nat → ℝ)), ∃ s : (Nat → Int) × (Nat → ℝ),
    s.1 0 = -1 ∧ s.2 0 = 0 ∧ detectAll 1 (steps ++ [s]) 0 = 1 ∧
    ∀ c : PH.Cells, c.ncell = 1 → c.tag = s.1 → c.eqn 0 = 0 → c.comp = detectAll 1 (steps ++ [s]) → c.bet = s.2 →
      c.volChange = 0 → (PH.killerBlocks c).D1 0 = 0 ∧ (PH.killerBlocks c).D 0 = 1 / 0 ∧ (PH.killerBlocks c).W 0 = 0 := by
  have hcomp : detectAll 1 ([(fun _ => -1, fun _ => 1)] ++ [(fun _ => -1, fun _ => 0)]) 0 = 1 := by
    rw [compressible_history 1 _ 0 one_pos, if_pos]
    exact ⟨(fun _ => -1, fun _ => 1), by simp, by decide, by norm_num⟩
  refine ⟨[(fun _ => -1, fun _ => 1)], (fun _ => -1, fun _ => 0), rfl, rfl, hcomp, ?_⟩
  intro c hn ht he hk hb hv
  have hk0 : c.comp 0 = 1 := by rw [hk]; exact hcomp
  have ht0 : c.tag 0 = -1 := by rw [ht]
  have hb0 : c.bet 0 = 0 := by rw [hb]
  unfold PH.killerBlocks
  rw [hn, forUp_succ]
  simp [forUp, PH.killerCell, ht0, hk0, he, hv, hb0, upd]

/-- Non-vacuity of `compressible_now_partial`: two steps in which a compressible cell stays one. -/
example : detectAll 3 ([(fun _ => -1, fun _ => 1)] ++ [(fun _ => -1, fun _ => 2)]) 1 = 1 := by
  rw [compressible_now_partial 3 _ _ 1 (by norm_num) (by intro _ _ _ _; norm_num)]
  norm_num

/-! ### density carried by the markers -/

section
variable {K : Type*} [Field K] [LinearOrder K] [IsStrictOrderedRing K]

/-- **C129 (partial).**  Away from the surface the density carried by the markers is that of the material after every step,
whatever it was before. -/
theorem marker_density_partial (s : SFlow.Cut K) (i j : Nat) (h : s.topCell i j = false) (rho r : K) :
    rhoStep s rho r i j = rho := by
  unfold rhoStep SFlow.Cut.rho0N
  rw [if_neg (by rw [h]; decide)]
  ring

/-- **C129 (cut cells).**  In a cell the surface cuts at the fraction `f`, the density carried by the markers of a rock at rest is
not its density: after `n` steps it is `rho/f` up to a remainder that shrinks by the factor `1 - f` per step. -/
theorem marker_density_cut (s : SFlow.Cut K) (i j : Nat) (h : s.topCell i j = true) (ha : s.airCell i j = false) (rhoAir rho f : K)
    (hf : s.fillCell i j = f) (hf0 : f ≠ 0) (n : Nat) :
    rhoAfter s rhoAir rho i j n = rho / f + (1 - f) ^ n * (rho * f - rho / f) := by
  induction n with
  | zero =>
    show s.rhoN rhoAir rho i j = _
    simp only [SFlow.Cut.rhoN, h, ha, if_true, hf]
    simp
  | succ n ih =>
    show rhoAfter s rhoAir rho i j n + (rho - s.rho0N _ i j) = _
    unfold SFlow.Cut.rho0N
    rw [if_pos h, hf, ih]
    field_simp
    ring

end

/-- **C129 (fails).**  A rock at rest with a constant density whose surface cuts a cell never reports an unchanged density in
that cell: it reports an increase in the first step and a decrease in every later one, so material is created or destroyed
there. -/
theorem resting_surface_never_balanced (s : SFlow.Cut ℝ) (i j : Nat) (h : s.topCell i j = true) (ha : s.airCell i j = false)
    (rhoAir rho f : ℝ) (hrho : 0 < rho) (hf : s.fillCell i j = f) (hf0 : 0 < f) (hf1 : f < 1) (n : Nat) :
    (n = 0 → 0 < rhoChange s rhoAir rho i j n) ∧ (0 < n → rhoChange s rhoAir rho i j n < 0) := by
  have hr := marker_density_cut s i j h ha rhoAir rho f hf hf0.ne' n
  have hN : s.rhoN rhoAir rho i j = rho * f := by
    simp only [SFlow.Cut.rhoN, h, ha, if_true, hf]; simp
  have h0 : s.rho0N (rhoAfter s rhoAir rho i j n) i j = rhoAfter s rhoAir rho i j n * f := by
    simp only [SFlow.Cut.rho0N, h, if_true, hf]
  unfold rhoChange
  rw [hN, h0, hr]
  have e : (rho / f + (1 - f) ^ n * (rho * f - rho / f)) * f = rho * (1 - (1 - f) ^ n * (1 - f ^ 2)) := by
    field_simp
    ring
  rw [e]
  constructor
  · intro hn
    subst hn
    rw [pow_zero, one_mul]
    have : rho * (1 - (1 - f ^ 2)) < rho * f := mul_lt_mul_of_pos_left (by nlinarith) hrho
    have p : 0 < rho * (1 - (1 - f ^ 2)) := by nlinarith [mul_pos hf0 hf0]
    linarith [Real.log_lt_log p this]
  · intro hn
    obtain ⟨m, rfl⟩ : ∃ m, n = m + 1 := ⟨n - 1, by omega⟩
    have h1 : (1 - f) ^ m ≤ 1 := pow_le_one₀ (by linarith) (by linarith)
    have h2 : 0 ≤ (1 - f) ^ m := pow_nonneg (by linarith) m
    have : (1 - f) ^ (m + 1) * (1 - f ^ 2) < 1 - f := by
      rw [pow_succ]
      have : 0 < 1 - f := by linarith
      have a1 : (1 - f) ^ m * (1 - f) ≤ 1 * (1 - f) := mul_le_mul_of_nonneg_right h1 this.le
      have a2 : (1 - f) ^ m * (1 - f) * (1 - f ^ 2) ≤ 1 * (1 - f) * (1 - f ^ 2) :=
        mul_le_mul_of_nonneg_right a1 (by nlinarith)
      nlinarith [mul_pos this (mul_pos hf0 hf0)]
    have lt : rho * f < rho * (1 - (1 - f) ^ (m + 1) * (1 - f ^ 2)) := by nlinarith
    linarith [Real.log_lt_log (by positivity) lt]

/-- Non-vacuity: a cell cut at a quarter of its height. -/
example : ∃ s : SFlow.Cut ℝ, s.topCell 0 0 = true ∧ s.airCell 0 0 = false ∧ s.fillCell 0 0 = 1 / 4 ∧
    rhoChange s 1 2700 0 0 3 < 0 := by
  let s : SFlow.Cut ℝ := ⟨1, 2, fun c => if c = 0 then -1 else 31, fun _ => -1, (fun _ => 0, fun _ => 3 / 4), fun _ => 1 / 2,
    fun j => j + 1 / 2, fun j => j⟩
  have h1 : s.topCell 0 0 = true := by simp [s, SFlow.Cut.topCell]
  have h2 : s.airCell 0 0 = false := by simp [s, SFlow.Cut.airCell]
  have h3 : s.fillCell 0 0 = 1 / 4 := by
    norm_num [s, SFlow.Cut.fillCell, SFlow.Cut.dz, Surf.height, abs_of_pos]
  exact ⟨s, h1, h2, h3,
    (resting_surface_never_balanced s 0 0 h1 h2 1 2700 (1 / 4) (by norm_num) h3 (by norm_num) (by norm_num) 3).2 (by norm_num)⟩

/-- The density reported away from the surface is unchanged after the first step. -/
theorem resting_interior_balanced (s : SFlow.Cut ℝ) (i j : Nat) (h : s.topCell i j = false) (ha : s.airCell i j = false)
    (rhoAir rho : ℝ) (n : Nat) : rhoChange s rhoAir rho i j n = 0 := by
  have e : rhoAfter s rhoAir rho i j n = rho := by
    cases n with
    | zero =>
      show s.rhoN rhoAir rho i j = rho
      simp [SFlow.Cut.rhoN, h, ha]
    | succ n => exact marker_density_partial s i j h rho _
  unfold rhoChange
  rw [e]
  simp [SFlow.Cut.rhoN, SFlow.Cut.rho0N, h, ha]

section
variable {K : Type*} [Field K] [LinearOrder K] [IsStrictOrderedRing K] [FloorRing K]

/-- The carried density and expansion change by no more than the cells do; inactive markers keep theirs. -/
theorem carried_bounded {s : Hist.Setting K} {n : Nat} {xmin zmin : K} (ok : s.Ok n xmin zmin) (flagP flagT : Int → Int)
    (new old : Int → K) (v : Nat → K) {k : Nat} (hk : k < n) :
    ((s.ms k).phase ≠ -1 → ∀ lo hi, (∀ c < s.fam.Nx, ∀ r < s.fam.Nz,
        let i := (c : Int) + r * s.fam.Nx
        (flagP i = 30 ∨ flagP i = 31 → lo ≤ 0 ∧ 0 ≤ hi) ∧
        (flagP i ≠ 30 → flagP i ≠ 31 → lo ≤ new i - old i ∧ new i - old i ≤ hi)) →
      v k + lo ≤ updateCarried s flagP flagT new old v k ∧ updateCarried s flagP flagT new old v k ≤ v k + hi) ∧
    ((s.ms k).phase = -1 → updateCarried s flagP flagT new old v k = v k) := by
  obtain ⟨h1, h2⟩ := Hist.plain_update_bounded ok flagP flagT [30, 31] new old v hk
  refine ⟨fun hp lo hi h => h1 hp lo hi fun c hc r hr => ?_, h2⟩
  obtain ⟨h3, h4⟩ := h c hc r hr
  exact ⟨fun hm => h3 (by simpa using hm), fun hm => h4 (fun e => hm (by simp [e])) (fun e => hm (by simp [e]))⟩

/-- Two columns, two rows; the surface at height 7/4 cuts the upper row (centres at 1/2 and 3/2, flags of air above). -/
def quarterCut : SFlow.Cut ℚ where
  ncx := 2
  ncz := 2
  tp := fun c => if c < 4 then -1 else 31
  tg := fun _ => -1
  ab := (fun _ => 0, fun _ => 7 / 4)
  xc := fun i => i + 1 / 2
  zc := fun j => j + 1 / 2
  zg := fun j => j

/-- The simplified cycle is what the complete averaging, correction and interpolation give for one marker at the centre of each of the
four cells: `rho0_n` from `P2Mastah`, corrected, `rho_n = 3`, marker 2 in the cut cell and marker 0 below it. -/
example :
    let avg : Nat → ℚ := P2M.field Hist.demoSetting.fam id id 0 Hist.demoSetting.ms (fun _ => 5) Hist.demoSetting.ls (fun _ => -1)
      (fun _ => 0)
    let old : Int → ℚ := fun c => quarterCut.rho0N (avg c.toNat) (c.toNat % 2) (c.toNat / 2)
    (updateCarried Hist.demoSetting (fun _ => -1) (fun _ => -1) (fun _ => 3) old (fun _ => 5) 2 = rhoStep quarterCut 3 5 0 1 ∧
      rhoStep quarterCut 3 5 0 1 = 27 / 4) ∧
    (updateCarried Hist.demoSetting (fun _ => -1) (fun _ => -1) (fun _ => 3) old (fun _ => 5) 0 = rhoStep quarterCut 3 5 0 0 ∧
      rhoStep quarterCut 3 5 0 0 = 3) := by
  decide +kernel

/-! ### grain size -/

/-- **C134 (start).**  Every active marker starts with the reference grain size of its material. -/
theorem grain_start (phase : Nat → Int) (gsRef : Int → K) (d : Nat → K) (k : Nat) (h : phase k ≠ -1) :
    grainStart phase gsRef d k = gsRef (phase k) := by
  simp [grainStart, h]

/-- **C134 (partial).**  After a step the grain size of an active marker lies between the smallest and the largest of the grid. -/
theorem grain_between_partial {s : Hist.Setting K} {n : Nat} {xmin zmin : K} (ok : s.Ok n xmin zmin) (flagT : Int → Int)
    (d : Int → K) {k : Nat} (hk : k < n) (hp : (s.ms k).phase ≠ -1) (lo hi : K)
    (h : ∀ c < s.fam.Nx, ∀ r < s.fam.Nz, lo ≤ d ((c : Int) + r * s.fam.Nx) ∧ d ((c : Int) + r * s.fam.Nx) ≤ hi) :
    lo ≤ grainStep s flagT d k ∧ grainStep s flagT d k ≤ hi :=
  Hist.toMarker_between ok d flagT hk hp lo hi h

/-- **C134 (fails).**  The grain size of a marker is forgotten at every step: two active markers at the same place have the same
one afterwards, whatever their materials and their history. -/
theorem grain_forgotten (s : Hist.Setting K) (flagT : Int → Int) (d : Int → K) {k k' : Nat} (h : (s.ms k).phase ≠ -1)
    (h' : (s.ms k').phase ≠ -1) (hx : (s.ms k).x = (s.ms k').x) (hz : (s.ms k).z = (s.ms k').z) :
    grainStep s flagT d k = grainStep s flagT d k' := by
  unfold grainStep Hist.Setting.toMarker
  rw [if_pos h, if_pos h', hx, hz]

/-- Non-vacuity: the two markers of a cell. -/
example (d : Int → ℚ) : grainStep Hist.pairSetting (fun _ => -1) d 4 = grainStep Hist.pairSetting (fun _ => -1) d 5 :=
  grain_forgotten _ _ _ (by decide) (by decide) rfl rfl

end

/-! ### solution of the heat equation -/

section
open Matrix
variable {n : Nat}

/-- A matrix that is symmetric is not changed by keeping its lower triangle. -/
theorem lowerSym_symm (L : Matrix (Fin n) (Fin n) ℝ) (h : Lᵀ = L) : PH.lowerSym L = L := by
  funext i j
  unfold PH.lowerSym
  split_ifs
  · rfl
  · exact congrFun (congrFun h i) j

/-- **C133.**  If the substitutions solve with the factored matrix, the temperature returned solves the assembled equations: in polar
mode for every matrix, else for symmetric ones. -/
theorem heat_solver_solves (polar : Int) (A : Matrix (Fin n) (Fin n) ℝ) (hA : polar = 1 ∨ Aᵀ = A)
    (subst : (Fin n → ℝ) → Fin n → ℝ) (b : Fin n → ℝ) (hs : factored polar A *ᵥ subst b = b) :
    A *ᵥ solveEnergy polar A subst b = b := by
  unfold solveEnergy factored at *
  by_cases hp : polar = 1
  · rw [if_pos hp, lowerSym_symm _ (by rw [Matrix.transpose_mul, Matrix.transpose_transpose])] at hs
    simp only [if_pos hp, add_zero]
    rw [Matrix.mulVec_mulVec]
    exact hs
  · have hA' := hA.resolve_left hp
    rw [if_neg hp, lowerSym_symm _ hA'] at hs
    simpa only [if_neg hp] using hs

/-- **C133 (factors exist).**  In polar mode the factored matrix is symmetric positive definite, as the factorisation needs, if and
only if the assembled matrix is invertible. -/
theorem polar_factor_posdef (A : Matrix (Fin n) (Fin n) ℝ) : (factored 1 A).PosDef ↔ IsUnit A := by
  have e : factored 1 A = A * Aᵀ := by
    unfold factored
    rw [if_pos rfl, lowerSym_symm _ (by rw [Matrix.transpose_mul, Matrix.transpose_transpose])]
  rw [e]
  have hpsd : (A * Aᴴ).PosSemidef := Matrix.posSemidef_self_mul_conjTranspose A
  have ht : Aᴴ = Aᵀ := by
    ext i j; simp [Matrix.conjTranspose_apply]
  rw [ht] at hpsd
  constructor
  · intro h
    have hu := h.isUnit
    rw [Matrix.isUnit_iff_isUnit_det, Matrix.det_mul] at hu
    rw [Matrix.isUnit_iff_isUnit_det]
    exact isUnit_of_mul_isUnit_left hu
  · intro h
    refine Matrix.PosDef.of_dotProduct_mulVec_pos hpsd.1 fun x hx => ?_
    have h2 := (Matrix.PosSemidef.dotProduct_mulVec_nonneg hpsd x)
    refine lt_of_le_of_ne h2 fun h0 => hx ?_
    have h3 : star x ⬝ᵥ (A * Aᵀ) *ᵥ x = (Aᵀ *ᵥ x) ⬝ᵥ (Aᵀ *ᵥ x) := by
      rw [← Matrix.mulVec_mulVec, Matrix.dotProduct_mulVec, ← Matrix.mulVec_transpose]
      simp
    rw [h3] at h0
    have h4 : Aᵀ *ᵥ x = 0 := dotProduct_self_eq_zero.1 h0.symm
    have hu : IsUnit Aᵀ := by
      rw [Matrix.isUnit_iff_isUnit_det, Matrix.det_transpose, ← Matrix.isUnit_iff_isUnit_det]; exact h
    exact (Matrix.mulVec_injective_of_isUnit hu) (by rw [h4, Matrix.mulVec_zero])

/-- In Cartesian mode the upper triangle of the matrix is never read: two matrices with the same lower triangle give the same
temperature. -/
theorem cartesian_ignores_upper (A B : Matrix (Fin n) (Fin n) ℝ) (h : ∀ i j, j ≤ i → A i j = B i j) :
    factored 0 A = factored 0 B := by
  unfold factored PH.lowerSym
  funext i j
  simp only [show ¬((0 : Int) = 1) by decide, if_false]
  split_ifs with hij
  · exact h i j hij
  · exact h j i (not_le.1 hij).le

/-- Non-vacuity: a matrix that is not symmetric, solved in polar mode. -/
example : ∃ subst : (Fin 2 → ℝ) → Fin 2 → ℝ, factored 1 !![1, 1; 0, 1] *ᵥ subst ![3, 1] = ![3, 1] ∧
    (!![1, 1; 0, 1] : Matrix (Fin 2) (Fin 2) ℝ) *ᵥ solveEnergy 1 !![1, 1; 0, 1] subst ![3, 1] = ![3, 1] := by
  have e : factored 1 (!![1, 1; 0, 1] : Matrix (Fin 2) (Fin 2) ℝ) *ᵥ ![2, -1] = ![3, 1] := by
    unfold factored
    rw [if_pos rfl, lowerSym_symm _ (by rw [Matrix.transpose_mul, Matrix.transpose_transpose])]
    ext i
    fin_cases i <;> norm_num [Matrix.mulVec, Matrix.mul_apply, dotProduct, Fin.sum_univ_two]
  exact ⟨fun _ => ![2, -1], e, heat_solver_solves 1 _ (Or.inl rfl) _ _ e⟩

end

end Verif.CStep
