import Verif.Model.Density
import Verif.Model.FlowLaws
import Verif.Spec.Rheology
import Verif.Props.Rheology
import Mathlib.Analysis.SpecialFunctions.ExpDeriv
import Mathlib.Tactic.Linarith
import Mathlib.Tactic.Positivity
import Mathlib.Tactic.FieldSimp
import Mathlib.Tactic.Ring
import Mathlib.Tactic.NormNum

/-! Density, elastic moduli, reaction progress and mixture flow law (RheologyDensity.c). -/
namespace Verif.Dens
open Verif Spec
set_option linter.unusedVariables false
set_option linter.unusedSimpArgs false

/-! ### Cohesion -/

/-- **C97 (marker noise).** Noise changes the cohesion by a fraction of itself: with noise of at most `a` the
cohesion stays within `1 - a` and `1 + a` times its value, whatever its size; without noise it is
unchanged. -/
theorem cohesion_noise (mk : Int) (C noise a : ℝ) (hC : 0 ≤ C) (hn : |noise| ≤ a) :
    (1 - a) * C ≤ noisyCohesion mk C noise ∧ noisyCohesion mk C noise ≤ (1 + a) * C ∧
    (mk = 1 → noisyCohesion mk C noise = C → C = 0 ∨ noise = 0) ∧ (mk ≠ 1 → noisyCohesion mk C noise = C) := by
  have h := abs_le.1 hn
  have ha : 0 ≤ a := (abs_nonneg _).trans hn
  unfold noisyCohesion
  refine ⟨?_, ?_, ?_, fun h => if_neg h⟩
  · split_ifs <;> nlinarith
  · split_ifs <;> nlinarith
  · intro h1 h2
    rw [if_pos h1] at h2
    have : noise * C = 0 := by linarith
    rcases mul_eq_zero.1 this with h | h
    · exact Or.inr h
    · exact Or.inl h

example : (1 - 0.2) * 1e7 ≤ noisyCohesion 1 1e7 (-0.1) ∧ noisyCohesion 1 1e7 (-0.1) ≤ (1 + 0.2) * 1e7 := by
  obtain ⟨h1, h2, -⟩ := cohesion_noise 1 1e7 (-0.1) 0.2 (by norm_num) (by rw [abs_le]; constructor <;> norm_num)
  exact ⟨h1, h2⟩

/-! ### Density laws -/

theorem eval0 {dv : Int} {mats : Nat → Mat} {p : Nat} {T P X phi junk : ℝ} (h : (mats p).dens = 0) :
    evaluate dv mats p T P X phi junk = (mats p).rho := by
  simp [evaluate, h]

theorem eval1 {dv : Int} {mats : Nat → Mat} {p : Nat} {T P X phi junk : ℝ} (h : (mats p).dens = 1) :
    evaluate dv mats p T P X phi junk = ((1 - X) * (mats p).rho + X * ((mats p).rho + (mats p).drho)) *
      ((1 - (mats p).alp * (T - (mats p).T0)) * (1 + (mats p).bet * (P - (mats p).P0))) := by
  simp [evaluate, h]

theorem eval3 {dv : Int} {mats : Nat → Mat} {p : Nat} {T P X phi junk : ℝ} (h : (mats p).dens = 3) (hd : dv = 0 ∨ dv = 1) :
    evaluate dv mats p T P X phi junk =
      (if dv = 0 then (mats p).rho else (1 - X) * (mats p).rho + X * (mats (mats p).reac).rho) *
        Real.exp ((mats p).bet * P - (mats p).alp * T) := by
  rcases hd with hd | hd <;> simp [evaluate, h, hd]

theorem eval5 {dv : Int} {mats : Nat → Mat} {p : Nat} {T P X phi junk : ℝ} (h : (mats p).dens = 5) :
    evaluate dv mats p T P X phi junk =
      ((1 - phi) * (mats p).rho + phi * ((mats p).rho + (mats p).drho)) * Real.exp ((mats p).bet * P - (mats p).alp * T) := by
  simp [evaluate, h]; ring

/-- **C95.** The linear law at the reference temperature and pressure: the density of the material, or of
its product when the reaction is complete; in between, the mixture by fractions. -/
theorem linear_reference (dv : Int) (mats : Nat → Mat) (p : Nat) (phi junk : ℝ) (h : (mats p).dens = 1) :
    let m := mats p
    evaluate dv mats p m.T0 m.P0 0 phi junk = m.rho ∧ evaluate dv mats p m.T0 m.P0 1 phi junk = m.rho + m.drho ∧
    ∀ X, evaluate dv mats p m.T0 m.P0 X phi junk = m.rho + X * m.drho := by
  intro m
  refine ⟨?_, ?_, fun X => ?_⟩ <;> rw [eval1 h] <;> simp only [m] <;> ring

/-- **C95.** The exponential laws at zero pressure and temperature: the material's density, that of the
reaction product, that of the melt; in between, the mixture by fractions. -/
theorem exponential_reference (mats : Nat → Mat) (p : Nat) (X phi junk : ℝ) :
    let m := mats p
    (m.dens = 3 → evaluate 0 mats p 0 0 X phi junk = m.rho ∧
      evaluate 1 mats p 0 0 X phi junk = (1 - X) * m.rho + X * (mats m.reac).rho) ∧
    (m.dens = 5 → ∀ dv, evaluate dv mats p 0 0 X phi junk = m.rho + phi * m.drho) := by
  intro m
  refine ⟨fun h => ⟨?_, ?_⟩, fun h dv => ?_⟩
  · rw [eval3 h (Or.inl rfl)]; simp [m]
  · rw [eval3 h (Or.inr rfl)]; simp [m]
  · rw [eval5 h]; simp [m]; ring

/-- The materials and fractions with which the analytic density laws are used. -/
structure Usual (dv : Int) (mats : Nat → Mat) (p : Nat) (X phi : ℝ) : Prop where
  kind : (mats p).dens = 0 ∨ (mats p).dens = 1 ∨ (mats p).dens = 3 ∨ (mats p).dens = 5
  dv : dv = 0 ∨ dv = 1
  rho : 0 < (mats p).rho
  drho : 0 < (mats p).rho + (mats p).drho
  other : 0 < (mats (mats p).reac).rho
  alp : 0 ≤ (mats p).alp
  bet : 0 ≤ (mats p).bet
  X0 : 0 ≤ X
  X1 : X ≤ 1
  phi0 : 0 ≤ phi
  phi1 : phi ≤ 1

theorem mix_pos {a b X : ℝ} (ha : 0 < a) (hb : 0 < b) (h0 : 0 ≤ X) (h1 : X ≤ 1) : 0 < (1 - X) * a + X * b := by
  rcases h0.lt_or_eq with h | h
  · have := mul_pos h hb
    have := mul_nonneg (sub_nonneg.2 h1) ha.le
    linarith
  · rw [← h]; linarith

/-- **C95.** Heating never makes a material denser (for the linear law: while its pressure factor is not
negative). -/
theorem hotter_not_denser {dv : Int} {mats : Nat → Mat} {p : Nat} {X phi : ℝ} (u : Usual dv mats p X phi)
    (T1 T2 P junk : ℝ) (hT : T1 ≤ T2)
    (h1 : (mats p).dens = 1 → 0 ≤ 1 + (mats p).bet * (P - (mats p).P0)) :
    evaluate dv mats p T2 P X phi junk ≤ evaluate dv mats p T1 P X phi junk := by
  have ht : (mats p).alp * T1 ≤ (mats p).alp * T2 := mul_le_mul_of_nonneg_left hT u.alp
  rcases u.kind with h | h | h | h
  · rw [eval0 h, eval0 h]
  · rw [eval1 h, eval1 h]
    apply mul_le_mul_of_nonneg_left _ (mix_pos u.rho u.drho u.X0 u.X1).le
    apply mul_le_mul_of_nonneg_right _ (h1 h)
    linarith
  · rw [eval3 h u.dv, eval3 h u.dv]
    apply mul_le_mul_of_nonneg_left (Real.exp_le_exp.2 (by linarith))
    split_ifs
    · exact u.rho.le
    · exact (mix_pos u.rho u.other u.X0 u.X1).le
  · rw [eval5 h, eval5 h]
    exact mul_le_mul_of_nonneg_left (Real.exp_le_exp.2 (by linarith)) (mix_pos u.rho u.drho u.phi0 u.phi1).le

/-- **C95.** Compressing never makes a material lighter (for the linear law: while its temperature factor is
not negative). -/
theorem deeper_not_lighter {dv : Int} {mats : Nat → Mat} {p : Nat} {X phi : ℝ} (u : Usual dv mats p X phi)
    (T P1 P2 junk : ℝ) (hP : P1 ≤ P2)
    (h1 : (mats p).dens = 1 → 0 ≤ 1 - (mats p).alp * (T - (mats p).T0)) :
    evaluate dv mats p T P1 X phi junk ≤ evaluate dv mats p T P2 X phi junk := by
  have ht : (mats p).bet * P1 ≤ (mats p).bet * P2 := mul_le_mul_of_nonneg_left hP u.bet
  rcases u.kind with h | h | h | h
  · rw [eval0 h, eval0 h]
  · rw [eval1 h, eval1 h]
    apply mul_le_mul_of_nonneg_left _ (mix_pos u.rho u.drho u.X0 u.X1).le
    apply mul_le_mul_of_nonneg_left _ (h1 h)
    linarith
  · rw [eval3 h u.dv, eval3 h u.dv]
    apply mul_le_mul_of_nonneg_left (Real.exp_le_exp.2 (by linarith))
    split_ifs
    · exact u.rho.le
    · exact (mix_pos u.rho u.other u.X0 u.X1).le
  · rw [eval5 h, eval5 h]
    exact mul_le_mul_of_nonneg_left (Real.exp_le_exp.2 (by linarith)) (mix_pos u.rho u.drho u.phi0 u.phi1).le

/-- **C95.** Except for the linear law, the density is positive at every temperature and pressure. -/
theorem density_positive_partial {dv : Int} {mats : Nat → Mat} {p : Nat} {X phi : ℝ} (u : Usual dv mats p X phi)
    (T P junk : ℝ) (h1 : (mats p).dens ≠ 1) : 0 < evaluate dv mats p T P X phi junk := by
  rcases u.kind with h | h | h | h
  · rw [eval0 h]; exact u.rho
  · exact absurd h h1
  · rw [eval3 h u.dv]
    apply mul_pos _ (Real.exp_pos _)
    split_ifs
    · exact u.rho
    · exact mix_pos u.rho u.other u.X0 u.X1
  · rw [eval5 h]; exact mul_pos (mix_pos u.rho u.drho u.phi0 u.phi1) (Real.exp_pos _)

/-- **C95.** The compressibility and expansivity of the exponential laws are exactly the parameters `bet`
and `alp` of the material, which the continuity and energy equations use. -/
theorem exponential_compressibility {dv : Int} {mats : Nat → Mat} {p : Nat} {X phi : ℝ} (hd : dv = 0 ∨ dv = 1)
    (h : (mats p).dens = 3 ∨ (mats p).dens = 5) (T P junk : ℝ) :
    HasDerivAt (fun P => evaluate dv mats p T P X phi junk) ((mats p).bet * evaluate dv mats p T P X phi junk) P ∧
    HasDerivAt (fun T => evaluate dv mats p T P X phi junk) (-(mats p).alp * evaluate dv mats p T P X phi junk) T := by
  have key : ∀ c : ℝ,
      HasDerivAt (fun P => c * Real.exp ((mats p).bet * P - (mats p).alp * T))
        ((mats p).bet * (c * Real.exp ((mats p).bet * P - (mats p).alp * T))) P ∧
      HasDerivAt (fun T => c * Real.exp ((mats p).bet * P - (mats p).alp * T))
        (-(mats p).alp * (c * Real.exp ((mats p).bet * P - (mats p).alp * T))) T := by
    intro c
    constructor
    · have h1 : HasDerivAt (fun P => (mats p).bet * P - (mats p).alp * T) ((mats p).bet * 1) P :=
        ((hasDerivAt_id P).const_mul _).sub_const _
      exact ((h1.exp).const_mul c).congr_deriv (by ring)
    · have h1 : HasDerivAt (fun T => (mats p).bet * P - (mats p).alp * T) (-((mats p).alp * 1)) T :=
        ((hasDerivAt_id T).const_mul _).const_sub _
      exact ((h1.exp).const_mul c).congr_deriv (by ring)
  rcases h with h | h
  · simp only [eval3 h hd]; exact key _
  · simp only [eval5 h]; exact key _

/-- **C95 (false part).** For the linear law the compressibility is `bet` at the reference pressure only: in
general it is `bet/(1 + bet (P - P0))`. -/
theorem linear_compressibility {dv : Int} {mats : Nat → Mat} {p : Nat} {X phi : ℝ}
    (h : (mats p).dens = 1) (T P junk : ℝ) (hP : 1 + (mats p).bet * (P - (mats p).P0) ≠ 0) :
    HasDerivAt (fun P => evaluate dv mats p T P X phi junk)
      ((mats p).bet / (1 + (mats p).bet * (P - (mats p).P0)) * evaluate dv mats p T P X phi junk) P := by
  simp only [eval1 h]
  have h1 : HasDerivAt (fun P => 1 + (mats p).bet * (P - (mats p).P0)) ((mats p).bet * 1) P :=
    (((hasDerivAt_id P).sub_const _).const_mul _).const_add _
  exact ((h1.const_mul _).const_mul _).congr_deriv (by field_simp)

/-- **C95 (false part).** A material with the linear law becomes weightless, then of negative density, when
heated far enough. -/
theorem linear_negative : ∃ (mats : Nat → Mat) (T : ℝ), Usual 0 mats 0 0 0 ∧ (mats 0).dens = 1 ∧
    ∀ junk, evaluate 0 mats 0 T (mats 0).P0 0 0 junk < 0 := by
  refine ⟨fun _ => ⟨1, 2700, 0, 0, 3e-5, 0, 1e-11, 0, 0, 0, 0, 0, 0, 0, fun _ => 0, 0, 0, 0, fun _ => 0⟩, 40000, ?_, rfl, ?_⟩
  · constructor <;> norm_num
  · intro junk; rw [eval1 rfl]; norm_num

/-- **C95 (false part).** A density model the code does not know, or the exponential law with a
`density_variations` other than 0 and 1, gives whatever was in the uninitialised variable. -/
theorem unknown_density_model {dv : Int} {mats : Nat → Mat} {p : Nat} {T P X phi junk : ℝ}
    (h : (mats p).dens < 0 ∨ 5 < (mats p).dens ∨ ((mats p).dens = 3 ∧ dv ≠ 0 ∧ dv ≠ 1)) :
    evaluate dv mats p T P X phi junk = junk := by
  rcases h with h | h | h
  · have h0 : (mats p).dens ≠ 0 := by omega
    have h1 : (mats p).dens ≠ 1 := by omega
    have h2 : (mats p).dens ≠ 2 := by omega
    have h3 : (mats p).dens ≠ 3 := by omega
    have h4 : (mats p).dens ≠ 4 := by omega
    have h5 : (mats p).dens ≠ 5 := by omega
    simp [evaluate, h0, h1, h2, h3, h4, h5]
  · have h0 : (mats p).dens ≠ 0 := by omega
    have h1 : (mats p).dens ≠ 1 := by omega
    have h2 : (mats p).dens ≠ 2 := by omega
    have h3 : (mats p).dens ≠ 3 := by omega
    have h4 : (mats p).dens ≠ 4 := by omega
    have h5 : (mats p).dens ≠ 5 := by omega
    simp [evaluate, h0, h1, h2, h3, h4, h5]
  · simp [evaluate, h.1, h.2.1, h.2.2]

/-- The usual range is met by a mantle material with the exponential law and a reaction half done. -/
example : Usual 1 (fun _ => ⟨3, 3300, -100, 273, 3e-5, 1e5, 1e-11, 1, 0, 0, 0, 0, 0, 0, fun _ => 0, 0, 0, 0, fun _ => 0⟩) 0
    (1 / 2) (1 / 4) := by
  constructor <;> norm_num

/-! ### Density of a cell -/

/-- **C96.** A cell below the surface with fractions adding to one, none of them a trace below `1e-13`, has a
density between the densities of its phases, and exactly that of the phase when it holds a single one. -/
theorem cell_density_between (nph : Nat) (flag : Int) (frac rho : Nat → ℝ) (hf : flag ≠ 30) (lo hi : ℝ)
    (hw : ∀ p < nph, frac p = 0 ∨ 1 / 10 ^ 13 < frac p) (ht : ∑ p ∈ Finset.range nph, frac p = 1)
    (hr : ∀ p < nph, frac p ≠ 0 → lo ≤ rho p ∧ rho p ≤ hi) :
    lo ≤ cellDensity nph flag frac rho ∧ cellDensity nph flag frac rho ≤ hi ∧
    cellDensity nph flag frac rho = ∑ p ∈ Finset.range nph, frac p * rho p := by
  have h0 : (0 : ℝ) ≤ 1 / 10 ^ 13 := by positivity
  have he : cellDensity nph flag frac rho = ∑ p ∈ Finset.range nph, frac p * rho p := by
    unfold cellDensity
    simp only [ne_eq, hf, not_false_eq_true, if_true]
    exact Rheo.phase_sum (1 / 10 ^ 13 : ℝ) h0 nph frac rho hw
  have hpos : ∀ p < nph, 0 ≤ frac p := fun p hp => by
    rcases hw p hp with h | h
    · exact h.ge
    · linarith
  -- replace the densities of absent phases by `lo`
  have hs : ∑ p ∈ Finset.range nph, frac p * rho p = ∑ p ∈ Finset.range nph, frac p * (if frac p = 0 then lo else rho p) := by
    apply Finset.sum_congr rfl
    intro p _
    by_cases h : frac p = 0 <;> simp [h]
  have hle : lo ≤ hi := by
    by_contra hc
    have : ∀ p ∈ Finset.range nph, frac p = 0 := by
      intro p hp
      by_contra h
      have := hr p (Finset.mem_range.1 hp) h
      linarith
    rw [Finset.sum_eq_zero this] at ht
    exact absurd ht (by norm_num)
  have hb := Rheo.weighted_bounds nph frac (fun p => if frac p = 0 then lo else rho p) lo hi hpos ht (fun p hp => by
    by_cases h : frac p = 0
    · simp [h, hle]
    · simp only [h, if_false]; exact hr p hp h)
  rw [he]
  exact ⟨hs ▸ hb.1, hs ▸ hb.2, rfl⟩

/-- **C96.** A cell above the free surface has zero density. -/
theorem air_cell_weightless (nph : Nat) (frac rho : Nat → ℝ) : cellDensity nph 30 frac rho = 0 := by
  unfold cellDensity
  apply forUp_inv (P := fun _ (s : ℝ) => s = 0) nph rfl
  intro i hi s hs
  simp [hs]

example : ∃ frac : Nat → ℝ, (∀ p < 3, frac p = 0 ∨ 1 / 10 ^ 13 < frac p) ∧ ∑ p ∈ Finset.range 3, frac p = 1 ∧
    frac 0 ≠ 0 ∧ frac 1 = 0 ∧ frac 2 ≠ 0 := by
  refine ⟨fun p => if p = 0 then 1 / 4 else if p = 1 then 0 else 3 / 4, ?_, ?_, by norm_num, by norm_num, by norm_num⟩
  · intro p hp
    have : p = 0 ∨ p = 1 ∨ p = 2 := by omega
    rcases this with h | h | h <;> simp [h] <;> norm_num
  · simp [Finset.sum_range_succ]; norm_num

/-! ### Elastic moduli -/

theorem forUp_sum (n : Nat) (g : Nat → ℝ) : forUp n (0 : ℝ) (fun s p => s + g p) = ∑ p ∈ Finset.range n, g p := by
  induction n with
  | zero => rfl
  | succ n ih => rw [forUp_succ, ih, Finset.sum_range_succ]

/-- **C97.** The shear modulus (or compressibility) of a node below the surface is the harmonic mean of the
phases by fractions: it exists, is positive and lies between the values of the phases present. -/
theorem modulus_between (nph : Nat) (frac G : Nat → ℝ) (lo hi : ℝ) (m : Mixture nph frac G) (hlo : 0 < lo)
    (hb : ∀ p < nph, frac p ≠ 0 → lo ≤ G p ∧ G p ≤ hi) :
    ∃ mu, modulus nph false frac G = some mu ∧ lo ≤ mu ∧ mu ≤ hi ∧
      1 / mu = ∑ p ∈ Finset.range nph, frac p / G p := by
  have hhi : 0 < hi := by
    by_contra hc
    have : ∀ p ∈ Finset.range nph, frac p = 0 := by
      intro p hp
      by_contra h
      have h1 := hb p (Finset.mem_range.1 hp) h
      have h2 := m.pos p (Finset.mem_range.1 hp)
      linarith
    have ht := m.total
    rw [Finset.sum_eq_zero this] at ht
    exact absurd ht (by norm_num)
  have hle : lo ≤ hi := by
    by_contra hc
    have : ∀ p ∈ Finset.range nph, frac p = 0 := by
      intro p hp
      by_contra h
      have h1 := hb p (Finset.mem_range.1 hp) h
      linarith
    have ht := m.total
    rw [Finset.sum_eq_zero this] at ht
    exact absurd ht (by norm_num)
  have hs : forUp nph (0 : ℝ) (fun s p => s + frac p * 1 / G p) = ∑ p ∈ Finset.range nph, frac p / G p := by
    rw [forUp_sum]; simp only [mul_one]
  have hs' : ∑ p ∈ Finset.range nph, frac p / G p =
      ∑ p ∈ Finset.range nph, frac p * (if frac p = 0 then 1 / hi else 1 / G p) := by
    apply Finset.sum_congr rfl
    intro p _
    by_cases h : frac p = 0
    · simp [h]
    · simp only [h, if_false]; ring
  have hw := Rheo.weighted_bounds nph frac (fun p => if frac p = 0 then 1 / hi else 1 / G p) (1 / hi) (1 / lo)
    m.frac m.total (fun p hp => by
      by_cases h : frac p = 0
      · simp only [h, if_true]; exact ⟨le_refl _, one_div_le_one_div_of_le hlo hle⟩
      · simp only [h, if_false]
        have h1 := hb p hp h
        exact ⟨one_div_le_one_div_of_le (m.pos p hp) h1.2, one_div_le_one_div_of_le hlo h1.1⟩)
  rw [← hs'] at hw
  have hpos : 0 < ∑ p ∈ Finset.range nph, frac p / G p := lt_of_lt_of_le (by positivity) hw.1
  refine ⟨1 / ∑ p ∈ Finset.range nph, frac p / G p, ?_, ?_, ?_, one_div_one_div _⟩
  · unfold modulus
    simp only [hs, if_neg hpos.ne']
    rfl
  · rw [le_one_div hlo hpos]; exact hw.2
  · rw [one_div_le hpos hhi]; exact hw.1

/-- **C97.** The thermal expansivity is the arithmetic mean: between the values of the phases. -/
theorem expansivity_between (nph : Nat) (frac alp : Nat → ℝ) (lo hi : ℝ) (hw : ∀ p < nph, 0 ≤ frac p)
    (ht : ∑ p ∈ Finset.range nph, frac p = 1) (hb : ∀ p < nph, lo ≤ alp p ∧ alp p ≤ hi) :
    lo ≤ expansivity nph false frac alp ∧ expansivity nph false frac alp ≤ hi := by
  have : expansivity nph false frac alp = ∑ p ∈ Finset.range nph, frac p * alp p := by
    unfold expansivity
    simp only [Bool.false_eq_true, if_false, forUp_sum]
  rw [this]
  exact Rheo.weighted_bounds nph frac alp lo hi hw ht hb

/-- **C97.** Above the surface all of them are zero: cells flagged 30 or 31, vertices flagged 30. -/
theorem air_moduli (nph : Nat) (frac G : Nat → ℝ) (flag : Int) :
    (flag = 30 ∨ flag = 31 → modulus nph (airCell flag) frac G = some 0 ∧ expansivity nph (airCell flag) frac G = 0) ∧
    (flag = 30 → modulus nph (airVertex flag) frac G = some 0) ∧
    (flag ≠ 30 → flag ≠ 31 → modulus nph (airCell flag) frac G = modulus nph false frac G) ∧
    (flag ≠ 30 → modulus nph (airVertex flag) frac G = modulus nph false frac G) := by
  refine ⟨?_, ?_, ?_, ?_⟩
  · rintro (h | h) <;> simp [airCell, h, modulus, expansivity]
  · intro h; simp [airVertex, h, modulus]
  · intro h h'
    have : airCell flag = false := by unfold airCell; rw [beq_false_of_ne h, beq_false_of_ne h']; rfl
    rw [this]
  · intro h
    have : airVertex flag = false := beq_false_of_ne h
    rw [this]

/-- **C97 (false part).** A node without any phase below the surface has no modulus (the reciprocal of zero). -/
theorem empty_node_no_modulus (nph : Nat) (G : Nat → ℝ) : modulus nph false (fun _ => 0) G = none := by
  have : forUp nph (0 : ℝ) (fun s p => s + (0 : ℝ) * 1 / G p) = 0 := by
    rw [forUp_sum]; simp
  unfold modulus
  simp only [Bool.false_eq_true, if_false]
  rw [if_pos this]

/-- One row of `periodicSides`. -/
noncomputable def sideRow (Nx : Nat) (mu : Nat → ℝ) (l : Nat) : Nat → ℝ :=
  let c1 := l * Nx + (Nx - 1)
  let av := 1 / 2 * (mu c1 + mu (l * Nx))
  upd (upd mu c1 av) (l * Nx) av

theorem periodicSides_aux (Nx n : Nat) (mu : Nat → ℝ) (hx : 2 ≤ Nx) (l k : Nat) (hk : k < Nx) :
    forUp n mu (sideRow Nx) (l * Nx + k) =
    if l < n ∧ (k = 0 ∨ k = Nx - 1) then (mu (l * Nx) + mu (l * Nx + (Nx - 1))) / 2 else mu (l * Nx + k) := by
  induction n generalizing l k with
  | zero => simp [forUp]
  | succ n ih =>
    rw [forUp_succ]
    have hinj : ∀ a b i j : Nat, i < Nx → j < Nx → a * Nx + i = b * Nx + j → a = b ∧ i = j := by
      intro a b i j hi hj h
      have h1 : (a * Nx + i) / Nx = a := by
        rw [Nat.mul_comm, Nat.mul_add_div (by omega), Nat.div_eq_of_lt hi, Nat.add_zero]
      have h2 : (b * Nx + j) / Nx = b := by
        rw [Nat.mul_comm, Nat.mul_add_div (by omega), Nat.div_eq_of_lt hj, Nat.add_zero]
      have hab : a = b := by rw [← h1, ← h2, h]
      subst hab
      exact ⟨rfl, by omega⟩
    have ha := ih n (Nx - 1) (by omega)
    have hb := ih n 0 (by omega)
    rw [if_neg (by omega)] at ha hb
    simp only [Nat.add_zero] at hb
    generalize forUp n mu (sideRow Nx) = M at ih ha hb ⊢
    unfold sideRow
    simp only [upd]
    by_cases hl : l = n
    · subst hl
      by_cases hk0 : k = 0
      · subst hk0; simp only [Nat.add_zero, if_true, ha, hb, true_or, and_true]; rw [if_pos (by omega)]; ring
      · have h1 : l * Nx + k ≠ l * Nx := by omega
        by_cases hk1 : k = Nx - 1
        · rw [if_neg h1, hk1, if_pos rfl, ha, hb, if_pos ⟨by omega, Or.inr rfl⟩]; ring
        · rw [if_neg h1, if_neg (by omega), ih l k hk]
          simp [hk0, hk1]
    · have h1 : l * Nx + k ≠ n * Nx := fun h => hl (hinj l n k 0 hk (by omega) (by simpa using h)).1
      have h2 : l * Nx + k ≠ n * Nx + (Nx - 1) := fun h => hl (hinj l n k (Nx - 1) hk (by omega) h).1
      rw [if_neg h1, if_neg h2, ih l k hk]
      congr 1
      apply propext
      constructor
      · rintro ⟨a, b⟩; exact ⟨by omega, b⟩
      · rintro ⟨a, b⟩; exact ⟨by omega, b⟩

/-- **C97.** With periodic sides, both ends of every row of vertices receive the mean of the two and no other
vertex changes. -/
theorem periodic_moduli (Nx Nz : Nat) (mu : Nat → ℝ) (hx : 2 ≤ Nx) (l k : Nat) (hl : l < Nz) (hk : k < Nx) :
    periodicSides Nx Nz mu (l * Nx + k) =
      if k = 0 ∨ k = Nx - 1 then (mu (l * Nx) + mu (l * Nx + (Nx - 1))) / 2 else mu (l * Nx + k) := by
  refine (periodicSides_aux Nx Nz mu hx l k hk).trans ?_
  simp only [hl, true_and]

example : Mixture 2 (fun _ => (1 / 2 : ℝ)) (fun p => if p = 0 then 1e10 else 7e10) := by
  constructor
  · intro p _; norm_num
  · simp
  · intro p _; split_ifs <;> norm_num

/-! ### Reaction progress -/

/-- **C98.** The new reaction progress solves the implicit relaxation step towards the equilibrium value
`1 - erfc/2`. -/
theorem progress_implicit (X0 tau dt erfc : ℝ) (htau : 0 < tau) (hdt : 0 < dt) :
    (progress X0 tau dt erfc - X0) / dt = ((1 - erfc / 2) - progress X0 tau dt erfc) / tau := by
  unfold progress
  field_simp
  ring

/-- **C98.** It lies between the old value and the equilibrium value, hence stays a fraction, for every step
and every kinetic time. -/
theorem progress_between (X0 tau dt erfc : ℝ) (htau : 0 ≤ tau) (hdt : 0 ≤ dt) (hsum : 0 < dt + tau) :
    Between X0 (1 - erfc / 2) (progress X0 tau dt erfc) ∧
    (0 ≤ X0 → X0 ≤ 1 → 0 ≤ erfc → erfc ≤ 2 → 0 ≤ progress X0 tau dt erfc ∧ progress X0 tau dt erfc ≤ 1) := by
  have he : progress X0 tau dt erfc = (tau * X0 + dt * (1 - erfc / 2)) / (dt + tau) := by
    unfold progress; congr 1; ring
  have hb : Between X0 (1 - erfc / 2) (progress X0 tau dt erfc) := by
    rw [he]
    constructor
    · rw [le_div_iff₀ hsum]
      have h1 : min X0 (1 - erfc / 2) ≤ X0 := min_le_left _ _
      have h2 : min X0 (1 - erfc / 2) ≤ 1 - erfc / 2 := min_le_right _ _
      nlinarith [mul_le_mul_of_nonneg_left h1 htau, mul_le_mul_of_nonneg_left h2 hdt]
    · rw [div_le_iff₀ hsum]
      have h1 : X0 ≤ max X0 (1 - erfc / 2) := le_max_left _ _
      have h2 : 1 - erfc / 2 ≤ max X0 (1 - erfc / 2) := le_max_right _ _
      nlinarith [mul_le_mul_of_nonneg_left h1 htau, mul_le_mul_of_nonneg_left h2 hdt]
  refine ⟨hb, fun h0 h1 e0 e2 => ⟨?_, ?_⟩⟩
  · exact le_trans (le_min h0 (by linarith)) hb.1
  · exact le_trans hb.2 (max_le h1 (by linarith))

/-- **C98.** Over repeated steps of any lengths the progress remains a fraction. -/
theorem progress_history (tau : ℝ) (htau : 0 < tau) (steps : List (ℝ × ℝ)) (X0 : ℝ)
    (hs : ∀ s ∈ steps, 0 ≤ s.1 ∧ 0 ≤ s.2 ∧ s.2 ≤ 2) (h0 : 0 ≤ X0) (h1 : X0 ≤ 1) :
    let X := steps.foldl (fun X s => progress X tau s.1 s.2) X0
    0 ≤ X ∧ X ≤ 1 := by
  induction steps generalizing X0 with
  | nil => exact ⟨h0, h1⟩
  | cons s t ih =>
    have h := hs s (by simp)
    have := (progress_between X0 tau s.1 s.2 htau.le h.1 (by linarith)).2 h0 h1 h.2.1 h.2.2
    exact ih (progress X0 tau s.1 s.2) (fun r hr => hs r (by simp [hr])) this.1 this.2

example : progress 0 1 1 0 = 1 / 2 := by unfold progress; norm_num

/-! ### Mixture flow law -/

/-- A usable dislocation creep law. -/
structure Usable (c : Creep) : Prop where
  n : 0 < c.n
  A : 0 < c.A

/-- **C99.** The mixture law at zero and full reaction is exactly the law of the end member. -/
theorem mixture_end_members (c1 c2 : Creep) (h1 : Usable c1) (h2 : Usable c2) :
    huet c1 c2 0 = c1 ∧ huet c1 c2 1 = c2 := by
  have n1 := h1.n; have n2 := h2.n; have a1 := h1.A; have a2 := h2.A
  have p1 : 0 < c1.n / (c1.n + 1) := by positivity
  have p2 : 0 < c2.n / (c2.n + 1) := by positivity
  have q1 : c1.n + 1 ≠ 0 := by positivity
  have q2 : c2.n + 1 ≠ 0 := by positivity
  constructor
  · have : (c2.n + 1) * c1.n / (c2.n + 1) = c1.n := by field_simp
    have hQ : (c2.n + 1) * c1.Q / (c2.n + 1) = c1.Q := by field_simp
    have hc : c1.A * (c1.n / (c1.n + 1)) ^ (-c1.n) * (c1.n / (c1.n + 1)) ^ c1.n = c1.A := by
      rw [mul_assoc, ← Real.rpow_add p1]; simp
    unfold huet
    simp only [sub_zero, one_mul, zero_mul, add_zero, zero_div, Real.rpow_zero, mul_one, this, hQ, div_self q2, Real.rpow_one, hc]
  · have : (c1.n + 1) * c2.n / (c1.n + 1) = c2.n := by field_simp
    have hQ : (c1.n + 1) * c2.Q / (c1.n + 1) = c2.Q := by field_simp
    have hc : c2.A * (c2.n / (c2.n + 1)) ^ (-c2.n) * (c2.n / (c2.n + 1)) ^ c2.n = c2.A := by
      rw [mul_assoc, ← Real.rpow_add p2]; simp
    unfold huet
    simp only [sub_self, one_mul, zero_mul, zero_add, zero_div, Real.rpow_zero, one_mul, this, hQ, div_self q1, Real.rpow_one, hc]

/-- **C99.** In between, exponent and activation energy lie between those of the end members and the
pre-exponential factor is positive, so the mixture is again a usable law. -/
theorem mixture_between (c1 c2 : Creep) (h1 : Usable c1) (h2 : Usable c2) (X : ℝ) (h0 : 0 ≤ X) (hX : X ≤ 1) :
    Between c1.n c2.n (huet c1 c2 X).n ∧ Between c1.Q c2.Q (huet c1 c2 X).Q ∧ Usable (huet c1 c2 X) := by
  have n1 := h1.n; have n2 := h2.n; have a1 := h1.A; have a2 := h2.A
  have w1 : 0 ≤ (1 - X) * (c2.n + 1) := mul_nonneg (by linarith) (by linarith)
  have w2 : 0 ≤ X * (c1.n + 1) := mul_nonneg h0 (by linarith)
  have hd : 0 < (1 - X) * (c2.n + 1) + X * (c1.n + 1) := mix_pos (by linarith) (by linarith) h0 hX
  have key : ∀ a b : ℝ, Between a b (((1 - X) * (c2.n + 1) * a + X * (c1.n + 1) * b) / ((1 - X) * (c2.n + 1) + X * (c1.n + 1))) := by
    intro a b
    constructor
    · rw [le_div_iff₀ hd]
      nlinarith [mul_le_mul_of_nonneg_left (min_le_left a b) w1, mul_le_mul_of_nonneg_left (min_le_right a b) w2]
    · rw [div_le_iff₀ hd]
      nlinarith [mul_le_mul_of_nonneg_left (le_max_left a b) w1, mul_le_mul_of_nonneg_left (le_max_right a b) w2]
  have hn := key c1.n c2.n
  refine ⟨hn, key c1.Q c2.Q, ⟨lt_of_lt_of_le (lt_min n1 n2) hn.1, ?_⟩⟩
  have hs : 0 < (1 - X) * c1.n / (c1.n + 1) + X * c2.n / (c2.n + 1) := by
    have := mix_pos (X := X) (show 0 < c1.n / (c1.n + 1) by positivity) (show 0 < c2.n / (c2.n + 1) by positivity) h0 hX
    calc _ < _ := this
      _ = _ := by ring
  show 0 < _ * _ * _
  exact mul_pos (mul_pos (by positivity) (Real.rpow_pos_of_pos hs _)) (by positivity)

/-- **C99.** When both end members have the same exponent, the viscosity of the mixture is the geometric mean of
theirs, weighted by the fractions. -/
theorem mixture_geometric (c1 c2 : Creep) (h1 : Usable c1) (h2 : Usable c2) (hn : c1.n = c2.n) (X : ℝ)
    (h0 : 0 ≤ X) (hX : X ≤ 1) (pre F R T e : ℝ) (hpre : 0 < pre) (hF : 0 < F) (hT : 0 < T) (he : 0 < e) :
    let eta := fun c : Creep => creepViscosity (huetB pre F R T c) c.n e
    eta (huet c1 c2 X) = eta c1 ^ (1 - X) * eta c2 ^ X := by
  intro eta
  have n2 := h2.n; have a1 := h1.A; have a2 := h2.A
  have q : c2.n + 1 ≠ 0 := by positivity
  have hA : huet c1 c2 X = ⟨c2.n, c1.A ^ (1 - X) * c2.A ^ X, (1 - X) * c1.Q + X * c2.Q⟩ := by
    unfold huet
    rw [hn]
    have d : (1 - X) * (c2.n + 1) + X * (c2.n + 1) = c2.n + 1 := by ring
    have e1 : ((1 - X) * (c2.n + 1) * c2.n + X * (c2.n + 1) * c2.n) / (c2.n + 1) = c2.n := by field_simp; ring
    have e2 : ((1 - X) * (c2.n + 1) * c1.Q + X * (c2.n + 1) * c2.Q) / (c2.n + 1) = (1 - X) * c1.Q + X * c2.Q := by field_simp
    have e3 : (1 - X) * (c2.n + 1) / (c2.n + 1) = 1 - X := by field_simp
    have e4 : X * (c2.n + 1) / (c2.n + 1) = X := by field_simp
    have e5 : (1 - X) * c2.n / (c2.n + 1) + X * c2.n / (c2.n + 1) = c2.n / (c2.n + 1) := by field_simp; ring
    have e6 : (1 - X) * (c2.n + 1) * c2.n / (c2.n + 1) = (1 - X) * c2.n := by field_simp
    have e7 : X * (c2.n + 1) * c2.n / (c2.n + 1) = X * c2.n := by field_simp
    have p2 : 0 < c2.n / (c2.n + 1) := by positivity
    have e8 : c1.A ^ (1 - X) * c2.A ^ X * (c2.n / (c2.n + 1)) ^ (-c2.n) *
        ((c2.n / (c2.n + 1)) ^ ((1 - X) * c2.n) * (c2.n / (c2.n + 1)) ^ (X * c2.n)) = c1.A ^ (1 - X) * c2.A ^ X := by
      rw [← Real.rpow_add p2, mul_assoc, ← Real.rpow_add p2]
      have : -c2.n + ((1 - X) * c2.n + X * c2.n) = 0 := by ring
      rw [this, Real.rpow_zero, mul_one]
    simp only [d, e1, e2, e3, e4, e5, e6, e7, e8]
  simp only [eta]
  rw [hA]
  unfold creepViscosity huetB
  simp only [hn]
  apply Real.log_injOn_pos (by simp only [Set.mem_Ioi]; positivity) (by simp only [Set.mem_Ioi]; positivity)
  rw [Real.log_mul (by positivity) (by positivity), Real.log_mul (by positivity) (by positivity),
    Real.log_mul (by positivity) (by positivity), Real.log_mul hpre.ne' hF.ne',
    Real.log_rpow (by positivity), Real.log_mul (by positivity) (by positivity), Real.log_rpow a1, Real.log_rpow a2,
    Real.log_exp, Real.log_rpow he,
    Real.log_mul (x := (pre * F * c1.A ^ (-1 / c2.n) * Real.exp (c1.Q / R / c2.n / T) * e ^ (1 / c2.n - 1)) ^ (1 - X)) (by positivity) (by positivity),
    Real.log_rpow (by positivity), Real.log_rpow (by positivity),
    Real.log_mul (by positivity) (by positivity), Real.log_mul (by positivity) (by positivity),
    Real.log_mul (by positivity) (by positivity), Real.log_mul hpre.ne' hF.ne',
    Real.log_mul (by positivity) (by positivity), Real.log_mul (by positivity) (by positivity),
    Real.log_mul (by positivity) (by positivity), Real.log_mul hpre.ne' hF.ne',
    Real.log_rpow a1, Real.log_rpow a2, Real.log_exp, Real.log_exp, Real.log_rpow he]
  ring

/-- **C99.** The mixture's pre-factor is that of a pure material without pressure, grain-size, fugacity and melt
dependence. -/
theorem mixture_prefactor_partial (pre F R T P d f phi : ℝ) (c : Creep) :
    huetB pre F R T c = pureB pre F R T P 0 d 0 f 0 0 phi c := by
  unfold huetB pureB
  simp

/-- **C99 (false part).** So switching the reaction on, with no reaction product at all, changes the viscosity of
every material with an activation volume at every pressure other than zero. -/
theorem mixture_forgets_pressure (pre F R T P V d m f r a phi : ℝ) (c1 c2 : Creep) (h1 : Usable c1) (h2 : Usable c2)
    (hpre : 0 < pre) (hF : 0 < F) (hR : 0 < R) (hT : 0 < T) (hP : P ≠ 0) (hV : V ≠ 0) (hm : m = 0) (hr : r = 0) (ha : a = 0) :
    huetB pre F R T (huet c1 c2 0) ≠ pureB pre F R T P V d m f r a phi c1 := by
  rw [(mixture_end_members c1 c2 h1 h2).1]
  intro h
  unfold huetB pureB at h
  rw [hm, hr, ha] at h
  simp only [neg_zero, zero_mul, zero_div, Real.rpow_zero, Real.exp_zero, mul_one] at h
  have hpos : pre * F * c1.A ^ (-1 / c1.n) ≠ 0 := by
    have := h1.A; positivity
  have h' := Real.exp_injective (mul_left_cancel₀ hpos h)
  have hn := h1.n
  field_simp at h'
  have : P * V = 0 := by linarith
  exact mul_ne_zero hP hV this

/-- **C99.** The correction of the mixture is the one of the flow-law reader at the bulk exponent, for laws whose
correction has not been cancelled. -/
theorem mixture_correction_partial (t : Int) (junk : ℝ) (number : Int) (hnum : 0 ≤ number) (l : Flow.Law) (ht : l.t = (t : ℝ)) (h : t = 0 ∨ t = 1 ∨ t = 2) :
    huetFactor t l.n junk = (Flow.correct number l).F := by
  unfold huetFactor Flow.correct
  rcases h with h | h | h <;> subst h <;> simp [ht, not_lt.2 hnum]

/-- **C99 (false part).** Cancelling the correction by a negative law number is not respected by the mixture: at
`n = 1` in axial compression the factor is one third; and a type other than 0, 1, 2 leaves the factor
uninitialised. -/
theorem mixture_correction_not_cancelled (junk : ℝ) (number : Int) (hnum : number < 0) (l : Flow.Law) (ht : l.t = 1) (hn : l.n = 1) :
    (Flow.correct number l).F = 1 ∧ huetFactor 1 l.n junk = 1 / 3 ∧
    ∀ t : Int, t ≠ 0 → t ≠ 1 → t ≠ 2 → huetFactor t l.n junk = junk := by
  refine ⟨by simp [Flow.correct, hnum], ?_, ?_⟩
  · simp [huetFactor, hn]; norm_num
  · intro t h0 h1 h2; simp [huetFactor, h0, h1, h2]

example : Usable ⟨3.5, 1.1e-16, 530000⟩ ∧ Usable ⟨2.4, 6.3e-20, 276000⟩ := by
  constructor <;> constructor <;> norm_num

end Verif.Dens
