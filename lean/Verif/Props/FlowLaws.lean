import Verif.Model.FlowLaws
import Verif.Model.Config
import Verif.Spec.FlowLaws
import Mathlib.Analysis.Real.Sqrt
import Mathlib.Tactic.Linarith
import Mathlib.Tactic.Positivity
import Mathlib.Tactic.FieldSimp
import Mathlib.Tactic.Ring
import Mathlib.Tactic.NormNum
import Mathlib.Tactic.IntervalCases

/-! Flow laws: what a laboratory law becomes in the code (FlowLaws.c, RheologyDensity.c). -/
namespace Verif.Flow
open Verif Spec
set_option linter.unusedVariables false
set_option linter.unusedSimpArgs false

/-- All the factors of the law except the stress. -/
noncomputable def lump (A d m f r a phi Q V R T P : ℝ) : ℝ :=
  A * d ^ (-m) * f ^ r * Real.exp (a * phi) * Real.exp (-(Q + P * V) / (R * T))

theorem rpow_pos' {f r : ℝ} (h : 0 < f ∨ r = 0) : 0 < f ^ r := by
  rcases h with h | h
  · exact Real.rpow_pos_of_pos h r
  · rw [h, Real.rpow_zero]; exact one_pos

theorem lump_pos {A d m f r a phi Q V R T P : ℝ} (hA : 0 < A) (hd : 0 < d) (hf : 0 < f ∨ r = 0) :
    0 < lump A d m f r a phi Q V R T P := by
  unfold lump
  have := rpow_pos' hf
  positivity

theorem rpow_split {f r n : ℝ} (h : 0 < f ∨ r = 0) : f ^ (-r / n) = (f ^ r) ^ (-1 / n) := by
  rcases h with h | h
  · rw [← Real.rpow_mul h.le]; congr 1; ring
  · rw [h]; simp

theorem pureB_eq {pre F R T P V d m f r a phi n A Q : ℝ} (hA : 0 < A) (hd : 0 < d) (hf : 0 < f ∨ r = 0) (hn : 0 < n) :
    Dens.pureB pre F R T P V d m f r a phi ⟨n, A, Q⟩ = pre * F * lump A d m f r a phi Q V R T P ^ (-1 / n) := by
  have hfr := rpow_pos' hf
  unfold Dens.pureB lump
  rw [rpow_split hf]
  rw [Real.mul_rpow (by positivity) (by positivity), Real.mul_rpow (by positivity) (by positivity),
    Real.mul_rpow (by positivity) (by positivity), Real.mul_rpow (by positivity) (by positivity)]
  rw [← Real.rpow_mul hd.le, ← Real.exp_mul, ← Real.exp_mul]
  have e1 : -m * (-1 / n) = m / n := by ring
  have e2 : a * phi * (-1 / n) = -a * phi / n := by ring
  have e3 : -(Q + P * V) / (R * T) * (-1 / n) = (Q + P * V) / R / n / T := by
    rw [div_div, div_div, div_mul_div_comm]
    congr 1 <;> ring
  rw [e1, e2, e3]
  ring

theorem labRate_eq (A n d m f r a phi Q V R T P s : ℝ) :
    labRate A n d m f r a phi Q V R T P s = lump A d m f r a phi Q V R T P * s ^ n := by
  unfold labRate lump; ring

/-- Core identity of the axial correction. -/
theorem axial_core {n K s : ℝ} (hn : 0 < n) (hK : 0 < K) (hs : 0 < s) :
    2 * (1 / 6 * (2 : ℝ) ^ (1 / n) * (3 : ℝ) ^ ((n - 1) / 2 / n) * K ^ (-1 / n) *
      (Real.sqrt 3 / 2 * (K * s ^ n)) ^ (1 / n - 1)) * (K * s ^ n) = 2 * s / 3 := by
  have e3 : Real.sqrt 3 = (3 : ℝ) ^ (1 / 2 : ℝ) := Real.sqrt_eq_rpow 3
  have h2 : (2 : ℝ) = Real.exp (Real.log 2) := (Real.exp_log (by norm_num)).symm
  have key : (2 : ℝ) ^ (1 / n) * (3 : ℝ) ^ ((n - 1) / 2 / n) * K ^ (-1 / n) *
      (Real.sqrt 3 / 2 * (K * s ^ n)) ^ (1 / n - 1) * (K * s ^ n) = 2 * s := by
    rw [e3]
    apply Real.log_injOn_pos (by simp only [Set.mem_Ioi]; positivity) (by simp only [Set.mem_Ioi]; positivity)
    rw [Real.log_mul (by positivity) (by positivity), Real.log_mul (by positivity) (by positivity),
      Real.log_mul (by positivity) (by positivity), Real.log_mul (by positivity) (by positivity),
      Real.log_rpow (by positivity), Real.log_rpow (by positivity), Real.log_rpow hK, Real.log_rpow (by positivity),
      Real.log_mul (by positivity) (by positivity), Real.log_div (by positivity) (by positivity),
      Real.log_rpow (by positivity), Real.log_mul hK.ne' (by positivity), Real.log_rpow hs,
      Real.log_mul (by positivity) (by positivity)]
    field_simp
    ring
  linear_combination (1 / 3) * key

theorem axial_invariant {e : ℝ} (he : 0 < e) : (axialRate e).invariant = Real.sqrt 3 / 2 * e := by
  unfold Tensor.invariant axialRate
  have : 1 / 2 * ((e / 2) ^ 2 + (e / 2) ^ 2 + (-e) ^ 2 + 2 * (0 : ℝ) ^ 2) = 3 * (e / 2) ^ 2 := by ring
  simp only [this]
  rw [Real.sqrt_mul (by norm_num), Real.sqrt_sq (by positivity)]
  ring

theorem shear_invariant {g : ℝ} (hg : 0 < g) : (shearRate g).invariant = g / 2 := by
  unfold Tensor.invariant shearRate
  have : 1 / 2 * ((0 : ℝ) ^ 2 + 0 ^ 2 + 0 ^ 2 + 2 * (g / 2) ^ 2) = (g / 2) ^ 2 := by ring
  simp only [this]
  rw [Real.sqrt_sq (by positivity)]

/-- **C100.** A law measured in axial compression (`t = 1`): the stress deviator the code obtains from the
strain rate of the experiment, component by component, is the stress deviator of the experiment. -/
theorem axial_experiment (l : Law) (number : Int) (R T P d phi s : ℝ) (hnum : 0 ≤ number) (ht : l.t = 1)
    (hn : 0 < l.n) (hA : 0 < l.A) (hd : 0 < d) (hf : 0 < l.f ∨ l.r = 0) (hs : 0 < s) :
    let e := labRate l.A l.n d l.m l.f l.r l.a phi l.Q l.V R T P s
    (axialRate e).times (2 * viscosity 1 R T P d phi (axialRate e).invariant (correct number l)) = axialStress s := by
  intro e
  set K := lump l.A d l.m l.f l.r l.a phi l.Q l.V R T P with hKdef
  have hK : 0 < K := lump_pos hA hd hf
  have he : e = K * s ^ l.n := labRate_eq ..
  have he0 : 0 < e := by rw [he]; positivity
  have hv : 2 * viscosity 1 R T P d phi (axialRate e).invariant (correct number l) * e = 2 * s / 3 := by
    rw [axial_invariant he0]
    unfold viscosity Dens.creepViscosity
    simp only [correct, ht, if_neg (not_lt.2 hnum), if_true, one_ne_zero, if_false, OfNat.one_ne_ofNat]
    rw [pureB_eq hA hd hf hn, one_mul, he, ← hKdef]
    exact axial_core hn hK hs
  unfold Tensor.times axialRate axialStress at *
  simp only [Tensor.mk.injEq]
  refine ⟨?_, ?_, ?_, by ring⟩ <;> linarith

/-- **C100.** A law measured in simple shear (`t = 2`): likewise. -/
theorem shear_experiment (l : Law) (number : Int) (R T P d phi s : ℝ) (hnum : 0 ≤ number) (ht : l.t = 2)
    (hn : 0 < l.n) (hA : 0 < l.A) (hd : 0 < d) (hf : 0 < l.f ∨ l.r = 0) (hs : 0 < s) :
    let g := labRate l.A l.n d l.m l.f l.r l.a phi l.Q l.V R T P s
    (shearRate g).times (2 * viscosity 1 R T P d phi (shearRate g).invariant (correct number l)) = shearStress s := by
  intro g
  set K := lump l.A d l.m l.f l.r l.a phi l.Q l.V R T P with hKdef
  have hK : 0 < K := lump_pos hA hd hf
  have he : g = K * s ^ l.n := labRate_eq ..
  have he0 : 0 < g := by rw [he]; positivity
  have hv : 2 * viscosity 1 R T P d phi (shearRate g).invariant (correct number l) * (g / 2) = s / 2 := by
    rw [shear_invariant he0]
    unfold viscosity Dens.creepViscosity
    simp only [correct, ht, if_neg (not_lt.2 hnum), if_true, OfNat.ofNat_ne_zero, OfNat.ofNat_ne_one, if_false]
    rw [pureB_eq hA hd hf hn, one_mul, he, ← hKdef]
    have key : (2 : ℝ) ^ (1 / l.n) * K ^ (-1 / l.n) * (K * s ^ l.n / 2) ^ (1 / l.n - 1) * (K * s ^ l.n) = 2 * s := by
      apply Real.log_injOn_pos (by simp only [Set.mem_Ioi]; positivity) (by simp only [Set.mem_Ioi]; positivity)
      rw [Real.log_mul (by positivity) (by positivity), Real.log_mul (by positivity) (by positivity),
        Real.log_mul (by positivity) (by positivity),
        Real.log_rpow (by positivity), Real.log_rpow hK, Real.log_rpow (by positivity),
        Real.log_div (by positivity) (by positivity),
        Real.log_mul hK.ne' (by positivity), Real.log_rpow hs,
        Real.log_mul (by positivity) (by positivity)]
      field_simp
      ring
    linear_combination (1 / 4) * key
  unfold Tensor.times shearRate shearStress at *
  simp only [Tensor.mk.injEq]
  refine ⟨by ring, by ring, by ring, ?_⟩
  linarith

/-- **C100.** A law already given in invariants (`t = 0`) or with a negative number is not corrected: its
stress is taken to be viscosity times strain-rate invariant (half the stress invariant). -/
theorem uncorrected (l : Law) (number : Int) (R T P d phi e : ℝ) (h : number < 0 ∨ l.t = 0)
    (hn : 0 < l.n) (hA : 0 < l.A) (hd : 0 < d) (hf : 0 < l.f ∨ l.r = 0) (he : 0 < e) :
    let eta := viscosity 1 R T P d phi e (correct number l)
    labRate l.A l.n d l.m l.f l.r l.a phi l.Q l.V R T P (eta * e) = e := by
  intro eta
  set K := lump l.A d l.m l.f l.r l.a phi l.Q l.V R T P with hKdef
  have hK : 0 < K := lump_pos hA hd hf
  have hF : (correct number l).F = 1 := by
    unfold correct
    rcases h with h | h
    · simp [h]
    · simp [h]
  have heta : eta = K ^ (-1 / l.n) * e ^ (1 / l.n - 1) := by
    show Dens.creepViscosity _ _ _ = _
    unfold Dens.creepViscosity
    rw [hF]
    show Dens.pureB 1 1 R T P l.V d l.m l.f l.r l.a phi ⟨l.n, l.A, l.Q⟩ * _ = _
    rw [pureB_eq hA hd hf hn, one_mul, one_mul, ← hKdef]
    rfl
  rw [labRate_eq, ← hKdef, heta]
  apply Real.log_injOn_pos (by simp only [Set.mem_Ioi]; positivity) (by simp only [Set.mem_Ioi]; positivity)
  rw [Real.log_mul (by positivity) (by positivity), Real.log_rpow (by positivity),
    Real.log_mul (by positivity) (by positivity), Real.log_mul (by positivity) (by positivity),
    Real.log_rpow hK, Real.log_rpow he]
  field_simp
  ring

/-- The units of the flow-law reader from the four base units. -/
noncomputable def unitsOf (eta L V T : ℝ) : Units :=
  let s := Config.scaleMe eta L V T
  ⟨s.L, s.S, s.t, s.J⟩

theorem unitsOf_J {eta L V T : ℝ} (hL : 0 < L) (hV : 0 < V) :
    (unitsOf eta L V T).J = (unitsOf eta L V T).S * L ^ 3 := by
  simp only [unitsOf, Config.scaleMe]
  field_simp

/-- **C100.** The reader's scaling is consistent: the viscosity computed from the scaled law with scaled
temperature, pressure, grain size, strain rate and gas constant, times the unit of viscosity, is the
viscosity of the physical law. -/
theorem viscosity_unit_free (eta L V Tc : ℝ) (heta : 0 < eta) (hL : 0 < L) (hV : 0 < V) (hTc : 0 < Tc)
    (l : Law) (number : Int) (pre R T P d phi e : ℝ) (hn : 0 < l.n) (hA : 0 < l.A) (hd : 0 < d)
    (hf : 0 < l.f ∨ l.r = 0) (he : 0 < e) (hR : R ≠ 0) (hT : T ≠ 0) :
    let s := Config.scaleMe eta L V Tc
    viscosity pre (R / (s.J / s.T)) (T / s.T) (P / s.S) (d / s.L) phi (e / s.E)
        (correct number (scale (unitsOf eta L V Tc) l)) * s.eta
      = viscosity pre R T P d phi e (correct number l) := by
  intro s
  have hJ := unitsOf_J (eta := eta) (T := Tc) hL hV
  set u := unitsOf eta L V Tc with hu
  have hS : 0 < u.S := by simp only [hu, unitsOf, Config.scaleMe]; positivity
  have ht : 0 < u.t := by simp only [hu, unitsOf, Config.scaleMe]; positivity
  have sL : s.L = L := rfl
  have uL : u.L = L := rfl
  have sS : s.S = u.S := rfl
  have sT : s.T = Tc := rfl
  have sJ : s.J = u.S * L ^ 3 := hJ
  have sE : s.E = 1 / u.t := rfl
  have seta : s.eta = u.S * u.t := by
    show eta = eta / (L / V) * (L / V)
    field_simp
  rw [sL, sS, sT, sJ, sE, seta]
  have hF : (correct number (scale u l)).F = (correct number l).F := rfl
  show Dens.creepViscosity (Dens.pureB pre (correct number (scale u l)).F _ _ _ (l.V / u.L ^ 3) _ l.m (l.f / u.S) l.r l.a phi
      ⟨l.n, l.A / (u.S ^ (-l.n) * u.S ^ (-l.r) * u.L ^ l.m / u.t), l.Q / u.J⟩) l.n _ * _ =
    Dens.creepViscosity (Dens.pureB pre (correct number l).F R T P l.V d l.m l.f l.r l.a phi ⟨l.n, l.A, l.Q⟩) l.n e
  rw [hF, uL]
  have hf' : 0 < l.f / u.S ∨ l.r = 0 := hf.imp (fun h => div_pos h hS) id
  have hA' : 0 < l.A / (u.S ^ (-l.n) * u.S ^ (-l.r) * L ^ l.m / u.t) := by positivity
  rw [pureB_eq hA' (div_pos hd hL) hf' hn, pureB_eq hA hd hf hn]
  have hlump : lump (l.A / (u.S ^ (-l.n) * u.S ^ (-l.r) * L ^ l.m / u.t)) (d / L) l.m (l.f / u.S) l.r l.a phi (l.Q / u.J)
      (l.V / L ^ 3) (R / (u.S * L ^ 3 / Tc)) (T / Tc) (P / u.S)
      = lump l.A d l.m l.f l.r l.a phi l.Q l.V R T P * (u.S ^ l.n * u.t) := by
    unfold lump
    rw [hJ]
    have e1 : -(l.Q / (u.S * L ^ 3) + P / u.S * (l.V / L ^ 3)) / (R / (u.S * L ^ 3 / Tc) * (T / Tc))
        = -(l.Q + P * l.V) / (R * T) := by
      field_simp
    have e2 : (d / L) ^ (-l.m) = d ^ (-l.m) * L ^ l.m := by
      rw [Real.div_rpow hd.le hL.le, Real.rpow_neg hL.le]; field_simp
    have e3 : (l.f / u.S) ^ l.r = l.f ^ l.r * u.S ^ (-l.r) := by
      rcases hf with h | h
      · rw [Real.div_rpow h.le hS.le, Real.rpow_neg hS.le]; rfl
      · rw [h]; simp
    rw [e1, e2, e3, Real.rpow_neg hS.le l.n]
    have := Real.rpow_pos_of_pos hS l.n
    have := Real.rpow_pos_of_pos hS (-l.r)
    have := Real.rpow_pos_of_pos hL l.m
    field_simp
  rw [hlump]
  set K := lump l.A d l.m l.f l.r l.a phi l.Q l.V R T P with hKdef
  have hK : 0 < K := lump_pos hA hd hf
  unfold Dens.creepViscosity
  have : (K * (u.S ^ l.n * u.t)) ^ (-1 / l.n) * (e / (1 / u.t)) ^ (1 / l.n - 1) * (u.S * u.t) =
      K ^ (-1 / l.n) * e ^ (1 / l.n - 1) := by
    apply Real.log_injOn_pos (by simp only [Set.mem_Ioi]; positivity) (by simp only [Set.mem_Ioi]; positivity)
    rw [Real.log_mul (by positivity) (by positivity), Real.log_mul (by positivity) (by positivity),
      Real.log_mul (by positivity) (by positivity), Real.log_mul (by positivity) (by positivity),
      Real.log_rpow (by positivity), Real.log_rpow (by positivity), Real.log_rpow hK, Real.log_rpow he,
      Real.log_mul (by positivity) (by positivity), Real.log_mul (by positivity) (by positivity),
      Real.log_rpow hS, Real.log_div (by positivity) (by positivity), Real.log_div (by positivity) (by positivity),
      Real.log_one]
    field_simp
    ring
  linear_combination (pre * (correct number l).F) * this

/-- A law like dry olivine in axial compression meets the hypotheses. -/
noncomputable example : ∃ l : Law, l.t = 1 ∧ 0 < l.n ∧ 0 < l.A ∧ (0 < l.f ∨ l.r = 0) ∧ l.Q ≠ 0 ∧ l.V ≠ 0 :=
  ⟨⟨1, 3.5, 0, 0, 530000, 1.4e-5, 1.1e-16, 0, 0, 0⟩, rfl, by norm_num, by norm_num, Or.inr rfl, by norm_num, by norm_num⟩

/-- The correction is not vacuous: for a linear law in axial compression the factor is one third. -/
example : (correct 40 ⟨1, 1, 3, 0, 375000, 0, 1.5e-15, 0, 0, 0⟩).F = 1 / 3 := by
  simp [correct]; norm_num

/-! ### Peierls creep -/

theorem peierlsF_eq {N : ℝ} (hN : 0 < N) : peierlsF N = 1 / 6 * (2 : ℝ) ^ (1 / N) * (3 : ℝ) ^ ((N - 1) / 2 / N) * 1 := by
  unfold peierlsF
  rw [Real.sqrt_eq_rpow]
  apply Real.log_injOn_pos (by simp only [Set.mem_Ioi]; positivity) (by simp only [Set.mem_Ioi]; positivity)
  have h6 : (6 : ℝ) = 2 * 3 := by norm_num
  rw [Real.log_rpow (by positivity), Real.log_div (by positivity) (by positivity), Real.log_rpow (by positivity),
    Real.log_rpow (by positivity), Real.log_rpow (by positivity), mul_one,
    Real.log_mul (by positivity) (by positivity), Real.log_mul (by positivity) (by positivity),
    Real.log_rpow (by positivity), Real.log_rpow (by positivity), Real.log_div (by positivity) (by positivity),
    Real.log_one, h6, Real.log_mul (by positivity) (by positivity)]
  field_simp
  ring

/-- **C100.** The regularised Peierls law: the code's stress deviator at the strain rate of an axial
compression is the one of the experiment. -/
theorem peierls_axial_experiment (l : Peierls) (R T s : ℝ) (hR : 0 < R) (hT : 0 < T) (hQ : 0 < l.Q)
    (hG : 0 < l.G) (hG1 : l.G < 1) (hE : 0 < l.E) (hS : 0 < l.S) (hn : 0 ≤ l.n) (hs : 0 < s) :
    let e := peierlsRate l.E l.n l.S l.G l.Q R T s
    (axialRate e).times (2 * peierlsViscosity R T (axialRate e).invariant l) = axialStress s := by
  intro e
  set ST := l.Q / R / T * 2 * l.G * (1 - l.G) with hST
  have hST0 : 0 < ST := by
    have : 0 < 1 - l.G := by linarith
    positivity
  set N := ST + l.n with hNdef
  have hN : 0 < N := by linarith
  set arr := Real.exp (-l.Q / R / T * (1 - l.G) ^ 2) with harr
  have harr0 : 0 < arr := Real.exp_pos _
  set K := l.E * arr / (l.G * l.S) ^ ST with hKdef
  have hK : 0 < K := by positivity
  have e1 : -l.Q / (R * T) = -l.Q / R / T := by rw [div_div]
  have e2 : 2 * l.G * (1 - l.G) * l.Q / (R * T) = ST := by rw [hST]; field_simp
  have he : e = K * s ^ N := by
    show peierlsRate _ _ _ _ _ _ _ _ = _
    unfold peierlsRate
    rw [e1, e2, ← harr, Real.div_rpow hs.le (by positivity), hKdef, hNdef, Real.rpow_add hs]
    ring
  have he0 : 0 < e := by rw [he]; positivity
  have hB : (l.G * l.S) ^ (ST / N) / (l.E * arr) ^ (1 / N) = K ^ (-1 / N) := by
    rw [hKdef, Real.div_rpow (by positivity) (by positivity), ← Real.rpow_mul (by positivity)]
    have a1 : ST * (-1 / N) = -(ST / N) := by ring
    have a2 : (-1 : ℝ) / N = -(1 / N) := by ring
    rw [a1, a2, Real.rpow_neg (by positivity), Real.rpow_neg (by positivity)]
    rw [div_inv_eq_mul, div_eq_mul_inv, mul_comm]
  have hv : 2 * peierlsViscosity R T (axialRate e).invariant l * e = 2 * s / 3 := by
    rw [axial_invariant he0]
    show 2 * (peierlsF N * ((l.G * l.S) ^ (ST / N) / (l.E * arr) ^ (1 / N)) * (Real.sqrt 3 / 2 * e) ^ (1 / N - 1)) * e = _
    rw [hB, peierlsF_eq hN, mul_one, he]
    exact axial_core hN hK hs
  unfold Tensor.times axialRate axialStress at *
  simp only [Tensor.mk.injEq]
  refine ⟨?_, ?_, ?_, by ring⟩ <;> linarith

/-- **C100.** The scaling of the Peierls law is consistent. -/
theorem peierls_unit_free (eta L V Tc : ℝ) (heta : 0 < eta) (hL : 0 < L) (hV : 0 < V) (hTc : 0 < Tc)
    (l : Peierls) (number : Int) (R T e : ℝ) (hR : 0 < R) (hT : 0 < T) (hQ : 0 < l.Q)
    (hG : 0 < l.G) (hG1 : l.G < 1) (hE : 0 < l.E) (hS : 0 < l.S) (hn : 0 ≤ l.n) (he : 0 < e) :
    let s := Config.scaleMe eta L V Tc
    peierlsViscosity (R / (s.J / s.T)) (T / s.T) (e / s.E) (scalePeierls (unitsOf eta L V Tc) number l) * s.eta
      = peierlsViscosity R T e l := by
  intro s
  have hJ := unitsOf_J (eta := eta) (T := Tc) hL hV
  set u := unitsOf eta L V Tc with hu
  have hS' : 0 < u.S := by simp only [hu, unitsOf, Config.scaleMe]; positivity
  have ht : 0 < u.t := by simp only [hu, unitsOf, Config.scaleMe]; positivity
  have sT : s.T = Tc := rfl
  have sJ : s.J = u.J := rfl
  have sE : s.E = 1 / u.t := rfl
  have seta : s.eta = u.S * u.t := by
    show eta = eta / (L / V) * (L / V)
    field_simp
  have hJ0 : 0 < u.J := by rw [hJ]; positivity
  rw [sT, sJ, sE, seta]
  set ST := l.Q / R / T * 2 * l.G * (1 - l.G) with hST
  have hST0 : 0 < ST := by
    have : 0 < 1 - l.G := by linarith
    positivity
  have hN : 0 < ST + l.n := by linarith
  set arr := Real.exp (-l.Q / R / T * (1 - l.G) ^ 2) with harr
  have harr0 : 0 < arr := Real.exp_pos _
  have q1 : l.Q / u.J / (R / (u.J / Tc)) / (T / Tc) = l.Q / R / T := by field_simp
  have q2 : -(l.Q / u.J) / (R / (u.J / Tc)) / (T / Tc) = -l.Q / R / T := by field_simp
  show peierlsF (l.Q / u.J / (R / (u.J / Tc)) / (T / Tc) * 2 * l.G * (1 - l.G) + l.n) *
      ((l.G * (l.S / u.S)) ^ (l.Q / u.J / (R / (u.J / Tc)) / (T / Tc) * 2 * l.G * (1 - l.G) /
          (l.Q / u.J / (R / (u.J / Tc)) / (T / Tc) * 2 * l.G * (1 - l.G) + l.n)) /
        (l.E / (1 / u.t * u.S ^ (-l.n)) * Real.exp (-(l.Q / u.J) / (R / (u.J / Tc)) / (T / Tc) * (1 - l.G) ^ 2)) ^
          (1 / (l.Q / u.J / (R / (u.J / Tc)) / (T / Tc) * 2 * l.G * (1 - l.G) + l.n))) *
      (e / (1 / u.t)) ^ (1 / (l.Q / u.J / (R / (u.J / Tc)) / (T / Tc) * 2 * l.G * (1 - l.G) + l.n) - 1) * (u.S * u.t) =
    peierlsF (ST + l.n) * ((l.G * l.S) ^ (ST / (ST + l.n)) / (l.E * arr) ^ (1 / (ST + l.n))) * e ^ (1 / (ST + l.n) - 1)
  rw [q1, q2, ← hST, ← harr]
  set N := ST + l.n with hNdef
  have key : (l.G * (l.S / u.S)) ^ (ST / N) / (l.E / (1 / u.t * u.S ^ (-l.n)) * arr) ^ (1 / N) *
      (e / (1 / u.t)) ^ (1 / N - 1) * (u.S * u.t) =
      (l.G * l.S) ^ (ST / N) / (l.E * arr) ^ (1 / N) * e ^ (1 / N - 1) := by
    apply Real.log_injOn_pos (by simp only [Set.mem_Ioi]; positivity) (by simp only [Set.mem_Ioi]; positivity)
    have hl : l.n = N - ST := by rw [hNdef]; ring
    rw [Real.log_mul (by positivity) (by positivity), Real.log_mul (by positivity) (by positivity),
      Real.log_mul (x := (l.G * l.S) ^ (ST / N) / (l.E * arr) ^ (1 / N)) (by positivity) (by positivity),
      Real.log_div (by positivity) (by positivity), Real.log_div (by positivity) (by positivity),
      Real.log_rpow (by positivity), Real.log_rpow (by positivity), Real.log_rpow (by positivity),
      Real.log_rpow (by positivity), Real.log_rpow (by positivity), Real.log_rpow he,
      Real.log_mul hG.ne' (by positivity), Real.log_div hS.ne' hS'.ne', Real.log_mul (by positivity) harr0.ne',
      Real.log_div hE.ne' (by positivity), Real.log_mul (by positivity) (by positivity),
      Real.log_rpow hS', Real.log_div (by positivity) (by positivity), Real.log_div (by positivity) (by positivity),
      Real.log_one, Real.log_mul hG.ne' hS.ne', Real.log_mul hE.ne' harr0.ne', Real.log_mul hS'.ne' ht.ne', hl]
    have hi : Real.log (1 / u.t) = -Real.log u.t := by rw [one_div, Real.log_inv]
    try rw [hi]
    field_simp
    ring
  linear_combination peierlsF N * key

/-- **C101 (false part).** A negative Peierls law number is meant to cancel the correction; it has no effect
on the viscosity. -/
theorem peierls_correction_not_cancelled (u : Units) (number : Int) (R T e : ℝ) (l : Peierls) :
    peierlsViscosity R T e (scalePeierls u (-number) l) = peierlsViscosity R T e (scalePeierls u number l) := rfl

/-- Olivine after Evans and Goetze, as in the table, meets the hypotheses at 600 K. -/
example : ∃ l : Peierls, 0 < l.Q ∧ 0 < l.G ∧ l.G < 1 ∧ 0 < l.E ∧ 0 < l.S ∧ 0 ≤ l.n :=
  ⟨⟨1, 0.1, 8.5e9, 5.4e5, 5.7e11, 0⟩, by norm_num, by norm_num, by norm_num, by norm_num, by norm_num, by norm_num⟩

/-! ### Numbers of laws -/

/-- **C101.** Diffusion creep laws other than number 1: the numbers accepted are 15, 19, 25, 40, 41 of
either sign, the dislocation law of the material is untouched and nothing of the previous diffusion law
remains. -/
theorem linear_reads_diffusion_partial (u : Units) (number : Int) (ast : Option ℝ) (b : Both) (h1 : number.natAbs ≠ 1) :
    ((readLinear u number ast b).isSome ↔ number.natAbs ∈ [15, 19, 25, 40, 41]) ∧
    ∀ b', readLinear u number ast b = some b' →
      b'.pwl = b.pwl ∧ ∀ b2 b2', readLinear u number ast b2 = some b2' → b2'.lin = b'.lin := by
  have hc : number.natAbs = 15 ∨ number.natAbs = 19 ∨ number.natAbs = 25 ∨ number.natAbs = 40 ∨ number.natAbs = 41 ∨
      number.natAbs ∉ [1, 15, 19, 25, 40, 41] := by
    simp only [List.mem_cons, List.not_mem_nil, or_false]; omega
  rcases hc with h | h | h | h | h | h
  all_goals try
    unfold readLinear linearTable
    rw [h]
    refine ⟨by simp, ?_⟩
    intro b' hb'
    simp only [Option.map_some, Option.some.injEq] at hb'
    subst hb'
    refine ⟨rfl, ?_⟩
    intro b2 b2' hb2
    simp only [Option.map_some, Option.some.injEq] at hb2
    subst hb2
    simp only [correct, scale]
    norm_num
  simp only [List.mem_cons, List.not_mem_nil, or_false, not_or] at h
  have hn : linearTable number ast b = none := by
    unfold linearTable
    split <;> simp_all
  have hr : readLinear u number ast b = none := by unfold readLinear; rw [hn]; rfl
  rw [hr]
  simp
  omega

example (u : Units) (b : Both) : (readLinear u (-40) (some 7e-6) b).isSome :=
  (linear_reads_diffusion_partial u (-40) (some 7e-6) b (by decide)).1.2 (by decide)

/-- **C101 (false part).** Diffusion law 1: the dislocation law of the material is overwritten with the
unscaled constants of the table, whatever the units, and the diffusion law keeps whatever it held. -/
theorem linear_one_clobbers (u : Units) (number : Int) (ast : Option ℝ) (b : Both) (h1 : number.natAbs = 1) :
    ∃ b', readLinear u number ast b = some b' ∧ b'.pwl.n = 3.3 ∧ b'.pwl.Q = 186500 ∧ b'.pwl.A = 3.1623e-26 ∧
      b'.pwl.F = b.pwl.F ∧ b'.lin.n = b.lin.n ∧ b'.lin.m = b.lin.m ∧ b'.lin.Q = b.lin.Q / u.J := by
  unfold readLinear linearTable
  rw [h1]
  exact ⟨_, rfl, rfl, rfl, rfl, rfl, rfl, rfl, rfl⟩

/-- **C101.** User-defined law 1, in physical units: `eta0 * exp(Q/(nRT)) * e^(1/n-1)`, whatever the units of
the run. -/
theorem reference_viscosity_met (eta L V Tc : ℝ) (heta : 0 < eta) (hL : 0 < L) (hV : 0 < V) (hTc : 0 < Tc)
    (l : Law) (eta0 eps0 tau0 R T P d phi e : ℝ) (hn : 0 < l.n) (h0 : 0 < eta0) (hd : 0 < d) (he : 0 < e)
    (hR : R ≠ 0) (hT : T ≠ 0) :
    let s := Config.scaleMe eta L V Tc
    viscosity 1 (R / (s.J / s.T)) (T / s.T) (P / s.S) (d / s.L) phi (e / s.E)
        (readHomemade (unitsOf eta L V Tc) 1 (eta0 / s.eta) s.eta eps0 tau0 l) * s.eta
      = eta0 * Real.exp (l.Q / (l.n * R * T)) * e ^ (1 / l.n - 1) := by
  intro s
  have hse : s.eta = eta := rfl
  have hA : 0 < (homemade1 (eta0 / s.eta) s.eta l).A := by
    simp only [homemade1, hse]; positivity
  have h := viscosity_unit_free eta L V Tc heta hL hV hTc (homemade1 (eta0 / s.eta) s.eta l) 1 1 R T P d phi e hn hA hd
    (Or.inr rfl) he hR hT
  refine (show _ = _ from h).trans ?_
  unfold viscosity Dens.creepViscosity
  have hF : (correct 1 (homemade1 (eta0 / s.eta) s.eta l)).F = 1 := by simp [correct, homemade1]
  rw [hF]
  show Dens.pureB 1 1 R T P 0 d 0 0 0 0 phi ⟨l.n, (eta0 / eta * eta) ^ (-l.n), l.Q⟩ * _ = _
  unfold Dens.pureB
  have e1 : eta0 / eta * eta = eta0 := by field_simp
  have e2 : (eta0 ^ (-l.n)) ^ (-1 / l.n) = eta0 := by
    rw [← Real.rpow_mul h0.le]
    have : -l.n * (-1 / l.n) = 1 := by field_simp
    rw [this, Real.rpow_one]
  have e3 : (l.Q + P * 0) / R / l.n / T = l.Q / (l.n * R * T) := by
    rw [mul_zero, add_zero, div_div, div_div]; congr 1; ring
  simp only [e1, e2, e3, neg_zero, zero_mul, zero_div, Real.rpow_zero, Real.exp_zero, mul_one, one_mul]
  rfl

/-- **C101 (false part).** User-defined law 2 is documented as constrained by the reference stress `tau0` at
the reference strain rate `eps0`.  With all units one, the code's stress at `eps0` is
`2^(n+1) eps0^(1+1/n) / tau0^n`. -/
theorem reference_stress_value (l : Law) (number : Int) (eta0 eta eps0 tau0 R T P d phi : ℝ)
    (hnum : number.natAbs = 2) (hn : 0 < l.n) (hQ : l.Q = 0)
    (he : 0 < eps0) (ht : 0 < tau0) (hd : 0 < d) :
    2 * viscosity 1 R T P d phi eps0 (readHomemade ⟨1, 1, 1, 1⟩ number eta0 eta eps0 tau0 l) * eps0
      = 2 ^ (l.n + 1) * eps0 ^ (1 + 1 / l.n) / tau0 ^ l.n := by
  have hF : (readHomemade ⟨1, 1, 1, 1⟩ number eta0 eta eps0 tau0 l).F = 1 := by
    simp [readHomemade, correct, scale, homemade2, hnum]
  unfold viscosity Dens.creepViscosity
  rw [hF]
  have hA : (readHomemade ⟨1, 1, 1, 1⟩ number eta0 eta eps0 tau0 l).A = ((2 : ℝ) ^ l.n * eps0 / tau0 ^ l.n) ^ (-l.n) := by
    simp [readHomemade, correct, scale, homemade2, hnum]
  have hnn : (readHomemade ⟨1, 1, 1, 1⟩ number eta0 eta eps0 tau0 l).n = l.n := by
    simp [readHomemade, correct, scale, homemade2, hnum]
  have hQQ : (readHomemade ⟨1, 1, 1, 1⟩ number eta0 eta eps0 tau0 l).Q = 0 := by
    simp [readHomemade, correct, scale, homemade2, hnum, hQ]
  have hVV : (readHomemade ⟨1, 1, 1, 1⟩ number eta0 eta eps0 tau0 l).V = 0 := by
    simp [readHomemade, correct, scale, homemade2, hnum]
  have hmm : (readHomemade ⟨1, 1, 1, 1⟩ number eta0 eta eps0 tau0 l).m = 0 := by
    simp [readHomemade, correct, scale, homemade2, hnum]
  have hrr : (readHomemade ⟨1, 1, 1, 1⟩ number eta0 eta eps0 tau0 l).r = 0 := by
    simp [readHomemade, correct, scale, homemade2, hnum]
  have haa : (readHomemade ⟨1, 1, 1, 1⟩ number eta0 eta eps0 tau0 l).a = 0 := by
    simp [readHomemade, correct, scale, homemade2, hnum]
  rw [hA, hnn, hQQ, hVV, hmm, hrr, haa]
  unfold Dens.pureB
  have hb : 0 < (2 : ℝ) ^ l.n * eps0 / tau0 ^ l.n := by positivity
  have e2 : (((2 : ℝ) ^ l.n * eps0 / tau0 ^ l.n) ^ (-l.n)) ^ (-1 / l.n) = (2 : ℝ) ^ l.n * eps0 / tau0 ^ l.n := by
    rw [← Real.rpow_mul hb.le]
    have : -l.n * (-1 / l.n) = 1 := by field_simp
    rw [this, Real.rpow_one]
  simp only [e2, neg_zero, zero_mul, zero_div, mul_zero, add_zero, Real.rpow_zero, Real.exp_zero, mul_one, one_mul]
  have e3 : eps0 ^ (1 / l.n - 1) * eps0 = eps0 ^ (1 / l.n) := by
    rw [← Real.rpow_add_one he.ne']; congr 1; ring
  rw [Real.rpow_add_one (by norm_num), Real.rpow_add he, Real.rpow_one]
  linear_combination (2 * ((2 : ℝ) ^ l.n * eps0 / tau0 ^ l.n)) * e3

/-- **C101 (false part).** So the documented constraint is not met: with `n = 3` and unit reference values
the stress is 16 times the one asked for. -/
theorem reference_stress_not_met (l : Law) (eta0 eta R T P d phi : ℝ) (hn : l.n = 3) (hQ : l.Q = 0) (hd : 0 < d) :
    2 * viscosity 1 R T P d phi 1 (readHomemade ⟨1, 1, 1, 1⟩ 2 eta0 eta 1 1 l) * 1 = 16 := by
  rw [reference_stress_value l 2 eta0 eta 1 1 R T P d phi rfl (by rw [hn]; norm_num) hQ one_pos one_pos hd, hn]
  have : (2 : ℝ) ^ ((3 : ℝ) + 1) = 16 := by
    have : (3 : ℝ) + 1 = ((4 : Nat) : ℝ) := by norm_num
    rw [this, Real.rpow_natCast]; norm_num
  rw [this]; simp

end Verif.Flow
