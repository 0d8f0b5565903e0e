import Verif.Model.Kinematics
import Verif.Spec.Kinematics
import Verif.Spec.GridFields
import Verif.Props.GridFields
import Mathlib.Tactic.Ring
import Mathlib.Tactic.FieldSimp
import Mathlib.Tactic.Linarith
import Mathlib.Tactic.NormNum
import Mathlib.Data.Rat.Floor

/-
Strain rates and vorticity on the grid: exact for linear flows, blind to rigid motion, deviatoric when
asked to be.
-/
namespace Verif.Kin
open Verif Verif.Spec

set_option linter.unusedSectionVars false

variable {K : Type*} [Field K]

/-! ### What the loops leave behind -/

private theorem idx (c N : Nat) : c % N + c / N * N = c := Nat.mod_add_div' c N

private theorem idx_mod {k l N : Nat} (h : k < N) : (k + l * N) % N = k := by
  rw [Nat.add_mul_mod_self_right, Nat.mod_eq_of_lt h]

private theorem idx_div {k l N : Nat} (h : k < N) : (k + l * N) / N = l := by
  rw [Nat.add_mul_div_right _ _ (by omega), Nat.div_eq_of_lt h, Nat.zero_add]

/-- Rate of stretching in `x` of the cell in column `k`, row `l`. -/
def stretchX (q : Inp K) (k l : Nat) : K := (q.u (k + l * q.Nx + 1 + q.Nx) - q.u (k + l * q.Nx + q.Nx)) / q.dx
/-- Rate of stretching in `z`. -/
def stretchZ (q : Inp K) (k l : Nat) : K :=
  (q.v (k + l * (q.Nx + 1) + q.Nx + 1 + 1) - q.v (k + l * (q.Nx + 1) + 1)) / q.dz
/-- Rate of change of volume. -/
def volRate (q : Inp K) (k l : Nat) : K :=
  stretchX q k l + stretchZ q k l + (if q.oop then 1 else 0) * (1 / 2) * (stretchX q k l + stretchZ q k l)

private theorem cellBody_eq (q : Inp K) (s : Rates K) (c : Nat) :
    cellBody q s c = { s with
      divu := upd s.divu c (if q.tagP c ≠ 30 ∧ q.tagP c ≠ 31 then volRate q (c % (q.Nx - 1)) (c / (q.Nx - 1)) else 0)
      exx := upd s.exx c (if q.tagP c ≠ 30 ∧ q.tagP c ≠ 31 then
        stretchX q (c % (q.Nx - 1)) (c / (q.Nx - 1)) - q.comp * 1 / 3 * volRate q (c % (q.Nx - 1)) (c / (q.Nx - 1)) else 0)
      ezz := upd s.ezz c (if q.tagP c ≠ 30 ∧ q.tagP c ≠ 31 then
        stretchZ q (c % (q.Nx - 1)) (c / (q.Nx - 1)) - q.comp * 1 / 3 * volRate q (c % (q.Nx - 1)) (c / (q.Nx - 1)) else 0) } := by
  have uu : ∀ (a : Nat → K) (x y : K), upd (upd a c x) c y = upd a c y := by
    intro a x y; funext j; unfold upd; split_ifs <;> rfl
  unfold cellBody
  simp only [idx c (q.Nx - 1)]
  by_cases h : q.tagP c ≠ 30 ∧ q.tagP c ≠ 31
  · simp only [if_pos h, uu, upd_same, volRate, stretchX, stretchZ]
  · simp only [if_neg h]

private theorem vertBody_eq (q : Inp K) (s : Rates K) (c : Nat) :
    vertBody q s c = { s with
      exz := upd s.exz c (if q.tagG c ≠ 30 then 1 / 2 * ((q.u (c + q.Nx) - q.u c) / q.dz
        + (q.v (c % q.Nx + c / q.Nx * (q.Nx + 1) + 1) - q.v (c % q.Nx + c / q.Nx * (q.Nx + 1))) / q.dx) else 0)
      wxz := upd s.wxz c (if q.tagG c ≠ 30 then 1 / 2 * (
        (q.v (c % q.Nx + c / q.Nx * (q.Nx + 1) + 1) - q.v (c % q.Nx + c / q.Nx * (q.Nx + 1))) / q.dx
          - (q.u (c + q.Nx) - q.u c) / q.dz) else s.wxz c) } := by
  have uu : ∀ (a : Nat → K) (x y : K), upd (upd a c x) c y = upd a c y := by
    intro a x y; funext j; unfold upd; split_ifs <;> rfl
  have us : ∀ (a : Nat → K), upd a c (a c) = a := by
    intro a; funext j; unfold upd; split_ifs with h
    · rw [h]
    · rfl
  unfold vertBody
  simp only [idx c q.Nx]
  by_cases h : q.tagG c ≠ 30
  · simp only [if_pos h, uu]
  · simp only [if_neg h, us]

private theorem shearCellBody_eq (q : Inp K) (s : Rates K) (c : Nat) :
    shearCellBody q s c = { s with
      exzN := upd s.exzN c (if q.tagP c ≠ 30 ∧ q.tagP c ≠ 31 then
        quarters q s.exz (c % (q.Nx - 1) + c / (q.Nx - 1) * q.Nx) else 0)
      wxzN := upd s.wxzN c (if q.tagP c ≠ 30 ∧ q.tagP c ≠ 31 then
        quarters q s.wxz (c % (q.Nx - 1) + c / (q.Nx - 1) * q.Nx) else 0) } := by
  have uu : ∀ (a : Nat → K) (x y : K), upd (upd a c x) c y = upd a c y := by
    intro a x y; funext j; unfold upd; split_ifs <;> rfl
  unfold shearCellBody
  simp only [idx c (q.Nx - 1)]
  by_cases h : q.tagP c ≠ 30 ∧ q.tagP c ≠ 31
  · simp only [if_pos h, uu]
  · simp only [if_neg h]

/-- Array after the first `n` entries were overwritten. -/
def filled (n : Nat) (a : Nat → K) (g : Nat → K) (c : Nat) : K := if c < n then g c else a c

private theorem filled_upd (n : Nat) (a g : Nat → K) : upd (filled n a g) n (g n) = filled (n + 1) a g := by
  funext j
  unfold upd filled
  by_cases h : j = n
  · subst h; simp
  · rw [if_neg h]
    by_cases h2 : j < n
    · rw [if_pos h2, if_pos (by omega)]
    · rw [if_neg h2, if_neg (by omega)]

private theorem filled_zero (a g : Nat → K) : filled 0 a g = a := by funext j; simp [filled]

private theorem filled_at (n : Nat) (a g : Nat → K) : filled n a g n = a n := by simp [filled]

/-- Closed form of the routine. -/
theorem strainRates_eq (q : Inp K) (s : Rates K) :
    let n := (q.Nx - 1) * (q.Nz - 1)
    let nv := q.Nx * q.Nz
    let divu := filled n s.divu fun c => if q.tagP c ≠ 30 ∧ q.tagP c ≠ 31 then volRate q (c % (q.Nx - 1)) (c / (q.Nx - 1)) else 0
    let exx := filled n s.exx fun c => if q.tagP c ≠ 30 ∧ q.tagP c ≠ 31 then
        stretchX q (c % (q.Nx - 1)) (c / (q.Nx - 1)) - q.comp * 1 / 3 * volRate q (c % (q.Nx - 1)) (c / (q.Nx - 1)) else 0
    let ezz := filled n s.ezz fun c => if q.tagP c ≠ 30 ∧ q.tagP c ≠ 31 then
        stretchZ q (c % (q.Nx - 1)) (c / (q.Nx - 1)) - q.comp * 1 / 3 * volRate q (c % (q.Nx - 1)) (c / (q.Nx - 1)) else 0
    let exz := filled nv s.exz fun c => if q.tagG c ≠ 30 then 1 / 2 * ((q.u (c + q.Nx) - q.u c) / q.dz
        + (q.v (c % q.Nx + c / q.Nx * (q.Nx + 1) + 1) - q.v (c % q.Nx + c / q.Nx * (q.Nx + 1))) / q.dx) else 0
    let wxz := filled nv s.wxz fun c => if q.tagG c ≠ 30 then 1 / 2 * (
        (q.v (c % q.Nx + c / q.Nx * (q.Nx + 1) + 1) - q.v (c % q.Nx + c / q.Nx * (q.Nx + 1))) / q.dx
          - (q.u (c + q.Nx) - q.u c) / q.dz) else s.wxz c
    strainRates q s =
      { divu := divu, exx := exx, ezz := ezz, exz := exz, wxz := wxz
        exzN := filled n s.exzN fun c => if q.tagP c ≠ 30 ∧ q.tagP c ≠ 31 then
          quarters q exz (c % (q.Nx - 1) + c / (q.Nx - 1) * q.Nx) else 0
        wxzN := filled n s.wxzN fun c => if q.tagP c ≠ 30 ∧ q.tagP c ≠ 31 then
          quarters q wxz (c % (q.Nx - 1) + c / (q.Nx - 1) * q.Nx) else 0
        exxS := GridField.centroidsToVertices q.per q.Nx q.Nz q.tagP q.tagG exx s.exxS
        ezzS := GridField.centroidsToVertices q.per q.Nx q.Nz q.tagP q.tagG ezz s.ezzS
        divS := GridField.centroidsToVertices q.per q.Nx q.Nz q.tagP q.tagG divu s.divS } := by
  intro n nv divu exx ezz exz wxz
  have h1 : ∀ m, forUp m s (cellBody q) = { s with
      divu := filled m s.divu fun c => if q.tagP c ≠ 30 ∧ q.tagP c ≠ 31 then volRate q (c % (q.Nx - 1)) (c / (q.Nx - 1)) else 0
      exx := filled m s.exx fun c => if q.tagP c ≠ 30 ∧ q.tagP c ≠ 31 then
        stretchX q (c % (q.Nx - 1)) (c / (q.Nx - 1)) - q.comp * 1 / 3 * volRate q (c % (q.Nx - 1)) (c / (q.Nx - 1)) else 0
      ezz := filled m s.ezz fun c => if q.tagP c ≠ 30 ∧ q.tagP c ≠ 31 then
        stretchZ q (c % (q.Nx - 1)) (c / (q.Nx - 1)) - q.comp * 1 / 3 * volRate q (c % (q.Nx - 1)) (c / (q.Nx - 1)) else 0 } := by
    intro m
    induction m with
    | zero => simp only [filled_zero]; rfl
    | succ m ih => rw [forUp_succ, ih, cellBody_eq]; simp only [filled_upd]
  have h2 : ∀ m (s : Rates K), forUp m s (vertBody q) = { s with
      exz := filled m s.exz fun c => if q.tagG c ≠ 30 then 1 / 2 * ((q.u (c + q.Nx) - q.u c) / q.dz
        + (q.v (c % q.Nx + c / q.Nx * (q.Nx + 1) + 1) - q.v (c % q.Nx + c / q.Nx * (q.Nx + 1))) / q.dx) else 0
      wxz := filled m s.wxz fun c => if q.tagG c ≠ 30 then 1 / 2 * (
        (q.v (c % q.Nx + c / q.Nx * (q.Nx + 1) + 1) - q.v (c % q.Nx + c / q.Nx * (q.Nx + 1))) / q.dx
          - (q.u (c + q.Nx) - q.u c) / q.dz) else s.wxz c } := by
    intro m s
    induction m with
    | zero => simp only [filled_zero]; rfl
    | succ m ih =>
      rw [forUp_succ, ih, vertBody_eq]
      simp only [filled_at, filled_upd]
  have h3 : ∀ m (s : Rates K), forUp m s (shearCellBody q) = { s with
      exzN := filled m s.exzN fun c => if q.tagP c ≠ 30 ∧ q.tagP c ≠ 31 then
        quarters q s.exz (c % (q.Nx - 1) + c / (q.Nx - 1) * q.Nx) else 0
      wxzN := filled m s.wxzN fun c => if q.tagP c ≠ 30 ∧ q.tagP c ≠ 31 then
        quarters q s.wxz (c % (q.Nx - 1) + c / (q.Nx - 1) * q.Nx) else 0 } := by
    intro m s
    induction m with
    | zero => simp only [filled_zero]; rfl
    | succ m ih => rw [forUp_succ, ih, shearCellBody_eq]; simp only [filled_upd]
  unfold strainRates
  simp only [h1, h2, h3]
  rfl

private theorem cell_lt {N M k l : Nat} (hk : k < N) (hl : l < M) : k + l * N < N * M := by
  have h : (l + 1) * N ≤ M * N := Nat.mul_le_mul_right _ hl
  rw [Nat.add_mul, Nat.one_mul, Nat.mul_comm M N] at h
  omega

variable (q : Inp K) (s : Rates K)

/-- A cell that is not air. -/
def Rock (k l : Nat) : Prop := ¬ AirFlag (q.tagP (k + l * (q.Nx - 1)))

/-- A vertex that is not air. -/
def RockVertex (k l : Nat) : Prop := q.tagG (k + l * q.Nx) ≠ 30

instance (k l : Nat) : Decidable (Rock q k l) := by unfold Rock; infer_instance
instance (k l : Nat) : Decidable (RockVertex q k l) := by unfold RockVertex; infer_instance

private theorem rock_iff {k l : Nat} : Rock q k l ↔ q.tagP (k + l * (q.Nx - 1)) ≠ 30 ∧ q.tagP (k + l * (q.Nx - 1)) ≠ 31 := by
  unfold Rock AirFlag
  push Not
  rfl

/-- Values of a rock cell. -/
theorem cell_rates {k l : Nat} (hk : k < q.Nx - 1) (hl : l < q.Nz - 1) (hr : Rock q k l) :
    (strainRates q s).divu (k + l * (q.Nx - 1)) = volRate q k l
    ∧ (strainRates q s).exx (k + l * (q.Nx - 1)) = stretchX q k l - q.comp / 3 * volRate q k l
    ∧ (strainRates q s).ezz (k + l * (q.Nx - 1)) = stretchZ q k l - q.comp / 3 * volRate q k l := by
  have hr' := (rock_iff q).1 hr
  rw [strainRates_eq]
  simp only [filled, if_pos (cell_lt hk hl), if_pos hr', idx_mod hk, idx_div hk, mul_one, and_self]

/-- Values of a rock vertex. -/
theorem vertex_rates {k l : Nat} (hk : k < q.Nx) (hl : l < q.Nz) (hr : RockVertex q k l) :
    (strainRates q s).exz (k + l * q.Nx) = 1 / 2 * ((q.u (k + (l + 1) * q.Nx) - q.u (k + l * q.Nx)) / q.dz
      + (q.v (k + 1 + l * (q.Nx + 1)) - q.v (k + l * (q.Nx + 1))) / q.dx)
    ∧ (strainRates q s).wxz (k + l * q.Nx) = 1 / 2 * ((q.v (k + 1 + l * (q.Nx + 1)) - q.v (k + l * (q.Nx + 1))) / q.dx
      - (q.u (k + (l + 1) * q.Nx) - q.u (k + l * q.Nx)) / q.dz) := by
  have e1 : k + l * q.Nx + q.Nx = k + (l + 1) * q.Nx := by ring
  have e2 : k + l * (q.Nx + 1) + 1 = k + 1 + l * (q.Nx + 1) := by ring
  rw [strainRates_eq]
  simp only [filled, if_pos (cell_lt hk hl), if_pos (show q.tagG (k + l * q.Nx) ≠ 30 from hr), idx_mod hk, idx_div hk,
    e1, e2, and_self]

/-- Cell values of the shear rate and of the vorticity are sums of quarters of the rock vertices. -/
theorem cell_shear {k l : Nat} (hk : k < q.Nx - 1) (hl : l < q.Nz - 1) (hr : Rock q k l) :
    (strainRates q s).exzN (k + l * (q.Nx - 1)) = quarters q (strainRates q s).exz (k + l * q.Nx)
    ∧ (strainRates q s).wxzN (k + l * (q.Nx - 1)) = quarters q (strainRates q s).wxz (k + l * q.Nx) := by
  have hr' := (rock_iff q).1 hr
  rw [strainRates_eq]
  simp only [filled, if_pos (cell_lt hk hl), if_pos hr', idx_mod hk, idx_div hk, and_self]

/-- Nothing is reported in the air. -/
theorem air_rates_zero {k l : Nat} (hk : k < q.Nx - 1) (hl : l < q.Nz - 1) (ha : AirFlag (q.tagP (k + l * (q.Nx - 1)))) :
    let r := strainRates q s
    let c := k + l * (q.Nx - 1)
    r.divu c = 0 ∧ r.exx c = 0 ∧ r.ezz c = 0 ∧ r.exzN c = 0 ∧ r.wxzN c = 0 := by
  have hr' : ¬ (q.tagP (k + l * (q.Nx - 1)) ≠ 30 ∧ q.tagP (k + l * (q.Nx - 1)) ≠ 31) := fun h => (rock_iff q).2 h ha
  rw [strainRates_eq]
  simp only [filled, if_pos (cell_lt hk hl), if_neg hr', and_self]

/-! ### Linear flows are measured exactly -/

section
variable [CharZero K]

/-- In a linear flow every rock cell reports the exact divergence and the exact normal strain rates, and
every rock vertex the exact shear rate and vorticity. -/
theorem linear_flow_exact (xmin zmin a b c d e f : K) (hdx : q.dx ≠ 0) (hdz : q.dz ≠ 0)
    (hw : Sampled xmin zmin q.dx q.dz q.Nx q.Nz (linearFlow a b c d e f) q.u q.v) :
    let r := strainRates q s
    let div := if q.oop then 3 / 2 * (b + f) else b + f
    (∀ k l, k < q.Nx - 1 → l < q.Nz - 1 → Rock q k l →
      r.divu (k + l * (q.Nx - 1)) = div
      ∧ r.exx (k + l * (q.Nx - 1)) = b - q.comp / 3 * div
      ∧ r.ezz (k + l * (q.Nx - 1)) = f - q.comp / 3 * div)
    ∧ (∀ k l, k < q.Nx → l < q.Nz → RockVertex q k l →
      r.exz (k + l * q.Nx) = (c + e) / 2 ∧ r.wxz (k + l * q.Nx) = (e - c) / 2) := by
  intro r div
  have hx : ∀ k l, k < q.Nx - 1 → l < q.Nz - 1 → stretchX q k l = b := by
    intro k l hk hl
    unfold stretchX
    rw [show k + l * q.Nx + 1 + q.Nx = (k + 1) + (l + 1) * q.Nx by ring,
      show k + l * q.Nx + q.Nx = k + (l + 1) * q.Nx by ring,
      hw.u _ _ (by omega) (by omega), hw.u _ _ (by omega) (by omega)]
    simp only [linearFlow, uNode]
    push_cast
    field_simp
    ring
  have hz : ∀ k l, k < q.Nx - 1 → l < q.Nz - 1 → stretchZ q k l = f := by
    intro k l hk hl
    unfold stretchZ
    rw [show k + l * (q.Nx + 1) + q.Nx + 1 + 1 = (k + 1) + (l + 1) * (q.Nx + 1) by ring,
      show k + l * (q.Nx + 1) + 1 = k + 1 + l * (q.Nx + 1) by ring,
      hw.v _ _ (by omega) (by omega), hw.v _ _ (by omega) (by omega)]
    simp only [linearFlow, vNode]
    push_cast
    field_simp
    ring
  have hd : ∀ k l, k < q.Nx - 1 → l < q.Nz - 1 → volRate q k l = div := by
    intro k l hk hl
    unfold volRate
    rw [hx k l hk hl, hz k l hk hl]
    simp only [div]
    split_ifs <;> ring
  have hv : ∀ k l, k < q.Nx → l < q.Nz → RockVertex q k l →
      r.exz (k + l * q.Nx) = (c + e) / 2 ∧ r.wxz (k + l * q.Nx) = (e - c) / 2 := by
    intro k l hk hl hr
    obtain ⟨h1, h2⟩ := vertex_rates q s hk hl hr
    refine ⟨h1.trans ?_, h2.trans ?_⟩ <;>
    · rw [hw.u k (l + 1) hk (by omega), hw.u k l hk (by omega), hw.v (k + 1) l (by omega) hl, hw.v k l (by omega) hl]
      simp only [linearFlow, uNode, vNode]
      push_cast
      field_simp
      ring
  refine ⟨?_, hv⟩
  · intro k l hk hl hr
    obtain ⟨h1, h2, h3⟩ := cell_rates q s hk hl hr
    rw [hx k l hk hl, hd k l hk hl] at h2
    rw [hz k l hk hl, hd k l hk hl] at h3
    exact ⟨h1.trans (hd k l hk hl), h2, h3⟩

/-- Full claim: in a linear flow every rock cell reports the exact shear rate and vorticity.  Proved for
cells whose four corners are rock; `surface_cell_shear_reduced` shows what is missing. -/
theorem cell_shear_exact_partial (xmin zmin a b c d e f : K) (hdx : q.dx ≠ 0) (hdz : q.dz ≠ 0)
    (hw : Sampled xmin zmin q.dx q.dz q.Nx q.Nz (linearFlow a b c d e f) q.u q.v) {k l : Nat} (hk : k < q.Nx - 1)
    (hl : l < q.Nz - 1) (hr : Rock q k l) (h00 : RockVertex q k l) (h10 : RockVertex q (k + 1) l)
    (h01 : RockVertex q k (l + 1)) (h11 : RockVertex q (k + 1) (l + 1)) :
    (strainRates q s).exzN (k + l * (q.Nx - 1)) = (c + e) / 2
    ∧ (strainRates q s).wxzN (k + l * (q.Nx - 1)) = (e - c) / 2 := by
  obtain ⟨_, hv⟩ := linear_flow_exact q s xmin zmin a b c d e f hdx hdz hw
  obtain ⟨h1, h2⟩ := cell_shear q s hk hl hr
  have e1 : k + l * q.Nx + 1 = (k + 1) + l * q.Nx := by ring
  have e2 : k + l * q.Nx + q.Nx = k + (l + 1) * q.Nx := by ring
  have e3 : k + (l + 1) * q.Nx + 1 = (k + 1) + (l + 1) * q.Nx := by ring
  have v00 := hv k l (by omega) (by omega) h00
  have v10 := hv (k + 1) l (by omega) (by omega) h10
  have v01 := hv k (l + 1) (by omega) (by omega) h01
  have v11 := hv (k + 1) (l + 1) (by omega) (by omega) h11
  unfold RockVertex at h00 h10 h01 h11
  refine ⟨h1.trans ?_, h2.trans ?_⟩
  · unfold quarters
    simp only [e2, e1, e3, if_pos h00, if_pos h10, if_pos h01, if_pos h11]
    rw [v00.1, v10.1, v01.1, v11.1]
    ring
  · unfold quarters
    simp only [e2, e1, e3, if_pos h00, if_pos h10, if_pos h01, if_pos h11]
    rw [v00.2, v10.2, v01.2, v11.2]
    ring
/-- In a linear flow a rock vertex whose four cells are rock reports the exact normal rates and divergence,
across a periodic side too. -/
theorem vertex_normal_rates_partial (xmin zmin a b c d e f : K) (hdx : q.dx ≠ 0) (hdz : q.dz ≠ 0) (hx : 2 ≤ q.Nx) (hz : 2 ≤ q.Nz)
    (hw : Sampled xmin zmin q.dx q.dz q.Nx q.Nz (linearFlow a b c d e f) q.u q.v) {k l : Nat} (hk : k < q.Nx)
    (hl : l < q.Nz) (hr : RockVertex q k l) (hc : ∀ p ∈ cellsAt q.per (q.Nx - 1) (q.Nz - 1) k l, Rock q p.1 p.2) :
    let r := strainRates q s
    let div := if q.oop then 3 / 2 * (b + f) else b + f
    r.exxS (k + l * q.Nx) = b - q.comp / 3 * div ∧ r.ezzS (k + l * q.Nx) = f - q.comp / 3 * div
    ∧ r.divS (k + l * q.Nx) = div := by
  obtain ⟨h1, -⟩ := linear_flow_exact q s xmin zmin a b c d e f hdx hdz hw
  have hm := GridField.cellsAt_mem q.per (q.Nx - 1) (q.Nz - 1) k l (by omega) (by omega) (by omega) (by omega)
  have gen : ∀ (x y : Nat → K) (t : K), (∀ p ∈ cellsAt q.per (q.Nx - 1) (q.Nz - 1) k l, x (p.1 + p.2 * (q.Nx - 1)) = t) →
      GridField.centroidsToVertices q.per q.Nx q.Nz q.tagP q.tagG x y (k + l * q.Nx) = t := by
    intro x y t ht
    rw [GridField.centroidsToVertices_spec q.per q.Nx q.Nz hx hz q.tagP q.tagG x y k l hk hl, if_neg hr]
    unfold Rock at hc
    simp only [cellsAt, List.forall_mem_cons] at hc ht
    obtain ⟨r1, r2, r3, r4, _⟩ := hc
    obtain ⟨t1, t2, t3, t4, _⟩ := ht
    simp only [cellsAt, List.map_cons, List.map_nil, List.sum_cons, List.sum_nil, if_neg r1, if_neg r2, if_neg r3, if_neg r4,
      t1, t2, t3, t4]
    ring
  have split : (strainRates q s).exxS = GridField.centroidsToVertices q.per q.Nx q.Nz q.tagP q.tagG (strainRates q s).exx s.exxS
      ∧ (strainRates q s).ezzS = GridField.centroidsToVertices q.per q.Nx q.Nz q.tagP q.tagG (strainRates q s).ezz s.ezzS
      ∧ (strainRates q s).divS = GridField.centroidsToVertices q.per q.Nx q.Nz q.tagP q.tagG (strainRates q s).divu s.divS := by
    rw [strainRates_eq]
    exact ⟨rfl, rfl, rfl⟩
  simp only [split.1, split.2.1, split.2.2]
  exact ⟨gen _ _ _ fun p hp => (h1 p.1 p.2 (hm p hp).1 (hm p hp).2 (hc p hp)).2.1,
    gen _ _ _ fun p hp => (h1 p.1 p.2 (hm p hp).1 (hm p hp).2 (hc p hp)).2.2,
    gen _ _ _ fun p hp => (h1 p.1 p.2 (hm p hp).1 (hm p hp).2 (hc p hp)).1⟩
end

/-! ### Rigid motion goes unnoticed -/

/-- The same input in a frame that moves rigidly: the rigid motion is added to the velocity at every
node. -/
structure Boosted (xmin zmin a d w : K) (q q' : Inp K) : Prop where
  rest : q' = { q with u := q'.u, v := q'.v }
  u : ∀ k l, k < q.Nx → l < q.Nz + 1 → q'.u (k + l * q.Nx) = q.u (k + l * q.Nx)
    + (rigidFlow a d w).vx (uNode xmin zmin q.dx q.dz k l).1 (uNode xmin zmin q.dx q.dz k l).2
  v : ∀ k l, k < q.Nx + 1 → l < q.Nz → q'.v (k + l * (q.Nx + 1)) = q.v (k + l * (q.Nx + 1))
    + (rigidFlow a d w).vz (vNode xmin zmin q.dx q.dz k l).1 (vNode xmin zmin q.dx q.dz k l).2

/-- Adding any rigid motion to any velocity field changes no divergence and no strain rate, in cells or at
vertices, and adds the rate of rotation to the vorticity of every rock vertex. -/
theorem rigid_motion_unnoticed [CharZero K] (q' : Inp K) (xmin zmin a d w : K) (hdx : q.dx ≠ 0) (hdz : q.dz ≠ 0)
    (hb : Boosted xmin zmin a d w q q') :
    let r := strainRates q s
    let r' := strainRates q' s
    r'.divu = r.divu ∧ r'.exx = r.exx ∧ r'.ezz = r.ezz ∧ r'.exz = r.exz ∧ r'.exzN = r.exzN
    ∧ r'.exxS = r.exxS ∧ r'.ezzS = r.ezzS ∧ r'.divS = r.divS
    ∧ ∀ k l, k < q.Nx → l < q.Nz → RockVertex q k l → r'.wxz (k + l * q.Nx) = r.wxz (k + l * q.Nx) + w := by
  obtain ⟨hrest, hu, hv⟩ := hb
  generalize huu : q'.u = u' at hrest hu
  generalize hvv : q'.v = v' at hrest hv
  subst hrest
  have hX : ∀ c, c < (q.Nx - 1) * (q.Nz - 1) →
      stretchX { q with u := u', v := v' } (c % (q.Nx - 1)) (c / (q.Nx - 1)) = stretchX q (c % (q.Nx - 1)) (c / (q.Nx - 1)) := by
    intro c hc
    have hN : 0 < q.Nx - 1 := Nat.pos_of_ne_zero fun h => by rw [h, Nat.zero_mul] at hc; omega
    have hk := Nat.mod_lt c hN
    have hl : c / (q.Nx - 1) < q.Nz - 1 := Nat.div_lt_of_lt_mul hc
    generalize c % (q.Nx - 1) = k at *
    generalize c / (q.Nx - 1) = l at *
    unfold stretchX
    simp only
    rw [show k + l * q.Nx + 1 + q.Nx = (k + 1) + (l + 1) * q.Nx by ring,
      show k + l * q.Nx + q.Nx = k + (l + 1) * q.Nx by ring, hu _ _ (by omega) (by omega), hu _ _ (by omega) (by omega)]
    simp only [rigidFlow, uNode]
    ring
  have hZ : ∀ c, c < (q.Nx - 1) * (q.Nz - 1) →
      stretchZ { q with u := u', v := v' } (c % (q.Nx - 1)) (c / (q.Nx - 1)) = stretchZ q (c % (q.Nx - 1)) (c / (q.Nx - 1)) := by
    intro c hc
    have hN : 0 < q.Nx - 1 := Nat.pos_of_ne_zero fun h => by rw [h, Nat.zero_mul] at hc; omega
    have hk := Nat.mod_lt c hN
    have hl : c / (q.Nx - 1) < q.Nz - 1 := Nat.div_lt_of_lt_mul hc
    generalize c % (q.Nx - 1) = k at *
    generalize c / (q.Nx - 1) = l at *
    unfold stretchZ
    simp only
    rw [show k + l * (q.Nx + 1) + q.Nx + 1 + 1 = (k + 1) + (l + 1) * (q.Nx + 1) by ring,
      show k + l * (q.Nx + 1) + 1 = k + 1 + l * (q.Nx + 1) by ring, hv _ _ (by omega) (by omega), hv _ _ (by omega) (by omega)]
    simp only [rigidFlow, vNode]
    ring
  have hV : ∀ c, c < (q.Nx - 1) * (q.Nz - 1) →
      volRate { q with u := u', v := v' } (c % (q.Nx - 1)) (c / (q.Nx - 1)) = volRate q (c % (q.Nx - 1)) (c / (q.Nx - 1)) := by
    intro c hc
    unfold volRate
    rw [hX c hc, hZ c hc]
  have key : ∀ (n : Nat) (x : Nat → K) (g g' : Nat → K), (∀ c, c < n → g c = g' c) → filled n x g = filled n x g' := by
    intro n x g g' h
    funext c
    unfold filled
    split_ifs with hc
    · exact h c hc
    · rfl
  have hdu : (strainRates { q with u := u', v := v' } s).divu = (strainRates q s).divu := by
    rw [strainRates_eq, strainRates_eq]
    exact key _ _ _ _ fun c hc => by simp only [hV c hc]
  have hex : (strainRates { q with u := u', v := v' } s).exx = (strainRates q s).exx := by
    rw [strainRates_eq, strainRates_eq]
    exact key _ _ _ _ fun c hc => by simp only [hV c hc, hX c hc]
  have hez : (strainRates { q with u := u', v := v' } s).ezz = (strainRates q s).ezz := by
    rw [strainRates_eq, strainRates_eq]
    exact key _ _ _ _ fun c hc => by simp only [hV c hc, hZ c hc]
  have hS : (strainRates { q with u := u', v := v' } s).exz = (strainRates q s).exz := by
    rw [strainRates_eq, strainRates_eq]
    refine key _ _ _ _ fun c hc => ?_
    have hN : 0 < q.Nx := Nat.pos_of_ne_zero fun h => by rw [h, Nat.zero_mul] at hc; omega
    have hk := Nat.mod_lt c hN
    have hl : c / q.Nx < q.Nz := Nat.div_lt_of_lt_mul hc
    have hci := idx c q.Nx
    generalize c % q.Nx = k at *
    generalize c / q.Nx = l at *
    subst hci
    simp only
    rw [show k + l * q.Nx + q.Nx = k + (l + 1) * q.Nx by ring, show k + l * (q.Nx + 1) + 1 = k + 1 + l * (q.Nx + 1) by ring,
      hu _ _ (by omega) (by omega), hu _ _ (by omega) (by omega), hv _ _ (by omega) (by omega), hv _ _ (by omega) (by omega)]
    simp only [rigidFlow, uNode, vNode]
    split_ifs
    · push_cast
      field_simp
      ring
    · rfl
  refine ⟨hdu, hex, hez, hS, ?_, ?_, ?_, ?_, ?_⟩
  · have h2 := hS
    rw [strainRates_eq, strainRates_eq] at h2
    rw [strainRates_eq, strainRates_eq]
    simp only at h2 ⊢
    rw [h2]
    rfl
  · have h2 := hex
    rw [strainRates_eq, strainRates_eq] at h2
    rw [strainRates_eq, strainRates_eq]
    simp only at h2 ⊢
    rw [h2]
  · have h2 := hez
    rw [strainRates_eq, strainRates_eq] at h2
    rw [strainRates_eq, strainRates_eq]
    simp only at h2 ⊢
    rw [h2]
  · have h2 := hdu
    rw [strainRates_eq, strainRates_eq] at h2
    rw [strainRates_eq, strainRates_eq]
    simp only at h2 ⊢
    rw [h2]
  · intro k l hk hl hr
    rw [(vertex_rates q s hk hl hr).2]
    refine (vertex_rates { q with u := u', v := v' } s hk hl hr).2.trans ?_
    simp only
    rw [hu _ _ (by omega) (by omega), hu _ _ (by omega) (by omega), hv _ _ (by omega) (by omega), hv _ _ (by omega) (by omega)]
    simp only [rigidFlow, uNode, vNode]
    push_cast
    field_simp
    ring

/-! ### The deviator is a deviator -/

/-- With the compressible option the three normal rates of a rock cell, the one across the plane being
`dvydy - div/3`, add up to zero for every velocity field; without it they are the total rates and add up
to the divergence. -/
theorem normal_rates_trace [CharZero K] {k l : Nat} (hk : k < q.Nx - 1) (hl : l < q.Nz - 1) (hr : Rock q k l) :
    let r := strainRates q s
    let c := k + l * (q.Nx - 1)
    let across := if q.oop then r.divu c / 3 else 0
    (q.comp = 1 → r.exx c + r.ezz c + (across - r.divu c / 3) = 0)
    ∧ (q.comp = 0 → r.exx c + r.ezz c + across = r.divu c) := by
  obtain ⟨h1, h2, h3⟩ := cell_rates q s hk hl hr
  simp only [h1, h2, h3]
  unfold volRate
  constructor <;>
  · intro hc
    rw [hc]
    split_ifs <;> ring

/-! ### Where the shear rate of a cell is wrong -/

/-- A rock cell with one air corner in a uniform simple shear reports three quarters of the shear rate. -/
theorem surface_cell_shear_reduced [CharZero K] (xmin zmin c : K) (hdx : q.dx ≠ 0) (hdz : q.dz ≠ 0)
    (hw : Sampled xmin zmin q.dx q.dz q.Nx q.Nz (linearFlow 0 0 c 0 0 0) q.u q.v) {k l : Nat} (hk : k < q.Nx - 1)
    (hl : l < q.Nz - 1) (hr : Rock q k l) (h00 : RockVertex q k l) (h10 : RockVertex q (k + 1) l)
    (h01 : RockVertex q k (l + 1)) (h11 : ¬ RockVertex q (k + 1) (l + 1)) :
    (strainRates q s).exzN (k + l * (q.Nx - 1)) = 3 / 4 * (c / 2) := by
  obtain ⟨_, hv⟩ := linear_flow_exact q s xmin zmin 0 0 c 0 0 0 hdx hdz hw
  have e1 : k + l * q.Nx + 1 = (k + 1) + l * q.Nx := by ring
  have e2 : k + l * q.Nx + q.Nx = k + (l + 1) * q.Nx := by ring
  have e3 : k + (l + 1) * q.Nx + 1 = (k + 1) + (l + 1) * q.Nx := by ring
  have v00 := hv k l (by omega) (by omega) h00
  have v10 := hv (k + 1) l (by omega) (by omega) h10
  have v01 := hv k (l + 1) (by omega) (by omega) h01
  rw [(cell_shear q s hk hl hr).1]
  unfold RockVertex at h00 h10 h01 h11
  unfold quarters
  simp only [e2, e1, e3, if_pos h00, if_pos h10, if_pos h01, if_neg h11]
  rw [v00.1, v10.1, v01.1]
  ring

/-! ### Concrete cases -/

/-- A box of two by two cells; the vertex in the middle of the top is air. -/
def demo : Inp ℚ where
  Nx := 3
  Nz := 3
  dx := 2
  dz := 1
  comp := 1
  oop := false
  per := false
  tagP := fun _ => -1
  tagG := fun c => if c = 7 then 30 else -1
  u := fun c => 5 - 3 * (c % 3 : Nat) * 2 + 4 * ((c / 3 : Nat) - 1 / 2)
  v := fun c => 1 + 6 * ((c % 4 : Nat) - 1 / 2) * 2 + 2 * (c / 4 : Nat)

/-- The hypotheses of the theorems above are met. -/
theorem demo_sampled : Sampled 0 0 demo.dx demo.dz demo.Nx demo.Nz (linearFlow 5 (-3) 4 1 6 2) demo.u demo.v where
  u := by
    intro k l hk hl
    have h1 : (k + l * 3) % 3 = k := by simp only [demo] at hk; omega
    have h2 : (k + l * 3) / 3 = l := by simp only [demo] at hk; omega
    simp only [demo, linearFlow, uNode, h1, h2]
    ring
  v := by
    intro k l hk hl
    have h1 : (k + l * 4) % 4 = k := by simp only [demo] at hk; omega
    have h2 : (k + l * 4) / 4 = l := by simp only [demo] at hk; omega
    simp only [demo, linearFlow, vNode, h1, h2]
    ring

example : (0 : Nat) < demo.Nx - 1 ∧ Rock demo 0 0 ∧ RockVertex demo 0 0 ∧ RockVertex demo 1 0 ∧ RockVertex demo 0 1
    ∧ RockVertex demo 1 1 ∧ ¬ RockVertex demo 1 2 := by decide +kernel

/-- Cell (0,0) sees a stretching of -3 and 2, a shear rate of 5 and a rotation of 1. -/
example (s : Rates ℚ) : (strainRates demo s).divu 0 = -1 ∧ (strainRates demo s).exx 0 = -3 + 1 / 3
    ∧ (strainRates demo s).exzN 0 = 5 ∧ (strainRates demo s).wxzN 0 = 1 := by
  obtain ⟨h1, -⟩ := linear_flow_exact demo s 0 0 5 (-3) 4 1 6 2 (by decide) (by decide) demo_sampled
  have a := h1 0 0 (by decide) (by decide) (by decide)
  have b := cell_shear_exact_partial demo s 0 0 5 (-3) 4 1 6 2 (by decide) (by decide) demo_sampled (k := 0) (l := 0)
    (by decide) (by decide) (by decide) (by decide) (by decide) (by decide) (by decide)
  refine ⟨a.1.trans ?_, a.2.1.trans ?_, b.1.trans ?_, b.2.trans ?_⟩ <;> norm_num [demo]

/-- All cells around the middle vertex of `demo` are rock. -/
example : ∀ p ∈ cellsAt demo.per (demo.Nx - 1) (demo.Nz - 1) 1 1, Rock demo p.1 p.2 := by decide +kernel

/-- A spinning frame for the same box. -/
example : Boosted 0 0 7 8 (1 / 3) demo { demo with
    u := fun c => demo.u c + (7 - 1 / 3 * ((c / 3 : Nat) - 1 / 2))
    v := fun c => demo.v c + (8 + 1 / 3 * (((c % 4 : Nat) - 1 / 2) * 2)) } where
  rest := rfl
  u := by
    intro k l hk hl
    have h2 : (k + l * 3) / 3 = l := by simp only [demo] at hk; omega
    simp only [rigidFlow, uNode, demo, h2]
    ring
  v := by
    intro k l hk hl
    have h1 : (k + l * 4) % 4 = k := by simp only [demo] at hk; omega
    simp only [rigidFlow, vNode, demo, h1]
    ring

/-- The reduced shear rate is reached: box in simple shear with an air vertex. -/
example : ∃ q : Inp ℚ, Sampled 0 0 q.dx q.dz q.Nx q.Nz (linearFlow 0 0 4 0 0 0) q.u q.v ∧ Rock q 0 1 ∧ RockVertex q 0 1
    ∧ RockVertex q 1 1 ∧ RockVertex q 0 2 ∧ ¬ RockVertex q 1 2 ∧ 0 < q.Nx - 1 ∧ 1 < q.Nz - 1 :=
  ⟨{ demo with u := fun c => 4 * ((c / 3 : Nat) - 1 / 2), v := fun _ => 0 },
    { u := by
        intro k l hk hl
        have h2 : (k + l * 3) / 3 = l := by simp only [demo] at hk; omega
        simp only [demo, linearFlow, uNode, h2]
        ring
      v := by
        intro k l _ _
        simp only [linearFlow]
        ring }, by decide +kernel⟩

end Verif.Kin
