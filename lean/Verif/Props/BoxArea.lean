import Verif.Props.MovingBox
import Mathlib.Algebra.BigOperators.Group.List.Basic
import Mathlib.Algebra.Order.Ring.Pow
import Mathlib.Algebra.BigOperators.Ring.Finset
import Mathlib.Algebra.BigOperators.Group.Finset.Basic

/-
C171: the area of a box whose sides move with an incompressible flow.  Model: `Verif.Setup.pureShearALE`
(/repo/MDLIB/AdvectionRoutines.c:408-507), called once per (sub)step (/repo/MDLIB/Main_DOODZ.c:1045-1047).
-/
set_option linter.unusedSectionVars false
namespace Verif.BoxArea
open Verif Moving

variable {K : Type*} [Field K] [LinearOrder K] [IsStrictOrderedRing K] [FloorRing K]

/-- Area of the model box. -/
def Spec.area (b : Setup.Box K) : K := (b.xmax - b.xmin) * (b.zmax - b.zmin)

/-- The sides of the box take in as much as they give out: what an incompressible flow does. -/
def Spec.Balanced (b : Setup.Box K) (west east south north : K) : Prop :=
  (east - west) * (b.zmax - b.zmin) + (north - south) * (b.xmax - b.xmin) = 0

/-- The box after the sides have moved in a number of steps, each with its own velocities (solved anew in the box of that time) and length. -/
def boxAfter (Nx Nz : Nat) : List (K × K × Setup.Sides K) → Setup.Box K → Setup.Box K
  | [], b => b
  | (_, dt, s) :: rest, b => boxAfter Nx Nz rest (Setup.pureShearALE Nx Nz dt false false 0 0 0 s b)

/-- In every step the body is in pure shear, at the rate of that step, in the box of that time. -/
def Spec.AlwaysPureShear (Nx Nz : Nat) : List (K × K × Setup.Sides K) → Setup.Box K → Prop
  | [], _ => True
  | (eps, dt, s) :: rest, b => InPureShear Nx Nz eps b s ∧ Spec.AlwaysPureShear Nx Nz rest (Setup.pureShearALE Nx Nz dt false false 0 0 0 s b)

/-- C171 (any flow).  If the mean velocities of the sides are balanced, the step changes the area by minus the square of the relative change of the width: the area never grows, and shrinks whenever the width changes. -/
theorem area_of_step (Nx Nz : Nat) (dt : K) (s : Setup.Sides K) (b : Setup.Box K) (w : b.xmin < b.xmax) (h : b.zmin < b.zmax)
    (bal : Spec.Balanced b (Setup.meanOver Nz (fun j => 0 + j * Nx) (fun c => decide (s.tu c = 0)) s.u) (Setup.meanOver Nz (fun j => (Nx - 1) + j * Nx) (fun c => decide (s.tu c = 0)) s.u)
      (Setup.meanOver Nx (fun i => i + 0 * (Nx + 1)) (fun c => decide (s.tv c = 0)) s.v) (Setup.meanOver Nx (fun i => i + (Nz - 1) * (Nx + 1)) (fun c => decide (s.tv c = 0 ∨ s.tv c = 30)) s.v)) :
    let b' := Setup.pureShearALE Nx Nz dt false false 0 0 0 s b
    Spec.area b' = Spec.area b * (1 - ((b'.xmax - b'.xmin) / (b.xmax - b.xmin) - 1) ^ 2) ∧ Spec.area b' ≤ Spec.area b ∧ (b'.xmax - b'.xmin ≠ b.xmax - b.xmin → Spec.area b' < Spec.area b) := by
  unfold Spec.Balanced at bal
  have key : let b' := Setup.pureShearALE Nx Nz dt false false 0 0 0 s b
      Spec.area b' = Spec.area b * (1 - ((b'.xmax - b'.xmin) / (b.xmax - b.xmin) - 1) ^ 2) := by
    simp only [Spec.area, Setup.pureShearALE, Bool.false_eq_true, if_false]
    generalize Setup.meanOver Nz (fun j => 0 + j * Nx) (fun c => decide (s.tu c = 0)) s.u = p at *
    generalize Setup.meanOver Nz (fun j => (Nx - 1) + j * Nx) (fun c => decide (s.tu c = 0)) s.u = q at *
    generalize Setup.meanOver Nx (fun i => i + 0 * (Nx + 1)) (fun c => decide (s.tv c = 0)) s.v = r at *
    generalize Setup.meanOver Nx (fun i => i + (Nz - 1) * (Nx + 1)) (fun c => decide (s.tv c = 0 ∨ s.tv c = 30)) s.v = t at *
    have W : b.xmax - b.xmin ≠ 0 := by intro e; linarith
    have ed : (b.xmax + q * dt - (b.xmin + p * dt)) / (b.xmax - b.xmin) - 1 = (q - p) * dt / (b.xmax - b.xmin) := by field_simp; ring
    rw [ed]
    have n : (t - r) = -((q - p) * (b.zmax - b.zmin)) / (b.xmax - b.xmin) := by rw [eq_div_iff W]; linarith
    have l : b.zmax + t * dt - (b.zmin + r * dt) = (b.zmax - b.zmin) + (t - r) * dt := by ring
    rw [l, n]
    field_simp
    ring
  have A : 0 < Spec.area b := mul_pos (by linarith) (by linarith)
  intro b'
  have e : Spec.area b' = _ := key
  refine ⟨e, ?_, fun hne => ?_⟩
  · rw [e]
    have := sq_nonneg ((b'.xmax - b'.xmin) / (b.xmax - b.xmin) - 1)
    nlinarith
  · rw [e]
    have W : 0 < b.xmax - b.xmin := by linarith
    have : (b'.xmax - b'.xmin) / (b.xmax - b.xmin) - 1 ≠ 0 := by
      intro z
      have : (b'.xmax - b'.xmin) / (b.xmax - b.xmin) = 1 := by linarith
      exact hne ((div_eq_one_iff_eq W.ne').mp this)
    have := pow_pos (abs_pos.mpr this) 2
    rw [sq_abs] at this
    nlinarith

/-- No cell gains or loses volume: the discrete divergence of every cell vanishes. -/
def Spec.Incompressible (Nx Nz : Nat) (b : Setup.Box K) (s : Setup.Sides K) : Prop :=
  ∀ k < Nx - 1, ∀ l < Nz - 1,
    (s.u (k + 1 + (l + 1) * Nx) - s.u (k + (l + 1) * Nx)) / ((b.xmax - b.xmin) / ((Nx : K) - 1))
      + (s.v (k + 1 + (l + 1) * (Nx + 1)) - s.v (k + 1 + l * (Nx + 1))) / ((b.zmax - b.zmin) / ((Nz : K) - 1)) = 0

/-- Velocities are prescribed on the faces of the cells at the four sides, and not in the rows and columns outside the box. -/
structure Spec.SidesPrescribed (Nx Nz : Nat) (s : Setup.Sides K) : Prop where
  west : ∀ l < Nz - 1, s.tu (0 + (l + 1) * Nx) = 0
  east : ∀ l < Nz - 1, s.tu ((Nx - 1) + (l + 1) * Nx) = 0
  south : ∀ k < Nx - 1, s.tv (k + 1 + 0 * (Nx + 1)) = 0
  north : ∀ k < Nx - 1, s.tv (k + 1 + (Nz - 1) * (Nx + 1)) = 0
  outU : s.tu (0 + 0 * Nx) ≠ 0 ∧ s.tu ((Nx - 1) + 0 * Nx) ≠ 0
  outV : s.tv (0 + 0 * (Nx + 1)) ≠ 0 ∧ s.tv (0 + (Nz - 1) * (Nx + 1)) ≠ 0 ∧ s.tv (0 + (Nz - 1) * (Nx + 1)) ≠ 30

private theorem mean_inner (n : Nat) (hn : 1 ≤ n) (idx : Nat → Nat) (ok : Nat → Bool) (v : Nat → K) (h0 : ok (idx 0) = false) (h1 : ∀ i < n, ok (idx (i + 1)) = true) :
    Setup.meanOver (n + 1) idx ok v = (∑ i ∈ Finset.range n, v (idx (i + 1))) / n := by
  have key : ∀ m ≤ n, forUp (m + 1) ((0 : K), (0 : Nat)) (fun s i => if ok (idx i) then (s.1 + v (idx i), s.2 + 1) else s) = (∑ i ∈ Finset.range m, v (idx (i + 1)), m) := by
    intro m
    induction m with
    | zero => intro _; simp [forUp_succ, h0]
    | succ m ih =>
      intro hm
      rw [forUp_succ, ih (by omega)]
      simp only [h1 m (by omega), if_true, Finset.sum_range_succ]
  unfold Setup.meanOver
  rw [key n le_rfl]
  simp only
  rw [if_pos (by omega)]

/-- The flow of an incompressible body is balanced at the sides in the sense of `Balanced`, with the means `PureShearALE` takes: the discrete divergence theorem. -/
theorem incompressible_balanced {Nx Nz : Nat} (hx : 2 ≤ Nx) (hz : 2 ≤ Nz) (s : Setup.Sides K) (b : Setup.Box K) (w : b.xmin < b.xmax) (h : b.zmin < b.zmax) (inc : Spec.Incompressible Nx Nz b s) (p : Spec.SidesPrescribed Nx Nz s) :
    Spec.Balanced b (Setup.meanOver Nz (fun j => 0 + j * Nx) (fun c => decide (s.tu c = 0)) s.u) (Setup.meanOver Nz (fun j => (Nx - 1) + j * Nx) (fun c => decide (s.tu c = 0)) s.u)
      (Setup.meanOver Nx (fun i => i + 0 * (Nx + 1)) (fun c => decide (s.tv c = 0)) s.v) (Setup.meanOver Nx (fun i => i + (Nz - 1) * (Nx + 1)) (fun c => decide (s.tv c = 0 ∨ s.tv c = 30)) s.v) := by
  obtain ⟨nx, rfl⟩ : ∃ n, Nx = n + 1 := ⟨Nx - 1, by omega⟩
  obtain ⟨nz, rfl⟩ : ∃ n, Nz = n + 1 := ⟨Nz - 1, by omega⟩
  simp only [Nat.add_sub_cancel] at *
  have W := mean_inner nz (by omega) (fun j => 0 + j * (nx + 1)) (fun c => decide (s.tu c = 0)) s.u (by simpa using p.outU.1) (fun i hi => by simpa using p.west i hi)
  have E := mean_inner nz (by omega) (fun j => nx + j * (nx + 1)) (fun c => decide (s.tu c = 0)) s.u (by simpa using p.outU.2) (fun i hi => by simpa using p.east i hi)
  have S := mean_inner nx (by omega) (fun i => i + 0 * (nx + 1 + 1)) (fun c => decide (s.tv c = 0)) s.v (by simpa using p.outV.1) (fun i hi => by simpa using p.south i hi)
  have N := mean_inner nx (by omega) (fun i => i + nz * (nx + 1 + 1)) (fun c => decide (s.tv c = 0 ∨ s.tv c = 30)) s.v (by simpa using p.outV.2) (fun i hi => decide_eq_true (Or.inl (by simpa using p.north i hi)))
  rw [W, E, S, N]
  have x0 : (0 : K) < nx := by exact_mod_cast (by omega : 0 < nx)
  have z0 : (0 : K) < nz := by exact_mod_cast (by omega : 0 < nz)
  unfold Spec.Incompressible at inc
  simp only [Nat.add_sub_cancel, Nat.cast_add, Nat.cast_one, add_sub_cancel_right] at inc
  have W0 : 0 < b.xmax - b.xmin := by linarith
  have H0 : 0 < b.zmax - b.zmin := by linarith
  have cell : ∀ l ∈ Finset.range nz, ∀ k ∈ Finset.range nx,
      (s.u (k + 1 + (l + 1) * (nx + 1)) - s.u (k + (l + 1) * (nx + 1))) * ((b.zmax - b.zmin) / nz) + (s.v (k + 1 + (l + 1) * (nx + 1 + 1)) - s.v (k + 1 + l * (nx + 1 + 1))) * ((b.xmax - b.xmin) / nx) = 0 := by
    intro l hl k hk
    have := inc k (Finset.mem_range.mp hk) l (Finset.mem_range.mp hl)
    have d1 : (b.xmax - b.xmin) / (nx : K) ≠ 0 := (div_pos W0 x0).ne'
    have d2 : (b.zmax - b.zmin) / (nz : K) ≠ 0 := (div_pos H0 z0).ne'
    generalize (b.xmax - b.xmin) / (nx : K) = dx at *
    generalize (b.zmax - b.zmin) / (nz : K) = dz at *
    field_simp at this
    linarith
  have tot : ∑ l ∈ Finset.range nz, ∑ k ∈ Finset.range nx, ((s.u (k + 1 + (l + 1) * (nx + 1)) - s.u (k + (l + 1) * (nx + 1))) * ((b.zmax - b.zmin) / nz) + (s.v (k + 1 + (l + 1) * (nx + 1 + 1)) - s.v (k + 1 + l * (nx + 1 + 1))) * ((b.xmax - b.xmin) / nx)) = 0 :=
    Finset.sum_eq_zero fun l hl => Finset.sum_eq_zero fun k hk => cell l hl k hk
  simp only [Finset.sum_add_distrib] at tot
  have rows : ∑ l ∈ Finset.range nz, ∑ k ∈ Finset.range nx, (s.u (k + 1 + (l + 1) * (nx + 1)) - s.u (k + (l + 1) * (nx + 1))) * ((b.zmax - b.zmin) / nz)
      = (∑ l ∈ Finset.range nz, s.u (nx + (l + 1) * (nx + 1)) - ∑ l ∈ Finset.range nz, s.u (0 + (l + 1) * (nx + 1))) * ((b.zmax - b.zmin) / nz) := by
    rw [← Finset.sum_sub_distrib, Finset.sum_mul]
    refine Finset.sum_congr rfl fun l _ => ?_
    rw [← Finset.sum_mul, Finset.sum_range_sub (fun k => s.u (k + (l + 1) * (nx + 1)))]
  have cols : ∑ l ∈ Finset.range nz, ∑ k ∈ Finset.range nx, (s.v (k + 1 + (l + 1) * (nx + 1 + 1)) - s.v (k + 1 + l * (nx + 1 + 1))) * ((b.xmax - b.xmin) / nx)
      = (∑ k ∈ Finset.range nx, s.v (k + 1 + nz * (nx + 1 + 1)) - ∑ k ∈ Finset.range nx, s.v (k + 1 + 0 * (nx + 1 + 1))) * ((b.xmax - b.xmin) / nx) := by
    rw [Finset.sum_comm, ← Finset.sum_sub_distrib, Finset.sum_mul]
    refine Finset.sum_congr rfl fun k _ => ?_
    rw [← Finset.sum_mul, Finset.sum_range_sub (fun l => s.v (k + 1 + l * (nx + 1 + 1)))]
  rw [rows, cols] at tot
  unfold Spec.Balanced
  linear_combination tot

/-- C171 (negation, any incompressible flow).  Whatever the flow, if no cell gains or loses volume the box loses area in every step that changes its width, and never gains any. -/
theorem incompressible_loses_area {Nx Nz : Nat} (hx : 2 ≤ Nx) (hz : 2 ≤ Nz) (dt : K) (s : Setup.Sides K) (b : Setup.Box K) (w : b.xmin < b.xmax) (h : b.zmin < b.zmax) (inc : Spec.Incompressible Nx Nz b s) (p : Spec.SidesPrescribed Nx Nz s) :
    let b' := Setup.pureShearALE Nx Nz dt false false 0 0 0 s b
    Spec.area b' ≤ Spec.area b ∧ (b'.xmax - b'.xmin ≠ b.xmax - b.xmin → Spec.area b' < Spec.area b) :=
  (area_of_step Nx Nz dt s b w h (incompressible_balanced hx hz s b w h inc p)).2

/-- In every step the flow is incompressible in the box of that time, with prescribed sides, and the box has not been turned inside out. -/
def Spec.AlwaysIncompressible (Nx Nz : Nat) : List (K × K × Setup.Sides K) → Setup.Box K → Prop
  | [], _ => True
  | (_, dt, s) :: rest, b => (b.xmin < b.xmax ∧ b.zmin < b.zmax ∧ Spec.Incompressible Nx Nz b s ∧ Spec.SidesPrescribed Nx Nz s) ∧ Spec.AlwaysIncompressible Nx Nz rest (Setup.pureShearALE Nx Nz dt false false 0 0 0 s b)

/-- C171 (negation, any history).  Over any number of steps of incompressible flows, however different, the box never gains area, and it has less than at first as soon as its width is another one. -/
theorem incompressible_history_loses_area {Nx Nz : Nat} (hx : 2 ≤ Nx) (hz : 2 ≤ Nz) (L : List (K × K × Setup.Sides K)) (b : Setup.Box K) (h : Spec.AlwaysIncompressible Nx Nz L b) :
    Spec.area (boxAfter Nx Nz L b) ≤ Spec.area b ∧ ((boxAfter Nx Nz L b).xmax - (boxAfter Nx Nz L b).xmin ≠ b.xmax - b.xmin → Spec.area (boxAfter Nx Nz L b) < Spec.area b) := by
  induction L generalizing b with
  | nil => exact ⟨le_rfl, fun e => absurd rfl e⟩
  | cons q rest ih =>
    obtain ⟨eps, dt, s⟩ := q
    obtain ⟨⟨w, g, inc, p⟩, h2⟩ := h
    obtain ⟨i1, i2⟩ := ih _ h2
    obtain ⟨s1, s2⟩ := incompressible_loses_area hx hz dt s b w g inc p
    refine ⟨le_trans i1 s1, fun hne => ?_⟩
    by_cases c : (Setup.pureShearALE Nx Nz dt false false 0 0 0 s b).xmax - (Setup.pureShearALE Nx Nz dt false false 0 0 0 s b).xmin = b.xmax - b.xmin
    · exact lt_of_lt_of_le (i2 (by rw [c]; exact hne)) s1
    · exact lt_of_le_of_lt i1 (s2 c)

/-- C171 (pure shear).  After any number of steps the area is the first area times one minus the square of the strain of each step. -/
theorem area_in_pure_shear {Nx Nz : Nat} (hx : 2 ≤ Nx) (hz : 2 ≤ Nz) (L : List (K × K × Setup.Sides K)) (b : Setup.Box K) (h : Spec.AlwaysPureShear Nx Nz L b) :
    Spec.area (boxAfter Nx Nz L b) = Spec.area b * (L.map fun q => 1 - (q.1 * q.2.1) ^ 2).prod := by
  induction L generalizing b with
  | nil => simp [boxAfter]
  | cons q rest ih =>
    obtain ⟨eps, dt, s⟩ := q
    obtain ⟨h1, h2⟩ := h
    have e := ih _ h2
    obtain ⟨e1, e2, e3, e4⟩ := sides_move hx hz h1 ⟨0, 0, fun _ => 0, fun _ => 0, fun _ => 0, fun _ => 0, fun _ => 0, fun _ => 0, fun _ => 0, fun _ => 0⟩ ⟨0, 0, 0, 0, 0⟩ (dt := dt)
    change (Setup.pureShearALE Nx Nz dt false false 0 0 0 s b).xmin = _ at e1
    change (Setup.pureShearALE Nx Nz dt false false 0 0 0 s b).xmax = _ at e2
    change (Setup.pureShearALE Nx Nz dt false false 0 0 0 s b).zmin = _ at e3
    change (Setup.pureShearALE Nx Nz dt false false 0 0 0 s b).zmax = _ at e4
    show Spec.area (boxAfter Nx Nz rest (Setup.pureShearALE Nx Nz dt false false 0 0 0 s b)) = _
    rw [e]
    simp only [List.map_cons, List.prod_cons, Spec.area, e1, e2, e3, e4]
    ring

/-- C171 (negation).  A body in pure shear loses area: after any number of steps that each strain it by less than its size, at least one of them not at rest, the box is smaller than at first. -/
theorem area_is_lost {Nx Nz : Nat} (hx : 2 ≤ Nx) (hz : 2 ≤ Nz) (L : List (K × K × Setup.Sides K)) (b : Setup.Box K) (h : Spec.AlwaysPureShear Nx Nz L b) (w : b.xmin < b.xmax) (g : b.zmin < b.zmax)
    (small : ∀ q ∈ L, |q.1 * q.2.1| < 1) (moves : ∃ q ∈ L, q.1 * q.2.1 ≠ 0) : Spec.area (boxAfter Nx Nz L b) < Spec.area b := by
  have A : 0 < Spec.area b := mul_pos (by linarith) (by linarith)
  have P : ∀ M : List (K × K × Setup.Sides K), (∀ q ∈ M, |q.1 * q.2.1| < 1) → (0 < (M.map fun q => 1 - (q.1 * q.2.1) ^ 2).prod ∧ (M.map fun q => 1 - (q.1 * q.2.1) ^ 2).prod ≤ 1) ∧ ((∃ q ∈ M, q.1 * q.2.1 ≠ 0) → (M.map fun q => 1 - (q.1 * q.2.1) ^ 2).prod < 1) := by
    intro M
    induction M with
    | nil => intro _; simp
    | cons q rest ih =>
      intro hq
      obtain ⟨⟨i0, i1⟩, i2⟩ := ih fun p hp => hq p (List.mem_cons_of_mem _ hp)
      have s1 : (q.1 * q.2.1) ^ 2 < 1 := by
        have := hq q List.mem_cons_self
        exact (sq_lt_one_iff_abs_lt_one _).mpr this
      have s0 := sq_nonneg (q.1 * q.2.1)
      simp only [List.map_cons, List.prod_cons]
      refine ⟨⟨mul_pos (by linarith) i0, mul_le_one₀ (by linarith) i0.le i1⟩, ?_⟩
      rintro ⟨p, hp, hne⟩
      rcases List.mem_cons.mp hp with rfl | hp
      · have : 0 < (p.1 * p.2.1) ^ 2 := by positivity
        nlinarith
      · have := i2 ⟨p, hp, hne⟩
        nlinarith
  rw [area_in_pure_shear hx hz L b h]
  have := (P L small).2 moves
  nlinarith

/-- C171 (how much).  Of a strain `T` in all, divided into `n` equal steps, the area lost is at most the part `T^2 / n`. -/
theorem area_loss_bound {Nx Nz : Nat} (hx : 2 ≤ Nx) (hz : 2 ≤ Nz) (L : List (K × K × Setup.Sides K)) (b : Setup.Box K) (h : Spec.AlwaysPureShear Nx Nz L b) (w : b.xmin < b.xmax) (g : b.zmin < b.zmax)
    (T : K) (hn : L ≠ []) (eq : ∀ q ∈ L, q.1 * q.2.1 = T / L.length) (small : |T| ≤ L.length) :
    Spec.area b * (1 - T ^ 2 / L.length) ≤ Spec.area (boxAfter Nx Nz L b) := by
  have A : 0 < Spec.area b := mul_pos (by linarith) (by linarith)
  have n0 : (0 : K) < L.length := by exact_mod_cast List.length_pos_iff.mpr hn
  rw [area_in_pure_shear hx hz L b h]
  have e : (L.map fun q => 1 - (q.1 * q.2.1) ^ 2) = List.replicate L.length (1 - (T / L.length) ^ 2) := by
    rw [← List.map_const']
    exact List.map_congr_left fun q hq => by rw [eq q hq]
  rw [e, List.prod_replicate]
  refine mul_le_mul_of_nonneg_left ?_ A.le
  have t1 : (T / L.length) ^ 2 ≤ 1 := by
    rw [sq_le_one_iff_abs_le_one, abs_div, abs_of_pos n0, div_le_one n0]; exact small
  have B := one_add_mul_le_pow (a := -(T / (L.length : K)) ^ 2) (by linarith) L.length
  have r : 1 + (L.length : K) * (-(T / L.length) ^ 2) = 1 - T ^ 2 / L.length := by field_simp; ring
  rw [r] at B
  have r' : 1 + -(T / (L.length : K)) ^ 2 = 1 - (T / L.length) ^ 2 := by ring
  rw [r'] at B
  exact B

/-- Velocities and tags of pure shear exist in every box. -/
def shearSides (Nx Nz : Nat) (eps : K) (b : Setup.Box K) : Setup.Sides K :=
  ⟨fun _ => 0, fun i => -eps * (b.xmin + ((i % Nx : Nat) : K) * ((b.xmax - b.xmin) / ((Nx : K) - 1))), fun _ => 0,
    fun i => eps * (b.zmin + ((i / (Nx + 1) : Nat) : K) * ((b.zmax - b.zmin) / ((Nz : K) - 1))), fun _ => 0⟩

theorem shear_sides {Nx Nz : Nat} (eps : K) (b : Setup.Box K) : InPureShear Nx Nz eps b (shearSides Nx Nz eps b) := by
  refine ⟨fun k hk l _ => ?_, fun k hk l _ => ?_, fun _ _ _ _ => by simp [shearSides], fun _ _ _ _ => by simp [shearSides], ⟨rfl, rfl⟩, ⟨rfl, rfl⟩⟩
  · have : (k + l * Nx) % Nx = k := by rw [Nat.add_mul_mod_self_right, Nat.mod_eq_of_lt hk]
    simp only [shearSides, this]
  · have : (k + l * (Nx + 1)) / (Nx + 1) = l := by rw [Nat.add_mul_div_right _ _ (by omega), Nat.div_eq_of_lt hk, zero_add]
    simp only [shearSides, this]

/-- Histories of pure shear exist for any rates and steps, from any box. -/
theorem history_exists (Nx Nz : Nat) (R : List (K × K)) (b : Setup.Box K) : ∃ L, (L.map fun q => (q.1, q.2.1)) = R ∧ Spec.AlwaysPureShear Nx Nz L b := by
  induction R generalizing b with
  | nil => exact ⟨[], rfl, trivial⟩
  | cons q rest ih =>
    obtain ⟨L, e, h⟩ := ih (Setup.pureShearALE Nx Nz q.2 false false 0 0 0 (shearSides Nx Nz q.1 b) b)
    exact ⟨(q.1, q.2, shearSides Nx Nz q.1 b) :: L, by simp [e], shear_sides _ _, h⟩

/-- Ten steps of one per cent on a box of two by two: the area is less than four, by at most a tenth of a per cent. -/
example : ∃ L : List (ℚ × ℚ × Setup.Sides ℚ), L.length = 10 ∧ 4 * (1 - (1 / 10) ^ 2 / 10) ≤ Spec.area (boxAfter 5 5 L ⟨-1, 1, -1, 1⟩) ∧ Spec.area (boxAfter 5 5 L ⟨-1, 1, -1, 1⟩) < 4 := by
  obtain ⟨L, e, h⟩ := history_exists (K := ℚ) 5 5 (List.replicate 10 (1, 1 / 100)) ⟨-1, 1, -1, 1⟩
  have len : L.length = 10 := by have := congrArg List.length e; simpa using this
  have each : ∀ q ∈ L, q.1 * q.2.1 = 1 / 100 := by
    intro q hq
    have : (q.1, q.2.1) ∈ List.replicate 10 ((1 : ℚ), (1 / 100 : ℚ)) := by rw [← e]; exact List.mem_map.mpr ⟨q, hq, rfl⟩
    have := List.eq_of_mem_replicate this
    rw [Prod.mk.injEq] at this
    rw [this.1, this.2]; norm_num
  have ne : L ≠ [] := by intro z; rw [z] at len; simp at len
  have a4 : Spec.area (⟨-1, 1, -1, 1⟩ : Setup.Box ℚ) = 4 := by norm_num [Spec.area]
  refine ⟨L, len, ?_, ?_⟩
  · have := area_loss_bound (by norm_num) (by norm_num) L _ h (by norm_num) (by norm_num) (1 / 10) ne (fun q hq => by rw [each q hq, len]; norm_num) (by rw [len]; norm_num [abs_of_pos])
    rw [len, a4] at this
    exact_mod_cast this
  · obtain ⟨q, rest, rfl⟩ := List.exists_cons_of_ne_nil ne
    have := area_is_lost (by norm_num) (by norm_num) _ _ h (by norm_num) (by norm_num) (fun q hq => by rw [each q hq]; norm_num [abs_of_pos]) ⟨q, List.mem_cons_self, by rw [each q List.mem_cons_self]; norm_num⟩
    rw [a4] at this
    exact this

/-- A balanced flow that is not pure shear: the east side alone moves in, and the top alone moves up. -/
example : Spec.area (Setup.pureShearALE (K := ℚ) 3 3 (1 / 10) false false 0 0 0
    ⟨fun _ => 0, fun i => if i % 3 = 2 then -1 else 0, fun _ => 0, fun i => if i / 4 = 2 then 1 else 0, fun _ => 0⟩ ⟨-1, 1, -1, 1⟩) < 4 := by
  have := (area_of_step 3 3 (1 / 10) (⟨fun _ => 0, fun i => if i % 3 = 2 then -1 else 0, fun _ => 0, fun i => if i / 4 = 2 then 1 else 0, fun _ => 0⟩ : Setup.Sides ℚ) ⟨-1, 1, -1, 1⟩ (by norm_num) (by norm_num)
    (by unfold Spec.Balanced; decide +kernel)).2.2 (by decide +kernel)
  have a4 : Spec.area (⟨-1, 1, -1, 1⟩ : Setup.Box ℚ) = 4 := by norm_num [Spec.area]
  rw [a4] at this
  exact this

/-- An incompressible flow that is not uniform: the left column of cells is at rest, the right one is shortened. -/
example :
    let s : Setup.Sides ℚ := ⟨fun i => if i < 3 ∨ 9 ≤ i then 11 else 0, fun i => if i % 3 = 2 then -1 else 0, fun i => if i % 4 = 0 ∨ i % 4 = 3 then 11 else 0, fun i => if i % 4 = 2 then ((i / 4 : Nat) : ℚ) else 0, fun _ => 0⟩
    Spec.area (Setup.pureShearALE 3 3 (1 / 10) false false 0 0 0 s ⟨-1, 1, -1, 1⟩) < Spec.area (⟨-1, 1, -1, 1⟩ : Setup.Box ℚ) := by
  intro s
  exact (incompressible_loses_area (by norm_num) (by norm_num) (1 / 10) s _ (by norm_num) (by norm_num) (by unfold Spec.Incompressible; decide +kernel)
    ⟨by decide +kernel, by decide +kernel, by decide +kernel, by decide +kernel, by decide +kernel, by decide +kernel⟩).2 (by decide +kernel)

/-- Two steps with different incompressible flows: first the right, then the left column of cells is shortened. -/
example :
    let s : Setup.Sides ℚ := ⟨fun i => if i < 3 ∨ 9 ≤ i then 11 else 0, fun i => if i % 3 = 2 then -1 else 0, fun i => if i % 4 = 0 ∨ i % 4 = 3 then 11 else 0, fun i => if i % 4 = 2 then ((i / 4 : Nat) : ℚ) else 0, fun _ => 0⟩
    let s' : Setup.Sides ℚ := ⟨fun i => if i < 3 ∨ 9 ≤ i then 11 else 0, fun i => if i % 3 = 0 then 19 / 21 else 0, fun i => if i % 4 = 0 ∨ i % 4 = 3 then 11 else 0, fun i => if i % 4 = 1 then ((i / 4 : Nat) : ℚ) else 0, fun _ => 0⟩
    Spec.area (boxAfter 3 3 [(0, 1 / 10, s), (0, 1 / 10, s')] ⟨-1, 1, -1, 1⟩) < Spec.area (⟨-1, 1, -1, 1⟩ : Setup.Box ℚ) := by
  intro s s'
  refine (incompressible_history_loses_area (by norm_num) (by norm_num) [(0, 1 / 10, s), (0, 1 / 10, s')] _ ⟨⟨by norm_num, by norm_num, by unfold Spec.Incompressible; decide +kernel, ?_⟩,
    ⟨by decide +kernel, by decide +kernel, by unfold Spec.Incompressible; decide +kernel, ?_⟩, trivial⟩).2 (by decide +kernel)
  · exact ⟨by decide +kernel, by decide +kernel, by decide +kernel, by decide +kernel, by decide +kernel, by decide +kernel⟩
  · exact ⟨by decide +kernel, by decide +kernel, by decide +kernel, by decide +kernel, by decide +kernel, by decide +kernel⟩

end Verif.BoxArea
