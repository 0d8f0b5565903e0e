import Verif.Model.Anisotropy
import Verif.Model.Rheology
import Verif.Spec.Rheology
import Verif.Props.Rheology
import Mathlib.Tactic.FieldSimp
import Mathlib.Tactic.Linarith
import Mathlib.Tactic.LinearCombination
import Mathlib.Tactic.NormNum
import Mathlib.Tactic.Positivity

/-!
C54 (anisotropic law), C74 (director), the anisotropic half of C52 and C53.
-/
set_option linter.unusedSectionVars false
namespace Verif.Aniso
open Verif Verif.Spec

section
variable {K : Type*} [Field K] [LinearOrder K] [IsStrictOrderedRing K]

/-! ### Director functions -/

/-- Unit directors give pairs of the disk. -/
theorem director_disk (nx nz : K) (h : nx ^ 2 + nz ^ 2 = 1) : DirectorPair (markerD1 nx nz) (markerD2 nx nz) := by
  unfold DirectorPair markerD1 markerD2
  have : nz ^ 2 = 1 - nx ^ 2 := by linear_combination h
  apply le_of_eq
  calc (nx * nz * (-nx ^ 2 + nz ^ 2)) ^ 2 = nx ^ 2 * nz ^ 2 * (-nx ^ 2 + nz ^ 2) ^ 2 := by ring
    _ = _ := by rw [this]; ring

/-- Weighted averages of pairs of the disk are in the disk, for any number of markers. -/
theorem disk_convex (n : Nat) (w x y : Nat → K) (hw : ∀ k < n, 0 ≤ w k) (ht : ∑ k ∈ Finset.range n, w k = 1)
    (h : ∀ k < n, DirectorPair (x k) (y k)) :
    DirectorPair (∑ k ∈ Finset.range n, w k * x k) (∑ k ∈ Finset.range n, w k * y k) := by
  have key : ∀ S X Y : K, 0 ≤ ∑ k ∈ Finset.range n, w k * ((x k - X) ^ 2 + (y k - Y) ^ 2) := fun S X Y =>
    Finset.sum_nonneg fun k hk => mul_nonneg (hw k (Finset.mem_range.1 hk)) (by positivity)
  set X := ∑ k ∈ Finset.range n, w k * x k with hX
  set Y := ∑ k ∈ Finset.range n, w k * y k with hY
  have h1 := key 0 X Y
  have e : ∑ k ∈ Finset.range n, w k * ((x k - X) ^ 2 + (y k - Y) ^ 2)
      = ∑ k ∈ Finset.range n, w k * (x k ^ 2 + y k ^ 2) - 2 * X * X - 2 * Y * Y + (X ^ 2 + Y ^ 2) * 1 := by
    have a1 : (2 * X) * X = ∑ k ∈ Finset.range n, 2 * X * (w k * x k) := by rw [← Finset.mul_sum]
    have a2 : (2 * Y) * Y = ∑ k ∈ Finset.range n, 2 * Y * (w k * y k) := by rw [← Finset.mul_sum]
    have a3 : (X ^ 2 + Y ^ 2) * 1 = ∑ k ∈ Finset.range n, (X ^ 2 + Y ^ 2) * w k := by rw [← Finset.mul_sum, ht]
    rw [a1, a2, a3, ← Finset.sum_sub_distrib, ← Finset.sum_sub_distrib, ← Finset.sum_add_distrib]
    apply Finset.sum_congr rfl; intro k _; ring
  have h2 : ∑ k ∈ Finset.range n, w k * (x k ^ 2 + y k ^ 2) ≤ X / 2 := by
    have : X / 2 = ∑ k ∈ Finset.range n, w k * (x k / 2) := by
      rw [hX, Finset.sum_div]; apply Finset.sum_congr rfl; intro k _; ring
    rw [this]
    apply Finset.sum_le_sum
    intro k hk
    apply mul_le_mul_of_nonneg_left _ (hw k (Finset.mem_range.1 hk))
    have := h k (Finset.mem_range.1 hk)
    unfold DirectorPair at this
    nlinarith
  unfold DirectorPair
  rw [e] at h1
  nlinarith

/-! ### C54 -/

/-- Rotating into the layer frame, applying the layered law and rotating back is the closed-form law
on the grid, when layer direction and director are perpendicular unit vectors. -/
theorem rotated_is_grid (nx nz eta ani : K) (hn : nx ^ 2 + nz ^ 2 = 1) (ha : ani ≠ 0) (E : K × K × K) :
    localStress (nz * nz) (nz * (-nx)) eta ani E = gridStress (markerD1 nx nz) (markerD2 nx nz) eta ani E := by
  obtain ⟨E1, E2, E3⟩ := E
  have hz : nx ^ 2 = 1 - nz ^ 2 := by linear_combination hn
  have hxz : (nz * nx) ^ 2 = nz ^ 2 * (1 - nz ^ 2) := by rw [mul_pow, hz]
  simp only [localStress, rotateBack, layered, rotate, gridStress, markerD1, markerD2]
  refine Prod.ext_iff.2 ⟨?_, Prod.ext_iff.2 ⟨?_, ?_⟩⟩ <;> simp only []
  · field_simp
    linear_combination (2 * eta * ani * nz ^ 2 * (E1 - E2) - 2 * eta * nz * nx * E3 * (ani - 1)) * hn
  · field_simp
    linear_combination (-(2 * eta * ani * nz ^ 2 * (E1 - E2)) + 2 * eta * nz * nx * E3 * (ani - 1)) * hn
  · field_simp
    linear_combination (eta * nz * nx * (1 - ani) * (E1 - E2) + 4 * eta * nz ^ 2 * E3) * hn

/-- The operator used in the assembly is the law used for the final stress. -/
theorem assembly_is_grid (d1 d2 eta ani : K) (E : K × K × K) :
    assemblyOperator d1 d2 eta ani E = gridStress d1 d2 eta ani E := by
  simp only [assemblyOperator, gridStress]
  refine Prod.ext_iff.2 ⟨?_, Prod.ext_iff.2 ⟨?_, ?_⟩⟩ <;> simp only [] <;> ring

/-- And both are the closed-form transversely isotropic law. -/
theorem grid_is_transverse (d1 d2 eta ani : K) (E : K × K × K) :
    gridStress d1 d2 eta ani E = transverse eta (1 - 1 / ani) d1 d2 E := by
  simp only [transverse, gridStress]
  refine Prod.ext_iff.2 ⟨?_, Prod.ext_iff.2 ⟨?_, ?_⟩⟩ <;> simp only [] <;> ring

/-- With anisotropy factor one the law is isotropic, whatever the orientation. -/
theorem isotropic (d1 d2 eta : K) (E : K × K × K) :
    gridStress d1 d2 eta 1 E = (2 * eta * E.1, 2 * eta * E.2.1, 2 * eta * E.2.2) := by
  simp only [gridStress]
  refine Prod.ext_iff.2 ⟨?_, Prod.ext_iff.2 ⟨?_, ?_⟩⟩ <;> simp only [] <;> ring

/-- Rotation preserves trace and second invariant, for every unit layer direction. -/
theorem rotate_invariants (lx lz : K) (h : lx ^ 2 + lz ^ 2 = 1) (E : K × K × K) :
    (rotate (lx * lx) (lx * lz) E).1 + (rotate (lx * lx) (lx * lz) E).2.1 = E.1 + E.2.1
      ∧ inv2 (rotate (lx * lx) (lx * lz) E) = inv2 E := by
  obtain ⟨E1, E2, E3⟩ := E
  have hz : lz ^ 2 = 1 - lx ^ 2 := by linear_combination h
  constructor
  · simp only [rotate]; ring
  · simp only [rotate, inv2]
    have e1 : (lx * lz) ^ 2 = lx ^ 2 * (1 - lx ^ 2) := by rw [mul_pow, hz]
    linear_combination ((E1 - E2) ^ 2 + 4 * E3 ^ 2) * e1

/-- Rotating back undoes the rotation. -/
theorem rotateBack_rotate (lx lz : K) (h : lx ^ 2 + lz ^ 2 = 1) (E : K × K × K) :
    rotateBack (lx * lx) (lx * lz) (rotate (lx * lx) (lx * lz) E) = E := by
  obtain ⟨E1, E2, E3⟩ := E
  have hz : lz ^ 2 = 1 - lx ^ 2 := by linear_combination h
  have e1 : (lx * lz) ^ 2 = lx ^ 2 * (1 - lx ^ 2) := by rw [mul_pow, hz]
  simp only [rotate, rotateBack]
  refine Prod.ext_iff.2 ⟨?_, Prod.ext_iff.2 ⟨?_, ?_⟩⟩ <;> simp only []
  · linear_combination (2 * (E1 - E2)) * e1
  · linear_combination (-2 * (E1 - E2)) * e1
  · linear_combination (4 * E3) * e1

/-- The layered stress measured with the anisotropic invariant is twice viscosity times the strain
rate invariant, which is what the scalar iterations work with. -/
theorem layered_invariant (eta ani : K) (ha : ani ≠ 0) (E : K × K × K) :
    invY2 ani (layered eta ani E) = (2 * eta) ^ 2 * inv2 E := by
  obtain ⟨E1, E2, E3⟩ := E
  simp only [invY2, layered, inv2]
  field_simp

/-- The operator is symmetric with respect to the rate of work. -/
theorem symmetric (d1 d2 eta ani : K) (E F : K × K × K) :
    work (assemblyOperator d1 d2 eta ani E) F = work (assemblyOperator d1 d2 eta ani F) E := by
  obtain ⟨E1, E2, E3⟩ := E
  obtain ⟨F1, F2, F3⟩ := F
  simp only [work, assemblyOperator]; ring

theorem quad_nonneg (p q r x y : K) (hp : 0 ≤ p) (hr : 0 ≤ r) (h : q ^ 2 ≤ 4 * p * r) :
    0 ≤ p * x ^ 2 + q * x * y + r * y ^ 2 := by
  rcases hp.eq_or_lt with h0 | h0
  · have : q = 0 := by
      have : q ^ 2 ≤ 0 := by rw [← h0] at h; simpa using h
      exact pow_eq_zero_iff (two_ne_zero) |>.1 (le_antisymm this (sq_nonneg q))
    rw [← h0, this]; simpa using mul_nonneg hr (sq_nonneg y)
  · have h1 : 0 ≤ 4 * p * (p * x ^ 2 + q * x * y + r * y ^ 2) := by
      have : 4 * p * (p * x ^ 2 + q * x * y + r * y ^ 2) = (2 * p * x + q * y) ^ 2 + (4 * p * r - q ^ 2) * y ^ 2 := by
        ring
      rw [this]
      exact add_nonneg (sq_nonneg _) (mul_nonneg (sub_nonneg.2 h) (sq_nonneg y))
    exact nonneg_of_mul_nonneg_right h1 (by linarith)

theorem disk_range (d1 d2 : K) (h : DirectorPair d1 d2) : 0 ≤ d1 ∧ d1 ≤ 1 / 2 := by
  unfold DirectorPair at h
  have h1 : 0 ≤ d1 / 2 * (1 - 2 * d1) := le_trans (sq_nonneg d2) h
  constructor <;> nlinarith

/-- The operator is dissipative, by at least the weak viscosity, for directors averaged over any set
of markers. -/
theorem dissipative (d1 d2 eta ani : K) (hd : DirectorPair d1 d2) (he : 0 ≤ eta) (ha : 1 ≤ ani) (E : K × K × K) :
    2 * (eta / ani) * work E E ≤ work (assemblyOperator d1 d2 eta ani E) E := by
  obtain ⟨E1, E2, E3⟩ := E
  obtain ⟨r0, r1⟩ := disk_range d1 d2 hd
  have h0 : 0 < ani := by linarith
  set a := 1 - 1 / ani with hadef
  have ha0 : 0 ≤ a := by
    have : 1 / ani ≤ 1 := (div_le_one h0).2 ha
    rw [hadef]; linarith
  have hinv : eta / ani = eta * (1 - a) := by rw [hadef]; field_simp; ring
  have hq : 0 ≤ (1 / 2 - d1) * (E1 - E2) ^ 2 + (-4 * d2) * (E1 - E2) * E3 + (4 * d1) * E3 ^ 2 := by
    apply quad_nonneg _ _ _ _ _ (by linarith) (by linarith)
    unfold DirectorPair at hd
    nlinarith
  have hform : work (assemblyOperator d1 d2 eta ani (E1, E2, E3)) (E1, E2, E3)
      = 2 * (eta * (1 - a)) * work (E1, E2, E3) (E1, E2, E3)
        + 2 * eta * a * ((E1 + E2) ^ 2 / 2
          + ((1 / 2 - d1) * (E1 - E2) ^ 2 + (-4 * d2) * (E1 - E2) * E3 + (4 * d1) * E3 ^ 2)) := by
    simp only [work, assemblyOperator, ← hadef]; ring
  rw [hform, hinv]
  have := mul_nonneg (mul_nonneg (by linarith : 0 ≤ 2 * eta) ha0)
    (add_nonneg (div_nonneg (sq_nonneg (E1 + E2)) (by norm_num : (0 : K) ≤ 2)) hq)
  linarith

/-- Averaging over markers leaves the set of frames: there are two unit directors whose averaged
functions belong to no unit director, so that no rotation reproduces the averaged operator. -/
theorem average_has_no_frame :
    ∃ nx nz mx mz : K, nx ^ 2 + nz ^ 2 = 1 ∧ mx ^ 2 + mz ^ 2 = 1 ∧
      ∀ ax az : K, ax ^ 2 + az ^ 2 = 1 →
        ¬ (markerD1 ax az = (markerD1 nx nz + markerD1 mx mz) / 2
          ∧ markerD2 ax az = (markerD2 nx nz + markerD2 mx mz) / 2) := by
  refine ⟨1, 0, 3 / 5, 4 / 5, by norm_num, by norm_num, ?_⟩
  rintro ax az h ⟨h1, h2⟩
  have hz : az ^ 2 = 1 - ax ^ 2 := by linear_combination h
  have hc : markerD2 ax az ^ 2 = markerD1 ax az / 2 * (1 - 2 * markerD1 ax az) := by
    unfold markerD1 markerD2
    calc (ax * az * (-ax ^ 2 + az ^ 2)) ^ 2 = ax ^ 2 * az ^ 2 * (-ax ^ 2 + az ^ 2) ^ 2 := by ring
      _ = _ := by rw [hz]; ring
  rw [h1, h2] at hc
  norm_num [markerD1, markerD2] at hc

/-- The anisotropy factor from finite strain never exceeds its maximum and is at least one if the
aspect ratio and the maximum are. -/
theorem factor_range (ar amax : K) (h1 : 1 ≤ ar) (h2 : 1 ≤ amax) :
    1 ≤ factorFromStrain ar amax ∧ factorFromStrain ar amax ≤ amax ∧ factorFromStrain ar amax ≤ ar := by
  unfold factorFromStrain
  split
  · next h => exact ⟨h1, h.le, le_rfl⟩
  · next h => exact ⟨h2, le_rfl, not_lt.1 h⟩

/-! ### C52, anisotropic routine -/

/-- The anisotropic routine's closed-form correction lies on the yield surface at the corrected
pressure, including overstress and for every dilation angle, as long as the Mises cut-off is not
active; below yield nothing changes. -/
theorem plasticAniso_on_yield (tii etaVe etaVp P kdt C slim cosf sinf sind eps : K)
    (he : 0 < etaVe) (hv : 0 ≤ etaVp) (hd : 0 ≤ kdt * sind * sinf) (heps : 0 ≤ eps)
    (hs : C * cosf + P * sinf ≤ slim) :
    let r := plasticAniso tii etaVe etaVp P kdt C slim cosf sinf sind eps
    (eps < tii - (C * cosf + P * sinf) →
      OnYield C cosf sinf r.2.1 etaVp r.2.2 r.1 ∧ 0 < r.2.2 ∧ r.1 < tii)
    ∧ (tii - (C * cosf + P * sinf) ≤ eps → r = (tii, P, 0)) := by
  intro r
  have hy : (if slim < C * cosf + P * sinf then slim else C * cosf + P * sinf) = C * cosf + P * sinf :=
    if_neg (not_lt.2 hs)
  constructor
  · intro h
    have hr : r = (tii - (tii - (C * cosf + P * sinf)) / (etaVe + etaVp + kdt * sind * sinf) * etaVe,
        P + kdt * sind * ((tii - (C * cosf + P * sinf)) / (etaVe + etaVp + kdt * sind * sinf)),
        (tii - (C * cosf + P * sinf)) / (etaVe + etaVp + kdt * sind * sinf)) := by
      show plasticAniso _ _ _ _ _ _ _ _ _ _ _ = _
      simp only [plasticAniso, hy, h, if_true]
    have hden : 0 < etaVe + etaVp + kdt * sind * sinf := by linarith
    set g := (tii - (C * cosf + P * sinf)) / (etaVe + etaVp + kdt * sind * sinf) with hg
    have hF : 0 < tii - (C * cosf + P * sinf) := lt_of_le_of_lt heps h
    have hgp : 0 < g := div_pos hF hden
    have hgF : g * (etaVe + etaVp + kdt * sind * sinf) = tii - (C * cosf + P * sinf) := by
      rw [hg, div_mul_cancel₀ _ hden.ne']
    rw [hr]
    refine ⟨?_, hgp, ?_⟩
    · unfold OnYield; simp only []; linear_combination -hgF
    · have := mul_pos hgp he; simp only []; linarith
  · intro h
    show plasticAniso _ _ _ _ _ _ _ _ _ _ _ = _
    simp only [plasticAniso, hy, not_lt.2 h, if_false]

/-- Non-vacuity, with dilation. -/
example : plasticAniso (5 : ℚ) 1 1 2 4 1 10 (1 / 2) (1 / 2) (1 / 2) 0 = (23 / 6, 13 / 3, 7 / 6) := by
  norm_num [plasticAniso]

end

/-! ### C74 -/

/-- The director stays a unit vector, for every velocity gradient and time step. -/
theorem director_unit (dt ux uz vx vz : ℝ) (n : ℝ × ℝ) (h : n.1 ^ 2 + n.2 ^ 2 = 1) :
    (turnDirector dt ux uz vx vz n).1 ^ 2 + (turnDirector dt ux uz vx vz n).2 ^ 2 = 1 := by
  obtain ⟨nx, nz⟩ := n
  simp only at h
  simp only [turnDirector]
  set px := nx + dt * (-(ux - vz) * nx * nz - vx * nz * nz + uz * nx * nx) * nz with hpx
  set pz := nz + dt * ((ux - vz) * nx * nz + vx * nz * nz - uz * nx * nx) * nx with hpz
  have hpos : 0 < px ^ 2 + pz ^ 2 := by
    have : px ^ 2 + pz ^ 2
        = 1 + (dt * (-(ux - vz) * nx * nz - vx * nz * nz + uz * nx * nx)) ^ 2 := by
      rw [hpx, hpz]
      linear_combination (1 + (dt * (-(ux - vz) * nx * nz - vx * nz * nz + uz * nx * nx)) ^ 2) * h
    rw [this]; positivity
  rw [div_pow, div_pow, Real.sq_sqrt hpos.le, ← add_div, div_self hpos.ne']

/-- Any history of steps keeps the director a unit vector. -/
theorem director_unit_history (dts : List (ℝ × ℝ × ℝ × ℝ × ℝ)) (n : ℝ × ℝ) (h : n.1 ^ 2 + n.2 ^ 2 = 1) :
    let m := dts.foldl (fun n q => turnDirector q.1 q.2.1 q.2.2.1 q.2.2.2.1 q.2.2.2.2 n) n
    m.1 ^ 2 + m.2 ^ 2 = 1 := by
  induction dts generalizing n with
  | nil => exact h
  | cons q t ih => exact ih _ (director_unit _ _ _ _ _ n h)

/-- Initially the director is the unit vector of the given angle. -/
theorem initDirector_eq (angle : ℝ) : initDirector angle = (Real.cos angle, Real.sin angle) := by
  have : Real.cos angle * Real.cos angle + Real.sin angle * Real.sin angle = 1 := by
    have := Real.cos_sq_add_sin_sq angle; nlinarith
  simp [initDirector, this]

/-- The director turns as the normal of a material plane: before normalisation the new vector is
`n + dt * (-Lᵀ n + (n · Lᵀ n) n)`, the linearised evolution of a unit normal. -/
theorem director_is_normal (dt ux uz vx vz nx nz : ℝ) (h : nx ^ 2 + nz ^ 2 = 1) :
    let s := nx * (ux * nx + vx * nz) + nz * (uz * nx + vz * nz)
    let px := nx + dt * (-(ux * nx + vx * nz) + s * nx)
    let pz := nz + dt * (-(uz * nx + vz * nz) + s * nz)
    turnDirector dt ux uz vx vz (nx, nz) = (px / Real.sqrt (px ^ 2 + pz ^ 2), pz / Real.sqrt (px ^ 2 + pz ^ 2)) := by
  intro s px pz
  have hx : nx + dt * (-(ux - vz) * nx * nz - vx * nz * nz + uz * nx * nx) * nz = px := by
    simp only [px, s]; linear_combination (-(dt * (ux * nx + vx * nz))) * h
  have hz : nz + dt * ((ux - vz) * nx * nz + vx * nz * nz - uz * nx * nx) * nx = pz := by
    simp only [pz, s]; linear_combination (-(dt * (uz * nx + vz * nz))) * h
  simp only [turnDirector, hx, hz]

/-- The two representations of the same plane turn alike. -/
theorem director_sign (dt ux uz vx vz nx nz : ℝ) :
    turnDirector dt ux uz vx vz (-nx, -nz)
      = (-(turnDirector dt ux uz vx vz (nx, nz)).1, -(turnDirector dt ux uz vx vz (nx, nz)).2) := by
  simp only [turnDirector]
  have hx : -nx + dt * (-(ux - vz) * -nx * -nz - vx * -nz * -nz + uz * -nx * -nx) * -nz
      = -(nx + dt * (-(ux - vz) * nx * nz - vx * nz * nz + uz * nx * nx) * nz) := by ring
  have hz : -nz + dt * ((ux - vz) * -nx * -nz + vx * -nz * -nz - uz * -nx * -nx) * -nx
      = -(nz + dt * ((ux - vz) * nx * nz + vx * nz * nz - uz * nx * nx) * nx) := by ring
  rw [hx, hz, neg_pow_two, neg_pow_two, neg_div, neg_div]

/-- The rigid rotation turns the director without bias: the new direction is the old one plus `w dt`
times its perpendicular, normalised. -/
theorem director_rigid (dt w nx nz : ℝ) (h : nx ^ 2 + nz ^ 2 = 1) :
    turnDirector dt 0 (-w) w 0 (nx, nz)
      = ((nx - w * dt * nz) / Real.sqrt (1 + (w * dt) ^ 2), (nz + w * dt * nx) / Real.sqrt (1 + (w * dt) ^ 2)) := by
  have hx : nx + dt * (-(0 - 0) * nx * nz - w * nz * nz + -w * nx * nx) * nz = nx - w * dt * nz := by
    linear_combination (-(dt * w * nz)) * h
  have hz : nz + dt * ((0 - 0) * nx * nz + w * nz * nz - -w * nx * nx) * nx = nz + w * dt * nx := by
    linear_combination (dt * w * nx) * h
  have hn : (nx - w * dt * nz) ^ 2 + (nz + w * dt * nx) ^ 2 = 1 + (w * dt) ^ 2 := by
    linear_combination (1 + (w * dt) ^ 2) * h
  simp only [turnDirector, hx, hz, hn]

/-- A non-trivial case: simple shear turns a director that is not perpendicular to the flow. -/
example : (3 / 5 : ℝ) ^ 2 + (4 / 5) ^ 2 = 1 := by norm_num

/-! ### The angle stored on the grid -/

theorem layerOf_eq (angle : ℝ) :
    layerOf angle = (Real.sin angle * Real.sin angle, Real.sin angle * (-Real.cos angle)) := by
  simp only [layerOf, Real.cos_sub_pi_div_two, Real.sin_sub_pi_div_two]

/-- For an angle in the upper half plane the layer frame belongs to the director, so that the stress
of the local routine is the stress of the grid formula. -/
theorem local_is_grid (nx nz eta ani : ℝ) (hn : nx ^ 2 + nz ^ 2 = 1) (hz : 0 ≤ nz) (ha : ani ≠ 0) (E : ℝ × ℝ × ℝ) :
    localStress (layerOf (markerAngle nx)).1 (layerOf (markerAngle nx)).2 eta ani E
      = gridStress (markerD1 nx nz) (markerD2 nx nz) eta ani E := by
  have h1 : -1 ≤ nx := by nlinarith [sq_nonneg nz]
  have h2 : nx ≤ 1 := by nlinarith [sq_nonneg nz]
  have hc : Real.cos (markerAngle nx) = nx := Real.cos_arccos h1 h2
  have hs : Real.sin (markerAngle nx) = nz := by
    unfold markerAngle
    rw [Real.sin_arccos]
    have : 1 - nx ^ 2 = nz ^ 2 := by linarith
    rw [this, Real.sqrt_sq hz]
  rw [layerOf_eq, hc, hs]
  exact rotated_is_grid nx nz eta ani hn ha E

/-- In the lower half plane the arc cosine returns the mirrored direction: the local stress is the
one of the mirror image of the director, and differs from the grid formula. -/
theorem local_is_mirrored (nx nz eta ani : ℝ) (hn : nx ^ 2 + nz ^ 2 = 1) (hz : nz ≤ 0) (ha : ani ≠ 0) (E : ℝ × ℝ × ℝ) :
    localStress (layerOf (markerAngle nx)).1 (layerOf (markerAngle nx)).2 eta ani E
      = gridStress (markerD1 nx (-nz)) (markerD2 nx (-nz)) eta ani E := by
  have hn' : nx ^ 2 + (-nz) ^ 2 = 1 := by linear_combination hn
  exact local_is_grid nx (-nz) eta ani hn' (by linarith) ha E

/-- A director that the flow has turned below the horizontal: the two stresses differ. -/
theorem local_differs :
    ∃ nx nz : ℝ, nx ^ 2 + nz ^ 2 = 1 ∧ ∃ E : ℝ × ℝ × ℝ,
      localStress (layerOf (markerAngle nx)).1 (layerOf (markerAngle nx)).2 1 2 E
        ≠ gridStress (markerD1 nx nz) (markerD2 nx nz) 1 2 E := by
  refine ⟨3 / 5, -(4 / 5), by norm_num, (0, 0, 1), ?_⟩
  rw [local_is_mirrored (3 / 5) (-(4 / 5)) 1 2 (by norm_num) (by norm_num) (by norm_num)]
  simp only [gridStress, markerD1, markerD2]
  intro h
  have := (Prod.ext_iff.1 h).1
  norm_num at this

end Verif.Aniso
