import Verif.Props.History
import Verif.Props.InterpCentres
import Verif.Props.P2Mastah
import Verif.Props.Anisotropy
import Mathlib.LinearAlgebra.Matrix.Determinant.Basic

set_option linter.unusedSectionVars false
set_option linter.unusedVariables false
set_option linter.unusedSimpArgs false

/- C78, C79, C80, C82: deformation gradient, strain ellipse, peak conditions and rotation of the stress. -/
namespace Verif.Hist
open Verif Verif.Interp Matrix

section grad
variable {K : Type*} [Field K]

/-- The tensor of a marker as a matrix. -/
def Tens.mat (F : Tens K) : Matrix (Fin 2) (Fin 2) K := !![F.xx, F.xz; F.zx, F.zz]

/-- C78 (one step): the update multiplies by `1 + dt L` from the left. -/
theorem deform_is_product (dt a b c d : K) (F : Tens K) :
    (deform dt a b c d F).mat = (1 + dt • !![a, b; c, d]) * F.mat := by
  ext i j
  fin_cases i <;> fin_cases j <;>
    simp [Tens.mat, deform, Matrix.mul_apply, Fin.sum_univ_two, Matrix.one_apply] <;> ring

/-- Run of the update over a list of steps `(dt, dudx, dudz, dvdx, dvdz)`, first step first. -/
def runDeform (steps : List (K × K × K × K × K)) (F : Tens K) : Tens K :=
  steps.foldl (fun F q => deform q.1 q.2.1 q.2.2.1 q.2.2.2.1 q.2.2.2.2 F) F

/-- C78 (history): after any number of steps the tensor is the product of the steps, the latest on the left, and its
determinant (the change of area) the product of theirs. -/
theorem deformation_history (steps : List (K × K × K × K × K)) (F : Tens K) :
    (runDeform steps F).mat =
      ((steps.map fun q => 1 + q.1 • !![q.2.1, q.2.2.1; q.2.2.2.1, q.2.2.2.2]).reverse.prod) * F.mat ∧
    (runDeform steps F).mat.det =
      (steps.map fun q => (1 + q.1 * q.2.1) * (1 + q.1 * q.2.2.2.2) - q.1 ^ 2 * q.2.2.1 * q.2.2.2.1).prod * F.mat.det := by
  induction steps generalizing F with
  | nil => simp [runDeform]
  | cons q rest ih =>
    obtain ⟨h1, h2⟩ := ih (deform q.1 q.2.1 q.2.2.1 q.2.2.2.1 q.2.2.2.2 F)
    have e : runDeform (q :: rest) F = runDeform rest (deform q.1 q.2.1 q.2.2.1 q.2.2.2.1 q.2.2.2.2 F) := rfl
    rw [e]
    refine ⟨by rw [h1, deform_is_product]; simp [Matrix.mul_assoc], ?_⟩
    rw [h2, deform_is_product, Matrix.det_mul, List.map_cons, List.prod_cons]
    have : (1 + q.1 • !![q.2.1, q.2.2.1; q.2.2.2.1, q.2.2.2.2]).det =
        (1 + q.1 * q.2.1) * (1 + q.1 * q.2.2.2.2) - q.1 ^ 2 * q.2.2.1 * q.2.2.2.1 := by
      rw [Matrix.det_fin_two]
      simp [Matrix.one_apply]
      ring
    rw [this]; ring

end grad

section grid
variable {K : Type*} [Field K] [LinearOrder K] [IsStrictOrderedRing K] [FloorRing K]

theorem flat_mod {n k l : Int} (h0 : 0 ≤ k) (h1 : k < n) : (k + l * n) % n = k := by
  rw [Int.add_mul_emod_self_right]; exact Int.emod_eq_of_lt h0 h1

theorem flat_div {n k l : Int} (h0 : 0 ≤ k) (h1 : k < n) : (k + l * n) / n = l := by
  rw [Int.add_mul_ediv_right _ _ (by omega), Int.ediv_eq_zero_of_lt h0 h1]; omega

/-- Velocities that are affine functions of position at the staggered nodes of a box with `ncx` by `ncz` cells:
horizontal components on the vertical faces with a ghost row below and above, vertical components on the
horizontal faces with a ghost column on each side. -/
structure AffineVel (ncx ncz : Nat) (xmin zmin dx dz a b c d e f : K) (u v : Int → K) : Prop where
  hu : ∀ j ≤ ncx, ∀ l ≤ ncz + 1, u ((j : Int) + l * (ncx + 1)) =
    a + b * (xmin + j * dx) + c * (zmin + ((l : K) - 1 / 2) * dz)
  hv : ∀ j ≤ ncx + 1, ∀ l ≤ ncz, v ((j : Int) + l * (ncx + 2)) =
    d + e * (xmin + ((j : K) - 1 / 2) * dx) + f * (zmin + l * dz)

/-- C78 (velocity gradients).  In an affine flow, `vx = a + b x + c z`, `vz = d + e x + f z`, every active marker of the
closed box, wherever it is and whatever the flags, gets exactly `F' = (1 + dt L) F` with
`L = (b c; e f)`. -/
theorem deformation_gradient_affine {ncx ncz : Nat} {xmin zmin dx dz x z : K} {xg zg xe ze : Int → K}
    (Gv : InGrid (ncx + 1) (ncz + 1) xg zg xmin zmin dx dz x z) (Gc : InBox ncx ncz xe ze xmin zmin dx dz x z)
    {a b c d e f : K} {u v : Int → K} (h : AffineVel ncx ncz xmin zmin dx dz a b c d e f u v)
    (periodic : Bool) (junk : Quad Int) (dt : K) (tagP tagG : Int → Int) (phase : Int) (hp : phase ≠ -1) (F : Tens K) :
    ∃ F', deformMarker (ncx + 1) (ncz + 1) periodic junk xg zg xe ze dx dz dt u v tagP tagG phase x z F = some F' ∧
      F'.mat = (1 + dt • !![b, c; e, f]) * F.mat := by
  have hdx := ne_of_gt Gv.dxp
  have hdz := ne_of_gt Gv.dzp
  have g1 : ∀ k < ncx, ∀ l < ncz, gradUx ((ncx + 1 : Nat) : Int) dx u ((k : Int) + l * ncx) = b := by
    intro k hk l hl
    unfold gradUx
    have e1 : (((ncx + 1 : Nat) : Int) - 1) = ncx := by push_cast; ring
    simp only [e1]
    rw [flat_mod (by omega) (by omega), flat_div (by omega) (by omega)]
    have i1 : (k : Int) + l * ((ncx + 1 : Nat) : Int) + ((ncx + 1 : Nat) : Int) + 1 = ((k + 1 : Nat) : Int) + ((l + 1 : Nat) : Int) * (ncx + 1) := by
      push_cast; ring
    have i2 : (k : Int) + l * ((ncx + 1 : Nat) : Int) + ((ncx + 1 : Nat) : Int) = ((k : Nat) : Int) + ((l + 1 : Nat) : Int) * (ncx + 1) := by
      push_cast; ring
    rw [i1, i2, h.hu (k + 1) (by omega) (l + 1) (by omega), h.hu k (by omega) (l + 1) (by omega)]
    push_cast; field_simp; ring
  have g2 : ∀ k < ncx, ∀ l < ncz, gradVz ((ncx + 1 : Nat) : Int) dz v ((k : Int) + l * ncx) = f := by
    intro k hk l hl
    unfold gradVz
    have e1 : (((ncx + 1 : Nat) : Int) - 1) = ncx := by push_cast; ring
    simp only [e1]
    rw [flat_mod (by omega) (by omega), flat_div (by omega) (by omega)]
    have i1 : (k : Int) + l * (((ncx + 1 : Nat) : Int) + 1) + 1 + (((ncx + 1 : Nat) : Int) + 1) = ((k + 1 : Nat) : Int) + ((l + 1 : Nat) : Int) * (ncx + 2) := by
      push_cast; ring
    have i2 : (k : Int) + l * (((ncx + 1 : Nat) : Int) + 1) + 1 = ((k + 1 : Nat) : Int) + ((l : Nat) : Int) * (ncx + 2) := by
      push_cast; ring
    rw [i1, i2, h.hv (k + 1) (by omega) (l + 1) (by omega), h.hv (k + 1) (by omega) l (by omega)]
    push_cast; field_simp; ring
  have g3 : ∀ k < ncx + 1, ∀ l < ncz + 1, gradUz ((ncx + 1 : Nat) : Int) dz u ((k : Int) + l * ((ncx + 1 : Nat) : Int)) = c := by
    intro k hk l hl
    unfold gradUz
    simp only
    rw [flat_mod (by omega) (by omega), flat_div (by omega) (by omega)]
    have i1 : (k : Int) + l * ((ncx + 1 : Nat) : Int) + ((ncx + 1 : Nat) : Int) = ((k : Nat) : Int) + ((l + 1 : Nat) : Int) * (ncx + 1) := by
      push_cast; ring
    have i2 : (k : Int) + l * ((ncx + 1 : Nat) : Int) = ((k : Nat) : Int) + ((l : Nat) : Int) * (ncx + 1) := by
      push_cast; ring
    rw [i1, i2, h.hu k (by omega) (l + 1) (by omega), h.hu k (by omega) l (by omega)]
    push_cast; field_simp; ring
  have g4 : ∀ k < ncx + 1, ∀ l < ncz + 1, gradVx ((ncx + 1 : Nat) : Int) dx v ((k : Int) + l * ((ncx + 1 : Nat) : Int)) = e := by
    intro k hk l hl
    unfold gradVx
    simp only
    rw [flat_mod (by omega) (by omega), flat_div (by omega) (by omega)]
    have i1 : (k : Int) + l * (((ncx + 1 : Nat) : Int) + 1) + 1 = ((k + 1 : Nat) : Int) + ((l : Nat) : Int) * (ncx + 2) := by
      push_cast; ring
    have i2 : (k : Int) + l * (((ncx + 1 : Nat) : Int) + 1) = ((k : Nat) : Int) + ((l : Nat) : Int) * (ncx + 2) := by
      push_cast; ring
    rw [i1, i2, h.hv (k + 1) (by omega) l (by omega), h.hv k (by omega) l (by omega)]
    push_cast; field_simp; ring
  have c1 : interpCentroids ncx ncz periodic junk xe ze dx dz (gradUx ((ncx + 1 : Nat) : Int) dx u) tagP x z = b := by
    obtain ⟨k1, hk1, k2, hk2, r1, hr1, r2, hr2, hb⟩ := (centre_field_interpolation Gc periodic junk (gradUx ((ncx + 1 : Nat) : Int) dx u) tagP).2
    have := hb b b (fun k hk r hr => by
      rw [g1 k (by simp at hk; omega) r (by simp at hr; omega)]; exact ⟨le_rfl, le_rfl⟩)
    exact le_antisymm this.2 this.1
  have c2 : interpCentroids ncx ncz periodic junk xe ze dx dz (gradVz ((ncx + 1 : Nat) : Int) dz v) tagP x z = f := by
    obtain ⟨k1, hk1, k2, hk2, r1, hr1, r2, hr2, hb⟩ := (centre_field_interpolation Gc periodic junk (gradVz ((ncx + 1 : Nat) : Int) dz v) tagP).2
    have := hb f f (fun k hk r hr => by
      rw [g2 k (by simp at hk; omega) r (by simp at hr; omega)]; exact ⟨le_rfl, le_rfl⟩)
    exact le_antisymm this.2 this.1
  obtain ⟨y3, e3, _, j3, i3, hj3, hi3, _, _, _, _, b3⟩ := vertex_field_interpolation Gv true (gradVx ((ncx + 1 : Nat) : Int) dx v) tagG
  obtain ⟨y4, e4, _, j4, i4, hj4, hi4, _, _, _, _, b4⟩ := vertex_field_interpolation Gv true (gradUz ((ncx + 1 : Nat) : Int) dz u) tagG
  have t3 := b3 e e (fun j hj i hi => by
    rw [g4 j (by simp at hj; omega) i (by simp at hi; omega)]; exact ⟨le_rfl, le_rfl⟩)
  have t4 := b4 c c (fun j hj i hi => by
    rw [g3 j (by simp at hj; omega) i (by simp at hi; omega)]; exact ⟨le_rfl, le_rfl⟩)
  have y3e : y3 = e := le_antisymm t3.2 t3.1
  have y4e : y4 = c := le_antisymm t4.2 t4.1
  refine ⟨deform dt b c e f F, ?_, deform_is_product _ _ _ _ _ _⟩
  unfold deformMarker
  have n1 : (((ncx + 1 : Nat) : Int) - 1) = ncx := by push_cast; ring
  have n2 : (((ncz + 1 : Nat) : Int) - 1) = ncz := by push_cast; ring
  simp only [if_pos hp, n1, n2, c1, c2, e3, e4, y3e, y4e]

/-- C78 (translation): a uniform velocity leaves the tensor of every marker as it is. -/
theorem deformation_gradient_translation {ncx ncz : Nat} {xmin zmin dx dz x z : K} {xg zg xe ze : Int → K}
    (Gv : InGrid (ncx + 1) (ncz + 1) xg zg xmin zmin dx dz x z) (Gc : InBox ncx ncz xe ze xmin zmin dx dz x z)
    (U V : K) (periodic : Bool) (junk : Quad Int) (dt : K) (tagP tagG : Int → Int) (phase : Int) (F : Tens K) :
    deformMarker (ncx + 1) (ncz + 1) periodic junk xg zg xe ze dx dz dt (fun _ => U) (fun _ => V) tagP tagG phase x z F =
      some F := by
  by_cases hp : phase = -1
  · simp [deformMarker, hp, deform]
  · obtain ⟨F', e, m⟩ := deformation_gradient_affine Gv Gc
      (show AffineVel ncx ncz xmin zmin dx dz U 0 0 V 0 0 (fun _ => U) (fun _ => V) from
        ⟨fun _ _ _ _ => by ring, fun _ _ _ _ => by ring⟩) periodic junk dt tagP tagG phase hp F
    rw [e]
    have z0 : (!![(0 : K), 0; 0, 0]) = 0 := by ext i j; fin_cases i <;> fin_cases j <;> rfl
    rw [z0, smul_zero, add_zero, one_mul] at m
    have h := fun i j => congrFun (congrFun m i) j
    have h00 := h 0 0
    have h01 := h 0 1
    have h10 := h 1 0
    have h11 := h 1 1
    simp [Tens.mat] at h00 h01 h10 h11
    cases F; cases F'; simp_all

/-- C80.  After any history of values the record is the largest of the starting record and all values. -/
theorem peak_is_maximum (vs : List K) (m : K) :
    (∀ v ∈ m :: vs, v ≤ vs.foldl (fun m v => record v m) m) ∧ vs.foldl (fun m v => record v m) m ∈ m :: vs := by
  induction vs generalizing m with
  | nil => simp
  | cons v vs ih =>
    obtain ⟨h1, h2⟩ := ih (record v m)
    have hm : m ≤ record v m ∧ v ≤ record v m ∧ (record v m = m ∨ record v m = v) := by
      unfold record
      split_ifs with h
      · exact ⟨le_of_lt h, le_rfl, Or.inr rfl⟩
      · exact ⟨le_rfl, not_lt.mp h, Or.inl rfl⟩
    have top := h1 (record v m) List.mem_cons_self
    refine ⟨fun w hw => ?_, ?_⟩
    · simp only [List.foldl_cons]
      rcases List.mem_cons.mp hw with rfl | hw
      · exact le_trans hm.1 top
      · rcases List.mem_cons.mp hw with rfl | hw
        · exact le_trans hm.2.1 top
        · exact h1 w (List.mem_cons_of_mem _ hw)
    · simp only [List.foldl_cons]
      rcases List.mem_cons.mp h2 with h | h
      · rw [h]; rcases hm.2.2 with h' | h' <;> rw [h'] <;> simp
      · simp [h]

/-- Non-vacuity of the geometric hypotheses: a marker in a box of two by two cells. -/
example : InGrid (2 + 1) (2 + 1) (fun j => (j : ℚ)) (fun j => (j : ℚ)) 0 0 1 1 (1 / 4) 2 ∧
    InBox 2 2 (fun j => (j : ℚ) - 1 / 2) (fun j => (j : ℚ) - 1 / 2) 0 0 1 1 (1 / 4) 2 :=
  ⟨⟨by norm_num, by norm_num, by norm_num, by norm_num, fun j => by ring, fun j => by ring,
    by norm_num, by norm_num, by norm_num, by norm_num⟩,
   ⟨by norm_num, by norm_num, by norm_num, by norm_num, fun j => by ring, fun j => by ring,
    by norm_num, by norm_num, by norm_num, by norm_num⟩⟩

end grid

/-! ### Strain ellipse -/

/-- A quadratic form takes the value of each of its eigenvalues on some unit vector. -/
theorem eigen_attained (p q r l : ℝ) (h : (l - p) * (l - r) = q ^ 2) :
    ∃ a b : ℝ, a ^ 2 + b ^ 2 = 1 ∧ p * a ^ 2 + 2 * q * (a * b) + r * b ^ 2 = l := by
  by_cases h0 : q = 0 ∧ l - p = 0
  · exact ⟨1, 0, by norm_num, by linear_combination -h0.2⟩
  · have hn : 0 < q ^ 2 + (l - p) ^ 2 := by
      rcases not_and_or.mp h0 with h1 | h1
      · have := sq_pos_of_ne_zero h1; have := sq_nonneg (l - p); linarith
      · have := sq_pos_of_ne_zero h1; have := sq_nonneg q; linarith
    have hs := Real.sq_sqrt (le_of_lt hn)
    have hs0 : Real.sqrt (q ^ 2 + (l - p) ^ 2) ≠ 0 := ne_of_gt (Real.sqrt_pos.mpr hn)
    refine ⟨q / Real.sqrt (q ^ 2 + (l - p) ^ 2), (l - p) / Real.sqrt (q ^ 2 + (l - p) ^ 2), ?_, ?_⟩
    · rw [div_pow, div_pow, hs, ← add_div, div_self (ne_of_gt hn)]
    · have e : p * (q / Real.sqrt (q ^ 2 + (l - p) ^ 2)) ^ 2 +
          2 * q * (q / Real.sqrt (q ^ 2 + (l - p) ^ 2) * ((l - p) / Real.sqrt (q ^ 2 + (l - p) ^ 2))) +
          r * ((l - p) / Real.sqrt (q ^ 2 + (l - p) ^ 2)) ^ 2 =
          (p * q ^ 2 + 2 * q * (q * (l - p)) + r * (l - p) ^ 2) / (Real.sqrt (q ^ 2 + (l - p) ^ 2)) ^ 2 := by
        field_simp
      rw [e, hs, div_eq_iff (ne_of_gt hn)]
      linear_combination -(l - p) * h

theorem form_bound (p q r l m : ℝ) (hs : l + m = p + r) (hd : l * m = p * r - q ^ 2) (hlm : m ≤ l) (a b : ℝ)
    (hab : a ^ 2 + b ^ 2 = 1) : m ≤ p * a ^ 2 + 2 * q * (a * b) + r * b ^ 2 ∧ p * a ^ 2 + 2 * q * (a * b) + r * b ^ 2 ≤ l := by
  have k : ∀ A B C : ℝ, 0 ≤ A + C → A * C = B ^ 2 → 0 ≤ A * a ^ 2 + 2 * B * (a * b) + C * b ^ 2 := by
    intro A B C h1 h2
    have hA : 0 ≤ A := by
      by_contra hA
      push Not at hA
      have hC : 0 < C := by linarith
      have := mul_neg_of_neg_of_pos hA hC
      have := sq_nonneg B
      linarith
    rcases eq_or_lt_of_le hA with h | h
    · have hB : B = 0 := by
        have : B ^ 2 = 0 := by rw [← h2, ← h]; ring
        exact pow_eq_zero_iff (by norm_num) |>.mp this
      have hC : 0 ≤ C := by linarith
      rw [hB, ← h]
      have := mul_nonneg hC (sq_nonneg b)
      linarith
    · have : 0 ≤ A * (A * a ^ 2 + 2 * B * (a * b) + C * b ^ 2) := by
        have e : A * (A * a ^ 2 + 2 * B * (a * b) + C * b ^ 2) = (A * a + B * b) ^ 2 := by
          linear_combination b ^ 2 * h2
        rw [e]; positivity
      exact nonneg_of_mul_nonneg_right this h
  have e1 : (l - p) * (l - r) = q ^ 2 := by linear_combination l * hs - hd
  have e2 : (p - m) * (r - m) = q ^ 2 := by linear_combination m * hs - hd
  have k1 := k (l - p) (-q) (l - r) (by linarith) (by rw [e1]; ring)
  have k2 := k (p - m) q (r - m) (by linarith) e2
  constructor
  · have : m * (a ^ 2 + b ^ 2) ≤ p * a ^ 2 + 2 * q * (a * b) + r * b ^ 2 := by nlinarith
    rw [hab] at this; linarith
  · have : p * a ^ 2 + 2 * q * (a * b) + r * b ^ 2 ≤ l * (a ^ 2 + b ^ 2) := by nlinarith
    rw [hab] at this; linarith

theorem stretches_unique {xx xz zx zz s1 s2 t1 t2 : ℝ} (h : Stretches xx xz zx zz s1 s2) (h' : Stretches xx xz zx zz t1 t2) :
    s1 = t1 ∧ s2 = t2 := by
  obtain ⟨a, b, hab, e⟩ := h.greatest
  obtain ⟨a', b', hab', e'⟩ := h'.greatest
  obtain ⟨c, d, hcd, f⟩ := h.least
  obtain ⟨c', d', hcd', f'⟩ := h'.least
  have g1 := (h'.bounds a b hab).2
  have g2 := (h.bounds a' b' hab').2
  have l1 := (h'.bounds c d hcd).1
  have l2 := (h.bounds c' d' hcd').1
  rw [e] at g1; rw [e'] at g2; rw [f] at l1; rw [f'] at l2
  exact ⟨le_antisymm (pow_le_pow_iff_left₀ h.nonneg h'.nonneg (by norm_num) |>.mp g1)
      (pow_le_pow_iff_left₀ h'.nonneg h.nonneg (by norm_num) |>.mp g2),
    le_antisymm (pow_le_pow_iff_left₀ h.pos.le h'.pos.le (by norm_num) |>.mp l2)
      (pow_le_pow_iff_left₀ h'.pos.le h.pos.le (by norm_num) |>.mp l1)⟩

/-- C79.  For an invertible deformation gradient the greatest and the least stretch exist, and the aspect ratio the
code reports is their quotient. -/
theorem aspect_ratio_of_strain_ellipse (F : Tens ℝ) (hF : F.mat.det ≠ 0) :
    (∃ s1 s2, Stretches F.xx F.xz F.zx F.zz s1 s2) ∧
    ∀ s1 s2, Stretches F.xx F.xz F.zx F.zz s1 s2 → aspect F = s1 / s2 := by
  suffices h : ∃ s1 s2, Stretches F.xx F.xz F.zx F.zz s1 s2 ∧ aspect F = s1 / s2 by
    obtain ⟨s1, s2, h, e⟩ := h
    refine ⟨⟨s1, s2, h⟩, fun t1 t2 h' => ?_⟩
    obtain ⟨e1, e2⟩ := stretches_unique h h'
    rw [e, e1, e2]
  have hdet : F.xx * F.zz - F.xz * F.zx ≠ 0 := by
    have : F.mat.det = F.xx * F.zz - F.xz * F.zx := by rw [Matrix.det_fin_two]; simp [Tens.mat]
    rwa [this] at hF
  set p := F.xx * F.xx + F.zx * F.zx with hp
  set q := F.xx * F.xz + F.zx * F.zz with hq
  set r := F.xz * F.xz + F.zz * F.zz with hr
  have hD : p * r - q * q = (F.xx * F.zz - F.xz * F.zx) ^ 2 := by rw [hp, hq, hr]; ring
  set s := Real.sqrt (p * r - q * q) with hs
  have hsv : s = |F.xx * F.zz - F.xz * F.zx| := by rw [hs, hD]; exact Real.sqrt_sq_eq_abs _
  have s0 : 0 < s := by rw [hsv]; exact abs_pos.mpr hdet
  have s2 : s ^ 2 = p * r - q * q := by rw [hsv, hD]; exact sq_abs _
  have tr : 2 * s ≤ p + r := by
    rw [hsv]
    rcases abs_cases (F.xx * F.zz - F.xz * F.zx) with ⟨h, _⟩ | ⟨h, _⟩ <;> rw [h, hp, hr] <;>
      nlinarith [sq_nonneg (F.xx - F.zz), sq_nonneg (F.xz + F.zx), sq_nonneg (F.xx + F.zz), sq_nonneg (F.xz - F.zx)]
  set t := Real.sqrt (p + r + 2 * s) with ht
  have t2 : t ^ 2 = p + r + 2 * s := Real.sq_sqrt (by linarith)
  have t0 : 0 < t := Real.sqrt_pos.mpr (by linarith)
  have tne := ne_of_gt t0
  have trU : 1 / t * (p + s) + 1 / t * (r + s) = t := by
    field_simp; linear_combination -t2
  have detU : 1 / t * (p + s) * (1 / t * (r + s)) - 1 / t * q * (1 / t * q) = s := by
    have e : 1 / t * (p + s) * (1 / t * (r + s)) - 1 / t * q * (1 / t * q) = ((p + s) * (r + s) - q * q) / t ^ 2 := by
      field_simp
    rw [e, div_eq_iff (by positivity), t2]
    linear_combination -s2
  have key : aspect F = (t / 2 + Real.sqrt (t * t / 4 - s)) / (t / 2 - Real.sqrt (t * t / 4 - s)) := by
    unfold aspect
    simp only
    rw [← hp, ← hq, ← hr, ← hs, ← ht, trU, detU]
  set d := Real.sqrt (t * t / 4 - s) with hd
  have d0 : 0 ≤ d := Real.sqrt_nonneg _
  have d2 : d ^ 2 = t * t / 4 - s := Real.sq_sqrt (by nlinarith)
  have prod : (t / 2 + d) * (t / 2 - d) = s := by linear_combination -d2
  have e1 : 0 < t / 2 + d := by linarith
  have e2 : 0 < t / 2 - d := by
    by_contra h
    push Not at h
    have := mul_nonpos_of_nonneg_of_nonpos e1.le h
    linarith
  have hsum : (t / 2 + d) ^ 2 + (t / 2 - d) ^ 2 = p + r := by linear_combination 2 * d2 + t2
  have hprod : (t / 2 + d) ^ 2 * (t / 2 - d) ^ 2 = p * r - q ^ 2 := by
    rw [← mul_pow, prod]; linear_combination s2
  have form : ∀ a b : ℝ, imageSq F.xx F.xz F.zx F.zz a b = p * a ^ 2 + 2 * q * (a * b) + r * b ^ 2 := by
    intro a b; unfold imageSq; rw [hp, hq, hr]; ring
  refine ⟨t / 2 + d, t / 2 - d, ⟨e2, ?_, ?_, ?_, e1.le⟩, key⟩
  · intro a b hab
    rw [form]
    exact form_bound p q r _ _ hsum hprod (pow_le_pow_left₀ e2.le (by linarith) 2) a b hab
  · obtain ⟨a, b, hab, e⟩ := eigen_attained p q r ((t / 2 + d) ^ 2) (by linear_combination (t / 2 + d) ^ 2 * hsum - hprod)
    exact ⟨a, b, hab, by rw [form, e]⟩
  · obtain ⟨a, b, hab, e⟩ := eigen_attained p q r ((t / 2 - d) ^ 2) (by linear_combination (t / 2 - d) ^ 2 * hsum - hprod)
    exact ⟨a, b, hab, by rw [form, e]⟩

/-- C79 (consequences): the ratio is at least one, it is one for the undeformed state, and rigid rotation after the
deformation does not change it. -/
theorem aspect_ratio_facts (F : Tens ℝ) (hF : F.mat.det ≠ 0) :
    1 ≤ aspect F ∧ aspect ⟨1, 0, 0, 1⟩ = 1 ∧
    ∀ θ : ℝ, aspect ⟨Real.cos θ * F.xx - Real.sin θ * F.zx, Real.cos θ * F.xz - Real.sin θ * F.zz,
      Real.sin θ * F.xx + Real.cos θ * F.zx, Real.sin θ * F.xz + Real.cos θ * F.zz⟩ = aspect F := by
  obtain ⟨⟨s1, s2, h⟩, hA⟩ := aspect_ratio_of_strain_ellipse F hF
  refine ⟨?_, ?_, ?_⟩
  · rw [hA s1 s2 h, le_div_iff₀ h.pos, one_mul]
    obtain ⟨a, b, hab, e⟩ := h.greatest
    have := (h.bounds a b hab).1
    rw [e] at this
    exact pow_le_pow_iff_left₀ h.pos.le h.nonneg (by norm_num) |>.mp this
  · have st : Stretches 1 0 0 1 1 1 :=
      ⟨by norm_num, fun a b h => by unfold imageSq; constructor <;> linarith, ⟨1, 0, by norm_num, by norm_num [imageSq]⟩,
        ⟨1, 0, by norm_num, by norm_num [imageSq]⟩, by norm_num⟩
    have d1 : (⟨1, 0, 0, 1⟩ : Tens ℝ).mat.det ≠ 0 := by rw [Matrix.det_fin_two]; simp [Tens.mat]
    rw [(aspect_ratio_of_strain_ellipse ⟨1, 0, 0, 1⟩ d1).2 1 1 st]; norm_num
  · intro θ
    have cs := Real.cos_sq_add_sin_sq θ
    unfold aspect
    simp only
    have e1 : (Real.cos θ * F.xx - Real.sin θ * F.zx) * (Real.cos θ * F.xx - Real.sin θ * F.zx) +
        (Real.sin θ * F.xx + Real.cos θ * F.zx) * (Real.sin θ * F.xx + Real.cos θ * F.zx) = F.xx * F.xx + F.zx * F.zx := by
      linear_combination (F.xx * F.xx + F.zx * F.zx) * cs
    have e2 : (Real.cos θ * F.xx - Real.sin θ * F.zx) * (Real.cos θ * F.xz - Real.sin θ * F.zz) +
        (Real.sin θ * F.xx + Real.cos θ * F.zx) * (Real.sin θ * F.xz + Real.cos θ * F.zz) = F.xx * F.xz + F.zx * F.zz := by
      linear_combination (F.xx * F.xz + F.zx * F.zz) * cs
    have e3 : (Real.cos θ * F.xz - Real.sin θ * F.zz) * (Real.cos θ * F.xz - Real.sin θ * F.zz) +
        (Real.sin θ * F.xz + Real.cos θ * F.zz) * (Real.sin θ * F.xz + Real.cos θ * F.zz) = F.xz * F.xz + F.zz * F.zz := by
      linear_combination (F.xz * F.xz + F.zz * F.zz) * cs
    rw [e1, e2, e3]

/-- Non-vacuity: simple shear has determinant one, and its ellipse is not a circle. -/
example : (⟨1, 2, 0, 1⟩ : Tens ℝ).mat.det ≠ 0 := by rw [Matrix.det_fin_two]; simp [Tens.mat]

/-! ### Rotation of the stress -/

/-- The in-plane stress of a marker as a matrix. -/
def Dev.mat (s : Dev) : Matrix (Fin 2) (Fin 2) ℝ := !![s.xx, s.xz; s.xz, s.zz]

/-- C82 is false: whatever the mode, the time step and the vorticity field, the block that rotates the stresses returns
every marker stress unchanged, and it sets the vorticity of every vertex near an active marker to zero. -/
theorem stress_never_rotated {g : P2M.Fam ℝ} {ms : Nat → P2M.Mk ℝ} {n : Nat} {x0 z0 : ℝ} (ok : P2M.Ok g ms n x0 z0)
    (hx : 2 ≤ g.Nx) (lg ex : ℝ → ℝ) {ls : List (List Nat)} (hd : Distribution n ls) (flagG : Nat → Int)
    (mode : Int) (dt : ℝ) (wxz : Nat → ℝ) (s : Nat → Dev) :
    (rotateAll g lg ex ms ls flagG mode dt wxz s).2 = s ∧
    ∀ c r, c < g.Nx → r < g.Nz → (∀ c' ∈ P2M.sources g c, P2M.Fed g ms n flagG c' r) →
      (rotateAll g lg ex ms ls flagG mode dt wxz s).1 (c + r * g.Nx) = 0 := by
  refine ⟨?_, fun c r hc hr hf => ?_⟩
  · funext k
    unfold rotateAll rotate
    simp only [mul_zero, Real.cos_zero, Real.sin_zero, mul_one, add_zero, zero_add, sub_zero, neg_zero]
    split_ifs <;> rfl
  · unfold rotateAll
    exact (P2M.constant_reproduced ok hx lg ex 0 hd flagG wxz c r hc hr hf).1

/-- What turning by an angle does to a stress. -/
theorem turned_mat (c s : ℝ) (T : Dev) : turned c s T.mat =
    !![c * (c * T.xx - s * T.xz) - s * (c * T.xz - s * T.zz), s * (c * T.xx - s * T.xz) + c * (c * T.xz - s * T.zz);
      c * (s * T.xx + c * T.xz) - s * (s * T.xz + c * T.zz), s * (s * T.xx + c * T.xz) + c * (s * T.xz + c * T.zz)] := by
  unfold turned Dev.mat
  ext i j
  fin_cases i <;> fin_cases j <;> simp [Matrix.mul_apply, Fin.sum_univ_two] <;> ring

/-- C82 (what is missing).  A marker that turns with the fluid by the angle `dt * w` should have its stress turned by
that angle.  Unless the angle is a multiple of a half turn or the stress isotropic, the unchanged stress
is not the turned one. -/
theorem rotation_needed (θ : ℝ) (hθ : Real.sin θ ≠ 0) (T : Dev) (hT : shearSq T.xx T.zz T.xz ≠ 0) :
    turned (Real.cos θ) (Real.sin θ) T.mat ≠ T.mat := by
  intro h
  rw [turned_mat] at h
  have h00 := congrFun (congrFun h 0) 0
  have h01 := congrFun (congrFun h 0) 1
  have h11 := congrFun (congrFun h 1) 1
  simp [Dev.mat] at h00 h01 h11
  have cs := Real.cos_sq_add_sin_sq θ
  generalize Real.cos θ = c at *
  generalize Real.sin θ = s at *
  -- the deviator turns by twice the angle
  have a1 : -(2 * s ^ 2) * ((T.xx - T.zz) / 2) - 2 * (s * c) * T.xz = 0 := by
    have : (1 - 2 * s ^ 2) = c ^ 2 - s ^ 2 := by linear_combination -cs
    linear_combination (h00 - h11) / 2 - (T.xx - T.zz) / 2 * cs
  have a2 : 2 * (s * c) * ((T.xx - T.zz) / 2) - 2 * s ^ 2 * T.xz = 0 := by
    linear_combination h01 - T.xz * cs
  have b1 : s * ((T.xx - T.zz) / 2) + c * T.xz = 0 := by
    have : (-(2 * s)) * (s * ((T.xx - T.zz) / 2) + c * T.xz) = 0 := by linear_combination a1
    rcases mul_eq_zero.mp this with h | h
    · exact absurd (by linarith) hθ
    · exact h
  have b2 : c * ((T.xx - T.zz) / 2) - s * T.xz = 0 := by
    have : (2 * s) * (c * ((T.xx - T.zz) / 2) - s * T.xz) = 0 := by linear_combination a2
    rcases mul_eq_zero.mp this with h | h
    · exact absurd (by linarith) hθ
    · exact h
  apply hT
  unfold shearSq
  have : (c ^ 2 + s ^ 2) * (((T.xx - T.zz) / 2) ^ 2 + T.xz ^ 2) = 0 := by
    linear_combination (s * ((T.xx - T.zz) / 2) + c * T.xz) * b1 + (c * ((T.xx - T.zz) / 2) - s * T.xz) * b2
  rwa [cs, one_mul] at this

/-- Non-vacuity: a quarter turn of pure shear stress. -/
example : Real.sin (Real.pi / 2) ≠ 0 ∧ shearSq 1 (-1) 0 ≠ 0 := by
  constructor
  · rw [Real.sin_pi_div_two]; norm_num
  · norm_num [shearSq]

/-- The vorticity of the rigid rotation `vx = -w z`, `vz = w x` is `w`, counter-clockwise. -/
theorem vorticity_of_rotation (w x0 x1 z0 z1 : ℝ) (hx : x0 ≠ x1) (hz : z0 ≠ z1) :
    vorticity ((w * x1 - w * x0) / (x1 - x0)) ((-w * z1 - -w * z0) / (z1 - z0)) = w := by
  have h1 : x1 - x0 ≠ 0 := sub_ne_zero.mpr hx.symm
  have h2 : z1 - z0 ≠ 0 := sub_ne_zero.mpr hz.symm
  unfold vorticity
  field_simp
  ring

/-- C82 (formulas), were they given a vorticity `w`.  Mode 2 turns the stress by `dt * w` *clockwise*, against the
fluid; mode 1 is the first-order rotation with the fluid, `dt w (J T - T J)` with `J` the quarter turn. -/
theorem rotation_formulas (dt w : ℝ) (T : Dev) :
    (rotate 2 dt w T).mat = turned (Real.cos (-(dt * w))) (Real.sin (-(dt * w))) T.mat ∧
    (rotate 1 dt w T).mat = T.mat + (dt * w) • (!![0, -1; 1, 0] * T.mat - T.mat * !![0, -1; 1, 0]) := by
  constructor
  · rw [turned_mat, Real.cos_neg, Real.sin_neg]
    ext i j
    fin_cases i <;> fin_cases j <;> simp [Dev.mat, rotate] <;> ring
  · ext i j
    fin_cases i <;> fin_cases j <;> simp [Dev.mat, rotate, Matrix.mul_apply, Fin.sum_univ_two] <;> ring

/-- C82 (invariants of the formulas): both keep the trace; mode 2 keeps the second invariant, mode 1 makes it grow by the
factor `1 + 4 (dt w)²`; other values of the switch do nothing. -/
theorem rotation_invariants (dt w : ℝ) (T : Dev) :
    (∀ mode, (rotate mode dt w T).xx + (rotate mode dt w T).zz = T.xx + T.zz) ∧
    shearSq (rotate 2 dt w T).xx (rotate 2 dt w T).zz (rotate 2 dt w T).xz = shearSq T.xx T.zz T.xz ∧
    shearSq (rotate 1 dt w T).xx (rotate 1 dt w T).zz (rotate 1 dt w T).xz =
      (1 + 4 * (dt * w) ^ 2) * shearSq T.xx T.zz T.xz ∧
    ∀ mode, mode ≠ 1 → mode ≠ 2 → rotate mode dt w T = T := by
  have cs := Real.cos_sq_add_sin_sq (dt * w)
  refine ⟨fun mode => ?_, ?_, ?_, fun mode h1 h2 => by simp [rotate, h1, h2]⟩
  · unfold rotate
    by_cases h2 : mode = 2
    · simp only [h2, if_true]
      linear_combination (T.xx + T.zz) * cs
    · by_cases h1 : mode = 1
      · simp [h1]
      · simp [h1, h2]
  · simp only [rotate, if_true, shearSq]
    generalize Real.cos (dt * w) = c at *
    generalize Real.sin (dt * w) = s at *
    have e : (((T.xx * c + T.xz * s) * c + (T.xz * c + T.zz * s) * s - (-(-T.xx * s + T.xz * c) * s + (-T.xz * s + T.zz * c) * c)) / 2) ^ 2 +
        (-(T.xx * c + T.xz * s) * s + (T.xz * c + T.zz * s) * c) ^ 2 = (c ^ 2 + s ^ 2) ^ 2 * (((T.xx - T.zz) / 2) ^ 2 + T.xz ^ 2) := by ring
    rw [e, cs]; ring
  · simp [rotate, shearSq]; ring

end Verif.Hist
