import Verif.Props.StressBC
import Verif.Props.Symmetry
import Mathlib.Data.Rat.Defs
import Mathlib.Algebra.Order.Field.Rat

/- Concrete meshes meeting the hypotheses of the theorems on Stokes rows (C07-C10). -/
namespace Verif

/-- 5 x 5 vertices, free slip at the bottom, no slip at the top, closed sides, cell 15 is air. -/
def demoMesh : SMesh ℚ where
  Nx := 5
  Nz := 5
  dx := 2
  dz := 3
  tu i := if i % 5 = 0 ∨ i % 5 = 4 then 0 else if i / 5 = 0 then 13 else if i / 5 = 5 then 11 else -1
  tv i := if i % 6 = 0 ∨ i % 6 = 5 then 13 else if i / 6 = 0 ∨ i / 6 = 4 then 0 else -1
  tp i := if i = 15 then 31 else -1
  tg i := if i = 15 ∨ i = 20 then 30 else -1
  bu i := i
  bv i := i
  bp _ := 0
  D11 i := if i = 15 then 0 else i * i + 1
  D22 i := if i = 15 then 0 else i * i + 1
  D33 i := i + 1
  rho i := i
  gx _ := 0
  gz _ := -1
  oop := true
  comp := true
  stab := true
  theta := 1
  dt := 1

/-- The same mesh without stabilisation. -/
def demoMesh0 : SMesh ℚ := { demoMesh with stab := false }

/-- A sheared and stretched velocity field that respects the free-slip ghosts at the bottom. -/
def demoU (i : Int) : ℚ := ((i % 5 : Int) : ℚ) ^ 2
def demoV (i : Int) : ℚ := if i % 6 = 0 ∨ i % 6 = 5 then 0 else ((i % 6 : Int) : ℚ) * (i / 6 : Int) + 1

/-- C07: two of the four unknowns of this row are prescribed. -/
example : (buildRow demoMesh (fun | .u i => i | .v i => 100 + i | .p i => 200 + i)
    (cStencil demoMesh 0 0)).entries.length = 2 ∧
    (buildRow demoMesh (fun | .u i => i | .v i => 100 + i | .p i => 200 + i)
    (cStencil demoMesh 0 0)).rhs ≠ 0 := by decide +kernel

theorem demo_noair : ∀ n : SNode, demoMesh.tag n ≠ 30 := by
  intro n; cases n <;> simp only [SMesh.tag, demoMesh] <;> split_ifs <;> decide

/-- C08 at a node next to the free-slip bottom; the row value is not zero. -/
example : applyTo (atNode demoU demoV fun i => i) (xStencil demoMesh 2 1 ++ xStencilP demoMesh 2 1) =
      xResidual demoMesh (tauxx demoMesh demoU demoV) (tauxz demoMesh demoU demoV) (fun i => i) 0
        demoU 2 1 :=
  (x_row_stress_balance demoMesh 2 1 (by decide +kernel) (by decide +kernel) (by decide) (by decide)
    (by decide) demoU demoV (fun i => i) (fun n _ h => absurd h (demo_noair n))
    (by constructor <;> intro h <;> revert h <;> decide +kernel)
    (by constructor <;> intro h <;> revert h <;> decide +kernel)
    (by unfold CellOk; decide) (by unfold CellOk; decide)).2

example : applyTo (atNode demoU demoV fun i => i) (xStencil demoMesh 2 1 ++ xStencilP demoMesh 2 1) ≠ 0 := by
  decide +kernel

theorem demo_D : ∀ c, demoMesh.tp c ≠ -1 → demoMesh.D22 c = 0 := by
  intro c h
  simp only [demoMesh] at h ⊢
  split_ifs at h ⊢ with h1
  · rfl
  · exact absurd rfl h

/-- C08, z-direction. -/
example : applyTo (atNode demoU demoV fun i => i) (zStencil demoMesh 2 2 ++ zStencilP demoMesh 2 2) =
      zResidual demoMesh (tauzz demoMesh demoU demoV) (tauxz demoMesh demoU demoV) (fun i => i) 0
        demoV 2 2 :=
  (z_row_stress_balance demoMesh 2 2 (by decide +kernel) (by decide +kernel) (by decide) (by decide)
    (by decide) (by decide) demoU demoV (fun i => i) (fun n _ h => absurd h (demo_noair n)) demo_D
    (by intro h; revert h; decide) (by intro h; revert h; decide)
    (by constructor <;> intro h <;> revert h <;> decide +kernel)
    (by constructor <;> intro h <;> revert h <;> decide +kernel)
    (by unfold CellOk; decide) (by unfold CellOk; decide)).2

example : applyTo (atNode demoU demoV fun i => i) (zStencil demoMesh 2 2 ++ zStencilP demoMesh 2 2) ≠ 0 := by
  decide +kernel

/-- C09 on the same mesh with a genuine rotation. -/
example : applyTo (atNode (rigidU demoMesh0 3 2) (rigidV demoMesh0 1 2) fun _ => 0)
    (xStencil demoMesh0 2 2) = 0 :=
  rigid_no_force_x demoMesh0 2 2 (by decide +kernel) (by decide +kernel) (by decide) (by decide)
    (by decide) rfl (fun n _ h => demo_noair n h) (by decide) (by decide) (by unfold CellOk; decide)
    (by unfold CellOk; decide) 3 1 2

example : applyTo (atNode (rigidU demoMesh0 3 2) (rigidV demoMesh0 1 2) fun _ => 0)
    (zStencil demoMesh0 2 2) = 0 :=
  rigid_no_force_z demoMesh0 2 2 (by decide +kernel) (by decide +kernel) (by decide) (by decide)
    (by decide) (by decide) rfl (fun n _ h => demo_noair n h) demo_D (by decide) (by decide)
    (by unfold CellOk; decide) (by unfold CellOk; decide) 3 1 2

/-- C10: a Vx-Vz coupling next to the air cell; the coefficient is not zero. -/
example : coeff (xStencil demoMesh 2 3) (.v (2 + 3 * 6)) = coeff (zStencil demoMesh 2 3) (.u (2 + 3 * 5)) :=
  stokes_velocity_block_symmetric demoMesh (fun _ => rfl)
    (fun c h => demo_D c h)
    (by intro i; simp only [demoMesh]; split_ifs <;> decide) _ _ _ _
    (.x 2 3 (by decide) (by decide) (by decide))
    (.z 2 3 (by decide) (by decide) (by decide) (by decide) (by decide))

example : coeff (xStencil demoMesh 2 3) (.v (2 + 3 * 6)) ≠ 0 := by decide +kernel

example : coeff (cStencil demoMesh 2 2) (.u (2 + 3 * 5)) =
    -(if demoMesh.oop then 3/2 else 1) * coeff (xStencilP demoMesh 2 3) (.p (2 + 2 * 4)) :=
  gradient_is_minus_divergence_transpose demoMesh
    (by intro i; simp only [demoMesh]; split_ifs <;> decide) _ _ _ _
    (.x 2 3 (by decide) (by decide) (by decide)) (.c 2 2 (by decide) (by decide) (by decide))

example : coeff (cStencil demoMesh 2 2) (.u (2 + 3 * 5)) ≠ 0 := by decide +kernel

/-- Stress boundaries on all four sides. -/
def stressMesh : SMesh ℚ :=
  { demoMesh with
    tu := fun i => if i / 5 = 0 then 13 else if i / 5 = 5 then 11 else if i % 5 = 0 ∨ i % 5 = 4 then 2 else -1
    tv := fun i => if i % 6 = 0 then 11 else if i % 6 = 5 then 13 else if i / 6 = 0 ∨ i / 6 = 4 then 2 else -1 }

/-- A field that respects the ghosts of `stressMesh`. -/
def stressU (i : Int) : ℚ := if i / 5 = 5 then -((i % 5 : Int) : ℚ) ^ 2 else ((i % 5 : Int) : ℚ) ^ 2
def stressV (i : Int) : ℚ :=
  if i % 6 = 0 then -(i / 6 : Int) - 3 else if i % 6 = 1 then (i / 6 : Int) + 3 else 7 * (i / 6 : Int)

theorem stress_noair : ∀ n : SNode, stressMesh.tag n ≠ 30 := by
  intro n; cases n <;> simp only [SMesh.tag, stressMesh, demoMesh] <;> split_ifs <;> decide

theorem stress_air (p : Int → ℚ) : AirZero stressMesh stressU stressV p :=
  ⟨fun i h => absurd h (stress_noair (.u i)), fun i h => absurd h (stress_noair (.v i)),
   fun i h => absurd h (stress_noair (.p i))⟩

example : applyTo (atNode stressU stressV fun i => i) (xStencil stressMesh 0 2 ++ xStencilP stressMesh 0 2) +
      stressMesh.dx * stressMesh.dz * stressMesh.bu (0 + 2 * stressMesh.Nx) / stressMesh.dx =
    xResidual stressMesh (tauxx stressMesh stressU stressV) (tauxz stressMesh stressU stressV)
      (fun i => i) 0 stressU 0 2 :=
  x_row_stress_west stressMesh 2 (by decide +kernel) (by decide +kernel) (by decide) (by decide)
    stressU stressV (fun i => i) (stress_air _)
    (by constructor <;> intro h <;> revert h <;> decide +kernel)
    (by constructor <;> intro h <;> revert h <;> decide +kernel)
    (by constructor <;> intro h <;> revert h <;> decide +kernel)
    (by constructor <;> intro h <;> revert h <;> decide +kernel) (by unfold CellOk; decide)

example : applyTo (atNode stressU stressV fun i => i) (xStencil stressMesh 4 2 ++ xStencilP stressMesh 4 2) -
      stressMesh.dx * stressMesh.dz * stressMesh.bu (4 + 2 * stressMesh.Nx) / stressMesh.dx =
    xResidual stressMesh (tauxx stressMesh stressU stressV) (tauxz stressMesh stressU stressV)
      (fun i => i) 0 stressU 4 2 :=
  x_row_stress_east stressMesh 4 2 (by decide +kernel) (by decide +kernel) (by decide) (by decide)
    (by decide)
    stressU stressV (fun i => i) (stress_air _)
    (by constructor <;> intro h <;> revert h <;> decide +kernel)
    (by constructor <;> intro h <;> revert h <;> decide +kernel)
    (by constructor <;> intro h <;> revert h <;> decide +kernel)
    (by constructor <;> intro h <;> revert h <;> decide +kernel) (by unfold CellOk; decide)

example : applyTo (atNode stressU stressV fun i => i) (zStencil stressMesh 2 0 ++ zStencilP stressMesh 2 0) +
      stressMesh.dx * stressMesh.dz * stressMesh.bv (2 + 0 * (stressMesh.Nx + 1)) / stressMesh.dz =
    zResidual stressMesh (tauzz stressMesh stressU stressV) (tauxz stressMesh stressU stressV)
      (fun i => i) 0 stressV 2 0 :=
  z_row_stress_south stressMesh 2 0 (by decide +kernel) (by decide +kernel) (by decide) (by decide)
    (by decide) (by decide) (by decide) (by decide) (by decide)
    stressU stressV (fun i => i) (stress_air _) demo_D
    (by constructor <;> intro h <;> revert h <;> decide +kernel)
    (by constructor <;> intro h <;> revert h <;> decide +kernel)
    (by constructor <;> intro h <;> revert h <;> decide +kernel)
    (by constructor <;> intro h <;> revert h <;> decide +kernel) (by unfold CellOk; decide)

example : applyTo (atNode stressU stressV fun i => i) (zStencil stressMesh 2 4 ++ zStencilP stressMesh 2 4) -
      stressMesh.dx * stressMesh.dz * stressMesh.bv (2 + 4 * (stressMesh.Nx + 1)) / stressMesh.dz =
    zResidual stressMesh (tauzz stressMesh stressU stressV) (tauxz stressMesh stressU stressV)
      (fun i => i) 0 stressV 2 4 :=
  z_row_stress_north stressMesh 2 4 (by decide +kernel) (by decide +kernel) (by decide) (by decide)
    (by decide) (by decide) (by decide) (by decide) (by decide)
    stressU stressV (fun i => i) (stress_air _) demo_D
    (by constructor <;> intro h <;> revert h <;> decide +kernel)
    (by constructor <;> intro h <;> revert h <;> decide +kernel)
    (by constructor <;> intro h <;> revert h <;> decide +kernel)
    (by constructor <;> intro h <;> revert h <;> decide +kernel) (by unfold CellOk; decide)

/-- A periodic mesh and a field with the matching copies. -/
def perMesh : SMesh ℚ :=
  { demoMesh with
    tu := fun i => if i / 5 = 0 then 13 else if i / 5 = 5 then 11 else if i % 5 = 0 then -2
      else if i % 5 = 4 then -12 else -1
    tv := fun i => if i % 6 = 0 ∨ i % 6 = 5 then -12 else if i / 6 = 0 ∨ i / 6 = 4 then 0 else -1 }
def perU (i : Int) : ℚ := if i / 5 = 5 then 0 else (((i % 5) % 4 : Int) : ℚ) ^ 2
def perV (i : Int) : ℚ := (((i % 6) % 4 : Int) : ℚ) * (i / 6 : Int)

example : applyTo (atNode perU perV fun i => i) (xStencil perMesh 0 2 ++ xStencilP perMesh 0 2) =
    xResidual perMesh (tauxx perMesh perU perV) (tauxz perMesh perU perV) (fun i => i) 0 perU 0 2 :=
  (x_row_stress_balance_periodic perMesh 2 (by decide +kernel) (by decide +kernel) (by decide)
    (by decide) perU perV (fun i => i)
    (fun n _ h => by
      exfalso; revert h
      cases n <;> simp only [SMesh.tag, perMesh, demoMesh] <;> split_ifs <;> decide)
    (by decide +kernel) (by decide +kernel) (by decide +kernel)
    (by constructor <;> intro h <;> revert h <;> decide +kernel)
    (by constructor <;> intro h <;> revert h <;> decide +kernel)
    (by unfold CellOk; decide) (by unfold CellOk; decide)).2

end Verif
