import Verif.Model.Numbering
import Mathlib.Algebra.Group.Basic

/-
`ApplyBC` (/repo/MDLIB/StokesRoutines.c:413-508): fills the ghost nodes of the staggered velocity
fields, and the complete `ExtractSolutions2` (534-574).
`nx = Nx`, `nzvx = Nz+1`, `nxvz = Nx+1`.
-/
namespace Verif

/-- Boundary values (mesh->BCu.val, BCv.val). -/
structure BCVals (K : Type*) where
  u : Nat → K
  v : Nat → K

variable {K : Type*}

/-- "Vx Neumann" loop, StokesRoutines.c:419-428. -/
def bcVxNeumann (Nx Nz : Nat) (tag : Nat → Int) (u : Nat → K) : Nat → K :=
  forUp Nx u fun u i =>
    let u1 := if tag i == 13 then upd u i (u (i + Nx)) else u
    if tag (i + Nz * Nx) == 13 then upd u1 (i + Nz * Nx) (u1 (i + (Nz - 1) * Nx)) else u1

/-- "Vx Dirichlet" loop, StokesRoutines.c:446-457. -/
def bcVxDirichlet [Sub K] (Nx Nz : Nat) (tag : Nat → Int) (val : Nat → K) (u : Nat → K) : Nat → K :=
  forUp Nx u fun u i =>
    let u1 := if tag i == 11 then upd u i (val i - u (i + Nx)) else u
    let iN := i + Nz * Nx
    if tag iN == 11 then upd u1 iN (val iN - u1 (iN - Nx)) else u1

/-- "Vx Periodic" loop, StokesRoutines.c:496-500. -/
def bcVxPeriodic (Nx Nz : Nat) (tag : Nat → Int) (u : Nat → K) : Nat → K :=
  forUp (Nz + 1) u fun u j =>
    if tag (j * Nx + Nx - 1) == -12 then upd u (j * Nx + Nx - 1) (u (j * Nx)) else u

/-- "Vz Neumann" loop, StokesRoutines.c:460-469. -/
def bcVzNeumann (Nx Nz : Nat) (tag : Nat → Int) (v : Nat → K) : Nat → K :=
  forUp Nz v fun v j =>
    let w := j * (Nx + 1)
    let e := j * (Nx + 1) + Nx
    let v1 := if tag w == 13 then upd v w (v (w + 1)) else v
    if tag e == 13 then upd v1 e (v1 (e - 1)) else v1

/-- "Vz Dirichlet" loop, StokesRoutines.c:472-481. -/
def bcVzDirichlet [Sub K] (Nx Nz : Nat) (tag : Nat → Int) (val : Nat → K) (v : Nat → K) : Nat → K :=
  forUp Nz v fun v j =>
    let w := j * (Nx + 1)
    let e := j * (Nx + 1) + Nx
    let v1 := if tag w == 11 then upd v w (val w - v (w + 1)) else v
    if tag e == 11 then upd v1 e (val e - v1 (e - 1)) else v1

/-- "Vz Periodic" loop, StokesRoutines.c:484-493. -/
def bcVzPeriodic (Nx Nz : Nat) (tag : Nat → Int) (v : Nat → K) : Nat → K :=
  forUp Nz v fun v j =>
    let w := j * (Nx + 1)
    let e := j * (Nx + 1) + Nx
    let v1 := if tag w == -12 then upd v w (v (e - 1)) else v
    if tag e == -12 then upd v1 e (v1 (w + 1)) else v1

/-- `ApplyBC`, StokesRoutines.c:413-508 (the Vx and Vz loops touch different arrays, so their
relative order is immaterial). Pressure is not touched. -/
def applyBC [Sub K] (Nx Nz : Nat) (t : Tags) (bc : BCVals K) (f : Fields K) : Fields K :=
  { u := bcVxPeriodic Nx Nz t.u (bcVxDirichlet Nx Nz t.u bc.u (bcVxNeumann Nx Nz t.u f.u))
    v := bcVzPeriodic Nx Nz t.v (bcVzDirichlet Nx Nz t.v bc.v (bcVzNeumann Nx Nz t.v f.v))
    p := f.p }

/-- `ExtractSolutions2`, StokesRoutines.c:534-574. -/
def extractSolutions [Add K] [Mul K] [Sub K] (Nx Nz : Nat) (t : Tags) (bc : BCVals K)
    (n : Numbering) (oob : K) (dx : Nat → K) (alpha : K) (f : Fields K) : Fields K :=
  applyBC Nx Nz t bc (extractSolutionsCore Nx Nz t n oob dx alpha f)

end Verif
