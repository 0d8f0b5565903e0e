import Verif.Model.Numbering
import Verif.Model.Stencil
import Mathlib.Analysis.Real.Sqrt
import Mathlib.Analysis.SpecialFunctions.Trigonometric.Arctan

/-
Body forces and residual norms of the Stokes system:
/repo/MDLIB/StokesRoutines.c  EvaluateStokesResidualDecoupled 830-919 and EvaluateRHS 925-1119,
/repo/MDLIB/StokesAssemblyDecoupled.c  right-hand side of the momentum rows 1357-1377.
-/
namespace Verif.Resid
open Verif

section
variable {K : Type*} [Field K]

/-- State of one of the loops of EvaluateStokesResidualDecoupled: the residual vector `F` of the
block, the nodal copy (mesh->ru, rv or rp), the sum of squares and the number of equations counted. -/
structure PassSt (K : Type*) where
  F : Nat → K
  r : Nat → K
  sum : K
  ndof : Nat

/-- Body of the two momentum loops, StokesRoutines.c:854-864 and 869-879.  `e` is the equation number
of node `cc`; `cover` is the row (or column) test of line 860 (875). -/
def momBody (cover : Nat → Bool) (tag eqn : Nat → Int) (d : Nat → K) (s : PassSt K) (cc : Nat) : PassSt K :=
  if extractVel (tag cc) then
    let e := (eqn cc).toNat
    let r := upd s.r cc (s.F e)
    let F := upd s.F e (s.F e * d e)
    if cover cc then { F := F, r := r, sum := s.sum + F e * F e, ndof := s.ndof + 1 }
    else { s with F := F, r := r }
  else s

/-- Body of the continuity loop, StokesRoutines.c:883-889: the sum is taken before scaling. -/
def contBody (neqMom : Nat) (tag eqn : Nat → Int) (d : Nat → K) (s : PassSt K) (cc : Nat) : PassSt K :=
  if extractP (tag cc) then
    let e := (eqn cc - neqMom).toNat
    { F := upd s.F e (s.F e * d e), r := upd s.r cc (s.F e), sum := s.sum + s.F e * s.F e, ndof := s.ndof + 1 }
  else s

/-- Row test of the Vx loop, StokesRoutines.c:856 and 860 (`l = lvx[cc]`, GridRoutines.c:541-584). -/
def coverU (Nx Nz cc : Nat) : Bool := decide (2 < cc / Nx ∧ cc / Nx + 2 < Nz + 1)

/-- Column test of the Vz loop, StokesRoutines.c:871 and 875 (`k = kvz[cc]`). -/
def coverV (Nx cc : Nat) : Bool := decide (2 < cc % (Nx + 1) ∧ cc % (Nx + 1) + 2 < Nx + 1)

/-- The three `omp parallel for` loops with reductions (StokesRoutines.c:852-890), iterations in the
order in which they happen.  The reduction adds up the same terms in another order; in exact
arithmetic this is one running sum (simplification: no rounding).  `FA` is the momentum residual,
`FD` the continuity residual of block D, `d`, `dD` their scaling factors. -/
def residualLoops (Nx Nz : Nat) (t : Tags) (n : Numbering) (d dD : Nat → K) (ou ov op : List Nat)
    (FA FD ru rv rp : Nat → K) : PassSt K × PassSt K × PassSt K :=
  let su := ou.foldl (momBody (coverU Nx Nz) t.u n.eqnU d) { F := FA, r := ru, sum := 0, ndof := 0 }
  let sv := ov.foldl (momBody (coverV Nx) t.v n.eqnV d) { F := su.F, r := rv, sum := 0, ndof := 0 }
  let sp := op.foldl (contBody n.neqMom t.p n.eqnP dD) { F := FD, r := rp, sum := 0, ndof := 0 }
  (su, sv, sp)

/-- Right-hand side of the momentum rows, StokesAssemblyDecoupled.c:1357-1377: running counter `inc`. -/
def fillRhs (Nx Nz : Nat) (t : Tags) (rx rz b : Nat → K) : Nat → K :=
  let body := fun (tag : Nat → Int) (src : Nat → K) (s : (Nat → K) × Nat) (cc : Nat) =>
    if extractVel (tag cc) then (upd s.1 s.2 (src cc), s.2 + 1) else s
  let s := forGrid Nx (Nz + 1) (b, 0) (body t.u rx)
  (forGrid (Nx + 1) Nz s (body t.v rz)).1

end

/-- What EvaluateStokesResidualDecoupled leaves behind when it returns. -/
structure Report where
  FA : Nat → ℝ
  FD : Nat → ℝ
  ru : Nat → ℝ
  rv : Nat → ℝ
  rp : Nat → ℝ
  resx : ℝ
  resz : ℝ
  resp : ℝ

/-- `EvaluateStokesResidualDecoupled` after the function evaluation (StokesRoutines.c:852-917).
`none` = `exit(122)`: with exact arithmetic a norm is NaN exactly when no equation was counted (0/0). -/
noncomputable def evaluateResidual (Nx Nz : Nat) (t : Tags) (n : Numbering) (d dD : Nat → ℝ) (ou ov op : List Nat)
    (FA FD ru rv rp : Nat → ℝ) : Option Report :=
  let s := residualLoops Nx Nz t n d dD ou ov op FA FD ru rv rp
  if s.1.ndof = 0 ∨ s.2.1.ndof = 0 ∨ s.2.2.ndof = 0 then none
  else some
    { FA := s.2.1.F, FD := s.2.2.F, ru := s.1.r, rv := s.2.1.r, rp := s.2.2.r
      resx := √(s.1.sum / s.1.ndof), resz := √(s.2.1.sum / s.2.1.ndof), resp := √(s.2.2.sum / s.2.2.ndof) }

section
variable {K : Type*} [Field K] [LinearOrder K]

/-- Inputs of EvaluateRHS beyond those of the stencils: model.gx, model.gz, the vertex densities rho_s,
`surface_processes >= 1`, surf_Winc, surf_Vinc and the column coordinates xvz_coord. -/
structure Body (K : Type*) where
  gx : K
  gz : K
  rhoS : Int → K
  surf : Bool
  W : K
  Vinc : K
  xvz : Int → K

/-- `roger_x` at column `k`, row `l` without polar gravity, StokesRoutines.c:950-1008. -/
def rogerX (m : SMesh K) (B : Body K) (k l : Int) : K :=
  let c := k + l * m.Nx;
  -(if 0 < l ∧ l < m.Nz + 1 - 1 ∧ (m.tu c = -1 ∨ m.tu c = 2 ∨ m.tu c = -2) then
      -(B.gx * (1 / 2 * (B.rhoS (c - m.Nx) + B.rhoS c)))
    else 0)

/-- `roger_z` at column `k`, row `l` without polar gravity, StokesRoutines.c:1021-1086 (`om` is
free_surface_stab, `Vinc = -surf_Vinc`, line 1018). -/
def rogerZ (m : SMesh K) (B : Body K) (k l : Int) : K :=
  let c := k + l * (m.Nx + 1)
  let c2 := k - 1 + (l - 1) * (m.Nx - 1)
  let s := c2
  let n := c2 + (m.Nx - 1);
  -(if 0 < k ∧ k < m.Nx + 1 - 1 ∧ m.tv c = -1 then
      -(B.gz * (1 / 2 * (m.rho s + m.rho n))) +
      (if B.surf = true ∧ (m.tp s = 30 ∨ m.tp s = 31 ∨ m.tp n = 30 ∨ m.tp n = 31) ∧ |B.xvz k| ≤ 1 / 2 * B.W then
        -1 * m.theta * (-B.Vinc) * m.dt * B.gz * ((m.rho n - m.rho s) / m.dz) * 2
      else 0)
    else 0)

end

/-- Continuity residual of a cell, StokesAssemblyDecoupled.c:1128-1141.  `comp` is comp_cells, `vol`
is `density_variations == 1`; `dlog` is `log(rho_n) - log(rho0_n)`, `b` the right-hand side, `div` div_u. -/
def contResidual {K : Type*} [Field K] (comp vol : Bool) (bet p p0 dlog dt div b celvol : K) : K :=
  ((if vol then flag comp * dlog / dt + div else flag comp * bet * (p - p0) / dt + div) - b) * celvol

/-! ### polar gravity -/

/-- `atan(z/x)` of the C library for finite `x`, `z` (`x = +0`, a vertical axis, gives ±π/2; `0/0` is NaN:
`none`). -/
noncomputable def atanC (z x : ℝ) : Option ℝ :=
  if x ≠ 0 then some (Real.arctan (z / x))
  else if 0 < z then some (Real.pi / 2)
  else if z < 0 then some (-(Real.pi / 2))
  else none

/-- Horizontal gravity at a Vx node with coordinates `x`, `z` when model.polar == 1, StokesRoutines.c:957-966. -/
noncomputable def polarGx (gx gz x z : ℝ) : ℝ :=
  match atanC z x with
  | some t => let g := if 0 < t then gz * Real.cos t else gx
              if t < 0 then -gz * Real.cos t else g
  | none => gx

/-- Vertical gravity at a Vz node, StokesRoutines.c:1029-1038. -/
noncomputable def polarGz (gz x z : ℝ) : ℝ :=
  match atanC z x with
  | some t => let g := if 0 < t then gz * Real.sin t else gz
              if t < 0 then -gz * Real.sin t else g
  | none => gz

end Verif.Resid
