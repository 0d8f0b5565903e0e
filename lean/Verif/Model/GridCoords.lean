import Verif.Prelude
import Verif.Model.Basic

/-
Grid coordinates and index tables: `SetGridCoordinates` (/repo/MDLIB/GridRoutines.c:244-324) and
`GridIndices` (/repo/MDLIB/GridRoutines.c:541-584).
-/
namespace Verif.Grid
open Verif

variable {K : Type*} [Field K]

/-- `a[0] = c0; for (i=1; i<n; i++) a[i] = a[i-1] + d` (GridRoutines.c:259-268 and the similar pairs
below). -/
def line (n : Nat) (c0 d : K) (a : Nat → K) : Nat → K :=
  forUp (n - 1) (upd a 0 c0) fun a i => upd a (i + 1) (a i + d)

/-- The coordinate arrays of the mesh. -/
structure Coords (K : Type*) where
  dx : K
  dz : K
  xg : Nat → K
  zg : Nat → K
  xc : Nat → K
  zc : Nat → K
  xvz : Nat → K
  zvx : Nat → K
  xgExt : Nat → K
  zgExt : Nat → K

/-- `SetGridCoordinates` (GridRoutines.c:244-324); the copies for the initial box (270-287) repeat the first
block with `xmin0` etc. and are left out.  The arguments `c` are the arrays before the call. -/
def setGridCoordinates (xmin xmax zmin zmax : K) (nx nz : Nat) (c : Coords K) : Coords K :=
  let dx := (xmax - xmin) / ((nx : K) - 1)
  let dz := (zmax - zmin) / ((nz : K) - 1)
  { dx := dx, dz := dz
    xg := line nx xmin dx c.xg
    zg := line nz zmin dz c.zg
    xc := line (nx - 1) (xmin + dx / 2) dx c.xc
    zc := line (nz - 1) (zmin + dz / 2) dz c.zc
    xvz := line (nx + 1) (xmin - dx / 2) dx c.xvz
    zvx := line (nz + 1) (zmin - dz / 2) dz c.zvx
    xgExt := line (nx + 2) (xmin - dx) dx c.xgExt
    zgExt := line (nz + 2) (zmin - dz) dz c.zgExt }

/-- One family of `GridIndices`: `for l < nrow, for k < ncol: kk = k + l*ncol; K[kk] = k; L[kk] = l`
(GridRoutines.c:548-554; 557-563, 566-573 and 576-582 with the sizes of the other families). -/
def indices (ncol nrow : Nat) (a : (Nat → Nat) × (Nat → Nat)) : (Nat → Nat) × (Nat → Nat) :=
  forUp nrow a fun a l => forUp ncol a fun a k =>
    (upd a.1 (k + l * ncol) k, upd a.2 (k + l * ncol) l)

/-- `GridIndices`: vertices, Vx nodes, Vz nodes, centres (GridRoutines.c:541-584). -/
def gridIndices (Nx Nz : Nat) (v x z p : (Nat → Nat) × (Nat → Nat)) :
    ((Nat → Nat) × (Nat → Nat)) × ((Nat → Nat) × (Nat → Nat)) × ((Nat → Nat) × (Nat → Nat)) × ((Nat → Nat) × (Nat → Nat)) :=
  (indices Nx Nz v, indices Nx (Nz + 1) x, indices (Nx + 1) Nz z, indices (Nx - 1) (Nz - 1) p)

end Verif.Grid
