import Verif.Model.Basic
import Mathlib.Algebra.Order.Field.Basic

/-
Averaging between cell centres and vertices, lithostatic pressure (/repo/MDLIB/GridRoutines.c) and
upwind advection of a grid field (/repo/MDLIB/AdvectionRoutines.c).
-/
namespace Verif.GridField
open Verif

variable {α : Type*}

/-- Temporary array with one ring of ghost cells around the `N` by `M` cells
(GridRoutines.c:117-178).  The code fills the array of values and the array of flags side by side; here
the routine is run once for each.  `z` is the content of fresh memory (calloc). -/
def ghosted (per : Bool) (N M : Nat) (z : α) (a : Nat → α) : Nat → α :=
  let W := N + 2
  -- interior (lines 121-128)
  let t : Nat → α := forUp N (fun _ => z) fun t k => forUp M t fun t l => upd t (k + (l + 1) * W + 1) (a (k + l * N))
  -- south, north (lines 131-142)
  let t := forUp N t fun t i => upd t (i + 1 + 0 * W) (t (i + 1 + 1 * W))
  let t := forUp N t fun t i => upd t (i + 1 + (M + 1) * W) (t (i + 1 + M * W))
  -- west, east (lines 143-156)
  let t := forUp M t fun t i => upd t (0 + (i + 1) * W) (t ((if per then W - 1 - 1 else 1) + (i + 1) * W))
  let t := forUp M t fun t i => upd t (N + 1 + (i + 1) * W) (t ((if per then 1 else N) + (i + 1) * W))
  -- corners (lines 159-178)
  let t := upd t (0 + 0 * W) (t ((if per then 0 else 1) + 1 * W))
  let t := upd t (N + 1 + 0 * W) (t ((if per then N + 1 else N) + 1 * W))
  let t := upd t (0 + (M + 1) * W) (t ((if per then 0 else 1) + M * W))
  upd t (N + 1 + (M + 1) * W) (t ((if per then N + 1 else N) + M * W))

section
variable {K : Type*} [Field K]

/-- `inSW` etc. times the value (GridRoutines.c:193-198): zero in air. -/
def masked (flag : Int) (v : K) : K := if flag = 30 ∨ flag = 31 then 0 * v else 1 * v

/-- `InterpCentroidsToVerticesDouble` (GridRoutines.c:106-207): `tagP` are the cell flags, `tagG` the
vertex flags, `a` the cell values, `v` the former vertex values.  The parallel loop over columns is
written as a sequential one: its iterations store to different vertices and read nothing they
store. -/
def centroidsToVertices (per : Bool) (Nx Nz : Nat) (tagP tagG : Nat → Int) (a v : Nat → K) : Nat → K :=
  let N := Nx - 1
  let M := Nz - 1
  let t := ghosted per N M 0 a
  let f := ghosted per N M 0 tagP
  forUp Nx v fun v k => forUp Nz v fun v l =>
    let c1 := k + l * Nx
    let c0 := k + (l + 1) * (N + 2) + 1
    upd (upd v c1 0) c1 (if tagG c1 ≠ 30 then
      1 / 4 * (masked (f (c0 - 1 - (N + 2))) (t (c0 - 1 - (N + 2))) + masked (f (c0 - 0 - (N + 2))) (t (c0 - 0 - (N + 2)))
        + masked (f (c0 - 1)) (t (c0 - 1)) + masked (f (c0 - 0)) (t c0)) else 0)

/-- `InterpVerticesToCentroidsDouble` (GridRoutines.c:213-236): `v` are the vertex values, `a` the former
cell values. -/
def verticesToCentroids (Nx Nz : Nat) (tagP : Nat → Int) (v a : Nat → K) : Nat → K :=
  forUp (Nx - 1) a fun a k => forUp (Nz - 1) a fun a l =>
    let c0 := k + l * (Nx - 1)
    let c1 := k + l * Nx
    if tagP c0 ≠ 30 ∧ tagP c0 ≠ 31 then upd a c0 (1 / 4 * (v c1 + v (c1 + 1) + v (c1 + Nx) + v (c1 + 1 + Nx))) else a

/-- `ComputeLithostaticPressure`, pressure part (GridRoutines.c:430-466): `rho` is the density used
(mode 0: the reference density in every cell; mode 1: `rho_n`), `gz` the vertical gravity (negative
downwards), `bkg` the confining pressure.  The side stresses computed at 470-518 are read nowhere
and are left out. -/
def lithostatic (ncx ncz : Nat) (tagP : Nat → Int) (gz dz bkg : K) (rho : Nat → K) : Nat → K :=
  let p : Nat → K := fun _ => 0
  let p := forUp (ncz - 1) p fun p i => forUp ncx p fun p k =>
    let l := ncz - 2 - i
    let c := k + l * ncx
    let p := upd p c 0
    if tagP c ≠ 30 ∧ tagP c ≠ 31 then upd p c (p (c + ncx) - gz * dz * rho c) else p
  forGrid ncx ncz p fun p c =>
    if tagP c ≠ 30 ∧ tagP c ≠ 31 then
      let p := upd p c (p c + bkg)
      upd p c (p c + 1 / 2 * gz * dz * rho c)
    else p
end

section
variable {K : Type*} [Field K] [LinearOrder K]

/-- New value of one node in `FirstOrderUpwindAdvection` (AdvectionRoutines.c:768-783). -/
def upwindNode (Vx Vz F0 : Nat → K) (dx dz dt : K) (Nx cc : Nat) : K :=
  let qx := if 0 < Vx cc then Vx cc / dx * (F0 cc - F0 (cc - 1)) else Vx cc / dx * (F0 (cc + 1) - F0 cc)
  let qz := if 0 < Vz cc then Vz cc / dz * (F0 cc - F0 (cc - Nx)) else Vz cc / dz * (F0 (cc + Nx) - F0 cc)
  F0 cc - dt * qx - dt * qz

/-- `FirstOrderUpwindAdvection` (AdvectionRoutines.c:753-788): two passes of half the time step, both
from the old field `F0`. -/
def upwind (Vx Vz F0 F : Nat → K) (dx dz dt : K) (Nx Nz : Nat) : Nat → K :=
  forUp 2 F fun F _ => forUp (Nz - 2) F fun F i => forUp (Nx - 2) F fun F j =>
    let cc := (i + 1) * Nx + (j + 1)
    upd F cc (upwindNode Vx Vz F0 dx dz (dt / 2) Nx cc)
end

end Verif.GridField
