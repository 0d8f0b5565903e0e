import Verif.Model.GridFields

/-
Strain rates and vorticity on the grid (/repo/MDLIB/RheologyDensity.c StrainRateComponents).
-/
namespace Verif.Kin
open Verif

variable {K : Type*} [Field K]

/-- The fields the routine writes (RheologyDensity.c:1686-1752): divergence, deviatoric normal rates
in cells, shear rate and vorticity at vertices and in cells, and the normal rates and divergence
averaged to vertices. -/
structure Rates (K : Type*) where
  (divu exx ezz exz wxz exzN wxzN exxS ezzS divS : Nat → K)

/-- What the routine reads (RheologyDensity.c:1663-1677): grid size, spacings, the two switches as
numbers (`comp` is `model->compressible`), periodicity, flags of cells and vertices, velocities. -/
structure Inp (K : Type*) where
  (Nx Nz : Nat) (dx dz comp : K) (oop : Bool) (per : Bool)
  (tagP tagG : Nat → Int) (u v : Nat → K)

/-- Body of the loop over cells (RheologyDensity.c:1680-1702); `k1` is the cell, `kp[k1]` and `lp[k1]`
its column and row. -/
def cellBody (q : Inp K) (s : Rates K) (k1 : Nat) : Rates K :=
  let k := k1 % (q.Nx - 1)
  let l := k1 / (q.Nx - 1)
  let c0 := k + l * (q.Nx - 1)
  let c1 := k + l * q.Nx
  let c2 := k + l * (q.Nx + 1)
  let s := { s with divu := upd s.divu c0 0, exx := upd s.exx c0 0, ezz := upd s.ezz c0 0 }
  if q.tagP c0 ≠ 30 ∧ q.tagP c0 ≠ 31 then
    let dvxdx := (q.u (c1 + 1 + q.Nx) - q.u (c1 + q.Nx)) / q.dx
    let dvzdz := (q.v (c2 + q.Nx + 1 + 1) - q.v (c2 + 1)) / q.dz
    let dvydy := (if q.oop then 1 else 0) * (1 / 2) * (dvxdx + dvzdz)
    let s := { s with divu := upd s.divu c0 (dvxdx + dvzdz + dvydy) }
    { s with exx := upd s.exx c0 (dvxdx - q.comp * 1 / 3 * s.divu c0),
             ezz := upd s.ezz c0 (dvzdz - q.comp * 1 / 3 * s.divu c0) }
  else s

/-- Body of the loop over vertices (RheologyDensity.c:1707-1726): the vorticity of air vertices keeps
its former value. -/
def vertBody (q : Inp K) (s : Rates K) (k1 : Nat) : Rates K :=
  let k := k1 % q.Nx
  let l := k1 / q.Nx
  let c1 := k + l * q.Nx
  let c2 := k + l * (q.Nx + 1)
  let s := { s with exz := upd s.exz c1 0 }
  if q.tagG c1 ≠ 30 then
    let dvxdz := (q.u (c1 + q.Nx) - q.u c1) / q.dz
    let dvzdx := (q.v (c2 + 1) - q.v c2) / q.dx
    { s with exz := upd s.exz c1 (1 / 2 * (dvxdz + dvzdx)), wxz := upd s.wxz c1 (1 / 2 * (dvzdx - dvxdz)) }
  else s

/-- Sum of the quarters of the non-air vertices around a cell (RheologyDensity.c:1741-1748). -/
def quarters (q : Inp K) (f : Nat → K) (c1 : Nat) : K :=
  let a : K := 0
  let a := if q.tagG c1 ≠ 30 then a + 1 / 4 * f c1 else a
  let a := if q.tagG (c1 + 1) ≠ 30 then a + 1 / 4 * f (c1 + 1) else a
  let a := if q.tagG (c1 + q.Nx) ≠ 30 then a + 1 / 4 * f (c1 + q.Nx) else a
  if q.tagG (c1 + q.Nx + 1) ≠ 30 then a + 1 / 4 * f (c1 + q.Nx + 1) else a

/-- Body of the third loop (RheologyDensity.c:1730-1750). -/
def shearCellBody (q : Inp K) (s : Rates K) (k1 : Nat) : Rates K :=
  let k := k1 % (q.Nx - 1)
  let l := k1 / (q.Nx - 1)
  let c0 := k + l * (q.Nx - 1)
  let c1 := k + l * q.Nx
  let s := { s with exzN := upd s.exzN c0 0, wxzN := upd s.wxzN c0 0 }
  if q.tagP c0 ≠ 30 ∧ q.tagP c0 ≠ 31 then
    { s with exzN := upd s.exzN c0 (quarters q s.exz c1), wxzN := upd s.wxzN c0 (quarters q s.wxz c1) }
  else s

/-- `StrainRateComponents` (RheologyDensity.c:1661-1757); `s` holds the former contents of the fields.
The parallel loops are written in sequence (each iteration stores to its own entries). -/
def strainRates (q : Inp K) (s : Rates K) : Rates K :=
  let s := forUp ((q.Nx - 1) * (q.Nz - 1)) s (cellBody q)
  let s := forUp (q.Nx * q.Nz) s (vertBody q)
  let s := forUp ((q.Nx - 1) * (q.Nz - 1)) s (shearCellBody q)
  { s with
    exxS := GridField.centroidsToVertices q.per q.Nx q.Nz q.tagP q.tagG s.exx s.exxS
    ezzS := GridField.centroidsToVertices q.per q.Nx q.Nz q.tagP q.tagG s.ezz s.ezzS
    divS := GridField.centroidsToVertices q.per q.Nx q.Nz q.tagP q.tagG s.divu s.divS }

end Verif.Kin
