import Verif.Model.Flagging

/-
Densities next to the free surface, velocities reported for it, the fields a time step starts from and
the first marker chain:
/repo/MDLIB/FreeSurface.c  SetTopoChainHorizontalCoords 50-66, SurfaceDensityCorrection 841-897, SurfaceVelocity 991-1063,
/repo/MDLIB/Setup.c        BuildInitialTopography 12-28,
/repo/MDLIB/GridRoutines.c InitialiseSolutionFields 331-408.

Arrays that the code reads at a computed distance (`c1 - nx`, `c1 + ncx`) are functions of an integer index, so that reads
before the first or after the last entry are visible as reads of an arbitrary value.
-/
namespace Verif.SFlow
open Verif

/-! ### densities -/

section
variable {K : Type*} [Field K] [LinearOrder K]

/-- Inputs of SurfaceDensityCorrection: tags of the cells and vertices, line coefficients of the surface, coordinates of
cell centres and vertex rows. -/
structure Cut (K : Type*) where
  ncx : Nat
  ncz : Nat
  tp : Int → Int
  tg : Int → Int
  ab : (Nat → K) × (Nat → K)
  xc : Nat → K
  zc : Nat → K
  zg : Nat → K

/-- `dz`, FreeSurface.c:848. -/
def Cut.dz (s : Cut K) : K := |s.zg 1 - s.zg 0|

/-- Is the cell the last rock below the first air cell?  FreeSurface.c:857 (the entry `c1 + ncx` of the top row lies
behind the array). -/
def Cut.topCell (s : Cut K) (i j : Nat) : Bool :=
  s.tp (i + j * s.ncx) == -1 && s.tp (i + j * s.ncx + s.ncx) == 31

/-- Air cell, FreeSurface.c:866. -/
def Cut.airCell (s : Cut K) (i j : Nat) : Bool :=
  s.tp (i + j * s.ncx) == 30 || s.tp (i + j * s.ncx) == 31

/-- `h0/dz` of a cell, FreeSurface.c:858-859. -/
def Cut.fillCell (s : Cut K) (i j : Nat) : K := |Surf.height s.ab i (s.xc i) - s.zc j| / s.dz

/-- `FreeSurfW_n`, FreeSurface.c:855, 863, 868. -/
def Cut.wn (s : Cut K) (i j : Nat) : K :=
  let w := if s.topCell i j then s.fillCell i j else 1
  if s.airCell i j then 0 else w

/-- `rho_n` after the correction (`rhoAir = 1/scaling.rho`), FreeSurface.c:861, 867. -/
def Cut.rhoN (s : Cut K) (rhoAir : K) (rho : K) (i j : Nat) : K :=
  let r := if s.topCell i j then rho * s.fillCell i j else rho
  if s.airCell i j then rhoAir else r

/-- `rho0_n` after the correction, FreeSurface.c:862. -/
def Cut.rho0N (s : Cut K) (rho : K) (i j : Nat) : K :=
  if s.topCell i j then rho * s.fillCell i j else rho

/-- Height at a vertex, FreeSurface.c:881-886 (`nx - 1 = ncx`). -/
def Cut.vertexTop (s : Cut K) (i : Nat) : K :=
  if 0 < i ∧ i < s.ncx then
    1 / 2 * Surf.height s.ab i (s.xc i) + 1 / 2 * Surf.height s.ab ((i - 1 : Nat) : Int) (s.xc (i - 1))
  else if i = s.ncx then Surf.height s.ab ((s.ncx - 1 : Nat) : Int) (s.xc (s.ncx - 1))
  else Surf.height s.ab i (s.xc i)

/-- Is the vertex the last active one below an air vertex?  FreeSurface.c:880. -/
def Cut.topVertex (s : Cut K) (i j : Nat) : Bool :=
  s.tg (i + j * (s.ncx + 1)) == -1 && s.tg (i + j * (s.ncx + 1) + (s.ncx + 1)) == 30

/-- `FreeSurfW_s`, FreeSurface.c:878, 889, 893. -/
def Cut.ws (s : Cut K) (i j : Nat) : K :=
  let w := if s.topVertex i j then |s.vertexTop i - s.zg j| / s.dz else 1
  if s.tg (i + j * (s.ncx + 1)) == 30 then 0 else w

/-- `rho_s` after the correction, FreeSurface.c:888, 892. -/
def Cut.rhoS (s : Cut K) (rhoAir : K) (rho : K) (i j : Nat) : K :=
  let r := if s.topVertex i j then rho * (|s.vertexTop i - s.zg j| / s.dz) else rho
  if s.tg (i + j * (s.ncx + 1)) == 30 then rhoAir else r

/-- The inputs as CellFlagging leaves them (FreeSurface.c:492-798 followed by 841-897, Main_DOODZ.c:535-556): the tags are
those of the flagging, cell centres are the inner entries of the extended centres.  Entries of the tag arrays outside the
grid are arbitrary (`junkP`, `junkG`). -/
def Cut.ofFlags (g : Flag.In K) (junkP junkG : Int → Int) : Cut K where
  ncx := g.ncx
  ncz := g.ncz
  tp := fun c => if 0 ≤ c ∧ c < g.ncx * g.ncz then Flag.bcp g (c.toNat % g.ncx) (c.toNat / g.ncx) else junkP c
  tg := fun c => if 0 ≤ c ∧ c < (g.ncx + 1) * (g.ncz + 1) then Flag.bcg g (c.toNat % (g.ncx + 1)) (c.toNat / (g.ncx + 1)) else junkG c
  ab := g.ab
  xc := fun i => g.xvz (i + 1)
  zc := fun j => g.zvx (j + 1)
  zg := g.zg

end

/-! ### velocity of the surface -/

section
variable {K : Type*} [Field K] [LinearOrder K] [FloorRing K]

/-- One velocity component at the surface nodes, FreeSurface.c:1008-1015 (`n = Nx`, `deep = 1`) and 1020-1029 (`n = Nx + 1`,
`deep = 2`: the code reads two rows below the first air node). -/
def surfaceNodes (n rows : Nat) (deep : Nat) (t : Int → Int) (u : Int → K) (v0 : Nat → K) : Nat → K :=
  forUp rows v0 fun v j => forUp n v fun v i =>
    let c : Int := i + j * n
    if t c = 30 ∧ t (c - n) ≠ 30 then upd v i (u (c - deep * n)) else v

/-- Column of a chain marker, FreeSurface.c:1040-1043 and 1052-1055 (`n` nodes). -/
def chainCol (n : Nat) (x0 dx x : K) : Int :=
  let i := ⌈(x - x0) / dx⌉ - 1
  let i := if i < 0 then 0 else i
  if i > (n : Int) - 2 then (n : Int) - 2 else i

/-- Velocity of a chain marker, FreeSurface.c:1044-1046 and 1056-1058. -/
def chainVel (n : Nat) (dx : K) (xs : Nat → K) (v : Nat → K) (x : K) : K :=
  let i := (chainCol n (xs 0) dx x).toNat
  let d := x - xs i
  (1 - d / dx) * v i + d / dx * v (i + 1)

/-- Inputs of SurfaceVelocity: tags and solution at the velocity nodes, coordinates of their columns, values from the
step before. -/
structure Flow (K : Type*) where
  Nx : Nat
  Nz : Nat
  dx : K
  xg : Nat → K
  xvz : Nat → K
  tu : Int → Int
  tv : Int → Int
  u : Int → K
  v : Int → K
  oldX : Nat → K
  oldZ : Nat → K

/-- `topo->vx` (FreeSurface.c:1008-1015). -/
def Flow.topoVx (f : Flow K) : Nat → K := surfaceNodes f.Nx (f.Nz + 1) 1 f.tu f.u f.oldX

/-- `topo->vz` (FreeSurface.c:1020-1029). -/
def Flow.topoVz (f : Flow K) : Nat → K := surfaceNodes (f.Nx + 1) f.Nz 2 f.tv f.v f.oldZ

/-- Velocity of a chain marker at `x` (FreeSurface.c:1037-1062). -/
def Flow.marker (f : Flow K) (x : K) : K × K :=
  (chainVel f.Nx f.dx f.xg f.topoVx x, chainVel (f.Nx + 1) f.dx f.xvz f.topoVz x)

end

/-! ### fields at the start of a step -/

section
variable {K : Type*} [Field K] [DecidableEq K]

/-- Inputs of InitialiseSolutionFields: step number is zero, `periodic_x == 1`, bkg_strain_rate, bkg_div_rate, bkg_pressure and
the coordinates. -/
structure Start (K : Type*) where
  Nx : Nat
  Nz : Nat
  first : Bool
  peri : Bool
  E : K
  D : K
  P : K
  xg : Nat → K
  zg : Nat → K
  zvx : Nat → K

/-- Horizontal velocity given to a node before the walls are imposed, GridRoutines.c:359-364. -/
def Start.bgU (s : Start K) (k l : Nat) : K :=
  if s.peri then 2 * s.zvx l * s.E + s.xg k * s.D / 3
  else if s.E = 0 then 0 else -s.xg k * (s.E - s.D / 3)

/-- Vertical velocity, GridRoutines.c:382-386. -/
def Start.bgV (s : Start K) (l : Nat) : K :=
  if s.peri then 0 + s.zg l * s.D / 3
  else if s.E = 0 then 0 else s.zg l * (s.E + s.D / 3)

/-- One node of either loop, GridRoutines.c:357-368 and 380-391: `t` is its tag, `wall` the boundary value, `bg` the
background velocity, `x` the old value. -/
def Start.node (s : Start K) (t : Int) (wall bg x : K) : K :=
  if t = 30 then 0
  else
    let y := if s.first then bg else x
    if t = 0 then wall else y

/-- Loop over the Vx nodes, GridRoutines.c:347-371. -/
def Start.uLoop (s : Start K) (t : Nat → Int) (wall u : Nat → K) : Nat → K :=
  forGrid s.Nx (s.Nz + 1) u fun u c => upd u c (s.node (t c) (wall c) (s.bgU (c % s.Nx) (c / s.Nx)) (u c))

/-- Loop over the Vz nodes, GridRoutines.c:374-394. -/
def Start.vLoop (s : Start K) (t : Nat → Int) (wall v : Nat → K) : Nat → K :=
  forGrid (s.Nx + 1) s.Nz v fun v c => upd v c (s.node (t c) (wall c) (s.bgV (c / (s.Nx + 1))) (v c))

/-- One cell of the pressure loop, GridRoutines.c:400-405; the second test is always true. -/
def Start.cell (s : Start K) (t : Int) (p : K) : K :=
  let p := if t = 30 ∨ t = 31 then 0 else p
  if t ≠ 30 ∨ t ≠ 31 then (if s.first then 0 + s.P else p) else p

/-- Loop over the cells, GridRoutines.c:397-407. -/
def Start.pLoop (s : Start K) (t : Nat → Int) (p : Nat → K) : Nat → K :=
  forGrid (s.Nx - 1) (s.Nz - 1) p fun p c => upd p c (s.cell (t c) (p c))

end

/-! ### first marker chain -/

section
variable {K : Type*} [Field K]

/-- Position of chain marker `k`, FreeSurface.c:52-60: 23 markers per cell. -/
def chainX (xmin dx : K) (k : Nat) : K := xmin + dx / 23 / 2 + k * (dx / 23)

/-- Number of chain markers, FreeSurface.c:55. -/
def chainN (Nx : Nat) : Nat := (Nx - 1) * 23

/-- BuildInitialTopography, Setup.c:12-28: the height and the phase come from the callbacks when they are given, otherwise
the height is 1e3 m (in scaled units) and the phase 0. -/
def chainZ (hz : Option (K → K)) (L : K) (x : K) : K :=
  match hz with
  | some f => f x
  | none => 1000 / L

/-- The phase of a chain marker, Setup.c:20-24. -/
def chainPhase (ph : Option (K → Int)) (x : K) : Int :=
  match ph with
  | some f => f x
  | none => 0

end

end Verif.SFlow
