import Verif.Prelude
import Verif.Model.Basic
import Verif.Model.Interp
import Verif.Model.P2Mastah
import Mathlib.Analysis.SpecialFunctions.Trigonometric.Basic
import Mathlib.Analysis.SpecialFunctions.Sqrt

/-
Quantities carried by the markers through time (/repo/MDLIB/RheologyParticles.c): accumulated strain
(`AccumulatedStrainII`, 188-530), deformation gradient (`DeformationGradient`, 536-615), aspect ratio of
the strain ellipse (`FiniteStrainAspectRatio`, 621-657), peak temperature and pressure (`UpdateMaxPT`,
752-764), clipped fractions (`UpdateParticlePhi` 811-842, `UpdateParticleX` 848-922), temperature
(`UpdateParticleEnergy`, 1187-1270), pressure (`UpdateParticlePressure`, 1276-1373) and stress
(`UpdateParticleStress`, 1380-1659).  Real arithmetic; grid arrays are functions of an integer index.
-/
namespace Verif.Hist
open Verif Verif.Interp

section field
variable {K : Type*} [Field K] [LinearOrder K]

/-- Strain rate invariants of the cells, one array per mechanism (`mesh->eII_el` ... `mesh->eII_cst`). -/
structure Rates (K : Type*) where
  el : Int → K
  pl : Int → K
  pwl : Int → K
  exp : Int → K
  lin : Int → K
  gbs : Int → K
  cst : Int → K

/-- `strain_inc[c1]` (RheologyParticles.c:209). -/
def Rates.total (r : Rates K) (dt : K) (c : Int) : K :=
  dt * (r.pl c + r.pwl c + r.exp c + r.lin c + r.gbs c + r.el c + r.cst c)

/-- Strain measures of one marker (`particles->strain`, `strain_el`, ...). -/
structure Strain (K : Type*) where
  tot : K
  el : K
  pl : K
  pwl : K
  exp : K
  lin : K
  gbs : K

section
variable [FloorRing K]

/-- Increment given to an active marker for one array of cell increments
(RheologyParticles.c:247-325, 498-506): `nx`, `nz` numbers of cells, `X`, `Z` cell centres. -/
def strainInc (nx nz : Int) (X Z : Int → K) (dx dz : K) (inc : Int → K) (tag : Int → Int) (x z : K) : K :=
  let j := clampIdx nx (cellOf x (X 0) dx)
  let i := clampIdx nz (cellOf z (Z 0) dz)
  let q := corners nx j i
  airMean ((x - X j) / dx) ((z - Z i) / dz) (q.get tag) (q.get inc)

/-- `AccumulatedStrainII` for one marker (RheologyParticles.c:188-530).  `none` is `exit(0)` for a negative
total increment in any cell (211-215). -/
def accumulate (nx nz : Nat) (X Z : Int → K) (dx dz dt : K) (r : Rates K) (tag : Int → Int)
    (phase : Int) (x z : K) (s : Strain K) : Option (Strain K) :=
  if (List.range (nx * nz)).any (fun c => decide (r.total dt c < 0)) then none
  else
    let inc (f : Int → K) : K := if phase ≠ -1 then strainInc nx nz X Z dx dz f tag x z else 0
    some { tot := s.tot + inc (r.total dt)
           el := s.el + inc (fun c => dt * r.el c)
           pl := s.pl + inc (fun c => dt * r.pl c)
           pwl := s.pwl + inc (fun c => dt * r.pwl c)
           exp := s.exp + inc (fun c => dt * r.exp c)
           lin := s.lin + inc (fun c => dt * r.lin c)
           gbs := s.gbs + inc (fun c => dt * r.gbs c) }
end

/-- Two by two tensor of a marker (`Fxx`, `Fxz`, `Fzx`, `Fzz`). -/
structure Tens (K : Type*) where
  xx : K
  xz : K
  zx : K
  zz : K

/-- New deformation gradient from the velocity gradient at the marker (RheologyParticles.c:590-601). -/
def deform (dt dudx dudz dvdx dvdz : K) (F : Tens K) : Tens K :=
  let fxx := 1 + dudx * dt
  let fxz := dudz * dt
  let fzz := 1 + dvdz * dt
  let fzx := dvdx * dt
  { xx := fxx * F.xx + fxz * F.zx
    xz := fxx * F.xz + fxz * F.zz
    zx := fzx * F.xx + fzz * F.zx
    zz := fzx * F.xz + fzz * F.zz }

/-- `dudx` at a cell (RheologyParticles.c:562-565), `c` the index of the cell: `k = c % (Nx-1)`,
`l = c / (Nx-1)`. -/
def gradUx (Nx : Int) (dx : K) (u : Int → K) (c : Int) : K :=
  let cu := c % (Nx - 1) + c / (Nx - 1) * Nx + Nx
  1 / dx * (u (cu + 1) - u cu)

/-- `dvdz` at a cell (RheologyParticles.c:564-566). -/
def gradVz (Nx : Int) (dz : K) (v : Int → K) (c : Int) : K :=
  let cv := c % (Nx - 1) + c / (Nx - 1) * (Nx + 1) + 1
  1 / dz * (v (cv + (Nx + 1)) - v cv)

/-- `dudz` at a vertex (RheologyParticles.c:574-576). -/
def gradUz (Nx : Int) (dz : K) (u : Int → K) (c : Int) : K :=
  let cu := c % Nx + c / Nx * Nx
  1 / dz * (u (cu + Nx) - u cu)

/-- `dvdx` at a vertex (RheologyParticles.c:575-577). -/
def gradVx (Nx : Int) (dx : K) (v : Int → K) (c : Int) : K :=
  let cv := c % Nx + c / Nx * (Nx + 1)
  1 / dx * (v (cv + 1) - v cv)

/-- `UpdateMaxPT` for one marker (RheologyParticles.c:760): new record from value and record. -/
def record (v m : K) : K := if m < v then v else m

/-- `ArrayPlusArray` and the bounds of `UpdateParticlePhi` and `UpdateParticleX` for one marker
(RheologyParticles.c:830-837, 911-918). -/
def clipAdd (v inc : K) : K :=
  let v := v + inc
  let v := if v ≤ 0 then 0 else v
  if 1 ≤ v then 1 else v

/-- Increment of a cell quantity between the start and the end of the step, zero in cells whose flag is in
`skip` (RheologyParticles.c:821-824, 902-905: 30 and 31; 1203-1207, 1287-1292: 30). -/
def gridInc (skip : List Int) (flag : Int → Int) (new old : Int → K) (c : Int) : K :=
  if flag c ∈ skip then 0 else new c - old c

end field

section deformGrid
variable {K : Type*} [Field K] [LinearOrder K] [FloorRing K]

/-- `DeformationGradient` for one marker (RheologyParticles.c:559-601).  `xg`, `zg` vertices, `xe`, `ze` the
extended cell centres (`xvz_coord`, `zvx_coord`).  For an inactive marker the interpolated gradients are
zero; `none` is the abort in the vertex interpolation. -/
def deformMarker (Nx Nz : Nat) (periodic : Bool) (junk : Quad Int) (xg zg xe ze : Int → K) (dx dz dt : K)
    (u v : Int → K) (tagP tagG : Int → Int) (phase : Int) (x z : K) (F : Tens K) : Option (Tens K) :=
  if phase ≠ -1 then
    let ux := interpCentroids (Nx - 1) (Nz - 1) periodic junk xe ze dx dz (gradUx Nx dx u) tagP x z
    let vz := interpCentroids (Nx - 1) (Nz - 1) periodic junk xe ze dx dz (gradVz Nx dz v) tagP x z
    match interpGrid2P Nx Nz true xg zg dx dz (gradVx Nx dx v) tagG x z,
        interpGrid2P Nx Nz true xg zg dx dz (gradUz Nx dz u) tagG x z with
    | some vx, some uz => some (deform dt ux uz vx vz F)
    | _, _ => none
  else some (deform dt 0 0 0 0 F)

/-- Markers, their positions and the interpolation set-up shared by the marker updates. -/
structure Setting (K : Type*) where
  /-- centres: family used by `P2Mastah` -/
  fam : P2M.Fam K
  periodic : Bool
  junk : Quad Int
  /-- extended centre coordinates -/
  xe : Int → K
  ze : Int → K
  ms : Nat → P2M.Mk K
  /-- distribution of the marker loop over threads in `P2Mastah` -/
  ls : List (List Nat)

/-- `Interp_Grid2P_centroids2` for marker `k`: zero for an inactive one (RheologyParticles.c:827 and others;
ParticleRoutines.c:1512-1515). -/
def Setting.toMarker (s : Setting K) (F : Int → K) (tag : Int → Int) (k : Nat) : K :=
  if (s.ms k).phase ≠ -1 then
    interpCentroids s.fam.Nx s.fam.Nz s.periodic s.junk s.xe s.ze s.fam.dx s.fam.dz F tag (s.ms k).x (s.ms k).z
  else 0

/-- `UpdateParticlePhi`/`UpdateParticleX` for marker `k` (RheologyParticles.c:811-842, 848-922): `flag` are
the pressure flags, `tag` the flags used in the interpolation (`BCt` and `BCp` respectively). -/
def updateFraction (s : Setting K) (flag tag : Int → Int) (new old : Int → K) (phi : Nat → K) (k : Nat) : K :=
  clipAdd (phi k) (s.toMarker (gridInc [30, 31] flag new old) tag k)

/-- Marker update without subgrid diffusion (RheologyParticles.c:1257-1264, 1359-1371). -/
def updatePlain (s : Setting K) (flag tag : Int → Int) (skip : List Int) (new old : Int → K) (T : Nat → K)
    (k : Nat) : K :=
  T k + s.toMarker (gridInc skip flag new old) tag k

/-- Subgrid increment of marker `k` (RheologyParticles.c:1226-1230, 1326-1330, 1507-1512): `m0` old grid value
at the marker, `damp = 1 - exp(-d*dt/dtm)`. -/
def subgrid (s : Setting K) (T m0 damp : Nat → K) (k : Nat) : K :=
  if (s.ms k).phase ≠ -1 then -(T k - m0 k) * damp k else 0

/-- Cells: subgrid increment of the markers averaged on the grid (`dTgs`, RheologyParticles.c:1234; starting
from zero, `avg` 0). -/
def subgridGrid (s : Setting K) (lg ex : K → K) (flagP : Nat → Int) (T m0 damp : Nat → K) (c : Nat) : K :=
  P2M.field s.fam lg ex 0 s.ms (subgrid s T m0 damp) s.ls flagP (fun _ => 0) c

/-- Marker update with subgrid diffusion: temperature (RheologyParticles.c:1211-1250), pressure (1294-1349) and normal
stresses (1500-1550).  `m0f` is the field interpolated as old grid value: `T0_n` itself (1209), `p0_n` with
zero where the temperature flag is 30 (1309-1313), `sxxd0` (1487). -/
def updateSubgrid (s : Setting K) (lg ex : K → K) (flag tag : Int → Int) (flagP : Nat → Int) (skip : List Int)
    (new old m0f : Int → K) (damp T : Nat → K) (k : Nat) : K :=
  let dT := gridInc skip flag new old
  let m0 := s.toMarker m0f tag
  let gr : Int → K := fun c => if flag c ∈ skip then 0
    else dT c - subgridGrid s lg ex flagP T m0 damp c.toNat
  if (s.ms k).phase ≠ -1 then T k + (subgrid s T m0 damp k + s.toMarker gr tag k) else T k

/-- `UpdateParticleEnergy` (RheologyParticles.c:1187-1270) with `subgrid_diffusion = sd`. -/
def updateTemperature (sd : Int) (s : Setting K) (lg ex : K → K) (flagT : Int → Int) (flagP : Nat → Int)
    (new old : Int → K) (damp T : Nat → K) (k : Nat) : K :=
  if 1 ≤ sd then updateSubgrid s lg ex flagT flagT flagP [30] new old old damp T k
  else updatePlain s flagT flagT [30] new old T k

/-- `UpdateParticlePressure` (RheologyParticles.c:1276-1373). -/
def updatePressure (sd : Int) (s : Setting K) (lg ex : K → K) (flagT flagP : Int → Int)
    (new old : Int → K) (damp P : Nat → K) (k : Nat) : K :=
  if 2 ≤ sd then updateSubgrid s lg ex flagP flagP (fun c => flagP c) [30] new old
    (fun c => if flagT c = 30 then 0 else old c) damp P k
  else updatePlain s flagP flagP [30] new old P k

/-- A normal stress component in `UpdateParticleStress` before the rotation (RheologyParticles.c:1460-1620); the exits for
infinite and NaN increments do not exist in exact arithmetic. -/
def updateNormalStress (elastic sd : Int) (s : Setting K) (lg ex : K → K) (flagP : Int → Int)
    (new old : Int → K) (damp S : Nat → K) (k : Nat) : K :=
  if elastic = 1 then
    let S := if sd = 2 then updateSubgrid s lg ex flagP flagP (fun c => flagP c) [30, 31] new old old damp S k else S k
    if sd = 0 ∨ sd = 1 then updatePlain s flagP flagP [30, 31] new old (fun _ => S) k else S
  else S k

end deformGrid

/-- Relaxation factor of the temperature update (RheologyParticles.c:1228-1229). -/
noncomputable def dampT (dt Cp rho k dx dz : ℝ) : ℝ :=
  1 - Real.exp (-1 * dt / (Cp * rho / (k * (1 / dx / dx + 1 / dz / dz))))

/-- Relaxation factor of the pressure update (RheologyParticles.c:1328-1329). -/
noncomputable def dampP (dt eta bet : ℝ) : ℝ := 1 - Real.exp (-1 * dt / (eta / bet))

/-- Relaxation factor of the stress update (RheologyParticles.c:1509-1510). -/
noncomputable def dampS (dt eta G : ℝ) : ℝ := 1 - Real.exp (-1 * dt / (eta / G))

/-- Aspect ratio of the strain ellipse of one marker (RheologyParticles.c:634-656). -/
noncomputable def aspect (F : Tens ℝ) : ℝ :=
  let CGxx := F.xx * F.xx + F.zx * F.zx
  let CGxz := F.xx * F.xz + F.zx * F.zz
  let CGzx := F.xx * F.xz + F.zx * F.zz
  let CGzz := F.xz * F.xz + F.zz * F.zz
  let Tr := CGxx + CGzz
  let Det := CGxx * CGzz - CGxz * CGzx
  let s := Real.sqrt Det
  let t := Real.sqrt (Tr + 2 * s)
  let U0xx := 1 / t * (CGxx + s)
  let U0xz := 1 / t * CGxz
  let U0zx := 1 / t * CGzx
  let U0zz := 1 / t * (CGzz + s)
  let Tr := U0xx + U0zz
  let Det := U0xx * U0zz - U0xz * U0zx
  let e1 := Tr / 2 + Real.sqrt (Tr * Tr / 4 - Det)
  let e2 := Tr / 2 - Real.sqrt (Tr * Tr / 4 - Det)
  e1 / e2

/-- Deviatoric stress of a marker (`sxxd`, `szzd`, `sxz`). -/
structure Dev where
  xx : ℝ
  zz : ℝ
  xz : ℝ

/-- Stress rotation of one active marker (RheologyParticles.c:1631-1644), `mode` is `stress_rotation`, `w` the
content of `wxzm[k]`. -/
noncomputable def rotate (mode : Int) (dt w : ℝ) (s : Dev) : Dev :=
  let s1 : Dev := if mode = 1 then
      { xx := s.xx - dt * 2 * s.xz * w, zz := s.zz - -(dt * 2 * s.xz * w), xz := s.xz - dt * (s.zz - s.xx) * w }
    else s
  if mode = 2 then
    let a := dt * w
    { xx := (s.xx * Real.cos a + s.xz * Real.sin a) * Real.cos a + (s.xz * Real.cos a + s.zz * Real.sin a) * Real.sin a
      zz := -(-s.xx * Real.sin a + s.xz * Real.cos a) * Real.sin a + (-s.xz * Real.sin a + s.zz * Real.cos a) * Real.cos a
      xz := -(s.xx * Real.cos a + s.xz * Real.sin a) * Real.sin a + (s.xz * Real.cos a + s.zz * Real.sin a) * Real.cos a }
  else s1

/-- The block "Large strain" for all markers (RheologyParticles.c:1623-1648): returns the array `mesh->wxz` and
the marker stresses afterwards.  `wxzm` is zero from the allocation; the call on line 1626 is a
marker-to-grid interpolation *from* `wxzm` *to* `mesh->wxz`.  `g` is the vertex family. -/
noncomputable def rotateAll (g : P2M.Fam ℝ) (lg ex : ℝ → ℝ) (ms : Nat → P2M.Mk ℝ) (ls : List (List Nat))
    (flagG : Nat → Int) (mode : Int) (dt : ℝ) (wxz : Nat → ℝ) (s : Nat → Dev) : (Nat → ℝ) × (Nat → Dev) :=
  let wxzm : Nat → ℝ := fun _ => 0
  let wxz' := P2M.field g lg ex 0 ms wxzm ls flagG wxz
  (wxz', fun k => if (ms k).phase ≠ -1 then rotate mode dt (wxzm k) (s k) else s k)

/-- Vorticity at a vertex (RheologyDensity.c:1716-1722): `dvzdx`, `dvxdz` velocity differences. -/
noncomputable def vorticity (dvzdx dvxdz : ℝ) : ℝ := 1 / 2 * (dvzdx - dvxdz)

end Verif.Hist
