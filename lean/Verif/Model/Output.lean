import Verif.Model.Basic
import Verif.Model.Reduction
import Mathlib.Algebra.Order.Floor.Ring
import Mathlib.Algebra.Order.Field.Basic
import Mathlib.Analysis.Real.Sqrt

/-
What a run writes for the user: the phase maps of the visualisation grid (ParticleRoutines.c), the
time series and the deformation maps (RheologyDensity.c), and the chunking of HDF5 datasets
(HDF5Output.c).
-/
namespace Verif.Output

/-! ### Phase map -/

section PhaseMap

variable {K : Type*} [Field K] [LinearOrder K] [IsStrictOrderedRing K] [FloorRing K]

/-- A marker as the phase map sees it; `label` is the entry of the array passed as `PartField`
(`particles->phase` or `particles->dual`, HDF5Output.c:305, 322-323). -/
structure VMarker (K : Type*) where
  x : K
  z : K
  phase : Int
  label : Int

/-- The two grids: origin and spacings of the computational grid, its numbers of cells, and the
refinement factor `res_fact` of the visualisation grid (HDF5Output.c:291-320). -/
structure VGrid (K : Type*) where
  x0 : K
  z0 : K
  dx : K
  dz : K
  ncx : Nat
  ncz : Nat
  res : Nat

/-- `xviz[0] = xg_coord[0]`, `xviz[k] = xviz[k-1] + dx/res_fact` (HDF5Output.c:299-302, 314-317). -/
def vizAxis (x0 h : K) : Nat → K
  | 0 => x0
  | k + 1 => vizAxis x0 h k + h

/-- `if (i<0) i = 0; if (i>n-1) i = n-1;` (ParticleRoutines.c:1925-1926 and copies). -/
def clampIdx (n : Nat) (i : Int) : Nat :=
  if i < 0 then 0 else if i > (n : Int) - 1 then n - 1 else i.toNat

/-- Column (or line) of the visualisation grid: `ceil((x - (x0 + 0.5 h))/h + 0.5) - 1`, clamped
(ParticleRoutines.c:1921-1933). -/
def vizCell (x0 h : K) (n : Nat) (x : K) : Nat :=
  clampIdx n (⌈(x - (x0 + 1 / 2 * h)) / h + 1 / 2⌉ - 1)

/-- Column (or line) of the computational grid, from the first cell centre `xc_coord[0]`, which is half
a cell from the origin (ParticleRoutines.c:1940-1952). -/
def gridCell (x0 h : K) (n : Nat) (x : K) : Nat :=
  clampIdx n (⌈(x - (x0 + h / 2)) / h + 1 / 2⌉ - 1)

/-- `(1.0-(dxm/dx))*(1.0-(dzm/dz))` (ParticleRoutines.c:1935-1936, 1960). -/
def vizWeight (X Z : Nat → K) (hx hz : K) (j i : Nat) (x z : K) : K :=
  (1 - |1 / 2 * (X j + X (j + 1)) - x| / hx) * (1 - |1 / 2 * (Z (i + 1) + Z i) - z| / hz)

/-- Body of the loop over markers (ParticleRoutines.c:1916-1972); state: the map and `Wm`. -/
def vizStep (G : VGrid K) (types : Nat → Int) (st : (Nat → Int) × (Nat → K)) (m : VMarker K) :
    (Nat → Int) × (Nat → K) :=
  let X := vizAxis G.x0 (G.dx / G.res)
  let Z := vizAxis G.z0 (G.dz / G.res)
  let hx := X 1 - X 0
  let hz := Z 1 - Z 0
  let nx := G.res * G.ncx
  let nz := G.res * G.ncz
  if m.phase ≠ -1 then
    let j := vizCell G.x0 hx nx m.x
    let i := vizCell G.z0 hz nz m.z
    let w := vizWeight X Z hx hz j i m.x m.z
    let ic := gridCell G.x0 G.dx G.ncx m.x
    let jc := gridCell G.z0 G.dz G.ncz m.z
    let flag := types (ic + jc * G.ncx)
    if (flag ≠ 30 ∧ flag ≠ 31) ∧ st.2 (j + i * nx) < w then
      (upd st.1 (j + i * nx) m.label, upd st.2 (j + i * nx) w)
    else st
  else st

/-- `Interp_Phase2VizGrid` (ParticleRoutines.c:1882-1973): the map starts at -1 and the weights at 0.
Simplified: the labels are stored as they are (C converts them to `char`, the same for labels below
128), and the unused read of `particles.x` before the loop is left out. -/
def phaseMap (G : VGrid K) (types : Nat → Int) (nb : Nat) (ms : Nat → VMarker K) : Nat → Int :=
  (forUp nb ((fun _ => -1), (fun _ => 0)) fun st k => vizStep G types st (ms k)).1

/-- The three maps of the output file (HDF5Output.c:289-323, 753-755) from positions and the two
labels of each marker: `compo`, `compo_hr`, `compo_dual_hr`. -/
structure Maps where
  compo : Nat → Int
  compo_hr : Nat → Int
  compo_dual_hr : Nat → Int

/-- A marker with both of its labels. -/
structure LMarker (K : Type*) where
  x : K
  z : K
  phase : Int
  dual : Int

/-- The calls of `Interp_Phase2VizGrid` in `WriteOutputHDF5` (HDF5Output.c:305, 322, 323). -/
def phaseMaps (x0 z0 dx dz : K) (ncx ncz : Nat) (types : Nat → Int) (nb : Nat) (ms : Nat → LMarker K) :
    Maps where
  compo := phaseMap ⟨x0, z0, dx, dz, ncx, ncz, 1⟩ types nb fun k =>
    ⟨(ms k).x, (ms k).z, (ms k).phase, (ms k).dual⟩
  compo_hr := phaseMap ⟨x0, z0, dx, dz, ncx, ncz, 2⟩ types nb fun k =>
    ⟨(ms k).x, (ms k).z, (ms k).phase, (ms k).phase⟩
  compo_dual_hr := phaseMap ⟨x0, z0, dx, dz, ncx, ncz, 2⟩ types nb fun k =>
    ⟨(ms k).x, (ms k).z, (ms k).phase, (ms k).dual⟩

end PhaseMap

/-! ### Datasets -/

/-- Chunk length of a dataset of `np` entries: `5.0*np/100`, truncated, at least 1
(HDF5Output.c:165-172).  Truncation of `5 np / 100` is integer division. -/
def chunk (np : Nat) : Nat := if 5 * np < 100 then 1 else 5 * np / 100

/-! ### Time series -/

section Series

/-- The grid fields averaged by `ComputeMeanQuantitesForTimeSeries` (RheologyDensity.c:2007-2070). -/
structure MeanFields where
  ncx : Nat
  ncz : Nat
  typ : Nat → Int
  T : Nat → ℝ
  P : Nat → ℝ
  exxd : Nat → ℝ
  ezzd : Nat → ℝ
  exz : Nat → ℝ
  sxxd : Nat → ℝ
  szzd : Nat → ℝ
  sxz : Nat → ℝ

/-- The ten averages of `mesh`, with the number of cells they were taken over. -/
@[ext] structure Means where
  T : ℝ
  P : ℝ
  exxd : ℝ
  ezzd : ℝ
  exz : ℝ
  Eii : ℝ
  sxxd : ℝ
  szzd : ℝ
  sxz : ℝ
  Tii : ℝ

/-- `mesh->BCp.type[cell] != 30 && != 31` (RheologyDensity.c:2035). -/
def MeanFields.active (F : MeanFields) (c : Nat) : Bool := F.typ c != 30 && F.typ c != 31

/-- `0.25*(f[vertSW] + f[vertSE] + f[vertNW] + f[vertNE])` (RheologyDensity.c:2027-2038). -/
noncomputable def MeanFields.centre (F : MeanFields) (f : Nat → ℝ) (c : Nat) : ℝ :=
  let k := c % F.ncx
  let l := c / F.ncx
  let nvx := F.ncx + 1
  1 / 4 * (f (k + l * nvx) + f (k + l * nvx + 1) + f (k + (l + 1) * nvx) + f (k + (l + 1) * nvx + 1))

/-- `sqrt(0.5*(xx² + zz²) + xz²)` (RheologyDensity.c:2040-2041). -/
noncomputable def seriesInv (xx zz xz : ℝ) : ℝ := Real.sqrt (1 / 2 * (xx ^ 2 + zz ^ 2) + xz ^ 2)

/-- One reduction variable: the sum over the active cells for a distribution `ls` of the cells over
threads (RheologyDensity.c:2022-2056). -/
noncomputable def MeanFields.total (F : MeanFields) (ls : List (List Nat)) (v : Nat → ℝ) : ℝ :=
  Red.ompSum 0 (fun c => if F.active c then v c else 0) ls

/-- `N++` under the same reduction (RheologyDensity.c:2022, 2053). -/
def MeanFields.number (F : MeanFields) (ls : List (List Nat)) : Nat :=
  Red.ompSum 0 (fun c => if F.active c then 1 else 0) ls

/-- `ComputeMeanQuantitesForTimeSeries` (RheologyDensity.c:2007-2070); `none` when the division is by
zero (NaN in every average).  `kp`, `lp` are the column and line of the cell
(GridRoutines.c:541-583). -/
noncomputable def means (F : MeanFields) (ls : List (List Nat)) : Option Means :=
  if F.number ls = 0 then none
  else
    let n : ℝ := F.number ls
    let tot := F.total ls
    some {
      T := tot F.T / n
      P := tot F.P / n
      exxd := tot F.exxd / n
      ezzd := tot F.ezzd / n
      exz := tot (F.centre F.exz) / n
      Eii := tot (fun c => seriesInv (F.exxd c) (F.ezzd c) (F.centre F.exz c)) / n
      sxxd := tot F.sxxd / n
      szzd := tot F.szzd / n
      sxz := tot (F.centre F.sxz) / n
      Tii := tot (fun c => seriesInv (F.sxxd c) (F.szzd c) (F.centre F.sxz c)) / n }

/-- Shortening in percent (RheologyDensity.c:1989). -/
noncomputable def shortening (L0 xmin xmax : ℝ) : ℝ := (L0 - (xmax - xmin)) / L0 * 100

/-- The fifteen series (allocated with `Nt+1` entries, MemoryAllocFree.c:546-560). -/
inductive Series
  | Uthermal | Uelastic | Work | Time | Short | P | T | sxxd | szzd | sxz | Tii | exxd | ezzd | exz | Eii
deriving DecidableEq

/-- Units of the run read by `LogTimeSeries`: stress, length, time, temperature, strain rate. -/
structure SUnits where
  S : ℝ
  L : ℝ
  t : ℝ
  T : ℝ
  E : ℝ

/-- Energies of `mesh`, time, and width of the box. -/
structure Totals where
  Uthermal : ℝ
  Uelastic : ℝ
  Work : ℝ
  time : ℝ
  L0 : ℝ
  xmin : ℝ
  xmax : ℝ

/-- The value `LogTimeSeries` stores in each series (RheologyDensity.c:1985-1999). -/
noncomputable def seriesValue (u : SUnits) (c : Totals) (m : Means) : Series → ℝ
  | .Uthermal => c.Uthermal * u.S * u.L * u.L
  | .Uelastic => c.Uelastic * u.S * u.L * u.L
  | .Work => c.Work * u.S * u.L * u.L
  | .Time => c.time * u.t
  | .Short => shortening c.L0 c.xmin c.xmax
  | .P => m.P * u.S
  | .T => m.T * u.T
  | .sxxd => m.sxxd * u.S
  | .szzd => m.szzd * u.S
  | .sxz => m.sxz * u.S
  | .Tii => m.Tii * u.S
  | .exxd => m.exxd * u.E
  | .ezzd => m.ezzd * u.E
  | .exz => m.exz * u.E
  | .Eii => m.Eii * u.E

/-- `LogTimeSeries` (RheologyDensity.c:1983-2001): entry `step` of every series. -/
noncomputable def logTimeSeries (u : SUnits) (c : Totals) (m : Means) (step : Nat)
    (a : Series → Nat → ℝ) : Series → Nat → ℝ :=
  fun s => upd (a s) step (seriesValue u c m s)

/-- A run calls it once per step: step 0 before the loop (Main_DOODZ.c:392-393), steps `1 .. n` at the
end of each (Main_DOODZ.c:1006-1007). -/
noncomputable def seriesRun (u : SUnits) (c : Nat → Totals) (m : Nat → Means) (n : Nat)
    (a : Series → Nat → ℝ) : Series → Nat → ℝ :=
  forUp (n + 1) a fun a k => logTimeSeries u (c k) (m k) k a

end Series

/-! ### Deformation maps -/

section Maps

/-- Strain rates of the mechanisms, returned by `ViscosityConcise`. -/
structure Rates (K : Type*) where
  el : K
  pl : K
  pwl : K
  exp : K
  lin : K
  gbs : K
  cst : K

/-- The seven tests, in order; each may overwrite `mech` (RheologyDensity.c:1857-1863).  `old` is the
content of the variable before them. -/
def selectMech {K : Type*} [LT K] [DecidableRel (α := K) (· < ·)] (r : Rates K) (old : Int) : Int :=
  let m := old
  let m := if r.el < r.pwl ∧ r.pl < r.pwl ∧ r.exp < r.pwl ∧ r.lin < r.pwl ∧ r.gbs < r.pwl ∧ r.cst < r.pwl
    then 1 else m
  let m := if r.el < r.lin ∧ r.pl < r.lin ∧ r.exp < r.lin ∧ r.pwl < r.lin ∧ r.gbs < r.lin ∧ r.cst < r.lin
    then 2 else m
  let m := if r.el < r.gbs ∧ r.pl < r.gbs ∧ r.lin < r.gbs ∧ r.pwl < r.gbs ∧ r.exp < r.gbs ∧ r.cst < r.gbs
    then 3 else m
  let m := if r.el < r.exp ∧ r.pl < r.exp ∧ r.lin < r.exp ∧ r.pwl < r.exp ∧ r.gbs < r.exp ∧ r.cst < r.exp
    then 4 else m
  let m := if r.el < r.pl ∧ r.pwl < r.pl ∧ r.exp < r.pl ∧ r.lin < r.pl ∧ r.gbs < r.pl ∧ r.cst < r.pl
    then 5 else m
  let m := if r.pl < r.cst ∧ r.pwl < r.cst ∧ r.exp < r.cst ∧ r.lin < r.cst ∧ r.gbs < r.cst ∧ r.el < r.cst
    then 6 else m
  if r.pl < r.el ∧ r.pwl < r.el ∧ r.exp < r.el ∧ r.lin < r.el ∧ r.gbs < r.el ∧ r.cst < r.el then 7 else m

/-- The axis of one variable: `v[0] = min`, `v[i] = v[i-1] + (max-min)/(n-1)`
(RheologyDensity.c:1793-1812). -/
noncomputable def mapAxis (lo hi : ℝ) (n : Nat) : Nat → ℝ
  | 0 => lo
  | i + 1 => mapAxis lo hi n i + (hi - lo) / ((n : ℝ) - 1)

/-- Material parameters that the routine changes for the time of a map (RheologyDensity.c:1823-1834),
one entry per phase. -/
@[ext] structure MapMat where
  Flin : Nat → ℝ
  Fgbs : Nat → ℝ
  Fpwl : Nat → ℝ
  texp : Nat → ℝ
  gs_ref : Nat → ℝ

/-- What `ViscosityConcise` returns for a map: viscosity, `txx1` and the strain rates. -/
structure MapPoint where
  eta : ℝ
  txx : ℝ
  rates : Rates ℝ

/-- One map: mechanism, stress and viscosity arrays. -/
structure DefMap where
  mech : Nat → Int
  stress : Nat → ℝ
  visco : Nat → ℝ

/-- Call of `ViscosityConcise` with the temperature, the two normal strain rates and the grain size;
the other arguments are the same for all points (RheologyDensity.c:1854). -/
abbrev Visc := MapMat → (k : Nat) → (T d Exx Ezz : ℝ) → MapPoint

/-- Loops over grain size, temperature and strain rate for phase `k` (RheologyDensity.c:1843-1872).
`mech` is the variable carried from point to point; the arrays start with arbitrary content. -/
noncomputable def mapLoops (visc : Visc) (k nT nE nd : Nat) (T E d : Nat → ℝ)
    (st : MapMat × Int × DefMap) : MapMat × Int × DefMap :=
  forUp nd st fun st iz =>
    let mat : MapMat := { st.1 with gs_ref := upd st.1.gs_ref k (d iz) }
    forUp nT (mat, st.2.1, st.2.2) fun st ix =>
      forUp nE st fun st iy =>
        let p := visc st.1 k (T ix) (d iz) (E iy) (E iy)
        let mech := selectMech p.rates st.2.1
        let ind := ix + iy * nT + iz * nE * nT
        (st.1, mech, ⟨upd st.2.2.mech ind mech, upd st.2.2.stress ind p.txx, upd st.2.2.visco ind p.eta⟩)

/-- One phase: parameters saved and set to "no correction", loops, parameters put back
(RheologyDensity.c:1823-1834, 1963-1968). -/
noncomputable def mapPhase (visc : Visc) (nT nE nd : Nat) (T E d : Nat → ℝ) (k : Nat)
    (mat : MapMat) (mech : Int) (junk : DefMap) : MapMat × Int × DefMap :=
  let mat1 : MapMat := ⟨upd mat.Flin k 1, upd mat.Fgbs k 1, upd mat.Fpwl k 1, upd mat.texp k 0, mat.gs_ref⟩
  let r := mapLoops visc k nT nE nd T E d (mat1, mech, junk)
  (⟨upd r.1.Flin k (mat.Flin k), upd r.1.Fgbs k (mat.Fgbs k), upd r.1.Fpwl k (mat.Fpwl k),
    upd r.1.texp k (mat.texp k), upd r.1.gs_ref k (mat.gs_ref k)⟩, r.2.1, r.2.2)

/-- The invariant `ViscosityConcise` computes from its arguments, without the lower cut-off
(RheologyDensity.c:430-431). -/
noncomputable def viscInv (Exx Ezz Exz : ℝ) : ℝ :=
  let Eyy := -(Exx + Ezz)
  Real.sqrt (1 / 2 * (Exx * Exx + Ezz * Ezz + Eyy * Eyy) + Exz * Exz)

end Maps

end Verif.Output
