import Verif.Model.P2Mastah
import Verif.Model.ParLoop

/-
Free surface: piecewise-linear fit, clean-up, re-meshing of the marker chain, sedimentation,
projection to the grid, diffusion, zero-mean correction (/repo/MDLIB/FreeSurface.c).
-/
namespace Verif.Surf
open Verif

variable {K : Type*} [Field K] [LinearOrder K] [FloorRing K]

/-- Line coefficients of every cell, `MarkerChainPolyFit` (FreeSurface.c:394-411), for one pair of
arrays (the code does the same for `height0`). -/
def polyFit (ncx : Nat) (dx : K) (xg h : Nat → K) (ab : (Nat → K) × (Nat → K)) : (Nat → K) × (Nat → K) :=
  forUp ncx ab fun ab ic =>
    let a := upd ab.1 ic ((h (ic + 1) - h ic) / dx)
    (a, upd ab.2 ic (h ic - xg ic * a ic))

/-- Height from the coefficients of cell `ic` (`TopoFun`, FreeSurface.c:482-486). -/
def height (ab : (Nat → K) × (Nat → K)) (ic : Int) (x : K) : K := ab.2 ic.toNat + ab.1 ic.toNat * x

/-- Column of a marker in `CleanUpSurfaceParticles` (FreeSurface.c:820-824; the distance is an absolute value
here). -/
def columnAbs (ncx : Nat) (xc0 dx x : K) : Int :=
  let ic := ⌈|x - xc0| / dx + 1 / 2⌉ - 1
  let ic := if ic < 0 then 0 else ic
  if (ncx : Int) - 1 < ic then ncx - 1 else ic

/-- A marker as seen by the surface routines. -/
structure Mk (K : Type*) where
  x : K
  z : K
  phase : Int

/-- Body of `CleanUpSurfaceParticles` (FreeSurface.c:817-832). -/
def cleanUp1 (ncx : Nat) (dx xg0 : K) (ab : (Nat → K) × (Nat → K)) (m : Mk K) : Mk K :=
  if m.phase ≠ -1 then
    let h := height ab (columnAbs ncx (xg0 + dx / 2) dx m.x) m.x
    if h < m.z then { m with phase := -1 } else m
  else m

/-- `CleanUpSurfaceParticles` (FreeSurface.c:805-834), iterations in any order. -/
def cleanUp (ncx : Nat) (dx xg0 : K) (ab : (Nat → K) × (Nat → K)) (order : List Nat) (P : Nat → Mk K) : Nat → Mk K :=
  parMap (cleanUp1 ncx dx xg0 ab) order P

/-- Body of `CorrectTopoIni` (FreeSurface.c:80-88). -/
def correctIni1 (ncx : Nat) (dx xmin : K) (ab : (Nat → K) × (Nat → K)) (m : Mk K) : Mk K :=
  let g := height ab (P2M.nearest ncx (xmin + dx / 2) dx m.x) m.x
  if g < m.z then { m with z := g } else m

/-! ### Re-meshing of the chain -/

/-- Box and grid. -/
structure Par (K : Type*) where
  ncx : Nat
  dx : K
  xmin : K
  xmax : K
  nbMax : Nat

/-- Number of fine columns, `res*Ncx` with `res = 2` (FreeSurface.c:195, 201). -/
def Par.fine (p : Par K) : Nat := 2 * p.ncx

/-- Marking of the markers out of the box (FreeSurface.c:209-210). -/
def markOut (p : Par K) (m : Mk K) : Mk K :=
  if p.xmax < m.x ∨ m.x < p.xmin then { m with phase := -1 } else { m with phase := 0 }

/-- Fine column of a marker (FreeSurface.c:213-216; `distance/dx*res` is written as distance over the fine
spacing). -/
def Par.fineCol (p : Par K) (x : K) : Int := P2M.nearest p.fine (p.xmin + p.dx / 2 / 2) (p.dx / 2) x

/-- `NumMarkCell[k]` (FreeSurface.c:207-220). -/
def numMark (p : Par K) (ms : Nat → Mk K) (nb : Nat) (k : Nat) : Nat :=
  (List.range nb).countP fun i => (ms i).phase ≠ -1 && p.fineCol (ms i).x = k

/-- `reuse` (FreeSurface.c:223-231). -/
def reuse (ms : Nat → Mk K) (nb : Nat) : List Nat := (List.range nb).filter fun i => (ms i).phase = -1

/-- State of the filling loop; `log` lists the slots filled with their fine column (history variable). -/
structure RState (K : Type*) where
  ms : Nat → Mk K
  nb : Nat
  ii : Nat
  recycle : Bool
  newInd : Nat
  log : List (Nat × Nat)

/-- Choice of a slot (FreeSurface.c:246-250, 264-268). -/
def nextSlot (reuse : List Nat) (s : RState K) : RState K :=
  let s1 : RState K := if s.recycle then { s with newInd := reuse.getD s.ii 0, ii := s.ii + 1 }
    else { s with newInd := s.nb, nb := s.nb + 1 }
  if reuse.length ≤ s1.ii then { s1 with recycle := false } else s1

/-- One new chain marker in fine column `k`, `q` quarters from its western side (FreeSurface.c:245-261 with
`q = 1`, 263-279 with `q = 3`).  Velocities and `z0` are left out. -/
def addOne (p : Par K) (ab : (Nat → K) × (Nat → K)) (reuse : List Nat) (k : Nat) (q : K) (s : RState K) : RState K :=
  let s := nextSlot reuse s
  let x := p.xmin + k * p.dx / 2 + q * p.dx / 4 / 2
  let z := height ab (P2M.nearest p.ncx (p.xmin + p.dx / 2) p.dx x) x
  { s with ms := upd s.ms s.newInd { s.ms s.newInd with x := x, z := z }, log := s.log ++ [(s.newInd, k)] }

/-- One fine column; `none` is `exit(45)` (FreeSurface.c:239-286). -/
def fillColumn (p : Par K) (ab : (Nat → K) × (Nat → K)) (num : Nat → Nat) (reuse : List Nat) (s : RState K) (k : Nat) :
    Option (RState K) :=
  if num k < 4 then
    if s.nb + 1 < p.nbMax ∧ s.nb + 2 < p.nbMax then
      some (addOne p ab reuse k 3 (addOne p ab reuse k 1 s))
    else none
  else some s

/-- Sequential loop with early exit. -/
def runCols (f : RState K → Nat → Option (RState K)) : List Nat → RState K → Option (RState K)
  | [], s => some s
  | k :: ks, s => match f s k with
    | none => none
    | some s => runCols f ks s

/-- `RemeshMarkerChain` in mode 1 (FreeSurface.c:188-288). -/
def remesh (p : Par K) (ab : (Nat → K) × (Nat → K)) (ms0 : Nat → Mk K) (nb : Nat) : Option (RState K) :=
  let ms := fun i => if i < nb then markOut p (ms0 i) else ms0 i
  let r := reuse ms nb
  runCols (fillColumn p ab (numMark p ms nb) r) (List.range p.fine) ⟨ms, nb, 0, decide (0 < r.length), 0, []⟩

/-! ### Sedimentation -/

/-- Fields of a new sediment marker relevant to C33. -/
structure Sed (K : Type*) where
  x : K
  z : K
  phase : Int
  strain : K
  Fxx : K
  Fxz : K
  Fzx : K
  Fzz : K

/-- `sed_phase` (FreeSurface.c:98-103), `time` in seconds; C's `%` truncates like `Int.tmod`. -/
def sedPhase (ised1 ised2 : Int) (time : K) : Int :=
  if 0 < Int.tmod ⌊time / (3600 * (36525 / 100) * 24 * 10 ^ 6)⌋ 2 then ised1 else ised2

/-- The candidate positions in loop order (FreeSurface.c:110-120): fine column `k`, `ip = 0` or 1. -/
def sedX (p : Par K) (k : Nat) (ip : Bool) : K :=
  let xW := p.xmin + k * p.dx / 2
  let xE := p.xmin + k * p.dx / 2 + p.dx / 2
  if ip then xE - p.dx / 2 / 2 / 2 else xW + p.dx / 2 / 2 / 2

/-- Markers appended by `AddPartSed`, in order (FreeSurface.c:96-182): they go to slots `Nb_part`,
`Nb_part + 1`, ... without comparison to `Nb_part_max`.  `ab0`, `ab` are the old and new line
coefficients. -/
def addPartSed (p : Par K) (ab0 ab : (Nat → K) × (Nat → K)) (phase : Int) : List (Sed K) :=
  (List.range p.fine).flatMap fun k => [false, true].flatMap fun ip =>
    let x := sedX p k ip
    let ic := P2M.nearest p.ncx (p.xmin + p.dx / 2) p.dx x
    let hm0 := height ab0 ic x
    let hm := height ab ic x
    if hm0 < hm then [⟨x, 1 / 2 * (hm + hm0), phase, 0, 1, 0, 1, 0⟩] else []

/-! ### Projection of the chain to the grid -/

/-- Switches of `InterpTopoPart2Grid`. -/
structure Proj (K : Type*) where
  Nx : Nat
  dx : K
  xc : Int → K
  /-- `topo_update == 1` -/
  update : Bool

/-- A chain marker with its previous height. -/
structure Chain (K : Type*) where
  x : K
  z : K
  z0 : K
  phase : Int

/-- Sums `Wm`, `BmWm` (FreeSurface.c:326-338).  The column is not limited to the grid. -/
def accum (g : Proj K) (nb : Nat) (ms : Nat → Chain K) : (Int → K) × (Int → K) :=
  forUp nb ((fun _ => 0), (fun _ => 0)) fun s k =>
    let m := ms k
    if m.phase ≠ -1 then
      let i := ⌈(m.x - g.xc 0) / g.dx + 1 / 2⌉ - 1
      let dxm := 2 * |g.xc i - m.x|
      let v := if g.update then m.z - m.z0 else m.z
      ((fun j => if j = i then s.1 j + (1 - dxm / g.dx) else s.1 j),
       (fun j => if j = i then s.2 j + v * (1 - dxm / g.dx) else s.2 j))
    else s

/-- `Delta_heightc` (FreeSurface.c:340-347). -/
def delta (g : Proj K) (nb : Nat) (ms : Nat → Chain K) (k : Int) : K :=
  if (accum g nb ms).1 k < 1 / 10 ^ 30 then 0 else (accum g nb ms).2 k / (accum g nb ms).1 k

/-- `topo->height` with `polar == 0` (FreeSurface.c:349-360). -/
def projHeight (g : Proj K) (nb : Nat) (ms : Nat → Chain K) (h0 : Nat → K) (k : Nat) : K :=
  let inner := fun k : Nat =>
    let d := 1 / 2 * (delta g nb ms k + delta g nb ms ((k : Int) - 1))
    if g.update then h0 k + d else d
  if k = 0 then inner 1 else if k = g.Nx - 1 then inner (g.Nx - 2) else inner k

/-- `height_finer_c` (FreeSurface.c:371-382). -/
def finer (h : Nat → K) (k : Nat) : K :=
  if k % 2 = 0 then 3 / 4 * h (k / 2) + 1 / 4 * h (k / 2 + 1) else 1 / 4 * h (k / 2) + 3 / 4 * h (k / 2 + 1)

/-! ### Diffusion of the topography -/

/-- Parameters of `DiffuseAlongTopography` for `surface_processes == 1`. -/
structure Diff (K : Type*) where
  size : Nat
  dx : K
  diff : K
  time : K
  base : K
  rate : K

/-- Explicit step limit, number of sub-steps, sub-step (FreeSurface.c:909-910, 945-946). -/
def Diff.dt (d : Diff K) : K := 4 / 10 * d.dx * d.dx / d.diff
def Diff.nstep (d : Diff K) : Nat := ⌊d.time / d.dt + 1⌋.toNat
def Diff.dtr (d : Diff K) : K := if d.time < d.dt then d.time else d.time / d.nstep

/-- `correct` after the first two loops (FreeSurface.c:951-956).  The second loop has the condition
`i == 1` and starts at `size-2`: it runs (once) only if `size-2 == 1`. -/
def correct (d : Diff K) (h : Nat → K) (i : Nat) : K :=
  let c := 1 / 2 * d.dtr / d.dx / d.dx * d.diff * (h (i - 1) + h (i + 1) - 2 * h i)
  if d.size - 2 = 1 ∧ i = 1 then c + c else c

/-- One sub-step (FreeSurface.c:949-970).  `array_ini` and `array` are the same array in the only call
(/repo/MDLIB/Main_DOODZ.c:1101). -/
def diffStep (d : Diff K) (h : Nat → K) (i : Nat) : K :=
  if 1 ≤ i ∧ i < d.size - 1 then
    h i + correct d h i + (if h i < d.base then d.rate * d.dtr else 0)
  else h i

/-- `DiffuseAlongTopography` (FreeSurface.c:904-972). -/
def diffuse (d : Diff K) (h : Nat → K) : Nat → K := forUp d.nstep h fun h _ => diffStep d h

/-! ### Zero mean -/

/-- Sum of the heights of the chain slots with `phase > -1`, and their number (FreeSurface.c:1079-1086);
runs over the whole allocation. -/
def chainSum (nbMax : Nat) (ms : Nat → Mk K) : K × Nat :=
  forUp nbMax ((0 : K), 0) fun s i => if -1 < (ms i).phase then (s.1 + (ms i).z, s.2 + 1) else s

/-- `KeepZeroMeanTopo`, chain part (FreeSurface.c:1078-1090). -/
def zeroMeanChain (nbMax : Nat) (ms : Nat → Mk K) : Nat → Mk K := fun i =>
  if i < nbMax then { ms i with z := (ms i).z - (chainSum nbMax ms).1 / (chainSum nbMax ms).2 } else ms i

/-- `KeepZeroMeanTopo`, grid part (FreeSurface.c:1071-1077). -/
def zeroMeanGrid (Nx : Nat) (h : Nat → K) : Nat → K := fun i =>
  if i < Nx then h i - (forUp Nx (0 : K) fun s i => s + h i) / Nx else h i

end Verif.Surf
