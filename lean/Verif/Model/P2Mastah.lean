import Verif.Prelude
import Verif.Model.Basic
import Mathlib.Algebra.Order.Floor.Ring
import Mathlib.Algebra.Order.Group.Abs

/-
Marker-to-grid interpolation `P2Mastah` (/repo/MDLIB/ParticleRoutines.c:1982-2328).

Arrays indexed by nodes are functions of an integer, so that a wrong node number would be visible.
`log`/`exp` are parameters `lg`, `ex` (instantiated with the real functions in the properties).
-/
namespace Verif.P2M
open Verif

variable {K : Type*} [Field K] [LinearOrder K] [FloorRing K]

/-- A marker as seen by the routine (particles.x, .z, .phase). -/
structure Mk (K : Type*) where
  x : K
  z : K
  phase : Int

/-- Node family selected by `centroid` (ParticleRoutines.c:2000-2023) and interpolation switches. -/
structure Fam (K : Type*) where
  Nx : Nat
  Nz : Nat
  X : Int → K
  Z : Int → K
  dx : K
  dz : K
  /-- `centroid == 0` -/
  vertices : Bool
  /-- `interp_stencil` -/
  stencil : Nat
  /-- `model->periodic_x == 1` -/
  periodic : Bool

/-- Nearest node in one direction (ParticleRoutines.c:2084-2093). -/
def nearest (n : Nat) (x0 dx x : K) : Int :=
  let i := ⌈(x - x0) / dx + 1 / 2⌉ - 1
  let i := if i < 0 then 0 else i
  if (n : Int) - 1 < i then n - 1 else i

/-- `dx_itp` (ParticleRoutines.c:2028-2031). -/
def itp (stencil : Nat) (d : K) : K := if stencil = 1 then d / 2 else 3 * d / 2

/-- `(1.0-dxm/dx_itp)*(1.0-dzm/dz_itp)` (e.g. ParticleRoutines.c:2142). -/
def wgt (dxi dzi dxm dzm : K) : K := (1 - dxm / dxi) * (1 - dzm / dzi)

/-- Nodes reached by an active marker and the weight added there, in program order
(ParticleRoutines.c:2095-2262). -/
def hits (g : Fam K) (x z : K) : List (Int × K) :=
  let nx : Int := g.Nx
  let ip := nearest g.Nx (g.X 0) g.dx x
  let jp := nearest g.Nz (g.Z 0) g.dz z
  let w := wgt (itp g.stencil g.dx) (itp g.stencil g.dz)
  let periE : Int := if ip = nx - 1 ∧ g.periodic then 1 else 0
  let periW : Int := if ip = 0 ∧ g.periodic then 1 else 0
  (ip + jp * nx, w |g.X ip - x| |g.Z jp - z|) ::
  (if g.stencil = 9 then
    (if jp < g.Nz - 1 then [(ip + (jp + 1) * nx, w |g.X ip - x| |g.Z jp + g.dz - z|)] else []) ++
    (if 0 < jp then [(ip + (jp - 1) * nx, w |g.X ip - x| |g.Z jp - g.dz - z|)] else []) ++
    (if ip < nx - 1 ∨ periE = 1 then
      [(ip + jp * nx + (1 - periE) * 1 - periE * (nx - 1), w |g.X ip + g.dx - x| |g.Z jp - z|)] else []) ++
    (if 0 < ip ∨ periW = 1 then
      [(ip + jp * nx - (1 - periW) * 1 + periW * (nx - 1), w |g.X ip - g.dx - x| |g.Z jp - z|)] else []) ++
    (if 0 < jp ∧ (0 < ip ∨ periW = 1) then
      [(ip + (jp - 1) * nx - (1 - periW) * 1 + periW * (nx - 1),
        w |g.X ip - g.dx - x| |g.Z jp - g.dz - z|)] else []) ++
    (if jp < g.Nz - 1 ∧ (0 < ip ∨ periW = 1) then
      [(ip + (jp + 1) * nx - (1 - periW) * 1 + periW * (nx - 1),
        w |g.X ip - g.dx - x| |g.Z jp + g.dz - z|)] else []) ++
    (if jp < g.Nz - 1 ∧ (ip < nx - 1 ∨ periE = 1) then
      [(ip + (jp + 1) * nx + (1 - periE) * 1 - periE * (nx - 1),
        w |g.X ip + g.dx - x| |g.Z jp + g.dz - z|)] else []) ++
    (if 0 < jp ∧ (ip < nx - 1 ∨ periE = 1) then
      [(ip + (jp - 1) * nx + (1 - periE) * 1 - periE * (nx - 1),
        w |g.X ip + g.dx - x| |g.Z jp - g.dz - z|)] else [])
  else [])

/-- `a[i] += v`. -/
def addAt (a : Int → K) (i : Int) (v : K) : Int → K := fun j => if j = i then a j + v else a j

/-- Per-thread buffers `Wm[t]`, `BmWm[t]`, `Wm_ph[t]` (ParticleRoutines.c:2052-2065). -/
structure Buf (K : Type*) where
  wm : Int → K
  bm : Int → K
  ph : Int → Int → K

/-- All zero, as `DoodzCalloc` leaves them (ParticleRoutines.c:2056-2062). -/
def Buf.zero : Buf K := ⟨fun _ => 0, fun _ => 0, fun _ _ => 0⟩

/-- The three `+=` statements for one node (e.g. ParticleRoutines.c:2142-2144). -/
def Buf.add (b : Buf K) (phase : Int) (v : K) (h : Int × K) : Buf K :=
  { wm := addAt b.wm h.1 h.2
    bm := addAt b.bm h.1 (v * h.2)
    ph := fun p => if p = phase then addAt (b.ph p) h.1 h.2 else b.ph p }

/-- Body of the marker loop for marker `k` (ParticleRoutines.c:2074-2265); `val` is `mark_val`. -/
def body (g : Fam K) (ms : Nat → Mk K) (val : Nat → K) (b : Buf K) (k : Nat) : Buf K :=
  if (ms k).phase ≠ -1 then
    (hits g (ms k).x (ms k).z).foldl (fun b h => b.add (ms k).phase (val k) h) b
  else b

/-- What one thread accumulates over the iterations `its` it is given. -/
def thread (g : Fam K) (ms : Nat → Mk K) (val : Nat → K) (its : List Nat) : Buf K :=
  its.foldl (body g ms val) Buf.zero

/-- Final reduction over threads at node `i` (ParticleRoutines.c:2269-2280), for any of the three
buffers. -/
def reduceThreads (g : Fam K) (ms : Nat → Mk K) (val : Nat → K) (ls : List (List Nat))
    (sel : Buf K → K) : K :=
  ls.foldl (fun s its => s + sel (thread g ms val its)) 0

/-- Air nodes (ParticleRoutines.c:2293). -/
def air (t : Int) : Bool := t == 30 || t == 31

/-- Value of `mark_val` before averaging for `flag` 0, 1, -1, -2 (ParticleRoutines.c:2103-2126);
`flag = -3` uses `acos` and is covered by passing the value. -/
def markVal (flag : Int) (mat : Int → K) (ms : Nat → Mk K) (nx nz : Nat → K) (k : Nat) : K :=
  if flag = 0 then mat (ms k).phase
  else if flag = 1 then mat k
  else if flag = -1 then 2 * nx k ^ 2 * nz k ^ 2
  else nx k * nz k * (-nx k ^ 2 + nz k ^ 2)

/-- Transformation of the marker value (ParticleRoutines.c:2130-2135). -/
def toAvg (lg : K → K) (avg : Nat) (v : K) : K :=
  let v := if avg = 1 then 1 / v else v
  if avg = 2 then lg v else v

/-- Back transformation (ParticleRoutines.c:2299-2304). -/
def fromAvg (ex : K → K) (avg : Nat) (v : K) : K :=
  let v := if avg = 1 then 1 / v else v
  if avg = 2 then ex v else v

/-- "Make periodic" for vertex fields (ParticleRoutines.c:2317-2324). -/
def makePeriodic (nx nz : Nat) (f : Nat → K) : Nat → K :=
  forUp nz f fun f l =>
    let c1 := l * nx + nx - 1
    let av := 1 / 2 * (f c1 + f (l * nx))
    upd (upd f c1 av) (l * nx) av

/-- Nodal values before the periodic averaging (ParticleRoutines.c:2269-2305).  `ls` is the
distribution of the marker loop over threads. -/
def raw (g : Fam K) (lg ex : K → K) (avg : Nat) (ms : Nat → Mk K) (val : Nat → K)
    (ls : List (List Nat)) (nodeType : Nat → Int) (f : Nat → K) (i : Nat) : K :=
  let v := fun k => toAvg lg avg (val k)
  if i < g.Nx * g.Nz then
    let WM := reduceThreads g ms v ls (fun b => b.wm i)
    let BM := reduceThreads g ms v ls (fun b => b.bm i)
    if |WM| < 1 / 10 ^ 30 ∨ air (nodeType i) = true then f i
    else fromAvg ex avg (BM / WM)
  else f i

/-- `P2Mastah` with `prop == 0` (nodal field of a marker quantity, ParticleRoutines.c:2067-2324). -/
def field (g : Fam K) (lg ex : K → K) (avg : Nat) (ms : Nat → Mk K) (val : Nat → K)
    (ls : List (List Nat)) (nodeType : Nat → Int) (f : Nat → K) : Nat → K :=
  if g.vertices && g.periodic then makePeriodic g.Nx g.Nz (raw g lg ex avg ms val ls nodeType f)
  else raw g lg ex avg ms val ls nodeType f

/-- `P2Mastah` with `prop == 1`: phase fraction of phase `p` at node `i`
(ParticleRoutines.c:2034-2042, 2273-2279, 2306-2311).  `mark_val` is not set in this mode; `junk` is
its content. -/
def phases (g : Fam K) (ms : Nat → Mk K) (junk : Nat → K) (ls : List (List Nat))
    (nodeType : Nat → Int) (p : Nat) (i : Nat) : K :=
  let WM := reduceThreads g ms junk ls (fun b => b.wm i)
  let s := reduceThreads g ms junk ls (fun b => b.ph p i)
  if |WM| < 1 / 10 ^ 30 ∨ air (nodeType i) = true then s else s / WM

end Verif.P2M
