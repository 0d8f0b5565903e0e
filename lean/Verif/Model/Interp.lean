import Verif.Prelude
import Mathlib.Algebra.Order.Floor.Ring

/-
Grid-to-marker interpolation (/repo/MDLIB/ParticleRoutines.c): `V2P` (60-252), `Centers2Particle`
(259-453), `Vertices2Particle` (461-543), `Interp_Grid2P` (1382-1485) and
`Interp_Grid2P_centroids2` (1491-1740).  Arrays are functions of an integer index, so that an index
outside the array is visible; `ceil` is the exact one.
-/
namespace Verif.Interp
open Verif

variable {K : Type*} [Field K] [LinearOrder K] [FloorRing K]

/-- Four values around a marker. -/
structure Quad (α : Type*) where
  sw : α
  se : α
  nw : α
  ne : α

/-- `j_part = ceil(dst/dx) - 1` (e.g. ParticleRoutines.c:77-78). -/
def cellOf (x x0 dx : K) : Int := ⌈(x - x0) / dx⌉ - 1

/-- `if (j<0) j=0; if (j>N-2) j=N-2;` (e.g. ParticleRoutines.c:79-84). -/
def clampIdx (n j : Int) : Int :=
  let j := if j < 0 then 0 else j
  if n - 2 < j then n - 2 else j

/-- `iSW, iSE, iNW, iNE` (e.g. ParticleRoutines.c:99-102). -/
def corners (nx j i : Int) : Quad Int :=
  { sw := j + i * nx, se := j + i * nx + 1, nw := j + (i + 1) * nx, ne := j + (i + 1) * nx + 1 }

/-- Values of an array at four indices. -/
def Quad.get {α β : Type*} (q : Quad α) (f : α → β) : Quad β := ⟨f q.sw, f q.se, f q.nw, f q.ne⟩

/-- Treatment of air nodes (tag 30) for Vx (ParticleRoutines.c:109-126): replace by the vertical
neighbour, then by the other column when a whole column is air. -/
def airFixX (t : Quad Int) (v : Quad K) : Quad K :=
  let sw := if t.sw = 30 then v.nw else v.sw
  let se := if t.se = 30 then v.ne else v.se
  let nw := if t.nw = 30 then v.sw else v.nw
  let ne := if t.ne = 30 then v.se else v.ne
  let e := t.ne = 30 ∧ t.se = 30
  let ne := if e then sw else ne
  let se := if e then sw else se
  let w := t.nw = 30 ∧ t.sw = 30
  { sw := if w then se else sw, se := se, nw := if w then se else nw, ne := ne }

/-- Same for Vz (ParticleRoutines.c:199-215).  Note line 199: the south-west value comes from the
north-*east* node. -/
def airFixZ (t : Quad Int) (v : Quad K) : Quad K :=
  let sw := if t.sw = 30 then v.ne else v.sw
  let se := if t.se = 30 then v.ne else v.se
  let nw := if t.nw = 30 then v.sw else v.nw
  let ne := if t.ne = 30 then v.se else v.ne
  let e := t.ne = 30 ∧ t.se = 30
  let ne := if e then sw else ne
  let se := if e then sw else se
  let w := t.nw = 30 ∧ t.sw = 30
  { sw := if w then se else sw, se := se, nw := if w then se else nw, ne := ne }

/-- Horizontal velocity at a marker (ParticleRoutines.c:76-160).  `nx = Nx`, `nz = Nz+1`; `xg`,
`zvx` coordinates; `taras` the conservative correction switch. -/
def v2pVx (nx nz : Int) (xg zvx : Int → K) (dx dz : K) (V : Int → K) (tag : Int → Int)
    (taras : Bool) (x z : K) : K :=
  let j := clampIdx nx (cellOf x (xg 0) dx)
  let i := clampIdx nz (cellOf z (zvx 0) dz)
  let dxm := |x - xg j|
  let dzm := |z - zvx i|
  let q := corners nx j i
  let v := airFixX (q.get tag) (q.get V)
  let m13 := v.sw * (1 - dxm / dx) + v.se * dxm / dx
  let m24 := v.nw * (1 - dxm / dx) + v.ne * dxm / dx
  let c := 1 / 2 * (dxm / dx - 1 / 2) ^ 2
  let mm : K × K :=
    if taras then
      if 1 / 2 ≤ dxm / dx then
        if j < nx - 2 then
          let see := if tag (q.se + 1) = 30 then V q.sw else V (q.se + 1)
          let nee := if tag (q.ne + 1) = 30 then V q.nw else V (q.ne + 1)
          (m13 + c * (v.sw - 2 * v.se + see), m24 + c * (v.nw - 2 * v.ne + nee))
        else (m13, m24)
      else
        if 0 < j then
          let sww := if tag (q.sw - 1) = 30 then V q.se else V (q.sw - 1)
          let nww := if tag (q.nw - 1) = 30 then V q.ne else V (q.nw - 1)
          (m13 + c * (sww - 2 * v.sw + v.se), m24 + c * (nww - 2 * v.nw + v.ne))
        else (m13, m24)
    else (m13, m24)
  (1 - dzm / dz) * mm.1 + dzm / dz * mm.2

/-- Vertical velocity at a marker (ParticleRoutines.c:166-249).  `nx = Nx+1`, `nz = Nz`. -/
def v2pVz (nx nz : Int) (xvz zg : Int → K) (dx dz : K) (V : Int → K) (tag : Int → Int)
    (taras : Bool) (x z : K) : K :=
  let j := clampIdx nx (cellOf x (xvz 0) dx)
  let i := clampIdx nz (cellOf z (zg 0) dz)
  let dxm := |x - xvz j|
  let dzm := |z - zg i|
  let q := corners nx j i
  let v := airFixZ (q.get tag) (q.get V)
  let m12 := v.sw * (1 - dzm / dz) + v.nw * dzm / dz
  let m34 := v.se * (1 - dzm / dz) + v.ne * dzm / dz
  let c := 1 / 2 * (dzm / dz - 1 / 2) ^ 2
  let mm : K × K :=
    if taras then
      if 1 / 2 ≤ dzm / dz then
        if i < nz - 2 then
          let nnw := if tag (q.nw + nx) = 30 then V q.sw else V (q.nw + nx)
          let nne := if tag (q.ne + nx) = 30 then V q.se else V (q.ne + nx)
          (m12 + c * (v.sw - 2 * v.nw + nnw), m34 + c * (v.se - 2 * v.ne + nne))
        else (m12, m34)
      else
        if 0 < i then
          let ssw := if tag (q.sw - nx) = 30 then V q.nw else V (q.sw - nx)
          let sse := if tag (q.se - nx) = 30 then V q.ne else V (q.se - nx)
          (m12 + c * (ssw - 2 * v.sw + v.nw), m34 + c * (sse - 2 * v.se + v.ne))
        else (m12, m34)
    else (m12, m34)
  (1 - dxm / dx) * mm.1 + dxm / dx * mm.2

/-- Air nodes in the interpolation routines: tags 30 and 31 (ParticleRoutines.c:1454). -/
def isAir (t : Int) : Bool := t == 30 || t == 31

/-- `Interp_Grid2P` substitutes an air node by its vertical neighbour (ParticleRoutines.c:1454-1481,
1684-1711). -/
def swapAir (t : Quad Int) (v : Quad K) : Quad K :=
  { sw := if isAir t.sw then v.nw else v.sw, se := if isAir t.se then v.ne else v.se,
    nw := if isAir t.nw then v.sw else v.nw, ne := if isAir t.ne then v.se else v.ne }

/-- The weighted sum of four values, `a = dxm/dx`, `b = dzm/dz` (ParticleRoutines.c:1454-1481). -/
def bilin (a b : K) (v : Quad K) : K :=
  (1 - a) * (1 - b) * v.sw + a * (1 - b) * v.se + (1 - a) * b * v.nw + a * b * v.ne

/-- `Interp_Grid2P` for one active marker (ParticleRoutines.c:1414-1482).  The abort for
`j_part > Nx-2` on vertex arrays (1421-1428) is the `none` outcome: `Nx ≠ Nxg-1` is `vertexLike`. -/
def interpGrid2P (nx nz : Int) (vertexLike : Bool) (X Z : Int → K) (dx dz : K) (F : Int → K)
    (tag : Int → Int) (x z : K) : Option K :=
  let j0 := cellOf x (X 0) dx
  if vertexLike && nx - 2 < (if j0 < 0 then 0 else j0) then none else
  let j := clampIdx nx j0
  let i := clampIdx nz (cellOf z (Z 0) dz)
  let q := corners nx j i
  some (bilin (|x - X j| / dx) (|z - Z i| / dz) (swapAir (q.get tag) (q.get F)))

/-- Weighted mean over the nodes that are not air (ParticleRoutines.c:508-525, 430-450). -/
def airMean (a b : K) (t : Quad Int) (v : Quad K) : K :=
  let w (c : Bool) (y : K) : K := if c then 0 else y
  let sw := w (isAir t.sw) ((1 - a) * (1 - b))
  let se := w (isAir t.se) (a * (1 - b))
  let nw := w (isAir t.nw) ((1 - a) * b)
  let ne := w (isAir t.ne) (a * b)
  let val := sw * v.sw + se * v.se + nw * v.nw + ne * v.ne
  let sumW := sw + se + nw + ne
  if 1 / 10 ^ 13 < sumW then val / sumW else val

/-- `Vertices2Particle` for an active marker (ParticleRoutines.c:469-525); `none` is the abort of
line 480. -/
def vertices2Particle (nx nz : Int) (X Z : Int → K) (dx dz : K) (F : Int → K) (tag : Int → Int)
    (x z : K) : Option K :=
  let j0 := ⌈|x - X 0| / dx⌉ - 1
  let j := if j0 < 0 then 0 else j0
  if nx - 2 < j then none else
  let i := clampIdx nz (⌈|z - Z 0| / dz⌉ - 1)
  let q := corners nx j i
  some (airMean ((x - X j) / dx) ((z - Z i) / dz) (q.get tag) (q.get F))

/-- The nine cases selecting the four cell centres (ParticleRoutines.c:1525-1677; the same code at
277-424).  `nx`, `nz` numbers of cells; `j`, `i` the position in the extended array.  `junk` is the
content of the index variables when no case applies. -/
def centreIdx (nx nz : Int) (periodic : Bool) (junk : Quad Int) (j i : Int) : Quad Int :=
  let q := junk
  let q := if 0 < j ∧ j < nx ∧ 0 < i ∧ i < nz then
    ⟨j - 1 + (i - 1) * nx, j - 1 + (i - 1) * nx + 1, j - 1 + (i - 1 + 1) * nx,
      j - 1 + (i - 1 + 1) * nx + 1⟩ else q
  let q := if j = 0 ∧ 0 < i ∧ i < nz then
    if periodic then ⟨nx - 1 + (i - 1) * nx, j + (i - 1) * nx, nx - 1 + (i - 1 + 1) * nx, j + (i - 1 + 1) * nx⟩
    else ⟨j + (i - 1) * nx, j + (i - 1) * nx, j + (i - 1 + 1) * nx, j + (i - 1 + 1) * nx⟩ else q
  let q := if j = nx ∧ 0 < i ∧ i < nz then
    if periodic then ⟨j - 1 + (i - 1) * nx, 0 + (i - 1) * nx, j - 1 + (i - 1 + 1) * nx, 0 + (i - 1 + 1) * nx⟩
    else ⟨j - 1 + (i - 1) * nx, j - 1 + (i - 1) * nx, j - 1 + (i - 1 + 1) * nx, j - 1 + (i - 1 + 1) * nx⟩ else q
  let q := if i = 0 ∧ 0 < j ∧ j < nx then
    ⟨j - 1 + i * nx, j - 1 + i * nx + 1, j - 1 + i * nx, j - 1 + i * nx + 1⟩ else q
  let q := if i = nz ∧ 0 < j ∧ j < nx then
    ⟨j - 1 + (i - 1) * nx, j - 1 + (i - 1) * nx + 1, j - 1 + (i - 1) * nx, j - 1 + (i - 1) * nx + 1⟩ else q
  let q := if i = 0 ∧ j = 0 then
    if periodic then ⟨nx - 1 + 0 * nx, 0 + 0 * nx, nx - 1 + 0 * nx, 0 + 0 * nx⟩
    else ⟨j + i * nx, j + i * nx, j + i * nx, j + i * nx⟩ else q
  let q := if i = 0 ∧ j = nx then
    if periodic then ⟨j - 1 + i * nx, 0 + i * nx, j - 1 + i * nx, 0 + i * nx⟩
    else ⟨j - 1 + i * nx, j - 1 + i * nx, j - 1 + i * nx, j - 1 + i * nx⟩ else q
  let q := if i = nz ∧ j = 0 then
    if periodic then ⟨nx - 1 + (i - 1) * nx, j + (i - 1) * nx, nx - 1 + (i - 1) * nx, j + (i - 1) * nx⟩
    else ⟨j + (i - 1) * nx, j + (i - 1) * nx, j + (i - 1) * nx, j + (i - 1) * nx⟩ else q
  if i = nz ∧ j = nx then
    if periodic then ⟨j - 1 + (i - 1) * nx, 0 + (i - 1) * nx, j - 1 + (i - 1) * nx, 0 + (i - 1) * nx⟩
    else ⟨j - 1 + (i - 1) * nx, j - 1 + (i - 1) * nx, j - 1 + (i - 1) * nx, j - 1 + (i - 1) * nx⟩ else q

/-- `Interp_Grid2P_centroids2` for an active marker (ParticleRoutines.c:1517-1736); `X`, `Z` are the
extended coordinates `xvz_coord`, `zvx_coord`. -/
def interpCentroids (nx nz : Int) (periodic : Bool) (junk : Quad Int) (X Z : Int → K) (dx dz : K)
    (F : Int → K) (tag : Int → Int) (x z : K) : K :=
  let j := cellOf x (X 0) dx
  let i := cellOf z (Z 0) dz
  let q := centreIdx nx nz periodic junk j i
  let a := (x - X j) / dx
  let b := (z - Z i) / dz
  let s := bilin a b (swapAir (q.get tag) (q.get F))
  let sumW := (1 - a) * (1 - b) + a * (1 - b) + (1 - a) * b + a * b
  if 1 / 10 ^ 13 < sumW then s / sumW else s

/-- `Centers2Particle` for an active marker (ParticleRoutines.c:266-450). -/
def centers2Particle (nx nz : Int) (periodic : Bool) (junk : Quad Int) (X Z : Int → K) (dx dz : K)
    (F : Int → K) (tag : Int → Int) (x z : K) : K :=
  let j := cellOf x (X 0) dx
  let i := cellOf z (Z 0) dz
  let q := centreIdx nx nz periodic junk j i
  airMean ((x - X j) / dx) ((z - Z i) / dz) (q.get tag) (q.get F)

end Verif.Interp
