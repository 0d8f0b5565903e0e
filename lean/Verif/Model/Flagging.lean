import Verif.Model.Surface

/-
Air/rock flags of the staggered grids, `CellFlagging` (/repo/MDLIB/FreeSurface.c:492-798).

Arrays are functions of column and row (`c1 = i + j*(number of columns)` with `i` in range).  All loops except those
over the vertices only write the entry (or entries) they visit and read other arrays, so they are written
pointwise.
-/
namespace Verif.Flag
open Verif

variable {K : Type*} [Field K] [LinearOrder K]

/-- Inputs: `Nx`, `Nz`, coordinates of the extended centres (`xvz_coord`, `zvx_coord`), of the vertex rows (`zg_coord`), line
coefficients and nodal heights of the surface. -/
structure In (K : Type*) where
  ncx : Nat
  ncz : Nat
  xvz : Nat → K
  zvx : Nat → K
  zg : Nat → K
  ab : (Nat → K) × (Nat → K)
  h : Nat → K

/-- Surface height above an extended column (FreeSurface.c:524-534). -/
def In.top (g : In K) (i : Nat) : K :=
  if i = 0 then Surf.height g.ab 0 (g.xvz i)
  else if i = g.ncx + 1 then Surf.height g.ab ((g.ncx - 1 : Nat) : Int) (g.xvz i)
  else Surf.height g.ab ((i - 1 : Nat) : Int) (g.xvz i)

/-- `PVtag0` after the first loop (FreeSurface.c:538-547). -/
def raw (g : In K) (i j : Nat) : Int := if g.top i < g.zvx j then 30 else -1

/-- First layer above the surface: tag 60 (FreeSurface.c:551-563). -/
def layer (g : In K) (i j : Nat) : Int :=
  if (0 < j ∧ j < g.ncz + 1) ∧ raw g i j ≠ raw g i (j - 1) then 60 else raw g i j

/-- Lateral corrections (FreeSurface.c:567-591); all tests read the copy `PVtag0`. -/
def lateral (g : In K) (i j : Nat) : Int :=
  if 1 ≤ i ∧ i < g.ncx + 1 then
    let p := layer g i j
    let q := if p = -1 ∧ (layer g (i - 1) j = 60 ∧ layer g (i + 1) j = 60) then 60 else p
    let q := if p = 30 ∧ layer g (i + 1) j = -1 ∧ (layer g (i - 1) j = 30 ∨ layer g (i - 1) j = 60) then 60 else q
    let q := if p = 30 ∧ layer g (i - 1) j = -1 ∧ (layer g (i + 1) j = 30 ∨ layer g (i + 1) j = 60) then 60 else q
    if p = 30 ∧ layer g (i - 1) j = -1 ∧ layer g (i + 1) j = -1 then 60 else q
  else layer g i j

/-- `PVtag` after the copy of the east side (FreeSurface.c:594-600; the index of the west side is overwritten before
use). -/
def pv (g : In K) (i j : Nat) : Int := if i = g.ncx + 1 then lateral g (i - 1) j else lateral g i j

/-- `BCp.type` (FreeSurface.c:602-632). -/
def bcp (g : In K) (i j : Nat) : Int := if pv g (i + 1) (j + 1) = 60 then 31 else pv g (i + 1) (j + 1)

/-- `BCt.type` (FreeSurface.c:609-627). -/
def bct (g : In K) (i j : Nat) : Int := if pv g (i + 1) (j + 1) = 60 then 30 else pv g (i + 1) (j + 1)

/-- `BCu.type` before the copy of the sides: 30, then -1 on both faces of every extended cell with tag -1
(FreeSurface.c:635-659). -/
def u0 (g : In K) (i j : Nat) : Int :=
  if (i < g.ncx + 1 ∧ pv g i j = -1) ∨ (i + 1 < g.ncx + 2 ∧ pv g (i + 1) j = -1) then -1 else 30

/-- `BCu.type` (FreeSurface.c:661-667; `nx = ncx + 1`; the west copy happens before the east copy). -/
def bcu (g : In K) (i j : Nat) : Int :=
  let w := fun i => if i = 0 then u0 g 1 j else u0 g i j
  if i = g.ncx then w (g.ncx - 1) else w i

/-- `BCv.type` before the copy of the sides (FreeSurface.c:670-695). -/
def v0 (g : In K) (i j : Nat) : Int :=
  if (j < g.ncz + 1 ∧ pv g i j = -1) ∨ (j + 1 < g.ncz + 2 ∧ pv g i (j + 1) = -1) then -1 else 30

/-- `BCv.type` (FreeSurface.c:697-704; `nxvz = ncx + 2`). -/
def bcv (g : In K) (i j : Nat) : Int :=
  let w := fun i => if i = 0 then v0 g 1 j else v0 g i j
  if i = g.ncx + 1 then w g.ncx else w i

/-- Vertices above the surface (FreeSurface.c:708-719). -/
def g0 (g : In K) (i j : Nat) : Int := if g.h i < g.zg j then 30 else -1

/-- Vertices just below (FreeSurface.c:722-732; rows are visited upwards, so the row above still has its old tag). -/
def g1 (g : In K) (i j : Nat) : Int := if j < g.ncz ∧ g0 g i j = -1 ∧ g0 g i (j + 1) = 30 then 30 else g0 g i j

/-- Eastward propagation (FreeSurface.c:735-745; columns are visited eastwards, so the column to the west
already has its new tag). -/
def g2 (g : In K) : Nat → Nat → Int
  | 0, j => g1 g 0 j
  | i + 1, j => if g1 g (i + 1) j = -1 ∧ g2 g i j = 30 then 30 else g1 g (i + 1) j

/-- Westward step (FreeSurface.c:748-758; the column to the east still has its old tag). -/
def g3 (g : In K) (i j : Nat) : Int := if i < g.ncx ∧ g2 g i j = -1 ∧ g2 g (i + 1) j = 30 then 30 else g2 g i j

/-- `BCg.type`: vertices inside rock are activated again (FreeSurface.c:762-794; `nx - 1 = ncx`, `nz - 1 = ncz`). -/
def bcg (g : In K) (i j : Nat) : Int :=
  let t := g3 g i j
  let t := if 0 < i ∧ i < g.ncx ∧ 0 < j ∧ j < g.ncz ∧ t = 30 then
    (if bcp g (i - 1) j = -1 ∧ bcp g (i - 1) (j - 1) = -1 ∧ bcp g i j = -1 ∧ bcp g i (j - 1) = -1 then -1 else t) else t
  let t := if i = 0 ∧ i < g.ncx ∧ 0 < j ∧ j < g.ncz ∧ t = 30 then
    (if bcp g i j = -1 ∧ bcp g i (j - 1) = -1 then -1 else t) else t
  if i = g.ncx ∧ 0 < j ∧ j < g.ncz ∧ t = 30 then
    (if bcp g (i - 1) j = -1 ∧ bcp g (i - 1) (j - 1) = -1 then -1 else t) else t

end Verif.Flag
