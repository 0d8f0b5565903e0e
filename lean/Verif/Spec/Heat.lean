import Verif.Model.Thermal
import Mathlib.Algebra.BigOperators.Intervals
import Mathlib.Algebra.BigOperators.Ring.Finset

/-
Discrete energy balance of a cell, written face by face, and what it means to solve the assembled
system.
-/
namespace Verif.Heat
open Verif Finset

variable {K : Type*} [Field K] [LinearOrder K]

/-- The four faces of a cell. -/
inductive Face where
  | W | E | S | N
  deriving DecidableEq

/-- What lies behind a face of a rock cell: another cell (column, row), a side of the box kept at a temperature, the
free surface kept at a temperature, a side of the box with a prescribed heat outflow per area, or
insulation. -/
inductive Behind (K : Type*) where
  | cell (k l : Nat)
  | wall (T : K)
  | surface (T : K)
  | outflow (q : K)
  | insulated

/-- Is the cell rock (solved for)? -/
def Rock (p : Par K) (k l : Nat) : Prop := p.te (p.ext k l) ≠ 30

/-- Behind a face with a cell inside the box: that cell if it is rock, else the free surface, held at the
temperature stored at the cell if its tag is 1 and insulating otherwise. -/
def inside (p : Par K) (k l k' l' : Nat) : Behind K :=
  if p.te (p.ext k' l') ≠ 30 then .cell k' l'
  else if p.te (p.ext k l) = 1 then .surface (p.ve (p.ext k l))
  else .insulated

/-- Tags of the ghost nodes beside the box: column 0 and `ncx+1`, row 0 and `ncz+1` of the extended arrays. -/
def ghost (p : Par K) (k l : Nat) : Face → Nat
  | .W => 0 + (l + 1) * (p.ncx + 2)
  | .E => (p.ncx + 1) + (l + 1) * (p.ncx + 2)
  | .S => (k + 1) + 0 * (p.ncx + 2)
  | .N => (k + 1) + (p.ncz + 1) * (p.ncx + 2)

/-- Behind a side of the box: tag 1 prescribed temperature, tag -2 (west and east) periodic partner, tag 0 (south)
prescribed outflow, otherwise insulation. -/
def outside (p : Par K) (k l : Nat) (f : Face) : Behind K :=
  let g := ghost p k l f
  if p.te g = 1 then .wall (p.ve g)
  else match f with
    | .W => if p.te g = -2 then .cell (p.ncx - 1) l else .insulated
    | .E => if p.te g = -2 then .cell 0 l else .insulated
    | .S => if p.te g = 0 then .outflow (p.ve g) else .insulated
    | .N => .insulated

/-- What lies behind face `f` of cell `(k, l)`. -/
def behind (p : Par K) (k l : Nat) : Face → Behind K
  | .W => if 0 < k then inside p k l (k - 1) l else outside p k l .W
  | .E => if k + 1 < p.ncx then inside p k l (k + 1) l else outside p k l .E
  | .S => if 0 < l then inside p k l k (l - 1) else outside p k l .S
  | .N => if l + 1 < p.ncz then inside p k l k (l + 1) else outside p k l .N

/-- Conductivity of a face: `kx` on the Vx nodes (row `l+1`, as there is a ghost row), `kz` on the Vz nodes. -/
def faceK (p : Par K) (k l : Nat) : Face → K
  | .W => p.kx (k + (l + 1) * (p.ncx + 1))
  | .E => p.kx ((k + 1) + (l + 1) * (p.ncx + 1))
  | .S => p.kz ((k + 1) + l * (p.ncx + 2))
  | .N => p.kz ((k + 1) + (l + 1) * (p.ncx + 2))

/-- Spacing across a face. -/
def faceD (p : Par K) : Face → K
  | .W | .E => p.dx
  | .S | .N => p.dz

/-- Heat flowing into the cell through a face, per cell volume.  A wall or the free surface is half a spacing
away.  A prescribed outflow acts over the *horizontal* spacing, as in the code. -/
def inflow (p : Par K) (T : Nat → K) (k l : Nat) (f : Face) : K :=
  match behind p k l f with
  | .cell k' l' => faceK p k l f * (T (k' + l' * p.ncx) - T (k + l * p.ncx)) / faceD p f ^ 2
  | .wall Tb => 2 * faceK p k l f * (Tb - T (k + l * p.ncx)) / faceD p f ^ 2
  | .surface Ts => 2 * p.ks k l * (Ts - T (k + l * p.ncx)) / faceD p f ^ 2
  | .outflow q => -q / p.dx
  | .insulated => 0

/-- Energy balance of a cell over one step from `T0` to `T` with source `q`. -/
def Balance (p : Par K) (q : Nat → K) (T0 T : Nat → K) (k l : Nat) : Prop :=
  p.cap (k + l * p.ncx) * (T (k + l * p.ncx) - T0 (k + l * p.ncx)) / p.dt =
    inflow p T k l .W + inflow p T k l .E + inflow p T k l .S + inflow p T k l .N + q (k + l * p.ncx)

/-- Matrix entry `(i, j)`: sum of the coefficients of row `i` labelled `j`. -/
def entry (b : ThBuf K) (i j : Nat) : K := ∑ t ∈ Ico (b.I i) (b.I (i + 1)), if b.J t = j then b.A t else 0

/-- What the Cholesky solver computes (/repo/MDLIB/ThermalSolver.c:230-283, 291-310): only the lower triangle is handed
over, so the solution belongs to the symmetric matrix with that lower triangle. -/
def CholSolves (neq : Nat) (b : ThBuf K) (r x : Nat → K) : Prop :=
  ∀ i < neq, ∑ j ∈ range neq, (if j ≤ i then entry b i j else entry b j i) * x j = r i

/-- Tags are consistent: cell and extended arrays agree about the air. -/
def TagsAgree (p : Par K) : Prop := ∀ k < p.ncx, ∀ l < p.ncz, (p.tt (k + l * p.ncx) = 30 ↔ p.te (p.ext k l) = 30)

/-- Periodic rows: if a side of a row of cells is tagged periodic and the cell there is rock, then so are the other side and
its cell, and the conductivities of the two sides are equal. -/
def PeriodicOK (p : Par K) : Prop := ∀ l < p.ncz,
  (Rock p 0 l ∧ p.te (ghost p 0 l .W) = -2 → Rock p (p.ncx - 1) l ∧ p.te (ghost p 0 l .E) = -2) ∧
  (Rock p (p.ncx - 1) l ∧ p.te (ghost p 0 l .E) = -2 → Rock p 0 l ∧ p.te (ghost p 0 l .W) = -2) ∧
  (Rock p 0 l ∧ p.te (ghost p 0 l .W) = -2 → faceK p 0 l .W = faceK p (p.ncx - 1) l .E)

/-- Coefficients are physical. -/
structure Physical (p : Par K) : Prop where
  dx : 0 < p.dx
  dz : 0 < p.dz
  dt : 0 < p.dt
  cap : ∀ c, 0 < p.cap c
  kx : ∀ c, 0 ≤ p.kx c
  kz : ∀ c, 0 ≤ p.kz c

/-- One solve: a temperature field `T'` the routine can return for `T`. -/
def Step (p : Par K) (src : Src K) (air : K) (T T' : Nat → K) : Prop :=
  ∃ (junk : ThBuf K) (r x : Nat → K),
    (∀ c < p.ncx * p.ncz, p.active c = true → r (p.num.eqn c).toNat = rhs p src T c) ∧
    CholSolves p.num.inc (matrix p junk) r x ∧ extract p x air T = some T'

end Verif.Heat
