import Verif.Spec.Rigid
import Mathlib.Algebra.BigOperators.Ring.Finset
import Mathlib.Data.Finset.Prod

/-
Vocabulary for C145: the velocity unknowns of a closed box and the work the assembled velocity
block does on a velocity field.
-/
namespace Verif
open Finset

variable {K : Type*} [Field K] [LinearOrder K]

/-- The unknown velocities strictly inside the box: Vx nodes off the side walls and off the two ghost
rows, Vz nodes off the bottom and top and off the two ghost columns, with tag -1. -/
def velNodes (m : SMesh K) : Finset SNode :=
  (((range m.Nx ×ˢ range (m.Nz + 1)).filter fun q => (0 < q.1 ∧ q.1 + 1 < m.Nx ∧ 0 < q.2 ∧
    q.2 < m.Nz) ∧ m.tu ((q.1 : Int) + q.2 * m.Nx) = -1).image
      fun q => SNode.u ((q.1 : Int) + q.2 * m.Nx)) ∪
  (((range (m.Nx + 1) ×ˢ range m.Nz).filter fun q => (0 < q.1 ∧ q.1 < m.Nx ∧ 0 < q.2 ∧
    q.2 + 1 < m.Nz) ∧ m.tv ((q.1 : Int) + q.2 * (m.Nx + 1)) = -1).image
      fun q => SNode.v ((q.1 : Int) + q.2 * (m.Nx + 1)))

/-- The assembled velocity row of a node. -/
def velRow (m : SMesh K) : SNode → List (SNode × K)
  | .u i => xStencil m (colOf m.Nx i) (rowOf m.Nx i)
  | .v i => zStencil m (colOf (m.Nx + 1) i) (rowOf (m.Nx + 1) i)
  | .p _ => []

/-- `xᵀ A x`, where `A` is the assembled velocity block: the rate of work done against the viscous
forces in the velocity field `x` on the unknown nodes, with walls at rest. -/
def viscousWork (m : SMesh K) (x : SNode → K) : K :=
  ∑ d ∈ velNodes m, ∑ e ∈ velNodes m, x d * coeff (velRow m d) e * x e

/-- Viscous coefficients are the same in both directions, not negative, and vanish in cells that are
not rock; cells are rock or air.  (`iso`, `air` and `tags` are also asked of indices outside the
arrays, which the rows of unknown nodes never read.) -/
structure Viscous (m : SMesh K) : Prop where
  iso : ∀ c, m.D22 c = m.D11 c
  cell : ∀ k l : Nat, k + 1 < m.Nx → l + 1 < m.Nz → 0 ≤ m.D11 ((k : Int) + l * (m.Nx - 1))
  vertex : ∀ k l : Nat, k < m.Nx → l < m.Nz → 0 ≤ m.D33 ((k : Int) + l * m.Nx)
  air : ∀ c, m.tp c ≠ -1 → m.D11 c = 0
  tags : ∀ c, CellOk (m.tp c)

/-- Every cell is rock and has positive viscosity. -/
def AllRock (m : SMesh K) : Prop := ∀ k l : Nat, k + 1 < m.Nx → l + 1 < m.Nz →
  m.tp ((k : Int) + l * (m.Nx - 1)) = -1 ∧ 0 < m.D11 ((k : Int) + l * (m.Nx - 1))

/-- Wall tags (11 no slip, 13 free slip) occur on ghost rows and columns only, and no side is
periodic. -/
structure ClosedBox (m : SMesh K) : Prop where
  u : ∀ k l : Nat, 0 < k → k + 1 < m.Nx → 0 < l → l < m.Nz →
    m.tu ((k : Int) + l * m.Nx) ≠ 11 ∧ m.tu ((k : Int) + l * m.Nx) ≠ 13
  v : ∀ k l : Nat, 0 < k → k < m.Nx → 0 < l → l + 1 < m.Nz →
    m.tv ((k : Int) + l * (m.Nx + 1)) ≠ 11 ∧ m.tv ((k : Int) + l * (m.Nx + 1)) ≠ 13
  notPeriodic : ∀ i, m.tv i ≠ -12

/-- Either the free-surface stabilisation is off, or density does not increase against gravity
at any inner velocity node: the weight of the stabilisation is not negative. -/
def StableOrOff (m : SMesh K) : Prop :=
  m.stab = true → 0 ≤ m.theta * m.dt ∧
    (∀ k l : Nat, 0 < k → k + 1 < m.Nx → 0 < l → l < m.Nz → 0 ≤ m.gx ((k : Int) + l * m.Nx) *
      (m.rho ((k : Int) - 1 + ((l : Int) - 1) * (m.Nx - 1) + 1) - m.rho ((k : Int) - 1 + ((l : Int) - 1) * (m.Nx - 1)))) ∧
    (∀ k l : Nat, 0 < k → k < m.Nx → 0 < l → l + 1 < m.Nz → 0 ≤ m.gz ((k : Int) + l * (m.Nx + 1)) *
      (m.rho ((k : Int) - 1 + ((l : Int) - 1) * (m.Nx - 1) + (m.Nx - 1)) - m.rho ((k : Int) - 1 + ((l : Int) - 1) * (m.Nx - 1))))

/-- The cell in column `k`, row `l` is rock. -/
def RockCell (m : SMesh K) (k l : Nat) : Prop := m.tp ((k : Int) + l * (m.Nx - 1)) = -1

/-- Rock with topography: every column of cells is rock from the bottom row up to some height, rock
cells are viscous, above the bottom row no rock cell stands alone in its row (it has a rock neighbour
or touches a side wall), vertices surrounded by rock carry shear viscosity, and velocities are solved
only on the faces of rock cells. -/
structure Terrain (m : SMesh K) : Prop where
  viscous : ∀ k l : Nat, k + 1 < m.Nx → l + 1 < m.Nz → RockCell m k l →
    0 < m.D11 ((k : Int) + l * (m.Nx - 1))
  base : ∀ k : Nat, k + 1 < m.Nx → 1 < m.Nz → RockCell m k 0
  column : ∀ k l : Nat, k + 1 < m.Nx → l + 2 < m.Nz → RockCell m k (l + 1) → RockCell m k l
  tied : ∀ k l : Nat, k + 1 < m.Nx → l + 1 < m.Nz → 0 < l → RockCell m k l →
    k = 0 ∨ k + 2 = m.Nx ∨ RockCell m (k - 1) l ∨ RockCell m (k + 1) l
  vertex : ∀ k l : Nat, 0 < k → k + 1 < m.Nx → 0 < l → l + 1 < m.Nz → RockCell m (k - 1) (l - 1) →
    RockCell m k (l - 1) → RockCell m (k - 1) l → RockCell m k l →
    m.tg ((k : Int) + l * m.Nx) ≠ 30 ∧ 0 < m.D33 ((k : Int) + l * m.Nx)
  u : ∀ k l : Nat, 0 < k → k + 1 < m.Nx → 0 < l → l < m.Nz → m.tu ((k : Int) + l * m.Nx) = -1 →
    RockCell m (k - 1) (l - 1) ∨ RockCell m k (l - 1)
  v : ∀ k l : Nat, 0 < k → k < m.Nx → 0 < l → l + 1 < m.Nz →
    m.tv ((k : Int) + l * (m.Nx + 1)) = -1 → RockCell m (k - 1) (l - 1) ∨ RockCell m (k - 1) l

/-- A rock cell that nothing holds: no neighbour across a face is rock and none of its corners carries
shear stress. -/
structure Loose (m : SMesh K) (k l : Nat) : Prop where
  rock : RockCell m k l
  west : ¬ RockCell m (k - 1) l
  east : ¬ RockCell m (k + 1) l
  corner : ∀ i j : Nat, i = k ∨ i = k + 1 → j = l ∨ j = l + 1 → m.tg ((i : Int) + j * m.Nx) = 30

end Verif
