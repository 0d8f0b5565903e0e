import Verif.Model.ApplyBC
import Mathlib.Algebra.Field.Basic

/- What "the boundary conditions hold" means on the staggered velocity fields. -/
namespace Verif
variable {K : Type*}

/-- Tags sit on the sides they are meant for (mdoodz-private.h:42-51): tangential conditions
(11, 13) of Vx on the bottom/top ghost rows, of Vz on the left/right ghost columns; periodic
copies (-12) of Vx in the last column, of Vz in the ghost columns. -/
structure GhostTagsOk (Nx Nz : Nat) (t : Tags) : Prop where
  uRows : ∀ i l, i < Nx → l ≤ Nz → (t.u (i + l * Nx) = 11 ∨ t.u (i + l * Nx) = 13) →
    l = 0 ∨ l = Nz
  uEast : ∀ i l, i < Nx → l ≤ Nz → t.u (i + l * Nx) = -12 → i = Nx - 1
  vCols : ∀ i l, i ≤ Nx → l < Nz →
    (t.v (l * (Nx + 1) + i) = 11 ∨ t.v (l * (Nx + 1) + i) = 13 ∨ t.v (l * (Nx + 1) + i) = -12) →
    i = 0 ∨ i = Nx

/-- The boundary conditions hold on field `g`, with `V` the prescribed physical velocities. -/
structure BCHold [Field K] (Nx Nz : Nat) (t : Tags) (V : BCVals K) (g : Fields K) : Prop where
  /-- no slip, bottom and top: the mean of ghost and inner node is the prescribed velocity -/
  noSlipS : ∀ i < Nx, t.u i = 11 → (g.u i + g.u (i + 1 * Nx)) / 2 = V.u i
  noSlipN : ∀ i < Nx, t.u (i + Nz * Nx) = 11 →
    (g.u (i + Nz * Nx) + g.u (i + (Nz - 1) * Nx)) / 2 = V.u (i + Nz * Nx)
  /-- free slip, bottom and top: ghost equals inner node -/
  freeSlipS : ∀ i < Nx, t.u i = 13 → g.u i = g.u (i + 1 * Nx)
  freeSlipN : ∀ i < Nx, t.u (i + Nz * Nx) = 13 → g.u (i + Nz * Nx) = g.u (i + (Nz - 1) * Nx)
  /-- the same on the left and right ghost columns of Vz -/
  noSlipW : ∀ j < Nz, t.v (j * (Nx + 1)) = 11 →
    (g.v (j * (Nx + 1)) + g.v (j * (Nx + 1) + 1)) / 2 = V.v (j * (Nx + 1))
  noSlipE : ∀ j < Nz, t.v (j * (Nx + 1) + Nx) = 11 →
    (g.v (j * (Nx + 1) + Nx) + g.v (j * (Nx + 1) + (Nx - 1))) / 2 = V.v (j * (Nx + 1) + Nx)
  freeSlipW : ∀ j < Nz, t.v (j * (Nx + 1)) = 13 → g.v (j * (Nx + 1)) = g.v (j * (Nx + 1) + 1)
  freeSlipE : ∀ j < Nz, t.v (j * (Nx + 1) + Nx) = 13 →
    g.v (j * (Nx + 1) + Nx) = g.v (j * (Nx + 1) + (Nx - 1))
  /-- periodic sides: ghosts equal the wrapped interior nodes -/
  periodicVzW : ∀ j < Nz, t.v (j * (Nx + 1)) = -12 →
    g.v (j * (Nx + 1)) = g.v (j * (Nx + 1) + (Nx - 1))
  periodicVzE : ∀ j < Nz, t.v (j * (Nx + 1) + Nx) = -12 →
    g.v (j * (Nx + 1) + Nx) = g.v (j * (Nx + 1) + 1)
  periodicVx : ∀ l ≤ Nz, t.u ((Nx - 1) + l * Nx) = -12 →
    g.u ((Nx - 1) + l * Nx) = g.u (0 + l * Nx)

/-- Nodes that are neither ghosts nor periodic copies keep their value. -/
def OthersKept (t : Tags) (f g : Fields K) : Prop :=
  (∀ k, t.u k ∉ ([11, 13, -12] : List Int) → g.u k = f.u k) ∧
  (∀ k, t.v k ∉ ([11, 13, -12] : List Int) → g.v k = f.v k) ∧
  g.p = f.p

/-- East-periodic Vx nodes next to a bottom/top ghost already agree with their west twin. -/
def EastSynced (Nx Nz : Nat) (t : Tags) (f : Fields K) : Prop :=
  ∀ l, 0 < l → l < Nz → t.u ((Nx - 1) + l * Nx) = -12 →
    f.u ((Nx - 1) + l * Nx) = f.u (0 + l * Nx)

end Verif
