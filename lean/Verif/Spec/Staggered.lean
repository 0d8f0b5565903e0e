import Verif.Model.Numbering

/-
Vocabulary for statements about the staggered grid: unknowns, where they live, which tags mean
"solved", and which tag maps are legal.  Independent of the loops of the model.
-/
namespace Verif

/-- A node of one of the three staggered families. -/
inductive Dof where
  | u (k : Nat)
  | v (k : Nat)
  | p (k : Nat)
deriving DecidableEq

/-- The node exists on an `Nx` by `Nz` vertex grid. -/
def Dof.InGrid (Nx Nz : Nat) : Dof → Prop
  | .u k => k < (Nz + 1) * Nx
  | .v k => k < Nz * (Nx + 1)
  | .p k => k < (Nz - 1) * (Nx - 1)

/-- Tag stored at a node. -/
def Dof.tag (t : Tags) : Dof → Int
  | .u k => t.u k
  | .v k => t.v k
  | .p k => t.p k

/-- A node is solved for when its tag says inner point (-1), Neumann point (2) or, for Vx, the
west side of a periodic pair (-2). -/
def Dof.Solved (t : Tags) : Dof → Prop
  | .u k => t.u k = -1 ∨ t.u k = 2 ∨ t.u k = -2
  | .v k => t.v k = -1 ∨ t.v k = 2
  | .p k => t.p k = -1

/-- Value of a field at a node. -/
def Dof.value {K : Type*} (f : Fields K) : Dof → K
  | .u k => f.u k
  | .v k => f.v k
  | .p k => f.p k

/-- Equation number given to a node. -/
def Dof.eqn (n : Numbering) : Dof → Int
  | .u k => n.eqnU k
  | .v k => n.eqnV k
  | .p k => n.eqnP k

/-- Legal tag maps: only documented tags, and east-periodic Vx nodes (-12) sit in the last
column. -/
structure TagsOk (Nx Nz : Nat) (t : Tags) : Prop where
  u : ∀ k < (Nz + 1) * Nx, t.u k ∈ ([-1, 2, -2, 0, 11, 13, 30, -12] : List Int)
  v : ∀ k < Nz * (Nx + 1), t.v k ∈ ([-1, 2, 0, 11, 13, 30, -12] : List Int)
  p : ∀ k < (Nz - 1) * (Nx - 1), t.p k ∈ ([-1, 0, 30, 31] : List Int)
  east : ∀ k < (Nz + 1) * Nx, t.u k = -12 → k % Nx = Nx - 1

end Verif
