import Verif.Spec.Stress

/- Vocabulary for rigid motions and for the symmetry of the Stokes matrix. -/
namespace Verif
variable {K : Type*} [Field K]

/-- Horizontal velocity `a - w z` of a rigid motion, at the Vx nodes: node column `k`, row `l` sits
at height `(l - 1/2) dz` above the bottom of the box. -/
def rigidU (m : SMesh K) (a w : K) (i : Int) : K := a - w * (((rowOf m.Nx i : Int) : K) - 1/2) * m.dz

/-- Vertical velocity `b + w x` of a rigid motion, at the Vz nodes: node column `k` sits at
`(k - 1/2) dx` from the west side. -/
def rigidV (m : SMesh K) (b w : K) (i : Int) : K :=
  b + w * (((colOf (m.Nx + 1) i : Int) : K) - 1/2) * m.dx

/-- Total coefficient a row gives to a node (matrix entry in the column of that node). -/
def coeff (st : List (SNode × K)) (n : SNode) : K :=
  (st.map fun e => if e.1 = n then e.2 else 0).sum

/-- Matrix rows of the interior solved velocity nodes (tag -1). -/
inductive VelRow [LinearOrder K] (m : SMesh K) : SNode → List (SNode × K) → Prop
  | x (k l : Int) (h0 : 0 < k) (h1 : k < m.Nx - 1) (ht : m.tu (k + l * m.Nx) = -1) :
      VelRow m (.u (k + l * m.Nx)) (xStencil m k l)
  | z (k l : Int) (h0 : 0 < k) (h1 : k < m.Nx) (h2 : 0 < l) (h3 : l < m.Nz - 1)
      (ht : m.tv (k + l * (m.Nx + 1)) = -1) :
      VelRow m (.v (k + l * (m.Nx + 1))) (zStencil m k l)

/-- Pressure-gradient rows of the interior solved velocity nodes. -/
inductive GradRow [LinearOrder K] (m : SMesh K) : SNode → List (SNode × K) → Prop
  | x (k l : Int) (h0 : 0 < k) (h1 : k < m.Nx - 1) (ht : m.tu (k + l * m.Nx) = -1) :
      GradRow m (.u (k + l * m.Nx)) (xStencilP m k l)
  | z (k l : Int) (h0 : 0 < k) (h1 : k < m.Nx) (h2 : 0 < l) (h3 : l < m.Nz - 1)
      (ht : m.tv (k + l * (m.Nx + 1)) = -1) :
      GradRow m (.v (k + l * (m.Nx + 1))) (zStencilP m k l)

/-- Continuity rows of the solved pressure cells. -/
inductive DivRow (m : SMesh K) : SNode → List (SNode × K) → Prop
  | c (k l : Int) (h0 : 0 ≤ k) (h1 : k < m.Nx - 1) (ht : m.tp (k + l * (m.Nx - 1)) = -1) :
      DivRow m (.p (k + l * (m.Nx - 1))) (cStencil m k l)

end Verif
