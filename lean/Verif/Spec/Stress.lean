import Verif.Model.Stencil

/- Vocabulary for statements about the Stokes rows. -/
namespace Verif
variable {K : Type*} [Field K]

/-- A velocity/pressure field read at a stencil node. -/
def atNode (u v p : Int → K) : SNode → K
  | .u i => u i
  | .v i => v i
  | .p i => p i

/-- A list of (node, coefficient) pairs applied to a field. -/
def applyTo (f : SNode → K) (st : List (SNode × K)) : K := (st.map fun e => e.2 * f e.1).sum

/-- A list of (column, coefficient) pairs applied to a vector of unknowns. -/
def rowTimes (x : Int → K) (es : List (Int × K)) : K := (es.map fun e => e.2 * x e.1).sum

/-- Tags whose nodal value is given by the user or by the free surface (mdoodz-private.h:42-51):
Dirichlet on the node (0), Dirichlet off the node (11), Neumann off the node (13), surface
pressure (31). -/
def prescribedTags : List Int := [0, 11, 13, 31]

/-- Field obtained from the unknowns: prescribed nodes carry their boundary value, the others the
unknown with their equation number. -/
def fieldOf (m : SMesh K) (eqn : SNode → Int) (x : Int → K) (n : SNode) : K :=
  if m.tag n ∈ prescribedTags then m.val n else x (eqn n)

/-- Deviatoric stresses of an isotropic medium with coefficients D11 = D22 = 2 eta at cells and
D33 = eta at vertices. -/
def tauxx (m : SMesh K) (u v : Int → K) (c : Int) : K := m.D11 c * exxd m u v c
def tauzz (m : SMesh K) (u v : Int → K) (c : Int) : K := m.D22 c * ezzd m u v c
def tauxz (m : SMesh K) (u v : Int → K) (c : Int) : K := m.D33 c * (2 * exz m u v c)

/-- Fields vanish in the air (tag 30). -/
structure AirZero (m : SMesh K) (u v p : Int → K) : Prop where
  u : ∀ i, m.tu i = 30 → u i = 0
  v : ∀ i, m.tv i = 30 → v i = 0
  p : ∀ i, m.tp i = 30 → p i = 0

/-- Fields vanish at those of the listed nodes that lie in the air (tag 30). -/
def AirZeroOn (m : SMesh K) (u v p : Int → K) (nodes : List SNode) : Prop :=
  ∀ n ∈ nodes, m.tag n = 30 → atNode u v p n = 0

/-- The nodes an x-momentum row refers to. -/
def xNodes (m : SMesh K) (k l : Int) : List SNode :=
  let i := xIdx m k l
  [.u i.S, .u i.W, .u i.C, .u i.E, .u i.N, .v i.vSW, .v i.vSE, .v i.vNW, .v i.vNE, .p i.pW, .p i.pE]

/-- The nodes a z-momentum row refers to. -/
def zNodes (m : SMesh K) (k l : Int) : List SNode :=
  let i := zIdx m k l
  [.u i.uSW, .u i.uSE, .u i.uNW, .u i.uNE, .v i.S, .v i.W, .v i.C, .v i.E, .v i.N, .p i.pS, .p i.pN]

theorem AirZero.on {m : SMesh K} {u v p : Int → K} (h : AirZero m u v p) (ns : List SNode) :
    AirZeroOn m u v p ns := by
  intro n _ ht
  cases n with
  | u i => exact h.u i ht
  | v i => exact h.v i ht
  | p i => exact h.p i ht

/-- Ghost value relative to its inner neighbour for a homogeneous wall: no slip (11) mirrors with
opposite sign, free slip (13) mirrors. -/
def Ghost (t : Int) (g c : K) : Prop := (t = 11 → g = -c) ∧ (t = 13 → g = c)

/-- The tag of a pressure cell is rock or air. -/
def CellOk (t : Int) : Prop := t = -1 ∨ t = 30 ∨ t = 31

end Verif
