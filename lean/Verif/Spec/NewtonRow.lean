import Verif.Model.JacRows
import Verif.Model.Kinematics
import Verif.Spec.Newton
import Verif.Spec.Stress

/- Vocabulary for the rows of Newton's matrix: the residual of a momentum equation as a function of the
velocities and pressures, through strain rates and an arbitrary stress law. -/
namespace Verif.Spec.Newton
open Verif Verif.Tan

/-- Stresses as functions of the local state: in cells `sxx`, `szz` and the corrected pressure `pc`, at vertices
`sxz`.  Different cells and vertices may have different laws. -/
structure Laws where
  (sxx szz pc sxz : Nat → Pt ℝ → ℝ)

/-- What the strain-rate routine is given. -/
noncomputable def rateInput (m : JMesh ℝ) (u v : Int → ℝ) : Kin.Inp ℝ where
  Nx := m.Nx
  Nz := m.Nz
  dx := m.dx
  dz := m.dz
  comp := flag m.comp
  oop := m.oop
  per := m.per
  tagP n := m.tp n
  tagG n := m.tg n
  u n := u n
  v n := v n

/-- State of a cell: strain rates from the strain-rate routine plus what elasticity adds (`o`, from old
stresses), and the pressure. -/
noncomputable def cellState (m : JMesh ℝ) (s : Kin.Rates ℝ) (o : Nat → Pt ℝ) (u v p : Int → ℝ) (c : Nat) : Pt ℝ :=
  let r := Kin.strainRates (rateInput m u v) s
  ⟨r.exx c + (o c).xx, r.ezz c + (o c).zz, 2 * r.exzN c + (o c).g, p c⟩

/-- State of a vertex: normal rates and pressure averaged from cells, shear rate of the vertex. -/
noncomputable def vertexState (m : JMesh ℝ) (s : Kin.Rates ℝ) (o : Nat → Pt ℝ) (junk : Nat → ℝ) (u v p : Int → ℝ) (c : Nat) : Pt ℝ :=
  let r := Kin.strainRates (rateInput m u v) s
  ⟨r.exxS c + (o c).xx, r.ezzS c + (o c).zz, 2 * r.exz c + (o c).g,
   GridField.centroidsToVertices m.per m.Nx m.Nz (fun n => m.tp n) (fun n => m.tg n) (fun n => p n) junk c⟩

/-- What a residual depends on besides velocities and pressures: former contents of arrays, elastic offsets in
cells and at vertices, laws. -/
structure Setting where
  (s : Kin.Rates ℝ) (junk : Nat → ℝ) (oc ov : Nat → Pt ℝ) (L : Laws)

/-- Residual of the x-momentum equation of node `(k, l)` with body force `b`. -/
noncomputable def residualX (m : JMesh ℝ) (e : Setting) (b : ℝ) (k l : Int) (u v p : Int → ℝ) : ℝ :=
  xResidual m.toSMesh (fun c => e.L.sxx c.toNat (cellState m e.s e.oc u v p c.toNat))
    (fun c => e.L.sxz c.toNat (vertexState m e.s e.ov e.junk u v p c.toNat))
    (fun c => e.L.pc c.toNat (cellState m e.s e.oc u v p c.toNat)) b u k l

/-- Residual of the z-momentum equation of node `(k, l)` with body force `b`. -/
noncomputable def residualZ (m : JMesh ℝ) (e : Setting) (b : ℝ) (k l : Int) (u v p : Int → ℝ) : ℝ :=
  zResidual m.toSMesh (fun c => e.L.szz c.toNat (cellState m e.s e.oc u v p c.toNat))
    (fun c => e.L.sxz c.toNat (vertexState m e.s e.ov e.junk u v p c.toNat))
    (fun c => e.L.pc c.toNat (cellState m e.s e.oc u v p c.toNat)) b v k l

/-- A field moved by `t` times a change. -/
def along (u du : Int → ℝ) (t : ℝ) : Int → ℝ := fun i => u i + t * du i

/-- The operators stored for cell `c` are the derivatives of its two total normal stresses (deviatoric stress
minus what the corrected pressure exceeds the pressure by) at the given state. -/
def CellTangent (m : JMesh ℝ) (L : Laws) (c : Nat) (x : Pt ℝ) : Prop :=
  Slope (fun y => L.sxx c y - (L.pc c y - y.p)) x ⟨m.D11 c, m.D12 c, m.D13 c, m.D14 c⟩ ∧
  Slope (fun y => L.szz c y - (L.pc c y - y.p)) x ⟨m.D21 c, m.D22 c, m.D23 c, m.D24 c⟩

/-- The operators stored for vertex `c` are the derivatives of its shear stress. -/
def VertexTangent (m : JMesh ℝ) (L : Laws) (c : Nat) (x : Pt ℝ) : Prop :=
  Slope (L.sxz c) x ⟨m.D31 c, m.D32 c, m.D33 c, m.D34 c⟩

/-- Number of the cell in column `a`, row `b`, and of the vertex in column `a`, row `b`. -/
def cellNo (m : JMesh ℝ) (a b : Int) : Nat := (a + b * (m.Nx - 1)).toNat
def vertexNo (m : JMesh ℝ) (a b : Int) : Nat := (a + b * m.Nx).toNat

/-- Rate of stretching in `x` of the cell in column `a`, row `b`. -/
noncomputable def stretch (m : JMesh ℝ) (u : Int → ℝ) (a b : Int) : ℝ :=
  (u (a + 1 + (b + 1) * m.Nx) - u (a + (b + 1) * m.Nx)) / m.dx

/-- Rate of stretching in `z` of the cell in column `a`, row `b`. -/
noncomputable def rise (m : JMesh ℝ) (v : Int → ℝ) (a b : Int) : ℝ :=
  (v (a + 1 + (b + 1) * (m.Nx + 1)) - v (a + 1 + b * (m.Nx + 1))) / m.dz

/-- The velocities keep the volume of the cells in columns `k + a` with `a0 ≤ a ≤ 0`, rows `l + b` with
`b0 ≤ b ≤ 0`. -/
def KeepsVolume (m : JMesh ℝ) (k l a0 b0 : Int) (u v : Int → ℝ) : Prop :=
  ∀ a b, a0 ≤ a → a ≤ 0 → b0 ≤ b → b ≤ 0 → stretch m u (k + a) (l + b) + rise m v (k + a) (l + b) = 0

/-- Node `(k, l)` of the x-equations lies inside: every velocity node, cell and vertex up to two cells around it
is rock and none is on a side. -/
structure InnerX (m : JMesh ℝ) (k l : Int) : Prop where
  k0 : 0 < k
  k1 : k < m.Nx - 1
  l0 : 1 < l
  l1 : l < m.Nz - 1
  u : ∀ a b, -1 ≤ a → a ≤ 1 → -1 ≤ b → b ≤ 1 → m.tu (k + a + (l + b) * m.Nx) = -1
  v : ∀ a b, -1 ≤ a → a ≤ 2 → -2 ≤ b → b ≤ 1 → m.tv (k + a + (l + b) * (m.Nx + 1)) = -1
  p : ∀ a b, -1 ≤ a → a ≤ 0 → -2 ≤ b → b ≤ 0 → m.tp (k + a + (l + b) * (m.Nx - 1)) = -1
  g : ∀ a b, -1 ≤ a → a ≤ 1 → -1 ≤ b → b ≤ 0 → m.tg (k + a + (l + b) * m.Nx) ≠ 30

/-- Node `(k, l)` of the z-equations lies inside. -/
structure InnerZ (m : JMesh ℝ) (k l : Int) : Prop where
  k0 : 1 < k
  k1 : k < m.Nx - 1
  l0 : 0 < l
  l1 : l < m.Nz - 1
  u : ∀ a b, -2 ≤ a → a ≤ 1 → -1 ≤ b → b ≤ 2 → m.tu (k + a + (l + b) * m.Nx) = -1
  v : ∀ a b, -1 ≤ a → a ≤ 1 → -1 ≤ b → b ≤ 1 → m.tv (k + a + (l + b) * (m.Nx + 1)) = -1
  p : ∀ a b, -2 ≤ a → a ≤ 0 → -1 ≤ b → b ≤ 0 → m.tp (k + a + (l + b) * (m.Nx - 1)) = -1
  g : ∀ a b, -1 ≤ a → a ≤ 0 → -1 ≤ b → b ≤ 1 → m.tg (k + a + (l + b) * m.Nx) ≠ 30

end Verif.Spec.Newton
