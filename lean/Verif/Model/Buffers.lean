import Verif.Model.Assembly
import Verif.Model.Stencil

/-
The five passes of BuildStokesOperatorDecoupled over the mesh and the sizes of the per-thread
buffers. /repo/MDLIB/StokesAssemblyDecoupled.c:1251-1266, 1341-1346, 1401-1552.
-/
namespace Verif
variable {K : Type*} [Field K]

/-- Entries reserved per thread: `(int)(nnz/n_th)`, StokesAssemblyDecoupled.c:1262-1264. -/
def threadCapacity (nnz nth : Nat) : Nat := nnz / nth

/-- Total sizes, StokesAssemblyDecoupled.c:1343-1345. -/
def nnzA (Nx Nz : Nat) : Nat := 9 * ((Nx - 1) * Nz + (Nz - 1) * Nx)
def nnzB (Nx Nz : Nat) : Nat := 5 * ((Nx - 1) * (Nz - 1))
def nnzC (Nx Nz : Nat) : Nat := nnzB Nx Nz

/-- The passes: Vx rows into A and B, Vz rows into A and B, continuity rows into C. -/
inductive Pass where
  | uA | uB | vA | vB | pC
deriving DecidableEq

/-- Number of nodes visited by a pass: 1398 `N = nx*nzvx`, 1458 `N = nxvz*nz`, 1516 `N = ncx*ncz`. -/
def Pass.nodes (Nx Nz : Nat) : Pass → Nat
  | .uA | .uB => Nx * (Nz + 1)
  | .vA | .vB => (Nx + 1) * Nz
  | .pC => (Nx - 1) * (Nz - 1)

/-- Buffer total of a pass (1401-1402, 1462-1463, 1520). -/
def Pass.nnz (Nx Nz : Nat) : Pass → Nat
  | .uA | .vA => nnzA Nx Nz
  | .uB | .vB => nnzB Nx Nz
  | .pC => nnzC Nx Nz

/-- Nodes that get a row: 1420, 1478, 1536. -/
def Pass.solved (m : SMesh K) : Pass → Nat → Bool
  | .uA, c | .uB, c => m.tu c == -1 || m.tu c == 2 || m.tu c == -2
  | .vA, c | .vB, c => m.tv c == -1 || m.tv c == 2
  | .pC, c => m.tp c == -1

variable [LinearOrder K]

/-- Coefficients appended for a node: 1430-1432 (inner nodes `l>0 && l<nzvx-1`), 1488-1490
(`k>0 && k<nxvz-1`), 1548; `AddCoeff3` drops prescribed neighbours. -/
def Pass.row (m : SMesh K) (eqn : SNode → Int) : Pass → Nat → List (Int × K)
  | .uA, c =>
    let k := colOf m.Nx c; let l := rowOf m.Nx c
    if 0 < l ∧ l < (m.Nz : Int) then (buildRow m eqn (xStencil m k l)).entries else []
  | .uB, c =>
    let k := colOf m.Nx c; let l := rowOf m.Nx c
    if 0 < l ∧ l < (m.Nz : Int) then (buildRow m eqn (xStencilP m k l)).entries else []
  | .vA, c =>
    let k := colOf (m.Nx + 1) c; let l := rowOf (m.Nx + 1) c
    if 0 < k ∧ k < (m.Nx : Int) then (buildRow m eqn (zStencil m k l)).entries else []
  | .vB, c =>
    let k := colOf (m.Nx + 1) c; let l := rowOf (m.Nx + 1) c
    if 0 < k ∧ k < (m.Nx : Int) then (buildRow m eqn (zStencilP m k l)).entries else []
  | .pC, c =>
    (buildRow m eqn (cStencil m (colOf (m.Nx - 1) c) (rowOf (m.Nx - 1) c))).entries

/-- Buffers of thread `i` after a pass. `num` is the equation-number array of the pass. -/
def passBuf (m : SMesh K) (eqn : SNode → Int) (p : Pass) (nth : Nat) (ddJunk : Nat → Int)
    (num : Nat → Nat) (junk : Nat → ThBuf K) (i : Nat) : ThBuf K :=
  threadBuf (p.nodes m.Nx m.Nz) nth ddJunk (p.solved m) num (p.row m eqn) junk i

end Verif
