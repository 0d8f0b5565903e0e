import Verif.Model.Basic
import Mathlib.Algebra.Ring.Basic

/-
Equation numbering of the Stokes system and the routines that use it to move values between the
nodal fields and the solution vector.  /repo/MDLIB/StokesRoutines.c, /repo/MDLIB/SparseTools.c.

Boundary tags are C `char`s (mdoodz-private.h:42-51); they are modelled by `Int`.
Array `malloc`ed by the routine: contents before the loop are the parameter `junk`.
-/
namespace Verif

/-- Boundary-condition tags of the three node families (mesh->BCu.type, BCv.type, BCp.type,
mdoodz-private.h:42-51). -/
structure Tags where
  u : Nat → Int
  v : Nat → Int
  p : Nat → Int

/-- Test of StokesRoutines.c:1139 (`-1`, `2` or `-2`). -/
def numberedU (t : Int) : Bool := t == -1 || t == 2 || t == -2
/-- Test of StokesRoutines.c:1155 (`-1` or `2`). -/
def numberedV (t : Int) : Bool := t == -1 || t == 2
/-- Test of StokesRoutines.c:1169 (`-1`). -/
def numberedP (t : Int) : Bool := t == -1

/-- State of the numbering loops: an equation-number array and the counter `inc`
(StokesRoutines.c:1126). -/
structure NumSt where
  eqn : Nat → Int
  inc : Nat

/-- Body of the U loop, StokesRoutines.c:1137-1146. -/
def numUBody (Nx : Nat) (tag : Nat → Int) (s : NumSt) (kk : Nat) : NumSt :=
  let s1 : NumSt := { s with eqn := upd s.eqn kk (-1) }
  let s2 : NumSt :=
    if numberedU (tag kk) then { eqn := upd s1.eqn kk s1.inc, inc := s1.inc + 1 } else s1
  if tag kk == -12 then { s2 with eqn := upd s2.eqn kk (s2.eqn (kk + 1 - Nx)) } else s2

/-- Body of the V and P loops, StokesRoutines.c:1153-1158 and 1167-1173 (`test` is the tag
test of the respective loop). -/
def numBody (test : Int → Bool) (tag : Nat → Int) (s : NumSt) (kk : Nat) : NumSt :=
  let s1 : NumSt := { s with eqn := upd s.eqn kk (-1) }
  if test (tag kk) then { eqn := upd s1.eqn kk s1.inc, inc := s1.inc + 1 } else s1

/-- Result of the numbering: the three equation-number arrays and the equation counts
(SparseMat.eqn_u, eqn_v, eqn_p, neq_mom, neq_cont, neq). -/
structure Numbering where
  eqnU : Nat → Int
  eqnV : Nat → Int
  eqnP : Nat → Int
  neqMom : Nat
  neqCont : Nat
  neq : Nat

/-- `EvalNumberOfEquations`, StokesRoutines.c:1125-1178.  `incP` is counted together with `inc`
in the P loop, so it is the difference of the counter after and before that loop
(simplification). `junk` = contents of the freshly allocated arrays. -/
def evalNumberOfEquations (Nx Nz : Nat) (t : Tags) (junk : Nat → Int) : Numbering :=
  let su := forGrid Nx (Nz + 1) { eqn := junk, inc := 0 } (numUBody Nx t.u)
  let sv := forGrid (Nx + 1) Nz { eqn := junk, inc := su.inc } (numBody numberedV t.v)
  let sp := forGrid (Nx - 1) (Nz - 1) { eqn := junk, inc := sv.inc } (numBody numberedP t.p)
  { eqnU := su.eqn, eqnV := sv.eqn, eqnP := sp.eqn,
    neqMom := sv.inc, neqCont := sp.inc - sv.inc, neq := sp.inc }

/-- Velocity and pressure fields (mesh->u_in, v_in, p_in). -/
structure Fields (K : Type*) where
  u : Nat → K
  v : Nat → K
  p : Nat → K

/-- Read of a C array through an `int` index.  An index `-1` (or any negative one) is outside the
array: the value read is the arbitrary parameter `oob`. -/
def readI {K : Type*} (oob : K) (a : Nat → K) (i : Int) : K := if 0 ≤ i then a i.toNat else oob

/-- Tag filter of ExtractSolutions2 for velocities, StokesRoutines.c:546 and 562. -/
def extractVel (t : Int) : Bool := t != 30 && t != 0 && t != 11 && t != 13 && t != -12
/-- Tag filter of ExtractSolutions2 for pressure, StokesRoutines.c:569. -/
def extractP (t : Int) : Bool := t != 30 && t != 0 && t != 31

variable {K : Type*}

/-- One increment loop of ExtractSolutions2 (StokesRoutines.c:545-549, 561-565, 568-572):
`f[cc] += alpha*dx[eqn[cc]]` on the nodes passing the filter. -/
def addIncrement [Add K] [Mul K] (n : Nat) (filter : Int → Bool) (tag : Nat → Int)
    (eqn : Nat → Int) (oob : K) (dx : Nat → K) (alpha : K) (f : Nat → K) : Nat → K :=
  forUp n f fun f cc =>
    upd f cc (if filter (tag cc) then f cc + alpha * readI oob dx (eqn cc) else f cc)

/-- Periodic copy of ExtractSolutions2, StokesRoutines.c:552-557. -/
def periodicCopy (Nx nrow : Nat) (tag : Nat → Int) (u : Nat → K) : Nat → K :=
  forUp nrow u fun u cc =>
    let kk := cc * Nx + Nx - 1
    if tag kk == -12 then upd u kk (u (kk + 1 - Nx)) else u

/-- `ExtractSolutions2` before its final call of `ApplyBC`, StokesRoutines.c:534-572
(`ApplyBC` is modelled in Model/ApplyBC.lean). -/
def extractSolutionsCore [Add K] [Mul K] (Nx Nz : Nat) (t : Tags) (n : Numbering)
    (oob : K) (dx : Nat → K) (alpha : K) (f : Fields K) : Fields K :=
  { u := periodicCopy Nx (Nz + 1) t.u
          (addIncrement ((Nz + 1) * Nx) extractVel t.u n.eqnU oob dx alpha f.u)
    v := addIncrement (Nz * (Nx + 1)) extractVel t.v n.eqnV oob dx alpha f.v
    p := addIncrement ((Nz - 1) * (Nx - 1)) extractP t.p n.eqnP oob dx alpha f.p }

/-- Store through an `int` index; a negative index is outside the array and is dropped here
(the theorems show that it does not happen). -/
def storeI (a : Nat → K) (i : Int) (x : K) : Nat → K := if 0 ≤ i then upd a i.toNat x else a

/-- `InitialiseSolutionVector`, StokesRoutines.c:1185-1217: gather the fields into `x`. -/
def initialiseSolutionVector (Nx Nz : Nat) (t : Tags) (n : Numbering) (f : Fields K)
    (x : Nat → K) : Nat → K :=
  let x1 := forGrid Nx (Nz + 1) x fun x kk =>
    if numberedU (t.u kk) then storeI x (n.eqnU kk) (f.u kk) else x
  let x2 := forGrid (Nx + 1) Nz x1 fun x kk =>
    if numberedV (t.v kk) then storeI x (n.eqnV kk) (f.v kk) else x
  forGrid (Nx - 1) (Nz - 1) x2 fun x kk =>
    if numberedP (t.p kk) then storeI x (n.eqnP kk) (f.p kk) else x

end Verif

namespace Verif
variable {K : Type*}

/-- Loop state of `BackToSolutionVector`: target vector and the two counters
(SparseTools.c:195). -/
structure BackSt (K : Type*) where
  x : Nat → K
  inc : Nat
  incTot : Nat

/-- Body of the three loops of `BackToSolutionVector`, SparseTools.c:200-205, 213-218, 226-231. -/
def backBody (pass : Int → Bool) (tag : Nat → Int) (src : Nat → K) (s : BackSt K) (kk : Nat) :
    BackSt K :=
  if pass (tag kk) then
    { x := upd s.x s.incTot (src s.inc), inc := s.inc + 1, incTot := s.incTot + 1 }
  else s

/-- `BackToSolutionVector`, SparseTools.c:193-234: merges the velocity solution `us` and the
pressure solution `ps` of the decoupled solver into one vector. -/
def backToSolutionVector (Nx Nz : Nat) (t : Tags) (us ps : Nat → K) (x : Nat → K) : Nat → K :=
  let s1 := forGrid Nx (Nz + 1) { x := x, inc := 0, incTot := 0 } (backBody extractVel t.u us)
  let s2 := forGrid (Nx + 1) Nz s1 (backBody extractVel t.v us)
  let s3 := forGrid (Nx - 1) (Nz - 1) { s2 with inc := 0 } (backBody numberedP t.p ps)
  s3.x

end Verif
