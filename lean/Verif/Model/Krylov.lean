import Verif.Model.Basic
import Mathlib.Analysis.Real.Sqrt
import Mathlib.Data.Matrix.Mul

/-
Model of the Krylov solver `kspgcr` (/repo/MDLIB/Solvers.c:122-226), the generalised conjugate
residual iteration used for the velocity corrections of the default Stokes solver (`lin_solver = 2`).

Simplifications: real arithmetic; the sparse products `cholmod_sdmult` and the dot products are the
mathematical ones (their storage is the subject of the sparse-tools model, their parallel sums of the
reduction model); the Cholesky substitution `cholmod_solve2` is an arbitrary function `prec` of the
right-hand side.  The only divisions of the routine are the two by `nrm` (lines 183, 185): when `nrm`
is zero the C code stores not-a-number in every unknown and never recovers (all later comparisons are
false); the model then returns `none`.
-/
namespace Verif.Ksp

/-- Unknown vectors, `cholmod_dense` with one column (Solvers.c:133-138). -/
abbrev Vec (n : Nat) := Fin n → ℝ

open Matrix

/-- `cholmod_norm_dense(f, 2, c)`: Euclidean norm (Solvers.c:150, 195). -/
noncomputable def norm2 {n : Nat} (v : Vec n) : ℝ := Real.sqrt (v ⬝ᵥ v)

/-- `restart` (Solvers.c:125). -/
def restart : Nat := 6

/-- State of the iteration: solution `x`, residual `f`, stored directions `VV`, `SS`, the coefficients
`val` and the iteration counter (Solvers.c:125-146). -/
structure St (n : Nat) where
  x : Vec n
  f : Vec n
  VV : Nat → Vec n
  SS : Nat → Vec n
  val : Nat → ℝ
  its : Nat

variable {n : Nat}

/-- Coefficients `val[i2] = v . VV[i2]`, `i2 < i1` (Solvers.c:172-174). -/
def coeffs (v : Vec n) (VV : Nat → Vec n) (val : Nat → ℝ) (i1 : Nat) : Nat → ℝ :=
  forUp i1 val fun val i2 => upd val i2 (v ⬝ᵥ VV i2)

/-- Orthogonalisation: the loop runs to `i1` included, one further than the coefficients just computed
(Solvers.c:175-179). -/
def orthogonalise (val : Nat → ℝ) (VV SS : Nat → Vec n) (i1 : Nat) (vs : Vec n × Vec n) :
    Vec n × Vec n :=
  forUp (i1 + 1) vs fun vs i2 => (vs.1 + (-val i2) • VV i2, vs.2 + (-val i2) • SS i2)

/-- Lines 163-188 of Solvers.c: preconditioned residual, its image, coefficients, orthogonalised and
normalised pair `(v, s)`.  `none`: the norm is zero and the pair is not a number. -/
noncomputable def direction (M : Matrix (Fin n) (Fin n) ℝ) (prec : Vec n → Vec n) (i1 : Nat)
    (st : St n) : Option ((Nat → ℝ) × Vec n × Vec n) :=
  let s0 := prec st.f
  let v0 := M *ᵥ s0
  let val := coeffs v0 st.VV st.val i1
  let vs := orthogonalise val st.VV st.SS i1 (v0, s0)
  let nrm := Real.sqrt (vs.1 ⬝ᵥ vs.1)
  if nrm = 0 then none else some (val, (1 / nrm) • vs.1, (1 / nrm) • vs.2)

/-- Solution and residual after the step along the direction (Solvers.c:181-183, 189-192).  The code
computes `r_dot_v` as `f . v / nrm` with the unnormalised `v`, which is `f . v` for the normalised
one. -/
def advance (st : St n) (val : Nat → ℝ) (v s : Vec n) : St n :=
  { st with
    val := val
    x := st.x + (st.f ⬝ᵥ v) • s
    f := st.f + (-(st.f ⬝ᵥ v)) • v }

/-- Storing the direction and counting the iteration (Solvers.c:203-206). -/
def remember (st : St n) (i1 : Nat) (v s : Vec n) : St n :=
  { st with VV := upd st.VV i1 v, SS := upd st.SS i1 s, its := st.its + 1 }

/-- The loop over `i1` (Solvers.c:157-207): `left` iterations remain, `thr = eps * rnorm0`.  The flag of
the result is `success`. -/
noncomputable def cycle (M : Matrix (Fin n) (Fin n) ℝ) (prec : Vec n → Vec n) (thr : ℝ) :
    Nat → Nat → St n → Option (Bool × St n)
  | 0, _, st => some (false, st)
  | left + 1, i1, st =>
    match direction M prec i1 st with
    | none => none
    | some (val, v, s) =>
      let st' := advance st val v s
      if norm2 st'.f < thr then some (true, st')
      else cycle M prec thr left (i1 + 1) (remember st' i1 v s)

/-- The loop `while (success == 0 && its < max_it)` (Solvers.c:155-210); every pass adds at least one to
`its` (line 208), so `fuel = max_it` passes are enough (`loop_fuel`). -/
noncomputable def loop (M : Matrix (Fin n) (Fin n) ℝ) (prec : Vec n → Vec n) (thr : ℝ) (maxIt : Nat) :
    Nat → St n → Option (Bool × St n)
  | 0, st => some (false, st)
  | fuel + 1, st =>
    if st.its < maxIt then
      match cycle M prec thr restart 0 st with
      | none => none
      | some (ok, st') =>
        if ok then some (true, { st' with its := st'.its + 1 })
        else loop M prec thr maxIt fuel { st' with its := st'.its + 1 }
    else some (false, st)

/-- Initial state: zero directions and coefficients (`cholmod_zeros`, `DoodzCalloc`), `f = b - M x`
(Solvers.c:133-149). -/
def start (M : Matrix (Fin n) (Fin n) ℝ) (b x : Vec n) : St n where
  x := x
  f := b + (-1 : ℝ) • (M *ᵥ x)
  VV := fun _ => 0
  SS := fun _ => 0
  val := fun _ => 0
  its := 0

/-- `kspgcr` (Solvers.c:122-226).  The C routine returns the solution and the number of iterations only;
`success` is not reported to the caller, here it is kept to state what the caller cannot see. -/
noncomputable def kspgcr (M : Matrix (Fin n) (Fin n) ℝ) (prec : Vec n → Vec n) (b x : Vec n) (eps : ℝ)
    (maxIt : Nat) : Option (Bool × St n) :=
  loop M prec (eps * norm2 (start M b x).f) maxIt maxIt (start M b x)

end Verif.Ksp
