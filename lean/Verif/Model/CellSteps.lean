import Verif.Model.Density
import Verif.Model.History
import Verif.Model.SurfaceFlow
import Verif.Model.Powell

/-
Small steps of a time step that act cell by cell or marker by marker:
/repo/MDLIB/MeltingRoutines.c   MassSourceTerm 225-253,
/repo/MDLIB/RheologyParticles.c InitialiseGrainSizeParticles 44-51, UpdateParticleDensity 770-805,
                                UpdateParticleGrainSize 1143-1181, UpdateParticleDivThermal 1665-1688,
/repo/MDLIB/StokesRoutines.c    DetectCompressibleCells 514-528, right-hand side of the continuity equation 1094-1117,
/repo/MDLIB/ThermalRoutines.c   ThermalSteps 500-511, SetThermalPert 517-542,
/repo/MDLIB/ThermalSolver.c     TransposeA 186-213, FactorEnergyCHOLMOD 216-281, SolveEnergyCHOLMOD 287-316,
and the order in which Main_DOODZ.c calls them.
-/
namespace Verif.CStep
open Verif

/-! ### thermal expansion -/

/-- `divth_n[c0]` (MeltingRoutines.c:234-251).  `flag0` is `BCp.type[0]`, the flag of the first cell, which is the one tested
in every cell (line 242). -/
noncomputable def divth (nph : Nat) (flag0 : Int) (frac alp rho : Nat → ℝ) (rhoN T T0 dt : ℝ) : ℝ :=
  forUp nph 0 fun s p =>
    if 1 / 10 ^ 13 < |frac p| then
      if flag0 ≠ 30 ∧ flag0 ≠ 31 then s + frac p * (alp p * rho p / rhoN * (T - T0) / dt) else s
    else s

/-- `MassSourceTerm` over the cells (MeltingRoutines.c:225-253): fractions of phase `p` in cell `c` are `frac p c`. -/
noncomputable def massSource (nph : Nat) (flag : Nat → Int) (frac : Nat → Nat → ℝ) (alp rho : Nat → ℝ) (rhoN T T0 : Nat → ℝ)
    (dt : ℝ) (c : Nat) : ℝ :=
  divth nph (flag 0) (fun p => frac p c) alp rho (rhoN c) (T c) (T0 c) dt

/-- Right-hand side of the continuity equation (StokesRoutines.c:1098-1116); air cells keep what they had (`old`). -/
noncomputable def rhsP (compressible : Int) (flag comp : Nat → Int) (divth0 old : Nat → ℝ) (c : Nat) : ℝ :=
  if flag c ≠ 30 ∧ flag c ≠ 31 then
    if compressible = 1 then if comp c = 1 then divth0 c else 0 else 0
  else old c

/-! ### compressible cells -/

/-- `DetectCompressibleCells` (StokesRoutines.c:514-528): the array is only ever set to one. -/
noncomputable def detect (ncell : Nat) (flag : Nat → Int) (bet : Nat → ℝ) (comp : Nat → Int) : Nat → Int :=
  forUp ncell comp fun comp c => if flag c ≠ 30 then (if 1 / 10 ^ 13 < bet c then upd comp c 1 else comp) else comp

/-- The flags after a series of time steps (Main_DOODZ.c:544), each with its cell flags and compressibilities; the array starts
at zero (MemoryAllocFree.c:567). -/
noncomputable def detectAll (ncell : Nat) (steps : List ((Nat → Int) × (Nat → ℝ))) : Nat → Int :=
  steps.foldl (fun comp s => detect ncell s.1 s.2 comp) fun _ => 0

/-! ### density carried by the markers -/

section
variable {K : Type*} [Field K] [LinearOrder K]

/-- `UpdateParticleDensity` and `UpdateParticleDivThermal` for marker `k` (RheologyParticles.c:770-805, 1665-1688): the
increment of the cells, zero where the pressure flag is 30 or 31, interpolated with the temperature flags. -/
def updateCarried [FloorRing K] (s : Hist.Setting K) (flagP flagT : Int → Int) (new old : Int → K) (rho : Nat → K) (k : Nat) :
    K :=
  Hist.updatePlain s flagP flagT [30, 31] new old rho k

/-- Density of the markers of cell `(i, j)` after the initialisation (Main_DOODZ.c:303-305): interpolated from the corrected
density of the cell.  Simplified: markers at the centre of their cell, so that interpolation returns the value of the cell. -/
def rhoStart (s : SFlow.Cut K) (rhoAir rho : K) (i j : Nat) : K := s.rhoN rhoAir rho i j

/-- Density of the markers of cell `(i, j)` after a time step (Main_DOODZ.c:547-553, 991-992): `r` before the step, `rho` the
density of the material at the end of the step.  The old density of the cell is the average of its markers, corrected for the
surface (553); the new one is evaluated again without the correction (991).  Simplified: the markers of the cell sit at its
centre and carry the same value, so averaging and interpolation return it. -/
def rhoStep (s : SFlow.Cut K) (rho r : K) (i j : Nat) : K := r + (rho - s.rho0N r i j)

/-- Marker density after `n` time steps with an unchanged material density and a surface that does not move. -/
def rhoAfter (s : SFlow.Cut K) (rhoAir rho : K) (i j : Nat) : Nat → K
  | 0 => rhoStart s rhoAir rho i j
  | n + 1 => rhoStep s rho (rhoAfter s rhoAir rho i j n) i j

end

/-- Density change in the continuity residual of time step `n + 1` (StokesAssemblyDecoupled.c:1135, `density_variations = 1`):
`log(rho_n) - log(rho0_n)`, both corrected (Main_DOODZ.c:547-553). -/
noncomputable def rhoChange (s : SFlow.Cut ℝ) (rhoAir rho : ℝ) (i j n : Nat) : ℝ :=
  Real.log (s.rhoN rhoAir rho i j) - Real.log (s.rho0N (rhoAfter s rhoAir rho i j n) i j)

/-! ### grain size carried by the markers -/

/-- `InitialiseGrainSizeParticles` (RheologyParticles.c:44-51). -/
def grainStart {K : Type*} (phase : Nat → Int) (gsRef : Int → K) (d : Nat → K) (k : Nat) : K :=
  if phase k ≠ -1 then gsRef (phase k) else d k

/-- `UpdateParticleGrainSize` (RheologyParticles.c:1143-1181): the marker value is replaced (`Interp_Grid2P_centroids2` writes
zero for an inactive marker). -/
def grainStep {K : Type*} [Field K] [LinearOrder K] [FloorRing K] (s : Hist.Setting K) (flagT : Int → Int) (d : Int → K)
    (k : Nat) : K :=
  s.toMarker d flagT k

/-! ### thermal start -/

/-- Step and number of steps of `ThermalSteps` (ThermalRoutines.c:502-503). -/
def coolingSteps {K : Type*} [Field K] [LinearOrder K] [FloorRing K] (total : K) : K × Int :=
  let dt := total / 10
  (dt, ⌊total / dt⌋)

/-- Parameters of the thermal perturbation (ThermalRoutines.c:521-522). -/
structure Pert (K : Type*) where
  dT : K
  x0 : K
  z0 : K
  radX : K
  radZ : K

/-- `SetThermalPert` (ThermalRoutines.c:532-541). -/
def thermalPert {K : Type*} [Field K] [LinearOrder K] (q : Pert K) (ncx ncz : Nat) (xc zc : Nat → K) (T : Nat → K) : Nat → K :=
  forUp ncz T fun T l => forUp ncx T fun T k =>
    if ((xc k - q.x0) / q.radX) ^ 2 + ((zc l - q.z0) / q.radZ) ^ 2 < 1 then upd T (k + l * ncx) (T (k + l * ncx) + q.dT) else T

/-! ### solution of the heat equation -/

section
open Matrix
variable {n : Nat}

/-- The matrix whose Cholesky factors `FactorEnergyCHOLMOD` computes (ThermalSolver.c:242-255): `A A'` in polar mode, else `A`,
of which only the lower triangle is read. -/
def factored (polar : Int) (A : Matrix (Fin n) (Fin n) ℝ) : Matrix (Fin n) (Fin n) ℝ :=
  PH.lowerSym (if polar = 1 then A * Aᵀ else A)

/-- `SolveEnergyCHOLMOD` (ThermalSolver.c:287-316): `subst` are the substitutions with the factors; in polar mode the result is
multiplied by the transpose (`y` starts at zero). -/
def solveEnergy (polar : Int) (A : Matrix (Fin n) (Fin n) ℝ) (subst : (Fin n → ℝ) → Fin n → ℝ) (b : Fin n → ℝ) : Fin n → ℝ :=
  let x := subst b
  if polar = 1 then Aᵀ *ᵥ x + 0 else x

end

end Verif.CStep
