import Verif.Model.StepUpdate
import Verif.Model.History
import Verif.Model.Thermal

/-
The temperature between two time steps: markers to the grid at the beginning of a step (/repo/MDLIB/Main_DOODZ.c:488 and 492), heat sources of the step and thermal
solve (/repo/MDLIB/Main_DOODZ.c:945, ThermalRoutines.c:141-169), grid to the markers at its end (/repo/MDLIB/Main_DOODZ.c:951).  Cartesian coordinates, real arithmetic.
-/
namespace Verif.StepFlow
open Verif Verif.Hist

/-- Temperature of the cells at the beginning of a step (Main_DOODZ.c:488, copied to `mesh.T` in 492); `b` is what was in the array before. -/
noncomputable def tempToGrid (s : Hist.Setting ℝ) (flagP : Nat → Int) (T b : Nat → ℝ) : Nat → ℝ := P2M.field s.fam Real.log Real.exp 0 s.ms T s.ls flagP b

/-- Sources of the thermal solve (ThermalRoutines.c:155-167): `Qr` radiogenic heat of the cells, dissipation as recorded by the mechanical part (`mesh->Wdiss`,
RheologyDensity.c:934), no adiabatic heating. -/
def heatSources (Qr : Nat → ℝ) (shear : Int) (o : Mech) : Heat.Src ℝ where
  Qr := Qr
  Wdiss c := (o.cells c).wDiss
  shear := shear
  adiab := 0
  ha1 _ _ := 0
  ha2 _ _ := 0

/-- `UpdateParticleEnergy` (RheologyParticles.c:1187-1270) for the temperatures `old` before and `new` after the solve. -/
noncomputable def tempToMarkers (s : Hist.Setting ℝ) (sd : Int) (flagT flagP : Nat → Int) (new old damp T : Nat → ℝ) : Nat → ℝ :=
  updateTemperature sd s Real.log Real.exp (fun c => flagT c.toNat) flagP (fun c => new c.toNat) (fun c => old c.toNat) damp T

end Verif.StepFlow
