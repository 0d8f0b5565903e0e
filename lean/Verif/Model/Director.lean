import Verif.Model.Anisotropy
import Mathlib.Analysis.SpecialFunctions.Trigonometric.Arctan

/-! Directors of markers at the start of a run and of markers that enter later. -/
namespace Verif.Aniso

/-- `InitialiseDirectorVector` for one marker in use (AnisotropyRoutines.c:829-844): `own` is `marker_aniso_angle`, `mine` the angle of the marker, `rock` that of its phase, `x`, `z` its place.  Where `z` is zero the
code gets the arc tangent of infinity; a real quotient cannot express this, and the theorems leave it out. -/
noncomputable def startDirector (own polar : Bool) (mine rock x z : ℝ) : ℝ × ℝ :=
  let angle := if own then mine else rock
  let angle := if polar then angle - Real.arctan (x / z) else angle
  initDirector angle

/-- Director of a marker that enters through a side (`AssignMarkerPropertiesInflow`, ParticleRoutines.c:816-833): `call` is the function `SetAnisoAngle` of the set-up (place, phase, proposed angle), `near` the director of the nearest
marker. -/
noncomputable def enteringDirector (own : Bool) (call : Option (ℝ → ℝ → Int → ℝ → ℝ)) (x z : ℝ) (phase : Int) (near : ℝ × ℝ) : ℝ × ℝ :=
  match call with
  | some f => if own then (Real.cos (f x z phase (markerAngle near.1)), Real.sin (f x z phase (markerAngle near.1))) else near
  | none => near

end Verif.Aniso
