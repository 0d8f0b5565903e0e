import Mathlib.Data.Real.Basic

/- The Maxwell body: an elastic and a viscous element in series, `dσ/dt = 2 G e - (G/η) σ`. -/
namespace Verif.Spec

/-- `new` is the stress after a time step `dt` at the strain rate `e`, by the implicit Euler rule. -/
def BackwardEuler (eta G dt e old new : ℝ) : Prop := (new - old) / dt = 2 * G * e - G / eta * new

/-- Half the sum of the squares of all components of a deviatoric stress, from its components in the plane; the third normal component is `-(xx + zz)`. -/
noncomputable def halfSquare (xx zz xz : ℝ) : ℝ := (xx ^ 2 + zz ^ 2 + (xx + zz) ^ 2) / 2 + xz ^ 2

/-- Elastic energy per volume stored by a deviatoric stress, `σ:σ/(4 G)`. -/
noncomputable def storedEnergy (G xx zz xz : ℝ) : ℝ := halfSquare xx zz xz / (2 * G)

/-- Heat per volume and time that a viscous element under this stress produces, `σ:σ/(2 η)`. -/
noncomputable def viscousHeat (eta xx zz xz : ℝ) : ℝ := halfSquare xx zz xz / eta

end Verif.Spec
