import Verif.Model.AnisoLaw
import Verif.Spec.PointLaw
import Verif.Spec.ViscGrid

/-! Vocabulary of the statements about anisotropic materials. -/
namespace Verif.Spec
open Verif.Point

/-- Components of a tensor in the axes of layers whose normal has the angle `angle` with the horizontal. -/
noncomputable def inLayers (angle : ℝ) (t : Tensor) : Tensor := turn (angle - Real.pi / 2) t

/-- A layered material: in the axes of the layers stress is twice the viscosity times the strain rate, but `ani` times weaker
for shear along the layers. -/
def Layered (angle eta ani : ℝ) (t e : Tensor) : Prop :=
  (inLayers angle t).xx = 2 * eta * (inLayers angle e).xx ∧ (inLayers angle t).zz = 2 * eta * (inLayers angle e).zz
  ∧ ani * (inLayers angle t).xz = 2 * eta * (inLayers angle e).xz

/-- Plasticity with meaningful parameters, and a compressibility that is not zero. -/
structure GoodPlastic (v : Env) (m : Mat) (i : In) : Prop where
  etaVp : 0 ≤ m.etaVp
  beta : 0 < i.beta
  angles : 0 ≤ Real.sin i.fric ∧ (v.el = true → 0 ≤ Real.sin i.dil)
  positive : 0 < yieldStrength m i

end Verif.Spec
