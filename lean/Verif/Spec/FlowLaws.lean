import Verif.Prelude
import Mathlib.Analysis.SpecialFunctions.Pow.Real

/-! Vocabulary of the flow-law statements, independent of the model: laboratory experiments. -/
namespace Verif.Spec

/-- A symmetric tensor with one shear component, as `(xx, yy, zz, xz)`. -/
structure Tensor where
  xx : ℝ
  yy : ℝ
  zz : ℝ
  xz : ℝ

/-- Second invariant: square root of half the sum of the squares of the nine components. -/
noncomputable def Tensor.invariant (t : Tensor) : ℝ :=
  Real.sqrt (1 / 2 * (t.xx ^ 2 + t.yy ^ 2 + t.zz ^ 2 + 2 * t.xz ^ 2))

/-- `c` times the tensor. -/
def Tensor.times (c : ℝ) (t : Tensor) : Tensor := ⟨c * t.xx, c * t.yy, c * t.zz, c * t.xz⟩

/-- Axial compression along `z`, volume conserving, shortening rate `e`. -/
noncomputable def axialRate (e : ℝ) : Tensor := ⟨e / 2, e / 2, -e, 0⟩

/-- Stress deviator of a compression along `z` with differential stress `s`. -/
noncomputable def axialStress (s : ℝ) : Tensor := ⟨s / 3, s / 3, -(2 * s / 3), 0⟩

/-- Simple shear with shear-strain rate `g`. -/
noncomputable def shearRate (g : ℝ) : Tensor := ⟨0, 0, 0, g / 2⟩

/-- Stress deviator of a shear experiment with differential stress (difference of the principal stresses)
`s`: the shear stress is half of it. -/
noncomputable def shearStress (s : ℝ) : Tensor := ⟨0, 0, 0, s / 2⟩

/-- A published flow law: rate as a function of the differential stress `s`, with pre-exponential factor
`A`, exponent `n`, grain size `d` and exponent `m`, fugacity `f` and exponent `r`, melt fraction `phi` and
factor `a`, activation energy `Q` and volume `V`, temperature `T`, pressure `P`, gas constant `R`. -/
noncomputable def labRate (A n d m f r a phi Q V R T P s : ℝ) : ℝ :=
  A * s ^ n * d ^ (-m) * f ^ r * Real.exp (a * phi) * Real.exp (-(Q + P * V) / (R * T))

/-- A regularised low-temperature plasticity law: rate at differential stress `s`, with `E`, exponent `n`,
Peierls stress `S`, fit parameter `G`. -/
noncomputable def peierlsRate (E n S G Q R T s : ℝ) : ℝ :=
  E * s ^ n * Real.exp (-Q / (R * T) * (1 - G) ^ 2) * (s / (G * S)) ^ (2 * G * (1 - G) * Q / (R * T))

end Verif.Spec
