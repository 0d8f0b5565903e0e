import Verif.Spec.Maxwell

/- Yielding of a Maxwell body at a constant strength, with linear overstress. -/
namespace Verif.Spec

/-- `new` is the stress at the strength `Y` with the overstress viscosity `vp`, where an element of viscosity `ve` alone would be under the stress `trial`: up to the
threshold `1e-17` there is no yielding; beyond it the body flows plastically at a rate `g` that brings the stress down to the strength plus the overstress. -/
def Yield (Y vp ve trial new : ℝ) : Prop :=
  (trial ≤ Y + 1 / 10 ^ 17 ∧ new = trial) ∨ (Y + 1 / 10 ^ 17 < trial ∧ ∃ g, 0 < g ∧ new = Y + vp * g ∧ trial - new = ve * g)

end Verif.Spec
