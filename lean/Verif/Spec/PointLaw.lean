import Verif.Model.PointLaw

/-! Tensors in the plane, and parameters with physical meaning: vocabulary of the statements about one node. -/
namespace Verif.Spec
open Verif.Point

/-- Components of the same tensor in axes turned by the angle `a`. -/
noncomputable def turn (a : ℝ) (t : Tensor) : Tensor where
  xx := Real.cos a ^ 2 * t.xx + 2 * Real.cos a * Real.sin a * t.xz + Real.sin a ^ 2 * t.zz
  zz := Real.sin a ^ 2 * t.xx - 2 * Real.cos a * Real.sin a * t.xz + Real.cos a ^ 2 * t.zz
  xz := Real.cos a * Real.sin a * (t.zz - t.xx) + (Real.cos a ^ 2 - Real.sin a ^ 2) * t.xz

/-- Rate of work per volume of a deviatoric stress on a deviatoric strain rate, with the component across the
plane. -/
def power (t e : Tensor) : ℝ := t.xx * e.xx + t.zz * e.zz + (t.xx + t.zz) * (e.xx + e.zz) + 2 * (t.xz * e.xz)

/-- Strain rate of an elastic material of viscosity `k = G dt` whose stress goes from `old` to `new`. -/
noncomputable def elasticRate (k : ℝ) (new old : Tensor) : Tensor :=
  ⟨(new.xx - old.xx) / (2 * k), (new.zz - old.zz) / (2 * k), (new.xz - old.xz) / (2 * k)⟩

/-- Sum and difference of tensors. -/
def plus (a b : Tensor) : Tensor := ⟨a.xx + b.xx, a.zz + b.zz, a.xz + b.xz⟩
/-- See `plus`. -/
def minus (a b : Tensor) : Tensor := ⟨a.xx - b.xx, a.zz - b.zz, a.xz - b.xz⟩

/-- A power law with meaningful constants. -/
structure GoodLaw (l : Flow.Law) : Prop where
  n : 1 ≤ l.n
  A : 0 < l.A
  F : 0 < l.F
  f : 0 < l.f ∨ l.r = 0

/-- A Peierls law with meaningful constants: its exponent, which falls with temperature, is at least one at the highest temperature of use. -/
structure GoodPeierls (R hot : ℝ) (l : Flow.Peierls) : Prop where
  n : 1 ≤ l.Q / R / hot * 2 * l.G * (1 - l.G) + l.n
  Q : 0 ≤ l.Q
  G : 0 < l.G ∧ l.G ≤ 1
  S : 0 < l.S
  E : 0 < l.E

/-- Settings, material and state with meaningful values; no grain boundary sliding. -/
structure Sound (v : Env) (m : Mat) (i : In) : Prop where
  dt : 0 < v.dt
  R : 0 < v.R
  sE : 0 < v.sE
  sT : 0 < v.sT
  sS : 0 < v.sS
  sEta : 0 < v.sEta
  G : 0 < i.G
  d : 0 < i.d
  eta0 : 0 < m.eta0
  pre : 0 < m.pre
  pwl : m.pwl = true → GoodLaw m.pwlLaw
  lin : m.lin = true → GoodLaw m.linLaw
  exp : m.exp = true → GoodPeierls v.R ((1200 + 27315 / 100) / v.sT) m.expLaw
  gbs : m.gbs = false
  mix : ∀ e ∈ m.mixWith, 0 < e
  X : 0 ≤ i.X0 ∧ i.X0 ≤ 1
  some : v.el = true ∨ m.cst = true ∨ m.pwl = true ∨ m.lin = true

/-- The plastic part is linear in the rate and does not dilate, and its strength is not negative. -/
structure SimplePlastic (v : Env) (m : Mat) (i : In) : Prop where
  nVp : m.nVp = 1
  etaVp : 0 ≤ m.etaVp
  slim : 0 ≤ m.slim
  dil : v.el = true → Real.sin i.dil = 0
  positive : 0 ≤ i.C * Real.cos i.fric + i.P * Real.sin i.fric
  tol : 0 < v.tol

/-- Exponents of at most a thousand; that of the Peierls law depends on temperature, which is not taken below zero Celsius. -/
structure Moderate (v : Env) (m : Mat) (i : In) : Prop where
  pwl : m.pwl = true → m.pwlLaw.n ≤ 1000
  lin : m.lin = true → m.linLaw.n ≤ 1000
  exp : m.exp = true →
    m.expLaw.Q / v.R / max i.T (27315 / 100 / v.sT) * 2 * m.expLaw.G * (1 - m.expLaw.G) + m.expLaw.n ≤ 1000

/-- Strength at the pressure of the node: Drucker-Prager, cut off at `slim`. -/
noncomputable def yieldStrength (m : Mat) (i : In) : ℝ :=
  min m.slim (i.C * Real.cos i.fric + i.P * Real.sin i.fric)

end Verif.Spec
