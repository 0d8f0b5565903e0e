import Verif.Model.GrainIter

/-! Grain size in balance with the flow. -/
namespace Verif.Spec
open Verif.Point

/-- Grains grow at the rate `Ag/p d^(1-p)` and are reduced by the share `lam` of the work of dislocation creep, `lam/(c gam) tau e d^2`; the two
are equal. -/
def Wattmeter (g : Gse) (tau e d : ℝ) : Prop :=
  g.Ag / g.p * d ^ (1 - g.p) = g.lam / (g.c * g.gam) * (tau * e) * d ^ (2 : ℝ)

/-- Positive parameters. -/
structure GoodGse (g : Gse) : Prop where
  Ag : 0 < g.Ag
  p : 0 < g.p
  lam : 0 < g.lam
  c : 0 < g.c
  gam : 0 < g.gam

end Verif.Spec
