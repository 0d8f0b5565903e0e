import Verif.Spec.Bilinear

/- The distance weight of marker-to-grid interpolation, independent of the loops that evaluate it. -/
namespace Verif.P2M
open Verif Verif.Interp

variable {K : Type*} [Field K] [LinearOrder K]

/-- Product of two hat functions of half-width `rx`, `rz`: weight of a marker at `(x,z)` for a node
at `(X,Z)`. -/
def kernel (rx rz X Z x z : K) : K := hat ((x - X) / rx) * hat ((z - Z) / rz)

/-- Same with the domain repeated with period `L` in x (nearest images). -/
def kernelPeriodic (L rx rz X Z x z : K) : K :=
  (hat ((x - X) / rx) + hat ((x - L - X) / rx) + hat ((x + L - X) / rx)) * hat ((z - Z) / rz)

/-- Tags of nodes in the air: free air (30) and the layer carrying the surface pressure (31). -/
def airTags : List Int := [30, 31]

end Verif.P2M
