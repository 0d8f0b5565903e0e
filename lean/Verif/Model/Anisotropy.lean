import Verif.Prelude
import Mathlib.Algebra.Order.Field.Basic
import Mathlib.Analysis.SpecialFunctions.Sqrt
import Mathlib.Analysis.SpecialFunctions.Trigonometric.Inverse

/-
Anisotropic rheology (/repo/MDLIB/AnisotropyRoutines.c, StokesRoutines.c, ParticleRoutines.c,
RheologyParticles.c).  Tensors are triples `(xx, zz, xz)`.
-/
namespace Verif.Aniso

section
variable {K : Type*} [Field K] [LinearOrder K]

/-- Strain rate in the layer frame (AnisotropyRoutines.c:173-176). -/
def rotate (lx2 lxlz : K) (E : K × K × K) : K × K × K :=
  let nz2 := 1 - lx2
  (lx2 * E.1 + nz2 * E.2.1 + 2 * lxlz * E.2.2,
   nz2 * E.1 + lx2 * E.2.1 - 2 * lxlz * E.2.2,
   -lxlz * E.1 + lxlz * E.2.1 + (lx2 - nz2) * E.2.2)

/-- Layered law in the layer frame (AnisotropyRoutines.c:255-257, 286-288). -/
def layered (eta ani : K) (E : K × K × K) : K × K × K :=
  (2 * eta * E.1, 2 * eta * E.2.1, 2 * eta * E.2.2 / ani)

/-- Stress back in the model frame (AnisotropyRoutines.c:296-298). -/
def rotateBack (lx2 lxlz : K) (T : K × K × K) : K × K × K :=
  let nz2 := 1 - lx2
  (lx2 * T.1 + nz2 * T.2.1 - 2 * lxlz * T.2.2,
   nz2 * T.1 + lx2 * T.2.1 + 2 * lxlz * T.2.2,
   lxlz * T.1 - lxlz * T.2.1 + (lx2 - nz2) * T.2.2)

/-- Stress of `ViscosityConciseAniso` for a given viscosity (AnisotropyRoutines.c:173-176, 255-258,
296-298). -/
def localStress (lx2 lxlz eta ani : K) (E : K × K × K) : K × K × K :=
  rotateBack lx2 lxlz (layered eta ani (rotate lx2 lxlz E))

/-- Final stress on the grid (AnisotropyRoutines.c:677-684, 801-808). -/
def gridStress (d1 d2 eta ani : K) (E : K × K × K) : K × K × K :=
  let a := 1 - 1 / ani
  let Dxx := E.1 * (1 - a * d1) + E.2.1 * a * d1 - 2 * E.2.2 * a * d2
  let Dzz := E.2.1 * (1 - a * d1) + E.1 * a * d1 + 2 * E.2.2 * a * d2
  let Dxz := -E.1 * a * d2 + E.2.1 * a * d2 + 2 * E.2.2 * (a * (d1 - 1 / 2) + 1 / 2)
  (2 * eta * Dxx, 2 * eta * Dzz, 2 * eta * Dxz)

/-- Operator handed to the assembly, applied to a strain rate: rows `D11..D13`, `D21..D23` at
centres and `D31..D33` at vertices (StokesRoutines.c:99-121, 175-197); the third column multiplies
the engineering shear rate `2 exz`. -/
def assemblyOperator (d1 d2 eta ani : K) (E : K × K × K) : K × K × K :=
  let a := 1 - 1 / ani
  let D11 := 2 * eta - 2 * a * d1 * eta
  let D12 := 2 * a * d1 * eta
  let D13 := -2 * a * d2 * eta
  let D21 := 2 * a * d1 * eta
  let D22 := 2 * eta - 2 * a * d1 * eta
  let D23 := 2 * a * d2 * eta
  let D31 := -2 * a * d2 * eta
  let D32 := 2 * a * d2 * eta
  let D33 := eta + 2 * a * (d1 - 1 / 2) * eta
  (D11 * E.1 + D12 * E.2.1 + D13 * (2 * E.2.2),
   D21 * E.1 + D22 * E.2.1 + D23 * (2 * E.2.2),
   D31 * E.1 + D32 * E.2.1 + D33 * (2 * E.2.2))

/-- Director functions of one marker (ParticleRoutines.c:2111-2121). -/
def markerD1 (nx nz : K) : K := 2 * nx ^ 2 * nz ^ 2
/-- See `markerD1`. -/
def markerD2 (nx nz : K) : K := nx * nz * (-nx ^ 2 + nz ^ 2)

/-- Squared second invariant of strain rate, with out-of-plane component
(AnisotropyRoutines.c:61-63, 177). -/
def inv2 (E : K × K × K) : K :=
  1 / 2 * (E.1 ^ 2 + E.2.1 ^ 2 + (-E.1 - E.2.1) ^ 2) + E.2.2 ^ 2

/-- Squared anisotropic second invariant of stress (AnisotropyRoutines.c:55-58) with
`yy = -xx - zz`. -/
def invY2 (ani : K) (T : K × K × K) : K :=
  1 / 2 * (T.1 ^ 2 + T.2.1 ^ 2 + (-T.1 - T.2.1) ^ 2) + (ani * T.2.2) ^ 2

/-- Anisotropy factor from finite strain (AnisotropyRoutines.c:44-52). -/
def factorFromStrain (ar amax : K) : K := if ar < amax then ar else amax

/-- Plastic correction of the anisotropic routine (AnisotropyRoutines.c:158-167, 263-291): trial
stress, viscosity, visco-plastic viscosity, pressure, `K*dt`, cohesion, Mises cut-off, cosine and
sine of the friction angle, sine of the dilation angle; returns stress, pressure, plastic rate. -/
def plasticAniso (tii etaVe etaVp P kdt C slim cosf sinf sind eps : K) : K × K × K :=
  let t0 := C * cosf + P * sinf
  let tyield := if slim < t0 then slim else t0
  let ft := tii - tyield
  if eps < ft then
    let gdot := ft / (etaVe + etaVp + kdt * sind * sinf)
    (tii - gdot * etaVe, P + kdt * sind * gdot, gdot)
  else (tii, P, 0)

end

/-- One step of the director on a marker (RheologyParticles.c:1445-1455), velocity gradient
`(ux, uz, vx, vz)`. -/
noncomputable def turnDirector (dt ux uz vx vz : ℝ) (n : ℝ × ℝ) : ℝ × ℝ :=
  let nx := n.1
  let nz := n.2
  let px := nx + dt * (-(ux - vz) * nx * nz - vx * nz * nz + uz * nx * nx) * nz
  let pz := nz + dt * ((ux - vz) * nx * nz + vx * nz * nz - uz * nx * nx) * nx
  let norm := Real.sqrt (px ^ 2 + pz ^ 2)
  (px / norm, pz / norm)

/-- Initial director of a marker (AnisotropyRoutines.c:840-844). -/
noncomputable def initDirector (angle : ℝ) : ℝ × ℝ :=
  let nx := Real.cos angle
  let nz := Real.sin angle
  let norm := Real.sqrt (nx * nx + nz * nz)
  (nx / norm, nz / norm)

/-- Angle interpolated to the grid (ParticleRoutines.c:2123-2125). -/
noncomputable def markerAngle (nx : ℝ) : ℝ := Real.arccos nx

/-- Layer quantities from the angle (AnisotropyRoutines.c:556-559). -/
noncomputable def layerOf (angle : ℝ) : ℝ × ℝ :=
  let l := angle - Real.pi / 2
  (Real.cos l * Real.cos l, Real.cos l * Real.sin l)

end Verif.Aniso
