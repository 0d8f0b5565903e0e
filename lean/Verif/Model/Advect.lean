import Verif.Prelude
import Verif.Model.Basic
import Mathlib.Algebra.Order.Group.Abs

/-
Marker advection (/repo/MDLIB/AdvectionRoutines.c): `isout` (272-312), `isoutPart` (318-339) and
`RogerGuntherII` (345-402).
-/
namespace Verif.Adv
open Verif

variable {K : Type*} [Field K] [LinearOrder K]

/-- The marker data touched by advection. -/
structure Marker (K : Type*) where
  x : K
  z : K
  vx : K
  vz : K
  phase : Int

/-- Model box (`xmin`, `xmax`, `zmin`, `zmax`). -/
structure Box (K : Type*) where
  xmin : K
  xmax : K
  zmin : K
  zmax : K

/-- First periodic correction: `if (x<xmin) x = xmax - ABSV(xmin-x)` (AdvectionRoutines.c:284-287). -/
def wrapW (B : Box K) (x : K) : K := if x < B.xmin then B.xmax - |B.xmin - x| else x

/-- Second correction: `if (x>xmax) x = xmin + ABSV(xmax-x)` (AdvectionRoutines.c:288-291). -/
def wrapE (B : Box K) (x : K) : K := if B.xmax < x then B.xmin + |B.xmax - x| else x

/-- `isoutPart` (AdvectionRoutines.c:318-339), periodic branch when `periodic_x == 1`.  `isout`
(272-312) applies the same body to every marker (there the branch is taken for any nonzero
`periodic_x`). -/
def isoutPart (B : Box K) (periodic : Bool) (m : Marker K) : Marker K :=
  if periodic then
    let m := { m with x := wrapE B (wrapW B m.x) }
    if m.z < B.zmin ∨ m.z > B.zmax then { m with phase := -1 } else m
  else
    if m.x < B.xmin ∨ m.x > B.xmax ∨ m.z < B.zmin ∨ m.z > B.zmax then { m with phase := -1 } else m

/-- `isout` (AdvectionRoutines.c:272-312): loop over all markers. -/
def isout (B : Box K) (periodic : Bool) (n : Nat) (P : Nat → Marker K) : Nat → Marker K :=
  forUp n P fun P k => upd P k (isoutPart B periodic (P k))

/-- `V2P` (ParticleRoutines.c:71-74): zero velocity for deactivated markers; `vel` is the
interpolation of the velocity grids. -/
def v2p (vel : K → K → K × K) (m : Marker K) : K × K := if m.phase ≠ -1 then vel m.x m.z else (0, 0)

/-- `if (phase != -1) { x = xA + s*Vx; z = zA + s*Vz; }` (AdvectionRoutines.c:372-375). -/
def shoot (xA zA s : K) (V : K × K) (m : Marker K) : Marker K :=
  if m.phase ≠ -1 then { m with x := xA + s * V.1, z := zA + s * V.2 } else m

/-- One iteration of `RogerGuntherII` (AdvectionRoutines.c:368-399). -/
def rk4 (B : Box K) (periodic : Bool) (vel : K → K → K × K) (dt : K) (m : Marker K) : Marker K :=
  let xA := m.x
  let zA := m.z
  let VA := v2p vel m
  let m1 := isoutPart B periodic (shoot xA zA (1 / 2 * dt) VA m)
  let VB := v2p vel m1
  let m2 := isoutPart B periodic (shoot xA zA (1 / 2 * dt) VB m1)
  let VC := v2p vel m2
  let m3 := isoutPart B periodic (shoot xA zA (1 * dt) VC m2)
  let VD := v2p vel m3
  let V : K × K := (1 / 6 * (VA.1 + 2 * VB.1 + 2 * VC.1 + VD.1), 1 / 6 * (VA.2 + 2 * VB.2 + 2 * VC.2 + VD.2))
  let m4 := if m3.phase ≠ -1 then { m3 with x := xA + dt * V.1, z := zA + dt * V.2, vx := V.1, vz := V.2 }
            else m3
  isoutPart B periodic m4

/-- `RogerGuntherII` (AdvectionRoutines.c:368-400): the loop over markers; the grids are not
written. -/
def rogerGuntherII (B : Box K) (periodic : Bool) (vel : K → K → K × K) (dt : K) (n : Nat)
    (P : Nat → Marker K) : Nat → Marker K :=
  forUp n P fun P k => upd P k (rk4 B periodic vel dt (P k))

end Verif.Adv
