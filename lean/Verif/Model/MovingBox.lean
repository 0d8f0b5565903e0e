import Verif.Model.Advect
import Verif.Model.Interp
import Verif.Model.Setup
import Verif.Model.GridCoords

/-
The advection substep with moving sides (/repo/MDLIB/Main_DOODZ.c:1043-1060): the box and its grid are
moved first, then the markers with the velocities of the same arrays.
-/
namespace Verif.Moving
open Verif

variable {K : Type*} [Field K] [LinearOrder K] [FloorRing K]

/-- Velocity `V2P` gives at a position (call in AdvectionRoutines.c:371, plain interpolation, `conserv_interp = 0`):
the arrays `u_in`, `v_in` and the coordinates the grid has at the time of the call. -/
def seenVelocity (Nx Nz : Nat) (s : Setup.Sides K) (g : Grid.Coords K) (x z : K) : K × K :=
  (Interp.v2pVx Nx (Nz + 1 : Nat) (fun j => g.xg j.toNat) (fun i => g.zvx i.toNat) g.dx g.dz (fun n => s.u n.toNat) (fun n => s.tu n.toNat) false x z,
   Interp.v2pVz (Nx + 1 : Nat) Nz (fun j => g.xvz j.toNat) (fun i => g.zg i.toNat) g.dx g.dz (fun n => s.v n.toNat) (fun n => s.tv n.toNat) false x z)

/-- One substep for one marker: `PureShearALE`, which ends with `SetGridCoordinates`, then `RogerGuntherII`
(Main_DOODZ.c:1044-1060).  `pure_shear_ALE = 1`, no free surface, sides not periodic; the marker inflow of
`pure_shear_ALE = -1` does not take part. -/
def moveWithBox (Nx Nz : Nat) (dt : K) (s : Setup.Sides K) (c : Grid.Coords K) (b : Setup.Box K) (m : Adv.Marker K) :
    Setup.Box K × Adv.Marker K :=
  let b' := Setup.pureShearALE Nx Nz dt false false 0 0 0 s b
  let g := Grid.setGridCoordinates b'.xmin b'.xmax b'.zmin b'.zmax Nx Nz c
  (b', Adv.rk4 ⟨b'.xmin, b'.xmax, b'.zmin, b'.zmax⟩ false (seenVelocity Nx Nz s g) dt m)

/-- The loop over the substeps of one step (Main_DOODZ.c:1041-1175) for one marker: the coordinates, the box and
the marker after `n` substeps of length `dt`.  The velocity and tag arrays are the same in all of them: without
a free surface nothing in the loop writes them.  Simplified: the strain updates and the reseeding, which change
neither the box nor the position of a marker that is present, are left out. -/
def subSteps (Nx Nz : Nat) (dt : K) (s : Setup.Sides K) (c : Grid.Coords K) (b : Setup.Box K) (m : Adv.Marker K) :
    Nat → Grid.Coords K × Setup.Box K × Adv.Marker K
  | 0 => (c, b, m)
  | n + 1 =>
    let r := subSteps Nx Nz dt s c b m n
    let p := moveWithBox Nx Nz dt s r.1 r.2.1 r.2.2
    (Grid.setGridCoordinates p.1.xmin p.1.xmax p.1.zmin p.1.zmax Nx Nz r.1, p)

end Verif.Moving
