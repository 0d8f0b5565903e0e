import Verif.Model.StepUpdate
import Verif.Model.History

/-
The stresses between two time steps: markers to the grid at the beginning of a step (/repo/MDLIB/Main_DOODZ.c:502-511), grid to the markers at its end
(`UpdateParticleStress`, /repo/MDLIB/RheologyParticles.c:1456-1648).  The normal stresses of a marker are in Model/History.lean, here are the shear stress, which
lives on the vertices, and the composition of all parts.  Real arithmetic.  Left out: the rotation of the directors (1437-1453), the exits for infinite and
NaN increments.
-/
namespace Verif.StepFlow
open Verif Verif.Hist

/-- The markers and both families of nodes they are interpolated to. -/
structure Carriers where
  /-- cells: `centroid == 1` in `P2Mastah`, extended centres in `Interp_Grid2P_centroids2` -/
  s : Hist.Setting ℝ
  /-- vertices: `centroid == 0` -/
  vfam : P2M.Fam ℝ
  /-- `particles->Nb_part` -/
  n : Nat

/-- `sxxd0`, `szzd0` and `sxz0_n` of the cells, `sxxd0_s`, `szzd0_s` and `sxz0` of the vertices. -/
structure OldStress where
  xx : Nat → ℝ
  zz : Nat → ℝ
  xzN : Nat → ℝ
  xxS : Nat → ℝ
  zzS : Nat → ℝ
  xz : Nat → ℝ

/-- Old stresses from the markers (Main_DOODZ.c:505-511); `b` is what was in the arrays before. -/
noncomputable def toGrid (S : Setting) (C : Carriers) (sig : Nat → Dev) (b : OldStress) : OldStress :=
  let xx := P2M.field C.s.fam Real.log Real.exp 0 C.s.ms (fun k => (sig k).xx) C.s.ls (fun c => S.m.tp c) b.xx
  let zz := P2M.field C.s.fam Real.log Real.exp 0 C.s.ms (fun k => (sig k).zz) C.s.ls (fun c => S.m.tp c) b.zz
  let xz := P2M.field C.vfam Real.log Real.exp 0 C.s.ms (fun k => (sig k).xz) C.s.ls (fun c => S.m.tg c) b.xz
  { xx := xx
    zz := zz
    xz := xz
    xxS := toVerts S xx b.xxS
    zzS := toVerts S zz b.zzS
    xzN := GridField.verticesToCentroids S.m.Nx S.m.Nz (fun c => S.m.tp c) xz b.xzN }

/-- The step is computed with these old stresses (RheologyDensity.c:884-886, 1019-1021). -/
def load (S : Setting) (g : OldStress) : Setting :=
  { S with
    cell := fun c => { S.cell c with old := ⟨g.xx c, g.zz c, g.xzN c⟩ }
    vert := fun c => { S.vert c with old := ⟨g.xxS c, g.zzS c, g.xz c⟩ } }

/-- `Interp_Grid2P` from the vertices to marker `k`: zero for an inactive one, `none` for `exit(89)` (ParticleRoutines.c:1402-1482). -/
noncomputable def vertToMarker (C : Carriers) (F : Int → ℝ) (tag : Int → Int) (k : Nat) : Option ℝ :=
  if (C.s.ms k).phase ≠ -1 then
    Interp.interpGrid2P C.vfam.Nx C.vfam.Nz true C.vfam.X C.vfam.Z C.vfam.dx C.vfam.dz F tag (C.s.ms k).x (C.s.ms k).z
  else some 0

/-- The loop on all markers: nothing if the program ended at one of them. -/
noncomputable def allMarkers (C : Carriers) (F : Int → ℝ) (tag : Int → Int) : Option (Nat → ℝ) :=
  if ∀ k < C.n, (vertToMarker C F tag k).isSome then some fun k => (vertToMarker C F tag k).getD 0 else none

/-- Shear stress of the markers with `subgrid_diffusion = sd` (RheologyParticles.c:1489, 1509-1550 and 1595-1613); `damp` is `1 - exp(-d*dt/dtaum)`. -/
noncomputable def updateShearStress (sd : Int) (C : Carriers) (flagG : Int → Int) (new old : Int → ℝ) (damp S : Nat → ℝ) : Option (Nat → ℝ) :=
  if sd = 2 then
    match allMarkers C old flagG with
    | some m0 =>
      let gs := P2M.field C.vfam Real.log Real.exp 0 C.s.ms (subgrid C.s S m0 damp) C.s.ls (fun c => flagG c) fun _ => 0
      match allMarkers C (fun c => if flagG c ∈ [30] then 0 else (new c - old c) - gs c.toNat) flagG with
      | some mr => some fun k => if (C.s.ms k).phase ≠ -1 then S k + subgrid C.s S m0 damp k + mr k else S k
      | none => none
    | none => none
  else if sd = 0 ∨ sd = 1 then
    match allMarkers C (gridInc [30] flagG new old) flagG with
    | some inc => some fun k => S k + inc k
    | none => none
  else some S

/-- `UpdateParticleStress` of a model with elasticity: stresses `o` of the grid at the end of the step, old stresses `g` of the grid, marker stresses `sig`
(RheologyParticles.c:1456-1648).  `rot` is `stress_rotation`, `dt` the time step. -/
noncomputable def toMarkers (S : Setting) (C : Carriers) (sd rot : Int) (dt : ℝ) (damp : Nat → ℝ) (wxz : Nat → ℝ) (o : Mech) (g : OldStress) (sig : Nat → Dev) :
    Option (Nat → Dev) :=
  match updateShearStress sd C S.m.tg (fun c => (o.verts c.toNat).T.xz) (fun c => g.xz c.toNat) damp fun k => (sig k).xz with
  | some xz =>
    let sig' : Nat → Dev := fun k =>
      { xx := updateNormalStress 1 sd C.s Real.log Real.exp S.m.tp (fun c => (o.cells c.toNat).T.xx) (fun c => g.xx c.toNat) damp (fun k => (sig k).xx) k
        zz := updateNormalStress 1 sd C.s Real.log Real.exp S.m.tp (fun c => (o.cells c.toNat).T.zz) (fun c => g.zz c.toNat) damp (fun k => (sig k).zz) k
        xz := xz k }
    some (rotateAll C.vfam Real.log Real.exp C.s.ms C.s.ls (fun c => S.m.tg c) rot dt wxz sig').2
  | none => none

end Verif.StepFlow
