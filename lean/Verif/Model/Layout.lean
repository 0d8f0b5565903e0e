import Verif.Prelude
import Verif.Model.Basic
import Verif.Model.Advect

/-
Initial marker layout `PutPartInBox` (/repo/MDLIB/ParticleRoutines.c:1261-1353) and phase transmutation
`TransmutateMarkers` (/repo/MDLIB/ParticleRoutines.c:3570-3587).
-/
namespace Verif.Layout
open Verif

variable {K : Type*} [Field K] [LinearOrder K]

/-- Grid, box and switches used by `PutPartInBox`. -/
structure Par (K : Type*) where
  Nx : Nat
  Nz : Nat
  NxP : Nat
  NzP : Nat
  dx : K
  dz : K
  xg : Nat → K
  zg : Nat → K
  freeSurface : Bool
  /-- `topo.a`, `topo.b` -/
  a : Nat → K
  b : Nat → K
  noise : Bool
  periodic : Bool
  box : Adv.Box K

/-- Loop variables: cell column, cell row, marker column, marker row. -/
structure Ix where
  j : Nat
  i : Nat
  kj : Nat
  ki : Nat
deriving DecidableEq

/-- The four nested loops (ParticleRoutines.c:1280-1289). -/
def ixs (p : Par K) : List Ix :=
  (List.range (p.Nx - 1)).flatMap fun j => (List.range (p.Nz - 1)).flatMap fun i =>
    (List.range p.NxP).flatMap fun kj => (List.range p.NzP).map fun ki => ⟨j, i, kj, ki⟩

/-- `coord_x`, `coord_z` (ParticleRoutines.c:1271-1272, 1296-1297, 1324-1325). -/
def coord (p : Par K) (c : Ix) : K × K :=
  (p.xg c.j + p.dx / p.NxP * (c.kj + 1 / 2), p.zg c.i + p.dz / p.NzP * (c.ki + 1 / 2))

/-- `free_surface == 0` or `coord_z < h` (ParticleRoutines.c:1284-1287, 1299-1301, 1320). -/
def keep (p : Par K) (c : Ix) : Bool :=
  !p.freeSurface || decide ((coord p c).2 < p.b c.j + p.a c.j * (coord p c).1)

/-- Position with noise; `r` are the two random numbers in [0, 1] drawn for the marker
(ParticleRoutines.c:1305-1313, 1331-1339). -/
def place (p : Par K) (c : Ix) (r : K × K) : K × K :=
  let q := coord p c
  if p.noise then
    let m : Adv.Marker K := ⟨q.1 + (2 * r.1 - 1) * (p.dx / p.NxP) * (1 / 10),
      q.2 + (2 * r.2 - 1) * (p.dz / p.NzP) * (1 / 10), 0, 0, 0⟩
    let m := Adv.isoutPart p.box p.periodic m
    (m.x, m.z)
  else q

/-- `PutPartInBox`: markers are written to slots `0, 1, ...`, so the arrays up to `np` are the list of positions
(ParticleRoutines.c:1276-1351).  `r n` are the random numbers drawn for slot `n`.  The phase written by `isoutPart`
is left out: `SetParticles` assigns all phases afterwards (/repo/MDLIB/Main_DOODZ.c:164-167). -/
def putPartInBox (p : Par K) (r : Nat → K × K) : List (K × K) :=
  (ixs p).foldl (fun acc c => if keep p c then acc ++ [place p c (r acc.length)] else acc) []

/-- Announced marker number (/repo/MDLIB/InputOutput.c:1144, `Nb_part = (Nx-1)*(Nz-1)*Nx_part*Nz_part`). -/
def announced (p : Par K) : Nat := (p.Nx - 1) * (p.Nz - 1) * p.NxP * p.NzP

/-- Marker fields and material tables used by `TransmutateMarkers`. -/
structure TMk (K : Type*) where
  phase : Int
  dual : Int
  T : K

/-- `materials->transmutation`, `transmutation_temperature`, `transmutation_phase`.  The tables have 20 entries; entries at
other indices (in particular -1) stand for whatever memory is read there. -/
structure Tab (K : Type*) where
  mode : Int → Int
  temp : Int → K
  phase : Int → Int

/-- Body of the loop (ParticleRoutines.c:3574-3583). -/
def transmute1 (t : Tab K) (m : TMk K) : TMk K :=
  if (t.mode m.phase = -1 ∧ m.T ≤ t.temp m.phase) ∨ (t.mode m.phase = 1 ∧ t.temp m.phase ≤ m.T) then
    { m with phase := t.phase m.phase, dual := t.phase m.phase }
  else m

/-- `TransmutateMarkers` (ParticleRoutines.c:3570-3587), the iterations executed by the threads in any order:
`order` lists the iterations as they happen. -/
def transmute (t : Tab K) (order : List Nat) (P : Nat → TMk K) : Nat → TMk K :=
  order.foldl (fun P k => upd P k (transmute1 t (P k))) P

end Verif.Layout
