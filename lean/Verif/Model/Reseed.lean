import Verif.Model.P2Mastah

/-
Reseeding of markers, `CountPartCell` with `reseed_markers == 1`
(/repo/MDLIB/ParticleRoutines.c:2334-2557).

`props` stands for all marker properties that `AssignMarkerProperties` (688-752) copies from the
chosen neighbour (velocities, strains, divth, deformation gradient, director, ...); the properties
that may instead be interpolated from the grid (716-724) are left out.
-/
namespace Verif.Seed
open Verif

variable {K : Type*} [Field K] [LinearOrder K] [FloorRing K] {ρ : Type*}

/-- One marker slot. -/
structure Mk (K ρ : Type*) where
  x : K
  z : K
  phase : Int
  gen : Nat
  props : ρ

/-- Box, fine grid and switches (ParticleRoutines.c:2342-2347). -/
structure Par (K : Type*) where
  /-- `mesh->Nx`, `mesh->Nz` -/
  Nx : Nat
  Nz : Nat
  xmin : K
  xmax : K
  zmin : K
  zmax : K
  /-- spacing of the coarse grid, `model.dx`, `model.dz` -/
  dx : K
  dz : K
  freeSurface : Bool
  /-- `topo.height_finer_c` -/
  height : Nat → K
  nbMax : Nat

/-- `ncx`, `ncz` (ParticleRoutines.c:2342-2343). -/
def Par.ncx (p : Par K) : Nat := 2 * p.Nx - 2
def Par.ncz (p : Par K) : Nat := 2 * p.Nz - 2

/-- Fine cell of a marker (ParticleRoutines.c:2386-2399, 2436-2449). -/
def Par.cell (p : Par K) (x z : K) : Int × Int :=
  (P2M.nearest p.ncx (p.xmin + p.dx / 2 / 2) (p.dx / 2) x, P2M.nearest p.ncz (p.zmin + p.dz / 2 / 2) (p.dz / 2) z)

/-- `part_cell[kc]`, the live markers of a fine cell in increasing order, and `nb_part_cell[kc]`, their
number (ParticleRoutines.c:2384-2403, 2424-2454; the flat cell number is kept as column and row). -/
def partCell (p : Par K) (ms : Nat → Mk K ρ) (nb : Nat) (c : Int × Int) : List Nat :=
  (List.range nb).filter fun k => (ms k).phase ≠ -1 && p.cell (ms k).x (ms k).z = c

/-- `part_reuse` (ParticleRoutines.c:2404-2407). -/
def partReuse (ms : Nat → Mk K ρ) (nb : Nat) : List Nat :=
  (List.range nb).filter fun k => (ms k).phase = -1

/-- `imin`, `imax` (ParticleRoutines.c:2472-2480). -/
def lower (i : Nat) : Nat :=
  let m := if 0 < i then i - 1 else 0
  if 1 < i then i - 2 else m
def upper (n i : Nat) : Nat :=
  let m := if i + 1 < n then i + 1 else n - 1
  if i + 2 < n then i + 2 else m

/-- Integers `a..b` (loop `for (i=a; i<=b; i++)`). -/
def span (a b : Nat) : List Nat := (List.range (b + 1 - a)).map (a + ·)

/-- Cells of the search neighbourhood in loop order (ParticleRoutines.c:2484-2489). -/
def hood (p : Par K) (ic jc : Nat) : List (Nat × Nat) :=
  (span (lower ic) (upper p.ncx ic)).flatMap fun i =>
    (span (lower jc) (upper p.ncz jc)).map fun j => (i, j)

/-- Outcomes other than normal return: `exit(122)` no neighbours (2498), `exit(190)` marker array full
(2528), `exit(99)` source marker dead (692), `ub` reads beyond an allocated block. -/
inductive Stop where
  | noNeighbours
  | full
  | deadSource
  | ub

/-- Search of the closest neighbour (ParticleRoutines.c:2539-2551).  Distances are compared as squares
(both sides are non-negative), the start value is `xmax - xmin`. -/
def closest (p : Par K) (ms : Nat → Mk K ρ) (x z : K) (nbrs : List Nat) (first : Nat) : Nat :=
  (nbrs.foldl (fun (b : Nat × K) k =>
    let d := (x - (ms k).x) ^ 2 + (z - (ms k).z) ^ 2
    if d < b.2 then (k, d) else b) (first, (p.xmax - p.xmin) ^ 2)).1

/-- State of the reseeding loop: markers, `Nb_part`, `count_part_reuse`; `log` records the slots
filled (history variable, not in the code). -/
structure State (K ρ : Type*) where
  ms : Nat → Mk K ρ
  nb : Nat
  used : Nat
  log : List Nat

/-- Centroid of a fine cell (ParticleRoutines.c:2467-2468). -/
def centroid (p : Par K) (ic jc : Nat) : K × K :=
  (p.xmin + p.dx / 2 / 2 + ic * (p.dx / 2), p.zmin + p.dz / 2 / 2 + jc * (p.dz / 2))

/-- `h` (ParticleRoutines.c:2466). -/
def surfaceHeight (p : Par K) (ic : Nat) : K := if p.freeSurface then p.height ic else p.zmax + p.dz / 2

/-- Slot for the new marker (ParticleRoutines.c:2518-2532). -/
def takeSlot (p : Par K) (reuse : List Nat) (s : State K ρ) : Except Stop (Nat × State K ρ) :=
  if s.used < reuse.length ∧ 0 < reuse.length then
    .ok (reuse.getD s.used 0, { s with used := s.used + 1 })
  else if p.nbMax ≤ s.nb + 1 then .error .full
  else .ok (s.nb, { s with nb := s.nb + 1 })

/-- Indices collected from the neighbourhood (ParticleRoutines.c:2500-2511).  `count` is the array
`part_count`, which has been freed at line 2455 and is read here: its content is a parameter. -/
def collect (count : Nat × Nat → Nat) (cells : Nat × Nat → List Nat) (hood : List (Nat × Nat)) :
    Except Stop (List Nat) :=
  if hood.all fun c => decide (count c ≤ (cells c).length) then
    .ok (hood.flatMap fun c => (cells c).take (count c))
  else .error .ub

/-- Creation of the marker once the neighbours are known (ParticleRoutines.c:2512-2557).
`first = neighbours[0]`, which is zero if nothing was stored (the block is zero-initialised). -/
def create (p : Par K) (reuse : List Nat) (nbrs : List Nat) (ic jc : Nat) (s : State K ρ) :
    Except Stop (State K ρ) :=
  let (nx, nz) := centroid p ic jc
  let h := surfaceHeight p ic
  if p.xmin ≤ nx ∧ nx ≤ p.xmax ∧ p.zmin ≤ nz ∧ (nz ≤ p.zmax ∨ nz ≤ h) then
    match takeSlot p reuse s with
    | .error e => .error e
    | .ok (i, s) =>
      let ms := upd s.ms i { s.ms i with x := nx, z := nz, gen := 1 }
      let src := closest p ms nx nz nbrs (nbrs.headD 0)
      if (ms src).phase = -1 then .error .deadSource
      else .ok { s with
        ms := upd ms i { ms i with phase := (ms src).phase, props := (ms src).props }
        log := s.log ++ [i] }
  else .ok s

/-- One fine cell (ParticleRoutines.c:2470-2559).  `ms0`, `nb0` are the markers at entry, from which
the per-cell lists were built. -/
def visit (p : Par K) (flag : Nat × Nat → Int) (count : Nat × Nat → Nat) (ms0 : Nat → Mk K ρ) (nb0 : Nat)
    (s : State K ρ) (c : Nat × Nat) : Except Stop (State K ρ) :=
  let cells := fun c : Nat × Nat => partCell p ms0 nb0 (c.1, c.2)
  if (cells c).length < 2 ∧ flag c ≠ 30 then
    let hd := hood p c.1 c.2
    if (hd.map fun c => (cells c).length).sum = 0 then .error .noNeighbours
    else match collect count cells hd with
      | .error e => .error e
      | .ok nbrs => create p (partReuse ms0 nb0) nbrs c.1 c.2 s
  else .ok s

/-- All fine cells, columns first (ParticleRoutines.c:2462-2463). -/
def allCells (p : Par K) : List (Nat × Nat) :=
  (List.range p.ncx).flatMap fun i => (List.range p.ncz).map fun j => (i, j)

/-- Sequential composition with early exit. -/
def runAll (f : State K ρ → Nat × Nat → Except Stop (State K ρ)) : List (Nat × Nat) → State K ρ → Except Stop (State K ρ)
  | [], s => .ok s
  | c :: cs, s => match f s c with
    | .error e => .error e
    | .ok s => runAll f cs s

/-- The reseeding loop (ParticleRoutines.c:2462-2561). -/
def reseed (p : Par K) (flag : Nat × Nat → Int) (count : Nat × Nat → Nat) (ms : Nat → Mk K ρ) (nb : Nat) :
    Except Stop (State K ρ) :=
  runAll (visit p flag count ms nb) (allCells p) ⟨ms, nb, 0, []⟩

/-- Flags copied from the coarse to the fine grid (ParticleRoutines.c:2359-2381). -/
def fineFlag (p : Par K) (coarse : Int × Int → Int) (c : Nat × Nat) : Int :=
  coarse (P2M.nearest (p.Nx - 1) (p.xmin + p.dx / 2) p.dx (centroid p c.1 c.2).1,
    P2M.nearest (p.Nz - 1) (p.zmin + p.dz / 2) p.dz (centroid p c.1 c.2).2)

end Verif.Seed
