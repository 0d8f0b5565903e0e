import Verif.Prelude
import Verif.Model.Basic

/-
Marker inflow through the side boundaries, `ParticleInflowCheck`
(/repo/MDLIB/ParticleRoutines.c:549-682), called before (`flag == 0`) and after (`flag == 1`) the
markers have been advected (/repo/MDLIB/Main_DOODZ.c:1057-1066).

`props` stands for the properties `AssignMarkerPropertiesInflow` copies from the source marker; the
director, which may come from a user callback, is left out.
-/
namespace Verif.Inflow
open Verif

variable {K : Type*} [Field K] [LinearOrder K] {ρ : Type*}

/-- One marker slot, with `intag`. -/
structure Mk (K ρ : Type*) where
  x : K
  z : K
  phase : Int
  tag : Int
  props : ρ

/-- `xg_coord[0]`, `xg_coord[Nx-1]`, `dx2 = model.dx/2` and `Nb_part_max`. -/
structure Par (K : Type*) where
  x0 : K
  x1 : K
  dx2 : K
  nbMax : Nat

/-- Tagging pass, `flag == 0` (ParticleRoutines.c:576-605).  The loop is parallel; every iteration writes
its own entry only. -/
def tagPass (p : Par K) (nb : Nat) (ms : Nat → Mk K ρ) : Nat → Mk K ρ := fun k =>
  if k < nb then
    let t : Int := 0
    let t := if (ms k).phase ≠ -1 then
        let t := if p.x0 ≤ (ms k).x ∧ (ms k).x ≤ p.x0 + p.dx2 then 1 else t
        if p.x1 - p.dx2 ≤ (ms k).x ∧ (ms k).x ≤ p.x1 then 1 else t
      else t
    { ms k with tag := t }
  else ms k

/-- State of the injection loop: markers, `Nb_part`, the remaining part of `ip_reuse`, the local
`NewIndex` (uninitialised at first); `over` records that "Too many particles" was printed, `log` the pairs
(slot, source) (history variable, not in the code). -/
structure State (K ρ : Type*) where
  ms : Nat → Mk K ρ
  nb : Nat
  stack : List Nat
  newIndex : Nat
  over : Bool
  log : List (Nat × Nat)

/-- Choice of the slot (ParticleRoutines.c:623-636, 650-663). -/
def slot (p : Par K) (s : State K ρ) : State K ρ :=
  if 0 < s.stack.length then
    { s with newIndex := s.stack.getD (s.stack.length - 1) 0, stack := s.stack.take (s.stack.length - 1) }
  else if s.nb < p.nbMax then { s with newIndex := s.nb, nb := s.nb + 1 }
  else { s with over := true }

/-- One injection from marker `k` shifted by `sh` (ParticleRoutines.c:620-642, 647-669). -/
def inject (p : Par K) (k : Nat) (sh : K) (s : State K ρ) : State K ρ :=
  let s := { s with ms := upd s.ms k { s.ms k with tag := 2 } }
  let s := slot p s
  let i := s.newIndex
  let ms := upd s.ms i { s.ms i with x := (s.ms k).x + sh, z := (s.ms k).z }
  let ms := upd ms i { ms i with phase := (ms k).phase, props := (ms k).props }
  { s with ms := ms, log := s.log ++ [(i, k)] }

/-- One iteration, `flag == 1` (ParticleRoutines.c:609-610, 616-671). -/
def visit (p : Par K) (k : Nat) (s : State K ρ) : State K ρ :=
  let xW := p.x0 + p.dx2
  let xE := p.x1 - p.dx2
  if (s.ms k).phase ≠ -1 ∧ (s.ms k).tag = 1 then
    let s := if xW ≤ (s.ms k).x ∧ (s.ms k).x ≤ xW + p.dx2 then inject p k (-p.dx2) s else s
    if xE - p.dx2 ≤ (s.ms k).x ∧ (s.ms k).x ≤ xE then inject p k p.dx2 s else s
  else s

/-- `for (k=0; k<Nb_part; k++)` where the body may increase `Nb_part` (ParticleRoutines.c:614). -/
def loop (p : Par K) : Nat → Nat → State K ρ → Nat × State K ρ
  | 0, k, s => (k, s)
  | fuel + 1, k, s => if k < s.nb then loop p fuel (k + 1) (visit p k s) else (k, s)

/-- `ip_reuse` (ParticleRoutines.c:565-573). -/
def reuse (nb : Nat) (ms : Nat → Mk K ρ) : List Nat := (List.range nb).filter fun k => (ms k).phase = -1

/-- Injection pass, `flag == 1` (ParticleRoutines.c:607-676).  `junk` is the content of the uninitialised
`NewIndex`.  The loop is entered with as many iterations as it can make (`loop_ends`). -/
def injectPass (p : Par K) (nb junk : Nat) (ms : Nat → Mk K ρ) : State K ρ :=
  (loop p (max nb p.nbMax) 0 ⟨ms, nb, reuse nb ms, junk, false, []⟩).2

end Verif.Inflow
