import Verif.Model.Heap

/-
What a run must look like for its memory to be in order, in terms of the input file and of what the nonlinear
iterations of the steps meet.
-/
namespace Verif.Heap

/-- Switches under which nothing is used that was not set up: mechanics are solved, by one of the four solvers;
anisotropy is off or on; initial directions from the set-up only with anisotropy; the kinetics of a phase only
with the kinetics switch. -/
structure Sound (c : Cfg) : Prop where
  mechanical : c.mechanical = 1
  solver : c.linSolver = -1 ∨ c.linSolver = 0 ∨ c.linSolver = 1 ∨ c.linSolver = 2
  aniso : c.anisotropy = 0 ∨ c.anisotropy = 1
  angle : c.markerAngle ≠ 0 → c.angleCb = true → c.anisotropy = 1
  kin : c.kin9 = true → c.kinetics = 1

/-- Some pass of the step, other than one with count zero, asks for Newton steps; `n` is the count of the first. -/
def asks : Nat → List Pass → Bool
  | _, [] => false
  | n, p :: ps =>
    (decide (0 < n) && p.switch) ||
      match p.ending with
      | .converged => false
      | .stagnated => false
      | .restart => asks 0 ps
      | .next => asks (n + 1) ps

/-- The iterations of the step end with count zero although an equation system has been solved (`solved`: before
the first pass of the list). -/
def leftover : Nat → Bool → List Pass → Bool
  | n, solved, [] => n == 0 && solved
  | n, solved, p :: ps =>
    match p.ending with
    | .converged => n == 0 && solved
    | .stagnated => n == 0
    | .restart => leftover 0 true ps
    | .next => leftover (n + 1) true ps

/-- Steps: none ends with count zero after a solve; a switch to Newton steps is asked for only in a run that has
a Jacobian, and not after a step without one. -/
structure Orderly (c : Cfg) (steps : List (List Pass)) : Prop where
  clean : ∀ ps ∈ steps, leftover 0 false ps = false
  newton : c.picard2newton = 1 → ∀ ps ∈ steps, asks 0 ps = true → c.newton = 1 ∨ c.anisotropy = 1
  once : c.picard2newton = 1 → steps.Pairwise fun a b => asks 0 b = true → asks 0 a = true

/-- Everything is in order at the end: no undefined access, no block lost, no block left but those listed. -/
structure InOrder (m : Mem) (left : Slot → Prop) : Prop where
  defined : m.bad = false
  lost : m.lost = 0
  left : ∀ s, m.ptr s = .live ↔ left s

end Verif.Heap
