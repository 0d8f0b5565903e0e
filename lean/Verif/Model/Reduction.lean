import Verif.Prelude
import Mathlib.Algebra.Group.Defs
import Mathlib.Order.Basic

/-
OpenMP reductions: sums (`reduction(+:x)`, e.g. SparseTools.c:56, AdvectionRoutines.c:281,
StokesRoutines.c:853) and the hand-written extrema of MiscFunctions.c:183-340, 496-525.
-/
namespace Verif.Red

variable {K : Type*}

/-- `reduction(+:result)` around a loop adding `term k`: every thread adds its iterations to a private
copy starting at zero, the copies are added to the shared variable in some order (the order of
`ls`) (e.g. SparseTools.c:53-59). -/
def ompSum [AddMonoid K] (init : K) (term : Nat → K) (ls : List (List Nat)) : K :=
  ls.foldl (fun s its => s + its.foldl (fun p k => p + term k) 0) init

/-- Per-thread search of the extremum (MiscFunctions.c:190-195, 230-236, 503-507).  `better a b` is
`a > b` for the maximum and `a < b` for the minimum, `counted k` the guard (`true`, `tag[k] < 30`,
`phase[k] != -1`). -/
def threadExt (better : K → K → Bool) (a : Nat → K) (counted : Nat → Bool) (its : List Nat) : K :=
  its.foldl (fun p k => if counted k && better (a k) p then a k else p) (a 0)

/-- Merging of the per-thread extrema into the shared variable (MiscFunctions.c:199-214).  The list
holds all values the shared variable has had, the current one first.  The test outside the critical
section may see any earlier value (only a flush precedes it); inside the critical section the
current value is compared.  Threads may do this in any order. -/
inductive Merge (better : K → K → Bool) : List K → List K → List K → Prop where
  | done (h : List K) : Merge better [] h h
  | skip (p : K) (ps h h' : List K) (seen : K) : seen ∈ h → better p seen = false →
      Merge better ps h h' → Merge better (p :: ps) h h'
  | enter (p cur : K) (ps h h' : List K) (seen : K) : seen ∈ cur :: h → better p seen = true →
      Merge better ps (if better p cur then p :: cur :: h else cur :: h) h' →
      Merge better (p :: ps) (cur :: h) h'

/-- A run of `MinMaxArray`-like routines: `r` is a possible final value of the shared variable when
the loop is distributed as `ls` (MiscFunctions.c:183-217 and copies). -/
def Extremum (better : K → K → Bool) (a : Nat → K) (counted : Nat → Bool) (ls : List (List Nat)) (r : K) : Prop :=
  ∃ h, Merge better (ls.map (threadExt better a counted)) [a 0] (r :: h)

/-- `a > b` -/
def gtB [LinearOrder K] (a b : K) : Bool := decide (b < a)
/-- `a < b` -/
def ltB [LinearOrder K] (a b : K) : Bool := decide (a < b)

end Verif.Red
