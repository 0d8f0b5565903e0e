import Mathlib.Tactic.TypeStar
import Mathlib.Data.List.Perm.Basic

/- Interleavings of the store sequences of several threads. -/
namespace Verif

/-- `l` is an interleaving of the sequences `ls 0 .. ls (n-1)`: every event carries the number of
its thread, and the events of thread `i`, in order, are `ls i`. -/
structure Interleaving {σ : Type*} (n : Nat) (ls : Nat → List σ) (l : List (Nat × σ)) : Prop where
  threads : ∀ e ∈ l, e.1 < n
  order : ∀ i < n, (l.filter (fun e => e.1 == i)).map Prod.snd = ls i

/-- The iterations `0 .. n-1` of a parallel loop are distributed over threads: `ls` lists, per
thread, the iterations it executes and in which order; every iteration is executed exactly once. -/
def Distribution (n : Nat) (ls : List (List Nat)) : Prop := ls.flatten.Perm (List.range n)

end Verif
