import Verif.Model.Setup
import Mathlib.Algebra.BigOperators.Group.Finset.Basic

/-
Vocabulary for the set-up properties: which sides a position belongs to, what a correct boundary
callback is, rotation of a point about a centre.
-/
namespace Verif.Setup
open Verif

/-- Position names a node on the western side (the side itself or one of its corners). -/
def Pos.west (p : Pos) : Prop := p = .W ∨ p = .NW ∨ p = .SW
/-- Position names a node on the eastern side. -/
def Pos.east (p : Pos) : Prop := p = .E ∨ p = .NE ∨ p = .SE
/-- Position names a node on the southern side. -/
def Pos.south (p : Pos) : Prop := p = .S ∨ p = .SW ∨ p = .SE
/-- Position names a node on the northern side. -/
def Pos.north (p : Pos) : Prop := p = .N ∨ p = .NW ∨ p = .NE

/-- The position names exactly the sides of the `ncol` x `nrow` lattice the node (`k`, `l`) is on. -/
structure NamesSides (ncol nrow k l : Nat) (p : Pos) : Prop where
  west : p.west ↔ k = 0
  east : p.east ↔ k + 1 = ncol
  south : p.south ↔ l = 0
  north : p.north ↔ l + 1 = nrow

/-- Node (`k`, `l`) is on the rim of the `ncol` x `nrow` lattice. -/
def OnRim (ncol nrow k l : Nat) : Prop := k = 0 ∨ k + 1 = ncol ∨ l = 0 ∨ l + 1 = nrow

instance (ncol nrow k l : Nat) : Decidable (OnRim ncol nrow k l) := by unfold OnRim; infer_instance

/-- A phase number that indexes one of `n` materials. -/
def Exists (n phase : Int) : Prop := 0 ≤ phase ∧ phase < n

instance (n phase : Int) : Decidable (Exists n phase) := by unfold Exists; infer_instance

section
variable {K : Type*} [Field K]

/-- Vector from centre `e` to point `p`, turned by the angle with cosine `c` and sine `s`. -/
def turned (c s : K) (e p : K × K) : K × K :=
  ((p.1 - e.1) * c - (p.2 - e.2) * s, (p.1 - e.1) * s + (p.2 - e.2) * c)

/-- Point `q`, relative to the centre, is inside the ellipse with the given diameters. -/
def InEllipse [LinearOrder K] (dx dz : K) (q : K × K) : Prop :=
  (q.1 / (dx / 2)) ^ 2 + (q.2 / (dz / 2)) ^ 2 < 1

/-- Point `q`, relative to the centre, is inside the rectangle with the given side lengths. -/
def InRectangle [LinearOrder K] (sx sz : K) (q : K × K) : Prop :=
  -(sx / 2) ≤ q.1 ∧ q.1 ≤ sx / 2 ∧ -(sz / 2) ≤ q.2 ∧ q.2 ≤ sz / 2

end

/-- File name without directories and without what follows the last dot. -/
def IsBase (name base : List Char) : Prop :=
  ∃ dir ext : List Char, name = dir ++ base ++ '.' :: ext ∧ '.' ∉ ext ∧
    (dir = [] ∨ ∃ d c, dir = d ++ [c] ∧ (c = '/' ∨ c = '\\')) ∧
    (∀ c ∈ base ++ ext, c ≠ '/' ∧ c ≠ '\\')

end Verif.Setup
