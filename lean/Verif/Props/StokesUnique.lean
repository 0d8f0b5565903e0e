import Verif.Props.LocalWork
import Mathlib.LinearAlgebra.FiniteDimensional.Lemmas

/-
C152: the assembled system of momentum and volume equations has at most one velocity field as solution.
-/
set_option linter.unusedSectionVars false
namespace Verif
open Finset Classical

variable {K : Type*} [Field K] [LinearOrder K]

/-- Nodes that an assembled row weights: nodes of the grid other than ghost nodes of walls that stick or slip. -/
def Weighted (m : SMesh K) : SNode → Prop
  | .u i => InU m i ∧ m.tu i ≠ 11 ∧ m.tu i ≠ 13
  | .v i => InV m i ∧ m.tv i ≠ 11 ∧ m.tv i ≠ 13
  | .p i => InP m i

/-- Tags 11 and 13 occur on ghost rows and columns only, no side is periodic (in the arrays). -/
structure Walls (m : SMesh K) : Prop where
  u : ∀ k l : Nat, k < m.Nx → 0 < l → l < m.Nz → m.tu ((k : Int) + l * m.Nx) ≠ 11 ∧ m.tu ((k : Int) + l * m.Nx) ≠ 13
  v : ∀ k l : Nat, 0 < k → k < m.Nx → l < m.Nz → m.tv ((k : Int) + l * (m.Nx + 1)) ≠ 11 ∧ m.tv ((k : Int) + l * (m.Nx + 1)) ≠ 13
  notPeriodic : ∀ i, InV m i → m.tv i ≠ -12

theorem Walls.closed {m : SMesh K} (h : Walls m) : ClosedBoxIn m where
  u := by rintro i ⟨k, l, a, b, c, d, rfl⟩; exact h.u k l (by omega) c d
  v := by rintro i ⟨k, l, a, b, c, d, rfl⟩; exact h.v k l a b (by omega)
  notPeriodic := h.notPeriodic

private theorem mem_guarded {b : Bool} {n : SNode} {a : K} {e : SNode × K} (h : e ∈ guarded b n a) : e = (n, a) := by
  unfold guarded at h
  cases b <;> simp at h
  exact h

section
variable (m : SMesh K) (hw : Walls m)
include hw

/-- The row of an unknown Vx node. -/
theorem x_weighted (k l : Nat) (hk0 : 0 < k) (hk : k + 1 < m.Nx) (hl0 : 0 < l) (hl : l < m.Nz) (ht : m.tu ((k : Int) + l * m.Nx) = -1) :
    ∀ e ∈ xStencil m k l ++ xStencilP m k l, e.2 = 0 ∨ Weighted m e.1 := by
  obtain ⟨k, rfl⟩ : ∃ j, k = j + 1 := ⟨k - 1, by omega⟩
  obtain ⟨l, rfl⟩ : ∃ j, l = j + 1 := ⟨l - 1, by omega⟩
  have hper : (m.tu (((k + 1 : Nat) : Int) + (l + 1 : Nat) * (m.Nx : Int)) == -2) = false := by rw [ht]; rfl
  intro e he
  simp only [xStencil, xStencilP, List.mem_append] at he
  rcases he with ((((((((he | he) | he) | he) | he) | he) | he) | he) | he) | (he | he) <;> rw [mem_guarded he] <;>
    simp only [xIdx, hper, Bool.false_eq_true, if_false, Weighted]
  · by_cases h : m.tu (((k + 1 : Nat) : Int) + (l + 1 : Nat) * m.Nx - m.Nx) = 11 ∨ m.tu (((k + 1 : Nat) : Int) + (l + 1 : Nat) * m.Nx - m.Nx) = 13
    · left
      have : (xIn m (k + 1 : Nat) (l + 1 : Nat)).RegS = 0 := by
        simp only [xIn, xIdx, hper, Bool.false_eq_true, if_false]
        rcases h with h | h <;> rw [h] <;> rfl
      simp only [xCoef, this, mul_zero, zero_mul, zero_div]
    · exact Or.inr ⟨⟨k + 1, l, by omega, by omega, by push_cast; ring⟩, fun q => h (Or.inl q), fun q => h (Or.inr q)⟩
  · right
    have e : ((k + 1 : Nat) : Int) + (l + 1 : Nat) * m.Nx - 1 = (k : Int) + (l + 1 : Nat) * m.Nx := by push_cast; ring
    rw [e]; exact ⟨⟨k, l + 1, by omega, by omega, rfl⟩, hw.u k (l + 1) (by omega) (by omega) hl⟩
  · right; exact ⟨⟨k + 1, l + 1, by omega, by omega, rfl⟩, hw.u (k + 1) (l + 1) (by omega) (by omega) hl⟩
  · right
    have e : ((k + 1 : Nat) : Int) + (l + 1 : Nat) * m.Nx + 1 = ((k + 2 : Nat) : Int) + (l + 1 : Nat) * m.Nx := by push_cast; ring
    rw [e]; exact ⟨⟨k + 2, l + 1, by omega, by omega, rfl⟩, hw.u (k + 2) (l + 1) (by omega) (by omega) hl⟩
  · by_cases h : m.tu (((k + 1 : Nat) : Int) + (l + 1 : Nat) * m.Nx + m.Nx) = 11 ∨ m.tu (((k + 1 : Nat) : Int) + (l + 1 : Nat) * m.Nx + m.Nx) = 13
    · left
      have : (xIn m (k + 1 : Nat) (l + 1 : Nat)).RegN = 0 := by
        simp only [xIn, xIdx, hper, Bool.false_eq_true, if_false]
        rcases h with h | h <;> rw [h] <;> rfl
      simp only [xCoef, this, mul_zero, zero_mul, zero_div]
    · exact Or.inr ⟨⟨k + 1, l + 2, by omega, by omega, by push_cast; ring⟩, fun q => h (Or.inl q), fun q => h (Or.inr q)⟩
  · right
    have e : ((k + 1 : Nat) : Int) + (l + 1 : Nat) * (m.Nx + 1) - (m.Nx + 1) = ((k + 1 : Nat) : Int) + (l : Nat) * (m.Nx + 1) := by push_cast; ring
    rw [e]; exact ⟨⟨k + 1, l, by omega, by omega, rfl⟩, hw.v (k + 1) l (by omega) (by omega) (by omega)⟩
  · right
    have e : ((k + 1 : Nat) : Int) + (l + 1 : Nat) * (m.Nx + 1) - (m.Nx + 1) + 1 = ((k + 2 : Nat) : Int) + (l : Nat) * (m.Nx + 1) := by push_cast; ring
    rw [e]; exact ⟨⟨k + 2, l, by omega, by omega, rfl⟩, hw.v (k + 2) l (by omega) (by omega) (by omega)⟩
  · right; exact ⟨⟨k + 1, l + 1, by omega, by omega, rfl⟩, hw.v (k + 1) (l + 1) (by omega) (by omega) hl⟩
  · right
    have e : ((k + 1 : Nat) : Int) + (l + 1 : Nat) * (m.Nx + 1) + 1 = ((k + 2 : Nat) : Int) + (l + 1 : Nat) * (m.Nx + 1) := by push_cast; ring
    rw [e]; exact ⟨⟨k + 2, l + 1, by omega, by omega, rfl⟩, hw.v (k + 2) (l + 1) (by omega) (by omega) hl⟩
  · exact Or.inr ⟨k, l, by omega, by omega, by push_cast; ring⟩
  · exact Or.inr ⟨k + 1, l, by omega, by omega, by push_cast; ring⟩

/-- The row of an unknown Vz node. -/
theorem z_weighted (k l : Nat) (hk0 : 0 < k) (hk : k < m.Nx) (hl0 : 0 < l) (hl : l + 1 < m.Nz) :
    ∀ e ∈ zStencil m k l ++ zStencilP m k l, e.2 = 0 ∨ Weighted m e.1 := by
  obtain ⟨k, rfl⟩ : ∃ j, k = j + 1 := ⟨k - 1, by omega⟩
  obtain ⟨l, rfl⟩ : ∃ j, l = j + 1 := ⟨l - 1, by omega⟩
  have iW : InV m (((k + 1 : Nat) : Int) + (l + 1 : Nat) * (m.Nx + 1) - 1) := ⟨k, l + 1, by omega, by omega, by push_cast; ring⟩
  have iE : InV m (((k + 1 : Nat) : Int) + (l + 1 : Nat) * (m.Nx + 1) + 1) := ⟨k + 2, l + 1, by omega, by omega, by push_cast; ring⟩
  have nW : (m.tv (((k + 1 : Nat) : Int) + (l + 1 : Nat) * (m.Nx + 1) - 1) == -12) = false := beq_eq_false_iff_ne.2 (hw.notPeriodic _ iW)
  have nE : (m.tv (((k + 1 : Nat) : Int) + (l + 1 : Nat) * (m.Nx + 1) + 1) == -12) = false := beq_eq_false_iff_ne.2 (hw.notPeriodic _ iE)
  intro e he
  simp only [zStencil, zStencilP, List.mem_append] at he
  rcases he with ((((((((he | he) | he) | he) | he) | he) | he) | he) | he) | (he | he) <;> rw [mem_guarded he] <;>
    simp only [zIdx, nW, nE, Bool.false_and, Bool.false_eq_true, if_false, Weighted]
  · right
    have e : ((k + 1 : Nat) : Int) + (l + 1 : Nat) * m.Nx - 1 = (k : Int) + (l + 1 : Nat) * m.Nx := by push_cast; ring
    rw [e]; exact ⟨⟨k, l + 1, by omega, by omega, rfl⟩, hw.u k (l + 1) (by omega) (by omega) (by omega)⟩
  · right; exact ⟨⟨k + 1, l + 1, by omega, by omega, rfl⟩, hw.u (k + 1) (l + 1) (by omega) (by omega) (by omega)⟩
  · right
    have e : ((k + 1 : Nat) : Int) + (l + 1 : Nat) * m.Nx + m.Nx - 1 = (k : Int) + (l + 2 : Nat) * m.Nx := by push_cast; ring
    rw [e]; exact ⟨⟨k, l + 2, by omega, by omega, rfl⟩, hw.u k (l + 2) (by omega) (by omega) (by omega)⟩
  · right
    have e : ((k + 1 : Nat) : Int) + (l + 1 : Nat) * m.Nx + m.Nx = ((k + 1 : Nat) : Int) + (l + 2 : Nat) * m.Nx := by push_cast; ring
    rw [e]; exact ⟨⟨k + 1, l + 2, by omega, by omega, rfl⟩, hw.u (k + 1) (l + 2) (by omega) (by omega) (by omega)⟩
  · right
    have e : ((k + 1 : Nat) : Int) + (l + 1 : Nat) * (m.Nx + 1) - (m.Nx + 1) = ((k + 1 : Nat) : Int) + (l : Nat) * (m.Nx + 1) := by push_cast; ring
    rw [e]; exact ⟨⟨k + 1, l, by omega, by omega, rfl⟩, hw.v (k + 1) l (by omega) (by omega) (by omega)⟩
  · by_cases h : m.tv (((k + 1 : Nat) : Int) + (l + 1 : Nat) * (m.Nx + 1) - 1) = 11 ∨ m.tv (((k + 1 : Nat) : Int) + (l + 1 : Nat) * (m.Nx + 1) - 1) = 13
    · left
      have : (zIn m (k + 1 : Nat) (l + 1 : Nat)).RegW = 0 := by
        simp only [zIn, zIdx, nW, Bool.false_and, Bool.false_eq_true, if_false]
        rcases h with h | h <;> rw [h] <;> rfl
      simp only [zCoef, this, mul_zero, zero_mul, zero_div]
    · exact Or.inr ⟨iW, fun q => h (Or.inl q), fun q => h (Or.inr q)⟩
  · right; exact ⟨⟨k + 1, l + 1, by omega, by omega, rfl⟩, hw.v (k + 1) (l + 1) (by omega) (by omega) (by omega)⟩
  · by_cases h : m.tv (((k + 1 : Nat) : Int) + (l + 1 : Nat) * (m.Nx + 1) + 1) = 11 ∨ m.tv (((k + 1 : Nat) : Int) + (l + 1 : Nat) * (m.Nx + 1) + 1) = 13
    · left
      have : (zIn m (k + 1 : Nat) (l + 1 : Nat)).RegE = 0 := by
        simp only [zIn, zIdx, nE, Bool.false_and, Bool.false_eq_true, if_false]
        rcases h with h | h <;> rw [h] <;> rfl
      simp only [zCoef, this, mul_zero, zero_mul, zero_div]
    · exact Or.inr ⟨iE, fun q => h (Or.inl q), fun q => h (Or.inr q)⟩
  · right
    have e : ((k + 1 : Nat) : Int) + (l + 1 : Nat) * (m.Nx + 1) + (m.Nx + 1) = ((k + 1 : Nat) : Int) + (l + 2 : Nat) * (m.Nx + 1) := by push_cast; ring
    rw [e]; exact ⟨⟨k + 1, l + 2, by omega, by omega, rfl⟩, hw.v (k + 1) (l + 2) (by omega) (by omega) (by omega)⟩
  · exact Or.inr ⟨k, l, by omega, by omega, by push_cast; ring⟩
  · exact Or.inr ⟨k, l + 1, by omega, by omega, by push_cast; ring⟩

/-- The volume row of a cell. -/
theorem c_weighted (k l : Nat) (hk : k + 1 < m.Nx) (hl : l + 1 < m.Nz) : ∀ e ∈ cStencil m k l, Weighted m e.1 := by
  intro e he
  simp only [cStencil, List.mem_append] at he
  rcases he with ((he | he) | he) | he <;> rw [mem_guarded he] <;> simp only [Weighted]
  · have e : (k : Int) + ((l : Int) + 1) * m.Nx = (k : Int) + ((l + 1 : Nat) : Int) * m.Nx := by push_cast; ring
    rw [e]; exact ⟨⟨k, l + 1, by omega, by omega, rfl⟩, hw.u k (l + 1) (by omega) (by omega) (by omega)⟩
  · have e : (k : Int) + ((l : Int) + 1) * m.Nx + 1 = ((k + 1 : Nat) : Int) + ((l + 1 : Nat) : Int) * m.Nx := by push_cast; ring
    rw [e]; exact ⟨⟨k + 1, l + 1, by omega, by omega, rfl⟩, hw.u (k + 1) (l + 1) (by omega) (by omega) (by omega)⟩
  · have e : (k : Int) + (l : Int) * (m.Nx + 1) + 1 = ((k + 1 : Nat) : Int) + (l : Int) * (m.Nx + 1) := by push_cast; ring
    rw [e]; exact ⟨⟨k + 1, l, by omega, by omega, rfl⟩, hw.v (k + 1) l (by omega) (by omega) (by omega)⟩
  · have e : (k : Int) + (l : Int) * (m.Nx + 1) + 1 + (m.Nx + 1) = ((k + 1 : Nat) : Int) + ((l + 1 : Nat) : Int) * (m.Nx + 1) := by push_cast; ring
    rw [e]; exact ⟨⟨k + 1, l + 1, by omega, by omega, rfl⟩, hw.v (k + 1) (l + 1) (by omega) (by omega) (by omega)⟩

end

/-- Two fields with the same values where a row has weight. -/
theorem applyTo_congr (f g : SNode → K) (st : List (SNode × K)) (h : ∀ e ∈ st, e.2 = 0 ∨ f e.1 = g e.1) : applyTo f st = applyTo g st := by
  unfold applyTo
  congr 1
  refine List.map_congr_left fun e he => ?_
  rcases h e he with q | q <;> rw [q]
  rw [zero_mul, zero_mul]

/-- A row applied to a field that vanishes outside a set of nodes. -/
theorem applyTo_finset (s : Finset SNode) (x : SNode → K) (st : List (SNode × K)) :
    applyTo (fun n => if n ∈ s then x n else 0) st = ∑ e ∈ s, coeff st e * x e := by
  induction st with
  | nil => simp [applyTo, coeff]
  | cons a st ih =>
    have : applyTo (fun n => if n ∈ s then x n else 0) (a :: st) = a.2 * (if a.1 ∈ s then x a.1 else 0)
        + applyTo (fun n => if n ∈ s then x n else 0) st := by simp [applyTo]
    rw [this, ih]
    simp only [coeff_cons, add_mul, Finset.sum_add_distrib, ite_mul, zero_mul]
    congr 1
    rw [Finset.sum_ite_eq]
    split <;> simp

/-- The cells whose pressure is solved for. -/
def rockNodes (m : SMesh K) : Finset SNode :=
  ((range (m.Nx - 1) ×ˢ range (m.Nz - 1)).filter fun q => m.tp ((q.1 : Int) + q.2 * (m.Nx - 1)) = -1).image
    fun q => SNode.p ((q.1 : Int) + q.2 * (m.Nx - 1))

theorem mem_rock (m : SMesh K) (n : SNode) : n ∈ rockNodes m ↔
    ∃ k l : Nat, n = .p ((k : Int) + l * (m.Nx - 1)) ∧ k + 1 < m.Nx ∧ l + 1 < m.Nz ∧ m.tp ((k : Int) + l * (m.Nx - 1)) = -1 := by
  unfold rockNodes
  simp only [mem_image, mem_filter, mem_product, mem_range, Prod.exists]
  constructor
  · rintro ⟨k, l, ⟨⟨a, b⟩, t⟩, rfl⟩; exact ⟨k, l, rfl, by omega, by omega, t⟩
  · rintro ⟨k, l, rfl, a, b, t⟩; exact ⟨k, l, ⟨⟨by omega, by omega⟩, t⟩, rfl⟩

/-- Pressure gradient in the row of a velocity node, volume row of a cell. -/
def gradRow (m : SMesh K) : SNode → List (SNode × K)
  | .u i => xStencilP m (colOf m.Nx i) (rowOf m.Nx i)
  | .v i => zStencilP m (colOf (m.Nx + 1) i) (rowOf (m.Nx + 1) i)
  | .p _ => []
/-- See `gradRow`. -/
def divRow (m : SMesh K) : SNode → List (SNode × K)
  | .p i => cStencil m (colOf (m.Nx - 1) i) (rowOf (m.Nx - 1) i)
  | _ => []

theorem gradRow_u (m : SMesh K) (k l : Nat) (hk : k < m.Nx) : gradRow m (.u ((k : Int) + l * m.Nx)) = xStencilP m k l := by
  simp only [gradRow]
  rw [colOf_mk _ _ _ (by omega) (by omega), rowOf_mk _ _ _ (by omega) (by omega)]
theorem gradRow_v (m : SMesh K) (k l : Nat) (hk : k ≤ m.Nx) : gradRow m (.v ((k : Int) + l * (m.Nx + 1))) = zStencilP m k l := by
  simp only [gradRow]
  rw [colOf_mk _ _ _ (by omega) (by omega), rowOf_mk _ _ _ (by omega) (by omega)]
theorem divRow_p (m : SMesh K) (k l : Nat) (hk : k + 1 < m.Nx) : divRow m (.p ((k : Int) + l * (m.Nx - 1))) = cStencil m k l := by
  simp only [divRow]
  rw [colOf_mk _ _ _ (by omega) (by omega), rowOf_mk _ _ _ (by omega) (by omega)]

/-- Only pressures in gradient rows, only velocities in volume rows and in viscous rows. -/
theorem rows_kind (m : SMesh K) :
    (∀ k l : Int, ∀ e ∈ xStencilP m k l ++ zStencilP m k l, ∃ i, e.1 = .p i) ∧
    (∀ k l : Int, ∀ e ∈ xStencil m k l ++ zStencil m k l ++ cStencil m k l, ∀ i, e.1 ≠ .p i) := by
  refine ⟨fun k l e he => ?_, fun k l e he i => ?_⟩
  · simp only [xStencilP, zStencilP, List.mem_append] at he
    rcases he with (he | he) | he | he <;> rw [mem_guarded he] <;> exact ⟨_, rfl⟩
  · simp only [xStencil, zStencil, cStencil, List.mem_append, or_assoc] at he
    rcases he with he | he | he | he | he | he | he | he | he | he | he | he | he | he | he | he | he | he | he | he | he | he <;>
      rw [mem_guarded he] <;> simp

/-- A solution of the assembled equations without sources: momentum of every unknown velocity, volume of every rock cell with compressibility `b`. -/
structure NoSource (m : SMesh K) (b : Int → K) (y : SNode → K) : Prop where
  fixed : ∀ n, Weighted m n → m.tag n ≠ -1 → y n = 0
  inner : ∀ n, Weighted m n → m.tag n = -1 → n ∈ velNodes m ∪ rockNodes m
  x : ∀ k l : Nat, 0 < k → k + 1 < m.Nx → 0 < l → l < m.Nz → m.tu ((k : Int) + l * m.Nx) = -1 → applyTo y (xStencil m k l ++ xStencilP m k l) = 0
  z : ∀ k l : Nat, 0 < k → k < m.Nx → 0 < l → l + 1 < m.Nz → m.tv ((k : Int) + l * (m.Nx + 1)) = -1 →
    applyTo y (zStencil m k l ++ zStencilP m k l) = 0
  p : ∀ k l : Nat, k + 1 < m.Nx → l + 1 < m.Nz → m.tp ((k : Int) + l * (m.Nx - 1)) = -1 →
    applyTo y (cStencil m k l) + b ((k : Int) + l * (m.Nx - 1)) * y (.p ((k : Int) + l * (m.Nx - 1))) = 0

/-- Compressibility of the node's cell. -/
def weight (b : Int → K) : SNode → K
  | .p i => b i
  | _ => 0

/-- C152.  **The assembled Stokes system has at most one velocity field as solution**: with walls and viscosities as in C145 and C146, a solution without sources has no
velocities, no pressure in compressible cells, and the same pressure on both sides of every face whose velocity is unknown. -/
theorem stokes_no_source [CharZero K] [IsStrictOrderedRing K] (m : SMesh K) (hv : ViscousIn m) (hw : Walls m) (hs : StableOrOff m)
    (hdx : 0 < m.dx) (hdz : 0 < m.dz) (hr : AllRock m ∨ Terrain m) (b : Int → K)
    (hb : ∀ c, SNode.p c ∈ rockNodes m → 0 ≤ b c) (y : SNode → K) (h : NoSource m b y) :
    (∀ n ∈ velNodes m, y n = 0) ∧ (∀ c, SNode.p c ∈ rockNodes m → b c * y (.p c) = 0)
    ∧ (∀ k l : Nat, k + 2 < m.Nx → l + 1 < m.Nz → m.tu (((k + 1 : Nat) : Int) + (l + 1 : Nat) * m.Nx) = -1 →
      y (.p ((k : Int) + l * (m.Nx - 1))) = y (.p (((k + 1 : Nat) : Int) + l * (m.Nx - 1))))
    ∧ ∀ k l : Nat, k + 1 < m.Nx → l + 2 < m.Nz → m.tv (((k + 1 : Nat) : Int) + (l + 1 : Nat) * (m.Nx + 1)) = -1 →
      y (.p ((k : Int) + l * (m.Nx - 1))) = y (.p ((k : Int) + (l + 1 : Nat) * (m.Nx - 1))) := by
  have hval : ∀ n, Weighted m n → y n = (if n ∈ velNodes m then y n else 0) + (if n ∈ rockNodes m then y n else 0) := by
    intro n hn
    have dis : n ∈ velNodes m → n ∉ rockNodes m := by
      intro h1 h2
      obtain ⟨k, l, rfl, -⟩ := (mem_rock m n).1 h2
      rcases (mem_nodes m _).1 h1 with ⟨_, _, q, -⟩ | ⟨_, _, q, -⟩ <;> simp at q
    by_cases ht : m.tag n = -1
    · rcases mem_union.1 (h.inner n hn ht) with q | q
      · rw [if_pos q, if_neg (dis q), add_zero]
      · rw [if_pos q, if_neg (fun q' => dis q' q), zero_add]
    · rw [h.fixed n hn ht]; simp
  have hkp : ∀ k l : Int, ∀ e ∈ xStencilP m k l ++ zStencilP m k l, e.1 ∉ velNodes m := by
    intro k l e he q
    obtain ⟨i, hi⟩ := (rows_kind m).1 k l e he
    rw [hi] at q
    rcases (mem_nodes m _).1 q with ⟨_, _, q, -⟩ | ⟨_, _, q, -⟩ <;> simp at q
  have hkv : ∀ k l : Int, ∀ e ∈ xStencil m k l ++ zStencil m k l ++ cStencil m k l, e.1 ∉ rockNodes m := by
    intro k l e he q
    obtain ⟨_, _, q, -⟩ := (mem_rock m _).1 q
    exact (rows_kind m).2 k l e he _ q
  have vpart : ∀ st : List (SNode × K), (∀ e ∈ st, e.1 ∉ rockNodes m) → (∀ e ∈ st, e.2 = 0 ∨ Weighted m e.1) →
      applyTo y st = ∑ e ∈ velNodes m, coeff st e * y e := by
    intro st h1 h2
    rw [← applyTo_finset]
    refine applyTo_congr _ _ _ fun e he => ?_
    rcases h2 e he with q | q
    · exact Or.inl q
    · right; rw [hval _ q, if_neg (h1 e he), add_zero]; split <;> rfl
  have ppart : ∀ st : List (SNode × K), (∀ e ∈ st, e.1 ∉ velNodes m) → (∀ e ∈ st, e.2 = 0 ∨ Weighted m e.1) →
      applyTo y st = ∑ e ∈ rockNodes m, coeff st e * y e := by
    intro st h1 h2
    rw [← applyTo_finset]
    refine applyTo_congr _ _ _ fun e he => ?_
    rcases h2 e he with q | q
    · exact Or.inl q
    · right; rw [hval _ q, if_neg (h1 e he), zero_add]; split <;> rfl
  have e1 : ∀ d ∈ velNodes m, ∑ e ∈ velNodes m, coeff (velRow m d) e * y e + ∑ c ∈ rockNodes m, coeff (gradRow m d) c * y c = 0 := by
    intro d hd
    rcases (mem_nodes m d).1 hd with ⟨k, l, rfl, a1, a2, a3, a4, ht⟩ | ⟨k, l, rfl, a1, a2, a3, a4, ht⟩
    · rw [velRow_u m k l (by omega), gradRow_u m k l (by omega)]
      have hwt := x_weighted m hw k l a1 a2 a3 a4 ht
      rw [← vpart _ (fun e he => hkv k l e (by simp [he])) (fun e he => hwt e (by simp [he])),
        ← ppart _ (fun e he => hkp k l e (by simp [he])) (fun e he => hwt e (by simp [he])), ← applyTo_append]
      exact h.x k l a1 a2 a3 a4 ht
    · rw [velRow_v m k l (by omega), gradRow_v m k l (by omega)]
      have hwt := z_weighted m hw k l a1 a2 a3 a4
      rw [← vpart _ (fun e he => hkv k l e (by simp [he])) (fun e he => hwt e (by simp [he])),
        ← ppart _ (fun e he => hkp k l e (by simp [he])) (fun e he => hwt e (by simp [he])), ← applyTo_append]
      exact h.z k l a1 a2 a3 a4 ht
  have e2 : ∀ c ∈ rockNodes m, ∑ e ∈ velNodes m, coeff (divRow m c) e * y e + weight b c * y c = 0 := by
    intro c hc
    obtain ⟨k, l, rfl, a1, a2, ht⟩ := (mem_rock m c).1 hc
    rw [divRow_p m k l a1, ← vpart _ (fun e he => hkv k l e (by simp [he])) (fun e he => Or.inr (c_weighted m hw k l a1 a2 e he))]
    exact h.p k l a1 a2 ht
  have e3 : ∀ d ∈ velNodes m, ∀ c ∈ rockNodes m, coeff (divRow m c) d = -(if m.oop then 3/2 else 1) * coeff (gradRow m d) c := by
    intro d hd c hc
    obtain ⟨k', l', rfl, b1, b2, ht'⟩ := (mem_rock m c).1 hc
    have ip : InP m ((k' : Int) + l' * (m.Nx - 1)) := ⟨k', l', b1, b2, rfl⟩
    rw [divRow_p m k' l' b1, ← c_local m k' l' b1 b2]
    have hp : DivRow (clean m) (.p ((k' : Int) + l' * (m.Nx - 1))) (cStencil (clean m) k' l') :=
      DivRow.c (m := clean m) k' l' (by omega) (by have : (clean m).Nx = m.Nx := rfl; omega) (by rw [← ht']; exact (clean_p m _ ip).1)
    have np : ∀ i, (clean m).tv i ≠ -12 := hw.closed.clean.notPeriodic
    have gen := fun gd hg => gradient_is_minus_divergence_transpose (clean m) np d _ gd _ hg hp
    rcases (mem_nodes m d).1 hd with ⟨k, l, rfl, a1, a2, a3, a4, ht⟩ | ⟨k, l, rfl, a1, a2, a3, a4, ht⟩
    · rw [gradRow_u m k l (by omega), ← (x_local m k l a1 a2 a3 a4 ht).2]
      exact gen _ (GradRow.x (m := clean m) k l (by omega) (by have : (clean m).Nx = m.Nx := rfl; omega)
        (by rw [← ht]; exact clean_u m _ ⟨k, l, by omega, by omega, rfl⟩))
    · rw [gradRow_v m k l (by omega), ← (z_local m hw.notPeriodic k l a1 a2 a3 a4).2]
      exact gen _ (GradRow.z (m := clean m) k l (by omega) (by have : (clean m).Nx = m.Nx := rfl; omega) (by omega)
        (by have : (clean m).Nz = m.Nz := rfl; omega)
        (by rw [← ht]; exact clean_v m _ ⟨k, l, by omega, by omega, rfl⟩))
  have e4 : (if m.oop then 3/2 else 1) * viscousWork m y = -∑ c ∈ rockNodes m, weight b c * y c ^ 2 := by
    have f1 : viscousWork m y = -∑ d ∈ velNodes m, ∑ c ∈ rockNodes m, y d * coeff (gradRow m d) c * y c := by
      unfold viscousWork
      rw [← Finset.sum_neg_distrib]
      refine Finset.sum_congr rfl fun d hd => ?_
      have := e1 d hd
      have g1 : ∑ e ∈ velNodes m, y d * coeff (velRow m d) e * y e = y d * ∑ e ∈ velNodes m, coeff (velRow m d) e * y e := by
        rw [Finset.mul_sum]; exact Finset.sum_congr rfl fun e _ => by ring
      have g2 : ∑ c ∈ rockNodes m, y d * coeff (gradRow m d) c * y c = y d * ∑ c ∈ rockNodes m, coeff (gradRow m d) c * y c := by
        rw [Finset.mul_sum]; exact Finset.sum_congr rfl fun e _ => by ring
      rw [g1, g2, eq_neg_of_add_eq_zero_left this]; ring
    have f2 : ∑ c ∈ rockNodes m, weight b c * y c ^ 2 = -∑ c ∈ rockNodes m, ∑ d ∈ velNodes m, coeff (divRow m c) d * y d * y c := by
      rw [← Finset.sum_neg_distrib]
      refine Finset.sum_congr rfl fun c hc => ?_
      rw [← Finset.sum_mul]
      have := e2 c hc
      rw [eq_neg_of_add_eq_zero_left this]; ring
    rw [f1, f2, Finset.sum_comm, mul_neg, neg_neg, ← neg_mul, Finset.mul_sum]
    refine Finset.sum_congr rfl fun c hc => ?_
    rw [Finset.mul_sum]
    refine Finset.sum_congr rfl fun d hd => ?_
    rw [e3 d hd c hc]; ring
  have hw0 := work_in hv hw.closed hs hdx hdz y
  have hpos : (0 : K) < if m.oop then 3/2 else 1 := by split <;> norm_num
  have hwt : ∀ c ∈ rockNodes m, 0 ≤ weight b c := by
    intro c hc
    cases c with
    | p i => exact hb i hc
    | _ => exact le_refl _
  have hsum : 0 ≤ ∑ c ∈ rockNodes m, weight b c * y c ^ 2 := Finset.sum_nonneg fun c hc => mul_nonneg (hwt c hc) (sq_nonneg _)
  have hz : viscousWork m y = 0 := by
    have := mul_nonneg hpos.le hw0.1
    have h0 : (if m.oop then 3/2 else 1) * viscousWork m y = 0 := le_antisymm (by rw [e4]; linarith) this
    exact (mul_eq_zero.1 h0).resolve_left hpos.ne'
  have hcomp : ∀ c ∈ rockNodes m, weight b c * y c = 0 := by
    intro c hc
    rw [hz, mul_zero] at e4
    have h0 : ∑ c ∈ rockNodes m, weight b c * y c ^ 2 = 0 := by linarith
    have := (Finset.sum_eq_zero_iff_of_nonneg fun c hc => mul_nonneg (hwt c hc) (sq_nonneg (y c))).1 h0 _ hc
    rcases mul_eq_zero.1 this with q | q
    · rw [q, zero_mul]
    · rw [pow_eq_zero_iff (by norm_num) |>.1 q, mul_zero]
  have hvel := hw0.2 hr (Or.inr fun k l hk hl r => by
    have hc : SNode.p ((k : Int) + l * (m.Nx - 1)) ∈ rockNodes m := (mem_rock m _).2 ⟨k, l, rfl, hk, hl, r⟩
    have := e2 _ hc
    rw [hcomp _ hc, add_zero, divRow_p m k l hk] at this
    exact this) hz
  have hgrad : ∀ d ∈ velNodes m, applyTo y (gradRow m d) = 0 := by
    intro d hd
    rcases (mem_nodes m d).1 hd with ⟨k, l, rfl, a1, a2, a3, a4, ht⟩ | ⟨k, l, rfl, a1, a2, a3, a4, ht⟩
    · rw [gradRow_u m k l (by omega)]
      have hwt := x_weighted m hw k l a1 a2 a3 a4 ht
      have := h.x k l a1 a2 a3 a4 ht
      rw [applyTo_append, vpart _ (fun e he => hkv k l e (by simp [he])) (fun e he => hwt e (by simp [he])),
        Finset.sum_eq_zero (fun e he => by rw [hvel e he, mul_zero]), zero_add] at this
      exact this
    · rw [gradRow_v m k l (by omega)]
      have hwt := z_weighted m hw k l a1 a2 a3 a4
      have := h.z k l a1 a2 a3 a4 ht
      rw [applyTo_append, vpart _ (fun e he => hkv k l e (by simp [he])) (fun e he => hwt e (by simp [he])),
        Finset.sum_eq_zero (fun e he => by rw [hvel e he, mul_zero]), zero_add] at this
      exact this
  have h6 : (6 : K) ≠ 0 := by norm_num
  have hair : ∀ c (a : K), InP m c → (if (m.tp c != 30) = true then a * y (.p c) else 0) = a * y (.p c) := by
    intro c a hc
    by_cases q : m.tp c = 30
    · rw [h.fixed (.p c) hc (by show m.tp c ≠ -1; rw [q]; decide)]; simp
    · rw [if_pos (by simpa using q)]
  refine ⟨hvel, fun c hc => ?_, fun k l hk hl ht => ?_, fun k l hk hl ht => ?_⟩
  rotate_left
  · have hd : SNode.u (((k + 1 : Nat) : Int) + (l + 1 : Nat) * m.Nx) ∈ velNodes m :=
      (mem_nodes m _).2 (Or.inl ⟨k + 1, l + 1, rfl, by omega, by omega, by omega, by omega, ht⟩)
    have := hgrad _ hd
    rw [gradRow_u m (k + 1) (l + 1) (by omega)] at this
    have hper : (m.tu (((k + 1 : Nat) : Int) + (l + 1 : Nat) * (m.Nx : Int)) == -2) = false := by rw [ht]; rfl
    have r := xIn_reg m ((k + 1 : Nat) : Int) ((l + 1 : Nat) : Int) (by omega) (by omega)
    obtain ⟨-, -, -, -, -, -, -, -, x1, x2⟩ := xCoef_off (xIn m (k + 1 : Nat) (l + 1 : Nat)) h6 r.1 r.2
    have d1 : decide (((k + 1 : Nat) : Int) > 0) = true := by simp
    have d2 : decide (((k + 1 : Nat) : Int) < (m.Nx : Int) - 1) = true := by simp; omega
    simp only [xStencilP, applyTo_append, applyTo_guarded, x1, x2, xIdx, hper, Bool.false_eq_true, if_false, d1, d2, Bool.true_or, Bool.and_true] at this
    have i1 : ((k + 1 : Nat) : Int) - 1 + (((l + 1 : Nat) : Int) - 1) * ((m.Nx : Int) - 1) = (k : Int) + l * (m.Nx - 1) := by push_cast; ring
    have i2 : ((k + 1 : Nat) : Int) - 1 + (((l + 1 : Nat) : Int) - 1) * ((m.Nx : Int) - 1) + 1 = ((k + 1 : Nat) : Int) + l * (m.Nx - 1) := by push_cast; ring
    rw [i2, i1, hair _ _ ⟨k, l, by omega, by omega, rfl⟩, hair _ _ ⟨k + 1, l, by omega, by omega, rfl⟩] at this
    have e0 : (xIn m (k + 1 : Nat) (l + 1 : Nat)).dx = m.dx := rfl
    rw [e0] at this
    have hne := hdx.ne'
    field_simp at this
    rcases mul_eq_zero.1 this with q | q
    · exact absurd q hdz.ne'
    · linarith
  · have hd : SNode.v (((k + 1 : Nat) : Int) + (l + 1 : Nat) * (m.Nx + 1)) ∈ velNodes m :=
      (mem_nodes m _).2 (Or.inr ⟨k + 1, l + 1, rfl, by omega, by omega, by omega, by omega, ht⟩)
    have := hgrad _ hd
    rw [gradRow_v m (k + 1) (l + 1) (by omega)] at this
    have r := zIn_reg m ((k + 1 : Nat) : Int) ((l + 1 : Nat) : Int) (by omega) (by omega)
    obtain ⟨-, -, -, -, -, -, -, -, x1, x2⟩ := zCoef_off (zIn m (k + 1 : Nat) (l + 1 : Nat)) h6 r.1 r.2
    have d1 : decide (((l + 1 : Nat) : Int) > 0) = true := by simp
    have d2 : decide (((l + 1 : Nat) : Int) < (m.Nz : Int) - 1) = true := by simp; omega
    simp only [zStencilP, applyTo_append, applyTo_guarded, x1, x2, zIdx, d1, d2, Bool.and_true] at this
    have i1 : ((k + 1 : Nat) : Int) - 1 + (((l + 1 : Nat) : Int) - 1) * ((m.Nx : Int) - 1) = (k : Int) + l * (m.Nx - 1) := by push_cast; ring
    have i2 : ((k + 1 : Nat) : Int) - 1 + (((l + 1 : Nat) : Int) - 1) * ((m.Nx : Int) - 1) + ((m.Nx : Int) - 1) = (k : Int) + (l + 1 : Nat) * (m.Nx - 1) := by
      push_cast; ring
    rw [i2, i1, hair _ _ ⟨k, l, by omega, by omega, rfl⟩, hair _ _ ⟨k, l + 1, by omega, by omega, rfl⟩] at this
    have e0 : (zIn m (k + 1 : Nat) (l + 1 : Nat)).dz = m.dz := rfl
    rw [e0] at this
    have hne := hdz.ne'
    field_simp at this
    rcases mul_eq_zero.1 this with q | q
    · exact absurd q hdx.ne'
    · linarith
  exact hcomp _ hc

/-- Cells whose pressure the equations tie down: air, compressible cells, and cells next to such a cell across a face whose velocity is unknown. -/
inductive Grounded (m : SMesh K) (b : Int → K) : Nat → Nat → Prop
  | air (k l : Nat) (ht : m.tp ((k : Int) + l * (m.Nx - 1)) ≠ -1) : Grounded m b k l
  | compressible (k l : Nat) (hb : b ((k : Int) + l * (m.Nx - 1)) ≠ 0) : Grounded m b k l
  | east (k l : Nat) (hk : k + 2 < m.Nx) (hl : l + 1 < m.Nz) (ht : m.tu (((k + 1 : Nat) : Int) + (l + 1 : Nat) * m.Nx) = -1)
      (h : Grounded m b (k + 1) l) : Grounded m b k l
  | west (k l : Nat) (hk : k + 2 < m.Nx) (hl : l + 1 < m.Nz) (ht : m.tu (((k + 1 : Nat) : Int) + (l + 1 : Nat) * m.Nx) = -1)
      (h : Grounded m b k l) : Grounded m b (k + 1) l
  | north (k l : Nat) (hk : k + 1 < m.Nx) (hl : l + 2 < m.Nz) (ht : m.tv (((k + 1 : Nat) : Int) + (l + 1 : Nat) * (m.Nx + 1)) = -1)
      (h : Grounded m b k (l + 1)) : Grounded m b k l
  | south (k l : Nat) (hk : k + 1 < m.Nx) (hl : l + 2 < m.Nz) (ht : m.tv (((k + 1 : Nat) : Int) + (l + 1 : Nat) * (m.Nx + 1)) = -1)
      (h : Grounded m b k l) : Grounded m b k (l + 1)

/-- C152.  A solution without sources has no pressure in grounded cells. -/
theorem pressure_no_source [CharZero K] [IsStrictOrderedRing K] (m : SMesh K) (hv : ViscousIn m) (hw : Walls m) (hs : StableOrOff m)
    (hdx : 0 < m.dx) (hdz : 0 < m.dz) (hr : AllRock m ∨ Terrain m) (b : Int → K)
    (hb : ∀ c, SNode.p c ∈ rockNodes m → 0 ≤ b c) (y : SNode → K) (h : NoSource m b y) (k l : Nat) (hg : Grounded m b k l) :
    k + 1 < m.Nx → l + 1 < m.Nz → y (.p ((k : Int) + l * (m.Nx - 1))) = 0 := by
  obtain ⟨-, h2, h3, h4⟩ := stokes_no_source m hv hw hs hdx hdz hr b hb y h
  induction hg with
  | air k l ht => intro hk hl; exact h.fixed _ ⟨k, l, hk, hl, rfl⟩ ht
  | compressible k l hb =>
    intro hk hl
    by_cases ht : m.tp ((k : Int) + l * (m.Nx - 1)) = -1
    · exact (mul_eq_zero.1 (h2 _ ((mem_rock m _).2 ⟨k, l, rfl, hk, hl, ht⟩))).resolve_left hb
    · exact h.fixed _ ⟨k, l, hk, hl, rfl⟩ ht
  | east k l hk hl ht _ ih => intro _ _; rw [h3 k l hk hl ht]; exact ih (by omega) hl
  | west k l hk hl ht _ ih => intro _ _; rw [← h3 k l hk hl ht]; exact ih (by omega) hl
  | north k l hk hl ht _ ih => intro _ _; rw [h4 k l hk hl ht]; exact ih hk (by omega)
  | south k l hk hl ht _ ih => intro _ _; rw [← h4 k l hk hl ht]; exact ih hk (by omega)

/-- The assembled equation of an unknown, applied to a field: momentum of a velocity, volume of a cell. -/
def stokesRow (m : SMesh K) (b : Int → K) (y : SNode → K) (n : SNode) : K :=
  applyTo y (velRow m n ++ gradRow m n ++ divRow m n) + weight b n * y n

private theorem row_add (m : SMesh K) (b : Int → K) (y z : SNode → K) (n : SNode) :
    stokesRow m b (fun n => y n + z n) n = stokesRow m b y n + stokesRow m b z n := by
  have : ∀ st : List (SNode × K), applyTo (fun n => y n + z n) st = applyTo y st + applyTo z st := by
    intro st
    induction st with
    | nil => simp [applyTo]
    | cons a st ih => simp only [applyTo, List.map_cons, List.sum_cons] at ih ⊢; rw [ih]; ring
  unfold stokesRow
  rw [this]; ring

private theorem row_smul (m : SMesh K) (b : Int → K) (a : K) (y : SNode → K) (n : SNode) :
    stokesRow m b (fun n => a * y n) n = a * stokesRow m b y n := by
  have : ∀ st : List (SNode × K), applyTo (fun n => a * y n) st = a * applyTo y st := by
    intro st
    induction st with
    | nil => simp [applyTo]
    | cons c st ih => simp only [applyTo, List.map_cons, List.sum_cons] at ih ⊢; rw [ih]; ring
  unfold stokesRow
  rw [this]; ring

/-- C152.  **The assembled Stokes system has exactly one solution** for every right-hand side: velocities and pressures, if every rock cell is grounded. -/
theorem stokes_solvable [CharZero K] [IsStrictOrderedRing K] (m : SMesh K) (hv : ViscousIn m) (hw : Walls m) (hs : StableOrOff m)
    (hdx : 0 < m.dx) (hdz : 0 < m.dz) (hr : AllRock m ∨ Terrain m) (b : Int → K)
    (hb : ∀ c, SNode.p c ∈ rockNodes m → 0 ≤ b c) (hin : ∀ n, Weighted m n → m.tag n = -1 → n ∈ velNodes m ∪ rockNodes m)
    (hg : ∀ k l : Nat, k + 1 < m.Nx → l + 1 < m.Nz → Grounded m b k l) (R : SNode → K) :
    ∃! y : SNode → K, (∀ n ∉ velNodes m ∪ rockNodes m, y n = 0) ∧ ∀ n ∈ velNodes m ∪ rockNodes m, stokesRow m b y n = R n := by
  let s := velNodes m ∪ rockNodes m
  have htag : ∀ n ∈ s, m.tag n = -1 := by
    intro n hn
    rcases mem_union.1 hn with q | q
    · rcases (mem_nodes m n).1 q with ⟨k, l, rfl, -, -, -, -, ht⟩ | ⟨k, l, rfl, -, -, -, -, ht⟩ <;> exact ht
    · obtain ⟨k, l, rfl, -, -, ht⟩ := (mem_rock m n).1 q; exact ht
  have zero : ∀ y : SNode → K, (∀ n ∉ s, y n = 0) → (∀ n ∈ s, stokesRow m b y n = 0) → ∀ n, y n = 0 := by
    intro y h1 h2
    have hN : NoSource m b y := by
      refine ⟨fun n _ ht => h1 n fun q => ht (htag n q), hin, fun k l k0 hk l0 hl ht => ?_, fun k l k0 hk l0 hl ht => ?_, fun k l hk hl ht => ?_⟩
      · have := h2 (.u ((k : Int) + l * m.Nx)) (mem_union_left _ ((mem_nodes m _).2 (Or.inl ⟨k, l, rfl, k0, hk, l0, hl, ht⟩)))
        simpa only [stokesRow, velRow_u m k l (by omega : k < m.Nx), gradRow_u m k l (by omega : k < m.Nx), divRow, List.append_nil, weight, zero_mul, add_zero] using this
      · have := h2 (.v ((k : Int) + l * (m.Nx + 1))) (mem_union_left _ ((mem_nodes m _).2 (Or.inr ⟨k, l, rfl, k0, hk, l0, hl, ht⟩)))
        simpa only [stokesRow, velRow_v m k l (by omega : k ≤ m.Nx), gradRow_v m k l (by omega : k ≤ m.Nx), divRow, List.append_nil, weight, zero_mul, add_zero] using this
      · have := h2 (.p ((k : Int) + l * (m.Nx - 1))) (mem_union_right _ ((mem_rock m _).2 ⟨k, l, rfl, hk, hl, ht⟩))
        simpa only [stokesRow, velRow, gradRow, divRow_p m k l hk, List.nil_append, weight] using this
    intro n
    by_cases hn : n ∈ s
    · rcases mem_union.1 hn with q | q
      · exact (stokes_no_source m hv hw hs hdx hdz hr b hb y hN).1 n q
      · obtain ⟨k, l, rfl, hk, hl, -⟩ := (mem_rock m n).1 q
        exact pressure_no_source m hv hw hs hdx hdz hr b hb y hN k l (hg k l hk hl) hk hl
    · exact h1 n hn
  let ext : (s → K) → SNode → K := fun y n => if h : n ∈ s then y ⟨n, h⟩ else 0
  have ext_add : ∀ y z, ext (y + z) = fun n => ext y n + ext z n := by
    intro y z; funext n; simp only [ext]; split <;> simp
  have ext_smul : ∀ (a : K) y, ext (a • y) = fun n => a * ext y n := by
    intro a y; funext n; simp only [ext]; split <;> simp
  let T : (s → K) →ₗ[K] (s → K) :=
    { toFun := fun y n => stokesRow m b (ext y) n
      map_add' := fun y z => by funext n; rw [ext_add, row_add]; rfl
      map_smul' := fun a y => by funext n; rw [ext_smul, row_smul]; rfl }
  have hinj : Function.Injective T := by
    rw [← LinearMap.ker_eq_bot, LinearMap.ker_eq_bot']
    intro y hy
    funext n
    have := zero (ext y) (fun n hn => dif_neg hn) (fun n hn => congrFun hy ⟨n, hn⟩) n
    simp only [ext, dif_pos n.2] at this
    exact this
  obtain ⟨y, hy⟩ := LinearMap.injective_iff_surjective.1 hinj fun n => R n
  refine ⟨ext y, ⟨fun n hn => dif_neg hn, fun n hn => congrFun hy ⟨n, hn⟩⟩, fun z ⟨z1, z2⟩ => ?_⟩
  have h0 := zero (fun n => z n + -1 * ext y n) (fun n hn => by rw [z1 n hn]; simp only [ext]; rw [dif_neg hn]; ring) (fun n hn => by
    rw [row_add, row_smul, z2 n hn, show stokesRow m b (ext y) n = R n from congrFun hy ⟨n, hn⟩]; ring)
  funext n
  have := h0 n
  linear_combination this

end Verif
