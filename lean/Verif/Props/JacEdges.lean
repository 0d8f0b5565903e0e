import Verif.Model.JacRows
import Mathlib.Tactic.Ring
import Mathlib.Tactic.Linarith
import Mathlib.Tactic.NormNum
import Mathlib.Algebra.Order.Field.Basic

/-!
C119: weights, stabilised diagonal and periodic neighbours of the rows of the Newton matrix.
-/
namespace Verif.JacRow
open Verif

variable {K : Type*} [Field K] [LinearOrder K] [IsStrictOrderedRing K]

theorem flag_cases (b : Bool) : (flag b : K) = 0 ∨ (flag b : K) = 1 := by cases b <;> simp [flag]

/-- The weight of an average of four flags is one over their number. -/
theorem jw_count (a b c d : K) (ha : a = 0 ∨ a = 1) (hb : b = 0 ∨ b = 1) (hc : c = 0 ∨ c = 1) (hd : d = 0 ∨ d = 1)
    (h : a + b + c + d ≠ 0) : jw (a + b + c + d) * (a + b + c + d) = 1 := by
  have hz : (0 : K) < 1 := one_pos
  have hcases : a + b + c + d = 1 ∨ 1 < a + b + c + d := by
    rcases ha with rfl | rfl <;> rcases hb with rfl | rfl <;> rcases hc with rfl | rfl <;> rcases hd with rfl | rfl <;>
      first
        | exact absurd (by ring1) h
        | exact Or.inl (by ring1)
        | exact Or.inr (by linarith)
  unfold jw
  rcases hcases with h1 | h1
  · rw [h1]; simp
  · rw [if_pos h1, one_div, inv_mul_cancel₀ h]

/-- At each of the two vertices of an x-row the four cells around it that hold rock are averaged with equal weights that sum to
one. -/
theorem x_weights (m : JMesh K) (k l : Int) :
    let i := xjIn m k l
    (i.inW + i.inE + i.inSWc + i.inSEc ≠ 0 → i.wS * (i.inW + i.inE + i.inSWc + i.inSEc) = 1)
    ∧ (i.inW + i.inE + i.inNWc + i.inNEc ≠ 0 → i.wN * (i.inW + i.inE + i.inNWc + i.inNEc) = 1) := by
  intro i
  exact ⟨fun h => jw_count _ _ _ _ (flag_cases _) (flag_cases _) (flag_cases _) (flag_cases _) h,
    fun h => jw_count _ _ _ _ (flag_cases _) (flag_cases _) (flag_cases _) (flag_cases _) h⟩

/-- The same for a z-row. -/
theorem z_weights (m : JMesh K) (k l : Int) :
    let i := zjIn m k l
    (i.inN + i.inS + i.inNEc + i.inSEc ≠ 0 → i.wE * (i.inN + i.inS + i.inNEc + i.inSEc) = 1)
    ∧ (i.inN + i.inS + i.inNWc + i.inSWc ≠ 0 → i.wW * (i.inN + i.inS + i.inNWc + i.inSWc) = 1) := by
  intro i
  exact ⟨fun h => jw_count _ _ _ _ (flag_cases _) (flag_cases _) (flag_cases _) (flag_cases _) h,
    fun h => jw_count _ _ _ _ (flag_cases _) (flag_cases _) (flag_cases _) (flag_cases _) h⟩

/-- Stabilisation of the free surface never makes a positive diagonal of an x-row zero or negative; it is added in full where the
diagonal stays positive, and is absent when switched off. -/
theorem x_corr (m : SMesh K) (k l : Int) (uC : K) :
    let full := m.theta * m.dt * m.gx (k + l * m.Nx)
      * ((m.rho (k + (l - 1) * ((m.Nx : Int) - 1)) - m.rho (k - 1 + (l - 1) * ((m.Nx : Int) - 1))) / m.dx)
    (0 < uC → 0 < uC + xjCorr m k l uC) ∧ (m.stab = true → 0 < uC + full → xjCorr m k l uC = full)
      ∧ (m.stab = false → xjCorr m k l uC = 0) := by
  intro full
  have hi : k - 1 + (l - 1) * ((m.Nx : Int) - 1) + 1 = k + (l - 1) * ((m.Nx : Int) - 1) := by ring
  have hx : xjCorr m k l uC = if m.stab then (if uC + full > 0 then full else 0) else 0 := by
    unfold xjCorr
    simp only [hi, mul_one_div]
    rfl
  rw [hx]
  refine ⟨?_, ?_, ?_⟩
  · intro h
    split
    · split
      · assumption
      · simpa using h
    · simpa using h
  · intro h1 h2
    rw [if_pos h1, if_pos h2]
  · intro h1
    simp [h1]

/-- The same for a z-row, where the diagonal may become zero. -/
theorem z_corr (m : SMesh K) (k l : Int) (vC : K) :
    let full := m.theta * m.dt * m.gz (k + l * ((m.Nx : Int) + 1))
      * ((m.rho (k - 1 + l * ((m.Nx : Int) - 1)) - m.rho (k - 1 + (l - 1) * ((m.Nx : Int) - 1))) / m.dz)
    (0 ≤ vC → 0 ≤ vC + zjCorr m k l vC) ∧ (m.stab = true → 0 ≤ vC + full → zjCorr m k l vC = full)
      ∧ (m.stab = false → zjCorr m k l vC = 0) := by
  intro full
  have hi : k - 1 + (l - 1) * ((m.Nx : Int) - 1) + ((m.Nx : Int) - 1) = k - 1 + l * ((m.Nx : Int) - 1) := by ring
  have hx : zjCorr m k l vC = if m.stab then (if vC + full < 0 then 0 else full) else 0 := by
    unfold zjCorr
    simp only [hi, mul_one_div]
    rfl
  rw [hx]
  refine ⟨?_, ?_, ?_⟩
  · intro h
    split
    · split
      · simpa using h
      · next h2 => exact not_lt.1 h2
    · simpa using h
  · intro h1 h2
    rw [if_pos h1, if_neg (not_lt.2 h2)]
  · intro h1
    simp [h1]

/-- Periodic sides, row of a `u` node on the west side: the neighbours in the west are those of the last column before the east
side, `Nx - 2` for `u` nodes and cells, `Nx - 1` for `v` nodes, in the same rows as usual. -/
theorem x_periodic (m : SMesh K) (l : Int) (h : m.tu (0 + l * m.Nx) = -2) :
    let i := xjIdx m 0 l
    i.C = l * m.Nx ∧ i.W = (m.Nx : Int) - 2 + l * m.Nx ∧ i.SW = (m.Nx : Int) - 2 + (l - 1) * m.Nx
    ∧ i.NW = (m.Nx : Int) - 2 + (l + 1) * m.Nx
    ∧ i.vSW = (m.Nx : Int) - 1 + (l - 1) * (m.Nx + 1) ∧ i.vNW = (m.Nx : Int) - 1 + l * (m.Nx + 1)
    ∧ i.vSWW = (m.Nx : Int) - 2 + (l - 1) * (m.Nx + 1) ∧ i.vNWW = (m.Nx : Int) - 2 + l * (m.Nx + 1)
    ∧ i.vSSW = (m.Nx : Int) - 1 + (l - 2) * (m.Nx + 1) ∧ i.vNNW = (m.Nx : Int) - 1 + (l + 1) * (m.Nx + 1)
    ∧ i.pW = (m.Nx : Int) - 2 + (l - 1) * (m.Nx - 1) ∧ i.pSW = (m.Nx : Int) - 2 + (l - 2) * (m.Nx - 1)
    ∧ i.pNW = (m.Nx : Int) - 2 + l * (m.Nx - 1) ∧ i.E = 1 + l * m.Nx ∧ i.pE = (l - 1) * (m.Nx - 1) := by
  have hb : (m.tu (0 + l * m.Nx) == -2) = true := by rw [h]; rfl
  intro i
  simp only [i, xjIdx, hb, if_true]
  refine ⟨?_, ?_, ?_, ?_, ?_, ?_, ?_, ?_, ?_, ?_, ?_, ?_, ?_, ?_, ?_⟩ <;> ring

/-- Periodic sides, rows of `v` nodes next to the sides: the neighbours beyond the side are those next to the other side. -/
theorem z_periodic (m : SMesh K) (l : Int) (hx : 3 ≤ m.Nx) :
    (m.tv (1 + l * ((m.Nx : Int) + 1) - 1) = -12 →
      let i := zjIdx m 1 l
      i.W = (m.Nx : Int) - 1 + l * (m.Nx + 1) ∧ i.SW = (m.Nx : Int) - 1 + (l - 1) * (m.Nx + 1)
      ∧ i.NW = (m.Nx : Int) - 1 + (l + 1) * (m.Nx + 1)
      ∧ i.uNWW = (m.Nx : Int) - 2 + (l + 1) * m.Nx ∧ i.uSWW = (m.Nx : Int) - 2 + l * m.Nx
      ∧ i.pSW = (m.Nx : Int) - 2 + (l - 1) * (m.Nx - 1) ∧ i.pNW = (m.Nx : Int) - 2 + l * (m.Nx - 1))
    ∧ (m.tv ((m.Nx : Int) - 1 + l * ((m.Nx : Int) + 1) + 1) = -12 →
      let i := zjIdx m ((m.Nx : Int) - 1) l
      i.E = 1 + l * (m.Nx + 1) ∧ i.SE = 1 + (l - 1) * (m.Nx + 1) ∧ i.NE = 1 + (l + 1) * (m.Nx + 1)
      ∧ i.uNEE = 1 + (l + 1) * m.Nx ∧ i.uSEE = 1 + l * m.Nx
      ∧ i.pSE = (l - 1) * (m.Nx - 1) ∧ i.pNE = l * ((m.Nx : Int) - 1)) := by
  constructor
  · intro h
    have hb : ((1 : Int) == 1 && m.tv (1 + l * ((m.Nx : Int) + 1) - 1) == -12) = true := by rw [h]; rfl
    intro i
    simp only [i, zjIdx, hb, if_true]
    refine ⟨?_, ?_, ?_, ?_, ?_, ?_, ?_⟩ <;> ring
  · intro h
    have hb : (((m.Nx : Int) - 1 == (m.Nx : Int) - 1) && m.tv ((m.Nx : Int) - 1 + l * ((m.Nx : Int) + 1) + 1) == -12) = true := by
      rw [h]; simp
    intro i
    simp only [i, zjIdx, hb, if_true]
    refine ⟨?_, ?_, ?_, ?_, ?_, ?_, ?_⟩ <;> ring

end Verif.JacRow
