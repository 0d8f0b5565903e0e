import Verif.Spec.NewtonRow
import Verif.Props.JacRows
import Verif.Props.JacStates
import Mathlib.Analysis.Calculus.Deriv.Add
import Mathlib.Analysis.Calculus.Deriv.Mul
import Mathlib.Tactic.NormNum
import Mathlib.Tactic.Ring
import Mathlib.Tactic.FieldSimp

/- Indices and tags around inner nodes. -/
namespace Verif.JacRow
open Verif Verif.Tan Verif.Spec Verif.Spec.Newton

variable {m : JMesh ℝ} {k l : Int}

/-- Indices around an inner node. -/
theorem xjIdx_inner (h : InnerX m k l) : xjIdx m.toSMesh k l =
    { C := k + l * m.Nx
      W := k - 1 + l * m.Nx
      E := k + 1 + l * m.Nx
      S := k + (l - 1) * m.Nx
      N := k + (l + 1) * m.Nx
      SW := k - 1 + (l - 1) * m.Nx
      SE := k + 1 + (l - 1) * m.Nx
      NW := k - 1 + (l + 1) * m.Nx
      NE := k + 1 + (l + 1) * m.Nx
      vSW := k + (l - 1) * (m.Nx + 1)
      vSE := k + 1 + (l - 1) * (m.Nx + 1)
      vNW := k + l * (m.Nx + 1)
      vNE := k + 1 + l * (m.Nx + 1)
      vSWW := k - 1 + (l - 1) * (m.Nx + 1)
      vSEE := k + 2 + (l - 1) * (m.Nx + 1)
      vNWW := k - 1 + l * (m.Nx + 1)
      vNEE := k + 2 + l * (m.Nx + 1)
      vNNW := k + (l + 1) * (m.Nx + 1)
      vSSW := k + (l - 2) * (m.Nx + 1)
      vNNE := k + 1 + (l + 1) * (m.Nx + 1)
      vSSE := k + 1 + (l - 2) * (m.Nx + 1)
      pW := k - 1 + (l - 1) * (m.Nx - 1)
      pE := k + (l - 1) * (m.Nx - 1)
      pSW := k - 1 + (l - 2) * (m.Nx - 1)
      pSE := k + (l - 2) * (m.Nx - 1)
      pNW := k - 1 + l * (m.Nx - 1)
      pNE := k + l * (m.Nx - 1)
      gN := k + l * m.Nx
      gS := k + (l - 1) * m.Nx
      gSW := k - 1 + (l - 1) * m.Nx
      gSE := k + 1 + (l - 1) * m.Nx
      gNW := k - 1 + l * m.Nx
      gNE := k + 1 + l * m.Nx } := by
  have hC : m.tu (k + l * m.Nx) = -1 := by simpa using h.u 0 0 (by norm_num) (by norm_num) (by norm_num) (by norm_num)
  have hw : m.tv (k + l * (m.Nx + 1) - (m.Nx + 1) - 1) = -1 := by
    rw [← h.v (-1) (-1) (by norm_num) (by norm_num) (by norm_num) (by norm_num)]; congr 1; ring
  have hw2 : m.tv (k + l * (m.Nx + 1) - 1) = -1 := by
    rw [← h.v (-1) 0 (by norm_num) (by norm_num) (by norm_num) (by norm_num)]; congr 1; ring
  have he : m.tv (k + l * (m.Nx + 1) - (m.Nx + 1) + 1 + 1) = -1 := by
    rw [← h.v 2 (-1) (by norm_num) (by norm_num) (by norm_num) (by norm_num)]; congr 1; ring
  have he2 : m.tv (k + l * (m.Nx + 1) + 1 + 1) = -1 := by
    rw [← h.v 2 0 (by norm_num) (by norm_num) (by norm_num) (by norm_num)]; congr 1; ring
  have hk := h.k0
  have hk1 := h.k1
  simp only [xjIdx, hC, hw, hw2, he, he2, show ((-1 : Int) == -2) = false from rfl, Bool.false_eq_true, if_false,
    show ¬ ((-1 : Int) = -12) by decide, and_false, if_neg (show ¬ k = 0 by omega), if_neg (show ¬ k = m.Nx - 1 by omega)]
  congr 1 <;> ring

/-- Tags around an inner node. -/
theorem x_tags (h : InnerX m k l) :
    let i := xjIdx m.toSMesh k l
    m.tu i.C = -1 ∧ m.tu i.W = -1 ∧ m.tu i.E = -1 ∧ m.tu i.S = -1 ∧ m.tu i.N = -1 ∧ m.tu i.SW = -1 ∧ m.tu i.SE = -1 ∧ m.tu i.NW = -1 ∧ m.tu i.NE = -1 ∧ m.tv i.vSW = -1 ∧ m.tv i.vSE = -1 ∧ m.tv i.vNW = -1 ∧ m.tv i.vNE = -1 ∧ m.tv i.vSWW = -1 ∧ m.tv i.vSEE = -1 ∧ m.tv i.vNWW = -1 ∧ m.tv i.vNEE = -1 ∧ m.tv i.vNNW = -1 ∧ m.tv i.vSSW = -1 ∧ m.tv i.vNNE = -1 ∧ m.tv i.vSSE = -1 ∧ m.tp i.pW = -1 ∧ m.tp i.pE = -1 ∧ m.tp i.pSW = -1 ∧ m.tp i.pSE = -1 ∧ m.tp i.pNW = -1 ∧ m.tp i.pNE = -1 ∧ m.tg i.gN ≠ 30 ∧ m.tg i.gS ≠ 30 ∧ m.tg i.gSW ≠ 30 ∧ m.tg i.gSE ≠ 30 ∧ m.tg i.gNW ≠ 30 ∧ m.tg i.gNE ≠ 30 := by
  intro i
  have hi := xjIdx_inner h
  simp only [i, hi]
  refine ⟨?_, ?_, ?_, ?_, ?_, ?_, ?_, ?_, ?_, ?_, ?_, ?_, ?_, ?_, ?_, ?_, ?_, ?_, ?_, ?_, ?_, ?_, ?_, ?_, ?_, ?_, ?_, ?_, ?_, ?_, ?_, ?_, ?_⟩
  · have := h.u (0) (0) (by norm_num) (by norm_num) (by norm_num) (by norm_num); rwa [show k + (0) + (l + (0)) * (m.Nx : Int) = k + l * m.Nx by ring] at this
  · have := h.u (-1) (0) (by norm_num) (by norm_num) (by norm_num) (by norm_num); rwa [show k + (-1) + (l + (0)) * (m.Nx : Int) = k - 1 + l * m.Nx by ring] at this
  · have := h.u (1) (0) (by norm_num) (by norm_num) (by norm_num) (by norm_num); rwa [show k + (1) + (l + (0)) * (m.Nx : Int) = k + 1 + l * m.Nx by ring] at this
  · have := h.u (0) (-1) (by norm_num) (by norm_num) (by norm_num) (by norm_num); rwa [show k + (0) + (l + (-1)) * (m.Nx : Int) = k + (l - 1) * m.Nx by ring] at this
  · have := h.u (0) (1) (by norm_num) (by norm_num) (by norm_num) (by norm_num); rwa [show k + (0) + (l + (1)) * (m.Nx : Int) = k + (l + 1) * m.Nx by ring] at this
  · have := h.u (-1) (-1) (by norm_num) (by norm_num) (by norm_num) (by norm_num); rwa [show k + (-1) + (l + (-1)) * (m.Nx : Int) = k - 1 + (l - 1) * m.Nx by ring] at this
  · have := h.u (1) (-1) (by norm_num) (by norm_num) (by norm_num) (by norm_num); rwa [show k + (1) + (l + (-1)) * (m.Nx : Int) = k + 1 + (l - 1) * m.Nx by ring] at this
  · have := h.u (-1) (1) (by norm_num) (by norm_num) (by norm_num) (by norm_num); rwa [show k + (-1) + (l + (1)) * (m.Nx : Int) = k - 1 + (l + 1) * m.Nx by ring] at this
  · have := h.u (1) (1) (by norm_num) (by norm_num) (by norm_num) (by norm_num); rwa [show k + (1) + (l + (1)) * (m.Nx : Int) = k + 1 + (l + 1) * m.Nx by ring] at this
  · have := h.v (0) (-1) (by norm_num) (by norm_num) (by norm_num) (by norm_num); rwa [show k + (0) + (l + (-1)) * ((m.Nx : Int) + 1) = k + (l - 1) * (m.Nx + 1) by ring] at this
  · have := h.v (1) (-1) (by norm_num) (by norm_num) (by norm_num) (by norm_num); rwa [show k + (1) + (l + (-1)) * ((m.Nx : Int) + 1) = k + 1 + (l - 1) * (m.Nx + 1) by ring] at this
  · have := h.v (0) (0) (by norm_num) (by norm_num) (by norm_num) (by norm_num); rwa [show k + (0) + (l + (0)) * ((m.Nx : Int) + 1) = k + l * (m.Nx + 1) by ring] at this
  · have := h.v (1) (0) (by norm_num) (by norm_num) (by norm_num) (by norm_num); rwa [show k + (1) + (l + (0)) * ((m.Nx : Int) + 1) = k + 1 + l * (m.Nx + 1) by ring] at this
  · have := h.v (-1) (-1) (by norm_num) (by norm_num) (by norm_num) (by norm_num); rwa [show k + (-1) + (l + (-1)) * ((m.Nx : Int) + 1) = k - 1 + (l - 1) * (m.Nx + 1) by ring] at this
  · have := h.v (2) (-1) (by norm_num) (by norm_num) (by norm_num) (by norm_num); rwa [show k + (2) + (l + (-1)) * ((m.Nx : Int) + 1) = k + 2 + (l - 1) * (m.Nx + 1) by ring] at this
  · have := h.v (-1) (0) (by norm_num) (by norm_num) (by norm_num) (by norm_num); rwa [show k + (-1) + (l + (0)) * ((m.Nx : Int) + 1) = k - 1 + l * (m.Nx + 1) by ring] at this
  · have := h.v (2) (0) (by norm_num) (by norm_num) (by norm_num) (by norm_num); rwa [show k + (2) + (l + (0)) * ((m.Nx : Int) + 1) = k + 2 + l * (m.Nx + 1) by ring] at this
  · have := h.v (0) (1) (by norm_num) (by norm_num) (by norm_num) (by norm_num); rwa [show k + (0) + (l + (1)) * ((m.Nx : Int) + 1) = k + (l + 1) * (m.Nx + 1) by ring] at this
  · have := h.v (0) (-2) (by norm_num) (by norm_num) (by norm_num) (by norm_num); rwa [show k + (0) + (l + (-2)) * ((m.Nx : Int) + 1) = k + (l - 2) * (m.Nx + 1) by ring] at this
  · have := h.v (1) (1) (by norm_num) (by norm_num) (by norm_num) (by norm_num); rwa [show k + (1) + (l + (1)) * ((m.Nx : Int) + 1) = k + 1 + (l + 1) * (m.Nx + 1) by ring] at this
  · have := h.v (1) (-2) (by norm_num) (by norm_num) (by norm_num) (by norm_num); rwa [show k + (1) + (l + (-2)) * ((m.Nx : Int) + 1) = k + 1 + (l - 2) * (m.Nx + 1) by ring] at this
  · have := h.p (-1) (-1) (by norm_num) (by norm_num) (by norm_num) (by norm_num); rwa [show k + (-1) + (l + (-1)) * ((m.Nx : Int) - 1) = k - 1 + (l - 1) * (m.Nx - 1) by ring] at this
  · have := h.p (0) (-1) (by norm_num) (by norm_num) (by norm_num) (by norm_num); rwa [show k + (0) + (l + (-1)) * ((m.Nx : Int) - 1) = k + (l - 1) * (m.Nx - 1) by ring] at this
  · have := h.p (-1) (-2) (by norm_num) (by norm_num) (by norm_num) (by norm_num); rwa [show k + (-1) + (l + (-2)) * ((m.Nx : Int) - 1) = k - 1 + (l - 2) * (m.Nx - 1) by ring] at this
  · have := h.p (0) (-2) (by norm_num) (by norm_num) (by norm_num) (by norm_num); rwa [show k + (0) + (l + (-2)) * ((m.Nx : Int) - 1) = k + (l - 2) * (m.Nx - 1) by ring] at this
  · have := h.p (-1) (0) (by norm_num) (by norm_num) (by norm_num) (by norm_num); rwa [show k + (-1) + (l + (0)) * ((m.Nx : Int) - 1) = k - 1 + l * (m.Nx - 1) by ring] at this
  · have := h.p (0) (0) (by norm_num) (by norm_num) (by norm_num) (by norm_num); rwa [show k + (0) + (l + (0)) * ((m.Nx : Int) - 1) = k + l * (m.Nx - 1) by ring] at this
  · have := h.g (0) (0) (by norm_num) (by norm_num) (by norm_num) (by norm_num); rwa [show k + (0) + (l + (0)) * (m.Nx : Int) = k + l * m.Nx by ring] at this
  · have := h.g (0) (-1) (by norm_num) (by norm_num) (by norm_num) (by norm_num); rwa [show k + (0) + (l + (-1)) * (m.Nx : Int) = k + (l - 1) * m.Nx by ring] at this
  · have := h.g (-1) (-1) (by norm_num) (by norm_num) (by norm_num) (by norm_num); rwa [show k + (-1) + (l + (-1)) * (m.Nx : Int) = k - 1 + (l - 1) * m.Nx by ring] at this
  · have := h.g (1) (-1) (by norm_num) (by norm_num) (by norm_num) (by norm_num); rwa [show k + (1) + (l + (-1)) * (m.Nx : Int) = k + 1 + (l - 1) * m.Nx by ring] at this
  · have := h.g (-1) (0) (by norm_num) (by norm_num) (by norm_num) (by norm_num); rwa [show k + (-1) + (l + (0)) * (m.Nx : Int) = k - 1 + l * m.Nx by ring] at this
  · have := h.g (1) (0) (by norm_num) (by norm_num) (by norm_num) (by norm_num); rwa [show k + (1) + (l + (0)) * (m.Nx : Int) = k + 1 + l * m.Nx by ring] at this

/-- Indices around an inner node. -/
theorem zjIdx_inner (h : InnerZ m k l) : zjIdx m.toSMesh k l =
    { C := k + l * (m.Nx + 1)
      W := k - 1 + l * (m.Nx + 1)
      E := k + 1 + l * (m.Nx + 1)
      S := k + (l - 1) * (m.Nx + 1)
      N := k + (l + 1) * (m.Nx + 1)
      SW := k - 1 + (l - 1) * (m.Nx + 1)
      SE := k + 1 + (l - 1) * (m.Nx + 1)
      NW := k - 1 + (l + 1) * (m.Nx + 1)
      NE := k + 1 + (l + 1) * (m.Nx + 1)
      uNW := k - 1 + (l + 1) * m.Nx
      uNE := k + (l + 1) * m.Nx
      uSW := k - 1 + l * m.Nx
      uSE := k + l * m.Nx
      uNWW := k - 2 + (l + 1) * m.Nx
      uNEE := k + 1 + (l + 1) * m.Nx
      uSWW := k - 2 + l * m.Nx
      uSEE := k + 1 + l * m.Nx
      uNNW := k - 1 + (l + 2) * m.Nx
      uNNE := k + (l + 2) * m.Nx
      uSSW := k - 1 + (l - 1) * m.Nx
      uSSE := k + (l - 1) * m.Nx
      pS := k - 1 + (l - 1) * (m.Nx - 1)
      pN := k - 1 + l * (m.Nx - 1)
      pSW := k - 2 + (l - 1) * (m.Nx - 1)
      pSE := k + (l - 1) * (m.Nx - 1)
      pNW := k - 2 + l * (m.Nx - 1)
      pNE := k + l * (m.Nx - 1)
      gW := k - 1 + l * m.Nx
      gE := k + l * m.Nx
      gSW := k - 1 + (l - 1) * m.Nx
      gSE := k + (l - 1) * m.Nx
      gNW := k - 1 + (l + 1) * m.Nx
      gNE := k + (l + 1) * m.Nx } := by
  have hk := h.k0
  have hk1 := h.k1
  simp only [zjIdx, show (k == 1) = false by simpa using (show ¬ k = 1 by omega), show (k == (m.Nx : Int) - 1) = false by simpa using (show ¬ k = m.Nx - 1 by omega),
    Bool.false_and, Bool.false_eq_true, if_false]
  congr 1 <;> ring

/-- Tags around an inner node. -/
theorem z_tags (h : InnerZ m k l) :
    let i := zjIdx m.toSMesh k l
    m.tv i.C = -1 ∧ m.tv i.W = -1 ∧ m.tv i.E = -1 ∧ m.tv i.S = -1 ∧ m.tv i.N = -1 ∧ m.tv i.SW = -1 ∧ m.tv i.SE = -1 ∧ m.tv i.NW = -1 ∧ m.tv i.NE = -1 ∧ m.tu i.uNW = -1 ∧ m.tu i.uNE = -1 ∧ m.tu i.uSW = -1 ∧ m.tu i.uSE = -1 ∧ m.tu i.uNWW = -1 ∧ m.tu i.uNEE = -1 ∧ m.tu i.uSWW = -1 ∧ m.tu i.uSEE = -1 ∧ m.tu i.uNNW = -1 ∧ m.tu i.uNNE = -1 ∧ m.tu i.uSSW = -1 ∧ m.tu i.uSSE = -1 ∧ m.tp i.pS = -1 ∧ m.tp i.pN = -1 ∧ m.tp i.pSW = -1 ∧ m.tp i.pSE = -1 ∧ m.tp i.pNW = -1 ∧ m.tp i.pNE = -1 ∧ m.tg i.gW ≠ 30 ∧ m.tg i.gE ≠ 30 ∧ m.tg i.gSW ≠ 30 ∧ m.tg i.gSE ≠ 30 ∧ m.tg i.gNW ≠ 30 ∧ m.tg i.gNE ≠ 30 := by
  intro i
  have hi := zjIdx_inner h
  simp only [i, hi]
  refine ⟨?_, ?_, ?_, ?_, ?_, ?_, ?_, ?_, ?_, ?_, ?_, ?_, ?_, ?_, ?_, ?_, ?_, ?_, ?_, ?_, ?_, ?_, ?_, ?_, ?_, ?_, ?_, ?_, ?_, ?_, ?_, ?_, ?_⟩
  · have := h.v (0) (0) (by norm_num) (by norm_num) (by norm_num) (by norm_num); rwa [show k + (0) + (l + (0)) * ((m.Nx : Int) + 1) = k + l * (m.Nx + 1) by ring] at this
  · have := h.v (-1) (0) (by norm_num) (by norm_num) (by norm_num) (by norm_num); rwa [show k + (-1) + (l + (0)) * ((m.Nx : Int) + 1) = k - 1 + l * (m.Nx + 1) by ring] at this
  · have := h.v (1) (0) (by norm_num) (by norm_num) (by norm_num) (by norm_num); rwa [show k + (1) + (l + (0)) * ((m.Nx : Int) + 1) = k + 1 + l * (m.Nx + 1) by ring] at this
  · have := h.v (0) (-1) (by norm_num) (by norm_num) (by norm_num) (by norm_num); rwa [show k + (0) + (l + (-1)) * ((m.Nx : Int) + 1) = k + (l - 1) * (m.Nx + 1) by ring] at this
  · have := h.v (0) (1) (by norm_num) (by norm_num) (by norm_num) (by norm_num); rwa [show k + (0) + (l + (1)) * ((m.Nx : Int) + 1) = k + (l + 1) * (m.Nx + 1) by ring] at this
  · have := h.v (-1) (-1) (by norm_num) (by norm_num) (by norm_num) (by norm_num); rwa [show k + (-1) + (l + (-1)) * ((m.Nx : Int) + 1) = k - 1 + (l - 1) * (m.Nx + 1) by ring] at this
  · have := h.v (1) (-1) (by norm_num) (by norm_num) (by norm_num) (by norm_num); rwa [show k + (1) + (l + (-1)) * ((m.Nx : Int) + 1) = k + 1 + (l - 1) * (m.Nx + 1) by ring] at this
  · have := h.v (-1) (1) (by norm_num) (by norm_num) (by norm_num) (by norm_num); rwa [show k + (-1) + (l + (1)) * ((m.Nx : Int) + 1) = k - 1 + (l + 1) * (m.Nx + 1) by ring] at this
  · have := h.v (1) (1) (by norm_num) (by norm_num) (by norm_num) (by norm_num); rwa [show k + (1) + (l + (1)) * ((m.Nx : Int) + 1) = k + 1 + (l + 1) * (m.Nx + 1) by ring] at this
  · have := h.u (-1) (1) (by norm_num) (by norm_num) (by norm_num) (by norm_num); rwa [show k + (-1) + (l + (1)) * (m.Nx : Int) = k - 1 + (l + 1) * m.Nx by ring] at this
  · have := h.u (0) (1) (by norm_num) (by norm_num) (by norm_num) (by norm_num); rwa [show k + (0) + (l + (1)) * (m.Nx : Int) = k + (l + 1) * m.Nx by ring] at this
  · have := h.u (-1) (0) (by norm_num) (by norm_num) (by norm_num) (by norm_num); rwa [show k + (-1) + (l + (0)) * (m.Nx : Int) = k - 1 + l * m.Nx by ring] at this
  · have := h.u (0) (0) (by norm_num) (by norm_num) (by norm_num) (by norm_num); rwa [show k + (0) + (l + (0)) * (m.Nx : Int) = k + l * m.Nx by ring] at this
  · have := h.u (-2) (1) (by norm_num) (by norm_num) (by norm_num) (by norm_num); rwa [show k + (-2) + (l + (1)) * (m.Nx : Int) = k - 2 + (l + 1) * m.Nx by ring] at this
  · have := h.u (1) (1) (by norm_num) (by norm_num) (by norm_num) (by norm_num); rwa [show k + (1) + (l + (1)) * (m.Nx : Int) = k + 1 + (l + 1) * m.Nx by ring] at this
  · have := h.u (-2) (0) (by norm_num) (by norm_num) (by norm_num) (by norm_num); rwa [show k + (-2) + (l + (0)) * (m.Nx : Int) = k - 2 + l * m.Nx by ring] at this
  · have := h.u (1) (0) (by norm_num) (by norm_num) (by norm_num) (by norm_num); rwa [show k + (1) + (l + (0)) * (m.Nx : Int) = k + 1 + l * m.Nx by ring] at this
  · have := h.u (-1) (2) (by norm_num) (by norm_num) (by norm_num) (by norm_num); rwa [show k + (-1) + (l + (2)) * (m.Nx : Int) = k - 1 + (l + 2) * m.Nx by ring] at this
  · have := h.u (0) (2) (by norm_num) (by norm_num) (by norm_num) (by norm_num); rwa [show k + (0) + (l + (2)) * (m.Nx : Int) = k + (l + 2) * m.Nx by ring] at this
  · have := h.u (-1) (-1) (by norm_num) (by norm_num) (by norm_num) (by norm_num); rwa [show k + (-1) + (l + (-1)) * (m.Nx : Int) = k - 1 + (l - 1) * m.Nx by ring] at this
  · have := h.u (0) (-1) (by norm_num) (by norm_num) (by norm_num) (by norm_num); rwa [show k + (0) + (l + (-1)) * (m.Nx : Int) = k + (l - 1) * m.Nx by ring] at this
  · have := h.p (-1) (-1) (by norm_num) (by norm_num) (by norm_num) (by norm_num); rwa [show k + (-1) + (l + (-1)) * ((m.Nx : Int) - 1) = k - 1 + (l - 1) * (m.Nx - 1) by ring] at this
  · have := h.p (-1) (0) (by norm_num) (by norm_num) (by norm_num) (by norm_num); rwa [show k + (-1) + (l + (0)) * ((m.Nx : Int) - 1) = k - 1 + l * (m.Nx - 1) by ring] at this
  · have := h.p (-2) (-1) (by norm_num) (by norm_num) (by norm_num) (by norm_num); rwa [show k + (-2) + (l + (-1)) * ((m.Nx : Int) - 1) = k - 2 + (l - 1) * (m.Nx - 1) by ring] at this
  · have := h.p (0) (-1) (by norm_num) (by norm_num) (by norm_num) (by norm_num); rwa [show k + (0) + (l + (-1)) * ((m.Nx : Int) - 1) = k + (l - 1) * (m.Nx - 1) by ring] at this
  · have := h.p (-2) (0) (by norm_num) (by norm_num) (by norm_num) (by norm_num); rwa [show k + (-2) + (l + (0)) * ((m.Nx : Int) - 1) = k - 2 + l * (m.Nx - 1) by ring] at this
  · have := h.p (0) (0) (by norm_num) (by norm_num) (by norm_num) (by norm_num); rwa [show k + (0) + (l + (0)) * ((m.Nx : Int) - 1) = k + l * (m.Nx - 1) by ring] at this
  · have := h.g (-1) (0) (by norm_num) (by norm_num) (by norm_num) (by norm_num); rwa [show k + (-1) + (l + (0)) * (m.Nx : Int) = k - 1 + l * m.Nx by ring] at this
  · have := h.g (0) (0) (by norm_num) (by norm_num) (by norm_num) (by norm_num); rwa [show k + (0) + (l + (0)) * (m.Nx : Int) = k + l * m.Nx by ring] at this
  · have := h.g (-1) (-1) (by norm_num) (by norm_num) (by norm_num) (by norm_num); rwa [show k + (-1) + (l + (-1)) * (m.Nx : Int) = k - 1 + (l - 1) * m.Nx by ring] at this
  · have := h.g (0) (-1) (by norm_num) (by norm_num) (by norm_num) (by norm_num); rwa [show k + (0) + (l + (-1)) * (m.Nx : Int) = k + (l - 1) * m.Nx by ring] at this
  · have := h.g (-1) (1) (by norm_num) (by norm_num) (by norm_num) (by norm_num); rwa [show k + (-1) + (l + (1)) * (m.Nx : Int) = k - 1 + (l + 1) * m.Nx by ring] at this
  · have := h.g (0) (1) (by norm_num) (by norm_num) (by norm_num) (by norm_num); rwa [show k + (0) + (l + (1)) * (m.Nx : Int) = k + (l + 1) * m.Nx by ring] at this

end Verif.JacRow
