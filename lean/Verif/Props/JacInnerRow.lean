import Verif.Props.JacInner

/- The rows of Newton's matrix inside the rock are the derivatives of the residuals. -/
namespace Verif.JacRow
open Verif Verif.Tan Verif.Spec Verif.Spec.Newton

set_option linter.unusedSimpArgs false
set_option maxHeartbeats 2000000

variable {m : JMesh ℝ} {k l : Int}

/-- Values of fields at the nodes of a row. -/
def xVals (i : XJIdx) (du dv dp : Int → ℝ) : XVals ℝ :=
  ⟨du i.W, du i.C, du i.E, du i.S, du i.N, dv i.vSW, dv i.vSE, dv i.vNW, dv i.vNE, du i.SW, du i.SE, du i.NW, du i.NE, dv i.vSWW, dv i.vSEE, dv i.vNWW, dv i.vNEE, dv i.vSSW, dv i.vSSE, dv i.vNNW, dv i.vNNE, dp i.pW, dp i.pE, dp i.pSW, dp i.pSE, dp i.pNW, dp i.pNE⟩

/-- An inner row applied to fields. -/
theorem x_row_value (h : InnerX m k l) (du dv dp : Int → ℝ) :
    let i := xjIdx m.toSMesh k l
    applyTo (atNode du dv dp) (xJac m k l ++ xJacP m k l)
      = (xjRow (xjCoef (xjIn m k l)) (xVals i du dv dp) + xjCorr m.toSMesh k l (xjCoef (xjIn m k l)).uC * du i.C)
        * (m.dx * m.dz) := by
  intro i
  obtain ⟨hC, hW, hE, hS, hN, hSW, hSE, hNW, hNE, hvSW, hvSE, hvNW, hvNE, hvSWW, hvSEE, hvNWW, hvNEE, hvNNW, hvSSW, hvNNE, hvSSE, hpW, hpE, hpSW, hpSE, hpNW, hpNE, hgN, hgS, hgSW, hgSE, hgNW, hgNE⟩ := x_tags h
  have hk := h.k0
  have hk1 := h.k1
  have hl := h.l0
  have hl1 := h.l1
  obtain ⟨a, ha⟩ : ∃ a, a = xjCoef (xjIn m k l) := ⟨_, rfl⟩
  obtain ⟨j, hj⟩ : ∃ j, j = xjIdx m.toSMesh k l := ⟨_, rfl⟩
  have hi : i = j := hj.symm
  rw [hi]
  unfold xJac xJacP xVals
  dsimp only
  rw [← ha, ← hj]
  clear_value i
  simp only [← hj] at hC hW hE hS hN hSW hSE hNW hNE hvSW hvSE hvNW hvNE hvSWW hvSEE hvNWW hvNEE hvNNW hvSSW hvNNE hvSSE hpW hpE hpSW hpSE hpNW hpNE
  simp only [applyTo_append, applyTo_guarded, hC, hW, hE, hS, hN, hSW, hSE, hNW, hNE, hvSW, hvSE, hvNW, hvNE, hvSWW, hvSEE, hvNWW, hvNEE, hvNNW, hvSSW, hvNNE, hvSSE, hpW, hpE, hpSW, hpSE, hpNW, hpNE, atNode]
  simp only [show decide (k > 0) = true by simpa using (show 0 < k by omega), show decide (k < (m.Nx : Int) - 1) = true by simpa using hk1,
    show decide (l > 1) = true by simpa using hl, show decide (l < (m.Nz : Int) - 1) = true by simpa using hl1,
    show ((-1 : Int) != 30) = true from rfl, show ((-1 : Int) == -1) = true from rfl, show ¬ ((-1 : Int) = 11) by decide,
    Bool.true_or, Bool.true_and, Bool.and_true, Bool.and_self, if_true, if_false]
  have w : (decide (k > 1) || (k == 0 || k == 1)) = true := by
    by_cases h1 : k > 1
    · simp [h1]
    · simp [show k = 1 by omega]
  have e : (decide (k < (m.Nx : Int) - 2) || (k == (m.Nx : Int) - 2 || k == (m.Nx : Int) - 1)) = true := by
    by_cases h1 : k < (m.Nx : Int) - 2
    · simp [h1]
    · simp [show k = (m.Nx : Int) - 2 by omega]
  simp only [w, e, if_true]
  unfold xjRow
  ring

/-- Flags, weights and operators of an inner row. -/
theorem xjIn_inner (h : InnerX m k l) : xjIn m k l =
    { D11E := m.D11 (k + (l - 1) * (m.Nx - 1))
      D12E := m.D12 (k + (l - 1) * (m.Nx - 1))
      D13E := m.D13 (k + (l - 1) * (m.Nx - 1))
      D14E := m.D14 (k + (l - 1) * (m.Nx - 1))
      D11W := m.D11 (k - 1 + (l - 1) * (m.Nx - 1))
      D12W := m.D12 (k - 1 + (l - 1) * (m.Nx - 1))
      D13W := m.D13 (k - 1 + (l - 1) * (m.Nx - 1))
      D14W := m.D14 (k - 1 + (l - 1) * (m.Nx - 1))
      D31N := m.D31 (k + l * m.Nx)
      D32N := m.D32 (k + l * m.Nx)
      D33N := m.D33 (k + l * m.Nx)
      D34N := m.D34 (k + l * m.Nx)
      D31S := m.D31 (k + (l - 1) * m.Nx)
      D32S := m.D32 (k + (l - 1) * m.Nx)
      D33S := m.D33 (k + (l - 1) * m.Nx)
      D34S := m.D34 (k + (l - 1) * m.Nx)
      OOP := if m.oop then 3/2 else 1
      comp := 1
      dx := m.dx
      dz := m.dz
      inW := 1
      inE := 1
      inS := 1
      inN := 1
      inSv := 1
      inNv := 1
      inSWc := 1
      inSEc := 1
      inNWc := 1
      inNEc := 1
      inSWv := 1
      inNWv := 1
      inSEv := 1
      inNEv := 1
      inSWW := 1
      inNWW := 1
      inSEE := 1
      inNEE := 1
      wS := 1 / 4
      wN := 1 / 4 } := by
  obtain ⟨hC, hW, hE, hS, hN, hSW, hSE, hNW, hNE, hvSW, hvSE, hvNW, hvNE, hvSWW, hvSEE, hvNWW, hvNEE, hvNNW, hvSSW, hvNNE, hvSSE, hpW, hpE, hpSW, hpSE, hpNW, hpNE, hgN, hgS, hgSW, hgSE, hgNW, hgNE⟩ := x_tags h
  have hk := h.k0
  have hk1 := h.k1
  have hl := h.l0
  have hl1 := h.l1
  have hi := xjIdx_inner h
  have d (x : Int) (hx : x ≠ 30) : (x != 30) = true := by simpa using hx
  have hw : jw (1 + 1 + 1 + 1 : ℝ) = 1 / 4 := by unfold jw; norm_num
  unfold xjIn
  simp only [hW, hE, hS, hN, hSW, hSE, hNW, hNE, hvSW, hvSE, hvNW, hvNE, hvSWW, hvSEE, hvNWW, hvNEE, hvNNW, hvSSW, hvNNE, hvSSE, hpW, hpE, hpSW, hpSE, hpNW, hpNE]
  simp only [d _ hgN, d _ hgS, d _ hgSW, d _ hgSE, d _ hgNW, d _ hgNE]
  simp only [show decide (k > 0) = true by simpa using (show 0 < k by omega), show decide (k < (m.Nx : Int) - 1) = true by simpa using hk1,
    show decide (l > 1) = true by simpa using hl, show decide (l < (m.Nz : Int) - 1) = true by simpa using hl1,
    show decide (l < (m.Nz : Int) + 1 - 2) = true by simpa using (show l < (m.Nz : Int) + 1 - 2 by omega),
    show decide (k < (m.Nx : Int) + 1 - 2) = true by simpa using (show k < (m.Nx : Int) + 1 - 2 by omega),
    show ((-1 : Int) != 30) = true from rfl, show ((-1 : Int) == -1) = true from rfl, show ((-1 : Int) != 13) = true from rfl,
    Bool.true_or, Bool.true_and, Bool.and_true, Bool.and_self]
  simp only [flag, if_true, hw, hi]

/-- Values of fields at the nodes of a row. -/
def zVals (i : ZJIdx) (du dv dp : Int → ℝ) : ZVals ℝ :=
  ⟨dv i.W, dv i.C, dv i.E, dv i.S, dv i.N, du i.uSW, du i.uSE, du i.uNW, du i.uNE, dv i.SW, dv i.SE, dv i.NW, dv i.NE, du i.uSWW, du i.uSEE, du i.uNWW, du i.uNEE, du i.uSSW, du i.uSSE, du i.uNNW, du i.uNNE, dp i.pS, dp i.pN, dp i.pSW, dp i.pSE, dp i.pNW, dp i.pNE⟩

/-- An inner row applied to fields. -/
theorem z_row_value (h : InnerZ m k l) (du dv dp : Int → ℝ) :
    let i := zjIdx m.toSMesh k l
    applyTo (atNode du dv dp) (zJac m k l ++ zJacP m k l)
      = (zjRow (zjCoef (zjIn m k l)) (zVals i du dv dp) + zjCorr m.toSMesh k l (zjCoef (zjIn m k l)).vC * dv i.C)
        * (m.dx * m.dz) := by
  intro i
  obtain ⟨hC, hW, hE, hS, hN, hSW, hSE, hNW, hNE, huNW, huNE, huSW, huSE, huNWW, huNEE, huSWW, huSEE, huNNW, huNNE, huSSW, huSSE, hpS, hpN, hpSW, hpSE, hpNW, hpNE, hgW, hgE, hgSW, hgSE, hgNW, hgNE⟩ := z_tags h
  have hk := h.k0
  have hk1 := h.k1
  have hl := h.l0
  have hl1 := h.l1
  obtain ⟨a, ha⟩ : ∃ a, a = zjCoef (zjIn m k l) := ⟨_, rfl⟩
  obtain ⟨j, hj⟩ : ∃ j, j = zjIdx m.toSMesh k l := ⟨_, rfl⟩
  have e1 : m.tu (k + l * m.Nx + 1) = -1 := by
    have := h.u 1 0 (by norm_num) (by norm_num) (by norm_num) (by norm_num)
    rwa [show k + 1 + (l + 0) * (m.Nx : Int) = k + l * m.Nx + 1 by ring] at this
  have e2 : m.tu (k + l * m.Nx + m.Nx - 2) = -1 := by
    have := h.u (-2) 1 (by norm_num) (by norm_num) (by norm_num) (by norm_num)
    rwa [show k + (-2) + (l + 1) * (m.Nx : Int) = k + l * m.Nx + m.Nx - 2 by ring] at this
  have hi : i = j := hj.symm
  rw [hi]
  unfold zJac zJacP zVals
  dsimp only
  rw [← ha, ← hj]
  clear_value i
  simp only [← hj] at hC hW hE hS hN hSW hSE hNW hNE huNW huNE huSW huSE huNWW huNEE huSWW huSEE huNNW huNNE huSSW huSSE hpS hpN hpSW hpSE hpNW hpNE
  simp only [applyTo_append, applyTo_guarded, hC, hW, hE, hS, hN, hSW, hSE, hNW, hNE, huNW, huNE, huSW, huSE, huNWW, huNEE, huSWW, huSEE, huNNW, huNNE, huSSW, huSSE, hpS, hpN, hpSW, hpSE, hpNW, hpNE, e1, e2, atNode]
  simp only [show decide (k > 0) = true by simpa using (show 0 < k by omega), show decide (k < (m.Nx : Int) - 1) = true by simpa using hk1,
    show decide (l > 0) = true by simpa using hl, show decide (l < (m.Nz : Int) - 1) = true by simpa using hl1,
    show ((-1 : Int) != 30) = true from rfl, show ((-1 : Int) == -1) = true from rfl, show ¬ ((-1 : Int) = 11) by decide,
    Bool.true_or, Bool.true_and, Bool.and_true, Bool.and_self, if_true, if_false, show decide (k > 1) = true by simpa using hk]
  unfold zjRow
  ring

/-- Flags, weights and operators of an inner row. -/
theorem zjIn_inner (h : InnerZ m k l) : zjIn m k l =
    { D31W := m.D31 (k - 1 + l * m.Nx)
      D32W := m.D32 (k - 1 + l * m.Nx)
      D33W := m.D33 (k - 1 + l * m.Nx)
      D34W := m.D34 (k - 1 + l * m.Nx)
      D31E := m.D31 (k + l * m.Nx)
      D32E := m.D32 (k + l * m.Nx)
      D33E := m.D33 (k + l * m.Nx)
      D34E := m.D34 (k + l * m.Nx)
      D21S := m.D21 (k - 1 + (l - 1) * (m.Nx - 1))
      D22S := m.D22 (k - 1 + (l - 1) * (m.Nx - 1))
      D23S := m.D23 (k - 1 + (l - 1) * (m.Nx - 1))
      D24S := m.D24 (k - 1 + (l - 1) * (m.Nx - 1))
      D21N := m.D21 (k - 1 + l * (m.Nx - 1))
      D22N := m.D22 (k - 1 + l * (m.Nx - 1))
      D23N := m.D23 (k - 1 + l * (m.Nx - 1))
      D24N := m.D24 (k - 1 + l * (m.Nx - 1))
      OOP := if m.oop then 3/2 else 1
      comp := 1
      dx := m.dx
      dz := m.dz
      inS := 1
      inN := 1
      inW := 1
      inE := 1
      inWv := 1
      inEv := 1
      inSWc := 1
      inNWc := 1
      inSEc := 1
      inNEc := 1
      inSWv := 1
      inSEv := 1
      inNWv := 1
      inNEv := 1
      inSSW := 1
      inSSE := 1
      inNNW := 1
      inNNE := 1
      wE := 1 / 4
      wW := 1 / 4 } := by
  obtain ⟨hC, hW, hE, hS, hN, hSW, hSE, hNW, hNE, huNW, huNE, huSW, huSE, huNWW, huNEE, huSWW, huSEE, huNNW, huNNE, huSSW, huSSE, hpS, hpN, hpSW, hpSE, hpNW, hpNE, hgW, hgE, hgSW, hgSE, hgNW, hgNE⟩ := z_tags h
  have hk := h.k0
  have hk1 := h.k1
  have hl := h.l0
  have hl1 := h.l1
  have hi := zjIdx_inner h
  have d (x : Int) (hx : x ≠ 30) : (x != 30) = true := by simpa using hx
  have hw : jw (1 + 1 + 1 + 1 : ℝ) = 1 / 4 := by unfold jw; norm_num
  unfold zjIn
  simp only [hW, hE, hS, hN, hSW, hSE, hNW, hNE, huNW, huNE, huSW, huSE, huNWW, huNEE, huSWW, huSEE, huNNW, huNNE, huSSW, huSSE, hpS, hpN, hpSW, hpSE, hpNW, hpNE]
  simp only [d _ hgW, d _ hgE, d _ hgSW, d _ hgSE, d _ hgNW, d _ hgNE]
  simp only [show decide (k > 0) = true by simpa using (show 0 < k by omega), show decide (k < (m.Nx : Int) - 1) = true by simpa using hk1,
    show decide (l > 0) = true by simpa using hl, show decide (l < (m.Nz : Int) - 1) = true by simpa using hl1,
    show decide (l < (m.Nz : Int) + 1 - 2) = true by simpa using (show l < (m.Nz : Int) + 1 - 2 by omega),
    show decide (k < (m.Nx : Int) + 1 - 2) = true by simpa using (show k < (m.Nx : Int) + 1 - 2 by omega),
    show ((-1 : Int) != 30) = true from rfl, show ((-1 : Int) == -1) = true from rfl, show ((-1 : Int) != 13) = true from rfl,
    Bool.true_or, Bool.true_and, Bool.and_true, Bool.and_self, show decide (k > 1) = true by simpa using hk]
  simp only [flag, if_true, hw, hi]

end Verif.JacRow
