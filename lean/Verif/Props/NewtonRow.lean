import Verif.Props.JacInnerRow
import Verif.Props.Tangent

/- Inside the rock the rows of Newton's matrix are the derivatives of the residuals. -/
namespace Verif.JacRow
set_option linter.unusedVariables false
set_option linter.unusedSimpArgs false
open Verif Verif.Tan Verif.Spec Verif.Spec.Newton

variable {m : JMesh ℝ} {k l : Int}

/-- Change of the state of a cell for a change of velocities and pressures. -/
noncomputable def cellStep (m : JMesh ℝ) (du dv dp : Int → ℝ) (a b : Int) : Pt ℝ :=
  ⟨devX m du dv a b, devZ m du dv a b,
   (gam m du dv a b + gam m du dv (a + 1) b + gam m du dv a (b + 1) + gam m du dv (a + 1) (b + 1)) / 4,
   dp (a + b * ((m.Nx : Int) - 1))⟩

/-- Change of the state of a vertex. -/
noncomputable def vertexStep (m : JMesh ℝ) (du dv dp : Int → ℝ) (a b : Int) : Pt ℝ :=
  ⟨(devX m du dv (a - 1) (b - 1) + devX m du dv a (b - 1) + devX m du dv (a - 1) b + devX m du dv a b) / 4,
   (devZ m du dv (a - 1) (b - 1) + devZ m du dv a (b - 1) + devZ m du dv (a - 1) b + devZ m du dv a b) / 4,
   gam m du dv a b,
   (dp (a - 1 + (b - 1) * ((m.Nx : Int) - 1)) + dp (a + (b - 1) * ((m.Nx : Int) - 1))
      + dp (a - 1 + b * ((m.Nx : Int) - 1)) + dp (a + b * ((m.Nx : Int) - 1))) / 4⟩

theorem cell_moves (s : Kin.Rates ℝ) (o : Nat → Pt ℝ) (u v p du dv dp : Int → ℝ) {a b : Int} (a0 : 0 ≤ a) (a1 : a < m.Nx - 1)
    (b0 : 0 ≤ b) (b1 : b < m.Nz - 1) (hp : m.tp (a + b * ((m.Nx : Int) - 1)) = -1) (g00 : m.tg (a + b * m.Nx) ≠ 30)
    (g10 : m.tg (a + 1 + b * m.Nx) ≠ 30) (g01 : m.tg (a + (b + 1) * m.Nx) ≠ 30) (g11 : m.tg (a + 1 + (b + 1) * m.Nx) ≠ 30)
    (t : ℝ) : cellState m s o (along u du t) (along v dv t) (along p dp t) (cellNo m a b)
      = move (cellState m s o u v p (cellNo m a b)) t (cellStep m du dv dp a b) := by
  have h := fun u v p => cellState_eq m s o u v p a0 a1 b0 b1 hp g00 g10 g01 g11
  simp only at h
  unfold cellNo
  rw [h, h]
  simp only [move, cellStep, devX_along, devZ_along, gam_along, along]
  congr 1 <;> ring

theorem vertex_moves (s : Kin.Rates ℝ) (o : Nat → Pt ℝ) (junk : Nat → ℝ) (u v p du dv dp : Int → ℝ) {a b : Int} (a0 : 0 < a)
    (a1 : a < m.Nx - 1) (b0 : 0 < b) (b1 : b < m.Nz - 1) (hg : m.tg (a + b * m.Nx) ≠ 30)
    (p00 : m.tp (a - 1 + (b - 1) * ((m.Nx : Int) - 1)) = -1) (p10 : m.tp (a + (b - 1) * ((m.Nx : Int) - 1)) = -1)
    (p01 : m.tp (a - 1 + b * ((m.Nx : Int) - 1)) = -1) (p11 : m.tp (a + b * ((m.Nx : Int) - 1)) = -1) (t : ℝ) :
    vertexState m s o junk (along u du t) (along v dv t) (along p dp t) (vertexNo m a b)
      = move (vertexState m s o junk u v p (vertexNo m a b)) t (vertexStep m du dv dp a b) := by
  have h := fun u v p => vertexState_eq m s o junk u v p a0 a1 b0 b1 hg p00 p10 p01 p11
  simp only at h
  unfold vertexNo
  rw [h, h]
  simp only [move, vertexStep, devX_along, devZ_along, gam_along, along]
  congr 1 <;> ring

/-- The rows keep the volume change in the deviatoric rates: no difference for compressible models and for changes
that keep the volume. -/
theorem dev_rows {k l a0 b0 : Int} {du dv : Int → ℝ} (hc : m.comp = true ∨ KeepsVolume m k l a0 b0 du dv) {a b : Int}
    (h1 : a0 ≤ a) (h2 : a ≤ 0) (h3 : b0 ≤ b) (h4 : b ≤ 0) :
    devX m du dv (k + a) (l + b) = stretch m du (k + a) (l + b)
        - 1 * (if m.oop then 3/2 else 1) / 3 * (stretch m du (k + a) (l + b) + rise m dv (k + a) (l + b))
    ∧ devZ m du dv (k + a) (l + b) = rise m dv (k + a) (l + b)
        - 1 * (if m.oop then 3/2 else 1) / 3 * (stretch m du (k + a) (l + b) + rise m dv (k + a) (l + b)) := by
  rcases hc with hc | hc
  · simp only [devX, devZ, third, hc, flag, if_true, and_self]
  · have := hc a b h1 h2 h3 h4
    simp only [devX, devZ, this, mul_zero, and_self]

/-- Rate of change of the residual of an inner x-equation from the stored operators; `r` is the stabilisation. -/
noncomputable def xRate (m : JMesh ℝ) (k l : Int) (r : ℝ) (du dv dp : Int → ℝ) : ℝ :=
  let D1 := fun i : Int => (⟨m.D11 i, m.D12 i, m.D13 i, m.D14 i⟩ : Grad ℝ)
  let D3 := fun i : Int => (⟨m.D31 i, m.D32 i, m.D33 i, m.D34 i⟩ : Grad ℝ)
  ((dot (D1 (k + (l - 1) * (m.Nx - 1))) (cellStep m du dv dp k (l - 1))
      - dot (D1 (k - 1 + (l - 1) * (m.Nx - 1))) (cellStep m du dv dp (k - 1) (l - 1))) / m.dx
    - (dp (k + (l - 1) * (m.Nx - 1)) - dp (k - 1 + (l - 1) * (m.Nx - 1))) / m.dx
    + (dot (D3 (k + l * m.Nx)) (vertexStep m du dv dp k l)
      - dot (D3 (k + (l - 1) * m.Nx)) (vertexStep m du dv dp k (l - 1))) / m.dz
    - r * du (k + l * m.Nx)) * -(m.dx * m.dz)

/-- The same for z-equations. -/
noncomputable def zRate (m : JMesh ℝ) (k l : Int) (r : ℝ) (du dv dp : Int → ℝ) : ℝ :=
  let D2 := fun i : Int => (⟨m.D21 i, m.D22 i, m.D23 i, m.D24 i⟩ : Grad ℝ)
  let D3 := fun i : Int => (⟨m.D31 i, m.D32 i, m.D33 i, m.D34 i⟩ : Grad ℝ)
  ((dot (D2 (k - 1 + l * (m.Nx - 1))) (cellStep m du dv dp (k - 1) l)
      - dot (D2 (k - 1 + (l - 1) * (m.Nx - 1))) (cellStep m du dv dp (k - 1) (l - 1))) / m.dz
    - (dp (k - 1 + l * (m.Nx - 1)) - dp (k - 1 + (l - 1) * (m.Nx - 1))) / m.dz
    + (dot (D3 (k + l * m.Nx)) (vertexStep m du dv dp k l)
      - dot (D3 (k - 1 + l * m.Nx)) (vertexStep m du dv dp (k - 1) l)) / m.dx
    - r * dv (k + l * (m.Nx + 1))) * -(m.dx * m.dz)

set_option maxHeartbeats 1000000 in
/-- The residual of an inner node changes at the rate found from the derivatives of the stresses. -/
theorem x_derivative (h : InnerX m k l) (e : Setting) (b : ℝ)
    (u v p du dv dp : Int → ℝ)
    (hE : CellTangent m e.L (cellNo m k (l - 1)) (cellState m e.s e.oc u v p (cellNo m k (l - 1))))
    (hW : CellTangent m e.L (cellNo m (k - 1) (l - 1)) (cellState m e.s e.oc u v p (cellNo m (k - 1) (l - 1))))
    (hN : VertexTangent m e.L (vertexNo m k l) (vertexState m e.s e.ov e.junk u v p (vertexNo m k l)))
    (hS : VertexTangent m e.L (vertexNo m k (l - 1)) (vertexState m e.s e.ov e.junk u v p (vertexNo m k (l - 1)))) :
    HasDerivAt (fun t => residualX m e b k l (along u du t) (along v dv t) (along p dp t))
      (xRate m k l (xCorr m.toSMesh k l (xCoef (xIn m.toSMesh k l)).uC) du dv dp) 0 := by
  have hk := h.k0
  have hk1 := h.k1
  have hl := h.l0
  have hl1 := h.l1
  have hi := xjIdx_inner h
  obtain ⟨hC', hW', hE', hS', hN', -, -, -, -, -, -, -, -, -, -, -, -, -, -, -, -, hpW, hpE, hpSW, hpSE, hpNW, hpNE, hgN, hgS, hgSW,
    hgSE, hgNW, hgNE⟩ := x_tags h
  rw [hi] at hC' hpW hpE hpSW hpSE hpNW hpNE hgN hgS hgSW hgSE hgNW hgNE
  simp only at hC' hpW hpE hpSW hpSE hpNW hpNE hgN hgS hgSW hgSE hgNW hgNE
  have l1 : l - 1 + 1 = l := by ring
  have l2 : l - 1 - 1 = l - 2 := by ring
  have k1 : k - 1 + 1 = k := by ring
  have mE := cell_moves e.s e.oc u v p du dv dp (a := k) (b := l - 1) (by omega) hk1 (by omega) (by omega) hpE hgS
    hgSE (by rw [l1]; exact hgN) (by rw [l1]; exact hgNE)
  have mW := cell_moves e.s e.oc u v p du dv dp (a := k - 1) (b := l - 1) (by omega) (by omega) (by omega) (by omega) hpW hgSW
    (by rw [k1]; exact hgS) (by rw [l1]; exact hgNW) (by rw [k1, l1]; exact hgN)
  have mN := vertex_moves e.s e.ov e.junk u v p du dv dp (a := k) (b := l) hk hk1 (by omega) hl1 hgN hpW hpE hpNW hpNE
  have mS := vertex_moves e.s e.ov e.junk u v p du dv dp (a := k) (b := l - 1) hk hk1 (by omega) (by omega) hgS
    (by rw [l2]; exact hpSW) (by rw [l2]; exact hpSE) hpW hpE
  have nE : ((cellNo m k (l - 1) : Nat) : Int) = k + (l - 1) * (m.Nx - 1) := by
    unfold cellNo; rw [Int.toNat_of_nonneg]; exact add_nonneg (by omega) (mul_nonneg (by omega) (by omega))
  have nW : ((cellNo m (k - 1) (l - 1) : Nat) : Int) = k - 1 + (l - 1) * (m.Nx - 1) := by
    unfold cellNo; rw [Int.toNat_of_nonneg]; exact add_nonneg (by omega) (mul_nonneg (by omega) (by omega))
  have nN : ((vertexNo m k l : Nat) : Int) = k + l * m.Nx := by
    unfold vertexNo; rw [Int.toNat_of_nonneg]; exact add_nonneg (by omega) (mul_nonneg (by omega) (by omega))
  have nS : ((vertexNo m k (l - 1) : Nat) : Int) = k + (l - 1) * m.Nx := by
    unfold vertexNo; rw [Int.toNat_of_nonneg]; exact add_nonneg (by omega) (mul_nonneg (by omega) (by omega))
  have dE := hE.1 (cellStep m du dv dp k (l - 1))
  have dW := hW.1 (cellStep m du dv dp (k - 1) (l - 1))
  have dN := hN (vertexStep m du dv dp k l)
  have dS := hS (vertexStep m du dv dp k (l - 1))
  rw [nE] at dE
  rw [nW] at dW
  rw [nN] at dN
  rw [nS] at dS
  -- the residual along the change
  have hxi : xIdx m.toSMesh k l = ⟨k + l * m.Nx, k - 1 + l * m.Nx, k + 1 + l * m.Nx, k + (l - 1) * m.Nx, k + (l + 1) * m.Nx,
      k + (l - 1) * (m.Nx + 1), k + 1 + (l - 1) * (m.Nx + 1), k + l * (m.Nx + 1), k + 1 + l * (m.Nx + 1),
      k - 1 + (l - 1) * (m.Nx - 1), k + (l - 1) * (m.Nx - 1), k + l * m.Nx, k + (l - 1) * m.Nx⟩ := by
    simp only [xIdx, hC', show ((-1 : Int) == -2) = false from rfl, Bool.false_eq_true, if_false]
    congr 1 <;> ring
  have hSE : (xIn m.toSMesh k l).SE = 0 := by
    simp only [xIn, hC', show ((-1 : Int) == 2) = false from rfl, Bool.and_false, flag, Bool.false_eq_true, if_false]
  have hSW : (xIn m.toSMesh k l).SW = 0 := by
    simp only [xIn, hC', show ((-1 : Int) == 2) = false from rfl, Bool.and_false, flag, Bool.false_eq_true, if_false]
  obtain ⟨r, hr⟩ : ∃ r, r = xCorr m.toSMesh k l (xCoef (xIn m.toSMesh k l)).uC := ⟨_, rfl⟩
  have hres : (fun t => residualX m e b k l (along u du t) (along v dv t) (along p dp t)) = fun t =>
      ((((fun y => e.L.sxx (cellNo m k (l - 1)) y - (e.L.pc (cellNo m k (l - 1)) y - y.p))
          (move (cellState m e.s e.oc u v p (cellNo m k (l - 1))) t (cellStep m du dv dp k (l - 1)))
        - (fun y => e.L.sxx (cellNo m (k - 1) (l - 1)) y - (e.L.pc (cellNo m (k - 1) (l - 1)) y - y.p))
          (move (cellState m e.s e.oc u v p (cellNo m (k - 1) (l - 1))) t (cellStep m du dv dp (k - 1) (l - 1)))) / m.dx
        - ((p (k + (l - 1) * (m.Nx - 1)) + t * dp (k + (l - 1) * (m.Nx - 1)))
          - (p (k - 1 + (l - 1) * (m.Nx - 1)) + t * dp (k - 1 + (l - 1) * (m.Nx - 1)))) / m.dx
        + (e.L.sxz (vertexNo m k l) (move (vertexState m e.s e.ov e.junk u v p (vertexNo m k l)) t (vertexStep m du dv dp k l))
          - e.L.sxz (vertexNo m k (l - 1)) (move (vertexState m e.s e.ov e.junk u v p (vertexNo m k (l - 1))) t
            (vertexStep m du dv dp k (l - 1)))) / m.dz)
        + (b - r * (u (k + l * m.Nx) + t * du (k + l * m.Nx)))) * -(m.dx * m.dz) := by
    funext t
    have pE : (move (cellState m e.s e.oc u v p (cellNo m k (l - 1))) t (cellStep m du dv dp k (l - 1))).p
        = p (k + (l - 1) * (m.Nx - 1)) + t * dp (k + (l - 1) * (m.Nx - 1)) := by
      rw [← mE]; simp only [cellState, nE, along]
    have pW : (move (cellState m e.s e.oc u v p (cellNo m (k - 1) (l - 1))) t (cellStep m du dv dp (k - 1) (l - 1))).p
        = p (k - 1 + (l - 1) * (m.Nx - 1)) + t * dp (k - 1 + (l - 1) * (m.Nx - 1)) := by
      rw [← mW]; simp only [cellState, nW, along]
    have cE : (k + (l - 1) * ((m.Nx : Int) - 1)).toNat = cellNo m k (l - 1) := rfl
    have cW : (k - 1 + (l - 1) * ((m.Nx : Int) - 1)).toNat = cellNo m (k - 1) (l - 1) := rfl
    have cN : (k + l * (m.Nx : Int)).toNat = vertexNo m k l := rfl
    have cS : (k + (l - 1) * (m.Nx : Int)).toNat = vertexNo m k (l - 1) := rfl
    simp only [residualX, xResidual, hxi, hSE, hSW, ← hr, cE, cW, cN, cS, mE, mW, mN, mS, pE, pW]
    simp only [along]
    ring
  rw [hres]
  have base := (((((dE.sub dW).div_const m.dx).sub
      (((((hasDerivAt_id (0:ℝ)).mul_const (dp (k + (l - 1) * (m.Nx - 1)))).const_add (p (k + (l - 1) * (m.Nx - 1)))).sub
        (((hasDerivAt_id (0:ℝ)).mul_const (dp (k - 1 + (l - 1) * (m.Nx - 1)))).const_add (p (k - 1 + (l - 1) * (m.Nx - 1))))).div_const m.dx)).add
      ((dN.sub dS).div_const m.dz)).add
      (((((hasDerivAt_id (0:ℝ)).mul_const (du (k + l * m.Nx))).const_add (u (k + l * m.Nx))).const_mul r).const_sub b)).mul_const
      (-(m.dx * m.dz))
  refine base.congr_deriv ?_
  simp only [xRate, ← hr]
  ring

set_option maxHeartbeats 1000000 in
/-- **Rows of the x-equations.**  Around an inner node, let the operators stored for the two cells and the two
vertices be the derivatives of their stresses.  Then the row assembled for the node, applied to any change of
velocities and pressures, is the rate of change of the residual. -/
theorem x_row_is_derivative_partial (h : InnerX m k l) (hx : m.dx ≠ 0) (hz : m.dz ≠ 0) (e : Setting) (b : ℝ)
    (u v p du dv dp : Int → ℝ)
    (hs : xjCorr m.toSMesh k l (xjCoef (xjIn m k l)).uC = xCorr m.toSMesh k l (xCoef (xIn m.toSMesh k l)).uC)
    (hc : m.comp = true ∨ KeepsVolume m k l (-1) (-2) du dv)
    (hE : CellTangent m e.L (cellNo m k (l - 1)) (cellState m e.s e.oc u v p (cellNo m k (l - 1))))
    (hW : CellTangent m e.L (cellNo m (k - 1) (l - 1)) (cellState m e.s e.oc u v p (cellNo m (k - 1) (l - 1))))
    (hN : VertexTangent m e.L (vertexNo m k l) (vertexState m e.s e.ov e.junk u v p (vertexNo m k l)))
    (hS : VertexTangent m e.L (vertexNo m k (l - 1)) (vertexState m e.s e.ov e.junk u v p (vertexNo m k (l - 1)))) :
    HasDerivAt (fun t => residualX m e b k l (along u du t) (along v dv t) (along p dp t))
      (applyTo (atNode du dv dp) (jacRowX m k l)) 0 := by
  have hk := h.k0
  have hk1 := h.k1
  have hl := h.l0
  have hl1 := h.l1
  have hi := xjIdx_inner h
  have l1 : l - 1 + 1 = l := by ring
  have l2 : l - 1 - 1 = l - 2 := by ring
  have k1 : k - 1 + 1 = k := by ring
  have k2 : k - 1 - 1 = k - 2 := by ring
  refine (x_derivative h e b u v p du dv dp hE hW hN hS).congr_deriv ?_
  obtain ⟨r, hr⟩ : ∃ r, r = xCorr m.toSMesh k l (xCoef (xIn m.toSMesh k l)).uC := ⟨_, rfl⟩
  rw [← hr]
  have hrow : jacRowX m k l = xJac m k l ++ xJacP m k l := by
    unfold jacRowX
    simp only
    rw [if_pos ⟨by omega, by omega, by omega, by omega⟩, if_neg (fun hh => by omega), List.append_nil]
  rw [hrow]
  have hval := x_row_value h du dv dp
  simp only at hval
  rw [hval, hs, ← hr]
  have hid := xjCoef_identity (xjIn m k l) (xVals (xjIdx m.toSMesh k l) du dv dp) (by rw [xjIn_inner h]; exact hx)
    (by rw [xjIn_inner h]; exact hz)
  simp only at hid
  rw [hid, xjIn_inner h, hi]
  have v00 := dev_rows hc (a := 0) (b := -1) (by norm_num) (by norm_num) (by norm_num) (by norm_num)
  have v10 := dev_rows hc (a := -1) (b := -1) (by norm_num) (by norm_num) (by norm_num) (by norm_num)
  have v01 := dev_rows hc (a := 0) (b := 0) (by norm_num) (by norm_num) (by norm_num) (by norm_num)
  have v11 := dev_rows hc (a := -1) (b := 0) (by norm_num) (by norm_num) (by norm_num) (by norm_num)
  have v02 := dev_rows hc (a := 0) (b := -2) (by norm_num) (by norm_num) (by norm_num) (by norm_num)
  have v12 := dev_rows hc (a := -1) (b := -2) (by norm_num) (by norm_num) (by norm_num) (by norm_num)
  have e1 : k + -1 = k - 1 := by ring
  have e2 : l + -1 = l - 1 := by ring
  have e3 : l + -2 = l - 2 := by ring
  have e4 : l - 2 + 1 = l - 1 := by ring
  simp only [e1, e2, e3, add_zero] at v00 v10 v01 v11 v02 v12
  simp only [xRate, dot, cellStep, vertexStep, l1, l2, k1, v00, v10, v01, v11, v02, v12, xVals]
  simp only [stretch, rise, gam, l1, k1, e4, show k + 1 + 1 = k + 2 by ring]
  field_simp
  ring

set_option maxHeartbeats 1000000 in
/-- The residual of an inner node changes at the rate found from the derivatives of the stresses. -/
theorem z_derivative (h : InnerZ m k l) (e : Setting) (b : ℝ)
    (u v p du dv dp : Int → ℝ)
    (hN : CellTangent m e.L (cellNo m (k - 1) l) (cellState m e.s e.oc u v p (cellNo m (k - 1) l)))
    (hS : CellTangent m e.L (cellNo m (k - 1) (l - 1)) (cellState m e.s e.oc u v p (cellNo m (k - 1) (l - 1))))
    (hE : VertexTangent m e.L (vertexNo m k l) (vertexState m e.s e.ov e.junk u v p (vertexNo m k l)))
    (hW : VertexTangent m e.L (vertexNo m (k - 1) l) (vertexState m e.s e.ov e.junk u v p (vertexNo m (k - 1) l))) :
    HasDerivAt (fun t => residualZ m e b k l (along u du t) (along v dv t) (along p dp t))
      (zRate m k l (zCorr m.toSMesh k l (zCoef (zIn m.toSMesh k l))) du dv dp) 0 := by
  have hk := h.k0
  have hk1 := h.k1
  have hl := h.l0
  have hl1 := h.l1
  have hi := zjIdx_inner h
  obtain ⟨hC', hW', hE', hS', hN', -, -, -, -, -, -, -, -, -, -, -, -, -, -, -, -, hpS, hpN, hpSW, hpSE, hpNW, hpNE, hgW, hgE, hgSW,
    hgSE, hgNW, hgNE⟩ := z_tags h
  rw [hi] at hC' hpS hpN hpSW hpSE hpNW hpNE hgW hgE hgSW hgSE hgNW hgNE
  simp only at hC' hpS hpN hpSW hpSE hpNW hpNE hgW hgE hgSW hgSE hgNW hgNE
  have l1 : l - 1 + 1 = l := by ring
  have k1 : k - 1 + 1 = k := by ring
  have k2 : k - 1 - 1 = k - 2 := by ring
  have mN := cell_moves e.s e.oc u v p du dv dp (a := k - 1) (b := l) (by omega) (by omega) (by omega) (by omega) hpN hgW
    (by rw [k1]; exact hgE) hgNW (by rw [k1]; exact hgNE)
  have mS := cell_moves e.s e.oc u v p du dv dp (a := k - 1) (b := l - 1) (by omega) (by omega) (by omega) (by omega) hpS hgSW
    (by rw [k1]; exact hgSE) (by rw [l1]; exact hgW) (by rw [k1, l1]; exact hgE)
  have mE := vertex_moves e.s e.ov e.junk u v p du dv dp (a := k) (b := l) (by omega) hk1 (by omega) hl1 hgE hpS hpSE hpN hpNE
  have mW := vertex_moves e.s e.ov e.junk u v p du dv dp (a := k - 1) (b := l) (by omega) (by omega) (by omega) hl1 hgW
    (by rw [k2]; exact hpSW) hpS (by rw [k2]; exact hpNW) hpN
  have nN : ((cellNo m (k - 1) l : Nat) : Int) = k - 1 + l * (m.Nx - 1) := by
    unfold cellNo; rw [Int.toNat_of_nonneg]; exact add_nonneg (by omega) (mul_nonneg (by omega) (by omega))
  have nS : ((cellNo m (k - 1) (l - 1) : Nat) : Int) = k - 1 + (l - 1) * (m.Nx - 1) := by
    unfold cellNo; rw [Int.toNat_of_nonneg]; exact add_nonneg (by omega) (mul_nonneg (by omega) (by omega))
  have nE : ((vertexNo m k l : Nat) : Int) = k + l * m.Nx := by
    unfold vertexNo; rw [Int.toNat_of_nonneg]; exact add_nonneg (by omega) (mul_nonneg (by omega) (by omega))
  have nW : ((vertexNo m (k - 1) l : Nat) : Int) = k - 1 + l * m.Nx := by
    unfold vertexNo; rw [Int.toNat_of_nonneg]; exact add_nonneg (by omega) (mul_nonneg (by omega) (by omega))
  have dN := hN.2 (cellStep m du dv dp (k - 1) l)
  have dS := hS.2 (cellStep m du dv dp (k - 1) (l - 1))
  have dE := hE (vertexStep m du dv dp k l)
  have dW := hW (vertexStep m du dv dp (k - 1) l)
  rw [nN] at dN
  rw [nS] at dS
  rw [nE] at dE
  rw [nW] at dW
  have hxi : zIdx m.toSMesh k l = ⟨k + l * (m.Nx + 1), k - 1 + l * (m.Nx + 1), k + 1 + l * (m.Nx + 1), k + (l - 1) * (m.Nx + 1),
      k + (l + 1) * (m.Nx + 1), k - 1 + l * m.Nx, k + l * m.Nx, k - 1 + (l + 1) * m.Nx, k + (l + 1) * m.Nx,
      k - 1 + (l - 1) * (m.Nx - 1), k - 1 + l * (m.Nx - 1), k + l * m.Nx, k - 1 + l * m.Nx⟩ := by
    simp only [zIdx, show (k == 1) = false by simpa using (show ¬ k = 1 by omega),
      show (k == (m.Nx : Int) + 1 - 2) = false by simpa using (show ¬ k = (m.Nx : Int) + 1 - 2 by omega), Bool.and_false,
      Bool.false_eq_true, if_false]
    congr 1 <;> ring
  have hSS : (zIn m.toSMesh k l).SS = 0 := by
    simp only [zIn, hxi, hC', show ((-1 : Int) == 2) = false from rfl, Bool.and_false, flag, Bool.false_eq_true, if_false]
  have hSN : (zIn m.toSMesh k l).SN = 0 := by
    simp only [zIn, hxi, hC', show ((-1 : Int) == 2) = false from rfl, Bool.and_false, flag, Bool.false_eq_true, if_false]
  obtain ⟨r, hr⟩ : ∃ r, r = zCorr m.toSMesh k l (zCoef (zIn m.toSMesh k l)) := ⟨_, rfl⟩
  have hres : (fun t => residualZ m e b k l (along u du t) (along v dv t) (along p dp t)) = fun t =>
      ((((fun y => e.L.szz (cellNo m (k - 1) l) y - (e.L.pc (cellNo m (k - 1) l) y - y.p))
          (move (cellState m e.s e.oc u v p (cellNo m (k - 1) l)) t (cellStep m du dv dp (k - 1) l))
        - (fun y => e.L.szz (cellNo m (k - 1) (l - 1)) y - (e.L.pc (cellNo m (k - 1) (l - 1)) y - y.p))
          (move (cellState m e.s e.oc u v p (cellNo m (k - 1) (l - 1))) t (cellStep m du dv dp (k - 1) (l - 1)))) / m.dz
        - ((p (k - 1 + l * (m.Nx - 1)) + t * dp (k - 1 + l * (m.Nx - 1)))
          - (p (k - 1 + (l - 1) * (m.Nx - 1)) + t * dp (k - 1 + (l - 1) * (m.Nx - 1)))) / m.dz
        + (e.L.sxz (vertexNo m k l) (move (vertexState m e.s e.ov e.junk u v p (vertexNo m k l)) t (vertexStep m du dv dp k l))
          - e.L.sxz (vertexNo m (k - 1) l) (move (vertexState m e.s e.ov e.junk u v p (vertexNo m (k - 1) l)) t
            (vertexStep m du dv dp (k - 1) l))) / m.dx)
        + (b - r * (v (k + l * (m.Nx + 1)) + t * dv (k + l * (m.Nx + 1))))) * -(m.dx * m.dz) := by
    funext t
    have pN : (move (cellState m e.s e.oc u v p (cellNo m (k - 1) l)) t (cellStep m du dv dp (k - 1) l)).p
        = p (k - 1 + l * (m.Nx - 1)) + t * dp (k - 1 + l * (m.Nx - 1)) := by
      rw [← mN]; simp only [cellState, nN, along]
    have pS : (move (cellState m e.s e.oc u v p (cellNo m (k - 1) (l - 1))) t (cellStep m du dv dp (k - 1) (l - 1))).p
        = p (k - 1 + (l - 1) * (m.Nx - 1)) + t * dp (k - 1 + (l - 1) * (m.Nx - 1)) := by
      rw [← mS]; simp only [cellState, nS, along]
    have cN : (k - 1 + l * ((m.Nx : Int) - 1)).toNat = cellNo m (k - 1) l := rfl
    have cS : (k - 1 + (l - 1) * ((m.Nx : Int) - 1)).toNat = cellNo m (k - 1) (l - 1) := rfl
    have cE : (k + l * (m.Nx : Int)).toNat = vertexNo m k l := rfl
    have cW : (k - 1 + l * (m.Nx : Int)).toNat = vertexNo m (k - 1) l := rfl
    simp only [residualZ, zResidual, hxi, hSS, hSN, ← hr, cE, cW, cN, cS, mE, mW, mN, mS, pN, pS]
    simp only [along]
    ring
  rw [hres]
  have base := (((((dN.sub dS).div_const m.dz).sub
      (((((hasDerivAt_id (0:ℝ)).mul_const (dp (k - 1 + l * (m.Nx - 1)))).const_add (p (k - 1 + l * (m.Nx - 1)))).sub
        (((hasDerivAt_id (0:ℝ)).mul_const (dp (k - 1 + (l - 1) * (m.Nx - 1)))).const_add (p (k - 1 + (l - 1) * (m.Nx - 1))))).div_const m.dz)).add
      ((dE.sub dW).div_const m.dx)).add
      (((((hasDerivAt_id (0:ℝ)).mul_const (dv (k + l * (m.Nx + 1)))).const_add (v (k + l * (m.Nx + 1)))).const_mul r).const_sub b)).mul_const
      (-(m.dx * m.dz))
  refine base.congr_deriv ?_
  simp only [zRate, ← hr]
  ring

set_option maxHeartbeats 1000000 in
/-- **Rows of the z-equations.** -/
theorem z_row_is_derivative_partial (h : InnerZ m k l) (hx : m.dx ≠ 0) (hz : m.dz ≠ 0) (e : Setting) (b : ℝ)
    (u v p du dv dp : Int → ℝ)
    (hs : zjCorr m.toSMesh k l (zjCoef (zjIn m k l)).vC = zCorr m.toSMesh k l (zCoef (zIn m.toSMesh k l)))
    (hc : m.comp = true ∨ KeepsVolume m k l (-2) (-1) du dv)
    (hN : CellTangent m e.L (cellNo m (k - 1) l) (cellState m e.s e.oc u v p (cellNo m (k - 1) l)))
    (hS : CellTangent m e.L (cellNo m (k - 1) (l - 1)) (cellState m e.s e.oc u v p (cellNo m (k - 1) (l - 1))))
    (hE : VertexTangent m e.L (vertexNo m k l) (vertexState m e.s e.ov e.junk u v p (vertexNo m k l)))
    (hW : VertexTangent m e.L (vertexNo m (k - 1) l) (vertexState m e.s e.ov e.junk u v p (vertexNo m (k - 1) l))) :
    HasDerivAt (fun t => residualZ m e b k l (along u du t) (along v dv t) (along p dp t))
      (applyTo (atNode du dv dp) (jacRowZ m k l)) 0 := by
  have hk := h.k0
  have hk1 := h.k1
  have hl := h.l0
  have hl1 := h.l1
  have hi := zjIdx_inner h
  have l1 : l - 1 + 1 = l := by ring
  have l2 : l - 1 - 1 = l - 2 := by ring
  have k1 : k - 1 + 1 = k := by ring
  have k2 : k - 1 - 1 = k - 2 := by ring
  refine (z_derivative h e b u v p du dv dp hN hS hE hW).congr_deriv ?_
  obtain ⟨r, hr⟩ : ∃ r, r = zCorr m.toSMesh k l (zCoef (zIn m.toSMesh k l)) := ⟨_, rfl⟩
  rw [← hr]
  have hrow : jacRowZ m k l = zJac m k l ++ zJacP m k l := by
    unfold jacRowZ
    simp only
    rw [if_pos ⟨by omega, by omega, by omega, by omega⟩]
  rw [hrow]
  have hval := z_row_value h du dv dp
  simp only at hval
  rw [hval, hs, ← hr]
  have hid := zjCoef_identity (zjIn m k l) (zVals (zjIdx m.toSMesh k l) du dv dp) (by rw [zjIn_inner h]; exact hx)
    (by rw [zjIn_inner h]; exact hz)
  simp only at hid
  rw [hid, zjIn_inner h, hi]
  have v00 := dev_rows hc (a := 0) (b := -1) (by norm_num) (by norm_num) (by norm_num) (by norm_num)
  have v10 := dev_rows hc (a := -1) (b := -1) (by norm_num) (by norm_num) (by norm_num) (by norm_num)
  have v20 := dev_rows hc (a := -2) (b := -1) (by norm_num) (by norm_num) (by norm_num) (by norm_num)
  have v01 := dev_rows hc (a := 0) (b := 0) (by norm_num) (by norm_num) (by norm_num) (by norm_num)
  have v11 := dev_rows hc (a := -1) (b := 0) (by norm_num) (by norm_num) (by norm_num) (by norm_num)
  have v21 := dev_rows hc (a := -2) (b := 0) (by norm_num) (by norm_num) (by norm_num) (by norm_num)
  have e1 : k + -1 = k - 1 := by ring
  have e2 : l + -1 = l - 1 := by ring
  have e3 : k + -2 = k - 2 := by ring
  have e4 : k - 2 + 1 = k - 1 := by ring
  simp only [e1, e2, e3, add_zero] at v00 v10 v01 v11 v20 v21
  simp only [zRate, dot, cellStep, vertexStep, l1, k1, k2, v00, v10, v01, v11, v20, v21, zVals]
  simp only [stretch, rise, gam, l1, k1, e4, show l + 1 + 1 = l + 2 by ring]
  field_simp
  ring

/-- The operators the code stores for a cell (C117) meet what the rows ask for. -/
theorem stored_cell_operators (L : Laws) (c : Nat) (x : Pt ℝ) (eta divp del : Pt ℝ → ℝ) (d1 d2 kdt : ℝ) (de dd da : Grad ℝ)
    (he : Slope eta x de) (hd : Slope divp x dd) (ha : Slope del x da) (h0 : del x ≠ 0)
    (hL : ∀ y, L.sxx c y = (stress (eta y) (del y) d1 d2 y).1 ∧ L.szz c y = (stress (eta y) (del y) d1 d2 y).2.1
      ∧ L.pc c y = y.p + kdt * divp y)
    (hD : (⟨⟨m.D11 c, m.D12 c, m.D13 c, m.D14 c⟩, ⟨m.D21 c, m.D22 c, m.D23 c, m.D24 c⟩⟩ : CellOp ℝ)
      = cellNewton false (eta x) (del x) d1 d2 kdt x de dd da) : CellTangent m L c x := by
  obtain ⟨h1, h2⟩ := cell_tangent eta divp del d1 d2 kdt x de dd da he hd ha h0
  rw [← hD] at h1 h2
  constructor
  · convert h1 using 2 with y
    rw [(hL y).1, (hL y).2.2]; ring
  · convert h2 using 2 with y
    rw [(hL y).2.1, (hL y).2.2]; ring

/-- The same for vertices. -/
theorem stored_vertex_operators (L : Laws) (c : Nat) (x : Pt ℝ) (eta del : Pt ℝ → ℝ) (d1 d2 : ℝ) (de da : Grad ℝ)
    (he : Slope eta x de) (ha : Slope del x da) (h0 : del x ≠ 0)
    (hL : ∀ y, L.sxz c y = (stress (eta y) (del y) d1 d2 y).2.2)
    (hD : (⟨m.D31 c, m.D32 c, m.D33 c, m.D34 c⟩ : Grad ℝ) = vertNewton false (eta x) (del x) d1 d2 x de da) :
    VertexTangent m L c x := by
  have h1 := vertex_tangent eta del d1 d2 x de da he ha h0
  rw [← hD] at h1
  unfold VertexTangent
  convert h1 using 2 with y
  exact hL y

end Verif.JacRow
