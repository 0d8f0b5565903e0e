import Verif.Props.NewtonRow
import Mathlib.Analysis.Calculus.Deriv.Add
import Mathlib.Analysis.Calculus.Deriv.Mul

/- Where the rows of Newton's matrix are not the derivatives of the residuals. -/
namespace Verif.JacRow
open Verif Verif.Tan Verif.Spec Verif.Spec.Newton

/-- A box of rock, 6 by 6 vertices, viscosity 1. -/
noncomputable def box (compressible : Bool) : JMesh ℝ where
  Nx := 6
  Nz := 6
  dx := 1
  dz := 1
  tu _ := -1
  tv _ := -1
  tp _ := -1
  tg _ := -1
  bu _ := 0
  bv _ := 0
  bp _ := 0
  D11 _ := 2
  D22 _ := 2
  D33 _ := 1
  rho _ := 0
  gx _ := 0
  gz _ := 0
  oop := false
  comp := compressible
  stab := false
  theta := 0
  dt := 0
  D12 _ := 0
  D13 _ := 0
  D14 _ := 0
  D21 _ := 0
  D23 _ := 0
  D24 _ := 0
  D31 _ := 0
  D32 _ := 0
  D34 _ := 0
  per := false

/-- Viscous stresses. -/
noncomputable def viscous : Laws where
  sxx _ y := 2 * y.xx
  szz _ y := 2 * y.zz
  pc _ y := y.p
  sxz _ y := y.g

noncomputable def plain : Setting where
  s := ⟨0, 0, 0, 0, 0, 0, 0, 0, 0, 0⟩
  junk := 0
  oc _ := ⟨0, 0, 0, 0⟩
  ov _ := ⟨0, 0, 0, 0⟩
  L := viscous

theorem box_inner (c : Bool) : InnerX (box c) 2 2 where
  k0 := by norm_num
  k1 := by norm_num [box]
  l0 := by norm_num
  l1 := by norm_num [box]
  u := by intros; rfl
  v := by intros; rfl
  p := by intros; rfl
  g := by intros; simp [box]

private theorem slope_lin (g : Grad ℝ) (x : Pt ℝ) : Slope (fun y => g.xx * y.xx + g.zz * y.zz + g.g * y.g + g.p * y.p) x g := by
  intro d
  have id := hasDerivAt_id (0 : ℝ)
  have h (a b : ℝ) : HasDerivAt (fun t : ℝ => a + t * b) b 0 := by
    simpa using (id.mul_const b).const_add a
  have := ((((h x.xx d.xx).const_mul g.xx).add ((h x.zz d.zz).const_mul g.zz)).add ((h x.g d.g).const_mul g.g)).add
    ((h x.p d.p).const_mul g.p)
  exact this

theorem box_cell (c : Bool) (n : Nat) (x : Pt ℝ) : CellTangent (box c) viscous n x := by
  constructor
  · have := slope_lin ⟨2, 0, 0, 0⟩ x
    simpa [viscous, box] using this
  · have := slope_lin ⟨0, 2, 0, 0⟩ x
    simpa [viscous, box] using this

theorem box_vertex (c : Bool) (n : Nat) (x : Pt ℝ) : VertexTangent (box c) viscous n x := by
  have := slope_lin ⟨0, 0, 1, 0⟩ x
  simpa [VertexTangent, viscous, box] using this

theorem box_stab (c : Bool) : xjCorr (box c).toSMesh 2 2 (xjCoef (xjIn (box c) 2 2)).uC
    = xCorr (box c).toSMesh 2 2 (xCoef (xIn (box c).toSMesh 2 2)).uC := by
  simp [xjCorr, xCorr, box]

/-- The hypotheses of `x_row_is_derivative_partial` hold in a compressible box of viscous rock. -/
example (b : ℝ) (u v p du dv dp : Int → ℝ) :
    HasDerivAt (fun t => residualX (box true) plain b 2 2 (along u du t) (along v dv t) (along p dp t))
      (applyTo (atNode du dv dp) (jacRowX (box true) 2 2)) 0 :=
  x_row_is_derivative_partial (box_inner true) (by norm_num [box]) (by norm_num [box]) plain b u v p du dv dp (box_stab true)
    (Or.inl rfl) (box_cell _ _ _) (box_cell _ _ _) (box_vertex _ _ _) (box_vertex _ _ _)

/-- **Incompressible models.**  Everything else being in order, the row of an incompressible model is not the
derivative of its residual: the matrix subtracts a third of the volume change from the strain rates, the strain
rates do not. -/
theorem incompressible_row_not_derivative (b : ℝ) (u v p : Int → ℝ) :
    ∃ du : Int → ℝ, ¬ HasDerivAt (fun t => residualX (box false) plain b 2 2 (along u du t) (along v 0 t) (along p 0 t))
      (applyTo (atNode du 0 0) (jacRowX (box false) 2 2)) 0 := by
  refine ⟨fun i => if i = 15 then 1 else 0, fun h => ?_⟩
  have hx : (box false).dx ≠ 0 := by norm_num [box]
  have hz : (box false).dz ≠ 0 := by norm_num [box]
  have hd := x_derivative (box_inner false) plain b u v p (fun i => if i = 15 then 1 else 0) 0 0 (box_cell _ _ _) (box_cell _ _ _)
    (box_vertex _ _ _) (box_vertex _ _ _)
  have e := h.unique hd
  have hrow : jacRowX (box false) 2 2 = xJac (box false) 2 2 ++ xJacP (box false) 2 2 := by
    unfold jacRowX
    simp only
    rw [if_pos (by norm_num [box]), if_neg (by norm_num), List.append_nil]
  rw [hrow] at e
  have hval := x_row_value (box_inner false) (fun i => if i = 15 then 1 else 0) 0 0
  simp only at hval
  rw [hval] at e
  have hid := xjCoef_identity (xjIn (box false) 2 2) (xVals (xjIdx (box false).toSMesh 2 2) (fun i => if i = 15 then 1 else 0) 0 0)
    (by rw [xjIn_inner (box_inner false)]; exact hx) (by rw [xjIn_inner (box_inner false)]; exact hz)
  simp only at hid
  rw [hid, xjIn_inner (box_inner false), xjIdx_inner (box_inner false)] at e
  simp [xVals, box, xRate, dot, cellStep, vertexStep, devX, devZ, third, stretch, rise, gam, xjCorr, xCorr, flag] at e

/-- **Stress sides.**  The matrix has nothing in the row of a node on a left or right side with a given stress. -/
theorem stress_side_row_empty (m : JMesh ℝ) {k l : Int} (h2 : m.tu (k + l * m.Nx) = 2) (hk : k = 0 ∨ k = m.Nx - 1) :
    jacRowX m k l = [] := by
  unfold jacRowX
  simp only
  rw [if_neg (by rcases hk with hk | hk <;> omega), if_neg (by rw [h2]; rintro ⟨-, h⟩; norm_num at h), List.append_nil]

/-- The same for nodes on the bottom or top. -/
theorem stress_bottom_row_empty (m : JMesh ℝ) {k l : Int} (hl : l = 0 ∨ l = m.Nz - 1) : jacRowZ m k l = [] := by
  unfold jacRowZ
  simp only
  rw [if_neg (by rcases hl with hl | hl <;> omega)]

/-- The residual of such a node changes with the pressure next to it, whatever the mesh: at the left side, under the
law `no deviatoric stress`, at the rate `dx dz / dx` -- which no empty row predicts. -/
theorem stress_side_row_not_derivative (m : JMesh ℝ) {l : Int} (h2 : m.tu (0 + l * m.Nx) = 2) (hN : 1 < m.Nx) (hl : 1 ≤ l)
    (hx : m.dx ≠ 0) (hz : m.dz ≠ 0) (b : ℝ) (e : Setting) (hL : e.L = ⟨fun _ _ => 0, fun _ _ => 0, fun _ y => y.p, fun _ _ => 0⟩)
    (hr : xCorr m.toSMesh 0 l (xCoef (xIn m.toSMesh 0 l)).uC = 0) (u v p : Int → ℝ) :
    ∃ dp : Int → ℝ, ¬ HasDerivAt (fun t => residualX m e b 0 l (along u 0 t) (along v 0 t) (along p dp t))
      (applyTo (atNode 0 0 dp) (jacRowX m 0 l)) 0 := by
  refine ⟨fun _ => 1, fun h => ?_⟩
  rw [stress_side_row_empty m h2 (Or.inl rfl)] at h
  have hSE : (xIn m.toSMesh 0 l).SE = 0 := by
    simp only [xIn, h2, show ((0 : Int) == (m.Nx : Int) - 1) = false by simpa using (show ¬ (0 : Int) = m.Nx - 1 by omega),
      Bool.false_and, flag, Bool.false_eq_true, if_false]
  have hSW : (xIn m.toSMesh 0 l).SW = 1 := by
    simp only [xIn, h2]; rfl
  have hpE : (xIdx m.toSMesh 0 l).pE = (l - 1) * (m.Nx - 1) := by simp only [xIdx]; ring
  have hn : (((l - 1) * ((m.Nx : Int) - 1)).toNat : Int) = (l - 1) * (m.Nx - 1) :=
    Int.toNat_of_nonneg (mul_nonneg (by omega) (by omega))
  have hres : (fun t => residualX m e b 0 l (along u 0 t) (along v 0 t) (along p (fun _ => 1) t)) = fun t =>
      ((-(2 * m.bu (xIdx m.toSMesh 0 l).C) - 2 * (p ((l - 1) * (m.Nx - 1)) + t * 1)) / m.dx * (1 / 2) + b) * -(m.dx * m.dz) := by
    funext t
    simp only [residualX, xResidual, hSE, hSW, hr, hL, hpE, cellState, hn, along]
    ring
  rw [hres] at h
  have id := hasDerivAt_id (0 : ℝ)
  have hd := ((((((id.mul_const (1 : ℝ)).const_add (p ((l - 1) * (m.Nx - 1)))).const_mul 2).const_sub
    (-(2 * m.bu (xIdx m.toSMesh 0 l).C))).div_const m.dx).mul_const (1 / 2)).add_const b |>.mul_const (-(m.dx * m.dz))
  have e := h.unique hd
  simp only [applyTo, List.map_nil, List.sum_nil] at e
  field_simp at e
  norm_num at e
  exact hz e.symm

/-- A box with one cell of air, north-east of node `(2, 2)`, and a shear stress equal to the pressure. -/
noncomputable def notched : JMesh ℝ :=
  { box true with
    tp := fun i => if i = 12 then 30 else -1
    D11 := fun _ => 0
    D22 := fun _ => 0
    D33 := fun _ => 0
    D34 := fun _ => 1 }

noncomputable def pressing : Laws where
  sxx _ _ := 0
  szz _ _ := 0
  pc _ y := y.p
  sxz _ y := y.p

/-- **Below the surface.**  Next to a cell of air the row is not the derivative of the residual although every
stored operator is the derivative of its stress: the matrix gives the three rock cells around the vertex a third
each, the pressure of the vertex is made with a quarter of each. -/
theorem surface_row_not_derivative (b : ℝ) (u v p : Int → ℝ) :
    (∀ n x, CellTangent notched pressing n x) ∧ (∀ n x, VertexTangent notched pressing n x)
    ∧ ∃ dp : Int → ℝ, ¬ HasDerivAt (fun t => residualX notched { plain with L := pressing } b 2 2 (along u 0 t) (along v 0 t) (along p dp t))
      (applyTo (atNode 0 0 dp) (jacRowX notched 2 2)) 0 := by
  refine ⟨fun n x => ⟨?_, ?_⟩, fun n x => ?_, fun i => if i = 11 then 1 else 0, fun h => ?_⟩
  · simpa [pressing, notched, box] using slope_lin ⟨0, 0, 0, 0⟩ x
  · simpa [pressing, notched, box] using slope_lin ⟨0, 0, 0, 0⟩ x
  · simpa [VertexTangent, pressing, notched, box] using slope_lin ⟨0, 0, 0, 1⟩ x
  have hrow : applyTo (atNode 0 0 fun i => if i = 11 then 1 else 0) (jacRowX notched 2 2) = -(1 / 3) := by
    have e : jacRowX notched 2 2 = xJac notched 2 2 ++ xJacP notched 2 2 := by
      unfold jacRowX
      simp only
      rw [if_pos (by norm_num [notched, box]), if_neg (by norm_num), List.append_nil]
    rw [e]
    unfold xJac xJacP
    dsimp only
    simp only [applyTo_append, applyTo_guarded, atNode]
    simp [xjIdx, notched, box, xjCoef, xjIn, flag, jw]
    norm_num
  have hv : ∀ (q : Int → ℝ) (c : Nat), c = 14 ∨ c = 8 →
      (vertexState notched plain.s plain.ov plain.junk u v q c).p
        = if c = 14 then (q 6 + q 7 + q 11) / 4 else (q 1 + q 2 + q 6 + q 7) / 4 := by
    intro q c hc
    have key := fun l (hl : l < 6) => GridField.centroidsToVertices_spec false 6 6 (by norm_num) (by norm_num) (fun n => notched.tp n)
      (fun n => notched.tg n) (fun n => q n) plain.junk 2 l (by norm_num) hl
    simp only [vertexState]
    rcases hc with rfl | rfl
    · refine (key 2 (by norm_num)).trans ?_
      simp [notched, box, cellsAt, cellLeft, cellRight, AirFlag]
      ring
    · refine (key 1 (by norm_num)).trans ?_
      simp [notched, box, cellsAt, cellLeft, cellRight, AirFlag]
      ring
  rw [hrow] at h
  have hC : xIdx notched.toSMesh 2 2 = ⟨14, 13, 15, 8, 20, 9, 10, 16, 17, 6, 7, 14, 8⟩ := by
    simp [xIdx, notched, box]
  have hS : (xIn notched.toSMesh 2 2).SE = 0 ∧ (xIn notched.toSMesh 2 2).SW = 0 := by
    simp [xIn, notched, box, flag]
  have hr : xCorr notched.toSMesh 2 2 (xCoef (xIn notched.toSMesh 2 2)).uC = 0 := by simp [xCorr, notched, box]
  have hres : (fun t => residualX notched { plain with L := pressing } b 2 2 (along u 0 t) (along v 0 t)
      (along p (fun i => if i = 11 then 1 else 0) t)) = fun t =>
      ((p 6 - p 7) + ((p 6 + p 7 + (p 11 + t * 1)) / 4 - (p 1 + p 2 + p 6 + p 7) / 4) + b) * -1 := by
    funext t
    have u0 : along u 0 t = u := by funext i; simp [along]
    have v0 : along v 0 t = v := by funext i; simp [along]
    rw [u0, v0]
    simp only [residualX, xResidual, hC, hS, hr, pressing]
    simp only [show Int.toNat 14 = 14 from rfl, show Int.toNat 8 = 8 from rfl]
    rw [hv _ 14 (Or.inl rfl), hv _ 8 (Or.inr rfl)]
    simp [cellState, along, notched, box]
  rw [hres] at h
  have id := hasDerivAt_id (0 : ℝ)
  have hd := (((((((id.mul_const (1 : ℝ)).const_add (p 11)).const_add (p 6 + p 7)).div_const 4).sub_const
    ((p 1 + p 2 + p 6 + p 7) / 4)).const_add (p 6 - p 7)).add_const b).mul_const (-1)
  have e := h.unique hd
  norm_num at e

end Verif.JacRow
