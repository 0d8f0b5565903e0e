import Verif.Props.StepLinear
import Verif.Props.StepHeat

/-
C151: the box of Props/StepHeat.lean, starting from rest, meets the hypotheses: the flow that the gravity drives is found by one linear solve.
-/
namespace Verif.StepFlow

/-- The box is viscous. -/
theorem box_viscoelastic : Viscoelastic box where
  Nx := by decide
  Nz := by decide
  minEta := by simp only [box, Point.settings]; norm_num
  limits := by simp only [box, Point.settings]; norm_num
  dt := by simp only [box, Point.settings]; norm_num
  R := by simp only [box, Point.settings]; norm_num
  sE := by simp only [box, Point.settings]; norm_num
  sT := by simp only [box, Point.settings]; norm_num
  sS := by simp only [box, Point.settings]; norm_num
  sL := by simp only [box, Point.settings]; norm_num
  sEta := by simp only [box, Point.settings]; norm_num
  mixing := rfl
  mats := fun p _ => by
    refine ⟨rfl, rfl, rfl, rfl, rfl, rfl, ?_⟩
    simp only [box, block, Point.viscous, Point.rock, Point.settings]
    norm_num
  cells := fun c _ _ => by
    refine ⟨⟨fun p _ => Or.inr ?_, ?_⟩, ?_⟩ <;> simp only [box, block, Point.halfHalf, Point.settings] <;> norm_num
  verts := fun c _ _ => by
    refine ⟨⟨fun p _ => Or.inr ?_, ?_⟩, ?_⟩ <;> simp only [box, block, Point.halfHalf, Point.settings] <;> norm_num
  touch := fun k _ l _ _ => ⟨_, List.mem_cons_self, by simp [Spec.AirFlag, box, boxMesh, blockMesh]⟩

/-- Tags of the box as tables. -/
private def tabU (c : Nat) : Int := if c % 3 ≠ 1 then 0 else if c = 1 ∨ c = 10 then 11 else -1
private def tabV (c : Nat) : Int := if c < 4 ∨ 8 ≤ c then 0 else if c = 4 ∨ c = 7 then 11 else -1

private theorem box_tu (c : Nat) : box.m.tu c = tabU c := by
  simp only [box, boxMesh, tabU]
  congr 1
  · have : ((c : Int) % 3 = 1) ↔ c % 3 = 1 := by omega
    simp [this]
  · have h1 : ((c : Int) = 1) ↔ c = 1 := by omega
    have h2 : ((c : Int) = 10) ↔ c = 10 := by omega
    simp only [h1, h2]

private theorem box_tv (c : Nat) : box.m.tv c = tabV c := by
  have h1 : ((c : Int) < 4 ∨ (8 : Int) ≤ c) ↔ (c < 4 ∨ 8 ≤ c) := by omega
  have h2 : ((c : Int) = 4 ∨ (c : Int) = 7) ↔ (c = 4 ∨ c = 7) := by omega
  simp only [box, boxMesh, tabV, h1, h2]

private theorem box_tp (c : Nat) : box.m.tp c = -1 := rfl

private theorem box_tags : tagsOf box = ⟨tabU, tabV, fun _ => -1⟩ := by
  unfold tagsOf
  congr 1
  · funext c; exact box_tu c
  · funext c; exact box_tv c

private theorem box_box : Box box where
  dx := by norm_num [box, boxMesh, blockMesh]
  dz := by norm_num [box, boxMesh, blockMesh]
  tags := by rw [box_tags]; exact ⟨by decide, by decide, by decide, by decide⟩
  ghosts := by
    rw [box_tags]
    refine ⟨fun i l hi hl => ?_, fun i l hi hl => ?_, fun i l hi hl => ?_⟩
    · have hi : i < 3 := hi
      have hl : l ≤ 3 := hl
      interval_cases i <;> interval_cases l <;> decide
    · have hi : i < 3 := hi
      have hl : l ≤ 3 := hl
      interval_cases i <;> interval_cases l <;> decide
    · have hi : i ≤ 3 := hi
      have hl : l < 3 := hl
      interval_cases i <;> interval_cases l <;> decide
  periodicU := fun i => by rw [box_tu]; unfold tabU; split_ifs <;> decide
  periodicV := fun i => by rw [box_tv]; unfold tabV; split_ifs <;> decide
  cells := fun k l _ _ => by rw [box_tp]; simp [CellOk]
  freeU := fun a ha he => by
    have ha : a < 12 := ha
    rw [box_tu] at he
    unfold FreeU
    rw [box_tu]
    interval_cases a <;> first | exact absurd he (by decide) | exact ⟨by decide, by decide, by decide, by decide, by decide⟩
  freeV := fun a ha he => by
    have ha : a < 12 := ha
    rw [box_tv] at he
    unfold FreeV
    rw [box_tv]
    interval_cases a <;> first | exact absurd he (by decide) | exact ⟨by decide, by decide, by decide, by decide, by decide⟩

/-- The solution vector: the flow with the opposite sign, two horizontal velocities, two vertical ones, four pressures. -/
noncomputable def boxSolution : Nat → ℝ := fun i =>
  -(if i = 0 then boxFlow.u 4 else if i = 1 then boxFlow.u 7 else if i = 2 then boxFlow.v 5 else if i = 3 then boxFlow.v 6 else boxFlow.p (i - 4))

private theorem box_change : changeOf box (fun _ => -1) 0 boxSolution = ⟨fun i => -boxFlow.u i, fun i => -boxFlow.v i, fun i => -boxFlow.p i⟩ := by
  obtain ⟨c1, c2, c3⟩ := change_bc box box_box (by decide) (by decide) (fun _ => -1) 0 boxSolution
  have e0 : changeOf box (fun _ => -1) 0 boxSolution = clip box (extractSolutions box.m.Nx box.m.Nz (tagsOf box) ⟨fun _ => 0, fun _ => 0⟩
    (evalNumberOfEquations box.m.Nx box.m.Nz (tagsOf box) fun _ => -1) 0 boxSolution (1 : ℝ) ⟨fun _ => 0, fun _ => 0, fun _ => 0⟩) := by
    unfold changeOf extracted
    simp [inner, unclip, clip]
  rw [e0]
  have eN : box.m.Nx = 3 := rfl
  have eM : box.m.Nz = 3 := rfl
  rw [box_tags] at c1 c2 c3 ⊢
  rw [eN, eM] at c1 c2 c3 ⊢
  generalize extractSolutions 3 3 ⟨tabU, tabV, fun _ => -1⟩ ⟨fun _ => 0, fun _ => 0⟩
    (evalNumberOfEquations 3 3 ⟨tabU, tabV, fun _ => -1⟩ fun _ => -1) 0 boxSolution (1 : ℝ) ⟨fun _ => 0, fun _ => 0, fun _ => 0⟩ = g at *
  have u4 : g.u 4 = boxSolution 0 := c1 (.u 4) (show 4 < 12 by decide) (Or.inl (by decide))
  have u7 : g.u 7 = boxSolution 1 := c1 (.u 7) (show 7 < 12 by decide) (Or.inl (by decide))
  have v5 : g.v 5 = boxSolution 2 := c1 (.v 5) (show 5 < 12 by decide) (Or.inl (by decide))
  have v6 : g.v 6 = boxSolution 3 := c1 (.v 6) (show 6 < 12 by decide) (Or.inl (by decide))
  have hp : ∀ i < 4, g.p i = boxSolution (i + 4) := fun i hi => by
    interval_cases i
    · exact c1 (.p 0) (show 0 < 4 by decide) rfl
    · exact c1 (.p 1) (show 1 < 4 by decide) rfl
    · exact c1 (.p 2) (show 2 < 4 by decide) rfl
    · exact c1 (.p 3) (show 3 < 4 by decide) rfl
  have n1 := c3.noSlipS 1 (by decide) (by decide)
  have n2 := c3.noSlipN 1 (by decide) (by decide)
  have n3 := c3.noSlipW 1 (by decide) (by decide)
  have n4 := c3.noSlipE 1 (by decide) (by decide)
  norm_num [u4, u7, v5, v6, boxSolution, boxFlow] at n1 n2 n3 n4
  norm_num [boxSolution, boxFlow] at u4 u7 v5 v6
  have zu : ∀ i < 12, tabU i = 0 → g.u i = 0 := fun i hi h => c2 (.u i) hi (Or.inl h)
  have zv : ∀ i < 12, tabV i = 0 → g.v i = 0 := fun i hi h => c2 (.v i) hi (Or.inl h)
  unfold clip
  rw [eN, eM]
  congr 1
  · funext i
    by_cases hi : i < 12
    · rw [if_pos hi]
      by_cases ht : tabU i = 0
      · rw [zu i hi ht]
        interval_cases i <;> first | exact absurd ht (by decide) | norm_num [boxFlow]
      · interval_cases i <;> first | exact absurd (by decide) ht | (norm_num [boxFlow]; linarith)
    · rw [if_neg hi]
      simp only [boxFlow]
      rw [if_neg (by omega), if_neg (by omega), neg_zero]
  · funext i
    by_cases hi : i < 12
    · rw [if_pos hi]
      by_cases ht : tabV i = 0
      · rw [zv i hi ht]
        interval_cases i <;> first | exact absurd ht (by decide) | norm_num [boxFlow]
      · interval_cases i <;> first | exact absurd (by decide) ht | (norm_num [boxFlow]; linarith)
    · rw [if_neg hi]
      simp only [boxFlow]
      rw [if_neg (by omega), if_neg (by omega), neg_zero]
  · funext i
    by_cases hi : i < 4
    · rw [if_pos hi, hp i hi]
      interval_cases i <;> norm_num [boxSolution, boxFlow]
    · rw [if_neg hi]
      simp only [boxFlow]
      rw [if_neg (by omega), if_neg (by omega), if_neg (by omega), if_neg (by omega), neg_zero]

/-- Nothing moves. -/
noncomputable def rest : LS.Fields := ⟨fun _ => 0, fun _ => 0, fun _ => 0⟩

/-- At rest the weight of the left column is not carried. -/
private theorem rest_row (t o : Mech) (ht : t.rho = boxDens) (ho : updateNL box false rest t = .ok o) : (rows box (opsOf box o) rest o).z 1 1 = 324 * 10 ^ 8 := by
  obtain ⟨f', t', h⟩ := isoviscous_goes_on box _ box_isoviscous rest t
  obtain ⟨hc, hv⟩ := isoviscous_recorded box _ box_isoviscous rest f' t t' h
  have h1 := (fin_ok h).1
  rw [final_flag_unused box rfl true false, ho] at h1
  obtain rfl : o = t' := by simpa using h1
  obtain ⟨hr, -, -, -, -, -, hrho, hbx, hbz⟩ := updateNL_ok ho
  have hrho : o.rho = boxDens := by rw [hrho, ← ht]; rfl
  have hbz1 : o.bz 5 = -32400 := by
    rw [hbz]; unfold written
    rw [if_pos (show 5 < (box.m.Nx + 1) * box.m.Nz by decide), hrho]
    norm_num [Resid.rogerZ, meshRho, box, boxMesh, blockMesh, block, Setting.arr, boxDens, show Int.toNat 2 = 2 from rfl, show Int.toNat 3 = 3 from rfl]
  have ha : ∀ c : Nat, ¬ (box.m.tp c = 30 ∨ box.m.tp c = 31) := fun c => by simp [box, boxMesh, blockMesh]
  have hzz : ∀ l < 2, (o.cells (0 + l * 2)).T.zz = 0 ∧ f'.p (0 + l * 2) = 0 := fun l hl => by
    have a3 := (cell_rates box rest t.rates 0 l (by decide) hl (ha _)).2.2
    rw [← hr] at a3
    obtain ⟨c1, c2, -⟩ := hc (0 + l * 2) (cell_lt 2 2 0 l (by decide) hl) (ha _)
    replace a3 : o.rates.ezz (0 + l * 2) = 0 := a3.trans (by simp [rest])
    rw [c1, c2]
    unfold Point.nodeStress
    dsimp only
    rw [a3]
    exact ⟨mul_zero _, rfl⟩
  have hxz : ∀ k < 3, (o.verts (k + 1 * 3)).T.xz = 0 := fun k hk => by
    have e := shear_rate box rest t.rates k 1 hk (by decide)
    rw [← hr] at e
    replace e : o.rates.exz (k + 1 * 3) = 0 := e.trans (by simp [rest])
    rw [hv (k + 1 * 3) (cell_lt 3 3 k 1 hk (by decide)) (by simp [box, boxMesh, blockMesh])]
    unfold Point.nodeStress
    dsimp only
    rw [e]
    exact mul_zero _
  have e := recorded_force_balance_z box (by decide) rfl rest f' t o h 1 1 (by decide) (by decide) (by decide) (by decide)
  have eN : box.m.Nx = 3 := rfl
  have d1 : box.m.dx = 1000 := rfl
  have d2 : box.m.dz = 1000 := rfl
  dsimp only at e
  rw [eN, d1, d2] at e
  obtain ⟨z0, p0⟩ := hzz 0 (by decide)
  obtain ⟨z1, p1⟩ := hzz 1 (by decide)
  have s0 := hxz 0 (by decide)
  have s1 := hxz 1 (by decide)
  norm_num at z0 p0 z1 p1 s0 s1 e
  rw [e, z0, p0, z1, p1, s0, s1, hbz1]
  norm_num

/-- The hypotheses of `residual_linear_in_step_partial` and `one_solve_is_enough_partial` are met: from rest, one linear solve
finds the flow that the gravity drives in the box. -/
theorem box_linear (t : Mech) (ht : t.rho = boxDens) : ∃ L : LinearPass box, L.f = rest ∧ L.t = t ∧ L.flow (-1) = boxFlow ∧ L.found.z 1 1 = 324 * 10 ^ 8 := by
  obtain ⟨o, ho⟩ := viscoelastic_goes_on box box_viscoelastic false rest t
  have hrho : o.rho = boxDens := by
    obtain ⟨-, -, -, -, -, -, q, -⟩ := updateNL_ok ho
    rw [q, ← ht]; rfl
  obtain ⟨f', t', h, -, hq, -⟩ := heat_falls_short o hrho
  have h1 := (fin_ok h).1
  rw [final_flag_unused box rfl true false] at h1
  have hd := change_homogeneous box box_box (by decide) (by decide) (fun _ => -1) 0 boxSolution
  have hs : shift rest (changeOf box (fun _ => -1) 0 boxSolution) (-1) = boxFlow := by
    rw [box_change]; simp [shift, rest]
  have h2 := h1
  rw [← hs] at h2
  obtain ⟨m1, m2, m3⟩ := matrix_is_derivative_partial box_viscoelastic box_box rfl ho hd h2
  rw [hs] at m1 m2 m3
  have hadm : Admissible box ⟨fun _ => 0, fun _ => 0⟩ rest :=
    ⟨by constructor <;> intros <;> simp [unclip, rest], fun _ _ => rfl, fun _ _ => rfl, fun _ _ => rfl⟩
  refine ⟨⟨box_viscoelastic, box_box, rfl, ⟨fun _ => 0, fun _ => 0⟩, ⟨fun _ => 0, fun _ => 0⟩, fun _ _ => by simp, fun _ _ => by simp, rest, hadm, t, o, _,
    by unfold pass; rw [ho], fun _ => -1, 0, boxSolution, fun k l hf => ?_, fun k l hf => ?_, fun k l hf => ?_⟩, rfl, rfl, ?_, ?_⟩
  · have e := m1 k l hf
    obtain ⟨k0, k1, l0, l1, -⟩ := hf
    rw [(hq.x k l k0 k1 l0 l1 (by
      obtain rfl : k = 1 := by have : k + 1 < 3 := k1; omega
      have : l < 3 := l1
      interval_cases l <;> norm_num [boxFlow, box, boxMesh, blockMesh])).2] at e
    linarith
  · have e := m2 k l hf
    obtain ⟨k0, k1, l0, l1, -⟩ := hf
    rw [hq.z k l k0 k1 l0 l1 (by
      obtain rfl : l = 1 := by have : l + 1 < 3 := l1; omega
      have : k < 3 := k1
      interval_cases k <;> norm_num [boxFlow, box, boxMesh, blockMesh])] at e
    linarith
  · have e := m3 k l hf
    obtain ⟨k0, k1, k2⟩ := hf
    rw [hq.p _ (cell_lt _ _ k l k0 k1) (by simp [box, boxMesh, blockMesh])] at e
    linarith
  · unfold LinearPass.flow
    rw [extracted_is_shift box box_box (by decide) (by decide) _ ⟨fun _ => 0, fun _ => 0⟩ (fun _ _ => by simp) (fun _ _ => by simp) _ _ _ _ hadm]
    exact hs
  · show (measured box (opsOf box o) o.rho rest o).z 1 1 = 324 * 10 ^ 8
    simp only [measured, rest_row t o ht ho, scaleZ]
    rw [show box.diag = false from rfl]
    norm_num

/-! ### A grid on which the norms exist -/

private def tabU5 (c : Nat) : Int := if c % 5 = 0 ∨ c % 5 = 4 then 0 else if c < 5 ∨ 25 ≤ c then 11 else -1
private def tabV5 (c : Nat) : Int := if c < 6 ∨ 24 ≤ c then 0 else if c % 6 = 0 ∨ c % 6 = 5 then 11 else -1

/-- Five by five vertices, sticking walls, no gravity. -/
def plateMesh : SMesh ℝ :=
  { boxMesh with
    Nx := 5
    Nz := 5
    tu := fun c => if c % 5 = 0 ∨ c % 5 = 4 then 0 else if c < 5 ∨ 25 ≤ c then 11 else -1
    tv := fun c => if c < 6 ∨ 24 ≤ c then 0 else if c % 6 = 0 ∨ c % 6 = 5 then 11 else -1
    gx := fun _ => 0
    gz := fun _ => 0 }

/-- The fluid of the box, without gravity. -/
noncomputable def plate : Setting := { box with m := plateMesh, body := ⟨0, 0, fun _ => 0, false, 1, 0, fun _ => 0⟩ }

private theorem plate_tu (c : Nat) : plate.m.tu c = tabU5 c := by
  have h1 : ((c : Int) % 5 = 0 ∨ (c : Int) % 5 = 4) ↔ (c % 5 = 0 ∨ c % 5 = 4) := by omega
  have h2 : ((c : Int) < 5 ∨ (25 : Int) ≤ c) ↔ (c < 5 ∨ 25 ≤ c) := by omega
  simp only [plate, plateMesh, tabU5, h1, h2]

private theorem plate_tv (c : Nat) : plate.m.tv c = tabV5 c := by
  have h1 : ((c : Int) % 6 = 0 ∨ (c : Int) % 6 = 5) ↔ (c % 6 = 0 ∨ c % 6 = 5) := by omega
  have h2 : ((c : Int) < 6 ∨ (24 : Int) ≤ c) ↔ (c < 6 ∨ 24 ≤ c) := by omega
  simp only [plate, plateMesh, tabV5, h1, h2]

private theorem plate_tags : tagsOf plate = ⟨tabU5, tabV5, fun _ => -1⟩ := by
  unfold tagsOf
  congr 1
  · funext c; exact plate_tu c
  · funext c; exact plate_tv c

/-- The walls of the plate are those the theorems ask for. -/
theorem plate_box : Box plate where
  dx := by norm_num [plate, plateMesh, boxMesh, blockMesh]
  dz := by norm_num [plate, plateMesh, boxMesh, blockMesh]
  tags := by rw [plate_tags]; exact ⟨by decide, by decide, by decide, by decide⟩
  ghosts := by
    rw [plate_tags]
    refine ⟨fun i l hi hl => ?_, fun i l hi hl => ?_, fun i l hi hl => ?_⟩
    · have hi : i < 5 := hi
      have hl : l ≤ 5 := hl
      interval_cases i <;> interval_cases l <;> decide
    · have hi : i < 5 := hi
      have hl : l ≤ 5 := hl
      interval_cases i <;> interval_cases l <;> decide
    · have hi : i ≤ 5 := hi
      have hl : l < 5 := hl
      interval_cases i <;> interval_cases l <;> decide
  periodicU := fun i => by rw [plate_tu]; unfold tabU5; split_ifs <;> decide
  periodicV := fun i => by rw [plate_tv]; unfold tabV5; split_ifs <;> decide
  cells := fun k l _ _ => by simp [CellOk, plate, plateMesh, boxMesh, blockMesh]
  freeU := fun a ha he => by
    have ha : a < 30 := ha
    rw [plate_tu] at he
    unfold FreeU
    rw [plate_tu]
    interval_cases a <;> first | exact absurd he (by decide) | exact ⟨by decide, by decide, by decide, by decide, by decide⟩
  freeV := fun a ha he => by
    have ha : a < 30 := ha
    rw [plate_tv] at he
    unfold FreeV
    rw [plate_tv]
    interval_cases a <;> first | exact absurd he (by decide) | exact ⟨by decide, by decide, by decide, by decide, by decide⟩

/-- The plate is viscous. -/
theorem plate_viscoelastic : Viscoelastic plate where
  Nx := by decide
  Nz := by decide
  minEta := box_viscoelastic.minEta
  limits := box_viscoelastic.limits
  dt := box_viscoelastic.dt
  R := box_viscoelastic.R
  sE := box_viscoelastic.sE
  sT := box_viscoelastic.sT
  sS := box_viscoelastic.sS
  sL := box_viscoelastic.sL
  sEta := box_viscoelastic.sEta
  mixing := rfl
  mats := box_viscoelastic.mats
  cells := fun c _ _ => box_viscoelastic.cells 0 (by decide) (by simp [box, boxMesh, blockMesh])
  verts := fun c _ _ => box_viscoelastic.verts 0 (by decide) (by simp [box, boxMesh, blockMesh])
  touch := fun k _ l _ _ => ⟨_, List.mem_cons_self, by simp [Spec.AirFlag, plate, plateMesh, boxMesh, blockMesh]⟩

private theorem plate_isoviscous : Isoviscous plate (10 ^ 21) where
  elastic := rfl
  mixing := rfl
  minEta := box_isoviscous.minEta
  low := box_isoviscous.low
  high := box_isoviscous.high
  big := box_isoviscous.big
  sE := box_isoviscous.sE
  mats := box_isoviscous.mats
  cells := fun c _ _ => box_isoviscous.cells 0 (by decide) (by simp [box, boxMesh, blockMesh])
  verts := fun c _ _ => box_isoviscous.verts 0 (by decide) (by simp [box, boxMesh, blockMesh])

/-- One velocity node has been moved. -/
noncomputable def bump : LS.Fields := ⟨fun i => if i = 17 then 1 else 0, fun _ => 0, fun _ => 0⟩

/-- The solution vector that takes it back. -/
noncomputable def bumpSolution : Nat → ℝ := fun i => if i = 7 then 1 else 0

private theorem plate_change : changeOf plate (fun _ => -1) 0 bumpSolution = bump := by
  obtain ⟨c1, c2, c3⟩ := change_bc plate plate_box (by decide) (by decide) (fun _ => -1) 0 bumpSolution
  have e0 : changeOf plate (fun _ => -1) 0 bumpSolution = clip plate (extractSolutions plate.m.Nx plate.m.Nz (tagsOf plate) ⟨fun _ => 0, fun _ => 0⟩
    (evalNumberOfEquations plate.m.Nx plate.m.Nz (tagsOf plate) fun _ => -1) 0 bumpSolution (1 : ℝ) ⟨fun _ => 0, fun _ => 0, fun _ => 0⟩) := by
    unfold changeOf extracted
    simp [inner, unclip, clip]
  rw [e0]
  have eN : plate.m.Nx = 5 := rfl
  have eM : plate.m.Nz = 5 := rfl
  rw [plate_tags] at c1 c2 c3 ⊢
  rw [eN, eM] at c1 c2 c3 ⊢
  generalize extractSolutions 5 5 ⟨tabU5, tabV5, fun _ => -1⟩ ⟨fun _ => 0, fun _ => 0⟩
    (evalNumberOfEquations 5 5 ⟨tabU5, tabV5, fun _ => -1⟩ fun _ => -1) 0 bumpSolution (1 : ℝ) ⟨fun _ => 0, fun _ => 0, fun _ => 0⟩ = g at *
  have n1 : ∀ k < 30, tabU5 k = -1 →
      (((evalNumberOfEquations 5 5 ⟨tabU5, tabV5, fun _ => -1⟩ fun _ => -1).eqnU k).toNat = 7 ↔ k = 17) := by decide +kernel
  have n2 : ∀ k < 30, tabV5 k = -1 →
      ((evalNumberOfEquations 5 5 ⟨tabU5, tabV5, fun _ => -1⟩ fun _ => -1).eqnV k).toNat ≠ 7 := by decide +kernel
  have n3 : ∀ k < 16, ((evalNumberOfEquations 5 5 ⟨tabU5, tabV5, fun _ => -1⟩ fun _ => -1).eqnP k).toNat ≠ 7 := by decide +kernel
  have hu : ∀ i < 30, tabU5 i ≠ 11 → g.u i = bump.u i := fun i hi ht => by
    by_cases h1 : tabU5 i = -1
    · refine (c1 (.u i) hi (Or.inl h1)).trans ?_
      simp only [bumpSolution, bump, Dof.eqn, n1 i hi h1]
    · have h0 : tabU5 i = 0 := by unfold tabU5 at *; split_ifs at * <;> simp_all
      refine (c2 (.u i) hi (Or.inl h0)).trans ?_
      have : i ≠ 17 := fun h => by subst h; exact h1 (by decide)
      simp [bump, this]
  have hv : ∀ i < 30, tabV5 i ≠ 11 → g.v i = 0 := fun i hi ht => by
    by_cases h1 : tabV5 i = -1
    · refine (c1 (.v i) hi (Or.inl h1)).trans ?_
      exact if_neg (n2 i hi h1)
    · have h0 : tabV5 i = 0 := by unfold tabV5 at *; split_ifs at * <;> simp_all
      exact c2 (.v i) hi (Or.inl h0)
  have hp : ∀ i < 16, g.p i = 0 := fun i hi => by
    refine (c1 (.p i) hi rfl).trans ?_
    exact if_neg (n3 i hi)
  have gs : ∀ i < 5, tabU5 i = 11 → g.u i = -g.u (i + 1 * 5) := fun i hi ht => by have := c3.noSlipS i hi ht; simp only at this; linarith
  have gn : ∀ i < 5, tabU5 (i + 5 * 5) = 11 → g.u (i + 5 * 5) = -g.u (i + 4 * 5) := fun i hi ht => by
    have := c3.noSlipN i hi ht; simp only at this; norm_num at this ⊢; linarith
  have gw : ∀ j < 5, tabV5 (j * 6) = 11 → g.v (j * 6) = -g.v (j * 6 + 1) := fun j hj ht => by have := c3.noSlipW j hj ht; simp only at this; linarith
  have ge : ∀ j < 5, tabV5 (j * 6 + 5) = 11 → g.v (j * 6 + 5) = -g.v (j * 6 + 4) := fun j hj ht => by
    have := c3.noSlipE j hj ht; simp only at this; norm_num at this ⊢; linarith
  unfold clip
  rw [eN, eM]
  unfold bump
  congr 1
  · funext i
    by_cases hi : i < 30
    · rw [if_pos hi]
      by_cases ht : tabU5 i = 11
      · have hi' : i ≠ 17 := fun h => by subst h; exact absurd ht (by decide)
        rw [if_neg hi']
        by_cases h5 : i < 5
        · rw [gs i h5 ht, hu (i + 1 * 5) (by omega) (by unfold tabU5; split_ifs <;> omega)]
          simp only [bump]
          rw [if_neg (by omega), neg_zero]
        · have h25 : 25 ≤ i := by unfold tabU5 at ht; split_ifs at ht <;> omega
          obtain ⟨j, rfl⟩ : ∃ j, i = j + 5 * 5 := ⟨i - 25, by omega⟩
          rw [gn j (by omega) ht, hu (j + 4 * 5) (by omega) (by unfold tabU5; split_ifs <;> omega)]
          simp only [bump]
          rw [if_neg (by omega), neg_zero]
      · exact hu i hi ht
    · rw [if_neg hi, if_neg (by omega)]
  · funext i
    by_cases hi : i < 30
    · rw [if_pos hi]
      by_cases ht : tabV5 i = 11
      · have h6 : i % 6 = 0 ∨ i % 6 = 5 := by unfold tabV5 at ht; split_ifs at ht <;> omega
        have h7 : 6 ≤ i ∧ i < 24 := by unfold tabV5 at ht; split_ifs at ht <;> omega
        rcases h6 with h6 | h6
        · obtain ⟨j, rfl⟩ : ∃ j, i = j * 6 := ⟨i / 6, by omega⟩
          rw [gw j (by omega) ht, hv (j * 6 + 1) (by omega) (by unfold tabV5; split_ifs <;> omega), neg_zero]
        · obtain ⟨j, rfl⟩ : ∃ j, i = j * 6 + 5 := ⟨i / 6, by omega⟩
          rw [ge j (by omega) ht, hv (j * 6 + 4) (by omega) (by unfold tabV5; split_ifs <;> omega), neg_zero]
      · exact hv i hi ht
    · rw [if_neg hi]
  · funext i
    by_cases hi : i < 16
    · rw [if_pos hi, hp i hi]
    · rw [if_neg hi]

/-- Without gravity rest is balanced. -/
private theorem rest_balanced (t o : Mech) (ho : updateNL plate false rest t = .ok o) : Balanced plate (rows plate (opsOf plate o) rest o) := by
  obtain ⟨f', t', h⟩ := isoviscous_goes_on plate _ plate_isoviscous rest t
  obtain ⟨hc, hv⟩ := isoviscous_recorded plate _ plate_isoviscous rest f' t t' h
  have h1 := (fin_ok h).1
  rw [final_flag_unused plate rfl true false, ho] at h1
  obtain rfl : o = t' := by simpa using h1
  obtain ⟨hr, -, -, -, -, -, hrho, hbx, hbz⟩ := updateNL_ok ho
  have ha : ∀ c : Nat, ¬ (plate.m.tp c = 30 ∨ plate.m.tp c = 31) := fun c => by simp [plate, plateMesh, boxMesh, blockMesh]
  have hbx0 : ∀ i < 30, o.bx i = 0 := fun i hi => by
    rw [hbx]; unfold written
    rw [if_pos (show i < plate.m.Nx * (plate.m.Nz + 1) from hi)]
    simp [Resid.rogerX, plate]
  have hbz0 : ∀ i < 30, o.bz i = 0 := fun i hi => by
    rw [hbz]; unfold written
    rw [if_pos (show i < (plate.m.Nx + 1) * plate.m.Nz from hi)]
    simp [Resid.rogerZ, plate]
  have hcell : ∀ k < 4, ∀ l < 4, (o.cells (k + l * 4)).T.xx = 0 ∧ (o.cells (k + l * 4)).T.zz = 0 ∧ f'.p (k + l * 4) = 0
      ∧ o.rates.divu (k + l * 4) = 0 := fun k hk l hl => by
    obtain ⟨a1, a2, a3⟩ := cell_rates plate rest t.rates k l hk hl (ha _)
    obtain ⟨c1, c2, -⟩ := hc (k + l * 4) (cell_lt 4 4 k l hk hl) (ha _)
    rw [← hr] at a1 a2 a3
    replace a1 : o.rates.divu (k + l * 4) = 0 := a1.trans (by simp [rest])
    replace a2 : o.rates.exx (k + l * 4) = 0 := a2.trans (by simp [rest])
    replace a3 : o.rates.ezz (k + l * 4) = 0 := a3.trans (by simp [rest])
    rw [c1, c2]
    unfold Point.nodeStress
    dsimp only
    rw [a2, a3]
    exact ⟨mul_zero _, mul_zero _, rfl, a1⟩
  have hxz : ∀ k < 5, ∀ l < 5, (o.verts (k + l * 5)).T.xz = 0 := fun k hk l hl => by
    have e := shear_rate plate rest t.rates k l hk hl
    rw [← hr] at e
    replace e : o.rates.exz (k + l * 5) = 0 := e.trans (by simp [rest])
    rw [hv (k + l * 5) (cell_lt 5 5 k l hk hl) (by simp [plate, plateMesh, boxMesh, blockMesh])]
    unfold Point.nodeStress
    dsimp only
    rw [e]
    exact mul_zero _
  have eN : plate.m.Nx = 5 := rfl
  have eM : plate.m.Nz = 5 := rfl
  refine ⟨fun k l hf => ?_, fun k l hf => ?_, fun k l hf => ?_⟩
  · obtain ⟨k0, k1, l0, l1, ht⟩ := hf
    have e := recorded_force_balance plate (by decide) rfl rest f' t o h k l k0 k1 l0 l1 (by rw [ht]; decide)
    dsimp only at e
    rw [e]
    rw [eN] at k1 ⊢
    rw [eM] at l1
    obtain ⟨k, rfl⟩ : ∃ j, k = j + 1 := ⟨k - 1, by omega⟩
    obtain ⟨l, rfl⟩ : ∃ j, l = j + 1 := ⟨l - 1, by omega⟩
    have e1 := hcell k (by omega) l (by omega)
    have e2 := hcell (k + 1) (by omega) l (by omega)
    have e3 := hxz (k + 1) (by omega) (l + 1) (by omega)
    have e4 := hxz (k + 1) (by omega) l (by omega)
    have e5 := hbx0 (k + 1 + (l + 1) * 5) (by omega)
    rw [show k + 1 - 1 + (l + 1 - 1) * (5 - 1) = k + l * 4 by omega, show k + l * 4 + 1 = k + 1 + l * 4 by omega,
      show k + 1 + (l + 1) * 5 - 5 = k + 1 + l * 5 by omega, e1.1, e1.2.2.1, e2.1, e2.2.2.1, e3, e4, e5]
    norm_num
  · obtain ⟨k0, k1, l0, l1, ht⟩ := hf
    have e := recorded_force_balance_z plate (by decide) rfl rest f' t o h k l k0 k1 l0 l1
    dsimp only at e
    rw [e]
    rw [eN] at k1 ⊢
    rw [eM] at l1
    obtain ⟨k, rfl⟩ : ∃ j, k = j + 1 := ⟨k - 1, by omega⟩
    obtain ⟨l, rfl⟩ : ∃ j, l = j + 1 := ⟨l - 1, by omega⟩
    have e1 := hcell k (by omega) l (by omega)
    have e2 := hcell k (by omega) (l + 1) (by omega)
    have e3 := hxz (k + 1) (by omega) (l + 1) (by omega)
    have e4 := hxz k (by omega) (l + 1) (by omega)
    have e5 := hbz0 (k + 1 + (l + 1) * (5 + 1)) (by omega)
    rw [show k + 1 - 1 + (l + 1 - 1) * (5 - 1) = k + l * 4 by omega, show k + l * 4 + (5 - 1) = k + (l + 1) * 4 by omega,
      show k + 1 + (l + 1) * 5 - 1 = k + (l + 1) * 5 by omega, e1.2.1, e1.2.2.1, e2.2.1, e2.2.2.1, e3, e4, e5]
    norm_num
  · obtain ⟨k0, k1, -⟩ := hf
    have := (hcell k k0 l k1).2.2.2
    simp only [rows, Resid.contResidual]
    rw [show k + l * (plate.m.Nx - 1) = k + l * 4 from rfl, this]
    simp [plate, box, block, flag]

/-- The hypotheses of `line_search_takes_full_step_partial` are met: the moved node gives norms that exist and do not vanish, and the full step leads to rest. -/
theorem plate_linear (t : Mech) : ∃ L : LinearPass plate, L.f = bump ∧ L.t = t ∧ L.V = ⟨fun _ => 0, fun _ => 0⟩ ∧ L.flow (-1) = rest ∧ Counted plate
    ∧ 0 < LS.norm3 (normsOf plate L.found).1 (normsOf plate L.found).2.1 (normsOf plate L.found).2.2 := by
  obtain ⟨o, ho⟩ := viscoelastic_goes_on plate plate_viscoelastic false bump t
  obtain ⟨r, hr⟩ := viscoelastic_goes_on plate plate_viscoelastic false rest o
  have hq := rest_balanced o r hr
  have hd := change_homogeneous plate plate_box (by decide) (by decide) (fun _ => -1) 0 bumpSolution
  have hs : shift bump (changeOf plate (fun _ => -1) 0 bumpSolution) (-1) = rest := by
    rw [plate_change]; simp [shift, rest]
  have h2 := hr
  rw [← hs] at h2
  obtain ⟨m1, m2, m3⟩ := matrix_is_derivative_partial plate_viscoelastic plate_box rfl ho hd h2
  rw [hs] at m1 m2 m3
  have hadm : Admissible plate ⟨fun _ => 0, fun _ => 0⟩ bump := by
    refine ⟨?_, fun i hi => ?_, fun _ _ => rfl, fun _ _ => rfl⟩
    · rw [plate_tags]
      have eN : plate.m.Nx = 5 := rfl
      have eM : plate.m.Nz = 5 := rfl
      rw [eN, eM]
      constructor <;> intro i hi ht <;> simp only [unclip, bump]
      · rw [if_neg (by omega), if_neg (by omega)]; norm_num
      · rw [if_neg (by omega), if_neg (by omega)]; norm_num
      · rw [if_neg (by omega), if_neg (by omega)]
      · rw [if_neg (by omega), if_neg (by omega)]
      · norm_num
      · norm_num
      · rw [if_neg (by omega), if_neg (by omega)]
    · have : 30 ≤ i := hi
      exact if_neg (by omega)
  refine ⟨⟨plate_viscoelastic, plate_box, rfl, ⟨fun _ => 0, fun _ => 0⟩, ⟨fun _ => 0, fun _ => 0⟩, fun _ _ => by simp, fun _ _ => by simp, bump, hadm, t, o, _,
    by unfold pass; rw [ho], fun _ => -1, 0, bumpSolution, fun k l hf => ?_, fun k l hf => ?_, fun k l hf => ?_⟩, rfl, rfl, rfl, ?_, ?_, ?_⟩
  · have e := m1 k l hf
    rw [hq.x k l hf] at e
    linarith
  · have e := m2 k l hf
    rw [hq.z k l hf] at e
    linarith
  · have e := m3 k l hf
    rw [hq.p k l hf] at e
    linarith
  · unfold LinearPass.flow
    rw [extracted_is_shift plate plate_box (by decide) (by decide) _ ⟨fun _ => 0, fun _ => 0⟩ (fun _ _ => by simp) (fun _ _ => by simp) _ _ _ _ hadm]
    exact hs
  · refine ⟨⟨17, by decide, ?_⟩, ⟨9, by decide, ?_⟩, ⟨0, by decide, by decide⟩⟩
    · rw [plate_tu]; decide
    · rw [plate_tv]; decide
  · have hdiv : o.rates.divu 9 = 1 / 1000 := by
      obtain ⟨hrt, -⟩ := updateNL_ok ho
      have a1 := (cell_rates plate bump t.rates 1 2 (by decide) (by decide) (by simp [plate, plateMesh, boxMesh, blockMesh])).1
      rw [← hrt] at a1
      refine a1.trans ?_
      rw [show plate.m.Nx = 5 from rfl, show plate.m.dx = 1000 from rfl, show plate.m.dz = 1000 from rfl, show plate.m.oop = false from rfl]
      norm_num [bump]
    have hp : 0 < (normsOf plate (measured plate (opsOf plate o) o.rho bump o)).2.2 := by
      unfold normsOf
      dsimp only
      have hm : 9 ∈ (Finset.range ((plate.m.Nz - 1) * (plate.m.Nx - 1))).filter fun a : Nat => extractP (plate.m.tp a) = true := by
        rw [Finset.mem_filter, Finset.mem_range]
        exact ⟨by decide, by decide⟩
      refine Real.sqrt_pos.2 (div_pos (Finset.sum_pos' (fun i _ => sq_nonneg _) ⟨9, hm, ?_⟩) ?_)
      · simp only [measured, rows, Resid.contResidual, hdiv]
        norm_num [plate, plateMesh, boxMesh, blockMesh, box, block, flag]
      · exact_mod_cast Finset.card_pos.2 ⟨9, hm⟩
    refine Real.sqrt_pos.2 ?_
    have := pow_pos hp 2
    nlinarith [sq_nonneg (normsOf plate (measured plate (opsOf plate o) o.rho bump o)).1, sq_nonneg (normsOf plate (measured plate (opsOf plate o) o.rho bump o)).2.1]

end Verif.StepFlow
