import Verif.Props.StepUnique
import Verif.Props.StokesClosed

/- C153: a step of a closed incompressible model of linear materials. -/
namespace Verif.StepFlow
open Verif Finset

private theorem arr_at (S : Setting) (a : Nat → ℝ) (i : Nat) : S.arr a (i : Int) = a i := by simp [Setting.arr]

/-- A closed model: no cell is compressible, none is air, and all velocities inside are unknown. -/
structure Closed (S : Setting) : Prop where
  incompressible : ∀ c : Nat, S.comp c = true → (S.cell c).beta = 0
  box : Sealed (unitMesh S)

/-- What flows out of the box: velocities normal to the walls times lengths of the wall nodes. -/
noncomputable def outflow (S : Setting) (f : LS.Fields) : ℝ :=
  S.m.dz * ∑ l ∈ range (S.m.Nz - 1), (f.u (S.m.Nx - 1 + (l + 1) * S.m.Nx) - f.u ((l + 1) * S.m.Nx))
  + S.m.dx * ∑ k ∈ range (S.m.Nx - 1), (f.v (k + 1 + (S.m.Nz - 1) * (S.m.Nx + 1)) - f.v (k + 1))

/-- Volume produced in the cells, by the right-hand sides of their volume equations (thermal expansion). -/
noncomputable def production (S : Setting) : ℝ := ∑ k ∈ range (S.m.Nx - 1), ∑ l ∈ range (S.m.Nz - 1), S.rhsP (k + l * (S.m.Nx - 1)) * (S.m.dx * S.m.dz)

private theorem split_sums (c a b : ℝ) (U W P : Nat → Nat → ℝ) (r s : Finset Nat) :
    ∑ k ∈ r, ∑ l ∈ s, (c * (a * U k l + b * W k l) - P k l) = c * (a * ∑ k ∈ r, ∑ l ∈ s, U k l + b * ∑ k ∈ r, ∑ l ∈ s, W k l) - ∑ k ∈ r, ∑ l ∈ s, P k l := by
  simp only [Finset.sum_sub_distrib, ← Finset.mul_sum, Finset.sum_add_distrib]

/-- The residuals of the volume equations add up to the outflow less the production. -/
theorem volume_residuals {S : Setting} (hS : Viscoelastic S) (hvol : S.vol = false) (hc : Closed S) (hdx : S.m.dx ≠ 0) (hdz : S.m.dz ≠ 0)
    {g : LS.Fields} {t a : Mech} (h : updateNL S false g t = .ok a) (o : Ops) :
    ∑ k ∈ range (S.m.Nx - 1), ∑ l ∈ range (S.m.Nz - 1), (rows S o g a).p (k + l * (S.m.Nx - 1))
    = (if S.m.oop then 3 / 2 else 1) * outflow S g - production S := by
  have hx := hS.Nx
  have hz := hS.Nz
  have hr := (updateNL_ok h).1
  have idx : ∀ k l : Nat, ((k : Int) + l * ((S.m.Nx : Int) - 1)) = ((k + l * (S.m.Nx - 1) : Nat) : Int) := fun k l => by
    rw [show ((S.m.Nx : Int) - 1) = ((S.m.Nx - 1 : Nat) : Int) by omega]; push_cast; ring
  have e : ∀ k ∈ range (S.m.Nx - 1), ∀ l ∈ range (S.m.Nz - 1), (rows S o g a).p (k + l * (S.m.Nx - 1))
      = (if S.m.oop then 3 / 2 else 1) * (S.m.dz * (g.u (k + 1 + (l + 1) * S.m.Nx) - g.u (k + (l + 1) * S.m.Nx))
        + S.m.dx * (g.v (k + 1 + (l + 1) * (S.m.Nx + 1)) - g.v (k + 1 + l * (S.m.Nx + 1)))) - S.rhsP (k + l * (S.m.Nx - 1)) * (S.m.dx * S.m.dz) := by
    intro k hk l hl
    have hk := mem_range.1 hk
    have hl := mem_range.1 hl
    have ht : S.m.tp (k + l * (S.m.Nx - 1) : Nat) = -1 := by
      have := (hc.box.rock k l (by show k + 1 < S.m.Nx; omega) (by show l + 1 < S.m.Nz; omega)).1
      rw [← idx]; exact this
    have hd := (cell_rates S g t.rates k l hk hl (by rw [ht]; decide)).1
    have hb : flag (S.comp (k + l * (S.m.Nx - 1))) * (S.cell (k + l * (S.m.Nx - 1))).beta = 0 := by
      unfold flag
      split
      · next q => rw [hc.incompressible _ q, mul_zero]
      · rw [zero_mul]
    simp only [rows, Resid.contResidual, hvol, Bool.false_eq_true, if_false, hb, zero_mul, zero_div, zero_add, hr, hd]
    cases S.m.oop <;> simp <;> field_simp
    ring
  rw [Finset.sum_congr rfl fun k hk => Finset.sum_congr rfl (e k hk),
    split_sums _ _ _ (fun k l => g.u (k + 1 + (l + 1) * S.m.Nx) - g.u (k + (l + 1) * S.m.Nx))
      (fun k l => g.v (k + 1 + (l + 1) * (S.m.Nx + 1)) - g.v (k + 1 + l * (S.m.Nx + 1))) (fun k l => S.rhsP (k + l * (S.m.Nx - 1)) * (S.m.dx * S.m.dz))]
  unfold production outflow
  have e1 : ∑ k ∈ range (S.m.Nx - 1), ∑ l ∈ range (S.m.Nz - 1), (g.u (k + 1 + (l + 1) * S.m.Nx) - g.u (k + (l + 1) * S.m.Nx))
      = ∑ l ∈ range (S.m.Nz - 1), (g.u (S.m.Nx - 1 + (l + 1) * S.m.Nx) - g.u ((l + 1) * S.m.Nx)) := by
    rw [Finset.sum_comm]
    refine Finset.sum_congr rfl fun l _ => ?_
    have := Finset.sum_range_sub (fun k => g.u (k + (l + 1) * S.m.Nx)) (S.m.Nx - 1)
    rw [zero_add] at this
    exact this
  have e2 : ∑ k ∈ range (S.m.Nx - 1), ∑ l ∈ range (S.m.Nz - 1), (g.v (k + 1 + (l + 1) * (S.m.Nx + 1)) - g.v (k + 1 + l * (S.m.Nx + 1)))
      = ∑ k ∈ range (S.m.Nx - 1), (g.v (k + 1 + (S.m.Nz - 1) * (S.m.Nx + 1)) - g.v (k + 1)) := by
    refine Finset.sum_congr rfl fun k _ => ?_
    have := Finset.sum_range_sub (fun l => g.v (k + 1 + l * (S.m.Nx + 1))) (S.m.Nz - 1)
    rw [zero_mul, add_zero] at this
    exact this
  rw [e1, e2]

/-- The flow through the walls belongs to the prescribed values. -/
theorem outflow_prescribed {S : Setting} (hS : Viscoelastic S) (hB : Box S) {f g : LS.Fields} (hp : SamePrescribed S g f) : outflow S g = outflow S f := by
  have hx := hS.Nx
  have hz := hS.Nz
  have hu : ∀ k l, (k = 0 ∨ k = S.m.Nx - 1) → 0 < l → l < S.m.Nz → g.u (k + l * S.m.Nx) = f.u (k + l * S.m.Nx) := by
    intro k l hk l0 hl
    refine hp.u _ (fixed_tag_u hS hB k l (by omega) (by omega) (fun q => ?_) (fun q => ?_) fun q => ?_)
    · have := hB.freeU (k + l * S.m.Nx) (by rw [mul_comm (S.m.Nz + 1)]; exact cell_lt _ _ _ _ (by omega) (by omega)) (by rw [q]; rfl)
      obtain ⟨q1, q2, -⟩ := this
      rw [Nat.add_mul_mod_self_right, Nat.mod_eq_of_lt (by omega)] at q1 q2
      omega
    · have := hB.ghosts.uRows k l (by omega) (by omega) (Or.inl q); omega
    · have := hB.ghosts.uRows k l (by omega) (by omega) (Or.inr q); omega
  have hv : ∀ k l, 0 < k → k < S.m.Nx → (l = 0 ∨ l = S.m.Nz - 1) → g.v (k + l * (S.m.Nx + 1)) = f.v (k + l * (S.m.Nx + 1)) := by
    intro k l k0 hk hl
    refine hp.v _ (fixed_tag_v hS hB k l (by omega) (by omega) (fun q => ?_) (fun q => ?_) fun q => ?_)
    · have := hB.freeV (k + l * (S.m.Nx + 1)) (by rw [mul_comm S.m.Nz]; exact cell_lt _ _ _ _ (by omega) (by omega)) (by rw [q]; rfl)
      obtain ⟨-, -, q1, q2, -⟩ := this
      rw [Nat.add_mul_div_right _ _ (by omega), Nat.div_eq_of_lt (by omega : k < S.m.Nx + 1), zero_add] at q1 q2
      omega
    · have := hB.ghosts.vCols k l (by omega) (by omega) (Or.inl (by rw [add_comm (l * (S.m.Nx + 1))]; exact q)); omega
    · have := hB.ghosts.vCols k l (by omega) (by omega) (Or.inr (Or.inl (by rw [add_comm (l * (S.m.Nx + 1))]; exact q))); omega
  unfold outflow
  congr 2
  · refine Finset.sum_congr rfl fun l hl => ?_
    have hl := mem_range.1 hl
    have a := hu 0 (l + 1) (Or.inl rfl) (by omega) (by omega)
    rw [zero_add] at a
    rw [hu _ (l + 1) (Or.inr rfl) (by omega) (by omega), a]
  · refine Finset.sum_congr rfl fun k hk => ?_
    have hk := mem_range.1 hk
    have a := hv (k + 1) 0 (by omega) (by omega) (Or.inl rfl)
    rw [zero_mul, add_zero] at a
    rw [hv (k + 1) _ (by omega) (by omega) (Or.inr rfl), a]

private theorem sealed_with {S : Setting} (hS : Viscoelastic S) (hB : Box S) {f : LS.Fields} {t r : Mech} (h : updateNL S false f t = .ok r) (hc : Sealed (unitMesh S)) :
    Sealed (meshWith S (opsOf S r) r.rho) := by
  refine ⟨?_, hc.u, hc.v⟩
  rcases rock_of hS hB h (Or.inl hc.rock) with q | q
  · exact q
  · exact fun k l hk hl => ⟨(hc.rock k l hk hl).1, q.viscous k l hk hl (hc.rock k l hk hl).1⟩

/-- C153 (partial).  **A closed incompressible step has a flow exactly if the walls let out what is produced inside**: for constant viscosities and elasticity, a flow with the given values at the walls
balances all equations if and only if the prescribed velocities let out as much volume as the cells produce. -/
theorem closed_step_iff_partial {S : Setting} (hS : Viscoelastic S) (hB : Box S) (hvol : S.vol = false) {V : BCVals ℝ} {f : LS.Fields} (hf : Admissible S V f) (t : Mech)
    (hD : Determined S t.rho) (hc : Closed S) :
    (∃ g, Admissible S V g ∧ SamePrescribed S g f ∧ ∃ a, updateNL S false g t = .ok a ∧ Balanced S (rows S (opsOf S a) g a))
    ↔ (if S.m.oop then 3 / 2 else 1) * outflow S f = production S := by
  have hx := hS.Nx
  have hz := hS.Nz
  have idx : ∀ k l : Nat, ((k : Int) + l * ((S.m.Nx : Int) - 1)) = ((k + l * (S.m.Nx - 1) : Nat) : Int) := fun k l => by
    rw [nx_cast hS hB]; push_cast; ring
  constructor
  · rintro ⟨g, -, hp, a, ha, hb⟩
    have := volume_residuals hS hvol hc hD.dx.ne' hD.dz.ne' ha (opsOf S a)
    rw [outflow_prescribed hS hB hp, Finset.sum_eq_zero fun k hk => Finset.sum_eq_zero fun l hl => hb.p k l ⟨mem_range.1 hk, mem_range.1 hl, by
      have hk := mem_range.1 hk
      have hl := mem_range.1 hl
      rw [← idx]
      exact (hc.box.rock k l (by show k + 1 < S.m.Nx; omega) (by show l + 1 < S.m.Nz; omega)).1⟩] at this
    linarith
  · intro h0
    obtain ⟨o, ho⟩ := viscoelastic_goes_on S hS false f t
    have hrho : o.rho = t.rho := by
      obtain ⟨-, -, -, -, -, -, q, -⟩ := updateNL_ok ho
      rw [q, hvol]; rfl
    have hsum := volume_residuals hS hvol hc hD.dx.ne' hD.dz.ne' ho (opsOf S o)
    rw [h0, sub_self] at hsum
    have hstab : StableOrOff (meshWith S (opsOf S o) o.rho) := by rw [hrho]; exact hD.stable
    have hb : ∀ k l : Nat, compressibility S ((k : Int) + l * ((S.m.Nx : Int) - 1)) = 0 := by
      intro k l
      unfold compressibility
      rw [idx, arr_at]
      have : flag (S.comp (k + l * (S.m.Nx - 1))) * (S.cell (k + l * (S.m.Nx - 1))).beta = 0 := by
        unfold flag
        split
        · next q => rw [hc.incompressible _ q, mul_zero]
        · rw [zero_mul]
      rw [this, zero_div, zero_mul]
    obtain ⟨y, y1, y2⟩ := (closed_solvable_iff _ (viscous_in hS hB ho) (walls hS hB _ _) hstab hD.dx hD.dz (sealed_with hS hB ho hc.box) (inner_nodes hS hB)
      (sourceAt S (rows S (opsOf S o) f o))).2 (by
        refine Eq.trans (Finset.sum_congr rfl fun k _ => Finset.sum_congr rfl fun l _ => ?_) hsum
        show (rows S (opsOf S o) f o).p ((k : Int) + l * ((S.m.Nx : Int) - 1)).toNat = _
        rw [idx, Int.toNat_natCast])
    obtain ⟨dx, hdx⟩ := vector_solves hS hB o (rows S (opsOf S o) f o) y y1 (fun n hn => by
      rw [← y2 n hn]
      unfold stokesRow
      congr 2
      rcases mem_union.1 hn with q | q
      · rcases (mem_nodes _ n).1 q with ⟨k, l, rfl, -⟩ | ⟨k, l, rfl, -⟩ <;> rfl
      · obtain ⟨k, l, rfl, -⟩ := (mem_rock _ n).1 q
        exact hb k l) (fun _ => -1) 0
    let L : LinearPass S := ⟨hS, hB, hvol, ⟨fun k => 2 * V.u k, fun k => 2 * V.v k⟩, V, fun _ _ => rfl, fun _ _ => rfl, f, hf, t, o, _, by unfold pass; rw [ho],
      fun _ => -1, 0, dx, hdx⟩
    exact ⟨L.flow (-1), L.flow_admissible _, L.flow_prescribed _, L.flow_balanced⟩

/-- C153 (partial).  **The flow of a closed incompressible step is unique, its pressure up to a constant**: two flows with the same walls that balance all equations have the same velocities
and pressures that differ by one number. -/
theorem closed_pressure_partial {S : Setting} (hS : Viscoelastic S) (hB : Box S) (hvol : S.vol = false) {V : BCVals ℝ} {f g : LS.Fields} (hf : Admissible S V f)
    (hg : Admissible S V g) (hp : SamePrescribed S f g) {t a b : Mech} (hD : Determined S t.rho) (hc : Closed S) (ha : updateNL S false f t = .ok a)
    (hb : updateNL S false g t = .ok b) (bf : Balanced S (rows S (opsOf S a) f a)) (bg : Balanced S (rows S (opsOf S b) g b)) :
    f.u = g.u ∧ f.v = g.v ∧ ∃ p, ∀ k l, k < S.m.Nx - 1 → l < S.m.Nz - 1 → f.p (k + l * (S.m.Nx - 1)) = g.p (k + l * (S.m.Nx - 1)) + p := by
  obtain ⟨q1, q2, -, q4, q5⟩ := one_flow_partial hS hB hvol hf hg hp hD ha hb bf bg
  refine ⟨q1, q2, f.p 0 - g.p 0, fun k l hk hl => ?_⟩
  have fu : ∀ k l, k + 2 < S.m.Nx → l + 1 < S.m.Nz → FreeU S (k + 1) (l + 1) := fun k l hk hl => ⟨by omega, by omega, by omega, by omega, by
    have := hc.box.u (k + 1) (l + 1) (by omega) (by show k + 1 + 1 < S.m.Nx; omega) (by omega) hl
    rw [← this]
    show S.m.tu _ = S.m.tu _
    congr 1⟩
  have fv : ∀ k l, k + 1 < S.m.Nx → l + 2 < S.m.Nz → FreeV S (k + 1) (l + 1) := fun k l hk hl => ⟨by omega, by omega, by omega, by omega, by
    have := hc.box.v (k + 1) (l + 1) (by omega) hk (by omega) (by show l + 1 + 1 < S.m.Nz; omega)
    rw [← this]
    show S.m.tv _ = S.m.tv _
    congr 1⟩
  induction l with
  | zero =>
    simp only [zero_mul, add_zero]
    induction k with
    | zero => ring
    | succ k ih =>
      have e := q4 k 0 (fu k 0 (by omega) (by omega))
      simp only [zero_mul, add_zero] at e
      have := ih (by omega)
      linarith
  | succ l ih =>
    have e := q5 k l (fv k l (by omega) (by omega))
    have := ih (by omega)
    linarith

private theorem plate_sealed : Sealed (unitMesh plate) := by
  have e5 : (unitMesh plate).Nx = 5 := rfl
  have e6 : (unitMesh plate).Nz = 5 := rfl
  refine ⟨fun k l _ _ => ⟨by simp [unitMesh, plate, plateMesh, boxMesh, blockMesh], by norm_num [unitMesh]⟩, fun k l k0 hk l0 hl => ?_, fun k l k0 hk l0 hl => ?_⟩
  · rw [e5] at hk ⊢; rw [e6] at hl
    simp only [unitMesh, plate, plateMesh]
    rw [if_neg (by omega), if_neg (by omega)]
  · rw [e5] at hk ⊢; rw [e6] at hl
    simp only [unitMesh, plate, plateMesh]
    rw [if_neg (by omega), if_neg (by omega)]

/-- The plate, cells of which produce volume at rate `q` (thermal expansion without compressibility). -/
noncomputable def warming (q : ℝ) : Setting := { plate with comp := fun _ => true, cell := fun c => { plate.cell c with beta := 0 }, rhsP := fun _ => q }

/-- The hypotheses are met, and both answers occur: the plate has a flow if it does not expand and none if it does. -/
theorem warming_flow (q : ℝ) (t : Mech) : (∃ g, Admissible (warming q) ⟨fun _ => 0, fun _ => 0⟩ g ∧ SamePrescribed (warming q) g bump
    ∧ ∃ a, updateNL (warming q) false g t = .ok a ∧ Balanced (warming q) (rows (warming q) (opsOf (warming q) a) g a)) ↔ q = 0 := by
  obtain ⟨L, h1, -, h3, -⟩ := plate_linear t
  have ha := L.admissible
  rw [h1, h3] at ha
  have hv := plate_viscoelastic
  have hb := plate_box
  have hd := plate_determined t.rho
  rw [closed_step_iff_partial (S := warming q) ⟨hv.Nx, hv.Nz, hv.minEta, hv.limits, hv.dt, hv.R, hv.sE, hv.sT, hv.sS, hv.sL, hv.sEta, hv.mixing, hv.mats,
    hv.cells, hv.verts, hv.touch⟩ ⟨hb.dx, hb.dz, hb.tags, hb.ghosts, hb.periodicU, hb.periodicV, hb.cells, hb.freeU, hb.freeV⟩ rfl
    ⟨ha.bc, ha.u, ha.v, ha.p⟩ t ⟨hd.dx, hd.dz, hd.dt, fun c => by norm_num [warming], hd.stable, hd.rock⟩ ⟨fun _ _ => rfl, plate_sealed⟩]
  have e1 : outflow (warming q) bump = 0 := by
    unfold outflow
    simp only [show (warming q).m.Nx = 5 from rfl, show (warming q).m.Nz = 5 from rfl, Finset.sum_range_succ, Finset.sum_range_zero, bump]
    norm_num
  have e2 : production (warming q) = 16 * 10 ^ 6 * q := by
    unfold production
    simp only [show (warming q).m.Nx = 5 from rfl, show (warming q).m.Nz = 5 from rfl, show (warming q).m.dx = 1000 from rfl, show (warming q).m.dz = 1000 from rfl,
      show ∀ c, (warming q).rhsP c = q from fun _ => rfl]
    simp
    ring
  rw [e1, e2]
  constructor
  · intro h; linarith
  · rintro rfl; ring

end Verif.StepFlow
