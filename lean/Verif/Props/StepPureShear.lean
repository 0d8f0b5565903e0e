import Verif.Props.StepClosed
import Verif.Props.StepHeat
import Verif.Props.Setup

/- C154: pure shear of a uniform body. -/
set_option linter.unusedSimpArgs false

namespace Verif.StepFlow
open Verif Finset

/-- Walls set up with the pure shear functions that come with the code (`SetPureShearBCVx`, `SetPureShearBCVz`, Setup.c:906-919, 963-976), no air.
`x`, `z` are the vertex coordinates, `eps` the background strain rate, `bu`, `bv` the tags and values `SetBCs` leaves. -/
structure PureShear (S : Setting) (eps : ℝ) (x z : Nat → ℝ) (bu bv : Setup.Side ℝ) : Prop where
  Nx : 2 ≤ S.m.Nx
  Nz : 2 ≤ S.m.Nz
  dx : 0 < S.m.dx
  dz : 0 < S.m.dz
  stepX : ∀ k, x (k + 1) = x k + S.m.dx
  stepZ : ∀ l, z (l + 1) = z l + S.m.dz
  vx : ∃ (Lz : ℝ) (t : Nat → Int) (v : Nat → ℝ), (∀ c, t c ≠ 30) ∧ Setup.setVx S.m.Nx S.m.Nz (Setup.shearVx 0 eps Lz x) t v = some bu
  vz : ∃ (t : Nat → Int) (v : Nat → ℝ), (∀ c, t c ≠ 30) ∧ Setup.setVz S.m.Nx S.m.Nz (Setup.shearVz 0 eps z) t v = some bv
  tu : ∀ i < (S.m.Nz + 1) * S.m.Nx, S.m.tu (i : Nat) = bu.type i
  tv : ∀ i < S.m.Nz * (S.m.Nx + 1), S.m.tv (i : Nat) = bv.type i
  beyondU : ∀ i : Nat, (S.m.Nz + 1) * S.m.Nx ≤ i → S.m.tu i ≠ -12
  beyondV : ∀ i : Nat, S.m.Nz * (S.m.Nx + 1) ≤ i → S.m.tv i ≠ -12
  rock : ∀ i : Nat, S.m.tp i = -1

section
variable {S : Setting} {eps : ℝ} {x z : Nat → ℝ} {bu bv : Setup.Side ℝ} (h : PureShear S eps x z bu bv)
include h

/-- What is prescribed where. -/
theorem PureShear.tags_u (k l : Nat) (hk : k < S.m.Nx) (hl : l ≤ S.m.Nz) :
    (S.m.tu (k + l * S.m.Nx : Nat) = if l = 0 ∨ l = S.m.Nz then 13 else if k = 0 ∨ k = S.m.Nx - 1 then 0 else -1)
    ∧ ((0 < l ∧ l < S.m.Nz ∧ (k = 0 ∨ k = S.m.Nx - 1)) → bu.val (k + l * S.m.Nx) = -x k * eps) := by
  obtain ⟨Lz, t, v, ht, hu⟩ := h.vx
  have hx := h.Nx
  obtain ⟨a, b⟩ := (Setup.setVx_spec hx _ t v hu).1 k hk l (by omega) (ht _)
  have hi : k + l * S.m.Nx < (S.m.Nz + 1) * S.m.Nx := by rw [mul_comm (S.m.Nz + 1)]; exact cell_lt _ _ _ _ hk (by omega)
  rw [h.tu _ hi, a, b]
  have e0 : ∀ p, Setup.shearVx 0 eps Lz x p k l = Setup.pureVx eps x p k l := fun p => by simp [Setup.shearVx]
  rw [e0]
  have hz := h.Nz
  have w1 : ¬ (S.m.Nx - 1 = 0) := by omega
  have w2 : ¬ (S.m.Nz - 1 = 0) := by omega
  have w3 : ¬ (S.m.Nz = 0) := by omega
  unfold Setup.posVx
  by_cases a1 : l = 0
  · have : ¬ (0 = S.m.Nz) := by omega
    by_cases a2 : k = 0 <;> by_cases a3 : k = S.m.Nx - 1 <;> simp [Setup.pureVx, w1, w2, w3, a1, a2, a3, this]
  by_cases a4 : l = S.m.Nz
  · by_cases a2 : k = 0 <;> by_cases a3 : k = S.m.Nx - 1 <;> simp [Setup.pureVx, w1, w2, w3, a1, a2, a3, a4]
  by_cases a2 : k = 0
  · simp [Setup.pureVx, w1, w2, w3, a1, a2, a4]
  by_cases a3 : k = S.m.Nx - 1 <;> simp [Setup.pureVx, w1, w2, w3, a1, a2, a3, a4]

/-- See `tags_u`. -/
theorem PureShear.tags_v (k l : Nat) (hk : k ≤ S.m.Nx) (hl : l < S.m.Nz) :
    (S.m.tv (k + l * (S.m.Nx + 1) : Nat) = if k = 0 ∨ k = S.m.Nx then 13 else if l = 0 ∨ l = S.m.Nz - 1 then 0 else -1)
    ∧ ((0 < k ∧ k < S.m.Nx ∧ (l = 0 ∨ l = S.m.Nz - 1)) → bv.val (k + l * (S.m.Nx + 1)) = z l * eps) := by
  obtain ⟨t, v, ht, hv⟩ := h.vz
  have hx := h.Nx
  have hz := h.Nz
  obtain ⟨a, b⟩ := (Setup.setVz_spec (by omega) hz _ t v hv).1 k (by omega) l hl (ht _)
  have hi : k + l * (S.m.Nx + 1) < S.m.Nz * (S.m.Nx + 1) := by rw [mul_comm S.m.Nz]; exact cell_lt _ _ _ _ (by omega) hl
  rw [h.tv _ hi, a, b]
  have e0 : ∀ p, Setup.shearVz 0 eps z p k l = Setup.pureVz eps z p k l := fun p => by simp [Setup.shearVz]
  rw [e0]
  have w1 : ¬ (S.m.Nx - 1 = 0) := by omega
  have w2 : ¬ (S.m.Nz - 1 = 0) := by omega
  have w3 : ¬ (S.m.Nx = 0) := by omega
  have w4 : ¬ (0 = S.m.Nz - 1) := by omega
  unfold Setup.posVz
  by_cases a1 : k = 0
  · by_cases a2 : l = 0 <;> by_cases a3 : l = S.m.Nz - 1 <;> simp [Setup.pureVz, w4, w1, w2, w3, a1, a2, a3]
  by_cases a4 : k = S.m.Nx
  · have : ¬ (S.m.Nx = 0) := by omega
    by_cases a2 : l = 0 <;> by_cases a3 : l = S.m.Nz - 1 <;> simp [Setup.pureVz, w4, w1, w2, w3, a2, a3, a4, this]
  by_cases a2 : l = 0
  · simp [Setup.pureVz, w4, w1, w2, w3, a1, a2, a4]
  by_cases a3 : l = S.m.Nz - 1 <;> simp [Setup.pureVz, w4, w1, w2, w3, a1, a2, a3, a4]

omit h in
private theorem div_mod (n k l : Nat) (hk : k < n) : (k + l * n) % n = k ∧ (k + l * n) / n = l :=
  ⟨by rw [Nat.add_mul_mod_self_right, Nat.mod_eq_of_lt hk], by rw [Nat.add_mul_div_right _ _ (by omega), Nat.div_eq_of_lt hk, zero_add]⟩

omit h in
private theorem node (n m i : Nat) (hn : 0 < n) (hi : i < m * n) : ∃ k l, k < n ∧ l < m ∧ i = k + l * n :=
  ⟨i % n, i / n, Nat.mod_lt _ hn, (Nat.div_lt_iff_lt_mul hn).2 hi, by rw [mul_comm]; exact (Nat.mod_add_div i n).symm⟩

/-- The walls are those C151 to C153 ask for. -/
theorem PureShear.box : Box S := by
  have hx := h.Nx
  have hz := h.Nz
  refine ⟨h.dx.ne', h.dz.ne', ⟨fun i hi => ?_, fun i hi => ?_, fun i hi => ?_, fun i hi q => ?_⟩, ⟨fun k l hk hl q => ?_, fun k l hk hl q => ?_, fun k l hk hl q => ?_⟩,
    fun i => ?_, fun i => ?_, fun k l _ _ => Or.inl (h.rock _), fun i hi q => ?_, fun i hi q => ?_⟩
  · obtain ⟨k, l, hk, hl, rfl⟩ := node _ _ i (by omega) hi
    show S.m.tu _ ∈ _
    rw [(h.tags_u k l hk (by omega)).1]; split_ifs <;> decide
  · obtain ⟨k, l, hk, hl, rfl⟩ := node _ _ i (by omega) hi
    show S.m.tv _ ∈ _
    rw [(h.tags_v k l (by omega) hl).1]; split_ifs <;> decide
  · show S.m.tp _ ∈ _
    rw [h.rock]; decide
  · obtain ⟨k, l, hk, hl, rfl⟩ := node _ _ i (by omega) hi
    replace q : S.m.tu _ = -12 := q
    rw [(h.tags_u k l hk (by omega)).1] at q
    split_ifs at q <;> norm_num at q
  · replace q : S.m.tu _ = 11 ∨ S.m.tu _ = 13 := q
    rw [(h.tags_u k l hk hl).1] at q
    by_contra w
    rw [if_neg w] at q
    split_ifs at q <;> norm_num at q
  · replace q : S.m.tu _ = -12 := q
    rw [(h.tags_u k l hk hl).1] at q
    split_ifs at q; norm_num at q
  · replace q : S.m.tv _ = 11 ∨ S.m.tv _ = 13 ∨ S.m.tv _ = -12 := q
    rw [add_comm (l * _), (h.tags_v k l hk hl).1] at q
    by_contra w
    rw [if_neg w] at q
    split_ifs at q <;> norm_num at q
  · by_cases hi : i < (S.m.Nz + 1) * S.m.Nx
    · obtain ⟨k, l, hk, hl, rfl⟩ := node _ _ i (by omega) hi
      rw [(h.tags_u k l hk (by omega)).1]; split_ifs <;> decide
    · exact h.beyondU i (not_lt.1 hi)
  · by_cases hi : i < S.m.Nz * (S.m.Nx + 1)
    · obtain ⟨k, l, hk, hl, rfl⟩ := node _ _ i (by omega) hi
      rw [(h.tags_v k l (by omega) hl).1]; split_ifs <;> decide
    · exact h.beyondV i (not_lt.1 hi)
  · obtain ⟨k, l, hk, hl, rfl⟩ := node _ _ i (by omega) hi
    rw [Nat.add_mul_mod_self_right, Nat.mod_eq_of_lt hk, Nat.add_mul_div_right _ _ (by omega), Nat.div_eq_of_lt hk, zero_add]
    have e := (h.tags_u k l hk (by omega)).1
    rw [e] at q
    unfold FreeU
    rw [e]
    split_ifs at q ⊢ with w1 w2
    · exact absurd q (by decide)
    · exact absurd q (by decide)
    · exact ⟨by omega, by omega, by omega, by omega, rfl⟩
  · obtain ⟨k, l, hk, hl, rfl⟩ := node _ _ i (by omega) hi
    rw [Nat.add_mul_mod_self_right, Nat.mod_eq_of_lt hk, Nat.add_mul_div_right _ _ (by omega), Nat.div_eq_of_lt hk, zero_add]
    have e := (h.tags_v k l (by omega) hl).1
    rw [e] at q
    unfold FreeV
    rw [e]
    split_ifs at q ⊢ with w1 w2
    · exact absurd q (by decide)
    · exact absurd q (by decide)
    · exact ⟨by omega, by omega, by omega, by omega, rfl⟩

/-- The box is sealed. -/
theorem PureShear.sealed : Sealed (unitMesh S) := by
  refine ⟨fun k l _ _ => ⟨?_, by norm_num [unitMesh]⟩, fun k l k0 hk l0 hl => ?_, fun k l k0 hk l0 hl => ?_⟩
  · have hx := h.Nx
    show S.m.tp ((k : Int) + l * ((S.m.Nx : Int) - 1)) = -1
    rw [show ((k : Int) + l * ((S.m.Nx : Int) - 1)) = ((k + l * (S.m.Nx - 1) : Nat) : Int) by
      rw [show ((S.m.Nx : Int) - 1) = ((S.m.Nx - 1 : Nat) : Int) by omega]; push_cast; ring]
    exact h.rock _
  · have hk : k + 1 < S.m.Nx := hk
    have hl : l < S.m.Nz := hl
    show S.m.tu ((k : Int) + l * (S.m.Nx : Int)) = -1
    rw [show ((k : Int) + l * (S.m.Nx : Int)) = ((k + l * S.m.Nx : Nat) : Int) by push_cast; ring, (h.tags_u k l (by omega) (by omega)).1,
      if_neg (by omega), if_neg (by omega)]
  · have hk : k < S.m.Nx := hk
    have hl : l + 1 < S.m.Nz := hl
    show S.m.tv ((k : Int) + l * ((S.m.Nx : Int) + 1)) = -1
    rw [show ((k : Int) + l * ((S.m.Nx : Int) + 1)) = ((k + l * (S.m.Nx + 1) : Nat) : Int) by push_cast; ring, (h.tags_v k l (by omega) (by omega)).1,
      if_neg (by omega), if_neg (by omega)]

/-- Prescribed velocities of the template in a flow. -/
def Driven (S : Setting) (bu bv : Setup.Side ℝ) (f : LS.Fields) : Prop :=
  (∀ i < (S.m.Nz + 1) * S.m.Nx, bu.type i = 0 → f.u i = bu.val i) ∧ ∀ i < S.m.Nz * (S.m.Nx + 1), bv.type i = 0 → f.v i = bv.val i

theorem PureShear.coord (k l : Nat) : x k = x 0 + k * S.m.dx ∧ z l = z 0 + l * S.m.dz := by
  constructor
  · induction k with
    | zero => simp
    | succ k ih => rw [h.stepX, ih]; push_cast; ring
  · induction l with
    | zero => simp
    | succ l ih => rw [h.stepZ, ih]; push_cast; ring

/-- The template's walls let out what they let in. -/
theorem PureShear.outflow_zero {f : LS.Fields} (hf : Driven S bu bv f) : outflow S f = 0 := by
  have hx := h.Nx
  have hz := h.Nz
  have eu : ∀ k l, (k = 0 ∨ k = S.m.Nx - 1) → 0 < l → l < S.m.Nz → f.u (k + l * S.m.Nx) = -x k * eps := by
    intro k l hk l0 hl
    have hi : k + l * S.m.Nx < (S.m.Nz + 1) * S.m.Nx := by rw [mul_comm (S.m.Nz + 1)]; exact cell_lt _ _ _ _ (by omega) (by omega)
    obtain ⟨a, b⟩ := h.tags_u k l (by omega) (by omega)
    rw [hf.1 _ hi (by rw [← h.tu _ hi, a, if_neg (by omega), if_pos hk]), b ⟨l0, hl, hk⟩]
  have ev : ∀ k l, (l = 0 ∨ l = S.m.Nz - 1) → 0 < k → k < S.m.Nx → f.v (k + l * (S.m.Nx + 1)) = z l * eps := by
    intro k l hl k0 hk
    have hi : k + l * (S.m.Nx + 1) < S.m.Nz * (S.m.Nx + 1) := by rw [mul_comm S.m.Nz]; exact cell_lt _ _ _ _ (by omega) (by omega)
    obtain ⟨a, b⟩ := h.tags_v k l (by omega) (by omega)
    rw [hf.2 _ hi (by rw [← h.tv _ hi, a, if_neg (by omega), if_pos hl]), b ⟨k0, hk, hl⟩]
  unfold outflow
  have s1 : ∀ l ∈ range (S.m.Nz - 1), f.u (S.m.Nx - 1 + (l + 1) * S.m.Nx) - f.u ((l + 1) * S.m.Nx) = -(eps * ((S.m.Nx - 1 : Nat) * S.m.dx)) := by
    intro l hl
    have hl := mem_range.1 hl
    have a := eu 0 (l + 1) (Or.inl rfl) (by omega) (by omega)
    rw [zero_add] at a
    rw [a, eu (S.m.Nx - 1) (l + 1) (Or.inr rfl) (by omega) (by omega), (h.coord (S.m.Nx - 1) 0).1]
    ring
  have s2 : ∀ k ∈ range (S.m.Nx - 1), f.v (k + 1 + (S.m.Nz - 1) * (S.m.Nx + 1)) - f.v (k + 1) = eps * ((S.m.Nz - 1 : Nat) * S.m.dz) := by
    intro k hk
    have hk := mem_range.1 hk
    have a := ev (k + 1) 0 (Or.inl rfl) (by omega) (by omega)
    rw [zero_mul, add_zero] at a
    rw [a, ev (k + 1) (S.m.Nz - 1) (Or.inr rfl) (by omega) (by omega), (h.coord 0 (S.m.Nz - 1)).2]
    ring
  rw [Finset.sum_congr rfl s1, Finset.sum_congr rfl s2]
  simp only [Finset.sum_const, Finset.card_range, nsmul_eq_mul]
  ring
end

/-- C154 (partial).  **A pure shear model has a flow**: on every grid, for all incompressible materials of constant viscosity (and elasticity) in a box without air whose walls come from the
pure shear functions, a time step has a flow that balances momentum and volume.  Missing: as in `closed_step_iff_partial`. -/
theorem pure_shear_has_flow_partial {S : Setting} {eps : ℝ} {x z : Nat → ℝ} {bu bv : Setup.Side ℝ} (h : PureShear S eps x z bu bv) (hS : Viscoelastic S) (hvol : S.vol = false)
    (hi : ∀ c : Nat, S.comp c = true → (S.cell c).beta = 0) (hq : ∀ c, S.rhsP c = 0) {V : BCVals ℝ} {f : LS.Fields} (hf : Admissible S V f) (hd : Driven S bu bv f)
    (t : Mech) (hD : Determined S t.rho) :
    ∃ g, Admissible S V g ∧ SamePrescribed S g f ∧ ∃ a, updateNL S false g t = .ok a ∧ Balanced S (rows S (opsOf S a) g a) :=
  (closed_step_iff_partial hS h.box hvol hf t hD ⟨hi, h.sealed⟩).2 (by rw [h.outflow_zero hd]; simp [production, hq])

/-- A uniform body: one constant viscosity, one density `r`, no free-surface stabilisation, no surface processes, no change of density. -/
structure Uniform (S : Setting) (eta r : ℝ) (t : Mech) : Prop where
  visc : Isoviscous S eta
  rhoN : ∀ c < S.ncells, t.rho c = r
  rhoS : ∀ c : Int, S.body.rhoS c = r
  stab : S.m.stab = false
  surf : S.body.surf = false
  vol : S.vol = false
  air : ∀ c : Nat, S.m.tg c ≠ 30
  still : ∀ c, S.comp c = false ∧ S.rhsP c = 0

/-- The textbook solution: pure shear everywhere, the pressure of the weight of the body up to a constant `p0`. -/
noncomputable def textbook (S : Setting) (eps : ℝ) (x z : Nat → ℝ) (r p0 : ℝ) : LS.Fields where
  u i := if i < (S.m.Nz + 1) * S.m.Nx then -x (i % S.m.Nx) * eps else 0
  v i := if i < S.m.Nz * (S.m.Nx + 1) then z (i / (S.m.Nx + 1)) * eps else 0
  p i := if i < (S.m.Nz - 1) * (S.m.Nx - 1) then p0 + r * (S.body.gx * (S.m.dx * (i % (S.m.Nx - 1) : Nat)) + S.body.gz * (S.m.dz * (i / (S.m.Nx - 1) : Nat))) else 0

/-- The textbook solution node by node. -/
theorem textbook_at (S : Setting) (eps : ℝ) (x z : Nat → ℝ) (r p0 : ℝ) :
    (∀ k l, k < S.m.Nx → l ≤ S.m.Nz → (textbook S eps x z r p0).u (k + l * S.m.Nx) = -x k * eps)
    ∧ (∀ k l, k ≤ S.m.Nx → l < S.m.Nz → (textbook S eps x z r p0).v (k + l * (S.m.Nx + 1)) = z l * eps)
    ∧ ∀ k l, k < S.m.Nx - 1 → l < S.m.Nz - 1 →
      (textbook S eps x z r p0).p (k + l * (S.m.Nx - 1)) = p0 + r * (S.body.gx * (S.m.dx * k) + S.body.gz * (S.m.dz * l)) := by
  refine ⟨fun k l hk hl => ?_, fun k l hk hl => ?_, fun k l hk hl => ?_⟩
  · simp only [textbook]
    rw [if_pos (by rw [mul_comm (S.m.Nz + 1)]; exact cell_lt _ _ _ _ hk (by omega)), Nat.add_mul_mod_self_right, Nat.mod_eq_of_lt hk]
  · simp only [textbook]
    rw [if_pos (by rw [mul_comm S.m.Nz]; exact cell_lt _ _ _ _ (by omega) hl), Nat.add_mul_div_right _ _ (by omega), Nat.div_eq_of_lt (by omega), zero_add]
  · simp only [textbook]
    rw [if_pos (by rw [mul_comm (S.m.Nz - 1)]; exact cell_lt _ _ _ _ hk hl), Nat.add_mul_mod_self_right, Nat.mod_eq_of_lt hk, Nat.add_mul_div_right _ _ (by omega),
      Nat.div_eq_of_lt hk, zero_add]

section
variable {S : Setting} {eps : ℝ} {x z : Nat → ℝ} {bu bv : Setup.Side ℝ} (h : PureShear S eps x z bu bv)
include h

/-- The textbook solution meets the boundary conditions. -/
theorem PureShear.textbook_admissible (r p0 : ℝ) (V : BCVals ℝ) : Admissible S V (textbook S eps x z r p0) ∧ Driven S bu bv (textbook S eps x z r p0) := by
  have hx := h.Nx
  have hz := h.Nz
  obtain ⟨eu, ev, -⟩ := textbook_at S eps x z r p0
  have tu := fun k l hk hl => (h.tags_u k l hk hl).1
  have tv := fun k l hk hl => (h.tags_v k l hk hl).1
  have bc : BCHold S.m.Nx S.m.Nz (tagsOf S) V (unclip (textbook S eps x z r p0)) := by
    have u0 := fun i hi => tu i 0 hi (by omega)
    simp only [zero_mul, add_zero] at u0
    have e0 := fun i hi => eu i 0 hi (by omega)
    simp only [zero_mul, add_zero] at e0
    have v0 := fun j hj => tv 0 j (by omega) hj
    simp only [zero_add] at v0
    have f0 := fun j hj => ev 0 j (by omega) hj
    simp only [zero_add] at f0
    refine ⟨fun i hi q => ?_, fun i hi q => ?_, fun i hi q => ?_, fun i hi q => ?_, fun j hj q => ?_, fun j hj q => ?_, fun j hj q => ?_, fun j hj q => ?_,
      fun j hj q => ?_, fun j hj q => ?_, fun l hl q => ?_⟩
    · replace q : S.m.tu (i : Nat) = 11 := q
      rw [u0 i hi] at q; norm_num at q
    · replace q : S.m.tu (i + S.m.Nz * S.m.Nx : Nat) = 11 := q
      rw [tu i _ hi le_rfl] at q; norm_num at q
    · exact (e0 i hi).trans (eu i 1 hi (by omega)).symm
    · exact (eu i _ hi le_rfl).trans (eu i _ hi (by omega)).symm
    · replace q : S.m.tv (j * (S.m.Nx + 1) : Nat) = 11 := q
      rw [v0 j hj] at q; norm_num at q
    · replace q : S.m.tv (j * (S.m.Nx + 1) + S.m.Nx : Nat) = 11 := q
      rw [add_comm, tv _ j le_rfl hj] at q; norm_num at q
    · refine (f0 j hj).trans ?_
      rw [add_comm]; exact (ev 1 j (by omega) hj).symm
    · rw [add_comm, add_comm _ (S.m.Nx - 1)]
      exact (ev _ j le_rfl hj).trans (ev _ j (by omega) hj).symm
    · replace q : S.m.tv (j * (S.m.Nx + 1) : Nat) = -12 := q
      rw [v0 j hj] at q; norm_num at q
    · replace q : S.m.tv (j * (S.m.Nx + 1) + S.m.Nx : Nat) = -12 := q
      rw [add_comm, tv _ j le_rfl hj] at q; norm_num at q
    · replace q : S.m.tu (S.m.Nx - 1 + l * S.m.Nx : Nat) = -12 := q
      exact absurd q (h.box.periodicU _)
  refine ⟨⟨bc, fun i hi => ?_, fun i hi => ?_, fun i hi => ?_⟩, fun i hi q => ?_, fun i hi q => ?_⟩
  · simp only [textbook]; rw [if_neg (by omega)]
  · simp only [textbook]; rw [if_neg (by omega)]
  · simp only [textbook]; rw [if_neg (by omega)]
  · rw [← h.tu i hi] at q
    obtain ⟨k, l, hk, hl, rfl⟩ := node _ _ i (by omega) hi
    obtain ⟨a, b⟩ := h.tags_u k l hk (by omega)
    rw [a] at q
    by_cases w1 : l = 0 ∨ l = S.m.Nz
    · rw [if_pos w1] at q; norm_num at q
    by_cases w2 : k = 0 ∨ k = S.m.Nx - 1
    · rw [eu k l hk (by omega), b ⟨by omega, by omega, w2⟩]
    · rw [if_neg w1, if_neg w2] at q; norm_num at q
  · rw [← h.tv i hi] at q
    obtain ⟨k, l, hk, hl, rfl⟩ := node _ _ i (by omega) hi
    obtain ⟨a, b⟩ := h.tags_v k l (by omega) hl
    rw [a] at q
    by_cases w1 : k = 0 ∨ k = S.m.Nx
    · rw [if_pos w1] at q; norm_num at q
    by_cases w2 : l = 0 ∨ l = S.m.Nz - 1
    · rw [ev k l (by omega) hl, b ⟨by omega, by omega, w2⟩]
    · rw [if_neg w1, if_neg w2] at q; norm_num at q

/-- The textbook solution is balanced, and its stresses are the textbook ones. -/
private theorem textbook_balanced {eta r p0 : ℝ} {t o : Mech} (hU : Uniform S eta r t) (ho : updateNL S false (textbook S eps x z r p0) t = .ok o) :
    Balanced S (rows S (opsOf S o) (textbook S eps x z r p0) o)
    ∧ (∀ c < S.ncells, (o.cells c).T.xx = -(2 * eta * eps) ∧ (o.cells c).T.zz = 2 * eta * eps) ∧ ∀ c < S.nverts, (o.verts c).T.xz = 0 := by
  have hx := h.Nx
  have hz := h.Nz
  obtain ⟨eu, ev, ep⟩ := textbook_at S eps x z r p0
  obtain ⟨f', t', hf⟩ := isoviscous_goes_on S _ hU.visc (textbook S eps x z r p0) t
  obtain ⟨hc, hv⟩ := isoviscous_recorded S _ hU.visc _ f' t t' hf
  have h1 := (fin_ok hf).1
  rw [final_flag_unused S hU.vol true false, ho] at h1
  obtain rfl : o = t' := by simpa using h1
  obtain ⟨hr, -, -, -, -, -, hrho, hbx, hbz⟩ := updateNL_ok ho
  rw [hU.vol] at hrho
  replace hrho : o.rho = t.rho := hrho
  have ha : ∀ c : Nat, ¬ (S.m.tp c = 30 ∨ S.m.tp c = 31) := fun c => by rw [h.rock]; decide
  have ddx := h.dx.ne'
  have ddz := h.dz.ne'
  have hcell : ∀ k < S.m.Nx - 1, ∀ l < S.m.Nz - 1, (o.cells (k + l * (S.m.Nx - 1))).T.xx = -(2 * eta * eps) ∧ (o.cells (k + l * (S.m.Nx - 1))).T.zz = 2 * eta * eps
      ∧ f'.p (k + l * (S.m.Nx - 1)) = p0 + r * (S.body.gx * (S.m.dx * k) + S.body.gz * (S.m.dz * l))
      ∧ o.rates.divu (k + l * (S.m.Nx - 1)) = 0 := fun k hk l hl => by
    obtain ⟨a1, a2, a3⟩ := cell_rates S (textbook S eps x z r p0) t.rates k l hk hl (ha _)
    obtain ⟨c1, c2, -⟩ := hc (k + l * (S.m.Nx - 1)) (cell_lt _ _ k l hk hl) (ha _)
    rw [← hr, eu _ _ (by omega) (by omega), eu _ _ (by omega) (by omega), ev _ _ (by omega) (by omega), ev _ _ (by omega) (by omega), h.stepX, h.stepZ] at a1 a2 a3
    have d0 : (-(x k + S.m.dx) * eps - -x k * eps) / S.m.dx = -eps := by field_simp; ring
    have d1 : ((z l + S.m.dz) * eps - z l * eps) / S.m.dz = eps := by field_simp; ring
    rw [d0, d1] at a1 a2 a3
    have z0 : ∀ a : ℝ, -eps + eps + a * (1 / 2) * (-eps + eps) = 0 := fun a => by ring
    rw [z0] at a1 a2 a3
    rw [mul_zero, sub_zero] at a2 a3
    rw [c1, c2, ep k l hk hl]
    unfold Point.nodeStress
    dsimp only
    rw [a2, a3]
    exact ⟨by ring, by ring, rfl, a1⟩
  have hxz : ∀ k < S.m.Nx, ∀ l < S.m.Nz, (o.verts (k + l * S.m.Nx)).T.xz = 0 := fun k hk l hl => by
    have e := shear_rate S (textbook S eps x z r p0) t.rates k l hk hl
    rw [← hr, if_pos (hU.air _), eu _ _ hk (by omega), eu _ _ hk (by omega), ev _ _ (by omega) hl, ev _ _ (by omega) hl] at e
    replace e : o.rates.exz (k + l * S.m.Nx) = 0 := e.trans (by simp)
    rw [hv (k + l * S.m.Nx) (cell_lt _ _ k l hk hl) (hU.air _)]
    unfold Point.nodeStress
    dsimp only
    rw [e]
    exact mul_zero _
  refine ⟨⟨fun k l hf' => ?_, fun k l hf' => ?_, fun k l hf' => ?_⟩, fun c hc' => ?_, fun c hc' => ?_⟩
  · obtain ⟨k0, k1, l0, l1, ht⟩ := hf'
    have e := recorded_force_balance S hx hU.stab _ f' t o hf k l k0 k1 l0 l1 (by rw [ht]; decide)
    dsimp only at e
    rw [e]
    obtain ⟨k, rfl⟩ : ∃ j, k = j + 1 := ⟨k - 1, by omega⟩
    obtain ⟨l, rfl⟩ : ∃ j, l = j + 1 := ⟨l - 1, by omega⟩
    have e1 := hcell k (by omega) l (by omega)
    have e2 := hcell (k + 1) (by omega) l (by omega)
    have e3 := hxz (k + 1) (by omega) (l + 1) (by omega)
    have e4 := hxz (k + 1) (by omega) l (by omega)
    have e5 : o.bx (k + 1 + (l + 1) * S.m.Nx) = S.body.gx * r := by
      obtain ⟨g1, g2⟩ := div_mod S.m.Nx (k + 1) (l + 1) (by omega)
      rw [hbx]; unfold written
      rw [if_pos (cell_lt _ _ _ _ (by omega) (by omega))]
      dsimp only
      rw [g1, g2]
      unfold Resid.rogerX
      dsimp only
      rw [if_pos ⟨by push_cast; omega, by show ((l + 1 : Nat) : Int) < (S.m.Nz : Int) + 1 - 1; push_cast; omega, Or.inl (by
        rw [← ht]; show S.m.tu _ = S.m.tu _; congr 1)⟩, hU.rhoS, hU.rhoS]
      ring
    rw [show k + 1 - 1 + (l + 1 - 1) * (S.m.Nx - 1) = k + l * (S.m.Nx - 1) by simp, show k + l * (S.m.Nx - 1) + 1 = k + 1 + l * (S.m.Nx - 1) by ring,
      show k + 1 + (l + 1) * S.m.Nx - S.m.Nx = k + 1 + l * S.m.Nx by rw [Nat.succ_mul]; omega, e1.1, e1.2.2.1, e2.1, e2.2.2.1, e3, e4, e5]
    push_cast
    field_simp
    ring
  · obtain ⟨k0, k1, l0, l1, ht⟩ := hf'
    have e := recorded_force_balance_z S hx hU.stab _ f' t o hf k l k0 k1 l0 l1
    dsimp only at e
    rw [e]
    obtain ⟨k, rfl⟩ : ∃ j, k = j + 1 := ⟨k - 1, by omega⟩
    obtain ⟨l, rfl⟩ : ∃ j, l = j + 1 := ⟨l - 1, by omega⟩
    have e1 := hcell k (by omega) l (by omega)
    have e2 := hcell k (by omega) (l + 1) (by omega)
    have e3 := hxz (k + 1) (by omega) (l + 1) (by omega)
    have e4 := hxz k (by omega) (l + 1) (by omega)
    have e5 : o.bz (k + 1 + (l + 1) * (S.m.Nx + 1)) = S.body.gz * r := by
      obtain ⟨g1, g2⟩ := div_mod (S.m.Nx + 1) (k + 1) (l + 1) (by omega)
      rw [hbz]; unfold written
      rw [if_pos (cell_lt _ _ _ _ (by omega) (by omega))]
      dsimp only
      rw [g1, g2]
      unfold Resid.rogerZ
      dsimp only
      have q : ∀ l' < S.m.Nz - 1, ∀ i : Int, i = ((k + l' * (S.m.Nx - 1) : Nat) : Int) → (meshRho S o.rho).rho i = r := fun l' hl' i hi => by
        rw [hi, hrho]
        show S.arr t.rho ((k + l' * (S.m.Nx - 1) : Nat) : Int) = r
        refine ((fun i : Nat => by simp [Setting.arr]) : ∀ i : Nat, S.arr t.rho (i : Int) = t.rho i) _ |>.trans ?_
        exact hU.rhoN _ (cell_lt _ _ _ _ (by omega) hl')
      have cast : ((meshRho S o.rho).Nx : Int) - 1 = ((S.m.Nx - 1 : Nat) : Int) := by show (S.m.Nx : Int) - 1 = _; omega
      rw [if_pos ⟨by push_cast; omega, by show ((k + 1 : Nat) : Int) < (S.m.Nx : Int) + 1 - 1; push_cast; omega, by
        rw [← ht]; show S.m.tv _ = S.m.tv _; congr 1⟩, if_neg (by rw [hU.surf]; simp), q l (by omega) _ (by rw [cast]; push_cast; ring),
        q (l + 1) (by omega) _ (by rw [cast]; push_cast; ring)]
      ring
    rw [show k + 1 - 1 + (l + 1 - 1) * (S.m.Nx - 1) = k + l * (S.m.Nx - 1) by simp, show k + l * (S.m.Nx - 1) + (S.m.Nx - 1) = k + (l + 1) * (S.m.Nx - 1) by ring,
      show k + 1 + (l + 1) * S.m.Nx - 1 = k + (l + 1) * S.m.Nx by omega, e1.2.1, e1.2.2.1, e2.2.1, e2.2.2.1, e3, e4, e5]
    push_cast
    field_simp
    ring
  · obtain ⟨k0, k1, -⟩ := hf'
    have := (hcell k k0 l k1).2.2.2
    simp only [rows, Resid.contResidual]
    rw [this, (hU.still _).1, (hU.still _).2, hU.vol]
    simp [flag]
  · obtain ⟨k, l, hk, hl, rfl⟩ := node (S.m.Nx - 1) (S.m.Nz - 1) c (by omega) (by rw [mul_comm]; exact hc')
    exact ⟨(hcell k hk l hl).1, (hcell k hk l hl).2.1⟩
  · obtain ⟨k, l, hk, hl, rfl⟩ := node S.m.Nx S.m.Nz c (by omega) (by rw [mul_comm]; exact hc')
    exact hxz k hk l hl
end

/-- A flow that is the textbook one at every node is the textbook flow. -/
theorem flow_textbook {S : Setting} {eps : ℝ} {x z : Nat → ℝ} {bu bv : Setup.Side ℝ} (h : PureShear S eps x z bu bv) {r p0 : ℝ} {V : BCVals ℝ} {g : LS.Fields} (hg : Admissible S V g)
    (g1 : ∀ k l, k < S.m.Nx → l ≤ S.m.Nz → g.u (k + l * S.m.Nx) = -x k * eps)
    (g2 : ∀ k l, k ≤ S.m.Nx → l < S.m.Nz → g.v (k + l * (S.m.Nx + 1)) = z l * eps)
    (g3 : ∀ k l, k < S.m.Nx - 1 → l < S.m.Nz - 1 → g.p (k + l * (S.m.Nx - 1)) = p0 + r * (S.body.gx * (S.m.dx * k) + S.body.gz * (S.m.dz * l))) :
    g = textbook S eps x z r p0 := by
  have hx := h.Nx
  have hz := h.Nz
  obtain ⟨eu, ev, ep⟩ := textbook_at S eps x z r p0
  obtain ⟨f1, -⟩ := h.textbook_admissible r p0 V
  have a1 : g.u = (textbook S eps x z r p0).u := by
    funext i
    by_cases q : i < (S.m.Nz + 1) * S.m.Nx
    · obtain ⟨k, l, hk, hl, rfl⟩ := node _ _ i (by omega) q
      rw [g1 k l hk (by omega), eu k l hk (by omega)]
    · rw [hg.u i (not_lt.1 q), f1.u i (not_lt.1 q)]
  have a2 : g.v = (textbook S eps x z r p0).v := by
    funext i
    by_cases q : i < S.m.Nz * (S.m.Nx + 1)
    · obtain ⟨k, l, hk, hl, rfl⟩ := node _ _ i (by omega) q
      rw [g2 k l (by omega) hl, ev k l (by omega) hl]
    · rw [hg.v i (not_lt.1 q), f1.v i (not_lt.1 q)]
  have a3 : g.p = (textbook S eps x z r p0).p := by
    funext i
    by_cases q : i < (S.m.Nz - 1) * (S.m.Nx - 1)
    · obtain ⟨k, l, hk, hl, rfl⟩ := node _ _ i (by omega) q
      rw [g3 k l hk hl, ep k l hk hl]
    · rw [hg.p i (not_lt.1 q), f1.p i (not_lt.1 q)]
  cases g
  simp only at a1 a2 a3
  rw [a1, a2, a3]

/-- If the textbook flow is balanced, every flow with the prescribed walls that is balanced is the textbook flow, up to a constant pressure. -/
theorem pure_shear_only {S : Setting} {eps : ℝ} {x z : Nat → ℝ} {bu bv : Setup.Side ℝ} (h : PureShear S eps x z bu bv) (hS : Viscoelastic S) {r : ℝ} {t : Mech}
    (hvol : S.vol = false) (hcomp : ∀ c, S.comp c = false) (hD : Determined S t.rho) {V : BCVals ℝ} {g : LS.Fields} (hg : Admissible S V g) (hd : Driven S bu bv g)
    (htb : ∀ o, updateNL S false (textbook S eps x z r 0) t = .ok o → Balanced S (rows S (opsOf S o) (textbook S eps x z r 0) o))
    {a : Mech} (ha : updateNL S false g t = .ok a) (hb : Balanced S (rows S (opsOf S a) g a)) :
    (∀ k l, k < S.m.Nx → l ≤ S.m.Nz → g.u (k + l * S.m.Nx) = -x k * eps)
    ∧ (∀ k l, k ≤ S.m.Nx → l < S.m.Nz → g.v (k + l * (S.m.Nx + 1)) = z l * eps)
    ∧ ∃ p0, ∀ k l, k < S.m.Nx - 1 → l < S.m.Nz - 1 → g.p (k + l * (S.m.Nx - 1)) = p0 + r * (S.body.gx * (S.m.dx * k) + S.body.gz * (S.m.dz * l)) := by
  have hx := h.Nx
  have hz := h.Nz
  obtain ⟨b, hb'⟩ := viscoelastic_goes_on S hS false (textbook S eps x z r 0) t
  obtain ⟨f1, f2⟩ := h.textbook_admissible r 0 V
  have hsame : SamePrescribed S g (textbook S eps x z r 0) := by
    refine ⟨fun i hi => ?_, fun i hi => ?_, fun i hi => absurd (h.rock i) hi⟩
    · by_cases q : i < (S.m.Nz + 1) * S.m.Nx
      · have : bu.type i = 0 := by
          rw [h.tu i q] at hi
          refine hi.resolve_right fun w => ?_
          have := h.box.tags.u i q
          obtain ⟨k, l, hk, hl, rfl⟩ := node _ _ i (by omega) q
          rw [← h.tu _ q, (h.tags_u k l hk (by omega)).1] at w
          split_ifs at w <;> norm_num at w
        rw [hd.1 i q this, f2.1 i q this]
      · rw [hg.u i (not_lt.1 q), f1.u i (not_lt.1 q)]
    · by_cases q : i < S.m.Nz * (S.m.Nx + 1)
      · have : bv.type i = 0 := by
          rw [h.tv i q] at hi
          refine hi.resolve_right fun w => ?_
          obtain ⟨k, l, hk, hl, rfl⟩ := node _ _ i (by omega) q
          rw [← h.tv _ q, (h.tags_v k l (by omega) hl).1] at w
          split_ifs at w <;> norm_num at w
        rw [hd.2 i q this, f2.2 i q this]
      · rw [hg.v i (not_lt.1 q), f1.v i (not_lt.1 q)]
  obtain ⟨eu, ev, ep⟩ := textbook_at S eps x z r 0
  obtain ⟨q1, q2, p, q3⟩ := closed_pressure_partial hS h.box hvol hg f1 hsame hD ⟨fun c hc => by rw [hcomp c] at hc; exact absurd hc (by simp), h.sealed⟩ ha hb' hb
    (htb _ hb')
  refine ⟨fun k l hk hl => by rw [q1, eu k l hk hl], fun k l hk hl => by rw [q2, ev k l hk hl], p, fun k l hk hl => ?_⟩
  rw [q3 k l hk hl, ep k l hk hl]; ring

/-- C154 (partial).  **A uniform body in pure shear gets the textbook flow, exactly, on every grid**: the flows with the prescribed walls that balance momentum and volume are
`u = -eps x`, `v = eps z` at every node with the pressure of the weight of the body plus any constant, and no others. -/
theorem pure_shear_exact_partial {S : Setting} {eps : ℝ} {x z : Nat → ℝ} {bu bv : Setup.Side ℝ} (h : PureShear S eps x z bu bv) (hS : Viscoelastic S) {eta r : ℝ} {t : Mech}
    (hU : Uniform S eta r t) (hD : Determined S t.rho) {V : BCVals ℝ} {g : LS.Fields} (hg : Admissible S V g) (hd : Driven S bu bv g) :
    (∃ a, updateNL S false g t = .ok a ∧ Balanced S (rows S (opsOf S a) g a)) ↔
    (∀ k l, k < S.m.Nx → l ≤ S.m.Nz → g.u (k + l * S.m.Nx) = -x k * eps)
    ∧ (∀ k l, k ≤ S.m.Nx → l < S.m.Nz → g.v (k + l * (S.m.Nx + 1)) = z l * eps)
    ∧ ∃ p0, ∀ k l, k < S.m.Nx - 1 → l < S.m.Nz - 1 → g.p (k + l * (S.m.Nx - 1)) = p0 + r * (S.body.gx * (S.m.dx * k) + S.body.gz * (S.m.dz * l)) := by
  have hx := h.Nx
  have hz := h.Nz
  constructor
  · rintro ⟨a, ha, hb⟩
    exact pure_shear_only h hS hU.vol (fun c => (hU.still c).1) hD hg hd (fun o ho => (textbook_balanced h hU ho).1) ha hb
  · rintro ⟨g1, g2, p0, g3⟩
    rw [flow_textbook h hg g1 g2 g3]
    obtain ⟨b, hb'⟩ := viscoelastic_goes_on S hS false (textbook S eps x z r p0) t
    exact ⟨b, hb', (textbook_balanced h hU hb').1⟩

/-- C154 (partial).  What is recorded for that flow are the textbook stresses: `-2 eta eps` and `2 eta eps` in every cell, no shear stress at any vertex. -/
theorem pure_shear_stress_partial {S : Setting} {eps : ℝ} {x z : Nat → ℝ} {bu bv : Setup.Side ℝ} (h : PureShear S eps x z bu bv) {eta r p0 : ℝ} {t t' : Mech} {f' : LS.Fields}
    (hU : Uniform S eta r t) (hfin : finishStep S (textbook S eps x z r p0) t = .ok (f', t')) :
    (∀ c < S.ncells, (t'.cells c).T.xx = -(2 * eta * eps) ∧ (t'.cells c).T.zz = 2 * eta * eps) ∧ ∀ c < S.nverts, (t'.verts c).T.xz = 0 := by
  have h1 := (fin_ok hfin).1
  rw [final_flag_unused S hU.vol true false] at h1
  exact (textbook_balanced h hU h1).2

/-- Rock of viscosity `1e21` and density 3000 under gravity 10, cells of one kilometre, with the tags given. -/
noncomputable def slab (Nx Nz : Nat) (tu tv : Nat → Int) : Setting :=
  { box with m := { boxMesh with
      Nx := Nx
      Nz := Nz
      tu := fun c => if c < (Nz + 1) * Nx then tu c.toNat else 0
      tv := fun c => if c < Nz * (Nx + 1) then tv c.toNat else 0 } }

/-- The hypotheses are met on every grid: shortening by `eps`, the lower left corner of the model at `(x0, z0)`. -/
theorem slab_meets (Nx Nz : Nat) (hx : 2 ≤ Nx) (hz : 2 ≤ Nz) (eps x0 z0 : ℝ) (t : Mech) (ht : ∀ c, t.rho c = 3000) (V : BCVals ℝ) : ∃ bu bv,
    PureShear (slab Nx Nz bu.type bv.type) eps (fun k => x0 + k * 1000) (fun l => z0 + l * 1000) bu bv
    ∧ Viscoelastic (slab Nx Nz bu.type bv.type) ∧ Uniform (slab Nx Nz bu.type bv.type) (10 ^ 21) 3000 t ∧ Determined (slab Nx Nz bu.type bv.type) t.rho
    ∧ ∃ g, Admissible (slab Nx Nz bu.type bv.type) V g ∧ Driven (slab Nx Nz bu.type bv.type) bu bv g := by
  obtain ⟨bu, hu, -⟩ := Setup.template_Vx hx 0 eps 0 (fun k : Nat => x0 + k * 1000) (fun _ => 0) (fun _ => 0) (Nz := Nz)
  obtain ⟨bv, hv, -⟩ := Setup.template_Vz (show 1 ≤ Nx by omega) hz 0 eps (fun l : Nat => z0 + l * 1000) (fun _ => 0) (fun _ => 0)
  have h : PureShear (slab Nx Nz bu.type bv.type) eps (fun k => x0 + k * 1000) (fun l => z0 + l * 1000) bu bv := by
    refine ⟨hx, hz, by norm_num [slab, boxMesh, blockMesh], by norm_num [slab, boxMesh, blockMesh], fun k => ?_, fun l => ?_, ⟨0, fun _ => 0, fun _ => 0, by simp, hu⟩,
      ⟨fun _ => 0, fun _ => 0, by simp, hv⟩, fun i hi => ?_, fun i hi => ?_, fun i hi => ?_, fun i hi => ?_, fun i => rfl⟩
    · show x0 + ((k + 1 : Nat) : ℝ) * 1000 = x0 + k * 1000 + 1000
      push_cast; ring
    · show z0 + ((l + 1 : Nat) : ℝ) * 1000 = z0 + l * 1000 + 1000
      push_cast; ring
    · have hi : i < (Nz + 1) * Nx := hi
      show (if (i : Int) < ((Nz : Int) + 1) * Nx then bu.type (i : Int).toNat else 0) = _
      rw [if_pos (by exact_mod_cast hi)]; rfl
    · have hi : i < Nz * (Nx + 1) := hi
      show (if (i : Int) < (Nz : Int) * (Nx + 1) then bv.type (i : Int).toNat else 0) = _
      rw [if_pos (by exact_mod_cast hi)]; rfl
    · have hi : (Nz + 1) * Nx ≤ i := hi
      show (if (i : Int) < ((Nz : Int) + 1) * Nx then bu.type (i : Int).toNat else 0) ≠ -12
      rw [if_neg (by rw [not_lt]; exact_mod_cast hi)]; decide
    · have hi : Nz * (Nx + 1) ≤ i := hi
      show (if (i : Int) < (Nz : Int) * (Nx + 1) then bv.type (i : Int).toNat else 0) ≠ -12
      rw [if_neg (by rw [not_lt]; exact_mod_cast hi)]; decide
  have v := plate_viscoelastic
  have w := box_isoviscous
  refine ⟨bu, bv, h, ⟨hx, hz, v.minEta, v.limits, v.dt, v.R, v.sE, v.sT, v.sS, v.sL, v.sEta, v.mixing, v.mats,
      fun c _ _ => v.cells 0 (by decide) (by simp [plate, plateMesh, boxMesh, blockMesh]), fun c _ _ => v.verts 0 (by decide) (by simp [plate, plateMesh, boxMesh, blockMesh]),
      fun k _ l _ _ => ⟨_, List.mem_cons_self, by simp [Spec.AirFlag, slab, boxMesh, blockMesh]⟩⟩,
    ⟨⟨rfl, rfl, w.minEta, w.low, w.high, w.big, w.sE, w.mats, fun c _ _ => w.cells 0 (by decide) (by simp [box, boxMesh, blockMesh]),
      fun c _ _ => w.verts 0 (by decide) (by simp [box, boxMesh, blockMesh])⟩, fun c _ => ht c, fun _ => rfl, rfl, rfl, rfl, fun c => by simp [slab, boxMesh, blockMesh],
      fun _ => ⟨rfl, rfl⟩⟩,
    ⟨by norm_num [slab, boxMesh, blockMesh], by norm_num [slab, boxMesh, blockMesh], by norm_num [slab, boxMesh, blockMesh], fun c => by norm_num [slab, box, block, Point.halfHalf],
      fun q => by simp [meshRho, slab, boxMesh, blockMesh] at q, Or.inl fun k l _ _ => ⟨by simp [unitMesh, slab, boxMesh, blockMesh], by norm_num [unitMesh]⟩⟩, _, h.textbook_admissible 3000 0 V⟩

end Verif.StepFlow
