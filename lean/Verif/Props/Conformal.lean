import Verif.Props.TerrainFlags

/- C145, C146: compressible flow with out-of-plane strain.  Stretching by the same amount in all directions then does no work, so a velocity field can do no work and move:
with air above, but not in a closed box, and not if cells keep their volume. -/
namespace Verif
open Finset

section
variable {K : Type*} [Field K] [LinearOrder K] [CharZero K] [IsStrictOrderedRing K] (m : SMesh K) (x : SNode → K)

/-- Rate of stretching of a cell in x. -/
def stretchX (k l : Nat) : K :=
  (onUnknowns m x (.u ((k : Int) + 1 + ((l : Int) + 1) * m.Nx)) - onUnknowns m x (.u ((k : Int) + ((l : Int) + 1) * m.Nx))) / m.dx

/-- Rate of stretching of a cell in z. -/
def stretchZ (k l : Nat) : K :=
  (onUnknowns m x (.v ((k : Int) + 1 + ((l : Int) + 1) * (m.Nx + 1))) - onUnknowns m x (.v ((k : Int) + 1 + (l : Int) * (m.Nx + 1)))) / m.dz

/-- The volume equation of a cell measures its stretching. -/
theorem volume_row (hdx : m.dx ≠ 0) (hdz : m.dz ≠ 0) (k l : Nat) : ∑ e ∈ velNodes m, coeff (cStencil m k l) e * x e =
    (if m.oop then 3/2 else 1) * (m.dx * m.dz) * (stretchX m x k l + stretchZ m x k l) := by
  rw [← applyTo_unknowns]
  have drop : ∀ (b : Bool) (n : SNode) (a : K), (b = false → onUnknowns m x n = 0) → applyTo (onUnknowns m x) (guarded b n a) = a * onUnknowns m x n := by
    intro b n a h
    cases b
    · simp [guarded, applyTo, h rfl]
    · simp [guarded, applyTo]
  have offU : ∀ i : Int, (m.tu i != 13) = false → onUnknowns m x (.u i) = 0 := by
    intro i h
    refine onUnknowns_tag m _ _ ?_
    simp only [bne_eq_false_iff_eq] at h
    simp [SMesh.tag, h]
  have offV : ∀ i : Int, (m.tv i != 13) = false → onUnknowns m x (.v i) = 0 := by
    intro i h
    refine onUnknowns_tag m _ _ ?_
    simp only [bne_eq_false_iff_eq] at h
    simp [SMesh.tag, h]
  simp only [cStencil, applyTo_append]
  rw [drop _ _ _ (offU _), drop _ _ _ (offU _), drop _ _ _ (offV _), drop _ _ _ (offV _)]
  unfold stretchX stretchZ
  rw [show (k : Int) + ((l : Int) + 1) * m.Nx + 1 = (k : Int) + 1 + ((l : Int) + 1) * m.Nx by ring,
    show (k : Int) + (l : Int) * ((m.Nx : Int) + 1) + 1 + (m.Nx + 1) = (k : Int) + 1 + ((l : Int) + 1) * (m.Nx + 1) by ring,
    show (k : Int) + (l : Int) * ((m.Nx : Int) + 1) + 1 = (k : Int) + 1 + (l : Int) * (m.Nx + 1) by ring]
  field_simp
  ring

private theorem cell_form (hv : Viscous m) (hb : ClosedBox m) (hs : StableOrOff m) (hdx : 0 < m.dx) (hdz : 0 < m.dz) (hx : viscousWork m x = 0) (k l : Nat)
    (hk : k + 1 < m.Nx) (hl : l + 1 < m.Nz) (r : RockCell m k l) (pos : 0 < m.D11 ((k : Int) + l * (m.Nx - 1))) :
    stretchX m x k l ^ 2 + stretchZ m x k l ^ 2 - flag m.comp / 3 * ((if m.oop then 3/2 else 1) * (stretchX m x k l + stretchZ m x k l))
      * (stretchX m x k l + stretchZ m x k l) = 0 := by
  have z2 := (rest_terms m x hv hb hs hdx hdz hx).1 k l hk hl
  rw [cell_term m x hv k l hk hl] at z2
  have f1 : (flag (m.tp ((k : Int) + l * (m.Nx - 1)) == -1) : K) = 1 := by
    have : m.tp ((k : Int) + l * (m.Nx - 1)) = -1 := r
    simp [flag, this]
  rw [f1, mul_one] at z2
  exact (mul_eq_zero.1 z2).resolve_left pos.ne'

private theorem still (hdx : 0 < m.dx) (hdz : 0 < m.dz) (k l : Nat) (h : stretchX m x k l ^ 2 + stretchZ m x k l ^ 2 ≤ 0) :
    onUnknowns m x (.u ((k : Int) + 1 + ((l : Int) + 1) * m.Nx)) = onUnknowns m x (.u ((k : Int) + ((l : Int) + 1) * m.Nx)) ∧
    onUnknowns m x (.v ((k : Int) + 1 + ((l : Int) + 1) * (m.Nx + 1))) = onUnknowns m x (.v ((k : Int) + 1 + (l : Int) * (m.Nx + 1))) := by
  have q1 := sq_nonneg (stretchX m x k l)
  have q2 := sq_nonneg (stretchZ m x k l)
  have r1 := pow_eq_zero_iff (two_ne_zero) |>.1 (le_antisymm (by linarith) q1)
  have r2 := pow_eq_zero_iff (two_ne_zero) |>.1 (le_antisymm (by linarith) q2)
  exact ⟨sub_eq_zero.1 ((div_eq_zero_iff.1 r1).resolve_right hdx.ne'), sub_eq_zero.1 ((div_eq_zero_iff.1 r2).resolve_right hdz.ne')⟩

/-- C146.  A field that does no work and keeps the volume of every rock cell is at rest: without air or with topography, compressible or not, with or without out-of-plane
strain. -/
theorem rest_same_volume (hv : Viscous m) (hb : ClosedBox m) (hs : StableOrOff m) (hdx : 0 < m.dx) (hdz : 0 < m.dz) (hr : AllRock m ∨ Terrain m)
    (hvol : ∀ k l : Nat, k + 1 < m.Nx → l + 1 < m.Nz → RockCell m k l → ∑ e ∈ velNodes m, coeff (cStencil m k l) e * x e = 0)
    (hx : viscousWork m x = 0) : ∀ n ∈ velNodes m, x n = 0 := by
  have cell : ∀ k l : Nat, k + 1 < m.Nx → l + 1 < m.Nz → RockCell m k l → 0 < m.D11 ((k : Int) + l * (m.Nx - 1)) → stretchX m x k l ^ 2 + stretchZ m x k l ^ 2 ≤ 0 := by
    intro k l hk hl r pos
    have h := hvol k l hk hl r
    rw [volume_row m x hdx.ne' hdz.ne'] at h
    have f : (if m.oop then (3/2 : K) else 1) ≠ 0 := by split <;> norm_num
    have h0 := (mul_eq_zero.1 h).resolve_left (mul_ne_zero f (mul_ne_zero hdx.ne' hdz.ne'))
    have := cell_form m x hv hb hs hdx hdz hx k l hk hl r pos
    rw [h0] at this
    linarith
  rcases hr with hr | ht
  · exact rest_of_cells m x fun k l hk hl => still m x hdx hdz k l (cell k l hk hl (hr k l hk hl).1 (hr k l hk hl).2)
  · exact rest_of_terrain m x hdz ht (fun k l hk hl r => still m x hdx hdz k l (cell k l hk hl r (ht.viscous k l hk hl r))) fun k l k0 hk l0 hl act pos =>
      rest_vertex m x k l k0 hk l0 hl act pos ((rest_terms m x hv hb hs hdx hdz hx).2 k l (by omega) (by omega))

/-- C145.  Without air, and with viscous vertices inside the box, only the field at rest does no work: also for compressible flow with out-of-plane strain. -/
theorem viscous_work_pos_compressible (hv : Viscous m) (hb : ClosedBox m) (hs : StableOrOff m) (hdx : 0 < m.dx) (hdz : 0 < m.dz) (rock : AllRock m)
    (vertex : ∀ k l : Nat, 0 < k → k + 1 < m.Nx → 0 < l → l + 1 < m.Nz → m.tg ((k : Int) + l * m.Nx) ≠ 30 ∧ 0 < m.D33 ((k : Int) + l * m.Nx))
    (hx : viscousWork m x = 0) : ∀ n ∈ velNodes m, x n = 0 := by
  let U : Int → Int → K := fun k l => onUnknowns m x (.u (k + l * m.Nx))
  let V : Int → Int → K := fun k l => onUnknowns m x (.v (k + l * (m.Nx + 1)))
  have hU : ∀ k l : Nat, k < m.Nx → l ≤ m.Nz → ¬ (0 < k ∧ k + 1 < m.Nx ∧ 0 < l ∧ l < m.Nz) → U k l = 0 := fun k l hk _ h => X_u_out m x k l hk h
  have hV : ∀ k l : Nat, k ≤ m.Nx → l < m.Nz → ¬ (0 < k ∧ k < m.Nx ∧ 0 < l ∧ l + 1 < m.Nz) → V k l = 0 := fun k l hk _ h => X_v_out m x k l hk h
  have same : ∀ k l : Nat, k + 1 < m.Nx → l + 1 < m.Nz → stretchX m x k l = stretchZ m x k l := by
    intro k l hk hl
    have h := cell_form m x hv hb hs hdx hdz hx k l hk hl (rock k l hk hl).1 (rock k l hk hl).2
    generalize stretchX m x k l = a at h
    generalize stretchZ m x k l = b at h
    have key : (a - b) ^ 2 ≤ 0 := by
      have h1 := sq_nonneg (a - b)
      have h2 := sq_nonneg (a + b)
      have h3 := sq_nonneg a
      have h4 := sq_nonneg b
      cases hc : m.comp <;> cases ho : m.oop <;> simp [hc, ho, flag] at h <;> nlinarith
    exact sub_eq_zero.1 (pow_eq_zero_iff two_ne_zero |>.1 (le_antisymm key (sq_nonneg _)))
  have shear : ∀ k l : Nat, 0 < k → k + 1 < m.Nx → 0 < l → l + 1 < m.Nz → (U k ((l : Int) + 1) - U k l) / m.dz + (V ((k : Int) + 1) l - V k l) / m.dx = 0 := by
    intro k l k0 hk l0 hl
    obtain ⟨act, pos⟩ := vertex k l k0 hk l0 hl
    exact rest_vertex m x k l k0 hk l0 hl act pos ((rest_terms m x hv hb hs hdx hdz hx).2 k l (by omega) (by omega))
  -- mixed derivatives commute: the stretching in x and z summed over cells is the shear in x and z summed over vertices
  have parts := work_by_parts U (fun _ _ => 0) (fun k l => (V (k + 1) (l + 1) - V (k + 1) l) / m.dz) (fun _ _ => 0)
    (fun k l => -((V (k + 1) l - V k l) / m.dx)) (fun _ _ => 0) (fun _ _ => 0) m.Nx m.Nz m.dx m.dz hdx.ne' hdz.ne' hU (fun _ _ _ _ _ => rfl)
  have lhs : ∀ k l : Nat, U k l * (-(m.dx * m.dz) *
      (((V ((k : Int) + 1) ((l : Int) - 1 + 1) - V ((k : Int) + 1) ((l : Int) - 1)) / m.dz -
          (V ((k : Int) - 1 + 1) ((l : Int) - 1 + 1) - V ((k : Int) - 1 + 1) ((l : Int) - 1)) / m.dz) / m.dx +
        (-((V ((k : Int) + 1) l - V k l) / m.dx) - -((V ((k : Int) + 1) ((l : Int) - 1) - V k ((l : Int) - 1)) / m.dx)) / m.dz - 0 * U k l)) = 0 := by
    intro k l
    rw [sub_add_cancel, sub_add_cancel]
    field_simp
    ring
  rw [Finset.sum_eq_zero fun k _ => Finset.sum_eq_zero fun l _ => lhs k l] at parts
  simp only [zero_mul, sub_zero, zero_div, add_zero, Finset.sum_const_zero, mul_zero, ne_eq, OfNat.ofNat_ne_zero, not_false_eq_true, zero_pow] at parts
  have p0 := (mul_eq_zero.1 parts.symm).resolve_left (mul_ne_zero hdx.ne' hdz.ne')
  have s1 : ∀ k ∈ range (m.Nx - 1), ∀ l ∈ range (m.Nz - 1),
      (V ((k : Int) + 1) ((l : Int) + 1) - V ((k : Int) + 1) l) / m.dz * ((U ((k : Int) + 1) ((l : Int) + 1) - U k ((l : Int) + 1)) / m.dx) = stretchX m x k l ^ 2 := by
    intro k hk l hl
    have hk' := mem_range.1 hk
    have hl' := mem_range.1 hl
    have h := same k l (by omega) (by omega)
    rw [sq]
    nth_rewrite 1 [h]
    rfl
  have s2 : ∀ k ∈ range m.Nx, ∀ l ∈ range m.Nz, 0 ≤ -((V ((k : Int) + 1) l - V k l) / m.dx) * ((U k ((l : Int) + 1) - U k l) / m.dz) := by
    intro k hk l hl
    have hk' := mem_range.1 hk
    have hl' := mem_range.1 hl
    by_cases hin : (0 < k ∧ k + 1 < m.Nx) ∧ 0 < l ∧ l + 1 < m.Nz
    · have h := shear k l hin.1.1 hin.1.2 hin.2.1 hin.2.2
      rw [show -((V ((k : Int) + 1) l - V k l) / m.dx) = (U k ((l : Int) + 1) - U k l) / m.dz by linarith]
      exact mul_self_nonneg _
    · by_cases hc : 0 < k ∧ k + 1 < m.Nx
      · have a := hV (k + 1) l (by omega) hl' (by tauto)
        have b := hV k l (by omega) hl' (by tauto)
        push_cast at a
        rw [a, b]; simp
      · have a := hU k (l + 1) hk' (by omega) (by tauto)
        have b := hU k l hk' (by omega) (by tauto)
        push_cast at a
        rw [a, b]; simp
  rw [Finset.sum_congr rfl fun k hk => Finset.sum_congr rfl (s1 k hk)] at p0
  have n1 := Finset.sum_nonneg fun k (_ : k ∈ range (m.Nx - 1)) => Finset.sum_nonneg fun l (_ : l ∈ range (m.Nz - 1)) => sq_nonneg (stretchX m x k l)
  have n2 := Finset.sum_nonneg fun k hk => Finset.sum_nonneg (s2 k hk)
  have z := le_antisymm (by linarith) n1
  refine rest_of_cells m x fun k l hk hl => still m x hdx hdz k l ?_
  have z1 := (Finset.sum_eq_zero_iff_of_nonneg (fun k _ => Finset.sum_nonneg fun l _ => sq_nonneg (stretchX m x k l))).1 z k (mem_range.2 (by omega))
  have z2 := (Finset.sum_eq_zero_iff_of_nonneg (fun l _ => sq_nonneg (stretchX m x k l))).1 z1 l (mem_range.2 (by omega))
  rw [← same k l hk hl, z2, add_zero]

end

/-- A full box without air, compressible and with out-of-plane strain. -/
def fullMesh : SMesh ℚ := { meshOf (Flag.demoIn fun _ => 5) with oop := true }

/-- The hypotheses of `viscous_work_pos_compressible` are met. -/
example (x : SNode → ℚ) (hx : viscousWork fullMesh x = 0) : ∀ n ∈ velNodes fullMesh, x n = 0 := by
  have hv := meshOf_viscous (Flag.demoIn fun _ => 5)
  have hb := meshOf_closed (Flag.demoIn fun _ => 5)
  refine viscous_work_pos_compressible fullMesh x ⟨hv.iso, hv.cell, hv.vertex, hv.air, hv.tags⟩ ⟨hb.u, hb.v, hb.notPeriodic⟩
    (fun h => by simp [fullMesh, meshOf] at h) (by norm_num [fullMesh, meshOf]) (by norm_num [fullMesh, meshOf]) ?_ ?_ hx
  · intro k l hk hl
    have hk : k + 1 < 5 := hk
    have hl : l + 1 < 6 := hl
    have hk : k < 4 := by omega
    have hl : l < 5 := by omega
    interval_cases k <;> interval_cases l <;> decide +kernel
  · intro k l k0 hk l0 hl
    have hk : k + 1 < 5 := hk
    have hl : l + 1 < 6 := hl
    have hk : k < 4 := by omega
    have hl : l < 5 := by omega
    interval_cases k <;> interval_cases l <;> decide +kernel

/-! ### a flow that does no work -/

/-- The flat surface of C58's box, two rows of rock below air; compressible, with out-of-plane strain. -/
def flatMesh : SMesh ℚ := { meshOf (Flag.demoIn fun _ => -2) with oop := true }

/-- The rock next to the west side moves up and to the east, the rock east of it down. -/
def conformal : SNode → ℚ
  | .u i => if i = 6 then 1 else if i = 11 then 3 else if i = 12 then -1 else 0
  | .v i => if i = 7 then 1 else if i = 8 then -1 else if i = 13 then 4 else if i = 14 then -5 else if i = 15 then 1 else 0
  | .p _ => 0

example : velNodes flatMesh = ({6, 7, 8, 11, 12, 13} : Finset Int).image .u ∪ ({7, 8, 9, 10, 13, 14, 15, 16} : Finset Int).image .v := by decide +kernel

/-- C146 is false for the velocity equations alone of compressible flow with out-of-plane strain: below a flat surface a moving field meets no viscous force. -/
theorem conformal_flow_meets_no_force : (∃ n ∈ velNodes flatMesh, conformal n ≠ 0) ∧
    ∀ d ∈ velNodes flatMesh, ∑ e ∈ velNodes flatMesh, coeff (velRow flatMesh d) e * conformal e = 0 := by decide +kernel

end Verif
