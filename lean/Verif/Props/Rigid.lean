import Verif.Props.Stencil
import Verif.Spec.Rigid
import Mathlib.Tactic.LinearCombination
import Mathlib.Tactic.FieldSimp

/- C09 rigid motions, C10 symmetry. -/
namespace Verif
variable {K : Type*} [Field K]

theorem rigidU_mk (m : SMesh K) (a w : K) (k l : Int) (h0 : 0 ≤ k) (h1 : k < m.Nx) :
    rigidU m a w (k + l * m.Nx) = a - w * ((l : K) - 1/2) * m.dz := by
  unfold rigidU; rw [rowOf_mk _ _ _ h0 h1]

theorem rigidV_mk (m : SMesh K) (b w : K) (k l : Int) (h0 : 0 ≤ k) (h1 : k < m.Nx + 1) :
    rigidV m b w (k + l * (m.Nx + 1)) = b + w * ((k : K) - 1/2) * m.dx := by
  unfold rigidV; rw [colOf_mk _ _ _ h0 h1]

/-- C09, kinematic part: no strain rate and no divergence anywhere, whatever the tags. -/
theorem rigid_no_strain [CharZero K] (m : SMesh K) (hdx : m.dx ≠ 0) (hdz : m.dz ≠ 0)
    (hNx : 2 ≤ m.Nx) (a b w : K) (c : Int) :
    divU m (rigidU m a w) (rigidV m b w) c = 0 ∧ exxd m (rigidU m a w) (rigidV m b w) c = 0 ∧
    ezzd m (rigidU m a w) (rigidV m b w) c = 0 ∧ exz m (rigidU m a w) (rigidV m b w) c = 0 := by
  have hn : (0 : Int) < (m.Nx : Int) - 1 := by omega
  have hk0 : 0 ≤ colOf ((m.Nx : Int) - 1) c := Int.emod_nonneg _ (by omega)
  have hk1 : colOf ((m.Nx : Int) - 1) c < (m.Nx : Int) - 1 := Int.emod_lt_of_pos _ hn
  have gk0 : 0 ≤ colOf (m.Nx : Int) c := Int.emod_nonneg _ (by omega)
  have gk1 : colOf (m.Nx : Int) c < (m.Nx : Int) := Int.emod_lt_of_pos _ (by omega)
  have hdiv : divU m (rigidU m a w) (rigidV m b w) c = 0 ∧
      exxd m (rigidU m a w) (rigidV m b w) c = 0 ∧ ezzd m (rigidU m a w) (rigidV m b w) c = 0 := by
    have e1 : rigidU m a w (colOf ((m.Nx : Int) - 1) c + rowOf ((m.Nx : Int) - 1) c * m.Nx + 1 + m.Nx)
        = rigidU m a w (colOf ((m.Nx : Int) - 1) c + rowOf ((m.Nx : Int) - 1) c * m.Nx + m.Nx) := by
      rw [show colOf ((m.Nx : Int) - 1) c + rowOf ((m.Nx : Int) - 1) c * m.Nx + 1 + m.Nx =
        (colOf ((m.Nx : Int) - 1) c + 1) + (rowOf ((m.Nx : Int) - 1) c + 1) * m.Nx by ring,
        show colOf ((m.Nx : Int) - 1) c + rowOf ((m.Nx : Int) - 1) c * m.Nx + m.Nx =
        colOf ((m.Nx : Int) - 1) c + (rowOf ((m.Nx : Int) - 1) c + 1) * m.Nx by ring,
        rigidU_mk _ _ _ _ _ (by omega) (by omega), rigidU_mk _ _ _ _ _ (by omega) (by omega)]
    have e2 : rigidV m b w (colOf ((m.Nx : Int) - 1) c + rowOf ((m.Nx : Int) - 1) c * (m.Nx + 1) +
          m.Nx + 1 + 1)
        = rigidV m b w (colOf ((m.Nx : Int) - 1) c + rowOf ((m.Nx : Int) - 1) c * (m.Nx + 1) + 1) := by
      rw [show colOf ((m.Nx : Int) - 1) c + rowOf ((m.Nx : Int) - 1) c * ((m.Nx : Int) + 1) + m.Nx + 1 + 1
        = (colOf ((m.Nx : Int) - 1) c + 1) + (rowOf ((m.Nx : Int) - 1) c + 1) * ((m.Nx : Int) + 1) by ring,
        show colOf ((m.Nx : Int) - 1) c + rowOf ((m.Nx : Int) - 1) c * ((m.Nx : Int) + 1) + 1 =
        (colOf ((m.Nx : Int) - 1) c + 1) + rowOf ((m.Nx : Int) - 1) c * ((m.Nx : Int) + 1) by ring,
        rigidV_mk _ _ _ _ _ (by omega) (by omega), rigidV_mk _ _ _ _ _ (by omega) (by omega)]
    have hd : divU m (rigidU m a w) (rigidV m b w) c = 0 := by
      simp only [divU, e1, e2]; simp
    refine ⟨hd, ?_, ?_⟩
    · simp only [exxd, e1, hd]; simp
    · simp only [ezzd, e2, hd]; simp
  refine ⟨hdiv.1, hdiv.2.1, hdiv.2.2, ?_⟩
  simp only [exz]
  rw [show colOf (m.Nx : Int) c + rowOf (m.Nx : Int) c * m.Nx + m.Nx =
      colOf (m.Nx : Int) c + (rowOf (m.Nx : Int) c + 1) * m.Nx by ring,
    show colOf (m.Nx : Int) c + rowOf (m.Nx : Int) c * ((m.Nx : Int) + 1) + 1 =
      (colOf (m.Nx : Int) c + 1) + rowOf (m.Nx : Int) c * ((m.Nx : Int) + 1) by ring,
    rigidU_mk _ _ _ _ _ gk0 gk1, rigidU_mk _ _ _ _ _ gk0 gk1,
    rigidV_mk _ _ _ _ _ (by omega) (by omega), rigidV_mk _ _ _ _ _ (by omega) (by omega)]
  split
  · push_cast
    field_simp
    ring
  · rfl

section
variable [CharZero K] [LinearOrder K]

omit [CharZero K] [LinearOrder K] in
theorem applyTo_xP_zero (m : SMesh K) (u v : Int → K) (k l : Int) :
    applyTo (atNode u v fun _ => 0) (xStencilP m k l) = 0 := by
  simp only [xStencilP, applyTo_append, applyTo_guarded, atNode]; simp

omit [CharZero K] [LinearOrder K] in
theorem applyTo_zP_zero (m : SMesh K) (u v : Int → K) (k l : Int) :
    applyTo (atNode u v fun _ => 0) (zStencilP m k l) = 0 := by
  simp only [zStencilP, applyTo_append, applyTo_guarded, atNode]; simp

/-- C09, dynamic part, x-direction: the velocity part of a momentum row away from walls and air
vanishes on every rigid motion (no free-surface stabilisation, which is proportional to velocity by
design). -/
theorem rigid_no_force_x (m : SMesh K) (k l : Int) (hdx : m.dx ≠ 0) (hdz : m.dz ≠ 0)
    (hk0 : 0 < k) (hk1 : k < m.Nx - 1) (hC : m.tu (k + l * m.Nx) = -1) (hst : m.stab = false)
    (noair : ∀ n ∈ xNodes m k l, m.tag n ≠ 30)
    (gS : m.tu (k + (l - 1) * m.Nx) ≠ 11 ∧ m.tu (k + (l - 1) * m.Nx) ≠ 13)
    (gN : m.tu (k + (l + 1) * m.Nx) ≠ 11 ∧ m.tu (k + (l + 1) * m.Nx) ≠ 13)
    (cW : CellOk (m.tp (k - 1 + (l - 1) * (m.Nx - 1))))
    (cE : CellOk (m.tp (k + (l - 1) * (m.Nx - 1)))) (a b w : K) :
    applyTo (atNode (rigidU m a w) (rigidV m b w) fun _ => 0) (xStencil m k l) = 0 := by
  have h := (x_row_stress_balance m k l hdx hdz hk0 hk1 hC (rigidU m a w) (rigidV m b w) (fun _ => 0)
    (fun n hn ht => absurd ht (noair n hn)) ⟨fun e => absurd e gS.1, fun e => absurd e gS.2⟩
    ⟨fun e => absurd e gN.1, fun e => absurd e gN.2⟩ cW cE).1
  have hz := rigid_no_strain m hdx hdz (by omega) a b w
  rw [applyTo_append, applyTo_xP_zero, add_zero] at h
  rw [h]
  simp only [tauxx, tauxz, (hz _).2.1, (hz _).2.2.2, xCorr, hst]
  simp

/-- C09, dynamic part, z-direction. -/
theorem rigid_no_force_z (m : SMesh K) (k l : Int) (hdx : m.dx ≠ 0) (hdz : m.dz ≠ 0)
    (hk0 : 0 < k) (hk1 : k < m.Nx) (hl0 : 0 < l) (hl1 : l < m.Nz - 1) (hst : m.stab = false)
    (noair : ∀ n ∈ zNodes m k l, m.tag n ≠ 30)
    (hD : ∀ c, m.tp c ≠ -1 → m.D22 c = 0)
    (gW : ∀ t ∈ [11, 13, -12], m.tv (k - 1 + l * (m.Nx + 1)) ≠ t)
    (gE : ∀ t ∈ [11, 13, -12], m.tv (k + 1 + l * (m.Nx + 1)) ≠ t)
    (cS : CellOk (m.tp (k - 1 + (l - 1) * (m.Nx - 1))))
    (cN : CellOk (m.tp (k - 1 + l * (m.Nx - 1)))) (a b w : K) :
    applyTo (atNode (rigidU m a w) (rigidV m b w) fun _ => 0) (zStencil m k l) = 0 := by
  have w12 := gW (-12) (by simp)
  have e12 := gE (-12) (by simp)
  have w11 := gW 11 (by simp)
  have e11 := gE 11 (by simp)
  have w13 := gW 13 (by simp)
  have e13 := gE 13 (by simp)
  have iW : (zIdx m k l).W = k - 1 + l * (m.Nx + 1) := by
    have : (m.tv (k + l * ((m.Nx : Int) + 1) - 1) == -12) = false := by
      rw [beq_eq_false_iff_ne, show k + l * ((m.Nx : Int) + 1) - 1 = k - 1 + l * (m.Nx + 1) by ring]
      exact w12
    simp only [zIdx, this]; simp; ring
  have iE : (zIdx m k l).E = k + 1 + l * (m.Nx + 1) := by
    have : (m.tv (k + l * ((m.Nx : Int) + 1) + 1) == -12) = false := by
      rw [beq_eq_false_iff_ne, show k + l * ((m.Nx : Int) + 1) + 1 = k + 1 + l * (m.Nx + 1) by ring]
      exact e12
    simp only [zIdx, this]; simp; ring
  have h := (z_row_stress_balance m k l hdx hdz hk0 hk1 hl0 hl1 (rigidU m a w) (rigidV m b w)
    (fun _ => 0) (fun n hn ht => absurd ht (noair n hn)) hD (fun _ h => absurd h w12)
    (fun _ h => absurd h e12)
    (by rw [iW]; exact ⟨fun e => absurd e w11, fun e => absurd e w13⟩)
    (by rw [iE]; exact ⟨fun e => absurd e e11, fun e => absurd e e13⟩) cS cN).1
  have hz := rigid_no_strain m hdx hdz (by omega) a b w
  rw [applyTo_append, applyTo_zP_zero, add_zero] at h
  rw [h]
  simp only [tauzz, tauxz, (hz _).2.2.1, (hz _).2.2.2, zCorr, hst]
  simp
end

/-! ### C10 -/

theorem coeff_append (a b : List (SNode × K)) (n : SNode) :
    coeff (a ++ b) n = coeff a n + coeff b n := by simp [coeff]

theorem coeff_guarded (b : Bool) (n n' : SNode) (a : K) :
    coeff (guarded b n a) n' = if b = true ∧ n = n' then a else 0 := by
  cases b <;> simp [coeff, guarded]

end Verif
