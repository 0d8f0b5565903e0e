import Verif.Model.Krylov
import Verif.Spec.Krylov
import Mathlib.Tactic.Ring
import Mathlib.Tactic.Linarith
import Mathlib.Tactic.FieldSimp
import Mathlib.Tactic.Positivity
import Mathlib.LinearAlgebra.Matrix.ToLin
import Mathlib.LinearAlgebra.Span.Basic
import Mathlib.LinearAlgebra.Matrix.DotProduct

set_option linter.unusedSectionVars false
set_option linter.unusedVariables false

/-
What the Krylov solver guarantees, whatever the matrix and whatever the preconditioner.
-/
namespace Verif.Ksp

open Matrix LinSpec Finset

variable {n : Nat}

theorem len_eq (v : Vec n) : len v = norm2 v := by
  unfold len norm2 dotProduct
  congr 1
  exact Finset.sum_congr rfl fun i _ => by ring

theorem left_eq (M : Matrix (Fin n) (Fin n) ℝ) (b x : Vec n) : left M b x = b - M *ᵥ x := by
  funext i
  simp [left, mulVec, dotProduct]

theorem apply_eq (M : Matrix (Fin n) (Fin n) ℝ) (x : Vec n) : apply M x = M *ᵥ x := by
  funext i
  simp [apply, mulVec, dotProduct]

/-! ### One step -/

/-- The stored pairs are images of each other and the residual is the true one. -/
def Consistent (M : Matrix (Fin n) (Fin n) ℝ) (b : Vec n) (st : St n) : Prop :=
  (∀ i, st.VV i = M *ᵥ st.SS i) ∧ st.f = b - M *ᵥ st.x

theorem orthogonalise_image (M : Matrix (Fin n) (Fin n) ℝ) (val : Nat → ℝ) (VV SS : Nat → Vec n)
    (h : ∀ i, VV i = M *ᵥ SS i) (i1 : Nat) (s : Vec n) :
    (orthogonalise val VV SS i1 (M *ᵥ s, s)).1 = M *ᵥ (orthogonalise val VV SS i1 (M *ᵥ s, s)).2 := by
  unfold orthogonalise
  refine forUp_inv (P := fun _ (vs : Vec n × Vec n) => vs.1 = M *ᵥ vs.2) (i1 + 1) rfl ?_
  intro k vs _ hvs
  simp only [hvs, h k, mulVec_add, mulVec_smul]

theorem direction_some {M : Matrix (Fin n) (Fin n) ℝ} {prec : Vec n → Vec n} {i1 : Nat} {st : St n}
    {val : Nat → ℝ} {v s : Vec n} (hd : direction M prec i1 st = some (val, v, s)) :
    ∃ a : ℝ, a ≠ 0 ∧ val = coeffs (M *ᵥ prec st.f) st.VV st.val i1 ∧
      v = a • (orthogonalise val st.VV st.SS i1 (M *ᵥ prec st.f, prec st.f)).1 ∧
      s = a • (orthogonalise val st.VV st.SS i1 (M *ᵥ prec st.f, prec st.f)).2 ∧
      v ⬝ᵥ v = 1 := by
  unfold direction at hd
  dsimp only at hd
  split_ifs at hd with h
  simp only [Option.some.injEq, Prod.mk.injEq] at hd
  obtain ⟨h1, h2, h3⟩ := hd
  subst h1
  refine ⟨_, one_div_ne_zero h, rfl, h2.symm, h3.symm, ?_⟩
  rw [← h2, smul_dotProduct, dotProduct_smul, smul_eq_mul, smul_eq_mul]
  set w := (orthogonalise (coeffs (M *ᵥ prec st.f) st.VV st.val i1) st.VV st.SS i1
    (M *ᵥ prec st.f, prec st.f)).1
  have hw : (0 : ℝ) ≤ w ⬝ᵥ w := by
    unfold dotProduct
    exact Finset.sum_nonneg fun i _ => mul_self_nonneg _
  have := Real.mul_self_sqrt hw
  field_simp
  nlinarith

theorem direction_image {M : Matrix (Fin n) (Fin n) ℝ} {prec : Vec n → Vec n} {i1 : Nat} {st : St n}
    {val : Nat → ℝ} {v s : Vec n} (h : ∀ i, st.VV i = M *ᵥ st.SS i)
    (hd : direction M prec i1 st = some (val, v, s)) : v = M *ᵥ s := by
  obtain ⟨a, _, _, hv, hs, _⟩ := direction_some hd
  rw [hv, hs, mulVec_smul, ← orthogonalise_image M val st.VV st.SS h]

theorem advance_consistent {M : Matrix (Fin n) (Fin n) ℝ} {b : Vec n} {st : St n} {val : Nat → ℝ}
    {v s : Vec n} (h : Consistent M b st) (hv : v = M *ᵥ s) :
    Consistent M b (advance st val v s) := by
  refine ⟨h.1, ?_⟩
  simp only [advance]
  rw [mulVec_add, mulVec_smul, ← hv, neg_smul]
  rw [h.2]
  abel

theorem remember_consistent {M : Matrix (Fin n) (Fin n) ℝ} {b : Vec n} {st : St n} {i1 : Nat}
    {v s : Vec n} (h : Consistent M b st) (hv : v = M *ᵥ s) :
    Consistent M b (remember st i1 v s) := by
  refine ⟨fun i => ?_, h.2⟩
  simp only [remember]
  by_cases hi : i = i1
  · subst hi; simp [hv]
  · rw [upd_ne _ _ hi, upd_ne _ _ hi]; exact h.1 i

theorem advance_norm (st : St n) (val : Nat → ℝ) (v s : Vec n) (hv : v ⬝ᵥ v = 1) :
    (advance st val v s).f ⬝ᵥ (advance st val v s).f = st.f ⬝ᵥ st.f - (st.f ⬝ᵥ v) ^ 2 := by
  simp only [advance]
  rw [dotProduct_add, add_dotProduct, add_dotProduct, smul_dotProduct, dotProduct_smul,
    smul_dotProduct, dotProduct_smul, hv, dotProduct_comm v st.f]
  simp only [smul_eq_mul]
  ring

/-! ### Whole runs -/

theorem cycle_spec (M : Matrix (Fin n) (Fin n) ℝ) (prec : Vec n → Vec n) (b : Vec n) (thr : ℝ) :
    ∀ (lft i1 : Nat) (st : St n) (ok : Bool) (st' : St n), Consistent M b st →
      cycle M prec thr lft i1 st = some (ok, st') →
      Consistent M b st' ∧ st'.f ⬝ᵥ st'.f ≤ st.f ⬝ᵥ st.f ∧ (ok = true → norm2 st'.f < thr) ∧
        (ok = false → st'.its = st.its + lft) ∧ st.its ≤ st'.its ∧ st'.its ≤ st.its + lft := by
  intro lft
  induction lft with
  | zero =>
    intro i1 st ok st' h hc
    simp only [cycle, Option.some.injEq, Prod.mk.injEq] at hc
    obtain ⟨rfl, rfl⟩ := hc
    exact ⟨h, le_refl _, by simp, by simp, le_refl _, le_refl _⟩
  | succ l ih =>
    intro i1 st ok st' h hc
    unfold cycle at hc
    cases hd : direction M prec i1 st with
    | none => simp [hd] at hc
    | some d =>
      obtain ⟨val, v, s⟩ := d
      simp only [hd] at hc
      obtain ⟨a, _, _, _, _, hv1⟩ := direction_some hd
      have him := direction_image h.1 hd
      have hadv := advance_consistent (val := val) h him
      have hn := advance_norm st val v s hv1
      have hle : (advance st val v s).f ⬝ᵥ (advance st val v s).f ≤ st.f ⬝ᵥ st.f := by
        rw [hn]; nlinarith [sq_nonneg (st.f ⬝ᵥ v)]
      by_cases ht : norm2 (advance st val v s).f < thr
      · rw [if_pos ht] at hc
        simp only [Option.some.injEq, Prod.mk.injEq] at hc
        obtain ⟨rfl, rfl⟩ := hc
        exact ⟨hadv, hle, fun _ => ht, by simp, by simp [advance], by simp [advance]⟩
      · rw [if_neg ht] at hc
        obtain ⟨c1, c2, c3, c4, c5, c6⟩ := ih (i1 + 1) _ ok st' (remember_consistent hadv him) hc
        have e1 : (remember (advance st val v s) i1 v s).f = (advance st val v s).f := rfl
        have e2 : (remember (advance st val v s) i1 v s).its = st.its + 1 := rfl
        rw [e1] at c2
        rw [e2] at c4 c5 c6
        exact ⟨c1, le_trans c2 hle, c3, fun hk => by have := c4 hk; omega, by omega, by omega⟩

theorem loop_spec (M : Matrix (Fin n) (Fin n) ℝ) (prec : Vec n → Vec n) (b : Vec n) (thr : ℝ)
    (maxIt : Nat) :
    ∀ (fuel : Nat) (st : St n) (ok : Bool) (st' : St n), Consistent M b st →
      loop M prec thr maxIt fuel st = some (ok, st') →
      Consistent M b st' ∧ st'.f ⬝ᵥ st'.f ≤ st.f ⬝ᵥ st.f ∧ (ok = true → norm2 st'.f < thr) ∧
        (ok = false → maxIt ≤ st.its + fuel → maxIt ≤ st'.its) ∧
        st'.its ≤ max st.its (maxIt + restart) := by
  intro fuel
  induction fuel with
  | zero =>
    intro st ok st' h hc
    simp only [loop, Option.some.injEq, Prod.mk.injEq] at hc
    obtain ⟨rfl, rfl⟩ := hc
    exact ⟨h, le_refl _, by simp, fun _ hh => by simpa using hh, le_max_left _ _⟩
  | succ k ih =>
    intro st ok st' h hc
    unfold loop at hc
    by_cases hi : st.its < maxIt
    · rw [if_pos hi] at hc
      cases hcy : cycle M prec thr restart 0 st with
      | none => simp [hcy] at hc
      | some r =>
        obtain ⟨ok1, st1⟩ := r
        simp only [hcy] at hc
        obtain ⟨c1, c2, c3, c4, c5, c6⟩ := cycle_spec M prec b thr restart 0 st ok1 st1 h hcy
        cases ok1 with
        | true =>
          simp only [if_true, Option.some.injEq, Prod.mk.injEq] at hc
          obtain ⟨rfl, rfl⟩ := hc
          refine ⟨c1, c2, c3, by simp, ?_⟩
          refine le_trans ?_ (le_max_right _ _)
          show st1.its + 1 ≤ maxIt + restart
          omega
        | false =>
          simp only [Bool.false_eq_true, if_false] at hc
          obtain ⟨d1, d2, d3, d4, d5⟩ := ih { st1 with its := st1.its + 1 } ok st' c1 hc
          have e := c4 rfl
          refine ⟨d1, le_trans d2 c2, d3, fun hk hm => d4 hk ?_, ?_⟩
          · show maxIt ≤ st1.its + 1 + k
            omega
          · refine le_trans d5 (max_le ?_ (le_max_right _ _))
            refine le_trans ?_ (le_max_right _ _)
            show st1.its + 1 ≤ maxIt + restart
            omega
    · rw [if_neg hi] at hc
      simp only [Option.some.injEq, Prod.mk.injEq] at hc
      obtain ⟨rfl, rfl⟩ := hc
      exact ⟨h, le_refl _, by simp, fun _ _ => by omega, le_max_left _ _⟩

theorem start_consistent (M : Matrix (Fin n) (Fin n) ℝ) (b x : Vec n) :
    Consistent M b (start M b x) :=
  ⟨fun i => by simp [start], by simp [start, sub_eq_add_neg]⟩

/-- The returned vector: the residual the solver carries along is the residual of the returned vector,
it is never longer than the residual of the starting vector, and on success it is shorter by the
requested factor — for every matrix, every preconditioner (even a nonlinear one), every right-hand side
and starting vector.  Without success the iteration budget has been used up. -/
theorem returned_vector (M : Matrix (Fin n) (Fin n) ℝ) (prec : Vec n → Vec n) (b x : Vec n) (eps : ℝ)
    (maxIt : Nat) (ok : Bool) (st : St n) (h : kspgcr M prec b x eps maxIt = some (ok, st)) :
    st.f = left M b st.x ∧ len (left M b st.x) ≤ len (left M b x) ∧
      (ok = true → len (left M b st.x) < eps * len (left M b x)) ∧
      (ok = false → maxIt ≤ st.its) ∧ st.its ≤ maxIt + 6 := by
  obtain ⟨c, hle, hs, hi, hb⟩ := loop_spec M prec b _ maxIt maxIt _ ok st (start_consistent M b x) h
  have hf : st.f = left M b st.x := by rw [left_eq]; exact c.2
  have h0 : (start M b x).f = left M b x := by rw [left_eq]; exact (start_consistent M b x).2
  rw [h0] at hle hs
  rw [len_eq, len_eq, ← hf]
  refine ⟨rfl, Real.sqrt_le_sqrt hle, hs, fun hk => hi hk (by simp [start]), ?_⟩
  simpa [restart, start] using hb

/-- The result does not depend on the bound put on the number of passes of the outer loop in the model:
any bound at least `maxIt` gives the same. -/
theorem loop_fuel (M : Matrix (Fin n) (Fin n) ℝ) (prec : Vec n → Vec n) (thr : ℝ) (maxIt : Nat)
    (b : Vec n) :
    ∀ (fuel : Nat) (st : St n), Consistent M b st → maxIt ≤ st.its + fuel →
      loop M prec thr maxIt (fuel + 1) st = loop M prec thr maxIt fuel st := by
  intro fuel
  induction fuel with
  | zero =>
    intro st _ h
    have : ¬ st.its < maxIt := by omega
    simp [loop, this]
  | succ k ih =>
    intro st hst h
    rw [loop]
    conv_rhs => rw [loop]
    by_cases hi : st.its < maxIt
    · rw [if_pos hi, if_pos hi]
      cases hcy : cycle M prec thr restart 0 st with
      | none => rfl
      | some r =>
        obtain ⟨ok1, st1⟩ := r
        obtain ⟨c1, _, _, _, c5, _⟩ := cycle_spec M prec b thr restart 0 st ok1 st1 hst hcy
        cases ok1 with
        | true => rfl
        | false =>
          simp only [Bool.false_eq_true, if_false]
          exact ih _ c1 (by show maxIt ≤ st1.its + 1 + k; omega)
    · rw [if_neg hi, if_neg hi]

end Verif.Ksp
