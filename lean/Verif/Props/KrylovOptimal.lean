import Verif.Props.Krylov
import Mathlib.Tactic.FinCases
import Mathlib.Tactic.NormNum
import Mathlib.LinearAlgebra.Matrix.Notation

set_option linter.unusedSectionVars false
set_option linter.unusedVariables false

/-
The first cycle of the Krylov solver is optimal; exact preconditioning; break-downs.
-/
namespace Verif.Ksp

open Matrix LinSpec Finset

variable {n : Nat}

/-! ### Orthogonality in the first cycle -/

theorem coeffs_eq (v : Vec n) (VV : Nat → Vec n) (val : Nat → ℝ) (i1 j : Nat) :
    coeffs v VV val i1 j = if j < i1 then v ⬝ᵥ VV j else val j := by
  unfold coeffs
  exact forUp_pointwise i1 val (fun k _ => v ⬝ᵥ VV k) j

theorem orthogonalise_eq (val : Nat → ℝ) (VV SS : Nat → Vec n) (i1 : Nat) (vs : Vec n × Vec n) :
    orthogonalise val VV SS i1 vs =
      (vs.1 - ∑ i ∈ range (i1 + 1), val i • VV i, vs.2 - ∑ i ∈ range (i1 + 1), val i • SS i) := by
  unfold orthogonalise
  induction i1 + 1 with
  | zero => simp
  | succ k ih =>
    rw [forUp_succ, ih, sum_range_succ, sum_range_succ]
    simp only [neg_smul, Prod.mk.injEq]
    constructor <;> abel

/-- The directions searched so far. -/
def searched (SS : Nat → Vec n) (k : Nat) : Submodule ℝ (Vec n) :=
  Submodule.span ℝ {w | ∃ i < k, w = SS i}

theorem searched_mono (SS : Nat → Vec n) {k l : Nat} (h : k ≤ l) : searched SS k ≤ searched SS l :=
  Submodule.span_mono fun w ⟨i, hi, hw⟩ => ⟨i, lt_of_lt_of_le hi h, hw⟩

theorem mem_searched (SS : Nat → Vec n) {i k : Nat} (h : i < k) : SS i ∈ searched SS k :=
  Submodule.subset_span ⟨i, h, rfl⟩

theorem sum_mem_searched (SS : Nat → Vec n) (c : Nat → ℝ) (k : Nat) :
    ∑ i ∈ range k, c i • SS i ∈ searched SS k :=
  Submodule.sum_mem _ fun i hi => Submodule.smul_mem _ _ (mem_searched SS (mem_range.1 hi))

theorem searched_congr {SS SS' : Nat → Vec n} {k : Nat} (h : ∀ i < k, SS i = SS' i) :
    searched SS k = searched SS' k := by
  unfold searched
  congr 1
  ext w
  constructor
  · rintro ⟨i, hi, hw⟩; exact ⟨i, hi, by rw [hw, h i hi]⟩
  · rintro ⟨i, hi, hw⟩; exact ⟨i, hi, by rw [hw, h i hi]⟩

/-- State of the first cycle before iteration `k`. -/
structure First (M Q : Matrix (Fin n) (Fin n) ℝ) (b x0 : Vec n) (k : Nat) (st : St n) : Prop where
  cons : Consistent M b st
  ortho : ∀ i < k, ∀ j < k, st.VV i ⬝ᵥ st.VV j = if i = j then 1 else 0
  perp : ∀ i < k, st.f ⬝ᵥ st.VV i = 0
  zeroV : ∀ i, k ≤ i → st.VV i = 0
  zeroS : ∀ i, k ≤ i → st.SS i = 0
  moved : st.x - x0 ∈ searched st.SS k
  first : 0 < k → Q *ᵥ (b - M *ᵥ x0) ∈ searched st.SS 1
  image : ∀ j, j + 2 ≤ k → Q *ᵥ (M *ᵥ st.SS j) ∈ searched st.SS (j + 2)
  last : 0 < k → ∃ (c : ℝ) (g : Vec n), st.f = g - c • (M *ᵥ st.SS (k - 1)) ∧
    Q *ᵥ g ∈ searched st.SS k

theorem first_start (M Q : Matrix (Fin n) (Fin n) ℝ) (b x : Vec n) : First M Q b x 0 (start M b x) where
  cons := start_consistent M b x
  ortho := fun i hi => absurd hi (Nat.not_lt_zero i)
  perp := fun i hi => absurd hi (Nat.not_lt_zero i)
  zeroV := fun _ _ => rfl
  zeroS := fun _ _ => rfl
  moved := by simp [start]
  first := fun h => absurd h (lt_irrefl 0)
  image := fun j h => absurd h (by omega)
  last := fun h => absurd h (lt_irrefl 0)

theorem sum_perp {M Q : Matrix (Fin n) (Fin n) ℝ} {b x0 : Vec n} {k : Nat} {st : St n}
    (h : First M Q b x0 k st) (w : Vec n) {j : Nat} (hj : j < k) :
    (∑ i ∈ range k, (w ⬝ᵥ st.VV i) • st.VV i) ⬝ᵥ st.VV j = w ⬝ᵥ st.VV j := by
  rw [sum_dotProduct, Finset.sum_eq_single j]
  · rw [smul_dotProduct, h.ortho j hj j hj]; simp
  · intro i hi hij
    rw [smul_dotProduct, h.ortho i (mem_range.1 hi) j hj, if_neg hij]; simp
  · intro hj'; exact absurd (mem_range.2 hj) hj'

theorem sum_last {V : Nat → Vec n} (c : Nat → ℝ) {k : Nat} (hz : V k = 0) :
    ∑ i ∈ range (k + 1), c i • V i = ∑ i ∈ range k, c i • V i := by
  rw [sum_range_succ, hz, smul_zero, add_zero]

/-- Elements of the searched space have images combining the stored ones. -/
theorem image_orthogonalises {M Q : Matrix (Fin n) (Fin n) ℝ} {b x0 : Vec n} {k : Nat} {st : St n}
    (h : First M Q b x0 k st) {w : Vec n} (hw : w ∈ searched st.SS k) :
    ∑ i ∈ range k, ((M *ᵥ w) ⬝ᵥ st.VV i) • st.VV i = M *ᵥ w := by
  unfold searched at hw
  induction hw using Submodule.span_induction with
  | mem w hw =>
    obtain ⟨i, hi, rfl⟩ := hw
    rw [← h.cons.1 i, Finset.sum_eq_single i]
    · rw [h.ortho i hi i hi]; simp
    · intro j hj hji
      rw [h.ortho i hi j (mem_range.1 hj), if_neg (Ne.symm hji)]; simp
    · intro hi'; exact absurd (mem_range.2 hi) hi'
  | zero => simp
  | add u v _ _ hu hv =>
    rw [mulVec_add]
    simp only [add_dotProduct, add_smul]
    rw [sum_add_distrib, hu, hv]
  | smul a u _ hu =>
    rw [mulVec_smul]
    simp only [smul_dotProduct, smul_assoc]
    rw [← smul_sum, hu]

theorem perp_searched {M Q : Matrix (Fin n) (Fin n) ℝ} {b x0 : Vec n} {k : Nat} {st : St n}
    (h : First M Q b x0 k st) {w : Vec n} (hw : w ∈ searched st.SS k) : st.f ⬝ᵥ (M *ᵥ w) = 0 := by
  rw [← image_orthogonalises h hw, dotProduct_sum]
  exact Finset.sum_eq_zero fun i hi => by
    rw [dotProduct_smul, h.perp i (mem_range.1 hi), smul_zero]

/-- The normalised direction of the first cycle: orthogonal to the stored ones, and the preconditioned
residual lies in the space searched afterwards. -/
theorem first_direction {M Q : Matrix (Fin n) (Fin n) ℝ} {b x0 : Vec n} {k : Nat} {st : St n}
    (h : First M Q b x0 k st) {val : Nat → ℝ} {v s : Vec n}
    (hd : direction M (fun r => Q *ᵥ r) k st = some (val, v, s)) :
    (∀ j < k, v ⬝ᵥ st.VV j = 0) ∧ v ⬝ᵥ v = 1 ∧ v = M *ᵥ s ∧
      (∃ (a : ℝ) (c : Nat → ℝ), Q *ᵥ st.f = a • s + ∑ i ∈ range k, c i • st.SS i) ∧
      Q *ᵥ st.f ∉ searched st.SS k := by
  have him := direction_image h.cons.1 hd
  obtain ⟨a, ha, hval, hv, hs, h1⟩ := direction_some hd
  rw [orthogonalise_eq] at hv hs
  dsimp only at hv hs
  rw [sum_last _ (h.zeroV k (le_refl k))] at hv
  rw [sum_last _ (h.zeroS k (le_refl k))] at hs
  have hc : ∀ i ∈ range k, val i • st.VV i = ((M *ᵥ (Q *ᵥ st.f)) ⬝ᵥ st.VV i) • st.VV i := by
    intro i hi
    rw [hval, coeffs_eq, if_pos (mem_range.1 hi)]
  rw [sum_congr rfl hc] at hv
  refine ⟨fun j hj => ?_, h1, him, ⟨1 / a, val, ?_⟩, fun hmem => ?_⟩
  · rw [hv, smul_dotProduct, sub_dotProduct, sum_perp h _ hj, sub_self, smul_zero]
  · rw [hs, smul_smul, one_div, inv_mul_cancel₀ ha, one_smul]
    abel
  · rw [image_orthogonalises h hmem, sub_self, smul_zero] at hv
    rw [hv] at h1
    simp at h1

theorem first_next {M Q : Matrix (Fin n) (Fin n) ℝ} {b x0 : Vec n} {k : Nat} {st : St n}
    (h : First M Q b x0 k st) {val : Nat → ℝ} {v s : Vec n}
    (hd : direction M (fun r => Q *ᵥ r) k st = some (val, v, s)) :
    First M Q b x0 (k + 1) (remember (advance st val v s) k v s) := by
  obtain ⟨hperp, h1, him, ⟨a, c, hQf⟩, hnot⟩ := first_direction h hd
  have hold : ∀ i < k, upd st.SS k s i = st.SS i := fun i hi => upd_ne _ _ (by omega)
  have holdV : ∀ i < k, upd st.VV k v i = st.VV i := fun i hi => upd_ne _ _ (by omega)
  have hsp : ∀ j ≤ k, searched (upd st.SS k s) j = searched st.SS j := fun j hj =>
    searched_congr fun i hi => hold i (by omega)
  have hsub : searched st.SS k ≤ searched (upd st.SS k s) (k + 1) := by
    rw [← hsp k (le_refl k)]; exact searched_mono _ (by omega)
  have hs_mem : s ∈ searched (upd st.SS k s) (k + 1) := by
    have := mem_searched (upd st.SS k s) (i := k) (k := k + 1) (by omega)
    rwa [upd_same] at this
  have hQ_mem : Q *ᵥ st.f ∈ searched (upd st.SS k s) (k + 1) := by
    rw [hQf]
    exact Submodule.add_mem _ (Submodule.smul_mem _ _ hs_mem) (hsub (sum_mem_searched _ _ _))
  refine
    { cons := remember_consistent (advance_consistent h.cons him) him
      ortho := ?_, perp := ?_, zeroV := ?_, zeroS := ?_, moved := ?_, first := ?_, image := ?_,
      last := ?_ }
  · intro i hi j hj
    show upd st.VV k v i ⬝ᵥ upd st.VV k v j = _
    by_cases hik : i = k
    · subst hik
      by_cases hjk : j = i
      · subst hjk; simp [h1]
      · rw [upd_same, upd_ne _ _ hjk, hperp j (by omega), if_neg (Ne.symm hjk)]
    · by_cases hjk : j = k
      · subst hjk
        rw [upd_same, upd_ne _ _ hik, dotProduct_comm, hperp i (by omega), if_neg hik]
      · rw [upd_ne _ _ hik, upd_ne _ _ hjk]
        exact h.ortho i (by omega) j (by omega)
  · intro i hi
    show (st.f + (-(st.f ⬝ᵥ v)) • v) ⬝ᵥ upd st.VV k v i = 0
    by_cases hik : i = k
    · subst hik
      rw [upd_same, add_dotProduct, smul_dotProduct, h1]
      simp
    · rw [upd_ne _ _ hik, add_dotProduct, smul_dotProduct, hperp i (by omega), h.perp i (by omega)]
      simp
  · intro i hi
    show upd st.VV k v i = 0
    rw [upd_ne _ _ (by omega)]; exact h.zeroV i (by omega)
  · intro i hi
    show upd st.SS k s i = 0
    rw [upd_ne _ _ (by omega)]; exact h.zeroS i (by omega)
  · show st.x + (st.f ⬝ᵥ v) • s - x0 ∈ searched (upd st.SS k s) (k + 1)
    have e : st.x + (st.f ⬝ᵥ v) • s - x0 = (st.x - x0) + (st.f ⬝ᵥ v) • s := by abel
    rw [e]
    exact Submodule.add_mem _ (hsub h.moved) (Submodule.smul_mem _ _ hs_mem)
  · intro _
    show Q *ᵥ (b - M *ᵥ x0) ∈ searched (upd st.SS k s) 1
    by_cases hk : 0 < k
    · rw [hsp 1 hk]; exact h.first hk
    · have hk0 : k = 0 := by omega
      subst hk0
      have hx : st.x - x0 = 0 := by
        have := h.moved
        simpa [searched] using this
      have : st.f = b - M *ᵥ x0 := by rw [h.cons.2, sub_eq_zero.1 hx]
      rw [← this]
      exact hQ_mem
  · intro j hj
    show Q *ᵥ (M *ᵥ upd st.SS k s j) ∈ searched (upd st.SS k s) (j + 2)
    rw [hold j (by omega)]
    by_cases hjk : j + 2 ≤ k
    · rw [hsp _ hjk]; exact h.image j hjk
    · have hjk' : j + 1 = k := by omega
      obtain ⟨cc, g, hf, hg⟩ := h.last (by omega)
      have hj1 : k - 1 = j := by omega
      rw [hj1] at hf
      have hcc : cc ≠ 0 := by
        intro h0
        rw [h0, zero_smul, sub_zero] at hf
        rw [hf] at hnot
        exact hnot hg
      have e : Q *ᵥ (M *ᵥ st.SS j) = (1 / cc) • (Q *ᵥ g - Q *ᵥ st.f) := by
        rw [← mulVec_sub]
        have : g - st.f = cc • (M *ᵥ st.SS j) := by rw [hf]; abel
        rw [this, mulVec_smul, smul_smul, one_div, inv_mul_cancel₀ hcc, one_smul]
      have hj2 : j + 2 = k + 1 := by omega
      rw [e, hj2]
      exact Submodule.smul_mem _ _ (Submodule.sub_mem _ (hsub hg) hQ_mem)
  · intro _
    refine ⟨st.f ⬝ᵥ v, st.f, ?_, hQ_mem⟩
    show st.f + (-(st.f ⬝ᵥ v)) • v = st.f - (st.f ⬝ᵥ v) • (M *ᵥ upd st.SS k s (k + 1 - 1))
    rw [Nat.add_sub_cancel, upd_same, ← him, neg_smul, sub_eq_add_neg]

/-- Every Krylov vector has been searched. -/
theorem krylov_searched {M Q : Matrix (Fin n) (Fin n) ℝ} {b x0 : Vec n} {k : Nat} {st : St n}
    (h : First M Q b x0 k st) : ∀ j, j < k → krylov Q M (left M b x0) j ∈ searched st.SS (j + 1) := by
  intro j
  induction j with
  | zero =>
    intro hk
    simp only [krylov]
    rw [apply_eq, left_eq]
    exact h.first hk
  | succ j ih =>
    intro hk
    simp only [krylov]
    rw [apply_eq, apply_eq]
    have hw := ih (by omega)
    generalize krylov Q M (left M b x0) j = w at hw
    unfold searched at hw
    induction hw using Submodule.span_induction with
    | mem w hw =>
      obtain ⟨i, hi, rfl⟩ := hw
      exact searched_mono _ (by omega) (h.image i (by omega))
    | zero => simp
    | add u v _ _ hu hv =>
      rw [mulVec_add, mulVec_add]; exact Submodule.add_mem _ hu hv
    | smul a u _ hu =>
      rw [mulVec_smul, mulVec_smul]; exact Submodule.smul_mem _ _ hu

theorem first_minimal {M Q : Matrix (Fin n) (Fin n) ℝ} {b x0 : Vec n} {k : Nat} {st : St n}
    (h : First M Q b x0 k st) (c : Nat → ℝ) :
    len (left M b st.x) ≤ len (left M b (x0 + ∑ j ∈ range k, c j • krylov Q M (left M b x0) j)) := by
  set w := ∑ j ∈ range k, c j • krylov Q M (left M b x0) j with hw
  have hmem : w ∈ searched st.SS k := Submodule.sum_mem _ fun j hj =>
    Submodule.smul_mem _ _ (searched_mono _ (by have := mem_range.1 hj; omega)
      (krylov_searched h j (mem_range.1 hj)))
  have hdiff : st.x - x0 - w ∈ searched st.SS k := Submodule.sub_mem _ h.moved hmem
  have hp := perp_searched h hdiff
  have e : left M b (x0 + w) = st.f + M *ᵥ (st.x - x0 - w) := by
    rw [left_eq, h.cons.2, mulVec_sub, mulVec_sub, mulVec_add]; abel
  have e0 : left M b st.x = st.f := by rw [left_eq, h.cons.2]
  rw [e, e0, len_eq, len_eq]
  unfold norm2
  apply Real.sqrt_le_sqrt
  rw [dotProduct_add, add_dotProduct, add_dotProduct, hp, dotProduct_comm (M *ᵥ (st.x - x0 - w)) st.f,
    hp]
  have : (0 : ℝ) ≤ (M *ᵥ (st.x - x0 - w)) ⬝ᵥ (M *ᵥ (st.x - x0 - w)) := by
    unfold dotProduct
    exact Finset.sum_nonneg fun i _ => mul_self_nonneg _
  linarith

theorem cycle_first (M Q : Matrix (Fin n) (Fin n) ℝ) (b x0 : Vec n) (thr : ℝ) :
    ∀ (lft k : Nat) (st : St n) (ok : Bool) (st' : St n), First M Q b x0 k st →
      cycle M (fun r => Q *ᵥ r) thr lft k st = some (ok, st') →
      ∃ m st'', First M Q b x0 m st'' ∧ st''.x = st'.x ∧
        m + st.its = st'.its + k + (if ok then 1 else 0) := by
  intro lft
  induction lft with
  | zero =>
    intro k st ok st' h hc
    simp only [cycle, Option.some.injEq, Prod.mk.injEq] at hc
    obtain ⟨rfl, rfl⟩ := hc
    exact ⟨k, st, h, rfl, by simp; omega⟩
  | succ l ih =>
    intro k st ok st' h hc
    unfold cycle at hc
    cases hd : direction M (fun r => Q *ᵥ r) k st with
    | none => simp [hd] at hc
    | some d =>
      obtain ⟨val, v, s⟩ := d
      simp only [hd] at hc
      have hn := first_next h hd
      by_cases ht : norm2 (advance st val v s).f < thr
      · rw [if_pos ht] at hc
        simp only [Option.some.injEq, Prod.mk.injEq] at hc
        obtain ⟨rfl, rfl⟩ := hc
        refine ⟨k + 1, _, hn, rfl, ?_⟩
        simp [advance]; omega
      · rw [if_neg ht] at hc
        obtain ⟨m, st'', h1, h2, h3⟩ := ih (k + 1) _ ok st' hn hc
        refine ⟨m, st'', h1, h2, ?_⟩
        have e2 : (remember (advance st val v s) k v s).its = st.its + 1 := rfl
        rw [e2] at h3
        omega

theorem cycle_its_mono (M : Matrix (Fin n) (Fin n) ℝ) (prec : Vec n → Vec n) (thr : ℝ) :
    ∀ (lft i1 : Nat) (st : St n) (ok : Bool) (st' : St n),
      cycle M prec thr lft i1 st = some (ok, st') → st.its ≤ st'.its := by
  intro lft
  induction lft with
  | zero =>
    intro i1 st ok st' hc
    simp only [cycle, Option.some.injEq, Prod.mk.injEq] at hc
    rw [hc.2]
  | succ l ih =>
    intro i1 st ok st' hc
    unfold cycle at hc
    cases hd : direction M prec i1 st with
    | none => simp [hd] at hc
    | some d =>
      obtain ⟨val, v, s⟩ := d
      simp only [hd] at hc
      by_cases ht : norm2 (advance st val v s).f < thr
      · rw [if_pos ht] at hc
        simp only [Option.some.injEq, Prod.mk.injEq] at hc
        rw [← hc.2]; simp [advance]
      · rw [if_neg ht] at hc
        have := ih (i1 + 1) _ ok st' hc
        have e2 : (remember (advance st val v s) i1 v s).its = st.its + 1 := rfl
        omega

theorem loop_its_mono (M : Matrix (Fin n) (Fin n) ℝ) (prec : Vec n → Vec n) (thr : ℝ) (maxIt : Nat) :
    ∀ (fuel : Nat) (st : St n) (ok : Bool) (st' : St n),
      loop M prec thr maxIt fuel st = some (ok, st') → st.its ≤ st'.its := by
  intro fuel
  induction fuel with
  | zero =>
    intro st ok st' hc
    simp only [loop, Option.some.injEq, Prod.mk.injEq] at hc
    rw [hc.2]
  | succ k ih =>
    intro st ok st' hc
    rw [loop] at hc
    by_cases hi : st.its < maxIt
    · rw [if_pos hi] at hc
      cases hcy : cycle M prec thr restart 0 st with
      | none => simp [hcy] at hc
      | some r =>
        obtain ⟨ok1, st1⟩ := r
        simp only [hcy] at hc
        have h1 := cycle_its_mono M prec thr restart 0 st ok1 st1 hcy
        cases ok1 with
        | true =>
          simp only [if_true, Option.some.injEq, Prod.mk.injEq] at hc
          rw [← hc.2]
          show st.its ≤ st1.its + 1
          omega
        | false =>
          simp only [Bool.false_eq_true, if_false] at hc
          have := ih _ ok st' hc
          simp only at this
          omega
    · rw [if_neg hi] at hc
      simp only [Option.some.injEq, Prod.mk.injEq] at hc
      rw [hc.2]

/-- Up to the first restart the solver is as good as any method using the same matrix products: when it
reports at most seven iterations, the residual of the returned vector is at most as long as that of
*any* correction built from the first Krylov vectors of the preconditioned matrix, as many of them as
directions searched (the reported count on success, one less otherwise).  Linear preconditioner `Q`. -/
theorem first_cycle_optimal_partial (M Q : Matrix (Fin n) (Fin n) ℝ) (b x : Vec n) (eps : ℝ)
    (maxIt : Nat) (hpos : 0 < maxIt) (ok : Bool) (st : St n)
    (h : kspgcr M (fun r => Q *ᵥ r) b x eps maxIt = some (ok, st)) (h7 : st.its ≤ 7) (c : Nat → ℝ) :
    len (left M b st.x) ≤ len (left M b (x + ∑ j ∈ range (if ok then st.its else 6),
      c j • krylov Q M (left M b x) j)) := by
  obtain ⟨k, rfl⟩ : ∃ k, maxIt = k + 1 := ⟨maxIt - 1, by omega⟩
  unfold kspgcr at h
  rw [loop] at h
  have h0 : (start M b x).its = 0 := rfl
  rw [if_pos (by omega)] at h
  cases hcy : cycle M (fun r => Q *ᵥ r) (eps * norm2 (start M b x).f) restart 0 (start M b x) with
  | none => simp [hcy] at h
  | some r =>
    obtain ⟨ok1, st1⟩ := r
    simp only [hcy] at h
    obtain ⟨m, st2, hf, hx, hm⟩ := cycle_first M Q b x _ restart 0 _ ok1 st1 (first_start M Q b x) hcy
    obtain ⟨c1, _, _, c4, _, _⟩ :=
      cycle_spec M (fun r => Q *ᵥ r) b _ restart 0 _ ok1 st1 (start_consistent M b x) hcy
    cases ok1 with
    | true =>
      simp only [if_true, Option.some.injEq, Prod.mk.injEq] at h
      obtain ⟨rfl, rfl⟩ := h
      rw [h0] at hm
      have hm' : m = st1.its + 1 := by simpa using hm
      have := first_minimal hf c
      rw [hx, hm'] at this
      simpa using this
    | false =>
      simp only [Bool.false_eq_true, if_false] at h
      have e := c4 rfl
      rw [h0] at e hm
      have e' : st1.its = 6 := by simpa [restart] using e
      have hm' : m = 6 := by simpa [e'] using hm
      obtain ⟨ok2, hok2, hxx⟩ : ∃ o, o = ok ∧ (o = false ∧ st.x = st1.x) := by
        cases k with
        | zero =>
          simp only [loop, Option.some.injEq, Prod.mk.injEq] at h
          exact ⟨_, h.1, rfl, by rw [← h.2]⟩
        | succ k =>
          rw [loop] at h
          by_cases hlt : st1.its + 1 < k + 1 + 1
          · rw [if_pos hlt] at h
            exfalso
            cases hcy2 : cycle M (fun r => Q *ᵥ r) (eps * norm2 (start M b x).f) restart 0
                { st1 with its := st1.its + 1 } with
            | none => simp [hcy2] at h
            | some r =>
              obtain ⟨ok3, st3⟩ := r
              simp only [hcy2] at h
              obtain ⟨d1, _, _, _, d5, _⟩ := cycle_spec M (fun r => Q *ᵥ r) b _ restart 0 _ ok3 st3
                (by exact c1) hcy2
              have d5' : st1.its + 1 ≤ st3.its := d5
              cases ok3 with
              | true =>
                simp only [if_true, Option.some.injEq, Prod.mk.injEq] at h
                rw [← h.2] at h7
                simp only at h7
                omega
              | false =>
                simp only [Bool.false_eq_true, if_false] at h
                have := loop_its_mono M (fun r => Q *ᵥ r) _ (k + 1 + 1) k _ ok st h
                simp only at this
                omega
          · rw [if_neg hlt] at h
            simp only [Option.some.injEq, Prod.mk.injEq] at h
            exact ⟨_, h.1, rfl, by rw [← h.2]⟩
      obtain ⟨ho, hxx⟩ := hxx
      rw [← hok2, ho]
      have := first_minimal hf c
      rw [hx, hm', ← hxx] at this
      simpa using this

/-! ### Exact preconditioner -/

theorem dot_self_pos {v : Vec n} (h : v ≠ 0) : 0 < v ⬝ᵥ v := by
  have h0 : (0 : ℝ) ≤ v ⬝ᵥ v := by
    unfold dotProduct
    exact Finset.sum_nonneg fun i _ => mul_self_nonneg _
  exact lt_of_le_of_ne h0 fun e => h (dotProduct_self_eq_zero.1 e.symm)

/-- If the preconditioner solves the system exactly, one iteration gives the solution. -/
theorem exact_preconditioner (M : Matrix (Fin n) (Fin n) ℝ) (prec : Vec n → Vec n)
    (hex : ∀ r, Solves M r (prec r)) (b x : Vec n) (eps : ℝ) (heps : 0 < eps) (maxIt : Nat)
    (hpos : 0 < maxIt) (hx : ¬ Solves M b x) :
    ∃ st, kspgcr M prec b x eps maxIt = some (true, st) ∧ Solves M b st.x ∧ st.its = 1 := by
  have hsol : ∀ r y, Solves M r y ↔ M *ᵥ y = r := by
    intro r y
    constructor
    · intro h; funext i; exact h i
    · intro h i; exact congrFun h i
  have hM : ∀ r, M *ᵥ prec r = r := fun r => (hsol _ _).1 (hex r)
  set f := (start M b x).f with hf
  have hf' : f = b - M *ᵥ x := (start_consistent M b x).2
  have hne : f ≠ 0 := by
    intro h0
    apply hx
    rw [hsol]
    rw [h0] at hf'
    exact (sub_eq_zero.1 hf'.symm).symm
  have hdot := dot_self_pos hne
  have hnz : Real.sqrt (f ⬝ᵥ f) ≠ 0 := (Real.sqrt_pos.2 hdot).ne'
  have hd : direction M prec 0 (start M b x) =
      some (fun _ => 0, (1 / Real.sqrt (f ⬝ᵥ f)) • f, (1 / Real.sqrt (f ⬝ᵥ f)) • prec f) := by
    unfold direction
    dsimp only
    rw [orthogonalise_eq]
    have hV : (start M b x).VV = fun _ => 0 := rfl
    have hS : (start M b x).SS = fun _ => 0 := rfl
    have hval : coeffs (M *ᵥ prec (start M b x).f) (start M b x).VV (start M b x).val 0 = fun _ => 0 := rfl
    rw [hval, hV, hS]
    simp only [zero_smul, Finset.sum_const_zero, sub_zero]
    rw [hM, if_neg hnz]
  have hf0 : (advance (start M b x) (fun _ => 0) ((1 / Real.sqrt (f ⬝ᵥ f)) • f)
      ((1 / Real.sqrt (f ⬝ᵥ f)) • prec f)).f = 0 := by
    simp only [advance]
    rw [← hf, dotProduct_smul, smul_smul, ← one_smul ℝ f, smul_smul, ← add_smul]
    have : (1 : ℝ) * 1 + -((1 / Real.sqrt (f ⬝ᵥ f)) • (f ⬝ᵥ f)) * (1 / Real.sqrt (f ⬝ᵥ f)) * 1 = 0 := by
      rw [smul_eq_mul]
      have := Real.mul_self_sqrt hdot.le
      field_simp
      nlinarith
    simp only [one_smul, mul_one] at this ⊢
    rw [this, zero_smul]
  obtain ⟨k, rfl⟩ : ∃ k, maxIt = k + 1 := ⟨maxIt - 1, by omega⟩
  have hthr : norm2 (advance (start M b x) (fun _ => 0) ((1 / Real.sqrt (f ⬝ᵥ f)) • f)
      ((1 / Real.sqrt (f ⬝ᵥ f)) • prec f)).f < eps * norm2 f := by
    rw [hf0]
    unfold norm2
    simp only [dotProduct_zero, Real.sqrt_zero]
    exact mul_pos heps (Real.sqrt_pos.2 hdot)
  refine ⟨{ advance (start M b x) (fun _ => 0) ((1 / Real.sqrt (f ⬝ᵥ f)) • f)
      ((1 / Real.sqrt (f ⬝ᵥ f)) • prec f) with its := 1 }, ?_, ?_, rfl⟩
  · unfold kspgcr
    rw [loop, if_pos (by show 0 < k + 1; omega)]
    have : cycle M prec (eps * norm2 (start M b x).f) restart 0 (start M b x) =
        some (true, advance (start M b x) (fun _ => 0) ((1 / Real.sqrt (f ⬝ᵥ f)) • f)
          ((1 / Real.sqrt (f ⬝ᵥ f)) • prec f)) := by
      rw [show restart = 5 + 1 from rfl, cycle, hd]
      dsimp only
      rw [if_pos hthr]
    rw [this]
    rfl
  · have hc := (advance_consistent (val := fun _ => (0 : ℝ)) (start_consistent M b x)
      (direction_image (start_consistent M b x).1 hd)).2
    rw [hf0] at hc
    rw [hsol]
    exact (sub_eq_zero.1 hc.symm).symm

/-! ### Break-downs -/

/-- Starting from the exact solution ruins it: the first direction is zero, the code divides zero by
zero and every unknown becomes not-a-number. -/
theorem solution_is_ruined (M : Matrix (Fin n) (Fin n) ℝ) (prec : Vec n → Vec n) (hp : prec 0 = 0)
    (b x : Vec n) (hx : Solves M b x) (eps : ℝ) (maxIt : Nat) (hpos : 0 < maxIt) :
    kspgcr M prec b x eps maxIt = none := by
  have hMx : M *ᵥ x = b := funext fun i => hx i
  have hf : (start M b x).f = 0 := by
    rw [(start_consistent M b x).2]
    show b - M *ᵥ x = 0
    rw [hMx, sub_self]
  obtain ⟨k, rfl⟩ : ∃ k, maxIt = k + 1 := ⟨maxIt - 1, by omega⟩
  have hd : direction M prec 0 (start M b x) = none := by
    unfold direction
    dsimp only
    rw [orthogonalise_eq, hf, hp]
    have hV : (start M b x).VV = fun _ => 0 := rfl
    rw [hV]
    simp
  unfold kspgcr
  rw [loop, if_pos (by show 0 < k + 1; omega), show restart = 5 + 1 from rfl, cycle, hd]

/-- A preconditioned residual whose image is perpendicular to the residual also ruins the solution: the
first step does nothing, the second direction is zero. -/
theorem perpendicular_step_ruins (M Q : Matrix (Fin n) (Fin n) ℝ) (b x : Vec n)
    (hperp : ∑ i, left M b x i * apply M (apply Q (left M b x)) i = 0) (eps : ℝ) (heps : eps ≤ 1)
    (maxIt : Nat) (hpos : 0 < maxIt) : kspgcr M (fun r => Q *ᵥ r) b x eps maxIt = none := by
  obtain ⟨k, rfl⟩ : ∃ k, maxIt = k + 1 := ⟨maxIt - 1, by omega⟩
  have hf : (start M b x).f = left M b x := by rw [left_eq]; exact (start_consistent M b x).2
  rw [apply_eq, apply_eq, ← hf] at hperp
  have hperp' : (start M b x).f ⬝ᵥ (M *ᵥ (Q *ᵥ (start M b x).f)) = 0 := hperp
  unfold kspgcr
  rw [loop, if_pos (by show 0 < k + 1; omega), show restart = 4 + 1 + 1 from rfl, cycle]
  cases hd : direction M (fun r => Q *ᵥ r) 0 (start M b x) with
  | none => rfl
  | some d =>
    obtain ⟨val, v, s⟩ := d
    have hF := first_next (first_start M Q b x) hd
    obtain ⟨a, ha, hval, hv, hs, h1⟩ := direction_some hd
    have hV : (start M b x).VV = fun _ => 0 := rfl
    have hv' : v = a • (M *ᵥ (Q *ᵥ (start M b x).f)) := by
      rw [hv, orthogonalise_eq, hV]; simp
    have hfv : (start M b x).f ⬝ᵥ v = 0 := by rw [hv', dotProduct_smul, hperp', smul_zero]
    have hadv : (advance (start M b x) val v s).f = (start M b x).f := by
      simp only [advance]; rw [hfv]; simp
    have hnot : ¬ norm2 (advance (start M b x) val v s).f < eps * norm2 (start M b x).f := by
      rw [hadv]
      have : 0 ≤ norm2 (start M b x).f := Real.sqrt_nonneg _
      nlinarith
    dsimp only
    rw [if_neg hnot, cycle]
    cases hd2 : direction M (fun r => Q *ᵥ r) (0 + 1)
        (remember (advance (start M b x) val v s) 0 v s) with
    | none => rfl
    | some d2 =>
      obtain ⟨val2, v2, s2⟩ := d2
      exfalso
      apply (first_direction hF hd2).2.2.2.2
      have e : (remember (advance (start M b x) val v s) 0 v s).f = b - M *ᵥ x := by
        show (advance (start M b x) val v s).f = _
        rw [hadv]; exact (start_consistent M b x).2
      rw [e]
      exact hF.first (by omega)

/-! ### Cases that meet the hypotheses -/

/-- A rotation by a right angle is invertible, yet no vector but zero is found: the solver returns
not-a-number. -/
example : kspgcr (n := 2) !![0, 1; -1, 0] (fun r => (1 : Matrix (Fin 2) (Fin 2) ℝ) *ᵥ r) ![1, 0] 0
    (1 / 10000) 100 = none :=
  perpendicular_step_ruins _ _ _ _ (by simp [Fin.sum_univ_two, left, apply]) _ (by norm_num) _
    (by norm_num)

/-- The matrix `diag (2, 4)` with its exact inverse as preconditioner, from zero. -/
example : ∃ st, kspgcr (n := 2) !![2, 0; 0, 4] (fun r => ![r 0 / 2, r 1 / 4]) ![6, 4] 0 (1 / 10000) 100 =
    some (true, st) ∧ Solves (n := 2) (m := 2) !![2, 0; 0, 4] ![6, 4] st.x ∧ st.its = 1 :=
  exact_preconditioner _ _
    (by
      intro r i
      fin_cases i
      · simp [Fin.sum_univ_two]; ring
      · simp [Fin.sum_univ_two]; ring)
    _ _ _ (by norm_num) _ (by norm_num)
    (by
      intro h
      have := h 0
      simp at this)

/-- The same run satisfies the hypothesis of `returned_vector` and `first_cycle_optimal_partial`. -/
example : ∃ st, kspgcr (n := 2) !![2, 0; 0, 4] (fun r => !![1 / 2, 0; 0, 1 / 4] *ᵥ r) ![6, 4] 0
    (1 / 10000) 100 = some (true, st) ∧ st.its ≤ 7 ∧
    len (left (n := 2) (m := 2) !![2, 0; 0, 4] ![6, 4] st.x) <
      1 / 10000 * len (left (n := 2) (m := 2) !![2, 0; 0, 4] ![6, 4] 0) := by
  obtain ⟨st, h, _, hi⟩ := exact_preconditioner (n := 2) !![2, 0; 0, 4]
    (fun r => !![1 / 2, 0; 0, 1 / 4] *ᵥ r)
    (by
      intro r i
      fin_cases i
      · simp [Fin.sum_univ_two, mulVec, dotProduct]
      · simp [Fin.sum_univ_two, mulVec, dotProduct]) ![6, 4] 0 (1 / 10000) (by norm_num) 100
    (by norm_num)
    (by
      intro h
      have := h 0
      simp at this)
  exact ⟨st, h, by omega, (returned_vector _ _ _ _ _ _ _ _ h).2.2.1 rfl⟩

end Verif.Ksp
