import Verif.Model.Coupled
import Verif.Model.Numbering
import Verif.Props.KrylovOptimal
import Verif.Props.PowellDirect
import Mathlib.Algebra.BigOperators.Fin
import Mathlib.Data.Nat.Count
import Mathlib.Tactic.FinCases

set_option linter.unusedSectionVars false
set_option linter.unusedVariables false

/-
The coupled Krylov solver, the compressible direct solver, the vector both start from and the choice of the
solver.
-/
namespace Verif.Coupled

open Matrix Ksp PH LinSpec Finset

variable {n m : Nat}

/-! ### Concatenation -/

theorem velPart_append (u : Vec n) (p : Vec (m + 1)) : velPart (Fin.append u p) = u := by
  funext i; simp [velPart]

theorem presPart_append (u : Vec n) (p : Vec (m + 1)) : presPart (Fin.append u p) = p := by
  funext i; simp [presPart]

theorem append_parts (x : Vec (n + (m + 1))) : Fin.append (velPart x) (presPart x) = x := by
  funext i
  refine Fin.addCases (fun i => ?_) (fun i => ?_) i
  · simp [velPart]
  · simp [presPart]

/-- The concatenated system is the system of momentum and continuity equations. -/
theorem coupled_mul (A : Matrix (Fin n) (Fin n) ℝ) (B : Matrix (Fin n) (Fin (m + 1)) ℝ)
    (C : Matrix (Fin (m + 1)) (Fin n) ℝ) (D1 : Fin (m + 1) → ℝ) (x : Vec (n + (m + 1))) :
    coupled A B C D1 *ᵥ x =
      Fin.append (A *ᵥ velPart x + B *ᵥ presPart x) (C *ᵥ velPart x + diagonal D1 *ᵥ presPart x) := by
  funext i
  refine Fin.addCases (fun i => ?_) (fun i => ?_) i
  · simp [coupled, mulVec, dotProduct, Fin.sum_univ_add, velPart, presPart]
  · simp [coupled, mulVec, dotProduct, Fin.sum_univ_add, velPart, presPart]

theorem coupled_left (A : Matrix (Fin n) (Fin n) ℝ) (B : Matrix (Fin n) (Fin (m + 1)) ℝ)
    (C : Matrix (Fin (m + 1)) (Fin n) ℝ) (D1 : Fin (m + 1) → ℝ) (bu : Vec n) (bp : Vec (m + 1))
    (x : Vec (n + (m + 1))) :
    left (coupled A B C D1) (Fin.append bu bp) x =
      Fin.append (momLeft A B bu (velPart x) (presPart x)) (contLeft C D1 bp (velPart x) (presPart x)) := by
  rw [left_eq, coupled_mul]
  funext i
  refine Fin.addCases (fun i => ?_) (fun i => ?_) i
  · simp [momLeft, mulVec, dotProduct]; ring
  · simp only [Pi.sub_apply, Fin.append_right, contLeft, Pi.add_apply, mulVec_diagonal]
    simp [mulVec, dotProduct]; ring

/-- Solving the concatenated system is solving momentum and continuity equations. -/
theorem coupled_iff (A : Matrix (Fin n) (Fin n) ℝ) (B : Matrix (Fin n) (Fin (m + 1)) ℝ)
    (C : Matrix (Fin (m + 1)) (Fin n) ℝ) (D1 : Fin (m + 1) → ℝ) (bu : Vec n) (bp : Vec (m + 1))
    (x : Vec (n + (m + 1))) :
    coupled A B C D1 *ᵥ x = Fin.append bu bp ↔ Saddle A B C D1 bu bp (velPart x) (presPart x) := by
  rw [coupled_mul]
  constructor
  · intro h
    constructor
    · intro i
      have := congrFun h (Fin.castAdd (m + 1) i)
      simpa [mulVec, dotProduct] using this
    · intro i
      have := congrFun h (Fin.natAdd n i)
      simp only [Fin.append_right, Pi.add_apply, mulVec_diagonal] at this
      simpa [mulVec, dotProduct] using this
  · intro h
    funext i
    refine Fin.addCases (fun i => ?_) (fun i => ?_) i
    · have := h.1 i
      simpa [mulVec, dotProduct] using this
    · have := h.2 i
      simp only [Fin.append_right, Pi.add_apply, mulVec_diagonal]
      simpa [mulVec, dotProduct] using this

/-! ### The returned vector -/

/-- Length of what the equations leave over, momentum and continuity together. -/
noncomputable def leftOver (A : Matrix (Fin n) (Fin n) ℝ) (B : Matrix (Fin n) (Fin (m + 1)) ℝ)
    (C : Matrix (Fin (m + 1)) (Fin n) ℝ) (D1 : Fin (m + 1) → ℝ) (bu : Vec n) (bp : Vec (m + 1)) (u : Vec n)
    (p : Vec (m + 1)) : ℝ :=
  Real.sqrt (∑ i, momLeft A B bu u p i ^ 2 + ∑ j, contLeft C D1 bp u p j ^ 2)

theorem len_left (A : Matrix (Fin n) (Fin n) ℝ) (B : Matrix (Fin n) (Fin (m + 1)) ℝ)
    (C : Matrix (Fin (m + 1)) (Fin n) ℝ) (D1 : Fin (m + 1) → ℝ) (bu : Vec n) (bp : Vec (m + 1))
    (x : Vec (n + (m + 1))) :
    len (left (coupled A B C D1) (Fin.append bu bp) x) =
      leftOver A B C D1 bu bp (velPart x) (presPart x) := by
  rw [coupled_left]
  unfold len leftOver
  rw [Fin.sum_univ_add]
  simp

theorem loop20_spec {N : Nat} (M : Matrix (Fin N) (Fin N) ℝ) (prec : Vec N → Vec N) (b : Vec N) (thr : ℝ)
    (mx : Nat) :
    ∀ (fuel : Nat) (st : Ksp.St N) (ok : Bool) (st' : Ksp.St N), Consistent M b st →
      loop20 M prec thr mx fuel st = some (ok, st') →
      Consistent M b st' ∧ st'.f ⬝ᵥ st'.f ≤ st.f ⬝ᵥ st.f ∧ (ok = true → norm2 st'.f < thr) ∧
        (ok = false → mx ≤ st.its + fuel → mx ≤ st'.its) ∧
        st'.its ≤ max st.its (mx + 20) := by
  intro fuel
  induction fuel with
  | zero =>
    intro st ok st' h hc
    simp only [loop20, Option.some.injEq, Prod.mk.injEq] at hc
    obtain ⟨rfl, rfl⟩ := hc
    exact ⟨h, le_refl _, by simp, fun _ hh => by simpa using hh, le_max_left _ _⟩
  | succ k ih =>
    intro st ok st' h hc
    unfold loop20 at hc
    by_cases hi : st.its < mx
    · rw [if_pos hi] at hc
      cases hcy : cycle M prec thr restart20 0 st with
      | none => simp [hcy] at hc
      | some r =>
        obtain ⟨ok1, st1⟩ := r
        simp only [hcy] at hc
        obtain ⟨c1, c2, c3, c4, c5, c6⟩ := cycle_spec M prec b thr restart20 0 st ok1 st1 h hcy
        have h20 : restart20 = 20 := rfl
        rw [h20] at c4 c6
        cases ok1 with
        | true =>
          simp only [if_true, Option.some.injEq, Prod.mk.injEq] at hc
          obtain ⟨rfl, rfl⟩ := hc
          refine ⟨c1, c2, c3, by simp, ?_⟩
          refine le_trans ?_ (le_max_right _ _)
          show st1.its + 1 ≤ mx + 20
          omega
        | false =>
          simp only [Bool.false_eq_true, if_false] at hc
          obtain ⟨d1, d2, d3, d4, d5⟩ := ih { st1 with its := st1.its + 1 } ok st' c1 hc
          have e := c4 rfl
          refine ⟨d1, le_trans d2 c2, d3, fun hk hm => d4 hk ?_, ?_⟩
          · show mx ≤ st1.its + 1 + k
            omega
          · refine le_trans d5 (max_le ?_ (le_max_right _ _))
            refine le_trans ?_ (le_max_right _ _)
            show st1.its + 1 ≤ mx + 20
            omega
    · rw [if_neg hi] at hc
      simp only [Option.some.injEq, Prod.mk.injEq] at hc
      obtain ⟨rfl, rfl⟩ := hc
      exact ⟨h, le_refl _, by simp, fun _ _ => by omega, le_max_left _ _⟩

theorem iterate_spec (A : Matrix (Fin n) (Fin n) ℝ) (B : Matrix (Fin n) (Fin (m + 1)) ℝ)
    (C : Matrix (Fin (m + 1)) (Fin n) ℝ) (D1 D : Fin (m + 1) → ℝ) (solve : Vec n → Vec n) (eps : ℝ)
    (bu u0 : Vec n) (bp p0 : Vec (m + 1)) (ok : Bool) (st : Ksp.St (n + (m + 1)))
    (h : kspIterate A B C D1 D solve eps bu u0 bp p0 = some (ok, st)) :
    leftOver A B C D1 bu bp (velPart st.x) (presPart st.x) ≤ leftOver A B C D1 bu bp u0 p0 ∧
      (ok = true → leftOver A B C D1 bu bp (velPart st.x) (presPart st.x) <
        eps * leftOver A B C D1 bu bp u0 p0) ∧
      (ok = false → 1000 ≤ st.its) ∧ st.its ≤ 1020 := by
  unfold kspIterate at h
  dsimp only at h
  obtain ⟨c, hle, hs, hi, hb⟩ := loop20_spec _ _ (Fin.append bu bp) _ maxIt maxIt _ ok st
    (start_consistent _ _ _) h
  have hf : st.f = left (coupled A B C D1) (Fin.append bu bp) st.x := by rw [left_eq]; exact c.2
  have h0 : (Ksp.start (coupled A B C D1) (Fin.append bu bp) (Fin.append u0 p0)).f =
      left (coupled A B C D1) (Fin.append bu bp) (Fin.append u0 p0) := by
    rw [left_eq]; exact (start_consistent _ _ _).2
  rw [h0] at hle hs
  have e0 : leftOver A B C D1 bu bp u0 p0 =
      norm2 (left (coupled A B C D1) (Fin.append bu bp) (Fin.append u0 p0)) := by
    rw [← len_eq, len_left, velPart_append, presPart_append]
  have e1 : leftOver A B C D1 bu bp (velPart st.x) (presPart st.x) = norm2 st.f := by
    rw [hf, ← len_eq, len_left]
  rw [e0, e1]
  refine ⟨Real.sqrt_le_sqrt hle, hs, fun hk => hi hk ?_, ?_⟩
  · simp [Ksp.start]
  · have : (Ksp.start (coupled A B C D1) (Fin.append bu bp) (Fin.append u0 p0)).its = 0 := rfl
    rw [this] at hb
    simpa [maxIt] using hb

/-- Whatever the blocks, the factorisation, the tolerance and the start vector: what the returned velocity
and pressure leave over of momentum and continuity equations is at most what the start vector left over. -/
theorem returned_no_worse_partial (A : Matrix (Fin n) (Fin n) ℝ) (B : Matrix (Fin n) (Fin (m + 1)) ℝ)
    (C : Matrix (Fin (m + 1)) (Fin n) ℝ) (D1 D : Fin (m + 1) → ℝ) (solve : Vec n → Vec n) (eps : ℝ)
    (bu u0 : Vec n) (bp p0 : Vec (m + 1)) (u : Vec n) (p : Vec (m + 1))
    (h : kspStokes A B C D1 D solve eps bu u0 bp p0 = some (u, p)) :
    leftOver A B C D1 bu bp u p ≤ leftOver A B C D1 bu bp u0 p0 := by
  unfold kspStokes at h
  cases hk : kspIterate A B C D1 D solve eps bu u0 bp p0 with
  | none => simp [hk] at h
  | some r =>
    obtain ⟨ok, st⟩ := r
    simp only [hk, Option.map_some, Option.some.injEq, Prod.mk.injEq] at h
    rw [← h.1, ← h.2]
    exact (iterate_spec A B C D1 D solve eps bu u0 bp p0 ok st hk).1

/-! ### The preconditioner -/

/-- The preconditioner solves exactly the system whose gradient is minus the transposed divergence and
whose pressure block is the inverse of the numbers `D` — the penalty in incompressible cells. -/
theorem preconditioner_solves (A : Matrix (Fin n) (Fin n) ℝ) (hA : Symm A)
    (C : Matrix (Fin (m + 1)) (Fin n) ℝ) (D : Fin (m + 1) → ℝ) (hD : ∀ i, D i ≠ 0) (solve : Vec n → Vec n)
    (hsolve : ∀ r, Solves (lowerSym (schur A (gradOf C) D C)) r (solve r)) (bu : Vec n)
    (bp : Vec (m + 1)) :
    Saddle A (minusTranspose C) C (fun i => 1 / D i) bu bp
      (velPart (blockPrec C D solve (Fin.append bu bp))) (presPart (blockPrec C D solve (Fin.append bu bp))) := by
  have h : ∀ r, schur A (gradOf C) D C *ᵥ solve r = r := by
    intro r
    have := hsolve r
    rw [factorised_matrix A hA] at this
    exact funext fun i => this i
  unfold blockPrec
  dsimp only
  rw [velPart_append, presPart_append, velPart_append, presPart_append]
  set u := solve (bu - gradOf C *ᵥ (diagonal D *ᵥ bp)) with hu
  have hL := h (bu - gradOf C *ᵥ (diagonal D *ᵥ bp))
  rw [← hu, schur_apply] at hL
  have hm : A *ᵥ u + gradOf C *ᵥ (diagonal D *ᵥ bp - diagonal D *ᵥ (C *ᵥ u)) = bu := by
    rw [mulVec_sub]
    have := congrArg (fun z => z + gradOf C *ᵥ (diagonal D *ᵥ bp)) hL
    rw [sub_add_cancel] at this
    rw [← this]
    abel
  constructor
  · intro i
    have := congrFun hm i
    simpa [mulVec, dotProduct, gradOf, minusTranspose] using this
  · intro i
    simp only [Pi.sub_apply, mulVec_diagonal]
    have e : (C *ᵥ u) i = ∑ j, C i j * u j := by simp [mulVec, dotProduct]
    rw [← e]
    have := hD i
    field_simp
    ring

/-- If the preconditioner solves the system exactly, one iteration of the loop gives the solution. -/
theorem loop20_exact {N : Nat} (M : Matrix (Fin N) (Fin N) ℝ) (prec : Vec N → Vec N)
    (hex : ∀ r, M *ᵥ prec r = r) (b x : Vec N) (eps : ℝ) (heps : 0 < eps) (mx : Nat)
    (hpos : 0 < mx) (hx : M *ᵥ x ≠ b) :
    ∃ st, loop20 M prec (eps * norm2 (Ksp.start M b x).f) mx mx (Ksp.start M b x) = some (true, st) ∧
      M *ᵥ st.x = b ∧ st.its = 1 := by
  -- the run of `kspgcr` makes the same first cycle
  have hsol : ∀ r y, Solves M r y ↔ M *ᵥ y = r := by
    intro r y
    constructor
    · intro h; funext i; exact h i
    · intro h i; exact congrFun h i
  set f := (Ksp.start M b x).f with hf
  have hf' : f = b - M *ᵥ x := (start_consistent M b x).2
  have hne : f ≠ 0 := by
    intro h0
    apply hx
    rw [h0] at hf'
    exact (sub_eq_zero.1 hf'.symm).symm
  have hdot := dot_self_pos hne
  have hnz : Real.sqrt (f ⬝ᵥ f) ≠ 0 := (Real.sqrt_pos.2 hdot).ne'
  have hd : direction M prec 0 (Ksp.start M b x) =
      some (fun _ => 0, (1 / Real.sqrt (f ⬝ᵥ f)) • f, (1 / Real.sqrt (f ⬝ᵥ f)) • prec f) := by
    unfold direction
    dsimp only
    rw [orthogonalise_eq]
    have hV : (Ksp.start M b x).VV = fun _ => 0 := rfl
    have hS : (Ksp.start M b x).SS = fun _ => 0 := rfl
    have hval : coeffs (M *ᵥ prec (Ksp.start M b x).f) (Ksp.start M b x).VV (Ksp.start M b x).val 0 =
      fun _ => 0 := rfl
    rw [hval, hV, hS]
    simp only [zero_smul, Finset.sum_const_zero, sub_zero]
    rw [hex, if_neg hnz]
  set st1 := advance (Ksp.start M b x) (fun _ => 0) ((1 / Real.sqrt (f ⬝ᵥ f)) • f)
      ((1 / Real.sqrt (f ⬝ᵥ f)) • prec f) with hst1
  have hf0 : st1.f = 0 := by
    simp only [hst1, advance]
    rw [← hf, dotProduct_smul, smul_smul, ← one_smul ℝ f, smul_smul, ← add_smul]
    have : (1 : ℝ) * 1 + -((1 / Real.sqrt (f ⬝ᵥ f)) • (f ⬝ᵥ f)) * (1 / Real.sqrt (f ⬝ᵥ f)) * 1 = 0 := by
      rw [smul_eq_mul]
      have := Real.mul_self_sqrt hdot.le
      field_simp
      nlinarith
    simp only [one_smul, mul_one] at this ⊢
    rw [this, zero_smul]
  have hnf : 0 < norm2 f := Real.sqrt_pos.2 hdot
  have hthr : norm2 st1.f < eps * norm2 f := by
    rw [hf0]
    have : norm2 (0 : Vec N) = 0 := by simp [norm2]
    rw [this]
    positivity
  obtain ⟨k, rfl⟩ : ∃ k, mx = k + 1 := ⟨mx - 1, by omega⟩
  refine ⟨{ st1 with its := st1.its + 1 }, ?_, ?_, rfl⟩
  · have hi : (Ksp.start M b x).its < k + 1 := by simp [Ksp.start]
    have hcy : cycle M prec (eps * norm2 f) restart20 0 (Ksp.start M b x) = some (true, st1) := by
      have : restart20 = 19 + 1 := rfl
      rw [this]
      unfold cycle
      rw [hd]
      dsimp only
      rw [← hst1, if_pos hthr]
    unfold loop20
    rw [if_pos hi, hcy]
    rfl
  · have hc : Consistent M b st1 := by
      refine advance_consistent (start_consistent M b x) ?_
      rw [mulVec_smul, hex]
    have := hc.2
    rw [hf0] at this
    show M *ᵥ st1.x = b
    exact (sub_eq_zero.1 this.symm).symm

/-- Compressible everywhere, with a gradient that is minus the transposed divergence, a symmetric velocity
block and `D` the inverse of the pressure block: one iteration gives the exact solution, whatever the start
vector (unless it is the solution already). -/
theorem compressible_one_iteration (A : Matrix (Fin n) (Fin n) ℝ) (hA : Symm A)
    (C : Matrix (Fin (m + 1)) (Fin n) ℝ) (D1 D : Fin (m + 1) → ℝ) (hD : ∀ i, D i * D1 i = 1)
    (solve : Vec n → Vec n)
    (hsolve : ∀ r, Solves (lowerSym (schur A (gradOf C) D C)) r (solve r)) (eps : ℝ) (heps : 0 < eps)
    (bu u0 : Vec n) (bp p0 : Vec (m + 1)) (hx : ¬ Saddle A (minusTranspose C) C D1 bu bp u0 p0) :
    ∃ u p, kspStokes A (minusTranspose C) C D1 D solve eps bu u0 bp p0 = some (u, p) ∧
      Saddle A (minusTranspose C) C D1 bu bp u p := by
  have hne : ∀ i, D i ≠ 0 := fun i h0 => by have := hD i; rw [h0, zero_mul] at this; exact zero_ne_one this
  have hinv : (fun i => 1 / D i) = D1 := by
    funext i
    have := hD i
    have h0 := hne i
    field_simp
    linarith
  have hsad := coupled_iff A (minusTranspose C) C D1
  have hex : ∀ r, coupled A (minusTranspose C) C D1 *ᵥ blockPrec C D solve r = r := by
    intro r
    have := preconditioner_solves A hA C D hne solve hsolve (velPart r) (presPart r)
    rw [append_parts, hinv] at this
    have h2 := (hsad _ _ _).2 this
    rwa [append_parts] at h2
  obtain ⟨st, h1, h2, _⟩ := loop20_exact (coupled A (minusTranspose C) C D1) (blockPrec C D solve) hex
    (Fin.append bu bp) (Fin.append u0 p0) eps heps maxIt (by decide)
    (by
      rw [Ne, hsad, velPart_append, presPart_append]
      exact hx)
  refine ⟨velPart st.x, presPart st.x, ?_, (hsad _ _ _).1 h2⟩
  unfold kspStokes kspIterate
  dsimp only
  rw [h1]
  rfl

/-! ### What fails -/

theorem start_direction {N : Nat} (M : Matrix (Fin N) (Fin N) ℝ) (prec : Vec N → Vec N) (b x : Vec N)
    (hv : M *ᵥ prec (b - M *ᵥ x) ≠ 0) :
    direction M prec 0 (Ksp.start M b x) =
      some (fun _ => 0,
        (1 / Real.sqrt (M *ᵥ prec (b - M *ᵥ x) ⬝ᵥ M *ᵥ prec (b - M *ᵥ x))) • (M *ᵥ prec (b - M *ᵥ x)),
        (1 / Real.sqrt (M *ᵥ prec (b - M *ᵥ x) ⬝ᵥ M *ᵥ prec (b - M *ᵥ x))) • prec (b - M *ᵥ x)) := by
  have hnz := (Real.sqrt_pos.2 (dot_self_pos hv)).ne'
  have hf : (Ksp.start M b x).f = b - M *ᵥ x := (start_consistent M b x).2
  unfold direction
  dsimp only
  rw [orthogonalise_eq]
  have hV : (Ksp.start M b x).VV = fun _ => 0 := rfl
  have hS : (Ksp.start M b x).SS = fun _ => 0 := rfl
  have hval : coeffs (M *ᵥ prec (Ksp.start M b x).f) (Ksp.start M b x).VV (Ksp.start M b x).val 0 =
    fun _ => 0 := rfl
  rw [hval, hV, hS]
  simp only [zero_smul, Finset.sum_const_zero, sub_zero]
  rw [hf, if_neg hnz]

/-- A run that ends after its first iteration. -/
theorem loop20_first {N : Nat} (M : Matrix (Fin N) (Fin N) ℝ) (prec : Vec N → Vec N) (b x : Vec N)
    (thr : ℝ) (mx : Nat) (hpos : 0 < mx) (f v : Vec N) (hf : b - M *ᵥ x = f) (hM : M *ᵥ prec f = v)
    (hv : v ≠ 0) (ht : norm2 (f - ((f ⬝ᵥ v) / (v ⬝ᵥ v)) • v) < thr) :
    ∃ st, loop20 M prec thr mx mx (Ksp.start M b x) = some (true, st) ∧
      st.x = x + ((f ⬝ᵥ v) / (v ⬝ᵥ v)) • prec f := by
  subst hf hM
  have hd := start_direction M prec b x hv
  have hf : (Ksp.start M b x).f = b - M *ᵥ x := (start_consistent M b x).2
  set f := b - M *ᵥ x
  set v := M *ᵥ prec f
  have hdot := dot_self_pos hv
  have hnz : Real.sqrt (v ⬝ᵥ v) ≠ 0 := (Real.sqrt_pos.2 hdot).ne'
  have hss := Real.mul_self_sqrt hdot.le
  have hc : (f ⬝ᵥ (1 / Real.sqrt (v ⬝ᵥ v)) • v) * (1 / Real.sqrt (v ⬝ᵥ v)) = (f ⬝ᵥ v) / (v ⬝ᵥ v) := by
    rw [dotProduct_smul, smul_eq_mul]
    have : (f ⬝ᵥ v) / (v ⬝ᵥ v) = (f ⬝ᵥ v) / (Real.sqrt (v ⬝ᵥ v) * Real.sqrt (v ⬝ᵥ v)) := by rw [hss]
    rw [this]
    field_simp
  set st1 := advance (Ksp.start M b x) (fun _ => 0) ((1 / Real.sqrt (v ⬝ᵥ v)) • v)
      ((1 / Real.sqrt (v ⬝ᵥ v)) • prec f) with hst1
  have hf1 : st1.f = f - ((f ⬝ᵥ v) / (v ⬝ᵥ v)) • v := by
    simp only [hst1, advance]
    rw [hf, smul_smul, neg_mul, hc, neg_smul, sub_eq_add_neg]
  have hx1 : st1.x = x + ((f ⬝ᵥ v) / (v ⬝ᵥ v)) • prec f := by
    simp only [hst1, advance]
    rw [hf, smul_smul, hc]
    rfl
  obtain ⟨k, rfl⟩ : ∃ k, mx = k + 1 := ⟨mx - 1, by omega⟩
  refine ⟨{ st1 with its := st1.its + 1 }, ?_, hx1⟩
  have hi : (Ksp.start M b x).its < k + 1 := by simp [Ksp.start]
  have hcy : cycle M prec thr restart20 0 (Ksp.start M b x) = some (true, st1) := by
    have : restart20 = 19 + 1 := rfl
    rw [this]
    unfold cycle
    rw [hd]
    dsimp only
    rw [← hst1, hf1, if_pos ht]
  unfold loop20
  rw [if_pos hi, hcy]
  rfl

/-- A first direction orthogonal to the residual leaves the residual as it was; the second direction is
then zero and its norm is divided by: the result is not a number. -/
theorem first_step_breakdown {N : Nat} (M : Matrix (Fin N) (Fin N) ℝ) (prec : Vec N → Vec N) (b x : Vec N)
    (thr : ℝ) (mx : Nat) (hpos : 0 < mx) (f v : Vec N) (hf : b - M *ᵥ x = f) (hM : M *ᵥ prec f = v)
    (hv : v ≠ 0) (h0 : f ⬝ᵥ v = 0) (ht : ¬ norm2 f < thr) :
    loop20 M prec thr mx mx (Ksp.start M b x) = none := by
  subst hf hM
  have hd := start_direction M prec b x hv
  have hf : (Ksp.start M b x).f = b - M *ᵥ x := (start_consistent M b x).2
  set f := b - M *ᵥ x with hfdef
  set v := M *ᵥ prec f with hvdef
  have hdot := dot_self_pos hv
  have hnz : Real.sqrt (v ⬝ᵥ v) ≠ 0 := (Real.sqrt_pos.2 hdot).ne'
  have hss := Real.mul_self_sqrt hdot.le
  set st1 := advance (Ksp.start M b x) (fun _ => 0) ((1 / Real.sqrt (v ⬝ᵥ v)) • v)
      ((1 / Real.sqrt (v ⬝ᵥ v)) • prec f) with hst1
  have hf1 : st1.f = f := by
    simp only [hst1, advance]
    rw [hf, dotProduct_smul, h0, smul_zero, neg_zero, zero_smul, add_zero]
  have hval1 : st1.val = fun _ => 0 := rfl
  set st2 := remember st1 0 ((1 / Real.sqrt (v ⬝ᵥ v)) • v) ((1 / Real.sqrt (v ⬝ᵥ v)) • prec f) with hst2
  have hd2 : direction M prec 1 st2 = none := by
    unfold direction
    dsimp only
    rw [orthogonalise_eq]
    have hf2 : st2.f = f := hf1
    have hV0 : st2.VV 0 = (1 / Real.sqrt (v ⬝ᵥ v)) • v := by simp [hst2, remember]
    have hv2 : st2.val = fun _ => 0 := rfl
    rw [hf2]
    have hc0 : coeffs (M *ᵥ prec f) st2.VV st2.val 1 0 = (v ⬝ᵥ st2.VV 0) := by
      rw [coeffs_eq]; simp [hvdef]
    have hc1 : coeffs (M *ᵥ prec f) st2.VV st2.val 1 1 = 0 := by
      rw [coeffs_eq, hv2]; simp
    have hz : M *ᵥ prec f - ∑ i ∈ range (1 + 1), coeffs (M *ᵥ prec f) st2.VV st2.val 1 i • st2.VV i = 0 := by
      rw [sum_range_succ, sum_range_one, hc0, hc1, zero_smul, add_zero, hV0, dotProduct_smul, smul_smul,
        smul_eq_mul]
      have : 1 / Real.sqrt (v ⬝ᵥ v) * (v ⬝ᵥ v) * (1 / Real.sqrt (v ⬝ᵥ v)) = 1 := by
        field_simp
        rw [sq]
        linarith
      rw [this, one_smul, ← hvdef, sub_self]
    rw [hz]
    simp
  obtain ⟨k, rfl⟩ : ∃ k, mx = k + 1 := ⟨mx - 1, by omega⟩
  have hi : (Ksp.start M b x).its < k + 1 := by simp [Ksp.start]
  have hcy : cycle M prec thr restart20 0 (Ksp.start M b x) = none := by
    have : restart20 = 18 + 1 + 1 := rfl
    rw [this]
    unfold cycle
    rw [hd]
    dsimp only
    rw [← hst1, hf1, if_neg ht, ← hst2]
    unfold cycle
    rw [hd2]
  unfold loop20
  rw [if_pos hi, hcy]

theorem start_f {N : Nat} (M : Matrix (Fin N) (Fin N) ℝ) (b x : Vec N) :
    (Ksp.start M b x).f = b - M *ᵥ x := (start_consistent M b x).2

/-! #### One velocity and one incompressible cell -/

/-- All entries one. -/
def one11 : Matrix (Fin 1) (Fin 1) ℝ := fun _ _ => 1

/-- Exact solution of the one velocity equation with penalty `g`. -/
noncomputable def solve1 (g : ℝ) (r : Vec 1) : Vec 1 := fun _ => r 0 / (1 + g)

theorem solve1_exact (g : ℝ) (hg : 0 < g) (r : Vec 1) :
    Solves (lowerSym (schur (m := 0) one11 (gradOf one11) (fun _ => g) one11)) r (solve1 g r) := by
  intro i
  fin_cases i
  have : (1 + g) ≠ 0 := by positivity
  simp [lowerSym, schur, one11, gradOf, solve1, Matrix.mul_apply, diagonal]
  field_simp

theorem one_symm : Symm one11 := fun _ _ => rfl

theorem one_mul (a c : ℝ) :
    coupled (n := 1) (m := 0) one11 (minusTranspose one11) one11 (fun _ => 0) *ᵥ
      Fin.append (fun _ => a) (fun _ => c) = Fin.append (fun _ => a - c) (fun _ => a) := by
  have := coupled_mul (n := 1) (m := 0) one11 (minusTranspose one11) one11 (fun _ => 0)
    (Fin.append (fun _ => a) (fun _ => c))
  rw [velPart_append, presPart_append] at this
  rw [this]
  congr 1
  · funext i; simp [mulVec, dotProduct, one11, minusTranspose]; ring
  · funext i
    simp only [Pi.add_apply, mulVec_diagonal]
    simp [mulVec, dotProduct, one11]

theorem one_prec (g a c : ℝ) :
    blockPrec (n := 1) (m := 0) one11 (fun _ => g) (solve1 g) (Fin.append (fun _ => a) (fun _ => c)) =
      Fin.append (fun _ => (a + g * c) / (1 + g)) (fun _ => g * (c - (a + g * c) / (1 + g))) := by
  unfold blockPrec
  dsimp only
  rw [velPart_append, presPart_append]
  have hs : solve1 g ((fun _ : Fin 1 => a) - gradOf (m := 0) one11 *ᵥ (diagonal (fun _ => g) *ᵥ fun _ => c)) =
      fun _ => (a + g * c) / (1 + g) := by
    funext i
    simp only [solve1, Pi.sub_apply]
    congr 1
    simp [gradOf, one11, mulVec, dotProduct, diagonal]
  rw [hs]
  congr 1
  funext i
  simp only [Pi.sub_apply, mulVec_diagonal]
  simp [mulVec, dotProduct, one11]
  ring

theorem dot11 (a c a' c' : ℝ) :
    Fin.append (fun _ : Fin 1 => a) (fun _ : Fin (0 + 1) => c) ⬝ᵥ
      Fin.append (fun _ : Fin 1 => a') (fun _ : Fin (0 + 1) => c') = a * a' + c * c' := by
  unfold dotProduct
  rw [Fin.sum_univ_add]
  simp only [Fin.append_left, Fin.append_right, Finset.univ_unique, Finset.sum_const, Finset.card_singleton,
    one_smul, Nat.reduceAdd]

theorem append_sub (a c a' c' k : ℝ) :
    Fin.append (fun _ : Fin 1 => a) (fun _ : Fin (0 + 1) => c) -
      k • Fin.append (fun _ : Fin 1 => a') (fun _ : Fin (0 + 1) => c') =
      Fin.append (fun _ => a - k * a') (fun _ => c - k * c') := by
  funext i
  refine Fin.addCases (fun i => ?_) (fun i => ?_) i
  · simp only [Pi.sub_apply, Pi.add_apply, Pi.smul_apply, Fin.append_left, smul_eq_mul]
  · simp only [Pi.sub_apply, Pi.add_apply, Pi.smul_apply, Fin.append_right, smul_eq_mul]

theorem append_add (a c a' c' k : ℝ) :
    Fin.append (fun _ : Fin 1 => a) (fun _ : Fin (0 + 1) => c) +
      k • Fin.append (fun _ : Fin 1 => a') (fun _ : Fin (0 + 1) => c') =
      Fin.append (fun _ => a + k * a') (fun _ => c + k * c') := by
  funext i
  refine Fin.addCases (fun i => ?_) (fun i => ?_) i
  · simp only [Pi.sub_apply, Pi.add_apply, Pi.smul_apply, Fin.append_left, smul_eq_mul]
  · simp only [Pi.sub_apply, Pi.add_apply, Pi.smul_apply, Fin.append_right, smul_eq_mul]

/-- The tolerance refers to the start vector, which is the present flow and not zero: for every tolerance
there is a balanced state (nothing left to correct) for which the solver succeeds and returns a velocity
correction that is not zero, leaving over more than the zero correction does. -/
theorem balanced_state_changed (eps : ℝ) (heps : 0 < eps) :
    ∃ g > 0, ∃ solve : Vec 1 → Vec 1,
      (∀ r, Solves (lowerSym (schur (m := 0) one11 (gradOf one11) (fun _ => g) one11)) r (solve r)) ∧
      ∃ u p, kspStokes (n := 1) (m := 0) one11 (minusTranspose one11) one11 (fun _ => 0) (fun _ => g) solve
          eps (fun _ => 0) (fun _ => 0) (fun _ => 0) (fun _ => 1) = some (u, p) ∧ u 0 ≠ 0 ∧
        leftOver (n := 1) (m := 0) one11 (minusTranspose one11) one11 (fun _ => 0) (fun _ => 0) (fun _ => 0)
          (fun _ => 0) (fun _ => 0) = 0 ∧
        0 < leftOver (n := 1) (m := 0) one11 (minusTranspose one11) one11 (fun _ => 0) (fun _ => 0)
          (fun _ => 0) u p := by
  refine ⟨1 / eps, by positivity, solve1 (1 / eps), solve1_exact _ (by positivity), ?_⟩
  set g := 1 / eps with hg
  have hgpos : 0 < g := by positivity
  set t := 1 / (1 + g) with ht
  have htpos : 0 < t := by positivity
  have hteps : t < eps := by
    rw [ht, hg, div_lt_iff₀ (by positivity)]
    have : eps * (1 + 1 / eps) = eps + 1 := by field_simp
    linarith
  have hf : Fin.append (fun _ : Fin 1 => (0 : ℝ)) (fun _ : Fin (0 + 1) => (0 : ℝ)) -
      coupled (n := 1) (m := 0) one11 (minusTranspose one11) one11 (fun _ => 0) *ᵥ
        Fin.append (fun _ => 0) (fun _ => 1) = Fin.append (fun _ => 1) (fun _ => 0) := by
    rw [one_mul]
    have := append_sub 0 0 (0 - 1) 0 1
    rw [one_smul] at this
    rw [this]
    congr 1 <;> (funext i; norm_num)
  have hp : blockPrec (n := 1) (m := 0) one11 (fun _ => g) (solve1 g) (Fin.append (fun _ => 1) (fun _ => 0)) =
      Fin.append (fun _ => t) (fun _ => -(g * t)) := by
    rw [one_prec]
    congr 1
    · funext i; rw [ht]; ring
    · funext i; rw [ht]; ring
  have hM : coupled (n := 1) (m := 0) one11 (minusTranspose one11) one11 (fun _ => 0) *ᵥ
      blockPrec (n := 1) (m := 0) one11 (fun _ => g) (solve1 g) (Fin.append (fun _ => 1) (fun _ => 0)) =
      Fin.append (fun _ => 1) (fun _ => t) := by
    rw [hp, one_mul]
    congr 1
    funext i
    rw [ht]
    have : 1 + g ≠ 0 := by positivity
    field_simp
    ring
  have hv : Fin.append (fun _ : Fin 1 => (1 : ℝ)) (fun _ : Fin (0 + 1) => t) ≠ 0 := by
    intro h
    have := congrFun h (Fin.castAdd (0 + 1) 0)
    rw [Fin.append_left] at this
    norm_num at this
  have hk : (Fin.append (fun _ : Fin 1 => (1 : ℝ)) (fun _ : Fin (0 + 1) => (0 : ℝ)) ⬝ᵥ
      Fin.append (fun _ : Fin 1 => (1 : ℝ)) (fun _ : Fin (0 + 1) => t)) /
      (Fin.append (fun _ : Fin 1 => (1 : ℝ)) (fun _ : Fin (0 + 1) => t) ⬝ᵥ
        Fin.append (fun _ : Fin 1 => (1 : ℝ)) (fun _ : Fin (0 + 1) => t)) = 1 / (1 + t * t) := by
    rw [dot11, dot11]; norm_num
  have hthr : norm2 (Fin.append (fun _ : Fin 1 => (1 : ℝ)) (fun _ : Fin (0 + 1) => (0 : ℝ)) -
      (1 / (1 + t * t)) • Fin.append (fun _ : Fin 1 => (1 : ℝ)) (fun _ : Fin (0 + 1) => t)) <
      eps * norm2 (Ksp.start (coupled (n := 1) (m := 0) one11 (minusTranspose one11) one11 (fun _ => 0))
        (Fin.append (fun _ => 0) (fun _ => 0)) (Fin.append (fun _ => 0) (fun _ => 1))).f := by
    rw [start_f, hf, append_sub]
    unfold norm2
    rw [dot11, dot11]
    have e1 : Real.sqrt (1 * 1 + 0 * 0 : ℝ) = 1 := by norm_num
    rw [e1, mul_one eps, Real.sqrt_lt' heps]
    have h1 : (1 - 1 / (1 + t * t) * 1) * (1 - 1 / (1 + t * t) * 1) +
        (0 - 1 / (1 + t * t) * t) * (0 - 1 / (1 + t * t) * t) = t ^ 2 / (1 + t ^ 2) := by
      have : 1 + t * t ≠ 0 := by positivity
      have : 1 + t ^ 2 ≠ 0 := by positivity
      field_simp
      ring
    rw [h1, div_lt_iff₀ (by positivity)]
    have h2 : t ^ 2 < eps ^ 2 := by nlinarith
    nlinarith [sq_nonneg (eps * t)]
  obtain ⟨st, h1, h2⟩ := loop20_first _ _ _ _ _ maxIt (by decide) _ _ hf hM hv (by rw [hk]; exact hthr)
  have hres : st.x = Fin.append (fun _ => 1 / (1 + t * t) * t) (fun _ => 1 + 1 / (1 + t * t) * -(g * t)) := by
    rw [h2, hk, hp, append_add]
    congr 1
    funext i; ring
  have hu : velPart (n := 1) (m := 0) st.x = fun _ => 1 / (1 + t * t) * t := by rw [hres, velPart_append]
  have hup : 0 < 1 / (1 + t * t) * t := by positivity
  refine ⟨velPart st.x, presPart st.x, ?_, ?_, ?_, ?_⟩
  · unfold kspStokes kspIterate
    dsimp only
    rw [h1]
    rfl
  · rw [hu]; exact hup.ne'
  · unfold leftOver momLeft contLeft
    simp
  · unfold leftOver
    apply Real.sqrt_pos.2
    rw [hu]
    have : 0 < ∑ j, contLeft (n := 1) (m := 0 + 1) one11 (fun _ => 0) (fun _ => 0) (fun _ => 1 / (1 + t * t) * t)
        (presPart (n := 1) (m := 0) st.x) j ^ 2 := by
      simp only [contLeft, one11]
      simp
      positivity
    have h3 : 0 ≤ ∑ i, momLeft (n := 1) (m := 0 + 1) one11 (minusTranspose one11) (fun _ => 0)
        (fun _ => 1 / (1 + t * t) * t) (presPart (n := 1) (m := 0) st.x) i ^ 2 :=
      Finset.sum_nonneg fun i _ => sq_nonneg _
    linarith

/-- A system with one velocity and one incompressible cell, penalty one fifth, that has a solution and on
which the solver ends with not-a-number whatever the tolerance. -/
theorem solvable_breakdown (eps : ℝ) (h1 : eps ≤ 1) :
    (∃ u p, Saddle (n := 1) (m := 1) one11 (minusTranspose one11) one11 (fun _ => 0) (fun _ => -1)
      (fun _ => 2) u p) ∧
    (∀ r, Solves (lowerSym (schur (m := 0) one11 (gradOf one11) (fun _ => 1 / 5) one11)) r
      (solve1 (1 / 5) r)) ∧
    kspStokes (n := 1) (m := 0) one11 (minusTranspose one11) one11 (fun _ => 0) (fun _ => 1 / 5)
      (solve1 (1 / 5)) eps (fun _ => -1) (fun _ => 0) (fun _ => 2) (fun _ => 0) = none := by
  refine ⟨⟨fun _ => 2, fun _ => 3, ?_, ?_⟩, solve1_exact _ (by norm_num), ?_⟩
  · intro i; simp [one11, minusTranspose]; norm_num
  · intro i; simp [one11]
  have hf : Fin.append (fun _ : Fin 1 => (-1 : ℝ)) (fun _ : Fin (0 + 1) => (2 : ℝ)) -
      coupled (n := 1) (m := 0) one11 (minusTranspose one11) one11 (fun _ => 0) *ᵥ
        Fin.append (fun _ => 0) (fun _ => 0) = Fin.append (fun _ => -1) (fun _ => 2) := by
    rw [one_mul]
    have := append_sub (-1) 2 (0 - 0) 0 1
    rw [one_smul] at this
    rw [this]
    congr 1 <;> (funext i; norm_num)
  have hM : coupled (n := 1) (m := 0) one11 (minusTranspose one11) one11 (fun _ => 0) *ᵥ
      blockPrec (n := 1) (m := 0) one11 (fun _ => 1 / 5) (solve1 (1 / 5))
        (Fin.append (fun _ => -1) (fun _ => 2)) = Fin.append (fun _ => -1) (fun _ => -1 / 2) := by
    rw [one_prec, one_mul]
    congr 1 <;> (funext i; norm_num)
  have hv : Fin.append (fun _ : Fin 1 => (-1 : ℝ)) (fun _ : Fin (0 + 1) => (-1 / 2 : ℝ)) ≠ 0 := by
    intro h
    have := congrFun h (Fin.castAdd (0 + 1) 0)
    rw [Fin.append_left] at this
    norm_num at this
  have hb := first_step_breakdown _ _ _ _ (eps * norm2 (Ksp.start
      (coupled (n := 1) (m := 0) one11 (minusTranspose one11) one11 (fun _ => 0))
        (Fin.append (fun _ => -1) (fun _ => 2)) (Fin.append (fun _ => 0) (fun _ => 0))).f) maxIt (by decide)
    _ _ hf hM hv (by rw [dot11]; norm_num)
    (by
      rw [start_f, hf, not_lt]
      have : 0 ≤ norm2 (Fin.append (fun _ : Fin 1 => (-1 : ℝ)) (fun _ : Fin (0 + 1) => (2 : ℝ))) :=
        Real.sqrt_nonneg _
      nlinarith)
  unfold kspStokes kspIterate
  dsimp only
  rw [hb]
  rfl

/-! ### The compressible direct solver -/

/-- Pressure block and its approximate inverse: exact inverse in compressible cells, the same penalty in all
incompressible ones. -/
def Fit (D1 D : Fin (m + 1) → ℝ) (g : ℝ) : Prop :=
  ∀ i, (0 < D1 i ∧ D i * D1 i = 1) ∨ (D1 i = 0 ∧ D i = g)

theorem compFp_eq (C : Matrix (Fin (m + 1)) (Fin n) ℝ) (D1 : Fin (m + 1) → ℝ) (bp : Vec (m + 1))
    (s : Vec n × Vec (m + 1)) : compFp C D1 bp s = contLeft C D1 bp s.1 s.2 := by
  funext i
  simp only [compFp, contLeft, Pi.sub_apply, mulVec_diagonal]
  simp [mulVec, dotProduct]

/-- Every iteration balances the momentum equations exactly, from whatever velocity and pressure. -/
theorem comp_momentum_exact (A : Matrix (Fin n) (Fin n) ℝ) (hA : Symm A)
    (C : Matrix (Fin (m + 1)) (Fin n) ℝ) (D1 D : Fin (m + 1) → ℝ) (solve : Vec n → Vec n)
    (hsolve : ∀ r, Solves (lowerSym (schur A (gradOf C) D C)) r (solve r)) (bu : Vec n)
    (bp : Vec (m + 1)) (s : Vec n × Vec (m + 1)) (i : Fin n) :
    momLeft A (minusTranspose C) bu (compStep A C D1 D solve bu bp s).1
      (compStep A C D1 D solve bu bp s).2 i = 0 := by
  have h : ∀ r, schur A (gradOf C) D C *ᵥ solve r = r := by
    intro r
    have := hsolve r
    rw [factorised_matrix A hA] at this
    exact funext fun i => this i
  rw [momLeft_eq]
  unfold compStep
  dsimp only
  set fp := compFp C D1 bp s
  have hL := h (bu - A *ᵥ s.1 - gradOf C *ᵥ s.2 - gradOf C *ᵥ (diagonal D *ᵥ fp))
  set du := solve (bu - A *ᵥ s.1 - gradOf C *ᵥ s.2 - gradOf C *ᵥ (diagonal D *ᵥ fp))
  rw [schur_apply] at hL
  simp only [mulVec_add, mulVec_sub]
  have h2 : A *ᵥ du = bu - A *ᵥ s.1 - gradOf C *ᵥ s.2 - gradOf C *ᵥ (diagonal D *ᵥ fp) +
      gradOf C *ᵥ (diagonal D *ᵥ (C *ᵥ du)) := by
    rw [← hL]; abel
  rw [h2]
  have : bu - (A *ᵥ s.1 + (bu - A *ᵥ s.1 - gradOf C *ᵥ s.2 - gradOf C *ᵥ (diagonal D *ᵥ fp) +
      gradOf C *ᵥ (diagonal D *ᵥ (C *ᵥ du)))) - (gradOf C *ᵥ s.2 + (gradOf C *ᵥ (diagonal D *ᵥ fp) -
      gradOf C *ᵥ (diagonal D *ᵥ (C *ᵥ du)))) = 0 := by abel
  rw [this]; rfl

/-- The pressure update of an iteration: `D` times what the new velocity with the old pressure leaves over
of the continuity equation. -/
theorem comp_pressure (A : Matrix (Fin n) (Fin n) ℝ)
    (C : Matrix (Fin (m + 1)) (Fin n) ℝ) (D1 D : Fin (m + 1) → ℝ) (solve : Vec n → Vec n) (bu : Vec n)
    (bp : Vec (m + 1)) (s : Vec n × Vec (m + 1)) (i : Fin (m + 1)) :
    (compStep A C D1 D solve bu bp s).2 i =
      s.2 i + D i * contLeft C D1 bp (compStep A C D1 D solve bu bp s).1 s.2 i := by
  rw [← compFp_eq C D1 bp ((compStep A C D1 D solve bu bp s).1, s.2)]
  unfold compStep
  simp only [Pi.add_apply, mulVec_diagonal, compFp, Pi.sub_apply, mulVec_add]
  ring

/-- What an iteration leaves over of the continuity equation: nothing in a compressible cell, the divergence
left over by the new velocity in an incompressible one. -/
theorem comp_continuity (A : Matrix (Fin n) (Fin n) ℝ)
    (C : Matrix (Fin (m + 1)) (Fin n) ℝ) (D1 D : Fin (m + 1) → ℝ) (solve : Vec n → Vec n) (bu : Vec n)
    (bp : Vec (m + 1)) (s : Vec n × Vec (m + 1)) (i : Fin (m + 1)) :
    (D i * D1 i = 1 → contLeft C D1 bp (compStep A C D1 D solve bu bp s).1
      (compStep A C D1 D solve bu bp s).2 i = 0) ∧
    (D1 i = 0 → contLeft C D1 bp (compStep A C D1 D solve bu bp s).1
      (compStep A C D1 D solve bu bp s).2 i =
        bp i - ∑ j, C i j * (compStep A C D1 D solve bu bp s).1 j) := by
  have hp := comp_pressure A C D1 D solve bu bp s i
  constructor
  · intro h
    unfold contLeft at hp ⊢
    rw [hp]
    linear_combination (-(bp i - ∑ j, C i j * (compStep A C D1 D solve bu bp s).1 j - D1 i * s.2 i)) * h
  · intro h
    unfold contLeft
    rw [h]
    ring

/-- The divergence left over never grows after the first iteration. -/
theorem comp_divergence_decreases (A : Matrix (Fin n) (Fin n) ℝ) (hA : Symm A) (hN : NonNeg A)
    (C : Matrix (Fin (m + 1)) (Fin n) ℝ) (D1 D : Fin (m + 1) → ℝ) (g : ℝ) (hg : 0 < g) (hfit : Fit D1 D g)
    (solve : Vec n → Vec n)
    (hsolve : ∀ r, Solves (lowerSym (schur A (gradOf C) D C)) r (solve r)) (bu : Vec n)
    (bp : Vec (m + 1)) (s : Vec n × Vec (m + 1)) (k : Nat) :
    let it := compIter A C D1 D solve bu bp s
    len (contLeft C D1 bp (it (k + 2)).1 (it (k + 2)).2) ≤
      len (contLeft C D1 bp (it (k + 1)).1 (it (k + 1)).2) := by
  intro it
  set s1 := it (k + 1) with hs1
  have e2 : it (k + 2) = compStep A C D1 D solve bu bp s1 := rfl
  have e1 : s1 = compStep A C D1 D solve bu bp (it k) := rfl
  have m1 : bu - A *ᵥ s1.1 - gradOf C *ᵥ s1.2 = 0 := by
    rw [← momLeft_eq]; funext i
    rw [e1]; exact comp_momentum_exact A hA C D1 D solve hsolve bu bp _ i
  have m2 : bu - A *ᵥ (it (k + 2)).1 - gradOf C *ᵥ (it (k + 2)).2 = 0 := by
    rw [← momLeft_eq]; funext i
    rw [e2]; exact comp_momentum_exact A hA C D1 D solve hsolve bu bp _ i
  set s2 := it (k + 2) with hs2
  set r1 := contLeft C D1 bp s1.1 s1.2 with hr1
  set r2 := contLeft C D1 bp s2.1 s2.2 with hr2
  set w := s2.1 - s1.1 with hw
  set q := s2.2 - s1.2 with hq
  have hAw : A *ᵥ w = -(gradOf C *ᵥ q) := by
    have a1 : A *ᵥ s1.1 = bu - gradOf C *ᵥ s1.2 := by
      have := sub_eq_zero.1 m1
      rw [← this]; abel
    have a2 : A *ᵥ s2.1 = bu - gradOf C *ᵥ s2.2 := by
      have := sub_eq_zero.1 m2
      rw [← this]; abel
    rw [hw, hq, mulVec_sub, mulVec_sub, a1, a2]; abel
  have hn := nonneg_dot hN w
  rw [hAw, dotProduct_neg, grad_dot, neg_neg] at hn
  have hcw : ∀ i, (C *ᵥ w) i = ∑ j, C i j * s2.1 j - ∑ j, C i j * s1.1 j := by
    intro i
    rw [hw, mulVec_sub]
    simp [mulVec, dotProduct]
  have hpt : ∀ i, (C *ᵥ w) i * q i ≤ g * ((r1 i - r2 i) * r2 i) := by
    intro i
    have hp := comp_pressure A C D1 D solve bu bp s1 i
    rw [← e2] at hp
    have hqi : q i = D i * contLeft C D1 bp s2.1 s1.2 i := by rw [hq, Pi.sub_apply, hp]; ring
    rcases hfit i with ⟨hpos, hinv⟩ | ⟨hz, hgi⟩
    · have z1 : r1 i = 0 := by
        rw [hr1, e1]; exact (comp_continuity A C D1 D solve bu bp _ i).1 hinv
      have z2 : r2 i = 0 := by
        rw [hr2, e2]; exact (comp_continuity A C D1 D solve bu bp _ i).1 hinv
      have hDpos : 0 < D i := by
        rcases lt_trichotomy (D i) 0 with h | h | h
        · nlinarith
        · rw [h] at hinv; norm_num at hinv
        · exact h
      have : contLeft C D1 bp s2.1 s1.2 i = -(C *ᵥ w) i := by
        have : r1 i = bp i - ∑ j, C i j * s1.1 j - D1 i * s1.2 i := rfl
        rw [z1] at this
        rw [hcw]
        unfold contLeft
        linarith
      rw [hqi, this, z1, z2]
      have : 0 ≤ D i * (C *ᵥ w) i ^ 2 := by positivity
      nlinarith
    · have h2 : contLeft C D1 bp s2.1 s1.2 i = r2 i := by
        rw [hr2]; unfold contLeft; rw [hz]; ring
      have h3 : (C *ᵥ w) i = r1 i - r2 i := by
        rw [hcw, hr1, hr2]; unfold contLeft; rw [hz]; ring
      rw [hqi, h2, h3, hgi]
      exact le_of_eq (by ring)
  have hsum : 0 ≤ g * ∑ i, (r1 i - r2 i) * r2 i := by
    rw [Finset.mul_sum]
    refine le_trans hn ?_
    unfold dotProduct
    exact Finset.sum_le_sum fun i _ => hpt i
  have h5 : 0 ≤ ∑ i, (r1 i - r2 i) * r2 i := by
    by_contra hneg
    have := mul_neg_of_pos_of_neg hg (not_le.1 hneg)
    linarith
  unfold len
  apply Real.sqrt_le_sqrt
  have h6 : ∑ i, r2 i ^ 2 ≤ ∑ i, r1 i ^ 2 - 2 * ∑ i, (r1 i - r2 i) * r2 i := by
    rw [Finset.mul_sum, ← Finset.sum_sub_distrib]
    refine Finset.sum_le_sum fun i _ => ?_
    nlinarith [sq_nonneg (r1 i - r2 i)]
  linarith

/-- The iterations converge whenever the system has a solution: after `k` iterations the squared length of
the divergence left over is at most the squared distance of the starting pressure from that of a solution,
divided by `k` and by the square of the penalty. -/
theorem comp_converges (A : Matrix (Fin n) (Fin n) ℝ) (hA : Symm A) (hN : NonNeg A)
    (C : Matrix (Fin (m + 1)) (Fin n) ℝ) (D1 D : Fin (m + 1) → ℝ) (g : ℝ) (hg : 0 < g) (hfit : Fit D1 D g)
    (solve : Vec n → Vec n)
    (hsolve : ∀ r, Solves (lowerSym (schur A (gradOf C) D C)) r (solve r)) (bu : Vec n)
    (bp : Vec (m + 1)) (s : Vec n × Vec (m + 1)) (us : Vec n) (ps : Vec (m + 1))
    (hs : Saddle A (minusTranspose C) C D1 bu bp us ps) (k : Nat) (hk : 0 < k) :
    let it := compIter A C D1 D solve bu bp s
    len (contLeft C D1 bp (it k).1 (it k).2) ^ 2 ≤ len (s.2 - ps) ^ 2 / (k * g ^ 2) := by
  intro it
  have hlen : ∀ {l : Nat} (v : Vec l), len v ^ 2 = ∑ i, v i ^ 2 := by
    intro l v
    unfold len
    exact Real.sq_sqrt (Finset.sum_nonneg fun i _ => sq_nonneg _)
  have sm : bu - A *ᵥ us - gradOf C *ᵥ ps = 0 := by
    rw [← momLeft_eq]
    funext i
    have := hs.1 i
    unfold momLeft
    show _ = (0 : ℝ)
    linarith
  set r : Nat → Vec (m + 1) := fun k => contLeft C D1 bp (it k).1 (it k).2 with hr
  set E : Nat → ℝ := fun k => ∑ i, (if D1 i = 0 then ((it k).2 i - ps i) ^ 2 else 0) with hE
  have energy : ∀ k, E (k + 1) + g ^ 2 * ∑ i, r (k + 1) i ^ 2 ≤ E k := by
    intro k
    have e1 : it (k + 1) = compStep A C D1 D solve bu bp (it k) := rfl
    have m1 : bu - A *ᵥ (it (k + 1)).1 - gradOf C *ᵥ (it (k + 1)).2 = 0 := by
      rw [← momLeft_eq]; funext i
      rw [e1]; exact comp_momentum_exact A hA C D1 D solve hsolve bu bp _ i
    set e := (it (k + 1)).1 - us with he
    set q := (it (k + 1)).2 - ps with hq
    have hAe : A *ᵥ e = -(gradOf C *ᵥ q) := by
      have a1 : A *ᵥ (it (k + 1)).1 = bu - gradOf C *ᵥ (it (k + 1)).2 := by
        have := sub_eq_zero.1 m1
        rw [← this]; abel
      have a2 : A *ᵥ us = bu - gradOf C *ᵥ ps := by
        have := sub_eq_zero.1 sm
        rw [← this]; abel
      rw [he, hq, mulVec_sub, mulVec_sub, a1, a2]; abel
    have hn := nonneg_dot hN e
    rw [hAe, dotProduct_neg, grad_dot, neg_neg] at hn
    have hce : ∀ i, (C *ᵥ e) i = ∑ j, C i j * (it (k + 1)).1 j - ∑ j, C i j * us j := by
      intro i
      rw [he, mulVec_sub]
      simp [mulVec, dotProduct]
    have hpt : ∀ i, (if D1 i = 0 then ((it (k + 1)).2 i - ps i) ^ 2 else 0) + g ^ 2 * r (k + 1) i ^ 2 ≤
        (if D1 i = 0 then ((it k).2 i - ps i) ^ 2 else 0) - 2 * g * ((C *ᵥ e) i * q i) := by
      intro i
      have hp := comp_pressure A C D1 D solve bu bp (it k) i
      rw [← e1] at hp
      have hsi := hs.2 i
      rcases hfit i with ⟨hpos, hinv⟩ | ⟨hz, hgi⟩
      · have z : r (k + 1) i = 0 := by
          show contLeft C D1 bp (it (k + 1)).1 (it (k + 1)).2 i = 0
          rw [e1]; exact (comp_continuity A C D1 D solve bu bp _ i).1 hinv
        rw [if_neg hpos.ne', if_neg hpos.ne', z]
        have : (C *ᵥ e) i = -(D1 i * q i) := by
          have : r (k + 1) i = bp i - ∑ j, C i j * (it (k + 1)).1 j - D1 i * (it (k + 1)).2 i := rfl
          rw [z] at this
          rw [hce, hq, Pi.sub_apply]
          linarith
        rw [this]
        have : 0 ≤ g * (D1 i * q i ^ 2) := by positivity
        nlinarith
      · rw [if_pos hz, if_pos hz]
        have h2 : contLeft C D1 bp (it (k + 1)).1 (it k).2 i = r (k + 1) i := by
          show _ = contLeft C D1 bp (it (k + 1)).1 (it (k + 1)).2 i
          unfold contLeft; rw [hz]; ring
        rw [h2, hgi] at hp
        have h3 : (C *ᵥ e) i = -(r (k + 1) i) := by
          show _ = -(contLeft C D1 bp (it (k + 1)).1 (it (k + 1)).2 i)
          rw [hce]; unfold contLeft
          rw [hz] at hsi ⊢
          linarith
        have h4 : q i = (it k).2 i + g * r (k + 1) i - ps i := by rw [hq, Pi.sub_apply, hp]
        have h5 : (it (k + 1)).2 i - ps i = q i := by rw [hq, Pi.sub_apply]
        rw [h5, h3, h4]
        exact le_of_eq (by ring)
    have hsum := Finset.sum_le_sum fun i (_ : i ∈ (Finset.univ : Finset (Fin (m + 1)))) => hpt i
    rw [Finset.sum_add_distrib, Finset.sum_sub_distrib, ← Finset.mul_sum, ← Finset.mul_sum] at hsum
    have hn' : 0 ≤ ∑ i, (C *ᵥ e) i * q i := hn
    have : 0 ≤ 2 * g * ∑ i, (C *ᵥ e) i * q i := by positivity
    show (∑ i, (if D1 i = 0 then ((it (k + 1)).2 i - ps i) ^ 2 else 0)) + _ ≤
      ∑ i, (if D1 i = 0 then ((it k).2 i - ps i) ^ 2 else 0)
    linarith
  have mono : ∀ j k, ∑ i, r (j + 1 + k) i ^ 2 ≤ ∑ i, r (j + 1) i ^ 2 := by
    intro j k
    induction k with
    | zero => exact le_refl _
    | succ k ih =>
      refine le_trans ?_ ih
      have := comp_divergence_decreases A hA hN C D1 D g hg hfit solve hsolve bu bp s (j + k)
      dsimp only at this
      have h2 := pow_le_pow_left₀ (by unfold len; exact Real.sqrt_nonneg _) this 2
      rw [hlen, hlen] at h2
      have e1 : j + k + 2 = j + 1 + (k + 1) := by omega
      have e2 : j + k + 1 = j + 1 + k := by omega
      rw [e1, e2] at h2
      exact h2
  have hE0 : ∀ k, 0 ≤ E k := fun k =>
    Finset.sum_nonneg fun i _ => by split_ifs <;> positivity
  have total : ∀ l, l ≤ k → E l + l * (g ^ 2 * ∑ i, r k i ^ 2) ≤ E 0 := by
    intro l
    induction l with
    | zero => intro _; simp
    | succ l ih =>
      intro hl
      have h1 := ih (by omega)
      have h2 := energy l
      have h3 : ∑ i, r k i ^ 2 ≤ ∑ i, r (l + 1) i ^ 2 := by
        have := mono l (k - (l + 1))
        have e : l + 1 + (k - (l + 1)) = k := by omega
        rw [e] at this
        exact this
      have h4 : g ^ 2 * ∑ i, r k i ^ 2 ≤ g ^ 2 * ∑ i, r (l + 1) i ^ 2 :=
        mul_le_mul_of_nonneg_left h3 (sq_nonneg g)
      push_cast
      linarith
  rw [hlen, hlen]
  have hk' : (0 : ℝ) < k := by exact_mod_cast hk
  rw [le_div_iff₀ (by positivity)]
  have h1 := total k (le_refl k)
  have h2 := hE0 k
  have h3 : E 0 ≤ ∑ i, (s.2 - ps) i ^ 2 := by
    refine Finset.sum_le_sum fun i _ => ?_
    split_ifs
    · exact le_of_eq rfl
    · positivity
  have h4 : (∑ i, contLeft C D1 bp (it k).1 (it k).2 i ^ 2) * (k * g ^ 2) = k * (g ^ 2 * ∑ i, r k i ^ 2) := by
    show (∑ i, r k i ^ 2) * (k * g ^ 2) = _
    ring
  rw [h4]
  linarith

theorem compLoop_spec (A : Matrix (Fin n) (Fin n) ℝ) (C : Matrix (Fin (m + 1)) (Fin n) ℝ)
    (D1 D : Fin (m + 1) → ℝ) (solve : Vec n → Vec n) (absDiv relDiv : ℝ) (bu : Vec n) (bp : Vec (m + 1))
    (s : Vec n × Vec (m + 1)) :
    ∀ (lft k : Nat) (m0 mx : ℝ), k + lft = 20 →
      let it := compIter A C D1 D solve bu bp s
      let r := compLoop A C D1 D solve absDiv relDiv bu bp lft k (it k) m0 mx
      ∃ l, k ≤ l ∧ l ≤ 20 ∧ r.1 = it l ∧ (1 < k ∨ 1 < lft → 1 < l) ∧
        (0 < lft → r.2.2 = maxVal (compFp C D1 bp (it (min l 19)))) ∧
        r.2.1 = (if k = 0 then maxVal (compFp C D1 bp (it 0)) else m0) ∧
        (l < 20 → compStop absDiv relDiv l (maxVal (compFp C D1 bp (it l))) r.2.1) := by
  intro lft
  induction lft with
  | zero =>
    intro k m0 mx hk
    have h20 : k = 20 := by omega
    exact ⟨k, le_refl _, by omega, rfl, by omega, by omega, by rw [if_neg (by omega)]; rfl, by omega⟩
  | succ lft ih =>
    intro k m0 mx hk it r
    have hm : (if k = 0 then maxVal (compFp C D1 bp (it k)) else m0) =
        (if k = 0 then maxVal (compFp C D1 bp (it 0)) else m0) := by
      split_ifs with h
      · rw [h]
      · rfl
    by_cases hstop : compStop absDiv relDiv k (maxVal (compFp C D1 bp (it k)))
        (if k = 0 then maxVal (compFp C D1 bp (it k)) else m0)
    · have hr : r = (it k, (if k = 0 then maxVal (compFp C D1 bp (it k)) else m0),
          maxVal (compFp C D1 bp (it k))) := by
        show compLoop A C D1 D solve absDiv relDiv bu bp (lft + 1) k (it k) m0 mx = _
        unfold compLoop
        dsimp only
        rw [if_pos hstop]
      refine ⟨k, le_refl _, by omega, by rw [hr], fun _ => hstop.1, fun _ => ?_, ?_, fun _ => ?_⟩
      · rw [hr, Nat.min_eq_left (by omega)]
      · rw [hr]; exact hm
      · rw [hr]; exact hstop
    · have hr : r = compLoop A C D1 D solve absDiv relDiv bu bp lft (k + 1) (it (k + 1))
          (if k = 0 then maxVal (compFp C D1 bp (it k)) else m0) (maxVal (compFp C D1 bp (it k))) := by
        show compLoop A C D1 D solve absDiv relDiv bu bp (lft + 1) k (it k) m0 mx = _
        conv_lhs => unfold compLoop
        dsimp only
        rw [if_neg hstop]
        rfl
      obtain ⟨l, h1, h2, h3, h4, h5, h6, h7⟩ := ih (k + 1)
        (if k = 0 then maxVal (compFp C D1 bp (it k)) else m0)
        (maxVal (compFp C D1 bp (it k))) (by omega)
      refine ⟨l, by omega, h2, by rw [hr]; exact h3, ?_, fun _ => ?_, ?_, ?_⟩
      · rintro (h | h)
        · exact h4 (Or.inl (by omega))
        · by_cases hl : 1 < lft
          · exact h4 (Or.inr hl)
          · exact h4 (Or.inl (by omega))
      · by_cases hl : 0 < lft
        · rw [hr]; exact h5 hl
        · have hl0 : lft = 0 := by omega
          subst hl0
          have : k = 19 := by omega
          subst this
          have : l = 20 := by omega
          subst this
          rw [hr]
          rfl
      · rw [hr, ← hm]
        exact h6.trans (if_neg (Nat.succ_ne_zero k))
      · rw [hr]; exact h7

/-- A returned flow is the result of at least two and at most twenty iterations.  The largest divergence that
decided about it is that of the returned flow, except after twenty iterations, when it is that of the flow
one iteration earlier; it is compared with the absolute tolerance and with the largest divergence at the
start. -/
theorem comp_returned (A : Matrix (Fin n) (Fin n) ℝ) (C : Matrix (Fin (m + 1)) (Fin n) ℝ)
    (D1 D : Fin (m + 1) → ℝ) (solve : Vec n → Vec n) (absDiv relDiv : ℝ) (bu u0 : Vec n)
    (bp p0 : Vec (m + 1)) (u : Vec n) (p : Vec (m + 1))
    (h : compStokes A C D1 D solve absDiv relDiv bu u0 bp p0 = some (u, p)) :
    let it := compIter A C D1 D solve bu bp (u0, p0)
    let worst := fun k => maxVal (contLeft C D1 bp (it k).1 (it k).2)
    ∃ k, 2 ≤ k ∧ k ≤ 20 ∧ (u, p) = it k ∧
      (k < 20 → |worst k| < absDiv ∨ ratioLt (worst k) (worst 0) relDiv) ∧
      (k = 20 → ¬ (absDiv < |worst 19| ∧ ratioGt (worst 19) (worst 0) relDiv)) := by
  intro it worst
  unfold compStokes at h
  dsimp only at h
  obtain ⟨l, _, h2, h3, h4, h5, h6, h7⟩ :=
    compLoop_spec A C D1 D solve absDiv relDiv bu bp (u0, p0) 20 0 0 0 rfl
  have e0 : compIter A C D1 D solve bu bp (u0, p0) 0 = (u0, p0) := rfl
  rw [if_pos rfl] at h6
  rw [h6] at h7
  rw [e0] at h3 h5
  split_ifs at h with hc
  simp only [Option.some.injEq] at h
  refine ⟨l, h4 (Or.inr (by norm_num)), h2, by rw [← h, h3], fun hl => ?_, fun hl => ?_⟩
  · have := (h7 hl).2
    rw [compFp_eq, compFp_eq] at this
    exact this
  · rw [e0] at h6
    rw [h5 (by norm_num), h6, compFp_eq, hl, ← e0, compFp_eq] at hc
    exact hc

theorem maxVal_le_len (f : Vec (m + 1)) : |maxVal f| ≤ len f := by
  obtain ⟨i, _, hi⟩ := Finset.exists_mem_eq_sup' (s := (Finset.univ : Finset (Fin (m + 1))))
    Finset.univ_nonempty f
  have : maxVal f = f i := hi
  rw [this]
  unfold len
  rw [← Real.sqrt_sq_eq_abs]
  apply Real.sqrt_le_sqrt
  exact Finset.single_le_sum (f := fun i => f i ^ 2) (fun i _ => sq_nonneg _) (Finset.mem_univ i)

/-- The run is not abandoned when the penalty is large enough: with exact factorisation it is enough that the
penalty times the absolute tolerance exceeds the distance of the present pressure from that of a solution
(divided by the square root of nineteen). -/
theorem comp_accepts (A : Matrix (Fin n) (Fin n) ℝ) (hA : Symm A) (hN : NonNeg A)
    (C : Matrix (Fin (m + 1)) (Fin n) ℝ) (D1 D : Fin (m + 1) → ℝ) (g : ℝ) (hg : 0 < g) (hfit : Fit D1 D g)
    (solve : Vec n → Vec n)
    (hsolve : ∀ r, Solves (lowerSym (schur A (gradOf C) D C)) r (solve r)) (absDiv relDiv : ℝ)
    (bu u0 : Vec n) (bp p0 : Vec (m + 1)) (us : Vec n) (ps : Vec (m + 1))
    (hs : Saddle A (minusTranspose C) C D1 bu bp us ps) (habs : 0 ≤ absDiv)
    (hpen : len (p0 - ps) ^ 2 ≤ 19 * (g * absDiv) ^ 2) :
    ∃ u p, compStokes A C D1 D solve absDiv relDiv bu u0 bp p0 = some (u, p) := by
  obtain ⟨l, _, h2, h3, h4, h5, h6, h7⟩ :=
    compLoop_spec A C D1 D solve absDiv relDiv bu bp (u0, p0) 20 0 0 0 rfl
  have e0 : compIter A C D1 D solve bu bp (u0, p0) 0 = (u0, p0) := rfl
  rw [e0] at h3 h5 h6 h7
  set r := compLoop A C D1 D solve absDiv relDiv bu bp 20 0 (u0, p0) 0 0 with hr
  have key : ¬ (absDiv < |r.2.2| ∧ ratioGt r.2.2 r.2.1 relDiv) := by
    rintro ⟨c1, c2⟩
    by_cases hl : l < 20
    · have h8 := h5 (by norm_num)
      rw [Nat.min_eq_left (by omega)] at h8
      have := (h7 hl).2
      rw [← h8] at this
      rcases this with h | h
      · linarith
      · rcases h with ⟨hb, h⟩ | ⟨hb, h⟩
        · rcases c2 with ⟨_, c⟩ | ⟨c, _⟩
          · linarith
          · exact hb c
        · rcases c2 with ⟨c, _⟩ | ⟨_, c⟩
          · exact c hb
          · linarith
    · have hl20 : l = 20 := by omega
      have h8 := h5 (by norm_num)
      rw [hl20, compFp_eq] at h8
      have hc := comp_converges A hA hN C D1 D g hg hfit solve hsolve bu bp (u0, p0) us ps hs 19 (by norm_num)
      dsimp only at hc
      have hmx := maxVal_le_len (contLeft C D1 bp (compIter A C D1 D solve bu bp (u0, p0) 19).1
        (compIter A C D1 D solve bu bp (u0, p0) 19).2)
      have h9 : min 20 19 = 19 := rfl
      rw [h9] at h8
      rw [← h8] at hmx
      have h10 : len (p0 - ps) ^ 2 / (((19 : ℕ) : ℝ) * g ^ 2) ≤ absDiv ^ 2 := by
        rw [div_le_iff₀ (by positivity)]
        push_cast
        nlinarith
      have h11 := abs_le_of_sq_le_sq' (le_trans hc h10) habs
      linarith [h11.2]
  refine ⟨r.1.1, r.1.2, ?_⟩
  unfold compStokes
  dsimp only
  rw [← hr, if_neg key]

/-- Whatever the solver returns balances the momentum equations exactly and the continuity equation of every
compressible cell, and its divergence elsewhere is bounded by the distance of the present pressure from that
of a solution. -/
theorem comp_result (A : Matrix (Fin n) (Fin n) ℝ) (hA : Symm A) (hN : NonNeg A)
    (C : Matrix (Fin (m + 1)) (Fin n) ℝ) (D1 D : Fin (m + 1) → ℝ) (g : ℝ) (hg : 0 < g) (hfit : Fit D1 D g)
    (solve : Vec n → Vec n)
    (hsolve : ∀ r, Solves (lowerSym (schur A (gradOf C) D C)) r (solve r)) (absDiv relDiv : ℝ)
    (bu u0 : Vec n) (bp p0 : Vec (m + 1)) (us : Vec n) (ps : Vec (m + 1))
    (hs : Saddle A (minusTranspose C) C D1 bu bp us ps) (u : Vec n) (p : Vec (m + 1))
    (h : compStokes A C D1 D solve absDiv relDiv bu u0 bp p0 = some (u, p)) :
    (∀ i, momLeft A (minusTranspose C) bu u p i = 0) ∧
      (∀ i, 0 < D1 i → contLeft C D1 bp u p i = 0) ∧
      len (contLeft C D1 bp u p) ^ 2 ≤ len (p0 - ps) ^ 2 / (2 * g ^ 2) := by
  obtain ⟨k, h1, h2, h3, _, _⟩ := comp_returned A C D1 D solve absDiv relDiv bu u0 bp p0 u p h
  obtain ⟨k, rfl⟩ : ∃ j, k = j + 1 := ⟨k - 1, by omega⟩
  have e : (u, p) = compStep A C D1 D solve bu bp (compIter A C D1 D solve bu bp (u0, p0) k) := h3
  have eu : u = (compStep A C D1 D solve bu bp (compIter A C D1 D solve bu bp (u0, p0) k)).1 := by rw [← e]
  have ep : p = (compStep A C D1 D solve bu bp (compIter A C D1 D solve bu bp (u0, p0) k)).2 := by rw [← e]
  refine ⟨fun i => ?_, fun i hi => ?_, ?_⟩
  · rw [eu, ep]; exact comp_momentum_exact A hA C D1 D solve hsolve bu bp _ i
  · rw [eu, ep]
    refine (comp_continuity A C D1 D solve bu bp _ i).1 ?_
    rcases hfit i with ⟨_, h⟩ | ⟨h, _⟩
    · exact h
    · rw [h] at hi; exact absurd hi (lt_irrefl 0)
  · have hc := comp_converges A hA hN C D1 D g hg hfit solve hsolve bu bp (u0, p0) us ps hs (k + 1) (by omega)
    dsimp only at hc
    rw [← h3] at hc
    refine le_trans hc ?_
    have : (2 : ℝ) ≤ ((k + 1 : ℕ) : ℝ) := by exact_mod_cast h1
    gcongr

/-! ### The start vector -/

theorem gather_spec {α : Type} (nodes : Nat) (unknown : Nat → Bool) (value : Nat → α) (s : (Nat → α) × Nat) :
    (gather nodes unknown value s).2 = s.2 + Nat.count (fun k => unknown k = true) nodes ∧
    (∀ kk < nodes, unknown kk = true →
      (gather nodes unknown value s).1 (s.2 + Nat.count (fun k => unknown k = true) kk) = value kk) ∧
    ∀ j < s.2, (gather nodes unknown value s).1 j = s.1 j := by
  induction nodes with
  | zero => exact ⟨by simp [gather], by simp, fun j _ => by simp [gather]⟩
  | succ N ih =>
    obtain ⟨h1, h2, h3⟩ := ih
    have e : gather (N + 1) unknown value s =
        if unknown N then (upd (gather N unknown value s).1 (gather N unknown value s).2 (value N),
          (gather N unknown value s).2 + 1) else gather N unknown value s := by
      unfold gather
      rw [forUp_succ]
    rw [e, Nat.count_succ]
    by_cases hN : unknown N = true
    · rw [if_pos hN, if_pos hN]
      dsimp only
      refine ⟨by rw [h1]; ring, fun kk hkk hu => ?_, fun j hj => ?_⟩
      · rcases Nat.lt_succ_iff_lt_or_eq.1 hkk with hlt | rfl
        · have hc : Nat.count (fun k => unknown k = true) kk < Nat.count (fun k => unknown k = true) N :=
            Nat.count_strict_mono hu hlt
          rw [upd_ne _ _ (by rw [h1]; omega)]
          exact h2 kk hlt hu
        · rw [← h1, upd_same]
      · rw [upd_ne _ _ (by rw [h1]; omega)]
        exact h3 j hj
    · rw [if_neg hN, if_neg hN]
      refine ⟨by rw [h1]; ring, fun kk hkk hu => ?_, h3⟩
      rcases Nat.lt_succ_iff_lt_or_eq.1 hkk with hlt | rfl
      · exact h2 kk hlt hu
      · exact absurd hu hN

/-- Number of unknown velocity nodes before node `kk`. -/
def rank (tag : Nat → Int) (kk : Nat) : Nat := Nat.count (fun k => unknownV (tag k) = true) kk

/-- Horizontal velocities start from the present horizontal velocity of their own node. -/
theorem start_vx_partial {α : Type} (Nx Nz : Nat) (tagU tagV : Nat → Int) (uIn u0 : Nat → α) (kk : Nat)
    (hkk : kk < Nx * (Nz + 1)) (hu : unknownV (tagU kk) = true) :
    startU Nx Nz tagU tagV uIn u0 (rank tagU kk) = uIn kk := by
  unfold startU
  set s := gather (Nx * (Nz + 1)) (fun kk => unknownV (tagU kk)) uIn (u0, 0) with hs
  obtain ⟨a1, a2, _⟩ := gather_spec (Nx * (Nz + 1)) (fun kk => unknownV (tagU kk)) uIn (u0, 0)
  have hc : rank tagU kk < s.2 := by
    rw [hs, a1]
    have := Nat.count_strict_mono (p := fun k => unknownV (tagU k) = true) hu hkk
    unfold rank
    omega
  rw [(gather_spec _ _ _ s).2.2 _ hc, hs]
  have := a2 kk hkk hu
  rwa [Nat.zero_add] at this

/-- Vertical velocities start from the entry of the array of horizontal velocities that happens to have the
number of their node. -/
theorem start_vz {α : Type} (Nx Nz : Nat) (tagU tagV : Nat → Int) (uIn u0 : Nat → α) (kk : Nat)
    (hkk : kk < (Nx + 1) * Nz) (hv : unknownV (tagV kk) = true) :
    startU Nx Nz tagU tagV uIn u0 (rank tagU (Nx * (Nz + 1)) + rank tagV kk) = uIn kk := by
  unfold startU
  set s := gather (Nx * (Nz + 1)) (fun kk => unknownV (tagU kk)) uIn (u0, 0) with hs
  obtain ⟨a1, _, _⟩ := gather_spec (Nx * (Nz + 1)) (fun kk => unknownV (tagU kk)) uIn (u0, 0)
  have h2 : s.2 = rank tagU (Nx * (Nz + 1)) := by rw [hs, a1, Nat.zero_add]; rfl
  have := (gather_spec ((Nx + 1) * Nz) (fun kk => unknownV (tagV kk)) uIn s).2.1 kk hkk hv
  rw [h2] at this
  exact this

/-- Hence a vertical velocity starts from its present value only by coincidence. -/
theorem start_vz_not_present {α : Type} (Nx Nz : Nat) (tagU tagV : Nat → Int) (uIn vIn u0 : Nat → α)
    (kk : Nat) (hkk : kk < (Nx + 1) * Nz) (hv : unknownV (tagV kk) = true) (hne : uIn kk ≠ vIn kk) :
    startU Nx Nz tagU tagV uIn u0 (rank tagU (Nx * (Nz + 1)) + rank tagV kk) ≠ vIn kk := by
  rw [start_vz Nx Nz tagU tagV uIn u0 kk hkk hv]
  exact hne

/-- In a grid with at least `2 Nx + 3` rows there is an interior vertical velocity whose start value lies
behind the end of the array of horizontal velocities: it can be anything, whatever the flow. -/
theorem start_vz_outside (Nx Nz : Nat) (hx : 2 ≤ Nx) (hz : 2 * Nx + 3 ≤ Nz) (tagU tagV : Nat → Int)
    (hv : unknownV (tagV ((Nx - 1) + (Nz - 2) * (Nx + 1))) = true) (uIn u0 : Nat → ℝ) (x : ℝ) :
    ∃ uIn' : Nat → ℝ, (∀ i < Nx * (Nz + 1), uIn' i = uIn i) ∧
      startU Nx Nz tagU tagV uIn' u0
        (rank tagU (Nx * (Nz + 1)) + rank tagV ((Nx - 1) + (Nz - 2) * (Nx + 1))) = x := by
  obtain ⟨a, rfl⟩ : ∃ a, Nx = a + 1 := ⟨Nx - 1, by omega⟩
  obtain ⟨c, rfl⟩ : ∃ c, Nz = c + 2 := ⟨Nz - 2, by omega⟩
  have hout : (a + 1) * (c + 2 + 1) ≤ (a + 1 - 1) + (c + 2 - 2) * (a + 1 + 1) := by
    simp only [Nat.add_sub_cancel]
    nlinarith
  have hin : (a + 1 - 1) + (c + 2 - 2) * (a + 1 + 1) < (a + 1 + 1) * (c + 2) := by
    simp only [Nat.add_sub_cancel]
    nlinarith
  refine ⟨upd uIn ((a + 1 - 1) + (c + 2 - 2) * (a + 1 + 1)) x, fun i hi => upd_ne _ _ (by omega), ?_⟩
  rw [start_vz _ _ tagU tagV _ u0 _ hin hv, upd_same]

/-! ### Choice of the solver -/

/-- After the input has been read the direct solver is never chosen, and the coupled Krylov solver and the
compressible direct solver only in runs without Newton iterations and without anisotropy. -/
theorem chosen_after_reading (s s' : Config.Switches) (h : Config.resolve s = some s') :
    chosen s'.linSolver ≠ some .direct ∧
      (chosen s'.linSolver = some .krylov ∨ chosen s'.linSolver = some .comp →
        s'.newton ≠ 1 ∧ s'.anisotropy ≠ 1) := by
  have key : s'.linSolver ≠ 0 ∧ (s'.linSolver ≠ 2 → s'.newton ≠ 1 ∧ s'.anisotropy ≠ 1) := by
    unfold Config.resolve at h
    dsimp only at h
    split_ifs at h
    simp only [Option.some.injEq] at h
    rw [← h]
    unfold Config.fixSolver
    split_ifs with hc
    · exact ⟨by norm_num, fun h2 => absurd rfl h2⟩
    · push Not at hc
      exact ⟨hc.1, fun _ => hc.2⟩
  constructor
  · intro hd
    unfold chosen at hd
    rw [if_neg key.1] at hd
    split_ifs at hd <;> simp at hd
  · intro hd
    refine key.2 fun h2 => ?_
    rw [h2] at hd
    simp [chosen] at hd

/-- A number other than -1, 0, 1 and 2 chooses no solver: the correction is zero and no velocity or pressure
changes, whatever is left over of the equations. -/
theorem unknown_number_no_change (linSolver : Int) (h : linSolver ∉ ({-1, 0, 1, 2} : Finset Int))
    (result : Solver → Nat → ℝ) (nodes : Nat) (filter : Int → Bool) (tag : Nat → Int) (eqn : Nat → Int)
    (heqn : ∀ cc < nodes, filter (tag cc) = true → 0 ≤ eqn cc) (oob alpha : ℝ) (f : Nat → ℝ) :
    addIncrement nodes filter tag eqn oob (correction linSolver result) alpha f = f := by
  have hc : correction linSolver result = fun _ => (0 : ℝ) := by
    have : chosen linSolver = none := by
      simp only [Finset.mem_insert, Finset.mem_singleton, not_or] at h
      unfold chosen
      rw [if_neg h.2.1, if_neg h.2.2.1, if_neg h.2.2.2, if_neg h.1]
    unfold correction
    rw [this]
  rw [hc]
  unfold addIncrement
  refine forUp_inv (P := fun _ (a : Nat → ℝ) => a = f) nodes rfl ?_
  intro k a hk ha
  subst ha
  funext j
  by_cases hj : j = k
  · subst hj
    rw [upd_same]
    split_ifs with hf
    · unfold readI
      rw [if_pos (heqn j hk hf)]
      ring
    · rfl
  · rw [upd_ne _ _ hj]

/-! ### Concrete cases -/

theorem one_nonneg : NonNeg one11 := by
  intro w
  simp [one11]
  exact mul_self_nonneg _

/-- One velocity and one compressible cell: one iteration of the Krylov solver gives the solution from any
start vector that is not the solution. -/
example : ∃ u p, kspStokes (n := 1) (m := 0) one11 (minusTranspose one11) one11 (fun _ => 1 / 2) (fun _ => 2)
      (solve1 2) (1 / 10000) (fun _ => -1) (fun _ => 0) (fun _ => 2) (fun _ => 0) = some (u, p) ∧
    Saddle (n := 1) (m := 1) one11 (minusTranspose one11) one11 (fun _ => 1 / 2) (fun _ => -1) (fun _ => 2)
      u p :=
  compressible_one_iteration (n := 1) (m := 0) one11 one_symm one11 _ _ (fun _ => by norm_num) _
    (solve1_exact 2 (by norm_num)) _ (by norm_num) _ _ _ _
    (by
      intro h
      have := h.2 0
      simp [one11] at this)

/-- The same run satisfies the hypothesis of `returned_no_worse_partial`. -/
example : ∃ u p, leftOver (n := 1) (m := 0) one11 (minusTranspose one11) one11 (fun _ => 1 / 2) (fun _ => -1)
      (fun _ => 2) u p ≤
    leftOver (n := 1) (m := 0) one11 (minusTranspose one11) one11 (fun _ => 1 / 2) (fun _ => -1) (fun _ => 2)
      (fun _ => 0) (fun _ => 0) := by
  obtain ⟨u, p, h, _⟩ := compressible_one_iteration (n := 1) (m := 0) one11 one_symm one11 (fun _ => 1 / 2)
    (fun _ => 2) (fun _ => by norm_num) _
    (solve1_exact 2 (by norm_num)) (1 / 10000) (by norm_num) (fun _ => -1) (fun _ => 0) (fun _ => 2)
    (fun _ => 0)
    (by
      intro h
      have := h.2 0
      simp [one11] at this)
  exact ⟨u, p, returned_no_worse_partial _ _ _ _ _ _ _ _ _ _ _ _ _ h⟩

/-- One velocity and one incompressible cell with penalty ten: the direct solver accepts a flow that balances
the momentum equation and whose divergence obeys the bound. -/
example : ∃ u p, compStokes (n := 1) (m := 0) one11 one11 (fun _ => 0) (fun _ => 10) (solve1 10) (1 / 10)
      (1 / 1000) (fun _ => -1) (fun _ => 0) (fun _ => 2) (fun _ => 0) = some (u, p) ∧
    (∀ i, momLeft (n := 1) (m := 1) one11 (minusTranspose one11) (fun _ => -1) u p i = 0) ∧
    len (contLeft (n := 1) (m := 1) one11 (fun _ => 0) (fun _ => 2) u p) ^ 2 ≤
      len ((fun _ => 0) - (fun _ => 3) : Vec 1) ^ 2 / (2 * 10 ^ 2) := by
  have hs : Saddle (n := 1) (m := 1) one11 (minusTranspose one11) one11 (fun _ => 0) (fun _ => -1) (fun _ => 2)
      (fun _ => 2) (fun _ => 3) := by
    constructor
    · intro i; simp [one11, minusTranspose]; norm_num
    · intro i; simp [one11]
  have hfit : Fit (m := 0) (fun _ => 0) (fun _ => 10) 10 := fun _ => Or.inr ⟨rfl, rfl⟩
  have hlen : len ((fun _ => 0) - (fun _ => 3) : Vec 1) ^ 2 = 9 := by
    unfold len
    rw [Real.sq_sqrt (Finset.sum_nonneg fun i _ => sq_nonneg _)]
    simp
    norm_num
  obtain ⟨u, p, h⟩ := comp_accepts (n := 1) (m := 0) one11 one_symm one_nonneg one11 _ _ 10 (by norm_num) hfit _
    (solve1_exact 10 (by norm_num)) (1 / 10) (1 / 1000) (fun _ => -1) (fun _ => 0) (fun _ => 2) (fun _ => 0) _ _
    hs (by norm_num) (by
      have e : len ((fun _ => 0) - (fun _ => 3) : Vec (0 + 1)) ^ 2 = 9 := hlen
      rw [e]; norm_num)
  have hr := comp_result (n := 1) (m := 0) one11 one_symm one_nonneg one11 _ _ 10 (by norm_num) hfit _
    (solve1_exact 10 (by norm_num)) _ _ _ _ _ _ _ _ hs u p h
  exact ⟨u, p, h, hr.1, hr.2.2⟩

/-- A grid of two by seven nodes with every interior vertical velocity unknown meets the hypotheses of
`start_vz_outside`. -/
example : unknownV ((fun _ => -1 : Nat → Int) ((2 - 1) + (7 - 2) * (2 + 1))) = true ∧ 2 * 2 + 3 ≤ 7 := by
  decide

/-- Input asking for the coupled Krylov solver in a Picard run keeps it; asking for solver 5 is kept too and
chooses nothing. -/
example : ∃ s', Config.resolve ⟨0, 0, 9, 0, 0, 0, 0, 0, 0, 0, 1⟩ = some s' ∧ chosen s'.linSolver = some .krylov :=
  ⟨_, rfl, rfl⟩

example : ∃ s', Config.resolve ⟨0, 0, 9, 0, 0, 0, 0, 0, 0, 0, 5⟩ = some s' ∧ chosen s'.linSolver = none :=
  ⟨_, rfl, rfl⟩

end Verif.Coupled
