import Verif.Spec.Sparse

/- C11: diagonal scaling of the Stokes system does not change its solutions. -/
namespace Verif.Sparse
open Verif Finset

variable {K : Type*} [Field K]

theorem ptr_mono {neq : Nat} {Ic : Nat → Nat} (h : RowPtrOK neq Ic) {i j : Nat} (hij : i ≤ j)
    (hj : j ≤ neq) : Ic i ≤ Ic j := by
  induction j with
  | zero => have : i = 0 := by omega
            subst this; exact le_refl _
  | succ j ih =>
    rcases Nat.lt_or_ge i (j + 1) with h1 | h1
    · exact le_trans (ih (by omega) (by omega)) (h j (by omega))
    · have : i = j + 1 := by omega
      subst this; exact le_refl _

/-- Every stored coefficient of the first `n` rows is scaled exactly once, by the factors of its
own row and column; nothing else changes. -/
theorem scaleCoeffs_spec (M : SparseMat K) (n : Nat) (dr dc : Nat → K) (h : RowPtrOK n M.Ic) :
    ∀ i < n, ∀ k, M.Ic i ≤ k → k < M.Ic (i + 1) →
      scaleCoeffs M n dr dc k = M.A k * (dr i * dc (M.J k)) := by
  have inner : ∀ (a : Nat → K) (i m : Nat) (k : Nat),
      forUp m a (fun a J1 =>
        upd a (M.Ic i + J1) (a (M.Ic i + J1) * (dr i * dc (M.J (M.Ic i + J1))))) k =
      if M.Ic i ≤ k ∧ k < M.Ic i + m then a k * (dr i * dc (M.J k)) else a k := by
    intro a i m k
    induction m with
    | zero =>
      rw [if_neg (by omega)]; rfl
    | succ m ih =>
      rw [forUp_succ]
      by_cases hk : k = M.Ic i + m
      · subst hk
        have e1 : ¬ (M.Ic i ≤ M.Ic i + m ∧ M.Ic i + m < M.Ic i + m) := by omega
        have e2 : (M.Ic i ≤ M.Ic i + m ∧ M.Ic i + m < M.Ic i + (m + 1)) := by omega
        rw [upd_same, ih, if_neg e1, if_pos e2]
      · rw [upd_ne _ _ hk, ih]
        by_cases h1 : M.Ic i ≤ k ∧ k < M.Ic i + m
        · have : M.Ic i ≤ k ∧ k < M.Ic i + (m + 1) := by omega
          rw [if_pos h1, if_pos this]
        · have : ¬ (M.Ic i ≤ k ∧ k < M.Ic i + (m + 1)) := by omega
          rw [if_neg h1, if_neg this]
  have key := forUp_inv (s := M.A) (f := fun a i =>
      forUp (M.Ic (i + 1) - M.Ic i) a fun a J1 =>
        upd a (M.Ic i + J1) (a (M.Ic i + J1) * (dr i * dc (M.J (M.Ic i + J1)))))
    (P := fun m a => (∀ i < m, ∀ k, M.Ic i ≤ k → k < M.Ic (i + 1) →
        a k = M.A k * (dr i * dc (M.J k))) ∧ ∀ k, M.Ic m ≤ k → a k = M.A k) n
    ⟨fun i hi => absurd hi (Nat.not_lt_zero i), fun _ _ => rfl⟩ ?_
  · exact key.1
  · intro m a hm ⟨h1, h2⟩
    have hle := h m hm
    refine ⟨?_, ?_⟩
    · intro i hi k hk1 hk2
      rw [inner]
      rcases Nat.lt_or_ge i m with hlt | hge
      · have : M.Ic (i + 1) ≤ M.Ic m := ptr_mono h (by omega) (by omega)
        rw [if_neg (by omega)]
        exact h1 i hlt k hk1 hk2
      · have : i = m := by omega
        subst this
        rw [if_pos (by omega), h2 k hk1]
    · intro k hk
      rw [inner, if_neg (by omega)]
      exact h2 k (by omega)

theorem scaleVec_spec (n : Nat) (d v : Nat → K) {i : Nat} (hi : i < n) :
    scaleVec n d v i = v i * d i := by
  unfold scaleVec
  rw [forUp_pointwise n v (fun i x => x * d i) i, if_pos hi]

theorem scaleBack_vel (S : Blocks K) (x : Nat → K) {k : Nat} (hk : k < S.A.neq) :
    scaleBack S x k = x k * S.A.d k := by
  unfold scaleBack
  have : ∀ m (y : Nat → K), forUp m y (fun x k => upd x (S.A.neq + k) (x (S.A.neq + k) * S.D.d k)) k
      = y k := by
    intro m y
    induction m with
    | zero => rfl
    | succ m ih => rw [forUp_succ, upd_ne _ _ (by omega), ih]
  simp only [this]
  rw [forUp_pointwise S.A.neq x (fun k y => y * S.A.d k) k, if_pos hk]

theorem scaleBack_p (S : Blocks K) (x : Nat → K) {k : Nat} (hk : k < S.D.neq) :
    scaleBack S x (S.A.neq + k) = x (S.A.neq + k) * S.D.d k := by
  unfold scaleBack
  have aux : ∀ m (y : Nat → K),
      forUp m y (fun x k => upd x (S.A.neq + k) (x (S.A.neq + k) * S.D.d k)) (S.A.neq + k)
      = if k < m then y (S.A.neq + k) * S.D.d k else y (S.A.neq + k) := by
    intro m y
    induction m with
    | zero => simp
    | succ m ih =>
      rw [forUp_succ]
      by_cases h : k = m
      · subst h; simp [ih]
      · rw [upd_ne _ _ (by omega), ih]
        by_cases h1 : k < m
        · simp [h1, Nat.lt_succ_of_lt h1]
        · have : ¬ k < m + 1 := by omega
          simp [h1, this]
  simp only [aux, if_pos hk]
  congr 1
  rw [forUp_pointwise S.A.neq x (fun k y => y * S.A.d k) _, if_neg (by omega)]

/-- Scaled row times vector = row factor times (unscaled row times scaled vector). -/
theorem rowDot_scaled (M : SparseMat K) (n : Nat) (dr dc x y : Nat → K) (h : RowPtrOK n M.Ic)
    {i : Nat} (hi : i < n)
    (hy : ∀ k, M.Ic i ≤ k → k < M.Ic (i + 1) → y (M.J k) = x (M.J k) * dc (M.J k)) :
    rowDot (scaleBlock M n dr dc) x i = dr i * rowDot M y i := by
  unfold rowDot
  rw [mul_sum]
  refine sum_congr rfl fun k hk => ?_
  have hk := mem_Ico.mp hk
  show scaleCoeffs M n dr dc k * x (M.J k) = _
  rw [scaleCoeffs_spec M n dr dc h i hi k hk.1 hk.2, hy k hk.1 hk.2]
  ring

/-- C11 (any right-hand side).  With non-vanishing factors, a vector solves the scaled system for
the scaled right-hand side iff the vector multiplied back solves the original system.  The defect
correction (`SolveStokesDefectDecoupled`, right-hand side `F` scaled at StokesRoutines.c:858, 872,
887) and the direct solve (right-hand side `b`) are instances. -/
theorem scaled_rhs_equivalent (S : Blocks K) (wf : WellFormed S)
    (hA : ∀ i < S.A.neq, S.A.d i ≠ 0) (hD : ∀ i < S.C.neq, S.D.d i ≠ 0)
    (f g f' g' : Nat → K) (hf : ∀ i < S.A.neq, f' i = f i * S.A.d i)
    (hg : ∀ i < S.C.neq, g' i = g i * S.D.d i) (x : Nat → K) :
    Solves (scaleMatrix S) f' g' x ↔ Solves S f g (scaleBack S x) := by
  have ptrD : RowPtrOK S.C.neq S.D.Ic := wf.rowsD ▸ wf.ptrD
  have e1 : ∀ i < S.A.neq, rowDot (scaleMatrix S).A x i
      = S.A.d i * rowDot S.A (scaleBack S x) i := fun i hi =>
    rowDot_scaled S.A S.A.neq _ _ _ _ wf.ptrA hi fun k h1 h2 =>
      scaleBack_vel S x (wf.colA i hi k h1 h2)
  have e2 : ∀ i < S.A.neq, rowDot (scaleMatrix S).B (fun j => x (S.A.neq + j)) i
      = S.A.d i * rowDot S.B (fun j => scaleBack S x (S.A.neq + j)) i := fun i hi =>
    rowDot_scaled S.B S.B.neq _ _ _ _ wf.ptrB (wf.rowsB ▸ hi) fun k h1 h2 =>
      scaleBack_p S x (wf.rowsD.symm ▸ wf.colB i (wf.rowsB ▸ hi) k h1 h2)
  have e3 : ∀ i < S.C.neq, rowDot (scaleMatrix S).C x i
      = S.D.d i * rowDot S.C (scaleBack S x) i := fun i hi =>
    rowDot_scaled S.C S.C.neq _ _ _ _ wf.ptrC hi fun k h1 h2 =>
      scaleBack_vel S x (wf.colC i hi k h1 h2)
  have e4 : ∀ i < S.C.neq, rowDot (scaleMatrix S).D (fun j => x (S.A.neq + j)) i
      = S.D.d i * rowDot S.D (fun j => scaleBack S x (S.A.neq + j)) i := fun i hi =>
    rowDot_scaled S.D S.C.neq _ _ _ _ ptrD hi fun k h1 h2 =>
      scaleBack_p S x (wf.rowsD.symm ▸ wf.colD i (wf.rowsD ▸ hi) k h1 h2)
  unfold Solves
  refine and_congr (forall₂_congr fun i hi => ?_) (forall₂_congr fun i hi => ?_)
  · show rowDot (scaleMatrix S).A x i + rowDot (scaleMatrix S).B (fun j => x (S.A.neq + j)) i = _ ↔ _
    rw [e1 i hi, e2 i hi, hf i hi, ← mul_add, mul_comm (f i)]
    exact mul_right_inj' (hA i hi)
  · show rowDot (scaleMatrix S).C x i + rowDot (scaleMatrix S).D (fun j => x (S.A.neq + j)) i = _ ↔ _
    rw [e3 i hi, e4 i hi, hg i hi, ← mul_add, mul_comm (g i)]
    exact mul_right_inj' (hD i hi)

/-- C11 (solutions).  If the scaling factors do not vanish and the C and D blocks carry the same
row factors (as `ExtractDiagonalScale` guarantees), a vector solves the system produced by
`ScaleMatrix` iff the vector multiplied back by `ScaleVelocitiesRHSBack` solves the original
system. -/
theorem scaled_system_equivalent (S : Blocks K) (wf : WellFormed S)
    (hA : ∀ i < S.A.neq, S.A.d i ≠ 0) (hD : ∀ i < S.C.neq, S.D.d i ≠ 0)
    (hCD : ∀ i < S.C.neq, S.C.d i = S.D.d i) (x : Nat → K) :
    Solves (scaleMatrix S) (scaleMatrix S).A.b (scaleMatrix S).C.b x ↔
      Solves S S.A.b S.C.b (scaleBack S x) :=
  scaled_rhs_equivalent S wf hA hD _ _ _ _ (fun _ hi => scaleVec_spec _ _ _ hi)
    (fun i hi => by rw [← hCD i hi]; exact scaleVec_spec _ _ _ hi) x

/-- C11 (converse direction): every solution of the original system is obtained this way. -/
theorem unscaled_solution_reached (S : Blocks K) (wf : WellFormed S)
    (hA : ∀ i < S.A.neq, S.A.d i ≠ 0) (hD : ∀ i < S.C.neq, S.D.d i ≠ 0)
    (hCD : ∀ i < S.C.neq, S.C.d i = S.D.d i) (y : Nat → K) (hy : Solves S S.A.b S.C.b y) :
    ∃ x, Solves (scaleMatrix S) (scaleMatrix S).A.b (scaleMatrix S).C.b x ∧
      ∀ k < S.A.neq + S.C.neq, scaleBack S x k = y k := by
  let x : Nat → K := fun k =>
    if k < S.A.neq then y k / S.A.d k else y k / S.D.d (k - S.A.neq)
  have hx : ∀ k < S.A.neq + S.C.neq, scaleBack S x k = y k := by
    intro k hk
    by_cases h : k < S.A.neq
    · rw [scaleBack_vel S x h]
      simp only [x, if_pos h]
      exact div_mul_cancel₀ _ (hA k h)
    · obtain ⟨j, rfl⟩ := Nat.exists_eq_add_of_le (Nat.le_of_not_lt h)
      have hj : j < S.C.neq := by omega
      rw [scaleBack_p S x (wf.rowsD.symm ▸ hj)]
      simp only [x, if_neg h, Nat.add_sub_cancel_left]
      exact div_mul_cancel₀ _ (hD j hj)
  refine ⟨x, (scaled_system_equivalent S wf hA hD hCD x).mpr ?_, hx⟩
  have r : ∀ (M : SparseMat K) (i : Nat) (u v : Nat → K),
      (∀ k, M.Ic i ≤ k → k < M.Ic (i + 1) → u (M.J k) = v (M.J k)) → rowDot M u i = rowDot M v i :=
    fun M i u v h => sum_congr rfl fun k hk => by
      rw [h k (mem_Ico.mp hk).1 (mem_Ico.mp hk).2]
  refine ⟨fun i hi => ?_, fun i hi => ?_⟩
  · rw [← hy.1 i hi, r S.A i _ y fun k h1 h2 => hx _ (by have := wf.colA i hi k h1 h2; omega),
      r S.B i _ (fun j => y (S.A.neq + j)) fun k h1 h2 => hx _ (by
        have := wf.colB i (wf.rowsB ▸ hi) k h1 h2; omega)]
  · rw [← hy.2 i hi, r S.C i _ y fun k h1 h2 => hx _ (by have := wf.colC i hi k h1 h2; omega),
      r S.D i _ (fun j => y (S.A.neq + j)) fun k h1 h2 => hx _ (by
        have := wf.colD i (wf.rowsD ▸ hi) k h1 h2; omega)]

/-- Entries of the scaled velocity block. -/
theorem entry_scaled (M : SparseMat K) (n : Nat) (dr dc : Nat → K) (h : RowPtrOK n M.Ic)
    {i : Nat} (hi : i < n) (j : Nat) :
    entry (scaleBlock M n dr dc) i j = dr i * entry M i j * dc j := by
  unfold entry
  rw [mul_sum, sum_mul]
  refine sum_congr rfl fun k hk => ?_
  have hk := mem_Ico.mp hk
  show (if M.J k = j then scaleCoeffs M n dr dc k else 0) = _
  by_cases hj : M.J k = j
  · rw [if_pos hj, if_pos hj, scaleCoeffs_spec M n dr dc h i hi k hk.1 hk.2, hj]; ring
  · rw [if_neg hj, if_neg hj]; ring

/-- C11 (symmetry).  Scaling preserves the symmetry of the velocity block. -/
theorem scaling_preserves_symmetry (S : Blocks K) (wf : WellFormed S)
    (sym : ∀ i < S.A.neq, ∀ j < S.A.neq, entry S.A i j = entry S.A j i) :
    ∀ i < S.A.neq, ∀ j < S.A.neq,
      entry (scaleMatrix S).A i j = entry (scaleMatrix S).A j i := by
  intro i hi j hj
  show entry (scaleBlock S.A S.A.neq S.A.d S.A.d) i j = entry (scaleBlock S.A S.A.neq S.A.d S.A.d) j i
  rw [entry_scaled _ _ _ _ wf.ptrA hi, entry_scaled _ _ _ _ wf.ptrA hj, sym i hi j hj]
  ring

/-- C11 (block transposes): if the gradient block is minus the transpose of the divergence block it
stays so after scaling. -/
theorem scaling_preserves_transpose (S : Blocks K) (wf : WellFormed S)
    (h : ∀ i < S.A.neq, ∀ j < S.C.neq, entry S.B i j = - entry S.C j i) :
    ∀ i < S.A.neq, ∀ j < S.C.neq, entry (scaleMatrix S).B i j = - entry (scaleMatrix S).C j i := by
  intro i hi j hj
  show entry (scaleBlock S.B S.B.neq S.A.d S.D.d) i j
    = - entry (scaleBlock S.C S.C.neq S.D.d S.A.d) j i
  rw [entry_scaled _ _ _ _ wf.ptrB (wf.rowsB ▸ hi), entry_scaled _ _ _ _ wf.ptrC hj, h i hi j hj]
  ring

omit [Field K] in
/-- Row scan of `ExtractDiagonalScale`. -/
theorem diagOfRow_spec (M : SparseMat K) (d : Nat → K) (i : Nat) (hp : M.Ic i ≤ M.Ic (i + 1)) :
    (∀ j, j ≠ i → diagOfRow M d i j = d j) ∧
    (∀ k, M.Ic i ≤ k → k < M.Ic (i + 1) → M.J k = i →
      (∀ k', M.Ic i ≤ k' → k' < M.Ic (i + 1) → M.J k' = i → k' = k) → diagOfRow M d i i = M.A k) ∧
    ((∀ k, M.Ic i ≤ k → k < M.Ic (i + 1) → M.J k ≠ i) → diagOfRow M d i i = d i) := by
  have fr : ∀ m j, j ≠ i → forUp m d (fun d J1 =>
      if i = M.J (M.Ic i + J1) then upd d i (M.A (M.Ic i + J1)) else d) j = d j := by
    intro m j hj
    induction m with
    | zero => rfl
    | succ m ih =>
      rw [forUp_succ]
      split
      · rw [upd_ne _ _ hj, ih]
      · exact ih
  have no : ∀ m, (∀ l < m, M.J (M.Ic i + l) ≠ i) → forUp m d (fun d J1 =>
      if i = M.J (M.Ic i + J1) then upd d i (M.A (M.Ic i + J1)) else d) i = d i := by
    intro m
    induction m with
    | zero => intro _; rfl
    | succ m ih =>
      intro h
      rw [forUp_succ, if_neg (fun e => h m (by omega) e.symm)]
      exact ih fun l hl => h l (by omega)
  refine ⟨fun j hj => fr _ j hj, ?_, fun h => no _ fun l hl => h _ (by omega) (by omega)⟩
  intro k h1 h2 hk huniq
  unfold diagOfRow
  obtain ⟨l0, rfl⟩ := Nat.exists_eq_add_of_le h1
  have : ∀ m, m ≤ M.Ic (i + 1) - M.Ic i → l0 < m → forUp m d (fun d J1 =>
      if i = M.J (M.Ic i + J1) then upd d i (M.A (M.Ic i + J1)) else d) i = M.A (M.Ic i + l0) := by
    intro m
    induction m with
    | zero => intro _ h; omega
    | succ m ih =>
      intro hm hl
      rw [forUp_succ]
      by_cases e : i = M.J (M.Ic i + m)
      · rw [if_pos e, upd_same, huniq (M.Ic i + m) (by omega) (by omega) e.symm]
      · rw [if_neg e]
        refine ih (by omega) ?_
        rcases Nat.lt_or_ge l0 m with h | h
        · exact h
        · have : l0 = m := by omega
          subst this; exact absurd hk.symm e
  exact this _ (le_refl _) (by omega)

omit [Field K] in
/-- The row loop of `ExtractDiagonalScale`: row `i` gets what its own scan finds, and the partner
block gets a copy. -/
theorem extractLoop_spec (M : SparseMat K) (dc : Nat → K) (hp : RowPtrOK M.neq M.Ic) :
    ∀ i < M.neq, (extractLoop M dc).1 i = diagOfRow M M.d i i ∧
      (extractLoop M dc).2 i = (extractLoop M dc).1 i := by
  have only : ∀ (d : Nat → K) i, i < M.neq → d i = M.d i → diagOfRow M d i i = diagOfRow M M.d i i := by
    intro d i _ h
    unfold diagOfRow
    suffices ∀ m, forUp m d (fun d J1 =>
      if i = M.J (M.Ic i + J1) then upd d i (M.A (M.Ic i + J1)) else d) i = forUp m M.d (fun d J1 =>
      if i = M.J (M.Ic i + J1) then upd d i (M.A (M.Ic i + J1)) else d) i from this _
    intro m
    induction m with
    | zero => exact h
    | succ m ih =>
      rw [forUp_succ, forUp_succ]
      by_cases e : i = M.J (M.Ic i + m)
      · rw [if_pos e, if_pos e, upd_same, upd_same]
      · rw [if_neg e, if_neg e, ih]
  have key := forUp_inv (s := (M.d, dc)) (f := fun (s : (Nat → K) × (Nat → K)) i =>
      let d := diagOfRow M s.1 i
      (d, upd s.2 i (d i)))
    (P := fun m s => (∀ i < m, s.1 i = diagOfRow M M.d i i ∧ s.2 i = s.1 i) ∧
      ∀ i, m ≤ i → s.1 i = M.d i) M.neq
    ⟨fun i hi => absurd hi (Nat.not_lt_zero i), fun _ _ => rfl⟩ ?_
  · exact key.1
  · intro m s hm ⟨h1, h2⟩
    have hf := (diagOfRow_spec M s.1 m (hp m hm)).1
    refine ⟨fun i hi => ?_, fun i hi => ?_⟩
    · show diagOfRow M s.1 m i = _ ∧ upd s.2 m (diagOfRow M s.1 m m) i = diagOfRow M s.1 m i
      by_cases h : i = m
      · subst h
        exact ⟨only _ _ hm (h2 i (le_refl _)), by rw [upd_same]⟩
      · rw [hf i h, upd_ne _ _ h]
        exact h1 i (by omega)
    · show diagOfRow M s.1 m i = _
      rw [hf i (by omega)]
      exact h2 i (by omega)

/-- C11 (choice of the factors).  `ExtractDiagonalScale` makes the row factors of the C and D
blocks agree, takes as velocity factor the diagonal coefficient of the velocity block, and keeps
the initial factor of a pressure row that has no diagonal coefficient. -/
theorem extracted_factors (S : Blocks K) (wf : WellFormed S) :
    (∀ i < S.C.neq, (extractDiagonalScale S).C.d i = (extractDiagonalScale S).D.d i) ∧
    (∀ i < S.A.neq, ∀ k, S.A.Ic i ≤ k → k < S.A.Ic (i + 1) → S.A.J k = i →
      (∀ k', S.A.Ic i ≤ k' → k' < S.A.Ic (i + 1) → S.A.J k' = i → k' = k) →
      (extractDiagonalScale S).A.d i = S.A.A k) ∧
    (∀ i < S.C.neq, (∀ k, S.D.Ic i ≤ k → k < S.D.Ic (i + 1) → S.D.J k ≠ i) →
      (extractDiagonalScale S).D.d i = S.D.d i) := by
  refine ⟨fun i hi => ?_, fun i hi k h1 h2 h3 h4 => ?_, fun i hi h => ?_⟩
  · exact (extractLoop_spec S.D S.C.d wf.ptrD i (wf.rowsD ▸ hi)).2
  · show (extractLoop S.A S.B.d).1 i = _
    rw [(extractLoop_spec S.A S.B.d wf.ptrA i hi).1]
    exact (diagOfRow_spec S.A S.A.d i (wf.ptrA i hi)).2.1 k h1 h2 h3 h4
  · show (extractLoop S.D S.C.d).1 i = _
    rw [(extractLoop_spec S.D S.C.d wf.ptrD i (wf.rowsD ▸ hi)).1]
    exact (diagOfRow_spec S.D S.D.d i (wf.ptrD i (wf.rowsD ▸ hi))).2.2 h

/-- Main_DOODZ.c:766-772 with Newton == 0: `ExtractDiagonalScale` followed by `ScaleMatrix`, then
the linear solve, then `ScaleVelocitiesRHSBack`: any exact solve of the scaled system yields a
solution of the assembled system, whenever each velocity row has one non-zero diagonal
coefficient and the pressure block is empty with unit initial factors (the assembled case). -/
theorem picard_scaling_correct (S : Blocks K) (wf : WellFormed S)
    (hA : ∀ i < S.A.neq, ∃ k, S.A.Ic i ≤ k ∧ k < S.A.Ic (i + 1) ∧ S.A.J k = i ∧ S.A.A k ≠ 0 ∧
      ∀ k', S.A.Ic i ≤ k' → k' < S.A.Ic (i + 1) → S.A.J k' = i → k' = k)
    (hDempty : ∀ i < S.C.neq, S.D.Ic i = S.D.Ic (i + 1)) (hD1 : ∀ i < S.C.neq, S.D.d i = 1)
    (x : Nat → K) :
    Solves (scaleMatrix (extractDiagonalScale S)) (scaleMatrix (extractDiagonalScale S)).A.b
        (scaleMatrix (extractDiagonalScale S)).C.b x ↔
      Solves S S.A.b S.C.b (scaleBack (extractDiagonalScale S) x) := by
  have wf' : WellFormed (extractDiagonalScale S) :=
    ⟨wf.ptrA, wf.ptrB, wf.ptrC, wf.ptrD, wf.rowsB, wf.rowsD, wf.colA, wf.colB, wf.colC, wf.colD⟩
  obtain ⟨f1, f2, f3⟩ := extracted_factors S wf
  refine scaled_system_equivalent _ wf' ?_ ?_ f1 x
  · intro i hi
    obtain ⟨k, h1, h2, h3, h4, h5⟩ := hA i hi
    rw [f2 i hi k h1 h2 h3 h5]
    exact h4
  · intro i hi
    rw [f3 i hi (fun k h1 h2 => by have := hDempty i hi; omega), hD1 i hi]
    exact one_ne_zero

/-! A 2x2 velocity block with one pressure unknown meets the hypotheses. -/

/-- Example system `[[2,1,1],[1,3,-1],[-1,1,0]]`, `d` initially one everywhere. -/
def demo : Blocks ℚ :=
  { A := { neq := 2, Ic := fun i => 2 * i, J := fun k => k % 2,
           A := fun k => [2, 1, 1, 3].getD k 0, b := fun i => [4, 5].getD i 0, F := fun _ => 0,
           d := fun _ => 1 }
    B := { neq := 2, Ic := fun i => i, J := fun _ => 0, A := fun k => [1, -1].getD k 0,
           b := fun _ => 0, F := fun _ => 0, d := fun _ => 1 }
    C := { neq := 1, Ic := fun i => 2 * i, J := fun k => k % 2, A := fun k => [-1, 1].getD k 0,
           b := fun _ => 7, F := fun _ => 0, d := fun _ => 1 }
    D := { neq := 1, Ic := fun _ => 0, J := fun _ => 0, A := fun _ => 0, b := fun _ => 0,
           F := fun _ => 0, d := fun _ => 1 } }

theorem demo_wf : WellFormed demo := by
  constructor <;> simp [demo, RowPtrOK] <;> omega

example (x : Nat → ℚ) :
    Solves (scaleMatrix (extractDiagonalScale demo)) (scaleMatrix (extractDiagonalScale demo)).A.b
        (scaleMatrix (extractDiagonalScale demo)).C.b x ↔
      Solves demo demo.A.b demo.C.b (scaleBack (extractDiagonalScale demo) x) := by
  refine picard_scaling_correct demo demo_wf ?_ (fun _ _ => rfl) (fun _ _ => rfl) x
  intro i hi
  have hi : i < 2 := hi
  interval_cases i
  · refine ⟨0, ?_⟩
    simp only [demo]
    refine ⟨by norm_num, by norm_num, by norm_num, by norm_num, fun k' h1 h2 h3 => by omega⟩
  · refine ⟨3, ?_⟩
    simp only [demo]
    refine ⟨by norm_num, by norm_num, by norm_num, by norm_num, fun k' h1 h2 h3 => by omega⟩

example : (extractDiagonalScale demo).A.d 0 = 2 ∧ (extractDiagonalScale demo).A.d 1 = 3 ∧
    (scaleMatrix (extractDiagonalScale demo)).A.A 1 = 6 := by decide +kernel

end Verif.Sparse
