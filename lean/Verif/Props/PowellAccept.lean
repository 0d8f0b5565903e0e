import Verif.Props.PowellDirect

set_option linter.unusedSectionVars false
set_option linter.unusedVariables false

/-
The acceptance test of the default Stokes solver looks at the largest residual with its sign, and at the
end only at the continuity equation: solutions far from satisfying the equations are accepted.
-/
namespace Verif.PH

open Matrix Ksp LinSpec Finset

/-- Two velocities and two incompressible cells, `u - p = bu`, `u = bp`, penalty 1. -/
noncomputable def twin : Sys 2 1 where
  A := 1
  B := -1
  C := 1
  Cpicard := 1
  D1 := fun _ => 0
  D := fun _ => 1
  W := fun _ => 1

/-- The default tolerances of the program (InputOutput.c:1100-1114). -/
noncomputable def defaults : Tol where
  absDiv := 1 / 10 ^ 9
  relDiv := 1 / 10 ^ 5
  absMom := 1 / 10 ^ 9
  relMom := 1 / 10 ^ 5
  relKsp := 1 / 10 ^ 4
  maxKsp := 100
  maxPH := 10

theorem twin_fit : Fit twin := fun i => by simp [twin]

theorem twin_matrix : velMatrix twin = !![2, 0; 0, 2] := by
  have e : velMatrix twin = 1 + 1 := by simp [velMatrix, schur, twin]
  rw [e]
  ext i j
  fin_cases i <;> fin_cases j <;> norm_num [Matrix.add_apply, Matrix.one_apply]

theorem maxVal_two (a b : ℝ) : maxVal (m := 1) ![a, b] = max a b := by
  unfold maxVal
  apply le_antisymm
  · refine Finset.sup'_le _ _ fun i _ => ?_
    fin_cases i
    · exact le_max_left _ _
    · exact le_max_right _ _
  · refine max_le ?_ ?_
    · exact Finset.le_sup' (![a, b] : Fin 2 → ℝ) (mem_univ (0 : Fin 2))
    · exact Finset.le_sup' (![a, b] : Fin 2 → ℝ) (mem_univ (1 : Fin 2))

/-- One iteration for the right-hand sides `bu = 0`, `bp = (0, -q)` from pressure `(0, a)`. -/
theorem twin_step (q a w : ℝ) (hw : a - q ≠ 2 * w) (k : Nat) (s : St 1 1) (hu : s.u = ![0, w])
    (hp : s.p = ![0, a]) :
    ∃ s', killerStep twin (fun r => ![r 0 / 2, r 1 / 2]) defaults ![0, 0] ![0, -q] k s = some s' ∧
      s'.u = ![0, (a - q) / 2] ∧ s'.p = ![0, (a - q) / 2] ∧ s'.fu = ![0, 0] ∧
      s'.fp = ![0, -(q + a) / 2] ∧ s'.maxdiv = max 0 (-(q + a) / 2) ∧ s'.maxru = 0 := by
  have hrhs : velRhs twin ![0, 0] ![0, -q] s.p = ![0, a - q] := by
    rw [hp]
    funext i
    fin_cases i <;> simp [velRhs, twin, neg_mulVec] <;> ring
  obtain ⟨st, hk, hsol, hits⟩ := exact_preconditioner (velMatrix twin) (fun r => ![r 0 / 2, r 1 / 2])
    (by
      intro r i
      rw [twin_matrix]
      fin_cases i <;> simp [Fin.sum_univ_two] <;> ring)
    (velRhs twin ![0, 0] ![0, -q] s.p) s.u defaults.relKsp (by norm_num [defaults]) defaults.maxKsp
    (by norm_num [defaults])
    (by
      rw [hrhs, hu, twin_matrix]
      intro h
      have := h 1
      simp [Fin.sum_univ_two] at this
      exact hw this.symm)
  have hx : st.x = ![0, (a - q) / 2] := by
    rw [hrhs, twin_matrix] at hsol
    funext i
    have h0 := hsol 0
    have h1 := hsol 1
    simp [Fin.sum_univ_two] at h0 h1
    fin_cases i
    · simpa using h0
    · simp; linarith
  have hnp : newPressure twin ![0, -q] ![0, (a - q) / 2] ![0, a] = ![0, (a - q) / 2] := by
    funext i
    fin_cases i <;> simp [newPressure, twin, neg_mulVec] <;> ring
  have hfp : contRes twin ![0, -q] ![0, (a - q) / 2] ![0, (a - q) / 2] = ![0, -(q + a) / 2] := by
    funext i
    fin_cases i <;> simp [contRes, twin, neg_mulVec] <;> ring
  have hfu : momRes twin ![0, 0] ![0, (a - q) / 2] ![0, (a - q) / 2] = ![0, 0] := by
    funext i
    fin_cases i <;> simp [momRes, twin, neg_mulVec]
  unfold killerStep
  rw [hk]
  refine ⟨_, rfl, ?_, ?_, ?_, ?_, ?_, ?_⟩
  · exact hx
  · simp only [hx, hp, hnp]
  · simp only [hx, hp, hnp, hfu]
  · simp only [hx, hp, hnp, hfp]
  · simp only [hx, hp, hnp, hfp]; exact maxVal_two _ _
  · simp only [hx, hp, hnp, hfu]; rw [maxVal_two]; simp

/-- With the default tolerances a solution is accepted that misses the prescribed divergence of a cell by
any amount, as long as it is in excess: only the signed maximum is compared.  Here cell 0 is balanced
and cell 1 keeps one eighth of its initial imbalance (`q/8`), although a reduction by 10⁵ was asked. -/
theorem negative_divergence_accepted (q : ℝ) (hq : 0 < q) (junk : ℝ) :
    ∃ s : St 1 1, killerSolver twin (fun r => ![r 0 / 2, r 1 / 2]) defaults ![0, 0] ![0, -q] junk =
        .solution s ∧
      contLeft twin.C twin.D1 ![0, -q] s.u s.p 1 = -(q / 8) := by
  obtain ⟨s1, h1, u1, p1, _, d1, m1, v1⟩ := twin_step q 0 0 (by simp; linarith) 0
    (startSt ![0, 0] ![0, -q] junk)
    (by unfold startSt; funext i; fin_cases i <;> rfl) (by unfold startSt; funext i; fin_cases i <;> rfl)
  obtain ⟨s2, h2, u2, p2, _, d2, m2, v2⟩ := twin_step q ((0 - q) / 2) ((0 - q) / 2) (by intro h; linarith)
    1 s1 u1 p1
  obtain ⟨s3, h3, u3, p3, f3, d3, m3, v3⟩ := twin_step q (((0 - q) / 2 - q) / 2) (((0 - q) / 2 - q) / 2)
    (by intro h; linarith) 2 s2 u2 p2
  have hm3 : s3.maxdiv = 0 := by rw [m3]; exact max_eq_left (by linarith)
  have hconv : converged defaults 2 s3 := by
    refine ⟨by norm_num, Or.inl ?_, Or.inl ?_⟩
    · rw [hm3]; simp [defaults]
    · rw [v3]; simp [defaults]
  have hloop : killerLoop twin (fun r => ![r 0 / 2, r 1 / 2]) defaults ![0, 0] ![0, -q]
      defaults.maxPH 0 (startSt ![0, 0] ![0, -q] junk) = some s3 := by
    rw [show defaults.maxPH = 7 + 1 + 1 + 1 from rfl, killerLoop, h1]
    dsimp only
    rw [if_neg (fun h => by have := h.1; omega), killerLoop, h2]
    dsimp only
    rw [if_neg (fun h => by have := h.1; omega), killerLoop, h3]
    dsimp only
    rw [if_pos hconv]
  have hrej : ¬ rejected defaults s3 := by
    intro h
    have h0 := h.1
    rw [hm3] at h0
    norm_num [defaults] at h0
  refine ⟨s3, ?_, ?_⟩
  · unfold killerSolver
    rw [hloop]
    dsimp only
    rw [if_neg hrej]
  · rw [← contRes_eq, ← (killerStep_spec h3).2.1.trans (contRes_eq _ _ _ _).symm, d3]
    simp
    ring

/-- Nor is the momentum balance checked at the end: with no Krylov iterations allowed, the zero solution
is accepted for every load `bu` (the divergence being right). -/
theorem momentum_not_checked (S : Sys 2 1) (prec : Vec 2 → Vec 2) (t : Tol) (ht : t.maxKsp = 0)
    (hPH : t.maxPH = 1) (habs : 0 ≤ t.absDiv) (hrel : 0 ≤ t.relDiv) (bu : Vec 2) (junk : ℝ) :
    ∃ s : St 1 1, killerSolver S prec t bu 0 junk = .solution s ∧ s.u = 0 ∧ s.p = 0 ∧
      momLeft S.A S.B bu s.u s.p = bu := by
  have hnp : newPressure S 0 (0 : Vec 2) 0 = 0 := by unfold newPressure; simp
  have hfp : contRes S 0 (0 : Vec 2) 0 = 0 := by unfold contRes; simp
  have hfu : momRes S bu (0 : Vec 2) 0 = bu := by unfold momRes; simp
  have hz : maxVal (0 : Vec 2) = 0 := by
    have : (0 : Vec 2) = ![0, 0] := by funext i; fin_cases i <;> rfl
    rw [this, maxVal_two]; simp
  have hk : kspgcr (velMatrix S) prec (velRhs S bu 0 0) 0 t.relKsp t.maxKsp =
      some (false, start (velMatrix S) (velRhs S bu 0 0) 0) := by
    unfold kspgcr; rw [ht]; rfl
  have hstep : killerStep S prec t bu 0 0 (startSt bu 0 junk) =
      some ⟨0, 0, bu, 0, 0, maxVal bu, 0, maxVal bu⟩ := by
    unfold killerStep startSt
    dsimp only
    rw [hk]
    dsimp only [start]
    rw [hnp, hfp, hfu, hz]
    simp
  refine ⟨⟨0, 0, bu, 0, 0, maxVal bu, 0, maxVal bu⟩, ?_, rfl, rfl, ?_⟩
  · unfold killerSolver
    rw [hPH, killerLoop, hstep]
    dsimp only
    rw [killerLoop, ite_self]
    dsimp only
    rw [if_neg]
    intro h
    have := h.1
    simp at this
    linarith
  · rw [← momRes_eq]; exact hfu

/-- `accepted_partial` applies to the run of `negative_divergence_accepted`. -/
example : ∃ s : St 1 1, killerSolver twin (fun r => ![r 0 / 2, r 1 / 2]) defaults ![0, 0] ![0, -1] 0 =
      .solution s ∧ s.fu = momLeft twin.A twin.B ![0, 0] s.u s.p := by
  obtain ⟨s, h, _⟩ := negative_divergence_accepted 1 one_pos 0
  exact ⟨s, h, (accepted_partial twin twin_fit rfl _ _ _ _ _ (by norm_num [defaults]) s h).1⟩

/-- Two cells of rock above an air cell: cell 0 is air, cells 1 and 2 carry equations 0 and 1, both
compressible. -/
noncomputable def beach : Cells where
  ncell := 3
  tag := fun k => if k = 0 then 30 else -1
  eqn := fun k => k - 1
  comp := fun _ => 1
  bet := fun _ => 2
  rho := fun _ => 1
  drhodp := fun _ => 1
  volChange := 0
  dt := 1
  celvol := 1
  d := fun _ => 1
  penalty := 1000

/-- The direct compressible solver uses 1 instead of the inverse 1/2 that the default solver uses. -/
example (junk : Nat → ℝ) : (compBlocks beach 2 junk).D 0 = 1 ∧ (killerBlocks beach).D 0 = 1 / 2 := by
  have hr : ∀ k, Rock beach k ↔ k = 1 ∨ k = 2 := by
    intro k
    unfold Rock beach
    dsimp only
    constructor
    · rintro ⟨h1, h2, _⟩
      split_ifs at h2 with h0
      · exact absurd rfl h2
      · omega
    · rintro (rfl | rfl) <;> simp
  have hinj : ∀ k l, Rock beach k → Rock beach l → beach.eqn k = beach.eqn l → k = l := by
    intro k l hk hl h
    rw [hr] at hk hl
    unfold beach at h
    dsimp only at h
    omega
  have h1 : Rock beach 1 := (hr 1).2 (Or.inl rfl)
  constructor
  · have := comp_blocks_misread beach hinj (fun k _ => Nat.sub_le k 1) 1 h1 rfl (by simp [beach]) 2 junk
    rw [if_pos (by norm_num)] at this
    exact this
  · have := ((killer_blocks beach hinj (fun _ => Or.inr rfl) (Or.inl rfl) 1 h1).2 rfl).2.1
    simpa [beach, storage] using this

end Verif.PH
