import Verif.Props.Residual
import Verif.Props.Scaling
import Mathlib.Algebra.Order.BigOperators.Group.List
import Mathlib.Tactic.FieldSimp

set_option linter.unusedVariables false

/- C103: what the reported residual norms say about the equations, and which equations they leave out.
C106: what the diagonal scaling does to the diagonal. -/
namespace Verif.Resid
open Verif

private theorem mem_le_rms (f : Nat → ℝ) (L : List Nat) (N : ℝ) (hN : (L.length : ℝ) ≤ N) (a : Nat) (ha : a ∈ L) :
    |f a| ≤ √((L.map fun a => f a * f a).sum / L.length) * √N := by
  have hpos : (0 : ℝ) < L.length := by exact_mod_cast List.length_pos_of_mem ha
  have hmem : f a * f a ≤ (L.map fun a => f a * f a).sum := by
    refine List.single_le_sum ?_ _ (List.mem_map.2 ⟨a, ha, rfl⟩)
    intro x hx
    obtain ⟨b, -, rfl⟩ := List.mem_map.1 hx
    exact mul_self_nonneg _
  have h0 : 0 ≤ (L.map fun a => f a * f a).sum := le_trans (mul_self_nonneg _) hmem
  rw [← Real.sqrt_mul (div_nonneg h0 hpos.le)]
  refine Real.abs_le_sqrt ?_
  rw [sq]
  refine hmem.trans ?_
  rw [div_mul_eq_mul_div, le_div_iff₀ hpos]
  exact mul_le_mul_of_nonneg_left hN h0

private theorem rms_le (f : Nat → ℝ) (L : List Nat) (tol : ℝ) (ht : 0 ≤ tol) (hpos : L.length ≠ 0)
    (h : ∀ a ∈ L, |f a| ≤ tol) : √((L.map fun a => f a * f a).sum / L.length) ≤ tol := by
  have hp : (0 : ℝ) < L.length := by exact_mod_cast Nat.pos_of_ne_zero hpos
  have key : (L.map fun a => f a * f a).sum ≤ L.length * (tol * tol) := by
    clear hpos hp
    induction L with
    | nil => simp
    | cons c L ih =>
      have h1 := ih fun a ha => h a (List.mem_cons_of_mem _ ha)
      have h2 : f c * f c ≤ tol * tol := by
        rw [← abs_mul_abs_self (f c)]
        exact mul_self_le_mul_self (abs_nonneg _) (h c List.mem_cons_self)
      rw [List.map_cons, List.sum_cons, List.length_cons]
      push_cast
      linarith
  refine Real.sqrt_le_iff.2 ⟨ht, ?_⟩
  rw [div_le_iff₀ hp, sq]
  linarith

private theorem filt_len (l : List Nat) (n : Nat) (hl : l.Perm (List.range n)) (p : Nat → Bool) :
    ((l.filter p).length : ℝ) ≤ n := by
  have h1 := List.length_filter_le p l
  rw [hl.length_eq, List.length_range] at h1
  exact_mod_cast h1

variable (Nx Nz : Nat) (hNx : 2 ≤ Nx) (t : Tags) (ht : TagsOk Nx Nz t) (junk : Nat → Int)
    (d dD : Nat → ℝ) (ou ov op : List Nat) (hou : ou.Perm (List.range ((Nz + 1) * Nx)))
    (hov : ov.Perm (List.range (Nz * (Nx + 1)))) (hop : op.Perm (List.range ((Nz - 1) * (Nx - 1))))
    (FA FD ru rv rp : Nat → ℝ)

include hNx ht hou hov hop in
/-- The norms of a report, unfolded. -/
private theorem report_eq (R : Report)
    (hR : evaluateResidual Nx Nz t (evalNumberOfEquations Nx Nz t junk) d dD ou ov op FA FD ru rv rp = some R) :
    let n := evalNumberOfEquations Nx Nz t junk
    let Lu := ou.filter fun a => extractVel (t.u a) && coverU Nx Nz a
    let Lv := ov.filter fun a => extractVel (t.v a) && coverV Nx a
    let Lp := op.filter fun a => extractP (t.p a)
    Lu.length ≠ 0 ∧ Lv.length ≠ 0 ∧ Lp.length ≠ 0 ∧
    R.resx = √((Lu.map fun a => (FA (n.eqnU a).toNat * d (n.eqnU a).toNat) *
      (FA (n.eqnU a).toNat * d (n.eqnU a).toNat)).sum / Lu.length) ∧
    R.resz = √((Lv.map fun a => (FA (n.eqnV a).toNat * d (n.eqnV a).toNat) *
      (FA (n.eqnV a).toNat * d (n.eqnV a).toNat)).sum / Lv.length) ∧
    R.resp = √((Lp.map fun a => FD (n.eqnP a - n.neqMom).toNat * FD (n.eqnP a - n.neqMom).toNat).sum / Lp.length) := by
  intro n Lu Lv Lp
  obtain ⟨-, -, -, -, -, -, -, -, s1, n1, s2, n2, s3, n3⟩ :=
    loops_spec Nx Nz hNx t ht junk d dD ou ov op hou hov hop FA FD ru rv rp
  unfold evaluateResidual at hR
  simp only at hR
  rw [s1, n1, s2, n2, s3, n3] at hR
  split at hR
  · exact absurd hR (by simp)
  · rename_i h
    push Not at h
    refine ⟨h.1, h.2.1, h.2.2, ?_⟩
    injection hR with hR
    rw [← hR]
    exact ⟨rfl, rfl, rfl⟩

include hNx ht hou hov hop in
/-- C103 (partial: the outermost rows and columns are missing).  A reported norm bounds every continuity
equation, every horizontal momentum equation from the fourth Vx row up to the third row from the top, and
every vertical momentum equation from the fourth Vz column up to the third column from the east: the
residual times the scaling factor of its row is at most the norm times the root of the number of nodes. -/
theorem reported_bounds_partial (R : Report)
    (hR : evaluateResidual Nx Nz t (evalNumberOfEquations Nx Nz t junk) d dD ou ov op FA FD ru rv rp = some R) :
    let n := evalNumberOfEquations Nx Nz t junk
    (∀ k, (Dof.u k).InGrid Nx Nz → (Dof.u k).Solved t → 3 ≤ k / Nx → k / Nx + 2 ≤ Nz →
      |FA (n.eqnU k).toNat * d (n.eqnU k).toNat| ≤ R.resx * √(((Nz + 1) * Nx : Nat) : ℝ)) ∧
    (∀ k, (Dof.v k).InGrid Nx Nz → (Dof.v k).Solved t → 3 ≤ k % (Nx + 1) → k % (Nx + 1) + 2 ≤ Nx →
      |FA (n.eqnV k).toNat * d (n.eqnV k).toNat| ≤ R.resz * √((Nz * (Nx + 1) : Nat) : ℝ)) ∧
    (∀ k, (Dof.p k).InGrid Nx Nz → (Dof.p k).Solved t →
      |FD (n.eqnP k - n.neqMom).toNat| ≤ R.resp * √(((Nz - 1) * (Nx - 1) : Nat) : ℝ)) := by
  intro n
  obtain ⟨-, -, -, e1, e2, e3⟩ := report_eq Nx Nz hNx t ht junk d dD ou ov op hou hov hop FA FD ru rv rp R hR
  refine ⟨?_, ?_, ?_⟩
  · intro k hk hs h1 h2
    rw [e1]
    refine mem_le_rms (fun a => FA (n.eqnU a).toNat * d (n.eqnU a).toNat) _ _ (filt_len _ _ hou _) k ?_
    rw [List.mem_filter, hou.mem_iff, List.mem_range, Bool.and_eq_true, extractVel_u ht hk, coverU, decide_eq_true_iff]
    exact ⟨hk, (numberedU_iff t k).2 hs, by omega, by omega⟩
  · intro k hk hs h1 h2
    rw [e2]
    refine mem_le_rms (fun a => FA (n.eqnV a).toNat * d (n.eqnV a).toNat) _ _ (filt_len _ _ hov _) k ?_
    rw [List.mem_filter, hov.mem_iff, List.mem_range, Bool.and_eq_true, extractVel_v ht hk, coverV, decide_eq_true_iff]
    exact ⟨hk, (numberedV_iff t k).2 hs, by omega, by omega⟩
  · intro k hk hs
    rw [e3]
    refine mem_le_rms (fun a => FD (n.eqnP a - n.neqMom).toNat) _ _ (filt_len _ _ hop _) k ?_
    rw [List.mem_filter, hop.mem_iff, List.mem_range, extractP_p ht hk]
    exact ⟨hk, (numberedP_iff t k).2 hs⟩

include hNx ht hou hov hop in
/-- Conversely, when all equations are fulfilled up to `tol` (after scaling), so are the norms: a solved
system is never reported as unsolved. -/
theorem small_residuals_reported (tol : ℝ) (h0 : 0 ≤ tol) (R : Report)
    (hR : evaluateResidual Nx Nz t (evalNumberOfEquations Nx Nz t junk) d dD ou ov op FA FD ru rv rp = some R)
    (hA : ∀ e < (evalNumberOfEquations Nx Nz t junk).neqMom, |FA e * d e| ≤ tol)
    (hD : ∀ e < (evalNumberOfEquations Nx Nz t junk).neqCont, |FD e| ≤ tol) :
    R.resx ≤ tol ∧ R.resz ≤ tol ∧ R.resp ≤ tol := by
  obtain ⟨n1, n2, n3, e1, e2, e3⟩ := report_eq Nx Nz hNx t ht junk d dD ou ov op hou hov hop FA FD ru rv rp R hR
  obtain ⟨B1, -, -, B4, -, -, B7⟩ := numbering_bijective Nx Nz hNx t junk ht.east
  refine ⟨?_, ?_, ?_⟩
  · rw [e1]
    refine rms_le (fun a => FA _ * d _) _ tol h0 n1 fun a ha => hA _ ?_
    rw [List.mem_filter, hou.mem_iff, List.mem_range, Bool.and_eq_true] at ha
    have hs : Dof.Solved t (.u a) := (numberedU_iff t a).1 (extractVel_u ht ha.1 ▸ ha.2.1)
    have := (B4 (.u a) ha.1 hs).2 (by simp)
    have h1 : (evalNumberOfEquations Nx Nz t junk).eqnU a < (evalNumberOfEquations Nx Nz t junk).neqMom := this
    have h2 : 0 ≤ (evalNumberOfEquations Nx Nz t junk).eqnU a := (B1 (.u a) ha.1 hs).1
    omega
  · rw [e2]
    refine rms_le (fun a => FA _ * d _) _ tol h0 n2 fun a ha => hA _ ?_
    rw [List.mem_filter, hov.mem_iff, List.mem_range, Bool.and_eq_true] at ha
    have hs : Dof.Solved t (.v a) := (numberedV_iff t a).1 (extractVel_v ht ha.1 ▸ ha.2.1)
    have := (B4 (.v a) ha.1 hs).2 (by simp)
    have h1 : (evalNumberOfEquations Nx Nz t junk).eqnV a < (evalNumberOfEquations Nx Nz t junk).neqMom := this
    have h2 : 0 ≤ (evalNumberOfEquations Nx Nz t junk).eqnV a := (B1 (.v a) ha.1 hs).1
    omega
  · rw [e3]
    refine rms_le (fun a => FD _) _ tol h0 n3 fun a ha => hD _ ?_
    rw [List.mem_filter, hop.mem_iff, List.mem_range] at ha
    have hs : Dof.Solved t (.p a) := (numberedP_iff t a).1 (extractP_p ht ha.1 ▸ ha.2)
    have h1 : (evalNumberOfEquations Nx Nz t junk).eqnP a < (evalNumberOfEquations Nx Nz t junk).neq := (B1 (.p a) ha.1 hs).2
    have h2 : 0 ≤ (evalNumberOfEquations Nx Nz t junk).eqnP a := (B1 (.p a) ha.1 hs).1
    have h3 : ¬ (evalNumberOfEquations Nx Nz t junk).eqnP a < (evalNumberOfEquations Nx Nz t junk).neqMom := fun h =>
      (B4 (.p a) ha.1 hs).1 h a rfl
    omega

include hNx ht hou hov hop in
/-- The norms do not depend on the equations left out: two residuals that agree on the counted nodes give
the same report norms. -/
theorem uncounted_ignored (FA' : Nat → ℝ) (R R' : Report)
    (hR : evaluateResidual Nx Nz t (evalNumberOfEquations Nx Nz t junk) d dD ou ov op FA FD ru rv rp = some R)
    (hR' : evaluateResidual Nx Nz t (evalNumberOfEquations Nx Nz t junk) d dD ou ov op FA' FD ru rv rp = some R')
    (hu : ∀ k, (Dof.u k).InGrid Nx Nz → (Dof.u k).Solved t → 3 ≤ k / Nx → k / Nx + 2 ≤ Nz →
      FA ((evalNumberOfEquations Nx Nz t junk).eqnU k).toNat = FA' ((evalNumberOfEquations Nx Nz t junk).eqnU k).toNat)
    (hv : ∀ k, (Dof.v k).InGrid Nx Nz → (Dof.v k).Solved t → 3 ≤ k % (Nx + 1) → k % (Nx + 1) + 2 ≤ Nx →
      FA ((evalNumberOfEquations Nx Nz t junk).eqnV k).toNat = FA' ((evalNumberOfEquations Nx Nz t junk).eqnV k).toNat) :
    R.resx = R'.resx ∧ R.resz = R'.resz ∧ R.resp = R'.resp := by
  obtain ⟨-, -, -, e1, e2, e3⟩ := report_eq Nx Nz hNx t ht junk d dD ou ov op hou hov hop FA FD ru rv rp R hR
  obtain ⟨-, -, -, f1, f2, f3⟩ := report_eq Nx Nz hNx t ht junk d dD ou ov op hou hov hop FA' FD ru rv rp R' hR'
  refine ⟨?_, ?_, e3.trans f3.symm⟩
  · rw [e1, f1]
    congr 3
    refine List.map_congr_left fun a ha => ?_
    rw [List.mem_filter, hou.mem_iff, List.mem_range, Bool.and_eq_true, coverU, decide_eq_true_iff] at ha
    rw [hu a ha.1 ((numberedU_iff t a).1 (extractVel_u ht ha.1 ▸ ha.2.1)) (by omega) (by omega)]
  · rw [e2, f2]
    congr 3
    refine List.map_congr_left fun a ha => ?_
    rw [List.mem_filter, hov.mem_iff, List.mem_range, Bool.and_eq_true, coverV, decide_eq_true_iff] at ha
    rw [hv a ha.1 ((numberedV_iff t a).1 (extractVel_v ht ha.1 ▸ ha.2.1)) (by omega) (by omega)]

include hNx ht hou hov hop in
/-- On a grid with at most four vertices in one direction no equation of that direction is counted: the
norm is 0/0 and the run stops at its first evaluation, whatever the model. -/
theorem small_grid_stops (hs : Nx ≤ 4 ∨ Nz ≤ 4) :
    evaluateResidual Nx Nz t (evalNumberOfEquations Nx Nz t junk) d dD ou ov op FA FD ru rv rp = none := by
  obtain ⟨-, -, -, -, -, -, -, -, -, n1, -, n2, -, -⟩ :=
    loops_spec Nx Nz hNx t ht junk d dD ou ov op hou hov hop FA FD ru rv rp
  unfold evaluateResidual
  simp only
  refine if_pos ?_
  rcases hs with h | h
  · refine Or.inr (Or.inl ?_)
    rw [n2, List.length_eq_zero_iff, List.filter_eq_nil_iff]
    intro a _
    rw [Bool.and_eq_true, coverV, decide_eq_true_iff]
    omega
  · refine Or.inl ?_
    rw [n1, List.length_eq_zero_iff, List.filter_eq_nil_iff]
    intro a _
    rw [Bool.and_eq_true, coverU, decide_eq_true_iff]
    omega

/-! ### a 6x6 closed box -/

/-- Closed free-slip box of 6 by 6 vertices. -/
def boxTags : Tags where
  u := fun k => if k / 6 = 0 ∨ k / 6 = 6 then 13 else if k % 6 = 0 ∨ k % 6 = 5 then 0 else -1
  v := fun k => if k % 7 = 0 ∨ k % 7 = 6 then 13 else if k / 7 = 0 ∨ k / 7 = 5 then 0 else -1
  p := fun _ => -1

theorem boxTags_ok : TagsOk 6 6 boxTags :=
  ⟨by decide +kernel, by decide +kernel, by decide +kernel, by decide +kernel⟩

/-- The property "a vanishing norm means a solved system" is false for the code: in this box, with all
factors one, the horizontal momentum equation of the node in the second column of the first solved row may
be violated by any amount while all three norms are reported as zero. -/
theorem wall_equation_unreported (A : ℝ) :
    let n := evalNumberOfEquations 6 6 boxTags (fun _ => 0)
    ∃ R, evaluateResidual 6 6 boxTags n (fun _ => 1) (fun _ => 1) (List.range 42) (List.range 42) (List.range 25)
        (fun e => if e = 0 then A else 0) (fun _ => 0) (fun _ => 0) (fun _ => 0) (fun _ => 0) = some R ∧
      R.resx = 0 ∧ R.resz = 0 ∧ R.resp = 0 ∧
      (Dof.u 7).Solved boxTags ∧ (Dof.u 7).eqn n = 0 ∧ R.ru 7 = A := by
  intro n
  have L := loops_spec 6 6 (by decide) boxTags boxTags_ok (fun _ => 0) (fun _ => (1 : ℝ)) (fun _ => 1)
    (List.range 42) (List.range 42) (List.range 25) (List.Perm.refl _) (List.Perm.refl _) (List.Perm.refl _)
    (fun e => if e = 0 then A else 0) (fun _ => 0) (fun _ => 0) (fun _ => 0) (fun _ => 0)
  obtain ⟨r1, -, -, -, -, -, -, -, s1, n1, s2, n2, s3, n3⟩ := L
  have h7 : (evalNumberOfEquations 6 6 boxTags (fun _ => 0)).eqnU 7 = 0 := by decide +kernel
  have lu : ((List.range 42).filter fun a => extractVel (boxTags.u a) && coverU 6 6 a) =
      [19, 20, 21, 22, 25, 26, 27, 28] := by decide +kernel
  have lv : ((List.range 42).filter fun a => extractVel (boxTags.v a) && coverV 6 a) =
      [10, 11, 17, 18, 24, 25, 31, 32] := by decide +kernel
  have lp : ((List.range 25).filter fun a => extractP (boxTags.p a)).length = 25 := by decide +kernel
  have hx : ∀ a ∈ [19, 20, 21, 22, 25, 26, 27, 28],
      ((evalNumberOfEquations 6 6 boxTags (fun _ => 0)).eqnU a).toNat ≠ 0 := by decide +kernel
  have hz : ∀ a ∈ [10, 11, 17, 18, 24, 25, 31, 32],
      ((evalNumberOfEquations 6 6 boxTags (fun _ => 0)).eqnV a).toNat ≠ 0 := by decide +kernel
  have z : ∀ (l : List Nat) (f : Nat → ℝ), (∀ a ∈ l, f a = 0) → (l.map f).sum = 0 := by
    intro l f h
    rw [List.map_congr_left h]
    simp
  rw [lu, z _ _ (fun a ha => by simp only [if_neg (hx a ha)]; ring)] at s1
  rw [lv, z _ _ (fun a ha => by simp only [if_neg (hz a ha)]; ring)] at s2
  rw [z _ _ (fun a ha => by ring)] at s3
  rw [lu] at n1
  rw [lv] at n2
  rw [lp] at n3
  unfold evaluateResidual
  simp only [n]
  refine ⟨_, if_neg ?_, ?_, ?_, ?_, Or.inl (by decide +kernel), h7, ?_⟩
  · rw [n1, n2, n3]; decide
  · simp only [s1]; simp
  · simp only [s2]; simp
  · simp only [s3]; simp
  · have := r1 7 (show 7 < (6 + 1) * 6 by decide) (Or.inl (by decide +kernel))
    simp only [h7] at this
    simpa using this

/-- The 3x3 periodic grid is too small to be run. -/
example (FA FD ru rv rp : Nat → ℝ) :
    evaluateResidual 3 3 exTags (evalNumberOfEquations 3 3 exTags (fun _ => 0)) (fun _ => 1) (fun _ => 1)
      (List.range 12) (List.range 12) (List.range 4) FA FD ru rv rp = none :=
  small_grid_stops 3 3 (by decide) exTags exTags_ok (fun _ => 0) _ _ _ _ _ (List.Perm.refl _) (List.Perm.refl _)
    (List.Perm.refl _) FA FD ru rv rp (Or.inl (by decide))

end Verif.Resid

namespace Verif.Sparse
open Verif Finset

/-- C106 (what the code does).  With the factors extracted from the velocity block -- one diagonal
coefficient per row -- the scaled diagonal is the cube of the assembled one. -/
theorem scaled_diagonal_is_cubed {K : Type*} [Field K] (S : Blocks K) (wf : WellFormed S) (i : Nat) (hi : i < S.A.neq)
    (k : Nat) (h1 : S.A.Ic i ≤ k) (h2 : k < S.A.Ic (i + 1)) (h3 : S.A.J k = i)
    (h4 : ∀ k', S.A.Ic i ≤ k' → k' < S.A.Ic (i + 1) → S.A.J k' = i → k' = k) :
    entry (scaleMatrix (extractDiagonalScale S)).A i i = entry S.A i i ^ 3 := by
  have e : entry S.A i i = S.A.A k := by
    unfold entry
    rw [Finset.sum_eq_single k]
    · rw [if_pos h3]
    · intro b hb hne
      rw [mem_Ico] at hb
      exact if_neg fun h => hne (h4 b hb.1 hb.2 h)
    · intro h
      exact absurd (mem_Ico.2 ⟨h1, h2⟩) h
  show entry (scaleBlock (extractDiagonalScale S).A S.A.neq (extractDiagonalScale S).A.d
    (extractDiagonalScale S).A.d) i i = _
  rw [entry_scaled (extractDiagonalScale S).A _ _ _ wf.ptrA hi, (extracted_factors S wf).2.1 i hi k h1 h2 h3 h4]
  show S.A.A k * entry S.A i i * S.A.A k = _
  rw [e]; ring

/-- C106 (partial).  Equal diagonal entries after scaling only if they were equal before (over an ordered
field): a contrast between two rows is never removed. -/
theorem scaling_equalises_partial {K : Type*} [Field K] [LinearOrder K] [IsStrictOrderedRing K] (S : Blocks K)
    (wf : WellFormed S)
    (hA : ∀ i < S.A.neq, ∃ k, S.A.Ic i ≤ k ∧ k < S.A.Ic (i + 1) ∧ S.A.J k = i ∧
      ∀ k', S.A.Ic i ≤ k' → k' < S.A.Ic (i + 1) → S.A.J k' = i → k' = k)
    (i j : Nat) (hi : i < S.A.neq) (hj : j < S.A.neq) :
    entry (scaleMatrix (extractDiagonalScale S)).A i i = entry (scaleMatrix (extractDiagonalScale S)).A j j ↔
      entry S.A i i = entry S.A j j := by
  obtain ⟨k, h1, h2, h3, h4⟩ := hA i hi
  obtain ⟨k', h1', h2', h3', h4'⟩ := hA j hj
  rw [scaled_diagonal_is_cubed S wf i hi k h1 h2 h3 h4, scaled_diagonal_is_cubed S wf j hj k' h1' h2' h3' h4']
  exact ⟨fun h => (Odd.strictMono_pow (by decide : Odd 3)).injective h, fun h => by rw [h]⟩

/-- The property "diagonal scaling brings the diagonal to one value" is false for the code: the example
system has diagonal 2, 3 and gets 8, 27. -/
theorem diagonal_not_equalised :
    entry demo.A 0 0 = 2 ∧ entry demo.A 1 1 = 3 ∧
    entry (scaleMatrix (extractDiagonalScale demo)).A 0 0 = 8 ∧
    entry (scaleMatrix (extractDiagonalScale demo)).A 1 1 = 27 := by decide +kernel

end Verif.Sparse
