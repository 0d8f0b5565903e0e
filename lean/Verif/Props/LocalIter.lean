import Verif.Model.LocalIter
import Verif.Spec.Creep
import Mathlib.Analysis.Convex.SpecificFunctions.Basic
import Mathlib.Tactic.FieldSimp
import Mathlib.Tactic.Linarith
import Mathlib.Tactic.LinearCombination
import Mathlib.Tactic.NormNum
import Mathlib.Tactic.Positivity

/-!
C75: local visco-elastic iterations.
-/
namespace Verif.LocalIter
open Verif.Spec

/-- Isolated viscosity and exponent of every mechanism but grain boundary sliding. -/
noncomputable def laws (c : Creep) (E : ℝ) : List (ℝ × ℝ) :=
  (c.el.toList.map fun e => (e, 1)) ++ (c.cst.toList.map fun e => (e, 1))
  ++ (c.pwl.toList.map fun q => (q.1 * E ^ (1 / q.2 - 1), q.2))
  ++ (c.exp.toList.map fun q => (q.1 * E ^ (1 / q.2 - 1), q.2))
  ++ (c.lin.toList.map fun q => (q.1 * E ^ (1 / q.2.1 - 1) * c.d ^ (q.2.2 / q.2.1), q.2.1))

noncomputable def S (L : List (ℝ × ℝ)) (eta : ℝ) : ℝ := (L.map fun q => (eta / q.1) ^ q.2).sum
noncomputable def N (L : List (ℝ × ℝ)) (eta : ℝ) : ℝ := (L.map fun q => q.2 * (eta / q.1) ^ q.2).sum

private theorem iso_pos {B n E : ℝ} (hB : 0 < B) (hE : 0 < E) : 0 < B * E ^ (1 / n - 1) :=
  mul_pos hB (Real.rpow_pos_of_pos hE _)

/-- A power law measured by its isolated viscosity. -/
private theorem power_iso {B n E eta : ℝ} (hB : 0 < B) (hE : 0 < E) (hn : 1 ≤ n) (he : 0 < eta) :
    (2 * eta * E / (2 * B)) ^ n = E * (eta / (B * E ^ (1 / n - 1))) ^ n := by
  have hp : 0 < E ^ (1 / n - 1) := Real.rpow_pos_of_pos hE _
  have h1 : 2 * eta * E / (2 * B) = eta / (B * E ^ (1 / n - 1)) * E ^ (1 / n) := by
    have : E ^ (1 / n) = E ^ (1 / n - 1) * E := by
      rw [← Real.rpow_add_one hE.ne']; congr 1; ring
    rw [this]; field_simp
  rw [h1, Real.mul_rpow (by positivity) (by positivity), ← Real.rpow_mul hE.le, one_div,
    inv_mul_cancel₀ (by linarith), Real.rpow_one, mul_comm]

private theorem pref_eq {B n t : ℝ} (hB : 0 < B) (ht : 0 ≤ t) : pref B n * t ^ n = (t / (2 * B)) ^ n := by
  unfold pref
  rw [Real.rpow_neg (by positivity), Real.div_rpow ht (by positivity)]
  field_simp

private theorem grain {d m n x : ℝ} (hd : 0 < d) (hn : 1 ≤ n) (hx : 0 < x) :
    (x / d ^ (m / n)) ^ n = x ^ n * d ^ (-m) := by
  rw [Real.div_rpow hx.le (by positivity), ← Real.rpow_mul hd.le, div_mul_cancel₀ _ (by linarith),
    Real.rpow_neg hd.le]
  field_simp

/-- The model's sums are the user's flow laws. -/
theorem rates_flow (c : Creep) (hc : Physical c) (t : ℝ) (ht : 0 ≤ t) :
    elasticRate c t + (rates c t).sum = flowWithoutGbs c t := by
  unfold elasticRate rates flowWithoutGbs part
  have e1 : ((c.gbs.toList.map fun q => (0 : ℝ) * t ^ q.2)).sum = 0 := by
    cases c.gbs <;> simp
  have e2 : ((c.pwl.toList.map fun q => pref q.1 q.2 * t ^ q.2)).sum = c.pwl.elim 0 (fun q => (t / (2 * q.1)) ^ q.2) := by
    have := hc.pwl
    cases h : c.pwl with
    | none => simp
    | some q => simp [pref_eq (this q (by simp [h])).1 ht]
  have e3 : ((c.exp.toList.map fun q => pref q.1 q.2 * t ^ q.2)).sum = c.exp.elim 0 (fun q => (t / (2 * q.1)) ^ q.2) := by
    have := hc.exp
    cases h : c.exp with
    | none => simp
    | some q => simp [pref_eq (this q (by simp [h])).1 ht]
  have e4 : ((c.lin.toList.map fun q => pref q.1 q.2.1 * t ^ q.2.1 * c.d ^ (-q.2.2))).sum
      = c.lin.elim 0 (fun q => (t / (2 * q.1)) ^ q.2.1 * c.d ^ (-q.2.2)) := by
    have := hc.lin
    cases h : c.lin with
    | none => simp
    | some q => simp [pref_eq (this q (by simp [h])).1 ht]
  have e5 : ((c.cst.toList.map fun e => t / 2 / e)).sum = c.cst.elim 0 (fun e => t / (2 * e)) := by
    cases c.cst <;> simp [div_div]
  have e6 : ((c.el.toList.map fun e => t / (2 * e))).sum = c.el.elim 0 (fun e => t / (2 * e)) := by
    cases c.el <;> simp
  simp only [List.sum_append, e1, e2, e3, e4, e5, e6]
  ring

theorem flow_S (c : Creep) (hc : Physical c) (E eta : ℝ) (hE : 0 < E) (he : 0 < eta) :
    flowWithoutGbs c (2 * eta * E) = E * S (laws c E) eta := by
  unfold flowWithoutGbs S laws part
  have e2 : c.pwl.elim 0 (fun q => (2 * eta * E / (2 * q.1)) ^ q.2)
      = E * ((c.pwl.toList.map fun q => (q.1 * E ^ (1 / q.2 - 1), q.2)).map fun q => (eta / q.1) ^ q.2).sum := by
    have := hc.pwl
    cases h : c.pwl with
    | none => simp
    | some q =>
      have hq := this q (by simp [h])
      simpa using power_iso hq.1 hE hq.2 he
  have e3 : c.exp.elim 0 (fun q => (2 * eta * E / (2 * q.1)) ^ q.2)
      = E * ((c.exp.toList.map fun q => (q.1 * E ^ (1 / q.2 - 1), q.2)).map fun q => (eta / q.1) ^ q.2).sum := by
    have := hc.exp
    cases h : c.exp with
    | none => simp
    | some q =>
      have hq := this q (by simp [h])
      simpa using power_iso hq.1 hE hq.2 he
  have e4 : c.lin.elim 0 (fun q => (2 * eta * E / (2 * q.1)) ^ q.2.1 * c.d ^ (-q.2.2))
      = E * ((c.lin.toList.map fun q => (q.1 * E ^ (1 / q.2.1 - 1) * c.d ^ (q.2.2 / q.2.1), q.2.1)).map
          fun q => (eta / q.1) ^ q.2).sum := by
    have := hc.lin
    cases h : c.lin with
    | none => simp
    | some q =>
      have hq := this q (by simp [h])
      have hA := iso_pos (n := q.2.1) hq.1 hE
      have h1 := power_iso hq.1 hE hq.2 he
      have h2 := grain (m := q.2.2) hc.d hq.2 (div_pos he hA)
      rw [div_div] at h2
      simp only [Option.elim_some, Option.toList_some, List.map_cons, List.map_nil, List.sum_cons, List.sum_nil, add_zero]
      rw [h1, h2]; ring
  have e5 : c.cst.elim 0 (fun e => 2 * eta * E / (2 * e))
      = E * ((c.cst.toList.map fun e => (e, (1 : ℝ))).map fun q => (eta / q.1) ^ q.2).sum := by
    cases c.cst with
    | none => simp
    | some e =>
      simp only [Option.elim_some, Option.toList_some, List.map_cons, List.map_nil, List.sum_cons, List.sum_nil, add_zero, Real.rpow_one]
      rw [show 2 * eta * E = 2 * (eta * E) by ring, mul_div_mul_left _ _ two_ne_zero]; ring
  have e6 : c.el.elim 0 (fun e => 2 * eta * E / (2 * e))
      = E * ((c.el.toList.map fun e => (e, (1 : ℝ))).map fun q => (eta / q.1) ^ q.2).sum := by
    cases c.el with
    | none => simp
    | some e =>
      simp only [Option.elim_some, Option.toList_some, List.map_cons, List.map_nil, List.sum_cons, List.sum_nil, add_zero, Real.rpow_one]
      rw [show 2 * eta * E = 2 * (eta * E) by ring, mul_div_mul_left _ _ two_ne_zero]; ring
  rw [e2, e3, e4, e5, e6]
  simp only [List.map_append, List.sum_append]
  ring

theorem residual_S (c : Creep) (hc : Physical c) (E eta : ℝ) (hE : 0 < E) (he : 0 < eta) :
    residual c E eta = E * (1 - S (laws c E) eta) := by
  have h := rates_flow c hc (2 * eta * E) (by positivity)
  have h2 := flow_S c hc E eta hE he
  unfold residual
  linear_combination -h - h2

theorem slope_N (c : Creep) (hc : Physical c) (E eta : ℝ) (hE : 0 < E) (he : 0 < eta) :
    slope c E eta = -(E / eta) * N (laws c E) eta := by
  unfold slope N laws
  have ht : 0 ≤ 2 * eta * E := by positivity
  have e2 : (c.pwl.toList.map fun q => -(pref q.1 q.2 * (2 * eta * E) ^ q.2) * q.2 / eta).sum
      = -(E / eta) * ((c.pwl.toList.map fun q => (q.1 * E ^ (1 / q.2 - 1), q.2)).map fun q => q.2 * (eta / q.1) ^ q.2).sum := by
    have := hc.pwl
    cases h : c.pwl with
    | none => simp
    | some q =>
      have hq := this q (by simp [h])
      simp only [Option.toList_some, List.map_cons, List.map_nil, List.sum_cons, List.sum_nil, add_zero]
      rw [pref_eq hq.1 ht, power_iso hq.1 hE hq.2 he]; ring
  have e3 : (c.exp.toList.map fun q => -(pref q.1 q.2 * (2 * eta * E) ^ q.2) * q.2 / eta).sum
      = -(E / eta) * ((c.exp.toList.map fun q => (q.1 * E ^ (1 / q.2 - 1), q.2)).map fun q => q.2 * (eta / q.1) ^ q.2).sum := by
    have := hc.exp
    cases h : c.exp with
    | none => simp
    | some q =>
      have hq := this q (by simp [h])
      simp only [Option.toList_some, List.map_cons, List.map_nil, List.sum_cons, List.sum_nil, add_zero]
      rw [pref_eq hq.1 ht, power_iso hq.1 hE hq.2 he]; ring
  have e4 : (c.lin.toList.map fun q => -(pref q.1 q.2.1 * (2 * eta * E) ^ q.2.1 * c.d ^ (-q.2.2)) * q.2.1 / eta).sum
      = -(E / eta) * ((c.lin.toList.map fun q => (q.1 * E ^ (1 / q.2.1 - 1) * c.d ^ (q.2.2 / q.2.1), q.2.1)).map
          fun q => q.2 * (eta / q.1) ^ q.2).sum := by
    have := hc.lin
    cases h : c.lin with
    | none => simp
    | some q =>
      have hq := this q (by simp [h])
      have hA := iso_pos (n := q.2.1) hq.1 hE
      have h2 := grain (m := q.2.2) hc.d hq.2 (div_pos he hA)
      rw [div_div] at h2
      simp only [Option.toList_some, List.map_cons, List.map_nil, List.sum_cons, List.sum_nil, add_zero]
      rw [pref_eq hq.1 ht, power_iso hq.1 hE hq.2 he, h2]; ring
  have e5 : ∀ o : Option ℝ, (o.toList.map fun e => -E / e).sum
      = -(E / eta) * ((o.toList.map fun e => (e, (1 : ℝ))).map fun q => q.2 * (eta / q.1) ^ q.2).sum := by
    intro o
    cases o with
    | none => simp
    | some e =>
      simp only [Option.toList_some, List.map_cons, List.map_nil, List.sum_cons, List.sum_nil, add_zero, Real.rpow_one]
      by_cases h0 : e = 0
      · simp [h0]
      · field_simp
  simp only [e2, e3, e4, e5, List.map_append, List.sum_append]
  ring

theorem laws_ok (c : Creep) (hc : Physical c) (E : ℝ) (hE : 0 < E) :
    ∀ q ∈ laws c E, 0 < q.1 ∧ 1 ≤ q.2 := by
  intro q hq
  unfold laws at hq
  simp only [List.mem_append, List.mem_map, Option.mem_toList] at hq
  rcases hq with (((⟨e, he, rfl⟩ | ⟨e, he, rfl⟩) | ⟨p, hp, rfl⟩) | ⟨p, hp, rfl⟩) | ⟨p, hp, rfl⟩
  · exact ⟨hc.el e he, le_rfl⟩
  · exact ⟨hc.cst e he, le_rfl⟩
  · exact ⟨iso_pos (hc.pwl p hp).1 hE, (hc.pwl p hp).2⟩
  · exact ⟨iso_pos (hc.exp p hp).1 hE, (hc.exp p hp).2⟩
  · exact ⟨mul_pos (iso_pos (hc.lin p hp).1 hE) (Real.rpow_pos_of_pos hc.d _), (hc.lin p hp).2⟩

theorem N_ge_S (L : List (ℝ × ℝ)) (hL : ∀ q ∈ L, 0 < q.1 ∧ 1 ≤ q.2) (eta : ℝ) (he : 0 < eta) :
    S L eta ≤ N L eta := by
  unfold S N
  apply List.sum_le_sum
  intro q hq
  have := Real.rpow_pos_of_pos (div_pos he (hL q hq).1) q.2
  nlinarith [(hL q hq).2]

theorem S_pos (L : List (ℝ × ℝ)) (hL : ∀ q ∈ L, 0 < q.1 ∧ 1 ≤ q.2) (hne : L ≠ []) (eta : ℝ) (he : 0 < eta) :
    0 < S L eta := by
  unfold S
  apply List.sum_pos
  · intro x hx
    obtain ⟨q, hq, rfl⟩ := List.mem_map.1 hx
    exact Real.rpow_pos_of_pos (div_pos he (hL q hq).1) q.2
  · simpa using hne

/-- The tangent lies below: power laws with exponent at least one are convex. -/
theorem S_tangent (L : List (ℝ × ℝ)) (hL : ∀ q ∈ L, 0 < q.1 ∧ 1 ≤ q.2) (x y : ℝ) (hx : 0 < x) (hy : 0 < y) :
    S L y + (x / y - 1) * N L y ≤ S L x := by
  induction L with
  | nil => simp [S, N]
  | cons q L ih =>
    have ih' := ih fun q hq => hL q (List.mem_cons_of_mem _ hq)
    obtain ⟨hA, hn⟩ := hL q (List.mem_cons_self ..)
    have hb : 1 + q.2 * (x / y - 1) ≤ (1 + (x / y - 1)) ^ q.2 :=
      one_add_mul_self_le_rpow_one_add (by have := div_pos hx hy; linarith) hn
    have hxy : (x / q.1) ^ q.2 = (y / q.1) ^ q.2 * (1 + (x / y - 1)) ^ q.2 := by
      rw [← Real.mul_rpow (by positivity) (by have := div_pos hx hy; linarith)]
      congr 1; field_simp; ring
    have hp := Real.rpow_pos_of_pos (div_pos hy hA) q.2
    have h1 := mul_le_mul_of_nonneg_left hb hp.le
    rw [← hxy] at h1
    simp only [S, N, List.map_cons, List.sum_cons] at ih' ⊢
    nlinarith

/-- One Newton step from any positive viscosity gives a positive viscosity that is not below the
solution, and not above the previous value if that was not below the solution. -/
theorem newton (c : Creep) (hc : Physical c) (E eta : ℝ) (hE : 0 < E) (he : 0 < eta) (hne : laws c E ≠ []) :
    slope c E eta ≠ 0 ∧ 0 < eta - residual c E eta / slope c E eta
      ∧ 1 ≤ S (laws c E) (eta - residual c E eta / slope c E eta)
      ∧ (1 ≤ S (laws c E) eta → eta - residual c E eta / slope c E eta ≤ eta) := by
  have hL := laws_ok c hc E hE
  have hS := S_pos _ hL hne eta he
  have hNS := N_ge_S _ hL eta he
  have hT := S_tangent _ hL (eta - residual c E eta / slope c E eta) eta
  rw [residual_S c hc E eta hE he, slope_N c hc E eta hE he] at *
  generalize laws c E = L at *
  have hN : 0 < N L eta := lt_of_lt_of_le hS hNS
  have hx : eta - E * (1 - S L eta) / (-(E / eta) * N L eta) = eta * ((N L eta + 1 - S L eta) / N L eta) := by
    field_simp; ring
  have hpos : 0 < eta * ((N L eta + 1 - S L eta) / N L eta) :=
    mul_pos he (div_pos (by linarith) hN)
  rw [hx] at hT ⊢
  refine ⟨?_, hpos, ?_, ?_⟩
  · have := mul_pos (div_pos hE he) hN
    rw [neg_mul]; exact (neg_neg_of_pos this).ne
  · have h1 := hT hpos he
    have h2 : (eta * ((N L eta + 1 - S L eta) / N L eta) / eta - 1) * N L eta = 1 - S L eta := by
      field_simp; ring
    rw [h2] at h1; linarith
  · intro h
    have : (N L eta + 1 - S L eta) / N L eta ≤ 1 := (div_le_one hN).2 (by linarith)
    nlinarith

theorem solve_spec (c : Creep) (hc : Physical c) (E tol : ℝ) (hE : 0 < E) (ht : 0 < tol) (hne : laws c E ≠ []) :
    ∀ (n : Nat) (eta tii : ℝ), 0 < eta → 0 < tii → (n = 0 → |E - flowWithoutGbs c tii| ≤ tol * E) →
      solve c E tol n eta tii = .failed ∨ ∃ eta' tii', solve c E tol n eta tii = .ok eta' tii'
        ∧ 0 < eta' ∧ 0 < tii' ∧ |E - flowWithoutGbs c tii'| ≤ tol * E
        ∧ (1 ≤ S (laws c E) eta → 1 ≤ S (laws c E) eta' ∧ eta' ≤ eta) := by
  intro n
  induction n with
  | zero => intro eta tii he htii h; exact Or.inr ⟨eta, tii, rfl, he, htii, h rfl, fun h => ⟨h, le_rfl⟩⟩
  | succ n ih =>
    intro eta tii he _ _
    have hres : residual c E eta = E - flowWithoutGbs c (2 * eta * E) := by
      have h := rates_flow c hc (2 * eta * E) (by positivity)
      unfold residual; linear_combination -h
    have habs : |residual c E eta / E| = |E - flowWithoutGbs c (2 * eta * E)| / E := by
      rw [hres, abs_div, abs_of_pos hE]
    obtain ⟨h1, h2, h3, h4⟩ := newton c hc E eta hE he hne
    simp only [solve]
    split
    · next hlt =>
      right
      refine ⟨eta, 2 * eta * E, rfl, he, by positivity, ?_, fun h => ⟨h, le_rfl⟩⟩
      rw [habs, div_lt_iff₀ hE] at hlt
      have : tol / 100 * E ≤ tol * E := by nlinarith [mul_pos ht hE]
      linarith
    · next hge =>
      split
      · exact Or.inl rfl
      · next hnot =>
        have hlast : n = 0 → |E - flowWithoutGbs c (2 * eta * E)| ≤ tol * E := by
          intro hn
          have h : ¬ tol < |residual c E eta / E| := fun h => hnot ⟨hn, h⟩
          rw [habs, not_lt, div_le_iff₀ hE] at h
          exact h
        rcases ih (eta - residual c E eta / slope c E eta) (2 * eta * E) h2 (by positivity) hlast with h | h
        · exact Or.inl h
        · obtain ⟨e', t', h5, h6, h7, h8, h9⟩ := h
          refine Or.inr ⟨e', t', h5, h6, h7, h8, fun hS => ⟨(h9 h3).1, le_trans (h9 h3).2 (h4 hS)⟩⟩

theorem guess_le (c : Creep) (E huge : ℝ) : ∀ x ∈ isolated c E, guess c E huge ≤ x := by
  unfold guess
  generalize isolated c E = L
  have : ∀ (L : List ℝ) (a : ℝ), L.foldl min a ≤ a ∧ ∀ x ∈ L, L.foldl min a ≤ x := by
    intro L
    induction L with
    | nil => intro a; simp
    | cons y L ih =>
      intro a
      obtain ⟨h1, h2⟩ := ih (min a y)
      refine ⟨le_trans h1 (min_le_left _ _), ?_⟩
      intro x hx
      rcases List.mem_cons.1 hx with rfl | hx
      · exact le_trans h1 (min_le_right _ _)
      · exact h2 x hx
  exact (this L huge).2

theorem guess_mem (c : Creep) (E huge : ℝ) : guess c E huge = huge ∨ guess c E huge ∈ isolated c E := by
  unfold guess
  generalize isolated c E = L
  have : ∀ (L : List ℝ) (a : ℝ), L.foldl min a = a ∨ L.foldl min a ∈ L := by
    intro L
    induction L with
    | nil => intro a; simp
    | cons y L ih =>
      intro a
      rcases ih (min a y) with h | h
      · rcases min_choice a y with h2 | h2
        · left; rw [List.foldl_cons, h, h2]
        · right; rw [List.foldl_cons, h, h2]; exact List.mem_cons_self ..
      · right; exact List.mem_cons_of_mem _ h
  exact this L huge

theorem guess_pos (c : Creep) (hc : Physical c) (E huge : ℝ) (hE : 0 < E) (hh : 0 < huge) :
    0 < guess c E huge := by
  rcases guess_mem c E huge with h | h
  · rw [h]; exact hh
  · generalize guess c E huge = g at h
    unfold isolated at h
    simp only [List.mem_append, List.mem_map, Option.mem_toList] at h
    rcases h with ((((h | ⟨p, hp, rfl⟩) | h) | ⟨p, hp, rfl⟩) | ⟨p, hp, rfl⟩) | ⟨p, hp, rfl⟩
    · exact hc.cst g h
    · exact iso_pos (hc.pwl p hp).1 hE
    · exact hc.el g h
    · exact iso_pos (hc.exp p hp).1 hE
    · exact mul_pos (iso_pos (hc.lin p hp).1 hE) (Real.rpow_pos_of_pos hc.d _)
    · exact iso_pos (hc.gbs p hp).1 hE

theorem laws_ne (c : Creep) (E : ℝ)
    (ha : c.el.isSome ∨ c.cst.isSome ∨ c.pwl.isSome ∨ c.exp.isSome ∨ c.lin.isSome) : laws c E ≠ [] := by
  unfold laws
  rcases ha with h | h | h | h | h <;> obtain ⟨x, hx⟩ := Option.isSome_iff_exists.1 h <;> simp [hx]

/-- Whenever the local iterations return, for any combination of elasticity, constant viscosity,
dislocation, Peierls and diffusion creep, viscosity and stress are positive and the strain rates of
these mechanisms at the returned stress add up to the imposed strain rate within the tolerance; the
iteration never divides by zero; it either returns or stops the program. -/
theorem run_partition (c : Creep) (hc : Physical c) (E tol huge : ℝ) (hE : 0 < E) (ht : 0 < tol) (hh : 0 < huge)
    (ha : c.el.isSome ∨ c.cst.isSome ∨ c.pwl.isSome ∨ c.exp.isSome ∨ c.lin.isSome) :
    run c E tol huge = .failed ∨ ∃ eta tii, run c E tol huge = .ok eta tii ∧ 0 < eta ∧ 0 < tii
      ∧ |E - flowWithoutGbs c tii| ≤ tol * E := by
  have hg := guess_pos c hc E huge hE hh
  rcases solve_spec c hc E tol hE ht (laws_ne c E ha) 20 (guess c E huge) (2 * guess c E huge * E) hg (by positivity)
    (fun h => absurd h (by norm_num)) with h | ⟨e, t, h1, h2, h3, h4, _⟩
  · exact Or.inl h
  · exact Or.inr ⟨e, t, h1, h2, h3, h4⟩

/-- The first guess already carries the whole strain rate. -/
theorem guess_full (c : Creep) (hc : Physical c) (hg : c.gbs = none) (E huge : ℝ) (hE : 0 < E)
    (hh : 0 < huge) (hbig : ∃ x ∈ isolated c E, x ≤ huge) :
    laws c E ≠ [] ∧ 0 < guess c E huge ∧ 1 ≤ S (laws c E) (guess c E huge) := by
  have hgp := guess_pos c hc E huge hE hh
  obtain ⟨x, hx, hxh⟩ := hbig
  have hmem : guess c E huge ∈ isolated c E := by
    rcases guess_mem c E huge with h | h
    · have := guess_le c E huge x hx
      rw [h] at this
      rw [h, le_antisymm this hxh]; exact hx
    · exact h
  -- the mechanism of the smallest isolated viscosity alone carries the whole strain rate
  have hlaw : ∃ q ∈ laws c E, q.1 = guess c E huge := by
    generalize guess c E huge = g at hmem
    unfold isolated at hmem
    simp only [List.mem_append, List.mem_map, Option.mem_toList, hg] at hmem
    unfold laws
    simp only [List.mem_append, List.mem_map, Option.mem_toList]
    rcases hmem with ((((h | ⟨p, hp, rfl⟩) | h) | ⟨p, hp, rfl⟩) | ⟨p, hp, rfl⟩) | ⟨p, hp, rfl⟩
    · exact ⟨(g, 1), Or.inl (Or.inl (Or.inl (Or.inr ⟨g, h, rfl⟩))), rfl⟩
    · exact ⟨_, Or.inl (Or.inl (Or.inr ⟨p, hp, rfl⟩)), rfl⟩
    · exact ⟨(g, 1), Or.inl (Or.inl (Or.inl (Or.inl ⟨g, h, rfl⟩))), rfl⟩
    · exact ⟨_, Or.inl (Or.inr ⟨p, hp, rfl⟩), rfl⟩
    · exact ⟨_, Or.inr ⟨p, hp, rfl⟩, rfl⟩
    · exact absurd hp (by simp)
  have hL := laws_ok c hc E hE
  obtain ⟨q, hq, hqg⟩ := hlaw
  have hne : laws c E ≠ [] := List.ne_nil_of_mem hq
  have hS1 : 1 ≤ S (laws c E) (guess c E huge) := by
    unfold S
    have h1 : (1 : ℝ) = (guess c E huge / q.1) ^ q.2 := by rw [hqg, div_self hgp.ne', Real.one_rpow]
    calc (1 : ℝ) = (guess c E huge / q.1) ^ q.2 := h1
      _ ≤ _ := List.single_le_sum (fun x hx => by
          obtain ⟨p, hp, rfl⟩ := List.mem_map.1 hx
          exact (Real.rpow_pos_of_pos (div_pos hgp (hL p hp).1) _).le) _ (List.mem_map.2 ⟨q, hq, rfl⟩)
  exact ⟨hne, hgp, hS1⟩

theorem solve_stress (c : Creep) (hc : Physical c) (E tol : ℝ) (hE : 0 < E) (ht : 0 < tol) (hne : laws c E ≠ []) :
    ∀ (n : Nat) (eta tii : ℝ), 0 < eta → 1 ≤ S (laws c E) eta →
      (n = 0 → 2 * eta * E ≤ tii ∧ (1 - tol) * tii ≤ 2 * eta * E) →
      ∀ eta' tii', solve c E tol n eta tii = .ok eta' tii' →
        2 * eta' * E ≤ tii' ∧ (1 - tol) * tii' ≤ 2 * eta' * E := by
  intro n
  induction n with
  | zero =>
    intro eta tii _ _ h eta' tii' hr
    simp only [solve, Out.ok.injEq] at hr
    obtain ⟨rfl, rfl⟩ := hr
    exact h rfl
  | succ n ih =>
    intro eta tii he hS _ eta' tii' hr
    obtain ⟨h1, h2, h3, h4⟩ := newton c hc E eta hE he hne
    simp only [solve] at hr
    split at hr
    · simp only [Out.ok.injEq] at hr
      obtain ⟨rfl, rfl⟩ := hr
      refine ⟨le_rfl, ?_⟩
      have : 0 < 2 * eta * E := by positivity
      nlinarith
    · split at hr
      · exact absurd hr (by simp)
      · next hnot =>
        refine ih _ _ h2 h3 (fun hn => ⟨?_, ?_⟩) eta' tii' hr
        · have := h4 hS
          nlinarith
        · have h : ¬ tol < |residual c E eta / E| := fun h => hnot ⟨hn, h⟩
          rw [not_lt, residual_S c hc E eta hE he, mul_div_cancel_left₀ _ hE.ne', abs_le] at h
          have hNS := N_ge_S _ (laws_ok c hc E hE) eta he
          rw [residual_S c hc E eta hE he, slope_N c hc E eta hE he]
          generalize laws c E = L at *
          have hN : 0 < N L eta := by linarith
          have hx : eta - E * (1 - S L eta) / (-(E / eta) * N L eta)
              = eta * ((N L eta + 1 - S L eta) / N L eta) := by
            field_simp; ring
          rw [hx]
          have h5 : 1 - tol ≤ (N L eta + 1 - S L eta) / N L eta := by
            rw [le_div_iff₀ hN]
            nlinarith [h.1]
          have h6 : 0 < 2 * eta * E := by positivity
          nlinarith

/-- The returned stress and the returned viscosity belong together: twice the viscosity times the strain rate is the
stress, up to the tolerance and never above it. -/
theorem run_stress (c : Creep) (hc : Physical c) (hg : c.gbs = none) (E tol huge : ℝ) (hE : 0 < E) (ht : 0 < tol)
    (hh : 0 < huge) (hbig : ∃ x ∈ isolated c E, x ≤ huge)
    (eta tii : ℝ) (hr : run c E tol huge = .ok eta tii) :
    2 * eta * E ≤ tii ∧ (1 - tol) * tii ≤ 2 * eta * E := by
  obtain ⟨hne, hgp, hS1⟩ := guess_full c hc hg E huge hE hh hbig
  exact solve_stress c hc E tol hE ht hne 20 _ _ hgp hS1 (fun h => absurd h (by norm_num)) _ _ hr

/-- Without grain boundary sliding, the returned viscosity is no larger than any of the isolated
viscosities, and at twice that viscosity times strain rate the mechanisms together flow at least as
fast as imposed: the viscosity is approached from above and never undershot. -/
theorem run_bounds (c : Creep) (hc : Physical c) (hg : c.gbs = none) (E tol huge : ℝ) (hE : 0 < E) (ht : 0 < tol)
    (hh : 0 < huge) (hbig : ∃ x ∈ isolated c E, x ≤ huge)
    (eta tii : ℝ) (hr : run c E tol huge = .ok eta tii) :
    (∀ x ∈ isolated c E, eta ≤ x) ∧ E ≤ flow c (2 * eta * E) := by
  obtain ⟨hne, hgp, hS1⟩ := guess_full c hc hg E huge hE hh hbig
  rcases solve_spec c hc E tol hE ht hne 20 (guess c E huge) (2 * guess c E huge * E) hgp (by positivity)
    (fun h => absurd h (by norm_num)) with h | ⟨e, t, h1, h2, _, _, h5⟩
  · rw [run, h] at hr; exact absurd hr (by simp)
  · rw [run, h1] at hr
    obtain ⟨rfl, rfl⟩ : e = eta ∧ t = tii := by simpa using hr
    obtain ⟨h6, h7⟩ := h5 hS1
    refine ⟨fun x hx => le_trans h7 (guess_le c E huge x hx), ?_⟩
    unfold flow
    rw [flow_S c hc E e hE h2, hg]
    simp only [part, Option.elim_none, add_zero]
    nlinarith

/-- Grain boundary sliding is switched on but contributes nothing: at the returned stress the
mechanisms the user asked for flow faster than imposed, by the whole rate of grain boundary sliding
less the tolerance.  (The corresponding prefactor is never assigned.) -/
theorem gbs_is_lost (c : Creep) (hc : Physical c) (q : ℝ × ℝ) (hq : c.gbs = some q) (E tol huge : ℝ)
    (hE : 0 < E) (ht : 0 < tol) (hh : 0 < huge)
    (ha : c.el.isSome ∨ c.cst.isSome ∨ c.pwl.isSome ∨ c.exp.isSome ∨ c.lin.isSome)
    (eta tii : ℝ) (hr : run c E tol huge = .ok eta tii) :
    E + (tii / (2 * q.1)) ^ q.2 - tol * E ≤ flow c tii ∧ 0 < (tii / (2 * q.1)) ^ q.2 := by
  rcases run_partition c hc E tol huge hE ht hh ha with h | ⟨e, t, h1, _, h3, h4⟩
  · rw [h] at hr; exact absurd hr (by simp)
  · rw [h1] at hr
    obtain ⟨rfl, rfl⟩ : e = eta ∧ t = tii := by simpa using hr
    have h5 := (abs_le.1 h4).2
    have hq' := hc.gbs q (by simp [hq])
    refine ⟨?_, Real.rpow_pos_of_pos (div_pos h3 (by linarith [hq'.1])) _⟩
    unfold flow
    rw [hq]
    simp only [part, Option.elim_some]
    linarith

/-- With grain boundary sliding as only mechanism, without elasticity, the iteration divides by
zero. -/
theorem gbs_alone_divides_by_zero (q : ℝ × ℝ) (d E tol huge : ℝ) (hE : 0 < E) (ht : tol ≤ 1) :
    run ⟨none, none, none, none, none, some q, d⟩ E tol huge = .zeroSlope := by
  have hr : ∀ eta, residual ⟨none, none, none, none, none, some q, d⟩ E eta = E := by
    intro eta; simp [residual, elasticRate, rates]
  have hs : ∀ eta, slope ⟨none, none, none, none, none, some q, d⟩ E eta = 0 := by
    intro eta; simp [slope]
  unfold run
  rw [show (20 : Nat) = 19 + 1 from rfl, solve]
  simp only [hr, hs, div_self hE.ne', abs_one]
  rw [if_neg (by linarith), if_neg (by norm_num), if_pos trivial]

/-- Non-vacuity: dislocation creep with elasticity and grain boundary sliding. -/
example : Physical ⟨some 2, none, some (1, 3), none, some (1, 1, 2), some (1, 2), 1⟩ := by
  refine ⟨?_, ?_, ?_, ?_, ?_, ?_, by norm_num⟩ <;> intro e he <;> first
    | (obtain rfl := Option.mem_some.1 he; norm_num)
    | exact absurd he (by simp)

/-- With a single linear mechanism the first guess is accepted. -/
example : run ⟨none, some 3, none, none, none, none, 1⟩ 1 (1 / 10) 100 = .ok 3 6 := by
  have hg : guess ⟨none, some 3, none, none, none, none, 1⟩ 1 100 = 3 := by norm_num [guess, isolated]
  have hr : residual ⟨none, some 3, none, none, none, none, 1⟩ 1 3 = 0 := by
    norm_num [residual, elasticRate, rates]
  unfold run
  rw [hg, show (20 : Nat) = 19 + 1 from rfl, solve]
  simp only [hr]
  norm_num

end Verif.LocalIter
