import Verif.Props.LocalIter
import Mathlib.Analysis.Complex.Exponential

/-!
C75: the local iterations never fail.  With `S` the strain rate over the given one and `N` its logarithmic
derivative, a Newton step multiplies the excess `S - 1` times `N` by at most a quarter, and the excess by at most half its value
times the largest exponent.
-/
namespace Verif.LocalIter
open Verif.Spec

/-- The Newton step written with `S` and `N`. -/
noncomputable def next (L : List (ℝ × ℝ)) (eta : ℝ) : ℝ := eta * (1 - (S L eta - 1) / N L eta)

section
variable {L : List (ℝ × ℝ)} (hL : ∀ q ∈ L, 0 < q.1 ∧ 1 ≤ q.2) (hne : L ≠ [])
include hL hne

theorem next_pos {eta : ℝ} (he : 0 < eta) : 0 < next L eta ∧ 1 ≤ S L (next L eta) := by
  have hS := S_pos _ hL hne eta he
  have hNS := N_ge_S _ hL eta he
  have hN : 0 < N L eta := lt_of_lt_of_le hS hNS
  have hpos : 0 < next L eta := by
    unfold next
    apply mul_pos he
    rw [sub_pos, div_lt_one hN]; linarith
  refine ⟨hpos, ?_⟩
  have hT := S_tangent _ hL (next L eta) eta hpos he
  have h2 : (next L eta / eta - 1) * N L eta = 1 - S L eta := by
    unfold next; field_simp; ring
  linarith

/-- The excess and the derivative cannot both stay: their relative changes add up to at most one. -/
theorem next_product {eta : ℝ} (he : 0 < eta) (h1 : 1 ≤ S L eta) :
    (S L (next L eta) - 1) * N L (next L eta) ≤ (S L eta - 1) * N L eta / 4 := by
  obtain ⟨hp, hS'⟩ := next_pos hL hne he
  have hS := S_pos _ hL hne eta he
  have hNS := N_ge_S _ hL eta he
  have hNS' := N_ge_S _ hL _ hp
  have hN : 0 < N L eta := lt_of_lt_of_le hS hNS
  have hT := S_tangent _ hL eta (next L eta) he hp
  have hr : (S L eta - 1) / N L eta ≤ eta / next L eta - 1 := by
    have ht0 : 0 ≤ (S L eta - 1) / N L eta := div_nonneg (by linarith) hN.le
    have ht1 : (S L eta - 1) / N L eta < 1 := by rw [div_lt_one hN]; linarith
    have : eta / next L eta = 1 / (1 - (S L eta - 1) / N L eta) := by
      unfold next
      rw [div_mul_eq_div_div, div_self he.ne']
    rw [this]
    generalize (S L eta - 1) / N L eta = t at *
    rw [le_sub_iff_add_le, le_div_iff₀ (by linarith)]
    nlinarith
  have hN' : 0 ≤ N L (next L eta) := by linarith
  have h3 : (S L eta - 1) / N L eta * N L (next L eta) ≤ S L eta - S L (next L eta) := by
    have := mul_le_mul_of_nonneg_right hr hN'
    linarith
  rw [div_mul_eq_mul_div, div_le_iff₀ hN] at h3
  generalize S L eta = s at *
  generalize N L eta = n at *
  generalize S L (next L eta) = s' at *
  generalize N L (next L eta) = n' at *
  -- a = (s'-1) n, b = (s-1) n', a + b ≤ (s-1) n
  have hab : (s' - 1) * n + (s - 1) * n' ≤ (s - 1) * n := by linarith
  rcases eq_or_lt_of_le h1 with h0 | h0
  · have : (s' - 1) * n ≤ 0 := by rw [← h0] at hab; linarith
    have hz : s' = 1 := by nlinarith
    rw [hz, ← h0]; simp
  · have hsn : 0 < (s - 1) * n := mul_pos (by linarith) hN
    have ha : 0 ≤ (s' - 1) * n := mul_nonneg (by linarith) hN.le
    have hb : 0 ≤ (s - 1) * n' := mul_nonneg (by linarith) hN'
    have h4 : ((s' - 1) * n) * ((s - 1) * n') ≤ ((s - 1) * n) * ((s - 1) * n) / 4 := by
      nlinarith [sq_nonneg ((s' - 1) * n - (s - 1) * n')]
    have h5 : ((s' - 1) * n') * ((s - 1) * n) ≤ ((s - 1) * n / 4) * ((s - 1) * n) := by nlinarith
    exact le_of_mul_le_mul_right h5 hsn

/-- `(1-t)^n` against its second-order expansion. -/
theorem power_quadratic {t n : ℝ} (ht0 : 0 ≤ t) (ht1 : t < 1) (hn : 1 ≤ n) :
    (1 - t) ^ n ≤ 1 - n * t + (n * t) ^ 2 / 2 := by
  clear hL hne
  have h1 : (1 - t) ^ n ≤ Real.exp (-(n * t)) := by
    have := Real.add_one_le_exp (-t)
    calc (1 - t) ^ n ≤ (Real.exp (-t)) ^ n := Real.rpow_le_rpow (by linarith) (by linarith) (by linarith)
      _ = Real.exp (-(n * t)) := by rw [← Real.exp_mul]; congr 1; ring
  refine h1.trans ?_
  have hx : 0 ≤ n * t := mul_nonneg (by linarith) ht0
  generalize n * t = x at *
  have h2 := Real.quadratic_le_exp_of_nonneg hx
  have h3 : Real.exp (-x) * Real.exp x = 1 := by rw [← Real.exp_add]; simp
  have hp := Real.exp_pos (-x)
  have h4 : 0 < 1 - x + x ^ 2 / 2 := by nlinarith [sq_nonneg (x - 1)]
  have h5 : 1 ≤ (1 - x + x ^ 2 / 2) * Real.exp x := by
    calc (1 : ℝ) ≤ (1 - x + x ^ 2 / 2) * (1 + x + x ^ 2 / 2) := by nlinarith [sq_nonneg (x ^ 2)]
      _ ≤ _ := mul_le_mul_of_nonneg_left h2 h4.le
  have : Real.exp (-x) ≤ (1 - x + x ^ 2 / 2) * (Real.exp (-x) * Real.exp x) := by
    calc Real.exp (-x) = Real.exp (-x) * 1 := (mul_one _).symm
      _ ≤ Real.exp (-x) * ((1 - x + x ^ 2 / 2) * Real.exp x) := mul_le_mul_of_nonneg_left h5 hp.le
      _ = _ := by ring
  rwa [h3, mul_one] at this

/-- Near the solution the excess is squared. -/
theorem next_quadratic {eta M : ℝ} (he : 0 < eta) (h1 : 1 ≤ S L eta) (hM : ∀ q ∈ L, q.2 ≤ M) :
    S L (next L eta) - 1 ≤ M / 2 * (S L eta - 1) ^ 2 := by
  have hS := S_pos _ hL hne eta he
  have hNS := N_ge_S _ hL eta he
  have hN : 0 < N L eta := lt_of_lt_of_le hS hNS
  obtain ⟨t, ht⟩ : ∃ t, t = (S L eta - 1) / N L eta := ⟨_, rfl⟩
  have ht0 : 0 ≤ t := ht ▸ div_nonneg (by linarith) hN.le
  have ht1 : t < 1 := by rw [ht, div_lt_one hN]; linarith
  have hnx : next L eta = eta * (1 - t) := by rw [ht]; rfl
  have key : ∀ L' : List (ℝ × ℝ), (∀ q ∈ L', 0 < q.1 ∧ 1 ≤ q.2) → (∀ q ∈ L', q.2 ≤ M) →
      S L' (eta * (1 - t)) ≤ S L' eta - t * N L' eta + M / 2 * t ^ 2 * N L' eta := by
    intro L'
    induction L' with
    | nil => intro _ _; simp [S, N]
    | cons q L' ih =>
      intro h h'
      have ih' := ih (fun q hq => h q (List.mem_cons_of_mem _ hq)) (fun q hq => h' q (List.mem_cons_of_mem _ hq))
      obtain ⟨hA, hn⟩ := h q (List.mem_cons_self ..)
      have hm := h' q (List.mem_cons_self ..)
      have hp := Real.rpow_pos_of_pos (div_pos he hA) q.2
      have hmul : (eta * (1 - t) / q.1) ^ q.2 = (eta / q.1) ^ q.2 * (1 - t) ^ q.2 := by
        rw [← Real.mul_rpow (by positivity) (by linarith)]; congr 1; ring
      have hq := mul_le_mul_of_nonneg_left (power_quadratic (L := [q]) (by simpa using ⟨hA, hn⟩) (by simp) ht0 ht1 hn) hp.le
      simp only [S, N, List.map_cons, List.sum_cons] at ih' ⊢
      rw [hmul]
      generalize (eta / q.1) ^ q.2 = s at *
      have h2 : s * ((q.2 * t) ^ 2 / 2) ≤ M / 2 * t ^ 2 * (q.2 * s) := by
        have : 0 ≤ s * q.2 * t ^ 2 / 2 := by positivity
        nlinarith
      nlinarith
  have h2 := key L hL hM
  rw [hnx]
  have htN : t * N L eta = S L eta - 1 := by rw [ht]; field_simp
  have hM0 : 0 ≤ M := by
    obtain ⟨q, hq⟩ := List.exists_mem_of_ne_nil L hne
    linarith [(hL q hq).2, hM q hq]
  have h3 : t ^ 2 * N L eta ≤ (S L eta - 1) ^ 2 := by
    have hN1 : 1 ≤ N L eta := by linarith
    rw [← htN]
    nlinarith [mul_nonneg (sq_nonneg t) hN.le]
  have := mul_le_mul_of_nonneg_left h3 (by linarith : 0 ≤ M / 2)
  nlinarith

/-- After `k` steps the excess is at most the starting product over `4^k`. -/
theorem iterate_linear {eta : ℝ} (he : 0 < eta) (h1 : 1 ≤ S L eta) (k : Nat) :
    0 < (next L)^[k] eta ∧ 1 ≤ S L ((next L)^[k] eta)
      ∧ (S L ((next L)^[k] eta) - 1) * N L ((next L)^[k] eta) ≤ (S L eta - 1) * N L eta / 4 ^ k := by
  induction k with
  | zero => simpa using ⟨he, h1⟩
  | succ k ih =>
    obtain ⟨a, b, c⟩ := ih
    rw [Function.iterate_succ_apply']
    obtain ⟨d, e⟩ := next_pos hL hne a
    refine ⟨d, e, (next_product hL hne a b).trans ?_⟩
    rw [pow_succ, ← div_div]
    linarith

/-- Nineteen steps bring the excess below `1e-11` when exponents are at most a thousand. -/
theorem iterate_converges {eta : ℝ} (he : 0 < eta) (h1 : 1 ≤ S L eta) (hs : S L eta ≤ 5) (hM : ∀ q ∈ L, q.2 ≤ 1000)
    (hN : N L eta ≤ 5000) : S L ((next L)^[19] eta) - 1 ≤ 1 / 10 ^ 11 := by
  obtain ⟨a, b, c⟩ := iterate_linear hL hne he h1 15
  have hNS := N_ge_S _ hL _ a
  obtain ⟨x, hx⟩ : ∃ x, x = (next L)^[15] eta := ⟨_, rfl⟩
  have hit : (next L)^[19] eta = next L (next L (next L (next L x))) := by
    rw [hx, show 19 = 4 + 15 from rfl, Function.iterate_add_apply]; rfl
  rw [hit]
  rw [← hx] at a b c hNS
  have h15 : S L x - 1 ≤ 2 / 10 ^ 5 := by
    have h2 : (S L eta - 1) * N L eta ≤ 4 * 5000 :=
      mul_le_mul (by linarith) hN (by linarith [N_ge_S _ hL eta he]) (by norm_num)
    have h3 : (S L x - 1) * 1 ≤ (S L x - 1) * N L x := mul_le_mul_of_nonneg_left (by linarith) (by linarith)
    have h4 : (S L eta - 1) * N L eta / 4 ^ 15 ≤ 4 * 5000 / 4 ^ 15 := div_le_div_of_nonneg_right h2 (by positivity)
    have h5 : (4 * 5000 / 4 ^ 15 : ℝ) ≤ 2 / 10 ^ 5 := by norm_num
    linarith
  have q1 := next_quadratic hL hne a b hM
  obtain ⟨p1, s1⟩ := next_pos hL hne a
  have q2 := next_quadratic hL hne p1 s1 hM
  obtain ⟨p2, s2⟩ := next_pos hL hne p1
  have q3 := next_quadratic hL hne p2 s2 hM
  obtain ⟨p3, s3⟩ := next_pos hL hne p2
  have q4 := next_quadratic hL hne p3 s3 hM
  have sqle : ∀ {u w : ℝ}, 0 ≤ u → u ≤ w → u ^ 2 ≤ w ^ 2 := fun h0 h => pow_le_pow_left₀ h0 h 2
  have e1 : S L (next L x) - 1 ≤ 2 / 10 ^ 7 := by
    have := sqle (by linarith) h15; norm_num at this ⊢; linarith
  have e2 : S L (next L (next L x)) - 1 ≤ 2 / 10 ^ 11 := by
    have := sqle (by linarith) e1; norm_num at this ⊢; linarith
  have e3 : S L (next L (next L (next L x))) - 1 ≤ 1 / 10 ^ 18 := by
    have := sqle (by linarith) e2; norm_num at this ⊢; linarith
  have := sqle (by linarith) e3; norm_num at this ⊢; linarith
end

/-- The step of the program is `next`. -/
theorem step_next (c : Creep) (hc : Physical c) (E eta : ℝ) (hE : 0 < E) (he : 0 < eta) (hne : laws c E ≠ []) :
    eta - residual c E eta / slope c E eta = next (laws c E) eta := by
  have hL := laws_ok c hc E hE
  have hS := S_pos _ hL hne eta he
  have hNS := N_ge_S _ hL eta he
  have hN : 0 < N (laws c E) eta := lt_of_lt_of_le hS hNS
  rw [residual_S c hc E eta hE he, slope_N c hc E eta hE he]
  unfold next
  field_simp
  ring

/-- The loop does not fail if its last iterate is good enough. -/
theorem solve_not_failed (c : Creep) (hc : Physical c) (E tol : ℝ) (hE : 0 < E) (hne : laws c E ≠ []) :
    ∀ (n : Nat) (eta tii : ℝ), 0 < eta → 1 ≤ S (laws c E) eta → S (laws c E) ((next (laws c E))^[n] eta) - 1 ≤ tol →
      solve c E tol (n + 1) eta tii ≠ .failed := by
  intro n
  have hL := laws_ok c hc E hE
  induction n with
  | zero =>
    intro eta tii he h1 h2
    have hr : residual c E eta / E = 1 - S (laws c E) eta := by
      rw [residual_S c hc E eta hE he]; field_simp
    simp only [Function.iterate_zero, id_eq] at h2
    have hab : ¬ tol < |residual c E eta / E| := by
      rw [hr, abs_sub_comm, abs_of_nonneg (by linarith)]; exact not_lt.2 h2
    simp only [solve]
    split
    · simp
    · split
      · next h => exact absurd h.2 hab
      · split <;> simp
  | succ n ih =>
    intro eta tii he h1 h2
    rw [Function.iterate_succ_apply] at h2
    obtain ⟨hp, hs⟩ := next_pos hL hne he
    have h3 := ih (next (laws c E) eta) (2 * eta * E) hp hs h2
    rw [solve]
    simp only [step_next c hc E eta hE he hne]
    split
    · simp
    · split
      · next h => exact absurd h.1 (Nat.succ_ne_zero n)
      · split
        · simp
        · exact h3

/-- At the first guess every mechanism carries at most the whole strain rate. -/
theorem guess_sums (c : Creep) (hc : Physical c) (E huge : ℝ) (hE : 0 < E) (hh : 0 < huge)
    (hM : ∀ q ∈ laws c E, q.2 ≤ 1000) :
    S (laws c E) (guess c E huge) ≤ 5 ∧ N (laws c E) (guess c E huge) ≤ 5000 := by
  have hg := guess_pos c hc E huge hE hh
  have hL := laws_ok c hc E hE
  have hle : ∀ q ∈ laws c E, (guess c E huge / q.1) ^ q.2 ≤ 1 := by
    intro q hq
    have hmem : q.1 ∈ isolated c E := by
      unfold laws at hq
      simp only [List.mem_append, List.mem_map, Option.mem_toList] at hq
      unfold isolated
      simp only [List.mem_append, List.mem_map, Option.mem_toList]
      rcases hq with (((⟨e, h, rfl⟩ | ⟨e, h, rfl⟩) | ⟨p, h, rfl⟩) | ⟨p, h, rfl⟩) | ⟨p, h, rfl⟩
      · exact Or.inl (Or.inl (Or.inl (Or.inr h)))
      · exact Or.inl (Or.inl (Or.inl (Or.inl (Or.inl h))))
      · exact Or.inl (Or.inl (Or.inl (Or.inl (Or.inr ⟨p, h, rfl⟩))))
      · exact Or.inl (Or.inl (Or.inr ⟨p, h, rfl⟩))
      · exact Or.inl (Or.inr ⟨p, h, rfl⟩)
    have h1 := guess_le c E huge q.1 hmem
    have hq1 := (hL q hq).1
    exact Real.rpow_le_one (div_nonneg hg.le hq1.le) ((div_le_one hq1).2 h1) (by linarith [(hL q hq).2])
  have hlen : (laws c E).length ≤ 5 := by
    unfold laws
    simp only [List.length_append, List.length_map]
    have : ∀ {α : Type} (o : Option α), o.toList.length ≤ 1 := by intro α o; cases o <;> simp
    have h1 := this c.el; have h2 := this c.cst; have h3 := this c.pwl; have h4 := this c.exp; have h5 := this c.lin
    omega
  have hlen' : ((laws c E).length : ℝ) ≤ 5 := by exact_mod_cast hlen
  constructor
  · unfold S
    have := List.sum_le_card_nsmul ((laws c E).map fun q => (guess c E huge / q.1) ^ q.2) 1 (by
      intro x hx; obtain ⟨q, hq, rfl⟩ := List.mem_map.1 hx; exact hle q hq)
    simp only [List.length_map, nsmul_eq_mul, mul_one] at this
    linarith
  · unfold N
    have := List.sum_le_card_nsmul ((laws c E).map fun q => q.2 * (guess c E huge / q.1) ^ q.2) 1000 (by
      intro x hx; obtain ⟨q, hq, rfl⟩ := List.mem_map.1 hx
      have h1 := hle q hq; have h2 := hM q hq; have h3 := (hL q hq).2
      nlinarith)
    simp only [List.length_map, nsmul_eq_mul] at this
    linarith

/-- The local iterations never fail: for any physical mechanisms whose exponents are at most a thousand and of which one is softer
than the cut-off, twenty passes find viscosity and stress at which the strain rates add up to the given one. -/
theorem run_succeeds (c : Creep) (hc : Physical c) (hg : c.gbs = none) (E huge : ℝ) (hE : 0 < E) (hh : 0 < huge)
    (hbig : ∃ x ∈ isolated c E, x ≤ huge) (hM : ∀ q, c.pwl = some q ∨ c.exp = some q → q.2 ≤ 1000)
    (hMl : ∀ q, c.lin = some q → q.2.1 ≤ 1000) :
    ∃ eta tii, run c E (1 / 10 ^ 11) huge = .ok eta tii ∧ 0 < eta ∧ 0 < tii
      ∧ |E - flowWithoutGbs c tii| ≤ 1 / 10 ^ 11 * E := by
  obtain ⟨hne, hgp, h1⟩ := guess_full c hc hg E huge hE hh hbig
  have hL := laws_ok c hc E hE
  have hM' : ∀ q ∈ laws c E, q.2 ≤ 1000 := by
    intro q hq
    unfold laws at hq
    simp only [List.mem_append, List.mem_map, Option.mem_toList, Option.mem_def] at hq
    rcases hq with (((⟨e, h, rfl⟩ | ⟨e, h, rfl⟩) | ⟨p, h, rfl⟩) | ⟨p, h, rfl⟩) | ⟨p, h, rfl⟩
    · norm_num
    · norm_num
    · exact hM p (Or.inl h)
    · exact hM p (Or.inr h)
    · exact hMl p h
  obtain ⟨hs, hN⟩ := guess_sums c hc E huge hE hh hM'
  have hconv := iterate_converges hL hne hgp h1 hs hM' hN
  rcases solve_spec c hc E (1 / 10 ^ 11) hE (by norm_num) hne 20 (guess c E huge) (2 * guess c E huge * E) hgp (by positivity)
    (fun h => absurd h (by norm_num)) with h | ⟨e, t, a, b, d, f, _⟩
  · exact absurd h (solve_not_failed c hc E _ hE hne 19 _ _ hgp h1 hconv)
  · exact ⟨e, t, a, b, d, f⟩

end Verif.LocalIter
