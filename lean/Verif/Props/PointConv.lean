import Verif.Props.LocalConv
import Verif.Props.PointLawFaults
import Verif.Props.AnisoGrid

/-!
C121, C135: the stress update of a phase always gives a result.
-/
namespace Verif.Point
open Verif Verif.Spec

theorem clampT_max (v : Env) (T : ℝ) : clampT v T = max T (27315 / 100 / v.sT) := by
  unfold clampT
  split
  · next h => exact (max_eq_right h.le).symm
  · next h => exact (max_eq_left (not_lt.1 h)).symm

theorem creep_moderate (v : Env) (m : Mat) (i : In) (huet : ℝ × ℝ → ℝ × ℝ) (hm : Moderate v m i)
    (hh : ∀ q, q.2 ≤ 1000 → (huet q).2 ≤ 1000) :
    (∀ q, (creep v m huet i).pwl = some q ∨ (creep v m huet i).exp = some q → q.2 ≤ 1000)
    ∧ ∀ q, (creep v m huet i).lin = some q → q.2.1 ≤ 1000 := by
  constructor
  · rintro q (h | h)
    · by_cases hp : m.pwl = true
      · simp only [creep, hp, if_true, Option.some.injEq] at h
        rw [← h]; exact hh _ (hm.pwl hp)
      · simp [creep, hp] at h
    · by_cases hp : m.exp = true ∧ i.T < (1200 + 27315 / 100) / v.sT
      · simp only [creep] at h
        rw [if_pos hp] at h
        have h := Option.some.inj h
        rw [← h, clampT_max]
        exact hm.exp hp.1
      · simp only [creep] at h
        rw [if_neg hp] at h
        exact absurd h (by simp)
  · intro q h
    by_cases hp : m.lin = true
    · simp only [creep, hp, if_true, Option.some.injEq] at h
      rw [← h]; exact hm.lin hp
    · simp [creep, hp] at h

/-- The update of a phase always gives a result: with meaningful parameters, exponents of at most a thousand, a strength that is not negative and a
mechanism softer than `1e100` Pa s, neither the local iterations nor the plastic correction end the program. -/
theorem update_goes_on (v : Env) (m : Mat) (huet : ℝ × ℝ → ℝ × ℝ) (i : In) (cell : Bool) (hs : Sound v m i)
    (hh : ∀ q, 0 < q.1 → 1 ≤ q.2 → 0 < (huet q).1 ∧ 1 ≤ (huet q).2) (hh' : ∀ q, q.2 ≤ 1000 → (huet q).2 ≤ 1000)
    (hm : Moderate v m i) (hp : m.plast = true → SimplePlastic v m i)
    (hpos : m.plast = true → 0 < m.etaVp ∨ 0 < yieldStrength m i)
    (hg : m.lin = true → 0 < m.gsRef) (hd : 1 / 10 ^ 13 / v.sL ≤ i.d)
    (hbig : ∃ x ∈ LocalIter.isolated (creep v m huet i) (rate v i.E), x ≤ 10 ^ 100 / v.sEta) :
    ∃ o, update v m huet i cell = .ok o := by
  rcases update_total_partial v m huet i cell hs hh hp hpos hg hd with h | h
  · exfalso
    obtain ⟨hm1, hm2⟩ := creep_moderate v m i huet hm hh'
    obtain ⟨e, t, h1, _⟩ := LocalIter.run_succeeds (creep v m huet i) (creep_physical v m i hs huet hh) (by simp [creep, hs.gbs])
      (rate v i.E) (10 ^ 100 / v.sEta) (rate_ge v hs.sE i.E).2 (div_pos (by positivity) hs.sEta) hbig hm1 hm2
    unfold update at h
    rw [if_neg (fun h => absurd h.2.2 (not_lt.2 hd))] at h
    dsimp only at h
    rw [h1] at h
    simp only [finish] at h
    split at h
    · exact Res.noConfusion h
    · split at h
      · exact absurd (Res.exit.inj h) (by norm_num)
      · exact Res.noConfusion h
  · exact h

/-- The loop of the anisotropic update does not fail if its last iterate is good enough. -/
theorem iter_not_failed (c : LocalIter.Creep) (hc : Physical c) (E tol : ℝ) (hE : 0 < E) (hne : LocalIter.laws c E ≠ []) :
    ∀ (n : Nat) (eta tii : ℝ), 0 < eta → 1 ≤ LocalIter.S (LocalIter.laws c E) eta →
      LocalIter.S (LocalIter.laws c E) ((LocalIter.next (LocalIter.laws c E))^[n] eta) - 1 ≤ tol →
      iterAniso c E tol (n + 1) eta tii ≠ .exit 0 := by
  intro n
  have hL := LocalIter.laws_ok c hc E hE
  induction n with
  | zero =>
    intro eta tii he h1 h2
    have hr : LocalIter.residual c E eta / E = 1 - LocalIter.S (LocalIter.laws c E) eta := by
      rw [LocalIter.residual_S c hc E eta hE he]; field_simp
    simp only [Function.iterate_zero, id_eq] at h2
    have hab : ¬ tol < |LocalIter.residual c E eta / E| := by
      rw [hr, abs_sub_comm, abs_of_nonneg (by linarith)]; exact not_lt.2 h2
    simp only [iterAniso]
    split
    · simp
    · split
      · simp
      · split
        · next h => exact absurd h.2 hab
        · simp
  | succ n ih =>
    intro eta tii he h1 h2
    rw [Function.iterate_succ_apply] at h2
    obtain ⟨hp, hs⟩ := LocalIter.next_pos hL hne he
    have h3 := ih (LocalIter.next (LocalIter.laws c E) eta) (2 * eta * E) hp hs h2
    rw [iterAniso]
    simp only [LocalIter.step_next c hc E eta hE he hne]
    split
    · simp
    · split
      · simp
      · split
        · next h => exact absurd h.1 (Nat.succ_ne_zero n)
        · exact h3

theorem creepRate_pos (v : Env) (m : Mat) (i : In) (hs : Sound v m i) (t : ℝ) (ht : 0 < t)
    (hd : m.cst = true ∨ m.pwl = true ∨ m.lin = true) : 0 < creepRate (creepAniso v m i) t := by
  have hc := creepAniso_physical v m i hs
  have hpr : ∀ o : Option (ℝ × ℝ), (∀ q ∈ o, 0 < q.1 ∧ 1 ≤ q.2) → 0 ≤ powerRate o t ∧ (o.isSome → 0 < powerRate o t) := by
    intro o ho
    cases o with
    | none => simp [powerRate]
    | some q =>
      have : 0 < powerRate (some q) t := by
        unfold powerRate LocalIter.pref
        have h0 := (ho q rfl).1
        positivity
      exact ⟨this.le, fun _ => this⟩
  have hl : 0 ≤ linRate (creepAniso v m i) t ∧ ((creepAniso v m i).lin.isSome → 0 < linRate (creepAniso v m i) t) := by
    unfold linRate
    cases h : (creepAniso v m i).lin with
    | none => simp
    | some q =>
      have h0 := (hc.lin q h).1
      have hd := hc.d
      have : 0 < LocalIter.pref q.1 q.2.1 * t ^ q.2.1 * (creepAniso v m i).d ^ (-q.2.2) := by
        unfold LocalIter.pref; positivity
      exact ⟨this.le, fun _ => this⟩
  have hk : 0 ≤ cstRate (creepAniso v m i) t ∧ ((creepAniso v m i).cst.isSome → 0 < cstRate (creepAniso v m i) t) := by
    unfold cstRate
    cases h : (creepAniso v m i).cst with
    | none => simp
    | some e =>
      have h0 := hc.cst e h
      have : 0 < t / 2 / e := by positivity
      exact ⟨this.le, fun _ => this⟩
  have he := (hpr _ hc.exp).1
  have hp := hpr _ hc.pwl
  unfold creepRate
  rcases hd with h | h | h
  · have := hk.2 (by simp [creepAniso, h]); linarith [hp.1, hl.1]
  · have := hp.2 (by simp [creepAniso, h]); linarith [hk.1, hl.1]
  · have := hl.2 (by simp [creepAniso, h]); linarith [hk.1, hp.1]

/-- The anisotropic update always gives a result for a strain rate other than zero: as `update_goes_on`, for materials that creep and, where they
are plastic, have a positive strength and compressibility. -/
theorem aniso_goes_on (v : Env) (m : Mat) (i : In) (angle ani : ℝ) (cell : Bool) (hs : Sound v m i)
    (hm : Moderate v m i) (hE : 0 < invariant i.E) (hp : m.plast = true → GoodPlastic v m i)
    (hcr : m.cst = true ∨ m.pwl = true ∨ m.lin = true) (hd : 1 / 10 ^ 13 / v.sL ≤ i.d)
    (hbig : ∃ x ∈ LocalIter.isolated (creepAniso v m i) (invariant i.E), x ≤ 10 ^ 100 / v.sEta) :
    ∃ o, updateAniso v m i angle ani cell = .ok o := by
  have hinv : invariant (layerRate angle i.E) = invariant i.E := by
    rw [layerRate_turn]; exact invariant_turn _ _
  have hc := creepAniso_physical v m i hs
  have hbp : (0 : ℝ) < 10 ^ 100 / v.sEta := div_pos (by positivity) hs.sEta
  obtain ⟨hne, hgp, hS1⟩ := LocalIter.guess_full _ hc rfl (invariant i.E) _ hE hbp hbig
  have hM : (∀ q, (creepAniso v m i).pwl = some q ∨ (creepAniso v m i).exp = some q → q.2 ≤ 1000)
      ∧ ∀ q, (creepAniso v m i).lin = some q → q.2.1 ≤ 1000 := by
    rw [creepAniso_eq]
    exact creep_moderate { v with mixing := false } { m with gbs := false } i id ⟨hm.pwl, hm.lin, hm.exp⟩ fun q h => h
  have hM' : ∀ q ∈ LocalIter.laws (creepAniso v m i) (invariant i.E), q.2 ≤ 1000 := by
    intro q hq
    unfold LocalIter.laws at hq
    simp only [List.mem_append, List.mem_map, Option.mem_toList, Option.mem_def] at hq
    rcases hq with (((⟨e, h, rfl⟩ | ⟨e, h, rfl⟩) | ⟨p, h, rfl⟩) | ⟨p, h, rfl⟩) | ⟨p, h, rfl⟩
    · norm_num
    · norm_num
    · exact hM.1 p (Or.inl h)
    · exact hM.1 p (Or.inr h)
    · exact hM.2 p h
  obtain ⟨hsS, hN⟩ := LocalIter.guess_sums _ hc (invariant i.E) _ hE hbp hM'
  have hconv := LocalIter.iterate_converges (LocalIter.laws_ok _ hc _ hE) hne hgp hS1 hsS hM' hN
  rcases aniso_iterations v m i hs (invariant i.E) hE hbig with h | ⟨etaVe, tii, h1, he, ht, _⟩
  · exact absurd h (iter_not_failed _ hc _ _ hE hne 19 _ _ hgp hS1 hconv)
  · unfold updateAniso
    rw [if_neg (fun h => absurd h.2.2 (not_lt.2 hd))]
    dsimp only
    rw [hinv, h1]
    dsimp only [finishAniso]
    rw [inverse_eq _ hc i.d (fun _ => rfl) tii ht]
    have hV := creepRate_pos v m i hs tii ht hcr
    have hv : 0 < 2 * creepRate (creepAniso v m i) tii / tii := by positivity
    by_cases hy : Yields m i tii
    · obtain ⟨h2, h3, _, _, h4⟩ := plastic_facts v m i (hp hy.1) hs.dt etaVe tii he hy
      have hb := (hp hy.1).beta
      rw [if_neg (by rintro ⟨_, h | h | h⟩ <;> linarith), if_neg]
      · exact ⟨_, rfl⟩
      · rw [if_pos hy]
        simp only [Option.elim_some]
        positivity
    · rw [if_neg (fun h => hy h.1), if_neg]
      · exact ⟨_, rfl⟩
      · rw [if_neg hy]
        simp only [Option.elim_none, add_zero]
        exact hv.ne'

/-- Both apply to a yielding rock in an elastic model. -/
example : (∃ o, update (settings true) rock id (node (1 / 10 ^ 13) (10 ^ 8)) true = .ok o)
    ∧ ∃ o, updateAniso (settings true) rock (node (1 / 10 ^ 13) (10 ^ 8)) 1 3 true = .ok o := by
  obtain ⟨hs, _⟩ := rock_yields
  obtain ⟨_, hE, hbig, hgp, _⟩ := aniso_rock_yields
  have hm : Moderate (settings true) rock (node (1 / 10 ^ 13) (10 ^ 8)) :=
    ⟨fun h => by simp [rock] at h, fun h => by simp [rock] at h, fun h => by simp [rock] at h⟩
  refine ⟨?_, aniso_goes_on _ _ _ _ _ _ hs hm hE (fun _ => hgp) (Or.inl rfl) (by simp [settings, node]; norm_num) hbig⟩
  refine update_goes_on _ _ id _ true hs (fun q h1 h2 => ⟨h1, h2⟩) (fun q h => h) hm (fun _ => ?_) (fun _ => Or.inr hgp.positive)
    (fun h => by simp [rock] at h) (by simp [settings, node]; norm_num) ⟨10 ^ 22, ?_, by simp only [settings]; norm_num⟩
  · refine ⟨rfl, le_rfl, by simp only [rock]; positivity, fun _ => by simp [node], ?_, by simp only [settings]; norm_num⟩
    simp only [node, Real.cos_pi_div_six, Real.sin_pi_div_six]
    positivity
  · simp [LocalIter.isolated, creep, rock, constantViscosity, settings, Env.el]

end Verif.Point
