import Verif.Model.LineSearch

/- C17: line search. -/
namespace Verif.LS
open Verif

/-- The selected index is a trial with the smallest value, and the first such. -/
theorem argmin_spec (f : Nat → ℝ) :
    argmin f < ntry ∧ (∀ k < ntry, f (argmin f) ≤ f k) ∧ ∀ k < argmin f, f (argmin f) < f k := by
  have key := forUp_inv (s := (f 0, 0))
    (f := fun s k => if f (k + 1) < s.1 then (f (k + 1), k + 1) else s)
    (P := fun m s => s.1 = f s.2 ∧ s.2 < m + 1 ∧ (∀ k < m + 1, s.1 ≤ f k) ∧ ∀ k < s.2, s.1 < f k)
    (ntry - 1) ⟨rfl, by omega, fun k hk => by
      have : k = 0 := by omega
      rw [this], fun k hk => absurd hk (Nat.not_lt_zero k)⟩ ?_
  · obtain ⟨h1, h2, h3, h4⟩ := key
    refine ⟨by unfold argmin; simpa [ntry] using h2, fun k hk => ?_, fun k hk => ?_⟩
    · unfold argmin; rw [← h1]; exact h3 k (by simpa [ntry] using hk)
    · unfold argmin; rw [← h1]; exact h4 k hk
  · intro k s hk ⟨h1, h2, h3, h4⟩
    by_cases h : f (k + 1) < s.1
    · simp only [if_pos h]
      refine ⟨trivial, by omega, fun j hj => ?_, fun j hj => lt_of_lt_of_le h (h3 j hj)⟩
      by_cases e : j = k + 1
      · rw [e]
      · exact le_trans (le_of_lt h) (h3 j (by omega))
    · simp only [if_neg h]
      refine ⟨h1, by omega, fun j hj => ?_, h4⟩
      by_cases e : j = k + 1
      · rw [e]; exact not_lt.mp h
      · exact h3 j (by omega)

/-- The trial steps run evenly from `maxalpha` down to `minalpha`. -/
theorem trial_steps (c : Cfg) (hle : minalpha c ≤ maxalpha c) (k : Nat) :
    alphav c k = maxalpha c - k * ((maxalpha c - minalpha c) / 5) ∧
    alphav c 0 = maxalpha c ∧ alphav c (ntry - 1) = minalpha c := by
  have e : ∀ k : Nat, alphav c k = maxalpha c - k * ((maxalpha c - minalpha c) / 5) := by
    intro k
    unfold alphav
    induction k with
    | zero => simp
    | succ k ih =>
      rw [forUp_succ, ih, abs_of_nonneg (by linarith)]
      push_cast [ntry]
      ring
  refine ⟨e k, by rw [e]; simp, by rw [e]; push_cast [ntry]; ring⟩

/-- C17 (selection, partial).  Without residual growth allowed: either stagnation is signalled with
step zero, or the returned step is one of the trials and at least one momentum residual or the
total norm decreased; and whenever some trial decreases the total norm, the returned step (if not
signalled as stagnation) is the trial with the smallest total norm, below the starting one.
Missing for the full property: when no trial decreases the total norm the code may still accept a
step (see `line_search_accepts_worse_step`). -/
theorem line_search_selects_partial (c : Cfg) (rx rz rp : Nat → ℝ) (hg : c.letResGrow ≠ 1) :
    ((select c rx rz rp).stagnated = true ∧ (select c rx rz rp).alpha = 0) ∨
    ((select c rx rz rp).stagnated = false ∧ 1 / 10 ^ 13 ≤ |(select c rx rz rp).alpha| ∧
      ∃ i < ntry, (select c rx rz rp).alpha = alphav c i ∧
        ((norm3 (rx i) (rz i) (rp i) < norm3 c.rx0 c.rz0 c.rp0 ∧
            ∀ k < ntry, norm3 (rx i) (rz i) (rp i) ≤ norm3 (rx k) (rz k) (rp k)) ∨
          ((∀ k < ntry, norm3 c.rx0 c.rz0 c.rp0 ≤ norm3 (rx k) (rz k) (rp k)) ∧
            (rx i < c.rx0 ∨ rz i < c.rz0)))) := by
  obtain ⟨a1, a2, _⟩ := argmin_spec fun k => norm3 (rx k) (rz k) (rp k)
  obtain ⟨b1, b2, _⟩ := argmin_spec fun k => norm2 (rx k) (rz k)
  obtain ⟨c1, c2, _⟩ := argmin_spec rx
  obtain ⟨d1, d2, _⟩ := argmin_spec rz
  unfold select
  simp only [if_neg hg]
  set ixzp := argmin fun k => norm3 (rx k) (rz k) (rp k)
  set ixz := argmin fun k => norm2 (rx k) (rz k)
  set ix := argmin rx
  set iz := argmin rz
  by_cases h1 : norm3 (rx ixzp) (rz ixzp) (rp ixzp) < norm3 c.rx0 c.rz0 c.rp0
  · simp only [if_pos h1]
    by_cases g : |alphav c ixzp| < 1 / 10 ^ 13
    · simp only [g, true_or, if_true]; exact Or.inl ⟨trivial, trivial⟩
    · simp only [g, false_or, Bool.true_eq_false, if_false]
      exact Or.inr ⟨trivial, not_lt.mp g, ixzp, a1, rfl, Or.inl ⟨h1, a2⟩⟩
  · simp only [if_neg h1]
    have h1' : ∀ k < ntry, norm3 c.rx0 c.rz0 c.rp0 ≤ norm3 (rx k) (rz k) (rp k) := fun k hk =>
      le_trans (not_lt.mp h1) (a2 k hk)
    by_cases h2 : rx ixz < c.rx0 ∧ rz ixz < c.rz0
    · simp only [if_pos h2]
      by_cases g : |alphav c ixz| < 1 / 10 ^ 13
      · simp only [g, true_or, if_true]; exact Or.inl ⟨trivial, trivial⟩
      · simp only [g, false_or, Bool.true_eq_false, if_false]
        exact Or.inr ⟨trivial, not_lt.mp g, ixz, b1, rfl, Or.inr ⟨h1', Or.inl h2.1⟩⟩
    · simp only [if_neg h2]
      by_cases h3 : rx ix < c.rx0
      · simp only [if_pos h3]
        by_cases g : |alphav c ix| < 1 / 10 ^ 13
        · simp only [g, true_or, if_true]; exact Or.inl ⟨trivial, trivial⟩
        · simp only [g, false_or, Bool.true_eq_false, if_false]
          exact Or.inr ⟨trivial, not_lt.mp g, ix, c1, rfl, Or.inr ⟨h1', Or.inl h3⟩⟩
      · simp only [if_neg h3]
        by_cases h4 : rz iz < c.rz0
        · simp only [if_pos h4]
          by_cases g : |alphav c iz| < 1 / 10 ^ 13
          · simp only [g, true_or, if_true]; exact Or.inl ⟨trivial, trivial⟩
          · simp only [g, false_or, Bool.true_eq_false, if_false]
            exact Or.inr ⟨trivial, not_lt.mp g, iz, d1, rfl, Or.inr ⟨h1', Or.inr h4⟩⟩
        · simp [if_neg h4]

/-- C17 is false as stated: with pressure residuals exploding at every trial, a step is accepted
because the horizontal momentum residual alone decreased, although every trial has a larger total
norm than the start. -/
theorem line_search_accepts_worse_step : ∃ (c : Cfg) (rx rz rp : Nat → ℝ), c.letResGrow = 0 ∧
    (select c rx rz rp).stagnated = false ∧ (select c rx rz rp).alpha ≠ 0 ∧
    ∀ k < ntry, norm3 c.rx0 c.rz0 c.rp0 < norm3 (rx k) (rz k) (rp k) := by
  let c : Cfg := ⟨1, 0, 1 / 10, 1, 1, 1⟩
  have hn : norm3 c.rx0 c.rz0 c.rp0 < norm3 (1 / 2) 1 10 :=
    Real.sqrt_lt_sqrt (by norm_num [c]) (by norm_num [c])
  have am : ∀ v : ℝ, argmin (fun _ => v) = 0 := fun v => by
    have := (argmin_spec fun _ => v).2.2
    by_contra h
    exact absurd (this 0 (by omega)) (lt_irrefl _)
  have a0 : alphav c 0 = -(1 / 10) := by simp [alphav, maxalpha, c]
  have e : select c (fun _ => 1 / 2) (fun _ => 1) (fun _ => 10) = ⟨-(1 / 10), false⟩ := by
    unfold select
    simp only [am, if_neg (not_lt.mpr (le_of_lt hn)), a0]
    norm_num [c]
  refine ⟨c, fun _ => 1 / 2, fun _ => 1, fun _ => 10, rfl, ?_, ?_, fun k _ => hn⟩
  · rw [e]
  · rw [e]; norm_num

/-- Second finding for C17: when the pressure residual is smallest at the first trial, the code
reads `rp[ip]` with `ip` never assigned (StokesRoutines.c:713). -/
theorem line_search_reads_uninitialised_index : ∃ rp : Nat → ℝ, ¬ ipInitialised rp :=
  ⟨fun _ => 1, fun ⟨_, _, _, h⟩ => lt_irrefl _ h⟩

theorem copyArr_apply (n : Nat) (dst src : Nat → ℝ) (k : Nat) :
    copyArr n dst src k = if k < n then src k else dst k := by
  unfold copyArr
  exact forUp_pointwise n dst (fun k _ => src k) k

/-- Agreement of the three fields on the allocated entries. -/
def SameFields (n : Sizes) (a b : Fields) : Prop :=
  (∀ k < n.u, a.u k = b.u k) ∧ (∀ k < n.v, a.v k = b.v k) ∧ ∀ k < n.p, a.p k = b.p k

/-- C17 (fields).  Whatever the trial updates and the viscosity refresh do, velocity and pressure
are afterwards those from before the search. -/
theorem line_search_restores_fields {τ : Type} (c : Cfg) (n : Sizes) (malloc : Fields)
    (extract : Fields → ℝ → Fields) (refresh : Fields → τ → τ)
    (measure : Fields → τ → ℝ × ℝ × ℝ) (f : Fields) (t : τ) :
    SameFields n (lineSearch c n malloc extract refresh measure f t).2.1 f := by
  unfold lineSearch SameFields
  simp only [copyFields]
  refine ⟨fun k hk => ?_, fun k hk => ?_, fun k hk => ?_⟩ <;> simp [copyArr_apply, hk]

/-- C17 (measured where claimed).  Every trial updates the fields *before the search* (not those
left by the previous trial): if update and residual only look at allocated entries, the selection is
made on the residuals of `f` updated by each trial step. -/
theorem line_search_trials_start_from_initial {τ : Type} (c : Cfg) (n : Sizes) (malloc : Fields)
    (extract : Fields → ℝ → Fields) (measure : Fields → τ → ℝ × ℝ × ℝ) (f : Fields) (t : τ)
    (hloc : ∀ a b s, SameFields n a b → extract a s = extract b s) :
    (lineSearch c n malloc extract (fun _ t => t) measure f t).1 =
      select c (fun k => if k < ntry then (measure (extract f (alphav c k)) t).1 else 0)
        (fun k => if k < ntry then (measure (extract f (alphav c k)) t).2.1 else 0)
        (fun k => if k < ntry then (measure (extract f (alphav c k)) t).2.2 else 0) := by
  have hs : ∀ g : Fields, SameFields n (copyFields n g (copyFields n malloc f)) f := by
    intro g
    refine ⟨fun k hk => ?_, fun k hk => ?_, fun k hk => ?_⟩ <;>
      simp [copyFields, copyArr_apply, hk]
  have he : ∀ (g : Fields) (a : ℝ), extract (copyFields n g (copyFields n malloc f)) a = extract f a :=
    fun g a => hloc _ _ a (hs g)
  have key : ∀ m, (forUp m (f, t, fun _ : Nat => ((0, 0, 0) : ℝ × ℝ × ℝ)) (fun s kk =>
      (extract f (alphav c kk), s.2.1, upd s.2.2 kk (measure (extract f (alphav c kk)) s.2.1)))).2 =
      (t, fun k => if k < m then measure (extract f (alphav c k)) t else (0, 0, 0)) := by
    intro m
    induction m with
    | zero => simp
    | succ m ih =>
      rw [forUp_succ]
      simp only [ih]
      congr 1
      funext k
      by_cases h : k = m
      · subst h; simp
      · rw [upd_ne _ _ h]
        by_cases h2 : k < m
        · simp [h2, Nat.lt_succ_of_lt h2]
        · have : ¬ k < m + 1 := by omega
          simp [h2, this]
  unfold lineSearch
  simp only [he, key]
  congr 1 <;> funext k <;> split_ifs <;> rfl

/-- Non-vacuity: residual norms halved at every trial, Newton direction: accepted, not stagnated. -/
example : (select ⟨1, 0, 1 / 10, 1, 1, 1⟩ (fun _ => 1 / 2) (fun _ => 1 / 2) (fun _ => 1 / 2))
    = ⟨-(1 / 10), false⟩ := by
  have hn : norm3 (1 / 2) (1 / 2) (1 / 2) < norm3 1 1 1 :=
    Real.sqrt_lt_sqrt (by norm_num) (by norm_num)
  have am : ∀ v : ℝ, argmin (fun _ => v) = 0 := fun v => by
    have := (argmin_spec fun _ => v).2.2
    by_contra h
    exact absurd (this 0 (by omega)) (lt_irrefl _)
  have a0 : alphav ⟨1, 0, 1 / 10, 1, 1, 1⟩ 0 = -(1 / 10) := by simp [alphav, maxalpha]
  unfold select
  simp only [am, if_pos hn, a0]
  norm_num

end Verif.LS
