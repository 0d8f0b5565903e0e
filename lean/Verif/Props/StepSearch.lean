import Verif.Props.StepUpdate

/-
C147: the residual by which a line search step is chosen, and the residual found in the next pass.
-/
namespace Verif.StepFlow
open Verif

private theorem pass_ok {S : Setting} {f : LS.Fields} {t t' : Mech} {R : Rows} (h : pass S f t = .ok (t', R)) :
    updateNL S false f t = .ok t' ∧ R = measured S (opsOf S t') t'.rho f t' := by
  unfold pass at h
  split at h
  · next t1 h1 =>
    simp only [Point.Outcome.ok.injEq, Prod.mk.injEq] at h
    obtain ⟨rfl, rfl⟩ := h
    exact ⟨h1, rfl⟩
  · exact absurd h (by simp)
  · exact absurd h (by simp)

private theorem trial_ok {S : Setting} {o : Mech} {f : LS.Fields} {t t' : Mech} {R : Rows} (h : trial S o f t = .ok (t', R)) :
    updateNL S true f t = .ok t' ∧ R = measured S (opsOf S o) o.rho f t' := by
  unfold trial at h
  split at h
  · next t1 h1 =>
    simp only [Point.Outcome.ok.injEq, Prod.mk.injEq] at h
    obtain ⟨rfl, rfl⟩ := h
    exact ⟨h1, rfl⟩
  · exact absurd h (by simp)
  · exact absurd h (by simp)

/-- A trial step `g`, tried from the state `t1` in the pass that left the state `o`, and the next pass, made with the same flow `g` from
the state `t3` left by the trials after it. -/
structure TriedThenTaken (S : Setting) (g : LS.Fields) where
  o : Mech
  t1 : Mech
  t2 : Mech
  predicted : Rows
  later : List (Bool × LS.Fields)
  t3 : Mech
  t4 : Mech
  found : Rows
  tried : trial S o g t1 = .ok (t2, predicted)
  between : updates S later t2 = .ok t3
  taken : pass S g t3 = .ok (t4, found)

variable {S : Setting} {g : LS.Fields} (hx : 2 ≤ S.m.Nx) (hz : 2 ≤ S.m.Nz)

include hx hz

private theorem taken_from_start (q : TriedThenTaken S g) : updateNL S false g q.t1 = .ok q.t4 := by
  have h := (pass_ok q.taken).1
  rw [update_history_free S hx hz q.later false g q.t2 q.t3 q.between,
    update_absorbs S hx hz true false g g q.t1 q.t2 (trial_ok q.tried).1] at h
  exact h

/-- Without density_variations the stresses, viscosities and forces of the trial are those of the next pass. -/
theorem same_mechanics (q : TriedThenTaken S g) (hvol : S.vol = false) : q.t4 = q.t2 := by
  have h := taken_from_start hx hz q
  rw [final_flag_unused S hvol false true, (trial_ok q.tried).1] at h
  simpa using h.symm

/-- In any case stresses, viscosities, corrected pressure and strain rates agree, and with them the horizontal body force. -/
theorem same_stresses (q : TriedThenTaken S g) :
    q.t4.rates = q.t2.rates ∧ q.t4.cells = q.t2.cells ∧ q.t4.verts = q.t2.verts ∧ q.t4.bx = q.t2.bx := by
  obtain ⟨a1, a2, a3, a4, a5, a6, _, a8, _⟩ := updateNL_ok (taken_from_start hx hz q)
  obtain ⟨b1, b2, b3, b4, b5, b6, _, b8, _⟩ := updateNL_ok (trial_ok q.tried).1
  have er : q.t4.rates = q.t2.rates := by rw [a1, b1]
  rw [er, a2, a3, a4, a5, ← b2, ← b3, ← b4, ← b5, b6] at a6
  simp only [Point.Outcome.ok.injEq, Prod.mk.injEq] at a6
  refine ⟨er, a6.1.symm, a6.2.symm, ?_⟩
  rw [a8, b8]
  rfl

/-- C147 (partial).  **The residual predicted by the line search is the residual found**: with the same flow, without free surface stabilisation,
diagonal scaling and density_variations, every row of the residual measured in the trial is that of the next pass, whatever was
tried in between.  Missing: the three excluded cases, for which it fails, see `stabilised_row_gap`, `scaled_row_gap` and
`volume_row_gap`. -/
theorem predicted_is_found_partial (q : TriedThenTaken S g) (hvol : S.vol = false) (hs : S.m.stab = false) (hd : S.diag = false) :
    q.found = q.predicted := by
  have e := same_mechanics hx hz q hvol
  have hf := (pass_ok q.taken).2
  have hp := (trial_ok q.tried).2
  rw [hf, hp, e]
  have hx0 : ∀ o rho k l, stabX S o rho k l = 0 := fun o rho k l => by simp [stabX, xCorr, meshWith, hs]
  have hz0 : ∀ o rho k l, stabZ S o rho k l = 0 := fun o rho k l => by simp [stabZ, zCorr, meshWith, hs]
  unfold measured
  congr 1
  · funext k l
    obtain ⟨h1, -, -⟩ := row_difference S (opsOf S q.t2) (opsOf S q.o) g q.t2 k l
    rw [hx0, hx0, sub_self, zero_mul, zero_mul, sub_eq_zero] at h1
    simp only [scaleX, hd, Bool.false_eq_true, if_false, mul_one, h1]
  · funext k l
    obtain ⟨-, h1, -⟩ := row_difference S (opsOf S q.t2) (opsOf S q.o) g q.t2 k l
    rw [hz0, hz0, sub_self, zero_mul, zero_mul, sub_eq_zero] at h1
    simp only [scaleZ, hd, Bool.false_eq_true, if_false, mul_one, h1]

/-- What goes wrong with stabilisation: a momentum row is predicted correctly exactly when the term added for stability, which is
dropped where it would make the diagonal too small, is the same for the viscosities of the old and of the new flow, or nothing moves
there. -/
theorem stabilised_row_gap (q : TriedThenTaken S g) (hvol : S.vol = false) (hd : S.diag = false) (hdx : S.m.dx ≠ 0) (hdz : S.m.dz ≠ 0)
    (k l : Int) :
    (q.found.x k l = q.predicted.x k l ↔
      stabX S (opsOf S q.t4) q.t4.rho k l = stabX S (opsOf S q.o) q.t4.rho k l ∨ S.arr g.u (k + l * S.m.Nx) = 0)
    ∧ (q.found.z k l = q.predicted.z k l ↔
      stabZ S (opsOf S q.t4) q.t4.rho k l = stabZ S (opsOf S q.o) q.t4.rho k l ∨ S.arr g.v (k + l * (S.m.Nx + 1)) = 0)
    ∧ q.found.p = q.predicted.p := by
  have e := same_mechanics hx hz q hvol
  have hf := (pass_ok q.taken).2
  have hp := (trial_ok q.tried).2
  obtain ⟨h1, h2, h3⟩ := row_difference S (opsOf S q.t4) (opsOf S q.o) g q.t4 k l
  have hV : S.m.dx * S.m.dz ≠ 0 := mul_ne_zero hdx hdz
  rw [hf, hp, ← e]
  refine ⟨?_, ?_, h3⟩
  · simp only [measured, scaleX, hd, Bool.false_eq_true, if_false, mul_one]
    rw [← sub_eq_zero, h1]
    simp only [mul_eq_zero, hdx, hdz, or_false, sub_eq_zero]
  · simp only [measured, scaleZ, hd, Bool.false_eq_true, if_false, mul_one]
    rw [← sub_eq_zero, h2]
    simp only [mul_eq_zero, hdx, hdz, or_false, sub_eq_zero]

/-- What goes wrong with diagonal scaling: the residual of the trial is weighted with the diagonal of the old flow, so that a row not yet in balance is
predicted correctly exactly when its diagonal coefficient did not change. -/
theorem scaled_row_gap (q : TriedThenTaken S g) (hvol : S.vol = false) (hs : S.m.stab = false) (k l : Int) :
    (q.found.x k l = q.predicted.x k l ↔
      scaleX S (opsOf S q.t4) q.t4.rho k l = scaleX S (opsOf S q.o) q.o.rho k l ∨ (rows S (opsOf S q.t4) g q.t4).x k l = 0)
    ∧ (q.found.z k l = q.predicted.z k l ↔
      scaleZ S (opsOf S q.t4) q.t4.rho k l = scaleZ S (opsOf S q.o) q.o.rho k l ∨ (rows S (opsOf S q.t4) g q.t4).z k l = 0) := by
  have e := same_mechanics hx hz q hvol
  have hf := (pass_ok q.taken).2
  have hp := (trial_ok q.tried).2
  obtain ⟨h1, h2, -⟩ := row_difference S (opsOf S q.t4) (opsOf S q.o) g q.t4 k l
  have hx0 : ∀ o rho k l, stabX S o rho k l = 0 := fun o rho k l => by simp [stabX, xCorr, meshWith, hs]
  have hz0 : ∀ o rho k l, stabZ S o rho k l = 0 := fun o rho k l => by simp [stabZ, zCorr, meshWith, hs]
  rw [hx0, hx0, sub_self, zero_mul, zero_mul, sub_eq_zero] at h1
  rw [hz0, hz0, sub_self, zero_mul, zero_mul, sub_eq_zero] at h2
  rw [hf, hp, ← e]
  simp only [measured, ← h1, ← h2]
  exact ⟨mul_right_inj_iff _ _ _, mul_right_inj_iff _ _ _⟩
where
  mul_right_inj_iff (a b c : ℝ) : a * b = a * c ↔ b = c ∨ a = 0 := by
    rw [mul_eq_mul_left_iff]

/-- What goes wrong with density_variations: trial steps evaluate the density at the pressure corrected for plastic dilation, the passes at the
pressure of the solution.  The volume balance of a cell that can change its volume is predicted correctly exactly when both densities are the same. -/
theorem volume_row_gap (q : TriedThenTaken S g) (hvol : S.vol = true) (hdt : S.m.dt ≠ 0) (hdx : S.m.dx ≠ 0) (hdz : S.m.dz ≠ 0)
    (c : Nat) (hc : c < S.ncells) (hpos : 0 < cellDensity S false (cellData S g q.t4.rates c))
    (hpos' : 0 < cellDensity S true (cellData S g q.t4.rates c)) :
    q.found.p c = q.predicted.p c ↔ S.comp c = false
      ∨ cellDensity S false (cellData S g q.t4.rates c) = cellDensity S true (cellData S g q.t4.rates c) := by
  obtain ⟨er, ec, ev, -⟩ := same_stresses hx hz q
  obtain ⟨-, -, -, -, -, -, a7, -, -⟩ := updateNL_ok (taken_from_start hx hz q)
  obtain ⟨-, -, -, -, -, -, b7, -, -⟩ := updateNL_ok (trial_ok q.tried).1
  rw [(pass_ok q.taken).2, (trial_ok q.tried).2]
  simp only [hvol, if_true] at a7 b7
  have ra : q.t4.rho c = cellDensity S false (cellData S g q.t4.rates c) := by rw [a7]; simp [written, hc]
  have rb : q.t2.rho c = cellDensity S true (cellData S g q.t4.rates c) := by rw [b7]; simp [written, hc, er]
  simp only [measured, rows, Resid.contResidual, hvol, if_true, er, ra, rb]
  have hV : S.m.dx * S.m.dz ≠ 0 := mul_ne_zero hdx hdz
  rw [mul_left_inj' hV, sub_left_inj, add_left_inj, div_left_inj' hdt]
  cases hcomp : S.comp c with
  | false => simp [flag]
  | true =>
    simp only [flag, if_true, one_mul, sub_left_inj, Bool.true_eq_false, false_or]
    constructor
    · intro h; rw [er] at hpos hpos'; exact Real.log_injOn_pos hpos hpos' h
    · intro h; rw [h]

omit hx hz

/-- The norms found in a pass with the flow `g`, from the state `t`. -/
noncomputable def foundNorms (S : Setting) (norms : Rows → ℝ × ℝ × ℝ) (t : Mech) (g : LS.Fields) : ℝ × ℝ × ℝ :=
  match pass S g t with
  | .ok (_, R) => norms R
  | _ => (0, 0, 0)

/-- The selection of the line search, when trials measure the residual that the next pass would find. -/
theorem search_measures (S : Setting) (hx : 2 ≤ S.m.Nx) (hz : 2 ≤ S.m.Nz) (hvol : S.vol = false) (norms : Rows → ℝ × ℝ × ℝ) (c : LS.Cfg)
    (n : LS.Sizes) (malloc : LS.Fields) (extract : LS.Fields → ℝ → LS.Fields) (f : LS.Fields) (o : Mech)
    (hloc : ∀ a b s, LS.SameFields n a b → extract a s = extract b s)
    (hpred : ∀ g t', updateNL S true g o = .ok t' → measured S (opsOf S t') t'.rho g t' = measured S (opsOf S o) o.rho g t')
    (hok : ∀ k < LS.ntry, ∃ t', updateNL S true (extract f (LS.alphav c k)) o = .ok t') :
    (LS.lineSearch c n malloc extract (refresh S) (measure S norms o) f (.ok o)).1 =
      LS.select c (fun k => if k < LS.ntry then (foundNorms S norms o (extract f (LS.alphav c k))).1 else 0)
        (fun k => if k < LS.ntry then (foundNorms S norms o (extract f (LS.alphav c k))).2.1 else 0)
        (fun k => if k < LS.ntry then (foundNorms S norms o (extract f (LS.alphav c k))).2.2 else 0) := by
  have hsame : ∀ g : LS.Fields, LS.SameFields n (LS.copyFields n g (LS.copyFields n malloc f)) f := by
    intro g
    refine ⟨fun k hk => ?_, fun k hk => ?_, fun k hk => ?_⟩ <;> simp [LS.copyFields, LS.copyArr_apply, hk]
  have he : ∀ (g : LS.Fields) (a : ℝ), extract (LS.copyFields n g (LS.copyFields n malloc f)) a = extract f a :=
    fun g a => hloc _ _ a (hsame g)
  -- one trial from a state reached by earlier trials
  have step : ∀ g hist t, updates S hist o = .ok t → (∃ t', updateNL S true g o = .ok t') →
      ∃ t', updateNL S true g t = .ok t' ∧ measure S norms o g (.ok t') = foundNorms S norms o g := by
    intro g hist t ht ⟨t', h'⟩
    have h1 : updateNL S true g t = .ok t' := by rw [update_history_free S hx hz hist true g o t ht]; exact h'
    refine ⟨t', h1, ?_⟩
    have hq := hpred g t' h'
    have hp : pass S g o = .ok (t', measured S (opsOf S t') t'.rho g t') := by
      simp [pass, final_flag_unused S hvol false true, h']
    simp only [measure, foundNorms, hp, hq]
  have snoc : ∀ hist t t' b g, updates S hist o = .ok t → updateNL S b g t = .ok t' → updates S (hist ++ [(b, g)]) o = .ok t' := by
    intro hist
    generalize o = o'
    induction hist generalizing o' with
    | nil => intro t t' b g h h'; simp only [updates, Point.Outcome.ok.injEq] at h; subst h; simp [updates, h']
    | cons e hs' ih =>
      intro t t' b g h h'
      simp only [updates] at h
      split at h
      · next t1 h1 =>
        have := ih t1 t t' b g h h'
        simp [updates, h1, this]
      · exact absurd h (by simp)
      · exact absurd h (by simp)
  have key : ∀ m, m ≤ LS.ntry → ∃ hist t, updates S hist o = .ok t ∧
      (forUp m (f, (Point.Outcome.ok o : Point.Outcome Mech), fun _ : Nat => ((0, 0, 0) : ℝ × ℝ × ℝ)) (fun s kk =>
        (extract f (LS.alphav c kk), refresh S (extract f (LS.alphav c kk)) s.2.1,
          upd s.2.2 kk (measure S norms o (extract f (LS.alphav c kk)) (refresh S (extract f (LS.alphav c kk)) s.2.1))))).2 =
      (.ok t, fun k => if k < m then foundNorms S norms o (extract f (LS.alphav c k)) else (0, 0, 0)) := by
    intro m
    induction m with
    | zero => intro _; exact ⟨[], o, rfl, by simp⟩
    | succ m ih =>
      intro hm
      obtain ⟨hist, t, ht, e⟩ := ih (by omega)
      obtain ⟨t', h1, h2⟩ := step _ hist t ht (hok m (by omega))
      refine ⟨hist ++ [(true, extract f (LS.alphav c m))], t', snoc hist t t' true _ ht h1, ?_⟩
      rw [forUp_succ]
      have hr : refresh S (extract f (LS.alphav c m)) (.ok t) = .ok t' := h1
      simp only [e, hr, h2]
      congr 1
      funext k
      by_cases h : k = m
      · subst h; simp
      · rw [upd_ne _ _ h]
        by_cases h2 : k < m
        · simp [h2, Nat.lt_succ_of_lt h2]
        · have : ¬ k < m + 1 := by omega
          simp [h2, this]
  obtain ⟨hist, t, -, e⟩ := key LS.ntry le_rfl
  unfold LS.lineSearch
  simp only [he, e]
  congr 1 <;> funext k <;> split_ifs <;> rfl

/-- C17/C147 (partial).  **The line search chooses by the residuals of the flows it would pass on**: with the update of the nonlinearity of the code in place
(every trial changes viscosities and stresses on the mesh), the selection is made on the residuals that the next pass would find for the
flow before the search changed by each trial step.  Without stabilisation, diagonal scaling and density_variations (see above);
`norms` stands for the norms, any function of the rows. -/
theorem search_measures_next_pass_partial (S : Setting) (hx : 2 ≤ S.m.Nx) (hz : 2 ≤ S.m.Nz) (hvol : S.vol = false) (hs : S.m.stab = false)
    (hd : S.diag = false) (norms : Rows → ℝ × ℝ × ℝ) (c : LS.Cfg) (n : LS.Sizes) (malloc : LS.Fields)
    (extract : LS.Fields → ℝ → LS.Fields) (f : LS.Fields) (o : Mech)
    (hloc : ∀ a b s, LS.SameFields n a b → extract a s = extract b s)
    (hok : ∀ k < LS.ntry, ∃ t', updateNL S true (extract f (LS.alphav c k)) o = .ok t') :
    (LS.lineSearch c n malloc extract (refresh S) (measure S norms o) f (.ok o)).1 =
      LS.select c (fun k => if k < LS.ntry then (foundNorms S norms o (extract f (LS.alphav c k))).1 else 0)
        (fun k => if k < LS.ntry then (foundNorms S norms o (extract f (LS.alphav c k))).2.1 else 0)
        (fun k => if k < LS.ntry then (foundNorms S norms o (extract f (LS.alphav c k))).2.2 else 0) := by
  refine search_measures S hx hz hvol norms c n malloc extract f o hloc (fun g t' h' => ?_) hok
  have h2 : updateNL S false g t' = .ok t' := by
    rw [update_absorbs S hx hz true false g g o t' h', final_flag_unused S hvol false true, h']
  exact predicted_is_found_partial hx hz
    ({ o := o, t1 := o, t2 := t', predicted := measured S (opsOf S o) o.rho g t', later := [], t3 := t', t4 := t'
       found := measured S (opsOf S t') t'.rho g t'
       tried := by simp [trial, h'], between := rfl, taken := by simp [pass, h2] } : TriedThenTaken S g) hvol hs hd

/-- C147 (partial).  **A step that the line search accepts lowers the residual found in the next pass**: if residual growth is not allowed and stagnation is not
signalled, the total norm found in the next pass is below the one before the search, or, when no trial achieves that, one of the momentum norms is. -/
theorem accepted_step_improves_next_pass_partial (S : Setting) (hx : 2 ≤ S.m.Nx) (hz : 2 ≤ S.m.Nz) (hvol : S.vol = false)
    (hs : S.m.stab = false) (hd : S.diag = false) (norms : Rows → ℝ × ℝ × ℝ) (c : LS.Cfg) (n : LS.Sizes) (malloc : LS.Fields)
    (extract : LS.Fields → ℝ → LS.Fields) (f : LS.Fields) (t0 o : Mech) (R : Rows) (hpass : pass S f t0 = .ok (o, R))
    (hc : norms R = (c.rx0, c.rz0, c.rp0)) (hg : c.letResGrow ≠ 1)
    (hloc : ∀ a b s, LS.SameFields n a b → extract a s = extract b s)
    (hok : ∀ k < LS.ntry, ∃ t', updateNL S true (extract f (LS.alphav c k)) o = .ok t')
    (alpha : ℝ) (hacc : (LS.lineSearch c n malloc extract (refresh S) (measure S norms o) f (.ok o)).1 = ⟨alpha, false⟩)
    (later : List (Bool × LS.Fields)) (t3 : Mech) (hlater : updates S later o = .ok t3) :
    ∃ t4 R', pass S (extract f alpha) t3 = .ok (t4, R') ∧
      (LS.norm3 (norms R').1 (norms R').2.1 (norms R').2.2 < LS.norm3 (norms R).1 (norms R).2.1 (norms R).2.2
        ∨ (norms R').1 < (norms R).1 ∨ (norms R').2.1 < (norms R).2.1) := by
  rw [search_measures_next_pass_partial S hx hz hvol hs hd norms c n malloc extract f o hloc hok] at hacc
  have hsel := LS.line_search_selects_partial c (fun k => if k < LS.ntry then (foundNorms S norms o (extract f (LS.alphav c k))).1 else 0)
        (fun k => if k < LS.ntry then (foundNorms S norms o (extract f (LS.alphav c k))).2.1 else 0)
        (fun k => if k < LS.ntry then (foundNorms S norms o (extract f (LS.alphav c k))).2.2 else 0) hg
  rw [hacc] at hsel
  rcases hsel with ⟨h, -⟩ | ⟨-, -, i, hi, ha, hcase⟩
  · exact absurd h (by simp)
  · obtain ⟨t', ht'⟩ := hok i hi
    simp only at ha
    have hp0 : pass S (extract f alpha) o = .ok (t', measured S (opsOf S t') t'.rho (extract f alpha) t') := by
      rw [ha]; simp [pass, final_flag_unused S hvol false true, ht']
    have hp3 : pass S (extract f alpha) t3 = .ok (t', measured S (opsOf S t') t'.rho (extract f alpha) t') := by
      rw [← hp0]; unfold pass; rw [update_history_free S hx hz later false _ o t3 hlater]
    refine ⟨_, _, hp3, ?_⟩
    have hfn : foundNorms S norms o (extract f (LS.alphav c i)) = norms (measured S (opsOf S t') t'.rho (extract f alpha) t') := by
      rw [← ha]; simp [foundNorms, hp0]
    simp only [hi, if_true, hfn] at hcase
    rw [hc]
    rcases hcase with ⟨h, -⟩ | ⟨-, h⟩
    · exact Or.inl h
    · exact Or.inr h

end Verif.StepFlow
