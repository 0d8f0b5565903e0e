import Verif.Model.Timestep

/- C16: the nonlinear loop terminates and reports honestly. -/
namespace Verif.Time
open Verif
set_option linter.unusedSectionVars false

variable {K : Type*} [Field K] [LinearOrder K] [IsStrictOrderedRing K]

/-- State at the start of the loop (Main_DOODZ.c:651-655): counters zero. -/
def startState (dt : K) (r : Res K) : LoopState K :=
  { nit := 0, nstag := 0, dt := dt, evals := 0, res := r, res0 := r }

omit [IsStrictOrderedRing K] in
/-- What one pass does to the counters. -/
theorem loopBody_counters (c : LoopCfg K) (r : Res K) (stag : Bool) (s s' : LoopState K)
    (o : Option Leave) (h : loopBody c r stag s = (s', o)) :
    s'.evals = s.evals + 1 ∧ s'.res = r ∧
    (o = none → (s'.nit = s.nit + 1 ∧ s'.nstag = s.nstag) ∨
      (s'.nit = 0 ∧ s'.nstag = s.nstag + 1 ∧ s'.nstag ≠ c.maxNumStag)) ∧
    (o = some .converged → s'.nit = s.nit ∧ convTest c r (if s.nit = 0 then r else s.res0) ∧
      s'.nstag = s.nstag ∧ s'.dt = s.dt) ∧
    (o = some .stagnated → c.safeMode ≤ 0) ∧ o ≠ some .limit ∧
    (s'.res0 = if s.nit = 0 then r else s.res0) ∧
    s'.dt = s.dt / c.safeDtDiv ^ (s'.nstag - s.nstag) ∧ s.nstag ≤ s'.nstag ∧
    (o = none → ¬ (r.x < c.absMom ∧ r.z < c.absMom ∧ r.p < c.absDiv)) := by
  have nc : ¬ convTest c r (if s.nit = 0 then r else s.res0) →
      ¬ (r.x < c.absMom ∧ r.z < c.absMom ∧ r.p < c.absDiv) :=
    fun h h' => h ⟨Or.inl h'.1, Or.inl h'.2.1, Or.inl h'.2.2⟩
  unfold loopBody at h
  simp only at h
  by_cases h1 : convTest c r (if s.nit = 0 then r else s.res0)
  · rw [if_pos h1] at h
    obtain ⟨rfl, rfl⟩ := Prod.mk.inj h
    simp [h1]
  · rw [if_neg h1] at h
    by_cases h2 : stag = true ∧ c.safeMode ≤ 0
    · rw [if_pos h2] at h
      obtain ⟨rfl, rfl⟩ := Prod.mk.inj h
      simp [h2.2]
    · rw [if_neg h2] at h
      by_cases h3 : stag = true ∧ c.elastic = 1 ∧ c.safeMode = 1
      · rw [if_pos h3] at h
        by_cases h4 : s.nstag + 1 = c.maxNumStag
        · rw [if_pos h4] at h
          obtain ⟨rfl, rfl⟩ := Prod.mk.inj h
          simp
        · rw [if_neg h4] at h
          obtain ⟨rfl, rfl⟩ := Prod.mk.inj h
          simp [h4, nc h1]
      · rw [if_neg h3] at h
        obtain ⟨rfl, rfl⟩ := Prod.mk.inj h
        simp [nc h1]

/-- Number of passes still possible from a state. -/
def budget (c : LoopCfg K) (s : LoopState K) : Nat := (c.maxNumStag - s.nstag) * (c.nitMax + 1) - s.nit

omit [Field K] [LinearOrder K] [IsStrictOrderedRing K] in
theorem budget_pos (c : LoopCfg K) (s : LoopState K) (h : s.nit ≤ c.nitMax ∧ s.nstag < c.maxNumStag) :
    0 < budget c s := by
  unfold budget
  have : 1 * (c.nitMax + 1) ≤ (c.maxNumStag - s.nstag) * (c.nitMax + 1) :=
    Nat.mul_le_mul_right _ (by omega)
  omega

theorem budget_dec (c : LoopCfg K) (r : Res K) (stag : Bool) (s s' : LoopState K)
    (hl : s.nit ≤ c.nitMax ∧ s.nstag < c.maxNumStag) (h : loopBody c r stag s = (s', none)) :
    budget c s' + 1 ≤ budget c s := by
  have hp := budget_pos c s hl
  have := (loopBody_counters c r stag s s' none h).2.2.1 rfl
  unfold budget at *
  rcases this with ⟨e1, e2⟩ | ⟨e1, e2, _⟩
  · rw [e1, e2]; omega
  · rw [e1, e2]
    obtain ⟨m, hm⟩ : ∃ m, c.maxNumStag - s.nstag = m + 1 := ⟨c.maxNumStag - s.nstag - 1, by omega⟩
    have : c.maxNumStag - (s.nstag + 1) = m := by omega
    rw [this, hm, Nat.succ_mul]
    omega

/-- General form of termination: with the budget as fuel, the loop is left after at most `budget`
further evaluations. -/
theorem loop_leaves (c : LoopCfg K) (orc : Nat → Res K × Bool) :
    ∀ fuel (s : LoopState K), budget c s ≤ fuel →
      ∃ s' l, loop c orc fuel s = some (s', l) ∧ s'.evals ≤ s.evals + budget c s := by
  intro fuel
  induction fuel with
  | zero =>
    intro s hb
    refine ⟨s, .limit, ?_, by omega⟩
    unfold loop
    rw [if_neg]
    intro h
    have := budget_pos c s h
    omega
  | succ fuel ih =>
    intro s hb
    unfold loop
    by_cases h : s.nit ≤ c.nitMax ∧ s.nstag < c.maxNumStag
    · rw [if_pos h]
      have hp := budget_pos c s h
      rcases hbody : loopBody c (orc s.evals).1 (orc s.evals).2 s with ⟨s', o⟩
      have hc := loopBody_counters c _ _ s s' o hbody
      cases o with
      | some l => exact ⟨s', l, rfl, by rw [hc.1]; omega⟩
      | none =>
        have hd := budget_dec c _ _ s s' h hbody
        obtain ⟨s'', l, e1, e2⟩ := ih s' (by omega)
        exact ⟨s'', l, e1, by rw [hc.1] at e2; omega⟩
    · rw [if_neg h]
      exact ⟨s, .limit, rfl, by omega⟩

/-- C16 (termination).  Whatever residuals and stagnation flags the solver produces, the loop is
left after at most `(nit_max+1)*max_num_stag` residual evaluations. -/
theorem loop_terminates (c : LoopCfg K) (orc : Nat → Res K × Bool) (dt : K) (r : Res K) :
    ∃ s l, loop c orc ((c.nitMax + 1) * c.maxNumStag) (startState dt r) = some (s, l) ∧
      s.evals ≤ (c.nitMax + 1) * c.maxNumStag := by
  have e : budget c (startState dt r) = (c.nitMax + 1) * c.maxNumStag := by
    simp [budget, startState, Nat.mul_comm]
  obtain ⟨s, l, h1, h2⟩ := loop_leaves c orc _ (startState dt r) (le_of_eq e)
  rw [e] at h2
  exact ⟨s, l, h1, by simpa [startState] using h2⟩

/-- Everything known about the final state, for any amount of fuel. -/
theorem loop_final (c : LoopCfg K) (orc : Nat → Res K × Bool) :
    ∀ fuel (s s' : LoopState K) (l : Leave), loop c orc fuel s = some (s', l) →
      (0 < s.evals → s.nit ≠ 0 → s.res = (orc (s.evals - 1)).1 ∧
        ¬ (s.res.x < c.absMom ∧ s.res.z < c.absMom ∧ s.res.p < c.absDiv)) →
      (s.nstag ≤ c.maxNumStag - 1) →
      (l = .converged → convTest c s'.res s'.res0 ∧ s'.res = (orc (s'.evals - 1)).1 ∧ 0 < s'.evals) ∧
      (l = .stagnated → c.safeMode ≤ 0) ∧
      (l = .limit → (s' = s ∨ (0 < s'.evals ∧ s'.res = (orc (s'.evals - 1)).1)) ∧
        (s'.nit ≤ c.nitMax → c.maxNumStag = 0) ∧
        (s' ≠ s → ¬ (s'.res.x < c.absMom ∧ s'.res.z < c.absMom ∧ s'.res.p < c.absDiv))) ∧
      s.evals ≤ s'.evals ∧ s'.dt = s.dt / c.safeDtDiv ^ (s'.nstag - s.nstag) ∧ s.nstag ≤ s'.nstag := by
  intro fuel
  induction fuel with
  | zero =>
    intro s s' l h hinv hst
    unfold loop at h
    by_cases hc : s.nit ≤ c.nitMax ∧ s.nstag < c.maxNumStag
    · rw [if_pos hc] at h; simp at h
    · rw [if_neg hc] at h
      obtain ⟨rfl, rfl⟩ := Prod.mk.inj (Option.some.inj h)
      refine ⟨by simp, by simp, fun _ => ⟨Or.inl rfl, fun hn => by omega, by simp⟩, le_refl _, by simp, le_refl _⟩
  | succ fuel ih =>
    intro s s' l h hinv hst
    unfold loop at h
    by_cases hc : s.nit ≤ c.nitMax ∧ s.nstag < c.maxNumStag
    · rw [if_pos hc] at h
      rcases hbody : loopBody c (orc s.evals).1 (orc s.evals).2 s with ⟨t, o⟩
      have hcnt := loopBody_counters c _ _ s t o hbody
      rw [hbody] at h
      obtain ⟨k1, k2, k3, k4, k5, k6, k7, k8, k9, k10⟩ := hcnt
      have hres : t.res = (orc (t.evals - 1)).1 := by rw [k2, k1, Nat.add_sub_cancel]
      cases o with
      | some l' =>
        obtain ⟨rfl, rfl⟩ := Prod.mk.inj (Option.some.inj h)
        refine ⟨fun e => ?_, fun e => k5 (by rw [e]), fun e => absurd (by rw [e]) k6, by omega, k8, k9⟩
        subst e
        refine ⟨?_, hres, by omega⟩
        rw [k2, k7]
        exact (k4 rfl).2.1
      | none =>
        have hinv' : 0 < t.evals → t.nit ≠ 0 → t.res = (orc (t.evals - 1)).1 ∧
            ¬ (t.res.x < c.absMom ∧ t.res.z < c.absMom ∧ t.res.p < c.absDiv) := by
          intro _ _
          refine ⟨hres, ?_⟩
          rw [k2]
          exact k10 rfl
        have hst' : t.nstag ≤ c.maxNumStag - 1 := by
          rcases k3 rfl with ⟨_, e⟩ | ⟨_, e1, e2⟩ <;> omega
        obtain ⟨m1, m2, m3, m4, m5, m6⟩ := ih t s' l h hinv' hst'
        refine ⟨m1, m2, fun e => ?_, by omega, ?_, by omega⟩
        · obtain ⟨q1, q2, q3⟩ := m3 e
          refine ⟨Or.inr ?_, q2, fun _ => ?_⟩
          · rcases q1 with rfl | q1
            · exact ⟨by omega, hres⟩
            · exact q1
          · by_cases et : s' = t
            · rw [et, k2]; exact k10 rfl
            · exact q3 et
        · rw [m5, k8, div_div, ← pow_add]
          congr 2
          omega
    · rw [if_neg hc] at h
      obtain ⟨rfl, rfl⟩ := Prod.mk.inj (Option.some.inj h)
      refine ⟨by simp, by simp, fun _ => ⟨Or.inl rfl, fun hn => by omega, by simp⟩, le_refl _, by simp, le_refl _⟩

/-- C16 (honest convergence).  If the loop is left as converged, the last evaluated residuals meet,
each one, the absolute or the relative tolerance. -/
theorem converged_means_converged (c : LoopCfg K) (orc : Nat → Res K × Bool) (fuel : Nat) (dt : K)
    (r : Res K) (s : LoopState K) (h : loop c orc fuel (startState dt r) = some (s, .converged)) :
    let last := (orc (s.evals - 1)).1
    (last.x < c.absMom ∨ (s.res0.x ≠ 0 ∧ last.x / s.res0.x < c.relMom)) ∧
    (last.z < c.absMom ∨ (s.res0.z ≠ 0 ∧ last.z / s.res0.z < c.relMom)) ∧
    (last.p < c.absDiv ∨ (s.res0.p ≠ 0 ∧ last.p / s.res0.p < c.relDiv)) := by
  have := (loop_final c orc fuel _ s .converged h (fun h => absurd h (by simp [startState]))
    (by simp [startState])).1 rfl
  obtain ⟨h1, h2, _⟩ := this
  intro last
  have : last = s.res := h2.symm
  rw [this]
  exact h1

/-- C16 (safe mode).  In safe mode (with at least one stagnation cycle allowed), if the run goes on
after the loop then the loop was left as converged; in particular an iterate that used up
`nit_max` iterations never goes unnoticed. -/
theorem safe_mode_never_continues_unconverged (c : LoopCfg K) (orc : Nat → Res K × Bool)
    (fuel : Nat) (dt : K) (r : Res K) (s : LoopState K) (l : Leave) (hsafe : c.safeMode = 1)
    (hm : 0 < c.maxNumStag) (h : loop c orc fuel (startState dt r) = some (s, l))
    (hcont : continues c s l) : l = .converged := by
  obtain ⟨_, h2, h3, _⟩ := loop_final c orc fuel _ s l h
    (fun h => absurd h (by simp [startState])) (by simp [startState])
  cases l with
  | converged => rfl
  | stagnated => have := h2 rfl; omega
  | exitStag => exact absurd rfl hcont.1
  | limit =>
    obtain ⟨_, q2, q3⟩ := h3 rfl
    have hn : c.nitMax ≤ s.nit := by
      by_contra hlt
      have := q2 (by omega)
      omega
    have hne : s ≠ startState dt r := by
      intro e
      have : s.nit = 0 := by rw [e]; rfl
      have h0 : ¬ (s.nit ≤ c.nitMax) := fun hh => by have := q2 hh; omega
      omega
    exact absurd ⟨hsafe, hn, q3 hne⟩ hcont.2

/-- Link to the clock (C15): the step used afterwards is the chosen one divided by `safe_dt_div`
once per stagnation restart. -/
theorem loop_dt (c : LoopCfg K) (orc : Nat → Res K × Bool) (fuel : Nat) (dt : K) (r : Res K)
    (s : LoopState K) (l : Leave) (h : loop c orc fuel (startState dt r) = some (s, l)) :
    s.dt = dt / c.safeDtDiv ^ s.nstag := by
  have := (loop_final c orc fuel _ s l h
    (fun h => absurd h (by simp [startState])) (by simp [startState])).2.2.2.2.1
  simpa [startState] using this

/-- Tolerances 1, one iteration, two cycles: stagnates once, is restarted with half the step and
then converges in absolute terms. -/
def demoCfg : LoopCfg ℚ :=
  { nitMax := 1, maxNumStag := 3, safeMode := 1, elastic := 1, safeDtDiv := 2, absMom := 1,
    absDiv := 1, relMom := 0, relDiv := 0 }

/-- Residuals 4, 4, 1/2, ... with stagnation in the second evaluation. -/
def demoOracle (n : Nat) : Res ℚ × Bool :=
  if n < 2 then (⟨4, 4, 4⟩, n == 1) else (⟨1 / 2, 1 / 2, 1 / 2⟩, false)

example : ∃ s, loop demoCfg demoOracle 6 (startState 1 ⟨0, 0, 0⟩) = some (s, .converged) ∧
    s.evals = 3 ∧ s.dt = 1 / 2 ∧ continues demoCfg s .converged := by
  refine ⟨⟨0, 1, 1 / 2, 3, ⟨1 / 2, 1 / 2, 1 / 2⟩, ⟨1 / 2, 1 / 2, 1 / 2⟩⟩, ?_, rfl, rfl, ?_⟩
  · norm_num [loop, loopBody, demoCfg, demoOracle, startState, convTest, relOk]
  · simp [continues, demoCfg]

end Verif.Time
