import Verif.Props.StepSimpleShear
import Verif.Props.NonlinearLoop

/- C162: what it means that a time step was recorded. -/
set_option linter.unusedSimpArgs false

namespace Verif.StepFlow
open Verif

/-- With the flow law of `S`, and whatever mesh there was before, the residual norms of the fields `f` are `r`; `o` is the mesh this measurement leaves. -/
def Measures (S : Setting) (norms : Rows → Option (ℝ × ℝ × ℝ)) (f : LS.Fields) (o : Mech) (r : Time.Res ℝ) : Prop :=
  ∃ t R, pass S f t = .ok (o, R) ∧ norms R = some (r.x, r.z, r.p)

/-- The residual `r` is below the absolute tolerance or, `r0` being the first one, below the relative tolerance. -/
def Below (r r0 abs rel : ℝ) : Prop := r < abs ∨ (r0 ≠ 0 ∧ r / r0 < rel)

/-- `S'` is the model `S` had the time step been `dt` from the start: the time step is `dt` wherever it is used, in the flow laws and in the equations, and nothing else differs. -/
structure Retimed (S S' : Setting) (dt : ℝ) : Prop where
  laws : S'.env.dt = dt
  equations : S'.m.dt = dt
  rest : { S' with env := { S'.env with dt := S.env.dt }, m := { S'.m with dt := S.m.dt } } = S

/-- The fields `f` pass the convergence test against the fields `start`, both measured with the setting `S`; `o` is the mesh left by the measurement of `f`. -/
def Accurate (S : Setting) (norms : Rows → Option (ℝ × ℝ × ℝ)) (c : Time.LoopCfg ℝ) (start f : LS.Fields) (o : Mech) : Prop :=
  ∃ r r0 o0, Measures S norms f o r ∧ Measures S norms start o0 r0 ∧ Below r.x r0.x c.absMom c.relMom ∧ Below r.z r0.z c.absMom c.relMom ∧ Below r.p r0.p c.absDiv c.relDiv

/-- Between two passes: the time step is the one of the beginning, divided once per stagnation; a cycle begins with the fields of the beginning of the step; within a cycle the reference residual is
that of these fields, measured with the time step of the cycle. -/
structure Cycle (S : Setting) (norms : Rows → Option (ℝ × ℝ × ℝ)) (c : Time.LoopCfg ℝ) (start : LS.Fields) (P : Progress) : Prop where
  dt : P.s.dt = S.env.dt / c.safeDtDiv ^ P.s.nstag
  fresh : P.s.nit = 0 → P.f = start
  ref : P.s.nit ≠ 0 → ∃ o0, Measures (S.withDt P.s.dt) norms start o0 P.s.res0

section
variable {S : Setting} {norms : Rows → Option (ℝ × ℝ × ℝ)} {c : Time.LoopCfg ℝ} {start : LS.Fields} {solve : Solver}

/-- What a pass was, if it did not end the program. -/
private theorem passOnce_cases (P : Progress) : (∃ k, passOnce S norms c start solve P = .exit k) ∨ passOnce S norms c start solve P = .nan ∨
    ∃ o r s' l, Measures (S.withDt P.s.dt) norms P.f o r ∧ Time.loopBody c r (solve P.s.evals P.f o).2.2 P.s = (s', l) ∧
      passOnce S norms c start solve P = match l with
        | some .converged => .leave ⟨s', P.f, o⟩ .converged
        | some .exitStag => .exit 0
        | some l => .leave ⟨s', (solve P.s.evals P.f o).1, (solve P.s.evals P.f o).2.1⟩ l
        | none => .go ⟨s', if s'.nstag = P.s.nstag then (solve P.s.evals P.f o).1 else start, (solve P.s.evals P.f o).2.1⟩ := by
  rcases hp : pass (S.withDt P.s.dt) P.f P.t with ⟨o, R⟩ | k | _
  · rcases hn : norms R with _ | r
    · exact Or.inl ⟨122, by unfold passOnce; rw [hp]; dsimp only; rw [hn]⟩
    · rcases hb : Time.loopBody c ⟨r.1, r.2.1, r.2.2⟩ (solve P.s.evals P.f o).2.2 P.s with ⟨s', l⟩
      refine Or.inr (Or.inr ⟨o, ⟨r.1, r.2.1, r.2.2⟩, s', l, ⟨P.t, R, hp, hn⟩, hb, ?_⟩)
      unfold passOnce
      rw [hp]; dsimp only
      rw [hn]; dsimp only
      rw [hb]
      rcases l with _ | l
      · rfl
      · cases l <;> rfl
  · exact Or.inl ⟨k, by unfold passOnce; rw [hp]⟩
  · exact Or.inr (Or.inl (by unfold passOnce; rw [hp]))

/-- The reference residual after a pass. -/
private theorem Cycle.ref_after {P : Progress} (h : Cycle S norms c start P) {o : Mech} {r : Time.Res ℝ} (hm : Measures (S.withDt P.s.dt) norms P.f o r) :
    ∃ o0, Measures (S.withDt P.s.dt) norms start o0 (if P.s.nit = 0 then r else P.s.res0) := by
  by_cases w : P.s.nit = 0
  · rw [if_pos w]
    exact ⟨o, by rw [← h.fresh w]; exact hm⟩
  · rw [if_neg w]
    exact h.ref w

/-- C162 (cycles).  **A restart forgets the failed attempt**: what holds between two passes holds after another one. -/
theorem cycle_kept {P P' : Progress} (h : Cycle S norms c start P) (hgo : passOnce S norms c start solve P = .go P') : Cycle S norms c start P' := by
  rcases passOnce_cases (S := S) (norms := norms) (c := c) (start := start) (solve := solve) P with ⟨k, e⟩ | e | ⟨o, r, s', l, hm, hb, e⟩
  · rw [e] at hgo; simp at hgo
  · rw [e] at hgo; simp at hgo
  · obtain ⟨-, -, k3, -, -, -, k7, k8, k9, -⟩ := Time.loopBody_counters c r _ P.s s' l hb
    rw [e] at hgo
    rcases l with _ | l
    · simp only [PassEnd.go.injEq] at hgo
      subst hgo
      rcases k3 rfl with ⟨a1, a2⟩ | ⟨a1, a2, -⟩
      · refine ⟨?_, fun w => absurd w (by dsimp only; omega), fun _ => ?_⟩
        · dsimp only
          rw [k8, a2, Nat.sub_self, pow_zero, div_one, h.dt]
        · dsimp only
          rw [k8, a2, Nat.sub_self, pow_zero, div_one, k7]
          exact h.ref_after hm
      · refine ⟨?_, fun _ => ?_, fun w => absurd a1 w⟩
        · dsimp only
          rw [k8, a2, h.dt, div_div, ← pow_add]
          congr 2
          omega
        · dsimp only
          rw [if_neg (by omega)]
    · cases l <;> simp at hgo

/-- C162 (loop).  Where the loop ends: the time step in use, and, if it ended as converged, the fields have passed the test against those of the beginning of the step. -/
theorem loop_record {fuel : Nat} {P Q : Progress} {l : Time.Leave} (h : Cycle S norms c start P) (hp : passes S norms c start solve fuel P = some (.leave Q l)) :
    Q.s.dt = S.env.dt / c.safeDtDiv ^ Q.s.nstag ∧ (l = .converged → Accurate (S.withDt Q.s.dt) norms c start Q.f Q.t) := by
  induction fuel generalizing P with
  | zero =>
    unfold passes at hp
    split_ifs at hp
    simp only [Option.some.injEq, PassEnd.leave.injEq] at hp
    obtain ⟨rfl, rfl⟩ := hp
    exact ⟨h.dt, fun w => by simp at w⟩
  | succ fuel ih =>
    unfold passes at hp
    by_cases w : P.s.nit ≤ c.nitMax ∧ P.s.nstag < c.maxNumStag
    · rw [if_pos w] at hp
      rcases hq : passOnce S norms c start solve P with P' | ⟨P', l'⟩ | k | _
      · rw [hq] at hp
        exact ih (cycle_kept h hq) hp
      · rw [hq] at hp
        simp only [Option.some.injEq, PassEnd.leave.injEq] at hp
        obtain ⟨rfl, rfl⟩ := hp
        rcases passOnce_cases (S := S) (norms := norms) (c := c) (start := start) (solve := solve) P with ⟨k, e⟩ | e | ⟨o, r, s', m, hm, hb, e⟩
        · rw [e] at hq; simp at hq
        · rw [e] at hq; simp at hq
        · obtain ⟨-, -, -, k4, -, -, k7, k8, k9, -⟩ := Time.loopBody_counters c r _ P.s s' m hb
          have hdt : s'.dt = S.env.dt / c.safeDtDiv ^ s'.nstag := by
            rw [k8, h.dt, div_div, ← pow_add]
            congr 2
            omega
          rw [e] at hq
          rcases m with _ | m
          · simp at hq
          · cases m <;> simp only [PassEnd.leave.injEq, reduceCtorEq] at hq
            · obtain ⟨rfl, rfl⟩ := hq
              refine ⟨hdt, fun _ => ?_⟩
              obtain ⟨-, ht, -, e2⟩ := k4 rfl
              obtain ⟨o0, h0⟩ := h.ref_after hm
              dsimp only
              rw [e2]
              exact ⟨r, _, o0, hm, h0, ht⟩
            · obtain ⟨rfl, rfl⟩ := hq
              exact ⟨hdt, fun w => by simp at w⟩
            · obtain ⟨rfl, rfl⟩ := hq
              exact ⟨hdt, fun w => by simp at w⟩
      · rw [hq] at hp; simp at hp
      · rw [hq] at hp; simp at hp
    · rw [if_neg w] at hp
      simp only [Option.some.injEq, PassEnd.leave.injEq] at hp
      obtain ⟨rfl, rfl⟩ := hp
      exact ⟨h.dt, fun w => by simp at w⟩

/-- The loop ends within its budget. -/
private theorem passes_end {fuel : Nat} {P : Progress} (hb : Time.budget c P.s ≤ fuel) : ∃ e, passes S norms c start solve fuel P = some e ∧ ∀ P', e ≠ .go P' := by
  induction fuel generalizing P with
  | zero =>
    refine ⟨.leave P .limit, ?_, by simp⟩
    unfold passes
    rw [if_neg]
    rintro ⟨w1, w2⟩
    have : Time.budget c P.s = 0 := by omega
    unfold Time.budget at this
    revert this
    obtain ⟨m, hm⟩ : ∃ m, c.maxNumStag - P.s.nstag = m + 1 := ⟨c.maxNumStag - P.s.nstag - 1, by omega⟩
    rw [hm, Nat.succ_mul]
    omega
  | succ fuel ih =>
    unfold passes
    by_cases w : P.s.nit ≤ c.nitMax ∧ P.s.nstag < c.maxNumStag
    · rw [if_pos w]
      rcases hq : passOnce S norms c start solve P with P' | ⟨P', l'⟩ | k | _
      · dsimp only
        refine ih ?_
        rcases passOnce_cases (S := S) (norms := norms) (c := c) (start := start) (solve := solve) P with ⟨k, e⟩ | e | ⟨o, r, s', m, hm, hb', e⟩
        · rw [e] at hq; simp at hq
        · rw [e] at hq; simp at hq
        · rw [e] at hq
          rcases m with _ | m
          · simp only [PassEnd.go.injEq] at hq
            subst hq
            have := Time.budget_dec c r _ P.s s' w hb'
            dsimp only
            omega
          · cases m <;> simp at hq
      · exact ⟨_, rfl, by simp⟩
      · exact ⟨_, rfl, by simp⟩
      · exact ⟨_, rfl, by simp⟩
    · rw [if_neg w]
      exact ⟨_, rfl, by simp⟩
end

section
variable {S : Setting} {norms : Rows → Option (ℝ × ℝ × ℝ)} {c : Time.LoopCfg ℝ} {solve : Solver} {first : Bool} {E D P : ℝ} {x z zu : Nat → ℝ} {V : BCVals ℝ} {r : Time.Res ℝ} {fuel : Nat}
  {f : LS.Fields} {t : Mech}

/-- C162 (recorded).  A recorded step was finished with the time step of its beginning divided once per stagnation, and if its loop ended as converged, the fields that were finished had passed the
test with this time step. -/
theorem recorded_step {e : StepEnd} (he : mechStep S norms c solve first E D P x z zu V r fuel f t = some (.ok e)) :
    e.s.dt = S.env.dt / c.safeDtDiv ^ e.s.nstag ∧ ∃ g o l, finishStep (S.withDt e.s.dt) g o = .ok (e.f, e.o)
      ∧ (l = .converged → Accurate (S.withDt e.s.dt) norms c (initialFields S first E D P x z zu V f) g o) ∧ (c.safeMode = 1 → 0 < c.maxNumStag → l = Time.Leave.converged) := by
  unfold mechStep at he
  dsimp only at he
  generalize initialFields S first E D P x z zu V f = f0 at *
  rcases hp : passes S norms c f0 solve fuel ⟨⟨0, 0, S.env.dt, 0, r, r⟩, f0, t⟩ with _ | ⟨Q⟩ | ⟨Q, l⟩ | k | _
  · rw [hp] at he; simp at he
  · rw [hp] at he; simp at he
  · rw [hp] at he
    dsimp only at he
    rcases hf : finishStep (S.withDt Q.s.dt) Q.f Q.t with ⟨f', o'⟩ | k | _
    · rw [hf] at he
      dsimp only at he
      by_cases w : Time.continues c Q.s l
      · rw [if_pos w] at he
        simp only [Option.some.injEq, Point.Outcome.ok.injEq] at he
        subst he
        have h0 : Cycle S norms c f0 ⟨⟨0, 0, S.env.dt, 0, r, r⟩, f0, t⟩ := ⟨by simp, fun _ => rfl, fun q => absurd rfl q⟩
        obtain ⟨h1, h2⟩ := loop_record h0 hp
        refine ⟨h1, Q.f, Q.t, l, hf, h2, fun hs hm => ?_⟩
        obtain ⟨orc, ho⟩ := passes_loop _ _ _ _ _ _ _ _ _ hp
        exact Time.safe_mode_never_continues_unconverged c orc fuel S.env.dt r Q.s l hs hm ho w
      · rw [if_neg w] at he; simp at he
    · rw [hf] at he; simp at he
    · rw [hf] at he; simp at he
  · rw [hp] at he; simp at he
  · rw [hp] at he; simp at he

/-- C162.  **In safe mode every recorded flow has passed the test**: whatever the solver does, the recorded velocities are those of fields whose residuals, measured with the time step that is kept, are
below the absolute tolerance or the relative one with respect to the fields the step began with; the recorded pressure of the cells is the corrected one of the final update. -/
theorem safe_step_accurate (hs : c.safeMode = 1) (hm : 0 < c.maxNumStag) {e : StepEnd} (he : mechStep S norms c solve first E D P x z zu V r fuel f t = some (.ok e)) :
    ∃ S', Retimed S S' (S.env.dt / c.safeDtDiv ^ e.s.nstag) ∧ e.s.dt = S.env.dt / c.safeDtDiv ^ e.s.nstag ∧ ∃ g o, Accurate S' norms c (initialFields S first E D P x z zu V f) g o
      ∧ updateNL S' true g o = .ok e.o ∧ e.f.u = g.u ∧ e.f.v = g.v ∧ ∀ i < S.ncells, e.f.p i = (e.o.cells i).pcorr := by
  obtain ⟨h1, g, o, l, hf, h2, h3⟩ := recorded_step he
  obtain ⟨hu, ef⟩ := fin_ok hf
  refine ⟨S.withDt e.s.dt, by rw [← h1]; exact ⟨rfl, rfl, rfl⟩, h1, g, o, h2 (h3 hs hm), hu, by rw [ef], by rw [ef], fun i hi => ?_⟩
  rw [ef]
  dsimp only
  rw [LS.copyArr_apply, if_pos (show i < (S.withDt e.s.dt).ncells from hi)]

/-- C162 (end).  A step ends after at most `(nit_max + 1) max_num_stag` passes, whatever the solver does. -/
theorem step_ends (hfuel : (c.nitMax + 1) * c.maxNumStag ≤ fuel) : ∃ e, mechStep S norms c solve first E D P x z zu V r fuel f t = some e := by
  unfold mechStep
  dsimp only
  generalize initialFields S first E D P x z zu V f = f0
  obtain ⟨e, he, hn⟩ := passes_end (S := S) (norms := norms) (c := c) (start := f0) (solve := solve) (fuel := fuel) (P := ⟨⟨0, 0, S.env.dt, 0, r, r⟩, f0, t⟩) (by
    unfold Time.budget; dsimp only; rw [Nat.sub_zero, Nat.sub_zero, mul_comm]; exact hfuel)
  rw [he]
  rcases e with Q | ⟨Q, l⟩ | k | _
  · exact absurd rfl (hn Q)
  · dsimp only
    rcases finishStep (S.withDt Q.s.dt) Q.f Q.t with ⟨f', o'⟩ | k | _
    · dsimp only; split_ifs <;> exact ⟨_, rfl⟩
    · exact ⟨_, rfl⟩
    · exact ⟨_, rfl⟩
  · exact ⟨_, rfl⟩
  · exact ⟨_, rfl⟩

/-- C162 (without safe mode).  **Without safe mode fields that nobody tested are recorded**: if the first pass fails the test and the solver stagnates, or only one iteration is allowed, the recorded
velocities are whatever the solver has left. -/
theorem unsafe_step_untested (hdt : S.m.dt = S.env.dt) (hs : c.safeMode ≤ 0) (hm : 0 < c.maxNumStag) {o : Mech} {R : Rows} {n : ℝ × ℝ × ℝ} (hp : pass S (initialFields S first E D P x z zu V f) t = .ok (o, R))
    (hn : norms R = some n) (hfail : ¬ (Below n.1 n.1 c.absMom c.relMom ∧ Below n.2.1 n.2.1 c.absMom c.relMom ∧ Below n.2.2 n.2.2 c.absDiv c.relDiv)) {g : LS.Fields} {q : Mech} {stag : Bool}
    (hsolve : solve 0 (initialFields S first E D P x z zu V f) o = (g, q, stag)) (hstag : stag = true ∨ c.nitMax = 0) {g' : LS.Fields} {q' : Mech} (hfin : finishStep S g q = .ok (g', q')) :
    ∃ e, mechStep S norms c solve first E D P x z zu V r 1 f t = some (.ok e) ∧ e.f.u = g.u ∧ e.f.v = g.v ∧ e.o = q' := by
  have ef := (fin_ok hfin).2
  have hself := S.withDt_self hdt
  generalize hf0 : initialFields S first E D P x z zu V f = f0 at hp hsolve
  have hf : ¬ Time.convTest c ⟨n.1, n.2.1, n.2.2⟩ ⟨n.1, n.2.1, n.2.2⟩ := hfail
  have hc : ∀ s l, l ≠ Time.Leave.exitStag → Time.continues c s l := fun s l h => ⟨h, fun w => by omega⟩
  by_cases w : stag = true
  · subst w
    refine ⟨⟨g', q', ⟨0, 0, S.env.dt, 1, ⟨n.1, n.2.1, n.2.2⟩, ⟨n.1, n.2.1, n.2.2⟩⟩⟩, ?_, by rw [ef], by rw [ef], rfl⟩
    unfold mechStep
    simp only [hf0]
    unfold passes
    rw [if_pos ⟨Nat.zero_le _, hm⟩]
    unfold passOnce
    dsimp only
    rw [hself, hp]
    dsimp only
    rw [hn]
    dsimp only
    rw [hsolve]
    have hb : Time.loopBody c ⟨n.1, n.2.1, n.2.2⟩ true ⟨0, 0, S.env.dt, 0, r, r⟩ = (⟨0, 0, S.env.dt, 1, ⟨n.1, n.2.1, n.2.2⟩, ⟨n.1, n.2.1, n.2.2⟩⟩, some .stagnated) := by
      unfold Time.loopBody
      dsimp only
      rw [show (if (0 : Nat) = 0 then (⟨n.1, n.2.1, n.2.2⟩ : Time.Res ℝ) else r) = ⟨n.1, n.2.1, n.2.2⟩ from if_pos rfl, if_neg hf, if_pos ⟨rfl, hs⟩]
    dsimp only
    rw [hb]
    dsimp only
    rw [hself, hfin]
    dsimp only
    rw [if_pos (hc _ _ (by simp))]
  · obtain rfl : stag = false := by simpa using w
    have h0 : c.nitMax = 0 := by simpa using hstag
    refine ⟨⟨g', q', ⟨1, 0, S.env.dt, 1, ⟨n.1, n.2.1, n.2.2⟩, ⟨n.1, n.2.1, n.2.2⟩⟩⟩, ?_, by rw [ef], by rw [ef], rfl⟩
    unfold mechStep
    simp only [hf0]
    unfold passes
    rw [if_pos ⟨Nat.zero_le _, hm⟩]
    unfold passOnce
    dsimp only
    rw [hself, hp]
    dsimp only
    rw [hn]
    dsimp only
    rw [hsolve]
    have hb : Time.loopBody c ⟨n.1, n.2.1, n.2.2⟩ false ⟨0, 0, S.env.dt, 0, r, r⟩ = (⟨1, 0, S.env.dt, 1, ⟨n.1, n.2.1, n.2.2⟩, ⟨n.1, n.2.1, n.2.2⟩⟩, none) := by
      unfold Time.loopBody
      dsimp only
      rw [show (if (0 : Nat) = 0 then (⟨n.1, n.2.1, n.2.2⟩ : Time.Res ℝ) else r) = ⟨n.1, n.2.1, n.2.2⟩ from if_pos rfl, if_neg hf, if_neg (by simp), if_neg (by simp)]
    dsimp only
    rw [hb]
    dsimp only
    rw [if_pos rfl]
    unfold passes
    rw [if_neg (by dsimp only; omega)]
    dsimp only
    rw [hself, hfin]
    dsimp only
    rw [if_pos (hc _ _ (by simp))]
end

/-- Non-vacuity, without safe mode: on every grid of at least five by five vertices, with relative tolerances alone and one iteration, any velocities the solver returns are recorded. -/
theorem slab_records_anything (Nx Nz : Nat) (hx : 5 ≤ Nx) (hz : 5 ≤ Nz) (eps x0 : ℝ) (g : LS.Fields) (f : LS.Fields) (t : Mech) : ∃ (S : Setting) (x z zu : Nat → ℝ) (V : BCVals ℝ) (solve : Solver) (e : StepEnd),
    S.m.Nx = Nx ∧ S.m.Nz = Nz ∧ mechStep S (countedNorms S) ⟨0, 1, 0, 1, 2, 0, 0, 1 / 2, 1 / 2⟩ solve true eps 0 0 x z zu V ⟨0, 0, 0⟩ 1 f t = some (.ok e) ∧ e.f.u = g.u ∧ e.f.v = g.v := by
  obtain ⟨bu, hu, -⟩ := Setup.template_Vx (show 2 ≤ Nx by omega) 1 eps ((Nz - 1) * 1000) (fun k : Nat => x0 + k * 1000) (fun _ => 0) (fun _ => 0) (Nz := Nz)
  obtain ⟨bv, hv, -⟩ := Setup.template_Vz (show 1 ≤ Nx by omega) (show 2 ≤ Nz by omega) 1 eps (fun l : Nat => -(((Nz : ℝ) - 1) * 1000) / 2 + l * 1000) (fun _ => 0) (fun _ => 0)
  obtain ⟨h, v, hdt⟩ := seam_meets Nx Nz (by omega) (by omega) eps x0 hu hv
  have hc := h.counted hx hz
  have hN : (seamSlab Nx Nz bu.type bv.type).m.Nx = Nx ∧ (seamSlab Nx Nz bu.type bv.type).m.Nz = Nz := ⟨rfl, rfl⟩
  generalize seamSlab Nx Nz bu.type bv.type = S at *
  obtain ⟨o, ho⟩ := viscoelastic_goes_on _ v false (initialFields S true eps 0 0 (fun k : Nat => x0 + k * 1000) (fun l : Nat => -(((Nz : ℝ) - 1) * 1000) / 2 + l * 1000)
    (fun l : Nat => -(((Nz : ℝ) - 1) * 1000) / 2 + (l - 1 / 2) * 1000) ⟨bu.val, bv.val⟩ f) t
  obtain ⟨q', hq⟩ := viscoelastic_goes_on _ v true g o
  obtain ⟨R, hp⟩ : ∃ R, pass S (initialFields S true eps 0 0 (fun k : Nat => x0 + k * 1000) (fun l : Nat => -(((Nz : ℝ) - 1) * 1000) / 2 + l * 1000)
    (fun l : Nat => -(((Nz : ℝ) - 1) * 1000) / 2 + (l - 1 / 2) * 1000) ⟨bu.val, bv.val⟩ f) t = .ok (o, R) := by unfold pass; rw [ho]; exact ⟨_, rfl⟩
  obtain ⟨g', hfin⟩ : ∃ g', finishStep S g o = .ok (g', q') := by unfold finishStep; rw [hq]; exact ⟨_, rfl⟩
  have never : ∀ a : ℝ, 0 ≤ a → ¬ Below a a 0 (1 / 2) := fun a ha w => by
    rcases w with w | ⟨w1, w2⟩
    · exact absurd ha (not_le.2 w)
    · rw [div_self w1] at w2; norm_num at w2
  obtain ⟨e, he, e1, e2, -⟩ := unsafe_step_untested (S := S) (norms := countedNorms S) (c := ⟨0, 1, 0, 1, 2, 0, 0, 1 / 2, 1 / 2⟩) (solve := fun _ _ o => (g, o, false)) (r := ⟨0, 0, 0⟩)
    hdt (le_refl _) Nat.one_pos hp (by unfold countedNorms; rw [if_pos hc]) (fun w => never _ (Real.sqrt_nonneg _) w.1) rfl (Or.inr rfl) hfin
  exact ⟨S, _, _, _, _, _, e, hN.1, hN.2, he, e1, e2⟩

/-- Non-vacuity, safe mode: the simple shear of an elastic slab is recorded in safe mode. -/
example (eps : ℝ) (solve : Solver) (f0 : LS.Fields) (t : Mech) : ∃ (S : Setting) (x z zu : Nat → ℝ) (V : BCVals ℝ) (e : StepEnd),
    mechStep S (countedNorms S) ⟨10, 3, 1, 1, 2, 1, 1, 1, 1⟩ solve true eps 0 0 x z zu V ⟨0, 0, 0⟩ 1 f0 t = some (.ok e) := by
  obtain ⟨bu, hu, -⟩ := Setup.template_Vx (show 2 ≤ 7 by omega) 1 eps (((5 : Nat) - 1) * 1000) (fun k : Nat => (0 : ℝ) + k * 1000) (fun _ => 0) (fun _ => 0) (Nz := 5)
  obtain ⟨bv, hv, -⟩ := Setup.template_Vz (show 1 ≤ 7 by omega) (show 2 ≤ 5 by omega) 1 eps (fun l : Nat => -((((5 : Nat) : ℝ) - 1) * 1000) / 2 + l * 1000) (fun _ => 0) (fun _ => 0)
  obtain ⟨h, v, hdt⟩ := seam_meets 7 5 (by omega) (by omega) eps 0 hu hv
  have hc := h.counted (show 5 ≤ 7 by omega) (show 5 ≤ 5 by omega)
  have hS := seam_even 7 5 (by omega) (by omega) bu.type bv.type
  obtain ⟨a, ha⟩ := viscoelastic_goes_on _ v false (sheared (seamSlab 7 5 bu.type bv.type) eps (fun l : Nat => -((((5 : Nat) : ℝ) - 1) * 1000) / 2 + (l - 1 / 2) * 1000) 0) t
  obtain ⟨o, ho⟩ := viscoelastic_goes_on _ v true (sheared (seamSlab 7 5 bu.type bv.type) eps (fun l : Nat => -((((5 : Nat) : ℝ) - 1) * 1000) / 2 + (l - 1 / 2) * 1000) 0) a
  have e := settled_step (c := ⟨10, 3, 1, 1, 2, 1, 1, 1, 1⟩) hdt hc one_pos one_pos (by decide) (simple_shear_start h 0 f0) ha
    (simple_shear_settled h hS ⟨rfl, rfl⟩ rfl (fun _ => ⟨rfl, rfl⟩) ha) solve ⟨0, 0, 0⟩ 0
  obtain ⟨f', hf⟩ : ∃ f', finishStep (seamSlab 7 5 bu.type bv.type) (sheared (seamSlab 7 5 bu.type bv.type) eps (fun l : Nat => -((((5 : Nat) : ℝ) - 1) * 1000) / 2 + (l - 1 / 2) * 1000) 0) a = .ok (f', o) := by
    unfold finishStep; rw [ho]; exact ⟨_, rfl⟩
  rw [hf] at e
  exact ⟨_, _, _, _, _, _, e⟩

end Verif.StepFlow
