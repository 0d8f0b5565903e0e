import Verif.Props.Heap

/-
C116, continued: the conditions on switches and steps are needed.
-/
set_option linter.unusedSimpArgs false
set_option linter.unusedVariables false
set_option linter.constructorNameAsVariable false
namespace Verif.Heap
open Verif

/-! ### Bad memory stays bad -/

theorem bad_switch (c : Cfg) (p : Pass) (s : St) (h : s.mem.bad = true) : (switchNewton c p s).mem.bad = true := by
  simp only [switchNewton]
  split
  · split
    · rfl
    · exact h
    · exact bad_run _ _ h
  · exact h

theorem bad_assemble (c : Cfg) (p : Pass) (s : St) (h : (switchNewton c p s).mem.bad = true) :
    (assemble c p s).mem.bad = true := by
  simp only [assemble]
  exact bad_exec _ _ h

theorem bad_solve (c : Cfg) (s : St) (h : s.mem.bad = true) : (linearSolve c s).mem.bad = true := by
  simp only [linearSolve]
  split
  · split
    · exact bad_exec _ _ h
    · exact bad_exec _ _ h
  · exact h

theorem bad_pass (c : Cfg) (p : Pass) (s : St) (h : (assemble c p s).mem.bad = true) :
    (pass c p s).1.mem.bad = true := by
  simp only [pass]
  cases p.ending <;> simp only [clear]
  · exact bad_exec _ _ h
  · exact bad_exec _ _ (bad_solve c _ h)
  · exact bad_exec _ _ (bad_solve c _ h)
  · exact bad_exec _ _ (bad_solve c _ h)

theorem bad_passes (c : Cfg) : ∀ (ps : List Pass) (s : St), s.mem.bad = true → (passes c ps s).mem.bad = true
  | [], _, h => h
  | p :: ps, s, h => by
    have hp := bad_pass c p s (bad_assemble c p s (bad_switch c p s h))
    simp only [passes]
    split
    · exact bad_passes c ps _ hp
    · exact hp

theorem bad_leave (s : St) (h : s.mem.bad = true) : (leave s).mem.bad = true := by
  simp only [leave]
  split
  · exact bad_run _ _ h
  · exact h

theorem bad_enter (c : Cfg) (s : St) (h : s.mem.bad = true) : (enter c s).mem.bad = true := by
  simp only [enter]
  split
  · exact bad_exec _ _ h
  · exact bad_exec _ _ h

theorem bad_step (c : Cfg) (s : St) (ps : List Pass) (h : s.mem.bad = true) : (step c s ps).mem.bad = true := by
  simp only [step]
  refine bad_exec _ _ ?_
  split
  · exact bad_leave _ (bad_passes c ps _ (bad_enter c _ (bad_exec _ _ h)))
  · exact bad_exec _ _ h

theorem bad_steps (c : Cfg) : ∀ (steps : List (List Pass)) (s : St), s.mem.bad = true →
    (steps.foldl (step c) s).mem.bad = true
  | [], _, h => h
  | ps :: rest, s, h => bad_steps c rest _ (bad_step c s ps h)

theorem bad_run_of_steps (c : Cfg) (restart : Bool) (steps : List (List Pass))
    (h : (steps.foldl (step c) (prepare c restart)).mem.bad = true) : (run c restart steps).bad = true :=
  bad_exec _ _ h

theorem bad_run_of_first (c : Cfg) (restart : Bool) (ps : List Pass) (rest : List (List Pass))
    (h : (step c (prepare c restart) ps).mem.bad = true) : (run c restart (ps :: rest)).bad = true :=
  bad_run_of_steps c restart _ (bad_steps c rest _ h)

/-! ### Pointers are not changed by uses -/

theorem ptr_exec_uses (c : Cfg) (t : List (Var × Guard)) (m : Mem) : (exec (uses c t) m).ptr = m.ptr := by
  have : ∀ (l : List Op), (∀ o ∈ l, ∃ s, o = .use s) → ∀ m, (exec l m).ptr = m.ptr := by
    intro l
    induction l with
    | nil => intro _ m; rfl
    | cons o l ih =>
      intro h m
      obtain ⟨s, rfl⟩ := h o (by simp)
      rw [exec_cons, ih fun o ho => h o (by simp [ho])]
      simp only [Op.run]
      split <;> rfl
  refine this _ ?_ m
  intro o ho
  simp only [uses, List.mem_map] at ho
  obtain ⟨w, _, rfl⟩ := ho
  exact ⟨_, rfl⟩

theorem ptr_prepare (c : Cfg) (restart : Bool) (s : Slot) :
    (prepare c restart).mem.ptr s = if s ∈ slots c allocTable then .live else initMem.ptr s := by
  simp only [prepare]
  rw [ptr_exec_uses, prepared]

theorem not_alloc {c : Cfg} (v : Var) (g : Guard) (hm : ⟨v, g, .self⟩ ∈ allocTable) (hg : g.holds c = false) :
    Slot.var v ∉ slots c allocTable := by
  intro h
  obtain ⟨g', h1, h2⟩ := var_mem_slots.1 h
  have : (⟨v, g', .self⟩ : Entry) = ⟨v, g, .self⟩ := List.inj_on_of_nodup_map alloc_keys h1 hm rfl
  have : g' = g := by simpa using this
  subst this
  simp [hg] at h2

theorem not_live_of_not_alloc {c : Cfg} {restart : Bool} {s : Slot} (h : s ∉ slots c allocTable) :
    (prepare c restart).mem.ptr s ≠ .live := by
  rw [ptr_prepare, if_neg h]
  exact init_not_live s

/-! ### Switches -/

/-- Without mechanics every run releases pointers that were never set. -/
theorem mechanics_needed (c : Cfg) (h : c.mechanical ≠ 1) (restart : Bool) (ps : List Pass)
    (rest : List (List Pass)) : (run c restart (ps :: rest)).bad = true := by
  refine bad_run_of_first c restart ps rest ?_
  simp only [step, if_neg h, exec_append]
  have hs : solveFree c.needJacobian = .var (.sys .Stokes .d) :: (solveFree c.needJacobian).tail := by
    simp [solveFree, sFree, fields]
  rw [hs, List.map_cons, exec_cons]
  refine bad_exec _ _ ?_
  have hp : (exec (uses c lateUses) (exec (uses c stepUses) (prepare c restart).mem)).ptr (.var (.sys .Stokes .d))
      = .garbage := by
    rw [ptr_exec_uses, ptr_exec_uses, ptr_prepare, if_neg]
    · rfl
    · intro hm
      exact (not_sys_of_mem hm).1 ⟨_, _, rfl⟩
  simp only [Op.run]
  rw [if_pos (by trivial)]
  simp only [Mem.release, hp]
  rfl

/-- Anisotropy other than off or on uses arrays that do not exist. -/
theorem anisotropy_needed (c : Cfg) (hm : c.mechanical = 1) (h0 : c.anisotropy ≠ 0) (h1 : c.anisotropy ≠ 1)
    (restart : Bool) (ps : List Pass) (rest : List (List Pass)) : (run c restart (ps :: rest)).bad = true := by
  refine bad_run_of_first c restart ps rest ?_
  simp only [step, if_pos hm]
  refine bad_exec _ _ (bad_leave _ (bad_passes c ps _ ?_))
  have hb : (exec (uses c mechUses) (exec (uses c stepUses) (prepare c restart).mem)).bad = true := by
    refine bad_uses c mechUses _ (.mesh .aniso_factor_n, .anisoAny) (by simp [mechUses]) ?_ ?_
    · simpa [Guard.holds] using h0
    · rw [ptr_exec_uses]
      refine not_live_of_not_alloc (not_alloc _ .aniso (mem_of_mask _ _ (by decide +kernel)) ?_)
      simpa [Guard.holds] using h1
  simp only [enter, exec_append]
  split
  · exact bad_exec _ _ hb
  · exact bad_exec _ _ hb

/-- Initial directions from the set-up without anisotropy are written to an array that does not exist. -/
theorem angle_needed (c : Cfg) (ha : c.markerAngle ≠ 0) (hcb : c.angleCb = true) (h : c.anisotropy ≠ 1)
    (steps : List (List Pass)) : (run c false steps).bad = true := by
  refine bad_run_of_steps c false steps (bad_steps c steps _ ?_)
  refine bad_uses c startUses _ (.part .aniso_angle, .angleCb) (by simp [startUses]) ?_ ?_
  · simp [Guard.holds, ha, hcb]
  · rw [prepared]
    simp only
    rw [if_neg (not_alloc _ .angle (mem_of_mask _ _ (by decide +kernel)) (by simp [Guard.holds, h]))]
    exact init_not_live _

/-- A phase with kinetics reads a table that is loaded only with the kinetics switch. -/
theorem kinetics_needed (c : Cfg) (hk : c.kin9 = true) (h : c.kinetics ≠ 1) (steps : List (List Pass)) :
    (run c false steps).bad = true := by
  refine bad_run_of_steps c false steps (bad_steps c steps _ ?_)
  refine bad_uses c startUses _ (.model .kin_dG, .kin9) (by simp [startUses]) ?_ ?_
  · simp [Guard.holds, hk]
  · rw [prepared]
    simp only
    rw [if_neg (not_alloc _ .kin (mem_of_mask _ _ (by decide +kernel)) (by simp [Guard.holds, h]))]
    exact init_not_live _

/-! ### Newton steps -/

theorem asks_bad (c : Cfg) (hp : c.picard2newton = 1) : ∀ (ps : List Pass) (s : St), s.first = none →
    asks s.nit ps = true → (passes c ps s).mem.bad = true
  | [], s, _, h => by simp [asks] at h
  | p :: ps, s, hf, h => by
    by_cases hsw : 0 < s.nit ∧ p.switch = true
    · have hb : (switchNewton c p s).mem.bad = true := by
        simp only [switchNewton, hsw.1, hp, hsw.2, and_self, if_true, hf]
        rfl
      have hb := bad_pass c p s (bad_assemble c p s hb)
      simp only [passes]
      split
      · exact bad_passes c ps _ hb
      · exact hb
    · have hno : ¬ (0 < s.nit ∧ c.picard2newton = 1 ∧ p.switch = true) := fun h => hsw ⟨h.1, h.2.2⟩
      have hsw' : switchNewton c p s = s := by simp only [switchNewton, if_neg hno]
      have hz : (decide (0 < s.nit) && p.switch) = false := by
        rw [Bool.and_eq_false_iff]
        by_cases h0 : 0 < s.nit
        · right
          by_contra hc
          exact hsw ⟨h0, by simpa using hc⟩
        · left
          simp [h0]
      have hfirst : (linearSolve c (assemble c p s)).first = none := by
        rw [(linearSolve_fields c _).2.1, (assemble_fields c p s).2.1, hsw', hf]
      simp only [asks, hz, Bool.false_or] at h
      cases hend : p.ending <;> simp only [hend] at h
      · simp at h
      · simp at h
      · have : passes c (p :: ps) s = passes c ps { clear (linearSolve c (assemble c p s)) with nit := 0 } := by
          simp [passes, pass, hend]
        rw [this]
        exact asks_bad c hp ps _ hfirst h
      · have : passes c (p :: ps) s = passes c ps { clear (linearSolve c (assemble c p s)) with nit := s.nit + 1 } := by
          simp [passes, pass, hend]
        rw [this]
        exact asks_bad c hp ps _ hfirst h

theorem passes_no_ask (c : Cfg) (hp : c.picard2newton = 1) : ∀ (ps : List Pass) (s : St),
    asks s.nit ps = false → (passes c ps s).isNewton = s.isNewton
  | [], s, _ => rfl
  | p :: ps, s, h => by
    simp only [asks, Bool.or_eq_false_iff] at h
    have hno : ¬ (0 < s.nit ∧ c.picard2newton = 1 ∧ p.switch = true) := by
      rintro ⟨h1, _, h2⟩
      simp [h1, h2] at h
    have hsw' : switchNewton c p s = s := by simp only [switchNewton, if_neg hno]
    have hnew : (linearSolve c (assemble c p s)).isNewton = s.isNewton := by
      rw [(linearSolve_fields c _).2.2.2.1, (assemble_fields c p s).2.2.2.2, hsw']
    cases hend : p.ending <;> simp only [hend] at h
    · have : passes c (p :: ps) s = clear (assemble c p s) := by simp [passes, pass, hend]
      rw [this]
      show (assemble c p s).isNewton = _
      rw [(assemble_fields c p s).2.2.2.2, hsw']
    · have : passes c (p :: ps) s = clear (linearSolve c (assemble c p s)) := by simp [passes, pass, hend]
      rw [this]
      exact hnew
    · have : passes c (p :: ps) s = passes c ps { clear (linearSolve c (assemble c p s)) with nit := 0 } := by
        simp [passes, pass, hend]
      rw [this, passes_no_ask c hp ps _ h.2]
      exact hnew
    · have : passes c (p :: ps) s = passes c ps { clear (linearSolve c (assemble c p s)) with nit := s.nit + 1 } := by
        simp [passes, pass, hend]
      rw [this, passes_no_ask c hp ps _ h.2]
      exact hnew

/-- A step that starts in Picard mode: if it asks for Newton steps the memory is bad, otherwise the mode stays. -/
theorem step_picard (c : Cfg) (hm : c.mechanical = 1) (hp : c.picard2newton = 1) (s : St) (ps : List Pass)
    (h : s.isNewton = false) :
    (asks 0 ps = true → (step c s ps).mem.bad = true) ∧ (asks 0 ps = false → (step c s ps).isNewton = false) := by
  have he : (enter c { s with mem := exec (uses c stepUses) s.mem }).first = none
      ∧ (enter c { s with mem := exec (uses c stepUses) s.mem }).nit = 0
      ∧ (enter c { s with mem := exec (uses c stepUses) s.mem }).isNewton = false := by
    simp [enter, h]
  constructor
  · intro ha
    simp only [step, if_pos hm]
    exact bad_exec _ _ (bad_leave _ (asks_bad c hp ps _ he.1 (by rw [he.2.1]; exact ha)))
  · intro ha
    simp only [step, if_pos hm]
    have : ∀ r : St, (leave r).isNewton = r.isNewton := by
      intro r
      simp only [leave]
      split <;> rfl
    rw [this, passes_no_ask c hp ps _ (by rw [he.2.1]; exact ha)]
    exact he.2.2

theorem steps_picard (c : Cfg) (hm : c.mechanical = 1) (hp : c.picard2newton = 1) :
    ∀ (steps : List (List Pass)) (s : St), s.isNewton = false → (∃ ps ∈ steps, asks 0 ps = true) →
    (steps.foldl (step c) s).mem.bad = true
  | [], _, _, h => by simp at h
  | ps :: rest, s, hs, h => by
    obtain ⟨h1, h2⟩ := step_picard c hm hp s ps hs
    rw [List.foldl_cons]
    cases ha : asks 0 ps
    · refine steps_picard c hm hp rest _ (h2 ha) ?_
      obtain ⟨q, hq, hq'⟩ := h
      rcases List.mem_cons.1 hq with rfl | hq
      · simp [ha] at hq'
      · exact ⟨q, hq, hq'⟩
    · exact bad_steps c rest _ (h1 ha)

/-- A run that begins with Picard steps and was not set up with a Jacobian goes wrong as soon as Newton steps are
asked for. -/
theorem jacobian_needed (c : Cfg) (hm : c.mechanical = 1) (hp : c.picard2newton = 1) (hn : c.newton ≠ 1)
    (ha : c.anisotropy ≠ 1) (restart : Bool) (steps : List (List Pass)) (h : ∃ ps ∈ steps, asks 0 ps = true) :
    (run c restart steps).bad = true :=
  bad_run_of_steps c restart steps
    (steps_picard c hm hp steps _ (by simp [prepare, hn, ha]) h)

theorem step_no_ask (c : Cfg) (hm : c.mechanical = 1) (hp : c.picard2newton = 1) (s : St) (ps : List Pass)
    (h : asks 0 ps = false) : (step c s ps).isNewton = false := by
  have : ∀ r : St, (leave r).isNewton = r.isNewton := by
    intro r
    simp only [leave]
    split <;> rfl
  simp only [step, if_pos hm]
  rw [this]
  have hz : ∀ s, (enter c s).nit = 0 ∧ (enter c s).isNewton = false := by
    intro s
    simp only [enter, hp, and_true]
    split
    · simp
    · rename_i h
      refine ⟨rfl, ?_⟩
      simpa using h
  rw [passes_no_ask c hp ps _ (by rw [(hz _).1]; exact h)]
  exact (hz _).2

theorem steps_twice (c : Cfg) (hm : c.mechanical = 1) (hp : c.picard2newton = 1) :
    ∀ (steps : List (List Pass)) (s : St), ¬ (steps.Pairwise fun a b => asks 0 b = true → asks 0 a = true) →
    (steps.foldl (step c) s).mem.bad = true
  | [], _, h => by simp at h
  | ps :: rest, s, h => by
    rw [List.foldl_cons]
    by_cases hr : rest.Pairwise fun a b => asks 0 b = true → asks 0 a = true
    · rw [List.pairwise_cons] at h
      have : ∃ q ∈ rest, asks 0 q = true ∧ asks 0 ps = false := by
        by_contra hno
        refine h ⟨fun q hq h1 => ?_, hr⟩
        by_contra h2
        exact hno ⟨q, hq, h1, by simpa using h2⟩
      obtain ⟨q, hq, h1, h2⟩ := this
      exact steps_picard c hm hp rest _ (step_no_ask c hm hp s ps h2) ⟨q, hq, h1⟩
    · exact steps_twice c hm hp rest _ hr

/-- With Picard steps first, in any run: a step that asks for Newton steps after a step that did not goes wrong. -/
theorem switch_once_needed (c : Cfg) (hm : c.mechanical = 1) (hp : c.picard2newton = 1) (restart : Bool)
    (steps : List (List Pass)) (h : ¬ (steps.Pairwise fun a b => asks 0 b = true → asks 0 a = true)) :
    (run c restart steps).bad = true :=
  bad_run_of_steps c restart steps (steps_twice c hm hp steps _ h)

/-! ### The factor -/

/-- A run of one step that stagnates in its first pass leaves the Cholesky factor. -/
theorem factor_left (c : Cfg) (hc : Sound c) (restart sw : Bool) :
    (run c restart [[⟨sw, .stagnated⟩]]).bad = false ∧ (run c restart [[⟨sw, .stagnated⟩]]).ptr F = .live := by
  have h := prepare_calm hc restart
  obtain ⟨s, hs⟩ : ∃ s, s = prepare c restart := ⟨_, rfl⟩
  rw [← hs] at h
  have u1 : exec (uses c stepUses) s.mem = s.mem :=
    lvl_uses hc h.lvl _ fun u hu => by simp only [List.mem_append]; tauto
  have u2 : exec (uses c mechUses) s.mem = s.mem :=
    lvl_uses hc h.lvl _ fun u hu => by simp only [List.mem_append]; tauto
  obtain ⟨l1, l2, l3, l4⟩ := solve_lists c.needJacobian
  have hal := lvl_alloc h.lvl (solveAlloc c.needJacobian) l1 fun t ht => ⟨solveAlloc_sys _ t ht, by simp⟩
  obtain ⟨s1, hs1⟩ : ∃ s1, s1 = enter c { s with mem := exec (uses c stepUses) s.mem } := ⟨_, rfl⟩
  have hmem1 : s1.mem = exec ((solveAlloc c.needJacobian).map .alloc) s.mem ∧ s1.nit = 0 ∧ s1.jac = false
      ∧ s1.analyze = true ∧ s1.first ≠ some false ∧ (s1.newton = true → s.newton = true) := by
    rw [hs1]
    simp only [enter, u1, exec_append, u2]
    split
    · simp
    · exact ⟨rfl, rfl, rfl, rfl, by simp, fun h => h⟩
  obtain ⟨m1, m2, m3, m4, m5, m6⟩ := hmem1
  have htop : Top c s1 := by
    refine ⟨m1 ▸ lvl_congr hal.1 (by simp), ?_, ?_, ?_, fun h => absurd h m5, ?_⟩
    · intro _
      rw [m1, hal.2]
      exact h.fac
    · intro h1
      simp [m4] at h1
    · omega
    · rintro (h1 | h1)
      · exact h.need (m6 h1)
      · simp [m3] at h1
  have hmid := assemble_mid (p := ⟨sw, .stagnated⟩) htop (by intro h0; omega)
  obtain ⟨hsol, han⟩ := linearSolve_mid hc hmid
  have hclear := clear_lvl hsol
  obtain ⟨r, hr⟩ : ∃ r, r = clear (linearSolve c (assemble c ⟨sw, .stagnated⟩ s1)) := ⟨_, rfl⟩
  have hnit : r.nit = 0 := by
    rw [hr]
    show (linearSolve c (assemble c ⟨sw, .stagnated⟩ s1)).nit = 0
    rw [(linearSolve_fields c _).1, (assemble_fields c _ s1).1, m2]
  have hleave : leave r = r := by simp [leave, hnit]
  rw [← hr] at hclear
  have hF : r.mem.ptr F = .live := by rw [hclear.2]; exact hsol.on han
  have u3 : exec (uses c lateUses) r.mem = r.mem :=
    lvl_uses hc hclear.1 _ fun u hu => by simp only [List.mem_append]; tauto
  have hfree := lvl_free hclear.1 (solveFree c.needJacobian) l2 fun t ht => ⟨solveAlloc_sys _ t (l3 t ht), l3 t ht⟩
  have hstep : step c s [⟨sw, .stagnated⟩]
      = { r with mem := exec ((solveFree c.needJacobian).map .free) r.mem } := by
    simp only [step, if_pos hc.mechanical, ← hs1, passes, pass, Bool.false_eq_true, if_false, ← hr, hleave,
      exec_append, u3]
  obtain ⟨m', hm'⟩ : ∃ m', m' = exec ((solveFree c.needJacobian).map .free) r.mem := ⟨_, rfl⟩
  rw [← hm'] at hfree hstep
  have hlvl : Lvl c (fun _ => False) m' := lvl_congr hfree.1 fun t => by
    constructor
    · rintro ⟨h1, h2⟩
      exact h2 (l4 t h1)
    · simp
  have hset : Lvl c (fun _ => False) (m'.set F .null) := lvl_setF hlvl _
  have hend := end_memory hlvl
  have hrun : run c restart [[⟨sw, .stagnated⟩]] = exec ((slots c freeTable).map .free) m' := by
    simp only [run, List.foldl_cons, List.foldl_nil, ← hs, hstep]
  rw [hrun, hend]
  refine ⟨hlvl.bad, ?_⟩
  have hnot : F ∉ slots c freeTable := fun h => (not_sys_of_mem_free h).2 rfl
  simp only
  rw [if_neg (fun h => hnot h.1), hfree.2]
  exact hF

/-! ### An unknown solver -/

/-- Pointer an operation is about. -/
def Op.slot : Op → Slot
  | .alloc s => s
  | .use s => s
  | .free s => s
  | .freeSet s => s

theorem ptr_exec_other (t : Slot) : ∀ (l : List Op) (m : Mem), (∀ o ∈ l, o.slot ≠ t) → (exec l m).ptr t = m.ptr t
  | [], _, _ => rfl
  | o :: l, m, h => by
    rw [exec_cons, ptr_exec_other t l _ fun o ho => h o (by simp [ho])]
    have ht : t ≠ o.slot := fun e => h o (by simp) e.symm
    cases o with
    | alloc s =>
      simp only [Op.slot] at ht
      simp only [Op.run]
      split <;> simp [Mem.set, Mem.fail, ht]
    | use s =>
      simp only [Op.run]
      split <;> simp [Mem.fail]
    | free s =>
      simp only [Op.slot] at ht
      simp only [Op.run, Mem.release]
      split
      · split <;> simp [Mem.set, Mem.fail, ht]
      · simp [Mem.fail]
    | freeSet s =>
      simp only [Op.slot] at ht
      simp only [Op.run, Mem.release]
      split
      · split <;> simp [Mem.set, Mem.fail, ht]
      · simp [Mem.fail]

theorem ptr_F_enter (c : Cfg) (s : St) : (enter c s).mem.ptr F = s.mem.ptr F := by
  have h : (exec (uses c mechUses ++ (solveAlloc c.needJacobian).map .alloc) s.mem).ptr F = s.mem.ptr F := by
    rw [exec_append, ptr_exec_other F]
    · rw [ptr_exec_uses]
    · intro o ho
      obtain ⟨t, ht, rfl⟩ := List.mem_map.1 ho
      exact sysV_ne_F (solveAlloc_sys _ t ht)
  simp only [enter]
  split <;> exact h

theorem ptr_F_assemble (c : Cfg) (p : Pass) (s : St) : (assemble c p s).mem.ptr F = (switchNewton c p s).mem.ptr F := by
  simp only [assemble]
  rw [ptr_exec_other F]
  intro o ho
  rcases List.mem_append.1 ho with ho | ho
  · obtain ⟨t, ht, rfl⟩ := List.mem_map.1 ho
    exact sysV_ne_F (passAlloc_sys _ t ht)
  · obtain ⟨t, ht, rfl⟩ := List.mem_map.1 ho
    refine sysV_ne_F (solveAlloc_sys true t ?_)
    obtain ⟨b, hb⟩ : ∃ b, b = ((switchNewton c p s).jac || (switchNewton c p s).newton || c.anisotropy == 1) := ⟨_, rfl⟩
    rw [← hb] at ht
    cases b
    · exact pass_uses.2.1 t ht
    · exact pass_uses.2.2 t ht

theorem ptr_F_clear (s : St) : (clear s).mem.ptr F = s.mem.ptr F := by
  simp only [clear]
  rw [ptr_exec_other F]
  intro o ho
  obtain ⟨t, ht, rfl⟩ := List.mem_map.1 ho
  exact sysV_ne_F (passAlloc_sys _ t ((pass_lists s.jac).2.2.1 t ht))

/-- Number of the pass at which the iterations of a step stand when they end. -/
def endCount : Nat → List Pass → Nat
  | n, [] => n
  | n, p :: ps =>
    match p.ending with
    | .converged => n
    | .stagnated => n
    | .restart => endCount 0 ps
    | .next => endCount (n + 1) ps

theorem passes_nit (c : Cfg) : ∀ (ps : List Pass) (s : St), (passes c ps s).nit = endCount s.nit ps
  | [], _ => rfl
  | p :: ps, s => by
    have h1 := (linearSolve_fields c (assemble c p s)).1
    have h2 := (assemble_fields c p s).1
    cases hend : p.ending <;> simp only [passes, pass, hend, endCount, if_true, Bool.false_eq_true, if_false]
    · exact h2
    · show (linearSolve c (assemble c p s)).nit = _
      rw [h1, h2]
    · rw [passes_nit c ps]
    · rw [passes_nit c ps]

theorem passes_garbage (c : Cfg) (hs : c.solves = false) : ∀ (ps : List Pass) (s : St),
    (s.mem.bad = true ∨ s.mem.ptr F = .garbage) →
    ((passes c ps s).mem.bad = true ∨ (passes c ps s).mem.ptr F = .garbage)
  | [], _, h => h
  | p :: ps, s, h => by
    have hsw : (switchNewton c p s).mem.bad = true ∨ (switchNewton c p s).mem.ptr F = .garbage := by
      rcases h with h | h
      · exact Or.inl (bad_switch c p s h)
      · simp only [switchNewton]
        split
        · split
          · exact Or.inl rfl
          · exact Or.inr h
          · left
            simp only [Op.run]
            rw [if_pos (by trivial)]
            simp only [Mem.release, h]
            rfl
        · exact Or.inr h
    have has : (assemble c p s).mem.bad = true ∨ (assemble c p s).mem.ptr F = .garbage := by
      rcases hsw with h | h
      · exact Or.inl (bad_assemble c p s h)
      · right
        rw [ptr_F_assemble]
        exact h
    have hsolve : linearSolve c (assemble c p s) = assemble c p s := by simp [linearSolve, hs]
    have hcl : (clear (assemble c p s)).mem.bad = true ∨ (clear (assemble c p s)).mem.ptr F = .garbage := by
      rcases has with h | h
      · left
        simp only [clear]
        exact bad_exec _ _ h
      · right
        rw [ptr_F_clear]
        exact h
    cases hend : p.ending <;> simp only [passes, pass, hend, hsolve, if_true, Bool.false_eq_true, if_false]
    · exact hcl
    · exact hcl
    · exact passes_garbage c hs ps _ hcl
    · exact passes_garbage c hs ps _ hcl

/-- With a solver other than the four, a run whose first step does not end at count zero releases a pointer that was
never set. -/
theorem solver_needed (c : Cfg) (hm : c.mechanical = 1)
    (h : c.linSolver ≠ -1 ∧ c.linSolver ≠ 0 ∧ c.linSolver ≠ 1 ∧ c.linSolver ≠ 2) (restart : Bool) (ps : List Pass)
    (rest : List (List Pass)) (hps : 0 < endCount 0 ps) : (run c restart (ps :: rest)).bad = true := by
  refine bad_run_of_first c restart ps rest ?_
  simp only [step, if_pos hm]
  refine bad_exec _ _ ?_
  have hs : c.solves = false := by
    simp only [Cfg.solves, Bool.or_eq_false_iff, beq_eq_false_iff_ne, ne_eq]
    exact ⟨⟨⟨h.1, h.2.1⟩, h.2.2.1⟩, h.2.2.2⟩
  obtain ⟨s1, hs1⟩ : ∃ s1, s1 = enter c { prepare c restart with
      mem := exec (uses c stepUses) (prepare c restart).mem } := ⟨_, rfl⟩
  have hnit : s1.nit = 0 := by
    rw [hs1]
    simp only [enter]
    split <;> rfl
  have hF : s1.mem.ptr F = .garbage := by
    rw [hs1, ptr_F_enter]
    show (exec (uses c stepUses) (prepare c restart).mem).ptr F = _
    rw [ptr_exec_uses, ptr_prepare, if_neg (fun hm => (not_sys_of_mem hm).2 rfl)]
    rfl
  rw [← hs1]
  have hn : 0 < (passes c ps s1).nit := by rw [passes_nit, hnit]; exact hps
  rcases passes_garbage c hs ps s1 (Or.inr hF) with hb | hg
  · exact bad_leave _ hb
  · simp only [leave, if_pos hn, Op.run]
    rw [if_pos (by trivial)]
    simp only [Mem.release, hg]
    rfl

/-! ### Examples -/

/-- A model with a free surface, anisotropy, tracking, phase diagrams and Picard steps first. -/
def demo : Cfg where
  anisotropy := 1
  fstrainFile := 0
  track := 1
  freeSurface := 1
  mechanical := 1
  newton := 1
  picard2newton := 1
  kinetics := 1
  markerAngle := 1
  linSolver := 2
  angleCb := true
  kin9 := true
  nph := 3
  dens := fun k => if k = 1 then 4 else 2

/-- Its steps: two that switch, one of them after a restart; one that converges before. -/
def demoSteps : List (List Pass) :=
  [[⟨false, .next⟩, ⟨true, .next⟩, ⟨true, .converged⟩],
   [⟨false, .next⟩, ⟨false, .restart⟩, ⟨true, .next⟩, ⟨true, .stagnated⟩],
   [⟨false, .converged⟩]]

example : Sound demo := ⟨rfl, by simp [demo], by simp [demo], by simp [demo], by simp [demo]⟩

example : Orderly demo demoSteps := by
  refine ⟨by decide, fun _ _ _ _ => Or.inl rfl, fun _ => by decide⟩

example : (prepare demo false).mem.ptr (.elem (.model .PDMrho) 9) = .live := by
  rw [ptr_prepare, if_pos]
  rw [mem_slots]
  exact ⟨⟨.model .PDMrho, .pd, .diagrams⟩, mem_of_mask _ _ (by decide +kernel), by decide, by decide⟩

/-- A step that asks for Newton steps, after one that does not. -/
example : ¬ ([[⟨false, .converged⟩], [⟨false, .next⟩, ⟨true, .converged⟩]] : List (List Pass)).Pairwise
    fun a b => asks 0 b = true → asks 0 a = true := by decide

/-- Switches that meet the hypotheses of the negative theorems. -/
example : ({ demo with anisotropy := 0, newton := 0 } : Cfg).newton ≠ 1 ∧ 0 < endCount 0 [⟨false, .next⟩] := by
  decide

end Verif.Heap
