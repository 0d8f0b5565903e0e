import Verif.Model.StepLoop
import Verif.Props.VonMises
import Verif.Props.SurfaceMotion
import Verif.Props.GridFields
import Verif.Props.NonlinearLoop

/- C160: a flow that is already in balance is taken as it is; shear of a uniform body needs no solve. -/
set_option linter.unusedSimpArgs false

namespace Verif.StepFlow
open Verif Verif.Hist Finset

/-! ### The loop with its fields -/

private theorem body_evals (c : Time.LoopCfg ℝ) (r : Time.Res ℝ) (stag : Bool) (s : Time.LoopState ℝ) : (Time.loopBody c r stag s).1.evals = s.evals + 1 := by
  unfold Time.loopBody
  generalize (if s.nit = 0 then r else s.res0) = q
  dsimp only
  split_ifs <;> rfl

/-- The loop that carries the fields makes the same decisions as the loop of C17 (Model/Timestep.lean), for residuals that depend on the run. -/
theorem passes_loop (S : Setting) (norms : Rows → Option (ℝ × ℝ × ℝ)) (c : Time.LoopCfg ℝ) (start : LS.Fields) (solve : Solver) (fuel : Nat) (P Q : Progress) (l : Time.Leave)
    (h : passes S norms c start solve fuel P = some (.leave Q l)) : ∃ orc, Time.loop c orc fuel P.s = some (Q.s, l) := by
  induction fuel generalizing P with
  | zero =>
    refine ⟨fun _ => (⟨0, 0, 0⟩, false), ?_⟩
    unfold passes at h
    unfold Time.loop
    split_ifs at h ⊢ with w
    simp only [Option.some.injEq, PassEnd.leave.injEq] at h
    rw [h.1, h.2]
  | succ fuel ih =>
    unfold passes at h
    by_cases w : P.s.nit ≤ c.nitMax ∧ P.s.nstag < c.maxNumStag
    · rw [if_pos w] at h
      unfold passOnce at h
      rcases hp : pass (S.withDt P.s.dt) P.f P.t with ⟨o, R⟩ | k | _
      · rw [hp] at h
        dsimp only at h
        rcases hn : norms R with _ | r
        · rw [hn] at h; simp at h
        · rw [hn] at h
          dsimp only at h
          generalize hy : solve P.s.evals P.f o = y at h
          have ev : ∀ a b, Time.loopBody c ⟨r.1, r.2.1, r.2.2⟩ y.2.2 P.s = (a, b) → a.evals = P.s.evals + 1 := fun a b e => by rw [← body_evals c ⟨r.1, r.2.1, r.2.2⟩ y.2.2, e]
          rcases hb : Time.loopBody c ⟨r.1, r.2.1, r.2.2⟩ y.2.2 P.s with ⟨a, b⟩
          rw [hb] at h
          rcases b with _ | b
          · simp only at h
            obtain ⟨orc, ho⟩ := ih _ h
            have e1 := ev _ _ hb
            refine ⟨fun n => if n = P.s.evals then (⟨r.1, r.2.1, r.2.2⟩, y.2.2) else orc n, ?_⟩
            unfold Time.loop
            rw [if_pos w, if_pos rfl, hb]
            dsimp only
            dsimp only at ho
            rw [← ho]
            have same : ∀ n (s : Time.LoopState ℝ), P.s.evals < s.evals →
                Time.loop c (fun n => if n = P.s.evals then (⟨r.1, r.2.1, r.2.2⟩, y.2.2) else orc n) n s = Time.loop c orc n s := by
              intro n
              induction n with
              | zero => intro s _; rfl
              | succ n jh =>
                intro s hs
                unfold Time.loop
                rw [if_neg (show ¬ s.evals = P.s.evals by omega)]
                split_ifs
                · rcases hb' : Time.loopBody c (orc s.evals).1 (orc s.evals).2 s with ⟨a', b'⟩
                  have : a'.evals = s.evals + 1 := by rw [← body_evals c (orc s.evals).1 (orc s.evals).2, hb']
                  rcases b' with _ | b'
                  · exact jh a' (by omega)
                  · rfl
                · rfl
            exact same fuel a (by omega)
          · have fin : ∀ s' : Time.LoopState ℝ, ∀ l', b = l' → a = s' → (s' = Q.s ∧ l' = l) → ∃ orc, Time.loop c orc (fuel + 1) P.s = some (Q.s, l) := by
              rintro s' l' rfl rfl ⟨e1, e2⟩
              refine ⟨fun _ => (⟨r.1, r.2.1, r.2.2⟩, y.2.2), ?_⟩
              unfold Time.loop
              rw [if_pos w, hb, e1, e2]
            rcases b with _ | _ | _ | _ <;> simp only [Option.some.injEq, PassEnd.leave.injEq, reduceCtorEq] at h
            · exact fin a _ rfl rfl ⟨by rw [← h.1], h.2⟩
            · exact fin a _ rfl rfl ⟨by rw [← h.1], h.2⟩
            · exact fin a _ rfl rfl ⟨by rw [← h.1], h.2⟩
      · rw [hp] at h; simp at h
      · rw [hp] at h; simp at h
    · rw [if_neg w] at h
      simp only [Option.some.injEq, PassEnd.leave.injEq] at h
      refine ⟨fun _ => (⟨0, 0, 0⟩, false), ?_⟩
      unfold Time.loop
      rw [if_neg w, h.1, h.2]

/-- The rows that are measured are zero. -/
structure Settled (S : Setting) (R : Rows) : Prop where
  x : ∀ a < (S.m.Nz + 1) * S.m.Nx, extractVel (S.m.tu a) = true → R.x (a % S.m.Nx : Nat) (a / S.m.Nx : Nat) = 0
  z : ∀ a < S.m.Nz * (S.m.Nx + 1), extractVel (S.m.tv a) = true → R.z (a % (S.m.Nx + 1) : Nat) (a / (S.m.Nx + 1) : Nat) = 0
  p : ∀ a < (S.m.Nz - 1) * (S.m.Nx - 1), extractP (S.m.tp a) = true → R.p a = 0

open Classical in
/-- The norms as the program computes them; without a row to be counted it stops (StokesRoutines.c:852-917). -/
noncomputable def countedNorms (S : Setting) (R : Rows) : Option (ℝ × ℝ × ℝ) := if Counted S then some (normsOf S R) else none

theorem Settled.norms {S : Setting} {R : Rows} (h : Settled S R) : normsOf S R = (0, 0, 0) := by
  unfold normsOf
  dsimp only
  refine Prod.ext ?_ (Prod.ext ?_ ?_)
  · refine (congrArg Real.sqrt ?_).trans Real.sqrt_zero
    rw [Finset.sum_eq_zero fun a ha => ?_, zero_div]
    simp only [Finset.mem_filter, Finset.mem_range] at ha
    rw [h.x a ha.1 ha.2.1]; ring
  · refine (congrArg Real.sqrt ?_).trans Real.sqrt_zero
    rw [Finset.sum_eq_zero fun a ha => ?_, zero_div]
    simp only [Finset.mem_filter, Finset.mem_range] at ha
    rw [h.z a ha.1 ha.2.1]; ring
  · refine (congrArg Real.sqrt ?_).trans Real.sqrt_zero
    rw [Finset.sum_eq_zero fun a ha => ?_, zero_div]
    simp only [Finset.mem_filter, Finset.mem_range] at ha
    rw [h.p a ha.1 ha.2]; ring

/-- In a box without periodic sides balance of the free rows is all. -/
theorem Balanced.settled {S : Setting} (hx : 2 ≤ S.m.Nx) (hB : Box S) {o : Ops} {rho : Nat → ℝ} {f : LS.Fields} {t : Mech} (h : Balanced S (rows S o f t)) :
    Settled S (measured S o rho f t) := by
  refine ⟨fun a ha he => ?_, fun a ha he => ?_, fun a ha he => ?_⟩
  · simp only [measured]; rw [h.x _ _ (hB.freeU a ha he), zero_mul]
  · simp only [measured]; rw [h.z _ _ (hB.freeV a ha he), zero_mul]
  · simp only [measured]
    have h1 : S.m.tp a = -1 := by
      have h3 : CellOk (S.m.tp a) := by
        have := hB.cells (a % (S.m.Nx - 1)) (a / (S.m.Nx - 1)) (Nat.mod_lt _ (by omega)) (Nat.div_lt_of_lt_mul (by rw [mul_comm]; exact ha))
        rwa [mul_comm, Nat.mod_add_div] at this
      rcases h3 with h3 | h3 | h3 <;> rw [h3] at he <;> simp [extractP] at he
      exact h3
    have e : a % (S.m.Nx - 1) + a / (S.m.Nx - 1) * (S.m.Nx - 1) = a := by rw [mul_comm]; exact Nat.mod_add_div _ _
    have := h.p (a % (S.m.Nx - 1)) (a / (S.m.Nx - 1)) ⟨Nat.mod_lt _ (by omega), Nat.div_lt_of_lt_mul (by rw [mul_comm]; exact ha), by
      rw [e]; exact h1⟩
    rwa [e] at this

theorem Setting.withDt_self {S : Setting} (h : S.m.dt = S.env.dt) : S.withDt S.env.dt = S := by
  obtain ⟨m, _, env, _, _, _, _, _, _, _, _, _, _, _, _, _, _⟩ := S
  obtain ⟨_⟩ := m
  obtain ⟨_⟩ := env
  simp only at h
  subst h
  rfl

/-- C160 (the loop).  **A flow in balance is taken as it is**: if the residual of the flow the loop starts with is zero, the loop ends at its first test, with that flow, after one evaluation, whatever the
solver would do. -/
theorem balanced_accepted {S : Setting} (hdt : S.m.dt = S.env.dt) (hc : Counted S) {c : Time.LoopCfg ℝ} (hm : 0 < c.absMom) (hd : 0 < c.absDiv) (hst : 0 < c.maxNumStag) {start f : LS.Fields} {t o : Mech}
    (ho : updateNL S false f t = .ok o) (hs : Settled S (measured S (opsOf S o) o.rho f o)) (solve : Solver) (r : Time.Res ℝ) (fuel : Nat) :
    passes S (countedNorms S) c start solve (fuel + 1) ⟨⟨0, 0, S.env.dt, 0, r, r⟩, f, t⟩ = some (.leave ⟨⟨0, 0, S.env.dt, 1, ⟨0, 0, 0⟩, ⟨0, 0, 0⟩⟩, f, o⟩ .converged) := by
  unfold passes
  rw [if_pos ⟨Nat.zero_le _, hst⟩]
  unfold passOnce pass
  dsimp only
  rw [S.withDt_self hdt, ho]
  dsimp only
  unfold countedNorms
  rw [if_pos hc, hs.norms]
  dsimp only
  unfold Time.loopBody
  have ht : Time.convTest c ⟨0, 0, 0⟩ ⟨0, 0, 0⟩ := ⟨Or.inl hm, Or.inl hm, Or.inl hd⟩
  simp only [if_true, ht]

/-- The same for the whole step, once the start fields are known: it is recorded with the flow it started from. -/
theorem settled_step {S : Setting} (hdt : S.m.dt = S.env.dt) (hc : Counted S) {c : Time.LoopCfg ℝ} (hm : 0 < c.absMom) (hd : 0 < c.absDiv) (hst : 0 < c.maxNumStag) {first : Bool} {E D P : ℝ}
    {x z zu : Nat → ℝ} {V : BCVals ℝ} {f g : LS.Fields} {t o : Mech} (hg : initialFields S first E D P x z zu V f = g)
    (ho : updateNL S false g t = .ok o) (hs : Settled S (measured S (opsOf S o) o.rho g o)) (solve : Solver) (r : Time.Res ℝ) (fuel : Nat) :
    mechStep S (countedNorms S) c solve first E D P x z zu V r (fuel + 1) f t = match finishStep S g o with
      | .ok (f', o') => some (.ok ⟨f', o', ⟨0, 0, S.env.dt, 1, ⟨0, 0, 0⟩, ⟨0, 0, 0⟩⟩⟩)
      | .exit k => some (.exit k)
      | .nan => some .nan := by
  unfold mechStep
  rw [hg]
  dsimp only
  rw [balanced_accepted hdt hc hm hd hst ho hs solve r fuel]
  dsimp only
  rw [S.withDt_self hdt]
  rcases finishStep S g o with ⟨f', o'⟩ | k | _
  · dsimp only
    rw [if_pos]
    refine ⟨by decide, ?_⟩
    rintro ⟨-, -, q⟩
    exact q ⟨hm, hm, hd⟩
  · rfl
  · rfl

/-! ### Pure shear -/

section
variable {S : Setting} {eps : ℝ} {x z : Nat → ℝ} {bu bv : Setup.Side ℝ} (h : PureShear S eps x z bu bv)
include h

/-- Filling the ghost nodes does not change a flow that is the textbook flow already. -/
private theorem PureShear.bc_keeps (V : BCVals ℝ) (F : Fields ℝ) (hu : ∀ k l, k < S.m.Nx → l ≤ S.m.Nz → F.u (k + l * S.m.Nx) = -x k * eps)
    (hv : ∀ k l, k ≤ S.m.Nx → l < S.m.Nz → F.v (k + l * (S.m.Nx + 1)) = z l * eps) :
    (∀ k l, k < S.m.Nx → l ≤ S.m.Nz → (applyBC S.m.Nx S.m.Nz (tagsOf S) V F).u (k + l * S.m.Nx) = -x k * eps)
    ∧ ∀ k l, k ≤ S.m.Nx → l < S.m.Nz → (applyBC S.m.Nx S.m.Nz (tagsOf S) V F).v (k + l * (S.m.Nx + 1)) = z l * eps := by
  have hx := h.Nx
  have hz := h.Nz
  obtain ⟨u1, u2, -, -, -, u6, -⟩ := applyBC_u S.m.Nx S.m.Nz hx hz (tagsOf S) V F
  obtain ⟨v1, v2, -, -, -, -, v7, -⟩ := applyBC_v S.m.Nx S.m.Nz hx (tagsOf S) V F
  refine ⟨fun k l hk hl => ?_, fun k l hk hl => ?_⟩
  · have e : (tagsOf S).u (k + l * S.m.Nx) = _ := (h.tags_u k l hk hl).1
    by_cases w : l = 0
    · subst w
      rw [if_pos (Or.inl rfl)] at e
      simp only [zero_mul, add_zero] at e ⊢
      rw [u1 k hk e, hu k 1 hk (by omega)]
    by_cases w' : l = S.m.Nz
    · subst w'
      rw [if_pos (Or.inr rfl)] at e
      rw [u2 k hk e, hu k _ hk (by omega)]
    · rw [if_neg (by omega)] at e
      rw [u6 _ (by rw [e]; split_ifs <;> decide), hu k l hk hl]
  · have e : (tagsOf S).v (k + l * (S.m.Nx + 1)) = _ := (h.tags_v k l hk hl).1
    by_cases w : k = 0
    · subst w
      rw [if_pos (Or.inl rfl)] at e
      simp only [zero_add] at e ⊢
      rw [v1 l hl e, add_comm, hv 1 l (by omega) hl]
    by_cases w' : k = S.m.Nx
    · subst w'
      rw [if_pos (Or.inr rfl), add_comm] at e
      rw [add_comm, v2 l hl e, add_comm, hv _ l (by omega) hl]
    · rw [if_neg (by omega)] at e
      rw [v7 _ (by rw [e]; split_ifs <;> decide), hv k l hk hl]

/-- Fields whose nodes are those of the textbook flow are the textbook flow. -/
private theorem PureShear.same_fields {G : Fields ℝ} {r p0 : ℝ} (hu : ∀ k l, k < S.m.Nx → l ≤ S.m.Nz → G.u (k + l * S.m.Nx) = -x k * eps)
    (hv : ∀ k l, k ≤ S.m.Nx → l < S.m.Nz → G.v (k + l * (S.m.Nx + 1)) = z l * eps)
    (hp : ∀ c < (S.m.Nz - 1) * (S.m.Nx - 1), G.p c = (textbook S eps x z r p0).p c) :
    (⟨fun i => if i < (S.m.Nz + 1) * S.m.Nx then G.u i else 0, fun i => if i < S.m.Nz * (S.m.Nx + 1) then G.v i else 0, fun i => if i < (S.m.Nz - 1) * (S.m.Nx - 1) then G.p i else 0⟩ : LS.Fields)
      = textbook S eps x z r p0 := by
  have hx := h.Nx
  have split : ∀ n m i : Nat, 0 < n → i < m * n → ∃ k l, k < n ∧ l < m ∧ i = k + l * n := fun n m i hn hi =>
    ⟨i % n, i / n, Nat.mod_lt _ hn, (Nat.div_lt_iff_lt_mul hn).2 hi, by rw [mul_comm]; exact (Nat.mod_add_div i n).symm⟩
  obtain ⟨eu, ev, -⟩ := textbook_at S eps x z r p0
  rw [LS.Fields.mk.injEq]
  refine ⟨funext fun i => ?_, funext fun i => ?_, funext fun i => ?_⟩
  · by_cases w : i < (S.m.Nz + 1) * S.m.Nx
    · rw [if_pos w]
      obtain ⟨k, l, hk, hl, rfl⟩ := split _ _ i (by omega) w
      rw [hu k l hk (by omega)]
      exact (eu k l hk (by omega)).symm
    · rw [if_neg w]; simp only [textbook]; rw [if_neg w]
  · by_cases w : i < S.m.Nz * (S.m.Nx + 1)
    · rw [if_pos w]
      obtain ⟨k, l, hk, hl, rfl⟩ := split _ _ i (by omega) w
      rw [hv k l (by omega) hl]
      exact (ev k l (by omega) hl).symm
    · rw [if_neg w]; simp only [textbook]; rw [if_neg w]
  · by_cases w : i < (S.m.Nz - 1) * (S.m.Nx - 1)
    · rw [if_pos w, hp i w]
    · rw [if_neg w]; simp only [textbook]; rw [if_neg w]

/-- C160 (first step).  Under the pure shear walls the program starts from the textbook flow, at the background pressure. -/
theorem pure_shear_start (hper : S.per = false) (P : ℝ) (zu : Nat → ℝ) (f : LS.Fields) :
    initialFields S true eps 0 P x z zu ⟨bu.val, bv.val⟩ f = textbook S eps x z 0 P := by
  have hx := h.Nx
  have hz := h.Nz
  obtain ⟨su, sv⟩ := SFlow.start_velocity (⟨S.m.Nx, S.m.Nz, true, S.per, eps, 0, P, x, z, zu⟩ : SFlow.Start ℝ) (fun i => S.m.tu i) (fun i => S.m.tv i) bu.val bv.val f.u f.v
  have fl : ∀ X Z : ℝ, (⟨S.m.Nx, S.m.Nz, true, S.per, eps, 0, P, x, z, zu⟩ : SFlow.Start ℝ).flow X Z = (-X * eps, Z * eps) := fun X Z => by
    unfold SFlow.Start.flow SFlow.pureShear
    simp only [hper, Bool.false_eq_true, if_false]
    split_ifs with w
    · rw [w]; simp
    · simp
  unfold initialFields
  dsimp only
  obtain ⟨bk, bk'⟩ := h.bc_keeps ⟨bu.val, bv.val⟩ ⟨_, _, (⟨S.m.Nx, S.m.Nz, true, S.per, eps, 0, P, x, z, zu⟩ : SFlow.Start ℝ).pLoop (fun i => S.m.tp i) f.p⟩
    (fun k l hk hl => (su k hk l (show l < S.m.Nz + 1 by omega)).trans (by
      obtain ⟨e, e'⟩ := h.tags_u k l hk hl
      rw [e, fl]
      by_cases w : l = 0 ∨ l = S.m.Nz
      · rw [if_pos w]; rfl
      rw [if_neg w]
      by_cases w' : k = 0 ∨ k = S.m.Nx - 1
      · rw [if_pos w']; exact e' ⟨by omega, by omega, w'⟩
      · rw [if_neg w']; rfl))
    (fun k l hk hl => (sv k (show k < S.m.Nx + 1 by omega) l hl 0).trans (by
      obtain ⟨e, e'⟩ := h.tags_v k l hk hl
      rw [e, fl]
      by_cases w : k = 0 ∨ k = S.m.Nx
      · rw [if_pos w]; rfl
      rw [if_neg w]
      by_cases w' : l = 0 ∨ l = S.m.Nz - 1
      · rw [if_pos w']; exact e' ⟨by omega, by omega, w'⟩
      · rw [if_neg w']; rfl))
  exact h.same_fields bk bk' fun c hc => by
    show (⟨S.m.Nx, S.m.Nz, true, S.per, eps, 0, P, x, z, zu⟩ : SFlow.Start ℝ).pLoop (fun i => S.m.tp i) f.p c = _
    rw [SFlow.start_pressure _ _ _ c hc]
    simp [textbook, hc]

/-- C160 (later steps).  What later steps do before their loop leaves the textbook flow as it is, at any pressure. -/
theorem pure_shear_kept (E D P : ℝ) (zu : Nat → ℝ) (r p0 : ℝ) :
    initialFields S false E D P x z zu ⟨bu.val, bv.val⟩ (textbook S eps x z r p0) = textbook S eps x z r p0 := by
  have hx := h.Nx
  have hz := h.Nz
  obtain ⟨su, sv⟩ := SFlow.start_velocity (⟨S.m.Nx, S.m.Nz, false, S.per, E, D, P, x, z, zu⟩ : SFlow.Start ℝ) (fun i => S.m.tu i) (fun i => S.m.tv i) bu.val bv.val (textbook S eps x z r p0).u (textbook S eps x z r p0).v
  obtain ⟨eu, ev, -⟩ := textbook_at S eps x z r p0
  unfold initialFields
  dsimp only
  obtain ⟨bk, bk'⟩ := h.bc_keeps ⟨bu.val, bv.val⟩ ⟨_, _, (⟨S.m.Nx, S.m.Nz, false, S.per, E, D, P, x, z, zu⟩ : SFlow.Start ℝ).pLoop (fun i => S.m.tp i) (textbook S eps x z r p0).p⟩
    (fun k l hk hl => (su k hk l (show l < S.m.Nz + 1 by omega)).trans (by
      obtain ⟨e, e'⟩ := h.tags_u k l hk hl
      rw [e]
      by_cases w : l = 0 ∨ l = S.m.Nz
      · rw [if_pos w]; exact eu k l hk (by omega)
      rw [if_neg w]
      by_cases w' : k = 0 ∨ k = S.m.Nx - 1
      · rw [if_pos w']; exact e' ⟨by omega, by omega, w'⟩
      · rw [if_neg w']; exact eu k l hk (by omega)))
    (fun k l hk hl => (sv k (show k < S.m.Nx + 1 by omega) l hl 0).trans (by
      obtain ⟨e, e'⟩ := h.tags_v k l hk hl
      rw [e]
      by_cases w : k = 0 ∨ k = S.m.Nx
      · rw [if_pos w]; exact ev k l (by omega) hl
      rw [if_neg w]
      by_cases w' : l = 0 ∨ l = S.m.Nz - 1
      · rw [if_pos w']; exact e' ⟨by omega, by omega, w'⟩
      · rw [if_neg w']; exact ev k l (by omega) hl))
  exact h.same_fields bk bk' fun c hc => by
    show (⟨S.m.Nx, S.m.Nz, false, S.per, E, D, P, x, z, zu⟩ : SFlow.Start ℝ).pLoop (fun i => S.m.tp i) (textbook S eps x z r p0).p c = _
    rw [SFlow.start_pressure _ _ _ c hc]
    have rock := h.rock c
    simp [rock]

/-- C160 (start of the run).  With rock of one density and gravity straight down the run starts from the textbook flow with the textbook pressure: the flow of C154, C155 and C159. -/
theorem pure_shear_run_start (hper : S.per = false) (hgx : S.body.gx = 0) (P : ℝ) (zu rho : Nat → ℝ) {r : ℝ} (hr : ∀ c < S.ncells, rho c = r) (f : LS.Fields) :
    runStart S eps 0 P x z zu ⟨bu.val, bv.val⟩ rho f = textbook S eps x z r (P + r * S.body.gz * S.m.dz * (1 / 2 - (S.m.Nz - 2 : Nat))) := by
  have hx := h.Nx
  have hz := h.Nz
  unfold runStart
  rw [pure_shear_start h hper]
  unfold textbook
  rw [LS.Fields.mk.injEq]
  refine ⟨rfl, rfl, funext fun i => ?_⟩
  by_cases w : i < (S.m.Nz - 1) * (S.m.Nx - 1)
  · rw [if_pos w, if_pos w, hgx]
    obtain ⟨p, ⟨e1, e2⟩, e3⟩ := GridField.lith_eq (S.m.Nx - 1) (S.m.Nz - 1) (fun i => S.m.tp i) S.body.gz S.m.dz P rho
    have rock : ∀ i : Nat, ¬ Spec.AirFlag (S.m.tp i) := fun i => by rw [h.rock]; unfold Spec.AirFlag; decide
    have col : ∀ k < S.m.Nx - 1, ∀ n l, l + n + 1 = S.m.Nz - 1 → p (k + l * (S.m.Nx - 1)) = -(S.body.gz * S.m.dz * r * n) := by
      intro k hk n
      induction n with
      | zero => intro l hl; rw [show l = S.m.Nz - 1 - 1 by omega, e1 k hk]; simp
      | succ n ih =>
        intro l hl
        rw [e2 k hk l (by omega), if_neg (rock _), ih (l + 1) (by omega), hr _ (cell_lt _ _ _ _ hk (by omega))]
        push_cast; ring
    have hk : i % (S.m.Nx - 1) < S.m.Nx - 1 := Nat.mod_lt _ (by omega)
    have hl : i / (S.m.Nx - 1) < S.m.Nz - 1 := (Nat.div_lt_iff_lt_mul (by omega)).2 w
    have ei : i % (S.m.Nx - 1) + i / (S.m.Nx - 1) * (S.m.Nx - 1) = i := by rw [mul_comm]; exact Nat.mod_add_div _ _
    have a := e3 _ hk _ hl
    rw [if_neg (rock _), col _ hk (S.m.Nz - 2 - i / (S.m.Nx - 1)) _ (by omega), hr _ (cell_lt _ _ _ _ hk hl), ei, Nat.cast_sub (by omega)] at a
    rw [a]
    ring
  · rw [if_neg w, if_neg w]
end

/-- If a step is recorded, its first update gave a result. -/
theorem mechStep_first {S : Setting} {norms : Rows → Option (ℝ × ℝ × ℝ)} {c : Time.LoopCfg ℝ} (hdt : S.m.dt = S.env.dt) (hst : 0 < c.maxNumStag) {solve : Solver} {first : Bool} {E D P : ℝ}
    {x z zu : Nat → ℝ} {V : BCVals ℝ} {f g : LS.Fields} {t : Mech} (hg : initialFields S first E D P x z zu V f = g) {r : Time.Res ℝ} {fuel : Nat} {e : StepEnd}
    (h : mechStep S norms c solve first E D P x z zu V r fuel f t = some (.ok e)) : (∃ n, fuel = n + 1) ∧ ∃ o, updateNL S false g t = .ok o := by
  unfold mechStep at h
  rw [hg] at h
  dsimp only at h
  have w : 0 ≤ c.nitMax ∧ 0 < c.maxNumStag := ⟨Nat.zero_le _, hst⟩
  rcases fuel with _ | n
  · unfold passes at h
    rw [if_pos w] at h
    simp at h
  · refine ⟨⟨n, rfl⟩, ?_⟩
    unfold passes at h
    rw [if_pos w] at h
    unfold passOnce pass at h
    dsimp only at h
    rw [S.withDt_self hdt] at h
    rcases hu : updateNL S false g t with o | k | _
    · exact ⟨o, rfl⟩
    · rw [hu] at h; simp at h
    · rw [hu] at h; simp at h

/-- What a step needs besides its physics: one time step length in all places, rows to be counted, tolerances above zero. -/
structure Tested (S : Setting) (c : Time.LoopCfg ℝ) : Prop where
  dt : S.m.dt = S.env.dt
  rows : Counted S
  mom : 0 < c.absMom
  div : 0 < c.absDiv
  stag : 0 < c.maxNumStag

/-- C160 (one step, any rheology).  **Pure shear of an even body without weight needs no solve**: a step that starts with the textbook flow and is recorded is recorded with the textbook flow, after one evaluation and no
solve, whatever the flow laws are and whatever the solver would do; the pressure is even again. -/
theorem pure_shear_step {S : Setting} {eps : ℝ} {x z : Nat → ℝ} {bu bv : Setup.Side ℝ} (h : PureShear S eps x z bu bv) (hS : SameEverywhere S) (hg : S.body.gx = 0 ∧ S.body.gz = 0) (hvol : S.vol = false)
    (hq : ∀ c, S.comp c = false ∧ S.rhsP c = 0) {c : Time.LoopCfg ℝ} (hT : Tested S c) {solve : Solver} {E D P : ℝ} {zu : Nat → ℝ} {p0 : ℝ} {t : Mech} {r : Time.Res ℝ} {fuel : Nat} {e : StepEnd}
    (he : mechStep S (countedNorms S) c solve false E D P x z zu ⟨bu.val, bv.val⟩ r fuel (textbook S eps x z 0 p0) t = some (.ok e)) :
    (∃ p1, e.f = textbook S eps x z 0 p1) ∧ e.s.evals = 1 ∧ e.s.nit = 0 ∧ e.s.dt = S.env.dt := by
  have hk := pure_shear_kept h E D P zu 0 p0
  obtain ⟨⟨n, rfl⟩, o, ho⟩ := mechStep_first hT.dt hT.stag hk he
  have hb := pure_shear_any_rheology h hS hg hvol hq ho
  rw [settled_step hT.dt hT.rows hT.mom hT.div hT.stag hk ho (hb.settled (by have := h.Nx; omega) h.box) solve r n] at he
  rcases hf : finishStep S (textbook S eps x z 0 p0) o with ⟨f', o'⟩ | k | _
  · rw [hf] at he
    simp only [Option.some.injEq, Point.Outcome.ok.injEq] at he
    subst he
    refine ⟨?_, rfl, rfl, rfl⟩
    obtain ⟨hu, rfl⟩ := fin_ok hf
    obtain ⟨eu, ev, ep⟩ := textbook_at S eps x z 0 p0
    have hx := h.Nx
    obtain ⟨sc, -⟩ := patch_test hS hg (xmin := x 0) (zmin := z 0) (a := 0) (b := -eps) (c := 0) (d := 0) (e := 0) (g := eps) (p0 := p0)
      (f := textbook S eps x z 0 p0) ⟨fun k l hk hl => by
        rw [eu k l hk (by omega), (h.coord k 0).1]
        simp only [Spec.linearFlow, Spec.uNode]; ring, fun k l hk hl => by
        rw [ev k l (by omega) hl, (h.coord 0 l).2]
        simp only [Spec.linearFlow, Spec.vNode]; ring⟩ (fun i hi => by
        have hi' : i < (S.m.Nz - 1) * (S.m.Nx - 1) := by rw [mul_comm]; exact hi
        simp [textbook, hi']) hu
    refine ⟨(o'.cells 0).pcorr, ?_⟩
    unfold textbook
    rw [LS.Fields.mk.injEq]
    refine ⟨rfl, rfl, funext fun i => ?_⟩
    rw [LS.copyArr_apply]
    have hn : S.ncells = (S.m.Nz - 1) * (S.m.Nx - 1) := mul_comm _ _
    by_cases w : i < (S.m.Nz - 1) * (S.m.Nx - 1)
    · rw [if_pos (by rw [hn]; exact w), sc i (by rw [hn]; exact w), if_pos w]; ring
    · rw [if_neg (by rw [hn]; exact w)]; simp only [textbook]; rw [if_neg w, if_neg w]
  · rw [hf] at he; simp at he
  · rw [hf] at he; simp at he

/-- C160 (any number of steps, any rheology).  The box stays as it is; at each step the rock is even.  From the program's own start on, every recorded step has the textbook velocity at every node, the
pressure is even, and no step solves anything. -/
theorem pure_shear_run {S : Nat → Setting} {eps : ℝ} {x z : Nat → ℝ} {bu bv : Setup.Side ℝ} (h : ∀ n, PureShear (S n) eps x z bu bv) (hS : ∀ n, SameEverywhere (S n))
    (hg : ∀ n, (S n).body.gx = 0 ∧ (S n).body.gz = 0) (hvol : ∀ n, (S n).vol = false) (hq : ∀ n c, (S n).comp c = false ∧ (S n).rhsP c = 0) (hper : (S 0).per = false)
    (hbox : ∀ n, (S n).m.Nx = (S 0).m.Nx ∧ (S n).m.Nz = (S 0).m.Nz) {c : Nat → Time.LoopCfg ℝ} (hT : ∀ n, Tested (S n) (c n)) {solve : Nat → Solver} {E D P : Nat → ℝ} {zu : Nat → Nat → ℝ} {t : Nat → Mech}
    {r : Nat → Time.Res ℝ} {fuel : Nat → Nat} {f : Nat → LS.Fields} {o : Nat → Mech} {s : Nat → Time.LoopState ℝ} {rho : Nat → ℝ} {f0 : LS.Fields} {P0 : ℝ} {zu0 : Nat → ℝ}
    (hstart : f 0 = runStart (S 0) eps 0 P0 x z zu0 ⟨bu.val, bv.val⟩ rho f0)
    (hrun : ∀ n, mechStep (S n) (countedNorms (S n)) (c n) (solve n) false (E n) (D n) (P n) x z (zu n) ⟨bu.val, bv.val⟩ (r n) (fuel n) (f n) (t n) = some (.ok ⟨f (n + 1), o n, s n⟩)) (n : Nat) :
    (∃ p, f n = textbook (S 0) eps x z 0 p) ∧ (s n).evals = 1 ∧ (s n).nit = 0 ∧ (s n).dt = (S n).env.dt := by
  have same : ∀ n p, textbook (S n) eps x z 0 p = textbook (S 0) eps x z 0 p := fun n p => by
    unfold textbook
    rw [(hbox n).1, (hbox n).2]
    simp
  have all : ∀ n, ∃ p, f n = textbook (S n) eps x z 0 p := by
    intro n
    induction n with
    | zero =>
      rw [hstart]
      unfold runStart
      rw [pure_shear_start (h 0) hper]
      refine ⟨P0, ?_⟩
      unfold textbook
      rw [LS.Fields.mk.injEq]
      refine ⟨rfl, rfl, funext fun i => ?_⟩
      by_cases w : i < ((S 0).m.Nz - 1) * ((S 0).m.Nx - 1)
      · rw [if_pos w, if_pos w]
        have hx := (h 0).Nx
        have hk : i % ((S 0).m.Nx - 1) < (S 0).m.Nx - 1 := Nat.mod_lt _ (by omega)
        have hl : i / ((S 0).m.Nx - 1) < (S 0).m.Nz - 1 := (Nat.div_lt_iff_lt_mul (by omega)).2 w
        have ei : i % ((S 0).m.Nx - 1) + i / ((S 0).m.Nx - 1) * ((S 0).m.Nx - 1) = i := by rw [mul_comm]; exact Nat.mod_add_div _ _
        have rock : ∀ i : Nat, ¬ Spec.AirFlag ((S 0).m.tp i) := fun i => by rw [(h 0).rock]; unfold Spec.AirFlag; decide
        obtain ⟨p, ⟨e1, e2⟩, e3⟩ := GridField.lith_eq ((S 0).m.Nx - 1) ((S 0).m.Nz - 1) (fun i => (S 0).m.tp i) (S 0).body.gz (S 0).m.dz P0 rho
        have col : ∀ n l, l + n + 1 = (S 0).m.Nz - 1 → p (i % ((S 0).m.Nx - 1) + l * ((S 0).m.Nx - 1)) = 0 := by
          intro n
          induction n with
          | zero => intro l hl; rw [show l = (S 0).m.Nz - 1 - 1 by omega, e1 _ hk]
          | succ n ih => intro l hl; rw [e2 _ hk l (by omega), if_neg (rock _), ih (l + 1) (by omega), (hg 0).2]; ring
        have a := e3 _ hk _ hl
        rw [if_neg (rock _), col ((S 0).m.Nz - 2 - i / ((S 0).m.Nx - 1)) (i / ((S 0).m.Nx - 1)) (by have := (h 0).Nz; omega), ei, (hg 0).2] at a
        rw [(hg 0).2, a]; ring
      · rw [if_neg w, if_neg w]
    | succ n ih =>
      obtain ⟨p, hp⟩ := ih
      have a := hrun n
      rw [hp] at a
      obtain ⟨⟨p1, e1⟩, -⟩ := pure_shear_step (h n) (hS n) (hg n) (hvol n) (hq n) (hT n) a
      dsimp only at e1
      exact ⟨p1, by rw [e1, same n, same (n + 1)]⟩
  obtain ⟨p, hp⟩ := all n
  have a := hrun n
  rw [hp] at a
  obtain ⟨-, e⟩ := pure_shear_step (h n) (hS n) (hg n) (hvol n) (hq n) (hT n) a
  exact ⟨⟨p, by rw [hp, same n]⟩, e⟩

/-! ### The yielding body of C159, with the flow of the program -/

/-- C160 (one step of a yielding body).  If the markers carry the stress of pure shear and the step starts with the textbook flow, the step is recorded, with the same flow and pressure, after one evaluation and no solve. -/
theorem yielding_step {S : Setting} {C : Carriers} {eta G Y vp r dt eps : ℝ} {x z : Nat → ℝ} {bu bv : Setup.Side ℝ} {x0 z0 : ℝ} (h : PlasticBody S C eta G Y vp r dt eps x z bu bv x0 z0)
    {c : Time.LoopCfg ℝ} (hT : Tested S c) {sig : Nat → Dev} {y : ℝ} (y0 : 0 ≤ y) (y1 : y ≤ 2 * eta * eps) (hs : Carry C sig ⟨-y, y, 0⟩) (b : OldStress) (p0 : ℝ) {t : Mech} (ht : ∀ c < S.ncells, t.rho c = r)
    (solve : Solver) (E D P : ℝ) (zu : Nat → ℝ) (q : Time.Res ℝ) (fuel : Nat) : ∃ t1 o,
      finishStep (load S (toGrid S C sig b)) (textbook S eps x z r p0) t1 = .ok (textbook S eps x z r p0, o)
      ∧ mechStep (load S (toGrid S C sig b)) (countedNorms (load S (toGrid S C sig b))) c solve false E D P x z zu ⟨bu.val, bv.val⟩ q (fuel + 1) (textbook S eps x z r p0) t
        = some (.ok ⟨textbook S eps x z r p0, o, ⟨0, 0, dt, 1, ⟨0, 0, 0⟩, ⟨0, 0, 0⟩⟩⟩) := by
  obtain ⟨s, -⟩ := h.loaded hs b
  obtain ⟨-, -, a, ha, hb⟩ := plastic_flow_balanced h y0 y1 hs b p0 t ht ⟨bu.val, bv.val⟩
  obtain ⟨-, y', -, -, hh⟩ := h.recorded y0 y1 hs b
  obtain ⟨o, ho, hc, -⟩ := hh p0 true a
  have hfin : finishStep (load S (toGrid S C sig b)) (textbook (load S (toGrid S C sig b)) eps x z r p0) a = .ok (textbook S eps x z r p0, o) := by
    unfold finishStep
    rw [ho]
    dsimp only
    rw [Point.Outcome.ok.injEq, Prod.mk.injEq]
    refine ⟨?_, rfl⟩
    show _ = textbook (load S (toGrid S C sig b)) eps x z r p0
    rw [LS.Fields.mk.injEq]
    refine ⟨rfl, rfl, funext fun i => ?_⟩
    rw [LS.copyArr_apply]
    split_ifs with w
    · exact (hc i w).2
    · rfl
  refine ⟨a, o, hfin, ?_⟩
  have hk := pure_shear_kept s E D P zu r p0
  have hdt : (load S (toGrid S C sig b)).env.dt = dt := h.step
  have := settled_step (S := load S (toGrid S C sig b)) hT.dt ⟨hT.rows.1, hT.rows.2, hT.rows.3⟩ hT.mom hT.div hT.stag hk ha (hb.settled (by have := s.Nx; omega) s.box) solve q fuel
  rw [hfin, hdt] at this
  exact this

/-- One time step of a yielding body as the program makes it: stresses to the grid, start fields, loop and final update with whatever solver, changes back to the markers. -/
inductive OwnStep (eta G Y vp r dt eps : ℝ) (x z : Nat → ℝ) (bu bv : Setup.Side ℝ) (S : Setting) (C : Carriers) (sig out : Nat → Dev) (f f' : LS.Fields) : Prop
  | mk {x0 z0 : ℝ} {b : OldStress} {c : Time.LoopCfg ℝ} {solve : Solver} {E D P : ℝ} {zu : Nat → ℝ} {q : Time.Res ℝ} {fuel : Nat} {t o : Mech} {s : Time.LoopState ℝ} {sd rot : Int} {dtm : ℝ} {damp wxz : Nat → ℝ}
    (body : PlasticBody S C eta G Y vp r dt eps x z bu bv x0 z0) (tested : Tested S c) (dens : ∀ c < S.ncells, t.rho c = r)
    (ran : mechStep (load S (toGrid S C sig b)) (countedNorms (load S (toGrid S C sig b))) c solve false E D P x z zu ⟨bu.val, bv.val⟩ q fuel f t = some (.ok ⟨f', o, s⟩)) (switch : sd = 0 ∨ sd = 1 ∨ sd = 2)
    (back : toMarkers S C sd rot dtm damp wxz o (toGrid S C sig b) sig = some out) : OwnStep eta G Y vp r dt eps x z bu bv S C sig out f f'

/-- A step of the program from the textbook flow is a step of C159, and leaves the textbook flow. -/
theorem OwnStep.plastic {eta G Y vp r dt eps : ℝ} {x z : Nat → ℝ} {bu bv : Setup.Side ℝ} {S : Setting} {C : Carriers} {sig out : Nat → Dev} {f' : LS.Fields} {p0 : ℝ}
    (h : OwnStep eta G Y vp r dt eps x z bu bv S C sig out (textbook S eps x z r p0) f') {y : ℝ} (y0 : 0 ≤ y) (y1 : y ≤ 2 * eta * eps) (hs : Carry C sig ⟨-y, y, 0⟩) :
    PlasticStep eta G Y vp dt eps C sig out ∧ f' = textbook S eps x z r p0 := by
  obtain ⟨hB, hT, ht, hran, hsd, hout⟩ := h
  rename_i x0 z0 b c solve E D P zu q fuel t o s sd rot dtm damp wxz
  obtain ⟨s, -⟩ := hB.loaded hs b
  obtain ⟨⟨n, rfl⟩, -⟩ := mechStep_first (S := load S (toGrid S C sig b)) hT.dt hT.stag (pure_shear_kept s E D P zu r p0) hran
  obtain ⟨t1, o1, hf, hm⟩ := yielding_step hB hT y0 y1 hs b p0 ht solve E D P zu q n
  rw [hran] at hm
  simp only [Option.some.injEq, Point.Outcome.ok.injEq, StepEnd.mk.injEq] at hm
  obtain ⟨rfl, rfl, -⟩ := hm
  exact ⟨.mk hB hf hsd hout, rfl⟩

/-- C160.  **Loading curve of a yielding body, with the program's own flow**: from rest, from the start fields the program makes, at a constant rate and step, in a box that stays as it is, with or without weight, with any
solver, the stress of every marker after any number of steps is that of the Maxwell body until it reaches the strength, and the strength from then on, to within `1e-17`; and the velocity is that of
pure shear at every node all the time. -/
theorem yielding_run {eta G Y r dt eps : ℝ} (h1 : 0 < eta) (h2 : 0 < G) (hY : 0 < Y) (hdt : 0 < dt) (he : 0 < eps) {x z : Nat → ℝ} {bu bv : Setup.Side ℝ} (S : Nat → Setting) (C : Nat → Carriers)
    (sig out : Nat → Nat → Dev) (f : Nat → LS.Fields) (hper : (S 0).per = false) (hgx : (S 0).body.gx = 0)
    (hbox : ∀ n, (S n).m.Nx = (S 0).m.Nx ∧ (S n).m.Nz = (S 0).m.Nz ∧ (S n).body.gx = (S 0).body.gx ∧ (S n).body.gz = (S 0).body.gz)
    {P : ℝ} {zu rho : Nat → ℝ} {f0 : LS.Fields} (hr : ∀ c < (S 0).ncells, rho c = r) (hstart : f 0 = runStart (S 0) eps 0 P x z zu ⟨bu.val, bv.val⟩ rho f0)
    (hstep : ∀ n, OwnStep eta G Y 0 r dt eps x z bu bv (S n) (C n) (sig n) (out n) (f n) (f (n + 1)))
    (hmove : ∀ n, ∀ k < (C (n + 1)).n, ((C (n + 1)).s.ms k).phase ≠ -1 → ∃ j < (C n).n, ((C n).s.ms j).phase ≠ -1 ∧ sig (n + 1) k = out n j)
    (hrest : Carry (C 0) (sig 0) ⟨0, 0, 0⟩) (n : Nat) :
    (∃ y, Carry (C n) (out n) ⟨-y, y, 0⟩ ∧ min (2 * eta * eps * (1 - (1 / (1 + G * dt / eta)) ^ (n + 1))) Y ≤ y
      ∧ y ≤ min (2 * eta * eps * (1 - (1 / (1 + G * dt / eta)) ^ (n + 1))) Y + 1 / 10 ^ 17)
    ∧ (∀ k l, k < (S 0).m.Nx → l ≤ (S 0).m.Nz → (f n).u (k + l * (S 0).m.Nx) = -x k * eps) ∧ ∀ k l, k ≤ (S 0).m.Nx → l < (S 0).m.Nz → (f n).v (k + l * ((S 0).m.Nx + 1)) = z l * eps := by
  have shear : ∀ n, PureShear (S n) eps x z bu bv := fun n => by obtain ⟨hB, -⟩ := hstep n; exact hB.shear
  have same : ∀ n p, textbook (S n) eps x z r p = textbook (S 0) eps x z r p := fun n p => by
    have a : ∀ n, (S n).m.dx = x 1 - x 0 := fun n => by rw [(shear n).stepX 0]; ring
    have b : ∀ n, (S n).m.dz = z 1 - z 0 := fun n => by rw [(shear n).stepZ 0]; ring
    unfold textbook
    rw [(hbox n).1, (hbox n).2.1, (hbox n).2.2.1, (hbox n).2.2.2, a, a, b, b]
  have key : ∀ n, ∃ p, f n = textbook (S n) eps x z r p ∧ ∃ y, 0 ≤ y ∧ y ≤ 2 * eta * eps ∧ Carry (C n) (sig n) ⟨-y, y, 0⟩ := by
    intro n
    induction n with
    | zero => exact ⟨_, hstart.trans (pure_shear_run_start (shear 0) hper hgx P zu rho hr f0), 0, le_rfl, by positivity, by simpa using hrest⟩
    | succ n ih =>
      obtain ⟨p, hp, y, y0, y1, hs⟩ := ih
      have a := hstep n
      rw [hp] at a
      obtain ⟨b, e⟩ := a.plastic y0 y1 hs
      obtain ⟨-, y', c, -, -, b1, b2⟩ := plastic_step_partial b y0 y1 hs
      refine ⟨p, by rw [e, same n, same (n + 1)], y', b1, b2, fun k hk hp => ?_⟩
      obtain ⟨j, hj, hp', e⟩ := hmove n k hk hp
      rw [e]; exact c j hj hp'
  refine ⟨plastic_loading_partial h1 h2 hY hdt he C sig out (fun n => ?_) hmove hrest n, ?_⟩
  · obtain ⟨p, hp, y, y0, y1, hs⟩ := key n
    have a := hstep n
    rw [hp] at a
    exact (a.plastic y0 y1 hs).1
  · obtain ⟨p, hp, -⟩ := key n
    rw [hp, same n]
    obtain ⟨eu, ev, -⟩ := textbook_at (S 0) eps x z r p
    exact ⟨fun k l hk hl => eu k l hk (by omega), fun k l hk hl => ev k l hk hl⟩

/-! ### The hypotheses are met -/

/-- On a grid of at least five by five vertices there are rows to be counted. -/
theorem PureShear.counted {S : Setting} {eps : ℝ} {x z : Nat → ℝ} {bu bv : Setup.Side ℝ} (h : PureShear S eps x z bu bv) (hx : 5 ≤ S.m.Nx) (hz : 5 ≤ S.m.Nz) : Counted S := by
  refine ⟨⟨1 + 3 * S.m.Nx, ?_, ?_, ?_⟩, ⟨3 + 1 * (S.m.Nx + 1), ?_, ?_, ?_⟩, ⟨0, Nat.mul_pos (by omega) (by omega), ?_⟩⟩
  · rw [mul_comm (S.m.Nz + 1)]; exact cell_lt _ _ _ _ (by omega) (by omega)
  · rw [(h.tags_u 1 3 (by omega) (by omega)).1, if_neg (by omega), if_neg (by omega)]; decide
  · unfold Resid.coverU
    rw [Nat.add_mul_div_right _ _ (by omega), Nat.div_eq_of_lt (by omega)]
    exact decide_eq_true ⟨by omega, by omega⟩
  · rw [mul_comm S.m.Nz]; exact cell_lt _ _ _ _ (by omega) (by omega)
  · rw [(h.tags_v 3 1 (by omega) (by omega)).1, if_neg (by omega), if_neg (by omega)]; decide
  · unfold Resid.coverV
    rw [Nat.add_mul_mod_self_right, Nat.mod_eq_of_lt (by omega)]
    exact decide_eq_true ⟨by omega, by omega⟩
  · rw [h.rock]; decide

/-- Non-vacuity of the run of a yielding body: on every grid of at least five by five vertices the heavy slab can be loaded from rest for ever by the program's own steps, with every solver. -/
theorem slab_own_run (Nx Nz : Nat) (hx : 5 ≤ Nx) (hz : 5 ≤ Nz) (x0 z0 : ℝ) (solve : Solver) (f0 : LS.Fields) : ∃ bu bv, ∃ sig out : Nat → Nat → Dev, ∃ f : Nat → LS.Fields,
    (weakSlab Nx Nz bu.type bv.type).per = false ∧ (weakSlab Nx Nz bu.type bv.type).body.gx = 0 ∧ (weakSlab Nx Nz bu.type bv.type).body.gz ≠ 0
    ∧ f 0 = runStart (weakSlab Nx Nz bu.type bv.type) (1 / 10 ^ 14) 0 0 (fun k => x0 + k * 1000) (fun l => z0 + l * 1000) (fun _ => 0) ⟨bu.val, bv.val⟩ (fun _ => 3000) f0
    ∧ (∀ n, OwnStep (10 ^ 21) (10 ^ 10) (10 ^ 7) 0 3000 (10 ^ 11) (1 / 10 ^ 14) (fun k => x0 + k * 1000) (fun l => z0 + l * 1000) bu bv (weakSlab Nx Nz bu.type bv.type) (onVertices Nx Nz x0 z0)
        (sig n) (out n) (f n) (f (n + 1)))
    ∧ (∀ n, sig (n + 1) = out n) ∧ Carry (onVertices Nx Nz x0 z0) (sig 0) ⟨0, 0, 0⟩ := by
  obtain ⟨bu, bv, h⟩ := slab_plastic Nx Nz (by omega) (by omega) x0 z0
  have hper : (weakSlab Nx Nz bu.type bv.type).per = false := rfl
  have hgx : (weakSlab Nx Nz bu.type bv.type).body.gx = 0 := rfl
  have hgz : (weakSlab Nx Nz bu.type bv.type).body.gz ≠ 0 := by norm_num [weakSlab, heavySlab, slab, box, block]
  have hdt : (weakSlab Nx Nz bu.type bv.type).m.dt = (weakSlab Nx Nz bu.type bv.type).env.dt := by norm_num [weakSlab, heavySlab, stressedSlab, slab, boxMesh, blockMesh, Point.settings]
  have hT : Tested (weakSlab Nx Nz bu.type bv.type) (⟨10, 3, 0, 1, 2, 1, 1, 1, 1⟩ : Time.LoopCfg ℝ) := ⟨hdt, h.shear.counted hx hz, one_pos, one_pos, by decide⟩
  let t : Mech := ⟨⟨fun _ => 0, fun _ => 0, fun _ => 0, fun _ => 0, fun _ => 0, fun _ => 0, fun _ => 0, fun _ => 0, fun _ => 0, fun _ => 0⟩, fun _ => 0, fun _ => 0, fun _ => 0, fun _ => 0,
    fun _ => Point.Stored.zero, fun _ => Point.Stored.zero, fun _ => 3000, fun _ => 0, fun _ => 0⟩
  let b : OldStress := ⟨fun _ => 0, fun _ => 0, fun _ => 0, fun _ => 0, fun _ => 0, fun _ => 0⟩
  refine ⟨bu, bv, ?_⟩
  generalize weakSlab Nx Nz bu.type bv.type = S at h hper hgx hgz hdt hT ⊢
  have next : ∀ p0, ∀ s : { sig : Nat → Dev // ∃ y : ℝ, 0 ≤ y ∧ y ≤ 2 * 10 ^ 21 * (1 / 10 ^ 14) ∧ Carry (onVertices Nx Nz x0 z0) sig ⟨-y, y, 0⟩ },
      ∃ out : { sig : Nat → Dev // ∃ y : ℝ, 0 ≤ y ∧ y ≤ 2 * 10 ^ 21 * (1 / 10 ^ 14) ∧ Carry (onVertices Nx Nz x0 z0) sig ⟨-y, y, 0⟩ },
      OwnStep (10 ^ 21) (10 ^ 10) (10 ^ 7) 0 3000 (10 ^ 11) (1 / 10 ^ 14) (fun k => x0 + k * 1000) (fun l => z0 + l * 1000) bu bv S (onVertices Nx Nz x0 z0)
        s.1 out.1 (textbook S (1 / 10 ^ 14) (fun k => x0 + k * 1000) (fun l => z0 + l * 1000) 3000 p0) (textbook S (1 / 10 ^ 14) (fun k => x0 + k * 1000) (fun l => z0 + l * 1000) 3000 p0) := by
    rintro p0 ⟨sig, y, y0, y1, hs⟩
    obtain ⟨t1, o, hf, hm⟩ := yielding_step h hT y0 y1 hs b p0 (t := t) (fun _ _ => rfl) solve 0 0 0 (fun _ => 0) ⟨0, 0, 0⟩ 0
    obtain ⟨f', o', out, hf', hb, hp⟩ := plastic_step_exists h y0 y1 hs b p0 t1 (sd := 2) (by decide) 1 (10 ^ 11) (fun _ => 1 / 2) (fun _ => 0)
    have e := hf.symm.trans hf'
    simp only [Point.Outcome.ok.injEq, Prod.mk.injEq] at e
    obtain ⟨-, rfl⟩ := e
    obtain ⟨-, y', hc, -, -, a, b⟩ := plastic_step_partial hp y0 y1 hs
    exact ⟨⟨out, y', a, b, hc⟩, .mk h hT (fun _ _ => rfl) hm (by decide) hb⟩
  have start := pure_shear_run_start h.shear hper hgx 0 (fun _ => 0) (fun _ => 3000) (r := 3000) (fun _ _ => rfl) f0
  choose g hg using next (0 + 3000 * S.body.gz * S.m.dz * (1 / 2 - (S.m.Nz - 2 : Nat)))
  let seq : Nat → { sig : Nat → Dev // ∃ y : ℝ, 0 ≤ y ∧ y ≤ 2 * 10 ^ 21 * (1 / 10 ^ 14) ∧ Carry (onVertices Nx Nz x0 z0) sig ⟨-y, y, 0⟩ } :=
    fun n => Nat.rec ⟨fun _ => ⟨0, 0, 0⟩, 0, le_rfl, by positivity, fun _ _ _ => by simp⟩ (fun _ s => g s) n
  exact ⟨fun n => (seq n).1, fun n => (seq (n + 1)).1, fun _ => _, hper, hgx, hgz, start.symm, fun n => hg (seq n), fun _ => rfl, fun _ _ _ => rfl⟩

/-- Non-vacuity of the run of an even body without weight: the stressed elastic slab, at any rate and with any solver. -/
theorem stressed_own_run (Nx Nz : Nat) (hx : 5 ≤ Nx) (hz : 5 ≤ Nz) (eps x0 z0 : ℝ) (solve : Solver) (f0 : LS.Fields) (t : Mech) : ∃ bu bv, ∃ f : Nat → LS.Fields, ∃ o : Nat → Mech, ∃ s : Nat → Time.LoopState ℝ,
    ∃ S : Setting, ∃ c : Time.LoopCfg ℝ, PureShear S eps (fun k => x0 + k * 1000) (fun l => z0 + l * 1000) bu bv ∧ SameEverywhere S ∧ (S.body.gx = 0 ∧ S.body.gz = 0) ∧ S.vol = false
    ∧ (∀ c, S.comp c = false ∧ S.rhsP c = 0) ∧ S.per = false ∧ Tested S c
    ∧ f 0 = runStart S eps 0 0 (fun k => x0 + k * 1000) (fun l => z0 + l * 1000) (fun _ => 0) ⟨bu.val, bv.val⟩ (fun _ => 3000) f0
    ∧ ∀ n, mechStep S (countedNorms S) c solve false 0 0 0 (fun k => x0 + k * 1000) (fun l => z0 + l * 1000) (fun _ => 0) ⟨bu.val, bv.val⟩ ⟨0, 0, 0⟩ 1 (f n) t = some (.ok ⟨f (n + 1), o n, s n⟩) := by
  obtain ⟨bu, bv, h, hS, v, -⟩ := stressed_slab_meets Nx Nz (by omega) (by omega) eps x0 z0 0 0 t
  have hdt : (stressedSlab Nx Nz bu.type bv.type).m.dt = (stressedSlab Nx Nz bu.type bv.type).env.dt := by norm_num [stressedSlab, slab, boxMesh, blockMesh, Point.settings]
  have hT : Tested (stressedSlab Nx Nz bu.type bv.type) (⟨10, 3, 0, 1, 2, 1, 1, 1, 1⟩ : Time.LoopCfg ℝ) := ⟨hdt, h.counted hx hz, one_pos, one_pos, by decide⟩
  have hg : (stressedSlab Nx Nz bu.type bv.type).body.gx = 0 ∧ (stressedSlab Nx Nz bu.type bv.type).body.gz = 0 := ⟨rfl, rfl⟩
  have hvol : (stressedSlab Nx Nz bu.type bv.type).vol = false := rfl
  have hq : ∀ c, (stressedSlab Nx Nz bu.type bv.type).comp c = false ∧ (stressedSlab Nx Nz bu.type bv.type).rhsP c = 0 := fun _ => ⟨rfl, rfl⟩
  have hper : (stressedSlab Nx Nz bu.type bv.type).per = false := rfl
  generalize stressedSlab Nx Nz bu.type bv.type = S at *
  have next : ∀ p : ℝ, ∃ p1 o s, mechStep S (countedNorms S) ⟨10, 3, 0, 1, 2, 1, 1, 1, 1⟩ solve false 0 0 0 (fun k => x0 + k * 1000) (fun l => z0 + l * 1000) (fun _ => 0) ⟨bu.val, bv.val⟩ ⟨0, 0, 0⟩ 1
      (textbook S eps (fun k => x0 + k * 1000) (fun l => z0 + l * 1000) 0 p) t = some (.ok ⟨textbook S eps (fun k => x0 + k * 1000) (fun l => z0 + l * 1000) 0 p1, o, s⟩) := fun p => by
    obtain ⟨a, ha⟩ := viscoelastic_goes_on _ v false (textbook S eps (fun k => x0 + k * 1000) (fun l => z0 + l * 1000) 0 p) t
    obtain ⟨o, ho⟩ := viscoelastic_goes_on _ v true (textbook S eps (fun k => x0 + k * 1000) (fun l => z0 + l * 1000) 0 p) a
    have hb := pure_shear_any_rheology h hS hg hvol hq ha
    have e := settled_step hT.dt hT.rows hT.mom hT.div hT.stag (pure_shear_kept h 0 0 0 (fun _ => 0) 0 p) ha (hb.settled (by have := h.Nx; omega) h.box) solve ⟨0, 0, 0⟩ 0
    have hf : ∃ f', finishStep S (textbook S eps (fun k => x0 + k * 1000) (fun l => z0 + l * 1000) 0 p) a = .ok (f', o) := by unfold finishStep; rw [ho]; exact ⟨_, rfl⟩
    obtain ⟨f', hf⟩ := hf
    rw [hf] at e
    obtain ⟨⟨p1, q⟩, -⟩ := pure_shear_step h hS hg hvol hq hT e
    dsimp only at q
    rw [q] at e
    exact ⟨p1, _, _, e⟩
  choose p o s hn using next
  let seq : Nat → ℝ := fun n => Nat.rec (0 + 0 * S.body.gz * S.m.dz * (1 / 2 - (S.m.Nz - 2 : Nat))) (fun _ q => p q) n
  refine ⟨bu, bv, fun n => textbook S eps (fun k => x0 + k * 1000) (fun l => z0 + l * 1000) 0 (seq n), fun n => o (seq n), fun n => s (seq n), S, _, h, hS, hg, hvol, hq, hper, hT, ?_, fun n => hn (seq n)⟩
  have e : ∀ rho, runStart S eps 0 0 (fun k => x0 + k * 1000) (fun l => z0 + l * 1000) (fun _ => 0) ⟨bu.val, bv.val⟩ rho f0
      = runStart S eps 0 0 (fun k => x0 + k * 1000) (fun l => z0 + l * 1000) (fun _ => 0) ⟨bu.val, bv.val⟩ (fun _ => 0) f0 := fun rho => by
    unfold runStart GridField.lithostatic
    rw [hg.2]; simp
  rw [e, pure_shear_run_start h hper hg.1 0 (fun _ => 0) (fun _ => 0) (r := 0) (fun _ _ => rfl) f0]
  rfl

end Verif.StepFlow
