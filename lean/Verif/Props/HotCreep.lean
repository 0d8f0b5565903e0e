import Verif.Props.CreepBody
import Verif.Props.HeatCycle

/- C164: shear heating and creep together.  The rock warms by the work of the stress of its laboratory law, and the next step has the stress of the law at the temperature reached. -/
namespace Verif.StepFlow
open Verif Verif.Hist Finset

/-- The mechanical part of a time step of an even body without weight that creeps by the published law `l0`, in pure or in simple shear with the strain rate tensor `e`, as the code runs it: from the
fields `f` it records the fields `f'` and the mesh `o`.  `F` is the textbook flow with the even pressure `P0`; `tau` is a stress that the settings allow. -/
inductive CreepStep (l0 : Flow.Law) (number : Int) (eps P0 tau : ℝ) (S : Setting) : Point.Tensor → LS.Fields → LS.Fields → LS.Fields → Mech → Prop
  | pure {x z zu : Nat → ℝ} {bu bv : Setup.Side ℝ} {c : Time.LoopCfg ℝ} {solve : Solver} {E D P : ℝ} {r : Time.Res ℝ} {fuel : Nat} {t o : Mech} {F f f' : LS.Fields} {s : Time.LoopState ℝ}
    (shear : PureShear S eps x z bu bv) (even : SameEverywhere S) (light : S.body.gx = 0 ∧ S.body.gz = 0) (vol : S.vol = false) (still : ∀ c, S.comp c = false ∧ S.rhsP c = 0) (tested : Tested S c)
    (law : Creeping S l0 number) (allowed : Allowed S eps tau) (flow : F = textbook S eps x z 0 P0)
    (ran : mechStep S (countedNorms S) c solve false E D P x z zu ⟨bu.val, bv.val⟩ r (fuel + 1) f t = some (.ok ⟨f', o, s⟩)) : CreepStep l0 number eps P0 tau S (shortening eps) F f f' o
  | simple {x z zu : Nat → ℝ} {bu bv : Setup.Side ℝ} {c : Time.LoopCfg ℝ} {solve : Solver} {E D P : ℝ} {r : Time.Res ℝ} {fuel : Nat} {t o : Mech} {F f f' : LS.Fields} {s : Time.LoopState ℝ}
    (shear : SimpleShear S eps x z zu bu bv) (even : SameEverywhere S) (light : S.body.gx = 0 ∧ S.body.gz = 0) (vol : S.vol = false) (still : ∀ c, S.comp c = false ∧ S.rhsP c = 0) (tested : Tested S c)
    (law : Creeping S l0 number) (allowed : Allowed S eps tau) (flow : F = sheared S eps zu P0)
    (ran : mechStep S (countedNorms S) c solve false E D P x z zu ⟨bu.val, bv.val⟩ r (fuel + 1) f t = some (.ok ⟨f', o, s⟩)) : CreepStep l0 number eps P0 tau S (shearing eps) F f f' o

/-- The thermal part of the same step: the flow laws have seen the temperatures that the markers give to the cells; the body is insulated, with radiogenic heat `Q` and heat capacity `cap`; the solve
takes the heating recorded in `o`, and its changes go back to the markers, which then have the temperatures `out`. -/
inductive Warmed (S : Setting) (o : Mech) (Q cap : ℝ) (s : Hist.Setting ℝ) (n : Nat) (T out : Nat → ℝ) : Prop
  | mk {p : Heat.Par ℝ} {x0 z0 air : ℝ} {Qr b T1 damp : Nat → ℝ} {sd : Int}
    (ncx : p.ncx = S.m.Nx - 1) (ncz : p.ncz = S.m.Nz - 1) (body : Insulated p s n (fun c => S.m.tp c) cap S.env.dt x0 z0)
    (seen : ∀ c < S.ncells, (S.cell c).T = tempToGrid s (fun c => S.m.tp c) T b c) (radiogenic : ∀ c < S.ncells, Qr c = Q)
    (solved : Heat.Step p (heatSources Qr 1 o) air (tempToGrid s (fun c => S.m.tp c) T b) T1)
    (back : out = tempToMarkers s sd p.tt (fun c => S.m.tp c) T1 (tempToGrid s (fun c => S.m.tp c) T b) damp T) : Warmed S o Q cap s n T out

theorem CreepStep.even {l0 : Flow.Law} {number : Int} {eps P0 tau : ℝ} {S : Setting} {e : Point.Tensor} {F f f' : LS.Fields} {o : Mech} (h : CreepStep l0 number eps P0 tau S e F f f' o) :
    SameEverywhere S := by cases h <;> assumption

theorem CreepStep.law {l0 : Flow.Law} {number : Int} {eps P0 tau : ℝ} {S : Setting} {e : Point.Tensor} {F f f' : LS.Fields} {o : Mech} (h : CreepStep l0 number eps P0 tau S e F f f' o) :
    Creeping S l0 number := by cases h <;> assumption

/-- C164 (one step).  Markers at the temperature `theta`: flow and pressure stay, the stress recorded everywhere is that of the law at `theta`, and every marker warms by radiogenic heat and work of that
stress over the heat capacity. -/
theorem hot_creep_step {l0 : Flow.Law} {number : Int} {eps P0 tau Q cap theta : ℝ} {S : Setting} {e : Point.Tensor} {F f f' : LS.Fields} {o : Mech} {s : Hist.Setting ℝ} {n : Nat} {T out : Nat → ℝ}
    (hm : CreepStep l0 number eps P0 tau S e F f f' o) (hw : Warmed S o Q cap s n T out) (he : 0 < eps) (hf : f = F) (hT : AtTemp s n T theta)
    (hX : Experiment l0 S.env.R theta P0 (S.cell 0).d (S.cell 0).phi eps tau) :
    f' = F ∧ AsMeasured S e P0 eps tau o ∧ AtTemp s n out (theta + S.env.dt * (Q + 2 * tau * eps) / cap) := by
  have ev := hm.even
  obtain ⟨e1, e2, hB, hsee, hQ, hs, ho⟩ := hw
  rename_i p x0 z0 air Qr b T1 damp sd
  have hn : S.ncells = p.ncx * p.ncz := by rw [e1, e2]; rfl
  have h0 : 0 < S.ncells := Nat.mul_pos (by have := ev.Nx; omega) (by have := ev.Nz; omega)
  have hT0 : (S.cell 0).T = theta := by rw [hsee 0 h0]; exact hB.toGrid hT b 0 (by rw [← hn]; exact h0)
  rw [← hT0] at hX
  have key : f' = F ∧ AsMeasured S e P0 eps tau o := by
    cases hm with
    | pure shear even light vol still tested law allowed flow ran =>
      rename_i x z zu bu bv c solve E D P r fuel t st
      obtain ⟨o', a, m⟩ := creep_pure_shear_step shear even light vol still tested law hX he allowed solve E D P zu t r fuel
      rw [hf, flow, a] at ran
      simp only [Option.some.injEq, Point.Outcome.ok.injEq, StepEnd.mk.injEq] at ran
      exact ⟨by rw [flow, ran.1], by rw [← ran.2.1]; exact m⟩
    | simple shear even light vol still tested law allowed flow ran =>
      rename_i x z zu bu bv c solve E D P r fuel t st
      obtain ⟨o', a, m⟩ := creep_simple_shear_step shear even light vol still tested law hX he allowed solve E D P t r fuel
      rw [hf, flow, a] at ran
      simp only [Option.some.injEq, Point.Outcome.ok.injEq, StepEnd.mk.injEq] at ran
      exact ⟨by rw [flow, ran.1], by rw [← ran.2.1]; exact m⟩
  refine ⟨key.1, key.2, heat_step (HeatStep.mk hB (fun c hc => ?_) hs ho) hT⟩
  rw [← hn] at hc
  simp only [Heat.Src.at, heatSources, if_true, hQ c hc, key.2.heat c hc]
  norm_num

/-- C164.  **Shear heating of a creeping rock, both ways**: over any number of steps of any lengths, with markers that move, vanish and are replaced by copies, the temperature `theta n` of every
marker follows `theta (n+1) = theta n + dt (Q + 2 tau n eps)/(ρ Cp)`, where `tau n` is the stress of the laboratory law at `theta n`, and that stress is the one recorded at every cell and vertex;
flow and pressure never change. -/
theorem hot_creep_history (N : Nat) {l0 : Flow.Law} {number : Int} {eps P0 : ℝ} (he : 0 < eps) {F : LS.Fields} {e : Point.Tensor} {Q cap tau theta : Nat → ℝ} {S : Nat → Setting} {f : Nat → LS.Fields}
    {o : Nat → Mech} {s : Nat → Hist.Setting ℝ} {m : Nat → Nat} {T out : Nat → Nat → ℝ}
    (hmech : ∀ n < N, CreepStep l0 number eps P0 (tau n) (S n) e F (f n) (f (n + 1)) (o n)) (hheat : ∀ n < N, Warmed (S n) (o n) (Q n) (cap n) (s n) (m n) (T n) (out n))
    (hmove : ∀ n, n + 1 < N → ∀ k < m (n + 1), ((s (n + 1)).ms k).phase ≠ -1 → ∃ j < m n, ((s n).ms j).phase ≠ -1 ∧ T (n + 1) k = out n j)
    (hf : f 0 = F) (hT : AtTemp (s 0) (m 0) (T 0) (theta 0)) (hlaw : ∀ n < N, Experiment l0 (S n).env.R (theta n) P0 ((S n).cell 0).d ((S n).cell 0).phi eps (tau n))
    (hrise : ∀ n < N, theta (n + 1) = theta n + (S n).env.dt * (Q n + 2 * tau n * eps) / cap n) (n : Nat) (hn : n < N) :
    AtTemp (s n) (m n) (T n) (theta n) ∧ AtTemp (s n) (m n) (out n) (theta (n + 1)) ∧ AsMeasured (S n) e P0 eps (tau n) (o n) ∧ f (n + 1) = F := by
  have step : ∀ n < N, f n = F → AtTemp (s n) (m n) (T n) (theta n) →
      AtTemp (s n) (m n) (T n) (theta n) ∧ AtTemp (s n) (m n) (out n) (theta (n + 1)) ∧ AsMeasured (S n) e P0 eps (tau n) (o n) ∧ f (n + 1) = F := fun n hn h1 h2 => by
    obtain ⟨a, b, c⟩ := hot_creep_step (hmech n hn) (hheat n hn) he h1 h2 (hlaw n hn)
    rw [← hrise n hn] at c
    exact ⟨h2, c, b, a⟩
  induction n with
  | zero => exact step 0 hn hf hT
  | succ n ih =>
    obtain ⟨-, i2, -, i4⟩ := ih (by omega)
    refine step (n + 1) hn i4 fun k hk hp => ?_
    obtain ⟨j, hj, hp', q⟩ := hmove n hn k hk hp
    rw [q]; exact i2 j hj hp'

/-- C164 (start).  The program's own start is the textbook flow, in both cases. -/
theorem creep_starts {S : Setting} {eps : ℝ} {x z zu : Nat → ℝ} {bu bv : Setup.Side ℝ} (hg : S.body.gx = 0 ∧ S.body.gz = 0) (P0 : ℝ) (rho : Nat → ℝ) (f : LS.Fields) :
    (PureShear S eps x z bu bv → S.per = false → runStart S eps 0 P0 x z zu ⟨bu.val, bv.val⟩ rho f = textbook S eps x z 0 P0)
    ∧ (SimpleShear S eps x z zu bu bv → runStart S eps 0 P0 x z zu ⟨bu.val, bv.val⟩ rho f = sheared S eps zu P0) := by
  refine ⟨fun h hper => ?_, fun h => simple_shear_run_start h hg.2 P0 rho f⟩
  have e : runStart S eps 0 P0 x z zu ⟨bu.val, bv.val⟩ rho f = runStart S eps 0 P0 x z zu ⟨bu.val, bv.val⟩ (fun _ => 0) f := by
    unfold runStart GridField.lithostatic
    rw [hg.2]; simp
  rw [e, pure_shear_run_start h hper hg.1 P0 zu (fun _ => 0) (r := 0) (fun _ _ => rfl) f]
  simp

private theorem softer {l0 : Flow.Law} {R T1 T2 P d phi s1 s2 : ℝ} (hR : 0 < R) (h1 : 0 < T1) (h12 : T1 ≤ T2) (hQ : 0 ≤ l0.Q + P * l0.V) (hn : 0 < l0.n) (hA : 0 < l0.A) (hd : 0 < d)
    (hf : 0 < l0.f ∨ l0.r = 0) (p1 : 0 < s1) (p2 : 0 < s2)
    (h : Spec.labRate l0.A l0.n d l0.m l0.f l0.r l0.a phi l0.Q l0.V R T1 P s1 = Spec.labRate l0.A l0.n d l0.m l0.f l0.r l0.a phi l0.Q l0.V R T2 P s2) : s2 ≤ s1 := by
  unfold Spec.labRate at h
  have hE : Real.exp (-(l0.Q + P * l0.V) / (R * T1)) ≤ Real.exp (-(l0.Q + P * l0.V) / (R * T2)) := by
    apply Real.exp_le_exp.2
    rw [neg_div, neg_div, neg_le_neg_iff]
    exact div_le_div_of_nonneg_left hQ (by positivity) (by gcongr)
  have hfr : 0 < l0.f ^ l0.r := by
    rcases hf with hf | hf
    · exact Real.rpow_pos_of_pos hf _
    · rw [hf, Real.rpow_zero]; exact one_pos
  have hdm : 0 < d ^ (-l0.m) := Real.rpow_pos_of_pos hd _
  have q1 := Real.rpow_pos_of_pos p1 l0.n
  have q2 := Real.rpow_pos_of_pos p2 l0.n
  have x1 := Real.exp_pos (-(l0.Q + P * l0.V) / (R * T1))
  have x2 := Real.exp_pos (l0.a * phi)
  by_contra hc
  have q3 : s1 ^ l0.n < s2 ^ l0.n := Real.rpow_lt_rpow p1.le (not_le.1 hc) hn
  refine absurd h (ne_of_lt ?_)
  generalize Real.exp (-(l0.Q + P * l0.V) / (R * T1)) = y1 at *
  generalize Real.exp (-(l0.Q + P * l0.V) / (R * T2)) = y2 at *
  generalize s1 ^ l0.n = z1 at *
  generalize s2 ^ l0.n = z2 at *
  exact mul_lt_mul (by gcongr) hE x1 (by positivity)

/-- C164 (softening).  Hotter rock is not stronger: at the same strain rate the stress of the law does not rise with temperature, unless the activation enthalpy is negative. -/
theorem experiment_softens {l0 : Flow.Law} {R T1 T2 P d phi eps t1 t2 : ℝ} (h1 : Experiment l0 R T1 P d phi eps t1) (h2 : Experiment l0 R T2 P d phi eps t2) (hR : 0 < R) (hT : 0 < T1) (h12 : T1 ≤ T2)
    (hQ : 0 ≤ l0.Q + P * l0.V) (hn : 0 < l0.n) (hA : 0 < l0.A) (hd : 0 < d) (hf : 0 < l0.f ∨ l0.r = 0) : t2 ≤ t1 := by
  have h3 : 0 < Real.sqrt 3 := Real.sqrt_pos.2 (by norm_num)
  rcases h1 with ⟨a, s1, p1, e1, rfl⟩ | ⟨a, s1, p1, e1, rfl⟩ <;> rcases h2 with ⟨b, s2, p2, e2, rfl⟩ | ⟨b, s2, p2, e2, rfl⟩
  · have := softer (phi := phi) hR hT h12 hQ hn hA hd hf p1 p2 (e1.trans e2.symm)
    linarith
  · rw [a] at b; norm_num at b
  · rw [a] at b; norm_num at b
  · have := softer (phi := phi) hR hT h12 hQ hn hA hd hf p1 p2 (mul_left_cancel₀ (by positivity) (e1.trans e2.symm))
    exact div_le_div_of_nonneg_right this h3.le

/-- C164 (thermal weakening).  **A rock that is sheared evenly and keeps its heat gets warmer and weaker at every step**, never the reverse. -/
theorem hot_creep_weakens (N : Nat) {l0 : Flow.Law} {number : Int} {eps P0 R d phi : ℝ} (he : 0 < eps) {F : LS.Fields} {e : Point.Tensor} {Q cap tau theta : Nat → ℝ} {S : Nat → Setting} {f : Nat → LS.Fields}
    {o : Nat → Mech} {s : Nat → Hist.Setting ℝ} {m : Nat → Nat} {T out : Nat → Nat → ℝ}
    (hmech : ∀ n < N, CreepStep l0 number eps P0 (tau n) (S n) e F (f n) (f (n + 1)) (o n)) (hheat : ∀ n < N, Warmed (S n) (o n) (Q n) (cap n) (s n) (m n) (T n) (out n))
    (hlaw : ∀ n < N, Experiment l0 R (theta n) P0 d phi eps (tau n)) (hrise : ∀ n < N, theta (n + 1) = theta n + (S n).env.dt * (Q n + 2 * tau n * eps) / cap n) (h0 : 0 < theta 0)
    (hR : 0 < R) (hd : 0 < d) (hact : 0 ≤ l0.Q + P0 * l0.V) (hQ : ∀ n < N, 0 ≤ Q n) (n : Nat) (hn : n + 1 < N) : theta n < theta (n + 1) ∧ tau (n + 1) ≤ tau n := by
  have up : ∀ n < N, theta n < theta (n + 1) := fun n hn => by
    have law := (hmech n hn).law
    have ev := (hmech n hn).even
    have ht : 0 < tau n := by
      rcases hlaw n hn with ⟨-, s', p', -, q'⟩ | ⟨-, s', p', -, q'⟩ <;> rw [q'] <;> positivity
    obtain ⟨e1, e2, hB, -, -, -, -⟩ := hheat n hn
    rename_i p x0 z0 air Qr b T1 damp sd
    have c0 : 0 < p.ncx * p.ncz := by
      rw [e1, e2]; exact Nat.mul_pos (by have := ev.Nx; omega) (by have := ev.Nz; omega)
    have hcap : 0 < cap n := by rw [← hB.cap 0 c0]; exact hB.physical.cap 0
    have hdt : 0 < (S n).env.dt := by rw [← hB.dt]; exact hB.physical.dt
    have := hQ n hn
    rw [hrise n hn]
    have : 0 < (S n).env.dt * (Q n + 2 * tau n * eps) / cap n := by positivity
    linarith
  have pos : ∀ n < N, 0 < theta n := fun n => by
    induction n with
    | zero => exact fun _ => h0
    | succ n ih => exact fun h => lt_trans (ih (by omega)) (up n (by omega))
  have law := (hmech n (by omega)).law
  exact ⟨up n (by omega), experiment_softens (hlaw n (by omega)) (hlaw (n + 1) hn) hR (pos n (by omega)) (up n (by omega)).le hact law.n law.A hd law.f⟩

/-- A rock whose strength depends little on temperature: activation energy of 2.5 kJ/mol. -/
noncomputable def mildLaw : Flow.Law := { sampleLaw with Q := 8314 / 1000 * 300, A := Real.exp 1 / (32 * 10 ^ 33) }

/-- Its stress at `1e-15` per second. -/
noncomputable def mildStress (theta : ℝ) : ℝ := 2 * 10 ^ 6 * Real.exp ((300 / theta - 1) / 3)

theorem mild_experiment {theta : ℝ} (h : 0 < theta) : Experiment mildLaw (8314 / 1000) theta 0 1 0 (1 / 10 ^ 15) (mildStress theta) := by
  refine Or.inl ⟨rfl, 4 * 10 ^ 6 * Real.exp ((300 / theta - 1) / 3), by positivity, ?_, by unfold mildStress; ring⟩
  unfold Spec.labRate mildLaw sampleLaw
  dsimp only
  have h3 : ∀ x : ℝ, x ^ (3 : ℝ) = x ^ 3 := fun x => by rw [show (3 : ℝ) = ((3 : Nat) : ℝ) by norm_num, Real.rpow_natCast]
  have hx : -(8314 / 1000 * 300 + 0 * (1 / 10 ^ 5)) / (8314 / 1000 * theta) = -(300 / theta - 1) + -1 := by field_simp; ring
  rw [h3, Real.one_rpow, Real.one_rpow, mul_zero, Real.exp_zero, mul_pow, ← Real.exp_nat_mul, hx, Real.exp_add, Real.exp_neg, Real.exp_neg,
    show ((3 : Nat) : ℝ) * ((300 / theta - 1) / 3) = 300 / theta - 1 by push_cast; ring]
  have a := Real.exp_pos 1
  have b := Real.exp_pos (300 / theta - 1)
  field_simp
  norm_num

theorem mild_between {theta : ℝ} (h : 300 ≤ theta) : 10 ^ 6 ≤ mildStress theta ∧ mildStress theta ≤ 2 * 10 ^ 6 := by
  have h1 : 300 / theta ≤ 1 := (div_le_one (by linarith)).2 h
  have h2 : 0 ≤ 300 / theta := by positivity
  have a := Real.add_one_le_exp ((300 / theta - 1) / 3)
  have b : Real.exp ((300 / theta - 1) / 3) ≤ 1 := Real.exp_le_one_iff.2 (by linarith)
  unfold mildStress
  constructor <;> linarith

/-- A slab of this rock at the temperature `theta`. -/
noncomputable def mildSlab (Nx Nz : Nat) (tu tv : Nat → Int) (theta : ℝ) : Setting :=
  { creepSlab false Nx Nz tu tv with
    mats := fun _ => { Point.viscous (10 ^ 21) with cst := false, pwl := true, pwlLaw := Flow.correct 0 mildLaw }
    cell := fun c => { (creepSlab false Nx Nz tu tv).cell c with T := theta } }

theorem mildSlab_creeping (Nx Nz : Nat) (tu tv : Nat → Int) {theta : ℝ} (h : 300 ≤ theta) :
    Creeping (mildSlab Nx Nz tu tv theta) mildLaw 0 ∧ Allowed (mildSlab Nx Nz tu tv theta) (1 / 10 ^ 15) (mildStress theta) := by
  have b := block_viscoelastic
  obtain ⟨m1, m2⟩ := mild_between h
  refine ⟨⟨rfl, by norm_num [mildSlab, creepSlab, Point.settings], fun p _ => ⟨rfl, rfl, rfl, rfl, rfl, rfl, rfl, rfl, by norm_num [mildSlab, Point.viscous, Point.rock], rfl⟩, le_rfl,
    by norm_num [mildLaw, sampleLaw], by unfold mildLaw; positivity, Or.inl (by norm_num [mildLaw, sampleLaw]), by norm_num [mildSlab, creepSlab, stressedSlab, Point.halfHalf],
    by
      show 27315 / 100 / (1 : ℝ) ≤ theta
      linarith,
    fun c _ => (b.cells 0 (by decide) (by simp [block, blockMesh])).1, fun c _ => (b.verts 0 (by decide) (by simp [block, blockMesh])).1⟩, ?_⟩
  have e1 : (mildSlab Nx Nz tu tv theta).env = Point.settings false := rfl
  constructor <;> rw [e1] <;> norm_num [Point.settings] <;> linarith

/-- Non-vacuity: on every grid of at least five by five vertices, with any markers' temperature from 300 on, the step is made. -/
theorem mildSlab_step (Nx Nz : Nat) (hx : 5 ≤ Nx) (hz : 5 ≤ Nz) (x0 z0 : ℝ) (solve : Solver) (t : Mech) : ∃ tu tv F, ∀ (theta : ℝ), 300 ≤ theta → ∀ T,
    AtTemp (onVertices Nx Nz x0 z0).s (Nx * Nz) T theta → ∃ o out,
      CreepStep mildLaw 0 (1 / 10 ^ 15) 0 (mildStress theta) (mildSlab Nx Nz tu tv theta) (shortening (1 / 10 ^ 15)) F F F o
      ∧ Warmed (mildSlab Nx Nz tu tv theta) o (1 / 10 ^ 6) (3 * 10 ^ 6) (onVertices Nx Nz x0 z0).s (Nx * Nz) T out := by
  obtain ⟨_, _, hM⟩ := slab_maxwell Nx Nz (by omega) (by omega) 0 x0 z0
  obtain ⟨bu, bv, h, s, -⟩ := stressed_slab_meets Nx Nz (by omega) (by omega) (1 / 10 ^ 15) x0 z0 0 0 t
  refine ⟨bu.type, bv.type, textbook (stressedSlab Nx Nz bu.type bv.type) (1 / 10 ^ 15) (fun k => x0 + k * 1000) (fun l => z0 + l * 1000) 0 0, fun theta hth T hT => ?_⟩
  have h' : PureShear (mildSlab Nx Nz bu.type bv.type theta) (1 / 10 ^ 15) (fun k => x0 + k * 1000) (fun l => z0 + l * 1000) bu bv :=
    ⟨h.Nx, h.Nz, h.dx, h.dz, h.stepX, h.stepZ, h.vx, h.vz, h.tu, h.tv, h.beyondU, h.beyondV, h.rock⟩
  have s' : SameEverywhere (mildSlab Nx Nz bu.type bv.type theta) := ⟨s.Nx, s.Nz, s.dx, s.dz, fun _ _ => rfl, fun _ _ => rfl, s.rock, s.rockV, s.stab⟩
  obtain ⟨hC, hA⟩ := mildSlab_creeping Nx Nz bu.type bv.type hth
  have hTe : Tested (mildSlab Nx Nz bu.type bv.type theta) (⟨10, 3, 0, 1, 2, 1, 1, 1, 1⟩ : Time.LoopCfg ℝ) :=
    ⟨by norm_num [mildSlab, creepSlab, stressedSlab, slab, boxMesh, blockMesh, Point.settings], h'.counted hx hz, one_pos, one_pos, by decide⟩
  have hX : Experiment mildLaw (mildSlab Nx Nz bu.type bv.type theta).env.R ((mildSlab Nx Nz bu.type bv.type theta).cell 0).T 0 ((mildSlab Nx Nz bu.type bv.type theta).cell 0).d
      ((mildSlab Nx Nz bu.type bv.type theta).cell 0).phi (1 / 10 ^ 15) (mildStress theta) := mild_experiment (theta := theta) (by linarith)
  obtain ⟨o, e, m⟩ := creep_pure_shear_step h' s' ⟨rfl, rfl⟩ rfl (fun _ => ⟨rfl, rfl⟩) hTe hC hX (by positivity) hA solve 0 0 0 (fun _ => 0) t ⟨0, 0, 0⟩ 0
  have body : Insulated (insulatedBox Nx Nz) (onVertices Nx Nz x0 z0).s (Nx * Nz) (fun c => (mildSlab Nx Nz bu.type bv.type theta).m.tp c) (3 * 10 ^ 6) (10 ^ 11) x0 z0 :=
    box_insulated Nx Nz x0 z0 hM.markers.cells hM.markers.fedC (fun c => by rw [h'.rock]; decide)
  have hT0 := body.toGrid hT fun _ => 0
  have hsrc : ∀ c < (insulatedBox Nx Nz).ncx * (insulatedBox Nx Nz).ncz,
      0 ≤ (heatSources (fun _ => 1 / 10 ^ 6) 1 o).at (tempToGrid (onVertices Nx Nz x0 z0).s (fun c => (mildSlab Nx Nz bu.type bv.type theta).m.tp c) T fun _ => 0) c := fun c hc => by
    have := (mild_between hth).1
    simp only [Heat.Src.at, heatSources, if_true]
    rw [m.heat c hc, if_neg (by norm_num)]
    positivity
  obtain ⟨T1, hs⟩ := Heat.heat_step_exists _ body.physical body.tags body.periodic (heatSources (fun _ => 1 / 10 ^ 6) 1 o) 0 _ (body.data 0).1
    (fun k hk l hl _ => by rw [hT0 _ (by simpa [mul_comm] using cell_lt _ _ k l hk hl)]; linarith) hsrc
  exact ⟨o, _, CreepStep.pure h' s' ⟨rfl, rfl⟩ rfl (fun _ => ⟨rfl, rfl⟩) hTe hC hA rfl e,
    Warmed.mk rfl rfl body (fun c hc => (hT0 c hc).symm) (fun _ _ => rfl) hs (sd := 1) (damp := fun _ => 1 / 2) rfl⟩

/-- Non-vacuity of the history: it goes on for ever. -/
theorem mildSlab_history (Nx Nz : Nat) (hx : 5 ≤ Nx) (hz : 5 ≤ Nz) (x0 z0 : ℝ) (solve : Solver) (t : Mech) : ∃ tu tv F, ∃ theta : Nat → ℝ, ∃ o : Nat → Mech, ∃ T out : Nat → Nat → ℝ, theta 0 = 300
    ∧ AtTemp (onVertices Nx Nz x0 z0).s (Nx * Nz) (T 0) 300 ∧ (∀ n, T (n + 1) = out n)
    ∧ (∀ n, theta (n + 1) = theta n + 10 ^ 11 * (1 / 10 ^ 6 + 2 * mildStress (theta n) * (1 / 10 ^ 15)) / (3 * 10 ^ 6))
    ∧ ∀ n, CreepStep mildLaw 0 (1 / 10 ^ 15) 0 (mildStress (theta n)) (mildSlab Nx Nz tu tv (theta n)) (shortening (1 / 10 ^ 15)) F F F (o n)
      ∧ Warmed (mildSlab Nx Nz tu tv (theta n)) (o n) (1 / 10 ^ 6) (3 * 10 ^ 6) (onVertices Nx Nz x0 z0).s (Nx * Nz) (T n) (out n)
      ∧ Experiment mildLaw (8314 / 1000) (theta n) 0 1 0 (1 / 10 ^ 15) (mildStress (theta n)) := by
  obtain ⟨tu, tv, F, hstep⟩ := mildSlab_step Nx Nz hx hz x0 z0 solve t
  let A := { q : ℝ × (Nat → ℝ) // 300 ≤ q.1 ∧ AtTemp (onVertices Nx Nz x0 z0).s (Nx * Nz) q.2 q.1 }
  have next : ∀ a : A, ∃ b : A, ∃ o, b.1.1 = a.1.1 + 10 ^ 11 * (1 / 10 ^ 6 + 2 * mildStress a.1.1 * (1 / 10 ^ 15)) / (3 * 10 ^ 6)
      ∧ CreepStep mildLaw 0 (1 / 10 ^ 15) 0 (mildStress a.1.1) (mildSlab Nx Nz tu tv a.1.1) (shortening (1 / 10 ^ 15)) F F F o
      ∧ Warmed (mildSlab Nx Nz tu tv a.1.1) o (1 / 10 ^ 6) (3 * 10 ^ 6) (onVertices Nx Nz x0 z0).s (Nx * Nz) a.1.2 b.1.2 := by
    rintro ⟨⟨theta, T⟩, h3, hT⟩
    obtain ⟨o, out, h1, h2⟩ := hstep theta h3 T hT
    have h4 := (hot_creep_step h1 h2 (by positivity) rfl hT (mild_experiment (by linarith))).2.2
    have := (mild_between h3).1
    refine ⟨⟨⟨theta + 10 ^ 11 * (1 / 10 ^ 6 + 2 * mildStress theta * (1 / 10 ^ 15)) / (3 * 10 ^ 6), out⟩, ?_, h4⟩, o, rfl, h1, h2⟩
    have : 0 ≤ 10 ^ 11 * (1 / 10 ^ 6 + 2 * mildStress theta * (1 / 10 ^ 15)) / (3 * 10 ^ 6) := by positivity
    dsimp only
    linarith
  choose g og hg using next
  let seq : Nat → A := fun n => Nat.rec ⟨⟨300, fun _ => 300⟩, le_rfl, fun _ _ _ => rfl⟩ (fun _ a => g a) n
  exact ⟨tu, tv, F, fun n => (seq n).1.1, fun n => og (seq n), fun n => (seq n).1.2, fun n => (seq (n + 1)).1.2, rfl, fun _ _ _ => rfl, fun _ => rfl, fun n => (hg (seq n)).1,
    fun n => ⟨(hg (seq n)).2.1, (hg (seq n)).2.2, mild_experiment (by have := (seq n).2.1; linarith)⟩⟩

end Verif.StepFlow
