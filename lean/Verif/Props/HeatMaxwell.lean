import Verif.Props.HeatCycle

/- C158: what happens to the work spent on a Maxwell body: it is stored, or it warms the markers. -/
set_option linter.unusedSimpArgs false

namespace Verif.StepFlow
open Verif Verif.Hist Finset

/-- Heat of the viscous element of a Maxwell body. -/
noncomputable def _root_.Verif.Hist.Dev.heat (eta : ℝ) (σ : Dev) : ℝ := Spec.viscousHeat eta σ.xx σ.zz σ.xz

/-- Energy of the elastic element of a Maxwell body. -/
noncomputable def _root_.Verif.Hist.Dev.stored (G : ℝ) (σ : Dev) : ℝ := Spec.storedEnergy G σ.xx σ.zz σ.xz

/-- Power per volume of the flow `u = -eps x`, `v = eps z` against the stress. -/
def _root_.Verif.Hist.Dev.power (eps : ℝ) (σ : Dev) : ℝ := σ.xx * -eps + σ.zz * eps

private theorem invariant_sq (a : Point.Tensor) : Point.invariant a ^ 2 = Spec.halfSquare a.xx a.zz a.xz := by
  unfold Point.invariant Spec.halfSquare
  dsimp only
  rw [Real.sq_sqrt (by nlinarith [sq_nonneg a.xx, sq_nonneg a.zz, sq_nonneg (a.xx + a.zz), sq_nonneg a.xz])]
  ring

/-- The heating recorded for a Maxwell body, if its stress is not below the floor the code sets for the strain rate (`1e-30` per second). -/
theorem maxwell_heat_of_stress {S : Setting} {eta G : ℝ} (h : Maxwell S eta G) {b : Bool} {f : LS.Fields} {t o : Mech} (ho : updateNL S b f t = .ok o) {c : Nat} (hc : c < S.ncells)
    (ha : ¬ (S.m.tp c = 30 ∨ S.m.tp c = 31))
    (hfl : 2 * (eta * (G * S.env.dt) / (eta + G * S.env.dt)) / 10 ^ 30 ≤ Real.sqrt (Spec.halfSquare (o.cells c).T.xx (o.cells c).T.zz (o.cells c).T.xz) * S.env.sE) :
    (o.cells c).wDiss = Spec.viscousHeat eta (o.cells c).T.xx (o.cells c).T.zz (o.cells c).T.xz := by
  have g0 := h.stiff
  have d0 := h.rocks.dt
  have e0 := h.pos
  have v0 : 0 < eta * (G * S.env.dt) / (eta + G * S.env.dt) := by positivity
  have hT := (maxwell_recorded h ho).1 c hc ha
  have hw := maxwell_heating h ho c hc ha
  generalize (cellData S f o.rates c).eff S.env = e at hT hw
  generalize eta * (G * S.env.dt) / (eta + G * S.env.dt) = v at *
  have hsq : Spec.halfSquare (o.cells c).T.xx (o.cells c).T.zz (o.cells c).T.xz = (2 * v * Point.invariant e) ^ 2 := by
    rw [hT, mul_pow, invariant_sq]
    unfold Point.nodeStress Spec.halfSquare
    ring
  have hI : 0 ≤ Point.invariant e := Real.sqrt_nonneg _
  rw [hsq, Real.sqrt_sq (by positivity)] at hfl
  have hr : Point.rate S.env e = Point.invariant e := by
    unfold Point.rate
    rw [if_neg (not_lt.2 _)]
    rw [div_le_iff₀ (by positivity)] at hfl ⊢
    nlinarith
  rw [hw, hr]
  unfold Spec.viscousHeat
  rw [hsq]

/-- One time step of a Maxwell body in pure shear that keeps its heat: stress and temperature of the markers to the grid, a balanced flow with the prescribed walls, stress and heating recorded,
the thermal solve, both changes back to the markers. -/
inductive HotMaxwellStep (eta G Q cap dt eps : ℝ) (C : Carriers) (sig sout : Nat → Dev) (T Tout : Nat → ℝ) : Prop
  | mk {S : Setting} {r : ℝ} {x z : Nat → ℝ} {bu bv : Setup.Side ℝ} {x0 z0 : ℝ} {b : OldStress} {V : BCVals ℝ} {g f' : LS.Fields} {t a t1 o : Mech} {sd rot : Int} {dtm : ℝ} {damp wxz : Nat → ℝ}
    {p : Heat.Par ℝ} {air : ℝ} {Qr bT T1 dampT : Nat → ℝ} {sdT : Int}
    (body : MaxwellBody S C eta G r dt eps x z bu bv x0 z0) (heavy : ∀ c < S.ncells, t.rho c = r) (walls : Admissible (load S (toGrid S C sig b)) V g)
    (driven : Driven (load S (toGrid S C sig b)) bu bv g)
    (solved : updateNL (load S (toGrid S C sig b)) false g t = .ok a)
    (balanced : Balanced (load S (toGrid S C sig b)) (rows (load S (toGrid S C sig b)) (opsOf (load S (toGrid S C sig b)) a) g a))
    (recorded : finishStep (load S (toGrid S C sig b)) g t1 = .ok (f', o))
    (floor : ∀ c < S.ncells, 2 * (eta * (G * dt) / (eta + G * dt)) / 10 ^ 30 ≤ Real.sqrt (Spec.halfSquare (o.cells c).T.xx (o.cells c).T.zz (o.cells c).T.xz) * S.env.sE)
    (switch : sd = 0 ∨ sd = 1 ∨ sd = 2) (back : toMarkers S C sd rot dtm damp wxz o (toGrid S C sig b) sig = some sout)
    (ncx : p.ncx = S.m.Nx - 1) (ncz : p.ncz = S.m.Nz - 1) (keeps : Insulated p C.s C.n (fun c => S.m.tp c) cap dt x0 z0) (radiogenic : ∀ c < p.ncx * p.ncz, Qr c = Q)
    (warmed : Heat.Step p (heatSources Qr 1 o) air (tempToGrid C.s (fun c => S.m.tp c) T bT) T1)
    (backT : Tout = tempToMarkers C.s sdT p.tt (fun c => S.m.tp c) T1 (tempToGrid C.s (fun c => S.m.tp c) T bT) dampT T) : HotMaxwellStep eta G Q cap dt eps C sig sout T Tout

/-- Its stress goes the way of C156. -/
theorem HotMaxwellStep.stress {eta G Q cap dt eps : ℝ} {C : Carriers} {sig sout : Nat → Dev} {T Tout : Nat → ℝ} (h : HotMaxwellStep eta G Q cap dt eps C sig sout T Tout) :
    MaxwellStep eta G dt eps C sig sout := by
  obtain ⟨a1, a2, a3, a4, a5, a6, a7, -, a9, a10, -⟩ := h
  exact ⟨a1, a2, a3, a4, a5, a6, a7, a9, a10⟩

/-- C158 (one step).  The markers get the stress of one implicit Euler step of the Maxwell law and warm by what its viscous element dissipates under this stress. -/
theorem hot_maxwell_step {eta G Q cap dt eps : ℝ} {C : Carriers} {sig sout : Nat → Dev} {T Tout : Nat → ℝ} (h : HotMaxwellStep eta G Q cap dt eps C sig sout T Tout)
    {σ : Dev} (hs : Carry C sig σ) :
    ∃ τ : Dev, Carry C sout τ ∧ (Spec.BackwardEuler eta G dt (-eps) σ.xx τ.xx ∧ Spec.BackwardEuler eta G dt eps σ.zz τ.zz ∧ Spec.BackwardEuler eta G dt 0 σ.xz τ.xz)
      ∧ HeatStep cap dt (Q + τ.heat eta) C.s C.n T Tout := by
  obtain ⟨hB, hr, hg, hd, ha, hb, hfin, hfl, hsd, hout, e1, e2, hk, hQ, hw, hT⟩ := h
  rename_i S r x z bu bv x0 z0 b V g f' t a t1 o sd rot dtm damp wxz p air Qr bT T1 dampT sdT
  obtain ⟨s, q, m, hD, oc, ov⟩ := hB.loaded hs b
  obtain ⟨g1, g2, p0, g3⟩ := pure_shear_only s m.rocks (r := r) hB.vol (fun c => (hB.still c).1) (hD t.rho) hg hd
    (fun o ho => hB.balanced hs b hr ho) ha hb
  have hft := flow_textbook s hg g1 g2 g3
  have hfin' := (fin_ok hfin).1
  rw [hft] at hfin'
  obtain ⟨τ, tc, tv, e⟩ := hB.recorded hs b hfin'
  obtain ⟨gc, gv⟩ := toGrid_uniform hB.same hB.markers hs b
  obtain ⟨out', h1, h2⟩ := toMarkers_uniform hB.same hB.markers (o := o) (g := toGrid S C sig b) (fun c hc => ⟨(gc c hc).1, (gc c hc).2.1⟩) (fun c hc => (gv c hc).2.2)
    (fun c hc => by rw [tc c hc]; exact ⟨rfl, rfl⟩) tv hs hsd rot dtm damp wxz
  rw [hout] at h1
  obtain rfl : sout = out' := by simpa using h1
  refine ⟨τ, h2, e, ⟨hk, fun c hc => ?_, hw, hT⟩⟩
  have hc' : c < S.ncells := by rw [e1, e2] at hc; exact hc
  have wd := maxwell_heat_of_stress m hfin' hc' (q.rock c) (by
    have := hfl c hc'
    rw [← hB.dt] at this
    exact this)
  rw [tc c hc'] at wd
  simp only [Heat.Src.at, heatSources, if_true, hQ c hc, wd]
  norm_num [Dev.heat]

/-- C158 (history).  Over any number of steps the markers carry the stress of the implicit Euler rule, and their temperature is the initial one plus what the viscous element has dissipated
under these stresses, plus the radiogenic heat. -/
theorem hot_maxwell_history {eta G : ℝ} (h1 : 0 < eta) (h2 : 0 < G) (Q cap dt eps : Nat → ℝ) (hdt : ∀ n, 0 < dt n) (C : Nat → Carriers) (sig sout : Nat → Nat → Dev) (T Tout : Nat → Nat → ℝ)
    (hstep : ∀ n, HotMaxwellStep eta G (Q n) (cap n) (dt n) (eps n) (C n) (sig n) (sout n) (T n) (Tout n))
    (hmove : ∀ n, ∀ k < (C (n + 1)).n, ((C (n + 1)).s.ms k).phase ≠ -1 → ∃ j < (C n).n, ((C n).s.ms j).phase ≠ -1 ∧ sig (n + 1) k = sout n j ∧ T (n + 1) k = Tout n j)
    (σ : Nat → Dev) (hstart : Carry (C 0) (sig 0) (σ 0)) (θ : ℝ) (hθ : AtTemp (C 0).s (C 0).n (T 0) θ)
    (hσ : ∀ n, Spec.BackwardEuler eta G (dt n) (-eps n) (σ n).xx (σ (n + 1)).xx ∧ Spec.BackwardEuler eta G (dt n) (eps n) (σ n).zz (σ (n + 1)).zz
      ∧ Spec.BackwardEuler eta G (dt n) 0 (σ n).xz (σ (n + 1)).xz) (n : Nat) :
    Carry (C n) (sout n) (σ (n + 1)) ∧ AtTemp (C n).s (C n).n (Tout n) (θ + ∑ i ∈ range (n + 1), dt i * (Q i + (σ (i + 1)).heat eta) / cap i) := by
  have str := maxwell_history h1 h2 dt eps hdt C sig sout (fun n => (hstep n).stress)
    (fun n k hk hp => by obtain ⟨j, a, b, c, -⟩ := hmove n k hk hp; exact ⟨j, a, b, c⟩) σ hstart hσ
  refine ⟨(str n).2, (heat_history cap dt (fun n => Q n + (σ (n + 1)).heat eta) (fun n => (C n).s) (fun n => (C n).n) T Tout (fun n => ?_)
    (fun n k hk hp => by obtain ⟨j, a, b, -, c⟩ := hmove n k hk hp; exact ⟨j, a, b, c⟩) θ hθ n).2⟩
  obtain ⟨τ, c, ⟨e1, e2, e3⟩, hh⟩ := hot_maxwell_step (hstep n) (str n).1
  obtain ⟨f1, f2, f3⟩ := hσ n
  rw [backwardEuler_iff h1 h2 (hdt n)] at e1 e2 e3 f1 f2 f3
  have : τ = σ (n + 1) := by
    rcases hτ : σ (n + 1) with ⟨a, b, c⟩
    rw [hτ] at f1 f2 f3
    cases τ
    simp only at e1 e2 e3 f1 f2 f3
    rw [e1, e2, e3, f1, f2, f3]
  rwa [← this]

/-- C158 (energy of the implicit Euler rule).  The work of a step is what is stored, what turns into heat and a loss, the elastic energy of the stress change. -/
theorem maxwell_energy_step {eta G dt eps : ℝ} (h1 : 0 < eta) (h2 : 0 < G) (h3 : 0 < dt) {σ τ : Dev} (hx : Spec.BackwardEuler eta G dt (-eps) σ.xx τ.xx)
    (hz : Spec.BackwardEuler eta G dt eps σ.zz τ.zz) (hxz : Spec.BackwardEuler eta G dt 0 σ.xz τ.xz) :
    dt * τ.power eps = τ.stored G - σ.stored G + dt * τ.heat eta + Dev.stored G ⟨τ.xx - σ.xx, τ.zz - σ.zz, τ.xz - σ.xz⟩ := by
  obtain ⟨a, b, c⟩ := σ
  obtain ⟨a', b', c'⟩ := τ
  unfold Spec.BackwardEuler at hx hz hxz
  have ex : -eps = ((a' - a) / dt + G / eta * a') / (2 * G) := by simp only at hx; rw [hx]; field_simp; ring
  have ez : eps = ((b' - b) / dt + G / eta * b') / (2 * G) := by simp only at hz; rw [hz]; field_simp; ring
  have exz : c' * ((c' - c) / dt + G / eta * c') = 0 := by simp only at hxz; rw [hxz]; ring
  have esum : (a' + b') * (((a' + b') - (a + b)) / dt + G / eta * (a' + b')) = 0 := by
    have : ((a' + b') - (a + b)) / dt + G / eta * (a' + b') = 0 := by
      have : ((a' - a) / dt + G / eta * a') / (2 * G) + ((b' - b) / dt + G / eta * b') / (2 * G) = 0 := by rw [← ex, ← ez]; ring
      field_simp at this ⊢
      linarith
    rw [this, mul_zero]
  unfold Dev.power Dev.stored Dev.heat Spec.storedEnergy Spec.viscousHeat Spec.halfSquare
  dsimp only
  have : a' * -eps + b' * eps = a' * (((a' - a) / dt + G / eta * a') / (2 * G)) + b' * (((b' - b) / dt + G / eta * b') / (2 * G)) := by rw [← ex, ← ez]
  rw [this]
  field_simp at exz esum ⊢
  linear_combination (-4) * exz - 2 * esum

/-- C158.  **Energy balance of a Maxwell body**: over any number of steps, all the work spent on the body plus the radiogenic heat is what each marker has been warmed by, what is stored elastically
and a loss that is never negative, the elastic energies of the stress changes; so the temperatures never show more heat than the work that is not stored. -/
theorem hot_maxwell_energy {eta G cap : ℝ} (h1 : 0 < eta) (h2 : 0 < G) (h3 : cap ≠ 0) (Q dt eps : Nat → ℝ) (hdt : ∀ n, 0 < dt n) (C : Nat → Carriers) (sig sout : Nat → Nat → Dev)
    (T Tout : Nat → Nat → ℝ) (hstep : ∀ n, HotMaxwellStep eta G (Q n) cap (dt n) (eps n) (C n) (sig n) (sout n) (T n) (Tout n))
    (hmove : ∀ n, ∀ k < (C (n + 1)).n, ((C (n + 1)).s.ms k).phase ≠ -1 → ∃ j < (C n).n, ((C n).s.ms j).phase ≠ -1 ∧ sig (n + 1) k = sout n j ∧ T (n + 1) k = Tout n j)
    (σ : Nat → Dev) (hstart : Carry (C 0) (sig 0) (σ 0)) (θ : ℝ) (hθ : AtTemp (C 0).s (C 0).n (T 0) θ)
    (hσ : ∀ n, Spec.BackwardEuler eta G (dt n) (-eps n) (σ n).xx (σ (n + 1)).xx ∧ Spec.BackwardEuler eta G (dt n) (eps n) (σ n).zz (σ (n + 1)).zz
      ∧ Spec.BackwardEuler eta G (dt n) 0 (σ n).xz (σ (n + 1)).xz) (n : Nat) :
    ∃ loss, 0 ≤ loss ∧ ∀ k < (C n).n, ((C n).s.ms k).phase ≠ -1 →
      cap * (Tout n k - θ) + ((sout n k).stored G - (σ 0).stored G) + loss = ∑ i ∈ range (n + 1), dt i * (Q i + (σ (i + 1)).power (eps i)) := by
  obtain ⟨hs, ht⟩ := hot_maxwell_history h1 h2 Q (fun _ => cap) dt eps hdt C sig sout T Tout hstep hmove σ hstart θ hθ hσ n
  refine ⟨∑ i ∈ range (n + 1), Dev.stored G ⟨(σ (i + 1)).xx - (σ i).xx, (σ (i + 1)).zz - (σ i).zz, (σ (i + 1)).xz - (σ i).xz⟩, sum_nonneg fun i _ => ?_, fun k hk hp => ?_⟩
  · unfold Dev.stored Spec.storedEnergy Spec.halfSquare
    positivity
  · rw [hs k hk hp, ht k hk hp]
    have tel : ∀ n, (σ n).stored G - (σ 0).stored G = ∑ i ∈ range n, ((σ (i + 1)).stored G - (σ i).stored G) := fun n => (Finset.sum_range_sub (fun i => (σ i).stored G) n).symm
    rw [tel, add_sub_cancel_left, ← Finset.sum_div, mul_div_cancel₀ _ h3, ← Finset.sum_add_distrib, ← Finset.sum_add_distrib]
    refine Finset.sum_congr rfl fun i _ => ?_
    obtain ⟨f1, f2, f3⟩ := hσ i
    have := maxwell_energy_step h1 h2 (hdt i) f1 f2 f3
    rw [mul_add, mul_add, this]
    ring

/-- C158 (the step exists).  Such a step can always be made, if there is no cooling and the stress it leads to is not below the floor. -/
theorem hot_maxwell_step_exists {S : Setting} {C : Carriers} {eta G r dt eps : ℝ} {x z : Nat → ℝ} {bu bv : Setup.Side ℝ} {x0 z0 : ℝ} (h : MaxwellBody S C eta G r dt eps x z bu bv x0 z0)
    {sig : Nat → Dev} {σ : Dev} (hs : Carry C sig σ) {p : Heat.Par ℝ} {cap Q θ : ℝ} (ncx : p.ncx = S.m.Nx - 1) (ncz : p.ncz = S.m.Nz - 1)
    (hk : Insulated p C.s C.n (fun c => S.m.tp c) cap dt x0 z0) (hQ : 0 ≤ Q) {T : Nat → ℝ} (hθ : AtTemp C.s C.n T θ) (h0 : 0 ≤ θ) {τ : Dev}
    (hx : Spec.BackwardEuler eta G dt (-eps) σ.xx τ.xx) (hz : Spec.BackwardEuler eta G dt eps σ.zz τ.zz) (hxz : Spec.BackwardEuler eta G dt 0 σ.xz τ.xz)
    (hfl : 2 * (eta * (G * dt) / (eta + G * dt)) / 10 ^ 30 ≤ Real.sqrt (Spec.halfSquare τ.xx τ.zz τ.xz) * S.env.sE)
    (b : OldStress) (bT : Nat → ℝ) (t t1 : Mech) (ht : ∀ c < S.ncells, t.rho c = r) {sd : Int} (hsd : sd = 0 ∨ sd = 1 ∨ sd = 2) (rot sdT : Int) (dtm : ℝ) (damp wxz dampT : Nat → ℝ) :
    ∃ sout Tout, HotMaxwellStep eta G Q cap dt eps C sig sout T Tout ∧ Carry C sout τ ∧ AtTemp C.s C.n Tout (θ + dt * (Q + τ.heat eta) / cap) := by
  obtain ⟨s, q, m, hD, oc, ov⟩ := h.loaded hs b
  obtain ⟨a, ha⟩ := viscoelastic_goes_on _ m.rocks false (textbook (load S (toGrid S C sig b)) eps x z r 0) t
  obtain ⟨o, ho⟩ := viscoelastic_goes_on _ m.rocks true (textbook (load S (toGrid S C sig b)) eps x z r 0) t1
  obtain ⟨w1, w2⟩ := s.textbook_admissible r 0 (⟨fun _ => 0, fun _ => 0⟩ : BCVals ℝ)
  have bal := h.balanced hs b ht ha
  obtain ⟨τ', tc, tv, e1, e2, e3⟩ := h.recorded hs b ho
  have d0 : 0 < dt := by rw [← h.dt]; exact h.body.rocks.dt
  have ee : τ' = τ := by
    rw [backwardEuler_iff h.body.pos h.body.stiff d0] at e1 e2 e3 hx hz hxz
    cases τ
    cases τ'
    simp only at e1 e2 e3 hx hz hxz
    rw [e1, e2, e3, hx, hz, hxz]
  rw [ee] at tc tv
  obtain ⟨gc, gv⟩ := toGrid_uniform h.same h.markers hs b
  obtain ⟨out, h1, h2⟩ := toMarkers_uniform h.same h.markers (o := o) (g := toGrid S C sig b) (fun c hc => ⟨(gc c hc).1, (gc c hc).2.1⟩) (fun c hc => (gv c hc).2.2)
    (fun c hc => by rw [tc c hc]; exact ⟨rfl, rfl⟩) tv hs hsd rot dtm damp wxz
  obtain ⟨f', hf⟩ : ∃ f', finishStep (load S (toGrid S C sig b)) (textbook (load S (toGrid S C sig b)) eps x z r 0) t1 = .ok (f', o) := by
    unfold finishStep; rw [ho]; exact ⟨_, rfl⟩
  have fl : ∀ c < S.ncells, 2 * (eta * (G * dt) / (eta + G * dt)) / 10 ^ 30 ≤ Real.sqrt (Spec.halfSquare (o.cells c).T.xx (o.cells c).T.zz (o.cells c).T.xz) * S.env.sE := fun c hc => by
    rw [tc c hc]; exact hfl
  have heat0 : 0 ≤ τ.heat eta := by
    have := h.body.pos
    unfold Dev.heat Spec.viscousHeat Spec.halfSquare
    positivity
  have src : ∀ c < p.ncx * p.ncz, (heatSources (fun _ => Q) 1 o).at (tempToGrid C.s (fun c => S.m.tp c) T bT) c = Q + τ.heat eta := fun c hc => by
    have hc' : c < S.ncells := by rw [ncx, ncz] at hc; exact hc
    have wd := maxwell_heat_of_stress m ho hc' (q.rock c) (by
      have := fl c hc'
      rw [← h.dt] at this
      exact this)
    rw [tc c hc'] at wd
    simp only [Heat.Src.at, heatSources, if_true, wd]
    norm_num [Dev.heat]
  have hT0 := hk.toGrid hθ bT
  obtain ⟨T1, hT1⟩ := Heat.heat_step_exists _ hk.physical hk.tags hk.periodic (heatSources (fun _ => Q) 1 o) 0 (tempToGrid C.s (fun c => S.m.tp c) T bT) (hk.data 0).1
    (fun k hk l hl _ => by rw [hT0 _ (by simpa [mul_comm] using cell_lt p.ncx p.ncz k l hk hl)]; exact h0) (fun c hc => by rw [src c hc]; positivity)
  refine ⟨out, _, HotMaxwellStep.mk h ht w1 w2 ha bal hf fl hsd h1 ncx ncz hk (fun _ _ => rfl) hT1 (sdT := sdT) (dampT := dampT) rfl, h2, ?_⟩
  exact heat_step ⟨hk, src, hT1, rfl⟩ hθ

/-- Non-vacuity of the history: the heavy slab of C156, insulated, can be loaded from rest for ever. -/
theorem slab_hot_history (Nx Nz : Nat) (hx : 3 ≤ Nx) (hz : 2 ≤ Nz) (eps x0 z0 θ : ℝ) (he : 1 / 10 ^ 30 ≤ eps) (hθ : 0 ≤ θ) : ∃ (sig sout : Nat → Nat → Dev) (T Tout : Nat → Nat → ℝ),
    (∀ n, HotMaxwellStep (10 ^ 21) (10 ^ 10) (1 / 10 ^ 6) (3 * 10 ^ 6) (10 ^ 11) eps (onVertices Nx Nz x0 z0) (sig n) (sout n) (T n) (Tout n))
    ∧ (∀ n, sig (n + 1) = sout n ∧ T (n + 1) = Tout n) ∧ Carry (onVertices Nx Nz x0 z0) (sig 0) ⟨0, 0, 0⟩ ∧ AtTemp (onVertices Nx Nz x0 z0).s (Nx * Nz) (T 0) θ := by
  obtain ⟨bu, bv, h⟩ := slab_maxwell Nx Nz hx hz eps x0 z0
  let St := { s : (Nat → Dev) × (Nat → ℝ) // ∃ y θ', 0 ≤ y ∧ 0 ≤ θ' ∧ Carry (onVertices Nx Nz x0 z0) s.1 ⟨-y, y, 0⟩ ∧ AtTemp (onVertices Nx Nz x0 z0).s (Nx * Nz) s.2 θ' }
  have body : Insulated (insulatedBox Nx Nz) (onVertices Nx Nz x0 z0).s (Nx * Nz) (fun c => (heavySlab Nx Nz bu.type bv.type).m.tp c) (3 * 10 ^ 6) (10 ^ 11) x0 z0 :=
    box_insulated Nx Nz x0 z0 h.markers.cells h.markers.fedC (fun c => by rw [h.shear.rock]; decide)
  have e0 : 0 < eps := lt_of_lt_of_le (by positivity) he
  have next : ∀ s : St, ∃ o : St, HotMaxwellStep (10 ^ 21) (10 ^ 10) (1 / 10 ^ 6) (3 * 10 ^ 6) (10 ^ 11) eps (onVertices Nx Nz x0 z0) s.1.1 o.1.1 s.1.2 o.1.2 := by
    rintro ⟨⟨sig, T⟩, y, θ', hy, hθ', hs, hT⟩
    let t : Mech := ⟨⟨fun _ => 0, fun _ => 0, fun _ => 0, fun _ => 0, fun _ => 0, fun _ => 0, fun _ => 0, fun _ => 0, fun _ => 0, fun _ => 0⟩, fun _ => 0, fun _ => 0, fun _ => 0, fun _ => 0,
      fun _ => Point.Stored.zero, fun _ => Point.Stored.zero, fun _ => 3000, fun _ => 0, fun _ => 0⟩
    have q1 : (0 : ℝ) < 10 ^ 21 := by positivity
    have q2 : (0 : ℝ) < 10 ^ 10 := by positivity
    have q3 : (0 : ℝ) < 10 ^ 11 := by positivity
    let y' : ℝ := (10 ^ 21 * y + 10 ^ 10 * 10 ^ 11 * (2 * 10 ^ 21 * eps)) / (10 ^ 21 + 10 ^ 10 * 10 ^ 11)
    have y0 : 0 ≤ y' := by positivity
    obtain ⟨sout, Tout, a, b, c⟩ := hot_maxwell_step_exists h hs (p := insulatedBox Nx Nz) (cap := 3 * 10 ^ 6) (Q := 1 / 10 ^ 6) rfl rfl body (by positivity) hT hθ' (τ := ⟨-y', y', 0⟩)
      ((backwardEuler_iff q1 q2 q3).2 (by simp only [y']; ring)) ((backwardEuler_iff q1 q2 q3).2 rfl) ((backwardEuler_iff q1 q2 q3).2 (by ring))
      (by
        have : Spec.halfSquare (-y') y' 0 = y' ^ 2 := by unfold Spec.halfSquare; ring
        rw [this, Real.sqrt_sq y0, show (heavySlab Nx Nz bu.type bv.type).env.sE = 1 from rfl, mul_one]
        simp only [y']
        norm_num at he ⊢
        linarith)
      ⟨fun _ => 0, fun _ => 0, fun _ => 0, fun _ => 0, fun _ => 0, fun _ => 0⟩ (fun _ => 0) t t (fun _ _ => rfl) (sd := 2) (by decide) 1 1 (10 ^ 11) (fun _ => 1 / 2) (fun _ => 0) (fun _ => 1 / 2)
    refine ⟨⟨⟨sout, Tout⟩, y', _, y0, ?_, b, c⟩, a⟩
    have : 0 ≤ Dev.heat (10 ^ 21) ⟨-y', y', 0⟩ := by
      unfold Dev.heat Spec.viscousHeat Spec.halfSquare
      positivity
    positivity
  choose f hf using next
  let seq : Nat → St := fun n => Nat.rec ⟨⟨fun _ => ⟨0, 0, 0⟩, fun _ => θ⟩, 0, θ, le_rfl, hθ, fun _ _ _ => by simp, fun _ _ _ => rfl⟩ (fun _ s => f s) n
  exact ⟨fun n => (seq n).1.1, fun n => (seq (n + 1)).1.1, fun n => (seq n).1.2, fun n => (seq (n + 1)).1.2, fun n => hf (seq n), fun _ => ⟨rfl, rfl⟩, fun _ _ _ => rfl, fun _ _ _ => rfl⟩

end Verif.StepFlow
