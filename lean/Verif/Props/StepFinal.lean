import Verif.Props.StepSearch
import Verif.Props.ViscGrid

/-
C148: what is recorded at the end of a step.
-/
namespace Verif.StepFlow
open Verif

private theorem finish_ok {S : Setting} {f f' : LS.Fields} {t t' : Mech} (h : finishStep S f t = .ok (f', t')) :
    updateNL S true f t = .ok t' ∧ f' = { f with p := LS.copyArr S.ncells f.p fun c => (t'.cells c).pcorr } := by
  unfold finishStep at h
  split at h
  · next t1 h1 =>
    simp only [Point.Outcome.ok.injEq, Prod.mk.injEq] at h
    obtain ⟨rfl, rfl⟩ := h
    exact ⟨h1, rfl⟩
  · exact absurd h (by simp)
  · exact absurd h (by simp)

private theorem cell_stress {v : Point.Env} {a : Point.Mean} {n : Nat} {m : Nat → Point.Mat} {huet : Nat → ℝ × ℝ → ℝ × ℝ}
    {k : Point.Node} {s : Point.Stored} (hair : k.air = false) (h : Point.cellNode v a n m huet k = .ok s) :
    s.T = Point.nodeStress s.eta (k.eff v) := by
  unfold Point.cellNode at h
  rw [hair] at h
  simp only [Bool.false_eq_true, if_false] at h
  split at h
  · next s0 _ =>
    unfold Point.closeCell at h
    split at h
    · exact absurd h (by simp)
    split at h
    · exact absurd h (by simp)
    · simp only [Point.Outcome.ok.injEq] at h; rw [← h]
  · next hno => exact absurd h (hno s)

private theorem vertex_stress {v : Point.Env} {a : Point.Mean} {n : Nat} {m : Nat → Point.Mat} {huet : Nat → ℝ × ℝ → ℝ × ℝ}
    {k : Point.Node} {s : Point.Stored} (hair : k.air = false) (h : Point.vertexNode v a n m huet k = .ok s) :
    s.T = Point.nodeStress s.eta (k.eff v) := by
  unfold Point.vertexNode at h
  rw [hair] at h
  simp only [Bool.false_eq_true, if_false] at h
  split at h
  · next s0 _ =>
    unfold Point.closeVertex at h
    split at h
    · exact absurd h (by simp)
    · simp only [Point.Outcome.ok.injEq] at h; rw [← h]
  · next hno => exact absurd h (hno s)

/-- C148.  **The stresses recorded for a step belong to the velocities recorded for it**, however the iterations ended (converged, stagnated, limit of passes)
and whatever was tried: strain rates are those of the recorded velocities, the stress at every rock cell and vertex is twice the recorded
viscosity times the effective strain rate, the recorded pressure is the corrected one, and everything is as if the update had been made at the start. -/
theorem recorded_stress_of_recorded_flow (S : Setting) (hx : 2 ≤ S.m.Nx) (hz : 2 ≤ S.m.Nz) (hist : List (Bool × LS.Fields))
    (f f' : LS.Fields) (t0 t t' : Mech) (hh : updates S hist t0 = .ok t) (h : finishStep S f t = .ok (f', t')) :
    f'.u = f.u ∧ f'.v = f.v ∧ (∀ c < S.ncells, f'.p c = (t'.cells c).pcorr)
    ∧ t'.rates = Kin.strainRates (kinInp S f') t0.rates
    ∧ (∀ c < S.ncells, ¬ (S.m.tp c = 30 ∨ S.m.tp c = 31) →
        (t'.cells c).T = Point.nodeStress (t'.cells c).eta ((cellData S f' t'.rates c).eff S.env))
    ∧ (∀ c < S.nverts, S.m.tg c ≠ 30 →
        (t'.verts c).T = Point.nodeStress (t'.verts c).eta ((vertData S t'.rates t'.Ts t'.Ps t'.ds t'.phis c).eff S.env))
    ∧ finishStep S f t0 = .ok (f', t') := by
  have hfin : finishStep S f t0 = .ok (f', t') := by
    rw [← h]; unfold finishStep; rw [update_history_free S hx hz hist true f t0 t hh]
  obtain ⟨h1, h2⟩ := finish_ok hfin
  obtain ⟨a1, -, -, -, -, a6, -, -, -⟩ := updateNL_ok h1
  have hs := (Point.grid_spec S.env S.mean S.n S.mats S.huet S.ncells S.nverts _ _ t0.cells t0.verts).1 _ _ a6
  refine ⟨by rw [h2], by rw [h2], fun c hc => ?_, ?_, fun c hc hr => ?_, fun c hc hr => ?_, hfin⟩
  · rw [h2]; simp [LS.copyArr_apply, hc]
  · rw [a1, h2]; rfl
  · have e := cell_stress (k := cellData S f t'.rates c) (by simp only [cellData]; exact decide_eq_false hr) (hs.1 c hc)
    rw [e]; rfl
  · exact cell_vert hr (hs.2.1 c hc)
where
  cell_vert {c : Nat} (hr : S.m.tg c ≠ 30) (h : Point.vertexNode S.env S.mean S.n S.mats S.huet
      (vertData S t'.rates t'.Ts t'.Ps t'.ds t'.phis c) = .ok (t'.verts c)) :
      (t'.verts c).T = Point.nodeStress (t'.verts c).eta ((vertData S t'.rates t'.Ts t'.Ps t'.ds t'.phis c).eff S.env) :=
    vertex_stress (by simp only [vertData]; exact decide_eq_false hr) h

/-- C148 (partial).  **What is recorded leaves exactly the residual that passed the test**: if the last pass was made with the flow `f` and the loop ended there, the
state after the final update is the one in which the residual was measured.  Missing: density_variations, where the final update evaluates the density at
another pressure. -/
theorem recorded_residual_is_accepted_partial (S : Setting) (hx : 2 ≤ S.m.Nx) (hz : 2 ≤ S.m.Nz) (hvol : S.vol = false)
    (f f' : LS.Fields) (t0 tl t' : Mech) (R : Rows) (hp : pass S f t0 = .ok (tl, R)) (h : finishStep S f tl = .ok (f', t')) :
    t' = tl ∧ R = measured S (opsOf S t') t'.rho f t' := by
  have h1 := (finish_ok h).1
  unfold pass at hp
  split at hp
  · next t1 h0 =>
    simp only [Point.Outcome.ok.injEq, Prod.mk.injEq] at hp
    obtain ⟨rfl, rfl⟩ := hp
    rw [update_absorbs S hx hz false true f f t0 t1 h0, final_flag_unused S hvol true false, h0] at h1
    simp only [Point.Outcome.ok.injEq] at h1
    exact ⟨h1.symm, by rw [h1]⟩
  · exact absurd hp (by simp)
  · exact absurd hp (by simp)

/-- The recorded fields in the balance of forces: at an inner Vx node (column `k`, row `l`, no traction, not periodic) the row of the residual
is minus the cell volume times the divergence of the recorded stress minus the gradient of the recorded pressure plus the body force. -/
theorem recorded_force_balance (S : Setting) (hx : 2 ≤ S.m.Nx) (hs : S.m.stab = false) (f f' : LS.Fields) (t t' : Mech)
    (h : finishStep S f t = .ok (f', t')) (k l : Nat) (hk : 1 ≤ k) (hk' : k + 1 < S.m.Nx) (hl : 1 ≤ l) (hl' : l < S.m.Nz)
    (htag : S.m.tu (k + l * S.m.Nx : Nat) ≠ -2) :
    let W := k - 1 + (l - 1) * (S.m.Nx - 1)
    let N := k + l * S.m.Nx
    (rows S (opsOf S t') f t').x k l = -(S.m.dx * S.m.dz) *
      (((((t'.cells (W + 1)).T.xx - f'.p (W + 1)) - ((t'.cells W).T.xx - f'.p W)) / S.m.dx
        + ((t'.verts N).T.xz - (t'.verts (N - S.m.Nx)).T.xz) / S.m.dz) + t'.bx N) := by
  intro W N
  obtain ⟨h1, h2⟩ := finish_ok h
  have hW : W + 1 < S.ncells := by
    have : (l - 1) * (S.m.Nx - 1) + (S.m.Nx - 1) ≤ (S.m.Nx - 1) * (S.m.Nz - 1) := by
      have h3 : l - 1 + 1 ≤ S.m.Nz - 1 := by omega
      calc (l - 1) * (S.m.Nx - 1) + (S.m.Nx - 1) = (S.m.Nx - 1) * (l - 1 + 1) := by ring
        _ ≤ _ := Nat.mul_le_mul_left _ h3
    simp only [W, Setting.ncells]
    omega
  have eW : f'.p W = (t'.cells W).pcorr := by rw [h2]; simp [LS.copyArr_apply, show W < S.ncells by omega]
  have eE : f'.p (W + 1) = (t'.cells (W + 1)).pcorr := by rw [h2]; simp [LS.copyArr_apply, hW]
  have hN : S.m.Nx ≤ N := by
    have : 1 * S.m.Nx ≤ l * S.m.Nx := Nat.mul_le_mul_right _ hl
    simp only [N]; omega
  have iW : (k : Int) - 1 + ((l : Int) - 1) * ((S.m.Nx : Int) - 1) = (W : Nat) := by
    simp only [W]; push_cast [Nat.cast_sub hk, Nat.cast_sub hl, Nat.cast_sub (show 1 ≤ S.m.Nx by omega)]; ring
  have iN : (k : Int) + (l : Int) * (S.m.Nx : Int) = (N : Nat) := by simp only [N]; push_cast; ring
  have iS : (N : Int) - (S.m.Nx : Int) = ((N - S.m.Nx : Nat) : Int) := by rw [Nat.cast_sub hN]
  have iE : (W : Int) + 1 = ((W + 1 : Nat) : Int) := by push_cast; ring
  have arr : ∀ (a : Nat → ℝ) (i : Nat), S.arr a (i : Int) = a i := fun a i => by simp [Setting.arr]
  have htag' : ¬ (S.m.tu (N : Int) = -2) := htag
  have kn : ¬ ((k : Int) = (S.m.Nx : Int) - 1) := by omega
  have hcorr : ∀ a, xCorr (meshWith S (opsOf S t') t'.rho) k l a = 0 := fun a => by simp [xCorr, meshWith, hs]
  unfold rows
  simp only [xResidual, hcorr]
  have qW : (xIn (meshWith S (opsOf S t') t'.rho) k l).SW = 0 := by
    simp [xIn, flag, show ¬ k = 0 by omega]
  have qE : (xIn (meshWith S (opsOf S t') t'.rho) k l).SE = 0 := by
    have : ((meshWith S (opsOf S t') t'.rho).Nx : Int) = S.m.Nx := rfl
    simp [xIn, flag, this, kn]
  have pW : (xIdx (meshWith S (opsOf S t') t'.rho) k l).pW = (W : Nat) := by
    have e1 : ((meshWith S (opsOf S t') t'.rho).Nx : Int) = S.m.Nx := rfl
    have e2 : (meshWith S (opsOf S t') t'.rho).tu = S.m.tu := rfl
    simp [xIdx, e1, e2, iN, htag', iW]
  have pE : (xIdx (meshWith S (opsOf S t') t'.rho) k l).pE = (W + 1 : Nat) := by
    have e1 : ((meshWith S (opsOf S t') t'.rho).Nx : Int) = S.m.Nx := rfl
    simp only [xIdx, e1, iW]; push_cast; ring
  have gN : (xIdx (meshWith S (opsOf S t') t'.rho) k l).gN = (N : Nat) := iN
  have gS : (xIdx (meshWith S (opsOf S t') t'.rho) k l).gS = (N - S.m.Nx : Nat) := by
    have : (xIdx (meshWith S (opsOf S t') t'.rho) k l).gS = (k : Int) + (l : Int) * (S.m.Nx : Int) - S.m.Nx := rfl
    rw [this, iN, iS]
  rw [qW, qE, pW, pE, gN, gS, iN]
  simp only [arr, eW, eE]
  have d1 : (meshWith S (opsOf S t') t'.rho).dx = S.m.dx := rfl
  have d2 : (meshWith S (opsOf S t') t'.rho).dz = S.m.dz := rfl
  rw [d1, d2]
  ring

/-! ### volume -/

/-- The stress of a phase was reset to the minimum of 0.1 MPa (scaled by `sS`), as it is in tension. -/
def AtMinimum (v : Point.Env) (i : Point.In) (o : Point.Out) : Prop :=
  let r := 10 ^ 5 / v.sS / Point.rate v i.E
  o.T = ⟨r * i.E.xx, r * i.E.zz, r * i.E.xz⟩

/-- One phase: the corrected pressure is the pressure of the solution plus bulk modulus times time step times plastic divergence; or the
stress was reset to the minimum, and the pressure was not corrected. -/
theorem phase_pressure (v : Point.Env) (m : Point.Mat) (huet : ℝ × ℝ → ℝ × ℝ) (i : Point.In) (cell : Bool) (o : Point.Out)
    (h : Point.update v m huet i cell = .ok o) (hk : (Point.moduli v i).2.2 * v.dtEff ≠ 0) :
    o.divEl = -(o.pcorr - i.P0) / ((Point.moduli v i).2.2 * v.dtEff)
    ∧ (o.pcorr = i.P + (Point.moduli v i).2.2 * v.dtEff * o.divPl ∨ (m.plast = true ∧ AtMinimum v i o ∧ o.pcorr = i.P)) := by
  unfold Point.update at h
  split at h
  · exact absurd h (by simp)
  dsimp only at h
  split at h
  · exact absurd h (by simp)
  · exact absurd h (by simp)
  next etaVe tii _ =>
  unfold Point.finish at h
  dsimp only at h
  split at h
  · exact absurd h (by simp)
  split at h
  · exact absurd h (by simp)
  simp only [Point.Res.ok.injEq] at h
  refine ⟨by rw [← h], ?_⟩
  rw [← h]
  simp only [AtMinimum]
  simp only [Point.yielding, Point.plasticDivergence, Rheo.plastic, Point.effViscosity]
  have ht : (Point.retPar v m i etaVe tii).tii = tii := rfl
  have hkd : (Point.retPar v m i etaVe tii).kdt = (Point.moduli v i).2.2 * v.dtEff := rfl
  have hP : (Point.retPar v m i etaVe tii).P = i.P := rfl
  by_cases hp : m.plast = true
  · simp only [hp, if_true, true_and, ht]
    by_cases hy : 1 / 10 ^ 17 < tii - Point.strength m i
    · simp only [hy, if_true]
      split
      · next hneg =>
        right
        refine ⟨?_, hP⟩
        simp only [if_true]
        congr 1 <;> ring
      · next hneg =>
        left
        simp only [hkd]
        rw [mul_div_cancel₀ _ hk]
        ring
    · left
      simp only [hy, if_false, mul_zero, add_zero, hP]
  · left
    simp only [hp, if_false, false_and, mul_zero, add_zero, Bool.false_eq_true]

/-- The same for a whole cell, from the phases it holds. -/
private theorem cell_pressure (S : Setting) (f : LS.Fields) (r : Kin.Rates ℝ) (c : Nat) (s : Point.Stored)
    (hair : ¬ (S.m.tp c = 30 ∨ S.m.tp c = 31)) (hw : Spec.Composition S.n (S.cell c).w)
    (hmin : 0 < S.env.minEta) (hlim : S.env.minEta ≤ S.env.maxEta) (hgs : ∀ p < S.n, 0 < (S.mats p).gsRef)
    (hel : S.env.el = true) (hb : (S.cell c).beta ≠ 0) (hdt : S.env.dt ≠ 0) (o : Nat → Point.Out)
    (ho : ∀ p < S.n, 0 < (S.cell c).w p →
      Point.update S.env (S.mats p) (S.huet p) ((cellData S f r c).input S.env) true = .ok (o p))
    (h : Point.cellNode S.env S.mean S.n S.mats S.huet (cellData S f r c) = .ok s) :
    s.divEl = -((S.cell c).beta * (s.pcorr - (S.cell c).P0) / S.env.dt)
    ∧ s.pcorr = Spec.share S.n (S.cell c).w (fun p => (o p).pcorr)
    ∧ s.divPl = Spec.share S.n (S.cell c).w (fun p => (o p).divPl)
    ∧ ∀ p < S.n, 0 < (S.cell c).w p → (o p).pcorr = f.p c + S.env.dt / (S.cell c).beta * (o p).divPl
        ∨ ((S.mats p).plast = true ∧ AtMinimum S.env ((cellData S f r c).input S.env) (o p) ∧ (o p).pcorr = f.p c) := by
  obtain ⟨s', e0, -, -, -, -, -, -, -, -, -, -, -, e1, e2, e3, -⟩ := Point.cell_update S.env S.mean S.n S.mats S.huet (cellData S f r c)
    (by simp only [cellData]; exact decide_eq_false hair) hw hmin hlim hgs o ho
  rw [h] at e0
  simp only [Point.Outcome.ok.injEq] at e0
  subst e0
  have hs0 : S.env.step0 = false := by
    have := hel; simp only [Point.Env.el, Bool.and_eq_true, Bool.not_eq_true'] at this; exact this.2
  have hkd : (Point.moduli S.env ((cellData S f r c).input S.env)).2.2 * S.env.dtEff = S.env.dt / (S.cell c).beta := by
    simp only [Point.moduli, hel, if_true, Point.Env.dtEff, hs0, Bool.false_eq_true, if_false]
    show 1 / (S.cell c).beta * S.env.dt = _
    ring
  have hk0 : (Point.moduli S.env ((cellData S f r c).input S.env)).2.2 * S.env.dtEff ≠ 0 := by
    rw [hkd]; exact div_ne_zero hdt hb
  have hph := fun p (hp : p < S.n) (hwp : 0 < (S.cell c).w p) => phase_pressure S.env (S.mats p) (S.huet p) _ true (o p) (ho p hp hwp) hk0
  have hpos : (0 : ℝ) < 1 / 10 ^ 13 := by positivity
  have hsign : ∀ p < S.n, (S.cell c).w p = 0 ∨ 0 < (S.cell c).w p := fun p hp =>
    (hw.each p hp).imp id fun h => lt_trans hpos h
  refine ⟨?_, e1, e3, fun p hp hwp => ?_⟩
  · rw [e2, e1]
    have hT : (S.cell c).P0 = Spec.share S.n (S.cell c).w (fun _ => (S.cell c).P0) := by
      unfold Spec.share; rw [← Finset.sum_mul, hw.total, one_mul]
    rw [hT]
    unfold Spec.share
    have hcw : (cellData S f r c).w = (S.cell c).w := rfl
    rw [hcw, ← Finset.sum_sub_distrib, Finset.mul_sum, Finset.sum_div, ← Finset.sum_neg_distrib]
    refine Finset.sum_congr rfl fun p hp => ?_
    beta_reduce
    rcases hsign p (Finset.mem_range.1 hp) with h0 | h0
    · simp [h0]
    · rw [(hph p (Finset.mem_range.1 hp) h0).1, hkd]
      have hP0 : ((cellData S f r c).input S.env).P0 = (S.cell c).P0 := rfl
      rw [hP0]
      field_simp
  · have := (hph p hp hwp).2
    rw [hkd] at this
    exact this

/-- C148 (partial).  **The recorded parts of the volume change add up**: in a compressible rock cell the row of the volume balance is the divergence
of the recorded velocities minus the recorded elastic and plastic parts and the imposed source, times the volume of the cell — so
a converged step records parts that add up, with the elastic part the change of the recorded pressure times the compressibility over
the time step.  Missing: density_variations, and cells holding a phase whose stress was reset (next theorem). -/
theorem recorded_volume_balance_partial (S : Setting) (hvol : S.vol = false) (f f' : LS.Fields) (t t' : Mech)
    (h : finishStep S f t = .ok (f', t')) (c : Nat) (hc : c < S.ncells) (hcomp : S.comp c = true)
    (hair : ¬ (S.m.tp c = 30 ∨ S.m.tp c = 31)) (hw : Spec.Composition S.n (S.cell c).w)
    (hmin : 0 < S.env.minEta) (hlim : S.env.minEta ≤ S.env.maxEta) (hgs : ∀ p < S.n, 0 < (S.mats p).gsRef)
    (hel : S.env.el = true) (hb : (S.cell c).beta ≠ 0) (hdt : S.env.dt ≠ 0) (hsame : S.m.dt = S.env.dt) (o : Nat → Point.Out)
    (ho : ∀ p < S.n, 0 < (S.cell c).w p →
      Point.update S.env (S.mats p) (S.huet p) ((cellData S f t'.rates c).input S.env) true = .ok (o p))
    (hnot : ∀ p < S.n, 0 < (S.cell c).w p → (S.mats p).plast = true → ¬ AtMinimum S.env ((cellData S f t'.rates c).input S.env) (o p)) :
    (rows S (opsOf S t') f t').p c =
      (t'.rates.divu c - (t'.cells c).divEl - (t'.cells c).divPl - S.rhsP c) * (S.m.dx * S.m.dz)
    ∧ (t'.cells c).divEl = -((S.cell c).beta * (f'.p c - (S.cell c).P0) / S.env.dt) := by
  obtain ⟨h1, h2⟩ := finish_ok h
  obtain ⟨a1, -, -, -, -, a6, -, -, -⟩ := updateNL_ok h1
  have hs := (Point.grid_spec S.env S.mean S.n S.mats S.huet S.ncells S.nverts _ _ t.cells t.verts).1 _ _ a6
  obtain ⟨b1, b2, b3, b4⟩ := cell_pressure S f t'.rates c _ hair hw hmin hlim hgs hel hb hdt o ho (hs.1 c hc)
  have hp : f'.p c = (t'.cells c).pcorr := by rw [h2]; simp [LS.copyArr_apply, hc]
  have hpos : (0 : ℝ) < 1 / 10 ^ 13 := by positivity
  have hsum : (t'.cells c).pcorr = f.p c + S.env.dt / (S.cell c).beta * (t'.cells c).divPl := by
    rw [b2, b3]
    have hT : f.p c = ∑ p ∈ Finset.range S.n, (S.cell c).w p * f.p c := by rw [← Finset.sum_mul, hw.total, one_mul]
    conv_rhs => rw [hT]
    unfold Spec.share
    rw [Finset.mul_sum, ← Finset.sum_add_distrib]
    refine Finset.sum_congr rfl fun p hp => ?_
    beta_reduce
    rcases hw.each p (Finset.mem_range.1 hp) with h0 | h0
    · simp [h0]
    · have h0' := lt_trans hpos h0
      rcases b4 p (Finset.mem_range.1 hp) h0' with h5 | h5
      · rw [h5]; ring
      · exact absurd h5.2.1 (hnot p (Finset.mem_range.1 hp) h0' h5.1)
  refine ⟨?_, by rw [hp]; exact b1⟩
  simp only [rows, Resid.contResidual, hvol, hcomp, flag, if_true, Bool.false_eq_true, if_false, hsame]
  rw [b1, hsum]
  field_simp
  ring

/-- C148.  **Where it fails**: in a cell of a single phase whose stress was reset to the minimum (tension) the pressure is not corrected
but the plastic divergence of the abandoned return mapping is recorded: the row of the balance does not contain it, so the recorded parts
are off by it. -/
theorem reset_volume_gap (S : Setting) (hvol : S.vol = false) (f f' : LS.Fields) (t t' : Mech)
    (h : finishStep S f t = .ok (f', t')) (c : Nat) (hc : c < S.ncells) (hcomp : S.comp c = true)
    (hair : ¬ (S.m.tp c = 30 ∨ S.m.tp c = 31)) (hw : Spec.Composition S.n (S.cell c).w)
    (hmin : 0 < S.env.minEta) (hlim : S.env.minEta ≤ S.env.maxEta) (hgs : ∀ p < S.n, 0 < (S.mats p).gsRef)
    (hel : S.env.el = true) (hb : (S.cell c).beta ≠ 0) (hdt : S.env.dt ≠ 0) (hsame : S.m.dt = S.env.dt) (o : Nat → Point.Out)
    (ho : ∀ p < S.n, 0 < (S.cell c).w p →
      Point.update S.env (S.mats p) (S.huet p) ((cellData S f t'.rates c).input S.env) true = .ok (o p))
    (hreset : ∀ p < S.n, 0 < (S.cell c).w p → (o p).pcorr = f.p c) :
    (rows S (opsOf S t') f t').p c =
      (t'.rates.divu c - (t'.cells c).divEl - (t'.cells c).divPl - S.rhsP c) * (S.m.dx * S.m.dz)
        + (t'.cells c).divPl * (S.m.dx * S.m.dz) := by
  obtain ⟨h1, h2⟩ := finish_ok h
  obtain ⟨a1, -, -, -, -, a6, -, -, -⟩ := updateNL_ok h1
  have hs := (Point.grid_spec S.env S.mean S.n S.mats S.huet S.ncells S.nverts _ _ t.cells t.verts).1 _ _ a6
  obtain ⟨b1, b2, b3, b4⟩ := cell_pressure S f t'.rates c _ hair hw hmin hlim hgs hel hb hdt o ho (hs.1 c hc)
  have hpos : (0 : ℝ) < 1 / 10 ^ 13 := by positivity
  have hsum : (t'.cells c).pcorr = f.p c := by
    rw [b2]
    have hT : f.p c = ∑ p ∈ Finset.range S.n, (S.cell c).w p * f.p c := by rw [← Finset.sum_mul, hw.total, one_mul]
    conv_rhs => rw [hT]
    unfold Spec.share
    refine Finset.sum_congr rfl fun p hp => ?_
    beta_reduce
    rcases hw.each p (Finset.mem_range.1 hp) with h0 | h0
    · simp [h0]
    · rw [hreset p (Finset.mem_range.1 hp) (lt_trans hpos h0)]
  simp only [rows, Resid.contResidual, hvol, hcomp, flag, if_true, Bool.false_eq_true, if_false, hsame]
  rw [b1, hsum]
  field_simp
  ring

end Verif.StepFlow
