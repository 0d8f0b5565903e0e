import Verif.Props.StepSimpleShear
import Verif.Props.StressCycle

/- C165: an elastic body in simple shear.  The shear stress follows the Maxwell law through the markers; normal stresses, which the rotation of the material would make, never appear. -/
set_option linter.unusedSimpArgs false

namespace Verif.Spec

/-- A Maxwell body that turns with the flow (Jaumann rate), implicit Euler rule: strain rates `exx`, `ezz`, `exz`, vorticity `w = (dvx/dz - dvz/dx)/2`. -/
def Corotational (eta G dt exx ezz exz w : ℝ) (old new : Hist.Dev) : Prop :=
  (new.xx - old.xx) / dt = 2 * G * exx - G / eta * new.xx + 2 * w * new.xz
  ∧ (new.zz - old.zz) / dt = 2 * G * ezz - G / eta * new.zz - 2 * w * new.xz
  ∧ (new.xz - old.xz) / dt = 2 * G * exz - G / eta * new.xz + w * (new.zz - new.xx)

/-- The co-rotational law has normal stresses in simple shear. -/
example : Corotational 1 1 1 0 0 1 1 ⟨0, 0, 0⟩ ⟨1 / 2, -1 / 2, 1 / 2⟩ := by norm_num [Corotational]

end Verif.Spec

namespace Verif.StepFlow
open Verif Verif.Hist Finset

/-- A Maxwell body without weight in simple shear at the beginning of a step of length `dt`: all rock, the same everywhere, incompressible, markers everywhere, periodic sides. -/
structure ShearedBody (S : Setting) (C : Carriers) (eta G dt eps : ℝ) (x z zu : Nat → ℝ) (bu bv : Setup.Side ℝ) (x0 z0 : ℝ) : Prop where
  shear : SimpleShear S eps x z zu bu bv
  same : SameEverywhere S
  body : Maxwell S eta G
  markers : WellFed S C x0 z0
  seam : C.s.periodic = true ∧ C.s.fam.periodic = true ∧ C.vfam.periodic = true
  light : S.body.gx = 0 ∧ S.body.gz = 0
  vol : S.vol = false
  still : ∀ c, S.comp c = false ∧ S.rhsP c = 0
  dt : S.env.dt = dt

section
variable {S : Setting} {C : Carriers} {eta G dt eps : ℝ} {x z zu : Nat → ℝ} {bu bv : Setup.Side ℝ} {x0 z0 : ℝ} (h : ShearedBody S C eta G dt eps x z zu bu bv x0 z0)
include h

private theorem loadedShear {sig : Nat → Dev} {σ : Dev} (hs : Carry C sig σ) (b : OldStress) :
    SimpleShear (load S (toGrid S C sig b)) eps x z zu bu bv ∧ SameEverywhere (load S (toGrid S C sig b)) ∧ Maxwell (load S (toGrid S C sig b)) eta G
    ∧ (∀ c < S.ncells, ((load S (toGrid S C sig b)).cell c).old = ⟨σ.xx, σ.zz, σ.xz⟩) ∧ ∀ c < S.nverts, ((load S (toGrid S C sig b)).vert c).old = ⟨σ.xx, σ.zz, σ.xz⟩ := by
  obtain ⟨gc, gv⟩ := toGrid_uniform h.same h.markers hs b
  have s := h.shear
  have q := h.same
  have m := h.body
  have k := m.rocks
  have oc : ∀ c < S.ncells, ((load S (toGrid S C sig b)).cell c).old = ⟨σ.xx, σ.zz, σ.xz⟩ := fun c hc => by
    obtain ⟨e1, e2, e3⟩ := gc c hc
    simp only [load]; rw [e1, e2, e3]
  have ov : ∀ c < S.nverts, ((load S (toGrid S C sig b)).vert c).old = ⟨σ.xx, σ.zz, σ.xz⟩ := fun c hc => by
    obtain ⟨e1, e2, e3⟩ := gv c hc
    simp only [load]; rw [e1, e2, e3]
  have n0 : 0 < S.ncells := by
    have := q.Nx; have := q.Nz
    exact Nat.mul_pos (by omega) (by omega)
  have m0 : 0 < S.nverts := by
    have := q.Nx; have := q.Nz
    exact Nat.mul_pos (by omega) (by omega)
  refine ⟨⟨s.Nx, s.Nz, s.stepZ, s.rowsU, s.vx, s.vz, s.tu, s.tv, s.rock, s.per⟩,
    ⟨q.Nx, q.Nz, q.dx, q.dz, fun c hc => ?_, fun c hc => ?_, q.rock, q.rockV, q.stab⟩,
    ⟨⟨k.Nx, k.Nz, k.minEta, k.limits, k.dt, k.R, k.sE, k.sT, k.sS, k.sL, k.sEta, k.mixing, k.mats, k.cells, k.verts, k.touch⟩, m.elastic, m.later, m.visc, m.phases, m.cells,
      m.verts, m.stiff, m.ratio, m.ratio', m.low, m.high⟩, oc, ov⟩
  · have a1 := oc c hc
    have a2 := oc 0 n0
    have e := q.cells c hc
    simp only [load] at a1 a2 ⊢
    rw [a1, a2, e]
  · have a1 := ov c hc
    have a2 := ov 0 m0
    have e := q.verts c hc
    simp only [load] at a1 a2 ⊢
    rw [a1, a2, e]

private theorem recordedShear {sig : Nat → Dev} {σ : Dev} (hs : Carry C sig σ) (b : OldStress) {p0 : ℝ} {fin : Bool} {t o : Mech}
    (ho : updateNL (load S (toGrid S C sig b)) fin (sheared (load S (toGrid S C sig b)) eps zu p0) t = .ok o) :
    ∃ τ : Dev, (∀ c < S.ncells, (o.cells c).T = ⟨τ.xx, τ.zz, τ.xz⟩) ∧ (∀ c < S.nverts, (o.verts c).T.xz = τ.xz)
      ∧ Spec.BackwardEuler eta G dt 0 σ.xx τ.xx ∧ Spec.BackwardEuler eta G dt 0 σ.zz τ.zz ∧ Spec.BackwardEuler eta G dt eps σ.xz τ.xz := by
  obtain ⟨s, q, m, oc, ov⟩ := loadedShear h hs b
  have hdt : (load S (toGrid S C sig b)).env.dt = dt := h.dt
  have hnc : (load S (toGrid S C sig b)).ncells = S.ncells := rfl
  have hnv : (load S (toGrid S C sig b)).nverts = S.nverts := rfl
  have hel := m.elastic
  generalize hL : load S (toGrid S C sig b) = L at s q m oc ov hdt hnc hnv ho hel
  obtain ⟨r1, r2⟩ := patch_rates q (s.sampled p0) ho
  obtain ⟨t1, t2⟩ := maxwell_recorded m ho
  have z0 : (if L.m.oop then 3 / 2 * ((0 : ℝ) + 0) else 0 + 0) = 0 := by split_ifs <;> ring
  simp only [z0, mul_zero, sub_zero, add_zero, zero_div, ite_self] at r1 r2
  have half : 2 * eps / 2 = eps := by ring
  refine ⟨⟨2 * (eta * (G * L.env.dt) / (eta + G * L.env.dt)) * (0 + 1 * σ.xx / (L.env.dt * G) / 2),
    2 * (eta * (G * L.env.dt) / (eta + G * L.env.dt)) * (0 + 1 * σ.zz / (L.env.dt * G) / 2),
    2 * (eta * (G * L.env.dt) / (eta + G * L.env.dt)) * (eps + 1 * σ.xz / (L.env.dt * G) / 2)⟩, fun c hc => ?_, fun c hc => ?_, ?_⟩
  · rw [t1 c (by rw [hnc]; exact hc) (q.rock c)]
    have e := (r1 c (by rw [hnc]; exact hc)).2
    rw [Point.Tensor.mk.injEq, half] at e
    simp only [Point.nodeStress, Point.Node.eff, cellData, hel, if_true, oc c hc, e.1, e.2.1, e.2.2, m.cells c (by rw [hnc]; exact hc)]
  · rw [t2 c (by rw [hnv]; exact hc) (q.rockV c)]
    have e := r2 c (by rw [hnv]; exact hc)
    rw [Point.Tensor.mk.injEq, half] at e
    simp only [Point.nodeStress, Point.Node.eff, vertData, hel, if_true, ov c hc, e.2.2, m.verts c (by rw [hnv]; exact hc)]
  · rw [← hdt]
    exact ⟨maxwell_euler m _ _ _ rfl, maxwell_euler m _ _ _ rfl, maxwell_euler m _ _ _ rfl⟩

/-- C165 (the mechanical part).  If the markers carry one stress, a step that begins with the textbook flow is recorded with the same flow and pressure, after one evaluation and no solve, and the stress recorded is that
of one implicit Euler step of the Maxwell law. -/
theorem sheared_step {c : Time.LoopCfg ℝ} (hT : Tested S c) {sig : Nat → Dev} {σ : Dev} (hs : Carry C sig σ) (b : OldStress) (p0 : ℝ) (t : Mech) (solve : Solver) (E D P : ℝ) (q : Time.Res ℝ) (fuel : Nat) :
    ∃ (o : Mech) (τ : Dev), mechStep (load S (toGrid S C sig b)) (countedNorms (load S (toGrid S C sig b))) c solve false E D P x z zu ⟨bu.val, bv.val⟩ q (fuel + 1) (sheared S eps zu p0) t
        = some (.ok ⟨sheared S eps zu p0, o, ⟨0, 0, dt, 1, ⟨0, 0, 0⟩, ⟨0, 0, 0⟩⟩⟩)
      ∧ (∀ c < S.ncells, (o.cells c).T = ⟨τ.xx, τ.zz, τ.xz⟩) ∧ (∀ c < S.nverts, (o.verts c).T.xz = τ.xz)
      ∧ Spec.BackwardEuler eta G dt 0 σ.xx τ.xx ∧ Spec.BackwardEuler eta G dt 0 σ.zz τ.zz ∧ Spec.BackwardEuler eta G dt eps σ.xz τ.xz := by
  obtain ⟨s, k, m, -, -⟩ := loadedShear h hs b
  obtain ⟨a, ha⟩ := viscoelastic_goes_on _ m.rocks false (sheared (load S (toGrid S C sig b)) eps zu p0) t
  obtain ⟨o, ho⟩ := viscoelastic_goes_on _ m.rocks true (sheared (load S (toGrid S C sig b)) eps zu p0) a
  obtain ⟨τ, h1, h2, h3⟩ := recordedShear h hs b ho
  have hp := (viscoelastic_linear _ m.rocks true true _ _ a a o o ho ho).1
  have hfin : finishStep (load S (toGrid S C sig b)) (sheared (load S (toGrid S C sig b)) eps zu p0) a = .ok (sheared S eps zu p0, o) := by
    unfold finishStep
    rw [ho]
    dsimp only
    rw [Point.Outcome.ok.injEq, Prod.mk.injEq]
    refine ⟨?_, rfl⟩
    show _ = sheared (load S (toGrid S C sig b)) eps zu p0
    rw [LS.Fields.mk.injEq]
    refine ⟨rfl, rfl, funext fun i => ?_⟩
    rw [LS.copyArr_apply]
    split_ifs with w
    · exact (hp i w (k.rock i)).2
    · rfl
  have hdt : (load S (toGrid S C sig b)).env.dt = dt := h.dt
  have := settled_step (S := load S (toGrid S C sig b)) hT.dt ⟨hT.rows.1, hT.rows.2, hT.rows.3⟩ hT.mom hT.div hT.stag (simple_shear_kept s E D P p0) ha
    (simple_shear_settled s k h.light h.vol h.still ha) solve q fuel
  rw [hfin, hdt] at this
  exact ⟨o, τ, this, h1, h2, h3⟩
end

/-- One time step of such a body as the program makes it: stresses `sig` of the markers to the grid, start fields, loop and final update with whatever solver, changes back to the markers, which then carry `out`.  `rot` is the
switch of the stress rotation. -/
inductive ShearedStep (eta G dt eps : ℝ) (x z zu : Nat → ℝ) (bu bv : Setup.Side ℝ) (rot : Int) (S : Setting) (C : Carriers) (sig out : Nat → Dev) (f f' : LS.Fields) : Prop
  | mk {x0 z0 : ℝ} {b : OldStress} {c : Time.LoopCfg ℝ} {solve : Solver} {E D P : ℝ} {q : Time.Res ℝ} {fuel : Nat} {t o : Mech} {s : Time.LoopState ℝ} {sd : Int} {dtm : ℝ} {damp wxz : Nat → ℝ}
    (body : ShearedBody S C eta G dt eps x z zu bu bv x0 z0) (tested : Tested S c)
    (ran : mechStep (load S (toGrid S C sig b)) (countedNorms (load S (toGrid S C sig b))) c solve false E D P x z zu ⟨bu.val, bv.val⟩ q fuel f t = some (.ok ⟨f', o, s⟩)) (switch : sd = 0 ∨ sd = 1 ∨ sd = 2)
    (back : toMarkers S C sd rot dtm damp wxz o (toGrid S C sig b) sig = some out) : ShearedStep eta G dt eps x z zu bu bv rot S C sig out f f'

/-- C165 (one step). -/
theorem sheared_markers {eta G dt eps : ℝ} {x z zu : Nat → ℝ} {bu bv : Setup.Side ℝ} {rot : Int} {S : Setting} {C : Carriers} {sig out : Nat → Dev} {f' : LS.Fields} {p0 : ℝ}
    (h : ShearedStep eta G dt eps x z zu bu bv rot S C sig out (sheared S eps zu p0) f') {σ : Dev} (hs : Carry C sig σ) : f' = sheared S eps zu p0 ∧ ∃ τ : Dev, Carry C out τ
      ∧ Spec.BackwardEuler eta G dt 0 σ.xx τ.xx ∧ Spec.BackwardEuler eta G dt 0 σ.zz τ.zz ∧ Spec.BackwardEuler eta G dt eps σ.xz τ.xz := by
  obtain ⟨hB, hT, hran, hsd, hout⟩ := h
  rename_i x0 z0 b c solve E D P q fuel t o s sd dtm damp wxz
  obtain ⟨s', -⟩ := loadedShear hB hs b
  obtain ⟨⟨n, rfl⟩, -⟩ := mechStep_first (S := load S (toGrid S C sig b)) hT.dt hT.stag (simple_shear_kept s' E D P p0) hran
  obtain ⟨o1, τ, hm, tc, tv, e⟩ := sheared_step hB hT hs b p0 t solve E D P q n
  rw [hran] at hm
  simp only [Option.some.injEq, Point.Outcome.ok.injEq, StepEnd.mk.injEq] at hm
  obtain ⟨rfl, rfl, -⟩ := hm
  obtain ⟨gc, gv⟩ := toGrid_uniform hB.same hB.markers hs b
  obtain ⟨out', h1, h2⟩ := toMarkers_uniform hB.same hB.markers (o := o) (g := toGrid S C sig b) (fun c hc => ⟨(gc c hc).1, (gc c hc).2.1⟩) (fun c hc => (gv c hc).2.2)
    (fun c hc => by rw [tc c hc]; exact ⟨rfl, rfl⟩) tv hs hsd rot dtm damp wxz
  rw [hout] at h1
  simp only [Option.some.injEq] at h1
  exact ⟨rfl, τ, by rw [h1]; exact h2, e⟩

/-- C165 (the part that holds; missing: the stress turning with the material, which `sheared_not_corotational` disproves).  **Simple shear of an elastic body through the markers**: from rest, from the start fields the program makes, at a constant rate and step, with any solver, with any setting of the stress rotation, markers that move and
are replaced by copies: after any number of steps the shear stress of every marker is `2 η ε (1 - (1 + G dt/η)⁻ⁿ)`, the normal stresses are zero, and the velocity is that of simple shear at every node. -/
theorem sheared_loading_partial {eta G dt eps : ℝ} (h1 : 0 < eta) (h2 : 0 < G) (hdt : 0 < dt) {x z zu : Nat → ℝ} {bu bv : Setup.Side ℝ} (S : Nat → Setting) (C : Nat → Carriers) (rot : Nat → Int) (sig out : Nat → Nat → Dev)
    (f : Nat → LS.Fields) (hbox : ∀ n, (S n).m.Nx = (S 0).m.Nx ∧ (S n).m.Nz = (S 0).m.Nz) {P0 : ℝ} {rho : Nat → ℝ} {f0 : LS.Fields} (hstart : f 0 = runStart (S 0) eps 0 P0 x z zu ⟨bu.val, bv.val⟩ rho f0)
    (hstep : ∀ n, ShearedStep eta G dt eps x z zu bu bv (rot n) (S n) (C n) (sig n) (out n) (f n) (f (n + 1)))
    (hmove : ∀ n, ∀ k < (C (n + 1)).n, ((C (n + 1)).s.ms k).phase ≠ -1 → ∃ j < (C n).n, ((C n).s.ms j).phase ≠ -1 ∧ sig (n + 1) k = out n j)
    (hrest : Carry (C 0) (sig 0) ⟨0, 0, 0⟩) (n : Nat) :
    Carry (C n) (out n) ⟨0, 0, 2 * eta * eps * (1 - (1 / (1 + G * dt / eta)) ^ (n + 1))⟩ ∧ f n = sheared (S 0) eps zu P0 := by
  have same : ∀ n, sheared (S n) eps zu P0 = sheared (S 0) eps zu P0 := fun n => by
    unfold sheared
    rw [(hbox n).1, (hbox n).2]
  have start : f 0 = sheared (S 0) eps zu P0 := by
    obtain ⟨hB, -⟩ := hstep 0
    exact hstart.trans (simple_shear_run_start hB.shear hB.light.2 P0 rho f0)
  have step : ∀ n, f n = sheared (S 0) eps zu P0 → Carry (C n) (sig n) ⟨0, 0, 2 * eta * eps * (1 - (1 / (1 + G * dt / eta)) ^ n)⟩ →
      Carry (C n) (out n) ⟨0, 0, 2 * eta * eps * (1 - (1 / (1 + G * dt / eta)) ^ (n + 1))⟩ ∧ f (n + 1) = sheared (S 0) eps zu P0 := fun n hf hs => by
    have a := hstep n
    rw [hf, ← same n] at a
    obtain ⟨b, τ, c, e1, e2, e3⟩ := sheared_markers a hs
    rw [backwardEuler_iff h1 h2 hdt] at e1 e2 e3
    refine ⟨?_, by rw [b, same n]⟩
    have : τ = ⟨0, 0, 2 * eta * eps * (1 - (1 / (1 + G * dt / eta)) ^ (n + 1))⟩ := by
      rcases τ with ⟨a1, a2, a3⟩
      simp only [Dev.mk.injEq] at e1 e2 e3 ⊢
      refine ⟨by rw [e1]; simp, by rw [e2]; simp, ?_⟩
      rw [e3, pow_succ]
      have : eta + G * dt ≠ 0 := by positivity
      generalize (1 / (1 + G * dt / eta)) ^ n = w
      field_simp
      ring
    rw [← this]; exact c
  have all : ∀ n, f n = sheared (S 0) eps zu P0 ∧ Carry (C n) (sig n) ⟨0, 0, 2 * eta * eps * (1 - (1 / (1 + G * dt / eta)) ^ n)⟩ := fun n => by
    induction n with
    | zero => exact ⟨start, by simpa using hrest⟩
    | succ n ih =>
      obtain ⟨i1, i2⟩ := step n ih.1 ih.2
      refine ⟨i2, fun k hk hp => ?_⟩
      obtain ⟨j, hj, hp', q⟩ := hmove n k hk hp
      rw [q]; exact i1 j hj hp'
  exact ⟨(step n (all n).1 (all n).2).1, (all n).1⟩

/-- C165 (fault).  **The material does not turn with the flow**: whatever the switch of the stress rotation, the stresses of the markers before and after any step of such a run are not those of the co-rotational Maxwell law, whose vorticity
in this flow is `eps`. -/
theorem sheared_not_corotational {eta G dt eps : ℝ} (h1 : 0 < eta) (h2 : 0 < G) (hdt : 0 < dt) (he : 0 < eps) {x z zu : Nat → ℝ} {bu bv : Setup.Side ℝ} (S : Nat → Setting) (C : Nat → Carriers) (rot : Nat → Int)
    (sig out : Nat → Nat → Dev) (f : Nat → LS.Fields) (hbox : ∀ n, (S n).m.Nx = (S 0).m.Nx ∧ (S n).m.Nz = (S 0).m.Nz) {P0 : ℝ} {rho : Nat → ℝ} {f0 : LS.Fields}
    (hstart : f 0 = runStart (S 0) eps 0 P0 x z zu ⟨bu.val, bv.val⟩ rho f0)
    (hstep : ∀ n, ShearedStep eta G dt eps x z zu bu bv (rot n) (S n) (C n) (sig n) (out n) (f n) (f (n + 1)))
    (hmove : ∀ n, ∀ k < (C (n + 1)).n, ((C (n + 1)).s.ms k).phase ≠ -1 → ∃ j < (C n).n, ((C n).s.ms j).phase ≠ -1 ∧ sig (n + 1) k = out n j)
    (hrest : Carry (C 0) (sig 0) ⟨0, 0, 0⟩) (n : Nat) (k : Nat) (hk : k < (C (n + 1)).n) (hp : ((C (n + 1)).s.ms k).phase ≠ -1) :
    ¬ Spec.Corotational eta G dt 0 0 eps eps (sig (n + 1) k) (out (n + 1) k) := by
  have key := fun n => (sheared_loading_partial h1 h2 hdt S C rot sig out f hbox hstart hstep hmove hrest n).1
  obtain ⟨j, hj, hp', q⟩ := hmove n k hk hp
  rw [q, key n j hj hp', key (n + 1) k hk hp]
  rintro ⟨e, -⟩
  have lt : (1 / (1 + G * dt / eta)) ^ (n + 1 + 1) < 1 := by
    have : 0 < G * dt / eta := by positivity
    exact pow_lt_one₀ (by positivity) (by rw [div_lt_one (by positivity)]; linarith) (by omega)
  have : 0 < 2 * eps * (2 * eta * eps * (1 - (1 / (1 + G * dt / eta)) ^ (n + 1 + 1))) := by
    have : 0 < 1 - (1 / (1 + G * dt / eta)) ^ (n + 1 + 1) := by linarith
    positivity
  simp only [sub_zero, zero_div, mul_zero] at e
  linarith

/-- Markers on the vertices of a box with periodic sides. -/
noncomputable def onSeam (Nx Nz : Nat) (x0 z0 : ℝ) : Carriers :=
  { onVertices Nx Nz x0 z0 with
    s := { (onVertices Nx Nz x0 z0).s with periodic := true, fam := { (onVertices Nx Nz x0 z0).s.fam with periodic := true } }
    vfam := { (onVertices Nx Nz x0 z0).vfam with periodic := true } }

private theorem seam_weight (g : P2M.Fam ℝ) (h9 : g.stencil = 9) (hper : g.periodic = false) (ms : Nat → P2M.Mk ℝ) (n c r : Nat) : P2M.W g ms n c r ≤ P2M.W { g with periodic := true } ms n c r := by
  unfold P2M.W
  refine Finset.sum_le_sum fun k _ => ?_
  unfold P2M.markerWeight
  split_ifs
  · exact le_rfl
  · unfold P2M.nodeWeight
    rw [if_neg (by simp [hper]), if_pos ⟨h9, rfl⟩, h9]
    unfold P2M.kernel P2M.kernelPeriodic
    dsimp only
    have := P2M.hat_nonneg (((ms k).z - g.Z r) / P2M.itp 9 g.dz)
    have a := P2M.hat_nonneg (((ms k).x - g.Nx * g.dx - g.X c) / P2M.itp 9 g.dx)
    have b := P2M.hat_nonneg (((ms k).x + g.Nx * g.dx - g.X c) / P2M.itp 9 g.dx)
    exact mul_le_mul_of_nonneg_right (by linarith) this

/-- The hypotheses are met on every grid of at least five by five vertices. -/
theorem seam_body (Nx Nz : Nat) (hx : 5 ≤ Nx) (hz : 5 ≤ Nz) (eps x0 : ℝ) : ∃ x z zu bu bv S c,
    ShearedBody S (onSeam Nx Nz x0 (-(((Nz : ℝ) - 1) * 1000) / 2)) (10 ^ 21) (10 ^ 10) (10 ^ 11) eps x z zu bu bv x0 (-(((Nz : ℝ) - 1) * 1000) / 2) ∧ Tested S c := by
  obtain ⟨bu, hu, -⟩ := Setup.template_Vx (show 2 ≤ Nx by omega) 1 eps ((Nz - 1) * 1000) (fun k : Nat => x0 + k * 1000) (fun _ => 0) (fun _ => 0) (Nz := Nz)
  obtain ⟨bv, hv, -⟩ := Setup.template_Vz (show 1 ≤ Nx by omega) (show 2 ≤ Nz by omega) 1 eps (fun l : Nat => -(((Nz : ℝ) - 1) * 1000) / 2 + l * 1000) (fun _ => 0) (fun _ => 0)
  obtain ⟨h, v, hdt⟩ := seam_meets Nx Nz (by omega) (by omega) eps x0 hu hv
  have hS := seam_even Nx Nz (by omega) (by omega) bu.type bv.type
  have hT : Tested (seamSlab Nx Nz bu.type bv.type) (⟨10, 3, 0, 1, 2, 1, 1, 1, 1⟩ : Time.LoopCfg ℝ) := ⟨hdt, h.counted hx hz, one_pos, one_pos, by decide⟩
  obtain ⟨_, _, hM⟩ := slab_maxwell Nx Nz (by omega) (by omega) 0 x0 (-(((Nz : ℝ) - 1) * 1000) / 2)
  have w := hM.markers
  refine ⟨_, _, _, bu, bv, seamSlab Nx Nz bu.type bv.type, _, ⟨h, hS, ⟨v, rfl, rfl, fun _ _ => rfl, Nat.one_pos, fun _ _ => rfl, fun _ _ => rfl, by norm_num, ?_, ?_, ?_, ?_⟩,
    ⟨⟨w.cells.box, ⟨w.cells.p2m.stencil, w.cells.p2m.nx, w.cells.p2m.nz, w.cells.p2m.dx, w.cells.p2m.dz, w.cells.p2m.X, w.cells.p2m.Z, w.cells.p2m.xin, w.cells.p2m.zin⟩, w.cells.dist, w.cells.nx, w.cells.centres⟩,
      w.nx, w.nz, ⟨w.verts.stencil, w.verts.nx, w.verts.nz, w.verts.dx, w.verts.dz, w.verts.X, w.verts.Z, w.verts.xin, w.verts.zin⟩, w.vnx, w.vnz, w.inside,
      fun c hc r hr => ⟨le_trans (w.fedC c hc r hr).1 (seam_weight _ rfl rfl _ _ _ _), (w.fedC c hc r hr).2⟩, fun c hc r hr => ⟨le_trans (w.fedV c hc r hr).1 (seam_weight _ rfl rfl _ _ _ _), (w.fedV c hc r hr).2⟩⟩,
    ⟨rfl, rfl, rfl⟩, ⟨rfl, rfl⟩, rfl, fun _ => ⟨rfl, rfl⟩, rfl⟩, hT⟩
  · norm_num [seamSlab, stressedSlab, Point.settings]
  · norm_num [seamSlab, stressedSlab, Point.settings]
  · norm_num [seamSlab, stressedSlab, Point.settings]
  · norm_num [seamSlab, stressedSlab, Point.settings]

/-- The hypotheses of the two theorems are met: such a run exists on every grid of at least five by five vertices, for ever, with stress rotation switched on. -/
theorem seam_loading (Nx Nz : Nat) (hx : 5 ≤ Nx) (hz : 5 ≤ Nz) (eps x0 : ℝ) (solve : Solver) (t : Mech) (f0 : LS.Fields) : ∃ x z zu bu bv S C, ∃ sig out : Nat → Nat → Dev, ∃ f : Nat → LS.Fields,
    f 0 = runStart S eps 0 0 x z zu ⟨bu.val, bv.val⟩ (fun _ => 3000) f0 ∧ (∀ n, ShearedStep (10 ^ 21) (10 ^ 10) (10 ^ 11) eps x z zu bu bv 1 S C (sig n) (out n) (f n) (f (n + 1))) ∧ (∀ n, sig (n + 1) = out n)
    ∧ Carry C (sig 0) ⟨0, 0, 0⟩ ∧ C.n = Nx * Nz := by
  obtain ⟨x, z, zu, bu, bv, S, c, h, hT⟩ := seam_body Nx Nz hx hz eps x0
  have hn : (onSeam Nx Nz x0 (-(((Nz : ℝ) - 1) * 1000) / 2)).n = Nx * Nz := rfl
  generalize onSeam Nx Nz x0 (-(((Nz : ℝ) - 1) * 1000) / 2) = C at h hn
  have next : ∀ s : { sig : Nat → Dev // ∃ σ, Carry C sig σ }, ∃ out : { sig : Nat → Dev // ∃ σ, Carry C sig σ },
      ShearedStep (10 ^ 21) (10 ^ 10) (10 ^ 11) eps x z zu bu bv 1 S C s.1 out.1 (sheared S eps zu 0) (sheared S eps zu 0) := by
    rintro ⟨sig, σ, hs⟩
    obtain ⟨o, τ, hm, tc, tv, -⟩ := sheared_step h hT hs ⟨fun _ => 0, fun _ => 0, fun _ => 0, fun _ => 0, fun _ => 0, fun _ => 0⟩ 0 t solve 0 0 0 ⟨0, 0, 0⟩ 0
    obtain ⟨gc, gv⟩ := toGrid_uniform h.same h.markers hs ⟨fun _ => 0, fun _ => 0, fun _ => 0, fun _ => 0, fun _ => 0, fun _ => 0⟩
    obtain ⟨out, h1, h2⟩ := toMarkers_uniform h.same h.markers (o := o) (g := toGrid S C sig ⟨fun _ => 0, fun _ => 0, fun _ => 0, fun _ => 0, fun _ => 0, fun _ => 0⟩)
      (fun c hc => ⟨(gc c hc).1, (gc c hc).2.1⟩) (fun c hc => (gv c hc).2.2)
      (fun c hc => by rw [tc c hc]; exact ⟨rfl, rfl⟩) tv hs (sd := 1) (by decide) 1 (10 ^ 11) (fun _ => 1 / 2) (fun _ => -eps)
    exact ⟨⟨out, τ, h2⟩, .mk h hT hm (Or.inr (Or.inl rfl)) h1⟩
  choose g hg using next
  let seq : Nat → { sig : Nat → Dev // ∃ σ, Carry C sig σ } := fun n => Nat.rec ⟨fun _ => ⟨0, 0, 0⟩, ⟨0, 0, 0⟩, fun _ _ _ => rfl⟩ (fun _ s => g s) n
  exact ⟨x, z, zu, bu, bv, S, C, fun n => (seq n).1, fun n => (seq (n + 1)).1, fun _ => sheared S eps zu 0, (simple_shear_run_start h.shear h.light.2 0 _ f0).symm, fun n => hg (seq n), fun _ => rfl, fun _ _ _ => rfl, hn⟩

end Verif.StepFlow
