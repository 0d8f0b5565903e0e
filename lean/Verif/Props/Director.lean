import Verif.Model.Director
import Verif.Props.AnisoGrid
import Verif.Props.StressCycle
import Mathlib.Analysis.SpecialFunctions.Trigonometric.Arctan

/- C166: the stress of a layered rock depends on its layers only, not on the sign of directors nor on the angle kept on the grid; markers that enter get the layers of their neighbour, or those the set-up asks for. -/
set_option linter.unusedSimpArgs false

namespace Verif.Spec
open Verif

/-- Two directors belong to the same layers: a normal has no sign. -/
def SameLayers (n m : ℝ × ℝ) : Prop := m = n ∨ m = (-n.1, -n.2)

/-- The direction at angle `a` from the local horizontal at the place `(x, z)` of a planet centred at the origin, whose local vertical is `(x, z)` itself. -/
noncomputable def localDirection (a x z : ℝ) : ℝ × ℝ :=
  ((Real.cos a * z + Real.sin a * x) / Real.sqrt (x ^ 2 + z ^ 2), (-(Real.cos a * x) + Real.sin a * z) / Real.sqrt (x ^ 2 + z ^ 2))

end Verif.Spec

namespace Verif.Point
open Verif Verif.Spec

theorem layerRate_invariant (angle : ℝ) (e : Tensor) : invariant (layerRate angle e) = invariant e := by
  have hn : Real.cos (angle - Real.pi / 2) ^ 2 + Real.sin (angle - Real.pi / 2) ^ 2 = 1 := Real.cos_sq_add_sin_sq _
  obtain ⟨-, h⟩ := Aniso.rotate_invariants _ _ hn e.triple
  unfold invariant layerRate
  have : Aniso.layerOf angle = (Real.cos (angle - Real.pi / 2) * Real.cos (angle - Real.pi / 2), Real.cos (angle - Real.pi / 2) * Real.sin (angle - Real.pi / 2)) := rfl
  rw [this]
  simp only [Aniso.inv2, ofTriple, Tensor.triple] at h ⊢
  congr 1
  linarith

/-- Whatever a phase gives to the averages does not depend on the angle. -/
private theorem phaseStep_angle (v : Env) (a : Mean) (m : Nat → Mat) (w : Nat → ℝ) (i : In) (b b' ani : ℝ) (cell : Bool) (s : Outcome Stored) (p : Nat) :
    phaseStep a w (fun p => updateAniso v (m p) i b ani cell) s p = phaseStep a w (fun p => updateAniso v (m p) i b' ani cell) s p := by
  unfold phaseStep
  cases s with
  | exit c => rfl
  | nan => rfl
  | ok x =>
    dsimp only
    split
    · unfold updateAniso
      by_cases hl : (m p).lin = true ∧ 0 < (m p).linLaw.m ∧ i.d < 1 / 10 ^ 13 / v.sL
      · rw [if_pos hl, if_pos hl]
      · rw [if_neg hl, if_neg hl]
        simp only [layerRate_invariant]
        cases runAniso (creepAniso v (m p) i) (invariant i.E) (1 / 10 ^ 11) (10 ^ 100 / v.sEta) with
        | exit c => rfl
        | nan => rfl
        | ok e t =>
          dsimp only
          unfold finishAniso
          dsimp only
          by_cases h1 : Yields (m p) i t ∧ (i.beta = 0 ∨ plasticDenom v (m p) i e = 0 ∨ t - plasticRate v (m p) i e t * e = 0)
          · rw [if_pos h1, if_pos h1]
          · rw [if_neg h1, if_neg h1]
            split_ifs <;> rfl
    · rfl

/-- C166 (the angle on the grid).  **The angle kept on the grid has no influence**: what is recorded in a cell or at a vertex is the same for every value of it, for all materials, means and states. -/
theorem grid_angle_unused (v : Env) (a : Mean) (n : Nat) (m : Nat → Mat) (k : ANode) (b : ℝ) :
    ({ k with angle := b } : ANode).cell v a n m = k.cell v a n m ∧ ({ k with angle := b } : ANode).vertex v a n m = k.vertex v a n m := by
  have e : ∀ cell, phaseStep a k.w (fun p => updateAniso v (m p) (k.input v) b k.ani cell) = phaseStep a k.w (fun p => updateAniso v (m p) (k.input v) k.angle k.ani cell) := fun cell => by
    funext s p
    exact phaseStep_angle v a m k.w (k.input v) b k.angle k.ani cell s p
  constructor
  · show (if k.air = true then Outcome.ok Stored.zero else match forUp n (.ok Stored.zero) (phaseStep a k.w fun p => updateAniso v (m p) (k.input v) b k.ani true) with
      | .ok s => k.closeCell a (k.eff v) s | r => r) = _
    rw [e true]; rfl
  · show (if k.air = true then Outcome.ok Stored.zero else match forUp n (.ok Stored.zero) (phaseStep a k.w fun p => updateAniso v (m p) (k.input v) b k.ani false) with
      | .ok s => k.closeVertex a (k.eff v) s | r => r) = _
    rw [e false]; rfl

/-- C166 (stress).  **The stress recorded is that of the layers of the director functions**, whatever the angle kept on the grid. -/
theorem stress_of_layers (v : Env) (a : Mean) (n : Nat) (m : Nat → Mat) (k : ANode) (hr : k.air = false) (ha : k.ani ≠ 0) (b : ℝ) (h1 : k.d1 = Aniso.markerD1 (Real.cos b) (Real.sin b))
    (h2 : k.d2 = Aniso.markerD2 (Real.cos b) (Real.sin b)) (s : Stored) :
    (k.cell v a n m = .ok s → Layered b s.eta k.ani s.T (k.eff v)) ∧ (k.vertex v a n m = .ok s → Layered b s.eta k.ani s.T (k.eff v)) := by
  have st : ∀ eta e, Layered b eta k.ani (k.stress eta e) e := fun eta e => by
    have : k.stress eta e = layerStress b eta k.ani e := grid_stress ({ k with angle := b } : ANode) ⟨h1, h2⟩ ha eta e
    rw [this]; exact layerStress_layered _ _ _ ha _
  constructor
  · intro h
    unfold ANode.cell at h
    rw [hr, if_neg (by decide)] at h
    split at h
    · unfold ANode.closeCell at h
      split_ifs at h
      rw [Outcome.ok.injEq] at h
      rw [← h]; exact st _ _
    · next hne => exact absurd h (hne s)
  · intro h
    unfold ANode.vertex at h
    rw [hr, if_neg (by decide)] at h
    split at h
    · unfold ANode.closeVertex at h
      split_ifs at h
      rw [Outcome.ok.injEq] at h
      rw [← h]; exact st _ _
    · next hne => exact absurd h (hne s)

/-- C166.  **Markers with the same layers give the stress of these layers**: every marker in use has layers whose normal is at the angle `b`, its director pointing to either side; the director functions of a node fed by markers are interpolated as
the code does; then the stress recorded there is that of a layered rock at the angle `b`. -/
theorem stress_of_markers {g : P2M.Fam ℝ} {ms : Nat → P2M.Mk ℝ} {N : Nat} {x0 z0 : ℝ} (ok : P2M.Ok g ms N x0 z0) (hx : 2 ≤ g.Nx) {ls : List (List Nat)} (hd : Distribution N ls) (tag : Nat → Int) (f1 f2 : Nat → ℝ)
    (dir : Nat → ℝ × ℝ) (b : ℝ) (hdir : ∀ k < N, (ms k).phase ≠ -1 → SameLayers (Real.cos b, Real.sin b) (dir k)) (hfed : ∀ c < g.Nx, ∀ r < g.Nz, P2M.Fed g ms N tag c r) {c r : Nat} (hc : c < g.Nx) (hr : r < g.Nz)
    (v : Env) (a : Mean) (n : Nat) (m : Nat → Mat) (k : ANode) (hrock : k.air = false) (ha : k.ani ≠ 0)
    (h1 : k.d1 = P2M.field g Real.log Real.exp 0 ms (P2M.markVal (-1) (fun _ => 0) ms (fun k => (dir k).1) (fun k => (dir k).2)) ls tag f1 (c + r * g.Nx))
    (h2 : k.d2 = P2M.field g Real.log Real.exp 0 ms (P2M.markVal (-2) (fun _ => 0) ms (fun k => (dir k).1) (fun k => (dir k).2)) ls tag f2 (c + r * g.Nx)) (s : Stored) :
    (k.cell v a n m = .ok s → Layered b s.eta k.ani s.T (k.eff v)) ∧ (k.vertex v a n m = .ok s → Layered b s.eta k.ani s.T (k.eff v)) := by
  refine stress_of_layers v a n m k hrock ha b ?_ ?_ s
  · rw [h1]
    refine StepFlow.field_uniform ok hx hd tag f1 _ _ (fun j hj hp => ?_) hfed hc hr
    rcases hdir j hj hp with h | h
    · simp only [P2M.markVal, h, Aniso.markerD1]; norm_num
    · simp only [P2M.markVal, h, Aniso.markerD1]; norm_num
  · rw [h2]
    refine StepFlow.field_uniform ok hx hd tag f2 _ _ (fun j hj hp => ?_) hfed hc hr
    rcases hdir j hj hp with h | h
    · simp only [P2M.markVal, h, Aniso.markerD2]; norm_num
    · simp only [P2M.markVal, h, Aniso.markerD2]; norm_num

/-- A cell of two layered rocks whose layers have a normal at the angle `b`. -/
noncomputable def turnedCell (b : ℝ) : ANode := { halfHalf with angle := b, d1 := Aniso.markerD1 (Real.cos b) (Real.sin b), d2 := Aniso.markerD2 (Real.cos b) (Real.sin b), ani := 4 }

/-- The hypotheses of `stress_of_layers` are met at every angle `b` of the layers, with any angle `c` kept on the grid: the cell is recorded. -/
theorem turned_cell_recorded (a : Mean) (b c : ℝ) : ∃ s, ({ turnedCell b with angle := c } : ANode).cell (settings false) a 2 (fun p => viscous (if p = 0 then 10 ^ 21 else 3 * 10 ^ 21)) = .ok s
    ∧ Layered b s.eta 4 s.T ⟨1 / 10 ^ 15, -(1 / 10 ^ 15), 0⟩ ∧ 10 ^ 21 ≤ s.eta := by
  rw [(grid_angle_unused _ _ _ _ (turnedCell b) c).1]
  have heff : (turnedCell b).eff (settings false) = ⟨1 / 10 ^ 15, -(1 / 10 ^ 15), 0⟩ := by
    unfold ANode.eff; simp [settings, turnedCell, halfHalf]
  have hE : invariant ((turnedCell b).eff (settings false)) = 1 / 10 ^ 15 := by
    rw [heff]
    unfold invariant
    dsimp only
    rw [show (1 / 2 : ℝ) * (1 / 10 ^ 15 * (1 / 10 ^ 15) + -(1 / 10 ^ 15) * -(1 / 10 ^ 15) + -(1 / 10 ^ 15 + -(1 / 10 ^ 15)) * -(1 / 10 ^ 15 + -(1 / 10 ^ 15))) + 0 * 0 = (1 / 10 ^ 15) ^ 2 by norm_num,
      Real.sqrt_sq (by positivity)]
  have hEp : 0 < invariant ((turnedCell b).eff (settings false)) := by rw [hE]; positivity
  have hx : ∀ p : Nat, (0 : ℝ) < (if p = 0 then 10 ^ 21 else 3 * 10 ^ 21) ∧ (if p = 0 then (10 : ℝ) ^ 21 else 3 * 10 ^ 21) ≤ 10 ^ 100 / 1 := by
    intro p; split <;> norm_num
  have hup := fun p : Nat => aniso_constant (settings false) (viscous (if p = 0 then 10 ^ 21 else 3 * 10 ^ 21))
    ((turnedCell b).input (settings false)) (turnedCell b).angle (turnedCell b).ani rfl rfl rfl rfl rfl rfl (hx p).1 (hx p).2 hEp
  choose o ho using hup
  have good : GoodNode (settings false) 2 (fun p => viscous (if p = 0 then 10 ^ 21 else 3 * 10 ^ 21)) (turnedCell b) := by
    refine ⟨rfl, halfHalf_composition, hEp, fun p _ _ => ?_, fun p _ _ h => by simp [viscous] at h, fun p _ _ => ?_⟩
    · exact { dt := by simp only [settings]; positivity
              R := by simp only [settings]; norm_num
              sE := by simp only [settings]; positivity
              sT := by simp only [settings]; positivity
              sS := by simp only [settings]; positivity
              sEta := by simp only [settings]; positivity
              G := by simp only [ANode.input, Node.input, turnedCell, halfHalf]; positivity
              d := by simp only [ANode.input, Node.input, turnedCell, halfHalf]; positivity
              eta0 := (hx p).1
              pre := by simp only [viscous, rock]; positivity
              pwl := by simp [viscous, rock]
              lin := by simp [viscous, rock]
              exp := by simp [viscous, rock]
              gbs := rfl
              mix := by simp [viscous, rock]
              X := by simp [ANode.input, Node.input, turnedCell, halfHalf]
              some := Or.inr (Or.inl rfl) }
    · refine ⟨if p = 0 then 10 ^ 21 else 3 * 10 ^ 21, ?_, (hx p).2⟩
      unfold creepAniso
      simp [settings, viscous, rock, Env.el, LocalIter.isolated]
  obtain ⟨s, h1, -, -, h2, -, -, -, -, -, -, -, -, -, -, -, -, -, -, -, h3⟩ := aniso_cell (settings false) a 2 _ (turnedCell b) good ⟨rfl, rfl⟩ (by simp [turnedCell]) (by simp [turnedCell, halfHalf]) o
    fun p _ _ => (ho p).1
  refine ⟨s, h1, by rw [← heff]; exact h2, (h3 (10 ^ 21) (3 * 10 ^ 21) (by positivity) fun p _ _ => ?_).1⟩
  rw [(ho p).2.1]
  simp only [viscous]
  split <;> norm_num

/-- The hypotheses of `stress_of_markers` on the markers: one on every vertex, every second director reversed. -/
example (Nx Nz : Nat) (hx : 3 ≤ Nx) (hz : 2 ≤ Nz) (b : ℝ) : ∃ (x0 z0 : ℝ) (g : P2M.Fam ℝ) (ms : Nat → P2M.Mk ℝ) (N : Nat) (ls : List (List Nat)) (tag : Nat → Int) (dir : Nat → ℝ × ℝ), P2M.Ok g ms N x0 z0 ∧ 2 ≤ g.Nx ∧ Distribution N ls
    ∧ (∀ k < N, (ms k).phase ≠ -1 → SameLayers (Real.cos b, Real.sin b) (dir k)) ∧ (∀ c < g.Nx, ∀ r < g.Nz, P2M.Fed g ms N tag c r) ∧ dir 0 = (Real.cos b, Real.sin b) ∧ dir 1 = (-Real.cos b, -Real.sin b) := by
  obtain ⟨_, _, h⟩ := StepFlow.slab_maxwell Nx Nz hx hz 0 0 0
  refine ⟨_, _, _, _, _, _, _, fun k => if k % 2 = 0 then (Real.cos b, Real.sin b) else (-Real.cos b, -Real.sin b), h.markers.cells.p2m, h.markers.cells.nx, h.markers.cells.dist, fun k _ _ => ?_, h.markers.fedC, rfl, rfl⟩
  dsimp only
  split
  · exact Or.inl rfl
  · exact Or.inr rfl

end Verif.Point

namespace Verif.Aniso
open Verif Verif.Spec

/-- C166 (start).  The director of a marker is at the angle of the marker or of its phase, from the horizontal in a box and from the local horizontal on a planet. -/
theorem start_director (own polar : Bool) (mine rock x z : ℝ) (hz : polar = true → z ≠ 0) :
    SameLayers (if polar then localDirection (if own then mine else rock) x z else (Real.cos (if own then mine else rock), Real.sin (if own then mine else rock))) (startDirector own polar mine rock x z) := by
  unfold startDirector
  rw [initDirector_eq]
  generalize (if own then mine else rock) = a
  cases polar with
  | false => exact Or.inl rfl
  | true =>
    have hz := hz rfl
    simp only [if_true, Real.cos_sub, Real.sin_sub, Real.cos_arctan, Real.sin_arctan, localDirection]
    have q : 1 + (x / z) ^ 2 = (x ^ 2 + z ^ 2) / z ^ 2 := by field_simp; ring
    have pos : 0 < Real.sqrt (x ^ 2 + z ^ 2) := Real.sqrt_pos.2 (by positivity)
    rw [q, Real.sqrt_div (by positivity), Real.sqrt_sq_eq_abs]
    generalize Real.sqrt (x ^ 2 + z ^ 2) = r at pos
    rcases lt_or_gt_of_ne hz with h | h
    · right
      rw [abs_of_neg h]
      refine Prod.ext ?_ ?_ <;> (dsimp only; field_simp; ring)
    · left
      rw [abs_of_pos h]
      refine Prod.ext ?_ ?_
      · dsimp only
        field_simp
      · dsimp only
        field_simp
        ring

/-- C166 (entering markers).  Without a function of the set-up, or without angles of markers, an entering marker has the director of its neighbour. -/
theorem entering_copies_partial (own : Bool) (call : Option (ℝ → ℝ → Int → ℝ → ℝ)) (h : own = false ∨ call = none) (x z : ℝ) (phase : Int) (near : ℝ × ℝ) : enteringDirector own call x z phase near = near := by
  unfold enteringDirector
  rcases h with h | h
  · subst h; cases call <;> rfl
  · subst h; rfl

private theorem arccos_parts {near : ℝ × ℝ} (h : near.1 ^ 2 + near.2 ^ 2 = 1) : Real.cos (markerAngle near.1) = near.1 ∧ Real.sin (markerAngle near.1) = |near.2| := by
  refine ⟨Real.cos_arccos (by nlinarith [sq_nonneg near.2]) (by nlinarith [sq_nonneg near.2]), ?_⟩
  unfold markerAngle
  rw [Real.sin_arccos, show 1 - near.1 ^ 2 = near.2 ^ 2 by linarith, Real.sqrt_sq_eq_abs]

/-- C166 (fault).  A set-up that returns the angle it is offered means "as the neighbour": the entering marker has the layers of its neighbour **only if** the director of the neighbour points upwards or is vertical. -/
theorem entering_layers_iff (x z : ℝ) (phase : Int) {near : ℝ × ℝ} (h : near.1 ^ 2 + near.2 ^ 2 = 1) :
    SameLayers near (enteringDirector true (some fun _ _ _ a => a) x z phase near) ↔ 0 ≤ near.2 ∨ near.1 = 0 := by
  obtain ⟨n1, n2⟩ := near
  obtain ⟨e1, e2⟩ := arccos_parts h
  simp only [enteringDirector, if_true] at *
  rw [e1, e2]
  unfold SameLayers
  simp only [Prod.mk.injEq, true_and]
  constructor
  · rintro (h1 | ⟨h1, -⟩)
    · exact Or.inl (by rw [← h1]; exact abs_nonneg _)
    · exact Or.inr (by linarith)
  · rintro (h1 | h1)
    · exact Or.inl (abs_of_nonneg h1)
    · rcases le_total 0 n2 with h2 | h2
      · exact Or.inl (abs_of_nonneg h2)
      · exact Or.inr ⟨by rw [h1, neg_zero], abs_of_nonpos h2⟩

/-- C166 (fault).  Otherwise it has the mirror image of the layers of its neighbour. -/
theorem entering_mirrored (x z : ℝ) (phase : Int) {near : ℝ × ℝ} (h : near.1 ^ 2 + near.2 ^ 2 = 1) (hz : near.2 < 0) :
    enteringDirector true (some fun _ _ _ a => a) x z phase near = (near.1, -near.2) := by
  obtain ⟨e1, e2⟩ := arccos_parts h
  simp only [enteringDirector, if_true]
  rw [e1, e2, abs_of_neg hz]

/-- Such directors come about: one step of simple shear takes the director of upright layers there, at any rate and time step. -/
theorem shear_turns_downwards {dt g : ℝ} (h : 0 < dt * g) (x z : ℝ) (phase : Int) :
    let n := turnDirector dt 0 g 0 0 (startDirector false false 0 0 x z)
    n.1 ^ 2 + n.2 ^ 2 = 1 ∧ n.2 < 0 ∧ ¬ SameLayers n (enteringDirector true (some fun _ _ _ a => a) x z phase n) := by
  intro n
  have hs : startDirector false false 0 0 x z = (1, 0) := by
    unfold startDirector
    rw [initDirector_eq]
    simp
  have hn : n.1 ^ 2 + n.2 ^ 2 = 1 := by
    show (turnDirector dt 0 g 0 0 (startDirector false false 0 0 x z)).1 ^ 2 + (turnDirector dt 0 g 0 0 (startDirector false false 0 0 x z)).2 ^ 2 = 1
    rw [hs]; exact director_unit dt 0 g 0 0 (1, 0) (by norm_num)
  have e : n = (1 / Real.sqrt (1 + (dt * g) ^ 2), -(dt * g) / Real.sqrt (1 + (dt * g) ^ 2)) := by
    show turnDirector dt 0 g 0 0 (startDirector false false 0 0 x z) = _
    rw [hs]
    simp [turnDirector]
  have pos : 0 < Real.sqrt (1 + (dt * g) ^ 2) := Real.sqrt_pos.2 (by positivity)
  have h2 : n.2 < 0 := by rw [e]; exact div_neg_of_neg_of_pos (by linarith) pos
  refine ⟨hn, h2, fun hl => ?_⟩
  rcases (entering_layers_iff x z phase hn).1 hl with h3 | h3
  · linarith
  · rw [e] at h3
    simp only [div_eq_zero_iff, one_ne_zero, pos.ne', or_self] at h3

/-- C166 (fault).  On a planet a set-up with one angle for all rocks: a marker that enters has the layers of a marker that was there at the start only on the axis `x = 0`. -/
theorem entering_on_planet (a rock x z : ℝ) (hz : z ≠ 0) (phase : Int) (near : ℝ × ℝ) :
    SameLayers (startDirector true true a rock x z) (enteringDirector true (some fun _ _ _ _ => a) x z phase near) ↔ x = 0 := by
  unfold startDirector enteringDirector
  rw [initDirector_eq]
  simp only [if_true, SameLayers, Prod.mk.injEq]
  have key : Real.sin (Real.arctan (x / z)) = Real.sin a * Real.cos (a - Real.arctan (x / z)) - Real.cos a * Real.sin (a - Real.arctan (x / z)) := by
    rw [← Real.sin_sub]; congr 1; ring
  have zero : Real.sin (Real.arctan (x / z)) = 0 → x = 0 := fun h => by
    rw [Real.sin_arctan] at h
    have : 0 < Real.sqrt (1 + (x / z) ^ 2) := Real.sqrt_pos.2 (by positivity)
    rcases div_eq_zero_iff.1 h with h | h
    · rcases div_eq_zero_iff.1 h with h | h
      · exact h
      · exact absurd h hz
    · exact absurd h this.ne'
  constructor
  · rintro (⟨h1, h2⟩ | ⟨h1, h2⟩)
    · exact zero (by rw [key, ← h1, ← h2]; ring)
    · refine zero ?_
      rw [key, show Real.cos (a - Real.arctan (x / z)) = -Real.cos a by linarith, show Real.sin (a - Real.arctan (x / z)) = -Real.sin a by linarith]
      ring
  · rintro rfl
    simp

/-- A director that points downwards. -/
example : (3 / 5 : ℝ) ^ 2 + (-(4 / 5)) ^ 2 = 1 ∧ (-(4 / 5) : ℝ) < 0 := by norm_num

end Verif.Aniso
