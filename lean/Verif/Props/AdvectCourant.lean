import Verif.Props.Advect
import Verif.Props.Interp
import Verif.Props.Timestep

/-
C67: in one advection sub-step no marker moves further than the Courant fraction of the smallest
cell side (divided by 0.95): time-step selection, sub-stepping, velocity interpolation and the
Runge-Kutta update together.
-/
namespace Verif.Adv
open Verif
set_option linter.unusedSectionVars false

variable {K : Type*} [Field K] [LinearOrder K] [IsStrictOrderedRing K]

/-- The marker is at most `D` away from `(xA,zA)` in each direction, up to one periodic wrap, and
inside the box if active. -/
structure Near (B : Box K) (p : Bool) (xA zA D : K) (m : Marker K) : Prop where
  z : |m.z - zA| ≤ D
  x : |m.x - xA| ≤ D ∨ (p = true ∧
        (|m.x - (xA + (B.xmax - B.xmin))| ≤ D ∨ |m.x - (xA - (B.xmax - B.xmin))| ≤ D))
  lateral : p = true → B.xmin ≤ m.x ∧ m.x ≤ B.xmax
  inside : m.phase ≠ -1 → Inside B m

theorem dead_fixed (B : Box K) (p : Bool) (m : Marker K) (hm : m.phase = -1)
    (hx : p = true → B.xmin ≤ m.x ∧ m.x ≤ B.xmax) : isoutPart B p m = m := by
  unfold isoutPart wrapE wrapW
  cases p with
  | true =>
    obtain ⟨l, r⟩ := hx rfl
    simp only [if_true, if_neg (not_lt.mpr l), if_neg (not_lt.mpr r)]
    split_ifs
    · rw [← hm]
    · rfl
  | false =>
    simp only [Bool.false_eq_true, if_false]
    split_ifs
    · rw [← hm]
    · rfl

/-- Testing a marker that moved by at most `D` from inside the box. -/
theorem near_of_move (B : Box K) (hB : B.xmin < B.xmax) (p : Bool) (xA zA D : K)
    (hA : B.xmin ≤ xA ∧ xA ≤ B.xmax) (hD : D ≤ B.xmax - B.xmin) (m : Marker K)
    (hx : |m.x - xA| ≤ D) (hz : |m.z - zA| ≤ D) : Near B p xA zA D (isoutPart B p m) := by
  obtain ⟨_, _, ez, ex⟩ := deactivated_iff B p m
  have hx' := abs_le.mp hx
  have rng : B.xmin - (B.xmax - B.xmin) ≤ m.x ∧ m.x ≤ B.xmax + (B.xmax - B.xmin) :=
    ⟨by linarith [hA.1], by linarith [hA.2]⟩
  have wr : p = true → (isoutPart B p m).x = wrapE B (wrapW B m.x) := by
    intro hp
    subst hp
    unfold isoutPart
    simp only [if_true]
    split_ifs <;> rfl
  obtain ⟨w1, w2, w3, w4, w5⟩ := wrap_spec B hB m.x rng.1 rng.2
  refine ⟨by rw [ez]; exact hz, ?_, fun hp => by rw [wr hp]; exact ⟨w4, w5⟩,
    fun h => active_inside B hB p m (fun _ => rng) h⟩
  cases hp : p with
  | false =>
    subst hp
    rw [ex rfl]; exact Or.inl hx
  | true =>
    rw [← hp, wr hp]
    rcases lt_or_ge m.x B.xmin with h | h
    · refine Or.inr ⟨rfl, Or.inl ?_⟩
      rw [w1 h, show m.x + (B.xmax - B.xmin) - (xA + (B.xmax - B.xmin)) = m.x - xA by ring]
      exact hx
    · rcases lt_or_ge B.xmax m.x with h2 | h2
      · refine Or.inr ⟨rfl, Or.inr ?_⟩
        rw [w2 h2, show m.x - (B.xmax - B.xmin) - (xA - (B.xmax - B.xmin)) = m.x - xA by ring]
        exact hx
      · exact Or.inl (by rw [w3 h h2]; exact hx)

/-- One stage keeps the marker near its start. -/
theorem near_stage (B : Box K) (hB : B.xmin < B.xmax) (p : Bool) (xA zA D s : K) (V : K × K)
    (hA : B.xmin ≤ xA ∧ xA ≤ B.xmax) (hD : D ≤ B.xmax - B.xmin) (m : Marker K)
    (hm : Near B p xA zA D m) (h1 : |s * V.1| ≤ D) (h2 : |s * V.2| ≤ D) :
    Near B p xA zA D (isoutPart B p (shoot xA zA s V m)) := by
  by_cases h : m.phase = -1
  · have : shoot xA zA s V m = m := by unfold shoot; rw [if_neg (by simp [h])]
    rw [this, dead_fixed B p m h hm.lateral]
    exact hm
  · rw [shoot_active h]
    exact near_of_move B hB p xA zA D hA hD _ (by simpa using h1) (by simpa using h2)

theorem v2p_bounded (B : Box K) (p : Bool) (vel : K → K → K × K) (v xA zA D : K) (hv0 : 0 ≤ v)
    (hv : ∀ m : Marker K, Inside B m → |(vel m.x m.z).1| ≤ v ∧ |(vel m.x m.z).2| ≤ v) (m : Marker K)
    (hm : Near B p xA zA D m) : |(v2p vel m).1| ≤ v ∧ |(v2p vel m).2| ≤ v := by
  unfold v2p
  by_cases h : m.phase ≠ -1
  · rw [if_pos h]; exact hv m (hm.inside h)
  · rw [if_neg h]; simp [hv0]

/-- One Runge-Kutta step displaces an active marker by at most `dt` times the largest speed in each
direction (up to one periodic wrap), and leaves it inside the box or deactivated. -/
theorem rk4_displacement (B : Box K) (hB : B.xmin < B.xmax) (p : Bool) (vel : K → K → K × K) (v dt : K)
    (hv : ∀ m : Marker K, Inside B m → |(vel m.x m.z).1| ≤ v ∧ |(vel m.x m.z).2| ≤ v)
    (hdt : 0 ≤ dt) (hL : dt * v ≤ B.xmax - B.xmin) (m : Marker K) (h0 : Inside B m) :
    Near B p m.x m.z (dt * v) (rk4 B p vel dt m) := by
  have hv0 : 0 ≤ v := le_trans (abs_nonneg _) (hv m h0).1
  have hA : B.xmin ≤ m.x ∧ m.x ≤ B.xmax := ⟨h0.1, h0.2.1⟩
  have half : ∀ w : K, |w| ≤ v → |1 / 2 * dt * w| ≤ dt * v := by
    intro w hw
    rw [abs_mul, abs_of_nonneg (by positivity)]
    have := mul_le_mul_of_nonneg_left hw hdt
    have := mul_nonneg hdt (abs_nonneg w)
    linarith
  have full : ∀ w : K, |w| ≤ v → |1 * dt * w| ≤ dt * v := by
    intro w hw
    rw [one_mul, abs_mul, abs_of_nonneg hdt]
    exact mul_le_mul_of_nonneg_left hw hdt
  have n0 : Near B p m.x m.z (dt * v) m := by
    have : 0 ≤ dt * v := mul_nonneg hdt hv0
    exact ⟨by simpa using this, Or.inl (by simpa using this), fun _ => hA, fun _ => h0⟩
  have bA := v2p_bounded B p vel v _ _ _ hv0 hv m n0
  have n1 := near_stage B hB p m.x m.z (dt * v) (1 / 2 * dt) (v2p vel m) hA hL m n0 (half _ bA.1) (half _ bA.2)
  have bB := v2p_bounded B p vel v _ _ _ hv0 hv _ n1
  have n2 := near_stage B hB p m.x m.z (dt * v) (1 / 2 * dt) _ hA hL _ n1 (half _ bB.1) (half _ bB.2)
  have bC := v2p_bounded B p vel v _ _ _ hv0 hv _ n2
  have n3 := near_stage B hB p m.x m.z (dt * v) (1 * dt) _ hA hL _ n2 (full _ bC.1) (full _ bC.2)
  have bD := v2p_bounded B p vel v _ _ _ hv0 hv _ n3
  unfold rk4
  simp only
  set VA := v2p vel m
  set m1 := isoutPart B p (shoot m.x m.z (1 / 2 * dt) VA m)
  set VB := v2p vel m1
  set m2 := isoutPart B p (shoot m.x m.z (1 / 2 * dt) VB m1)
  set VC := v2p vel m2
  set m3 := isoutPart B p (shoot m.x m.z (1 * dt) VC m2)
  set VD := v2p vel m3
  have avg : ∀ a b c d : K, |a| ≤ v → |b| ≤ v → |c| ≤ v → |d| ≤ v →
      |dt * (1 / 6 * (a + 2 * b + 2 * c + d))| ≤ dt * v := by
    intro a b c d ha hb hc hd
    rw [abs_mul, abs_of_nonneg hdt]
    refine mul_le_mul_of_nonneg_left ?_ hdt
    rw [abs_le] at *
    constructor <;> linarith
  by_cases h : m3.phase = -1
  · rw [if_neg (by simp [h]), dead_fixed B p m3 h n3.lateral]
    exact n3
  · rw [if_pos h]
    exact near_of_move B hB p m.x m.z (dt * v) hA hL _ (by simpa using avg _ _ _ _ bA.1 bB.1 bC.1 bD.1)
      (by simpa using avg _ _ _ _ bA.2 bB.2 bC.2 bD.2)

variable [FloorRing K]

open Verif.Interp in
/-- The velocity grids as seen by `RogerGuntherII` (mesh.xg_coord, zvx_coord, xvz_coord, zg_coord;
AdvectionRoutines.c:371). -/
structure VelGrid (P : Time.StepParams K) (B : Box K) (xg zvx xvz zg : Int → K) : Prop where
  nx : 2 ≤ P.Nx
  nz : 2 ≤ P.Nz
  dx : 0 < P.dx
  dz : 0 < P.dz
  xg : Regular xg B.xmin P.dx
  zg : Regular zg B.zmin P.dz
  xvz : Regular xvz (B.xmin - P.dx / 2) P.dx
  zvx : Regular zvx (B.zmin - P.dz / 2) P.dz
  xmax : B.xmax = B.xmin + (P.Nx - 1) * P.dx
  zmax : B.zmax = B.zmin + (P.Nz - 1) * P.dz

open Verif.Interp in
/-- The interpolated velocity of `V2P` (plain interpolation, `conserv_interp = 0`). -/
def gridVel (P : Time.StepParams K) (xg zvx xvz zg : Int → K) (Vx Vz : Nat → K) (tu tv : Int → Int)
    (x z : K) : K × K :=
  (v2pVx P.Nx (P.Nz + 1 : Nat) xg zvx P.dx P.dz (fun n => Vx n.toNat) tu false x z,
   v2pVz (P.Nx + 1 : Nat) P.Nz xvz zg P.dx P.dz (fun n => Vz n.toNat) tv false x z)

open Verif.Interp in
/-- The interpolated velocity is bounded by the largest nodal speed everywhere in the box. -/
theorem gridVel_bounded (P : Time.StepParams K) (B : Box K) (xg zvx xvz zg : Int → K)
    (G : VelGrid P B xg zvx xvz zg) (Vx Vz : Nat → K) (tu tv : Int → Int) (v : K)
    (hu : ∀ c < (P.Nz + 1) * P.Nx, |Vx c| ≤ v) (hw : ∀ c < P.Nz * (P.Nx + 1), |Vz c| ≤ v)
    (m : Marker K) (hm : Inside B m) :
    |(gridVel P xg zvx xvz zg Vx Vz tu tv m.x m.z).1| ≤ v ∧
    |(gridVel P xg zvx xvz zg Vx Vz tu tv m.x m.z).2| ≤ v := by
  obtain ⟨h1, h2, h3, h4⟩ := hm
  rw [G.xmax] at h2
  rw [G.zmax] at h4
  have hdx := G.dx
  have hdz := G.dz
  have gu : InGrid P.Nx (P.Nz + 1) xg zvx B.xmin (B.zmin - P.dz / 2) P.dx P.dz m.x m.z :=
    { nx2 := G.nx, nz2 := by have := G.nz; omega, dxp := hdx, dzp := hdz, regX := G.xg, regZ := G.zvx,
      xlo := h1, xhi := h2, zlo := by linarith, zhi := by push_cast; linarith }
  have gv : InGrid (P.Nx + 1) P.Nz xvz zg (B.xmin - P.dx / 2) B.zmin P.dx P.dz m.x m.z :=
    { nx2 := by have := G.nx; omega, nz2 := G.nz, dxp := hdx, dzp := hdz, regX := G.xvz, regZ := G.zg,
      xlo := by linarith, xhi := by push_cast; linarith, zlo := h3, zhi := h4 }
  have nat : ∀ a b n : Nat, ((a : Int) + b * n).toNat = a + b * n := fun a b n => by
    rw [← Int.natCast_mul, ← Int.natCast_add, Int.toNat_natCast]
  constructor
  · obtain ⟨j, i, hj, hi, _, _, hb⟩ := velocity_between_nodes gu (fun n => Vx n.toNat) tu
    refine abs_le.mpr (hb (-v) v fun j' hj' i' hi' => ?_).1
    have hj2 : j' < P.Nx := by simp at hj'; omega
    have hi2 : i' < P.Nz + 1 := by simp at hi'; omega
    simp only [nat]
    refine abs_le.mp (hu _ ?_)
    calc j' + i' * P.Nx < P.Nx + i' * P.Nx := by omega
      _ = (i' + 1) * P.Nx := by ring
      _ ≤ (P.Nz + 1) * P.Nx := Nat.mul_le_mul_right _ (by omega)
  · obtain ⟨j, i, hj, hi, _, _, hb⟩ := velocity_between_nodes gv (fun n => Vz n.toNat) tv
    refine abs_le.mpr (hb (-v) v fun j' hj' i' hi' => ?_).2
    have hj2 : j' < P.Nx + 1 := by simp at hj'; omega
    have hi2 : i' < P.Nz := by simp at hi'; omega
    simp only [nat]
    refine abs_le.mp (hw _ ?_)
    calc j' + i' * (P.Nx + 1) < (P.Nx + 1) + i' * (P.Nx + 1) := by omega
      _ = (i' + 1) * (P.Nx + 1) := by ring
      _ ≤ P.Nz * (P.Nx + 1) := Nat.mul_le_mul_right _ (by omega)

/-- C67.  Let the time step be chosen by the Courant rule and advection be split accordingly.  If
something moves and the lower bound `dt_min` is not binding, then in each sub-step every active
marker is displaced by at most `Courant/0.95 * min(dx,dz)` in each direction (up to one periodic
wrap) and ends inside the box or deactivated. -/
theorem courant_limits_displacement (P : Time.StepParams K) (B : Box K) (xg zvx xvz zg : Int → K)
    (G : VelGrid P B xg zvx xvz zg) (p : Bool) (Vx Vz : Nat → K) (tu tv : Int → Int)
    (hc : P.constantDt = 0) (hC0 : 0 ≤ P.courant) (hC1 : P.courant ≤ 95 / 100)
    (mv : (∃ c < (P.Nz + 1) * P.Nx, 1 / 10 ^ 30 ≤ |Vx c|) ∨
      ∃ c < P.Nz * (P.Nx + 1), 1 / 10 ^ 30 ≤ |Vz c|)
    (hs : P.dtStart ≤ 10 ^ 30) (hmin : Time.evaluateCourant P Vx Vz ≠ P.dtMin)
    (dtSolve : K) (hsolve : 0 < dtSolve) (hpos : 0 < Time.evaluateCourant P Vx Vz)
    (dt : K) (hdt : dt ∈ (Time.advectionSplit dtSolve (Time.evaluateCourant P Vx Vz)).steps)
    (m : Marker K) (hm : Inside B m) :
    Near B p m.x m.z (P.courant * min P.dx P.dz / (95 / 100))
      (rk4 B p (gridVel P xg zvx xvz zg Vx Vz tu tv) dt m) := by
  obtain ⟨_, hsub, _, _⟩ := Time.substeps_cover_step dtSolve _ hsolve hpos
  obtain ⟨d0, d1⟩ := hsub dt hdt
  have sp := Time.vmax_spec P Vx Vz
  have hcou := (Time.dt_courant P Vx Vz hc hC0 G.dx G.dz mv hs).resolve_left hmin
  set v := Time.vmax P Vx Vz
  have hv0 : 0 ≤ v := by
    rcases mv with ⟨c, hc, h⟩ | ⟨c, hc, h⟩
    · exact le_trans (abs_nonneg _) (sp.x c hc)
    · exact le_trans (abs_nonneg _) (sp.z c hc)
  have hvd : v * Time.evaluateCourant P Vx Vz ≤ P.courant * min P.dx P.dz := by
    rcases sp.att with h | ⟨c, hc, h⟩ | ⟨c, hc, h⟩
    · rw [h, zero_mul]; exact mul_nonneg hC0 (le_of_lt (lt_min G.dx G.dz))
    · rw [← h]; exact hcou.1 c hc
    · rw [← h]; exact hcou.2.1 c hc
  have hD : dt * v ≤ P.courant * min P.dx P.dz / (95 / 100) := by
    calc dt * v ≤ Time.evaluateCourant P Vx Vz / (95 / 100) * v := mul_le_mul_of_nonneg_right d1 hv0
      _ = v * Time.evaluateCourant P Vx Vz / (95 / 100) := by ring
      _ ≤ P.courant * min P.dx P.dz / (95 / 100) := by gcongr
  have hL : P.courant * min P.dx P.dz / (95 / 100) ≤ B.xmax - B.xmin := by
    rw [G.xmax, div_le_iff₀ (by norm_num)]
    have h2 : (2 : K) ≤ P.Nx := by exact_mod_cast G.nx
    have hx := min_le_left P.dx P.dz
    have hp := le_of_lt (lt_min G.dx G.dz)
    calc P.courant * min P.dx P.dz ≤ 95 / 100 * min P.dx P.dz := mul_le_mul_of_nonneg_right hC1 hp
      _ ≤ 95 / 100 * P.dx := by linarith
      _ ≤ 95 / 100 * ((P.Nx - 1) * P.dx) := by
        have : 1 * P.dx ≤ (P.Nx - 1) * P.dx := mul_le_mul_of_nonneg_right (by linarith) (le_of_lt G.dx)
        linarith
      _ = _ := by ring
  have hB : B.xmin < B.xmax := by
    rw [G.xmax]
    have h2 : (2 : K) ≤ P.Nx := by exact_mod_cast G.nx
    have : 0 < ((P.Nx : K) - 1) * P.dx := mul_pos (by linarith) G.dx
    linarith
  have N := rk4_displacement B hB p (gridVel P xg zvx xvz zg Vx Vz tu tv) v dt
    (fun m hm => gridVel_bounded P B xg zvx xvz zg G Vx Vz tu tv v sp.x sp.z m hm) (le_of_lt d0)
    (le_trans hD hL) m hm
  exact ⟨le_trans N.z hD,
    N.x.imp (fun h => le_trans h hD) (fun ⟨h, h'⟩ => ⟨h, h'.imp (fun h => le_trans h hD) (fun h => le_trans h hD)⟩),
    N.lateral, N.inside⟩

/-- Concrete parameters: 3 by 3 vertices, unit cells, Courant 1/2. -/
def demoP : Time.StepParams ℚ :=
  { Nx := 3, Nz := 3, constantDt := 0, elastic := 0, surfaceProcesses := 0, chemicalDiffusion := 0,
    courant := 1 / 2, dx := 1, dz := 1, surfVinc := 0, dtReac := 0, dt0 := 1, dtStart := 1,
    dtMin := 0, dtMax := 10 }

/-- Non-vacuity: unit horizontal flow; the step is 1/2, split off a solver step of 1 into two. -/
example : VelGrid demoP ⟨0, 2, 0, 2⟩ (fun j => (j : ℚ)) (fun j => -1 / 2 + j) (fun j => -1 / 2 + j) (fun j => (j : ℚ)) ∧
    Time.evaluateCourant demoP (fun _ => 1) (fun _ => 0) = 1 / 2 ∧
    (Time.advectionSplit (1 : ℚ) (1 / 2)).steps = [1 / 2, 1 / 2] ∧
    (rk4 ⟨0, 2, 0, 2⟩ false (gridVel demoP (fun j => (j : ℚ)) (fun j => -1 / 2 + j) (fun j => -1 / 2 + j)
      (fun j => (j : ℚ)) (fun _ => 1) (fun _ => 0) (fun _ => -1) (fun _ => -1)) (1 / 2)
      ⟨1 / 2, 1, 0, 0, 0⟩).x = 1 := by
  refine ⟨⟨by decide, by decide, by norm_num [demoP], by norm_num [demoP], fun j => by simp [demoP],
    fun j => by simp [demoP], fun j => by norm_num [demoP], fun j => by norm_num [demoP],
    by norm_num [demoP], by norm_num [demoP]⟩, by decide +kernel, by decide +kernel, by decide +kernel⟩

/-- Non-vacuity of the re-entry and linear-flow theorems: rotation by a small angle. -/
example : (isoutPart (⟨0, 1, 0, 1⟩ : Box ℚ) true ⟨5 / 4, 1 / 2, 0, 0, 3⟩).x = 1 / 4 := by decide +kernel

example : StaysInside (⟨0, 4, 0, 4⟩ : Box ℚ) (fun x z => (0 * x + 1 * z + 0, 0 * x + 0 * z + 0)) 1
    ⟨1, 1, 0, 0, 0⟩ (1, 0) (1, 0) (1, 0) := by
  constructor <;> norm_num [Inside]

end Verif.Adv
