import Verif.Model.MovingBox
import Verif.Props.Advect
import Verif.Props.Interp
import Verif.Props.GridCoords
import Verif.Props.Setup
import Verif.Props.StepPureShear

/- C167: rock at walls that move with it. -/
set_option linter.unusedSectionVars false
set_option linter.unusedVariables false
set_option linter.unusedSimpArgs false
namespace Verif.Moving
open Verif Interp

section lines
variable {K : Type*} [Field K] [LinearOrder K] [IsStrictOrderedRing K] [FloorRing K]

private theorem clamp_range (n : Nat) (hn : 2 ≤ n) (j : Int) : ∃ k : Nat, clampIdx n j = k ∧ k + 2 ≤ n := by
  refine ⟨(clampIdx n j).toNat, ?_, ?_⟩ <;> unfold clampIdx <;> simp only <;> split_ifs <;> omega

/-- The cell chosen for a coordinate at or beyond the first line starts at or below it. -/
private theorem clamp_below (n : Nat) (hn : 2 ≤ n) (x x0 d : K) (hd : 0 < d) (hx : x0 ≤ x) :
    ((clampIdx n (cellOf x x0 d) : Int) : K) ≤ (x - x0) / d := by
  have h0 : 0 ≤ (x - x0) / d := div_nonneg (by linarith) hd.le
  have hc : ((cellOf x x0 d : Int) : K) < (x - x0) / d := by
    unfold cellOf
    have := Int.ceil_lt_add_one ((x - x0) / d)
    push_cast; linarith
  unfold clampIdx
  simp only
  by_cases a : cellOf x x0 d < 0
  · simp only [if_pos a]
    rw [if_neg (by omega)]
    simpa using h0
  · simp only [if_neg a]
    by_cases b : (n : Int) - 2 < cellOf x x0 d
    · rw [if_pos b]
      exact le_trans (by exact_mod_cast b.le) hc.le
    · rw [if_neg b]; exact hc.le

private theorem clamp_first (n : Nat) (hn : 2 ≤ n) (x x0 d : K) (hd : 0 < d) (hx : x ≤ x0) : clampIdx n (cellOf x x0 d) = 0 := by
  have h0 : (x - x0) / d ≤ 0 := div_nonpos_of_nonpos_of_nonneg (by linarith) hd.le
  have : ⌈(x - x0) / d⌉ ≤ 0 := Int.ceil_le.mpr (by simpa using h0)
  have c : cellOf x x0 d < 0 := by unfold cellOf; omega
  unfold clampIdx
  simp only [if_pos c]
  rw [if_neg (by omega)]

private theorem corner_get {α : Type*} (nx nz j i : Nat) (hj : j + 2 ≤ nx) (hi : i + 2 ≤ nz) (V : Int → α) :
    (corners nx j i).get V = ⟨V ((j : Int) + i * nx), V (((j + 1 : Nat) : Int) + i * nx), V ((j : Int) + ((i + 1 : Nat) : Int) * nx), V (((j + 1 : Nat) : Int) + ((i + 1 : Nat) : Int) * nx)⟩ := by
  unfold corners Quad.get
  simp only
  congr 2 <;> push_cast <;> ring

/-- A horizontal velocity that is the same in every row and a multiple of the coordinate at the columns: exact at and beyond the first column; before it, that of the mirror image in the first column. -/
private theorem vx_seen (nx nz : Nat) (hx : 2 ≤ nx) (hz : 2 ≤ nz) (X Z : Int → K) (x0 dx dz β x z : K) (hd : 0 < dx) (V : Int → K) (tag : Int → Int)
    (hX : ∀ j : Nat, j < nx → X j = x0 + j * dx) (ht : ∀ j < nx, ∀ i < nz, tag ((j : Int) + i * nx) ≠ 30)
    (hV : ∀ j < nx, ∀ i < nz, V ((j : Int) + i * nx) = β * (x0 + j * dx)) :
    (x0 ≤ x → v2pVx nx nz X Z dx dz V tag false x z = β * x) ∧ (x ≤ x0 → v2pVx nx nz X Z dx dz V tag false x z = β * (2 * x0 - x)) := by
  obtain ⟨j, hj, j2⟩ := clamp_range nx hx (cellOf x (X 0) dx)
  obtain ⟨i, hi, i2⟩ := clamp_range nz hz (cellOf z (Z 0) dz)
  have X0 : X 0 = x0 := by have := hX 0 (by omega); simpa using this
  have Xj := hX j (by omega)
  have val : v2pVx nx nz X Z dx dz V tag false x z = β * (x0 + j * dx) + β * |x - (x0 + j * dx)| := by
    unfold v2pVx
    simp only [hj, hi, corner_get nx nz j i j2 i2]
    rw [hV j (by omega) i (by omega), hV (j + 1) (by omega) i (by omega), hV j (by omega) (i + 1) (by omega), hV (j + 1) (by omega) (i + 1) (by omega)]
    unfold airFixX
    simp only [if_neg (ht j (by omega) i (by omega)), if_neg (ht (j + 1) (by omega) i (by omega)), if_neg (ht j (by omega) (i + 1) (by omega)), if_neg (ht (j + 1) (by omega) (i + 1) (by omega)),
      ht j (by omega) i (by omega), ht (j + 1) (by omega) i (by omega), ht j (by omega) (i + 1) (by omega), ht (j + 1) (by omega) (i + 1) (by omega), false_and, and_false, if_false, Bool.false_eq_true]
    rw [Xj]
    generalize |x - (x0 + ↑j * dx)| = a
    push_cast
    field_simp
    ring
  constructor
  · intro h
    have := clamp_below nx hx x x0 dx hd h
    rw [X0] at hj
    rw [hj, le_div_iff₀ hd] at this
    rw [val, abs_of_nonneg (by push_cast at this; linarith)]
    ring
  · intro h
    have := clamp_first nx hx x x0 dx hd h
    rw [X0] at hj
    rw [hj] at this
    have : j = 0 := by omega
    subst this
    rw [val, abs_of_nonpos (by push_cast; linarith)]
    push_cast; ring

/-- The same for the vertical velocity and the rows. -/
private theorem vz_seen (nx nz : Nat) (hx : 2 ≤ nx) (hz : 2 ≤ nz) (X Z : Int → K) (z0 dx dz β x z : K) (hdx : dx ≠ 0) (hd : 0 < dz) (V : Int → K) (tag : Int → Int)
    (hZ : ∀ j : Nat, j < nz → Z j = z0 + j * dz) (ht : ∀ j < nx, ∀ i < nz, tag ((j : Int) + i * nx) ≠ 30)
    (hV : ∀ j < nx, ∀ i < nz, V ((j : Int) + i * nx) = β * (z0 + i * dz)) :
    (z0 ≤ z → v2pVz nx nz X Z dx dz V tag false x z = β * z) ∧ (z ≤ z0 → v2pVz nx nz X Z dx dz V tag false x z = β * (2 * z0 - z)) := by
  obtain ⟨j, hj, j2⟩ := clamp_range nx hx (cellOf x (X 0) dx)
  obtain ⟨i, hi, i2⟩ := clamp_range nz hz (cellOf z (Z 0) dz)
  have Z0 : Z 0 = z0 := by have := hZ 0 (by omega); simpa using this
  have Zi := hZ i (by omega)
  have val : v2pVz nx nz X Z dx dz V tag false x z = β * (z0 + i * dz) + β * |z - (z0 + i * dz)| := by
    unfold v2pVz
    simp only [hj, hi, corner_get nx nz j i j2 i2]
    rw [hV j (by omega) i (by omega), hV (j + 1) (by omega) i (by omega), hV j (by omega) (i + 1) (by omega), hV (j + 1) (by omega) (i + 1) (by omega)]
    unfold airFixZ
    simp only [if_neg (ht j (by omega) i (by omega)), if_neg (ht (j + 1) (by omega) i (by omega)), if_neg (ht j (by omega) (i + 1) (by omega)), if_neg (ht (j + 1) (by omega) (i + 1) (by omega)),
      ht j (by omega) i (by omega), ht (j + 1) (by omega) i (by omega), ht j (by omega) (i + 1) (by omega), ht (j + 1) (by omega) (i + 1) (by omega), false_and, and_false, if_false, Bool.false_eq_true]
    rw [Zi]
    generalize |z - (z0 + ↑i * dz)| = a
    generalize |x - X ↑j| = c
    push_cast
    field_simp
    ring
  constructor
  · intro h
    have := clamp_below nz hz z z0 dz hd h
    rw [Z0] at hi
    rw [hi, le_div_iff₀ hd] at this
    rw [val, abs_of_nonneg (by push_cast at this; linarith)]
    ring
  · intro h
    have := clamp_first nz hz z z0 dz hd h
    rw [Z0] at hi
    rw [hi] at this
    have : i = 0 := by omega
    subst this
    rw [val, abs_of_nonpos (by push_cast; linarith)]
    push_cast; ring

end lines

section box
variable {K : Type*} [Field K] [LinearOrder K] [IsStrictOrderedRing K] [FloorRing K]

/-- The flow and the tags of a body deformed uniformly in the box `b`, free of air: the horizontal velocity is `-ex x`, the vertical velocity `ez z`, at every node, and the normal velocities of the four sides are prescribed. -/
structure InFlow (Nx Nz : Nat) (ex ez : K) (b : Setup.Box K) (s : Setup.Sides K) : Prop where
  u : ∀ k < Nx, ∀ l < Nz + 1, s.u (k + l * Nx) = -ex * (b.xmin + k * ((b.xmax - b.xmin) / ((Nx : K) - 1)))
  v : ∀ k < Nx + 1, ∀ l < Nz, s.v (k + l * (Nx + 1)) = ez * (b.zmin + l * ((b.zmax - b.zmin) / ((Nz : K) - 1)))
  airU : ∀ k < Nx, ∀ l < Nz + 1, s.tu (k + l * Nx) ≠ 30
  airV : ∀ k < Nx + 1, ∀ l < Nz, s.tv (k + l * (Nx + 1)) ≠ 30
  sideX : s.tu (0 + 1 * Nx) = 0 ∧ s.tu ((Nx - 1) + 1 * Nx) = 0
  sideZ : s.tv (1 + 0 * (Nx + 1)) = 0 ∧ s.tv (1 + (Nz - 1) * (Nx + 1)) = 0

/-- The same for pure shear: the two rates are equal.
This is what the set-up functions that come with the code prescribe (C48) and what the mechanical solver returns (C154, C160). -/
abbrev InPureShear (Nx Nz : Nat) (eps : K) (b : Setup.Box K) (s : Setup.Sides K) : Prop := InFlow Nx Nz eps eps b s

variable {Nx Nz : Nat} {eps ex ez dt : K} {b : Setup.Box K} {s : Setup.Sides K}

/-- Every side of the box moves with the rock it touches. -/
theorem sides_move (hx : 2 ≤ Nx) (hz : 2 ≤ Nz) (h : InFlow Nx Nz ex ez b s) (c : Grid.Coords K) (m : Adv.Marker K) :
    let b' := (moveWithBox Nx Nz dt s c b m).1
    b'.xmin = b.xmin * (1 - ex * dt) ∧ b'.xmax = b.xmax * (1 - ex * dt) ∧ b'.zmin = b.zmin * (1 + ez * dt) ∧ b'.zmax = b.zmax * (1 + ez * dt) := by
  have nx : ((Nx : K) - 1) ≠ 0 := by
    have : (2 : K) ≤ Nx := by exact_mod_cast hx
    intro e; linarith
  have nz : ((Nz : K) - 1) ≠ 0 := by
    have : (2 : K) ≤ Nz := by exact_mod_cast hz
    intro e; linarith
  have w : Setup.meanOver Nz (fun j => 0 + j * Nx) (fun c => decide (s.tu c = 0)) s.u = -ex * b.xmin :=
    Setup.meanOver_const _ _ _ _ _ (fun j hj _ => by rw [h.u 0 (by omega) j (by omega)]; simp) ⟨1, by omega, by simpa using h.sideX.1⟩
  have e : Setup.meanOver Nz (fun j => (Nx - 1) + j * Nx) (fun c => decide (s.tu c = 0)) s.u = -ex * b.xmax :=
    Setup.meanOver_const _ _ _ _ _ (fun j hj _ => by
      rw [h.u (Nx - 1) (by omega) j (by omega), Nat.cast_sub (by omega)]; push_cast; rw [mul_div_cancel₀ _ nx]; ring) ⟨1, by omega, by simpa using h.sideX.2⟩
  have so : Setup.meanOver Nx (fun i => i + 0 * (Nx + 1)) (fun c => decide (s.tv c = 0)) s.v = ez * b.zmin :=
    Setup.meanOver_const _ _ _ _ _ (fun j hj _ => by rw [h.v j (by omega) 0 (by omega)]; simp) ⟨1, by omega, by simpa using h.sideZ.1⟩
  have no : Setup.meanOver Nx (fun i => i + (Nz - 1) * (Nx + 1)) (fun c => decide (s.tv c = 0 ∨ s.tv c = 30)) s.v = ez * b.zmax :=
    Setup.meanOver_const _ _ _ _ _ (fun j hj _ => by
      rw [h.v j (by omega) (Nz - 1) (by omega), Nat.cast_sub (by omega)]; push_cast; rw [mul_div_cancel₀ _ nz]; ring) ⟨1, by omega, by simp [h.sideZ.2]⟩
  simp only [moveWithBox, Setup.pureShearALE, Bool.false_eq_true, if_false, w, e, so, no]
  exact ⟨by ring, by ring, by ring, by ring⟩


/-- What the markers see: the arrays hold the velocities of the old grid lines, the lines have moved. -/
theorem seen (hx : 2 ≤ Nx) (hz : 2 ≤ Nz) (h : InFlow Nx Nz ex ez b s) (wX : b.xmin < b.xmax) (wZ : b.zmin < b.zmax)
    (hm : 0 < 1 - ex * dt) (hp : 0 < 1 + ez * dt) (c : Grid.Coords K) (m : Adv.Marker K) (b' : Setup.Box K) (eb : b' = (moveWithBox Nx Nz dt s c b m).1) (x z : K) :
    let V := seenVelocity Nx Nz s (Grid.setGridCoordinates b'.xmin b'.xmax b'.zmin b'.zmax Nx Nz c) x z
    (b'.xmin ≤ x → V.1 = -(ex / (1 - ex * dt)) * x) ∧ (x ≤ b'.xmin → V.1 = -(ex / (1 - ex * dt)) * (2 * b'.xmin - x)) ∧ (b'.zmin ≤ z → V.2 = ez / (1 + ez * dt) * z) ∧ (z ≤ b'.zmin → V.2 = ez / (1 + ez * dt) * (2 * b'.zmin - z)) := by
  obtain ⟨e1, e2, e3, e4⟩ := sides_move hx hz h c m (dt := dt)
  rw [← eb] at e1 e2 e3 e4
  have nx : (0 : K) < (Nx : K) - 1 := by
    have : (2 : K) ≤ Nx := by exact_mod_cast hx
    linarith
  have nz : (0 : K) < (Nz : K) - 1 := by
    have : (2 : K) ≤ Nz := by exact_mod_cast hz
    linarith
  set g := Grid.setGridCoordinates b'.xmin b'.xmax b'.zmin b'.zmax Nx Nz c with hg
  obtain ⟨l1, l2⟩ := Grid.grid_lines b'.xmin b'.xmax b'.zmin b'.zmax Nx Nz hx hz c
  have gdx : g.dx = (b.xmax - b.xmin) / ((Nx : K) - 1) * (1 - ex * dt) := by
    show (b'.xmax - b'.xmin) / ((Nx : K) - 1) = _
    rw [e1, e2]; field_simp
  have gdz : g.dz = (b.zmax - b.zmin) / ((Nz : K) - 1) * (1 + ez * dt) := by
    show (b'.zmax - b'.zmin) / ((Nz : K) - 1) = _
    rw [e3, e4]; field_simp
  have dxp : 0 < g.dx := by rw [gdx]; exact mul_pos (div_pos (by linarith) nx) hm
  have dzp : 0 < g.dz := by rw [gdz]; exact mul_pos (div_pos (by linarith) nz) hp
  have U := vx_seen Nx (Nz + 1) hx (by omega) (fun j => g.xg j.toNat) (fun i => g.zvx i.toNat) b'.xmin g.dx g.dz (-(ex / (1 - ex * dt))) x z dxp (fun n => s.u n.toNat) (fun n => s.tu n.toNat)
    (fun j hj => by simpa using l1 j hj) (fun j hj i hi => by
      have : ((j : Int) + (i : Int) * (Nx : Int)).toNat = j + i * Nx := by exact_mod_cast Int.toNat_natCast (j + i * Nx)
      simp only [this]
      exact h.airU j hj i hi) (fun j hj i hi => by
      have : ((j : Int) + (i : Int) * (Nx : Int)).toNat = j + i * Nx := by exact_mod_cast Int.toNat_natCast (j + i * Nx)
      simp only [this]
      rw [h.u j hj i hi, e1, gdx]
      field_simp)
  have W := vz_seen (Nx + 1) Nz (by omega) hz (fun j => g.xvz j.toNat) (fun i => g.zg i.toNat) b'.zmin g.dx g.dz (ez / (1 + ez * dt)) x z dxp.ne' dzp (fun n => s.v n.toNat) (fun n => s.tv n.toNat)
    (fun j hj => by simpa using l2 j hj) (fun j hj i hi => by
      have : ((j : Int) + (i : Int) * ((Nx + 1 : Nat) : Int)).toNat = j + i * (Nx + 1) := by exact_mod_cast Int.toNat_natCast (j + i * (Nx + 1))
      simp only [this]
      exact h.airV j hj i hi) (fun j hj i hi => by
      have : ((j : Int) + (i : Int) * ((Nx + 1 : Nat) : Int)).toNat = j + i * (Nx + 1) := by exact_mod_cast Int.toNat_natCast (j + i * (Nx + 1))
      simp only [this]
      rw [h.v j hj i hi, e3, gdz]
      field_simp)
  exact ⟨U.1, U.2, W.1, W.2⟩

private theorem dead_out (B : Adv.Box K) (m : Adv.Marker K) (hm : m.phase = -1) : (Adv.isoutPart B false m).phase = -1 := by
  unfold Adv.isoutPart
  simp only [Bool.false_eq_true, if_false]
  split_ifs
  · rfl
  · exact hm

private theorem dead_shoot (xA zA r : K) (V : K × K) (m : Adv.Marker K) (hm : m.phase = -1) : (Adv.shoot xA zA r V m).phase = -1 := by
  unfold Adv.shoot; rw [if_neg (by simp [hm])]; exact hm

/-- A marker found outside the box after the first half step is switched off for good. -/
private theorem first_out (B : Adv.Box K) (vel : K → K → K × K) (dt : K) (m : Adv.Marker K) (hm : m.phase ≠ -1)
    (ho : (m.x + 1 / 2 * dt * (vel m.x m.z).1 < B.xmin ∨ B.xmax < m.x + 1 / 2 * dt * (vel m.x m.z).1) ∨ (m.z + 1 / 2 * dt * (vel m.x m.z).2 < B.zmin ∨ B.zmax < m.z + 1 / 2 * dt * (vel m.x m.z).2)) : (Adv.rk4 B false vel dt m).phase = -1 := by
  have h1 : (Adv.isoutPart B false (Adv.shoot m.x m.z (1 / 2 * dt) (Adv.v2p vel m) m)).phase = -1 := by
    have ev : Adv.v2p vel m = vel m.x m.z := by unfold Adv.v2p; rw [if_pos hm]
    rw [ev, Adv.shoot_active hm]
    unfold Adv.isoutPart
    simp only [Bool.false_eq_true, if_false]
    rw [if_pos (by rcases ho with (ho | ho) | (ho | ho); exacts [Or.inl ho, Or.inr (Or.inl ho), Or.inr (Or.inr (Or.inl ho)), Or.inr (Or.inr (Or.inr ho))])]
  unfold Adv.rk4
  simp only
  have h3 := dead_out B _ (dead_shoot m.x m.z (1 * dt) (Adv.v2p vel (Adv.isoutPart B false (Adv.shoot m.x m.z (1 / 2 * dt) (Adv.v2p vel (Adv.isoutPart B false (Adv.shoot m.x m.z (1 / 2 * dt) (Adv.v2p vel m) m))) (Adv.isoutPart B false (Adv.shoot m.x m.z (1 / 2 * dt) (Adv.v2p vel m) m))))) _
    (dead_out B _ (dead_shoot m.x m.z (1 / 2 * dt) (Adv.v2p vel (Adv.isoutPart B false (Adv.shoot m.x m.z (1 / 2 * dt) (Adv.v2p vel m) m))) _ h1)))
  rw [if_neg (not_not.mpr h3)]
  exact dead_out B _ h3

/-- C167 (loss).  Of a body shortened horizontally by pure shear, an active marker of the box is switched off by the step whenever it lies within a strip along either side wall; the strip at the left wall is not the mirror image of the one at the right wall. -/
theorem strip_lost (hx : 2 ≤ Nx) (hz : 2 ≤ Nz) (h : InFlow Nx Nz ex ez b s) (wX : b.xmin < b.xmax) (wZ : b.zmin < b.zmax) (h0 : 0 < ex * dt) (h1 : ex * dt < 1) (hp1 : 0 < 1 + ez * dt)
    (c : Grid.Coords K) (m : Adv.Marker K) (hm : m.phase ≠ -1) :
    (b.xmax * (1 - ex * dt) ≤ m.x → b.xmax * (1 - ex * dt) < m.x * (1 - ex * dt / (2 * (1 - ex * dt))) → (moveWithBox Nx Nz dt s c b m).2.phase = -1) ∧
    (m.x ≤ b.xmin * (1 - ex * dt) → m.x * (1 + ex * dt / (2 * (1 - ex * dt))) < b.xmin → (moveWithBox Nx Nz dt s c b m).2.phase = -1) := by
  have hm1 : 0 < 1 - ex * dt := by linarith
  obtain ⟨e1, e2, e3, e4⟩ := sides_move hx hz h c m (dt := dt)
  obtain ⟨s1, s2, -⟩ := seen hx hz h wX wZ hm1 (by linarith) c m (Setup.pureShearALE Nx Nz dt false false 0 0 0 s b) rfl m.x m.z
  constructor
  · intro a l
    refine first_out _ _ _ _ hm (Or.inl (Or.inr ?_))
    have := s1 (by show (moveWithBox Nx Nz dt s c b m).1.xmin ≤ _; rw [e1]; nlinarith)
    show (moveWithBox Nx Nz dt s c b m).1.xmax < m.x + 1 / 2 * dt * (seenVelocity Nx Nz s _ m.x m.z).1
    rw [this, e2]
    calc b.xmax * (1 - ex * dt) < _ := l
      _ = _ := by field_simp; ring
  · intro a l
    refine first_out _ _ _ _ hm (Or.inl (Or.inl ?_))
    have := s2 (by show _ ≤ (moveWithBox Nx Nz dt s c b m).1.xmin; rw [e1]; exact a)
    show m.x + 1 / 2 * dt * (seenVelocity Nx Nz s _ m.x m.z).1 < (moveWithBox Nx Nz dt s c b m).1.xmin
    rw [this, e1]
    show m.x + 1 / 2 * dt * (-(ex / (1 - ex * dt)) * (2 * (moveWithBox Nx Nz dt s c b m).1.xmin - m.x)) < _
    rw [e1]
    have e : m.x + 1 / 2 * dt * (-(ex / (1 - ex * dt)) * (2 * (b.xmin * (1 - ex * dt)) - m.x)) = m.x * (1 + ex * dt / (2 * (1 - ex * dt))) - b.xmin * (ex * dt) := by
      have t : ex / (1 - ex * dt) * (b.xmin * (1 - ex * dt)) = ex * b.xmin := by field_simp
      have t2 : ex * dt / (2 * (1 - ex * dt)) = 1 / 2 * (dt * (ex / (1 - ex * dt))) := by field_simp
      rw [t2]
      linear_combination (-dt) * t
    rw [e]; linarith


/-- C167 (loss, horizontal extension).  The same at the top and the bottom of a body that is shortened vertically: `ez` is negative. -/
theorem strip_lost_vertical (hx : 2 ≤ Nx) (hz : 2 ≤ Nz) (h : InFlow Nx Nz ex ez b s) (wX : b.xmin < b.xmax) (wZ : b.zmin < b.zmax) (h0 : ez * dt < 0) (h1 : -1 < ez * dt) (hm1 : 0 < 1 - ex * dt)
    (c : Grid.Coords K) (m : Adv.Marker K) (hm : m.phase ≠ -1) :
    (b.zmax * (1 + ez * dt) ≤ m.z → b.zmax * (1 + ez * dt) < m.z * (1 + ez * dt / (2 * (1 + ez * dt))) → (moveWithBox Nx Nz dt s c b m).2.phase = -1) ∧
    (m.z ≤ b.zmin * (1 + ez * dt) → m.z * (1 - ez * dt / (2 * (1 + ez * dt))) < b.zmin → (moveWithBox Nx Nz dt s c b m).2.phase = -1) := by
  have hp1 : 0 < 1 + ez * dt := by linarith
  obtain ⟨e1, e2, e3, e4⟩ := sides_move hx hz h c m (dt := dt)
  obtain ⟨-, -, s1, s2⟩ := seen hx hz h wX wZ (by linarith) hp1 c m (Setup.pureShearALE Nx Nz dt false false 0 0 0 s b) rfl m.x m.z
  constructor
  · intro a l
    refine first_out _ _ _ _ hm (Or.inr (Or.inr ?_))
    have := s1 (by show (moveWithBox Nx Nz dt s c b m).1.zmin ≤ _; rw [e3]; nlinarith)
    show (moveWithBox Nx Nz dt s c b m).1.zmax < m.z + 1 / 2 * dt * (seenVelocity Nx Nz s _ m.x m.z).2
    rw [this, e4]
    calc b.zmax * (1 + ez * dt) < _ := l
      _ = _ := by field_simp
  · intro a l
    refine first_out _ _ _ _ hm (Or.inr (Or.inl ?_))
    have := s2 (by show _ ≤ (moveWithBox Nx Nz dt s c b m).1.zmin; rw [e3]; exact a)
    show m.z + 1 / 2 * dt * (seenVelocity Nx Nz s _ m.x m.z).2 < (moveWithBox Nx Nz dt s c b m).1.zmin
    rw [this, e3]
    show m.z + 1 / 2 * dt * (ez / (1 + ez * dt) * (2 * (moveWithBox Nx Nz dt s c b m).1.zmin - m.z)) < _
    rw [e3]
    have e : m.z + 1 / 2 * dt * (ez / (1 + ez * dt) * (2 * (b.zmin * (1 + ez * dt)) - m.z)) = m.z * (1 - ez * dt / (2 * (1 + ez * dt))) + b.zmin * (ez * dt) := by
      have t : ez / (1 + ez * dt) * (b.zmin * (1 + ez * dt)) = ez * b.zmin := by field_simp
      have t2 : ez * dt / (2 * (1 + ez * dt)) = 1 / 2 * (dt * (ez / (1 + ez * dt))) := by field_simp
      rw [t2]
      linear_combination dt * t
    rw [e]; linarith

/-- The growth of a length over a step according to the Runge-Kutta scheme, `r` the strain of the step. -/
def grow (r : K) : K := 1 + r + r ^ 2 / 2 + r ^ 3 / 6 + r ^ 4 / 24

theorem scale_lo {lo x f F : K} (h : lo ≤ x) (l : lo ≤ 0) (f0 : 0 ≤ f) (fF : f ≤ F) : lo * F ≤ x * f :=
  le_trans (mul_le_mul_of_nonpos_left fF l) (mul_le_mul_of_nonneg_right h f0)

theorem scale_hi {hi x f F : K} (h : x ≤ hi) (l : 0 ≤ hi) (f0 : 0 ≤ f) (fF : f ≤ F) : x * f ≤ hi * F :=
  le_trans (mul_le_mul_of_nonneg_right h f0) (mul_le_mul_of_nonneg_left fF l)

theorem stages_x (y : K) (y0 : 0 ≤ y) (y1 : y ≤ 1) :
    (0 ≤ 1 - 1 / 2 * y ∧ 1 - 1 / 2 * y ≤ 1) ∧ (0 ≤ 1 - 1 / 2 * y * (1 - 1 / 2 * y) ∧ 1 - 1 / 2 * y * (1 - 1 / 2 * y) ≤ 1)
    ∧ (0 ≤ 1 - 1 * y * (1 - 1 / 2 * y * (1 - 1 / 2 * y)) ∧ 1 - 1 * y * (1 - 1 / 2 * y * (1 - 1 / 2 * y)) ≤ 1) ∧ 0 ≤ grow (-y) ∧ grow (-y) ≤ 1 := by
  have y2 : 0 ≤ y ^ 2 := by positivity
  have yy : y ^ 2 ≤ y := by nlinarith
  have y3 : 0 ≤ y ^ 3 := by positivity
  have y32 : y ^ 3 ≤ y ^ 2 := by nlinarith
  have y4 : 0 ≤ y ^ 4 := by positivity
  have y43 : y ^ 4 ≤ y ^ 3 := by nlinarith
  unfold grow
  refine ⟨⟨by linarith, by linarith⟩, ⟨by ring_nf; linarith, by ring_nf; linarith⟩, ⟨by ring_nf; linarith, by ring_nf; linarith⟩, by ring_nf; linarith, by ring_nf; linarith⟩

theorem stages_z (w e : K) (w0 : 0 ≤ w) (w1 : w ≤ 1) (e0 : 0 ≤ e) (he : e = w + w * e) :
    (0 ≤ 1 + 1 / 2 * w ∧ 1 + 1 / 2 * w ≤ 1 + e) ∧ (0 ≤ 1 + 1 / 2 * w * (1 + 1 / 2 * w) ∧ 1 + 1 / 2 * w * (1 + 1 / 2 * w) ≤ 1 + e)
    ∧ (0 ≤ 1 + 1 * w * (1 + 1 / 2 * w * (1 + 1 / 2 * w)) ∧ 1 + 1 * w * (1 + 1 / 2 * w * (1 + 1 / 2 * w)) ≤ 1 + e) ∧ 0 ≤ grow w ∧ grow w ≤ 1 + e := by
  have w2 : 0 ≤ w ^ 2 := by positivity
  have w3 : 0 ≤ w ^ 3 := by positivity
  have w4 : 0 ≤ w ^ 4 := by positivity
  have w43 : w ^ 4 ≤ w ^ 3 := by nlinarith
  have ww : w ^ 2 ≤ w := by nlinarith
  have we : w ≤ e := by nlinarith
  have we2 : w + w ^ 2 ≤ e := by nlinarith
  have we3 : w + w ^ 2 + w ^ 3 ≤ e := by nlinarith
  unfold grow
  refine ⟨⟨by linarith, by linarith⟩, ⟨by ring_nf; linarith, by ring_nf; linarith⟩, ⟨by ring_nf; linarith, by ring_nf; linarith⟩, by linarith, by linarith⟩

/-- C167 (what is kept).  An active marker that still lies between the moved side walls is kept; it moves by the Runge-Kutta step of a flow whose rates are `ex / (1 - eps dt)` and `ez / (1 + eps dt)`, not `eps`. -/
theorem between_walls_kept_partial (hx : 2 ≤ Nx) (hz : 2 ≤ Nz) (h : InFlow Nx Nz ex ez b s) (wX : b.xmin < b.xmax) (wZ : b.zmin < b.zmax) (h0 : 0 ≤ ex * dt) (h1 : ex * dt ≤ 1 / 2) (z0 : 0 ≤ ez * dt)
    (xs : b.xmin ≤ 0 ∧ 0 ≤ b.xmax) (zs : b.zmin ≤ 0 ∧ 0 ≤ b.zmax) (c : Grid.Coords K) (m : Adv.Marker K) (hm : m.phase ≠ -1)
    (ix : b.xmin * (1 - ex * dt) ≤ m.x ∧ m.x ≤ b.xmax * (1 - ex * dt)) (iz : b.zmin ≤ m.z ∧ m.z ≤ b.zmax) :
    let m' := (moveWithBox Nx Nz dt s c b m).2
    m'.phase = m.phase ∧ m'.x = m.x * grow (-(ex * dt / (1 - ex * dt))) ∧ m'.z = m.z * grow (ez * dt / (1 + ez * dt)) := by
  have hm1 : 0 < 1 - ex * dt := by linarith
  have hp1 : 0 < 1 + ez * dt := by linarith
  obtain ⟨e1, e2, e3, e4⟩ := sides_move hx hz h c m (dt := dt)
  have hv := seen hx hz h wX wZ hm1 hp1 c m (Setup.pureShearALE Nx Nz dt false false 0 0 0 s b) rfl
  change (Setup.pureShearALE Nx Nz dt false false 0 0 0 s b).xmin = _ at e1
  change (Setup.pureShearALE Nx Nz dt false false 0 0 0 s b).xmax = _ at e2
  change (Setup.pureShearALE Nx Nz dt false false 0 0 0 s b).zmin = _ at e3
  change (Setup.pureShearALE Nx Nz dt false false 0 0 0 s b).zmax = _ at e4
  show (Adv.rk4 ⟨(Setup.pureShearALE Nx Nz dt false false 0 0 0 s b).xmin, (Setup.pureShearALE Nx Nz dt false false 0 0 0 s b).xmax, (Setup.pureShearALE Nx Nz dt false false 0 0 0 s b).zmin, (Setup.pureShearALE Nx Nz dt false false 0 0 0 s b).zmax⟩ false _ dt m).phase = _ ∧ (Adv.rk4 ⟨(Setup.pureShearALE Nx Nz dt false false 0 0 0 s b).xmin, (Setup.pureShearALE Nx Nz dt false false 0 0 0 s b).xmax, (Setup.pureShearALE Nx Nz dt false false 0 0 0 s b).zmin, (Setup.pureShearALE Nx Nz dt false false 0 0 0 s b).zmax⟩ false _ dt m).x = _ ∧ (Adv.rk4 ⟨(Setup.pureShearALE Nx Nz dt false false 0 0 0 s b).xmin, (Setup.pureShearALE Nx Nz dt false false 0 0 0 s b).xmax, (Setup.pureShearALE Nx Nz dt false false 0 0 0 s b).zmin, (Setup.pureShearALE Nx Nz dt false false 0 0 0 s b).zmax⟩ false _ dt m).z = _
  generalize Setup.pureShearALE Nx Nz dt false false 0 0 0 s b = b' at *
  generalize seenVelocity Nx Nz s (Grid.setGridCoordinates b'.xmin b'.xmax b'.zmin b'.zmax Nx Nz c) = vel at *
  obtain ⟨y, hy⟩ : ∃ y, y = ex * dt / (1 - ex * dt) := ⟨_, rfl⟩
  obtain ⟨w, hw⟩ : ∃ w, w = ez * dt / (1 + ez * dt) := ⟨_, rfl⟩
  have py : dt * (ex / (1 - ex * dt)) = y := by rw [hy]; ring
  have pw : dt * (ez / (1 + ez * dt)) = w := by rw [hw]; ring
  have y0 : 0 ≤ y := by rw [hy]; exact div_nonneg h0 hm1.le
  have y1 : y ≤ 1 := by rw [hy, div_le_one hm1]; linarith
  have w0 : 0 ≤ w := by rw [hw]; exact div_nonneg z0 hp1.le
  have w1 : w ≤ 1 := by rw [hw, div_le_one hp1]; linarith
  have hwe : ez * dt = w + w * (ez * dt) := by rw [hw]; field_simp
  rw [← hy, ← hw]
  set B : Adv.Box K := ⟨b'.xmin, b'.xmax, b'.zmin, b'.zmax⟩ with hB
  -- scaled positions stay in the new box
  have ins : ∀ (f g a1 a2 : K) (p : Int), 0 ≤ f → f ≤ 1 → 0 ≤ g → g ≤ 1 + ez * dt → Adv.Inside B ⟨m.x * f, m.z * g, a1, a2, p⟩ := by
    intro f g a1 a2 p f0 f1 g0 g1
    refine ⟨?_, ?_, ?_, ?_⟩ <;> simp only [hB]
    · rw [e1]; simpa using scale_lo ix.1 (mul_nonpos_of_nonpos_of_nonneg xs.1 hm1.le) f0 f1
    · rw [e2]; simpa using scale_hi ix.2 (mul_nonneg xs.2 hm1.le) f0 f1
    · rw [e3]; exact scale_lo iz.1 zs.1 g0 g1
    · rw [e4]; exact scale_hi iz.2 zs.2 g0 g1
  have vel_at : ∀ f g : K, 0 ≤ f → f ≤ 1 → 0 ≤ g → g ≤ 1 + ez * dt → vel (m.x * f) (m.z * g) = (-(ex / (1 - ex * dt)) * (m.x * f), ez / (1 + ez * dt) * (m.z * g)) := by
    intro f g f0 f1 g0 g1
    obtain ⟨i1, _, i3, _⟩ := ins f g 0 0 0 f0 f1 g0 g1
    obtain ⟨a, -, d, -⟩ := hv (m.x * f) (m.z * g)
    exact Prod.ext (a i1) (d i3)
  have vA : vel m.x m.z = (-(ex / (1 - ex * dt)) * m.x, ez / (1 + ez * dt) * m.z) := by
    have := vel_at 1 1 zero_le_one le_rfl zero_le_one (by linarith)
    simpa using this
  have sx : ∀ r f : K, m.x + r * dt * (-(ex / (1 - ex * dt)) * (m.x * f)) = m.x * (1 - r * y * f) := by intro r f; rw [← py]; ring
  have sz : ∀ r g : K, m.z + r * dt * (ez / (1 + ez * dt) * (m.z * g)) = m.z * (1 + r * w * g) := by intro r g; rw [← pw]; ring
  have sx1 : m.x + 1 / 2 * dt * (-(ex / (1 - ex * dt)) * m.x) = m.x * (1 - 1 / 2 * y) := by rw [← py]; ring
  have sz1 : m.z + 1 / 2 * dt * (ez / (1 + ez * dt) * m.z) = m.z * (1 + 1 / 2 * w) := by rw [← pw]; ring
  obtain ⟨f1, f2, f3, gy⟩ := stages_x y y0 y1
  obtain ⟨g1, g2, g3, gw⟩ := stages_z w (ez * dt) w0 w1 z0 hwe
  have vB := vel_at _ _ f1.1 f1.2 g1.1 g1.2
  have vC := vel_at _ _ f2.1 f2.2 g2.1 g2.2
  have vD := vel_at _ _ f3.1 f3.2 g3.1 g3.2
  have step := Adv.rk4_classical B false vel dt m hm _ _ _
    { i0 := by simpa using ins 1 1 m.vx m.vz m.phase zero_le_one le_rfl zero_le_one (by linarith)
      b := rfl
      i1 := by rw [vA]; simp only [sx1, sz1]; exact ins _ _ _ _ _ f1.1 f1.2 g1.1 g1.2
      c := rfl
      i2 := by rw [vA]; simp only [sx1, sz1]; rw [vB]; simp only [sx, sz]; exact ins _ _ _ _ _ f2.1 f2.2 g2.1 g2.2
      d := rfl
      i3 := by rw [vA]; simp only [sx1, sz1]; rw [vB]; simp only [sx, sz]; rw [vC]; simp only [sx, sz]; exact ins _ _ _ _ _ f3.1 f3.2 g3.1 g3.2 }
  simp only at step
  rw [vA] at step
  simp only [sx1, sz1] at step
  rw [vB] at step
  simp only [sx, sz] at step
  rw [vC] at step
  simp only [sx, sz] at step
  rw [vD] at step
  simp only at step
  have hex : m.x + dt * ((-(ex / (1 - ex * dt)) * m.x + 2 * (-(ex / (1 - ex * dt)) * (m.x * (1 - 1 / 2 * y))) + 2 * (-(ex / (1 - ex * dt)) * (m.x * (1 - 1 / 2 * y * (1 - 1 / 2 * y)))) + -(ex / (1 - ex * dt)) * (m.x * (1 - 1 * y * (1 - 1 / 2 * y * (1 - 1 / 2 * y))))) / 6) = m.x * grow (-y) := by
    unfold grow
    linear_combination (-(m.x * (1 + 2 * (1 - 1 / 2 * y) + 2 * (1 - 1 / 2 * y * (1 - 1 / 2 * y)) + (1 - 1 * y * (1 - 1 / 2 * y * (1 - 1 / 2 * y)))) / 6)) * py
  have hez : m.z + dt * ((ez / (1 + ez * dt) * m.z + 2 * (ez / (1 + ez * dt) * (m.z * (1 + 1 / 2 * w))) + 2 * (ez / (1 + ez * dt) * (m.z * (1 + 1 / 2 * w * (1 + 1 / 2 * w)))) + ez / (1 + ez * dt) * (m.z * (1 + 1 * w * (1 + 1 / 2 * w * (1 + 1 / 2 * w))))) / 6) = m.z * grow w := by
    unfold grow
    linear_combination (m.z * (1 + 2 * (1 + 1 / 2 * w) + 2 * (1 + 1 / 2 * w * (1 + 1 / 2 * w)) + (1 + 1 * w * (1 + 1 / 2 * w * (1 + 1 / 2 * w)))) / 6) * pw
  rw [hex, hez] at step
  rw [step, Adv.inside_fixed false (ins _ _ _ _ _ gy.1 gy.2 gw.1 gw.2)]
  exact ⟨rfl, rfl, rfl⟩

/-- The kept markers are in the moved box. -/
theorem kept_inside (hx : 2 ≤ Nx) (hz : 2 ≤ Nz) (h : InFlow Nx Nz ex ez b s) (wX : b.xmin < b.xmax) (wZ : b.zmin < b.zmax) (h0 : 0 ≤ ex * dt) (h1 : ex * dt ≤ 1 / 2) (z0 : 0 ≤ ez * dt)
    (xs : b.xmin ≤ 0 ∧ 0 ≤ b.xmax) (zs : b.zmin ≤ 0 ∧ 0 ≤ b.zmax) (c : Grid.Coords K) (m : Adv.Marker K) (hm : m.phase ≠ -1)
    (ix : b.xmin * (1 - ex * dt) ≤ m.x ∧ m.x ≤ b.xmax * (1 - ex * dt)) (iz : b.zmin ≤ m.z ∧ m.z ≤ b.zmax) :
    Adv.Inside ⟨b.xmin * (1 - ex * dt), b.xmax * (1 - ex * dt), b.zmin * (1 + ez * dt), b.zmax * (1 + ez * dt)⟩ (moveWithBox Nx Nz dt s c b m).2 := by
  have hm1 : 0 < 1 - ex * dt := by linarith
  have hp1 : 0 < 1 + ez * dt := by linarith
  obtain ⟨-, a, d⟩ := between_walls_kept_partial hx hz h wX wZ h0 h1 z0 xs zs c m hm ix iz
  obtain ⟨-, -, -, gx⟩ := stages_x (ex * dt / (1 - ex * dt)) (div_nonneg h0 hm1.le) (by rw [div_le_one hm1]; linarith)
  obtain ⟨-, -, -, gz⟩ := stages_z (ez * dt / (1 + ez * dt)) (ez * dt) (div_nonneg z0 hp1.le) (by rw [div_le_one hp1]; linarith) z0 (by field_simp)
  refine ⟨?_, ?_, ?_, ?_⟩ <;> simp only
  · rw [a]; simpa using scale_lo ix.1 (mul_nonpos_of_nonpos_of_nonneg xs.1 hm1.le) gx.1 gx.2
  · rw [a]; simpa using scale_hi ix.2 (mul_nonneg xs.2 hm1.le) gx.1 gx.2
  · rw [d]; exact scale_lo iz.1 zs.1 gz.1 gz.2
  · rw [d]; exact scale_hi iz.2 zs.2 gz.1 gz.2

/-- Walls that move with the rock carry it along: a marker of the box stays active and keeps its place between the walls. -/
def Spec.CarriesRock (b b' : Setup.Box K) (m m' : Adv.Marker K) : Prop :=
  m'.phase = m.phase ∧ (m'.x - b'.xmin) * (b.xmax - b.xmin) = (m.x - b.xmin) * (b'.xmax - b'.xmin) ∧ (m'.z - b'.zmin) * (b.zmax - b.zmin) = (m.z - b.zmin) * (b'.zmax - b'.zmin)

/-- C167 (negation).  The sides move with the velocity of the rock they touch, and yet the rock on the right wall is lost in every step of pure shear that shortens the box by less than half, whatever the height; so is the rock on the left wall. -/
theorem rock_on_wall_lost (hx : 2 ≤ Nx) (hz : 2 ≤ Nz) (h : InPureShear Nx Nz eps b s) (xs : b.xmin < 0 ∧ 0 < b.xmax) (wZ : b.zmin < b.zmax) (h0 : 0 < eps * dt) (h1 : eps * dt < 1 / 2)
    (c : Grid.Coords K) (m : Adv.Marker K) (hm : m.phase ≠ -1) (hw : m.x = b.xmax ∨ m.x = b.xmin) :
    (moveWithBox Nx Nz dt s c b m).2.phase = -1 ∧ ¬ Spec.CarriesRock b (moveWithBox Nx Nz dt s c b m).1 m (moveWithBox Nx Nz dt s c b m).2 := by
  have key : (moveWithBox Nx Nz dt s c b m).2.phase = -1 := by
    obtain ⟨e, w⟩ := strip_lost hx hz h (by linarith) wZ h0 (by linarith) (by linarith) c m hm
    have q : eps * dt / (2 * (1 - eps * dt)) < eps * dt := by
      rw [div_lt_iff₀ (by linarith)]; nlinarith
    have q0 : 0 < eps * dt / (2 * (1 - eps * dt)) := div_pos h0 (by linarith)
    rcases hw with hw | hw
    · exact e (by rw [hw]; nlinarith) (by rw [hw]; nlinarith)
    · exact w (by rw [hw]; nlinarith) (by rw [hw]; nlinarith)
  exact ⟨key, fun hc => hm (by rw [← hc.1]; exact key)⟩

/-- C167 (negation, horizontal extension).  See `rock_on_wall_lost`: rock at the top and at the bottom. -/
theorem rock_on_floor_lost (hx : 2 ≤ Nx) (hz : 2 ≤ Nz) (h : InPureShear Nx Nz eps b s) (wX : b.xmin < b.xmax) (zs : b.zmin < 0 ∧ 0 < b.zmax) (h0 : eps * dt < 0) (h1 : -(1 / 2) < eps * dt)
    (c : Grid.Coords K) (m : Adv.Marker K) (hm : m.phase ≠ -1) (hw : m.z = b.zmax ∨ m.z = b.zmin) :
    (moveWithBox Nx Nz dt s c b m).2.phase = -1 ∧ ¬ Spec.CarriesRock b (moveWithBox Nx Nz dt s c b m).1 m (moveWithBox Nx Nz dt s c b m).2 := by
  have key : (moveWithBox Nx Nz dt s c b m).2.phase = -1 := by
    obtain ⟨e, w⟩ := strip_lost_vertical hx hz h wX (by linarith) h0 (by linarith) (by linarith) c m hm
    have q : eps * dt < eps * dt / (2 * (1 + eps * dt)) := by
      rw [lt_div_iff₀ (by linarith)]; nlinarith
    have q0 : eps * dt / (2 * (1 + eps * dt)) < 0 := div_neg_of_neg_of_pos h0 (by linarith)
    rcases hw with hw | hw
    · exact e (by rw [hw]; nlinarith) (by rw [hw]; nlinarith)
    · exact w (by rw [hw]; nlinarith) (by rw [hw]; nlinarith)
  exact ⟨key, fun hc => hm (by rw [← hc.1]; exact key)⟩

/-- C167 (drift).  The markers that are kept fall behind: one to the right of the middle comes to lie nearer to the middle, relative to the right wall, in every such step. -/
theorem rock_falls_behind (hx : 2 ≤ Nx) (hz : 2 ≤ Nz) (h : InFlow Nx Nz ex ez b s) (wX : b.xmin < b.xmax) (wZ : b.zmin < b.zmax) (h0 : 0 < ex * dt) (h1 : ex * dt ≤ 1 / 2) (z0 : 0 ≤ ez * dt)
    (xs : b.xmin ≤ 0 ∧ 0 < b.xmax) (zs : b.zmin ≤ 0 ∧ 0 ≤ b.zmax) (c : Grid.Coords K) (m : Adv.Marker K) (hm : m.phase ≠ -1)
    (ix : 0 < m.x ∧ m.x ≤ b.xmax * (1 - ex * dt)) (iz : b.zmin ≤ m.z ∧ m.z ≤ b.zmax) :
    (moveWithBox Nx Nz dt s c b m).2.x / (moveWithBox Nx Nz dt s c b m).1.xmax < m.x / b.xmax := by
  have hm1 : 0 < 1 - ex * dt := by linarith
  obtain ⟨-, e, -⟩ := between_walls_kept_partial hx hz h wX wZ h0.le h1 z0 ⟨xs.1, xs.2.le⟩ zs c m hm ⟨by nlinarith [xs.1], ix.2⟩ iz
  have e2 := (sides_move hx hz h c m (dt := dt)).2.1
  rw [e, e2, div_lt_div_iff₀ (mul_pos xs.2 hm1) xs.2]
  obtain ⟨y, hy⟩ : ∃ y, y = ex * dt / (1 - ex * dt) := ⟨_, rfl⟩
  rw [← hy]
  have y0 : 0 < y := by rw [hy]; exact div_pos h0 hm1
  have y1 : y ≤ 1 := by rw [hy, div_le_one hm1]; linarith
  have hy1 : (1 - ex * dt) * (1 + y) = 1 := by rw [hy]; field_simp; ring
  have g : grow (-y) < 1 - ex * dt := by
    have : grow (-y) * (1 + y) < (1 - ex * dt) * (1 + y) := by
      rw [hy1]
      unfold grow
      have a2 : 0 < y ^ 2 := by positivity
      have a3 : y ^ 3 ≤ y ^ 2 := by nlinarith
      have a4 : 0 < y ^ 4 := by positivity
      have a5 : y ^ 5 ≤ y ^ 4 := by nlinarith
      nlinarith
    exact lt_of_mul_lt_mul_right this (by linarith)
  have := mul_lt_mul_of_pos_left g (mul_pos ix.1 xs.2)
  nlinarith

end box

/-- The flow the mechanical solver finds for a uniform body between walls set up in pure shear (C154, C160) is such a flow. -/
theorem solved_flow {S : StepFlow.Setting} {eps : ℝ} {x z : Nat → ℝ} {bu bv : Setup.Side ℝ} (h : StepFlow.PureShear S eps x z bu bv) (r p0 : ℝ) :
    InPureShear S.m.Nx S.m.Nz eps ⟨x 0, x (S.m.Nx - 1), z 0, z (S.m.Nz - 1)⟩
      ⟨fun i => S.m.tu i, (StepFlow.textbook S eps x z r p0).u, fun i => S.m.tv i, (StepFlow.textbook S eps x z r p0).v, bv.val⟩ := by
  have hx := h.Nx
  have hz := h.Nz
  have lx : ∀ k : Nat, x k = x 0 + k * S.m.dx := by
    intro k
    induction k with
    | zero => simp
    | succ n ih => rw [h.stepX, ih]; push_cast; ring
  have lz : ∀ k : Nat, z k = z 0 + k * S.m.dz := by
    intro k
    induction k with
    | zero => simp
    | succ n ih => rw [h.stepZ, ih]; push_cast; ring
  have nx : ((S.m.Nx : ℝ) - 1) ≠ 0 := by
    have : (2 : ℝ) ≤ S.m.Nx := by exact_mod_cast hx
    intro e; linarith
  have nz : ((S.m.Nz : ℝ) - 1) ≠ 0 := by
    have : (2 : ℝ) ≤ S.m.Nz := by exact_mod_cast hz
    intro e; linarith
  have dx : (x (S.m.Nx - 1) - x 0) / ((S.m.Nx : ℝ) - 1) = S.m.dx := by
    rw [lx (S.m.Nx - 1), Nat.cast_sub (by omega)]; push_cast; field_simp; ring
  have dz : (z (S.m.Nz - 1) - z 0) / ((S.m.Nz : ℝ) - 1) = S.m.dz := by
    rw [lz (S.m.Nz - 1), Nat.cast_sub (by omega)]; push_cast; field_simp; ring
  obtain ⟨tu, tv, -⟩ := StepFlow.textbook_at S eps x z r p0
  have w1 : ¬ (1 = S.m.Nz) := by omega
  refine ⟨fun k hk l hl => ?_, fun k hk l hl => ?_, fun k hk l hl => ?_, fun k hk l hl => ?_, ⟨?_, ?_⟩, ⟨?_, ?_⟩⟩
  · simp only [dx]; rw [tu k l hk (by omega), lx k]; ring
  · simp only [dz]; rw [tv k l (by omega) hl, lz l]; ring
  · show S.m.tu ((k + l * S.m.Nx : Nat) : Int) ≠ 30
    rw [(h.tags_u k l hk (by omega)).1]; split_ifs <;> decide
  · show S.m.tv ((k + l * (S.m.Nx + 1) : Nat) : Int) ≠ 30
    rw [(h.tags_v k l (by omega) hl).1]; split_ifs <;> decide
  · show S.m.tu ((0 + 1 * S.m.Nx : Nat) : Int) = 0
    rw [(h.tags_u 0 1 (by omega) (by omega)).1, if_neg (by omega), if_pos (by omega)]
  · show S.m.tu ((S.m.Nx - 1 + 1 * S.m.Nx : Nat) : Int) = 0
    rw [(h.tags_u (S.m.Nx - 1) 1 (by omega) (by omega)).1, if_neg (by omega), if_pos (by omega)]
  · show S.m.tv ((1 + 0 * (S.m.Nx + 1) : Nat) : Int) = 0
    rw [(h.tags_v 1 0 (by omega) (by omega)).1, if_neg (by omega), if_pos (by omega)]
  · show S.m.tv ((1 + (S.m.Nz - 1) * (S.m.Nx + 1) : Nat) : Int) = 0
    rw [(h.tags_v 1 (S.m.Nz - 1) (by omega) (by omega)).1, if_neg (by omega), if_pos (by omega)]

/-- Non-vacuity: the box [-1, 1] x [-1, 1] with 3 x 3 grid lines, shortened by a tenth; the markers on the walls are lost, also one that is not on the wall; one in the middle of the right half is kept. -/
def demoSides : Setup.Sides ℚ where
  tu i := if i / 3 = 0 ∨ i / 3 = 3 then 13 else if i % 3 = 1 then -1 else 0
  u i := -(((i % 3 : Nat) : ℚ) - 1)
  tv i := if i % 4 = 0 ∨ i % 4 = 3 then 13 else if i / 4 = 1 then -1 else 0
  v i := ((i / 4 : Nat) : ℚ) - 1
  bcv i := ((i / 4 : Nat) : ℚ) - 1

def demoGrid : Grid.Coords ℚ := ⟨1, 1, fun _ => 0, fun _ => 0, fun _ => 0, fun _ => 0, fun _ => 0, fun _ => 0, fun _ => 0, fun _ => 0⟩

theorem demo_shear : InPureShear 3 3 1 ⟨-1, 1, -1, 1⟩ demoSides := by
  refine ⟨by decide +kernel, by decide +kernel, by decide +kernel, by decide +kernel, by decide +kernel, by decide +kernel⟩

example : ∃ m : Adv.Marker ℚ, m.phase = 2 ∧ (moveWithBox 3 3 (1 / 10) demoSides demoGrid ⟨-1, 1, -1, 1⟩ m).2.phase = -1 :=
  ⟨⟨1, 1 / 4, 0, 0, 2⟩, rfl, (rock_on_wall_lost (by norm_num) (by norm_num) demo_shear (by norm_num) (by norm_num) (by norm_num) (by norm_num) demoGrid _ (by norm_num) (Or.inl rfl)).1⟩

/-- The same box, pulled apart. -/
theorem demo_pull : InPureShear 3 3 (-1) ⟨-1, 1, -1, 1⟩ { demoSides with u := fun i => -demoSides.u i, v := fun i => -demoSides.v i } := by
  refine ⟨by decide +kernel, by decide +kernel, by decide +kernel, by decide +kernel, by decide +kernel, by decide +kernel⟩

example : (moveWithBox 3 3 (1 / 10) { demoSides with u := fun i => -demoSides.u i, v := fun i => -demoSides.v i } demoGrid ⟨-1, 1, -1, 1⟩ ⟨1 / 4, -1, 0, 0, 2⟩).2.phase = -1 :=
  (rock_on_floor_lost (by norm_num) (by norm_num) demo_pull (by norm_num) (by norm_num) (by norm_num) (by norm_num) demoGrid _ (by norm_num) (Or.inr rfl)).1

example : (moveWithBox 3 3 (1 / 10) demoSides demoGrid ⟨-1, 1, -1, 1⟩ ⟨97 / 100, 1 / 4, 0, 0, 2⟩).2.phase = -1 :=
  (strip_lost (by norm_num) (by norm_num) demo_shear (by norm_num) (by norm_num) (by norm_num) (by norm_num) (by norm_num) demoGrid _ (by norm_num)).1 (by norm_num) (by norm_num)

example : (moveWithBox 3 3 (1 / 10) demoSides demoGrid ⟨-1, 1, -1, 1⟩ ⟨1 / 2, 1 / 4, 0, 0, 2⟩).2.phase = 2 :=
  (between_walls_kept_partial (by norm_num) (by norm_num) demo_shear (by norm_num) (by norm_num) (by norm_num) (by norm_num) (by norm_num) (by norm_num) (by norm_num) demoGrid _ (by norm_num) (by norm_num) (by norm_num)).1

example : (moveWithBox 3 3 (1 / 10) demoSides demoGrid ⟨-1, 1, -1, 1⟩ ⟨1 / 2, 1 / 4, 0, 0, 2⟩).2.x / (moveWithBox 3 3 (1 / 10) demoSides demoGrid ⟨-1, 1, -1, 1⟩ ⟨1 / 2, 1 / 4, 0, 0, 2⟩).1.xmax < 1 / 2 := by
  simpa using rock_falls_behind (by norm_num) (by norm_num) demo_shear (by norm_num) (by norm_num) (by norm_num) (by norm_num) (by norm_num) (by norm_num) (by norm_num) demoGrid ⟨1 / 2, 1 / 4, 0, 0, 2⟩ (by norm_num) (by norm_num) (by norm_num)

end Verif.Moving
