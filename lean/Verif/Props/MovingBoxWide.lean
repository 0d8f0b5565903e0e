import Verif.Props.MovingBox

/- C167 for a body that is stretched horizontally and shortened vertically: which rock is kept. -/
set_option linter.unusedSectionVars false
namespace Verif.Moving
open Verif

variable {K : Type*} [Field K] [LinearOrder K] [IsStrictOrderedRing K] [FloorRing K]
variable {Nx Nz : Nat} {eps ex ez dt : K} {b : Setup.Box K} {s : Setup.Sides K}

/-- The factors by which the stages of the scheme stretch a length lie between zero and `F`; `r` is the strain of the step. -/
structure Stages (r F : K) : Prop where
  one : 1 ≤ F
  b : 0 ≤ 1 + 1 / 2 * r ∧ 1 + 1 / 2 * r ≤ F
  c : 0 ≤ 1 + 1 / 2 * r * (1 + 1 / 2 * r) ∧ 1 + 1 / 2 * r * (1 + 1 / 2 * r) ≤ F
  d : 0 ≤ 1 + 1 * r * (1 + 1 / 2 * r * (1 + 1 / 2 * r)) ∧ 1 + 1 * r * (1 + 1 / 2 * r * (1 + 1 / 2 * r)) ≤ F
  e : 0 ≤ grow r ∧ grow r ≤ F

theorem Stages.shrink (y : K) (y0 : 0 ≤ y) (y1 : y ≤ 1) : Stages (-y) 1 := by
  obtain ⟨a, b, c, d⟩ := stages_x y y0 y1
  have e1 : 1 + 1 / 2 * -y = 1 - 1 / 2 * y := by ring
  have e2 : 1 + 1 / 2 * -y * (1 + 1 / 2 * -y) = 1 - 1 / 2 * y * (1 - 1 / 2 * y) := by ring
  have e3 : 1 + 1 * -y * (1 + 1 / 2 * -y * (1 + 1 / 2 * -y)) = 1 - 1 * y * (1 - 1 / 2 * y * (1 - 1 / 2 * y)) := by ring
  exact ⟨le_rfl, by rw [e1]; exact a, by rw [e2]; exact b, by rw [e3]; exact c, d⟩

theorem Stages.stretch (w e : K) (w0 : 0 ≤ w) (w1 : w ≤ 1) (e0 : 0 ≤ e) (he : e = w + w * e) : Stages w (1 + e) := by
  obtain ⟨a, b, c, d⟩ := stages_z w e w0 w1 e0 he
  exact ⟨by linarith, a, b, c, d⟩

/-- A step in a velocity field that is linear in the part of the box the stages reach. -/
theorem linear_step (B : Adv.Box K) (vel : K → K → K × K) (dt α β F G : K) (m : Adv.Marker K) (hm : m.phase ≠ -1) (fx : Stages (dt * α) F) (gz : Stages (dt * β) G)
    (ins : ∀ (f g a1 a2 : K) (p : Int), 0 ≤ f → f ≤ F → 0 ≤ g → g ≤ G → Adv.Inside B ⟨m.x * f, m.z * g, a1, a2, p⟩)
    (vel_at : ∀ f g : K, 0 ≤ f → f ≤ F → 0 ≤ g → g ≤ G → vel (m.x * f) (m.z * g) = (α * (m.x * f), β * (m.z * g))) :
    (Adv.rk4 B false vel dt m).phase = m.phase ∧ (Adv.rk4 B false vel dt m).x = m.x * grow (dt * α) ∧ (Adv.rk4 B false vel dt m).z = m.z * grow (dt * β) := by
  obtain ⟨y, hy⟩ : ∃ y, y = dt * α := ⟨_, rfl⟩
  obtain ⟨w, hw⟩ : ∃ w, w = dt * β := ⟨_, rfl⟩
  rw [← hy] at fx ⊢
  rw [← hw] at gz ⊢
  have vA : vel m.x m.z = (α * m.x, β * m.z) := by
    have := vel_at 1 1 zero_le_one fx.one zero_le_one gz.one
    simpa using this
  have sx : ∀ r f : K, m.x + r * dt * (α * (m.x * f)) = m.x * (1 + r * y * f) := by intro r f; rw [hy]; ring
  have sz : ∀ r g : K, m.z + r * dt * (β * (m.z * g)) = m.z * (1 + r * w * g) := by intro r g; rw [hw]; ring
  have sx1 : m.x + 1 / 2 * dt * (α * m.x) = m.x * (1 + 1 / 2 * y) := by rw [hy]; ring
  have sz1 : m.z + 1 / 2 * dt * (β * m.z) = m.z * (1 + 1 / 2 * w) := by rw [hw]; ring
  have vB := vel_at _ _ fx.b.1 fx.b.2 gz.b.1 gz.b.2
  have vC := vel_at _ _ fx.c.1 fx.c.2 gz.c.1 gz.c.2
  have vD := vel_at _ _ fx.d.1 fx.d.2 gz.d.1 gz.d.2
  have step := Adv.rk4_classical B false vel dt m hm _ _ _
    { i0 := by simpa using ins 1 1 m.vx m.vz m.phase zero_le_one fx.one zero_le_one gz.one
      b := rfl
      i1 := by rw [vA]; simp only [sx1, sz1]; exact ins _ _ _ _ _ fx.b.1 fx.b.2 gz.b.1 gz.b.2
      c := rfl
      i2 := by rw [vA]; simp only [sx1, sz1]; rw [vB]; simp only [sx, sz]; exact ins _ _ _ _ _ fx.c.1 fx.c.2 gz.c.1 gz.c.2
      d := rfl
      i3 := by rw [vA]; simp only [sx1, sz1]; rw [vB]; simp only [sx, sz]; rw [vC]; simp only [sx, sz]; exact ins _ _ _ _ _ fx.d.1 fx.d.2 gz.d.1 gz.d.2 }
  simp only at step
  rw [vA] at step
  simp only [sx1, sz1] at step
  rw [vB] at step
  simp only [sx, sz] at step
  rw [vC] at step
  simp only [sx, sz] at step
  rw [vD] at step
  simp only at step
  have hex : m.x + dt * ((α * m.x + 2 * (α * (m.x * (1 + 1 / 2 * y))) + 2 * (α * (m.x * (1 + 1 / 2 * y * (1 + 1 / 2 * y)))) + α * (m.x * (1 + 1 * y * (1 + 1 / 2 * y * (1 + 1 / 2 * y))))) / 6) = m.x * grow y := by
    unfold grow
    linear_combination (-(m.x * (1 + 2 * (1 + 1 / 2 * y) + 2 * (1 + 1 / 2 * y * (1 + 1 / 2 * y)) + (1 + 1 * y * (1 + 1 / 2 * y * (1 + 1 / 2 * y)))) / 6)) * hy
  have hez : m.z + dt * ((β * m.z + 2 * (β * (m.z * (1 + 1 / 2 * w))) + 2 * (β * (m.z * (1 + 1 / 2 * w * (1 + 1 / 2 * w)))) + β * (m.z * (1 + 1 * w * (1 + 1 / 2 * w * (1 + 1 / 2 * w))))) / 6) = m.z * grow w := by
    unfold grow
    linear_combination (-(m.z * (1 + 2 * (1 + 1 / 2 * w) + 2 * (1 + 1 / 2 * w * (1 + 1 / 2 * w)) + (1 + 1 * w * (1 + 1 / 2 * w * (1 + 1 / 2 * w)))) / 6)) * hw
  rw [hex, hez] at step
  rw [step, Adv.inside_fixed false (ins _ _ _ _ _ fx.e.1 fx.e.2 gz.e.1 gz.e.2)]
  exact ⟨rfl, rfl, rfl⟩

/-- C167 (what is kept, horizontal extension).  An active marker that still lies between the moved top and bottom is kept, with the displacement of a flow at other rates. -/
theorem between_floors_kept_partial (hx : 2 ≤ Nx) (hz : 2 ≤ Nz) (h : InFlow Nx Nz ex ez b s) (wX : b.xmin < b.xmax) (wZ : b.zmin < b.zmax) (h0 : ex * dt ≤ 0) (z0 : ez * dt ≤ 0) (z1 : -(1 / 2) ≤ ez * dt)
    (xs : b.xmin ≤ 0 ∧ 0 ≤ b.xmax) (zs : b.zmin ≤ 0 ∧ 0 ≤ b.zmax) (c : Grid.Coords K) (m : Adv.Marker K) (hm : m.phase ≠ -1)
    (ix : b.xmin ≤ m.x ∧ m.x ≤ b.xmax) (iz : b.zmin * (1 + ez * dt) ≤ m.z ∧ m.z ≤ b.zmax * (1 + ez * dt)) :
    let m' := (moveWithBox Nx Nz dt s c b m).2
    m'.phase = m.phase ∧ m'.x = m.x * grow (-(ex * dt / (1 - ex * dt))) ∧ m'.z = m.z * grow (ez * dt / (1 + ez * dt)) := by
  have hm1 : 0 < 1 - ex * dt := by linarith
  have hp1 : 0 < 1 + ez * dt := by linarith
  obtain ⟨e1, e2, e3, e4⟩ := sides_move hx hz h c m (dt := dt)
  have hv := seen hx hz h wX wZ hm1 hp1 c m (Setup.pureShearALE Nx Nz dt false false 0 0 0 s b) rfl
  change (Setup.pureShearALE Nx Nz dt false false 0 0 0 s b).xmin = _ at e1
  change (Setup.pureShearALE Nx Nz dt false false 0 0 0 s b).xmax = _ at e2
  change (Setup.pureShearALE Nx Nz dt false false 0 0 0 s b).zmin = _ at e3
  change (Setup.pureShearALE Nx Nz dt false false 0 0 0 s b).zmax = _ at e4
  have px : dt * -(ex / (1 - ex * dt)) = -(ex * dt / (1 - ex * dt)) := by ring
  have pz : dt * (ez / (1 + ez * dt)) = ez * dt / (1 + ez * dt) := by ring
  have SX : Stages (dt * -(ex / (1 - ex * dt))) (1 + -(ex * dt)) := by
    rw [px, ← neg_div]
    refine Stages.stretch _ _ (div_nonneg (by linarith) hm1.le) (by rw [div_le_one hm1]; linarith) (by linarith) ?_
    field_simp
    ring
  have SZ : Stages (dt * (ez / (1 + ez * dt))) 1 := by
    rw [pz]
    have := Stages.shrink (-(ez * dt) / (1 + ez * dt)) (div_nonneg (by linarith) hp1.le) (by rw [div_le_one hp1]; linarith)
    rwa [neg_div, neg_neg] at this
  have L := linear_step ⟨(Setup.pureShearALE Nx Nz dt false false 0 0 0 s b).xmin, (Setup.pureShearALE Nx Nz dt false false 0 0 0 s b).xmax, (Setup.pureShearALE Nx Nz dt false false 0 0 0 s b).zmin, (Setup.pureShearALE Nx Nz dt false false 0 0 0 s b).zmax⟩
    (seenVelocity Nx Nz s (Grid.setGridCoordinates (Setup.pureShearALE Nx Nz dt false false 0 0 0 s b).xmin (Setup.pureShearALE Nx Nz dt false false 0 0 0 s b).xmax (Setup.pureShearALE Nx Nz dt false false 0 0 0 s b).zmin (Setup.pureShearALE Nx Nz dt false false 0 0 0 s b).zmax Nx Nz c))
    dt (-(ex / (1 - ex * dt))) (ez / (1 + ez * dt)) (1 + -(ex * dt)) 1 m hm SX SZ
  have ins : ∀ (f g a1 a2 : K) (p : Int), 0 ≤ f → f ≤ 1 + -(ex * dt) → 0 ≤ g → g ≤ 1 → Adv.Inside ⟨(Setup.pureShearALE Nx Nz dt false false 0 0 0 s b).xmin, (Setup.pureShearALE Nx Nz dt false false 0 0 0 s b).xmax, (Setup.pureShearALE Nx Nz dt false false 0 0 0 s b).zmin, (Setup.pureShearALE Nx Nz dt false false 0 0 0 s b).zmax⟩ ⟨m.x * f, m.z * g, a1, a2, p⟩ := by
    intro f g a1 a2 p f0 f1 g0 g1
    have f1' : f ≤ 1 - ex * dt := by linarith
    refine ⟨?_, ?_, ?_, ?_⟩ <;> simp only
    · rw [e1]; exact scale_lo ix.1 xs.1 f0 f1'
    · rw [e2]; exact scale_hi ix.2 xs.2 f0 f1'
    · rw [e3]; simpa using scale_lo iz.1 (mul_nonpos_of_nonpos_of_nonneg zs.1 hp1.le) g0 g1
    · rw [e4]; simpa using scale_hi iz.2 (mul_nonneg zs.2 hp1.le) g0 g1
  have R := L ins fun f g f0 f1 g0 g1 => by
    obtain ⟨i1, _, i3, _⟩ := ins f g 0 0 0 f0 f1 g0 g1
    obtain ⟨a, -, d, -⟩ := hv (m.x * f) (m.z * g)
    exact Prod.ext (a i1) (d i3)
  rw [px, pz] at R
  exact R

/-- C167 (drift, horizontal extension).  A marker above the middle comes to lie nearer to the middle, relative to the top, in every such step. -/
theorem rock_sinks (hx : 2 ≤ Nx) (hz : 2 ≤ Nz) (h : InFlow Nx Nz ex ez b s) (wX : b.xmin < b.xmax) (wZ : b.zmin < b.zmax) (h0 : ex * dt ≤ 0) (z0 : ez * dt < 0) (z1 : -(1 / 2) ≤ ez * dt)
    (xs : b.xmin ≤ 0 ∧ 0 ≤ b.xmax) (zs : b.zmin ≤ 0 ∧ 0 < b.zmax) (c : Grid.Coords K) (m : Adv.Marker K) (hm : m.phase ≠ -1)
    (ix : b.xmin ≤ m.x ∧ m.x ≤ b.xmax) (iz : 0 < m.z ∧ m.z ≤ b.zmax * (1 + ez * dt)) :
    (moveWithBox Nx Nz dt s c b m).2.z / (moveWithBox Nx Nz dt s c b m).1.zmax < m.z / b.zmax := by
  have hp1 : 0 < 1 + ez * dt := by linarith
  obtain ⟨-, -, e⟩ := between_floors_kept_partial hx hz h wX wZ h0 z0.le z1 xs ⟨zs.1, zs.2.le⟩ c m hm ix ⟨by nlinarith [zs.1], iz.2⟩
  have e2 := (sides_move hx hz h c m (dt := dt)).2.2.2
  rw [e, e2, div_lt_div_iff₀ (mul_pos zs.2 hp1) zs.2]
  obtain ⟨y, hy⟩ : ∃ y, y = -(ez * dt / (1 + ez * dt)) := ⟨_, rfl⟩
  have hny : ez * dt / (1 + ez * dt) = -y := by rw [hy]; ring
  rw [hny]
  have y0 : 0 < y := by rw [hy, ← neg_div]; exact div_pos (by linarith) hp1
  have y1 : y ≤ 1 := by rw [hy, ← neg_div, div_le_one hp1]; linarith
  have hy1 : (1 + ez * dt) * (1 + y) = 1 := by rw [hy]; field_simp; ring
  have g : grow (-y) < 1 + ez * dt := by
    have : grow (-y) * (1 + y) < (1 + ez * dt) * (1 + y) := by
      rw [hy1]
      unfold grow
      have a2 : 0 < y ^ 2 := by positivity
      have a3 : y ^ 3 ≤ y ^ 2 := by nlinarith
      have a4 : 0 < y ^ 4 := by positivity
      have a5 : y ^ 5 ≤ y ^ 4 := by nlinarith
      nlinarith
    exact lt_of_mul_lt_mul_right this (by linarith)
  have := mul_lt_mul_of_pos_left g (mul_pos iz.1 zs.2)
  nlinarith

/-- The hypotheses can be met: a marker in a body that is stretched. -/
example : (moveWithBox (K := ℚ) 3 3 (1 / 10) { demoSides with u := fun i => -demoSides.u i, v := fun i => -demoSides.v i } demoGrid ⟨-1, 1, -1, 1⟩ ⟨1, 1 / 2, 0, 0, 2⟩).2.phase = 2 :=
  (between_floors_kept_partial (by norm_num) (by norm_num) demo_pull (by norm_num) (by norm_num) (by norm_num) (by norm_num) (by norm_num) (by norm_num) (by norm_num) demoGrid ⟨1, 1 / 2, 0, 0, 2⟩ (by norm_num) (by norm_num) (by norm_num)).1

example : (moveWithBox (K := ℚ) 3 3 (1 / 10) { demoSides with u := fun i => -demoSides.u i, v := fun i => -demoSides.v i } demoGrid ⟨-1, 1, -1, 1⟩ ⟨1, 1 / 2, 0, 0, 2⟩).2.z / (moveWithBox (K := ℚ) 3 3 (1 / 10) { demoSides with u := fun i => -demoSides.u i, v := fun i => -demoSides.v i } demoGrid ⟨-1, 1, -1, 1⟩ ⟨1, 1 / 2, 0, 0, 2⟩).1.zmax < 1 / 2 / 1 :=
  rock_sinks (by norm_num) (by norm_num) demo_pull (by norm_num) (by norm_num) (by norm_num) (by norm_num) (by norm_num) (by norm_num) (by norm_num) demoGrid ⟨1, 1 / 2, 0, 0, 2⟩ (by norm_num) (by norm_num) (by norm_num)

end Verif.Moving
