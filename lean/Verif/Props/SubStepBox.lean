import Verif.Props.MovingBox
import Mathlib.Algebra.BigOperators.Group.Finset.Basic

/-
C169: how many advection substeps a step is divided into does not change the box it ends with, but it changes
where the rock ends up.  Model: `Verif.Moving.subSteps` (/repo/MDLIB/Main_DOODZ.c:1041-1175).
-/
set_option linter.unusedSectionVars false
namespace Verif.Moving
open Verif

variable {K : Type*} [Field K] [LinearOrder K] [IsStrictOrderedRing K] [FloorRing K]
variable {Nx Nz : Nat} {eps ex ez dt : K} {b : Setup.Box K} {s : Setup.Sides K}

/-- The sides move by the same amount in every substep. -/
private theorem sides_after (d : K) (c : Grid.Coords K) (m : Adv.Marker K) : ∀ n : Nat,
    let B := (moveWithBox Nx Nz d s c b m).1
    let r := (subSteps Nx Nz d s c b m n).2.1
    r.xmin = b.xmin + n * (B.xmin - b.xmin) ∧ r.xmax = b.xmax + n * (B.xmax - b.xmax) ∧ r.zmin = b.zmin + n * (B.zmin - b.zmin) ∧ r.zmax = b.zmax + n * (B.zmax - b.zmax)
  | 0 => by simp [subSteps]
  | n + 1 => by
    obtain ⟨a1, a2, a3, a4⟩ := sides_after d c m n
    simp only [moveWithBox, Setup.pureShearALE, Bool.false_eq_true, if_false] at a1 a2 a3 a4 ⊢
    simp only [subSteps, moveWithBox, Setup.pureShearALE, Bool.false_eq_true, if_false]
    push_cast
    exact ⟨by rw [a1]; ring, by rw [a2]; ring, by rw [a3]; ring, by rw [a4]; ring⟩

/-- C169 (box).  For any velocities and tags, the box after a step does not depend on the number of equal substeps the step was divided into. -/
theorem box_of_substeps (s : Setup.Sides K) (b : Setup.Box K) (dt : K) (n n' : Nat) (hn : 0 < n) (hn' : 0 < n') (c c' : Grid.Coords K) (m m' : Adv.Marker K) :
    (subSteps Nx Nz (dt / n) s c b m n).2.1 = (subSteps Nx Nz (dt / n') s c' b m' n').2.1 := by
  have key : ∀ (k : Nat) (_ : 0 < k) (c : Grid.Coords K) (m : Adv.Marker K), (subSteps Nx Nz (dt / k) s c b m k).2.1 = Setup.pureShearALE Nx Nz dt false false 0 0 0 s b := by
    intro k hk c m
    have k0 : (k : K) ≠ 0 := by exact_mod_cast hk.ne'
    obtain ⟨a1, a2, a3, a4⟩ := sides_after (Nx := Nx) (Nz := Nz) (s := s) (b := b) (dt / k) c m k
    simp only [moveWithBox, Setup.pureShearALE, Bool.false_eq_true, if_false] at a1 a2 a3 a4
    have ext : ∀ p q : Setup.Box K, p.xmin = q.xmin → p.xmax = q.xmax → p.zmin = q.zmin → p.zmax = q.zmax → p = q := by
      rintro ⟨_, _, _, _⟩ ⟨_, _, _, _⟩ h1 h2 h3 h4
      simp only at h1 h2 h3 h4
      subst h1 h2 h3 h4; rfl
    apply ext <;> simp only [Setup.pureShearALE, Bool.false_eq_true, if_false]
    · rw [a1]; field_simp; ring
    · rw [a2]; field_simp; ring
    · rw [a3]; field_simp; ring
    · rw [a4]; field_simp; ring
  rw [key n hn, key n' hn']

/-- In the moved box the same velocity arrays are a uniform flow at other rates: the nodes have moved, their velocities have not changed. -/
theorem flow_after (hx : 2 ≤ Nx) (hz : 2 ≤ Nz) (h : InFlow Nx Nz ex ez b s) (hm : 1 - ex * dt ≠ 0) (hp : 1 + ez * dt ≠ 0) (c : Grid.Coords K) (m : Adv.Marker K) :
    InFlow Nx Nz (ex / (1 - ex * dt)) (ez / (1 + ez * dt)) (moveWithBox Nx Nz dt s c b m).1 s := by
  obtain ⟨e1, e2, e3, e4⟩ := sides_move hx hz h c m (dt := dt)
  refine ⟨fun k hk l hl => ?_, fun k hk l hl => ?_, h.airU, h.airV, h.sideX, h.sideZ⟩
  · rw [h.u k hk l hl, e1, e2]; field_simp
  · rw [h.v k hk l hl, e3, e4]; field_simp

private theorem grow_pos (y : K) (y0 : 0 ≤ y) (y1 : y ≤ 1) : 0 < grow (-y) := by
  have y2 : 0 ≤ y ^ 2 := by positivity
  have y3 : 0 ≤ y ^ 3 := by positivity
  have y32 : y ^ 3 ≤ y ^ 2 := by nlinarith
  have y4 : 0 ≤ y ^ 4 := by positivity
  unfold grow
  rcases eq_or_lt_of_le y0 with e | e
  · rw [← e]; norm_num
  · have : 0 < y ^ 2 := by positivity
    ring_nf; linarith

/-- The part of its distance from the middle that is left to a marker after `n` substeps, each of which shortens the box by the part `h` of its first width. -/
def leftX (h : K) (n : Nat) : K := ∏ k ∈ Finset.range n, grow (-(h / (1 - ((k : K) + 1) * h)))

/-- The same for the height above the middle. -/
def leftZ (h : K) (n : Nat) : K := ∏ k ∈ Finset.range n, grow (h / (1 + ((k : K) + 1) * h))

/-- The box, the flow in it and the marker after each of the first `N` substeps. -/
theorem run (hx : 2 ≤ Nx) (hz : 2 ≤ Nz) (h : InPureShear Nx Nz eps b s) (wX : b.xmin < b.xmax) (wZ : b.zmin < b.zmax) (h0 : 0 ≤ eps * dt) (N : Nat) (h1 : N * (eps * dt) ≤ 1 / 2)
    (xs : b.xmin ≤ 0 ∧ 0 ≤ b.xmax) (zs : b.zmin ≤ 0 ∧ 0 ≤ b.zmax) (c : Grid.Coords K) (m : Adv.Marker K) (hm : m.phase ≠ -1)
    (ix : b.xmin * (1 - N * (eps * dt)) ≤ m.x ∧ m.x ≤ b.xmax * (1 - N * (eps * dt))) (iz : b.zmin ≤ m.z ∧ m.z ≤ b.zmax) : ∀ n ≤ N,
    let r := subSteps Nx Nz dt s c b m n
    (r.2.1.xmin = b.xmin * (1 - n * (eps * dt)) ∧ r.2.1.xmax = b.xmax * (1 - n * (eps * dt)) ∧ r.2.1.zmin = b.zmin * (1 + n * (eps * dt)) ∧ r.2.1.zmax = b.zmax * (1 + n * (eps * dt)))
    ∧ InFlow Nx Nz (eps / (1 - n * (eps * dt))) (eps / (1 + n * (eps * dt))) r.2.1 s
    ∧ (r.2.2.phase = m.phase ∧ r.2.2.x = m.x * leftX (eps * dt) n ∧ r.2.2.z = m.z * leftZ (eps * dt) n)
    ∧ (0 < leftX (eps * dt) n ∧ leftX (eps * dt) n ≤ 1) ∧ (0 ≤ leftZ (eps * dt) n ∧ leftZ (eps * dt) n ≤ 1 + n * (eps * dt)) := by
  obtain ⟨q, hq⟩ : ∃ q, q = eps * dt := ⟨_, rfl⟩
  rw [← hq] at h0 h1 ix ⊢
  intro n
  induction n with
  | zero => intro _; simpa [subSteps, leftX, leftZ] using h
  | succ n ih =>
    intro hn
    obtain ⟨⟨b1, b2, b3, b4⟩, fl, ⟨p1, p2, p3⟩, ⟨l0, l1⟩, ⟨z0, z1⟩⟩ := ih (by omega)
    set r := subSteps Nx Nz dt s c b m n with hr
    have nN : ((n : K) + 1) * q ≤ N * q := by
      have : ((n : K) + 1) ≤ N := by exact_mod_cast hn
      exact mul_le_mul_of_nonneg_right this h0
    have n0 : (0 : K) ≤ n * q := mul_nonneg (Nat.cast_nonneg _) h0
    have hs : ((n : K) + 1) * q = n * q + q := by ring
    have A : 0 < 1 - n * q := by linarith
    have A' : 0 < 1 - (n + 1) * q := by linarith
    have C : 0 < 1 + n * q := by linarith
    have C' : 0 < 1 + (n + 1) * q := by linarith
    have ed : eps / (1 - n * q) * dt = q / (1 - n * q) := by rw [hq]; ring
    have fd : eps / (1 + n * q) * dt = q / (1 + n * q) := by rw [hq]; ring
    have e1 : 1 - q / (1 - n * q) = (1 - (n + 1) * q) / (1 - n * q) := by rw [show 1 - ((n : K) + 1) * q = (1 - n * q) - q by ring, sub_div, div_self A.ne']
    have e2 : 1 + q / (1 + n * q) = (1 + (n + 1) * q) / (1 + n * q) := by rw [show 1 + ((n : K) + 1) * q = (1 + n * q) + q by ring, add_div, div_self C.ne']
    have gx : q / (1 - n * q) / (1 - q / (1 - n * q)) = q / (1 - (n + 1) * q) := by rw [e1]; exact div_div_div_cancel_right₀ A.ne' _ _
    have gz : q / (1 + n * q) / (1 + q / (1 + n * q)) = q / (1 + (n + 1) * q) := by rw [e2]; exact div_div_div_cancel_right₀ C.ne' _ _
    have hh0 : 0 ≤ eps / (1 - n * q) * dt := by rw [ed]; exact div_nonneg h0 A.le
    have hh1 : eps / (1 - n * q) * dt ≤ 1 / 2 := by rw [ed, div_le_iff₀ A]; linarith
    have hz0 : 0 ≤ eps / (1 + n * q) * dt := by rw [fd]; exact div_nonneg h0 C.le
    have w1 : r.2.1.xmin < r.2.1.xmax := by rw [b1, b2]; exact mul_lt_mul_of_pos_right wX A
    have w2 : r.2.1.zmin < r.2.1.zmax := by rw [b3, b4]; exact mul_lt_mul_of_pos_right wZ C
    have s1 : r.2.1.xmin ≤ 0 ∧ 0 ≤ r.2.1.xmax := by rw [b1, b2]; exact ⟨mul_nonpos_of_nonpos_of_nonneg xs.1 A.le, mul_nonneg xs.2 A.le⟩
    have s2 : r.2.1.zmin ≤ 0 ∧ 0 ≤ r.2.1.zmax := by rw [b3, b4]; exact ⟨mul_nonpos_of_nonpos_of_nonneg zs.1 C.le, mul_nonneg zs.2 C.le⟩
    have cx : ∀ t : K, t * (1 - n * q) * (1 - eps / (1 - n * q) * dt) = t * (1 - (n + 1) * q) := by intro t; rw [ed, e1, mul_assoc, mul_div_cancel₀ _ A.ne']
    have cz : ∀ t : K, t * (1 + n * q) * (1 + eps / (1 + n * q) * dt) = t * (1 + (n + 1) * q) := by intro t; rw [fd, e2, mul_assoc, mul_div_cancel₀ _ C.ne']
    have NA : 0 ≤ 1 - N * q := by linarith
    have mx : r.2.1.xmin * (1 - eps / (1 - n * q) * dt) ≤ r.2.2.x ∧ r.2.2.x ≤ r.2.1.xmax * (1 - eps / (1 - n * q) * dt) := by
      rw [b1, b2, p2, cx, cx]
      have t1 := scale_lo ix.1 (mul_nonpos_of_nonpos_of_nonneg xs.1 NA) l0.le l1
      have t2 := scale_hi ix.2 (mul_nonneg xs.2 NA) l0.le l1
      have u1 : b.xmin * (1 - (n + 1) * q) ≤ b.xmin * (1 - N * q) := mul_le_mul_of_nonpos_left (by linarith) xs.1
      have u2 : b.xmax * (1 - N * q) ≤ b.xmax * (1 - (n + 1) * q) := mul_le_mul_of_nonneg_left (by linarith) xs.2
      exact ⟨by linarith, by linarith⟩
    have mz : r.2.1.zmin ≤ r.2.2.z ∧ r.2.2.z ≤ r.2.1.zmax := by
      rw [b3, b4, p3]
      exact ⟨scale_lo iz.1 zs.1 z0 z1, scale_hi iz.2 zs.2 z0 z1⟩
    have pm : r.2.2.phase ≠ -1 := by rw [p1]; exact hm
    obtain ⟨k1, k2, k3⟩ := between_walls_kept_partial hx hz fl w1 w2 hh0 hh1 hz0 s1 s2 r.1 r.2.2 pm mx mz
    obtain ⟨d1, d2, d3, d4⟩ := sides_move hx hz fl r.1 r.2.2 (dt := dt)
    have nf := flow_after hx hz fl (dt := dt) (by rw [ed, e1]; exact (div_pos A' A).ne') (by rw [fd, e2]; exact (div_pos C' C).ne') r.1 r.2.2
    rw [b1, cx] at d1
    rw [b2, cx] at d2
    rw [b3, cz] at d3
    rw [b4, cz] at d4
    have y0 : 0 ≤ q / (1 - (n + 1) * q) := div_nonneg h0 A'.le
    have y1 : q / (1 - (n + 1) * q) ≤ 1 := by rw [div_le_one A']; linarith
    have v0 : 0 ≤ q / (1 + (n + 1) * q) := div_nonneg h0 C'.le
    have v1 : q / (1 + (n + 1) * q) ≤ 1 := by rw [div_le_one C']; linarith
    obtain ⟨-, -, -, -, gX⟩ := stages_x _ y0 y1
    obtain ⟨-, -, -, gZ0, gZ⟩ := stages_z (q / (1 + (n + 1) * q)) (q / (1 + n * q)) v0 v1 (div_nonneg h0 C.le) (by
      have : q / (1 + n * q) = q / (1 + (n + 1) * q) * (1 + q / (1 + n * q)) := by rw [← gz, div_mul_cancel₀]; rw [e2]; exact (div_pos C' C).ne'
      linear_combination this)
    have LX : leftX q (n + 1) = leftX q n * grow (-(q / (1 - (n + 1) * q))) := Finset.prod_range_succ _ _
    have LZ : leftZ q (n + 1) = leftZ q n * grow (q / (1 + (n + 1) * q)) := Finset.prod_range_succ _ _
    push_cast
    rw [LX, LZ]
    refine ⟨⟨d1, d2, d3, d4⟩, ?_, ⟨?_, ?_, ?_⟩, ⟨mul_pos l0 (grow_pos _ y0 y1), mul_le_one₀ l1 (grow_pos _ y0 y1).le gX⟩, mul_nonneg z0 gZ0, ?_⟩
    · have a1 : eps / (1 - n * q) / (1 - eps / (1 - n * q) * dt) = eps / (1 - (n + 1) * q) := by rw [ed, e1]; exact div_div_div_cancel_right₀ A.ne' _ _
      have a2 : eps / (1 + n * q) / (1 + eps / (1 + n * q) * dt) = eps / (1 + (n + 1) * q) := by rw [fd, e2]; exact div_div_div_cancel_right₀ C.ne' _ _
      rw [a1, a2] at nf
      exact nf
    · show (moveWithBox Nx Nz dt s r.1 r.2.1 r.2.2).2.phase = _
      rw [k1, p1]
    · show (moveWithBox Nx Nz dt s r.1 r.2.1 r.2.2).2.x = _
      rw [k2, p2, ed, gx]; ring
    · show (moveWithBox Nx Nz dt s r.1 r.2.1 r.2.2).2.z = _
      rw [k3, p3, fd, gz]; ring
    · calc leftZ q n * grow (q / (1 + (n + 1) * q)) ≤ (1 + n * q) * (1 + q / (1 + n * q)) := mul_le_mul z1 gZ gZ0 C.le
        _ = 1 + (n + 1) * q := by rw [e2, mul_div_cancel₀ _ C.ne']

/-- C169 (rock).  In a body shortened by pure shear a marker that lies between the places the side walls come to is kept through all substeps, and moves as if the rate grew from one substep to the next. -/
theorem rock_of_substeps_partial (hx : 2 ≤ Nx) (hz : 2 ≤ Nz) (h : InPureShear Nx Nz eps b s) (wX : b.xmin < b.xmax) (wZ : b.zmin < b.zmax) (n : Nat) (hn : 0 < n) (h0 : 0 ≤ eps * dt) (h1 : eps * dt ≤ 1 / 2)
    (xs : b.xmin ≤ 0 ∧ 0 ≤ b.xmax) (zs : b.zmin ≤ 0 ∧ 0 ≤ b.zmax) (c : Grid.Coords K) (m : Adv.Marker K) (hm : m.phase ≠ -1)
    (ix : b.xmin * (1 - eps * dt) ≤ m.x ∧ m.x ≤ b.xmax * (1 - eps * dt)) (iz : b.zmin ≤ m.z ∧ m.z ≤ b.zmax) :
    let m' := (subSteps Nx Nz (dt / n) s c b m n).2.2
    m'.phase = m.phase ∧ m'.x = m.x * leftX (eps * dt / n) n ∧ m'.z = m.z * leftZ (eps * dt / n) n := by
  have n0 : (0 : K) < n := by exact_mod_cast hn
  have e : eps * (dt / n) = eps * dt / n := by ring
  have e' : n * (eps * (dt / n)) = eps * dt := by field_simp
  obtain ⟨-, -, r, -⟩ := run hx hz h wX wZ (dt := dt / n) (by rw [e]; exact div_nonneg h0 n0.le) n (by rw [e']; exact h1) xs zs c m hm (by rw [e']; exact ix) iz n le_rfl
  rw [e] at r
  exact r

/-- C169 (drift).  However many substeps there are, rock to the right of the middle ends up nearer to the middle, relative to the right wall, than it was. -/
theorem falls_behind_in_substeps (hx : 2 ≤ Nx) (hz : 2 ≤ Nz) (h : InPureShear Nx Nz eps b s) (wX : b.xmin < b.xmax) (wZ : b.zmin < b.zmax) (n : Nat) (hn : 0 < n) (h0 : 0 < eps * dt) (h1 : eps * dt ≤ 1 / 2)
    (xs : b.xmin ≤ 0 ∧ 0 < b.xmax) (zs : b.zmin ≤ 0 ∧ 0 ≤ b.zmax) (c : Grid.Coords K) (m : Adv.Marker K) (hm : m.phase ≠ -1)
    (ix : 0 < m.x ∧ m.x ≤ b.xmax * (1 - eps * dt)) (iz : b.zmin ≤ m.z ∧ m.z ≤ b.zmax) :
    (subSteps Nx Nz (dt / n) s c b m n).2.2.x / (subSteps Nx Nz (dt / n) s c b m n).2.1.xmax < m.x / b.xmax := by
  have n0 : (0 : K) < n := by exact_mod_cast hn
  have e' : n * (eps * (dt / n)) = eps * dt := by field_simp
  have q0 : 0 < eps * (dt / n) := by
    have : eps * (dt / n) = eps * dt / n := by ring
    rw [this]; exact div_pos h0 n0
  have R := run hx hz h wX wZ q0.le n (by rw [e']; exact h1) ⟨xs.1, xs.2.le⟩ zs c m hm (by rw [e']; exact ⟨by nlinarith [xs.1], ix.2⟩) iz
  have key : ∀ k, k < n → (subSteps Nx Nz (dt / n) s c b m (k + 1)).2.2.x / (subSteps Nx Nz (dt / n) s c b m (k + 1)).2.1.xmax < m.x / b.xmax := by
    intro k
    induction k with
    | zero =>
      intro hk
      have hq : eps * (dt / n) ≤ eps * dt := by
        rw [← e']
        have : (1 : K) ≤ n := by exact_mod_cast hn
        exact le_mul_of_one_le_left q0.le this
      exact rock_falls_behind hx hz h wX wZ q0 (by linarith) q0.le xs zs c m hm ⟨ix.1, le_trans ix.2 (mul_le_mul_of_nonneg_left (by linarith) xs.2.le)⟩ iz
    | succ k ih =>
      intro hk
      refine lt_trans ?_ (ih (by omega))
      obtain ⟨⟨b1, b2, b3, b4⟩, fl, ⟨p1, p2, p3⟩, ⟨l0, l1⟩, ⟨z0, z1⟩⟩ := R (k + 1) (by omega)
      set r := subSteps Nx Nz (dt / n) s c b m (k + 1) with hr
      obtain ⟨q, hq⟩ : ∃ q, q = eps * (dt / n) := ⟨_, rfl⟩
      obtain ⟨j, hj⟩ : ∃ j : K, j = ((k + 1 : Nat) : K) := ⟨_, rfl⟩
      rw [← hq] at q0 e' p2 p3 l0 l1 z0 z1 b1 b2 b3 b4
      rw [← hq, ← hj] at fl
      rw [← hj] at b1 b2 b3 b4 z1
      have jn : j + 1 ≤ n := by rw [hj]; exact_mod_cast hk
      have j0 : 0 ≤ j := by rw [hj]; exact Nat.cast_nonneg _
      have jq : (j + 1) * q ≤ 1 / 2 := le_trans (mul_le_mul_of_nonneg_right jn q0.le) (by rw [e']; exact h1)
      have jq' : (j + 1) * q ≤ eps * dt := by rw [← e']; exact mul_le_mul_of_nonneg_right jn q0.le
      have jq0 : 0 ≤ j * q := mul_nonneg j0 q0.le
      have hs : (j + 1) * q = j * q + q := by ring
      have A : 0 < 1 - j * q := by linarith
      have C : 0 < 1 + j * q := by linarith
      have ed : eps / (1 - j * q) * (dt / n) = q / (1 - j * q) := by rw [hq]; ring
      have fd : eps / (1 + j * q) * (dt / n) = q / (1 + j * q) := by rw [hq]; ring
      refine rock_falls_behind hx hz fl (by rw [b1, b2]; exact mul_lt_mul_of_pos_right wX A) (by rw [b3, b4]; exact mul_lt_mul_of_pos_right wZ C)
        (by rw [ed]; exact div_pos q0 A) (by rw [ed, div_le_iff₀ A]; linarith) (by rw [fd]; exact div_nonneg q0.le C.le)
        ⟨by rw [b1]; exact mul_nonpos_of_nonpos_of_nonneg xs.1 A.le, by rw [b2]; exact mul_pos xs.2 A⟩
        ⟨by rw [b3]; exact mul_nonpos_of_nonpos_of_nonneg zs.1 C.le, by rw [b4]; exact mul_nonneg zs.2 C.le⟩ r.1 r.2.2 (by rw [p1]; exact hm)
        ⟨by rw [p2]; exact mul_pos ix.1 l0, ?_⟩ ⟨by rw [b3, p3]; exact scale_lo iz.1 zs.1 z0 z1, by rw [b4, p3]; exact scale_hi iz.2 zs.2 z0 z1⟩
      have cx : b.xmax * (1 - j * q) * (1 - q / (1 - j * q)) = b.xmax * (1 - (j + 1) * q) := by
        rw [mul_assoc, mul_sub, mul_one, mul_div_cancel₀ _ A.ne']; ring
      rw [b2, p2, ed, cx]
      have t2 : m.x * leftX q (k + 1) ≤ m.x := mul_le_of_le_one_right ix.1.le l1
      have u2 : b.xmax * (1 - eps * dt) ≤ b.xmax * (1 - (j + 1) * q) := mul_le_mul_of_nonneg_left (by linarith) xs.2.le
      linarith [ix.2]
  obtain ⟨k, rfl⟩ : ∃ k, n = k + 1 := ⟨n - 1, by omega⟩
  exact key k (by omega)

private theorem grow_low (y : K) (y0 : 0 ≤ y) (y1 : y ≤ 1) : 1 - y ^ 2 / 2 ≤ grow (-y) * (1 + y) := by
  have y3 : 0 ≤ y ^ 3 := by positivity
  have y4 : y ^ 4 ≤ y ^ 3 := by nlinarith
  have y5 : 0 ≤ y ^ 5 := by positivity
  unfold grow
  ring_nf
  linarith

private theorem left_low (q : K) (q0 : 0 ≤ q) : ∀ n : Nat, n * q ≤ 1 / 2 → (1 - n * q) * (1 - 2 * n * q ^ 2) ≤ leftX q n
  | 0 => by simp [leftX]
  | n + 1 => by
    intro hn
    push_cast at hn ⊢
    have hs : ((n : K) + 1) * q = n * q + q := by ring
    have n0 : (0 : K) ≤ n * q := mul_nonneg (Nat.cast_nonneg _) q0
    have ih := left_low q q0 n (by linarith)
    have A' : 0 < 1 - ((n : K) + 1) * q := by linarith
    obtain ⟨y, hy⟩ : ∃ y, y = q / (1 - ((n : K) + 1) * q) := ⟨_, rfl⟩
    have hyq : y * (1 - ((n : K) + 1) * q) = q := by rw [hy, div_mul_cancel₀ _ A'.ne']
    have y0 : 0 ≤ y := by rw [hy]; exact div_nonneg q0 A'.le
    have y2 : y ≤ 2 * q := by rw [hy, div_le_iff₀ A']; nlinarith
    have y1 : y ≤ 1 := by rw [hy, div_le_one A']; linarith
    have LX : leftX q (n + 1) = leftX q n * grow (-y) := by rw [hy]; exact Finset.prod_range_succ _ _
    have g0 := (grow_pos y y0 y1).le
    have gl := grow_low y y0 y1
    have e : 1 - n * q = (1 - ((n : K) + 1) * q) * (1 + y) := by linear_combination -hyq
    have yy : y ^ 2 ≤ 4 * q ^ 2 := by nlinarith
    have B : 0 ≤ 1 - 2 * n * q ^ 2 := by nlinarith
    have step : (1 - ((n : K) + 1) * q) * (1 - 2 * q ^ 2) ≤ (1 - n * q) * grow (-y) := by
      calc (1 - ((n : K) + 1) * q) * (1 - 2 * q ^ 2) ≤ (1 - ((n : K) + 1) * q) * (grow (-y) * (1 + y)) := mul_le_mul_of_nonneg_left (by linarith) A'.le
        _ = (1 - n * q) * grow (-y) := by rw [e]; ring
    rw [LX]
    calc (1 - ((n : K) + 1) * q) * (1 - 2 * (n + 1) * q ^ 2) ≤ (1 - 2 * n * q ^ 2) * ((1 - ((n : K) + 1) * q) * (1 - 2 * q ^ 2)) := by
          have : 0 ≤ (1 - ((n : K) + 1) * q) * (4 * n * q ^ 4) := mul_nonneg A'.le (by positivity)
          linarith
      _ ≤ (1 - 2 * n * q ^ 2) * ((1 - n * q) * grow (-y)) := mul_le_mul_of_nonneg_left step B
      _ = (1 - n * q) * (1 - 2 * n * q ^ 2) * grow (-y) := by ring
      _ ≤ leftX q n * grow (-y) := mul_le_mul_of_nonneg_right ih g0

/-- C169 (convergence).  The drift is at most of the order of the strain of the step times the strain of a substep: with `n` substeps the rock keeps its place relative to the wall up to the part `2 (eps dt)^2 / n`. -/
theorem drift_vanishes (hx : 2 ≤ Nx) (hz : 2 ≤ Nz) (h : InPureShear Nx Nz eps b s) (wX : b.xmin < b.xmax) (wZ : b.zmin < b.zmax) (n : Nat) (hn : 0 < n) (h0 : 0 ≤ eps * dt) (h1 : eps * dt ≤ 1 / 2)
    (xs : b.xmin ≤ 0 ∧ 0 < b.xmax) (zs : b.zmin ≤ 0 ∧ 0 ≤ b.zmax) (c : Grid.Coords K) (m : Adv.Marker K) (hm : m.phase ≠ -1)
    (ix : 0 ≤ m.x ∧ m.x ≤ b.xmax * (1 - eps * dt)) (iz : b.zmin ≤ m.z ∧ m.z ≤ b.zmax) :
    m.x / b.xmax * (1 - 2 * (eps * dt) ^ 2 / n) ≤ (subSteps Nx Nz (dt / n) s c b m n).2.2.x / (subSteps Nx Nz (dt / n) s c b m n).2.1.xmax := by
  have n0 : (0 : K) < n := by exact_mod_cast hn
  have e' : n * (eps * (dt / n)) = eps * dt := by field_simp
  have q0 : 0 ≤ eps * (dt / n) := by
    have : eps * (dt / n) = eps * dt / n := by ring
    rw [this]; exact div_nonneg h0 n0.le
  obtain ⟨⟨-, b2, -, -⟩, -, ⟨-, p2, -⟩, -⟩ := run hx hz h wX wZ q0 n (by rw [e']; exact h1) ⟨xs.1, xs.2.le⟩ zs c m hm (by rw [e']; exact ⟨by nlinarith [xs.1], ix.2⟩) iz n le_rfl
  have L := left_low _ q0 n (by rw [e']; exact h1)
  rw [e'] at b2 L
  have e2 : 2 * n * (eps * (dt / n)) ^ 2 = 2 * (eps * dt) ^ 2 / n := by field_simp
  rw [e2] at L
  have A : 0 < 1 - eps * dt := by linarith
  rw [p2, b2, le_div_iff₀ (mul_pos xs.2 A)]
  have := mul_le_mul_of_nonneg_left L ix.1
  calc m.x / b.xmax * (1 - 2 * (eps * dt) ^ 2 / n) * (b.xmax * (1 - eps * dt)) = m.x / b.xmax * b.xmax * ((1 - eps * dt) * (1 - 2 * (eps * dt) ^ 2 / n)) := by ring
    _ = m.x * ((1 - eps * dt) * (1 - 2 * (eps * dt) ^ 2 / n)) := by rw [div_mul_cancel₀ _ xs.2.ne']
    _ ≤ _ := this

/-- C169 (negation for the rock).  A step that halves the width of the box brings a marker off the middle to another place when it is divided in two, although the box is the same. -/
theorem rock_depends_on_substeps (hx : 2 ≤ Nx) (hz : 2 ≤ Nz) (h : InPureShear Nx Nz eps b s) (wX : b.xmin < b.xmax) (wZ : b.zmin < b.zmax) (h1 : eps * dt = 1 / 2)
    (xs : b.xmin ≤ 0 ∧ 0 ≤ b.xmax) (zs : b.zmin ≤ 0 ∧ 0 ≤ b.zmax) (c : Grid.Coords K) (m : Adv.Marker K) (hm : m.phase ≠ -1)
    (ix : b.xmin * (1 / 2) ≤ m.x ∧ m.x ≤ b.xmax * (1 / 2)) (iz : b.zmin ≤ m.z ∧ m.z ≤ b.zmax) (h0 : m.x ≠ 0) :
    (subSteps Nx Nz (dt / (2 : Nat)) s c b m 2).2.1 = (subSteps Nx Nz (dt / (1 : Nat)) s c b m 1).2.1
    ∧ (subSteps Nx Nz (dt / (2 : Nat)) s c b m 2).2.2.x ≠ (subSteps Nx Nz (dt / (1 : Nat)) s c b m 1).2.2.x := by
  have ix' : b.xmin * (1 - eps * dt) ≤ m.x ∧ m.x ≤ b.xmax * (1 - eps * dt) := by rw [h1]; norm_num at ix ⊢; exact ix
  refine ⟨box_of_substeps s b dt 2 1 (by norm_num) (by norm_num) c c m m, ?_⟩
  obtain ⟨-, r2, -⟩ := rock_of_substeps_partial hx hz h wX wZ 2 (by norm_num) (by rw [h1]; norm_num) h1.le xs zs c m hm ix' iz
  obtain ⟨-, r1, -⟩ := rock_of_substeps_partial hx hz h wX wZ 1 (by norm_num) (by rw [h1]; norm_num) h1.le xs zs c m hm ix' iz
  rw [r2, r1, h1]
  intro e
  have := mul_left_cancel₀ h0 e
  norm_num [leftX, grow, Finset.prod_range_succ] at this

/-- A marker that was switched off in a substep stays so. -/
theorem lost_stays_lost (d : K) (c : Grid.Coords K) (m : Adv.Marker K) (n : Nat) (h : (subSteps Nx Nz d s c b m n).2.2.phase = -1) : ∀ k, (subSteps Nx Nz d s c b m (n + k)).2.2.phase = -1
  | 0 => h
  | k + 1 => by
    have ih := lost_stays_lost d c m n h k
    show (Adv.rk4 _ false _ d (subSteps Nx Nz d s c b m (n + k)).2.2).phase = -1
    rw [Adv.rk4_dead _ false _ d _ ih (fun e => by simp at e)]
    exact ih

/-- C169 (loss).  Dividing the step does not save the rock at the side walls: a marker on a wall is lost whatever the number of substeps. -/
theorem wall_rock_lost_in_substeps (hx : 2 ≤ Nx) (hz : 2 ≤ Nz) (h : InPureShear Nx Nz eps b s) (xs : b.xmin < 0 ∧ 0 < b.xmax) (wZ : b.zmin < b.zmax) (n : Nat) (hn : 0 < n) (h0 : 0 < eps * dt) (h1 : eps * dt < 1 / 2)
    (c : Grid.Coords K) (m : Adv.Marker K) (hm : m.phase ≠ -1) (hw : m.x = b.xmax ∨ m.x = b.xmin) :
    (subSteps Nx Nz (dt / n) s c b m n).2.2.phase = -1 := by
  have n1 : (1 : K) ≤ n := by exact_mod_cast hn
  have e : eps * (dt / n) = eps * dt / n := by ring
  have q0 : 0 < eps * (dt / n) := by rw [e]; exact div_pos h0 (by linarith)
  have q1 : eps * (dt / n) < 1 / 2 := by rw [e]; exact lt_of_le_of_lt (div_le_self h0.le n1) h1
  have l : (subSteps Nx Nz (dt / n) s c b m 1).2.2.phase = -1 := (rock_on_wall_lost hx hz h xs wZ q0 q1 c m hm hw).1
  obtain ⟨k, rfl⟩ : ∃ k, n = 1 + k := ⟨n - 1, by omega⟩
  exact lost_stays_lost _ c m 1 l k

/-! ### The hypotheses can be met -/

/-- Six substeps of a body shortened by a half. -/
example : (subSteps (K := ℚ) 3 3 (1 / 2 / (6 : Nat)) demoSides demoGrid ⟨-1, 1, -1, 1⟩ ⟨1 / 2, 1 / 4, 0, 0, 2⟩ 6).2.2.phase = 2 :=
  (rock_of_substeps_partial (eps := 1) (dt := 1 / 2) (by norm_num) (by norm_num) demo_shear (by norm_num) (by norm_num) 6 (by norm_num) (by norm_num) (by norm_num) (by norm_num) (by norm_num) demoGrid ⟨1 / 2, 1 / 4, 0, 0, 2⟩ (by norm_num) (by norm_num) (by norm_num)).1

example : (subSteps (K := ℚ) 3 3 (1 / 2 / (6 : Nat)) demoSides demoGrid ⟨-1, 1, -1, 1⟩ ⟨1 / 2, 1 / 4, 0, 0, 2⟩ 6).2.2.x / (subSteps (K := ℚ) 3 3 (1 / 2 / (6 : Nat)) demoSides demoGrid ⟨-1, 1, -1, 1⟩ ⟨1 / 2, 1 / 4, 0, 0, 2⟩ 6).2.1.xmax < 1 / 2 / 1 :=
  falls_behind_in_substeps (eps := 1) (dt := 1 / 2) (by norm_num) (by norm_num) demo_shear (by norm_num) (by norm_num) 6 (by norm_num) (by norm_num) (by norm_num) (by norm_num) (by norm_num) demoGrid ⟨1 / 2, 1 / 4, 0, 0, 2⟩ (by norm_num) (by norm_num) (by norm_num)

example : (subSteps (K := ℚ) 3 3 (1 / 2 / (2 : Nat)) demoSides demoGrid ⟨-1, 1, -1, 1⟩ ⟨1 / 2, 1 / 4, 0, 0, 2⟩ 2).2.2.x ≠ (subSteps (K := ℚ) 3 3 (1 / 2 / (1 : Nat)) demoSides demoGrid ⟨-1, 1, -1, 1⟩ ⟨1 / 2, 1 / 4, 0, 0, 2⟩ 1).2.2.x :=
  (rock_depends_on_substeps (eps := 1) (dt := 1 / 2) (by norm_num) (by norm_num) demo_shear (by norm_num) (by norm_num) (by norm_num) (by norm_num) (by norm_num) demoGrid ⟨1 / 2, 1 / 4, 0, 0, 2⟩ (by norm_num) (by norm_num) (by norm_num) (by norm_num)).2

example : (subSteps (K := ℚ) 3 3 (1 / 4 / (5 : Nat)) demoSides demoGrid ⟨-1, 1, -1, 1⟩ ⟨1, 1 / 4, 0, 0, 2⟩ 5).2.2.phase = -1 :=
  wall_rock_lost_in_substeps (eps := 1) (dt := 1 / 4) (by norm_num) (by norm_num) demo_shear (by norm_num) (by norm_num) 5 (by norm_num) (by norm_num) (by norm_num) demoGrid ⟨1, 1 / 4, 0, 0, 2⟩ (by norm_num) (Or.inl rfl)

example : (1 : ℚ) / 2 / 1 * (1 - 2 * (1 * (1 / 2)) ^ 2 / (100 : Nat)) ≤ (subSteps (K := ℚ) 3 3 (1 / 2 / (100 : Nat)) demoSides demoGrid ⟨-1, 1, -1, 1⟩ ⟨1 / 2, 1 / 4, 0, 0, 2⟩ 100).2.2.x / (subSteps (K := ℚ) 3 3 (1 / 2 / (100 : Nat)) demoSides demoGrid ⟨-1, 1, -1, 1⟩ ⟨1 / 2, 1 / 4, 0, 0, 2⟩ 100).2.1.xmax :=
  drift_vanishes (eps := 1) (dt := 1 / 2) (by norm_num) (by norm_num) demo_shear (by norm_num) (by norm_num) 100 (by norm_num) (by norm_num) (by norm_num) (by norm_num) (by norm_num) demoGrid ⟨1 / 2, 1 / 4, 0, 0, 2⟩ (by norm_num) (by norm_num) (by norm_num)

end Verif.Moving
