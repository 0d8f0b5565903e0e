import Verif.Props.MovingBox
import Verif.Props.HistoryTensor
import Verif.Props.InterpCentres
import Verif.Props.StepSimpleShear

/- C168: the finite strain recorded on the markers and the motion of the markers. -/
set_option linter.unusedSectionVars false
set_option linter.unusedVariables false
namespace Verif.Strain
open Verif Interp Hist Finset

variable {K : Type*} [Field K] [LinearOrder K] [IsStrictOrderedRing K] [FloorRing K]

/-- The tensor of a marker maps the initial separation of two markers to the present one, up to whole widths `W` of a box with periodic sides. -/
def Spec.IsStrainOfMotion (W : K) (F : Tens K) (p0 q0 p q : Adv.Marker K) : Prop :=
  (∃ k : ℤ, q.x - p.x = F.xx * (q0.x - p0.x) + F.xz * (q0.z - p0.z) + k * W) ∧ q.z - p.z = F.zx * (q0.x - p0.x) + F.zz * (q0.z - p0.z)

/-- The grid of a box: cells, vertices, extended centres. -/
structure Mesh (ncx ncz : Nat) (xg zg xe ze : Int → K) (dx dz : K) (B : Adv.Box K) : Prop where
  nx1 : 1 ≤ ncx
  nz1 : 1 ≤ ncz
  dxp : 0 < dx
  dzp : 0 < dz
  regX : Regular xg B.xmin dx
  regZ : Regular zg B.zmin dz
  regXe : Regular xe (B.xmin - dx / 2) dx
  regZe : Regular ze (B.zmin - dz / 2) dz
  xmax : B.xmax = B.xmin + ncx * dx
  zmax : B.zmax = B.zmin + ncz * dz

/-- The velocity the markers see (`V2P`, call in AdvectionRoutines.c:371), with or without the conservative interpolation. -/
def seen (ncx ncz : Nat) (xg zg xe ze : Int → K) (dx dz : K) (u v : Int → K) (tu tv : Int → Int) (taras : Bool) (x z : K) : K × K :=
  (v2pVx (ncx + 1 : Nat) (ncz + 2 : Nat) xg ze dx dz u tu taras x z, v2pVz (ncx + 2 : Nat) (ncz + 1 : Nat) xe zg dx dz v tv taras x z)

section shear
variable {ncx ncz : Nat} {xg zg xe ze : Int → K} {dx dz : K} {B : Adv.Box K}

/-- The velocity seen in simple shear. -/
private theorem seen_shear (M : Mesh ncx ncz xg zg xe ze dx dz B) {a c : K} {u v : Int → K} (h : AffineVel ncx ncz B.xmin B.zmin dx dz a 0 c 0 0 0 u v)
    {tu tv : Int → Int} (au : NoAir (ncx + 1) (ncz + 2) tu) (av : NoAir (ncx + 2) (ncz + 1) tv) (taras : Bool) (m : Adv.Marker K) (hi : Adv.Inside B m) :
    seen ncx ncz xg zg xe ze dx dz u v tu tv taras m.x m.z = (a + c * m.z, 0) := by
  obtain ⟨i1, i2, i3, i4⟩ := hi
  have nx := M.nx1
  have nz := M.nz1
  have hdx := M.dxp
  have hdz := M.dzp
  rw [M.xmax] at i2
  rw [M.zmax] at i4
  have G1 : InGrid (ncx + 1) (ncz + 2) xg ze B.xmin (B.zmin - dz / 2) dx dz m.x m.z :=
    ⟨by omega, by omega, hdx, hdz, M.regX, M.regZe, i1, by push_cast; linarith, by linarith, by push_cast; linarith⟩
  have G2 : InGrid (ncx + 2) (ncz + 1) xe zg (B.xmin - dx / 2) B.zmin dx dz m.x m.z :=
    ⟨by omega, by omega, hdx, hdz, M.regXe, M.regZ, by linarith, by push_cast; linarith, i3, by push_cast; linarith⟩
  have e1 := (velocity_exact_for_linear G1 u tu au taras a 0 c (fun j hj i hi => by
    have := h.hu j (by omega) i (by omega)
    rw [show ((j : Int) + (i : Int) * ((ncx + 1 : Nat) : Int)) = (j : Int) + i * (ncx + 1) by push_cast; ring, this, M.regZe]
    push_cast; ring)).1
  have e2 := (velocity_exact_for_linear G2 v tv av taras 0 0 0 (fun j hj i hi => by
    have := h.hv j (by omega) i (by omega)
    rw [show ((j : Int) + (i : Int) * ((ncx + 2 : Nat) : Int)) = (j : Int) + i * (ncx + 2) by push_cast; ring, this]
    ring)).2
  exact Prod.ext (by show v2pVx _ _ _ _ _ _ _ _ _ _ _ = _; rw [e1]; ring) (by show v2pVz _ _ _ _ _ _ _ _ _ _ _ = _; rw [e2]; ring)

private theorem out_wrapped (x z vx vz : K) (ph : Int) (h0 : B.zmin ≤ z) (h1 : z ≤ B.zmax) :
    Adv.isoutPart B true ⟨x, z, vx, vz, ph⟩ = ⟨Adv.wrapE B (Adv.wrapW B x), z, vx, vz, ph⟩ := by
  unfold Adv.isoutPart
  simp only [if_true]
  rw [if_neg (by push Not; exact ⟨h0, h1⟩)]

/-- One step of simple shear for a marker that crosses the box at most once. -/
theorem shear_step (M : Mesh ncx ncz xg zg xe ze dx dz B) {a c : K} {u v : Int → K} (h : AffineVel ncx ncz B.xmin B.zmin dx dz a 0 c 0 0 0 u v)
    {tu tv : Int → Int} (au : NoAir (ncx + 1) (ncz + 2) tu) (av : NoAir (ncx + 2) (ncz + 1) tv) (taras : Bool) (m : Adv.Marker K) (hm : m.phase ≠ -1) (hi : Adv.Inside B m)
    (dt : K) (hc : |dt * (a + c * m.z)| ≤ B.xmax - B.xmin) (junk : Quad Int) (tagP tagG : Int → Int) (F : Tens K) :
    let m' := Adv.rk4 B true (seen ncx ncz xg zg xe ze dx dz u v tu tv taras) dt m
    m'.phase = m.phase ∧ Adv.Inside B m' ∧ m'.z = m.z ∧ (∃ k : ℤ, m'.x = m.x + dt * (a + c * m.z) + k * (B.xmax - B.xmin)) ∧
    ∃ F', deformMarker (ncx + 1) (ncz + 1) true junk xg zg xe ze dx dz dt u v tagP tagG m'.phase m'.x m'.z F = some F' ∧ F'.mat = (1 + dt • !![0, c; 0, 0]) * F.mat := by
  have wB : B.xmin < B.xmax := by
    rw [M.xmax]
    have : (0 : K) < ncx := by exact_mod_cast M.nx1
    nlinarith [mul_pos this M.dxp]
  have hv := seen_shear M h au av taras
  obtain ⟨i1, i2, i3, i4⟩ := hi
  generalize hU : a + c * m.z = U at hc
  generalize hvel : seen ncx ncz xg zg xe ze dx dz u v tu tv taras = vel at *
  have hab := abs_le.mp hc
  have wr : ∀ r : K, 0 ≤ r → r ≤ 1 → B.xmin ≤ Adv.wrapE B (Adv.wrapW B (m.x + r * dt * U)) ∧ Adv.wrapE B (Adv.wrapW B (m.x + r * dt * U)) ≤ B.xmax := by
    intro r r0 r1
    have q1 : -(B.xmax - B.xmin) ≤ r * dt * U := by nlinarith [mul_le_mul_of_nonneg_left hab.1 r0]
    have q2 : r * dt * U ≤ B.xmax - B.xmin := by nlinarith [mul_le_mul_of_nonneg_left hab.2 r0]
    exact (Adv.wrap_spec B wB (m.x + r * dt * U) (by linarith) (by linarith)).2.2.2
  have va : ∀ x vx vz : K, B.xmin ≤ x → x ≤ B.xmax → Adv.v2p vel ⟨x, m.z, vx, vz, m.phase⟩ = (U, 0) := by
    intro x vx vz l r
    unfold Adv.v2p
    rw [if_pos hm]
    have := hv ⟨x, m.z, vx, vz, m.phase⟩ ⟨l, r, i3, i4⟩
    simp only at this
    rw [this, hU]
  have sh : ∀ (x r : K), Adv.isoutPart B true (Adv.shoot m.x m.z (r * dt) (U, 0) ⟨x, m.z, m.vx, m.vz, m.phase⟩) = ⟨Adv.wrapE B (Adv.wrapW B (m.x + r * dt * U)), m.z, m.vx, m.vz, m.phase⟩ := by
    intro x r
    rw [Adv.shoot_active (by exact hm)]
    simp only [mul_zero, add_zero]
    exact out_wrapped _ _ _ _ _ i3 i4
  have key : Adv.rk4 B true vel dt m = ⟨Adv.wrapE B (Adv.wrapW B (m.x + 1 * dt * U)), m.z, U, 0, m.phase⟩ := by
    unfold Adv.rk4
    have e0 : Adv.v2p vel m = (U, 0) := va m.x m.vx m.vz i1 i2
    have s0 := sh m.x (1 / 2)
    have w1 := wr (1 / 2) (by norm_num) (by norm_num)
    have w2 := wr 1 (by norm_num) le_rfl
    have em : (⟨m.x, m.z, m.vx, m.vz, m.phase⟩ : Adv.Marker K) = m := rfl
    rw [em] at s0
    simp only [e0, s0, va _ _ _ w1.1 w1.2, sh, va _ _ _ w2.1 w2.2]
    rw [if_pos hm]
    have n1 : m.x + dt * (1 / 6 * (U + 2 * U + 2 * U + U)) = m.x + 1 * dt * U := by ring
    have n2 : m.z + dt * (1 / 6 * ((0 : K) + 2 * 0 + 2 * 0 + 0)) = m.z := by ring
    have n3 : 1 / 6 * (U + 2 * U + 2 * U + U) = U := by ring
    have n4 : 1 / 6 * ((0 : K) + 2 * 0 + 2 * 0 + 0) = 0 := by ring
    rw [n1, n2, n3, n4]
    exact out_wrapped _ _ _ _ _ i3 i4
  have w2 := wr 1 (by norm_num) le_rfl
  intro m'
  have em : m' = ⟨Adv.wrapE B (Adv.wrapW B (m.x + 1 * dt * U)), m.z, U, 0, m.phase⟩ := key
  have hin : Adv.Inside B m' := by rw [em]; exact ⟨w2.1, w2.2, i3, i4⟩
  have hp : m'.phase = m.phase := by rw [em]
  refine ⟨hp, hin, by rw [em], ?_, ?_⟩
  · rw [em]
    simp only
    have e1 : m.x + 1 * dt * U = m.x + dt * U := by ring
    obtain ⟨a1, a2, a3, -, -⟩ := Adv.wrap_spec B wB (m.x + dt * U) (by linarith) (by linarith)
    rw [e1]
    by_cases b1 : m.x + dt * U < B.xmin
    · exact ⟨1, by rw [a1 b1]; push_cast; ring⟩
    by_cases b2 : B.xmax < m.x + dt * U
    · exact ⟨-1, by rw [a2 b2]; push_cast; ring⟩
    · exact ⟨0, by rw [a3 (not_lt.mp b1) (not_lt.mp b2)]; push_cast; ring⟩
  · obtain ⟨j1, j2, j3, j4⟩ := hin
    rw [M.xmax] at j2
    rw [M.zmax] at j4
    have nx := M.nx1
    have nz := M.nz1
    have Gv : InGrid (ncx + 1) (ncz + 1) xg zg B.xmin B.zmin dx dz m'.x m'.z :=
      ⟨by omega, by omega, M.dxp, M.dzp, M.regX, M.regZ, j1, by push_cast; linarith, j3, by push_cast; linarith⟩
    have Gc : InBox ncx ncz xe ze B.xmin B.zmin dx dz m'.x m'.z := ⟨nx, nz, M.dxp, M.dzp, M.regXe, M.regZe, j1, j2, j3, j4⟩
    exact deformation_gradient_affine Gv Gc h true junk dt tagP tagG m'.phase (by rw [hp]; exact hm) F

/-- A run in simple shear: in each step the flow is one of simple shear, at a rate `c n` of its own and with a uniform motion `a n`, and no marker crosses more than the width of the box. -/
structure ShearRun (ncx ncz : Nat) (xg zg xe ze : Int → K) (dx dz : K) (B : Adv.Box K) (taras : Bool) (junk : Quad Int) (tagP tagG tu tv : Int → Int)
    (a c dt : Nat → K) (u v : Nat → Int → K) (m : Nat → Adv.Marker K) (F : Nat → Tens K) : Prop where
  flow : ∀ n, AffineVel ncx ncz B.xmin B.zmin dx dz (a n) 0 (c n) 0 0 0 (u n) (v n)
  active : (m 0).phase ≠ -1
  inside : Adv.Inside B (m 0)
  once : ∀ n, |dt n * (a n + c n * (m 0).z)| ≤ B.xmax - B.xmin
  start : F 0 = ⟨1, 0, 0, 1⟩
  moved : ∀ n, m (n + 1) = Adv.rk4 B true (seen ncx ncz xg zg xe ze dx dz (u n) (v n) tu tv taras) (dt n) (m n)
  strained : ∀ n, deformMarker (ncx + 1) (ncz + 1) true junk xg zg xe ze dx dz (dt n) (u n) (v n) tagP tagG (m (n + 1)).phase (m (n + 1)).x (m (n + 1)).z (F n) = some (F (n + 1))

/-- One marker through such a run. -/
theorem shear_run (M : Mesh ncx ncz xg zg xe ze dx dz B) {taras : Bool} {junk : Quad Int} {tagP tagG tu tv : Int → Int} (au : NoAir (ncx + 1) (ncz + 2) tu) (av : NoAir (ncx + 2) (ncz + 1) tv)
    {a c dt : Nat → K} {u v : Nat → Int → K} {m : Nat → Adv.Marker K} {F : Nat → Tens K} (R : ShearRun ncx ncz xg zg xe ze dx dz B taras junk tagP tagG tu tv a c dt u v m F) (n : Nat) :
    (m n).phase ≠ -1 ∧ Adv.Inside B (m n) ∧ (m n).z = (m 0).z ∧ (∃ k : ℤ, (m n).x = (m 0).x + ∑ i ∈ range n, dt i * (a i + c i * (m 0).z) + k * (B.xmax - B.xmin)) ∧
    F n = ⟨1, ∑ i ∈ range n, dt i * c i, 0, 1⟩ := by
  induction n with
  | zero => exact ⟨R.active, R.inside, rfl, ⟨0, by simp⟩, by simpa using R.start⟩
  | succ n ih =>
    obtain ⟨h1, h2, h3, ⟨k, h4⟩, h5⟩ := ih
    obtain ⟨s1, s2, s3, ⟨k', s4⟩, F', s5, s6⟩ := shear_step M (R.flow n) au av taras (m n) h1 h2 (dt n) (by rw [h3]; exact R.once n) junk tagP tagG (F n)
    simp only [← R.moved n] at s1 s2 s3 s4 s5
    refine ⟨by rw [s1]; exact h1, s2, by rw [s3, h3], ⟨k + k', ?_⟩, ?_⟩
    · rw [s4, h4, h3, sum_range_succ]; push_cast; ring
    · rw [R.strained n] at s5
      obtain rfl : F (n + 1) = F' := by simpa using s5
      rw [h5] at s6
      have e := fun i j => congrFun (congrFun s6 i) j
      have e00 := e 0 0
      have e01 := e 0 1
      have e10 := e 1 0
      have e11 := e 1 1
      simp [Tens.mat, Matrix.mul_apply, Fin.sum_univ_two, Matrix.one_apply] at e00 e01 e10 e11
      rw [sum_range_succ]
      rcases hF : F (n + 1) with ⟨xx, xz, zx, zz⟩
      rw [hF] at e00 e01 e10 e11
      simp only at e00 e01 e10 e11
      rw [e00, e01, e10, e11]

/-- C168 (simple shear).  In simple shear at any varying rate, with periodic sides, the tensor recorded on any marker after any number of steps is exactly the strain of the motion: it maps the initial separation to any other marker to the present one.
It preserves areas and its shear is the integral of the rate. -/
theorem strain_of_simple_shear_partial (M : Mesh ncx ncz xg zg xe ze dx dz B) {taras : Bool} {junk : Quad Int} {tagP tagG tu tv : Int → Int} (au : NoAir (ncx + 1) (ncz + 2) tu) (av : NoAir (ncx + 2) (ncz + 1) tv)
    {a c dt : Nat → K} {u v : Nat → Int → K} {p q : Nat → Adv.Marker K} {F F' : Nat → Tens K} (P : ShearRun ncx ncz xg zg xe ze dx dz B taras junk tagP tagG tu tv a c dt u v p F)
    (Q : ShearRun ncx ncz xg zg xe ze dx dz B taras junk tagP tagG tu tv a c dt u v q F') (n : Nat) :
    Spec.IsStrainOfMotion (B.xmax - B.xmin) (F n) (p 0) (q 0) (p n) (q n) ∧ F' n = F n ∧ (F n).mat.det = 1 ∧ (F n).xz = ∑ i ∈ range n, dt i * c i := by
  obtain ⟨-, -, p3, ⟨k, p4⟩, p5⟩ := shear_run M au av P n
  obtain ⟨-, -, q3, ⟨k', q4⟩, q5⟩ := shear_run M au av Q n
  refine ⟨⟨⟨k' - k, ?_⟩, ?_⟩, by rw [p5, q5], ?_, by rw [p5]⟩
  · rw [p4, q4, p5]
    simp only
    have : ∑ i ∈ range n, dt i * (a i + c i * (q 0).z) - ∑ i ∈ range n, dt i * (a i + c i * (p 0).z) = (∑ i ∈ range n, dt i * c i) * ((q 0).z - (p 0).z) := by
      rw [← sum_sub_distrib, sum_mul]
      exact sum_congr rfl fun i _ => by ring
    push_cast
    linear_combination this
  · rw [p3, q3, p5]; simp
  · rw [p5]; simp [Tens.mat, Matrix.det_fin_two]


/-- Such runs exist from every start, for every sequence of rates and steps that respects the width of the box. -/
theorem shear_run_exists (M : Mesh ncx ncz xg zg xe ze dx dz B) (taras : Bool) (junk : Quad Int) (tagP tagG : Int → Int) {tu tv : Int → Int} (au : NoAir (ncx + 1) (ncz + 2) tu) (av : NoAir (ncx + 2) (ncz + 1) tv)
    {a c dt : Nat → K} {u v : Nat → Int → K} (flow : ∀ n, AffineVel ncx ncz B.xmin B.zmin dx dz (a n) 0 (c n) 0 0 0 (u n) (v n)) (m0 : Adv.Marker K) (hm : m0.phase ≠ -1) (hi : Adv.Inside B m0)
    (once : ∀ n, |dt n * (a n + c n * m0.z)| ≤ B.xmax - B.xmin) :
    ∃ m F, m 0 = m0 ∧ ShearRun ncx ncz xg zg xe ze dx dz B taras junk tagP tagG tu tv a c dt u v m F := by
  let next : Nat → Adv.Marker K × Tens K → Adv.Marker K × Tens K := fun n s =>
    let m' := Adv.rk4 B true (seen ncx ncz xg zg xe ze dx dz (u n) (v n) tu tv taras) (dt n) s.1
    (m', (deformMarker (ncx + 1) (ncz + 1) true junk xg zg xe ze dx dz (dt n) (u n) (v n) tagP tagG m'.phase m'.x m'.z s.2).getD s.2)
  let st : Nat → Adv.Marker K × Tens K := fun n => Nat.rec (m0, ⟨1, 0, 0, 1⟩) next n
  have inv : ∀ n, (st n).1.phase ≠ -1 ∧ Adv.Inside B (st n).1 ∧ (st n).1.z = m0.z := by
    intro n
    induction n with
    | zero => exact ⟨hm, hi, rfl⟩
    | succ n ih =>
      obtain ⟨h1, h2, h3⟩ := ih
      obtain ⟨s1, s2, s3, -⟩ := shear_step M (flow n) au av taras (st n).1 h1 h2 (dt n) (by rw [h3]; exact once n) junk tagP tagG (st n).2
      exact ⟨by show (next n (st n)).1.phase ≠ -1; exact fun e => h1 (by rw [← s1]; exact e), s2, by rw [← h3]; exact s3⟩
  refine ⟨fun n => (st n).1, fun n => (st n).2, rfl, flow, hm, hi, once, rfl, fun n => rfl, fun n => ?_⟩
  obtain ⟨h1, h2, h3⟩ := inv n
  obtain ⟨-, -, -, -, F', e, -⟩ := shear_step M (flow n) au av taras (st n).1 h1 h2 (dt n) (by rw [h3]; exact once n) junk tagP tagG (st n).2
  have : (st (n + 1)).2 = F' := by
    show (deformMarker (ncx + 1) (ncz + 1) true junk xg zg xe ze dx dz (dt n) (u n) (v n) tagP tagG _ _ _ (st n).2).getD (st n).2 = F'
    rw [e]; rfl
  simp only [this]
  exact e

end shear

/-- The flow the mechanical solver finds for a uniform body between walls set up in simple shear (C161) is such a flow, with rate `2 eps`. -/
theorem solved_shear {S : StepFlow.Setting} {eps : ℝ} {x z zu : Nat → ℝ} {bu bv : Setup.Side ℝ} (h : StepFlow.SimpleShear S eps x z zu bu bv) (p0 xmin : ℝ) :
    AffineVel (S.m.Nx - 1) (S.m.Nz - 1) xmin (z 0) S.m.dx S.m.dz 0 0 (2 * eps) 0 0 0 (fun n => (StepFlow.sheared S eps zu p0).u n.toNat) (fun n => (StepFlow.sheared S eps zu p0).v n.toNat) := by
  have hx := h.Nx
  have hz := h.Nz
  constructor
  · intro j hj l hl
    have e : ((j : Int) + (l : Int) * (((S.m.Nx - 1 : Nat) : Int) + 1)).toNat = j + l * S.m.Nx := by
      have : ((S.m.Nx - 1 : Nat) : Int) + 1 = (S.m.Nx : Int) := by omega
      rw [this]
      exact_mod_cast Int.toNat_natCast (j + l * S.m.Nx)
    simp only [e]
    have hi : j + l * S.m.Nx < (S.m.Nz + 1) * S.m.Nx := by
      have : (l + 1) * S.m.Nx ≤ (S.m.Nz + 1) * S.m.Nx := Nat.mul_le_mul_right _ (by omega)
      have e2 : (l + 1) * S.m.Nx = l * S.m.Nx + S.m.Nx := by ring
      omega
    have hd : (j + l * S.m.Nx) / S.m.Nx = l := by
      rw [Nat.add_mul_div_right _ _ (by omega), Nat.div_eq_of_lt (by omega), Nat.zero_add]
    show (if j + l * S.m.Nx < (S.m.Nz + 1) * S.m.Nx then 2 * eps * zu ((j + l * S.m.Nx) / S.m.Nx) else 0) = _
    rw [if_pos hi, hd, h.rowsU]
    ring
  · intro j hj l hl
    show (0 : ℝ) = _
    ring

private theorem grow_ne (y : K) (y0 : 0 < y) (y1 : y ≤ 1) : Moving.grow (-y) ≠ 1 + -y := by
  intro h
  unfold Moving.grow at h
  have y2 : 0 < y ^ 2 := by positivity
  have y3 : y ^ 3 ≤ y ^ 2 := by nlinarith
  have y4 : 0 < y ^ 4 := by positivity
  linarith [show (-y) ^ 2 = y ^ 2 by ring, show (-y) ^ 3 = -y ^ 3 by ring, show (-y) ^ 4 = y ^ 4 by ring]

/-- C168 (negation).  In pure shear the tensor is not the strain of the motion, not even after one step: the markers move by the Runge-Kutta scheme, the tensor by a single Euler step, and it loses area.
Sides that move with the rock (C167); two markers between the moved walls, not above one another. -/
theorem strain_of_pure_shear_differs {ncx ncz : Nat} {eps dt : K} {b : Setup.Box K} {s : Setup.Sides K} (nx : 1 ≤ ncx) (nz : 1 ≤ ncz) (h : Moving.InPureShear (ncx + 1) (ncz + 1) eps b s)
    (wX : b.xmin < b.xmax) (wZ : b.zmin < b.zmax) (h0 : 0 < eps * dt) (h1 : eps * dt ≤ 1 / 2) (xs : b.xmin ≤ 0 ∧ 0 ≤ b.xmax) (zs : b.zmin ≤ 0 ∧ 0 ≤ b.zmax) (g : Grid.Coords K) (p q : Adv.Marker K)
    (hp : p.phase ≠ -1) (hq : q.phase ≠ -1) (px : b.xmin * (1 - eps * dt) ≤ p.x ∧ p.x ≤ b.xmax * (1 - eps * dt)) (pz : b.zmin ≤ p.z ∧ p.z ≤ b.zmax)
    (qx : b.xmin * (1 - eps * dt) ≤ q.x ∧ q.x ≤ b.xmax * (1 - eps * dt)) (qz : b.zmin ≤ q.z ∧ q.z ≤ b.zmax) (apart : p.x ≠ q.x)
    {xg zg xe ze : Int → K} {dx dz : K} (M : Mesh ncx ncz xg zg xe ze dx dz ⟨b.xmin * (1 - eps * dt), b.xmax * (1 - eps * dt), b.zmin * (1 + eps * dt), b.zmax * (1 + eps * dt)⟩)
    (per : Bool) (junk : Quad Int) (tagP tagG : Int → Int) :
    let p' := (Moving.moveWithBox (ncx + 1) (ncz + 1) dt s g b p).2
    let q' := (Moving.moveWithBox (ncx + 1) (ncz + 1) dt s g b q).2
    ∃ F', deformMarker (ncx + 1) (ncz + 1) per junk xg zg xe ze dx dz dt (fun n => s.u n.toNat) (fun n => s.v n.toNat) tagP tagG p'.phase p'.x p'.z ⟨1, 0, 0, 1⟩ = some F' ∧
      ¬ Spec.IsStrainOfMotion 0 F' p q p' q' ∧ F'.mat.det < 1 := by
  intro p' q'
  have hm1 : 0 < 1 - eps * dt := by linarith
  have hp1 : 0 < 1 + eps * dt := by linarith
  obtain ⟨a1, a2, a3⟩ := Moving.between_walls_kept_partial (by omega) (by omega) h wX wZ h0.le h1 h0.le xs zs g p hp px pz
  obtain ⟨b1, b2, b3⟩ := Moving.between_walls_kept_partial (by omega) (by omega) h wX wZ h0.le h1 h0.le xs zs g q hq qx qz
  have pin := Moving.kept_inside (by omega) (by omega) h wX wZ h0.le h1 h0.le xs zs g p hp px pz
  obtain ⟨y, hy⟩ : ∃ y, y = eps * dt / (1 - eps * dt) := ⟨_, rfl⟩
  obtain ⟨w, hw⟩ : ∃ w, w = eps * dt / (1 + eps * dt) := ⟨_, rfl⟩
  have y0 : 0 < y := by rw [hy]; exact div_pos h0 hm1
  have y1 : y ≤ 1 := by rw [hy, div_le_one hm1]; linarith
  have w0 : 0 < w := by rw [hw]; exact div_pos h0 hp1
  have wy : w ≤ y := by rw [hw, hy]; exact div_le_div_of_nonneg_left h0.le hm1 (by linarith)
  have cx : (0 : K) < ncx := by exact_mod_cast nx
  have cz : (0 : K) < ncz := by exact_mod_cast nz
  have mx := M.xmax
  have mz := M.zmax
  simp only at mx mz
  have dx' : dx = (b.xmax - b.xmin) / ncx * (1 - eps * dt) := by
    have : dx = (b.xmax * (1 - eps * dt) - b.xmin * (1 - eps * dt)) / ncx := by rw [eq_div_iff cx.ne']; linear_combination -mx
    rw [this]; ring
  have dz' : dz = (b.zmax - b.zmin) / ncz * (1 + eps * dt) := by
    have : dz = (b.zmax * (1 + eps * dt) - b.zmin * (1 + eps * dt)) / ncz := by rw [eq_div_iff cz.ne']; linear_combination -mz
    rw [this]; ring
  have A : AffineVel ncx ncz (b.xmin * (1 - eps * dt)) (b.zmin * (1 + eps * dt)) dx dz 0 (-(eps / (1 - eps * dt))) 0 0 0 (eps / (1 + eps * dt)) (fun n => s.u n.toNat) (fun n => s.v n.toNat) := by
    constructor
    · intro j hj l hl
      have e : ((j : Int) + (l : Int) * ((ncx : Int) + 1)).toNat = j + l * (ncx + 1) := by exact_mod_cast Int.toNat_natCast (j + l * (ncx + 1))
      simp only [e]
      rw [h.u j (by omega) l (by omega), dx']
      push_cast
      have : (ncx : K) + 1 - 1 = ncx := by ring
      rw [this]
      field_simp
      ring
    · intro j hj l hl
      have e : ((j : Int) + (l : Int) * ((ncx : Int) + 2)).toNat = j + l * (ncx + 1 + 1) := by exact_mod_cast Int.toNat_natCast (j + l * (ncx + 1 + 1))
      simp only [e]
      rw [h.v j (by omega) l (by omega), dz']
      push_cast
      have : (ncz : K) + 1 - 1 = ncz := by ring
      rw [this]
      field_simp
      ring
  obtain ⟨j1, j2, j3, j4⟩ := pin
  simp only at j1 j2 j3 j4
  have j2' := j2
  have j4' := j4
  rw [mx] at j2'
  rw [mz] at j4'
  have Gv : InGrid (ncx + 1) (ncz + 1) xg zg (b.xmin * (1 - eps * dt)) (b.zmin * (1 + eps * dt)) dx dz p'.x p'.z :=
    ⟨by omega, by omega, M.dxp, M.dzp, M.regX, M.regZ, j1, by push_cast; linarith, j3, by push_cast; linarith⟩
  have Gc : InBox ncx ncz xe ze (b.xmin * (1 - eps * dt)) (b.zmin * (1 + eps * dt)) dx dz p'.x p'.z := ⟨nx, nz, M.dxp, M.dzp, M.regXe, M.regZe, j1, j2', j3, j4'⟩
  obtain ⟨F', e, eF⟩ := deformation_gradient_affine Gv Gc A per junk dt tagP tagG p'.phase (by show p'.phase ≠ -1; rw [show p'.phase = p.phase from a1]; exact hp) ⟨1, 0, 0, 1⟩
  have py : dt * (eps / (1 - eps * dt)) = y := by rw [hy]; ring
  have pw : dt * (eps / (1 + eps * dt)) = w := by rw [hw]; ring
  have ee := fun i j => congrFun (congrFun eF i) j
  have e00 := ee 0 0
  have e01 := ee 0 1
  have e10 := ee 1 0
  have e11 := ee 1 1
  simp [Tens.mat, Matrix.mul_apply, Fin.sum_univ_two, Matrix.one_apply] at e00 e01 e10 e11
  rw [py] at e00
  rw [pw] at e11
  refine ⟨F', e, ?_, ?_⟩
  · rintro ⟨⟨k, hk⟩, -⟩
    have hk' : q.x * Moving.grow (-y) - p.x * Moving.grow (-y) = (1 + -y) * (q.x - p.x) := by
      have : q'.x - p'.x = F'.xx * (q.x - p.x) + F'.xz * (q.z - p.z) + k * 0 := hk
      rw [e00, e01, show q'.x = _ from b2, show p'.x = _ from a2, ← hy] at this
      rw [this]; ring
    have ne : q.x - p.x ≠ 0 := fun z => apart (by linear_combination -z)
    have : Moving.grow (-y) = 1 + -y := mul_right_cancel₀ ne (by linear_combination hk')
    exact grow_ne y y0 y1 this
  · rw [Matrix.det_fin_two]
    simp only [Tens.mat, Matrix.cons_val', Matrix.cons_val_zero, Matrix.cons_val_one, Matrix.of_apply, Matrix.cons_val_fin_one]
    rw [e00, e01, e10, e11]
    have := mul_pos y0 w0
    linear_combination this + wy


/-! Non-vacuity: a box of two by two cells. -/

private theorem demo_mesh : Mesh (K := ℚ) 2 2 (fun j => j) (fun j => -1 + j) (fun j => -1 / 2 + j) (fun j => -3 / 2 + j) 1 1 ⟨0, 2, -1, 1⟩ :=
  ⟨by norm_num, by norm_num, by norm_num, by norm_num, fun j => by simp, fun j => by simp, fun j => by norm_num, fun j => by norm_num, by norm_num, by norm_num⟩

private theorem demo_flow : AffineVel (K := ℚ) 2 2 0 (-1) 1 1 0 0 1 0 0 0 (fun n => ((n / 3 : Int) : ℚ) - 3 / 2) (fun _ => 0) := by
  constructor
  · intro j hj l hl
    have : (((j : Int) + (l : Int) * (((2 : Nat) : Int) + 1)) / 3) = (l : Int) := by push_cast; omega
    simp only [this]
    push_cast; ring
  · intro j hj l hl; ring

/-- A run of simple shear in which the marker at height 1/2 crosses the right side; the shear recorded after `n` steps of 1/2 is `n / 2`. -/
example : ∃ m F, m 0 = (⟨7 / 4, 1 / 2, 0, 0, 3⟩ : Adv.Marker ℚ) ∧
    ShearRun 2 2 (fun j => (j : ℚ)) (fun j => -1 + j) (fun j => -1 / 2 + j) (fun j => -3 / 2 + j) 1 1 ⟨0, 2, -1, 1⟩ false ⟨0, 0, 0, 0⟩ (fun _ => -1) (fun _ => -1) (fun _ => -1) (fun _ => -1)
      (fun _ => 0) (fun _ => 1) (fun _ => 1 / 2) (fun _ n => ((n / 3 : Int) : ℚ) - 3 / 2) (fun _ _ => 0) m F ∧ ∀ n : Nat, F n = ⟨1, n / 2, 0, 1⟩ := by
  have air : ∀ a b, NoAir a b (fun _ => -1) := fun a b i _ j _ => ⟨by norm_num, by norm_num⟩
  obtain ⟨m, F, e, R⟩ := shear_run_exists demo_mesh false ⟨0, 0, 0, 0⟩ (fun _ => -1) (fun _ => -1) (air _ _) (air _ _) (a := fun _ => 0) (c := fun _ => 1) (dt := fun _ => 1 / 2) (fun _ => demo_flow)
    ⟨7 / 4, 1 / 2, 0, 0, 3⟩ (by norm_num) ⟨by norm_num, by norm_num, by norm_num, by norm_num⟩ (fun _ => by norm_num [abs_of_pos])
  refine ⟨m, F, e, R, fun n => ?_⟩
  rw [(shear_run demo_mesh (air _ _) (air _ _) R n).2.2.2.2]
  simp
  ring

/-- The pure shear of C167 on three by three vertices, two markers. -/
example : ∃ F' : Tens ℚ, ¬ Spec.IsStrainOfMotion 0 F' ⟨1 / 2, 1 / 4, 0, 0, 2⟩ ⟨-1 / 2, 1 / 4, 0, 0, 2⟩
    (Moving.moveWithBox 3 3 (1 / 10) Moving.demoSides ⟨1, 1, fun _ => 0, fun _ => 0, fun _ => 0, fun _ => 0, fun _ => 0, fun _ => 0, fun _ => 0, fun _ => 0⟩ ⟨-1, 1, -1, 1⟩ ⟨1 / 2, 1 / 4, 0, 0, 2⟩).2
    (Moving.moveWithBox 3 3 (1 / 10) Moving.demoSides ⟨1, 1, fun _ => 0, fun _ => 0, fun _ => 0, fun _ => 0, fun _ => 0, fun _ => 0, fun _ => 0, fun _ => 0⟩ ⟨-1, 1, -1, 1⟩ ⟨-1 / 2, 1 / 4, 0, 0, 2⟩).2 := by
  obtain ⟨F', -, h, -⟩ := strain_of_pure_shear_differs (ncx := 2) (ncz := 2) (by norm_num) (by norm_num) Moving.demo_shear (dt := 1 / 10) (by norm_num) (by norm_num) (by norm_num) (by norm_num) (by norm_num) (by norm_num)
    ⟨1, 1, fun _ => 0, fun _ => 0, fun _ => 0, fun _ => 0, fun _ => 0, fun _ => 0, fun _ => 0, fun _ => 0⟩ ⟨1 / 2, 1 / 4, 0, 0, 2⟩ ⟨-1 / 2, 1 / 4, 0, 0, 2⟩ (by norm_num) (by norm_num) (by norm_num) (by norm_num) (by norm_num) (by norm_num) (by norm_num)
    (xg := fun j => -9 / 10 + j * (9 / 10)) (zg := fun j => -11 / 10 + j * (11 / 10)) (xe := fun j => -27 / 20 + j * (9 / 10)) (ze := fun j => -33 / 20 + j * (11 / 10)) (dx := 9 / 10) (dz := 11 / 10)
    ⟨by norm_num, by norm_num, by norm_num, by norm_num, fun j => by norm_num, fun j => by norm_num, fun j => by norm_num, fun j => by norm_num, by norm_num, by norm_num⟩ false ⟨0, 0, 0, 0⟩ (fun _ => -1) (fun _ => -1)
  exact ⟨F', h⟩

end Verif.Strain
