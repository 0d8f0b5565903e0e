import Verif.Props.SubStepBox
import Verif.Props.FiniteStrain

/-
C168 (substeps): the finite strain recorded on a marker over all substeps of a step in a box shortened by pure shear.
Models: `Verif.Moving.subSteps` (/repo/MDLIB/Main_DOODZ.c:1041-1175), `Verif.Hist.deformMarker`
(/repo/MDLIB/RheologyParticles.c:536, called at Main_DOODZ.c:1072 after the sides and the markers have moved).
-/
set_option linter.unusedSectionVars false
namespace Verif.Strain
open Verif Interp Hist Finset

variable {K : Type*} [Field K] [LinearOrder K] [IsStrictOrderedRing K] [FloorRing K]

/-- A grid for every substep: number of cells aside, everything may change with the box. -/
structure Grids (K : Type*) where
  xg : Nat → Int → K
  zg : Nat → Int → K
  xe : Nat → Int → K
  ze : Nat → Int → K
  dx : Nat → K
  dz : Nat → K

/-- The tensors recorded on a marker in the first `n` substeps of length `d` (Main_DOODZ.c:1041-1072): the identity to begin with, then, each time the sides and the marker have moved, the update with the grid of the moved box. -/
structure Recorded (ncx ncz : Nat) (d : K) (s : Setup.Sides K) (c : Grid.Coords K) (b : Setup.Box K) (m : Adv.Marker K) (per : Bool) (junk : Quad Int) (tagP tagG : Int → Int) (G : Grids K) (n : Nat) (F : Nat → Tens K) : Prop where
  start : F 0 = ⟨1, 0, 0, 1⟩
  mesh : ∀ k < n, let B := (Moving.subSteps (ncx + 1) (ncz + 1) d s c b m (k + 1)).2.1
    Mesh ncx ncz (G.xg k) (G.zg k) (G.xe k) (G.ze k) (G.dx k) (G.dz k) ⟨B.xmin, B.xmax, B.zmin, B.zmax⟩
  step : ∀ k < n, let r := (Moving.subSteps (ncx + 1) (ncz + 1) d s c b m (k + 1)).2.2
    deformMarker (ncx + 1) (ncz + 1) per junk (G.xg k) (G.zg k) (G.xe k) (G.ze k) (G.dx k) (G.dz k) d (fun i => s.u i.toNat) (fun i => s.v i.toNat) tagP tagG r.phase r.x r.z (F k) = some (F (k + 1))

/-- A flow at uniform rates has uniform gradients on the grid of its box. -/
theorem affine_of_flow {ncx ncz : Nat} {ex ez : K} {b : Setup.Box K} {s : Setup.Sides K} (h : Moving.InFlow (ncx + 1) (ncz + 1) ex ez b s)
    {xg zg xe ze : Int → K} {dx dz : K} (M : Mesh ncx ncz xg zg xe ze dx dz ⟨b.xmin, b.xmax, b.zmin, b.zmax⟩) :
    AffineVel ncx ncz b.xmin b.zmin dx dz 0 (-ex) 0 0 0 ez (fun n => s.u n.toNat) (fun n => s.v n.toNat) := by
  have cx : (ncx : K) ≠ 0 := by have := M.nx1; exact_mod_cast (by omega : ncx ≠ 0)
  have cz : (ncz : K) ≠ 0 := by have := M.nz1; exact_mod_cast (by omega : ncz ≠ 0)
  have mx : b.xmax = b.xmin + ncx * dx := M.xmax
  have mz : b.zmax = b.zmin + ncz * dz := M.zmax
  constructor
  · intro j hj l hl
    have e : ((j : Int) + (l : Int) * ((ncx : Int) + 1)).toNat = j + l * (ncx + 1) := by exact_mod_cast Int.toNat_natCast (j + l * (ncx + 1))
    simp only [e]
    rw [h.u j (by omega) l (by omega), mx]
    push_cast
    rw [show (ncx : K) + 1 - 1 = ncx by ring, show b.xmin + ncx * dx - b.xmin = ncx * dx by ring, mul_div_cancel_left₀ _ cx]
    ring
  · intro j hj l hl
    have e : ((j : Int) + (l : Int) * ((ncx : Int) + 2)).toNat = j + l * (ncx + 1 + 1) := by exact_mod_cast Int.toNat_natCast (j + l * (ncx + 1 + 1))
    simp only [e]
    rw [h.v j (by omega) l (by omega), mz]
    push_cast
    rw [show (ncz : K) + 1 - 1 = ncz by ring, show b.zmin + ncz * dz - b.zmin = ncz * dz by ring, mul_div_cancel_left₀ _ cz]
    ring

/-- One update in the moved box. -/
private theorem update {ncx ncz : Nat} {ex ez : K} {b : Setup.Box K} {s : Setup.Sides K} (h : Moving.InFlow (ncx + 1) (ncz + 1) ex ez b s)
    {xg zg xe ze : Int → K} {dx dz : K} (M : Mesh ncx ncz xg zg xe ze dx dz ⟨b.xmin, b.xmax, b.zmin, b.zmax⟩)
    (per : Bool) (junk : Quad Int) (tagP tagG : Int → Int) (d : K) (m : Adv.Marker K) (hm : m.phase ≠ -1) (ix : b.xmin ≤ m.x ∧ m.x ≤ b.xmax) (iz : b.zmin ≤ m.z ∧ m.z ≤ b.zmax) (F : Tens K) :
    deformMarker (ncx + 1) (ncz + 1) per junk xg zg xe ze dx dz d (fun i => s.u i.toNat) (fun i => s.v i.toNat) tagP tagG m.phase m.x m.z F =
      some ⟨(1 - ex * d) * F.xx, (1 - ex * d) * F.xz, (1 + ez * d) * F.zx, (1 + ez * d) * F.zz⟩ := by
  have mx : b.xmax = b.xmin + ncx * dx := M.xmax
  have mz : b.zmax = b.zmin + ncz * dz := M.zmax
  have nx := M.nx1
  have nz := M.nz1
  have jx := ix.2
  have jz := iz.2
  rw [mx] at jx
  rw [mz] at jz
  have Gv : InGrid (ncx + 1) (ncz + 1) xg zg b.xmin b.zmin dx dz m.x m.z :=
    ⟨by omega, by omega, M.dxp, M.dzp, M.regX, M.regZ, ix.1, by push_cast; linarith, iz.1, by push_cast; linarith⟩
  have Gc : InBox ncx ncz xe ze b.xmin b.zmin dx dz m.x m.z := ⟨nx, nz, M.dxp, M.dzp, M.regXe, M.regZe, ix.1, jx, iz.1, jz⟩
  obtain ⟨F', e, eF⟩ := deformation_gradient_affine Gv Gc (affine_of_flow h M) per junk d tagP tagG m.phase hm F
  have ee := fun i j => congrFun (congrFun eF i) j
  have e00 := ee 0 0
  have e01 := ee 0 1
  have e10 := ee 1 0
  have e11 := ee 1 1
  simp [Tens.mat, Matrix.mul_apply, Fin.sum_univ_two, Matrix.one_apply] at e00 e01 e10 e11
  rw [e]
  obtain ⟨f1, f2, f3, f4⟩ := F'
  simp only at e00 e01 e10 e11
  congr 1
  rw [Tens.mk.injEq]
  exact ⟨by rw [e00]; ring, by rw [e01]; ring, by rw [e10]; ring, by rw [e11]; ring⟩

section
variable {ncx ncz : Nat} {eps d : K} {b : Setup.Box K} {s : Setup.Sides K}

private theorem inside_after (nx : 1 ≤ ncx) (nz : 1 ≤ ncz) (h : Moving.InPureShear (ncx + 1) (ncz + 1) eps b s) (wX : b.xmin < b.xmax) (wZ : b.zmin < b.zmax) (h0 : 0 ≤ eps * d) (N : Nat) (h1 : N * (eps * d) ≤ 1 / 2)
    (xs : b.xmin ≤ 0 ∧ 0 ≤ b.xmax) (zs : b.zmin ≤ 0 ∧ 0 ≤ b.zmax) (c : Grid.Coords K) (m : Adv.Marker K) (hm : m.phase ≠ -1)
    (ix : b.xmin * (1 - N * (eps * d)) ≤ m.x ∧ m.x ≤ b.xmax * (1 - N * (eps * d))) (iz : b.zmin ≤ m.z ∧ m.z ≤ b.zmax) (n : Nat) (hn : n ≤ N) :
    let r := Moving.subSteps (ncx + 1) (ncz + 1) d s c b m n
    Moving.InFlow (ncx + 1) (ncz + 1) (eps / (1 - n * (eps * d))) (eps / (1 + n * (eps * d))) r.2.1 s ∧ r.2.2.phase ≠ -1 ∧
      (r.2.1.xmin ≤ r.2.2.x ∧ r.2.2.x ≤ r.2.1.xmax) ∧ (r.2.1.zmin ≤ r.2.2.z ∧ r.2.2.z ≤ r.2.1.zmax) := by
  obtain ⟨⟨b1, b2, b3, b4⟩, fl, ⟨p1, p2, p3⟩, ⟨l0, l1⟩, ⟨z0, z1⟩⟩ := Moving.run (by omega) (by omega) h wX wZ h0 N h1 xs zs c m hm ix iz n hn
  have nN : (n : K) * (eps * d) ≤ N * (eps * d) := mul_le_mul_of_nonneg_right (by exact_mod_cast hn) h0
  have NA : 0 ≤ 1 - N * (eps * d) := by linarith
  refine ⟨fl, by rw [p1]; exact hm, ?_, ?_⟩
  · rw [b1, b2, p2]
    have t1 := Moving.scale_lo ix.1 (mul_nonpos_of_nonpos_of_nonneg xs.1 NA) l0.le l1
    have t2 := Moving.scale_hi ix.2 (mul_nonneg xs.2 NA) l0.le l1
    have u1 : b.xmin * (1 - n * (eps * d)) ≤ b.xmin * (1 - N * (eps * d)) := mul_le_mul_of_nonpos_left (by linarith) xs.1
    have u2 : b.xmax * (1 - N * (eps * d)) ≤ b.xmax * (1 - n * (eps * d)) := mul_le_mul_of_nonneg_left (by linarith) xs.2
    exact ⟨by linarith, by linarith⟩
  · rw [b3, b4, p3]
    exact ⟨Moving.scale_lo iz.1 zs.1 z0 z1, Moving.scale_hi iz.2 zs.2 z0 z1⟩

/-- C168 (substeps).  In a box shortened by pure shear the tensor recorded on a kept marker after `n` substeps, each of which shortens the box by the part `q` of its first width, is diagonal, with
`(1 - (n + 1) q) / (1 - q)` and `(1 + (n + 1) q) / (1 + q)` on the diagonal: as if the substeps had been taken one later. -/
theorem strain_of_substeps (nx : 1 ≤ ncx) (nz : 1 ≤ ncz) (h : Moving.InPureShear (ncx + 1) (ncz + 1) eps b s) (wX : b.xmin < b.xmax) (wZ : b.zmin < b.zmax) (h0 : 0 ≤ eps * d) (N : Nat) (h1 : N * (eps * d) ≤ 1 / 2)
    (xs : b.xmin ≤ 0 ∧ 0 ≤ b.xmax) (zs : b.zmin ≤ 0 ∧ 0 ≤ b.zmax) (c : Grid.Coords K) (m : Adv.Marker K) (hm : m.phase ≠ -1)
    (ix : b.xmin * (1 - N * (eps * d)) ≤ m.x ∧ m.x ≤ b.xmax * (1 - N * (eps * d))) (iz : b.zmin ≤ m.z ∧ m.z ≤ b.zmax)
    {per : Bool} {junk : Quad Int} {tagP tagG : Int → Int} {G : Grids K} {F : Nat → Tens K} (R : Recorded ncx ncz d s c b m per junk tagP tagG G N F) (hq : eps * d < 1) : ∀ n ≤ N,
    F n = ⟨(1 - (n + 1) * (eps * d)) / (1 - eps * d), 0, 0, (1 + (n + 1) * (eps * d)) / (1 + eps * d)⟩ := by
  obtain ⟨q, e⟩ : ∃ q, q = eps * d := ⟨_, rfl⟩
  have Q1 : 1 - q ≠ 0 := by rw [e]; linarith
  have Q2 : 1 + q ≠ 0 := by rw [e]; linarith
  intro n
  induction n with
  | zero =>
    intro _
    rw [R.start, ← e]
    push_cast
    rw [zero_add, one_mul, div_self Q1, div_self Q2]
  | succ n ih =>
    intro hn
    have p := ih (by omega)
    obtain ⟨fl, ph, jx, jz⟩ := inside_after nx nz h wX wZ h0 N h1 xs zs c m hm ix iz (n + 1) hn
    have u := update fl (R.mesh n hn) per junk tagP tagG d _ ph jx jz (F n)
    have := (R.step n hn).symm.trans u
    rw [Option.some.injEq] at this
    rw [this, p, Tens.mk.injEq]
    have nN : ((n + 1 : Nat) : K) * (eps * d) ≤ N * (eps * d) := mul_le_mul_of_nonneg_right (by exact_mod_cast hn) h0
    have n0 : 0 ≤ ((n + 1 : Nat) : K) * (eps * d) := mul_nonneg (Nat.cast_nonneg _) h0
    push_cast at nN n0 ⊢
    rw [← e] at nN n0 h1 ⊢
    have A : 1 - (n + 1) * q ≠ 0 := by linarith
    have C : 1 + (n + 1) * q ≠ 0 := by linarith
    have e1 : 1 - eps / (1 - (n + 1) * q) * d = (1 - (n + 1 + 1) * q) / (1 - (n + 1) * q) := by
      rw [show 1 - ((n : K) + 1 + 1) * q = (1 - (n + 1) * q) - q by ring, sub_div, div_self A, e]; ring
    have e2 : 1 + eps / (1 + (n + 1) * q) * d = (1 + (n + 1 + 1) * q) / (1 + (n + 1) * q) := by
      rw [show 1 + ((n : K) + 1 + 1) * q = (1 + (n + 1) * q) + q by ring, add_div, div_self C, e]; ring
    refine ⟨?_, by ring, by ring, ?_⟩
    · rw [e1, div_mul_div_cancel₀ A]
    · rw [e2, div_mul_div_cancel₀ C]

/-- C168 (substeps, error).  After a whole step of `n` substeps the recorded shortening exceeds that of the box, `1 - eps dt`, by `(eps dt)² / (n - eps dt)`, and the recorded stretching falls short of that of the box, `1 + eps dt`, by `(eps dt)² / (n + eps dt)`. -/
theorem strain_error_of_substeps {dt : K} (nx : 1 ≤ ncx) (nz : 1 ≤ ncz) (h : Moving.InPureShear (ncx + 1) (ncz + 1) eps b s) (wX : b.xmin < b.xmax) (wZ : b.zmin < b.zmax) (n : Nat) (hn : 0 < n) (h0 : 0 ≤ eps * dt) (h1 : eps * dt ≤ 1 / 2)
    (xs : b.xmin ≤ 0 ∧ 0 ≤ b.xmax) (zs : b.zmin ≤ 0 ∧ 0 ≤ b.zmax) (c : Grid.Coords K) (m : Adv.Marker K) (hm : m.phase ≠ -1)
    (ix : b.xmin * (1 - eps * dt) ≤ m.x ∧ m.x ≤ b.xmax * (1 - eps * dt)) (iz : b.zmin ≤ m.z ∧ m.z ≤ b.zmax)
    {per : Bool} {junk : Quad Int} {tagP tagG : Int → Int} {G : Grids K} {F : Nat → Tens K} (R : Recorded ncx ncz (dt / n) s c b m per junk tagP tagG G n F) :
    F n = ⟨(1 - eps * dt) - (eps * dt) ^ 2 / (n - eps * dt), 0, 0, (1 + eps * dt) - (eps * dt) ^ 2 / (n + eps * dt)⟩ := by
  have n0 : (1 : K) ≤ n := by exact_mod_cast hn
  have n00 : (n : K) ≠ 0 := by linarith
  have e : eps * (dt / n) = eps * dt / n := by ring
  have e' : n * (eps * (dt / n)) = eps * dt := by field_simp
  have lt : eps * (dt / n) < 1 := by rw [e, div_lt_one (by linarith)]; linarith
  rw [strain_of_substeps nx nz h wX wZ (by rw [e]; exact div_nonneg h0 (by linarith)) n (by rw [e']; exact h1) xs zs c m hm (by rw [e']; exact ix) iz R lt n le_rfl, e, Tens.mk.injEq]
  generalize eps * dt = Q at *
  have a : (n : K) - Q ≠ 0 := by linarith
  have a' : (n : K) + Q ≠ 0 := by linarith
  have f1 : 1 - Q / n = (n - Q) / n := by rw [sub_div, div_self n00]
  have f2 : 1 + Q / n = (n + Q) / n := by rw [add_div, div_self n00]
  refine ⟨?_, rfl, rfl, ?_⟩
  · rw [f1, div_div_eq_mul_div, div_eq_iff a, sub_mul _ (Q ^ 2 / _), div_mul_cancel₀ _ a, sub_mul, mul_right_comm, mul_assoc _ (n : K), mul_div_cancel₀ _ n00]; ring
  · rw [f2, div_div_eq_mul_div, div_eq_iff a', sub_mul _ (Q ^ 2 / _), div_mul_cancel₀ _ a', add_mul, mul_right_comm, mul_assoc _ (n : K), mul_div_cancel₀ _ n00]; ring

/-- C168 (substeps, area).  The recorded tensor loses more area than the box, which itself loses area (C171). -/
theorem area_of_substeps {dt : K} (nx : 1 ≤ ncx) (nz : 1 ≤ ncz) (h : Moving.InPureShear (ncx + 1) (ncz + 1) eps b s) (wX : b.xmin < b.xmax) (wZ : b.zmin < b.zmax) (n : Nat) (hn : 0 < n) (h0 : 0 < eps * dt) (h1 : eps * dt ≤ 1 / 2)
    (xs : b.xmin ≤ 0 ∧ 0 ≤ b.xmax) (zs : b.zmin ≤ 0 ∧ 0 ≤ b.zmax) (c : Grid.Coords K) (m : Adv.Marker K) (hm : m.phase ≠ -1)
    (ix : b.xmin * (1 - eps * dt) ≤ m.x ∧ m.x ≤ b.xmax * (1 - eps * dt)) (iz : b.zmin ≤ m.z ∧ m.z ≤ b.zmax)
    {per : Bool} {junk : Quad Int} {tagP tagG : Int → Int} {G : Grids K} {F : Nat → Tens K} (R : Recorded ncx ncz (dt / n) s c b m per junk tagP tagG G n F) :
    let B := (Moving.subSteps (ncx + 1) (ncz + 1) (dt / n) s c b m n).2.1
    (F n).mat.det * ((b.xmax - b.xmin) * (b.zmax - b.zmin)) < (B.xmax - B.xmin) * (B.zmax - B.zmin) := by
  intro B
  have n0 : (1 : K) ≤ n := by exact_mod_cast hn
  have n00 : (n : K) ≠ 0 := by linarith
  have e : eps * (dt / n) = eps * dt / n := by ring
  have e' : n * (eps * (dt / n)) = eps * dt := by field_simp
  obtain ⟨⟨b1, b2, b3, b4⟩, -⟩ := Moving.run (by omega) (by omega) h wX wZ (dt := dt / n) (by rw [e]; exact div_nonneg h0.le (by linarith)) n (by rw [e']; exact h1) xs zs c m hm (by rw [e']; exact ix) iz n le_rfl
  have E := strain_error_of_substeps nx nz h wX wZ n hn h0.le h1 xs zs c m hm ix iz R
  simp only [B]
  rw [b1, b2, b3, b4, e', E, Matrix.det_fin_two]
  simp only [Tens.mat, Matrix.cons_val', Matrix.cons_val_zero, Matrix.cons_val_one, Matrix.of_apply, Matrix.cons_val_fin_one]
  have W : 0 < (b.xmax - b.xmin) * (b.zmax - b.zmin) := mul_pos (by linarith) (by linarith)
  generalize eps * dt = Q at *
  have k1 : 0 < Q ^ 2 / (n - Q) := div_pos (by positivity) (by linarith)
  have k2 : 0 < Q ^ 2 / (n + Q) := div_pos (by positivity) (by linarith)
  have k3 : Q ^ 2 / (n + Q) ≤ 1 := by rw [div_le_one (by linarith)]; nlinarith
  have k : (1 - Q - Q ^ 2 / (n - Q)) * (1 + Q - Q ^ 2 / (n + Q)) - 0 * 0 < (1 - Q) * (1 + Q) := by nlinarith
  calc _ < (1 - Q) * (1 + Q) * ((b.xmax - b.xmin) * (b.zmax - b.zmin)) := mul_lt_mul_of_pos_right k W
    _ = _ := by ring

/-- Every kept marker has a record: the grid of each moved box and the tensors on it exist. -/
theorem record_exists (nx : 1 ≤ ncx) (nz : 1 ≤ ncz) (h : Moving.InPureShear (ncx + 1) (ncz + 1) eps b s) (wX : b.xmin < b.xmax) (wZ : b.zmin < b.zmax) (h0 : 0 ≤ eps * d) (N : Nat) (h1 : N * (eps * d) ≤ 1 / 2)
    (xs : b.xmin ≤ 0 ∧ 0 ≤ b.xmax) (zs : b.zmin ≤ 0 ∧ 0 ≤ b.zmax) (c : Grid.Coords K) (m : Adv.Marker K) (hm : m.phase ≠ -1)
    (ix : b.xmin * (1 - N * (eps * d)) ≤ m.x ∧ m.x ≤ b.xmax * (1 - N * (eps * d))) (iz : b.zmin ≤ m.z ∧ m.z ≤ b.zmax)
    (per : Bool) (junk : Quad Int) (tagP tagG : Int → Int) : ∃ G F, Recorded ncx ncz d s c b m per junk tagP tagG G N F := by
  let B : Nat → Setup.Box K := fun k => (Moving.subSteps (ncx + 1) (ncz + 1) d s c b m (k + 1)).2.1
  let hx : Nat → K := fun k => ((B k).xmax - (B k).xmin) / ncx
  let hz : Nat → K := fun k => ((B k).zmax - (B k).zmin) / ncz
  let G : Grids K := ⟨fun k j => (B k).xmin + j * hx k, fun k j => (B k).zmin + j * hz k, fun k j => (B k).xmin - hx k / 2 + j * hx k, fun k j => (B k).zmin - hz k / 2 + j * hz k, hx, hz⟩
  have cx : (0 : K) < ncx := by exact_mod_cast nx
  have cz : (0 : K) < ncz := by exact_mod_cast nz
  have M : ∀ k < N, Mesh ncx ncz (G.xg k) (G.zg k) (G.xe k) (G.ze k) (G.dx k) (G.dz k) ⟨(B k).xmin, (B k).xmax, (B k).zmin, (B k).zmax⟩ := by
    intro k hk
    obtain ⟨⟨b1, b2, b3, b4⟩, -⟩ := Moving.run (by omega) (by omega) h wX wZ h0 N h1 xs zs c m hm ix iz (k + 1) hk
    have nN : ((k + 1 : Nat) : K) * (eps * d) ≤ N * (eps * d) := mul_le_mul_of_nonneg_right (by exact_mod_cast hk) h0
    have n0 : 0 ≤ ((k + 1 : Nat) : K) * (eps * d) := mul_nonneg (Nat.cast_nonneg _) h0
    have w1 : (B k).xmin < (B k).xmax := by show _ < _; simp only [B]; rw [b1, b2]; exact mul_lt_mul_of_pos_right wX (by linarith)
    have w2 : (B k).zmin < (B k).zmax := by show _ < _; simp only [B]; rw [b3, b4]; exact mul_lt_mul_of_pos_right wZ (by linarith)
    refine ⟨nx, nz, div_pos (by linarith) cx, div_pos (by linarith) cz, fun j => rfl, fun j => rfl, fun j => rfl, fun j => rfl, ?_, ?_⟩
    · show (B k).xmax = (B k).xmin + ncx * (((B k).xmax - (B k).xmin) / ncx)
      rw [mul_div_cancel₀ _ cx.ne']; ring
    · show (B k).zmax = (B k).zmin + ncz * (((B k).zmax - (B k).zmin) / ncz)
      rw [mul_div_cancel₀ _ cz.ne']; ring
  let F : Nat → Tens K := fun n => Nat.rec ⟨1, 0, 0, 1⟩ (fun k T => ⟨(1 - eps / (1 - ((k + 1 : Nat) : K) * (eps * d)) * d) * T.xx, (1 - eps / (1 - ((k + 1 : Nat) : K) * (eps * d)) * d) * T.xz,
    (1 + eps / (1 + ((k + 1 : Nat) : K) * (eps * d)) * d) * T.zx, (1 + eps / (1 + ((k + 1 : Nat) : K) * (eps * d)) * d) * T.zz⟩) n
  refine ⟨G, F, rfl, M, fun k hk => ?_⟩
  obtain ⟨fl, ph, jx, jz⟩ := inside_after nx nz h wX wZ h0 N h1 xs zs c m hm ix iz (k + 1) hk
  exact update fl (M k hk) per junk tagP tagG d _ ph jx jz (F k)

end

/-- The pure shear of C167 on three by three vertices, a step of 1/10 in two substeps: the recorded shortening is 1 - 1/10 - 1/190. -/
example (G : Grids ℚ) (F : Nat → Tens ℚ)
    (R : Recorded 2 2 ((1 / 10 : ℚ) / (2 : Nat)) Moving.demoSides Moving.demoGrid ⟨-1, 1, -1, 1⟩ ⟨1 / 2, 1 / 4, 0, 0, 2⟩ false ⟨0, 0, 0, 0⟩ (fun _ => -1) (fun _ => -1) G 2 F) : (F 2).xx = 1 - 1 / 10 - 1 / 190 := by
  rw [strain_error_of_substeps (by norm_num) (by norm_num) Moving.demo_shear (by norm_num) (by norm_num) 2 (by norm_num) (by norm_num) (by norm_num) (by norm_num) (by norm_num) _ _ (by norm_num) (by norm_num) (by norm_num) R]
  norm_num

example : ∃ G F, Recorded 2 2 ((1 / 10 : ℚ) / (2 : Nat)) Moving.demoSides Moving.demoGrid ⟨-1, 1, -1, 1⟩ ⟨1 / 2, 1 / 4, 0, 0, 2⟩ false ⟨0, 0, 0, 0⟩ (fun _ => -1) (fun _ => -1) G 2 F :=
  record_exists (by norm_num) (by norm_num) Moving.demo_shear (by norm_num) (by norm_num) (by norm_num) 2 (by norm_num) (by norm_num) (by norm_num) _ _ (by norm_num) (by norm_num) (by norm_num) _ _ _ _

end Verif.Strain
