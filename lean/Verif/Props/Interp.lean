import Verif.Lemmas.Bilinear

/-
C20: grid-to-marker interpolation.  The routines on vertex-like grids (`V2P`, `Interp_Grid2P`,
`Vertices2Particle`) first, then those on cell centres.
-/
namespace Verif.Interp
open Verif
set_option linter.unusedSectionVars false

variable {K : Type*} [Field K] [LinearOrder K] [IsStrictOrderedRing K] [FloorRing K]

/-- A regular grid of `nx` by `nz` nodes with the marker inside it. -/
structure InGrid (nx nz : Nat) (X Z : Int → K) (x0 z0 dx dz x z : K) : Prop where
  nx2 : 2 ≤ nx
  nz2 : 2 ≤ nz
  dxp : 0 < dx
  dzp : 0 < dz
  regX : Regular X x0 dx
  regZ : Regular Z z0 dz
  xlo : x0 ≤ x
  xhi : x ≤ x0 + (nx - 1) * dx
  zlo : z0 ≤ z
  zhi : z ≤ z0 + (nz - 1) * dz

/-- No air node in the grid. -/
def NoAir (nx nz : Nat) (tag : Int → Int) : Prop :=
  ∀ i < nz, ∀ j < nx, tag (j + i * nx) ≠ 30 ∧ tag (j + i * nx) ≠ 31

/-- What `clamp_cell` gives in both directions. -/
theorem InGrid.cell {nx nz : Nat} {X Z : Int → K} {x0 z0 dx dz x z : K}
    (G : InGrid nx nz X Z x0 z0 dx dz x z) :
    ∃ j i : Nat, clampIdx nx (cellOf x (X 0) dx) = j ∧ clampIdx nz (cellOf z (Z 0) dz) = i ∧
      j + 2 ≤ nx ∧ i + 2 ≤ nz ∧
      (j : K) ≤ (x - x0) / dx ∧ (x - x0) / dx ≤ j + 1 ∧ (i : K) ≤ (z - z0) / dz ∧ (z - z0) / dz ≤ i + 1 ∧
      (if cellOf x (X 0) dx < 0 then 0 else cellOf x (X 0) dx) = (j : Int) := by
  have hx : X 0 = x0 := by rw [G.regX]; simp
  have hz : Z 0 = z0 := by rw [G.regZ]; simp
  obtain ⟨j, j1, _, j2, j3, j4, j5⟩ := clamp_cell nx G.nx2 x0 dx x G.dxp G.xlo G.xhi
  obtain ⟨i, i1, _, i2, i3, i4, _⟩ := clamp_cell nz G.nz2 z0 dz z G.dzp G.zlo G.zhi
  rw [hx, hz]
  exact ⟨j, i, j1, i1, j2, i2, j3, j4, i3, i4, j5⟩

/-- The four nodes of a cell. -/
def cellNodes (nx : Nat) (j i : Nat) : Quad Int :=
  ⟨j + i * nx, (j + 1 : Nat) + i * nx, j + (i + 1 : Nat) * nx, (j + 1 : Nat) + (i + 1 : Nat) * nx⟩

theorem corners_eq (nx j i : Nat) : corners (nx : Int) j i = cellNodes nx j i := by
  unfold corners cellNodes
  congr 1 <;> push_cast <;> ring

/-- All four nodes are nodes of the grid. -/
theorem cellNodes_noAir {nx nz : Nat} {tag : Int → Int} (h : NoAir nx nz tag) {j i : Nat}
    (hj : j + 2 ≤ nx) (hi : i + 2 ≤ nz) :
    let t := (cellNodes nx j i).get tag
    (t.sw ≠ 30 ∧ t.sw ≠ 31) ∧ (t.se ≠ 30 ∧ t.se ≠ 31) ∧ (t.nw ≠ 30 ∧ t.nw ≠ 31) ∧ t.ne ≠ 30 ∧ t.ne ≠ 31 :=
  ⟨h i (by omega) j (by omega), h i (by omega) (j + 1) (by omega), h (i + 1) (by omega) j (by omega),
    h (i + 1) (by omega) (j + 1) (by omega)⟩

theorem isAir_false {t : Int} (h : t ≠ 30 ∧ t ≠ 31) : isAir t = false := by
  simp [isAir, h.1, h.2]

/-- Every value after the air treatment is one of the four nodal values. -/
theorem airFixX_mem (t : Quad Int) (v : Quad K) (P : K → Prop) (h1 : P v.sw) (h2 : P v.se)
    (h3 : P v.nw) (h4 : P v.ne) :
    P (airFixX t v).sw ∧ P (airFixX t v).se ∧ P (airFixX t v).nw ∧ P (airFixX t v).ne := by
  unfold airFixX
  simp only
  split_ifs <;> simp_all

theorem airFixZ_mem (t : Quad Int) (v : Quad K) (P : K → Prop) (h1 : P v.sw) (h2 : P v.se)
    (h3 : P v.nw) (h4 : P v.ne) :
    P (airFixZ t v).sw ∧ P (airFixZ t v).se ∧ P (airFixZ t v).nw ∧ P (airFixZ t v).ne := by
  unfold airFixZ
  simp only
  split_ifs <;> simp_all

theorem swapAir_mem (t : Quad Int) (v : Quad K) (P : K → Prop) (h1 : P v.sw) (h2 : P v.se)
    (h3 : P v.nw) (h4 : P v.ne) :
    P (swapAir t v).sw ∧ P (swapAir t v).se ∧ P (swapAir t v).nw ∧ P (swapAir t v).ne := by
  unfold swapAir
  simp only
  split_ifs <;> simp_all

/-- The velocity sums are the bilinear ones. -/
theorem v2pVx_noTaras {nx nz : Nat} {xg zvx : Int → K} {x0 z0 dx dz x z : K}
    (G : InGrid nx nz xg zvx x0 z0 dx dz x z) (V : Int → K) (tag : Int → Int) :
    ∃ j i : Nat, j + 2 ≤ nx ∧ i + 2 ≤ nz ∧
      (j : K) ≤ (x - x0) / dx ∧ (x - x0) / dx ≤ j + 1 ∧ (i : K) ≤ (z - z0) / dz ∧ (z - z0) / dz ≤ i + 1 ∧
      v2pVx nx nz xg zvx dx dz V tag false x z =
        bilin ((x - x0) / dx - j) ((z - z0) / dz - i)
          (airFixX ((cellNodes nx j i).get tag) ((cellNodes nx j i).get V)) := by
  obtain ⟨j, i, hj, hi, j2, i2, j3, j4, i3, i4, _⟩ := G.cell
  refine ⟨j, i, j2, i2, j3, j4, i3, i4, ?_⟩
  unfold v2pVx
  simp only [hj, hi, corners_eq, (local_coord G.regX G.dxp x j j3).2, (local_coord G.regZ G.dzp z i i3).2,
    Bool.false_eq_true, if_false]
  unfold bilin
  have e : ∀ v d : K, v * d / dx = v * (d / dx) := fun v d => by ring
  simp only [e, (local_coord G.regX G.dxp x j j3).2]
  ring

theorem v2pVz_noTaras {nx nz : Nat} {xvz zg : Int → K} {x0 z0 dx dz x z : K}
    (G : InGrid nx nz xvz zg x0 z0 dx dz x z) (V : Int → K) (tag : Int → Int) :
    ∃ j i : Nat, j + 2 ≤ nx ∧ i + 2 ≤ nz ∧
      (j : K) ≤ (x - x0) / dx ∧ (x - x0) / dx ≤ j + 1 ∧ (i : K) ≤ (z - z0) / dz ∧ (z - z0) / dz ≤ i + 1 ∧
      v2pVz nx nz xvz zg dx dz V tag false x z =
        bilin ((x - x0) / dx - j) ((z - z0) / dz - i)
          (airFixZ ((cellNodes nx j i).get tag) ((cellNodes nx j i).get V)) := by
  obtain ⟨j, i, hj, hi, j2, i2, j3, j4, i3, i4, _⟩ := G.cell
  refine ⟨j, i, j2, i2, j3, j4, i3, i4, ?_⟩
  unfold v2pVz
  simp only [hj, hi, corners_eq, (local_coord G.regX G.dxp x j j3).2, (local_coord G.regZ G.dzp z i i3).2,
    Bool.false_eq_true, if_false]
  unfold bilin
  have e : ∀ v d : K, v * d / dz = v * (d / dz) := fun v d => by ring
  simp only [e, (local_coord G.regZ G.dzp z i i3).2]
  ring

/-- C20 (velocity, bounds).  For any marker in the closed grid and any air tags, the interpolated
velocity lies between the smallest and largest of the four nodes of an enclosing cell (plain
interpolation; the conservative correction is not a convex combination). -/
theorem velocity_between_nodes {nx nz : Nat} {X Z : Int → K} {x0 z0 dx dz x z : K}
    (G : InGrid nx nz X Z x0 z0 dx dz x z) (V : Int → K) (tag : Int → Int) :
    ∃ j i : Nat, j + 2 ≤ nx ∧ i + 2 ≤ nz ∧ Between (X j) (X (j + 1)) x ∧ Between (Z i) (Z (i + 1)) z ∧
      ∀ lo hi : K, (∀ j' ∈ [j, j + 1], ∀ i' ∈ [i, i + 1], Between lo hi (V (j' + i' * nx))) →
        Between lo hi (v2pVx nx nz X Z dx dz V tag false x z) ∧
        Between lo hi (v2pVz nx nz X Z dx dz V tag false x z) := by
  obtain ⟨j, i, hj, hi, j2, i2, j3, j4, i3, i4, _⟩ := G.cell
  obtain ⟨j', i', jj2, ii2, jj3, jj4, ii3, ii4, ex⟩ := v2pVx_noTaras G V tag
  have hloc : ∀ {Y : Int → K} {y0 dy y : K}, Regular Y y0 dy → 0 < dy → ∀ k : Nat,
      (k : K) ≤ (y - y0) / dy → (y - y0) / dy ≤ k + 1 → Between (Y k) (Y (k + 1)) y := by
    intro Y y0 dy y hY hdy k h0 h1
    rw [le_div_iff₀ hdy] at h0
    rw [div_le_iff₀ hdy] at h1
    unfold Between
    rw [hY, hY]
    push_cast
    constructor <;> linarith
  have eVx : v2pVx nx nz X Z dx dz V tag false x z = bilin ((x - x0) / dx - j) ((z - z0) / dz - i)
      (airFixX ((cellNodes nx j i).get tag) ((cellNodes nx j i).get V)) := by
    unfold v2pVx
    simp only [hj, hi, corners_eq, (local_coord G.regX G.dxp x j j3).2,
      (local_coord G.regZ G.dzp z i i3).2, Bool.false_eq_true, if_false]
    unfold bilin
    have e : ∀ v d : K, v * d / dx = v * (d / dx) := fun v d => by ring
    simp only [e, (local_coord G.regX G.dxp x j j3).2]
    ring
  have eVz : v2pVz nx nz X Z dx dz V tag false x z = bilin ((x - x0) / dx - j) ((z - z0) / dz - i)
      (airFixZ ((cellNodes nx j i).get tag) ((cellNodes nx j i).get V)) := by
    unfold v2pVz
    simp only [hj, hi, corners_eq, (local_coord G.regX G.dxp x j j3).2,
      (local_coord G.regZ G.dzp z i i3).2, Bool.false_eq_true, if_false]
    unfold bilin
    have e : ∀ v d : K, v * d / dz = v * (d / dz) := fun v d => by ring
    simp only [e, (local_coord G.regZ G.dzp z i i3).2]
    ring
  refine ⟨j, i, j2, i2, hloc G.regX G.dxp j j3 j4, hloc G.regZ G.dzp i i3 i4, fun lo hi' h => ?_⟩
  have hn : ∀ a ∈ [j, j + 1], ∀ b ∈ [i, i + 1], Between lo hi' (V (a + b * nx)) := h
  have q1 := hn j (by simp) i (by simp)
  have q2 := hn (j + 1) (by simp) i (by simp)
  have q3 := hn j (by simp) (i + 1) (by simp)
  have q4 := hn (j + 1) (by simp) (i + 1) (by simp)
  constructor
  · rw [eVx]
    obtain ⟨m1, m2, m3, m4⟩ := airFixX_mem ((cellNodes nx j i).get tag) ((cellNodes nx j i).get V)
      (Between lo hi') q1 q2 q3 q4
    exact bilin_between (by linarith) (by linarith) (by linarith) (by linarith) _ _ _ m1 m2 m3 m4
  · rw [eVz]
    obtain ⟨m1, m2, m3, m4⟩ := airFixZ_mem ((cellNodes nx j i).get tag) ((cellNodes nx j i).get V)
      (Between lo hi') q1 q2 q3 q4
    exact bilin_between (by linarith) (by linarith) (by linarith) (by linarith) _ _ _ m1 m2 m3 m4

/-- C20 (velocity, exact form).  Without air nodes the interpolated velocity *is* the piecewise
bilinear interpolant (hence continuous across cell borders, exact for constant and linear fields). -/
theorem velocity_is_bilinear {nx nz : Nat} {X Z : Int → K} {x0 z0 dx dz x z : K}
    (G : InGrid nx nz X Z x0 z0 dx dz x z) (V : Int → K) (tag : Int → Int) (ha : NoAir nx nz tag) :
    v2pVx nx nz X Z dx dz V tag false x z =
      bilinear nx nz x0 z0 dx dz (fun j i => V (j + i * nx)) x z ∧
    v2pVz nx nz X Z dx dz V tag false x z =
      bilinear nx nz x0 z0 dx dz (fun j i => V (j + i * nx)) x z := by
  constructor
  · obtain ⟨j, i, j2, i2, j3, j4, i3, i4, e⟩ := v2pVx_noTaras G V tag
    rw [e, bilinear_cell nx nz j i (by omega) (by omega) x0 z0 dx dz x z _ j3 j4 i3 i4]
    obtain ⟨t1, t2, t3, t4⟩ := cellNodes_noAir ha j2 i2
    unfold airFixX
    simp only [t1.1, t2.1, t3.1, t4.1, if_false, false_and]
    rfl
  · obtain ⟨j, i, j2, i2, j3, j4, i3, i4, e⟩ := v2pVz_noTaras G V tag
    rw [e, bilinear_cell nx nz j i (by omega) (by omega) x0 z0 dx dz x z _ j3 j4 i3 i4]
    obtain ⟨t1, t2, t3, t4⟩ := cellNodes_noAir ha j2 i2
    unfold airFixZ
    simp only [t1.1, t2.1, t3.1, t4.1, if_false, false_and]
    rfl

/-- C20 (vertex fields).  `Interp_Grid2P` never aborts for a marker in the closed grid, its value
lies between the four nodes of the cell, and without air it is the bilinear interpolant. -/
theorem vertex_field_interpolation {nx nz : Nat} {X Z : Int → K} {x0 z0 dx dz x z : K}
    (G : InGrid nx nz X Z x0 z0 dx dz x z) (vl : Bool) (F : Int → K) (tag : Int → Int) :
    ∃ y, interpGrid2P nx nz vl X Z dx dz F tag x z = some y ∧
      (NoAir nx nz tag → y = bilinear nx nz x0 z0 dx dz (fun j i => F (j + i * nx)) x z) ∧
      ∃ j i : Nat, j + 2 ≤ nx ∧ i + 2 ≤ nz ∧
        (j : K) ≤ (x - x0) / dx ∧ (x - x0) / dx ≤ j + 1 ∧ (i : K) ≤ (z - z0) / dz ∧ (z - z0) / dz ≤ i + 1 ∧
        ∀ lo hi : K, (∀ j' ∈ [j, j + 1], ∀ i' ∈ [i, i + 1], Between lo hi (F (j' + i' * nx))) →
          Between lo hi y := by
  obtain ⟨j, i, hj, hi, j2, i2, j3, j4, i3, i4, hc⟩ := G.cell
  have hna : (vl && decide ((nx : Int) - 2 < (if cellOf x (X 0) dx < 0 then 0 else cellOf x (X 0) dx))) = false := by
    rw [hc]
    have : ¬ ((nx : Int) - 2 < j) := by omega
    simp [this]
  unfold interpGrid2P
  simp only [hna, Bool.false_eq_true, if_false, hj, hi, corners_eq,
    (local_coord G.regX G.dxp x j j3).2, (local_coord G.regZ G.dzp z i i3).2]
  refine ⟨_, rfl, fun ha => ?_, j, i, j2, i2, j3, j4, i3, i4, fun lo hi' h => ?_⟩
  · rw [bilinear_cell nx nz j i (by omega) (by omega) x0 z0 dx dz x z _ j3 j4 i3 i4]
    obtain ⟨t1, t2, t3, t4⟩ := cellNodes_noAir ha j2 i2
    unfold swapAir
    simp only [isAir_false t1, isAir_false t2, isAir_false t3, isAir_false t4, Bool.false_eq_true, if_false]
    rfl
  · obtain ⟨m1, m2, m3, m4⟩ := swapAir_mem ((cellNodes nx j i).get tag) ((cellNodes nx j i).get F)
      (Between lo hi') (h j (by simp) i (by simp)) (h (j + 1) (by simp) i (by simp))
      (h j (by simp) (i + 1) (by simp)) (h (j + 1) (by simp) (i + 1) (by simp))
    exact bilin_between (by linarith) (by linarith) (by linarith) (by linarith) _ _ _ m1 m2 m3 m4

/-- The bilinear interpolant of a linear function is that function (inside the grid). -/
theorem bilinear_linear {nx nz : Nat} {X Z : Int → K} {x0 z0 dx dz x z : K}
    (G : InGrid nx nz X Z x0 z0 dx dz x z) (α β γ : K) (f : Nat → Nat → K)
    (hf : ∀ j < nx, ∀ i < nz, f j i = α + β * X j + γ * Z i) :
    bilinear nx nz x0 z0 dx dz f x z = α + β * x + γ * z := by
  obtain ⟨j, i, _, _, j2, i2, j3, j4, i3, i4, _⟩ := G.cell
  rw [bilinear_cell nx nz j i (by omega) (by omega) x0 z0 dx dz x z _ j3 j4 i3 i4]
  have hdx := ne_of_gt G.dxp
  have hdz := ne_of_gt G.dzp
  unfold bilin
  simp only [hf j (by omega) i (by omega), hf (j + 1) (by omega) i (by omega),
    hf j (by omega) (i + 1) (by omega), hf (j + 1) (by omega) (i + 1) (by omega), G.regX _, G.regZ _]
  push_cast
  field_simp
  ring

/-- Nodes of the grid as flat indices. -/
def IsNode (nx nz : Nat) (n : Int) : Prop := ∃ i < nz, ∃ j < nx, n = (j : Int) + i * nx

/-- The nodes that the conservative correction may add are nodes of the grid. -/
theorem extra_nodes {nx nz j i : Nat} (hj : j + 2 ≤ nx) (hi : i + 2 ≤ nz) :
    let q := cellNodes nx j i
    IsNode nx nz q.sw ∧ IsNode nx nz q.se ∧ IsNode nx nz q.nw ∧ IsNode nx nz q.ne ∧
    ((j : Int) < nx - 2 → IsNode nx nz (q.se + 1) ∧ IsNode nx nz (q.ne + 1)) ∧
    (0 < (j : Int) → IsNode nx nz (q.sw - 1) ∧ IsNode nx nz (q.nw - 1)) ∧
    ((i : Int) < nz - 2 → IsNode nx nz (q.nw + nx) ∧ IsNode nx nz (q.ne + nx)) ∧
    (0 < (i : Int) → IsNode nx nz (q.sw - nx) ∧ IsNode nx nz (q.se - nx)) := by
  refine ⟨⟨i, by omega, j, by omega, rfl⟩, ⟨i, by omega, j + 1, by omega, rfl⟩,
    ⟨i + 1, by omega, j, by omega, rfl⟩, ⟨i + 1, by omega, j + 1, by omega, rfl⟩,
    fun h => ⟨⟨i, by omega, j + 2, by omega, ?_⟩, ⟨i + 1, by omega, j + 2, by omega, ?_⟩⟩,
    fun h => ⟨⟨i, by omega, j - 1, by omega, ?_⟩, ⟨i + 1, by omega, j - 1, by omega, ?_⟩⟩,
    fun h => ⟨⟨i + 2, by omega, j, by omega, ?_⟩, ⟨i + 2, by omega, j + 1, by omega, ?_⟩⟩,
    fun h => ⟨⟨i - 1, by omega, j, by omega, ?_⟩, ⟨i - 1, by omega, j + 1, by omega, ?_⟩⟩⟩
  all_goals simp only [cellNodes]
  all_goals first
    | (rw [Nat.cast_sub (by omega : 1 ≤ j)]; push_cast; ring)
    | (rw [Nat.cast_sub (by omega : 1 ≤ i)]; push_cast; ring)
    | (push_cast; ring)

/-- Equality of the four values follows from equality on the nodes. -/
theorem get_congr {α : Type*} {nx nz j i : Nat} (hj : j + 2 ≤ nx) (hi : i + 2 ≤ nz) {f g : Int → α}
    (h : ∀ n, IsNode nx nz n → f n = g n) :
    (cellNodes nx j i).get f = (cellNodes nx j i).get g := by
  obtain ⟨h1, h2, h3, h4, _⟩ := extra_nodes hj hi (nz := nz)
  unfold Quad.get
  rw [h _ h1, h _ h2, h _ h3, h _ h4]

/-- C20 (existing nodes only).  For a marker anywhere in the closed grid, with or without the
conservative correction, the velocity routine looks at nodes of the grid only: two velocity arrays
(and tag arrays) that agree on the grid give the same result. -/
theorem velocity_reads_existing_nodes {nx nz : Nat} {X Z : Int → K} {x0 z0 dx dz x z : K}
    (G : InGrid nx nz X Z x0 z0 dx dz x z) (V V' : Int → K) (tag tag' : Int → Int) (taras : Bool)
    (hV : ∀ n, IsNode nx nz n → V n = V' n) (ht : ∀ n, IsNode nx nz n → tag n = tag' n) :
    v2pVx nx nz X Z dx dz V tag taras x z = v2pVx nx nz X Z dx dz V' tag' taras x z ∧
    v2pVz nx nz X Z dx dz V tag taras x z = v2pVz nx nz X Z dx dz V' tag' taras x z := by
  obtain ⟨j, i, hj, hi, j2, i2, _⟩ := G.cell
  obtain ⟨n1, n2, n3, n4, n5, n6, n7, n8⟩ := extra_nodes j2 i2
  have gV := get_congr j2 i2 hV
  have gT := get_congr j2 i2 ht
  constructor
  · unfold v2pVx
    simp only [hj, hi, corners_eq, gV, gT]
    by_cases hA : taras = true
    · simp only [hA, if_true]
      by_cases hB : 1 / 2 ≤ |x - X j| / dx
      · simp only [hB, if_true]
        by_cases hC : (j : Int) < nx - 2
        · simp only [hC, if_true, hV _ n1, hV _ n3, hV _ (n5 hC).1, hV _ (n5 hC).2, ht _ (n5 hC).1,
            ht _ (n5 hC).2]
        · simp only [hC, if_false]
      · simp only [hB, if_false]
        by_cases hC : 0 < (j : Int)
        · simp only [hC, if_true, hV _ n2, hV _ n4, hV _ (n6 hC).1, hV _ (n6 hC).2, ht _ (n6 hC).1,
            ht _ (n6 hC).2]
        · simp only [hC, if_false]
    · simp only [hA, if_false, Bool.false_eq_true]
  · unfold v2pVz
    simp only [hj, hi, corners_eq, gV, gT]
    by_cases hA : taras = true
    · simp only [hA, if_true]
      by_cases hB : 1 / 2 ≤ |z - Z i| / dz
      · simp only [hB, if_true]
        by_cases hC : (i : Int) < nz - 2
        · simp only [hC, if_true, hV _ n1, hV _ n2, hV _ (n7 hC).1, hV _ (n7 hC).2, ht _ (n7 hC).1,
            ht _ (n7 hC).2]
        · simp only [hC, if_false]
      · simp only [hB, if_false]
        by_cases hC : 0 < (i : Int)
        · simp only [hC, if_true, hV _ n3, hV _ n4, hV _ (n8 hC).1, hV _ (n8 hC).2, ht _ (n8 hC).1,
            ht _ (n8 hC).2]
        · simp only [hC, if_false]
    · simp only [hA, if_false, Bool.false_eq_true]

end Verif.Interp
