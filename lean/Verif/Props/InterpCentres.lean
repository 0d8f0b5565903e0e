import Verif.Props.Interp
import Mathlib.Topology.Algebra.Ring.Real
import Mathlib.Topology.Algebra.Order.Field
import Mathlib.Topology.Order.Lattice
import Mathlib.Algebra.Order.Archimedean.Real.Basic

/-
C20, second part: linear fields with the conservative correction, averages that leave out air,
cell-centred fields, continuity, and a concrete case.
-/
namespace Verif.Interp
open Verif
set_option linter.unusedSectionVars false
set_option linter.unusedSimpArgs false

variable {K : Type*} [Field K] [LinearOrder K] [IsStrictOrderedRing K] [FloorRing K]

/-- C20 (linear fields).  With or without the conservative correction, a velocity that is a linear
function of position at the nodes is reproduced exactly at every marker of the closed grid. -/
theorem velocity_exact_for_linear {nx nz : Nat} {X Z : Int → K} {x0 z0 dx dz x z : K}
    (G : InGrid nx nz X Z x0 z0 dx dz x z) (V : Int → K) (tag : Int → Int) (ha : NoAir nx nz tag)
    (taras : Bool) (α β γ : K)
    (hV : ∀ j < nx, ∀ i < nz, V ((j : Int) + i * nx) = α + β * X j + γ * Z i) :
    v2pVx nx nz X Z dx dz V tag taras x z = α + β * x + γ * z ∧
    v2pVz nx nz X Z dx dz V tag taras x z = α + β * x + γ * z := by
  have plain := velocity_is_bilinear G V tag ha
  have hb := bilinear_linear G α β γ (fun j i => V (j + i * nx)) hV
  rw [hb] at plain
  cases taras with
  | false => exact plain
  | true =>
    -- the correction multiplies a second difference, which vanishes
    obtain ⟨j, i, hj, hi, j2, i2, _⟩ := G.cell
    obtain ⟨t1, t2, t3, t4⟩ := cellNodes_noAir ha j2 i2
    have gX : airFixX ((cellNodes nx j i).get tag) ((cellNodes nx j i).get V) = (cellNodes nx j i).get V := by
      unfold airFixX
      simp only [t1.1, t2.1, t3.1, t4.1, if_false, false_and]
    have gZ : airFixZ ((cellNodes nx j i).get tag) ((cellNodes nx j i).get V) = (cellNodes nx j i).get V := by
      unfold airFixZ
      simp only [t1.1, t2.1, t3.1, t4.1, if_false, false_and]
    have hT : ∀ n, IsNode nx nz n → tag n ≠ 30 := by
      rintro n ⟨i', hi', j', hj', rfl⟩
      exact (ha i' hi' j' hj').1
    obtain ⟨n1, n2, n3, n4, n5, n6, n7, n8⟩ := extra_nodes j2 i2
    have v1 := hV j (by omega) i (by omega)
    have v2 := hV (j + 1) (by omega) i (by omega)
    have v3 := hV j (by omega) (i + 1) (by omega)
    have v4 := hV (j + 1) (by omega) (i + 1) (by omega)
    rw [G.regX, G.regZ] at v1 v2 v3 v4
    constructor
    · rw [← plain.1]
      unfold v2pVx
      simp only [hj, hi, corners_eq, gX, if_true, Bool.false_eq_true, if_false]
      by_cases hB : 1 / 2 ≤ |x - X j| / dx
      · simp only [hB, if_true]
        by_cases hC : (j : Int) < nx - 2
        · have e1 : (cellNodes nx j i).se + 1 = ((j + 2 : Nat) : Int) + (i : Nat) * nx := by
            simp only [cellNodes]; push_cast; ring
          have e2 : (cellNodes nx j i).ne + 1 = ((j + 2 : Nat) : Int) + ((i + 1 : Nat) : Int) * nx := by
            simp only [cellNodes]; push_cast; ring
          have v5 := hV (j + 2) (by omega) i (by omega)
          have v6 := hV (j + 2) (by omega) (i + 1) (by omega)
          rw [G.regX, G.regZ] at v5 v6
          simp only [hC, if_true, hT _ (n5 hC).1, hT _ (n5 hC).2, if_false]
          rw [e1, e2, v5, v6]
          simp only [Quad.get, cellNodes]
          rw [v1, v2, v3, v4]
          push_cast
          ring
        · simp only [hC, if_false]
      · simp only [hB, if_false]
        by_cases hC : 0 < (j : Int)
        · have hj1 : 1 ≤ j := by omega
          have e1 : (cellNodes nx j i).sw - 1 = ((j - 1 : Nat) : Int) + (i : Nat) * nx := by
            simp only [cellNodes]; rw [Nat.cast_sub hj1]; push_cast; ring
          have e2 : (cellNodes nx j i).nw - 1 = ((j - 1 : Nat) : Int) + ((i + 1 : Nat) : Int) * nx := by
            simp only [cellNodes]; rw [Nat.cast_sub hj1]; push_cast; ring
          have v5 := hV (j - 1) (by omega) i (by omega)
          have v6 := hV (j - 1) (by omega) (i + 1) (by omega)
          rw [G.regX, G.regZ] at v5 v6
          simp only [hC, if_true, hT _ (n6 hC).1, hT _ (n6 hC).2, if_false]
          rw [e1, e2, v5, v6]
          simp only [Quad.get, cellNodes]
          rw [v1, v2, v3, v4, Nat.cast_sub hj1]
          push_cast
          ring
        · simp only [hC, if_false]
    · rw [← plain.2]
      unfold v2pVz
      simp only [hj, hi, corners_eq, gZ, if_true, Bool.false_eq_true, if_false]
      by_cases hB : 1 / 2 ≤ |z - Z i| / dz
      · simp only [hB, if_true]
        by_cases hC : (i : Int) < nz - 2
        · have e1 : (cellNodes nx j i).nw + nx = (j : Int) + ((i + 2 : Nat) : Int) * nx := by
            simp only [cellNodes]; push_cast; ring
          have e2 : (cellNodes nx j i).ne + nx = ((j + 1 : Nat) : Int) + ((i + 2 : Nat) : Int) * nx := by
            simp only [cellNodes]; push_cast; ring
          have v5 := hV j (by omega) (i + 2) (by omega)
          have v6 := hV (j + 1) (by omega) (i + 2) (by omega)
          rw [G.regX, G.regZ] at v5 v6
          simp only [hC, if_true, hT _ (n7 hC).1, hT _ (n7 hC).2, if_false]
          rw [e1, e2, v5, v6]
          simp only [Quad.get, cellNodes]
          rw [v1, v2, v3, v4]
          push_cast
          ring
        · simp only [hC, if_false]
      · simp only [hB, if_false]
        by_cases hC : 0 < (i : Int)
        · have hi1 : 1 ≤ i := by omega
          have e1 : (cellNodes nx j i).sw - nx = (j : Int) + ((i - 1 : Nat) : Int) * nx := by
            simp only [cellNodes]; rw [Nat.cast_sub hi1]; push_cast; ring
          have e2 : (cellNodes nx j i).se - nx = ((j + 1 : Nat) : Int) + ((i - 1 : Nat) : Int) * nx := by
            simp only [cellNodes]; rw [Nat.cast_sub hi1]; push_cast; ring
          have v5 := hV j (by omega) (i - 1) (by omega)
          have v6 := hV (j + 1) (by omega) (i - 1) (by omega)
          rw [G.regX, G.regZ] at v5 v6
          simp only [hC, if_true, hT _ (n8 hC).1, hT _ (n8 hC).2, if_false]
          rw [e1, e2, v5, v6]
          simp only [Quad.get, cellNodes]
          rw [v1, v2, v3, v4, Nat.cast_sub hi1]
          push_cast
          ring
        · simp only [hC, if_false]

/-- Bounds for the average that leaves out air nodes. -/
theorem airMean_between {a b : K} (ha0 : 0 ≤ a) (ha1 : a ≤ 1) (hb0 : 0 ≤ b) (hb1 : b ≤ 1)
    (t : Quad Int) (v : Quad K) (lo hi : K)
    (h1 : isAir t.sw = false → Between lo hi v.sw) (h2 : isAir t.se = false → Between lo hi v.se)
    (h3 : isAir t.nw = false → Between lo hi v.nw) (h4 : isAir t.ne = false → Between lo hi v.ne)
    (hw : 1 / 10 ^ 13 < (if isAir t.sw then 0 else (1 - a) * (1 - b)) + (if isAir t.se then 0 else a * (1 - b)) +
      (if isAir t.nw then 0 else (1 - a) * b) + (if isAir t.ne then 0 else a * b)) :
    Between lo hi (airMean a b t v) := by
  have key : ∀ (c : Bool) (w y : K), 0 ≤ w → (c = false → Between lo hi y) →
      (if c then 0 else w) * lo ≤ (if c then 0 else w) * y ∧
      (if c then 0 else w) * y ≤ (if c then 0 else w) * hi := by
    intro c w y hw' hy
    cases c with
    | true => simp
    | false =>
      obtain ⟨l, r⟩ := hy rfl
      exact ⟨mul_le_mul_of_nonneg_left l (by simpa using hw'), mul_le_mul_of_nonneg_left r (by simpa using hw')⟩
  obtain ⟨p1, q1⟩ := key (isAir t.sw) ((1 - a) * (1 - b)) v.sw (mul_nonneg (by linarith) (by linarith)) h1
  obtain ⟨p2, q2⟩ := key (isAir t.se) (a * (1 - b)) v.se (mul_nonneg ha0 (by linarith)) h2
  obtain ⟨p3, q3⟩ := key (isAir t.nw) ((1 - a) * b) v.nw (mul_nonneg (by linarith) hb0) h3
  obtain ⟨p4, q4⟩ := key (isAir t.ne) (a * b) v.ne (mul_nonneg ha0 hb0) h4
  have hpos : (0 : K) < 1 / 10 ^ 13 := by positivity
  unfold airMean
  simp only
  rw [if_pos hw]
  have hw0 := lt_trans hpos hw
  unfold Between
  rw [le_div_iff₀ hw0, div_le_iff₀ hw0]
  constructor
  · have := add_le_add (add_le_add (add_le_add p1 p2) p3) p4
    linarith
  · have := add_le_add (add_le_add (add_le_add q1 q2) q3) q4
    linarith

/-- C20 (averages leaving out air).  `Vertices2Particle` never aborts for a marker in the closed
grid; its value lies between the rock values among the four nodes, provided rock nodes carry more
than the threshold weight; without air it is the bilinear interpolant. -/
theorem vertices2Particle_interpolation {nx nz : Nat} {X Z : Int → K} {x0 z0 dx dz x z : K}
    (G : InGrid nx nz X Z x0 z0 dx dz x z) (F : Int → K) (tag : Int → Int) :
    ∃ y, vertices2Particle nx nz X Z dx dz F tag x z = some y ∧
      (NoAir nx nz tag → y = bilinear nx nz x0 z0 dx dz (fun j i => F (j + i * nx)) x z) := by
  obtain ⟨j, i, hj, hi, j2, i2, j3, j4, i3, i4, hc⟩ := G.cell
  have hx : X 0 = x0 := by rw [G.regX]; simp
  have hz : Z 0 = z0 := by rw [G.regZ]; simp
  have ax : |x - X 0| = x - X 0 := abs_of_nonneg (by rw [hx]; linarith [G.xlo])
  have az : |z - Z 0| = z - Z 0 := abs_of_nonneg (by rw [hz]; linarith [G.zlo])
  unfold cellOf at hj hi hc
  unfold vertices2Particle
  simp only [ax, az, hc, hi]
  rw [if_neg (by omega)]
  refine ⟨_, rfl, fun ha => ?_⟩
  rw [bilinear_cell nx nz j i (by omega) (by omega) x0 z0 dx dz x z _ j3 j4 i3 i4, corners_eq,
    (local_coord G.regX G.dxp x j j3).1, (local_coord G.regZ G.dzp z i i3).1]
  obtain ⟨t1, t2, t3, t4⟩ := cellNodes_noAir ha j2 i2
  unfold airMean
  simp only [isAir_false t1, isAir_false t2, isAir_false t3, isAir_false t4, Bool.false_eq_true, if_false]
  have h1 : (1 : K) / 10 ^ 13 < (1 - ((x - x0) / dx - j)) * (1 - ((z - z0) / dz - i)) +
      ((x - x0) / dx - j) * (1 - ((z - z0) / dz - i)) + (1 - ((x - x0) / dx - j)) * ((z - z0) / dz - i) +
      ((x - x0) / dx - j) * ((z - z0) / dz - i) := by
    have : (1 - ((x - x0) / dx - j)) * (1 - ((z - z0) / dz - i)) +
      ((x - x0) / dx - j) * (1 - ((z - z0) / dz - i)) + (1 - ((x - x0) / dx - j)) * ((z - z0) / dz - i) +
      ((x - x0) / dx - j) * ((z - z0) / dz - i) = 1 := by ring
    rw [this]; norm_num
  rw [if_pos h1]
  unfold bilin
  simp only [Quad.get, cellNodes]
  rw [div_eq_iff (ne_of_gt (lt_trans (by positivity) h1))]
  ring

/-- Column of the extended array: ghost columns copy the edge, or the opposite edge when periodic. -/
def extCol (nx : Nat) (periodic : Bool) (j : Nat) : Nat :=
  if j = 0 then (if periodic then nx - 1 else 0)
  else if j = nx + 1 then (if periodic then 0 else nx - 1) else j - 1

/-- Row of the extended array: ghost rows copy the edge. -/
def extRow (nz : Nat) (i : Nat) : Nat := if i = 0 then 0 else if i = nz + 1 then nz - 1 else i - 1

/-- A box of `nx` by `nz` cells, extended coordinates starting half a cell outside, marker inside
the box. -/
structure InBox (nx nz : Nat) (X Z : Int → K) (xmin zmin dx dz x z : K) : Prop where
  nx1 : 1 ≤ nx
  nz1 : 1 ≤ nz
  dxp : 0 < dx
  dzp : 0 < dz
  regX : Regular X (xmin - dx / 2) dx
  regZ : Regular Z (zmin - dz / 2) dz
  xlo : xmin ≤ x
  xhi : x ≤ xmin + nx * dx
  zlo : zmin ≤ z
  zhi : z ≤ zmin + nz * dz

/-- Position in the extended array in one direction. -/
theorem centre_cell (n : Nat) (xmin dx x : K) (hdx : 0 < dx) (h0 : xmin ≤ x) (h1 : x ≤ xmin + n * dx) :
    ∃ j : Nat, cellOf x (xmin - dx / 2) dx = j ∧ j ≤ n ∧
      (j : K) ≤ (x - (xmin - dx / 2)) / dx ∧ (x - (xmin - dx / 2)) / dx ≤ j + 1 := by
  have t0 : 1 / 2 ≤ (x - (xmin - dx / 2)) / dx := by rw [le_div_iff₀ hdx]; linarith
  have t1 : (x - (xmin - dx / 2)) / dx ≤ n + 1 / 2 := by rw [div_le_iff₀ hdx]; linarith
  have l1 := Int.le_ceil ((x - (xmin - dx / 2)) / dx)
  have l2 := Int.ceil_lt_add_one ((x - (xmin - dx / 2)) / dx)
  have c0 : 0 < ⌈(x - (xmin - dx / 2)) / dx⌉ := Int.ceil_pos.mpr (by linarith)
  have c1 : ⌈(x - (xmin - dx / 2)) / dx⌉ ≤ (n : Int) + 1 :=
    Int.ceil_le.mpr (by push_cast; linarith)
  obtain ⟨j, hj⟩ := Int.eq_ofNat_of_zero_le (a := ⌈(x - (xmin - dx / 2)) / dx⌉ - 1) (by omega)
  have hc : (⌈(x - (xmin - dx / 2)) / dx⌉ : K) = j + 1 := by
    have : ⌈(x - (xmin - dx / 2)) / dx⌉ = (j : Int) + 1 := by omega
    rw [this]; push_cast; ring
  rw [hc] at l1 l2
  exact ⟨j, hj, by omega, by linarith, l1⟩

/-- The nine cases are the extension by ghost rows and columns. -/
theorem centreIdx_eq (nx nz : Nat) (hx : 1 ≤ nx) (hz : 1 ≤ nz) (p : Bool) (junk : Quad Int) (j i : Nat)
    (hj : j ≤ nx) (hi : i ≤ nz) :
    centreIdx nx nz p junk j i =
      ⟨(extCol nx p j : Int) + extRow nz i * nx, (extCol nx p (j + 1) : Int) + extRow nz i * nx,
       (extCol nx p j : Int) + extRow nz (i + 1) * nx, (extCol nx p (j + 1) : Int) + extRow nz (i + 1) * nx⟩ := by
  have cj : j = 0 ∨ j = nx ∨ (0 < j ∧ j < nx) := by omega
  have ci : i = 0 ∨ i = nz ∨ (0 < i ∧ i < nz) := by omega
  have e1 : ((nx - 1 : Nat) : Int) = (nx : Int) - 1 := by omega
  have e2 : ((nz - 1 : Nat) : Int) = (nz : Int) - 1 := by omega
  have z1 : (nx : Int) ≠ 0 := by omega
  have z2 : (nz : Int) ≠ 0 := by omega
  have z1' : ¬ (nx = 0) := by omega
  have z2' : ¬ (nz = 0) := by omega
  rcases cj with rfl | rfl | hj'
  · rcases ci with rfl | rfl | hi'
    · cases p <;> simp [centreIdx, extCol, extRow, z1.symm, z2.symm, z1', z2', e1]
    · cases p <;> simp [centreIdx, extCol, extRow, z1.symm, z2, z1', z2', e1, e2]
    · have f1 : ¬ i = nz := by omega
      have f2 : ¬ i = 0 := by omega
      have f3 : ¬ i = nz + 1 := by omega
      have f4 : ((i - 1 : Nat) : Int) = (i : Int) - 1 := by omega
      cases p <;> simp [centreIdx, extCol, extRow, z1.symm, z1', f1, f2, f3, f4, hi'.1, hi'.2, e1]
  · rcases ci with rfl | rfl | hi'
    · cases p <;> simp [centreIdx, extCol, extRow, z1, z2.symm, z1', z2', e1]
    · cases p <;> simp [centreIdx, extCol, extRow, z1, z2, z1', z2', e1, e2]
    · have f1 : ¬ i = nz := by omega
      have f2 : ¬ i = 0 := by omega
      have f3 : ¬ i = nz + 1 := by omega
      have f4 : ((i - 1 : Nat) : Int) = (i : Int) - 1 := by omega
      cases p <;> simp [centreIdx, extCol, extRow, z1, z1', f1, f2, f3, f4, hi'.1, hi'.2, e1]
  · have g1 : ¬ j = nx := by omega
    have g2 : ¬ j = 0 := by omega
    have g3 : ¬ j = nx + 1 := by omega
    have g4 : ((j - 1 : Nat) : Int) = (j : Int) - 1 := by omega
    rcases ci with rfl | rfl | hi'
    · simp [centreIdx, extCol, extRow, z2.symm, z2', g1, g2, g3, g4, hj'.1, hj'.2]
    · simp [centreIdx, extCol, extRow, z2, z2', g1, g2, g3, g4, hj'.1, hj'.2, e2]
      ring
    · have f1 : ¬ i = nz := by omega
      have f2 : ¬ i = 0 := by omega
      have f3 : ¬ i = nz + 1 := by omega
      have f4 : ((i - 1 : Nat) : Int) = (i : Int) - 1 := by omega
      simp [centreIdx, extCol, extRow, g1, g2, g3, g4, hj'.1, hj'.2, f1, f2, f3, f4, hi'.1, hi'.2]
      constructor <;> ring

/-- The extended field: ghost values copied from the edge rows and columns (or wrapped). -/
def extField (nx nz : Nat) (p : Bool) (F : Int → K) (j i : Nat) : K :=
  F ((extCol nx p j : Int) + extRow nz i * nx)

theorem extCol_lt {nx : Nat} (h : 1 ≤ nx) (p : Bool) {j : Nat} (hj : j ≤ nx + 1) : extCol nx p j < nx := by
  unfold extCol
  split_ifs <;> omega

theorem extRow_lt {nz : Nat} (h : 1 ≤ nz) {i : Nat} (hi : i ≤ nz + 1) : extRow nz i < nz := by
  unfold extRow
  split_ifs <;> omega

/-- C20 (cell-centred fields).  For any marker in the closed box `Interp_Grid2P_centroids2` returns
the bilinear interpolant of the field extended by one ghost row/column on each side (if there is no
air), whatever the uninitialised index variables contain; in general the value lies between the
four (existing) cell values it uses. -/
theorem centre_field_interpolation {nx nz : Nat} {X Z : Int → K} {xmin zmin dx dz x z : K}
    (G : InBox nx nz X Z xmin zmin dx dz x z) (p : Bool) (junk : Quad Int) (F : Int → K)
    (tag : Int → Int) :
    (NoAir nx nz tag → interpCentroids nx nz p junk X Z dx dz F tag x z =
      bilinear (nx + 2) (nz + 2) (xmin - dx / 2) (zmin - dz / 2) dx dz (extField nx nz p F) x z) ∧
    ∃ c1 < nx, ∃ c2 < nx, ∃ r1 < nz, ∃ r2 < nz, ∀ lo hi : K,
      (∀ c ∈ [c1, c2], ∀ r ∈ [r1, r2], Between lo hi (F ((c : Int) + r * nx))) →
      Between lo hi (interpCentroids nx nz p junk X Z dx dz F tag x z) := by
  have hx : X 0 = xmin - dx / 2 := by rw [G.regX]; simp
  have hz : Z 0 = zmin - dz / 2 := by rw [G.regZ]; simp
  obtain ⟨j, j1, j2, j3, j4⟩ := centre_cell nx xmin dx x G.dxp G.xlo G.xhi
  obtain ⟨i, i1, i2, i3, i4⟩ := centre_cell nz zmin dz z G.dzp G.zlo G.zhi
  have e : interpCentroids nx nz p junk X Z dx dz F tag x z =
      bilin ((x - (xmin - dx / 2)) / dx - j) ((z - (zmin - dz / 2)) / dz - i)
        (swapAir ((centreIdx nx nz p junk j i).get tag) ((centreIdx nx nz p junk j i).get F)) := by
    unfold interpCentroids
    simp only [hx, hz, j1, i1, (local_coord G.regX G.dxp x j j3).1, (local_coord G.regZ G.dzp z i i3).1]
    have s1 : ∀ a b : K, (1 - a) * (1 - b) + a * (1 - b) + (1 - a) * b + a * b = 1 := fun a b => by ring
    rw [s1, if_pos (by norm_num), div_one]
  rw [e, centreIdx_eq nx nz G.nx1 G.nz1 p junk j i j2 i2]
  have a1 := extCol_lt G.nx1 p (j := j) (by omega)
  have a2 := extCol_lt G.nx1 p (j := j + 1) (by omega)
  have b1 := extRow_lt G.nz1 (i := i) (by omega)
  have b2 := extRow_lt G.nz1 (i := i + 1) (by omega)
  constructor
  · intro ha
    rw [bilinear_cell (nx + 2) (nz + 2) j i (by omega) (by omega) _ _ dx dz x z _ j3 j4 i3 i4]
    unfold swapAir
    simp only [Quad.get, isAir_false (ha _ b1 _ a1), isAir_false (ha _ b1 _ a2), isAir_false (ha _ b2 _ a1),
      isAir_false (ha _ b2 _ a2), Bool.false_eq_true, if_false]
    rfl
  · refine ⟨_, a1, _, a2, _, b1, _, b2, fun lo hi h => ?_⟩
    obtain ⟨m1, m2, m3, m4⟩ := swapAir_mem
      ((⟨(extCol nx p j : Int) + extRow nz i * nx, (extCol nx p (j + 1) : Int) + extRow nz i * nx,
       (extCol nx p j : Int) + extRow nz (i + 1) * nx, (extCol nx p (j + 1) : Int) + extRow nz (i + 1) * nx⟩ : Quad Int).get tag)
      ((⟨(extCol nx p j : Int) + extRow nz i * nx, (extCol nx p (j + 1) : Int) + extRow nz i * nx,
       (extCol nx p j : Int) + extRow nz (i + 1) * nx, (extCol nx p (j + 1) : Int) + extRow nz (i + 1) * nx⟩ : Quad Int).get F)
      (Between lo hi) (h _ (by simp) _ (by simp)) (h _ (by simp) _ (by simp)) (h _ (by simp) _ (by simp))
      (h _ (by simp) _ (by simp))
    exact bilin_between (by linarith) (by linarith) (by linarith) (by linarith) _ _ _ m1 m2 m3 m4

/-- C20 (new markers).  `Centers2Particle`, used for reseeded and inflow markers, agrees with
`Interp_Grid2P_centroids2` when there is no air. -/
theorem centers2Particle_eq_interp {nx nz : Nat} {X Z : Int → K} {xmin zmin dx dz x z : K}
    (G : InBox nx nz X Z xmin zmin dx dz x z) (p : Bool) (junk : Quad Int) (F : Int → K)
    (tag : Int → Int) (ha : NoAir nx nz tag) :
    centers2Particle nx nz p junk X Z dx dz F tag x z = interpCentroids nx nz p junk X Z dx dz F tag x z := by
  have hx : X 0 = xmin - dx / 2 := by rw [G.regX]; simp
  have hz : Z 0 = zmin - dz / 2 := by rw [G.regZ]; simp
  obtain ⟨j, j1, j2, j3, j4⟩ := centre_cell nx xmin dx x G.dxp G.xlo G.xhi
  obtain ⟨i, i1, i2, i3, i4⟩ := centre_cell nz zmin dz z G.dzp G.zlo G.zhi
  have a1 := extCol_lt G.nx1 p (j := j) (by omega)
  have a2 := extCol_lt G.nx1 p (j := j + 1) (by omega)
  have b1 := extRow_lt G.nz1 (i := i) (by omega)
  have b2 := extRow_lt G.nz1 (i := i + 1) (by omega)
  unfold centers2Particle interpCentroids airMean swapAir
  simp only [hx, hz, j1, i1, centreIdx_eq nx nz G.nx1 G.nz1 p junk j i j2 i2, Quad.get,
    isAir_false (ha _ b1 _ a1), isAir_false (ha _ b1 _ a2), isAir_false (ha _ b2 _ a1),
      isAir_false (ha _ b2 _ a2), Bool.false_eq_true, if_false]
  unfold bilin
  simp only

/-- C20 (periodic sides).  With periodic sides and no air a cell-centred field takes the same value
on the west and on the east side of the box. -/
theorem centre_field_periodic {nx nz : Nat} {X Z : Int → K} {xmin zmin dx dz z : K}
    (Gw : InBox nx nz X Z xmin zmin dx dz xmin z) (Ge : InBox nx nz X Z xmin zmin dx dz (xmin + nx * dx) z)
    (junk : Quad Int) (F : Int → K) (tag : Int → Int) (ha : NoAir nx nz tag) :
    interpCentroids nx nz true junk X Z dx dz F tag xmin z =
      interpCentroids nx nz true junk X Z dx dz F tag (xmin + nx * dx) z := by
  rw [(centre_field_interpolation Gw true junk F tag).1 ha, (centre_field_interpolation Ge true junk F tag).1 ha]
  obtain ⟨i, i1, i2, i3, i4⟩ := centre_cell nz zmin dz z Gw.dzp Gw.zlo Gw.zhi
  have hd := ne_of_gt Gw.dxp
  have hn := Gw.nx1
  have ew : (xmin - (xmin - dx / 2)) / dx = 1 / 2 := by field_simp; ring
  have ee : (xmin + nx * dx - (xmin - dx / 2)) / dx = nx + 1 / 2 := by field_simp; ring
  rw [bilinear_cell (nx + 2) (nz + 2) 0 i (by omega) (by omega) _ _ dx dz xmin z _ (by rw [ew]; norm_num)
      (by rw [ew]; norm_num) i3 i4,
    bilinear_cell (nx + 2) (nz + 2) nx i (by omega) (by omega) _ _ dx dz (xmin + nx * dx) z _
      (by rw [ee]; linarith) (by rw [ee]; linarith) i3 i4]
  unfold bilin extField
  have c0 : extCol nx true 0 = nx - 1 := by simp [extCol]
  have c1 : extCol nx true (0 + 1) = 0 := by
    unfold extCol
    have : ¬ nx = 0 := by omega
    simp [this]
  have c2 : extCol nx true nx = nx - 1 := by
    unfold extCol
    have : ¬ nx = 0 := by omega
    simp [this]
  have c3 : extCol nx true (nx + 1) = 0 := by simp [extCol]
  simp only [c0, c1, c2, c3, ew, ee]
  push_cast
  ring

/-- C20 (continuity).  The bilinear interpolant is a continuous function of the position, so the
interpolated fields have no jumps at cell borders. -/
theorem bilinear_continuous (nx nz : Nat) (x0 z0 dx dz : ℝ) (f : Nat → Nat → ℝ) :
    Continuous fun q : ℝ × ℝ => bilinear nx nz x0 z0 dx dz f q.1 q.2 := by
  unfold bilinear hat
  refine continuous_finsetSum _ fun i _ => continuous_finset_sum _ fun j _ => ?_
  fun_prop

/-- Non-vacuity: a 3 by 3 grid, marker at (5/4, 1/2), one air node elsewhere. -/
example : InGrid 3 3 (fun j => (j : ℚ)) (fun j => (j : ℚ)) 0 0 1 1 (5 / 4) (1 / 2) :=
  { nx2 := by norm_num, nz2 := by norm_num, dxp := by norm_num, dzp := by norm_num,
    regX := fun j => by simp, regZ := fun j => by simp, xlo := by norm_num, xhi := by norm_num,
    zlo := by norm_num, zhi := by norm_num }

/-- Non-vacuity for cell centres. -/
example : InBox 2 2 (fun j => -1 / 2 + (j : ℚ)) (fun j => -1 / 2 + (j : ℚ)) 0 0 1 1 (1 / 4) 2 :=
  { nx1 := by norm_num, nz1 := by norm_num, dxp := by norm_num, dzp := by norm_num,
    regX := fun j => by norm_num, regZ := fun j => by norm_num, xlo := by norm_num, xhi := by norm_num,
    zlo := by norm_num, zhi := by norm_num }

/-- A value: bilinear interpolation of `10*j + i` at (5/4, 1/2) is 13. -/
example : v2pVx 3 3 (fun j => (j : ℚ)) (fun j => (j : ℚ)) 1 1 (fun n => 10 * (n % 3 : Int) + (n / 3 : Int))
    (fun _ => -1) false (5 / 4) (1 / 2) = 13 := by
  decide +kernel

end Verif.Interp
