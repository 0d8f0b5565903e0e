import Verif.Props.InterpCentres

/-
C20, further parts: nodes read for markers anywhere (also outside the grid), air nodes, and what the conservative
correction of the velocity does.
-/
namespace Verif.Interp
open Verif
set_option linter.unusedSectionVars false

variable {K : Type*} [Field K] [LinearOrder K] [IsStrictOrderedRing K] [FloorRing K]

/-- Whatever the cell number computed, the clamped one is a cell of the grid. -/
theorem clamp_range (n : Nat) (hn : 2 ≤ n) (c : Int) : ∃ j : Nat, clampIdx n c = j ∧ j + 2 ≤ n := by
  have h : 0 ≤ clampIdx n c ∧ clampIdx n c ≤ (n : Int) - 2 := by
    simp only [clampIdx]
    split_ifs <;> constructor <;> omega
  exact ⟨(clampIdx n c).toNat, by omega, by omega⟩

/-- C20 (existing nodes only, any position).  Even for a marker outside the grid (a runaway marker before it is
deactivated), for any coordinates and spacings, the velocity routine reads nodes of the grid only. -/
theorem velocity_reads_existing_nodes_anywhere {nx nz : Nat} (hx : 2 ≤ nx) (hz : 2 ≤ nz) (X Z : Int → K) (dx dz x z : K)
    (V V' : Int → K) (tag tag' : Int → Int) (taras : Bool)
    (hV : ∀ n, IsNode nx nz n → V n = V' n) (ht : ∀ n, IsNode nx nz n → tag n = tag' n) :
    v2pVx nx nz X Z dx dz V tag taras x z = v2pVx nx nz X Z dx dz V' tag' taras x z ∧
    v2pVz nx nz X Z dx dz V tag taras x z = v2pVz nx nz X Z dx dz V' tag' taras x z := by
  obtain ⟨j, hj, j2⟩ := clamp_range nx hx (cellOf x (X 0) dx)
  obtain ⟨i, hi, i2⟩ := clamp_range nz hz (cellOf z (Z 0) dz)
  obtain ⟨n1, n2, n3, n4, n5, n6, n7, n8⟩ := extra_nodes j2 i2
  have gV := get_congr j2 i2 hV
  have gT := get_congr j2 i2 ht
  constructor
  · unfold v2pVx
    simp only [hj, hi, corners_eq, gV, gT]
    by_cases hA : taras = true
    · simp only [hA, if_true]
      by_cases hB : 1 / 2 ≤ |x - X j| / dx
      · simp only [hB, if_true]
        by_cases hC : (j : Int) < nx - 2
        · simp only [hC, if_true, hV _ n1, hV _ n3, hV _ (n5 hC).1, hV _ (n5 hC).2, ht _ (n5 hC).1,
            ht _ (n5 hC).2]
        · simp only [hC, if_false]
      · simp only [hB, if_false]
        by_cases hC : 0 < (j : Int)
        · simp only [hC, if_true, hV _ n2, hV _ n4, hV _ (n6 hC).1, hV _ (n6 hC).2, ht _ (n6 hC).1,
            ht _ (n6 hC).2]
        · simp only [hC, if_false]
    · simp only [hA, if_false, Bool.false_eq_true]
  · unfold v2pVz
    simp only [hj, hi, corners_eq, gV, gT]
    by_cases hA : taras = true
    · simp only [hA, if_true]
      by_cases hB : 1 / 2 ≤ |z - Z i| / dz
      · simp only [hB, if_true]
        by_cases hC : (i : Int) < nz - 2
        · simp only [hC, if_true, hV _ n1, hV _ n2, hV _ (n7 hC).1, hV _ (n7 hC).2, ht _ (n7 hC).1,
            ht _ (n7 hC).2]
        · simp only [hC, if_false]
      · simp only [hB, if_false]
        by_cases hC : 0 < (i : Int)
        · simp only [hC, if_true, hV _ n3, hV _ n4, hV _ (n8 hC).1, hV _ (n8 hC).2, ht _ (n8 hC).1,
            ht _ (n8 hC).2]
        · simp only [hC, if_false]
    · simp only [hA, if_false, Bool.false_eq_true]

/-- The same for `Interp_Grid2P`: whatever the position, either it stops or it reads nodes of the grid. -/
theorem grid2P_reads_existing_nodes {nx nz : Nat} (hx : 2 ≤ nx) (hz : 2 ≤ nz) (vertexLike : Bool) (X Z : Int → K)
    (dx dz x z : K) (F F' : Int → K) (tag tag' : Int → Int)
    (hF : ∀ n, IsNode nx nz n → F n = F' n) (ht : ∀ n, IsNode nx nz n → tag n = tag' n) :
    interpGrid2P nx nz vertexLike X Z dx dz F tag x z = interpGrid2P nx nz vertexLike X Z dx dz F' tag' x z := by
  obtain ⟨j, hj, j2⟩ := clamp_range nx hx (cellOf x (X 0) dx)
  obtain ⟨i, hi, i2⟩ := clamp_range nz hz (cellOf z (Z 0) dz)
  unfold interpGrid2P
  simp only [hj, hi, corners_eq, get_congr j2 i2 hF, get_congr j2 i2 ht]

/-! ### Air nodes -/

/-- Values that differ at nodes carrying one of the given tags only. -/
def SameOutside (tags : List Int) (t : Quad Int) (v v' : Quad K) : Prop :=
  (t.sw ∉ tags → v.sw = v'.sw) ∧ (t.se ∉ tags → v.se = v'.se) ∧ (t.nw ∉ tags → v.nw = v'.nw) ∧ (t.ne ∉ tags → v.ne = v'.ne)

omit [LinearOrder K] [IsStrictOrderedRing K] [FloorRing K] in
/-- What the air nodes contain does not matter for Vx, as long as one of the four nodes is rock. -/
theorem airFixX_ignores_air (t : Quad Int) (v v' : Quad K) (h : SameOutside [30] t v v')
    (hr : t.sw ≠ 30 ∨ t.se ≠ 30 ∨ t.nw ≠ 30 ∨ t.ne ≠ 30) : airFixX t v = airFixX t v' := by
  obtain ⟨h1, h2, h3, h4⟩ := h
  simp only [List.mem_singleton] at h1 h2 h3 h4
  unfold airFixX
  simp only [Quad.mk.injEq]
  refine ⟨?_, ?_, ?_, ?_⟩ <;> split_ifs <;> simp_all

omit [LinearOrder K] [IsStrictOrderedRing K] [FloorRing K] in
/-- For Vz the same holds unless exactly the south-west and north-east nodes are air: the code replaces the
south-west value by the north-east one. -/
theorem airFixZ_ignores_air_partial (t : Quad Int) (v v' : Quad K) (h : SameOutside [30] t v v')
    (hr : t.sw ≠ 30 ∨ t.se ≠ 30 ∨ t.nw ≠ 30 ∨ t.ne ≠ 30) (hd : ¬ (t.sw = 30 ∧ t.ne = 30)) : airFixZ t v = airFixZ t v' := by
  obtain ⟨h1, h2, h3, h4⟩ := h
  simp only [List.mem_singleton] at h1 h2 h3 h4
  unfold airFixZ
  simp only [Quad.mk.injEq]
  refine ⟨?_, ?_, ?_, ?_⟩ <;> split_ifs <;> simp_all

/-- The exception is real: two fields that differ at an air node only give different Vz values. -/
theorem airFixZ_uses_air : ∃ (t : Quad Int) (v v' : Quad ℚ), SameOutside [30] t v v' ∧ t.se ≠ 30 ∧ t.nw ≠ 30 ∧
    (airFixZ t v).sw ≠ (airFixZ t v').sw :=
  ⟨⟨30, -1, -1, 30⟩, ⟨0, 0, 0, 0⟩, ⟨0, 0, 0, 1⟩, by simp [SameOutside], by decide, by decide, by simp [airFixZ]⟩

omit [LinearOrder K] [IsStrictOrderedRing K] [FloorRing K] in
/-- Scalar fields: air nodes (30, 31) below or above a rock node do not matter. -/
theorem swapAir_ignores_air (t : Quad Int) (v v' : Quad K) (h : SameOutside [30, 31] t v v')
    (hw : t.sw ∉ ([30, 31] : List Int) ∨ t.nw ∉ ([30, 31] : List Int))
    (he : t.se ∉ ([30, 31] : List Int) ∨ t.ne ∉ ([30, 31] : List Int)) : swapAir t v = swapAir t v' := by
  obtain ⟨h1, h2, h3, h4⟩ := h
  simp only [List.mem_cons, List.not_mem_nil, or_false, not_or] at h1 h2 h3 h4 hw he
  unfold swapAir isAir
  simp only [Quad.mk.injEq, Bool.or_eq_true, beq_iff_eq]
  refine ⟨?_, ?_, ?_, ?_⟩ <;> split_ifs <;> simp_all <;> tauto

omit [LinearOrder K] [IsStrictOrderedRing K] [FloorRing K] in
/-- Every value used comes from the same column: an air node is replaced by the node above or below it, a rock node
keeps its value. -/
theorem swapAir_vertical (t : Quad Int) (v : Quad K) :
    (t.sw ∉ ([30, 31] : List Int) → (swapAir t v).sw = v.sw) ∧ (t.sw ∈ ([30, 31] : List Int) → (swapAir t v).sw = v.nw) ∧
    (t.nw ∉ ([30, 31] : List Int) → (swapAir t v).nw = v.nw) ∧ (t.nw ∈ ([30, 31] : List Int) → (swapAir t v).nw = v.sw) ∧
    (t.se ∉ ([30, 31] : List Int) → (swapAir t v).se = v.se) ∧ (t.se ∈ ([30, 31] : List Int) → (swapAir t v).se = v.ne) ∧
    (t.ne ∉ ([30, 31] : List Int) → (swapAir t v).ne = v.ne) ∧ (t.ne ∈ ([30, 31] : List Int) → (swapAir t v).ne = v.se) := by
  unfold swapAir isAir
  simp only [List.mem_cons, List.not_mem_nil, or_false, not_or, Bool.or_eq_true, beq_iff_eq]
  refine ⟨?_, ?_, ?_, ?_, ?_, ?_, ?_, ?_⟩ <;> intro h <;> simp [h]

omit [IsStrictOrderedRing K] [FloorRing K] in
/-- The mean over non-air nodes never looks at air nodes. -/
theorem airMean_ignores_air (a b : K) (t : Quad Int) (v v' : Quad K) (h : SameOutside [30, 31] t v v') :
    airMean a b t v = airMean a b t v' := by
  obtain ⟨h1, h2, h3, h4⟩ := h
  have key : ∀ (t : Int) (w y y' : K), (t ∉ ([30, 31] : List Int) → y = y') →
      (if isAir t = true then 0 else w) * y = (if isAir t = true then 0 else w) * y' := by
    intro t w y y' hy
    by_cases hair : isAir t = true
    · simp [hair]
    · rw [hy]
      simpa [isAir] using hair
  unfold airMean
  simp only [key _ _ _ _ h1, key _ _ _ _ h2, key _ _ _ _ h3, key _ _ _ _ h4]

/-- Corollary for the whole routine: fields that differ at air nodes only give the same marker value, if no
column of the marker's cell is entirely air. -/
theorem grid2P_ignores_air {nx nz : Nat} {X Z : Int → K} {x0 z0 dx dz x z : K} (G : InGrid nx nz X Z x0 z0 dx dz x z)
    (vertexLike : Bool) (F F' : Int → K) (tag : Int → Int)
    (hF : ∀ n, tag n ∉ ([30, 31] : List Int) → F n = F' n)
    (hcol : ∀ i j : Nat, i + 1 < nz → j < nx → tag (j + i * nx) ∉ ([30, 31] : List Int) ∨ tag (j + (i + 1 : Nat) * nx) ∉ ([30, 31] : List Int)) :
    interpGrid2P nx nz vertexLike X Z dx dz F tag x z = interpGrid2P nx nz vertexLike X Z dx dz F' tag x z := by
  obtain ⟨j, i, hj, hi, j2, i2, _⟩ := G.cell
  unfold interpGrid2P
  simp only [hj, hi, corners_eq]
  rw [swapAir_ignores_air ((cellNodes nx j i).get tag) ((cellNodes nx j i).get F) ((cellNodes nx j i).get F')
    ⟨hF _, hF _, hF _, hF _⟩ (hcol i j (by omega) (by omega)) (hcol i (j + 1) (by omega) (by omega))]

/-! ### The conservative velocity correction -/

/-- C20 (conservative correction).  On a rock-only grid, for a velocity that is quadratic along its own direction, the
corrected interpolation differs from the velocity by a constant (`c·dx²/4`): its derivative along the direction
— the contribution to the divergence — is reproduced exactly.  This holds everywhere except in the outer half of
the first and of the last cell, where the correction is switched off. -/
theorem correction_quadratic_x {nx nz : Nat} {X Z : Int → K} {x0 z0 dx dz x z : K} (G : InGrid nx nz X Z x0 z0 dx dz x z)
    (tag : Int → Int) (ht : ∀ n, tag n ≠ 30) (a b c : K) (V : Int → K)
    (hV : ∀ i j : Nat, i < nz → j < nx → V (j + i * nx) = a + b * (x0 + j * dx) + c * (x0 + j * dx) ^ 2)
    (hl : x0 + dx / 2 < x) (hr : x < x0 + (nx - 1) * dx - dx / 2) :
    v2pVx nx nz X Z dx dz V tag true x z = a + b * x + c * x ^ 2 + c * dx ^ 2 / 4 := by
  obtain ⟨j, i, hj, hi, j2, i2, j3, j4, i3, i4, _⟩ := G.cell
  have hdx := G.dxp
  have loc := (local_coord G.regX G.dxp x j j3).2
  have e : ∀ v d : K, v * d / dx = v * (d / dx) := fun v d => by ring
  unfold v2pVx
  simp only [hj, hi, corners_eq, (local_coord G.regZ G.dzp z i i3).2, if_true]
  have v1 := hV i j (by omega) (by omega)
  have v2 := hV i (j + 1) (by omega) (by omega)
  have v3 := hV (i + 1) j (by omega) (by omega)
  have v4 := hV (i + 1) (j + 1) (by omega) (by omega)
  have nofix : ∀ q : Quad Int, airFixX (q.get tag) (q.get V) = q.get V := by
    intro q; unfold airFixX Quad.get; simp [ht]
  simp only [nofix, ht, if_false, e, loc]
  generalize hs : (x - x0) / dx - j = s at *
  have hx : x = x0 + (j + s) * dx := by rw [← hs]; field_simp; ring
  by_cases hB : 1 / 2 ≤ s
  · have hC : (j : Int) < nx - 2 := by
      by_contra hcon
      have hjj : j + 2 = nx := by omega
      have : (nx : K) = j + 2 := by rw [← hjj]; push_cast; ring
      rw [hx, this] at hr
      nlinarith
    have v5 := hV i (j + 2) (by omega) (by omega)
    have v6 := hV (i + 1) (j + 2) (by omega) (by omega)
    simp only [hB, if_true, hC, Quad.get, cellNodes] at *
    rw [show (((j + 1 : Nat) : Int) + i * nx + 1) = ((j + 2 : Nat) : Int) + i * nx by push_cast; ring,
      show (((j + 1 : Nat) : Int) + (i + 1 : Nat) * nx + 1) = ((j + 2 : Nat) : Int) + (i + 1 : Nat) * nx by push_cast; ring,
      v1, v2, v3, v4, v5, v6, hx]
    push_cast
    ring
  · have hC : 0 < (j : Int) := by
      by_contra hcon
      have hjj : j = 0 := by omega
      subst hjj
      rw [hx] at hl
      push_cast at hl
      push Not at hB
      nlinarith
    obtain ⟨j', rfl⟩ : ∃ j', j = j' + 1 := ⟨j - 1, by omega⟩
    have v5 := hV i j' (by omega) (by omega)
    have v6 := hV (i + 1) j' (by omega) (by omega)
    simp only [hB, if_false, hC, if_true, Quad.get, cellNodes] at *
    rw [show (((j' + 1 : Nat) : Int) + i * nx - 1) = (j' : Int) + i * nx by push_cast; ring,
      show (((j' + 1 : Nat) : Int) + (i + 1 : Nat) * nx - 1) = (j' : Int) + (i + 1 : Nat) * nx by push_cast; ring,
      v1, v2, v3, v4, v5, v6, hx]
    push_cast
    ring

/-- The same for the vertical velocity. -/
theorem correction_quadratic_z {nx nz : Nat} {X Z : Int → K} {x0 z0 dx dz x z : K} (G : InGrid nx nz X Z x0 z0 dx dz x z)
    (tag : Int → Int) (ht : ∀ n, tag n ≠ 30) (a b c : K) (V : Int → K)
    (hV : ∀ i j : Nat, i < nz → j < nx → V (j + i * nx) = a + b * (z0 + i * dz) + c * (z0 + i * dz) ^ 2)
    (hl : z0 + dz / 2 < z) (hr : z < z0 + (nz - 1) * dz - dz / 2) :
    v2pVz nx nz X Z dx dz V tag true x z = a + b * z + c * z ^ 2 + c * dz ^ 2 / 4 := by
  obtain ⟨j, i, hj, hi, j2, i2, j3, j4, i3, i4, _⟩ := G.cell
  have hdz := G.dzp
  have loc := (local_coord G.regZ G.dzp z i i3).2
  have e : ∀ v d : K, v * d / dz = v * (d / dz) := fun v d => by ring
  unfold v2pVz
  simp only [hj, hi, corners_eq, (local_coord G.regX G.dxp x j j3).2, if_true]
  have v1 := hV i j (by omega) (by omega)
  have v2 := hV i (j + 1) (by omega) (by omega)
  have v3 := hV (i + 1) j (by omega) (by omega)
  have v4 := hV (i + 1) (j + 1) (by omega) (by omega)
  have nofix : ∀ q : Quad Int, airFixZ (q.get tag) (q.get V) = q.get V := by
    intro q; unfold airFixZ Quad.get; simp [ht]
  simp only [nofix, ht, if_false, e, loc]
  generalize hs : (z - z0) / dz - i = s at *
  have hx : z = z0 + (i + s) * dz := by rw [← hs]; field_simp; ring
  by_cases hB : 1 / 2 ≤ s
  · have hC : (i : Int) < nz - 2 := by
      by_contra hcon
      have hjj : i + 2 = nz := by omega
      have : (nz : K) = i + 2 := by rw [← hjj]; push_cast; ring
      rw [hx, this] at hr
      nlinarith
    have v5 := hV (i + 2) j (by omega) (by omega)
    have v6 := hV (i + 2) (j + 1) (by omega) (by omega)
    simp only [hB, if_true, hC, Quad.get, cellNodes] at *
    rw [show ((j : Int) + (i + 1 : Nat) * nx + nx) = (j : Int) + (i + 2 : Nat) * nx by push_cast; ring,
      show (((j + 1 : Nat) : Int) + (i + 1 : Nat) * nx + nx) = ((j + 1 : Nat) : Int) + (i + 2 : Nat) * nx by push_cast; ring,
      v1, v2, v3, v4, v5, v6, hx]
    push_cast
    ring
  · have hC : 0 < (i : Int) := by
      by_contra hcon
      have hjj : i = 0 := by omega
      subst hjj
      rw [hx] at hl
      push_cast at hl
      push Not at hB
      nlinarith
    obtain ⟨i', rfl⟩ : ∃ i', i = i' + 1 := ⟨i - 1, by omega⟩
    have v5 := hV i' j (by omega) (by omega)
    have v6 := hV i' (j + 1) (by omega) (by omega)
    simp only [hB, if_false, hC, if_true, Quad.get, cellNodes] at *
    rw [show ((j : Int) + (i' + 1 : Nat) * nx - nx) = (j : Int) + i' * nx by push_cast; ring,
      show (((j + 1 : Nat) : Int) + (i' + 1 : Nat) * nx - nx) = ((j + 1 : Nat) : Int) + i' * nx by push_cast; ring,
      v1, v2, v3, v4, v5, v6, hx]
    push_cast
    ring

/-- Non-vacuity: `x²` on five by three nodes with unit spacing, at `x = 13/10`: the interpolated value is `x² + 1/4`. -/
example : v2pVx 5 3 (fun j => (j : ℚ)) (fun j => j) 1 1 (fun n => ((n % 5 : Int) : ℚ) ^ 2) (fun _ => -1) true (13 / 10) (1 / 2) =
    (13 / 10) ^ 2 + 1 / 4 := by decide +kernel

end Verif.Interp
