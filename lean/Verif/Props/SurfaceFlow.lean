import Verif.Model.SurfaceFlow
import Verif.Spec.SurfaceFlow
import Verif.Props.Hydrostatic
import Verif.Props.Flagging

set_option linter.unusedVariables false
set_option linter.unusedSectionVars false
set_option linter.unusedSimpArgs false

/- C125: densities of the cells cut by the free surface and the pressure of a resting column. -/
namespace Verif.SFlow
open Verif Finset

section
variable {K : Type*} [Field K] [LinearOrder K] [IsStrictOrderedRing K]

/-- Tag of cell row `j` in column `i`. -/
def Cut.tag (s : Cut K) (i j : Nat) : Int := s.tp (i + j * s.ncx)

/-- Surface height at the centre of column `i`. -/
def Cut.top (s : Cut K) (i : Nat) : K := Surf.height s.ab i (s.xc i)

theorem dz_rows (s : Cut K) (dz : K) (hdz : 0 < dz) (hn : 1 ≤ s.ncz) (hr : Rows s.ncz dz s.zg s.zc) : s.dz = dz := by
  unfold Cut.dz
  rw [hr.1 1 hn, show s.zg 0 + ((1 : Nat) : K) * dz - s.zg 0 = dz by push_cast; ring, abs_of_pos hdz]

theorem next_tag (s : Cut K) (i j : Nat) : s.tp (i + j * s.ncx + s.ncx) = s.tag i (j + 1) := by
  unfold Cut.tag
  congr 1
  push_cast
  ring

/-- C125: in a column with rock up to row `m`, the cells below carry weight 1, the top cell the fraction between its centre
and the surface, air nothing; the densities are the densities times these weights, and air has its own density. -/
theorem column_weights (s : Cut K) (i m : Nat) (hc : RockTo s.ncz m (s.tag i)) (rhoAir rho : K) :
    (∀ j < m, s.wn i j = 1 ∧ s.rhoN rhoAir rho i j = rho ∧ s.rho0N rho i j = rho) ∧
    (s.wn i m = |s.top i - s.zc m| / s.dz ∧ s.rhoN rhoAir rho i m = rho * (|s.top i - s.zc m| / s.dz) ∧
      s.rho0N rho i m = rho * (|s.top i - s.zc m| / s.dz)) ∧
    (∀ j, m < j → j < s.ncz → s.wn i j = 0 ∧ s.rhoN rhoAir rho i j = rhoAir ∧ s.rho0N rho i j = rho) := by
  obtain ⟨hm, hrock, h31, hair⟩ := hc
  have tc : ∀ j, s.topCell i j = true ↔ s.tag i j = -1 ∧ s.tag i (j + 1) = 31 := by
    intro j
    unfold Cut.topCell
    rw [next_tag, Bool.and_eq_true, beq_iff_eq, beq_iff_eq]
    rfl
  have ac : ∀ j, s.airCell i j = true ↔ s.tag i j = 30 ∨ s.tag i j = 31 := by
    intro j
    unfold Cut.airCell
    rw [Bool.or_eq_true, beq_iff_eq, beq_iff_eq]
    rfl
  refine ⟨fun j hj => ?_, ?_, fun j h1 h2 => ?_⟩
  · have a : ¬ s.airCell i j = true := by rw [ac, hrock j (by omega)]; decide
    have t : ¬ s.topCell i j = true := by rw [tc, hrock (j + 1) (by omega)]; simp
    unfold Cut.wn Cut.rhoN Cut.rho0N
    simp only
    rw [if_neg a, if_neg a, if_neg t, if_neg t]
    exact ⟨rfl, rfl, rfl⟩
  · have a : ¬ s.airCell i m = true := by rw [ac, hrock m le_rfl]; decide
    have t : s.topCell i m = true := by rw [tc]; exact ⟨hrock m le_rfl, h31⟩
    unfold Cut.wn Cut.rhoN Cut.rho0N
    simp only
    rw [if_neg a, if_neg a, if_pos t, if_pos t]
    exact ⟨rfl, rfl, rfl⟩
  · have aa : s.tag i j = 30 ∨ s.tag i j = 31 := by
      rcases Nat.lt_or_ge (m + 1) j with h | h
      · exact hair j h h2
      · rw [show j = m + 1 by omega]; exact Or.inr h31
    have a : s.airCell i j = true := (ac j).2 aa
    have t : ¬ s.topCell i j = true := by
      rw [tc]
      rintro ⟨h, -⟩
      rw [h] at aa
      revert aa; decide
    unfold Cut.wn Cut.rhoN Cut.rho0N
    simp only
    rw [if_pos a, if_pos a, if_neg t]
    exact ⟨rfl, rfl, rfl⟩

/-- C125: the weights of a column add up to the height of the surface above the centre of the lowest cell.  They change
continuously with the surface, but are half a cell short of the rock in the column. -/
theorem column_mass (s : Cut K) (dz : K) (hdz : 0 < dz) (hr : Rows s.ncz dz s.zg s.zc) (i m : Nat)
    (hc : RockTo s.ncz m (s.tag i)) (htop : s.zc m ≤ s.top i) :
    (∑ j ∈ range s.ncz, s.wn i j) * dz = s.top i - s.zc 0 ∧
    (∑ j ∈ range s.ncz, s.wn i j) * dz = s.top i - s.zg 0 - dz / 2 := by
  obtain ⟨h1, ⟨h2, -⟩, h3⟩ := column_weights s i m hc 0 0
  have hm := hc.1
  have hd := dz_rows s dz hdz (by omega) hr
  have e : ∑ j ∈ range s.ncz, s.wn i j = m + (s.top i - s.zc m) / dz := by
    obtain ⟨d, hd'⟩ : ∃ d, s.ncz = m + 1 + d := ⟨s.ncz - (m + 1), by omega⟩
    rw [hd', sum_range_add, sum_range_succ, h2, hd, abs_of_nonneg (sub_nonneg.2 htop),
      sum_congr rfl fun j hj => (h1 j (mem_range.1 hj)).1,
      sum_congr rfl fun j hj => (h3 (m + 1 + j) (by omega) (by have := mem_range.1 hj; omega)).1]
    simp
  have z0 := hr.2 0 (by omega)
  have zm := hr.2 m (by omega)
  have f : (∑ j ∈ range s.ncz, s.wn i j) * dz = s.top i - s.zc 0 := by
    rw [e, add_mul, div_mul_cancel₀ _ hdz.ne', zm, z0]
    push_cast
    ring
  refine ⟨f, ?_⟩
  rw [f, z0]
  push_cast
  ring

/-- C125: a column of uniform rock at rest under a free surface.  If every vertical momentum equation of the column holds
(no motion, no deviatoric stress, the corrected densities, zero pressure in the first air cell), the pressure is the weight
of the rock above, less the weight of half a cell of rock plus half a cell of air; in the top cell it is half the weight. -/
theorem static_pressure_partial (m : SMesh K) (B : Resid.Body K) (s : Cut K) (hsurf : B.surf = false) (hdx : m.dx ≠ 0)
    (hdz : 0 < m.dz) (hx : s.ncx = m.Nx - 1) (hz : s.ncz = m.Nz - 1) (hr : Rows s.ncz m.dz s.zg s.zc)
    (k M : Nat) (hk : k + 1 < m.Nx) (hc : RockTo s.ncz M (s.tag k)) (htop : s.zc M ≤ s.top k) (rho rhoAir : K)
    (hrho : ∀ j < s.ncz, m.rho (Resid.cell m k j) = s.rhoN rhoAir rho k j)
    (htv : ∀ l ≤ M, m.tv ((k + 1 : Nat) + (l + 1 : Nat) * (m.Nx + 1)) = -1)
    (p : Int → K) (hp : p (Resid.cell m k (M + 1)) = 0)
    (hbal : ∀ l ≤ M, zResidual m (fun _ => 0) (fun _ => 0) p (Resid.rogerZ m B (k + 1 : Nat) (l + 1 : Nat)) (fun _ => 0)
      (k + 1 : Nat) (l + 1 : Nat) = 0) :
    p (Resid.cell m k M) = 1 / 2 * weightAbove (-B.gz) rho (s.top k) (s.zc M) + 1 / 2 * (-B.gz) * rhoAir * m.dz ∧
    ∀ j < M, p (Resid.cell m k j) =
      weightAbove (-B.gz) rho (s.top k) (s.zc j) - 1 / 2 * (-B.gz) * (rho - rhoAir) * m.dz := by
  obtain ⟨h1, ⟨-, h2, -⟩, h3⟩ := column_weights s k M hc rhoAir rho
  have hM := hc.1
  have hd := dz_rows s m.dz hdz (by omega) hr
  have h2' : s.rhoN rhoAir rho k M = rho * ((s.top k - s.zc M) / m.dz) := by
    rw [h2, hd, abs_of_nonneg (sub_nonneg.2 htop)]
  have step : ∀ l ≤ M, p (Resid.cell m k l) = p (Resid.cell m k (l + 1)) +
      (-B.gz) * (1 / 2 * (s.rhoN rhoAir rho k l + s.rhoN rhoAir rho k (l + 1))) * m.dz := by
    intro l hl
    have h := hbal l hl
    rw [Resid.zRes_inner m p _ k l hk (by omega), Resid.rogerZ_inner m B k l hk (htv l hl) (Or.inl hsurf),
      hrho l (by omega), hrho (l + 1) (by omega), mul_eq_zero] at h
    rcases h with h | h
    · have : (-(p (Resid.cell m k (l + 1)) - p (Resid.cell m k l)) / m.dz +
        B.gz * (1 / 2 * (s.rhoN rhoAir rho k l + s.rhoN rhoAir rho k (l + 1)))) * m.dz = 0 := by rw [h, zero_mul]
      rw [add_mul, div_mul_cancel₀ _ hdz.ne'] at this
      linear_combination this
    · exact absurd h (neg_ne_zero.2 (mul_ne_zero hdx hdz.ne'))
  have pM : p (Resid.cell m k M) = 1 / 2 * weightAbove (-B.gz) rho (s.top k) (s.zc M) + 1 / 2 * (-B.gz) * rhoAir * m.dz := by
    rw [step M le_rfl, hp, h2', (h3 (M + 1) (by omega) (by omega)).2.1]
    unfold weightAbove
    have := hdz.ne'
    field_simp
    ring
  refine ⟨pM, ?_⟩
  have key : ∀ d j, j + d + 1 = M → p (Resid.cell m k j) =
      weightAbove (-B.gz) rho (s.top k) (s.zc j) - 1 / 2 * (-B.gz) * (rho - rhoAir) * m.dz := by
    intro d
    induction d with
    | zero =>
      intro j hj
      have hj' : j + 1 = M := by omega
      rw [step j (by omega), hj', pM, h2', (h1 j (by omega)).2.1]
      have zj := hr.2 j (by omega)
      have zM := hr.2 M (by omega)
      have : (M : K) = j + 1 := by rw [← hj']; push_cast; ring
      unfold weightAbove
      have e : s.zc j = s.zc M - m.dz := by rw [zj, zM, this]; ring
      rw [e]
      have := hdz.ne'
      field_simp
      ring
    | succ d ih =>
      intro j hj
      rw [step j (by omega), ih (j + 1) (by omega), (h1 j (by omega)).2.1, (h1 (j + 1) (by omega)).2.1]
      have zj := hr.2 j (by omega)
      have zM := hr.2 (j + 1) (by omega)
      unfold weightAbove
      have e : s.zc j = s.zc (j + 1) - m.dz := by rw [zj, zM]; push_cast; ring
      rw [e]
      ring
  intro j hj
  exact key (M - 1 - j) j (by omega)

/-! ### weights from the flags -/

theorem flags_tag (g : Flag.In K) (jp jg : Int → Int) (i j : Nat) (hi : i < g.ncx) (hj : j < g.ncz) :
    (Cut.ofFlags g jp jg).tag i j = Flag.bcp g i j := by
  unfold Cut.tag Cut.ofFlags
  simp only
  have hlt : i + j * g.ncx < g.ncx * g.ncz := by
    have : (j + 1) * g.ncx ≤ g.ncz * g.ncx := Nat.mul_le_mul_right _ hj
    rw [Nat.mul_comm g.ncx g.ncz]
    rw [Nat.succ_mul] at this
    omega
  have e : ((i : Int) + j * g.ncx).toNat = i + j * g.ncx := by
    rw [show ((i : Int) + j * g.ncx) = ((i + j * g.ncx : Nat) : Int) by push_cast; ring]
    exact Int.toNat_natCast _
  rw [if_pos ⟨by positivity, by exact_mod_cast hlt⟩, e, Nat.add_mul_mod_self_right, Nat.mod_eq_of_lt hi,
    Nat.add_mul_div_right _ _ (by omega), Nat.div_eq_of_lt hi, Nat.zero_add]

theorem flags_top (g : Flag.In K) (jp jg : Int → Int) (i : Nat) (hi : i < g.ncx) :
    (Cut.ofFlags g jp jg).top i = g.top (i + 1) := by
  unfold Cut.top Flag.In.top
  rw [if_neg (by omega), if_neg (by omega), Nat.add_sub_cancel]
  rfl

/-- C125: the weight of a cell (below the top row) is never negative, and at most 1 unless the hill top above it was cut off
by the lateral corrections: it is at most 1 when the centre of the cell above lies above the surface, at least 1 when it does not. -/
theorem weight_range (g : Flag.In K) (jp jg : Int → Int) (dz : K) (hdz : 0 < dz)
    (hr : Rows g.ncz dz g.zg fun j => g.zvx (j + 1)) (i j : Nat) (hi : i < g.ncx) (hj : j + 1 < g.ncz) :
    0 ≤ (Cut.ofFlags g jp jg).wn i j ∧
    (g.top (i + 1) < g.zvx (j + 2) → (Cut.ofFlags g jp jg).wn i j ≤ 1) ∧
    (Flag.bcp g i j = -1 → Flag.bcp g i (j + 1) = 31 → g.zvx (j + 2) ≤ g.top (i + 1) → 1 ≤ (Cut.ofFlags g jp jg).wn i j) := by
  have hd : (Cut.ofFlags g jp jg).dz = dz := dz_rows (Cut.ofFlags g jp jg) dz hdz (show 1 ≤ g.ncz by omega) hr
  have t0 := flags_tag g jp jg i j hi (by omega)
  have t1 := flags_tag g jp jg i (j + 1) hi hj
  have hfill : (Cut.ofFlags g jp jg).fillCell i j = |g.top (i + 1) - g.zvx (j + 1)| / dz := by
    unfold Cut.fillCell
    rw [hd]
    have := flags_top g jp jg i hi
    unfold Cut.top at this
    rw [this]
    rfl
  have ht : (Cut.ofFlags g jp jg).topCell i j = true ↔ Flag.bcp g i j = -1 ∧ Flag.bcp g i (j + 1) = 31 := by
    unfold Cut.topCell
    rw [next_tag, t1, Bool.and_eq_true, beq_iff_eq, beq_iff_eq]
    exact and_congr_left fun _ => by rw [← t0]; rfl
  have ha : (Cut.ofFlags g jp jg).airCell i j = true ↔ Flag.bcp g i j = 30 ∨ Flag.bcp g i j = 31 := by
    unfold Cut.airCell
    rw [Bool.or_eq_true, beq_iff_eq, beq_iff_eq, ← t0]
    rfl
  have zs : g.zvx (j + 2) = g.zvx (j + 1) + dz := by
    have a := hr.2 j (by omega)
    have b := hr.2 (j + 1) hj
    simp only at a b
    rw [show j + 1 + 1 = j + 2 by rfl] at b
    rw [a, b]; push_cast; ring
  have rock : Flag.bcp g i j = -1 → g.zvx (j + 1) ≤ g.top (i + 1) := by
    intro h
    have hp := (Flag.pv_raw g (i + 1) (j + 1) (by omega)).1 ((Flag.bcp_iff g i j).1.1 h)
    unfold Flag.raw at hp
    by_contra hc
    rw [if_pos (not_le.1 hc)] at hp
    exact absurd hp (by decide)
  refine ⟨?_, ?_, ?_⟩
  · unfold Cut.wn
    simp only
    split_ifs
    · exact le_rfl
    · rw [hfill]; positivity
    · exact zero_le_one
  · intro hlt
    unfold Cut.wn
    simp only
    split_ifs with h1 h2
    · exact zero_le_one
    · rw [hfill, div_le_one hdz, abs_of_nonneg (sub_nonneg.2 (rock (ht.1 h2).1))]
      rw [zs] at hlt
      linarith
    · exact le_rfl
  · intro hb h31 hge
    unfold Cut.wn
    simp only
    rw [if_neg (by rw [ha, hb]; decide), if_pos (ht.2 ⟨hb, h31⟩), hfill, le_div_iff₀ hdz, one_mul,
      abs_of_nonneg (sub_nonneg.2 (rock hb))]
    rw [zs] at hge
    linarith

end

/-! ### examples and faults -/

/-- The hill of the flagging example. -/
def hillCut (junk : Int) : Cut ℚ := Cut.ofFlags (Flag.demoIn Flag.hill) (fun _ => junk) fun _ => junk

/-- Second column of the hill: rock in rows 0 to 3, surface at -1/2, which is the centre of row 3. -/
example : RockTo (hillCut 0).ncz 3 ((hillCut 0).tag 1) := by
  unfold RockTo
  refine ⟨by decide +kernel, by decide +kernel, by decide +kernel, ?_⟩
  intro j h1 h2
  exact absurd h2 (by show ¬ j < 5; omega)

example : (hillCut 0).zc 3 ≤ (hillCut 0).top 1 := by decide +kernel
example : Rows (hillCut 0).ncz 1 (hillCut 0).zg (hillCut 0).zc := by
  constructor <;> intro j hj <;> change (_ : ℚ) = _
  · show (-4 + (j : ℚ)) = -4 + ((0 : Nat) : ℚ) + j * 1
    push_cast; ring
  · show (-4 + ((j + 1 : Nat) : ℚ) - 1 / 2) = -4 + ((0 : Nat) : ℚ) + (j + 1 / 2) * 1
    push_cast; ring

/-- A gentle hill whose top cell is cut off: the cell below is filled to 110 %. -/
theorem cut_off_hilltop_overweight :
    let g := Flag.demoIn fun i => [-12/10, -4/10, -4/10, -12/10, -12/10].getD i 0
    Flag.bcp g 1 2 = -1 ∧ Flag.bcp g 1 3 = 31 ∧ (Cut.ofFlags g (fun _ => 0) fun _ => 0).wn 1 2 = 11 / 10 := by decide +kernel

/-- Under a flat surface at -0.9 the highest active vertices lie at -2, the vertices at -1 having been taken out; their density is
raised to 110 % instead of being lowered. -/
theorem vertex_overweight :
    let g := Flag.demoIn fun _ => -9/10
    let s := Cut.ofFlags g (fun _ => 0) fun _ => 0
    s.ws 2 2 = 11 / 10 ∧ s.ws 2 3 = 0 ∧ s.rhoS 1 3000 2 2 = 3300 := by decide +kernel

/-- With rock up to the top row the correction depends on memory behind the array of cell tags. -/
theorem top_row_reads_behind :
    let g := Flag.demoIn fun _ => 3
    Flag.bcp g 1 4 = -1 ∧ (Cut.ofFlags g (fun _ => 31) fun _ => 0).wn 1 4 ≠ (Cut.ofFlags g (fun _ => 0) fun _ => 0).wn 1 4 := by
  decide +kernel

/-- A mesh of 4 by 4 cells with three rows of rock, surface at 8 (rows 3 high, so 1/6 of a row above the centre 7.5 of row 2). -/
def restCut : Cut ℚ :=
  ⟨4, 4, fun i => if i / 4 = 3 then 31 else -1, fun _ => -1, (fun _ => 0, fun _ => 8), fun i => 1 + 2 * i, fun j => (j + 1/2) * 3, fun j => j * 3⟩

def restMesh : SMesh ℚ := { demoMesh with tp := restCut.tp, rho := fun i => restCut.rhoN 0 3000 (i.toNat % 4) (i.toNat / 4) }

/-- The pressure of the theorem. -/
def restP (i : Int) : ℚ := if i / 4 = 2 then 7500 else if i / 4 = 1 then 60000 else if i / 4 = 0 then 150000 else 0

/-- The hypotheses of the theorem on the resting column are met, with a pressure short of the weight above. -/
example : restP (Resid.cell restMesh 1 2) = 1 / 2 * weightAbove 10 3000 8 (15/2) ∧
    restP (Resid.cell restMesh 1 0) = weightAbove 10 3000 8 (3/2) - 1 / 2 * 10 * 3000 * 3 := by
  have hr : Rows restCut.ncz restMesh.dz restCut.zg restCut.zc := by
    constructor <;> intro j hj <;> change (_ : ℚ) = _
    · show (j : ℚ) * 3 = ((0 : Nat) : ℚ) * 3 + j * 3
      push_cast; ring
    · show ((j : ℚ) + 1/2) * 3 = ((0 : Nat) : ℚ) * 3 + (j + 1 / 2) * 3
      push_cast; ring
  have hc : RockTo restCut.ncz 2 (restCut.tag 1) := by
    refine ⟨by decide +kernel, by decide +kernel, by decide +kernel, fun j h1 h2 => ?_⟩
    exact absurd h2 (by show ¬ j < 4; omega)
  have h := static_pressure_partial restMesh Resid.layerBody restCut rfl (by decide +kernel) (by decide +kernel) rfl rfl hr
    1 2 (by decide +kernel) hc (by decide +kernel) 3000 0 (by decide +kernel) (by decide +kernel) restP (by decide +kernel)
    (by decide +kernel)
  constructor
  · rw [h.1]; decide +kernel
  · rw [h.2 0 (by decide)]; decide +kernel

end Verif.SFlow
