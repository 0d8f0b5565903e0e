import Verif.Model.Surface
import Verif.Spec.Surface
import Verif.Lemmas.P2Mastah
import Mathlib.Data.Rat.Floor
import Mathlib.Tactic.FieldSimp

/-
C30, C31: the piecewise-linear surface and the removal of markers above it.
C69: the recorded initial surface never lies above the current one.
-/
set_option linter.unusedSectionVars false
namespace Verif.Surf
open Verif

variable {K : Type*} [Field K] [LinearOrder K] [IsStrictOrderedRing K] [FloorRing K]

theorem polyFit_spec (ncx : Nat) (dx : K) (xg h : Nat → K) (ab : (Nat → K) × (Nat → K)) :
    ∀ j < ncx, (polyFit ncx dx xg h ab).1 j = (h (j + 1) - h j) / dx ∧
      (polyFit ncx dx xg h ab).2 j = h j - xg j * ((h (j + 1) - h j) / dx) := by
  unfold polyFit
  refine forUp_inv (s := ab) (P := fun m (c : (Nat → K) × (Nat → K)) => ∀ j < m, c.1 j = (h (j + 1) - h j) / dx ∧
      c.2 j = h j - xg j * ((h (j + 1) - h j) / dx)) ncx (fun j hj => by omega) ?_
  intro k c _ ih j hj
  by_cases e : j = k
  · subst e; simp only [upd_same, and_self]
  · simp only [upd_ne _ _ e]; exact ih j (by omega)

theorem height_eq (ncx : Nat) (dx : K) (hdx : 0 < dx) (xg h : Nat → K) (hxg : Even ncx dx xg)
    (ab : (Nat → K) × (Nat → K)) (j : Nat) (hj : j < ncx) (x : K) :
    height (polyFit ncx dx xg h ab) j x = (h j * (xg (j + 1) - x) + h (j + 1) * (x - xg j)) / dx := by
  obtain ⟨e1, e2⟩ := polyFit_spec ncx dx xg h ab j hj
  unfold height
  have hd : xg (j + 1) = xg j + dx := by
    rw [hxg (j + 1) (by omega), hxg j (by omega)]; push_cast; ring
  rw [Int.toNat_natCast, e1, e2, hd]
  field_simp
  ring

theorem step_eq (ncx : Nat) (dx : K) (xg : Nat → K) (hxg : Even ncx dx xg) (j : Nat) (hj : j < ncx) :
    xg (j + 1) - xg j = dx := by
  rw [hxg (j + 1) (by omega), hxg j (by omega)]; push_cast; ring

/-- **C30.**  The height computed from the line coefficients of a cell is the nodal height at both ends
of the cell (so it is continuous across cells), lies on the polyline through the nodal heights, and stays
between the two nodal heights inside the cell; `ab` are the old contents of the coefficient arrays. -/
theorem surface_polyline (ncx : Nat) (dx : K) (hdx : 0 < dx) (xg h : Nat → K) (hxg : Even ncx dx xg)
    (ab : (Nat → K) × (Nat → K)) :
    let f := polyFit ncx dx xg h ab
    (∀ j < ncx, height f j (xg j) = h j ∧ height f j (xg (j + 1)) = h (j + 1)) ∧
    (∀ j, j + 1 < ncx → height f j (xg (j + 1)) = height f (j + 1 : Nat) (xg (j + 1))) ∧
    (∀ j < ncx, ∀ x, xg j ≤ x → x ≤ xg (j + 1) →
      OnPolyline ncx xg h x (height f j x) ∧
      min (h j) (h (j + 1)) ≤ height f j x ∧ height f j x ≤ max (h j) (h (j + 1))) := by
  have ends : ∀ j < ncx, height (polyFit ncx dx xg h ab) j (xg j) = h j ∧
      height (polyFit ncx dx xg h ab) j (xg (j + 1)) = h (j + 1) := by
    intro j hj
    have hs := step_eq ncx dx xg hxg j hj
    rw [height_eq ncx dx hdx xg h hxg ab j hj, height_eq ncx dx hdx xg h hxg ab j hj]
    constructor
    · rw [hs]; field_simp; ring
    · rw [hs]; field_simp; ring
  refine ⟨ends, fun j hj => ?_, fun j hj x hx0 hx1 => ?_⟩
  · rw [(ends j (by omega)).2, (ends (j + 1) hj).1]
  · have hs := step_eq ncx dx xg hxg j hj
    rw [height_eq ncx dx hdx xg h hxg ab j hj]
    have a0 : 0 ≤ xg (j + 1) - x := by linarith
    have b0 : 0 ≤ x - xg j := by linarith
    refine ⟨⟨j, hj, hx0, hx1, ?_⟩, ?_, ?_⟩
    · rw [hs]; field_simp
    · rw [le_div_iff₀ hdx]
      have e : min (h j) (h (j + 1)) * dx = min (h j) (h (j + 1)) * (xg (j + 1) - x) + min (h j) (h (j + 1)) * (x - xg j) := by
        rw [← hs]; ring
      rw [e]
      exact add_le_add (mul_le_mul_of_nonneg_right (min_le_left _ _) a0) (mul_le_mul_of_nonneg_right (min_le_right _ _) b0)
    · rw [div_le_iff₀ hdx]
      have e : max (h j) (h (j + 1)) * dx = max (h j) (h (j + 1)) * (xg (j + 1) - x) + max (h j) (h (j + 1)) * (x - xg j) := by
        rw [← hs]; ring
      rw [e]
      exact add_le_add (mul_le_mul_of_nonneg_right (le_max_left _ _) a0) (mul_le_mul_of_nonneg_right (le_max_right _ _) b0)

/-- The polyline has one height per position. -/
theorem polyline_unique (ncx : Nat) (dx : K) (hdx : 0 < dx) (xg h : Nat → K) (hxg : Even ncx dx xg) (x y y' : K)
    (h1 : OnPolyline ncx xg h x y) (h2 : OnPolyline ncx xg h x y') : y = y' := by
  obtain ⟨j, hj, j0, j1, je⟩ := h1
  obtain ⟨k, hk, k0, k1, ke⟩ := h2
  rw [step_eq ncx dx xg hxg j hj] at je
  rw [step_eq ncx dx xg hxg k hk] at ke
  have mono : ∀ a b : Nat, a < b → b ≤ ncx → xg a + dx ≤ xg b := by
    intro a b hab hb
    rw [hxg a (by omega), hxg b hb]
    have : ((a + 1 : Nat) : K) ≤ (b : K) := by exact_mod_cast hab
    push_cast at this
    nlinarith
  have hadj : ∀ a b : Nat, a < b → b < ncx → xg a ≤ x → x ≤ xg (a + 1) → xg b ≤ x → x ≤ xg (b + 1) → b = a + 1 := by
    intro a b hab hb _ a1 b0 _
    by_contra hne
    have := mono (a + 1) b (by omega) (by omega)
    linarith
  have same : ∀ y y' : K, y * dx = y' * dx → y = y' := fun y y' e => mul_right_cancel₀ hdx.ne' e
  rcases lt_trichotomy j k with hlt | heq | hlt
  · have := hadj j k hlt hk j0 j1 k0 k1
    subst this
    have hx : x = xg (j + 1) := le_antisymm j1 k0
    apply same
    rw [je, ke, hx]
    have s1 := step_eq ncx dx xg hxg j hj
    have s2 := step_eq ncx dx xg hxg (j + 1) hk
    rw [s1, s2]; ring
  · subst heq
    apply same; rw [je, ke]
  · have := hadj k j hlt hj k0 k1 j0 j1
    subst this
    have hx : x = xg (k + 1) := le_antisymm k1 j0
    apply same
    rw [je, ke, hx]
    have s1 := step_eq ncx dx xg hxg k hk
    have s2 := step_eq ncx dx xg hxg (k + 1) hj
    rw [s1, s2]; ring

/-- Column found by the marker routines for a marker of the box. -/
theorem column_brackets (ncx : Nat) (hn : 1 ≤ ncx) (dx : K) (hdx : 0 < dx) (xg : Nat → K) (hxg : Even ncx dx xg) (x : K)
    (h0 : xg 0 ≤ x) (h1 : x ≤ xg ncx) :
    ∃ j : Nat, j < ncx ∧ P2M.nearest ncx (xg 0 + dx / 2) dx x = j ∧ xg j ≤ x ∧ x ≤ xg (j + 1) := by
  obtain ⟨j, e, hj, hb⟩ := P2M.nearest_spec ncx hn (xg 0 + dx / 2) dx x hdx (by linarith)
    (by rw [hxg ncx le_rfl] at h1; linarith)
  refine ⟨j, hj, e, ?_⟩
  have e2 : (x - (xg 0 + dx / 2)) / dx * dx = x - (xg 0 + dx / 2) := by field_simp
  rw [hxg j (by omega), hxg (j + 1) (by omega)]
  push_cast
  constructor
  · nlinarith [hb.1]
  · nlinarith [hb.2]

/-- With the absolute distance the column is still the same. -/
theorem columnAbs_eq (ncx : Nat) (hn : 1 ≤ ncx) (x0 dx x : K) (hdx : 0 < dx) (h0 : x0 ≤ x) :
    columnAbs ncx (x0 + dx / 2) dx x = P2M.nearest ncx (x0 + dx / 2) dx x := by
  unfold columnAbs P2M.nearest
  rcases le_or_gt (x0 + dx / 2) x with h | h
  · rw [abs_of_nonneg (by linarith)]
  · have a1 : |x - (x0 + dx / 2)| ≤ dx / 2 := by rw [abs_le]; constructor <;> linarith
    have a2 : |x - (x0 + dx / 2)| / dx ≤ 1 / 2 := by rw [div_le_iff₀ hdx]; linarith
    have a3 : 0 ≤ |x - (x0 + dx / 2)| / dx := div_nonneg (abs_nonneg _) hdx.le
    have a4 : ⌈|x - (x0 + dx / 2)| / dx + 1 / 2⌉ ≤ 1 := by
      rw [Int.ceil_le]; push_cast; linarith
    have b4 : ⌈(x - (x0 + dx / 2)) / dx + 1 / 2⌉ ≤ 1 := by
      rw [Int.ceil_le]; push_cast
      have : (x - (x0 + dx / 2)) / dx ≤ 0 := div_nonpos_of_nonpos_of_nonneg (by linarith) hdx.le
      linarith
    simp only
    split_ifs <;> omega

/-- **C31.**  After the clean-up (whatever the distribution of the loop over threads and the order of
execution) a marker of the box is live if and only if it was live and lies at or below the surface (the polyline
through the nodal heights); its position and, if it stays live, its phase are unchanged; dead markers and
slots beyond the marker number are untouched. -/
theorem cleanup_spec (ncx : Nat) (hn : 1 ≤ ncx) (dx : K) (hdx : 0 < dx) (xg h : Nat → K) (hxg : Even ncx dx xg)
    (ab : (Nat → K) × (Nat → K)) (n : Nat) (P : Nat → Mk K)
    (hin : ∀ k < n, (P k).phase ≠ -1 → xg 0 ≤ (P k).x ∧ (P k).x ≤ xg ncx)
    (ls : List (List Nat)) (hd : Distribution n ls) (order : List Nat) (ho : order.Perm ls.flatten) :
    let Q := cleanUp ncx dx (xg 0) (polyFit ncx dx xg h ab) order P
    (∀ k < n, ((Q k).phase ≠ -1 ↔ (P k).phase ≠ -1 ∧ ∃ y, OnPolyline ncx xg h (P k).x y ∧ (P k).z ≤ y) ∧
      ((Q k).phase ≠ -1 → Q k = P k) ∧ (Q k).x = (P k).x ∧ (Q k).z = (P k).z) ∧
    (∀ k, (P k).phase = -1 ∨ n ≤ k → Q k = P k) := by
  intro Q
  have hQ : ∀ k, Q k = if k < n then cleanUp1 ncx dx (xg 0) (polyFit ncx dx xg h ab) (P k) else P k :=
    parMap_spec _ n ls hd order ho P
  have hdead : ∀ k, (P k).phase = -1 ∨ n ≤ k → Q k = P k := by
    intro k hk
    rw [hQ]
    by_cases hlt : k < n
    · rw [if_pos hlt]
      unfold cleanUp1
      rw [if_neg (by rcases hk with hk | hk; exacts [fun hc => hc hk, absurd hk (by omega)])]
    · rw [if_neg hlt]
  refine ⟨fun k hk => ?_, hdead⟩
  by_cases hl : (P k).phase = -1
  · rw [hdead k (Or.inl hl)]
    exact ⟨⟨fun hc => absurd hl hc, fun hc => hc.1⟩, fun _ => rfl, rfl, rfl⟩
  · obtain ⟨x0, x1⟩ := hin k hk hl
    obtain ⟨j, hj, e, j0, j1⟩ := column_brackets ncx hn dx hdx xg hxg (P k).x x0 x1
    have hpoly := ((surface_polyline ncx dx hdx xg h hxg ab).2.2 j hj (P k).x j0 j1).1
    rw [hQ, if_pos hk]
    unfold cleanUp1
    rw [if_pos hl, columnAbs_eq ncx hn (xg 0) dx _ hdx x0, e]
    simp only
    split_ifs with hz
    · refine ⟨⟨fun hc => absurd rfl hc, fun ⟨_, y, hy, hle⟩ => ?_⟩, fun hc => absurd rfl hc, rfl, rfl⟩
      have := polyline_unique ncx dx hdx xg h hxg _ _ _ hpoly hy
      rw [← this] at hle
      exact absurd hle (not_le.mpr hz)
    · exact ⟨⟨fun _ => ⟨hl, _, hpoly, not_lt.mp hz⟩, fun _ => hl⟩, fun _ => rfl, rfl, rfl⟩

/-- **C69.**  After the correction of the initial surface, every marker of that chain lies at or below the
current surface; markers already below keep their height. -/
theorem initial_surface_below (ncx : Nat) (hn : 1 ≤ ncx) (dx : K) (hdx : 0 < dx) (xg h : Nat → K) (hxg : Even ncx dx xg)
    (ab : (Nat → K) × (Nat → K)) (m : Mk K) (h0 : xg 0 ≤ m.x) (h1 : m.x ≤ xg ncx) (y : K)
    (hy : OnPolyline ncx xg h m.x y) :
    let m' := correctIni1 ncx dx (xg 0) (polyFit ncx dx xg h ab) m
    m'.z = min m.z y ∧ m'.x = m.x ∧ m'.phase = m.phase := by
  obtain ⟨j, hj, e, j0, j1⟩ := column_brackets ncx hn dx hdx xg hxg m.x h0 h1
  have hpoly := ((surface_polyline ncx dx hdx xg h hxg ab).2.2 j hj m.x j0 j1).1
  have := polyline_unique ncx dx hdx xg h hxg _ _ _ hpoly hy
  simp only [correctIni1, e, this]
  split_ifs with hz
  · exact ⟨(min_eq_right hz.le).symm, rfl, rfl⟩
  · exact ⟨(min_eq_left (not_lt.mp hz)).symm, rfl, rfl⟩

/-! ### Non-vacuity -/

/-- Three cells of width 2 from -3 to 3, a valley and a hill. -/
def demoX : Nat → ℚ := fun j => -3 + 2 * j
def demoH : Nat → ℚ := fun j => [0, -1, 2, 1].getD j 0

example : Even 3 (2 : ℚ) demoX := by
  intro j hj; unfold demoX; push_cast; ring

/-- The clean-up removes marker 1 (above the slope), keeps marker 0 (below) and leaves marker 2 dead. -/
def demoP : Nat → Mk ℚ := fun k => [⟨-2, -1, 3⟩, ⟨0, 1, 4⟩, ⟨0, 9, -1⟩].getD k ⟨0, 0, -1⟩

example : ((List.range 3).map fun k =>
    (cleanUp 3 2 (-3) (polyFit 3 2 demoX demoH (fun _ => 0, fun _ => 0)) [2, 0, 1] demoP k).phase) = [3, -1, -1] := by
  decide +kernel
example : Distribution 3 [[2], [0, 1]] := by unfold Distribution; decide
example : ∀ k < 3, (demoP k).phase ≠ -1 → demoX 0 ≤ (demoP k).x ∧ (demoP k).x ≤ demoX 3 := by decide +kernel

end Verif.Surf
