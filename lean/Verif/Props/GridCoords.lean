import Verif.Model.GridCoords
import Mathlib.Algebra.Order.Field.Basic

/-
C59: grid coordinates and index tables.
-/
namespace Verif.Grid
open Verif

variable {K : Type*} [Field K]

theorem line_spec (n : Nat) (hn : 1 ≤ n) (c0 d : K) (a : Nat → K) :
    (∀ i < n, line n c0 d a i = c0 + i * d) ∧ ∀ i, n ≤ i → line n c0 d a i = a i := by
  unfold line
  have key := forUp_inv (s := upd a 0 c0) (f := fun a i => upd a (i + 1) (a i + d))
    (P := fun m b => (∀ i < m + 1, b i = c0 + i * d) ∧ ∀ i, m + 1 ≤ i → b i = a i) (n - 1) ?_ ?_
  · obtain ⟨k1, k2⟩ := key
    exact ⟨fun i hi => k1 i (by omega), fun i hi => k2 i (by omega)⟩
  · constructor
    · intro i hi
      have : i = 0 := by omega
      subst this; simp
    · intro i hi
      exact upd_ne _ _ (by omega)
  · intro k b _ ⟨h1, h2⟩
    constructor
    · intro i hi
      by_cases e : i = k + 1
      · subst e
        rw [upd_same, h1 k (by omega)]
        push_cast; ring
      · rw [upd_ne _ _ e]; exact h1 i (by omega)
    · intro i hi
      rw [upd_ne _ _ (by omega)]
      exact h2 i (by omega)

/-- The table pair of one family is inverse to the flat index. -/
structure Inverse (ncol nrow : Nat) (t : (Nat → Nat) × (Nat → Nat)) : Prop where
  left : ∀ k < ncol, ∀ l < nrow, t.1 (k + l * ncol) = k ∧ t.2 (k + l * ncol) = l
  right : ∀ n < ncol * nrow, t.1 n < ncol ∧ t.2 n < nrow ∧ t.1 n + t.2 n * ncol = n

theorem indices_left (ncol nrow : Nat) (a : (Nat → Nat) × (Nat → Nat)) :
    (∀ k < ncol, ∀ l < nrow, (indices ncol nrow a).1 (k + l * ncol) = k ∧ (indices ncol nrow a).2 (k + l * ncol) = l) ∧
    ∀ n, ncol * nrow ≤ n → (indices ncol nrow a).1 n = a.1 n ∧ (indices ncol nrow a).2 n = a.2 n := by
  unfold indices
  refine (forUp_inv (s := a) (P := fun m b =>
    (∀ k < ncol, ∀ l < m, b.1 (k + l * ncol) = k ∧ b.2 (k + l * ncol) = l) ∧
    ∀ n, ncol * m ≤ n → b.1 n = a.1 n ∧ b.2 n = a.2 n) nrow ⟨fun _ _ l hl => by omega, fun _ _ => ⟨rfl, rfl⟩⟩ ?_)
  intro l b _ ⟨h1, h2⟩
  have key := forUp_inv (s := b) (f := fun a k => (upd a.1 (k + l * ncol) k, upd a.2 (k + l * ncol) l))
    (P := fun m (c : (Nat → Nat) × (Nat → Nat)) => (∀ k < m, c.1 (k + l * ncol) = k ∧ c.2 (k + l * ncol) = l) ∧
      (∀ n, n < l * ncol ∨ l * ncol + m ≤ n → c.1 n = b.1 n ∧ c.2 n = b.2 n)) ncol
    ⟨fun k hk => by omega, fun _ _ => ⟨rfl, rfl⟩⟩ ?_
  · obtain ⟨k1, k2⟩ := key
    constructor
    · intro k hk l' hl'
      by_cases e : l' = l
      · subst e; exact k1 k hk
      · have hl2 : l' + 1 ≤ l := by omega
        have : (l' + 1) * ncol ≤ l * ncol := Nat.mul_le_mul_right _ hl2
        rw [Nat.succ_mul] at this
        obtain ⟨e1, e2⟩ := k2 (k + l' * ncol) (Or.inl (by omega))
        obtain ⟨f1, f2⟩ := h1 k hk l' (by omega)
        exact ⟨e1.trans f1, e2.trans f2⟩
    · intro n hn
      have hm : ncol * (l + 1) = l * ncol + ncol := by rw [Nat.mul_comm, Nat.succ_mul]
      obtain ⟨e1, e2⟩ := k2 n (Or.inr (by omega))
      obtain ⟨f1, f2⟩ := h2 n (by rw [Nat.mul_comm]; omega)
      exact ⟨e1.trans f1, e2.trans f2⟩
  · intro k c hk ⟨g1, g2⟩
    constructor
    · intro k' hk'
      by_cases e : k' = k
      · subst e; simp
      · have : k' + l * ncol ≠ k + l * ncol := by omega
        simp only [upd_ne _ _ this]
        exact g1 k' (by omega)
    · intro n hn
      have : n ≠ k + l * ncol := by omega
      simp only [upd_ne _ _ this]
      exact g2 n (by omega)

theorem indices_inverse (ncol nrow : Nat) (a : (Nat → Nat) × (Nat → Nat)) : Inverse ncol nrow (indices ncol nrow a) := by
  refine ⟨(indices_left ncol nrow a).1, ?_⟩
  intro n hn
  have hpos : 0 < ncol := by
    rcases Nat.eq_zero_or_pos ncol with h | h
    · subst h; simp at hn
    · exact h
  have h1 := Nat.mod_lt n hpos
  have h2 : n / ncol < nrow := Nat.div_lt_of_lt_mul hn
  have e : n % ncol + n / ncol * ncol = n := by rw [Nat.mul_comm]; exact Nat.mod_add_div n ncol
  obtain ⟨f1, f2⟩ := (indices_left ncol nrow a).1 _ h1 _ h2
  rw [e] at f1 f2
  rw [f1, f2]
  exact ⟨h1, h2, e⟩

/-- C59, index maps: for each of the four node families the stored column and row of a flat index and the flat index of
a column and row are inverse to each other; entries beyond the family are not written. -/
theorem grid_indices_inverse (Nx Nz : Nat) (v x z p : (Nat → Nat) × (Nat → Nat)) :
    let t := gridIndices Nx Nz v x z p
    Inverse Nx Nz t.1 ∧ Inverse Nx (Nz + 1) t.2.1 ∧ Inverse (Nx + 1) Nz t.2.2.1 ∧ Inverse (Nx - 1) (Nz - 1) t.2.2.2 ∧
    (∀ n, Nx * Nz ≤ n → t.1.1 n = v.1 n ∧ t.1.2 n = v.2 n) ∧
    (∀ n, Nx * (Nz + 1) ≤ n → t.2.1.1 n = x.1 n ∧ t.2.1.2 n = x.2 n) ∧
    (∀ n, (Nx + 1) * Nz ≤ n → t.2.2.1.1 n = z.1 n ∧ t.2.2.1.2 n = z.2 n) ∧
    (∀ n, (Nx - 1) * (Nz - 1) ≤ n → t.2.2.2.1 n = p.1 n ∧ t.2.2.2.2 n = p.2 n) :=
  ⟨indices_inverse _ _ _, indices_inverse _ _ _, indices_inverse _ _ _, indices_inverse _ _ _,
    (indices_left _ _ _).2, (indices_left _ _ _).2, (indices_left _ _ _).2, (indices_left _ _ _).2⟩

/-- Equally spaced coordinates of one direction: `n` grid lines from `lo` to `hi`, cell centres midway between grid
lines, ghost nodes half a cell beyond, extended grid lines one cell beyond. -/
structure Spaced (n : Nat) (lo hi d : K) (g c v e : Nat → K) : Prop where
  first : g 0 = lo
  last : g (n - 1) = hi
  step : ∀ i, i + 1 < n → g (i + 1) - g i = d
  mid : ∀ i, i + 1 < n → c i = (g i + g (i + 1)) / 2
  ghostW : v 0 = lo - d / 2
  ghostE : v n = hi + d / 2
  ghost : ∀ i, i + 1 < n → v (i + 1) = c i
  extW : e 0 = lo - d
  ext : ∀ i, i < n → e (i + 1) = g i
  extE : e (n + 1) = hi + d

theorem line_spaced [CharZero K] (n : Nat) (hn : 2 ≤ n) (lo hi : K) (a b c e : Nat → K) :
    Spaced n lo hi ((hi - lo) / ((n : K) - 1)) (line n lo ((hi - lo) / ((n : K) - 1)) a)
      (line (n - 1) (lo + (hi - lo) / ((n : K) - 1) / 2) ((hi - lo) / ((n : K) - 1)) b)
      (line (n + 1) (lo - (hi - lo) / ((n : K) - 1) / 2) ((hi - lo) / ((n : K) - 1)) c)
      (line (n + 2) (lo - (hi - lo) / ((n : K) - 1)) ((hi - lo) / ((n : K) - 1)) e) := by
  have hne : (n : K) - 1 ≠ 0 := by
    have h : ((n - 1 : Nat) : K) ≠ 0 := Nat.cast_ne_zero.mpr (by omega)
    rwa [Nat.cast_sub (by omega), Nat.cast_one] at h
  set d := (hi - lo) / ((n : K) - 1) with hd
  have hw : ((n : K) - 1) * d = hi - lo := by rw [hd]; field_simp
  have g := (line_spec n (by omega) lo d a).1
  have m := (line_spec (n - 1) (by omega) (lo + d / 2) d b).1
  have v := (line_spec (n + 1) (by omega) (lo - d / 2) d c).1
  have x := (line_spec (n + 2) (by omega) (lo - d) d e).1
  have two : (2 : K) ≠ 0 := by norm_num
  refine ⟨?_, ?_, ?_, ?_, ?_, ?_, ?_, ?_, ?_, ?_⟩
  · rw [g 0 (by omega)]; simp
  · rw [g (n - 1) (by omega), Nat.cast_sub (by omega)]; push_cast; rw [hw]; ring
  · intro i hi'; rw [g (i + 1) hi', g i (by omega)]; push_cast; ring
  · intro i hi'; rw [g (i + 1) hi', g i (by omega), m i (by omega)]; push_cast; field_simp; ring
  · rw [v 0 (by omega)]; simp
  · rw [v n (by omega)]; linear_combination hw
  · intro i hi'; rw [v (i + 1) (by omega), m i (by omega)]; push_cast; ring
  · rw [x 0 (by omega)]; simp
  · intro i hi'; rw [x (i + 1) (by omega), g i hi']; push_cast; ring
  · rw [x (n + 1) (by omega)]; push_cast; linear_combination hw

/-- C59, coordinates: grid lines are equally spaced from one box limit exactly to the other, centres lie midway, ghost
nodes half a cell beyond the box. -/
theorem grid_coordinates [CharZero K] (xmin xmax zmin zmax : K) (nx nz : Nat) (hx : 2 ≤ nx) (hz : 2 ≤ nz) (c : Coords K) :
    let m := setGridCoordinates xmin xmax zmin zmax nx nz c
    Spaced nx xmin xmax m.dx m.xg m.xc m.xvz m.xgExt ∧ Spaced nz zmin zmax m.dz m.zg m.zc m.zvx m.zgExt :=
  ⟨line_spaced nx hx xmin xmax _ _ _ _, line_spaced nz hz zmin zmax _ _ _ _⟩

/-- The grid lines in closed form. -/
theorem grid_lines (xmin xmax zmin zmax : K) (nx nz : Nat) (hx : 2 ≤ nx) (hz : 2 ≤ nz) (c : Coords K) :
    let m := setGridCoordinates xmin xmax zmin zmax nx nz c
    (∀ i < nx, m.xg i = xmin + i * m.dx) ∧ ∀ i < nz, m.zg i = zmin + i * m.dz :=
  ⟨(line_spec nx (by omega) _ _ _).1, (line_spec nz (by omega) _ _ _).1⟩

/-- Non-vacuity: a box [0, 3] x [-1, 1] with 4 x 3 grid lines. -/
example : let m := setGridCoordinates (0 : ℚ) 3 (-1) 1 4 3 ⟨0, 0, fun _ => 7, fun _ => 7, fun _ => 7, fun _ => 7, fun _ => 7, fun _ => 7, fun _ => 7, fun _ => 7⟩
    m.xg 3 = 3 ∧ m.zg 1 = 0 ∧ m.xc 2 = 5 / 2 ∧ m.xvz 0 = -1 / 2 ∧ m.xg 4 = 7 ∧
    (gridIndices 4 3 (fun _ => 9, fun _ => 9) (fun _ => 9, fun _ => 9) (fun _ => 9, fun _ => 9) (fun _ => 9, fun _ => 9)).2.2.2.2 5 = 1 := by
  decide +kernel

end Verif.Grid
