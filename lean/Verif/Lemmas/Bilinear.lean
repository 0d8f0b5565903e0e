import Verif.Model.Interp
import Verif.Spec.Bilinear

/- Helper lemmas for C20: cell location, hat functions, convexity. -/
namespace Verif.Interp
open Verif

variable {K : Type*} [Field K] [LinearOrder K] [IsStrictOrderedRing K]

/-- Regular coordinates (established for the code's arrays in C59). -/
def Regular (X : Int → K) (x0 dx : K) : Prop := ∀ j : Int, X j = x0 + j * dx

theorem hat_inside {t : K} (h0 : 0 ≤ t) (h1 : t ≤ 1) : hat t = 1 - t := by
  unfold hat
  rw [abs_of_nonneg h0]
  exact max_eq_right (by linarith)

theorem hat_inside' {t : K} (h0 : t ≤ 0) (h1 : -1 ≤ t) : hat t = 1 + t := by
  unfold hat
  rw [abs_of_nonpos h0, sub_neg_eq_add]
  exact max_eq_right (by linarith)

theorem hat_outside {t : K} (h : 1 ≤ |t|) : hat t = 0 := by
  unfold hat
  exact max_eq_left (by linarith)

/-- On the segment `[j, j+1]` only the two end nodes contribute. -/
theorem hat_sum (n j : Nat) (hj : j + 1 < n) (t : K) (h0 : (j : K) ≤ t) (h1 : t ≤ j + 1)
    (f : Nat → K) :
    ∑ k ∈ Finset.range n, f k * hat (t - k) = f j * (1 - (t - j)) + f (j + 1) * (t - j) := by
  rw [Finset.sum_eq_add_of_mem j (j + 1) (Finset.mem_range.mpr (by omega))
    (Finset.mem_range.mpr hj) (by omega)]
  · rw [hat_inside (by linarith) (by linarith), hat_inside' (by push_cast; linarith) (by push_cast; linarith)]
    push_cast; ring
  · intro k _ hk
    rw [hat_outside, mul_zero]
    rcases Nat.lt_or_ge k j with h | h
    · have : (k : K) + 1 ≤ j := by exact_mod_cast h
      exact le_trans (by linarith) (le_abs_self _)
    · have h' : j + 2 ≤ k := by omega
      have : (j : K) + 2 ≤ k := by exact_mod_cast h'
      exact le_trans (by linarith) (neg_le_abs _)

/-- Bilinear function on the cell `[j,j+1] x [i,i+1]`. -/
theorem bilinear_cell (nx nz j i : Nat) (hj : j + 1 < nx) (hi : i + 1 < nz) (x0 z0 dx dz x z : K)
    (f : Nat → Nat → K) (hx0 : (j : K) ≤ (x - x0) / dx) (hx1 : (x - x0) / dx ≤ j + 1)
    (hz0 : (i : K) ≤ (z - z0) / dz) (hz1 : (z - z0) / dz ≤ i + 1) :
    bilinear nx nz x0 z0 dx dz f x z =
      bilin ((x - x0) / dx - j) ((z - z0) / dz - i) ⟨f j i, f (j + 1) i, f j (i + 1), f (j + 1) (i + 1)⟩ := by
  unfold bilinear
  have e : ∀ i' : Nat, ∑ j' ∈ Finset.range nx,
      f j' i' * (hat ((x - x0) / dx - j') * hat ((z - z0) / dz - i')) =
      (f j i' * (1 - ((x - x0) / dx - j)) + f (j + 1) i' * ((x - x0) / dx - j)) * hat ((z - z0) / dz - i') := by
    intro i'
    rw [← hat_sum nx j hj _ hx0 hx1 (fun j' => f j' i'), Finset.sum_mul]
    exact Finset.sum_congr rfl fun _ _ => by ring
  rw [Finset.sum_congr rfl fun i' _ => e i',
    hat_sum nz i hi _ hz0 hz1 (fun i' => f j i' * (1 - ((x - x0) / dx - j)) + f (j + 1) i' * ((x - x0) / dx - j))]
  unfold bilin
  ring

/-- Convexity of the four weights. -/
theorem bilin_between {a b : K} (ha0 : 0 ≤ a) (ha1 : a ≤ 1) (hb0 : 0 ≤ b) (hb1 : b ≤ 1)
    (v : Quad K) (lo hi : K) (h1 : Between lo hi v.sw) (h2 : Between lo hi v.se)
    (h3 : Between lo hi v.nw) (h4 : Between lo hi v.ne) : Between lo hi (bilin a b v) := by
  unfold bilin Between at *
  have w1 : 0 ≤ (1 - a) * (1 - b) := mul_nonneg (by linarith) (by linarith)
  have w2 : 0 ≤ a * (1 - b) := mul_nonneg ha0 (by linarith)
  have w3 : 0 ≤ (1 - a) * b := mul_nonneg (by linarith) hb0
  have w4 : 0 ≤ a * b := mul_nonneg ha0 hb0
  have e : ∀ y : K, y = (1 - a) * (1 - b) * y + a * (1 - b) * y + (1 - a) * b * y + a * b * y :=
    fun y => by ring
  constructor
  · rw [e lo]
    gcongr
    exacts [h1.1, h2.1, h3.1, h4.1]
  · rw [e hi]
    gcongr
    exacts [h1.2, h2.2, h3.2, h4.2]

/-- Local coordinate when the marker lies in the cell. -/
theorem local_coord {X : Int → K} {x0 dx : K} (hX : Regular X x0 dx) (hdx : 0 < dx) (x : K) (j : Nat)
    (h0 : (j : K) ≤ (x - x0) / dx) :
    (x - X j) / dx = (x - x0) / dx - j ∧ |x - X j| / dx = (x - x0) / dx - j := by
  have e : (x - X j) / dx = (x - x0) / dx - j := by
    rw [hX]
    push_cast
    field_simp
    ring
  refine ⟨e, ?_⟩
  rw [← e, abs_of_nonneg]
  have : 0 ≤ (x - X j) / dx := by rw [e]; linarith
  have h2 := mul_nonneg this (le_of_lt hdx)
  rwa [div_mul_cancel₀ _ (ne_of_gt hdx)] at h2

variable [FloorRing K]

/-- The cell found by `ceil(dst/dx)-1` and clamping. -/
theorem clamp_cell (n : Nat) (hn : 2 ≤ n) (x0 dx x : K) (hdx : 0 < dx) (h0 : x0 ≤ x)
    (h1 : x ≤ x0 + (n - 1) * dx) :
    ∃ j : Nat, clampIdx n (cellOf x x0 dx) = j ∧ cellOf x x0 dx ≤ n - 2 ∧ j + 2 ≤ n ∧
      (j : K) ≤ (x - x0) / dx ∧ (x - x0) / dx ≤ j + 1 ∧
      (if cellOf x x0 dx < 0 then 0 else cellOf x x0 dx) = (j : Int) := by
  have t0 : 0 ≤ (x - x0) / dx := div_nonneg (by linarith) (le_of_lt hdx)
  have t1 : (x - x0) / dx ≤ (n : K) - 1 := by rw [div_le_iff₀ hdx]; linarith
  have c1 : ⌈(x - x0) / dx⌉ ≤ (n : Int) - 1 := Int.ceil_le.mpr (by push_cast; exact t1)
  have c0 : 0 ≤ ⌈(x - x0) / dx⌉ := Int.ceil_nonneg t0
  have l1 := Int.le_ceil ((x - x0) / dx)
  have l2 := Int.ceil_lt_add_one ((x - x0) / dx)
  unfold cellOf clampIdx
  rcases lt_or_ge 0 ⌈(x - x0) / dx⌉ with hp | hp
  · obtain ⟨j, hj⟩ := Int.eq_ofNat_of_zero_le (a := ⌈(x - x0) / dx⌉ - 1) (by omega)
    have hc : (⌈(x - x0) / dx⌉ : K) = j + 1 := by
      have : ⌈(x - x0) / dx⌉ = (j : Int) + 1 := by omega
      rw [this]; push_cast; ring
    rw [hc] at l1 l2
    refine ⟨j, ?_, by omega, by omega, by linarith, l1, ?_⟩
    · simp only [hj]
      rw [if_neg (by omega), if_neg (by omega)]
    · rw [hj, if_neg (by omega)]
  · have hz : ⌈(x - x0) / dx⌉ = 0 := by omega
    rw [hz] at l1 ⊢
    push_cast at l1
    refine ⟨0, ?_, by omega, by omega, by push_cast; linarith, by push_cast; linarith, ?_⟩
    · simp only [show (0 : Int) - 1 < 0 by omega, if_true]
      rw [if_neg (by omega)]; rfl
    · rw [if_pos (by omega)]; rfl

end Verif.Interp
