import Verif.Lemmas.P2Mastah
import Mathlib.Analysis.SpecialFunctions.Log.Basic
import Mathlib.Algebra.BigOperators.Field

/-
C21 (marker-to-grid averages), C22 (phase fractions), C23 (independence of the thread schedule).
-/
namespace Verif.P2M
open Verif Verif.Interp
set_option linter.unusedSectionVars false
set_option linter.unusedVariables false

variable {K : Type*} [Field K] [LinearOrder K] [IsStrictOrderedRing K]

/-- Distance weight of a point for node `(c,r)` of a family. -/
def nodeWeight (g : Fam K) (x z : K) (c r : Nat) : K :=
  if g.stencil = 9 ∧ g.periodic = true then
    kernelPeriodic (g.Nx * g.dx) (itp 9 g.dx) (itp 9 g.dz) (g.X c) (g.Z r) x z
  else kernel (itp g.stencil g.dx) (itp g.stencil g.dz) (g.X c) (g.Z r) x z

/-- Weight of marker `k` for node `(c,r)`: zero if the marker is deactivated. -/
def markerWeight (g : Fam K) (ms : Nat → Mk K) (k c r : Nat) : K :=
  if (ms k).phase = -1 then 0 else nodeWeight g (ms k).x (ms k).z c r

/-- Total weight received by node `(c,r)` from `n` markers. -/
def W (g : Fam K) (ms : Nat → Mk K) (n c r : Nat) : K := ∑ k ∈ Finset.range n, markerWeight g ms k c r

/-- A regular node family and markers inside the region it covers (at most half a cell outside the
outermost nodes; vertices, centres and velocity nodes all cover the model box in this sense). -/
structure Ok (g : Fam K) (ms : Nat → Mk K) (n : Nat) (x0 z0 : K) : Prop where
  stencil : g.stencil = 1 ∨ g.stencil = 9
  nx : 1 ≤ g.Nx
  nz : 1 ≤ g.Nz
  dx : 0 < g.dx
  dz : 0 < g.dz
  X : Regular g.X x0 g.dx
  Z : Regular g.Z z0 g.dz
  xin : ∀ k < n, (ms k).phase ≠ -1 → x0 - g.dx / 2 ≤ (ms k).x ∧ (ms k).x ≤ x0 + (g.Nx - 1) * g.dx + g.dx / 2
  zin : ∀ k < n, (ms k).phase ≠ -1 → z0 - g.dz / 2 ≤ (ms k).z ∧ (ms k).z ≤ z0 + (g.Nz - 1) * g.dz + g.dz / 2

theorem hat_nonneg (t : K) : 0 ≤ hat t := le_max_left _ _

theorem nodeWeight_nonneg (g : Fam K) (x z : K) (c r : Nat) : 0 ≤ nodeWeight g x z c r := by
  unfold nodeWeight kernelPeriodic kernel
  split_ifs
  · exact mul_nonneg (add_nonneg (add_nonneg (hat_nonneg _) (hat_nonneg _)) (hat_nonneg _)) (hat_nonneg _)
  · exact mul_nonneg (hat_nonneg _) (hat_nonneg _)

theorem markerWeight_nonneg (g : Fam K) (ms : Nat → Mk K) (k c r : Nat) : 0 ≤ markerWeight g ms k c r := by
  unfold markerWeight
  split_ifs
  · exact le_refl _
  · exact nodeWeight_nonneg g _ _ c r

variable [FloorRing K]

/-- Wrapped column east. -/
theorem wrapE_1d (n j c : Nat) (hj : j < n) (X : Int → K) (x0 dx x : K) (hdx : 0 < dx)
    (hX : Regular X x0 dx) (h0 : -(1 / 2) ≤ (x - x0) / dx - j) (h1 : (x - x0) / dx - j ≤ 1 / 2) :
    (if (j : Int) = n - 1 ∧ (0 : Int) = c then 1 - |X j + dx - x| / (3 * dx / 2) else 0) =
      hat ((x - n * dx - X c) / (3 * dx / 2)) := by
  have e : x - x0 = ((x - x0) / dx) * dx := by field_simp
  rw [hX, hX]
  set t := (x - x0) / dx with ht
  have hr : 0 < 3 * dx / 2 := by linarith
  have b0 := mul_le_mul_of_nonneg_right h0 (le_of_lt hdx)
  have b1 := mul_le_mul_of_nonneg_right h1 (le_of_lt hdx)
  push_cast
  by_cases h : (j : Int) = n - 1 ∧ (0 : Int) = c
  · rw [if_pos h]
    have hc : c = 0 := by omega
    have hn : (n : K) = j + 1 := by exact_mod_cast (by omega : n = j + 1)
    subst hc
    rw [hn, hat_wide hr (by rw [abs_le]; push_cast; constructor <;> nlinarith), abs_sub_comm (x - _)]
    push_cast
    rw [show x0 + (j : K) * dx + dx - x = x0 + 0 * dx - (x - (j + 1) * dx) by ring]
  · rw [if_neg h]
    have hn : (j : K) + 2 ≤ n + c := by exact_mod_cast (by omega : j + 2 ≤ n + c)
    have := mul_le_mul_of_nonneg_right hn (le_of_lt hdx)
    rw [hat_wide_out hr (le_trans (by nlinarith) (neg_le_abs _))]

/-- Wrapped column west. -/
theorem wrapW_1d (n j c : Nat) (hj : j < n) (hc : c < n) (X : Int → K) (x0 dx x : K) (hdx : 0 < dx)
    (hX : Regular X x0 dx) (h0 : -(1 / 2) ≤ (x - x0) / dx - j) (h1 : (x - x0) / dx - j ≤ 1 / 2) :
    (if (j : Int) = 0 ∧ (n : Int) - 1 = c then 1 - |X j - dx - x| / (3 * dx / 2) else 0) =
      hat ((x + n * dx - X c) / (3 * dx / 2)) := by
  have e : x - x0 = ((x - x0) / dx) * dx := by field_simp
  rw [hX, hX]
  set t := (x - x0) / dx with ht
  have hr : 0 < 3 * dx / 2 := by linarith
  have b0 := mul_le_mul_of_nonneg_right h0 (le_of_lt hdx)
  have b1 := mul_le_mul_of_nonneg_right h1 (le_of_lt hdx)
  push_cast
  by_cases h : (j : Int) = 0 ∧ (n : Int) - 1 = c
  · rw [if_pos h]
    have hj0 : j = 0 := by omega
    have hn : (n : K) = c + 1 := by exact_mod_cast (by omega : n = c + 1)
    subst hj0
    push_cast at *
    rw [hn, hat_wide hr (by rw [abs_le]; constructor <;> nlinarith), abs_sub_comm (x + _)]
    rw [show x0 + (0 : K) * dx - dx - x = x0 + (c : K) * dx - (x + (c + 1) * dx) by ring]
  · rw [if_neg h]
    have hn : (c : K) + 2 ≤ n + j := by exact_mod_cast (by omega : c + 2 ≤ n + j)
    have := mul_le_mul_of_nonneg_right hn (le_of_lt hdx)
    rw [hat_wide_out hr (le_trans (by nlinarith) (le_abs_self _))]

theorem splitE (n j c : Int) (hj : j < n) (hc : c < n) (E : K) :
    (if (if j = n - 1 then 0 else j + 1) = c then E else 0) =
      (if j < n - 1 ∧ j + 1 = c then E else 0) + (if j = n - 1 ∧ 0 = c then E else 0) := by
  by_cases h : j = n - 1
  · simp only [h, lt_irrefl, false_and, true_and, if_false, if_true, zero_add]
  · have h' : j < n - 1 := by omega
    simp only [if_neg h, h, h', true_and, false_and, if_false, add_zero]

theorem splitW (n j c : Int) (hj : 0 ≤ j) (hc : c < n) (E : K) :
    (if (if j = 0 then n - 1 else j - 1) = c then E else 0) =
      (if 0 < j ∧ j - 1 = c then E else 0) + (if j = 0 ∧ n - 1 = c then E else 0) := by
  by_cases h : j = 0
  · simp only [h, if_true, lt_irrefl, false_and, true_and, if_false, zero_add]
  · have h' : 0 < j := by omega
    simp only [if_neg h, h, h', true_and, false_and, if_false, add_zero]

/-- The loops put on every node exactly the distance weight. -/
theorem weight_is_kernel {g : Fam K} {ms : Nat → Mk K} {n : Nat} {x0 z0 : K} (ok : Ok g ms n x0 z0)
    (k : Nat) (hk : k < n) (c r : Nat) (hc : c < g.Nx) (hr : r < g.Nz) :
    mw g ms k ((c + r * g.Nx : Nat) : Int) = markerWeight g ms k c r := by
  unfold mw markerWeight
  by_cases hp : (ms k).phase = -1
  · simp [hp]
  rw [if_pos hp, if_neg hp]
  have hX0 : g.X 0 = x0 := by rw [ok.X]; push_cast; ring
  have hZ0 : g.Z 0 = z0 := by rw [ok.Z]; push_cast; ring
  obtain ⟨j, ej, hj, j0, j1⟩ := nearest_spec g.Nx ok.nx x0 g.dx (ms k).x ok.dx (ok.xin k hk hp).1 (ok.xin k hk hp).2
  obtain ⟨i, ei, hi, i0, i1⟩ := nearest_spec g.Nz ok.nz z0 g.dz (ms k).z ok.dz (ok.zin k hk hp).1 (ok.zin k hk hp).2
  push_cast
  rw [hits_product g ok.stencil (ms k).x (ms k).z j i c r hj hi hc hr (by rw [hX0]; exact ej)
    (by rw [hZ0]; exact ei) _ _ rfl rfl]
  unfold nodeWeight kernel kernelPeriodic itp
  rcases ok.stencil with hs | hs
  · simp only [hs, if_true, show ¬ ((1 : Nat) = 9) by decide, false_and, if_false]
    rw [one_1d j c g.X x0 g.dx (ms k).x ok.dx ok.X j0 j1, one_1d i r g.Z z0 g.dz (ms k).z ok.dz ok.Z i0 i1]
  · simp only [hs, show ¬ ((9 : Nat) = 1) by decide, if_false, true_and]
    rw [nine_1d g.Nz i r hi hr g.Z z0 g.dz (ms k).z ok.dz ok.Z i0 i1]
    have n1 := nine_1d g.Nx j c hj hc g.X x0 g.dx (ms k).x ok.dx ok.X j0 j1
    by_cases hper : g.periodic = true
    · have hE := wrapE_1d g.Nx j c hj g.X x0 g.dx (ms k).x ok.dx ok.X j0 j1
      have hW := wrapW_1d g.Nx j c hj hc g.X x0 g.dx (ms k).x ok.dx ok.X j0 j1
      rw [if_pos hper, ← n1, ← hE, ← hW]
      simp only [hper, or_true, true_and, and_true]
      rw [splitE g.Nx j c (by omega) (by omega), splitW g.Nx j c (by omega) (by omega)]
      ring
    · rw [if_neg hper, ← n1]
      simp only [hper, Bool.false_eq_true, or_false, and_false, if_false]

/-- The reduced buffers in terms of the specified weights. -/
theorem reduce_spec {g : Fam K} {ms : Nat → Mk K} {n : Nat} {x0 z0 : K} (ok : Ok g ms n x0 z0)
    (val : Nat → K) {ls : List (List Nat)} (hd : Distribution n ls) (c r : Nat) (hc : c < g.Nx) (hr : r < g.Nz)
    (p : Int) :
    reduceThreads g ms val ls (fun b => b.wm ((c + r * g.Nx : Nat) : Int)) = W g ms n c r ∧
    reduceThreads g ms val ls (fun b => b.bm ((c + r * g.Nx : Nat) : Int)) =
      ∑ k ∈ Finset.range n, val k * markerWeight g ms k c r ∧
    reduceThreads g ms val ls (fun b => b.ph p ((c + r * g.Nx : Nat) : Int)) =
      ∑ k ∈ Finset.range n, if p = (ms k).phase then markerWeight g ms k c r else 0 := by
  obtain ⟨h1, h2, h3⟩ := reduce_eq g ms val n ls hd ((c + r * g.Nx : Nat) : Int) p
  have e := fun k (hk : k ∈ Finset.range n) => weight_is_kernel ok k (Finset.mem_range.mp hk) c r hc hr
  rw [h1, h2, h3]
  refine ⟨Finset.sum_congr rfl e, Finset.sum_congr rfl fun k hk => by rw [e k hk],
    Finset.sum_congr rfl fun k hk => by rw [e k hk]⟩

/-- Effect of the periodic averaging: the two edge columns get their mean, nothing else changes. -/
theorem makePeriodic_spec (nx nz : Nat) (hx : 2 ≤ nx) (f : Nat → K) (c r : Nat) (hc : c < nx) (hr : r < nz) :
    makePeriodic nx nz f (c + r * nx) =
      if c = 0 ∨ c + 1 = nx then 1 / 2 * (f (nx - 1 + r * nx) + f (0 + r * nx)) else f (c + r * nx) := by
  have key := forUp_indep nz f (fun f l => upd (upd f (l * nx + nx - 1) (1 / 2 * (f (l * nx + nx - 1) + f (l * nx))))
      (l * nx) (1 / 2 * (f (l * nx + nx - 1) + f (l * nx))))
    (fun l j => j = l * nx ∨ j = l * nx + nx - 1) ?_ ?_ ?_
  · have un : makePeriodic nx nz f = forUp nz f (fun f l => upd (upd f (l * nx + nx - 1) (1 / 2 * (f (l * nx + nx - 1) + f (l * nx))))
      (l * nx) (1 / 2 * (f (l * nx + nx - 1) + f (l * nx)))) := rfl
    rw [un]
    by_cases h : c = 0 ∨ c + 1 = nx
    · rw [if_pos h]
      have hw : c + r * nx = r * nx ∨ c + r * nx = r * nx + nx - 1 := by omega
      rw [key.1 r hr _ hw]
      have e1 : nx - 1 + r * nx = r * nx + nx - 1 := by omega
      rw [e1, Nat.zero_add]
      rcases hw with hw | hw
      · rw [hw, upd_same]
      · rw [hw, upd_ne _ _ (by omega), upd_same]
    · rw [if_neg h]
      refine key.2 _ fun i hi hw => ?_
      have : (c : Int) + r * nx = (0 : Int) + i * nx ∨ (c : Int) + r * nx = ((nx : Int) - 1) + i * nx := by
        rcases hw with hw | hw
        · left; have := congrArg (Nat.cast (R := Int)) hw; push_cast at this; linarith
        · right
          have h2 : c + r * nx + 1 = i * nx + nx := by omega
          have := congrArg (Nat.cast (R := Int)) h2; push_cast at this; linarith
      rcases this with e | e
      · have := (flat_inj nx _ _ _ _ (by omega) (by omega) (by omega) (by omega)).mp e; omega
      · have := (flat_inj nx _ _ _ _ (by omega) (by omega) (by omega) (by omega)).mp e; omega
  · intro i _ b j hj
    rw [upd_ne _ _ (fun h => hj (Or.inl h)), upd_ne _ _ (fun h => hj (Or.inr h))]
  · intro i hi i' hi' j h1 h2
    rcases Nat.lt_trichotomy i i' with h | h | h
    · have := Nat.mul_le_mul_right nx (show i + 1 ≤ i' from h)
      rw [Nat.succ_mul] at this; omega
    · exact h
    · have := Nat.mul_le_mul_right nx (show i' + 1 ≤ i from h)
      rw [Nat.succ_mul] at this; omega
  · intro i hi b hb j hj
    have hfree : ∀ j, (j = i * nx ∨ j = i * nx + nx - 1) → b j = f j := by
      intro j hj
      refine hb j fun i' hi' h => ?_
      have := Nat.mul_le_mul_right nx (show i' + 1 ≤ i from hi')
      rw [Nat.succ_mul] at this; omega
    rw [hfree _ (Or.inl rfl), hfree _ (Or.inr rfl)]
    rcases hj with hj | hj
    · rw [hj, upd_same, upd_same]
    · rw [hj]
      by_cases h : i * nx + nx - 1 = i * nx
      · rw [h, upd_same, upd_same]
      · rw [upd_ne _ _ h, upd_ne _ _ h, upd_same, upd_same]

/-- Columns whose node values enter the result at column `c`: the column itself, or both edge
columns when a periodic vertex field is averaged. -/
def sources (g : Fam K) (c : Nat) : List Nat :=
  if (g.vertices && g.periodic) = true ∧ (c = 0 ∨ c + 1 = g.Nx) then [g.Nx - 1, 0] else [c]

theorem flat_lt {c r nx nz : Nat} (hc : c < nx) (hr : r < nz) : c + r * nx < nx * nz := by
  have := Nat.mul_le_mul_right nx (show r + 1 ≤ nz from hr)
  rw [Nat.succ_mul, Nat.mul_comm nz] at this; omega

/-- The test of the code singles out the two air tags. -/
theorem air_iff (t : Int) : air t = true ↔ t ∈ airTags := by simp [air, airTags]

/-- Nodal value where the node received weight: the transformed weighted mean. -/
theorem raw_mean {g : Fam K} {ms : Nat → Mk K} {n : Nat} {x0 z0 : K} (ok : Ok g ms n x0 z0)
    (lg ex : K → K) (avg : Nat) (val : Nat → K) {ls : List (List Nat)} (hd : Distribution n ls)
    (nodeType : Nat → Int) (f : Nat → K) (c r : Nat) (hc : c < g.Nx) (hr : r < g.Nz)
    (hW : 1 / 10 ^ 30 ≤ W g ms n c r) (ha : nodeType (c + r * g.Nx) ∉ airTags) :
    raw g lg ex avg ms val ls nodeType f (c + r * g.Nx) =
      fromAvg ex avg ((∑ k ∈ Finset.range n, toAvg lg avg (val k) * markerWeight g ms k c r) / W g ms n c r) := by
  obtain ⟨h1, h2, _⟩ := reduce_spec ok (fun k => toAvg lg avg (val k)) hd c r hc hr 0
  unfold raw
  simp only
  rw [if_pos (flat_lt hc hr), h1, h2, if_neg]
  rw [air_iff]
  have : (0 : K) < 1 / 10 ^ 30 := by positivity
  rw [abs_of_pos (lt_of_lt_of_le this hW)]
  rintro (hc' | hc')
  · exact not_lt.mpr hW hc'
  · exact ha hc'

/-- A node without weight, or in the air, keeps its value. -/
theorem raw_unchanged {g : Fam K} {ms : Nat → Mk K} {n : Nat} {x0 z0 : K} (ok : Ok g ms n x0 z0)
    (lg ex : K → K) (avg : Nat) (val : Nat → K) {ls : List (List Nat)} (hd : Distribution n ls)
    (nodeType : Nat → Int) (f : Nat → K) (c r : Nat) (hc : c < g.Nx) (hr : r < g.Nz)
    (h : W g ms n c r < 1 / 10 ^ 30 ∨ nodeType (c + r * g.Nx) ∈ airTags) :
    raw g lg ex avg ms val ls nodeType f (c + r * g.Nx) = f (c + r * g.Nx) := by
  obtain ⟨h1, h2, _⟩ := reduce_spec ok (fun k => toAvg lg avg (val k)) hd c r hc hr 0
  have hW0 : 0 ≤ W g ms n c r := Finset.sum_nonneg fun k _ => markerWeight_nonneg g ms k c r
  unfold raw
  simp only
  rw [if_pos (flat_lt hc hr), h1, abs_of_nonneg hW0, if_pos (h.imp id (air_iff _).2)]

/-- Weighted means are bounded by the contributing values. -/
theorem mean_between (n : Nat) (v w : Nat → K) (lo hi : K) (hw : ∀ k < n, 0 ≤ w k)
    (hpos : 0 < ∑ k ∈ Finset.range n, w k) (hb : ∀ k < n, 0 < w k → Between lo hi (v k)) :
    Between lo hi ((∑ k ∈ Finset.range n, v k * w k) / ∑ k ∈ Finset.range n, w k) := by
  constructor
  · rw [le_div_iff₀ hpos, Finset.mul_sum]
    refine Finset.sum_le_sum fun k hk => ?_
    rcases (hw k (Finset.mem_range.mp hk)).eq_or_lt with h | h
    · rw [← h]; simp
    · exact mul_le_mul_of_nonneg_right (hb k (Finset.mem_range.mp hk) h).1 (le_of_lt h)
  · rw [div_le_iff₀ hpos, Finset.mul_sum]
    refine Finset.sum_le_sum fun k hk => ?_
    rcases (hw k (Finset.mem_range.mp hk)).eq_or_lt with h | h
    · rw [← h]; simp
    · exact mul_le_mul_of_nonneg_right (hb k (Finset.mem_range.mp hk) h).2 (le_of_lt h)

/-- The final field is bounded if the raw field is, on the columns it is computed from. -/
theorem field_between {g : Fam K} (hx : 2 ≤ g.Nx) (lg ex : K → K) (avg : Nat) (ms : Nat → Mk K) (val : Nat → K)
    (ls : List (List Nat)) (nodeType : Nat → Int) (f : Nat → K) (c r : Nat) (hc : c < g.Nx) (hr : r < g.Nz)
    (lo hi : K) (hb : ∀ c' ∈ sources g c, Between lo hi (raw g lg ex avg ms val ls nodeType f (c' + r * g.Nx))) :
    Between lo hi (field g lg ex avg ms val ls nodeType f (c + r * g.Nx)) := by
  unfold field
  unfold sources at hb
  by_cases h : (g.vertices && g.periodic) = true
  · simp only [if_pos h]
    rw [makePeriodic_spec g.Nx g.Nz hx _ c r hc hr]
    by_cases he : c = 0 ∨ c + 1 = g.Nx
    · rw [if_pos he]
      rw [if_pos ⟨h, he⟩] at hb
      have b1 := hb (g.Nx - 1) (by simp)
      have b2 := hb 0 (by simp)
      exact ⟨by linarith [b1.1, b2.1], by linarith [b1.2, b2.2]⟩
    · rw [if_neg he]
      rw [if_neg (fun hh => he hh.2)] at hb
      exact hb c (by simp)
  · simp only [if_neg h]
    rw [if_neg (fun hh => h hh.1)] at hb
    exact hb c (by simp)

/-- Nodes that count: weight received and not air. -/
def Fed (g : Fam K) (ms : Nat → Mk K) (n : Nat) (nodeType : Nat → Int) (c r : Nat) : Prop :=
  1 / 10 ^ 30 ≤ W g ms n c r ∧ nodeType (c + r * g.Nx) ∉ airTags

theorem sources_lt {g : Fam K} (hx : 2 ≤ g.Nx) {c c' : Nat} (hc : c < g.Nx) (h : c' ∈ sources g c) : c' < g.Nx := by
  unfold sources at h
  split_ifs at h
  · simp at h; omega
  · simp at h; omega

/-- C21, arithmetic average: between the smallest and largest contributing marker value, for every
thread distribution. -/
theorem arithmetic_average_between {g : Fam K} {ms : Nat → Mk K} {n : Nat} {x0 z0 : K} (ok : Ok g ms n x0 z0)
    (hx : 2 ≤ g.Nx) (lg ex : K → K) (val : Nat → K) {ls : List (List Nat)} (hd : Distribution n ls)
    (nodeType : Nat → Int) (f : Nat → K) (c r : Nat) (hc : c < g.Nx) (hr : r < g.Nz)
    (hfed : ∀ c' ∈ sources g c, Fed g ms n nodeType c' r) (lo hi : K)
    (hb : ∀ c' ∈ sources g c, ∀ k < n, 0 < markerWeight g ms k c' r → Between lo hi (val k)) :
    Between lo hi (field g lg ex 0 ms val ls nodeType f (c + r * g.Nx)) := by
  refine field_between hx lg ex 0 ms val ls nodeType f c r hc hr lo hi fun c' hc' => ?_
  have hpos : (0 : K) < 1 / 10 ^ 30 := by positivity
  rw [raw_mean ok lg ex 0 val hd nodeType f c' r (sources_lt hx hc hc') hr (hfed c' hc').1 (hfed c' hc').2]
  simp only [fromAvg, toAvg, show ¬ ((0 : Nat) = 1) by decide, show ¬ ((0 : Nat) = 2) by decide, if_false]
  exact mean_between n val _ lo hi (fun k _ => markerWeight_nonneg g ms k c' r)
    (lt_of_lt_of_le hpos (hfed c' hc').1) (fun k hk hw => hb c' hc' k hk hw)

/-- C21, harmonic average of positive values. -/
theorem harmonic_average_between {g : Fam K} {ms : Nat → Mk K} {n : Nat} {x0 z0 : K} (ok : Ok g ms n x0 z0)
    (hx : 2 ≤ g.Nx) (lg ex : K → K) (val : Nat → K) {ls : List (List Nat)} (hd : Distribution n ls)
    (nodeType : Nat → Int) (f : Nat → K) (c r : Nat) (hc : c < g.Nx) (hr : r < g.Nz)
    (hfed : ∀ c' ∈ sources g c, Fed g ms n nodeType c' r) (lo hi : K) (hlo : 0 < lo) (hhi : lo ≤ hi)
    (hb : ∀ c' ∈ sources g c, ∀ k < n, 0 < markerWeight g ms k c' r → Between lo hi (val k)) :
    Between lo hi (field g lg ex 1 ms val ls nodeType f (c + r * g.Nx)) := by
  refine field_between hx lg ex 1 ms val ls nodeType f c r hc hr lo hi fun c' hc' => ?_
  have hpos : (0 : K) < 1 / 10 ^ 30 := by positivity
  rw [raw_mean ok lg ex 1 val hd nodeType f c' r (sources_lt hx hc hc') hr (hfed c' hc').1 (hfed c' hc').2]
  simp only [fromAvg, toAvg, show ¬ ((1 : Nat) = 2) by decide, if_false, if_true]
  have hhi0 : 0 < hi := lt_of_lt_of_le hlo hhi
  obtain ⟨m1, m2⟩ := mean_between n (fun k => 1 / val k) (fun k => markerWeight g ms k c' r) (1 / hi) (1 / lo)
    (fun k _ => markerWeight_nonneg g ms k c' r)
    (lt_of_lt_of_le hpos (hfed c' hc').1) (fun k hk hw => by
      obtain ⟨b1, b2⟩ := hb c' hc' k hk hw
      exact ⟨one_div_le_one_div_of_le (lt_of_lt_of_le hlo b1) b2, one_div_le_one_div_of_le hlo b1⟩)
  have p1 : 0 < 1 / hi := by positivity
  unfold W
  constructor
  · rw [le_one_div hlo (lt_of_lt_of_le p1 m1)]; exact m2
  · rw [one_div_le (lt_of_lt_of_le p1 m1) hhi0]; exact m1

/-- C21: a constant marker value is reproduced (arithmetic). -/
theorem constant_reproduced {g : Fam K} {ms : Nat → Mk K} {n : Nat} {x0 z0 : K} (ok : Ok g ms n x0 z0)
    (hx : 2 ≤ g.Nx) (lg ex : K → K) (v : K) {ls : List (List Nat)} (hd : Distribution n ls)
    (nodeType : Nat → Int) (f : Nat → K) (c r : Nat) (hc : c < g.Nx) (hr : r < g.Nz)
    (hfed : ∀ c' ∈ sources g c, Fed g ms n nodeType c' r) :
    field g lg ex 0 ms (fun _ => v) ls nodeType f (c + r * g.Nx) = v ∧
    (0 < v → field g lg ex 1 ms (fun _ => v) ls nodeType f (c + r * g.Nx) = v) := by
  have h1 := arithmetic_average_between ok hx lg ex (fun _ => v) hd nodeType f c r hc hr hfed v v
    (fun _ _ _ _ _ => ⟨le_refl _, le_refl _⟩)
  refine ⟨le_antisymm h1.2 h1.1, fun hv => ?_⟩
  have h2 := harmonic_average_between ok hx lg ex (fun _ => v) hd nodeType f c r hc hr hfed v v hv (le_refl _)
    (fun _ _ _ _ _ => ⟨le_refl _, le_refl _⟩)
  exact le_antisymm h2.2 h2.1

/-- C21: nodes that received no weight or are air keep their value (all columns of centre and velocity
families; the two edge columns of periodic vertex families are averaged instead, see
`makePeriodic_spec` and `periodic_edge_touches_air`). -/
theorem unfed_nodes_unchanged {g : Fam K} {ms : Nat → Mk K} {n : Nat} {x0 z0 : K} (ok : Ok g ms n x0 z0)
    (hx : 2 ≤ g.Nx) (lg ex : K → K) (avg : Nat) (val : Nat → K) {ls : List (List Nat)} (hd : Distribution n ls)
    (nodeType : Nat → Int) (f : Nat → K) (c r : Nat) (hc : c < g.Nx) (hr : r < g.Nz)
    (hedge : g.vertices = true → g.periodic = true → c ≠ 0 ∧ c + 1 ≠ g.Nx)
    (h : W g ms n c r < 1 / 10 ^ 30 ∨ nodeType (c + r * g.Nx) ∈ airTags) :
    field g lg ex avg ms val ls nodeType f (c + r * g.Nx) = f (c + r * g.Nx) := by
  unfold field
  by_cases hv : (g.vertices && g.periodic) = true
  · simp only [if_pos hv]
    have hv' := hv
    rw [Bool.and_eq_true] at hv'
    have := hedge hv'.1 hv'.2
    rw [makePeriodic_spec g.Nx g.Nz hx _ c r hc hr, if_neg (by omega), raw_unchanged ok lg ex avg val hd nodeType f c r hc hr h]
  · simp only [if_neg hv]
    exact raw_unchanged ok lg ex avg val hd nodeType f c r hc hr h

/-- C23 for marker-to-grid sums: the nodal field and the phase fractions do not depend on how the
marker loop is distributed over threads. -/
theorem p2m_schedule_independent (g : Fam K) (lg ex : K → K) (avg : Nat) (ms : Nat → Mk K) (val : Nat → K)
    (n : Nat) (ls ls' : List (List Nat)) (hd : Distribution n ls) (hd' : Distribution n ls')
    (nodeType : Nat → Int) (f : Nat → K) :
    field g lg ex avg ms val ls nodeType f = field g lg ex avg ms val ls' nodeType f ∧
    ∀ p i, phases g ms val ls nodeType p i = phases g ms val ls' nodeType p i := by
  constructor
  · have e : ∀ i : Nat, ∀ v : Nat → K, reduceThreads g ms v ls (fun b => b.wm i) = reduceThreads g ms v ls' (fun b => b.wm i) ∧
        reduceThreads g ms v ls (fun b => b.bm i) = reduceThreads g ms v ls' (fun b => b.bm i) := fun i v => by
      obtain ⟨a1, a2, _⟩ := reduce_eq g ms v n ls hd i 0
      obtain ⟨b1, b2, _⟩ := reduce_eq g ms v n ls' hd' i 0
      exact ⟨by rw [a1, b1], by rw [a2, b2]⟩
    unfold field raw
    simp only [fun i => (e i fun k => toAvg lg avg (val k)).1, fun i => (e i fun k => toAvg lg avg (val k)).2]
  · intro p i
    obtain ⟨a1, _, a3⟩ := reduce_eq g ms val n ls hd i p
    obtain ⟨b1, _, b3⟩ := reduce_eq g ms val n ls' hd' i p
    unfold phases
    simp only [a1, a3, b1, b3]

/-- C22: at a node that received weight and is not air the phase fractions are in [0,1], add up to
one, and a phase has a positive fraction exactly when an active marker of that phase has positive
weight there. -/
theorem phase_fractions {g : Fam K} {ms : Nat → Mk K} {n : Nat} {x0 z0 : K} (ok : Ok g ms n x0 z0)
    (junk : Nat → K) {ls : List (List Nat)} (hd : Distribution n ls) (nodeType : Nat → Int) (nph : Nat)
    (hph : ∀ k < n, (ms k).phase ≠ -1 → 0 ≤ (ms k).phase ∧ (ms k).phase < nph)
    (c r : Nat) (hc : c < g.Nx) (hr : r < g.Nz) (hfed : Fed g ms n nodeType c r) :
    (∑ p ∈ Finset.range nph, phases g ms junk ls nodeType p (c + r * g.Nx) = 1) ∧
    (∀ p < nph, 0 ≤ phases g ms junk ls nodeType p (c + r * g.Nx) ∧ phases g ms junk ls nodeType p (c + r * g.Nx) ≤ 1) ∧
    (∀ p < nph, 0 < phases g ms junk ls nodeType p (c + r * g.Nx) ↔
      ∃ k < n, (ms k).phase = p ∧ 0 < nodeWeight g (ms k).x (ms k).z c r) := by
  have hpos : (0 : K) < 1 / 10 ^ 30 := by positivity
  have hW : 0 < W g ms n c r := lt_of_lt_of_le hpos hfed.1
  have val : ∀ p : Nat, phases g ms junk ls nodeType p (c + r * g.Nx) =
      (∑ k ∈ Finset.range n, if (p : Int) = (ms k).phase then markerWeight g ms k c r else 0) / W g ms n c r := by
    intro p
    obtain ⟨h1, _, h3⟩ := reduce_spec ok junk hd c r hc hr p
    unfold phases
    simp only [h1, h3]
    rw [if_neg]
    rw [abs_of_pos hW, air_iff]
    rintro (h | h)
    · exact not_lt.mpr hfed.1 h
    · exact hfed.2 h
  have nn : ∀ p : Nat, ∀ k ∈ Finset.range n, 0 ≤ if (p : Int) = (ms k).phase then markerWeight g ms k c r else 0 := by
    intro p k _
    split_ifs
    · exact markerWeight_nonneg g ms k c r
    · exact le_refl _
  have sum1 : ∑ p ∈ Finset.range nph, phases g ms junk ls nodeType p (c + r * g.Nx) = 1 := by
    simp only [val]
    rw [← Finset.sum_div, Finset.sum_comm, div_eq_one_iff_eq (ne_of_gt hW)]
    unfold W
    refine Finset.sum_congr rfl fun k hk => ?_
    by_cases hp : (ms k).phase = -1
    · have : markerWeight g ms k c r = 0 := by unfold markerWeight; rw [if_pos hp]
      rw [this]; simp
    · obtain ⟨p0, p1⟩ := hph k (Finset.mem_range.mp hk) hp
      obtain ⟨q, hq⟩ := Int.eq_ofNat_of_zero_le p0
      rw [Finset.sum_eq_single q]
      · rw [if_pos hq.symm]
      · intro b _ hb
        rw [if_neg (by omega)]
      · intro h; exact absurd (Finset.mem_range.mpr (by omega)) h
  have ge0 : ∀ p : Nat, 0 ≤ phases g ms junk ls nodeType p (c + r * g.Nx) := fun p => by
    rw [val]; exact div_nonneg (Finset.sum_nonneg (nn p)) (le_of_lt hW)
  refine ⟨sum1, fun p hp => ⟨ge0 p, ?_⟩, fun p hp => ?_⟩
  · rw [← sum1]
    exact Finset.single_le_sum (f := fun p => phases g ms junk ls nodeType p (c + r * g.Nx))
      (fun q _ => ge0 q) (Finset.mem_range.mpr hp)
  · rw [val, div_pos_iff_of_pos_right hW, Finset.sum_pos_iff_of_nonneg (nn p)]
    constructor
    · rintro ⟨k, hk, h⟩
      by_cases hq : (p : Int) = (ms k).phase
      · rw [if_pos hq] at h
        refine ⟨k, Finset.mem_range.mp hk, hq.symm, ?_⟩
        unfold markerWeight at h
        rwa [if_neg (by omega)] at h
      · rw [if_neg hq] at h; exact absurd h (lt_irrefl _)
    · rintro ⟨k, hk, hq, h⟩
      refine ⟨k, Finset.mem_range.mpr hk, ?_⟩
      rw [if_pos hq.symm]
      unfold markerWeight
      rwa [if_neg (by omega)]

/-- C21, geometric average of positive values (real numbers, with the real `log` and `exp`). -/
theorem geometric_average_between {g : Fam ℝ} {ms : Nat → Mk ℝ} {n : Nat} {x0 z0 : ℝ} (ok : Ok g ms n x0 z0)
    (hx : 2 ≤ g.Nx) (val : Nat → ℝ) {ls : List (List Nat)} (hd : Distribution n ls)
    (nodeType : Nat → Int) (f : Nat → ℝ) (c r : Nat) (hc : c < g.Nx) (hr : r < g.Nz)
    (hfed : ∀ c' ∈ sources g c, Fed g ms n nodeType c' r) (lo hi : ℝ) (hlo : 0 < lo) (hhi : lo ≤ hi)
    (hb : ∀ c' ∈ sources g c, ∀ k < n, 0 < markerWeight g ms k c' r → Between lo hi (val k)) :
    Between lo hi (field g Real.log Real.exp 2 ms val ls nodeType f (c + r * g.Nx)) := by
  refine field_between hx Real.log Real.exp 2 ms val ls nodeType f c r hc hr lo hi fun c' hc' => ?_
  have hpos : (0 : ℝ) < 1 / 10 ^ 30 := by positivity
  rw [raw_mean ok _ _ 2 val hd nodeType f c' r (sources_lt hx hc hc') hr (hfed c' hc').1 (hfed c' hc').2]
  simp only [fromAvg, toAvg, show ¬ ((2 : Nat) = 1) by decide, if_false, if_true]
  obtain ⟨m1, m2⟩ := mean_between n (fun k => Real.log (val k)) (fun k => markerWeight g ms k c' r)
    (Real.log lo) (Real.log hi)
    (fun k _ => markerWeight_nonneg g ms k c' r)
    (lt_of_lt_of_le hpos (hfed c' hc').1) (fun k hk hw => by
      obtain ⟨b1, b2⟩ := hb c' hc' k hk hw
      exact ⟨Real.log_le_log hlo b1, Real.log_le_log (lt_of_lt_of_le hlo b1) b2⟩)
  exact ⟨(Real.log_le_iff_le_exp hlo).mp m1, (Real.le_log_iff_exp_le (lt_of_lt_of_le hlo hhi)).mp m2⟩

end Verif.P2M
