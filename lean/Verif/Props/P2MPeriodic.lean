import Verif.Props.P2Mastah
import Mathlib.Data.Rat.Floor

/-
C68 (periodic models treat all columns alike) and concrete cases for C21, C22.
-/
namespace Verif.P2M
open Verif Verif.Interp
set_option linter.unusedSectionVars false

variable {K : Type*} [Field K] [LinearOrder K] [IsStrictOrderedRing K] [FloorRing K]

/-- Moving a marker one cell east in a box that ends at `xe` and repeats with period `L`. -/
def shiftEast (xe L dx x : K) : K := if xe < x + dx then x + dx - L else x + dx

/-- Column one to the east, periodically. -/
def nextCol (nx c : Nat) : Nat := if c + 1 = nx then 0 else c + 1

/-- Cell-centre weights are translation invariant in a periodic model. -/
theorem centre_weight_shift {g : Fam K} {x0 z0 : K} (hs : g.stencil = 1 ∨ g.stencil = 9)
    (hp : g.periodic = true) (hx : 2 ≤ g.Nx) (dx : 0 < g.dx) (dz : 0 < g.dz) (X : Regular g.X x0 g.dx)
    (Z : Regular g.Z z0 g.dz) (x z : K) (hx0 : x0 - g.dx / 2 ≤ x) (hx1 : x ≤ x0 + (g.Nx - 1) * g.dx + g.dx / 2)
    (c r : Nat) (hc : c < g.Nx) :
    nodeWeight g (shiftEast (x0 + (g.Nx - 1) * g.dx + g.dx / 2) (g.Nx * g.dx) g.dx x) z (nextCol g.Nx c) r =
      nodeWeight g x z c r := by
  have hN : (2 : K) ≤ g.Nx := by exact_mod_cast hx
  have hNd : 2 * g.dx ≤ g.Nx * g.dx := mul_le_mul_of_nonneg_right hN (le_of_lt dx)
  have r9 : 0 < 3 * g.dx / 2 := by linarith
  have r1 : 0 < g.dx / 2 := by linarith
  have hcK : (c : K) + 1 ≤ g.Nx := by exact_mod_cast hc
  have hcd := mul_le_mul_of_nonneg_right hcK (le_of_lt dx)
  have hc0 : 0 ≤ (c : K) * g.dx := mul_nonneg (Nat.cast_nonneg c) (le_of_lt dx)
  -- offsets
  have out : ∀ {t r : K}, 0 < r → (r ≤ t ∨ t ≤ -r) → hat (t / r) = 0 := by
    intro t r hr h
    refine hat_wide_out hr ?_
    rcases h with h | h
    · exact le_trans h (le_abs_self t)
    · exact le_trans (by linarith) (neg_le_abs t)
  unfold nodeWeight kernelPeriodic kernel itp
  simp only [X c, X (nextCol g.Nx c : Nat), hp, and_true]
  unfold shiftEast nextCol
  by_cases hw : x0 + (g.Nx - 1) * g.dx + g.dx / 2 < x + g.dx <;> by_cases hn : c + 1 = g.Nx
  · -- both wrap
    have e : (g.Nx : K) = c + 1 := by exact_mod_cast hn.symm
    simp only [if_pos hw, if_pos hn]
    push_cast
    rw [e]
    congr 4 <;> ring_nf
  · -- the marker wraps, the node does not
    have hc2 : (c : K) + 2 ≤ g.Nx := by exact_mod_cast (by omega : c + 2 ≤ g.Nx)
    have hcd2 := mul_le_mul_of_nonneg_right hc2 (le_of_lt dx)
    simp only [if_pos hw, if_neg hn]
    push_cast
    rcases hs with hs | hs
    · simp only [hs, show ¬ ((1 : Nat) = 9) by decide, if_false, if_true]
      rw [out (t := x + g.dx - g.Nx * g.dx - (x0 + ((c : K) + 1) * g.dx)) r1 (Or.inr (by nlinarith)),
        out (t := x - (x0 + (c : K) * g.dx)) r1 (Or.inl (by nlinarith))]
    · simp only [hs, show ¬ ((9 : Nat) = 1) by decide, if_false, if_true]
      congr 1
      rw [out (t := x + g.dx - g.Nx * g.dx - g.Nx * g.dx - (x0 + ((c : K) + 1) * g.dx)) r9 (Or.inr (by nlinarith)),
        out (t := x + g.Nx * g.dx - (x0 + (c : K) * g.dx)) r9 (Or.inl (by nlinarith))]
      rw [show x + g.dx - g.Nx * g.dx - (x0 + ((c : K) + 1) * g.dx) = x - g.Nx * g.dx - (x0 + c * g.dx) by ring,
        show x + g.dx - g.Nx * g.dx + g.Nx * g.dx - (x0 + ((c : K) + 1) * g.dx) = x - (x0 + c * g.dx) by ring]
      ring
  · -- the node wraps, the marker does not
    have e : (g.Nx : K) = c + 1 := by exact_mod_cast hn.symm
    rw [not_lt] at hw
    simp only [if_neg (not_lt.mpr hw), if_pos hn]
    push_cast
    rw [e] at hw hx1 hNd ⊢
    rcases hs with hs | hs
    · simp only [hs, show ¬ ((1 : Nat) = 9) by decide, if_false, if_true]
      rw [out (t := x + g.dx - (x0 + 0 * g.dx)) r1 (Or.inl (by nlinarith)),
        out (t := x - (x0 + (c : K) * g.dx)) r1 (Or.inr (by nlinarith))]
    · simp only [hs, show ¬ ((9 : Nat) = 1) by decide, if_false, if_true]
      congr 1
      rw [out (t := x + g.dx + ((c : K) + 1) * g.dx - (x0 + 0 * g.dx)) r9 (Or.inl (by nlinarith)),
        out (t := x - ((c : K) + 1) * g.dx - (x0 + (c : K) * g.dx)) r9 (Or.inr (by nlinarith))]
      rw [show x + g.dx - (x0 + 0 * g.dx) = x + ((c : K) + 1) * g.dx - (x0 + c * g.dx) by ring,
        show x + g.dx - ((c : K) + 1) * g.dx - (x0 + 0 * g.dx) = x - (x0 + c * g.dx) by ring]
      ring
  · simp only [if_neg hw, if_neg hn]
    push_cast
    congr 4 <;> ring_nf

/-- C68 for cell centres: shifting all markers east by one cell, with wrap-around, shifts the
interpolated field by one column. -/
theorem periodic_shift_partial {g : Fam K} {ms : Nat → Mk K} {n : Nat} {x0 z0 : K} (ok : Ok g ms n x0 z0)
    (hp : g.periodic = true) (hv : g.vertices = false) (hx : 2 ≤ g.Nx)
    (lg ex : K → K) (avg : Nat) (val : Nat → K) {ls ls' : List (List Nat)} (hd : Distribution n ls)
    (hd' : Distribution n ls') (ms' : Nat → Mk K)
    (hms : ∀ k, ms' k = { ms k with x := shiftEast (x0 + (g.Nx - 1) * g.dx + g.dx / 2) (g.Nx * g.dx) g.dx (ms k).x })
    (nodeType nodeType' : Nat → Int) (f f' : Nat → K) (c r : Nat) (hc : c < g.Nx) (hr : r < g.Nz)
    (hfed : Fed g ms n nodeType c r) (hair : nodeType' (nextCol g.Nx c + r * g.Nx) ∉ airTags) :
    field g lg ex avg ms' val ls' nodeType' f' (nextCol g.Nx c + r * g.Nx) =
      field g lg ex avg ms val ls nodeType f (c + r * g.Nx) := by
  have hnc : nextCol g.Nx c < g.Nx := by unfold nextCol; split_ifs <;> omega
  have ok' : Ok g ms' n x0 z0 :=
    { stencil := ok.stencil, nx := ok.nx, nz := ok.nz, dx := ok.dx, dz := ok.dz, X := ok.X, Z := ok.Z
      xin := fun k hk hph => by
        rw [hms] at hph ⊢
        obtain ⟨h0, h1⟩ := ok.xin k hk hph
        have hN : (2 : K) ≤ g.Nx := by exact_mod_cast hx
        have hd := ok.dx
        simp only [shiftEast]
        split_ifs with h
        · constructor <;> nlinarith
        · rw [not_lt] at h; constructor <;> linarith
      zin := fun k hk hph => by rw [hms] at hph ⊢; exact ok.zin k hk hph }
  have mwe : ∀ k < n, markerWeight g ms' k (nextCol g.Nx c) r = markerWeight g ms k c r := by
    intro k hk
    unfold markerWeight
    rw [hms]
    by_cases hph : (ms k).phase = -1
    · simp [hph]
    · simp only [if_neg hph]
      obtain ⟨h0, h1⟩ := ok.xin k hk hph
      exact centre_weight_shift ok.stencil hp hx ok.dx ok.dz ok.X ok.Z _ _ h0 h1 c r hc
  have hW : W g ms' n (nextCol g.Nx c) r = W g ms n c r :=
    Finset.sum_congr rfl fun k hk => mwe k (Finset.mem_range.mp hk)
  unfold field
  simp only [hv, Bool.false_and, Bool.false_eq_true, if_false]
  rw [raw_mean ok' lg ex avg val hd' nodeType' f' _ r hnc hr (by rw [hW]; exact hfed.1) hair,
    raw_mean ok lg ex avg val hd nodeType f c r hc hr hfed.1 hfed.2, hW]
  congr 2
  exact Finset.sum_congr rfl fun k hk => by rw [mwe k (Finset.mem_range.mp hk)]

/-! ### Concrete cases -/

/-- Cell centres of a periodic box with 3 x 2 unit cells. -/
def demoCentres : Fam ℚ :=
  { Nx := 3, Nz := 2, X := fun j => 1 / 2 + j, Z := fun j => 1 / 2 + j, dx := 1, dz := 1,
    vertices := false, stencil := 9, periodic := true }

/-- Vertices of the same box. -/
def demoVertices : Fam ℚ :=
  { Nx := 4, Nz := 3, X := fun j => j, Z := fun j => j, dx := 1, dz := 1,
    vertices := true, stencil := 9, periodic := true }

/-- Two markers: value 0 at `(1/4,1/2)`, value 1 at `(5/4,1/2)`, and a dead one. -/
def demoMarkers (k : Nat) : Mk ℚ :=
  if k = 0 then ⟨1 / 4, 1 / 2, 0⟩ else if k = 1 then ⟨5 / 4, 1 / 2, 1⟩ else ⟨7, 7, -1⟩

/-- Non-vacuity of `Ok`, `Fed` and `Distribution`. -/
example : Ok demoCentres demoMarkers 3 (1 / 2) (1 / 2) ∧ Distribution 3 [[2, 1], [0]] ∧
    Fed demoCentres demoMarkers 3 (fun _ => -1) 0 0 ∧
    field demoCentres id id 0 demoMarkers (fun k => k) [[2, 1], [0]] (fun _ => -1) (fun _ => 9) 0 = 3 / 8 := by
  refine ⟨⟨Or.inr rfl, by decide, by decide, by norm_num [demoCentres], by norm_num [demoCentres],
    fun j => by simp [demoCentres], fun j => by simp [demoCentres], ?_, ?_⟩, by unfold Distribution; decide, ?_, by decide +kernel⟩
  · intro k _ hk
    unfold demoMarkers at *
    split_ifs at * <;> norm_num [demoCentres] at *
  · intro k _ hk
    unfold demoMarkers at *
    split_ifs at * <;> norm_num [demoCentres] at *
  · unfold Fed; decide +kernel

/-- C68 fails for vertex fields: in a periodic model the weights wrap with a period of one cell too
many (the number of vertices instead of the number of cells), so shifting all markers by one cell
does not shift the vertex field. -/
theorem periodic_vertex_shift_fails :
    ∃ (ms ms' : Nat → Mk ℚ) (c : Nat),
      (∀ k, ms' k = { ms k with x := shiftEast 3 3 1 (ms k).x }) ∧
      (∀ k < 3, (ms k).phase ≠ -1) ∧ c + 1 < 3 ∧
      field demoVertices id id 0 ms' (fun k => k) [[0, 1, 2]] (fun _ => -1) (fun _ => 0) (c + 1) ≠
        field demoVertices id id 0 ms (fun k => k) [[0, 1, 2]] (fun _ => -1) (fun _ => 0) c := by
  refine ⟨fun k => if k = 0 then ⟨1 / 4, 0, 0⟩ else if k = 1 then ⟨5 / 4, 0, 0⟩ else ⟨11 / 4, 0, 0⟩,
    fun k => (fun m : Mk ℚ => { m with x := shiftEast 3 3 1 m.x })
      (if k = 0 then ⟨1 / 4, 0, 0⟩ else if k = 1 then ⟨5 / 4, 0, 0⟩ else ⟨11 / 4, 0, 0⟩), 0, ?_, ?_, by decide, by decide +kernel⟩
  · intro k; rfl
  · intro k hk
    simp only
    split_ifs <;> simp

/-- C22 at air nodes: the stored phase proportions are left as raw weights there; they need not add up
to one. -/
theorem phase_fractions_unnormalised_in_air :
    ∃ (ms : Nat → Mk ℚ), (ms 0).phase = 0 ∧
      phases { demoCentres with periodic := false } ms (fun _ => 0) [[0]] (fun _ => 30) 0 0 = 4 / 9 := by
  refine ⟨fun _ => ⟨1, 1, 0⟩, rfl, by decide +kernel⟩

/-- Exception in C21: the final averaging of periodic vertex fields also rewrites air nodes on the two
edge columns. -/
theorem periodic_edge_touches_air :
    ∃ (f : Nat → ℚ), field demoVertices id id 0 (fun _ => ⟨0, 0, -1⟩) (fun _ => 0) [[0]] (fun _ => 30) f 0 ≠ f 0 := by
  refine ⟨fun i => if i = 0 then 1 else 0, by decide +kernel⟩

end Verif.P2M
