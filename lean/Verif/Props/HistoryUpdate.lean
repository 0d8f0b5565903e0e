import Verif.Props.HistoryTensor
import Verif.Model.Config
import Mathlib.Analysis.SpecialFunctions.Exp
import Mathlib.Tactic.IntervalCases

set_option linter.unusedSectionVars false
set_option linter.unusedVariables false
set_option linter.unusedSimpArgs false

/- C81, C83, C84, C85: update of marker quantities from increments on the grid. -/
namespace Verif.Hist
open Verif Verif.Interp

variable {K : Type*} [Field K] [LinearOrder K] [IsStrictOrderedRing K] [FloorRing K]

/-- C81 (every marker): the stored fraction lies between zero and one, whatever the grid values. -/
theorem fraction_in_range (s : Setting K) (flag tag : Int → Int) (new old : Int → K) (phi : Nat → K) (k : Nat) :
    0 ≤ updateFraction s flag tag new old phi k ∧ updateFraction s flag tag new old phi k ≤ 1 := by
  unfold updateFraction clipAdd
  simp only
  split_ifs with h1 h2 h3 <;> constructor <;> linarith

/-- C81 (exactness): as long as the sum stays between zero and one it is stored as it is; beyond, the nearer bound is
stored. -/
theorem fraction_is_sum (v inc : K) :
    (0 ≤ v + inc → v + inc ≤ 1 → clipAdd v inc = v + inc) ∧ (v + inc ≤ 0 → clipAdd v inc = 0) ∧
      (1 ≤ v + inc → clipAdd v inc = 1) := by
  unfold clipAdd
  simp only
  refine ⟨fun h0 h1 => ?_, fun h => ?_, fun h => ?_⟩
  · split_ifs with a b b <;> linarith
  · rw [if_pos h, if_neg (by norm_num)]
  · have : ¬ v + inc ≤ 0 := by intro h'; linarith
    rw [if_neg this, if_pos h]

/-- Interpolating a constant gives the constant, wherever the marker is. -/
theorem toMarker_const (s : Setting K) (y : K) (tag : Int → Int) (k : Nat) (hk : (s.ms k).phase ≠ -1) :
    s.toMarker (fun _ => y) tag k = y := by
  unfold Setting.toMarker
  rw [if_pos hk]
  unfold interpCentroids
  simp only
  generalize ((s.ms k).x - s.xe (cellOf (s.ms k).x (s.xe 0) s.fam.dx)) / s.fam.dx = a
  generalize ((s.ms k).z - s.ze (cellOf (s.ms k).z (s.ze 0) s.fam.dz)) / s.fam.dz = b
  have e : (1 - a) * (1 - b) + a * (1 - b) + (1 - a) * b + a * b = 1 := by ring
  rw [e, if_pos (by norm_num), div_one]
  have sw : ∀ t : Quad Int, swapAir t (⟨y, y, y, y⟩ : Quad K) = ⟨y, y, y, y⟩ := by
    intro t; unfold swapAir; simp
  have : (centreIdx (↑s.fam.Nx) (↑s.fam.Nz) s.periodic s.junk (cellOf (s.ms k).x (s.xe 0) s.fam.dx)
      (cellOf (s.ms k).z (s.ze 0) s.fam.dz)).get (fun _ => y) = ⟨y, y, y, y⟩ := rfl
  rw [this, sw]
  unfold bilin
  simp only
  ring

/-- C81 (nothing happens): if the grid field did not change, no marker changes. -/
theorem fraction_unchanged (s : Setting K) (flag tag : Int → Int) (f : Int → K) (phi : Nat → K) (k : Nat)
    (h0 : 0 ≤ phi k) (h1 : phi k ≤ 1) : updateFraction s flag tag f f phi k = phi k := by
  have z : gridInc [30, 31] flag f f = fun _ => 0 := by funext c; simp [gridInc]
  have : s.toMarker (gridInc [30, 31] flag f f) tag k = 0 := by
    rw [z]
    by_cases hk : (s.ms k).phase = -1
    · simp [Setting.toMarker, hk]
    · exact toMarker_const s 0 tag k hk
  unfold updateFraction
  rw [this]
  have := (fraction_is_sum (phi k) 0).1 (by linarith) (by linarith)
  rw [this, add_zero]

/-- The markers of a setting lie in a box with a regular mesh of `Nx` by `Nz` cells. -/
structure Setting.Ok (s : Setting K) (n : Nat) (xmin zmin : K) : Prop where
  box : ∀ k < n, (s.ms k).phase ≠ -1 → InBox s.fam.Nx s.fam.Nz s.xe s.ze xmin zmin s.fam.dx s.fam.dz (s.ms k).x (s.ms k).z
  p2m : P2M.Ok s.fam s.ms n (xmin + s.fam.dx / 2) (zmin + s.fam.dz / 2)
  dist : Distribution n s.ls
  nx : 2 ≤ s.fam.Nx
  centres : s.fam.vertices = false

/-- Interpolated value between bounds of the cell values. -/
theorem toMarker_between {s : Setting K} {n : Nat} {xmin zmin : K} (ok : s.Ok n xmin zmin) (F : Int → K) (tag : Int → Int)
    {k : Nat} (hk : k < n) (hp : (s.ms k).phase ≠ -1) (lo hi : K)
    (h : ∀ c < s.fam.Nx, ∀ r < s.fam.Nz, lo ≤ F ((c : Int) + r * s.fam.Nx) ∧ F ((c : Int) + r * s.fam.Nx) ≤ hi) :
    lo ≤ s.toMarker F tag k ∧ s.toMarker F tag k ≤ hi := by
  unfold Setting.toMarker
  rw [if_pos hp]
  obtain ⟨c1, hc1, c2, hc2, r1, hr1, r2, hr2, hb⟩ := (centre_field_interpolation (ok.box k hk hp) s.periodic s.junk F tag).2
  exact hb lo hi fun c hc r hr => h c (by simp at hc; omega) r (by simp at hr; omega)

/-- C83 (without subgrid diffusion).  The change of every active marker lies between the smallest and the largest change of
a cell (cells of air count as unchanged); inactive markers do not change. -/
theorem plain_update_bounded {s : Setting K} {n : Nat} {xmin zmin : K} (ok : s.Ok n xmin zmin) (flag tag : Int → Int)
    (skip : List Int) (new old : Int → K) (T : Nat → K) {k : Nat} (hk : k < n) :
    ((s.ms k).phase ≠ -1 → ∀ lo hi, (∀ c < s.fam.Nx, ∀ r < s.fam.Nz,
        let i := (c : Int) + r * s.fam.Nx
        (flag i ∈ skip → lo ≤ 0 ∧ 0 ≤ hi) ∧ (flag i ∉ skip → lo ≤ new i - old i ∧ new i - old i ≤ hi)) →
      T k + lo ≤ updatePlain s flag tag skip new old T k ∧ updatePlain s flag tag skip new old T k ≤ T k + hi) ∧
    ((s.ms k).phase = -1 → updatePlain s flag tag skip new old T k = T k) := by
  constructor
  · intro hp lo hi h
    have := toMarker_between ok (gridInc skip flag new old) tag hk hp lo hi fun c hc r hr => by
      obtain ⟨h1, h2⟩ := h c hc r hr
      unfold gridInc
      by_cases hf : flag ((c : Int) + r * s.fam.Nx) ∈ skip
      · rw [if_pos hf]; exact h1 hf
      · rw [if_neg hf]; exact h2 hf
    unfold updatePlain
    exact ⟨by linarith [this.1], by linarith [this.2]⟩
  · intro hp
    simp [updatePlain, Setting.toMarker, hp]

/-- C83 (uniform change): if every cell changes by `δ`, every active marker changes by exactly `δ`. -/
theorem plain_update_uniform {s : Setting K} {n : Nat} {xmin zmin : K} (ok : s.Ok n xmin zmin) (flag tag : Int → Int)
    (skip : List Int) (new old : Int → K) (δ : K) (T : Nat → K) {k : Nat} (hk : k < n) (hp : (s.ms k).phase ≠ -1)
    (h : ∀ c < s.fam.Nx, ∀ r < s.fam.Nz, flag ((c : Int) + r * s.fam.Nx) ∉ skip ∧
      new ((c : Int) + r * s.fam.Nx) = old ((c : Int) + r * s.fam.Nx) + δ) :
    updatePlain s flag tag skip new old T k = T k + δ := by
  have := (plain_update_bounded ok flag tag skip new old T hk).1 hp δ δ fun c hc r hr => by
    obtain ⟨h1, h2⟩ := h c hc r hr
    exact ⟨fun hf => absurd hf h1, fun _ => by rw [h2]; constructor <;> linarith⟩
  exact le_antisymm this.2 this.1

theorem cellNat (c r nx : Nat) : ((c : Int) + r * nx).toNat = c + r * nx := by
  have : ((c : Int) + r * nx) = ((c + r * nx : Nat) : Int) := by push_cast; ring
  rw [this, Int.toNat_natCast]

/-- Interpolation only looks at the cells of the grid. -/
theorem toMarker_congr {s : Setting K} {n : Nat} {xmin zmin : K} (ok : s.Ok n xmin zmin) (F G : Int → K) (tag : Int → Int)
    {k : Nat} (hk : k < n) (hp : (s.ms k).phase ≠ -1) (δ : K)
    (h : ∀ c < s.fam.Nx, ∀ r < s.fam.Nz, F ((c : Int) + r * s.fam.Nx) = G ((c : Int) + r * s.fam.Nx) + δ) :
    s.toMarker F tag k = s.toMarker G tag k + δ := by
  have lin : ∀ A B : Int → K, s.toMarker (fun i => A i - B i) tag k = s.toMarker A tag k - s.toMarker B tag k := by
    intro A B
    unfold Setting.toMarker
    simp only [if_pos hp]
    unfold interpCentroids
    simp only
    generalize ((s.ms k).x - s.xe (cellOf (s.ms k).x (s.xe 0) s.fam.dx)) / s.fam.dx = a
    generalize ((s.ms k).z - s.ze (cellOf (s.ms k).z (s.ze 0) s.fam.dz)) / s.fam.dz = b
    generalize centreIdx (↑s.fam.Nx) (↑s.fam.Nz) s.periodic s.junk (cellOf (s.ms k).x (s.xe 0) s.fam.dx)
      (cellOf (s.ms k).z (s.ze 0) s.fam.dz) = q
    have e : (1 - a) * (1 - b) + a * (1 - b) + (1 - a) * b + a * b = 1 := by ring
    rw [e, if_pos (by norm_num)]
    have sw : bilin a b (swapAir (q.get tag) (q.get fun i => A i - B i)) =
        bilin a b (swapAir (q.get tag) (q.get A)) - bilin a b (swapAir (q.get tag) (q.get B)) := by
      unfold swapAir Quad.get bilin
      simp only
      split_ifs <;> ring
    rw [sw, if_pos (by norm_num), if_pos (by norm_num)]; ring
  have := toMarker_between ok (fun i => F i - G i) tag hk hp δ δ fun c hc r hr => by
    rw [h c hc r hr]; constructor <;> linarith
  rw [lin] at this
  linarith [le_antisymm this.2 this.1]

/-- A cell gets the common subgrid value of the markers if it gets any, else it keeps zero. -/
theorem subgridGrid_const {s : Setting K} {n : Nat} {xmin zmin : K} (ok : s.Ok n xmin zmin) (lg ex : K → K) (flagP : Nat → Int)
    (T m0 damp : Nat → K) (y : K) (hy : ∀ k < n, (s.ms k).phase ≠ -1 → subgrid s T m0 damp k = y)
    {c r : Nat} (hc : c < s.fam.Nx) (hr : r < s.fam.Nz) :
    (P2M.Fed s.fam s.ms n flagP c r → subgridGrid s lg ex flagP T m0 damp (c + r * s.fam.Nx) = y) ∧
    (¬ P2M.Fed s.fam s.ms n flagP c r → subgridGrid s lg ex flagP T m0 damp (c + r * s.fam.Nx) = 0) := by
  have src : P2M.sources s.fam c = [c] := by unfold P2M.sources; simp [ok.centres]
  constructor
  · intro hf
    have := P2M.arithmetic_average_between ok.p2m ok.nx lg ex (subgrid s T m0 damp) ok.dist flagP (fun _ => 0) c r hc hr
      (fun c' hc' => by rw [src] at hc'; simp at hc'; rw [hc']; exact hf) y y
      (fun c' _ k hk hw => by
        have : (s.ms k).phase ≠ -1 := by
          intro h; simp [P2M.markerWeight, h] at hw
        rw [hy k hk this]; exact ⟨le_rfl, le_rfl⟩)
    exact le_antisymm this.2 this.1
  · intro hf
    refine P2M.unfed_nodes_unchanged ok.p2m ok.nx lg ex 0 _ ok.dist flagP _ c r hc hr (by simp [ok.centres]) ?_
    unfold P2M.Fed at hf
    by_cases h : 1 / 10 ^ 30 ≤ P2M.W s.fam s.ms n c r
    · exact Or.inr (by by_contra h'; exact hf ⟨h, h'⟩)
    · exact Or.inl (not_le.mp h)

/-- C83 (subgrid diffusion, markers in line with the grid): if every active marker carries exactly the old grid value at
its position, subgrid diffusion has nothing to do and the update is the plain one. -/
theorem subgrid_update_consistent {s : Setting K} {n : Nat} {xmin zmin : K} (ok : s.Ok n xmin zmin) (lg ex : K → K)
    (flag tag : Int → Int) (flagP : Nat → Int) (skip : List Int) (new old m0f : Int → K) (damp T : Nat → K)
    (hT : ∀ k < n, (s.ms k).phase ≠ -1 → T k = s.toMarker m0f tag k) {k : Nat} (hk : k < n) :
    updateSubgrid s lg ex flag tag flagP skip new old m0f damp T k = updatePlain s flag tag skip new old T k := by
  by_cases hp : (s.ms k).phase = -1
  · simp [updateSubgrid, updatePlain, Setting.toMarker, hp]
  have z : ∀ k < n, (s.ms k).phase ≠ -1 → subgrid s T (s.toMarker m0f tag) damp k = 0 := by
    intro k hk hp
    unfold subgrid
    rw [if_pos hp, ← hT k hk hp]; ring
  unfold updateSubgrid updatePlain
  simp only [if_pos hp]
  rw [z k hk hp, zero_add]
  have := toMarker_congr ok
    (fun c => if flag c ∈ skip then 0 else gridInc skip flag new old c -
      subgridGrid s lg ex flagP T (s.toMarker m0f tag) damp c.toNat) (gridInc skip flag new old) tag hk hp 0 fun c hc r hr => by
    have g := subgridGrid_const ok lg ex flagP T (s.toMarker m0f tag) damp 0 z hc hr
    have g0 : subgridGrid s lg ex flagP T (s.toMarker m0f tag) damp (c + r * s.fam.Nx) = 0 := by
      by_cases hf : P2M.Fed s.fam s.ms n flagP c r
      · exact g.1 hf
      · exact g.2 hf
    simp only [cellNat, g0, sub_zero, add_zero]
    unfold gridInc
    split_ifs <;> rfl
  rw [this, add_zero]

/-- C83 (subgrid diffusion conserves): if all active markers deviate from the grid by the same amount and relax at the same
rate, and every cell is rock and fed by markers, then the relaxation is undone by the correction and the
update is the plain one: no heat is lost. -/
theorem subgrid_uniform_offset_kept {s : Setting K} {n : Nat} {xmin zmin : K} (ok : s.Ok n xmin zmin) (lg ex : K → K)
    (flag tag : Int → Int) (flagP : Nat → Int) (skip : List Int) (new old m0f : Int → K) (d ε : K) (T : Nat → K)
    (hT : ∀ k < n, (s.ms k).phase ≠ -1 → T k = s.toMarker m0f tag k + ε)
    (hrock : ∀ c < s.fam.Nx, ∀ r < s.fam.Nz, flag ((c : Int) + r * s.fam.Nx) ∉ skip ∧ P2M.Fed s.fam s.ms n flagP c r)
    {k : Nat} (hk : k < n) :
    updateSubgrid s lg ex flag tag flagP skip new old m0f (fun _ => d) T k = updatePlain s flag tag skip new old T k := by
  by_cases hp : (s.ms k).phase = -1
  · simp [updateSubgrid, updatePlain, Setting.toMarker, hp]
  have z : ∀ k < n, (s.ms k).phase ≠ -1 → subgrid s T (s.toMarker m0f tag) (fun _ => d) k = -ε * d := by
    intro k hk hp
    unfold subgrid
    rw [if_pos hp, hT k hk hp]; ring
  unfold updateSubgrid updatePlain
  simp only [if_pos hp]
  rw [z k hk hp]
  have := toMarker_congr ok
    (fun c => if flag c ∈ skip then 0 else gridInc skip flag new old c -
      subgridGrid s lg ex flagP T (s.toMarker m0f tag) (fun _ => d) c.toNat) (gridInc skip flag new old) tag hk hp (ε * d)
    fun c hc r hr => by
    have g := (subgridGrid_const ok lg ex flagP T (s.toMarker m0f tag) (fun _ => d) (-ε * d) z hc hr).1 (hrock c hc r hr).2
    simp only [cellNat, g]
    rw [if_neg (hrock c hc r hr).1]
    ring
  rw [this]; ring

/-- C83 (relaxation): with a factor between zero and one a marker moves towards the old grid value and not beyond. -/
theorem subgrid_moves_towards_grid (s : Setting K) (T m0 damp : Nat → K) (k : Nat) (h0 : 0 ≤ damp k) (h1 : damp k ≤ 1) :
    (T k ≤ m0 k → T k ≤ T k + subgrid s T m0 damp k ∧ T k + subgrid s T m0 damp k ≤ m0 k) ∧
    (m0 k ≤ T k → m0 k ≤ T k + subgrid s T m0 damp k ∧ T k + subgrid s T m0 damp k ≤ T k) := by
  unfold subgrid
  constructor
  · intro h
    have a := mul_nonneg (sub_nonneg.mpr h) h0
    have b := mul_le_mul_of_nonneg_left h1 (sub_nonneg.mpr h)
    split_ifs <;> constructor <;> linarith
  · intro h
    have a := mul_nonneg (sub_nonneg.mpr h) h0
    have b := mul_le_mul_of_nonneg_left h1 (sub_nonneg.mpr h)
    split_ifs <;> constructor <;> linarith

/-- C85 (switch).  With `subgrid_diffusion` 0, 1 or 2 and elasticity on, a uniform change of the grid stress reaches every
marker that carries the old grid stress; any other value of the switch silently drops the change. -/
theorem stress_change_reaches_markers {s : Setting K} {n : Nat} {xmin zmin : K} (ok : s.Ok n xmin zmin) (lg ex : K → K)
    (flagP : Int → Int) (new old : Int → K) (δ : K) (damp S : Nat → K)
    (h : ∀ c < s.fam.Nx, ∀ r < s.fam.Nz, flagP ((c : Int) + r * s.fam.Nx) ∉ ([30, 31] : List Int) ∧
      new ((c : Int) + r * s.fam.Nx) = old ((c : Int) + r * s.fam.Nx) + δ)
    (hS : ∀ k < n, (s.ms k).phase ≠ -1 → S k = s.toMarker old flagP k) {k : Nat} (hk : k < n) (hp : (s.ms k).phase ≠ -1) :
    (∀ sd, sd = 0 ∨ sd = 1 ∨ sd = 2 → updateNormalStress 1 sd s lg ex flagP new old damp S k = S k + δ) ∧
    (∀ sd, sd ≠ 0 → sd ≠ 1 → sd ≠ 2 → updateNormalStress 1 sd s lg ex flagP new old damp S k = S k) := by
  have u := plain_update_uniform ok flagP flagP [30, 31] new old δ S hk hp h
  constructor
  · rintro sd (rfl | rfl | rfl)
    · simpa [updateNormalStress, updatePlain] using u
    · simpa [updateNormalStress, updatePlain] using u
    · simp only [updateNormalStress, if_true]
      rw [if_neg (by norm_num), subgrid_update_consistent ok lg ex flagP flagP _ [30, 31] new old old damp S hS hk, u]
  · intro sd h0 h1 h2
    simp [updateNormalStress, h0, h1, h2]

/-- C83 (the routines): markers that carry the old grid temperature follow a uniform change of the grid exactly, with and
without subgrid diffusion; and so do markers that carry the old grid pressure. -/
theorem uniform_change_reaches_markers {s : Setting K} {n : Nat} {xmin zmin : K} (ok : s.Ok n xmin zmin) (lg ex : K → K)
    (flagT flagP : Int → Int) (new old : Int → K) (δ : K) (damp T : Nat → K) (sd : Int)
    (h : ∀ c < s.fam.Nx, ∀ r < s.fam.Nz, flagT ((c : Int) + r * s.fam.Nx) ≠ 30 ∧ flagP ((c : Int) + r * s.fam.Nx) ≠ 30 ∧
      new ((c : Int) + r * s.fam.Nx) = old ((c : Int) + r * s.fam.Nx) + δ)
    {k : Nat} (hk : k < n) (hp : (s.ms k).phase ≠ -1) :
    ((∀ k < n, (s.ms k).phase ≠ -1 → T k = s.toMarker old flagT k) →
      updateTemperature sd s lg ex flagT (fun c => flagP c) new old damp T k = T k + δ) ∧
    ((∀ k < n, (s.ms k).phase ≠ -1 → T k = s.toMarker old flagP k) →
      updatePressure sd s lg ex flagT flagP new old damp T k = T k + δ) := by
  have uT := plain_update_uniform ok flagT flagT [30] new old δ T hk hp
    (fun c hc r hr => ⟨by simpa using (h c hc r hr).1, (h c hc r hr).2.2⟩)
  have uP := plain_update_uniform ok flagP flagP [30] new old δ T hk hp
    (fun c hc r hr => ⟨by simpa using (h c hc r hr).2.1, (h c hc r hr).2.2⟩)
  constructor
  · intro hT
    unfold updateTemperature
    split_ifs
    · rw [subgrid_update_consistent ok lg ex flagT flagT _ [30] new old old damp T hT hk, uT]
    · exact uT
  · intro hT
    unfold updatePressure
    split_ifs
    · rw [subgrid_update_consistent ok lg ex flagP flagP _ [30] new old _ damp T ?_ hk, uP]
      intro k hk hp
      rw [hT k hk hp]
      have := toMarker_congr ok old (fun c => if flagT c = 30 then 0 else old c) flagP hk hp 0
        (fun c hc r hr => by simp only [if_neg (h c hc r hr).1, add_zero])
      rw [this, add_zero]
    · exact uP

/-- C83, C85 (which switch does what).  When the grid has not changed and the relaxations of the markers average out in
every cell, temperature stays as it is for `subgrid_diffusion` 0 and relaxes towards the grid from 1 on; pressure
stays for 0 and 1 and relaxes from 2 on; normal stresses stay for 0 and 1 and relax for 2.  Without
elasticity the stresses are never touched. -/
theorem switches {s : Setting K} {n : Nat} {xmin zmin : K} (ok : s.Ok n xmin zmin) (lg ex : K → K)
    (flagT flagP : Int → Int) (old : Int → K) (damp T : Nat → K) (sd : Int)
    (hrock : ∀ c < s.fam.Nx, ∀ r < s.fam.Nz, flagT ((c : Int) + r * s.fam.Nx) = -1 ∧ flagP ((c : Int) + r * s.fam.Nx) = -1)
    (m0 : Nat → K) (hm0 : ∀ k, m0 k = s.toMarker old flagP k ∧ s.toMarker old flagT k = s.toMarker old flagP k)
    (havg : ∀ c < s.fam.Nx, ∀ r < s.fam.Nz,
      P2M.field s.fam lg ex 0 s.ms (fun k => if (s.ms k).phase ≠ -1 then (m0 k - T k) * damp k else 0) s.ls
        (fun c => flagP c) (fun _ => 0) (c + r * s.fam.Nx) = 0)
    {k : Nat} (hk : k < n) (hp : (s.ms k).phase ≠ -1) :
    (sd ≤ 0 → updateTemperature sd s lg ex flagT (fun c => flagP c) old old damp T k = T k) ∧
    (1 ≤ sd → updateTemperature sd s lg ex flagT (fun c => flagP c) old old damp T k = T k + (m0 k - T k) * damp k) ∧
    (sd ≤ 1 → updatePressure sd s lg ex flagT flagP old old damp T k = T k) ∧
    (2 ≤ sd → updatePressure sd s lg ex (fun _ => -1) flagP old old damp T k = T k + (m0 k - T k) * damp k) ∧
    (0 ≤ sd → sd ≤ 1 → updateNormalStress 1 sd s lg ex flagP old old damp T k = T k) ∧
    (sd = 2 → updateNormalStress 1 sd s lg ex flagP old old damp T k = T k + (m0 k - T k) * damp k) ∧
    (∀ new el, el ≠ 1 → updateNormalStress el sd s lg ex flagP new old damp T k = T k) := by
  have z : ∀ skip flag, gridInc skip flag old old = fun _ => 0 := by intro skip flag; funext c; simp [gridInc]
  have plain : ∀ skip flag tag, updatePlain s flag tag skip old old T k = T k := by
    intro skip flag tag
    unfold updatePlain
    rw [z, toMarker_const s 0 tag k hp, add_zero]
  have sub : ∀ (flag tag : Int → Int) (skip : List Int) (m0f : Int → K), (∀ j, s.toMarker m0f tag j = m0 j) →
      updateSubgrid s lg ex flag tag (fun c => flagP c) skip old old m0f damp T k = T k + (m0 k - T k) * damp k := by
    intro flag tag skip m0f hm
    have hf : s.toMarker m0f tag = m0 := funext hm
    unfold updateSubgrid
    simp only [if_pos hp, hf]
    have hs : subgrid s T m0 damp = fun k => if (s.ms k).phase ≠ -1 then (m0 k - T k) * damp k else 0 := by
      funext j; unfold subgrid; split_ifs <;> ring
    have := toMarker_congr ok
      (fun c => if flag c ∈ skip then 0 else gridInc skip flag old old c -
        subgridGrid s lg ex (fun c => flagP c) T m0 damp c.toNat) (fun _ => 0) tag hk hp 0 fun c hc r hr => by
      have g := havg c hc r hr
      simp only [cellNat, subgridGrid, hs, g, z]
      simp
    rw [this, toMarker_const s 0 tag k hp, hs]
    simp only [if_pos hp]
    ring
  refine ⟨fun h => ?_, fun h => ?_, fun h => ?_, fun h => ?_, fun h0 h1 => ?_, fun h => ?_, fun new el h => ?_⟩
  · unfold updateTemperature; rw [if_neg (by omega)]; exact plain _ _ _
  · unfold updateTemperature; rw [if_pos h]
    exact sub _ _ _ _ fun j => by rw [(hm0 j).2, (hm0 j).1]
  · unfold updatePressure; rw [if_neg (by omega)]; exact plain _ _ _
  · unfold updatePressure; rw [if_pos h]
    refine sub _ _ _ _ fun j => ?_
    rw [(hm0 j).1]
    congr 1
  · have h2 : sd ≠ 2 := by omega
    have h3 : sd = 0 ∨ sd = 1 := by omega
    simp only [updateNormalStress, if_true, if_neg h2, if_pos h3]
    exact plain _ _ _
  · subst h
    simp only [updateNormalStress, if_true]
    rw [if_neg (by norm_num)]
    exact sub _ _ _ _ fun j => (hm0 j).1.symm
  · unfold updateNormalStress; rw [if_neg h]

/-- The relaxation factors lie between zero and one for positive parameters. -/
theorem damp_range {dt eta G Cp rho k dx dz : ℝ} (h1 : 0 < dt) (h2 : 0 < eta) (h3 : 0 < G) (h4 : 0 < Cp) (h5 : 0 < rho)
    (h6 : 0 < k) (h7 : 0 < dx) (h8 : 0 < dz) :
    (0 < dampS dt eta G ∧ dampS dt eta G < 1) ∧ (0 < dampP dt eta G ∧ dampP dt eta G < 1) ∧
      (0 < dampT dt Cp rho k dx dz ∧ dampT dt Cp rho k dx dz < 1) := by
  have key : ∀ x : ℝ, 0 < x → 0 < 1 - Real.exp (-1 * dt / x) ∧ 1 - Real.exp (-1 * dt / x) < 1 := by
    intro x hx
    have : -1 * dt / x < 0 := div_neg_of_neg_of_pos (by linarith) hx
    have h := Real.exp_lt_exp.mpr this
    rw [Real.exp_zero] at h
    have h' := Real.exp_pos (-1 * dt / x)
    exact ⟨by linarith, by linarith⟩
  exact ⟨key _ (by positivity), key _ (by positivity), key _ (by positivity)⟩

/-- C84.  The relaxation of temperature and stress does not depend on the characteristic units chosen in the input file. -/
theorem relaxation_independent_of_units {eta0 L0 V0 T0 : ℝ} (hE : 0 < eta0) (hL : 0 < L0) (hV : 0 < V0) (hT : 0 < T0)
    (dt eta G Cp rho k dx dz : ℝ) :
    let u := Config.scaleMe eta0 L0 V0 T0
    dampT (dt / u.t) (Cp / u.Cp) (rho / u.rho) (k / u.k) (dx / u.L) (dz / u.L) = dampT dt Cp rho k dx dz ∧
    dampS (dt / u.t) (eta / u.eta) (G / u.S) = dampS dt eta G := by
  intro u
  have hu : u = Config.scaleMe eta0 L0 V0 T0 := rfl
  have ut : u.t = L0 / V0 := rfl
  have uS : u.S = eta0 / u.t := rfl
  have tp : 0 < u.t := by rw [ut]; positivity
  have um : u.m = u.S * L0 * u.t ^ 2 := rfl
  have ur : u.rho = u.m / L0 ^ 3 := rfl
  have uJ : u.J = u.m * L0 ^ 2 / u.t ^ 2 := rfl
  have uW : u.W = u.J / u.t := rfl
  have uC : u.Cp = u.J / u.m / T0 := rfl
  have uk : u.k = u.W / L0 / T0 := rfl
  have uL : u.L = L0 := rfl
  have ue : u.eta = eta0 := rfl
  have Sp : 0 < u.S := by rw [uS]; positivity
  have mp : 0 < u.m := by rw [um]; positivity
  have Jp : 0 < u.J := by rw [uJ]; positivity
  have Wp : 0 < u.W := by rw [uW]; positivity
  have kp : 0 < u.k := by rw [uk]; positivity
  have cp : 0 < u.Cp := by rw [uC]; positivity
  have rp : 0 < u.rho := by rw [ur]; positivity
  constructor
  · unfold dampT
    congr 2
    rw [uL]
    have e1 : 1 / (dx / L0) / (dx / L0) + 1 / (dz / L0) / (dz / L0) = L0 ^ 2 * (1 / dx / dx + 1 / dz / dz) := by
      simp only [div_eq_mul_inv, mul_inv, inv_inv]; ring
    have e2 : u.Cp * u.rho * L0 ^ 2 = u.t * u.k := by
      rw [uC, ur, uk, uW]; field_simp
    rw [e1]
    generalize 1 / dx / dx + 1 / dz / dz = X
    have e3 : Cp / u.Cp * (rho / u.rho) / (k / u.k * (L0 ^ 2 * X)) = Cp * rho / (k * X) / (u.Cp * u.rho * L0 ^ 2 / u.k) := by
      simp only [div_eq_mul_inv, mul_inv, inv_inv]; ring
    rw [e3, e2, mul_div_cancel_right₀ _ (ne_of_gt kp)]
    generalize Cp * rho / (k * X) = Y
    by_cases hY : Y = 0
    · simp [hY]
    · field_simp
  · unfold dampS
    congr 2
    have e : eta / u.eta / (G / u.S) = eta / G / u.t := by
      have : u.S / u.eta = 1 / u.t := by rw [uS, ue]; field_simp
      calc eta / u.eta / (G / u.S) = eta / G * (u.S / u.eta) := by
            simp only [div_eq_mul_inv, mul_inv, inv_inv]; ring
        _ = _ := by rw [this]; ring
    rw [e]
    generalize eta / G = Y
    by_cases hY : Y = 0
    · simp [hY]
    · field_simp

/-- C84 is false for pressure: the relaxation time is the viscosity *divided* by the compressibility, so the relaxation of
the same model differs between any two choices of units with different stress units. -/
theorem pressure_relaxation_depends_on_units {eta0 L0 V0 T0 eta1 L1 V1 T1 : ℝ} (hE : 0 < eta0) (hL : 0 < L0) (hV : 0 < V0)
    (hE1 : 0 < eta1) (hL1 : 0 < L1) (hV1 : 0 < V1) {dt eta bet : ℝ} (hdt : 0 < dt) (he : 0 < eta) (hb : 0 < bet) :
    let u := Config.scaleMe eta0 L0 V0 T0
    let v := Config.scaleMe eta1 L1 V1 T1
    dampP (dt / u.t) (eta / u.eta) (bet * u.S) = dampP (dt / v.t) (eta / v.eta) (bet * v.S) ↔ u.S = v.S := by
  intro u v
  have key : ∀ e L V T : ℝ, 0 < e → 0 < L → 0 < V →
      dampP (dt / (Config.scaleMe e L V T).t) (eta / (Config.scaleMe e L V T).eta) (bet * (Config.scaleMe e L V T).S) =
        1 - Real.exp (-(dt * bet / eta * (Config.scaleMe e L V T).S ^ 2)) ∧ 0 < (Config.scaleMe e L V T).S := by
    intro e L V T h1 h2 h3
    have hS : (Config.scaleMe e L V T).S = e / (L / V) := rfl
    have ht : (Config.scaleMe e L V T).t = L / V := rfl
    have hh : (Config.scaleMe e L V T).eta = e := rfl
    constructor
    · unfold dampP
      rw [hS, ht, hh]
      congr 2
      field_simp
    · rw [hS]; positivity
  obtain ⟨a1, a2⟩ := key eta0 L0 V0 T0 hE hL hV
  obtain ⟨b1, b2⟩ := key eta1 L1 V1 T1 hE1 hL1 hV1
  rw [a1, b1]
  constructor
  · intro h
    have h' : Real.exp (-(dt * bet / eta * u.S ^ 2)) = Real.exp (-(dt * bet / eta * v.S ^ 2)) := by linarith
    have h2 := Real.exp_injective h'
    have c : 0 < dt * bet / eta := by positivity
    have h3 : u.S ^ 2 = v.S ^ 2 := by
      have : dt * bet / eta * u.S ^ 2 = dt * bet / eta * v.S ^ 2 := by linarith
      exact mul_left_cancel₀ (ne_of_gt c) this
    exact (pow_left_inj₀ a2.le b2.le (by norm_num)).mp h3
  · intro h
    show 1 - Real.exp (-(dt * bet / eta * u.S ^ 2)) = 1 - Real.exp (-(dt * bet / eta * v.S ^ 2))
    rw [h]

/-- A setting with two by two cells, an active marker in each cell and two threads. -/
def demoSetting : Setting ℚ where
  fam := ⟨2, 2, fun j => j + 1 / 2, fun j => j + 1 / 2, 1, 1, false, 1, false⟩
  periodic := false
  junk := ⟨0, 0, 0, 0⟩
  xe := fun j => j - 1 / 2
  ze := fun j => j - 1 / 2
  ms := fun k => ⟨if k % 2 = 0 then 1 / 2 else 3 / 2, if k < 2 then 1 / 2 else 3 / 2, 0⟩
  ls := [[1, 0], [2, 3]]

/-- Non-vacuity: the hypotheses of the update theorems, with every cell fed. -/
example : demoSetting.Ok 4 0 0 ∧ ∀ c < 2, ∀ r < 2, P2M.Fed demoSetting.fam demoSetting.ms 4 (fun _ => -1) c r := by
  refine ⟨⟨?_, ?_, by unfold Distribution; decide, by decide, rfl⟩, ?_⟩
  · intro k hk _
    interval_cases k <;> exact ⟨by decide, by decide, by norm_num [demoSetting], by norm_num [demoSetting],
      fun j => by simp only [demoSetting]; ring, fun j => by simp only [demoSetting]; ring,
      by norm_num [demoSetting], by norm_num [demoSetting], by norm_num [demoSetting], by norm_num [demoSetting]⟩
  · refine ⟨Or.inl rfl, by decide, by decide, by norm_num [demoSetting], by norm_num [demoSetting],
      fun j => by simp only [demoSetting]; ring, fun j => by simp only [demoSetting]; ring, ?_, ?_⟩
    · intro k hk _
      interval_cases k <;> norm_num [demoSetting]
    · intro k hk _
      interval_cases k <;> norm_num [demoSetting]
  · unfold P2M.Fed
    decide +kernel

/-- Two markers in every cell, at the same place. -/
def pairSetting : Setting ℚ := { demoSetting with
  ms := fun k => demoSetting.ms (k / 2)
  ls := [[1, 0, 5], [2, 3, 4, 7, 6]] }

/-- Non-vacuity of `switches`: grid at zero, the two markers of a cell deviate by plus and minus one; with
the switch at 1 each goes half way. -/
example : updateTemperature 1 pairSetting id id (fun _ => -1) (fun _ => -1) (fun _ => 0) (fun _ => 0) (fun _ => 1 / 2)
    (fun k => if k % 2 = 0 then 1 else -1) 4 = 1 / 2 := by
  have ok : pairSetting.Ok 8 0 0 := by
    refine ⟨?_, ?_, by unfold Distribution; decide, by decide, rfl⟩
    · intro k hk _
      interval_cases k <;> exact ⟨by decide, by decide, by norm_num [pairSetting, demoSetting], by norm_num [pairSetting, demoSetting],
        fun j => by simp only [pairSetting, demoSetting]; ring, fun j => by simp only [pairSetting, demoSetting]; ring,
        by norm_num [pairSetting, demoSetting], by norm_num [pairSetting, demoSetting], by norm_num [pairSetting, demoSetting],
        by norm_num [pairSetting, demoSetting]⟩
    · refine ⟨Or.inl rfl, by decide, by decide, by norm_num [pairSetting, demoSetting], by norm_num [pairSetting, demoSetting],
        fun j => by simp only [pairSetting, demoSetting]; ring, fun j => by simp only [pairSetting, demoSetting]; ring, ?_, ?_⟩
      · intro k hk _
        interval_cases k <;> norm_num [pairSetting, demoSetting]
      · intro k hk _
        interval_cases k <;> norm_num [pairSetting, demoSetting]
  have act : ∀ k, (pairSetting.ms k).phase ≠ -1 := fun k => by simp [pairSetting, demoSetting]
  have c0 : ∀ tag k, pairSetting.toMarker (fun _ => 0) tag k = 0 := fun tag k => toMarker_const _ 0 tag k (act k)
  have := (switches ok id id (fun _ => -1) (fun _ => -1) (fun _ => 0) (fun _ => 1 / 2) (fun k => if k % 2 = 0 then 1 else -1) 1
    (fun _ _ _ _ => ⟨rfl, rfl⟩) (fun _ => 0) (fun k => ⟨(c0 _ k).symm, rfl⟩) (by decide +kernel)
    (show 4 < 8 by norm_num) (act 4)).2.1 (le_refl 1)
  rw [this]; norm_num

/-- Non-vacuity: two unit systems with different stress units. -/
example : (Config.scaleMe (1e22 : ℝ) 1e4 1e-9 1e2).S ≠ (Config.scaleMe (1e20 : ℝ) 1e4 1e-9 1e2).S := by
  norm_num [Config.scaleMe]

end Verif.Hist
