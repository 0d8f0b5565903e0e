import Verif.Model.Flagging
import Verif.Props.Surface

/-
C58: consistency of the air/rock flags.
-/
set_option linter.unusedSectionVars false
set_option linter.unusedVariables false
namespace Verif.Flag
open Verif

variable {K : Type*} [Field K] [LinearOrder K]

theorem raw_cases (g : In K) (i j : Nat) : raw g i j = 30 ∨ raw g i j = -1 := by
  unfold raw; split_ifs <;> simp

theorem layer_cases (g : In K) (i j : Nat) : layer g i j = 60 ∨ layer g i j = 30 ∨ layer g i j = -1 := by
  unfold layer
  split_ifs
  · simp
  · rcases raw_cases g i j with h | h <;> simp [h]

theorem layer_raw (g : In K) (i j : Nat) : (layer g i j = -1 → raw g i j = -1) ∧ (layer g i j = 30 → raw g i j = 30) := by
  unfold layer
  split_ifs
  · constructor <;> intro h <;> norm_num at h
  · exact ⟨id, id⟩

theorem lateral_cases (g : In K) (i j : Nat) : lateral g i j = 60 ∨ lateral g i j = 30 ∨ lateral g i j = -1 := by
  unfold lateral
  have := layer_cases g i j
  simp only
  split_ifs <;> simp [this]

theorem lateral_layer (g : In K) (i j : Nat) : (lateral g i j = -1 → layer g i j = -1) ∧ (lateral g i j = 30 → layer g i j = 30) := by
  unfold lateral
  simp only
  split_ifs <;> first | exact ⟨id, id⟩ | (constructor <;> intro h <;> norm_num at h)

/-- A cell tagged solved or free air was tagged so from its own centre. -/
theorem pv_raw (g : In K) (i j : Nat) (hi : i ≤ g.ncx) : (pv g i j = -1 → raw g i j = -1) ∧ (pv g i j = 30 → raw g i j = 30) := by
  unfold pv
  rw [if_neg (by omega)]
  exact ⟨fun h => (layer_raw g i j).1 ((lateral_layer g i j).1 h), fun h => (layer_raw g i j).2 ((lateral_layer g i j).2 h)⟩

theorem pv_cases (g : In K) (i j : Nat) : pv g i j = 60 ∨ pv g i j = 30 ∨ pv g i j = -1 := by
  unfold pv; split_ifs <;> exact lateral_cases g _ _

theorem bcp_iff (g : In K) (i j : Nat) : (bcp g i j = -1 ↔ pv g (i + 1) (j + 1) = -1) ∧ (bcp g i j = 30 ↔ pv g (i + 1) (j + 1) = 30) ∧
    (bcp g i j = 31 ↔ pv g (i + 1) (j + 1) = 60) := by
  unfold bcp
  rcases pv_cases g (i + 1) (j + 1) with h | h | h <;> simp [h]

/-- **C58, faces.**  The four velocity nodes around a solved pressure cell are in rock, and the cell's
temperature is solved too (temperature is solved exactly in the cells whose pressure is). -/
theorem solved_cell_faces (g : In K) (hx : 2 ≤ g.ncx) (i j : Nat) (hi : i < g.ncx) (hj : j < g.ncz) (h : bcp g i j = -1) :
    bcu g i (j + 1) = -1 ∧ bcu g (i + 1) (j + 1) = -1 ∧ bcv g (i + 1) j = -1 ∧ bcv g (i + 1) (j + 1) = -1 := by
  have hp := (bcp_iff g i j).1.mp h
  have uE : u0 g (i + 1) (j + 1) = -1 := by
    unfold u0; rw [if_pos (Or.inl ⟨by omega, hp⟩)]
  have uW : u0 g i (j + 1) = -1 := by
    unfold u0; rw [if_pos (Or.inr ⟨by omega, hp⟩)]
  have vN : v0 g (i + 1) (j + 1) = -1 := by
    unfold v0; rw [if_pos (Or.inl ⟨by omega, hp⟩)]
  have vS : v0 g (i + 1) j = -1 := by
    unfold v0; rw [if_pos (Or.inr ⟨by omega, hp⟩)]
  refine ⟨?_, ?_, ?_, ?_⟩
  · unfold bcu
    simp only
    rw [if_neg (by omega)]
    split_ifs with h0
    · subst h0; exact uE
    · exact uW
  · unfold bcu
    simp only
    by_cases h0 : i + 1 = g.ncx
    · rw [if_pos h0, if_neg (by omega), show g.ncx - 1 = i by omega]; exact uW
    · rw [if_neg h0, if_neg (by omega)]; exact uE
  · unfold bcv
    simp only
    rw [if_neg (by omega), if_neg (by omega)]
    exact vS
  · unfold bcv
    simp only
    rw [if_neg (by omega), if_neg (by omega)]
    exact vN

theorem temperature_with_pressure (g : In K) (i j : Nat) : (bct g i j = -1 ↔ bcp g i j = -1) ∧ (bct g i j = -1 ∨ bct g i j = 30) := by
  unfold bct
  rw [(bcp_iff g i j).1]
  rcases pv_cases g (i + 1) (j + 1) with h | h | h <;> simp [h]

/-- **C58, velocities.**  A velocity node in rock touches a solved cell of the extended grid (cells plus one ghost
layer), except possibly on the side columns. -/
theorem rock_velocity_has_cell_partial (g : In K) (hx : 2 ≤ g.ncx) :
    (∀ i j, 1 ≤ i → i < g.ncx → j < g.ncz + 2 → bcu g i j = -1 → pv g i j = -1 ∨ pv g (i + 1) j = -1) ∧
    (∀ i j, 1 ≤ i → i < g.ncx + 1 → j < g.ncz + 1 → bcv g i j = -1 → pv g i j = -1 ∨ pv g i (j + 1) = -1) := by
  constructor
  · intro i j h1 h2 h3 h
    unfold bcu at h
    simp only at h
    rw [if_neg (by omega), if_neg (by omega)] at h
    unfold u0 at h
    split_ifs at h with hc
    · rcases hc with hc | hc
      · exact Or.inl hc.2
      · exact Or.inr hc.2
  · intro i j h1 h2 h3 h
    unfold bcv at h
    simp only at h
    rw [if_neg (by omega), if_neg (by omega)] at h
    unfold v0 at h
    split_ifs at h with hc
    · rcases hc with hc | hc
      · exact Or.inl hc.2
      · exact Or.inr hc.2

/-- **C58, above and below the surface.**  A cell is solved only if its centre is not above the surface, and is free air
only if its centre is above; cells of the first layer above the surface carry tag 31.  `x` and `z` are the
coordinates of the cell centre. -/
theorem cell_above_surface [IsStrictOrderedRing K] [FloorRing K] (g : In K) (dx : K) (hdx : 0 < dx) (xg h : Nat → K)
    (hxg : Surf.Even g.ncx dx xg) (ab : (Nat → K) × (Nat → K)) (hab : g.ab = Surf.polyFit g.ncx dx xg h ab)
    (hxv : ∀ i < g.ncx, g.xvz (i + 1) = xg i + dx / 2) (i j : Nat) (hi : i < g.ncx) (hj : j < g.ncz) (y : K)
    (hy : Surf.OnPolyline g.ncx xg h (g.xvz (i + 1)) y) :
    (bcp g i j = -1 → g.zvx (j + 1) ≤ y) ∧ (bcp g i j = 30 → y < g.zvx (j + 1)) ∧
    (bcp g i j = -1 ∨ bcp g i j = 30 ∨ bcp g i j = 31) := by
  have htop : g.top (i + 1) = y := by
    unfold In.top
    rw [if_neg (by omega), if_neg (by omega), Nat.add_sub_cancel, hab]
    have hs := Surf.step_eq g.ncx dx xg hxg i hi
    have := ((Surf.surface_polyline g.ncx dx hdx xg h hxg ab).2.2 i hi (g.xvz (i + 1)) (by rw [hxv i hi]; linarith)
      (by rw [hxv i hi]; linarith)).1
    exact Surf.polyline_unique g.ncx dx hdx xg h hxg _ _ _ this hy
  refine ⟨fun hb => ?_, fun hb => ?_, ?_⟩
  · have := (pv_raw g (i + 1) (j + 1) (by omega)).1 ((bcp_iff g i j).1.mp hb)
    unfold raw at this
    rw [htop] at this
    split_ifs at this with hc
    · exact not_lt.mp hc
  · have := (pv_raw g (i + 1) (j + 1) (by omega)).2 ((bcp_iff g i j).2.1.mp hb)
    unfold raw at this
    rw [htop] at this
    split_ifs at this with hc
    · exact hc
  · unfold bcp
    rcases pv_cases g (i + 1) (j + 1) with h | h | h <;> simp [h]

theorem raw_mono (g : In K) (hz : ∀ a b, a ≤ b → g.zvx a ≤ g.zvx b) (i a b : Nat) (hab : a ≤ b) (h : raw g i b = -1) : raw g i a = -1 := by
  unfold raw at h ⊢
  split_ifs at h with hb
  · rw [if_neg]
    intro hc
    exact hb (lt_of_lt_of_le hc (hz a b hab))

/-- **C58, separation.**  A solved cell is never next to a free-air cell: the neighbours of a solved cell (east, west,
above, below, inside the grid) are solved or belong to the first layer above the surface. -/
theorem solved_cell_neighbours (g : In K) (hz : ∀ a b, a ≤ b → g.zvx a ≤ g.zvx b) (i j : Nat) (hi : i < g.ncx) (hj : j < g.ncz)
    (h : bcp g i j = -1) :
    (i + 1 < g.ncx → bcp g (i + 1) j ≠ 30) ∧ (1 ≤ i → bcp g (i - 1) j ≠ 30) ∧
    (j + 1 < g.ncz → bcp g i (j + 1) ≠ 30) ∧ (1 ≤ j → bcp g i (j - 1) ≠ 30) := by
  have hp := (bcp_iff g i j).1.mp h
  have hlay : layer g (i + 1) (j + 1) = -1 := by
    unfold pv at hp
    rw [if_neg (by omega)] at hp
    exact (lateral_layer g _ _).1 hp
  have hraw := (layer_raw g (i + 1) (j + 1)).1 hlay
  refine ⟨fun hb hc => ?_, fun hb hc => ?_, fun hb hc => ?_, fun hb hc => ?_⟩
  · have hpc := (bcp_iff g (i + 1) j).2.1.mp hc
    unfold pv at hpc
    rw [if_neg (by omega)] at hpc
    have hlc := (lateral_layer g _ _).2 hpc
    unfold lateral at hpc
    rw [if_pos (by omega)] at hpc
    simp only [hlc, show i + 1 + 1 - 1 = i + 1 by omega, hlay] at hpc
    rcases layer_cases g (i + 1 + 1 + 1) (j + 1) with e | e | e <;> simp [e] at hpc
  · have hpc := (bcp_iff g (i - 1) j).2.1.mp hc
    rw [show i - 1 + 1 = i by omega] at hpc
    unfold pv at hpc
    rw [if_neg (by omega)] at hpc
    have hlc := (lateral_layer g _ _).2 hpc
    unfold lateral at hpc
    rw [if_pos (by omega)] at hpc
    simp only [hlc, hlay] at hpc
    rcases layer_cases g (i - 1) (j + 1) with e | e | e <;> simp [e] at hpc
  · have hpc := (bcp_iff g i (j + 1)).2.1.mp hc
    unfold pv at hpc
    rw [if_neg (by omega)] at hpc
    have hlc := (lateral_layer g _ _).2 hpc
    unfold layer at hlc
    rw [show j + 1 + 1 - 1 = j + 1 by omega, hraw] at hlc
    split_ifs at hlc with hne
    · norm_num at hlc
    · exact hne ⟨by omega, by rw [hlc]; norm_num⟩
  · have := (pv_raw g (i + 1) (j - 1 + 1) (by omega)).2 ((bcp_iff g i (j - 1)).2.1.mp hc)
    have hlow := raw_mono g hz (i + 1) (j - 1 + 1) (j + 1) (by omega) hraw
    rw [this] at hlow
    norm_num at hlow

/-- **C58, vertices.**  An interior vertex surrounded by four solved cells is in rock, as is a vertex of the side
columns between two solved cells. -/
theorem vertex_in_rock (g : In K) (hx : 2 ≤ g.ncx) (j : Nat) (hj : 0 < j) (hj' : j < g.ncz) :
    (∀ i, 0 < i → i < g.ncx → (∀ a ∈ [i - 1, i], ∀ b ∈ [j - 1, j], bcp g a b = -1) → bcg g i j = -1) ∧
    ((∀ b ∈ [j - 1, j], bcp g 0 b = -1) → bcg g 0 j = -1) ∧
    ((∀ b ∈ [j - 1, j], bcp g (g.ncx - 1) b = -1) → bcg g g.ncx j = -1) := by
  have c0 : ∀ i j, g0 g i j = -1 ∨ g0 g i j = 30 := by intro i j; unfold g0; split_ifs <;> simp
  have c1 : ∀ i j, g1 g i j = -1 ∨ g1 g i j = 30 := by
    intro i j; unfold g1; split_ifs
    · simp
    · exact c0 i j
  have c2 : ∀ i j, g2 g i j = -1 ∨ g2 g i j = 30 := by
    intro i
    cases i with
    | zero => intro j; exact c1 0 j
    | succ i =>
      intro j; unfold g2; split_ifs
      · simp
      · exact c1 _ j
  have c3 : ∀ i j, g3 g i j = -1 ∨ g3 g i j = 30 := by
    intro i j; unfold g3; split_ifs
    · simp
    · exact c2 i j
  refine ⟨fun i h0 h1 hall => ?_, fun hall => ?_, fun hall => ?_⟩
  · have a := hall (i - 1) (by simp) j (by simp)
    have b := hall (i - 1) (by simp) (j - 1) (by simp)
    have c := hall i (by simp) j (by simp)
    have d := hall i (by simp) (j - 1) (by simp)
    unfold bcg
    simp only [a, b, c, d, and_self, if_true]
    rcases c3 i j with e | e <;> simp [e, h0, h1, hj, hj']
  · have c := hall j (by simp)
    have d := hall (j - 1) (by simp)
    unfold bcg
    simp only [c, d, and_self, if_true, lt_irrefl, false_and, if_false, true_and]
    rw [if_neg (show ¬ (0 = g.ncx ∧ _) from fun hc => by omega)]
    rcases c3 0 j with e | e <;> simp [e, hj, hj', show 0 < g.ncx by omega]
  · have c := hall j (by simp)
    have d := hall (j - 1) (by simp)
    unfold bcg
    simp only [c, d, and_self, if_true, lt_irrefl, false_and, and_false, if_false, true_and]
    rcases c3 g.ncx j with e | e <;> simp [e, hj, hj']

/-- **C58, vertices, converse.**  An active vertex away from the side columns and the first and last row is surrounded by four
solved cells, or it lies at least one grid row below the surface in its own column and in both neighbouring columns. -/
theorem active_vertex_reason (g : In K) (i j : Nat) (hi : 0 < i) (hi' : i < g.ncx) (hj : 0 < j) (hj' : j < g.ncz)
    (h : bcg g i j = -1) :
    (∀ a ∈ [i - 1, i], ∀ b ∈ [j - 1, j], bcp g a b = -1) ∨ (∀ a ∈ [i - 1, i, i + 1], g.zg (j + 1) ≤ g.h a) := by
  have c0 : ∀ i j, g0 g i j = -1 ∨ g0 g i j = 30 := by intro i j; unfold g0; split_ifs <;> simp
  have c1 : ∀ i j, g1 g i j = -1 ∨ g1 g i j = 30 := by
    intro i j; unfold g1; split_ifs
    · simp
    · exact c0 i j
  have c2 : ∀ i j, g2 g i j = -1 ∨ g2 g i j = 30 := by
    intro i
    cases i with
    | zero => intro j; exact c1 0 j
    | succ i =>
      intro j; unfold g2; split_ifs
      · simp
      · exact c1 _ j
  have c3 : ∀ i j, g3 g i j = -1 ∨ g3 g i j = 30 := by
    intro i j; unfold g3; split_ifs
    · simp
    · exact c2 i j
  have below : ∀ a, g2 g a j = -1 → g.zg (j + 1) ≤ g.h a := by
    intro a ha
    have h1 : g1 g a j = -1 := by
      cases a with
      | zero => exact ha
      | succ a =>
        unfold g2 at ha
        split_ifs at ha
        exact ha
    unfold g1 at h1
    split_ifs at h1 with hc
    have h0 : g0 g a (j + 1) ≠ 30 := fun e => hc ⟨hj', h1, e⟩
    unfold g0 at h0
    split_ifs at h0 with hz
    · exact absurd rfl h0
    · exact not_lt.mp hz
  rcases c3 i j with e | e
  · right
    have e2 : g2 g i j = -1 := by
      unfold g3 at e
      split_ifs at e
      exact e
    have eE : g2 g (i + 1) j = -1 := by
      rcases c2 (i + 1) j with q | q
      · exact q
      · unfold g3 at e
        rw [if_pos ⟨hi', e2, q⟩] at e
        norm_num at e
    have eW : g2 g (i - 1) j = -1 := by
      rcases c2 (i - 1) j with q | q
      · exact q
      · obtain ⟨a, rfl⟩ : ∃ a, i = a + 1 := ⟨i - 1, by omega⟩
        rw [Nat.add_sub_cancel] at q
        unfold g2 at e2
        split_ifs at e2 with hcc
        exact absurd ⟨e2, q⟩ hcc
    intro a ha
    simp only [List.mem_cons, List.not_mem_nil, or_false] at ha
    rcases ha with rfl | rfl | rfl
    · exact below _ eW
    · exact below _ e2
    · exact below _ eE
  · left
    unfold bcg at h
    simp only [e, hi, hi', hj, hj', true_and, and_true, if_true, show ¬ (i = 0) by omega, show ¬ (i = g.ncx) by omega, false_and,
      if_false] at h
    split_ifs at h with hc
    intro a ha b hb
    simp only [List.mem_cons, List.not_mem_nil, or_false] at ha hb
    rcases ha with rfl | rfl <;> rcases hb with rfl | rfl <;> tauto

/-! ### Examples -/

/-- Four by five unit cells, box from 0 to 4 and from -4 to 1, with a given nodal profile. -/
def demoIn (h : Nat → ℚ) : In ℚ :=
  ⟨4, 5, fun i => i - 1 / 2, fun j => -4 + j - 1 / 2, fun j => -4 + j, Surf.polyFit 4 1 (fun j => (j : ℚ)) h (fun _ => 0, fun _ => 0), h⟩

/-- A hill: heights -2, -1, 0, -1, -2. -/
def hill : Nat → ℚ := fun i => [-2, -1, 0, -1, -2].getD i 0

/-- Rows from bottom to top. -/
example : (List.range 5).map (fun j => (List.range 4).map fun i => bcp (demoIn hill) i j) =
    [[-1, -1, -1, -1], [-1, -1, -1, -1], [-1, -1, -1, -1], [31, -1, -1, 31], [30, 31, 31, 30]] := by decide +kernel

/-- **C58 fails on the side columns**: with a ramp falling to the west, a node of the western side column is tagged rock
although neither adjacent cell of the extended grid is solved (the tag is copied from the next column). -/
theorem side_velocity_without_cell :
    let g := demoIn fun i => [-3, -2, 0, 0, 0].getD i 0
    bcu g 0 3 = -1 ∧ pv g 0 3 ≠ -1 ∧ pv g 1 3 ≠ -1 := by decide +kernel

/-- Both reasons occur: below the hill an active vertex two rows under the surface, and one next to the surface between
four solved cells. -/
example : bcg (demoIn hill) 2 1 = -1 ∧ bcg (demoIn hill) 2 3 = -1 ∧ ¬ (demoIn hill).zg 4 ≤ (demoIn hill).h 1 := by decide +kernel

end Verif.Flag
