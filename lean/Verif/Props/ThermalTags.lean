import Verif.Props.Thermal

/-
Boundary tags made by SetBCs meet the hypotheses of Props/Thermal; chemical diffusion; concrete cases; what goes wrong on
periodic sides with unequal conductivity, at a periodic side facing air, and with a prescribed bottom flux.
-/
set_option linter.unusedSectionVars false
set_option linter.unusedSimpArgs false
namespace Verif.Heat
open Verif Finset

variable {K : Type*} [Field K] [LinearOrder K] [IsStrictOrderedRing K]

/-- Tag of a cell after `SetBCs`: the callback's at a cell below air, the cell array's elsewhere. -/
def wanted (ncx ncz : Nat) (tt : Nat → Int) (cb : Pos → Nat → Nat → Int × K) (k l : Nat) : Int :=
  if l + 1 < ncz ∧ (tt (k + l * ncx) = -1 ∨ tt (k + l * ncx) = 1 ∨ tt (k + l * ncx) = 0) ∧
      tt (k + (l + 1) * ncx) = 30 then (cb .freeSurface k l).1 else tt (k + l * ncx)

theorem setBCT1_spec (ncx ncz : Nat) (tt : Nat → Int) (cb : Pos → Nat → Nat → Int × K)
    (s : (Nat → Int) × (Nat → K)) {k l k' l' : Nat} (hk : k < ncx) (hl : l < ncz) (hk' : k' < ncx) (hl' : l' < ncz) :
    (setBCT1 ncx ncz tt cb s k l).1 ((k' + 1) + (l' + 1) * (ncx + 2)) =
      if k' = k ∧ l' = l then wanted ncx ncz tt cb k l else s.1 ((k' + 1) + (l' + 1) * (ncx + 2)) := by
  have hW : k = 0 → (k' + 1) + (l' + 1) * (ncx + 2) ≠ (k + 1) + (l + 1) * (ncx + 2) - 1 := by
    rintro rfl h
    have : (0 + 1) + (l + 1) * (ncx + 2) - 1 = 0 + (l + 1) * (ncx + 2) := by omega
    rw [this, cell_inj (by omega) (by omega)] at h
    omega
  have hE : k + 1 = ncx → (k' + 1) + (l' + 1) * (ncx + 2) ≠ (k + 1) + (l + 1) * (ncx + 2) + 1 := by
    intro hk1 h
    have : (k + 1) + (l + 1) * (ncx + 2) + 1 = (k + 2) + (l + 1) * (ncx + 2) := by omega
    rw [this, cell_inj (by omega) (by omega)] at h
    omega
  have hS : l = 0 → (k' + 1) + (l' + 1) * (ncx + 2) ≠ (k + 1) + (l + 1) * (ncx + 2) - (ncx + 2) := by
    rintro rfl h
    have : (k + 1) + (0 + 1) * (ncx + 2) - (ncx + 2) = (k + 1) + 0 * (ncx + 2) := by omega
    rw [this, cell_inj (by omega) (by omega)] at h
    omega
  have hN : l + 1 = ncz → (k' + 1) + (l' + 1) * (ncx + 2) ≠ (k + 1) + (l + 1) * (ncx + 2) + (ncx + 2) := by
    intro hl1 h
    have : (k + 1) + (l + 1) * (ncx + 2) + (ncx + 2) = (k + 1) + (l + 2) * (ncx + 2) := by ring
    rw [this, cell_inj (by omega) (by omega)] at h
    omega
  have hup : ∀ (c : Prop) [Decidable c] (i : Nat) (t : Int) (v : K) (s : (Nat → Int) × (Nat → K)) (j : Nat), (c → j ≠ i) →
      (if c then (upd s.1 i t, upd s.2 i v) else s).1 j = s.1 j := by
    intro c _ i t v s j h
    split_ifs with hc
    · exact upd_ne _ _ (h hc)
    · rfl
  have hup' : ∀ (c : Prop) [Decidable c] (i : Nat) (t : Int) (v : K) (a : Nat → Int) (b : Nat → K) (j : Nat), (c → j ≠ i) →
      (if c then (upd a i t, upd b i v) else (a, b)).1 j = a j := fun c _ i t v a b j h => hup c i t v (a, b) j h
  have hc0 : (k' + 1) + (l' + 1) * (ncx + 2) = (k + 1) + (l + 1) * (ncx + 2) ↔ k' = k ∧ l' = l := by
    rw [cell_inj (by omega) (by omega)]; omega
  have hnx : k + l * ncx + ncx = k + (l + 1) * ncx := by ring
  unfold setBCT1 wanted
  simp only [hnx]
  by_cases h30 : tt (k + l * ncx) = 30
  · simp only [h30, ne_eq, not_true_eq_false, if_false]
    have : ¬ (l + 1 < ncz ∧ ((30 : Int) = -1 ∨ (30 : Int) = 1 ∨ (30 : Int) = 0) ∧ tt (k + (l + 1) * ncx) = 30) := by
      norm_num
    rw [if_neg this]
    by_cases hh : k' = k ∧ l' = l
    · rw [if_pos hh, hc0.2 hh, upd_same]
    · rw [if_neg hh, upd_ne _ _ (fun h => hh (hc0.1 h))]
  · simp only [h30, ne_eq, not_false_eq_true, if_true]
    by_cases hh : k' = k ∧ l' = l
    · rw [if_pos hh]
      by_cases hf : l + 1 < ncz ∧ (tt (k + l * ncx) = -1 ∨ tt (k + l * ncx) = 1 ∨ tt (k + l * ncx) = 0) ∧
          tt (k + (l + 1) * ncx) = 30
      · rw [if_pos hf, if_pos hf]
        simp only
        rw [hc0.2 hh, upd_same]
      · rw [if_neg hf, if_neg hf, hup _ _ _ _ _ _ hN, hup _ _ _ _ _ _ hS, hup _ _ _ _ _ _ hE,
          hup' _ _ _ _ _ _ _ hW, hc0.2 hh, upd_same]
    · rw [if_neg hh]
      rw [hup _ _ _ _ _ _ (fun _ h => hh (hc0.1 h)), hup _ _ _ _ _ _ hN, hup _ _ _ _ _ _ hS,
        hup _ _ _ _ _ _ hE, hup' _ _ _ _ _ _ _ hW, upd_ne _ _ (fun h => hh (hc0.1 h))]

theorem setBCT_spec (ncx ncz : Nat) (tt : Nat → Int) (cb : Pos → Nat → Nat → Int × K)
    (s : (Nat → Int) × (Nat → K)) {k l : Nat} (hk : k < ncx) (hl : l < ncz) :
    (setBCT ncx ncz tt cb s).1 ((k + 1) + (l + 1) * (ncx + 2)) = wanted ncx ncz tt cb k l := by
  have key : ∀ m, m ≤ ncz → ∀ k' < ncx, ∀ l' < m,
      (forUp m s fun s l => forUp ncx s fun s k => setBCT1 ncx ncz tt cb s k l).1
        ((k' + 1) + (l' + 1) * (ncx + 2)) = wanted ncx ncz tt cb k' l' := by
    intro m
    induction m with
    | zero => intro _ k' _ l' h; omega
    | succ m ih =>
      intro hm k' hk' l' hl'
      rw [forUp_succ]
      have row : ∀ n, n ≤ ncx → ∀ k' < ncx, ∀ l' < ncz, ∀ s : (Nat → Int) × (Nat → K),
          (forUp n s fun s k => setBCT1 ncx ncz tt cb s k m).1 ((k' + 1) + (l' + 1) * (ncx + 2)) =
            if k' < n ∧ l' = m then wanted ncx ncz tt cb k' l' else s.1 ((k' + 1) + (l' + 1) * (ncx + 2)) := by
        intro n
        induction n with
        | zero => intro _ k' _ l' _ s; simp
        | succ n ihn =>
          intro hn k' hk' l' hl' s
          rw [forUp_succ, setBCT1_spec ncx ncz tt cb _ (by omega) (by omega) hk' hl', ihn (by omega) k' hk' l' hl' s]
          by_cases h1 : k' = n ∧ l' = m
          · obtain ⟨rfl, rfl⟩ := h1
            simp
          · rw [if_neg h1]
            by_cases h2 : k' < n ∧ l' = m
            · rw [if_pos h2, if_pos ⟨by omega, h2.2⟩]
            · rw [if_neg h2, if_neg (by omega)]
      rw [row ncx (le_refl _) k' hk' l' (by omega)]
      by_cases h : l' = m
      · rw [if_pos ⟨hk', h⟩]
      · rw [if_neg (by omega), ih (by omega) k' hk' l' (by omega)]
  exact key ncz (le_refl _) k hk l hl

/-- The tags `SetBCs` makes agree with the cell tags about the air, as long as the callback does not return
the air tag for the free surface. -/
theorem setBCT_tags_agree (p : Par K) (cb : Pos → Nat → Nat → Int × K) (s : (Nat → Int) × (Nat → K))
    (hcb : ∀ k l, (cb .freeSurface k l).1 ≠ 30) (hte : p.te = (setBCT p.ncx p.ncz p.tt cb s).1) : TagsAgree p := by
  intro k hk l hl
  have h := setBCT_spec p.ncx p.ncz p.tt cb s hk hl
  rw [hte]
  unfold Par.ext
  rw [h]
  unfold wanted
  split_ifs with h1
  · have : p.tt (k + l * p.ncx) ≠ 30 := by
      rcases h1.2.1 with h2 | h2 | h2 <;> rw [h2] <;> norm_num
    exact ⟨fun h3 => absurd h3 this, fun h3 => absurd h3 (hcb k l)⟩
  · exact Iff.rfl

/-! ### Chemical diffusion -/

/-- The chemical matrix is the heat matrix of the same coefficients. -/
theorem matrixChem_eq (p : Par K) (ht : TagsAgree p) (junk : ThBuf K) : matrixChem p junk = matrix p junk := by
  unfold matrixChem matrix
  have : ∀ (f : Nat → Nat) (g : Nat → List (Int × K)) (s : ThBuf K),
      forUp (p.ncx * p.ncz) s (assembleRow p.activeChem f g) = forUp (p.ncx * p.ncz) s (assembleRow p.active f g) := by
    intro f g s
    refine forUp_congr _ _ fun c s hc => ?_
    unfold assembleRow
    have h := active_iff p ht hc
    unfold Par.activeChem
    by_cases ha : p.active c = true
    · have hn := h.1 ha
      unfold Par.isNum at hn
      rw [if_pos ha, if_pos hn]
    · have hn : ¬ (p.tt c != 30) = true := fun hh => ha (h.2 hh)
      rw [if_neg ha, if_neg hn]
  simp only [this]

/-- One chemical solve: a composition field it can return. -/
def ChemStep (p : Par K) (X X' : Nat → K) : Prop :=
  ∃ (junk : ThBuf K) (r x : Nat → K),
    (∀ c < p.ncx * p.ncz, p.activeChem c = true → r (p.num.eqn c).toNat = rhsChem p X c) ∧
    CholSolves p.num.inc (matrixChem p junk) r x ∧ extract p x 0 X = some X'

/-- No sources. -/
def noSrc : Src K := ⟨fun _ => 0, fun _ => 0, 0, 0, fun _ _ => 0, fun _ _ => 0⟩

theorem noSrc_at (T : Nat → K) (c : Nat) : (noSrc : Src K).at T c = 0 := by
  simp [Src.at, noSrc]

theorem chemStep_step (p : Par K) (ht : TagsAgree p) (hcap : ∀ c, p.cap c = 1) (X X' : Nat → K)
    (h : ChemStep p X X') : Step p noSrc 0 X X' := by
  obtain ⟨junk, r, x, hr, hs, he⟩ := h
  refine ⟨junk, r, x, ?_, by rwa [matrixChem_eq p ht] at hs, he⟩
  intro c hc ha
  have ha' : p.activeChem c = true := (active_iff p ht hc).1 ha
  rw [hr c hc ha']
  unfold rhs rhsChem
  rw [noSrc_at, hcap]
  ring

/-- C70: chemical diffusion keeps the composition between the bounds of the old field and of the prescribed values. -/
theorem chemical_bounded (p : Par K) (hph : Physical p) (ht : TagsAgree p) (hp : PeriodicOK p)
    (hcap : ∀ c, p.cap c = 1) (m M : K) (hge : DataGE p m) (hle : DataLE p M) (X X' : Nat → K)
    (h : ChemStep p X X')
    (h0 : ∀ k < p.ncx, ∀ l < p.ncz, Rock p k l → m ≤ X (k + l * p.ncx) ∧ X (k + l * p.ncx) ≤ M) :
    ∀ k < p.ncx, ∀ l < p.ncz, Rock p k l → m ≤ X' (k + l * p.ncx) ∧ X' (k + l * p.ncx) ≤ M :=
  heat_steps_bounded_partial p hph ht hp noSrc 0 noSrc_at m M hge hle 1 X X'
    ⟨X, rfl, chemStep_step p ht hcap X X' h⟩ h0

/-- C70: with insulated or periodic sides the total composition of the rock is conserved. -/
theorem chemical_conserved (p : Par K) (hph : Physical p) (ht : TagsAgree p) (hp : PeriodicOK p)
    (hcap : ∀ c, p.cap c = 1) (X X' : Nat → K) (h : ChemStep p X X')
    (hins : ∀ k < p.ncx, ∀ l < p.ncz, Rock p k l → ∀ f,
      behind p k l f = .insulated ∨ ∃ k' l', behind p k l f = .cell k' l') :
    ∑ l ∈ range p.ncz, ∑ k ∈ range p.ncx, (if Rock p k l then X' (k + l * p.ncx) else 0) =
    ∑ l ∈ range p.ncz, ∑ k ∈ range p.ncx, (if Rock p k l then X (k + l * p.ncx) else 0) := by
  have := heat_content_conserved p hph ht hp noSrc 0 X X' (chemStep_step p ht hcap X X' h) (noSrc_at X) hins
  simpa only [hcap, one_mul] using this

/-! ### Prescribed bottom flux -/

/-- C37, finding: a bottom flux `q` (heat per area and time) is applied over the horizontal spacing: the energy
per unit length entering the bottom cell is `-q·dz`, where a flux through the cell's bottom face carries
`-q·dx`. -/
theorem bottom_flux_uses_dx (p : Par K) (hph : Physical p) (T : Nat → K) (k : Nat)
    (hg : p.te (ghost p k 0 .S) = 0) :
    inflow p T k 0 .S * (p.dx * p.dz) = - p.ve (ghost p k 0 .S) * p.dz ∧
    (p.ve (ghost p k 0 .S) ≠ 0 → p.dx ≠ p.dz →
      inflow p T k 0 .S * (p.dx * p.dz) ≠ - p.ve (ghost p k 0 .S) * p.dx) := by
  have hx := hph.dx.ne'
  have e : inflow p T k 0 .S = - p.ve (ghost p k 0 .S) / p.dx := by
    unfold inflow behind outside
    simp only [Nat.lt_irrefl, if_false]
    simp [hg]
  rw [e]
  have e2 : - p.ve (ghost p k 0 .S) / p.dx * (p.dx * p.dz) = - p.ve (ghost p k 0 .S) * p.dz := by
    field_simp
  refine ⟨e2, fun h1 h2 => ?_⟩
  rw [e2]
  intro h
  exact h2 (mul_left_cancel₀ (neg_ne_zero.2 h1) h).symm

/-! ### Concrete cases -/

/-- Three columns, two rows, periodic sides, bottom at 4, insulated top; capacity 2; conductivities vary. -/
def demo : Par ℚ where
  ncx := 3
  ncz := 2
  dx := 1
  dz := 2
  dt := 1 / 2
  tt := fun _ => -1
  te := fun i => if i % 5 = 0 ∨ i % 5 = 4 then -2 else if i < 5 then 1 else -1
  ve := fun i => if i < 5 then 4 else 0
  kx := fun i => if i % 4 = 0 ∨ i % 4 = 3 then 3 else 1
  kz := fun i => if i < 10 then 2 else 5
  cap := fun _ => 2
  mink := 1

theorem demo_physical : Physical demo where
  dx := by norm_num [demo]
  dz := by norm_num [demo]
  dt := by norm_num [demo]
  cap := by intro c; norm_num [demo]
  kx := by intro c; simp only [demo]; split_ifs <;> norm_num
  kz := by intro c; simp only [demo]; split_ifs <;> norm_num

theorem demo_tags : TagsAgree demo := by
  unfold TagsAgree; decide +kernel

theorem demo_periodic : PeriodicOK demo := by
  unfold PeriodicOK; decide +kernel

theorem demo_data (m M : ℚ) (hm : m ≤ 4) (hM : 4 ≤ M) : DataGE demo m ∧ DataLE demo M := by
  have hb : ∀ k < 3, ∀ l < 2, ∀ f, behind demo k l f = .wall 4 ∨ behind demo k l f = .insulated ∨
      ∃ a b, behind demo k l f = .cell a b := by
    intro k hk l hl f
    interval_cases k <;> interval_cases l <;> cases f <;>
      simp [behind, inside, outside, ghost, demo, Par.ext]
  constructor <;> intro k hk l hl _ f <;>
    rcases hb k hk l hl f with h | h | ⟨a, b, h⟩ <;> rw [h] <;> first | exact hm | exact hM | trivial

/-- The hypotheses are met and a step exists from a non-uniform field: results stay within `[1, 4]`. -/
example : ∃ T', Step demo noSrc 0 (fun c => 1 + (c : ℚ) / 5) T' ∧
    ∀ k < 3, ∀ l < 2, 1 ≤ T' (k + l * 3) ∧ T' (k + l * 3) ≤ 4 := by
  obtain ⟨T', hT'⟩ := heat_step_exists demo demo_physical demo_tags demo_periodic noSrc 0
    (fun c => 1 + (c : ℚ) / 5) (demo_data 0 4 (by norm_num) le_rfl).1
    (fun k _ l _ _ => by positivity) (fun c _ => (noSrc_at _ c).ge)
  refine ⟨T', hT', ?_⟩
  have := heat_steps_bounded_partial demo demo_physical demo_tags demo_periodic noSrc 0 noSrc_at 1 4
    (demo_data 1 4 (by norm_num) le_rfl).1 (demo_data 1 4 (by norm_num) le_rfl).2 1 _ T' ⟨_, rfl, hT'⟩
    (by
      intro k hk l hl _
      have h1 : k ≤ 2 := by have : k < 3 := hk; omega
      have h2 : l ≤ 1 := by have : l < 2 := hl; omega
      have : ((k + l * 3 : ℕ) : ℚ) ≤ 5 := by exact_mod_cast (by omega : k + l * 3 ≤ 5)
      have h0 : (0 : ℚ) ≤ ((k + l * 3 : ℕ) : ℚ) := by positivity
      constructor
      · show (1 : ℚ) ≤ 1 + ((k + l * 3 : ℕ) : ℚ) / 5
        linarith
      · show 1 + ((k + l * 3 : ℕ) : ℚ) / 5 ≤ 4
        linarith)
  intro k hk l hl
  refine this k hk l hl ?_
  unfold Rock demo Par.ext
  simp only
  split_ifs <;> norm_num

/-- The stored matrix has all five coefficients in some row. -/
example : (matrix demo ⟨fun _ => 7, fun _ => 7, fun _ => 7, 7⟩).nnz = 24 := by decide +kernel

/-- Two columns of rock of different conductivity at the two periodic sides. -/
def uneven : Par ℚ := { demo with
  ncz := 1
  te := fun i => if i % 5 = 0 ∨ i % 5 = 4 then -2 else -1
  kx := fun i => if i % 4 = 0 then 3 else 1 }

theorem uneven_physical : Physical uneven where
  dx := by norm_num [uneven, demo]
  dz := by norm_num [uneven, demo]
  dt := by norm_num [uneven, demo]
  cap := by intro c; norm_num [uneven, demo]
  kx := by intro c; simp only [uneven]; split_ifs <;> norm_num
  kz := by intro c; simp only [uneven, demo]; split_ifs <;> norm_num

/-- C35/C36, finding: on periodic sides the code uses the conductivity of the west side in the west cell's row and that of
the east side in the east cell's row.  When they differ, the stored matrix is not symmetric, and what is solved (its lower
triangle) does not leave a uniform temperature unchanged. -/
theorem heat_periodic_uneven_not_symmetric :
    ∃ p : Par ℚ, Physical p ∧ TagsAgree p ∧ (∀ k < p.ncx, ∀ l < p.ncz, Rock p k l) ∧
      (∀ k < p.ncx, ∀ l < p.ncz, ∀ f, (∃ k' l', behind p k l f = .cell k' l') ∨ behind p k l f = .insulated) ∧
      ∃ junk, (∃ i < p.num.inc, ∃ j < p.num.inc, entry (matrix p junk) i j ≠ entry (matrix p junk) j i) ∧
        ∀ T' : Nat → ℚ, (∀ c < p.ncx * p.ncz, T' c = 1) → ∀ r x : Nat → ℚ,
          (∀ c < p.ncx * p.ncz, p.active c = true → r (p.num.eqn c).toNat = rhs p noSrc (fun _ => 1) c) →
          CholSolves p.num.inc (matrix p junk) r x → extract p x 0 (fun _ => 1) ≠ some T' := by
  refine ⟨uneven, uneven_physical, by unfold TagsAgree; decide +kernel, by decide +kernel, ?_,
    ⟨fun _ => 0, fun _ => 0, fun _ => 0, 0⟩, ⟨0, by decide +kernel, 2, by decide +kernel, by decide +kernel⟩, ?_⟩
  · have : ∀ k < 3, ∀ l < 1, ∀ f, (∃ k' l', behind uneven k l f = .cell k' l') ∨ behind uneven k l f = .insulated := by
      intro k hk l hl f
      interval_cases k <;> interval_cases l <;> cases f <;>
        simp [behind, inside, outside, ghost, uneven, demo, Par.ext]
    exact this
  · intro T' hT' r x hr hs he
    have ha : ∀ c < 3, uneven.active c = true ∧ uneven.num.eqn c = c := by decide +kernel
    have hx : ∀ c < 3, x c = 1 := by
      intro c hc
      unfold extract at he
      split_ifs at he
      have h1 := congrFun (Option.some.inj he) c
      rw [hT' c hc] at h1
      simp only at h1
      rw [if_pos (show c < uneven.ncx * uneven.ncz from hc), if_pos (ha c hc).1, (ha c hc).2] at h1
      simpa using h1
    have h0 := hs 0 (by decide +kernel)
    have hr0 := hr 0 (by decide +kernel) (ha 0 (by norm_num)).1
    rw [(ha 0 (by norm_num)).2] at hr0
    have hn : uneven.num.inc = 3 := by decide +kernel
    rw [hn, Finset.sum_congr rfl (fun j hj => by rw [hx j (Finset.mem_range.1 hj)])] at h0
    simp only [Nat.cast_zero, Int.toNat_zero] at hr0
    rw [hr0] at h0
    revert h0
    decide +kernel

/-- A periodic row whose east cell is air. -/
def halfAir : Par ℚ := { demo with
  tt := fun c => if c = 5 then 30 else -1
  te := fun i => if i % 5 = 0 ∨ i % 5 = 4 then -2 else if i = 13 then 30 else -1 }

/-- C35, finding: when the partner cell across the periodic sides is air, its equation number `-1` is stored as a
column of the matrix. -/
theorem heat_periodic_air_column :
    ∃ p : Par ℚ, Physical p ∧ TagsAgree p ∧ ∃ junk t, t < (matrix p junk).nnz ∧ (matrix p junk).J t = -1 := by
  refine ⟨halfAir, ?_, by unfold TagsAgree; decide +kernel, ⟨fun _ => 0, fun _ => 0, fun _ => 0, 0⟩, ?_⟩
  · exact ⟨demo_physical.dx, demo_physical.dz, demo_physical.dt, demo_physical.cap, demo_physical.kx, demo_physical.kz⟩
  · exact ⟨14, by decide +kernel, by decide +kernel⟩

/-- A closed box with air above: heat content is conserved in a concrete case. -/
def closed : Par ℚ := { demo with
  tt := fun c => if 3 ≤ c then 30 else -1
  te := fun i => if i < 5 then -1 else if i % 5 = 0 ∨ i % 5 = 4 then -1 else if 10 ≤ i then 30 else -1 }

example : Physical closed ∧ TagsAgree closed ∧ PeriodicOK closed ∧
    (∀ k < closed.ncx, ∀ l < closed.ncz, Rock closed k l → ∀ f,
      behind closed k l f = .insulated ∨ ∃ k' l', behind closed k l f = .cell k' l') ∧
    ∃ T', Step closed noSrc 0 (fun c => (c : ℚ)) T' := by
  have hph : Physical closed :=
    ⟨demo_physical.dx, demo_physical.dz, demo_physical.dt, demo_physical.cap, demo_physical.kx, demo_physical.kz⟩
  have ht : TagsAgree closed := by unfold TagsAgree; decide +kernel
  have hp : PeriodicOK closed := by unfold PeriodicOK; decide +kernel
  have hb : ∀ k < closed.ncx, ∀ l < closed.ncz, Rock closed k l → ∀ f,
      behind closed k l f = .insulated ∨ ∃ k' l', behind closed k l f = .cell k' l' := by
    have : ∀ k < 3, ∀ l < 2, Rock closed k l → ∀ f,
        behind closed k l f = .insulated ∨ ∃ k' l', behind closed k l f = .cell k' l' := by
      intro k hk l hl hr f
      interval_cases k <;> interval_cases l <;> cases f <;>
        simp [behind, inside, outside, ghost, closed, demo, Par.ext, Rock] at hr ⊢
    exact this
  refine ⟨hph, ht, hp, hb, heat_step_exists closed hph ht hp noSrc 0 _ ?_ (fun k _ l _ _ => by positivity)
    (fun c _ => (noSrc_at _ c).ge)⟩
  intro k hk l hl hr f
  rcases hb k hk l hl hr f with h | ⟨a, b, h⟩ <;> rw [h] <;> trivial

end Verif.Heat
