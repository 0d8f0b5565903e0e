import Verif.Model.Timestep
import Mathlib.Data.Rat.Floor

/- C13 (time step selection), C14 (advection sub-steps), C15 (clock). -/
namespace Verif.Time
open Verif
set_option linter.unusedSectionVars false

variable {K : Type*} [Field K] [LinearOrder K] [IsStrictOrderedRing K]

omit [Field K] [IsStrictOrderedRing K] in
theorem maxV_eq (a b : K) : maxV a b = max a b := by
  unfold maxV; rcases le_total b a with h | h
  · rw [if_pos h, max_eq_left h]
  · by_cases h2 : b ≤ a
    · rw [if_pos h2, max_eq_left h2]
    · rw [if_neg h2, max_eq_right h]

omit [Field K] [IsStrictOrderedRing K] in
theorem minV_eq (a b : K) : minV a b = min a b := by
  unfold minV; rcases le_total a b with h | h
  · rw [if_pos h, min_eq_left h]
  · by_cases h2 : a ≤ b
    · rw [if_pos h2, min_eq_left h2]
    · rw [if_neg h2, min_eq_right h]

/-- What the scan returns: bounds for all nodes, attained at a node or zero. -/
structure ScanOK (n : Nat) (V : Nat → K) (s : K × K) : Prop where
  hi : ∀ c < n, V c ≤ s.1
  lo : ∀ c < n, s.2 ≤ V c
  hi0 : 0 ≤ s.1
  lo0 : s.2 ≤ 0
  hiAtt : s.1 = 0 ∨ ∃ c < n, V c = s.1
  loAtt : s.2 = 0 ∨ ∃ c < n, V c = s.2

omit [IsStrictOrderedRing K] in
theorem velScan_ok (ncol nrow : Nat) (V : Nat → K) : ScanOK (nrow * ncol) V (velScan ncol nrow V) := by
  -- visited set: all (k', l) with k' < k, or k' = k and l' < l
  have inner : ∀ (k : Nat), k < ncol → ∀ (s : K × K) (A : Nat → Prop),
      (∀ c, A c → V c ≤ s.1 ∧ s.2 ≤ V c) → 0 ≤ s.1 → s.2 ≤ 0 →
      (s.1 = 0 ∨ ∃ c < nrow * ncol, V c = s.1) → (s.2 = 0 ∨ ∃ c < nrow * ncol, V c = s.2) →
      let s' := forUp nrow s fun s l => (maxV s.1 (V (k + l * ncol)), minV s.2 (V (k + l * ncol)))
      (∀ c, (A c ∨ ∃ l < nrow, c = k + l * ncol) → V c ≤ s'.1 ∧ s'.2 ≤ V c) ∧ 0 ≤ s'.1 ∧ s'.2 ≤ 0 ∧
      (s'.1 = 0 ∨ ∃ c < nrow * ncol, V c = s'.1) ∧ (s'.2 = 0 ∨ ∃ c < nrow * ncol, V c = s'.2) := by
    intro k hk s A hA h0 h0' ha ha'
    have := forUp_inv (s := s)
      (f := fun s l => (maxV s.1 (V (k + l * ncol)), minV s.2 (V (k + l * ncol))))
      (P := fun m s' => (∀ c, (A c ∨ ∃ l < m, c = k + l * ncol) → V c ≤ s'.1 ∧ s'.2 ≤ V c) ∧
        0 ≤ s'.1 ∧ s'.2 ≤ 0 ∧
      (s'.1 = 0 ∨ ∃ c < nrow * ncol, V c = s'.1) ∧ (s'.2 = 0 ∨ ∃ c < nrow * ncol, V c = s'.2)) nrow
      ⟨fun c hc => hc.elim (hA c) fun ⟨l, hl, _⟩ => absurd hl (Nat.not_lt_zero l), h0, h0', ha, ha'⟩ ?_
    · exact this
    · intro m t hm ⟨g1, g2, g3, g4, g5⟩
      have hc : k + m * ncol < nrow * ncol := by
        have : (m + 1) * ncol ≤ nrow * ncol := Nat.mul_le_mul_right _ hm
        rw [Nat.succ_mul] at this; omega
      simp only [maxV_eq, minV_eq]
      refine ⟨?_, le_trans g2 (le_max_left _ _), le_trans (min_le_left _ _) g3, ?_, ?_⟩
      · intro c hc
        have : (A c ∨ ∃ l < m, c = k + l * ncol) ∨ c = k + m * ncol := by
          rcases hc with h | ⟨l, hl, rfl⟩
          · exact Or.inl (Or.inl h)
          · by_cases e : l = m
            · subst e; exact Or.inr rfl
            · exact Or.inl (Or.inr ⟨l, by omega, rfl⟩)
        rcases this with h | rfl
        · exact ⟨le_trans (g1 c h).1 (le_max_left _ _), le_trans (min_le_left _ _) (g1 c h).2⟩
        · exact ⟨le_max_right _ _, min_le_right _ _⟩
      · rcases max_choice t.1 (V (k + m * ncol)) with e | e
        · rw [e]; exact g4
        · rw [e]; exact Or.inr ⟨_, hc, rfl⟩
      · rcases min_choice t.2 (V (k + m * ncol)) with e | e
        · rw [e]; exact g5
        · rw [e]; exact Or.inr ⟨_, hc, rfl⟩
  have outer := forUp_inv (s := ((0, 0) : K × K))
    (f := fun s k => forUp nrow s fun s l =>
      (maxV s.1 (V (k + l * ncol)), minV s.2 (V (k + l * ncol))))
    (P := fun m s => (∀ c, (∃ k < m, ∃ l < nrow, c = k + l * ncol) → V c ≤ s.1 ∧ s.2 ≤ V c) ∧
      0 ≤ s.1 ∧ s.2 ≤ 0 ∧
      (s.1 = 0 ∨ ∃ c < nrow * ncol, V c = s.1) ∧ (s.2 = 0 ∨ ∃ c < nrow * ncol, V c = s.2)) ncol
    ⟨fun c ⟨k, hk, _⟩ => absurd hk (Nat.not_lt_zero k), le_refl _, le_refl _, Or.inl rfl, Or.inl rfl⟩ ?_
  · obtain ⟨g1, g2, g3, g4, g5⟩ := outer
    have cover : ∀ c < nrow * ncol, ∃ k < ncol, ∃ l < nrow, c = k + l * ncol := by
      intro c hc
      have hpos : 0 < ncol := by
        rcases Nat.eq_zero_or_pos ncol with h | h
        · subst h; omega
        · exact h
      refine ⟨c % ncol, Nat.mod_lt _ hpos, c / ncol, ?_, ?_⟩
      · exact (Nat.div_lt_iff_lt_mul hpos).mpr hc
      · have := Nat.mod_add_div c ncol
        rw [Nat.mul_comm] at this; exact this.symm
    exact ⟨fun c hc => (g1 c (cover c hc)).1, fun c hc => (g1 c (cover c hc)).2, g2, g3, g4, g5⟩
  · intro m s hm ⟨g1, g2, g3, g4, g5⟩
    obtain ⟨i1, i2⟩ := inner m hm s _ (fun c h => g1 c h) g2 g3 g4 g5
    refine ⟨?_, i2⟩
    rintro c ⟨k, hk, l, hl, rfl⟩
    refine i1 _ ?_
    by_cases e : k = m
    · subst e; exact Or.inr ⟨l, hl, rfl⟩
    · exact Or.inl ⟨k, by omega, l, hl, rfl⟩

/-- `v` is the largest speed occurring on the grid (zero when nothing is there). -/
structure LargestSpeed (nx nz : Nat) (Vx Vz : Nat → K) (v : K) : Prop where
  x : ∀ c < (nz + 1) * nx, |Vx c| ≤ v
  z : ∀ c < nz * (nx + 1), |Vz c| ≤ v
  att : v = 0 ∨ (∃ c < (nz + 1) * nx, |Vx c| = v) ∨ ∃ c < nz * (nx + 1), |Vz c| = v

theorem vmax_spec (P : StepParams K) (Vx Vz : Nat → K) :
    LargestSpeed P.Nx P.Nz Vx Vz (vmax P Vx Vz) := by
  have sx := velScan_ok P.Nx (P.Nz + 1) Vx
  have sz := velScan_ok (P.Nx + 1) P.Nz Vz
  set a := velScan P.Nx (P.Nz + 1) Vx
  set b := velScan (P.Nx + 1) P.Nz Vz
  have e : vmax P Vx Vz = max (max a.1 b.1) (max (-a.2) (-b.2)) := by
    simp only [vmax, maxV_eq]
    rw [abs_of_nonneg (le_trans (abs_nonneg _) (le_max_left _ _)),
      abs_of_nonneg (le_trans (abs_nonneg _) (le_max_left |(velScan P.Nx (P.Nz + 1) Vx).2| _)),
      abs_of_nonneg sx.hi0, abs_of_nonneg sz.hi0, abs_of_nonpos sx.lo0, abs_of_nonpos sz.lo0]
  rw [e]
  have h1 := le_max_left (max a.1 b.1) (max (-a.2) (-b.2))
  have h2 := le_max_right (max a.1 b.1) (max (-a.2) (-b.2))
  refine ⟨fun c hc => ?_, fun c hc => ?_, ?_⟩
  · refine abs_le.mpr ⟨?_, le_trans (sx.hi c hc) (le_trans (le_max_left _ _) h1)⟩
    have := sx.lo c hc
    have := le_trans (le_max_left (-a.2) (-b.2)) h2
    linarith
  · refine abs_le.mpr ⟨?_, le_trans (sz.hi c hc) (le_trans (le_max_right _ _) h1)⟩
    have := sz.lo c hc
    have := le_trans (le_max_right (-a.2) (-b.2)) h2
    linarith
  · have ax : a.1 = 0 ∨ ∃ c < (P.Nz + 1) * P.Nx, |Vx c| = a.1 := by
      rcases sx.hiAtt with h | ⟨c, hc, h⟩
      · exact Or.inl h
      · exact Or.inr ⟨c, hc, by rw [h, abs_of_nonneg sx.hi0]⟩
    have ax' : -a.2 = 0 ∨ ∃ c < (P.Nz + 1) * P.Nx, |Vx c| = -a.2 := by
      rcases sx.loAtt with h | ⟨c, hc, h⟩
      · exact Or.inl (by rw [h, neg_zero])
      · exact Or.inr ⟨c, hc, by rw [h, abs_of_nonpos sx.lo0]⟩
    have az : b.1 = 0 ∨ ∃ c < P.Nz * (P.Nx + 1), |Vz c| = b.1 := by
      rcases sz.hiAtt with h | ⟨c, hc, h⟩
      · exact Or.inl h
      · exact Or.inr ⟨c, hc, by rw [h, abs_of_nonneg sz.hi0]⟩
    have az' : -b.2 = 0 ∨ ∃ c < P.Nz * (P.Nx + 1), |Vz c| = -b.2 := by
      rcases sz.loAtt with h | ⟨c, hc, h⟩
      · exact Or.inl (by rw [h, neg_zero])
      · exact Or.inr ⟨c, hc, by rw [h, abs_of_nonpos sz.lo0]⟩
    rcases max_choice (max a.1 b.1) (max (-a.2) (-b.2)) with q | q <;> rw [q]
    · rcases max_choice a.1 b.1 with q | q <;> rw [q]
      · exact ax.imp_right Or.inl
      · exact az.imp_right Or.inr
    · rcases max_choice (-a.2) (-b.2) with q | q <;> rw [q]
      · exact ax'.imp_right Or.inl
      · exact az'.imp_right Or.inr

theorem dtClamp_cases (P : StepParams K) (d : K) :
    (dtClamp P d = P.dtMin ∨ dtClamp P d ≤ d) ∧ (d ≤ dtClamp P d ∨ P.dtMax ≤ dtClamp P d) := by
  simp only [dtClamp]
  by_cases h1 : d > P.dtMax
  · simp only [if_pos h1]
    by_cases h2 : P.dtMax < P.dtMin
    · simp only [if_pos h2]; exact ⟨Or.inl trivial, Or.inr (le_of_lt h2)⟩
    · simp only [if_neg h2]; exact ⟨Or.inr (le_of_lt h1), Or.inr (le_refl _)⟩
  · simp only [if_neg h1]
    by_cases h2 : d < P.dtMin
    · simp only [if_pos h2]; exact ⟨Or.inl trivial, Or.inl (le_of_lt h2)⟩
    · simp only [if_neg h2]; exact ⟨Or.inr (le_refl _), Or.inl (le_refl _)⟩

/-- C13 (bounds).  With `dt_min ≤ dt_max` the selected step is between them, for every velocity
field; a constant step is exactly the start value. -/
theorem dt_within_bounds (P : StepParams K) (Vx Vz : Nat → K) :
    (P.constantDt = 0 → P.dtMin ≤ P.dtMax →
      P.dtMin ≤ evaluateCourant P Vx Vz ∧ evaluateCourant P Vx Vz ≤ P.dtMax) ∧
    (P.constantDt ≠ 0 → evaluateCourant P Vx Vz = P.dtStart) := by
  refine ⟨fun h hb => ?_, fun h => by simp only [evaluateCourant, if_neg h]⟩
  simp only [evaluateCourant, if_pos h, dtClamp]
  generalize dtRest P _ _ = d
  split_ifs with h1 h2 h3 <;> constructor <;> (try exact le_refl _) <;> linarith

/-- The step before it is clamped to `[dt_min, dt_max]` obeys every upper limit (helper). -/
theorem limited_or_min (P : StepParams K) (Vx Vz : Nat → K) (hc : P.constantDt = 0)
    (mv : 1 / 10 ^ 30 ≤ vmax P Vx Vz) (hs : P.dtStart ≤ 10 ^ 30) :
    evaluateCourant P Vx Vz = P.dtMin ∨
    (evaluateCourant P Vx Vz ≤ growth P * P.dt0 ∧
     evaluateCourant P Vx Vz ≤ P.courant * min P.dx P.dz / vmax P Vx Vz ∧
     (P.surfaceProcesses > 0 → P.surfVinc ≠ 0 →
        evaluateCourant P Vx Vz ≤ P.courant * min P.dx P.dz / |P.surfVinc|) ∧
     (P.chemicalDiffusion = 1 → evaluateCourant P Vx Vz ≤ P.dtReac)) := by
  have vpos : 0 < vmax P Vx Vz := lt_of_lt_of_le (by positivity) mv
  set v := vmax P Vx Vz
  have vabs : |v| = v := abs_of_pos vpos
  have vne : v ≠ 0 := ne_of_gt vpos
  have d1 : dtCourant P v ≤ growth P * P.dt0 ∧ dtCourant P v ≤ P.courant * min P.dx P.dz / v := by
    simp only [dtCourant, divSpeed, vabs, if_neg vne, minV_eq]
    split_ifs with h
    · exact ⟨le_refl _, le_of_lt h⟩
    · exact ⟨not_lt.mp h, le_refl _⟩
  have d2 : ∀ dt, dtSurface P dt ≤ dt ∧ (P.surfaceProcesses > 0 → P.surfVinc ≠ 0 →
      dtSurface P dt ≤ P.courant * min P.dx P.dz / |P.surfVinc|) := by
    intro dt
    simp only [dtSurface, divSpeed, minV_eq]
    by_cases g : P.surfaceProcesses > 0
    · rw [if_pos g]
      by_cases g2 : P.surfVinc = 0
      · simp [g2]
      · have g3 : |P.surfVinc| ≠ 0 := abs_ne_zero.mpr g2
        simp only [if_neg g3]
        split_ifs with h
        · exact ⟨le_of_lt h, fun _ _ => le_refl _⟩
        · exact ⟨le_refl _, fun _ _ => not_lt.mp h⟩
    · rw [if_neg g]; exact ⟨le_refl _, fun h => absurd h g⟩
  have d3 : ∀ dt, dtChemical P dt ≤ dt ∧ (P.chemicalDiffusion = 1 → dtChemical P dt ≤ P.dtReac) := by
    intro dt
    unfold dtChemical; split_ifs with h
    · exact ⟨le_of_lt h.2, fun _ => le_refl _⟩
    · refine ⟨le_refl _, fun g => ?_⟩
      by_contra g2
      exact h ⟨g, not_le.mp g2⟩
  have d4 : ∀ dt, dtRest P v dt ≤ dt := by
    intro dt
    unfold dtRest; split_ifs with h
    · rcases h with h | h
      · linarith
      · exact absurd h (not_lt.mpr mv)
    · exact le_refl _
  simp only [evaluateCourant, if_pos hc]
  set c1 := dtCourant P v
  have e2 := d2 c1
  set c2 := dtSurface P c1
  have e3 := d3 c2
  set c3 := dtChemical P c2
  have e4 := d4 c3
  set c4 := dtRest P v c3
  refine (dtClamp_cases P c4).1.imp_right fun h => ⟨by linarith [d1.1], by linarith [d1.2, e2.1], fun g1 g2 => ?_, fun g => ?_⟩
  · have := e2.2 g1 g2; linarith
  · have := e3.2 g; linarith

/-- C13 (growth).  When something moves, the step grows by at most 1.25 (elastic) or 2 (viscous)
over the previous step unless it equals `dt_min`. -/
theorem dt_growth_limited (P : StepParams K) (Vx Vz : Nat → K) (hc : P.constantDt = 0)
    (mv : (∃ c < (P.Nz + 1) * P.Nx, 1 / 10 ^ 30 ≤ |Vx c|) ∨
      ∃ c < P.Nz * (P.Nx + 1), 1 / 10 ^ 30 ≤ |Vz c|)
    (hs : P.dtStart ≤ 10 ^ 30) :
    evaluateCourant P Vx Vz = P.dtMin ∨
      (P.elastic = 1 → evaluateCourant P Vx Vz ≤ 5 / 4 * P.dt0) ∧
      (P.elastic ≠ 1 → evaluateCourant P Vx Vz ≤ 2 * P.dt0) := by
  have sp := vmax_spec P Vx Vz
  have mv' : 1 / 10 ^ 30 ≤ vmax P Vx Vz := by
    rcases mv with ⟨c, hc, h⟩ | ⟨c, hc, h⟩
    · exact le_trans h (sp.x c hc)
    · exact le_trans h (sp.z c hc)
  refine (limited_or_min P Vx Vz hc mv' hs).imp_right fun h => ⟨fun e => ?_, fun e => ?_⟩
  · have := h.1; rwa [growth, if_pos e] at this
  · have := h.1; rwa [growth, if_neg e] at this

/-- C13 (Courant).  When something moves, no grid velocity carries a marker further than the
Courant fraction of the smallest cell side in one step, unless the step equals `dt_min`; the
prescribed surface velocity and the reaction time obey their limits too. -/
theorem dt_courant (P : StepParams K) (Vx Vz : Nat → K) (hc : P.constantDt = 0)
    (hC : 0 ≤ P.courant) (hdx : 0 < P.dx) (hdz : 0 < P.dz)
    (mv : (∃ c < (P.Nz + 1) * P.Nx, 1 / 10 ^ 30 ≤ |Vx c|) ∨
      ∃ c < P.Nz * (P.Nx + 1), 1 / 10 ^ 30 ≤ |Vz c|)
    (hs : P.dtStart ≤ 10 ^ 30) :
    evaluateCourant P Vx Vz = P.dtMin ∨
      (∀ c < (P.Nz + 1) * P.Nx, |Vx c| * evaluateCourant P Vx Vz ≤ P.courant * min P.dx P.dz) ∧
      (∀ c < P.Nz * (P.Nx + 1), |Vz c| * evaluateCourant P Vx Vz ≤ P.courant * min P.dx P.dz) ∧
      (P.surfaceProcesses > 0 → |P.surfVinc| * evaluateCourant P Vx Vz ≤ P.courant * min P.dx P.dz) ∧
      (P.chemicalDiffusion = 1 → evaluateCourant P Vx Vz ≤ P.dtReac) := by
  have sp := vmax_spec P Vx Vz
  have mv' : 1 / 10 ^ 30 ≤ vmax P Vx Vz := by
    rcases mv with ⟨c, hc, h⟩ | ⟨c, hc, h⟩
    · exact le_trans h (sp.x c hc)
    · exact le_trans h (sp.z c hc)
  have vpos : 0 < vmax P Vx Vz := lt_of_lt_of_le (by positivity) mv'
  have q0 : 0 ≤ P.courant * min P.dx P.dz := mul_nonneg hC (le_of_lt (lt_min hdx hdz))
  refine (limited_or_min P Vx Vz hc mv' hs).imp_right fun ⟨_, h2, h3, h4⟩ => ?_
  have key : ∀ w, 0 ≤ w → w ≤ vmax P Vx Vz →
      w * evaluateCourant P Vx Vz ≤ P.courant * min P.dx P.dz := by
    intro w hw hwv
    calc w * evaluateCourant P Vx Vz ≤ w * (P.courant * min P.dx P.dz / vmax P Vx Vz) :=
          mul_le_mul_of_nonneg_left h2 hw
      _ ≤ vmax P Vx Vz * (P.courant * min P.dx P.dz / vmax P Vx Vz) :=
          mul_le_mul_of_nonneg_right hwv (div_nonneg q0 (le_of_lt vpos))
      _ = P.courant * min P.dx P.dz := by field_simp
  refine ⟨fun c hc => key _ (abs_nonneg _) (sp.x c hc), fun c hc => key _ (abs_nonneg _) (sp.z c hc),
    fun g => ?_, h4⟩
  by_cases e : P.surfVinc = 0
  · rw [e, abs_zero, zero_mul]; exact q0
  · have pos : 0 < |P.surfVinc| := abs_pos.mpr e
    have := h3 g e
    calc |P.surfVinc| * evaluateCourant P Vx Vz
        ≤ |P.surfVinc| * (P.courant * min P.dx P.dz / |P.surfVinc|) :=
          mul_le_mul_of_nonneg_left this (le_of_lt pos)
      _ = P.courant * min P.dx P.dz := by field_simp

/-- C13 (not smaller than needed).  Without surface and chemical limits, the step is only reduced
when one of its limits is reached: some node moves by the full Courant fraction, or the growth
limit, `dt_max`, or the start value (no motion / enormous step) is attained. -/
theorem dt_limit_attained (P : StepParams K) (Vx Vz : Nat → K) (hc : P.constantDt = 0)
    (hsp : P.surfaceProcesses ≤ 0) (hch : P.chemicalDiffusion ≠ 1) :
    (∃ c < (P.Nz + 1) * P.Nx, P.courant * min P.dx P.dz ≤ |Vx c| * evaluateCourant P Vx Vz) ∨
    (∃ c < P.Nz * (P.Nx + 1), P.courant * min P.dx P.dz ≤ |Vz c| * evaluateCourant P Vx Vz) ∨
    growth P * P.dt0 ≤ evaluateCourant P Vx Vz ∨ P.dtMax ≤ evaluateCourant P Vx Vz ∨
    P.dtStart ≤ evaluateCourant P Vx Vz := by
  have sp := vmax_spec P Vx Vz
  have es : ∀ d, dtSurface P d = d := fun d => by simp only [dtSurface, if_neg (not_lt.mpr hsp)]
  have ec : ∀ d, dtChemical P d = d := fun d => by simp only [dtChemical, hch, false_and, if_false]
  simp only [evaluateCourant, if_pos hc, es, ec]
  set v := vmax P Vx Vz
  have vnn : 0 ≤ v := by
    rcases sp.att with h | ⟨c, _, h⟩ | ⟨c, _, h⟩
    · exact le_of_eq h.symm
    · rw [← h]; exact abs_nonneg _
    · rw [← h]; exact abs_nonneg _
  have cl := (dtClamp_cases P (dtRest P v (dtCourant P v))).2
  set r := dtClamp P (dtRest P v (dtCourant P v))
  rcases cl with h | h
  · by_cases hst : dtCourant P v > 10 ^ 30 ∨ v < 1 / 10 ^ 30
    · rw [dtRest, if_pos hst] at h
      exact Or.inr (Or.inr (Or.inr (Or.inr h)))
    · rw [dtRest, if_neg hst] at h
      by_cases hv0 : v = 0
      · have : dtCourant P v = growth P * P.dt0 := by simp [dtCourant, divSpeed, hv0]
        rw [this] at h
        exact Or.inr (Or.inr (Or.inl h))
      · have e : dtCourant P v = if P.courant * min P.dx P.dz / v > growth P * P.dt0 then
            growth P * P.dt0 else P.courant * min P.dx P.dz / v := by
          simp only [dtCourant, divSpeed, abs_of_nonneg vnn, if_neg hv0, minV_eq]
        rw [e] at h
        by_cases g : P.courant * min P.dx P.dz / v > growth P * P.dt0
        · rw [if_pos g] at h
          exact Or.inr (Or.inr (Or.inl h))
        · rw [if_neg g] at h
          have hq : P.courant * min P.dx P.dz ≤ v * r := by
            rw [div_le_iff₀ (lt_of_le_of_ne vnn (Ne.symm hv0))] at h
            linarith
          rcases sp.att with e | ⟨c, hc', e⟩ | ⟨c, hc', e⟩
          · exact absurd e hv0
          · exact Or.inl ⟨c, hc', by rw [e]; exact hq⟩
          · exact Or.inr (Or.inl ⟨c, hc', by rw [e]; exact hq⟩)
  · exact Or.inr (Or.inr (Or.inr (Or.inl h)))

/-- A 3x3 vertex grid with uniform shear, elastic, no dt clamp active. -/
def demoStep : StepParams ℚ :=
  { Nx := 3, Nz := 3, constantDt := 0, elastic := 1, surfaceProcesses := 1, chemicalDiffusion := 0,
    courant := 1 / 2, dx := 1, dz := 2, surfVinc := 0, dtReac := 0, dt0 := 1, dtStart := 1,
    dtMin := 1 / 100, dtMax := 100 }

example : evaluateCourant demoStep (fun c => (c : ℚ) - 4) (fun _ => 0) = 1 / 14 := by
  decide +kernel

example : (∃ c < (demoStep.Nz + 1) * demoStep.Nx, 1 / 10 ^ 30 ≤ |(fun c : Nat => (c : ℚ) - 4) c|) :=
  ⟨0, by decide, by norm_num⟩

/-- Without motion the growth limit does not apply: the step jumps back to the start value. -/
theorem dt_growth_not_limited_at_rest : ∃ (P : StepParams ℚ), P.constantDt = 0 ∧ P.dtMin ≤ P.dtMax ∧
    evaluateCourant P (fun _ => 0) (fun _ => 0) ≠ P.dtMin ∧
    2 * P.dt0 < evaluateCourant P (fun _ => 0) (fun _ => 0) :=
  ⟨{ demoStep with dt0 := 1 / 10, dtStart := 1 }, by decide +kernel, by decide +kernel,
    by decide +kernel, by decide +kernel⟩

omit [IsStrictOrderedRing K] in
/-- Initial step (C66): at most the given step and at most the Maxwell time of every vertex that is
not in air. -/
theorem initial_dt_below_maxwell (elastic constantDt : Int) (n : Nat) (air : Nat → Bool)
    (eta mu : Nat → K) (big dt : K) :
    initialDt elastic constantDt n air eta mu big dt ≤ dt ∧
    (elastic = 1 → constantDt ≠ 1 → ∀ k < n, air k = false →
      initialDt elastic constantDt n air eta mu big dt ≤ eta k / mu k) ∧
    (initialDt elastic constantDt n air eta mu big dt = dt ∨
      initialDt elastic constantDt n air eta mu big dt = big ∨
      ∃ k < n, air k = false ∧ initialDt elastic constantDt n air eta mu big dt = eta k / mu k) := by
  unfold initialDt
  by_cases h : elastic = 1 ∧ constantDt ≠ 1
  · simp only [if_pos h]
    have key := forUp_inv (s := big)
      (f := fun m k => if !air k then (if eta k / mu k < m then eta k / mu k else m) else m)
      (P := fun j m => (∀ k < j, air k = false → m ≤ eta k / mu k) ∧
        (m = big ∨ ∃ k < j, air k = false ∧ m = eta k / mu k)) n
      ⟨fun k hk => absurd hk (Nat.not_lt_zero k), Or.inl rfl⟩ ?_
    · set m := forUp n big (fun m k => if !air k then (if eta k / mu k < m then eta k / mu k else m) else m)
      obtain ⟨k1, k2⟩ := key
      by_cases h2 : m < dt
      · simp only [if_pos h2]
        refine ⟨le_of_lt h2, fun _ _ k hk ha => k1 k hk ha, Or.inr k2⟩
      · simp only [if_neg h2]
        exact ⟨le_refl _, fun _ _ k hk ha => le_trans (not_lt.mp h2) (k1 k hk ha), Or.inl (by trivial)⟩
    · intro j m hj ⟨g1, g2⟩
      by_cases ha : air j
      · simp only [ha, Bool.not_true, Bool.false_eq_true, if_false]
        refine ⟨fun k hk hk2 => ?_, g2.imp_right fun ⟨k, hk, r⟩ => ⟨k, by omega, r⟩⟩
        by_cases e : k = j
        · subst e; rw [ha] at hk2; exact absurd hk2 (by simp)
        · exact g1 k (by omega) hk2
      · have ha' : air j = false := by simpa using ha
        simp only [ha', Bool.not_false, if_true]
        by_cases hlt : eta j / mu j < m
        · rw [if_pos hlt]
          refine ⟨fun k hk hk2 => ?_, Or.inr ⟨j, by omega, ha', rfl⟩⟩
          by_cases e : k = j
          · subst e; exact le_refl _
          · exact le_trans (le_of_lt hlt) (g1 k (by omega) hk2)
        · rw [if_neg hlt]
          refine ⟨fun k hk hk2 => ?_, g2.imp_right fun ⟨k, hk, r⟩ => ⟨k, by omega, r⟩⟩
          by_cases e : k = j
          · subst e; exact not_lt.mp hlt
          · exact g1 k (by omega) hk2
  · simp only [if_neg h]
    exact ⟨le_refl _, fun h1 h2 => absurd ⟨h1, h2⟩ h, Or.inl (by trivial)⟩

example : initialDt 1 0 3 (fun k => k == 1) (fun k => [6, 1, 8].getD k 0) (fun _ => (2 : ℚ)) 1000 10 = 3 := by
  decide +kernel

/-- C14.  The sub-steps add up exactly to the solver's step, none exceeds the Courant-limited step
divided by 0.95, there is at least one, and the solver's step is in place afterwards. -/
theorem substeps_cover_step [FloorSemiring K] (dtSolve dtAdv : K) (hs : 0 < dtSolve) (ha : 0 < dtAdv) :
    (advectionSplit dtSolve dtAdv).steps.sum = dtSolve ∧
    (∀ d ∈ (advectionSplit dtSolve dtAdv).steps, 0 < d ∧ d ≤ dtAdv / (95 / 100)) ∧
    (advectionSplit dtSolve dtAdv).steps ≠ [] ∧
    (advectionSplit dtSolve dtAdv).dtAfter = dtSolve := by
  unfold advectionSplit
  by_cases h : dtAdv < 95 / 100 * dtSolve
  · simp only [if_pos h]
    have q : 0 < dtSolve / dtAdv := div_pos hs ha
    have np : 0 < ⌈dtSolve / dtAdv⌉₊ := Nat.ceil_pos.mpr q
    have npK : (0 : K) < (⌈dtSolve / dtAdv⌉₊ : K) := by exact_mod_cast np
    have hle : dtSolve / dtAdv ≤ (⌈dtSolve / dtAdv⌉₊ : K) := Nat.le_ceil _
    have hsub : dtSolve / (⌈dtSolve / dtAdv⌉₊ : K) ≤ dtAdv := by
      rw [div_le_iff₀ npK]
      rw [div_le_iff₀ ha] at hle
      linarith
    refine ⟨?_, ?_, ?_, trivial⟩
    · rw [List.sum_replicate, nsmul_eq_mul]
      field_simp
    · intro d hd
      rw [List.mem_replicate] at hd
      rw [hd.2]
      refine ⟨div_pos hs npK, ?_⟩
      rw [le_div_iff₀ (by norm_num)]
      have : 0 < dtSolve / (⌈dtSolve / dtAdv⌉₊ : K) := div_pos hs npK
      linarith
    · intro e
      rw [List.replicate_eq_nil_iff] at e
      omega
  · simp only [if_neg h]
    refine ⟨by simp, ?_, by simp, trivial⟩
    intro d hd
    rw [List.mem_singleton] at hd
    subst hd
    refine ⟨hs, ?_⟩
    rw [le_div_iff₀ (by norm_num)]
    linarith [not_lt.mp h]

example : (advectionSplit (10 : ℚ) 3).steps = [10 / 4, 10 / 4, 10 / 4, 10 / 4] := by decide +kernel

theorem restarts_dt (div chosen : K) (hd : div ≠ 0) (n : Nat) :
    (forUp n chosen fun dt _ => dt / div) = chosen / div ^ n := by
  induction n with
  | zero => simp
  | succ n ih => rw [forUp_succ, ih, pow_succ]; field_simp

/-- C15 (exact bookkeeping, any history).  Model time advances by the steps chosen before the
solves, whereas markers are advected over those steps divided by `safe_dt_div` once per stagnation
restart. -/
theorem clock_bookkeeping [FloorSemiring K] (div : K) (hdiv : 0 < div) (hist : List (K × Nat × K))
    (hpos : ∀ h ∈ hist, 0 < h.1 ∧ 0 < h.2.2) (c : Clock K) :
    (clockRun div hist c).1.time - c.time = (hist.map fun h => h.1).sum ∧
    (clockRun div hist c).2.sum = (hist.map fun h => h.1 / div ^ h.2.1).sum := by
  suffices ∀ (s : Clock K × List K),
      (hist.foldl (fun s h =>
        let r := clockStep div h.1 h.2.1 (fun dt => advectionSplit dt h.2.2) s.1
        (r.1, s.2 ++ r.2)) s).1.time - s.1.time = (hist.map fun h => h.1).sum ∧
      (hist.foldl (fun s h =>
        let r := clockStep div h.1 h.2.1 (fun dt => advectionSplit dt h.2.2) s.1
        (r.1, s.2 ++ r.2)) s).2.sum = s.2.sum + (hist.map fun h => h.1 / div ^ h.2.1).sum by
    have := this (c, [])
    simpa [clockRun] using this
  induction hist with
  | nil => intro s; simp
  | cons h t ih =>
    intro s
    simp only [List.foldl_cons, List.map_cons, List.sum_cons]
    obtain ⟨i1, i2⟩ := ih (fun x hx => hpos x (List.mem_cons_of_mem _ hx))
      ((clockStep div h.1 h.2.1 (fun dt => advectionSplit dt h.2.2) s.1).1,
        s.2 ++ (clockStep div h.1 h.2.1 (fun dt => advectionSplit dt h.2.2) s.1).2)
    refine ⟨?_, ?_⟩
    · have : (clockStep div h.1 h.2.1 (fun dt => advectionSplit dt h.2.2) s.1).1.time
          = s.1.time + h.1 := rfl
      rw [this] at i1
      linarith
    · rw [i2, List.sum_append, add_assoc]
      congr 2
      show (advectionSplit (forUp h.2.1 h.1 fun dt _ => dt / div) h.2.2).steps.sum = _
      obtain ⟨p1, p2⟩ := hpos h (List.mem_cons_self ..)
      rw [restarts_dt div h.1 (ne_of_gt hdiv)]
      exact (substeps_cover_step _ _ (div_pos p1 (pow_pos hdiv _)) p2).1

/-- C15 (partial: histories without stagnation restarts).  Missing for the full property: steps in
which safe mode divided the time step; there it is false, see
`model_time_differs_after_restart`. -/
theorem model_time_equals_advected_partial [FloorSemiring K] (div : K) (hdiv : 0 < div)
    (hist : List (K × Nat × K)) (hpos : ∀ h ∈ hist, 0 < h.1 ∧ 0 < h.2.2)
    (nostag : ∀ h ∈ hist, h.2.1 = 0) (c : Clock K) :
    (clockRun div hist c).1.time - c.time = (clockRun div hist c).2.sum := by
  obtain ⟨h1, h2⟩ := clock_bookkeeping div hdiv hist hpos c
  rw [h1, h2]
  congr 1
  refine List.map_congr_left fun h hh => ?_
  rw [nostag h hh, pow_zero, div_one]

/-- C15 is false in safe mode: as soon as one step is restarted with a smaller time step
(`safe_dt_div > 1`) the model time runs ahead of the advected time, and never falls back. -/
theorem model_time_differs_after_restart [FloorSemiring K] (div : K) (hdiv : 1 < div)
    (hist : List (K × Nat × K)) (hpos : ∀ h ∈ hist, 0 < h.1 ∧ 0 < h.2.2)
    (stag : ∃ h ∈ hist, 0 < h.2.1) (c : Clock K) :
    (clockRun div hist c).2.sum < (clockRun div hist c).1.time - c.time := by
  obtain ⟨h1, h2⟩ := clock_bookkeeping div (by linarith) hist hpos c
  rw [h1, h2]
  clear h1 h2
  have le1 : ∀ h ∈ hist, h.1 / div ^ h.2.1 ≤ h.1 := fun h hh =>
    div_le_self (le_of_lt (hpos h hh).1) (one_le_pow₀ (le_of_lt hdiv))
  induction hist with
  | nil => obtain ⟨h, hh, _⟩ := stag; simp at hh
  | cons a t ih =>
    simp only [List.map_cons, List.sum_cons]
    have sumle : ∀ l : List (K × Nat × K), (∀ h ∈ l, h.1 / div ^ h.2.1 ≤ h.1) →
        (l.map fun h => h.1 / div ^ h.2.1).sum ≤ (l.map fun h => h.1).sum := by
      intro l
      induction l with
      | nil => intro _; simp
      | cons b u ihu =>
        intro hb
        simp only [List.map_cons, List.sum_cons]
        exact add_le_add (hb b (List.mem_cons_self ..)) (ihu fun h hh => hb h (List.mem_cons_of_mem _ hh))
    by_cases ha : 0 < a.2.1
    · have : a.1 / div ^ a.2.1 < a.1 :=
        div_lt_self (hpos a (List.mem_cons_self ..)).1 (one_lt_pow₀ hdiv (by omega))
      exact add_lt_add_of_lt_of_le this (sumle t fun h hh => le1 h (List.mem_cons_of_mem _ hh))
    · obtain ⟨h, hh, hs⟩ := stag
      have ht : h ∈ t := by
        rcases List.mem_cons.mp hh with rfl | h'
        · exact absurd hs ha
        · exact h'
      exact add_lt_add_of_le_of_lt (le1 a (List.mem_cons_self ..))
        (ih (fun x hx => hpos x (List.mem_cons_of_mem _ hx)) ⟨h, ht, hs⟩
          fun x hx => le1 x (List.mem_cons_of_mem _ hx))

/-- One restart with divisor 5: time 2, advected 6/5. -/
example : (clockRun (5 : ℚ) [(1, 0, 2), (1, 1, 2)] ⟨1, 1, 0⟩).1.time = 2 ∧
    (clockRun (5 : ℚ) [(1, 0, 2), (1, 1, 2)] ⟨1, 1, 0⟩).2 = [1, 1 / 5] := by decide +kernel

end Verif.Time
