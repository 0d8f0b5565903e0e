import Verif.Props.SurfaceChain

/-
C33 (sediment markers), C34 (surface diffusion), C63 (zero mean), C64 (projection to the grid).
-/
set_option linter.unusedSectionVars false
set_option linter.unusedVariables false
namespace Verif.Surf
open Verif

variable {K : Type*} [Field K] [LinearOrder K] [IsStrictOrderedRing K] [FloorRing K]

/-! ### C33 -/

/-- One million years in seconds. -/
def myr : K := 31557600 * 10 ^ 6

/-- **C33, phase.**  During the `n`-th million years (counted from zero) the sediment phase is the first one for odd
`n` and the second one for even `n`. -/
theorem sediment_phase (ised1 ised2 : Int) (n : Nat) (time : K) (h0 : n * myr ≤ time) (h1 : time < (n + 1) * myr) :
    sedPhase ised1 ised2 time = if n % 2 = 1 then ised1 else ised2 := by
  have hm : (0 : K) < myr := by unfold myr; norm_num
  have hf : ⌊time / (3600 * (36525 / 100) * 24 * 10 ^ 6 : K)⌋ = (n : Int) := by
    have : (3600 * (36525 / 100) * 24 * 10 ^ 6 : K) = myr := by unfold myr; norm_num
    rw [this, Int.floor_eq_iff]
    push_cast
    exact ⟨by rw [le_div_iff₀ hm]; exact h0, by rw [div_lt_iff₀ hm]; exact h1⟩
  unfold sedPhase
  rw [hf, show Int.tmod (n : Int) 2 = ((n % 2 : Nat) : Int) from by rw [Int.ofNat_tmod]; norm_num]
  rcases Nat.mod_two_eq_zero_or_one n with e | e <;> simp [e]

theorem sedX_inside (p : Par K) (g : Geom p) (k : Nat) (ip : Bool) :
    p.xmin + k * (p.dx / 2) < sedX p k ip ∧ sedX p k ip < p.xmin + (k + 1) * (p.dx / 2) := by
  have := g.dx
  unfold sedX
  cases ip <;> simp <;> constructor <;> linarith

/-- Heights of the old and the new surface at a candidate position. -/
theorem sed_heights (p : Par K) (g : Geom p) (xg h : Nat → K) (hxg : Even p.ncx p.dx xg) (hx0 : xg 0 = p.xmin)
    (ab : (Nat → K) × (Nat → K)) (k : Nat) (hk : k < 2 * p.ncx) (ip : Bool) :
    OnPolyline p.ncx xg h (sedX p k ip)
      (height (polyFit p.ncx p.dx xg h ab) (P2M.nearest p.ncx (p.xmin + p.dx / 2) p.dx (sedX p k ip)) (sedX p k ip)) := by
  obtain ⟨a, b⟩ := sedX_inside p g k ip
  have hdx := g.dx
  have hk0 : (0 : K) ≤ k := Nat.cast_nonneg k
  have hk1 : (k : K) + 1 ≤ 2 * p.ncx := by
    have : k + 1 ≤ 2 * p.ncx := hk
    exact_mod_cast this
  obtain ⟨j, hj, e, j0, j1⟩ := column_brackets p.ncx g.n p.dx hdx xg hxg (sedX p k ip) (by rw [hx0]; nlinarith)
    (by rw [hxg p.ncx le_rfl, hx0]; nlinarith)
  rw [hx0] at e
  rw [e]
  exact ((surface_polyline p.ncx p.dx hdx xg h hxg ab).2.2 j hj _ j0 j1).1

/-- **C33, the part that holds.**  Every marker added by sedimentation lies inside the box, strictly between the old
and the new surface at its position (half way), has the given phase and zero strain; at most four markers are
added per cell; and in every fine column each of the two candidate positions where the surface rose gets one. -/
theorem sediment_partial (p : Par K) (g : Geom p) (xg h0 h : Nat → K) (hxg : Even p.ncx p.dx xg) (hx0 : xg 0 = p.xmin)
    (ab0 ab : (Nat → K) × (Nat → K)) (phase : Int) :
    let new := addPartSed p (polyFit p.ncx p.dx xg h0 ab0) (polyFit p.ncx p.dx xg h ab) phase
    (∀ m ∈ new, p.xmin < m.x ∧ m.x < p.xmax ∧ m.phase = phase ∧ m.strain = 0 ∧
      ∃ y0 y, OnPolyline p.ncx xg h0 m.x y0 ∧ OnPolyline p.ncx xg h m.x y ∧ y0 < m.z ∧ m.z < y ∧ m.z - y0 = y - m.z) ∧
    new.length ≤ 4 * p.ncx ∧
    (∀ k < 2 * p.ncx, ∀ x, x = p.xmin + k * (p.dx / 2) + p.dx / 8 ∨ x = p.xmin + k * (p.dx / 2) + 3 * p.dx / 8 →
      ∀ y0 y, OnPolyline p.ncx xg h0 x y0 → OnPolyline p.ncx xg h x y → y0 < y → ∃ m ∈ new, m.x = x) := by
  intro new
  have hmem : ∀ m, m ∈ new ↔ ∃ k < 2 * p.ncx, ∃ ip : Bool,
      height (polyFit p.ncx p.dx xg h0 ab0) (P2M.nearest p.ncx (p.xmin + p.dx / 2) p.dx (sedX p k ip)) (sedX p k ip) <
      height (polyFit p.ncx p.dx xg h ab) (P2M.nearest p.ncx (p.xmin + p.dx / 2) p.dx (sedX p k ip)) (sedX p k ip) ∧
      m = ⟨sedX p k ip, 1 / 2 * (height (polyFit p.ncx p.dx xg h ab) (P2M.nearest p.ncx (p.xmin + p.dx / 2) p.dx (sedX p k ip)) (sedX p k ip) +
        height (polyFit p.ncx p.dx xg h0 ab0) (P2M.nearest p.ncx (p.xmin + p.dx / 2) p.dx (sedX p k ip)) (sedX p k ip)), phase, 0, 1, 0, 1, 0⟩ := by
    intro m
    show m ∈ addPartSed _ _ _ _ ↔ _
    unfold addPartSed
    rw [List.mem_flatMap]
    constructor
    · rintro ⟨k, hk, hm⟩
      rw [List.mem_flatMap] at hm
      obtain ⟨ip, _, hm⟩ := hm
      simp only at hm
      split_ifs at hm with hlt
      · rw [List.mem_singleton] at hm
        exact ⟨k, List.mem_range.mp hk, ip, hlt, hm⟩
      · simp at hm
    · rintro ⟨k, hk, ip, hlt, hm⟩
      refine ⟨k, List.mem_range.mpr hk, ?_⟩
      rw [List.mem_flatMap]
      refine ⟨ip, by cases ip <;> simp, ?_⟩
      simp only
      rw [if_pos hlt, List.mem_singleton]
      exact hm
  refine ⟨?_, ?_, ?_⟩
  · intro m hm
    obtain ⟨k, hk, ip, hlt, rfl⟩ := (hmem m).mp hm
    obtain ⟨a, b⟩ := sedX_inside p g k ip
    have hdx := g.dx
    have hk0 : (0 : K) ≤ k := Nat.cast_nonneg k
    have hk1 : (k : K) + 1 ≤ 2 * p.ncx := by
      have : k + 1 ≤ 2 * p.ncx := hk
      exact_mod_cast this
    refine ⟨by simp only; nlinarith, by simp only [g.east]; nlinarith, rfl, rfl, _, _,
      sed_heights p g xg h0 hxg hx0 ab0 k hk ip, sed_heights p g xg h hxg hx0 ab k hk ip, ?_, ?_, ?_⟩
    · simp only; linarith
    · simp only; linarith
    · simp only; ring
  · show (addPartSed _ _ _ _).length ≤ _
    unfold addPartSed
    rw [List.length_flatMap]
    have : ∀ l : List Nat, ∀ f : Nat → Nat, (∀ k, f k ≤ 2) → (l.map f).sum ≤ 2 * l.length := by
      intro l f hf
      induction l with
      | nil => simp
      | cons a l ih => simp only [List.map_cons, List.sum_cons, List.length_cons]; have := hf a; omega
    refine (this (List.range p.fine) _ ?_).trans ?_
    · intro k
      rw [List.length_flatMap]
      simp only [List.map_cons, List.map_nil, List.sum_cons, List.sum_nil]
      split_ifs <;> simp
    · rw [List.length_range]; unfold Par.fine; omega
  · intro k hk x hx y0 y o0 o hlt
    have hdx := g.dx
    have : ∃ ip, sedX p k ip = x := by
      rcases hx with rfl | rfl
      · exact ⟨false, by unfold sedX; simp only [Bool.false_eq_true, if_false]; ring⟩
      · exact ⟨true, by unfold sedX; simp only [if_true]; ring⟩
    obtain ⟨ip, rfl⟩ := this
    have e0 := polyline_unique p.ncx p.dx hdx xg h0 hxg _ _ _ o0 (sed_heights p g xg h0 hxg hx0 ab0 k hk ip)
    have e1 := polyline_unique p.ncx p.dx hdx xg h hxg _ _ _ o (sed_heights p g xg h hxg hx0 ab k hk ip)
    exact ⟨_, (hmem _).mpr ⟨k, hk, ip, by rw [← e0, ← e1]; exact hlt, rfl⟩, rfl⟩

/-- **C33 fails: not undeformed.**  The deformation gradient given to every new sediment marker is singular. -/
theorem sediment_gradient_singular (p : Par K) (ab0 ab : (Nat → K) × (Nat → K)) (phase : Int) :
    ∀ m ∈ addPartSed p ab0 ab phase, m.Fxx * m.Fzz - m.Fxz * m.Fzx = 0 ∧ (m.Fxx, m.Fxz, m.Fzx, m.Fzz) ≠ (1, 0, 0, 1) := by
  intro m hm
  unfold addPartSed at hm
  rw [List.mem_flatMap] at hm
  obtain ⟨k, _, hm⟩ := hm
  rw [List.mem_flatMap] at hm
  obtain ⟨ip, _, hm⟩ := hm
  simp only at hm
  split_ifs at hm with hlt
  · rw [List.mem_singleton] at hm
    subst hm
    simp
  · simp at hm

/-- **C33 fails: no bound.**  For every capacity and marker number there is a surface rise after which the
markers no longer fit (slots from the capacity on are written). -/
theorem sediment_overflow (nb cap : Nat) (h : nb ≤ cap) :
    ∃ (p : Par ℚ) (xg h0 h : Nat → ℚ), Geom p ∧ Even p.ncx p.dx xg ∧
      cap < nb + (addPartSed p (polyFit p.ncx p.dx xg h0 (fun _ => 0, fun _ => 0)) (polyFit p.ncx p.dx xg h (fun _ => 0, fun _ => 0)) 0).length := by
  have flat : ∀ (n : Nat) (c : ℚ) (k : Nat) (ip : Bool),
      height (polyFit n (1 : ℚ) (fun j => (j : ℚ)) (fun _ => c) (fun _ => 0, fun _ => 0))
        (P2M.nearest n ((0 : ℚ) + 1 / 2) 1 (sedX (⟨n, 1, 0, (n : ℚ), 0⟩ : Par ℚ) k ip)) (sedX (⟨n, 1, 0, (n : ℚ), 0⟩ : Par ℚ) k ip) = c ∨ n = 0 := by
    intro n c k ip
    by_cases hn : n = 0
    · right; exact hn
    · left
      have hb : ∃ j : Nat, j < n ∧ P2M.nearest n ((0 : ℚ) + 1 / 2) 1 (sedX ⟨n, 1, 0, n, 0⟩ k ip) = j := by
        unfold P2M.nearest
        simp only
        split_ifs with h1 h2 h2
        · exact ⟨n - 1, by omega, by omega⟩
        · exact ⟨0, by omega, by simp⟩
        · exact ⟨n - 1, by omega, by omega⟩
        · exact ⟨(⌈(sedX (⟨n, 1, 0, n, 0⟩ : Par ℚ) k ip - (0 + 1 / 2)) / 1 + 1 / 2⌉ - 1).toNat, by omega, by omega⟩
      obtain ⟨j, hj, e⟩ := hb
      rw [e]
      obtain ⟨e1, e2⟩ := polyFit_spec n (1 : ℚ) (fun j => (j : ℚ)) (fun _ => c) (fun _ => 0, fun _ => 0) j hj
      unfold height
      rw [Int.toNat_natCast, e1, e2]
      ring
  refine ⟨⟨cap + 1, 1, 0, ((cap + 1 : Nat) : ℚ), 0⟩, fun j => (j : ℚ), fun _ => 0, fun _ => 1, ⟨?_, ?_, ?_⟩, ?_, ?_⟩
  · simp
  · simp
  · simp
  · intro j _; simp
  · have hl : (addPartSed (⟨cap + 1, 1, 0, ((cap + 1 : Nat) : ℚ), 0⟩ : Par ℚ)
        (polyFit (cap + 1) 1 (fun j => (j : ℚ)) (fun _ => 0) (fun _ => 0, fun _ => 0))
        (polyFit (cap + 1) 1 (fun j => (j : ℚ)) (fun _ => 1) (fun _ => 0, fun _ => 0)) 0).length = 2 * (2 * (cap + 1)) := by
      unfold addPartSed
      rw [List.length_flatMap]
      have h2 : ∀ l : List Nat, ∀ f : Nat → Nat, (∀ k, f k = 2) → (l.map f).sum = 2 * l.length := by
        intro l f hf
        induction l with
        | nil => simp
        | cons a l ih => simp only [List.map_cons, List.sum_cons, List.length_cons, ih, hf]; omega
      rw [h2, List.length_range]
      · rfl
      · intro k
        rw [List.length_flatMap]
        have f0 := fun ip => (flat (cap + 1) 0 k ip).resolve_right (by omega)
        have f1 := fun ip => (flat (cap + 1) 1 k ip).resolve_right (by omega)
        simp only [List.map_cons, List.map_nil, List.sum_cons, List.sum_nil, f0, f1]
        norm_num
    simp only [hl]
    omega

/-! ### C34 -/

/-- Explicit diffusion step with diffusivity `D` over time `τ`, ends fixed (specification). -/
def explicitStep (size : Nat) (dx D τ : K) (h : Nat → K) (i : Nat) : K :=
  if 1 ≤ i ∧ i < size - 1 then h i + D * τ * ((h (i + 1) - h i) / dx - (h i - h (i - 1)) / dx) / dx else h i

theorem nstep_pos (d : Diff K) (hd : 0 < d.diff) (hx : 0 < d.dx) (ht : 0 < d.time) :
    0 < d.dt ∧ 1 ≤ d.nstep ∧ d.dtr ≤ d.dt ∧ 0 < d.dtr ∧ d.nstep * d.dtr = d.time := by
  have hdt : 0 < d.dt := by
    unfold Diff.dt
    have : (0 : K) < 4 / 10 * d.dx * d.dx := by positivity
    positivity
  have hq : 0 < d.time / d.dt := div_pos ht hdt
  have hf : 1 ≤ ⌊d.time / d.dt + 1⌋ := by rw [Int.le_floor]; push_cast; linarith
  have hn : 1 ≤ d.nstep := by unfold Diff.nstep; omega
  have hcast : ((d.nstep : Nat) : K) = ((⌊d.time / d.dt + 1⌋ : Int) : K) := by
    have : ((d.nstep : Nat) : Int) = ⌊d.time / d.dt + 1⌋ := by unfold Diff.nstep; omega
    rw [← this]; push_cast; rfl
  have hn0 : (0 : K) < d.nstep := by exact_mod_cast hn
  refine ⟨hdt, hn, ?_, ?_, ?_⟩
  · unfold Diff.dtr
    split_ifs with h
    · exact h.le
    · rw [div_le_iff₀ hn0, hcast]
      have := Int.lt_floor_add_one (d.time / d.dt + 1)
      have h2 : d.time / d.dt * d.dt = d.time := div_mul_cancel₀ _ hdt.ne'
      have h3 : d.time / d.dt ≤ (⌊d.time / d.dt + 1⌋ : K) := by linarith
      nlinarith
  · unfold Diff.dtr
    split_ifs with h
    · exact ht
    · exact div_pos ht hn0
  · unfold Diff.dtr
    split_ifs with h
    · have : d.nstep = 1 := by
        have h1 : d.time / d.dt < 1 := by rw [div_lt_one hdt]; exact h
        have h2 : ⌊d.time / d.dt + 1⌋ < 2 := by rw [Int.floor_lt]; push_cast; linarith
        unfold Diff.nstep
        omega
      rw [this]; simp
    · rw [mul_div_cancel₀ _ hn0.ne']

theorem correct_bound (d : Diff K) (hd : 0 < d.diff) (hx : 0 < d.dx) (ht : 0 < d.time) (h : Nat → K) (i : Nat) :
    ∃ c : K, 0 ≤ c ∧ 2 * c ≤ 1 ∧ correct d h i = c * (h (i - 1) + h (i + 1) - 2 * h i) := by
  obtain ⟨hdt, _, hle, h0, _⟩ := nstep_pos d hd hx ht
  have hc0 : 0 ≤ 1 / 2 * d.dtr / d.dx / d.dx * d.diff := by positivity
  have hc1 : 1 / 2 * d.dtr / d.dx / d.dx * d.diff ≤ 2 / 10 := by
    have e : d.dt * d.diff = 4 / 10 * d.dx * d.dx := by unfold Diff.dt; field_simp
    have : d.dtr * d.diff ≤ 4 / 10 * d.dx * d.dx := by rw [← e]; exact mul_le_mul_of_nonneg_right hle hd.le
    have e2 : 1 / 2 * d.dtr / d.dx / d.dx * d.diff = (d.dtr * d.diff) / (2 * d.dx * d.dx) := by field_simp
    rw [e2, div_le_iff₀ (by positivity)]
    linarith
  unfold correct
  simp only
  split_ifs
  · exact ⟨1 / 2 * d.dtr / d.dx / d.dx * d.diff + 1 / 2 * d.dtr / d.dx / d.dx * d.diff, by linarith, by linarith, by ring⟩
  · exact ⟨_, hc0, by linarith, rfl⟩

/-- **C34, the part that holds.**  The sub-steps add up to the requested time, each respects the explicit stability
limit; end points keep their height; without sedimentation no new extremum appears (in particular a
constant profile stays constant). -/
theorem diffusion_partial (d : Diff K) (hd : 0 < d.diff) (hx : 0 < d.dx) (ht : 0 < d.time) (hs : 2 ≤ d.size) (h : Nat → K) :
    d.nstep * d.dtr = d.time ∧ d.diff * d.dtr ≤ 4 / 10 * d.dx ^ 2 ∧
    diffuse d h 0 = h 0 ∧ diffuse d h (d.size - 1) = h (d.size - 1) ∧
    (d.rate = 0 → ∀ lo hi, (∀ i < d.size, lo ≤ h i ∧ h i ≤ hi) → ∀ i < d.size, lo ≤ diffuse d h i ∧ diffuse d h i ≤ hi) := by
  obtain ⟨hdt, _, hle, h0, hsum⟩ := nstep_pos d hd hx ht
  refine ⟨hsum, ?_, ?_, ?_, ?_⟩
  · have e : d.dt * d.diff = 4 / 10 * d.dx * d.dx := by unfold Diff.dt; field_simp
    have : d.dtr * d.diff ≤ d.dt * d.diff := mul_le_mul_of_nonneg_right hle hd.le
    rw [e] at this
    linarith [sq d.dx]
  · unfold diffuse
    exact forUp_inv (s := h) (P := fun _ (b : Nat → K) => b 0 = h 0) _ rfl
      (fun k b _ hb => by simp only [diffStep]; rw [if_neg (by omega)]; exact hb)
  · unfold diffuse
    exact forUp_inv (s := h) (P := fun _ (b : Nat → K) => b (d.size - 1) = h (d.size - 1)) _ rfl
      (fun k b _ hb => by simp only [diffStep]; rw [if_neg (by omega)]; exact hb)
  · intro hr lo hi hb
    unfold diffuse
    refine forUp_inv (s := h) (P := fun _ (b : Nat → K) => ∀ i < d.size, lo ≤ b i ∧ b i ≤ hi) _ hb ?_
    intro k b _ ih i hi'
    simp only [diffStep]
    split_ifs with h1 h2
    · obtain ⟨c, c0, c1, e⟩ := correct_bound d hd hx ht b i
      have a1 := ih (i - 1) (by omega)
      have a2 := ih (i + 1) (by omega)
      have a3 := ih i hi'
      rw [e, hr]
      constructor
      · nlinarith [mul_nonneg c0 (sub_nonneg.mpr a1.1), mul_nonneg c0 (sub_nonneg.mpr a2.1),
          mul_nonneg (show (0 : K) ≤ 1 - 2 * c by linarith) (sub_nonneg.mpr a3.1)]
      · nlinarith [mul_nonneg c0 (sub_nonneg.mpr a1.2), mul_nonneg c0 (sub_nonneg.mpr a2.2),
          mul_nonneg (show (0 : K) ≤ 1 - 2 * c by linarith) (sub_nonneg.mpr a3.2)]
    · obtain ⟨c, c0, c1, e⟩ := correct_bound d hd hx ht b i
      have a1 := ih (i - 1) (by omega)
      have a2 := ih (i + 1) (by omega)
      have a3 := ih i hi'
      rw [e]
      constructor
      · nlinarith [mul_nonneg c0 (sub_nonneg.mpr a1.1), mul_nonneg c0 (sub_nonneg.mpr a2.1),
          mul_nonneg (show (0 : K) ≤ 1 - 2 * c by linarith) (sub_nonneg.mpr a3.1)]
      · nlinarith [mul_nonneg c0 (sub_nonneg.mpr a1.2), mul_nonneg c0 (sub_nonneg.mpr a2.2),
          mul_nonneg (show (0 : K) ≤ 1 - 2 * c by linarith) (sub_nonneg.mpr a3.2)]
    · exact ih i hi'

/-- **C34, sedimentation.**  With a non-negative rate, a sub-step adds material only to points below the base level, at exactly the
given rate; points at or above the base level are only diffused. -/
theorem sedimentation_below_base (d : Diff K) (h : Nat → K) (i : Nat) (h1 : 1 ≤ i) (h2 : i < d.size - 1) :
    (h i < d.base → diffStep d h i = diffStep { d with rate := 0 } h i + d.rate * d.dtr) ∧
    (d.base ≤ h i → diffStep d h i = diffStep { d with rate := 0 } h i) := by
  have e : diffStep { d with rate := 0 } h i = h i + correct d h i := by
    have : diffStep { d with rate := 0 } h i = if 1 ≤ i ∧ i < d.size - 1 then
      h i + correct d h i + (if h i < d.base then 0 * d.dtr else 0) else h i := rfl
    rw [this, if_pos ⟨h1, h2⟩]
    simp
  rw [e]
  unfold diffStep
  rw [if_pos ⟨h1, h2⟩]
  constructor
  · intro hb; rw [if_pos hb]
  · intro hb; rw [if_neg (not_lt.mpr hb), add_zero]

/-- **C34 fails: diffusivity.**  Unless the grid has three columns, the result is that of the explicit scheme with
HALF the configured diffusivity. -/
theorem diffusion_half (d : Diff K) (hx : 0 < d.dx) (hr : d.rate = 0) (hs : d.size ≠ 3) (h : Nat → K) :
    diffuse d h = forUp d.nstep h fun b _ => explicitStep d.size d.dx (d.diff / 2) d.dtr b := by
  unfold diffuse
  congr 1
  funext b _ i
  unfold diffStep explicitStep
  split_ifs with h1 h2
  · unfold correct
    rw [if_neg (by omega), hr]
    field_simp
    ring
  · unfold correct
    rw [if_neg (by omega)]
    field_simp
    ring
  · rfl

/-- **C34 fails, observable form.**  On the profile `x²` the diffusion equation raises interior points by
`2·diffusivity·time`; the code raises them by half of it. -/
theorem diffusion_parabola (d : Diff K) (hd : 0 < d.diff) (hx : 0 < d.dx) (ht : 0 < d.time) (hone : d.time < d.dt)
    (hr : d.rate = 0) (hs : d.size ≠ 3) (i : Nat) (h1 : 1 ≤ i) (h2 : i < d.size - 1) :
    diffuse d (fun j => (j * d.dx) ^ 2) i = (i * d.dx) ^ 2 + d.diff * d.time := by
  obtain ⟨hdt, hn, hle, h0, hsum⟩ := nstep_pos d hd hx ht
  have hdtr : d.dtr = d.time := by unfold Diff.dtr; rw [if_pos hone]
  have hn1 : d.nstep = 1 := by
    have h1 : d.time / d.dt < 1 := by rw [div_lt_one hdt]; exact hone
    have h2 : ⌊d.time / d.dt + 1⌋ < 2 := by rw [Int.floor_lt]; push_cast; linarith
    unfold Diff.nstep at hn ⊢
    omega
  rw [diffusion_half d hx hr hs, hn1, hdtr]
  show explicitStep d.size d.dx (d.diff / 2) d.time (fun j => (j * d.dx) ^ 2) i = _
  unfold explicitStep
  rw [if_pos ⟨h1, h2⟩]
  simp only
  obtain ⟨m, rfl⟩ : ∃ m, i = m + 1 := ⟨i - 1, by omega⟩
  rw [Nat.add_sub_cancel]
  push_cast
  field_simp
  ring

example : ∃ d : Diff ℚ, 0 < d.diff ∧ 0 < d.dx ∧ 0 < d.time ∧ d.time < d.dt ∧ d.rate = 0 ∧ d.size = 6 :=
  ⟨⟨6, 1, 1, 1 / 4, 0, 0⟩, by norm_num, by norm_num, by norm_num, by norm_num [Diff.dt], rfl, rfl⟩

/-! ### C63 -/

theorem chainSum_spec (n : Nat) (ms : Nat → Mk K) :
    (chainSum n ms).1 = (((List.range n).filter fun i => -1 < (ms i).phase).map fun i => (ms i).z).sum ∧
    (chainSum n ms).2 = ((List.range n).filter fun i => -1 < (ms i).phase).length := by
  unfold chainSum
  refine forUp_inv (s := ((0 : K), 0)) (P := fun m (c : K × Nat) =>
    c.1 = (((List.range m).filter fun i => -1 < (ms i).phase).map fun i => (ms i).z).sum ∧
    c.2 = ((List.range m).filter fun i => -1 < (ms i).phase).length) n (by simp) ?_
  intro k c _ ⟨h1, h2⟩
  rw [List.range_succ, List.filter_append]
  by_cases h : -1 < (ms k).phase
  · simp [h, h1, h2]
  · simp [h, h1, h2]

theorem sum_sub_const (l : List Nat) (f : Nat → K) (c : K) : (l.map fun i => f i - c).sum = (l.map f).sum - l.length * c := by
  induction l with
  | nil => simp
  | cons a l ih => simp only [List.map_cons, List.sum_cons, ih, List.length_cons]; push_cast; ring

/-- Sum of the heights of the live markers of the chain (`nb` of them in use). -/
def liveSum (nb : Nat) (ms : Nat → Mk K) : K := (((List.range nb).filter fun i => -1 < (ms i).phase).map fun i => (ms i).z).sum

/-- **C63, the part that holds.**  The nodal heights have zero sum afterwards; so do the heights of the live chain markers,
provided the unused slots of the allocation carry an inactive flag. -/
theorem zero_mean_partial (Nx : Nat) (hN : 1 ≤ Nx) (h : Nat → K) (nb nbMax : Nat) (hle : nb ≤ nbMax) (ms : Nat → Mk K)
    (hun : ∀ i, nb ≤ i → i < nbMax → (ms i).phase = -1) :
    ((List.range Nx).map (zeroMeanGrid Nx h)).sum = 0 ∧ liveSum nb (zeroMeanChain nbMax ms) = 0 ∧
    (∀ i, (zeroMeanChain nbMax ms i).x = (ms i).x ∧ (zeroMeanChain nbMax ms i).phase = (ms i).phase) := by
  refine ⟨?_, ?_, ?_⟩
  · have e : ((List.range Nx).map (zeroMeanGrid Nx h)) = (List.range Nx).map fun i => h i - (forUp Nx (0 : K) fun s i => s + h i) / Nx := by
      apply List.map_congr_left
      intro i hi
      unfold zeroMeanGrid
      rw [if_pos (List.mem_range.mp hi)]
    have hsum : (forUp Nx (0 : K) fun s i => s + h i) = ((List.range Nx).map h).sum := by
      refine forUp_inv (s := (0 : K)) (P := fun m (c : K) => c = ((List.range m).map h).sum) Nx (by simp) ?_
      intro k c _ hc
      rw [List.range_succ, List.map_append, List.sum_append, hc]
      simp
    have hN' : (Nx : K) ≠ 0 := by
      have : 0 < Nx := hN
      exact_mod_cast this.ne'
    rw [e, sum_sub_const, hsum, List.length_range]
    field_simp
    ring
  · have hfil : ∀ (m : Nat → Mk K), (∀ i, (m i).phase = (ms i).phase) →
        ((List.range nb).filter fun i => -1 < (m i).phase) = (List.range nbMax).filter fun i => -1 < (ms i).phase := by
      intro m hm
      obtain ⟨c, rfl⟩ : ∃ c, nbMax = nb + c := ⟨nbMax - nb, by omega⟩
      rw [List.range_add, List.filter_append, List.filter_map]
      rw [show List.filter ((fun i => decide (-1 < (ms i).phase)) ∘ fun x => nb + x) (List.range c) = [] from ?_]
      · simp only [hm, List.map_nil, List.append_nil]
      · rw [List.filter_eq_nil_iff]
        intro a ha
        rw [List.mem_range] at ha
        simp [hun (nb + a) (by omega) (by omega)]
    have hph : ∀ i, (zeroMeanChain nbMax ms i).phase = (ms i).phase := by
      intro i; unfold zeroMeanChain; split_ifs <;> rfl
    unfold liveSum
    rw [hfil _ hph]
    obtain ⟨s1, s2⟩ := chainSum_spec nbMax ms
    set L := (List.range nbMax).filter fun i => -1 < (ms i).phase with hL
    have e : (L.map fun i => (zeroMeanChain nbMax ms i).z) = L.map fun i => (ms i).z - (chainSum nbMax ms).1 / (chainSum nbMax ms).2 := by
      apply List.map_congr_left
      intro i hi
      rw [hL, List.mem_filter, List.mem_range] at hi
      unfold zeroMeanChain
      rw [if_pos hi.1]
    rw [e, sum_sub_const, s1, s2]
    by_cases h0 : L.length = 0
    · rw [h0, List.length_eq_zero_iff.mp h0]; simp
    · have : (L.length : K) ≠ 0 := by exact_mod_cast h0
      field_simp
      ring
  · intro i
    unfold zeroMeanChain
    split_ifs <;> exact ⟨rfl, rfl⟩

/-- **C63 fails.**  The flags of unused slots are zero after allocation, so their (uninitialised) heights enter the mean:
two markers of height 1 in an allocation of four, the other two slots containing 0, end at height 1/2. -/
theorem zero_mean_counts_unused :
    ∃ ms : Nat → Mk ℚ, (∀ i < 4, (ms i).phase = 0) ∧ liveSum 2 (zeroMeanChain 4 ms) = 1 :=
  ⟨fun i => if i < 2 then ⟨0, 1, 0⟩ else ⟨0, 0, 0⟩, by intro i _; simp only; split_ifs <;> rfl, by decide +kernel⟩

/-! ### C64 -/

/-- At least two columns, column centres equally spaced. -/
structure ProjOk (g : Proj K) (nb : Nat) (ms : Nat → Chain K) : Prop where
  n : 3 ≤ g.Nx
  dx : 0 < g.dx
  xc : ∀ j : Int, g.xc j = g.xc 0 + j * g.dx

/-- Column of a chain marker. -/
def projCol (g : Proj K) (m : Chain K) : Int := ⌈(m.x - g.xc 0) / g.dx + 1 / 2⌉ - 1

/-- Weight of a marker for its column. -/
def projW (g : Proj K) (m : Chain K) : K := 1 - 2 * |g.xc (projCol g m) - m.x| / g.dx

/-- Value of a marker. -/
def projV (g : Proj K) (m : Chain K) : K := if g.update then m.z - m.z0 else m.z

theorem projW_nonneg (g : Proj K) (hdx : 0 < g.dx) (hxc : ∀ j : Int, g.xc j = g.xc 0 + j * g.dx) (m : Chain K) :
    0 ≤ projW g m ∧ |g.xc (projCol g m) - m.x| ≤ g.dx / 2 := by
  have h1 := Int.le_ceil ((m.x - g.xc 0) / g.dx + 1 / 2)
  have h2 := Int.ceil_lt_add_one ((m.x - g.xc 0) / g.dx + 1 / 2)
  have e : (m.x - g.xc 0) / g.dx * g.dx = m.x - g.xc 0 := div_mul_cancel₀ _ hdx.ne'
  have hb : |g.xc (projCol g m) - m.x| ≤ g.dx / 2 := by
    rw [hxc (projCol g m)]
    unfold projCol
    push_cast
    set u := (m.x - g.xc 0) / g.dx
    set c : K := (⌈u + 1 / 2⌉ : K)
    rw [abs_le]
    constructor <;> nlinarith
  refine ⟨?_, hb⟩
  unfold projW
  rw [sub_nonneg, div_le_one hdx]
  linarith

theorem accum_spec (g : Proj K) (nb : Nat) (ms : Nat → Chain K) (j : Int) :
    (accum g nb ms).1 j = (((List.range nb).filter fun k => (ms k).phase ≠ -1 ∧ projCol g (ms k) = j).map fun k => projW g (ms k)).sum ∧
    (accum g nb ms).2 j = (((List.range nb).filter fun k => (ms k).phase ≠ -1 ∧ projCol g (ms k) = j).map fun k =>
      projV g (ms k) * projW g (ms k)).sum := by
  unfold accum
  refine forUp_inv (s := ((fun _ => 0 : Int → K), (fun _ => 0 : Int → K))) (P := fun m (c : (Int → K) × (Int → K)) =>
    c.1 j = (((List.range m).filter fun k => (ms k).phase ≠ -1 ∧ projCol g (ms k) = j).map fun k => projW g (ms k)).sum ∧
    c.2 j = (((List.range m).filter fun k => (ms k).phase ≠ -1 ∧ projCol g (ms k) = j).map fun k =>
      projV g (ms k) * projW g (ms k)).sum) nb (by simp) ?_
  intro k c _ ⟨h1, h2⟩
  rw [List.range_succ, List.filter_append]
  by_cases hp : (ms k).phase ≠ -1
  · rw [if_pos hp]
    by_cases hj : projCol g (ms k) = j
    · have hc : (⌈((ms k).x - g.xc 0) / g.dx + 1 / 2⌉ - 1 : Int) = j := hj
      rw [List.filter_singleton]
      simp only [hc, if_true, ne_eq, hp, not_false_eq_true, hj, and_self, decide_true, List.map_append, List.sum_append, h1, h2,
        List.map_cons, List.map_nil, List.sum_cons, List.sum_nil, add_zero, cond_true, projW, projV]
    · have hc : ¬ j = (⌈((ms k).x - g.xc 0) / g.dx + 1 / 2⌉ - 1 : Int) := fun e => hj e.symm
      rw [List.filter_singleton]
      simp only [if_neg hc, ne_eq, hj, and_false, decide_false, List.append_nil, h1, h2, cond_false, and_self]
  · rw [if_neg hp, List.filter_singleton]
    simp only [hp, ne_eq, false_and, decide_false, List.append_nil, h1, h2, cond_false, and_self]

theorem weighted_between (l : List Nat) (v w : Nat → K) (lo hi : K) (hw : ∀ k ∈ l, 0 ≤ w k) (hv : ∀ k ∈ l, lo ≤ v k ∧ v k ≤ hi) :
    lo * (l.map w).sum ≤ (l.map fun k => v k * w k).sum ∧ (l.map fun k => v k * w k).sum ≤ hi * (l.map w).sum := by
  induction l with
  | nil => simp
  | cons a l ih =>
    obtain ⟨i1, i2⟩ := ih (fun k hk => hw k (List.mem_cons_of_mem _ hk)) (fun k hk => hv k (List.mem_cons_of_mem _ hk))
    have w0 := hw a List.mem_cons_self
    have v0 := hv a List.mem_cons_self
    simp only [List.map_cons, List.sum_cons]
    constructor
    · nlinarith [mul_le_mul_of_nonneg_right v0.1 w0]
    · nlinarith [mul_le_mul_of_nonneg_right v0.2 w0]

/-- A live marker in the middle half of the column. -/
def Covered (g : Proj K) (nb : Nat) (ms : Nat → Chain K) (j : Int) : Prop :=
  ∃ k < nb, (ms k).phase ≠ -1 ∧ |(ms k).x - g.xc j| ≤ g.dx / 4

theorem covered_weight (g : Proj K) (nb : Nat) (ms : Nat → Chain K) (ok : ProjOk g nb ms) (j : Int) (hc : Covered g nb ms j) :
    1 / 2 ≤ (accum g nb ms).1 j := by
  obtain ⟨k, hk, hp, hx⟩ := hc
  have hdx := ok.dx
  have hcol : projCol g (ms k) = j := by
    unfold projCol
    rw [sub_eq_iff_eq_add, Int.ceil_eq_iff]
    rw [abs_le, ok.xc j] at hx
    have e : ((ms k).x - g.xc 0) / g.dx * g.dx = (ms k).x - g.xc 0 := div_mul_cancel₀ _ hdx.ne'
    set u := ((ms k).x - g.xc 0) / g.dx
    push_cast
    constructor
    · by_contra hcon
      push Not at hcon
      nlinarith [mul_le_mul_of_nonneg_right hcon hdx.le]
    · by_contra hcon
      push Not at hcon
      nlinarith [mul_le_mul_of_nonneg_right hcon.le hdx.le]
  rw [(accum_spec g nb ms j).1]
  set L := (List.range nb).filter fun k => (ms k).phase ≠ -1 ∧ projCol g (ms k) = j
  have hkL : k ∈ L := by
    simp only [L, List.mem_filter, List.mem_range, decide_eq_true_eq]
    exact ⟨hk, hp, hcol⟩
  have hge : projW g (ms k) ≤ (L.map fun k => projW g (ms k)).sum := by
    apply List.single_le_sum
    · intro x hx
      rw [List.mem_map] at hx
      obtain ⟨a, _, rfl⟩ := hx
      exact (projW_nonneg g hdx ok.xc _).1
    · exact List.mem_map_of_mem hkL
  refine le_trans ?_ hge
  unfold projW
  rw [hcol, abs_sub_comm]
  have : 2 * |(ms k).x - g.xc j| / g.dx ≤ 1 / 2 := by rw [div_le_iff₀ hdx]; linarith
  linarith

/-- **C64.**  If every column has a live marker in its middle half, every nodal height obtained from the chain lies
between the lowest and the highest live marker; in the incremental mode the same holds for the change of
height relative to the old nodal height and the rise of the markers. -/
theorem projection_between (g : Proj K) (nb : Nat) (ms : Nat → Chain K) (ok : ProjOk g nb ms)
    (hcov : ∀ j : Nat, j < g.Nx - 1 → Covered g nb ms j) (h0 : Nat → K) (lo hi : K) :
    (g.update = false → (∀ k < nb, (ms k).phase ≠ -1 → lo ≤ (ms k).z ∧ (ms k).z ≤ hi) →
      ∀ i < g.Nx, lo ≤ projHeight g nb ms h0 i ∧ projHeight g nb ms h0 i ≤ hi) ∧
    (g.update = true → (∀ k < nb, (ms k).phase ≠ -1 → lo ≤ (ms k).z - (ms k).z0 ∧ (ms k).z - (ms k).z0 ≤ hi) →
      ∀ i, 1 ≤ i → i < g.Nx - 1 → h0 i + lo ≤ projHeight g nb ms h0 i ∧ projHeight g nb ms h0 i ≤ h0 i + hi) := by
  have hn := ok.n
  have hdelta : (∀ k < nb, (ms k).phase ≠ -1 → lo ≤ projV g (ms k) ∧ projV g (ms k) ≤ hi) →
      ∀ j : Nat, j < g.Nx - 1 → lo ≤ delta g nb ms j ∧ delta g nb ms j ≤ hi := by
    intro hv j hj
    have hw := covered_weight g nb ms ok j (hcov j hj)
    have hpos : 0 < (accum g nb ms).1 j := by linarith
    unfold delta
    rw [if_neg (by
      have : (1 : K) / 10 ^ 30 ≤ 1 / 2 := by norm_num
      push Not
      linarith)]
    obtain ⟨e1, e2⟩ := accum_spec g nb ms j
    have := weighted_between ((List.range nb).filter fun k => (ms k).phase ≠ -1 ∧ projCol g (ms k) = j)
      (fun k => projV g (ms k)) (fun k => projW g (ms k)) lo hi (fun k _ => (projW_nonneg g ok.dx ok.xc _).1) (fun k hk => by
        simp only [List.mem_filter, List.mem_range, decide_eq_true_eq] at hk
        exact hv k hk.1 hk.2.1)
    rw [← e1, ← e2] at this
    exact ⟨by rw [le_div_iff₀ hpos]; exact this.1, by rw [div_le_iff₀ hpos]; exact this.2⟩
  constructor
  · intro hu hv i hi'
    have hd := hdelta (by intro k hk hp; unfold projV; rw [hu]; exact hv k hk hp)
    have inner : ∀ k : Nat, 1 ≤ k → k < g.Nx - 1 → lo ≤ 1 / 2 * (delta g nb ms k + delta g nb ms ((k : Int) - 1)) ∧
        1 / 2 * (delta g nb ms k + delta g nb ms ((k : Int) - 1)) ≤ hi := by
      intro k h1 h2
      have a := hd k h2
      have b := hd (k - 1) (by omega)
      rw [show ((k - 1 : Nat) : Int) = (k : Int) - 1 by omega] at b
      constructor <;> linarith [a.1, a.2, b.1, b.2]
    unfold projHeight
    simp only [hu, Bool.false_eq_true, if_false]
    split_ifs with h1 h2
    · exact inner 1 (le_refl _) (by omega)
    · exact inner (g.Nx - 2) (by omega) (by omega)
    · exact inner i (by omega) (by omega)
  · intro hu hv i h1 h2
    have hd := hdelta (by intro k hk hp; unfold projV; rw [hu]; exact hv k hk hp)
    unfold projHeight
    simp only [hu, if_true]
    rw [if_neg (by omega), if_neg (by omega)]
    have a := hd i h2
    have b := hd (i - 1) (by omega)
    rw [show ((i - 1 : Nat) : Int) = (i : Int) - 1 by omega] at b
    constructor <;> linarith [a.1, a.2, b.1, b.2]

/-- Heights at the centroids of the twice finer mesh stay between the nodal heights of the cell. -/
theorem finer_between (h : Nat → K) (k : Nat) :
    min (h (k / 2)) (h (k / 2 + 1)) ≤ finer h k ∧ finer h k ≤ max (h (k / 2)) (h (k / 2 + 1)) := by
  unfold finer
  have a1 := min_le_left (h (k / 2)) (h (k / 2 + 1))
  have a2 := min_le_right (h (k / 2)) (h (k / 2 + 1))
  have b1 := le_max_left (h (k / 2)) (h (k / 2 + 1))
  have b2 := le_max_right (h (k / 2)) (h (k / 2 + 1))
  split_ifs <;> constructor <;> linarith

/-- On a surface with constant slope the heights on the finer mesh are exact: centroid `k` of the finer mesh lies at
`(k + 1/2)/2` node spacings. -/
theorem finer_exact (a b : K) (k : Nat) : finer (fun i => a + b * i) k = a + b * ((k + 1 / 2) / 2) := by
  unfold finer
  have h2 : (k : K) = 2 * ((k / 2 : Nat) : K) + ((k % 2 : Nat) : K) := by exact_mod_cast (Nat.div_add_mod k 2).symm
  split_ifs with h
  · rw [h] at h2
    rw [h2]
    push_cast
    ring
  · have h1 : k % 2 = 1 := by omega
    rw [h1] at h2
    rw [h2]
    push_cast
    ring

/-- A live marker exactly on the western side of the box is attributed to column -1, outside the arrays. -/
theorem projection_west_side (g : Proj K) (hdx : 0 < g.dx) (m : Chain K) (h : m.x = g.xc 0 - g.dx / 2) : projCol g m = -1 := by
  unfold projCol
  rw [h, show (g.xc 0 - g.dx / 2 - g.xc 0) / g.dx + 1 / 2 = 0 by field_simp; ring, Int.ceil_zero]
  rfl

/-- Two columns, one marker in the middle of each. -/
example : ∃ (g : Proj ℚ) (ms : Nat → Chain ℚ), ProjOk g 2 ms ∧ g.Nx = 3 ∧ ∀ j : Nat, j < g.Nx - 1 → Covered g 2 ms j := by
  refine ⟨⟨3, 1, fun j => j, false⟩, fun k => ⟨k, k, 0, 0⟩, ⟨by norm_num, by norm_num, fun j => by simp⟩, rfl, ?_⟩
  intro j hj
  exact ⟨j, by simpa using hj, by norm_num, by norm_num⟩

end Verif.Surf
