import Verif.Model.InputUnits
import Verif.Spec.Units
import Verif.Props.Rheology
import Mathlib.Tactic.FieldSimp
import Mathlib.Tactic.Linarith
import Mathlib.Tactic.Positivity
import Mathlib.Tactic.NormNum

/-
C114: every number of the input file is stored in the unit of its dimension, whatever characteristic
scales the user chooses.  C115: which material parameters are accepted.
-/
set_option linter.unusedVariables false
set_option linter.unusedSimpArgs false

namespace Verif.Units
open Verif Spec.Units

/-- Exponents of mass, length, time, temperature of a divisor. -/
def U.dim : U → Int × Int × Int × Int
  | .one => (0, 0, 0, 0)
  | .L => (0, 1, 0, 0)
  | .V => (0, 1, -1, 0)
  | .T => (0, 0, 0, 1)
  | .t => (0, 0, 1, 0)
  | .a => (0, 1, -2, 0)
  | .E => (0, 0, -1, 0)
  | .S => (1, -1, -2, 0)
  | .rho => (1, -3, 0, 0)
  | .eta => (1, -1, -1, 0)
  | .Cp => (0, 2, -2, -1)
  | .k => (1, 1, -3, -1)
  | .W => (1, 2, -3, 0)
  | .mul x y => x.dim + y.dim
  | .div x y => x.dim - y.dim
  | .pow x n => (n : Int) • x.dim

theorem unit_add {eta L V T : ℝ} (he : 0 < eta) (hL : 0 < L) (hV : 0 < V) (hT : 0 < T)
    (m l t h m' l' t' h' : Int) :
    unit eta L V T (m + m') (l + l') (t + t') (h + h') = unit eta L V T m l t h * unit eta L V T m' l' t' h' := by
  have h1 : eta * L * (L / V) ≠ 0 := by positivity
  have h2 : L / V ≠ 0 := by positivity
  unfold unit
  rw [zpow_add₀ h1, zpow_add₀ hL.ne', zpow_add₀ h2, zpow_add₀ hT.ne']
  ring

theorem unit_neg {eta L V T : ℝ} (he : 0 < eta) (hL : 0 < L) (hV : 0 < V) (hT : 0 < T)
    (m l t h : Int) : unit eta L V T (-m) (-l) (-t) (-h) = (unit eta L V T m l t h)⁻¹ := by
  unfold unit
  simp only [zpow_neg, mul_inv]

theorem unit_pos {eta L V T : ℝ} (he : 0 < eta) (hL : 0 < L) (hV : 0 < V) (hT : 0 < T)
    (m l t h : Int) : 0 < unit eta L V T m l t h := by
  unfold unit
  positivity

theorem unit_nsmul {eta L V T : ℝ} (he : 0 < eta) (hL : 0 < L) (hV : 0 < V) (hT : 0 < T)
    (m l t h : Int) (n : Nat) :
    unit eta L V T (n * m) (n * l) (n * t) (n * h) = unit eta L V T m l t h ^ n := by
  induction n with
  | zero => simp [unit]
  | succ n ih =>
    rw [pow_succ, ← ih, ← unit_add he hL hV hT]
    push_cast
    congr 1 <;> ring

/-- The divisors are the units of their dimensions. -/
theorem val_unit {eta L V T : ℝ} (he : 0 < eta) (hL : 0 < L) (hV : 0 < V) (hT : 0 < T) (u : U) :
    u.val (Config.scaleMe eta L V T) = unit eta L V T u.dim.1 u.dim.2.1 u.dim.2.2.1 u.dim.2.2.2 := by
  induction u with
  | mul x y hx hy =>
    simp only [U.val, U.dim, hx, hy]
    rw [← unit_add he hL hV hT]
    rfl
  | div x y hx hy =>
    simp only [U.val, U.dim, hx, hy]
    rw [div_eq_mul_inv, ← unit_neg he hL hV hT, ← unit_add he hL hV hT]
    simp only [← sub_eq_add_neg]
    rfl
  | pow x n hx =>
    simp only [U.val, U.dim, hx]
    rw [← unit_nsmul he hL hV hT]
    simp
  | _ =>
    simp only [U.val, U.dim, Config.scaleMe, unit, zpow_neg, zpow_zero, zpow_one, zpow_ofNat]
    try field_simp

/-- Conversion and meaning agree (on the level of exponents). -/
def agrees : Conv → Kind → Bool
  | .raw, .number => true
  | .per u, .si m l t h => u.dim == (m, l, t, h)
  | .angle, .angle => true
  | .celsius u, .celsius => u.dim == (0, 0, 0, 1)
  | _, _ => false

theorem agrees_means {eta L V T : ℝ} (he : 0 < eta) (hL : 0 < L) (hV : 0 < V) (hT : 0 < T) (c : Conv) (k : Kind)
    (h : agrees c k = true) (v : ℝ) : Means eta L V T (c.app (Config.scaleMe eta L V T) v) v k := by
  cases c with
  | raw => cases k <;> simp_all [agrees, Means, Conv.app]
  | angle =>
    cases k <;> simp_all [agrees, Means, Conv.app]
  | per u =>
    cases k <;> simp_all [agrees, Means, Conv.app]
    rw [val_unit he hL hV hT, h]
    exact div_mul_cancel₀ _ (unit_pos he hL hV hT _ _ _ _).ne'
  | celsius u =>
    cases k <;> simp_all [agrees, Means, Conv.app]
    rw [val_unit he hL hV hT, h]
    simp only [unit, zpow_zero, zpow_one, mul_one, one_mul]
    field_simp
    norm_num

theorem foldl_other (s : Config.Scale ℝ) (get : String → Option ℝ) (tab : List Param) (m : String → Option ℝ)
    (f : String) (h : f ∉ tab.map (·.field)) : tab.foldl (assign s get) m f = m f := by
  induction tab generalizing m with
  | nil => rfl
  | cons p tab ih =>
    simp only [List.map_cons, List.mem_cons, not_or] at h
    rw [List.foldl_cons, ih _ h.2]
    simp [assign, h.1]

theorem load_mem (s : Config.Scale ℝ) (get : String → Option ℝ) (tab : List Param) (m : String → Option ℝ)
    (hnd : (tab.map (·.field)).Nodup) (p : Param) (hp : p ∈ tab) :
    tab.foldl (assign s get) m p.field = some (p.conv.app s ((get p.name).getD p.dflt)) := by
  induction tab generalizing m with
  | nil => simp at hp
  | cons q tab ih =>
    simp only [List.map_cons, List.nodup_cons] at hnd
    rw [List.foldl_cons]
    rcases List.mem_cons.1 hp with rfl | hp
    · rw [foldl_other s get tab _ _ hnd.1]
      simp [assign]
    · exact ih _ hnd.2 hp

/-- Table and documentation match. -/
def covers (tab : List Param) (docs : List Doc) : Bool :=
  docs.all fun d => tab.any fun p => p.field == d.field && p.name == d.name && p.dflt == d.dflt && agrees p.conv d.kind

theorem covered {eta L V T : ℝ} (he : 0 < eta) (hL : 0 < L) (hV : 0 < V) (hT : 0 < T) (tab : List Param)
    (docs : List Doc) (hnd : (tab.map (·.field)).Nodup) (hc : covers tab docs = true)
    (get : String → Option ℝ) (d : Doc) (hd : d ∈ docs) :
    ∃ x, load (Config.scaleMe eta L V T) get tab d.field = some x
      ∧ Means eta L V T x ((get d.name).getD d.dflt) d.kind := by
  rw [covers, List.all_eq_true] at hc
  have h := hc d hd
  rw [List.any_eq_true] at h
  obtain ⟨p, hp, h⟩ := h
  simp only [Bool.and_eq_true, beq_iff_eq] at h
  obtain ⟨⟨⟨hf, hn⟩, hdf⟩, ha⟩ := h
  refine ⟨_, ?_, agrees_means he hL hV hT p.conv d.kind ha _⟩
  rw [← hf, ← hn, ← hdf]
  exact load_mem _ get tab _ hnd p hp

/-- Every real parameter of the model: the field holds the number of the file, or the default if there is
none, in the unit of its dimension. -/
theorem model_parameters {eta L V T : ℝ} (he : 0 < eta) (hL : 0 < L) (hV : 0 < V) (hT : 0 < T)
    (get : String → Option ℝ) (d : Doc) (hd : d ∈ modelDocs) :
    ∃ x, load (Config.scaleMe eta L V T) get modelTable d.field = some x
      ∧ Means eta L V T x ((get d.name).getD d.dflt) d.kind :=
  covered he hL hV hT _ _ (by decide +kernel) (by decide +kernel) get d hd

/-- The same for the parameters of a material. -/
theorem material_parameters {eta L V T : ℝ} (he : 0 < eta) (hL : 0 < L) (hV : 0 < V) (hT : 0 < T)
    (get : String → Option ℝ) (d : Doc) (hd : d ∈ materialDocs) :
    ∃ x, load (Config.scaleMe eta L V T) get materialTable d.field = some x
      ∧ Means eta L V T x ((get d.name).getD d.dflt) d.kind :=
  covered he hL hV hT _ _ (by decide +kernel) (by decide +kernel) get d hd

/-- Nothing else is read: every parameter of the program is documented, under the same name. -/
theorem nothing_else :
    (∀ p ∈ modelTable, ∃ d ∈ modelDocs, d.name = p.name ∧ d.field = p.field)
      ∧ (∀ p ∈ materialTable, ∃ d ∈ materialDocs, d.name = p.name ∧ d.field = p.field)
      ∧ (modelTable.map (·.name)).Nodup ∧ (materialTable.map (·.name)).Nodup := by
  decide +kernel

/-- Two runs of the same file with different characteristic scales hold the same physical value of every
dimensional parameter. -/
theorem scales_do_not_matter {eta L V T eta' L' V' T' : ℝ} (he : 0 < eta) (hL : 0 < L) (hV : 0 < V) (hT : 0 < T)
    (he' : 0 < eta') (hL' : 0 < L') (hV' : 0 < V') (hT' : 0 < T') (get : String → Option ℝ) (d : Doc)
    (hd : d ∈ modelDocs) (m l t h : Int) (hk : d.kind = .si m l t h) :
    ∃ x x', load (Config.scaleMe eta L V T) get modelTable d.field = some x
      ∧ load (Config.scaleMe eta' L' V' T') get modelTable d.field = some x'
      ∧ x * unit eta L V T m l t h = x' * unit eta' L' V' T' m l t h := by
  obtain ⟨x, hx, h1⟩ := model_parameters he hL hV hT get d hd
  obtain ⟨x', hx', h2⟩ := model_parameters he' hL' hV' hT' get d hd
  rw [hk] at h1 h2
  exact ⟨x, x', hx, hx', h1.trans h2.symm⟩

/-- The absolute tolerances and the tolerance of the plastic correction are numbers of characteristic units:
the field does not depend on the scales, so that the physical tolerance does. -/
theorem tolerances_follow_scales (s s' : Config.Scale ℝ) (get : String → Option ℝ) :
    ∀ f ∈ ["model.lin_abs_div", "model.lin_abs_mom", "Nmodel.nonlin_abs_mom", "Nmodel.nonlin_abs_div", "model.eta_tol"],
      load s get modelTable f = load s' get modelTable f ∧ load s get modelTable f ≠ none := by
  have hnd : (modelTable.map (·.field)).Nodup := by decide +kernel
  have key : ∀ f ∈ ["model.lin_abs_div", "model.lin_abs_mom", "Nmodel.nonlin_abs_mom", "Nmodel.nonlin_abs_div",
      "model.eta_tol"], ∃ p ∈ modelTable, p.field = f ∧ p.conv = .raw := by decide +kernel
  intro f hf
  obtain ⟨p, hp, rfl, hr⟩ := key f hf
  rw [load, load, load_mem s get _ _ hnd p hp, load_mem s' get _ _ hnd p hp, hr]
  simp [Conv.app]

/-- The visco-plastic viscosity is in Pa s^(1/n) for every exponent. -/
theorem etaVp_unit {eta L V T : ℝ} (he : 0 < eta) (hL : 0 < L) (hV : 0 < V) (hT : 0 < T) (v n : ℝ) :
    etaVp (Config.scaleMe eta L V T) v n * (unit eta L V T 1 (-1) (-2) 0 * (L / V) ^ (1 / n)) = v := by
  have h1 := val_unit he hL hV hT .S
  simp only [U.val, U.dim] at h1
  have h2 : (Config.scaleMe eta L V T).t = L / V := rfl
  have h3 : (0 : ℝ) < (L / V) ^ (1 / n) := Real.rpow_pos_of_pos (by positivity) _
  have h4 := (unit_pos he hL hV hT 1 (-1) (-2) 0).ne'
  rw [etaVp, h1, h2]
  field_simp

/-- Strength after softening: the number of the file, or the strength before softening. -/
theorem end_values {eta L V T : ℝ} (he : 0 < eta) (hL : 0 < L) (hV : 0 < V) (hT : 0 < T) (C phi : ℝ) (v : Option ℝ) :
    Means eta L V T (cohesionEnd (Config.scaleMe eta L V T) v (C / (Config.scaleMe eta L V T).S)) (v.getD C) .pressure
      ∧ Means eta L V T (angleEnd v (phi * Real.pi / 180)) (v.getD phi) .angle := by
  have h1 := val_unit he hL hV hT .S
  simp only [U.val, U.dim] at h1
  have h4 := (unit_pos he hL hV hT 1 (-1) (-2) 0).ne'
  have hp := Real.pi_pos.ne'
  constructor
  · simp only [Kind.pressure, Means, cohesionEnd, h1]
    cases v <;> simp <;> field_simp
  · simp only [Means, angleEnd]
    cases v <;> simp <;> field_simp

/-- Reference state and gas constant in SI: 273.15 K, 10^5 Pa, 8.31451 J/(mol K). -/
theorem constants_si {eta L V T : ℝ} (he : 0 < eta) (hL : 0 < L) (hV : 0 < V) (hT : 0 < T) :
    Means eta L V T (refT (Config.scaleMe eta L V T)) 273.15 .temperature
      ∧ Means eta L V T (refP (Config.scaleMe eta L V T)) 100000 .pressure
      ∧ Means eta L V T (gasR (Config.scaleMe eta L V T)) 8.31451 (.si 1 2 (-2) (-1)) := by
  refine ⟨?_, ?_, ?_⟩
  · simp only [Kind.temperature, Means, refT, unit, Config.scaleMe, zpow_zero, zpow_one, one_mul]
    field_simp; norm_num
  · simp only [Kind.pressure, Means, refP, unit, Config.scaleMe, zpow_neg, zpow_zero, zpow_one, mul_one, zpow_ofNat]
    field_simp
  · simp only [Means, gasR, unit, Config.scaleMe, zpow_neg, zpow_zero, zpow_one, mul_one, zpow_ofNat]
    field_simp; norm_num

/-- The grid fills the box: `Nx - 1` spacings are its width in metres. -/
theorem spacing_fills (L xmin xmax : ℝ) (hL : 0 < L) (n : Nat) (hn : 2 ≤ n) :
    ((n : ℝ) - 1) * (spacing (xmin / L) (xmax / L) n * L) = xmax - xmin := by
  have : (2 : ℝ) ≤ n := by exact_mod_cast hn
  have h1 : (n : ℝ) - 1 ≠ 0 := by linarith
  rw [spacing]
  field_simp

/-- The default tolerance of the plastic correction is 10^11, not 10^-11. -/
theorem default_plastic_tolerance (s : Config.Scale ℝ) (get : String → Option ℝ) (h : get "eta_tol" = none) :
    load s get modelTable "model.eta_tol" = some (10 ^ 11) := by
  have hnd : (modelTable.map (·.field)).Nodup := by decide +kernel
  have key : (⟨"model.eta_tol", "eta_tol", 10 ^ 11, .raw⟩ : Param) ∈ modelTable := by decide +kernel
  have := load_mem s get modelTable (fun _ => none) hnd _ key
  rw [load, this]
  simp [Conv.app, h]

/-- With that default the first guess of the plastic correction is always accepted.  Without overstress it
lies on the yield surface although the iteration itself would leave it (`Rheo.plastic_dilation_iff`). -/
theorem default_tolerance_on_yield (q : Rheo.RetPar ℝ) (pwE eps tmin C cosf : ℝ) (htol : q.tol = 10 ^ 11)
    (h0 : q.etaVp0 = 0) (he : 0 < q.etaVe) (hD : 0 < q.kdt * q.sinf * q.sind) (heps : 0 ≤ eps)
    (hy : 0 ≤ C * cosf + q.P * q.sinf) (hF : eps < q.tii - (C * cosf + q.P * q.sinf)) :
    let r := Rheo.plastic q pwE eps tmin (C * cosf + q.P * q.sinf)
    r.tii = C * cosf + r.pc * q.sinf := by
  intro r
  have h := (Rheo.plastic_dilation_iff q pwE eps tmin C cosf h0 he hD heps hy hF).1
  have hr : q.kdt * q.sinf * q.sind / (q.etaVe + q.kdt * q.sinf * q.sind) < q.tol := by
    rw [htol, div_lt_iff₀ (by linarith)]
    nlinarith
  have h2 := h.2 (Or.inr hr)
  simpa [Spec.OnYield] using h2

/-! ### Acceptance of the material parameters -/

/-- The values of a phase make sense. -/
def PhaseOk (compressible : Int) (nph : Nat) (p : Phase) : Prop :=
  Sane compressible nph p.C p.phi p.psi p.slim p.nvp p.cohSoft p.phiSoft p.psiSoft (p.Ce.getD p.C)
    (p.phie.getD p.phi) (p.psie.getD p.psi) p.reacSoft p.reacPhase [p.cstv, p.pwlv, p.linv, p.gbsv, p.expv]
    p.dens p.diagram

theorem abs_sum_zero (a b c d e : Int) :
    |a| + |b| + |c| + |d| + |e| = 0 ↔ a = 0 ∧ b = 0 ∧ c = 0 ∧ d = 0 ∧ e = 0 := by
  have := abs_nonneg a; have := abs_nonneg b; have := abs_nonneg c; have := abs_nonneg d; have := abs_nonneg e
  constructor
  · intro h
    refine ⟨?_, ?_, ?_, ?_, ?_⟩ <;> rw [← abs_eq_zero] <;> linarith
  · rintro ⟨rfl, rfl, rfl, rfl, rfl⟩; simp

theorem checkPhase_ok {eta L V T : ℝ} (he : 0 < eta) (hL : 0 < L) (hV : 0 < V) (hT : 0 < T) (compressible : Int)
    (nph : Nat) (p : Phase) :
    (checkPhase (Config.scaleMe eta L V T) compressible nph p = none ∧ (p.dens = 2 → p.diagram ≠ -1))
      ↔ PhaseOk compressible nph p := by
  have h1 := val_unit he hL hV hT .S
  simp only [U.val, U.dim] at h1
  have hS : 0 < (Config.scaleMe eta L V T).S := h1 ▸ unit_pos he hL hV hT 1 (-1) (-2) 0
  generalize Config.scaleMe eta L V T = s at hS
  have hp := Real.pi_pos
  have a1 : 0 < p.psi * Real.pi / 180 ↔ 0 < p.psi := by
    constructor
    · intro h; by_contra hc
      push Not at hc
      have := mul_nonpos_of_nonpos_of_nonneg hc hp.le
      linarith
    · intro h; positivity
  have a2 : p.slim / s.S < p.C / s.S ↔ p.slim < p.C := div_lt_div_iff_of_pos_right hS
  have a3 : |cohesionEnd s p.Ce (p.C / s.S) - p.C / s.S| < 1 / s.S ↔ |p.Ce.getD p.C - p.C| < 1 := by
    have : cohesionEnd s p.Ce (p.C / s.S) - p.C / s.S = (p.Ce.getD p.C - p.C) / s.S := by
      rw [cohesionEnd]; cases p.Ce <;> simp <;> field_simp <;> ring
    rw [this, abs_div, abs_of_pos hS, div_lt_div_iff_of_pos_right hS]
  have a4 : ∀ (v : Option ℝ) (x : ℝ), |angleEnd v (x * Real.pi / 180) - x * Real.pi / 180| < 1 / 10 * Real.pi / 180
      ↔ |v.getD x - x| < 1 / 10 := by
    intro v x
    have : angleEnd v (x * Real.pi / 180) - x * Real.pi / 180 = (v.getD x - x) * (Real.pi / 180) := by
      have := hp.ne'
      rw [angleEnd]; cases v <;> simp <;> field_simp
    have hq : 0 < Real.pi / 180 := by positivity
    rw [this, abs_mul, abs_of_pos hq, show 1 / 10 * Real.pi / 180 = 1 / 10 * (Real.pi / 180) by ring,
      mul_lt_mul_iff_left₀ hq]
  have hn : (10001 : ℝ) / 10000 = 1.0001 := by norm_num
  simp only [checkPhase, a1, a2, a3, a4, abs_sum_zero, hn]
  constructor
  · rintro ⟨h, hd⟩
    split_ifs at h with b1 b2 b3 b4 b5 b6 b7 b8 b9
    exact {
      limit := not_lt.1 b2
      dilation := fun h hc => h.elim (fun h => b1 ⟨h, hc⟩) (fun h => b4 ⟨h, hc⟩)
      overstress := not_lt.1 b3
      cohesion := fun h => not_lt.1 fun hc => b5 ⟨h, hc⟩
      friction := fun h => not_lt.1 fun hc => b6 ⟨h, hc⟩
      dilationDrop := fun h => not_lt.1 fun hc => b7 ⟨h, hc⟩
      product := fun h => not_le.1 fun hc => b8 ⟨hc, h⟩
      flow := by
        by_contra hc
        push Not at hc
        exact b9 ⟨hc _ (by simp), hc _ (by simp), hc _ (by simp), hc _ (by simp), hc _ (by simp)⟩
      diagram := hd }
  · intro h
    refine ⟨?_, h.diagram⟩
    rw [if_neg fun c => h.dilation (Or.inl c.1) c.2, if_neg (not_lt.2 h.limit), if_neg (not_lt.2 h.overstress),
      if_neg fun c => h.dilation (Or.inr c.1) c.2, if_neg fun c => not_lt.2 (h.cohesion c.1) c.2,
      if_neg fun c => not_lt.2 (h.friction c.1) c.2, if_neg fun c => not_lt.2 (h.dilationDrop c.1) c.2,
      if_neg fun c => not_lt.2 c.1 (h.product c.2)]
    obtain ⟨n, hn, hne⟩ := h.flow
    rw [if_neg]
    rintro ⟨e1, e2, e3, e4, e5⟩
    simp only [List.mem_cons, List.not_mem_nil, or_false] at hn
    rcases hn with rfl | rfl | rfl | rfl | rfl <;> contradiction

theorem loop_ok (n : Nat) (P : Nat → Prop) (f : Out → Nat → Out) (hok : ∀ k, f .ok k = .ok ↔ P k)
    (hst : ∀ o k, o ≠ .ok → f o k = o) (o : Out) : forUp n o f = .ok ↔ o = .ok ∧ ∀ k < n, P k := by
  induction n with
  | zero => simp [forUp]
  | succ n ih =>
    rw [forUp_succ]
    by_cases h : forUp n o f = .ok
    · rw [h, hok]
      have := ih.1 h
      constructor
      · intro hP
        exact ⟨this.1, fun k hk => (Nat.lt_succ_iff_lt_or_eq.1 hk).elim (this.2 k) fun e => e ▸ hP⟩
      · intro hh; exact hh.2 n (Nat.lt_succ_self n)
    · rw [hst _ _ h]
      constructor
      · intro hc; exact absurd hc h
      · intro hh; exact absurd (ih.2 ⟨hh.1, fun k hk => hh.2 k (Nat.lt_succ_of_lt hk)⟩) h

/-- Reading succeeds exactly when there are at most twenty phases, every phase makes sense, and the file of
the one-dimensional diagram is there if it is asked for.  The characteristic scales play no role. -/
theorem accepted_iff {eta L V T : ℝ} (he : 0 < eta) (hL : 0 < L) (hV : 0 < V) (hT : 0 < T) (compressible : Int)
    (found : Bool) (nph : Nat) (ps : Nat → Phase) :
    readMaterials (Config.scaleMe eta L V T) compressible found nph ps = .ok ↔
      nph ≤ 20 ∧ (∀ k < nph, PhaseOk compressible nph (ps k)) ∧ (∀ k < nph, (ps k).dens = 4 → found = true) := by
  have h1 := loop_ok nph (fun k => (k < 20 ∧ checkPhase (Config.scaleMe eta L V T) compressible nph (ps k) = none))
    (phaseStep (Config.scaleMe eta L V T) compressible nph ps)
    (by
      intro k
      simp only [phaseStep, maxPhases]
      by_cases hk : 20 ≤ k
      · simp [hk, not_lt.2 hk]
      · cases hc : checkPhase (Config.scaleMe eta L V T) compressible nph (ps k) <;> simp [hk, not_le.1 hk])
    (by intro o k ho; cases o <;> simp_all [phaseStep]) .ok
  have h2 := loop_ok nph (fun k => ((ps k).dens = 4 → found = true))
    (fun o k => match o with
    | .ok => if (ps k).dens = 4 ∧ found = false then .exit 1 else .ok
    | o => o)
    (by
      intro k
      by_cases hk : (ps k).dens = 4 <;> cases found <;> simp [hk])
    (by intro o k ho; cases o <;> simp_all)
    (readPhases (Config.scaleMe eta L V T) compressible nph ps)
  have h3 := loop_ok nph (fun k => ((ps k).dens = 2 → (ps k).diagram ≠ -1))
    (fun o k => match o with
    | .ok => if (ps k).dens = 2 ∧ (ps k).diagram = -1 then .exit 5 else .ok
    | o => o)
    (by
      intro k
      by_cases hk : (ps k).dens = 2 <;> by_cases hk' : (ps k).diagram = -1 <;> simp [hk, hk'])
    (by intro o k ho; cases o <;> simp_all)
    (readDiagram1 found nph ps (readPhases (Config.scaleMe eta L V T) compressible nph ps))
  have e : readMaterials (Config.scaleMe eta L V T) compressible found nph ps = .ok ↔ _ := h3
  rw [e]
  have e2 : readDiagram1 found nph ps (readPhases (Config.scaleMe eta L V T) compressible nph ps) = .ok ↔ _ := h2
  rw [e2]
  have e3 : readPhases (Config.scaleMe eta L V T) compressible nph ps = .ok ↔ _ := h1
  rw [e3]
  constructor
  · rintro ⟨⟨⟨-, ha⟩, hb⟩, hc⟩
    refine ⟨?_, fun k hk => (checkPhase_ok he hL hV hT compressible nph (ps k)).1 ⟨(ha k hk).2, hc k hk⟩, hb⟩
    by_contra hn
    have := (ha 20 (by omega)).1
    omega
  · rintro ⟨hn, ha, hb⟩
    refine ⟨⟨⟨rfl, fun k hk => ⟨by omega, ?_⟩⟩, hb⟩, fun k hk => (ha k hk).diagram⟩
    exact ((checkPhase_ok he hL hV hT compressible nph (ps k)).2 (ha k hk)).1

/-- A file with more than twenty phases, all of them sensible, makes the program write behind its arrays
instead of stopping. -/
theorem too_many_phases {eta L V T : ℝ} (he : 0 < eta) (hL : 0 < L) (hV : 0 < V) (hT : 0 < T) (compressible : Int)
    (found : Bool) (nph : Nat) (ps : Nat → Phase) (hn : 20 < nph) (ha : ∀ k < nph, PhaseOk compressible nph (ps k)) :
    readMaterials (Config.scaleMe eta L V T) compressible found nph ps = .oob := by
  have hstay : ∀ (n : Nat) (f : Out → Nat → Out), (∀ k, f .oob k = .oob) → forUp n .oob f = .oob := by
    intro n f hf
    induction n with
    | zero => rfl
    | succ n ih => rw [forUp_succ, ih, hf]
  have hr : readPhases (Config.scaleMe eta L V T) compressible nph ps = .oob := by
    unfold readPhases
    have hpre : ∀ m, m ≤ 20 → forUp m Out.ok (phaseStep (Config.scaleMe eta L V T) compressible nph ps) = .ok := by
      intro m hm
      induction m with
      | zero => rfl
      | succ m ih =>
        rw [forUp_succ, ih (by omega)]
        have hc := ((checkPhase_ok he hL hV hT compressible nph (ps m)).2 (ha m (by omega))).1
        simp only [phaseStep, maxPhases, if_neg (show ¬ 20 ≤ m by omega), hc]
    obtain ⟨j, rfl⟩ : ∃ j, nph = 20 + 1 + j := ⟨nph - 21, by omega⟩
    rw [forUp_add, forUp_succ, hpre 20 le_rfl]
    simp only [phaseStep, maxPhases, le_refl, if_true]
    exact hstay j _ fun k => rfl
  unfold readMaterials
  rw [hr]
  unfold readDiagram1 readDiagram2
  rw [hstay nph _ fun k => rfl, hstay nph _ fun k => rfl]

/-! ### Examples -/

/-- A granite: cohesion 50 MPa softening to 5 MPa, friction 30 degrees. -/
noncomputable def granite : Phase :=
  ⟨5e7, 30, 0, 1e9, 1, 1, 0, 0, some 5e6, none, none, 0, 0, 0, 12, 0, 0, 0, 1, -1⟩

example : PhaseOk 0 1 granite :=
  { limit := by norm_num [granite]
    dilation := by norm_num [granite]
    overstress := by norm_num [granite]
    cohesion := by intro _; simp only [granite, Option.getD_some]; rw [abs_of_nonpos] <;> norm_num
    friction := by norm_num [granite]
    dilationDrop := by norm_num [granite]
    product := by norm_num [granite]
    flow := ⟨12, by simp [granite], by norm_num⟩
    diagram := by norm_num [granite] }

example : ∃ d ∈ modelDocs, d.name = "surf_diff" ∧ d.kind = .si 0 2 (-1) 0 := by decide +kernel

example : (⟨"Qr", "materials.Qr", 1 / 10 ^ 30, .si 1 (-1) (-3) 0⟩ : Doc) ∈ materialDocs := by decide +kernel

end Verif.Units
