import Verif.Model.Tables
import Verif.Props.Melting

/-!
C141: tables of densities.
-/
namespace Verif.Tab
open Verif

/-! ### Reading -/

theorem fread_full {n : Nat} {file : List ℝ} (h : n ≤ file.length) (old : Int → ℝ) {k : Nat} (hk : k < n) :
    fread n file old k = file[k]'(by omega) := by
  unfold fread
  rw [if_pos ⟨by omega, by exact_mod_cast hk⟩, Int.toNat_natCast, List.getElem?_eq_getElem (by omega), Option.getD_some]

theorem readBin_full {nx ny : Nat} {s : ℝ} {file : List ℝ} (h : nx * ny ≤ file.length) (mem : Int → ℝ) {k : Nat} (hk : k < nx * ny) :
    readBin nx ny s file mem k = file[k]'(by omega) / s := by
  unfold readBin times
  rw [if_pos ⟨by omega, by exact_mod_cast hk⟩, fread_full h mem hk]; ring

/-! ### Phase diagrams -/

/-- Position of node `k` of an axis with `n` nodes. -/
noncomputable def axis (lo hi : ℝ) (n k : Nat) : ℝ := lo + k * ((hi - lo) / ((n : ℝ) - 1))

theorem node_facts (n : Nat) (hn : 2 ≤ n) (lo hi : ℝ) (h : lo < hi) (k : Nat) (hk : 0 < k) (hkn : k < n) :
    Melt.lower lo hi ((hi - lo) / ((n : ℝ) - 1)) (axis lo hi n k) = (k : Int) - 1
      ∧ Melt.weight lo hi ((hi - lo) / ((n : ℝ) - 1)) (axis lo hi n k) = 0 := by
  have hn1 : (1 : ℝ) ≤ (n : ℝ) - 1 := by
    have : (2 : ℝ) ≤ n := by exact_mod_cast hn
    linarith
  unfold axis
  set d := (hi - lo) / ((n : ℝ) - 1) with hdd
  have hd : 0 < d := div_pos (by linarith) (by linarith)
  have hdn : d * ((n : ℝ) - 1) = hi - lo := div_mul_cancel₀ _ (by linarith)
  have hk0 : (0 : ℝ) < k := by exact_mod_cast hk
  have hkn' : (k : ℝ) ≤ (n : ℝ) - 1 := by
    have : (k : ℝ) + 1 ≤ n := by exact_mod_cast hkn
    linarith
  have hin : Melt.inside lo hi d (lo + k * d) = lo + k * d := by
    unfold Melt.inside
    simp only []
    have h1 : ¬ lo + (k : ℝ) * d < lo := by nlinarith
    have h2 : ¬ hi < lo + (k : ℝ) * d := by nlinarith
    simp only [if_neg h1, if_neg h2]
  have hlow : Melt.lower lo hi d (lo + k * d) = (k : Int) - 1 := by
    unfold Melt.lower
    rw [hin, add_sub_cancel_left, mul_div_assoc, div_self hd.ne', mul_one]
    simp
  refine ⟨hlow, ?_⟩
  unfold Melt.weight
  rw [hin, hlow]; push_cast; field_simp; ring

theorem lookup2_node (nT nP : Nat) (hT : 2 ≤ nT) (hP : 2 ≤ nP) (Tlo Thi Plo Phi : ℝ) (h1 : Tlo < Thi) (h2 : Plo < Phi) (tab : Int → ℝ)
    (i j : Nat) (hi : 0 < i) (hiT : i < nT) (hj : 0 < j) (hjP : j < nP) :
    Melt.lookup2 nT nP Tlo Thi Plo Phi tab (axis Tlo Thi nT i) (axis Plo Phi nP j) = tab ((i + j * nT : Nat) : Int) := by
  obtain ⟨a1, a2⟩ := node_facts nT hT Tlo Thi h1 i hi hiT
  obtain ⟨b1, b2⟩ := node_facts nP hP Plo Phi h2 j hj hjP
  simp only [Melt.lookup2, a1, a2, b1, b2]
  simp only [sub_zero, zero_mul, mul_zero, add_zero, one_mul, zero_add]
  congr 1
  push_cast; ring

/-- A diagram that can be used: at least two nodes in each direction and an extent. -/
structure Diagram.Good (d : Diagram) : Prop where
  nT : 2 ≤ d.nT
  nP : 2 ≤ d.nP
  T : d.Tlo < d.Thi
  P : d.Plo < d.Phi

/-- All ten diagrams and the kinetic data. -/
theorem diagrams_good : (∀ d ∈ diagrams, d.Good) ∧ kinetic.Good ∧ diagrams.length = 10 := by
  refine ⟨?_, ⟨by norm_num [kinetic], by norm_num [kinetic], by norm_num [kinetic], by norm_num [kinetic]⟩, rfl⟩
  intro d hd
  simp only [diagrams, List.mem_cons, List.not_mem_nil, or_false] at hd
  rcases hd with rfl | rfl | rfl | rfl | rfl | rfl | rfl | rfl | rfl | rfl <;>
    constructor <;> norm_num

theorem axis_div (lo hi s : ℝ) (n k : Nat) : axis (lo / s) (hi / s) n k = axis lo hi n k / s := by
  unfold axis; ring

/-- A complete file: the density at the temperature and pressure of an entry is the entry, in model units. -/
theorem diagram_node (d : Diagram) (g : d.Good) (sT sS sR : ℝ) (hT : 0 < sT) (hS : 0 < sS) (file : List ℝ) (hf : d.nT * d.nP ≤ file.length)
    (mem : Int → ℝ) (i j : Nat) (hi : 0 < i) (hiT : i < d.nT) (hj : 0 < j) (hjP : j < d.nP) :
    ∃ h : i + j * d.nT < file.length,
      d.density sT sS sR file mem (axis d.Tlo d.Thi d.nT i / sT) (axis d.Plo d.Phi d.nP j / sS) = file[i + j * d.nT] / sR := by
  have hk : i + j * d.nT < d.nT * d.nP := by
    have : (j + 1) * d.nT ≤ d.nP * d.nT := Nat.mul_le_mul_right _ (by omega)
    nlinarith
  refine ⟨by omega, ?_⟩
  unfold Diagram.density
  rw [← axis_div, ← axis_div, lookup2_node _ _ g.nT g.nP _ _ _ _ (by have := g.T; gcongr) (by have := g.P; gcongr) _ i j hi hiT hj hjP,
    readBin_full hf mem hk]

/-- Everywhere (also outside the diagram, but not exactly on its lower limits) the density lies within the range of the file. -/
theorem diagram_between (d : Diagram) (g : d.Good) (sT sS sR : ℝ) (hT : 0 < sT) (hS : 0 < sS) (hR : 0 < sR) (file : List ℝ)
    (hf : d.nT * d.nP ≤ file.length) (mem : Int → ℝ) (lo hi : ℝ) (hlo : ∀ x ∈ file, lo ≤ x) (hhi : ∀ x ∈ file, x ≤ hi) (T P : ℝ)
    (h1 : T ≠ d.Tlo) (h2 : P ≠ d.Plo) :
    lo ≤ d.density sT sS sR file mem (T / sT) (P / sS) * sR ∧ d.density sT sS sR file mem (T / sT) (P / sS) * sR ≤ hi := by
  have e1 : T / sT ≠ d.Tlo / sT := fun h => h1 (by field_simp at h; exact h)
  have e2 : P / sS ≠ d.Plo / sS := fun h => h2 (by field_simp at h; exact h)
  obtain ⟨a, b⟩ := Melt.lookup2_partial d.nT d.nP g.nT g.nP (d.Tlo / sT) (d.Thi / sT) (d.Plo / sS) (d.Phi / sS)
    (by have := g.T; gcongr) (by have := g.P; gcongr) (readBin d.nT d.nP sR file mem) (T / sT) (P / sS) e1 e2
  have key : ∀ i ∈ Melt.reads2 d.nT d.nP (d.Tlo / sT) (d.Thi / sT) (d.Plo / sS) (d.Phi / sS) (T / sT) (P / sS),
      lo / sR ≤ readBin d.nT d.nP sR file mem i ∧ readBin d.nT d.nP sR file mem i ≤ hi / sR := by
    intro i hi'
    obtain ⟨p, q⟩ := a i hi'
    lift i to Nat using p
    have q' : i < d.nT * d.nP := by exact_mod_cast q
    rw [readBin_full hf mem q']
    exact ⟨by have := hlo _ (List.getElem_mem (by omega : i < file.length)); gcongr,
      by have := hhi _ (List.getElem_mem (by omega : i < file.length)); gcongr⟩
  obtain ⟨c1, c2⟩ := b _ _ key
  unfold Diagram.density
  exact ⟨by rwa [div_le_iff₀ hR] at c1, by rwa [le_div_iff₀ hR] at c2⟩

theorem inside_div (lo hi d x s : ℝ) (hs : 0 < s) : Melt.inside (lo / s) (hi / s) (d / s) (x / s) = Melt.inside lo hi d x / s := by
  unfold Melt.inside
  simp only [div_lt_div_iff_of_pos_right hs]
  split
  · have : lo / s + 1 / 100 * (d / s) = (lo + 1 / 100 * d) / s := by ring
    rw [this]
    simp only [div_lt_div_iff_of_pos_right hs]
    split <;> ring
  · simp only [div_lt_div_iff_of_pos_right hs]
    split <;> ring

theorem lower_div (lo hi d x s : ℝ) (hs : 0 < s) : Melt.lower (lo / s) (hi / s) (d / s) (x / s) = Melt.lower lo hi d x := by
  unfold Melt.lower
  rw [inside_div _ _ _ _ _ hs, ← sub_div, div_div_div_cancel_right₀ hs.ne']

theorem weight_div (lo hi d x s : ℝ) (hs : 0 < s) : Melt.weight (lo / s) (hi / s) (d / s) (x / s) = Melt.weight lo hi d x := by
  unfold Melt.weight
  rw [inside_div _ _ _ _ _ hs, lower_div _ _ _ _ _ hs]
  have : Melt.inside lo hi d x / s - (lo / s + (Melt.lower lo hi d x : ℝ) * (d / s)) = (Melt.inside lo hi d x - (lo + (Melt.lower lo hi d x : ℝ) * d)) / s := by
    ring
  rw [this, div_div_div_cancel_right₀ hs.ne']

/-- The density in SI units does not depend on the characteristic units. -/
theorem diagram_units (d : Diagram) (g : d.Good) (sT sS sR : ℝ) (hT : 0 < sT) (hS : 0 < sS) (hR : 0 < sR) (file : List ℝ)
    (hf : d.nT * d.nP ≤ file.length) (mem : Int → ℝ) (T P : ℝ) (h1 : T ≠ d.Tlo) (h2 : P ≠ d.Plo) :
    d.density sT sS sR file mem (T / sT) (P / sS) * sR = d.density 1 1 1 file mem T P := by
  obtain ⟨a, -⟩ := Melt.lookup2_partial d.nT d.nP g.nT g.nP d.Tlo d.Thi d.Plo d.Phi g.T g.P (fun _ => 0) T P h1 h2
  have rd : ∀ i ∈ Melt.reads2 d.nT d.nP d.Tlo d.Thi d.Plo d.Phi T P, readBin d.nT d.nP sR file mem i * sR = readBin d.nT d.nP 1 file mem i := by
    intro i hi
    obtain ⟨p, q⟩ := a i hi
    lift i to Nat using p
    have q' : i < d.nT * d.nP := by exact_mod_cast q
    rw [readBin_full hf mem q', readBin_full hf mem q', div_mul_cancel₀ _ hR.ne', div_one]
  have eT : (d.Thi / sT - d.Tlo / sT) / ((d.nT : ℝ) - 1) = (d.Thi - d.Tlo) / ((d.nT : ℝ) - 1) / sT := by ring
  have eP : (d.Phi / sS - d.Plo / sS) / ((d.nP : ℝ) - 1) = (d.Phi - d.Plo) / ((d.nP : ℝ) - 1) / sS := by ring
  unfold Diagram.density
  simp only [div_one]
  unfold Melt.lookup2
  simp only [eT, eP, lower_div _ _ _ _ _ hT, lower_div _ _ _ _ _ hS, weight_div _ _ _ _ _ hT, weight_div _ _ _ _ _ hS]
  simp only [Melt.reads2, List.forall_mem_cons] at rd
  obtain ⟨r1, r2, r3, r4, -⟩ := rd
  rw [← r1, ← r2, ← r3, ← r4]
  ring

/-- `fread` is not checked: of a file that is too short the missing densities are whatever was in memory. -/
theorem short_file_undetermined (d : Diagram) (g : d.Good) (sT sS sR : ℝ) (hT : 0 < sT) (hS : 0 < sS) (hR : 0 < sR) (file : List ℝ)
    (hf : file.length < d.nT * d.nP) (rho : ℝ) : ∃ mem, d.density sT sS sR file mem (d.Thi / sT) (d.Phi / sS) * sR = rho := by
  refine ⟨fun _ => rho, ?_⟩
  have gT := g.nT
  have gP := g.nP
  have cast1 : ∀ n : Nat, 2 ≤ n → ((n - 1 : Nat) : ℝ) = (n : ℝ) - 1 := fun n h => by push_cast [show 1 ≤ n by omega]; ring
  have ne : ∀ n : Nat, 2 ≤ n → (n : ℝ) - 1 ≠ 0 := fun n h => by
    have : (2 : ℝ) ≤ n := by exact_mod_cast h
    linarith
  have a1 : d.Thi / sT = axis (d.Tlo / sT) (d.Thi / sT) d.nT (d.nT - 1) := by
    unfold axis; rw [cast1 _ gT]; field_simp [ne _ gT]; ring
  have a2 : d.Phi / sS = axis (d.Plo / sS) (d.Phi / sS) d.nP (d.nP - 1) := by
    unfold axis; rw [cast1 _ gP]; field_simp [ne _ gP]; ring
  unfold Diagram.density
  have h := lookup2_node d.nT d.nP gT gP (d.Tlo / sT) (d.Thi / sT) (d.Plo / sS) (d.Phi / sS) (by have := g.T; gcongr) (by have := g.P; gcongr)
    (readBin d.nT d.nP sR file fun _ => rho) (d.nT - 1) (d.nP - 1) (by omega) (by omega) (by omega) (by omega)
  rw [← a1, ← a2] at h
  rw [h]
  have last : d.nT - 1 + (d.nP - 1) * d.nT = d.nT * d.nP - 1 := by
    obtain ⟨k, hk⟩ : ∃ k, d.nP = k + 1 := ⟨d.nP - 1, by omega⟩
    rw [hk, Nat.add_sub_cancel, Nat.mul_succ, Nat.mul_comm k]; omega
  have pos : 0 < d.nT * d.nP := by positivity
  rw [last]
  unfold readBin times fread
  rw [if_pos ⟨by omega, by omega⟩, if_pos ⟨by omega, by omega⟩, Int.toNat_natCast, List.getElem?_eq_none (by omega), Option.getD_none]
  field_simp

/-- The check of the density models passes exactly when no phase with diagrams has the index left at -1, and then the diagrams are read if some phase
uses them. -/
theorem checkModels_spec (n : Nat) (dens pd : Nat → Int) :
    (checkModels n dens pd = none ↔ ∃ k < n, dens k = 2 ∧ pd k = -1)
      ∧ ∀ b, checkModels n dens pd = some b → (b = true ↔ ∃ k < n, dens k = 2) := by
  unfold checkModels
  induction n with
  | zero => exact ⟨by simp [forUp], by intro b h; simp [forUp] at h; simp [← h]⟩
  | succ n ih =>
    obtain ⟨i1, i2⟩ := ih
    rw [forUp_succ]
    rcases hv : (forUp n (some false) fun s k => _ : Option Bool) with _ | b0
    · rw [hv] at i1
      obtain ⟨k, hk, h⟩ := i1.1 rfl
      exact ⟨⟨fun _ => ⟨k, by omega, h⟩, fun _ => rfl⟩, fun b h => by simp at h⟩
    · rw [hv] at i1 i2
      have no : ¬ ∃ k < n, dens k = 2 ∧ pd k = -1 := fun h => by simpa using i1.2 h
      have hb := i2 b0 rfl
      simp only []
      by_cases c : dens n = 2 ∧ pd n = -1
      · rw [if_pos c]
        exact ⟨⟨fun _ => ⟨n, by omega, c⟩, fun _ => rfl⟩, fun b h => by simp at h⟩
      · rw [if_neg c]
        refine ⟨⟨fun h => by simp at h, ?_⟩, ?_⟩
        · rintro ⟨k, hk, h⟩
          rcases Nat.lt_succ_iff_lt_or_eq.1 hk with hk | rfl
          · exact absurd ⟨k, hk, h⟩ no
          · exact absurd h c
        · intro b h
          have h' : (if dens n = 2 then true else b0) = b := by simpa using h
          subst h'
          by_cases c2 : dens n = 2
          · rw [if_pos c2]; exact ⟨fun _ => ⟨n, by omega, c2⟩, fun _ => rfl⟩
          · rw [if_neg c2, hb]
            constructor
            · rintro ⟨k, hk, h⟩; exact ⟨k, by omega, h⟩
            · rintro ⟨k, hk, hd⟩
              rcases Nat.lt_succ_iff_lt_or_eq.1 hk with hk | rfl
              · exact ⟨k, hk, hd⟩
              · exact absurd hd c2

/-- An index with no diagram passes the check. -/
theorem index_unchecked : ∃ (dens pd : Nat → Int), checkModels 1 dens pd = some true ∧ dens 0 = 2 ∧ (diagrams.length : Int) ≤ pd 0 :=
  ⟨fun _ => 2, fun _ => 10, by decide, rfl, by rw [diagrams_good.2.2]; norm_num⟩

/-- Density model 2 with diagram `d` is the look-up in `d`. -/
theorem model2_density (dv : Int) (mats : Nat → Dens.Mat) (p : Nat) (m : Dens.Mat) (d : Diagram) (sT sS sR : ℝ) (file : List ℝ) (mem : Int → ℝ)
    (hm : mats p = withDiagram m d sT sS sR file mem) (T P X phi junk : ℝ) :
    Dens.evaluate dv mats p T P X phi junk = d.density sT sS sR file mem T P := by
  unfold Dens.evaluate
  rw [hm]
  simp [withDiagram, Diagram.density]

/-! ### Smoothing -/

theorem smoothStep_eq (n : Nat) (dP : ℝ) (hP : dP ≠ 0) (r : Nat → ℝ) (k : Nat) :
    smoothStep n dP r k = if 0 < k ∧ k + 1 < n then r k + (r (k - 1) - 2 * r k + r (k + 1)) / 2.1 else r k := by
  unfold smoothStep
  simp only []
  have inv : ∀ m, forUp m r (fun rho j => upd rho (j + 1) (r (j + 1) - dP * dP / 1 / 2.1 *
      (-1 * (r (j + 1 + 1) - r (j + 1)) / dP - -1 * (r (j + 1) - r (j + 1 - 1)) / dP) / dP)) k
        = if 0 < k ∧ k ≤ m then r k + (r (k - 1) - 2 * r k + r (k + 1)) / 2.1 else r k := by
    intro m
    induction m with
    | zero => rw [forUp_zero, if_neg (by omega)]
    | succ m ih =>
      rw [forUp_succ]
      by_cases hk : k = m + 1
      · subst hk
        rw [upd_same, if_pos ⟨by omega, le_rfl⟩, Nat.add_sub_cancel]
        field_simp; ring
      · rw [upd_ne _ _ hk, ih]
        by_cases c : 0 < k ∧ k ≤ m
        · rw [if_pos c, if_pos ⟨c.1, by omega⟩]
        · rw [if_neg c, if_neg (by omega)]
  rw [inv]
  by_cases c : 0 < k ∧ k + 1 < n
  · rw [if_pos c, if_pos ⟨c.1, by omega⟩]
  · rw [if_neg c, if_neg (by omega)]

/-- What one step keeps is kept by the smoothing. -/
theorem smooth_keeps (n : Nat) (dP : ℝ) (Q : (Nat → ℝ) → Prop) (hstep : ∀ r, Q r → Q (smoothStep n dP r)) (steps : Nat) (r : Nat → ℝ)
    (h : Q r) : Q (smooth n dP steps r) := by
  unfold smooth
  induction steps with
  | zero => exact h
  | succ m ih => rw [forUp_succ]; exact hstep _ ih

/-- Smoothing keeps the first and the last entry. -/
theorem smooth_ends (n : Nat) (dP : ℝ) (hP : dP ≠ 0) (steps : Nat) (r : Nat → ℝ) :
    smooth n dP steps r 0 = r 0 ∧ smooth n dP steps r (n - 1) = r (n - 1) := by
  refine smooth_keeps n dP (fun s => s 0 = r 0 ∧ s (n - 1) = r (n - 1)) ?_ steps r ⟨rfl, rfl⟩
  rintro s ⟨h1, h2⟩
  rw [smoothStep_eq n dP hP, smoothStep_eq n dP hP, if_neg (by omega), if_neg (by omega)]
  exact ⟨h1, h2⟩

/-- Smoothed entries stay within the range of the table. -/
theorem smooth_between (n : Nat) (dP : ℝ) (hP : dP ≠ 0) (steps : Nat) (r : Nat → ℝ) (lo hi : ℝ) (h : ∀ k < n, lo ≤ r k ∧ r k ≤ hi) :
    ∀ k < n, lo ≤ smooth n dP steps r k ∧ smooth n dP steps r k ≤ hi := by
  refine smooth_keeps n dP (fun s => ∀ k < n, lo ≤ s k ∧ s k ≤ hi) ?_ steps r h
  intro s hs k hk
  rw [smoothStep_eq n dP hP]
  split
  · next c =>
    obtain ⟨a1, a2⟩ := hs k hk
    obtain ⟨b1, b2⟩ := hs (k - 1) (by omega)
    obtain ⟨c1, c2⟩ := hs (k + 1) c.2
    constructor <;> (norm_num; linarith)
  · exact hs k hk

/-- A table that never decreases with pressure is still so after smoothing. -/
theorem smooth_monotone (n : Nat) (dP : ℝ) (hP : dP ≠ 0) (steps : Nat) (r : Nat → ℝ) (h : ∀ k, k + 1 < n → r k ≤ r (k + 1)) :
    ∀ k, k + 1 < n → smooth n dP steps r k ≤ smooth n dP steps r (k + 1) := by
  refine smooth_keeps n dP (fun s => ∀ k, k + 1 < n → s k ≤ s (k + 1)) ?_ steps r h
  intro s hs k hk
  rw [smoothStep_eq n dP hP, smoothStep_eq n dP hP]
  have h1 := hs k hk
  by_cases c : 0 < k
  · rw [if_pos ⟨c, hk⟩]
    have h0 := hs (k - 1) (by omega)
    rw [show k - 1 + 1 = k by omega] at h0
    by_cases e : k + 1 + 1 < n
    · rw [if_pos ⟨by omega, e⟩]
      have h2 := hs (k + 1) e
      rw [Nat.add_sub_cancel]
      norm_num; linarith
    · rw [if_neg (by omega)]
      norm_num; linarith
  · rw [if_neg (by omega)]
    by_cases e : k + 1 + 1 < n
    · rw [if_pos ⟨by omega, e⟩]
      have h2 := hs (k + 1) e
      rw [Nat.add_sub_cancel]
      norm_num; linarith
    · rw [if_neg (by omega)]; exact h1

/-- A table that is linear in the pressure is not changed. -/
theorem smooth_linear (n : Nat) (dP : ℝ) (hP : dP ≠ 0) (steps : Nat) (a b : ℝ) :
    smooth n dP steps (fun k => a + b * (k : ℕ)) = fun k => a + b * (k : ℕ) := by
  refine smooth_keeps n dP (fun s => s = fun k : ℕ => a + b * (k : ℝ)) ?_ steps _ rfl
  rintro s rfl
  funext k
  rw [smoothStep_eq n dP hP]
  split
  · next c =>
    obtain ⟨j, rfl⟩ : ∃ j, k = j + 1 := ⟨k - 1, by omega⟩
    rw [Nat.add_sub_cancel]; push_cast; ring
  · rfl

/-- Smoothing does what it is for: the largest jump between neighbours never grows. -/
theorem smooth_jump (n : Nat) (dP : ℝ) (hP : dP ≠ 0) (steps : Nat) (r : Nat → ℝ) (J : ℝ) (h : ∀ k, k + 1 < n → |r (k + 1) - r k| ≤ J) :
    ∀ k, k + 1 < n → |smooth n dP steps r (k + 1) - smooth n dP steps r k| ≤ J := by
  refine smooth_keeps n dP (fun s => ∀ k, k + 1 < n → |s (k + 1) - s k| ≤ J) ?_ steps r h
  intro s hs k hk
  have e1 := smoothStep_eq n dP hP s k
  have e2 := smoothStep_eq n dP hP s (k + 1)
  rw [Nat.add_sub_cancel] at e2
  have h1 := abs_le.1 (hs k hk)
  by_cases c : 0 < k
  · rw [if_pos ⟨c, hk⟩] at e1
    have h0 := hs (k - 1) (by omega)
    rw [show k - 1 + 1 = k by omega] at h0
    have h0 := abs_le.1 h0
    by_cases e : k + 1 + 1 < n
    · rw [if_pos ⟨by omega, e⟩] at e2
      have h2 := abs_le.1 (hs (k + 1) e)
      rw [e1, e2, abs_le]; constructor <;> (norm_num; linarith)
    · rw [if_neg (by omega)] at e2
      rw [e1, e2, abs_le]; constructor <;> (norm_num; linarith)
  · rw [if_neg (by omega)] at e1
    by_cases e : k + 1 + 1 < n
    · rw [if_pos ⟨by omega, e⟩] at e2
      have h2 := abs_le.1 (hs (k + 1) e)
      rw [e1, e2, abs_le]; constructor <;> (norm_num; linarith)
    · rw [if_neg (by omega)] at e2
      rw [e1, e2]; exact hs k hk

/-! ### Density model 4 -/

theorem step_pos (sS : ℝ) (hS : 0 < sS) : 0 < (hi1 sS - lo1 sS) / ((n1 - 1 : ℕ) : ℝ) := by
  unfold hi1 lo1 n1
  have : (1e5 : ℝ) / sS < 1e10 / sS := by gcongr; norm_num
  have h2 : (0 : ℝ) < ((10000 - 1 : ℕ) : ℝ) := by norm_num
  exact div_pos (by linarith) h2

theorem limits (sS : ℝ) (hS : 0 < sS) : lo1 sS < hi1 sS := by
  unfold hi1 lo1; gcongr; norm_num

theorem file_entry {file : List ℝ} (hf : n1 ≤ file.length) (k : Nat) (hk : k < n1) :
    fread n1 file (fun _ => 0) k = file[k]'(by omega) := fread_full hf _ hk

/-- Density model 4: for a complete file the density at any pressure but the exact lower limit is within the range of the file. -/
theorem coesite_between (sS sR : ℝ) (hS : 0 < sS) (hR : 0 < sR) (file : List ℝ) (hf : n1 ≤ file.length) (mem : Int → ℝ) (lo hi : ℝ)
    (hlo : ∀ x ∈ file, lo ≤ x) (hhi : ∀ x ∈ file, x ≤ hi) (P : ℝ) (hP : P ≠ 1e5) :
    lo ≤ coesiteDensity sS sR file mem (P / sS) * sR ∧ coesiteDensity sS sR file mem (P / sS) * sR ≤ hi := by
  have e : P / sS ≠ lo1 sS := fun h => hP (by unfold lo1 at h; field_simp at h; exact h)
  obtain ⟨a, b⟩ := Melt.lookup1_partial n1 (by norm_num [n1]) (lo1 sS) (hi1 sS) (limits sS hS) (coesiteMem sS sR file mem) (P / sS) e
  have rng : ∀ k < n1, lo / sR ≤ coesite sS sR file k ∧ coesite sS sR file k ≤ hi / sR := by
    refine smooth_between n1 _ (step_pos sS hS).ne' 200 _ _ _ ?_
    intro k hk
    rw [file_entry hf k hk]
    exact ⟨by have := hlo _ (List.getElem_mem (by omega : k < file.length)); gcongr,
      by have := hhi _ (List.getElem_mem (by omega : k < file.length)); gcongr⟩
  have key : ∀ i ∈ Melt.reads1 n1 (lo1 sS) (hi1 sS) (P / sS), lo / sR ≤ coesiteMem sS sR file mem i ∧ coesiteMem sS sR file mem i ≤ hi / sR := by
    intro i hi'
    obtain ⟨p, q⟩ := a i hi'
    unfold coesiteMem
    rw [if_pos ⟨p, q⟩]
    exact rng _ (by omega)
  obtain ⟨c1, c2⟩ := b _ _ key
  exact ⟨by rwa [div_le_iff₀ hR] at c1, by rwa [le_div_iff₀ hR] at c2⟩

/-- Look-up in a table that never decreases, between the limits. -/
theorem lookup1_mono (n : Nat) (hn : 2 ≤ n) (lo hi : ℝ) (h : lo < hi) (tab : Int → ℝ)
    (ht : ∀ i j : Int, 0 ≤ i → i ≤ j → j < n → tab i ≤ tab j) (x y : ℝ) (hx : lo < x) (hxy : x ≤ y) (hy : y ≤ hi) :
    Melt.lookup1 n lo hi tab x ≤ Melt.lookup1 n lo hi tab y := by
  obtain ⟨x1, x2, x3, x4⟩ := Melt.lower_range n hn lo hi x h hx.ne'
  obtain ⟨y1, y2, y3, y4⟩ := Melt.lower_range n hn lo hi y h (by linarith)
  have hn1 : (1 : ℝ) ≤ (n : ℝ) - 1 := by
    have : (2 : ℝ) ≤ n := by exact_mod_cast hn
    linarith
  unfold Melt.lookup1
  simp only []
  have hd : 0 < (hi - lo) / ((n : ℝ) - 1) := div_pos (by linarith) (by linarith)
  generalize (hi - lo) / ((n : ℝ) - 1) = d at *
  have ins : ∀ z, lo < z → z ≤ hi → Melt.inside lo hi d z = z := by
    intro z h1 h2
    unfold Melt.inside
    simp only [if_neg (not_lt.2 h1.le), if_neg (not_lt.2 h2)]
  have wx : Melt.weight lo hi d x = 1 - (x - (lo + (Melt.lower lo hi d x : ℝ) * d)) / d := by
    unfold Melt.weight; rw [ins x hx (by linarith)]
  have wy : Melt.weight lo hi d y = 1 - (y - (lo + (Melt.lower lo hi d y : ℝ) * d)) / d := by
    unfold Melt.weight; rw [ins y (by linarith) hy]
  have le : Melt.lower lo hi d x ≤ Melt.lower lo hi d y := by
    unfold Melt.lower
    rw [ins x hx (by linarith), ins y (by linarith) hy]
    have : ⌈(x - lo) / d⌉ ≤ ⌈(y - lo) / d⌉ := Int.ceil_le_ceil (by gcongr)
    omega
  rcases eq_or_lt_of_le le with e | e
  · have hw : Melt.weight lo hi d y ≤ Melt.weight lo hi d x := by
      rw [wx, wy, e]
      have : (x - (lo + (Melt.lower lo hi d y : ℝ) * d)) / d ≤ (y - (lo + (Melt.lower lo hi d y : ℝ) * d)) / d := by gcongr
      linarith
    rw [e]
    have t := ht (Melt.lower lo hi d y) (Melt.lower lo hi d y + 1) y1 (by omega) (by omega)
    nlinarith
  · have t1 := ht (Melt.lower lo hi d x) (Melt.lower lo hi d x + 1) x1 (by omega) (by omega)
    have t2 := ht (Melt.lower lo hi d x + 1) (Melt.lower lo hi d y) (by omega) (by omega) (by omega)
    have t3 := ht (Melt.lower lo hi d y) (Melt.lower lo hi d y + 1) y1 (by omega) (by omega)
    nlinarith

theorem chain_le {n : Nat} {f : Nat → ℝ} (h : ∀ k, k + 1 < n → f k ≤ f (k + 1)) (i j : Nat) (hij : i ≤ j) (hj : j < n) : f i ≤ f j := by
  induction j, hij using Nat.le_induction with
  | base => exact le_rfl
  | succ j hij ih => exact (ih (by omega)).trans (h j hj)

/-- Densities of a file that never decrease: a higher pressure between the limits never gives a lower density.  Partial: between the limits of the table
(`coesite_outside`). -/
theorem coesite_monotone_partial (sS sR : ℝ) (hS : 0 < sS) (hR : 0 < sR) (file : List ℝ) (hf : n1 ≤ file.length) (mem : Int → ℝ)
    (hm : file.Pairwise (· ≤ ·)) (P Q : ℝ) (hP : 1e5 < P) (hPQ : P ≤ Q) (hQ : Q ≤ 1e10) :
    coesiteDensity sS sR file mem (P / sS) ≤ coesiteDensity sS sR file mem (Q / sS) := by
  have mono : ∀ k, k + 1 < n1 → coesite sS sR file k ≤ coesite sS sR file (k + 1) := by
    refine smooth_monotone n1 _ (step_pos sS hS).ne' 200 _ ?_
    intro k hk
    rw [file_entry hf k (by omega), file_entry hf (k + 1) hk]
    have := List.pairwise_iff_getElem.1 hm k (k + 1) (by omega) (by omega) (by omega)
    gcongr
  refine lookup1_mono n1 (by norm_num [n1]) (lo1 sS) (hi1 sS) (limits sS hS) _ ?_ _ _ (by unfold lo1; gcongr) (by gcongr) (by unfold hi1; gcongr)
  intro i j hi hij hj
  unfold coesiteMem
  rw [if_pos ⟨hi, by omega⟩, if_pos ⟨by omega, hj⟩]
  exact chain_le mono _ _ (by omega) (by omega)

/-- Below and above the limits the density is that a hundredth of a step inside the table. -/
theorem coesite_outside (sS sR : ℝ) (hS : 0 < sS) (file : List ℝ) (mem : Int → ℝ) (P : ℝ) :
    (P < lo1 sS → coesiteDensity sS sR file mem P = coesiteDensity sS sR file mem (lo1 sS + 1 / 100 * ((hi1 sS - lo1 sS) / ((n1 : ℝ) - 1))))
      ∧ (hi1 sS < P → coesiteDensity sS sR file mem P = coesiteDensity sS sR file mem (hi1 sS - 1 / 100 * ((hi1 sS - lo1 sS) / ((n1 : ℝ) - 1)))) := by
  have hl := limits sS hS
  have hn : (1 : ℝ) ≤ (n1 : ℝ) - 1 := by norm_num [n1]
  have hd : 0 < (hi1 sS - lo1 sS) / ((n1 : ℝ) - 1) := div_pos (by linarith) (by linarith)
  have hd2 : (hi1 sS - lo1 sS) / ((n1 : ℝ) - 1) ≤ hi1 sS - lo1 sS := div_le_self (by linarith) hn
  unfold coesiteDensity Melt.lookup1 Melt.weight Melt.lower
  simp only []
  generalize (hi1 sS - lo1 sS) / ((n1 : ℝ) - 1) = d at *
  constructor
  · intro h
    have : Melt.inside (lo1 sS) (hi1 sS) d P = Melt.inside (lo1 sS) (hi1 sS) d (lo1 sS + 1 / 100 * d) := by
      unfold Melt.inside
      simp only [if_pos h, if_neg (show ¬ lo1 sS + 1 / 100 * d < lo1 sS by linarith)]
    rw [this]
  · intro h
    have : Melt.inside (lo1 sS) (hi1 sS) d P = Melt.inside (lo1 sS) (hi1 sS) d (hi1 sS - 1 / 100 * d) := by
      unfold Melt.inside
      simp only [if_neg (show ¬ P < lo1 sS by linarith), if_pos h, if_neg (show ¬ hi1 sS - 1 / 100 * d < lo1 sS by linarith),
        if_neg (show ¬ hi1 sS < hi1 sS - 1 / 100 * d by linarith)]
    rw [this]

/-- A file whose densities grow by one from entry to entry. -/
noncomputable def ramp : List ℝ := (List.range n1).map fun k : ℕ => 2000 + 1 * (k : ℝ)

theorem ramp_sorted : ramp.Pairwise (· ≤ ·) := by
  unfold ramp
  rw [List.pairwise_map]
  refine List.Pairwise.imp ?_ (List.pairwise_lt_range (n := n1))
  intro a b h
  have : (a : ℝ) ≤ b := by exact_mod_cast h.le
  linarith

theorem ramp_length : ramp.length = n1 := by rw [ramp, List.length_map, List.length_range]

theorem ramp_coesite (k : Nat) (hk : k < n1) : coesite 1 1 ramp k = 2000 + 1 * (k : ℝ) := by
  have hP := (step_pos 1 one_pos).ne'
  have cong : ∀ steps (r s : Nat → ℝ), (∀ k < n1, r k = s k) →
      ∀ k < n1, smooth n1 ((hi1 1 - lo1 1) / ((n1 - 1 : ℕ) : ℝ)) steps r k = smooth n1 ((hi1 1 - lo1 1) / ((n1 - 1 : ℕ) : ℝ)) steps s k := by
    intro steps r s h
    unfold smooth
    induction steps with
    | zero => exact h
    | succ m ih =>
      intro k hk
      rw [forUp_succ, forUp_succ, smoothStep_eq _ _ hP, smoothStep_eq _ _ hP, ih k hk]
      by_cases c : 0 < k ∧ k + 1 < n1
      · rw [if_pos c, if_pos c, ih (k - 1) (by omega), ih (k + 1) c.2]
      · rw [if_neg c, if_neg c]
  unfold coesite
  rw [cong 200 _ (fun k => 2000 + 1 * (k : ℕ)) ?_ k hk, smooth_linear _ _ hP]
  intro k hk
  rw [file_entry (by rw [ramp_length]) k hk, div_one]
  simp only [ramp, List.getElem_map, List.getElem_range]

/-- Around the lower limit the density can fall when the pressure grows, although the densities of the file never fall. -/
theorem coesite_falls : ∃ (file : List ℝ) (P Q : ℝ), n1 ≤ file.length ∧ file.Pairwise (· ≤ ·) ∧ 0 < P ∧ P < Q ∧
    ∀ mem, coesiteDensity 1 1 file mem Q < coesiteDensity 1 1 file mem P := by
  have hd : (hi1 1 - lo1 1) / ((n1 : ℝ) - 1) = (1e10 - 1e5) / 9999 := by norm_num [hi1, lo1, n1]
  refine ⟨ramp, 5e4, lo1 1 + 1 / 200 * ((hi1 1 - lo1 1) / ((n1 : ℝ) - 1)), by rw [ramp_length], ramp_sorted, by norm_num, ?_, ?_⟩
  · rw [hd]; norm_num [lo1]
  · intro mem
    rw [(coesite_outside 1 1 one_pos ramp mem 5e4).1 (by norm_num [lo1])]
    have val : ∀ t : ℝ, 0 < t → t < 1 → coesiteDensity 1 1 ramp mem (lo1 1 + t * ((hi1 1 - lo1 1) / ((n1 : ℝ) - 1))) = 2000 + t := by
      intro t t0 t1
      have hl := limits 1 one_pos
      have hn : (1 : ℝ) ≤ (n1 : ℝ) - 1 := by norm_num [n1]
      have hd : 0 < (hi1 1 - lo1 1) / ((n1 : ℝ) - 1) := div_pos (by linarith) (by linarith)
      have hd2 : (hi1 1 - lo1 1) / ((n1 : ℝ) - 1) ≤ hi1 1 - lo1 1 := div_le_self (by linarith) hn
      unfold coesiteDensity Melt.lookup1 Melt.weight Melt.lower
      simp only []
      generalize (hi1 1 - lo1 1) / ((n1 : ℝ) - 1) = d at *
      have ins : Melt.inside (lo1 1) (hi1 1) d (lo1 1 + t * d) = lo1 1 + t * d := by
        unfold Melt.inside
        simp only [if_neg (show ¬ lo1 1 + t * d < lo1 1 by nlinarith), if_neg (show ¬ hi1 1 < lo1 1 + t * d by nlinarith)]
      have ce : ⌈(lo1 1 + t * d - lo1 1) / d⌉ = 1 := by
        rw [add_sub_cancel_left, mul_div_assoc, div_self hd.ne', mul_one, Int.ceil_eq_iff]
        norm_num; exact ⟨t0, t1.le⟩
      rw [ins, ce]
      have m0 : coesiteMem 1 1 ramp mem (1 - 1) = 2000 := by
        unfold coesiteMem
        rw [if_pos (by norm_num [n1])]
        have := ramp_coesite 0 (by norm_num [n1])
        simpa using this
      have m1 : coesiteMem 1 1 ramp mem (1 - 1 + 1) = 2001 := by
        unfold coesiteMem
        rw [if_pos (by norm_num [n1])]
        have := ramp_coesite 1 (by norm_num [n1])
        rw [show ((1 - 1 + 1 : Int)).toNat = 1 from rfl, this]; norm_num
      rw [m0, m1]
      push_cast
      field_simp
      ring
    rw [val _ (by norm_num) (by norm_num), val _ (by norm_num) (by norm_num)]
    norm_num

/-- A file that is too short: the missing entries count as density zero. -/
theorem coesite_short (sS sR : ℝ) (hS : 0 < sS) (file : List ℝ) (hf : file.length < n1) : coesite sS sR file (n1 - 1) = 0 := by
  unfold coesite
  rw [(smooth_ends n1 _ (step_pos sS hS).ne' 200 _).2]
  unfold fread
  rw [if_pos ⟨by norm_num [n1], by norm_num [n1]⟩, Int.toNat_natCast, List.getElem?_eq_none (by omega), Option.getD_none, zero_div]

/-- Density model 4 is the look-up in the smoothed table. -/
theorem model4_density (dv : Int) (mats : Nat → Dens.Mat) (p : Nat) (sS sR : ℝ) (file : List ℝ) (mem : Int → ℝ) (hm : (mats p).dens = 4)
    (h1 : (mats p).n1 = n1) (h2 : (mats p).lo1 = lo1 sS) (h3 : (mats p).hi1 = hi1 sS) (h4 : (mats p).tab1 = coesiteMem sS sR file mem)
    (T P X phi junk : ℝ) : Dens.evaluate dv mats p T P X phi junk = coesiteDensity sS sR file mem P := by
  unfold Dens.evaluate
  simp [hm, h1, h2, h3, h4, coesiteDensity]

/-- Non-trivial case of the theorems on model 4: the ramp in units of 1e5 Pa. -/
example : coesiteDensity 1e5 1 ramp (fun _ => 0) (2e9 / 1e5) ≤ coesiteDensity 1e5 1 ramp (fun _ => 0) (3e9 / 1e5) :=
  coesite_monotone_partial 1e5 1 (by norm_num) one_pos ramp (by rw [ramp_length]) _ ramp_sorted 2e9 3e9 (by norm_num) (by norm_num) (by norm_num)

/-- A diagram of three by two nodes: an entry and the range. -/
example : ∃ h : 1 + 1 * 3 < ([1, 2, 3, 4, 5, 6] : List ℝ).length,
    (⟨3, 2, 0, 2, 0, 1⟩ : Diagram).density 2 4 8 [1, 2, 3, 4, 5, 6] (fun _ => 0) (axis 0 2 3 1 / 2) (axis 0 1 2 1 / 4) = ([1, 2, 3, 4, 5, 6] : List ℝ)[1 + 1 * 3] / 8 :=
  diagram_node ⟨3, 2, 0, 2, 0, 1⟩ ⟨by norm_num, by norm_num, by norm_num, by norm_num⟩ 2 4 8 (by norm_num) (by norm_num) _ (by simp) _ 1 1
    (by norm_num) (by norm_num) (by norm_num) (by norm_num)

end Verif.Tab
