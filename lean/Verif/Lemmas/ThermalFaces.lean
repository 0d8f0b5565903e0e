import Verif.Lemmas.Thermal
import Mathlib.Tactic.Abel

/-
Face-by-face form of the heat stencil: each face contributes a pair (diagonal, boundary term) and at most one
off-diagonal coefficient; symmetry of the off-diagonal coefficients.
-/
set_option linter.unusedSectionVars false
set_option linter.unusedSimpArgs false
namespace Verif.Heat
open Verif Finset

variable {K : Type*} [Field K] [LinearOrder K]

/-- Contribution of an inner side. -/
def sd (p : Par K) (k l nb : Nat) (a od : K) : K × K :=
  if p.te nb ≠ 30 then (a * od, 0)
  else if p.te (p.ext k l) = 1 then (2 * p.ks k l * od, 2 * p.ks k l * od * p.ve (p.ext k l)) else (0, 0)

/-- Contribution of a ghost with prescribed temperature. -/
def dr (p : Par K) (g : Nat) (a od : K) : K × K :=
  if p.te g = 1 then (2 * a * od, 2 * a * od * p.ve g) else (0, 0)

def whn (c : Prop) [Decidable c] (x : K × K) : K × K := if c then x else (0, 0)

def cS (p : Par K) (k l : Nat) : K × K :=
  whn (0 < l) (sd p k l (p.ext k l - (p.ncx + 2)) (p.AS k l) p.odz) +
  whn (l = 0) (dr p (p.ext k l - (p.ncx + 2)) (p.AS k l) p.odz) +
  whn (l = 0 ∧ p.te (p.ext k l - (p.ncx + 2)) = 0) (0, -1 / p.dx * p.ve (p.ext k l - (p.ncx + 2)))
def cW (p : Par K) (k l : Nat) : K × K :=
  whn (0 < k ∨ (k = 0 ∧ p.te (p.ext k l - 1) = -2)) (sd p k l (p.ext k l - 1) (p.AW k l) p.odx) +
  whn (k = 0) (dr p (p.ext k l - 1) (p.AW k l) p.odx)
def cE (p : Par K) (k l : Nat) : K × K :=
  whn (k + 1 < p.ncx ∨ (k + 1 = p.ncx ∧ p.te (p.ext k l + 1) = -2)) (sd p k l (p.ext k l + 1) (p.AE k l) p.odx) +
  whn (k + 1 = p.ncx) (dr p (p.ext k l + 1) (p.AE k l) p.odx)
def cN (p : Par K) (k l : Nat) : K × K :=
  whn (l + 1 < p.ncz) (sd p k l (p.ext k l + (p.ncx + 2)) (p.AN k l) p.odz) +
  whn (l + 1 = p.ncz) (dr p (p.ext k l + (p.ncx + 2)) (p.AN k l) p.odz)

theorem side_eq (p : Par K) (k l nb : Nat) (a od : K) (s : K × K) :
    side p k l nb a od s = s + sd p k l nb a od := by
  unfold side sd; split_ifs <;> ext <;> simp

theorem dirichlet_eq (p : Par K) (g : Nat) (a od : K) (s : K × K) :
    dirichlet p g a od s = s + dr p g a od := by
  unfold dirichlet dr; split_ifs <;> ext <;> simp

theorem if_add (c : Prop) [Decidable c] (s x : K × K) : (if c then s + x else s) = s + whn c x := by
  unfold whn; split_ifs <;> ext <;> simp

theorem flux_eq (s : K × K) (x : K) : (s.1, s.2 + x) = s + ((0 : K), x) := by ext <;> simp

theorem centre_faces (p : Par K) (k l : Nat) :
    centre p k l = (p.cap (p.cell k l) / p.dt, 0) + cW p k l + cE p k l + cS p k l + cN p k l := by
  unfold centre
  simp only [side_eq, dirichlet_eq, flux_eq, if_add]
  unfold cW cE cS cN
  abel

/-- Off-diagonal part of a row applied to a field. -/
def oS (p : Par K) (T : Nat → K) (k l : Nat) : K :=
  if 0 < l ∧ p.te (p.ext k l - (p.ncx + 2)) ≠ 30 then -1 * p.AS k l * p.odz * T (p.cell k l - p.ncx) else 0
def oN (p : Par K) (T : Nat → K) (k l : Nat) : K :=
  if l + 1 < p.ncz ∧ p.te (p.ext k l + (p.ncx + 2)) ≠ 30 then -1 * p.AN k l * p.odz * T (p.cell k l + p.ncx) else 0
def oW (p : Par K) (T : Nat → K) (k l : Nat) : K :=
  (if 0 < k ∧ p.te (p.ext k l - 1) ≠ 30 then -1 * p.AW k l * p.odx * T (p.cell k l - 1) else 0) +
  (if p.te (p.ext k l - 1) = -2 ∧ k = 0 then -1 * p.AW k l * p.odx * T (p.cell k l + (p.ncx - 1)) else 0)
def oE (p : Par K) (T : Nat → K) (k l : Nat) : K :=
  (if k + 1 < p.ncx ∧ p.te (p.ext k l + 1) ≠ 30 then -1 * p.AE k l * p.odx * T (p.cell k l + 1) else 0) +
  (if p.te (p.ext k l + 1) = -2 ∧ k + 1 = p.ncx then -1 * p.AE k l * p.odx * T (p.cell k l - (p.ncx - 1)) else 0)

theorem sum_if_single {α : Type*} (c : Prop) [Decidable c] (a : α) (f : α → K) :
    ((if c then [a] else []).map f).sum = if c then f a else 0 := by
  split_ifs <;> simp

theorem row_dot (p : Par K) (T : Nat → K) (k l : Nat) :
    ((row p k l).map fun e => e.2 * T e.1).sum =
      (centre p k l).1 * T (p.cell k l) + oW p T k l + oE p T k l + oS p T k l + oN p T k l := by
  unfold row
  simp only [List.map_append, List.sum_append, sum_if_single, List.map_cons, List.map_nil, List.sum_cons,
    List.sum_nil]
  unfold oW oE oS oN
  ring

variable [IsStrictOrderedRing K]

theorem ghostW (p : Par K) (l : Nat) : ghost p 0 l .W = p.ext 0 l - 1 := by
  simp only [ghost, Par.ext]; omega
theorem ghostE (p : Par K) {k : Nat} (l : Nat) (h : k + 1 = p.ncx) : ghost p k l .E = p.ext k l + 1 := by
  simp only [ghost, Par.ext]; omega
theorem ghostS (p : Par K) (k : Nat) : ghost p k 0 .S = p.ext k 0 - (p.ncx + 2) := by
  simp only [ghost, Par.ext]; omega
theorem ghostN (p : Par K) (k : Nat) {l : Nat} (h : l + 1 = p.ncz) :
    ghost p k l .N = p.ext k l + (p.ncx + 2) := by
  simp only [ghost, Par.ext]
  rw [← h]
  ring

theorem extW (p : Par K) {k : Nat} (l : Nat) (h : 0 < k) : p.ext (k - 1) l = p.ext k l - 1 := by
  simp only [Par.ext]; omega
theorem extE (p : Par K) (k l : Nat) : p.ext (k + 1) l = p.ext k l + 1 := by
  simp only [Par.ext]; omega
theorem extS (p : Par K) (k : Nat) {l : Nat} (h : 0 < l) : p.ext k (l - 1) = p.ext k l - (p.ncx + 2) := by
  obtain ⟨l, rfl⟩ := Nat.exists_eq_succ_of_ne_zero (by omega : l ≠ 0)
  simp only [Par.ext, Nat.succ_eq_add_one, Nat.add_sub_cancel]
  have : (l + 1 + 1) * (p.ncx + 2) = (l + 1) * (p.ncx + 2) + (p.ncx + 2) := by ring
  omega
theorem extN (p : Par K) (k l : Nat) : p.ext k (l + 1) = p.ext k l + (p.ncx + 2) := by
  simp only [Par.ext]; ring

theorem cellW (p : Par K) {k : Nat} (l : Nat) (h : 0 < k) : k - 1 + l * p.ncx = p.cell k l - 1 := by
  simp only [Par.cell]; omega
theorem cellS (p : Par K) (k : Nat) {l : Nat} (h : 0 < l) : k + (l - 1) * p.ncx = p.cell k l - p.ncx := by
  obtain ⟨l, rfl⟩ := Nat.exists_eq_succ_of_ne_zero (by omega : l ≠ 0)
  simp only [Par.cell, Nat.succ_eq_add_one, Nat.add_sub_cancel]
  have : (l + 1) * p.ncx = l * p.ncx + p.ncx := by ring
  omega
theorem cellN (p : Par K) (k l : Nat) : k + (l + 1) * p.ncx = p.cell k l + p.ncx := by
  simp only [Par.cell]; ring

theorem faceAE (p : Par K) (k l : Nat) : faceK p k l .E = p.AE k l := by
  simp only [faceK, Par.AE]; congr 1; ring
theorem faceAS (p : Par K) (k l : Nat) : faceK p k l .S = p.AS k l := by
  simp only [faceK, Par.AS]; congr 1; ring
theorem faceAN (p : Par K) (k l : Nat) : faceK p k l .N = p.AN k l := by
  simp only [faceK, Par.AN]; congr 1; ring
theorem faceAW (p : Par K) (k l : Nat) : faceK p k l .W = p.AW k l := rfl

theorem inflowW (p : Par K) (T : Nat → K) {k l : Nat} :
    inflow p T k l .W = (cW p k l).2 - (cW p k l).1 * T (p.cell k l) - oW p T k l := by
  have hc : k + l * p.ncx = p.cell k l := rfl
  unfold inflow behind inside outside cW oW sd dr whn
  rcases Nat.eq_zero_or_pos k with rfl | hk
  · simp only [Nat.lt_irrefl, if_false, ghostW, faceD, faceAW, hc]
    by_cases h1 : p.te (p.ext 0 l - 1) = 1
    · simp [h1, Par.odx]; ring
    · by_cases h2 : p.te (p.ext 0 l - 1) = -2
      · have e : p.ncx - 1 + l * p.ncx = p.cell 0 l + (p.ncx - 1) := by simp only [Par.cell]; omega
        simp [h2, Par.odx, e]; ring
      · simp [h1, h2]
  · have hk0 : k ≠ 0 := by omega
    simp only [hk, if_true, extW p l hk, faceD, faceAW, hc, cellW p l hk, hk0]
    by_cases h1 : p.te (p.ext k l - 1) = 30
    · by_cases h2 : p.te (p.ext k l) = 1
      · simp [h1, h2, Par.odx]; ring
      · simp [h1, h2]
    · simp [h1, Par.odx, cellW p l hk]; ring

theorem inflowE (p : Par K) (T : Nat → K) {k l : Nat} (hk : k < p.ncx) :
    inflow p T k l .E = (cE p k l).2 - (cE p k l).1 * T (p.cell k l) - oE p T k l := by
  have hc : k + l * p.ncx = p.cell k l := rfl
  unfold inflow behind inside outside cE oE sd dr whn
  by_cases hk1 : k + 1 = p.ncx
  · simp only [hk1, Nat.lt_irrefl, if_false, ghostE p l hk1, faceD, faceAE, hc]
    by_cases h1 : p.te (p.ext k l + 1) = 1
    · simp [h1, Par.odx]; ring
    · by_cases h2 : p.te (p.ext k l + 1) = -2
      · have e : l * p.ncx = p.cell k l - (p.ncx - 1) := by simp only [Par.cell]; omega
        simp [h2, Par.odx, e]; ring
      · simp [h1, h2]
  · have hk2 : k + 1 < p.ncx := by omega
    have e : k + 1 + l * p.ncx = p.cell k l + 1 := by simp only [Par.cell]; omega
    simp only [hk1, hk2, if_true, extE p k l, faceD, faceAE, hc, e]
    by_cases h1 : p.te (p.ext k l + 1) = 30
    · by_cases h2 : p.te (p.ext k l) = 1
      · simp [h1, h2, Par.odx]; ring
      · simp [h1, h2]
    · simp [h1, Par.odx, e]; ring

theorem inflowS (p : Par K) (T : Nat → K) {k l : Nat} :
    inflow p T k l .S = (cS p k l).2 - (cS p k l).1 * T (p.cell k l) - oS p T k l := by
  have hc : k + l * p.ncx = p.cell k l := rfl
  unfold inflow behind inside outside cS oS sd dr whn
  rcases Nat.eq_zero_or_pos l with rfl | hl
  · simp only [Nat.lt_irrefl, if_false, ghostS, faceD, faceAS, hc]
    by_cases h1 : p.te (p.ext k 0 - (p.ncx + 2)) = 1
    · simp [h1, Par.odz]; ring
    · by_cases h2 : p.te (p.ext k 0 - (p.ncx + 2)) = 0
      · simp [h2]; ring
      · simp [h1, h2]
  · have hl0 : l ≠ 0 := by omega
    simp only [hl, if_true, extS p k hl, faceD, faceAS, hc, hl0]
    by_cases h1 : p.te (p.ext k l - (p.ncx + 2)) = 30
    · by_cases h2 : p.te (p.ext k l) = 1
      · simp [h1, h2, Par.odz]; ring
      · simp [h1, h2]
    · simp [h1, Par.odz, cellS p k hl]; ring

theorem inflowN (p : Par K) (T : Nat → K) {k l : Nat} (hl : l < p.ncz) :
    inflow p T k l .N = (cN p k l).2 - (cN p k l).1 * T (p.cell k l) - oN p T k l := by
  have hc : k + l * p.ncx = p.cell k l := rfl
  unfold inflow behind inside outside cN oN sd dr whn
  by_cases hl1 : l + 1 = p.ncz
  · simp only [hl1, Nat.lt_irrefl, if_false, ghostN p k hl1, faceD, faceAN, hc]
    by_cases h1 : p.te (p.ext k l + (p.ncx + 2)) = 1
    · simp [h1, Par.odz]; ring
    · simp [h1]
  · have hl2 : l + 1 < p.ncz := by omega
    simp only [hl1, hl2, if_true, extN p k l, faceD, faceAN, hc]
    by_cases h1 : p.te (p.ext k l + (p.ncx + 2)) = 30
    · by_cases h2 : p.te (p.ext k l) = 1
      · simp [h1, h2, Par.odz]; ring
      · simp [h1, h2]
    · simp [h1, Par.odz, cellN p k l]; ring

/-- A row of the system is the energy balance of its cell. -/
theorem balance_iff (p : Par K) (q T0 T : Nat → K) {k l : Nat} (hk : k < p.ncx) (hl : l < p.ncz) :
    Balance p q T0 T k l ↔
      ((row p k l).map fun e => e.2 * T e.1).sum =
        (p.cap (p.cell k l) * T0 (p.cell k l) / p.dt + q (p.cell k l)) + (centre p k l).2 := by
  rw [row_dot, centre_faces]
  unfold Balance
  rw [inflowW, inflowE p T hk, inflowS, inflowN p T hl]
  have hc : k + l * p.ncx = p.cell k l := rfl
  simp only [hc, Prod.fst_add, Prod.snd_add]
  have e : p.cap (p.cell k l) * (T (p.cell k l) - T0 (p.cell k l)) / p.dt =
    p.cap (p.cell k l) / p.dt * T (p.cell k l) - p.cap (p.cell k l) * T0 (p.cell k l) / p.dt := by ring
  rw [e]
  constructor <;> intro h <;> linear_combination h

/-! ### Columns -/

/-- Every column of a row is a rock cell of the grid. -/
theorem row_targets (p : Par K) (hp : PeriodicOK p) {k l : Nat} (hk : k < p.ncx) (hl : l < p.ncz)
    (hr : Rock p k l) : ∀ e ∈ row p k l, ∃ k' < p.ncx, ∃ l' < p.ncz, e.1 = k' + l' * p.ncx ∧ Rock p k' l' := by
  intro e he
  unfold row at he
  simp only [List.mem_append, List.mem_ite_nil_right, List.mem_singleton] at he
  rcases he with (((((⟨⟨h1, h2⟩, rfl⟩ | ⟨⟨h1, h2⟩, rfl⟩) | ⟨⟨h1, h2⟩, rfl⟩) | rfl) | ⟨⟨h1, h2⟩, rfl⟩) | ⟨⟨h1, h2⟩, rfl⟩) |
    ⟨⟨h1, h2⟩, rfl⟩
  · exact ⟨k, hk, l - 1, by omega, (cellS p k h1).symm, by rw [Rock, extS p k h1]; exact h2⟩
  · have ek : k = p.ncx - 1 := by omega
    have hrr : Rock p (p.ncx - 1) l := ek ▸ hr
    have hg : p.te (ghost p 0 l .E) = -2 := by
      have : ghost p 0 l .E = ghost p k l .E := rfl
      rw [this, ghostE p l h2]; exact h1
    refine ⟨0, by omega, l, hl, ?_, ((hp l hl).2.1 ⟨hrr, hg⟩).1⟩
    simp only [Par.cell]; omega
  · exact ⟨k - 1, by omega, l, hl, (cellW p l h1).symm, by rw [Rock, extW p l h1]; exact h2⟩
  · exact ⟨k, hk, l, hl, rfl, hr⟩
  · exact ⟨k + 1, h1, l, hl, by simp only [Par.cell]; omega, by rw [Rock, extE]; exact h2⟩
  · subst h2
    have hg : p.te (ghost p 0 l .W) = -2 := by rw [ghostW]; exact h1
    refine ⟨p.ncx - 1, by omega, l, hl, ?_, ((hp l hl).1 ⟨hr, hg⟩).1⟩
    simp only [Par.cell]; omega
  · exact ⟨k, hk, l + 1, h1, (cellN p k l).symm, by rw [Rock, extN]; exact h2⟩

/-- Coefficient of cell `c'` in the row of cell `(k, l)`. -/
def coef (p : Par K) (k l c' : Nat) : K := ((row p k l).map fun e => e.2 * (if e.1 = c' then 1 else 0)).sum

theorem coef_eq (p : Par K) (k l c' : Nat) :
    coef p k l c' = (centre p k l).1 * (if p.cell k l = c' then 1 else 0) +
      oW p (fun c => if c = c' then 1 else 0) k l + oE p (fun c => if c = c' then 1 else 0) k l +
      oS p (fun c => if c = c' then 1 else 0) k l + oN p (fun c => if c = c' then 1 else 0) k l :=
  row_dot p (fun c => if c = c' then 1 else 0) k l

theorem link_SN (p : Par K) {k l k' l' : Nat} (hk : k < p.ncx) (hk' : k' < p.ncx) (hl : l < p.ncz)
    (hr : Rock p k l) (hr' : Rock p k' l') :
    oS p (fun c => if c = k' + l' * p.ncx then 1 else 0) k l =
      oN p (fun c => if c = k + l * p.ncx then 1 else 0) k' l' := by
  simp only [oS, oN]
  by_cases h : k' = k ∧ l' + 1 = l
  · obtain ⟨rfl, rfl⟩ := h
    have e1 : p.cell k' (l' + 1) - p.ncx = k' + l' * p.ncx := by rw [← cellS p k' (by omega)]; simp
    have e2 : p.cell k' l' + p.ncx = k' + (l' + 1) * p.ncx := (cellN p k' l').symm
    have e3 : p.ext k' (l' + 1) - (p.ncx + 2) = p.ext k' l' := by rw [extN]; omega
    have e4 : p.AS k' (l' + 1) = p.AN k' l' := by
      simp only [Par.AS, Par.AN]; congr 1; ring
    have h1 : p.te (p.ext k' l') ≠ 30 := hr'
    have h2 : p.te (p.ext k' l' + (p.ncx + 2)) ≠ 30 := by rw [← extN]; exact hr
    simp [e1, e2, e3, e4, h1, h2, hl]
  · have n1 : 0 < l → p.cell k l - p.ncx ≠ k' + l' * p.ncx := by
      intro hl0 he
      rw [← cellS p k hl0, cell_inj hk hk'] at he
      exact h ⟨he.1.symm, by omega⟩
    have n2 : p.cell k' l' + p.ncx ≠ k + l * p.ncx := by
      intro he
      rw [← cellN p k' l', cell_inj hk' hk] at he
      exact h ⟨he.1, he.2⟩
    rw [if_neg n2, mul_zero, ite_self]
    split_ifs with h1 h2
    · exact absurd h2 (n1 h1.1)
    · rw [mul_zero]
    · rfl

theorem link_WE (p : Par K) (hp : PeriodicOK p) {k l k' l' : Nat} (hk : k < p.ncx) (hk' : k' < p.ncx)
    (hl : l < p.ncz) (hr : Rock p k l) (hr' : Rock p k' l') :
    oW p (fun c => if c = k' + l' * p.ncx then 1 else 0) k l =
      oE p (fun c => if c = k + l * p.ncx then 1 else 0) k' l' := by
  simp only [oW, oE]
  congr 1
  · by_cases h : k' + 1 = k ∧ l' = l
    · obtain ⟨rfl, rfl⟩ := h
      have e1 : p.cell (k' + 1) l' - 1 = k' + l' * p.ncx := by simp only [Par.cell]; omega
      have e2 : p.cell k' l' + 1 = k' + 1 + l' * p.ncx := by simp only [Par.cell]; omega
      have e3 : p.ext (k' + 1) l' - 1 = p.ext k' l' := by rw [extE]; omega
      have e4 : p.AW (k' + 1) l' = p.AE k' l' := by
        simp only [Par.AW, Par.AE]; congr 1; omega
      have h1 : p.te (p.ext k' l') ≠ 30 := hr'
      have h2 : p.te (p.ext k' l' + 1) ≠ 30 := by rw [← extE]; exact hr
      simp [e1, e2, e3, e4, h1, h2, hk]
    · have n1 : 0 < k → p.cell k l - 1 ≠ k' + l' * p.ncx := by
        intro hk0 he
        rw [← cellW p l hk0, cell_inj (by omega) hk'] at he
        exact h ⟨by omega, he.2.symm⟩
      have n2 : k' + 1 < p.ncx → p.cell k' l' + 1 ≠ k + l * p.ncx := by
        intro hk1 he
        have : p.cell k' l' + 1 = (k' + 1) + l' * p.ncx := by simp only [Par.cell]; omega
        rw [this, cell_inj hk1 hk] at he
        exact h he
      have z1 : (if 0 < k ∧ p.te (p.ext k l - 1) ≠ 30 then
          -1 * p.AW k l * p.odx * (if p.cell k l - 1 = k' + l' * p.ncx then 1 else 0) else 0) = 0 := by
        split_ifs with h1 h2
        · exact absurd h2 (n1 h1.1)
        · rw [mul_zero]
        · rfl
      have z2 : (if k' + 1 < p.ncx ∧ p.te (p.ext k' l' + 1) ≠ 30 then
          -1 * p.AE k' l' * p.odx * (if p.cell k' l' + 1 = k + l * p.ncx then 1 else 0) else 0) = 0 := by
        split_ifs with h1 h2
        · exact absurd h2 (n2 h1.1)
        · rw [mul_zero]
        · rfl
      rw [z1, z2]
  · by_cases h : k = 0 ∧ k' + 1 = p.ncx ∧ l' = l
    · obtain ⟨rfl, h2, rfl⟩ := h
      have e1 : p.cell 0 l' + (p.ncx - 1) = k' + l' * p.ncx := by simp only [Par.cell]; omega
      have e2 : p.cell k' l' - (p.ncx - 1) = 0 + l' * p.ncx := by simp only [Par.cell]; omega
      have ek : k' = p.ncx - 1 := by omega
      have hrr : Rock p (p.ncx - 1) l' := ek ▸ hr'
      have gE : ghost p 0 l' .E = p.ext k' l' + 1 := ghostE p l' h2
      have hW := hp l' hl
      rw [gE, ghostW, faceAW, faceAE, ← ek] at hW
      by_cases ht : p.te (p.ext 0 l' - 1) = -2
      · have a := hW.1 ⟨hr, ht⟩
        have b := hW.2.2 ⟨hr, ht⟩
        simp [e1, e2, ht, a.2, b, h2]
      · have : p.te (p.ext k' l' + 1) ≠ -2 := fun hh => ht (hW.2.1 ⟨hr', hh⟩).2
        simp [ht, this]
    · have z1 : (if p.te (p.ext k l - 1) = -2 ∧ k = 0 then
          -1 * p.AW k l * p.odx * (if p.cell k l + (p.ncx - 1) = k' + l' * p.ncx then 1 else 0) else 0) = 0 := by
        split_ifs with h1 h2
        · exfalso
          obtain ⟨-, rfl⟩ := h1
          have : p.cell 0 l + (p.ncx - 1) = (p.ncx - 1) + l * p.ncx := by simp only [Par.cell]; omega
          rw [this, cell_inj (by omega) hk'] at h2
          exact h ⟨rfl, by omega, h2.2.symm⟩
        · rw [mul_zero]
        · rfl
      have z2 : (if p.te (p.ext k' l' + 1) = -2 ∧ k' + 1 = p.ncx then
          -1 * p.AE k' l' * p.odx * (if p.cell k' l' - (p.ncx - 1) = k + l * p.ncx then 1 else 0) else 0) = 0 := by
        split_ifs with h1 h2
        · exfalso
          obtain ⟨-, h1⟩ := h1
          have : p.cell k' l' - (p.ncx - 1) = 0 + l' * p.ncx := by simp only [Par.cell]; omega
          rw [this, cell_inj (by omega) hk] at h2
          exact h ⟨h2.1.symm, h1, h2.2⟩
        · rw [mul_zero]
        · rfl
      rw [z1, z2]

/-- The coefficients are symmetric. -/
theorem coef_symm (p : Par K) (hp : PeriodicOK p) {k l k' l' : Nat} (hk : k < p.ncx) (hk' : k' < p.ncx)
    (hl : l < p.ncz) (hl' : l' < p.ncz) (hr : Rock p k l) (hr' : Rock p k' l') :
    coef p k l (k' + l' * p.ncx) = coef p k' l' (k + l * p.ncx) := by
  rw [coef_eq, coef_eq, link_SN p hk hk' hl hr hr', ← link_SN p hk' hk hl' hr' hr,
    link_WE p hp hk hk' hl hr hr', ← link_WE p hp hk' hk hl' hr' hr]
  have : (centre p k l).1 * (if p.cell k l = k' + l' * p.ncx then 1 else 0) =
      (centre p k' l').1 * (if p.cell k' l' = k + l * p.ncx then 1 else 0) := by
    simp only [Par.cell, cell_inj hk hk', cell_inj hk' hk]
    by_cases h : k = k' ∧ l = l'
    · obtain ⟨rfl, rfl⟩ := h; rfl
    · rw [if_neg h, if_neg (fun hh => h ⟨hh.1.symm, hh.2.symm⟩), mul_zero, mul_zero]
  rw [this]
  ring

end Verif.Heat
