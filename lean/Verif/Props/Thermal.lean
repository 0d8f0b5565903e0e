import Verif.Lemmas.ThermalFaces
import Mathlib.LinearAlgebra.FiniteDimensional.Basic
import Mathlib.LinearAlgebra.FiniteDimensional.Lemmas
import Mathlib.LinearAlgebra.Matrix.ToLin
import Mathlib.Data.Finset.Max
import Mathlib.Data.Rat.Floor

/-
The implicit heat equation (and, with unit capacity, chemical diffusion): C35 matrix, C36 bounds, C37 energy.
-/
set_option linter.unusedSectionVars false
set_option linter.unusedSimpArgs false
namespace Verif.Heat
open Verif Finset

variable {K : Type*} [Field K] [LinearOrder K] [IsStrictOrderedRing K]

/-! ### The stored matrix -/

theorem entry_coef (p : Par K) (ht : TagsAgree p) (hp : PeriodicOK p) (junk : ThBuf K) {k l k' l' : Nat}
    (hk : k < p.ncx) (hl : l < p.ncz) (hk' : k' < p.ncx) (hl' : l' < p.ncz) (hr : Rock p k l) (hr' : Rock p k' l') :
    entry (matrix p junk) (Nat.count p.isNum (k + l * p.ncx)) (Nat.count p.isNum (k' + l' * p.ncx)) =
      coef p k l (k' + l' * p.ncx) := by
  unfold entry
  rw [row_sum p ht junk (cell_lt hk hl) ((active_cell p hk).2 hr)
    (fun j a => if j = ((Nat.count p.isNum (k' + l' * p.ncx) : Nat) : Int) then a else 0)]
  unfold rowE coef
  rw [List.map_map, cell_mod l hk, cell_div l hk]
  refine congrArg List.sum (List.map_congr_left fun e he => ?_)
  obtain ⟨k2, hk2, l2, hl2, e1, hr2⟩ := row_targets p hp hk hl hr e he
  simp only [Function.comp_apply]
  rw [e1, eqn_active p ht (cell_lt hk2 hl2) ((active_cell p hk2).2 hr2)]
  by_cases h : k2 + l2 * p.ncx = k' + l' * p.ncx
  · rw [h]; simp
  · have : Nat.count p.isNum (k2 + l2 * p.ncx) ≠ Nat.count p.isNum (k' + l' * p.ncx) := fun hh =>
      h (count_inj p ht (cell_lt hk2 hl2) (cell_lt hk' hl') ((active_cell p hk2).2 hr2)
        ((active_cell p hk').2 hr') hh)
    rw [if_neg h, if_neg (by exact_mod_cast this), mul_zero]

/-- Every equation belongs to a rock cell. -/
theorem eq_cell (p : Par K) (ht : TagsAgree p) {i : Nat} (hi : i < p.num.inc) :
    ∃ k < p.ncx, ∃ l < p.ncz, Rock p k l ∧ Nat.count p.isNum (k + l * p.ncx) = i := by
  obtain ⟨c, hc, ha, he⟩ := count_surj p ht hi
  obtain ⟨h1, h2, h3⟩ := split_cell p hc
  refine ⟨c % p.ncx, h1, c / p.ncx, h2, ?_, by rw [← h3]; exact he⟩
  rw [h3] at ha
  exact (active_cell p h1).1 ha

theorem list_contract (n : Nat) (x : Nat → K) (L : List (Int × K)) (hL : ∀ e ∈ L, 0 ≤ e.1 ∧ e.1 < n) :
    ∑ j ∈ range n, (L.map fun e => if e.1 = (j : Int) then e.2 else 0).sum * x j =
      (L.map fun e => e.2 * x e.1.toNat).sum := by
  induction L with
  | nil => simp
  | cons a L ih =>
    simp only [List.map_cons, List.sum_cons, add_mul, Finset.sum_add_distrib]
    rw [ih fun e he => hL e (List.mem_cons_of_mem _ he)]
    congr 1
    obtain ⟨h1, h2⟩ := hL a (List.mem_cons_self ..)
    rw [Finset.sum_eq_single a.1.toNat]
    · rw [if_pos (by omega)]
    · intro j _ hj
      rw [if_neg (by omega), zero_mul]
    · intro h
      rw [Finset.mem_range] at h
      omega

/-- A matrix row applied to a vector is the cell's stencil applied to the field of the vector. -/
theorem matrix_row (p : Par K) (ht : TagsAgree p) (hp : PeriodicOK p) (junk : ThBuf K) (x : Nat → K)
    {k l : Nat} (hk : k < p.ncx) (hl : l < p.ncz) (hr : Rock p k l) :
    ∑ j ∈ range p.num.inc, entry (matrix p junk) (Nat.count p.isNum (k + l * p.ncx)) j * x j =
      ((row p k l).map fun e => e.2 * x (p.num.eqn e.1).toNat).sum := by
  have h1 : ∀ j, entry (matrix p junk) (Nat.count p.isNum (k + l * p.ncx)) j =
      ((rowE p (k + l * p.ncx)).map fun e => if e.1 = (j : Int) then e.2 else 0).sum := by
    intro j
    unfold entry
    exact row_sum p ht junk (cell_lt hk hl) ((active_cell p hk).2 hr) (fun a b => if a = (j : Int) then b else 0)
  simp only [h1]
  rw [list_contract]
  · unfold rowE
    rw [List.map_map, cell_mod l hk, cell_div l hk]
    rfl
  · intro e he
    unfold rowE at he
    rw [cell_mod l hk, cell_div l hk, List.mem_map] at he
    obtain ⟨e', he', rfl⟩ := he
    obtain ⟨k2, hk2, l2, hl2, e1, hr2⟩ := row_targets p hp hk hl hr e' he'
    have ha := (active_cell p hk2).2 hr2
    simp only
    rw [e1, eqn_active p ht (cell_lt hk2 hl2) ha]
    have := count_lt p ht (cell_lt hk2 hl2) ha
    omega

/-- C35: every stored column is an equation number, and the number of stored coefficients is at most five per equation. -/
theorem heat_matrix_fits (p : Par K) (ht : TagsAgree p) (hp : PeriodicOK p) (junk : ThBuf K) (hn : 2 ≤ p.ncx) :
    (∀ t < (matrix p junk).nnz, 0 ≤ (matrix p junk).J t ∧ (matrix p junk).J t < p.num.inc) ∧
    (matrix p junk).nnz ≤ 5 * p.num.inc := by
  obtain ⟨hH, hI⟩ := rowptr p ht junk
  constructor
  · intro t htn
    rw [hH.1] at htn
    rw [(hH.2 t htn).1]
    have hm := List.getElem_mem htn
    generalize (seg p.active (rowE p) 0 (p.ncx * p.ncz))[t] = e at hm
    unfold seg at hm
    rw [List.mem_flatMap] at hm
    obtain ⟨c, hc, he⟩ := hm
    rw [List.mem_range'_1] at hc
    split_ifs at he with ha
    · obtain ⟨h1, h2, h3⟩ := split_cell p (show c < p.ncx * p.ncz by omega)
      unfold rowE at he
      rw [List.mem_map] at he
      obtain ⟨e', he', rfl⟩ := he
      have hr : Rock p (c % p.ncx) (c / p.ncx) := by
        rw [h3] at ha; exact (active_cell p h1).1 ha
      obtain ⟨k2, hk2, l2, hl2, e1, hr2⟩ := row_targets p hp h1 h2 hr e' he'
      have ha := (active_cell p hk2).2 hr2
      simp only
      rw [e1, eqn_active p ht (cell_lt hk2 hl2) ha]
      have := count_lt p ht (cell_lt hk2 hl2) ha
      omega
    · simp at he
  · rw [hH.1, (num_spec p).1]
    have key : ∀ c ≤ p.ncx * p.ncz, (seg p.active (rowE p) 0 c).length ≤ 5 * Nat.count p.isNum c := by
      intro c
      induction c with
      | zero => intro _; simp [seg]
      | succ c ih =>
        intro hc
        rw [seg_succ, List.length_append, Nat.count_succ]
        have := ih (by omega)
        simp only [Nat.zero_add]
        by_cases ha : p.active c = true
        · rw [if_pos ha, if_pos ((active_iff p ht (by omega)).1 ha)]
          have : (rowE p c).length ≤ 5 := by
            unfold rowE row
            simp only [List.length_map, List.length_append]
            split_ifs <;> simp <;> omega
          omega
        · rw [if_neg ha, if_neg (fun h => ha ((active_iff p ht (by omega)).2 h))]
          simp only [List.length_nil]
          omega
    exact key _ (le_refl _)

/-- C35: the stored matrix is symmetric (so handing over its lower triangle loses nothing). -/
theorem heat_matrix_symmetric_partial (p : Par K) (ht : TagsAgree p) (hp : PeriodicOK p) (junk : ThBuf K) :
    ∀ i < p.num.inc, ∀ j < p.num.inc, entry (matrix p junk) i j = entry (matrix p junk) j i := by
  intro i hi j hj
  obtain ⟨k, hk, l, hl, hr, rfl⟩ := eq_cell p ht hi
  obtain ⟨k', hk', l', hl', hr', rfl⟩ := eq_cell p ht hj
  rw [entry_coef p ht hp junk hk hl hk' hl' hr hr', entry_coef p ht hp junk hk' hl' hk hl hr' hr]
  exact coef_symm p hp hk hk' hl hl' hr hr'

/-- What the solver returns solves the full system. -/
theorem chol_full (p : Par K) (ht : TagsAgree p) (hp : PeriodicOK p) (junk : ThBuf K) (r x : Nat → K) :
    CholSolves p.num.inc (matrix p junk) r x ↔
      ∀ i < p.num.inc, ∑ j ∈ range p.num.inc, entry (matrix p junk) i j * x j = r i := by
  unfold CholSolves
  refine forall_congr' fun i => forall_congr' fun hi => ?_
  have : ∑ j ∈ range p.num.inc, (if j ≤ i then entry (matrix p junk) i j else entry (matrix p junk) j i) * x j =
      ∑ j ∈ range p.num.inc, entry (matrix p junk) i j * x j := by
    refine Finset.sum_congr rfl fun j hj => ?_
    rw [Finset.mem_range] at hj
    split_ifs
    · rfl
    · rw [heat_matrix_symmetric_partial p ht hp junk j hj i hi]
  rw [this]

/-! ### Energy balance of each cell -/

/-- C35/C37: the solver's result satisfies the energy balance of every rock cell, and any field satisfying the balances is a
solution. -/
theorem heat_balance_iff (p : Par K) (ht : TagsAgree p) (hp : PeriodicOK p) (junk : ThBuf K) (src : Src K)
    (T0 r x : Nat → K)
    (hrhs : ∀ c < p.ncx * p.ncz, p.active c = true → r (p.num.eqn c).toNat = rhs p src T0 c) :
    CholSolves p.num.inc (matrix p junk) r x ↔
      ∀ k < p.ncx, ∀ l < p.ncz, Rock p k l →
        Balance p (src.at T0) T0 (fun c => x (p.num.eqn c).toNat) k l := by
  rw [chol_full p ht hp]
  have hrow : ∀ k < p.ncx, ∀ l < p.ncz, Rock p k l →
      ((∑ j ∈ range p.num.inc, entry (matrix p junk) (Nat.count p.isNum (k + l * p.ncx)) j * x j =
        r (Nat.count p.isNum (k + l * p.ncx))) ↔
      Balance p (src.at T0) T0 (fun c => x (p.num.eqn c).toNat) k l) := by
    intro k hk l hl hr
    have ha := (active_cell p hk).2 hr
    have h2 := hrhs _ (cell_lt hk hl) ha
    rw [eqn_toNat p ht (cell_lt hk hl) ha] at h2
    rw [matrix_row p ht hp junk x hk hl hr, h2, balance_iff p _ _ _ hk hl]
    unfold rhs
    rw [cell_mod l hk, cell_div l hk]
    rfl
  constructor
  · intro h k hk l hl hr
    exact (hrow k hk l hl hr).1 (h _ (count_lt p ht (cell_lt hk hl) ((active_cell p hk).2 hr)))
  · intro h i hi
    obtain ⟨k, hk, l, hl, hr, rfl⟩ := eq_cell p ht hi
    exact (hrow k hk l hl hr).2 (h k hk l hl hr)

/-- C37: one thermal solve satisfies the energy balance in every rock cell, fluxes being face conductivity times
temperature difference over spacing; air cells get the air temperature. -/
theorem heat_step_balance (p : Par K) (ht : TagsAgree p) (hp : PeriodicOK p) (src : Src K) (air : K)
    (T T' : Nat → K) (h : Step p src air T T') :
    ∀ k < p.ncx, ∀ l < p.ncz, (Rock p k l → Balance p (src.at T) T T' k l) ∧
      (¬ Rock p k l → T' (k + l * p.ncx) = air) := by
  obtain ⟨junk, r, x, hr, hs, he⟩ := h
  have hb := (heat_balance_iff p ht hp junk src T r x hr).1 hs
  have hT : T' = fun c => if c < p.ncx * p.ncz then (if p.active c then x (p.num.eqn c).toNat else air) else T c := by
    unfold extract at he
    split_ifs at he with h1
    exact (Option.some.inj he).symm
  have hval : ∀ k < p.ncx, ∀ l < p.ncz, Rock p k l → T' (k + l * p.ncx) = x (p.num.eqn (k + l * p.ncx)).toNat := by
    intro k hk l hl hrk
    rw [hT]
    simp only
    rw [if_pos (cell_lt hk hl), if_pos ((active_cell p hk).2 hrk)]
  intro k hk l hl
  constructor
  · intro hrk
    have h2 := hb k hk l hl hrk
    rw [balance_iff p _ _ _ hk hl] at h2 ⊢
    rw [← h2]
    refine congrArg List.sum (List.map_congr_left fun e he => ?_)
    obtain ⟨k2, hk2, l2, hl2, e1, hr2⟩ := row_targets p hp hk hl hrk e he
    rw [e1, hval k2 hk2 l2 hl2 hr2]
  · intro hrk
    rw [hT]
    simp only
    rw [if_pos (cell_lt hk hl), if_neg (fun h => hrk ((active_cell p hk).1 h))]

/-! ### Exchange between cells -/

/-- Pairwise exchange `h (neighbour) (own)` through a face of a rock cell. -/
def exch (h : K → K → K) (p : Par K) (T : Nat → K) (k l : Nat) (f : Face) : K :=
  if p.te (p.ext k l) ≠ 30 then
    match behind p k l f with
    | .cell k' l' => faceK p k l f / faceD p f ^ 2 * h (T (k' + l' * p.ncx)) (T (k + l * p.ncx))
    | _ => 0
  else 0

theorem faceK_WE (p : Par K) (k l : Nat) : faceK p (k + 1) l .W = faceK p k l .E := rfl
theorem faceK_SN (p : Par K) (k l : Nat) : faceK p k (l + 1) .S = faceK p k l .N := rfl

theorem faceK_nonneg {p : Par K} (hph : Physical p) (k l : Nat) (f : Face) : 0 ≤ faceK p k l f := by
  cases f
  · exact hph.kx _
  · exact hph.kx _
  · exact hph.kz _
  · exact hph.kz _

theorem faceD_pos {p : Par K} (hph : Physical p) (f : Face) : 0 < faceD p f := by
  cases f
  · exact hph.dx
  · exact hph.dx
  · exact hph.dz
  · exact hph.dz

theorem exch_WE {p : Par K} (hph : Physical p) (h : K → K → K) (hh : ∀ a b, 0 ≤ h a b + h b a) (T : Nat → K)
    {k : Nat} (l : Nat) (hk : k + 1 < p.ncx) : 0 ≤ exch h p T k l .E + exch h p T (k + 1) l .W := by
  unfold exch behind inside
  simp only [hk, if_true, Nat.succ_pos, Nat.add_sub_cancel, faceK_WE, Nat.lt_add_left_iff_pos, Nat.zero_lt_one]
  by_cases h1 : p.te (p.ext k l) = 30
  · by_cases h2 : p.te (p.ext (k + 1) l) = 30
    · simp [h1, h2]
    · by_cases h3 : p.te (p.ext (k + 1) l) = 1
      · simp [h1, h3]
      · simp [h1, h2, h3]
  · by_cases h2 : p.te (p.ext (k + 1) l) = 30
    · by_cases h3 : p.te (p.ext k l) = 1
      · simp [h2, h3]
      · simp [h1, h2, h3]
    · simp only [h1, h2, ne_eq, not_false_eq_true, if_true]
      rw [show faceD p .W = faceD p .E from rfl, ← mul_add]
      exact mul_nonneg (div_nonneg (faceK_nonneg hph k l .E) (by positivity)) (hh _ _)

theorem exch_SN {p : Par K} (hph : Physical p) (h : K → K → K) (hh : ∀ a b, 0 ≤ h a b + h b a) (T : Nat → K)
    (k : Nat) {l : Nat} (hl : l + 1 < p.ncz) : 0 ≤ exch h p T k l .N + exch h p T k (l + 1) .S := by
  unfold exch behind inside
  simp only [hl, if_true, Nat.succ_pos, Nat.add_sub_cancel, faceK_SN, Nat.lt_add_left_iff_pos, Nat.zero_lt_one]
  by_cases h1 : p.te (p.ext k l) = 30
  · by_cases h2 : p.te (p.ext k (l + 1)) = 30
    · simp [h1, h2]
    · by_cases h3 : p.te (p.ext k (l + 1)) = 1
      · simp [h1, h3]
      · simp [h1, h2, h3]
  · by_cases h2 : p.te (p.ext k (l + 1)) = 30
    · by_cases h3 : p.te (p.ext k l) = 1
      · simp [h2, h3]
      · simp [h1, h2, h3]
    · simp only [h1, h2, ne_eq, not_false_eq_true, if_true]
      rw [show faceD p .S = faceD p .N from rfl, ← mul_add]
      exact mul_nonneg (div_nonneg (faceK_nonneg hph k l .N) (by positivity)) (hh _ _)

theorem exch_per {p : Par K} (hph : Physical p) (hp : PeriodicOK p) (h : K → K → K)
    (hh : ∀ a b, 0 ≤ h a b + h b a) (T : Nat → K) {l : Nat} (hl : l < p.ncz) (hn : 0 < p.ncx) :
    0 ≤ exch h p T 0 l .W + exch h p T (p.ncx - 1) l .E := by
  obtain ⟨p1, p2, p3⟩ := hp l hl
  unfold Rock at p1 p2 p3
  have hn1 : ¬ (p.ncx - 1 + 1 < p.ncx) := by omega
  have gE : ghost p (p.ncx - 1) l .E = ghost p 0 l .E := rfl
  unfold exch behind outside
  simp only [hn1, if_false, Nat.lt_irrefl, gE]
  by_cases hW : p.te (p.ext 0 l) ≠ 30 ∧ p.te (ghost p 0 l .W) = -2
  · have a := p1 hW
    have b := p3 hW
    simp only [hW.1, hW.2, a.1, a.2, b, ne_eq, not_false_eq_true, if_true]
    rw [show faceD p .W = faceD p .E from rfl]
    norm_num
    rw [← mul_add]
    have := hh (T (p.ncx - 1 + l * p.ncx)) (T (l * p.ncx))
    exact mul_nonneg (div_nonneg (faceK_nonneg hph (p.ncx - 1) l .E) (by positivity)) this
  · have hE : ¬ (p.te (p.ext (p.ncx - 1) l) ≠ 30 ∧ p.te (ghost p 0 l .E) = -2) := fun hc => hW (p2 hc)
    have z1 : (if p.te (p.ext 0 l) ≠ 30 then
        match (if p.te (ghost p 0 l .W) = 1 then Behind.wall (p.ve (ghost p 0 l .W))
          else if p.te (ghost p 0 l .W) = -2 then Behind.cell (p.ncx - 1) l else Behind.insulated : Behind K) with
        | .cell k' l' => faceK p 0 l .W / faceD p .W ^ 2 * h (T (k' + l' * p.ncx)) (T (0 + l * p.ncx))
        | _ => 0
      else 0) = 0 := by
      by_cases c1 : p.te (p.ext 0 l) = 30
      · simp [c1]
      · have c2 : p.te (ghost p 0 l .W) ≠ -2 := fun hc => hW ⟨c1, hc⟩
        by_cases c3 : p.te (ghost p 0 l .W) = 1 <;> simp [c1, c2, c3]
    have z2 : (if p.te (p.ext (p.ncx - 1) l) ≠ 30 then
        match (if p.te (ghost p 0 l .E) = 1 then Behind.wall (p.ve (ghost p 0 l .E))
          else if p.te (ghost p 0 l .E) = -2 then Behind.cell 0 l else Behind.insulated : Behind K) with
        | .cell k' l' => faceK p (p.ncx - 1) l .E / faceD p .E ^ 2 *
            h (T (k' + l' * p.ncx)) (T (p.ncx - 1 + l * p.ncx))
        | _ => 0
      else 0) = 0 := by
      by_cases c1 : p.te (p.ext (p.ncx - 1) l) = 30
      · simp [c1]
      · have c2 : p.te (ghost p 0 l .E) ≠ -2 := fun hc => hE ⟨c1, hc⟩
        by_cases c3 : p.te (ghost p 0 l .E) = 1 <;> simp [c1, c2, c3]
    rw [z1, z2, add_zero]

theorem exch_S0 {p : Par K} (h : K → K → K) (T : Nat → K) (k : Nat) : exch h p T k 0 .S = 0 := by
  unfold exch behind outside
  simp only [Nat.lt_irrefl, if_false]
  by_cases h1 : p.te (ghost p k 0 .S) = 1
  · simp [h1]
  · by_cases h2 : p.te (ghost p k 0 .S) = 0
    · simp [h2]
    · simp [h1, h2]

theorem exch_Nend {p : Par K} (h : K → K → K) (T : Nat → K) (k : Nat) {l : Nat} (hl : l + 1 = p.ncz) :
    exch h p T k l .N = 0 := by
  unfold exch behind outside
  simp only [hl, Nat.lt_irrefl, if_false]
  by_cases h1 : p.te (ghost p k l .N) = 1 <;> simp [h1]

theorem sum_pairs (n : Nat) (a b : Nat → K) :
    ∑ k ∈ range (n + 1), (a k + b k) = ∑ k ∈ range n, (b k + a (k + 1)) + (a 0 + b n) := by
  rw [Finset.sum_add_distrib, Finset.sum_add_distrib, Finset.sum_range_succ' a, Finset.sum_range_succ b]
  ring

/-- Total exchange over all faces. -/
theorem exch_total {p : Par K} (hph : Physical p) (hp : PeriodicOK p) (h : K → K → K)
    (hh : ∀ a b, 0 ≤ h a b + h b a) (T : Nat → K) :
    0 ≤ ∑ l ∈ range p.ncz, ∑ k ∈ range p.ncx,
      (exch h p T k l .W + exch h p T k l .E + exch h p T k l .S + exch h p T k l .N) := by
  have e : ∑ l ∈ range p.ncz, ∑ k ∈ range p.ncx,
      (exch h p T k l .W + exch h p T k l .E + exch h p T k l .S + exch h p T k l .N) =
      ∑ l ∈ range p.ncz, ∑ k ∈ range p.ncx, (exch h p T k l .W + exch h p T k l .E) +
      ∑ k ∈ range p.ncx, ∑ l ∈ range p.ncz, (exch h p T k l .S + exch h p T k l .N) := by
    rw [Finset.sum_comm (s := range p.ncx), ← Finset.sum_add_distrib]
    refine Finset.sum_congr rfl fun l _ => ?_
    rw [← Finset.sum_add_distrib]
    refine Finset.sum_congr rfl fun k _ => ?_
    ring
  rw [e]
  refine add_nonneg (Finset.sum_nonneg fun l hl => ?_) (Finset.sum_nonneg fun k hk => ?_)
  · rw [Finset.mem_range] at hl
    rcases Nat.eq_zero_or_pos p.ncx with h0 | h0
    · rw [h0]; simp
    · obtain ⟨n, hn⟩ := Nat.exists_eq_succ_of_ne_zero (by omega : p.ncx ≠ 0)
      have hn' : p.ncx = n + 1 := hn
      rw [hn', sum_pairs n (fun k => exch h p T k l .W) (fun k => exch h p T k l .E)]
      refine add_nonneg (Finset.sum_nonneg fun k hk => ?_) ?_
      · rw [Finset.mem_range] at hk
        exact exch_WE hph h hh T l (by omega)
      · have := exch_per hph hp h hh T hl h0
        rw [show p.ncx - 1 = n by omega] at this
        exact this
  · rcases Nat.eq_zero_or_pos p.ncz with h0 | h0
    · rw [h0]; simp
    · obtain ⟨n, hn⟩ := Nat.exists_eq_succ_of_ne_zero (by omega : p.ncz ≠ 0)
      have hn' : p.ncz = n + 1 := hn
      rw [hn', sum_pairs n (fun l => exch h p T k l .S) (fun l => exch h p T k l .N)]
      refine add_nonneg (Finset.sum_nonneg fun l hl => ?_) ?_
      · rw [Finset.mem_range] at hl
        exact exch_SN hph h hh T k (by omega)
      · rw [exch_S0, exch_Nend h T k (by omega), add_zero]

theorem exch_neg (h : K → K → K) (p : Par K) (T : Nat → K) (k l : Nat) (f : Face) :
    exch (fun a b => - h a b) p T k l f = - exch h p T k l f := by
  unfold exch
  split_ifs
  · cases behind p k l f <;> simp
  · simp

/-- What comes into a rock cell through a face that is not shared with another cell. -/
def extern (p : Par K) (T : Nat → K) (k l : Nat) (f : Face) : K :=
  match behind p k l f with
  | .cell _ _ => 0
  | _ => inflow p T k l f

theorem inflow_split (p : Par K) (T : Nat → K) {k l : Nat} (hr : Rock p k l) (f : Face) :
    inflow p T k l f = exch (fun a b => a - b) p T k l f + extern p T k l f := by
  unfold extern exch inflow
  unfold Rock at hr
  rw [if_pos hr]
  cases behind p k l f <;> simp
  ring

theorem exch_air (h : K → K → K) (p : Par K) (T : Nat → K) {k l : Nat} (hr : ¬ Rock p k l) (f : Face) :
    exch h p T k l f = 0 := by
  unfold exch
  unfold Rock at hr
  rw [if_neg hr]

instance (p : Par K) (k l : Nat) : Decidable (Rock p k l) := by unfold Rock; infer_instance

/-- C37: what leaves one cell through a shared face enters its neighbour: the rate of change of the total heat content is
what enters through the sides of the box and the free surface, plus the sources. -/
theorem heat_conservation (p : Par K) (hph : Physical p) (ht : TagsAgree p) (hp : PeriodicOK p) (src : Src K)
    (air : K) (T T' : Nat → K) (h : Step p src air T T') :
    ∑ l ∈ range p.ncz, ∑ k ∈ range p.ncx, (if Rock p k l then
        p.cap (k + l * p.ncx) * (T' (k + l * p.ncx) - T (k + l * p.ncx)) / p.dt else 0) =
    ∑ l ∈ range p.ncz, ∑ k ∈ range p.ncx, (if Rock p k l then
        extern p T' k l .W + extern p T' k l .E + extern p T' k l .S + extern p T' k l .N +
          src.at T (k + l * p.ncx) else 0) := by
  have hz : ∑ l ∈ range p.ncz, ∑ k ∈ range p.ncx,
      (exch (fun a b => a - b) p T' k l .W + exch (fun a b => a - b) p T' k l .E +
        exch (fun a b => a - b) p T' k l .S + exch (fun a b => a - b) p T' k l .N) = 0 := by
    apply le_antisymm
    · have := exch_total hph hp (fun a b : K => -(a - b)) (fun a b => by simp) T'
      simp only [exch_neg (fun a b : K => a - b), ← neg_add] at this
      simpa only [Finset.sum_neg_distrib, Left.nonneg_neg_iff] using this
    · exact exch_total hph hp (fun a b : K => a - b) (fun a b => by simp) T'
  rw [← add_zero (∑ l ∈ range p.ncz, ∑ k ∈ range p.ncx, (if Rock p k l then
        extern p T' k l .W + _ + _ + _ + _ else 0)), ← hz, ← Finset.sum_add_distrib]
  refine Finset.sum_congr rfl fun l hl => ?_
  rw [← Finset.sum_add_distrib]
  refine Finset.sum_congr rfl fun k hk => ?_
  rw [Finset.mem_range] at hl hk
  by_cases hr : Rock p k l
  · rw [if_pos hr, if_pos hr]
    have hb := ((heat_step_balance p ht hp src air T T' h) k hk l hl).1 hr
    unfold Balance at hb
    rw [hb]
    simp only [inflow_split p T' hr]
    ring
  · rw [if_neg hr, if_neg hr]
    simp only [exch_air _ p T' hr, add_zero]

/-- C37: without sources and with insulated or periodic sides and an insulated free surface, the heat content is
conserved by the solve. -/
theorem heat_content_conserved (p : Par K) (hph : Physical p) (ht : TagsAgree p) (hp : PeriodicOK p) (src : Src K)
    (air : K) (T T' : Nat → K) (h : Step p src air T T')
    (hsrc : ∀ c, src.at T c = 0)
    (hins : ∀ k < p.ncx, ∀ l < p.ncz, Rock p k l → ∀ f,
      behind p k l f = .insulated ∨ ∃ k' l', behind p k l f = .cell k' l') :
    ∑ l ∈ range p.ncz, ∑ k ∈ range p.ncx, (if Rock p k l then p.cap (k + l * p.ncx) * T' (k + l * p.ncx) else 0) =
    ∑ l ∈ range p.ncz, ∑ k ∈ range p.ncx, (if Rock p k l then p.cap (k + l * p.ncx) * T (k + l * p.ncx) else 0) := by
  have hc := heat_conservation p hph ht hp src air T T' h
  have hzero : ∑ l ∈ range p.ncz, ∑ k ∈ range p.ncx, (if Rock p k l then
        extern p T' k l .W + extern p T' k l .E + extern p T' k l .S + extern p T' k l .N +
          src.at T (k + l * p.ncx) else 0) = 0 := by
    refine Finset.sum_eq_zero fun l hl => Finset.sum_eq_zero fun k hk => ?_
    rw [Finset.mem_range] at hl hk
    by_cases hr : Rock p k l
    · have hx : ∀ f, extern p T' k l f = 0 := by
        intro f
        unfold extern inflow
        rcases hins k hk l hl hr f with h1 | ⟨k', l', h1⟩ <;> rw [h1]
      rw [if_pos hr, hx, hx, hx, hx, hsrc]; simp
    · rw [if_neg hr]
  rw [hzero] at hc
  have e : ∀ k l, (if Rock p k l then p.cap (k + l * p.ncx) * (T' (k + l * p.ncx) - T (k + l * p.ncx)) / p.dt else 0) =
      ((if Rock p k l then p.cap (k + l * p.ncx) * T' (k + l * p.ncx) else 0) -
        (if Rock p k l then p.cap (k + l * p.ncx) * T (k + l * p.ncx) else 0)) / p.dt := by
    intro k l
    split_ifs
    · ring
    · simp
  simp only [e, ← Finset.sum_div, Finset.sum_sub_distrib] at hc
  rw [div_eq_zero_iff, sub_eq_zero] at hc
  exact hc.resolve_right hph.dt.ne'

/-! ### Positive definiteness, existence and uniqueness -/

/-- The same problem with all prescribed values zero. -/
def zeroVal (p : Par K) : Par K := { p with ve := fun _ => 0 }

theorem sum_eqs (p : Par K) (ht : TagsAgree p) (g : Nat → K) :
    ∑ i ∈ range p.num.inc, g i =
      ∑ l ∈ range p.ncz, ∑ k ∈ range p.ncx, if Rock p k l then g (Nat.count p.isNum (k + l * p.ncx)) else 0 := by
  rw [← Finset.sum_product' (f := fun l k => if Rock p k l then g (Nat.count p.isNum (k + l * p.ncx)) else 0),
    ← Finset.sum_filter]
  symm
  refine Finset.sum_bij (fun a _ => Nat.count p.isNum (a.2 + a.1 * p.ncx)) ?_ ?_ ?_ ?_
  · intro a ha
    simp only [Finset.mem_filter, Finset.mem_product, Finset.mem_range] at ha ⊢
    exact count_lt p ht (cell_lt ha.1.2 ha.1.1) ((active_cell p ha.1.2).2 ha.2)
  · intro a ha b hb hab
    simp only [Finset.mem_filter, Finset.mem_product, Finset.mem_range] at ha hb
    have := count_inj p ht (cell_lt ha.1.2 ha.1.1) (cell_lt hb.1.2 hb.1.1) ((active_cell p ha.1.2).2 ha.2)
      ((active_cell p hb.1.2).2 hb.2) hab
    rw [cell_inj ha.1.2 hb.1.2] at this
    exact Prod.ext this.2 this.1
  · intro i hi
    rw [Finset.mem_range] at hi
    obtain ⟨k, hk, l, hl, hr, he⟩ := eq_cell p ht hi
    exact ⟨(l, k), by simp [hk, hl, hr], he⟩
  · intro a ha
    rfl

theorem ks_nonneg {p : Par K} (hph : Physical p) (k l : Nat) : 0 ≤ p.ks k l := by
  have h : (0 : K) ≤ 1 / 4 * (p.AE k l + p.AW k l + p.AN k l + p.AS k l) := by
    have := hph.kx (k + (l + 1) * (p.ncx + 1) + 1)
    have := hph.kx (k + (l + 1) * (p.ncx + 1))
    have := hph.kz (k + l * (p.ncx + 2) + 1 + (p.ncx + 2))
    have := hph.kz (k + l * (p.ncx + 2) + 1)
    unfold Par.AE Par.AW Par.AN Par.AS
    positivity
  unfold Par.ks
  simp only
  split_ifs with h1
  · exact le_trans h h1.le
  · exact h

/-- Prescribed values replaced by zero. -/
def Behind.zero : Behind K → Behind K
  | .cell a b => .cell a b
  | .wall _ => .wall 0
  | .surface _ => .surface 0
  | .outflow _ => .outflow 0
  | .insulated => .insulated

theorem inside_zero (p : Par K) (k l k' l' : Nat) : inside (zeroVal p) k l k' l' = (inside p k l k' l').zero := by
  have e : inside (zeroVal p) k l k' l' = if p.te (p.ext k' l') ≠ 30 then .cell k' l'
      else if p.te (p.ext k l) = 1 then .surface 0 else .insulated := rfl
  rw [e]
  unfold inside
  by_cases h1 : p.te (p.ext k' l') = 30
  · by_cases h2 : p.te (p.ext k l) = 1 <;> simp [h1, h2, Behind.zero]
  · simp [h1, Behind.zero]

theorem outside_zero (p : Par K) (k l : Nat) (f : Face) : outside (zeroVal p) k l f = (outside p k l f).zero := by
  have e : outside (zeroVal p) k l f =
    if p.te (ghost p k l f) = 1 then .wall 0
    else match f with
    | .W => if p.te (ghost p k l f) = -2 then .cell (p.ncx - 1) l else .insulated
    | .E => if p.te (ghost p k l f) = -2 then .cell 0 l else .insulated
    | .S => if p.te (ghost p k l f) = 0 then .outflow 0 else .insulated
    | .N => .insulated := by cases f <;> rfl
  rw [e]
  unfold outside
  by_cases h1 : p.te (ghost p k l f) = 1
  · simp [h1, Behind.zero]
  · cases f
    · by_cases h2 : p.te (ghost p k l .W) = -2 <;> simp [h1, h2, Behind.zero]
    · by_cases h2 : p.te (ghost p k l .E) = -2 <;> simp [h1, h2, Behind.zero]
    · by_cases h2 : p.te (ghost p k l .S) = 0 <;> simp [h1, h2, Behind.zero]
    · simp [h1, Behind.zero]

theorem behind_zero (p : Par K) (k l : Nat) (f : Face) : behind (zeroVal p) k l f = (behind p k l f).zero := by
  cases f
  · show (if 0 < k then _ else _) = _
    unfold behind
    by_cases h : 0 < k
    · simp only [h, if_true, inside_zero]
    · simp only [h, if_false, outside_zero]
  · show (if k + 1 < p.ncx then _ else _) = _
    unfold behind
    by_cases h : k + 1 < p.ncx
    · simp only [h, if_true, inside_zero]
    · simp only [h, if_false, outside_zero]
  · show (if 0 < l then _ else _) = _
    unfold behind
    by_cases h : 0 < l
    · simp only [h, if_true, inside_zero]
    · simp only [h, if_false, outside_zero]
  · show (if l + 1 < p.ncz then _ else _) = _
    unfold behind
    by_cases h : l + 1 < p.ncz
    · simp only [h, if_true, inside_zero]
    · simp only [h, if_false, outside_zero]

/-- With zero prescribed values, a cell's own temperature times the inflow is at most its exchange with other cells. -/
theorem energy_face {p : Par K} (hph : Physical p) (T : Nat → K) {k l : Nat} (hr : Rock p k l) (f : Face) :
    T (k + l * p.ncx) * inflow (zeroVal p) T k l f ≤ - exch (fun a b => b * (b - a)) p T k l f := by
  unfold exch inflow
  unfold Rock at hr
  rw [behind_zero, if_pos hr]
  have hD := faceD_pos hph f
  have hK := faceK_nonneg hph k l f
  have hs := ks_nonneg hph k l
  have e1 : faceD (zeroVal p) f = faceD p f := by cases f <;> rfl
  have e2 : faceK (zeroVal p) k l f = faceK p k l f := by cases f <;> rfl
  have e3 : (zeroVal p).ks k l = p.ks k l := rfl
  have e4 : (zeroVal p).ncx = p.ncx := rfl
  cases behind p k l f with
  | cell a b =>
    simp only [Behind.zero, e1, e2, e4]
    apply le_of_eq; ring
  | wall _ =>
    simp only [Behind.zero, e1, e2, e4, neg_zero]
    have : T (k + l * p.ncx) * (2 * faceK p k l f * (0 - T (k + l * p.ncx)) / faceD p f ^ 2) =
        - (2 * faceK p k l f * T (k + l * p.ncx) ^ 2 / faceD p f ^ 2) := by ring
    rw [this, neg_nonpos]; positivity
  | surface _ =>
    simp only [Behind.zero, e1, e3, e4, neg_zero]
    have : T (k + l * p.ncx) * (2 * p.ks k l * (0 - T (k + l * p.ncx)) / faceD p f ^ 2) =
        - (2 * p.ks k l * T (k + l * p.ncx) ^ 2 / faceD p f ^ 2) := by ring
    rw [this, neg_nonpos]; positivity
  | outflow _ => simp [Behind.zero]
  | insulated => simp [Behind.zero]

theorem centre_zero (p : Par K) (k l : Nat) : (centre (zeroVal p) k l).1 = (centre p k l).1 ∧
    (centre (zeroVal p) k l).2 = 0 := by
  rw [centre_faces, centre_faces]
  have h1 : ∀ nb a od, (sd (zeroVal p) k l nb a od).1 = (sd p k l nb a od).1 ∧ (sd (zeroVal p) k l nb a od).2 = 0 := by
    intro nb a od
    have e : sd (zeroVal p) k l nb a od = if p.te nb ≠ 30 then (a * od, 0)
      else if p.te (p.ext k l) = 1 then (2 * p.ks k l * od, 2 * p.ks k l * od * 0) else (0, 0) := rfl
    rw [e]
    unfold sd
    by_cases h1 : p.te nb = 30
    · by_cases h2 : p.te (p.ext k l) = 1 <;> simp [h1, h2]
    · simp [h1]
  have h2 : ∀ g a od, (dr (zeroVal p) g a od).1 = (dr p g a od).1 ∧ (dr (zeroVal p) g a od).2 = 0 := by
    intro g a od
    have e : dr (zeroVal p) g a od = if p.te g = 1 then (2 * a * od, 2 * a * od * 0) else (0, 0) := rfl
    rw [e]
    unfold dr
    by_cases h1 : p.te g = 1 <;> simp [h1]
  have h3 : ∀ (c : Prop) [Decidable c] (x y : K × K), x.1 = y.1 ∧ x.2 = 0 →
      (whn c x).1 = (whn c y).1 ∧ (whn c x).2 = 0 := by
    intro c _ x y h
    unfold whn
    split_ifs
    · exact h
    · exact ⟨rfl, rfl⟩
  have hS : (cS (zeroVal p) k l).1 = (cS p k l).1 ∧ (cS (zeroVal p) k l).2 = 0 := by
    unfold cS
    have a := h3 (0 < l) _ _ (h1 (p.ext k l - (p.ncx + 2)) (p.AS k l) p.odz)
    have b := h3 (l = 0) _ _ (h2 (p.ext k l - (p.ncx + 2)) (p.AS k l) p.odz)
    have c := h3 (l = 0 ∧ p.te (p.ext k l - (p.ncx + 2)) = 0) ((0 : K), -1 / p.dx * 0)
      ((0 : K), -1 / p.dx * p.ve (p.ext k l - (p.ncx + 2))) ⟨rfl, by simp⟩
    exact ⟨by simp only [Prod.fst_add]; exact congrArg₂ _ (congrArg₂ _ a.1 b.1) c.1,
      by simp only [Prod.snd_add]; exact (congrArg₂ _ (congrArg₂ _ a.2 b.2) c.2).trans (by simp)⟩
  have hN : (cN (zeroVal p) k l).1 = (cN p k l).1 ∧ (cN (zeroVal p) k l).2 = 0 := by
    unfold cN
    have a := h3 (l + 1 < p.ncz) _ _ (h1 (p.ext k l + (p.ncx + 2)) (p.AN k l) p.odz)
    have b := h3 (l + 1 = p.ncz) _ _ (h2 (p.ext k l + (p.ncx + 2)) (p.AN k l) p.odz)
    exact ⟨by simp only [Prod.fst_add]; exact congrArg₂ _ a.1 b.1,
      by simp only [Prod.snd_add]; exact (congrArg₂ _ a.2 b.2).trans (by simp)⟩
  have hW : (cW (zeroVal p) k l).1 = (cW p k l).1 ∧ (cW (zeroVal p) k l).2 = 0 := by
    unfold cW
    have a := h3 (0 < k ∨ (k = 0 ∧ p.te (p.ext k l - 1) = -2)) _ _ (h1 (p.ext k l - 1) (p.AW k l) p.odx)
    have b := h3 (k = 0) _ _ (h2 (p.ext k l - 1) (p.AW k l) p.odx)
    exact ⟨by simp only [Prod.fst_add]; exact congrArg₂ _ a.1 b.1,
      by simp only [Prod.snd_add]; exact (congrArg₂ _ a.2 b.2).trans (by simp)⟩
  have hE : (cE (zeroVal p) k l).1 = (cE p k l).1 ∧ (cE (zeroVal p) k l).2 = 0 := by
    unfold cE
    have a := h3 (k + 1 < p.ncx ∨ (k + 1 = p.ncx ∧ p.te (p.ext k l + 1) = -2)) _ _
      (h1 (p.ext k l + 1) (p.AE k l) p.odx)
    have b := h3 (k + 1 = p.ncx) _ _ (h2 (p.ext k l + 1) (p.AE k l) p.odx)
    exact ⟨by simp only [Prod.fst_add]; exact congrArg₂ _ a.1 b.1,
      by simp only [Prod.snd_add]; exact (congrArg₂ _ a.2 b.2).trans (by simp)⟩
  constructor
  · simp only [Prod.fst_add, hS.1, hN.1, hW.1, hE.1]; rfl
  · simp only [Prod.snd_add, hS.2, hN.2, hW.2, hE.2]; simp

theorem row_zeroVal (p : Par K) (k l : Nat) : row (zeroVal p) k l = row p k l := by
  unfold row
  rw [(centre_zero p k l).1]
  rfl

/-- Row of the matrix as capacity term minus inflow with zero prescribed values. -/
theorem row_energy (p : Par K) (T : Nat → K) {k l : Nat} (hk : k < p.ncx) (hl : l < p.ncz) :
    ((row p k l).map fun e => e.2 * T e.1).sum = p.cap (p.cell k l) / p.dt * T (p.cell k l) -
      (inflow (zeroVal p) T k l .W + inflow (zeroVal p) T k l .E + inflow (zeroVal p) T k l .S +
        inflow (zeroVal p) T k l .N) := by
  have h1 : Balance (zeroVal p) (fun c => p.cap (p.cell k l) / p.dt * T (p.cell k l) -
      (inflow (zeroVal p) T k l .W + inflow (zeroVal p) T k l .E + inflow (zeroVal p) T k l .S +
        inflow (zeroVal p) T k l .N)) (fun _ => 0) T k l := by
    unfold Balance
    simp only [zeroVal, Par.cell]
    ring
  rw [balance_iff (zeroVal p) _ _ _ hk hl, row_zeroVal, (centre_zero p k l).2] at h1
  rw [h1]; ring

/-- C35: the stored matrix is positive definite: `x·Ax ≥ Σ (capacity/dt) x²`. -/
theorem heat_matrix_posdef (p : Par K) (hph : Physical p) (ht : TagsAgree p) (hp : PeriodicOK p)
    (junk : ThBuf K) (x : Nat → K) :
    ∑ l ∈ range p.ncz, ∑ k ∈ range p.ncx, (if Rock p k l then
        p.cap (k + l * p.ncx) / p.dt * x (Nat.count p.isNum (k + l * p.ncx)) ^ 2 else 0) ≤
    ∑ i ∈ range p.num.inc, x i * ∑ j ∈ range p.num.inc, entry (matrix p junk) i j * x j := by
  rw [sum_eqs p ht]
  let T : Nat → K := fun c => x (p.num.eqn c).toNat
  have hex := exch_total hph hp (fun a b => b * (b - a)) (fun a b => by
    have : b * (b - a) + a * (a - b) = (a - b) ^ 2 := by ring
    rw [this]; positivity) T
  refine le_trans (le_add_of_nonneg_right hex) ?_
  rw [← Finset.sum_add_distrib]
  refine Finset.sum_le_sum fun l hl => ?_
  rw [← Finset.sum_add_distrib]
  refine Finset.sum_le_sum fun k hk => ?_
  rw [Finset.mem_range] at hl hk
  by_cases hr : Rock p k l
  · rw [if_pos hr, if_pos hr, matrix_row p ht hp junk x hk hl hr, row_energy p T hk hl]
    have hT : T (k + l * p.ncx) = x (Nat.count p.isNum (k + l * p.ncx)) := by
      simp only [T]
      rw [eqn_toNat p ht (cell_lt hk hl) ((active_cell p hk).2 hr)]
    have hc : p.cell k l = k + l * p.ncx := rfl
    rw [hc, ← hT]
    have a := energy_face hph T hr .W
    have b := energy_face hph T hr .E
    have c := energy_face hph T hr .S
    have d := energy_face hph T hr .N
    nlinarith
  · rw [if_neg hr, if_neg hr]
    simp only [exch_air _ p T hr, add_zero, le_refl]

/-- C35: the homogeneous system has only the zero solution. -/
theorem heat_matrix_kernel (p : Par K) (hph : Physical p) (ht : TagsAgree p) (hp : PeriodicOK p)
    (junk : ThBuf K) (x : Nat → K)
    (hx : ∀ i < p.num.inc, ∑ j ∈ range p.num.inc, entry (matrix p junk) i j * x j = 0) :
    ∀ i < p.num.inc, x i = 0 := by
  have h := heat_matrix_posdef p hph ht hp junk x
  have hz : ∑ i ∈ range p.num.inc, x i * ∑ j ∈ range p.num.inc, entry (matrix p junk) i j * x j = 0 :=
    Finset.sum_eq_zero fun i hi => by rw [hx i (Finset.mem_range.1 hi), mul_zero]
  rw [hz] at h
  have nn : ∀ l k, (0 : K) ≤ (if Rock p k l then
        p.cap (k + l * p.ncx) / p.dt * x (Nat.count p.isNum (k + l * p.ncx)) ^ 2 else 0) := by
    intro l k
    split_ifs
    · exact mul_nonneg (div_nonneg (hph.cap _).le hph.dt.le) (by positivity)
    · exact le_refl _
  have h0 := le_antisymm h (Finset.sum_nonneg fun l _ => Finset.sum_nonneg fun k _ => nn l k)
  intro i hi
  obtain ⟨k, hk, l, hl, hr, rfl⟩ := eq_cell p ht hi
  have h1 := (Finset.sum_eq_zero_iff_of_nonneg fun l _ => Finset.sum_nonneg fun k _ => nn l k).1 h0 l
    (Finset.mem_range.2 hl)
  have h2 := (Finset.sum_eq_zero_iff_of_nonneg fun k _ => nn l k).1 h1 k (Finset.mem_range.2 hk)
  rw [if_pos hr] at h2
  have h3 : p.cap (k + l * p.ncx) / p.dt ≠ 0 := (div_pos (hph.cap _) hph.dt).ne'
  exact pow_eq_zero_iff (two_ne_zero) |>.1 ((mul_eq_zero.1 h2).resolve_left h3)

/-- C35: for every right-hand side the system has exactly one solution. -/
theorem heat_solution_exists_unique (p : Par K) (hph : Physical p) (ht : TagsAgree p) (hp : PeriodicOK p)
    (junk : ThBuf K) (r : Nat → K) :
    ∃ x, CholSolves p.num.inc (matrix p junk) r x ∧
      ∀ y, CholSolves p.num.inc (matrix p junk) r y → ∀ i < p.num.inc, y i = x i := by
  have uniq : ∀ x y, CholSolves p.num.inc (matrix p junk) r x → CholSolves p.num.inc (matrix p junk) r y →
      ∀ i < p.num.inc, y i = x i := by
    intro x y hx hy i hi
    rw [chol_full p ht hp] at hx hy
    have := heat_matrix_kernel p hph ht hp junk (fun i => y i - x i) (fun i hi => by
      simp only [mul_sub, Finset.sum_sub_distrib]
      rw [hx i hi, hy i hi, sub_self]) i hi
    exact sub_eq_zero.1 this
  let n := p.num.inc
  let M : Matrix (Fin n) (Fin n) K := fun i j => entry (matrix p junk) i j
  have hinj : Function.Injective (Matrix.mulVecLin M) := by
    rw [← LinearMap.ker_eq_bot, LinearMap.ker_eq_bot']
    intro v hv
    let x : Nat → K := fun i => if h : i < n then v ⟨i, h⟩ else 0
    have hx := heat_matrix_kernel p hph ht hp junk x (by
      intro i hi
      have h1 := congrFun hv ⟨i, hi⟩
      simp only [Matrix.mulVecLin_apply, Matrix.mulVec, dotProduct, Pi.zero_apply] at h1
      rw [← h1, Finset.sum_range]
      refine Finset.sum_congr rfl fun j _ => ?_
      simp only [x, M, n, j.2, dite_true])
    funext i
    have := hx i i.2
    simp only [x, n, i.2, dite_true] at this
    exact this
  have hsurj := (LinearMap.injective_iff_surjective (f := Matrix.mulVecLin M)).1 hinj
  obtain ⟨v, hv⟩ := hsurj fun i => r i
  let x : Nat → K := fun i => if h : i < n then v ⟨i, h⟩ else 0
  have hx : CholSolves p.num.inc (matrix p junk) r x := by
    rw [chol_full p ht hp]
    intro i hi
    have h1 := congrFun hv ⟨i, hi⟩
    simp only [Matrix.mulVecLin_apply, Matrix.mulVec, dotProduct] at h1
    rw [← h1, Finset.sum_range]
    refine Finset.sum_congr rfl fun j _ => ?_
    simp only [x, M, n, j.2, dite_true]
  exact ⟨x, hx, fun y hy => uniq x y hx hy⟩

/-! ### Dominance -/

theorem odx_nonneg {p : Par K} (hph : Physical p) : 0 ≤ p.odx := by
  unfold Par.odx; have := hph.dx; positivity
theorem odz_nonneg {p : Par K} (hph : Physical p) : 0 ≤ p.odz := by
  unfold Par.odz; have := hph.dz; positivity

/-- C35: off-diagonal coefficients are not positive. -/
theorem heat_matrix_offdiag (p : Par K) (hph : Physical p) (ht : TagsAgree p) (hp : PeriodicOK p)
    (junk : ThBuf K) : ∀ i < p.num.inc, ∀ j < p.num.inc, i ≠ j → entry (matrix p junk) i j ≤ 0 := by
  intro i hi j hj hij
  obtain ⟨k, hk, l, hl, hr, rfl⟩ := eq_cell p ht hi
  obtain ⟨k', hk', l', hl', hr', rfl⟩ := eq_cell p ht hj
  rw [entry_coef p ht hp junk hk hl hk' hl' hr hr', coef_eq]
  have hne : p.cell k l ≠ k' + l' * p.ncx := by
    intro h
    apply hij
    show Nat.count p.isNum (p.cell k l) = _
    rw [h]
  rw [if_neg hne, mul_zero, zero_add]
  have term : ∀ (c d : Prop) [Decidable c] [Decidable d] (a o : K), 0 ≤ a → 0 ≤ o →
      (if c then -1 * a * o * (if d then 1 else 0) else 0) ≤ 0 := by
    intro c d _ _ a o ha ho
    have := mul_nonneg ha ho
    split_ifs <;> simp <;> linarith
  have tx := odx_nonneg hph
  have tz := odz_nonneg hph
  have hW : oW p (fun c => if c = k' + l' * p.ncx then 1 else 0) k l ≤ 0 := by
    unfold oW
    exact add_nonpos (term _ _ _ _ (hph.kx _) tx) (term _ _ _ _ (hph.kx _) tx)
  have hE : oE p (fun c => if c = k' + l' * p.ncx then 1 else 0) k l ≤ 0 := by
    unfold oE
    exact add_nonpos (term _ _ _ _ (hph.kx _) tx) (term _ _ _ _ (hph.kx _) tx)
  have hS : oS p (fun c => if c = k' + l' * p.ncx then 1 else 0) k l ≤ 0 := by
    unfold oS; exact term _ _ _ _ (hph.kz _) tz
  have hN : oN p (fun c => if c = k' + l' * p.ncx then 1 else 0) k l ≤ 0 := by
    unfold oN; exact term _ _ _ _ (hph.kz _) tz
  linarith

/-- C35: strict diagonal dominance by at least capacity over time step. -/
theorem heat_matrix_dominant_partial (p : Par K) (hph : Physical p) (ht : TagsAgree p) (hp : PeriodicOK p)
    (junk : ThBuf K) : ∀ i < p.num.inc,
    ∑ j ∈ (range p.num.inc).erase i, |entry (matrix p junk) i j| < entry (matrix p junk) i i := by
  intro i hi
  have habs : ∑ j ∈ (range p.num.inc).erase i, |entry (matrix p junk) i j| =
      - ∑ j ∈ (range p.num.inc).erase i, entry (matrix p junk) i j := by
    rw [← Finset.sum_neg_distrib]
    refine Finset.sum_congr rfl fun j hj => ?_
    rw [Finset.mem_erase, Finset.mem_range] at hj
    exact abs_of_nonpos (heat_matrix_offdiag p hph ht hp junk i hi j hj.2 (Ne.symm hj.1))
  have hsum : 0 < ∑ j ∈ range p.num.inc, entry (matrix p junk) i j := by
    obtain ⟨k, hk, l, hl, hr, rfl⟩ := eq_cell p ht hi
    have h1 := matrix_row p ht hp junk (fun _ => 1) hk hl hr
    simp only [mul_one] at h1
    rw [h1]
    have h2 := row_energy p (fun _ => 1) hk hl
    simp only [mul_one] at h2
    rw [h2]
    have hf : ∀ f, inflow (zeroVal p) (fun _ => (1 : K)) k l f ≤ 0 := by
      intro f
      have h3 := energy_face hph (fun _ => (1 : K)) hr f
      have h4 : exch (fun a b : K => b * (b - a)) p (fun _ => (1 : K)) k l f = 0 := by
        unfold exch
        split_ifs
        · cases behind p k l f <;> simp
        · rfl
      rw [h4] at h3
      simpa using h3
    have := hf .W
    have := hf .E
    have := hf .S
    have := hf .N
    have := div_pos (hph.cap (p.cell k l)) hph.dt
    linarith
  rw [habs]
  have := Finset.add_sum_erase (range p.num.inc) (fun j => entry (matrix p junk) i j) (Finset.mem_range.2 hi)
  linarith

/-! ### Bounds -/

/-- Prescribed data not above `M`: walls and free surface at most `M`, prescribed flow outwards. -/
def DataLE (p : Par K) (M : K) : Prop := ∀ k < p.ncx, ∀ l < p.ncz, Rock p k l → ∀ f,
  match behind p k l f with
  | .wall Tb => Tb ≤ M
  | .surface Ts => Ts ≤ M
  | .outflow q => 0 ≤ q
  | _ => True

/-- Prescribed data not below `m`: walls and free surface at least `m`, prescribed flow inwards. -/
def DataGE (p : Par K) (m : K) : Prop := ∀ k < p.ncx, ∀ l < p.ncz, Rock p k l → ∀ f,
  match behind p k l f with
  | .wall Tb => m ≤ Tb
  | .surface Ts => m ≤ Ts
  | .outflow q => q ≤ 0
  | _ => True

/-- A cell behind a face is a rock cell of the grid. -/
theorem behind_rock (p : Par K) (hp : PeriodicOK p) {k l : Nat} (hk : k < p.ncx) (hl : l < p.ncz)
    (hr : Rock p k l) (f : Face) (k' l' : Nat) (h : behind p k l f = .cell k' l') :
    k' < p.ncx ∧ l' < p.ncz ∧ Rock p k' l' := by
  obtain ⟨p1, p2, -⟩ := hp l hl
  cases f
  · simp only [behind] at h
    split_ifs at h with h1
    · unfold inside at h
      split_ifs at h with h2 h3
      cases h
      exact ⟨by omega, hl, h2⟩
    · obtain rfl : k = 0 := by omega
      unfold outside at h
      simp only at h
      split_ifs at h with h2 h3
      cases h
      exact ⟨by omega, hl, (p1 ⟨hr, h3⟩).1⟩
  · simp only [behind] at h
    split_ifs at h with h1
    · unfold inside at h
      split_ifs at h with h2 h3
      cases h
      exact ⟨by omega, hl, h2⟩
    · have ek : k = p.ncx - 1 := by omega
      unfold outside at h
      simp only at h
      split_ifs at h with h2 h3
      cases h
      exact ⟨by omega, hl, (p2 ⟨ek ▸ hr, h3⟩).1⟩
  · simp only [behind] at h
    split_ifs at h with h1
    · unfold inside at h
      split_ifs at h with h2 h3
      cases h
      exact ⟨hk, by omega, h2⟩
    · unfold outside at h
      simp only at h
      split_ifs at h
  · simp only [behind] at h
    split_ifs at h with h1
    · unfold inside at h
      split_ifs at h with h2 h3
      cases h
      exact ⟨hk, by omega, h2⟩
    · unfold outside at h
      simp only at h
      split_ifs at h

/-- C36: a solution of the balances does not exceed the largest of the old temperatures and the prescribed ones. -/
theorem heat_upper (p : Par K) (hph : Physical p) (hp : PeriodicOK p) (q T0 T : Nat → K)
    (hb : ∀ k < p.ncx, ∀ l < p.ncz, Rock p k l → Balance p q T0 T k l) (M : K)
    (h0 : ∀ k < p.ncx, ∀ l < p.ncz, Rock p k l → T0 (k + l * p.ncx) ≤ M) (hd : DataLE p M)
    (hq : ∀ k < p.ncx, ∀ l < p.ncz, Rock p k l → q (k + l * p.ncx) ≤ 0) :
    ∀ k < p.ncx, ∀ l < p.ncz, Rock p k l → T (k + l * p.ncx) ≤ M := by
  intro k hk l hl hr
  let s : Finset (Nat × Nat) := ((range p.ncx) ×ˢ (range p.ncz)).filter fun a => Rock p a.1 a.2
  have hs : ∀ a, a ∈ s ↔ a.1 < p.ncx ∧ a.2 < p.ncz ∧ Rock p a.1 a.2 := by
    intro a; simp [s, and_assoc]
  obtain ⟨a, ha, hmax⟩ := Finset.exists_max_image s (fun a => T (a.1 + a.2 * p.ncx))
    ⟨(k, l), (hs _).2 ⟨hk, hl, hr⟩⟩
  refine le_trans (hmax (k, l) ((hs _).2 ⟨hk, hl, hr⟩)) ?_
  obtain ⟨ak, al, ar⟩ := (hs a).1 ha
  by_contra hcon
  push Not at hcon
  have hbal := hb a.1 ak a.2 al ar
  unfold Balance at hbal
  have hin : ∀ f, inflow p T a.1 a.2 f ≤ 0 := by
    intro f
    have hD := faceD_pos hph f
    have hK := faceK_nonneg hph a.1 a.2 f
    have hks := ks_nonneg hph a.1 a.2
    have hdat := hd a.1 ak a.2 al ar f
    have hbr := behind_rock p hp ak al ar f
    unfold inflow
    cases hbe : behind p a.1 a.2 f with
    | cell k' l' =>
      obtain ⟨b1, b2, b3⟩ := hbr k' l' hbe
      have := hmax (k', l') ((hs _).2 ⟨b1, b2, b3⟩)
      simp only at this ⊢
      refine div_nonpos_of_nonpos_of_nonneg (mul_nonpos_of_nonneg_of_nonpos hK (by linarith)) (by positivity)
    | wall Tb =>
      rw [hbe] at hdat
      simp only at hdat ⊢
      exact div_nonpos_of_nonpos_of_nonneg (mul_nonpos_of_nonneg_of_nonpos (by positivity) (by linarith))
        (by positivity)
    | surface Ts =>
      rw [hbe] at hdat
      simp only at hdat ⊢
      exact div_nonpos_of_nonpos_of_nonneg (mul_nonpos_of_nonneg_of_nonpos (by positivity) (by linarith))
        (by positivity)
    | outflow w =>
      rw [hbe] at hdat
      simp only at hdat ⊢
      exact div_nonpos_of_nonpos_of_nonneg (by linarith) hph.dx.le
    | insulated => simp
  have h1 := hin .W
  have h2 := hin .E
  have h3 := hin .S
  have h4 := hin .N
  have h5 := hq a.1 ak a.2 al ar
  have h6 := h0 a.1 ak a.2 al ar
  have h7 : 0 < p.cap (a.1 + a.2 * p.ncx) * (T (a.1 + a.2 * p.ncx) - T0 (a.1 + a.2 * p.ncx)) / p.dt :=
    div_pos (mul_pos (hph.cap _) (by linarith)) hph.dt
  linarith

/-- C36: nor does it fall below the smallest of them. -/
theorem heat_lower (p : Par K) (hph : Physical p) (hp : PeriodicOK p) (q T0 T : Nat → K)
    (hb : ∀ k < p.ncx, ∀ l < p.ncz, Rock p k l → Balance p q T0 T k l) (m : K)
    (h0 : ∀ k < p.ncx, ∀ l < p.ncz, Rock p k l → m ≤ T0 (k + l * p.ncx)) (hd : DataGE p m)
    (hq : ∀ k < p.ncx, ∀ l < p.ncz, Rock p k l → 0 ≤ q (k + l * p.ncx)) :
    ∀ k < p.ncx, ∀ l < p.ncz, Rock p k l → m ≤ T (k + l * p.ncx) := by
  intro k hk l hl hr
  let s : Finset (Nat × Nat) := ((range p.ncx) ×ˢ (range p.ncz)).filter fun a => Rock p a.1 a.2
  have hs : ∀ a, a ∈ s ↔ a.1 < p.ncx ∧ a.2 < p.ncz ∧ Rock p a.1 a.2 := by
    intro a; simp [s, and_assoc]
  obtain ⟨a, ha, hmin⟩ := Finset.exists_min_image s (fun a => T (a.1 + a.2 * p.ncx))
    ⟨(k, l), (hs _).2 ⟨hk, hl, hr⟩⟩
  refine le_trans ?_ (hmin (k, l) ((hs _).2 ⟨hk, hl, hr⟩))
  obtain ⟨ak, al, ar⟩ := (hs a).1 ha
  by_contra hcon
  push Not at hcon
  have hbal := hb a.1 ak a.2 al ar
  unfold Balance at hbal
  have hin : ∀ f, 0 ≤ inflow p T a.1 a.2 f := by
    intro f
    have hD := faceD_pos hph f
    have hK := faceK_nonneg hph a.1 a.2 f
    have hks := ks_nonneg hph a.1 a.2
    have hdat := hd a.1 ak a.2 al ar f
    have hbr := behind_rock p hp ak al ar f
    unfold inflow
    cases hbe : behind p a.1 a.2 f with
    | cell k' l' =>
      obtain ⟨b1, b2, b3⟩ := hbr k' l' hbe
      have := hmin (k', l') ((hs _).2 ⟨b1, b2, b3⟩)
      simp only at this ⊢
      exact div_nonneg (mul_nonneg hK (by linarith)) (by positivity)
    | wall Tb =>
      rw [hbe] at hdat
      simp only at hdat ⊢
      exact div_nonneg (mul_nonneg (by positivity) (by linarith)) (by positivity)
    | surface Ts =>
      rw [hbe] at hdat
      simp only at hdat ⊢
      exact div_nonneg (mul_nonneg (by positivity) (by linarith)) (by positivity)
    | outflow w =>
      rw [hbe] at hdat
      simp only at hdat ⊢
      exact div_nonneg (by linarith) hph.dx.le
    | insulated => simp
  have h1 := hin .W
  have h2 := hin .E
  have h3 := hin .S
  have h4 := hin .N
  have h5 := hq a.1 ak a.2 al ar
  have h6 := h0 a.1 ak a.2 al ar
  have h7 : p.cap (a.1 + a.2 * p.ncx) * (T (a.1 + a.2 * p.ncx) - T0 (a.1 + a.2 * p.ncx)) / p.dt < 0 :=
    div_neg_of_neg_of_pos (mul_neg_of_pos_of_neg (hph.cap _) (by linarith)) hph.dt
  linarith

/-- Several solves in a row (`for (it = 0; it < nit; it++)`, ThermalRoutines.c:125): each starts from the previous result. -/
def Steps (p : Par K) (src : Src K) (air : K) : Nat → (Nat → K) → (Nat → K) → Prop
  | 0, T, T' => T' = T
  | n + 1, T, T' => ∃ S, Steps p src air n T S ∧ Step p src air S T'

/-- C36: after any number of source-free solves rock temperatures stay between bounds of the initial field and of the
prescribed values. -/
theorem heat_steps_bounded_partial (p : Par K) (hph : Physical p) (ht : TagsAgree p) (hp : PeriodicOK p) (src : Src K)
    (air : K) (hsrc : ∀ T c, src.at T c = 0) (m M : K) (hge : DataGE p m) (hle : DataLE p M) (n : Nat)
    (T T' : Nat → K) (h : Steps p src air n T T')
    (h0 : ∀ k < p.ncx, ∀ l < p.ncz, Rock p k l → m ≤ T (k + l * p.ncx) ∧ T (k + l * p.ncx) ≤ M) :
    ∀ k < p.ncx, ∀ l < p.ncz, Rock p k l → m ≤ T' (k + l * p.ncx) ∧ T' (k + l * p.ncx) ≤ M := by
  induction n generalizing T' with
  | zero => rw [show T' = T from h]; exact h0
  | succ n ih =>
    obtain ⟨S, hS, hstep⟩ := h
    have hS' := ih S hS
    have hb := fun k hk l hl hr => (heat_step_balance p ht hp src air S T' hstep k hk l hl).1 hr
    intro k hk l hl hr
    exact ⟨heat_lower p hph hp _ S T' hb m (fun k hk l hl hr => (hS' k hk l hl hr).1) hge
        (fun k _ l _ _ => (hsrc S _).ge) k hk l hl hr,
      heat_upper p hph hp _ S T' hb M (fun k hk l hl hr => (hS' k hk l hl hr).2) hle
        (fun k _ l _ _ => (hsrc S _).le) k hk l hl hr⟩

/-- C36: a uniform field equal to the prescribed values is left unchanged by any number of source-free solves. -/
theorem heat_uniform_steady_partial (p : Par K) (hph : Physical p) (ht : TagsAgree p) (hp : PeriodicOK p) (src : Src K)
    (air : K) (hsrc : ∀ T c, src.at T c = 0) (m : K) (hge : DataGE p m) (hle : DataLE p m) (n : Nat)
    (T T' : Nat → K) (h : Steps p src air n T T')
    (h0 : ∀ k < p.ncx, ∀ l < p.ncz, Rock p k l → T (k + l * p.ncx) = m) :
    ∀ k < p.ncx, ∀ l < p.ncz, Rock p k l → T' (k + l * p.ncx) = m := by
  intro k hk l hl hr
  have := heat_steps_bounded_partial p hph ht hp src air hsrc m m hge hle n T T' h
    (fun k hk l hl hr => ⟨(h0 k hk l hl hr).ge, (h0 k hk l hl hr).le⟩) k hk l hl hr
  exact le_antisymm this.2 this.1

/-- C36: starting from non-negative temperatures, with non-negative sources and prescribed temperatures and no
prescribed cooling, the solve does not end with the "negative temperature" exit. -/
theorem heat_no_negative_exit (p : Par K) (hph : Physical p) (ht : TagsAgree p) (hp : PeriodicOK p) (src : Src K)
    (air : K) (junk : ThBuf K) (T r x : Nat → K)
    (hr : ∀ c < p.ncx * p.ncz, p.active c = true → r (p.num.eqn c).toNat = rhs p src T c)
    (hx : CholSolves p.num.inc (matrix p junk) r x) (hge : DataGE p 0)
    (h0 : ∀ k < p.ncx, ∀ l < p.ncz, Rock p k l → 0 ≤ T (k + l * p.ncx))
    (hsrc : ∀ c < p.ncx * p.ncz, 0 ≤ src.at T c) : ∃ T', extract p x air T = some T' := by
  have hb := (heat_balance_iff p ht hp junk src T r x hr).1 hx
  have hl := heat_lower p hph hp _ T _ hb 0 h0 hge (fun k hk l hl _ => hsrc _ (cell_lt hk hl))
  unfold extract
  rw [if_pos]
  · exact ⟨_, rfl⟩
  · rw [List.all_eq_true]
    intro c hc
    rw [List.mem_range] at hc
    obtain ⟨h1, h2, h3⟩ := split_cell p hc
    by_cases ha : p.active c = true
    · have := hl _ h1 _ h2 (by rw [h3] at ha; exact (active_cell p h1).1 ha)
      rw [← h3] at this
      simp [this]
    · simp [ha]

/-- The routine can always proceed: a right-hand side vector exists for every field, so `Step` is not empty as soon as
the solution is not negative. -/
theorem heat_step_exists (p : Par K) (hph : Physical p) (ht : TagsAgree p) (hp : PeriodicOK p) (src : Src K)
    (air : K) (T : Nat → K) (hge : DataGE p 0)
    (h0 : ∀ k < p.ncx, ∀ l < p.ncz, Rock p k l → 0 ≤ T (k + l * p.ncx))
    (hsrc : ∀ c < p.ncx * p.ncz, 0 ≤ src.at T c) : ∃ T', Step p src air T T' := by
  let r : Nat → K := fun e => ∑ c ∈ range (p.ncx * p.ncz),
    if p.active c = true ∧ (p.num.eqn c).toNat = e then rhs p src T c else 0
  have hr : ∀ c < p.ncx * p.ncz, p.active c = true → r (p.num.eqn c).toNat = rhs p src T c := by
    intro c hc ha
    simp only [r]
    rw [Finset.sum_eq_single c]
    · rw [if_pos ⟨ha, rfl⟩]
    · intro c' hc' hne
      rw [Finset.mem_range] at hc'
      apply if_neg
      rintro ⟨ha', he⟩
      rw [eqn_toNat p ht hc' ha', eqn_toNat p ht hc ha] at he
      exact hne (count_inj p ht hc' hc ha' ha he)
    · intro h; exact absurd (Finset.mem_range.2 hc) h
  let junk : ThBuf K := ⟨fun _ => 0, fun _ => 0, fun _ => 0, 0⟩
  obtain ⟨x, hx, -⟩ := heat_solution_exists_unique p hph ht hp junk r
  obtain ⟨T', hT'⟩ := heat_no_negative_exit p hph ht hp src air junk T r x hr hx hge h0 hsrc
  exact ⟨T', junk, r, x, hr, hx, hT'⟩

end Verif.Heat
