import Verif.Spec.Dissipation
import Verif.Props.Symmetry
import Mathlib.Algebra.Order.BigOperators.Ring.Finset
import Mathlib.Algebra.BigOperators.Field

/- C145: the assembled velocity block does no negative work. -/
set_option linter.unusedSectionVars false
namespace Verif
open Finset

variable {K : Type*} [Field K] [LinearOrder K]

/-- Field on all nodes: the given values on the unknowns, zero elsewhere. -/
def onUnknowns (m : SMesh K) (x : SNode → K) (n : SNode) : K := if n ∈ velNodes m then x n else 0

theorem coeff_cons (e : SNode × K) (st : List (SNode × K)) (n : SNode) :
    coeff (e :: st) n = (if e.1 = n then e.2 else 0) + coeff st n := by simp [coeff]

theorem applyTo_unknowns (m : SMesh K) (x : SNode → K) (st : List (SNode × K)) :
    applyTo (onUnknowns m x) st = ∑ e ∈ velNodes m, coeff st e * x e := by
  induction st with
  | nil => simp [applyTo, coeff]
  | cons a st ih =>
    have : applyTo (onUnknowns m x) (a :: st) = a.2 * onUnknowns m x a.1 + applyTo (onUnknowns m x) st := by
      simp [applyTo]
    rw [this, ih]
    simp only [coeff_cons, add_mul, Finset.sum_add_distrib, ite_mul, zero_mul]
    congr 1
    rw [Finset.sum_ite_eq]
    unfold onUnknowns
    split <;> simp

theorem mem_u (m : SMesh K) (k l : Nat) (hk : k < m.Nx) :
    SNode.u ((k : Int) + l * m.Nx) ∈ velNodes m ↔
      (0 < k ∧ k + 1 < m.Nx ∧ 0 < l ∧ l < m.Nz) ∧ m.tu ((k : Int) + l * m.Nx) = -1 := by
  unfold velNodes
  simp only [mem_union, mem_image, mem_filter, mem_product, mem_range, Prod.exists, SNode.u.injEq,
    reduceCtorEq, and_false, exists_false, or_false]
  constructor
  · rintro ⟨k', l', ⟨⟨a, b⟩, c, d⟩, e⟩
    obtain ⟨h1, h2⟩ := flat_eq m.Nx k' l' k l 0 0 (by omega) (by omega) (by omega) (by omega)
      (by rw [← e]; ring)
    have h1 : k' = k := by omega
    have h2 : l' = l := by omega
    subst h1 h2; exact ⟨c, d⟩
  · rintro ⟨c, d⟩
    exact ⟨k, l, ⟨⟨hk, by omega⟩, c, d⟩, rfl⟩

theorem mem_v (m : SMesh K) (k l : Nat) (hk : k ≤ m.Nx) :
    SNode.v ((k : Int) + l * (m.Nx + 1)) ∈ velNodes m ↔
      (0 < k ∧ k < m.Nx ∧ 0 < l ∧ l + 1 < m.Nz) ∧ m.tv ((k : Int) + l * (m.Nx + 1)) = -1 := by
  unfold velNodes
  simp only [mem_union, mem_image, mem_filter, mem_product, mem_range, Prod.exists, SNode.v.injEq,
    reduceCtorEq, and_false, exists_false, false_or]
  constructor
  · rintro ⟨k', l', ⟨⟨a, b⟩, c, d⟩, e⟩
    obtain ⟨h1, h2⟩ := flat_eq (m.Nx + 1) k' l' k l 0 0 (by omega) (by omega) (by omega) (by omega)
      (by rw [← e]; ring)
    have h1 : k' = k := by omega
    have h2 : l' = l := by omega
    subst h1 h2; exact ⟨c, d⟩
  · rintro ⟨c, d⟩
    exact ⟨k, l, ⟨⟨by omega, by omega⟩, c, d⟩, rfl⟩

theorem onUnknowns_tag (m : SMesh K) (x : SNode → K) (n : SNode) (h : m.tag n ≠ -1) :
    onUnknowns m x n = 0 := by
  unfold onUnknowns
  rw [if_neg]
  intro hn
  unfold velNodes at hn
  simp only [mem_union, mem_image, mem_filter, Prod.exists] at hn
  rcases hn with ⟨k, l, ⟨_, _, d⟩, rfl⟩ | ⟨k, l, ⟨_, _, d⟩, rfl⟩ <;> exact h d

/-- The work as a sum over grid positions. -/
theorem work_grid (m : SMesh K) (x : SNode → K) :
    let X := onUnknowns m x
    viscousWork m x =
      (∑ k ∈ range m.Nx, ∑ l ∈ range (m.Nz + 1), X (.u ((k : Int) + l * m.Nx)) *
        applyTo X (xStencil m k l)) +
      ∑ k ∈ range (m.Nx + 1), ∑ l ∈ range m.Nz, X (.v ((k : Int) + l * (m.Nx + 1))) *
        applyTo X (zStencil m k l) := by
  intro X
  have e0 : viscousWork m x = ∑ d ∈ velNodes m, X d * applyTo X (velRow m d) := by
    unfold viscousWork
    refine Finset.sum_congr rfl fun d hd => ?_
    rw [applyTo_unknowns, Finset.mul_sum]
    refine Finset.sum_congr rfl fun e _ => ?_
    simp only [X, onUnknowns, if_pos hd]; ring
  rw [e0]
  conv_lhs => unfold velNodes
  rw [Finset.sum_union, Finset.sum_image, Finset.sum_image, Finset.sum_filter, Finset.sum_filter,
    Finset.sum_product, Finset.sum_product]
  · congr 1
    · refine Finset.sum_congr rfl fun k hk => Finset.sum_congr rfl fun l hl => ?_
      have hk' : k < m.Nx := mem_range.1 hk
      by_cases h : (0 < k ∧ k + 1 < m.Nx ∧ 0 < l ∧ l < m.Nz) ∧ m.tu ((k : Int) + l * m.Nx) = -1
      · rw [if_pos h]
        simp only [velRow]
        rw [colOf_mk _ _ _ (by omega) (by omega), rowOf_mk _ _ _ (by omega) (by omega)]
      · rw [if_neg h]
        have : X (.u ((k : Int) + l * m.Nx)) = 0 := by
          simp only [X, onUnknowns]
          rw [if_neg (fun q => h ((mem_u m k l hk').1 q))]
        rw [this, zero_mul]
    · refine Finset.sum_congr rfl fun k hk => Finset.sum_congr rfl fun l hl => ?_
      have hk' : k ≤ m.Nx := by have := mem_range.1 hk; omega
      by_cases h : (0 < k ∧ k < m.Nx ∧ 0 < l ∧ l + 1 < m.Nz) ∧
          m.tv ((k : Int) + l * (m.Nx + 1)) = -1
      · rw [if_pos h]
        simp only [velRow]
        rw [colOf_mk _ _ _ (by omega) (by omega), rowOf_mk _ _ _ (by omega) (by omega)]
      · rw [if_neg h]
        have : X (.v ((k : Int) + l * (m.Nx + 1))) = 0 := by
          simp only [X, onUnknowns]
          rw [if_neg (fun q => h ((mem_v m k l hk').1 q))]
        rw [this, zero_mul]
  · rintro ⟨k, l⟩ h ⟨k', l'⟩ h' e
    simp only [coe_filter, mem_product, mem_range, Set.mem_setOf_eq] at h h'
    simp only [SNode.v.injEq] at e
    obtain ⟨h1, h2⟩ := flat_eq (m.Nx + 1) k l k' l' 0 0 (by omega) (by omega) (by omega) (by omega)
      (by rw [← e]; ring)
    have h1 : k' = k := by omega
    have h2 : l' = l := by omega
    rw [h1, h2]
  · rintro ⟨k, l⟩ h ⟨k', l'⟩ h' e
    simp only [coe_filter, mem_product, mem_range, Set.mem_setOf_eq] at h h'
    simp only [SNode.u.injEq] at e
    obtain ⟨h1, h2⟩ := flat_eq m.Nx k l k' l' 0 0 (by omega) (by omega) (by omega) (by omega)
      (by rw [← e]; ring)
    have h1 : k' = k := by omega
    have h2 : l' = l := by omega
    rw [h1, h2]
  · rw [Finset.disjoint_left]
    intro n h1 h2
    simp only [mem_image, Prod.exists] at h1 h2
    obtain ⟨_, _, _, rfl⟩ := h1
    obtain ⟨_, _, _, h⟩ := h2
    cases h

/-- Summation by parts. -/
theorem by_parts (U T : Int → K) (n : Nat) (h0 : U 0 = 0) :
    ∑ k ∈ range (n + 1), U k * (T k - T ((k : Int) - 1)) =
      U n * T n - ∑ k ∈ range n, T k * (U ((k : Int) + 1) - U k) := by
  induction n with
  | zero => simp [h0]
  | succ n ih =>
    rw [Finset.sum_range_succ, ih, Finset.sum_range_succ _ n]
    push_cast
    rw [show (n : Int) + 1 - 1 = n by ring]
    ring

/-- Vx values with the ghost rows mirrored. -/
def mirroredU (m : SMesh K) (x : SNode → K) (i : Int) : K :=
  let X := onUnknowns m x
  if rowOf m.Nx i = 0 then
    (if m.tu i = 11 then -X (.u (i + m.Nx)) else if m.tu i = 13 then X (.u (i + m.Nx)) else 0)
  else if rowOf m.Nx i = m.Nz then
    (if m.tu i = 11 then -X (.u (i - m.Nx)) else if m.tu i = 13 then X (.u (i - m.Nx)) else 0)
  else X (.u i)

/-- Vz values with the ghost columns mirrored. -/
def mirroredV (m : SMesh K) (x : SNode → K) (i : Int) : K :=
  let X := onUnknowns m x
  if colOf (m.Nx + 1) i = 0 then
    (if m.tv i = 11 then -X (.v (i + 1)) else if m.tv i = 13 then X (.v (i + 1)) else 0)
  else if colOf (m.Nx + 1) i = m.Nx then
    (if m.tv i = 11 then -X (.v (i - 1)) else if m.tv i = 13 then X (.v (i - 1)) else 0)
  else X (.v i)

variable (m : SMesh K) (x : SNode → K)

theorem X_u_out (k l : Nat) (hk : k < m.Nx) (h : ¬ (0 < k ∧ k + 1 < m.Nx ∧ 0 < l ∧ l < m.Nz)) :
    onUnknowns m x (.u ((k : Int) + l * m.Nx)) = 0 := by
  unfold onUnknowns
  rw [if_neg (fun q => h ((mem_u m k l hk).1 q).1)]

theorem X_v_out (k l : Nat) (hk : k ≤ m.Nx) (h : ¬ (0 < k ∧ k < m.Nx ∧ 0 < l ∧ l + 1 < m.Nz)) :
    onUnknowns m x (.v ((k : Int) + l * (m.Nx + 1))) = 0 := by
  unfold onUnknowns
  rw [if_neg (fun q => h ((mem_v m k l hk).1 q).1)]

theorem mirroredU_in (k l : Nat) (hk : k < m.Nx) (h0 : 0 < l) (h1 : l ≠ m.Nz) :
    mirroredU m x ((k : Int) + l * m.Nx) = onUnknowns m x (.u ((k : Int) + l * m.Nx)) := by
  unfold mirroredU
  simp only
  rw [rowOf_mk _ _ _ (by omega) (by omega), if_neg (by omega), if_neg (by omega)]

theorem mirroredV_in (k l : Nat) (hk0 : 0 < k) (hk : k < m.Nx) :
    mirroredV m x ((k : Int) + l * (m.Nx + 1)) = onUnknowns m x (.v ((k : Int) + l * (m.Nx + 1))) := by
  unfold mirroredV
  simp only
  rw [colOf_mk _ _ _ (by omega) (by omega), if_neg (by omega), if_neg (by omega)]

theorem X_p (i : Int) : onUnknowns m x (.p i) = 0 := by
  unfold onUnknowns
  rw [if_neg]
  intro h
  unfold velNodes at h
  simp at h

theorem X_atNode : onUnknowns m x =
    atNode (fun i => onUnknowns m x (.u i)) (fun i => onUnknowns m x (.v i)) (fun _ => 0) := by
  funext n
  cases n with
  | u i => rfl
  | v i => rfl
  | p i => exact X_p m x i

theorem noP_x (u v : Int → K) (k l : Int) :
    applyTo (atNode u v fun _ => 0) (xStencilP m k l) = 0 := by
  simp only [xStencilP, applyTo_append, applyTo_guarded, atNode]
  simp

theorem noP_z (u v : Int → K) (k l : Int) :
    applyTo (atNode u v fun _ => 0) (zStencilP m k l) = 0 := by
  simp only [zStencilP, applyTo_append, applyTo_guarded, atNode]
  simp

theorem mirrored_air : AirZero m (mirroredU m x) (mirroredV m x) (fun _ => 0) where
  u := by
    intro i h
    unfold mirroredU
    have hx := onUnknowns_tag m x (.u i) (by simp only [SMesh.tag, h]; decide)
    simp only [h, hx]
    simp
  v := by
    intro i h
    unfold mirroredV
    have hx := onUnknowns_tag m x (.v i) (by simp only [SMesh.tag, h]; decide)
    simp only [h, hx]
    simp
  p := fun _ _ => rfl

theorem X_air : AirZero m (fun i => onUnknowns m x (.u i)) (fun i => onUnknowns m x (.v i))
    (fun _ => 0) where
  u := fun i h => onUnknowns_tag m x (.u i) (by simp only [SMesh.tag, h]; decide)
  v := fun i h => onUnknowns_tag m x (.v i) (by simp only [SMesh.tag, h]; decide)
  p := fun _ _ => rfl

theorem ghost_u (hb : ClosedBox m) (k l : Nat) (hk0 : 0 < k) (hk : k + 1 < m.Nx) (hl0 : 0 < l)
    (hl : l < m.Nz) :
    Ghost (m.tu ((k : Int) + ((l : Int) - 1) * m.Nx)) (mirroredU m x ((k : Int) + ((l : Int) - 1) * m.Nx))
      (mirroredU m x ((k : Int) + l * m.Nx)) ∧
    Ghost (m.tu ((k : Int) + ((l : Int) + 1) * m.Nx)) (mirroredU m x ((k : Int) + ((l : Int) + 1) * m.Nx))
      (mirroredU m x ((k : Int) + l * m.Nx)) := by
  rw [mirroredU_in m x k l (by omega) hl0 (by omega)]
  constructor
  · by_cases h : l = 1
    · subst h
      have r : rowOf (m.Nx : Int) ((k : Int) + (((1 : Nat) : Int) - 1) * m.Nx) = 0 := by
        rw [rowOf_mk _ _ _ (by omega) (by omega)]; simp
      have e : (k : Int) + (((1 : Nat) : Int) - 1) * m.Nx + m.Nx = (k : Int) + ((1 : Nat) : Int) * m.Nx := by
        push_cast; ring
      constructor <;> intro t <;> unfold mirroredU <;> simp only [r, t, e] <;> simp
    · have := hb.u k (l - 1) hk0 hk (by omega) (by omega)
      rw [show ((l - 1 : Nat) : Int) = (l : Int) - 1 by omega] at this
      exact ⟨fun t => absurd t this.1, fun t => absurd t this.2⟩
  · by_cases h : l + 1 = m.Nz
    · have r : rowOf (m.Nx : Int) ((k : Int) + ((l : Int) + 1) * m.Nx) = m.Nz := by
        rw [rowOf_mk _ _ _ (by omega) (by omega)]; omega
      have e : (k : Int) + ((l : Int) + 1) * m.Nx - m.Nx = (k : Int) + (l : Int) * m.Nx := by ring
      have n0 : (m.Nz : Int) ≠ 0 := by omega
      constructor <;> intro t <;> unfold mirroredU <;> simp only [r, t, e, n0] <;> simp
    · have := hb.u k (l + 1) hk0 hk (by omega) (by omega)
      push_cast at this
      exact ⟨fun t => absurd t this.1, fun t => absurd t this.2⟩

theorem ghost_v (hb : ClosedBox m) (k l : Nat) (hk0 : 0 < k) (hk : k < m.Nx) (hl0 : 0 < l)
    (hl : l + 1 < m.Nz) :
    Ghost (m.tv ((k : Int) - 1 + l * (m.Nx + 1))) (mirroredV m x ((k : Int) - 1 + l * (m.Nx + 1)))
      (mirroredV m x ((k : Int) + l * (m.Nx + 1))) ∧
    Ghost (m.tv ((k : Int) + 1 + l * (m.Nx + 1))) (mirroredV m x ((k : Int) + 1 + l * (m.Nx + 1)))
      (mirroredV m x ((k : Int) + l * (m.Nx + 1))) := by
  rw [mirroredV_in m x k l hk0 hk]
  constructor
  · by_cases h : k = 1
    · subst h
      have r : colOf ((m.Nx : Int) + 1) (((1 : Nat) : Int) - 1 + l * (m.Nx + 1)) = 0 := by
        rw [colOf_mk _ _ _ (by omega) (by omega)]; simp
      have e : ((1 : Nat) : Int) - 1 + l * ((m.Nx : Int) + 1) + 1 = ((1 : Nat) : Int) + l * (m.Nx + 1) := by
        ring
      constructor <;> intro t <;> unfold mirroredV <;> simp only [r, t, e] <;> simp
    · have := hb.v (k - 1) l (by omega) (by omega) hl0 hl
      rw [show ((k - 1 : Nat) : Int) = (k : Int) - 1 by omega] at this
      exact ⟨fun t => absurd t this.1, fun t => absurd t this.2⟩
  · by_cases h : k + 1 = m.Nx
    · have r : colOf ((m.Nx : Int) + 1) ((k : Int) + 1 + l * (m.Nx + 1)) = m.Nx := by
        rw [colOf_mk _ _ _ (by omega) (by omega)]; omega
      have e : (k : Int) + 1 + l * ((m.Nx : Int) + 1) - 1 = (k : Int) + l * (m.Nx + 1) := by ring
      have n0 : (m.Nx : Int) ≠ 0 := by omega
      constructor <;> intro t <;> unfold mirroredV <;> simp only [r, t, e, n0] <;> simp
    · have := hb.v (k + 1) l (by omega) (by omega) hl0 hl
      push_cast at this
      exact ⟨fun t => absurd t this.1, fun t => absurd t this.2⟩

variable [CharZero K]

/-- An x-row applied to the unknowns is minus the divergence of the stresses of the mirrored field. -/
theorem x_row_unknowns (hv : Viscous m) (hb : ClosedBox m) (hdx : m.dx ≠ 0) (hdz : m.dz ≠ 0)
    (k l : Nat) (hk0 : 0 < k) (hk : k + 1 < m.Nx) (hl0 : 0 < l) (hl : l < m.Nz)
    (ht : m.tu ((k : Int) + l * m.Nx) = -1) :
    let u := mirroredU m x
    let v := mirroredV m x
    applyTo (onUnknowns m x) (xStencil m k l) = -(m.dx * m.dz) *
      ((tauxx m u v ((k : Int) + ((l : Int) - 1) * (m.Nx - 1)) -
        tauxx m u v ((k : Int) - 1 + ((l : Int) - 1) * (m.Nx - 1))) / m.dx +
       (tauxz m u v ((k : Int) + l * m.Nx) - tauxz m u v ((k : Int) + ((l : Int) - 1) * m.Nx)) / m.dz -
       xCorr m k l (xCoef (xIn m k l)).uC * onUnknowns m x (.u ((k : Int) + l * m.Nx))) := by
  intro u v
  have g := ghost_u m x hb k l hk0 hk hl0 hl
  have bal := (x_row_stress_balance m k l hdx hdz (by omega) (by omega) ht u v (fun _ => 0)
    ((mirrored_air m x).on _) g.1 g.2 (hv.tags _) (hv.tags _)).1
  have hper : (m.tu ((k : Int) + l * (m.Nx : Int)) == -2) = false := by simp [ht]
  have eC := mirroredU_in m x k l (by omega) hl0 (by omega)
  rw [sub_self (0 : K), zero_div, sub_zero] at bal
  rw [show u ((k : Int) + l * m.Nx) = _ from eC] at bal
  rw [← bal]
  have hw : (decide ((k : Int) > 0) || (m.tu (xIdx m k l).C == -2)) = true := by simp; omega
  have he : (decide ((k : Int) < (m.Nx : Int) - 1) || (m.tu (xIdx m k l).C == -2)) = true := by
    simp; omega
  have A := x_row_expand m k l u v (fun _ => 0) ((mirrored_air m x).on _) hw he
  have B := x_row_expand m k l (fun i => onUnknowns m x (.u i)) (fun i => onUnknowns m x (.v i))
    (fun _ => 0) ((X_air m x).on _) hw he
  have B' : applyTo (onUnknowns m x) (xStencil m k l) =
      applyTo (atNode (fun i => onUnknowns m x (.u i)) (fun i => onUnknowns m x (.v i)) fun _ => 0)
        (xStencil m k l ++ xStencilP m k l) := by
    rw [applyTo_append, noP_x, add_zero, ← X_atNode]
  rw [B', B, A]
  have iW : (xIdx m k l).W = (((k - 1 : Nat)) : Int) + l * m.Nx := by
    rw [show ((k - 1 : Nat) : Int) = (k : Int) - 1 by omega]; simp only [xIdx, hper]; simp; ring
  have iE : (xIdx m k l).E = ((k + 1 : Nat) : Int) + l * m.Nx := by simp only [xIdx]; push_cast; ring
  have iC : (xIdx m k l).C = (k : Int) + l * m.Nx := rfl
  have iS : (xIdx m k l).S = (k : Int) + ((l - 1 : Nat) : Int) * m.Nx := by
    rw [show ((l - 1 : Nat) : Int) = (l : Int) - 1 by omega]; simp only [xIdx]; ring
  have iN : (xIdx m k l).N = (k : Int) + ((l + 1 : Nat) : Int) * m.Nx := by simp only [xIdx]; push_cast; ring
  have ivSW : (xIdx m k l).vSW = (k : Int) + ((l - 1 : Nat) : Int) * (m.Nx + 1) := by
    rw [show ((l - 1 : Nat) : Int) = (l : Int) - 1 by omega]; simp only [xIdx, hper]; simp; ring
  have ivSE : (xIdx m k l).vSE = ((k + 1 : Nat) : Int) + ((l - 1 : Nat) : Int) * (m.Nx + 1) := by
    rw [show ((l - 1 : Nat) : Int) = (l : Int) - 1 by omega]; simp only [xIdx]; push_cast; ring
  have ivNW : (xIdx m k l).vNW = (k : Int) + l * (m.Nx + 1) := by simp only [xIdx, hper]; simp
  have ivNE : (xIdx m k l).vNE = ((k + 1 : Nat) : Int) + l * (m.Nx + 1) := by
    simp only [xIdx]; push_cast; ring
  have sS : (xCoef (xIn m k l)).uS * onUnknowns m x (.u (xIdx m k l).S) =
      (xCoef (xIn m k l)).uS * u (xIdx m k l).S := by
    by_cases h : m.tu (xIdx m k l).S = 13 ∨ m.tu (xIdx m k l).S = 11
    · have : (xIn m k l).RegS = 0 := by
        simp only [xIn, flag]; rcases h with h | h <;> simp [h]
      have z : (xCoef (xIn m k l)).uS = 0 := by simp [xCoef, this]
      rw [z]; ring
    · push Not at h
      rw [iS] at h ⊢
      by_cases hl1 : l = 1
      · subst hl1
        rw [X_u_out m x k (1 - 1) (by omega) (by omega)]
        have : u ((k : Int) + ((1 - 1 : Nat) : Int) * m.Nx) = 0 := by
          simp only [u]
          unfold mirroredU
          rw [rowOf_mk _ _ _ (by omega) (by omega)]
          simp only [h.1, h.2]; simp
        rw [this]
      · rw [show u _ = _ from mirroredU_in m x k (l - 1) (by omega) (by omega) (by omega)]
  have sN : (xCoef (xIn m k l)).uN * onUnknowns m x (.u (xIdx m k l).N) =
      (xCoef (xIn m k l)).uN * u (xIdx m k l).N := by
    by_cases h : m.tu (xIdx m k l).N = 13 ∨ m.tu (xIdx m k l).N = 11
    · have : (xIn m k l).RegN = 0 := by
        simp only [xIn, flag]; rcases h with h | h <;> simp [h]
      have z : (xCoef (xIn m k l)).uN = 0 := by simp [xCoef, this]
      rw [z]; ring
    · push Not at h
      rw [iN] at h ⊢
      by_cases hl1 : l + 1 = m.Nz
      · rw [X_u_out m x k (l + 1) (by omega) (by omega)]
        have : u ((k : Int) + ((l + 1 : Nat) : Int) * m.Nx) = 0 := by
          simp only [u]
          unfold mirroredU
          rw [rowOf_mk _ _ _ (by omega) (by omega)]
          simp only [h.1, h.2, X_u_out m x k (l + 1) (by omega) (by omega)]; simp
        rw [this]
      · rw [show u _ = _ from mirroredU_in m x k (l + 1) (by omega) (by omega) (by omega)]
  have eW : u (xIdx m k l).W = onUnknowns m x (.u (xIdx m k l).W) := by
    rw [iW]; exact mirroredU_in m x _ _ (by omega) hl0 (by omega)
  have eE : u (xIdx m k l).E = onUnknowns m x (.u (xIdx m k l).E) := by
    rw [iE]; exact mirroredU_in m x _ _ (by omega) hl0 (by omega)
  have eC' : u (xIdx m k l).C = onUnknowns m x (.u (xIdx m k l).C) := eC
  have e1 : v (xIdx m k l).vSW = onUnknowns m x (.v (xIdx m k l).vSW) := by
    rw [ivSW]; exact mirroredV_in m x _ _ (by omega) (by omega)
  have e2 : v (xIdx m k l).vSE = onUnknowns m x (.v (xIdx m k l).vSE) := by
    rw [ivSE]; exact mirroredV_in m x _ _ (by omega) (by omega)
  have e3 : v (xIdx m k l).vNW = onUnknowns m x (.v (xIdx m k l).vNW) := by
    rw [ivNW]; exact mirroredV_in m x _ _ (by omega) (by omega)
  have e4 : v (xIdx m k l).vNE = onUnknowns m x (.v (xIdx m k l).vNE) := by
    rw [ivNE]; exact mirroredV_in m x _ _ (by omega) (by omega)
  rw [eW, eE, eC', e1, e2, e3, e4, sS, sN]

/-- A z-row applied to the unknowns is minus the divergence of the stresses of the mirrored field. -/
theorem z_row_unknowns (hv : Viscous m) (hb : ClosedBox m) (hdx : m.dx ≠ 0) (hdz : m.dz ≠ 0)
    (k l : Nat) (hk0 : 0 < k) (hk : k < m.Nx) (hl0 : 0 < l) (hl : l + 1 < m.Nz) :
    let u := mirroredU m x
    let v := mirroredV m x
    applyTo (onUnknowns m x) (zStencil m k l) = -(m.dx * m.dz) *
      ((tauzz m u v ((k : Int) - 1 + l * (m.Nx - 1)) -
        tauzz m u v ((k : Int) - 1 + ((l : Int) - 1) * (m.Nx - 1))) / m.dz +
       (tauxz m u v ((k : Int) + l * m.Nx) - tauxz m u v ((k : Int) - 1 + l * m.Nx)) / m.dx -
       zCorr m k l (zCoef (zIn m k l)) * onUnknowns m x (.v ((k : Int) + l * (m.Nx + 1)))) := by
  intro u v
  have g := ghost_v m x hb k l hk0 hk hl0 hl
  have hp : ∀ i, (m.tv i == -12) = false := fun i => by simp [hb.notPeriodic i]
  have iW : (zIdx m k l).W = (k : Int) - 1 + l * (m.Nx + 1) := by
    simp only [zIdx, hp, Bool.false_and]; simp; ring
  have iE : (zIdx m k l).E = (k : Int) + 1 + l * (m.Nx + 1) := by
    simp only [zIdx, hp, Bool.false_and]; simp; ring
  have bal := (z_row_stress_balance m k l hdx hdz (by omega) (by omega) (by omega) (by omega) u v
    (fun _ => 0) ((mirrored_air m x).on _) (fun c h => by rw [hv.iso, hv.air c h])
    (fun _ h => absurd h (hb.notPeriodic _)) (fun _ h => absurd h (hb.notPeriodic _))
    (by rw [iW]; exact g.1) (by rw [iE]; exact g.2) (hv.tags _) (hv.tags _)).1
  have eC := mirroredV_in m x k l hk0 hk
  rw [sub_self (0 : K), zero_div, sub_zero] at bal
  rw [show v ((k : Int) + l * (m.Nx + 1)) = _ from eC] at bal
  rw [← bal]
  have A := z_row_expand m k l u v (fun _ => 0) ((mirrored_air m x).on _) (by omega) (by omega)
  have B := z_row_expand m k l (fun i => onUnknowns m x (.u i)) (fun i => onUnknowns m x (.v i))
    (fun _ => 0) ((X_air m x).on _) (by omega) (by omega)
  have B' : applyTo (onUnknowns m x) (zStencil m k l) =
      applyTo (atNode (fun i => onUnknowns m x (.u i)) (fun i => onUnknowns m x (.v i)) fun _ => 0)
        (zStencil m k l ++ zStencilP m k l) := by
    rw [applyTo_append, noP_z, add_zero, ← X_atNode]
  rw [B', B, A]
  have iW' : (zIdx m k l).W = ((k - 1 : Nat) : Int) + l * (m.Nx + 1) := by
    rw [iW, show ((k - 1 : Nat) : Int) = (k : Int) - 1 by omega]
  have iE' : (zIdx m k l).E = ((k + 1 : Nat) : Int) + l * (m.Nx + 1) := by rw [iE]; push_cast; ring
  have iS : (zIdx m k l).S = (k : Int) + ((l - 1 : Nat) : Int) * (m.Nx + 1) := by
    rw [show ((l - 1 : Nat) : Int) = (l : Int) - 1 by omega]; simp only [zIdx]; ring
  have iN : (zIdx m k l).N = (k : Int) + ((l + 1 : Nat) : Int) * (m.Nx + 1) := by
    simp only [zIdx]; push_cast; ring
  have iuSW : (zIdx m k l).uSW = ((k - 1 : Nat) : Int) + l * m.Nx := by
    rw [show ((k - 1 : Nat) : Int) = (k : Int) - 1 by omega]; simp only [zIdx]; ring
  have iuSE : (zIdx m k l).uSE = (k : Int) + l * m.Nx := rfl
  have iuNW : (zIdx m k l).uNW = ((k - 1 : Nat) : Int) + ((l + 1 : Nat) : Int) * m.Nx := by
    rw [show ((k - 1 : Nat) : Int) = (k : Int) - 1 by omega]; simp only [zIdx]; push_cast; ring
  have iuNE : (zIdx m k l).uNE = (k : Int) + ((l + 1 : Nat) : Int) * m.Nx := by
    simp only [zIdx]; push_cast; ring
  have sW : (zCoef (zIn m k l)).vW * onUnknowns m x (.v (zIdx m k l).W) =
      (zCoef (zIn m k l)).vW * v (zIdx m k l).W := by
    by_cases h : m.tv (zIdx m k l).W = 13 ∨ m.tv (zIdx m k l).W = 11
    · have : (zIn m k l).RegW = 0 := by
        simp only [zIn, flag]; rcases h with h | h <;> simp [h]
      have z : (zCoef (zIn m k l)).vW = 0 := by simp [zCoef, this]
      rw [z]; ring
    · push Not at h
      rw [iW'] at h ⊢
      by_cases hk1 : k = 1
      · subst hk1
        rw [X_v_out m x (1 - 1) l (by omega) (by omega)]
        have : v (((1 - 1 : Nat) : Int) + l * (m.Nx + 1)) = 0 := by
          simp only [v]
          unfold mirroredV
          rw [colOf_mk _ _ _ (by omega) (by omega)]
          simp only [h.1, h.2]; simp
        rw [this]
      · rw [show v _ = _ from mirroredV_in m x (k - 1) l (by omega) (by omega)]
  have sE : (zCoef (zIn m k l)).vE * onUnknowns m x (.v (zIdx m k l).E) =
      (zCoef (zIn m k l)).vE * v (zIdx m k l).E := by
    by_cases h : m.tv (zIdx m k l).E = 13 ∨ m.tv (zIdx m k l).E = 11
    · have : (zIn m k l).RegE = 0 := by
        simp only [zIn, flag]; rcases h with h | h <;> simp [h]
      have z : (zCoef (zIn m k l)).vE = 0 := by simp [zCoef, this]
      rw [z]; ring
    · push Not at h
      rw [iE'] at h ⊢
      by_cases hk1 : k + 1 = m.Nx
      · rw [X_v_out m x (k + 1) l (by omega) (by omega)]
        have : v (((k + 1 : Nat) : Int) + l * (m.Nx + 1)) = 0 := by
          simp only [v]
          unfold mirroredV
          rw [colOf_mk _ _ _ (by omega) (by omega)]
          simp only [h.1, h.2, X_v_out m x (k + 1) l (by omega) (by omega)]; simp
        rw [this]
      · rw [show v _ = _ from mirroredV_in m x (k + 1) l (by omega) (by omega)]
  have eS : v (zIdx m k l).S = onUnknowns m x (.v (zIdx m k l).S) := by
    rw [iS]; exact mirroredV_in m x _ _ (by omega) (by omega)
  have eN : v (zIdx m k l).N = onUnknowns m x (.v (zIdx m k l).N) := by
    rw [iN]; exact mirroredV_in m x _ _ (by omega) (by omega)
  have eC' : v (zIdx m k l).C = onUnknowns m x (.v (zIdx m k l).C) := eC
  have e1 : u (zIdx m k l).uSW = onUnknowns m x (.u (zIdx m k l).uSW) := by
    rw [iuSW]; exact mirroredU_in m x _ _ (by omega) (by omega) (by omega)
  have e2 : u (zIdx m k l).uSE = onUnknowns m x (.u (zIdx m k l).uSE) := by
    rw [iuSE]; exact mirroredU_in m x _ _ (by omega) (by omega) (by omega)
  have e3 : u (zIdx m k l).uNW = onUnknowns m x (.u (zIdx m k l).uNW) := by
    rw [iuNW]; exact mirroredU_in m x _ _ (by omega) (by omega) (by omega)
  have e4 : u (zIdx m k l).uNE = onUnknowns m x (.u (zIdx m k l).uNE) := by
    rw [iuNE]; exact mirroredU_in m x _ _ (by omega) (by omega) (by omega)
  rw [eS, eN, eC', e1, e2, e3, e4, sW, sE]

omit [CharZero K] in
/-- Summation by parts for a field that vanishes at both ends. -/
theorem by_parts_closed (U T : Int → K) (N : Nat) (h0 : U 0 = 0) (h1 : U ((N : Int) - 1) = 0) :
    ∑ k ∈ range N, U k * (T k - T ((k : Int) - 1)) =
      -∑ k ∈ range (N - 1), T k * (U ((k : Int) + 1) - U k) := by
  cases N with
  | zero => simp
  | succ n =>
    rw [by_parts U T n h0]
    push_cast at h1
    rw [show (n : Int) + 1 - 1 = n by ring] at h1
    rw [h1, Nat.add_sub_cancel]; ring

omit [CharZero K] in
theorem drop_ends (f : Nat → K) (N : Nat) (h0 : f 0 = 0) (h1 : f N = 0) :
    ∑ l ∈ range (N + 1), f l = ∑ l ∈ range (N - 1), f (l + 1) := by
  rw [Finset.sum_range_succ', h0, add_zero]
  cases N with
  | zero => simp
  | succ n => rw [Finset.sum_range_succ, h1, add_zero, Nat.add_sub_cancel]

omit [CharZero K] in
/-- The work of a divergence of stresses is the work of the stresses on the velocity gradients. -/
theorem work_by_parts (U V TX TZ TS cx cz : Int → Int → K) (Nx Nz : Nat) (dx dz : K) (hdx : dx ≠ 0)
    (hdz : dz ≠ 0)
    (hU : ∀ k l : Nat, k < Nx → l ≤ Nz → ¬ (0 < k ∧ k + 1 < Nx ∧ 0 < l ∧ l < Nz) → U k l = 0)
    (hV : ∀ k l : Nat, k ≤ Nx → l < Nz → ¬ (0 < k ∧ k < Nx ∧ 0 < l ∧ l + 1 < Nz) → V k l = 0) :
    (∑ k ∈ range Nx, ∑ l ∈ range (Nz + 1), U k l * (-(dx * dz) *
      ((TX k ((l : Int) - 1) - TX ((k : Int) - 1) ((l : Int) - 1)) / dx + (TS k l - TS k ((l : Int) - 1)) / dz -
        cx k l * U k l))) +
    (∑ k ∈ range (Nx + 1), ∑ l ∈ range Nz, V k l * (-(dx * dz) *
      ((TZ ((k : Int) - 1) l - TZ ((k : Int) - 1) ((l : Int) - 1)) / dz + (TS k l - TS ((k : Int) - 1) l) / dx -
        cz k l * V k l))) =
    dx * dz * ((∑ k ∈ range (Nx - 1), ∑ l ∈ range (Nz - 1),
        (TX k l * ((U ((k : Int) + 1) ((l : Int) + 1) - U k ((l : Int) + 1)) / dx) +
         TZ k l * ((V ((k : Int) + 1) ((l : Int) + 1) - V ((k : Int) + 1) l) / dz))) +
      (∑ k ∈ range Nx, ∑ l ∈ range Nz, TS k l * ((U k ((l : Int) + 1) - U k l) / dz +
        (V ((k : Int) + 1) l - V k l) / dx)) +
      (∑ k ∈ range Nx, ∑ l ∈ range (Nz + 1), cx k l * U k l ^ 2) +
      ∑ k ∈ range (Nx + 1), ∑ l ∈ range Nz, cz k l * V k l ^ 2) := by
  have a1 : ∑ k ∈ range Nx, ∑ l ∈ range (Nz + 1), U k l * (TX k ((l : Int) - 1) - TX ((k : Int) - 1) ((l : Int) - 1)) =
      -∑ k ∈ range (Nx - 1), ∑ l ∈ range (Nz - 1), TX k l * (U ((k : Int) + 1) ((l : Int) + 1) - U k ((l : Int) + 1)) := by
    rw [Finset.sum_comm]
    have : ∀ l ∈ range (Nz + 1), ∑ k ∈ range Nx, U k l * (TX k ((l : Int) - 1) - TX ((k : Int) - 1) ((l : Int) - 1)) =
        -∑ k ∈ range (Nx - 1), TX k ((l : Int) - 1) * (U ((k : Int) + 1) l - U k l) := by
      intro l hl
      have hl' : l ≤ Nz := by have := mem_range.1 hl; omega
      rcases Nat.eq_zero_or_pos Nx with h | h
      · subst h; simp
      · refine by_parts_closed (fun k => U k l) (fun k => TX k ((l : Int) - 1)) Nx ?_ ?_
        · exact hU 0 l h hl' (by omega)
        · have := hU (Nx - 1) l (by omega) hl' (by omega)
          rwa [show ((Nx - 1 : Nat) : Int) = (Nx : Int) - 1 by omega] at this
    rw [Finset.sum_congr rfl this, Finset.sum_neg_distrib]
    congr 1
    rw [drop_ends (fun l => ∑ k ∈ range (Nx - 1), TX k ((l : Int) - 1) * (U ((k : Int) + 1) l - U k l)) Nz,
      Finset.sum_comm]
    · refine Finset.sum_congr rfl fun k _ => Finset.sum_congr rfl fun l _ => ?_
      push_cast
      rw [show (l : Int) + 1 - 1 = l by ring]
    · refine Finset.sum_eq_zero fun k hk => ?_
      have hk' := mem_range.1 hk
      have p := hU (k + 1) 0 (by omega) (by omega) (by omega)
      have q := hU k 0 (by omega) (by omega) (by omega)
      push_cast at p q ⊢
      rw [p, q]; ring
    · refine Finset.sum_eq_zero fun k hk => ?_
      have hk' := mem_range.1 hk
      have p := hU (k + 1) Nz (by omega) (by omega) (by omega)
      have q := hU k Nz (by omega) (by omega) (by omega)
      push_cast at p q ⊢
      rw [p, q]; ring
  have a2 : ∑ k ∈ range Nx, ∑ l ∈ range (Nz + 1), U k l * (TS k l - TS k ((l : Int) - 1)) =
      -∑ k ∈ range Nx, ∑ l ∈ range Nz, TS k l * (U k ((l : Int) + 1) - U k l) := by
    rw [← Finset.sum_neg_distrib]
    refine Finset.sum_congr rfl fun k hk => ?_
    have hk' := mem_range.1 hk
    have := by_parts_closed (fun l => U k l) (fun l => TS k l) (Nz + 1)
      (hU k 0 hk' (by omega) (by omega))
      (by have := hU k Nz hk' (by omega) (by omega)
          push_cast
          rwa [show (Nz : Int) + 1 - 1 = Nz by ring])
    rwa [Nat.add_sub_cancel] at this
  have a3 : ∑ k ∈ range (Nx + 1), ∑ l ∈ range Nz, V k l * (TZ ((k : Int) - 1) l - TZ ((k : Int) - 1) ((l : Int) - 1)) =
      -∑ k ∈ range (Nx - 1), ∑ l ∈ range (Nz - 1), TZ k l * (V ((k : Int) + 1) ((l : Int) + 1) - V ((k : Int) + 1) l) := by
    have : ∀ k ∈ range (Nx + 1), ∑ l ∈ range Nz, V k l * (TZ ((k : Int) - 1) l - TZ ((k : Int) - 1) ((l : Int) - 1)) =
        -∑ l ∈ range (Nz - 1), TZ ((k : Int) - 1) l * (V k ((l : Int) + 1) - V k l) := by
      intro k hk
      have hk' : k ≤ Nx := by have := mem_range.1 hk; omega
      rcases Nat.eq_zero_or_pos Nz with h | h
      · subst h; simp
      · refine by_parts_closed (fun l => V k l) (fun l => TZ ((k : Int) - 1) l) Nz ?_ ?_
        · exact hV k 0 hk' h (by omega)
        · have := hV k (Nz - 1) hk' (by omega) (by omega)
          rwa [show ((Nz - 1 : Nat) : Int) = (Nz : Int) - 1 by omega] at this
    rw [Finset.sum_congr rfl this, Finset.sum_neg_distrib]
    congr 1
    rw [drop_ends (fun k => ∑ l ∈ range (Nz - 1), TZ ((k : Int) - 1) l * (V k ((l : Int) + 1) - V k l)) Nx]
    · refine Finset.sum_congr rfl fun k _ => Finset.sum_congr rfl fun l _ => ?_
      push_cast
      rw [show (k : Int) + 1 - 1 = k by ring]
    · refine Finset.sum_eq_zero fun l hl => ?_
      have hl' := mem_range.1 hl
      have p := hV 0 (l + 1) (by omega) (by omega) (by omega)
      have q := hV 0 l (by omega) (by omega) (by omega)
      push_cast at p q ⊢
      rw [p, q]; ring
    · refine Finset.sum_eq_zero fun l hl => ?_
      have hl' := mem_range.1 hl
      have p := hV Nx (l + 1) (by omega) (by omega) (by omega)
      have q := hV Nx l (by omega) (by omega) (by omega)
      push_cast at p q ⊢
      rw [p, q]; ring
  have a4 : ∑ k ∈ range (Nx + 1), ∑ l ∈ range Nz, V k l * (TS k l - TS ((k : Int) - 1) l) =
      -∑ k ∈ range Nx, ∑ l ∈ range Nz, TS k l * (V ((k : Int) + 1) l - V k l) := by
    rw [Finset.sum_comm, Finset.sum_comm (s := range Nx), ← Finset.sum_neg_distrib]
    refine Finset.sum_congr rfl fun l hl => ?_
    have hl' := mem_range.1 hl
    have := by_parts_closed (fun k => V k l) (fun k => TS k l) (Nx + 1)
      (hV 0 l (by omega) hl' (by omega))
      (by have := hV Nx l (by omega) hl' (by omega)
          push_cast
          rwa [show (Nx : Int) + 1 - 1 = Nx by ring])
    rwa [Nat.add_sub_cancel] at this
  have b1 : ∀ k l : Nat, U k l * (-(dx * dz) *
      ((TX k ((l : Int) - 1) - TX ((k : Int) - 1) ((l : Int) - 1)) / dx + (TS k l - TS k ((l : Int) - 1)) / dz -
        cx k l * U k l)) =
      -dz * (U k l * (TX k ((l : Int) - 1) - TX ((k : Int) - 1) ((l : Int) - 1))) +
      -dx * (U k l * (TS k l - TS k ((l : Int) - 1))) + dx * dz * (cx k l * U k l ^ 2) := by
    intro k l; field_simp; ring
  have b2 : ∀ k l : Nat, V k l * (-(dx * dz) *
      ((TZ ((k : Int) - 1) l - TZ ((k : Int) - 1) ((l : Int) - 1)) / dz + (TS k l - TS ((k : Int) - 1) l) / dx -
        cz k l * V k l)) =
      -dx * (V k l * (TZ ((k : Int) - 1) l - TZ ((k : Int) - 1) ((l : Int) - 1))) +
      -dz * (V k l * (TS k l - TS ((k : Int) - 1) l)) + dx * dz * (cz k l * V k l ^ 2) := by
    intro k l; field_simp; ring
  simp only [b1, b2, Finset.sum_add_distrib, ← Finset.mul_sum, a1, a2, a3, a4]
  simp only [mul_add, Finset.sum_add_distrib, mul_div_assoc', ← Finset.sum_div]
  field_simp
  ring

/-- Work identity: viscous work is cell and vertex dissipation plus the stabilisation's share. -/
theorem work_identity (hv : Viscous m) (hb : ClosedBox m) (hdx : m.dx ≠ 0) (hdz : m.dz ≠ 0) :
    let X := onUnknowns m x
    let U := fun k l : Int => X (.u (k + l * m.Nx))
    let V := fun k l : Int => X (.v (k + l * (m.Nx + 1)))
    let u := mirroredU m x
    let v := mirroredV m x
    viscousWork m x = m.dx * m.dz * ((∑ k ∈ range (m.Nx - 1), ∑ l ∈ range (m.Nz - 1),
        (tauxx m u v ((k : Int) + l * (m.Nx - 1)) * ((U ((k : Int) + 1) ((l : Int) + 1) - U k ((l : Int) + 1)) / m.dx) +
         tauzz m u v ((k : Int) + l * (m.Nx - 1)) * ((V ((k : Int) + 1) ((l : Int) + 1) - V ((k : Int) + 1) l) / m.dz))) +
      (∑ k ∈ range m.Nx, ∑ l ∈ range m.Nz, tauxz m u v ((k : Int) + l * m.Nx) *
        ((U k ((l : Int) + 1) - U k l) / m.dz + (V ((k : Int) + 1) l - V k l) / m.dx)) +
      (∑ k ∈ range m.Nx, ∑ l ∈ range (m.Nz + 1), xCorr m k l (xCoef (xIn m k l)).uC * U k l ^ 2) +
      ∑ k ∈ range (m.Nx + 1), ∑ l ∈ range m.Nz, zCorr m k l (zCoef (zIn m k l)) * V k l ^ 2) := by
  intro X U V u v
  rw [work_grid]
  refine Eq.trans ?_ (work_by_parts U V (fun k l => tauxx m u v (k + l * (m.Nx - 1)))
    (fun k l => tauzz m u v (k + l * (m.Nx - 1))) (fun k l => tauxz m u v (k + l * m.Nx))
    (fun k l => xCorr m k l (xCoef (xIn m k l)).uC) (fun k l => zCorr m k l (zCoef (zIn m k l)))
    m.Nx m.Nz m.dx m.dz hdx hdz (fun k l hk _ h => X_u_out m x k l hk h)
    (fun k l hk _ h => X_v_out m x k l hk h))
  refine congrArg₂ (· + ·) ?_ ?_
  · refine Finset.sum_congr rfl fun k hk => Finset.sum_congr rfl fun l hl => ?_
    have hk' := mem_range.1 hk
    by_cases h : SNode.u ((k : Int) + l * m.Nx) ∈ velNodes m
    · obtain ⟨⟨a, b, c, d⟩, t⟩ := (mem_u m k l hk').1 h
      rw [x_row_unknowns m x hv hb hdx hdz k l a b c d t]
    · have : U k l = 0 := by simp only [U, X, onUnknowns, if_neg h]
      rw [this]
      have : onUnknowns m x (.u ((k : Int) + l * m.Nx)) = 0 := this
      rw [this]; ring
  · refine Finset.sum_congr rfl fun k hk => Finset.sum_congr rfl fun l hl => ?_
    have hk' : k ≤ m.Nx := by have := mem_range.1 hk; omega
    by_cases h : SNode.v ((k : Int) + l * (m.Nx + 1)) ∈ velNodes m
    · obtain ⟨⟨a, b, c, d⟩, t⟩ := (mem_v m k l hk').1 h
      rw [z_row_unknowns m x hv hb hdx hdz k l a b c d]
    · have : V k l = 0 := by simp only [V, X, onUnknowns, if_neg h]
      rw [this]
      have : onUnknowns m x (.v ((k : Int) + l * (m.Nx + 1))) = 0 := this
      rw [this]; ring

section positive
variable [IsStrictOrderedRing K]

/-- Rate of dissipation of a cell with velocity gradients `du`, `dv`, per unit viscosity. -/
theorem form_bound (c o : Bool) (du dv : K) :
    0 ≤ du ^ 2 + dv ^ 2 - flag c / 3 * ((if o then 3/2 else 1) * (du + dv)) * (du + dv) ∧
    (¬ (c = true ∧ o = true) → (1/3) * (du ^ 2 + dv ^ 2) ≤
      du ^ 2 + dv ^ 2 - flag c / 3 * ((if o then 3/2 else 1) * (du + dv)) * (du + dv)) := by
  have h1 := sq_nonneg (du - dv)
  have h2 := sq_nonneg (du + dv)
  have h3 := sq_nonneg du
  have h4 := sq_nonneg dv
  cases c <;> cases o <;> constructor <;> intros <;> simp_all [flag] <;> nlinarith

/-- Cell term of the work identity. -/
theorem cell_term (hv : Viscous m) (k l : Nat) (hk : k + 1 < m.Nx) (hl : l + 1 < m.Nz) :
    let X := onUnknowns m x
    let U := fun k l : Int => X (.u (k + l * m.Nx))
    let V := fun k l : Int => X (.v (k + l * (m.Nx + 1)))
    let c := (k : Int) + l * (m.Nx - 1)
    let du := (U ((k : Int) + 1) ((l : Int) + 1) - U k ((l : Int) + 1)) / m.dx
    let dv := (V ((k : Int) + 1) ((l : Int) + 1) - V ((k : Int) + 1) l) / m.dz
    tauxx m (mirroredU m x) (mirroredV m x) c * du + tauzz m (mirroredU m x) (mirroredV m x) c * dv =
      m.D11 c * flag (m.tp c == -1) *
        (du ^ 2 + dv ^ 2 - flag m.comp / 3 * ((if m.oop then 3/2 else 1) * (du + dv)) * (du + dv)) := by
  intro X U V c du dv
  have t := tau_mk m (mirroredU m x) (mirroredV m x) k l (by omega) (by omega) (hv.tags _)
  have u1 := mirroredU_in m x (k + 1) (l + 1) (by omega) (by omega) (by omega)
  have u2 := mirroredU_in m x k (l + 1) (by omega) (by omega) (by omega)
  have v1 := mirroredV_in m x (k + 1) (l + 1) (by omega) (by omega)
  have v2 := mirroredV_in m x (k + 1) l (by omega) (by omega)
  push_cast at u1 u2 v1 v2
  simp only [u1, u2, v1, v2] at t
  have t1 : tauxx m (mirroredU m x) (mirroredV m x) c = m.D11 c * flag (m.tp c == -1) *
      (du - flag m.comp / 3 * ((if m.oop then 3/2 else 1) * (du + dv))) := t.1
  have t2 : tauzz m (mirroredU m x) (mirroredV m x) c = m.D22 c * flag (m.tp c == -1) *
      (dv - flag m.comp / 3 * ((if m.oop then 3/2 else 1) * (du + dv))) := t.2
  rw [t1, t2, hv.iso]
  ring

omit [CharZero K] [IsStrictOrderedRing K] in
theorem mirroredU_side (k l : Nat) (hk : k < m.Nx) (hl : l ≤ m.Nz) (h : k = 0 ∨ k + 1 = m.Nx) :
    mirroredU m x ((k : Int) + l * m.Nx) = 0 := by
  unfold mirroredU
  rw [rowOf_mk _ _ _ (by omega) (by omega)]
  simp only
  have z : ∀ l' : Nat, onUnknowns m x (.u ((k : Int) + l' * m.Nx)) = 0 := fun l' =>
    X_u_out m x k l' hk (by omega)
  split
  · rename_i h0
    have := z (l + 1)
    push_cast at this
    rw [show (k : Int) + l * (m.Nx : Int) + m.Nx = (k : Int) + ((l : Int) + 1) * m.Nx by ring, this]
    simp
  · split
    · rename_i h0 h1
      have := z (l - 1)
      rw [show ((l - 1 : Nat) : Int) = (l : Int) - 1 by omega] at this
      rw [show (k : Int) + l * (m.Nx : Int) - m.Nx = (k : Int) + ((l : Int) - 1) * m.Nx by ring, this]
      simp
    · exact z l

omit [CharZero K] [IsStrictOrderedRing K] in
theorem mirroredV_end (k l : Nat) (hk : k ≤ m.Nx) (h : l = 0 ∨ l + 1 = m.Nz) :
    mirroredV m x ((k : Int) + l * (m.Nx + 1)) = 0 := by
  unfold mirroredV
  rw [colOf_mk _ _ _ (by omega) (by omega)]
  simp only
  have z : ∀ k' : Nat, k' ≤ m.Nx → onUnknowns m x (.v ((k' : Int) + l * (m.Nx + 1))) = 0 :=
    fun k' hk' => X_v_out m x k' l hk' (by omega)
  split
  · rename_i h0
    by_cases hN : m.Nx = 0
    · have : onUnknowns m x (.v ((k : Int) + l * ((m.Nx : Int) + 1) + 1)) = 0 := by
        unfold onUnknowns
        rw [if_neg]
        intro hm
        unfold velNodes at hm
        simp [hN] at hm
      rw [this]; simp
    · have := z (k + 1) (by omega)
      push_cast at this
      rw [show (k : Int) + l * ((m.Nx : Int) + 1) + 1 = (k : Int) + 1 + l * (m.Nx + 1) by ring, this]
      simp
  · split
    · rename_i h0 h1
      have := z (k - 1) (by omega)
      rw [show ((k - 1 : Nat) : Int) = (k : Int) - 1 by omega] at this
      rw [show (k : Int) + l * ((m.Nx : Int) + 1) - 1 = (k : Int) - 1 + l * (m.Nx + 1) by ring, this]
      simp
    · exact z k hk

omit [CharZero K] [IsStrictOrderedRing K] in
/-- A ghost row value is minus, plus or zero times its inner neighbour. -/
theorem mirroredU_ghost (k l l' : Nat) (hk : k < m.Nx)
    (h : (l = 0 ∧ l' = 1) ∨ (l = m.Nz ∧ l' + 1 = m.Nz)) :
    ∃ s : K, (s = -1 ∨ s = 1 ∨ s = 0) ∧ mirroredU m x ((k : Int) + l * m.Nx) =
      s * onUnknowns m x (.u ((k : Int) + l' * m.Nx)) := by
  have key : ∀ y : K, ∃ s : K, (s = -1 ∨ s = 1 ∨ s = 0) ∧
      (if m.tu ((k : Int) + l * m.Nx) = 11 then -y else if m.tu ((k : Int) + l * m.Nx) = 13 then y else 0) =
      s * y := by
    intro y
    split
    · exact ⟨-1, by simp, by ring⟩
    · split
      · exact ⟨1, by simp, by ring⟩
      · exact ⟨0, by simp, by ring⟩
  unfold mirroredU
  rw [rowOf_mk _ _ _ (by omega) (by omega)]
  simp only
  rcases h with ⟨rfl, rfl⟩ | ⟨rfl, h⟩
  · rw [if_pos (by simp)]
    have := key (onUnknowns m x (.u ((k : Int) + ((1 : Nat) : Int) * m.Nx)))
    rwa [show (k : Int) + ((0 : Nat) : Int) * (m.Nx : Int) + m.Nx = (k : Int) + ((1 : Nat) : Int) * m.Nx by push_cast; ring]
  · rw [if_neg (by omega), if_pos rfl]
    have := key (onUnknowns m x (.u ((k : Int) + l' * m.Nx)))
    rwa [show (k : Int) + (m.Nz : Int) * (m.Nx : Int) - m.Nx = (k : Int) + l' * m.Nx by
      rw [show (m.Nz : Int) = l' + 1 by omega]; ring]

omit [CharZero K] [IsStrictOrderedRing K] in
theorem mirroredV_ghost (k k' l : Nat) (hk : k ≤ m.Nx)
    (h : (k = 0 ∧ k' = 1) ∨ (k = m.Nx ∧ k' + 1 = m.Nx)) :
    ∃ s : K, (s = -1 ∨ s = 1 ∨ s = 0) ∧ mirroredV m x ((k : Int) + l * (m.Nx + 1)) =
      s * onUnknowns m x (.v ((k' : Int) + l * (m.Nx + 1))) := by
  have key : ∀ y : K, ∃ s : K, (s = -1 ∨ s = 1 ∨ s = 0) ∧
      (if m.tv ((k : Int) + l * (m.Nx + 1)) = 11 then -y else
        if m.tv ((k : Int) + l * (m.Nx + 1)) = 13 then y else 0) = s * y := by
    intro y
    split
    · exact ⟨-1, by simp, by ring⟩
    · split
      · exact ⟨1, by simp, by ring⟩
      · exact ⟨0, by simp, by ring⟩
  unfold mirroredV
  rw [colOf_mk _ _ _ (by omega) (by omega)]
  simp only
  rcases h with ⟨rfl, rfl⟩ | ⟨rfl, h⟩
  · rw [if_pos (by simp)]
    have := key (onUnknowns m x (.v (((1 : Nat) : Int) + l * (m.Nx + 1))))
    rwa [show ((0 : Nat) : Int) + l * ((m.Nx : Int) + 1) + 1 = ((1 : Nat) : Int) + l * (m.Nx + 1) by push_cast; ring]
  · rw [if_neg (by omega), if_pos rfl]
    have := key (onUnknowns m x (.v ((k' : Int) + l * (m.Nx + 1))))
    rwa [show (m.Nx : Int) + l * ((m.Nx : Int) + 1) - 1 = (k' : Int) + l * (m.Nx + 1) by
      rw [show (m.Nx : Int) = k' + 1 by omega]; ring]

omit [CharZero K] in
theorem signs (s y d : K) (h : s = -1 ∨ s = 1 ∨ s = 0) :
    0 ≤ (y - s * y) / d * ((y - 0) / d) ∧ 0 ≤ (s * y - y) / d * ((0 - y) / d) := by
  have h0 := sq_nonneg (y / d)
  rcases h with rfl | rfl | rfl
  · constructor
    · have : (y - -1 * y) / d * ((y - 0) / d) = 2 * (y / d) ^ 2 := by ring
      rw [this]; positivity
    · have : (-1 * y - y) / d * ((0 - y) / d) = 2 * (y / d) ^ 2 := by ring
      rw [this]; positivity
  · constructor <;> simp
  · constructor
    · have : (y - 0 * y) / d * ((y - 0) / d) = (y / d) ^ 2 := by ring
      rw [this]; exact h0
    · have : (0 * y - y) / d * ((0 - y) / d) = (y / d) ^ 2 := by ring
      rw [this]; exact h0

/-- Vertex term of the work identity. -/
theorem vertex_term (hv : Viscous m) (k l : Nat) (hk : k < m.Nx) (hl : l < m.Nz) :
    let X := onUnknowns m x
    let U := fun k l : Int => X (.u (k + l * m.Nx))
    let V := fun k l : Int => X (.v (k + l * (m.Nx + 1)))
    0 ≤ tauxz m (mirroredU m x) (mirroredV m x) ((k : Int) + l * m.Nx) *
      ((U k ((l : Int) + 1) - U k l) / m.dz + (V ((k : Int) + 1) l - V k l) / m.dx) := by
  intro X U V
  rw [tauxz_mk m _ _ k l (by omega) (by omega), mul_assoc]
  refine mul_nonneg (mul_nonneg (hv.vertex k l hk hl) (by unfold flag; split <;> simp)) ?_
  set u1 := mirroredU m x ((k : Int) + ((l : Int) + 1) * m.Nx) with hu1
  set u0 := mirroredU m x ((k : Int) + (l : Int) * m.Nx) with hu0
  set v1 := mirroredV m x ((k : Int) + 1 + l * (m.Nx + 1)) with hv1
  set v0 := mirroredV m x ((k : Int) + l * (m.Nx + 1)) with hv0
  have cu1 : (k : Int) + ((l : Int) + 1) * m.Nx = (k : Int) + ((l + 1 : Nat) : Int) * m.Nx := by push_cast; ring
  have cv1 : (k : Int) + 1 + l * ((m.Nx : Int) + 1) = ((k + 1 : Nat) : Int) + l * (m.Nx + 1) := by push_cast; ring
  have eU1 : U k ((l : Int) + 1) = X (.u ((k : Int) + ((l + 1 : Nat) : Int) * m.Nx)) := by
    simp only [U]; rw [cu1]
  have eV1 : V ((k : Int) + 1) l = X (.v (((k + 1 : Nat) : Int) + l * (m.Nx + 1))) := by
    simp only [V]; rw [cv1]
  by_cases hside : k = 0 ∨ k + 1 = m.Nx
  · -- side wall: Vx vanishes
    have z1 : u1 = 0 := by rw [hu1, cu1]; exact mirroredU_side m x k (l + 1) hk (by omega) hside
    have z0 : u0 = 0 := mirroredU_side m x k l hk (by omega) hside
    have w1 : U k ((l : Int) + 1) = 0 := by rw [eU1]; exact X_u_out m x k (l + 1) hk (by omega)
    have w0 : U k l = 0 := X_u_out m x k l hk (by omega)
    rw [z1, z0, w1, w0]
    simp only [sub_self, zero_div, zero_add]
    rcases hside with rfl | hside
    · have g0 := mirroredV_ghost m x 0 1 l (by omega) (Or.inl ⟨rfl, rfl⟩)
      obtain ⟨s, hs, e⟩ := g0
      have y0 : V ((0 : Nat) : Int) l = 0 := X_v_out m x 0 l (by omega) (by omega)
      rw [hv0, e, y0]
      by_cases hN : m.Nx = 1
      · have a : v1 = 0 ∨ True := Or.inr trivial
        obtain ⟨s', hs', e'⟩ := mirroredV_ghost m x 1 0 l (by omega) (Or.inr ⟨by omega, by omega⟩)
        have q : onUnknowns m x (.v (((1 : Nat) : Int) + l * (m.Nx + 1))) = 0 :=
          X_v_out m x 1 l (by omega) (by omega)
        have p : V (((0 : Nat) : Int) + 1) l = 0 := by
          rw [eV1]; exact X_v_out m x (0 + 1) l (by omega) (by omega)
        rw [q, p]; simp
      · have b : v1 = X (.v (((1 : Nat) : Int) + l * (m.Nx + 1))) := by
          rw [hv1, cv1]; exact mirroredV_in m x (0 + 1) l (by omega) (by omega)
        rw [b, eV1]
        exact (signs s _ m.dx hs).1
    · by_cases hN : m.Nx = 1
      · have p : V ((k : Int) + 1) l = 0 := by
          rw [eV1]; exact X_v_out m x (k + 1) l (by omega) (by omega)
        have q : V k l = 0 := X_v_out m x k l (by omega) (by omega)
        rw [p, q]; simp
      · obtain ⟨s, hs, e⟩ := mirroredV_ghost m x (k + 1) k l (by omega) (Or.inr ⟨by omega, by omega⟩)
        have y0 : V ((k : Int) + 1) l = 0 := by
          rw [eV1]; exact X_v_out m x (k + 1) l (by omega) (by omega)
        have b : v0 = X (.v ((k : Int) + l * (m.Nx + 1))) := mirroredV_in m x k l (by omega) (by omega)
        rw [hv1, cv1, e, y0, b]
        exact (signs s _ m.dx hs).2
  · by_cases hend : l = 0 ∨ l + 1 = m.Nz
    · have z1 : v1 = 0 := by rw [hv1, cv1]; exact mirroredV_end m x (k + 1) l (by omega) hend
      have z0 : v0 = 0 := mirroredV_end m x k l (by omega) hend
      have w1 : V ((k : Int) + 1) l = 0 := by
        rw [eV1]; exact X_v_out m x (k + 1) l (by omega) (by omega)
      have w0 : V k l = 0 := X_v_out m x k l (by omega) (by omega)
      rw [z1, z0, w1, w0]
      simp only [sub_self, zero_div, add_zero]
      rcases hend with rfl | hend
      · obtain ⟨s, hs, e⟩ := mirroredU_ghost m x k 0 1 hk (Or.inl ⟨rfl, rfl⟩)
        have y0 : U k ((0 : Nat) : Int) = 0 := X_u_out m x k 0 hk (by omega)
        rw [hu0, e, y0]
        by_cases hN : m.Nz = 1
        · have q : onUnknowns m x (.u ((k : Int) + ((1 : Nat) : Int) * m.Nx)) = 0 :=
            X_u_out m x k 1 hk (by omega)
          have p : U k (((0 : Nat) : Int) + 1) = 0 := by
            rw [eU1]; exact X_u_out m x k (0 + 1) hk (by omega)
          rw [q, p]; simp
        · have b : u1 = X (.u ((k : Int) + ((1 : Nat) : Int) * m.Nx)) := by
            rw [hu1, cu1]; exact mirroredU_in m x k (0 + 1) hk (by omega) (by omega)
          rw [b, eU1]
          exact (signs s _ m.dz hs).1
      · by_cases hN : m.Nz = 1
        · have p : U k ((l : Int) + 1) = 0 := by
            rw [eU1]; exact X_u_out m x k (l + 1) hk (by omega)
          have q : U k l = 0 := X_u_out m x k l hk (by omega)
          rw [p, q]; simp
        · obtain ⟨s, hs, e⟩ := mirroredU_ghost m x k (l + 1) l hk (Or.inr ⟨by omega, by omega⟩)
          have y0 : U k ((l : Int) + 1) = 0 := by
            rw [eU1]; exact X_u_out m x k (l + 1) hk (by omega)
          have b : u0 = X (.u ((k : Int) + l * m.Nx)) := mirroredU_in m x k l hk (by omega) (by omega)
          rw [hu1, cu1, e, y0, b]
          exact (signs s _ m.dz hs).2
    · have a1 : u1 = U k ((l : Int) + 1) := by
        rw [hu1, cu1, eU1]; exact mirroredU_in m x k (l + 1) hk (by omega) (by omega)
      have a0 : u0 = U k l := mirroredU_in m x k l hk (by omega) (by omega)
      have b1 : v1 = V ((k : Int) + 1) l := by
        rw [hv1, cv1, eV1]; exact mirroredV_in m x (k + 1) l (by omega) (by omega)
      have b0 : v0 = V k l := mirroredV_in m x k l (by omega) (by omega)
      rw [a1, a0, b1, b0]
      exact mul_self_nonneg _

omit [CharZero K] in
theorem xCorr_nonneg (hs : StableOrOff m) (hdx : 0 < m.dx) (k l : Nat) (hk : k < m.Nx) (a : K) :
    0 ≤ xCorr m k l a * onUnknowns m x (.u ((k : Int) + (l : Int) * m.Nx)) ^ 2 := by
  by_cases hin : 0 < k ∧ k + 1 < m.Nx ∧ 0 < l ∧ l < m.Nz
  · refine mul_nonneg ?_ (sq_nonneg _)
    unfold xCorr
    split
    · rename_i h
      obtain ⟨h1, h2, -⟩ := hs h
      simp only
      split
      · exact le_rfl
      · have := mul_nonneg (mul_nonneg h1 (h2 k l hin.1 hin.2.1 hin.2.2.1 hin.2.2.2)) (one_div_pos.2 hdx).le
        refine this.trans (le_of_eq ?_)
        ring
    · exact le_rfl
  · rw [X_u_out m x k l hk hin]; simp

omit [CharZero K] in
theorem zCorr_nonneg (hs : StableOrOff m) (hdz : 0 < m.dz) (k l : Nat) (hk : k ≤ m.Nx) (a : ZCoef K) :
    0 ≤ zCorr m k l a * onUnknowns m x (.v ((k : Int) + (l : Int) * (m.Nx + 1))) ^ 2 := by
  by_cases hin : 0 < k ∧ k < m.Nx ∧ 0 < l ∧ l + 1 < m.Nz
  · refine mul_nonneg ?_ (sq_nonneg _)
    unfold zCorr
    split
    · rename_i h
      obtain ⟨h1, -, h2⟩ := hs h
      simp only
      split
      · exact le_rfl
      · have := mul_nonneg (mul_nonneg h1 (h2 k l hin.1 hin.2.1 hin.2.2.1 hin.2.2.2)) (one_div_pos.2 hdz).le
        refine this.trans (le_of_eq ?_)
        ring
    · exact le_rfl
  · rw [X_v_out m x k l hk hin]; simp

/-- C145.  In a closed box with non-negative viscosities, the assembled velocity block does no
negative work on any velocity field, whatever the viscosities and the position of the air; with
stabilisation, provided density nowhere increases against gravity. -/
theorem viscous_work_nonneg_partial (hv : Viscous m) (hb : ClosedBox m) (hs : StableOrOff m)
    (hdx : 0 < m.dx) (hdz : 0 < m.dz) : 0 ≤ viscousWork m x := by
  rw [work_identity m x hv hb hdx.ne' hdz.ne']
  refine mul_nonneg (mul_nonneg hdx.le hdz.le) (add_nonneg (add_nonneg (add_nonneg ?_ ?_) ?_) ?_)
  · refine Finset.sum_nonneg fun k hk => Finset.sum_nonneg fun l hl => ?_
    have hk' := mem_range.1 hk
    have hl' := mem_range.1 hl
    rw [cell_term m x hv k l (by omega) (by omega)]
    exact mul_nonneg (mul_nonneg (hv.cell k l (by omega) (by omega)) (by unfold flag; split <;> simp)) (form_bound _ _ _ _).1
  · exact Finset.sum_nonneg fun k hk => Finset.sum_nonneg fun l hl =>
      vertex_term m x hv k l (mem_range.1 hk) (mem_range.1 hl)
  · exact Finset.sum_nonneg fun k hk => Finset.sum_nonneg fun l hl =>
      xCorr_nonneg m x hs hdx k l (mem_range.1 hk) _
  · exact Finset.sum_nonneg fun k hk => Finset.sum_nonneg fun l hl =>
      zCorr_nonneg m x hs hdz k l (Nat.lt_succ_iff.1 (mem_range.1 hk)) _

/-- If no cell stretches, the field is at rest. -/
theorem rest_of_cells (cell : ∀ k l : Nat, k + 1 < m.Nx → l + 1 < m.Nz →
      onUnknowns m x (.u ((k : Int) + 1 + ((l : Int) + 1) * m.Nx)) =
        onUnknowns m x (.u ((k : Int) + ((l : Int) + 1) * m.Nx)) ∧
      onUnknowns m x (.v ((k : Int) + 1 + ((l : Int) + 1) * (m.Nx + 1))) =
        onUnknowns m x (.v ((k : Int) + 1 + (l : Int) * (m.Nx + 1)))) : ∀ n ∈ velNodes m, x n = 0 := by
  have allU : ∀ l : Nat, l + 1 < m.Nz → ∀ k : Nat, k < m.Nx →
      onUnknowns m x (.u ((k : Int) + ((l : Int) + 1) * m.Nx)) = 0 := by
    intro l hl k
    induction k with
    | zero =>
      intro hk
      have := X_u_out m x 0 (l + 1) hk (by omega)
      push_cast at this ⊢
      exact this
    | succ k ih =>
      intro hk
      have := (cell k l (by omega) hl).1
      push_cast
      rw [this]; exact ih (by omega)
  have allV : ∀ k : Nat, k + 1 < m.Nx → ∀ l : Nat, l < m.Nz →
      onUnknowns m x (.v ((k : Int) + 1 + (l : Int) * (m.Nx + 1))) = 0 := by
    intro k hk l
    induction l with
    | zero =>
      intro hl
      have := X_v_out m x (k + 1) 0 (by omega) (by omega)
      push_cast at this ⊢
      exact this
    | succ l ih =>
      intro hl
      have := (cell k l hk (by omega)).2
      push_cast
      rw [this]; exact ih (by omega)
  intro n hn
  have hX : onUnknowns m x n = x n := by unfold onUnknowns; rw [if_pos hn]
  rw [← hX]
  have hn' := hn
  unfold velNodes at hn'
  simp only [mem_union, mem_image, mem_filter, mem_product, mem_range, Prod.exists] at hn'
  rcases hn' with ⟨k, l, ⟨⟨a, b⟩, ⟨c1, c2, c3, c4⟩, d⟩, rfl⟩ | ⟨k, l, ⟨⟨a, b⟩, ⟨c1, c2, c3, c4⟩, d⟩, rfl⟩
  · have := allU (l - 1) (by omega) k a
    rwa [show ((l - 1 : Nat) : Int) + 1 = l by omega] at this
  · have := allV (k - 1) (by omega) l b
    rwa [show ((k - 1 : Nat) : Int) + 1 = k by omega] at this

/-- C145.  Without air, with positive viscosities and without the combination of compressibility
and out-of-plane strain, only the field at rest does no work. -/
theorem viscous_work_pos (hv : Viscous m) (hb : ClosedBox m) (hs : StableOrOff m)
    (hdx : 0 < m.dx) (hdz : 0 < m.dz) (rock : AllRock m)
    (hco : ¬ (m.comp = true ∧ m.oop = true)) (hx : viscousWork m x = 0) :
    ∀ n ∈ velNodes m, x n = 0 := by
  rw [work_identity m x hv hb hdx.ne' hdz.ne'] at hx
  have hxy := (mul_eq_zero.1 hx).resolve_left (mul_ne_zero hdx.ne' hdz.ne')
  have n1 : 0 ≤ ∑ k ∈ range (m.Nx - 1), ∑ l ∈ range (m.Nz - 1),
      (tauxx m (mirroredU m x) (mirroredV m x) ((k : Int) + l * (m.Nx - 1)) *
        ((onUnknowns m x (.u ((k : Int) + 1 + ((l : Int) + 1) * m.Nx)) -
          onUnknowns m x (.u ((k : Int) + ((l : Int) + 1) * m.Nx))) / m.dx) +
       tauzz m (mirroredU m x) (mirroredV m x) ((k : Int) + l * (m.Nx - 1)) *
        ((onUnknowns m x (.v ((k : Int) + 1 + ((l : Int) + 1) * (m.Nx + 1))) -
          onUnknowns m x (.v ((k : Int) + 1 + (l : Int) * (m.Nx + 1)))) / m.dz)) := by
    refine Finset.sum_nonneg fun k hk => Finset.sum_nonneg fun l hl => ?_
    have hk' := mem_range.1 hk
    have hl' := mem_range.1 hl
    rw [cell_term m x hv k l (by omega) (by omega)]
    exact mul_nonneg (mul_nonneg (hv.cell k l (by omega) (by omega)) (by unfold flag; split <;> simp)) (form_bound _ _ _ _).1
  have n2 := Finset.sum_nonneg (s := range m.Nx) fun k hk => Finset.sum_nonneg (s := range m.Nz) fun l hl =>
      vertex_term m x hv k l (mem_range.1 hk) (mem_range.1 hl)
  have n3 : 0 ≤ ∑ k ∈ range m.Nx, ∑ l ∈ range (m.Nz + 1), xCorr m k l (xCoef (xIn m k l)).uC *
      onUnknowns m x (.u ((k : Int) + (l : Int) * m.Nx)) ^ 2 :=
    Finset.sum_nonneg fun k hk => Finset.sum_nonneg fun l hl =>
      xCorr_nonneg m x hs hdx k l (mem_range.1 hk) _
  have n4 : 0 ≤ ∑ k ∈ range (m.Nx + 1), ∑ l ∈ range m.Nz, zCorr m k l (zCoef (zIn m k l)) *
      onUnknowns m x (.v ((k : Int) + (l : Int) * (m.Nx + 1))) ^ 2 :=
    Finset.sum_nonneg fun k hk => Finset.sum_nonneg fun l hl =>
      zCorr_nonneg m x hs hdz k l (Nat.lt_succ_iff.1 (mem_range.1 hk)) _
  have z : ∑ k ∈ range (m.Nx - 1), ∑ l ∈ range (m.Nz - 1),
      (tauxx m (mirroredU m x) (mirroredV m x) ((k : Int) + l * (m.Nx - 1)) *
        ((onUnknowns m x (.u ((k : Int) + 1 + ((l : Int) + 1) * m.Nx)) -
          onUnknowns m x (.u ((k : Int) + ((l : Int) + 1) * m.Nx))) / m.dx) +
       tauzz m (mirroredU m x) (mirroredV m x) ((k : Int) + l * (m.Nx - 1)) *
        ((onUnknowns m x (.v ((k : Int) + 1 + ((l : Int) + 1) * (m.Nx + 1))) -
          onUnknowns m x (.v ((k : Int) + 1 + (l : Int) * (m.Nx + 1)))) / m.dz)) = 0 := by
    refine le_antisymm ?_ n1
    linarith [n2, n3, n4, hxy]
  have cell : ∀ k l : Nat, k + 1 < m.Nx → l + 1 < m.Nz →
      onUnknowns m x (.u ((k : Int) + 1 + ((l : Int) + 1) * m.Nx)) =
        onUnknowns m x (.u ((k : Int) + ((l : Int) + 1) * m.Nx)) ∧
      onUnknowns m x (.v ((k : Int) + 1 + ((l : Int) + 1) * (m.Nx + 1))) =
        onUnknowns m x (.v ((k : Int) + 1 + (l : Int) * (m.Nx + 1))) := by
    intro k l hk hl
    have nn : ∀ k ∈ range (m.Nx - 1), ∀ l ∈ range (m.Nz - 1), 0 ≤
      (tauxx m (mirroredU m x) (mirroredV m x) ((k : Int) + l * (m.Nx - 1)) *
        ((onUnknowns m x (.u ((k : Int) + 1 + ((l : Int) + 1) * m.Nx)) -
          onUnknowns m x (.u ((k : Int) + ((l : Int) + 1) * m.Nx))) / m.dx) +
       tauzz m (mirroredU m x) (mirroredV m x) ((k : Int) + l * (m.Nx - 1)) *
        ((onUnknowns m x (.v ((k : Int) + 1 + ((l : Int) + 1) * (m.Nx + 1))) -
          onUnknowns m x (.v ((k : Int) + 1 + (l : Int) * (m.Nx + 1)))) / m.dz)) := by
      intro k hk l hl
      have hk' := mem_range.1 hk
      have hl' := mem_range.1 hl
      rw [cell_term m x hv k l (by omega) (by omega)]
      exact mul_nonneg (mul_nonneg (hv.cell k l (by omega) (by omega)) (by unfold flag; split <;> simp)) (form_bound _ _ _ _).1
    have z1 := (Finset.sum_eq_zero_iff_of_nonneg (fun k hk => Finset.sum_nonneg (nn k hk))).1 z k
      (mem_range.2 (by omega))
    have z2 := (Finset.sum_eq_zero_iff_of_nonneg (nn k (mem_range.2 (by omega)))).1 z1 l
      (mem_range.2 (by omega))
    rw [cell_term m x hv k l hk hl] at z2
    have f1 : (flag (m.tp ((k : Int) + l * (m.Nx - 1)) == -1) : K) = 1 := by simp [flag, (rock k l hk hl).1]
    rw [f1, mul_one] at z2
    have z3 := (mul_eq_zero.1 z2).resolve_left (rock k l hk hl).2.ne'
    have fb := (form_bound m.comp m.oop
      ((onUnknowns m x (.u ((k : Int) + 1 + ((l : Int) + 1) * m.Nx)) -
          onUnknowns m x (.u ((k : Int) + ((l : Int) + 1) * m.Nx))) / m.dx)
      ((onUnknowns m x (.v ((k : Int) + 1 + ((l : Int) + 1) * (m.Nx + 1))) -
          onUnknowns m x (.v ((k : Int) + 1 + (l : Int) * (m.Nx + 1)))) / m.dz)).2 hco
    rw [z3] at fb
    have q1 := sq_nonneg ((onUnknowns m x (.u ((k : Int) + 1 + ((l : Int) + 1) * m.Nx)) -
          onUnknowns m x (.u ((k : Int) + ((l : Int) + 1) * m.Nx))) / m.dx)
    have q2 := sq_nonneg ((onUnknowns m x (.v ((k : Int) + 1 + ((l : Int) + 1) * (m.Nx + 1))) -
          onUnknowns m x (.v ((k : Int) + 1 + (l : Int) * (m.Nx + 1)))) / m.dz)
    have r1 := pow_eq_zero_iff (two_ne_zero) |>.1 (le_antisymm (by linarith) q1)
    have r2 := pow_eq_zero_iff (two_ne_zero) |>.1 (le_antisymm (by linarith) q2)
    exact ⟨sub_eq_zero.1 ((div_eq_zero_iff.1 r1).resolve_right hdx.ne'),
      sub_eq_zero.1 ((div_eq_zero_iff.1 r2).resolve_right hdz.ne')⟩
  exact rest_of_cells m x cell

/-- C145.  Under the same conditions the momentum equations determine the velocity: two velocity
fields with the same viscous forces on all unknown nodes are equal. -/
theorem velocity_determined (hv : Viscous m) (hb : ClosedBox m) (hs : StableOrOff m)
    (hdx : 0 < m.dx) (hdz : 0 < m.dz) (rock : AllRock m)
    (hco : ¬ (m.comp = true ∧ m.oop = true)) (y z : SNode → K)
    (same : ∀ d ∈ velNodes m, ∑ e ∈ velNodes m, coeff (velRow m d) e * y e =
      ∑ e ∈ velNodes m, coeff (velRow m d) e * z e) : ∀ n ∈ velNodes m, y n = z n := by
  have h := viscous_work_pos m (fun n => y n - z n) hv hb hs hdx hdz rock hco (by
    unfold viscousWork
    refine Finset.sum_eq_zero fun d hd => ?_
    have e : ∀ e ∈ velNodes m, (y d - z d) * coeff (velRow m d) e * (y e - z e) =
        (y d - z d) * (coeff (velRow m d) e * y e - coeff (velRow m d) e * z e) := fun _ _ => by ring
    rw [Finset.sum_congr rfl e, ← Finset.mul_sum, Finset.sum_sub_distrib, same d hd]
    ring)
  exact fun n hn => sub_eq_zero.1 (h n hn)

end positive

end Verif
