import Verif.Props.Dissipation
import Verif.Props.DissipationSolver
import Verif.Props.Flagging

/- C146: one flow for a model with topography, and the loose cell that spoils it. -/
namespace Verif
open Finset

variable {K : Type*} [Field K] [LinearOrder K] [CharZero K] [IsStrictOrderedRing K] (m : SMesh K)
  (x : SNode → K)

/-- Where no work is done the four sums of the work identity vanish term by term. -/
theorem rest_terms (hv : Viscous m) (hb : ClosedBox m) (hs : StableOrOff m)
    (hdx : 0 < m.dx) (hdz : 0 < m.dz) (hx : viscousWork m x = 0) :
    (∀ k l : Nat, k + 1 < m.Nx → l + 1 < m.Nz →
      tauxx m (mirroredU m x) (mirroredV m x) ((k : Int) + l * (m.Nx - 1)) *
        ((onUnknowns m x (.u ((k : Int) + 1 + ((l : Int) + 1) * m.Nx)) -
          onUnknowns m x (.u ((k : Int) + ((l : Int) + 1) * m.Nx))) / m.dx) +
       tauzz m (mirroredU m x) (mirroredV m x) ((k : Int) + l * (m.Nx - 1)) *
        ((onUnknowns m x (.v ((k : Int) + 1 + ((l : Int) + 1) * (m.Nx + 1))) -
          onUnknowns m x (.v ((k : Int) + 1 + (l : Int) * (m.Nx + 1)))) / m.dz) = 0) ∧
    (∀ k l : Nat, k < m.Nx → l < m.Nz →
      tauxz m (mirroredU m x) (mirroredV m x) ((k : Int) + l * m.Nx) *
      ((onUnknowns m x (.u ((k : Int) + ((l : Int) + 1) * m.Nx)) -
          onUnknowns m x (.u ((k : Int) + (l : Int) * m.Nx))) / m.dz +
        (onUnknowns m x (.v ((k : Int) + 1 + (l : Int) * (m.Nx + 1))) -
          onUnknowns m x (.v ((k : Int) + (l : Int) * (m.Nx + 1)))) / m.dx) = 0) := by
  rw [work_identity m x hv hb hdx.ne' hdz.ne'] at hx
  have hxy := (mul_eq_zero.1 hx).resolve_left (mul_ne_zero hdx.ne' hdz.ne')
  have c1 : ∀ k ∈ range (m.Nx - 1), ∀ l ∈ range (m.Nz - 1), 0 ≤
      (tauxx m (mirroredU m x) (mirroredV m x) ((k : Int) + l * (m.Nx - 1)) *
        ((onUnknowns m x (.u ((k : Int) + 1 + ((l : Int) + 1) * m.Nx)) -
          onUnknowns m x (.u ((k : Int) + ((l : Int) + 1) * m.Nx))) / m.dx) +
       tauzz m (mirroredU m x) (mirroredV m x) ((k : Int) + l * (m.Nx - 1)) *
        ((onUnknowns m x (.v ((k : Int) + 1 + ((l : Int) + 1) * (m.Nx + 1))) -
          onUnknowns m x (.v ((k : Int) + 1 + (l : Int) * (m.Nx + 1)))) / m.dz)) := by
    intro k hk l hl
    have hk' := mem_range.1 hk
    have hl' := mem_range.1 hl
    rw [cell_term m x hv k l (by omega) (by omega)]
    exact mul_nonneg (mul_nonneg (hv.cell k l (by omega) (by omega)) (by unfold flag; split <;> simp)) (form_bound _ _ _ _).1
  have c2 : ∀ k ∈ range m.Nx, ∀ l ∈ range m.Nz, 0 ≤
      tauxz m (mirroredU m x) (mirroredV m x) ((k : Int) + l * m.Nx) *
      ((onUnknowns m x (.u ((k : Int) + ((l : Int) + 1) * m.Nx)) -
          onUnknowns m x (.u ((k : Int) + (l : Int) * m.Nx))) / m.dz +
        (onUnknowns m x (.v ((k : Int) + 1 + (l : Int) * (m.Nx + 1))) -
          onUnknowns m x (.v ((k : Int) + (l : Int) * (m.Nx + 1)))) / m.dx) :=
    fun k hk l hl => vertex_term m x hv k l (mem_range.1 hk) (mem_range.1 hl)
  have n1 := Finset.sum_nonneg fun k hk => Finset.sum_nonneg (c1 k hk)
  have n2 := Finset.sum_nonneg fun k hk => Finset.sum_nonneg (c2 k hk)
  have n3 : 0 ≤ ∑ k ∈ range m.Nx, ∑ l ∈ range (m.Nz + 1), xCorr m k l (xCoef (xIn m k l)).uC *
      onUnknowns m x (.u ((k : Int) + (l : Int) * m.Nx)) ^ 2 :=
    Finset.sum_nonneg fun k hk => Finset.sum_nonneg fun l hl =>
      xCorr_nonneg m x hs hdx k l (mem_range.1 hk) _
  have n4 : 0 ≤ ∑ k ∈ range (m.Nx + 1), ∑ l ∈ range m.Nz, zCorr m k l (zCoef (zIn m k l)) *
      onUnknowns m x (.v ((k : Int) + (l : Int) * (m.Nx + 1))) ^ 2 :=
    Finset.sum_nonneg fun k hk => Finset.sum_nonneg fun l hl =>
      zCorr_nonneg m x hs hdz k l (Nat.lt_succ_iff.1 (mem_range.1 hk)) _
  constructor
  · intro k l hk hl
    have z := le_antisymm (by linarith [n2, n3, n4, hxy]) n1
    have z1 := (Finset.sum_eq_zero_iff_of_nonneg (fun k hk => Finset.sum_nonneg (c1 k hk))).1 z k
      (mem_range.2 (by omega))
    exact (Finset.sum_eq_zero_iff_of_nonneg (c1 k (mem_range.2 (by omega)))).1 z1 l
      (mem_range.2 (by omega))
  · intro k l hk hl
    have z := le_antisymm (by linarith [n1, n3, n4, hxy]) n2
    have z1 := (Finset.sum_eq_zero_iff_of_nonneg (fun k hk => Finset.sum_nonneg (c2 k hk))).1 z k
      (mem_range.2 hk)
    exact (Finset.sum_eq_zero_iff_of_nonneg (c2 k (mem_range.2 hk))).1 z1 l (mem_range.2 hl)

/-- Where no work is done, viscous rock cells do not stretch. -/
theorem rest_cell (hv : Viscous m) (hdx : 0 < m.dx) (hdz : 0 < m.dz)
    (hco : ¬ (m.comp = true ∧ m.oop = true)) (k l : Nat) (hk : k + 1 < m.Nx) (hl : l + 1 < m.Nz)
    (rock : RockCell m k l) (pos : 0 < m.D11 ((k : Int) + l * (m.Nx - 1)))
    (z2 : tauxx m (mirroredU m x) (mirroredV m x) ((k : Int) + l * (m.Nx - 1)) *
        ((onUnknowns m x (.u ((k : Int) + 1 + ((l : Int) + 1) * m.Nx)) -
          onUnknowns m x (.u ((k : Int) + ((l : Int) + 1) * m.Nx))) / m.dx) +
       tauzz m (mirroredU m x) (mirroredV m x) ((k : Int) + l * (m.Nx - 1)) *
        ((onUnknowns m x (.v ((k : Int) + 1 + ((l : Int) + 1) * (m.Nx + 1))) -
          onUnknowns m x (.v ((k : Int) + 1 + (l : Int) * (m.Nx + 1)))) / m.dz) = 0) :
    onUnknowns m x (.u ((k : Int) + 1 + ((l : Int) + 1) * m.Nx)) =
        onUnknowns m x (.u ((k : Int) + ((l : Int) + 1) * m.Nx)) ∧
      onUnknowns m x (.v ((k : Int) + 1 + ((l : Int) + 1) * (m.Nx + 1))) =
        onUnknowns m x (.v ((k : Int) + 1 + (l : Int) * (m.Nx + 1))) := by
  rw [cell_term m x hv k l hk hl] at z2
  have f1 : (flag (m.tp ((k : Int) + l * (m.Nx - 1)) == -1) : K) = 1 := by
    have : m.tp ((k : Int) + l * (m.Nx - 1)) = -1 := rock
    simp [flag, this]
  rw [f1, mul_one] at z2
  have z3 := (mul_eq_zero.1 z2).resolve_left pos.ne'
  have fb := (form_bound m.comp m.oop
    ((onUnknowns m x (.u ((k : Int) + 1 + ((l : Int) + 1) * m.Nx)) -
        onUnknowns m x (.u ((k : Int) + ((l : Int) + 1) * m.Nx))) / m.dx)
    ((onUnknowns m x (.v ((k : Int) + 1 + ((l : Int) + 1) * (m.Nx + 1))) -
        onUnknowns m x (.v ((k : Int) + 1 + (l : Int) * (m.Nx + 1)))) / m.dz)).2 hco
  rw [z3] at fb
  have q1 := sq_nonneg ((onUnknowns m x (.u ((k : Int) + 1 + ((l : Int) + 1) * m.Nx)) -
        onUnknowns m x (.u ((k : Int) + ((l : Int) + 1) * m.Nx))) / m.dx)
  have q2 := sq_nonneg ((onUnknowns m x (.v ((k : Int) + 1 + ((l : Int) + 1) * (m.Nx + 1))) -
        onUnknowns m x (.v ((k : Int) + 1 + (l : Int) * (m.Nx + 1)))) / m.dz)
  have r1 := pow_eq_zero_iff (two_ne_zero) |>.1 (le_antisymm (by linarith) q1)
  have r2 := pow_eq_zero_iff (two_ne_zero) |>.1 (le_antisymm (by linarith) q2)
  exact ⟨sub_eq_zero.1 ((div_eq_zero_iff.1 r1).resolve_right hdx.ne'),
    sub_eq_zero.1 ((div_eq_zero_iff.1 r2).resolve_right hdz.ne')⟩

/-- Where no work is done, viscous vertices inside the box do not shear. -/
theorem rest_vertex (k l : Nat) (hk0 : 0 < k) (hk : k + 1 < m.Nx) (hl0 : 0 < l) (hl : l + 1 < m.Nz)
    (act : m.tg ((k : Int) + l * m.Nx) ≠ 30) (pos : 0 < m.D33 ((k : Int) + l * m.Nx))
    (z : tauxz m (mirroredU m x) (mirroredV m x) ((k : Int) + l * m.Nx) *
      ((onUnknowns m x (.u ((k : Int) + ((l : Int) + 1) * m.Nx)) -
          onUnknowns m x (.u ((k : Int) + (l : Int) * m.Nx))) / m.dz +
        (onUnknowns m x (.v ((k : Int) + 1 + (l : Int) * (m.Nx + 1))) -
          onUnknowns m x (.v ((k : Int) + (l : Int) * (m.Nx + 1)))) / m.dx) = 0) :
    (onUnknowns m x (.u ((k : Int) + ((l : Int) + 1) * m.Nx)) -
          onUnknowns m x (.u ((k : Int) + (l : Int) * m.Nx))) / m.dz +
        (onUnknowns m x (.v ((k : Int) + 1 + (l : Int) * (m.Nx + 1))) -
          onUnknowns m x (.v ((k : Int) + (l : Int) * (m.Nx + 1)))) / m.dx = 0 := by
  rw [tauxz_mk m _ _ k l (by omega) (by omega)] at z
  have a1 := mirroredU_in m x k (l + 1) (by omega) (by omega) (by omega)
  have a0 := mirroredU_in m x k l (by omega) (by omega) (by omega)
  have b1 := mirroredV_in m x (k + 1) l (by omega) (by omega)
  have b0 := mirroredV_in m x k l (by omega) (by omega)
  push_cast at a1 b1
  rw [a1, a0, b1, b0] at z
  have f1 : (flag (m.tg ((k : Int) + l * m.Nx) != 30) : K) = 1 := by simp [flag, act]
  rw [f1, mul_one, mul_assoc] at z
  have := (mul_eq_zero.1 z).resolve_left pos.ne'
  exact mul_self_eq_zero.1 this

/-- With topography, the field is at rest if no rock cell stretches and no viscous vertex shears. -/
theorem rest_of_terrain (hdz : 0 < m.dz) (ht : Terrain m)
    (cell : ∀ k l : Nat, k + 1 < m.Nx → l + 1 < m.Nz → RockCell m k l →
      onUnknowns m x (.u ((k : Int) + 1 + ((l : Int) + 1) * m.Nx)) =
        onUnknowns m x (.u ((k : Int) + ((l : Int) + 1) * m.Nx)) ∧
      onUnknowns m x (.v ((k : Int) + 1 + ((l : Int) + 1) * (m.Nx + 1))) =
        onUnknowns m x (.v ((k : Int) + 1 + (l : Int) * (m.Nx + 1))))
    (hg : ∀ k l : Nat, 0 < k → k + 1 < m.Nx → 0 < l → l + 1 < m.Nz → m.tg ((k : Int) + l * m.Nx) ≠ 30 →
      0 < m.D33 ((k : Int) + l * m.Nx) →
      (onUnknowns m x (.u ((k : Int) + ((l : Int) + 1) * m.Nx)) -
          onUnknowns m x (.u ((k : Int) + (l : Int) * m.Nx))) / m.dz +
        (onUnknowns m x (.v ((k : Int) + 1 + (l : Int) * (m.Nx + 1))) -
          onUnknowns m x (.v ((k : Int) + (l : Int) * (m.Nx + 1)))) / m.dx = 0) :
    ∀ n ∈ velNodes m, x n = 0 := by
  -- vertical velocities, column by column
  have colV : ∀ k : Nat, k + 1 < m.Nx → ∀ l : Nat, l + 1 < m.Nz → RockCell m k l →
      onUnknowns m x (.v ((k : Int) + 1 + ((l : Int) + 1) * (m.Nx + 1))) = 0 ∧
      onUnknowns m x (.v ((k : Int) + 1 + (l : Int) * (m.Nx + 1))) = 0 := by
    intro k hk l
    induction l with
    | zero =>
      intro hl r
      have e := (cell k 0 hk hl r).2
      have z := X_v_out m x (k + 1) 0 (by omega) (by omega)
      push_cast at z e ⊢
      rw [e]; exact ⟨z, z⟩
    | succ l ih =>
      intro hl r
      have e := (cell k (l + 1) hk hl r).2
      have z := (ih (by omega) (ht.column k l hk (by omega) r)).1
      push_cast at z e ⊢
      rw [e]; exact ⟨z, z⟩
  have allV : ∀ k l : Nat, k ≤ m.Nx → l < m.Nz →
      onUnknowns m x (.v ((k : Int) + (l : Int) * (m.Nx + 1))) = 0 := by
    intro k l hk hl
    by_cases h : SNode.v ((k : Int) + l * (m.Nx + 1)) ∈ velNodes m
    · obtain ⟨⟨a, b, c, d⟩, t⟩ := (mem_v m k l hk).1 h
      rcases ht.v k l a b c d t with r | r
      · have z := (colV (k - 1) (by omega) (l - 1) (by omega) r).1
        rwa [show ((k - 1 : Nat) : Int) + 1 = k by omega, show ((l - 1 : Nat) : Int) + 1 = l by omega] at z
      · have z := (colV (k - 1) (by omega) l (by omega) r).2
        rwa [show ((k - 1 : Nat) : Int) + 1 = k by omega] at z
    · simp only [onUnknowns, if_neg h]
  -- horizontal velocities, row by row
  have rowU : ∀ l : Nat, l + 1 < m.Nz → ∀ k : Nat, k + 1 < m.Nx → RockCell m k l →
      onUnknowns m x (.u ((k : Int) + 1 + ((l : Int) + 1) * m.Nx)) = 0 ∧
      onUnknowns m x (.u ((k : Int) + ((l : Int) + 1) * m.Nx)) = 0 := by
    intro l
    induction l with
    | zero =>
      intro hl k
      have all : ∀ k : Nat, k < m.Nx → onUnknowns m x (.u ((k : Int) + ((0 : Nat) + 1) * m.Nx)) = 0 := by
        intro k
        induction k with
        | zero =>
          intro hk
          have := X_u_out m x 0 1 hk (by omega)
          push_cast at this ⊢
          simpa using this
        | succ k ih =>
          intro hk
          have e := (cell k 0 (by omega) hl (ht.base k (by omega) (by omega))).1
          have z := ih (by omega)
          push_cast at z e ⊢
          rw [e]; exact z
      intro hk r
      have z := all (k + 1) (by omega)
      have w := all k (by omega)
      push_cast at z w ⊢
      exact ⟨z, w⟩
    | succ l ih =>
      intro hl k hk r
      have e := (cell k (l + 1) hk hl r).1
      -- one of the two faces is held
      have held : onUnknowns m x (.u ((k : Int) + 1 + (((l + 1 : Nat) : Int) + 1) * m.Nx)) = 0 ∨
          onUnknowns m x (.u ((k : Int) + (((l + 1 : Nat) : Int) + 1) * m.Nx)) = 0 := by
        have tie : ∀ i : Nat, 0 < i → i + 1 < m.Nx → RockCell m (i - 1) (l + 1) → RockCell m i (l + 1) →
            onUnknowns m x (.u ((i : Int) + (((l + 1 : Nat) : Int) + 1) * m.Nx)) = 0 := by
          intro i hi0 hi r1 r2
          have q1 := ht.column (i - 1) l (by omega) (by omega) r1
          have q2 := ht.column i l (by omega) (by omega) r2
          obtain ⟨act, pos⟩ := ht.vertex i (l + 1) hi0 hi (by omega) hl q1 q2 r1 r2
          have s := hg i (l + 1) hi0 hi (by omega) hl act pos
          have v0 := allV i (l + 1) (by omega) (by omega)
          have v1 := allV (i + 1) (l + 1) (by omega) (by omega)
          have w := (ih (by omega) i hi q2).2
          push_cast at s v0 v1 w ⊢
          rw [v0, v1, w] at s
          have s' : onUnknowns m x (.u ((i : Int) + ((l : Int) + 1 + 1) * m.Nx)) / m.dz = 0 := by
            simpa using s
          exact (div_eq_zero_iff.1 s').resolve_right hdz.ne'
        rcases ht.tied k (l + 1) hk hl (by omega) r with h | h | h | h
        · right; subst h
          have := X_u_out m x 0 (l + 2) (by omega) (by omega)
          push_cast at this ⊢
          rwa [show (l : Int) + 1 + 1 = (l : Int) + 2 by ring]
        · left
          have := X_u_out m x (k + 1) (l + 2) (by omega) (by omega)
          push_cast at this ⊢
          rwa [show (l : Int) + 1 + 1 = (l : Int) + 2 by ring]
        · by_cases k0 : k = 0
          · right; subst k0
            have := X_u_out m x 0 (l + 2) (by omega) (by omega)
            push_cast at this ⊢
            rwa [show (l : Int) + 1 + 1 = (l : Int) + 2 by ring]
          · exact Or.inr (tie k (by omega) hk h r)
        · by_cases k1 : k + 2 = m.Nx
          · left
            have := X_u_out m x (k + 1) (l + 2) (by omega) (by omega)
            push_cast at this ⊢
            rwa [show (l : Int) + 1 + 1 = (l : Int) + 2 by ring]
          · left
            have := tie (k + 1) (by omega) (by omega) r h
            push_cast at this ⊢
            exact this
      rcases held with h | h
      · exact ⟨h, by rw [← e]; exact h⟩
      · exact ⟨by rw [e]; exact h, h⟩
  intro n hn
  have hX : onUnknowns m x n = x n := by unfold onUnknowns; rw [if_pos hn]
  rw [← hX]
  have hn' := hn
  unfold velNodes at hn'
  simp only [mem_union, mem_image, mem_filter, mem_product, mem_range, Prod.exists] at hn'
  rcases hn' with ⟨k, l, ⟨⟨a, b⟩, ⟨c1, c2, c3, c4⟩, d⟩, rfl⟩ | ⟨k, l, ⟨⟨a, b⟩, ⟨c1, c2, c3, c4⟩, d⟩, rfl⟩
  · rcases ht.u k l c1 c2 c3 c4 d with r | r
    · have := (rowU (l - 1) (by omega) (k - 1) (by omega) r).1
      rwa [show ((k - 1 : Nat) : Int) + 1 = k by omega, show ((l - 1 : Nat) : Int) + 1 = l by omega] at this
    · have := (rowU (l - 1) (by omega) k (by omega) r).2
      rwa [show ((l - 1 : Nat) : Int) + 1 = l by omega] at this
  · exact allV k l (by omega) b

/-- C146.  With topography, only the field at rest does no work. -/
theorem terrain_work_pos (hv : Viscous m) (hb : ClosedBox m) (hs : StableOrOff m)
    (hdx : 0 < m.dx) (hdz : 0 < m.dz) (ht : Terrain m)
    (hco : ¬ (m.comp = true ∧ m.oop = true)) (hx : viscousWork m x = 0) :
    ∀ n ∈ velNodes m, x n = 0 := by
  obtain ⟨hc, hg⟩ := rest_terms m x hv hb hs hdx hdz hx
  have cell := fun (k l : Nat) (hk : k + 1 < m.Nx) (hl : l + 1 < m.Nz) (r : RockCell m k l) =>
    rest_cell m x hv hdx hdz hco k l hk hl r (ht.viscous k l hk hl r) (hc k l hk hl)
  exact rest_of_terrain m x hdz ht cell fun k l k0 hk l0 hl act pos =>
    rest_vertex m x k l k0 hk l0 hl act pos (hg k l (by omega) (by omega))

/-- A field that does no work exerts no forces: the block is symmetric and never does negative
work. -/
theorem no_work_no_force (hv : Viscous m) (hb : ClosedBox m) (hs : StableOrOff m)
    (hdx : 0 < m.dx) (hdz : 0 < m.dz) (hx : viscousWork m x = 0) :
    ∀ d ∈ velNodes m, ∑ e ∈ velNodes m, coeff (velRow m d) e * x e = 0 := by
  intro d hd
  set f := ∑ e ∈ velNodes m, coeff (velRow m d) e * x e with hf
  set q := coeff (velRow m d) d with hq
  -- x + t d has work 2 t f + t² q
  have work : ∀ t : K, viscousWork m (fun n => x n + if n = d then t else 0) = 2 * t * f + t ^ 2 * q := by
    intro t
    have ex : ∀ a b : SNode, (x a + if a = d then t else 0) * coeff (velRow m a) b * (x b + if b = d then t else 0) =
        x a * coeff (velRow m a) b * x b + (if a = d then t * (coeff (velRow m a) b * x b) else 0) +
        (if b = d then t * (x a * coeff (velRow m a) b) else 0) +
        (if a = d then (if b = d then t ^ 2 * coeff (velRow m a) b else 0) else 0) := by
      intro a b
      split <;> split <;> ring
    unfold viscousWork
    simp only [ex, Finset.sum_add_distrib]
    have s1 : ∑ a ∈ velNodes m, ∑ b ∈ velNodes m, (if a = d then t * (coeff (velRow m a) b * x b) else 0) = t * f := by
      rw [Finset.sum_comm]
      rw [hf, Finset.mul_sum]
      refine Finset.sum_congr rfl fun b _ => ?_
      rw [Finset.sum_ite_eq' (velNodes m) d, if_pos hd]
    have s2 : ∑ a ∈ velNodes m, ∑ b ∈ velNodes m, (if b = d then t * (x a * coeff (velRow m a) b) else 0) = t * f := by
      rw [hf, Finset.mul_sum]
      refine Finset.sum_congr rfl fun a ha => ?_
      rw [Finset.sum_ite_eq' (velNodes m) d, if_pos hd]
      rw [stokes_velocity_block_symmetric m hv.iso hv.air hb.notPeriodic _ _ _ _
        (velRow_of_mem m _ ha) (velRow_of_mem m _ hd)]
      ring
    have s3 : ∑ a ∈ velNodes m, ∑ b ∈ velNodes m,
        (if a = d then (if b = d then t ^ 2 * coeff (velRow m a) b else 0) else 0) = t ^ 2 * q := by
      have : ∀ a ∈ velNodes m, ∑ b ∈ velNodes m,
          (if a = d then (if b = d then t ^ 2 * coeff (velRow m a) b else 0) else 0) =
          if a = d then t ^ 2 * q else 0 := by
        intro a _
        by_cases h : a = d
        · subst h
          simp only [if_true]
          rw [Finset.sum_ite_eq' (velNodes m) a, if_pos hd]
        · simp [h]
      rw [Finset.sum_congr rfl this, Finset.sum_ite_eq' (velNodes m) d, if_pos hd]
    unfold viscousWork at hx
    rw [s1, s2, s3, hx]
    ring
  have pos : ∀ t : K, 0 ≤ 2 * t * f + t ^ 2 * q := fun t => by
    rw [← work t]; exact viscous_work_nonneg_partial m _ hv hb hs hdx hdz
  by_contra hne
  have hq0 : 0 ≤ q ∨ q < 0 := le_or_gt 0 q
  rcases hq0 with h | h
  · have e : (0 : K) < q + 1 := by linarith
    have p := pos (-f / (q + 1))
    have : 2 * (-f / (q + 1)) * f + (-f / (q + 1)) ^ 2 * q = -(f ^ 2 * (q + 2)) / (q + 1) ^ 2 := by
      field_simp; ring
    rw [this] at p
    have : -(f ^ 2 * (q + 2)) / (q + 1) ^ 2 < 0 := by
      refine div_neg_of_neg_of_pos ?_ (by positivity)
      have : 0 < f ^ 2 := by positivity
      nlinarith
    linarith
  · have p := pos (-f)
    have : 0 < f ^ 2 := by positivity
    nlinarith

/-- The cell in column `k`, row `l` slides sideways, everything else rests. -/
def slide (k l : Nat) : SNode → K
  | .u i => if i = (k : Int) + ((l : Int) + 1) * m.Nx ∨ i = (k : Int) + 1 + ((l : Int) + 1) * m.Nx then 1 else 0
  | _ => 0

omit [CharZero K] [IsStrictOrderedRing K] in
theorem slide_u (k l : Nat) (hk0 : 0 < k) (hk : k + 2 < m.Nx) (hl : l + 1 < m.Nz)
    (hu : m.tu ((k : Int) + ((l : Int) + 1) * m.Nx) = -1)
    (hu' : m.tu ((k : Int) + 1 + ((l : Int) + 1) * m.Nx) = -1) (i j : Nat) (hi : i < m.Nx) :
    onUnknowns m (slide m k l) (.u ((i : Int) + (j : Int) * m.Nx)) =
      if (i = k ∨ i = k + 1) ∧ j = l + 1 then 1 else 0 := by
  have N0 : (0 : Int) < m.Nx := by omega
  have col : ∀ a : Nat, a < m.Nx → ∀ b c : Nat, (i : Int) + b * m.Nx = (a : Int) + c * m.Nx → i = a ∧ b = c := by
    intro a ha b c e
    have h1 := colOf_mk (m.Nx : Int) i b (by omega) (by omega)
    have h2 := colOf_mk (m.Nx : Int) a c (by omega) (by omega)
    have h3 := rowOf_mk (m.Nx : Int) i b (by omega) (by omega)
    have h4 := rowOf_mk (m.Nx : Int) a c (by omega) (by omega)
    rw [e] at h1 h3
    rw [h1] at h2
    rw [h3] at h4
    exact ⟨by exact_mod_cast h2, by exact_mod_cast h4⟩
  by_cases h : (i = k ∨ i = k + 1) ∧ j = l + 1
  · rw [if_pos h]
    obtain ⟨h, rfl⟩ := h
    have mem : SNode.u ((i : Int) + ((l + 1 : Nat) : Int) * m.Nx) ∈ velNodes m := by
      refine (mem_u m i (l + 1) hi).2 ⟨⟨by omega, by omega, by omega, by omega⟩, ?_⟩
      rcases h with rfl | rfl
      · push_cast; exact hu
      · push_cast; exact hu'
    unfold onUnknowns
    rw [if_pos mem]
    simp only [slide]
    rw [if_pos]
    rcases h with rfl | rfl
    · left; push_cast; ring
    · right; push_cast; ring
  · rw [if_neg h]
    unfold onUnknowns
    split
    · simp only [slide]
      rw [if_neg]
      rintro (e | e)
      · have := col k (by omega) j (l + 1) (by push_cast; linarith)
        exact h ⟨Or.inl this.1, this.2⟩
      · have := col (k + 1) (by omega) j (l + 1) (by push_cast; linarith)
        exact h ⟨Or.inr this.1, this.2⟩
    · rfl

omit [CharZero K] [IsStrictOrderedRing K] in
theorem slide_v (k l : Nat) (i : Int) : onUnknowns m (slide m k l) (.v i) = 0 := by
  unfold onUnknowns
  split <;> rfl

/-- C146, where it fails.  A loose cell (nothing holds it, see `Loose`) can slide: its sideways motion
is a velocity field that is not zero, causes no force on any node, and leaves every continuity equation
satisfied.  So the equations do not determine the flow. -/
theorem loose_cell_slides (hv : Viscous m) (hb : ClosedBox m) (hoff : m.stab = false)
    (hdx : 0 < m.dx) (hdz : 0 < m.dz) (k l : Nat) (hk0 : 0 < k) (hk : k + 2 < m.Nx)
    (hl : l + 1 < m.Nz) (hloose : Loose m k l)
    (hu : m.tu ((k : Int) + ((l : Int) + 1) * m.Nx) = -1)
    (hu' : m.tu ((k : Int) + 1 + ((l : Int) + 1) * m.Nx) = -1) :
    ∃ x : SNode → K, (∃ n ∈ velNodes m, x n ≠ 0) ∧
      (∀ d ∈ velNodes m, ∑ e ∈ velNodes m, coeff (velRow m d) e * x e = 0) ∧
      ∀ i j : Nat, i + 1 < m.Nx → j + 1 < m.Nz → RockCell m i j →
        ∑ e ∈ velNodes m, coeff (cStencil m i j) e * x e = 0 := by
  have su := slide_u m k l hk0 hk hl hu hu'
  have sv := slide_v m k l
  have hs : StableOrOff m := fun h => by rw [hoff] at h; cases h
  -- stretching of a rock cell
  have noStretch : ∀ i j : Nat, i + 1 < m.Nx → RockCell m i j →
      onUnknowns m (slide m k l) (.u ((i : Int) + 1 + ((j : Int) + 1) * m.Nx)) -
        onUnknowns m (slide m k l) (.u ((i : Int) + ((j : Int) + 1) * m.Nx)) = 0 := by
    intro i j hi r
    have a := su (i + 1) (j + 1) hi
    have b := su i (j + 1) (by omega)
    push_cast at a b
    rw [a, b]
    by_cases hj : j = l
    · subst hj
      by_cases h1 : i = k
      · subst h1; simp
      · by_cases h2 : i = k + 1
        · subst h2; exact absurd r hloose.east
        · by_cases h3 : i + 1 = k
          · have : i = k - 1 := by omega
            subst this; exact absurd r hloose.west
          · rw [if_neg (by omega), if_neg (by omega), sub_zero]
    · rw [if_neg (by omega), if_neg (by omega), sub_zero]
  refine ⟨slide m k l, ⟨.u ((k : Int) + ((l + 1 : Nat) : Int) * m.Nx), ?_, ?_⟩, ?_, ?_⟩
  · exact (mem_u m k (l + 1) (by omega)).2 ⟨⟨hk0, by omega, by omega, by omega⟩, by push_cast; exact hu⟩
  · simp [slide]
  · refine no_work_no_force m _ hv hb hs hdx hdz ?_
    rw [work_identity m _ hv hb hdx.ne' hdz.ne']
    have z1 : ∀ a ∈ range (m.Nx - 1), ∀ b ∈ range (m.Nz - 1),
      (tauxx m (mirroredU m (slide m k l)) (mirroredV m (slide m k l)) ((a : Int) + b * (m.Nx - 1)) *
        ((onUnknowns m (slide m k l) (.u ((a : Int) + 1 + ((b : Int) + 1) * m.Nx)) -
          onUnknowns m (slide m k l) (.u ((a : Int) + ((b : Int) + 1) * m.Nx))) / m.dx) +
       tauzz m (mirroredU m (slide m k l)) (mirroredV m (slide m k l)) ((a : Int) + b * (m.Nx - 1)) *
        ((onUnknowns m (slide m k l) (.v ((a : Int) + 1 + ((b : Int) + 1) * (m.Nx + 1))) -
          onUnknowns m (slide m k l) (.v ((a : Int) + 1 + (b : Int) * (m.Nx + 1)))) / m.dz)) = 0 := by
      intro a ha b hb'
      have ha' := mem_range.1 ha
      have hb'' := mem_range.1 hb'
      rw [cell_term m _ hv a b (by omega) (by omega)]
      by_cases r : RockCell m a b
      · have e := noStretch a b (by omega) r
        rw [e]
        simp only [sv]
        simp
      · have f0 : (flag (m.tp ((a : Int) + b * (m.Nx - 1)) == -1) : K) = 0 := by
          have : ¬ m.tp ((a : Int) + b * (m.Nx - 1)) = -1 := r
          simp [flag, this]
        rw [f0]; ring
    have z2 : ∀ a ∈ range m.Nx, ∀ b ∈ range m.Nz,
        tauxz m (mirroredU m (slide m k l)) (mirroredV m (slide m k l)) ((a : Int) + b * m.Nx) *
        ((onUnknowns m (slide m k l) (.u ((a : Int) + ((b : Int) + 1) * m.Nx)) -
            onUnknowns m (slide m k l) (.u ((a : Int) + (b : Int) * m.Nx))) / m.dz +
          (onUnknowns m (slide m k l) (.v ((a : Int) + 1 + (b : Int) * (m.Nx + 1))) -
            onUnknowns m (slide m k l) (.v ((a : Int) + (b : Int) * (m.Nx + 1)))) / m.dx) = 0 := by
      intro a ha b hb'
      have ha' := mem_range.1 ha
      by_cases c : (a = k ∨ a = k + 1) ∧ (b = l ∨ b = l + 1)
      · rw [tauxz_mk m _ _ a b (by omega) (by omega)]
        have f0 : (flag (m.tg ((a : Int) + b * m.Nx) != 30) : K) = 0 := by
          simp [flag, hloose.corner a b c.1 c.2]
        rw [f0]; ring
      · have p := su a (b + 1) ha'
        have q := su a b ha'
        push_cast at p
        rw [p, q, sv, sv, if_neg (by omega), if_neg (by omega)]
        simp
    have z3 : ∀ (a b : Nat) (c y : K), xCorr m a b c * y = 0 := by
      intro a b c y; simp [xCorr, hoff]
    have z4 : ∀ (a b : Nat) (c : ZCoef K) (y : K), zCorr m a b c * y = 0 := by
      intro a b c y; simp [zCorr, hoff]
    have t1 := Finset.sum_eq_zero fun a ha => Finset.sum_eq_zero (z1 a ha)
    have t2 := Finset.sum_eq_zero fun a ha => Finset.sum_eq_zero (z2 a ha)
    dsimp only
    rw [t1, t2]
    simp only [z3, z4, Finset.sum_const_zero, add_zero, mul_zero]
  · intro i j hi hj r
    rw [← applyTo_unknowns]
    have e := noStretch i j hi r
    have drop : ∀ (b : Bool) (n : SNode) (a : K), (b = false → onUnknowns m (slide m k l) n = 0) →
        applyTo (onUnknowns m (slide m k l)) (guarded b n a) = a * onUnknowns m (slide m k l) n := by
      intro b n a h
      cases b
      · simp [guarded, applyTo, h rfl]
      · simp [guarded, applyTo]
    have off : ∀ i : Int, (m.tu i != 13) = false → onUnknowns m (slide m k l) (.u i) = 0 := by
      intro i h
      refine onUnknowns_tag m _ _ ?_
      simp only [bne_eq_false_iff_eq] at h
      simp [SMesh.tag, h]
    simp only [cStencil, applyTo_append]
    rw [drop _ _ _ (off _), drop _ _ _ (off _), drop _ _ _ (fun _ => sv _), drop _ _ _ (fun _ => sv _), sv, sv]
    rw [show (i : Int) + ((j : Int) + 1) * m.Nx + 1 = (i : Int) + 1 + ((j : Int) + 1) * m.Nx by ring,
      sub_eq_zero.1 e]
    ring

end Verif
