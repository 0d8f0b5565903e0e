import Verif.Model.ApplyBC
import Verif.Spec.Staggered
import Mathlib.Tactic.Ring

namespace Verif
variable {K : Type*}

/-- A loop with two conditional stores per iteration, `p i` from `q i` and `r i` from `s i`,
where no cell read is ever written. -/
theorem twoStore (n : Nat) (a : Nat → K) (c1 c2 : Nat → Bool) (p q r s : Nat → Nat)
    (g1 g2 : Nat → K → K)
    (hp : ∀ i < n, ∀ i' < n, p i = p i' → i = i') (hr : ∀ i < n, ∀ i' < n, r i = r i' → i = i')
    (hpr : ∀ i < n, ∀ i' < n, p i ≠ r i')
    (hq : ∀ i < n, ∀ i' < n, q i ≠ p i' ∧ q i ≠ r i')
    (hs : ∀ i < n, ∀ i' < n, s i ≠ p i' ∧ s i ≠ r i') :
    let out := forUp n a fun a i =>
      let a1 := if c1 i then upd a (p i) (g1 i (a (q i))) else a
      if c2 i then upd a1 (r i) (g2 i (a1 (s i))) else a1
    (∀ i < n, c1 i = true → out (p i) = g1 i (a (q i))) ∧
    (∀ i < n, c2 i = true → out (r i) = g2 i (a (s i))) ∧
    (∀ j, (∀ i < n, c1 i = true → j ≠ p i) → (∀ i < n, c2 i = true → j ≠ r i) →
      out j = a j) := by
  intro out
  have key := by
    refine forUp_inv (s := a) (f := fun a i =>
      let a1 := if c1 i then upd a (p i) (g1 i (a (q i))) else a
      if c2 i then upd a1 (r i) (g2 i (a1 (s i))) else a1) (P := fun m b =>
      (∀ i < m, c1 i = true → b (p i) = g1 i (a (q i))) ∧
      (∀ i < m, c2 i = true → b (r i) = g2 i (a (s i))) ∧
      (∀ j, (∀ i < m, c1 i = true → j ≠ p i) → (∀ i < m, c2 i = true → j ≠ r i) →
        b j = a j)) n ⟨by simp, by simp, by simp⟩ ?_
    intro k b hk ⟨h1, h2, h3⟩
    have bq : b (q k) = a (q k) := h3 _ (fun i hi _ => (hq k hk i (by omega)).1)
      (fun i hi _ => (hq k hk i (by omega)).2)
    have bs : b (s k) = a (s k) := h3 _ (fun i hi _ => (hs k hk i (by omega)).1)
      (fun i hi _ => (hs k hk i (by omega)).2)
    -- value of the new array everywhere
    have hval : ∀ j, (let a1 := if c1 k then upd b (p k) (g1 k (b (q k))) else b
        if c2 k then upd a1 (r k) (g2 k (a1 (s k))) else a1) j =
        if c1 k = true ∧ j = p k then g1 k (a (q k)) else
        if c2 k = true ∧ j = r k then g2 k (a (s k)) else b j := by
      intro j
      have hs1 := (hs k hk k hk).1
      have hpk := hpr k hk k hk
      by_cases e1 : c1 k = true <;> by_cases e2 : c2 k = true <;>
        simp only [e1, e2, if_true, true_and, false_and, if_false, Bool.false_eq_true]
      · rw [upd_ne _ _ hs1, bs, bq]
        by_cases hj : j = r k
        · subst hj; simp [Ne.symm hpk]
        · rw [upd_ne _ _ hj]
          by_cases hj' : j = p k
          · subst hj'; simp
          · simp [upd_ne _ _ hj', hj, hj']
      · rw [bq]
        by_cases hj' : j = p k
        · subst hj'; simp
        · simp [upd_ne _ _ hj', hj']
      · rw [bs]
        by_cases hj : j = r k
        · subst hj; simp
        · simp [upd_ne _ _ hj, hj]
    refine ⟨?_, ?_, ?_⟩
    · intro i hi hc
      rw [hval]
      by_cases hik : i = k
      · subst hik; simp [hc]
      · rw [if_neg (fun h => hik (hp i (by omega) k hk h.2)),
          if_neg (fun h => hpr i (by omega) k hk h.2)]
        exact h1 i (by omega) hc
    · intro i hi hc
      rw [hval]
      by_cases hik : i = k
      · subst hik
        rw [if_neg (fun h => hpr i hk i hk h.2.symm)]; simp [hc]
      · rw [if_neg (fun h => hpr k hk i (by omega) h.2.symm),
          if_neg (fun h => hik (hr i (by omega) k hk h.2))]
        exact h2 i (by omega) hc
    · intro j hj1 hj2
      rw [hval, if_neg (fun h => hj1 k (by omega) h.1 h.2),
        if_neg (fun h => hj2 k (by omega) h.1 h.2)]
      exact h3 j (fun i hi => hj1 i (by omega)) (fun i hi => hj2 i (by omega))
  exact key

theorem row_inj {N i l i' l' : Nat} (hi : i < N) (hi' : i' < N) (h : i + l * N = i' + l' * N) :
    i = i' ∧ l = l' := by
  have hN : 0 < N := by omega
  have h1 := congrArg (· % N) h
  have h2 := congrArg (· / N) h
  simp only [Nat.add_mul_mod_self_right, Nat.mod_eq_of_lt hi, Nat.mod_eq_of_lt hi'] at h1
  simp only [Nat.add_mul_div_right _ _ hN, Nat.div_eq_of_lt hi, Nat.div_eq_of_lt hi'] at h2
  omega

theorem row_ne {N i l i' l' : Nat} (hi : i < N) (hi' : i' < N) (h : i ≠ i' ∨ l ≠ l') :
    i + l * N ≠ i' + l' * N := by
  intro he; have := row_inj hi hi' he; omega

/-- Facts about one Vx ghost-row loop. -/
theorem vxRows (Nx Nz : Nat) (hNz : 2 ≤ Nz) (a : Nat → K) (c : Nat → Bool)
    (g : Nat → K → K) :
    let out := forUp Nx a fun a i =>
      let a1 := if c i then upd a i (g i (a (i + Nx))) else a
      if c (i + Nz * Nx) then upd a1 (i + Nz * Nx) (g (i + Nz * Nx) (a1 (i + (Nz - 1) * Nx))) else a1
    (∀ i < Nx, c i = true → out i = g i (a (i + 1 * Nx))) ∧
    (∀ i < Nx, c (i + Nz * Nx) = true →
      out (i + Nz * Nx) = g (i + Nz * Nx) (a (i + (Nz - 1) * Nx))) ∧
    (∀ j, c j = false → out j = a j) ∧
    (∀ i l, i < Nx → l ≠ 0 → l ≠ Nz → out (i + l * Nx) = a (i + l * Nx)) := by
  have h0 : ∀ i, i = i + 0 * Nx := by intro i; omega
  have h1 : ∀ i, i + Nx = i + 1 * Nx := by intro i; omega
  have := twoStore Nx a (fun i => c i) (fun i => c (i + Nz * Nx)) (fun i => i) (fun i => i + Nx)
    (fun i => i + Nz * Nx) (fun i => i + (Nz - 1) * Nx) g (fun i => g (i + Nz * Nx))
    (fun i _ i' _ h => h) (fun i hi i' hi' h => by omega)
    (fun i hi i' hi' => by
      have := @row_ne Nx i 0 i' Nz hi hi' (by omega); simpa using this)
    (fun i hi i' hi' => by
      have a1 := @row_ne Nx i 1 i' 0 hi hi' (by omega)
      have a2 := @row_ne Nx i 1 i' Nz hi hi' (by omega)
      exact ⟨by simpa using a1, by simpa using a2⟩)
    (fun i hi i' hi' => by
      have a1 := @row_ne Nx i (Nz - 1) i' 0 hi hi' (by omega)
      have a2 := @row_ne Nx i (Nz - 1) i' Nz hi hi' (by omega)
      exact ⟨by simpa using a1, by simpa using a2⟩)
  obtain ⟨A, B, C⟩ := this
  refine ⟨?_, B, ?_, ?_⟩
  · intro i hi hc; rw [← h1]; exact A i hi hc
  · intro j hj
    refine C j ?_ ?_
    · intro i hi hc e; subst e; simp [hj] at hc
    · intro i hi hc e; rw [← e, hj] at hc; simp at hc
  · intro i l hi hl0 hlN
    refine C _ ?_ ?_
    · intro i' hi' _ e
      have := @row_inj Nx i l i' 0 hi hi' (by simpa using e); omega
    · intro i' hi' _ e
      have := row_inj hi hi' e; omega

/-- Facts about one Vz ghost-column loop. The column offsets of the cells read are `qw`, `qe`. -/
theorem vzCols (Nx Nz : Nat) (hNx : 2 ≤ Nx) (a : Nat → K) (c : Nat → Bool)
    (g : Nat → K → K) (qw qe : Nat) (hqw : 0 < qw ∧ qw < Nx) (hqe : 0 < qe ∧ qe < Nx) :
    let out := forUp Nz a fun a j =>
      let a1 := if c (j * (Nx + 1)) then upd a (j * (Nx + 1))
        (g (j * (Nx + 1)) (a (j * (Nx + 1) + qw))) else a
      if c (j * (Nx + 1) + Nx) then upd a1 (j * (Nx + 1) + Nx)
        (g (j * (Nx + 1) + Nx) (a1 (j * (Nx + 1) + qe))) else a1
    (∀ j < Nz, c (j * (Nx + 1)) = true →
      out (j * (Nx + 1)) = g (j * (Nx + 1)) (a (j * (Nx + 1) + qw))) ∧
    (∀ j < Nz, c (j * (Nx + 1) + Nx) = true →
      out (j * (Nx + 1) + Nx) = g (j * (Nx + 1) + Nx) (a (j * (Nx + 1) + qe))) ∧
    (∀ k, c k = false → out k = a k) ∧
    (∀ i l, 0 < i → i < Nx → out (l * (Nx + 1) + i) = a (l * (Nx + 1) + i)) := by
  have key : ∀ {i l i' l' : Nat}, i < Nx + 1 → i' < Nx + 1 →
      l * (Nx + 1) + i = l' * (Nx + 1) + i' → i = i' ∧ l = l' := by
    intro i l i' l' hi hi' h
    exact row_inj hi hi' (by omega)
  have := twoStore Nz a (fun j => c (j * (Nx + 1))) (fun j => c (j * (Nx + 1) + Nx))
    (fun j => j * (Nx + 1)) (fun j => j * (Nx + 1) + qw)
    (fun j => j * (Nx + 1) + Nx) (fun j => j * (Nx + 1) + qe)
    (fun j => g (j * (Nx + 1))) (fun j => g (j * (Nx + 1) + Nx))
    (fun i _ i' _ h => (@key 0 i 0 i' (by omega) (by omega) (by simpa using h)).2)
    (fun i _ i' _ h => (@key Nx i Nx i' (by omega) (by omega) (by simpa using h)).2)
    (fun i _ i' _ h => by
      have := @key 0 i Nx i' (by omega) (by omega) (by simpa using h); omega)
    (fun i _ i' _ => ⟨fun h => by
        have := @key qw i 0 i' (by omega) (by omega) (by simpa using h); omega,
      fun h => by have := @key qw i Nx i' (by omega) (by omega) (by simpa using h); omega⟩)
    (fun i _ i' _ => ⟨fun h => by
        have := @key qe i 0 i' (by omega) (by omega) (by simpa using h); omega,
      fun h => by have := @key qe i Nx i' (by omega) (by omega) (by simpa using h); omega⟩)
  obtain ⟨A, B, C⟩ := this
  refine ⟨A, B, ?_, ?_⟩
  · intro k hk
    refine C k ?_ ?_
    · intro i hi hc e; rw [← e, hk] at hc; simp at hc
    · intro i hi hc e; rw [← e, hk] at hc; simp at hc
  · intro i l hi hiN
    refine C _ ?_ ?_
    · intro i' _ _ e; have := @key i l 0 i' (by omega) (by omega) (by simpa using e); omega
    · intro i' _ _ e; have := @key i l Nx i' (by omega) (by omega) (by simpa using e); omega

/-- Facts about the east-periodic copy, both in `ApplyBC` and in `ExtractSolutions2`. -/
theorem vxPer (Nx n : Nat) (hNx : 2 ≤ Nx) (tag : Nat → Int) (a : Nat → K) :
    let out := forUp n a fun u j =>
      if tag (j * Nx + Nx - 1) == -12 then upd u (j * Nx + Nx - 1) (u (j * Nx)) else u
    (∀ j < n, tag ((Nx - 1) + j * Nx) = -12 → out ((Nx - 1) + j * Nx) = a (0 + j * Nx)) ∧
    (∀ k, tag k ≠ -12 → out k = a k) ∧
    (∀ i l, i < Nx → i ≠ Nx - 1 → out (i + l * Nx) = a (i + l * Nx)) := by
  have e : ∀ j, j * Nx + Nx - 1 = (Nx - 1) + j * Nx := by intro j; omega
  have := twoStore n a (fun j => tag ((Nx - 1) + j * Nx) == -12) (fun _ => false)
    (fun j => (Nx - 1) + j * Nx) (fun j => 0 + j * Nx) (fun j => Nx + n * Nx + j) (fun j => 0 + j * Nx)
    (fun _ x => x) (fun _ x => x)
    (fun i _ i' _ h => (row_inj (by omega) (by omega) h).2)
    (fun i _ i' _ h => by omega)
    (fun i hi i' _ h => by
      have : i * Nx ≤ n * Nx := Nat.mul_le_mul_right _ (by omega)
      omega)
    (fun i hi i' _ => ⟨row_ne (by omega) (by omega) (by omega), by
      have : i * Nx ≤ n * Nx := Nat.mul_le_mul_right _ (by omega)
      omega⟩)
    (fun i hi i' _ => ⟨row_ne (by omega) (by omega) (by omega), by
      have : i * Nx ≤ n * Nx := Nat.mul_le_mul_right _ (by omega)
      omega⟩)
  simp only [e]
  simp only [Bool.false_eq_true, if_false, Nat.zero_add] at this
  obtain ⟨A, _, C⟩ := this
  refine ⟨?_, ?_, ?_⟩
  · intro j hj ht; simpa using A j hj (by simpa using ht)
  · intro k hk
    refine C k ?_ (by simp)
    intro i hi hc e; subst e; simp at hc; exact hk hc
  · intro i l hi hne
    refine C _ ?_ (by simp)
    intro i' _ _ h; have := row_inj hi (by omega) h; omega

end Verif
