import Verif.Props.StokesUnique

/- C153: a closed incompressible box has a flow exactly if as much flows out as is produced inside; the flow is then unique, the pressure up to a constant. -/
namespace Verif
open Finset

variable {K : Type*} [Field K] [LinearOrder K]

/-- All cells are rock and all velocities inside the box are unknown. -/
structure Sealed (m : SMesh K) : Prop where
  rock : AllRock m
  u : ∀ k l : Nat, 0 < k → k + 1 < m.Nx → 0 < l → l < m.Nz → m.tu ((k : Int) + l * m.Nx) = -1
  v : ∀ k l : Nat, 0 < k → k < m.Nx → 0 < l → l + 1 < m.Nz → m.tv ((k : Int) + l * (m.Nx + 1)) = -1

/-- In a sealed box one compressible cell ties down all pressures. -/
theorem sealed_grounded (m : SMesh K) (h : Sealed m) (b : Int → K) (hb : b 0 ≠ 0) (k l : Nat) (hk : k + 1 < m.Nx) (hl : l + 1 < m.Nz) : Grounded m b k l := by
  have row : ∀ k : Nat, k + 1 < m.Nx → Grounded m b k 0 := by
    intro k
    induction k with
    | zero => intro _; exact .compressible 0 0 (by simpa using hb)
    | succ k ih => intro hk; exact .west k 0 (by omega) (by omega) (h.u (k + 1) (0 + 1) (by omega) (by omega) (by omega) (by omega)) (ih (by omega))
  induction l with
  | zero => exact row k hk
  | succ l ih => exact .south k l hk (by omega) (h.v (k + 1) (l + 1) (by omega) (by omega) (by omega) (by omega)) (ih (by omega))

/-- Two sums over cells are one over the cell numbers of the volume equations. -/
theorem sum_rock (m : SMesh K) (h : AllRock m) (f : SNode → K) :
    ∑ n ∈ rockNodes m, f n = ∑ k ∈ range (m.Nx - 1), ∑ l ∈ range (m.Nz - 1), f (.p ((k : Int) + l * (m.Nx - 1))) := by
  rw [← Finset.sum_product' (range (m.Nx - 1)) (range (m.Nz - 1)) (fun k l => f (.p ((k : Int) + (l : Int) * (m.Nx - 1))))]
  symm
  refine Finset.sum_bij (fun a _ => SNode.p ((a.1 : Int) + a.2 * (m.Nx - 1))) ?_ ?_ ?_ ?_
  · rintro ⟨k, l⟩ ha
    have := mem_product.1 ha
    have h1 := mem_range.1 this.1
    have h2 := mem_range.1 this.2
    dsimp only at h1 h2
    exact (mem_rock m _).2 ⟨k, l, rfl, by omega, by omega, (h k l (by omega) (by omega)).1⟩
  · rintro ⟨k, l⟩ ha ⟨k', l'⟩ ha' e
    have q := mem_product.1 ha
    have q' := mem_product.1 ha'
    have h1 := mem_range.1 q.1
    have h1' := mem_range.1 q'.1
    simp only [SNode.p.injEq] at e h1 h1'
    have a := colOf_mk ((m.Nx : Int) - 1) k l (by omega) (by omega)
    have a' := colOf_mk ((m.Nx : Int) - 1) k' l' (by omega) (by omega)
    have b := rowOf_mk ((m.Nx : Int) - 1) k l (by omega) (by omega)
    have b' := rowOf_mk ((m.Nx : Int) - 1) k' l' (by omega) (by omega)
    rw [e] at a b
    have e1 : (k : Int) = k' := a.symm.trans a'
    have e2 : (l : Int) = l' := b.symm.trans b'
    simp only [Prod.mk.injEq]
    omega
  · intro n hn
    obtain ⟨k, l, rfl, hk, hl, -⟩ := (mem_rock m n).1 hn
    exact ⟨(k, l), mem_product.2 ⟨mem_range.2 (by show k < _; omega), mem_range.2 (by show l < _; omega)⟩, rfl⟩
  · rintro ⟨k, l⟩ _; rfl

/-- What flows between unknown nodes stays in the box. -/
theorem volume_stays (m : SMesh K) (hdx : m.dx ≠ 0) (hdz : m.dz ≠ 0) (x : SNode → K) [CharZero K] [IsStrictOrderedRing K] :
    ∑ k ∈ range (m.Nx - 1), ∑ l ∈ range (m.Nz - 1), ∑ e ∈ velNodes m, coeff (cStencil m k l) e * x e = 0 := by
  simp only [volume_row m x hdx hdz]
  simp only [mul_add, Finset.sum_add_distrib, ← Finset.mul_sum]
  have a : ∑ k ∈ range (m.Nx - 1), ∑ l ∈ range (m.Nz - 1), stretchX m x k l = 0 := by
    rw [Finset.sum_comm]
    refine Finset.sum_eq_zero fun l hl => ?_
    have hl' := mem_range.1 hl
    unfold stretchX
    rw [← Finset.sum_div]
    have := Finset.sum_range_sub (fun k : Nat => onUnknowns m x (.u ((k : Int) + ((l : Int) + 1) * m.Nx))) (m.Nx - 1)
    push_cast at this
    rw [this]
    rcases Nat.lt_or_ge 0 m.Nx with h | h
    · have e1 := X_u_out m x (m.Nx - 1) (l + 1) (by omega) (by omega)
      have e0 := X_u_out m x 0 (l + 1) (by omega) (by omega)
      push_cast at e1 e0
      rw [e1, e0]; simp
    · rw [show m.Nx - 1 = 0 by omega]; simp
  have b : ∑ k ∈ range (m.Nx - 1), ∑ l ∈ range (m.Nz - 1), stretchZ m x k l = 0 := by
    refine Finset.sum_eq_zero fun k hk => ?_
    have hk' := mem_range.1 hk
    unfold stretchZ
    rw [← Finset.sum_div]
    have := Finset.sum_range_sub (fun l : Nat => onUnknowns m x (.v ((k : Int) + 1 + (l : Int) * (m.Nx + 1)))) (m.Nz - 1)
    push_cast at this
    rw [this]
    rcases Nat.lt_or_ge 0 m.Nz with h | h
    · have e1 := X_v_out m x (k + 1) (m.Nz - 1) (by omega) (by omega)
      have e0 := X_v_out m x (k + 1) 0 (by omega) (by omega)
      push_cast at e1 e0
      rw [e1, e0]; simp
    · rw [show m.Nz - 1 = 0 by omega]; simp
  rw [a, b]; simp

variable [CharZero K] [IsStrictOrderedRing K]

/-- C153.  **A closed incompressible system can be solved exactly if the right-hand sides of the volume equations add up to zero.** -/
theorem closed_solvable_iff (m : SMesh K) (hv : ViscousIn m) (hw : Walls m) (hs : StableOrOff m) (hdx : 0 < m.dx) (hdz : 0 < m.dz) (hc : Sealed m)
    (hin : ∀ n, Weighted m n → m.tag n = -1 → n ∈ velNodes m ∪ rockNodes m) (R : SNode → K) :
    (∃ y : SNode → K, (∀ n ∉ velNodes m ∪ rockNodes m, y n = 0) ∧ ∀ n ∈ velNodes m ∪ rockNodes m, stokesRow m (fun _ => 0) y n = R n)
    ↔ ∑ k ∈ range (m.Nx - 1), ∑ l ∈ range (m.Nz - 1), R (.p ((k : Int) + l * (m.Nx - 1))) = 0 := by
  have vol : ∀ (b : Int → K) (y : SNode → K), (∀ n ∉ velNodes m ∪ rockNodes m, y n = 0) →
      ∑ k ∈ range (m.Nx - 1), ∑ l ∈ range (m.Nz - 1), stokesRow m b y (.p ((k : Int) + l * (m.Nx - 1)))
      = ∑ n ∈ rockNodes m, weight b n * y n := by
    intro b y h1
    refine Eq.trans ?_ (zero_add _)
    rw [sum_rock m hc.rock, ← volume_stays m hdx.ne' hdz.ne' y, ← Finset.sum_add_distrib]
    refine Finset.sum_congr rfl fun k hk => ?_
    rw [← Finset.sum_add_distrib]
    refine Finset.sum_congr rfl fun l hl => ?_
    have hk' := mem_range.1 hk
    simp only [stokesRow, velRow, gradRow, divRow_p m k l (by omega), List.nil_append]
    congr 1
    rw [← applyTo_unknowns]
    refine applyTo_congr _ _ _ fun e he => Or.inr ?_
    unfold onUnknowns
    split
    · rfl
    · next q =>
      refine h1 _ fun q' => (mem_union.1 q').elim q fun r => ?_
      obtain ⟨k', l', q2, -⟩ := (mem_rock m _).1 r
      exact (rows_kind m).2 k l e (by simp [he]) _ q2
  constructor
  · rintro ⟨y, h1, h2⟩
    have := vol (fun _ => 0) y h1
    rw [Finset.sum_eq_zero fun n hn => show weight (fun _ => (0 : K)) n * y n = 0 by cases n <;> simp [weight]] at this
    rw [← this]
    refine Finset.sum_congr rfl fun k hk => Finset.sum_congr rfl fun l hl => ?_
    have hk' := mem_range.1 hk
    have hl' := mem_range.1 hl
    exact (h2 _ (mem_union_right _ ((mem_rock m _).2 ⟨k, l, rfl, by omega, by omega, (hc.rock k l (by omega) (by omega)).1⟩))).symm
  · intro h0
    -- solve with the first cell made compressible; its pressure comes out zero
    have hg := sealed_grounded m hc (fun c => if c = 0 then 1 else 0) (by simp)
    obtain ⟨y, ⟨h1, h2⟩, -⟩ := stokes_solvable m hv hw hs hdx hdz (Or.inl hc.rock) (fun c => if c = 0 then 1 else 0)
      (fun c _ => by split <;> norm_num) hin (fun k l hk hl => hg k l hk hl) R
    have hsum := vol (fun c => if c = 0 then 1 else 0) y h1
    have e1 : ∑ k ∈ range (m.Nx - 1), ∑ l ∈ range (m.Nz - 1), stokesRow m (fun c => if c = 0 then 1 else 0) y (.p ((k : Int) + l * (m.Nx - 1))) = 0 := by
      refine Eq.trans ?_ h0
      refine Finset.sum_congr rfl fun k hk => Finset.sum_congr rfl fun l hl => ?_
      have hk' := mem_range.1 hk
      have hl' := mem_range.1 hl
      exact h2 _ (mem_union_right _ ((mem_rock m _).2 ⟨k, l, rfl, by omega, by omega, (hc.rock k l (by omega) (by omega)).1⟩))
    rw [e1] at hsum
    have hz : ∀ n ∈ rockNodes m, weight (fun c => if c = 0 then (1 : K) else 0) n * y n = 0 := by
      intro n hn
      by_cases q : n = .p 0
      · have e2 : ∑ n ∈ rockNodes m, weight (fun c => if c = 0 then (1 : K) else 0) n * y n = weight (fun c => if c = 0 then (1 : K) else 0) n * y n := by
          refine Finset.sum_eq_single_of_mem n hn fun n' hn' hne => ?_
          obtain ⟨k, l, rfl, -⟩ := (mem_rock m n').1 hn'
          rw [q] at hne
          have : ¬ ((k : Int) + l * (m.Nx - 1)) = 0 := fun e => hne (by rw [e])
          simp only [weight, if_neg this, zero_mul]
        rw [← e2, ← hsum]
      · obtain ⟨k, l, rfl, -⟩ := (mem_rock m n).1 hn
        have : ¬ ((k : Int) + l * (m.Nx - 1)) = 0 := fun e => q (by rw [e])
        simp only [weight, if_neg this, zero_mul]
    refine ⟨y, h1, fun n hn => ?_⟩
    rw [← h2 n hn]
    unfold stokesRow
    congr 1
    rcases mem_union.1 hn with q | q
    · rcases (mem_nodes m n).1 q with ⟨k, l, rfl, -⟩ | ⟨k, l, rfl, -⟩ <;> simp [weight]
    · rw [hz n q]
      obtain ⟨k, l, rfl, -⟩ := (mem_rock m n).1 q
      simp [weight]

end Verif
