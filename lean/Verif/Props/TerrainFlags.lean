import Verif.Props.Terrain

/- C146: flags set by `CellFlagging` below gentle topography make a `Terrain`; a spike leaves a loose
cell. -/
namespace Verif
open Finset Flag

section
variable {K : Type*} [Field K] [LinearOrder K]

/-- The topography is gentle: the bottom row of cells is below the surface, and the number of cell
centres below the surface differs by at most one between neighbouring columns (ghost columns
included). -/
structure Gentle (g : In K) : Prop where
  rows : ∀ a b, a ≤ b → g.zvx a ≤ g.zvx b
  base : ∀ i, i ≤ g.ncx + 1 → g.zvx 1 ≤ g.top i
  east : ∀ i j, i ≤ g.ncx → g.zvx (j + 1) ≤ g.top i → g.zvx j ≤ g.top (i + 1)
  west : ∀ i j, i ≤ g.ncx → g.zvx (j + 1) ≤ g.top (i + 1) → g.zvx j ≤ g.top i

/-- The mesh carries the flags of the surface `g`: cells and inner vertices have its tags, velocities inside the box
are unknown only where it says so. -/
structure Carries (m : SMesh K) (g : In K) : Prop where
  nx : m.Nx = g.ncx + 1
  nz : m.Nz = g.ncz + 1
  p : ∀ k l : Nat, k < g.ncx → l < g.ncz → m.tp ((k : Int) + l * (m.Nx - 1)) = bcp g k l
  s : ∀ k l : Nat, 0 < k → k < g.ncx → 0 < l → l < g.ncz → m.tg ((k : Int) + l * m.Nx) = bcg g k l
  u : ∀ k l : Nat, 0 < k → k < g.ncx → 0 < l → l ≤ g.ncz → m.tu ((k : Int) + l * m.Nx) = -1 → bcu g k l = -1
  v : ∀ k l : Nat, 0 < k → k ≤ g.ncx → 0 < l → l < g.ncz →
    m.tv ((k : Int) + l * (m.Nx + 1)) = -1 → bcv g k l = -1

theorem raw_rock (g : In K) (i j : Nat) : raw g i j = -1 ↔ g.zvx j ≤ g.top i := by
  unfold raw
  split
  · rename_i h; simp [not_le.2 h]
  · rename_i h; simpa using h

theorem layer_rock (g : In K) (hz : ∀ a b, a ≤ b → g.zvx a ≤ g.zvx b) (i j : Nat) :
    layer g i j = -1 ↔ raw g i j = -1 := by
  refine ⟨(layer_raw g i j).1, fun h => ?_⟩
  unfold layer
  rw [if_neg, h]
  rintro ⟨-, hne⟩
  exact hne (by rw [h, raw_mono g hz i (j - 1) j (by omega) h])

theorem layer_air (g : In K) (i j : Nat) (h : layer g i j = 60) :
    raw g i j = 30 ∧ raw g i (j - 1) = -1 ∨ raw g i j = -1 ∧ raw g i (j - 1) = 30 := by
  unfold layer at h
  split at h
  · rename_i hc
    rcases raw_cases g i j with a | a <;> rcases raw_cases g i (j - 1) with b | b
    · exact absurd (a.trans b.symm) hc.2
    · exact Or.inl ⟨a, b⟩
    · exact Or.inr ⟨a, b⟩
    · exact absurd (a.trans b.symm) hc.2
  · rcases raw_cases g i j with a | a <;> rw [a] at h <;> norm_num at h

theorem lateral_rock (g : In K) (i j : Nat) (hi : 1 ≤ i) (hi' : i ≤ g.ncx) :
    lateral g i j = -1 ↔ layer g i j = -1 ∧ ¬ (layer g (i - 1) j = 60 ∧ layer g (i + 1) j = 60) := by
  unfold lateral
  rw [if_pos ⟨hi, by omega⟩]
  dsimp only
  constructor
  · intro h
    split_ifs at h <;> simp_all
  · rintro ⟨h1, h2⟩
    simp [h1]
    intro a b
    exact absurd ⟨a, b⟩ h2

theorem bcp_rock (g : In K) (k l : Nat) (hk : k < g.ncx) :
    bcp g k l = -1 ↔ lateral g (k + 1) (l + 1) = -1 := by
  rw [(bcp_iff g k l).1]
  unfold pv
  rw [if_neg (by omega)]

/-- Flags of a gentle topography describe rock with topography in the sense of `Terrain`. -/
theorem gentle_terrain (m : SMesh K) (g : In K) (hc : Carries m g) (hg : Gentle g) (hx : 2 ≤ g.ncx)
    (cell : ∀ k l : Nat, k + 1 < m.Nx → l + 1 < m.Nz → RockCell m k l →
      0 < m.D11 ((k : Int) + l * (m.Nx - 1)))
    (vertex : ∀ k l : Nat, 0 < k → k + 1 < m.Nx → 0 < l → l + 1 < m.Nz →
      m.tg ((k : Int) + l * m.Nx) ≠ 30 → 0 < m.D33 ((k : Int) + l * m.Nx)) : Terrain m := by
  have nx := hc.nx
  have nz := hc.nz
  have lr := layer_rock g hg.rows
  have rock : ∀ k l : Nat, k < g.ncx → l < g.ncz → (RockCell m k l ↔ lateral g (k + 1) (l + 1) = -1) := by
    intro k l hk hl
    unfold RockCell
    rw [hc.p k l hk hl, bcp_rock g k l hk]
  -- a rock cell has rock centres one row lower in the neighbouring columns
  have down : ∀ i j, 1 ≤ i → i ≤ g.ncx → layer g i (j + 1) = -1 →
      raw g (i - 1) j = -1 ∧ raw g (i + 1) j = -1 := by
    intro i j hi hi' h
    rw [lr, raw_rock] at h
    constructor
    · rw [raw_rock]
      have := hg.west (i - 1) j (by omega)
      rw [show i - 1 + 1 = i by omega] at this
      exact this h
    · rw [raw_rock]
      exact hg.east i j hi' h
  have noStep : ∀ i j, raw g i j = -1 → layer g i j ≠ 60 := fun i j h e => by
    rw [(lr i j).2 h] at e; norm_num at e
  refine ⟨cell, ?_, ?_, ?_, ?_, ?_, ?_⟩
  · intro k hk h1
    refine (rock k 0 (by omega) (by omega)).2 ((lateral_rock g _ _ (by omega) (by omega)).2 ⟨?_, ?_⟩)
    · rw [lr, raw_rock]; exact hg.base _ (by omega)
    · rintro ⟨h, -⟩
      exact noStep _ _ ((raw_rock g _ _).2 (hg.base (k + 1 - 1) (by omega))) h
  · intro k l hk hl r
    rw [rock k (l + 1) (by omega) (by omega), lateral_rock g _ _ (by omega) (by omega)] at r
    refine (rock k l (by omega) (by omega)).2 ((lateral_rock g _ _ (by omega) (by omega)).2 ⟨?_, ?_⟩)
    · rw [lr] at r ⊢
      exact raw_mono g hg.rows _ _ _ (by omega) r.1
    · rintro ⟨h, -⟩
      exact noStep _ _ (down (k + 1) (l + 1) (by omega) (by omega) r.1).1 h
  · intro k l hk hl hl0 r
    by_cases k0 : k = 0
    · exact Or.inl k0
    by_cases k1 : k + 2 = m.Nx
    · exact Or.inr (Or.inl k1)
    right; right
    rw [rock k l (by omega) (by omega), lateral_rock g _ _ (by omega) (by omega)] at r
    obtain ⟨r1, r2⟩ := r
    have d := down (k + 1) l (by omega) (by omega) r1
    have here : layer g (k + 1) (l + 1) ≠ 60 := by rw [r1]; norm_num
    rw [Nat.add_sub_cancel] at r2 d
    by_cases w : layer g k (l + 1) = 60
    · right
      have e : layer g (k + 1 + 1) (l + 1) ≠ 60 := fun e => r2 ⟨w, e⟩
      have re : raw g (k + 2) (l + 1) = -1 := by
        rcases raw_cases g (k + 2) (l + 1) with q | q
        · exfalso; apply e
          unfold layer
          rw [if_pos]
          refine ⟨⟨by omega, by omega⟩, ?_⟩
          have hd : raw g (k + 1 + 1) (l + 1 - 1) = -1 := by rw [Nat.add_sub_cancel]; exact d.2
          rw [q, hd]; norm_num
        · exact q
      refine (rock (k + 1) l (by omega) (by omega)).2 ((lateral_rock g _ _ (by omega) (by omega)).2 ⟨?_, ?_⟩)
      · exact (lr _ _).2 re
      · rintro ⟨h, -⟩
        rw [Nat.add_sub_cancel] at h
        exact here h
    · left
      have re : raw g k (l + 1) = -1 := by
        rcases raw_cases g k (l + 1) with q | q
        · exfalso; apply w
          unfold layer
          rw [if_pos]
          refine ⟨⟨by omega, by omega⟩, ?_⟩
          have hd : raw g k (l + 1 - 1) = -1 := by rw [Nat.add_sub_cancel]; exact d.1
          rw [q, hd]; norm_num
        · exact q
      refine (rock (k - 1) l (by omega) (by omega)).2 ((lateral_rock g _ _ (by omega) (by omega)).2 ⟨?_, ?_⟩)
      · rw [show k - 1 + 1 = k by omega]; exact (lr _ _).2 re
      · rintro ⟨-, h⟩
        rw [show k - 1 + 1 + 1 = k + 1 by omega] at h
        exact here h
  · intro k l hk0 hk hl0 hl a b c d
    have P : ∀ i j : Nat, i < g.ncx → j < g.ncz → RockCell m i j → bcp g i j = -1 := by
      intro i j hi hj r
      unfold RockCell at r
      rwa [hc.p i j hi hj] at r
    have := (vertex_in_rock g hx l hl0 (by omega)).1 k hk0 (by omega) (by
      intro i hi j hj
      simp only [List.mem_cons, List.not_mem_nil, or_false] at hi hj
      rcases hi with rfl | rfl <;> rcases hj with rfl | rfl <;>
        refine P _ _ (by omega) (by omega) ?_ <;> assumption)
    have act : m.tg ((k : Int) + l * m.Nx) ≠ 30 := by
      rw [hc.s k l hk0 (by omega) hl0 (by omega), this]; norm_num
    exact ⟨act, vertex k l hk0 hk hl0 hl act⟩
  · intro k l hk0 hk hl0 hl t
    have h := hc.u k l hk0 (by omega) hl0 (by omega) t
    unfold bcu at h
    dsimp only at h
    rw [if_neg (by omega), if_neg (by omega)] at h
    unfold u0 at h
    split at h
    · rename_i hh
      rcases hh with ⟨-, hh⟩ | ⟨-, hh⟩
      · left
        refine (rock _ _ (by omega) (by omega)).2 ?_
        unfold pv at hh
        rw [if_neg (by omega)] at hh
        rwa [show k - 1 + 1 = k by omega, show l - 1 + 1 = l by omega]
      · right
        refine (rock _ _ (by omega) (by omega)).2 ?_
        unfold pv at hh
        rw [if_neg (by omega)] at hh
        rwa [show l - 1 + 1 = l by omega]
    · norm_num at h
  · intro k l hk0 hk hl0 hl t
    have h := hc.v k l hk0 (by omega) hl0 (by omega) t
    unfold bcv at h
    dsimp only at h
    rw [if_neg (by omega), if_neg (by omega)] at h
    unfold v0 at h
    split at h
    · rename_i hh
      rcases hh with ⟨-, hh⟩ | ⟨-, hh⟩
      · left
        refine (rock _ _ (by omega) (by omega)).2 ?_
        unfold pv at hh
        rw [if_neg (by omega)] at hh
        rwa [show k - 1 + 1 = k by omega, show l - 1 + 1 = l by omega]
      · right
        refine (rock _ _ (by omega) (by omega)).2 ?_
        unfold pv at hh
        rw [if_neg (by omega)] at hh
        rwa [show k - 1 + 1 = k by omega]
    · norm_num at h

end

section
variable {K : Type*} [Field K] [LinearOrder K] [CharZero K] [IsStrictOrderedRing K]

/-- C146.  Below gentle topography the momentum equations determine the velocity: two velocity fields
with the same viscous forces on all unknown nodes are equal. -/
theorem gentle_flow_unique_partial (m : SMesh K) (g : In K) (hc : Carries m g) (hg : Gentle g)
    (hx : 2 ≤ g.ncx) (hv : Viscous m) (hb : ClosedBox m) (hs : StableOrOff m) (hdx : 0 < m.dx)
    (hdz : 0 < m.dz) (hco : ¬ (m.comp = true ∧ m.oop = true))
    (cell : ∀ k l : Nat, k + 1 < m.Nx → l + 1 < m.Nz → RockCell m k l →
      0 < m.D11 ((k : Int) + l * (m.Nx - 1)))
    (vertex : ∀ k l : Nat, 0 < k → k + 1 < m.Nx → 0 < l → l + 1 < m.Nz →
      m.tg ((k : Int) + l * m.Nx) ≠ 30 → 0 < m.D33 ((k : Int) + l * m.Nx))
    (y z : SNode → K)
    (same : ∀ d ∈ velNodes m, ∑ e ∈ velNodes m, coeff (velRow m d) e * y e =
      ∑ e ∈ velNodes m, coeff (velRow m d) e * z e) : ∀ n ∈ velNodes m, y n = z n := by
  have h := terrain_work_pos m (fun n => y n - z n) hv hb hs hdx hdz
    (gentle_terrain m g hc hg hx cell vertex) hco (by
    unfold viscousWork
    refine Finset.sum_eq_zero fun d hd => ?_
    have e : ∀ e ∈ velNodes m, (y d - z d) * coeff (velRow m d) e * (y e - z e) =
        (y d - z d) * (coeff (velRow m d) e * y e - coeff (velRow m d) e * z e) := fun _ _ => by ring
    rw [Finset.sum_congr rfl e, ← Finset.mul_sum, Finset.sum_sub_distrib, same d hd]
    ring)
  exact fun n hn => sub_eq_zero.1 (h n hn)

end

/-- C146.  Over the reals, for every numbering of the unknowns: the velocity block of a gentle
topography is positive definite, so its triangular factorisation exists, and every system has exactly
one solution. -/
theorem gentle_definite (m : SMesh ℝ) (g : In ℝ) (hc : Carries m g) (hg : Gentle g)
    (hx : 2 ≤ g.ncx) (hv : Viscous m) (hb : ClosedBox m) (hs : StableOrOff m) (hdx : 0 < m.dx)
    (hdz : 0 < m.dz) (hco : ¬ (m.comp = true ∧ m.oop = true))
    (cell : ∀ k l : Nat, k + 1 < m.Nx → l + 1 < m.Nz → RockCell m k l →
      0 < m.D11 ((k : Int) + l * (m.Nx - 1)))
    (vertex : ∀ k l : Nat, 0 < k → k + 1 < m.Nx → 0 < l → l + 1 < m.Nz →
      m.tg ((k : Int) + l * m.Nx) ≠ 30 → 0 < m.D33 ((k : Int) + l * m.Nx))
    {n : Nat} (num : Fin n ≃ {d // d ∈ velNodes m}) :
    (assembled m num).PosDef ∧
      ∀ b : Fin n → ℝ, ∃! w : Fin n → ℝ, ∀ i, ∑ j, assembled m num i j * w j = b i :=
  definite_of_rest m hv hb hs hdx hdz (fun x hx' => terrain_work_pos m x hv hb hs hdx hdz
    (gentle_terrain m g hc hg hx cell vertex) hco hx') num

/-! ### examples -/

section
variable {K : Type*} [Field K] [LinearOrder K]

/-- A box with the flags of a surface between free-slip walls, with unit viscosity in the rock. -/
def meshOf (g : In K) : SMesh K where
  Nx := g.ncx + 1
  Nz := g.ncz + 1
  dx := 1
  dz := 1
  tu := fun i =>
    let k := i % (g.ncx + 1); let l := i / (g.ncx + 1)
    if k = 0 ∨ k = g.ncx then 0 else if l = 0 ∨ l = g.ncz + 1 then 13 else bcu g k.toNat l.toNat
  tv := fun i =>
    let k := i % (g.ncx + 2); let l := i / (g.ncx + 2)
    if l = 0 ∨ l = g.ncz then 0 else if k = 0 ∨ k = g.ncx + 1 then 13 else bcv g k.toNat l.toNat
  tp := fun i => bcp g (i % g.ncx).toNat (i / g.ncx).toNat
  tg := fun i => bcg g (i % (g.ncx + 1)).toNat (i / (g.ncx + 1)).toNat
  bu := fun _ => 0
  bv := fun _ => 0
  bp := fun _ => 0
  D11 := fun i => if bcp g (i % g.ncx).toNat (i / g.ncx).toNat = -1 then 1 else 0
  D22 := fun i => if bcp g (i % g.ncx).toNat (i / g.ncx).toNat = -1 then 1 else 0
  D33 := fun _ => 1
  rho := fun _ => 1
  gx := fun _ => 0
  gz := fun _ => -1
  oop := false
  comp := true
  stab := false
  theta := 1
  dt := 1

theorem bcu_cases (g : In K) (i j : Nat) : bcu g i j = -1 ∨ bcu g i j = 30 := by
  have c : ∀ i j, u0 g i j = -1 ∨ u0 g i j = 30 := by intro i j; unfold u0; split <;> simp
  unfold bcu
  dsimp only
  split_ifs <;> exact c _ _

theorem bcv_cases (g : In K) (i j : Nat) : bcv g i j = -1 ∨ bcv g i j = 30 := by
  have c : ∀ i j, v0 g i j = -1 ∨ v0 g i j = 30 := by intro i j; unfold v0; split <;> simp
  unfold bcv
  dsimp only
  split_ifs <;> exact c _ _

theorem bcp_cases (g : In K) (i j : Nat) : bcp g i j = -1 ∨ bcp g i j = 30 ∨ bcp g i j = 31 := by
  unfold bcp
  rcases pv_cases g (i + 1) (j + 1) with h | h | h <;> simp [h]

theorem split_mk (n k l : Nat) (hk : k < n) :
    ((k : Int) + l * n) % n = k ∧ ((k : Int) + l * n) / n = l :=
  ⟨colOf_mk n k l (by omega) (by omega), rowOf_mk n k l (by omega) (by omega)⟩

theorem meshOf_carries (g : In K) : Carries (meshOf g) g where
  nx := rfl
  nz := rfl
  p := by
    intro k l hk hl
    have h := split_mk g.ncx k l hk
    have e : (((meshOf g).Nx : Nat) : Int) - 1 = g.ncx := by simp [meshOf]
    rw [e]
    simp only [meshOf]
    rw [h.1, h.2]; simp
  s := by
    intro k l hk0 hk hl0 hl
    have h := split_mk (g.ncx + 1) k l (by omega)
    push_cast at h
    simp only [meshOf]; push_cast
    rw [h.1, h.2]; simp
  u := by
    intro k l hk0 hk hl0 hl
    have h := split_mk (g.ncx + 1) k l (by omega)
    push_cast at h
    simp only [meshOf]; push_cast
    rw [h.1, h.2, if_neg (by omega), if_neg (by omega)]; simp
  v := by
    intro k l hk0 hk hl0 hl
    have h := split_mk (g.ncx + 2) k l (by omega)
    push_cast at h
    simp only [meshOf]; push_cast
    rw [show (g.ncx : Int) + 1 + 1 = g.ncx + 2 by ring, h.1, h.2, if_neg (by omega), if_neg (by omega)]; simp

variable [IsStrictOrderedRing K]

theorem meshOf_viscous (g : In K) : Viscous (meshOf g) where
  iso := fun _ => rfl
  cell := fun _ _ _ _ => by simp only [meshOf]; split <;> simp
  vertex := fun _ _ _ _ => by simp [meshOf]
  air := fun _ h => by simp only [meshOf] at h ⊢; rw [if_neg h]
  tags := fun _ => bcp_cases g _ _

theorem meshOf_closed (g : In K) : ClosedBox (meshOf g) where
  u := by
    intro k l hk0 hk hl0 hl
    have h := split_mk (g.ncx + 1) k l (by simp [meshOf] at hk; omega)
    simp only [meshOf] at hk hl ⊢
    push_cast at h ⊢
    rw [h.1, h.2, if_neg (by omega), if_neg (by omega)]
    rcases bcu_cases g (Int.toNat k) (Int.toNat l) with e | e <;> rw [e] <;> norm_num
  v := by
    intro k l hk0 hk hl0 hl
    have h := split_mk (g.ncx + 2) k l (by simp [meshOf] at hk; omega)
    simp only [meshOf] at hk hl ⊢
    push_cast at h ⊢
    rw [show (g.ncx : Int) + 1 + 1 = g.ncx + 2 by ring, h.1, h.2, if_neg (by omega), if_neg (by omega)]
    rcases bcv_cases g (Int.toNat k) (Int.toNat l) with e | e <;> rw [e] <;> norm_num
  notPeriodic := by
    intro i
    simp only [meshOf]
    split
    · norm_num
    · split
      · norm_num
      · rcases bcv_cases g (i % (g.ncx + 2)).toNat (i / (g.ncx + 2)).toNat with e | e <;> rw [e] <;> norm_num

end

/-- The hill of C58's examples is gentle. -/
theorem hill_gentle : Gentle (demoIn hill) where
  rows := by
    intro a b h
    have : (a : ℚ) ≤ b := by exact_mod_cast h
    simp only [demoIn]; linarith
  base := by
    intro i hi
    have : i ≤ 5 := hi
    interval_cases i <;> decide +kernel
  east := by
    have key : ∀ i ≤ 4, |(demoIn hill).top i - (demoIn hill).top (i + 1)| ≤ 1 := by
      intro i hi
      interval_cases i <;> decide +kernel
    intro i j hi h
    have a := abs_le.1 (key i hi)
    have e : (demoIn hill).zvx (j + 1) = (demoIn hill).zvx j + 1 := by simp only [demoIn]; push_cast; ring
    rw [e] at h
    linarith [a.2]
  west := by
    have key : ∀ i ≤ 4, |(demoIn hill).top i - (demoIn hill).top (i + 1)| ≤ 1 := by
      intro i hi
      interval_cases i <;> decide +kernel
    intro i j hi h
    have a := abs_le.1 (key i hi)
    have e : (demoIn hill).zvx (j + 1) = (demoIn hill).zvx j + 1 := by simp only [demoIn]; push_cast; ring
    rw [e] at h
    linarith [a.1]

example (y z : SNode → ℚ)
    (same : ∀ d ∈ velNodes (meshOf (demoIn hill)), ∑ e ∈ velNodes (meshOf (demoIn hill)),
      coeff (velRow (meshOf (demoIn hill)) d) e * y e =
      ∑ e ∈ velNodes (meshOf (demoIn hill)), coeff (velRow (meshOf (demoIn hill)) d) e * z e) :
    ∀ n ∈ velNodes (meshOf (demoIn hill)), y n = z n :=
  gentle_flow_unique_partial _ _ (meshOf_carries _) hill_gentle (by decide) (meshOf_viscous _)
    (meshOf_closed _) (fun h => by simp [meshOf] at h) (by norm_num [meshOf]) (by norm_num [meshOf])
    (by simp [meshOf]) (fun k l _ _ r => by
      have r' : (meshOf (demoIn hill)).tp ((k : Int) + l * ((meshOf (demoIn hill)).Nx - 1)) = -1 := r
      have h : (0 : ℚ) < if (meshOf (demoIn hill)).tp ((k : Int) + l * ((meshOf (demoIn hill)).Nx - 1)) = -1
          then 1 else 0 := by rw [if_pos r']; norm_num
      exact h)
    (fun _ _ _ _ _ _ _ => by norm_num [meshOf]) y z same

/-- Five by eight unit cells; the surface is flat but for a peak four cells high between two vertices. -/
def spikeIn : In ℚ :=
  let h : Nat → ℚ := fun i => if i = 2 ∨ i = 3 then 6 else 2
  ⟨5, 8, fun i => i - 1 / 2, fun j => j - 1 / 2, fun j => j,
    Surf.polyFit 5 1 (fun j => (j : ℚ)) h (fun _ => 0, fun _ => 0), h⟩

/-- Rows from bottom to top: the cell in column 2, row 5 is left without support. -/
example : (List.range 8).map (fun j => (List.range 5).map fun i => bcp spikeIn i j) =
    [[-1, -1, -1, -1, -1], [-1, -1, -1, -1, -1], [31, -1, -1, -1, 31], [31, -1, -1, -1, 31],
     [30, 31, 31, 31, 30], [30, 31, -1, 31, 30], [30, 30, 31, 30, 30], [30, 30, 30, 30, 30]] := by
  decide +kernel

theorem spike_loose : Loose (meshOf spikeIn) 2 5 where
  rock := by unfold RockCell; decide +kernel
  west := by unfold RockCell; decide +kernel
  east := by unfold RockCell; decide +kernel
  corner := by
    intro i j hi hj
    rcases hi with rfl | rfl <;> rcases hj with rfl | rfl <;> decide +kernel

/-- C146 is false for steep topography: below a peak the flags leave a loose cell, and the equations
have solutions that differ by its motion. -/
theorem spike_flow_not_unique : ∃ x : SNode → ℚ, (∃ n ∈ velNodes (meshOf spikeIn), x n ≠ 0) ∧
    (∀ d ∈ velNodes (meshOf spikeIn), ∑ e ∈ velNodes (meshOf spikeIn),
      coeff (velRow (meshOf spikeIn) d) e * x e = 0) ∧
    ∀ i j : Nat, i + 1 < (meshOf spikeIn).Nx → j + 1 < (meshOf spikeIn).Nz → RockCell (meshOf spikeIn) i j →
      ∑ e ∈ velNodes (meshOf spikeIn), coeff (cStencil (meshOf spikeIn) i j) e * x e = 0 :=
  loose_cell_slides _ (meshOf_viscous _) (meshOf_closed _) rfl (by norm_num [meshOf])
    (by norm_num [meshOf]) 2 5 (by decide) (by decide) (by decide) spike_loose (by decide +kernel)
    (by decide +kernel)

end Verif
