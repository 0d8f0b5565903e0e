import Verif.Props.StokesUnique
import Verif.Props.TerrainFlags

/- C152: below a free surface the whole system, velocities and pressures, has exactly one solution. -/
namespace Verif
open Finset Flag

section
variable {K : Type*} [Field K] [LinearOrder K]

/-- C152.  If the top row is air and the upper face of every rock cell below it is solved for, air ties down the pressure of every cell, compressible or not. -/
theorem open_top_grounded (m : SMesh K) (b : Int → K) (htop : ∀ k l : Nat, k + 1 < m.Nx → l + 2 = m.Nz → ¬ RockCell m k l)
    (hface : ∀ k l : Nat, k + 1 < m.Nx → l + 2 < m.Nz → RockCell m k l → m.tv (((k + 1 : Nat) : Int) + (l + 1 : Nat) * (m.Nx + 1)) = -1) (k l : Nat)
    (hk : k + 1 < m.Nx) (hl : l + 1 < m.Nz) : Grounded m b k l := by
  obtain ⟨d, hd⟩ : ∃ d, l + 2 + d = m.Nz := ⟨m.Nz - (l + 2), by omega⟩
  induction d generalizing l with
  | zero => exact .air k l (htop k l hk hd)
  | succ d ih =>
    by_cases hr : RockCell m k l
    · exact .north k l hk (by omega) (hface k l hk (by omega) hr) (ih (l + 1) (by omega) (by omega))
    · exact .air k l hr

variable [CharZero K] [IsStrictOrderedRing K]

/-- C152.  **Below gentle topography with air above it the whole system has exactly one solution**: for every right-hand side there is exactly one set of velocities and pressures,
even if nothing is compressible. -/
theorem gentle_solvable (m : SMesh K) (g : In K) (hc : Carries m g) (hg : Gentle g) (hx : 2 ≤ g.ncx) (hv : ViscousIn m) (hw : Walls m) (hs : StableOrOff m)
    (hdx : 0 < m.dx) (hdz : 0 < m.dz)
    (cell : ∀ k l : Nat, k + 1 < m.Nx → l + 1 < m.Nz → RockCell m k l → 0 < m.D11 ((k : Int) + l * (m.Nx - 1)))
    (vertex : ∀ k l : Nat, 0 < k → k + 1 < m.Nx → 0 < l → l + 1 < m.Nz → m.tg ((k : Int) + l * m.Nx) ≠ 30 → 0 < m.D33 ((k : Int) + l * m.Nx))
    (air : ∀ k, k < g.ncx → g.top (k + 1) < g.zvx g.ncz)
    (faces : ∀ k l : Nat, 0 < k → k ≤ g.ncx → 0 < l → l < g.ncz → bcv g k l = -1 → m.tv ((k : Int) + l * (m.Nx + 1)) = -1)
    (hin : ∀ n, Weighted m n → m.tag n = -1 → n ∈ velNodes m ∪ rockNodes m) (b : Int → K) (hb : ∀ c, SNode.p c ∈ rockNodes m → 0 ≤ b c) (R : SNode → K) :
    ∃! y : SNode → K, (∀ n ∉ velNodes m ∪ rockNodes m, y n = 0) ∧ ∀ n ∈ velNodes m ∪ rockNodes m, stokesRow m b y n = R n := by
  have nx := hc.nx
  have nz := hc.nz
  have ht := gentle_terrain m g hc hg hx cell vertex
  refine stokes_solvable m hv hw hs hdx hdz (Or.inr ht) b hb hin (open_top_grounded m b ?_ ?_) R
  · intro k l hk hl r
    unfold RockCell at r
    rw [hc.p k l (by omega) (by omega), bcp_rock g k l (by omega), lateral_rock g _ _ (by omega) (by omega), layer_rock g hg.rows, raw_rock] at r
    have h := air k (by omega)
    rw [show l + 1 = g.ncz by omega] at r
    exact absurd r.1 (not_le.2 h)
  · intro k l hk hl r
    unfold RockCell at r
    rw [hc.p k l (by omega) (by omega)] at r
    exact faces (k + 1) (l + 1) (by omega) (by omega) (by omega) (by omega) (solved_cell_faces g hx k l (by omega) (by omega) r).2.2.2

end

/-! ### example -/

section
variable {K : Type*} [Field K] [LinearOrder K]

theorem meshOf_tu (g : In K) (k l : Nat) (hk : k ≤ g.ncx) :
    (meshOf g).tu ((k : Int) + l * (meshOf g).Nx) = if k = 0 ∨ k = g.ncx then 0 else if l = 0 ∨ l = g.ncz + 1 then 13 else bcu g k l := by
  have h := split_mk (g.ncx + 1) k l (by omega)
  push_cast at h
  simp only [meshOf]; push_cast
  rw [h.1, h.2]
  norm_cast

theorem meshOf_tv (g : In K) (k l : Nat) (hk : k ≤ g.ncx + 1) :
    (meshOf g).tv ((k : Int) + l * ((meshOf g).Nx + 1)) = if l = 0 ∨ l = g.ncz then 0 else if k = 0 ∨ k = g.ncx + 1 then 13 else bcv g k l := by
  have h := split_mk (g.ncx + 2) k l (by omega)
  push_cast at h
  simp only [meshOf]; push_cast
  rw [show (g.ncx : Int) + 1 + 1 = g.ncx + 2 by ring, h.1, h.2]
  norm_cast

theorem meshOf_walls (g : In K) : Walls (meshOf g) where
  u := fun k l hk h0 hl => by
    have hk : k < g.ncx + 1 := hk
    have hl : l < g.ncz + 1 := hl
    rw [meshOf_tu g k l (by omega)]
    split_ifs <;> first | omega | exact ⟨by decide, by decide⟩ | skip
    rcases bcu_cases g k l with e | e <;> rw [e] <;> norm_num
  v := fun k l h0 hk hl => by
    have hk : k < g.ncx + 1 := hk
    have hl : l < g.ncz + 1 := hl
    rw [meshOf_tv g k l (by omega)]
    split_ifs <;> first | omega | exact ⟨by decide, by decide⟩ | skip
    rcases bcv_cases g k l with e | e <;> rw [e] <;> norm_num
  notPeriodic := by
    rintro i ⟨k, l, hk, hl, rfl⟩
    have hk : k ≤ g.ncx + 1 := hk
    rw [meshOf_tv g k l hk]
    split_ifs <;> first | norm_num | skip
    rcases bcv_cases g k l with e | e <;> rw [e] <;> norm_num

theorem meshOf_inner (g : In K) (n : SNode) (hn : Weighted (meshOf g) n) (ht : (meshOf g).tag n = -1) : n ∈ velNodes (meshOf g) ∪ rockNodes (meshOf g) := by
  rcases n with i | i | i
  · obtain ⟨⟨k, l, hk, hl, rfl⟩, n1, n2⟩ := hn
    refine mem_union_left _ ((mem_nodes _ _).2 (Or.inl ⟨k, l, rfl, ?_⟩))
    replace ht : (meshOf g).tu ((k : Int) + l * (meshOf g).Nx) = -1 := ht
    refine (and_assoc.1 (and_assoc.1 (and_assoc.1 ⟨?_, ht⟩)))
    have hk : k < g.ncx + 1 := hk
    have hl : l ≤ g.ncz + 1 := hl
    rw [meshOf_tu g k l (by omega)] at ht
    show ((0 < k ∧ k + 1 < g.ncx + 1) ∧ 0 < l) ∧ l < g.ncz + 1
    split_ifs at ht
    omega
  · obtain ⟨⟨k, l, hk, hl, rfl⟩, n1, n2⟩ := hn
    refine mem_union_left _ ((mem_nodes _ _).2 (Or.inr ⟨k, l, rfl, ?_⟩))
    replace ht : (meshOf g).tv ((k : Int) + l * ((meshOf g).Nx + 1)) = -1 := ht
    refine (and_assoc.1 (and_assoc.1 (and_assoc.1 ⟨?_, ht⟩)))
    have hk : k ≤ g.ncx + 1 := hk
    have hl : l < g.ncz + 1 := hl
    rw [meshOf_tv g k l (by omega)] at ht
    show ((0 < k ∧ k < g.ncx + 1) ∧ 0 < l) ∧ l + 1 < g.ncz + 1
    split_ifs at ht
    omega
  · obtain ⟨k, l, hk, hl, rfl⟩ := hn
    exact mem_union_right _ ((mem_rock _ _).2 ⟨k, l, rfl, hk, hl, ht⟩)

end

/-- The hill of C58's examples, incompressible: one flow and one pressure for every load. -/
example (R : SNode → ℚ) : ∃! y : SNode → ℚ, (∀ n ∉ velNodes (meshOf (demoIn hill)) ∪ rockNodes (meshOf (demoIn hill)), y n = 0) ∧
    ∀ n ∈ velNodes (meshOf (demoIn hill)) ∪ rockNodes (meshOf (demoIn hill)), stokesRow (meshOf (demoIn hill)) (fun _ => 0) y n = R n := by
  have hv := meshOf_viscous (demoIn hill)
  refine gentle_solvable _ _ (meshOf_carries _) hill_gentle (by decide)
    ⟨fun c _ => hv.iso c, ?_, fun c _ => by norm_num [meshOf], fun c _ h => hv.air c h, fun c _ => hv.tags c⟩ (meshOf_walls _)
    (fun h => by simp [meshOf] at h) (by norm_num [meshOf]) (by norm_num [meshOf]) (fun k l _ _ r => ?_) (fun _ _ _ _ _ _ _ => by norm_num [meshOf]) ?_ ?_
    (meshOf_inner _) _ (fun _ _ => le_refl _) R
  · rintro c ⟨k, l, hk, hl, rfl⟩; exact hv.cell k l hk hl
  · have r' : (meshOf (demoIn hill)).tp ((k : Int) + l * ((meshOf (demoIn hill)).Nx - 1)) = -1 := r
    have h : (0 : ℚ) < if (meshOf (demoIn hill)).tp ((k : Int) + l * ((meshOf (demoIn hill)).Nx - 1)) = -1
        then 1 else 0 := by rw [if_pos r']; norm_num
    exact h
  · intro k hk
    have : k < 4 := hk
    interval_cases k <;> decide +kernel
  · intro k l k0 hk l0 hl h
    rw [meshOf_tv _ k l (by omega), if_neg (by omega), if_neg (by omega)]
    exact h

end Verif
