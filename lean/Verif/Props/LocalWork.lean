import Verif.Props.Conformal

/-
C145, C146, C152: the assembled rows of unknown nodes read the arrays only inside their bounds, so what is asked of tags and viscosities is asked
there only.
-/
set_option linter.unusedSectionVars false
namespace Verif
open Finset Classical

variable {K : Type*} [Field K] [LinearOrder K]

/-- Index of a Vx node, a Vz node, a cell, a vertex of the grid. -/
def InU (m : SMesh K) (i : Int) : Prop := ∃ k l : Nat, k < m.Nx ∧ l ≤ m.Nz ∧ i = (k : Int) + l * m.Nx
/-- See `InU`. -/
def InV (m : SMesh K) (i : Int) : Prop := ∃ k l : Nat, k ≤ m.Nx ∧ l < m.Nz ∧ i = (k : Int) + l * (m.Nx + 1)
/-- See `InU`. -/
def InP (m : SMesh K) (i : Int) : Prop := ∃ k l : Nat, k + 1 < m.Nx ∧ l + 1 < m.Nz ∧ i = (k : Int) + l * (m.Nx - 1)
/-- See `InU`. -/
def InG (m : SMesh K) (i : Int) : Prop := ∃ k l : Nat, k < m.Nx ∧ l < m.Nz ∧ i = (k : Int) + l * m.Nx
/-- Inner velocity nodes. -/
def InnerU (m : SMesh K) (i : Int) : Prop := ∃ k l : Nat, 0 < k ∧ k + 1 < m.Nx ∧ 0 < l ∧ l < m.Nz ∧ i = (k : Int) + l * m.Nx
/-- See `InnerU`. -/
def InnerV (m : SMesh K) (i : Int) : Prop := ∃ k l : Nat, 0 < k ∧ k < m.Nx ∧ 0 < l ∧ l + 1 < m.Nz ∧ i = (k : Int) + l * (m.Nx + 1)

/-- The mesh with fixed values outside the arrays: prescribed velocities, air, no viscosity, no gravity. -/
noncomputable def clean (m : SMesh K) : SMesh K :=
  { m with
    tu := fun i => if InU m i then m.tu i else 0
    tv := fun i => if InV m i then m.tv i else 0
    tp := fun i => if InP m i then m.tp i else 30
    tg := fun i => if InG m i then m.tg i else 30
    D11 := fun i => if InP m i then m.D11 i else 0
    D22 := fun i => if InP m i then m.D22 i else 0
    D33 := fun i => if InG m i then m.D33 i else 0
    gx := fun i => if InnerU m i then m.gx i else 0
    gz := fun i => if InnerV m i then m.gz i else 0 }

section
variable (m : SMesh K)

theorem clean_u (i : Int) (h : InU m i) : (clean m).tu i = m.tu i := if_pos h
theorem clean_v (i : Int) (h : InV m i) : (clean m).tv i = m.tv i := if_pos h
theorem clean_p (i : Int) (h : InP m i) : (clean m).tp i = m.tp i ∧ (clean m).D11 i = m.D11 i ∧ (clean m).D22 i = m.D22 i :=
  ⟨if_pos h, if_pos h, if_pos h⟩
theorem clean_g (i : Int) (h : InG m i) : (clean m).tg i = m.tg i ∧ (clean m).D33 i = m.D33 i := ⟨if_pos h, if_pos h⟩

/-- The row of an unknown Vx node. -/
theorem x_local (k l : Nat) (hk0 : 0 < k) (hk : k + 1 < m.Nx) (hl0 : 0 < l) (hl : l < m.Nz) (ht : m.tu ((k : Int) + l * m.Nx) = -1) :
    xStencil (clean m) k l = xStencil m k l ∧ xStencilP (clean m) k l = xStencilP m k l := by
  obtain ⟨k, rfl⟩ : ∃ j, k = j + 1 := ⟨k - 1, by omega⟩
  obtain ⟨l, rfl⟩ : ∃ j, l = j + 1 := ⟨l - 1, by omega⟩
  have uC := clean_u m (((k + 1 : Nat) : Int) + (l + 1 : Nat) * m.Nx) ⟨k + 1, l + 1, by omega, by omega, by ring⟩
  have uW := clean_u m (((k + 1 : Nat) : Int) + (l + 1 : Nat) * m.Nx - 1) ⟨k, l + 1, by omega, by omega, by push_cast; ring⟩
  have uE := clean_u m (((k + 1 : Nat) : Int) + (l + 1 : Nat) * m.Nx + 1) ⟨k + 2, l + 1, by omega, by omega, by push_cast; ring⟩
  have uS := clean_u m (((k + 1 : Nat) : Int) + (l + 1 : Nat) * m.Nx - m.Nx) ⟨k + 1, l, by omega, by omega, by push_cast; ring⟩
  have uN := clean_u m (((k + 1 : Nat) : Int) + (l + 1 : Nat) * m.Nx + m.Nx) ⟨k + 1, l + 2, by omega, by omega, by push_cast; ring⟩
  have v1 := clean_v m (((k + 1 : Nat) : Int) + (l + 1 : Nat) * (m.Nx + 1) - (m.Nx + 1)) ⟨k + 1, l, by omega, by omega, by push_cast; ring⟩
  have v2 := clean_v m (((k + 1 : Nat) : Int) + (l + 1 : Nat) * (m.Nx + 1) - (m.Nx + 1) + 1) ⟨k + 2, l, by omega, by omega, by push_cast; ring⟩
  have v3 := clean_v m (((k + 1 : Nat) : Int) + (l + 1 : Nat) * (m.Nx + 1)) ⟨k + 1, l + 1, by omega, by omega, by push_cast; ring⟩
  have v4 := clean_v m (((k + 1 : Nat) : Int) + (l + 1 : Nat) * (m.Nx + 1) + 1) ⟨k + 2, l + 1, by omega, by omega, by push_cast; ring⟩
  obtain ⟨p1, p2, -⟩ := clean_p m (((k + 1 : Nat) : Int) - 1 + (((l + 1 : Nat) : Int) - 1) * (m.Nx - 1)) ⟨k, l, by omega, by omega, by push_cast; ring⟩
  obtain ⟨q1, q2, -⟩ := clean_p m (((k + 1 : Nat) : Int) - 1 + (((l + 1 : Nat) : Int) - 1) * (m.Nx - 1) + 1) ⟨k + 1, l, by omega, by omega, by push_cast; ring⟩
  obtain ⟨g1, g2⟩ := clean_g m (((k + 1 : Nat) : Int) + (l + 1 : Nat) * m.Nx) ⟨k + 1, l + 1, by omega, by omega, by push_cast; ring⟩
  obtain ⟨g3, g4⟩ := clean_g m (((k + 1 : Nat) : Int) + (l + 1 : Nat) * m.Nx - m.Nx) ⟨k + 1, l, by omega, by omega, by push_cast; ring⟩
  have gx : (clean m).gx (((k + 1 : Nat) : Int) + (l + 1 : Nat) * m.Nx) = m.gx (((k + 1 : Nat) : Int) + (l + 1 : Nat) * m.Nx) :=
    if_pos ⟨k + 1, l + 1, by omega, by omega, by omega, by omega, by ring⟩
  have eN : (clean m).Nx = m.Nx := rfl
  have e1 : (clean m).dx = m.dx := rfl
  have e2 : (clean m).dz = m.dz := rfl
  have e3 : (clean m).comp = m.comp := rfl
  have e4 : (clean m).oop = m.oop := rfl
  have e5 : (clean m).stab = m.stab := rfl
  have e6 : (clean m).theta = m.theta := rfl
  have e7 : (clean m).dt = m.dt := rfl
  have e8 : (clean m).rho = m.rho := rfl
  have hper : ((-1 : Int) == -2) = false := rfl
  have hin : xIn (clean m) (k + 1 : Nat) (l + 1 : Nat) = xIn m (k + 1 : Nat) (l + 1 : Nat) := by
    simp only [xIn, xIdx, eN, uC, ht, hper, Bool.false_eq_true, if_false, e1, e2, e3, e4, uS, uN, v1, v2, v3, v4, p1, p2, q1, q2, g1, g2, g3, g4]
  constructor
  · simp only [xStencil, hin, xCorr]
    simp only [xIdx, eN, uC, ht, hper, Bool.false_eq_true, if_false, e1, e2, e5, e6, e7, e8, uS, uN, uW, uE, v1, v2, v3, v4, gx]
  · simp only [xStencilP, hin]
    simp only [xIdx, eN, uC, ht, hper, Bool.false_eq_true, if_false, e1, e2, p1, q1]

/-- The row of an unknown Vz node. -/
theorem z_local (noper : ∀ i, InV m i → m.tv i ≠ -12) (k l : Nat) (hk0 : 0 < k) (hk : k < m.Nx) (hl0 : 0 < l) (hl : l + 1 < m.Nz) :
    zStencil (clean m) k l = zStencil m k l ∧ zStencilP (clean m) k l = zStencilP m k l := by
  obtain ⟨k, rfl⟩ : ∃ j, k = j + 1 := ⟨k - 1, by omega⟩
  obtain ⟨l, rfl⟩ : ∃ j, l = j + 1 := ⟨l - 1, by omega⟩
  have iW : InV m (((k + 1 : Nat) : Int) + (l + 1 : Nat) * (m.Nx + 1) - 1) := ⟨k, l + 1, by omega, by omega, by push_cast; ring⟩
  have iE : InV m (((k + 1 : Nat) : Int) + (l + 1 : Nat) * (m.Nx + 1) + 1) := ⟨k + 2, l + 1, by omega, by omega, by push_cast; ring⟩
  have vC := clean_v m (((k + 1 : Nat) : Int) + (l + 1 : Nat) * (m.Nx + 1)) ⟨k + 1, l + 1, by omega, by omega, by push_cast; ring⟩
  have vW := clean_v m _ iW
  have vE := clean_v m _ iE
  have vS := clean_v m (((k + 1 : Nat) : Int) + (l + 1 : Nat) * (m.Nx + 1) - (m.Nx + 1)) ⟨k + 1, l, by omega, by omega, by push_cast; ring⟩
  have vN := clean_v m (((k + 1 : Nat) : Int) + (l + 1 : Nat) * (m.Nx + 1) + (m.Nx + 1)) ⟨k + 1, l + 2, by omega, by omega, by push_cast; ring⟩
  have u1 := clean_u m (((k + 1 : Nat) : Int) + (l + 1 : Nat) * m.Nx - 1) ⟨k, l + 1, by omega, by omega, by push_cast; ring⟩
  have u2 := clean_u m (((k + 1 : Nat) : Int) + (l + 1 : Nat) * m.Nx) ⟨k + 1, l + 1, by omega, by omega, by push_cast; ring⟩
  have u3 := clean_u m (((k + 1 : Nat) : Int) + (l + 1 : Nat) * m.Nx + m.Nx - 1) ⟨k, l + 2, by omega, by omega, by push_cast; ring⟩
  have u4 := clean_u m (((k + 1 : Nat) : Int) + (l + 1 : Nat) * m.Nx + m.Nx) ⟨k + 1, l + 2, by omega, by omega, by push_cast; ring⟩
  obtain ⟨p1, -, p2⟩ := clean_p m (((k + 1 : Nat) : Int) - 1 + (((l + 1 : Nat) : Int) - 1) * (m.Nx - 1)) ⟨k, l, by omega, by omega, by push_cast; ring⟩
  obtain ⟨q1, -, q2⟩ := clean_p m (((k + 1 : Nat) : Int) - 1 + (((l + 1 : Nat) : Int) - 1) * (m.Nx - 1) + (m.Nx - 1))
    ⟨k, l + 1, by omega, by omega, by push_cast; ring⟩
  obtain ⟨g1, g2⟩ := clean_g m (((k + 1 : Nat) : Int) + (l + 1 : Nat) * m.Nx) ⟨k + 1, l + 1, by omega, by omega, by push_cast; ring⟩
  obtain ⟨g3, g4⟩ := clean_g m (((k + 1 : Nat) : Int) + (l + 1 : Nat) * m.Nx - 1) ⟨k, l + 1, by omega, by omega, by push_cast; ring⟩
  have gz : (clean m).gz (((k + 1 : Nat) : Int) + (l + 1 : Nat) * (m.Nx + 1)) = m.gz (((k + 1 : Nat) : Int) + (l + 1 : Nat) * (m.Nx + 1)) :=
    if_pos ⟨k + 1, l + 1, by omega, by omega, by omega, by omega, by ring⟩
  have nW : (m.tv (((k + 1 : Nat) : Int) + (l + 1 : Nat) * (m.Nx + 1) - 1) == -12) = false := beq_eq_false_iff_ne.2 (noper _ iW)
  have nE : (m.tv (((k + 1 : Nat) : Int) + (l + 1 : Nat) * (m.Nx + 1) + 1) == -12) = false := beq_eq_false_iff_ne.2 (noper _ iE)
  have eN : (clean m).Nx = m.Nx := rfl
  have eNz : (clean m).Nz = m.Nz := rfl
  have e1 : (clean m).dx = m.dx := rfl
  have e2 : (clean m).dz = m.dz := rfl
  have e3 : (clean m).comp = m.comp := rfl
  have e4 : (clean m).oop = m.oop := rfl
  have e5 : (clean m).stab = m.stab := rfl
  have e6 : (clean m).theta = m.theta := rfl
  have e7 : (clean m).dt = m.dt := rfl
  have e8 : (clean m).rho = m.rho := rfl
  have hin : zIn (clean m) (k + 1 : Nat) (l + 1 : Nat) = zIn m (k + 1 : Nat) (l + 1 : Nat) := by
    simp only [zIn, zIdx, eN, eNz, vW, vE, nW, nE, Bool.false_and, Bool.false_eq_true, if_false, e1, e2, e3, e4, vC, u1, u2, u3, u4, p2, q2, g1, g2, g3, g4]
  constructor
  · simp only [zStencil, hin, zCorr]
    simp only [zIdx, eN, eNz, vW, vE, nW, nE, Bool.false_and, Bool.false_eq_true, if_false, e1, e2, e5, e6, e7, e8, vC, vS, vN, u1, u2, u3, u4, gz]
  · simp only [zStencilP, hin]
    simp only [zIdx, eN, eNz, e1, e2, p1, q1]

/-- The volume row of a cell. -/
theorem c_local (k l : Nat) (hk : k + 1 < m.Nx) (hl : l + 1 < m.Nz) : cStencil (clean m) k l = cStencil m k l := by
  have u1 := clean_u m ((k : Int) + ((l : Int) + 1) * m.Nx) ⟨k, l + 1, by omega, by omega, by push_cast; ring⟩
  have u2 := clean_u m ((k : Int) + ((l : Int) + 1) * m.Nx + 1) ⟨k + 1, l + 1, by omega, by omega, by push_cast; ring⟩
  have v1 := clean_v m ((k : Int) + (l : Int) * (m.Nx + 1) + 1) ⟨k + 1, l, by omega, by omega, by push_cast; ring⟩
  have v2 := clean_v m ((k : Int) + (l : Int) * (m.Nx + 1) + 1 + (m.Nx + 1)) ⟨k + 1, l + 1, by omega, by omega, by push_cast; ring⟩
  have eN : (clean m).Nx = m.Nx := rfl
  have e1 : (clean m).dx = m.dx := rfl
  have e2 : (clean m).dz = m.dz := rfl
  have e4 : (clean m).oop = m.oop := rfl
  simp only [cStencil, eN, e1, e2, e4, u1, u2, v1, v2]

/-- The unknown velocities. -/
theorem nodes_local : velNodes (clean m) = velNodes m := by
  have eN : (clean m).Nx = m.Nx := rfl
  have eNz : (clean m).Nz = m.Nz := rfl
  unfold velNodes
  rw [eN, eNz]
  congr 2
  · refine Finset.filter_congr fun q _ => and_congr_right fun h => ?_
    rw [clean_u m _ ⟨q.1, q.2, by omega, by omega, rfl⟩]
  · refine Finset.filter_congr fun q _ => and_congr_right fun h => ?_
    rw [clean_v m _ ⟨q.1, q.2, by omega, by omega, rfl⟩]

/-- An unknown velocity is an inner Vx or Vz node with tag -1. -/
theorem mem_nodes (n : SNode) : n ∈ velNodes m ↔
    (∃ k l : Nat, n = .u ((k : Int) + l * m.Nx) ∧ 0 < k ∧ k + 1 < m.Nx ∧ 0 < l ∧ l < m.Nz ∧ m.tu ((k : Int) + l * m.Nx) = -1) ∨
    ∃ k l : Nat, n = .v ((k : Int) + l * (m.Nx + 1)) ∧ 0 < k ∧ k < m.Nx ∧ 0 < l ∧ l + 1 < m.Nz ∧ m.tv ((k : Int) + l * (m.Nx + 1)) = -1 := by
  unfold velNodes
  simp only [mem_union, mem_image, mem_filter, mem_product, mem_range, Prod.exists]
  refine or_congr ⟨?_, ?_⟩ ⟨?_, ?_⟩
  · rintro ⟨k, l, ⟨⟨a, b⟩, ⟨c1, c2, c3, c4⟩, d⟩, rfl⟩; exact ⟨k, l, rfl, c1, c2, c3, c4, d⟩
  · rintro ⟨k, l, rfl, c1, c2, c3, c4, d⟩; exact ⟨k, l, ⟨⟨by omega, by omega⟩, ⟨c1, c2, c3, c4⟩, d⟩, rfl⟩
  · rintro ⟨k, l, ⟨⟨a, b⟩, ⟨c1, c2, c3, c4⟩, d⟩, rfl⟩; exact ⟨k, l, rfl, c1, c2, c3, c4, d⟩
  · rintro ⟨k, l, rfl, c1, c2, c3, c4, d⟩; exact ⟨k, l, ⟨⟨by omega, by omega⟩, ⟨c1, c2, c3, c4⟩, d⟩, rfl⟩

/-- Assembled velocity row of an unknown Vx node and of an unknown Vz node. -/
theorem velRow_u (k l : Nat) (hk : k < m.Nx) : velRow m (.u ((k : Int) + l * m.Nx)) = xStencil m k l := by
  simp only [velRow]
  rw [colOf_mk _ _ _ (by omega) (by omega), rowOf_mk _ _ _ (by omega) (by omega)]
/-- See `velRow_u`. -/
theorem velRow_v (k l : Nat) (hk : k ≤ m.Nx) : velRow m (.v ((k : Int) + l * (m.Nx + 1))) = zStencil m k l := by
  simp only [velRow]
  rw [colOf_mk _ _ _ (by omega) (by omega), rowOf_mk _ _ _ (by omega) (by omega)]

theorem velRow_local (noper : ∀ i, InV m i → m.tv i ≠ -12) (n : SNode) (hn : n ∈ velNodes m) : velRow (clean m) n = velRow m n := by
  rcases (mem_nodes m n).1 hn with ⟨k, l, rfl, a, b, c, d, t⟩ | ⟨k, l, rfl, a, b, c, d, -⟩
  · rw [velRow_u m k l (by omega)]
    exact (velRow_u (clean m) k l (show k < m.Nx by omega)).trans (x_local m k l a b c d t).1
  · rw [velRow_v m k l (by omega)]
    exact (velRow_v (clean m) k l (show k ≤ m.Nx by omega)).trans (z_local m noper k l a b c d).1

theorem work_local (noper : ∀ i, InV m i → m.tv i ≠ -12) (x : SNode → K) : viscousWork (clean m) x = viscousWork m x := by
  unfold viscousWork
  rw [nodes_local]
  refine Finset.sum_congr rfl fun d hd => ?_
  rw [velRow_local m noper d hd]

end

/-- As `Viscous`, asked inside the arrays only. -/
structure ViscousIn (m : SMesh K) : Prop where
  iso : ∀ c, InP m c → m.D22 c = m.D11 c
  cell : ∀ c, InP m c → 0 ≤ m.D11 c
  vertex : ∀ c, InG m c → 0 ≤ m.D33 c
  air : ∀ c, InP m c → m.tp c ≠ -1 → m.D11 c = 0
  tags : ∀ c, InP m c → CellOk (m.tp c)

/-- As `ClosedBox`, asked inside the arrays only. -/
structure ClosedBoxIn (m : SMesh K) : Prop where
  u : ∀ i, InnerU m i → m.tu i ≠ 11 ∧ m.tu i ≠ 13
  v : ∀ i, InnerV m i → m.tv i ≠ 11 ∧ m.tv i ≠ 13
  notPeriodic : ∀ i, InV m i → m.tv i ≠ -12

section
variable {m : SMesh K}

theorem ViscousIn.clean (h : ViscousIn m) : Viscous (clean m) where
  iso := fun c => by
    by_cases hc : InP m c
    · obtain ⟨-, e1, e2⟩ := clean_p m c hc; rw [e1, e2, h.iso c hc]
    · show (if InP m c then _ else _) = if InP m c then _ else _
      rw [if_neg hc, if_neg hc]
  cell := fun k l hk hl => by
    have hc : InP m ((k : Int) + l * (m.Nx - 1)) := ⟨k, l, hk, hl, rfl⟩
    have := h.cell _ hc
    rw [← (clean_p m _ hc).2.1] at this
    exact this
  vertex := fun k l hk hl => by
    have hc : InG m ((k : Int) + l * m.Nx) := ⟨k, l, hk, hl, rfl⟩
    have := h.vertex _ hc
    rw [← (clean_g m _ hc).2] at this
    exact this
  air := fun c ht => by
    by_cases hc : InP m c
    · obtain ⟨e0, e1, e2⟩ := clean_p m c hc
      rw [e1]; exact h.air c hc (e0 ▸ ht)
    · exact if_neg hc
  tags := fun c => by
    by_cases hc : InP m c
    · rw [(clean_p m c hc).1]; exact h.tags c hc
    · have : (Verif.clean m).tp c = 30 := if_neg hc
      rw [this]; exact Or.inr (Or.inl rfl)

theorem ClosedBoxIn.clean (h : ClosedBoxIn m) : ClosedBox (clean m) where
  u := fun k l h1 h2 h3 h4 => by
    have := h.u ((k : Int) + l * m.Nx) ⟨k, l, h1, h2, h3, h4, rfl⟩
    rw [← clean_u m _ ⟨k, l, by have : k + 1 < m.Nx := h2; omega, by have : l < m.Nz := h4; omega, rfl⟩] at this
    exact this
  v := fun k l h1 h2 h3 h4 => by
    have := h.v ((k : Int) + l * (m.Nx + 1)) ⟨k, l, h1, h2, h3, h4, rfl⟩
    rw [← clean_v m _ ⟨k, l, by have : k < m.Nx := h2; omega, by have : l + 1 < m.Nz := h4; omega, rfl⟩] at this
    exact this
  notPeriodic := fun i => by
    by_cases hi : InV m i
    · rw [clean_v m i hi]; exact h.notPeriodic i hi
    · have : (Verif.clean m).tv i = 0 := if_neg hi
      rw [this]; decide

theorem StableOrOff.clean (h : StableOrOff m) : StableOrOff (clean m) := by
  intro hs
  obtain ⟨h1, h2, h3⟩ := h hs
  refine ⟨h1, fun k l a b c d => ?_, fun k l a b c d => ?_⟩
  · have e : (Verif.clean m).gx ((k : Int) + l * m.Nx) = m.gx ((k : Int) + l * m.Nx) := if_pos ⟨k, l, a, b, c, d, rfl⟩
    have := h2 k l a b c d
    rw [← e] at this
    exact this
  · have e : (Verif.clean m).gz ((k : Int) + l * (m.Nx + 1)) = m.gz ((k : Int) + l * (m.Nx + 1)) := if_pos ⟨k, l, a, b, c, d, rfl⟩
    have := h3 k l a b c d
    rw [← e] at this
    exact this

theorem rock_clean (k l : Nat) (hk : k + 1 < m.Nx) (hl : l + 1 < m.Nz) : RockCell (clean m) k l ↔ RockCell m k l := by
  have e := (clean_p m ((k : Int) + l * (m.Nx - 1)) ⟨k, l, hk, hl, rfl⟩).1
  show (clean m).tp ((k : Int) + l * (m.Nx - 1)) = -1 ↔ _
  rw [e]; rfl

theorem AllRock.clean (h : AllRock m) : AllRock (clean m) := fun k l hk hl => by
  obtain ⟨e0, e1, -⟩ := clean_p m ((k : Int) + l * (m.Nx - 1)) ⟨k, l, hk, hl, rfl⟩
  have := h k l hk hl
  rw [← e0, ← e1] at this
  exact this

theorem Terrain.clean (h : Terrain m) : Terrain (clean m) where
  viscous := fun k l hk hl r => by
    have := h.viscous k l hk hl ((rock_clean (m := m) k l hk hl).1 r)
    rw [← (clean_p m ((k : Int) + l * (m.Nx - 1)) ⟨k, l, hk, hl, rfl⟩).2.1] at this
    exact this
  base := fun k hk hz => (rock_clean (m := m) k 0 hk (by have : 1 < m.Nz := hz; omega)).2 (h.base k hk hz)
  column := fun k l hk hl r => (rock_clean (m := m) k l hk (by have : l + 2 < m.Nz := hl; omega)).2 (h.column k l hk hl ((rock_clean (m := m) k (l + 1) hk hl).1 r))
  tied := fun k l hk hl l0 r => by
    have hk' : k + 1 < m.Nx := hk
    rcases h.tied k l hk hl l0 ((rock_clean (m := m) k l hk hl).1 r) with q | q | q | q
    · exact Or.inl q
    · exact Or.inr (Or.inl q)
    · exact Or.inr (Or.inr (Or.inl ((rock_clean (m := m) (k - 1) l (by omega) hl).2 q)))
    · by_cases e : k + 2 = m.Nx
      · exact Or.inr (Or.inl e)
      · exact Or.inr (Or.inr (Or.inr ((rock_clean (m := m) (k + 1) l (by omega) hl).2 q)))
  vertex := fun k l k0 hk l0 hl a b c d => by
    have hk' : k + 1 < m.Nx := hk
    have hl' : l + 1 < m.Nz := hl
    have := h.vertex k l k0 hk l0 hl ((rock_clean (m := m) _ _ (by omega) (by omega)).1 a) ((rock_clean (m := m) _ _ hk' (by omega)).1 b)
      ((rock_clean (m := m) _ _ (by omega) hl').1 c) ((rock_clean (m := m) _ _ hk' hl').1 d)
    obtain ⟨e0, e1⟩ := clean_g m ((k : Int) + l * m.Nx) ⟨k, l, by omega, by omega, rfl⟩
    rw [← e0, ← e1] at this
    exact this
  u := fun k l k0 hk l0 hl ht => by
    have hk' : k + 1 < m.Nx := hk
    have hl' : l < m.Nz := hl
    have e := clean_u m ((k : Int) + l * m.Nx) ⟨k, l, by omega, by omega, rfl⟩
    rcases h.u k l k0 hk l0 hl (e.symm.trans ht) with q | q
    · exact Or.inl ((rock_clean (m := m) _ _ (by omega) (by omega)).2 q)
    · exact Or.inr ((rock_clean (m := m) _ _ hk' (by omega)).2 q)
  v := fun k l k0 hk l0 hl ht => by
    have hk' : k < m.Nx := hk
    have hl' : l + 1 < m.Nz := hl
    have e := clean_v m ((k : Int) + l * (m.Nx + 1)) ⟨k, l, by omega, by omega, rfl⟩
    rcases h.v k l k0 hk l0 hl (e.symm.trans ht) with q | q
    · exact Or.inl ((rock_clean (m := m) _ _ (by omega) (by omega)).2 q)
    · exact Or.inr ((rock_clean (m := m) _ _ (by omega) hl').2 q)

/-- A velocity field that does no viscous work is at rest, without air or below gentle topography: if the flow is not both compressible and out of plane, or if it keeps the volume of
every rock cell.  No field does negative work. -/
theorem work_in [CharZero K] [IsStrictOrderedRing K] (hv : ViscousIn m) (hb : ClosedBoxIn m) (hs : StableOrOff m) (hdx : 0 < m.dx) (hdz : 0 < m.dz)
    (x : SNode → K) : 0 ≤ viscousWork m x ∧
      ((AllRock m ∨ Terrain m) → (¬ (m.comp = true ∧ m.oop = true) ∨
        ∀ k l : Nat, k + 1 < m.Nx → l + 1 < m.Nz → RockCell m k l → ∑ e ∈ velNodes m, coeff (cStencil m k l) e * x e = 0) →
        viscousWork m x = 0 → ∀ n ∈ velNodes m, x n = 0) := by
  rw [← work_local m hb.notPeriodic, ← nodes_local]
  refine ⟨viscous_work_nonneg_partial (clean m) x hv.clean hb.clean hs.clean hdx hdz, fun hr hco h0 => ?_⟩
  rcases hco with hco | hvol
  · rcases hr with hr | hr
    · exact viscous_work_pos (clean m) x hv.clean hb.clean hs.clean hdx hdz hr.clean hco h0
    · exact terrain_work_pos (clean m) x hv.clean hb.clean hs.clean hdx hdz hr.clean hco h0
  · refine rest_same_volume (clean m) x hv.clean hb.clean hs.clean hdx hdz (hr.imp AllRock.clean Terrain.clean) (fun k l hk hl r => ?_) h0
    have hk' : k + 1 < m.Nx := hk
    have hl' : l + 1 < m.Nz := hl
    rw [c_local m k l hk' hl']
    exact hvol k l hk' hl' ((rock_clean (m := m) _ _ hk' hl').1 r)

end
end Verif
