import Verif.Model.Residual
import Verif.Props.Extract
import Verif.Props.GridFields
import Verif.Props.StencilExamples

set_option linter.unusedVariables false
set_option linter.unusedSectionVars false

/- C104: a layered model at rest under its lithostatic pressure is in exact discrete balance. -/
namespace Verif.Resid
open Verif Verif.GridField Verif.Spec

section
variable {K : Type*} [Field K] [LinearOrder K] [IsStrictOrderedRing K]

/-- The lithostatic pressure of a mesh (cell arrays of the mesh read with natural indices). -/
def lithP (m : SMesh K) (gz bkg : K) : Int → K := fun i =>
  lithostatic (m.Nx - 1) (m.Nz - 1) (fun c => m.tp c) gz m.dz bkg (fun c => m.rho c) i.toNat

/-- Cell in column `k`, row `l`. -/
def cell (m : SMesh K) (k l : Nat) : Nat := k + l * (m.Nx - 1)

/-- Tags and densities depend on the row only. -/
def Layered (m : SMesh K) : Prop :=
  ∀ l < m.Nz - 1, ∀ k < m.Nx - 1, ∀ k' < m.Nx - 1,
    m.rho (cell m k l) = m.rho (cell m k' l) ∧ m.tp (cell m k l) = m.tp (cell m k' l)

theorem south (m : SMesh K) (k l : Nat) (hk : k + 1 < m.Nx) :
    (zIdx m (k + 1 : Nat) (l + 1 : Nat)).pS = (cell m k l : Nat) := by
  unfold zIdx cell
  simp only
  obtain ⟨n, hn⟩ : ∃ n, m.Nx = n + 1 := ⟨m.Nx - 1, by omega⟩
  rw [hn, show n + 1 - 1 = n by omega]
  push_cast
  ring

theorem north (m : SMesh K) (k l : Nat) (hk : k + 1 < m.Nx) :
    (zIdx m (k + 1 : Nat) (l + 1 : Nat)).pN = (cell m k (l + 1) : Nat) := by
  unfold zIdx cell
  simp only
  obtain ⟨n, hn⟩ : ∃ n, m.Nx = n + 1 := ⟨m.Nx - 1, by omega⟩
  rw [hn, show n + 1 - 1 = n by omega]
  push_cast
  ring

/-- Body force of an interior Vz node, cells named. -/
theorem rogerZ_inner (m : SMesh K) (B : Body K) (k l : Nat) (hk : k + 1 < m.Nx)
    (ht : m.tv ((k + 1 : Nat) + (l + 1 : Nat) * (m.Nx + 1)) = -1) (hsurf : B.surf = false ∨
      ¬ AirFlag (m.tp (cell m k l)) ∧ ¬ AirFlag (m.tp (cell m k (l + 1)))) :
    rogerZ m B (k + 1 : Nat) (l + 1 : Nat) = B.gz * (1 / 2 * (m.rho (cell m k l) + m.rho (cell m k (l + 1)))) := by
  have h1 := south m k l hk
  have h2 := north m k l hk
  unfold zIdx at h1 h2
  simp only at h1 h2
  unfold rogerZ
  simp only
  rw [h2, h1, if_pos ⟨by omega, by push_cast; omega, ht⟩, if_neg]
  · ring
  · rintro ⟨hs, hair, -⟩
    rcases hsurf with h | ⟨h3, h4⟩
    · rw [h] at hs; exact absurd hs (by decide)
    · unfold AirFlag at h3 h4
      tauto

theorem zRes_inner (m : SMesh K) (p : Int → K) (b : K) (k l : Nat) (hk : k + 1 < m.Nx) (hl : l + 2 < m.Nz) :
    zResidual m (fun _ => 0) (fun _ => 0) p b (fun _ => 0) (k + 1 : Nat) (l + 1 : Nat)
      = (-(p (cell m k (l + 1)) - p (cell m k l)) / m.dz + b) * -(m.dx * m.dz) := by
  have h1 := south m k l hk
  have h2 := north m k l hk
  have hS : (zIn m (k + 1 : Nat) (l + 1 : Nat)).SS = 0 := by
    unfold zIn flag
    simp only
    rw [if_neg]
    rw [Bool.and_eq_true, beq_iff_eq]
    omega
  have hN : (zIn m (k + 1 : Nat) (l + 1 : Nat)).SN = 0 := by
    unfold zIn flag
    simp only
    rw [if_neg]
    rw [Bool.and_eq_true, beq_iff_eq]
    omega
  unfold zResidual
  simp only [h1, h2, hS, hN]
  ring

/-- C104 (vertical).  Whatever the densities and the tags, with no motion and no deviatoric stress: every
vertical momentum equation between two rock cells is satisfied exactly by the lithostatic pressure. -/
theorem vertical_balance (m : SMesh K) (B : Body K) (bkg : K) (hdz : m.dz ≠ 0) (k l : Nat) (hk : k + 1 < m.Nx) (hl : l + 2 < m.Nz)
    (ht : m.tv ((k + 1 : Nat) + (l + 1 : Nat) * (m.Nx + 1)) = -1)
    (h1 : ¬ AirFlag (m.tp (cell m k l))) (h2 : ¬ AirFlag (m.tp (cell m k (l + 1)))) :
    zResidual m (fun _ => 0) (fun _ => 0) (lithP m B.gz bkg) (rogerZ m B (k + 1 : Nat) (l + 1 : Nat)) (fun _ => 0)
      (k + 1 : Nat) (l + 1 : Nat) = 0 := by
  rw [zRes_inner m _ _ k l hk hl, rogerZ_inner m B k l hk ht (Or.inr ⟨h1, h2⟩)]
  have hd := lith_difference (m.Nx - 1) (m.Nz - 1) (fun c => m.tp c) B.gz m.dz bkg (fun c => m.rho c) k l
    (by omega) (by omega) h1 h2
  have e : -(lithP m B.gz bkg (cell m k (l + 1)) - lithP m B.gz bkg (cell m k l))
      = -B.gz * ((m.rho (cell m k l) + m.rho (cell m k (l + 1))) / 2) * m.dz := by
    have hd' : lithP m B.gz bkg (cell m k l) - lithP m B.gz bkg (cell m k (l + 1))
      = -B.gz * ((m.rho (cell m k l) + m.rho (cell m k (l + 1))) / 2) * m.dz := hd
    rw [← hd']; ring
  rw [e]
  have : (2 : K) ≠ 0 := two_ne_zero
  field_simp
  ring

/-- C104 (free surface).  Rock up to row `l` and air in the cell above: what is left in the vertical momentum
equation is the background pressure and the weight still attributed to the air cell. -/
theorem surface_balance (m : SMesh K) (B : Body K) (bkg : K) (hdz : m.dz ≠ 0) (k l : Nat) (hk : k + 1 < m.Nx) (hl : l + 2 < m.Nz)
    (ht : m.tv ((k + 1 : Nat) + (l + 1 : Nat) * (m.Nx + 1)) = -1) (hsurf : B.surf = false)
    (hrock : ∀ j ≤ l, ¬ AirFlag (m.tp (cell m k j))) (hair : AirFlag (m.tp (cell m k (l + 1)))) :
    zResidual m (fun _ => 0) (fun _ => 0) (lithP m B.gz bkg) (rogerZ m B (k + 1 : Nat) (l + 1 : Nat)) (fun _ => 0)
      (k + 1 : Nat) (l + 1 : Nat) = -(m.dx * m.dz) * (bkg / m.dz + B.gz * m.rho (cell m k (l + 1)) / 2) := by
  rw [zRes_inner m _ _ k l hk hl, rogerZ_inner m B k l hk ht (Or.inl hsurf)]
  have hN : lithP m B.gz bkg (cell m k (l + 1)) = 0 :=
    lith_air (m.Nx - 1) (m.Nz - 1) (fun c => m.tp c) B.gz m.dz bkg (fun c => m.rho c) k (l + 1) (by omega) (by omega) hair
  have hS : lithP m B.gz bkg (cell m k l) = bkg + overburden (-B.gz) m.dz (fun j => m.rho (cell m k j)) l (l + 1) :=
    lith_weight (m.Nx - 1) (m.Nz - 1) (fun c => m.tp c) B.gz m.dz bkg (fun c => m.rho c) k (l + 1) (by omega) (by omega)
      hair (fun j hj => hrock j (by omega)) l (by omega)
  rw [hN, hS]
  unfold overburden
  simp only [Finset.Ico_self, Finset.sum_empty]
  have : (2 : K) ≠ 0 := two_ne_zero
  field_simp
  ring

/-- So the free surface is in balance exactly when the air cell weighs what the background pressure carries,
in particular without background pressure and with weightless air. -/
theorem surface_balance_iff (m : SMesh K) (B : Body K) (bkg : K) (hdx : m.dx ≠ 0) (hdz : m.dz ≠ 0) (k l : Nat)
    (hk : k + 1 < m.Nx) (hl : l + 2 < m.Nz)
    (ht : m.tv ((k + 1 : Nat) + (l + 1 : Nat) * (m.Nx + 1)) = -1) (hsurf : B.surf = false)
    (hrock : ∀ j ≤ l, ¬ AirFlag (m.tp (cell m k j))) (hair : AirFlag (m.tp (cell m k (l + 1)))) :
    zResidual m (fun _ => 0) (fun _ => 0) (lithP m B.gz bkg) (rogerZ m B (k + 1 : Nat) (l + 1 : Nat)) (fun _ => 0)
      (k + 1 : Nat) (l + 1 : Nat) = 0 ↔ bkg / m.dz = -(B.gz * m.rho (cell m k (l + 1)) / 2) := by
  rw [surface_balance m B bkg hdz k l hk hl ht hsurf hrock hair, mul_eq_zero, neg_eq_zero, mul_eq_zero]
  constructor
  · rintro ((h | h) | h)
    · exact absurd h hdx
    · exact absurd h hdz
    · linear_combination h
  · intro h
    right
    linear_combination h

/-- In a layered model the lithostatic pressure depends on the row only. -/
theorem lith_layered (m : SMesh K) (gz bkg : K) (hlay : Layered m) (l : Nat) (hl : l < m.Nz - 1)
    (k k' : Nat) (hk : k < m.Nx - 1) (hk' : k' < m.Nx - 1) :
    lithP m gz bkg (cell m k l) = lithP m gz bkg (cell m k' l) := by
  obtain ⟨p, ⟨htop, hp⟩, he⟩ := lith_eq (m.Nx - 1) (m.Nz - 1) (fun c => m.tp c) gz m.dz bkg (fun c => m.rho c)
  have key : ∀ d l, l + d + 1 = m.Nz - 1 → p (cell m k l) = p (cell m k' l) := by
    intro d
    induction d with
    | zero =>
      intro l h
      have h1 := htop k hk
      have h2 := htop k' hk'
      rw [show m.Nz - 1 - 1 = l by omega] at h1 h2
      exact h1.trans h2.symm
    | succ d ih =>
      intro l h
      have h1 := hp k hk l (by omega)
      have h2 := hp k' hk' l (by omega)
      obtain ⟨r, t⟩ := hlay l (by omega) k hk k' hk'
      have i := ih (l + 1) (by omega)
      unfold cell at r t i ⊢
      rw [h1, h2, t, r, i]
  have h1 := he k hk l hl
  have h2 := he k' hk' l hl
  obtain ⟨r, t⟩ := hlay l hl k hk k' hk'
  have i := key (m.Nz - 1 - 1 - l) l (by omega)
  show lithostatic _ _ _ _ _ _ _ (cell m k l) = lithostatic _ _ _ _ _ _ _ (cell m k' l)
  unfold cell at r t i ⊢
  rw [h1, h2, t, r, i]

private theorem xRes_inner (m : SMesh K) (p : Int → K) (b : K) (k l : Nat) (hk : k + 2 < m.Nx)
    (ht : m.tu ((k + 1 : Nat) + (l + 1 : Nat) * m.Nx) = -1) :
    xResidual m (fun _ => 0) (fun _ => 0) p b (fun _ => 0) (k + 1 : Nat) (l + 1 : Nat)
      = (-(p (cell m (k + 1) l) - p (cell m k l)) / m.dx + b) * -(m.dx * m.dz) := by
  obtain ⟨n, hn⟩ : ∃ n, m.Nx = n + 1 := ⟨m.Nx - 1, by omega⟩
  have hper : (m.tu (((k + 1 : Nat) : Int) + ((l + 1 : Nat) : Int) * m.Nx) == -2) = false := by rw [ht]; rfl
  have h1 : (xIdx m (k + 1 : Nat) (l + 1 : Nat)).pW = (cell m k l : Nat) := by
    unfold xIdx cell
    simp only [hper]
    rw [hn, show n + 1 - 1 = n by omega]
    push_cast
    simp
  have h2 : (xIdx m (k + 1 : Nat) (l + 1 : Nat)).pE = (cell m (k + 1) l : Nat) := by
    unfold xIdx cell
    simp only
    rw [hn, show n + 1 - 1 = n by omega]
    push_cast
    ring
  have hS : (xIn m (k + 1 : Nat) (l + 1 : Nat)).SW = 0 := by
    unfold xIn flag
    simp only
    rw [if_neg]
    rw [Bool.and_eq_true, beq_iff_eq]
    omega
  have hN : (xIn m (k + 1 : Nat) (l + 1 : Nat)).SE = 0 := by
    unfold xIn flag
    simp only
    rw [if_neg]
    rw [Bool.and_eq_true, beq_iff_eq]
    omega
  unfold xResidual
  simp only [h1, h2, hS, hN]
  ring

/-- C104 (horizontal).  In a layered model with vertical gravity every interior horizontal momentum equation
is satisfied exactly by the lithostatic pressure. -/
theorem horizontal_balance (m : SMesh K) (B : Body K) (bkg : K) (hlay : Layered m) (hg : B.gx = 0) (k l : Nat)
    (hk : k + 2 < m.Nx) (hl : l < m.Nz - 1) (ht : m.tu ((k + 1 : Nat) + (l + 1 : Nat) * m.Nx) = -1) :
    xResidual m (fun _ => 0) (fun _ => 0) (lithP m B.gz bkg) (rogerX m B (k + 1 : Nat) (l + 1 : Nat)) (fun _ => 0)
      (k + 1 : Nat) (l + 1 : Nat) = 0 := by
  rw [xRes_inner m _ _ k l hk ht, lith_layered m B.gz bkg hlay l hl (k + 1) k (by omega) (by omega)]
  have : rogerX m B (k + 1 : Nat) (l + 1 : Nat) = 0 := by
    unfold rogerX
    simp only [hg, zero_mul, neg_zero, ite_self]
  rw [this]
  ring

/-- The same at the west node of a periodic pair. -/
theorem horizontal_balance_periodic (m : SMesh K) (B : Body K) (bkg : K) (hlay : Layered m) (hg : B.gx = 0) (l : Nat)
    (hNx : 2 ≤ m.Nx) (hl : l < m.Nz - 1) (ht : m.tu (0 + (l + 1 : Nat) * m.Nx) = -2) :
    xResidual m (fun _ => 0) (fun _ => 0) (lithP m B.gz bkg) (rogerX m B 0 (l + 1 : Nat)) (fun _ => 0)
      0 (l + 1 : Nat) = 0 := by
  obtain ⟨n, hn⟩ : ∃ n, m.Nx = n + 1 := ⟨m.Nx - 1, by omega⟩
  have hper : (m.tu (0 + ((l + 1 : Nat) : Int) * m.Nx) == -2) = true := by rw [ht]; rfl
  have h1 : (xIdx m 0 (l + 1 : Nat)).pW = (cell m (m.Nx - 2) l : Nat) := by
    unfold xIdx cell
    simp only [hper]
    rw [hn, show n + 1 - 1 = n by omega, show n + 1 - 2 = n - 1 by omega]
    push_cast
    have : ((n - 1 : Nat) : Int) = n - 1 := by omega
    rw [this]
    ring
  have h2 : (xIdx m 0 (l + 1 : Nat)).pE = (cell m 0 l : Nat) := by
    unfold xIdx cell
    simp only
    rw [hn, show n + 1 - 1 = n by omega]
    push_cast
    ring
  have hS : (xIn m 0 (l + 1 : Nat)).SW = 0 := by
    unfold xIn flag
    simp only [ht]
    simp
  have hN : (xIn m 0 (l + 1 : Nat)).SE = 0 := by
    unfold xIn flag
    simp only [ht]
    simp
  have hr : rogerX m B 0 (l + 1 : Nat) = 0 := by
    unfold rogerX
    simp only [hg, zero_mul, neg_zero, ite_self]
  unfold xResidual
  simp only [h1, h2, hS, hN, hr, lith_layered m B.gz bkg hlay l hl (m.Nx - 2) 0 (by omega) (by omega)]
  ring

/-- C104 (mass).  Without motion, pressure change and source the continuity equation is satisfied too. -/
theorem rest_continuity (m : SMesh K) (c : Int) (comp : Bool) (bet p dt : K) :
    contResidual comp false bet p p 0 dt (divU m (fun _ => 0) (fun _ => 0) c) 0 (m.dx * m.dz) = 0 ∧
    contResidual comp true bet p p 0 dt (divU m (fun _ => 0) (fun _ => 0) c) 0 (m.dx * m.dz) = 0 := by
  have : divU m (fun _ => 0) (fun _ => 0) c = 0 := by
    unfold divU
    simp
  constructor <;> simp [contResidual, this]

/-- A lower boundary with a prescribed normal stress is never in balance: the body force is left out of
these rows, so even with the exact stress at depth (pressure of the lowest cell plus half a cell of weight)
half the weight of that cell is missing. -/
theorem stress_base_unbalanced (m : SMesh K) (B : Body K) (p : Int → K) (hdx : m.dx ≠ 0) (hdz : m.dz ≠ 0)
    (k : Int) (hNz : 2 ≤ m.Nz) (ht : m.tv (k + 0 * (m.Nx + 1)) = 2)
    (hstress : m.bv k = -(p (zIdx m k 0).pN - B.gz * m.rho (zIdx m k 0).pN * m.dz / 2)) :
    zResidual m (fun _ => 0) (fun _ => 0) p (rogerZ m B k 0) (fun _ => 0) k 0
      = B.gz * m.rho (zIdx m k 0).pN / 2 * (m.dx * m.dz) := by
  have hr : rogerZ m B k 0 = 0 := by
    unfold rogerZ
    simp only [ht]
    simp
  have hC : (zIdx m k 0).C = k := by unfold zIdx; simp
  have hS : (zIn m k 0).SS = 1 := by
    unfold zIn flag
    simp only [hC]
    rw [show k + 0 * ((m.Nx : Int) + 1) = k by ring] at ht
    rw [ht]
    simp
  have hN : (zIn m k 0).SN = 0 := by
    unfold zIn flag
    simp only
    rw [if_neg]
    rw [Bool.and_eq_true, beq_iff_eq]
    omega
  unfold zResidual
  simp only [hS, hN, hr, hC, hstress]
  have : (2 : K) ≠ 0 := two_ne_zero
  field_simp
  ring

/-! ### examples -/

/-- Three rock rows of different density under one row of air of 4 by 4 cells, closed sides. -/
def layerMesh : SMesh ℚ := { demoMesh with
  tp := fun i => if i / 4 = 3 then 31 else -1
  rho := fun i => if i / 4 = 3 then 0 else 3000 - 100 * (i / 4 : Int) }

def layerBody : Body ℚ where
  gx := 0
  gz := -10
  rhoS := fun _ => 7
  surf := false
  W := 0
  Vinc := 0
  xvz := fun _ => 0

theorem layerMesh_layered : Layered layerMesh := by
  unfold Layered cell layerMesh demoMesh
  decide +kernel

/-- The hypotheses of all balance theorems are met, and the pressure is not constant. -/
example :
    zResidual layerMesh (fun _ => 0) (fun _ => 0) (lithP layerMesh (-10) 0) (rogerZ layerMesh layerBody 2 1) (fun _ => 0) 2 1 = 0 ∧
    zResidual layerMesh (fun _ => 0) (fun _ => 0) (lithP layerMesh (-10) 0) (rogerZ layerMesh layerBody 2 3) (fun _ => 0) 2 3 = 0 ∧
    xResidual layerMesh (fun _ => 0) (fun _ => 0) (lithP layerMesh (-10) 0) (rogerX layerMesh layerBody 2 2) (fun _ => 0) 2 2 = 0 ∧
    lithP layerMesh (-10) 0 (cell layerMesh 1 0) ≠ lithP layerMesh (-10) 0 (cell layerMesh 1 1) := by
  refine ⟨?_, ?_, ?_, by decide +kernel⟩
  · exact vertical_balance layerMesh layerBody 0 (by decide +kernel) 1 0 (by decide +kernel) (by decide +kernel)
      (by decide +kernel) (by decide +kernel) (by decide +kernel)
  · exact (surface_balance_iff layerMesh layerBody 0 (by decide +kernel) (by decide +kernel) 1 2 (by decide +kernel)
      (by decide +kernel) (by decide +kernel) rfl (by decide +kernel) (by decide +kernel)).2 (by decide +kernel)
  · exact horizontal_balance layerMesh layerBody 0 layerMesh_layered rfl 1 1 (by decide +kernel) (by decide +kernel)
      (by decide +kernel)

/-- With a background pressure of 1e5 the surface is out of balance. -/
example : zResidual layerMesh (fun _ => 0) (fun _ => 0) (lithP layerMesh (-10) 100000) (rogerZ layerMesh layerBody 2 3)
    (fun _ => 0) 2 3 ≠ 0 := by
  have h := surface_balance layerMesh layerBody 100000 (by decide +kernel) 1 2 (by decide +kernel)
      (by decide +kernel) (by decide +kernel) rfl (by decide +kernel) (by decide +kernel)
  have h' : zResidual layerMesh (fun _ => 0) (fun _ => 0) (lithP layerMesh (-10) 100000) (rogerZ layerMesh layerBody 2 3)
    (fun _ => 0) 2 3 = _ := h
  rw [h']
  decide +kernel

/-! ### momentum right-hand side -/

/-- Running-counter store of one loop, with the entry of every passing node. -/
private theorem fill_loop (tag : Nat → Int) (src : Nat → K) (s0 : (Nat → K) × Nat) (n : Nat) :
    let o := forUp n s0 fun s cc => if extractVel (tag cc) then (upd s.1 s.2 (src cc), s.2 + 1) else s
    o.2 = s0.2 + Nat.count (fun k => extractVel (tag k) = true) n ∧
    (∀ k < n, extractVel (tag k) = true → o.1 (s0.2 + Nat.count (fun k => extractVel (tag k) = true) k) = src k) ∧
    (∀ e < s0.2, o.1 e = s0.1 e) := by
  induction n with
  | zero => exact ⟨by simp [forUp], by simp, fun _ _ => rfl⟩
  | succ n ih =>
    obtain ⟨h1, h2, h3⟩ := ih
    simp only [forUp_succ] at h1 h2 h3 ⊢
    by_cases hc : extractVel (tag n) = true
    · simp only [hc, if_true]
      refine ⟨?_, ?_, ?_⟩
      · rw [h1, Nat.count_succ, if_pos hc]; ring
      · intro k hk hok
        rcases Nat.lt_succ_iff_lt_or_eq.1 hk with h | rfl
        · rw [upd_ne, h2 k h hok]
          rw [h1]
          have := Nat.count_strict_mono (p := fun k => extractVel (tag k) = true) hok h
          omega
        · rw [h1, upd_same]
      · intro e he
        rw [upd_ne _ _ (by omega), h3 e he]
    · simp only [hc, Bool.false_eq_true, if_false]
      refine ⟨?_, ?_, ?_⟩
      · rw [h1, Nat.count_succ, if_neg hc, Nat.add_zero]
      · intro k hk hok
        rcases Nat.lt_succ_iff_lt_or_eq.1 hk with h | rfl
        · exact h2 k h hok
        · exact absurd hok hc
      · exact h3

/-- C104 (right-hand side).  The running counter of the assembly stores the body force of every solved velocity
node under the equation number of that node. -/
theorem body_force_reaches_equation (Nx Nz : Nat) (hNx : 2 ≤ Nx) (t : Tags) (ht : TagsOk Nx Nz t) (junk : Nat → Int)
    (f : Fields K) (b : Nat → K) :
    let n := evalNumberOfEquations Nx Nz t junk
    ∀ x : Dof, x.InGrid Nx Nz → x.Solved t → (∀ k, x ≠ .p k) →
      fillRhs Nx Nz t f.u f.v b (x.eqn n).toNat = x.value f := by
  intro n x hx hs hp
  obtain ⟨cu, cv, cp, R⟩ := rankForm Nx Nz hNx t junk ht.east
  have hcu : ∀ j ≤ (Nz + 1) * Nx, Nat.count (fun k => extractVel (t.u k) = true) j =
      Nat.count (fun k => numberedU (t.u k) = true) j := fun j hj =>
    count_congr_lt _ fun k hk => by rw [extractVel_u ht (by omega)]
  have hcv : ∀ j ≤ Nz * (Nx + 1), Nat.count (fun k => extractVel (t.v k) = true) j =
      Nat.count (fun k => numberedV (t.v k) = true) j := fun j hj =>
    count_congr_lt _ fun k hk => by rw [extractVel_v ht (by omega)]
  unfold fillRhs
  simp only [forGrid_eq]
  obtain ⟨a1, a2, -⟩ := fill_loop t.u f.u (b, 0) ((Nz + 1) * Nx)
  set su := forUp ((Nz + 1) * Nx) (b, 0) (fun s cc =>
    if extractVel (t.u cc) then (upd s.1 s.2 (f.u cc), s.2 + 1) else s) with hsu
  obtain ⟨-, b2, b3⟩ := fill_loop t.v f.v su (Nz * (Nx + 1))
  have e1 : su.2 = cu := by rw [a1, hcu _ (le_refl _), ← R.hcu]; simp
  cases x with
  | p k => exact absurd rfl (hp k)
  | u k =>
    have hnum : numberedU (t.u k) = true := (numberedU_iff t k).2 hs
    have he : (Dof.u k).eqn n = ((Nat.count (fun k => numberedU (t.u k) = true) k : Nat) : Int) := by
      show n.eqnU k = _
      rw [R.u k hx, if_pos hnum]
    have hlt : Nat.count (fun k => numberedU (t.u k) = true) k < cu := by
      rw [R.hcu]
      exact Nat.count_strict_mono hnum hx
    rw [he, Int.toNat_natCast, b3 _ (by omega)]
    have := a2 k hx (by rw [extractVel_u ht hx]; exact hnum)
    rw [hcu k (le_of_lt hx), Nat.zero_add] at this
    exact this
  | v k =>
    have hnum : numberedV (t.v k) = true := (numberedV_iff t k).2 hs
    have he : (Dof.v k).eqn n = ((cu + Nat.count (fun k => numberedV (t.v k) = true) k : Nat) : Int) := by
      show n.eqnV k = _
      rw [R.v k hx, if_pos hnum]
    rw [he, Int.toNat_natCast]
    have := b2 k hx (by rw [extractVel_v ht hx]; exact hnum)
    rw [hcv k (le_of_lt hx), e1] at this
    exact this

end

/-! ### polar gravity -/

private theorem cos_arctan_pos (z x : ℝ) (hx : 0 < x) : Real.cos (Real.arctan (z / x)) = x / √(x ^ 2 + z ^ 2) := by
  rw [Real.cos_arctan, show (1 : ℝ) + (z / x) ^ 2 = (x ^ 2 + z ^ 2) / x ^ 2 by field_simp, Real.sqrt_div' _ (sq_nonneg x),
    Real.sqrt_sq hx.le, one_div_div]

private theorem sin_arctan_pos (z x : ℝ) (hx : 0 < x) : Real.sin (Real.arctan (z / x)) = z / √(x ^ 2 + z ^ 2) := by
  have h : 0 < √(x ^ 2 + z ^ 2) := Real.sqrt_pos.2 (by positivity)
  rw [Real.sin_arctan, show (1 : ℝ) + (z / x) ^ 2 = (x ^ 2 + z ^ 2) / x ^ 2 by field_simp, Real.sqrt_div' _ (sq_nonneg x),
    Real.sqrt_sq hx.le]
  field_simp

private theorem atan_flip (z x : ℝ) : Real.arctan (z / x) = Real.arctan (-z / -x) := by rw [neg_div_neg_eq]

private theorem sgn_pos (z x : ℝ) (hx : 0 < x) (hz : 0 < z) : 0 < Real.arctan (z / x) := Real.arctan_pos.2 (div_pos hz hx)
private theorem sgn_neg (z x : ℝ) (hx : 0 < x) (hz : z < 0) : Real.arctan (z / x) < 0 := Real.arctan_lt_zero.2 (div_neg_of_neg_of_pos hz hx)

/-- C105 (partial).  Above the horizontal axis polar gravity points to the centre (for a negative `gz`) and has
the strength of the input everywhere. -/
theorem polar_upper_partial (gx gz x z : ℝ) (hz : 0 < z) :
    polarGx gx gz x z = gz * (x / √(x ^ 2 + z ^ 2)) ∧ polarGz gz x z = gz * (z / √(x ^ 2 + z ^ 2)) := by
  have hsq : √((-x) ^ 2 + (-z) ^ 2) = √(x ^ 2 + z ^ 2) := by rw [neg_sq, neg_sq]
  rcases lt_trichotomy x 0 with hx | hx | hx
  · have hn : Real.arctan (z / x) < 0 := Real.arctan_lt_zero.2 (div_neg_of_pos_of_neg hz hx)
    have hc := cos_arctan_pos (-z) (-x) (by linarith)
    have hs := sin_arctan_pos (-z) (-x) (by linarith)
    rw [← atan_flip, hsq] at hc hs
    unfold polarGx polarGz atanC
    rw [if_pos hx.ne]
    simp only [hn, if_true, hc, hs]
    constructor <;> ring
  · subst hx
    unfold polarGx polarGz atanC
    have hp : 0 < Real.pi / 2 := by positivity
    simp only [ne_eq, not_true, if_false, hz, if_true, hp, not_lt.2 hp.le, Real.cos_pi_div_two, Real.sin_pi_div_two]
    rw [show (0 : ℝ) ^ 2 + z ^ 2 = z ^ 2 by ring, Real.sqrt_sq hz.le, div_self hz.ne']
    constructor <;> ring
  · have hp := sgn_pos z x hx hz
    unfold polarGx polarGz atanC
    rw [if_pos hx.ne']
    simp only [hp, if_true, not_lt.2 hp.le, if_false, cos_arctan_pos z x hx, sin_arctan_pos z x hx]
    exact ⟨trivial, trivial⟩

/-- Below the horizontal axis it points away from the centre: the exact opposite of the direction above. -/
theorem polar_lower_reversed (gx gz x z : ℝ) (hz : z < 0) :
    polarGx gx gz x z = -(gz * (x / √(x ^ 2 + z ^ 2))) ∧ polarGz gz x z = -(gz * (z / √(x ^ 2 + z ^ 2))) := by
  have hsq : √((-x) ^ 2 + (-z) ^ 2) = √(x ^ 2 + z ^ 2) := by rw [neg_sq, neg_sq]
  rcases lt_trichotomy x 0 with hx | hx | hx
  · have hn : 0 < Real.arctan (z / x) := Real.arctan_pos.2 (div_pos_of_neg_of_neg hz hx)
    have hc := cos_arctan_pos (-z) (-x) (by linarith)
    have hs := sin_arctan_pos (-z) (-x) (by linarith)
    rw [← atan_flip, hsq] at hc hs
    unfold polarGx polarGz atanC
    rw [if_pos hx.ne]
    simp only [hn, if_true, not_lt.2 hn.le, if_false, hc, hs]
    constructor <;> ring
  · subst hx
    unfold polarGx polarGz atanC
    have hp : -(Real.pi / 2) < 0 := by have : 0 < Real.pi / 2 := by positivity
                                       linarith
    simp only [ne_eq, not_true, if_false, not_lt.2 hz.le, hz, if_true, hp, Real.cos_neg, Real.sin_neg, Real.cos_pi_div_two,
      Real.sin_pi_div_two]
    rw [show (0 : ℝ) ^ 2 + z ^ 2 = (-z) ^ 2 by ring, Real.sqrt_sq (by linarith : 0 ≤ -z)]
    have : z / -z = -1 := by rw [div_neg, div_self hz.ne]
    rw [this]
    constructor <;> ring
  · have hp := sgn_neg z x hx hz
    unfold polarGx polarGz atanC
    rw [if_pos hx.ne']
    simp only [hp, if_true, cos_arctan_pos z x hx, sin_arctan_pos z x hx]
    constructor <;> ring

/-- On the horizontal axis gravity keeps the input components: it is vertical there instead of horizontal. -/
theorem polar_axis_unchanged (gx gz x : ℝ) : polarGx gx gz x 0 = gx ∧ polarGz gz x 0 = gz := by
  unfold polarGx polarGz atanC
  by_cases hx : x = 0
  · subst hx; simp
  · simp [hx]

/-- Example: with gravity 10 downwards, at (3, 4) the pull is (-6, -8), at (3, -4) it is (6, -8): away from the
centre. -/
example : polarGx 0 (-10) 3 4 = -6 ∧ polarGz (-10) 3 4 = -8 ∧ polarGx 0 (-10) 3 (-4) = 6 ∧ polarGz (-10) 3 (-4) = -8 := by
  have h5 : √((3 : ℝ) ^ 2 + 4 ^ 2) = 5 := by rw [show (3 : ℝ) ^ 2 + 4 ^ 2 = 5 ^ 2 by norm_num]; exact Real.sqrt_sq (by norm_num)
  have h5' : √((3 : ℝ) ^ 2 + (-4) ^ 2) = 5 := by rw [show (3 : ℝ) ^ 2 + (-4) ^ 2 = 5 ^ 2 by norm_num]; exact Real.sqrt_sq (by norm_num)
  rw [(polar_upper_partial 0 (-10) 3 4 (by norm_num)).1, (polar_upper_partial 0 (-10) 3 4 (by norm_num)).2,
    (polar_lower_reversed 0 (-10) 3 (-4) (by norm_num)).1, (polar_lower_reversed 0 (-10) 3 (-4) (by norm_num)).2, h5, h5']
  norm_num

end Verif.Resid
