import Verif.Props.StepGoesOn
import Verif.Props.ConstantMixture
import Verif.Props.Dissipation

/-
C150: the mechanical energy of a recorded step.  Statements for a closed box (no flow through the walls; the walls stick or carry no shear
stress) without free-surface stabilisation; air cells and a free surface are allowed.
-/
namespace Verif.StepFlow
open Verif Finset

/-- C148.  The vertical counterpart of `recorded_force_balance`: at an inner Vz node the row of the residual is minus the cell volume times
the divergence of the recorded stress minus the gradient of the recorded pressure plus the body force. -/
theorem recorded_force_balance_z (S : Setting) (hx : 2 ≤ S.m.Nx) (hs : S.m.stab = false) (f f' : LS.Fields) (t t' : Mech)
    (h : finishStep S f t = .ok (f', t')) (k l : Nat) (hk : 1 ≤ k) (hk' : k < S.m.Nx) (hl : 1 ≤ l) (hl' : l + 1 < S.m.Nz) :
    let Z := k - 1 + (l - 1) * (S.m.Nx - 1)
    let N := k + l * S.m.Nx
    (rows S (opsOf S t') f t').z k l = -(S.m.dx * S.m.dz) *
      (((((t'.cells (Z + (S.m.Nx - 1))).T.zz - f'.p (Z + (S.m.Nx - 1))) - ((t'.cells Z).T.zz - f'.p Z)) / S.m.dz
        + ((t'.verts N).T.xz - (t'.verts (N - 1)).T.xz) / S.m.dx) + t'.bz (k + l * (S.m.Nx + 1))) := by
  intro Z N
  have h2 : f' = { f with p := LS.copyArr S.ncells f.p fun c => (t'.cells c).pcorr } := by
    unfold finishStep at h
    split at h
    · simp only [Point.Outcome.ok.injEq, Prod.mk.injEq] at h
      obtain ⟨rfl, rfl⟩ := h; rfl
    · exact absurd h (by simp)
    · exact absurd h (by simp)
  have hZ : Z + (S.m.Nx - 1) < S.ncells := by
    have : (l - 1) * (S.m.Nx - 1) + (S.m.Nx - 1) + (S.m.Nx - 1) ≤ (S.m.Nx - 1) * (S.m.Nz - 1) := by
      have h3 : l - 1 + 1 + 1 ≤ S.m.Nz - 1 := by omega
      calc (l - 1) * (S.m.Nx - 1) + (S.m.Nx - 1) + (S.m.Nx - 1) = (S.m.Nx - 1) * (l - 1 + 1 + 1) := by ring
        _ ≤ _ := Nat.mul_le_mul_left _ h3
    simp only [Z, Setting.ncells]
    omega
  have eS : f'.p Z = (t'.cells Z).pcorr := by rw [h2]; simp [LS.copyArr_apply, show Z < S.ncells by omega]
  have eN : f'.p (Z + (S.m.Nx - 1)) = (t'.cells (Z + (S.m.Nx - 1))).pcorr := by rw [h2]; simp [LS.copyArr_apply, hZ]
  have hN : 1 ≤ N := by simp only [N]; omega
  have e1 : ((meshWith S (opsOf S t') t'.rho).Nx : Int) = S.m.Nx := rfl
  have e1z : ((meshWith S (opsOf S t') t'.rho).Nz : Int) = S.m.Nz := rfl
  have pS : (zIdx (meshWith S (opsOf S t') t'.rho) k l).pS = (Z : Nat) := by
    show (k : Int) - 1 + ((l : Int) - 1) * ((S.m.Nx : Int) - 1) = _
    simp only [Z]; push_cast [Nat.cast_sub hk, Nat.cast_sub hl, Nat.cast_sub (show 1 ≤ S.m.Nx by omega)]; ring
  have pN : (zIdx (meshWith S (opsOf S t') t'.rho) k l).pN = (Z + (S.m.Nx - 1) : Nat) := by
    show (k : Int) - 1 + ((l : Int) - 1) * ((S.m.Nx : Int) - 1) + ((S.m.Nx : Int) - 1) = _
    simp only [Z]; push_cast [Nat.cast_sub hk, Nat.cast_sub hl, Nat.cast_sub (show 1 ≤ S.m.Nx by omega)]; ring
  have gE : (zIdx (meshWith S (opsOf S t') t'.rho) k l).gE = (N : Nat) := by
    show (k : Int) + l * (S.m.Nx : Int) = _
    simp only [N]; push_cast; ring
  have gW : (zIdx (meshWith S (opsOf S t') t'.rho) k l).gW = (N - 1 : Nat) := by
    show (k : Int) + l * (S.m.Nx : Int) - 1 = _
    rw [Nat.cast_sub hN]; simp only [N]; push_cast; ring
  have arr : ∀ (a : Nat → ℝ) (i : Nat), S.arr a (i : Int) = a i := fun a i => by simp [Setting.arr]
  have hcorr : ∀ a, zCorr (meshWith S (opsOf S t') t'.rho) k l a = 0 := fun a => by simp [zCorr, meshWith, hs]
  have q1 : (zIn (meshWith S (opsOf S t') t'.rho) k l).SS = 0 := by
    simp [zIn, flag, show ¬ l = 0 by omega]
  have q2 : (zIn (meshWith S (opsOf S t') t'.rho) k l).SN = 0 := by
    simp [zIn, flag, e1z, show ¬ (l : Int) = (S.m.Nz : Int) - 1 by omega]
  have iC : (k : Int) + (l : Int) * ((S.m.Nx : Int) + 1) = ((k + l * (S.m.Nx + 1) : Nat) : Int) := by push_cast; ring
  unfold rows
  simp only [zResidual, hcorr]
  rw [q1, q2, pS, pN, gE, gW, iC]
  simp only [arr, eS, eN]
  have d1 : (meshWith S (opsOf S t') t'.rho).dx = S.m.dx := rfl
  have d2 : (meshWith S (opsOf S t') t'.rho).dz = S.m.dz := rfl
  rw [d1, d2]
  ring

/-- A flow in a closed box: no flow through the four walls, and along each wall either the ghost velocity is the mirror image (the
wall sticks) or there is no shear stress. -/
structure ClosedFlow (S : Setting) (f : LS.Fields) (t : Mech) : Prop where
  left : ∀ l ≤ S.m.Nz, f.u (l * S.m.Nx) = 0
  right : ∀ l ≤ S.m.Nz, f.u (S.m.Nx - 1 + l * S.m.Nx) = 0
  bottom : ∀ k ≤ S.m.Nx, f.v k = 0
  top : ∀ k ≤ S.m.Nx, f.v (k + (S.m.Nz - 1) * (S.m.Nx + 1)) = 0
  alongBottom : ∀ k < S.m.Nx, f.u k = -f.u (k + S.m.Nx) ∨ (t.verts k).T.xz = 0
  alongTop : ∀ k < S.m.Nx, f.u (k + S.m.Nz * S.m.Nx) = -f.u (k + (S.m.Nz - 1) * S.m.Nx)
    ∨ (t.verts (k + (S.m.Nz - 1) * S.m.Nx)).T.xz = 0
  alongLeft : ∀ l < S.m.Nz, f.v (l * (S.m.Nx + 1)) = -f.v (1 + l * (S.m.Nx + 1)) ∨ (t.verts (l * S.m.Nx)).T.xz = 0
  alongRight : ∀ l < S.m.Nz, f.v (S.m.Nx + l * (S.m.Nx + 1)) = -f.v (S.m.Nx - 1 + l * (S.m.Nx + 1))
    ∨ (t.verts (S.m.Nx - 1 + l * S.m.Nx)).T.xz = 0

/-- The flow solves the equations: at every inner node where it moves the momentum row has no residual (and the node is not
on a periodic side), and the volume rows of the incompressible rock cells have none. -/
structure Solved (S : Setting) (f : LS.Fields) (t : Mech) : Prop where
  x : ∀ k l, 1 ≤ k → k + 1 < S.m.Nx → 1 ≤ l → l < S.m.Nz → f.u (k + l * S.m.Nx) ≠ 0 →
    S.m.tu (k + l * S.m.Nx : Nat) ≠ -2 ∧ (rows S (opsOf S t) f t).x k l = 0
  z : ∀ k l, 1 ≤ k → k < S.m.Nx → 1 ≤ l → l + 1 < S.m.Nz → f.v (k + l * (S.m.Nx + 1)) ≠ 0 →
    (rows S (opsOf S t) f t).z k l = 0
  incompressible : S.vol = false ∧ ∀ c < S.ncells, S.comp c = false ∧ S.rhsP c = 0
  p : ∀ c < S.ncells, ¬ (S.m.tp c = 30 ∨ S.m.tp c = 31) → (rows S (opsOf S t) f t).p c = 0

/-- Power of the body forces: velocity times recorded body force times volume, over all velocity nodes. -/
noncomputable def forcePower (S : Setting) (f : LS.Fields) (t : Mech) : ℝ := S.m.dx * S.m.dz *
  ((∑ k ∈ range S.m.Nx, ∑ l ∈ range (S.m.Nz + 1), f.u (k + l * S.m.Nx) * t.bx (k + l * S.m.Nx)) +
    ∑ k ∈ range (S.m.Nx + 1), ∑ l ∈ range S.m.Nz, f.v (k + l * (S.m.Nx + 1)) * t.bz (k + l * (S.m.Nx + 1)))

/-- Part of the cell around vertex `(k, l)` that lies in the box. -/
noncomputable def inside (S : Setting) (k l : Nat) : ℝ :=
  (if k = 0 ∨ k + 1 = S.m.Nx then 1 / 2 else 1) * (if l = 0 ∨ l + 1 = S.m.Nz then 1 / 2 else 1)

/-- Power of the recorded stresses on the recorded strain rates: normal components in cells, shear at vertices. -/
noncomputable def stressPower (S : Setting) (t : Mech) : ℝ := S.m.dx * S.m.dz *
  ((∑ k ∈ range (S.m.Nx - 1), ∑ l ∈ range (S.m.Nz - 1),
      ((t.cells (k + l * (S.m.Nx - 1))).T.xx * t.rates.exx (k + l * (S.m.Nx - 1))
        + (t.cells (k + l * (S.m.Nx - 1))).T.zz * t.rates.ezz (k + l * (S.m.Nx - 1)))) +
    ∑ k ∈ range S.m.Nx, ∑ l ∈ range S.m.Nz,
      inside S k l * (2 * (t.verts (k + l * S.m.Nx)).T.xz * t.rates.exz (k + l * S.m.Nx)))

/-- Inner Vx nodes. -/
private def maskU (S : Setting) (f : LS.Fields) (k l : Int) : ℝ :=
  if 0 < k ∧ k + 1 < S.m.Nx ∧ 0 < l ∧ l < S.m.Nz then f.u (k + l * S.m.Nx).toNat else 0

/-- Inner Vz nodes. -/
private def maskV (S : Setting) (f : LS.Fields) (k l : Int) : ℝ :=
  if 0 < k ∧ k < S.m.Nx ∧ 0 < l ∧ l + 1 < S.m.Nz then f.v (k + l * (S.m.Nx + 1)).toNat else 0

private theorem maskU_mk (S : Setting) (f : LS.Fields) (k l : Nat) : maskU S f k l =
    if 0 < k ∧ k + 1 < S.m.Nx ∧ 0 < l ∧ l < S.m.Nz then f.u (k + l * S.m.Nx) else 0 := by
  unfold maskU
  have : ((k : Int) + l * S.m.Nx).toNat = k + l * S.m.Nx := by
    have : ((k : Int) + l * S.m.Nx) = ((k + l * S.m.Nx : Nat) : Int) := by push_cast; ring
    rw [this, Int.toNat_natCast]
  rw [this]
  congr 1
  simp only [eq_iff_iff]; omega

private theorem maskV_mk (S : Setting) (f : LS.Fields) (k l : Nat) : maskV S f k l =
    if 0 < k ∧ k < S.m.Nx ∧ 0 < l ∧ l + 1 < S.m.Nz then f.v (k + l * (S.m.Nx + 1)) else 0 := by
  unfold maskV
  have : ((k : Int) + l * (S.m.Nx + 1)).toNat = k + l * (S.m.Nx + 1) := by
    have : ((k : Int) + l * (S.m.Nx + 1)) = ((k + l * (S.m.Nx + 1) : Nat) : Int) := by push_cast; ring
    rw [this, Int.toNat_natCast]
  rw [this]
  congr 1
  simp only [eq_iff_iff]; omega

theorem fin_ok {S : Setting} {f f' : LS.Fields} {t t' : Mech} (h : finishStep S f t = .ok (f', t')) :
    updateNL S true f t = .ok t' ∧ f' = { f with p := LS.copyArr S.ncells f.p fun c => (t'.cells c).pcorr } := by
  unfold finishStep at h
  split at h
  · next t1 h1 =>
    simp only [Point.Outcome.ok.injEq, Prod.mk.injEq] at h
    obtain ⟨rfl, rfl⟩ := h
    exact ⟨h1, rfl⟩
  · exact absurd h (by simp)
  · exact absurd h (by simp)

/-- What the air records. -/
theorem air_zero {S : Setting} {f f' : LS.Fields} {t t' : Mech} (h : finishStep S f t = .ok (f', t')) :
    (∀ c < S.ncells, (S.m.tp c = 30 ∨ S.m.tp c = 31) → t'.cells c = Point.Stored.zero)
    ∧ ∀ c < S.nverts, S.m.tg c = 30 → t'.verts c = Point.Stored.zero := by
  obtain ⟨h1, -⟩ := fin_ok h
  obtain ⟨-, -, -, -, -, a6, -, -, -⟩ := updateNL_ok h1
  have hs := (Point.grid_spec S.env S.mean S.n S.mats S.huet S.ncells S.nverts _ _ t.cells t.verts).1 _ _ a6
  refine ⟨fun c hc ha => ?_, fun c hc ha => ?_⟩
  · have := hs.1 c hc
    unfold Point.cellNode at this
    rw [if_pos (by simpa [cellData] using ha)] at this
    simpa using this.symm
  · have := hs.2.1 c hc
    unfold Point.vertexNode at this
    rw [if_pos (by simpa [vertData] using ha)] at this
    simpa using this.symm

theorem cell_lt (Nx Nz k l : Nat) (hk : k < Nx) (hl : l < Nz) : k + l * Nx < Nx * Nz := by
  have : l * Nx + Nx ≤ Nx * Nz := by
    calc l * Nx + Nx = Nx * (l + 1) := by ring
      _ ≤ _ := Nat.mul_le_mul_left _ hl
  omega

private theorem div_mod (n k l : Nat) (hk : k < n) : (k + l * n) % n = k ∧ (k + l * n) / n = l := by
  have h0 : 0 < n := by omega
  constructor
  · rw [Nat.add_mul_mod_self_right]; exact Nat.mod_eq_of_lt hk
  · rw [Nat.add_mul_div_right _ _ h0, Nat.div_eq_of_lt hk, zero_add]

/-- Shear rate at a rock vertex. -/
theorem shear_rate (S : Setting) (f : LS.Fields) (r : Kin.Rates ℝ) (k l : Nat) (hk : k < S.m.Nx) (hl : l < S.m.Nz) :
    (Kin.strainRates (kinInp S f) r).exz (k + l * S.m.Nx) = if S.m.tg (k + l * S.m.Nx : Nat) ≠ 30 then
      1 / 2 * ((f.u (k + (l + 1) * S.m.Nx) - f.u (k + l * S.m.Nx)) / S.m.dz
        + (f.v (k + 1 + l * (S.m.Nx + 1)) - f.v (k + l * (S.m.Nx + 1))) / S.m.dx) else 0 := by
  have := Kin.strainRates_eq (kinInp S f) r
  dsimp only at this
  rw [this]
  obtain ⟨e1, e2⟩ := div_mod S.m.Nx k l hk
  have hc := cell_lt S.m.Nx S.m.Nz k l hk hl
  simp only [Kin.filled, kinInp, hc, if_true, e1, e2]
  rw [show k + l * S.m.Nx + S.m.Nx = k + (l + 1) * S.m.Nx by ring, show k + l * (S.m.Nx + 1) + 1 = k + 1 + l * (S.m.Nx + 1) by ring]

/-- Rates in a rock cell. -/
theorem cell_rates (S : Setting) (f : LS.Fields) (r : Kin.Rates ℝ) (k l : Nat) (hk : k < S.m.Nx - 1) (hl : l < S.m.Nz - 1)
    (ha : ¬ (S.m.tp (k + l * (S.m.Nx - 1) : Nat) = 30 ∨ S.m.tp (k + l * (S.m.Nx - 1) : Nat) = 31)) :
    let sx := (f.u (k + 1 + (l + 1) * S.m.Nx) - f.u (k + (l + 1) * S.m.Nx)) / S.m.dx
    let sz := (f.v (k + 1 + (l + 1) * (S.m.Nx + 1)) - f.v (k + 1 + l * (S.m.Nx + 1))) / S.m.dz
    let dv := sx + sz + (if S.m.oop then 1 else 0) * (1 / 2) * (sx + sz)
    let R := Kin.strainRates (kinInp S f) r
    let c := k + l * (S.m.Nx - 1)
    R.divu c = dv ∧ R.exx c = sx - flag S.m.comp * 1 / 3 * dv ∧ R.ezz c = sz - flag S.m.comp * 1 / 3 * dv := by
  have := Kin.strainRates_eq (kinInp S f) r
  dsimp only at this ⊢
  rw [this]
  obtain ⟨e1, e2⟩ := div_mod (S.m.Nx - 1) k l hk
  have hc := cell_lt (S.m.Nx - 1) (S.m.Nz - 1) k l hk hl
  have ha' : S.m.tp (k + l * (S.m.Nx - 1) : Nat) ≠ 30 ∧ S.m.tp (k + l * (S.m.Nx - 1) : Nat) ≠ 31 := by
    rw [not_or] at ha; exact ha
  simp only [Kin.filled, kinInp, hc, if_true, e1, e2, Kin.volRate, Kin.stretchX, Kin.stretchZ]
  rw [if_pos ha', if_pos ha', if_pos ha', show k + l * S.m.Nx + 1 + S.m.Nx = k + 1 + (l + 1) * S.m.Nx by ring,
    show k + l * S.m.Nx + S.m.Nx = k + (l + 1) * S.m.Nx by ring,
    show k + l * (S.m.Nx + 1) + S.m.Nx + 1 + 1 = k + 1 + (l + 1) * (S.m.Nx + 1) by ring,
    show k + l * (S.m.Nx + 1) + 1 = k + 1 + l * (S.m.Nx + 1) by ring]
  exact ⟨rfl, rfl, rfl⟩

/-- The work of the shear stress at a vertex, with velocities outside the box set to zero. -/
private theorem vertex_power (S : Setting) (hx : 2 ≤ S.m.Nx) (hz : 2 ≤ S.m.Nz) (f : LS.Fields) (t : Mech) (r : Kin.Rates ℝ)
    (hr : t.rates = Kin.strainRates (kinInp S f) r) (hb : ClosedFlow S f t)
    (hair : ∀ c < S.nverts, S.m.tg c = 30 → t.verts c = Point.Stored.zero) (k l : Nat) (hk : k < S.m.Nx) (hl : l < S.m.Nz) :
    (t.verts (k + l * S.m.Nx)).T.xz * ((maskU S f k ((l : Int) + 1) - maskU S f k l) / S.m.dz +
        (maskV S f ((k : Int) + 1) l - maskV S f k l) / S.m.dx) =
      inside S k l * (2 * (t.verts (k + l * S.m.Nx)).T.xz * t.rates.exz (k + l * S.m.Nx)) := by
  by_cases hT : (t.verts (k + l * S.m.Nx)).T.xz = 0
  · rw [hT]; ring
  have hrock : S.m.tg (k + l * S.m.Nx : Nat) ≠ 30 := by
    intro h
    exact hT (by rw [hair _ (cell_lt _ _ k l hk hl) h]; rfl)
  rw [hr, shear_rate S f r k l hk hl, if_pos hrock, show (l : Int) + 1 = ((l + 1 : Nat) : Int) by push_cast; ring,
    show (k : Int) + 1 = ((k + 1 : Nat) : Int) by push_cast; ring, maskU_mk, maskU_mk, maskV_mk, maskV_mk]
  unfold inside
  by_cases k0 : k = 0
  · subst k0
    have u0 : f.u (0 + (l + 1) * S.m.Nx) = 0 := by have := hb.left (l + 1) (by omega); rwa [zero_add]
    have u1 : f.u (0 + l * S.m.Nx) = 0 := by have := hb.left l (by omega); rwa [zero_add]
    rw [u0, u1]
    by_cases l0 : l = 0
    · subst l0
      have a := hb.bottom 0 (by omega)
      have b := hb.bottom 1 (by omega)
      simp [a, b]
    by_cases l1 : l + 1 = S.m.Nz
    · have hl1 : S.m.Nz - 1 = l := by omega
      have a := hb.top 0 (by omega)
      have b := hb.top 1 (by omega)
      rw [hl1] at a b
      simp only [zero_add] at a b ⊢
      simp [a, b]
    · have a := (hb.alongLeft l hl).resolve_right (by simpa using hT)
      simp only [zero_add]
      rw [a, if_neg (by omega), if_neg (by omega), if_pos (by omega), if_neg (by omega), if_pos (by simp), if_neg (by omega)]
      ring
  by_cases k1 : k + 1 = S.m.Nx
  · have hk1 : S.m.Nx - 1 = k := by omega
    have u0 : f.u (k + (l + 1) * S.m.Nx) = 0 := by have := hb.right (l + 1) (by omega); rwa [hk1] at this
    have u1 : f.u (k + l * S.m.Nx) = 0 := by have := hb.right l (by omega); rwa [hk1] at this
    rw [u0, u1]
    by_cases l0 : l = 0
    · subst l0
      have a := hb.bottom k (by omega)
      have b := hb.bottom (k + 1) (by omega)
      rw [k1] at b
      simp [a, b, k1]
    by_cases l1 : l + 1 = S.m.Nz
    · have hl1 : S.m.Nz - 1 = l := by omega
      have a := hb.top k (by omega)
      have b := hb.top (k + 1) (by omega)
      rw [hl1] at a b
      rw [k1] at b
      simp [a, b, k1]
    · have a := (hb.alongRight l hl).resolve_right (by rw [hk1]; exact hT)
      rw [hk1, ← k1] at a
      rw [← k1] at *
      rw [a, if_neg (by omega), if_neg (by omega), if_neg (by omega), if_pos (by omega), if_pos (by omega), if_neg (by omega)]
      ring
  have hki : 0 < k ∧ k + 1 < S.m.Nx := by omega
  rw [if_neg (show ¬ (k = 0 ∨ k + 1 = S.m.Nx) by omega)]
  by_cases l0 : l = 0
  · subst l0
    have a := hb.bottom k (by omega)
    have b := hb.bottom (k + 1) (by omega)
    have c := (hb.alongBottom k hk).resolve_right (by simpa using hT)
    simp only [zero_mul, add_zero, zero_add, one_mul]
    rw [a, b, c, if_pos (by omega), if_neg (by omega), if_neg (by omega), if_neg (by omega), if_pos (by simp)]
    ring
  by_cases l1 : l + 1 = S.m.Nz
  · have hl1 : S.m.Nz - 1 = l := by omega
    have a := hb.top k (by omega)
    have b := hb.top (k + 1) (by omega)
    have c := (hb.alongTop k hk).resolve_right (by rw [hl1]; exact hT)
    rw [hl1] at a b c
    rw [← l1] at c
    rw [a, b, c, if_neg (by omega), if_pos (by omega), if_neg (by omega), if_neg (by omega), if_pos (by omega)]
    ring
  · rw [if_pos (by omega), if_pos (by omega), if_pos (by omega), if_pos (by omega), if_neg (by omega)]
    ring

private theorem flat (k l n : Nat) : ((k : Int) + (l : Int) * (n : Int)).toNat = k + l * n := by
  have : (k : Int) + (l : Int) * (n : Int) = ((k + l * n : Nat) : Int) := by push_cast; ring
  rw [this, Int.toNat_natCast]

/-- Horizontal body force next to the box is zero. -/
private theorem ghost_force (S : Setting) (f f' : LS.Fields) (t t' : Mech) (h : finishStep S f t = .ok (f', t')) :
    (∀ k < S.m.Nx, ∀ l, l = 0 ∨ l = S.m.Nz → t'.bx (k + l * S.m.Nx) = 0)
    ∧ ∀ l < S.m.Nz, ∀ k, k = 0 ∨ k = S.m.Nx → t'.bz (k + l * (S.m.Nx + 1)) = 0 := by
  obtain ⟨h1, -⟩ := fin_ok h
  obtain ⟨-, -, -, -, -, -, -, a8, a9⟩ := updateNL_ok h1
  constructor
  · intro k hk l hl
    obtain ⟨e1, e2⟩ := div_mod S.m.Nx k l hk
    rw [a8]
    unfold written
    rw [if_pos (cell_lt _ _ k l hk (by omega))]
    beta_reduce
    rw [e1, e2]
    unfold Resid.rogerX
    have hN : (meshRho S t'.rho).Nz = S.m.Nz := rfl
    dsimp only
    rw [if_neg (by rw [hN]; omega)]
    simp
  · intro l hl k hk
    obtain ⟨e1, e2⟩ := div_mod (S.m.Nx + 1) k l (by omega)
    rw [a9]
    unfold written
    rw [if_pos (cell_lt _ _ k l (by omega) hl)]
    beta_reduce
    rw [e1, e2]
    unfold Resid.rogerZ
    have hN : (meshRho S t'.rho).Nx = S.m.Nx := rfl
    dsimp only
    rw [if_neg (by rw [hN]; omega)]
    simp

/-- C150.  **The recorded stresses take up exactly the power of the body forces**: in a closed box, when the flow solves the equations, velocity times
body force summed over the box is the recorded stress times the recorded strain rate summed over the box — whatever the materials,
with elastic stresses and a free surface. -/
theorem power_balance (S : Setting) (hx : 2 ≤ S.m.Nx) (hz : 2 ≤ S.m.Nz) (hdx : S.m.dx ≠ 0) (hdz : S.m.dz ≠ 0) (hs : S.m.stab = false)
    (f f' : LS.Fields) (t t' : Mech) (h : finishStep S f t = .ok (f', t')) (hb : ClosedFlow S f t') (hq : Solved S f t') :
    forcePower S f' t' = stressPower S t' := by
  obtain ⟨h1, h2⟩ := fin_ok h
  obtain ⟨hair, hairV⟩ := air_zero h
  have hr := (updateNL_ok h1).1
  have hu : f'.u = f.u := by rw [h2]
  have hv : f'.v = f.v := by rw [h2]
  obtain ⟨g1, g2⟩ := ghost_force S f f' t t' h
  obtain ⟨TX, hTX⟩ : ∃ TX : Int → Int → ℝ, TX = fun k l => (t'.cells (k + l * ((S.m.Nx - 1 : Nat) : Int)).toNat).T.xx
      - f'.p (k + l * ((S.m.Nx - 1 : Nat) : Int)).toNat := ⟨_, rfl⟩
  obtain ⟨TZ, hTZ⟩ : ∃ TZ : Int → Int → ℝ, TZ = fun k l => (t'.cells (k + l * ((S.m.Nx - 1 : Nat) : Int)).toNat).T.zz
      - f'.p (k + l * ((S.m.Nx - 1 : Nat) : Int)).toNat := ⟨_, rfl⟩
  obtain ⟨TS, hTS⟩ : ∃ TS : Int → Int → ℝ, TS = fun k l => (t'.verts (k + l * (S.m.Nx : Int)).toNat).T.xz := ⟨_, rfl⟩
  have tx : ∀ k l : Nat, TX k l = (t'.cells (k + l * (S.m.Nx - 1))).T.xx - f'.p (k + l * (S.m.Nx - 1)) := fun k l => by
    rw [hTX]; simp only [flat]
  have tz : ∀ k l : Nat, TZ k l = (t'.cells (k + l * (S.m.Nx - 1))).T.zz - f'.p (k + l * (S.m.Nx - 1)) := fun k l => by
    rw [hTZ]; simp only [flat]
  have ts : ∀ k l : Nat, TS k l = (t'.verts (k + l * S.m.Nx)).T.xz := fun k l => by
    rw [hTS]; simp only [flat]
  have W := Verif.work_by_parts (maskU S f) (maskV S f) TX TZ TS (fun _ _ => 0) (fun _ _ => 0) S.m.Nx S.m.Nz S.m.dx S.m.dz hdx hdz
    (fun k l hk hl hn => by rw [maskU_mk, if_neg hn]) (fun k l hk hl hn => by rw [maskV_mk, if_neg hn])
  have X : ∀ k ∈ range S.m.Nx, ∀ l ∈ range (S.m.Nz + 1), maskU S f k l * (-(S.m.dx * S.m.dz) *
      ((TX k ((l : Int) - 1) - TX ((k : Int) - 1) ((l : Int) - 1)) / S.m.dx + (TS k l - TS k ((l : Int) - 1)) / S.m.dz -
        (fun _ _ => (0 : ℝ)) (k : Int) (l : Int) * maskU S f k l)) = S.m.dx * S.m.dz * (f'.u (k + l * S.m.Nx) * t'.bx (k + l * S.m.Nx)) := by
    intro k hk l hl
    have hk := mem_range.1 hk
    have hl := mem_range.1 hl
    rw [maskU_mk, hu]
    split
    · next hin =>
      by_cases h0 : f.u (k + l * S.m.Nx) = 0
      · rw [h0]; ring
      · obtain ⟨k', rfl⟩ : ∃ k', k = k' + 1 := ⟨k - 1, by omega⟩
        obtain ⟨l', rfl⟩ : ∃ l', l = l' + 1 := ⟨l - 1, by omega⟩
        obtain ⟨s1, s2⟩ := hq.x (k' + 1) (l' + 1) (by omega) (by omega) (by omega) (by omega) h0
        have B := recorded_force_balance S hx hs f f' t t' h (k' + 1) (l' + 1) (by omega) (by omega) (by omega) (by omega) s1
        dsimp only at B
        rw [s2] at B
        simp only [Nat.add_sub_cancel] at B
        rw [show k' + 1 + (l' + 1) * S.m.Nx - S.m.Nx = k' + 1 + l' * S.m.Nx by rw [Nat.add_mul, one_mul]; omega,
          show k' + l' * (S.m.Nx - 1) + 1 = k' + 1 + l' * (S.m.Nx - 1) by ring] at B
        rw [show ((k' + 1 : Nat) : Int) - 1 = k' by push_cast; ring, show ((l' + 1 : Nat) : Int) - 1 = l' by push_cast; ring,
          tx, tx, ts, ts]
        linear_combination (-(f.u (k' + 1 + (l' + 1) * S.m.Nx))) * B
    · next hout =>
      by_cases h0 : l = 0 ∨ l = S.m.Nz
      · rw [g1 k hk l h0]; ring
      · by_cases h3 : k = 0
        · have := hb.left l (by omega)
          rw [h3, zero_add, this]; ring
        · have := hb.right l (by omega)
          rw [show S.m.Nx - 1 = k by omega] at this
          rw [this]; ring
  have Z : ∀ k ∈ range (S.m.Nx + 1), ∀ l ∈ range S.m.Nz, maskV S f k l * (-(S.m.dx * S.m.dz) *
      ((TZ ((k : Int) - 1) l - TZ ((k : Int) - 1) ((l : Int) - 1)) / S.m.dz + (TS k l - TS ((k : Int) - 1) l) / S.m.dx -
        (fun _ _ => (0 : ℝ)) (k : Int) (l : Int) * maskV S f k l)) = S.m.dx * S.m.dz * (f'.v (k + l * (S.m.Nx + 1)) * t'.bz (k + l * (S.m.Nx + 1))) := by
    intro k hk l hl
    have hk := mem_range.1 hk
    have hl := mem_range.1 hl
    rw [maskV_mk, hv]
    split
    · next hin =>
      by_cases h0 : f.v (k + l * (S.m.Nx + 1)) = 0
      · rw [h0]; ring
      · obtain ⟨k', rfl⟩ : ∃ k', k = k' + 1 := ⟨k - 1, by omega⟩
        obtain ⟨l', rfl⟩ : ∃ l', l = l' + 1 := ⟨l - 1, by omega⟩
        have s2 := hq.z (k' + 1) (l' + 1) (by omega) (by omega) (by omega) (by omega) h0
        have B := recorded_force_balance_z S hx hs f f' t t' h (k' + 1) (l' + 1) (by omega) (by omega) (by omega) (by omega)
        dsimp only at B
        rw [s2] at B
        simp only [Nat.add_sub_cancel] at B
        rw [show k' + 1 + (l' + 1) * S.m.Nx - 1 = k' + (l' + 1) * S.m.Nx by omega,
          show k' + l' * (S.m.Nx - 1) + (S.m.Nx - 1) = k' + (l' + 1) * (S.m.Nx - 1) by ring] at B
        rw [show ((k' + 1 : Nat) : Int) - 1 = k' by push_cast; ring, show ((l' + 1 : Nat) : Int) - 1 = l' by push_cast; ring,
          tz, tz, ts, ts]
        linear_combination (-(f.v (k' + 1 + (l' + 1) * (S.m.Nx + 1)))) * B
    · next hout =>
      by_cases h0 : k = 0 ∨ k = S.m.Nx
      · rw [g2 l hl k h0]; ring
      · by_cases h3 : l = 0
        · have := hb.bottom k (by omega)
          rw [h3, Nat.zero_mul, Nat.add_zero, this]; ring
        · have := hb.top k (by omega)
          rw [show S.m.Nz - 1 = l by omega] at this
          rw [this]; ring
  have C : ∀ k ∈ range (S.m.Nx - 1), ∀ l ∈ range (S.m.Nz - 1),
      (TX k l * ((maskU S f ((k : Int) + 1) ((l : Int) + 1) - maskU S f k ((l : Int) + 1)) / S.m.dx) +
         TZ k l * ((maskV S f ((k : Int) + 1) ((l : Int) + 1) - maskV S f ((k : Int) + 1) l) / S.m.dz)) =
      (t'.cells (k + l * (S.m.Nx - 1))).T.xx * t'.rates.exx (k + l * (S.m.Nx - 1))
        + (t'.cells (k + l * (S.m.Nx - 1))).T.zz * t'.rates.ezz (k + l * (S.m.Nx - 1)) := by
    intro k hk l hl
    have hk := mem_range.1 hk
    have hl := mem_range.1 hl
    have hc : k + l * (S.m.Nx - 1) < S.ncells := cell_lt _ _ k l hk hl
    rw [tx, tz]
    by_cases ha : S.m.tp (k + l * (S.m.Nx - 1) : Nat) = 30 ∨ S.m.tp (k + l * (S.m.Nx - 1) : Nat) = 31
    · have e := hair _ hc ha
      have ep : f'.p (k + l * (S.m.Nx - 1)) = 0 := by
        rw [h2]; simp only [LS.copyArr_apply, hc, if_true, e]; rfl
      rw [e, ep]
      simp [Point.Stored.zero]
    · have hd := hq.p _ hc ha
      obtain ⟨i1, i2⟩ := hq.incompressible
      obtain ⟨j1, j2⟩ := i2 _ hc
      have hdiv : t'.rates.divu (k + l * (S.m.Nx - 1)) = 0 := by
        have : (rows S (opsOf S t') f t').p (k + l * (S.m.Nx - 1)) = t'.rates.divu (k + l * (S.m.Nx - 1)) * (S.m.dx * S.m.dz) := by
          simp only [rows, Resid.contResidual, i1, j1, j2, flag]
          simp
        rw [this] at hd
        exact (mul_eq_zero.1 hd).resolve_right (mul_ne_zero hdx hdz)
      obtain ⟨r1, r2, r3⟩ := cell_rates S f t.rates k l hk hl ha
      rw [← hr] at r1 r2 r3
      have uL : maskU S f k ((l : Int) + 1) = f.u (k + (l + 1) * S.m.Nx) := by
        rw [show (l : Int) + 1 = ((l + 1 : Nat) : Int) by push_cast; ring, maskU_mk]
        split
        · rfl
        · have := hb.left (l + 1) (by omega)
          rw [show k = 0 by omega, zero_add, this]
      have uR : maskU S f ((k : Int) + 1) ((l : Int) + 1) = f.u (k + 1 + (l + 1) * S.m.Nx) := by
        rw [show (l : Int) + 1 = ((l + 1 : Nat) : Int) by push_cast; ring, show (k : Int) + 1 = ((k + 1 : Nat) : Int) by push_cast; ring, maskU_mk]
        split
        · rfl
        · have := hb.right (l + 1) (by omega)
          rw [show S.m.Nx - 1 = k + 1 by omega] at this
          rw [this]
      have vB : maskV S f ((k : Int) + 1) l = f.v (k + 1 + l * (S.m.Nx + 1)) := by
        rw [show (k : Int) + 1 = ((k + 1 : Nat) : Int) by push_cast; ring, maskV_mk]
        split
        · rfl
        · have := hb.bottom (k + 1) (by omega)
          rw [show l = 0 by omega, Nat.zero_mul, Nat.add_zero, this]
      have vT : maskV S f ((k : Int) + 1) ((l : Int) + 1) = f.v (k + 1 + (l + 1) * (S.m.Nx + 1)) := by
        rw [show (l : Int) + 1 = ((l + 1 : Nat) : Int) by push_cast; ring, show (k : Int) + 1 = ((k + 1 : Nat) : Int) by push_cast; ring, maskV_mk]
        split
        · rfl
        · have := hb.top (k + 1) (by omega)
          rw [show S.m.Nz - 1 = l + 1 by omega] at this
          rw [this]
      rw [uL, uR, vB, vT, r2, r3]
      rw [hdiv] at r1
      generalize (f.u (k + 1 + (l + 1) * S.m.Nx) - f.u (k + (l + 1) * S.m.Nx)) / S.m.dx = sx at *
      generalize (f.v (k + 1 + (l + 1) * (S.m.Nx + 1)) - f.v (k + 1 + l * (S.m.Nx + 1))) / S.m.dz = sz at *
      have hsum : sx + sz = 0 := by
        split at r1 <;> linarith
      rw [← r1]
      linear_combination (-(f'.p (k + l * (S.m.Nx - 1)))) * hsum
  have V : ∀ k ∈ range S.m.Nx, ∀ l ∈ range S.m.Nz, TS k l * ((maskU S f k ((l : Int) + 1) - maskU S f k l) / S.m.dz +
        (maskV S f ((k : Int) + 1) l - maskV S f k l) / S.m.dx) =
      inside S k l * (2 * (t'.verts (k + l * S.m.Nx)).T.xz * t'.rates.exz (k + l * S.m.Nx)) := by
    intro k hk l hl
    rw [ts]
    exact vertex_power S hx hz f t' t.rates hr hb hairV k l (mem_range.1 hk) (mem_range.1 hl)
  rw [Finset.sum_congr rfl fun k hk => Finset.sum_congr rfl fun l hl => X k hk l hl,
    Finset.sum_congr rfl fun k hk => Finset.sum_congr rfl fun l hl => Z k hk l hl,
    Finset.sum_congr rfl fun k hk => Finset.sum_congr rfl fun l hl => C k hk l hl,
    Finset.sum_congr rfl fun k hk => Finset.sum_congr rfl fun l hl => V k hk l hl] at W
  simp only [← Finset.mul_sum, zero_mul, Finset.sum_const_zero, add_zero] at W
  unfold forcePower stressPower
  rw [mul_add, W]

/-! ### heat -/

/-- Recorded mechanical heating of the whole box. -/
noncomputable def heatPower (S : Setting) (t : Mech) : ℝ := S.m.dx * S.m.dz *
  ∑ k ∈ range (S.m.Nx - 1), ∑ l ∈ range (S.m.Nz - 1), (t.cells (k + l * (S.m.Nx - 1))).wDiss

/-- Shear part of the work as the cells see it: shear stress of the cell times the mean shear rate of its corners. -/
noncomputable def cellShearPower (S : Setting) (t : Mech) : ℝ := S.m.dx * S.m.dz *
  ∑ k ∈ range (S.m.Nx - 1), ∑ l ∈ range (S.m.Nz - 1),
    2 * (t.cells (k + l * (S.m.Nx - 1))).T.xz * t.rates.exzN (k + l * (S.m.Nx - 1))

/-- Shear part of the work at the vertices. -/
noncomputable def vertexShearPower (S : Setting) (t : Mech) : ℝ := S.m.dx * S.m.dz *
  ∑ k ∈ range S.m.Nx, ∑ l ∈ range S.m.Nz, inside S k l * (2 * (t.verts (k + l * S.m.Nx)).T.xz * t.rates.exz (k + l * S.m.Nx))

/-- The recorded rates of a solved flow have no divergence. -/
private theorem no_divergence (S : Setting) (hdx : S.m.dx ≠ 0) (hdz : S.m.dz ≠ 0) (f f' : LS.Fields) (t t' : Mech)
    (h : finishStep S f t = .ok (f', t')) (hq : Solved S f t') (k l : Nat) (hk : k < S.m.Nx - 1) (hl : l < S.m.Nz - 1)
    (ha : ¬ (S.m.tp (k + l * (S.m.Nx - 1) : Nat) = 30 ∨ S.m.tp (k + l * (S.m.Nx - 1) : Nat) = 31)) :
    t'.rates.exx (k + l * (S.m.Nx - 1)) + t'.rates.ezz (k + l * (S.m.Nx - 1)) = 0 := by
  have hc : k + l * (S.m.Nx - 1) < S.ncells := cell_lt _ _ k l hk hl
  have hr := (updateNL_ok (fin_ok h).1).1
  have hd := hq.p _ hc ha
  obtain ⟨i1, i2⟩ := hq.incompressible
  obtain ⟨j1, j2⟩ := i2 _ hc
  have hdiv : t'.rates.divu (k + l * (S.m.Nx - 1)) = 0 := by
    have : (rows S (opsOf S t') f t').p (k + l * (S.m.Nx - 1)) = t'.rates.divu (k + l * (S.m.Nx - 1)) * (S.m.dx * S.m.dz) := by
      simp only [rows, Resid.contResidual, i1, j1, j2, flag]
      simp
    rw [this] at hd
    exact (mul_eq_zero.1 hd).resolve_right (mul_ne_zero hdx hdz)
  obtain ⟨r1, r2, r3⟩ := cell_rates S f t.rates k l hk hl ha
  rw [← hr] at r1 r2 r3
  rw [hdiv] at r1
  rw [r2, r3, ← r1]
  generalize (f.u (k + 1 + (l + 1) * S.m.Nx) - f.u (k + (l + 1) * S.m.Nx)) / S.m.dx = sx at *
  generalize (f.v (k + 1 + (l + 1) * (S.m.Nx + 1)) - f.v (k + 1 + l * (S.m.Nx + 1))) / S.m.dz = sz at *
  have hsum : sx + sz = 0 := by
    split at r1 <;> linarith
  linear_combination hsum

/-- No heat in the air. -/
theorem air_no_heat {S : Setting} {f f' : LS.Fields} {t t' : Mech} (h : finishStep S f t = .ok (f', t')) (c : Nat) (hc : c < S.ncells)
    (ha : S.m.tp c = 30 ∨ S.m.tp c = 31) : (t'.cells c).wDiss = 0 := by
  rw [(air_zero h).1 c hc ha]; rfl

/-- Work per time of the recorded stress of the cells on the recorded strain rate of the cells. -/
noncomputable def cellPower (S : Setting) (t : Mech) : ℝ := S.m.dx * S.m.dz *
  ∑ k ∈ range (S.m.Nx - 1), ∑ l ∈ range (S.m.Nz - 1), Spec.power (t.cells (k + l * (S.m.Nx - 1))).T
    ⟨t.rates.exx (k + l * (S.m.Nx - 1)), t.rates.ezz (k + l * (S.m.Nx - 1)), t.rates.exzN (k + l * (S.m.Nx - 1))⟩

/-- C150.  **What the heat of a step lacks or exceeds**: for any material, the work of the cells, which is what heats them (C123), is the power of the
body forces, except that the shear part of the work done at the vertices is replaced
by the shear part as the cells see it, from averaged rates. -/
theorem cell_budget (S : Setting) (hx : 2 ≤ S.m.Nx) (hz : 2 ≤ S.m.Nz) (hdx : S.m.dx ≠ 0) (hdz : S.m.dz ≠ 0) (hs : S.m.stab = false)
    (f f' : LS.Fields) (t t' : Mech) (h : finishStep S f t = .ok (f', t')) (hb : ClosedFlow S f t') (hq : Solved S f t') :
    cellPower S t' = forcePower S f' t' - (vertexShearPower S t' - cellShearPower S t') := by
  obtain ⟨hair, -⟩ := air_zero h
  rw [power_balance S hx hz hdx hdz hs f f' t t' h hb hq]
  have e : ∀ k ∈ range (S.m.Nx - 1), ∀ l ∈ range (S.m.Nz - 1), Spec.power (t'.cells (k + l * (S.m.Nx - 1))).T
      ⟨t'.rates.exx (k + l * (S.m.Nx - 1)), t'.rates.ezz (k + l * (S.m.Nx - 1)), t'.rates.exzN (k + l * (S.m.Nx - 1))⟩ =
      ((t'.cells (k + l * (S.m.Nx - 1))).T.xx * t'.rates.exx (k + l * (S.m.Nx - 1))
        + (t'.cells (k + l * (S.m.Nx - 1))).T.zz * t'.rates.ezz (k + l * (S.m.Nx - 1)))
        + 2 * (t'.cells (k + l * (S.m.Nx - 1))).T.xz * t'.rates.exzN (k + l * (S.m.Nx - 1)) := by
    intro k hk l hl
    have hk := mem_range.1 hk
    have hl := mem_range.1 hl
    have hc : k + l * (S.m.Nx - 1) < S.ncells := cell_lt _ _ k l hk hl
    unfold Spec.power
    dsimp only
    by_cases ha : S.m.tp (k + l * (S.m.Nx - 1) : Nat) = 30 ∨ S.m.tp (k + l * (S.m.Nx - 1) : Nat) = 31
    · rw [hair _ hc ha]; simp [Point.Stored.zero]
    · rw [no_divergence S hdx hdz f f' t t' h hq k l hk hl ha]; ring
  unfold cellPower stressPower vertexShearPower cellShearPower
  rw [Finset.sum_congr rfl fun k hk => Finset.sum_congr rfl fun l hl => e k hk l hl]
  simp only [Finset.sum_add_distrib]
  ring

/-- C150.  If no cell is heated by more than the work of its own stress plus `d`, the heat of the box exceeds the work of the cells by at most
`d` times the volume; if none by less than the work minus `d`, it falls short by at most that. -/
theorem heat_near_work (S : Setting) (hdx : 0 < S.m.dx) (hdz : 0 < S.m.dz) (f f' : LS.Fields) (t t' : Mech)
    (h : finishStep S f t = .ok (f', t')) (d : ℝ) (hd : 0 ≤ d) (hheat : ∀ c < S.ncells, ¬ (S.m.tp c = 30 ∨ S.m.tp c = 31) →
      |(t'.cells c).wDiss - Spec.power (t'.cells c).T ⟨t'.rates.exx c, t'.rates.ezz c, t'.rates.exzN c⟩| ≤ d) :
    |heatPower S t' - cellPower S t'| ≤ S.ncells * (S.m.dx * S.m.dz) * d := by
  obtain ⟨hair, -⟩ := air_zero h
  unfold heatPower cellPower
  rw [← mul_sub, ← Finset.sum_sub_distrib]
  simp only [← Finset.sum_sub_distrib]
  rw [abs_mul, abs_of_pos (mul_pos hdx hdz)]
  have e : |∑ k ∈ range (S.m.Nx - 1), ∑ l ∈ range (S.m.Nz - 1), ((t'.cells (k + l * (S.m.Nx - 1))).wDiss
      - Spec.power (t'.cells (k + l * (S.m.Nx - 1))).T ⟨t'.rates.exx (k + l * (S.m.Nx - 1)), t'.rates.ezz (k + l * (S.m.Nx - 1)),
        t'.rates.exzN (k + l * (S.m.Nx - 1))⟩)| ≤ ∑ k ∈ range (S.m.Nx - 1), ∑ l ∈ range (S.m.Nz - 1), d := by
    refine (Finset.abs_sum_le_sum_abs _ _).trans (Finset.sum_le_sum fun k hk => (Finset.abs_sum_le_sum_abs _ _).trans
      (Finset.sum_le_sum fun l hl => ?_))
    have hc : k + l * (S.m.Nx - 1) < S.ncells := cell_lt _ _ k l (mem_range.1 hk) (mem_range.1 hl)
    by_cases ha : S.m.tp (k + l * (S.m.Nx - 1) : Nat) = 30 ∨ S.m.tp (k + l * (S.m.Nx - 1) : Nat) = 31
    · rw [hair _ hc ha]; simpa [Point.Stored.zero, Spec.power] using hd
    · exact hheat _ hc ha
  refine (mul_le_mul_of_nonneg_left e (mul_pos hdx hdz).le).trans (le_of_eq ?_)
  simp only [Finset.sum_const, Finset.card_range, nsmul_eq_mul, Setting.ncells]
  push_cast
  ring

private theorem halves (g : Nat → ℝ) (n : Nat) (hn : 1 ≤ n) :
    ∑ k ∈ range n, 1 / 2 * (g k + g (k + 1)) = ∑ k ∈ range (n + 1), (if k = 0 ∨ k + 1 = n + 1 then 1 / 2 else 1) * g k := by
  induction n with
  | zero => omega
  | succ n ih =>
    rcases Nat.eq_zero_or_pos n with h | h
    · subst h; simp [Finset.sum_range_succ]; ring
    · rw [Finset.sum_range_succ, ih h, Finset.sum_range_succ _ (n + 1), Finset.sum_range_succ _ n, Finset.sum_range_succ _ n]
      have : ∑ k ∈ range n, (if k = 0 ∨ k + 1 = n + 1 then (1 : ℝ) / 2 else 1) * g k
          = ∑ k ∈ range n, (if k = 0 ∨ k + 1 = n + 1 + 1 then (1 : ℝ) / 2 else 1) * g k := by
        refine Finset.sum_congr rfl fun k hk => ?_
        have := mem_range.1 hk
        congr 1
        have e1 : (k = 0 ∨ k + 1 = n + 1) ↔ (k = 0 ∨ k + 1 = n + 1 + 1) := by omega
        simp only [e1]
      rw [this]
      rw [if_pos (by omega), if_neg (by omega), if_pos (by omega)]
      ring

/-- Quarters of the cells around a vertex add up to the part of them in the box. -/
private theorem quarters_sum (S : Setting) (hx : 2 ≤ S.m.Nx) (hz : 2 ≤ S.m.Nz) (g : Nat → Nat → ℝ) :
    ∑ k ∈ range (S.m.Nx - 1), ∑ l ∈ range (S.m.Nz - 1), 1 / 4 * (g k l + g (k + 1) l + g k (l + 1) + g (k + 1) (l + 1)) =
      ∑ k ∈ range S.m.Nx, ∑ l ∈ range S.m.Nz, inside S k l * g k l := by
  have hzz : S.m.Nz - 1 + 1 = S.m.Nz := by omega
  have hxx : S.m.Nx - 1 + 1 = S.m.Nx := by omega
  have inner : ∀ k, ∑ l ∈ range (S.m.Nz - 1), 1 / 2 * (g k l + g k (l + 1))
      = ∑ l ∈ range S.m.Nz, (if l = 0 ∨ l + 1 = S.m.Nz then 1 / 2 else 1) * g k l := fun k => by
    have := halves (g k) (S.m.Nz - 1) (by omega)
    rwa [hzz] at this
  have outer := halves (fun k => ∑ l ∈ range S.m.Nz, (if l = 0 ∨ l + 1 = S.m.Nz then 1 / 2 else 1) * g k l) (S.m.Nx - 1) (by omega)
  rw [hxx] at outer
  calc _ = ∑ k ∈ range (S.m.Nx - 1), 1 / 2 * ((∑ l ∈ range (S.m.Nz - 1), 1 / 2 * (g k l + g k (l + 1)))
        + ∑ l ∈ range (S.m.Nz - 1), 1 / 2 * (g (k + 1) l + g (k + 1) (l + 1))) := by
        refine Finset.sum_congr rfl fun k _ => ?_
        rw [← Finset.sum_add_distrib, Finset.mul_sum]
        exact Finset.sum_congr rfl fun l _ => by ring
    _ = ∑ k ∈ range (S.m.Nx - 1), 1 / 2 * ((∑ l ∈ range S.m.Nz, (if l = 0 ∨ l + 1 = S.m.Nz then 1 / 2 else 1) * g k l)
        + ∑ l ∈ range S.m.Nz, (if l = 0 ∨ l + 1 = S.m.Nz then 1 / 2 else 1) * g (k + 1) l) := by
        refine Finset.sum_congr rfl fun k _ => ?_
        rw [inner, inner]
    _ = _ := by
        rw [outer]
        refine Finset.sum_congr rfl fun k _ => ?_
        rw [Finset.mul_sum]
        exact Finset.sum_congr rfl fun l _ => by unfold inside; ring

/-- Shear rate of a rock cell: mean of its corners, which is zero at corners in the air. -/
theorem cell_shear (S : Setting) (f : LS.Fields) (r : Kin.Rates ℝ) (k l : Nat) (hk : k < S.m.Nx - 1) (hl : l < S.m.Nz - 1)
    (ha : ¬ (S.m.tp (k + l * (S.m.Nx - 1) : Nat) = 30 ∨ S.m.tp (k + l * (S.m.Nx - 1) : Nat) = 31)) :
    let R := Kin.strainRates (kinInp S f) r
    R.exzN (k + l * (S.m.Nx - 1)) = 1 / 4 * (R.exz (k + l * S.m.Nx) + R.exz (k + 1 + l * S.m.Nx)
      + R.exz (k + (l + 1) * S.m.Nx) + R.exz (k + 1 + (l + 1) * S.m.Nx)) := by
  intro R
  have hE := fun k l h1 h2 => shear_rate S f r k l h1 h2
  have q : ∀ k l, k < S.m.Nx → l < S.m.Nz → (if S.m.tg (k + l * S.m.Nx : Nat) ≠ 30 then 1 / 4 * R.exz (k + l * S.m.Nx) else 0)
      = 1 / 4 * R.exz (k + l * S.m.Nx) := fun k l h1 h2 => by
    split
    · rfl
    · next h => simp only [R, hE k l h1 h2, if_neg h, mul_zero]
  have ha' : S.m.tp (k + l * (S.m.Nx - 1) : Nat) ≠ 30 ∧ S.m.tp (k + l * (S.m.Nx - 1) : Nat) ≠ 31 := by
    rw [not_or] at ha; exact ha
  obtain ⟨e1, e2⟩ := div_mod (S.m.Nx - 1) k l hk
  have hc := cell_lt (S.m.Nx - 1) (S.m.Nz - 1) k l hk hl
  have e : R.exzN (k + l * (S.m.Nx - 1)) = Kin.quarters (kinInp S f) R.exz (k + l * S.m.Nx) := by
    have := Kin.strainRates_eq (kinInp S f) r
    dsimp only at this
    simp only [R]
    rw [this]
    simp only [Kin.filled, kinInp, hc, if_true, e1, e2]
    rw [if_pos ha']
  rw [e]
  unfold Kin.quarters
  have n1 : (kinInp S f).Nx = S.m.Nx := rfl
  have n2 : ∀ c, (kinInp S f).tagG c = S.m.tg c := fun c => rfl
  simp only [n1, n2]
  rw [show k + l * S.m.Nx + 1 = k + 1 + l * S.m.Nx by ring, show k + l * S.m.Nx + S.m.Nx + 1 = k + 1 + (l + 1) * S.m.Nx by ring,
    show k + l * S.m.Nx + S.m.Nx = k + (l + 1) * S.m.Nx by ring]
  have q1 := q k l (by omega) (by omega)
  have q2 := q (k + 1) l (by omega) (by omega)
  have q3 := q k (l + 1) (by omega) (by omega)
  have q4 := q (k + 1) (l + 1) (by omega) (by omega)
  have step : ∀ (P : Prop) [Decidable P] (a b : ℝ), (if P then a + b else a) = a + (if P then b else 0) := by
    intro P _ a b; split <;> simp
  rw [step, step, step, step, q1, q2, q3, q4]
  ring

/-- C150.  **In a fluid of one viscosity heating never exceeds the power spent**: the shear rates are averaged from the vertices to the cells
before they are squared, so heat can only be lost. -/
theorem shear_averaging_loses (S : Setting) (hx : 2 ≤ S.m.Nx) (hz : 2 ≤ S.m.Nz) (hdx : 0 < S.m.dx) (hdz : 0 < S.m.dz)
    (f f' : LS.Fields) (t t' : Mech) (h : finishStep S f t = .ok (f', t')) (eta : ℝ) (he : 0 ≤ eta)
    (hc : ∀ c < S.ncells, ¬ (S.m.tp c = 30 ∨ S.m.tp c = 31) → (t'.cells c).T.xz = 2 * eta * t'.rates.exzN c)
    (hv : ∀ c < S.nverts, S.m.tg c ≠ 30 → (t'.verts c).T.xz = 2 * eta * t'.rates.exz c) :
    cellShearPower S t' ≤ vertexShearPower S t' := by
  obtain ⟨hair, hairV⟩ := air_zero h
  have hr := (updateNL_ok (fin_ok h).1).1
  unfold cellShearPower vertexShearPower
  refine mul_le_mul_of_nonneg_left ?_ (by positivity)
  have e1 : ∀ k ∈ range S.m.Nx, ∀ l ∈ range S.m.Nz, inside S k l * (2 * (t'.verts (k + l * S.m.Nx)).T.xz * t'.rates.exz (k + l * S.m.Nx))
      = inside S k l * (fun k l => 4 * eta * t'.rates.exz (k + l * S.m.Nx) ^ 2) k l := by
    intro k hk l hl
    have hk := mem_range.1 hk
    have hl := mem_range.1 hl
    have hcc : k + l * S.m.Nx < S.nverts := cell_lt _ _ k l hk hl
    by_cases ha : S.m.tg (k + l * S.m.Nx : Nat) = 30
    · have : t'.rates.exz (k + l * S.m.Nx) = 0 := by
        rw [hr, shear_rate S f t.rates k l hk hl, if_neg (by simpa using ha)]
      simp [this]
    · rw [hv _ hcc ha]; ring
  rw [Finset.sum_congr rfl fun k hk => Finset.sum_congr rfl fun l hl => e1 k hk l hl, ← quarters_sum S hx hz]
  refine Finset.sum_le_sum fun k hk => Finset.sum_le_sum fun l hl => ?_
  have hk := mem_range.1 hk
  have hl := mem_range.1 hl
  have hcc : k + l * (S.m.Nx - 1) < S.ncells := cell_lt _ _ k l hk hl
  by_cases ha : S.m.tp (k + l * (S.m.Nx - 1) : Nat) = 30 ∨ S.m.tp (k + l * (S.m.Nx - 1) : Nat) = 31
  · rw [hair _ hcc ha]
    simp only [Point.Stored.zero, mul_zero, zero_mul]
    positivity
  · rw [hc _ hcc ha, hr, cell_shear S f t.rates k l hk hl ha]
    generalize (Kin.strainRates (kinInp S f) t.rates).exz (k + l * S.m.Nx) = a
    generalize (Kin.strainRates (kinInp S f) t.rates).exz (k + 1 + l * S.m.Nx) = b
    generalize (Kin.strainRates (kinInp S f) t.rates).exz (k + (l + 1) * S.m.Nx) = c
    generalize (Kin.strainRates (kinInp S f) t.rates).exz (k + 1 + (l + 1) * S.m.Nx) = d
    have key : (a + b + c + d) ^ 2 ≤ 4 * (a ^ 2 + b ^ 2 + c ^ 2 + d ^ 2) := by
      nlinarith [sq_nonneg (a - b), sq_nonneg (a - c), sq_nonneg (a - d), sq_nonneg (b - c), sq_nonneg (b - d), sq_nonneg (c - d)]
    nlinarith [mul_le_mul_of_nonneg_left key he]

end Verif.StepFlow
