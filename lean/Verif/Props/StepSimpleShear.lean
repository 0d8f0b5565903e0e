import Verif.Props.StepAccept

/- C161: simple shear of a uniform body between the moving walls and periodic sides of the code needs no solve. -/
set_option linter.unusedSimpArgs false

namespace Verif.StepFlow
open Verif Finset

/-- Walls set up with the simple shear functions that come with the code (`SetSimpleShearBCVx`, `SetSimpleShearBCVz`, Setup.c:925-945, 982-995), periodic sides, no air, `z = 0` in the middle of the box.
`z` are the coordinates of the rows of vertices, `zu` those of the rows of Vx nodes, `eps` the background strain rate, `bu`, `bv` the tags and values `SetBCs` leaves. -/
structure SimpleShear (S : Setting) (eps : ℝ) (x z zu : Nat → ℝ) (bu bv : Setup.Side ℝ) : Prop where
  Nx : 2 ≤ S.m.Nx
  Nz : 2 ≤ S.m.Nz
  stepZ : ∀ l, z (l + 1) = z l + S.m.dz
  rowsU : ∀ l, zu l = z 0 + (l - 1 / 2) * S.m.dz
  vx : ∃ (Lz : ℝ) (t : Nat → Int) (v : Nat → ℝ), (∀ c, t c ≠ 30) ∧ Setup.setVx S.m.Nx S.m.Nz (Setup.shearVx 1 eps Lz x) t v = some bu ∧ z 0 = -Lz / 2 ∧ z (S.m.Nz - 1) = Lz / 2
  vz : ∃ (t : Nat → Int) (v : Nat → ℝ), (∀ c, t c ≠ 30) ∧ Setup.setVz S.m.Nx S.m.Nz (Setup.shearVz 1 eps z) t v = some bv
  tu : ∀ i < (S.m.Nz + 1) * S.m.Nx, S.m.tu (i : Nat) = bu.type i
  tv : ∀ i < S.m.Nz * (S.m.Nx + 1), S.m.tv (i : Nat) = bv.type i
  rock : ∀ i : Nat, S.m.tp i = -1
  per : S.per = true

/-- The textbook flow: the horizontal velocity grows with height, `2 eps` per unit length; no vertical velocity; one pressure. -/
noncomputable def sheared (S : Setting) (eps : ℝ) (zu : Nat → ℝ) (p0 : ℝ) : LS.Fields where
  u i := if i < (S.m.Nz + 1) * S.m.Nx then 2 * eps * zu (i / S.m.Nx) else 0
  v _ := 0
  p i := if i < (S.m.Nz - 1) * (S.m.Nx - 1) then p0 else 0

section
variable {S : Setting} {eps : ℝ} {x z zu : Nat → ℝ} {bu bv : Setup.Side ℝ} (h : SimpleShear S eps x z zu bu bv)
include h

theorem SimpleShear.coord (l : Nat) : z l = z 0 + l * S.m.dz := by
  induction l with
  | zero => simp
  | succ l ih => rw [h.stepZ, ih]; push_cast; ring

/-- What is prescribed where; the values of the walls are those of the textbook flow, at the wall. -/
theorem SimpleShear.tags_u (k l : Nat) (hk : k < S.m.Nx) (hl : l ≤ S.m.Nz) :
    (S.m.tu (k + l * S.m.Nx : Nat) = if l = 0 ∨ l = S.m.Nz then 11 else if k = 0 then -2 else if k = S.m.Nx - 1 then -12 else -1)
    ∧ (l = 0 → bu.val (k + l * S.m.Nx) = 2 * eps * (zu 0 + zu 1)) ∧ (l = S.m.Nz → bu.val (k + l * S.m.Nx) = 2 * eps * (zu (S.m.Nz - 1) + zu S.m.Nz)) := by
  obtain ⟨Lz, t, v, ht, hu, z1, z2⟩ := h.vx
  have hx := h.Nx
  have hz := h.Nz
  obtain ⟨a, b⟩ := (Setup.setVx_spec hx _ t v hu).1 k hk l (by omega) (ht _)
  have hi : k + l * S.m.Nx < (S.m.Nz + 1) * S.m.Nx := by rw [mul_comm (S.m.Nz + 1)]; exact cell_lt _ _ _ _ hk (by omega)
  rw [h.tu _ hi, a, b]
  have e0 : ∀ p, Setup.shearVx 1 eps Lz x p k l = Setup.simpleVx eps Lz p k l := fun p => by simp [Setup.shearVx]
  have s1 : 2 * eps * (zu 0 + zu 1) = 2 * (-eps * Lz) := by
    rw [h.rowsU, h.rowsU, z1]; push_cast; ring
  have s2 : 2 * eps * (zu (S.m.Nz - 1) + zu S.m.Nz) = 2 * (eps * Lz) := by
    have := h.coord (S.m.Nz - 1)
    rw [z2, Nat.cast_sub (by omega)] at this
    rw [h.rowsU, h.rowsU, Nat.cast_sub (by omega)]
    push_cast at this ⊢
    linear_combination -4 * eps * this
  rw [e0, s1, s2]
  have w1 : ¬ (S.m.Nx - 1 = 0) := by omega
  have w2 : ¬ (S.m.Nz - 1 = 0) := by omega
  have w3 : ¬ (S.m.Nz = 0) := by omega
  unfold Setup.posVx
  by_cases a1 : l = 0
  · have : ¬ (0 = S.m.Nz) := by omega
    by_cases a2 : k = 0 <;> by_cases a3 : k = S.m.Nx - 1 <;> simp [Setup.simpleVx, w1, w2, w3, a1, a2, a3, this]
  by_cases a4 : l = S.m.Nz
  · by_cases a2 : k = 0 <;> by_cases a3 : k = S.m.Nx - 1 <;> simp [Setup.simpleVx, w1, w2, w3, a1, a2, a3, a4]
  by_cases a2 : k = 0
  · simp [Setup.simpleVx, w1, w2, w3, a1, a2, a4]
  by_cases a3 : k = S.m.Nx - 1 <;> simp [Setup.simpleVx, w1, w2, w3, a1, a2, a3, a4]

/-- See `tags_u`. -/
theorem SimpleShear.tags_v (k l : Nat) (hk : k ≤ S.m.Nx) (hl : l < S.m.Nz) :
    (S.m.tv (k + l * (S.m.Nx + 1) : Nat) = if k = 0 ∨ k = S.m.Nx then -12 else if l = 0 ∨ l = S.m.Nz - 1 then 0 else -1)
    ∧ bv.val (k + l * (S.m.Nx + 1)) = 0 := by
  obtain ⟨t, v, ht, hv⟩ := h.vz
  have hx := h.Nx
  have hz := h.Nz
  obtain ⟨a, b⟩ := (Setup.setVz_spec (by omega) hz _ t v hv).1 k (by omega) l hl (ht _)
  have hi : k + l * (S.m.Nx + 1) < S.m.Nz * (S.m.Nx + 1) := by rw [mul_comm S.m.Nz]; exact cell_lt _ _ _ _ (by omega) hl
  rw [h.tv _ hi, a, b]
  have e0 : ∀ p, Setup.shearVz 1 eps z p k l = (Setup.simpleVz p k l : Setup.BC ℝ) := fun p => by simp [Setup.shearVz]
  rw [e0]
  have w1 : ¬ (S.m.Nx - 1 = 0) := by omega
  have w2 : ¬ (S.m.Nz - 1 = 0) := by omega
  have w3 : ¬ (S.m.Nx = 0) := by omega
  have w4 : ¬ (0 = S.m.Nz - 1) := by omega
  unfold Setup.posVz
  by_cases a1 : k = 0
  · by_cases a2 : l = 0 <;> by_cases a3 : l = S.m.Nz - 1 <;> simp [Setup.simpleVz, w4, w1, w2, w3, a1, a2, a3]
  by_cases a4 : k = S.m.Nx
  · have : ¬ (S.m.Nx = 0) := by omega
    by_cases a2 : l = 0 <;> by_cases a3 : l = S.m.Nz - 1 <;> simp [Setup.simpleVz, w4, w1, w2, w3, a2, a3, a4, this]
  by_cases a2 : l = 0
  · simp [Setup.simpleVz, w4, w1, w2, w3, a1, a2, a4]
  by_cases a3 : l = S.m.Nz - 1 <;> simp [Setup.simpleVz, w4, w1, w2, w3, a1, a2, a3, a4]

omit h in
/-- The flow node by node. -/
theorem sheared_at (S : Setting) (eps : ℝ) (zu : Nat → ℝ) (p0 : ℝ) (k l : Nat) (hk : k < S.m.Nx) (hl : l ≤ S.m.Nz) : (sheared S eps zu p0).u (k + l * S.m.Nx) = 2 * eps * zu l := by
  simp only [sheared]
  rw [if_pos (by rw [mul_comm (S.m.Nz + 1)]; exact cell_lt _ _ _ _ hk (by omega)), Nat.add_mul_div_right _ _ (by omega), Nat.div_eq_of_lt hk, zero_add]

/-- Filling the ghost nodes does not change the flow. -/
private theorem SimpleShear.bc_keeps (F : Fields ℝ) (hu : ∀ k l, k < S.m.Nx → l ≤ S.m.Nz → F.u (k + l * S.m.Nx) = 2 * eps * zu l)
    (hv : ∀ k l, k ≤ S.m.Nx → l < S.m.Nz → F.v (k + l * (S.m.Nx + 1)) = 0) :
    (∀ k l, k < S.m.Nx → l ≤ S.m.Nz → (applyBC S.m.Nx S.m.Nz (tagsOf S) ⟨bu.val, bv.val⟩ F).u (k + l * S.m.Nx) = 2 * eps * zu l)
    ∧ ∀ k l, k ≤ S.m.Nx → l < S.m.Nz → (applyBC S.m.Nx S.m.Nz (tagsOf S) ⟨bu.val, bv.val⟩ F).v (k + l * (S.m.Nx + 1)) = 0 := by
  have hx := h.Nx
  have hz := h.Nz
  obtain ⟨-, -, u3, u4, -, u6, -, u8⟩ := applyBC_u S.m.Nx S.m.Nz hx hz (tagsOf S) ⟨bu.val, bv.val⟩ F
  obtain ⟨-, -, -, -, v5, v6, v7, -⟩ := applyBC_v S.m.Nx S.m.Nz hx (tagsOf S) ⟨bu.val, bv.val⟩ F
  refine ⟨fun k l hk hl => ?_, fun k l hk hl => ?_⟩
  · obtain ⟨e, e1, e2⟩ := h.tags_u k l hk hl
    change (tagsOf S).u (k + l * S.m.Nx) = _ at e
    by_cases w : l = 0
    · subst w
      have e1 := e1 rfl
      rw [if_pos (Or.inl rfl)] at e
      simp only [zero_mul, add_zero] at e e1 ⊢
      rw [u3 k hk e]
      show bu.val k - _ = _
      rw [e1, hu k 1 hk (by omega)]; ring
    by_cases w' : l = S.m.Nz
    · subst w'
      rw [if_pos (Or.inr rfl)] at e
      rw [u4 k hk e]
      show bu.val _ - _ = _
      rw [e2 rfl, hu k _ hk (by omega)]; ring
    rw [if_neg (by omega)] at e
    by_cases q : k = 0
    · rw [if_pos q] at e; rw [u6 _ (by rw [e]; decide), hu k l hk hl]
    rw [if_neg q] at e
    by_cases q' : k = S.m.Nx - 1
    · rw [if_pos q'] at e; subst q'; rw [u8 l (by omega) (by omega) e, hu 0 l (by omega) hl]
    · rw [if_neg q'] at e; rw [u6 _ (by rw [e]; decide), hu k l hk hl]
  · have e : (tagsOf S).v (k + l * (S.m.Nx + 1)) = _ := (h.tags_v k l hk hl).1
    by_cases w : k = 0
    · subst w
      rw [if_pos (Or.inl rfl)] at e
      simp only [zero_add] at e ⊢
      rw [v5 l hl e, add_comm, hv _ l (by omega) hl]
    by_cases w' : k = S.m.Nx
    · subst w'
      rw [if_pos (Or.inr rfl), add_comm] at e
      rw [add_comm, v6 l hl e, add_comm, hv 1 l (by omega) hl]
    · rw [if_neg (by omega)] at e
      rw [v7 _ (by rw [e]; split_ifs <;> decide), hv k l hk hl]

/-- Fields whose nodes are those of the textbook flow are the textbook flow. -/
private theorem SimpleShear.same_fields {G : Fields ℝ} {p0 : ℝ} (hu : ∀ k l, k < S.m.Nx → l ≤ S.m.Nz → G.u (k + l * S.m.Nx) = 2 * eps * zu l)
    (hv : ∀ k l, k ≤ S.m.Nx → l < S.m.Nz → G.v (k + l * (S.m.Nx + 1)) = 0) (hp : ∀ c < (S.m.Nz - 1) * (S.m.Nx - 1), G.p c = p0) :
    (⟨fun i => if i < (S.m.Nz + 1) * S.m.Nx then G.u i else 0, fun i => if i < S.m.Nz * (S.m.Nx + 1) then G.v i else 0, fun i => if i < (S.m.Nz - 1) * (S.m.Nx - 1) then G.p i else 0⟩ : LS.Fields)
      = sheared S eps zu p0 := by
  have hx := h.Nx
  have split : ∀ n m i : Nat, 0 < n → i < m * n → ∃ k l, k < n ∧ l < m ∧ i = k + l * n := fun n m i hn hi =>
    ⟨i % n, i / n, Nat.mod_lt _ hn, (Nat.div_lt_iff_lt_mul hn).2 hi, by rw [mul_comm]; exact (Nat.mod_add_div i n).symm⟩
  rw [LS.Fields.mk.injEq]
  refine ⟨funext fun i => ?_, funext fun i => ?_, funext fun i => ?_⟩
  · by_cases w : i < (S.m.Nz + 1) * S.m.Nx
    · rw [if_pos w]
      obtain ⟨k, l, hk, hl, rfl⟩ := split _ _ i (by omega) w
      rw [hu k l hk (by omega), sheared_at S eps zu p0 k l hk (by omega)]
    · rw [if_neg w]; simp only [sheared]; rw [if_neg w]
  · by_cases w : i < S.m.Nz * (S.m.Nx + 1)
    · rw [if_pos w]
      obtain ⟨k, l, hk, hl, rfl⟩ := split _ _ i (by omega) w
      rw [hv k l (by omega) hl]; rfl
    · rw [if_neg w]; rfl
  · by_cases w : i < (S.m.Nz - 1) * (S.m.Nx - 1)
    · rw [if_pos w, hp i w]; simp [sheared, w]
    · rw [if_neg w]; simp only [sheared]; rw [if_neg w]

/-- C161 (first step).  Under the simple shear walls the program starts from the textbook flow, at the background pressure. -/
theorem simple_shear_start (P : ℝ) (f : LS.Fields) : initialFields S true eps 0 P x z zu ⟨bu.val, bv.val⟩ f = sheared S eps zu P := by
  have hx := h.Nx
  have hz := h.Nz
  obtain ⟨su, sv⟩ := SFlow.start_velocity (⟨S.m.Nx, S.m.Nz, true, S.per, eps, 0, P, x, z, zu⟩ : SFlow.Start ℝ) (fun i => S.m.tu i) (fun i => S.m.tv i) bu.val bv.val f.u f.v
  have fl : ∀ X Z : ℝ, (⟨S.m.Nx, S.m.Nz, true, S.per, eps, 0, P, x, z, zu⟩ : SFlow.Start ℝ).flow X Z = (2 * eps * Z, 0) := fun X Z => by
    unfold SFlow.Start.flow SFlow.simpleShear
    simp only [h.per, if_true]
    simp; ring
  unfold initialFields
  dsimp only
  obtain ⟨bk, bk'⟩ := h.bc_keeps ⟨_, _, (⟨S.m.Nx, S.m.Nz, true, S.per, eps, 0, P, x, z, zu⟩ : SFlow.Start ℝ).pLoop (fun i => S.m.tp i) f.p⟩
    (fun k l hk hl => (su k hk l (show l < S.m.Nz + 1 by omega)).trans (by
      obtain ⟨e, -⟩ := h.tags_u k l hk hl
      rw [fl, if_neg (by rw [e]; split_ifs <;> decide), if_neg (by rw [e]; split_ifs <;> decide)]
      rfl))
    (fun k l hk hl => (sv k (show k < S.m.Nx + 1 by omega) l hl 0).trans (by
      obtain ⟨e, e'⟩ := h.tags_v k l hk hl
      rw [fl, e']
      simp))
  exact h.same_fields bk bk' fun c hc => by
    show (⟨S.m.Nx, S.m.Nz, true, S.per, eps, 0, P, x, z, zu⟩ : SFlow.Start ℝ).pLoop (fun i => S.m.tp i) f.p c = _
    rw [SFlow.start_pressure _ _ _ c hc]
    simp

/-- C161 (later steps).  What later steps do before their loop leaves this flow as it is. -/
theorem simple_shear_kept (E D P p0 : ℝ) : initialFields S false E D P x z zu ⟨bu.val, bv.val⟩ (sheared S eps zu p0) = sheared S eps zu p0 := by
  have hx := h.Nx
  have hz := h.Nz
  obtain ⟨su, sv⟩ := SFlow.start_velocity (⟨S.m.Nx, S.m.Nz, false, S.per, E, D, P, x, z, zu⟩ : SFlow.Start ℝ) (fun i => S.m.tu i) (fun i => S.m.tv i) bu.val bv.val (sheared S eps zu p0).u (sheared S eps zu p0).v
  unfold initialFields
  dsimp only
  obtain ⟨bk, bk'⟩ := h.bc_keeps ⟨_, _, (⟨S.m.Nx, S.m.Nz, false, S.per, E, D, P, x, z, zu⟩ : SFlow.Start ℝ).pLoop (fun i => S.m.tp i) (sheared S eps zu p0).p⟩
    (fun k l hk hl => (su k hk l (show l < S.m.Nz + 1 by omega)).trans (by
      obtain ⟨e, -⟩ := h.tags_u k l hk hl
      rw [if_neg (by rw [e]; split_ifs <;> decide), if_neg (by rw [e]; split_ifs <;> decide)]
      exact sheared_at S eps zu p0 k l hk hl))
    (fun k l hk hl => (sv k (show k < S.m.Nx + 1 by omega) l hl 0).trans (by
      obtain ⟨e, e'⟩ := h.tags_v k l hk hl
      rw [e']
      simp [sheared]))
  exact h.same_fields bk bk' fun c hc => by
    show (⟨S.m.Nx, S.m.Nz, false, S.per, E, D, P, x, z, zu⟩ : SFlow.Start ℝ).pLoop (fun i => S.m.tp i) (sheared S eps zu p0).p c = _
    rw [SFlow.start_pressure _ _ _ c hc]
    have rock := h.rock c
    simp [rock, sheared, hc]
end

/-- The horizontal row at the periodic seam as force balance: the cell to the west is the last one of the row. -/
theorem row_seam_forces (S : Setting) (hx : 2 ≤ S.m.Nx) (hs : S.m.stab = false) (f : LS.Fields) (o : Mech) (l : Nat) (hl : 1 ≤ l) (htag : S.m.tu (0 + l * S.m.Nx : Nat) = -2) :
    (rows S (opsOf S o) f o).x (0 : Nat) l = -(S.m.dx * S.m.dz) *
      (((((o.cells ((l - 1) * (S.m.Nx - 1))).T.xx - (o.cells ((l - 1) * (S.m.Nx - 1))).pcorr)
          - ((o.cells (S.m.Nx - 2 + (l - 1) * (S.m.Nx - 1))).T.xx - (o.cells (S.m.Nx - 2 + (l - 1) * (S.m.Nx - 1))).pcorr)) / S.m.dx
        + ((o.verts (l * S.m.Nx)).T.xz - (o.verts ((l - 1) * S.m.Nx)).T.xz) / S.m.dz) + o.bx (l * S.m.Nx)) := by
  obtain ⟨l, rfl⟩ : ∃ j, l = j + 1 := ⟨l - 1, by omega⟩
  simp only [Nat.add_sub_cancel, zero_add] at htag ⊢
  have arr : ∀ (a : Nat → ℝ) (i : Nat), S.arr a (i : Int) = a i := fun a i => by simp [Setting.arr]
  have hcorr : ∀ a, xCorr (meshWith S (opsOf S o) o.rho) (0 : Nat) (l + 1 : Nat) a = 0 := fun a => by simp [xCorr, meshWith, hs]
  have e1 : ((meshWith S (opsOf S o) o.rho).Nx : Int) = S.m.Nx := rfl
  have e2 : (meshWith S (opsOf S o) o.rho).tu = S.m.tu := rfl
  have iN : ((0 : Nat) : Int) + ((l + 1 : Nat) : Int) * (S.m.Nx : Int) = ((l + 1) * S.m.Nx : Nat) := by push_cast; ring
  unfold rows
  simp only [xResidual, hcorr]
  have qW : (xIn (meshWith S (opsOf S o) o.rho) (0 : Nat) (l + 1 : Nat)).SW = 0 := by
    simp only [xIn, e1, e2]
    rw [iN, htag]; simp [flag]
  have qE : (xIn (meshWith S (opsOf S o) o.rho) (0 : Nat) (l + 1 : Nat)).SE = 0 := by
    simp only [xIn, e1, e2]
    rw [iN, htag]; simp [flag]
  have pW : (xIdx (meshWith S (opsOf S o) o.rho) (0 : Nat) (l + 1 : Nat)).pW = (S.m.Nx - 2 + l * (S.m.Nx - 1) : Nat) := by
    simp only [xIdx, e1, e2]
    rw [iN, htag]
    simp
    push_cast [Nat.cast_sub hx, Nat.cast_sub (show 1 ≤ S.m.Nx by omega)]; ring
  have pE : (xIdx (meshWith S (opsOf S o) o.rho) (0 : Nat) (l + 1 : Nat)).pE = (l * (S.m.Nx - 1) : Nat) := by
    simp only [xIdx, e1]
    push_cast [Nat.cast_sub (show 1 ≤ S.m.Nx by omega)]; ring
  have gN : (xIdx (meshWith S (opsOf S o) o.rho) (0 : Nat) (l + 1 : Nat)).gN = ((l + 1) * S.m.Nx : Nat) := iN
  have gS : (xIdx (meshWith S (opsOf S o) o.rho) (0 : Nat) (l + 1 : Nat)).gS = (l * S.m.Nx : Nat) := by
    simp only [xIdx, e1]
    push_cast; ring
  rw [qW, qE, pW, pE, gN, gS, iN]
  simp only [arr]
  have d1 : (meshWith S (opsOf S o) o.rho).dx = S.m.dx := rfl
  have d2 : (meshWith S (opsOf S o) o.rho).dz = S.m.dz := rfl
  rw [d1, d2]
  ring

section
variable {S : Setting} {eps : ℝ} {x z zu : Nat → ℝ} {bu bv : Setup.Side ℝ} (h : SimpleShear S eps x z zu bu bv)
include h

theorem SimpleShear.sampled (p0 : ℝ) : Spec.Sampled 0 (z 0) S.m.dx S.m.dz S.m.Nx S.m.Nz (Spec.linearFlow 0 0 (2 * eps) 0 0 0) (sheared S eps zu p0).u (sheared S eps zu p0).v := by
  refine ⟨fun k l hk hl => ?_, fun k l hk hl => ?_⟩
  · rw [sheared_at S eps zu p0 k l hk (by omega), h.rowsU]
    simp only [Spec.linearFlow, Spec.uNode]; ring
  · simp [sheared, Spec.linearFlow, Spec.vNode]

/-- C161 (balance).  **Simple shear of an even body is balanced**, for every flow law: the residual of the textbook flow is zero in every row that is measured, the rows at the periodic seam included. -/
theorem simple_shear_settled (hS : SameEverywhere S) (hg : S.body.gx = 0 ∧ S.body.gz = 0) (hvol : S.vol = false) (hq : ∀ c, S.comp c = false ∧ S.rhsP c = 0) {p0 : ℝ} {t o : Mech}
    (ho : updateNL S false (sheared S eps zu p0) t = .ok o) : Settled S (measured S (opsOf S o) o.rho (sheared S eps zu p0) o) := by
  have hx := h.Nx
  have hz := h.Nz
  have hn : S.ncells = (S.m.Nz - 1) * (S.m.Nx - 1) := mul_comm _ _
  obtain ⟨sc, sv, p1, p2, p3⟩ := patch_test hS hg (h.sampled p0) (p0 := p0) (fun i hi => by rw [hn] at hi; simp [sheared, hi]) ho
  obtain ⟨-, -, -, -, -, -, -, hbx, -⟩ := updateNL_ok ho
  refine ⟨fun a ha he => ?_, fun a ha he => ?_, fun a ha he => ?_⟩
  · simp only [measured]
    have hk : a % S.m.Nx < S.m.Nx := Nat.mod_lt _ (by omega)
    have hl : a / S.m.Nx < S.m.Nz + 1 := (Nat.div_lt_iff_lt_mul (by omega)).2 ha
    have ei : a % S.m.Nx + a / S.m.Nx * S.m.Nx = a := by rw [mul_comm]; exact Nat.mod_add_div _ _
    obtain ⟨e, -⟩ := h.tags_u (a % S.m.Nx) (a / S.m.Nx) hk (by omega)
    generalize a % S.m.Nx = k at *
    generalize a / S.m.Nx = l at *
    rw [← ei, e] at he
    by_cases w : l = 0 ∨ l = S.m.Nz
    · rw [if_pos w] at he; simp [extractVel] at he
    rw [if_neg w] at he e
    by_cases w' : k = 0
    · subst w'
      rw [if_pos rfl] at e
      have bx0 : o.bx (l * S.m.Nx) = 0 := by
        rw [hbx]; unfold written
        rw [if_pos (by rw [mul_comm l]; exact (Nat.mul_lt_mul_left (by omega)).2 (by omega))]
        unfold Resid.rogerX
        rw [hg.1]; simp
      have hl1 : l - 1 < S.m.Nz - 1 := by omega
      rw [row_seam_forces S hx hS.stab _ o l (by omega) e, sc ((l - 1) * (S.m.Nx - 1)) (by have := cell_lt (S.m.Nx - 1) (S.m.Nz - 1) 0 (l - 1) (by omega) hl1; rwa [zero_add] at this),
        sc (S.m.Nx - 2 + (l - 1) * (S.m.Nx - 1)) (cell_lt (S.m.Nx - 1) (S.m.Nz - 1) _ _ (by omega) hl1),
        sv (l * S.m.Nx) (by have := cell_lt S.m.Nx S.m.Nz 0 l (by omega) (by omega); rwa [zero_add] at this),
        sv ((l - 1) * S.m.Nx) (by have := cell_lt S.m.Nx S.m.Nz 0 (l - 1) (by omega) (by omega); rwa [zero_add] at this), bx0]
      ring
    rw [if_neg w'] at he e
    by_cases w2 : k = S.m.Nx - 1
    · rw [if_pos w2] at he; simp [extractVel] at he
    rw [if_neg w2] at e
    rw [p1 k l (by omega) (by omega) (by omega) (by omega) (by rw [e]; decide), zero_mul]
  · simp only [measured]
    have hk : a % (S.m.Nx + 1) < S.m.Nx + 1 := Nat.mod_lt _ (by omega)
    have hl : a / (S.m.Nx + 1) < S.m.Nz := (Nat.div_lt_iff_lt_mul (by omega)).2 ha
    have ei : a % (S.m.Nx + 1) + a / (S.m.Nx + 1) * (S.m.Nx + 1) = a := by rw [mul_comm]; exact Nat.mod_add_div _ _
    obtain ⟨e, -⟩ := h.tags_v (a % (S.m.Nx + 1)) (a / (S.m.Nx + 1)) (by omega) hl
    generalize a % (S.m.Nx + 1) = k at *
    generalize a / (S.m.Nx + 1) = l at *
    rw [← ei, e] at he
    by_cases w : k = 0 ∨ k = S.m.Nx
    · rw [if_pos w] at he; simp [extractVel] at he
    rw [if_neg w] at he
    by_cases w' : l = 0 ∨ l = S.m.Nz - 1
    · rw [if_pos w'] at he; simp [extractVel] at he
    rw [p2 k l (by omega) (by omega) (by omega) (by omega), zero_mul]
  · simp only [measured, rows, Resid.contResidual]
    rw [p3 a (by rw [hn]; exact ha), (hq _).1, (hq _).2, hvol]
    simp [flag]

/-- C161 (one step).  A step that starts with simple shear and is recorded is recorded with simple shear, after one evaluation and no solve; the pressure is even again. -/
theorem simple_shear_step (hS : SameEverywhere S) (hg : S.body.gx = 0 ∧ S.body.gz = 0) (hvol : S.vol = false) (hq : ∀ c, S.comp c = false ∧ S.rhsP c = 0) {c : Time.LoopCfg ℝ} (hT : Tested S c)
    {solve : Solver} {E D P : ℝ} {p0 : ℝ} {t : Mech} {r : Time.Res ℝ} {fuel : Nat} {e : StepEnd}
    (he : mechStep S (countedNorms S) c solve false E D P x z zu ⟨bu.val, bv.val⟩ r fuel (sheared S eps zu p0) t = some (.ok e)) :
    (∃ p1, e.f = sheared S eps zu p1) ∧ e.s.evals = 1 ∧ e.s.nit = 0 ∧ e.s.dt = S.env.dt := by
  have hk := simple_shear_kept h E D P p0
  obtain ⟨⟨n, rfl⟩, o, ho⟩ := mechStep_first hT.dt hT.stag hk he
  have hb := simple_shear_settled h hS hg hvol hq ho
  rw [settled_step hT.dt hT.rows hT.mom hT.div hT.stag hk ho hb solve r n] at he
  rcases hf : finishStep S (sheared S eps zu p0) o with ⟨f', o'⟩ | k | _
  · rw [hf] at he
    simp only [Option.some.injEq, Point.Outcome.ok.injEq] at he
    subst he
    refine ⟨?_, rfl, rfl, rfl⟩
    obtain ⟨hu, rfl⟩ := fin_ok hf
    have hn : S.ncells = (S.m.Nz - 1) * (S.m.Nx - 1) := mul_comm _ _
    obtain ⟨sc, -⟩ := patch_test hS hg (h.sampled p0) (p0 := p0) (fun i hi => by rw [hn] at hi; simp [sheared, hi]) hu
    refine ⟨(o'.cells 0).pcorr, ?_⟩
    unfold sheared
    rw [LS.Fields.mk.injEq]
    refine ⟨rfl, rfl, funext fun i => ?_⟩
    rw [LS.copyArr_apply]
    by_cases w : i < (S.m.Nz - 1) * (S.m.Nx - 1)
    · rw [if_pos (by rw [hn]; exact w), sc i (by rw [hn]; exact w), if_pos w]
    · rw [if_neg (by rw [hn]; exact w)]; simp only [sheared]; rw [if_neg w, if_neg w]
  · rw [hf] at he; simp at he
  · rw [hf] at he; simp at he

/-- C161 (start of the run): the lithostatic pressure without weight is the background pressure. -/
theorem simple_shear_run_start (hgz : S.body.gz = 0) (P : ℝ) (rho : Nat → ℝ) (f : LS.Fields) : runStart S eps 0 P x z zu ⟨bu.val, bv.val⟩ rho f = sheared S eps zu P := by
  have hx := h.Nx
  have hz := h.Nz
  unfold runStart
  rw [simple_shear_start h]
  unfold sheared
  rw [LS.Fields.mk.injEq]
  refine ⟨rfl, rfl, funext fun i => ?_⟩
  by_cases w : i < (S.m.Nz - 1) * (S.m.Nx - 1)
  · rw [if_pos w, if_pos w]
    have hk : i % (S.m.Nx - 1) < S.m.Nx - 1 := Nat.mod_lt _ (by omega)
    have hl : i / (S.m.Nx - 1) < S.m.Nz - 1 := (Nat.div_lt_iff_lt_mul (by omega)).2 w
    have ei : i % (S.m.Nx - 1) + i / (S.m.Nx - 1) * (S.m.Nx - 1) = i := by rw [mul_comm]; exact Nat.mod_add_div _ _
    have rock : ∀ i : Nat, ¬ Spec.AirFlag (S.m.tp i) := fun i => by rw [h.rock]; unfold Spec.AirFlag; decide
    obtain ⟨p, ⟨e1, e2⟩, e3⟩ := GridField.lith_eq (S.m.Nx - 1) (S.m.Nz - 1) (fun i => S.m.tp i) S.body.gz S.m.dz P rho
    have col : ∀ n l, l + n + 1 = S.m.Nz - 1 → p (i % (S.m.Nx - 1) + l * (S.m.Nx - 1)) = 0 := by
      intro n
      induction n with
      | zero => intro l hl; rw [show l = S.m.Nz - 1 - 1 by omega, e1 _ hk]
      | succ n ih => intro l hl; rw [e2 _ hk l (by omega), if_neg (rock _), ih (l + 1) (by omega), hgz]; ring
    have a := e3 _ hk _ hl
    rw [if_neg (rock _), col (S.m.Nz - 2 - i / (S.m.Nx - 1)) (i / (S.m.Nx - 1)) (by omega), ei, hgz] at a
    rw [hgz, a]; ring
  · rw [if_neg w, if_neg w]

/-- On a grid of at least five by five vertices there are rows to be counted. -/
theorem SimpleShear.counted (hx : 5 ≤ S.m.Nx) (hz : 5 ≤ S.m.Nz) : Counted S := by
  refine ⟨⟨1 + 3 * S.m.Nx, ?_, ?_, ?_⟩, ⟨3 + 1 * (S.m.Nx + 1), ?_, ?_, ?_⟩, ⟨0, Nat.mul_pos (by omega) (by omega), ?_⟩⟩
  · rw [mul_comm (S.m.Nz + 1)]; exact cell_lt _ _ _ _ (by omega) (by omega)
  · rw [(h.tags_u 1 3 (by omega) (by omega)).1, if_neg (by omega), if_neg (by omega), if_neg (by omega)]; decide
  · unfold Resid.coverU
    rw [Nat.add_mul_div_right _ _ (by omega), Nat.div_eq_of_lt (by omega)]
    exact decide_eq_true ⟨by omega, by omega⟩
  · rw [mul_comm S.m.Nz]; exact cell_lt _ _ _ _ (by omega) (by omega)
  · rw [(h.tags_v 3 1 (by omega) (by omega)).1, if_neg (by omega), if_neg (by omega)]; decide
  · unfold Resid.coverV
    rw [Nat.add_mul_mod_self_right, Nat.mod_eq_of_lt (by omega)]
    exact decide_eq_true ⟨by omega, by omega⟩
  · rw [h.rock]; decide
end

/-- C161.  **Simple shear of an even body**: from the program's own start on, every recorded step has the horizontal velocity `2 eps z` at every node and no vertical velocity, the pressure is even, and no
step solves anything, for every flow law, solver, iteration limit and number of steps. -/
theorem simple_shear_run {S : Nat → Setting} {eps : ℝ} {x z zu : Nat → ℝ} {bu bv : Setup.Side ℝ} (h : ∀ n, SimpleShear (S n) eps x z zu bu bv) (hS : ∀ n, SameEverywhere (S n))
    (hg : ∀ n, (S n).body.gx = 0 ∧ (S n).body.gz = 0) (hvol : ∀ n, (S n).vol = false) (hq : ∀ n c, (S n).comp c = false ∧ (S n).rhsP c = 0)
    (hbox : ∀ n, (S n).m.Nx = (S 0).m.Nx ∧ (S n).m.Nz = (S 0).m.Nz) {c : Nat → Time.LoopCfg ℝ} (hT : ∀ n, Tested (S n) (c n)) {solve : Nat → Solver} {E D P : Nat → ℝ} {t : Nat → Mech}
    {r : Nat → Time.Res ℝ} {fuel : Nat → Nat} {f : Nat → LS.Fields} {o : Nat → Mech} {s : Nat → Time.LoopState ℝ} {rho : Nat → ℝ} {f0 : LS.Fields} {P0 : ℝ}
    (hstart : f 0 = runStart (S 0) eps 0 P0 x z zu ⟨bu.val, bv.val⟩ rho f0)
    (hrun : ∀ n, mechStep (S n) (countedNorms (S n)) (c n) (solve n) false (E n) (D n) (P n) x z zu ⟨bu.val, bv.val⟩ (r n) (fuel n) (f n) (t n) = some (.ok ⟨f (n + 1), o n, s n⟩)) (n : Nat) :
    (∃ p, ∀ i < (S 0).ncells, (f n).p i = p) ∧ (∀ k l, k < (S 0).m.Nx → l ≤ (S 0).m.Nz → (f n).u (k + l * (S 0).m.Nx) = 2 * eps * zu l) ∧ (∀ i, (f n).v i = 0)
      ∧ (s n).evals = 1 ∧ (s n).nit = 0 ∧ (s n).dt = (S n).env.dt := by
  have same : ∀ n p, sheared (S n) eps zu p = sheared (S 0) eps zu p := fun n p => by
    unfold sheared
    rw [(hbox n).1, (hbox n).2]
  have all : ∀ n, ∃ p, f n = sheared (S n) eps zu p := by
    intro n
    induction n with
    | zero => exact ⟨P0, hstart.trans (simple_shear_run_start (h 0) (hg 0).2 P0 rho f0)⟩
    | succ n ih =>
      obtain ⟨p, hp⟩ := ih
      have a := hrun n
      rw [hp] at a
      obtain ⟨⟨p1, e1⟩, -⟩ := simple_shear_step (h n) (hS n) (hg n) (hvol n) (hq n) (hT n) a
      dsimp only at e1
      exact ⟨p1, by rw [e1, same n, same (n + 1)]⟩
  obtain ⟨p, hp⟩ := all n
  have a := hrun n
  rw [hp] at a
  obtain ⟨-, e⟩ := simple_shear_step (h n) (hS n) (hg n) (hvol n) (hq n) (hT n) a
  rw [hp, same n]
  refine ⟨⟨p, fun i hi => ?_⟩, fun k l hk hl => sheared_at _ _ _ _ k l hk hl, fun _ => rfl, e⟩
  have hn : (S 0).ncells = ((S 0).m.Nz - 1) * ((S 0).m.Nx - 1) := mul_comm _ _
  rw [hn] at hi
  simp [sheared, hi]

/-- The stressed elastic slab with periodic sides. -/
noncomputable def seamSlab (Nx Nz : Nat) (tu tv : Nat → Int) : Setting := { stressedSlab Nx Nz tu tv with per := true }

/-- The slab is even. -/
theorem seam_even (Nx Nz : Nat) (hx : 2 ≤ Nx) (hz : 2 ≤ Nz) (tu tv : Nat → Int) : SameEverywhere (seamSlab Nx Nz tu tv) :=
  ⟨by show 2 ≤ Nx; omega, by show 2 ≤ Nz; omega, by norm_num [seamSlab, stressedSlab, slab, boxMesh, blockMesh], by norm_num [seamSlab, stressedSlab, slab, boxMesh, blockMesh], fun _ _ => rfl, fun _ _ => rfl,
      fun c => by simp [seamSlab, stressedSlab, slab, boxMesh, blockMesh], fun c => by simp [seamSlab, stressedSlab, slab, boxMesh, blockMesh], rfl⟩

/-- The slab between walls moving in simple shear. -/
theorem seam_meets (Nx Nz : Nat) (hx : 2 ≤ Nx) (hz : 2 ≤ Nz) (eps x0 : ℝ) {bu bv : Setup.Side ℝ}
    (hu : Setup.setVx Nx Nz (Setup.shearVx 1 eps ((Nz - 1) * 1000) (fun k : Nat => x0 + k * 1000)) (fun _ => 0) (fun _ => 0) = some bu)
    (hv : Setup.setVz Nx Nz (Setup.shearVz 1 eps (fun l : Nat => -(((Nz : ℝ) - 1) * 1000) / 2 + l * 1000)) (fun _ => 0) (fun _ => 0) = some bv) :
    SimpleShear (seamSlab Nx Nz bu.type bv.type) eps (fun k => x0 + k * 1000) (fun l => -(((Nz : ℝ) - 1) * 1000) / 2 + l * 1000) (fun l => -(((Nz : ℝ) - 1) * 1000) / 2 + (l - 1 / 2) * 1000) bu bv
    ∧ Viscoelastic (seamSlab Nx Nz bu.type bv.type) ∧ (seamSlab Nx Nz bu.type bv.type).m.dt = (seamSlab Nx Nz bu.type bv.type).env.dt := by
  have b := block_viscoelastic
  refine ⟨?_, ?_, ?_⟩
  · refine ⟨by show 2 ≤ Nx; omega, by show 2 ≤ Nz; omega, fun l => ?_, fun l => ?_, ⟨_, fun _ => 0, fun _ => 0, by simp, hu, ?_, ?_⟩,
      ⟨fun _ => 0, fun _ => 0, by simp, hv⟩, fun i hi => ?_, fun i hi => ?_, fun i => rfl, rfl⟩
    · show -(((Nz : ℝ) - 1) * 1000) / 2 + ((l + 1 : Nat) : ℝ) * 1000 = -(((Nz : ℝ) - 1) * 1000) / 2 + l * 1000 + 1000
      push_cast; ring
    · show -(((Nz : ℝ) - 1) * 1000) / 2 + ((l : ℝ) - 1 / 2) * 1000 = -(((Nz : ℝ) - 1) * 1000) / 2 + ((0 : Nat) : ℝ) * 1000 + ((l : ℝ) - 1 / 2) * 1000
      push_cast; ring
    · push_cast; ring
    · show -(((Nz : ℝ) - 1) * 1000) / 2 + ((Nz - 1 : Nat) : ℝ) * 1000 = (((Nz : ℝ) - 1) * 1000) / 2
      rw [Nat.cast_sub (by omega)]; push_cast; ring
    · have hi : i < (Nz + 1) * Nx := hi
      show (if (i : Int) < ((Nz : Int) + 1) * Nx then bu.type (i : Int).toNat else 0) = _
      rw [if_pos (by exact_mod_cast hi)]; rfl
    · have hi : i < Nz * (Nx + 1) := hi
      show (if (i : Int) < (Nz : Int) * (Nx + 1) then bv.type (i : Int).toNat else 0) = _
      rw [if_pos (by exact_mod_cast hi)]; rfl
  · exact ⟨by show 2 ≤ Nx; omega, by show 2 ≤ Nz; omega, b.minEta, b.limits, b.dt, b.R, b.sE, b.sT, b.sS, b.sL, b.sEta, b.mixing, b.mats, fun c _ _ => b.cells 0 (by decide) (by simp [block, blockMesh]),
      fun c _ _ => b.verts 0 (by decide) (by simp [block, blockMesh]), fun k _ l _ _ => ⟨_, List.mem_cons_self, by simp [Spec.AirFlag, seamSlab, stressedSlab, slab, boxMesh, blockMesh]⟩⟩
  · norm_num [seamSlab, stressedSlab, slab, boxMesh, blockMesh, Point.settings]

/-- Non-vacuity: the stressed elastic slab in simple shear, on every grid of at least five by five vertices, at any rate and with any solver. -/
theorem seam_own_run (Nx Nz : Nat) (hx : 5 ≤ Nx) (hz : 5 ≤ Nz) (eps x0 : ℝ) (solve : Solver) (f0 : LS.Fields) (t : Mech) : ∃ x z zu : Nat → ℝ, ∃ bu bv, ∃ f : Nat → LS.Fields, ∃ o : Nat → Mech,
    ∃ s : Nat → Time.LoopState ℝ, ∃ S : Setting, ∃ c : Time.LoopCfg ℝ, SimpleShear S eps x z zu bu bv ∧ SameEverywhere S ∧ (S.body.gx = 0 ∧ S.body.gz = 0) ∧ S.vol = false
    ∧ (∀ c, S.comp c = false ∧ S.rhsP c = 0) ∧ Tested S c ∧ f 0 = runStart S eps 0 0 x z zu ⟨bu.val, bv.val⟩ (fun _ => 3000) f0
    ∧ ∀ n, mechStep S (countedNorms S) c solve false 0 0 0 x z zu ⟨bu.val, bv.val⟩ ⟨0, 0, 0⟩ 1 (f n) t = some (.ok ⟨f (n + 1), o n, s n⟩) := by
  obtain ⟨bu, hu, -⟩ := Setup.template_Vx (show 2 ≤ Nx by omega) 1 eps ((Nz - 1) * 1000) (fun k : Nat => x0 + k * 1000) (fun _ => 0) (fun _ => 0) (Nz := Nz)
  obtain ⟨bv, hv, -⟩ := Setup.template_Vz (show 1 ≤ Nx by omega) (show 2 ≤ Nz by omega) 1 eps (fun l : Nat => -(((Nz : ℝ) - 1) * 1000) / 2 + l * 1000) (fun _ => 0) (fun _ => 0)
  obtain ⟨h, v, hdt⟩ := seam_meets Nx Nz (by omega) (by omega) eps x0 hu hv
  have hS := seam_even Nx Nz (by omega) (by omega) bu.type bv.type
  have hT : Tested (seamSlab Nx Nz bu.type bv.type) (⟨10, 3, 0, 1, 2, 1, 1, 1, 1⟩ : Time.LoopCfg ℝ) := ⟨hdt, h.counted hx hz, one_pos, one_pos, by decide⟩
  have hg : (seamSlab Nx Nz bu.type bv.type).body.gx = 0 ∧ (seamSlab Nx Nz bu.type bv.type).body.gz = 0 := ⟨rfl, rfl⟩
  have hvol : (seamSlab Nx Nz bu.type bv.type).vol = false := rfl
  have hq : ∀ c, (seamSlab Nx Nz bu.type bv.type).comp c = false ∧ (seamSlab Nx Nz bu.type bv.type).rhsP c = 0 := fun _ => ⟨rfl, rfl⟩
  generalize seamSlab Nx Nz bu.type bv.type = S at *
  generalize (fun k : Nat => x0 + (k : ℝ) * 1000) = x at *
  generalize (fun l : Nat => -(((Nz : ℝ) - 1) * 1000) / 2 + (l : ℝ) * 1000) = z at *
  generalize (fun l : Nat => -(((Nz : ℝ) - 1) * 1000) / 2 + ((l : ℝ) - 1 / 2) * 1000) = zu at *
  have next : ∀ p : ℝ, ∃ p1 o s, mechStep S (countedNorms S) ⟨10, 3, 0, 1, 2, 1, 1, 1, 1⟩ solve false 0 0 0 x z zu ⟨bu.val, bv.val⟩ ⟨0, 0, 0⟩ 1
      (sheared S eps zu p) t = some (.ok ⟨sheared S eps zu p1, o, s⟩) := fun p => by
    obtain ⟨a, ha⟩ := viscoelastic_goes_on _ v false (sheared S eps zu p) t
    obtain ⟨o, ho⟩ := viscoelastic_goes_on _ v true (sheared S eps zu p) a
    have e := settled_step hT.dt hT.rows hT.mom hT.div hT.stag (simple_shear_kept h 0 0 0 p) ha (simple_shear_settled h hS hg hvol hq ha) solve ⟨0, 0, 0⟩ 0
    obtain ⟨f', hf⟩ : ∃ f', finishStep S (sheared S eps zu p) a = .ok (f', o) := by unfold finishStep; rw [ho]; exact ⟨_, rfl⟩
    rw [hf] at e
    obtain ⟨⟨p1, q⟩, -⟩ := simple_shear_step h hS hg hvol hq hT e
    dsimp only at q
    rw [q] at e
    exact ⟨p1, _, _, e⟩
  choose p o s hn using next
  let seq : Nat → ℝ := fun n => Nat.rec 0 (fun _ q => p q) n
  exact ⟨x, z, zu, bu, bv, fun n => sheared S eps zu (seq n), fun n => o (seq n), fun n => s (seq n), S, _, h, hS, hg, hvol, hq, hT, (simple_shear_run_start h hg.2 0 _ f0).symm, fun n => hn (seq n)⟩

end Verif.StepFlow
