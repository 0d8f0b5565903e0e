import Verif.Props.StepPureShear

/- C155: the patch test.  A body that is the same everywhere, in a flow with the same velocity gradient everywhere. -/
namespace Verif.StepFlow
open Verif Finset

/-- The horizontal row of the residual as force balance of the stresses and pressures the update left. -/
theorem row_x_forces (S : Setting) (hx : 2 ≤ S.m.Nx) (hs : S.m.stab = false) (f : LS.Fields) (o : Mech) (k l : Nat) (hk : 1 ≤ k) (hk' : k + 1 < S.m.Nx) (hl : 1 ≤ l)
    (htag : S.m.tu (k + l * S.m.Nx : Nat) ≠ -2) :
    let W := k - 1 + (l - 1) * (S.m.Nx - 1)
    let N := k + l * S.m.Nx
    (rows S (opsOf S o) f o).x k l = -(S.m.dx * S.m.dz) *
      (((((o.cells (W + 1)).T.xx - (o.cells (W + 1)).pcorr) - ((o.cells W).T.xx - (o.cells W).pcorr)) / S.m.dx
        + ((o.verts N).T.xz - (o.verts (N - S.m.Nx)).T.xz) / S.m.dz) + o.bx N) := by
  intro W N
  have hN : S.m.Nx ≤ N := by
    have : 1 * S.m.Nx ≤ l * S.m.Nx := Nat.mul_le_mul_right _ hl
    simp only [N]; omega
  have iW : (k : Int) - 1 + ((l : Int) - 1) * ((S.m.Nx : Int) - 1) = (W : Nat) := by
    simp only [W]; push_cast [Nat.cast_sub hk, Nat.cast_sub hl, Nat.cast_sub (show 1 ≤ S.m.Nx by omega)]; ring
  have iN : (k : Int) + (l : Int) * (S.m.Nx : Int) = (N : Nat) := by simp only [N]; push_cast; ring
  have iS : (N : Int) - (S.m.Nx : Int) = ((N - S.m.Nx : Nat) : Int) := by rw [Nat.cast_sub hN]
  have iE : (W : Int) + 1 = ((W + 1 : Nat) : Int) := by push_cast; ring
  have arr : ∀ (a : Nat → ℝ) (i : Nat), S.arr a (i : Int) = a i := fun a i => by simp [Setting.arr]
  have htag' : ¬ (S.m.tu (N : Int) = -2) := htag
  have kn : ¬ ((k : Int) = (S.m.Nx : Int) - 1) := by omega
  have hcorr : ∀ a, xCorr (meshWith S (opsOf S o) o.rho) k l a = 0 := fun a => by simp [xCorr, meshWith, hs]
  unfold rows
  simp only [xResidual, hcorr]
  have qW : (xIn (meshWith S (opsOf S o) o.rho) k l).SW = 0 := by
    simp [xIn, flag, show ¬ k = 0 by omega]
  have qE : (xIn (meshWith S (opsOf S o) o.rho) k l).SE = 0 := by
    have : ((meshWith S (opsOf S o) o.rho).Nx : Int) = S.m.Nx := rfl
    simp [xIn, flag, this, kn]
  have pW : (xIdx (meshWith S (opsOf S o) o.rho) k l).pW = (W : Nat) := by
    have e1 : ((meshWith S (opsOf S o) o.rho).Nx : Int) = S.m.Nx := rfl
    have e2 : (meshWith S (opsOf S o) o.rho).tu = S.m.tu := rfl
    simp [xIdx, e1, e2, iN, htag', iW]
  have pE : (xIdx (meshWith S (opsOf S o) o.rho) k l).pE = (W + 1 : Nat) := by
    have e1 : ((meshWith S (opsOf S o) o.rho).Nx : Int) = S.m.Nx := rfl
    simp only [xIdx, e1, iW]; push_cast; ring
  have gN : (xIdx (meshWith S (opsOf S o) o.rho) k l).gN = (N : Nat) := iN
  have gS : (xIdx (meshWith S (opsOf S o) o.rho) k l).gS = (N - S.m.Nx : Nat) := by
    have : (xIdx (meshWith S (opsOf S o) o.rho) k l).gS = (k : Int) + (l : Int) * (S.m.Nx : Int) - S.m.Nx := rfl
    rw [this, iN, iS]
  rw [qW, qE, pW, pE, gN, gS, iN]
  simp only [arr]
  have d1 : (meshWith S (opsOf S o) o.rho).dx = S.m.dx := rfl
  have d2 : (meshWith S (opsOf S o) o.rho).dz = S.m.dz := rfl
  rw [d1, d2]
  ring

/-- The vertical row. -/
theorem row_z_forces (S : Setting) (hx : 2 ≤ S.m.Nx) (hs : S.m.stab = false) (f : LS.Fields) (o : Mech) (k l : Nat) (hk : 1 ≤ k) (_hk' : k < S.m.Nx) (hl : 1 ≤ l) (hl' : l + 1 < S.m.Nz) :
    let Z := k - 1 + (l - 1) * (S.m.Nx - 1)
    let N := k + l * S.m.Nx
    (rows S (opsOf S o) f o).z k l = -(S.m.dx * S.m.dz) *
      (((((o.cells (Z + (S.m.Nx - 1))).T.zz - (o.cells (Z + (S.m.Nx - 1))).pcorr) - ((o.cells Z).T.zz - (o.cells Z).pcorr)) / S.m.dz
        + ((o.verts N).T.xz - (o.verts (N - 1)).T.xz) / S.m.dx) + o.bz (k + l * (S.m.Nx + 1))) := by
  intro Z N
  have hN : 1 ≤ N := by simp only [N]; omega
  have e1 : ((meshWith S (opsOf S o) o.rho).Nx : Int) = S.m.Nx := rfl
  have e1z : ((meshWith S (opsOf S o) o.rho).Nz : Int) = S.m.Nz := rfl
  have pS : (zIdx (meshWith S (opsOf S o) o.rho) k l).pS = (Z : Nat) := by
    show (k : Int) - 1 + ((l : Int) - 1) * ((S.m.Nx : Int) - 1) = _
    simp only [Z]; push_cast [Nat.cast_sub hk, Nat.cast_sub hl, Nat.cast_sub (show 1 ≤ S.m.Nx by omega)]; ring
  have pN : (zIdx (meshWith S (opsOf S o) o.rho) k l).pN = (Z + (S.m.Nx - 1) : Nat) := by
    show (k : Int) - 1 + ((l : Int) - 1) * ((S.m.Nx : Int) - 1) + ((S.m.Nx : Int) - 1) = _
    simp only [Z]; push_cast [Nat.cast_sub hk, Nat.cast_sub hl, Nat.cast_sub (show 1 ≤ S.m.Nx by omega)]; ring
  have gE : (zIdx (meshWith S (opsOf S o) o.rho) k l).gE = (N : Nat) := by
    show (k : Int) + l * (S.m.Nx : Int) = _
    simp only [N]; push_cast; ring
  have gW : (zIdx (meshWith S (opsOf S o) o.rho) k l).gW = (N - 1 : Nat) := by
    show (k : Int) + l * (S.m.Nx : Int) - 1 = _
    rw [Nat.cast_sub hN]; simp only [N]; push_cast; ring
  have arr : ∀ (a : Nat → ℝ) (i : Nat), S.arr a (i : Int) = a i := fun a i => by simp [Setting.arr]
  have hcorr : ∀ a, zCorr (meshWith S (opsOf S o) o.rho) k l a = 0 := fun a => by simp [zCorr, meshWith, hs]
  have q1 : (zIn (meshWith S (opsOf S o) o.rho) k l).SS = 0 := by
    simp [zIn, flag, show ¬ l = 0 by omega]
  have q2 : (zIn (meshWith S (opsOf S o) o.rho) k l).SN = 0 := by
    simp [zIn, flag, e1z, show ¬ (l : Int) = (S.m.Nz : Int) - 1 by omega]
  have iC : (k : Int) + (l : Int) * ((S.m.Nx : Int) + 1) = ((k + l * (S.m.Nx + 1) : Nat) : Int) := by push_cast; ring
  unfold rows
  simp only [zResidual, hcorr]
  rw [q1, q2, pS, pN, gE, gW, iC]
  simp only [arr]
  have d1 : (meshWith S (opsOf S o) o.rho).dx = S.m.dx := rfl
  have d2 : (meshWith S (opsOf S o) o.rho).dz = S.m.dz := rfl
  rw [d1, d2]
  ring

/-- The same rock everywhere, whatever its flow law (creep, elasticity, plasticity, grain size, melt): composition, temperature, old stress and so on are
those of the first cell and the first vertex; no air. -/
structure SameEverywhere (S : Setting) : Prop where
  Nx : 2 ≤ S.m.Nx
  Nz : 2 ≤ S.m.Nz
  dx : S.m.dx ≠ 0
  dz : S.m.dz ≠ 0
  cells : ∀ c < S.ncells, S.cell c = S.cell 0
  verts : ∀ c < S.nverts, S.vert c = S.vert 0
  rock : ∀ c : Nat, ¬ (S.m.tp c = 30 ∨ S.m.tp c = 31)
  rockV : ∀ c : Nat, S.m.tg c ≠ 30
  stab : S.m.stab = false

theorem toVerts_same (S : Setting) (h : SameEverywhere S) (a old : Nat → ℝ) (x : ℝ) (ha : ∀ c < S.ncells, a c = x) (c : Nat) (hc : c < S.nverts) : toVerts S a old c = x := by
  have hx := h.Nx
  have hz := h.Nz
  have hl : c / S.m.Nx < S.m.Nz := Nat.div_lt_of_lt_mul hc
  have hk : c % S.m.Nx < S.m.Nx := Nat.mod_lt _ (by omega)
  have e : c % S.m.Nx + c / S.m.Nx * S.m.Nx = c := by rw [Nat.mul_comm]; exact Nat.mod_add_div c S.m.Nx
  have := GridField.centroidsToVertices_spec S.per S.m.Nx S.m.Nz hx hz (fun c => S.m.tp c) (fun c => S.m.tg c) a old (c % S.m.Nx) (c / S.m.Nx) hk hl
  rw [e, if_neg (h.rockV c)] at this
  unfold toVerts
  rw [this]
  have hm := GridField.cellsAt_mem S.per (S.m.Nx - 1) (S.m.Nz - 1) (c % S.m.Nx) (c / S.m.Nx) (by omega) (by omega) (by omega) (by omega)
  have hval : ∀ p ∈ Spec.cellsAt S.per (S.m.Nx - 1) (S.m.Nz - 1) (c % S.m.Nx) (c / S.m.Nx),
      (if Spec.AirFlag (S.m.tp (p.1 + p.2 * (S.m.Nx - 1) : Nat)) then 0 else a (p.1 + p.2 * (S.m.Nx - 1))) = x := fun p hp => by
    rw [if_neg (show ¬ Spec.AirFlag _ from h.rock _)]
    exact ha _ (cell_lt _ _ _ _ (hm p hp).1 (hm p hp).2)
  rw [List.map_congr_left hval]
  simp [Spec.cellsAt]
  ring

/-- Strain rates of a linear flow in a model without air. -/
theorem rock_strain_rates {S : Setting} (hx : 2 ≤ S.m.Nx) (hz : 2 ≤ S.m.Nz) (hdx : S.m.dx ≠ 0) (hdz : S.m.dz ≠ 0) (hrock : ∀ c : Nat, ¬ (S.m.tp c = 30 ∨ S.m.tp c = 31))
    (hrockV : ∀ c : Nat, S.m.tg c ≠ 30) {xmin zmin a b c d e g : ℝ} {f : LS.Fields}
    (hw : Spec.Sampled xmin zmin S.m.dx S.m.dz S.m.Nx S.m.Nz (Spec.linearFlow a b c d e g) f.u f.v) {s R : Kin.Rates ℝ} (hr : R = Kin.strainRates (kinInp S f) s) :
    (∀ i < S.ncells, R.divu i = (if S.m.oop then 3 / 2 * (b + g) else b + g)
      ∧ (⟨R.exx i, R.ezz i, R.exzN i⟩ : Point.Tensor) = ⟨b - flag S.m.comp / 3 * (if S.m.oop then 3 / 2 * (b + g) else b + g),
        g - flag S.m.comp / 3 * (if S.m.oop then 3 / 2 * (b + g) else b + g), (c + e) / 2⟩)
    ∧ ∀ i < S.nverts, (⟨R.exxS i, R.ezzS i, R.exz i⟩ : Point.Tensor) = ⟨b - flag S.m.comp / 3 * (if S.m.oop then 3 / 2 * (b + g) else b + g),
        g - flag S.m.comp / 3 * (if S.m.oop then 3 / 2 * (b + g) else b + g), (c + e) / 2⟩ := by
  have split : ∀ n m i : Nat, 0 < n → i < n * m → ∃ k l, k < n ∧ l < m ∧ i = k + l * n := fun n m i hn hi =>
    ⟨i % n, i / n, Nat.mod_lt _ hn, Nat.div_lt_of_lt_mul hi, by rw [mul_comm]; exact (Nat.mod_add_div i n).symm⟩
  have rock : ∀ k l, Kin.Rock (kinInp S f) k l := fun k l => hrock _
  have rockV : ∀ k l, Kin.RockVertex (kinInp S f) k l := fun k l => hrockV _
  obtain ⟨l1, l2⟩ := Kin.linear_flow_exact (kinInp S f) s xmin zmin a b c d e g hdx hdz hw
  rw [← hr] at l1 l2
  have rc : ∀ i < S.ncells, R.divu i = (if S.m.oop then 3 / 2 * (b + g) else b + g)
      ∧ (⟨R.exx i, R.ezz i, R.exzN i⟩ : Point.Tensor) = ⟨b - flag S.m.comp / 3 * (if S.m.oop then 3 / 2 * (b + g) else b + g),
        g - flag S.m.comp / 3 * (if S.m.oop then 3 / 2 * (b + g) else b + g), (c + e) / 2⟩ := fun i hi => by
    obtain ⟨k, l, hk, hl, rfl⟩ := split (S.m.Nx - 1) (S.m.Nz - 1) i (by omega) hi
    obtain ⟨q1, q2, q3⟩ := l1 k l hk hl (rock k l)
    have q4 := (Kin.cell_shear_exact_partial (kinInp S f) s xmin zmin a b c d e g hdx hdz hw hk hl (rock k l) (rockV _ _) (rockV _ _) (rockV _ _) (rockV _ _)).1
    rw [← hr] at q4
    exact ⟨q1, by rw [Point.Tensor.mk.injEq]; exact ⟨q2, q3, q4⟩⟩
  have rv : ∀ i < S.nverts, (⟨R.exxS i, R.ezzS i, R.exz i⟩ : Point.Tensor) = ⟨b - flag S.m.comp / 3 * (if S.m.oop then 3 / 2 * (b + g) else b + g),
        g - flag S.m.comp / 3 * (if S.m.oop then 3 / 2 * (b + g) else b + g), (c + e) / 2⟩ := fun i hi => by
    obtain ⟨k, l, hk, hl, rfl⟩ := split S.m.Nx S.m.Nz i (by omega) hi
    obtain ⟨q2, q3, -⟩ := Kin.vertex_normal_rates_partial (kinInp S f) s xmin zmin a b c d e g hdx hdz hx hz hw hk hl (rockV k l) (fun p _ => rock _ _)
    rw [← hr] at q2 q3
    rw [Point.Tensor.mk.injEq]
    exact ⟨q2, q3, (l2 k l hk hl (rockV k l)).1⟩
  exact ⟨rc, rv⟩

/-- Recorded strain rates of a linear flow in a model without air. -/
theorem rock_rates {S : Setting} (hx : 2 ≤ S.m.Nx) (hz : 2 ≤ S.m.Nz) (hdx : S.m.dx ≠ 0) (hdz : S.m.dz ≠ 0) (hrock : ∀ c : Nat, ¬ (S.m.tp c = 30 ∨ S.m.tp c = 31))
    (hrockV : ∀ c : Nat, S.m.tg c ≠ 30) {xmin zmin a b c d e g : ℝ} {f : LS.Fields}
    (hw : Spec.Sampled xmin zmin S.m.dx S.m.dz S.m.Nx S.m.Nz (Spec.linearFlow a b c d e g) f.u f.v) {fin : Bool} {t o : Mech} (ho : updateNL S fin f t = .ok o) :
    (∀ i < S.ncells, o.rates.divu i = (if S.m.oop then 3 / 2 * (b + g) else b + g)
      ∧ (⟨o.rates.exx i, o.rates.ezz i, o.rates.exzN i⟩ : Point.Tensor) = ⟨b - flag S.m.comp / 3 * (if S.m.oop then 3 / 2 * (b + g) else b + g),
        g - flag S.m.comp / 3 * (if S.m.oop then 3 / 2 * (b + g) else b + g), (c + e) / 2⟩)
    ∧ ∀ i < S.nverts, (⟨o.rates.exxS i, o.rates.ezzS i, o.rates.exz i⟩ : Point.Tensor) = ⟨b - flag S.m.comp / 3 * (if S.m.oop then 3 / 2 * (b + g) else b + g),
        g - flag S.m.comp / 3 * (if S.m.oop then 3 / 2 * (b + g) else b + g), (c + e) / 2⟩ :=
  rock_strain_rates hx hz hdx hdz hrock hrockV hw (updateNL_ok ho).1

/-- The strain rates recorded for a linear flow are its own, in every cell and at every vertex. -/
theorem patch_rates {S : Setting} (h : SameEverywhere S) {xmin zmin a b c d e g : ℝ} {f : LS.Fields}
    (hw : Spec.Sampled xmin zmin S.m.dx S.m.dz S.m.Nx S.m.Nz (Spec.linearFlow a b c d e g) f.u f.v) {fin : Bool} {t o : Mech} (ho : updateNL S fin f t = .ok o) :
    (∀ i < S.ncells, o.rates.divu i = (if S.m.oop then 3 / 2 * (b + g) else b + g)
      ∧ (⟨o.rates.exx i, o.rates.ezz i, o.rates.exzN i⟩ : Point.Tensor) = ⟨b - flag S.m.comp / 3 * (if S.m.oop then 3 / 2 * (b + g) else b + g),
        g - flag S.m.comp / 3 * (if S.m.oop then 3 / 2 * (b + g) else b + g), (c + e) / 2⟩)
    ∧ ∀ i < S.nverts, (⟨o.rates.exxS i, o.rates.ezzS i, o.rates.exz i⟩ : Point.Tensor) = ⟨b - flag S.m.comp / 3 * (if S.m.oop then 3 / 2 * (b + g) else b + g),
        g - flag S.m.comp / 3 * (if S.m.oop then 3 / 2 * (b + g) else b + g), (c + e) / 2⟩ :=
  rock_rates h.Nx h.Nz h.dx h.dz h.rock h.rockV hw ho

/-- C155.  **The patch test**: if the rock is the same everywhere and the velocity at every node is that of one linear flow, then for every flow law, without gravity, stresses, viscosities and all else recorded are
the same in every cell and at every vertex, and no momentum equation has a residual; the volume change is that of the flow. -/
theorem patch_test {S : Setting} (h : SameEverywhere S) (hg : S.body.gx = 0 ∧ S.body.gz = 0) {xmin zmin a b c d e g p0 : ℝ} {f : LS.Fields}
    (hw : Spec.Sampled xmin zmin S.m.dx S.m.dz S.m.Nx S.m.Nz (Spec.linearFlow a b c d e g) f.u f.v) (hp : ∀ i < S.ncells, f.p i = p0) {fin : Bool} {t o : Mech}
    (ho : updateNL S fin f t = .ok o) :
    (∀ i < S.ncells, o.cells i = o.cells 0) ∧ (∀ i < S.nverts, o.verts i = o.verts 0)
    ∧ (∀ k l, 1 ≤ k → k + 1 < S.m.Nx → 1 ≤ l → l < S.m.Nz → S.m.tu (k + l * S.m.Nx : Nat) ≠ -2 → (rows S (opsOf S o) f o).x k l = 0)
    ∧ (∀ k l, 1 ≤ k → k < S.m.Nx → 1 ≤ l → l + 1 < S.m.Nz → (rows S (opsOf S o) f o).z k l = 0)
    ∧ ∀ i < S.ncells, o.rates.divu i = if S.m.oop then 3 / 2 * (b + g) else b + g := by
  have hx := h.Nx
  have hz := h.Nz
  obtain ⟨hr, hT, hP, hd, hphi, hgrid, -, hbx, hbz⟩ := updateNL_ok ho
  have hs := (Point.grid_spec S.env S.mean S.n S.mats S.huet S.ncells S.nverts _ _ t.cells t.verts).1 _ _ hgrid
  have n0 : 0 < S.ncells := Nat.mul_pos (by omega) (by omega)
  have m0 : 0 < S.nverts := Nat.mul_pos (by omega) (by omega)
  obtain ⟨rc, rv⟩ := patch_rates h hw (fin := fin) ho
  have sameC : ∀ i < S.ncells, o.cells i = o.cells 0 := fun i hi => by
    have e1 := hs.1 i hi
    have e2 := hs.1 0 n0
    have : cellData S f o.rates i = cellData S f o.rates 0 := by
      unfold cellData
      rw [h.cells i hi, (rc i hi).2, (rc 0 n0).2, hp i hi, hp 0 n0, decide_eq_false (h.rock i), decide_eq_false (h.rock 0)]
    rw [this, e2] at e1
    simpa using e1.symm
  have sameV : ∀ i < S.nverts, o.verts i = o.verts 0 := fun i hi => by
    have e1 := hs.2.1 i hi
    have e2 := hs.2.1 0 m0
    have : vertData S o.rates o.Ts o.Ps o.ds o.phis i = vertData S o.rates o.Ts o.Ps o.ds o.phis 0 := by
      unfold vertData
      rw [h.verts i hi, rv i hi, rv 0 m0, hT, hP, hd, hphi, decide_eq_false (h.rockV i), decide_eq_false (h.rockV 0)]
      have q : ∀ (a' old : Nat → ℝ) (y : ℝ), (∀ c < S.ncells, a' c = y) → toVerts S a' old i = toVerts S a' old 0 := fun a' old y hy => by
        rw [toVerts_same S h a' old y hy i hi, toVerts_same S h a' old y hy 0 m0]
      rw [q _ t.Ts (S.cell 0).T fun j hj => by rw [h.cells j hj], q _ t.Ps p0 hp, q _ t.ds (S.cell 0).d fun j hj => by rw [h.cells j hj],
        q _ t.phis (S.cell 0).phi fun j hj => by rw [h.cells j hj]]
    rw [this, e2] at e1
    simpa using e1.symm
  refine ⟨sameC, sameV, fun k l k0 k1 l0 l1' ht => ?_, fun k l k0 k1 l0 l1' => ?_, fun i hi => (rc i hi).1⟩
  · have e := row_x_forces S hx h.stab f o k l k0 k1 l0 ht
    dsimp only at e
    rw [e]
    obtain ⟨k, rfl⟩ : ∃ j, k = j + 1 := ⟨k - 1, by omega⟩
    obtain ⟨l, rfl⟩ : ∃ j, l = j + 1 := ⟨l - 1, by omega⟩
    have b0 : o.bx (k + 1 + (l + 1) * S.m.Nx) = 0 := by
      rw [hbx]; unfold written
      rw [if_pos (cell_lt _ _ _ _ (by omega) (by omega))]
      simp [Resid.rogerX, hg.1]
    rw [show k + 1 - 1 + (l + 1 - 1) * (S.m.Nx - 1) = k + l * (S.m.Nx - 1) by simp, show k + l * (S.m.Nx - 1) + 1 = k + 1 + l * (S.m.Nx - 1) by ring,
      show k + 1 + (l + 1) * S.m.Nx - S.m.Nx = k + 1 + l * S.m.Nx by rw [Nat.succ_mul]; omega, b0, sameC (k + l * (S.m.Nx - 1)) (cell_lt _ _ _ _ (by omega) (by omega)),
      sameC (k + 1 + l * (S.m.Nx - 1)) (cell_lt _ _ _ _ (by omega) (by omega)), sameV (k + 1 + (l + 1) * S.m.Nx) (cell_lt _ _ _ _ (by omega) (by omega)),
      sameV (k + 1 + l * S.m.Nx) (cell_lt _ _ _ _ (by omega) (by omega))]
    ring
  · have e := row_z_forces S hx h.stab f o k l k0 k1 l0 l1'
    dsimp only at e
    rw [e]
    obtain ⟨k, rfl⟩ : ∃ j, k = j + 1 := ⟨k - 1, by omega⟩
    obtain ⟨l, rfl⟩ : ∃ j, l = j + 1 := ⟨l - 1, by omega⟩
    have b0 : o.bz (k + 1 + (l + 1) * (S.m.Nx + 1)) = 0 := by
      rw [hbz]; unfold written
      rw [if_pos (cell_lt _ _ _ _ (by omega) (by omega))]
      simp [Resid.rogerZ, hg.2]
    rw [show k + 1 - 1 + (l + 1 - 1) * (S.m.Nx - 1) = k + l * (S.m.Nx - 1) by simp, show k + l * (S.m.Nx - 1) + (S.m.Nx - 1) = k + (l + 1) * (S.m.Nx - 1) by ring,
      show k + 1 + (l + 1) * S.m.Nx - 1 = k + (l + 1) * S.m.Nx by omega, b0, sameC (k + l * (S.m.Nx - 1)) (cell_lt _ _ _ _ (by omega) (by omega)),
      sameC (k + (l + 1) * (S.m.Nx - 1)) (cell_lt _ _ _ _ (by omega) (by omega)), sameV (k + 1 + (l + 1) * S.m.Nx) (cell_lt _ _ _ _ (by omega) (by omega)),
      sameV (k + (l + 1) * S.m.Nx) (cell_lt _ _ _ _ (by omega) (by omega))]
    ring

/-- C155.  Under the pure shear walls the textbook flow balances all equations, for every flow law: incompressible rock that is the same everywhere, no gravity. -/
theorem pure_shear_any_rheology {S : Setting} {eps : ℝ} {x z : Nat → ℝ} {bu bv : Setup.Side ℝ} (h : PureShear S eps x z bu bv) (hS : SameEverywhere S) (hg : S.body.gx = 0 ∧ S.body.gz = 0) (hvol : S.vol = false)
    (hq : ∀ c, S.comp c = false ∧ S.rhsP c = 0) {r p0 : ℝ} {t o : Mech} (ho : updateNL S false (textbook S eps x z r p0) t = .ok o) :
    Balanced S (rows S (opsOf S o) (textbook S eps x z r p0) o) := by
  have hx := h.Nx
  have hz := h.Nz
  obtain ⟨eu, ev, ep⟩ := textbook_at S eps x z r p0
  have split : ∀ n m i : Nat, 0 < n → i < n * m → ∃ k l, k < n ∧ l < m ∧ i = k + l * n := fun n m i hn hi =>
    ⟨i % n, i / n, Nat.mod_lt _ hn, Nat.div_lt_of_lt_mul hi, by rw [mul_comm]; exact (Nat.mod_add_div i n).symm⟩
  obtain ⟨-, -, p1, p2, p3⟩ := patch_test hS hg (xmin := x 0) (zmin := z 0) (a := 0) (b := -eps) (c := 0) (d := 0) (e := 0) (g := eps) (p0 := p0)
    (f := textbook S eps x z r p0) ⟨fun k l hk hl => by
      rw [eu k l hk (by omega), (h.coord k 0).1]
      simp only [Spec.linearFlow, Spec.uNode]; ring, fun k l hk hl => by
      rw [ev k l (by omega) hl, (h.coord 0 l).2]
      simp only [Spec.linearFlow, Spec.vNode]; ring⟩ (fun i hi => by
      obtain ⟨k, l, hk, hl, rfl⟩ := split (S.m.Nx - 1) (S.m.Nz - 1) i (by omega) hi
      rw [ep k l hk hl, hg.1, hg.2]; ring) ho
  refine ⟨fun k l hf => ?_, fun k l hf => ?_, fun k l hf => ?_⟩
  · obtain ⟨k0, k1, l0, l1, ht⟩ := hf
    exact p1 k l k0 k1 l0 l1 (by rw [ht]; decide)
  · obtain ⟨k0, k1, l0, l1, ht⟩ := hf
    exact p2 k l k0 k1 l0 l1
  · obtain ⟨k0, l0, -⟩ := hf
    have := p3 _ (cell_lt _ _ k l k0 l0)
    simp only [rows, Resid.contResidual]
    rw [this, (hq _).1, (hq _).2, hvol]
    simp [flag]

/-- C155 (gravity).  Under the pure shear walls the textbook flow, with the pressure of the weight of the body, balances all equations as soon as the stresses it makes are the same everywhere and
the pressure is not corrected. -/
theorem even_stress_balanced {S : Setting} {eps : ℝ} {x z : Nat → ℝ} {bu bv : Setup.Side ℝ} (h : PureShear S eps x z bu bv) (hstab : S.m.stab = false) (hair : ∀ c : Nat, S.m.tg c ≠ 30)
    (hsurf : S.body.surf = false) (hvol : S.vol = false) (hq : ∀ c, S.comp c = false ∧ S.rhsP c = 0) {r p0 : ℝ} (hrS : ∀ c : Int, S.body.rhoS c = r) {t o : Mech}
    (hrN : ∀ c < S.ncells, t.rho c = r) (ho : updateNL S false (textbook S eps x z r p0) t = .ok o) {sxx szz sxz : ℝ}
    (hcell : ∀ c < S.ncells, (o.cells c).T.xx = sxx ∧ (o.cells c).T.zz = szz ∧ (o.cells c).pcorr = (textbook S eps x z r p0).p c) (hvert : ∀ c < S.nverts, (o.verts c).T.xz = sxz) :
    Balanced S (rows S (opsOf S o) (textbook S eps x z r p0) o) := by
  have hx := h.Nx
  have hz := h.Nz
  have ddx := h.dx.ne'
  have ddz := h.dz.ne'
  obtain ⟨eu, ev, ep⟩ := textbook_at S eps x z r p0
  obtain ⟨-, -, -, -, -, -, hrho, hbx, hbz⟩ := updateNL_ok ho
  rw [hvol] at hrho
  replace hrho : o.rho = t.rho := hrho
  obtain ⟨rc, -⟩ := rock_rates hx hz ddx ddz (fun c => by rw [h.rock]; decide) hair (xmin := x 0) (zmin := z 0) (a := 0) (b := -eps) (c := 0) (d := 0) (e := 0) (g := eps) (f := textbook S eps x z r p0)
    ⟨fun k l hk hl => by
      rw [eu k l hk (by omega), (h.coord k 0).1]
      simp only [Spec.linearFlow, Spec.uNode]; ring, fun k l hk hl => by
      rw [ev k l (by omega) hl, (h.coord 0 l).2]
      simp only [Spec.linearFlow, Spec.vNode]; ring⟩ ho
  have divm : ∀ n k l : Nat, k < n → (k + l * n) % n = k ∧ (k + l * n) / n = l := fun n k l hk =>
    ⟨by rw [Nat.add_mul_mod_self_right, Nat.mod_eq_of_lt hk], by rw [Nat.add_mul_div_right _ _ (by omega), Nat.div_eq_of_lt hk, zero_add]⟩
  refine ⟨fun k l hf => ?_, fun k l hf => ?_, fun k l hf => ?_⟩
  · obtain ⟨k0, k1, l0, l1, ht⟩ := hf
    have e := row_x_forces S hx hstab (textbook S eps x z r p0) o k l k0 k1 l0 (by rw [ht]; decide)
    dsimp only at e
    rw [e]
    obtain ⟨k, rfl⟩ : ∃ j, k = j + 1 := ⟨k - 1, by omega⟩
    obtain ⟨l, rfl⟩ : ∃ j, l = j + 1 := ⟨l - 1, by omega⟩
    have e1 := hcell _ (cell_lt _ _ k l (by omega) (by omega : l < S.m.Nz - 1))
    have e2 := hcell _ (cell_lt _ _ (k + 1) l (by omega) (by omega : l < S.m.Nz - 1))
    rw [ep k l (by omega) (by omega)] at e1
    rw [ep (k + 1) l (by omega) (by omega)] at e2
    have e3 := hvert _ (cell_lt _ _ (k + 1) (l + 1) (by omega) (by omega))
    have e4 := hvert _ (cell_lt _ _ (k + 1) l (by omega) (by omega))
    have e5 : o.bx (k + 1 + (l + 1) * S.m.Nx) = S.body.gx * r := by
      obtain ⟨g1, g2⟩ := divm S.m.Nx (k + 1) (l + 1) (by omega)
      rw [hbx]; unfold written
      rw [if_pos (cell_lt _ _ _ _ (by omega) (by omega))]
      dsimp only
      rw [g1, g2]
      unfold Resid.rogerX
      dsimp only
      rw [if_pos ⟨by push_cast; omega, by show ((l + 1 : Nat) : Int) < (S.m.Nz : Int) + 1 - 1; push_cast; omega, Or.inl (by
        rw [← ht]; show S.m.tu _ = S.m.tu _; congr 1)⟩, hrS, hrS]
      ring
    rw [show k + 1 - 1 + (l + 1 - 1) * (S.m.Nx - 1) = k + l * (S.m.Nx - 1) by simp, show k + l * (S.m.Nx - 1) + 1 = k + 1 + l * (S.m.Nx - 1) by ring,
      show k + 1 + (l + 1) * S.m.Nx - S.m.Nx = k + 1 + l * S.m.Nx by rw [Nat.succ_mul]; omega, e1.1, e1.2.2, e2.1, e2.2.2, e3, e4, e5]
    push_cast
    field_simp
    ring
  · obtain ⟨k0, k1, l0, l1, ht⟩ := hf
    have e := row_z_forces S hx hstab (textbook S eps x z r p0) o k l k0 k1 l0 l1
    dsimp only at e
    rw [e]
    obtain ⟨k, rfl⟩ : ∃ j, k = j + 1 := ⟨k - 1, by omega⟩
    obtain ⟨l, rfl⟩ : ∃ j, l = j + 1 := ⟨l - 1, by omega⟩
    have e1 := hcell _ (cell_lt _ _ k l (by omega) (by omega : l < S.m.Nz - 1))
    have e2 := hcell _ (cell_lt _ _ k (l + 1) (by omega) (by omega : l + 1 < S.m.Nz - 1))
    rw [ep k l (by omega) (by omega)] at e1
    rw [ep k (l + 1) (by omega) (by omega)] at e2
    have e3 := hvert _ (cell_lt _ _ (k + 1) (l + 1) (by omega) (by omega))
    have e4 := hvert _ (cell_lt _ _ k (l + 1) (by omega) (by omega))
    have e5 : o.bz (k + 1 + (l + 1) * (S.m.Nx + 1)) = S.body.gz * r := by
      obtain ⟨g1, g2⟩ := divm (S.m.Nx + 1) (k + 1) (l + 1) (by omega)
      rw [hbz]; unfold written
      rw [if_pos (cell_lt _ _ _ _ (by omega) (by omega))]
      dsimp only
      rw [g1, g2]
      unfold Resid.rogerZ
      dsimp only
      have q : ∀ l' < S.m.Nz - 1, ∀ i : Int, i = ((k + l' * (S.m.Nx - 1) : Nat) : Int) → (meshRho S o.rho).rho i = r := fun l' hl' i hi => by
        rw [hi, hrho]
        show S.arr t.rho ((k + l' * (S.m.Nx - 1) : Nat) : Int) = r
        refine ((fun i : Nat => by simp [Setting.arr]) : ∀ i : Nat, S.arr t.rho (i : Int) = t.rho i) _ |>.trans ?_
        exact hrN _ (cell_lt _ _ _ _ (by omega) hl')
      have cast : ((meshRho S o.rho).Nx : Int) - 1 = ((S.m.Nx - 1 : Nat) : Int) := by show (S.m.Nx : Int) - 1 = _; omega
      rw [if_pos ⟨by push_cast; omega, by show ((k + 1 : Nat) : Int) < (S.m.Nx : Int) + 1 - 1; push_cast; omega, by
        rw [← ht]; show S.m.tv _ = S.m.tv _; congr 1⟩, if_neg (by rw [hsurf]; simp), q l (by omega) _ (by rw [cast]; push_cast; ring),
        q (l + 1) (by omega) _ (by rw [cast]; push_cast; ring)]
      ring
    rw [show k + 1 - 1 + (l + 1 - 1) * (S.m.Nx - 1) = k + l * (S.m.Nx - 1) by simp, show k + l * (S.m.Nx - 1) + (S.m.Nx - 1) = k + (l + 1) * (S.m.Nx - 1) by ring,
      show k + 1 + (l + 1) * S.m.Nx - 1 = k + (l + 1) * S.m.Nx by omega, e1.2.1, e1.2.2, e2.2.1, e2.2.2, e3, e4, e5]
    push_cast
    field_simp
    ring
  · obtain ⟨k0, l0, -⟩ := hf
    have := (rc _ (cell_lt _ _ k l k0 l0)).1
    simp only [rows, Resid.contResidual]
    rw [this, (hq _).1, (hq _).2, hvol]
    simp [flag]

/-- An elastic slab that is already stressed, without gravity. -/
noncomputable def stressedSlab (Nx Nz : Nat) (tu tv : Nat → Int) : Setting :=
  { slab Nx Nz tu tv with
    env := Point.settings true
    body := ⟨0, 0, fun _ => 0, false, 1, 0, fun _ => 0⟩
    cell := fun _ => { Point.halfHalf with w := fun _ => 1, old := ⟨-(10 ^ 7), 10 ^ 7, 10 ^ 6⟩ }
    vert := fun _ => { Point.halfHalf with w := fun _ => 1, old := ⟨-(10 ^ 7), 10 ^ 7, 10 ^ 6⟩ } }

/-- The hypotheses are met on every grid: the stressed elastic slab under the walls the code sets, with an update that goes through, at any rate of shortening. -/
theorem stressed_slab_meets (Nx Nz : Nat) (hx : 2 ≤ Nx) (hz : 2 ≤ Nz) (eps x0 z0 r p0 : ℝ) (t : Mech) : ∃ bu bv,
    PureShear (stressedSlab Nx Nz bu.type bv.type) eps (fun k => x0 + k * 1000) (fun l => z0 + l * 1000) bu bv
    ∧ SameEverywhere (stressedSlab Nx Nz bu.type bv.type) ∧ Viscoelastic (stressedSlab Nx Nz bu.type bv.type)
    ∧ ∃ o, updateNL (stressedSlab Nx Nz bu.type bv.type) false
        (textbook (stressedSlab Nx Nz bu.type bv.type) eps (fun k => x0 + k * 1000) (fun l => z0 + l * 1000) r p0) t = .ok o
      ∧ Balanced (stressedSlab Nx Nz bu.type bv.type) (rows (stressedSlab Nx Nz bu.type bv.type) (opsOf (stressedSlab Nx Nz bu.type bv.type) o)
        (textbook (stressedSlab Nx Nz bu.type bv.type) eps (fun k => x0 + k * 1000) (fun l => z0 + l * 1000) r p0) o) := by
  obtain ⟨bu, bv, h, v, -⟩ := slab_meets Nx Nz hx hz eps x0 z0 { t with rho := fun _ => 3000 } (fun _ => rfl) ⟨fun _ => 0, fun _ => 0⟩
  have h' : PureShear (stressedSlab Nx Nz bu.type bv.type) eps (fun k => x0 + k * 1000) (fun l => z0 + l * 1000) bu bv :=
    ⟨h.Nx, h.Nz, h.dx, h.dz, h.stepX, h.stepZ, h.vx, h.vz, h.tu, h.tv, h.beyondU, h.beyondV, h.rock⟩
  have s : SameEverywhere (stressedSlab Nx Nz bu.type bv.type) :=
    ⟨hx, hz, h.dx.ne', h.dz.ne', fun _ _ => rfl, fun _ _ => rfl, fun c => by simp [stressedSlab, slab, boxMesh, blockMesh], fun c => by simp [stressedSlab, slab, boxMesh, blockMesh], rfl⟩
  have b := block_viscoelastic
  have w : Viscoelastic (stressedSlab Nx Nz bu.type bv.type) :=
    ⟨hx, hz, b.minEta, b.limits, b.dt, b.R, b.sE, b.sT, b.sS, b.sL, b.sEta, b.mixing, b.mats, fun c _ _ => b.cells 0 (by decide) (by simp [block, blockMesh]),
      fun c _ _ => b.verts 0 (by decide) (by simp [block, blockMesh]), v.touch⟩
  obtain ⟨o, ho⟩ := viscoelastic_goes_on _ w false (textbook (stressedSlab Nx Nz bu.type bv.type) eps (fun k => x0 + k * 1000) (fun l => z0 + l * 1000) r p0) t
  exact ⟨bu, bv, h', s, w, o, ho, pure_shear_any_rheology h' s ⟨rfl, rfl⟩ rfl (fun _ => ⟨rfl, rfl⟩) ho⟩

end Verif.StepFlow
