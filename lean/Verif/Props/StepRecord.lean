import Verif.Props.StepGoesOn
import Verif.Props.GridFields

/-
C148: which data the recorded viscosities of the vertices and the recorded densities of the cells belong to.
-/
namespace Verif.StepFlow
open Verif

/-- Mean over the four cells that meet at vertex `(k, l)`; air counts as zero. -/
noncomputable def fourMean (S : Setting) (a : Nat → ℝ) (k l : Nat) : ℝ :=
  ((Spec.cellsAt S.per (S.m.Nx - 1) (S.m.Nz - 1) k l).map fun p =>
    if Spec.AirFlag (S.m.tp (p.1 + p.2 * (S.m.Nx - 1) : Nat)) then 0 else a (p.1 + p.2 * (S.m.Nx - 1))).sum / 4

/-- The vertex `(k, l)` with its composition, its strain rate, and the means of the cells around it. -/
noncomputable def atVertex (S : Setting) (f : LS.Fields) (r : Kin.Rates ℝ) (k l : Nat) : Point.Node :=
  { S.vert (k + l * S.m.Nx) with
    air := false
    T := fourMean S (fun c => (S.cell c).T) k l
    P := fourMean S f.p k l
    d := fourMean S (fun c => (S.cell c).d) k l
    phi := fourMean S (fun c => (S.cell c).phi) k l
    e := ⟨r.exxS (k + l * S.m.Nx), r.ezzS (k + l * S.m.Nx), r.exz (k + l * S.m.Nx)⟩ }

private theorem toVerts_four (S : Setting) (hx : 2 ≤ S.m.Nx) (hz : 2 ≤ S.m.Nz) (a old : Nat → ℝ) (k l : Nat) (hk : k < S.m.Nx) (hl : l < S.m.Nz)
    (ha : S.m.tg (k + l * S.m.Nx : Nat) ≠ 30) : toVerts S a old (k + l * S.m.Nx) = fourMean S a k l := by
  unfold toVerts
  rw [GridField.centroidsToVertices_spec S.per S.m.Nx S.m.Nz hx hz _ _ a old k l hk hl, if_neg ha]
  rfl

/-- C148.  **The recorded viscosity of a vertex belongs to the recorded flow around it**: it is the chosen mean of what the phases at the vertex have at the strain
rate of the vertex and at the means of temperature, pressure, grain size and porosity of the four cells that meet there. -/
theorem vertex_viscosity_of_flow (S : Setting) (hx : 2 ≤ S.m.Nx) (hz : 2 ≤ S.m.Nz) (hmin : 0 < S.env.minEta) (hlim : S.env.minEta ≤ S.env.maxEta)
    (b : Bool) (f : LS.Fields) (t t' : Mech) (h : updateNL S b f t = .ok t') (k l : Nat) (hk : k < S.m.Nx) (hl : l < S.m.Nz)
    (ha : S.m.tg (k + l * S.m.Nx : Nat) ≠ 30) (hw : Spec.Composition S.n (S.vert (k + l * S.m.Nx)).w) (o : Nat → Point.Out)
    (ho : ∀ p < S.n, 0 < (S.vert (k + l * S.m.Nx)).w p → Point.update S.env (S.mats p) (S.huet p)
      ((atVertex S f t'.rates k l).input S.env) false
        = .ok (o p)) :
    (t'.verts (k + l * S.m.Nx)).eta = Spec.mean S.mean S.n (S.vert (k + l * S.m.Nx)).w (fun p => (o p).etaVE)
    ∧ (t'.verts (k + l * S.m.Nx)).etaPhys = Spec.mean S.mean S.n (S.vert (k + l * S.m.Nx)).w (fun p => (o p).eta) := by
  obtain ⟨-, a2, a3, a4, a5, a6, -⟩ := updateNL_ok h
  have hc : k + l * S.m.Nx < S.nverts := by
    unfold Setting.nverts
    have : l * S.m.Nx + S.m.Nx ≤ S.m.Nx * S.m.Nz := by
      have := Nat.mul_le_mul_right S.m.Nx (show l + 1 ≤ S.m.Nz from hl)
      rw [add_mul, one_mul] at this
      rw [mul_comm S.m.Nx]; exact this
    omega
  have hs := (Point.grid_spec S.env S.mean S.n S.mats S.huet S.ncells S.nverts _ _ t.cells t.verts).1 _ _ a6
  have hv := hs.2.1 _ hc
  have e : vertData S t'.rates t'.Ts t'.Ps t'.ds t'.phis (k + l * S.m.Nx) =
      atVertex S f t'.rates k l := by
    unfold vertData atVertex
    rw [a2, a3, a4, a5]
    simp only [toVerts_four S hx hz _ _ k l hk hl ha, decide_eq_false ha]
  rw [e] at hv
  obtain ⟨s, e0, e1, e2, -⟩ := Point.vertex_update S.env S.mean S.n S.mats S.huet (atVertex S f t'.rates k l) rfl hw hmin hlim o ho
  rw [e0] at hv
  obtain rfl := Point.Outcome.ok.inj hv
  exact ⟨e1, e2⟩

/-- C148.  **The densities used in the iterations belong to the pressure of the solution, those of the final update to the corrected pressures** of the phases
(density_variations = 1). -/
theorem density_of_pressure (S : Setting) (hvol : S.vol = true) (b : Bool) (f : LS.Fields) (t t' : Mech) (h : updateNL S b f t = .ok t') (c : Nat)
    (hc : c < S.ncells) (ha : ¬ (S.m.tp c = 30 ∨ S.m.tp c = 31)) (hw : Spec.Composition S.n (S.cell c).w) (o : Nat → Point.Out)
    (ho : ∀ p < S.n, 0 < (S.cell c).w p →
      Point.update S.env (S.mats p) (S.huet p) ((cellData S f t'.rates c).input S.env) true = .ok (o p)) :
    t'.rho c = Spec.share S.n (S.cell c).w fun p => S.dens p (cellData S f t'.rates c) (if b then (o p).pcorr else f.p c) := by
  obtain ⟨-, -, -, -, -, -, a7, -⟩ := updateNL_ok h
  rw [a7, if_pos hvol]
  unfold written
  rw [if_pos hc]
  unfold cellDensity
  have hair : (cellData S f t'.rates c).air = false := by simp only [cellData]; exact decide_eq_false ha
  beta_reduce
  rw [hair]
  simp only [Bool.false_eq_true, if_false]
  have key : ∀ n ≤ S.n, (forUp n (0 : ℝ) fun s p =>
      if 1 / 10 ^ 13 < |(cellData S f t'.rates c).w p| then
        match Point.update S.env (S.mats p) (S.huet p) ((cellData S f t'.rates c).input S.env) true with
        | .ok o => s + (cellData S f t'.rates c).w p * S.dens p (cellData S f t'.rates c) (if b then o.pcorr else (cellData S f t'.rates c).P)
        | _ => s
      else s) = Spec.share n (S.cell c).w fun p => S.dens p (cellData S f t'.rates c) (if b then (o p).pcorr else f.p c) := by
    intro n hn
    induction n with
    | zero => simp [forUp_zero, Spec.share]
    | succ n ih =>
      rw [forUp_succ, ih (by omega)]
      have hpos : (0 : ℝ) < 1 / 10 ^ 13 := by positivity
      have ew : (cellData S f t'.rates c).w = (S.cell c).w := rfl
      have eP : (cellData S f t'.rates c).P = f.p c := rfl
      simp only [Spec.share, Finset.sum_range_succ]
      rw [ew, eP]
      rcases hw.each n (by omega) with h0 | h0
      · rw [h0, abs_zero, if_neg (by linarith), zero_mul, add_zero]
      · rw [abs_of_pos (by linarith), if_pos h0, ho n (by omega) (by linarith)]
  exact key S.n le_rfl

/-- C148.  **The recorded density of a cell of one material is the density at the recorded pressure.** -/
theorem recorded_density_of_recorded_pressure (S : Setting) (hvol : S.vol = true) (hmin : 0 < S.env.minEta) (hlim : S.env.minEta ≤ S.env.maxEta)
    (hgs : ∀ p < S.n, 0 < (S.mats p).gsRef) (f f' : LS.Fields) (t t' : Mech) (h : finishStep S f t = .ok (f', t')) (c : Nat) (hc : c < S.ncells)
    (ha : ¬ (S.m.tp c = 30 ∨ S.m.tp c = 31)) (q : Nat) (hq : q < S.n) (hw : ∀ p < S.n, (S.cell c).w p = if p = q then 1 else 0) (o : Point.Out)
    (ho : Point.update S.env (S.mats q) (S.huet q) ((cellData S f t'.rates c).input S.env) true = .ok o) :
    t'.rho c = S.dens q (cellData S f t'.rates c) (f'.p c) := by
  have h1 : updateNL S true f t = .ok t' ∧ f' = { f with p := LS.copyArr S.ncells f.p fun c => (t'.cells c).pcorr } := by
    unfold finishStep at h
    split at h
    · next t1 h1 =>
      simp only [Point.Outcome.ok.injEq, Prod.mk.injEq] at h
      obtain ⟨rfl, rfl⟩ := h
      exact ⟨h1, rfl⟩
    · exact absurd h (by simp)
    · exact absurd h (by simp)
  obtain ⟨h1, h2⟩ := h1
  have hone : ∀ x : Nat → ℝ, Spec.share S.n (S.cell c).w x = x q := fun x => by
    unfold Spec.share
    rw [Finset.sum_eq_single q]
    · rw [hw q hq, if_pos rfl, one_mul]
    · intro p hp hne; rw [hw p (Finset.mem_range.1 hp), if_neg hne, zero_mul]
    · intro hn; exact absurd (Finset.mem_range.2 hq) hn
  have hcomp : Spec.Composition S.n (S.cell c).w := by
    refine ⟨fun p hp => ?_, ?_⟩
    · rw [hw p hp]; split_ifs
      · right; norm_num
      · left; rfl
    · have := hone fun _ => 1
      unfold Spec.share at this
      simpa using this
  have hall : ∀ p < S.n, 0 < (S.cell c).w p →
      Point.update S.env (S.mats p) (S.huet p) ((cellData S f t'.rates c).input S.env) true = .ok ((fun _ => o) p) := fun p hp h0 => by
    have : p = q := by by_contra hne; rw [hw p hp, if_neg hne] at h0; exact lt_irrefl _ h0
    subst this; exact ho
  rw [density_of_pressure S hvol true f t t' h1 c hc ha hcomp (fun _ => o) hall, hone]
  obtain ⟨-, -, -, -, -, a6, -⟩ := updateNL_ok h1
  have hs := (Point.grid_spec S.env S.mean S.n S.mats S.huet S.ncells S.nverts _ _ t.cells t.verts).1 _ _ a6
  obtain ⟨s, e0, -, -, -, -, -, -, -, -, -, -, -, e1, -⟩ := Point.cell_update S.env S.mean S.n S.mats S.huet (cellData S f t'.rates c)
    (by simp only [cellData]; exact decide_eq_false ha) hcomp hmin hlim hgs (fun _ => o) hall
  have e2 := hs.1 c hc
  rw [e0] at e2
  have e3 : f'.p c = o.pcorr := by
    rw [h2]
    simp only [LS.copyArr_apply, hc, if_true]
    rw [← Point.Outcome.ok.inj e2, e1]
    exact hone _
  rw [e3]
  simp

/-- A viscoelastic model whose rock is denser at higher pressure. -/
noncomputable def denseBlock : Setting := { block with vol := true, dens := fun _ _ P => 3000 * (1 + P / 10 ^ 11) }

private theorem dense_viscoelastic : Viscoelastic denseBlock :=
  { block_viscoelastic with }

/-- The hypotheses are met by every flow in it, at every cell and every vertex. -/
example (f : LS.Fields) (t : Mech) : ∃ f' t', finishStep denseBlock f t = .ok (f', t')
    ∧ (∀ c < 4, t'.rho c = 3000 * (1 + f'.p c / 10 ^ 11))
    ∧ ∀ k < 3, ∀ l < 3, ∃ o : Point.Out, (t'.verts (k + l * 3)).eta = Spec.mean .arithmetic 1 (fun _ => 1) fun _ => o.etaVE := by
  obtain ⟨t', h⟩ := viscoelastic_goes_on denseBlock dense_viscoelastic true f t
  obtain ⟨p1, p2⟩ := viscoelastic_points denseBlock dense_viscoelastic f t
  obtain ⟨a1, a2, a3, a4, a5, -⟩ := updateNL_ok h
  rw [← a1] at p1
  rw [← a1, ← a2, ← a3, ← a4, ← a5] at p2
  have hf : finishStep denseBlock f t = .ok ({ f with p := LS.copyArr denseBlock.ncells f.p fun c => (t'.cells c).pcorr }, t') := by
    unfold finishStep; rw [h]
  refine ⟨_, t', hf, fun c hc => ?_, fun k hk l hl => ?_⟩
  · obtain ⟨o, ho⟩ := p1 c hc (by simp [denseBlock, block, blockMesh]) 0 (by decide)
    exact recorded_density_of_recorded_pressure denseBlock rfl dense_viscoelastic.minEta dense_viscoelastic.limits
      (fun p hp => (dense_viscoelastic.mats p hp).2.2.2.2.2.2.2.2.2.1) f _ t t' hf c hc (by simp [denseBlock, block, blockMesh]) 0 (by decide)
      (fun p hp => by
        have : p = 0 := by have : p < 1 := hp; omega
        subst this; rfl) o ho
  · have hc : k + l * 3 < denseBlock.nverts := by show k + l * 3 < 9; omega
    have hg : denseBlock.m.tg (k + l * 3 : Nat) ≠ 30 := by simp [denseBlock, block, blockMesh]
    obtain ⟨o, ho⟩ := p2 _ hc hg 0 (by decide)
    refine ⟨o, (vertex_viscosity_of_flow denseBlock (by decide) (by decide) dense_viscoelastic.minEta dense_viscoelastic.limits true f t t' h k l hk hl hg
      (dense_viscoelastic.verts _ hc hg).1 (fun _ => o) fun p hp _ => ?_).1⟩
    have : p = 0 := by have : p < 1 := hp; omega
    subst this
    rw [← ho]
    congr 2
    unfold vertData atVertex
    rw [a2, a3, a4, a5, show k + l * 3 = k + l * denseBlock.m.Nx from rfl]
    simp only [toVerts_four denseBlock (by decide) (by decide) _ _ k l hk hl hg]
    congr 1

end Verif.StepFlow
