import Verif.Model.StepUpdate
import Verif.Props.Kinematics
import Verif.Props.GridFields
import Verif.Props.ViscGridStress
import Verif.Props.LineSearch

/-
C147: the nonlinear update of a step depends on the flow it is given and on nothing that earlier passes or trials left behind.
-/
namespace Verif.StepFlow
open Verif

/-! ### rewriting an array twice -/

private theorem filled_filled (n : Nat) (a g h : Nat → ℝ) : Kin.filled n (Kin.filled n a g) h = Kin.filled n a h := by
  funext c; unfold Kin.filled; split_ifs <;> rfl

private theorem written_written (n : Nat) (a g h : Nat → ℝ) : written n (written n a g) h = written n a h := by
  funext c; unfold written; split_ifs <;> rfl

private theorem toVerts_absorb (S : Setting) (hx : 2 ≤ S.m.Nx) (hz : 2 ≤ S.m.Nz) (a b v : Nat → ℝ) :
    toVerts S a (toVerts S b v) = toVerts S a v := by
  funext c
  unfold toVerts
  by_cases hc : S.m.Nz * S.m.Nx ≤ c
  · rw [GridField.centroidsToVertices_frame _ _ _ _ _ _ _ _ hc, GridField.centroidsToVertices_frame _ _ _ _ _ _ _ _ hc,
      GridField.centroidsToVertices_frame _ _ _ _ _ _ _ _ hc]
  · have h1 : c % S.m.Nx < S.m.Nx := Nat.mod_lt _ (by omega)
    have h2 : c / S.m.Nx < S.m.Nz := by
      rw [Nat.div_lt_iff_lt_mul (by omega)]; omega
    have e : c = c % S.m.Nx + c / S.m.Nx * S.m.Nx := (Nat.mod_add_div' c _).symm
    rw [e, GridField.centroidsToVertices_spec _ _ _ hx hz _ _ _ _ _ _ h1 h2,
      GridField.centroidsToVertices_spec _ _ _ hx hz _ _ _ _ _ _ h1 h2]

private theorem rates_twice (Nx Nz : Nat) (dx dz comp : ℝ) (oop per : Bool) (tagP tagG : Nat → Int) (u v u' v' : Nat → ℝ)
    (s : Kin.Rates ℝ)
    (hv : ∀ a b v : Nat → ℝ, GridField.centroidsToVertices per Nx Nz tagP tagG a
      (GridField.centroidsToVertices per Nx Nz tagP tagG b v) = GridField.centroidsToVertices per Nx Nz tagP tagG a v) :
    Kin.strainRates ⟨Nx, Nz, dx, dz, comp, oop, per, tagP, tagG, u', v'⟩
        (Kin.strainRates ⟨Nx, Nz, dx, dz, comp, oop, per, tagP, tagG, u, v⟩ s)
      = Kin.strainRates ⟨Nx, Nz, dx, dz, comp, oop, per, tagP, tagG, u', v'⟩ s := by
  have hw : ∀ A B : Nat → ℝ, ∀ n,
      Kin.filled n (Kin.filled n s.wxz fun c => if tagG c ≠ 30 then A c else s.wxz c)
        (fun c => if tagG c ≠ 30 then B c else (Kin.filled n s.wxz fun c => if tagG c ≠ 30 then A c else s.wxz c) c)
      = Kin.filled n s.wxz fun c => if tagG c ≠ 30 then B c else s.wxz c := by
    intro A B n
    funext c
    unfold Kin.filled
    by_cases h : c < n <;> by_cases h2 : tagG c ≠ 30 <;> simp [h, h2]
  rw [Kin.strainRates_eq, Kin.strainRates_eq, Kin.strainRates_eq]
  simp only [filled_filled, hv, hw]

private theorem rates_absorb (S : Setting) (hx : 2 ≤ S.m.Nx) (hz : 2 ≤ S.m.Nz) (f g : LS.Fields) (s : Kin.Rates ℝ) :
    Kin.strainRates (kinInp S g) (Kin.strainRates (kinInp S f) s) = Kin.strainRates (kinInp S g) s :=
  rates_twice _ _ _ _ _ _ _ _ _ _ _ _ _ s fun a b v => toVerts_absorb S hx hz a b v

private theorem nodeLoop_old (f : Point.Node → Point.Outcome Point.Stored) (n : Nat) (nodes : Nat → Point.Node)
    (old old' : Nat → Point.Stored) (h : ∀ j, n ≤ j → old j = old' j) :
    Point.nodeLoop f n nodes old = Point.nodeLoop f n nodes old' := by
  have key : ∀ i, i ≤ n →
      (∃ a a', forUp i (.ok old) (Point.nodeStep f nodes) = .ok a ∧ forUp i (.ok old') (Point.nodeStep f nodes) = .ok a'
        ∧ ∀ j, (j < i ∨ n ≤ j) → a j = a' j)
      ∨ ((∀ a, forUp i (.ok old) (Point.nodeStep f nodes) ≠ .ok a) ∧
        forUp i (.ok old) (Point.nodeStep f nodes) = forUp i (.ok old') (Point.nodeStep f nodes)) := by
    intro i
    induction i with
    | zero => intro _; exact Or.inl ⟨old, old', rfl, rfl, fun j hj => h j (by omega)⟩
    | succ i ih =>
      intro hi
      rcases ih (by omega) with ⟨a, a', e, e', hj⟩ | ⟨hne, e⟩
      · rw [forUp_succ, forUp_succ, e, e']
        simp only [Point.nodeStep]
        cases f (nodes i) with
        | ok x =>
          refine Or.inl ⟨_, _, rfl, rfl, fun j hj' => ?_⟩
          by_cases hji : j = i
          · subst hji; rw [upd_same, upd_same]
          · rw [upd_ne _ _ hji, upd_ne _ _ hji]; exact hj j (by omega)
        | exit c => exact Or.inr ⟨fun a => by simp, rfl⟩
        | nan => exact Or.inr ⟨fun a => by simp, rfl⟩
      · rw [forUp_succ, forUp_succ, ← e]
        refine Or.inr ⟨fun a => ?_, rfl⟩
        cases hq : forUp i (.ok old) (Point.nodeStep f nodes) with
        | ok b => exact absurd hq (hne b)
        | exit c => simp [Point.nodeStep]
        | nan => simp [Point.nodeStep]
  unfold Point.nodeLoop
  rcases key n le_rfl with ⟨a, a', e, e', hj⟩ | ⟨_, e⟩
  · rw [e, e']
    congr 1
    funext j
    exact hj j (by omega)
  · exact e

private theorem grid_old (v : Point.Env) (a : Point.Mean) (n : Nat) (m : Nat → Point.Mat) (huet : Nat → ℝ × ℝ → ℝ × ℝ) (nc nv : Nat)
    (cells verts : Nat → Point.Node) (oc oc' ov ov' : Nat → Point.Stored) (hc : ∀ j, nc ≤ j → oc j = oc' j)
    (hv : ∀ j, nv ≤ j → ov j = ov' j) :
    Point.viscosityGrid v a n m huet nc nv cells verts oc ov = Point.viscosityGrid v a n m huet nc nv cells verts oc' ov' := by
  unfold Point.viscosityGrid
  rw [nodeLoop_old _ nc cells oc oc' hc, nodeLoop_old _ nv verts ov ov' hv]

/-! ### the update -/

/-- What a successful update consists of. -/
theorem updateNL_ok {S : Setting} {b : Bool} {f : LS.Fields} {t t' : Mech} (h : updateNL S b f t = .ok t') :
    t'.rates = Kin.strainRates (kinInp S f) t.rates
    ∧ t'.Ts = toVerts S (fun c => (S.cell c).T) t.Ts ∧ t'.Ps = toVerts S f.p t.Ps
    ∧ t'.ds = toVerts S (fun c => (S.cell c).d) t.ds ∧ t'.phis = toVerts S (fun c => (S.cell c).phi) t.phis
    ∧ Point.viscosityGrid S.env S.mean S.n S.mats S.huet S.ncells S.nverts (cellData S f t'.rates)
        (vertData S t'.rates t'.Ts t'.Ps t'.ds t'.phis) t.cells t.verts = .ok (t'.cells, t'.verts)
    ∧ t'.rho = (if S.vol then written S.ncells t.rho (fun j => cellDensity S b (cellData S f t'.rates j)) else t.rho)
    ∧ t'.bx = written (S.m.Nx * (S.m.Nz + 1)) t.bx
        (fun j => Resid.rogerX (meshRho S t'.rho) S.body (j % S.m.Nx : Nat) (j / S.m.Nx : Nat))
    ∧ t'.bz = written ((S.m.Nx + 1) * S.m.Nz) t.bz
        (fun j => Resid.rogerZ (meshRho S t'.rho) S.body (j % (S.m.Nx + 1) : Nat) (j / (S.m.Nx + 1) : Nat)) := by
  unfold updateNL at h
  dsimp only at h
  split at h
  · next c s hg =>
    simp only [Point.Outcome.ok.injEq] at h
    subst h
    exact ⟨rfl, rfl, rfl, rfl, rfl, hg, rfl, rfl, rfl⟩
  · exact absurd h (by simp)
  · exact absurd h (by simp)

/-- An update leaves nothing behind that a later one could notice: outcome and all fields written by the later update are those it
would have given before the earlier one. -/
theorem update_absorbs (S : Setting) (hx : 2 ≤ S.m.Nx) (hz : 2 ≤ S.m.Nz) (a b : Bool) (f g : LS.Fields) (t t' : Mech)
    (h : updateNL S a f t = .ok t') : updateNL S b g t' = updateNL S b g t := by
  obtain ⟨hr, hT, hP, hd, hp, hg, hrho, hbx, hbz⟩ := updateNL_ok h
  have hs := (Point.grid_spec S.env S.mean S.n S.mats S.huet S.ncells S.nverts _ _ t.cells t.verts).1 _ _ hg
  have er : Kin.strainRates (kinInp S g) t'.rates = Kin.strainRates (kinInp S g) t.rates := by
    rw [hr]; exact rates_absorb S hx hz f g t.rates
  have eT : ∀ w, toVerts S w t'.Ts = toVerts S w t.Ts := fun w => by rw [hT]; exact toVerts_absorb S hx hz _ _ _
  have eP : ∀ w, toVerts S w t'.Ps = toVerts S w t.Ps := fun w => by rw [hP]; exact toVerts_absorb S hx hz _ _ _
  have ed : ∀ w, toVerts S w t'.ds = toVerts S w t.ds := fun w => by rw [hd]; exact toVerts_absorb S hx hz _ _ _
  have ep : ∀ w, toVerts S w t'.phis = toVerts S w t.phis := fun w => by rw [hp]; exact toVerts_absorb S hx hz _ _ _
  have eg : ∀ cs vs, Point.viscosityGrid S.env S.mean S.n S.mats S.huet S.ncells S.nverts cs vs t'.cells t'.verts
      = Point.viscosityGrid S.env S.mean S.n S.mats S.huet S.ncells S.nverts cs vs t.cells t.verts :=
    fun cs vs => grid_old _ _ _ _ _ _ _ _ _ _ _ _ _ hs.2.2.1 hs.2.2.2
  have erho : ∀ w, (if S.vol then written S.ncells t'.rho w else t'.rho) = if S.vol then written S.ncells t.rho w else t.rho := by
    intro w
    rw [hrho]
    by_cases hv : S.vol = true
    · simp only [hv, if_true, written_written]
    · simp only [hv, if_false, Bool.false_eq_true]
  have ebx : ∀ n w, n = S.m.Nx * (S.m.Nz + 1) → written n t'.bx w = written n t.bx w := by
    intro n w hn; rw [hbx, hn, written_written]
  have ebz : ∀ n w, n = (S.m.Nx + 1) * S.m.Nz → written n t'.bz w = written n t.bz w := by
    intro n w hn; rw [hbz, hn, written_written]
  unfold updateNL
  simp only [er, eT, eP, ed, ep, eg, erho, ebx _ _ rfl, ebz _ _ rfl]

/-- C147.  **The stresses, viscosities, densities and forces computed for a flow do not depend on what was tried before**: after any sequence of
passes and trial steps with any flows, the update for `g` ends in the same way and with the same fields as if it had been made at
once. -/
theorem update_history_free (S : Setting) (hx : 2 ≤ S.m.Nx) (hz : 2 ≤ S.m.Nz) (hist : List (Bool × LS.Fields)) (b : Bool)
    (g : LS.Fields) (t t' : Mech) (h : updates S hist t = .ok t') : updateNL S b g t' = updateNL S b g t := by
  induction hist generalizing t with
  | nil => simp only [updates, Point.Outcome.ok.injEq] at h; rw [h]
  | cons e hs ih =>
    simp only [updates] at h
    split at h
    · next t1 h1 => rw [ih t1 h, update_absorbs S hx hz e.1 b e.2 g t t1 h1]
    · exact absurd h (by simp)
    · exact absurd h (by simp)

/-- Without density_variations the flag of the final update makes no difference. -/
theorem final_flag_unused (S : Setting) (hvol : S.vol = false) (a b : Bool) (f : LS.Fields) (t : Mech) :
    updateNL S a f t = updateNL S b f t := by
  unfold updateNL
  simp only [hvol, Bool.false_eq_true, if_false]

/-- The stabilisation off: the viscosity tensor does not enter the rows. -/
private theorem corr_off (S : Setting) (hs : S.m.stab = false) (o : Ops) (rho : Nat → ℝ) (k l : Int) :
    (∀ c, xCorr (meshWith S o rho) k l c = 0) ∧ ∀ a, zCorr (meshWith S o rho) k l a = 0 := by
  constructor <;> intro a <;> simp [xCorr, zCorr, meshWith, hs]

/-- The stabilisation term of an x-row and of a z-row with viscosity tensor `o` and density `rho`. -/
noncomputable def stabX (S : Setting) (o : Ops) (rho : Nat → ℝ) (k l : Int) : ℝ :=
  xCorr (meshWith S o rho) k l (xCoef (xIn (meshWith S o rho) k l)).uC
/-- See `stabX`. -/
noncomputable def stabZ (S : Setting) (o : Ops) (rho : Nat → ℝ) (k l : Int) : ℝ :=
  zCorr (meshWith S o rho) k l (zCoef (zIn (meshWith S o rho) k l))

/-- The viscosity tensor enters a momentum row through the stabilisation term only. -/
theorem row_difference (S : Setting) (o o' : Ops) (f : LS.Fields) (t : Mech) (k l : Int) :
    (rows S o f t).x k l - (rows S o' f t).x k l
      = (stabX S o t.rho k l - stabX S o' t.rho k l) * S.arr f.u (k + l * S.m.Nx) * (S.m.dx * S.m.dz)
    ∧ (rows S o f t).z k l - (rows S o' f t).z k l
      = (stabZ S o t.rho k l - stabZ S o' t.rho k l) * S.arr f.v (k + l * (S.m.Nx + 1)) * (S.m.dx * S.m.dz)
    ∧ (rows S o f t).p = (rows S o' f t).p := by
  have hi : xIdx (meshWith S o t.rho) k l = xIdx (meshWith S o' t.rho) k l := rfl
  have hW : (xIn (meshWith S o t.rho) k l).SW = (xIn (meshWith S o' t.rho) k l).SW := rfl
  have hE : (xIn (meshWith S o t.rho) k l).SE = (xIn (meshWith S o' t.rho) k l).SE := rfl
  have hj : zIdx (meshWith S o t.rho) k l = zIdx (meshWith S o' t.rho) k l := rfl
  have hS : (zIn (meshWith S o t.rho) k l).SS = (zIn (meshWith S o' t.rho) k l).SS := rfl
  have hN : (zIn (meshWith S o t.rho) k l).SN = (zIn (meshWith S o' t.rho) k l).SN := rfl
  have e1 : ∀ o, (meshWith S o t.rho).dx = S.m.dx := fun _ => rfl
  have e2 : ∀ o, (meshWith S o t.rho).dz = S.m.dz := fun _ => rfl
  have e3 : ∀ o, (meshWith S o t.rho).bu = S.m.bu := fun _ => rfl
  have e4 : ∀ o, (meshWith S o t.rho).bv = S.m.bv := fun _ => rfl
  have ci : (xIdx (meshWith S o' t.rho) k l).C = k + l * S.m.Nx := rfl
  have cj : (zIdx (meshWith S o' t.rho) k l).C = k + l * (S.m.Nx + 1) := rfl
  refine ⟨?_, ?_, rfl⟩
  · unfold rows stabX
    simp only [xResidual, hi, hW, hE, e1, e2, e3, ci]
    ring
  · unfold rows stabZ
    simp only [zResidual, hj, hS, hN, e1, e2, e4, cj]
    ring

end Verif.StepFlow
