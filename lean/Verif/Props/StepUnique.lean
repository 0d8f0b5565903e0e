import Verif.Props.StepLinearBox
import Verif.Props.StokesUnique

/-
C152: the flow found for linear materials does not depend on the flow the iteration starts from.
-/
set_option linter.unusedSectionVars false
namespace Verif.StepFlow
open Verif

private theorem arr_at (S : Setting) (a : Nat → ℝ) (i : Nat) : S.arr a (i : Int) = a i := by simp [Setting.arr]

/-- Viscosities found lie above the lower cutoff. -/
theorem viscosity_above (S : Setting) (hS : Viscoelastic S) (b : Bool) (f : LS.Fields) (t r : Mech) (h : updateNL S b f t = .ok r) :
    (∀ c < S.ncells, ¬ (S.m.tp c = 30 ∨ S.m.tp c = 31) → S.env.minEta ≤ (r.cells c).eta)
    ∧ ∀ c < S.nverts, S.m.tg c ≠ 30 → S.env.minEta ≤ (r.verts c).eta := by
  obtain ⟨a1, a2, a3, a4, a5, a6, -⟩ := updateNL_ok h
  have hs := (Point.grid_spec S.env S.mean S.n S.mats S.huet S.ncells S.nverts _ _ t.cells t.verts).1 _ _ a6
  obtain ⟨p1, p2⟩ := viscoelastic_points S hS f t
  rw [← a1] at p1
  rw [← a1, ← a2, ← a3, ← a4, ← a5] at p2
  refine ⟨fun c hc ha => ?_, fun c hc ha => ?_⟩
  · obtain ⟨w1, w2, -⟩ := hS.cells c hc ha
    choose! o ho using p1 c hc ha
    obtain ⟨s, e0, e1, -⟩ := Point.cell_update S.env S.mean S.n S.mats S.huet (cellData S f r.rates c)
      (by simp only [cellData]; exact decide_eq_false ha) w1 hS.minEta hS.limits (fun p hp => (hS.mats p hp).2.2.2.2.2.2.2.2.2.1) o
      (fun p hp _ => ho p hp)
    have k1 := hs.1 c hc
    rw [e0] at k1
    simp only [Point.Outcome.ok.injEq] at k1
    rw [← k1, e1]
    exact (Point.mean_between S.mean S.n _ (fun p => (o p).etaVE) S.env.minEta S.env.maxEta w1 hS.minEta fun p hp h0 =>
      ⟨(Point.update_limits S.env _ _ _ true hS.limits (o p) (ho p hp)).1, (Point.update_limits S.env _ _ _ true hS.limits (o p) (ho p hp)).2.1⟩).1
  · obtain ⟨w1, w2, -⟩ := hS.verts c hc ha
    choose! o ho using p2 c hc ha
    obtain ⟨s, e0, -, -, -, e1, -⟩ := Point.vertex_update S.env S.mean S.n S.mats S.huet (vertData S r.rates r.Ts r.Ps r.ds r.phis c)
      (by simp only [vertData]; exact decide_eq_false ha) w1 hS.minEta hS.limits o (fun p hp _ => ho p hp)
    have k1 := hs.2.1 c hc
    rw [e0] at k1
    simp only [Point.Outcome.ok.injEq] at k1
    rw [← k1]
    exact e1

/-- The mesh with unit viscosities, to say which cells are rock. -/
def unitMesh (S : Setting) : SMesh ℝ := { S.m with D11 := fun _ => 1, D22 := fun _ => 1, D33 := fun _ => 1 }

/-- A model whose flow is determined: positive spacings and time step, compressibilities not negative, no density inversion where the stabilisation
is on (or no stabilisation), no air or gentle topography. -/
structure Determined (S : Setting) (rho : Nat → ℝ) : Prop where
  dx : 0 < S.m.dx
  dz : 0 < S.m.dz
  dt : 0 < S.m.dt
  beta : ∀ c : Nat, 0 ≤ (S.cell c).beta
  stable : StableOrOff (meshRho S rho)
  rock : AllRock (unitMesh S) ∨ Terrain (unitMesh S)

/-- The same values where the boundary conditions prescribe them: velocities at nodes with tag 0 and in the air, pressures in cells without pressure equation. -/
structure SamePrescribed (S : Setting) (f g : LS.Fields) : Prop where
  u : ∀ i : Nat, S.m.tu i = 0 ∨ S.m.tu i = 30 → f.u i = g.u i
  v : ∀ i : Nat, S.m.tv i = 0 ∨ S.m.tv i = 30 → f.v i = g.v i
  p : ∀ i : Nat, S.m.tp i ≠ -1 → f.p i = g.p i

section
variable {S : Setting} (hS : Viscoelastic S) (hB : Box S)
include hS hB

theorem walls (o : Ops) (rho : Nat → ℝ) : Walls (meshWith S o rho) where
  u := fun k l hk l0 hl => by
    have e : ((k : Int) + l * (S.m.Nx : Int)) = ((k + l * S.m.Nx : Nat) : Int) := by push_cast; ring
    refine ⟨fun h => ?_, fun h => ?_⟩
    · have := hB.ghosts.uRows k l hk (by have : l < S.m.Nz := hl; omega) (Or.inl (by show S.m.tu _ = 11; rw [← e]; exact h))
      have : l < S.m.Nz := hl
      omega
    · have := hB.ghosts.uRows k l hk (by have : l < S.m.Nz := hl; omega) (Or.inr (by show S.m.tu _ = 13; rw [← e]; exact h))
      have : l < S.m.Nz := hl
      omega
  v := fun k l k0 hk hl => by
    have e : ((k : Int) + l * ((S.m.Nx : Int) + 1)) = ((l * (S.m.Nx + 1) + k : Nat) : Int) := by push_cast; ring
    have hk' : k < S.m.Nx := hk
    refine ⟨fun h => ?_, fun h => ?_⟩
    · have := hB.ghosts.vCols k l (by omega) hl (Or.inl (by show S.m.tv _ = 11; rw [← e]; exact h))
      omega
    · have := hB.ghosts.vCols k l (by omega) hl (Or.inr (Or.inl (by show S.m.tv _ = 13; rw [← e]; exact h)))
      omega
  notPeriodic := by
    rintro i ⟨k, l, hk, hl, rfl⟩ h
    have e : ((k : Int) + l * ((S.m.Nx : Int) + 1)) = ((k + l * (S.m.Nx + 1) : Nat) : Int) := by push_cast; ring
    exact hB.periodicV (k + l * (S.m.Nx + 1)) (by rw [← e]; exact h)

theorem nx_cast : ((S.m.Nx : Int) - 1) = ((S.m.Nx - 1 : Nat) : Int) := by have := hS.Nx; omega

theorem viscous_in {f : LS.Fields} {t r : Mech} (h : updateNL S false f t = .ok r) : ViscousIn (meshWith S (opsOf S r) r.rho) := by
  obtain ⟨h1, h2⟩ := viscosity_above S hS false f t r h
  have hm := hS.minEta
  have idx : ∀ k l : Nat, ((k : Int) + l * ((S.m.Nx : Int) - 1)) = ((k + l * (S.m.Nx - 1) : Nat) : Int) := fun k l => by
    rw [nx_cast hS hB]; push_cast; ring
  have cok : ∀ k l : Nat, k + 1 < S.m.Nx → l + 1 < S.m.Nz → CellOk (S.m.tp (k + l * (S.m.Nx - 1) : Nat)) := fun k l a b => hB.cells k l (by omega) (by omega)
  have d11 : ∀ k l : Nat, (meshWith S (opsOf S r) r.rho).D11 ((k + l * (S.m.Nx - 1) : Nat) : Int)
      = if S.m.tp (k + l * (S.m.Nx - 1) : Nat) ≠ 30 ∧ S.m.tp (k + l * (S.m.Nx - 1) : Nat) ≠ 31 then 2 * (r.cells (k + l * (S.m.Nx - 1))).eta else 0 := fun k l =>
    arr_at S (opsOf S r).D11 (k + l * (S.m.Nx - 1))
  refine ⟨fun c _ => rfl, ?_, ?_, ?_, ?_⟩
  · rintro c ⟨k, l, hk, hl, rfl⟩
    have hk' : k + 1 < S.m.Nx := hk
    have hl' : l + 1 < S.m.Nz := hl
    show 0 ≤ (meshWith S (opsOf S r) r.rho).D11 ((k : Int) + l * ((S.m.Nx : Int) - 1))
    rw [idx, d11]
    split_ifs with q
    · have := h1 _ (cell_lt _ _ k l (by omega) (by omega)) (not_or.2 q)
      linarith
    · exact le_refl _
  · rintro c ⟨k, l, hk, hl, rfl⟩
    have e : ((k : Int) + l * (S.m.Nx : Int)) = ((k + l * S.m.Nx : Nat) : Int) := by push_cast; ring
    show 0 ≤ S.arr (opsOf S r).D33 ((k : Int) + l * (S.m.Nx : Int))
    rw [e, arr_at]
    simp only [opsOf]
    split_ifs with q
    · have := h2 _ (cell_lt _ _ k l hk hl) q
      linarith
    · exact le_refl _
  · rintro c ⟨k, l, hk, hl, rfl⟩ ht
    show (meshWith S (opsOf S r) r.rho).D11 ((k : Int) + l * ((S.m.Nx : Int) - 1)) = 0
    replace ht : S.m.tp ((k : Int) + l * ((S.m.Nx : Int) - 1)) ≠ -1 := ht
    rw [idx] at ht ⊢
    rw [d11]
    rcases cok k l hk hl with q | q | q
    · exact absurd q ht
    · exact if_neg fun w => w.1 q
    · exact if_neg fun w => w.2 q
  · rintro c ⟨k, l, hk, hl, rfl⟩
    show CellOk (S.m.tp ((k : Int) + l * ((S.m.Nx : Int) - 1)))
    rw [idx]; exact cok k l hk hl

theorem rock_of {f : LS.Fields} {t r : Mech} (h : updateNL S false f t = .ok r) (hr : AllRock (unitMesh S) ∨ Terrain (unitMesh S)) :
    AllRock (meshWith S (opsOf S r) r.rho) ∨ Terrain (meshWith S (opsOf S r) r.rho) := by
  obtain ⟨h1, h2⟩ := viscosity_above S hS false f t r h
  have hm := hS.minEta
  have idx : ∀ k l : Nat, ((k : Int) + l * ((S.m.Nx : Int) - 1)) = ((k + l * (S.m.Nx - 1) : Nat) : Int) := fun k l => by
    rw [nx_cast hS hB]; push_cast; ring
  have pos : ∀ k l : Nat, k + 1 < S.m.Nx → l + 1 < S.m.Nz → S.m.tp ((k : Int) + l * ((S.m.Nx : Int) - 1)) = -1 →
      0 < (meshWith S (opsOf S r) r.rho).D11 ((k : Int) + l * ((S.m.Nx : Int) - 1)) := by
    intro k l hk hl ht
    rw [idx] at ht ⊢
    show 0 < S.arr (opsOf S r).D11 ((k + l * (S.m.Nx - 1) : Nat) : Int)
    rw [arr_at]
    simp only [opsOf]
    have := h1 _ (cell_lt _ _ k l (by omega) (by omega)) (by rw [ht]; decide)
    rw [if_pos (by rw [ht]; decide)]
    linarith
  rcases hr with hr | hr
  · left
    intro k l hk hl
    have := (hr k l hk hl).1
    exact ⟨this, pos k l hk hl this⟩
  · right
    refine ⟨fun k l hk hl q => pos k l hk hl q, hr.base, hr.column, hr.tied, fun k l k0 hk l0 hl a b c d => ?_, hr.u, hr.v⟩
    have q := (hr.vertex k l k0 hk l0 hl a b c d).1
    refine ⟨q, ?_⟩
    have hk' : k + 1 < S.m.Nx := hk
    have hl' : l + 1 < S.m.Nz := hl
    have e : ((k : Int) + l * (S.m.Nx : Int)) = ((k + l * S.m.Nx : Nat) : Int) := by push_cast; ring
    show 0 < S.arr (opsOf S r).D33 ((k : Int) + l * (S.m.Nx : Int))
    replace q : S.m.tg ((k : Int) + l * (S.m.Nx : Int)) ≠ 30 := q
    rw [e] at q ⊢
    rw [arr_at]
    simp only [opsOf]
    have := h2 _ (cell_lt _ _ k l (by omega) (by omega)) q
    rw [if_pos q]
    linarith

/-- The difference of two flows. -/
noncomputable def differ (f g : LS.Fields) : LS.Fields := ⟨fun i => f.u i - g.u i, fun i => f.v i - g.v i, fun i => f.p i - g.p i⟩

omit hS in
/-- The difference of two flows with the same walls and the same prescribed values. -/
theorem differ_homogeneous {V : BCVals ℝ} {f g : LS.Fields} (hf : Admissible S V f) (hg : Admissible S V g) (hp : SamePrescribed S f g) :
    Homogeneous S (differ f g) where
  airU := fun i ht => by simp only [differ]; rw [hp.u i (Or.inr ht), sub_self]
  airV := fun i ht => by simp only [differ]; rw [hp.v i (Or.inr ht), sub_self]
  airP := fun i ht => by simp only [differ]; rw [hp.p i ht, sub_self]
  south := fun k l hr => by
    obtain ⟨k0, k1, l0, l1, -⟩ := hr
    have hr := hB.ghosts.uRows k (l - 1) (by omega) (by omega)
    simp only [differ]
    refine ⟨fun ht => ?_, fun ht => ?_⟩
    · obtain rfl : l = 1 := by have := hr (Or.inl ht); omega
      have := hf.bc.noSlipS k (by omega) (by simpa [tagsOf] using ht)
      have := hg.bc.noSlipS k (by omega) (by simpa [tagsOf] using ht)
      simp only [unclip, Nat.sub_self, zero_mul, add_zero] at *
      linarith
    · obtain rfl : l = 1 := by have := hr (Or.inr ht); omega
      have := hf.bc.freeSlipS k (by omega) (by simpa [tagsOf] using ht)
      have := hg.bc.freeSlipS k (by omega) (by simpa [tagsOf] using ht)
      simp only [unclip, Nat.sub_self, zero_mul, add_zero] at *
      linarith
  north := fun k l hr => by
    obtain ⟨k0, k1, l0, l1, -⟩ := hr
    have hr := hB.ghosts.uRows k (l + 1) (by omega) (by omega)
    simp only [differ]
    refine ⟨fun ht => ?_, fun ht => ?_⟩
    · have hl : l + 1 = S.m.Nz := by have := hr (Or.inl ht); omega
      obtain rfl : l = S.m.Nz - 1 := by omega
      rw [hl] at ht ⊢
      have := hf.bc.noSlipN k (by omega) ht
      have := hg.bc.noSlipN k (by omega) ht
      simp only [unclip] at *
      linarith
    · have hl : l + 1 = S.m.Nz := by have := hr (Or.inr ht); omega
      obtain rfl : l = S.m.Nz - 1 := by omega
      rw [hl] at ht ⊢
      have := hf.bc.freeSlipN k (by omega) ht
      have := hg.bc.freeSlipN k (by omega) ht
      simp only [unclip] at *
      linarith
  west := fun k l hr => by
    obtain ⟨k0, k1, l0, l1, -⟩ := hr
    have hr := hB.ghosts.vCols (k - 1) l (by omega) (by omega)
    rw [add_comm (l * (S.m.Nx + 1))] at hr
    simp only [differ]
    refine ⟨fun ht => ?_, fun ht => ?_⟩
    · obtain rfl : k = 1 := by have := hr (Or.inl ht); omega
      have := hf.bc.noSlipW l (by omega) (by simpa [tagsOf] using ht)
      have := hg.bc.noSlipW l (by omega) (by simpa [tagsOf] using ht)
      simp only [unclip, Nat.sub_self, zero_add, add_comm 1] at *
      linarith
    · obtain rfl : k = 1 := by have := hr (Or.inr (Or.inl ht)); omega
      have := hf.bc.freeSlipW l (by omega) (by simpa [tagsOf] using ht)
      have := hg.bc.freeSlipW l (by omega) (by simpa [tagsOf] using ht)
      simp only [unclip, Nat.sub_self, zero_add, add_comm 1] at *
      linarith
  east := fun k l hr => by
    obtain ⟨k0, k1, l0, l1, -⟩ := hr
    have hr := hB.ghosts.vCols (k + 1) l (by omega) (by omega)
    rw [add_comm (l * (S.m.Nx + 1))] at hr
    simp only [differ]
    refine ⟨fun ht => ?_, fun ht => ?_⟩
    · have hk : k + 1 = S.m.Nx := by have := hr (Or.inl ht); omega
      obtain rfl : k = S.m.Nx - 1 := by omega
      rw [hk, add_comm S.m.Nx] at ht ⊢
      have := hf.bc.noSlipE l (by omega) ht
      have := hg.bc.noSlipE l (by omega) ht
      simp only [unclip] at *
      rw [add_comm (S.m.Nx - 1)]
      linarith
    · have hk : k + 1 = S.m.Nx := by have := hr (Or.inr (Or.inl ht)); omega
      obtain rfl : k = S.m.Nx - 1 := by omega
      rw [hk, add_comm S.m.Nx] at ht ⊢
      have := hf.bc.freeSlipE l (by omega) ht
      have := hg.bc.freeSlipE l (by omega) ht
      simp only [unclip] at *
      rw [add_comm (S.m.Nx - 1)]
      linarith

private theorem mod_div (n k l : Nat) (hk : k < n) : (k + l * n) % n = k ∧ (k + l * n) / n = l := by
  have h0 : 0 < n := by omega
  constructor
  · rw [Nat.add_mul_mod_self_right]; exact Nat.mod_eq_of_lt hk
  · rw [Nat.add_mul_div_right _ _ h0, Nat.div_eq_of_lt hk, zero_add]

theorem fixed_tag_u (k l : Nat) (hk : k < S.m.Nx) (hl : l ≤ S.m.Nz) (ht : S.m.tu (k + l * S.m.Nx : Nat) ≠ -1) (n1 : S.m.tu (k + l * S.m.Nx : Nat) ≠ 11)
    (n2 : S.m.tu (k + l * S.m.Nx : Nat) ≠ 13) : S.m.tu (k + l * S.m.Nx : Nat) = 0 ∨ S.m.tu (k + l * S.m.Nx : Nat) = 30 := by
  have hx : ¬ extractVel (S.m.tu (k + l * S.m.Nx : Nat)) = true := fun q => by
    have := (hB.freeU _ (by rw [mul_comm (S.m.Nz + 1)]; exact cell_lt _ _ _ _ hk (by omega)) q).2.2.2.2
    obtain ⟨e1, e2⟩ := mod_div hS hB S.m.Nx k l hk
    rw [e1, e2] at this
    exact ht this
  have n3 := hB.periodicU (k + l * S.m.Nx)
  simp [extractVel] at hx
  tauto

theorem fixed_tag_v (k l : Nat) (hk : k ≤ S.m.Nx) (hl : l < S.m.Nz) (ht : S.m.tv (k + l * (S.m.Nx + 1) : Nat) ≠ -1)
    (n1 : S.m.tv (k + l * (S.m.Nx + 1) : Nat) ≠ 11) (n2 : S.m.tv (k + l * (S.m.Nx + 1) : Nat) ≠ 13) :
    S.m.tv (k + l * (S.m.Nx + 1) : Nat) = 0 ∨ S.m.tv (k + l * (S.m.Nx + 1) : Nat) = 30 := by
  have hx : ¬ extractVel (S.m.tv (k + l * (S.m.Nx + 1) : Nat)) = true := fun q => by
    have := (hB.freeV _ (by rw [mul_comm S.m.Nz]; exact cell_lt _ _ _ _ (by omega) hl) q).2.2.2.2
    obtain ⟨e1, e2⟩ := mod_div hS hB (S.m.Nx + 1) k l (by omega)
    rw [e1, e2] at this
    exact ht this
  have n3 := hB.periodicV (k + l * (S.m.Nx + 1))
  simp [extractVel] at hx
  tauto

theorem inner_nodes {o : Ops} {rho : Nat → ℝ} (n : SNode) (hn : Weighted (meshWith S o rho) n) (ht : (meshWith S o rho).tag n = -1) :
    n ∈ velNodes (meshWith S o rho) ∪ rockNodes (meshWith S o rho) := by
  have idu : ∀ k l : Nat, ((k : Int) + l * (S.m.Nx : Int)) = ((k + l * S.m.Nx : Nat) : Int) := fun k l => by push_cast; ring
  have idv : ∀ k l : Nat, ((k : Int) + l * ((S.m.Nx : Int) + 1)) = ((k + l * (S.m.Nx + 1) : Nat) : Int) := fun k l => by push_cast; ring
  have uin : ∀ i l, i < S.m.Nx → l ≤ S.m.Nz → i + l * S.m.Nx < (S.m.Nz + 1) * S.m.Nx := fun i l hi hl => by
    rw [mul_comm (S.m.Nz + 1)]; exact cell_lt _ _ _ _ hi (by omega)
  have vin : ∀ i l, i ≤ S.m.Nx → l < S.m.Nz → i + l * (S.m.Nx + 1) < S.m.Nz * (S.m.Nx + 1) := fun i l hi hl => by
    rw [mul_comm S.m.Nz]; exact cell_lt _ _ _ _ (by omega) (by omega)
  rcases n with i | i | i
  · obtain ⟨⟨k, l, hk, hl, rfl⟩, -, -⟩ := hn
    have ht' := ht
    replace ht : S.m.tu ((k : Int) + l * (S.m.Nx : Int)) = -1 := ht
    rw [idu] at ht
    have := hB.freeU _ (uin k l hk hl) (by rw [ht]; rfl)
    obtain ⟨e1, e2⟩ := mod_div hS hB S.m.Nx k l hk
    rw [e1, e2] at this
    obtain ⟨q1, q2, q3, q4, -⟩ := this
    exact Finset.mem_union_left _ ((mem_nodes _ _).2 (Or.inl ⟨k, l, rfl, q1, q2, q3, q4, ht'⟩))
  · obtain ⟨⟨k, l, hk, hl, rfl⟩, -, -⟩ := hn
    have ht' := ht
    replace ht : S.m.tv ((k : Int) + l * ((S.m.Nx : Int) + 1)) = -1 := ht
    have hk' : k ≤ S.m.Nx := hk
    rw [idv] at ht
    have := hB.freeV _ (vin k l hk hl) (by rw [ht]; rfl)
    obtain ⟨e1, e2⟩ := mod_div hS hB (S.m.Nx + 1) k l (by omega)
    rw [e1, e2] at this
    obtain ⟨q1, q2, q3, q4, -⟩ := this
    exact Finset.mem_union_left _ ((mem_nodes _ _).2 (Or.inr ⟨k, l, rfl, q1, q2, q3, q4, ht'⟩))
  · obtain ⟨k, l, hk, hl, rfl⟩ := hn
    exact Finset.mem_union_right _ ((mem_rock _ _).2 ⟨k, l, rfl, hk, hl, ht⟩)

/-- Two flows that balance all equations differ by a solution without sources. -/
private theorem differ_no_source (hvol : S.vol = false) {V : BCVals ℝ} {f g : LS.Fields} (hf : Admissible S V f) (hg : Admissible S V g) (hp : SamePrescribed S f g)
    {t a b : Mech} (ha : updateNL S false f t = .ok a) (hb : updateNL S false g t = .ok b)
    (bf : Balanced S (rows S (opsOf S a) f a)) (bg : Balanced S (rows S (opsOf S b) g b)) :
    NoSource (meshWith S (opsOf S b) b.rho) (S.arr fun c => flag (S.comp c) * (S.cell c).beta / S.m.dt * (S.m.dx * S.m.dz))
      (atNode (S.arr (differ f g).u) (S.arr (differ f g).v) (S.arr (differ f g).p)) := by
  have hd := differ_homogeneous hB hf hg hp
  have e0 : shift g (differ f g) 1 = f := by simp [shift, differ]
  have h' : updateNL S false (shift g (differ f g) 1) b = .ok a := by
    rw [e0, update_absorbs S hS.Nx hS.Nz false false g f t b hb]; exact ha
  obtain ⟨m1, m2, m3⟩ := matrix_is_derivative_partial hS hB hvol hb hd h'
  rw [e0] at m1 m2 m3
  have idx : ∀ k l : Nat, ((k : Int) + l * ((S.m.Nx : Int) - 1)) = ((k + l * (S.m.Nx - 1) : Nat) : Int) := fun k l => by
    rw [nx_cast hS hB]; push_cast; ring
  have idu : ∀ k l : Nat, ((k : Int) + l * (S.m.Nx : Int)) = ((k + l * S.m.Nx : Nat) : Int) := fun k l => by push_cast; ring
  have idv : ∀ k l : Nat, ((k : Int) + l * ((S.m.Nx : Int) + 1)) = ((k + l * (S.m.Nx + 1) : Nat) : Int) := fun k l => by push_cast; ring
  have uin : ∀ i l, i < S.m.Nx → l ≤ S.m.Nz → i + l * S.m.Nx < (S.m.Nz + 1) * S.m.Nx := fun i l hi hl => by
    rw [mul_comm (S.m.Nz + 1)]; exact cell_lt _ _ _ _ hi (by omega)
  have vin : ∀ i l, i ≤ S.m.Nx → l < S.m.Nz → i + l * (S.m.Nx + 1) < S.m.Nz * (S.m.Nx + 1) := fun i l hi hl => by
    rw [mul_comm S.m.Nz]; exact cell_lt _ _ _ _ (by omega) (by omega)
  refine ⟨fun n hn ht => ?_, fun n hn ht => ?_, fun k l k0 hk l0 hl ht => ?_, fun k l k0 hk l0 hl ht => ?_, fun k l hk hl ht => ?_⟩
  · rcases n with i | i | i
    · obtain ⟨⟨k, l, hk, hl, rfl⟩, n1, n2⟩ := hn
      show S.arr (differ f g).u ((k : Int) + l * (S.m.Nx : Int)) = 0
      replace ht : S.m.tu ((k : Int) + l * (S.m.Nx : Int)) ≠ -1 := ht
      replace n1 : S.m.tu ((k : Int) + l * (S.m.Nx : Int)) ≠ 11 := n1
      replace n2 : S.m.tu ((k : Int) + l * (S.m.Nx : Int)) ≠ 13 := n2
      rw [idu] at ht n1 n2 ⊢
      rw [arr_at]
      have := fixed_tag_u hS hB k l hk hl ht n1 n2
      simp only [differ]
      rw [hp.u _ this, sub_self]
    · obtain ⟨⟨k, l, hk, hl, rfl⟩, n1, n2⟩ := hn
      show S.arr (differ f g).v ((k : Int) + l * ((S.m.Nx : Int) + 1)) = 0
      replace ht : S.m.tv ((k : Int) + l * ((S.m.Nx : Int) + 1)) ≠ -1 := ht
      replace n1 : S.m.tv ((k : Int) + l * ((S.m.Nx : Int) + 1)) ≠ 11 := n1
      replace n2 : S.m.tv ((k : Int) + l * ((S.m.Nx : Int) + 1)) ≠ 13 := n2
      have hk' : k ≤ S.m.Nx := hk
      rw [idv] at ht n1 n2 ⊢
      rw [arr_at]
      have := fixed_tag_v hS hB k l hk hl ht n1 n2
      simp only [differ]
      rw [hp.v _ this, sub_self]
    · obtain ⟨k, l, hk, hl, rfl⟩ := hn
      show S.arr (differ f g).p ((k : Int) + l * ((S.m.Nx : Int) - 1)) = 0
      replace ht : S.m.tp ((k : Int) + l * ((S.m.Nx : Int) - 1)) ≠ -1 := ht
      rw [idx] at ht ⊢
      rw [arr_at]
      exact hd.airP _ ht
  · exact inner_nodes hS hB n hn ht
  · have hfree : FreeU S k l := ⟨k0, hk, l0, hl, by rw [← idu]; exact ht⟩
    have := m1 k l hfree
    rw [bf.x k l hfree, bg.x k l hfree, zero_add, one_mul] at this
    exact this.symm
  · have hfree : FreeV S k l := ⟨k0, hk, l0, hl, by rw [← idv]; exact ht⟩
    have := m2 k l hfree
    rw [bf.z k l hfree, bg.z k l hfree, zero_add, one_mul] at this
    exact this.symm
  · have hk' : k + 1 < S.m.Nx := hk
    have hl' : l + 1 < S.m.Nz := hl
    have hfree : FreeP S k l := ⟨by omega, by omega, by rw [← idx]; exact ht⟩
    have := m3 k l hfree
    rw [bf.p k l hfree, bg.p k l hfree, zero_add, one_mul] at this
    obtain ⟨e1, e2⟩ := mod_div hS hB (S.m.Nx - 1) k l (by omega)
    simp only [matrixRows, e1, e2] at this
    show applyTo _ _ + S.arr _ ((k : Int) + l * ((S.m.Nx : Int) - 1)) * S.arr (differ f g).p ((k : Int) + l * ((S.m.Nx : Int) - 1)) = 0
    rw [idx, arr_at, arr_at]
    exact this.symm

/-- C152 (partial).  **There is one flow**: two flows with the same walls and the same prescribed values that both balance all equations of a step of
constant viscosities and elasticity have the same velocities everywhere, the same pressures in compressible cells, and the same pressure drop across every face
whose velocity is unknown.  Missing: periodic sides, prescribed stresses, steep peaks (where C146 shows
a loose cell), materials whose viscosity depends on the flow. -/
theorem one_flow_partial (hvol : S.vol = false) {V : BCVals ℝ} {f g : LS.Fields} (hf : Admissible S V f) (hg : Admissible S V g)
    (hp : SamePrescribed S f g) {t a b : Mech} (hD : Determined S t.rho) (ha : updateNL S false f t = .ok a) (hb : updateNL S false g t = .ok b)
    (bf : Balanced S (rows S (opsOf S a) f a)) (bg : Balanced S (rows S (opsOf S b) g b)) :
    f.u = g.u ∧ f.v = g.v
    ∧ (∀ k l, FreeP S k l → S.comp (k + l * (S.m.Nx - 1)) = true → 0 < (S.cell (k + l * (S.m.Nx - 1))).beta →
      f.p (k + l * (S.m.Nx - 1)) = g.p (k + l * (S.m.Nx - 1)))
    ∧ (∀ k l, FreeU S (k + 1) (l + 1) → f.p (k + 1 + l * (S.m.Nx - 1)) - f.p (k + l * (S.m.Nx - 1))
      = g.p (k + 1 + l * (S.m.Nx - 1)) - g.p (k + l * (S.m.Nx - 1)))
    ∧ ∀ k l, FreeV S (k + 1) (l + 1) → f.p (k + (l + 1) * (S.m.Nx - 1)) - f.p (k + l * (S.m.Nx - 1))
      = g.p (k + (l + 1) * (S.m.Nx - 1)) - g.p (k + l * (S.m.Nx - 1)) := by
  have hn := differ_no_source hS hB hvol hf hg hp ha hb bf bg
  have hrho : b.rho = t.rho := by
    obtain ⟨-, -, -, -, -, -, q, -⟩ := updateNL_ok hb
    rw [q, hvol]; rfl
  have hstab : StableOrOff (meshWith S (opsOf S b) b.rho) := by rw [hrho]; exact hD.stable
  have idx : ∀ k l : Nat, ((k : Int) + l * ((S.m.Nx : Int) - 1)) = ((k + l * (S.m.Nx - 1) : Nat) : Int) := fun k l => by
    rw [nx_cast hS hB]; push_cast; ring
  have idu : ∀ k l : Nat, ((k : Int) + l * (S.m.Nx : Int)) = ((k + l * S.m.Nx : Nat) : Int) := fun k l => by push_cast; ring
  have idv : ∀ k l : Nat, ((k : Int) + l * ((S.m.Nx : Int) + 1)) = ((k + l * (S.m.Nx + 1) : Nat) : Int) := fun k l => by push_cast; ring
  have hvol0 : 0 < S.m.dx * S.m.dz := mul_pos hD.dx hD.dz
  obtain ⟨n1, n2, n3, n4⟩ := stokes_no_source _ (viscous_in hS hB hb) (walls hS hB _ _) hstab hD.dx hD.dz (rock_of hS hB hb hD.rock)  _
    (fun c hc => by
      obtain ⟨k, l, q, -⟩ := (mem_rock _ _).1 hc
      replace q : c = (k : Int) + l * ((S.m.Nx : Int) - 1) := by simp only [SNode.p.injEq] at q; exact q
      rw [q, idx, arr_at]
      have h1 : (0 : ℝ) ≤ flag (S.comp (k + l * (S.m.Nx - 1))) := by unfold flag; split <;> norm_num
      exact mul_nonneg (div_nonneg (mul_nonneg h1 (hD.beta _)) hD.dt.le) hvol0.le) _ hn
  have hux : ∀ k l : Nat, k < S.m.Nx → l ≤ S.m.Nz → S.m.tu (k + l * S.m.Nx : Nat) ≠ 11 → S.m.tu (k + l * S.m.Nx : Nat) ≠ 13 →
      f.u (k + l * S.m.Nx) = g.u (k + l * S.m.Nx) := by
    intro k l hk hl h1 h2
    have hw : Weighted (meshWith S (opsOf S b) b.rho) (.u ((k + l * S.m.Nx : Nat) : Int)) := ⟨⟨k, l, hk, hl, (idu k l).symm⟩, h1, h2⟩
    have : S.arr (differ f g).u ((k + l * S.m.Nx : Nat) : Int) = 0 := by
      by_cases ht : (meshWith S (opsOf S b) b.rho).tag (.u ((k + l * S.m.Nx : Nat) : Int)) = -1
      · rcases Finset.mem_union.1 (hn.inner _ hw ht) with q | q
        · exact n1 _ q
        · obtain ⟨_, _, q, -⟩ := (mem_rock _ _).1 q; simp at q
      · exact hn.fixed _ hw ht
    rw [arr_at] at this
    exact sub_eq_zero.1 this
  have hvx : ∀ k l : Nat, k ≤ S.m.Nx → l < S.m.Nz → S.m.tv (k + l * (S.m.Nx + 1) : Nat) ≠ 11 → S.m.tv (k + l * (S.m.Nx + 1) : Nat) ≠ 13 →
      f.v (k + l * (S.m.Nx + 1)) = g.v (k + l * (S.m.Nx + 1)) := by
    intro k l hk hl h1 h2
    have hw : Weighted (meshWith S (opsOf S b) b.rho) (.v ((k + l * (S.m.Nx + 1) : Nat) : Int)) := ⟨⟨k, l, hk, hl, (idv k l).symm⟩, h1, h2⟩
    have : S.arr (differ f g).v ((k + l * (S.m.Nx + 1) : Nat) : Int) = 0 := by
      by_cases ht : (meshWith S (opsOf S b) b.rho).tag (.v ((k + l * (S.m.Nx + 1) : Nat) : Int)) = -1
      · rcases Finset.mem_union.1 (hn.inner _ hw ht) with q | q
        · exact n1 _ q
        · obtain ⟨_, _, q, -⟩ := (mem_rock _ _).1 q; simp at q
      · exact hn.fixed _ hw ht
    rw [arr_at] at this
    exact sub_eq_zero.1 this
  have hNx := hS.Nx
  have hNz := hS.Nz
  refine ⟨?_, ?_, ?_, ?_, ?_⟩
  · funext i
    by_cases hi : i < (S.m.Nz + 1) * S.m.Nx
    swap
    · rw [hf.u i (not_lt.1 hi), hg.u i (not_lt.1 hi)]
    obtain ⟨k, l, hk, hl, rfl⟩ : ∃ k l, k < S.m.Nx ∧ l ≤ S.m.Nz ∧ i = k + l * S.m.Nx :=
      ⟨i % S.m.Nx, i / S.m.Nx, Nat.mod_lt _ (by omega), by have := (Nat.div_lt_iff_lt_mul (by omega : 0 < S.m.Nx)).2 hi; omega, by
        rw [mul_comm]; exact (Nat.mod_add_div i S.m.Nx).symm⟩
    by_cases hq : S.m.tu (k + l * S.m.Nx : Nat) = 11 ∨ S.m.tu (k + l * S.m.Nx : Nat) = 13
    swap
    · exact hux k l hk hl (fun q => hq (Or.inl q)) fun q => hq (Or.inr q)
    rcases hB.ghosts.uRows k l hk hl hq with rfl | rfl
    · have e := hux k 1 hk (by omega) (fun q => by have := hB.ghosts.uRows k 1 hk (by omega) (Or.inl q); omega)
        (fun q => by have := hB.ghosts.uRows k 1 hk (by omega) (Or.inr q); omega)
      simp only [zero_mul, add_zero] at hq ⊢
      rcases hq with q | q
      · have a1 := hf.bc.noSlipS k hk q
        have a2 := hg.bc.noSlipS k hk q
        simp only [unclip] at a1 a2
        linarith
      · have a1 := hf.bc.freeSlipS k hk q
        have a2 := hg.bc.freeSlipS k hk q
        simp only [unclip] at a1 a2
        linarith
    · have e := hux k (S.m.Nz - 1) hk (by omega) (fun q => by have := hB.ghosts.uRows k (S.m.Nz - 1) hk (by omega) (Or.inl q); omega)
        (fun q => by have := hB.ghosts.uRows k (S.m.Nz - 1) hk (by omega) (Or.inr q); omega)
      rcases hq with q | q
      · have a1 := hf.bc.noSlipN k hk q
        have a2 := hg.bc.noSlipN k hk q
        simp only [unclip] at a1 a2
        linarith
      · have a1 := hf.bc.freeSlipN k hk q
        have a2 := hg.bc.freeSlipN k hk q
        simp only [unclip] at a1 a2
        linarith
  · funext i
    by_cases hi : i < S.m.Nz * (S.m.Nx + 1)
    swap
    · rw [hf.v i (not_lt.1 hi), hg.v i (not_lt.1 hi)]
    obtain ⟨k, l, hk, hl, rfl⟩ : ∃ k l, k ≤ S.m.Nx ∧ l < S.m.Nz ∧ i = k + l * (S.m.Nx + 1) :=
      ⟨i % (S.m.Nx + 1), i / (S.m.Nx + 1), by have := Nat.mod_lt i (by omega : 0 < S.m.Nx + 1); omega,
        (Nat.div_lt_iff_lt_mul (by omega : 0 < S.m.Nx + 1)).2 hi, by rw [mul_comm]; exact (Nat.mod_add_div i (S.m.Nx + 1)).symm⟩
    by_cases hq : S.m.tv (k + l * (S.m.Nx + 1) : Nat) = 11 ∨ S.m.tv (k + l * (S.m.Nx + 1) : Nat) = 13
    swap
    · exact hvx k l hk hl (fun q => hq (Or.inl q)) fun q => hq (Or.inr q)
    have hcol := hB.ghosts.vCols k l hk hl (by rw [add_comm (l * (S.m.Nx + 1))]; exact hq.imp id Or.inl)
    have inn : ∀ j, 0 < j → j < S.m.Nx → f.v (j + l * (S.m.Nx + 1)) = g.v (j + l * (S.m.Nx + 1)) := fun j j0 j1 =>
      hvx j l (by omega) hl
        (fun q => by have := hB.ghosts.vCols j l (by omega) hl (Or.inl (by rw [add_comm (l * (S.m.Nx + 1))]; exact q)); omega)
        (fun q => by have := hB.ghosts.vCols j l (by omega) hl (Or.inr (Or.inl (by rw [add_comm (l * (S.m.Nx + 1))]; exact q))); omega)
    rcases hcol with rfl | rfl
    · have e := inn 1 (by omega) (by omega)
      simp only [zero_add] at hq ⊢
      rw [add_comm 1] at e
      rcases hq with q | q
      · have a1 := hf.bc.noSlipW l hl q
        have a2 := hg.bc.noSlipW l hl q
        simp only [unclip] at a1 a2
        linarith
      · have a1 := hf.bc.freeSlipW l hl q
        have a2 := hg.bc.freeSlipW l hl q
        simp only [unclip] at a1 a2
        linarith
    · have e := inn (S.m.Nx - 1) (by omega) (by omega)
      rw [add_comm (S.m.Nx - 1)] at e
      rw [add_comm S.m.Nx] at hq ⊢
      rcases hq with q | q
      · have a1 := hf.bc.noSlipE l hl q
        have a2 := hg.bc.noSlipE l hl q
        simp only [unclip] at a1 a2
        linarith
      · have a1 := hf.bc.freeSlipE l hl q
        have a2 := hg.bc.freeSlipE l hl q
        simp only [unclip] at a1 a2
        linarith
  · rintro k l ⟨hk, hl, ht⟩ hc hbeta
    have := n2 ((k + l * (S.m.Nx - 1) : Nat) : Int) ((mem_rock _ _).2 ⟨k, l, congrArg _ (idx k l).symm, by show k + 1 < S.m.Nx; omega, by show l + 1 < S.m.Nz; omega,
      by show S.m.tp ((k : Int) + l * ((S.m.Nx : Int) - 1)) = -1; rw [idx]; exact ht⟩)
    replace this : S.arr _ ((k + l * (S.m.Nx - 1) : Nat) : Int) * S.arr (differ f g).p ((k + l * (S.m.Nx - 1) : Nat) : Int) = 0 := this
    rw [arr_at, arr_at] at this
    rcases mul_eq_zero.1 this with q | q
    · have h1 : (flag (S.comp (k + l * (S.m.Nx - 1))) : ℝ) = 1 := by rw [hc]; rfl
      rw [h1, one_mul] at q
      have := mul_pos (div_pos hbeta hD.dt) hvol0
      linarith
    · exact sub_eq_zero.1 q
  · rintro k l ⟨-, hk, -, hl, ht⟩
    have := n3 k l hk hl (by
      show S.m.tu (((k + 1 : Nat) : Int) + ((l + 1 : Nat) : Int) * (S.m.Nx : Int)) = -1
      rw [idu]; exact ht)
    replace this : S.arr (differ f g).p ((k : Int) + l * ((S.m.Nx : Int) - 1)) = S.arr (differ f g).p (((k + 1 : Nat) : Int) + l * ((S.m.Nx : Int) - 1)) := this
    rw [idx, idx, arr_at, arr_at] at this
    simp only [differ] at this
    linarith
  · rintro k l ⟨-, hk, -, hl, ht⟩
    have := n4 k l hk hl (by
      show S.m.tv (((k + 1 : Nat) : Int) + ((l + 1 : Nat) : Int) * ((S.m.Nx : Int) + 1)) = -1
      rw [idv]; exact ht)
    replace this : S.arr (differ f g).p ((k : Int) + l * ((S.m.Nx : Int) - 1)) = S.arr (differ f g).p ((k : Int) + ((l + 1 : Nat) : Int) * ((S.m.Nx : Int) - 1)) := this
    rw [idx, idx, arr_at, arr_at] at this
    simp only [differ] at this
    linarith
end

/-- The allocated entries of a field that obeys the boundary conditions. -/
private theorem clip_admissible {S : Setting} (hx : 2 ≤ S.m.Nx) (hz : 2 ≤ S.m.Nz) {V : BCVals ℝ} {e : Fields ℝ} (h : BCHold S.m.Nx S.m.Nz (tagsOf S) V e) :
    Admissible S V (clip S e) := by
  have uin : ∀ i l, i < S.m.Nx → l ≤ S.m.Nz → i + l * S.m.Nx < (S.m.Nz + 1) * S.m.Nx := fun i l hi hl => by
    rw [mul_comm (S.m.Nz + 1)]; exact cell_lt _ _ _ _ hi (by omega)
  have vin : ∀ i l, i ≤ S.m.Nx → l < S.m.Nz → l * (S.m.Nx + 1) + i < S.m.Nz * (S.m.Nx + 1) := fun i l hi hl => by
    rw [mul_comm S.m.Nz, add_comm]; exact cell_lt _ _ _ _ (by omega) (by omega)
  have hu : ∀ i l, i < S.m.Nx → l ≤ S.m.Nz → (clip S e).u (i + l * S.m.Nx) = e.u (i + l * S.m.Nx) := fun i l hi hl => if_pos (uin i l hi hl)
  have hv : ∀ i l, i ≤ S.m.Nx → l < S.m.Nz → (clip S e).v (l * (S.m.Nx + 1) + i) = e.v (l * (S.m.Nx + 1) + i) := fun i l hi hl => if_pos (vin i l hi hl)
  have hu0 : ∀ i, i < S.m.Nx → (clip S e).u i = e.u i := fun i hi => by have := hu i 0 hi (by omega); simpa using this
  have hv0 : ∀ l, l < S.m.Nz → (clip S e).v (l * (S.m.Nx + 1)) = e.v (l * (S.m.Nx + 1)) := fun l hl => hv 0 l (by omega) hl
  refine ⟨?_, fun i hi => if_neg (not_lt.2 hi), fun i hi => if_neg (not_lt.2 hi), fun i hi => if_neg (not_lt.2 hi)⟩
  refine { noSlipS := fun i hi ht => ?_, noSlipN := fun i hi ht => ?_, freeSlipS := fun i hi ht => ?_, freeSlipN := fun i hi ht => ?_,
           noSlipW := fun l hl ht => ?_, noSlipE := fun l hl ht => ?_, freeSlipW := fun l hl ht => ?_, freeSlipE := fun l hl ht => ?_,
           periodicVzW := fun l hl ht => ?_, periodicVzE := fun l hl ht => ?_, periodicVx := fun l hl ht => ?_ } <;> simp only [unclip]
  · rw [hu0 i hi, hu i 1 hi (by omega)]; exact h.noSlipS i hi ht
  · rw [hu i _ hi (by omega), hu i _ hi (by omega)]; exact h.noSlipN i hi ht
  · rw [hu0 i hi, hu i 1 hi (by omega)]; exact h.freeSlipS i hi ht
  · rw [hu i _ hi (by omega), hu i _ hi (by omega)]; exact h.freeSlipN i hi ht
  · rw [hv0 l hl, hv 1 l (by omega) hl]; exact h.noSlipW l hl ht
  · rw [hv _ l (by omega) hl, hv _ l (by omega) hl]; exact h.noSlipE l hl ht
  · rw [hv0 l hl, hv 1 l (by omega) hl]; exact h.freeSlipW l hl ht
  · rw [hv _ l (by omega) hl, hv _ l (by omega) hl]; exact h.freeSlipE l hl ht
  · rw [hv0 l hl, hv _ l (by omega) hl]; exact h.periodicVzW l hl ht
  · rw [hv _ l (by omega) hl, hv 1 l (by omega) hl]; exact h.periodicVzE l hl ht
  · rw [hu _ l (by omega) hl, hu 0 l (by omega) hl]; exact h.periodicVx l hl ht

/-- The flow after a solve keeps the walls and the prescribed values. -/
theorem LinearPass.flow_admissible {S : Setting} (L : LinearPass S) (s : ℝ) : Admissible S L.V (L.flow s) := by
  unfold LinearPass.flow extracted
  obtain ⟨-, -, h3⟩ := increments_reach_solved S.m.Nx S.m.Nz L.visco.Nx L.visco.Nz (tagsOf S) L.box.tags L.box.ghosts L.junk
    L.bc L.V L.bcU L.bcV L.oob L.dx s (inner S L.f)
  exact clip_admissible L.visco.Nx L.visco.Nz h3

/-- See `flow_admissible`. -/
theorem LinearPass.flow_prescribed {S : Setting} (L : LinearPass S) (s : ℝ) : SamePrescribed S (L.flow s) L.f := by
  unfold LinearPass.flow extracted
  obtain ⟨-, h2, -⟩ := increments_reach_solved S.m.Nx S.m.Nz L.visco.Nx L.visco.Nz (tagsOf S) L.box.tags L.box.ghosts L.junk
    L.bc L.V L.bcU L.bcV L.oob L.dx s (inner S L.f)
  have ha := L.admissible
  refine ⟨fun i ht => ?_, fun i ht => ?_, fun i ht => ?_⟩ <;> simp only [clip]
  · split_ifs with hi
    · refine (h2 (.u i) hi (ht.imp id Or.inl)).trans ?_
      simp only [Dof.value, inner, unclip, clip, if_pos hi]
    · exact (ha.u i (not_lt.1 hi)).symm
  · split_ifs with hi
    · refine (h2 (.v i) hi (ht.imp id Or.inl)).trans ?_
      simp only [Dof.value, inner, unclip, clip, if_pos hi]
    · exact (ha.v i (not_lt.1 hi)).symm
  · split_ifs with hi
    · have h0 := L.box.tags.p _ hi
      refine (h2 (.p i) hi ?_).trans ?_
      · simp only [Dof.tag, tagsOf, List.mem_cons, List.not_mem_nil, or_false] at h0 ⊢
        omega
      · simp only [Dof.value, inner, unclip, clip, if_pos hi]
    · exact (ha.p i (not_lt.1 hi)).symm

/-- The flow after a full solve balances all equations of the update that follows. -/
theorem LinearPass.flow_balanced {S : Setting} (L : LinearPass S) :
    ∃ r, updateNL S false (L.flow (-1)) L.t = .ok r ∧ Balanced S (rows S (opsOf S r) (L.flow (-1)) r) := by
  have hx := L.visco.Nx
  have hz := L.visco.Nz
  have h : updateNL S false L.f L.t = .ok L.o := by
    have h := L.pass
    unfold StepFlow.pass at h
    split at h
    · next t1 h1 =>
      simp only [Point.Outcome.ok.injEq, Prod.mk.injEq] at h
      rw [← h.1]; exact h1
    · exact absurd h (by simp)
    · exact absurd h (by simp)
  have hd := change_homogeneous S L.box hx hz L.junk L.oob L.dx
  have hs := extracted_is_shift S L.box hx hz L.bc L.V L.bcU L.bcV L.junk L.oob L.dx L.f L.admissible (-1)
  obtain ⟨r, h'⟩ := viscoelastic_goes_on S L.visco false (L.flow (-1)) L.o
  refine ⟨r, by rw [← update_absorbs S hx hz false false L.f _ L.t L.o h]; exact h', ?_⟩
  unfold LinearPass.flow at h' ⊢
  rw [hs] at h' ⊢
  obtain ⟨m1, m2, m3⟩ := matrix_is_derivative_partial L.visco L.box L.vol h hd h'
  refine ⟨fun k l hf => ?_, fun k l hf => ?_, fun k l hf => ?_⟩
  · rw [m1 k l hf, L.solves.x k l hf]; ring
  · rw [m2 k l hf, L.solves.z k l hf]; ring
  · rw [m3 k l hf, L.solves.p k l hf]; ring

/-- What the solver adds on the diagonal of the volume equation (Solvers.c:1091). -/
noncomputable def compressibility (S : Setting) : Int → ℝ := S.arr fun c => flag (S.comp c) * (S.cell c).beta / S.m.dt * (S.m.dx * S.m.dz)

/-- Every cell is air, or compressible, or tied to such a cell across faces whose velocities are unknown. -/
def Tied (S : Setting) : Prop := ∀ k l : Nat, k + 1 < S.m.Nx → l + 1 < S.m.Nz → Grounded S.m (compressibility S) k l

private theorem grounded_with {S : Setting} {o : Ops} {rho : Nat → ℝ} {b : Int → ℝ} {k l : Nat} (h : Grounded S.m b k l) : Grounded (meshWith S o rho) b k l := by
  induction h with
  | air k l ht => exact .air k l ht
  | compressible k l hb => exact .compressible k l hb
  | east k l hk hl ht _ ih => exact .east k l hk hl ht ih
  | west k l hk hl ht _ ih => exact .west k l hk hl ht ih
  | north k l hk hl ht _ ih => exact .north k l hk hl ht ih
  | south k l hk hl ht _ ih => exact .south k l hk hl ht ih

private theorem compressibility_nonneg {S : Setting} (hS : Viscoelastic S) (hB : Box S) {rho : Nat → ℝ} (hD : Determined S rho) (o : Ops) (rho' : Nat → ℝ) (c : Int)
    (hc : SNode.p c ∈ rockNodes (meshWith S o rho')) : 0 ≤ compressibility S c := by
  obtain ⟨k, l, q, -⟩ := (mem_rock _ _).1 hc
  replace q : c = (k : Int) + l * ((S.m.Nx : Int) - 1) := by simp only [SNode.p.injEq] at q; exact q
  have e : ((k : Int) + l * ((S.m.Nx : Int) - 1)) = ((k + l * (S.m.Nx - 1) : Nat) : Int) := by rw [nx_cast hS hB]; push_cast; ring
  unfold compressibility
  rw [q, e, arr_at]
  have h1 : (0 : ℝ) ≤ flag (S.comp (k + l * (S.m.Nx - 1))) := by unfold flag; split <;> norm_num
  exact mul_nonneg (div_nonneg (mul_nonneg h1 (hD.beta _)) hD.dt.le) (mul_pos hD.dx hD.dz).le

/-- C152 (partial).  As `one_flow_partial`: pressures too, if the equations tie down the pressure of every cell. -/
theorem one_pressure_partial {S : Setting} (hS : Viscoelastic S) (hB : Box S) (hvol : S.vol = false) {V : BCVals ℝ} {f g : LS.Fields} (hf : Admissible S V f)
    (hg : Admissible S V g) (hp : SamePrescribed S f g) {t a b : Mech} (hD : Determined S t.rho) (hT : Tied S) (ha : updateNL S false f t = .ok a)
    (hb : updateNL S false g t = .ok b) (bf : Balanced S (rows S (opsOf S a) f a)) (bg : Balanced S (rows S (opsOf S b) g b)) : f.p = g.p := by
  have hn := differ_no_source hS hB hvol hf hg hp ha hb bf bg
  have hrho : b.rho = t.rho := by
    obtain ⟨-, -, -, -, -, -, q, -⟩ := updateNL_ok hb
    rw [q, hvol]; rfl
  have hstab : StableOrOff (meshWith S (opsOf S b) b.rho) := by rw [hrho]; exact hD.stable
  have idx : ∀ k l : Nat, ((k : Int) + l * ((S.m.Nx : Int) - 1)) = ((k + l * (S.m.Nx - 1) : Nat) : Int) := fun k l => by
    rw [nx_cast hS hB]; push_cast; ring
  have hNx := hS.Nx
  funext i
  by_cases hi : i < (S.m.Nz - 1) * (S.m.Nx - 1)
  swap
  · rw [hf.p i (not_lt.1 hi), hg.p i (not_lt.1 hi)]
  obtain ⟨k, l, hk, hl, rfl⟩ : ∃ k l, k < S.m.Nx - 1 ∧ l < S.m.Nz - 1 ∧ i = k + l * (S.m.Nx - 1) :=
    ⟨i % (S.m.Nx - 1), i / (S.m.Nx - 1), Nat.mod_lt _ (by omega), (Nat.div_lt_iff_lt_mul (by omega : 0 < S.m.Nx - 1)).2 hi, by
      rw [mul_comm]; exact (Nat.mod_add_div i (S.m.Nx - 1)).symm⟩
  have := pressure_no_source _ (viscous_in hS hB hb) (walls hS hB _ _) hstab hD.dx hD.dz (rock_of hS hB hb hD.rock)  _
    (compressibility_nonneg hS hB hD _ _) _ hn k l (grounded_with (hT k l (by omega) (by omega))) (by show k + 1 < S.m.Nx; omega) (by show l + 1 < S.m.Nz; omega)
  replace this : S.arr (differ f g).p ((k : Int) + l * ((S.m.Nx : Int) - 1)) = 0 := this
  rw [idx, arr_at] at this
  exact sub_eq_zero.1 this

/-- Node of the matrix rows that an unknown of the numbering is. -/
private def nodeOf : Dof → SNode
  | .u k => .u k
  | .v k => .v k
  | .p k => .p k

/-- A solution vector with given values at the nodes solved for. -/
private theorem vector_with (S : Setting) (hB : Box S) (hx : 2 ≤ S.m.Nx) (junk : Nat → Int) (y : SNode → ℝ) : ∃ dx : Nat → ℝ,
    ∀ d : Dof, d.InGrid S.m.Nx S.m.Nz → d.Solved (tagsOf S) → dx (d.eqn (evalNumberOfEquations S.m.Nx S.m.Nz (tagsOf S) junk)).toNat = y (nodeOf d) := by
  classical
  obtain ⟨h1, h2, -⟩ := numbering_bijective S.m.Nx S.m.Nz hx (tagsOf S) junk hB.tags.east
  refine ⟨fun e => if h : ∃ d : Dof, d.InGrid S.m.Nx S.m.Nz ∧ d.Solved (tagsOf S)
    ∧ (d.eqn (evalNumberOfEquations S.m.Nx S.m.Nz (tagsOf S) junk)).toNat = e then y (nodeOf h.choose) else 0, fun d hd hs => ?_⟩
  have hex : ∃ d' : Dof, d'.InGrid S.m.Nx S.m.Nz ∧ d'.Solved (tagsOf S)
    ∧ (d'.eqn (evalNumberOfEquations S.m.Nx S.m.Nz (tagsOf S) junk)).toNat = (d.eqn (evalNumberOfEquations S.m.Nx S.m.Nz (tagsOf S) junk)).toNat := ⟨d, hd, hs, rfl⟩
  refine (dif_pos hex).trans ?_
  obtain ⟨c1, c2, c3⟩ := hex.choose_spec
  have e1 := (h1 _ c1 c2).1
  have e2 := (h1 _ hd hs).1
  rw [h2 _ _ c1 hd c2 hs (by omega)]

/-- Right-hand sides at the nodes. -/
def sourceAt (S : Setting) (R : Rows) : SNode → ℝ
  | .u i => R.x (colOf S.m.Nx i) (rowOf S.m.Nx i)
  | .v i => R.z (colOf (S.m.Nx + 1) i) (rowOf (S.m.Nx + 1) i)
  | .p i => R.p i.toNat

/-- A solution at the nodes gives a solution vector. -/
theorem vector_solves {S : Setting} (hS : Viscoelastic S) (hB : Box S) (o : Mech) (R : Rows) (y : SNode → ℝ)
    (y1 : ∀ n ∉ velNodes (meshWith S (opsOf S o) o.rho) ∪ rockNodes (meshWith S (opsOf S o) o.rho), y n = 0)
    (y2 : ∀ n ∈ velNodes (meshWith S (opsOf S o) o.rho) ∪ rockNodes (meshWith S (opsOf S o) o.rho),
      stokesRow (meshWith S (opsOf S o) o.rho) (compressibility S) y n = sourceAt S R n)
    (junk : Nat → Int) (oob : ℝ) : ∃ dx, Solves S o R (changeOf S junk oob dx) := by
  have hx := hS.Nx
  have hz := hS.Nz
  have idx : ∀ k l : Nat, ((k : Int) + l * ((S.m.Nx : Int) - 1)) = ((k + l * (S.m.Nx - 1) : Nat) : Int) := fun k l => by
    rw [nx_cast hS hB]; push_cast; ring
  have idu : ∀ k l : Nat, ((k : Int) + l * (S.m.Nx : Int)) = ((k + l * S.m.Nx : Nat) : Int) := fun k l => by push_cast; ring
  have idv : ∀ k l : Nat, ((k : Int) + l * ((S.m.Nx : Int) + 1)) = ((k + l * (S.m.Nx + 1) : Nat) : Int) := fun k l => by push_cast; ring
  have uin : ∀ i l, i < S.m.Nx → l ≤ S.m.Nz → i + l * S.m.Nx < (S.m.Nz + 1) * S.m.Nx := fun i l hi hl => by
    rw [mul_comm (S.m.Nz + 1)]; exact cell_lt _ _ _ _ hi (by omega)
  have vin : ∀ i l, i ≤ S.m.Nx → l < S.m.Nz → i + l * (S.m.Nx + 1) < S.m.Nz * (S.m.Nx + 1) := fun i l hi hl => by
    rw [mul_comm S.m.Nz]; exact cell_lt _ _ _ _ (by omega) (by omega)
  have pin : ∀ i l, i < S.m.Nx - 1 → l < S.m.Nz - 1 → i + l * (S.m.Nx - 1) < (S.m.Nz - 1) * (S.m.Nx - 1) := fun i l hi hl => by
    rw [mul_comm (S.m.Nz - 1)]; exact cell_lt _ _ _ _ hi hl
  have hw := walls hS hB (opsOf S o) o.rho
  obtain ⟨dx, hdx⟩ := vector_with S hB hx junk y
  refine ⟨dx, ?_⟩
  obtain ⟨c1, c2, -⟩ := change_bc S hB hx hz junk oob dx
  have e0 : changeOf S junk oob dx = clip S (extractSolutions S.m.Nx S.m.Nz (tagsOf S) ⟨fun _ => 0, fun _ => 0⟩
    (evalNumberOfEquations S.m.Nx S.m.Nz (tagsOf S) junk) oob dx (1 : ℝ) ⟨fun _ => 0, fun _ => 0, fun _ => 0⟩) := by
    unfold changeOf extracted
    simp [inner, unclip, clip]
  rw [e0]
  generalize extractSolutions S.m.Nx S.m.Nz (tagsOf S) ⟨fun _ => 0, fun _ => 0⟩ (evalNumberOfEquations S.m.Nx S.m.Nz (tagsOf S) junk) oob dx
      (1 : ℝ) ⟨fun _ => 0, fun _ => 0, fun _ => 0⟩ = e at c1 c2 e0
  have hval : ∀ n, Weighted (meshWith S (opsOf S o) o.rho) n → atNode (S.arr (clip S e).u) (S.arr (clip S e).v) (S.arr (clip S e).p) n = y n := by
    intro n hn
    have hnm : (meshWith S (opsOf S o) o.rho).tag n ≠ -1 → y n = 0 := fun ht => y1 n fun q => ht (by
      rcases Finset.mem_union.1 q with q | q
      · rcases (mem_nodes _ n).1 q with ⟨k, l, rfl, -, -, -, -, ht⟩ | ⟨k, l, rfl, -, -, -, -, ht⟩ <;> exact ht
      · obtain ⟨k, l, rfl, -, -, ht⟩ := (mem_rock _ n).1 q; exact ht)
    rcases n with i | i | i
    · obtain ⟨⟨k, l, hk, hl, rfl⟩, n1, n2⟩ := hn
      have hi := uin k l hk hl
      replace hnm : S.m.tu ((k : Int) + l * (S.m.Nx : Int)) ≠ -1 → y (.u ((k : Int) + l * (S.m.Nx : Int))) = 0 := hnm
      replace n1 : S.m.tu ((k : Int) + l * (S.m.Nx : Int)) ≠ 11 := n1
      replace n2 : S.m.tu ((k : Int) + l * (S.m.Nx : Int)) ≠ 13 := n2
      show S.arr (clip S e).u ((k : Int) + l * (S.m.Nx : Int)) = y (.u ((k : Int) + l * (S.m.Nx : Int)))
      rw [idu] at n1 n2 hnm ⊢
      rw [arr_at]
      simp only [clip, if_pos hi]
      by_cases ht : S.m.tu (k + l * S.m.Nx : Nat) = -1
      · rw [show e.u (k + l * S.m.Nx) = Dof.value e (.u (k + l * S.m.Nx)) from rfl, c1 (.u (k + l * S.m.Nx)) hi (Or.inl ht), hdx (.u (k + l * S.m.Nx)) hi (Or.inl ht)]
        rfl
      · rw [hnm ht]
        refine c2 (.u (k + l * S.m.Nx)) hi ?_
        have := fixed_tag_u hS hB k l hk hl ht n1 n2
        exact this.imp id Or.inl
    · obtain ⟨⟨k, l, hk, hl, rfl⟩, n1, n2⟩ := hn
      have hi := vin k l hk hl
      replace hnm : S.m.tv ((k : Int) + l * ((S.m.Nx : Int) + 1)) ≠ -1 → y (.v ((k : Int) + l * ((S.m.Nx : Int) + 1))) = 0 := hnm
      replace n1 : S.m.tv ((k : Int) + l * ((S.m.Nx : Int) + 1)) ≠ 11 := n1
      replace n2 : S.m.tv ((k : Int) + l * ((S.m.Nx : Int) + 1)) ≠ 13 := n2
      show S.arr (clip S e).v ((k : Int) + l * ((S.m.Nx : Int) + 1)) = y (.v ((k : Int) + l * ((S.m.Nx : Int) + 1)))
      rw [idv] at n1 n2 hnm ⊢
      rw [arr_at]
      simp only [clip, if_pos hi]
      by_cases ht : S.m.tv (k + l * (S.m.Nx + 1) : Nat) = -1
      · rw [show e.v (k + l * (S.m.Nx + 1)) = Dof.value e (.v (k + l * (S.m.Nx + 1))) from rfl, c1 (.v (k + l * (S.m.Nx + 1))) hi (Or.inl ht),
          hdx (.v (k + l * (S.m.Nx + 1))) hi (Or.inl ht)]
        rfl
      · rw [hnm ht]
        refine c2 (.v (k + l * (S.m.Nx + 1))) hi ?_
        have := fixed_tag_v hS hB k l hk hl ht n1 n2
        exact this.imp id Or.inl
    · obtain ⟨k, l, hk, hl, rfl⟩ := hn
      have hk' : k + 1 < S.m.Nx := hk
      have hl' : l + 1 < S.m.Nz := hl
      have hi := pin k l (by omega) (by omega)
      replace hnm : S.m.tp ((k : Int) + l * ((S.m.Nx : Int) - 1)) ≠ -1 → y (.p ((k : Int) + l * ((S.m.Nx : Int) - 1))) = 0 := hnm
      show S.arr (clip S e).p ((k : Int) + l * ((S.m.Nx : Int) - 1)) = y (.p ((k : Int) + l * ((S.m.Nx : Int) - 1)))
      rw [idx] at hnm ⊢
      rw [arr_at]
      simp only [clip, if_pos hi]
      by_cases ht : S.m.tp (k + l * (S.m.Nx - 1) : Nat) = -1
      · rw [show e.p (k + l * (S.m.Nx - 1)) = Dof.value e (.p (k + l * (S.m.Nx - 1))) from rfl, c1 (.p (k + l * (S.m.Nx - 1))) hi ht,
          hdx (.p (k + l * (S.m.Nx - 1))) hi ht]
        rfl
      · rw [hnm ht]
        refine c2 (.p (k + l * (S.m.Nx - 1))) hi ?_
        have h0 := hB.tags.p _ hi
        simp only [Dof.tag, tagsOf, List.mem_cons, List.not_mem_nil, or_false] at h0 ⊢
        omega
  refine ⟨fun k l hf => ?_, fun k l hf => ?_, fun k l hf => ?_⟩
  · obtain ⟨k0, hk, l0, hl, ht⟩ := hf
    rw [← idu] at ht
    have hrow := y2 (.u ((k : Int) + l * (S.m.Nx : Int))) (Finset.mem_union_left _ ((mem_nodes _ _).2 (Or.inl ⟨k, l, rfl, k0, hk, l0, hl, ht⟩)))
    have g1 := velRow_u (meshWith S (opsOf S o) o.rho) k l (by show k < S.m.Nx; omega)
    have g2 := gradRow_u (meshWith S (opsOf S o) o.rho) k l (by show k < S.m.Nx; omega)
    simp only [stokesRow, divRow, List.append_nil, weight, zero_mul, add_zero, sourceAt] at hrow
    rw [colOf_mk S.m.Nx (k : Int) (l : Int) (by omega) (by omega), rowOf_mk S.m.Nx (k : Int) (l : Int) (by omega) (by omega)] at hrow
    replace hrow := (congrArg₂ (fun a b => applyTo y (a ++ b)) g1 g2).symm.trans hrow
    refine Eq.trans (applyTo_congr _ _ _ fun q hq => ?_) hrow
    exact (x_weighted _ hw k l k0 hk l0 hl ht q hq).imp id (hval _)
  · obtain ⟨k0, hk, l0, hl, ht⟩ := hf
    rw [← idv] at ht
    have hrow := y2 (.v ((k : Int) + l * ((S.m.Nx : Int) + 1))) (Finset.mem_union_left _ ((mem_nodes _ _).2 (Or.inr ⟨k, l, rfl, k0, hk, l0, hl, ht⟩)))
    have g1 := velRow_v (meshWith S (opsOf S o) o.rho) k l (by show k ≤ S.m.Nx; omega)
    have g2 := gradRow_v (meshWith S (opsOf S o) o.rho) k l (by show k ≤ S.m.Nx; omega)
    simp only [stokesRow, divRow, List.append_nil, weight, zero_mul, add_zero, sourceAt] at hrow
    rw [colOf_mk ((S.m.Nx : Int) + 1) (k : Int) (l : Int) (by omega) (by omega), rowOf_mk ((S.m.Nx : Int) + 1) (k : Int) (l : Int) (by omega) (by omega)] at hrow
    replace hrow := (congrArg₂ (fun a b => applyTo y (a ++ b)) g1 g2).symm.trans hrow
    refine Eq.trans (applyTo_congr _ _ _ fun q hq => ?_) hrow
    exact (z_weighted _ hw k l k0 hk l0 hl q hq).imp id (hval _)
  · obtain ⟨hk, hl, ht⟩ := hf
    have hk' : k + 1 < S.m.Nx := by omega
    have hl' : l + 1 < S.m.Nz := by omega
    rw [← idx] at ht
    have hrow := y2 (.p ((k : Int) + l * ((S.m.Nx : Int) - 1))) (Finset.mem_union_right _ ((mem_rock _ _).2 ⟨k, l, rfl, hk', hl', ht⟩))
    have g1 := divRow_p (meshWith S (opsOf S o) o.rho) k l hk'
    simp only [stokesRow, velRow, gradRow, List.nil_append, weight, sourceAt] at hrow
    replace hrow := (congrArg (fun a => applyTo y a + compressibility S ((k : Int) + l * ((S.m.Nx : Int) - 1)) * y (.p ((k : Int) + l * ((S.m.Nx : Int) - 1)))) g1).symm.trans hrow
    have e3 : ((k : Int) + l * ((S.m.Nx : Int) - 1)).toNat = k + l * (S.m.Nx - 1) := by rw [idx]; exact Int.toNat_natCast _
    rw [e3] at hrow
    obtain ⟨e1, e2⟩ := mod_div hS hB (S.m.Nx - 1) k l hk
    have hv := hval (.p ((k : Int) + l * ((S.m.Nx : Int) - 1))) ⟨k, l, hk', hl', rfl⟩
    replace hv : S.arr (clip S e).p ((k : Int) + l * ((S.m.Nx : Int) - 1)) = y (.p ((k : Int) + l * ((S.m.Nx : Int) - 1))) := hv
    rw [← hrow, ← hv]
    simp only [matrixRows, e1, e2]
    unfold compressibility
    rw [idx, arr_at, arr_at]
    congr 1
    exact applyTo_congr _ _ _ fun q hq => Or.inr (hval _ (c_weighted _ hw k l hk' hl' q hq))

/-- C152 (partial).  **The linear system can be solved**: for constant viscosities and elasticity, if the equations tie down every pressure, a solution vector exists for every
starting flow.  Missing: as in `one_flow_partial`. -/
theorem solution_exists_partial {S : Setting} (hS : Viscoelastic S) (hB : Box S) {f : LS.Fields} {t o : Mech} (h : updateNL S false f t = .ok o)
    (hD : Determined S o.rho) (hT : Tied S) (junk : Nat → Int) (oob : ℝ) (R : Rows) : ∃ dx, Solves S o R (changeOf S junk oob dx) := by
  have hstab : StableOrOff (meshWith S (opsOf S o) o.rho) := hD.stable
  have hinn : ∀ n, Weighted (meshWith S (opsOf S o) o.rho) n → (meshWith S (opsOf S o) o.rho).tag n = -1 →
      n ∈ velNodes (meshWith S (opsOf S o) o.rho) ∪ rockNodes (meshWith S (opsOf S o) o.rho) := inner_nodes hS hB
  obtain ⟨y, ⟨y1, y2⟩, -⟩ := stokes_solvable _ (viscous_in hS hB h) (walls hS hB _ _) hstab hD.dx hD.dz (rock_of hS hB h hD.rock)  _
    (compressibility_nonneg hS hB hD _ _) hinn (fun k l hk hl => grounded_with (hT k l hk hl))
    (sourceAt S R)
  exact vector_solves hS hB o R y y1 y2 junk oob

/-- C152 (partial).  **The flow does not depend on the starting flow**: from two starting flows with the same walls and prescribed values, in the same state of the
markers and the grid, one linear solve each (with whatever solution vector the solver returns) leads to the same velocities and the same pressures
of compressible cells.  Missing: as in `one_flow_partial`. -/
theorem start_does_not_matter_partial {S : Setting} (L M : LinearPass S) (ht : L.t = M.t) (hV : L.V = M.V) (hp : SamePrescribed S L.f M.f)
    (hD : Determined S L.t.rho) : (L.flow (-1)).u = (M.flow (-1)).u ∧ (L.flow (-1)).v = (M.flow (-1)).v
    ∧ ∀ k l, FreeP S k l → S.comp (k + l * (S.m.Nx - 1)) = true → 0 < (S.cell (k + l * (S.m.Nx - 1))).beta →
      (L.flow (-1)).p (k + l * (S.m.Nx - 1)) = (M.flow (-1)).p (k + l * (S.m.Nx - 1)) := by
  obtain ⟨a, ha, bf⟩ := L.flow_balanced
  obtain ⟨b, hb, bg⟩ := M.flow_balanced
  rw [← ht] at hb
  have p1 := L.flow_prescribed (-1)
  have p2 := M.flow_prescribed (-1)
  have hq : SamePrescribed S (L.flow (-1)) (M.flow (-1)) :=
    ⟨fun i h => (p1.u i h).trans ((hp.u i h).trans (p2.u i h).symm), fun i h => (p1.v i h).trans ((hp.v i h).trans (p2.v i h).symm),
      fun i h => (p1.p i h).trans ((hp.p i h).trans (p2.p i h).symm)⟩
  have hM := M.flow_admissible (-1)
  rw [← hV] at hM
  obtain ⟨q1, q2, q3, -⟩ := one_flow_partial L.visco L.box L.vol (L.flow_admissible (-1)) hM hq hD ha hb bf bg
  exact ⟨q1, q2, q3⟩

/-- C152 (partial).  **A step has exactly one flow**: for constant viscosities and elasticity, from any starting flow that has the walls' values there is exactly one flow with
those values that balances all equations, and one full solve leads there.  Missing: as in `one_flow_partial`, and cells whose pressure no equation ties down. -/
theorem step_has_one_flow_partial {S : Setting} (hS : Viscoelastic S) (hB : Box S) (hvol : S.vol = false) {V : BCVals ℝ} {f : LS.Fields} (hf : Admissible S V f) (t : Mech)
    (hD : Determined S t.rho) (hT : Tied S) :
    (∃! g, Admissible S V g ∧ SamePrescribed S g f ∧ ∃ a, updateNL S false g t = .ok a ∧ Balanced S (rows S (opsOf S a) g a))
    ∧ ∀ (junk : Nat → Int) (oob : ℝ), ∃ L : LinearPass S, L.f = f ∧ L.t = t ∧ L.V = V ∧ L.junk = junk ∧ L.oob = oob := by
  obtain ⟨o, ho⟩ := viscoelastic_goes_on S hS false f t
  have hrho : o.rho = t.rho := by
    obtain ⟨-, -, -, -, -, -, q, -⟩ := updateNL_ok ho
    rw [q, hvol]; rfl
  have hex : ∀ (junk : Nat → Int) (oob : ℝ), ∃ L : LinearPass S, L.f = f ∧ L.t = t ∧ L.V = V ∧ L.junk = junk ∧ L.oob = oob := by
    intro junk oob
    obtain ⟨dx, hdx⟩ := solution_exists_partial hS hB ho (by rw [hrho]; exact hD) hT junk oob (rows S (opsOf S o) f o)
    exact ⟨⟨hS, hB, hvol, ⟨fun k => 2 * V.u k, fun k => 2 * V.v k⟩, V, fun _ _ => rfl, fun _ _ => rfl, f, hf, t, o, _, by unfold pass; rw [ho], junk, oob, dx, hdx⟩,
      rfl, rfl, rfl, rfl, rfl⟩
  refine ⟨?_, hex⟩
  obtain ⟨L, rfl, rfl, rfl, -, -⟩ := hex (fun _ => -1) 0
  refine ⟨L.flow (-1), ⟨L.flow_admissible _, L.flow_prescribed _, L.flow_balanced⟩, ?_⟩
  rintro g ⟨g1, g2, b, hb, bg⟩
  obtain ⟨a, ha, bf⟩ := L.flow_balanced
  have p1 := L.flow_prescribed (-1)
  have hq : SamePrescribed S g (L.flow (-1)) :=
    ⟨fun i h => (g2.u i h).trans (p1.u i h).symm, fun i h => (g2.v i h).trans (p1.v i h).symm, fun i h => (g2.p i h).trans (p1.p i h).symm⟩
  obtain ⟨q1, q2, -⟩ := one_flow_partial hS hB hvol g1 (L.flow_admissible (-1)) hq hD hb ha bg bf
  have q3 := one_pressure_partial hS hB hvol g1 (L.flow_admissible (-1)) hq hD hT hb ha bg bf
  obtain ⟨gu, gv, gp⟩ := g
  dsimp only at q1 q2 q3
  subst q1 q2 q3
  rfl

/-- The hypotheses are met: the plate is determined, and its solve from a flow with one node moved is one of the passes. -/
theorem plate_determined (rho : Nat → ℝ) : Determined plate rho where
  dx := by norm_num [plate, plateMesh, boxMesh, blockMesh]
  dz := by norm_num [plate, plateMesh, boxMesh, blockMesh]
  dt := by norm_num [plate, plateMesh, boxMesh, blockMesh]
  beta := fun c => by norm_num [plate, box, block, Point.halfHalf]
  stable := fun h => by simp [meshRho, plate, plateMesh, boxMesh, blockMesh] at h
  rock := Or.inl fun k l _ _ => ⟨by simp [unitMesh, plate, plateMesh, boxMesh, blockMesh], by norm_num [unitMesh]⟩

/-- From any starting flow with the same walls the plate comes to rest. -/
example (t : Mech) (M : LinearPass plate) (ht : M.t = t) (hV : M.V = ⟨fun _ => 0, fun _ => 0⟩) (hp : SamePrescribed plate bump M.f) :
    (M.flow (-1)).u = rest.u ∧ (M.flow (-1)).v = rest.v := by
  obtain ⟨L, h1, h2, h3, h4, -⟩ := plate_linear t
  obtain ⟨q1, q2, -⟩ := start_does_not_matter_partial L M (h2.trans ht.symm) (h3.trans hV.symm) (by rw [h1]; exact hp) (plate_determined _)
  rw [h4] at q1 q2
  exact ⟨q1.symm, q2.symm⟩

/-- The plate, a little compressible. -/
noncomputable def spring : Setting := { plate with comp := fun _ => true, cell := fun c => { plate.cell c with beta := 1 / 10 ^ 11 } }

private theorem spring_tied : Tied spring := fun k l hk hl => by
  have h5 : k + 1 < 5 := hk
  have h6 : l + 1 < 5 := hl
  refine .compressible k l ?_
  have e : ((k : Int) + l * ((spring.m.Nx : Int) - 1)) = ((k + l * 4 : Nat) : Int) := by
    rw [show (spring.m.Nx : Int) = 5 from rfl]; push_cast; ring
  rw [e]
  unfold compressibility
  rw [arr_at]
  norm_num [spring, plate, plateMesh, boxMesh, blockMesh, flag]

/-- The hypotheses of `step_has_one_flow_partial` are met: the compressible plate, from a flow with one node moved. -/
example (t : Mech) : ∃! g, Admissible spring ⟨fun _ => 0, fun _ => 0⟩ g ∧ SamePrescribed spring g bump
    ∧ ∃ a, updateNL spring false g t = .ok a ∧ Balanced spring (rows spring (opsOf spring a) g a) := by
  obtain ⟨L, h1, -, h3, -⟩ := plate_linear t
  have ha := L.admissible
  rw [h1, h3] at ha
  have hv := plate_viscoelastic
  have hb := plate_box
  have hd := plate_determined t.rho
  exact (step_has_one_flow_partial (S := spring) ⟨hv.Nx, hv.Nz, hv.minEta, hv.limits, hv.dt, hv.R, hv.sE, hv.sT, hv.sS, hv.sL, hv.sEta, hv.mixing, hv.mats,
    hv.cells, hv.verts, hv.touch⟩ ⟨hb.dx, hb.dz, hb.tags, hb.ghosts, hb.periodicU, hb.periodicV, hb.cells, hb.freeU, hb.freeV⟩ rfl
    ⟨ha.bc, ha.u, ha.v, ha.p⟩ t ⟨hd.dx, hd.dz, hd.dt, fun c => by norm_num [spring], hd.stable, hd.rock⟩ spring_tied).1

end Verif.StepFlow
