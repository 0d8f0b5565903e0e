import Verif.Props.Maxwell
import Verif.Props.HistoryUpdate
import Verif.Model.StressCycle
import Mathlib.Analysis.SpecialFunctions.Complex.LogBounds
import Mathlib.Analysis.SpecialFunctions.ExpDeriv

/- C156: stresses go from the markers to the grid and back. -/
set_option linter.unusedSimpArgs false

namespace Verif.StepFlow
open Verif Verif.Hist Finset

/-- Markers lie in the model box whose lower left corner is `(x0, z0)`, and every cell and every vertex is rock with a marker near it. -/
structure WellFed (S : Setting) (C : Carriers) (x0 z0 : ℝ) : Prop where
  cells : C.s.Ok C.n x0 z0
  nx : C.s.fam.Nx = S.m.Nx - 1
  nz : C.s.fam.Nz = S.m.Nz - 1
  verts : P2M.Ok C.vfam C.s.ms C.n x0 z0
  vnx : C.vfam.Nx = S.m.Nx
  vnz : C.vfam.Nz = S.m.Nz
  inside : ∀ k < C.n, (C.s.ms k).phase ≠ -1 →
    Interp.InGrid C.vfam.Nx C.vfam.Nz C.vfam.X C.vfam.Z x0 z0 C.vfam.dx C.vfam.dz (C.s.ms k).x (C.s.ms k).z
  fedC : ∀ c < C.s.fam.Nx, ∀ r < C.s.fam.Nz, P2M.Fed C.s.fam C.s.ms C.n (fun c => S.m.tp c) c r
  fedV : ∀ c < C.vfam.Nx, ∀ r < C.vfam.Nz, P2M.Fed C.vfam C.s.ms C.n (fun c => S.m.tg c) c r

/-- The active markers all carry the same. -/
def Carry {α : Type*} (C : Carriers) (f : Nat → α) (y : α) : Prop := ∀ k < C.n, (C.s.ms k).phase ≠ -1 → f k = y

/-- What all active markers carry, every fed node gets. -/
theorem field_uniform {g : P2M.Fam ℝ} {ms : Nat → P2M.Mk ℝ} {n : Nat} {x0 z0 : ℝ} (ok : P2M.Ok g ms n x0 z0) (hx : 2 ≤ g.Nx) {ls : List (List Nat)} (hd : Distribution n ls)
    (tag : Nat → Int) (f val : Nat → ℝ) (y : ℝ) (hy : ∀ k < n, (ms k).phase ≠ -1 → val k = y) (hfed : ∀ c < g.Nx, ∀ r < g.Nz, P2M.Fed g ms n tag c r)
    {c r : Nat} (hc : c < g.Nx) (hr : r < g.Nz) : P2M.field g Real.log Real.exp 0 ms val ls tag f (c + r * g.Nx) = y := by
  have := P2M.arithmetic_average_between ok hx Real.log Real.exp val hd tag f c r hc hr (fun c' hc' => hfed c' (P2M.sources_lt hx hc hc') r hr) y y
    (fun c' _ k hk hw => by
      have : (ms k).phase ≠ -1 := by
        intro h; simp [P2M.markerWeight, h] at hw
      rw [hy k hk this]; exact ⟨le_rfl, le_rfl⟩)
  exact le_antisymm this.2 this.1

section
variable {S : Setting} {C : Carriers} {x0 z0 : ℝ}

/-- Old stresses of the grid when all markers carry the same stress. -/
theorem toGrid_uniform (h : SameEverywhere S) (hC : WellFed S C x0 z0) {sig : Nat → Dev} {σ : Dev} (hs : Carry C sig σ) (b : OldStress) :
    (∀ c < S.ncells, (toGrid S C sig b).xx c = σ.xx ∧ (toGrid S C sig b).zz c = σ.zz ∧ (toGrid S C sig b).xzN c = σ.xz)
    ∧ ∀ c < S.nverts, (toGrid S C sig b).xxS c = σ.xx ∧ (toGrid S C sig b).zzS c = σ.zz ∧ (toGrid S C sig b).xz c = σ.xz := by
  have hx := h.Nx
  have hz := h.Nz
  have split : ∀ n m i : Nat, 0 < n → i < n * m → ∃ k l, k < n ∧ l < m ∧ i = k + l * n := fun n m i hn hi =>
    ⟨i % n, i / n, Nat.mod_lt _ hn, Nat.div_lt_of_lt_mul hi, by rw [mul_comm]; exact (Nat.mod_add_div i n).symm⟩
  have cell : ∀ (val f : Nat → ℝ) (y : ℝ), (∀ k < C.n, (C.s.ms k).phase ≠ -1 → val k = y) → ∀ c < S.ncells,
      P2M.field C.s.fam Real.log Real.exp 0 C.s.ms val C.s.ls (fun c => S.m.tp c) f c = y := fun val f y hy c hc => by
    obtain ⟨k, l, hk, hl, rfl⟩ := split (S.m.Nx - 1) (S.m.Nz - 1) c (by omega) hc
    have := field_uniform hC.cells.p2m hC.cells.nx hC.cells.dist (fun c => S.m.tp c) f val y hy hC.fedC (c := k) (r := l) (by rw [hC.nx]; exact hk) (by rw [hC.nz]; exact hl)
    rwa [hC.nx] at this
  have vert : ∀ (val f : Nat → ℝ) (y : ℝ), (∀ k < C.n, (C.s.ms k).phase ≠ -1 → val k = y) → ∀ k < S.m.Nx, ∀ l < S.m.Nz,
      P2M.field C.vfam Real.log Real.exp 0 C.s.ms val C.s.ls (fun c => S.m.tg c) f (k + l * S.m.Nx) = y := fun val f y hy k hk l hl => by
    have := field_uniform hC.verts (by rw [hC.vnx]; exact hx) hC.cells.dist (fun c => S.m.tg c) f val y hy hC.fedV (c := k) (r := l) (by rw [hC.vnx]; exact hk) (by rw [hC.vnz]; exact hl)
    rwa [hC.vnx] at this
  have xx := cell (fun k => (sig k).xx) b.xx σ.xx fun k hk hp => by rw [hs k hk hp]
  have zz := cell (fun k => (sig k).zz) b.zz σ.zz fun k hk hp => by rw [hs k hk hp]
  have xz := vert (fun k => (sig k).xz) b.xz σ.xz fun k hk hp => by rw [hs k hk hp]
  refine ⟨fun c hc => ⟨xx c hc, zz c hc, ?_⟩, fun c hc => ⟨toVerts_same S h _ _ _ xx c hc, toVerts_same S h _ _ _ zz c hc, ?_⟩⟩
  · obtain ⟨k, l, hk, hl, rfl⟩ := split (S.m.Nx - 1) (S.m.Nz - 1) c (by omega) hc
    refine (GridField.verticesToCentroids_spec S.m.Nx S.m.Nz (fun c => S.m.tp c) _ b.xzN k l hk hl).trans ?_
    rw [if_neg (show ¬ Spec.AirFlag _ from h.rock _), xz k (by omega) l (by omega), xz (k + 1) (by omega) l (by omega), xz k (by omega) (l + 1) (by omega),
      xz (k + 1) (by omega) (l + 1) (by omega)]
    ring
  · obtain ⟨k, l, hk, hl, rfl⟩ := split S.m.Nx S.m.Nz c (by omega) hc
    exact xz k hk l hl

/-- A value common to all vertices reaches every active marker. -/
theorem allMarkers_uniform (hC : WellFed S C x0 z0) (F : Int → ℝ) (tag : Int → Int) (y : ℝ) (hF : ∀ c < S.nverts, F (c : Nat) = y) :
    ∃ a, allMarkers C F tag = some a ∧ Carry C a y := by
  have key : ∀ k < C.n, (C.s.ms k).phase ≠ -1 → vertToMarker C F tag k = some y := fun k hk hp => by
    obtain ⟨v, hv, -, j, i, hj, hi, -, -, -, -, hb⟩ := Interp.vertex_field_interpolation (hC.inside k hk hp) true F tag
    have hy := hb y y fun j' hj' i' hi' => by
      have e : ((j' : Int) + (i' : Int) * (C.vfam.Nx : Int)) = ((j' + i' * S.m.Nx : Nat) : Int) := by rw [hC.vnx]; push_cast; ring
      have j1 : j' < S.m.Nx := by rw [← hC.vnx]; simp at hj'; omega
      have i1 : i' < S.m.Nz := by rw [← hC.vnz]; simp at hi'; omega
      rw [e, hF _ (cell_lt _ _ _ _ j1 i1)]
      exact ⟨le_rfl, le_rfl⟩
    unfold vertToMarker
    rw [if_pos hp, hv, le_antisymm hy.2 hy.1]
  refine ⟨fun k => (vertToMarker C F tag k).getD 0, ?_, fun k hk hp => by simp only [key k hk hp, Option.getD_some]⟩
  unfold allMarkers
  rw [if_pos fun k hk => ?_]
  by_cases hp : (C.s.ms k).phase ≠ -1
  · rw [key k hk hp]; rfl
  · unfold vertToMarker; rw [if_neg hp]; rfl

/-- The shear stress of markers that carry the old stress of the grid follows a uniform change of the grid. -/
theorem shear_reaches_markers (h : SameEverywhere S) (hC : WellFed S C x0 z0) {new old : Int → ℝ} {y y' : ℝ} (ho : ∀ c < S.nverts, old (c : Nat) = y)
    (hn : ∀ c < S.nverts, new (c : Nat) = y') (damp : Nat → ℝ) {T : Nat → ℝ} (hT : Carry C T y) {sd : Int} (hsd : sd = 0 ∨ sd = 1 ∨ sd = 2) :
    ∃ a, updateShearStress sd C S.m.tg new old damp T = some a ∧ Carry C a y' := by
  have hx := h.Nx
  have hz := h.Nz
  have plain : ∀ sd : Int, sd = 0 ∨ sd = 1 → ∃ a, updateShearStress sd C S.m.tg new old damp T = some a ∧ Carry C a y' := fun sd hsd => by
    obtain ⟨a, ha, hb⟩ := allMarkers_uniform hC (gridInc [30] S.m.tg new old) S.m.tg (y' - y) fun c hc => by
      unfold gridInc
      rw [if_neg (by simpa using h.rockV c), ho c hc, hn c hc]
    unfold updateShearStress
    rw [if_neg (by omega), if_pos hsd, ha]
    exact ⟨_, rfl, fun k hk hp => by rw [hT k hk hp, hb k hk hp]; ring⟩
  rcases hsd with e | e | e
  · exact plain sd (Or.inl e)
  · exact plain sd (Or.inr e)
  · obtain ⟨m0, h0, b0⟩ := allMarkers_uniform hC old S.m.tg y ho
    have z : ∀ k < C.n, (C.s.ms k).phase ≠ -1 → subgrid C.s T m0 damp k = 0 := fun k hk hp => by
      unfold subgrid
      rw [if_pos hp, hT k hk hp, b0 k hk hp]; ring
    obtain ⟨mr, h1, b1⟩ := allMarkers_uniform hC (fun c => if S.m.tg c ∈ [30] then 0 else (new c - old c)
        - P2M.field C.vfam Real.log Real.exp 0 C.s.ms (subgrid C.s T m0 damp) C.s.ls (fun c => S.m.tg c) (fun _ => 0) c.toNat) S.m.tg (y' - y) fun c hc => by
      have hf : P2M.field C.vfam Real.log Real.exp 0 C.s.ms (subgrid C.s T m0 damp) C.s.ls (fun c => S.m.tg c) (fun _ => 0) c = 0 := by
        have e : c % S.m.Nx + c / S.m.Nx * S.m.Nx = c := by rw [mul_comm]; exact Nat.mod_add_div c S.m.Nx
        have := field_uniform hC.verts (by rw [hC.vnx]; exact hx) hC.cells.dist (fun c => S.m.tg c) (fun _ => 0) _ 0 z hC.fedV (c := c % S.m.Nx) (r := c / S.m.Nx)
          (by rw [hC.vnx]; exact Nat.mod_lt _ (by omega)) (by rw [hC.vnz]; exact Nat.div_lt_of_lt_mul hc)
        rwa [hC.vnx, e] at this
      rw [if_neg (by simpa using h.rockV c), ho c hc, hn c hc, Int.toNat_natCast, hf, sub_zero]
    unfold updateShearStress
    rw [if_pos e, h0]
    dsimp only
    rw [h1]
    exact ⟨_, rfl, fun k hk hp => by rw [if_pos hp, z k hk hp, hT k hk hp, b1 k hk hp]; ring⟩

/-- The stress of markers that carry the old stress of the grid is the new stress of the grid, if both are uniform. -/
theorem toMarkers_uniform (h : SameEverywhere S) (hC : WellFed S C x0 z0) {o : Mech} {g : OldStress} {σ τ : Dev}
    (gc : ∀ c < S.ncells, g.xx c = σ.xx ∧ g.zz c = σ.zz) (gv : ∀ c < S.nverts, g.xz c = σ.xz)
    (oc : ∀ c < S.ncells, (o.cells c).T.xx = τ.xx ∧ (o.cells c).T.zz = τ.zz) (ov : ∀ c < S.nverts, (o.verts c).T.xz = τ.xz)
    {sig : Nat → Dev} (hs : Carry C sig σ) {sd : Int} (hsd : sd = 0 ∨ sd = 1 ∨ sd = 2) (rot : Int) (dt : ℝ) (damp wxz : Nat → ℝ) :
    ∃ out, toMarkers S C sd rot dt damp wxz o g sig = some out ∧ Carry C out τ := by
  have hx := h.Nx
  have hz := h.Nz
  obtain ⟨a, ha, hb⟩ := shear_reaches_markers h hC (new := fun c => (o.verts c.toNat).T.xz) (old := fun c => g.xz c.toNat) (y := σ.xz) (y' := τ.xz)
    (fun c hc => by simpa using gv c hc) (fun c hc => by simpa using ov c hc) damp (T := fun k => (sig k).xz) (fun k hk hp => by beta_reduce; rw [hs k hk hp]) hsd
  have normal : ∀ (new old : Nat → ℝ) (T : Nat → ℝ) (y y' : ℝ), (∀ c < S.ncells, old c = y) → (∀ c < S.ncells, new c = y') → Carry C T y →
      Carry C (updateNormalStress 1 sd C.s Real.log Real.exp S.m.tp (fun c => new c.toNat) (fun c => old c.toNat) damp T) y' := by
    intro new old T y y' h1 h2 hT k hk hp
    have idx : ∀ c < C.s.fam.Nx, ∀ r < C.s.fam.Nz, c + r * C.s.fam.Nx < S.ncells := fun c hc r hr => by
      rw [hC.nx] at hc ⊢
      exact cell_lt _ _ _ _ hc (by rw [← hC.nz]; exact hr)
    have tm : ∀ k < C.n, (C.s.ms k).phase ≠ -1 → T k = C.s.toMarker (fun c => old c.toNat) S.m.tp k := fun k hk hp => by
      have := toMarker_between hC.cells (fun c => old c.toNat) S.m.tp hk hp y y fun c hc r hr => by
        rw [cellNat, h1 _ (idx c hc r hr)]; exact ⟨le_rfl, le_rfl⟩
      rw [hT k hk hp, le_antisymm this.2 this.1]
    have := (stress_change_reaches_markers hC.cells Real.log Real.exp S.m.tp (fun c => new c.toNat) (fun c => old c.toNat) (y' - y) damp T (fun c hc r hr => by
      have e : ((c : Int) + r * C.s.fam.Nx) = ((c + r * C.s.fam.Nx : Nat) : Int) := by push_cast; ring
      refine ⟨by rw [e]; simpa using h.rock (c + r * C.s.fam.Nx), ?_⟩
      rw [cellNat, h1 _ (idx c hc r hr), h2 _ (idx c hc r hr)]; ring) tm hk hp).1 sd hsd
    rw [this, hT k hk hp]; ring
  unfold toMarkers
  rw [ha]
  refine ⟨_, rfl, fun k hk hp => ?_⟩
  rw [(stress_never_rotated hC.verts (by rw [hC.vnx]; exact hx) Real.log Real.exp hC.cells.dist (fun c => S.m.tg c) rot dt wxz _).1]
  have n1 := normal (fun c => (o.cells c).T.xx) g.xx (fun k => (sig k).xx) σ.xx τ.xx (fun c hc => (gc c hc).1) (fun c hc => (oc c hc).1) (fun k hk hp => by beta_reduce; rw [hs k hk hp]) k hk hp
  have n2 := normal (fun c => (o.cells c).T.zz) g.zz (fun k => (sig k).zz) σ.zz τ.zz (fun c hc => (gc c hc).2) (fun c hc => (oc c hc).2) (fun k hk hp => by beta_reduce; rw [hs k hk hp]) k hk hp
  rw [n1, n2, hb k hk hp]
end

/-- A Maxwell body in pure shear at the beginning of a step of length `dt`: all rock, the same everywhere, incompressible, of density `r`, markers everywhere. -/
structure MaxwellBody (S : Setting) (C : Carriers) (eta G r dt eps : ℝ) (x z : Nat → ℝ) (bu bv : Setup.Side ℝ) (x0 z0 : ℝ) : Prop where
  shear : PureShear S eps x z bu bv
  same : SameEverywhere S
  body : Maxwell S eta G
  markers : WellFed S C x0 z0
  vol : S.vol = false
  still : ∀ c, S.comp c = false ∧ S.rhsP c = 0
  rhoS : ∀ c : Int, S.body.rhoS c = r
  surf : S.body.surf = false
  dt : S.env.dt = dt
  step : 0 < S.m.dt
  beta : ∀ c : Nat, 0 ≤ (S.cell c).beta

section
variable {S : Setting} {C : Carriers} {eta G r dt eps : ℝ} {x z : Nat → ℝ} {bu bv : Setup.Side ℝ} {x0 z0 : ℝ} (h : MaxwellBody S C eta G r dt eps x z bu bv x0 z0)
include h

theorem MaxwellBody.loaded {sig : Nat → Dev} {σ : Dev} (hs : Carry C sig σ) (b : OldStress) :
    PureShear (load S (toGrid S C sig b)) eps x z bu bv ∧ SameEverywhere (load S (toGrid S C sig b)) ∧ Maxwell (load S (toGrid S C sig b)) eta G
    ∧ (∀ rho, Determined (load S (toGrid S C sig b)) rho)
    ∧ (∀ c < S.ncells, ((load S (toGrid S C sig b)).cell c).old = ⟨σ.xx, σ.zz, σ.xz⟩) ∧ ∀ c < S.nverts, ((load S (toGrid S C sig b)).vert c).old = ⟨σ.xx, σ.zz, σ.xz⟩ := by
  obtain ⟨gc, gv⟩ := toGrid_uniform h.same h.markers hs b
  have s := h.shear
  have q := h.same
  have m := h.body
  have k := m.rocks
  have oc : ∀ c < S.ncells, ((load S (toGrid S C sig b)).cell c).old = ⟨σ.xx, σ.zz, σ.xz⟩ := fun c hc => by
    obtain ⟨e1, e2, e3⟩ := gc c hc
    simp only [load]; rw [e1, e2, e3]
  have ov : ∀ c < S.nverts, ((load S (toGrid S C sig b)).vert c).old = ⟨σ.xx, σ.zz, σ.xz⟩ := fun c hc => by
    obtain ⟨e1, e2, e3⟩ := gv c hc
    simp only [load]; rw [e1, e2, e3]
  have n0 : 0 < S.ncells := by
    have := q.Nx; have := q.Nz
    exact Nat.mul_pos (by omega) (by omega)
  have m0 : 0 < S.nverts := by
    have := q.Nx; have := q.Nz
    exact Nat.mul_pos (by omega) (by omega)
  refine ⟨⟨s.Nx, s.Nz, s.dx, s.dz, s.stepX, s.stepZ, s.vx, s.vz, s.tu, s.tv, s.beyondU, s.beyondV, s.rock⟩,
    ⟨q.Nx, q.Nz, q.dx, q.dz, fun c hc => ?_, fun c hc => ?_, q.rock, q.rockV, q.stab⟩,
    ⟨⟨k.Nx, k.Nz, k.minEta, k.limits, k.dt, k.R, k.sE, k.sT, k.sS, k.sL, k.sEta, k.mixing, k.mats, k.cells, k.verts, k.touch⟩, m.elastic, m.later, m.visc, m.phases, m.cells,
      m.verts, m.stiff, m.ratio, m.ratio', m.low, m.high⟩,
    fun rho => ⟨s.dx, s.dz, h.step, h.beta, fun w => by rw [show (meshRho (load S (toGrid S C sig b)) rho).stab = S.m.stab from rfl, q.stab] at w; exact absurd w (by simp),
      Or.inl s.sealed.rock⟩, oc, ov⟩
  · have a1 := oc c hc
    have a2 := oc 0 n0
    have e := q.cells c hc
    simp only [load] at a1 a2 ⊢
    rw [a1, a2, e]
  · have a1 := ov c hc
    have a2 := ov 0 m0
    have e := q.verts c hc
    simp only [load] at a1 a2 ⊢
    rw [a1, a2, e]

/-- What the step records for a balanced flow. -/
theorem MaxwellBody.recorded {sig : Nat → Dev} {σ : Dev} (hs : Carry C sig σ) (b : OldStress) {p0 : ℝ} {fin : Bool} {t o : Mech}
    (ho : updateNL (load S (toGrid S C sig b)) fin (textbook (load S (toGrid S C sig b)) eps x z r p0) t = .ok o) :
    ∃ τ : Dev, (∀ c < S.ncells, (o.cells c).T = ⟨τ.xx, τ.zz, τ.xz⟩) ∧ (∀ c < S.nverts, (o.verts c).T.xz = τ.xz)
      ∧ Spec.BackwardEuler eta G dt (-eps) σ.xx τ.xx ∧ Spec.BackwardEuler eta G dt eps σ.zz τ.zz ∧ Spec.BackwardEuler eta G dt 0 σ.xz τ.xz := by
  obtain ⟨s, q, m, -, oc, ov⟩ := h.loaded hs b
  have hdt : (load S (toGrid S C sig b)).env.dt = dt := h.dt
  have hnc : (load S (toGrid S C sig b)).ncells = S.ncells := rfl
  have hnv : (load S (toGrid S C sig b)).nverts = S.nverts := rfl
  have hel := m.elastic
  generalize hL : load S (toGrid S C sig b) = L at s q m oc ov hdt hnc hnv ho hel
  obtain ⟨eu, ev, -⟩ := textbook_at L eps x z r p0
  obtain ⟨r1, r2⟩ := patch_rates q (xmin := x 0) (zmin := z 0) (a := 0) (b := -eps) (c := 0) (d := 0) (e := 0) (g := eps) (f := textbook L eps x z r p0)
    ⟨fun k l hk hl => by
      rw [eu k l hk (by omega), (s.coord k 0).1]
      simp only [Spec.linearFlow, Spec.uNode]; ring, fun k l hk hl => by
      rw [ev k l (by omega) hl, (s.coord 0 l).2]
      simp only [Spec.linearFlow, Spec.vNode]; ring⟩ ho
  obtain ⟨t1, t2⟩ := maxwell_recorded m ho
  have z0 : (if L.m.oop then 3 / 2 * (-eps + eps) else -eps + eps) = 0 := by split_ifs <;> ring
  simp only [z0, mul_zero, sub_zero, add_zero, zero_div] at r1 r2
  refine ⟨⟨2 * (eta * (G * L.env.dt) / (eta + G * L.env.dt)) * (-eps + 1 * σ.xx / (L.env.dt * G) / 2),
    2 * (eta * (G * L.env.dt) / (eta + G * L.env.dt)) * (eps + 1 * σ.zz / (L.env.dt * G) / 2),
    2 * (eta * (G * L.env.dt) / (eta + G * L.env.dt)) * (0 + 1 * σ.xz / (L.env.dt * G) / 2)⟩, fun c hc => ?_, fun c hc => ?_, ?_⟩
  · rw [t1 c (by rw [hnc]; exact hc) (q.rock c)]
    have e := (r1 c (by rw [hnc]; exact hc)).2
    rw [Point.Tensor.mk.injEq] at e
    simp only [Point.nodeStress, Point.Node.eff, cellData, hel, if_true, oc c hc, e.1, e.2.1, e.2.2, m.cells c (by rw [hnc]; exact hc)]
  · rw [t2 c (by rw [hnv]; exact hc) (q.rockV c)]
    have e := r2 c (by rw [hnv]; exact hc)
    rw [Point.Tensor.mk.injEq] at e
    simp only [Point.nodeStress, Point.Node.eff, vertData, hel, if_true, ov c hc, e.2.2, m.verts c (by rw [hnv]; exact hc)]
  · rw [← hdt]
    exact ⟨maxwell_euler m _ _ _ rfl, maxwell_euler m _ _ _ rfl, maxwell_euler m _ _ _ rfl⟩

/-- The textbook flow is balanced in a Maxwell body whose markers carry the same stress. -/
theorem MaxwellBody.balanced {sig : Nat → Dev} {σ : Dev} (hs : Carry C sig σ) (b : OldStress) {p0 : ℝ} {t o : Mech} (ht : ∀ c < S.ncells, t.rho c = r)
    (ho : updateNL (load S (toGrid S C sig b)) false (textbook (load S (toGrid S C sig b)) eps x z r p0) t = .ok o) :
    Balanced (load S (toGrid S C sig b)) (rows (load S (toGrid S C sig b)) (opsOf (load S (toGrid S C sig b)) o) (textbook (load S (toGrid S C sig b)) eps x z r p0) o) := by
  obtain ⟨s, q, m, -⟩ := h.loaded hs b
  obtain ⟨τ, tc, tv, -⟩ := h.recorded hs b ho
  have hp := (viscoelastic_linear _ m.rocks false false _ _ t t o o ho ho).1
  exact even_stress_balanced s q.stab q.rockV h.surf h.vol h.still h.rhoS ht ho (fun c hc => ⟨by rw [tc c hc], by rw [tc c hc], (hp c hc (q.rock c)).2⟩) tv
end

/-- One time step of a Maxwell body in pure shear, as far as its stress is concerned: stresses `sig` of the markers to the grid, a balanced flow with the prescribed walls, stresses recorded,
changes back to the markers, which then carry `out`.  Anything may have been in the arrays before. -/
inductive MaxwellStep (eta G dt eps : ℝ) (C : Carriers) (sig out : Nat → Dev) : Prop
  | mk {S : Setting} {r : ℝ} {x z : Nat → ℝ} {bu bv : Setup.Side ℝ} {x0 z0 : ℝ} {b : OldStress} {V : BCVals ℝ} {g f' : LS.Fields} {t a t1 o : Mech} {sd rot : Int} {dtm : ℝ} {damp wxz : Nat → ℝ}
    (body : MaxwellBody S C eta G r dt eps x z bu bv x0 z0) (heavy : ∀ c < S.ncells, t.rho c = r) (walls : Admissible (load S (toGrid S C sig b)) V g) (driven : Driven (load S (toGrid S C sig b)) bu bv g)
    (solved : updateNL (load S (toGrid S C sig b)) false g t = .ok a)
    (balanced : Balanced (load S (toGrid S C sig b)) (rows (load S (toGrid S C sig b)) (opsOf (load S (toGrid S C sig b)) a) g a))
    (recorded : finishStep (load S (toGrid S C sig b)) g t1 = .ok (f', o)) (switch : sd = 0 ∨ sd = 1 ∨ sd = 2)
    (back : toMarkers S C sd rot dtm damp wxz o (toGrid S C sig b) sig = some out) : MaxwellStep eta G dt eps C sig out

/-- C156 (one step).  If all active markers carry the same stress, then after a step they again do, and it is the stress of one implicit Euler step of the Maxwell law. -/
theorem maxwell_step {eta G dt eps : ℝ} {C : Carriers} {sig out : Nat → Dev} (h : MaxwellStep eta G dt eps C sig out) {σ : Dev} (hs : Carry C sig σ) :
    ∃ τ : Dev, Carry C out τ ∧ Spec.BackwardEuler eta G dt (-eps) σ.xx τ.xx ∧ Spec.BackwardEuler eta G dt eps σ.zz τ.zz ∧ Spec.BackwardEuler eta G dt 0 σ.xz τ.xz := by
  obtain ⟨hB, hr, hg, hd, ha, hb, hfin, hsd, hout⟩ := h
  rename_i S r x z bu bv x0 z0 b V g f' t a t1 o sd rot dtm damp wxz
  obtain ⟨s, q, m, hD, oc, ov⟩ := hB.loaded hs b
  obtain ⟨g1, g2, p0, g3⟩ := pure_shear_only s m.rocks (r := r) hB.vol (fun c => (hB.still c).1) (hD t.rho) hg hd
    (fun o ho => hB.balanced hs b hr ho) ha hb
  have hft := flow_textbook s hg g1 g2 g3
  have hfin' := (fin_ok hfin).1
  rw [hft] at hfin'
  obtain ⟨τ, tc, tv, e⟩ := hB.recorded hs b hfin'
  obtain ⟨gc, gv⟩ := toGrid_uniform hB.same hB.markers hs b
  obtain ⟨out', h1, h2⟩ := toMarkers_uniform hB.same hB.markers (o := o) (g := toGrid S C sig b) (fun c hc => ⟨(gc c hc).1, (gc c hc).2.1⟩) (fun c hc => (gv c hc).2.2) (fun c hc => by rw [tc c hc]; exact ⟨rfl, rfl⟩) tv hs hsd rot dtm damp wxz
  rw [hout] at h1
  obtain rfl : out = out' := by simpa using h1
  exact ⟨τ, h2, e⟩

/-- C156 (the step exists).  A Maxwell body whose markers carry the same stress always gets through the step, whatever was in the arrays before. -/
theorem maxwell_step_exists {S : Setting} {C : Carriers} {eta G r dt eps : ℝ} {x z : Nat → ℝ} {bu bv : Setup.Side ℝ} {x0 z0 : ℝ} (h : MaxwellBody S C eta G r dt eps x z bu bv x0 z0)
    {sig : Nat → Dev} {σ : Dev} (hs : Carry C sig σ) (b : OldStress) (t t1 : Mech) (ht : ∀ c < S.ncells, t.rho c = r) {sd : Int} (hsd : sd = 0 ∨ sd = 1 ∨ sd = 2) (rot : Int) (dtm : ℝ) (damp wxz : Nat → ℝ) :
    ∃ g f' a o out, updateNL (load S (toGrid S C sig b)) false g t = .ok a
      ∧ Balanced (load S (toGrid S C sig b)) (rows (load S (toGrid S C sig b)) (opsOf (load S (toGrid S C sig b)) a) g a)
      ∧ finishStep (load S (toGrid S C sig b)) g t1 = .ok (f', o) ∧ toMarkers S C sd rot dtm damp wxz o (toGrid S C sig b) sig = some out
      ∧ MaxwellStep eta G dt eps C sig out := by
  obtain ⟨s, q, m, hD, oc, ov⟩ := h.loaded hs b
  obtain ⟨a, ha⟩ := viscoelastic_goes_on _ m.rocks false (textbook (load S (toGrid S C sig b)) eps x z r 0) t
  obtain ⟨o, ho⟩ := viscoelastic_goes_on _ m.rocks true (textbook (load S (toGrid S C sig b)) eps x z r 0) t1
  obtain ⟨w1, w2⟩ := s.textbook_admissible r 0 (⟨fun _ => 0, fun _ => 0⟩ : BCVals ℝ)
  have bal := h.balanced hs b ht ha
  obtain ⟨τ, tc, tv, -⟩ := h.recorded hs b ho
  obtain ⟨gc, gv⟩ := toGrid_uniform h.same h.markers hs b
  obtain ⟨out, h1, h2⟩ := toMarkers_uniform h.same h.markers (o := o) (g := toGrid S C sig b) (fun c hc => ⟨(gc c hc).1, (gc c hc).2.1⟩) (fun c hc => (gv c hc).2.2) (fun c hc => by rw [tc c hc]; exact ⟨rfl, rfl⟩) tv hs hsd rot dtm damp wxz
  obtain ⟨f', hf⟩ : ∃ f', finishStep (load S (toGrid S C sig b)) (textbook (load S (toGrid S C sig b)) eps x z r 0) t1 = .ok (f', o) := by
    unfold finishStep; rw [ho]; exact ⟨_, rfl⟩
  exact ⟨_, f', a, o, out, ha, bal, hf, h1, ⟨h, ht, w1, w2, ha, bal, hf, hsd, h1⟩⟩

/-- The rule determines the next stress. -/
theorem backwardEuler_iff {eta G dt e old new : ℝ} (h1 : 0 < eta) (h2 : 0 < G) (h3 : 0 < dt) :
    Spec.BackwardEuler eta G dt e old new ↔ new = (eta * old + G * dt * (2 * eta * e)) / (eta + G * dt) := by
  unfold Spec.BackwardEuler
  have : 0 < eta + G * dt := by positivity
  constructor
  · intro h
    field_simp at h ⊢
    linarith
  · rintro rfl
    field_simp
    ring

/-- C156.  **Stress history of a Maxwell body**: over any number of steps of any lengths, at any rates of shortening, on any grids, with markers that move, are removed and are replaced by copies
of others, the stress of every marker is that of the implicit Euler rule for the Maxwell law. -/
theorem maxwell_history {eta G : ℝ} (h1 : 0 < eta) (h2 : 0 < G) (dt eps : Nat → ℝ) (hdt : ∀ n, 0 < dt n) (C : Nat → Carriers) (sig out : Nat → Nat → Dev)
    (hstep : ∀ n, MaxwellStep eta G (dt n) (eps n) (C n) (sig n) (out n))
    (hmove : ∀ n, ∀ k < (C (n + 1)).n, ((C (n + 1)).s.ms k).phase ≠ -1 → ∃ j < (C n).n, ((C n).s.ms j).phase ≠ -1 ∧ sig (n + 1) k = out n j)
    (T : Nat → Dev) (hstart : Carry (C 0) (sig 0) (T 0))
    (hT : ∀ n, Spec.BackwardEuler eta G (dt n) (-eps n) (T n).xx (T (n + 1)).xx ∧ Spec.BackwardEuler eta G (dt n) (eps n) (T n).zz (T (n + 1)).zz
      ∧ Spec.BackwardEuler eta G (dt n) 0 (T n).xz (T (n + 1)).xz) (n : Nat) : Carry (C n) (sig n) (T n) ∧ Carry (C n) (out n) (T (n + 1)) := by
  have key : ∀ n, Carry (C n) (sig n) (T n) → Carry (C n) (out n) (T (n + 1)) := fun n hs => by
    obtain ⟨τ, c, e1, e2, e3⟩ := maxwell_step (hstep n) hs
    obtain ⟨f1, f2, f3⟩ := hT n
    rw [backwardEuler_iff h1 h2 (hdt n)] at e1 e2 e3 f1 f2 f3
    have : τ = T (n + 1) := by
      have := congrArg₂ Prod.mk (e1.trans f1.symm) (congrArg₂ Prod.mk (e2.trans f2.symm) (e3.trans f3.symm))
      simp only [Prod.mk.injEq] at this
      rcases hτ : T (n + 1) with ⟨a, b, c⟩
      rw [hτ] at this
      cases τ
      simp only at this
      rw [this.1, this.2.1, this.2.2]
    rwa [← this]
  induction n with
  | zero => exact ⟨hstart, key 0 hstart⟩
  | succ n ih =>
    have : Carry (C (n + 1)) (sig (n + 1)) (T (n + 1)) := fun k hk hp => by
      obtain ⟨j, hj, hp', e⟩ := hmove n k hk hp
      rw [e]; exact ih.2 j hj hp'
    exact ⟨this, key _ this⟩

/-- C156 (loading from rest).  At a constant rate and step the stress after `n` steps is `2 η ε (1 - (1 + G dt/η)^(-n))`; there is no shear stress. -/
theorem maxwell_loading {eta G dt eps : ℝ} (h1 : 0 < eta) (h2 : 0 < G) (hdt : 0 < dt) (C : Nat → Carriers) (sig out : Nat → Nat → Dev)
    (hstep : ∀ n, MaxwellStep eta G dt eps (C n) (sig n) (out n))
    (hmove : ∀ n, ∀ k < (C (n + 1)).n, ((C (n + 1)).s.ms k).phase ≠ -1 → ∃ j < (C n).n, ((C n).s.ms j).phase ≠ -1 ∧ sig (n + 1) k = out n j)
    (hstart : Carry (C 0) (sig 0) ⟨0, 0, 0⟩) (n : Nat) :
    Carry (C n) (out n) ⟨-(2 * eta * eps * (1 - (1 / (1 + G * dt / eta)) ^ (n + 1))), 2 * eta * eps * (1 - (1 / (1 + G * dt / eta)) ^ (n + 1)), 0⟩ := by
  have h := maxwell_history h1 h2 (fun _ => dt) (fun _ => eps) (fun _ => hdt) C sig out hstep hmove
    (fun n => ⟨-(2 * eta * eps * (1 - (1 / (1 + G * dt / eta)) ^ n)), 2 * eta * eps * (1 - (1 / (1 + G * dt / eta)) ^ n), 0⟩) (by simpa using hstart) (fun n => ?_) n
  · exact h.2
  · have hp : 0 < 1 + G * dt / eta := by positivity
    have hq : (1 / (1 + G * dt / eta)) = eta / (eta + G * dt) := by field_simp
    have hs : 0 < eta + G * dt := by positivity
    simp only [backwardEuler_iff h1 h2 hdt, hq]
    generalize hX : (eta / (eta + G * dt)) ^ n = X
    rw [pow_succ, hX]
    refine ⟨?_, ?_, ?_⟩
    · field_simp
      ring
    · field_simp
      ring
    · simp

/-- C156 (convergence).  With `N` steps of length `t/N` the stress at time `t` tends to the exact one, `2 η ε (1 - exp(-G t/η))`. -/
theorem maxwell_converges {eta G eps t : ℝ} :
    Filter.Tendsto (fun N : Nat => 2 * eta * eps * (1 - (1 / (1 + G * (t / N) / eta)) ^ N)) Filter.atTop (nhds (2 * eta * eps * (1 - Real.exp (-(G * t / eta))))) := by
  have h := Real.tendsto_one_add_div_pow_exp (G * t / eta)
  have h' := (h.inv₀ (Real.exp_pos _).ne').const_sub 1 |>.const_mul (2 * eta * eps)
  rw [Real.exp_neg]
  refine h'.congr fun N => ?_
  rw [one_div, inv_pow]
  congr 5
  ring

/-- That limit solves the Maxwell law from rest. -/
theorem maxwell_exact {eta G eps : ℝ} (h1 : eta ≠ 0) :
    (fun t => 2 * eta * eps * (1 - Real.exp (-(G * t / eta)))) 0 = 0 ∧
    ∀ t, HasDerivAt (fun t => 2 * eta * eps * (1 - Real.exp (-(G * t / eta)))) (2 * G * eps - G / eta * (2 * eta * eps * (1 - Real.exp (-(G * t / eta))))) t := by
  refine ⟨by simp, fun t => ?_⟩
  have : HasDerivAt (fun t => -(G * t / eta)) (-(G / eta)) t := by
    have := (((hasDerivAt_id t).const_mul G).div_const eta).fun_neg
    simpa using this
  refine ((this.exp.const_sub 1).const_mul (2 * eta * eps)).congr_deriv ?_
  field_simp
  ring

/-- A marker on every vertex of a grid of cells of one kilometre. -/
noncomputable def onVertices (Nx Nz : Nat) (x0 z0 : ℝ) : Carriers where
  s := { fam := ⟨Nx - 1, Nz - 1, fun j => x0 + 500 + j * 1000, fun j => z0 + 500 + j * 1000, 1000, 1000, false, 9, false⟩
         periodic := false
         junk := ⟨0, 0, 0, 0⟩
         xe := fun j => x0 - 500 + j * 1000
         ze := fun j => z0 - 500 + j * 1000
         ms := fun k => { x := x0 + (k % Nx : Nat) * 1000, z := z0 + (k / Nx : Nat) * 1000, phase := 0 }
         ls := [List.range (Nx * Nz)] }
  vfam := ⟨Nx, Nz, fun j => x0 + j * 1000, fun j => z0 + j * 1000, 1000, 1000, true, 9, false⟩
  n := Nx * Nz

/-- An elastic slab that is already stressed, under its own weight. -/
noncomputable def heavySlab (Nx Nz : Nat) (tu tv : Nat → Int) : Setting :=
  { stressedSlab Nx Nz tu tv with body := (slab Nx Nz tu tv).body }

/-- The hypotheses are met on every grid: a heavy slab of viscosity `1e21` and shear modulus `1e10`, shortened at any rate, at any corner of the model. -/
theorem slab_maxwell (Nx Nz : Nat) (hx : 3 ≤ Nx) (hz : 2 ≤ Nz) (eps x0 z0 : ℝ) : ∃ bu bv,
    MaxwellBody (heavySlab Nx Nz bu.type bv.type) (onVertices Nx Nz x0 z0) (10 ^ 21) (10 ^ 10) 3000 (10 ^ 11) eps (fun k => x0 + k * 1000) (fun l => z0 + l * 1000) bu bv x0 z0 := by
  obtain ⟨bu, bv, h, s, v, -⟩ := stressed_slab_meets Nx Nz (by omega) hz eps x0 z0 0 0
    ⟨⟨fun _ => 0, fun _ => 0, fun _ => 0, fun _ => 0, fun _ => 0, fun _ => 0, fun _ => 0, fun _ => 0, fun _ => 0, fun _ => 0⟩, fun _ => 0, fun _ => 0, fun _ => 0, fun _ => 0,
      fun _ => Point.Stored.zero, fun _ => Point.Stored.zero, fun _ => 0, fun _ => 0, fun _ => 0⟩
  have col : ∀ k : Nat, ((k % Nx : Nat) : ℝ) ≤ Nx - 1 := fun k => by
    have : k % Nx + 1 ≤ Nx := Nat.mod_lt _ (by omega)
    have : ((k % Nx : Nat) : ℝ) + 1 ≤ Nx := by exact_mod_cast this
    linarith
  have row : ∀ k < Nx * Nz, ((k / Nx : Nat) : ℝ) ≤ Nz - 1 := fun k hk => by
    have : k / Nx + 1 ≤ Nz := Nat.div_lt_of_lt_mul hk
    have : ((k / Nx : Nat) : ℝ) + 1 ≤ Nz := by exact_mod_cast this
    linarith
  have nn : ∀ k : Nat, (0 : ℝ) ≤ k := fun k => Nat.cast_nonneg k
  have sx : ((Nx - 1 : Nat) : ℝ) = Nx - 1 := by rw [Nat.cast_sub (by omega)]; norm_num
  have sz : ((Nz - 1 : Nat) : ℝ) = Nz - 1 := by rw [Nat.cast_sub (by omega)]; norm_num
  have at_node : ∀ c < Nx, ∀ r, ((c + r * Nx) % Nx = c ∧ (c + r * Nx) / Nx = r) := fun c hc r =>
    ⟨by rw [Nat.add_mul_mod_self_right, Nat.mod_eq_of_lt hc], by rw [Nat.add_mul_div_right _ _ (by omega), Nat.div_eq_of_lt hc, zero_add]⟩
  have weight : ∀ (g : P2M.Fam ℝ) (c r k : Nat), k < Nx * Nz → 1 / 10 ^ 30 ≤ P2M.markerWeight g (onVertices Nx Nz x0 z0).s.ms k c r →
      1 / 10 ^ 30 ≤ P2M.W g (onVertices Nx Nz x0 z0).s.ms (Nx * Nz) c r := fun g c r k hk hw =>
    le_trans hw (Finset.single_le_sum (f := fun k => P2M.markerWeight g (onVertices Nx Nz x0 z0).s.ms k c r) (fun i _ => P2M.markerWeight_nonneg _ _ _ _ _) (mem_range.2 hk))
  have in_box : ∀ k < Nx * Nz, x0 ≤ x0 + ((k % Nx : Nat) : ℝ) * 1000 ∧ x0 + ((k % Nx : Nat) : ℝ) * 1000 ≤ x0 + (Nx - 1) * 1000
      ∧ z0 ≤ z0 + ((k / Nx : Nat) : ℝ) * 1000 ∧ z0 + ((k / Nx : Nat) : ℝ) * 1000 ≤ z0 + (Nz - 1) * 1000 := fun k hk => by
    have a := col k; have b := row k hk; have c := nn (k % Nx); have d := nn (k / Nx)
    refine ⟨by linarith, by linarith, by linarith, by linarith⟩
  refine ⟨bu, bv, ⟨h.Nx, h.Nz, h.dx, h.dz, h.stepX, h.stepZ, h.vx, h.vz, h.tu, h.tv, h.beyondU, h.beyondV, h.rock⟩, ⟨s.Nx, s.Nz, s.dx, s.dz, s.cells, s.verts, s.rock, s.rockV, s.stab⟩,
    ⟨⟨v.Nx, v.Nz, v.minEta, v.limits, v.dt, v.R, v.sE, v.sT, v.sS, v.sL, v.sEta, v.mixing, v.mats, v.cells, v.verts, v.touch⟩, rfl, rfl, fun _ _ => rfl, Nat.one_pos, fun _ _ => rfl, fun _ _ => rfl, by norm_num, ?_, ?_, ?_, ?_⟩, ⟨⟨fun k hk _ => ?_, ?_, ?_, ?_, rfl⟩, rfl, rfl, ?_, rfl, rfl,
    fun k hk _ => ?_, fun c hc r hr => ⟨?_, ?_⟩, fun c hc r hr => ⟨?_, ?_⟩⟩, rfl, fun _ => ⟨rfl, rfl⟩, fun _ => rfl, rfl, rfl, ?_, fun _ => ?_⟩
  · norm_num [heavySlab, stressedSlab, Point.settings]
  · norm_num [heavySlab, stressedSlab, Point.settings]
  · norm_num [heavySlab, stressedSlab, Point.settings]
  · norm_num [heavySlab, stressedSlab, Point.settings]
  · obtain ⟨a, b, c, d⟩ := in_box k hk
    exact ⟨by show 1 ≤ Nx - 1; omega, by show 1 ≤ Nz - 1; omega, by norm_num [onVertices], by norm_num [onVertices], fun j => by simp only [onVertices]; ring, fun j => by simp only [onVertices]; ring,
      a, by simp only [onVertices]; rw [sx]; exact b, c, by simp only [onVertices]; rw [sz]; exact d⟩
  · refine ⟨Or.inr rfl, by show 1 ≤ Nx - 1; omega, by show 1 ≤ Nz - 1; omega, by norm_num [onVertices], by norm_num [onVertices], fun j => by simp only [onVertices]; ring,
      fun j => by simp only [onVertices]; ring, fun k hk _ => ?_, fun k hk _ => ?_⟩
    · obtain ⟨a, b, -⟩ := in_box k hk
      simp only [onVertices]; rw [sx]; constructor <;> linarith
    · obtain ⟨-, -, a, b⟩ := in_box k hk
      simp only [onVertices]; rw [sz]; constructor <;> linarith
  · show ([List.range (Nx * Nz)] : List (List Nat)).flatten.Perm (List.range (Nx * Nz))
    simp
  · show 2 ≤ Nx - 1; omega
  · refine ⟨Or.inr rfl, by show 1 ≤ Nx; omega, by show 1 ≤ Nz; omega, by norm_num [onVertices], by norm_num [onVertices], fun j => by simp only [onVertices],
      fun j => by simp only [onVertices], fun k hk _ => ?_, fun k hk _ => ?_⟩
    · obtain ⟨a, b, -⟩ := in_box k hk
      simp only [onVertices]; constructor <;> linarith
    · obtain ⟨-, -, a, b⟩ := in_box k hk
      simp only [onVertices]; constructor <;> linarith
  · obtain ⟨a, b, c, d⟩ := in_box k hk
    exact ⟨by show 2 ≤ Nx; omega, hz, by norm_num [onVertices], by norm_num [onVertices], fun j => by simp only [onVertices], fun j => by simp only [onVertices], a, b, c, d⟩
  · have hc : c < Nx - 1 := hc
    have hr : r < Nz - 1 := hr
    refine weight _ c r (c + r * Nx) (cell_lt _ _ _ _ (by omega) (by omega)) ?_
    obtain ⟨e1, e2⟩ := at_node c (by omega) r
    have d1 : ∀ y n : ℝ, (y + n * 1000 - (y + 500 + n * 1000)) / (3 * 1000 / 2) = -(1 / 3) := fun y n => by ring
    simp only [P2M.markerWeight, P2M.nodeWeight, onVertices, P2M.kernel, P2M.itp, e1, e2]
    norm_num [d1, Interp.hat]
  · have := s.rock (c + r * (onVertices Nx Nz x0 z0).s.fam.Nx)
    simpa [P2M.airTags, heavySlab] using this
  · have hc : c < Nx := hc
    have hr : r < Nz := hr
    refine weight _ c r (c + r * Nx) (cell_lt _ _ _ _ hc hr) ?_
    obtain ⟨e1, e2⟩ := at_node c hc r
    simp only [P2M.markerWeight, P2M.nodeWeight, onVertices, P2M.kernel, P2M.itp, e1, e2]
    norm_num [Interp.hat]
  · simp [P2M.airTags, heavySlab, stressedSlab, slab, boxMesh, blockMesh]
  · norm_num [heavySlab, stressedSlab, slab, boxMesh, blockMesh]
  · norm_num [heavySlab, stressedSlab, Point.halfHalf]

/-- Non-vacuity of the history: such a body can be loaded from rest for ever. -/
theorem slab_history (Nx Nz : Nat) (hx : 3 ≤ Nx) (hz : 2 ≤ Nz) (eps x0 z0 : ℝ) : ∃ sig out : Nat → Nat → Dev,
    (∀ n, MaxwellStep (10 ^ 21) (10 ^ 10) (10 ^ 11) eps (onVertices Nx Nz x0 z0) (sig n) (out n)) ∧ (∀ n, sig (n + 1) = out n) ∧ Carry (onVertices Nx Nz x0 z0) (sig 0) ⟨0, 0, 0⟩ := by
  obtain ⟨bu, bv, h⟩ := slab_maxwell Nx Nz hx hz eps x0 z0
  have next : ∀ s : { sig : Nat → Dev // ∃ σ, Carry (onVertices Nx Nz x0 z0) sig σ }, ∃ out : { sig : Nat → Dev // ∃ σ, Carry (onVertices Nx Nz x0 z0) sig σ },
      MaxwellStep (10 ^ 21) (10 ^ 10) (10 ^ 11) eps (onVertices Nx Nz x0 z0) s.1 out.1 := by
    rintro ⟨sig, σ, hs⟩
    let t : Mech := ⟨⟨fun _ => 0, fun _ => 0, fun _ => 0, fun _ => 0, fun _ => 0, fun _ => 0, fun _ => 0, fun _ => 0, fun _ => 0, fun _ => 0⟩, fun _ => 0, fun _ => 0, fun _ => 0, fun _ => 0,
      fun _ => Point.Stored.zero, fun _ => Point.Stored.zero, fun _ => 3000, fun _ => 0, fun _ => 0⟩
    obtain ⟨-, -, -, -, out, -, -, -, -, hm⟩ := maxwell_step_exists h hs ⟨fun _ => 0, fun _ => 0, fun _ => 0, fun _ => 0, fun _ => 0, fun _ => 0⟩ t t (fun _ _ => rfl) (sd := 2) (by decide) 1 (10 ^ 11)
      (fun _ => 1 / 2) (fun _ => 0)
    obtain ⟨τ, hτ, -⟩ := maxwell_step hm hs
    exact ⟨⟨out, τ, hτ⟩, hm⟩
  choose f hf using next
  let seq : Nat → { sig : Nat → Dev // ∃ σ, Carry (onVertices Nx Nz x0 z0) sig σ } := fun n => Nat.rec ⟨fun _ => ⟨0, 0, 0⟩, ⟨0, 0, 0⟩, fun _ _ _ => rfl⟩ (fun _ s => f s) n
  exact ⟨fun n => (seq n).1, fun n => (seq (n + 1)).1, fun n => hf (seq n), fun _ => rfl, fun _ _ _ => rfl⟩

end Verif.StepFlow
