import Verif.Props.StressCycle
import Verif.Props.Thermal
import Verif.Model.HeatCycle

/- C157: temperature goes from the markers to the grid and back; a body that is heated evenly warms evenly. -/
set_option linter.unusedSimpArgs false

namespace Verif.StepFlow
open Verif Verif.Hist Finset

/-- An insulated body: all rock, one heat capacity per volume `cap`, no heat through any side, markers near every cell.  Conductivities may vary from place to place. -/
structure Insulated (p : Heat.Par ℝ) (s : Hist.Setting ℝ) (n : Nat) (flagP : Nat → Int) (cap dt x0 z0 : ℝ) : Prop where
  physical : Heat.Physical p
  tags : Heat.TagsAgree p
  periodic : Heat.PeriodicOK p
  rock : ∀ c < p.ncx * p.ncz, p.tt c ≠ 30 ∧ flagP c ≠ 30
  closed : ∀ k < p.ncx, ∀ l < p.ncz, ∀ f, (∃ k' l', Heat.behind p k l f = .cell k' l') ∨ Heat.behind p k l f = .insulated
  cap : ∀ c < p.ncx * p.ncz, p.cap c = cap
  dt : p.dt = dt
  markers : s.Ok n x0 z0
  nx : s.fam.Nx = p.ncx
  nz : s.fam.Nz = p.ncz
  fed : ∀ c < s.fam.Nx, ∀ r < s.fam.Nz, P2M.Fed s.fam s.ms n flagP c r

/-- All active markers have the same temperature. -/
def AtTemp (s : Hist.Setting ℝ) (n : Nat) (T : Nat → ℝ) (y : ℝ) : Prop := ∀ k < n, (s.ms k).phase ≠ -1 → T k = y

section
variable {p : Heat.Par ℝ} {s : Hist.Setting ℝ} {n : Nat} {flagP : Nat → Int} {cap dt x0 z0 : ℝ} (h : Insulated p s n flagP cap dt x0 z0)
include h

theorem Insulated.isRock {k l : Nat} (hk : k < p.ncx) (hl : l < p.ncz) : Heat.Rock p k l := fun e =>
  (h.rock _ (by simpa [mul_comm] using cell_lt p.ncx p.ncz k l hk hl)).1 ((h.tags k hk l hl).2 e)

theorem Insulated.data (m : ℝ) : Heat.DataGE p m ∧ Heat.DataLE p m := by
  constructor <;> intro k hk l hl _ f <;> rcases h.closed k hk l hl f with ⟨k', l', e⟩ | e <;> rw [e] <;> trivial

/-- The thermal solve of evenly heated rock of one temperature. -/
theorem Insulated.solve {src : Heat.Src ℝ} {air τ q : ℝ} {T0 T1 : Nat → ℝ} (hT : ∀ c < p.ncx * p.ncz, T0 c = τ) (hq : ∀ c < p.ncx * p.ncz, src.at T0 c = q)
    (hs : Heat.Step p src air T0 T1) : ∀ c < p.ncx * p.ncz, T1 c = τ + dt * q / cap := by
  have hb : ∀ k < p.ncx, ∀ l < p.ncz, Heat.Rock p k l → Heat.Balance p (fun _ => 0) (fun _ => τ + dt * q / cap) T1 k l := fun k hk l hl hr => by
    have lt : k + l * p.ncx < p.ncx * p.ncz := by simpa [mul_comm] using cell_lt p.ncx p.ncz k l hk hl
    have := (Heat.heat_step_balance p h.tags h.periodic src air T0 T1 hs k hk l hl).1 hr
    unfold Heat.Balance at this ⊢
    rw [h.cap _ lt, hT _ lt, hq _ lt, h.dt] at this
    rw [h.cap _ lt, h.dt, add_zero]
    have c0 : cap ≠ 0 := by rw [← h.cap _ lt]; exact (h.physical.cap _).ne'
    have d0 : dt ≠ 0 := by rw [← h.dt]; exact h.physical.dt.ne'
    rw [show cap * (T1 (k + l * p.ncx) - (τ + dt * q / cap)) / dt = cap * (T1 (k + l * p.ncx) - τ) / dt - q by field_simp; ring, this]
    ring
  intro c hc
  have hn : 0 < p.ncx := Nat.pos_of_ne_zero fun e => by simp [e] at hc
  obtain ⟨k, l, hk, hl, rfl⟩ : ∃ k l, k < p.ncx ∧ l < p.ncz ∧ c = k + l * p.ncx :=
    ⟨c % p.ncx, c / p.ncx, Nat.mod_lt _ hn, Nat.div_lt_of_lt_mul hc, by rw [mul_comm]; exact (Nat.mod_add_div c p.ncx).symm⟩
  have up := Heat.heat_upper p h.physical h.periodic _ _ T1 hb (τ + dt * q / cap) (fun _ _ _ _ _ => le_rfl) (h.data _).2 (fun _ _ _ _ _ => le_rfl) k hk l hl (h.isRock hk hl)
  have lo := Heat.heat_lower p h.physical h.periodic _ _ T1 hb (τ + dt * q / cap) (fun _ _ _ _ _ => le_rfl) (h.data _).1 (fun _ _ _ _ _ => le_rfl) k hk l hl (h.isRock hk hl)
  exact le_antisymm up lo

/-- Temperature of the cells when all markers have the same. -/
theorem Insulated.toGrid {T : Nat → ℝ} {τ : ℝ} (hT : AtTemp s n T τ) (b : Nat → ℝ) : ∀ c < p.ncx * p.ncz, tempToGrid s flagP T b c = τ := fun c hc => by
  have hn : 0 < p.ncx := Nat.pos_of_ne_zero fun e => by simp [e] at hc
  have := field_uniform h.markers.p2m h.markers.nx h.markers.dist flagP b T τ hT h.fed (c := c % p.ncx) (r := c / p.ncx) (by rw [h.nx]; exact Nat.mod_lt _ hn)
    (by rw [h.nz]; exact Nat.div_lt_of_lt_mul hc)
  rw [h.nx, show c % p.ncx + c / p.ncx * p.ncx = c by rw [mul_comm]; exact Nat.mod_add_div c p.ncx] at this
  exact this

/-- A change common to all cells reaches every marker. -/
theorem Insulated.toMarkers {T old new : Nat → ℝ} {τ δ : ℝ} (hT : AtTemp s n T τ) (h0 : ∀ c < p.ncx * p.ncz, old c = τ) (h1 : ∀ c < p.ncx * p.ncz, new c = τ + δ) (sd : Int)
    (damp : Nat → ℝ) : AtTemp s n (tempToMarkers s sd p.tt flagP new old damp T) (τ + δ) := by
  intro k hk hp
  have idx : ∀ c < s.fam.Nx, ∀ r < s.fam.Nz, ((c : Int) + r * s.fam.Nx).toNat < p.ncx * p.ncz := fun c hc r hr => by
    have : ((c : Int) + r * s.fam.Nx).toNat = c + r * s.fam.Nx := by
      rw [show ((c : Int) + r * s.fam.Nx) = ((c + r * s.fam.Nx : Nat) : Int) by push_cast; ring, Int.toNat_natCast]
    rw [this, h.nx]
    rw [h.nx] at hc
    rw [h.nz] at hr
    simpa [mul_comm] using cell_lt p.ncx p.ncz c r hc hr
  have e : (fun c : Nat => flagP ((c : Int)).toNat) = flagP := funext fun c => by rw [Int.toNat_natCast]
  have := (uniform_change_reaches_markers h.markers Real.log Real.exp (fun c => p.tt c.toNat) (fun c => flagP c.toNat) (fun c => new c.toNat) (fun c => old c.toNat) δ damp T sd
    (fun c hc r hr => ⟨(h.rock _ (idx c hc r hr)).1, (h.rock _ (idx c hc r hr)).2, by rw [h1 _ (idx c hc r hr), h0 _ (idx c hc r hr)]⟩) hk hp).1 fun k hk hp => by
      have := toMarker_between h.markers (fun c => old c.toNat) (fun c => p.tt c.toNat) hk hp τ τ fun c hc r hr => by
        rw [h0 _ (idx c hc r hr)]; exact ⟨le_rfl, le_rfl⟩
      rw [hT k hk hp, le_antisymm this.2 this.1]
  rw [e] at this
  unfold tempToMarkers
  rw [this, hT k hk hp]
end

/-- One time step of an insulated body, as far as its temperature is concerned: temperatures `T` of the markers to the grid, thermal solve with the heat `q` per volume and time in every
cell, changes back to the markers, which then have the temperatures `out`. -/
inductive HeatStep (cap dt q : ℝ) (s : Hist.Setting ℝ) (n : Nat) (T out : Nat → ℝ) : Prop
  | mk {p : Heat.Par ℝ} {flagP : Nat → Int} {x0 z0 air : ℝ} {src : Heat.Src ℝ} {b T1 damp : Nat → ℝ} {sd : Int}
    (body : Insulated p s n flagP cap dt x0 z0) (heated : ∀ c < p.ncx * p.ncz, src.at (tempToGrid s flagP T b) c = q)
    (solved : Heat.Step p src air (tempToGrid s flagP T b) T1) (back : out = tempToMarkers s sd p.tt flagP T1 (tempToGrid s flagP T b) damp T) : HeatStep cap dt q s n T out

/-- C157 (one step).  The temperature of every marker rises by the heat of the step over the heat capacity. -/
theorem heat_step {cap dt q τ : ℝ} {s : Hist.Setting ℝ} {n : Nat} {T out : Nat → ℝ} (h : HeatStep cap dt q s n T out) (hT : AtTemp s n T τ) : AtTemp s n out (τ + dt * q / cap) := by
  obtain ⟨hB, hq, hs, rfl⟩ := h
  exact hB.toMarkers hT (hB.toGrid hT _) (hB.solve (hB.toGrid hT _) hq hs) _ _

/-- C157.  **Evenly heated rock warms evenly**: over any number of steps of any lengths, with markers that move, vanish and are replaced by copies, the temperature of every marker is the initial
one plus all the heat produced over the heat capacity. -/
theorem heat_history (cap dt q : Nat → ℝ) (s : Nat → Hist.Setting ℝ) (m : Nat → Nat) (T out : Nat → Nat → ℝ) (hstep : ∀ n, HeatStep (cap n) (dt n) (q n) (s n) (m n) (T n) (out n))
    (hmove : ∀ n, ∀ k < m (n + 1), ((s (n + 1)).ms k).phase ≠ -1 → ∃ j < m n, ((s n).ms j).phase ≠ -1 ∧ T (n + 1) k = out n j) (τ : ℝ) (hstart : AtTemp (s 0) (m 0) (T 0) τ) (n : Nat) :
    AtTemp (s n) (m n) (T n) (τ + ∑ i ∈ range n, dt i * q i / cap i) ∧ AtTemp (s n) (m n) (out n) (τ + ∑ i ∈ range (n + 1), dt i * q i / cap i) := by
  have key : ∀ n, AtTemp (s n) (m n) (T n) (τ + ∑ i ∈ range n, dt i * q i / cap i) → AtTemp (s n) (m n) (out n) (τ + ∑ i ∈ range (n + 1), dt i * q i / cap i) := fun n hn => by
    rw [Finset.sum_range_succ, ← add_assoc]
    exact heat_step (hstep n) hn
  induction n with
  | zero => exact ⟨by simpa using hstart, key 0 (by simpa using hstart)⟩
  | succ n ih =>
    have : AtTemp (s (n + 1)) (m (n + 1)) (T (n + 1)) (τ + ∑ i ∈ range (n + 1), dt i * q i / cap i) := fun k hk hp => by
      obtain ⟨j, hj, hp', e⟩ := hmove n k hk hp
      rw [e]; exact ih.2 j hj hp'
    exact ⟨this, key _ this⟩

/-- A viscous body in pure shear that keeps its heat: viscosity `eta`, radiogenic heat `Q`, the equations of the flow solved and its stresses and heating recorded (`o`), then the thermal step. -/
inductive ShearHeating (eta eps Q cap dt : ℝ) (s : Hist.Setting ℝ) (n : Nat) (T out : Nat → ℝ) : Prop
  | mk {S : Setting} {x z : Nat → ℝ} {bu bv : Setup.Side ℝ} {r : ℝ} {V : BCVals ℝ} {g f' : LS.Fields} {t a t1 o : Mech} {p : Heat.Par ℝ} {x0 z0 air : ℝ} {Qr b T1 damp : Nat → ℝ} {sd : Int}
    (shear : PureShear S eps x z bu bv) (law : Viscoelastic S) (uniform : Uniform S eta r t) (det : Determined S t.rho) (floor : 1 / 10 ^ 30 ≤ |eps| * S.env.sE)
    (walls : Admissible S V g) (driven : Driven S bu bv g)
    (solved : updateNL S false g t = .ok a) (balanced : Balanced S (rows S (opsOf S a) g a)) (recorded : finishStep S g t1 = .ok (f', o))
    (ncx : p.ncx = S.m.Nx - 1) (ncz : p.ncz = S.m.Nz - 1)
    (body : Insulated p s n (fun c => S.m.tp c) cap dt x0 z0) (radiogenic : ∀ c < p.ncx * p.ncz, Qr c = Q)
    (warmed : Heat.Step p (heatSources Qr 1 o) air (tempToGrid s (fun c => S.m.tp c) T b) T1)
    (back : out = tempToMarkers s sd p.tt (fun c => S.m.tp c) T1 (tempToGrid s (fun c => S.m.tp c) T b) damp T) : ShearHeating eta eps Q cap dt s n T out

/-- The heating recorded in pure shear. -/
theorem pure_shear_heating {S : Setting} {eps : ℝ} {x z : Nat → ℝ} {bu bv : Setup.Side ℝ} (h : PureShear S eps x z bu bv) {eta r p0 : ℝ} {t t1 o : Mech} {f' : LS.Fields}
    (hU : Uniform S eta r t) (hfin : finishStep S (textbook S eps x z r p0) t1 = .ok (f', o)) (hfl : 1 / 10 ^ 30 ≤ |eps| * S.env.sE) :
    ∀ c < S.ncells, (o.cells c).wDiss = 4 * eta * eps ^ 2 := by
  have hx := h.Nx
  have hz := h.Nz
  have rock : ∀ c : Nat, ¬ (S.m.tp c = 30 ∨ S.m.tp c = 31) := fun c => by rw [h.rock]; decide
  obtain ⟨eu, ev, -⟩ := textbook_at S eps x z r p0
  obtain ⟨r1, -⟩ := rock_rates h.Nx h.Nz h.dx.ne' h.dz.ne' rock hU.air (xmin := x 0) (zmin := z 0) (a := 0) (b := -eps) (c := 0) (d := 0) (e := 0) (g := eps) (f := textbook S eps x z r p0)
    ⟨fun k l hk hl => by
      rw [eu k l hk (by omega), (h.coord k 0).1]
      simp only [Spec.linearFlow, Spec.uNode]; ring, fun k l hk hl => by
      rw [ev k l (by omega) hl, (h.coord 0 l).2]
      simp only [Spec.linearFlow, Spec.vNode]; ring⟩ (fin_ok hfin).1
  have z0 : (if S.m.oop then 3 / 2 * (-eps + eps) else -eps + eps) = 0 := by split_ifs <;> ring
  simp only [z0, mul_zero, sub_zero, add_zero, zero_div] at r1
  intro c hc
  have w := ((isoviscous_recorded S eta hU.visc _ f' t1 o hfin).1 c hc (rock c)).2.2
  rw [w, (r1 c hc).2]
  have e : Point.invariant ⟨-eps, eps, 0⟩ = |eps| := by
    unfold Point.invariant
    rw [← Real.sqrt_sq_eq_abs]
    ring_nf
  unfold Point.rate
  rw [e, if_neg (not_lt.2 hfl), sq_abs]

/-- C157 (shear heating, one step). -/
theorem shear_heating_step {eta eps Q cap dt : ℝ} {s : Hist.Setting ℝ} {n : Nat} {T out : Nat → ℝ} (h : ShearHeating eta eps Q cap dt s n T out) :
    HeatStep cap dt (Q + 4 * eta * eps ^ 2) s n T out := by
  obtain ⟨hp, hV, hU, hD, hfl, hw, hd, ha, hb, hfin, e1, e2, hB, hQ, hs, ho⟩ := h
  rename_i S x z bu bv r V g f' t a t1 o p x0 z0 air Qr b T1 damp sd
  obtain ⟨g1, g2, p0, g3⟩ := (pure_shear_exact_partial hp hV hU hD hw hd).1 ⟨a, ha, hb⟩
  rw [flow_textbook hp hw g1 g2 g3] at hfin
  have wd := pure_shear_heating hp hU hfin hfl
  refine ⟨hB, fun c hc => ?_, hs, ho⟩
  have : c < S.ncells := by rw [e1, e2] at hc; exact hc
  simp only [Heat.Src.at, heatSources, if_true, hQ c hc, wd c this]
  norm_num

/-- C157 (shear heating).  **The shear heating benchmark**: a viscous body shortened at the rate `eps` that keeps its heat warms by `(Q + 4 η ε²)/(ρ Cp)` per unit of time, exactly, at every
marker, whatever the grid, the steps, gravity and the conductivity. -/
theorem shear_heating_history (eta eps Q cap dt : Nat → ℝ) (s : Nat → Hist.Setting ℝ) (m : Nat → Nat) (T out : Nat → Nat → ℝ)
    (hstep : ∀ n, ShearHeating (eta n) (eps n) (Q n) (cap n) (dt n) (s n) (m n) (T n) (out n))
    (hmove : ∀ n, ∀ k < m (n + 1), ((s (n + 1)).ms k).phase ≠ -1 → ∃ j < m n, ((s n).ms j).phase ≠ -1 ∧ T (n + 1) k = out n j) (τ : ℝ) (hstart : AtTemp (s 0) (m 0) (T 0) τ) (n : Nat) :
    AtTemp (s n) (m n) (out n) (τ + ∑ i ∈ range (n + 1), dt i * (Q i + 4 * eta i * eps i ^ 2) / cap i) :=
  (heat_history cap dt (fun n => Q n + 4 * eta n * eps n ^ 2) s m T out (fun n => shear_heating_step (hstep n)) hmove τ hstart n).2

/-- C157 (shear heating switched off).  **Without the switch the flow leaves no trace in the temperature**: whatever the mechanical part has recorded, an insulated body warms by its radiogenic heat alone. -/
theorem no_shear_heating {p : Heat.Par ℝ} {s : Hist.Setting ℝ} {n : Nat} {flagP : Nat → Int} {cap dt x0 z0 air Q τ : ℝ} {Qr b T1 damp T : Nat → ℝ} {sd shear : Int} (hB : Insulated p s n flagP cap dt x0 z0)
    (hQ : ∀ c < p.ncx * p.ncz, Qr c = Q) (o : Mech) (hoff : shear ≠ 1) (hs : Heat.Step p (heatSources Qr shear o) air (tempToGrid s flagP T b) T1) (hT : AtTemp s n T τ) :
    AtTemp s n (tempToMarkers s sd p.tt flagP T1 (tempToGrid s flagP T b) damp T) (τ + dt * Q / cap) :=
  heat_step (HeatStep.mk hB (fun c hc => by simp [Heat.Src.at, heatSources, hoff, hQ c hc]) hs rfl) hT

/-- An insulated box of cells of one kilometre, heat capacity `3e6`, conductivity 2. -/
noncomputable def insulatedBox (Nx Nz : Nat) : Heat.Par ℝ where
  ncx := Nx - 1
  ncz := Nz - 1
  dx := 1000
  dz := 1000
  dt := 10 ^ 11
  tt _ := -1
  te _ := -1
  ve _ := 0
  kx _ := 2
  kz _ := 2
  cap _ := 3 * 10 ^ 6
  mink := 2

theorem box_insulated (Nx Nz : Nat) (x0 z0 : ℝ) {flagP : Nat → Int} (hm : (onVertices Nx Nz x0 z0).s.Ok (Nx * Nz) x0 z0)
    (hf : ∀ c < (onVertices Nx Nz x0 z0).s.fam.Nx, ∀ r < (onVertices Nx Nz x0 z0).s.fam.Nz, P2M.Fed (onVertices Nx Nz x0 z0).s.fam (onVertices Nx Nz x0 z0).s.ms (Nx * Nz) flagP c r)
    (hr : ∀ c, flagP c ≠ 30) : Insulated (insulatedBox Nx Nz) (onVertices Nx Nz x0 z0).s (Nx * Nz) flagP (3 * 10 ^ 6) (10 ^ 11) x0 z0 := by
  refine ⟨⟨by norm_num [insulatedBox], by norm_num [insulatedBox], by norm_num [insulatedBox], fun _ => by norm_num [insulatedBox], fun _ => by norm_num [insulatedBox],
    fun _ => by norm_num [insulatedBox]⟩, fun k _ l _ => by simp [insulatedBox], fun l _ => by simp [insulatedBox], fun c _ => ⟨by simp [insulatedBox], hr c⟩,
    fun k hk l hl f => ?_, fun _ _ => rfl, rfl, hm, rfl, rfl, hf⟩
  cases f
  · by_cases q : 0 < k <;> simp [Heat.behind, Heat.inside, Heat.outside, insulatedBox, q]
  · by_cases q : k + 1 < Nx - 1 <;> simp [Heat.behind, Heat.inside, Heat.outside, insulatedBox, q]
  · by_cases q : 0 < l <;> simp [Heat.behind, Heat.inside, Heat.outside, insulatedBox, q]
  · by_cases q : l + 1 < Nz - 1 <;> simp [Heat.behind, Heat.inside, Heat.outside, insulatedBox, q]

/-- The hypotheses are met on every grid: such a step can be made from any temperature that is not negative, so that the history goes on for ever. -/
theorem slab_shear_heating (Nx Nz : Nat) (hx : 3 ≤ Nx) (hz : 2 ≤ Nz) (eps x0 z0 τ : ℝ) (he : 1 / 10 ^ 30 ≤ |eps|) (hτ : 0 ≤ τ) (T : Nat → ℝ)
    (hT : AtTemp (onVertices Nx Nz x0 z0).s (Nx * Nz) T τ) :
    ∃ out, ShearHeating (10 ^ 21) eps (1 / 10 ^ 6) (3 * 10 ^ 6) (10 ^ 11) (onVertices Nx Nz x0 z0).s (Nx * Nz) T out := by
  obtain ⟨_, _, hM⟩ := slab_maxwell Nx Nz hx hz 0 x0 z0
  let t : Mech := ⟨⟨fun _ => 0, fun _ => 0, fun _ => 0, fun _ => 0, fun _ => 0, fun _ => 0, fun _ => 0, fun _ => 0, fun _ => 0, fun _ => 0⟩, fun _ => 0, fun _ => 0, fun _ => 0, fun _ => 0,
      fun _ => Point.Stored.zero, fun _ => Point.Stored.zero, fun _ => 3000, fun _ => 0, fun _ => 0⟩
  obtain ⟨bu, bv, h, v, u, d, -⟩ := slab_meets Nx Nz (by omega) hz eps x0 z0 t (fun _ => rfl) ⟨fun _ => 0, fun _ => 0⟩
  obtain ⟨w1, w2⟩ := h.textbook_admissible 3000 0 (⟨fun _ => 0, fun _ => 0⟩ : BCVals ℝ)
  obtain ⟨eu, ev, ep⟩ := textbook_at (slab Nx Nz bu.type bv.type) eps (fun k => x0 + k * 1000) (fun l => z0 + l * 1000) 3000 0
  obtain ⟨a, ha, hb⟩ := (pure_shear_exact_partial h v u d w1 w2).2 ⟨eu, ev, 0, ep⟩
  obtain ⟨f', o, hfin⟩ := isoviscous_goes_on _ _ u.visc (textbook (slab Nx Nz bu.type bv.type) eps (fun k => x0 + k * 1000) (fun l => z0 + l * 1000) 3000 0) t
  have hfl : 1 / 10 ^ 30 ≤ |eps| * (slab Nx Nz bu.type bv.type).env.sE := by
    rw [show (slab Nx Nz bu.type bv.type).env.sE = 1 from rfl, mul_one]
    exact he
  have wd := pure_shear_heating h u hfin hfl
  have body : Insulated (insulatedBox Nx Nz) (onVertices Nx Nz x0 z0).s (Nx * Nz) (fun c => (slab Nx Nz bu.type bv.type).m.tp c) (3 * 10 ^ 6) (10 ^ 11) x0 z0 :=
    box_insulated Nx Nz x0 z0 hM.markers.cells hM.markers.fedC (fun c => by rw [h.rock]; decide)
  have hT0 := body.toGrid hT fun _ => 0
  have hsrc : ∀ c < (insulatedBox Nx Nz).ncx * (insulatedBox Nx Nz).ncz,
      0 ≤ (heatSources (fun _ => 1 / 10 ^ 6) 1 o).at (tempToGrid (onVertices Nx Nz x0 z0).s (fun c => (slab Nx Nz bu.type bv.type).m.tp c) T fun _ => 0) c := fun c hc => by
    simp only [Heat.Src.at, heatSources, if_true]
    rw [wd c hc, if_neg (by norm_num)]
    positivity
  obtain ⟨T1, hs⟩ := Heat.heat_step_exists _ body.physical body.tags body.periodic (heatSources (fun _ => 1 / 10 ^ 6) 1 o) 0 _ (body.data 0).1
    (fun k hk l hl _ => by rw [hT0 _ (by simpa [mul_comm] using cell_lt _ _ k l hk hl)]; exact hτ) hsrc
  exact ⟨_, ShearHeating.mk h v u d hfl w1 w2 ha hb hfin rfl rfl body (fun _ _ => rfl) hs (sd := 1) (damp := fun _ => 1 / 2) rfl⟩

/-- Non-vacuity: a step with the switch off can be made on every grid, for any record of the mechanical part. -/
example (Nx Nz : Nat) (hx : 3 ≤ Nx) (hz : 2 ≤ Nz) (x0 z0 : ℝ) (o : Mech) : ∃ (flagP : Nat → Int) (T1 : Nat → ℝ), Insulated (insulatedBox Nx Nz) (onVertices Nx Nz x0 z0).s (Nx * Nz) flagP (3 * 10 ^ 6) (10 ^ 11) x0 z0
    ∧ Heat.Step (insulatedBox Nx Nz) (heatSources (fun _ => 1 / 10 ^ 6) 0 o) 0 (tempToGrid (onVertices Nx Nz x0 z0).s flagP (fun _ => 1000) fun _ => 0) T1 := by
  obtain ⟨bu, bv, hM⟩ := slab_maxwell Nx Nz hx hz 0 x0 z0
  have body := box_insulated Nx Nz x0 z0 hM.markers.cells hM.markers.fedC (fun c => by rw [hM.shear.rock]; decide)
  have hT0 := body.toGrid (T := fun _ => 1000) (τ := 1000) (fun _ _ _ => rfl) fun _ => 0
  obtain ⟨T1, hs⟩ := Heat.heat_step_exists _ body.physical body.tags body.periodic (heatSources (fun _ => 1 / 10 ^ 6) 0 o) 0
    (tempToGrid (onVertices Nx Nz x0 z0).s _ (fun _ => 1000) fun _ => 0) (body.data 0).1
    (fun k hk l hl _ => by rw [hT0 _ (by simpa [mul_comm] using cell_lt _ _ k l hk hl)]; norm_num) (fun c hc => by simp [Heat.Src.at, heatSources])
  exact ⟨_, T1, body, hs⟩

/-- Non-vacuity of the history. -/
theorem slab_heating_history (Nx Nz : Nat) (hx : 3 ≤ Nx) (hz : 2 ≤ Nz) (eps x0 z0 τ : ℝ) (he : 1 / 10 ^ 30 ≤ |eps|) (hτ : 0 ≤ τ) : ∃ T out : Nat → Nat → ℝ,
    (∀ n, ShearHeating (10 ^ 21) eps (1 / 10 ^ 6) (3 * 10 ^ 6) (10 ^ 11) (onVertices Nx Nz x0 z0).s (Nx * Nz) (T n) (out n)) ∧ (∀ n, T (n + 1) = out n)
    ∧ AtTemp (onVertices Nx Nz x0 z0).s (Nx * Nz) (T 0) τ := by
  have next : ∀ T : { T : Nat → ℝ // ∃ τ, 0 ≤ τ ∧ AtTemp (onVertices Nx Nz x0 z0).s (Nx * Nz) T τ }, ∃ out : { T : Nat → ℝ // ∃ τ, 0 ≤ τ ∧ AtTemp (onVertices Nx Nz x0 z0).s (Nx * Nz) T τ },
      ShearHeating (10 ^ 21) eps (1 / 10 ^ 6) (3 * 10 ^ 6) (10 ^ 11) (onVertices Nx Nz x0 z0).s (Nx * Nz) T.1 out.1 := by
    rintro ⟨T, τ, h0, hT⟩
    obtain ⟨out, h⟩ := slab_shear_heating Nx Nz hx hz eps x0 z0 τ he h0 T hT
    exact ⟨⟨out, _, by positivity, heat_step (shear_heating_step h) hT⟩, h⟩
  choose f hf using next
  let seq : Nat → { T : Nat → ℝ // ∃ τ, 0 ≤ τ ∧ AtTemp (onVertices Nx Nz x0 z0).s (Nx * Nz) T τ } := fun n => Nat.rec ⟨fun _ => τ, τ, hτ, fun _ _ _ => rfl⟩ (fun _ s => f s) n
  exact ⟨fun n => (seq n).1, fun n => (seq (n + 1)).1, fun n => hf (seq n), fun _ => rfl, fun _ _ _ => rfl⟩

end Verif.StepFlow
