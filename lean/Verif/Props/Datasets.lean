import Verif.Model.Output
import Verif.Model.Datasets
import Verif.Spec.Datasets
import Verif.Model.Density
import Mathlib.Tactic.FieldSimp
import Mathlib.Tactic.Ring
import Mathlib.Tactic.NormNum
import Mathlib.Tactic.Linarith

/-
C108, C109: which datasets the output files contain, how long they are and in which unit.
C113: writing output and the course of the run.
-/
namespace Verif.Dataset

open Spec.Dataset

/-- The sizes of a run as seen by its output. -/
def Dims.size (D : Dims) : Size := ⟨D.Nx, D.Nz, D.Nt, D.nitMax, D.mark, D.chain, D.chainIni⟩

/-- The options of a run as seen by its output. -/
def Switch.options (w : Switch) : Options :=
  ⟨w.free_surface = 1, w.finite_strain = 1, w.anisotropy = 1, w.track_T_P_x_z = 1⟩

/-- Dimension of a unit of the run. -/
def Unit.dim : Unit → Dimension
  | .L => length
  | .V => velocity
  | .T => temperature
  | .S => stress
  | .E => strainRate
  | .rho => density
  | .eta => viscosity

/-- The units that `ScaleMe` derives are those of the dimensions, for every choice of the four base units. -/
theorem unit_val (eta L V T : ℝ) (heta : 0 < eta) (hL : 0 < L) (hV : 0 < V) (hT : 0 < T) (u : Unit) :
    u.val (Config.scaleMe eta L V T)
      = u.dim.unit (Config.scaleMe eta L V T).m (Config.scaleMe eta L V T).L (Config.scaleMe eta L V T).t
          (Config.scaleMe eta L V T).T := by
  have h1 := heta.ne'
  have h2 := hL.ne'
  have h3 := hV.ne'
  have h4 := hT.ne'
  cases u <;>
    simp only [Unit.val, Unit.dim, Dimension.unit, Config.scaleMe, length, velocity, temperature, stress,
      strainRate, density, viscosity, zpow_zero, zpow_one, zpow_neg, mul_one, one_mul] <;>
    first
      | done
      | (simp only [show ((2 : Int)) = ((2 : Nat) : Int) from rfl, show ((3 : Int)) = ((3 : Nat) : Int) from rfl,
          zpow_natCast]
         field_simp)
      | field_simp

/-- The entries of the tables whose lengths agree. -/
def Entry.fits (e : Entry) : Bool :=
  (e.alloc == e.len || (e.alloc == .chainMax && (e.len == .chain || e.len == .chainIni))
    || (e.alloc == .markMax && e.len == .mark))
  && match e.via with
    | .direct => e.scale == none
    | .cast b c => b == e.len && c == e.len && match e.scale with
      | none => true
      | some (_, n) => n == e.len

/-- The factor an entry is multiplied with. -/
noncomputable def Entry.factor (s : Config.Scale ℝ) (e : Entry) : ℝ :=
  match e.scale with
  | none => 1
  | some (u, _) => u.val s

theorem forUp_fill {α : Type*} (n : Nat) (b : Nat → α) (f : Nat → α) (k : Nat) :
    (forUp n b fun b k => upd b k (f k)) k = if k < n then f k else b k := by
  induction n with
  | zero => simp [forUp]
  | succ n ih =>
    rw [forUp_succ]
    by_cases h : k = n
    · subst h; simp [upd]
    · simp only [upd, h, if_false, ih]
      by_cases h' : k < n
      · rw [if_pos h', if_pos (by omega)]
      · rw [if_neg h', if_neg (by omega)]

theorem forUp_map {α : Type*} (n : Nat) (b : Nat → α) (f : α → α) (k : Nat) :
    (forUp n b fun b k => upd b k (f (b k))) k = if k < n then f (b k) else b k := by
  induction n with
  | zero => simp [forUp]
  | succ n ih =>
    rw [forUp_succ]
    by_cases h : k = n
    · subst h; simp [upd, ih]
    · simp only [upd, h, if_false, ih]
      by_cases h' : k < n
      · rw [if_pos h', if_pos (by omega)]
      · rw [if_neg h', if_neg (by omega)]

theorem writeEntry_fits (D : Dims) (s : Config.Scale ℝ) (arr : String → Nat → ℝ) (e : Entry)
    (hf : e.fits = true) (hc : D.chain ≤ 50 * D.Nx) (hi : D.chainIni ≤ 50 * D.Nx) (hm : D.mark ≤ D.markMax) :
    writeEntry D s arr e = some (e.group, e.name,
      (List.range (e.len.len D)).map fun k => some (arr e.src k * e.factor s)) := by
  obtain ⟨g, n, ty, len, src, alloc, via, sc, cd⟩ := e
  simp only [Entry.fits, Bool.and_eq_true] at hf
  obtain ⟨ha, hv⟩ := hf
  have hal : len.len D ≤ alloc.len D := by
    simp only [Bool.or_eq_true, Bool.and_eq_true, beq_iff_eq] at ha
    rcases ha with (h | ⟨h, h' | h'⟩) | ⟨h, h'⟩
    · rw [h]
    · rw [h, h']; exact hc
    · rw [h, h']; exact hi
    · rw [h, h']; exact hm
  cases via with
  | direct =>
    simp only [beq_iff_eq] at hv
    subst hv
    simp only [writeEntry, buffer, Entry.factor, mul_one]
    rw [if_neg (by omega)]
  | cast b c =>
    simp only [Bool.and_eq_true, beq_iff_eq] at hv
    obtain ⟨⟨hb, hcc⟩, hs⟩ := hv
    subst hb hcc
    cases sc with
    | none =>
      simp only [writeEntry, buffer, Entry.factor, mul_one]
      rw [if_neg (by omega)]
      simp only [lt_irrefl, if_false]
      congr 3
      apply List.map_congr_left
      intro k hk
      rw [forUp_fill, if_pos (List.mem_range.1 hk)]
    | some p =>
      obtain ⟨u, n'⟩ := p
      simp only [beq_iff_eq] at hs
      subst hs
      simp only [writeEntry, buffer, Entry.factor]
      rw [if_neg (by omega)]
      simp only [lt_irrefl, if_false]
      congr 3
      apply List.map_congr_left
      intro k hk
      rw [forUp_map _ _ (fun o : Option ℝ => o.map (· * u.val s)), if_pos (List.mem_range.1 hk), forUp_fill,
        if_pos (List.mem_range.1 hk)]
      rfl

theorem mapM_all {α β : Type*} (f : α → Option β) (g : α → β) (l : List α) (h : ∀ a ∈ l, f a = some (g a)) :
    l.mapM f = some (l.map g) := by
  induction l with
  | nil => rfl
  | cons a l ih =>
    rw [List.mapM_cons, h a (by simp), ih fun b hb => h b (by simp [hb])]
    rfl

/-- Place in the vocabulary of array lengths. -/
def placeExt : Place → Ext
  | .vertices => .vert
  | .cells => .cent
  | .vxPoints => .vx
  | .vzPoints => .vz
  | .vertexCols => .nx
  | .vertexRows => .nz
  | .cellCols => .nxm
  | .cellRows => .nzm
  | .ghostCols => .nxp
  | .ghostRows => .nzp
  | .fineLinesX => .xvizhr
  | .fineLinesZ => .zvizhr
  | .fineCols => .fineX
  | .fineCells => .fine
  | .surface => .chain
  | .initialSurface => .chainIni
  | .markers => .mark
  | .perStep => .series
  | .perIteration => .nits
  | .single => .one
  | .eight => .params
  | .text => .descr

/-- The lengths of the visualisation grid in the vocabulary of the mesh. -/
def Ext.norm : Ext → Ext
  | .xviz => .nx
  | .zviz => .nz
  | .viz => .cent
  | .vizhr => .fine
  | e => e

theorem norm_len (D : Dims) (hx : 1 ≤ D.Nx) (hz : 1 ≤ D.Nz) (e : Ext) : e.norm.len D = e.len D := by
  cases e <;> simp only [Ext.norm, Ext.len]
  · omega
  · omega
  · congr 1 <;> omega
  · congr 1 <;> omega

theorem placeExt_len (D : Dims) (hx : 1 ≤ D.Nx) (hz : 1 ≤ D.Nz) (p : Place) :
    (placeExt p).len D = p.count D.size := by
  cases p <;> simp only [placeExt, Ext.len, Place.count, Dims.size]
  · congr 1; omega
  · congr 1; omega
  · omega
  · omega
  · omega
  · congr 1 <;> omega

/-- Conditions on datasets. -/
def Cond.prop (w : Switch) : Cond → Prop
  | .always => True
  | .surface => w.free_surface = 1
  | .strain => w.finite_strain = 1
  | .aniso => w.anisotropy = 1
  | .track => w.track_T_P_x_z = 1

theorem holds_iff (w : Switch) (c : Cond) : c.holds w = true ↔ c.prop w := by
  cases c <;> simp [Cond.holds, Cond.prop]

/-- What the tables have to satisfy, entry by entry. -/
def Entry.agrees (e : Entry) : Prop :=
  e.fits = true ∧ e.len.norm = placeExt (place e.group e.name) ∧ e.src = field e.group e.name ∧
  dimension e.name = (match e.scale with | none => Spec.Dataset.pure | some (u, _) => u.dim)

instance (e : Entry) : Decidable e.agrees := by unfold Entry.agrees; infer_instance

/-- The lists of the specification with conditions as codes. -/
def mainCodes : List (String × List String × Cond) := [
  ("Model", ["Description", "Params", "xg_coord", "zg_coord", "xc_coord", "zc_coord", "xvz_coord",
    "zvx_coord"], .always),
  ("TimeSeries", ["Time_time", "Short_time", "Work_time", "Uthermal_time", "Uelastic_time", "T_mean_time",
    "P_mean_time", "sxxd_mean_time", "szzd_mean_time", "sxz_mean_time", "Tii_mean_time", "exxd_mean_time",
    "ezzd_mean_time", "exz_mean_time", "Eii_mean_time"], .always),
  ("VizGrid", ["xviz", "zviz", "xviz_hr", "zviz_hr", "compo", "compo_hr", "compo_dual_hr"], .always),
  ("Vertices", ["rho_s", "eta_s", "sxz", "exz"], .always),
  ("Centers", ["rho_n", "eta_n", "P", "sxxd", "szzd", "strain", "strain_el", "strain_pl", "strain_pwl",
    "strain_exp", "strain_lin", "strain_gbs", "T", "exxd", "ezzd", "divu", "divu_el", "divu_pl", "divu_th",
    "divu_r", "eII_el", "eII_pl", "eII_pwl", "eII_exp", "eII_lin", "eII_gbs", "d", "X", "phi", "OverS",
    "friction", "cohesion", "BCp"], .always),
  ("Centers", ["Fxx", "Fxz", "Fzx", "Fzz"], .strain),
  ("Centers", ["nx", "nz", "ani_fac"], .aniso),
  ("Centers", ["T0", "P0", "Tmax", "Pmax", "x0", "z0"], .track),
  ("VxNodes", ["Vx"], .always),
  ("VzNodes", ["Vz"], .always),
  ("Topo", ["z_grid", "z_finer_cent", "Vx_grid", "Vz_grid", "x_mark", "z_mark", "Vx_mark", "Vz_mark",
    "phase_mark"], .surface),
  ("Flags", ["tag_s", "tag_n", "tag_u", "tag_v", "tag_t_fine"], .always),
  ("Iterations", ["rx_abs", "rz_abs", "rp_abs", "LogIsNewtonStep", "NumberSteps"], .always)]

def partCodes : List (String × List String × Cond) := [
  ("Model", ["Params"], .always),
  ("Particles", ["x", "z", "phase", "index", "generation", "T", "P", "Vx", "Vz", "sxxd", "sxz"], .always),
  ("Particles", ["nx", "nz"], .aniso),
  ("Topo", ["height", "vxsurf", "vzsurf", "x", "z", "vx", "vz", "phase"], .surface),
  ("Topo_ini", ["height", "vxsurf", "vzsurf", "x", "z", "vx", "vz", "phase"], .surface)]

theorem mainCodes_eq (w : Switch) :
    mainFile w.options = mainCodes.map fun r => (r.1, r.2.1, r.2.2.prop w) := rfl

theorem partCodes_eq (w : Switch) :
    markerFile w.options = partCodes.map fun r => (r.1, r.2.1, r.2.2.prop w) := rfl

/-- Table and list name the same datasets under the same conditions. -/
def Covers (tab : List Entry) (codes : List (String × List String × Cond)) : Prop :=
  (∀ e ∈ tab, ∃ r ∈ codes, r.1 = e.group ∧ e.name ∈ r.2.1 ∧ r.2.2 = e.cond) ∧
  (∀ r ∈ codes, ∀ n ∈ r.2.1, ∃ e ∈ tab, e.group = r.1 ∧ e.name = n ∧ e.cond = r.2.2)

instance (tab codes) : Decidable (Covers tab codes) := by unfold Covers; infer_instance

set_option maxRecDepth 20000 in
theorem main_agrees : ∀ e ∈ mainTable, e.agrees := by decide +kernel

set_option maxRecDepth 20000 in
theorem part_agrees : ∀ e ∈ partTable, e.agrees := by decide +kernel

set_option maxRecDepth 20000 in
theorem main_covers : Covers mainTable mainCodes := by decide +kernel

set_option maxRecDepth 20000 in
theorem part_covers : Covers partTable partCodes := by decide +kernel

set_option maxRecDepth 20000 in
theorem main_nodup : (mainTable.map fun e => (e.group, e.name)).Nodup := by decide +kernel

set_option maxRecDepth 20000 in
theorem part_nodup : (partTable.map fun e => (e.group, e.name)).Nodup := by decide +kernel

set_option maxRecDepth 20000 in
theorem main_groups : ∀ e ∈ mainTable, e.group ∈ mainGroups := by decide +kernel

set_option maxRecDepth 20000 in
theorem part_groups : ∀ e ∈ partTable, e.group ∈ partGroups := by decide +kernel

/-- A file holds exactly the listed datasets, each once and in a group that was created; every dataset has
one value for each point of its place, all initialised, and the value is that of the run's field in SI
units, `m`, `L`, `t`, `T` being the run's units of mass, length, time and temperature. -/
def FileIs (groups : List String) (list : List (String × List String × Prop)) (S : Size) (m L t T : ℝ)
    (arr : String → Nat → ℝ) (file : List (String × String × List (Option ℝ))) : Prop :=
  (file.map fun d => (d.1, d.2.1)).Nodup ∧ (∀ d ∈ file, d.1 ∈ groups) ∧
  (∀ g n, (∃ c, (g, n, c) ∈ file) ↔ Listed list g n) ∧
  ∀ g n c, (g, n, c) ∈ file →
    c = (List.range ((place g n).count S)).map fun k => some (arr (field g n) k * (dimension n).unit m L t T)

theorem file_is (tab : List Entry) (codes : List (String × List String × Cond)) (groups : List String)
    (ha : ∀ e ∈ tab, e.agrees) (hcov : Covers tab codes)
    (hnd : (tab.map fun e => (e.group, e.name)).Nodup) (hg : ∀ e ∈ tab, e.group ∈ groups)
    (w : Switch) (D : Dims) (eta L V T : ℝ) (arr : String → Nat → ℝ)
    (heta : 0 < eta) (hL : 0 < L) (hV : 0 < V) (hT : 0 < T) (hx : 1 ≤ D.Nx) (hz : 1 ≤ D.Nz)
    (hc : D.chain ≤ 50 * D.Nx) (hi : D.chainIni ≤ 50 * D.Nx) (hm : D.mark ≤ D.markMax) :
    let s := Config.scaleMe eta L V T
    ∃ file, writeFile tab w D s arr = some file ∧
      FileIs groups (codes.map fun r => (r.1, r.2.1, r.2.2.prop w)) D.size s.m s.L s.t s.T arr file := by
  intro s
  refine ⟨_, mapM_all _ (fun e => (e.group, e.name, (List.range (e.len.len D)).map fun k =>
    some (arr e.src k * e.factor s))) _ ?_, ?_, ?_, ?_, ?_⟩
  · intro e he
    exact writeEntry_fits D s arr e (ha e (List.mem_of_mem_filter he)).1 hc hi hm
  · rw [List.map_map]
    exact (hnd.sublist ((List.filter_sublist).map _))
  · intro d hd
    obtain ⟨e, he, rfl⟩ := List.mem_map.1 hd
    exact hg e (List.mem_of_mem_filter he)
  · intro g n
    constructor
    · rintro ⟨c, hmem⟩
      obtain ⟨e, he, heq⟩ := List.mem_map.1 hmem
      simp only [Prod.mk.injEq] at heq
      obtain ⟨rfl, rfl, -⟩ := heq
      obtain ⟨het, hcond⟩ := List.mem_filter.1 he
      obtain ⟨r, hr, h1, h2, h3⟩ := hcov.1 e het
      refine ⟨(r.1, r.2.1, r.2.2.prop w), List.mem_map.2 ⟨r, hr, rfl⟩, h1, h2, ?_⟩
      show r.2.2.prop w
      rw [h3]; exact (holds_iff w _).1 hcond
    · rintro ⟨row, hrow, h1, h2, h3⟩
      obtain ⟨r, hr, rfl⟩ := List.mem_map.1 hrow
      obtain ⟨e, he, e1, e2, e3⟩ := hcov.2 r hr n h2
      refine ⟨(List.range (e.len.len D)).map fun k => some (arr e.src k * e.factor s),
        List.mem_map.2 ⟨e, List.mem_filter.2 ⟨he, (holds_iff w _).2 (by rw [e3]; exact h3)⟩, ?_⟩⟩
      rw [e1, e2, show r.1 = g from h1]
  · intro g n c hmem
    obtain ⟨e, he, heq⟩ := List.mem_map.1 hmem
    simp only [Prod.mk.injEq] at heq
    obtain ⟨rfl, rfl, rfl⟩ := heq
    obtain ⟨-, hp, hsrc, hd⟩ := ha e (List.mem_of_mem_filter he)
    rw [← norm_len D hx hz, hp, placeExt_len D hx hz, ← hsrc, hd]
    apply List.map_congr_left
    intro k _
    congr 2
    unfold Entry.factor
    cases e.scale with
    | none => simp [Spec.Dataset.pure, Dimension.unit]
    | some p => exact unit_val eta L V T heta hL hV hT p.1

/-- **C108, C109.** The main output file. -/
theorem main_file (w : Switch) (D : Dims) (eta L V T : ℝ) (arr : String → Nat → ℝ)
    (heta : 0 < eta) (hL : 0 < L) (hV : 0 < V) (hT : 0 < T) (hx : 1 ≤ D.Nx) (hz : 1 ≤ D.Nz)
    (hc : D.chain ≤ 50 * D.Nx) (hi : D.chainIni ≤ 50 * D.Nx) (hm : D.mark ≤ D.markMax) :
    let s := Config.scaleMe eta L V T
    ∃ file, writeFile mainTable w D s arr = some file ∧
      FileIs mainGroups (mainFile w.options) D.size s.m s.L s.t s.T arr file :=
  file_is mainTable mainCodes mainGroups main_agrees main_covers main_nodup main_groups w D eta L V T arr
    heta hL hV hT hx hz hc hi hm

/-- **C108, C109.** The marker file. -/
theorem marker_file (w : Switch) (D : Dims) (eta L V T : ℝ) (arr : String → Nat → ℝ)
    (heta : 0 < eta) (hL : 0 < L) (hV : 0 < V) (hT : 0 < T) (hx : 1 ≤ D.Nx) (hz : 1 ≤ D.Nz)
    (hc : D.chain ≤ 50 * D.Nx) (hi : D.chainIni ≤ 50 * D.Nx) (hm : D.mark ≤ D.markMax) :
    let s := Config.scaleMe eta L V T
    ∃ file, writeFile partTable w D s arr = some file ∧
      FileIs partGroups (markerFile w.options) D.size s.m s.L s.t s.T arr file :=
  file_is partTable partCodes partGroups part_agrees part_covers part_nodup part_groups w D eta L V T arr
    heta hL hV hT hx hz hc hi hm

/-- A 4 by 3 grid with a surface, some markers and two steps meets the hypotheses. -/
example := main_file ⟨1, 0, 0, 1⟩ ⟨4, 3, 2, 5, 40, 100, 17, 12⟩ 2 3 5 7 (fun _ k => k) (by norm_num)
  (by norm_num) (by norm_num) (by norm_num) (by decide) (by decide) (by decide) (by decide) (by decide)

/-- The velocity of the second point of the first row in that file: 1 unit is 5 m/s. -/
example : ∃ file c, writeFile mainTable ⟨1, 0, 0, 1⟩ ⟨4, 3, 2, 5, 40, 100, 17, 12⟩ (Config.scaleMe 2 3 5 7)
      (fun _ k => (k : ℝ)) = some file ∧ ("VxNodes", "Vx", c) ∈ file ∧ c.length = 16 ∧ c[1]? = some (some 5) := by
  obtain ⟨file, h1, -, -, h2, h3⟩ := main_file ⟨1, 0, 0, 1⟩ ⟨4, 3, 2, 5, 40, 100, 17, 12⟩ 2 3 5 7
    (fun _ k => k) (by norm_num) (by norm_num) (by norm_num) (by norm_num) (by decide) (by decide) (by decide)
    (by decide) (by decide)
  obtain ⟨c, hc⟩ := (h2 "VxNodes" "Vx").2 ⟨("VxNodes", ["Vx"], True), by simp [mainFile], rfl, by simp, trivial⟩
  refine ⟨file, c, h1, hc, ?_, ?_⟩
  · rw [h3 _ _ _ hc]; simp [place, Place.count, Dims.size]
  · rw [h3 _ _ _ hc]
    simp [place, Place.count, Dims.size, dimension, velocity, Dimension.unit, Config.scaleMe]
    norm_num

/-- **C109.** The parameter array of every output file gives time, width, height, spacings and time step
in SI units when the run holds them in its own units. -/
theorem params_si (eta L V T time xmin xmax zmin zmax dx dz dt : ℝ) (Nx Nz : Nat) (hL : 0 < L) (hV : 0 < V) :
    let s := Config.scaleMe eta L V T
    params s (time / s.t) (xmin / s.L) (xmax / s.L) (zmin / s.L) (zmax / s.L) (dx / s.L) (dz / s.L) (dt / s.t)
        Nx Nz
      = [time, xmax - xmin, zmax - zmin, Nx, Nz, dx, dz, dt] := by
  intro s
  have h1 : s.L ≠ 0 := hL.ne'
  have h2 : s.t ≠ 0 := (div_pos hL hV).ne'
  simp only [params, List.cons.injEq, and_true, true_and]
  refine ⟨?_, ?_, ?_, ?_, ?_, ?_⟩ <;> field_simp

/-! ### Effect on the run -/

theorem timesScalar_eq (a : Nat → ℝ) (c : ℝ) (n k : Nat) :
    timesScalar a c n k = if k < n then a k * c else a k := forUp_map n a (· * c) k

theorem timesScalar_inv (a : Nat → ℝ) (c : ℝ) (n : Nat) (hc : c ≠ 0) :
    timesScalar (timesScalar a c n) (1 / c) n = a := by
  funext k
  rw [timesScalar_eq, timesScalar_eq]
  by_cases h : k < n
  · simp only [h, if_true]; field_simp
  · simp only [h, if_false]

/-- **C113.** The dump of the residuals scales the run's own arrays in place and back; the fields after it
are the fields before it, and those written are in SI units on their whole extent. -/
theorem residual_dump_restores (D : Dims) (eta L V T : ℝ) (heta : 0 < eta) (hL : 0 < L) (hV : 0 < V)
    (f : Fields) :
    let s := Config.scaleMe eta L V T
    (writeResiduals D s f).2 = f ∧
      (∀ k < (D.Nx - 1) * (D.Nz - 1), (writeResiduals D s f).1.eta_n k = f.eta_n k * s.eta ∧
        (writeResiduals D s f).1.rho_n k = f.rho_n k * s.rho) ∧
      (∀ k < D.Nx * D.Nz, (writeResiduals D s f).1.eta_s k = f.eta_s k * s.eta ∧
        (writeResiduals D s f).1.rho_s k = f.rho_s k * s.rho) := by
  intro s
  have ht : 0 < L / V := div_pos hL hV
  have h1 : s.eta ≠ 0 := heta.ne'
  have h2 : s.rho ≠ 0 := by
    show eta / (L / V) * L * (L / V) ^ 2 / L ^ 3 ≠ 0
    positivity
  have h3 : s.E ≠ 0 := by
    show 1 / (L / V) ≠ 0
    positivity
  have h4 : s.F ≠ 0 := by
    show eta / (L / V) * L * (L / V) ^ 2 * L / (L / V) ^ 2 ≠ 0
    positivity
  refine ⟨?_, ?_, ?_⟩
  · ext k <;> simp only [writeResiduals, scaleFields] <;>
      first
        | rw [timesScalar_inv _ _ _ h1]
        | rw [timesScalar_inv _ _ _ h2]
        | rw [timesScalar_inv _ _ _ h3]
        | rw [timesScalar_inv _ _ _ h4]
  · intro k hk
    simp only [writeResiduals, scaleFields, timesScalar_eq, Ext.len, if_pos hk, and_self]
  · intro k hk
    simp only [writeResiduals, scaleFields, timesScalar_eq, Ext.len, if_pos hk, and_self]

/-- Densities of the cells in the next step from the fields (RheologyDensity.c:1498-1545), for one phase. -/
noncomputable def nextDensity (m : Dens.Mat) (T P phi junk : ℝ) (f : Fields) (c : Nat) : ℝ :=
  Dens.cellDensity 1 (-1) (fun _ => 1) fun p => Dens.evaluate 0 (fun _ => m) p T P (f.X_n c) phi junk

/-- **C113.** Writing the output file leaves the run's fields as they are unless composition diffusion is
switched on; the density computed next is then the same whether or not output was written.  Missing: with
the switch on the claim is false, see `output_changes_run`. -/
theorem output_leaves_run_partial (fromMarkers : Nat → ℝ) (f : Fields) :
    afterOutput 0 fromMarkers f = f ∧
    (∀ d, (afterOutput d fromMarkers f).eta_n = f.eta_n ∧ (afterOutput d fromMarkers f).rho_n = f.rho_n ∧
      (afterOutput d fromMarkers f).eta_s = f.eta_s ∧ (afterOutput d fromMarkers f).rho_s = f.rho_s ∧
      (afterOutput d fromMarkers f).rp = f.rp ∧ (afterOutput d fromMarkers f).ru = f.ru ∧
      (afterOutput d fromMarkers f).rv = f.rv) ∧
    (∀ d, fromMarkers = f.X_n → afterOutput d fromMarkers f = f) := by
  refine ⟨by simp [afterOutput], ?_, ?_⟩
  · intro d
    unfold afterOutput
    split_ifs <;> simp
  · intro d h
    unfold afterOutput
    split_ifs
    · rw [h]
    · rfl

/-- With composition diffusion switched on, writing output replaces the composition on the grid by that of
the markers, and the densities of the next step change: results depend on how often output is written. -/
theorem output_changes_run (m : Dens.Mat) (hm : m.dens = 1) (hd : m.drho ≠ 0) (fromMarkers : Nat → ℝ)
    (f : Fields) (c : Nat) (hX : fromMarkers c ≠ f.X_n c) (d : Int) (hdiff : d ≠ 0) (phi junk : ℝ) :
    nextDensity m m.T0 m.P0 phi junk (afterOutput d fromMarkers f) c ≠ nextDensity m m.T0 m.P0 phi junk f c := by
  have key : ∀ g : Fields, nextDensity m m.T0 m.P0 phi junk g c = m.rho + g.X_n c * m.drho := by
    intro g
    have h1 : (1 : ℝ) / 10 ^ 13 < |1| := by norm_num
    simp only [nextDensity, Dens.cellDensity, forUp_succ, forUp, h1, if_true, Dens.evaluate, hm]
    norm_num
    ring
  rw [key, key]
  unfold afterOutput
  rw [if_pos hdiff]
  intro h
  apply hX
  have : fromMarkers c * m.drho = f.X_n c * m.drho := by linarith
  exact mul_right_cancel₀ hd this

/-- A material whose product is lighter by 100, markers fully reacted, grid not. -/
example := output_changes_run ⟨1, 3000, -100, 0, 0, 0, 0, 0, 1, 1, 0, 1, 0, 1, fun _ => 0, 1, 0, 1, fun _ => 0⟩ rfl
  (by norm_num) (fun _ => 1) ⟨fun _ => 0, fun _ => 0, fun _ => 0, fun _ => 0, fun _ => 0, fun _ => 0, fun _ => 0,
    fun _ => 0⟩ 0 (by norm_num) 1 (by norm_num) 0 0

/-- **C108 (chunks).** The chunk length of every dataset that has an entry is one HDF5 accepts: at least one
entry and not more than the dataset has. -/
theorem chunk_valid (np : Nat) (h : 0 < np) : 1 ≤ Output.chunk np ∧ Output.chunk np ≤ np := by
  unfold Output.chunk
  split_ifs <;> omega

example : 1 ≤ Output.chunk 7 ∧ Output.chunk 7 ≤ 7 ∧ Output.chunk 4000 = 200 := ⟨(chunk_valid 7 (by norm_num)).1, (chunk_valid 7 (by norm_num)).2, by decide⟩

end Verif.Dataset
