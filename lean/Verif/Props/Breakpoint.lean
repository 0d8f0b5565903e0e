import Verif.Lemmas.Breakpoint
import Verif.Spec.Breakpoint
import Mathlib.Data.List.Nodup

/-
C38, C39: what a breakpoint gives back, and what writing one does to the running simulation.
-/
namespace Verif.Bp

variable {K : Type*} [Field K]

set_option linter.unusedSectionVars false
set_option maxRecDepth 20000

/-! ### The two programs agree, up to the three old-stress arrays -/

theorem readA_eq : readA = writeA.map swap := by decide +kernel

theorem readB_eq : readB = writeB.map swap := by decide +kernel

theorem readPhases_eq (n : Nat) : readPhases n = (writePhases n).map swap := by
  unfold readPhases writePhases
  rw [List.map_flatMap]
  rfl

theorem readProg_eq (sw : Sw) : readProg sw = (writeProg sw).map swap := by
  unfold readProg writeProg
  rw [readA_eq, readB_eq, readPhases_eq, ← List.map_append, ← List.map_append, List.filter_map]
  rfl

/-- The tests of a condition, from five switches. -/
def onOf (a b c d e : Bool) : Cond → Bool
  | .always => true
  | .freeSurface => a
  | .elastic => b
  | .finiteStrain => c
  | .anisotropy => d
  | .track => e

theorem on_eq (sw : Sw) : (fun o : Op => o.cond.on sw) = fun o : Op =>
    onOf (sw.free_surface == 1) (sw.elastic == 1) (sw.finite_strain == 1) (sw.anisotropy == 1)
      (sw.track_T_P_x_z == 1) o.cond := by
  funext o
  cases o.cond <;> rfl

/-- Counts known before the phase loop. -/
def counts (a : Bool) : List Fld :=
  if a then [.particles_Nb_part, .topo_chain_ini_Nb_part, .topo_chain_Nb_part]
  else [.particles_Nb_part]

theorem scopeA : ∀ a b c d e : Bool,
    scopeOK [] (writeA.filter fun o => onOf a b c d e o.cond) = some (counts a) := by
  decide +kernel

theorem scopeB : ∀ a b c d e : Bool,
    scopeOK (counts a) (writeB.filter fun o => onOf a b c d e o.cond) = some (counts a) := by
  decide +kernel

theorem counts_no_phase (a : Bool) (k : Nat) :
    Fld.mesh_phase_perc_n k ∉ counts a ∧ Fld.mesh_phase_perc_s k ∉ counts a := by
  cases a <;> simp [counts]

theorem scopePhases (a : Bool) (n : Nat) :
    scopeOK (counts a) (writePhases n) = some (counts a) := by
  induction n with
  | zero => rfl
  | succ n ih =>
    have : writePhases (n + 1) = writePhases n ++
        [⟨.always, .mesh_phase_perc_n n, .dbl, .cells⟩,
          ⟨.always, .mesh_phase_perc_s n, .dbl, .verts⟩] := by
      unfold writePhases
      rw [List.range_succ, List.flatMap_append]
      rfl
    rw [this]
    refine scopeOK_append ih ?_
    obtain ⟨h1, h2⟩ := counts_no_phase a n
    simp [scopeOK, Cnt.known, dest, h1, h2]

theorem filterPhases (sw : Sw) (n : Nat) :
    (writePhases n).filter (fun o => o.cond.on sw) = writePhases n := by
  rw [List.filter_eq_self]
  intro o ho
  unfold writePhases at ho
  obtain ⟨k, -, hk⟩ := List.mem_flatMap.1 ho
  simp only [List.mem_cons, List.not_mem_nil, or_false] at hk
  rcases hk with rfl | rfl <;> rfl

theorem writeProg_split (sw : Sw) : writeProg sw =
    writeA.filter (fun o => o.cond.on sw) ++ (writePhases sw.Nb_phases ++
      writeB.filter (fun o => o.cond.on sw)) := by
  unfold writeProg
  rw [List.filter_append, List.filter_append, filterPhases]

theorem scope_all (sw : Sw) :
    scopeOK [] (writeProg sw) = some (counts (sw.free_surface == 1)) := by
  rw [writeProg_split, on_eq]
  exact scopeOK_append (scopeA _ _ _ _ _) (scopeOK_append (scopePhases _ _) (scopeB _ _ _ _ _))

/-- Is the variable one of the phase fractions? -/
def Fld.isPhase : Fld → Bool
  | .mesh_phase_perc_n _ | .mesh_phase_perc_s _ => true
  | _ => false

theorem nodupAB : ((writeA ++ writeB).map fun w => dest w.f).Nodup := by decide +kernel

theorem noPhaseAB : ∀ w ∈ writeA ++ writeB, (dest w.f).isPhase = false := by decide +kernel

theorem phases_isPhase (n : Nat) : ∀ w ∈ writePhases n, (dest w.f).isPhase = true := by
  intro o ho
  unfold writePhases at ho
  obtain ⟨k, -, hk⟩ := List.mem_flatMap.1 ho
  simp only [List.mem_cons, List.not_mem_nil, or_false] at hk
  rcases hk with rfl | rfl <;> rfl

theorem phases_lt (n : Nat) : ∀ w ∈ writePhases n, ∃ k < n,
    dest w.f = .mesh_phase_perc_n k ∨ dest w.f = .mesh_phase_perc_s k := by
  intro o ho
  unfold writePhases at ho
  obtain ⟨k, hk0, hk⟩ := List.mem_flatMap.1 ho
  simp only [List.mem_cons, List.not_mem_nil, or_false] at hk
  refine ⟨k, List.mem_range.1 hk0, ?_⟩
  rcases hk with rfl | rfl <;> simp [dest]

theorem nodupPhases (n : Nat) : ((writePhases n).map fun w => dest w.f).Nodup := by
  induction n with
  | zero => simp [writePhases]
  | succ n ih =>
    have : writePhases (n + 1) = writePhases n ++
        [⟨.always, .mesh_phase_perc_n n, .dbl, .cells⟩,
          ⟨.always, .mesh_phase_perc_s n, .dbl, .verts⟩] := by
      unfold writePhases
      rw [List.range_succ, List.flatMap_append]
      rfl
    rw [this, List.map_append, List.nodup_append]
    refine ⟨ih, by simp [dest], ?_⟩
    intro f hf g hg
    obtain ⟨w, hw, rfl⟩ := List.mem_map.1 hf
    obtain ⟨k, hk, h⟩ := phases_lt n w hw
    simp only [List.map_cons, List.map_nil, dest, List.mem_cons, List.not_mem_nil, or_false] at hg
    intro he
    rw [he] at h
    rcases hg with rfl | rfl <;> rcases h with h | h <;> simp at h <;> omega

theorem nodup_all (sw : Sw) : ((writeProg sw).map fun w => dest w.f).Nodup := by
  have hfull : ((writeA ++ (writePhases sw.Nb_phases ++ writeB)).map fun w => dest w.f).Nodup := by
    have hp : (writeA ++ (writePhases sw.Nb_phases ++ writeB)).Perm
        ((writeA ++ writeB) ++ writePhases sw.Nb_phases) := by
      rw [List.append_assoc]
      exact List.Perm.append_left _ List.perm_append_comm
    rw [(hp.map _).nodup_iff, List.map_append, List.nodup_append]
    refine ⟨nodupAB, nodupPhases _, ?_⟩
    intro f hf g hg
    obtain ⟨w, hw, rfl⟩ := List.mem_map.1 hf
    obtain ⟨w', hw', rfl⟩ := List.mem_map.1 hg
    intro he
    have h1 := noPhaseAB w hw
    have h2 := phases_isPhase _ w' hw'
    rw [he, h2] at h1
    cases h1
  unfold writeProg
  exact hfull.sublist (List.filter_sublist.map _)

/-- Reading back a breakpoint: types and counts match all the way, and every item lands where the
reader puts it. -/
theorem read_prog (sw : Sw) (m m' : Mem K) :
    ∃ r, runRead sw (readProg sw) (m', (writeProg sw).flatMap fun o => o.words sw m) =
        some (r, []) ∧
      (∀ f, (∀ w ∈ writeProg sw, f ≠ dest w.f) → r.D f = m'.D f ∧ r.Z f = m'.Z f) ∧
      (∀ w ∈ writeProg sw, Got sw m r w) ∧
      (∀ g ∈ counts (sw.free_surface == 1), r.Z g 0 = m.Z g 0) := by
  obtain ⟨r, h1, h2, h3, h4⟩ := read_back sw m (writeProg sw) [] _ m' (scope_all sw)
    (fun _ h => absurd h List.not_mem_nil) (nodup_all sw)
  refine ⟨r, ?_, h3, h4, h2⟩
  rw [readProg_eq, ← h1 [], List.append_nil]

/-! ### Scale factors of writer and reader -/

theorem scales_match : ∀ w ∈ writeA ++ writeB, dest w.f = w.f →
    scaleUp.filter (fun e => e.f = w.f) = scaleLoad.filter (fun e => e.f = w.f) := by
  decide +kernel

theorem scales_no_phase : ∀ e ∈ scaleUp ++ scaleLoad, e.f.isPhase = false := by decide +kernel

theorem scale_counts_AB : ∀ e ∈ scaleLoad, ∀ g, e.cnt = .nb g →
    (e.cond = .freeSurface ∧ g ∈ counts true) ∨ g = .particles_Nb_part := by
  have h : ∀ e ∈ scaleLoad, (match e.cnt with
      | .nb g => decide ((e.cond = .freeSurface ∧ g ∈ counts true) ∨ g = .particles_Nb_part)
      | _ => true) = true := by decide +kernel
  intro e he g hg
  have := h e he
  rw [hg] at this
  simpa using this

theorem mem_writeProg (sw : Sw) (w : Op) : w ∈ writeProg sw ↔
    (w ∈ writeA ++ writeB ∧ w.cond.on sw = true) ∨ w ∈ writePhases sw.Nb_phases := by
  rw [writeProg_split]
  simp only [List.mem_append, List.mem_filter]
  tauto

/-- Every statement of the writer, except those for the three old-stress arrays, is restored by the
loader. -/
theorem round_trip_items (sw : Sw) (sc : Scales K) (hsc : ∀ x : Fac, x.val sc ≠ 0)
    (m m' : Mem K) :
    ∃ r, load sw sc (make sw sc m).1 m' = some r ∧
      (∀ w ∈ writeProg sw, dest w.f = w.f → ∀ i < w.cnt.val sw m,
        (w.kind = .dbl → r.D w.f i = m.D w.f i) ∧ (w.kind ≠ .dbl → r.Z w.f i = m.Z w.f i)) ∧
      (∀ f, (∀ w ∈ writeProg sw, f ≠ dest w.f) → r.Z f = m'.Z f ∧
        ∀ i, r.D f i = m'.D f i / (facs sw sc m f i scaleLoad).prod) ∧
      (∀ w ∈ writeProg sw, w.kind = .dbl → ∀ i < w.cnt.val sw m, r.D (dest w.f) i =
        m.D w.f i * (facs sw sc m w.f i scaleUp).prod /
          (facs sw sc m (dest w.f) i scaleLoad).prod) := by
  set m1 := runSc (· * ·) sw sc scaleUp m with hm1
  have hZ1 : m1.Z = m.Z := runSc_Z _ sw sc scaleUp m
  obtain ⟨r, hr, hun, hgot, hcnt⟩ := read_prog sw m1 m'
  have hfc : ∀ f i, facs sw sc r f i scaleLoad = facs sw sc m f i scaleLoad := by
    intro f i
    unfold facs
    congr 1
    apply List.filter_congr
    intro e he
    have he' := (List.mem_filter.1 he).1
    by_cases hon : e.cond.on sw = true
    · have : e.cnt.val sw r = e.cnt.val sw m := by
        cases hc : e.cnt with
        | nb g =>
          have hg : r.Z g 0 = m1.Z g 0 := by
            apply hcnt
            rcases scale_counts_AB e he' g hc with ⟨h1, h2⟩ | rfl
            · rw [h1] at hon
              have hon' : (sw.free_surface == 1) = true := hon
              rw [hon']; exact h2
            · unfold counts; split <;> simp
          simp [Cnt.val, hg, hZ1]
        | _ => rfl
      rw [this]
    · simp [hon]
  have hval : ∀ w ∈ writeProg sw, w.kind = .dbl → ∀ i < w.cnt.val sw m,
      (runSc (· / ·) sw sc scaleLoad r).D (dest w.f) i =
        m.D w.f i * (facs sw sc m w.f i scaleUp).prod /
          (facs sw sc m (dest w.f) i scaleLoad).prod := by
    intro w hw hk i hi
    rw [runSc_div, hfc, (hgot w hw i (by rwa [cnt_congr hZ1])).1 hk, hm1, runSc_mul]
  refine ⟨runSc (· / ·) sw sc scaleLoad r, ?_, ?_, ?_, hval⟩
  · show (runRead sw (readProg sw)
      (m', (writeProg sw).flatMap fun o => o.words sw m1)).map _ = _
    rw [hr]; rfl
  · intro w hw hd i hi
    constructor
    · intro hk
      have h := hval w hw hk i hi
      rw [hd] at h
      rw [h]
      have hfe : facs sw sc m w.f i scaleUp = facs sw sc m w.f i scaleLoad := by
        unfold facs
        rcases (mem_writeProg sw w).1 hw with ⟨h, -⟩ | h
        · rw [scales_match w h hd]
        · have hp : w.f.isPhase = true := hd ▸ phases_isPhase _ w h
          have he : ∀ l : List Sc, (∀ e ∈ l, e.f.isPhase = false) →
              l.filter (fun e => decide (e.f = w.f)) = [] := by
            intro l hl
            rw [List.filter_eq_nil_iff]
            intro e he1 he2
            have := hl e he1
            rw [decide_eq_true_eq] at he2
            rw [he2, hp] at this
            cases this
          rw [he scaleUp fun e h => scales_no_phase e (List.mem_append_left _ h),
            he scaleLoad fun e h => scales_no_phase e (List.mem_append_right _ h)]
      rw [hfe, mul_div_assoc, div_self (facs_ne_zero hsc m w.f i _), mul_one]
    · intro hk
      rw [runSc_Z]
      have h := (hgot w hw i (by rwa [cnt_congr hZ1])).2 hk
      rw [hd] at h
      rw [h, hZ1]
  · intro f hf
    obtain ⟨h1, h2⟩ := hun f hf
    refine ⟨by rw [runSc_Z]; exact h2, fun i => ?_⟩
    rw [runSc_div, hfc, h1]

/-- Group membership: each quantity of the specification is stored with its count. -/
theorem stored_scalars : ∀ f ∈ scalars, ⟨.always, f, .dbl, .one⟩ ∈ writeA ++ writeB ∧ dest f = f := by
  decide +kernel

theorem stored_series : ∀ f ∈ seriesReals,
    ⟨.always, f, .dbl, .nt1⟩ ∈ writeA ++ writeB ∧ dest f = f := by decide +kernel

theorem stored_columns : ∀ f ∈ columnReals,
    ⟨.freeSurface, f, .dbl, .nx⟩ ∈ writeA ++ writeB ∧ dest f = f := by decide +kernel

theorem stored_segments : ∀ f ∈ segmentReals,
    ⟨.freeSurface, f, .dbl, .ncx⟩ ∈ writeA ++ writeB ∧ dest f = f := by decide +kernel

theorem stored_chains : ∀ c ∈ chains, (⟨.freeSurface, c.1, .int, .one⟩ ∈ writeA ++ writeB ∧
    dest c.1 = c.1) ∧ ∀ f ∈ c.2, ⟨.freeSurface, f, .dbl, .nb c.1⟩ ∈ writeA ++ writeB ∧
    dest f = f := by decide +kernel

theorem stored_markers (sw : Sw) : ∀ f ∈ markerReals sw, ∃ c : Cond, c.on sw = true ∧
    ⟨c, f, .dbl, .nb .particles_Nb_part⟩ ∈ writeA ++ writeB ∧ dest f = f := by
  intro f hf
  unfold markerReals at hf
  simp only [List.mem_append] at hf
  have key : ∀ (c : Cond) (l : List Fld), c.on sw = true →
      (∀ f ∈ l, ⟨c, f, .dbl, .nb .particles_Nb_part⟩ ∈ writeA ++ writeB ∧ dest f = f) → f ∈ l →
      ∃ c : Cond, c.on sw = true ∧
        ⟨c, f, .dbl, .nb .particles_Nb_part⟩ ∈ writeA ++ writeB ∧ dest f = f :=
    fun c l h1 h2 h3 => ⟨c, h1, h2 f h3⟩
  rcases hf with (((h | h) | h) | h) | h
  · exact key .always _ rfl (by decide +kernel) h
  · split at h
    · exact key .elastic _ (by simpa [Cond.on]) (by decide +kernel) h
    · cases h
  · split at h
    · exact key .finiteStrain _ (by simpa [Cond.on]) (by decide +kernel) h
    · cases h
  · split at h
    · exact key .anisotropy _ (by simpa [Cond.on]) (by decide +kernel) h
    · cases h
  · split at h
    · exact key .track _ (by simpa [Cond.on]) (by decide +kernel) h
    · cases h

theorem mem_phases_n {n k : Nat} (h : k < n) :
    ⟨.always, .mesh_phase_perc_n k, .dbl, .cells⟩ ∈ writePhases n :=
  List.mem_flatMap.2 ⟨k, List.mem_range.2 h, by simp⟩

theorem mem_phases_s {n k : Nat} (h : k < n) :
    ⟨.always, .mesh_phase_perc_s k, .dbl, .verts⟩ ∈ writePhases n :=
  List.mem_flatMap.2 ⟨k, List.mem_range.2 h, by simp⟩

theorem stored_centres (sw : Sw) : ∀ f ∈ centreReals sw, ∃ c : Cond,
    ⟨c, f, .dbl, .cells⟩ ∈ writeProg sw ∧ dest f = f := by
  intro f hf
  unfold centreReals at hf
  simp only [List.mem_append] at hf
  have key : ∀ (c : Cond) (l : List Fld), c.on sw = true →
      (∀ f ∈ l, ⟨c, f, .dbl, .cells⟩ ∈ writeA ++ writeB ∧ dest f = f) → f ∈ l →
      ∃ c : Cond, ⟨c, f, .dbl, .cells⟩ ∈ writeProg sw ∧ dest f = f :=
    fun c l h1 h2 h3 => ⟨c, (mem_writeProg sw _).2 (Or.inl ⟨(h2 f h3).1, h1⟩), (h2 f h3).2⟩
  rcases hf with (h | h) | h
  · exact key .always _ rfl (by decide +kernel) h
  · split at h
    · exact key .elastic _ (by simpa [Cond.on]) (by decide +kernel) h
    · cases h
  · obtain ⟨k, hk, rfl⟩ := List.mem_map.1 h
    exact ⟨.always, (mem_writeProg sw _).2 (Or.inr (mem_phases_n (List.mem_range.1 hk))), rfl⟩

theorem stored_vertices (sw : Sw) : ∀ f ∈ vertexReals sw, ∃ c : Cond,
    ⟨c, f, .dbl, .verts⟩ ∈ writeProg sw ∧ dest f = f := by
  intro f hf
  unfold vertexReals at hf
  simp only [List.mem_append] at hf
  have key : ∀ (c : Cond) (l : List Fld), c.on sw = true →
      (∀ f ∈ l, ⟨c, f, .dbl, .verts⟩ ∈ writeA ++ writeB ∧ dest f = f) → f ∈ l →
      ∃ c : Cond, ⟨c, f, .dbl, .verts⟩ ∈ writeProg sw ∧ dest f = f :=
    fun c l h1 h2 h3 => ⟨c, (mem_writeProg sw _).2 (Or.inl ⟨(h2 f h3).1, h1⟩), (h2 f h3).2⟩
  rcases hf with (h | h) | h
  · exact key .always _ rfl (by decide +kernel) h
  · split at h
    · exact key .elastic _ (by simpa [Cond.on]) (by decide +kernel) h
    · cases h
  · obtain ⟨k, hk, rfl⟩ := List.mem_map.1 h
    exact ⟨.always, (mem_writeProg sw _).2 (Or.inr (mem_phases_s (List.mem_range.1 hk))), rfl⟩

/-- **C38 (partial).**  For every state `m`, every combination of switches and every memory `m'` in
which the restarted program starts: loading the breakpoint written from `m` succeeds and gives back
the state of the run.  Missing from the full claim: the old-stress arrays, see
`old_stress_not_restored`. -/
theorem breakpoint_round_trip_partial (sw : Sw) (sc : Scales K) (hsc : ∀ x : Fac, x.val sc ≠ 0)
    (m m' : Mem K) :
    ∃ r, load sw sc (make sw sc m).1 m' = some r ∧ Restored sw m r := by
  obtain ⟨r, hl, hr, -, -⟩ := round_trip_items sw sc hsc m m'
  refine ⟨r, hl, ?_⟩
  have hp : ∀ (c : Cond) (f : Fld) (k : Kind) (n : Cnt), c.on sw = true →
      (⟨c, f, k, n⟩ ∈ writeA ++ writeB ∧ dest f = f) → ∀ i < n.val sw m,
      (k = .dbl → r.D f i = m.D f i) ∧ (k ≠ .dbl → r.Z f i = m.Z f i) :=
    fun c f k n hc h => hr ⟨c, f, k, n⟩ ((mem_writeProg sw _).2 (Or.inl ⟨h.1, hc⟩)) h.2
  have hD : ∀ (c : Cond) (l : List Fld) (n : Cnt), c.on sw = true →
      (∀ f ∈ l, ⟨c, f, .dbl, n⟩ ∈ writeA ++ writeB ∧ dest f = f) → SameD m r l (n.val sw m) :=
    fun c l n hc h f hf i hi => (hp c f .dbl n hc (h f hf) i hi).1 rfl
  have hI : ∀ (c : Cond) (l : List Fld) (n : Cnt), c.on sw = true →
      (∀ f ∈ l, ⟨c, f, .int, n⟩ ∈ writeA ++ writeB ∧ dest f = f) → SameZ m r l (n.val sw m) :=
    fun c l n hc h f hf i hi => (hp c f .int n hc (h f hf) i hi).2 (by decide)
  have hC : ∀ (c : Cond) (l : List Fld) (n : Cnt), c.on sw = true →
      (∀ f ∈ l, ⟨c, f, .chr, n⟩ ∈ writeA ++ writeB ∧ dest f = f) → SameZ m r l (n.val sw m) :=
    fun c l n hc h f hf i hi => (hp c f .chr n hc (h f hf) i hi).2 (by decide)
  have hfs : sw.free_surface = 1 → Cond.freeSurface.on sw = true := fun h => by simp [Cond.on, h]
  constructor
  · exact hD .always _ .one rfl stored_scalars
  · exact hI .always [.particles_Nb_part] .one rfl (by decide +kernel) _ (by simp) 0 (by simp [Cnt.val])
  · intro f hf i hi
    obtain ⟨c, h1, h2⟩ := stored_markers sw f hf
    exact (hp c f .dbl _ h1 h2 i hi).1 rfl
  · exact hI .always markerInts (.nb .particles_Nb_part) rfl (by decide +kernel)
  · intro f hf i hi
    obtain ⟨c, h1, h2⟩ := stored_centres sw f hf
    exact (hr _ h1 h2 i hi).1 rfl
  · intro f hf i hi
    simp only [List.mem_cons, List.not_mem_nil, or_false] at hf
    rcases hf with rfl | rfl | rfl
    · exact hC .always [.mesh_BCt_type] .cells rfl (by decide +kernel) _ (by simp) i hi
    · exact hC .always [.mesh_BCp_type] .cells rfl (by decide +kernel) _ (by simp) i hi
    · exact hI .always [.mesh_nb_part_cell] .cells rfl (by decide +kernel) _ (by simp) i hi
  · intro f hf i hi
    obtain ⟨c, h1, h2⟩ := stored_vertices sw f hf
    exact (hr _ h1 h2 i hi).1 rfl
  · intro f hf i hi
    simp only [List.mem_cons, List.not_mem_nil, or_false] at hf
    rcases hf with rfl | rfl
    · exact hC .always [.mesh_BCg_type] .verts rfl (by decide +kernel) _ (by simp) i hi
    · exact hI .always [.mesh_nb_part_vert] .verts rfl (by decide +kernel) _ (by simp) i hi
  · exact hD .always _ .vx rfl (by decide +kernel)
  · exact hC .always _ .vx rfl (by decide +kernel)
  · exact hD .always _ .vz rfl (by decide +kernel)
  · exact hC .always _ .vz rfl (by decide +kernel)
  · exact hD .always _ .nt1 rfl stored_series
  · intro h c hc
    obtain ⟨h1, h2⟩ := stored_chains c hc
    refine ⟨?_, hD .freeSurface c.2 (.nb c.1) (hfs h) h2⟩
    exact (hp .freeSurface c.1 .int .one (hfs h) h1 0 (by simp [Cnt.val])).2 (by decide)
  · exact fun h => hD .freeSurface _ .nx (hfs h) stored_columns
  · exact fun h => hD .freeSurface _ .nx1 (hfs h) (by decide +kernel)
  · exact fun h => hD .freeSurface _ .ncx (hfs h) stored_segments

theorem notWritten (f : Fld) (hf : f.isPhase = false) (h : ∀ w ∈ writeA ++ writeB, f ≠ dest w.f)
    (sw : Sw) : ∀ w ∈ writeProg sw, f ≠ dest w.f := by
  intro w hw he
  rcases (mem_writeProg sw w).1 hw with ⟨hw, -⟩ | hw
  · exact h w hw he
  · have := phases_isPhase _ w hw
    rw [← he, hf] at this
    cases this

/-- **C38, where it fails.**  The old stresses are not restored: after loading, `sxxd0`, `szzd0` and
`sxz0` still have whatever values they had before, and the stored values are found in the arrays of
the current stresses (InputOutput.c:260-264 against 769-773). -/
theorem old_stress_not_restored (sw : Sw) (sc : Scales K) (hsc : ∀ x : Fac, x.val sc ≠ 0)
    (m m' : Mem K) :
    ∃ r, load sw sc (make sw sc m).1 m' = some r ∧
      (r.D .mesh_sxxd0 = m'.D .mesh_sxxd0 ∧ r.D .mesh_szzd0 = m'.D .mesh_szzd0 ∧
        r.D .mesh_sxz0 = m'.D .mesh_sxz0) ∧
      (∀ i < (sw.Nx - 1) * (sw.Nz - 1), r.D .mesh_sxxd i = m.D .mesh_sxxd0 i ∧
        r.D .mesh_szzd i = m.D .mesh_szzd0 i) ∧
      ∀ i < sw.Nx * sw.Nz, r.D .mesh_sxz i = m.D .mesh_sxz0 i := by
  obtain ⟨r, hl, -, hun, hv⟩ := round_trip_items sw sc hsc m m'
  have key : ∀ f : Fld, f.isPhase = false → (∀ w ∈ writeA ++ writeB, f ≠ dest w.f) →
      scaleLoad.filter (fun e => e.f = f) = [] → r.D f = m'.D f := by
    intro f h1 h2 h3
    funext i
    rw [(hun f (notWritten f h1 h2 sw)).2 i]
    unfold facs
    rw [h3]; simp
  have key2 : ∀ (f : Fld) (n : Cnt) (i : Nat), ⟨.always, f, .dbl, n⟩ ∈ writeA ++ writeB →
      scaleUp.filter (fun e => e.f = f) = [⟨.always, f, n, .S⟩] →
      scaleLoad.filter (fun e => e.f = dest f) = [⟨.always, dest f, n, .S⟩] →
      i < n.val sw m → r.D (dest f) i = m.D f i := by
    intro f n i h1 h2 h3 hi
    rw [hv _ ((mem_writeProg sw _).2 (Or.inl ⟨h1, rfl⟩)) rfl i hi]
    unfold facs
    rw [h2, h3]
    have : Fac.val sc .S ≠ 0 := hsc .S
    simp [Cond.on, hi, this]
  refine ⟨r, hl, ⟨?_, ?_, ?_⟩, fun i hi => ⟨?_, ?_⟩, fun i hi => ?_⟩
  · exact key _ rfl (by decide +kernel) (by decide +kernel)
  · exact key _ rfl (by decide +kernel) (by decide +kernel)
  · exact key _ rfl (by decide +kernel) (by decide +kernel)
  · exact key2 .mesh_sxxd0 .cells i (by decide +kernel) (by decide +kernel) (by decide +kernel) hi
  · exact key2 .mesh_szzd0 .cells i (by decide +kernel) (by decide +kernel) (by decide +kernel) hi
  · exact key2 .mesh_sxz0 .verts i (by decide +kernel) (by decide +kernel) (by decide +kernel) hi

/-- The loader also divides the advection velocities by the velocity scale although it has not read
them (InputOutput.c:407, 415): they come out as their previous values divided by the scale. -/
theorem advection_velocity_rescaled (sw : Sw) (sc : Scales K) (hsc : ∀ x : Fac, x.val sc ≠ 0)
    (m m' : Mem K) :
    ∃ r, load sw sc (make sw sc m).1 m' = some r ∧
      (∀ i < sw.Nx * (sw.Nz + 1), r.D .mesh_u_adv i = m'.D .mesh_u_adv i / sc.V) ∧
      ∀ i < (sw.Nx + 1) * sw.Nz, r.D .mesh_v_adv i = m'.D .mesh_v_adv i / sc.V := by
  obtain ⟨r, hl, -, hun, -⟩ := round_trip_items sw sc hsc m m'
  have key : ∀ (f : Fld) (n : Cnt) (i : Nat), f.isPhase = false →
      (∀ w ∈ writeA ++ writeB, f ≠ dest w.f) →
      scaleLoad.filter (fun e => e.f = f) = [⟨.always, f, n, .V⟩] → i < n.val sw m →
      r.D f i = m'.D f i / sc.V := by
    intro f n i h1 h2 h3 hi
    rw [(hun f (notWritten f h1 h2 sw)).2 i]
    unfold facs
    rw [h3]
    simp [Cond.on, hi, Fac.val]
  exact ⟨r, hl, fun i hi => key _ .vx i rfl (by decide +kernel) (by decide +kernel) hi,
    fun i hi => key _ .vz i rfl (by decide +kernel) (by decide +kernel) hi⟩

/-! ### C39 -/

theorem up_down : scaleUp.Perm scaleDown := by decide +kernel

/-- **C39.**  For every state, every combination of switches and every non-zero scaling, writing a
breakpoint leaves the memory exactly as it was. -/
theorem writing_leaves_memory (sw : Sw) (sc : Scales K) (hsc : ∀ x : Fac, x.val sc ≠ 0)
    (m : Mem K) : (make sw sc m).2 = m := by
  have hZ : (make sw sc m).2.Z = m.Z := by
    show (runSc (· / ·) sw sc scaleDown (runSc (· * ·) sw sc scaleUp m)).Z = m.Z
    rw [runSc_Z, runSc_Z]
  have hD : (make sw sc m).2.D = m.D := by
    funext f i
    show (if f.byValue then m.D f else
      (runSc (· / ·) sw sc scaleDown (runSc (· * ·) sw sc scaleUp m)).D f) i = m.D f i
    split
    · rfl
    · rw [runSc_div, facs_congr sc (runSc_Z _ sw sc scaleUp m), runSc_mul,
        facs_perm sc m f i up_down, mul_div_assoc, div_self (facs_ne_zero hsc m f i _), mul_one]
  cases h : (make sw sc m).2 with
  | mk D Z => rw [h] at hD hZ; simp only at hD hZ; rw [hD, hZ]

theorem store_nil {α : Type*} (a : Nat → α) : store [] a = a := by
  funext i; simp [store]

/-- A short file is accepted without complaint: loading an empty file (for instance one truncated by
a crash just after it was opened for writing) "succeeds" and changes no integer array. -/
theorem empty_file_accepted (sw : Sw) (sc : Scales K) (m' : Mem K) :
    load sw sc [] m' = some (runSc (· / ·) sw sc scaleLoad m') := by
  have h1 : ∀ (o : Op) (m : Mem K), o.read sw (m, []) = some (m, []) := by
    intro o m
    unfold Op.read
    cases o.kind <;> simp [store_nil]
  have h2 : ∀ (l : List Op) (m : Mem K), runRead sw l (m, []) = some (m, []) := by
    intro l
    induction l with
    | nil => intro m; rfl
    | cons o l ih => intro m; rw [runRead, h1]; exact ih m
  unfold load
  rw [h2]; rfl

/-! ### Non-vacuity -/

/-- Scales with nine different non-zero values. -/
def demoScales : Scales ℚ := ⟨2, 3, 5, 7, 11, 13, 17, 19, 23⟩

theorem demoScales_ne : ∀ x : Fac, x.val demoScales ≠ 0 := by
  intro x; cases x <;> norm_num [Fac.val, demoScales]

/-- A run with every option on, two phases, a 3 by 2 grid and two markers. -/
def demoSw : Sw := ⟨1, 1, 1, 1, 1, 2, 3, 2, 4⟩

/-- All arrays different, two markers and chains with two points. -/
def demoMem : Mem ℚ := ⟨fun f i => if f = .mesh_sxxd0 then 100 + i else 7 + i, fun _ i => 2 + i⟩

example : demoMem.markers = 2 ∧ (markerReals demoSw).length = 34 ∧
    (centreReals demoSw).length = 16 := by decide +kernel

example : ∃ r, load demoSw demoScales (make demoSw demoScales demoMem).1 demoMem = some r ∧
    Restored demoSw demoMem r := breakpoint_round_trip_partial _ _ demoScales_ne _ _

/-- A state whose old stress is not restored when the restarted program starts from zeros. -/
example : ∃ r, load demoSw demoScales (make demoSw demoScales demoMem).1 ⟨fun _ _ => 0, fun _ _ => 0⟩ =
    some r ∧ r.D .mesh_sxxd0 0 ≠ demoMem.D .mesh_sxxd0 0 := by
  obtain ⟨r, h, ⟨h1, -⟩, -⟩ := old_stress_not_restored demoSw demoScales demoScales_ne demoMem
    ⟨fun _ _ => 0, fun _ _ => 0⟩
  refine ⟨r, h, ?_⟩
  rw [h1]
  decide +kernel

end Verif.Bp
