import Verif.Props.Breakpoint
import Mathlib.Tactic.Ring
import Mathlib.Tactic.FieldSimp

/-
C112: continuing a run with another number of steps.
-/
namespace Verif.Bp

variable {K : Type*} [Field K]

set_option linter.unusedSectionVars false
set_option maxRecDepth 20000

/-- Units of the fifteen time series. -/
def seriesUnits : List Fac := [.t, .one, .rhoELL, .rhoELL, .rhoELL, .T, .S, .S, .S, .S, .S, .E, .E, .E, .E]

/-- Name and unit of series number `j`. -/
def ser (j : Nat) : Fld := seriesReals.getD j .mesh_Time_time
def serUnit (sc : Scales K) (j : Nat) : K := (seriesUnits.getD j .one).val sc

/-- The state `m` with the time series that come out when a breakpoint written in a run of `N` steps is
read by a run of `N'` steps: the `15 (N + 1)` stored numbers are dealt out anew in groups of `N' + 1`, each
converted with the unit of the series it lands in; when they run out the previous contents `m'` remain. -/
def reshuffled (sc : Scales K) (N N' : Nat) (m m' : Mem K) : Mem K :=
  { m with
    D := fun f i =>
      if f ∈ seriesReals ∧ i < N' + 1 then
        let j := seriesReals.idxOf f
        let q := j * (N' + 1) + i
        (if q < 15 * (N + 1) then m.D (ser (q / (N + 1))) (q % (N + 1)) * serUnit sc (q / (N + 1))
          else m'.D f i) / serUnit sc j
      else m.D f i }

/-- The statements for the series. -/
def seriesOps : List Op := seriesReals.map fun f => ⟨.always, f, .dbl, .nt1⟩

/-- The statements before them. -/
def preOps (sw : Sw) : List Op :=
  writeA.filter (fun o => o.cond.on sw) ++ (writePhases sw.Nb_phases ++ writeB.take 2)

theorem writeB_split : writeB = writeB.take 2 ++ seriesOps := by decide +kernel

theorem writeProg_pre (sw : Sw) : writeProg sw = preOps sw ++ seriesOps := by
  rw [writeProg_split]
  have h : writeB.filter (fun o => o.cond.on sw) = writeB := by
    rw [List.filter_eq_self]
    have h' : ∀ o ∈ writeB, o.cond = .always := by decide +kernel
    intro o ho
    rw [h' o ho]; rfl
  rw [h]
  conv_lhs => rw [writeB_split]
  simp [preOps, List.append_assoc]

theorem preOps_no_nt1 (sw : Sw) : ∀ o ∈ preOps sw, o.cnt ≠ .nt1 := by
  intro o ho
  simp only [preOps, List.mem_append, List.mem_filter] at ho
  rcases ho with ⟨h, -⟩ | h | h
  · have : ∀ o ∈ writeA, o.cnt ≠ .nt1 := by decide +kernel
    exact this o h
  · unfold writePhases at h
    obtain ⟨k, -, hk⟩ := List.mem_flatMap.1 h
    simp only [List.mem_cons, List.not_mem_nil, or_false] at hk
    rcases hk with rfl | rfl <;> simp
  · have : ∀ o ∈ writeB.take 2, o.cnt ≠ .nt1 := by decide +kernel
    exact this o h

theorem preOps_not_series (sw : Sw) : ∀ o ∈ preOps sw, o.f ∉ seriesReals ∧ dest o.f ∉ seriesReals := by
  intro o ho
  simp only [preOps, List.mem_append, List.mem_filter] at ho
  rcases ho with ⟨h, -⟩ | h | h
  · have : ∀ o ∈ writeA, o.f ∉ seriesReals ∧ dest o.f ∉ seriesReals := by decide +kernel
    exact this o h
  · unfold writePhases at h
    obtain ⟨k, -, hk⟩ := List.mem_flatMap.1 h
    simp only [List.mem_cons, List.not_mem_nil, or_false] at hk
    rcases hk with rfl | rfl <;> simp [seriesReals, dest]
  · have : ∀ o ∈ writeB.take 2, o.f ∉ seriesReals ∧ dest o.f ∉ seriesReals := by decide +kernel
    exact this o h

theorem preOps_scope (sw : Sw) : scopeOK [] (preOps sw) = some (counts (sw.free_surface == 1)) := by
  unfold preOps
  have hB : ∀ a : Bool, scopeOK (counts a) (writeB.take 2) = some (counts a) := by decide +kernel
  rw [on_eq]
  exact scopeOK_append (scopeA _ _ _ _ _) (scopeOK_append (scopePhases _ _) (hB _))

theorem preOps_nodup (sw : Sw) : ((preOps sw).map fun w => dest w.f).Nodup := by
  have := nodup_all sw
  rw [writeProg_pre, List.map_append] at this
  exact (List.nodup_append.1 this).1

/-- Reading series of `n'` entries from a list of numbers. -/
theorem read_series (sw : Sw) (fs : List Fld) : ∀ (m : Mem K) (vs : List K), fs.Nodup →
    ∃ m2 rest, runRead sw (fs.map fun f => ⟨.always, f, .dbl, .nt1⟩) (m, vs.map Word.dbl) = some (m2, rest) ∧
      m2.Z = m.Z ∧ (∀ f, f ∉ fs → m2.D f = m.D f) ∧
      ∀ f ∈ fs, ∀ i, m2.D f i =
        if i < sw.Nt + 1 then (vs[fs.idxOf f * (sw.Nt + 1) + i]?).getD (m.D f i) else m.D f i := by
  induction fs with
  | nil => intro m vs _; exact ⟨m, vs.map .dbl, rfl, rfl, fun _ _ => rfl, by simp⟩
  | cons g fs ih =>
    intro m vs hnd
    obtain ⟨hg, hnd'⟩ := List.nodup_cons.1 hnd
    set n := sw.Nt + 1 with hn
    let m1 : Mem K := { m with D := fun f => if f = g then store (vs.take n) (m.D f) else m.D f }
    have h1 : Op.read sw ⟨.always, g, .dbl, .nt1⟩ (m, vs.map Word.dbl) = some (m1, (vs.drop n).map Word.dbl) := by
      simp only [Op.read, Cnt.val, ← hn, List.map_drop]
      rw [← List.map_take]
      rw [mapM_map_some (fun x => Word.dbl x) Word.asD id _ (fun _ _ => rfl), List.map_id]
      rfl
    obtain ⟨m2, rest, hr, hZ, hun, hget⟩ := ih m1 (vs.drop n) hnd'
    refine ⟨m2, rest, ?_, ?_, ?_, ?_⟩
    · rw [List.map_cons, runRead, h1]; exact hr
    · rw [hZ]
    · intro f hf
      rw [List.mem_cons, not_or] at hf
      rw [hun f hf.2]
      show (if f = g then store (vs.take n) (m.D f) else m.D f) = m.D f
      rw [if_neg hf.1]
    · intro f hf i
      by_cases hfg : f = g
      · subst hfg
        rw [hun f hg, List.idxOf_cons_self, Nat.zero_mul, Nat.zero_add]
        show (if f = f then store (vs.take n) (m.D f) else m.D f) i = _
        rw [if_pos rfl]
        unfold store
        rw [List.getElem?_take]
        by_cases hi : i < n
        · simp [hi]
        · simp [hi]
      · have hf' : f ∈ fs := by
          rcases List.mem_cons.1 hf with h | h
          · exact absurd h hfg
          · exact h
        rw [hget f hf' i, List.idxOf_cons_ne _ (fun h => hfg h.symm)]
        have hD : m1.D f i = m.D f i := by
          show (if f = g then store (vs.take n) (m.D f) else m.D f) i = m.D f i
          rw [if_neg hfg]
        rw [hD, List.getElem?_drop]
        have : n + (fs.idxOf f * n + i) = (fs.idxOf f).succ * n + i := by
          rw [Nat.succ_mul]; omega
        rw [this]

/-- Entry `q` of a concatenation of lists of equal length. -/
theorem flat_get {α β : Type*} (n : Nat) (hn : 0 < n) (g : β → Nat → α) (fs : List β) (q : Nat) :
    (fs.flatMap fun f => (List.range n).map (g f))[q]? = (fs[q / n]?).map fun f => g f (q % n) := by
  induction fs generalizing q with
  | nil => simp
  | cons f fs ih =>
    rw [List.flatMap_cons]
    by_cases hq : q < n
    · rw [List.getElem?_append_left (by simpa using hq)]
      simp [Nat.div_eq_of_lt hq, Nat.mod_eq_of_lt hq, hq]
    · rw [List.getElem?_append_right (by simpa using hq)]
      simp only [List.length_map, List.length_range]
      rw [ih]
      obtain ⟨p, rfl⟩ := Nat.exists_eq_add_of_le (not_lt.1 hq)
      have h1 : n + p - n = p := by omega
      have h2 : (n + p) / n = p / n + 1 := Nat.add_div_left p hn
      have h3 : (n + p) % n = p % n := Nat.add_mod_left n p
      rw [h1, h2, h3, List.getElem?_cons_succ]

theorem series_words (sw : Sw) (m : Mem K) : seriesOps.flatMap (fun o => o.words sw m) =
    (seriesReals.flatMap fun f => (List.range (sw.Nt + 1)).map (m.D f)).map Word.dbl := by
  unfold seriesOps
  rw [List.flatMap_map, List.map_flatMap]
  congr 1
  funext f
  simp [Op.words, Cnt.val, List.map_map, Function.comp_def]

theorem seriesOps_swap : seriesOps.map swap = seriesOps := by decide +kernel

theorem make_file (sw : Sw) (sc : Scales K) (m : Mem K) : (make sw sc m).1 =
    (preOps sw).flatMap (fun o => o.words sw (runSc (· * ·) sw sc scaleUp m)) ++
      (seriesReals.flatMap fun f => (List.range (sw.Nt + 1)).map
        ((runSc (· * ·) sw sc scaleUp m).D f)).map Word.dbl := by
  unfold make
  simp only
  rw [writeProg_pre, List.flatMap_append, series_words]

theorem idx_mem : ∀ f ∈ seriesReals, seriesReals.idxOf f < 15 ∧ ser (seriesReals.idxOf f) = f := by decide +kernel

theorem nodup_series : seriesReals.Nodup := by decide +kernel

theorem unit_up : ∀ f ∈ seriesReals, scaleUp.filter (fun e => e.f = f) =
    [⟨.always, f, .nt1, seriesUnits.getD (seriesReals.idxOf f) .one⟩] := by decide +kernel

theorem facs_series (sw : Sw) (sc : Scales K) (m : Mem K) (f : Fld) (hf : f ∈ seriesReals) (i : Nat)
    (hi : i < sw.Nt + 1) : (facs sw sc m f i scaleUp).prod = serUnit sc (seriesReals.idxOf f) := by
  unfold facs
  rw [unit_up f hf]
  simp [Cond.on, Cnt.val, hi, serUnit]

theorem series_get : ∀ q < 15, seriesReals[q]? = some (ser q) ∧ seriesReals.idxOf (ser q) = q ∧
    ser q ∈ seriesReals := by decide +kernel

/-- Scaling before writing, for a field whose factors do not depend on the number of steps. -/
theorem facs_Nt (sw : Sw) (N' : Nat) (sc : Scales K) (m m2 : Mem K) (hZ : m2.Z = m.Z) (f : Fld)
    (hf : f ∉ seriesReals) (i : Nat) :
    (facs { sw with Nt := N' } sc m2 f i scaleUp) = facs sw sc m f i scaleUp := by
  unfold facs
  congr 1
  apply List.filter_congr
  intro e he
  obtain ⟨he1, he2⟩ := List.mem_filter.1 he
  rw [decide_eq_true_eq] at he2
  have hn : e.cnt ≠ .nt1 := by
    have : ∀ e ∈ scaleUp, e.cnt = .nt1 → e.f ∈ seriesReals := by decide +kernel
    exact fun h => hf (he2 ▸ this e he1 h)
  have h1 : e.cond.on { sw with Nt := N' } = e.cond.on sw := by cases e.cond <;> rfl
  have h2 : e.cnt.val { sw with Nt := N' } m2 = e.cnt.val sw m := by
    cases hc : e.cnt with
    | nt1 => exact absurd hc hn
    | nb g => simp [Cnt.val, hZ]
    | _ => rfl
  rw [h1, h2]

/-- The stored numbers. -/
def fileOf (sw : Sw) (m : Mem K) : List (Word K) :=
  (preOps sw).flatMap (fun o => o.words sw m) ++
    (seriesReals.flatMap fun f => (List.range (sw.Nt + 1)).map (m.D f)).map Word.dbl

theorem runRead_append (sw : Sw) (l l' : List Op) (st st' : Mem K × List (Word K))
    (h : runRead sw l st = some st') : runRead sw (l ++ l') st = runRead sw l' st' := by
  induction l generalizing st with
  | nil => simp only [runRead, Option.some.injEq] at h; subst h; rfl
  | cons o l ih =>
    rw [List.cons_append, runRead]
    rw [runRead] at h
    cases ho : o.read sw st with
    | none => rw [ho] at h; cases h
    | some x => rw [ho] at h; exact ih x h

theorem preOps_Nt (sw : Sw) (N' : Nat) : preOps { sw with Nt := N' } = preOps sw := by
  unfold preOps
  have : (fun o : Op => o.cond.on { sw with Nt := N' }) = fun o : Op => o.cond.on sw := by
    funext o; cases o.cond <;> rfl
  rw [this]

/-- Two files with the same items before the series, and series that deal out the same numbers, are read
alike. -/
theorem read_alike (sw : Sw) (N' : Nat) (m1 m1t m' : Mem K) (hZ : m1t.Z = m1.Z)
    (hD : ∀ f, f ∉ seriesReals → m1t.D f = m1.D f)
    (hS : ∀ f ∈ seriesReals, ∀ i < N' + 1, m1t.D f i =
      if seriesReals.idxOf f * (N' + 1) + i < 15 * (sw.Nt + 1) then
        m1.D (ser ((seriesReals.idxOf f * (N' + 1) + i) / (sw.Nt + 1)))
          ((seriesReals.idxOf f * (N' + 1) + i) % (sw.Nt + 1))
      else m'.D f i) :
    ∃ x rest rest', runRead { sw with Nt := N' } (readProg { sw with Nt := N' }) (m', fileOf sw m1) = some (x, rest) ∧
      runRead { sw with Nt := N' } (readProg { sw with Nt := N' }) (m', fileOf { sw with Nt := N' } m1t)
        = some (x, rest') := by
  obtain ⟨sw', hsw'⟩ : ∃ sw' : Sw, sw' = { sw with Nt := N' } := ⟨_, rfl⟩
  have hNt : sw'.Nt = N' := by rw [hsw']
  have hcnt : ∀ c : Cnt, c ≠ .nt1 → c.val sw' m1t = c.val sw m1 := by
    intro c hc
    cases c with
    | nt1 => exact absurd rfl hc
    | nb g => simp only [Cnt.val, hZ]
    | _ => rw [hsw']; rfl
  have hpre : preOps sw' = preOps sw := by rw [hsw']; exact preOps_Nt sw N'
  rw [← hsw']
  have hwords : (preOps sw).flatMap (fun o => o.words sw m1) = (preOps sw').flatMap (fun o => o.words sw' m1t) := by
    rw [hpre]
    apply List.flatMap_congr
    intro o ho
    unfold Op.words
    rw [hcnt o.cnt (preOps_no_nt1 sw o ho), hD o.f (preOps_not_series sw o ho).1, hZ]
  obtain ⟨m2, hr2, -, hun2, -⟩ := read_back sw' m1t (preOps sw') [] _ m' (preOps_scope sw')
    (fun _ h => absurd h List.not_mem_nil) (preOps_nodup sw')
  have hm2 : ∀ f ∈ seriesReals, m2.D f = m'.D f := by
    intro f hf
    refine (hun2 f fun w hw h => ?_).1
    exact (preOps_not_series sw' w hw).2 (h ▸ hf)
  have hrun : ∀ rest, runRead sw' (readProg sw')
      (m', (preOps sw').flatMap (fun o => o.words sw' m1t) ++ rest) = runRead sw' seriesOps (m2, rest) := by
    intro rest
    rw [readProg_eq, writeProg_pre, List.map_append, seriesOps_swap]
    exact runRead_append sw' _ _ _ _ (hr2 rest)
  obtain ⟨x, rest, hx, hxZ, hxun, hxget⟩ := read_series sw' seriesReals m2
    (seriesReals.flatMap fun f => (List.range (sw.Nt + 1)).map (m1.D f)) nodup_series
  obtain ⟨y, rest', hy, hyZ, hyun, hyget⟩ := read_series sw' seriesReals m2
    (seriesReals.flatMap fun f => (List.range (sw'.Nt + 1)).map (m1t.D f)) nodup_series
  have hxy : y = x := by
    have hDD : y.D = x.D := by
      funext f i
      by_cases hf : f ∈ seriesReals
      · rw [hxget f hf i, hyget f hf i, hNt]
        by_cases hi : i < N' + 1
        · rw [if_pos hi, if_pos hi]
          obtain ⟨hj, hser⟩ := idx_mem f hf
          have hq1 : (seriesReals.idxOf f * (N' + 1) + i) / (N' + 1) = seriesReals.idxOf f := by
            rw [Nat.mul_comm, Nat.mul_add_div (by omega), Nat.div_eq_of_lt hi, Nat.add_zero]
          have hq2 : (seriesReals.idxOf f * (N' + 1) + i) % (N' + 1) = i := by
            rw [Nat.mul_comm, Nat.mul_add_mod, Nat.mod_eq_of_lt hi]
          rw [flat_get (N' + 1) (by omega), flat_get (sw.Nt + 1) (by omega), hq1, hq2, (series_get _ hj).1, hser]
          simp only [Option.map_some, Option.getD_some]
          rw [hS f hf i hi]
          generalize seriesReals.idxOf f * (N' + 1) + i = q
          by_cases hqn : q < 15 * (sw.Nt + 1)
          · have hqd : q / (sw.Nt + 1) < 15 := by
              rw [Nat.div_lt_iff_lt_mul (by omega)]; exact hqn
            rw [if_pos hqn, (series_get _ hqd).1]
            simp only [Option.map_some, Option.getD_some]
          · have hqd : 15 ≤ q / (sw.Nt + 1) := by
              rw [Nat.le_div_iff_mul_le (by omega)]; omega
            have hl : seriesReals.length = 15 := by decide +kernel
            rw [if_neg hqn, List.getElem?_eq_none (by rw [hl]; exact hqd)]
            simp only [Option.map_none, Option.getD_none, hm2 f hf]
        · rw [if_neg hi, if_neg hi]
      · rw [hxun f hf, hyun f hf]
    have hZZ : y.Z = x.Z := by rw [hxZ, hyZ]
    cases x; cases y
    simp only at hDD hZZ
    rw [hDD, hZZ]
  refine ⟨x, rest, rest', ?_, ?_⟩
  · unfold fileOf
    rw [hwords, hrun]
    unfold seriesOps
    exact hx
  · unfold fileOf
    rw [hrun, ← hxy]
    unfold seriesOps
    exact hy

theorem reshuffled_other (sc : Scales K) (N N' : Nat) (m m' : Mem K) (f : Fld) (hf : f ∉ seriesReals) (i : Nat) :
    (reshuffled sc N N' m m').D f i = m.D f i := by
  unfold reshuffled
  simp only
  rw [if_neg fun h => hf h.1]

theorem reshuffled_series (sc : Scales K) (N N' : Nat) (m m' : Mem K) (f : Fld) (hf : f ∈ seriesReals) (i : Nat)
    (hi : i < N' + 1) :
    (reshuffled sc N N' m m').D f i = (if seriesReals.idxOf f * (N' + 1) + i < 15 * (N + 1) then
        m.D (ser ((seriesReals.idxOf f * (N' + 1) + i) / (N + 1)))
          ((seriesReals.idxOf f * (N' + 1) + i) % (N + 1))
          * serUnit sc ((seriesReals.idxOf f * (N' + 1) + i) / (N + 1))
      else m'.D f i) / serUnit sc (seriesReals.idxOf f) := by
  unfold reshuffled
  simp only
  rw [if_pos ⟨hf, hi⟩]

theorem scaled_other (sw : Sw) (N' : Nat) (sc : Scales K) (m mt : Mem K) (hZ : mt.Z = m.Z) (f : Fld)
    (hf : f ∉ seriesReals) (hD : ∀ i, mt.D f i = m.D f i) :
    (runSc (· * ·) { sw with Nt := N' } sc scaleUp mt).D f = (runSc (· * ·) sw sc scaleUp m).D f := by
  funext i
  rw [runSc_mul, runSc_mul, facs_Nt sw N' sc m mt hZ f hf i, hD]

theorem scaled_series (sw : Sw) (sc : Scales K) (m : Mem K) (f : Fld) (hf : f ∈ seriesReals) (i : Nat)
    (hi : i < sw.Nt + 1) :
    (runSc (· * ·) sw sc scaleUp m).D f i = m.D f i * serUnit sc (seriesReals.idxOf f) := by
  rw [runSc_mul, facs_series sw sc m f hf i hi]

theorem make_fileOf (sw : Sw) (sc : Scales K) (m : Mem K) :
    (make sw sc m).1 = fileOf sw (runSc (· * ·) sw sc scaleUp m) := make_file sw sc m

/-- **C112.** A breakpoint written in a run of `N` steps and loaded into a run of `N'` steps (the usual way
of continuing a run): every quantity is given back except the time series, which come out as the stored
numbers dealt out anew. -/
theorem continue_with_other_length (sw : Sw) (N' : Nat) (sc : Scales K) (hsc : ∀ x : Fac, x.val sc ≠ 0)
    (m m' : Mem K) :
    ∃ r, load { sw with Nt := N' } sc (make sw sc m).1 m' = some r ∧
      Restored { sw with Nt := N' } (reshuffled sc sw.Nt N' m m') r := by
  obtain ⟨r, hl, hR⟩ := breakpoint_round_trip_partial { sw with Nt := N' } sc hsc
    (reshuffled sc sw.Nt N' m m') m'
  refine ⟨r, ?_, hR⟩
  rw [← hl, make_fileOf, make_fileOf]
  obtain ⟨x, rest, rest', h1, h2⟩ := read_alike sw N' (runSc (· * ·) sw sc scaleUp m)
    (runSc (· * ·) { sw with Nt := N' } sc scaleUp (reshuffled sc sw.Nt N' m m')) m'
    (by rw [runSc_Z, runSc_Z]; rfl)
    (fun f hf => scaled_other sw N' sc m (reshuffled sc sw.Nt N' m m') rfl f hf
      (reshuffled_other sc sw.Nt N' m m' f hf))
    (fun f hf i hi => by
      have hu : serUnit sc (seriesReals.idxOf f) ≠ 0 := hsc _
      rw [scaled_series _ sc _ f hf i hi, reshuffled_series sc sw.Nt N' m m' f hf i hi, div_mul_cancel₀ _ hu]
      generalize seriesReals.idxOf f * (N' + 1) + i = q
      by_cases hqn : q < 15 * (sw.Nt + 1)
      · have hqd : q / (sw.Nt + 1) < 15 := by
          rw [Nat.div_lt_iff_lt_mul (by omega)]; exact hqn
        obtain ⟨-, g2, g3⟩ := series_get _ hqd
        rw [if_pos hqn, if_pos hqn, scaled_series sw sc m _ g3 _ (Nat.mod_lt _ (by omega)), g2]
      · rw [if_neg hqn, if_neg hqn])
  unfold load
  rw [h1, h2]
  simp only [Option.map_some]

/-- The time series after continuing a run of `N` steps with more steps: the times of the first run are
given back, the time after them is the first entry of the shortening series, and the first entry of the
shortening series is wrong too. -/
theorem longer_run_series (sw : Sw) (N' : Nat) (hN : sw.Nt < N') (sc : Scales K)
    (hsc : ∀ x : Fac, x.val sc ≠ 0) (m m' : Mem K) :
    ∃ r, load { sw with Nt := N' } sc (make sw sc m).1 m' = some r ∧
      (∀ i < sw.Nt + 1, r.D .mesh_Time_time i = m.D .mesh_Time_time i) ∧
      r.D .mesh_Time_time (sw.Nt + 1) = m.D .mesh_Short_time 0 / sc.t ∧
      (N' ≤ 2 * sw.Nt → r.D .mesh_Short_time 0 = m.D .mesh_Short_time (N' - sw.Nt)) := by
  obtain ⟨r, hl, hR⟩ := continue_with_other_length sw N' sc hsc m m'
  refine ⟨r, hl, ?_, ?_, ?_⟩
  · intro i hi
    rw [hR.series .mesh_Time_time (by decide) i (by simp; omega)]
    have hj : seriesReals.idxOf Fld.mesh_Time_time = 0 := by decide +kernel
    have hm : Fld.mesh_Time_time ∈ seriesReals := by decide
    have h0 : serUnit sc 0 ≠ 0 := hsc _
    have hser : ser 0 = .mesh_Time_time := rfl
    simp only [reshuffled, hm, true_and, show i < N' + 1 by omega, if_true, hj, Nat.zero_mul, Nat.zero_add,
      show i < 15 * (sw.Nt + 1) by omega, Nat.div_eq_of_lt hi, Nat.mod_eq_of_lt hi, hser]
    rw [mul_div_assoc, div_self h0, mul_one]
  · rw [hR.series .mesh_Time_time (by decide) (sw.Nt + 1) (by simp; omega)]
    have hj : seriesReals.idxOf Fld.mesh_Time_time = 0 := by decide +kernel
    have hm : Fld.mesh_Time_time ∈ seriesReals := by decide
    have hser : ser 1 = .mesh_Short_time := rfl
    have hu0 : serUnit sc 0 = sc.t := rfl
    have hu1 : serUnit sc 1 = 1 := rfl
    simp only [reshuffled, hm, true_and, show sw.Nt + 1 < N' + 1 by omega, if_true, hj, Nat.zero_mul,
      Nat.zero_add, show sw.Nt + 1 < 15 * (sw.Nt + 1) by omega, Nat.div_self (show 0 < sw.Nt + 1 by omega),
      Nat.mod_self, hser, hu0, hu1, mul_one]
  · intro hN2
    rw [hR.series .mesh_Short_time (by decide) 0 (by simp)]
    have hj : seriesReals.idxOf Fld.mesh_Short_time = 1 := by decide +kernel
    have hm : Fld.mesh_Short_time ∈ seriesReals := by decide
    have hser : ser 1 = .mesh_Short_time := rfl
    have hu1 : serUnit sc 1 = 1 := rfl
    have hq : (1 * (N' + 1) + 0) = (sw.Nt + 1) * 1 + (N' - sw.Nt) := by omega
    have hd : ((sw.Nt + 1) * 1 + (N' - sw.Nt)) / (sw.Nt + 1) = 1 := by
      rw [Nat.mul_add_div (by omega), Nat.div_eq_of_lt (by omega)]
    have hmod : ((sw.Nt + 1) * 1 + (N' - sw.Nt)) % (sw.Nt + 1) = N' - sw.Nt := by
      rw [Nat.mul_add_mod, Nat.mod_eq_of_lt (by omega)]
    simp only [reshuffled, hm, true_and, show 0 < N' + 1 by omega, if_true, hj]
    rw [hq, hd, hmod, hser, hu1, if_pos (by omega), mul_one, div_one]

/-- With the same number of steps the series come back as they were. -/
theorem same_length_series (sc : Scales K) (hsc : ∀ x : Fac, x.val sc ≠ 0) (N : Nat) (m m' : Mem K)
    (f : Fld) (hf : f ∈ seriesReals) (i : Nat) (hi : i < N + 1) :
    (reshuffled sc N N m m').D f i = m.D f i := by
  obtain ⟨hj, hser⟩ := idx_mem f hf
  have hq1 : (seriesReals.idxOf f * (N + 1) + i) / (N + 1) = seriesReals.idxOf f := by
    rw [Nat.mul_comm, Nat.mul_add_div (by omega), Nat.div_eq_of_lt hi, Nat.add_zero]
  have hq2 : (seriesReals.idxOf f * (N + 1) + i) % (N + 1) = i := by
    rw [Nat.mul_comm, Nat.mul_add_mod, Nat.mod_eq_of_lt hi]
  have hlt : seriesReals.idxOf f * (N + 1) + i < 15 * (N + 1) := by
    have : (seriesReals.idxOf f + 1) * (N + 1) ≤ 15 * (N + 1) := Nat.mul_le_mul_right _ hj
    rw [Nat.add_mul, Nat.one_mul] at this
    omega
  have hu : serUnit sc (seriesReals.idxOf f) ≠ 0 := hsc _
  simp only [reshuffled, hf, hi, true_and, if_true, hq1, hq2, hlt, hser]
  rw [mul_div_assoc, div_self hu, mul_one]

/-- A run of 4 steps with every option on, continued to 6 steps. -/
example := continue_with_other_length demoSw 6 demoScales demoScales_ne demoMem demoMem

/-- There the time after the last stored step, 7 + 5 in the old memory, is the first shortening divided by
the unit of time. -/
example : ∃ r, load { demoSw with Nt := 6 } demoScales (make demoSw demoScales demoMem).1 demoMem = some r ∧
    r.D .mesh_Time_time 5 = 7 / 2 ∧ r.D .mesh_Short_time 0 = 9 := by
  obtain ⟨r, h1, -, h2, h3⟩ := longer_run_series demoSw 6 (by decide) demoScales demoScales_ne demoMem demoMem
  refine ⟨r, h1, ?_, ?_⟩
  · rw [show (5 : Nat) = demoSw.Nt + 1 from rfl, h2]
    rw [show demoMem.D .mesh_Short_time 0 = 7 by decide +kernel]
    rfl
  · rw [h3 (by decide)]
    decide +kernel

end Verif.Bp
