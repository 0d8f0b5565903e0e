import Verif.Props.ApplyBC

/- C02: solution increments reach exactly the solved nodes, and packing is the inverse. -/
namespace Verif
variable {K : Type*}

theorem extractVel_u {Nx Nz : Nat} {t : Tags} (ht : TagsOk Nx Nz t) {k : Nat}
    (hk : k < (Nz + 1) * Nx) : extractVel (t.u k) = numberedU (t.u k) := by
  have := ht.u k hk
  simp only [List.mem_cons, List.not_mem_nil, or_false] at this
  rcases this with h | h | h | h | h | h | h | h <;> rw [h] <;> decide

theorem extractVel_v {Nx Nz : Nat} {t : Tags} (ht : TagsOk Nx Nz t) {k : Nat}
    (hk : k < Nz * (Nx + 1)) : extractVel (t.v k) = numberedV (t.v k) := by
  have := ht.v k hk
  simp only [List.mem_cons, List.not_mem_nil, or_false] at this
  rcases this with h | h | h | h | h | h | h <;> rw [h] <;> decide

theorem extractP_p {Nx Nz : Nat} {t : Tags} (ht : TagsOk Nx Nz t) {k : Nat}
    (hk : k < (Nz - 1) * (Nx - 1)) : extractP (t.p k) = numberedP (t.p k) := by
  have := ht.p k hk
  simp only [List.mem_cons, List.not_mem_nil, or_false] at this
  rcases this with h | h | h | h <;> rw [h] <;> decide

theorem addIncrement_eq [Add K] [Mul K] (n : Nat) (filter : Int → Bool) (tag : Nat → Int)
    (eqn : Nat → Int) (oob : K) (dx : Nat → K) (alpha : K) (f : Nat → K) (j : Nat) :
    addIncrement n filter tag eqn oob dx alpha f j =
      if j < n ∧ filter (tag j) = true then f j + alpha * readI oob dx (eqn j) else f j := by
  unfold addIncrement
  rw [forUp_pointwise n f (fun cc x => if filter (tag cc) then x + alpha * readI oob dx (eqn cc) else x)]
  by_cases h1 : j < n <;> by_cases h2 : filter (tag j) = true <;> simp [h1, h2]

theorem eqn_nonneg {Nx Nz : Nat} (hNx : 2 ≤ Nx) {t : Tags} (ht : TagsOk Nx Nz t)
    (junk : Nat → Int) (d : Dof) (hd : d.InGrid Nx Nz) (hs : d.Solved t) :
    0 ≤ d.eqn (evalNumberOfEquations Nx Nz t junk) :=
  ((numbering_bijective Nx Nz hNx t junk ht.east).1 d hd hs).1

/-- C02, part 1.  After adding an increment `dx` with step `alpha`, every solved node has changed
by `alpha` times the entry of `dx` stored under its own equation number -- whatever lies outside
the array `dx` (`oob`) --, nodes tagged as prescribed (0) or air (30, 31) keep their value, and
all ghost and periodic boundary conditions hold. -/
theorem increments_reach_solved [Field K] [CharZero K] (Nx Nz : Nat) (hNx : 2 ≤ Nx) (hNz : 2 ≤ Nz)
    (t : Tags) (ht : TagsOk Nx Nz t) (hg : GhostTagsOk Nx Nz t) (junk : Nat → Int)
    (bc V : BCVals K) (hVu : ∀ k, t.u k = 11 → bc.u k = 2 * V.u k)
    (hVv : ∀ k, t.v k = 11 → bc.v k = 2 * V.v k)
    (oob : K) (dx : Nat → K) (alpha : K) (f : Fields K) :
    let n := evalNumberOfEquations Nx Nz t junk
    let g := extractSolutions Nx Nz t bc n oob dx alpha f
    (∀ d : Dof, d.InGrid Nx Nz → d.Solved t →
      d.value g = d.value f + alpha * dx (d.eqn n).toNat) ∧
    (∀ d : Dof, d.InGrid Nx Nz → (d.tag t = 0 ∨ d.tag t = 30 ∨ d.tag t = 31) →
      d.value g = d.value f) ∧
    BCHold Nx Nz t V g := by
  intro n g
  set c := extractSolutionsCore Nx Nz t n oob dx alpha f with hc
  have hgc : g = applyBC Nx Nz t bc c := rfl
  set a := addIncrement ((Nz + 1) * Nx) extractVel t.u n.eqnU oob dx alpha f.u with ha
  have hper := vxPer Nx (Nz + 1) hNx t.u a
  have hcu : c.u = forUp (Nz + 1) a fun u j =>
      if t.u (j * Nx + Nx - 1) == -12 then upd u (j * Nx + Nx - 1) (u (j * Nx)) else u := by
    have e : ∀ j, j * Nx + Nx - 1 + 1 - Nx = j * Nx := by intro j; omega
    change periodicCopy Nx (Nz + 1) t.u a = _
    unfold periodicCopy
    simp only [e]
  rw [← hcu] at hper
  obtain ⟨p1, p2, p3⟩ := hper
  have hsync : EastSynced Nx Nz t c := by
    intro l h0 hN h12
    rw [p1 l (by omega) h12, p3 0 l (by omega) (by omega)]
  obtain ⟨H, k1, k2, k3⟩ := applyBC_enforces_partial Nx Nz hNx hNz t hg bc V hVu hVv c hsync
  rw [← hgc] at H k1 k2 k3
  refine ⟨?_, ?_, H⟩
  · intro d hd hs
    have h0 := eqn_nonneg hNx ht junk d hd hs
    cases d with
    | u k =>
      change k < (Nz + 1) * Nx at hd
      change g.u k = f.u k + _
      have hnum := (numberedU_iff t k).2 hs
      have ht12 : t.u k ≠ -12 := by intro h; rw [h] at hnum; simp [numberedU] at hnum
      rw [k1 k (by
        intro hm; simp only [List.mem_cons, List.not_mem_nil, or_false] at hm
        rcases hm with h | h | h <;> rw [h] at hnum <;> simp [numberedU] at hnum)]
      rw [p2 k ht12, ha, addIncrement_eq, if_pos ⟨hd, by rw [extractVel_u ht hd]; exact hnum⟩]
      simp only [Dof.eqn] at h0 ⊢
      rw [readI, if_pos h0]
    | v k =>
      change k < Nz * (Nx + 1) at hd
      change g.v k = f.v k + _
      have hnum := (numberedV_iff t k).2 hs
      rw [k2 k (by
        intro hm; simp only [List.mem_cons, List.not_mem_nil, or_false] at hm
        rcases hm with h | h | h <;> rw [h] at hnum <;> simp [numberedV] at hnum)]
      change addIncrement (Nz * (Nx + 1)) extractVel t.v n.eqnV oob dx alpha f.v k = _
      rw [addIncrement_eq, if_pos ⟨hd, by rw [extractVel_v ht hd]; exact hnum⟩]
      simp only [Dof.eqn] at h0 ⊢
      rw [readI, if_pos h0]
    | p k =>
      change k < (Nz - 1) * (Nx - 1) at hd
      change g.p k = f.p k + _
      have hnum := (numberedP_iff t k).2 hs
      rw [k3]
      change addIncrement ((Nz - 1) * (Nx - 1)) extractP t.p n.eqnP oob dx alpha f.p k = _
      rw [addIncrement_eq, if_pos ⟨hd, by rw [extractP_p ht hd]; exact hnum⟩]
      simp only [Dof.eqn] at h0 ⊢
      rw [readI, if_pos h0]
  · intro d hd htag
    cases d with
    | u k =>
      change k < (Nz + 1) * Nx at hd
      change g.u k = f.u k
      simp only [Dof.tag] at htag
      rw [k1 k (by
        intro hm; simp only [List.mem_cons, List.not_mem_nil, or_false] at hm; omega)]
      rw [p2 k (by omega), ha, addIncrement_eq, if_neg]
      rintro ⟨-, h⟩
      rw [extractVel_u ht hd] at h
      rcases htag with e | e | e <;> rw [e] at h <;> simp [numberedU] at h
    | v k =>
      change k < Nz * (Nx + 1) at hd
      change g.v k = f.v k
      simp only [Dof.tag] at htag
      rw [k2 k (by
        intro hm; simp only [List.mem_cons, List.not_mem_nil, or_false] at hm; omega)]
      change addIncrement (Nz * (Nx + 1)) extractVel t.v n.eqnV oob dx alpha f.v k = _
      rw [addIncrement_eq, if_neg]
      rintro ⟨-, h⟩
      rw [extractVel_v ht hd] at h
      rcases htag with e | e | e <;> rw [e] at h <;> simp [numberedV] at h
    | p k =>
      change k < (Nz - 1) * (Nx - 1) at hd
      change g.p k = f.p k
      simp only [Dof.tag] at htag
      rw [k3]
      change addIncrement ((Nz - 1) * (Nx - 1)) extractP t.p n.eqnP oob dx alpha f.p k = _
      rw [addIncrement_eq, if_neg]
      rintro ⟨-, h⟩
      rcases htag with e | e | e <;> rw [e] at h <;> simp [extractP] at h

/-- A scatter loop through an injective, non-negative index. -/
theorem scatterI (n : Nat) (x : Nat → K) (c : Nat → Bool) (e : Nat → Int) (val : Nat → K)
    (h0 : ∀ k < n, c k = true → 0 ≤ e k)
    (hinj : ∀ k < n, ∀ k' < n, c k = true → c k' = true → e k = e k' → k = k') :
    let out := forUp n x fun x kk => if c kk then storeI x (e kk) (val kk) else x
    (∀ k < n, c k = true → out (e k).toNat = val k) ∧
    (∀ j, (∀ k < n, c k = true → (e k).toNat ≠ j) → out j = x j) := by
  refine forUp_inv (s := x) (f := fun x kk => if c kk then storeI x (e kk) (val kk) else x)
    (P := fun m out => (∀ k < m, c k = true → out (e k).toNat = val k) ∧
    (∀ j, (∀ k < m, c k = true → (e k).toNat ≠ j) → out j = x j)) n ⟨by simp, by simp⟩ ?_
  intro k s hk ⟨h1, h2⟩
  by_cases hc : c k = true
  · simp only [hc, if_true, storeI, h0 k hk hc]
    refine ⟨?_, ?_⟩
    · intro k' hk' hc'
      by_cases hkk : k' = k
      · subst hkk; simp
      · have hne : (e k').toNat ≠ (e k).toNat := by
          intro h
          have a1 := h0 k' (by omega) hc'
          have a2 := h0 k hk hc
          exact hkk (hinj k' (by omega) k hk hc' hc (by omega))
        rw [upd_ne _ _ hne]; exact h1 k' (by omega) hc'
    · intro j hj
      rw [upd_ne _ _ (Ne.symm (hj k (by omega) hc))]
      exact h2 j fun k' hk' => hj k' (by omega)
  · simp only [hc, Bool.false_eq_true, if_false]
    refine ⟨fun k' hk' hc' => ?_, fun j hj => h2 j fun k' hk' => hj k' (by omega)⟩
    have hne : k' ≠ k := by rintro rfl; exact hc hc'
    exact h1 k' (by omega) hc'

/-- C02, part 2.  Packing the fields stores, for every solved node, the node's value under the
node's equation number. -/
theorem pack_spec (Nx Nz : Nat) (hNx : 2 ≤ Nx) (t : Tags) (ht : TagsOk Nx Nz t)
    (junk : Nat → Int) (f : Fields K) (x0 : Nat → K) :
    let n := evalNumberOfEquations Nx Nz t junk
    ∀ d : Dof, d.InGrid Nx Nz → d.Solved t →
      initialiseSolutionVector Nx Nz t n f x0 (d.eqn n).toNat = d.value f := by
  intro n
  obtain ⟨B1, B2, -, -, -, -, -⟩ := numbering_bijective Nx Nz hNx t junk ht.east
  rw [show evalNumberOfEquations Nx Nz t junk = n from rfl] at B1 B2
  unfold initialiseSolutionVector
  simp only [forGrid_eq]
  set x1 := forUp ((Nz + 1) * Nx) x0 (fun x kk =>
    if numberedU (t.u kk) then storeI x (n.eqnU kk) (f.u kk) else x) with hx1
  set x2 := forUp (Nz * (Nx + 1)) x1 (fun x kk =>
    if numberedV (t.v kk) then storeI x (n.eqnV kk) (f.v kk) else x) with hx2
  have S1 := scatterI ((Nz + 1) * Nx) x0 (fun k => numberedU (t.u k)) n.eqnU f.u
    (fun k hk hc => (B1 (.u k) hk ((numberedU_iff t k).1 hc)).1)
    (fun k hk k' hk' hc hc' he => by
      have := B2 (.u k) (.u k') hk hk' ((numberedU_iff t k).1 hc) ((numberedU_iff t k').1 hc') he
      simpa using this)
  have S2 := scatterI (Nz * (Nx + 1)) x1 (fun k => numberedV (t.v k)) n.eqnV f.v
    (fun k hk hc => (B1 (.v k) hk ((numberedV_iff t k).1 hc)).1)
    (fun k hk k' hk' hc hc' he => by
      have := B2 (.v k) (.v k') hk hk' ((numberedV_iff t k).1 hc) ((numberedV_iff t k').1 hc') he
      simpa using this)
  have S3 := scatterI ((Nz - 1) * (Nx - 1)) x2 (fun k => numberedP (t.p k)) n.eqnP f.p
    (fun k hk hc => (B1 (.p k) hk ((numberedP_iff t k).1 hc)).1)
    (fun k hk k' hk' hc hc' he => by
      have := B2 (.p k) (.p k') hk hk' ((numberedP_iff t k).1 hc) ((numberedP_iff t k').1 hc') he
      simpa using this)
  have sep : ∀ d d' : Dof, d.InGrid Nx Nz → d'.InGrid Nx Nz → d.Solved t → d'.Solved t → d ≠ d' →
      (d.eqn n).toNat ≠ (d'.eqn n).toNat := by
    intro d d' hd hd' hs hs' hne he
    have a1 := (B1 d hd hs).1
    have a2 := (B1 d' hd' hs').1
    exact hne (B2 d d' hd hd' hs hs' (by omega))
  intro d hd hs
  cases d with
  | p k => exact S3.1 k hd ((numberedP_iff t k).2 hs)
  | v k =>
    refine (S3.2 _ fun k' hk' hc' =>
      sep (.p k') (.v k) hk' hd ((numberedP_iff t k').1 hc') hs (by simp)).trans ?_
    exact S2.1 k hd ((numberedV_iff t k).2 hs)
  | u k =>
    refine (S3.2 _ fun k' hk' hc' =>
      sep (.p k') (.u k) hk' hd ((numberedP_iff t k').1 hc') hs (by simp)).trans ?_
    refine (S2.2 _ fun k' hk' hc' =>
      sep (.v k') (.u k) hk' hd ((numberedV_iff t k').1 hc') hs (by simp)).trans ?_
    exact S1.1 k hd ((numberedU_iff t k).2 hs)

/-- C02, part 3.  Packing after adding an increment = packing before, plus `alpha` times the
increment, entry by entry: none is dropped, none is used twice. -/
theorem pack_after_increment [Field K] [CharZero K] (Nx Nz : Nat) (hNx : 2 ≤ Nx) (hNz : 2 ≤ Nz)
    (t : Tags) (ht : TagsOk Nx Nz t) (hg : GhostTagsOk Nx Nz t) (junk : Nat → Int)
    (bc : BCVals K) (oob : K) (dx : Nat → K) (alpha : K) (f : Fields K) (x0 x1 : Nat → K) :
    let n := evalNumberOfEquations Nx Nz t junk
    ∀ e < n.neq,
      initialiseSolutionVector Nx Nz t n (extractSolutions Nx Nz t bc n oob dx alpha f) x1 e =
      initialiseSolutionVector Nx Nz t n f x0 e + alpha * dx e := by
  intro n e he
  obtain ⟨-, -, B3, -⟩ := numbering_bijective Nx Nz hNx t junk ht.east
  obtain ⟨d, hd, hs, hde⟩ := B3 e he
  have hde' : (d.eqn n).toNat = e := by
    have : d.eqn n = e := hde
    omega
  have two : (2 : K) ≠ 0 := two_ne_zero
  have I := (increments_reach_solved Nx Nz hNx hNz t ht hg junk bc
    { u := fun k => bc.u k / 2, v := fun k => bc.v k / 2 }
    (fun k _ => by field_simp) (fun k _ => by field_simp) oob dx alpha f).1 d hd hs
  have P1 := pack_spec Nx Nz hNx t ht junk (extractSolutions Nx Nz t bc n oob dx alpha f) x1 d hd hs
  have P0 := pack_spec Nx Nz hNx t ht junk f x0 d hd hs
  change initialiseSolutionVector Nx Nz t n _ x1 (d.eqn n).toNat = _ at P1
  change initialiseSolutionVector Nx Nz t n _ x0 (d.eqn n).toNat = _ at P0
  change d.value (extractSolutions Nx Nz t bc n oob dx alpha f) = d.value f + alpha * dx (d.eqn n).toNat at I
  rw [hde'] at P1 P0 I
  rw [P1, P0, I]

/-- Closed form of one loop of `backToSolutionVector`. -/
theorem backBody_loop (pass : Int → Bool) (tag : Nat → Int) (src : Nat → K) (s0 : BackSt K) (m : Nat) :
    let s := forUp m s0 (backBody pass tag src)
    let c := Nat.count (fun k => pass (tag k) = true) m
    s.inc = s0.inc + c ∧ s.incTot = s0.incTot + c ∧
    (∀ i < c, s.x (s0.incTot + i) = src (s0.inc + i)) ∧ (∀ j < s0.incTot, s.x j = s0.x j) := by
  induction m with
  | zero => simp
  | succ m ih =>
    simp only [forUp_succ] at ih ⊢
    obtain ⟨h1, h2, h3, h4⟩ := ih
    set s := forUp m s0 (backBody pass tag src)
    by_cases hc : pass (tag m) = true
    · simp only [backBody, hc, if_true, Nat.count_succ]
      refine ⟨by omega, by omega, ?_, ?_⟩
      · intro i hi
        by_cases hil : i = Nat.count (fun k => pass (tag k) = true) m
        · subst hil; rw [← h2, ← h1]; simp
        · rw [upd_ne _ _ (by omega)]; exact h3 i (by omega)
      · intro j hj; rw [upd_ne _ _ (by omega)]; exact h4 j hj
    · simp only [backBody, hc, Bool.false_eq_true, if_false, Nat.count_succ, Nat.add_zero]
      exact ⟨h1, h2, h3, h4⟩

theorem count_congr_lt {p q : Nat → Prop} [DecidablePred p] [DecidablePred q] (n : Nat)
    (h : ∀ k < n, (p k ↔ q k)) : Nat.count p n = Nat.count q n := by
  induction n with
  | zero => simp
  | succ n ih =>
    rw [Nat.count_succ, Nat.count_succ, ih fun k hk => h k (by omega)]
    by_cases hp : p n
    · simp [hp, (h n (by omega)).1 hp]
    · have : ¬ q n := fun hq => hp ((h n (by omega)).2 hq)
      simp [hp, this]

/-- C02, part 4.  The vector handed back by the decoupled solver has the velocity solution in
positions `0..neq_mom-1` and the pressure solution in positions `neq_mom..neq-1`, which are the
equation numbers of the velocity and pressure unknowns. -/
theorem back_to_solution_vector (Nx Nz : Nat) (hNx : 2 ≤ Nx) (t : Tags) (ht : TagsOk Nx Nz t)
    (junk : Nat → Int) (us ps x : Nat → K) :
    let n := evalNumberOfEquations Nx Nz t junk
    (∀ e < n.neqMom, backToSolutionVector Nx Nz t us ps x e = us e) ∧
    (∀ i < n.neqCont, backToSolutionVector Nx Nz t us ps x (n.neqMom + i) = ps i) := by
  intro n
  obtain ⟨cu, cv, cp, R⟩ := rankForm Nx Nz hNx t junk ht.east
  have hcu : Nat.count (fun k => extractVel (t.u k) = true) ((Nz + 1) * Nx) = cu := by
    rw [R.hcu]; exact count_congr_lt _ fun k hk => by rw [extractVel_u ht hk]
  have hcv : Nat.count (fun k => extractVel (t.v k) = true) (Nz * (Nx + 1)) = cv := by
    rw [R.hcv]; exact count_congr_lt _ fun k hk => by rw [extractVel_v ht hk]
  unfold backToSolutionVector
  simp only [forGrid_eq]
  have L1 := backBody_loop extractVel t.u us { x := x, inc := 0, incTot := 0 } ((Nz + 1) * Nx)
  set s1 := forUp ((Nz + 1) * Nx) { x := x, inc := 0, incTot := 0 } (backBody extractVel t.u us)
  have L2 := backBody_loop extractVel t.v us s1 (Nz * (Nx + 1))
  set s2 := forUp (Nz * (Nx + 1)) s1 (backBody extractVel t.v us)
  have L3 := backBody_loop numberedP t.p ps { s2 with inc := 0 } ((Nz - 1) * (Nx - 1))
  rw [hcu] at L1; rw [hcv] at L2; rw [← R.hcp] at L3
  simp only [Nat.zero_add] at L1 L3
  have e1 : s1.incTot = cu := L1.2.1
  have e1' : s1.inc = cu := L1.1
  have e2 : s2.incTot = cu + cv := by rw [L2.2.1, e1]
  have hm : n.neqMom = cu + cv := R.mom
  have hc : n.neqCont = cp := R.cont
  refine ⟨?_, ?_⟩
  · intro e he
    rw [L3.2.2.2 e (by omega)]
    by_cases h : e < cu
    · rw [L2.2.2.2 e (by omega)]; exact L1.2.2.1 e h
    · have := L2.2.2.1 (e - cu) (by omega)
      rw [e1, e1'] at this
      have hh : cu + (e - cu) = e := by omega
      rw [hh] at this; exact this
  · intro i hi
    have := L3.2.2.1 i (by omega)
    rw [hm, ← e2]; exact this

/-- Non-vacuity: the periodic simple-shear tags of `exTags` satisfy every hypothesis. -/
theorem exTags_ghost : GhostTagsOk 3 3 exTags := by
  constructor
  · intro i l hi hl; interval_cases i <;> interval_cases l <;> decide
  · intro i l hi hl; interval_cases i <;> interval_cases l <;> decide
  · intro i l hi hl; interval_cases i <;> interval_cases l <;> decide

example : TagsOk 3 3 exTags ∧ GhostTagsOk 3 3 exTags ∧
    Dof.InGrid 3 3 (.u 4) ∧ Dof.Solved exTags (.u 4) ∧
    (Dof.u 4).eqn (evalNumberOfEquations 3 3 exTags fun _ => 0) = 1 ∧
    EastSynced 3 3 exTags (⟨fun _ => (5 : ℚ), fun _ => 0, fun _ => 0⟩ : Fields ℚ) :=
  ⟨exTags_ok, exTags_ghost, by unfold Dof.InGrid; decide, by unfold Dof.Solved; decide, by decide,
    fun _ _ _ _ => rfl⟩

end Verif
