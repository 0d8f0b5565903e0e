import Verif.Props.Surface

/-
C32: re-meshing of the surface chain.
-/
set_option linter.unusedSectionVars false
set_option linter.unusedVariables false
namespace Verif.Surf
open Verif

variable {K : Type*} [Field K] [LinearOrder K] [IsStrictOrderedRing K] [FloorRing K]

/-- Position `x` belongs to fine column `k` (half a cell wide; a column owns its eastern side, the first one
also its western side). -/
def InFine (p : Par K) (k : Nat) (x : K) : Prop :=
  (p.xmin + k * (p.dx / 2) < x ∨ k = 0 ∧ x = p.xmin) ∧ x ≤ p.xmin + (k + 1) * (p.dx / 2)

instance (p : Par K) (k : Nat) (x : K) : Decidable (InFine p k x) := inferInstanceAs (Decidable (_ ∧ _))

/-- Number of markers of the box in fine column `k`. -/
def fineCount (p : Par K) (ms : Nat → Mk K) (nb k : Nat) : Nat :=
  (List.range nb).countP fun i => decide (p.xmin ≤ (ms i).x ∧ (ms i).x ≤ p.xmax ∧ InFine p k (ms i).x)

/-- Geometry: the box is `ncx` cells wide. -/
structure Geom (p : Par K) : Prop where
  n : 1 ≤ p.ncx
  dx : 0 < p.dx
  east : p.xmax = p.xmin + p.ncx * p.dx

theorem fineCol_iff (p : Par K) (g : Geom p) (x : K) (h0 : p.xmin ≤ x) (h1 : x ≤ p.xmax) (k : Nat) (hk : k < p.fine) :
    p.fineCol x = k ↔ InFine p k x := by
  have hd : (0 : K) < p.dx / 2 := by have := g.dx; linarith
  have hu : (x - (p.xmin + p.dx / 2 / 2)) / (p.dx / 2) + 1 / 2 = (x - p.xmin) / (p.dx / 2) := by
    have := g.dx.ne'
    field_simp; ring
  unfold Par.fineCol P2M.nearest
  rw [hu]
  set u := (x - p.xmin) / (p.dx / 2) with hud
  have hux : x = p.xmin + u * (p.dx / 2) := by rw [hud, div_mul_cancel₀ _ hd.ne']; ring
  have u0 : 0 ≤ u := div_nonneg (by linarith) hd.le
  have u1 : u ≤ p.fine := by
    rw [hud, div_le_iff₀ hd]
    have := g.east
    unfold Par.fine
    push_cast
    linarith
  have c0 : 0 ≤ ⌈u⌉ := Int.ceil_nonneg u0
  have c1 : ⌈u⌉ ≤ p.fine := by rw [Int.ceil_le]; exact_mod_cast u1
  have key : (⌈u⌉ - 1 = (k : Int)) ↔ (k : K) < u ∧ u ≤ k + 1 := by
    rw [sub_eq_iff_eq_add, Int.ceil_eq_iff]
    push_cast
    simp
  have lt_iff : ∀ c : K, c < u ↔ p.xmin + c * (p.dx / 2) < x := fun c => by
    rw [hux, add_lt_add_iff_left, mul_lt_mul_iff_left₀ hd]
  have le_iff : ∀ c : K, u ≤ c ↔ x ≤ p.xmin + c * (p.dx / 2) := fun c => by
    rw [hux, add_le_add_iff_left, mul_le_mul_iff_left₀ hd]
  unfold InFine
  rw [← lt_iff, ← le_iff]
  simp only
  by_cases hz : u = 0
  · have hx : x = p.xmin := by rw [hux, hz]; ring
    have : ⌈u⌉ = 0 := by rw [hz]; exact Int.ceil_zero
    rw [this, if_pos (show (0 : Int) - 1 < 0 by norm_num), if_neg (show ¬ ((p.fine : Int) - 1 < 0) by omega)]
    constructor
    · intro h
      have : k = 0 := by omega
      subst this
      exact ⟨Or.inr ⟨rfl, hx⟩, by rw [hz]; norm_num⟩
    · rintro ⟨h | h, _⟩
      · rw [hz] at h
        exact absurd h (not_lt.mpr (Nat.cast_nonneg k))
      · rw [h.1]; rfl
  · have u0' : 0 < u := lt_of_le_of_ne u0 (Ne.symm hz)
    have c0' : 0 < ⌈u⌉ := Int.ceil_pos.mpr u0'
    rw [if_neg (by omega), if_neg (by omega), key]
    constructor
    · intro h; exact ⟨Or.inl h.1, h.2⟩
    · rintro ⟨h | h, h2⟩
      · exact ⟨h, h2⟩
      · exfalso; apply hz; rw [hud, h.2]; simp

theorem markOut_phase (p : Par K) (m : Mk K) :
    ((markOut p m).phase ≠ -1 ↔ p.xmin ≤ m.x ∧ m.x ≤ p.xmax) ∧ (markOut p m).x = m.x ∧ (markOut p m).z = m.z ∧
    ((markOut p m).phase ≠ -1 → (markOut p m).phase = 0) := by
  unfold markOut
  split_ifs with h
  · refine ⟨⟨fun hc => absurd rfl hc, fun ⟨a, b⟩ => ?_⟩, rfl, rfl, fun hc => absurd rfl hc⟩
    rcases h with h | h
    · exact absurd b (not_le.mpr h)
    · exact absurd a (not_le.mpr h)
  · push Not at h
    refine ⟨⟨fun _ => ⟨h.2, h.1⟩, fun _ => by simp⟩, rfl, rfl, fun _ => rfl⟩

theorem numMark_eq (p : Par K) (g : Geom p) (ms0 : Nat → Mk K) (nb k : Nat) (hk : k < p.fine) :
    numMark p (fun i => if i < nb then markOut p (ms0 i) else ms0 i) nb k = fineCount p ms0 nb k := by
  unfold numMark fineCount
  apply List.countP_congr
  intro i hi
  rw [List.mem_range] at hi
  simp only [if_pos hi]
  obtain ⟨a, b, _⟩ := markOut_phase p (ms0 i)
  simp only [Bool.and_eq_true, decide_eq_true_eq, b]
  rw [a]
  constructor
  · rintro ⟨⟨h0, h1⟩, h2⟩
    exact ⟨h0, h1, (fineCol_iff p g _ h0 h1 k hk).mp h2⟩
  · rintro ⟨h0, h1, h2⟩
    exact ⟨⟨h0, h1⟩, (fineCol_iff p g _ h0 h1 k hk).mpr h2⟩

/-! ### The filling loop -/

/-- Position of a new marker. -/
def newX (p : Par K) (k : Nat) (q : K) : K := p.xmin + k * p.dx / 2 + q * p.dx / 4 / 2

/-- Marker `m` has been placed on the surface at `newX`. -/
def Placed (p : Par K) (ab : (Nat → K) × (Nat → K)) (k : Nat) (q : K) (m : Mk K) : Prop :=
  m.x = newX p k q ∧ m.z = height ab (P2M.nearest p.ncx (p.xmin + p.dx / 2) p.dx (newX p k q)) (newX p k q)

/-- Invariant of the filling loop. -/
structure RInv (p : Par K) (ab : (Nat → K) × (Nat → K)) (r : List Nat) (ms1 : Nat → Mk K) (nb0 : Nat) (s : RState K) : Prop where
  slots : s.log.map Prod.fst = r.take s.ii ++ List.range' nb0 (s.nb - nb0)
  nb : nb0 ≤ s.nb
  ii : s.ii ≤ r.length
  recy : s.recycle = decide (s.ii < r.length)
  once : s.ii < r.length → s.nb = nb0
  rest : ∀ i, i ∉ s.log.map Prod.fst → s.ms i = ms1 i
  phase : ∀ i, (s.ms i).phase = (ms1 i).phase
  placed : ∀ e ∈ s.log, Placed p ab e.2 1 (s.ms e.1) ∨ Placed p ab e.2 3 (s.ms e.1)

theorem nextSlot_spec (p : Par K) (ab : (Nat → K) × (Nat → K)) (r : List Nat) (ms1 : Nat → Mk K) (nb0 : Nat)
    (hr : ∀ i ∈ r, i < nb0) (hnd : r.Nodup) (s : RState K) (h : RInv p ab r ms1 nb0 s) :
    let t := nextSlot r s
    t.ms = s.ms ∧ t.log = s.log ∧ nb0 ≤ t.nb ∧ s.nb ≤ t.nb ∧ t.nb ≤ s.nb + 1 ∧ t.ii ≤ r.length ∧ t.recycle = decide (t.ii < r.length) ∧
    (t.ii < r.length → t.nb = nb0) ∧
    s.log.map Prod.fst ++ [t.newInd] = r.take t.ii ++ List.range' nb0 (t.nb - nb0) ∧
    t.newInd ∉ s.log.map Prod.fst := by
  intro t
  have hnodup : ∀ a b, (r.take a ++ List.range' nb0 b).Nodup := by
    intro a b
    rw [List.nodup_append]
    refine ⟨hnd.sublist (List.take_sublist _ _), List.nodup_range', ?_⟩
    intro x hx y hy hxy
    have := hr x (List.mem_of_mem_take hx)
    rw [List.mem_range'_1] at hy
    omega
  have fin : ∀ (u : RState K), (u.ms = s.ms ∧ u.log = s.log ∧ nb0 ≤ u.nb ∧ s.nb ≤ u.nb ∧ u.nb ≤ s.nb + 1 ∧ u.ii ≤ r.length ∧
      u.recycle = decide (u.ii < r.length) ∧ (u.ii < r.length → u.nb = nb0) ∧
      s.log.map Prod.fst ++ [u.newInd] = r.take u.ii ++ List.range' nb0 (u.nb - nb0)) →
      (u.ms = s.ms ∧ u.log = s.log ∧ nb0 ≤ u.nb ∧ s.nb ≤ u.nb ∧ u.nb ≤ s.nb + 1 ∧ u.ii ≤ r.length ∧
      u.recycle = decide (u.ii < r.length) ∧ (u.ii < r.length → u.nb = nb0) ∧
      s.log.map Prod.fst ++ [u.newInd] = r.take u.ii ++ List.range' nb0 (u.nb - nb0) ∧ u.newInd ∉ s.log.map Prod.fst) := by
    rintro u ⟨a, b, c, d, e, f, g, i, j⟩
    refine ⟨a, b, c, d, e, f, g, i, j, ?_⟩
    have := hnodup u.ii (u.nb - nb0)
    rw [← j, List.nodup_append] at this
    intro hm
    exact this.2.2 _ hm _ (List.mem_singleton.mpr rfl) rfl
  apply fin
  obtain ⟨hs, hnb, hii, hrec, honce, _, _, _⟩ := h
  by_cases hlt : s.ii < r.length
  · have hrt : s.recycle = true := by rw [hrec]; exact decide_eq_true hlt
    have hnb0 := honce hlt
    have hslot : s.log.map Prod.fst ++ [r.getD s.ii 0] = r.take (s.ii + 1) ++ List.range' nb0 (s.nb - nb0) := by
      rw [hs, hnb0, Nat.sub_self, List.range'_zero, List.append_nil, List.append_nil, List.take_add_one,
        List.getD_eq_getElem?_getD, List.getElem?_eq_getElem hlt]
      rfl
    have ht : t = if r.length ≤ s.ii + 1 then { s with newInd := r.getD s.ii 0, ii := s.ii + 1, recycle := false }
        else { s with newInd := r.getD s.ii 0, ii := s.ii + 1 } := by
      show nextSlot r s = _
      unfold nextSlot
      rw [if_pos hrt]
    rw [ht]
    split_ifs with hle
    · refine ⟨rfl, rfl, by simpa using hnb, le_refl _, by simp, hlt, ?_, fun h => hnb0, hslot⟩
      simp only
      rw [decide_eq_false (by omega)]
    · refine ⟨rfl, rfl, by simpa using hnb, le_refl _, by simp, hlt, ?_, fun h => hnb0, hslot⟩
      simp only [hrt]
      rw [decide_eq_true (by omega)]
  · have hrf : s.recycle = false := by rw [hrec]; exact decide_eq_false hlt
    have heq : s.ii = r.length := by omega
    have ht : t = { s with newInd := s.nb, nb := s.nb + 1, recycle := false } := by
      show nextSlot r s = _
      unfold nextSlot
      rw [if_neg (show ¬ s.recycle = true by simp [hrf])]
      exact if_pos heq.ge
    rw [ht]
    refine ⟨rfl, rfl, Nat.le_succ_of_le hnb, Nat.le_succ _, le_refl _, hii, (decide_eq_false hlt).symm, fun h => absurd h hlt, ?_⟩
    · simp only
      rw [hs, show s.nb + 1 - nb0 = (s.nb - nb0) + 1 by omega, List.range'_concat, ← List.append_assoc]
      congr 2
      omega

theorem addOne_spec (p : Par K) (ab : (Nat → K) × (Nat → K)) (r : List Nat) (ms1 : Nat → Mk K) (nb0 : Nat)
    (hr : ∀ i ∈ r, i < nb0) (hnd : r.Nodup) (s : RState K) (h : RInv p ab r ms1 nb0 s) (k : Nat) (q : K) (hq : q = 1 ∨ q = 3) :
    let t := addOne p ab r k q s
    RInv p ab r ms1 nb0 t ∧ s.nb ≤ t.nb ∧ t.nb ≤ s.nb + 1 ∧
    (∃ i, (i, k) ∈ t.log ∧ i ∉ s.log.map Prod.fst ∧ Placed p ab k q (t.ms i)) ∧
    (∀ e ∈ s.log, e ∈ t.log ∧ t.ms e.1 = s.ms e.1) := by
  intro t
  obtain ⟨hms, hlog, n1, n2, n2', n3, n4, n5, n6, n7⟩ := nextSlot_spec p ab r ms1 nb0 hr hnd s h
  set u := nextSlot r s with hu
  have et : t = { u with
      ms := upd u.ms u.newInd { u.ms u.newInd with x := newX p k q, z := height ab (P2M.nearest p.ncx (p.xmin + p.dx / 2) p.dx (newX p k q)) (newX p k q) },
      log := u.log ++ [(u.newInd, k)] } := rfl
  have hold : ∀ e ∈ s.log, t.ms e.1 = s.ms e.1 := by
    intro e he
    have hne : e.1 ≠ u.newInd := fun hc => n7 (hc ▸ List.mem_map_of_mem he)
    rw [et]
    simp only [upd_ne _ _ hne, hms]
  have hpl : Placed p ab k q (t.ms u.newInd) := by
    rw [et]
    simp only [upd_same]
    exact ⟨rfl, rfl⟩
  have hlogt : t.log = s.log ++ [(u.newInd, k)] := by rw [et]; simp only [hlog]
  refine ⟨⟨?_, ?_, ?_, ?_, ?_, ?_, ?_, ?_⟩, ?_, ?_, ⟨u.newInd, ?_, n7, hpl⟩, fun e he => ⟨?_, hold e he⟩⟩
  · rw [hlogt, List.map_append, List.map_singleton, n6, et]
  · rw [et]; exact n1
  · rw [et]; exact n3
  · rw [et]; exact n4
  · rw [et]; exact n5
  · intro i hi
    rw [hlogt, List.map_append, List.mem_append, not_or] at hi
    have hne : i ≠ u.newInd := by simpa using hi.2
    rw [et]
    simp only [upd_ne _ _ hne, hms]
    exact h.rest i hi.1
  · intro i
    rw [et]
    by_cases e : i = u.newInd
    · subst e; simp only [upd_same, hms]; exact h.phase _
    · simp only [upd_ne _ _ e, hms]; exact h.phase _
  · intro e he
    rw [hlogt, List.mem_append] at he
    rcases he with he | he
    · rw [hold e he]; exact h.placed e he
    · rw [List.mem_singleton] at he
      subst he
      rcases hq with hq | hq
      · left; rw [hq] at hpl; exact hpl
      · right; rw [hq] at hpl; exact hpl
  · rw [et]; exact n2
  · rw [et]; exact n2'
  · rw [hlogt]; exact List.mem_append_right _ (List.mem_singleton.mpr rfl)
  · rw [hlogt]; exact List.mem_append_left _ he

/-- Two new markers of column `k`, west and east. -/
def Filled (p : Par K) (ab : (Nat → K) × (Nat → K)) (s : RState K) (k : Nat) : Prop :=
  ∃ i j, i ≠ j ∧ (i, k) ∈ s.log ∧ (j, k) ∈ s.log ∧ Placed p ab k 1 (s.ms i) ∧ Placed p ab k 3 (s.ms j)

theorem fillColumn_spec (p : Par K) (ab : (Nat → K) × (Nat → K)) (num : Nat → Nat) (r : List Nat) (ms1 : Nat → Mk K) (nb0 : Nat)
    (hr : ∀ i ∈ r, i < nb0) (hnd : r.Nodup) (s t : RState K) (h : RInv p ab r ms1 nb0 s) (k : Nat)
    (ht : fillColumn p ab num r s k = some t) :
    RInv p ab r ms1 nb0 t ∧ (num k < 4 → Filled p ab t k) ∧ (∀ k', Filled p ab s k' → Filled p ab t k') ∧
    (t.nb = s.nb ∨ t.nb < p.nbMax) ∧ t.nb ≤ s.nb + 2 := by
  unfold fillColumn at ht
  split_ifs at ht with h1 h2
  · rw [Option.some.injEq] at ht
    obtain ⟨i1, b1, b1', ⟨i, hi, hi', pi⟩, o1⟩ := addOne_spec p ab r ms1 nb0 hr hnd s h k 1 (Or.inl rfl)
    obtain ⟨i2, b2, b2', ⟨j, hj, hj', pj⟩, o2⟩ := addOne_spec p ab r ms1 nb0 hr hnd _ i1 k 3 (Or.inr rfl)
    rw [ht] at i2 b2 b2' hj pj o2
    have keep : ∀ e ∈ s.log, e ∈ t.log ∧ t.ms e.1 = s.ms e.1 := fun e he => by
      obtain ⟨m1, e1⟩ := o1 e he
      obtain ⟨m2, e2⟩ := o2 e m1
      exact ⟨m2, e2.trans e1⟩
    refine ⟨i2, fun _ => ?_, ?_, Or.inr ?_, ?_⟩
    · obtain ⟨m2, e2⟩ := o2 _ hi
      refine ⟨i, j, ?_, m2, hj, ?_, pj⟩
      · rintro rfl
        exact hj' (List.mem_map_of_mem hi)
      · rw [e2]; exact pi
    · rintro k' ⟨a, b, hne, ha, hb, pa, pb⟩
      obtain ⟨ma, ea⟩ := keep _ ha
      obtain ⟨mb, eb⟩ := keep _ hb
      exact ⟨a, b, hne, ma, mb, by rw [ea]; exact pa, by rw [eb]; exact pb⟩
    · omega
    · omega
  · rw [Option.some.injEq] at ht
    subst ht
    exact ⟨h, fun hc => absurd hc h1, fun _ hk => hk, Or.inl rfl, by omega⟩

theorem runCols_spec (p : Par K) (ab : (Nat → K) × (Nat → K)) (num : Nat → Nat) (r : List Nat) (ms1 : Nat → Mk K) (nb0 : Nat)
    (hr : ∀ i ∈ r, i < nb0) (hnd : r.Nodup) : ∀ (ks : List Nat) (s t : RState K), RInv p ab r ms1 nb0 s →
    runCols (fillColumn p ab num r) ks s = some t →
    RInv p ab r ms1 nb0 t ∧ (∀ k ∈ ks, num k < 4 → Filled p ab t k) ∧ (∀ k', Filled p ab s k' → Filled p ab t k') ∧
    (t.nb = s.nb ∨ t.nb < p.nbMax) := by
  intro ks
  induction ks with
  | nil =>
    intro s t h ht
    simp only [runCols, Option.some.injEq] at ht
    subst ht
    exact ⟨h, by simp, fun _ hk => hk, Or.inl rfl⟩
  | cons k ks ih =>
    intro s t h ht
    rw [runCols] at ht
    split at ht
    · exact absurd ht (by simp)
    · rename_i u hu
      obtain ⟨a1, a2, a3, a4, _⟩ := fillColumn_spec p ab num r ms1 nb0 hr hnd s u h k hu
      obtain ⟨b1, b2, b3, b4⟩ := ih u t a1 ht
      refine ⟨b1, ?_, fun k' hk' => b3 k' (a3 k' hk'), ?_⟩
      · intro k' hk'
        rw [List.mem_cons] at hk'
        rcases hk' with rfl | hk'
        · exact fun hlt => b3 _ (a2 hlt)
        · exact b2 k' hk'
      · rcases b4 with b4 | b4
        · rw [b4]; exact a4
        · exact Or.inr b4

theorem runCols_total (p : Par K) (ab : (Nat → K) × (Nat → K)) (num : Nat → Nat) (r : List Nat) (ms1 : Nat → Mk K) (nb0 : Nat)
    (hr : ∀ i ∈ r, i < nb0) (hnd : r.Nodup) : ∀ (ks : List Nat) (s : RState K), RInv p ab r ms1 nb0 s →
    s.nb + 2 * ks.length < p.nbMax → ∃ t, runCols (fillColumn p ab num r) ks s = some t := by
  intro ks
  induction ks with
  | nil => intro s _ _; exact ⟨s, rfl⟩
  | cons k ks ih =>
    intro s h hc
    rw [List.length_cons] at hc
    have : ∃ u, fillColumn p ab num r s k = some u := by
      unfold fillColumn
      split_ifs with h1 h2
      · exact ⟨_, rfl⟩
      · exact absurd (show s.nb + 1 < p.nbMax ∧ s.nb + 2 < p.nbMax by omega) h2
      · exact ⟨_, rfl⟩
    obtain ⟨u, hu⟩ := this
    obtain ⟨a1, _, _, _, a5⟩ := fillColumn_spec p ab num r ms1 nb0 hr hnd s u h k hu
    obtain ⟨t, ht⟩ := ih u a1 (by omega)
    exact ⟨t, by rw [runCols, hu]; exact ht⟩

/-! ### The theorem -/

/-- Marked chain. -/
def marked (p : Par K) (ms0 : Nat → Mk K) (nb : Nat) : Nat → Mk K := fun i => if i < nb then markOut p (ms0 i) else ms0 i

theorem reuse_mem (ms : Nat → Mk K) (nb i : Nat) : i ∈ reuse ms nb ↔ i < nb ∧ (ms i).phase = -1 := by
  unfold reuse; simp

theorem start_inv (p : Par K) (ab : (Nat → K) × (Nat → K)) (ms0 : Nat → Mk K) (nb : Nat) :
    let ms := marked p ms0 nb
    RInv p ab (reuse ms nb) ms nb ⟨ms, nb, 0, decide (0 < (reuse ms nb).length), 0, []⟩ := by
  intro ms
  exact ⟨by simp, le_refl _, by simp, rfl, fun _ => rfl, fun _ _ => rfl, fun _ => rfl, by simp⟩

theorem newX_inside (p : Par K) (g : Geom p) (k : Nat) (q : K) (hq : q = 1 ∨ q = 3) :
    p.xmin + k * (p.dx / 2) < newX p k q ∧ newX p k q < p.xmin + (k + 1) * (p.dx / 2) := by
  have := g.dx
  unfold newX
  rcases hq with rfl | rfl
  · constructor <;> linarith
  · constructor <;> linarith

theorem placed_on_surface (p : Par K) (g : Geom p) (xg h : Nat → K) (hxg : Even p.ncx p.dx xg) (hx0 : xg 0 = p.xmin)
    (ab : (Nat → K) × (Nat → K)) (k : Nat) (hk : k < p.fine) (q : K) (hq : q = 1 ∨ q = 3) (m : Mk K)
    (hm : Placed p (polyFit p.ncx p.dx xg h ab) k q m) : OnPolyline p.ncx xg h m.x m.z := by
  obtain ⟨hx, hz⟩ := hm
  obtain ⟨a, b⟩ := newX_inside p g k q hq
  have hdx := g.dx
  have hk0 : (0 : K) ≤ k := Nat.cast_nonneg k
  have hk1 : (k : K) + 1 ≤ 2 * p.ncx := by
    have : k + 1 ≤ 2 * p.ncx := hk
    exact_mod_cast this
  obtain ⟨j, hj, e, j0, j1⟩ := column_brackets p.ncx g.n p.dx hdx xg hxg (newX p k q) (by rw [hx0]; nlinarith)
    (by rw [hxg p.ncx le_rfl, hx0]; nlinarith)
  rw [hx0] at e
  rw [hx, hz, e]
  exact ((surface_polyline p.ncx p.dx hdx xg h hxg ab).2.2 j hj _ j0 j1).1

/-- **C32, the part that holds.**  If the re-meshing does not stop the run: the marker number stays below the
capacity; every fine column with fewer than four markers gets two more markers, in two different slots that
were dead or unused, strictly inside the column and on the surface; every marker of the box keeps its position and
is active; appended markers keep the activity flag found in the slot. -/
theorem remesh_partial (p : Par K) (g : Geom p) (xg h : Nat → K) (hxg : Even p.ncx p.dx xg) (hx0 : xg 0 = p.xmin)
    (ab : (Nat → K) × (Nat → K)) (ms0 : Nat → Mk K) (nb : Nat) (hcap : nb < p.nbMax) (s : RState K)
    (hs : remesh p (polyFit p.ncx p.dx xg h ab) ms0 nb = some s) :
    nb ≤ s.nb ∧ s.nb < p.nbMax ∧
    (∀ k < 2 * p.ncx, fineCount p ms0 nb k < 4 → ∃ i j, i ≠ j ∧ ∀ a ∈ [i, j],
      a < s.nb ∧ (a < nb → (ms0 a).x < p.xmin ∨ p.xmax < (ms0 a).x) ∧
      p.xmin + k * (p.dx / 2) < (s.ms a).x ∧ (s.ms a).x < p.xmin + (k + 1) * (p.dx / 2) ∧
      OnPolyline p.ncx xg h (s.ms a).x (s.ms a).z ∧ (nb ≤ a → (s.ms a).phase = (ms0 a).phase)) ∧
    (∀ i < nb, p.xmin ≤ (ms0 i).x → (ms0 i).x ≤ p.xmax →
      s.ms i = { ms0 i with phase := 0 }) := by
  set ms := marked p ms0 nb with hms
  have hrun : runCols (fillColumn p (polyFit p.ncx p.dx xg h ab) (numMark p ms nb) (reuse ms nb)) (List.range p.fine)
    ⟨ms, nb, 0, decide (0 < (reuse ms nb).length), 0, []⟩ = some s := hs
  have hr : ∀ i ∈ reuse ms nb, i < nb := fun i hi => ((reuse_mem ms nb i).mp hi).1
  have hnd : (reuse ms nb).Nodup := List.nodup_range.filter _
  obtain ⟨inv, filled, _, hnb⟩ := runCols_spec p _ _ _ ms nb hr hnd _ _ s (start_inv p _ ms0 nb) hrun
  have hslot : ∀ a ∈ s.log.map Prod.fst, a < s.nb ∧ (a < nb → (ms a).phase = -1) := by
    intro a ha
    rw [inv.slots, List.mem_append] at ha
    rcases ha with ha | ha
    · have hm := List.mem_of_mem_take ha
      have h1 := hr a hm
      exact ⟨lt_of_lt_of_le h1 inv.nb, fun _ => ((reuse_mem ms nb a).mp hm).2⟩
    · rw [List.mem_range'_1] at ha
      have := inv.nb
      exact ⟨by omega, fun hc => by omega⟩
  refine ⟨inv.nb, ?_, ?_, ?_⟩
  · rcases hnb with e | e
    · rw [e]; exact hcap
    · exact e
  · intro k hk hc
    have hk' : k < p.fine := hk
    rw [← numMark_eq p g ms0 nb k hk'] at hc
    obtain ⟨i, j, hij, mi, mj, pi, pj⟩ := filled k (List.mem_range.mpr hk') hc
    have one : ∀ a q, (a, k) ∈ s.log → (q = 1 ∨ q = 3) → Placed p (polyFit p.ncx p.dx xg h ab) k q (s.ms a) →
        a < s.nb ∧ (a < nb → (ms0 a).x < p.xmin ∨ p.xmax < (ms0 a).x) ∧
        p.xmin + k * (p.dx / 2) < (s.ms a).x ∧ (s.ms a).x < p.xmin + (k + 1) * (p.dx / 2) ∧
        OnPolyline p.ncx xg h (s.ms a).x (s.ms a).z ∧ (nb ≤ a → (s.ms a).phase = (ms0 a).phase) := by
      intro a q ma hq pa
      obtain ⟨h1, h2⟩ := hslot a (List.mem_map_of_mem ma)
      obtain ⟨x0, x1⟩ := newX_inside p g k q hq
      refine ⟨h1, fun hlt => ?_, by rw [pa.1]; exact x0, by rw [pa.1]; exact x1,
        placed_on_surface p g xg h hxg hx0 ab k hk' q hq _ pa, fun hge => ?_⟩
      · have hd := h2 hlt
        rw [hms, marked, if_pos hlt] at hd
        by_contra hcon
        push Not at hcon
        exact ((markOut_phase p (ms0 a)).1.mpr hcon) hd
      · rw [inv.phase, hms, marked, if_neg (by omega)]
    refine ⟨i, j, hij, ?_⟩
    intro a ha
    rw [List.mem_cons, List.mem_singleton] at ha
    rcases ha with rfl | rfl
    · exact one a 1 mi (Or.inl rfl) pi
    · exact one a 3 mj (Or.inr rfl) pj
  · intro i hi x0 x1
    have hlive : (ms i).phase ≠ -1 := by
      rw [hms, marked, if_pos hi]
      exact (markOut_phase p (ms0 i)).1.mpr ⟨x0, x1⟩
    have hni : i ∉ s.log.map Prod.fst := fun hm => hlive ((hslot i hm).2 hi)
    rw [inv.rest i hni, hms, marked, if_pos hi]
    unfold markOut
    rw [if_neg (by push Not; exact ⟨x1, x0⟩)]

/-- **C32, termination.**  With room for two markers per fine column the re-meshing does not stop the run. -/
theorem remesh_succeeds (p : Par K) (ab : (Nat → K) × (Nat → K)) (ms0 : Nat → Mk K) (nb : Nat)
    (hcap : nb + 4 * p.ncx < p.nbMax) : ∃ s, remesh p ab ms0 nb = some s := by
  set ms := marked p ms0 nb with hms
  have hr : ∀ i ∈ reuse ms nb, i < nb := fun i hi => ((reuse_mem ms nb i).mp hi).1
  have hnd : (reuse ms nb).Nodup := List.nodup_range.filter _
  refine runCols_total p ab _ (reuse ms nb) ms nb hr hnd (List.range p.fine) _ (start_inv p ab ms0 nb) ?_
  rw [List.length_range]
  show nb + 2 * (2 * p.ncx) < p.nbMax
  omega

/-- **C32 fails for recycled markers.**  A slot of the chain that is reused keeps its out-of-box flag. -/
theorem remesh_recycled_dead (p : Par K) (ab : (Nat → K) × (Nat → K)) (ms0 : Nat → Mk K) (nb : Nat) (s : RState K)
    (hs : remesh p ab ms0 nb = some s) (i : Nat) (hi : i < nb) (ho : (ms0 i).x < p.xmin ∨ p.xmax < (ms0 i).x) :
    (s.ms i).phase = -1 := by
  set ms := marked p ms0 nb with hms
  have hr : ∀ i ∈ reuse ms nb, i < nb := fun i hi => ((reuse_mem ms nb i).mp hi).1
  have hnd : (reuse ms nb).Nodup := List.nodup_range.filter _
  obtain ⟨inv, _⟩ := runCols_spec p ab _ _ ms nb hr hnd _ _ s (start_inv p ab ms0 nb) hs
  rw [inv.phase, hms, marked, if_pos hi]
  unfold markOut
  rw [if_pos (Or.symm ho)]

/-! ### Example and counterexample -/

/-- One cell, two fine columns, nine markers: five in the west column, two in the east column, two out of the box. -/
def demoPar : Par ℚ := ⟨1, 2, 0, 2, 20⟩
def demoChain : Nat → Mk ℚ := fun i =>
  [⟨1/10, 0, 0⟩, ⟨3/10, 0, 0⟩, ⟨1/2, 0, 0⟩, ⟨7/10, 0, 0⟩, ⟨9/10, 0, 0⟩, ⟨3/2, 0, 0⟩, ⟨8/5, 0, 0⟩, ⟨3, 0, 0⟩, ⟨4, 0, 0⟩].getD i ⟨0, 0, 0⟩
def demoGrid : Nat → ℚ := fun j => 2 * j

theorem demoGeom : Geom demoPar := ⟨by decide, by decide +kernel, by decide +kernel⟩
example : Even demoPar.ncx demoPar.dx demoGrid := by
  intro j hj; simp only [demoGrid, demoPar]; push_cast; ring
example : fineCount demoPar demoChain 9 1 < 4 := by decide +kernel

/-- The depleted east column is filled with the two recycled slots, which stay inactive: the surface is still
described by the two old markers there. -/
theorem remesh_recycling_useless :
    (remesh demoPar (polyFit 1 2 demoGrid (fun _ => 0) (fun _ => 0, fun _ => 0)) demoChain 9).map
      (fun s => (s.nb, (List.range 9).map fun i => ((s.ms i).x, (s.ms i).phase))) =
    some (9, [(1/10, 0), (3/10, 0), (1/2, 0), (7/10, 0), (9/10, 0), (3/2, 0), (8/5, 0), (5/4, -1), (7/4, -1)]) := by
  decide +kernel

/-- Without markers out of the box the new ones are appended and active. -/
example : (remesh demoPar (polyFit 1 2 demoGrid (fun _ => 0) (fun _ => 0, fun _ => 0)) demoChain 7).map
      (fun s => (s.nb, (List.range 9).map fun i => ((s.ms i).x, (s.ms i).phase))) =
    some (9, [(1/10, 0), (3/10, 0), (1/2, 0), (7/10, 0), (9/10, 0), (3/2, 0), (8/5, 0), (5/4, 0), (7/4, 0)]) := by
  decide +kernel

end Verif.Surf
