import Verif.Model.Reseed
import Verif.Lemmas.P2Mastah
import Mathlib.Data.Rat.Floor
import Mathlib.Data.List.Range
import Mathlib.Data.List.Forall2
import Mathlib.Data.List.Nodup

/-
C25: reseeding fills dead or unused slots only, at most once each, never the whole array, and gives
every new marker the material of a live marker of its neighbourhood.
C26: where reseeded markers are placed.
-/
namespace Verif.Seed
open Verif
set_option linter.unusedSectionVars false
set_option linter.unusedSimpArgs false

variable {K : Type*} [Field K] [LinearOrder K] [IsStrictOrderedRing K] [FloorRing K] {ρ : Type*}

/-! ### Specification -/

/-- Marker `k` is in use at entry. -/
def Live (ms : Nat → Mk K ρ) (nb k : Nat) : Prop := k < nb ∧ (ms k).phase ≠ -1

/-- Fine cell `c` is rock and holds less than two markers. -/
def Deficient (p : Par K) (flag : Nat × Nat → Int) (ms : Nat → Mk K ρ) (nb : Nat) (c : Nat × Nat) : Bool :=
  decide ((partCell p ms nb (c.1, c.2)).length < 2 ∧ flag c ≠ 30)

/-- Cells at most two columns and two rows apart. -/
def Near (a b : Nat × Nat) : Prop :=
  a.1 ≤ b.1 + 2 ∧ b.1 ≤ a.1 + 2 ∧ a.2 ≤ b.2 + 2 ∧ b.2 ≤ a.2 + 2

/-- Marker `k` is live and lies in a fine cell of the 5 x 5 neighbourhood of cell `c`. -/
def Neighbour (p : Par K) (ms : Nat → Mk K ρ) (nb : Nat) (c : Nat × Nat) (k : Nat) : Prop :=
  Live ms nb k ∧ ∃ d : Nat × Nat, d.1 < p.ncx ∧ d.2 < p.ncz ∧ Near c d ∧ p.cell (ms k).x (ms k).z = ((d.1 : Int), (d.2 : Int))

/-- Squared distance of marker `k` to a point. -/
def dist2 (ms : Nat → Mk K ρ) (q : K × K) (k : Nat) : K := (q.1 - (ms k).x) ^ 2 + (q.2 - (ms k).z) ^ 2

/-- Slot content `m` is a marker created for cell `c`: centred in the cell, first generation, material of a live
marker of the neighbourhood, and of the closest one unless all are farther than the box is wide. -/
def Created (p : Par K) (ms : Nat → Mk K ρ) (nb : Nat) (c : Nat × Nat) (m : Mk K ρ) : Prop :=
  m.x = (centroid p c.1 c.2).1 ∧ m.z = (centroid p c.1 c.2).2 ∧ m.gen = 1 ∧
  ∃ src, Neighbour p ms nb c src ∧ m.phase = (ms src).phase ∧ m.props = (ms src).props ∧
    ∀ k, Neighbour p ms nb c k → dist2 ms (centroid p c.1 c.2) k < (p.xmax - p.xmin) ^ 2 →
      dist2 ms (centroid p c.1 c.2) src ≤ dist2 ms (centroid p c.1 c.2) k

/-- `part_count` still holds the number of markers per cell when it is read after having been freed. -/
def Intact (p : Par K) (ms : Nat → Mk K ρ) (nb : Nat) (count : Nat × Nat → Nat) : Prop :=
  ∀ c : Nat × Nat, c.1 < p.ncx → c.2 < p.ncz → count c = (partCell p ms nb (c.1, c.2)).length

/-! ### Auxiliary -/

theorem runAll_inv {f : State K ρ → Nat × Nat → Except Stop (State K ρ)}
    (P : List (Nat × Nat) → State K ρ → Prop)
    (hs : ∀ done s c s', P done s → f s c = .ok s' → P (done ++ [c]) s') :
    ∀ cs done s s', P done s → runAll f cs s = .ok s' → P (done ++ cs) s' := by
  intro cs
  induction cs with
  | nil => intro done s s' hP h; simp only [runAll, Except.ok.injEq] at h; subst h; simpa using hP
  | cons c cs ih =>
    intro done s s' hP h
    simp only [runAll] at h
    cases hf : f s c with
    | error e => rw [hf] at h; simp at h
    | ok t =>
      rw [hf] at h
      have := ih (done ++ [c]) t s' (hs _ _ _ _ hP hf) h
      simpa using this

theorem runAll_inv' {f : State K ρ → Nat × Nat → Except Stop (State K ρ)} (all : List (Nat × Nat))
    (P : List (Nat × Nat) → State K ρ → Prop)
    (hs : ∀ done s c s', c ∈ all → P done s → f s c = .ok s' → P (done ++ [c]) s') :
    ∀ cs done s s', (∀ c ∈ cs, c ∈ all) → P done s → runAll f cs s = .ok s' → P (done ++ cs) s' := by
  intro cs
  induction cs with
  | nil => intro done s s' _ hP h; simp only [runAll, Except.ok.injEq] at h; subst h; simpa using hP
  | cons c cs ih =>
    intro done s s' hc hP h
    simp only [runAll] at h
    cases hf : f s c with
    | error e => rw [hf] at h; simp at h
    | ok t =>
      rw [hf] at h
      have := ih (done ++ [c]) t s' (fun d hd => hc d (List.mem_cons_of_mem _ hd))
        (hs _ _ _ _ (hc c List.mem_cons_self) hP hf) h
      simpa using this

/-- Slot bookkeeping invariant. -/
structure Slots (p : Par K) (ms0 : Nat → Mk K ρ) (nb0 : Nat) (s : State K ρ) : Prop where
  used : s.used ≤ (partReuse ms0 nb0).length
  nb : nb0 ≤ s.nb
  order : s.used < (partReuse ms0 nb0).length → s.nb = nb0
  room : s.nb = nb0 ∨ s.nb < p.nbMax
  log : s.log = (partReuse ms0 nb0).take s.used ++ List.range' nb0 (s.nb - nb0)
  keep : ∀ k, k ∉ s.log → s.ms k = ms0 k

theorem reuse_nodup (ms0 : Nat → Mk K ρ) (nb0 : Nat) : (partReuse ms0 nb0).Nodup :=
  List.nodup_range.filter _

theorem mem_reuse {ms0 : Nat → Mk K ρ} {nb0 k : Nat} : k ∈ partReuse ms0 nb0 ↔ k < nb0 ∧ (ms0 k).phase = -1 := by
  simp [partReuse]

/-- A fresh slot is not in the log. -/
theorem takeSlot_spec (p : Par K) (ms0 : Nat → Mk K ρ) (nb0 : Nat) (s : State K ρ) (h : Slots p ms0 nb0 s)
    (i : Nat) (t : State K ρ) (ht : takeSlot p (partReuse ms0 nb0) s = .ok (i, t)) :
    t.ms = s.ms ∧ t.log = s.log ∧ i ∉ s.log ∧
    t.used ≤ (partReuse ms0 nb0).length ∧ nb0 ≤ t.nb ∧ (t.used < (partReuse ms0 nb0).length → t.nb = nb0) ∧
    (t.nb = nb0 ∨ t.nb < p.nbMax) ∧
    s.log ++ [i] = (partReuse ms0 nb0).take t.used ++ List.range' nb0 (t.nb - nb0) ∧ ¬ Live ms0 nb0 i := by
  unfold takeSlot at ht
  split_ifs at ht with h1 h2
  · simp only [Except.ok.injEq, Prod.mk.injEq] at ht
    obtain ⟨hi, rfl⟩ := ht
    have hlt := h1.1
    have hg : i = (partReuse ms0 nb0)[s.used] := by
      rw [← hi, List.getD_eq_getElem?_getD, List.getElem?_eq_getElem hlt]; rfl
    have hnb := h.order hlt
    have hlog : s.log = (partReuse ms0 nb0).take s.used := by rw [h.log, hnb]; simp
    have hmem : i ∈ partReuse ms0 nb0 := by rw [hg]; exact List.getElem_mem hlt
    refine ⟨rfl, rfl, ?_, ?_, h.nb, fun _ => hnb, h.room, ?_, ?_⟩
    · rw [hlog, hg]
      intro hm
      rw [List.mem_take_iff_getElem] at hm
      obtain ⟨j, hj, e⟩ := hm
      have := (reuse_nodup ms0 nb0).getElem_inj_iff.mp e
      omega
    · show s.used + 1 ≤ _
      omega
    · show s.log ++ [i] = List.take (s.used + 1) _ ++ List.range' nb0 (s.nb - nb0)
      rw [hlog, hg, hnb, List.take_succ_eq_append_getElem hlt]; simp
    · rintro ⟨_, hph⟩
      exact hph (mem_reuse.mp hmem).2
  · simp only [Except.ok.injEq, Prod.mk.injEq] at ht
    obtain ⟨hi, rfl⟩ := ht
    subst hi
    have hge : (partReuse ms0 nb0).length ≤ s.used := by
      by_contra hc
      exact h1 ⟨by omega, by omega⟩
    have hu : s.used = (partReuse ms0 nb0).length := le_antisymm h.used hge
    have hn := h.nb
    refine ⟨rfl, rfl, ?_, h.used, ?_, ?_, ?_, ?_, ?_⟩
    · rw [h.log]
      simp only [List.mem_append, not_or, List.mem_range'_1]
      refine ⟨fun hm => ?_, by omega⟩
      have := (mem_reuse.mp (List.mem_of_mem_take hm)).1
      omega
    · show nb0 ≤ s.nb + 1
      omega
    · intro hc
      have : s.used < (partReuse ms0 nb0).length := hc
      omega
    · right
      show s.nb + 1 < p.nbMax
      omega
    · show s.log ++ [s.nb] = List.take s.used _ ++ List.range' nb0 (s.nb + 1 - nb0)
      rw [h.log, List.append_assoc]
      congr 1
      have e : s.nb + 1 - nb0 = (s.nb - nb0) + 1 := by omega
      have e2 : nb0 + (s.nb - nb0) = s.nb := by omega
      rw [e, List.range'_1_concat, e2]
    · rintro ⟨hl, _⟩
      omega

/-- What one creation does. -/
theorem create_spec (p : Par K) (ms0 : Nat → Mk K ρ) (nb0 : Nat) (s : State K ρ) (h : Slots p ms0 nb0 s)
    (nbrs : List Nat) (c : Nat × Nat) (t : State K ρ)
    (ht : create p (partReuse ms0 nb0) nbrs c.1 c.2 s = .ok t) :
    Slots p ms0 nb0 t ∧
    ((¬ (p.xmin ≤ (centroid p c.1 c.2).1 ∧ (centroid p c.1 c.2).1 ≤ p.xmax ∧ p.zmin ≤ (centroid p c.1 c.2).2 ∧
        ((centroid p c.1 c.2).2 ≤ p.zmax ∨ (centroid p c.1 c.2).2 ≤ surfaceHeight p c.1)) ∧ t = s) ∨
      ∃ (i : Nat) (ms' : Nat → Mk K ρ), t.log = s.log ++ [i] ∧ i ∉ s.log ∧ ¬ Live ms0 nb0 i ∧
        (∀ k, k ≠ i → ms' k = s.ms k) ∧ (∀ k, k ≠ i → t.ms k = s.ms k) ∧
        (t.ms i).x = (centroid p c.1 c.2).1 ∧ (t.ms i).z = (centroid p c.1 c.2).2 ∧ (t.ms i).gen = 1 ∧
        (ms' (closest p ms' (centroid p c.1 c.2).1 (centroid p c.1 c.2).2 nbrs (nbrs.headD 0))).phase ≠ -1 ∧
        (t.ms i).phase = (ms' (closest p ms' (centroid p c.1 c.2).1 (centroid p c.1 c.2).2 nbrs (nbrs.headD 0))).phase ∧
        (t.ms i).props = (ms' (closest p ms' (centroid p c.1 c.2).1 (centroid p c.1 c.2).2 nbrs (nbrs.headD 0))).props) := by
  unfold create at ht
  simp only at ht
  split_ifs at ht with hb
  · cases hs : takeSlot p (partReuse ms0 nb0) s with
    | error e => rw [hs] at ht; simp at ht
    | ok r =>
      obtain ⟨i, u⟩ := r
      rw [hs] at ht
      obtain ⟨a1, a2, a3, a4, a5, a6, a7, a8, a9⟩ := takeSlot_spec p ms0 nb0 s h i u hs
      simp only at ht
      split_ifs at ht with hd
      simp only [Except.ok.injEq] at ht
      subst ht
      have hsame : ∀ k, k ≠ i → (upd u.ms i { u.ms i with
          x := (centroid p c.1 c.2).1, z := (centroid p c.1 c.2).2, gen := 1 }) k = s.ms k := by
        intro k hk; rw [upd_ne _ _ hk, a1]
      refine ⟨⟨a4, a5, a6, a7, ?_, ?_⟩, Or.inr ⟨i, _, ?_, a3, a9, hsame, ?_, ?_, ?_, ?_, hd, ?_, ?_⟩⟩
      · show u.log ++ [i] = _
        rw [a2]; exact a8
      · intro k hk
        simp only [a2, List.mem_append, List.mem_singleton, not_or] at hk
        simp only [upd_ne _ _ hk.2, a1]
        exact h.keep k hk.1
      · show u.log ++ [i] = _
        rw [a2]
      · intro k hk
        simp only [upd_ne _ _ hk, a1]
      · simp only [upd_same]
      · simp only [upd_same]
      · simp only [upd_same]
      · simp only [upd_same]
      · simp only [upd_same]
  · simp only [Except.ok.injEq] at ht
    subst ht
    exact ⟨h, Or.inl ⟨hb, rfl⟩⟩

theorem visit_slots (p : Par K) (flag : Nat × Nat → Int) (count : Nat × Nat → Nat) (ms0 : Nat → Mk K ρ) (nb0 : Nat)
    (s : State K ρ) (h : Slots p ms0 nb0 s) (c : Nat × Nat) (t : State K ρ)
    (ht : visit p flag count ms0 nb0 s c = .ok t) : Slots p ms0 nb0 t := by
  unfold visit at ht
  simp only at ht
  split_ifs at ht with h1 h2
  · split at ht
    · simp at ht
    · exact (create_spec p ms0 nb0 s h _ c t ht).1
  · simp only [Except.ok.injEq] at ht
    subst ht; exact h

theorem slots_init (p : Par K) (ms0 : Nat → Mk K ρ) (nb0 : Nat) : Slots p ms0 nb0 ⟨ms0, nb0, 0, []⟩ :=
  ⟨by simp, le_refl _, fun _ => rfl, Or.inl rfl, by simp, fun _ _ => rfl⟩

theorem reseed_slots (p : Par K) (flag : Nat × Nat → Int) (count : Nat × Nat → Nat) (ms0 : Nat → Mk K ρ) (nb0 : Nat)
    (t : State K ρ) (ht : reseed p flag count ms0 nb0 = .ok t) : Slots p ms0 nb0 t :=
  runAll_inv (fun _ s => Slots p ms0 nb0 s) (fun _ s c s' h hf => visit_slots p flag count ms0 nb0 s h c s' hf)
    _ [] _ _ (slots_init p ms0 nb0) ht

/-! ### C25, slots -/

/-- C25 (slots): whatever the freed counters contain, if the routine returns then live markers are untouched, the
new markers sit in pairwise different slots that were dead or unused, everything else is unchanged, and the
marker count grew only by the newly appended ones and stays below the capacity. -/
theorem reseed_slots_safe (p : Par K) (flag : Nat × Nat → Int) (count : Nat × Nat → Nat) (ms : Nat → Mk K ρ)
    (nb : Nat) (t : State K ρ) (ht : reseed p flag count ms nb = .ok t) :
    (∀ k, Live ms nb k → t.ms k = ms k) ∧
    t.log.Nodup ∧ (∀ i ∈ t.log, ¬ Live ms nb i ∧ i < t.nb) ∧
    (∀ k, k ∉ t.log → t.ms k = ms k) ∧
    (∀ i, nb ≤ i → i < t.nb → i ∈ t.log) ∧
    nb ≤ t.nb ∧ (t.nb = nb ∨ t.nb < p.nbMax) := by
  have h := reseed_slots p flag count ms nb t ht
  have hdead : ∀ i ∈ t.log, ¬ Live ms nb i ∧ i < t.nb := by
    intro i hi
    rw [h.log, List.mem_append, List.mem_range'_1] at hi
    have := h.nb
    rcases hi with hi | hi
    · have := mem_reuse.mp (List.mem_of_mem_take hi)
      exact ⟨fun hl => hl.2 this.2, by omega⟩
    · exact ⟨fun hl => by have := hl.1; omega, by omega⟩
  refine ⟨fun k hk => h.keep k (fun hm => (hdead k hm).1 hk), ?_, hdead, h.keep, ?_, h.nb, h.room⟩
  · rw [h.log]
    refine List.Nodup.append ((reuse_nodup ms nb).sublist (List.take_sublist _ _)) (List.nodup_range' ) ?_
    intro a ha hb
    have := (mem_reuse.mp (List.mem_of_mem_take ha)).1
    have := (List.mem_range'_1.mp hb).1
    omega
  · intro i h1 h2
    rw [h.log, List.mem_append, List.mem_range'_1]
    right; omega

/-! ### C25, material -/

theorem span_mem {a b i : Nat} (h : a ≤ b + 1) : i ∈ span a b ↔ a ≤ i ∧ i ≤ b := by
  unfold span
  simp only [List.mem_map, List.mem_range]
  constructor
  · rintro ⟨j, hj, rfl⟩; omega
  · intro hi; exact ⟨i - a, by omega, by omega⟩

theorem lower_spec (i : Nat) : lower i = i - 2 := by
  unfold lower; simp only; split_ifs <;> omega

theorem upper_spec (n i : Nat) (h : i < n) : upper n i = min (i + 2) (n - 1) := by
  unfold upper; simp only; split_ifs <;> omega

/-- The search neighbourhood is the 5 x 5 block clipped to the grid. -/
theorem hood_spec (p : Par K) (c d : Nat × Nat) (h1 : c.1 < p.ncx) (h2 : c.2 < p.ncz) :
    d ∈ hood p c.1 c.2 ↔ d.1 < p.ncx ∧ d.2 < p.ncz ∧ Near c d := by
  unfold hood
  simp only [List.mem_flatMap, List.mem_map, lower_spec, upper_spec _ _ h1, upper_spec _ _ h2, Near]
  constructor
  · rintro ⟨i, hi, j, hj, rfl⟩
    rw [span_mem (by omega)] at hi hj
    simp only
    omega
  · rintro ⟨a1, a2, a3⟩
    refine ⟨d.1, ?_, d.2, ?_, rfl⟩ <;> rw [span_mem (by omega)] <;> omega

theorem closest_spec (p : Par K) (ms : Nat → Mk K ρ) (x z : K) (nbrs : List Nat) (first : Nat)
    (hne : nbrs ≠ [] → first ∈ nbrs) :
    (nbrs ≠ [] → closest p ms x z nbrs first ∈ nbrs) ∧
    ∀ k ∈ nbrs, dist2 ms (x, z) k < (p.xmax - p.xmin) ^ 2 →
      dist2 ms (x, z) (closest p ms x z nbrs first) ≤ dist2 ms (x, z) k := by
  have key : ∀ (l : List Nat) (b : Nat × K),
      let r := l.foldl (fun (b : Nat × K) k =>
        let d := (x - (ms k).x) ^ 2 + (z - (ms k).z) ^ 2
        if d < b.2 then (k, d) else b) b
      r.2 ≤ b.2 ∧ (r = b ∨ (r.1 ∈ l ∧ r.2 = dist2 ms (x, z) r.1)) ∧ ∀ k ∈ l, r.2 ≤ dist2 ms (x, z) k := by
    intro l
    induction l with
    | nil => intro b; simp
    | cons k l ih =>
      intro b
      simp only [List.foldl_cons]
      by_cases hd : (x - (ms k).x) ^ 2 + (z - (ms k).z) ^ 2 < b.2
      · rw [if_pos hd]
        obtain ⟨i1, i2, i3⟩ := ih (k, (x - (ms k).x) ^ 2 + (z - (ms k).z) ^ 2)
        refine ⟨i1.trans hd.le, Or.inr ?_, ?_⟩
        · rcases i2 with e | ⟨e1, e2⟩
          · rw [e]; exact ⟨List.mem_cons_self, rfl⟩
          · exact ⟨List.mem_cons_of_mem _ e1, e2⟩
        · intro j hj
          rcases List.mem_cons.mp hj with rfl | hj
          · exact i1
          · exact i3 j hj
      · rw [if_neg hd]
        obtain ⟨i1, i2, i3⟩ := ih b
        refine ⟨i1, ?_, ?_⟩
        · rcases i2 with e | ⟨e1, e2⟩
          · exact Or.inl e
          · exact Or.inr ⟨List.mem_cons_of_mem _ e1, e2⟩
        · intro j hj
          rcases List.mem_cons.mp hj with rfl | hj
          · exact i1.trans (not_lt.mp hd)
          · exact i3 j hj
  obtain ⟨k1, k2, k3⟩ := key nbrs (first, (p.xmax - p.xmin) ^ 2)
  constructor
  · intro hn
    rcases k2 with e | ⟨e1, _⟩
    · unfold closest; rw [e]; exact hne hn
    · exact e1
  · intro k hk hlt
    rcases k2 with e | ⟨e1, e2⟩
    · have := k3 k hk
      rw [e] at this
      exact absurd hlt (not_lt.mpr this)
    · have := k3 k hk
      rw [e2] at this
      exact this

theorem mem_partCell {p : Par K} {ms : Nat → Mk K ρ} {nb : Nat} {c : Int × Int} {k : Nat} :
    k ∈ partCell p ms nb c ↔ Live ms nb k ∧ p.cell (ms k).x (ms k).z = c := by
  simp [partCell, Live, and_assoc]

/-- With intact counters the collected indices are exactly the neighbours. -/
theorem collect_spec (p : Par K) (ms : Nat → Mk K ρ) (nb : Nat) (count : Nat × Nat → Nat)
    (hi : Intact p ms nb count) (c : Nat × Nat) (h1 : c.1 < p.ncx) (h2 : c.2 < p.ncz) (nbrs : List Nat)
    (h : collect count (fun c : Nat × Nat => partCell p ms nb (c.1, c.2)) (hood p c.1 c.2) = .ok nbrs) (k : Nat) :
    k ∈ nbrs ↔ Neighbour p ms nb c k := by
  unfold collect at h
  split_ifs at h with ha
  simp only [Except.ok.injEq] at h
  subst h
  simp only [List.mem_flatMap]
  constructor
  · rintro ⟨d, hd, hk⟩
    have hd' := (hood_spec p c d h1 h2).mp hd
    have hm := mem_partCell.mp (List.mem_of_mem_take hk)
    exact ⟨hm.1, d, hd'.1, hd'.2.1, hd'.2.2, hm.2⟩
  · rintro ⟨hl, d, d1, d2, d3, e⟩
    refine ⟨d, (hood_spec p c d h1 h2).mpr ⟨d1, d2, d3⟩, ?_⟩
    rw [hi d d1 d2, List.take_length]
    exact mem_partCell.mpr ⟨hl, e⟩

/-- A grid and box as the code uses them: the coarse grid spans the box. -/
def Box (p : Par K) : Prop :=
  1 ≤ p.Nx ∧ 1 ≤ p.Nz ∧ 0 < p.dx ∧ 0 < p.dz ∧
  p.xmax = p.xmin + (p.Nx - 1) * p.dx ∧ p.zmax = p.zmin + (p.Nz - 1) * p.dz

theorem coord_in {n ic : Nat} {a d : K} (h1 : 1 ≤ n) (h : ic < 2 * n - 2) (hd : 0 < d) :
    a ≤ a + d / 2 / 2 + ic * (d / 2) ∧ a + d / 2 / 2 + ic * (d / 2) ≤ a + ((n : K) - 1) * d := by
  have hc : (ic : K) + 1 ≤ 2 * n - 2 := by
    have : ic + 3 ≤ 2 * n := by omega
    have := (Nat.cast_le (α := K)).mpr this
    push_cast at this
    linarith
  have h0 : (0 : K) ≤ ic := Nat.cast_nonneg _
  constructor
  · nlinarith
  · nlinarith

/-- C26 (box): fine cell centres, where new markers are put, lie in the box. -/
theorem centroid_in_box (p : Par K) (hb : Box p) (c : Nat × Nat) (h1 : c.1 < p.ncx) (h2 : c.2 < p.ncz) :
    p.xmin ≤ (centroid p c.1 c.2).1 ∧ (centroid p c.1 c.2).1 ≤ p.xmax ∧
    p.zmin ≤ (centroid p c.1 c.2).2 ∧ (centroid p c.1 c.2).2 ≤ p.zmax := by
  obtain ⟨b1, b2, b3, b4, b5, b6⟩ := hb
  have x := coord_in (a := p.xmin) b1 h1 b3
  have z := coord_in (a := p.zmin) b2 h2 b4
  rw [b5, b6]
  exact ⟨x.1, x.2, z.1, z.2⟩

/-- Invariant over the visited cells: the log corresponds one to one to the deficient cells visited. -/
structure Mat (p : Par K) (flag : Nat × Nat → Int) (ms0 : Nat → Mk K ρ) (nb0 : Nat)
    (done : List (Nat × Nat)) (s : State K ρ) : Prop where
  slots : Slots p ms0 nb0 s
  made : List.Forall₂ (fun i c => Created p ms0 nb0 c (s.ms i)) s.log (done.filter (Deficient p flag ms0 nb0))

theorem mem_allCells (p : Par K) (c : Nat × Nat) : c ∈ allCells p ↔ c.1 < p.ncx ∧ c.2 < p.ncz := by
  unfold allCells
  simp only [List.mem_flatMap, List.mem_range, List.mem_map]
  constructor
  · rintro ⟨i, hi, j, hj, rfl⟩; exact ⟨hi, hj⟩
  · intro h; exact ⟨c.1, h.1, c.2, h.2, rfl⟩

theorem slots_live {p : Par K} {ms0 : Nat → Mk K ρ} {nb0 : Nat} {s : State K ρ} (h : Slots p ms0 nb0 s)
    {k : Nat} (hk : Live ms0 nb0 k) : s.ms k = ms0 k := by
  apply h.keep
  rw [h.log, List.mem_append, List.mem_range'_1, not_or]
  exact ⟨fun hm => hk.2 (mem_reuse.mp (List.mem_of_mem_take hm)).2, fun hm => by have := hk.1; omega⟩

theorem visit_mat (p : Par K) (hb : Box p) (flag : Nat × Nat → Int) (count : Nat × Nat → Nat) (ms0 : Nat → Mk K ρ)
    (nb0 : Nat) (hi : Intact p ms0 nb0 count) (done : List (Nat × Nat)) (s : State K ρ) (c : Nat × Nat) (t : State K ρ)
    (hc : c ∈ allCells p) (h : Mat p flag ms0 nb0 done s) (ht : visit p flag count ms0 nb0 s c = .ok t) :
    Mat p flag ms0 nb0 (done ++ [c]) t := by
  have hc' := (mem_allCells p c).mp hc
  refine ⟨visit_slots p flag count ms0 nb0 s h.slots c t ht, ?_⟩
  unfold visit at ht
  simp only at ht
  split_ifs at ht with h1 h2
  · split at ht
    · simp at ht
    · rename_i nbrs hcol
      have hmem := collect_spec p ms0 nb0 count hi c hc'.1 hc'.2 nbrs hcol
      have hne : nbrs ≠ [] := by
        intro hnil
        apply h2
        apply List.sum_eq_zero
        intro n hn
        obtain ⟨d, hd, rfl⟩ := List.mem_map.mp hn
        rw [List.length_eq_zero_iff, List.eq_nil_iff_forall_not_mem]
        intro k hk
        have hd' := (hood_spec p c d hc'.1 hc'.2).mp hd
        have hm := mem_partCell.mp hk
        have : k ∈ nbrs := (hmem k).mpr ⟨hm.1, d, hd'.1, hd'.2.1, hd'.2.2, hm.2⟩
        rw [hnil] at this
        simp at this
      have hbox := centroid_in_box p hb c hc'.1 hc'.2
      obtain ⟨_, hr⟩ := create_spec p ms0 nb0 s h.slots nbrs c t ht
      rcases hr with ⟨hf, _⟩ | ⟨i, ms', e1, e2, e3, e4, e5, e6, e7, e8, e9, e10, e11⟩
      · exact absurd ⟨hbox.1, hbox.2.1, hbox.2.2.1, Or.inl hbox.2.2.2⟩ hf
      · have hlive : ∀ k, Live ms0 nb0 k → ms' k = ms0 k := by
          intro k hk
          rw [e4 k (fun e => e3 (e ▸ hk)), slots_live h.slots hk]
        obtain ⟨cl1, cl2⟩ := closest_spec p ms' (centroid p c.1 c.2).1 (centroid p c.1 c.2).2 nbrs (nbrs.headD 0)
          (fun hn => by
            cases nbrs with
            | nil => exact absurd rfl hn
            | cons a l => simp)
        have hsrc := cl1 hne
        set src := closest p ms' (centroid p c.1 c.2).1 (centroid p c.1 c.2).2 nbrs (nbrs.headD 0) with hsd
        have hN := (hmem src).mp hsrc
        have hd2 : ∀ k, Live ms0 nb0 k → dist2 ms' (centroid p c.1 c.2) k = dist2 ms0 (centroid p c.1 c.2) k := by
          intro k hk; simp only [dist2, hlive k hk]
        rw [List.filter_append, e1]
        have hdef : [c].filter (Deficient p flag ms0 nb0) = [c] := by
          simp [Deficient, h1.1, h1.2]
        rw [hdef]
        refine List.rel_append ?_ (List.Forall₂.cons ?_ List.Forall₂.nil)
        · refine (List.forall₂_iff_get.mpr ?_)
          have hm := List.forall₂_iff_get.mp h.made
          refine ⟨hm.1, fun j hj hj' => ?_⟩
          have hne' : s.log.get ⟨j, hj⟩ ≠ i := fun e => e2 (e ▸ List.get_mem _ _)
          rw [e5 _ hne']
          exact hm.2 j hj hj'
        · refine ⟨e6, e7, e8, src, hN, ?_, ?_, ?_⟩
          · rw [e10, hlive src hN.1]
          · rw [e11, hlive src hN.1]
          · intro k hk hlt
            have := cl2 k ((hmem k).mpr hk) (by rw [show ((centroid p c.1 c.2).1, (centroid p c.1 c.2).2) = centroid p c.1 c.2 from rfl, hd2 k hk.1]; exact hlt)
            rw [show ((centroid p c.1 c.2).1, (centroid p c.1 c.2).2) = centroid p c.1 c.2 from rfl, hd2 k hk.1, hd2 src hN.1] at this
            exact this
  · simp only [Except.ok.injEq] at ht
    subst ht
    rw [List.filter_append]
    have hdef : [c].filter (Deficient p flag ms0 nb0) = [] := by
      have : Deficient p flag ms0 nb0 c = false := by
        unfold Deficient; rw [decide_eq_false_iff_not]; exact h1
      simp [this]
    rw [hdef, List.append_nil]
    exact h.made

/-- C25 (material; partial: the counters `part_count` are read after having been freed, and the claim holds if their
content survived): every under-populated rock cell receives exactly one marker, in visiting order, placed at the cell
centre and made of the material of the closest live marker of the 5 x 5 neighbourhood. -/
theorem reseed_material_partial (p : Par K) (hb : Box p) (flag : Nat × Nat → Int) (count : Nat × Nat → Nat)
    (ms : Nat → Mk K ρ) (nb : Nat) (hi : Intact p ms nb count) (t : State K ρ)
    (ht : reseed p flag count ms nb = .ok t) :
    List.Forall₂ (fun i c => Created p ms nb c (t.ms i)) t.log ((allCells p).filter (Deficient p flag ms nb)) := by
  have := runAll_inv' (allCells p) (fun done s => Mat p flag ms nb done s)
    (fun done s c s' hc h hf => visit_mat p hb flag count ms nb hi done s c s' hc h hf)
    (allCells p) [] ⟨ms, nb, 0, []⟩ t (fun _ h => h) ⟨slots_init p ms nb, by simp⟩ ht
  simpa using this.made

/-- With intact counters the routine never reads outside a block and never copies a dead marker: the only ways not to
return are the two announced exits. -/
theorem reseed_stops (p : Par K) (hb : Box p) (flag : Nat × Nat → Int) (count : Nat × Nat → Nat)
    (ms : Nat → Mk K ρ) (nb : Nat) (hi : Intact p ms nb count) (e : Stop)
    (he : reseed p flag count ms nb = .error e) : e = .noNeighbours ∨ e = .full := by
  have gen : ∀ cs, (∀ c ∈ cs, c ∈ allCells p) → ∀ s, Slots p ms nb s →
      runAll (visit p flag count ms nb) cs s = .error e → e = .noNeighbours ∨ e = .full := by
    intro cs
    induction cs with
    | nil => intro _ s _ h; simp [runAll] at h
    | cons c cs ih =>
      intro hcs s hs h
      simp only [runAll] at h
      cases hv : visit p flag count ms nb s c with
      | ok u =>
        rw [hv] at h
        exact ih (fun d hd => hcs d (List.mem_cons_of_mem _ hd)) u (visit_slots p flag count ms nb s hs c u hv) h
      | error e' =>
        rw [hv] at h
        simp only [Except.error.injEq] at h
        subst h
        have hc' := (mem_allCells p c).mp (hcs c List.mem_cons_self)
        unfold visit at hv
        simp only at hv
        split_ifs at hv with h1 h2
        · simp only [Except.error.injEq] at hv; exact Or.inl hv.symm
        · split at hv
          · rename_i e2 hcol
            exfalso
            unfold collect at hcol
            rw [if_pos] at hcol
            · simp at hcol
            · rw [List.all_eq_true]
              intro d hd
              have hd' := (hood_spec p c d hc'.1 hc'.2).mp hd
              rw [decide_eq_true_iff, hi d hd'.1 hd'.2.1]
          · rename_i nbrs hcol
            have hmem := collect_spec p ms nb count hi c hc'.1 hc'.2 nbrs hcol
            have hne : nbrs ≠ [] := by
              intro hnil
              apply h2
              apply List.sum_eq_zero
              intro n hn
              obtain ⟨d, hd, rfl⟩ := List.mem_map.mp hn
              rw [List.length_eq_zero_iff, List.eq_nil_iff_forall_not_mem]
              intro k hk
              have hd' := (hood_spec p c d hc'.1 hc'.2).mp hd
              have hm := mem_partCell.mp hk
              have : k ∈ nbrs := (hmem k).mpr ⟨hm.1, d, hd'.1, hd'.2.1, hd'.2.2, hm.2⟩
              rw [hnil] at this
              simp at this
            unfold create at hv
            simp only at hv
            split_ifs at hv with hbx
            cases htk : takeSlot p (partReuse ms nb) s with
            | error e3 =>
              rw [htk] at hv
              simp only [Except.error.injEq] at hv
              subst hv
              unfold takeSlot at htk
              split_ifs at htk
              simp only [Except.error.injEq] at htk
              exact Or.inr htk.symm
            | ok r =>
              obtain ⟨i, u⟩ := r
              rw [htk] at hv
              simp only at hv
              split_ifs at hv with hd
              exfalso
              obtain ⟨a1, _, _, _, _, _, _, _, a9⟩ := takeSlot_spec p ms nb s hs i u htk
              have hcl := (closest_spec p (upd u.ms i { u.ms i with
                x := (centroid p c.1 c.2).1, z := (centroid p c.1 c.2).2, gen := 1 })
                (centroid p c.1 c.2).1 (centroid p c.1 c.2).2 nbrs (nbrs.headD 0)
                (fun hn => by
                  cases nbrs with
                  | nil => exact absurd rfl hn
                  | cons a l => simp)).1 hne
              have hN := (hmem _).mp hcl
              have hne2 : closest p (upd u.ms i { u.ms i with
                x := (centroid p c.1 c.2).1, z := (centroid p c.1 c.2).2, gen := 1 })
                (centroid p c.1 c.2).1 (centroid p c.1 c.2).2 nbrs (nbrs.headD 0) ≠ i := fun e => a9 (e ▸ hN.1)
              have hl : u.ms _ = ms _ := (congrFun a1 _).trans (slots_live hs hN.1)
              rw [upd_ne _ _ hne2, hl] at hd
              exact hN.1.2 hd
  exact gen (allCells p) (fun _ h => h) _ (slots_init p ms nb) he

/-! ### C26 -/

/-- C26, box and surface (partial: the bound by the surface needs that rock cells have their centre below it; the code
itself does not enforce it, see `reseed_above_surface`). -/
theorem reseed_position_partial (p : Par K) (hb : Box p) (flag : Nat × Nat → Int) (count : Nat × Nat → Nat)
    (ms : Nat → Mk K ρ) (nb : Nat) (hi : Intact p ms nb count) (t : State K ρ)
    (ht : reseed p flag count ms nb = .ok t) (i : Nat) (hm : i ∈ t.log) :
    p.xmin ≤ (t.ms i).x ∧ (t.ms i).x ≤ p.xmax ∧ p.zmin ≤ (t.ms i).z ∧ (t.ms i).z ≤ p.zmax ∧
    ((∀ c ∈ allCells p, flag c ≠ 30 → (centroid p c.1 c.2).2 ≤ p.height c.1) →
      ∃ c ∈ allCells p, (t.ms i).x = (centroid p c.1 c.2).1 ∧ (t.ms i).z ≤ p.height c.1) := by
  have h := reseed_material_partial p hb flag count ms nb hi t ht
  obtain ⟨hlen, hget⟩ := List.forall₂_iff_get.mp h
  obtain ⟨j, hj⟩ := List.get_of_mem hm
  have hcr := hget j.1 j.2 (hlen ▸ j.2)
  rw [hj] at hcr
  set c := ((allCells p).filter (Deficient p flag ms nb)).get ⟨j.1, hlen ▸ j.2⟩ with hcd
  have hcm : c ∈ (allCells p).filter (Deficient p flag ms nb) := List.get_mem _ _
  rw [List.mem_filter] at hcm
  have hc' := (mem_allCells p c).mp hcm.1
  have hbx := centroid_in_box p hb c hc'.1 hc'.2
  obtain ⟨x1, z1, _⟩ := hcr
  rw [x1, z1]
  refine ⟨hbx.1, hbx.2.1, hbx.2.2.1, hbx.2.2.2, fun hs => ⟨c, hcm.1, rfl, hs c hcm.1 ?_⟩⟩
  have := hcm.2
  unfold Deficient at this
  rw [decide_eq_true_iff] at this
  exact this.2

/-! ### Concrete cases -/

/-- Unit box of one coarse cell (2 x 2 fine cells) with a free surface at height 3/10. -/
def demoP : Par ℚ :=
  { Nx := 2, Nz := 2, xmin := 0, xmax := 1, zmin := 0, zmax := 1, dx := 1, dz := 1
    freeSurface := true, height := fun _ => 3 / 10, nbMax := 100 }

/-- Marker 0 in the lower left fine cell (phase 7), marker 1 dead, marker 2 in the upper right cell (phase 4). -/
def demoM : Nat → Mk ℚ Nat := fun k =>
  if k = 0 then ⟨1 / 5, 1 / 5, 7, 0, 70⟩ else if k = 2 then ⟨4 / 5, 4 / 5, 4, 0, 40⟩ else ⟨0, 0, -1, 0, 0⟩

def demoCount (c : Nat × Nat) : Nat := (partCell demoP demoM 3 (c.1, c.2)).length

/-- Final content of the log slots, for display. -/
def summary (r : Except Stop (State ℚ Nat)) : List (Nat × ℚ × ℚ × Int × Nat) :=
  match r with
  | .ok s => s.log.map fun i => (i, (s.ms i).x, (s.ms i).z, (s.ms i).phase, s.nb)
  | .error _ => []

theorem demo_box : Box demoP := by unfold Box demoP; norm_num

theorem demo_intact : Intact demoP demoM 3 demoCount := fun _ _ _ => rfl

/-- Non-vacuity: the routine returns, reuses the dead slot 1 and appends 3, 4, 5. -/
theorem demo_run : summary (reseed demoP (fun _ => 0) demoCount demoM 3) =
    [(1, 1/4, 1/4, 7, 6), (3, 1/4, 3/4, 7, 6), (4, 3/4, 1/4, 7, 6), (5, 3/4, 3/4, 4, 6)] := by
  decide +kernel

example : ∃ t, reseed demoP (fun _ => 0) demoCount demoM 3 = .ok t ∧ t.log = [1, 3, 4, 5] := by
  have h := demo_run
  cases hr : reseed demoP (fun _ => 0) demoCount demoM 3 with
  | error e => rw [hr] at h; simp [summary] at h
  | ok t =>
    rw [hr] at h
    refine ⟨t, rfl, ?_⟩
    have := congrArg (List.map Prod.fst) h
    simpa [summary, List.map_map, Function.comp_def] using this

/-- C26 does not hold: the test `new_z <= zmax || new_z <= h` lets a marker appear above the free surface: surface at
3/10 everywhere, new marker at height 3/4. -/
theorem reseed_above_surface : ∃ t, reseed demoP (fun _ => 0) demoCount demoM 3 = .ok t ∧
    ∃ i ∈ t.log, demoP.freeSurface = true ∧ (∀ j, demoP.height j = 3 / 10) ∧ (t.ms i).z = 3 / 4 := by
  have h := demo_run
  cases hr : reseed demoP (fun _ => 0) demoCount demoM 3 with
  | error e => rw [hr] at h; simp [summary] at h
  | ok t =>
    rw [hr] at h
    have hmem : (3, 1/4, 3/4, 7, 6) ∈ summary (.ok t) := by rw [h]; simp
    simp only [summary, List.mem_map] at hmem
    obtain ⟨i, hi, e⟩ := hmem
    refine ⟨t, rfl, i, hi, rfl, fun _ => rfl, ?_⟩
    simp only [Prod.mk.injEq] at e
    exact e.2.2.1

/-- Non-vacuity of the surface clause: with the upper cells flagged as air every rock cell centre is below the surface. -/
example : (∀ c ∈ allCells demoP, (fun c : Nat × Nat => if c.2 = 1 then (30 : Int) else 0) c ≠ 30 →
    (centroid demoP c.1 c.2).2 ≤ demoP.height c.1) ∧
    summary (reseed demoP (fun c => if c.2 = 1 then 30 else 0) demoCount demoM 3) =
      [(1, 1/4, 1/4, 7, 4), (3, 3/4, 1/4, 7, 4)] := by
  constructor <;> decide +kernel

/-- The use of freed memory matters: if the freed counters read as zero, the upper right cell, which holds a marker of
phase 4 and whose neighbourhood could be anything, gets the material of marker number 0 (phase 7). -/
theorem reseed_freed_counters : summary (reseed demoP (fun _ => 0) (fun _ => 0) demoM 3) =
    [(1, 1/4, 1/4, 7, 6), (3, 1/4, 3/4, 7, 6), (4, 3/4, 1/4, 7, 6), (5, 3/4, 3/4, 7, 6)] := by
  decide +kernel

end Verif.Seed
