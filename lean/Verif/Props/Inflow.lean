import Verif.Model.Inflow
import Mathlib.Data.List.Range
import Mathlib.Data.List.Nodup
import Mathlib.Data.Rat.Floor

/-
C27: markers injected at the side boundaries.
-/
namespace Verif.Inflow
open Verif
set_option linter.unusedSectionVars false
set_option linter.unusedSimpArgs false

variable {K : Type*} [Field K] [LinearOrder K] [IsStrictOrderedRing K] {ρ : Type*}

/-! ### Specification -/

def Live (ms : Nat → Mk K ρ) (nb k : Nat) : Prop := k < nb ∧ (ms k).phase ≠ -1

/-- In the half cell next to a side boundary. -/
def Outer (p : Par K) (x : K) : Prop := (p.x0 ≤ x ∧ x ≤ p.x0 + p.dx2) ∨ (p.x1 - p.dx2 ≤ x ∧ x ≤ p.x1)

/-- `m` was injected from `src`, which is in the second half cell from a side boundary: same height and material,
half a cell closer to that boundary. -/
def Injected (p : Par K) (m src : Mk K ρ) : Prop :=
  m.z = src.z ∧ m.phase = src.phase ∧ m.props = src.props ∧
  ((m.x = src.x - p.dx2 ∧ p.x0 ≤ m.x ∧ m.x ≤ p.x0 + p.dx2) ∨
   (m.x = src.x + p.dx2 ∧ p.x1 - p.dx2 ≤ m.x ∧ m.x ≤ p.x1))

/-- At least four columns of half cells on each side do not overlap. -/
def Wide (p : Par K) : Prop := p.x0 + p.dx2 + p.dx2 < p.x1 - p.dx2 - p.dx2

/-- Same marker up to the tag. -/
def Same (a b : Mk K ρ) : Prop := a.x = b.x ∧ a.z = b.z ∧ a.phase = b.phase ∧ a.props = b.props

theorem Same.rfl' (a : Mk K ρ) : Same a a := ⟨rfl, rfl, rfl, rfl⟩

/-! ### Invariant -/

structure Inv (p : Par K) (ms0 : Nat → Mk K ρ) (nb0 k : Nat) (s : State K ρ) : Prop where
  nb : nb0 ≤ s.nb
  cap : s.nb ≤ max nb0 p.nbMax
  stack : ∀ i ∈ s.stack, i < nb0 ∧ (ms0 i).phase = -1 ∧ i ∉ s.log.map Prod.fst
  stackNodup : s.stack.Nodup
  slots : ∀ i ∈ s.log.map Prod.fst, ¬ Live ms0 nb0 i ∧ i < s.nb
  slotsNodup : (s.log.map Prod.fst).Nodup
  appended : ∀ i, nb0 ≤ i → i < s.nb → i ∈ s.log.map Prod.fst
  frame : ∀ i, i ∉ s.log.map Prod.fst → Same (s.ms i) (ms0 i)
  tags : ∀ i, k ≤ i → (s.ms i).tag = (ms0 i).tag
  entry : ∀ e ∈ s.log, (ms0 e.2).tag = 1 ∧ e.2 < k ∧ (Live ms0 nb0 e.2 ∨ e.2 ∈ s.log.map Prod.fst) ∧
    Injected p (s.ms e.1) (s.ms e.2)

theorem slot_over (p : Par K) (s : State K ρ) (h : s.over = true) : (slot p s).over = true := by
  unfold slot; split_ifs <;> simp [h]

theorem inject_over (p : Par K) (k : Nat) (sh : K) (s : State K ρ) (h : s.over = true) :
    (inject p k sh s).over = true := by
  unfold inject; exact slot_over p _ h

theorem visit_over (p : Par K) (k : Nat) (s : State K ρ) (h : s.over = true) : (visit p k s).over = true := by
  unfold visit
  simp only
  split_ifs <;> first | exact h | exact inject_over _ _ _ _ (by first | exact h | exact inject_over _ _ _ _ h)

/-- A slot obtained without overflow. -/
theorem slot_spec (p : Par K) (ms0 : Nat → Mk K ρ) (nb0 k : Nat) (s : State K ρ) (h : Inv p ms0 nb0 k s)
    (ho : (slot p s).over = false) :
    let t := slot p s
    t.ms = s.ms ∧ t.log = s.log ∧ t.newIndex ∉ s.log.map Prod.fst ∧ ¬ Live ms0 nb0 t.newIndex ∧
    t.newIndex < t.nb ∧ s.nb ≤ t.nb ∧ t.nb ≤ max nb0 p.nbMax ∧ t.newIndex ∉ t.stack ∧
    (∀ i ∈ t.stack, i ∈ s.stack) ∧ t.stack.Nodup ∧ (∀ i, s.nb ≤ i → i < t.nb → i = t.newIndex) ∧
    (s.nb ≤ t.newIndex ∨ t.newIndex < nb0 ∧ (ms0 t.newIndex).phase = -1) := by
  unfold slot at ho ⊢
  split_ifs at ho ⊢ with h1 h2
  · simp only
    have hlt : s.stack.length - 1 < s.stack.length := by omega
    have hg : s.stack.getD (s.stack.length - 1) 0 = s.stack[s.stack.length - 1] := by
      rw [List.getD_eq_getElem?_getD, List.getElem?_eq_getElem hlt]; rfl
    have hm : s.stack[s.stack.length - 1] ∈ s.stack := List.getElem_mem hlt
    obtain ⟨a, b, c⟩ := h.stack _ hm
    have := h.nb
    rw [hg]
    refine ⟨trivial, trivial, c, fun hl => hl.2 b, by omega, le_refl _, h.cap, ?_,
      fun i hi => List.mem_of_mem_take hi, h.stackNodup.sublist (List.take_sublist _ _), by omega, Or.inr ⟨a, b⟩⟩
    intro hc
    rw [List.mem_take_iff_getElem] at hc
    obtain ⟨j, hj, e⟩ := hc
    have := h.stackNodup.getElem_inj_iff.mp e
    omega
  · simp only
    have := h.nb
    refine ⟨trivial, trivial, fun hm => ?_, fun hl => ?_, by omega, by omega, ?_, ?_, fun i hi => hi, h.stackNodup, by omega,
      Or.inl (le_refl _)⟩
    · have := (h.slots _ hm).2; omega
    · have := hl.1; omega
    · have := le_max_right nb0 p.nbMax; omega
    · intro hm; have := (h.stack _ hm).1; omega

theorem inject_inv (p : Par K) (ms0 : Nat → Mk K ρ) (nb0 k1 k : Nat) (s : State K ρ) (sh : K)
    (h : Inv p ms0 nb0 k1 s) (hk : k < k1) (hlt : k < s.nb) (hph : (s.ms k).phase ≠ -1) (ht : (ms0 k).tag = 1)
    (hside : (sh = -p.dx2 ∧ p.x0 + p.dx2 ≤ (s.ms k).x ∧ (s.ms k).x ≤ p.x0 + p.dx2 + p.dx2) ∨
      (sh = p.dx2 ∧ p.x1 - p.dx2 - p.dx2 ≤ (s.ms k).x ∧ (s.ms k).x ≤ p.x1 - p.dx2))
    (ho : (inject p k sh s).over = false) :
    Inv p ms0 nb0 k1 (inject p k sh s) ∧ (∃ i, (inject p k sh s).log = s.log ++ [(i, k)]) ∧
    Same ((inject p k sh s).ms k) (s.ms k) ∧ s.nb ≤ (inject p k sh s).nb := by
  set s1 : State K ρ := { s with ms := upd s.ms k { s.ms k with tag := 2 } } with hs1
  have hsame1 : ∀ i, Same (s1.ms i) (s.ms i) := by
    intro i
    by_cases e : i = k
    · subst e; simp only [hs1, upd_same]; exact ⟨rfl, rfl, rfl, rfl⟩
    · simp only [hs1, upd_ne _ _ e]; exact Same.rfl' _
  have h1 : Inv p ms0 nb0 k1 s1 := by
    refine ⟨h.nb, h.cap, h.stack, h.stackNodup, h.slots, h.slotsNodup, h.appended, ?_, ?_, ?_⟩
    · intro i hi
      obtain ⟨a, b, c, d⟩ := hsame1 i
      obtain ⟨a', b', c', d'⟩ := h.frame i hi
      exact ⟨a.trans a', b.trans b', c.trans c', d.trans d'⟩
    · intro i hi
      have : i ≠ k := by omega
      simp only [hs1, upd_ne _ _ this]
      exact h.tags i hi
    · intro e he
      obtain ⟨e1, e2, e3, e4⟩ := h.entry e he
      refine ⟨e1, e2, e3, ?_⟩
      obtain ⟨a, b, c, d⟩ := hsame1 e.1
      obtain ⟨a', b', c', d'⟩ := hsame1 e.2
      unfold Injected at e4 ⊢
      rw [a, b, c, d, a', b', c', d']
      exact e4
  have ho1 : (slot p s1).over = false := ho
  obtain ⟨q1, q2, q3, q4, q5, q6, q7, q8, q9, q10, q11, q12⟩ := slot_spec p ms0 nb0 k1 s1 h1 ho1
  set t := slot p s1 with htd
  set i := t.newIndex with hi
  have hik : i ≠ k := by
    intro e
    rcases q12 with hq | ⟨hq1, hq2⟩
    · have hq' : s.nb ≤ i := hq
      omega
    · rw [e] at hq2 q3
      have := (h1.frame k q3).2.2.1
      rw [(hsame1 k).2.2.1, hq2] at this
      exact hph this
  have hms : (inject p k sh s).ms = upd (upd t.ms i { t.ms i with x := (t.ms k).x + sh, z := (t.ms k).z }) i
      { (upd t.ms i { t.ms i with x := (t.ms k).x + sh, z := (t.ms k).z }) i with
        phase := ((upd t.ms i { t.ms i with x := (t.ms k).x + sh, z := (t.ms k).z }) k).phase
        props := ((upd t.ms i { t.ms i with x := (t.ms k).x + sh, z := (t.ms k).z }) k).props } := rfl
  have hlog : (inject p k sh s).log = s.log ++ [(i, k)] := by
    show t.log ++ [(i, k)] = _
    rw [q2]
  have hother : ∀ j, j ≠ i → (inject p k sh s).ms j = s1.ms j := by
    intro j hj
    rw [hms, upd_ne _ _ hj, upd_ne _ _ hj, q1]
  have hnew : (inject p k sh s).ms i =
      ⟨(s1.ms k).x + sh, (s1.ms k).z, (s1.ms k).phase, (s1.ms i).tag, (s1.ms k).props⟩ := by
    rw [hms]
    simp only [upd_same, upd_ne _ _ hik.symm, q1]
  have hki : k ≠ i := hik.symm
  obtain ⟨sx, sz, sp, sq⟩ := hsame1 k
  refine ⟨⟨?_, ?_, ?_, ?_, ?_, ?_, ?_, ?_, ?_, ?_⟩, ⟨i, hlog⟩, ?_, ?_⟩
  · exact h1.nb.trans q6
  · exact q7
  · intro j hj
    have hj' : j ∈ t.stack := hj
    obtain ⟨a, b, c⟩ := h1.stack j (q9 j hj')
    refine ⟨a, b, ?_⟩
    rw [hlog, List.map_append, List.mem_append, not_or]
    refine ⟨c, ?_⟩
    simp only [List.map_cons, List.map_nil, List.mem_singleton]
    rintro rfl
    exact q8 hj'
  · exact q10
  · intro j hj
    rw [hlog, List.map_append, List.mem_append] at hj
    rcases hj with hj | hj
    · obtain ⟨a, b⟩ := h1.slots j hj
      exact ⟨a, lt_of_lt_of_le b q6⟩
    · simp only [List.map_cons, List.map_nil, List.mem_singleton] at hj
      subst hj
      exact ⟨q4, q5⟩
  · rw [hlog, List.map_append]
    refine List.Nodup.append h1.slotsNodup (by simp) ?_
    intro a ha hb
    simp only [List.map_cons, List.map_nil, List.mem_singleton] at hb
    subst hb
    exact q3 ha
  · intro j h0 hj
    rw [hlog, List.map_append, List.mem_append]
    rcases lt_or_ge j s1.nb with hlt' | hge
    · exact Or.inl (h1.appended j h0 hlt')
    · right
      simp only [List.map_cons, List.map_nil, List.mem_singleton]
      exact q11 j hge hj
  · intro j hj
    rw [hlog, List.map_append, List.mem_append, not_or] at hj
    simp only [List.map_cons, List.map_nil, List.mem_singleton] at hj
    rw [hother j hj.2]
    exact h1.frame j hj.1
  · intro j hj
    by_cases e : j = i
    · subst e
      rw [hnew]
      exact h1.tags i hj
    · rw [hother j e]; exact h1.tags j hj
  · intro e he
    rw [hlog, List.mem_append] at he
    have hsl : (inject p k sh s).log.map Prod.fst = s.log.map Prod.fst ++ [i] := by rw [hlog]; simp
    rcases he with he | he
    · obtain ⟨e1, e2, e3, e4⟩ := h1.entry e he
      have hm : e.1 ∈ s1.log.map Prod.fst := List.mem_map_of_mem he
      have n1 : e.1 ≠ i := fun c => q3 (c ▸ hm)
      have n2 : e.2 ≠ i := by
        intro c
        rcases e3 with e3 | e3
        · rw [c] at e3; exact q4 e3
        · rw [c] at e3; exact q3 e3
      refine ⟨e1, e2, ?_, ?_⟩
      · rcases e3 with e3 | e3
        · exact Or.inl e3
        · right; rw [hsl, List.mem_append]; exact Or.inl e3
      · rw [hother _ n1, hother _ n2]; exact e4
    · simp only [List.mem_singleton] at he
      subst he
      refine ⟨ht, hk, ?_, ?_⟩
      · by_cases hm : k ∈ s.log.map Prod.fst
        · right; rw [hsl, List.mem_append]; exact Or.inl hm
        · left
          refine ⟨?_, ?_⟩
          · by_contra hge
            exact hm (h.appended k (by omega) hlt)
          · have := (h.frame k hm).2.2.1
            rw [← this]; exact hph
      · show Injected p ((inject p k sh s).ms i) ((inject p k sh s).ms k)
        rw [hnew, hother k hki]
        refine ⟨rfl, rfl, rfl, ?_⟩
        simp only [sx]
        rcases hside with ⟨rfl, a, b⟩ | ⟨rfl, a, b⟩
        · left; exact ⟨by ring, by linarith, by linarith⟩
        · right; exact ⟨rfl, by linarith, by linarith⟩
  · rw [hother k hki]; exact hsame1 k
  · exact q6

theorem Inv.next {p : Par K} {ms0 : Nat → Mk K ρ} {nb0 k : Nat} {s : State K ρ} (h : Inv p ms0 nb0 k s) :
    Inv p ms0 nb0 (k + 1) s :=
  ⟨h.nb, h.cap, h.stack, h.stackNodup, h.slots, h.slotsNodup, h.appended, h.frame,
    fun i hi => h.tags i (by omega), fun e he => by
      obtain ⟨a, b, c, d⟩ := h.entry e he
      exact ⟨a, by omega, c, d⟩⟩

theorem visit_inv (p : Par K) (ms0 : Nat → Mk K ρ) (nb0 k : Nat) (s : State K ρ) (h : Inv p ms0 nb0 k s)
    (hlt : k < s.nb) (ho : (visit p k s).over = false) :
    Inv p ms0 nb0 (k + 1) (visit p k s) ∧
    ((visit p k s).log = s.log ∨ (∃ i, (visit p k s).log = s.log ++ [(i, k)]) ∨
      ¬ Wide p ∧ ∃ i j, (visit p k s).log = s.log ++ [(i, k), (j, k)]) := by
  unfold visit at ho ⊢
  simp only at ho ⊢
  by_cases hg : (s.ms k).phase ≠ -1 ∧ (s.ms k).tag = 1
  · rw [if_pos hg] at ho ⊢
    have ht : (ms0 k).tag = 1 := by rw [← h.tags k (le_refl _)]; exact hg.2
    by_cases hw : p.x0 + p.dx2 ≤ (s.ms k).x ∧ (s.ms k).x ≤ p.x0 + p.dx2 + p.dx2
    · rw [if_pos hw] at ho ⊢
      have ho1 : (inject p k (-p.dx2) s).over = false := by
        by_contra hc
        have hc' : (inject p k (-p.dx2) s).over = true := by simpa using hc
        split_ifs at ho with he
        · rw [inject_over _ _ _ _ hc'] at ho; simp at ho
        · rw [hc'] at ho; simp at ho
      obtain ⟨i1, ⟨i, hi⟩, ⟨sx, sz, sp, sq⟩, i4⟩ :=
        inject_inv p ms0 nb0 (k + 1) k s (-p.dx2) h.next (by omega) hlt hg.1 ht (Or.inl ⟨rfl, hw⟩) ho1
      by_cases he : p.x1 - p.dx2 - p.dx2 ≤ ((inject p k (-p.dx2) s).ms k).x ∧
          ((inject p k (-p.dx2) s).ms k).x ≤ p.x1 - p.dx2
      · rw [if_pos he] at ho ⊢
        obtain ⟨j1, ⟨j, hj⟩, _, _⟩ :=
          inject_inv p ms0 nb0 (k + 1) k _ p.dx2 i1 (by omega) (by omega) (by rw [sp]; exact hg.1) ht
            (Or.inr ⟨rfl, he⟩) ho
        refine ⟨j1, Or.inr (Or.inr ⟨?_, i, j, by rw [hj, hi]; simp⟩)⟩
        unfold Wide
        rw [sx] at he
        exact not_lt.mpr (he.1.trans hw.2)
      · rw [if_neg he] at ho ⊢
        exact ⟨i1, Or.inr (Or.inl ⟨i, hi⟩)⟩
    · rw [if_neg hw] at ho ⊢
      by_cases he : p.x1 - p.dx2 - p.dx2 ≤ (s.ms k).x ∧ (s.ms k).x ≤ p.x1 - p.dx2
      · rw [if_pos he] at ho ⊢
        obtain ⟨j1, j2, _, _⟩ :=
          inject_inv p ms0 nb0 (k + 1) k s p.dx2 h.next (by omega) hlt hg.1 ht (Or.inr ⟨rfl, he⟩) ho
        exact ⟨j1, Or.inr (Or.inl j2)⟩
      · rw [if_neg he]
        exact ⟨h.next, Or.inl rfl⟩
  · rw [if_neg hg]
    exact ⟨h.next, Or.inl rfl⟩

theorem loop_over (p : Par K) : ∀ fuel k (s : State K ρ), s.over = true → (loop p fuel k s).2.over = true := by
  intro fuel
  induction fuel with
  | zero => intro k s h; exact h
  | succ n ih =>
    intro k s h
    simp only [loop]
    split_ifs
    · exact ih _ _ (visit_over p k s h)
    · exact h

theorem loop_inv (p : Par K) (ms0 : Nat → Mk K ρ) (nb0 : Nat) : ∀ fuel k (s : State K ρ), Inv p ms0 nb0 k s →
    (Wide p → (s.log.map Prod.snd).Nodup) → (loop p fuel k s).2.over = false →
    Inv p ms0 nb0 (loop p fuel k s).1 (loop p fuel k s).2 ∧
    (Wide p → ((loop p fuel k s).2.log.map Prod.snd).Nodup) ∧
    (max nb0 p.nbMax ≤ k + fuel → (loop p fuel k s).2.nb ≤ (loop p fuel k s).1) := by
  intro fuel
  induction fuel with
  | zero =>
    intro k s h hw _
    exact ⟨h, hw, fun hf => h.cap.trans hf⟩
  | succ n ih =>
    intro k s h hw ho
    simp only [loop] at ho ⊢
    split_ifs at ho ⊢ with hlt
    · have hov : (visit p k s).over = false := by
        by_contra hc
        rw [loop_over p n (k + 1) _ (by simpa using hc)] at ho
        simp at ho
      obtain ⟨v1, v2⟩ := visit_inv p ms0 nb0 k s h hlt hov
      have hnd : Wide p → ((visit p k s).log.map Prod.snd).Nodup := by
        intro w
        rcases v2 with e | ⟨i, e⟩ | ⟨nw, _⟩
        · rw [e]; exact hw w
        · rw [e, List.map_append]
          refine List.Nodup.append (hw w) (by simp) ?_
          intro a ha hb
          simp only [List.map_cons, List.map_nil, List.mem_singleton] at hb
          subst hb
          obtain ⟨f, hf, rfl⟩ := List.mem_map.mp ha
          have := (h.entry f hf).2.1
          omega
        · exact absurd w nw
      obtain ⟨r1, r2, r3⟩ := ih (k + 1) (visit p k s) v1 hnd ho
      exact ⟨r1, r2, fun hf => r3 (by omega)⟩
    · exact ⟨h, hw, fun _ => not_lt.mp hlt⟩

theorem inv_init (p : Par K) (ms : Nat → Mk K ρ) (nb junk : Nat) :
    Inv p ms nb 0 ⟨ms, nb, reuse nb ms, junk, false, []⟩ := by
  refine ⟨le_refl _, le_max_left _ _, ?_, List.nodup_range.filter _, by simp, by simp, by intro i h1 h2; exact absurd h2 (not_lt.mpr h1),
    fun i _ => Same.rfl' _, fun _ _ => rfl, by simp⟩
  intro i hi
  simpa [reuse] using hi

/-- The iteration count given to the loop is enough: it ends because `k` has reached `Nb_part`. -/
theorem loop_ends (p : Par K) (ms : Nat → Mk K ρ) (nb junk : Nat) (ho : (injectPass p nb junk ms).over = false) :
    (injectPass p nb junk ms).nb ≤ (loop p (max nb p.nbMax) 0 ⟨ms, nb, reuse nb ms, junk, false, []⟩).1 :=
  (loop_inv p ms nb (max nb p.nbMax) 0 _ (inv_init p ms nb junk) (by simp) ho).2.2 (by omega)

/-! ### C27 -/

/-- C27 (partial: as long as the message "Too many particles" was not printed): markers in use keep position and
material; injected markers occupy pairwise different slots that were dead or unused; the count stays within capacity;
each injected marker lies in the half cell next to a boundary, half a cell outwards of exactly one tagged source
of which it copies height and material; and if the box is more than three cells wide no marker is a source
twice. -/
theorem inflow_partial (p : Par K) (ms : Nat → Mk K ρ) (nb junk : Nat) (hcap : nb ≤ p.nbMax)
    (ho : (injectPass p nb junk ms).over = false) :
    let t := injectPass p nb junk ms
    (∀ k, Live ms nb k → Same (t.ms k) (ms k)) ∧
    (t.log.map Prod.fst).Nodup ∧ (∀ i ∈ t.log.map Prod.fst, ¬ Live ms nb i ∧ i < t.nb) ∧
    (∀ i, nb ≤ i → i < t.nb → i ∈ t.log.map Prod.fst) ∧
    nb ≤ t.nb ∧ t.nb ≤ p.nbMax ∧
    (∀ e ∈ t.log, Outer p (t.ms e.1).x ∧ Injected p (t.ms e.1) (t.ms e.2) ∧ (ms e.2).tag = 1 ∧
      (Live ms nb e.2 ∨ e.2 ∈ t.log.map Prod.fst)) ∧
    (Wide p → (t.log.map Prod.snd).Nodup) := by
  obtain ⟨h, hw, _⟩ := loop_inv p ms nb (max nb p.nbMax) 0 _ (inv_init p ms nb junk) (by simp) ho
  refine ⟨fun k hk => h.frame k (fun hm => (h.slots k hm).1 hk), h.slotsNodup, h.slots, h.appended, h.nb,
    by have := h.cap; rw [max_eq_right hcap] at this; unfold injectPass; rw [max_eq_right hcap]; exact this, ?_, hw⟩
  intro e he
  obtain ⟨a, b, c, d⟩ := h.entry e he
  refine ⟨?_, d, a, c⟩
  rcases d.2.2.2 with ⟨_, x, y⟩ | ⟨_, x, y⟩
  · exact Or.inl ⟨x, y⟩
  · exact Or.inr ⟨x, y⟩

/-- The tagging pass marks exactly the live markers of the boundary half cells. -/
theorem tagPass_spec (p : Par K) (ms : Nat → Mk K ρ) (nb k : Nat) (hk : k < nb) :
    Same (tagPass p nb ms k) (ms k) ∧ ((tagPass p nb ms k).tag = 1 ↔ (ms k).phase ≠ -1 ∧ Outer p (ms k).x) ∧
    ((tagPass p nb ms k).tag = 1 ∨ (tagPass p nb ms k).tag = 0) := by
  unfold tagPass
  rw [if_pos hk]
  simp only
  refine ⟨⟨rfl, rfl, rfl, rfl⟩, ?_, ?_⟩
  · unfold Outer
    split_ifs with h1 h2 h3 <;> simp_all
  · split_ifs <;> simp

/-- Marker motion between the two passes: positions change, markers may die, nothing else does; no slot is added. -/
def Moved (nb : Nat) (a b : Nat → Mk K ρ) : Prop :=
  ∀ k, k < nb → (b k).tag = (a k).tag ∧ (b k).props = (a k).props ∧ ((b k).phase = (a k).phase ∨ (b k).phase = -1)

/-- C27, whole cycle (partial as above): every source of an injection that is not itself an injected marker was in the
half cell next to a side boundary before the motion and is alive afterwards. -/
theorem inflow_cycle_partial (p : Par K) (ms0 ms : Nat → Mk K ρ) (nb junk : Nat)
    (hm : Moved nb (tagPass p nb ms0) ms) (ho : (injectPass p nb junk ms).over = false)
    (e : Nat × Nat) (he : e ∈ (injectPass p nb junk ms).log)
    (hsrc : e.2 ∉ (injectPass p nb junk ms).log.map Prod.fst) :
    Live ms0 nb e.2 ∧ Outer p (ms0 e.2).x ∧ Live ms nb e.2 := by
  obtain ⟨h, _, _⟩ := loop_inv p ms nb (max nb p.nbMax) 0 _ (inv_init p ms nb junk) (by simp) ho
  obtain ⟨a, b, c, d⟩ := h.entry e he
  have hl : Live ms nb e.2 := by
    rcases c with c | c
    · exact c
    · exact absurd c hsrc
  have ht := (hm e.2 hl.1).1
  obtain ⟨_, t2, _⟩ := tagPass_spec p ms0 nb e.2 hl.1
  have := t2.mp (ht ▸ a)
  exact ⟨⟨hl.1, this.1⟩, this.2, hl⟩

/-! ### Concrete cases -/

/-- Box [0, 4] with unit cells. -/
def demoP (cap : Nat) : Par ℚ := ⟨0, 4, 1 / 2, cap⟩

/-- Marker 0 crosses from the western outer half cell into the next one; marker 1 likewise in the east; marker 2 dead;
marker 3 stays inside. -/
def demoA : Nat → Mk ℚ Nat := fun k =>
  if k = 0 then ⟨2 / 5, 1, 3, 0, 30⟩ else if k = 1 then ⟨18 / 5, 2, 5, 0, 50⟩
  else if k = 3 then ⟨2, 1, 6, 0, 60⟩ else ⟨0, 0, -1, 0, 0⟩

def demoB : Nat → Mk ℚ Nat := fun k =>
  if k = 0 then ⟨3 / 5, 1, 3, 1, 30⟩ else if k = 1 then ⟨17 / 5, 2, 5, 1, 50⟩
  else if k = 3 then ⟨2, 1, 6, 0, 60⟩ else ⟨0, 0, -1, 0, 0⟩

def show' (n : Nat) (s : State ℚ Nat) : Bool × Nat × List (Nat × Nat) × List (ℚ × ℚ × Int) :=
  (s.over, s.nb, s.log, (List.range n).map fun k => ((s.ms k).x, (s.ms k).z, (s.ms k).phase))

example : Moved 4 (tagPass (demoP 5) 4 demoA) demoB ∧
    (injectPass (demoP 5) 4 99 demoB).over = false ∧ Wide (demoP 5) ∧
    show' 5 (injectPass (demoP 5) 4 99 demoB) = (false, 5, [(2, 0), (4, 1)],
      [(3/5, 1, 3), (17/5, 2, 5), (1/10, 1, 3), (2, 1, 6), (39/10, 2, 5)]) := by
  refine ⟨?_, by decide +kernel, by unfold Wide demoP; norm_num, by decide +kernel⟩
  intro k hk
  have : k = 0 ∨ k = 1 ∨ k = 2 ∨ k = 3 := by omega
  rcases this with rfl | rfl | rfl | rfl <;> decide +kernel

/-- C27 does not hold when the array is full: with capacity 4 the second injection prints the message and then
overwrites the slot of the previous injection; with no dead slot and capacity reached the very first injection overwrites
whatever live marker the uninitialised index points to (here marker 3). -/
theorem inflow_overflow :
    show' 4 (injectPass (demoP 4) 4 99 demoB) = (true, 4, [(2, 0), (2, 1)],
      [(3/5, 1, 3), (17/5, 2, 5), (39/10, 2, 5), (2, 1, 6)]) ∧
    show' 4 (injectPass (demoP 4) 4 3 (upd demoB 2 ⟨1, 1, 8, 0, 80⟩)) = (true, 4, [(3, 0), (3, 1)],
      [(3/5, 1, 3), (17/5, 2, 5), (1, 1, 8), (39/10, 2, 5)]) := by
  constructor <;> decide +kernel

/-- In a box of two cells a marker at the centre is injected on both sides. -/
theorem inflow_narrow_twice : ¬ Wide (⟨0, 2, 1 / 2, 9⟩ : Par ℚ) ∧
    show' 3 (injectPass (⟨0, 2, 1 / 2, 9⟩ : Par ℚ) 1 99 (fun k => if k = 0 then ⟨1, 0, 3, 1, 0⟩ else ⟨0, 0, -1, 0, 0⟩)) =
      (false, 3, [(1, 0), (2, 0)], [(1, 0, 3), (1/2, 0, 3), (3/2, 0, 3)]) := by
  constructor
  · unfold Wide; norm_num
  · decide +kernel

/-- The tag of a recycled slot is not reset: a marker that left the box carrying a tag (slot 1) is recycled for a marker
exactly one cell inside, and this injected marker then triggers a further injection. -/
theorem inflow_stale_tag :
    show' 3 (injectPass (demoP 9) 2 99 (fun k => if k = 0 then ⟨1, 0, 3, 1, 0⟩ else ⟨-1, 0, -1, if k = 1 then 1 else 0, 0⟩)) =
      (false, 3, [(1, 0), (2, 1)], [(1, 0, 3), (1/2, 0, 3), (0, 0, 3)]) := by
  decide +kernel

end Verif.Inflow
