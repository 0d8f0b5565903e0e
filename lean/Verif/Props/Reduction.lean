import Verif.Model.Reduction
import Verif.Spec.Threads
import Verif.Lemmas.P2Mastah
import Mathlib.Data.Rat.Floor

/-
C23 (reductions do not depend on the schedule) and C24 (printed extrema).
-/
namespace Verif.Red
open Verif

/-- C23, sums and counts: the result is the plain sum, whatever the distribution and merge order. -/
theorem reduction_sum {K : Type*} [Field K] [LinearOrder K] [IsStrictOrderedRing K] [FloorRing K]
    (init : K) (term : Nat → K) (n : Nat) (ls : List (List Nat)) (hd : Distribution n ls) :
    ompSum init term ls = init + ∑ k ∈ Finset.range n, term k := by
  unfold ompSum
  have h : ∀ its : List Nat, its.foldl (fun p k => p + term k) 0 = (its.map term).sum := fun its => by
    rw [P2M.foldl_add, zero_add]
  simp only [h]
  rw [P2M.foldl_add, P2M.flatten_sum, (hd.map term).sum_eq, P2M.range_sum]

variable {K : Type*}

/-- What is needed of a comparison: nothing is better than itself, and "not better" is transitive. -/
structure Comparison (better : K → K → Bool) : Prop where
  irrefl : ∀ a, better a a = false
  trans : ∀ a b c, better a b = false → better b c = false → better a c = false
  asymm : ∀ a b, better a b = true → better b a = false

theorem gt_comparison [LinearOrder K] : Comparison (gtB : K → K → Bool) where
  irrefl a := by simp [gtB]
  trans a b c h1 h2 := by
    simp only [gtB, decide_eq_false_iff_not, not_lt] at *
    exact le_trans h1 h2
  asymm a b h := by
    simp only [gtB, decide_eq_false_iff_not, not_lt, decide_eq_true_eq] at *
    exact le_of_lt h

theorem lt_comparison [LinearOrder K] : Comparison (ltB : K → K → Bool) where
  irrefl a := by simp [ltB]
  trans a b c h1 h2 := by
    simp only [ltB, decide_eq_false_iff_not, not_lt] at *
    exact le_trans h2 h1
  asymm a b h := by
    simp only [ltB, decide_eq_false_iff_not, not_lt, decide_eq_true_eq] at *
    exact le_of_lt h

theorem threadExt_spec {better : K → K → Bool} (C : Comparison better) (a : Nat → K) (counted : Nat → Bool)
    (its : List Nat) (p0 : K) :
    let r := its.foldl (fun p k => if counted k && better (a k) p then a k else p) p0
    (r = p0 ∨ ∃ k ∈ its, counted k = true ∧ r = a k) ∧ better p0 r = false ∧
      ∀ k ∈ its, counted k = true → better (a k) r = false := by
  induction its generalizing p0 with
  | nil => exact ⟨Or.inl rfl, C.irrefl _, fun k hk => by simp at hk⟩
  | cons k its ih =>
    simp only [List.foldl_cons]
    set p1 := if counted k && better (a k) p0 then a k else p0 with hp1
    obtain ⟨h1, h2, h3⟩ := ih p1
    have hk : counted k = true → better (a k) p1 = false := by
      intro hc
      rw [hp1]
      cases hb : better (a k) p0 with
      | true => simp [hc, C.irrefl]
      | false => simp [hb]
    have h0 : better p0 p1 = false := by
      rw [hp1]
      split_ifs with h
      · rw [Bool.and_eq_true] at h; exact C.asymm _ _ h.2
      · exact C.irrefl _
    refine ⟨?_, C.trans _ _ _ h0 h2, ?_⟩
    · rcases h1 with h1 | ⟨q, hq, hc, h1⟩
      · rw [hp1] at h1
        split_ifs at h1 with h
        · rw [Bool.and_eq_true] at h
          right; refine ⟨k, by simp, h.1, ?_⟩; rw [hp1, if_pos (by rw [Bool.and_eq_true]; exact h)]; exact h1
        · left; rw [hp1, if_neg h]; exact h1
      · exact Or.inr ⟨q, by simp [hq], hc, h1⟩
    · intro q hq hc
      rcases List.mem_cons.mp hq with rfl | hq
      · exact C.trans _ _ _ (hk hc) h2
      · exact h3 q hq hc

theorem merge_spec {better : K → K → Bool} (C : Comparison better) (ps h h' : List K)
    (m : Merge better ps h h') : ∀ cur t, h = cur :: t → (∀ v ∈ h, better v cur = false) →
    ∃ r t', h' = r :: t' ∧ (r = cur ∨ r ∈ ps) ∧ better cur r = false ∧ ∀ p ∈ ps, better p r = false := by
  induction m with
  | done h => intro cur t e _; exact ⟨cur, t, e, Or.inl rfl, C.irrefl _, fun p hp => by simp at hp⟩
  | skip p ps h h' seen hs hb _ ih =>
    intro cur t e inv
    obtain ⟨r, t', e', hr, h1, h2⟩ := ih cur t e inv
    refine ⟨r, t', e', hr.imp id (fun h => by simp [h]), h1, fun q hq => ?_⟩
    rcases List.mem_cons.mp hq with rfl | hq
    · exact C.trans _ _ _ (C.trans _ _ _ hb (inv seen hs)) h1
    · exact h2 q hq
  | enter p cur ps h h' seen hs hb _ ih =>
    intro cur' t e inv
    injection e with e1 e2
    subst e1 e2
    cases hc : better p cur with
    | true =>
      rw [hc] at ih
      obtain ⟨r, t', e', hr, h1, h2⟩ := ih p (cur :: h) rfl (fun v hv => by
        rcases List.mem_cons.mp hv with rfl | hv
        · exact C.irrefl _
        · exact C.trans _ _ _ (inv v hv) (C.asymm _ _ hc))
      refine ⟨r, t', e', ?_, C.trans _ _ _ (C.asymm _ _ hc) h1, fun q hq => ?_⟩
      · right; rcases hr with rfl | hr
        · simp
        · simp [hr]
      · rcases List.mem_cons.mp hq with rfl | hq
        · exact h1
        · exact h2 q hq
    | false =>
      rw [hc] at ih
      obtain ⟨r, t', e', hr, h1, h2⟩ := ih cur h rfl inv
      refine ⟨r, t', e', hr.imp id (fun h => by simp [h]), h1, fun q hq => ?_⟩
      rcases List.mem_cons.mp hq with rfl | hq
      · exact C.trans _ _ _ hc h1
      · exact h2 q hq

/-- Every run ends with a value of the array, at a counted index or index 0, and no counted value nor
`array[0]` beats it. -/
theorem extremum_spec {better : K → K → Bool} (C : Comparison better) (a : Nat → K) (counted : Nat → Bool)
    (n : Nat) (ls : List (List Nat)) (hd : Distribution n ls) (r : K) (hr : Extremum better a counted ls r) :
    (r = a 0 ∨ ∃ k < n, counted k = true ∧ r = a k) ∧ better (a 0) r = false ∧
      ∀ k < n, counted k = true → better (a k) r = false := by
  obtain ⟨h, m⟩ := hr
  obtain ⟨r', t', e, h1, h2, h3⟩ := merge_spec C _ _ _ m (a 0) [] rfl (fun v hv => by
    simp at hv; rw [hv]; exact C.irrefl _)
  injection e with e1 e2
  subst e1
  have mem : ∀ k, (∃ its ∈ ls, k ∈ its) ↔ k < n := by
    intro k
    rw [← List.mem_flatten, hd.mem_iff, List.mem_range]
  refine ⟨?_, h2, ?_⟩
  · rcases h1 with h1 | h1
    · exact Or.inl h1
    · obtain ⟨its, hi, rfl⟩ := List.mem_map.mp h1
      rcases (threadExt_spec C a counted its (a 0)).1 with h | ⟨k, hk, hc, h⟩
      · exact Or.inl h
      · exact Or.inr ⟨k, (mem k).mp ⟨its, hi, hk⟩, hc, h⟩
  · intro k hk hc
    obtain ⟨its, hi, hki⟩ := (mem k).mpr hk
    exact C.trans _ _ _ ((threadExt_spec C a counted its (a 0)).2.2 k hki hc) (h3 _ (List.mem_map.mpr ⟨its, hi, rfl⟩))

variable [LinearOrder K]

/-- C23, extrema: `MinMaxArray` prints the same maximum and minimum for every distribution of the loop
and every merge order; they are the true extrema of the array. -/
theorem minmax_schedule_independent (a : Nat → K) (n : Nat) (hn : 0 < n) (ls ls' : List (List Nat))
    (hd : Distribution n ls) (hd' : Distribution n ls') (r r' s s' : K)
    (hr : Extremum gtB a (fun _ => true) ls r) (hr' : Extremum gtB a (fun _ => true) ls' r')
    (hs : Extremum ltB a (fun _ => true) ls s) (hs' : Extremum ltB a (fun _ => true) ls' s') :
    r = r' ∧ s = s' ∧ (∀ k < n, s ≤ a k ∧ a k ≤ r) ∧ (∃ k < n, r = a k) ∧ (∃ k < n, s = a k) := by
  have g1 := extremum_spec gt_comparison a _ n ls hd r hr
  have g2 := extremum_spec gt_comparison a _ n ls' hd' r' hr'
  have l1 := extremum_spec lt_comparison a _ n ls hd s hs
  have l2 := extremum_spec lt_comparison a _ n ls' hd' s' hs'
  simp only [gtB, ltB, decide_eq_false_iff_not, not_lt, true_and, forall_const] at g1 g2 l1 l2
  have att : ∀ {v : K}, (v = a 0 ∨ ∃ k < n, v = a k) → ∃ k < n, v = a k := by
    rintro v (h | h)
    · exact ⟨0, hn, h⟩
    · exact h
  obtain ⟨k1, hk1, e1⟩ := att g1.1
  obtain ⟨k2, hk2, e2⟩ := att g2.1
  obtain ⟨k3, hk3, e3⟩ := att l1.1
  obtain ⟨k4, hk4, e4⟩ := att l2.1
  refine ⟨le_antisymm ?_ ?_, le_antisymm ?_ ?_, fun k hk => ⟨l1.2.2 k hk, g1.2.2 k hk⟩, ⟨k1, hk1, e1⟩, ⟨k3, hk3, e3⟩⟩
  · rw [e1]; exact g2.2.2 k1 hk1
  · rw [e2]; exact g1.2.2 k2 hk2
  · rw [e4]; exact l1.2.2 k4 hk4
  · rw [e3]; exact l2.2.2 k3 hk3

/-- C24 where it holds: if node 0 is not air, the printed extrema of a tagged field are attained and
bound over the non-air nodes. -/
theorem tagged_extrema_partial (a : Nat → K) (tag : Nat → Int) (n : Nat) (hn : 0 < n) (ls : List (List Nat))
    (hd : Distribution n ls) (h0 : tag 0 < 30) (r s : K)
    (hr : Extremum gtB a (fun k => decide (tag k < 30)) ls r)
    (hs : Extremum ltB a (fun k => decide (tag k < 30)) ls s) :
    (∃ k < n, tag k < 30 ∧ r = a k) ∧ (∃ k < n, tag k < 30 ∧ s = a k) ∧
      ∀ k < n, tag k < 30 → s ≤ a k ∧ a k ≤ r := by
  have g1 := extremum_spec gt_comparison a _ n ls hd r hr
  have l1 := extremum_spec lt_comparison a _ n ls hd s hs
  simp only [gtB, ltB, decide_eq_false_iff_not, not_lt, decide_eq_true_eq] at g1 l1
  refine ⟨?_, ?_, fun k hk ht => ⟨l1.2.2 k hk ht, g1.2.2 k hk ht⟩⟩
  · rcases g1.1 with h | h
    · exact ⟨0, hn, h0, h⟩
    · exact h
  · rcases l1.1 with h | h
    · exact ⟨0, hn, h0, h⟩
    · exact h

/-- A serial run exists for every array (so the runs above are not vacuous). -/
theorem serial_run (better : K → K → Bool) (C : Comparison better) (a : Nat → K) (counted : Nat → Bool) (n : Nat) :
    Extremum better a counted [List.range n] (threadExt better a counted (List.range n)) := by
  set p := threadExt better a counted (List.range n) with hp
  cases hb : better p (a 0) with
  | true =>
    refine ⟨[a 0], Merge.enter p (a 0) [] [] _ (a 0) (by simp) hb ?_⟩
    rw [hb]
    exact Merge.done _
  | false =>
    have h := (threadExt_spec C a counted (List.range n) (a 0))
    have e : p = a 0 := by
      -- the thread result is never beaten by a 0 and does not beat it, and it is a 0 or better
      by_contra hne
      have key : ∀ (its : List Nat) (q : K), better q (a 0) = true ∨ q = a 0 →
          better (its.foldl (fun p k => if counted k && better (a k) p then a k else p) q) (a 0) = true ∨
          its.foldl (fun p k => if counted k && better (a k) p then a k else p) q = a 0 := by
        intro its
        induction its with
        | nil => intro q hq; exact hq
        | cons k its ih =>
          intro q hq
          rw [List.foldl_cons]
          apply ih
          split_ifs with hh
          · rw [Bool.and_eq_true] at hh
            left
            rcases hq with hq | hq
            · cases hx : better (a k) (a 0) with
              | true => rfl
              | false =>
                have := C.trans q (a k) (a 0) (C.asymm _ _ hh.2) hx
                rw [this] at hq; exact absurd hq (by decide)
            · rw [← hq]; exact hh.2
          · exact hq
      rcases key (List.range n) (a 0) (Or.inr rfl) with h | h
      · rw [← threadExt, ← hp] at h; rw [h] at hb; exact absurd hb (by decide)
      · exact hne h
    refine ⟨[], ?_⟩
    rw [show (List.map (threadExt better a counted) [List.range n]) = [p] from rfl, e]
    rw [e] at hb
    exact Merge.skip _ [] _ _ (a 0) (by simp) hb (Merge.done _)

/-- C24 fails when node 0 is air: the printed maximum is the air value. -/
theorem tagged_max_of_air : ∃ (a : Nat → ℚ) (tag : Nat → Int) (n : Nat) (ls : List (List Nat)) (r : ℚ),
    Distribution n ls ∧ Extremum gtB a (fun k => decide (tag k < 30)) ls r ∧
    (∃ k < n, tag k < 30) ∧ ∀ k < n, tag k < 30 → a k < r := by
  refine ⟨fun k => if k = 0 then 5 else 1, fun k => if k = 0 then 30 else -1, 3, [[0, 1, 2]], 5,
    List.Perm.refl _, ?_, ⟨1, by decide, by decide⟩, ?_⟩
  · have := serial_run gtB (gt_comparison (K := ℚ)) (fun k => if k = 0 then 5 else 1)
      (fun k => decide ((if k = 0 then (30 : Int) else -1) < 30)) 3
    have e : threadExt gtB (fun k => if k = 0 then (5 : ℚ) else 1)
      (fun k => decide ((if k = 0 then (30 : Int) else -1) < 30)) (List.range 3) = 5 := by decide +kernel
    rw [e] at this
    exact this
  · intro k hk ht
    have : k ≠ 0 := by rintro rfl; simp at ht
    simp [this]

/-- Non-vacuity: three threads, iterations out of order. -/
example : Distribution 6 [[4, 5], [0, 3], [2, 1]] := by unfold Distribution; decide
example : ompSum (0 : ℚ) (fun k => (k : ℚ) ^ 2) [[4, 5], [0, 3], [2, 1]] = 55 := by decide +kernel

end Verif.Red
