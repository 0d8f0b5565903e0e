import Verif.Model.Breakpoint
import Mathlib.Data.List.Perm.Basic
import Mathlib.Algebra.BigOperators.Group.List.Basic
import Mathlib.Algebra.BigOperators.Group.List.Lemmas
import Mathlib.Algebra.BigOperators.Ring.List

/-
Helper lemmas for the breakpoint model: scaling loops as multiplication by a product of factors,
and what reading a file gives when writer and reader use the same sequence of item types and counts.
-/
namespace Verif.Bp

variable {K : Type*} [Field K]

set_option linter.unusedSectionVars false

/-! ### Scaling loops -/

/-- Counts depend on the integer part of the memory only. -/
theorem cnt_congr {sw : Sw} {m m' : Mem K} (h : m.Z = m'.Z) (c : Cnt) :
    c.val sw m = c.val sw m' := by
  cases c <;> simp [Cnt.val, h]

/-- The factors by which entry `i` of `f` is multiplied by a block of statements. -/
def facs (sw : Sw) (sc : Scales K) (m : Mem K) (f : Fld) (i : Nat) (l : List Sc) : List K :=
  ((l.filter fun e => e.f = f).filter fun e =>
    e.cond.on sw && decide (i < e.cnt.val sw m)).map fun e => e.fac.val sc

theorem applySc_Z (op : K → K → K) (sw : Sw) (sc : Scales K) (m : Mem K) (e : Sc) :
    (applySc op sw sc m e).Z = m.Z := by
  unfold applySc; split <;> rfl

theorem runSc_Z (op : K → K → K) (sw : Sw) (sc : Scales K) (l : List Sc) (m : Mem K) :
    (runSc op sw sc l m).Z = m.Z := by
  unfold runSc
  induction l generalizing m with
  | nil => rfl
  | cons e l ih => rw [List.foldl_cons, ih, applySc_Z]

theorem facs_congr {sw : Sw} {m m' : Mem K} (sc : Scales K) (h : m.Z = m'.Z) (f : Fld) (i : Nat)
    (l : List Sc) : facs sw sc m f i l = facs sw sc m' f i l := by
  unfold facs; simp only [cnt_congr h]

theorem facs_cons (sw : Sw) (sc : Scales K) (m : Mem K) (f : Fld) (i : Nat) (e : Sc)
    (l : List Sc) : facs sw sc m f i (e :: l) =
      if e.f = f ∧ e.cond.on sw = true ∧ i < e.cnt.val sw m then
        e.fac.val sc :: facs sw sc m f i l else facs sw sc m f i l := by
  unfold facs
  by_cases h1 : e.f = f
  · by_cases h2 : e.cond.on sw = true <;> by_cases h3 : i < e.cnt.val sw m <;>
      simp [h1, h2, h3]
  · simp [h1]

theorem runSc_mul (sw : Sw) (sc : Scales K) (l : List Sc) (m : Mem K) (f : Fld) (i : Nat) :
    (runSc (· * ·) sw sc l m).D f i = m.D f i * (facs sw sc m f i l).prod := by
  induction l generalizing m with
  | nil => simp [runSc, facs]
  | cons e l ih =>
    have hr : runSc (· * ·) sw sc (e :: l) m = runSc (· * ·) sw sc l (applySc (· * ·) sw sc m e) :=
      rfl
    rw [hr, ih, facs_congr sc (applySc_Z _ sw sc m e), facs_cons]
    unfold applySc
    by_cases h2 : e.cond.on sw = true
    · by_cases h1 : f = e.f
      · subst h1
        by_cases h3 : i < e.cnt.val sw m <;> simp [h2, h3, mul_assoc]
      · have h1' : ¬ e.f = f := fun h => h1 h.symm
        simp [h1, h1', h2]
    · simp [h2]

theorem runSc_div (sw : Sw) (sc : Scales K) (l : List Sc) (m : Mem K) (f : Fld) (i : Nat) :
    (runSc (· / ·) sw sc l m).D f i = m.D f i / (facs sw sc m f i l).prod := by
  induction l generalizing m with
  | nil => simp [runSc, facs]
  | cons e l ih =>
    have hr : runSc (· / ·) sw sc (e :: l) m = runSc (· / ·) sw sc l (applySc (· / ·) sw sc m e) :=
      rfl
    rw [hr, ih, facs_congr sc (applySc_Z _ sw sc m e), facs_cons]
    unfold applySc
    by_cases h2 : e.cond.on sw = true
    · by_cases h1 : f = e.f
      · subst h1
        by_cases h3 : i < e.cnt.val sw m <;> simp [h2, h3, div_div]
      · have h1' : ¬ e.f = f := fun h => h1 h.symm
        simp [h1, h1', h2]
    · simp [h2]

theorem facs_ne_zero {sw : Sw} {sc : Scales K} (h : ∀ x : Fac, x.val sc ≠ 0) (m : Mem K) (f : Fld)
    (i : Nat) (l : List Sc) : (facs sw sc m f i l).prod ≠ 0 := by
  apply List.prod_ne_zero
  intro hm
  unfold facs at hm
  obtain ⟨e, -, he⟩ := List.mem_map.1 hm
  exact h _ he

theorem facs_perm {sw : Sw} (sc : Scales K) (m : Mem K) (f : Fld) (i : Nat) {l l' : List Sc}
    (h : l.Perm l') : (facs sw sc m f i l).prod = (facs sw sc m f i l').prod := by
  unfold facs
  exact List.Perm.prod_eq (((h.filter _).filter _).map _)

/-! ### Reading back -/

/-- The reader's destination for the item the writer takes from `f`: the same variable, except for
the three old-stress arrays. -/
def dest : Fld → Fld
  | .mesh_sxxd0 => .mesh_sxxd
  | .mesh_szzd0 => .mesh_szzd
  | .mesh_sxz0 => .mesh_sxz
  | f => f

/-- The reader's statement for a statement of the writer. -/
def swap (o : Op) : Op := { o with f := dest o.f }

omit [Field K] in
theorem mapM_map_some {α β γ : Type*} (g : α → β) (h : β → Option γ) (k : α → γ) (l : List α)
    (hk : ∀ a ∈ l, h (g a) = some (k a)) : (l.map g).mapM h = some (l.map k) := by
  induction l with
  | nil => rfl
  | cons a l ih =>
    have := ih fun b hb => hk b (List.mem_cons_of_mem _ hb)
    simp [List.mapM_cons, hk a List.mem_cons_self, this]

omit [Field K] in
theorem store_range {α : Type*} (n : Nat) (g a : Nat → α) (i : Nat) :
    store ((List.range n).map g) a i = if i < n then g i else a i := by
  unfold store
  by_cases h : i < n <;> simp [h]

/-- Reading back the items of one statement. -/
theorem read_words (sw : Sw) (m m' : Mem K) (w r : Op)
    (hk : r.kind = w.kind) (hc : r.cnt.val sw m' = w.cnt.val sw m) :
    ∃ m'', (∀ rest, r.read sw (m', w.words sw m ++ rest) = some (m'', rest)) ∧
      (∀ f i, m''.D f i =
        if f = r.f ∧ w.kind = .dbl ∧ i < w.cnt.val sw m then m.D w.f i else m'.D f i) ∧
      (∀ f i, m''.Z f i =
        if f = r.f ∧ w.kind ≠ .dbl ∧ i < w.cnt.val sw m then m.Z w.f i else m'.Z f i) := by
  have hlen : (w.words sw m).length = w.cnt.val sw m := by simp [Op.words]
  have ht : ∀ rest, (w.words sw m ++ rest).take (r.cnt.val sw m') = w.words sw m := by
    intro rest; rw [hc, ← hlen]; simp
  have hd : ∀ rest, (w.words sw m ++ rest).drop (r.cnt.val sw m') = rest := by
    intro rest; rw [hc, ← hlen]; simp
  obtain ⟨wc, wf, wk, wn⟩ := w
  obtain ⟨rc, rf, rk, rn⟩ := r
  simp only at hk; subst hk
  cases rk
  · have hm : (Op.words sw m ⟨wc, wf, .int, wn⟩).mapM (Word.asZ .int) =
        some ((List.range (wn.val sw m)).map fun i => m.Z wf i) :=
      mapM_map_some _ _ _ _ (by intro a _; simp [Word.asZ])
    refine ⟨_, fun rest => by simp only [Op.read]; rw [ht, hd, hm]; rfl, ?_, ?_⟩
    · intro f i; simp
    · intro f i
      by_cases hf : f = rf
      · simp [hf, store_range]
      · simp [hf]
  · have hm : (Op.words sw m ⟨wc, wf, .dbl, wn⟩).mapM Word.asD =
        some ((List.range (wn.val sw m)).map fun i => m.D wf i) :=
      mapM_map_some _ _ _ _ (by intro a _; simp [Word.asD])
    refine ⟨_, fun rest => by simp only [Op.read]; rw [ht, hd, hm]; rfl, ?_, ?_⟩
    · intro f i
      by_cases hf : f = rf
      · simp [hf, store_range]
      · simp [hf]
    · intro f i; simp
  · have hm : (Op.words sw m ⟨wc, wf, .chr, wn⟩).mapM (Word.asZ .chr) =
        some ((List.range (wn.val sw m)).map fun i => m.Z wf i) :=
      mapM_map_some _ _ _ _ (by intro a _; simp [Word.asZ])
    refine ⟨_, fun rest => by simp only [Op.read]; rw [ht, hd, hm]; rfl, ?_, ?_⟩
    · intro f i; simp
    · intro f i
      by_cases hf : f = rf
      · simp [hf, store_range]
      · simp [hf]

/-- The count does not depend on memory, or is one of the known ones. -/
def Cnt.known (known : List Fld) : Cnt → Bool
  | .nb g => decide (g ∈ known)
  | _ => true

/-- Every count that is looked up in memory was stored earlier and is not overwritten; returns the
counts known at the end. -/
def scopeOK : List Fld → List Op → Option (List Fld)
  | known, [] => some known
  | known, w :: l =>
    if w.cnt.known known && decide (dest w.f ∉ known)
    then scopeOK (if w.kind = .int ∧ w.cnt = .one ∧ dest w.f = w.f then w.f :: known else known) l
    else none

omit [Field K] in
theorem scopeOK_append {known k1 k2 : List Fld} {l l' : List Op} (h1 : scopeOK known l = some k1)
    (h2 : scopeOK k1 l' = some k2) : scopeOK known (l ++ l') = some k2 := by
  induction l generalizing known with
  | nil => simp only [scopeOK, Option.some.injEq] at h1; subst h1; exact h2
  | cons w l ih =>
    rw [List.cons_append, scopeOK]
    rw [scopeOK] at h1
    split at h1
    · rename_i hc
      rw [if_pos hc]
      exact ih h1
    · cases h1

/-- What the reader finds for a statement of the writer. -/
def Got (sw : Sw) (m r : Mem K) (w : Op) : Prop :=
  ∀ i, i < w.cnt.val sw m →
    (w.kind = .dbl → r.D (dest w.f) i = m.D w.f i) ∧ (w.kind ≠ .dbl → r.Z (dest w.f) i = m.Z w.f i)

theorem read_back (sw : Sw) (m : Mem K) (ws : List Op) :
    ∀ (known k' : List Fld) (m' : Mem K), scopeOK known ws = some k' →
      (∀ g ∈ known, m'.Z g 0 = m.Z g 0) → (ws.map fun w => dest w.f).Nodup →
      ∃ m'', (∀ rest, runRead sw (ws.map swap) (m', ws.flatMap (fun o => o.words sw m) ++ rest) =
          some (m'', rest)) ∧
        (∀ g ∈ k', m''.Z g 0 = m.Z g 0) ∧
        (∀ f, (∀ w ∈ ws, f ≠ dest w.f) → m''.D f = m'.D f ∧ m''.Z f = m'.Z f) ∧
        ∀ w ∈ ws, Got sw m m'' w := by
  induction ws with
  | nil =>
    intro known k' m' hs hk _
    simp only [scopeOK, Option.some.injEq] at hs
    subst hs
    exact ⟨m', fun _ => rfl, hk, fun _ _ => ⟨rfl, rfl⟩, fun w hw => absurd hw List.not_mem_nil⟩
  | cons w ws ih =>
    intro known k' m' hs hk hnd
    rw [scopeOK] at hs
    split at hs
    swap
    · cases hs
    rename_i hc
    rw [Bool.and_eq_true, decide_eq_true_eq] at hc
    obtain ⟨hc1, hc2⟩ := hc
    have hcnt : (swap w).cnt.val sw m' = w.cnt.val sw m := by
      show w.cnt.val sw m' = w.cnt.val sw m
      cases hw : w.cnt with
      | nb g =>
        rw [hw] at hc1
        simp only [Cnt.known, decide_eq_true_eq] at hc1
        simp [Cnt.val, hk g hc1]
      | _ => rfl
    obtain ⟨m1, hr, hD, hZ⟩ := read_words sw m m' w (swap w) rfl hcnt
    rw [List.map_cons, List.nodup_cons] at hnd
    have hk1 : ∀ g ∈ (if w.kind = .int ∧ w.cnt = .one ∧ dest w.f = w.f then w.f :: known
        else known), m1.Z g 0 = m.Z g 0 := by
      intro g hg
      rw [hZ g 0]
      split_ifs at hg with hcond
      · rcases List.mem_cons.1 hg with rfl | hg
        · rw [if_pos]
          refine ⟨hcond.2.2.symm, by rw [hcond.1]; decide, ?_⟩
          rw [hcond.2.1]; simp [Cnt.val]
        · rw [if_neg, hk g hg]
          rintro ⟨rfl, -⟩
          exact hc2 hg
      · rw [if_neg, hk g hg]
        rintro ⟨rfl, -⟩
        exact hc2 hg
    obtain ⟨m2, hr2, hk2, hun, hgot⟩ := ih _ _ m1 hs hk1 hnd.2
    refine ⟨m2, ?_, hk2, ?_, ?_⟩
    · intro rest
      rw [List.map_cons, runRead, List.flatMap_cons, List.append_assoc, hr]
      exact hr2 rest
    · intro f hf
      have h1 := hun f fun w' hw' => hf w' (List.mem_cons_of_mem _ hw')
      have hne : f ≠ (swap w).f := hf w List.mem_cons_self
      constructor
      · rw [h1.1]; funext i; rw [hD, if_neg (fun h => hne h.1)]
      · rw [h1.2]; funext i; rw [hZ, if_neg (fun h => hne h.1)]
    · intro w' hw'
      rcases List.mem_cons.1 hw' with rfl | hw'
      · have h1 := hun (dest w'.f) fun w'' hw'' h =>
          hnd.1 (List.mem_map.2 ⟨w'', hw'', h.symm⟩)
        intro i hi
        constructor
        · intro hkind
          rw [h1.1, hD, if_pos ⟨rfl, hkind, hi⟩]
        · intro hkind
          rw [h1.2, hZ, if_pos ⟨rfl, hkind, hi⟩]
      · exact hgot w' hw'

end Verif.Bp
