import Verif.Spec.Heap
import Verif.Lemmas.Heap

/-
C116: the memory of a run.
-/
set_option linter.unusedSimpArgs false
set_option linter.unusedVariables false
set_option linter.constructorNameAsVariable false
namespace Verif.Heap
open Verif

/-! ### The tables -/

set_option maxRecDepth 100000 in
theorem alloc_keys : (allocTable.map Entry.key).Nodup := keys_nodup_of _ (by decide +kernel)

set_option maxRecDepth 100000 in
theorem free_keys : (freeTable.map Entry.key).Nodup := keys_nodup_of _ (by decide +kernel)

set_option maxRecDepth 100000 in
theorem alloc_parents : parentsFirst [] allocTable = true := by decide +kernel

set_option maxRecDepth 100000 in
theorem free_parents : parentsLast freeTable = true := by decide +kernel

/-- The same entry with another condition. -/
def Entry.under (e : Entry) (g : Guard) : Entry := { e with guard := g }

set_option maxRecDepth 100000 in
theorem alloc_mask : (let fm := mask (freeTable.map Entry.code) 0
    allocTable.all fun e => e.var.code == 8 || fm.testBit e.code || fm.testBit (e.under .always).code) = true := by
  decide +kernel

/-- What is allocated is released: under the same condition, or under none. -/
theorem alloc_released (e : Entry) (h : e ∈ allocTable) :
    e.var = .stress ∨ e ∈ freeTable ∨ e.under .always ∈ freeTable := by
  have := List.all_eq_true.1 alloc_mask e h
  simp only [Bool.or_eq_true, beq_iff_eq] at this
  rcases this with (h | h) | h
  · exact Or.inl (Var.code_injective (a₂ := .stress) h)
  · exact Or.inr (Or.inl (mem_of_mask _ _ h))
  · exact Or.inr (Or.inr (mem_of_mask _ _ h))

/-- Pointers that are NULL unless allocated. -/
def startsNull : Var → Bool
  | .mesh _ => true
  | .part _ => true
  | .flux => true
  | .stress => true
  | _ => false

set_option maxRecDepth 100000 in
theorem free_mask : (let am := mask (allocTable.map Entry.code) 0
    freeTable.all fun e => am.testBit e.code || (startsNull e.var && decide (e.kind = .self))) = true := by
  decide +kernel

/-- What is released was allocated under the same condition, or is NULL unless allocated. -/
theorem free_allocated (e : Entry) (h : e ∈ freeTable) :
    e ∈ allocTable ∨ (startsNull e.var = true ∧ e.kind = .self) := by
  have := List.all_eq_true.1 free_mask e h
  simp only [Bool.or_eq_true, Bool.and_eq_true, decide_eq_true_eq] at this
  rcases this with h | h
  · exact Or.inl (mem_of_mask _ _ h)
  · exact Or.inr h

/-- Variables used by the equation systems. -/
def isSys : Var → Bool
  | .sys _ _ => true
  | .factor => true
  | _ => false

set_option maxRecDepth 100000 in
theorem tables_not_sys : (allocTable.all fun e => !isSys e.var) = true ∧ (freeTable.all fun e => !isSys e.var) = true := by
  decide +kernel

/-- Conditions that imply the condition given, for sound switches. -/
def cover : Guard → List Guard
  | .aniso => [.aniso, .fstrain]
  | .anisoAny => [.aniso]
  | .angleCb => [.angle]
  | .kin9 => [.kin]
  | .dens2 => [.pd]
  | g => [g]

theorem cover_holds {c : Cfg} (hc : Sound c) {g g' : Guard} (h : g.holds c = true) (h' : g' ∈ cover g) :
    g'.holds c = true := by
  cases g <;> simp only [cover, List.mem_cons, List.not_mem_nil, or_false] at h'
  case aniso =>
    rcases h' with rfl | rfl
    · exact h
    · have : c.anisotropy = 1 := by simpa [Guard.holds] using h
      simp [Guard.holds, Cfg.fstrain, this]
  case anisoAny =>
    subst h'
    have : c.anisotropy ≠ 0 := by simpa [Guard.holds] using h
    rcases hc.aniso with h | h
    · exact absurd h this
    · simp [Guard.holds, h]
  case angleCb =>
    subst h'
    simp only [Guard.holds, Bool.and_eq_true, bne_iff_ne, ne_eq] at h
    simp [Guard.holds, hc.angle h.1 h.2, h.1]
  case kin9 =>
    subst h'
    have := hc.kin (by simpa [Guard.holds] using h)
    simp [Guard.holds, this]
  case dens2 =>
    subst h'
    simpa [Guard.holds, Cfg.isPD] using h
  all_goals
    subst h'
    exact h

set_option maxRecDepth 100000 in
theorem uses_mask : (let am := mask (allocTable.map Entry.code) 0
    (startUses ++ restartUses ++ stepUses ++ mechUses ++ lateUses).all fun u =>
      (cover u.2).any fun g => am.testBit (Entry.mk u.1 g .self).code) = true := by decide +kernel

/-- Every use is covered by an allocation whose condition follows from that of the use. -/
theorem use_allocated {c : Cfg} (hc : Sound c) (u : Var × Guard)
    (h : u ∈ startUses ++ restartUses ++ stepUses ++ mechUses ++ lateUses) (hg : u.2.holds c = true) :
    Slot.var u.1 ∈ slots c allocTable := by
  have := List.all_eq_true.1 uses_mask u h
  obtain ⟨g, h1, h2⟩ := List.any_eq_true.1 this
  exact var_mem_slots.2 ⟨g, mem_of_mask _ _ h2, cover_holds hc hg h1⟩

/-! ### Memory outside the equation systems -/

/-- A pointer of an equation system. -/
def SysV (s : Slot) : Prop := ∃ m v, s = .var (.sys m v)

/-- Pointer to the factor. -/
abbrev F : Slot := .var .factor

/-- Memory in which, outside the equation systems, exactly the blocks of the tables are there, and in the equation
systems those of `L`. -/
structure Lvl (c : Cfg) (L : Slot → Prop) (m : Mem) : Prop where
  bad : m.bad = false
  lost : m.lost = 0
  rest : ∀ s, ¬ SysV s → s ≠ F → m.ptr s = if s ∈ slots c allocTable then .live else initMem.ptr s
  sys : ∀ s, SysV s → (m.ptr s = .live ↔ L s)

theorem not_sys_of_mem {c : Cfg} {s : Slot} (h : s ∈ slots c allocTable) : ¬ SysV s ∧ s ≠ F := by
  obtain ⟨e, he, _, hs⟩ := mem_slots.1 h
  have := List.all_eq_true.1 tables_not_sys.1 e he
  simp only [Bool.not_eq_true'] at this
  constructor
  · rintro ⟨m, v, rfl⟩
    rcases mem_kind_slots hs with ⟨_, h⟩ | ⟨_, i, h⟩
    · simp only [Slot.var.injEq] at h
      rw [← h] at this
      simp [isSys] at this
    · simp at h
  · rintro rfl
    rcases mem_kind_slots hs with ⟨_, h⟩ | ⟨_, i, h⟩
    · simp only [Slot.var.injEq] at h
      rw [← h] at this
      simp [isSys] at this
    · simp at h

theorem not_sys_of_mem_free {c : Cfg} {s : Slot} (h : s ∈ slots c freeTable) : ¬ SysV s ∧ s ≠ F := by
  obtain ⟨e, he, _, hs⟩ := mem_slots.1 h
  have := List.all_eq_true.1 tables_not_sys.2 e he
  simp only [Bool.not_eq_true'] at this
  constructor
  · rintro ⟨m, v, rfl⟩
    rcases mem_kind_slots hs with ⟨_, h⟩ | ⟨_, i, h⟩
    · simp only [Slot.var.injEq] at h
      rw [← h] at this
      simp [isSys] at this
    · simp at h
  · rintro rfl
    rcases mem_kind_slots hs with ⟨_, h⟩ | ⟨_, i, h⟩
    · simp only [Slot.var.injEq] at h
      rw [← h] at this
      simp [isSys] at this
    · simp at h

theorem init_not_live (s : Slot) : initMem.ptr s ≠ .live := by
  simp only [initMem]
  split <;> simp

theorem prepared (c : Cfg) : exec ((slots c allocTable).map .alloc) initMem
    = { initMem with ptr := fun s => if s ∈ slots c allocTable then .live else initMem.ptr s } :=
  exec_alloc_table c allocTable [] initMem alloc_parents (by simp) (slots_nodup c _ alloc_keys)
    fun s _ => init_not_live s

theorem lvl_prepared (c : Cfg) : Lvl c (fun _ => False) (exec ((slots c allocTable).map .alloc) initMem) := by
  rw [prepared]
  refine ⟨rfl, rfl, fun s _ _ => rfl, ?_⟩
  rintro s hs
  have : s ∉ slots c allocTable := fun h => (not_sys_of_mem h).1 hs
  simp only [if_neg this, iff_false]
  exact init_not_live s

theorem lvl_uses {c : Cfg} (hc : Sound c) {L : Slot → Prop} {m : Mem} (h : Lvl c L m) (t : List (Var × Guard))
    (ht : ∀ u ∈ t, u ∈ startUses ++ restartUses ++ stepUses ++ mechUses ++ lateUses) : exec (uses c t) m = m := by
  refine exec_uses c t m fun u hu hg => ?_
  have hm := use_allocated hc u (ht u hu) hg
  obtain ⟨h1, h2⟩ := not_sys_of_mem hm
  rw [h.rest _ h1 h2, if_pos hm]

/-- Effect of the releases at the end. -/
theorem end_memory {c : Cfg} {m : Mem} {L : Slot → Prop} (h : Lvl c L m) : exec ((slots c freeTable).map .free) m
    = { m with ptr := fun s => if s ∈ slots c freeTable ∧ m.ptr s = .live then .freed else m.ptr s } := by
  refine exec_free_table c freeTable m free_parents ?_ (slots_nodup c _ free_keys) ?_
  · intro e he hk hg
    rcases free_allocated e he with h1 | h1
    · have h2 := parentsLast_mem freeTable free_parents e he hk
      rcases free_allocated _ h2 with h3 | h3
      · have h4 : Slot.var e.var ∈ slots c allocTable := var_mem_slots.2 ⟨_, h3, hg⟩
        obtain ⟨h5, h6⟩ := not_sys_of_mem h4
        rw [h.rest _ h5 h6, if_pos h4]
      · have hpar : (allocTable.all fun e => decide (e.kind = .self)
            || (mask (allocTable.map Entry.code) 0).testBit (Entry.mk e.var e.guard .self).code) = true := by
          decide +kernel
        have := List.all_eq_true.1 hpar e h1
        simp only [Bool.or_eq_true, decide_eq_true_eq, hk, false_or] at this
        have h4 : Slot.var e.var ∈ slots c allocTable := var_mem_slots.2 ⟨_, mem_of_mask _ _ this, hg⟩
        obtain ⟨h5, h6⟩ := not_sys_of_mem h4
        rw [h.rest _ h5 h6, if_pos h4]
    · exact absurd h1.2 hk
  · intro s hsf
    obtain ⟨h1, h2⟩ := not_sys_of_mem_free hsf
    rw [h.rest s h1 h2]
    by_cases h3 : s ∈ slots c allocTable
    · simp [h3]
    · rw [if_neg h3]
      right
      obtain ⟨e, he, hg, hse⟩ := mem_slots.1 hsf
      rcases free_allocated e he with h4 | ⟨h4, h5⟩
      · exact absurd (mem_slots.2 ⟨e, h4, hg, hse⟩) h3
      · rcases mem_kind_slots hse with ⟨_, rfl⟩ | ⟨hk, _⟩
        · obtain ⟨v, g, k⟩ := e
          cases v <;> simp [startsNull] at h4 <;> rfl
        · exact absurd h5 hk

/-- Release of everything that is left: only the block of the lateral stress stays. -/
theorem lvl_end {c : Cfg} {m : Mem} (h : Lvl c (fun _ => False) m) (hF : m.ptr F ≠ .live) :
    InOrder (exec ((slots c freeTable).map .free) m) fun s => c.freeSurface ≠ 0 ∧ s = .var .stress := by
  have hstress : ⟨.stress, .fsAny, .self⟩ ∈ allocTable := mem_of_mask _ _ (by decide +kernel)
  have hs : Slot.var .stress ∈ slots c allocTable ↔ c.freeSurface ≠ 0 := by
    rw [var_mem_slots]
    constructor
    · rintro ⟨g, h1, h2⟩
      have : g = .fsAny := by
        by_contra hne
        have hk := alloc_keys
        have : (⟨.stress, g, .self⟩ : Entry) = ⟨.stress, .fsAny, .self⟩ :=
          List.inj_on_of_nodup_map alloc_keys h1 hstress rfl
        exact hne (by simpa using this)
      subst this
      simpa [Guard.holds] using h2
    · intro h
      exact ⟨_, hstress, by simpa [Guard.holds] using h⟩
  have hnot : Slot.var .stress ∉ slots c freeTable := by
    intro h
    obtain ⟨g, h1, h2⟩ := var_mem_slots.1 h
    have hn : (freeTable.all fun e => e.var.code != 8) = true := by decide +kernel
    have := List.all_eq_true.1 hn _ h1
    simp [Var.code] at this
  rw [end_memory h]
  · refine ⟨h.bad, h.lost, ?_⟩
    intro s
    simp only
    constructor
    · intro hl
      have hlive : m.ptr s = .live ∧ s ∉ slots c freeTable := by
        by_cases h1 : s ∈ slots c freeTable ∧ m.ptr s = .live
        · rw [if_pos h1] at hl
          simp at hl
        · rw [if_neg h1] at hl
          exact ⟨hl, fun h2 => h1 ⟨h2, hl⟩⟩
      have h1 : ¬ SysV s := fun h1 => (h.sys s h1).1 hlive.1
      have h2 : s ≠ F := by
        rintro rfl
        exact hF hlive.1
      have h3 := h.rest s h1 h2
      have h4 : s ∈ slots c allocTable := by
        by_contra h4
        rw [if_neg h4, hlive.1] at h3
        exact init_not_live s h3.symm
      obtain ⟨e, he, hg, hse⟩ := mem_slots.1 h4
      rcases alloc_released e he with h5 | h5 | h5
      · have h6 : s = .var .stress := by
          rcases mem_kind_slots hse with ⟨_, h6⟩ | ⟨hk, i, h6⟩
          · rw [h6, h5]
          · exfalso
            have hn : (allocTable.all fun e => e.var.code != 8 || decide (e.kind = .self)) = true := by
              decide +kernel
            have := List.all_eq_true.1 hn _ he
            rw [h5] at this
            simp [Var.code, hk] at this
        exact ⟨hs.1 (h6 ▸ h4), h6⟩
      · exact absurd (mem_slots.2 ⟨e, h5, hg, hse⟩) hlive.2
      · exact absurd (mem_slots.2 ⟨e.under .always, h5, rfl, hse⟩) hlive.2
    · rintro ⟨hfs, rfl⟩
      have h1 : Slot.var Var.stress ∈ slots c allocTable := hs.2 hfs
      obtain ⟨h2, h3⟩ := not_sys_of_mem h1
      rw [if_neg (fun h => hnot h.1), h.rest _ h2 h3, if_pos h1]

/-! ### The equation systems -/

theorem sysV_of_mem_fields {m : System} {l : List SysVar} {s : Slot} (h : s ∈ fields m l) : SysV s := by
  obtain ⟨f, _, rfl⟩ := List.mem_map.1 h
  exact ⟨m, f, rfl⟩

theorem lvl_alloc {c : Cfg} {L : Slot → Prop} {m : Mem} (h : Lvl c L m) (l : List Slot) (hn : l.Nodup)
    (hs : ∀ s ∈ l, SysV s ∧ ¬ L s) :
    Lvl c (fun s => L s ∨ s ∈ l) (exec (l.map .alloc) m) ∧ (exec (l.map .alloc) m).ptr F = m.ptr F := by
  have hF : F ∉ l := by
    intro hF
    obtain ⟨a, b, hab⟩ := (hs F hF).1
    simp at hab
  rw [exec_alloc l m hn]
  · refine ⟨⟨h.bad, h.lost, ?_, ?_⟩, by simp [hF]⟩
    · intro s h1 h2
      have : s ∉ l := fun h3 => h1 (hs s h3).1
      simp only [if_neg this]
      exact h.rest s h1 h2
    · intro s h1
      by_cases h2 : s ∈ l
      · simp [h2]
      · simp only [if_neg h2, h2, or_false]
        exact h.sys s h1
  · intro s h1
    obtain ⟨a, b, rfl⟩ := (hs s h1).1
    trivial
  · intro s h1 h2
    exact (hs s h1).2 ((h.sys s (hs s h1).1).1 h2)

theorem lvl_free {c : Cfg} {L : Slot → Prop} {m : Mem} (h : Lvl c L m) (l : List Slot) (hn : l.Nodup)
    (hs : ∀ s ∈ l, SysV s ∧ L s) :
    Lvl c (fun s => L s ∧ s ∉ l) (exec (l.map .free) m) ∧ (exec (l.map .free) m).ptr F = m.ptr F := by
  have hF : F ∉ l := by
    intro hF
    obtain ⟨a, b, hab⟩ := (hs F hF).1
    simp at hab
  rw [exec_free l m hn]
  · refine ⟨⟨h.bad, h.lost, ?_, ?_⟩, by simp [hF]⟩
    · intro s h1 h2
      have : s ∉ l := fun h3 => h1 (hs s h3).1
      simp only [this, false_and, if_false]
      exact h.rest s h1 h2
    · intro s h1
      by_cases h2 : s ∈ l
      · have : m.ptr s = .live := (h.sys s h1).2 (hs s h2).2
        simp [h2, this]
      · simp only [h2, false_and, if_false, not_false_eq_true, and_true]
        exact h.sys s h1
  · intro s h1
    obtain ⟨a, b, rfl⟩ := (hs s h1).1
    trivial
  · intro v k h1
    obtain ⟨a, b, hab⟩ := (hs _ h1).1
    simp at hab
  · intro s h1
    exact Or.inl ((h.sys s (hs s h1).1).2 (hs s h1).2)

theorem lvl_use {c : Cfg} {L : Slot → Prop} {m : Mem} (h : Lvl c L m) (l : List Slot)
    (hs : ∀ s ∈ l, SysV s ∧ L s) : exec (l.map .use) m = m := by
  refine exec_use l m fun s h1 => ⟨?_, (h.sys s (hs s h1).1).2 (hs s h1).2⟩
  obtain ⟨a, b, rfl⟩ := (hs s h1).1
  trivial

theorem lvl_congr {c : Cfg} {L L' : Slot → Prop} {m : Mem} (h : Lvl c L m) (hL : ∀ s, L s ↔ L' s) : Lvl c L' m :=
  ⟨h.bad, h.lost, h.rest, fun s hs => (h.sys s hs).trans (hL s)⟩

theorem sysV_ne_F {s : Slot} (h : SysV s) : s ≠ F := by
  obtain ⟨a, b, rfl⟩ := h
  simp

/-- Setting the pointer to the factor changes nothing else. -/
theorem lvl_setF {c : Cfg} {L : Slot → Prop} {m : Mem} (h : Lvl c L m) (v : Ptr) : Lvl c L (m.set F v) := by
  refine ⟨h.bad, h.lost, ?_, ?_⟩
  · intro s h1 h2
    simp only [Mem.set, if_neg h2]
    exact h.rest s h1 h2
  · intro s h1
    simp only [Mem.set, if_neg (sysV_ne_F h1)]
    exact h.sys s h1

theorem solve_lists (b : Bool) : (solveAlloc b).Nodup ∧ (solveFree b).Nodup
    ∧ (∀ s ∈ solveFree b, s ∈ solveAlloc b) ∧ (∀ s ∈ solveAlloc b, s ∈ solveFree b) := by
  cases b <;> decide +kernel

theorem pass_lists (b : Bool) : (passAlloc b).Nodup ∧ (passFree b).Nodup
    ∧ (∀ s ∈ passFree b, s ∈ passAlloc b) ∧ (∀ s ∈ passAlloc b, s ∈ passFree b)
    ∧ (∀ s ∈ passAlloc b, s ∉ solveAlloc true) ∧ (∀ s ∈ passAlloc b, s ∉ solveAlloc false) := by
  cases b <;> decide +kernel

theorem pass_uses : (∀ s ∈ passUses false, s ∈ solveAlloc false) ∧ (∀ s ∈ passUses false, s ∈ solveAlloc true)
    ∧ (∀ s ∈ passUses true, s ∈ solveAlloc true) := by
  decide +kernel

theorem solveAlloc_sys (b : Bool) : ∀ s ∈ solveAlloc b, SysV s := by
  intro s hs
  cases b <;> simp only [solveAlloc, sAlloc, numbering, List.mem_append, if_true, if_false, Bool.false_eq_true,
    List.not_mem_nil, or_false] at hs
  · rcases hs with ((((h | h) | h) | h) | h) | h <;> exact sysV_of_mem_fields h
  · rcases hs with (((((((h | h) | h) | h) | h) | h) | h) | h) | ((h | h) | h) | h <;> exact sysV_of_mem_fields h

theorem passAlloc_sys (b : Bool) : ∀ s ∈ passAlloc b, SysV s := by
  intro s hs
  cases b <;> simp only [passAlloc, matAlloc, List.mem_append, if_true, if_false, Bool.false_eq_true,
    List.not_mem_nil, or_false] at hs
  · rcases hs with ((h | h) | h) | h <;> exact sysV_of_mem_fields h
  · rcases hs with (((h | h) | h) | h) | ((h | h) | h) | h <;> exact sysV_of_mem_fields h

/-! ### A pass -/

attribute [local irreducible] solveAlloc solveFree passAlloc passFree passUses exec

/-- State at the head of the loop. -/
structure Top (c : Cfg) (s : St) : Prop where
  lvl : Lvl c (· ∈ solveAlloc c.needJacobian) s.mem
  off : s.analyze = true → s.mem.ptr F ≠ .live
  on : s.analyze = false → s.mem.ptr F = .live
  nit : 0 < s.nit → s.analyze = false
  fst : s.first = some false → s.analyze = false
  need : s.newton = true ∨ s.jac = true → c.needJacobian = true

/-- State after the assembly. -/
structure Mid (c : Cfg) (s : St) : Prop where
  lvl : Lvl c (fun t => t ∈ solveAlloc c.needJacobian ∨ t ∈ passAlloc s.jac) s.mem
  off : s.analyze = true → s.mem.ptr F ≠ .live
  on : s.analyze = false → s.mem.ptr F = .live
  nit : 0 < s.nit → s.mem.ptr F = .live ∨ s.mem.ptr F = .null
  need : s.newton = true ∨ s.jac = true → c.needJacobian = true

/-- The switch to Newton steps, where it is asked for, finds the flag set and a Jacobian. -/
def Allowed (c : Cfg) (p : Pass) (s : St) : Prop :=
  0 < s.nit → c.picard2newton = 1 → p.switch = true → s.first ≠ none ∧ c.needJacobian = true

theorem switch_top {c : Cfg} {p : Pass} {s : St} (h : Top c s) (ha : Allowed c p s) :
    let r := switchNewton c p s
    Lvl c (· ∈ solveAlloc c.needJacobian) r.mem ∧ (r.analyze = true → r.mem.ptr F ≠ .live)
      ∧ (r.analyze = false → r.mem.ptr F = .live) ∧ (0 < r.nit → r.mem.ptr F = .live ∨ r.mem.ptr F = .null)
      ∧ (r.newton = true ∨ r.jac = true → c.needJacobian = true) := by
  intro r
  show _
  by_cases hsw : 0 < s.nit ∧ c.picard2newton = 1 ∧ p.switch = true
  · obtain ⟨hf, hj⟩ := ha hsw.1 hsw.2.1 hsw.2.2
    have han := h.nit hsw.1
    have hlive := h.on han
    simp only [r, switchNewton, if_pos hsw]
    rcases hcase : s.first with _ | _ | _
    · exact absurd hcase hf
    · refine ⟨h.lvl, by simp, fun _ => hlive, fun _ => Or.inl hlive, fun _ => hj⟩
    · have : Op.run s.mem (.freeSet F) = s.mem.set F .null := by
        simp only [Op.run, Mem.release, hlive]
        rw [if_pos (by trivial)]
      simp only [this]
      refine ⟨lvl_setF h.lvl _, ?_, by simp, ?_, fun _ => hj⟩
      · simp [Mem.set]
      · simp [Mem.set]
  · simp only [r, switchNewton, if_neg hsw]
    exact ⟨h.lvl, h.off, h.on, fun h0 => Or.inl (h.on (h.nit h0)), h.need⟩

theorem switch_nit (c : Cfg) (p : Pass) (s : St) : (switchNewton c p s).nit = s.nit
    ∧ (s.first ≠ none → (switchNewton c p s).first ≠ none)
    ∧ (s.first = none → (switchNewton c p s).first = none)
    ∧ ((switchNewton c p s).isNewton = true ↔
        s.isNewton = true ∨ (0 < s.nit ∧ c.picard2newton = 1 ∧ p.switch = true)) := by
  simp only [switchNewton]
  split
  · rename_i h
    split <;> simp_all
  · rename_i h
    simp [h]

theorem needs_aniso {c : Cfg} (h : c.anisotropy = 1) : c.needJacobian = true := by simp [Cfg.needJacobian, h]

theorem assemble_mid {c : Cfg} {p : Pass} {s : St} (h : Top c s) (ha : Allowed c p s) : Mid c (assemble c p s) := by
  obtain ⟨h1, h2, h3, h4, h5⟩ := switch_top h ha
  have hjac : ((switchNewton c p s).jac || (switchNewton c p s).newton || c.anisotropy == 1) = true →
      c.needJacobian = true := by
    intro hj
    simp only [Bool.or_eq_true, beq_iff_eq] at hj
    rcases hj with (hj | hj) | hj
    · exact h5 (Or.inr hj)
    · exact h5 (Or.inl hj)
    · exact needs_aniso hj
  obtain ⟨jac, hjeq⟩ : ∃ j, j = ((switchNewton c p s).jac || (switchNewton c p s).newton || c.anisotropy == 1) := ⟨_, rfl⟩
  have hmem : assemble c p s = { switchNewton c p s with
      jac := jac, mem := exec ((passAlloc jac).map .alloc ++ (passUses jac).map .use) (switchNewton c p s).mem } := by
    simp only [assemble, hjeq]
  rw [← hjeq] at hjac
  obtain ⟨l1, l2, l3, l4, l5, l6⟩ := pass_lists jac
  have halloc := lvl_alloc h1 (passAlloc jac) l1 fun t ht => ⟨passAlloc_sys jac t ht, by
    cases hn : c.needJacobian
    · exact l6 t ht
    · exact l5 t ht⟩
  have huse : exec ((passUses jac).map .use) (exec ((passAlloc jac).map .alloc) (switchNewton c p s).mem)
      = exec ((passAlloc jac).map .alloc) (switchNewton c p s).mem := by
    refine lvl_use halloc.1 _ fun t ht => ?_
    have hmem : t ∈ solveAlloc c.needJacobian := by
      cases hj : jac
      · rw [hj] at ht
        cases hn : c.needJacobian
        · exact pass_uses.1 t ht
        · exact pass_uses.2.1 t ht
      · rw [hj] at ht
        rw [hjac hj]
        exact pass_uses.2.2 t ht
    exact ⟨solveAlloc_sys _ t hmem, Or.inl hmem⟩
  rw [hmem]
  refine ⟨?_, ?_, ?_, ?_, ?_⟩
  · simp only [exec_append, huse]
    exact halloc.1
  · simp only [exec_append, huse, halloc.2]
    exact h2
  · simp only [exec_append, huse, halloc.2]
    exact h3
  · simp only [exec_append, huse, halloc.2]
    exact h4
  · rintro (hn | hn)
    · exact h5 (Or.inl hn)
    · exact hjac hn

theorem linearSolve_mid {c : Cfg} (hc : Sound c) {s : St} (h : Mid c s) :
    Mid c (linearSolve c s) ∧ (linearSolve c s).analyze = false := by
  have hsol : c.solves = true := by
    simp only [Cfg.solves, Bool.or_eq_true, beq_iff_eq]
    rcases hc.solver with h | h | h | h <;> simp [h]
  simp only [linearSolve, hsol, if_true]
  cases ha : s.analyze
  · have hlive := h.on ha
    have : exec [.use F] s.mem = s.mem := by
      have := exec_use [F] s.mem (by
        intro t ht
        simp only [List.mem_singleton] at ht
        subst ht
        exact ⟨trivial, hlive⟩)
      simpa using this
    rw [if_neg (by simp), this]
    exact ⟨⟨h.lvl, fun h => by simp at h, fun _ => hlive, h.nit, h.need⟩, rfl⟩
  · have hnl := h.off ha
    have h1 : exec [.alloc F, .use F] s.mem = s.mem.set F .live := by
      have ha1 : Op.run s.mem (.alloc F) = s.mem.set F .live := by
        simp only [Op.run]
        rw [if_pos (by trivial), if_neg hnl]
        rfl
      have ha2 : Op.run (s.mem.set F .live) (.use F) = s.mem.set F .live := by
        simp only [Op.run]
        rw [if_pos]
        exact And.intro trivial (by simp [Mem.set])
      rw [exec_cons, ha1, exec_cons, ha2, exec_nil]
    rw [if_pos rfl, h1]
    refine ⟨⟨lvl_setF h.lvl _, by simp, ?_, ?_, h.need⟩, rfl⟩
    · simp [Mem.set]
    · simp [Mem.set]

theorem clear_lvl {c : Cfg} {s : St} (h : Mid c s) :
    Lvl c (· ∈ solveAlloc c.needJacobian) (clear s).mem ∧ (clear s).mem.ptr F = s.mem.ptr F := by
  obtain ⟨l1, l2, l3, l4, l5, l6⟩ := pass_lists s.jac
  have := lvl_free h.lvl (passFree s.jac) l2 fun t ht => ⟨passAlloc_sys _ t (l3 t ht), Or.inr (l3 t ht)⟩
  refine ⟨lvl_congr this.1 ?_, this.2⟩
  intro t
  constructor
  · rintro ⟨h1 | h1, h2⟩
    · exact h1
    · exact absurd (l4 t h1) h2
  · intro h1
    refine ⟨Or.inl h1, fun h2 => ?_⟩
    cases hn : c.needJacobian
    · exact l6 t (l3 t h2) (hn ▸ h1)
    · exact l5 t (l3 t h2) (hn ▸ h1)

/-- State after the loop. -/
structure Done (c : Cfg) (s : St) : Prop where
  lvl : Lvl c (· ∈ solveAlloc c.needJacobian) s.mem
  pos : 0 < s.nit → s.mem.ptr F = .live ∨ s.mem.ptr F = .null
  zero : s.nit = 0 → s.mem.ptr F ≠ .live
  need : s.newton = true → c.needJacobian = true

theorem assemble_fields (c : Cfg) (p : Pass) (s : St) : (assemble c p s).nit = s.nit
    ∧ (assemble c p s).first = (switchNewton c p s).first
    ∧ (assemble c p s).analyze = (switchNewton c p s).analyze
    ∧ (assemble c p s).newton = (switchNewton c p s).newton
    ∧ (assemble c p s).isNewton = (switchNewton c p s).isNewton :=
  ⟨(switch_nit c p s).1, rfl, rfl, rfl, rfl⟩

theorem linearSolve_fields (c : Cfg) (s : St) : (linearSolve c s).nit = s.nit ∧ (linearSolve c s).first = s.first
    ∧ (linearSolve c s).newton = s.newton ∧ (linearSolve c s).isNewton = s.isNewton ∧ (linearSolve c s).jac = s.jac := by
  simp only [linearSolve]
  split
  · split <;> simp
  · simp

theorem passes_done {c : Cfg} (hc : Sound c) : ∀ (ps : List Pass) (s : St), Top c s →
    leftover s.nit (!s.analyze) ps = false →
    (c.picard2newton = 1 → asks s.nit ps = true → s.first ≠ none ∧ c.needJacobian = true) →
    Done c (passes c ps s)
      ∧ (c.picard2newton = 1 → s.isNewton = true ∨ asks s.nit ps = true → (passes c ps s).isNewton = true)
  | [], s, h, hl, ha => by
    simp only [passes, asks, Bool.false_eq_true, or_false]
    refine ⟨⟨h.lvl, fun h0 => Or.inl (h.on (h.nit h0)), fun h0 => h.off ?_, fun hn => h.need (Or.inl hn)⟩, fun _ h => h⟩
    simpa [leftover, h0] using hl
  | p :: ps, s, h, hl, ha => by
    have hallow : Allowed c p s := by
      intro h0 h1 h2
      refine ha h1 ?_
      simp [asks, h0, h2]
    have hmid := assemble_mid h hallow
    obtain ⟨f1, f2, f3, f4, f5⟩ := assemble_fields c p s
    obtain ⟨w1, w2, w2', w3⟩ := switch_nit c p s
    obtain ⟨hsol, han⟩ := linearSolve_mid hc hmid
    obtain ⟨g1, g2, g3, g4, g5⟩ := linearSolve_fields c (assemble c p s)
    cases hend : p.ending
    · -- converged
      have hclear := clear_lvl hmid
      have hp : passes c (p :: ps) s = clear (assemble c p s) := by simp [passes, pass, hend]
      rw [hp]
      refine ⟨⟨hclear.1, ?_, ?_, fun hn => hmid.need (Or.inl hn)⟩, ?_⟩
      · intro h0
        rw [hclear.2]
        exact hmid.nit h0
      · intro h0
        have h0' : s.nit = 0 := f1 ▸ h0
        rw [hclear.2]
        refine hmid.off ?_
        have hsw : ¬ (0 < s.nit ∧ c.picard2newton = 1 ∧ p.switch = true) := by omega
        rw [f3]
        simp only [switchNewton, if_neg hsw]
        simpa [leftover, hend, h0'] using hl
      · intro hp2 hq
        show (assemble c p s).isNewton = true
        rw [f5, w3]
        rcases hq with hq | hq
        · exact Or.inl hq
        · simp only [asks, hend, Bool.or_false, Bool.and_eq_true, decide_eq_true_eq] at hq
          exact Or.inr ⟨hq.1, hp2, hq.2⟩
    · -- stagnated
      have hclear := clear_lvl hsol
      have hp : passes c (p :: ps) s = clear (linearSolve c (assemble c p s)) := by simp [passes, pass, hend]
      rw [hp]
      refine ⟨⟨hclear.1, ?_, ?_, fun hn => hsol.need (Or.inl hn)⟩, ?_⟩
      · intro _
        rw [hclear.2]
        exact Or.inl (hsol.on han)
      · intro h0
        exfalso
        have h0' : s.nit = 0 := by
          have : (linearSolve c (assemble c p s)).nit = 0 := h0
          omega
        simp [leftover, hend, h0'] at hl
      · intro hp2 hq
        show (linearSolve c (assemble c p s)).isNewton = true
        rw [g4, f5, w3]
        rcases hq with hq | hq
        · exact Or.inl hq
        · simp only [asks, hend, Bool.or_false, Bool.and_eq_true, decide_eq_true_eq] at hq
          exact Or.inr ⟨hq.1, hp2, hq.2⟩
    · -- restart
      have hclear := clear_lvl hsol
      have hp : passes c (p :: ps) s = passes c ps { clear (linearSolve c (assemble c p s)) with nit := 0 } := by
        simp [passes, pass, hend]
      rw [hp]
      have htop : Top c { clear (linearSolve c (assemble c p s)) with nit := 0 } := by
        refine ⟨hclear.1, ?_, ?_, by simp, fun _ => han, hsol.need⟩
        · intro h1
          exact absurd (han.symm.trans h1) (by simp)
        · intro _
          show (clear (linearSolve c (assemble c p s))).mem.ptr F = _
          rw [hclear.2]
          exact hsol.on han
      have hrec := passes_done hc ps _ htop ?_ ?_
      · refine ⟨hrec.1, ?_⟩
        intro hp2 hq
        refine hrec.2 hp2 ?_
        show (linearSolve c (assemble c p s)).isNewton = true ∨ asks 0 ps = true
        rw [g4, f5, w3]
        rcases hq with hq | hq
        · exact Or.inl (Or.inl hq)
        · simp only [asks, hend, Bool.or_eq_true, Bool.and_eq_true, decide_eq_true_eq] at hq
          rcases hq with hq | hq
          · exact Or.inl (Or.inr ⟨hq.1, hp2, hq.2⟩)
          · exact Or.inr hq
      · show leftover 0 (!(linearSolve c (assemble c p s)).analyze) ps = false
        rw [han]
        simpa [leftover, hend] using hl
      · intro hp2 hq
        show (linearSolve c (assemble c p s)).first ≠ none ∧ _
        rw [g2, f2]
        have := ha hp2 (by simp only [asks, hend, Bool.or_eq_true]; exact Or.inr hq)
        exact ⟨w2 this.1, this.2⟩
    · -- next
      have hclear := clear_lvl hsol
      have hp : passes c (p :: ps) s
          = passes c ps { clear (linearSolve c (assemble c p s)) with nit := s.nit + 1 } := by
        simp [passes, pass, hend]
      rw [hp]
      have htop : Top c { clear (linearSolve c (assemble c p s)) with nit := s.nit + 1 } := by
        refine ⟨hclear.1, ?_, ?_, fun _ => han, fun _ => han, hsol.need⟩
        · intro h1
          exact absurd (han.symm.trans h1) (by simp)
        · intro _
          show (clear (linearSolve c (assemble c p s))).mem.ptr F = _
          rw [hclear.2]
          exact hsol.on han
      have hrec := passes_done hc ps _ htop ?_ ?_
      · refine ⟨hrec.1, ?_⟩
        intro hp2 hq
        refine hrec.2 hp2 ?_
        show (linearSolve c (assemble c p s)).isNewton = true ∨ asks (s.nit + 1) ps = true
        rw [g4, f5, w3]
        rcases hq with hq | hq
        · exact Or.inl (Or.inl hq)
        · simp only [asks, hend, Bool.or_eq_true, Bool.and_eq_true, decide_eq_true_eq] at hq
          rcases hq with hq | hq
          · exact Or.inl (Or.inr ⟨hq.1, hp2, hq.2⟩)
          · exact Or.inr hq
      · show leftover (s.nit + 1) (!(linearSolve c (assemble c p s)).analyze) ps = false
        rw [han]
        simpa [leftover, hend] using hl
      · intro hp2 hq
        show (linearSolve c (assemble c p s)).first ≠ none ∧ _
        rw [g2, f2]
        have := ha hp2 (by simp only [asks, hend, Bool.or_eq_true]; exact Or.inr hq)
        exact ⟨w2 this.1, this.2⟩

/-! ### A step and a run -/

/-- Between steps: the blocks of the tables and nothing else. -/
structure Calm (c : Cfg) (s : St) : Prop where
  lvl : Lvl c (fun _ => False) s.mem
  fac : s.mem.ptr F ≠ .live
  need : s.newton = true → c.needJacobian = true

theorem step_calm {c : Cfg} (hc : Sound c) (ps : List Pass) (s : St) (h : Calm c s)
    (hclean : leftover 0 false ps = false)
    (hask : c.picard2newton = 1 → asks 0 ps = true → s.isNewton = true ∧ c.needJacobian = true) :
    Calm c (step c s ps) ∧ (c.picard2newton = 1 → asks 0 ps = true → (step c s ps).isNewton = true) := by
  have u1 : exec (uses c stepUses) s.mem = s.mem :=
    lvl_uses hc h.lvl _ fun u hu => by simp only [List.mem_append]; tauto
  have u2 : exec (uses c mechUses) s.mem = s.mem :=
    lvl_uses hc h.lvl _ fun u hu => by simp only [List.mem_append]; tauto
  obtain ⟨l1, l2, l3, l4⟩ := solve_lists c.needJacobian
  have hal := lvl_alloc h.lvl (solveAlloc c.needJacobian) l1 fun t ht => ⟨solveAlloc_sys _ t ht, by simp⟩
  have hlvl : Lvl c (· ∈ solveAlloc c.needJacobian) (exec ((solveAlloc c.needJacobian).map .alloc) s.mem) :=
    lvl_congr hal.1 (by simp)
  obtain ⟨s1, hs1⟩ : ∃ s1, s1 = enter c { s with mem := exec (uses c stepUses) s.mem } := ⟨_, rfl⟩
  have hmem1 : s1.mem = exec ((solveAlloc c.needJacobian).map .alloc) s.mem ∧ s1.nit = 0 ∧ s1.jac = false
      ∧ s1.analyze = true ∧ s1.first ≠ some false ∧ (s1.newton = true → s.newton = true)
      ∧ (s.isNewton = true → c.picard2newton = 1 → s1.first ≠ none) := by
    rw [hs1]
    simp only [enter, u1, exec_append, u2]
    split
    · simp
    · rename_i hne
      refine ⟨rfl, rfl, rfl, rfl, by simp, fun h => h, fun h1 h2 => absurd ⟨h1, h2⟩ hne⟩
  obtain ⟨m1, m2, m3, m4, m5, m6, m7⟩ := hmem1
  have htop : Top c s1 := by
    refine ⟨m1 ▸ hlvl, ?_, ?_, ?_, fun h => absurd h m5, ?_⟩
    · intro _
      rw [m1, hal.2]
      exact h.fac
    · intro h1
      simp [m4] at h1
    · omega
    · rintro (h1 | h1)
      · exact h.need (m6 h1)
      · simp [m3] at h1
  have hdone := passes_done hc ps s1 htop (by rw [m2, m4]; exact hclean) (by
    intro h1 h2
    rw [m2] at h2
    obtain ⟨h3, h4⟩ := hask h1 h2
    exact ⟨m7 h3 h1, h4⟩)
  obtain ⟨r, hr⟩ : ∃ r, r = passes c ps s1 := ⟨_, rfl⟩
  rw [← hr] at hdone
  obtain ⟨hd, hnew⟩ := hdone
  have hleave : Lvl c (· ∈ solveAlloc c.needJacobian) (leave r).mem ∧ (leave r).mem.ptr F ≠ .live
      ∧ (leave r).newton = r.newton ∧ (leave r).isNewton = r.isNewton := by
    simp only [leave]
    split
    · rename_i h0
      rcases hd.pos h0 with h1 | h1
      · have : Op.run r.mem (.freeSet F) = r.mem.set F .null := by
          simp only [Op.run, Mem.release, h1]
          rw [if_pos (by trivial)]
        simp only [this]
        exact ⟨lvl_setF hd.lvl _, by simp [Mem.set], trivial, trivial⟩
      · have : Op.run r.mem (.freeSet F) = r.mem := by
          simp only [Op.run, Mem.release, h1]
          rw [if_pos (by trivial)]
        simp only [this]
        exact ⟨hd.lvl, by simp [h1], trivial, trivial⟩
    · exact ⟨hd.lvl, hd.zero (by omega), rfl, rfl⟩
  obtain ⟨v1, v2, v3, v4⟩ := hleave
  have u3 : exec (uses c lateUses) (leave r).mem = (leave r).mem :=
    lvl_uses hc v1 _ fun u hu => by simp only [List.mem_append]; tauto
  have hfree := lvl_free v1 (solveFree c.needJacobian) l2 fun t ht => ⟨solveAlloc_sys _ t (l3 t ht), l3 t ht⟩
  have hstep : step c s ps = { leave r with mem := exec ((solveFree c.needJacobian).map .free) (leave r).mem } := by
    simp only [step, if_pos hc.mechanical, ← hs1, ← hr, exec_append, u3]
  rw [hstep]
  refine ⟨⟨?_, ?_, ?_⟩, ?_⟩
  · refine lvl_congr hfree.1 fun t => ?_
    constructor
    · rintro ⟨h1, h2⟩
      exact h2 (l4 t h1)
    · simp
  · simp only [hfree.2]
    exact v2
  · intro h1
    exact hd.need (v3 ▸ h1)
  · intro h1 h2
    show (leave r).isNewton = true
    rw [v4]
    exact hnew h1 (Or.inr (by rw [m2]; exact h2))

theorem steps_calm {c : Cfg} (hc : Sound c) : ∀ (steps : List (List Pass)) (s : St), Calm c s → Orderly c steps →
    (c.picard2newton = 1 → (∃ ps ∈ steps, asks 0 ps = true) → s.isNewton = true) →
    Calm c (steps.foldl (step c) s)
  | [], s, h, _, _ => h
  | ps :: rest, s, h, ho, hi => by
    rw [List.foldl_cons]
    have hneed : c.picard2newton = 1 → asks 0 ps = true → c.needJacobian = true := by
      intro h1 h2
      rcases ho.newton h1 ps (by simp) h2 with h3 | h3 <;> simp [Cfg.needJacobian, h3]
    have hst := step_calm hc ps s h (ho.clean ps (by simp))
      fun h1 h2 => ⟨hi h1 ⟨ps, by simp, h2⟩, hneed h1 h2⟩
    refine steps_calm hc rest _ hst.1 ⟨fun q hq => ho.clean q (by simp [hq]),
      fun h1 q hq => ho.newton h1 q (by simp [hq]), fun h1 => (List.pairwise_cons.1 (ho.once h1)).2⟩ ?_
    rintro h1 ⟨q, hq, h2⟩
    exact hst.2 h1 ((List.pairwise_cons.1 (ho.once h1)).1 q hq h2)

theorem prepare_calm {c : Cfg} (hc : Sound c) (restart : Bool) : Calm c (prepare c restart) := by
  have h := lvl_prepared c
  have hu : (prepare c restart).mem = exec ((slots c allocTable).map .alloc) initMem := by
    simp only [prepare]
    refine lvl_uses hc h _ fun u hu => ?_
    cases restart <;> simp only [Bool.false_eq_true, if_false, if_true] at hu <;> simp only [List.mem_append] <;> tauto
  refine ⟨hu ▸ h, ?_, ?_⟩
  · rw [hu, prepared]
    have : F ∉ slots c allocTable := fun h => (not_sys_of_mem h).2 rfl
    simp only [if_neg this]
    exact init_not_live F
  · intro h
    exact h

theorem run_calm {c : Cfg} (hc : Sound c) (restart : Bool) (steps : List (List Pass)) (ho : Orderly c steps) :
    Calm c (steps.foldl (step c) (prepare c restart)) := by
  refine steps_calm hc steps _ (prepare_calm hc restart) ho ?_
  rintro h1 ⟨ps, h2, h3⟩
  show (c.newton == 1 || c.anisotropy == 1) = true
  rcases ho.newton h1 ps h2 h3 with h | h <;> simp [h]

/-- C116: with sound switches, for every number of steps and whatever their iterations meet, nothing is used before
it is allocated or after it is released, nothing is released twice, no block is lost, and at the end all memory has
been released except, with a free surface, the block of the lateral stress. -/
theorem memory_of_run_partial (c : Cfg) (hc : Sound c) (restart : Bool) (steps : List (List Pass))
    (ho : Orderly c steps) : InOrder (run c restart steps) fun s => c.freeSurface ≠ 0 ∧ s = .var .stress :=
  let h := run_calm hc restart steps ho
  lvl_end h.lvl h.fac

/-- C116: memory does not grow: after any number of steps exactly the blocks of the preparation are there. -/
theorem memory_between_steps (c : Cfg) (hc : Sound c) (restart : Bool) (steps : List (List Pass))
    (ho : Orderly c steps) : InOrder (steps.foldl (step c) (prepare c restart)).mem
      fun s => (prepare c restart).mem.ptr s = .live := by
  have h := run_calm hc restart steps ho
  have h0 := prepare_calm hc restart
  refine ⟨h.lvl.bad, h.lvl.lost, fun s => ?_⟩
  by_cases h1 : SysV s
  · rw [h.lvl.sys s h1, h0.lvl.sys s h1]
  · by_cases h2 : s = F
    · subst h2
      exact iff_of_false h.fac h0.fac
    · rw [h.lvl.rest s h1 h2, h0.lvl.rest s h1 h2]

end Verif.Heap
