import Verif.Model.Heap
import Mathlib.Tactic.Linarith
import Mathlib.Data.List.Nodup
import Mathlib.Data.List.Range

/-
Sequences of allocations, uses and releases, and checks on the tables of Model/Heap.lean by bit masks.
-/
set_option linter.unusedSimpArgs false
set_option linter.unusedVariables false
set_option linter.constructorNameAsVariable false
namespace Verif.Heap
open Verif

/-! ### Sequences -/

theorem exec_nil (m : Mem) : exec [] m = m := rfl

theorem exec_cons (o : Op) (l : List Op) (m : Mem) : exec (o :: l) m = exec l (o.run m) := rfl

theorem exec_append (l l' : List Op) (m : Mem) : exec (l ++ l') m = exec l' (exec l m) := by
  simp [exec, List.foldl_append]

theorem Mem.ext' {m n : Mem} (h1 : ∀ s, m.ptr s = n.ptr s) (h2 : m.lost = n.lost) (h3 : m.bad = n.bad) : m = n := by
  cases m; cases n
  simp only [Mem.mk.injEq]
  exact ⟨funext h1, h2, h3⟩

/-- Allocation of pointers that can be reached, none twice, none pointing to a block. -/
theorem exec_alloc : ∀ (l : List Slot) (m : Mem), l.Nodup → (∀ s ∈ l, m.reach s) → (∀ s ∈ l, m.ptr s ≠ .live) →
    exec (l.map .alloc) m = { m with ptr := fun s => if s ∈ l then .live else m.ptr s }
  | [], m, _, _, _ => by simp [exec_nil]
  | s :: l, m, hn, hr, hl => by
    rw [List.map_cons, exec_cons]
    have hs : Op.run m (.alloc s) = m.set s .live := by
      simp only [Op.run, if_pos (hr s (by simp)), if_neg (hl s (by simp))]
      rfl
    rw [hs, exec_alloc l (m.set s .live) (List.nodup_cons.1 hn).2]
    · apply Mem.ext'
      · intro t
        simp only [Mem.set, List.mem_cons]
        by_cases h1 : t ∈ l <;> by_cases h2 : t = s <;> simp [h1, h2]
      · rfl
      · rfl
    · intro t ht
      have := hr t (by simp [ht])
      cases t with
      | var v => trivial
      | elem v k =>
        simp only [Mem.reach, Mem.set] at this ⊢
        split
        · rfl
        · exact this
    · intro t ht
      have hne : t ≠ s := fun e => (List.nodup_cons.1 hn).1 (e ▸ ht)
      simp only [Mem.set, if_neg hne]
      exact hl t (by simp [ht])

/-- Release of pointers that can be reached, none twice, each to a block or NULL. -/
theorem exec_free : ∀ (l : List Slot) (m : Mem), l.Nodup → (∀ s ∈ l, m.reach s) →
    (∀ v k, Slot.elem v k ∈ l → Slot.var v ∉ l) → (∀ s ∈ l, m.ptr s = .live ∨ m.ptr s = .null) →
    exec (l.map .free) m = { m with ptr := fun s => if s ∈ l ∧ m.ptr s = .live then .freed else m.ptr s }
  | [], m, _, _, _, _ => by simp [exec_nil]
  | s :: l, m, hn, hr, hp, hl => by
    rw [List.map_cons, exec_cons]
    have hs : Op.run m (.free s) = { m with ptr := fun t => if t = s ∧ m.ptr s = .live then .freed else m.ptr t } := by
      simp only [Op.run, if_pos (hr s (by simp)), Mem.release]
      rcases hl s (by simp) with h | h <;> simp [h, Mem.set]
    rw [hs, exec_free l _ (List.nodup_cons.1 hn).2]
    · apply Mem.ext'
      · intro t
        simp only [List.mem_cons]
        by_cases h2 : t = s
        · subst h2
          have : t ∉ l := (List.nodup_cons.1 hn).1
          simp [this]
        · simp [h2]
      · rfl
      · rfl
    · intro t ht
      have := hr t (by simp [ht])
      cases t with
      | var v => trivial
      | elem v k =>
        have hne : Slot.var v ≠ s := fun e => hp v k (by simp [ht]) (by simp [e])
        simp only [Mem.reach] at this ⊢
        rw [if_neg (fun h => hne h.1)]
        exact this
    · intro v k h1 h2
      exact hp v k (by simp [h1]) (by simp [h2])
    · intro t ht
      have hne : t ≠ s := fun e => (List.nodup_cons.1 hn).1 (e ▸ ht)
      simp only [hne, false_and, if_false]
      exact hl t (by simp [ht])

/-- Uses of blocks change nothing. -/
theorem exec_use : ∀ (l : List Slot) (m : Mem), (∀ s ∈ l, m.reach s ∧ m.ptr s = .live) → exec (l.map .use) m = m
  | [], m, _ => rfl
  | s :: l, m, h => by
    rw [List.map_cons, exec_cons]
    have : Op.run m (.use s) = m := by
      simp only [Op.run]
      rw [if_pos (h s (by simp))]
    rw [this]
    exact exec_use l m fun t ht => h t (by simp [ht])

theorem exec_uses (c : Cfg) (t : List (Var × Guard)) (m : Mem)
    (h : ∀ u ∈ t, u.2.holds c = true → m.ptr (.var u.1) = .live) : exec (uses c t) m = m := by
  have : uses c t = ((t.filter fun u => u.2.holds c).map fun u => Slot.var u.1).map Op.use := by
    simp [uses, List.map_map, Function.comp_def]
  rw [this]
  refine exec_use _ m ?_
  intro s hs
  obtain ⟨u, hu, rfl⟩ := List.mem_map.1 hs
  obtain ⟨h1, h2⟩ := List.mem_filter.1 hu
  exact ⟨trivial, h u h1 h2⟩

/-! ### What has gone wrong stays wrong -/

theorem bad_run (m : Mem) (o : Op) (h : m.bad = true) : (o.run m).bad = true := by
  cases o with
  | alloc s => simp only [Op.run]; split <;> simp [Mem.set, Mem.fail, h]
  | use s => simp only [Op.run]; split <;> simp [Mem.fail, h]
  | free s =>
    simp only [Op.run, Mem.release]
    split
    · split <;> simp [Mem.set, Mem.fail, h]
    · simp [Mem.fail]
  | freeSet s =>
    simp only [Op.run, Mem.release]
    split
    · split <;> simp [Mem.set, Mem.fail, h]
    · simp [Mem.fail]

theorem bad_exec : ∀ (l : List Op) (m : Mem), m.bad = true → (exec l m).bad = true
  | [], _, h => h
  | o :: l, m, h => bad_exec l _ (bad_run m o h)

theorem bad_exec_use (l : List Op) (m : Mem) (s : Slot) (hm : m.ptr s ≠ .live)
    (hl : ∀ o ∈ l, ∃ t, o = .use t) (hs : Op.use s ∈ l) : (exec l m).bad = true := by
  induction l generalizing m with
  | nil => simp at hs
  | cons o l ih =>
    rw [exec_cons]
    rcases List.mem_cons.1 hs with h | h
    · subst h
      refine bad_exec _ _ ?_
      simp only [Op.run]
      rw [if_neg (fun h => hm h.2)]
      rfl
    · obtain ⟨t, rfl⟩ := hl o (by simp)
      by_cases hb : (Op.run m (.use t)).bad = true
      · exact bad_exec _ _ hb
      · refine ih _ ?_ (fun o ho => hl o (by simp [ho])) h
        simp only [Op.run]
        split
        · exact hm
        · exact hm

theorem bad_uses (c : Cfg) (t : List (Var × Guard)) (m : Mem) (u : Var × Guard) (hu : u ∈ t)
    (hg : u.2.holds c = true) (hm : m.ptr (.var u.1) ≠ .live) : (exec (uses c t) m).bad = true := by
  refine bad_exec_use _ m (.var u.1) hm ?_ ?_
  · intro o ho
    simp only [uses, List.mem_map] at ho
    obtain ⟨w, _, rfl⟩ := ho
    exact ⟨_, rfl⟩
  · simp only [uses, List.mem_map]
    exact ⟨u, List.mem_filter.2 ⟨hu, hg⟩, rfl⟩

/-! ### Tables -/

theorem mem_kind_slots {c : Cfg} {v : Var} {k : Kind} {s : Slot} (h : s ∈ k.slots c v) :
    (k = .self ∧ s = .var v) ∨ (k ≠ .self ∧ ∃ i, s = .elem v i) := by
  cases k <;> simp only [Kind.slots, List.mem_cons, List.not_mem_nil, or_false, List.mem_map] at h
  · exact Or.inl ⟨rfl, h⟩
  all_goals
    obtain ⟨i, _, rfl⟩ := h
    exact Or.inr ⟨by decide, i, rfl⟩

theorem mem_slots {c : Cfg} {t : List Entry} {s : Slot} :
    s ∈ slots c t ↔ ∃ e ∈ t, e.guard.holds c = true ∧ s ∈ e.kind.slots c e.var := by
  simp only [slots, List.mem_flatMap, Entry.slots]
  constructor
  · rintro ⟨e, he, h⟩
    split at h
    · exact ⟨e, he, by assumption, h⟩
    · simp at h
  · rintro ⟨e, he, hg, h⟩
    exact ⟨e, he, by rw [if_pos hg]; exact h⟩

theorem var_mem_slots {c : Cfg} {t : List Entry} {v : Var} :
    Slot.var v ∈ slots c t ↔ ∃ g, ⟨v, g, .self⟩ ∈ t ∧ g.holds c = true := by
  rw [mem_slots]
  constructor
  · rintro ⟨⟨w, g, k⟩, he, hg, h⟩
    rcases mem_kind_slots h with ⟨hk, hs⟩ | ⟨_, i, hs⟩
    · simp only at hk hs
      subst hk
      simp only [Slot.var.injEq] at hs
      subst hs
      exact ⟨g, he, hg⟩
    · simp at hs
  · rintro ⟨g, he, hg⟩
    exact ⟨_, he, hg, by simp [Kind.slots]⟩

theorem kind_slots_nodup (c : Cfg) (v : Var) (k : Kind) : (k.slots c v).Nodup := by
  have inj : Function.Injective (Slot.elem v) := by
    intro a b h
    simpa using h
  cases k <;> simp only [Kind.slots]
  · simp
  · exact List.Nodup.map inj List.nodup_range
  · exact List.Nodup.map inj (List.nodup_range.filter _)
  · exact List.Nodup.map inj List.nodup_range

theorem entry_slots_nodup (c : Cfg) (e : Entry) : (e.slots c).Nodup := by
  simp only [Entry.slots]
  split
  · exact kind_slots_nodup c _ _
  · simp

/-- Variable, and whether the entry is about the variable itself: the key by which entries must differ. -/
def Entry.key (e : Entry) : Var × Bool := (e.var, decide (e.kind = .self))

theorem mem_entry_slots_key {c : Cfg} {e : Entry} {s : Slot} (h : s ∈ e.slots c) :
    (e.key.2 = true ∧ s = .var e.key.1) ∨ (e.key.2 = false ∧ ∃ i, s = .elem e.key.1 i) := by
  simp only [Entry.slots] at h
  split at h
  · rcases mem_kind_slots h with ⟨h1, h2⟩ | ⟨h1, h2⟩
    · exact Or.inl ⟨by simp [Entry.key, h1], h2⟩
    · exact Or.inr ⟨by simp [Entry.key, h1], h2⟩
  · simp at h

theorem slots_nodup (c : Cfg) : ∀ t : List Entry, (t.map Entry.key).Nodup → (slots c t).Nodup
  | [], _ => by simp [slots]
  | e :: t, h => by
    rw [List.map_cons, List.nodup_cons] at h
    have : slots c (e :: t) = e.slots c ++ slots c t := by simp [slots]
    rw [this, List.nodup_append']
    refine ⟨entry_slots_nodup c e, slots_nodup c t h.2, ?_⟩
    intro s hs hs'
    apply h.1
    simp only [slots, List.mem_flatMap] at hs'
    obtain ⟨f, hf, hs'⟩ := hs'
    refine List.mem_map.2 ⟨f, hf, ?_⟩
    rcases mem_entry_slots_key hs with ⟨h1, h2⟩ | ⟨h1, i, h2⟩ <;>
      rcases mem_entry_slots_key hs' with ⟨h3, h4⟩ | ⟨h3, j, h4⟩ <;>
      rw [h2] at h4 <;> simp only [Slot.var.injEq, Slot.elem.injEq, reduceCtorEq] at h4
    · exact Prod.ext h4.symm (by rw [h1, h3])
    · exact Prod.ext h4.1.symm (by rw [h1, h3])

/-- Arrays of pointers come before their elements. -/
def parentsFirst : List Entry → List Entry → Bool
  | _, [] => true
  | seen, e :: t =>
    (match e.kind with
      | .self => true
      | _ => seen.contains ⟨e.var, e.guard, .self⟩) && parentsFirst (e :: seen) t

/-- Arrays of pointers come after their elements. -/
def parentsLast : List Entry → Bool
  | [] => true
  | e :: t =>
    (match e.kind with
      | .self => true
      | _ => t.contains ⟨e.var, e.guard, .self⟩) && parentsLast t

theorem exec_alloc_table (c : Cfg) : ∀ (t seen : List Entry) (m : Mem), parentsFirst seen t = true →
    (∀ e ∈ seen, e.kind = .self → e.guard.holds c = true → m.ptr (.var e.var) = .live) →
    (slots c t).Nodup → (∀ s ∈ slots c t, m.ptr s ≠ .live) →
    exec ((slots c t).map .alloc) m = { m with ptr := fun s => if s ∈ slots c t then .live else m.ptr s }
  | [], _, m, _, _, _, _ => by simp [slots, exec_nil]
  | e :: t, seen, m, hp, hseen, hn, hl => by
    have hsplit : slots c (e :: t) = e.slots c ++ slots c t := by simp [slots]
    rw [hsplit] at hn hl ⊢
    rw [List.nodup_append'] at hn
    obtain ⟨hn1, hn2, hd⟩ := hn
    simp only [parentsFirst, Bool.and_eq_true] at hp
    rw [List.map_append, exec_append, exec_alloc (e.slots c) m hn1]
    · rw [exec_alloc_table c t (e :: seen) _ hp.2]
      · apply Mem.ext'
        · intro s
          simp only [List.mem_append]
          by_cases h1 : s ∈ slots c t <;> by_cases h2 : s ∈ e.slots c <;> simp [h1, h2]
        · rfl
        · rfl
      · intro f hf hk hg
        rcases List.mem_cons.1 hf with rfl | hf
        · have : Slot.var f.var ∈ f.slots c := by simp [Entry.slots, hg, hk, Kind.slots]
          simp [this]
        · simp only [hseen f hf hk hg, ite_self]
      · exact hn2
      · intro s hs
        have : s ∉ e.slots c := fun h => hd h hs
        simp only [if_neg this]
        exact hl s (by simp [hs])
    · intro s hs
      simp only [Entry.slots] at hs
      split at hs
      · rename_i hg
        rcases mem_kind_slots hs with ⟨h1, rfl⟩ | ⟨h1, i, rfl⟩
        · trivial
        · have : seen.contains ⟨e.var, e.guard, .self⟩ = true := by
            have := hp.1
            revert this
            cases hk : e.kind <;> simp_all
          exact hseen ⟨e.var, e.guard, .self⟩ (List.contains_iff_mem.1 this) rfl hg
      · simp at hs
    · intro s hs
      exact hl s (by simp [hs])

theorem parentsLast_mem : ∀ (t : List Entry), parentsLast t = true → ∀ e ∈ t, e.kind ≠ .self →
    ⟨e.var, e.guard, .self⟩ ∈ t
  | [], _, e, he, _ => by simp at he
  | f :: t, h, e, he, hk => by
    simp only [parentsLast, Bool.and_eq_true] at h
    rcases List.mem_cons.1 he with rfl | he
    · have : t.contains ⟨e.var, e.guard, .self⟩ = true := by
        have := h.1
        revert this
        cases hk' : e.kind <;> simp_all
      exact List.mem_cons_of_mem _ (List.contains_iff_mem.1 this)
    · exact List.mem_cons_of_mem _ (parentsLast_mem t h.2 e he hk)

theorem exec_free_table (c : Cfg) : ∀ (t : List Entry) (m : Mem), parentsLast t = true →
    (∀ e ∈ t, e.kind ≠ .self → e.guard.holds c = true → m.ptr (.var e.var) = .live) →
    (slots c t).Nodup → (∀ s ∈ slots c t, m.ptr s = .live ∨ m.ptr s = .null) →
    exec ((slots c t).map .free) m
      = { m with ptr := fun s => if s ∈ slots c t ∧ m.ptr s = .live then .freed else m.ptr s }
  | [], m, _, _, _, _ => by simp [slots, exec_nil]
  | e :: t, m, hp, hpar, hn, hl => by
    have hsplit : slots c (e :: t) = e.slots c ++ slots c t := by simp [slots]
    have hlast := parentsLast_mem (e :: t) hp
    rw [hsplit] at hn hl ⊢
    rw [List.nodup_append'] at hn
    obtain ⟨hn1, hn2, hd⟩ := hn
    simp only [parentsLast, Bool.and_eq_true] at hp
    rw [List.map_append, exec_append, exec_free (e.slots c) m hn1]
    · rw [exec_free_table c t _ hp.2]
      · apply Mem.ext'
        · intro s
          simp only [List.mem_append]
          by_cases h1 : s ∈ slots c t <;> by_cases h2 : s ∈ e.slots c
          · exact absurd h1 (fun h => hd h2 h)
          · simp [h1, h2]
          · simp [h1, h2]
          · simp [h1, h2]
        · rfl
        · rfl
      · intro f hf hk hg
        have h1 := hpar f (by simp [hf]) hk hg
        have h2 : Slot.var f.var ∈ slots c t := var_mem_slots.2 ⟨f.guard, parentsLast_mem t hp.2 f hf hk, hg⟩
        have h3 : Slot.var f.var ∉ e.slots c := fun h => hd h h2
        simp [h3, h1]
      · exact hn2
      · intro s hs
        have : s ∉ e.slots c := fun h => hd h hs
        simp only [this, false_and, if_false]
        exact hl s (by simp [hs])
    · intro s hs
      have hs0 := hs
      simp only [Entry.slots] at hs
      split at hs
      · rename_i hg
        rcases mem_kind_slots hs with ⟨h1, rfl⟩ | ⟨h1, i, rfl⟩
        · trivial
        · exact hpar e (by simp) h1 hg
      · simp at hs
    · intro v k h1 h2
      rcases mem_entry_slots_key h1 with ⟨h3, h4⟩ | ⟨h3, i, h4⟩
      · simp at h4
      · rcases mem_entry_slots_key h2 with ⟨h5, h6⟩ | ⟨h5, j, h6⟩
        · simp [h3] at h5
        · simp at h6
    · intro s hs
      exact hl s (by simp [hs])

/-! ### Checks by bit masks -/

/-- Number of a variable. -/
def Var.code : Var → Nat
  | .mesh v => 16 * v.ctorIdx
  | .part v => 16 * v.ctorIdx + 1
  | .topo b v => 16 * (2 * v.ctorIdx + b.toNat) + 2
  | .chain b v => 16 * (2 * v.ctorIdx + b.toNat) + 3
  | .model v => 16 * v.ctorIdx + 4
  | .nmodel v => 16 * v.ctorIdx + 5
  | .sys m v => 16 * (16 * m.ctorIdx + v.ctorIdx) + 6
  | .flux => 7
  | .stress => 8
  | .outputName => 9
  | .particleName => 10
  | .factor => 11

theorem sysVar_lt (v : SysVar) : v.ctorIdx < 16 := by cases v <;> decide

theorem Var.code_injective : Function.Injective Var.code := by
  have i1 : Function.Injective MeshVar.ctorIdx := Function.LeftInverse.injective MeshVar.ofNat_ctorIdx
  have i2 : Function.Injective PartVar.ctorIdx := Function.LeftInverse.injective PartVar.ofNat_ctorIdx
  have i3 : Function.Injective TopoVar.ctorIdx := Function.LeftInverse.injective TopoVar.ofNat_ctorIdx
  have i4 : Function.Injective ChainVar.ctorIdx := Function.LeftInverse.injective ChainVar.ofNat_ctorIdx
  have i5 : Function.Injective ModelVar.ctorIdx := Function.LeftInverse.injective ModelVar.ofNat_ctorIdx
  have i6 : Function.Injective NVar.ctorIdx := Function.LeftInverse.injective NVar.ofNat_ctorIdx
  have i7 : Function.Injective System.ctorIdx := Function.LeftInverse.injective System.ofNat_ctorIdx
  have i8 : Function.Injective SysVar.ctorIdx := Function.LeftInverse.injective SysVar.ofNat_ctorIdx
  intro a b h
  cases a <;> cases b <;> simp only [Var.code] at h <;> try (exfalso; omega)
  · exact congrArg _ (i1 (by omega))
  · exact congrArg _ (i2 (by omega))
  · rename_i b1 v1 b2 v2
    have hb : b1 = b2 := by
      cases b1 <;> cases b2 <;> simp only [Bool.toNat_false, Bool.toNat_true] at h <;> first | rfl | (exfalso; omega)
    subst hb
    exact congrArg _ (i3 (by omega))
  · rename_i b1 v1 b2 v2
    have hb : b1 = b2 := by
      cases b1 <;> cases b2 <;> simp only [Bool.toNat_false, Bool.toNat_true] at h <;> first | rfl | (exfalso; omega)
    subst hb
    exact congrArg _ (i4 (by omega))
  · exact congrArg _ (i5 (by omega))
  · exact congrArg _ (i6 (by omega))
  · rename_i m1 v1 m2 v2
    have h1 := sysVar_lt v1
    have h2 := sysVar_lt v2
    rw [i7 (a₁ := m1) (a₂ := m2) (by omega), i8 (a₁ := v1) (a₂ := v2) (by omega)]
  all_goals rfl

/-- Number of a key. -/
def keyCode (k : Var × Bool) : Nat := 2 * k.1.code + k.2.toNat

theorem keyCode_injective : Function.Injective keyCode := by
  rintro ⟨v, b⟩ ⟨w, d⟩ h
  simp only [keyCode] at h
  cases b <;> cases d <;> simp only [Bool.toNat_false, Bool.toNat_true] at h <;> try (exfalso; omega)
  all_goals rw [Var.code_injective (a₁ := v) (a₂ := w) (by omega)]

/-- Number of an entry. -/
def Entry.code (e : Entry) : Nat := 16 * (4 * e.var.code + e.kind.ctorIdx) + e.guard.ctorIdx

theorem Entry.code_injective : Function.Injective Entry.code := by
  have ik : Function.Injective Kind.ctorIdx := Function.LeftInverse.injective Kind.ofNat_ctorIdx
  have ig : Function.Injective Guard.ctorIdx := Function.LeftInverse.injective Guard.ofNat_ctorIdx
  rintro ⟨v, g, k⟩ ⟨w, g', k'⟩ h
  simp only [Entry.code] at h
  have h1 : k.ctorIdx < 4 := by cases k <;> decide
  have h2 : k'.ctorIdx < 4 := by cases k' <;> decide
  have h3 : g.ctorIdx < 16 := by cases g <;> decide
  have h4 : g'.ctorIdx < 16 := by cases g' <;> decide
  rw [Var.code_injective (a₁ := v) (a₂ := w) (by omega), ik (a₁ := k) (a₂ := k') (by omega),
    ig (a₁ := g) (a₂ := g') (by omega)]

/-- Mask of a list of numbers. -/
def mask : List Nat → Nat → Nat
  | [], m => m
  | x :: xs, m => mask xs (m ||| 2 ^ x)

theorem testBit_mask : ∀ (l : List Nat) (m n : Nat), (mask l m).testBit n = true ↔ n ∈ l ∨ m.testBit n = true
  | [], m, n => by simp [mask]
  | x :: xs, m, n => by
    rw [mask, testBit_mask xs]
    simp only [Nat.testBit_or, Nat.testBit_two_pow, Bool.or_eq_true, decide_eq_true_eq, List.mem_cons]
    constructor
    · rintro (h | h | h)
      · exact Or.inl (Or.inr h)
      · exact Or.inr h
      · exact Or.inl (Or.inl h.symm)
    · rintro ((h | h) | h)
      · exact Or.inr (Or.inr h.symm)
      · exact Or.inl h
      · exact Or.inr (Or.inl h)

/-- No number twice. -/
def noRepeat : List Nat → Nat → Bool
  | [], _ => true
  | x :: xs, m => !m.testBit x && noRepeat xs (m ||| 2 ^ x)

theorem noRepeat_spec : ∀ (l : List Nat) (m : Nat), noRepeat l m = true → l.Nodup ∧ ∀ n ∈ l, m.testBit n = false
  | [], _, _ => by simp
  | x :: xs, m, h => by
    simp only [noRepeat, Bool.and_eq_true, Bool.not_eq_true'] at h
    obtain ⟨h1, h2⟩ := noRepeat_spec xs _ h.2
    refine ⟨List.nodup_cons.2 ⟨fun hx => ?_, h1⟩, ?_⟩
    · have := h2 x hx
      simp [Nat.testBit_or, Nat.testBit_two_pow] at this
    · intro n hn
      rcases List.mem_cons.1 hn with rfl | hn
      · exact h.1
      · have := h2 n hn
        simp only [Nat.testBit_or, Bool.or_eq_false_iff] at this
        exact this.1

theorem keys_nodup_of (t : List Entry) (h : noRepeat ((t.map Entry.key).map keyCode) 0 = true) :
    (t.map Entry.key).Nodup :=
  List.Nodup.of_map _ (noRepeat_spec _ _ h).1

theorem mem_of_mask (t : List Entry) (e : Entry) (h : (mask (t.map Entry.code) 0).testBit e.code = true) : e ∈ t := by
  rw [testBit_mask] at h
  rcases h with h | h
  · obtain ⟨f, hf, he⟩ := List.mem_map.1 h
    rwa [← Entry.code_injective he]
  · simp at h

end Verif.Heap
