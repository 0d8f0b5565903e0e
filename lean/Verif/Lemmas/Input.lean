import Verif.Model.Input
import Verif.Spec.Input
import Mathlib.Data.List.TakeWhile
import Mathlib.Data.List.Basic

/-
What `fgets`, the blank search, the comparison and the equal-sign search do on a usual line.
-/
namespace Verif.Input
open Spec

theorem bufmax_eq : bufmax = 1000 := rfl

theorem fgets_line (l rest : List Char) (n : Nat) (hn : '\n' ∉ l) (hl : l.length < n) :
    fgets n (l ++ '\n' :: rest) = (l ++ ['\n'], rest, false) := by
  induction l generalizing n with
  | nil =>
    obtain ⟨n, rfl⟩ : ∃ m, n = m + 1 := ⟨n - 1, by simp at hl; omega⟩
    simp [fgets]
  | cons c l ih =>
    obtain ⟨n, rfl⟩ : ∃ m, n = m + 1 := ⟨n - 1, by simp at hl; omega⟩
    have h1 : c ≠ '\n' := fun h => hn (by simp [h])
    have h2 := ih n (fun h => hn (by simp [h])) (by simpa using hl)
    simp [fgets, h1, h2]

theorem fgets_nil (n : Nat) (hn : 0 < n) : fgets n [] = ([], [], true) := by
  obtain ⟨n, rfl⟩ : ∃ m, n = m + 1 := ⟨n - 1, by omega⟩
  rfl

/-- A read that does not hit the end of the file consumes at least one character. -/
theorem fgets_length (n : Nat) (r : List Char) (hn : 0 < n) (h : (fgets n r).2.2 = false) :
    (fgets n r).2.1.length < r.length := by
  induction r generalizing n with
  | nil => rw [fgets_nil n hn] at h; simp at h
  | cons c r ih =>
    obtain ⟨n, rfl⟩ : ∃ m, n = m + 1 := ⟨n - 1, by omega⟩
    by_cases hc : c = '\n'
    · simp [fgets, hc]
    · simp only [fgets, hc, if_false] at h ⊢
      rcases Nat.eq_zero_or_pos n with h0 | h0
      · subst h0; simp [fgets]
      · have := ih n h0 h; simp; omega

theorem text_cons (l : List Char) (ls : List (List Char)) :
    text (l :: ls) = l ++ '\n' :: text ls := by simp [text]

theorem load_lt (buf : Nat → Char) (chunk : List Char) (i : Nat) (h : i < chunk.length) :
    load buf chunk i = chunk[i] := by
  have h0 : chunk ≠ [] := by rintro rfl; simp at h
  simp [load, h0, h]

theorem load_end (buf : Nat → Char) (chunk : List Char) (h0 : chunk ≠ []) :
    load buf chunk chunk.length = NUL := by simp [load, h0]

theorem load_gt (buf : Nat → Char) (chunk : List Char) (i : Nat) (h0 : chunk ≠ [])
    (h : chunk.length < i) : load buf chunk i = buf i := by
  have h1 : ¬ i < chunk.length := by omega
  have h2 : ¬ i = chunk.length := by omega
  simp [load, h0, h1, h2]

/-- The first occurrence of `c` in a loaded line, when the line has one. -/
theorem firstIdx_load (c : Char) (buf : Nat → Char) (chunk : List Char) (n : Nat)
    (hc : c ∈ chunk) (hn : chunk.length ≤ n) :
    firstIdx c (load buf chunk) n = some (chunk.takeWhile fun d => decide (d ≠ c)).length := by
  unfold firstIdx
  rw [List.find?_range_eq_some]
  set p : Char → Bool := fun d => decide (d ≠ c) with hp
  have hlt : (chunk.takeWhile p).length < chunk.length := by
    by_contra h
    have h1 : (chunk.takeWhile p).length = chunk.length :=
      Nat.le_antisymm (List.takeWhile_prefix p).length_le (by omega)
    have h2 : chunk.takeWhile p = chunk := (List.takeWhile_prefix p).eq_of_length h1
    have h3 := List.mem_takeWhile_imp (h2.symm ▸ hc)
    simp [hp] at h3
  refine ⟨?_, by simp; omega, ?_⟩
  · rw [load_lt _ _ _ hlt]
    have h1 := List.dropWhile_append_of_pos (p := p) (l₁ := []) (l₂ := chunk) (by simp)
    have h2 : chunk.dropWhile p ≠ [] := by
      intro h3
      have := congrArg List.length (List.takeWhile_append_dropWhile (p := p) (l := chunk))
      rw [h3] at this; simp at this; omega
    have h3 := List.head_dropWhile_not p h2
    have h4 : (chunk.dropWhile p).head h2 = chunk[(chunk.takeWhile p).length] := by
      rw [List.head_eq_getElem]
      have h5 : chunk = chunk.takeWhile p ++ chunk.dropWhile p :=
        (List.takeWhile_append_dropWhile).symm
      have h6 : chunk[(chunk.takeWhile p).length]
          = (chunk.takeWhile p ++ chunk.dropWhile p)[(chunk.takeWhile p).length]'(by
              rw [← h5]; exact hlt) := by
        congr 1
      rw [h6, List.getElem_append_right (by omega)]
      simp
    rw [h4] at h3
    simpa [hp] using h3
  · intro j hj
    rw [load_lt _ _ _ (by omega)]
    have h1 : chunk[j]'(by omega) = (chunk.takeWhile p)[j] := by
      rw [List.IsPrefix.getElem (List.takeWhile_prefix p) hj]
    have h2 := List.mem_takeWhile_imp (List.getElem_mem hj)
    rw [← h1] at h2
    simpa [hp] using h2

theorem takeWhile_all {α : Type*} (p : α → Bool) (l : List α) (h : ∀ x ∈ l, p x = true) :
    l.takeWhile p = l := by
  induction l with
  | nil => rfl
  | cons a l ih => simp [h a (by simp), ih (fun x hx => h x (by simp [hx]))]

theorem map_load_range (buf : Nat → Char) (chunk : List Char) (n : Nat) (hn : n ≤ chunk.length) :
    (List.range n).map (load buf chunk) = chunk.take n := by
  apply List.ext_getElem
  · simp [hn]
  · intro i h1 h2
    simp at h1
    simp [load_lt buf chunk i (by omega)]

theorem cstr_load (buf : Nat → Char) (chunk : List Char) (n : Nat) (hn : n ≤ chunk.length)
    (h0 : NUL ∉ chunk) : cstr (load buf chunk) n = chunk.take n := by
  unfold cstr
  rw [map_load_range _ _ _ hn]
  apply takeWhile_all
  intro x hx
  have := List.mem_of_mem_take hx
  simp
  rintro rfl
  exact h0 this

theorem cstrFrom_load (buf : Nat → Char) (chunk : List Char) (s n : Nat) (hs : s ≤ chunk.length)
    (hn : chunk.length < n) (hc : chunk ≠ []) (h0 : NUL ∉ chunk) :
    cstrFrom (load buf chunk) s n = chunk.drop s := by
  unfold cstrFrom
  have hsplit : List.range' s (n - s)
      = List.range' s (chunk.length - s) ++ (chunk.length :: List.range' (chunk.length + 1)
          (n - chunk.length - 1)) := by
    have h1 : n - s = (chunk.length - s) + ((n - chunk.length - 1) + 1) := by omega
    rw [h1, ← List.range'_append_1, show s + (chunk.length - s) = chunk.length from by omega,
      List.range'_succ]
  rw [hsplit, List.map_append, List.map_cons, load_end _ _ hc]
  have h2 : (List.range' s (chunk.length - s)).map (load buf chunk) = chunk.drop s := by
    apply List.ext_getElem
    · simp
    · intro i h1 h2
      simp at h1 h2
      simp [load_lt buf chunk (s + i) (by omega)]
  rw [h2, List.takeWhile_append_of_pos]
  · simp
  · intro x hx
    have := List.mem_of_mem_drop hx
    simp
    rintro rfl
    exact h0 this

theorem dropWhile_eq_drop {α : Type*} (p : α → Bool) (l : List α) :
    l.dropWhile p = l.drop (l.takeWhile p).length := by
  induction l with
  | nil => rfl
  | cons a l ih =>
    by_cases h : p a = true
    · simp [h, ih]
    · simp [h]

/-- Does the buffer hold a blank behind its second character? -/
def HasBlank (buf : Nat → Char) : Prop := ∃ i, 2 ≤ i ∧ i < bufmax ∧ buf i = ' '

theorem usual_chunk {n : Nat} {l : List Char} (h : Usual n l) :
    NUL ∉ l ++ ['\n'] ∧ l ++ ['\n'] ≠ [] ∧ (l ++ ['\n']).length = l.length + 1 := by
  refine ⟨?_, by simp, by simp⟩
  have := h.2.2.1
  simp only [List.mem_append, List.mem_singleton, not_or]
  exact ⟨this, by decide⟩

theorem hasBlank_load {n : Nat} {l : List Char} (hn : n ≤ 998) (h : Usual n l) (buf : Nat → Char)
    (hb : HasBlank buf ∨ l ≠ []) : HasBlank (load buf (l ++ ['\n'])) := by
  rcases h.2.2.2 with he | ⟨i, hi, hs⟩
  · subst he
    rcases hb with ⟨i, h1, h2, h3⟩ | hb
    · refine ⟨i, h1, h2, ?_⟩
      rw [load_gt _ _ _ (by simp) (by simp; omega)]
      exact h3
    · exact absurd rfl hb
  · obtain ⟨h1, h2⟩ := List.getElem?_eq_some_iff.mp hs
    have h4 := h.1
    refine ⟨i, hi, ?_, ?_⟩
    · show i < 1000
      omega
    · rw [load_lt _ _ _ (by simp; omega), List.getElem_append_left h1, h2]

/-- On a usual line the key the code compares is the key of the line (for an empty line it is the
newline character). -/
theorem key_load {n : Nat} {l : List Char} (hn : n ≤ 998) (h : Usual n l) (buf : Nat → Char)
    (hb : HasBlank buf ∨ l ≠ []) :
    ∃ m, firstIdx ' ' (load buf (l ++ ['\n'])) bufmax = some m ∧
      cstr (load buf (l ++ ['\n'])) m = if l = [] then ['\n'] else key l := by
  obtain ⟨hz, hne, hlen⟩ := usual_chunk h
  have h4 := h.1
  rcases h.2.2.2 with he | ⟨i, hi, hs⟩
  · subst he
    obtain ⟨i, h1, h2, h3⟩ := hasBlank_load hn h buf hb
    cases hf : firstIdx ' ' (load buf ([] ++ ['\n'])) bufmax with
    | none =>
      unfold firstIdx at hf
      rw [List.find?_eq_none] at hf
      exact absurd (by simpa using h3) (by simpa using hf i (by simpa using h2))
    | some m =>
      refine ⟨m, rfl, ?_⟩
      unfold firstIdx at hf
      rw [List.find?_range_eq_some] at hf
      have hm2 : 2 ≤ m := by
        by_contra hlt
        have : m = 0 ∨ m = 1 := by omega
        rcases this with rfl | rfl
        · have := hf.1
          simp [load] at this
        · have := hf.1
          simp [load, NUL] at this
      obtain ⟨k, rfl⟩ : ∃ k, m = 1 + (1 + k) := ⟨m - 2, by omega⟩
      unfold cstr
      rw [List.range_eq_range', ← List.range'_append_1, ← List.range'_append_1]
      simp [load, NUL]
  · have hmem : ' ' ∈ l := List.mem_of_getElem? hs
    have hl : l ≠ [] := by rintro rfl; simp at hmem
    have hpre : ((l ++ ['\n']).takeWhile fun d => decide (d ≠ ' ')) = key l := by
      unfold key
      rw [List.takeWhile_append]
      split
      · rename_i hh
        exfalso
        have h2 : l.takeWhile (fun d => decide (d ≠ ' ')) = l :=
          (List.takeWhile_prefix _).eq_of_length hh
        have h3 := List.mem_takeWhile_imp (h2.symm ▸ hmem)
        simp at h3
      · rfl
    refine ⟨_, firstIdx_load ' ' buf _ bufmax (by simp [hmem]) (by
      rw [hlen]; show l.length + 1 ≤ 1000; omega), ?_⟩
    rw [cstr_load _ _ _ (List.takeWhile_prefix _).length_le hz, if_neg hl, hpre]
    have := (List.takeWhile_prefix (l := l ++ ['\n']) (fun d => decide (d ≠ ' ')))
    rw [hpre] at this
    exact (List.prefix_iff_eq_take.mp this).symm

/-- On a usual line with an equal sign, the value comes from the line itself. -/
theorem eq_load {n : Nat} {l : List Char} (hn : n ≤ 998) (h : Usual n l) (buf : Nat → Char)
    (he : '=' ∈ l) :
    ∃ k, firstIdx '=' (load buf (l ++ ['\n'])) bufmax = some k ∧
      load buf (l ++ ['\n']) 0 ≠ NUL ∧
      cstrFrom (load buf (l ++ ['\n'])) (k + 1) bufmax = valueText l := by
  obtain ⟨hz, hne, hlen⟩ := usual_chunk h
  have h4 := h.1
  have hb : (l ++ ['\n']).length < bufmax := by rw [hlen]; show l.length + 1 < 1000; omega
  have hpre : ((l ++ ['\n']).takeWhile fun d => decide (d ≠ '='))
      = l.takeWhile fun d => decide (d ≠ '=') := by
    rw [List.takeWhile_append]
    split
    · rename_i hh
      exfalso
      have h2 : l.takeWhile (fun d => decide (d ≠ '=')) = l :=
        (List.takeWhile_prefix _).eq_of_length hh
      have h3 := List.mem_takeWhile_imp (h2.symm ▸ he)
      simp at h3
    · rfl
  have hlt : (l.takeWhile fun d => decide (d ≠ '=')).length < l.length := by
    by_contra hge
    have h2 : l.takeWhile (fun d => decide (d ≠ '=')) = l :=
      (List.takeWhile_prefix _).eq_of_length
        (Nat.le_antisymm (List.takeWhile_prefix _).length_le (by omega))
    have h3 := List.mem_takeWhile_imp (h2.symm ▸ he)
    simp at h3
  refine ⟨_, firstIdx_load '=' buf _ bufmax (by simp [he]) (by omega), ?_, ?_⟩
  · rw [load_lt _ _ _ (by rw [hlen]; omega)]
    intro h0
    exact hz (h0 ▸ List.getElem_mem _)
  · rw [hpre, cstrFrom_load _ _ _ _ (by rw [hlen]; omega) hb hne hz]
    unfold valueText
    have hd : l.dropWhile (fun d => decide (d ≠ '='))
        = l.drop (l.takeWhile fun d => decide (d ≠ '=')).length := dropWhile_eq_drop _ _
    rw [hd, List.drop_drop, List.drop_append_of_le_length (by omega)]

theorem afterEq_load {α : Type*} (parse : List Char → α) {n : Nat} {l : List Char} (hn : n ≤ 998)
    (h : Usual n l) (buf : Nat → Char) (he : '=' ∈ l) :
    afterEq parse (load buf (l ++ ['\n'])) = some (parse (valueText l)) := by
  obtain ⟨k, h1, h2, h3⟩ := eq_load hn h buf he
  unfold afterEq
  rw [h1]
  show (if load buf (l ++ ['\n']) 0 ≠ NUL then _ else none) = _
  rw [if_pos h2, h3]

end Verif.Input
