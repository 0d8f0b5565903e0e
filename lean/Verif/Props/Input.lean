import Verif.Lemmas.Input

/-
C42-C44: reading parameters from the text input file.

C42 (numeric parameters) and C43 (material parameters) hold for files made of usual
newline-terminated lines, whatever was read before and whatever the uninitialised line buffers
contain.  Outside these files they fail, with witnesses below: the last line of a file without
final newline is ignored, and a parameter line without equal sign takes the value of an earlier,
longer line.  C44 (text parameters) fails: the reader neither starts at the beginning of the file
nor compares the whole key; what holds is stated as `readChar_partial`.
-/
namespace Verif.Input
open Spec

variable {α : Type*}

/-- What the user asked for as an outcome: the value if the file has the key, else the default. -/
def expected : Option α → Out α
  | some v => .value v
  | none => .dflt

theorem text_length (lines : List (List Char)) : lines.length ≤ (text lines).length := by
  induction lines with
  | nil => simp [text]
  | cons l ls ih => rw [text_cons]; simp; omega

theorem key_ne {l name : List Char} (h1 : name ≠ []) (h2 : '\n' ∉ name) :
    (if l = [] then ['\n'] else key l) = name ↔ key l = name := by
  by_cases h : l = []
  · subst h
    simp only [if_true, key, List.takeWhile_nil]
    constructor
    · rintro rfl; simp at h2
    · rintro rfl; exact absurd rfl h1
  · rw [if_neg h]

theorem scanNum_spec (parse : List Char → α) (name : List Char) (h1 : name ≠ [])
    (h2 : '\n' ∉ name) (lines : List (List Char)) (hu : ∀ l ∈ lines, Usual 998 l)
    (he : ∀ l ∈ lines, key l = name → '=' ∈ l) (buf : Nat → Char)
    (hb : HasBlank buf ∨ lines.head? ≠ some []) (fuel : Nat) (hf : lines.length < fuel) :
    scanNum parse name fuel buf (text lines) = expected (lookup parse name lines) := by
  induction lines generalizing buf fuel with
  | nil =>
    obtain ⟨fuel, rfl⟩ : ∃ m, fuel = m + 1 := ⟨fuel - 1, by omega⟩
    rfl
  | cons l ls ih =>
    obtain ⟨fuel, rfl⟩ : ∃ m, fuel = m + 1 := ⟨fuel - 1, by omega⟩
    have hul := hu l (by simp)
    have hbl : HasBlank buf ∨ l ≠ [] := by
      rcases hb with h | h
      · exact Or.inl h
      · exact Or.inr (fun e => h (by simp [e]))
    obtain ⟨m, hm, hk⟩ := key_load (by omega) hul buf hbl
    have hfg : fgets (bufmax - 1) (text (l :: ls)) = (l ++ ['\n'], text ls, false) := by
      rw [text_cons]
      exact fgets_line l (text ls) _ hul.2.1 (by have := hul.1; rw [bufmax_eq]; omega)
    have hnext := ih (fun x hx => hu x (by simp [hx])) (fun x hx => he x (by simp [hx]))
      (load buf (l ++ ['\n'])) (Or.inl (hasBlank_load (by omega) hul buf hbl)) fuel
      (by simp at hf; omega)
    unfold scanNum
    rw [hfg]
    simp only [hm, hk, Bool.false_eq_true, if_false, key_ne h1 h2]
    by_cases hkey : key l = name
    · rw [if_pos hkey, afterEq_load parse (by omega) hul buf (he l (by simp) hkey)]
      simp [lookup, expected, hkey]
    · rw [if_neg hkey, hnext]
      simp [lookup, hkey]

/-- C42. In every file of usual newline-terminated lines whose lines with key `name` contain an
equal sign, `ReadInt2`/`ReadDou2` return the value on the first line with exactly that key, or
the default when there is none.  Neither the position left by earlier reads nor the content of the
uninitialised buffer matters (the buffer only when the file starts with an empty line), and the
file is left rewound. -/
theorem readNum_spec (parse : List Char → α) (name : List Char) (h1 : name ≠ [])
    (h2 : '\n' ∉ name) (lines : List (List Char)) (hu : ∀ l ∈ lines, Usual 998 l)
    (he : ∀ l ∈ lines, key l = name → '=' ∈ l) (junk : Nat → Char)
    (hb : HasBlank junk ∨ lines.head? ≠ some []) (pos : List Char) :
    readNum parse name junk (text lines) pos
      = (expected (lookup parse name lines), text lines) := by
  unfold readNum
  rw [scanNum_spec parse name h1 h2 lines hu he junk hb _ (by have := text_length lines; omega)]

/-- C42. Two reads of the same parameter give the same answer whatever was read in between. -/
theorem readNum_history_independent (parse : List Char → α) (name : List Char)
    (junk : Nat → Char) (file pos₁ pos₂ : List Char) :
    readNum parse name junk file pos₁ = readNum parse name junk file pos₂ := rfl

theorem scanNum_ends (parse : List Char → α) (name : List Char) (fuel : Nat) (buf : Nat → Char)
    (rest : List Char) (h : rest.length < fuel) : scanNum parse name fuel buf rest ≠ .loop := by
  induction fuel generalizing buf rest with
  | zero => omega
  | succ fuel ih =>
    unfold scanNum
    by_cases he : (fgets (bufmax - 1) rest).2.2 = true
    · simp [he]
    · have hlt := fgets_length (bufmax - 1) rest (by rw [bufmax_eq]; decide) (by simpa using he)
      have hi := fun b => ih b (fgets (bufmax - 1) rest).2.1 (by omega)
      simp only [he, Bool.false_eq_true, if_false]
      split
      · simp
      · split
        · split
          · simp
          · exact hi _
        · exact hi _

/-- C42. Reading a numeric parameter ends for every file whatsoever. -/
theorem readNum_ends (parse : List Char → α) (name : List Char) (junk : Nat → Char)
    (file pos : List Char) : (readNum parse name junk file pos).1 ≠ .loop :=
  scanNum_ends parse name _ junk file (by omega)

/-- C42, limit: a last line that is not ended by a newline is ignored, even if it is the only line
and sets the parameter. -/
theorem readNum_last_line_needs_newline (parse : List Char → α) (name l : List Char)
    (junk : Nat → Char) (pos : List Char) (hn : '\n' ∉ l) (hl : l.length < 999) :
    readNum parse name junk l pos = (.dflt, l) := by
  have h : ∀ (n : Nat) (l : List Char), '\n' ∉ l → l.length < n → (fgets n l).2.2 = true := by
    intro n l
    induction l generalizing n with
    | nil =>
      intro _ h
      rw [fgets_nil n (by simpa using h)]
    | cons c l ih =>
      intro h1 h2
      obtain ⟨n, rfl⟩ : ∃ m, n = m + 1 := ⟨n - 1, by simp at h2; omega⟩
      have hc : c ≠ '\n' := fun h => h1 (by simp [h])
      simp only [fgets, hc, if_false]
      exact ih n (fun h => h1 (by simp [h])) (by simpa using h2)
  unfold readNum scanNum
  simp only [h (bufmax - 1) l hn (by rw [bufmax_eq]; exact hl), if_true]

example : '\n' ∉ "Nx = 5".toList ∧ "Nx = 5".toList.length < 999 := by decide

/-- C42, limit: a line with the key but without equal sign yields the value of an earlier, longer
line, because the search covers leftovers in the buffer (InputOutput.c:1949-1951). -/
theorem readNum_stale_value :
    (readNum id "Nx".toList (fun _ => NUL)
      (text ["penalty_x = 7".toList, "Nx ".toList, "Nz = 3".toList]) []).1
      = .value " 7\n".toList := by decide +kernel

/-- Non-vacuity for `readNum_spec`: a file with an empty line, a key that is a prefix of another
key and a repeated key; the first exact match counts. -/
def sampleFile : List (List Char) :=
  ["Nt = 1".toList, [], "Nx_part = 4".toList, "Nx = 21".toList, "Nx = 99".toList]

theorem usual_of {n : Nat} {l : List Char}
    (h : (decide (l.length ≤ n) && decide ('\n' ∉ l) && decide (Char.ofNat 0 ∉ l) &&
      (decide (l = []) || (l.drop 2).contains ' ')) = true) : Usual n l := by
  simp only [Bool.and_eq_true, decide_eq_true_eq, Bool.or_eq_true] at h
  refine ⟨h.1.1.1, h.1.1.2, h.1.2, ?_⟩
  rcases h.2 with h' | h'
  · exact Or.inl h'
  · right
    have hm : ' ' ∈ l.drop 2 := by simpa using h'
    obtain ⟨i, hi, e⟩ := List.getElem_of_mem hm
    refine ⟨2 + i, by omega, ?_⟩
    rw [← List.getElem?_drop]
    exact List.getElem?_eq_some_iff.mpr ⟨hi, e⟩

theorem sampleFile_usual : ∀ l ∈ sampleFile, Usual 998 l := by
  intro l hl
  simp only [sampleFile, List.mem_cons, List.not_mem_nil, or_false] at hl
  rcases hl with rfl | rfl | rfl | rfl | rfl <;> exact usual_of (by decide)

example : (∀ l ∈ sampleFile, Usual 998 l) ∧
    (∀ l ∈ sampleFile, key l = "Nx".toList → '=' ∈ l) ∧
    sampleFile.head? ≠ some [] ∧
    lookup id "Nx".toList sampleFile = some " 21\n".toList ∧
    lookup id "Nz".toList sampleFile = none :=
  ⟨sampleFile_usual, by decide, by decide, by decide, by decide⟩

/-! ### C43: material parameters -/

/-- The lines of a file behind the first line `ID = i`, up to the end of the file. -/
def behindId (atoi : List Char → Int) (i : Int) : List (List Char) → Option (List (List Char))
  | [] => none
  | l :: ls =>
    if key l = ['I', 'D'] ∧ atoi (valueText l) = i then some ls else behindId atoi i ls

theorem block_eq (atoi : List Char → Int) (i : Int) (lines : List (List Char)) :
    block atoi i lines
      = (behindId atoi i lines).map (·.takeWhile fun l' => decide (key l' ≠ ['I', 'D'])) := by
  induction lines with
  | nil => rfl
  | cons l ls ih =>
    by_cases h : key l = ['I', 'D'] ∧ atoi (valueText l) = i
    · simp [block, behindId, h]
    · simp only [block, behindId, h, if_false]; exact ih

theorem ID_ok : (['I', 'D'] : List Char) ≠ [] ∧ '\n' ∉ (['I', 'D'] : List Char) := by decide

/-- Before the first line of a block is read the phase buffer must be harmless; afterwards it
holds a line of the block. -/
def Harmless (name : List Char) (buf : Nat → Char) : Prop :=
  ∃ m, firstIdx ' ' buf bufmax = some m ∧ cstr buf m ≠ ['I', 'D'] ∧ cstr buf m ≠ name

theorem scanPhase_spec (parse : List Char → α) (name : List Char) (h1 : name ≠ [])
    (h2 : '\n' ∉ name) (hID : name ≠ ['I', 'D']) (lines : List (List Char))
    (hu : ∀ l ∈ lines, Usual 998 l) (he : ∀ l ∈ lines, key l = name → '=' ∈ l)
    (buf : Nat → Char) (hb : HasBlank buf ∨ lines.head? ≠ some [])
    (hc : lines = [] → Harmless name buf) (fuel : Nat) (hf : lines.length < fuel) :
    scanPhase parse name true fuel buf (text lines)
      = expected (lookup parse name (lines.takeWhile fun l' => decide (key l' ≠ ['I', 'D']))) := by
  induction lines generalizing buf fuel with
  | nil =>
    obtain ⟨fuel, rfl⟩ : ∃ m, fuel = m + 1 := ⟨fuel - 1, by omega⟩
    obtain ⟨m, hm, h3, h4⟩ := hc rfl
    have hl : load buf [] = buf := by funext i; simp [load]
    unfold scanPhase
    rw [show text [] = [] from rfl, fgets_nil _ (by rw [bufmax_eq]; decide)]
    simp only [hl, hm, h3, h4, if_false, if_true]
    rfl
  | cons l ls ih =>
    obtain ⟨fuel, rfl⟩ : ∃ m, fuel = m + 1 := ⟨fuel - 1, by omega⟩
    have hul := hu l (by simp)
    have hbl : HasBlank buf ∨ l ≠ [] := by
      rcases hb with h | h
      · exact Or.inl h
      · exact Or.inr (fun e => h (by simp [e]))
    obtain ⟨m, hm, hk⟩ := key_load (by omega) hul buf hbl
    have hfg : fgets (bufmax - 1) (text (l :: ls)) = (l ++ ['\n'], text ls, false) := by
      rw [text_cons]
      exact fgets_line l (text ls) _ hul.2.1 (by have := hul.1; rw [bufmax_eq]; omega)
    unfold scanPhase
    rw [hfg]
    simp only [hm, hk, key_ne h1 h2, key_ne ID_ok.1 ID_ok.2]
    by_cases hid : key l = ['I', 'D']
    · rw [if_pos hid]
      simp [lookup, expected, hid]
    · rw [if_neg hid]
      by_cases hkey : key l = name
      · obtain ⟨k, e1, -, e3⟩ := eq_load (by omega) hul buf (he l (by simp) hkey)
        rw [if_pos hkey, e1]
        simp only [e3]
        simp [lookup, expected, hkey, hID]
      · rw [if_neg hkey]
        simp only [Bool.false_eq_true, if_false]
        rw [ih (fun x hx => hu x (by simp [hx])) (fun x hx => he x (by simp [hx])) _
          (Or.inl (hasBlank_load (by omega) hul buf hbl))
          (fun _ => ⟨m, hm, by rw [hk, Ne, key_ne ID_ok.1 ID_ok.2]; exact hid,
            by rw [hk, Ne, key_ne h1 h2]; exact hkey⟩) fuel (by simp at hf; omega)]
        simp [lookup, hkey, hid]

theorem scanMat_spec (atoi : List Char → Int) (parse : List Char → α) (name : List Char)
    (h1 : name ≠ []) (h2 : '\n' ∉ name) (hID : name ≠ ['I', 'D']) (i : Int)
    (lines : List (List Char)) (hu : ∀ l ∈ lines, Usual 998 l)
    (he : ∀ l ∈ lines, key l = name ∨ key l = ['I', 'D'] → '=' ∈ l)
    (idv : Int) (buf junk2 : Nat → Char) (hb : HasBlank buf ∨ lines.head? ≠ some [])
    (hblk : ∀ ls, behindId atoi i lines = some ls →
      ls ≠ [] ∧ (HasBlank junk2 ∨ ls.head? ≠ some []))
    (fuel : Nat) (hf : lines.length < fuel) :
    scanMat atoi parse name i junk2 fuel idv buf (text lines)
      = match block atoi i lines with
        | none => .exit
        | some b => expected (lookup parse name b) := by
  induction lines generalizing buf idv fuel with
  | nil =>
    obtain ⟨fuel, rfl⟩ : ∃ m, fuel = m + 1 := ⟨fuel - 1, by omega⟩
    rfl
  | cons l ls ih =>
    obtain ⟨fuel, rfl⟩ : ∃ m, fuel = m + 1 := ⟨fuel - 1, by omega⟩
    have hul := hu l (by simp)
    have hbl : HasBlank buf ∨ l ≠ [] := by
      rcases hb with h | h
      · exact Or.inl h
      · exact Or.inr (fun e => h (by simp [e]))
    obtain ⟨m, hm, hk⟩ := key_load (by omega) hul buf hbl
    have hfg : fgets (bufmax - 1) (text (l :: ls)) = (l ++ ['\n'], text ls, false) := by
      rw [text_cons]
      exact fgets_line l (text ls) _ hul.2.1 (by have := hul.1; rw [bufmax_eq]; omega)
    have hnext : ∀ v, ¬ (key l = ['I', 'D'] ∧ atoi (valueText l) = i) →
        scanMat atoi parse name i junk2 fuel v (load buf (l ++ ['\n'])) (text ls)
          = match block atoi i (l :: ls) with
            | none => .exit
            | some b => expected (lookup parse name b) := by
      intro v hv
      rw [ih (fun x hx => hu x (by simp [hx])) (fun x hx => he x (by simp [hx])) v _
        (Or.inl (hasBlank_load (by omega) hul buf hbl))
        (fun l' hl' => hblk l' (by simpa [behindId, hv] using hl')) fuel (by simp at hf; omega)]
      simp [block, hv]
    unfold scanMat
    rw [hfg]
    simp only [hm, hk, Bool.false_eq_true, if_false, key_ne ID_ok.1 ID_ok.2]
    by_cases hid : key l = ['I', 'D']
    · rw [if_pos hid, afterEq_load atoi (by omega) hul buf (he l (by simp) (Or.inr hid))]
      simp only [Option.getD_some]
      by_cases hv : atoi (valueText l) = i
      · rw [if_pos hv]
        have hbeh : behindId atoi i (l :: ls) = some ls := by simp [behindId, hid, hv]
        obtain ⟨hne, hb2⟩ := hblk ls hbeh
        obtain ⟨k, -, e2, -⟩ := eq_load (by omega) hul buf (he l (by simp) (Or.inr hid))
        rw [show decide (load buf (l ++ ['\n']) 0 ≠ NUL) = true from by simpa using e2]
        rw [scanPhase_spec parse name h1 h2 hID ls (fun x hx => hu x (by simp [hx]))
          (fun x hx hx' => he x (by simp [hx]) (Or.inl hx')) junk2 hb2
          (fun h => absurd h hne) _ (by have := text_length ls; omega)]
        rw [block_eq, hbeh]
        rfl
      · rw [if_neg hv]
        exact hnext _ (fun h => hv h.2)
    · rw [if_neg hid]
      exact hnext _ (fun h => hid h.1)

/-- C43. In every file of usual newline-terminated lines in which the ID lines and the lines with
key `name` contain an equal sign and some line follows the ID line of the phase, `ReadMatProps`
returns the value on the first line with that key inside the block of the phase (from its ID line
to the next ID line), the default if the block has no such line, and stops the program if the file
has no block for the phase.  Nothing else in the file matters. -/
theorem readMatProps_spec (atoi : List Char → Int) (parse : List Char → α) (name : List Char)
    (h1 : name ≠ []) (h2 : '\n' ∉ name) (hID : name ≠ ['I', 'D']) (i : Int)
    (lines : List (List Char)) (hu : ∀ l ∈ lines, Usual 998 l)
    (he : ∀ l ∈ lines, key l = name ∨ key l = ['I', 'D'] → '=' ∈ l)
    (junkId : Int) (junk junk2 : Nat → Char) (hb : HasBlank junk ∨ lines.head? ≠ some [])
    (hblk : ∀ ls, behindId atoi i lines = some ls →
      ls ≠ [] ∧ (HasBlank junk2 ∨ ls.head? ≠ some [])) :
    readMatProps atoi parse name i junkId junk junk2 (text lines)
      = match block atoi i lines with
        | none => .exit
        | some b => expected (lookup parse name b) :=
  scanMat_spec atoi parse name h1 h2 hID i lines hu he junkId junk junk2 hb hblk _
    (by have := text_length lines; omega)

/-- Two phases, the first without `rho`. -/
def sampleMat : List (List Char) :=
  ["Nb_phases = 2".toList, [], "ID = 0".toList, "G = 1e10".toList, [],
   "ID = 1".toList, "rho = 3300".toList, "G = 2e10".toList]

/-- Stand-in for `atoi` on the two identifiers of the sample. -/
def sampleAtoi (s : List Char) : Int := if s = " 1\n".toList then 1 else 0

theorem sampleMat_usual : ∀ l ∈ sampleMat, Usual 998 l := by
  intro l hl
  simp only [sampleMat, List.mem_cons, List.not_mem_nil, or_false] at hl
  rcases hl with rfl | rfl | rfl | rfl | rfl | rfl | rfl | rfl <;> exact usual_of (by decide)

/-- Non-vacuity for `readMatProps_spec`: phase 0 lacks the density and gets the default, although
the next block has one. -/
example (junkId : Int) (junk junk2 : Nat → Char) :
    readMatProps sampleAtoi id "rho".toList 0 junkId junk junk2 (text sampleMat) = .dflt ∧
    readMatProps sampleAtoi id "rho".toList 1 junkId junk junk2 (text sampleMat)
      = .value " 3300\n".toList := by
  constructor
  · rw [readMatProps_spec sampleAtoi id _ (by decide) (by decide) (by decide) 0 sampleMat
      sampleMat_usual (by decide) junkId junk junk2 (Or.inr (by decide))
      (fun ls h => by
        have : behindId sampleAtoi 0 sampleMat = some (sampleMat.drop 3) := by decide
        rw [this] at h; cases h; exact ⟨by decide, Or.inr (by decide)⟩)]
    decide
  · rw [readMatProps_spec sampleAtoi id _ (by decide) (by decide) (by decide) 1 sampleMat
      sampleMat_usual (by decide) junkId junk junk2 (Or.inr (by decide))
      (fun ls h => by
        have : behindId sampleAtoi 1 sampleMat = some (sampleMat.drop 6) := by decide
        rw [this] at h; cases h; exact ⟨by decide, Or.inr (by decide)⟩)]
    decide

/-- C43, limit: a parameter line without equal sign in the block makes the reader use memory it
has already freed (InputOutput.c:2150, 2168, 2171). -/
theorem readMatProps_freed :
    readMatProps sampleAtoi id "rho".toList 0 5 (fun _ => NUL) (fun _ => NUL)
      (text ["ID = 0".toList, "rho 3300".toList]) = .freed := by decide +kernel

/-! ### C44: text parameters -/

/-- Does the line start with the name? -/
def StartsWith (name l : List Char) : Prop := name <+: l

theorem cstr_short {n : Nat} {l : List Char} (h : Usual n l ∨ (NUL ∉ l ∧ '\n' ∉ l))
    (buf : Nat → Char) (name : List Char) (h2 : '\n' ∉ name) :
    cstr (load buf (l ++ ['\n'])) name.length = name ↔ name <+: l := by
  have hz : NUL ∉ l ++ ['\n'] := by
    rcases h with h | h
    · exact (usual_chunk h).1
    · simp only [List.mem_append, List.mem_singleton, not_or]
      exact ⟨h.1, by decide⟩
  by_cases hlen : name.length ≤ (l ++ ['\n']).length
  · rw [cstr_load _ _ _ hlen hz]
    constructor
    · intro h3
      have h4 : name <+: l ++ ['\n'] := by
        rw [← h3]; exact List.take_prefix _ _
      rcases List.prefix_concat_iff.mp h4 with h5 | h5
      · exact absurd (by rw [h5]; simp) h2
      · exact h5
    · intro h3
      exact (List.prefix_iff_eq_take.mp (h3.trans (List.prefix_append _ _))).symm
  · constructor
    · intro h3
      exfalso
      obtain ⟨k, hk⟩ : ∃ k, name.length = (l ++ ['\n']).length + 1 + k :=
        ⟨name.length - (l ++ ['\n']).length - 1, by omega⟩
      have h4 : cstr (load buf (l ++ ['\n'])) name.length = l ++ ['\n'] := by
        unfold cstr
        rw [hk, List.range_add, List.map_append, List.range_succ, List.map_append,
          map_load_range _ _ _ (Nat.le_refl _), List.take_length]
        simp only [List.map_cons, load_end _ _ (show l ++ ['\n'] ≠ [] by simp), List.map_nil,
          List.append_assoc]
        rw [← List.append_assoc l, List.takeWhile_append_of_pos]
        · simp
        · intro x hx
          simp
          rintro rfl
          exact hz hx
      rw [h4] at h3
      exact h2 (by rw [← h3]; simp)
    · intro h3
      have := h3.length_le
      simp at hlen
      omega

theorem copyWord_spec (buf : Nat → Char) (v : List Char) (s k : Nat) (acc : List Char)
    (hv : ∀ c ∈ v, isspace c = false ∧ c ≠ NUL) (hacc : NUL ∉ acc)
    (hbuf : ∀ j, (h : j < v.length) → buf (s + j) = v[j])
    (hend : isspace (buf (s + v.length)) = true) (hk : v.length < k)
    (hs : s + v.length < bufmaxC) :
    copyWord buf k s acc = .value (acc.reverse ++ v) := by
  induction v generalizing s k acc with
  | nil =>
    obtain ⟨k, rfl⟩ : ∃ m, k = m + 1 := ⟨k - 1, by simp at hk; omega⟩
    simp at hend hs
    unfold copyWord
    rw [if_neg (by omega), if_pos hend, takeWhile_all]
    · simp
    · intro x hx
      simp at hx ⊢
      rintro rfl
      exact hacc hx
  | cons c v ih =>
    obtain ⟨k, rfl⟩ : ∃ m, k = m + 1 := ⟨k - 1, by omega⟩
    have h0 : buf s = c := hbuf 0 (by simp)
    have hc := hv c (by simp)
    unfold copyWord
    simp at hs hk
    rw [if_neg (by omega), h0, if_neg (by simp [hc.1])]
    rw [ih (s + 1) k (c :: acc) (fun x hx => hv x (by simp [hx]))
      (by simp only [List.mem_cons, not_or]; exact ⟨fun h => hc.2 h.symm, hacc⟩)
      (fun j h => by
        have := hbuf (j + 1) (by simpa using h)
        rw [show s + 1 + j = s + (j + 1) from by omega, this]
        simp)
      (by rw [show s + 1 + v.length = s + (c :: v).length from by simp; omega]; exact hend)
      (by omega) (by omega)]
    simp

/-- A short line: at most 48 printable characters. -/
def Short (l : List Char) : Prop := l.length ≤ 48 ∧ '\n' ∉ l ∧ NUL ∉ l

/-- C44 (partial): if the unread part of the file consists of short lines, the first of them that
starts with the name reads `name…= value…`, and the value is a word of fewer than thirty
characters, then that word is returned and the file stays behind that line.  Missing compared with
the full claim: independence of the reading position, of the letters behind the name, and of the
line length. -/
theorem readChar_partial (name file : List Char) (h2 : '\n' ∉ name)
    (before after : List (List Char)) (hbef : ∀ l ∈ before, Short l ∧ ¬ name <+: l)
    (pad v tail : List Char) (c : Char)
    (hl : Short (name ++ pad ++ '=' :: c :: v ++ tail))
    (hpad : '=' ∉ name ++ pad)
    (hv : ∀ d ∈ v, isspace d = false) (hvl : v.length < 30)
    (htail : tail = [] ∨ ∃ d t, tail = d :: t ∧ isspace d = true) :
    readChar name file (text (before ++ (name ++ pad ++ '=' :: c :: v ++ tail) :: after))
      = (.value v, text after) := by
  unfold readChar
  generalize hbuf : (fun _ => NUL : Nat → Char) = buf
  clear hbuf
  have hfuel : before.length
      < (text (before ++ (name ++ pad ++ '=' :: c :: v ++ tail) :: after)).length + 1 := by
    have := text_length (before ++ (name ++ pad ++ '=' :: c :: v ++ tail) :: after)
    simp at this ⊢
    omega
  generalize (text (before ++ (name ++ pad ++ '=' :: c :: v ++ tail) :: after)).length + 1 = fuel
    at hfuel
  induction before generalizing buf fuel with
  | nil =>
    obtain ⟨fuel, rfl⟩ : ∃ m, fuel = m + 1 := ⟨fuel - 1, by omega⟩
    set l := name ++ pad ++ '=' :: c :: v ++ tail with hldef
    have hfg : fgets (bufmaxC - 1) (text ([] ++ l :: after)) = (l ++ ['\n'], text after, false) := by
      rw [List.nil_append, text_cons]
      exact fgets_line l _ _ hl.2.1 (by have := hl.1; show l.length < 49; omega)
    have hz : NUL ∉ l ++ ['\n'] := by
      simp only [List.mem_append, List.mem_singleton, not_or]
      exact ⟨hl.2.2, by decide⟩
    have hname : cstr (load buf (l ++ ['\n'])) name.length = name :=
      (cstr_short (n := 0) (Or.inr ⟨hl.2.2, hl.2.1⟩) buf name h2).mpr
        ⟨pad ++ '=' :: c :: v ++ tail, by simp [hldef]⟩
    have hlen : l.length = name.length + pad.length + 2 + v.length + tail.length := by
      simp [hldef]; omega
    have heq : firstIdx '=' (load buf (l ++ ['\n'])) bufmaxC = some (name ++ pad).length := by
      rw [firstIdx_load '=' buf _ bufmaxC (by simp [hldef]) (by
        have := hl.1; simp; show l.length + 1 ≤ 50; omega)]
      congr 1
      have : ((l ++ ['\n']).takeWhile fun d => decide (d ≠ '=')) = name ++ pad := by
        have e : l ++ ['\n'] = (name ++ pad) ++ '=' :: (c :: v ++ tail ++ ['\n']) := by
          simp [hldef]
        rw [e, List.takeWhile_append_of_pos]
        · simp
        · intro x hx
          simp
          rintro rfl
          exact hpad hx
      rw [this]
    have h0 : load buf (l ++ ['\n']) 0 ≠ NUL := by
      rw [load_lt _ _ _ (by simp)]
      intro h
      exact hz (h ▸ List.getElem_mem _)
    have hword : copyWord (load buf (l ++ ['\n'])) 30 ((name ++ pad).length + 2) []
        = .value v := by
      have e : l ++ ['\n'] = (name ++ pad ++ ['=', c]) ++ (v ++ (tail ++ ['\n'])) := by
        simp [hldef]
      have hpos : ∀ j, (h : j < (v ++ (tail ++ ['\n'])).length) →
          load buf (l ++ ['\n']) ((name ++ pad).length + 2 + j) = (v ++ (tail ++ ['\n']))[j] := by
        intro j hj
        have hj' : (name ++ pad).length + 2 + j < (l ++ ['\n']).length := by
          rw [e]; simp at hj ⊢; omega
        rw [load_lt _ _ _ hj']
        have hge : (l ++ ['\n'])[(name ++ pad).length + 2 + j]
            = ((name ++ pad ++ ['=', c]) ++ (v ++ (tail ++ ['\n'])))[(name ++ pad).length + 2 + j]'(by
              rw [← e]; exact hj') := by
          congr 1
        rw [hge, List.getElem_append_right (by simp; omega)]
        congr 1
        simp; omega
      have := copyWord_spec (load buf (l ++ ['\n'])) v ((name ++ pad).length + 2) 30 []
        (fun d hd => ⟨hv d hd, fun h => hl.2.2 (by rw [← h]; simp [hldef, hd])⟩) (by simp)
        (fun j h => by
          rw [hpos j (by simp; omega), List.getElem_append_left h])
        (by
          rw [hpos v.length (by simp), List.getElem_append_right (by omega)]
          rcases htail with rfl | ⟨d, t, rfl, hd⟩
          · simp [isspace]
          · simpa using hd)
        hvl (by have := hl.1; show _ < 50; simp; omega)
      simpa using this
    unfold scanChar
    rw [hfg]
    simp only [hname, heq, if_true, Bool.false_eq_true, if_false, if_pos h0, hword]
  | cons b bs ih =>
    obtain ⟨fuel, rfl⟩ : ∃ m, fuel = m + 1 := ⟨fuel - 1, by omega⟩
    obtain ⟨hs, hp⟩ := hbef b (by simp)
    have hfg : ∀ rest, fgets (bufmaxC - 1) (text (b :: rest)) = (b ++ ['\n'], text rest, false) := by
      intro rest
      rw [text_cons]
      exact fgets_line b _ _ hs.2.1 (by have := hs.1; show b.length < 49; omega)
    unfold scanChar
    rw [List.cons_append, hfg]
    simp only [Bool.false_eq_true, if_false]
    rw [if_neg (fun h => hp ((cstr_short (n := 0) (Or.inr ⟨hs.2.2, hs.2.1⟩) buf name h2).mp h))]
    exact ih (fun x hx => hbef x (by simp [hx])) _ fuel (by simp at hfuel; omega)

/-- C44 (partial): if no line of the unread part starts with the name, the default is used and the
file is rewound. -/
theorem readChar_default_partial (name file : List Char) (h2 : '\n' ∉ name)
    (lines : List (List Char)) (hl : ∀ l ∈ lines, Short l ∧ ¬ name <+: l) :
    readChar name file (text lines) = (.dflt, file) := by
  unfold readChar
  generalize hbuf : (fun _ => NUL : Nat → Char) = buf
  clear hbuf
  have hfuel : lines.length < (text lines).length + 1 := by have := text_length lines; omega
  generalize (text lines).length + 1 = fuel at hfuel
  induction lines generalizing buf fuel with
  | nil =>
    obtain ⟨fuel, rfl⟩ : ∃ m, fuel = m + 1 := ⟨fuel - 1, by omega⟩
    rfl
  | cons b bs ih =>
    obtain ⟨fuel, rfl⟩ : ∃ m, fuel = m + 1 := ⟨fuel - 1, by omega⟩
    obtain ⟨hs, hp⟩ := hl b (by simp)
    have hfg : fgets (bufmaxC - 1) (text (b :: bs)) = (b ++ ['\n'], text bs, false) := by
      rw [text_cons]
      exact fgets_line b _ _ hs.2.1 (by have := hs.1; show b.length < 49; omega)
    unfold scanChar
    rw [hfg]
    simp only [Bool.false_eq_true, if_false]
    rw [if_neg (fun h => hp ((cstr_short (n := 0) (Or.inr ⟨hs.2.2, hs.2.1⟩) buf name h2).mp h))]
    exact ih (fun x hx => hl x (by simp [hx])) _ fuel (by simp at hfuel; omega)

/-- The two file names as `ReadInputFile` reads them: first `import_files_dir`, then, from where
that left the file, `import_file` (InputOutput.c:1046-1047). -/
def readImports (file : List Char) : Out (List Char) × Out (List Char) :=
  let a := readChar "import_files_dir".toList file file
  (a.1, (readChar "import_file".toList file a.2).1)

/-- C44 fails (order): a file that names the data file above its directory loses it, the default
file name is used instead. -/
theorem readChar_order_matters :
    readImports (text ["import_files_dir = in".toList, "import_file = a.bin".toList])
      = (.value "in".toList, .value "a.bin".toList) ∧
    readImports (text ["import_file = a.bin".toList, "import_files_dir = in".toList])
      = (.value "in".toList, .dflt) := by decide +kernel

/-- C44 fails (prefix): a key that merely starts with the same letters is taken for the
parameter. -/
theorem readChar_prefix_matters :
    (readChar "import_file".toList [] (text ["import_files_dir = in".toList,
      "import_file = a.bin".toList])).1 = .value "in".toList := by decide +kernel

/-- C44 fails (length): a value of thirty or more characters that fits into the line buffer is
returned without terminating zero. -/
theorem readChar_long_value :
    (readChar "dir".toList []
      (text ["dir = 0123456789012345678901234567890123".toList])).1 = .unterminated := by
  decide +kernel

example : (readChar "import_file".toList [] (text (["# data".toList] ++
      ("import_file".toList ++ " ".toList ++ '=' :: ' ' :: "a.bin".toList ++ " x".toList) ::
      ["Nx = 3".toList]))) = (.value "a.bin".toList, text ["Nx = 3".toList]) :=
  readChar_partial _ _ (by decide) _ _ (by unfold Short; decide) _ _ _ _ (by unfold Short; decide) (by decide)
    (by decide) (by decide) (Or.inr ⟨' ', ['x'], rfl, by decide⟩)

end Verif.Input
