import Verif.Model.Restart
import Verif.Props.Breakpoint
import Mathlib.Data.List.Infix

/-
C40: what is on disk when the program dies at an arbitrary moment.
C41: what a restarted run does.
-/
namespace Verif.Run

/-- A complete file labelled with the step it holds. -/
def Good (d : Disk) (t : Nat) : Prop := d (.numbered t) = some ⟨t, true⟩

theorem runActs_append (d : Disk) (l l' : List Act) :
    runActs d (l ++ l') = runActs (runActs d l) l' := by
  unfold runActs; rw [List.foldl_append]

theorem acts_succ (mode : Int) (w nw first Nt : Nat) (h : first ≤ Nt) :
    acts mode w nw first (Nt + 1) = acts mode w nw first Nt ++
      (if (Nt + 1) % w = 0 then outputActs mode w nw (Nt + 1) else []) := by
  unfold acts
  have : Nt + 1 - first = (Nt - first) + 1 := by omega
  rw [this, List.range'_concat, List.flatMap_append]
  have h2 : first + 1 + 1 * (Nt - first) = Nt + 1 := by omega
  rw [h2]
  simp

theorem acts_self (mode : Int) (w nw n : Nat) : acts mode w nw n n = [] := by
  unfold acts; simp

theorem mv_run (d : Disk) (a b n : Name) : (Act.mv a b).run d n =
    if d a = none then d n else if n = b then d a else if n = a then none else d n := by
  simp only [Act.run]
  cases d a with
  | none => simp
  | some f => simp

/-- An action that does not write, rename or truncate the file `n`. -/
def Act.spares (n : Name) : Act → Prop
  | .mv a b => n ≠ a ∧ n ≠ b
  | .openW m _ => n ≠ m
  | .more _ => True
  | .close m => n ≠ m

theorem run_spares {d : Disk} {a : Act} {n : Name} (h : a.spares n) : a.run d n = d n := by
  cases a with
  | mv a b =>
    have h1 : ¬ n = a := h.1
    have h2 : ¬ n = b := h.2
    simp only [Act.run]
    cases d a with
    | none => rfl
    | some f => simp [h1, h2]
  | openW m s => have : ¬ n = m := h; simp [Act.run, this]
  | more m => rfl
  | close m => have : ¬ n = m := h; simp [Act.run, this]

theorem runActs_spares {d : Disk} {l : List Act} {n : Name} (h : ∀ a ∈ l, a.spares n) :
    runActs d l n = d n := by
  unfold runActs
  induction l generalizing d with
  | nil => rfl
  | cons a l ih =>
    rw [List.foldl_cons, ih fun b hb => h b (List.mem_cons_of_mem _ hb),
      run_spares (h a List.mem_cons_self)]

theorem mem_outputActs {mode : Int} {w nw s : Nat} {a : Act} (h : a ∈ outputActs mode w nw s) :
    (mode = 1 ∧ (s : Int) - 2 * w > 1 ∧ a = .mv (.numbered (s - 2 * w)) (.numbered s)) ∨
      a = .openW (fileName mode s) s ∨ a = .more (fileName mode s) ∨
      a = .close (fileName mode s) := by
  unfold outputActs deletePrevious at h
  simp only [List.mem_append, List.mem_cons, List.not_mem_nil, or_false] at h
  rcases h with h | (h | h) | h
  · split_ifs at h with h1 h2
    · exact Or.inl ⟨h1, h2, List.mem_singleton.1 h⟩
    · cases h
    · cases h
  · exact Or.inr (Or.inl h)
  · exact Or.inr (Or.inr (Or.inl (List.eq_of_mem_replicate h)))
  · exact Or.inr (Or.inr (Or.inr h))

/-- With rotation on, an output step touches only its own file and the one two outputs back. -/
theorem output_spares {w nw s t : Nat} {mode : Int} (hm : mode ≠ -1) (h1 : t ≠ s)
    (h2 : t + 2 * w ≠ s) : ∀ a ∈ outputActs mode w nw s, a.spares (.numbered t) := by
  intro a ha
  have hf : fileName mode s = .numbered s := by simp [fileName, hm]
  rcases mem_outputActs ha with ⟨-, h3, rfl⟩ | rfl | rfl | rfl
  · refine ⟨?_, ?_⟩
    · intro h
      have := Name.numbered.inj h
      omega
    · intro h; exact h1 (Name.numbered.inj h)
  · rw [hf]; intro h; exact h1 (Name.numbered.inj h)
  · trivial
  · rw [hf]; intro h; exact h1 (Name.numbered.inj h)

/-- After a complete output step the file of that step is complete and holds that step. -/
theorem output_good (mode : Int) (w nw s : Nat) (d : Disk) :
    runActs d (outputActs mode w nw s) (fileName mode s) = some ⟨s, true⟩ := by
  unfold outputActs
  rw [runActs_append]
  generalize runActs d (if mode = 1 then deletePrevious s w else []) = d1
  rw [runActs_append]
  have hrep : ∀ (k : Nat) (d : Disk), runActs d (List.replicate k (.more (fileName mode s))) = d := by
    intro k
    induction k with
    | zero => intro d; rfl
    | succ k ih => intro d; rw [List.replicate_succ]; exact ih d
  have : runActs d1 (Act.openW (fileName mode s) s :: List.replicate nw (.more (fileName mode s))) =
      Act.run d1 (.openW (fileName mode s) s) := hrep nw _
  rw [this]
  simp [runActs, Act.run]

/-- The last output step at or before `Nt`. -/
def lastOutput (w Nt : Nat) : Nat := Nt - Nt % w

theorem lastOutput_succ_pos {w Nt : Nat} (h : (Nt + 1) % w = 0) : lastOutput w (Nt + 1) = Nt + 1 := by
  unfold lastOutput; omega

theorem lastOutput_succ_neg {w Nt : Nat} (hw : 0 < w) (h : (Nt + 1) % w ≠ 0) :
    lastOutput w (Nt + 1) = lastOutput w Nt := by
  unfold lastOutput
  have h1 : (Nt + 1) % w = Nt % w + 1 := by
    have hlt := Nat.mod_lt Nt hw
    by_cases h2 : Nt % w + 1 < w
    · rw [Nat.add_mod, Nat.mod_eq_of_lt (show 1 < w by omega)]
      exact Nat.mod_eq_of_lt h2
    · exfalso
      apply h
      have h3 : Nt % w + 1 = w := by omega
      have h4 := Nat.div_add_mod Nt w
      have h5 : Nt + 1 = w * (Nt / w + 1) := by rw [Nat.mul_add, Nat.mul_one]; omega
      rw [h5]; exact Nat.mul_mod_right _ _
  omega

/-- At an output step, the previous output was `w` steps before. -/
theorem prev_output {w Nt : Nat} (hw : 0 < w) (h : (Nt + 1) % w = 0) :
    lastOutput w Nt + w = Nt + 1 := by
  unfold lastOutput
  have hlt := Nat.mod_lt Nt hw
  obtain ⟨q, hq⟩ := Nat.dvd_of_mod_eq_zero h
  have h4 := Nat.div_add_mod Nt w
  have h6 : Nt / w + 1 = q := by
    have h7 : w * (Nt / w + 1) + Nt % w + 1 - w = w * q := by
      rw [Nat.mul_add, Nat.mul_one]; omega
    have h8 : w * q < w * (Nt / w + 2) := by rw [Nat.mul_add]; rw [Nat.mul_add] at h7; omega
    have h9 : w * (Nt / w) < w * q := by omega
    have h10 := Nat.lt_of_mul_lt_mul_left h8
    have h11 := Nat.lt_of_mul_lt_mul_left h9
    omega
  rw [← h6, Nat.mul_add, Nat.mul_one] at hq
  omega

theorem lastOutput_self {w n : Nat} (h : n % w = 0) : lastOutput w n = n := by
  unfold lastOutput; omega

theorem good_after (mode : Int) (hm : mode ≠ -1) (w nw n : Nat) (hw : 0 < w) (hn : n % w = 0)
    (d : Disk) (hd : Good d n) (Nt : Nat) (hNt : n ≤ Nt) :
    Good (runActs d (acts mode w nw n Nt)) (lastOutput w Nt) := by
  induction Nt, hNt using Nat.le_induction with
  | base => rw [acts_self, lastOutput_self hn]; exact hd
  | succ Nt hle ih =>
    rw [acts_succ _ _ _ _ _ hle, runActs_append]
    by_cases h : (Nt + 1) % w = 0
    · rw [if_pos h, lastOutput_succ_pos h]
      have := output_good mode w nw (Nt + 1) (runActs d (acts mode w nw n Nt))
      rw [fileName, if_neg hm] at this
      exact this
    · rw [if_neg h, lastOutput_succ_neg hw h]; exact ih

theorem prefix_append_cases {α : Type*} {p a b : List α} (h : p <+: a ++ b) :
    p <+: a ∨ ∃ q, q <+: b ∧ p = a ++ q := by
  rcases List.prefix_or_prefix_of_prefix h (List.prefix_append a b) with h1 | h1
  · exact Or.inl h1
  · obtain ⟨q, rfl⟩ := h1
    exact Or.inr ⟨q, (List.prefix_append_right_inj a).1 h, rfl⟩

/-- **C40 (partial), first half.**  Start from a disk holding the complete breakpoint of output step
`n` (just written, or just restarted from).  However long the run goes on and wherever it is killed,
the disk holds a complete breakpoint under its own label, and it is the one of the last completed
output step: every output that had at least begun is at most one output interval later.  Holds with
rotation (`delete_breakpoints = 1`) and without it; not with `-1`, see
`single_file_can_be_lost`. -/
theorem crash_keeps_breakpoint_partial (mode : Int) (hm : mode ≠ -1) (w nw n Nt : Nat) (hw : 0 < w)
    (hn : n % w = 0) (hNt : n ≤ Nt) (d : Disk) (hd : Good d n) (p : List Act)
    (hp : p <+: acts mode w nw n Nt) :
    ∃ t, t % w = 0 ∧ n ≤ t ∧ t ≤ Nt ∧ Good (runActs d p) t ∧
      ∀ name s, .openW name s ∈ p → s ≤ t + w := by
  induction Nt, hNt using Nat.le_induction generalizing p with
  | base =>
    rw [acts_self, List.prefix_nil] at hp
    subst hp
    exact ⟨n, hn, le_refl _, le_refl _, hd, fun _ _ h => absurd h List.not_mem_nil⟩
  | succ Nt hle ih =>
    rw [acts_succ _ _ _ _ _ hle] at hp
    rcases prefix_append_cases hp with h | ⟨q, hq, rfl⟩
    · obtain ⟨t, h1, h2, h3, h4, h5⟩ := ih p h
      exact ⟨t, h1, h2, by omega, h4, h5⟩
    · by_cases h : (Nt + 1) % w = 0
      · rw [if_pos h] at hq
        have hpo := prev_output hw h
        have hgood := good_after mode hm w nw n hw hn d hd Nt hle
        refine ⟨lastOutput w Nt, ?_, ?_, ?_, ?_, ?_⟩
        · have : w ∣ Nt + 1 := Nat.dvd_of_mod_eq_zero h
          rw [← hpo] at this
          exact Nat.mod_eq_zero_of_dvd ((Nat.dvd_add_left (dvd_refl w)).1 this)
        · by_contra hlt
          -- the last output before `Nt` is at least `n`
          have h1 : lastOutput w Nt < n := by omega
          have h2 : w ∣ n := Nat.dvd_of_mod_eq_zero hn
          have h3 : w ∣ Nt + 1 := Nat.dvd_of_mod_eq_zero h
          obtain ⟨a, rfl⟩ := h2
          obtain ⟨b, hb⟩ := h3
          have h4 : w * b = lastOutput w Nt + w := by omega
          have h5 : w * a < w * b := by omega
          have h6 : w * b < w * (a + 1) := by rw [Nat.mul_add, Nat.mul_one]; omega
          have := Nat.lt_of_mul_lt_mul_left h5
          have := Nat.lt_of_mul_lt_mul_left h6
          omega
        · omega
        · unfold Good
          rw [runActs_append, runActs_spares, hgood]
          intro a ha
          exact output_spares hm (by omega) (by omega) a (hq.subset ha)
        · intro name s hs
          rcases List.mem_append.1 hs with hs | hs
          · unfold acts at hs
            obtain ⟨k, hk, hs⟩ := List.mem_flatMap.1 hs
            split at hs
            · rcases mem_outputActs hs with ⟨-, -, h⟩ | h | h | h
              · cases h
              · injection h with h1 h2
                have := List.mem_range'_1.1 hk
                omega
              · cases h
              · cases h
            · cases hs
          · rcases mem_outputActs (hq.subset hs) with ⟨-, -, h⟩ | h | h | h
            · cases h
            · injection h with h1 h2; omega
            · cases h
            · cases h
      · rw [if_neg h, List.prefix_nil] at hq
        subst hq
        rw [List.append_nil]
        obtain ⟨t, h1, h2, h3, h4, h5⟩ := ih _ (List.prefix_refl _)
        exact ⟨t, h1, h2, by omega, h4, h5⟩


/-- **C40, where it fails.**  With rotation on, whenever an output step recycles the file of two
outputs before, there is a crash point at which the file labelled with the new step is complete but
holds the state of the old one (the rename precedes the rewriting). -/
theorem mislabelled_breakpoint (w nw n Nt s : Nat) (hw : 0 < w) (hn : n % w = 0) (d : Disk)
    (hd : Good d n) (hs : s % w = 0) (h1 : n + 2 * w ≤ s) (h2 : 1 < s - 2 * w) (h3 : s ≤ Nt) :
    ∃ p, p <+: acts 1 w nw n Nt ∧
      runActs d p (.numbered s) = some ⟨s - 2 * w, true⟩ ∧ s - 2 * w ≠ s := by
  obtain ⟨k, rfl⟩ : ∃ k, s = k + 1 := ⟨s - 1, by omega⟩
  have hprev := prev_output hw hs
  obtain ⟨j, hj⟩ : ∃ j, lastOutput w k = j + 1 := ⟨lastOutput w k - 1, by omega⟩
  have hw2 : w ∣ j + 1 := by
    have h : w ∣ k + 1 := Nat.dvd_of_mod_eq_zero hs
    rw [← hprev] at h
    rw [← hj]; exact (Nat.dvd_add_left (dvd_refl w)).1 h
  have hprev2 := prev_output hw (Nat.mod_eq_zero_of_dvd hw2)
  -- the file of two outputs before is intact when the output step begins
  have hgood : Good (runActs d (acts 1 w nw n k)) (k + 1 - 2 * w) := by
    have hlj : lastOutput w j = k + 1 - 2 * w := by omega
    have hstay : ∀ K, j + 1 ≤ K → K ≤ k →
        Good (runActs d (acts 1 w nw n K)) (k + 1 - 2 * w) := by
      intro K hK
      induction K, hK using Nat.le_induction with
      | base =>
        intro _
        rw [acts_succ _ _ _ _ _ (by omega), runActs_append, if_pos (Nat.mod_eq_zero_of_dvd hw2)]
        unfold Good
        rw [runActs_spares (output_spares (by decide) (by omega) (by omega)), ← hlj]
        exact good_after 1 (by decide) w nw n hw hn d hd j (by omega)
      | succ K hK ih =>
        intro hle
        rw [acts_succ _ _ _ _ _ (by omega), runActs_append]
        split
        · rename_i hm
          unfold Good
          rw [runActs_spares (output_spares (by decide) (by omega) ?_)]
          · exact ih (by omega)
          · omega
        · exact ih (by omega)
    exact hstay k (by omega) (le_refl k)
  refine ⟨acts 1 w nw n k ++ [.mv (.numbered (k + 1 - 2 * w)) (.numbered (k + 1))], ?_, ?_, by omega⟩
  · have hpre : acts 1 w nw n (k + 1) <+: acts 1 w nw n Nt := by
      have hmono : ∀ M, k + 1 ≤ M → acts 1 w nw n (k + 1) <+: acts 1 w nw n M := by
        intro M hM
        induction M, hM using Nat.le_induction with
        | base => exact List.prefix_refl _
        | succ M hM ih =>
          rw [acts_succ 1 w nw n M (by omega)]
          exact ih.trans (List.prefix_append _ _)
      exact hmono Nt h3
    refine List.IsPrefix.trans ?_ hpre
    rw [acts_succ _ _ _ _ _ (by omega), if_pos hs]
    refine (List.prefix_append_right_inj _).2 ?_
    unfold outputActs deletePrevious
    rw [if_pos rfl, if_pos (by omega)]
    exact List.prefix_append _ _
  · rw [runActs_append]
    unfold Good at hgood
    simp only [runActs, List.foldl_cons, List.foldl_nil, Act.run]
    rw [show List.foldl Act.run d (acts 1 w nw n k) = runActs d (acts 1 w nw n k) from rfl, hgood]
    simp

/-- Files in order: each numbered file is complete and holds the step of its label. -/
def Labelled (d : Disk) : Prop := ∀ k f, d (.numbered k) = some f → f = ⟨k, true⟩

/-- The same for every file but the one labelled `s`. -/
def Labelled' (d : Disk) (s : Nat) : Prop :=
  ∀ k f, k ≠ s → d (.numbered k) = some f → f = ⟨k, true⟩

theorem labelled_after (mode : Int) (hm : mode ≠ -1) (w nw n : Nat) (d : Disk)
    (hd : Labelled d) (Nt : Nat) (hNt : n ≤ Nt) :
    Labelled (runActs d (acts mode w nw n Nt)) := by
  induction Nt, hNt using Nat.le_induction with
  | base => rw [acts_self]; exact hd
  | succ Nt hle ih =>
    rw [acts_succ _ _ _ _ _ hle, runActs_append]
    split
    · intro k f hf
      by_cases hk : k = Nt + 1
      · subst hk
        have := output_good mode w nw (Nt + 1) (runActs d (acts mode w nw n Nt))
        rw [fileName, if_neg hm, hf] at this
        exact Option.some.inj this
      · by_cases hk2 : k + 2 * w = Nt + 1
        · -- the recycled file is either untouched or gone
          revert hf
          unfold outputActs
          rw [runActs_append]
          rw [runActs_spares (n := .numbered k)]
          · split
            · unfold deletePrevious
              split
              · intro hf
                have hkk : Nt + 1 - 2 * w = k := by omega
                rw [hkk] at hf
                rw [show ∀ (D : Disk) (a : Act), runActs D [a] = a.run D from fun _ _ => rfl,
                  mv_run] at hf
                split at hf
                · exact ih k f hf
                · rw [if_neg (by intro h; exact hk (Name.numbered.inj h)), if_pos rfl] at hf
                  cases hf
              · exact ih k f
            · exact ih k f
          · intro a ha
            have hne : Name.numbered k ≠ fileName mode (Nt + 1) := by
              rw [fileName, if_neg hm]; intro h; exact hk (Name.numbered.inj h)
            simp only [List.mem_append, List.mem_cons, List.not_mem_nil, or_false] at ha
            rcases ha with (rfl | ha) | rfl
            · exact hne
            · rw [List.eq_of_mem_replicate ha]; trivial
            · exact hne
        · rw [runActs_spares (output_spares hm hk hk2)] at hf
          exact ih k f hf
    · exact ih

/-- **C40 (partial), second half.**  At every crash point, every numbered file other than the one
of the output in progress is complete and holds the step of its label.  Missing: the file in
progress itself, which may be mislabelled (`mislabelled_breakpoint`) or incomplete. -/
theorem crash_labels_partial (mode : Int) (hm : mode ≠ -1) (w nw n Nt : Nat)
    (hNt : n ≤ Nt) (d : Disk) (hd : Labelled d) (p : List Act) (hp : p <+: acts mode w nw n Nt) :
    ∃ s, n ≤ s ∧ s ≤ Nt ∧ ∀ k f, k ≠ s → runActs d p (.numbered k) = some f → f = ⟨k, true⟩ := by
  induction Nt, hNt using Nat.le_induction generalizing p with
  | base =>
    rw [acts_self, List.prefix_nil] at hp
    subst hp
    exact ⟨n, le_refl _, le_refl _, fun k f _ h => hd k f h⟩
  | succ Nt hle ih =>
    rw [acts_succ _ _ _ _ _ hle] at hp
    rcases prefix_append_cases hp with h | ⟨q, hq, rfl⟩
    · obtain ⟨s, h1, h2, h3⟩ := ih p h
      exact ⟨s, h1, by omega, h3⟩
    · refine ⟨Nt + 1, by omega, le_refl _, ?_⟩
      intro k f hk hf
      have hlab := labelled_after mode hm w nw n d hd Nt hle
      rw [runActs_append] at hf
      revert hq
      split
      · intro hq
        -- a prefix of the output acts: only a rename can affect file `k`
        have hgen : ∀ (l : List Act) (D : Disk), Labelled' D (Nt + 1) →
            (∀ a ∈ l, a ∈ outputActs mode w nw (Nt + 1)) → Labelled' (runActs D l) (Nt + 1) := by
          intro l
          induction l with
          | nil => intro D hD _; exact hD
          | cons a l ihl =>
            intro D hD hl
            refine ihl _ ?_ fun b hb => hl b (List.mem_cons_of_mem _ hb)
            intro k f hk hf
            have hne : Name.numbered k ≠ fileName mode (Nt + 1) := by
              rw [fileName, if_neg hm]; intro h; exact hk (Name.numbered.inj h)
            rcases mem_outputActs (hl a List.mem_cons_self) with ⟨-, -, rfl⟩ | rfl | rfl | rfl
            · rw [mv_run] at hf
              split at hf
              · exact hD k f hk hf
              · rw [if_neg (by intro h; exact hk (Name.numbered.inj h))] at hf
                split at hf
                · cases hf
                · exact hD k f hk hf
            · rw [run_spares (show Act.spares _ (Act.openW _ _) from hne)] at hf
              exact hD k f hk hf
            · exact hD k f hk hf
            · rw [run_spares (show Act.spares _ (Act.close _) from hne)] at hf
              exact hD k f hk hf
        exact hgen q _ (fun k f _ h => hlab k f h) (fun a ha => hq.subset ha) k f hk hf
      · intro hq
        rw [List.prefix_nil] at hq
        subst hq
        exact hlab k f hf

/-! ### How many files there are -/

/-- Only files of the list exist. -/
def Within (d : Disk) (L : List Name) : Prop := ∀ k, d k ≠ none → k ∈ L

theorem within_run {d : Disk} {L : List Name} {n : Name} (hn : n ∈ L) (l : List Act)
    (hl : ∀ a ∈ l, (∃ s, a = .openW n s) ∨ a = .more n ∨ a = .close n) (h : Within d L) :
    Within (runActs d l) L := by
  induction l generalizing d with
  | nil => exact h
  | cons a l ih =>
    refine ih (fun b hb => hl b (List.mem_cons_of_mem _ hb)) ?_
    intro k hk
    by_cases hkn : k = n
    · rw [hkn]; exact hn
    · apply h k
      intro h0
      apply hk
      rw [run_spares]
      · exact h0
      · rcases hl a List.mem_cons_self with ⟨s, rfl⟩ | rfl | rfl
        · exact hkn
        · trivial
        · exact hkn

/-- The disk actions of an output step: rotation, then writing. -/
theorem output_prefix {w nw s : Nat} {q : List Act} (hq : q <+: outputActs 1 w nw s) :
    q = [] ∨ ∃ l, q = deletePrevious s w ++ l ∧
      ∀ a ∈ l, (∃ s', a = .openW (.numbered s) s') ∨ a = .more (.numbered s) ∨
        a = .close (.numbered s) := by
  unfold outputActs at hq
  rw [if_pos rfl] at hq
  have hrest : ∀ l, l <+: (Act.openW (fileName 1 s) s :: List.replicate nw (.more (fileName 1 s)) ++
      [Act.close (fileName 1 s)]) → ∀ a ∈ l, (∃ s', a = .openW (.numbered s) s') ∨
        a = .more (.numbered s) ∨ a = .close (.numbered s) := by
    intro l hl a ha
    have := hl.subset ha
    simp only [List.mem_append, List.mem_cons, List.not_mem_nil, or_false] at this
    rcases this with (h | h) | h
    · exact Or.inl ⟨s, h⟩
    · exact Or.inr (Or.inl (List.eq_of_mem_replicate h))
    · exact Or.inr (Or.inr h)
  rcases prefix_append_cases hq with h | ⟨l, hl, rfl⟩
  · unfold deletePrevious at h ⊢
    split at h
    · rename_i hc
      rcases List.prefix_cons_iff.1 h with h | ⟨t, rfl, ht⟩
      · exact Or.inl h
      · rw [List.prefix_nil] at ht
        subst ht
        refine Or.inr ⟨[], by rw [if_pos hc]; rfl, fun a ha => absurd ha List.not_mem_nil⟩
    · rw [List.prefix_nil] at h
      exact Or.inl h
  · exact Or.inr ⟨l, rfl, hrest l hl⟩

/-- After the rotation of output step `s = T + w` at most the files of step 1, `T` and `s` exist. -/
theorem within_rotate {w T : Nat} {d : Disk} (h0 : d (.numbered 0) = none)
    (h : Within d [.numbered 1, .numbered (T - w), .numbered T]) :
    Within (runActs d (deletePrevious (T + w) w))
      [.numbered 1, .numbered T, .numbered (T + w)] := by
  unfold deletePrevious
  split
  · rename_i hc
    have he : T + w - 2 * w = T - w := by omega
    rw [he]
    intro k hk
    rw [show ∀ (D : Disk) (a : Act), runActs D [a] = a.run D from fun _ _ => rfl, mv_run] at hk
    split at hk
    · rename_i hnone
      have := h k hk
      simp only [List.mem_cons, List.not_mem_nil, or_false] at this ⊢
      rcases this with rfl | rfl | rfl
      · exact Or.inl rfl
      · exact absurd hnone hk
      · exact Or.inr (Or.inl rfl)
    · split at hk
      · rename_i hk2
        rw [hk2]; simp
      · split at hk
        · exact absurd rfl hk
        · rename_i hne
          have := h k hk
          simp only [List.mem_cons, List.not_mem_nil, or_false] at this ⊢
          rcases this with rfl | rfl | rfl
          · exact Or.inl rfl
          · exact absurd rfl hne
          · exact Or.inr (Or.inl rfl)
  · rename_i hc
    intro k hk
    have hk' : d k ≠ none := hk
    have := h k hk'
    simp only [List.mem_cons, List.not_mem_nil, or_false] at this ⊢
    rcases this with rfl | rfl | rfl
    · exact Or.inl rfl
    · have : T - w = 0 ∨ T - w = 1 := by omega
      rcases this with h1 | h1
      · rw [h1] at hk'
        exact absurd h0 hk'
      · rw [h1]; exact Or.inl rfl
    · exact Or.inr (Or.inl rfl)

theorem zero_never {w nw Nt : Nat} {d : Disk} (h0 : d (.numbered 0) = none)
    {p : List Act} (hp : p <+: acts 1 w nw 0 Nt) : runActs d p (.numbered 0) = none := by
  have hall : ∀ a ∈ p, a.spares (.numbered 0) := by
    intro a ha
    have := hp.subset ha
    unfold acts at this
    obtain ⟨s, hs, ha⟩ := List.mem_flatMap.1 this
    have hs' := List.mem_range'_1.1 hs
    split at ha
    · rcases mem_outputActs ha with ⟨-, h3, rfl⟩ | rfl | rfl | rfl
      · constructor <;> intro h <;> have := Name.numbered.inj h <;> omega
      · intro h; have := Name.numbered.inj h; omega
      · trivial
      · intro h; have := Name.numbered.inj h; omega
    · cases ha
  rw [runActs_spares hall, h0]

theorem within_after (w nw Nt : Nat) (hw : 0 < w) (d : Disk) (hd : ∀ k, d k = none) :
    Within (runActs d (acts 1 w nw 0 Nt))
      [.numbered 1, .numbered (lastOutput w Nt - w), .numbered (lastOutput w Nt)] := by
  induction Nt with
  | zero => rw [acts_self]; intro k hk; exact absurd (hd k) hk
  | succ Nt ih =>
    rw [acts_succ _ _ _ _ _ (Nat.zero_le _), runActs_append]
    by_cases h : (Nt + 1) % w = 0
    · have hpo := prev_output hw h
      rw [if_pos h, lastOutput_succ_pos h, ← hpo, Nat.add_sub_cancel]
      rcases output_prefix (List.prefix_refl (outputActs 1 w nw (lastOutput w Nt + w))) with
        h1 | ⟨l, h1, h2⟩
      · exfalso
        unfold outputActs at h1
        simp at h1
      · rw [h1, runActs_append]
        exact within_run (by simp) l h2
          (within_rotate (zero_never (hd _) (List.prefix_refl _)) ih)
    · rw [if_neg h, lastOutput_succ_neg hw h]; exact ih

/-- **C40, number of files.**  With rotation on, started in an empty directory, at every crash point
there are at most three breakpoint files. -/
theorem at_most_three_files (w nw Nt : Nat) (hw : 0 < w) (d : Disk) (hd : ∀ k, d k = none)
    (p : List Act) (hp : p <+: acts 1 w nw 0 Nt) :
    ∃ L : List Name, L.length ≤ 3 ∧ ∀ k, runActs d p k ≠ none → k ∈ L := by
  induction Nt generalizing p with
  | zero =>
    rw [acts_self, List.prefix_nil] at hp
    subst hp
    exact ⟨[], by simp, fun k hk => absurd (hd k) hk⟩
  | succ Nt ih =>
    rw [acts_succ _ _ _ _ _ (Nat.zero_le _)] at hp
    rcases prefix_append_cases hp with h | ⟨q, hq, rfl⟩
    · exact ih p h
    · have hwi := within_after w nw Nt hw d hd
      rw [runActs_append]
      by_cases h : (Nt + 1) % w = 0
      · have hpo := prev_output hw h
        rw [if_pos h, ← hpo] at hq
        rcases output_prefix hq with h1 | ⟨l, h1, h2⟩
        · subst h1
          exact ⟨_, by simp, hwi⟩
        · rw [h1, runActs_append]
          exact ⟨[.numbered 1, .numbered (lastOutput w Nt), .numbered (lastOutput w Nt + w)],
            by simp, within_run (by simp) l h2
              (within_rotate (zero_never (hd _) (List.prefix_refl _)) hwi)⟩
      · rw [if_neg h, List.prefix_nil] at hq
        subst hq
        exact ⟨_, by simp, hwi⟩

/-- With `delete_breakpoints = -1` the only breakpoint is truncated before it is rewritten: for every
output step there is a crash point at which no complete breakpoint exists. -/
theorem single_file_can_be_lost (w nw n Nt s : Nat) (hs : s % w = 0) (h1 : n < s) (h2 : s ≤ Nt)
    (d : Disk) (hd : ∀ k, d (.numbered k) = none) :
    ∃ p, p <+: acts (-1) w nw n Nt ∧ ∀ k f, runActs d p k = some f → f.complete = false := by
  obtain ⟨k, rfl⟩ : ∃ k, s = k + 1 := ⟨s - 1, by omega⟩
  refine ⟨acts (-1) w nw n k ++ [.openW .fixed (k + 1)], ?_, ?_⟩
  · have hmono : ∀ M, k + 1 ≤ M → acts (-1) w nw n (k + 1) <+: acts (-1) w nw n M := by
      intro M hM
      induction M, hM using Nat.le_induction with
      | base => exact List.prefix_refl _
      | succ M hM ih =>
        rw [acts_succ (-1) w nw n M (by omega)]
        exact ih.trans (List.prefix_append _ _)
    refine List.IsPrefix.trans ?_ (hmono Nt h2)
    rw [acts_succ _ _ _ _ _ (by omega), if_pos hs]
    refine (List.prefix_append_right_inj _).2 ?_
    unfold outputActs
    rw [if_neg (by decide)]
    exact ⟨_, rfl⟩
  · have hno : ∀ j, runActs d (acts (-1) w nw n k) (.numbered j) = none := by
      intro j
      rw [runActs_spares, hd]
      intro a ha
      unfold acts at ha
      obtain ⟨s, hs, ha⟩ := List.mem_flatMap.1 ha
      split at ha
      · rcases mem_outputActs ha with ⟨h, -⟩ | rfl | rfl | rfl
        · exact absurd h (by decide)
        · intro h; cases h
        · trivial
        · intro h; cases h
      · cases ha
    intro name f hf
    rw [runActs_append] at hf
    simp only [runActs, List.foldl_cons, List.foldl_nil, Act.run] at hf
    split at hf
    · rw [← Option.some.inj hf]
    · cases name with
      | numbered j =>
        have h := hno j
        unfold runActs at h
        rw [h] at hf
        cases hf
      | fixed => rename_i h; exact absurd rfl h

/-! ### C41 -/

variable {σ : Type*}

theorem loop_log (f : Nat → σ → σ) (Nt n : Nat) (s : σ) :
    (loop f Nt n s).2 = List.range' (n + 1) (Nt - n) := by
  unfold loop
  have : ∀ (l : List Nat) (p : σ × List Nat),
      (l.foldl (fun p k => (f k p.1, p.2 ++ [k])) p).2 = p.2 ++ l := by
    intro l
    induction l with
    | nil => intro p; simp
    | cons a l ih => intro p; rw [List.foldl_cons, ih]; simp
  rw [this]; simp

theorem loop_state (f : Nat → σ → σ) (Nt n : Nat) (s : σ) :
    (loop f Nt n s).1 = (List.range' (n + 1) (Nt - n)).foldl (fun s k => f k s) s := by
  unfold loop
  have : ∀ (l : List Nat) (p : σ × List Nat),
      (l.foldl (fun p k => (f k p.1, p.2 ++ [k])) p).1 = l.foldl (fun s k => f k s) p.1 := by
    intro l
    induction l with
    | nil => intro p; rfl
    | cons a l ih => intro p; rw [List.foldl_cons, List.foldl_cons, ih]
  rw [this]

theorem loop_split (f : Nat → σ → σ) {Nt n : Nat} (h : n ≤ Nt) (s : σ) :
    (loop f Nt 0 s).1 = (loop f Nt n (loop f n 0 s).1).1 := by
  rw [loop_state, loop_state, loop_state, ← List.foldl_append]
  congr 1
  have : Nt - 0 = (n - 0) + (Nt - n) := by omega
  rw [this, ← List.range'_append]
  congr 2
  omega

/-- Which steps are executed: a fresh start runs `1..Nt`, a restart from step `n` runs `n+1..Nt`,
each once and in order; asking for a restart from step 0 is a fresh start. -/
theorem steps_executed (f : Nat → σ → σ) (Nt : Nat) (irestart : Int) (n : Nat) (init : σ)
    (loaded : Nat → σ) : (runMain f Nt irestart n init loaded).2 =
      if irestart = 0 ∨ n = 0 then List.range' 1 Nt else List.range' (n + 1) (Nt - n) := by
  unfold runMain effectiveRestart
  by_cases hn : n = 0
  · subst hn; simp [loop_log]
  · by_cases hi : irestart = 0
    · simp [hi, loop_log]
    · simp [hn, hi, loop_log]

/-- **C41.**  Let `R` be any relation between states ("the same as far as the breakpoint goes") that
the time step respects.  If the loaded state is `R`-related to the state of the uninterrupted run at
step `n`, then at every later step `k` the restarted run is `R`-related to the uninterrupted one. -/
theorem restart_follows (f : Nat → σ → σ) (R : σ → σ → Prop)
    (hf : ∀ k a b, R a b → R (f k a) (f k b)) (irestart : Int) (hi : irestart ≠ 0) (n : Nat)
    (hn : 0 < n) (init : σ) (loaded : Nat → σ)
    (hload : R (runMain f n 0 0 init loaded).1 (loaded n)) (k : Nat) (hk : n ≤ k) :
    R (runMain f k 0 0 init loaded).1 (runMain f k irestart n init loaded).1 := by
  have h1 : ∀ k, (runMain f k 0 0 init loaded).1 = (loop f k 0 init).1 := by
    intro k; simp [runMain, effectiveRestart]
  have h2 : (runMain f k irestart n init loaded).1 = (loop f k n (loaded n)).1 := by
    simp [runMain, effectiveRestart, hn.ne', hi]
  rw [h1] at hload ⊢
  rw [h2, loop_split f hk, loop_state f k n, loop_state f k n]
  have : ∀ (l : List Nat) (a b : σ), R a b →
      R (l.foldl (fun s k => f k s) a) (l.foldl (fun s k => f k s) b) := by
    intro l
    induction l with
    | nil => intro a b h; exact h
    | cons k l ih => intro a b h; exact ih _ _ (hf k a b h)
  exact this _ _ _ hload

/-- **C41 (partial), with the breakpoint of `Verif.Model.Breakpoint`.**  For every step function that
depends only on the state of the run, an interrupted and an uninterrupted run agree on that state at
every later step, whatever was in memory when the restarted program loaded the file.  Missing: the
quantities not in `Restored` (the old stresses, which the time step recomputes from the markers). -/
theorem restart_same_state_partial {K : Type*} [Field K] (sw : Bp.Sw) (sc : Bp.Scales K)
    (hsc : ∀ x : Bp.Fac, x.val sc ≠ 0) (f : Nat → Bp.Mem K → Bp.Mem K)
    (hf : ∀ k a b, Bp.Restored sw a b → Bp.Restored sw (f k a) (f k b)) (irestart : Int)
    (hi : irestart ≠ 0) (n : Nat) (hn : 0 < n) (init fresh : Bp.Mem K) :
    ∃ loaded, Bp.load sw sc (Bp.make sw sc (loop f n 0 init).1).1 fresh = some loaded ∧
      ∀ k, n ≤ k → Bp.Restored sw (runMain f k 0 0 init fun _ => loaded).1
        (runMain f k irestart n init fun _ => loaded).1 := by
  obtain ⟨r, h1, h2⟩ := Bp.breakpoint_round_trip_partial sw sc hsc (loop f n 0 init).1 fresh
  refine ⟨r, h1, fun k hk => ?_⟩
  refine restart_follows f (Bp.Restored sw) hf irestart hi n hn init (fun _ => r) ?_ k hk
  simpa [runMain, effectiveRestart] using h2

/-- Restarting from a mislabelled file (see `mislabelled_breakpoint`) silently loses the steps in
between: the file labelled `s` holds the state of step `s - 2w`, and the run goes on with `s + 1`. -/
theorem restart_mislabelled_skips (f : Nat → σ → σ) (Nt w s : Nat) (hs : 0 < s) (init : σ)
    (loaded : Nat → σ) (hl : loaded s = (loop f (s - 2 * w) 0 init).1) :
    (runMain f Nt 1 s init loaded).1 =
      (List.range' 1 (s - 2 * w) ++ List.range' (s + 1) (Nt - s)).foldl (fun a k => f k a) init := by
  have : runMain f Nt 1 s init loaded = loop f Nt s (loaded s) := by
    simp [runMain, effectiveRestart, hs.ne']
  rw [this, hl, loop_state, loop_state, List.foldl_append]
  simp

/-! ### Non-vacuity -/

/-- Output every 2 steps, three `fwrite` calls; the directory holds the breakpoint of step 4. -/
def demoDisk : Disk := fun n =>
  if n = .numbered 4 then some ⟨4, true⟩ else if n = .numbered 2 then some ⟨2, true⟩ else none

example : Good demoDisk 4 := by unfold Good; decide

example : Labelled demoDisk := by
  intro k f h
  unfold demoDisk at h
  split at h
  · rename_i hk; cases hk; exact (Option.some.inj h).symm
  · split at h
    · rename_i hk; cases hk; exact (Option.some.inj h).symm
    · cases h

/-- A concrete crash: right after the rename at step 6 the file labelled 6 holds step 2. -/
example : runActs demoDisk ((acts 1 2 3 4 8).take 1) (.numbered 6) = some ⟨2, true⟩ := by decide

example : (acts 1 2 3 4 8).length = 12 ∧ (acts 1 2 3 4 8).take 1 <+: acts 1 2 3 4 8 :=
  ⟨by decide, List.take_prefix _ _⟩

/-- A step function that respects the stored state: advance time by the time step. -/
example : (runMain (fun k (s : Nat × Nat) => (s.1 + k, s.2)) 5 1 3 (0, 0) (fun _ => (6, 99))).1.1 =
    (runMain (fun k (s : Nat × Nat) => (s.1 + k, s.2)) 5 0 0 (0, 0) (fun _ => (6, 99))).1.1 ∧
    (runMain (fun k (s : Nat × Nat) => (s.1 + k, s.2)) 5 1 3 (0, 0) (fun _ => (6, 99))).2 = [4, 5] := by
  decide

/-- A step function on the memory of the breakpoint model that meets the hypothesis of
`restart_same_state_partial`: every real quantity changes by a factor that depends on the step. -/
example (sw : Bp.Sw) (k : Nat) (a b : Bp.Mem ℚ) (h : Bp.Restored sw a b) :
    Bp.Restored sw ⟨fun f i => (k + 2) * a.D f i, a.Z⟩ ⟨fun f i => (k + 2) * b.D f i, b.Z⟩ := by
  have hD : ∀ (l : List Bp.Fld) (n : Nat), Bp.SameD a b l n →
      Bp.SameD ⟨fun f i => (k + 2) * a.D f i, a.Z⟩ ⟨fun f i => (k + 2) * b.D f i, b.Z⟩ l n := by
    intro l n h f hf i hi
    show (k + 2 : ℚ) * b.D f i = (k + 2) * a.D f i
    rw [h f hf i hi]
  exact ⟨hD _ _ h.scalars, h.count, hD _ _ h.markers, h.phases, hD _ _ h.centres, h.centreTags,
    hD _ _ h.vertices, h.vertexTags, hD _ _ h.vx, h.vxTags, hD _ _ h.vz, h.vzTags, hD _ _ h.series,
    fun h1 c hc => ⟨(h.chain h1 c hc).1, hD _ _ (h.chain h1 c hc).2⟩,
    fun h1 => hD _ _ (h.columns h1), fun h1 => hD _ _ (h.columns1 h1),
    fun h1 => hD _ _ (h.segments h1)⟩

end Verif.Run
