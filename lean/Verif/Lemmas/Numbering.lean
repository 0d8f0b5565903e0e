import Verif.Spec.Staggered
import Mathlib.Data.Nat.Count
import Mathlib.Data.Nat.Nth

namespace Verif

/-- Closed form of the V and P numbering loops. -/
theorem numBody_loop (test : Int → Bool) (tag junk : Nat → Int) (i0 n : Nat) :
    let s := forUp n { eqn := junk, inc := i0 } (numBody test tag)
    s.inc = i0 + Nat.count (fun k => test (tag k) = true) n ∧
    ∀ j < n, s.eqn j = if test (tag j) = true then
        ((i0 + Nat.count (fun k => test (tag k) = true) j : Nat) : Int) else -1 := by
  induction n with
  | zero => simp
  | succ n ih =>
    simp only [forUp_succ] at ih ⊢
    obtain ⟨h1, h2⟩ := ih
    by_cases ht : test (tag n) = true
    · simp only [numBody, ht, if_true]
      refine ⟨by rw [h1, Nat.count_succ]; simp [ht]; omega, ?_⟩
      intro j hj
      by_cases hjn : j = n
      · subst hjn; simp [ht, h1]
      · rw [upd_ne _ _ hjn, upd_ne _ _ hjn]; exact h2 j (by omega)
    · simp only [numBody, ht]
      refine ⟨by rw [Nat.count_succ]; simp [ht, h1], ?_⟩
      intro j hj
      by_cases hjn : j = n
      · subst hjn; simp [ht]
      · simp only [Bool.false_eq_true, if_false]
        rw [upd_ne _ _ hjn]; exact h2 j (by omega)

/-- Closed form of the U numbering loop. -/
theorem numUBody_loop (Nx : Nat) (hNx : 2 ≤ Nx) (tag junk : Nat → Int) (i0 n : Nat)
    (hE : ∀ k < n, tag k = -12 → k % Nx = Nx - 1) :
    let s := forUp n { eqn := junk, inc := i0 } (numUBody Nx tag)
    s.inc = i0 + Nat.count (fun k => numberedU (tag k) = true) n ∧
    ∀ j < n, s.eqn j = if numberedU (tag j) = true then
        ((i0 + Nat.count (fun k => numberedU (tag k) = true) j : Nat) : Int)
      else if tag j = -12 then s.eqn (j + 1 - Nx) else -1 := by
  induction n with
  | zero => simp
  | succ n ih =>
    simp only [forUp_succ] at ih ⊢
    obtain ⟨h1, h2⟩ := ih (fun k hk => hE k (by omega))
    have hlt : tag n = -12 → n + 1 - Nx < n := by
      intro h
      have h1 := hE n (by omega) h
      have h2 := Nat.mod_le n Nx
      omega
    have hlt' : ∀ j, j < n → tag j = -12 → j + 1 - Nx ≠ n := by intro j hj _; omega
    by_cases ht : numberedU (tag n) = true
    · have hn12 : tag n ≠ -12 := by
        intro h; rw [h] at ht; simp [numberedU] at ht
      simp only [numUBody, ht, if_true, beq_iff_eq, hn12, if_false]
      refine ⟨by rw [h1, Nat.count_succ]; simp [ht]; omega, ?_⟩
      intro j hj
      by_cases hjn : j = n
      · subst hjn; simp [ht, h1]
      · rw [upd_ne _ _ hjn, upd_ne _ _ hjn, h2 j (by omega)]
        by_cases hj12 : tag j = -12
        · have := hlt' j (by omega) hj12
          rw [upd_ne _ _ this, upd_ne _ _ this]
        · simp [hj12]
    · simp only [numUBody, ht]
      by_cases h12 : tag n = -12
      · simp only [h12, beq_self_eq_true, if_true, Bool.false_eq_true, if_false]
        refine ⟨by rw [Nat.count_succ]; simp [ht, h1], ?_⟩
        intro j hj
        by_cases hjn : j = n
        · subst hjn
          have hne : j + 1 - Nx ≠ j := by have := hlt h12; omega
          simp [h12, upd_ne _ _ hne, numberedU]
        · rw [upd_ne _ _ hjn, upd_ne _ _ hjn, h2 j (by omega)]
          by_cases hj12 : tag j = -12
          · have := hlt' j (by omega) hj12
            rw [upd_ne _ _ this, upd_ne _ _ this]
          · simp [hj12]
      · simp only [beq_iff_eq, h12, Bool.false_eq_true, if_false]
        refine ⟨by rw [Nat.count_succ]; simp [ht, h1], ?_⟩
        intro j hj
        by_cases hjn : j = n
        · subst hjn; simp [ht, h12]
        · rw [upd_ne _ _ hjn, h2 j (by omega)]
          by_cases hj12 : tag j = -12
          · have := hlt' j (by omega) hj12
            rw [upd_ne _ _ this]
          · simp [hj12]

/-- Every rank below the count is attained. -/
theorem exists_count_eq (p : Nat → Prop) [DecidablePred p] :
    ∀ n e, e < Nat.count p n → ∃ k < n, p k ∧ Nat.count p k = e := by
  intro n
  induction n with
  | zero => intro e he; simp at he
  | succ n ih =>
    intro e he
    rw [Nat.count_succ] at he
    by_cases hp : p n
    · simp only [hp, if_true] at he
      by_cases h : e < Nat.count p n
      · obtain ⟨k, hk, h1, h2⟩ := ih e h; exact ⟨k, by omega, h1, h2⟩
      · exact ⟨n, by omega, hp, by omega⟩
    · simp only [hp, if_false] at he
      obtain ⟨k, hk, h1, h2⟩ := ih e (by omega); exact ⟨k, by omega, h1, h2⟩

/-- Rank of a node in the numbering: all the facts needed about `evalNumberOfEquations`. -/
structure RankForm (Nx Nz : Nat) (t : Tags) (n : Numbering) (cu cv cp : Nat) : Prop where
  hcu : cu = Nat.count (fun k => numberedU (t.u k) = true) ((Nz + 1) * Nx)
  hcv : cv = Nat.count (fun k => numberedV (t.v k) = true) (Nz * (Nx + 1))
  hcp : cp = Nat.count (fun k => numberedP (t.p k) = true) ((Nz - 1) * (Nx - 1))
  mom : n.neqMom = cu + cv
  cont : n.neqCont = cp
  neq : n.neq = cu + cv + cp
  u : ∀ j < (Nz + 1) * Nx, n.eqnU j = if numberedU (t.u j) = true then
      ((Nat.count (fun k => numberedU (t.u k) = true) j : Nat) : Int)
      else if t.u j = -12 then n.eqnU (j + 1 - Nx) else -1
  v : ∀ j < Nz * (Nx + 1), n.eqnV j = if numberedV (t.v j) = true then
      ((cu + Nat.count (fun k => numberedV (t.v k) = true) j : Nat) : Int) else -1
  p : ∀ j < (Nz - 1) * (Nx - 1), n.eqnP j = if numberedP (t.p j) = true then
      ((cu + cv + Nat.count (fun k => numberedP (t.p k) = true) j : Nat) : Int) else -1

theorem rankForm (Nx Nz : Nat) (hNx : 2 ≤ Nx) (t : Tags) (junk : Nat → Int)
    (hE : ∀ k < (Nz + 1) * Nx, t.u k = -12 → k % Nx = Nx - 1) :
    ∃ cu cv cp, RankForm Nx Nz t (evalNumberOfEquations Nx Nz t junk) cu cv cp := by
  have hu := numUBody_loop Nx hNx t.u junk 0 ((Nz + 1) * Nx) hE
  have hv := numBody_loop numberedV t.v junk
    (forGrid Nx (Nz + 1) { eqn := junk, inc := 0 } (numUBody Nx t.u)).inc (Nz * (Nx + 1))
  have hp := numBody_loop numberedP t.p junk
    (forGrid (Nx + 1) Nz { eqn := junk, inc := (forGrid Nx (Nz + 1)
      { eqn := junk, inc := 0 } (numUBody Nx t.u)).inc } (numBody numberedV t.v)).inc
    ((Nz - 1) * (Nx - 1))
  rw [← forGrid_eq] at hu hv hp
  simp only [Nat.zero_add] at hu
  refine ⟨_, _, _, ⟨rfl, rfl, rfl, ?_, ?_, ?_, ?_, ?_, ?_⟩⟩
  · simp only [evalNumberOfEquations]; rw [hv.1, hu.1]
  · simp only [evalNumberOfEquations]; rw [hp.1]; omega
  · simp only [evalNumberOfEquations]; rw [hp.1, hv.1, hu.1]
  · intro j hj; exact hu.2 j hj
  · intro j hj; exact (hv.2 j hj).trans (by rw [hu.1])
  · intro j hj; exact (hp.2 j hj).trans (by rw [hv.1, hu.1])

theorem numberedU_iff (t : Tags) (k : Nat) :
    numberedU (t.u k) = true ↔ Dof.Solved t (.u k) := by
  simp [numberedU, Dof.Solved, or_assoc]
theorem numberedV_iff (t : Tags) (k : Nat) :
    numberedV (t.v k) = true ↔ Dof.Solved t (.v k) := by
  simp [numberedV, Dof.Solved]
theorem numberedP_iff (t : Tags) (k : Nat) :
    numberedP (t.p k) = true ↔ Dof.Solved t (.p k) := by
  simp [numberedP, Dof.Solved]

end Verif
