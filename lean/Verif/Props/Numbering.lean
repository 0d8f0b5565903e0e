import Verif.Lemmas.Numbering

/- C01: the Stokes equation numbering is a bijection. -/
namespace Verif

/-- C01.  For every grid with at least two vertices per row, every tag map in which east-periodic
nodes sit in the last column, and whatever the freshly allocated arrays contain:
solved nodes get numbers in `0..neq-1`, different solved nodes get different numbers, every
number is used, velocities come before pressures, unsolved nodes get -1 and an east-periodic Vx
node gets the number of its west twin in the same row. -/
theorem numbering_bijective (Nx Nz : Nat) (hNx : 2 ≤ Nx) (t : Tags) (junk : Nat → Int)
    (hE : ∀ k < (Nz + 1) * Nx, t.u k = -12 → k % Nx = Nx - 1) :
    let n := evalNumberOfEquations Nx Nz t junk
    (∀ d : Dof, d.InGrid Nx Nz → d.Solved t → 0 ≤ d.eqn n ∧ d.eqn n < n.neq) ∧
    (∀ d d' : Dof, d.InGrid Nx Nz → d'.InGrid Nx Nz → d.Solved t → d'.Solved t →
      d.eqn n = d'.eqn n → d = d') ∧
    (∀ e : Nat, e < n.neq → ∃ d : Dof, d.InGrid Nx Nz ∧ d.Solved t ∧ d.eqn n = e) ∧
    (∀ d : Dof, d.InGrid Nx Nz → d.Solved t →
      (d.eqn n < n.neqMom ↔ ∀ k, d ≠ .p k)) ∧
    (∀ d : Dof, d.InGrid Nx Nz → ¬ d.Solved t → (∀ k, d = .u k → t.u k ≠ -12) →
      d.eqn n = -1) ∧
    (∀ l ≤ Nz, t.u (l * Nx + (Nx - 1)) = -12 →
      n.eqnU (l * Nx + (Nx - 1)) = n.eqnU (l * Nx)) ∧
    n.neq = n.neqMom + n.neqCont := by
  intro n
  obtain ⟨cu, cv, cp, R⟩ := rankForm Nx Nz hNx t junk hE
  change RankForm Nx Nz t n cu cv cp at R
  have su : ∀ k, k < (Nz + 1) * Nx → Dof.Solved t (.u k) →
      n.eqnU k = ((Nat.count (fun k => numberedU (t.u k) = true) k : Nat) : Int) ∧
      Nat.count (fun k => numberedU (t.u k) = true) k < cu := by
    intro k hk hs
    have hs' := (numberedU_iff t k).2 hs
    refine ⟨by rw [R.u k hk, if_pos hs'], ?_⟩
    rw [R.hcu]; exact Nat.count_strict_mono (p := fun k => numberedU (t.u k) = true) hs' hk
  have sv : ∀ k, k < Nz * (Nx + 1) → Dof.Solved t (.v k) →
      n.eqnV k = ((cu + Nat.count (fun k => numberedV (t.v k) = true) k : Nat) : Int) ∧
      Nat.count (fun k => numberedV (t.v k) = true) k < cv := by
    intro k hk hs
    have hs' := (numberedV_iff t k).2 hs
    refine ⟨by rw [R.v k hk, if_pos hs'], ?_⟩
    rw [R.hcv]; exact Nat.count_strict_mono (p := fun k => numberedV (t.v k) = true) hs' hk
  have sp : ∀ k, k < (Nz - 1) * (Nx - 1) → Dof.Solved t (.p k) →
      n.eqnP k = ((cu + cv + Nat.count (fun k => numberedP (t.p k) = true) k : Nat) : Int) ∧
      Nat.count (fun k => numberedP (t.p k) = true) k < cp := by
    intro k hk hs
    have hs' := (numberedP_iff t k).2 hs
    refine ⟨by rw [R.p k hk, if_pos hs'], ?_⟩
    rw [R.hcp]; exact Nat.count_strict_mono (p := fun k => numberedP (t.p k) = true) hs' hk
  refine ⟨?_, ?_, ?_, ?_, ?_, ?_, ?_⟩
  · intro d hg hs
    cases d with
    | u k => have := su k hg hs; simp only [Dof.eqn, this.1, R.neq]; omega
    | v k => have := sv k hg hs; simp only [Dof.eqn, this.1, R.neq]; omega
    | p k => have := sp k hg hs; simp only [Dof.eqn, this.1, R.neq]; omega
  · intro d d' hg hg' hs hs' he
    cases d with
    | u k =>
      have h := su k hg hs
      cases d' with
      | u k' =>
        have h' := su k' hg' hs'
        simp only [Dof.eqn, h.1, h'.1] at he
        have := Nat.count_injective (p := fun k => numberedU (t.u k) = true)
          ((numberedU_iff t k).2 hs) ((numberedU_iff t k').2 hs') (by exact_mod_cast he)
        rw [this]
      | v k' => have h' := sv k' hg' hs'; simp only [Dof.eqn, h.1, h'.1] at he; omega
      | p k' => have h' := sp k' hg' hs'; simp only [Dof.eqn, h.1, h'.1] at he; omega
    | v k =>
      have h := sv k hg hs
      cases d' with
      | u k' => have h' := su k' hg' hs'; simp only [Dof.eqn, h.1, h'.1] at he; omega
      | v k' =>
        have h' := sv k' hg' hs'
        simp only [Dof.eqn, h.1, h'.1] at he
        have := Nat.count_injective (p := fun k => numberedV (t.v k) = true)
          ((numberedV_iff t k).2 hs) ((numberedV_iff t k').2 hs') (by omega)
        rw [this]
      | p k' => have h' := sp k' hg' hs'; simp only [Dof.eqn, h.1, h'.1] at he; omega
    | p k =>
      have h := sp k hg hs
      cases d' with
      | u k' => have h' := su k' hg' hs'; simp only [Dof.eqn, h.1, h'.1] at he; omega
      | v k' => have h' := sv k' hg' hs'; simp only [Dof.eqn, h.1, h'.1] at he; omega
      | p k' =>
        have h' := sp k' hg' hs'
        simp only [Dof.eqn, h.1, h'.1] at he
        have := Nat.count_injective (p := fun k => numberedP (t.p k) = true)
          ((numberedP_iff t k).2 hs) ((numberedP_iff t k').2 hs') (by omega)
        rw [this]
  · intro e he
    rw [R.neq] at he
    by_cases h1 : e < cu
    · rw [R.hcu] at h1
      obtain ⟨k, hk, hs, hc⟩ := exists_count_eq _ _ _ h1
      have hs' := (numberedU_iff t k).1 hs
      exact ⟨.u k, hk, hs', by simp only [Dof.eqn]; rw [(su k hk hs').1, hc]⟩
    · by_cases h2 : e - cu < cv
      · rw [R.hcv] at h2
        obtain ⟨k, hk, hs, hc⟩ := exists_count_eq _ _ _ h2
        have hs' := (numberedV_iff t k).1 hs
        exact ⟨.v k, hk, hs', by simp only [Dof.eqn]; rw [(sv k hk hs').1, hc]; omega⟩
      · have h3 : e - cu - cv < cp := by omega
        rw [R.hcp] at h3
        obtain ⟨k, hk, hs, hc⟩ := exists_count_eq _ _ _ h3
        have hs' := (numberedP_iff t k).1 hs
        exact ⟨.p k, hk, hs', by simp only [Dof.eqn]; rw [(sp k hk hs').1, hc]; omega⟩
  · intro d hg hs
    cases d with
    | u k =>
      have := su k hg hs
      simp only [Dof.eqn, this.1, R.mom]
      exact ⟨fun _ _ => by simp, fun _ => by omega⟩
    | v k =>
      have := sv k hg hs
      simp only [Dof.eqn, this.1, R.mom]
      exact ⟨fun _ _ => by simp, fun _ => by omega⟩
    | p k =>
      have := sp k hg hs
      simp only [Dof.eqn, this.1, R.mom]
      exact ⟨fun h => by omega, fun h => absurd rfl (h k)⟩
  · intro d hg hs h12
    cases d with
    | u k =>
      simp only [Dof.eqn]
      rw [R.u k hg, if_neg (fun h => hs ((numberedU_iff t k).1 h)), if_neg (h12 k rfl)]
    | v k => simp only [Dof.eqn]; rw [R.v k hg, if_neg (fun h => hs ((numberedV_iff t k).1 h))]
    | p k => simp only [Dof.eqn]; rw [R.p k hg, if_neg (fun h => hs ((numberedP_iff t k).1 h))]
  · intro l hl h12
    have hk : l * Nx + (Nx - 1) < (Nz + 1) * Nx := by
      have := Nat.mul_le_mul_right Nx hl
      rw [Nat.succ_mul]; omega
    rw [R.u _ hk, if_pos h12, if_neg]
    · congr 1; omega
    · rw [h12]; simp [numberedU]
  · rw [R.neq, R.mom, R.cont]

/-- Non-vacuity: a 3x3 periodic grid. West column -2, east column -12, Vx ghost rows 11. -/
def exTags : Tags where
  u := fun k => if k / 3 = 0 ∨ k / 3 = 3 then 11 else
    if k % 3 = 0 then -2 else if k % 3 = 2 then -12 else -1
  v := fun k => if k % 4 = 0 ∨ k % 4 = 3 then -12 else if k / 4 = 1 then -1 else 0
  p := fun _ => -1

theorem exTags_ok : TagsOk 3 3 exTags :=
  ⟨by decide, by decide, by decide, by decide⟩

example : (∀ k < (3 + 1) * 3, exTags.u k = -12 → k % 3 = 3 - 1) ∧
    (evalNumberOfEquations 3 3 exTags (fun _ => 77)).neq = 10 := by
  constructor
  · decide
  · decide

end Verif
