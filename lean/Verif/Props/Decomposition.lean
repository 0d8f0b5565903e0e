import Verif.Model.Decomposition
import Verif.Prelude

/- C04: the thread domain decomposition is a partition. -/
namespace Verif

/-- Start of block `i` in closed form. -/
theorem dd_loop (N nth : Nat) (junk : Nat → Int) (m : Nat) (hm : m ≤ nth) :
    let s := forUp m { estart := junk, eend := junk, x0 := 0 } (ddBody N nth)
    let b : Nat := (N - N % nth) / nth
    (∀ i < m, s.estart i = (i * b : Nat)) ∧
    (∀ i < m, s.eend i = ((i * b + blockSize N nth i : Nat) : Int) - 1) ∧
    s.x0 = ((if m < nth then m * b else if m = 0 then 0 else m * b + N % nth : Nat) : Int) := by
  intro s b
  induction m with
  | zero => refine ⟨by simp, by simp, ?_⟩; simp only [s, forUp_zero]; split <;> simp
  | succ m ih =>
    obtain ⟨h1, h2, h3⟩ := ih (by omega)
    simp only [if_pos (show m < nth by omega)] at h3
    simp only [s, forUp_succ, ddBody]
    refine ⟨?_, ?_, ?_⟩
    · intro i hi
      by_cases him : i = m
      · subst him; rw [upd_same, h3]
      · rw [upd_ne _ _ him]; exact h1 i (by omega)
    · intro i hi
      by_cases him : i = m
      · subst him; rw [upd_same, h3]; push_cast; ring
      · rw [upd_ne _ _ him]; exact h2 i (by omega)
    · rw [h3]
      by_cases hlt : m + 1 < nth
      · have : blockSize N nth m = b := by
          unfold blockSize; rw [if_pos (by omega)]
        rw [this, if_pos hlt]; push_cast; ring
      · have : blockSize N nth m = b + N % nth := by
          unfold blockSize; rw [if_neg (by omega)]
        rw [this, if_neg hlt, if_neg (by omega)]; push_cast; ring

/-- C04.  For every number of nodes and every positive number of threads: the ranges start at 0,
are consecutive, end at `N-1`, and every node lies in exactly one range. -/
theorem decomposition_partition (N nth : Nat) (hn : 1 ≤ nth) (junk : Nat → Int) :
    let s := domainDecomposition N nth junk
    s.estart 0 = 0 ∧
    (∀ i, i + 1 < nth → s.estart (i + 1) = s.eend i + 1) ∧
    s.eend (nth - 1) = (N : Int) - 1 ∧
    (∀ c : Int, 0 ≤ c → c < N → ∃! i : Nat, i < nth ∧ s.estart i ≤ c ∧ c < s.eend i + 1) ∧
    (∀ i < nth, ∀ c : Int, s.estart i ≤ c → c < s.eend i + 1 → 0 ≤ c ∧ c < N) := by
  intro s
  obtain ⟨h1, h2, -⟩ := dd_loop N nth junk nth (le_refl _)
  set b : Nat := (N - N % nth) / nth with hb
  have hN : nth * b + N % nth = N := by
    have : nth * b = N - N % nth := Nat.mul_div_cancel' (Nat.dvd_sub_mod N)
    have := Nat.mod_le N nth
    omega
  have bs1 : ∀ i, i < nth - 1 → blockSize N nth i = b := fun i hi => by
    unfold blockSize; rw [if_pos hi]
  have bs2 : blockSize N nth (nth - 1) = b + N % nth := by
    unfold blockSize; rw [if_neg (by omega)]
  have hst : ∀ i < nth, s.estart i = (i * b : Nat) := h1
  have hen : ∀ i < nth, s.eend i = ((i * b + blockSize N nth i : Nat) : Int) - 1 := h2
  have hlast : (nth - 1) * b + (b + N % nth) = N := by
    obtain ⟨m, rfl⟩ : ∃ m, nth = m + 1 := ⟨nth - 1, by omega⟩
    simp only [Nat.add_sub_cancel] at *
    rw [Nat.add_mul] at hN; omega
  have hmono : ∀ i j, i ≤ j → i * b ≤ j * b := fun i j h => Nat.mul_le_mul_right b h
  have hstep : ∀ i, (i + 1) * b = i * b + b := fun i => by ring
  have hend : ∀ i < nth, i * b + blockSize N nth i ≤ N := by
    intro i hi
    by_cases hl : i < nth - 1
    · rw [bs1 i hl, ← hstep]; have := hmono (i + 1) (nth - 1) (by omega); omega
    · have : i = nth - 1 := by omega
      subst this; rw [bs2]; omega
  refine ⟨?_, ?_, ?_, ?_, ?_⟩
  · rw [hst 0 (by omega)]; simp
  · intro i hi
    rw [hst (i + 1) hi, hen i (by omega), bs1 i (by omega), hstep]; ring
  · rw [hen _ (by omega), bs2, hlast]
  · intro c hc0 hcN
    obtain ⟨n, rfl⟩ : ∃ n : Nat, c = n := ⟨c.toNat, by omega⟩
    have hnN : n < N := by omega
    -- the block containing n
    by_cases hin : (nth - 1) * b ≤ n
    · refine ⟨nth - 1, ⟨by omega, ?_, ?_⟩, ?_⟩
      · rw [hst _ (by omega)]; exact_mod_cast hin
      · rw [hen _ (by omega), bs2, hlast]; omega
      · rintro i ⟨hi, hs1, hs2⟩
        rw [hen i hi] at hs2
        by_contra hne
        have hl : i < nth - 1 := by omega
        rw [bs1 i hl, ← hstep] at hs2
        have := hmono (i + 1) (nth - 1) (by omega)
        omega
    · have hbpos : 0 < b := by
        by_contra h
        have : b = 0 := Nat.eq_zero_of_not_pos h
        apply hin; rw [this, Nat.mul_zero]; exact Nat.zero_le _
      have hq : n / b < nth - 1 := by
        rw [Nat.div_lt_iff_lt_mul hbpos]; omega
      have e1 : n / b * b ≤ n := Nat.div_mul_le_self n b
      have e2 : n < n / b * b + b := by
        have := Nat.lt_div_mul_add (a := n) hbpos; omega
      refine ⟨n / b, ⟨by omega, ?_, ?_⟩, ?_⟩
      · rw [hst _ (by omega)]; exact_mod_cast e1
      · rw [hen _ (by omega), bs1 _ hq]; omega
      · rintro i ⟨hi, hs1, hs2⟩
        rw [hst i hi] at hs1
        rw [hen i hi] at hs2
        by_cases hl : i < nth - 1
        · rw [bs1 i hl] at hs2
          have a1 : i * b ≤ n := by exact_mod_cast hs1
          have a2 : n < i * b + b := by omega
          have l1 : i ≤ n / b := (Nat.le_div_iff_mul_le hbpos).2 a1
          have l2 : n / b < i + 1 := (Nat.div_lt_iff_lt_mul hbpos).2 (by rw [hstep]; exact a2)
          omega
        · have : i = nth - 1 := by omega
          subst this
          exfalso; apply hin; exact_mod_cast hs1
  · intro i hi c hs1 hs2
    rw [hst i hi] at hs1
    rw [hen i hi] at hs2
    have := hend i hi
    omega

/-- Non-vacuity: 10 nodes on 4 threads; and more threads than nodes. -/
example : (domainDecomposition 10 4 fun _ => 9).estart 3 = 6 ∧
    (domainDecomposition 10 4 fun _ => 9).eend 3 = 9 ∧
    (domainDecomposition 2 4 fun _ => 9).eend 0 = -1 := by decide

end Verif
