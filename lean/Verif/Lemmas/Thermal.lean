import Verif.Spec.Heat
import Verif.Lemmas.Numbering
import Verif.Props.Assembly
import Mathlib.Tactic.Ring
import Mathlib.Tactic.Linarith
import Mathlib.Tactic.FieldSimp
import Mathlib.Algebra.Order.BigOperators.Group.Finset
import Mathlib.Algebra.BigOperators.Field

/-
Auxiliary facts about the heat matrix: numbering, content of the compressed rows, face-by-face form of a row.
-/
set_option linter.unusedSectionVars false
namespace Verif.Heat
open Verif Finset

variable {K : Type*} [Field K] [LinearOrder K]

theorem cell_mod {n k : Nat} (l : Nat) (h : k < n) : (k + l * n) % n = k := by
  rw [Nat.add_mul_mod_self_right, Nat.mod_eq_of_lt h]

theorem cell_div {n k : Nat} (l : Nat) (h : k < n) : (k + l * n) / n = l := by
  rw [Nat.add_mul_div_right _ _ (by omega), Nat.div_eq_of_lt h, Nat.zero_add]

theorem cell_lt {n m k l : Nat} (hk : k < n) (hl : l < m) : k + l * n < n * m := by
  have : (l + 1) * n ≤ m * n := Nat.mul_le_mul_right n hl
  rw [Nat.mul_comm n m]
  have h2 : (l + 1) * n = l * n + n := by ring
  omega

theorem cell_inj {n k l k' l' : Nat} (hk : k < n) (hk' : k' < n) :
    k + l * n = k' + l' * n ↔ k = k' ∧ l = l' := by
  constructor
  · intro h
    have h1 := congrArg (· % n) h
    have h2 := congrArg (· / n) h
    simp only [cell_mod, cell_div, hk, hk'] at h1 h2
    exact ⟨h1, h2⟩
  · rintro ⟨rfl, rfl⟩; rfl

/-! ### Numbering -/

/-- Cells with a number. -/
abbrev Par.isNum (p : Par K) (c : Nat) : Prop := (p.tt c != 30) = true

theorem num_spec (p : Par K) :
    p.num.inc = Nat.count p.isNum (p.ncx * p.ncz) ∧
    ∀ c < p.ncx * p.ncz, p.num.eqn c = if p.isNum c then ((Nat.count p.isNum c : Nat) : Int) else -1 := by
  unfold Par.num
  rw [forGrid_eq, Nat.mul_comm p.ncz p.ncx]
  have h := numBody_loop (fun t => t != 30) p.tt (fun _ => 0) 0 (p.ncx * p.ncz)
  simp only [Nat.zero_add] at h
  exact h

theorem split_cell (p : Par K) {c : Nat} (hc : c < p.ncx * p.ncz) :
    c % p.ncx < p.ncx ∧ c / p.ncx < p.ncz ∧ c = c % p.ncx + c / p.ncx * p.ncx := by
  have hn : 0 < p.ncx := by
    rcases Nat.eq_zero_or_pos p.ncx with h | h
    · rw [h, Nat.zero_mul] at hc; omega
    · exact h
  refine ⟨Nat.mod_lt _ hn, Nat.div_lt_of_lt_mul hc, ?_⟩
  rw [Nat.mul_comm]; exact (Nat.mod_add_div c p.ncx).symm

theorem active_iff (p : Par K) (ht : TagsAgree p) {c : Nat} (hc : c < p.ncx * p.ncz) :
    p.active c = true ↔ p.isNum c := by
  obtain ⟨h1, h2, h3⟩ := split_cell p hc
  have := ht _ h1 _ h2
  rw [← h3] at this
  simp only [Par.active, Par.isNum, bne_iff_ne, ne_eq]
  exact not_congr this.symm

theorem active_cell (p : Par K) {k l : Nat} (hk : k < p.ncx) :
    p.active (k + l * p.ncx) = true ↔ Rock p k l := by
  simp [Par.active, Rock, cell_mod l hk, cell_div l hk]

theorem eqn_active (p : Par K) (ht : TagsAgree p) {c : Nat} (hc : c < p.ncx * p.ncz) (ha : p.active c = true) :
    p.num.eqn c = ((Nat.count p.isNum c : Nat) : Int) := by
  rw [(num_spec p).2 c hc, if_pos ((active_iff p ht hc).1 ha)]

theorem eqn_toNat (p : Par K) (ht : TagsAgree p) {c : Nat} (hc : c < p.ncx * p.ncz) (ha : p.active c = true) :
    (p.num.eqn c).toNat = Nat.count p.isNum c := by
  rw [eqn_active p ht hc ha]; simp

theorem count_lt (p : Par K) (ht : TagsAgree p) {c : Nat} (hc : c < p.ncx * p.ncz) (ha : p.active c = true) :
    Nat.count p.isNum c < p.num.inc := by
  rw [(num_spec p).1]
  exact Nat.count_strict_mono ((active_iff p ht hc).1 ha) hc

theorem count_inj (p : Par K) (ht : TagsAgree p) {c c' : Nat} (hc : c < p.ncx * p.ncz) (hc' : c' < p.ncx * p.ncz)
    (ha : p.active c = true) (ha' : p.active c' = true) (h : Nat.count p.isNum c = Nat.count p.isNum c') :
    c = c' :=
  Nat.count_injective ((active_iff p ht hc).1 ha) ((active_iff p ht hc').1 ha') h

/-- Every equation belongs to exactly one rock cell. -/
theorem count_surj (p : Par K) (ht : TagsAgree p) {e : Nat} (he : e < p.num.inc) :
    ∃ c < p.ncx * p.ncz, p.active c = true ∧ Nat.count p.isNum c = e := by
  rw [(num_spec p).1] at he
  obtain ⟨c, h1, h2, h3⟩ := exists_count_eq p.isNum _ e he
  exact ⟨c, h1, (active_iff p ht h1).2 h2, h3⟩

/-! ### Compressed rows -/

/-- Row of a cell with equation numbers as columns. -/
def rowE (p : Par K) (c : Nat) : List (Int × K) :=
  (row p (c % p.ncx) (c / p.ncx)).map fun e => (p.num.eqn e.1, e.2)

theorem seg_skip (p : Par K) (ht : TagsAgree p) (rows : Nat → List (Int × K)) {c c' : Nat} (h : c ≤ c')
    (hc' : c' ≤ p.ncx * p.ncz) (hcount : Nat.count p.isNum c = Nat.count p.isNum c') :
    seg p.active rows 0 c' = seg p.active rows 0 c := by
  obtain ⟨d, rfl⟩ := Nat.exists_eq_add_of_le h
  clear h
  induction d with
  | zero => rfl
  | succ d ih =>
    have h1 : Nat.count p.isNum c ≤ Nat.count p.isNum (c + d) := Nat.count_monotone _ (by omega)
    have h2 : Nat.count p.isNum (c + d) ≤ Nat.count p.isNum (c + (d + 1)) := Nat.count_monotone _ (by omega)
    have h3 : ¬ p.isNum (c + d) := by
      intro hn
      have := Nat.count_succ p.isNum (c + d)
      rw [if_pos hn] at this
      have e : c + (d + 1) = c + d + 1 := rfl
      rw [e] at hcount
      omega
    have h4 : ¬ p.active (c + d) = true := fun h => h3 ((active_iff p ht (by omega)).1 h)
    rw [← Nat.add_assoc, seg_succ]
    simp only [Nat.zero_add]
    rw [if_neg h4, List.append_nil]
    exact ih (by omega) (by omega)

/-- The row pointer at the number of cells counted before `c` is the length of the rows before `c`. -/
theorem rowptr (p : Par K) (ht : TagsAgree p) (junk : ThBuf K) :
    (matrix p junk).Holds (seg p.active (rowE p) 0 (p.ncx * p.ncz)) ∧
    ∀ c ≤ p.ncx * p.ncz, (matrix p junk).I (Nat.count p.isNum c) = (seg p.active (rowE p) 0 c).length := by
  have hinj : ∀ c < 0 + p.ncx * p.ncz, ∀ c' < 0 + p.ncx * p.ncz, p.active c = true → p.active c' = true →
      (p.num.eqn c).toNat = (p.num.eqn c').toNat → c = c' := by
    intro c hc c' hc' ha ha' h
    rw [eqn_toNat p ht (by omega) ha, eqn_toNat p ht (by omega) ha'] at h
    exact count_inj p ht (by omega) (by omega) ha ha' h
  have hT := thread_holds p.active (fun c => (p.num.eqn c).toNat) (rowE p) 0 (p.ncx * p.ncz)
    { junk with I := fun _ => 0, nnz := 0 } rfl hinj
  simp only [Nat.zero_add] at hT
  obtain ⟨h1, h2⟩ := hT
  refine ⟨h1, ?_⟩
  intro c hc
  simp only [matrix]
  by_cases hlast : Nat.count p.isNum c = p.num.inc
  · rw [hlast, upd_same]
    have e := seg_skip p ht (rowE p) hc (le_refl _) (by rw [hlast, (num_spec p).1])
    rw [← e]
    exact h1.1
  · rw [upd_ne _ _ hlast]
    have hlt : Nat.count p.isNum c < p.num.inc := by
      have : Nat.count p.isNum c ≤ Nat.count p.isNum (p.ncx * p.ncz) := Nat.count_monotone _ hc
      rw [← (num_spec p).1] at this
      omega
    obtain ⟨c', hc', ha', he'⟩ := count_surj p ht hlt
    have hle : c ≤ c' := by
      by_contra hcon
      have hn := (active_iff p ht hc').1 ha'
      have := Nat.count_strict_mono hn (show c' < c by omega)
      omega
    have h := h2 c' hc' ha'
    rw [eqn_toNat p ht hc' ha', he'] at h
    have e := seg_skip p ht (rowE p) hle (by omega) he'.symm
    rw [e] at h
    exact h

theorem list_sum_getD {α : Type*} (f : α → K) (d : α) (l : List α) :
    ∑ t ∈ range l.length, f (l.getD t d) = (l.map f).sum := by
  induction l with
  | nil => simp
  | cons a l ih =>
    rw [List.length_cons, Finset.sum_range_succ']
    simp only [List.getD_cons_succ, List.getD_cons_zero, List.map_cons, List.sum_cons]
    rw [ih, add_comm]

/-- Sums over the stored entries of a row are sums over the coefficients the routine appended for the cell. -/
theorem row_sum (p : Par K) (ht : TagsAgree p) (junk : ThBuf K) {c : Nat} (hc : c < p.ncx * p.ncz)
    (ha : p.active c = true) (f : Int → K → K) :
    ∑ t ∈ Ico ((matrix p junk).I (Nat.count p.isNum c)) ((matrix p junk).I (Nat.count p.isNum c + 1)),
      f ((matrix p junk).J t) ((matrix p junk).A t) = ((rowE p c).map fun e => f e.1 e.2).sum := by
  obtain ⟨hH, hI⟩ := rowptr p ht junk
  have hn := (active_iff p ht hc).1 ha
  have e1 : Nat.count p.isNum c + 1 = Nat.count p.isNum (c + 1) := by rw [Nat.count_succ, if_pos hn]
  rw [e1, hI c (by omega), hI (c + 1) hc]
  have es : seg p.active (rowE p) 0 (c + 1) = seg p.active (rowE p) 0 c ++ rowE p c := by
    rw [seg_succ]; simp only [Nat.zero_add]; rw [if_pos ha]
  have eN : seg p.active (rowE p) 0 (p.ncx * p.ncz) =
      seg p.active (rowE p) 0 c ++ rowE p c ++ seg p.active (rowE p) (c + 1) (p.ncx * p.ncz - (c + 1)) := by
    have := seg_add p.active (rowE p) 0 (c + 1) (p.ncx * p.ncz - (c + 1))
    rw [Nat.add_sub_cancel' (by omega : c + 1 ≤ p.ncx * p.ncz)] at this
    rw [this, es, Nat.zero_add]
  rw [es, List.length_append, Finset.sum_Ico_eq_sum_range, Nat.add_sub_cancel_left]
  rw [← list_sum_getD (fun e : Int × K => f e.1 e.2) (0, 0) (rowE p c)]
  refine Finset.sum_congr rfl fun t htr => ?_
  rw [Finset.mem_range] at htr
  have hJ := hH.2 ((seg p.active (rowE p) 0 c).length + t)
  have hlt : (seg p.active (rowE p) 0 c).length + t < (seg p.active (rowE p) 0 (p.ncx * p.ncz)).length := by
    rw [eN]; simp only [List.length_append]; omega
  have hget : (seg p.active (rowE p) 0 (p.ncx * p.ncz))[(seg p.active (rowE p) 0 c).length + t] = (rowE p c)[t] := by
    simp only [eN]
    rw [List.getElem_append_left (by simp only [List.length_append]; omega),
      List.getElem_append_right (by omega)]
    simp only [Nat.add_sub_cancel_left]
  have := hJ hlt
  rw [hget] at this
  rw [List.getD_eq_getElem?_getD, List.getElem?_eq_getElem htr]
  simp only [Option.getD_some]
  rw [this.1, this.2]

end Verif.Heat
