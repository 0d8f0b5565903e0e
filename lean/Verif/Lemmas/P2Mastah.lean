import Verif.Model.P2Mastah
import Verif.Spec.Kernel
import Verif.Spec.Threads
import Verif.Lemmas.Bilinear
import Mathlib.Algebra.BigOperators.Group.List.Basic

/- Helper lemmas for C21-C23. -/
namespace Verif.P2M
open Verif Verif.Interp
set_option linter.unusedSectionVars false

variable {K : Type*} [Field K] [LinearOrder K] [IsStrictOrderedRing K]

/-- Total weight a list of hits puts on node `i`. -/
def onNode (hs : List (Int × K)) (i : Int) : K := (hs.map fun h => if h.1 = i then h.2 else 0).sum

theorem onNode_nil (i : Int) : onNode ([] : List (Int × K)) i = 0 := rfl
theorem onNode_cons (h : Int × K) (hs : List (Int × K)) (i : Int) :
    onNode (h :: hs) i = (if h.1 = i then h.2 else 0) + onNode hs i := by simp [onNode]
theorem onNode_append (a b : List (Int × K)) (i : Int) : onNode (a ++ b) i = onNode a i + onNode b i := by
  simp [onNode]

variable [FloorRing K]

theorem hits_fold (hs : List (Int × K)) (phase : Int) (v : K) (b : Buf K) (i p : Int) :
    (hs.foldl (fun b h => b.add phase v h) b).wm i = b.wm i + onNode hs i ∧
    (hs.foldl (fun b h => b.add phase v h) b).bm i = b.bm i + v * onNode hs i ∧
    (hs.foldl (fun b h => b.add phase v h) b).ph p i = b.ph p i + if p = phase then onNode hs i else 0 := by
  induction hs generalizing b with
  | nil => simp [onNode]
  | cons h hs ih =>
    obtain ⟨h1, h2, h3⟩ := ih (b.add phase v h)
    rw [List.foldl_cons, h1, h2, h3, onNode_cons]
    simp only [Buf.add, addAt]
    refine ⟨?_, ?_, ?_⟩
    · by_cases hi : i = h.1
      · rw [if_pos hi, if_pos hi.symm]; ring
      · rw [if_neg hi, if_neg (Ne.symm hi)]; ring
    · by_cases hi : i = h.1
      · rw [if_pos hi, if_pos hi.symm]; ring
      · rw [if_neg hi, if_neg (Ne.symm hi)]; ring
    · by_cases hp : p = phase
      · simp only [if_pos hp, addAt]
        by_cases hi : i = h.1
        · rw [if_pos hi, if_pos hi.symm]; ring
        · rw [if_neg hi, if_neg (Ne.symm hi)]; ring
      · simp only [if_neg hp]

/-- Weight of marker `k` on node `i`. -/
def mw (g : Fam K) (ms : Nat → Mk K) (k : Nat) (i : Int) : K :=
  if (ms k).phase ≠ -1 then onNode (hits g (ms k).x (ms k).z) i else 0

theorem thread_eq (g : Fam K) (ms : Nat → Mk K) (val : Nat → K) (its : List Nat) (b : Buf K) (i p : Int) :
    (its.foldl (body g ms val) b).wm i = b.wm i + (its.map fun k => mw g ms k i).sum ∧
    (its.foldl (body g ms val) b).bm i = b.bm i + (its.map fun k => val k * mw g ms k i).sum ∧
    (its.foldl (body g ms val) b).ph p i = b.ph p i +
      (its.map fun k => if p = (ms k).phase then mw g ms k i else 0).sum := by
  induction its generalizing b with
  | nil => simp
  | cons k its ih =>
    obtain ⟨h1, h2, h3⟩ := ih (body g ms val b k)
    rw [List.foldl_cons, h1, h2, h3]
    simp only [List.map_cons, List.sum_cons]
    unfold body mw
    by_cases hk : (ms k).phase ≠ -1
    · simp only [if_pos hk]
      obtain ⟨e1, e2, e3⟩ := hits_fold (hits g (ms k).x (ms k).z) (ms k).phase (val k) b i p
      rw [e1, e2, e3]
      refine ⟨by ring, by ring, by ring⟩
    · simp only [if_neg hk]
      refine ⟨by ring, by ring, ?_⟩
      split_ifs <;> ring

theorem foldl_add {α : Type*} (l : List α) (f : α → K) (s : K) :
    l.foldl (fun s a => s + f a) s = s + (l.map f).sum := by
  induction l generalizing s with
  | nil => simp
  | cons a l ih => rw [List.foldl_cons, ih, List.map_cons, List.sum_cons]; ring

theorem flatten_sum {α : Type*} (ls : List (List α)) (f : α → K) :
    (ls.map fun l => (l.map f).sum).sum = (ls.flatten.map f).sum := by
  induction ls with
  | nil => simp
  | cons l ls ih => simp [ih]

theorem range_sum (n : Nat) (f : Nat → K) : ((List.range n).map f).sum = ∑ k ∈ Finset.range n, f k := by
  induction n with
  | zero => simp
  | succ n ih => rw [List.range_succ, List.map_append, List.sum_append, ih, Finset.sum_range_succ]; simp

/-- The reduced buffers are plain sums over the markers, whatever the distribution. -/
theorem reduce_eq (g : Fam K) (ms : Nat → Mk K) (val : Nat → K) (n : Nat) (ls : List (List Nat))
    (hd : Distribution n ls) (i p : Int) :
    reduceThreads g ms val ls (fun b => b.wm i) = ∑ k ∈ Finset.range n, mw g ms k i ∧
    reduceThreads g ms val ls (fun b => b.bm i) = ∑ k ∈ Finset.range n, val k * mw g ms k i ∧
    reduceThreads g ms val ls (fun b => b.ph p i) =
      ∑ k ∈ Finset.range n, if p = (ms k).phase then mw g ms k i else 0 := by
  have t := fun its => thread_eq g ms val its Buf.zero i p
  have key : ∀ (f : Nat → K) (sel : Buf K → K), (∀ its, sel (thread g ms val its) = (its.map f).sum) →
      reduceThreads g ms val ls sel = ∑ k ∈ Finset.range n, f k := by
    intro f sel h
    unfold reduceThreads
    simp only [h]
    rw [foldl_add, flatten_sum, (hd.map f).sum_eq, range_sum, zero_add]
  refine ⟨key _ _ fun its => ?_, key _ _ fun its => ?_, key _ _ fun its => ?_⟩
  · have := (t its).1; simpa [thread, Buf.zero] using this
  · have := (t its).2.1; simpa [thread, Buf.zero] using this
  · have := (t its).2.2; simpa [thread, Buf.zero] using this

/-- The nearest node. -/
theorem nearest_spec (n : Nat) (hn : 1 ≤ n) (x0 dx x : K) (hdx : 0 < dx) (h0 : x0 - dx / 2 ≤ x)
    (h1 : x ≤ x0 + (n - 1) * dx + dx / 2) :
    ∃ j : Nat, nearest n x0 dx x = j ∧ j < n ∧ -(1 / 2) ≤ (x - x0) / dx - j ∧ (x - x0) / dx - j ≤ 1 / 2 := by
  have t0 : -(1 / 2) ≤ (x - x0) / dx := by rw [le_div_iff₀ hdx]; linarith
  have t1 : (x - x0) / dx ≤ (n : K) - 1 / 2 := by rw [div_le_iff₀ hdx]; linarith
  set t := (x - x0) / dx
  have c1 : ⌈t + 1 / 2⌉ ≤ (n : Int) := Int.ceil_le.mpr (by push_cast; linarith)
  have c0 : 0 ≤ ⌈t + 1 / 2⌉ := Int.ceil_nonneg (by linarith)
  have l1 := Int.le_ceil (t + 1 / 2)
  have l2 := Int.ceil_lt_add_one (t + 1 / 2)
  unfold nearest
  simp only
  rcases lt_or_ge 0 ⌈t + 1 / 2⌉ with hp | hp
  · obtain ⟨j, hj⟩ := Int.eq_ofNat_of_zero_le (a := ⌈t + 1 / 2⌉ - 1) (by omega)
    have hc : (⌈t + 1 / 2⌉ : K) = j + 1 := by
      have : ⌈t + 1 / 2⌉ = (j : Int) + 1 := by omega
      rw [this]; push_cast; ring
    rw [hc] at l1 l2
    refine ⟨j, ?_, by omega, by linarith, by linarith⟩
    rw [hj, if_neg (by omega), if_neg (by omega)]
  · have hz : ⌈t + 1 / 2⌉ = 0 := by omega
    rw [hz] at l1 l2 ⊢
    push_cast at l1 l2
    refine ⟨0, ?_, by omega, by push_cast; linarith, by push_cast; linarith⟩
    simp only [show (0 : Int) - 1 < 0 by omega, if_true]
    rw [if_neg (by omega)]; rfl

/-- Wider hat functions in node units. -/
theorem hat_wide {t r : K} (hr : 0 < r) (h : |t| ≤ r) : hat (t / r) = 1 - |t| / r := by
  unfold hat
  rw [abs_div, abs_of_pos hr]
  exact max_eq_right (by rw [sub_nonneg, div_le_one hr]; exact h)

theorem hat_wide_out {t r : K} (hr : 0 < r) (h : r ≤ |t|) : hat (t / r) = 0 :=
  hat_outside (by rw [abs_div, abs_of_pos hr, le_div_iff₀ hr]; linarith)

/-- One-dimensional weights of the nine-cell stencil, without periodicity. -/
theorem nine_1d (n j c : Nat) (hj : j < n) (hc : c < n) (X : Int → K) (x0 dx x : K) (hdx : 0 < dx)
    (hX : Regular X x0 dx) (h0 : -(1 / 2) ≤ (x - x0) / dx - j) (h1 : (x - x0) / dx - j ≤ 1 / 2) :
    (if (j : Int) = c then 1 - |X j - x| / (3 * dx / 2) else 0) +
    (if (j : Int) < n - 1 ∧ (j : Int) + 1 = c then 1 - |X j + dx - x| / (3 * dx / 2) else 0) +
    (if 0 < (j : Int) ∧ (j : Int) - 1 = c then 1 - |X j - dx - x| / (3 * dx / 2) else 0) =
      hat ((x - X c) / (3 * dx / 2)) := by
  have e : x - x0 = ((x - x0) / dx) * dx := by field_simp
  rw [hX, hX]
  set t := (x - x0) / dx with ht
  have hr : 0 < 3 * dx / 2 := by linarith
  have hxx : x = x0 + t * dx := by linarith
  have b0 := mul_le_mul_of_nonneg_right h0 (le_of_lt hdx)
  have b1 := mul_le_mul_of_nonneg_right h1 (le_of_lt hdx)
  push_cast
  rcases Nat.lt_trichotomy c j with h | h | h
  · rw [if_neg (by omega), if_neg (by omega)]
    by_cases h2 : c + 1 = j
    · rw [if_pos (by omega)]
      have hj' : (j : K) = c + 1 := by exact_mod_cast h2.symm
      rw [hj'] at b0 b1 ⊢
      rw [hat_wide hr (by rw [abs_le]; constructor <;> nlinarith), abs_sub_comm x]
      rw [show x0 + ((c : K) + 1) * dx - dx - x = x0 + c * dx - x by ring]; ring
    · rw [if_neg (by omega)]
      have hj' : (c : K) + 2 ≤ j := by exact_mod_cast (by omega : c + 2 ≤ j)
      have := mul_le_mul_of_nonneg_right hj' (le_of_lt hdx)
      rw [hat_wide_out hr (le_trans (by nlinarith) (le_abs_self _))]; ring
  · subst h
    rw [if_pos rfl, if_neg (by omega), if_neg (by omega),
      hat_wide hr (by rw [abs_le]; constructor <;> nlinarith), abs_sub_comm x]; ring
  · rw [if_neg (by omega), if_neg (c := 0 < (j : Int) ∧ _) (by omega)]
    by_cases h2 : j + 1 = c
    · rw [if_pos (by omega)]
      have hj' : (c : K) = j + 1 := by exact_mod_cast h2.symm
      rw [hj', hat_wide hr (by rw [abs_le]; constructor <;> nlinarith), abs_sub_comm x]
      rw [show x0 + (j : K) * dx + dx - x = x0 + (j + 1) * dx - x by ring]; ring
    · rw [if_neg (by omega)]
      have hj' : (j : K) + 2 ≤ c := by exact_mod_cast (by omega : j + 2 ≤ c)
      have := mul_le_mul_of_nonneg_right hj' (le_of_lt hdx)
      rw [hat_wide_out hr (le_trans (by nlinarith) (neg_le_abs _))]; ring

/-- One-dimensional weight of the one-cell stencil. -/
theorem one_1d (j c : Nat) (X : Int → K) (x0 dx x : K) (hdx : 0 < dx)
    (hX : Regular X x0 dx) (h0 : -(1 / 2) ≤ (x - x0) / dx - j) (h1 : (x - x0) / dx - j ≤ 1 / 2) :
    (if (j : Int) = c then 1 - |X j - x| / (dx / 2) else 0) = hat ((x - X c) / (dx / 2)) := by
  have e : x - x0 = ((x - x0) / dx) * dx := by field_simp
  rw [hX, hX]
  set t := (x - x0) / dx with ht
  have hr : 0 < dx / 2 := by linarith
  have b0 := mul_le_mul_of_nonneg_right h0 (le_of_lt hdx)
  have b1 := mul_le_mul_of_nonneg_right h1 (le_of_lt hdx)
  push_cast
  rcases Nat.lt_trichotomy c j with h | h | h
  · rw [if_neg (by omega)]
    have hj' : (c : K) + 1 ≤ j := by exact_mod_cast (by omega : c + 1 ≤ j)
    have := mul_le_mul_of_nonneg_right hj' (le_of_lt hdx)
    rw [hat_wide_out hr (le_trans (by nlinarith) (le_abs_self _))]
  · subst h
    rw [if_pos rfl, hat_wide hr (by rw [abs_le]; constructor <;> nlinarith), abs_sub_comm x]
  · rw [if_neg (by omega)]
    have hj' : (j : K) + 1 ≤ c := by exact_mod_cast (by omega : j + 1 ≤ c)
    have := mul_le_mul_of_nonneg_right hj' (le_of_lt hdx)
    rw [hat_wide_out hr (le_trans (by nlinarith) (neg_le_abs _))]

/-- Flat node numbers determine column and row. -/
theorem flat_inj (n : Nat) (a c : Int) (b r : Int) (ha0 : 0 ≤ a) (ha : a < n) (hc0 : 0 ≤ c) (hc : c < n) :
    a + b * n = c + r * n ↔ a = c ∧ b = r := by
  constructor
  · intro h
    have hb : b = r := by
      rcases lt_trichotomy b r with h' | h' | h'
      · exfalso; nlinarith
      · exact h'
      · exfalso; nlinarith
    subst hb; exact ⟨by linarith, rfl⟩
  · rintro ⟨rfl, rfl⟩; rfl

/-- Total weight of the hits of a marker on node `(c,r)`, as a product of one-dimensional sums. -/
theorem hits_product (g : Fam K) (hs : g.stencil = 1 ∨ g.stencil = 9) (x z : K) (j i c r : Nat)
    (hj : j < g.Nx) (hi : i < g.Nz) (hc : c < g.Nx) (hr : r < g.Nz)
    (ej : nearest g.Nx (g.X 0) g.dx x = j) (ei : nearest g.Nz (g.Z 0) g.dz z = i)
    (colE colW : Int)
    (hE : colE = if (j : Int) = g.Nx - 1 ∧ g.periodic then 0 else (j : Int) + 1)
    (hW : colW = if (j : Int) = 0 ∧ g.periodic then (g.Nx : Int) - 1 else (j : Int) - 1) :
    onNode (hits g x z) ((c : Int) + r * g.Nx) =
      (if g.stencil = 1 then
        (if (j : Int) = c then 1 - |g.X j - x| / (g.dx / 2) else 0) *
        (if (i : Int) = r then 1 - |g.Z i - z| / (g.dz / 2) else 0)
      else
        ((if (j : Int) = c then 1 - |g.X j - x| / (3 * g.dx / 2) else 0) +
         (if ((j : Int) < g.Nx - 1 ∨ g.periodic) ∧ colE = c then 1 - |g.X j + g.dx - x| / (3 * g.dx / 2) else 0) +
         (if (0 < (j : Int) ∨ g.periodic) ∧ colW = c then 1 - |g.X j - g.dx - x| / (3 * g.dx / 2) else 0)) *
        ((if (i : Int) = r then 1 - |g.Z i - z| / (3 * g.dz / 2) else 0) +
         (if (i : Int) < g.Nz - 1 ∧ (i : Int) + 1 = r then 1 - |g.Z i + g.dz - z| / (3 * g.dz / 2) else 0) +
         (if 0 < (i : Int) ∧ (i : Int) - 1 = r then 1 - |g.Z i - g.dz - z| / (3 * g.dz / 2) else 0))) := by
  have hc' : (c : Int) < g.Nx := by exact_mod_cast hc
  have hj' : (j : Int) < g.Nx := by exact_mod_cast hj
  have flat : ∀ (a b : Int), 0 ≤ a → a < g.Nx → (a + b * g.Nx = (c : Int) + r * g.Nx ↔ a = c ∧ b = r) :=
    fun a b h0 h1 => flat_inj g.Nx a c b r h0 h1 (by omega) hc'
  have term : ∀ (a b : Int) (u v : K), 0 ≤ a → a < g.Nx →
      (if a + b * g.Nx = (c : Int) + r * g.Nx then u * v else 0) =
        (if a = c then u else 0) * (if b = r then v else 0) := by
    intro a b u v h0 h1
    simp only [flat a b h0 h1]
    by_cases h : a = c <;> by_cases h' : b = r <;> simp [h, h']
  have kE : ∀ b : Int, ((j : Int) < g.Nx - 1 ∨ g.periodic = true) →
      (j : Int) + b * g.Nx + (1 - (if (j : Int) = g.Nx - 1 ∧ g.periodic then 1 else 0)) * 1 -
        (if (j : Int) = g.Nx - 1 ∧ g.periodic then 1 else 0) * ((g.Nx : Int) - 1) = colE + b * g.Nx ∧ 0 ≤ colE ∧ colE < g.Nx := by
    intro b h
    rw [hE]
    by_cases hp : (j : Int) = g.Nx - 1 ∧ g.periodic = true
    · simp only [if_pos hp]; refine ⟨by rw [hp.1]; ring, by omega, by omega⟩
    · simp only [if_neg hp]
      have : (j : Int) < g.Nx - 1 := by
        rcases h with h | h
        · exact h
        · by_contra hh; exact hp ⟨by omega, h⟩
      refine ⟨by ring, by omega, by omega⟩
  have kW : ∀ b : Int, (0 < (j : Int) ∨ g.periodic = true) →
      (j : Int) + b * g.Nx - (1 - (if (j : Int) = 0 ∧ g.periodic then 1 else 0)) * 1 +
        (if (j : Int) = 0 ∧ g.periodic then 1 else 0) * ((g.Nx : Int) - 1) = colW + b * g.Nx ∧ 0 ≤ colW ∧ colW < g.Nx := by
    intro b h
    rw [hW]
    by_cases hp : (j : Int) = 0 ∧ g.periodic = true
    · simp only [if_pos hp]; refine ⟨by rw [hp.1]; ring, by omega, by omega⟩
    · simp only [if_neg hp]
      have : 0 < (j : Int) := by
        rcases h with h | h
        · exact h
        · by_contra hh; exact hp ⟨by omega, h⟩
      refine ⟨by ring, by omega, by omega⟩
  have gE : ((j : Int) < g.Nx - 1 ∨ (if (j : Int) = g.Nx - 1 ∧ g.periodic then (1 : Int) else 0) = 1) ↔
      ((j : Int) < g.Nx - 1 ∨ g.periodic = true) := by
    by_cases hp : g.periodic = true
    · simp only [hp, and_true]
      constructor
      · intro _; exact Or.inr trivial
      · intro _
        by_cases h : (j : Int) = g.Nx - 1
        · right; rw [if_pos h]
        · left; omega
    · simp [hp]
  have gW : (0 < (j : Int) ∨ (if (j : Int) = 0 ∧ g.periodic then (1 : Int) else 0) = 1) ↔
      (0 < (j : Int) ∨ g.periodic = true) := by
    by_cases hp : g.periodic = true
    · simp only [hp, and_true]
      constructor
      · intro _; exact Or.inr trivial
      · intro _
        by_cases h : (j : Int) = 0
        · right; rw [if_pos h]
        · left; omega
    · simp [hp]
  have one : ∀ (P : Prop) [Decidable P] (h : Int × K) (m : Int),
      onNode (if P then [h] else []) m = if P then (if h.1 = m then h.2 else 0) else 0 := by
    intro P _ h m
    split_ifs <;> simp_all [onNode]
  unfold hits
  rcases hs with hs | hs
  · simp only [hs, if_true, ej, ei, onNode_cons, wgt, itp, show ¬ ((1 : Nat) = 9) by decide,
      if_false, onNode_nil, add_zero]
    rw [term _ _ _ _ (by omega) hj']
  · simp only [hs, if_true, ej, ei, onNode_cons, onNode_append, wgt, itp, one, gE, gW,
      show ¬ ((9 : Nat) = 1) by decide, if_false]
    rw [term _ _ _ _ (by omega) hj', term _ _ _ _ (by omega) hj', term _ _ _ _ (by omega) hj']
    have tE : ∀ (b : Int) (u v : K), (if ((j : Int) < g.Nx - 1 ∨ g.periodic = true) then
        (if (j : Int) + b * g.Nx + (1 - (if (j : Int) = g.Nx - 1 ∧ g.periodic then 1 else 0)) * 1 -
          (if (j : Int) = g.Nx - 1 ∧ g.periodic then 1 else 0) * ((g.Nx : Int) - 1) = (c : Int) + r * g.Nx
        then u * v else 0) else 0) =
        (if ((j : Int) < g.Nx - 1 ∨ g.periodic = true) ∧ colE = c then u else 0) * (if b = r then v else 0) := by
      intro b u v
      by_cases h : ((j : Int) < g.Nx - 1 ∨ g.periodic = true)
      · obtain ⟨h1, h2, h3⟩ := kE b h
        rw [if_pos h, h1, term _ _ _ _ h2 h3]
        simp only [h, true_and]
      · rw [if_neg h, if_neg (fun hh => h hh.1), zero_mul]
    have tW : ∀ (b : Int) (u v : K), (if (0 < (j : Int) ∨ g.periodic = true) then
        (if (j : Int) + b * g.Nx - (1 - (if (j : Int) = 0 ∧ g.periodic then 1 else 0)) * 1 +
          (if (j : Int) = 0 ∧ g.periodic then 1 else 0) * ((g.Nx : Int) - 1) = (c : Int) + r * g.Nx
        then u * v else 0) else 0) =
        (if (0 < (j : Int) ∨ g.periodic = true) ∧ colW = c then u else 0) * (if b = r then v else 0) := by
      intro b u v
      by_cases h : (0 < (j : Int) ∨ g.periodic = true)
      · obtain ⟨h1, h2, h3⟩ := kW b h
        rw [if_pos h, h1, term _ _ _ _ h2 h3]
        simp only [h, true_and]
      · rw [if_neg h, if_neg (fun hh => h hh.1), zero_mul]
    have ite2 : ∀ (P Q : Prop) [Decidable P] [Decidable Q] (y : K),
        (if P ∧ Q then y else 0) = if P then (if Q then y else 0) else 0 := by
      intro P Q _ _ y
      by_cases hP : P <;> by_cases hQ : Q <;> simp [hP, hQ]
    simp only [ite2 ((0 : Int) < (i : Int)), ite2 ((i : Int) < (g.Nz : Int) - 1), tE, tW]
    by_cases h1 : (0 : Int) < (i : Int) <;> by_cases h2 : (i : Int) < (g.Nz : Int) - 1 <;>
      simp only [h1, h2, if_true, if_false] <;> ring

end Verif.P2M
