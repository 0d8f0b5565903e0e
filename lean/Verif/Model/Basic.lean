import Mathlib.Tactic.TypeStar

/-
Loops and arrays used by every other model file.

`forUp` is the C loop `for (k = 0; k < n; k++) body`, `forGrid` the nested loop over rows and
columns that appears in almost every routine of /repo/MDLIB (for instance
StokesRoutines.c:1135-1138).  Arrays are functions from indices to values; a store is `upd`.
-/
namespace Verif

variable {σ α : Type*}

/-- C loop `for (k = 0; k < n; k++) s = f(s, k)` (e.g. StokesRoutines.c:545). -/
def forUp : Nat → σ → (σ → Nat → σ) → σ
  | 0, s, _ => s
  | n + 1, s, f => f (forUp n s f) n

/-- C loop nest `for (l < nrow) for (k < ncol) { kk = k + l*ncol; ... }`
(e.g. StokesRoutines.c:1135-1137). -/
def forGrid (ncol nrow : Nat) (s : σ) (f : σ → Nat → σ) : σ :=
  forUp nrow s fun s l => forUp ncol s fun s k => f s (k + l * ncol)

/-- Array store `a[i] = x` (any assignment in the C code). -/
def upd (a : Nat → α) (i : Nat) (x : α) : Nat → α := fun j => if j = i then x else a j

@[simp] theorem upd_same (a : Nat → α) (i : Nat) (x : α) : upd a i x i = x := by simp [upd]

theorem upd_ne (a : Nat → α) {i j : Nat} (x : α) (h : j ≠ i) : upd a i x j = a j := by
  simp [upd, h]

@[simp] theorem forUp_zero (s : σ) (f : σ → Nat → σ) : forUp 0 s f = s := rfl

theorem forUp_succ (n : Nat) (s : σ) (f : σ → Nat → σ) :
    forUp (n + 1) s f = f (forUp n s f) n := rfl

theorem forUp_add (a b : Nat) (s : σ) (f : σ → Nat → σ) :
    forUp (a + b) s f = forUp b (forUp a s f) (fun s k => f s (a + k)) := by
  induction b with
  | zero => rfl
  | succ b ih => rw [Nat.add_succ, forUp_succ, forUp_succ, ih]

/-- The loop nest visits the flat indices `0, 1, ..., ncol*nrow-1` in increasing order. -/
theorem forGrid_eq (ncol nrow : Nat) (s : σ) (f : σ → Nat → σ) :
    forGrid ncol nrow s f = forUp (nrow * ncol) s f := by
  unfold forGrid
  induction nrow with
  | zero => simp
  | succ n ih =>
    rw [forUp_succ, ih, Nat.succ_mul, forUp_add]
    congr 1
    funext s k
    rw [Nat.add_comm]

/-- Induction principle (Hoare rule) for the loop. -/
theorem forUp_inv {P : Nat → σ → Prop} {f : σ → Nat → σ} {s : σ} (n : Nat) (h0 : P 0 s)
    (hs : ∀ k s, k < n → P k s → P (k + 1) (f s k)) : P n (forUp n s f) := by
  suffices h : ∀ m, m ≤ n → P m (forUp m s f) from h n (Nat.le_refl n)
  intro m
  induction m with
  | zero => intro _; exact h0
  | succ m ih => intro hm; exact hs m _ hm (ih (Nat.le_of_succ_le hm))

/-- Two loops whose bodies agree on the visited indices agree. -/
theorem forUp_congr {f g : σ → Nat → σ} (n : Nat) (s : σ) (h : ∀ k s, k < n → f s k = g s k) :
    forUp n s f = forUp n s g := by
  induction n with
  | zero => rfl
  | succ n ih =>
    rw [forUp_succ, forUp_succ, ih (fun k s hk => h k s (Nat.lt_succ_of_lt hk)), h n _ (Nat.lt_succ_self n)]

/-- A loop whose body stores `g k` in cell `k`, where `g` may look at the old value of cell `k`
only, is a pointwise map. -/
theorem forUp_pointwise (n : Nat) (a : Nat → α) (g : Nat → α → α) (j : Nat) :
    forUp n a (fun a k => upd a k (g k (a k))) j = if j < n then g j (a j) else a j := by
  induction n with
  | zero => simp
  | succ n ih =>
    rw [forUp_succ]
    by_cases hj : j = n
    · subst hj; simp [ih]
    · rw [upd_ne _ _ hj, ih]
      by_cases h : j < n
      · simp [h, Nat.lt_succ_of_lt h]
      · have : ¬ j < n + 1 := by omega
        simp [h, this]

end Verif

namespace Verif
variable {α : Type*}

/-- A loop whose iterations write disjoint cells and do not read cells written by earlier
iterations: every cell gets the value its own iteration computes from the initial array. -/
theorem forUp_indep (n : Nat) (a : Nat → α) (f : (Nat → α) → Nat → Nat → α)
    (W : Nat → Nat → Prop)
    (frame : ∀ i < n, ∀ b j, ¬ W i j → f b i j = b j)
    (disj : ∀ i < n, ∀ i' < n, ∀ j, W i j → W i' j → i = i')
    (loc : ∀ i < n, ∀ b : Nat → α, (∀ j, (∀ i' < i, ¬ W i' j) → b j = a j) →
      ∀ j, W i j → f b i j = f a i j) :
    (∀ i < n, ∀ j, W i j → forUp n a f j = f a i j) ∧
    (∀ j, (∀ i < n, ¬ W i j) → forUp n a f j = a j) := by
  have key := forUp_inv (s := a) (f := f)
    (P := fun m b => (∀ i < m, ∀ j, W i j → b j = f a i j) ∧
      (∀ j, (∀ i < m, ¬ W i j) → b j = a j)) n
    ⟨fun i hi => absurd hi (Nat.not_lt_zero i), fun _ _ => rfl⟩ ?_
  · exact key
  · intro k b hk ⟨h1, h2⟩
    refine ⟨?_, ?_⟩
    · intro i hi j hw
      by_cases hik : i = k
      · subst hik
        exact loc i hk b h2 j hw
      · have hik' : i < k := by omega
        have : ¬ W k j := fun hw' => hik (disj i (Nat.lt_trans hik' hk) k hk j hw hw')
        rw [frame k hk b j this]
        exact h1 i hik' j hw
    · intro j hj
      rw [frame k hk b j (hj k (Nat.lt_succ_self k))]
      exact h2 j fun i hi => hj i (Nat.lt_succ_of_lt hi)

end Verif
