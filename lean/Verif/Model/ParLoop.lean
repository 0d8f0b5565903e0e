import Verif.Model.Basic
import Verif.Spec.Threads

/-
Parallel loops whose iterations read and write their own array entry only
(`#pragma omp parallel for` over markers).
-/
namespace Verif
variable {α : Type*}

/-- `for (k...) a[k] = f(a[k])`, iterations in the order in which they happen
(e.g. /repo/MDLIB/FreeSurface.c:815-833). -/
def parMap (f : α → α) (order : List Nat) (a : Nat → α) : Nat → α :=
  order.foldl (fun a k => upd a k (f (a k))) a

theorem parMap_nodup (f : α → α) : ∀ (l : List Nat) (a : Nat → α), l.Nodup → ∀ k,
    parMap f l a k = if k ∈ l then f (a k) else a k := by
  unfold parMap
  intro l
  induction l with
  | nil => intro a _ k; simp
  | cons c l ih =>
    intro a hn k
    rw [List.nodup_cons] at hn
    simp only [List.foldl_cons]
    rw [ih _ hn.2]
    by_cases e : k = c
    · subst e; rw [if_neg hn.1, if_pos List.mem_cons_self, upd_same]
    · rw [upd_ne _ _ e]; simp [e]

/-- For every distribution over threads and every order of execution the loop is a pointwise map. -/
theorem parMap_spec (f : α → α) (n : Nat) (ls : List (List Nat)) (hd : Distribution n ls) (order : List Nat)
    (ho : order.Perm ls.flatten) (a : Nat → α) (k : Nat) :
    parMap f order a k = if k < n then f (a k) else a k := by
  have hp : order.Perm (List.range n) := ho.trans hd
  rw [parMap_nodup f order a (hp.nodup_iff.mpr List.nodup_range)]
  simp only [hp.mem_iff, List.mem_range]

end Verif
