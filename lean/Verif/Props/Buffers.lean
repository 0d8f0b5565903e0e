import Verif.Model.Buffers
import Verif.Props.Assembly
import Verif.Props.Stencil
import Mathlib.Tactic.Linarith
import Mathlib.Data.Rat.Defs
import Mathlib.Algebra.Order.Field.Rat

/- C06: per-thread assembly buffers. -/
namespace Verif
variable {K : Type*}

/-- Appending writes only at `nnz .. nnz+len-1`. -/
theorem foldl_append_effect (es : List (Int × K)) (s : ThBuf K) :
    (es.foldl ThBuf.append s).nnz = s.nnz + es.length ∧
    ∀ k, s.nnz + es.length ≤ k →
      (es.foldl ThBuf.append s).A k = s.A k ∧ (es.foldl ThBuf.append s).J k = s.J k := by
  induction es generalizing s with
  | nil => simp
  | cons e es ih =>
    obtain ⟨h1, h2⟩ := ih (s.append e)
    rw [List.foldl_cons, List.length_cons]
    refine ⟨by rw [h1]; simp only [ThBuf.append]; omega, ?_⟩
    intro k hk
    have hne : k ≠ s.nnz := by omega
    obtain ⟨a, b⟩ := h2 k (by simp only [ThBuf.append]; omega)
    rw [a, b]
    simp only [ThBuf.append, upd_ne _ _ hne]
    exact ⟨trivial, trivial⟩

/-- A loop over `n` nodes with at most `e` coefficients per node. -/
theorem loop_bound (solved : Nat → Bool) (eqn : Nat → Nat) (rows : Nat → List (Int × K)) (e : Nat)
    (he : ∀ c, (rows c).length ≤ e) (f : Nat → Nat) (s0 : ThBuf K) (h0 : s0.nnz = 0) (n : Nat) :
    let s := forUp n s0 fun s i => assembleRow solved eqn rows s (f i)
    s.nnz ≤ e * n ∧ ∀ k, e * n ≤ k → s.A k = s0.A k ∧ s.J k = s0.J k := by
  induction n with
  | zero => simp [h0]
  | succ n ih =>
    simp only [forUp_succ]
    set s := forUp n s0 fun s i => assembleRow solved eqn rows s (f i)
    obtain ⟨h1, h2⟩ := ih
    have hm : e * (n + 1) = e * n + e := by ring
    rw [hm]
    unfold assembleRow
    split
    · obtain ⟨g1, g2⟩ := foldl_append_effect (rows (f n)) { s with I := upd s.I (eqn (f n)) s.nnz }
      have := he (f n)
      refine ⟨by rw [g1]; simp only; omega, fun k hk => ?_⟩
      obtain ⟨a, b⟩ := g2 k (by simp only; omega)
      rw [a, b]
      exact h2 k (by omega)
    · exact ⟨by omega, fun k hk => h2 k (by omega)⟩

/-- Number of coefficients appended by a loop over nodes. -/
theorem loop_nnz (solved : Nat → Bool) (eqn : Nat → Nat) (rows : Nat → List (Int × K))
    (f : Nat → Nat) (s0 : ThBuf K) (n : Nat) :
    (forUp n s0 fun s i => assembleRow solved eqn rows s (f i)).nnz =
      s0.nnz + ((List.range n).map fun i => if solved (f i) then (rows (f i)).length else 0).sum := by
  induction n with
  | zero => simp
  | succ n ih =>
    rw [forUp_succ, List.range_succ, List.map_append, List.sum_append]
    simp only [List.map_cons, List.map_nil, List.sum_cons, List.sum_nil, Nat.add_zero]
    rw [← Nat.add_assoc, ← ih]
    unfold assembleRow
    split
    · exact (foldl_append_effect _ _).1
    · rfl

theorem nodes_per_thread (N nth : Nat) (junk : Nat → Int) (i : Nat) (hi : i < nth) :
    let d := domainDecomposition N nth junk
    (d.eend i + 1 - d.estart i).toNat = blockSize N nth i := by
  intro d
  obtain ⟨h1, h2, -⟩ := dd_loop N nth junk nth (le_refl _)
  have e1 : d.estart i = _ := h1 i hi
  have e2 : d.eend i = _ := h2 i hi
  rw [e1, e2]; push_cast; omega

theorem blockSize_mul_le (N nth : Nat) (hn : 1 ≤ nth) (i : Nat) :
    blockSize N nth i * nth ≤ N + (nth - 1) * (nth - 1) := by
  have hb : nth * ((N - N % nth) / nth) = N - N % nth := Nat.mul_div_cancel' (Nat.dvd_sub_mod N)
  have hml := Nat.mod_le N nth
  have hlt := Nat.mod_lt N (show 0 < nth by omega)
  obtain ⟨n, rfl⟩ : ∃ n, nth = n + 1 := ⟨nth - 1, by omega⟩
  simp only [Nat.add_sub_cancel]
  have h2 : N % (n + 1) * n ≤ n * n := Nat.mul_le_mul_right _ (by omega)
  unfold blockSize
  split
  · rw [Nat.mul_comm, hb]; omega
  · rw [Nat.add_mul, Nat.mul_comm _ (n + 1), hb, Nat.mul_add, Nat.mul_one]; omega

/-- Generic bound: if `e` coefficients per node fit with the rounding slack, no thread leaves its
buffer. -/
theorem thread_fits (N nth nnz e : Nat) (hn : 1 ≤ nth) (ddJunk : Nat → Int) (solved : Nat → Bool)
    (eqn : Nat → Nat) (rows : Nat → List (Int × K)) (he : ∀ c, (rows c).length ≤ e)
    (junk : Nat → ThBuf K) (hfit : e * (N + (nth - 1) * (nth - 1)) ≤ nnz) (i : Nat) (hi : i < nth) :
    let b := threadBuf N nth ddJunk solved eqn rows junk i
    b.nnz ≤ threadCapacity nnz nth ∧
    ∀ k, threadCapacity nnz nth ≤ k → b.A k = (junk i).A k ∧ b.J k = (junk i).J k := by
  intro b
  have hb := loop_bound solved eqn rows e he
    (fun j => ((domainDecomposition N nth ddJunk).estart i + j).toNat) { junk i with nnz := 0 } rfl
    (blockSize N nth i)
  rw [← nodes_per_thread N nth ddJunk i hi] at hb
  have hle : e * ((domainDecomposition N nth ddJunk).eend i + 1 -
      (domainDecomposition N nth ddJunk).estart i).toNat ≤ threadCapacity nnz nth := by
    rw [nodes_per_thread N nth ddJunk i hi]
    unfold threadCapacity
    rw [Nat.le_div_iff_mul_le (by omega), Nat.mul_assoc]
    exact (Nat.mul_le_mul_left e (blockSize_mul_le N nth hn i)).trans hfit
  exact ⟨hb.1.trans hle, fun k hk => hb.2 k (hle.trans hk)⟩

section
variable [Field K]

omit [Field K] in
theorem guarded_length (b : Bool) (n : SNode) (a : K) : (guarded b n a).length ≤ 1 := by
  cases b <;> simp [guarded]

theorem buildRow_length (m : SMesh K) (eqn : SNode → Int) (st : List (SNode × K)) :
    (buildRow m eqn st).entries.length ≤ st.length := by
  rw [buildRow_entries m eqn st, List.length_map]
  exact List.length_filter_le _ _

variable [LinearOrder K]

/-- Largest number of coefficients per row of a pass. -/
def Pass.width : Pass → Nat
  | .uA | .vA => 9
  | .uB | .vB => 2
  | .pC => 4

theorem len_app {α : Type*} {a b : List α} {n : Nat} (ha : a.length ≤ n) (hb : b.length ≤ 1) :
    (a ++ b).length ≤ n + 1 := by rw [List.length_append]; omega

theorem row_width (m : SMesh K) (eqn : SNode → Int) (p : Pass) (c : Nat) :
    (p.row m eqn c).length ≤ p.width := by
  cases p <;> simp only [Pass.row, Pass.width]
  · split
    · refine (buildRow_length _ _ _).trans ?_
      simp only [xStencil]
      iterate 8 refine len_app ?_ (guarded_length _ _ _)
      exact guarded_length _ _ _
    · simp
  · split
    · refine (buildRow_length _ _ _).trans ?_
      simp only [xStencilP]
      iterate 1 refine len_app ?_ (guarded_length _ _ _)
      exact guarded_length _ _ _
    · simp
  · split
    · refine (buildRow_length _ _ _).trans ?_
      simp only [zStencil]
      iterate 8 refine len_app ?_ (guarded_length _ _ _)
      exact guarded_length _ _ _
    · simp
  · split
    · refine (buildRow_length _ _ _).trans ?_
      simp only [zStencilP]
      iterate 1 refine len_app ?_ (guarded_length _ _ _)
      exact guarded_length _ _ _
    · simp
  · refine (buildRow_length _ _ _).trans ?_
    simp only [cStencil]
    iterate 3 refine len_app ?_ (guarded_length _ _ _)
    exact guarded_length _ _ _

/-- C06, the part that holds.  On grids with at least 6 x 6 vertices and at most about
`sqrt(number of cells) / 2` threads, no pass of the assembly writes outside any thread's buffer, for
every mesh, tag map, coefficient field and memory content.  Missing (false, see
`assembly_buffer_overflow`): arbitrary thread counts. -/
theorem assembly_buffers_fit_partial (m : SMesh K) (eqn : SNode → Int) (nth : Nat) (hn : 1 ≤ nth)
    (hNx : 6 ≤ m.Nx) (hNz : 6 ≤ m.Nz)
    (hth : 4 * ((nth - 1) * (nth - 1)) ≤ (m.Nx - 1) * (m.Nz - 1)) (p : Pass) (ddJunk : Nat → Int)
    (num : Nat → Nat) (junk : Nat → ThBuf K) (i : Nat) (hi : i < nth) :
    let b := passBuf m eqn p nth ddJunk num junk i
    let cap := threadCapacity (p.nnz m.Nx m.Nz) nth
    b.nnz ≤ cap ∧ ∀ k, cap ≤ k → b.A k = (junk i).A k ∧ b.J k = (junk i).J k := by
  refine thread_fits _ nth _ p.width hn ddJunk _ num _ (row_width m eqn p) junk ?_ i hi
  obtain ⟨a, ha⟩ : ∃ a, m.Nx = a + 6 := ⟨m.Nx - 6, by omega⟩
  obtain ⟨b, hb⟩ : ∃ b, m.Nz = b + 6 := ⟨m.Nz - 6, by omega⟩
  rw [ha, hb] at hth ⊢
  have e1 : a + 6 - 1 = a + 5 := by omega
  have e2 : b + 6 - 1 = b + 5 := by omega
  rw [e1, e2] at hth
  generalize (nth - 1) * (nth - 1) = q at hth ⊢
  have hp : (a + 5) * (b + 5) = a * b + 5 * a + 5 * b + 25 := by ring
  rw [hp] at hth
  cases p <;> simp only [Pass.width, Pass.nodes, Pass.nnz, nnzA, nnzB, nnzC, e1, e2]
  · have h1 : (a + 6) * (b + 6 + 1) = a * b + 7 * a + 6 * b + 42 := by ring
    have h2 : (a + 5) * (b + 6) + (b + 5) * (a + 6) = 2 * (a * b) + 11 * a + 11 * b + 60 := by ring
    rw [h1, h2]; omega
  · have h1 : (a + 6) * (b + 6 + 1) = a * b + 7 * a + 6 * b + 42 := by ring
    rw [h1, hp]; omega
  · have h1 : (a + 6 + 1) * (b + 6) = a * b + 6 * a + 7 * b + 42 := by ring
    have h2 : (a + 5) * (b + 6) + (b + 5) * (a + 6) = 2 * (a * b) + 11 * a + 11 * b + 60 := by ring
    rw [h1, h2]; omega
  · have h1 : (a + 6 + 1) * (b + 6) = a * b + 6 * a + 7 * b + 42 := by ring
    rw [h1, hp]; omega
  · rw [hp]; omega
end

/-- A closed box of 10 x 8 vertices: prescribed velocities on the four sides. -/
def boxMesh : SMesh ℚ where
  Nx := 10
  Nz := 8
  dx := 1
  dz := 1
  tu i := if i % 10 = 0 ∨ i % 10 = 9 then 0 else if i / 10 = 0 ∨ i / 10 = 8 then 13 else -1
  tv i := if i / 11 = 0 ∨ i / 11 = 7 then 0 else if i % 11 = 0 ∨ i % 11 = 10 then 13 else -1
  tp _ := -1
  tg _ := -1
  bu _ := 0
  bv _ := 0
  bp _ := 0
  D11 _ := 2
  D22 _ := 2
  D33 _ := 1
  rho _ := 1
  gx _ := 0
  gz _ := -1
  oop := false
  comp := false
  stab := false
  theta := 0
  dt := 1

/-- C06 fails: on this 10 x 8 grid with 16 threads the last thread appends 59 continuity
coefficients to a buffer of 19 entries. -/
theorem assembly_buffer_overflow (eqn : SNode → Int) (num : Nat → Nat) (ddJunk : Nat → Int)
    (junk : Nat → ThBuf ℚ) :
    threadCapacity (Pass.pC.nnz boxMesh.Nx boxMesh.Nz) 16 = 19 ∧
    19 < (passBuf boxMesh eqn .pC 16 ddJunk num junk 15).nnz := by
  refine ⟨by decide, ?_⟩
  have hN : Pass.nodes boxMesh.Nx boxMesh.Nz .pC = 63 := by decide
  have hlen : ∀ c, (Pass.row boxMesh eqn .pC c).length = ((cStencil boxMesh (colOf 9 c)
      (rowOf 9 c)).filter fun e => !prescribed (boxMesh.tag e.1)).length := by
    intro c
    simp only [Pass.row]
    rw [buildRow_entries boxMesh eqn _, List.length_map]
    rfl
  simp only [passBuf, threadBuf, assembleThread, loop_nnz]
  rw [nodes_per_thread _ _ _ _ (by decide), hN]
  have hst : (domainDecomposition 63 16 ddJunk).estart 15 = (45 : Nat) :=
    (dd_loop 63 16 ddJunk 16 (le_refl _)).1 15 (by decide)
  rw [hst]
  have hsol : ∀ c, Pass.solved boxMesh .pC c = true := fun c => rfl
  simp only [hsol, if_true, hlen]
  decide +kernel

/-- Non-vacuity: 64 threads are fine on a 141 x 121 grid. -/
example : 4 * ((64 - 1) * (64 - 1)) ≤ (141 - 1) * (121 - 1) := by decide

end Verif
