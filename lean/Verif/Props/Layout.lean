import Verif.Model.Layout
import Verif.Props.Advect
import Verif.Props.GridCoords
import Verif.Spec.Threads
import Mathlib.Data.List.Forall2
import Mathlib.Data.List.Range
import Mathlib.Data.List.Nodup
import Mathlib.Data.Rat.Floor
import Mathlib.Algebra.BigOperators.Group.List.Basic

/-
C28: the initial marker layout.  C29: phase transmutation.
-/
namespace Verif.Layout
open Verif
set_option linter.unusedSectionVars false
set_option linter.unusedSimpArgs false

variable {K : Type*} [Field K] [LinearOrder K] [IsStrictOrderedRing K]

/-! ### Specification of C28 -/

/-- The grid lines are those of the box (see `Grid.grid_lines`). -/
structure Ok (p : Par K) : Prop where
  hNx : 2 ≤ p.Nx
  hNz : 2 ≤ p.Nz
  hNxP : 1 ≤ p.NxP
  hNzP : 1 ≤ p.NzP
  hdx : 0 < p.dx
  hdz : 0 < p.dz
  gx : ∀ i < p.Nx, p.xg i = p.box.xmin + i * p.dx
  gz : ∀ i < p.Nz, p.zg i = p.box.zmin + i * p.dz
  ex : p.box.xmax = p.box.xmin + ((p.Nx : K) - 1) * p.dx
  ez : p.box.zmax = p.box.zmin + ((p.Nz : K) - 1) * p.dz

/-- Position strictly inside cell (column `j`, row `i`). -/
def InCell (p : Par K) (j i : Nat) (q : K × K) : Prop :=
  p.xg j < q.1 ∧ q.1 < p.xg (j + 1) ∧ p.zg i < q.2 ∧ q.2 < p.zg (i + 1)

/-- Random numbers in [0, 1]. -/
def Unit' (r : Nat → K × K) : Prop := ∀ n, 0 ≤ (r n).1 ∧ (r n).1 ≤ 1 ∧ 0 ≤ (r n).2 ∧ (r n).2 ≤ 1

/-- Position strictly inside the marker's own rectangle (`kj`, `ki`) of the subdivision of its cell. -/
def InSub (p : Par K) (c : Ix) (q : K × K) : Prop :=
  p.xg c.j + p.dx / p.NxP * c.kj < q.1 ∧ q.1 < p.xg c.j + p.dx / p.NxP * (c.kj + 1) ∧
  p.zg c.i + p.dz / p.NzP * c.ki < q.2 ∧ q.2 < p.zg c.i + p.dz / p.NzP * (c.ki + 1)

/-! ### Auxiliary -/

theorem mem_ixs (p : Par K) (c : Ix) : c ∈ ixs p ↔ c.j < p.Nx - 1 ∧ c.i < p.Nz - 1 ∧ c.kj < p.NxP ∧ c.ki < p.NzP := by
  unfold ixs
  simp only [List.mem_flatMap, List.mem_range, List.mem_map]
  constructor
  · rintro ⟨j, hj, i, hi, kj, hkj, ki, hki, rfl⟩; exact ⟨hj, hi, hkj, hki⟩
  · intro ⟨a, b, d, e⟩; exact ⟨_, a, _, b, _, d, _, e, rfl⟩

theorem sub_coord {n k : Nat} {x0 d : K} (hn : 1 ≤ n) (hk : k < n) (hd : 0 < d) {e : K} (he : -(1/10) ≤ e ∧ e ≤ 1/10) :
    x0 + d / n * k < x0 + d / n * (k + 1 / 2) + e * (d / n) ∧
    x0 + d / n * (k + 1 / 2) + e * (d / n) < x0 + d / n * (k + 1) ∧
    x0 ≤ x0 + d / n * k ∧ x0 + d / n * (k + 1) ≤ x0 + d := by
  have hnp : (0 : K) < n := by exact_mod_cast hn
  have hs : 0 < d / n := div_pos hd hnp
  have hk' : (k : K) + 1 ≤ n := by exact_mod_cast hk
  have hk0 : (0 : K) ≤ k := Nat.cast_nonneg _
  have hdn : d / n * n = d := by field_simp
  have e1 : 0 < (1 / 2 + e) * (d / n) := mul_pos (by linarith [he.1]) hs
  have e2 : 0 < (1 / 2 - e) * (d / n) := mul_pos (by linarith [he.2]) hs
  refine ⟨by nlinarith, by nlinarith, ?_, ?_⟩
  · have := mul_nonneg hs.le hk0; linarith
  · have := mul_le_mul_of_nonneg_left hk' hs.le; linarith

theorem inSub_inCell {p : Par K} (h : Ok p) {c : Ix} (hc : c ∈ ixs p) {q : K × K} (hq : InSub p c q) :
    InCell p c.j c.i q := by
  obtain ⟨c1, c2, c3, c4⟩ := (mem_ixs p c).mp hc
  obtain ⟨q1, q2, q3, q4⟩ := hq
  have hN := h.hNx
  have hM := h.hNz
  obtain ⟨_, _, a, b⟩ := sub_coord (x0 := p.xg c.j) h.hNxP c3 h.hdx (e := 0) (by norm_num)
  obtain ⟨_, _, a', b'⟩ := sub_coord (x0 := p.zg c.i) h.hNzP c4 h.hdz (e := 0) (by norm_num)
  have ex : p.xg (c.j + 1) = p.xg c.j + p.dx := by
    rw [h.gx _ (by omega), h.gx _ (by omega)]; push_cast; ring
  have ez : p.zg (c.i + 1) = p.zg c.i + p.dz := by
    rw [h.gz _ (by omega), h.gz _ (by omega)]; push_cast; ring
  unfold InCell
  rw [ex, ez]
  exact ⟨by linarith, by linarith, by linarith, by linarith⟩

theorem inCell_inside {p : Par K} (h : Ok p) {j i : Nat} (hj : j < p.Nx - 1) (hi : i < p.Nz - 1) {q : K × K}
    (hq : InCell p j i q) :
    p.box.xmin < q.1 ∧ q.1 < p.box.xmax ∧ p.box.zmin < q.2 ∧ q.2 < p.box.zmax := by
  obtain ⟨q1, q2, q3, q4⟩ := hq
  have hN := h.hNx
  have hM := h.hNz
  rw [h.gx _ (by omega)] at q1 q2
  rw [h.gz _ (by omega)] at q3 q4
  have hjn : ((j + 1 : Nat) : K) ≤ (p.Nx : K) - 1 := by
    have : j + 1 + 1 ≤ p.Nx := by omega
    have := (Nat.cast_le (α := K)).mpr this
    push_cast at this ⊢; linarith
  have hin : ((i + 1 : Nat) : K) ≤ (p.Nz : K) - 1 := by
    have : i + 1 + 1 ≤ p.Nz := by omega
    have := (Nat.cast_le (α := K)).mpr this
    push_cast at this ⊢; linarith
  have hj0 : (0 : K) ≤ j := Nat.cast_nonneg _
  have hi0 : (0 : K) ≤ i := Nat.cast_nonneg _
  rw [h.ex, h.ez]
  have a1 := mul_le_mul_of_nonneg_right hjn h.hdx.le
  have a2 := mul_le_mul_of_nonneg_right hin h.hdz.le
  have a3 := mul_nonneg hj0 h.hdx.le
  have a4 := mul_nonneg hi0 h.hdz.le
  exact ⟨by linarith, by linarith, by linarith, by linarith⟩

theorem place_inSub {p : Par K} (h : Ok p) {c : Ix} (hc : c ∈ ixs p) {r : K × K}
    (hr : 0 ≤ r.1 ∧ r.1 ≤ 1 ∧ 0 ≤ r.2 ∧ r.2 ≤ 1) : InSub p c (place p c r) := by
  obtain ⟨c1, c2, c3, c4⟩ := (mem_ixs p c).mp hc
  obtain ⟨r1, r2, r3, r4⟩ := hr
  unfold place
  simp only
  split_ifs with hn
  · obtain ⟨a1, a2, _, _⟩ := sub_coord (x0 := p.xg c.j) h.hNxP c3 h.hdx (e := (2 * r.1 - 1) * (1 / 10)) (by constructor <;> nlinarith)
    obtain ⟨b1, b2, _, _⟩ := sub_coord (x0 := p.zg c.i) h.hNzP c4 h.hdz (e := (2 * r.2 - 1) * (1 / 10)) (by constructor <;> nlinarith)
    have hsub : InSub p c ((coord p c).1 + (2 * r.1 - 1) * (p.dx / p.NxP) * (1 / 10),
        (coord p c).2 + (2 * r.2 - 1) * (p.dz / p.NzP) * (1 / 10)) := by
      unfold InSub coord
      simp only
      exact ⟨by linarith, by linarith, by linarith, by linarith⟩
    obtain ⟨i1, i2, i3, i4⟩ := inCell_inside h c1 c2 (inSub_inCell h hc hsub)
    simp only at i1 i2 i3 i4
    have hw : Adv.wrapE p.box (Adv.wrapW p.box ((coord p c).1 + (2 * r.1 - 1) * (p.dx / p.NxP) * (1 / 10))) =
        (coord p c).1 + (2 * r.1 - 1) * (p.dx / p.NxP) * (1 / 10) := by
      unfold Adv.wrapW
      rw [if_neg (not_lt.mpr i1.le)]
      unfold Adv.wrapE
      rw [if_neg (not_lt.mpr i2.le)]
    unfold Adv.isoutPart
    simp only [hw]
    split_ifs <;> exact hsub
  · obtain ⟨a1, a2, _, _⟩ := sub_coord (x0 := p.xg c.j) h.hNxP c3 h.hdx (e := 0) (by norm_num)
    obtain ⟨b1, b2, _, _⟩ := sub_coord (x0 := p.zg c.i) h.hNzP c4 h.hdz (e := 0) (by norm_num)
    unfold InSub coord
    simp only
    exact ⟨by linarith, by linarith, by linarith, by linarith⟩

theorem fold_spec (p : Par K) (r : Nat → K × K) (R : K × K → Ix → Prop)
    (hR : ∀ c ∈ ixs p, ∀ n, keep p c = true → R (place p c (r n)) c) :
    ∀ (l : List Ix) (acc : List (K × K)) (done : List Ix), (∀ c ∈ l, c ∈ ixs p) → List.Forall₂ R acc done →
      List.Forall₂ R (l.foldl (fun acc c => if keep p c then acc ++ [place p c (r acc.length)] else acc) acc)
        (done ++ l.filter (keep p)) := by
  intro l
  induction l with
  | nil => intro acc done _ h; simpa using h
  | cons c l ih =>
    intro acc done hl h
    simp only [List.foldl_cons]
    by_cases hk : keep p c = true
    · rw [if_pos hk, List.filter_cons_of_pos hk]
      have := ih (acc ++ [place p c (r acc.length)]) (done ++ [c]) (fun d hd => hl d (List.mem_cons_of_mem _ hd))
        (List.rel_append h (List.Forall₂.cons (hR c (hl c List.mem_cons_self) _ hk) List.Forall₂.nil))
      simpa using this
    · rw [if_neg hk, List.filter_cons_of_neg hk]
      exact ih acc done (fun d hd => hl d (List.mem_cons_of_mem _ hd)) h

/-- Every created marker corresponds to one loop index that was kept, in order, and lies in its own rectangle. -/
theorem layout_rel (p : Par K) (h : Ok p) (r : Nat → K × K) (hr : Unit' r) :
    List.Forall₂ (fun q c => c ∈ ixs p ∧ InSub p c q) (putPartInBox p r) ((ixs p).filter (keep p)) := by
  have := fold_spec p r (fun q c => c ∈ ixs p ∧ InSub p c q) (fun c hc n _ => ⟨hc, place_inSub h hc (hr n)⟩)
    (ixs p) [] [] (fun _ hc => hc) List.Forall₂.nil
  simpa [putPartInBox] using this

theorem forall₂_countP {α β : Type*} {R : α → β → Prop} (P : α → Bool) (Q : β → Bool)
    (hR : ∀ a b, R a b → P a = Q b) {l : List α} {m : List β} (h : List.Forall₂ R l m) : l.countP P = m.countP Q := by
  induction h with
  | nil => rfl
  | cons hab _ ih => rw [List.countP_cons, List.countP_cons, ih, hR _ _ hab]

theorem sum_single (n j v : Nat) (hj : j < n) (f : Nat → Nat) (h0 : ∀ k, k ≠ j → f k = 0) (h1 : f j = v) :
    ((List.range n).map f).sum = v := by
  induction n with
  | zero => omega
  | succ n ih =>
    rw [List.range_succ, List.map_append, List.sum_append]
    simp only [List.map_cons, List.map_nil, List.sum_cons, List.sum_nil, Nat.add_zero]
    by_cases e : j = n
    · subst e
      have : ((List.range j).map f).sum = 0 := by
        apply List.sum_eq_zero
        intro x hx
        obtain ⟨k, hk, rfl⟩ := List.mem_map.mp hx
        exact h0 k (by have := List.mem_range.mp hk; omega)
      rw [this, h1]; simp
    · rw [ih (by omega), h0 n (Ne.symm e)]; simp

theorem count_ixs (p : Par K) (j i : Nat) (hj : j < p.Nx - 1) (hi : i < p.Nz - 1) :
    (ixs p).countP (fun c => decide (c.j = j ∧ c.i = i)) = p.NxP * p.NzP := by
  have inner : ∀ j' i', ((List.range p.NxP).flatMap fun kj => (List.range p.NzP).map fun ki => (⟨j', i', kj, ki⟩ : Ix)).countP
      (fun c => decide (c.j = j ∧ c.i = i)) = if j' = j ∧ i' = i then p.NxP * p.NzP else 0 := by
    intro j' i'
    rw [List.countP_flatMap]
    split_ifs with hc
    · obtain ⟨rfl, rfl⟩ := hc
      have : (List.countP (fun c : Ix => decide (c.j = j' ∧ c.i = i')) ∘ fun kj =>
          (List.range p.NzP).map fun ki => (⟨j', i', kj, ki⟩ : Ix)) = fun _ => p.NzP := by
        funext kj
        simp [List.countP_map, Function.comp_def]
      rw [this]; simp
    · apply List.sum_eq_zero
      intro x hx
      obtain ⟨k, _, rfl⟩ := List.mem_map.mp hx
      simp only [Function.comp_def, List.countP_map]
      rw [List.countP_eq_zero]
      intro a _
      simpa using hc
  unfold ixs
  rw [List.countP_flatMap]
  apply sum_single _ j _ hj
  · intro k hk
    simp only [Function.comp_def]
    rw [List.countP_flatMap]
    apply List.sum_eq_zero
    intro x hx
    obtain ⟨i', _, rfl⟩ := List.mem_map.mp hx
    simp only [Function.comp_def]
    rw [inner k i', if_neg (fun hc => hk hc.1)]
  · simp only [Function.comp_def]
    rw [List.countP_flatMap]
    apply sum_single _ i _ hi
    · intro i' hi'
      simp only [Function.comp_def]
      rw [inner j i', if_neg (fun hc => hi' hc.2)]
    · simp only [Function.comp_def]
      rw [inner j i, if_pos ⟨rfl, rfl⟩]

/-- Cells are disjoint. -/
theorem cell_unique {p : Par K} (h : Ok p) {j i j' i' : Nat} (hj : j < p.Nx - 1) (hi : i < p.Nz - 1)
    (hj' : j' < p.Nx - 1) (hi' : i' < p.Nz - 1) {q : K × K} (a : InCell p j i q) (b : InCell p j' i' q) :
    j = j' ∧ i = i' := by
  have hN := h.hNx
  have hM := h.hNz
  obtain ⟨a1, a2, a3, a4⟩ := a
  obtain ⟨b1, b2, b3, b4⟩ := b
  rw [h.gx _ (by omega)] at a1 a2 b1 b2
  rw [h.gz _ (by omega)] at a3 a4 b3 b4
  have key : ∀ (d x lo : K) (m n : Nat), 0 < d → lo + m * d < x → x < lo + ((n + 1 : Nat) : K) * d → m ≤ n := by
    intro d x lo m n hd h1 h2
    by_contra hc
    have : n + 1 ≤ m := by omega
    have := (Nat.cast_le (α := K)).mpr this
    have := mul_le_mul_of_nonneg_right this hd.le
    linarith
  have x1 := key _ _ _ _ _ h.hdx a1 b2
  have x2 := key _ _ _ _ _ h.hdx b1 a2
  have z1 := key _ _ _ _ _ h.hdz a3 b4
  have z2 := key _ _ _ _ _ h.hdz b3 a4
  omega

/-! ### C28 -/

/-- C28: without free surface the layout creates exactly the announced number of markers, and every cell contains exactly
`Nx_part * Nz_part` of them, strictly inside, also with noise. -/
theorem layout_fills (p : Par K) (h : Ok p) (hs : p.freeSurface = false) (r : Nat → K × K) (hr : Unit' r) :
    (putPartInBox p r).length = announced p ∧
    (∀ j < p.Nx - 1, ∀ i < p.Nz - 1, ∀ [DecidablePred (InCell p j i)],
      (putPartInBox p r).countP (fun q => decide (InCell p j i q)) = p.NxP * p.NzP) ∧
    ∀ q ∈ putPartInBox p r, ∃ j < p.Nx - 1, ∃ i < p.Nz - 1, InCell p j i q := by
  have hrel := layout_rel p h r hr
  have hall : (ixs p).filter (keep p) = ixs p := by
    rw [List.filter_eq_self]; intro c _; unfold keep; rw [hs]; rfl
  rw [hall] at hrel
  refine ⟨?_, ?_, ?_⟩
  · rw [hrel.length_eq]
    unfold ixs announced
    simp [List.length_flatMap, Nat.mul_assoc]
  · intro j hj i hi _
    rw [← count_ixs p j i hj hi]
    refine forall₂_countP _ _ ?_ hrel
    intro q c ⟨hc, hq⟩
    have hin := inSub_inCell h hc hq
    have hm := (mem_ixs p c).mp hc
    by_cases e : c.j = j ∧ c.i = i
    · obtain ⟨rfl, rfl⟩ := e
      rw [decide_eq_true hin]; simp
    · rw [decide_eq_false (fun hq' => e (cell_unique h hm.1 hm.2.1 hj hi hin hq')), decide_eq_false e]
  · intro q hq
    obtain ⟨n, hn⟩ := List.get_of_mem hq
    obtain ⟨hl, hg⟩ := List.forall₂_iff_get.mp hrel
    have := hg n.1 n.2 (hl ▸ n.2)
    rw [hn] at this
    have hm := (mem_ixs p _).mp this.1
    exact ⟨_, hm.1, _, hm.2.1, inSub_inCell h this.1 this.2⟩

/-- C28 with a free surface (no noise): a position of the regular layout is used exactly when it is below the linear
surface of its column. -/
theorem layout_surface (p : Par K) (hs : p.freeSurface = true) (hn : p.noise = false) (r : Nat → K × K) :
    putPartInBox p r = ((ixs p).filter fun c => decide ((coord p c).2 < p.b c.j + p.a c.j * (coord p c).1)).map (coord p) := by
  have hk : keep p = fun c => decide ((coord p c).2 < p.b c.j + p.a c.j * (coord p c).1) := by
    funext c; unfold keep; rw [hs]; rfl
  rw [← hk]
  have : ∀ (l : List Ix) (acc : List (K × K)),
      l.foldl (fun acc c => if keep p c then acc ++ [place p c (r acc.length)] else acc) acc =
        acc ++ (l.filter (keep p)).map (coord p) := by
    intro l
    induction l with
    | nil => simp
    | cons c l ih =>
      intro acc
      have hp : ∀ n, place p c (r n) = coord p c := by intro n; unfold place; simp [hn]
      simp only [List.foldl_cons]
      by_cases hc : keep p c = true
      · rw [if_pos hc, ih, List.filter_cons_of_pos hc, hp]; simp
      · rw [if_neg hc, ih, List.filter_cons_of_neg hc]
  simpa [putPartInBox] using this (ixs p) []

/-- The number of markers never exceeds the announced number, with or without free surface, so the arrays (allocated
for at least that many) are not overrun. -/
theorem layout_le_announced (p : Par K) (h : Ok p) (r : Nat → K × K) (hr : Unit' r) :
    (putPartInBox p r).length ≤ announced p := by
  rw [(layout_rel p h r hr).length_eq]
  refine (List.length_filter_le _ _).trans ?_
  unfold ixs announced
  simp [List.length_flatMap, Nat.mul_assoc]

def demoP (fs noise : Bool) : Par ℚ :=
  { Nx := 3, Nz := 2, NxP := 2, NzP := 2, dx := 1, dz := 1, xg := fun i => i, zg := fun i => i, freeSurface := fs
    a := fun _ => 0, b := fun _ => 4 / 5, noise := noise, periodic := false, box := ⟨0, 2, 0, 1⟩ }

example : Ok (demoP false true) ∧ Unit' (fun _ => ((1 : ℚ), (0 : ℚ))) ∧
    (putPartInBox (demoP false true) (fun _ => (1, 0))).length = 8 := by
  refine ⟨⟨by decide, by decide, by decide, by decide, by decide, by decide, ?_, ?_, by norm_num [demoP], by norm_num [demoP]⟩, ?_, by decide +kernel⟩
  · intro i _; simp [demoP]
  · intro i _; simp [demoP]
  · intro n; norm_num

/-- With a free surface the test is made before the noise is added, so the layout itself can leave a marker above the
surface: surface at 19/25, regular position 3/4, position with noise 4/5. -/
theorem layout_noise_above_surface :
    (putPartInBox { demoP true true with b := fun _ => 38 / 50 } (fun _ => (1, 1))).any (fun q => decide (38 / 50 < q.2)) = true := by
  decide +kernel

/-! ### C29 -/

/-- What transmutation should do to one marker. -/
def Transforms (t : Tab K) (m : TMk K) : Prop :=
  m.phase ≠ -1 ∧ ((t.mode m.phase = -1 ∧ m.T ≤ t.temp m.phase) ∨ (t.mode m.phase = 1 ∧ t.temp m.phase ≤ m.T))

theorem fold_mem (t : Tab K) : ∀ (l : List Nat) (P : Nat → TMk K), l.Nodup → ∀ k,
    l.foldl (fun P k => upd P k (transmute1 t (P k))) P k = if k ∈ l then transmute1 t (P k) else P k := by
  intro l
  induction l with
  | nil => intro P _ k; simp
  | cons c l ih =>
    intro P hn k
    rw [List.nodup_cons] at hn
    simp only [List.foldl_cons]
    rw [ih _ hn.2]
    by_cases e : k = c
    · subst e; rw [if_neg hn.1, if_pos List.mem_cons_self, upd_same]
    · rw [upd_ne _ _ e]; simp [e]

/-- C29 (partial: the last marker is never looked at, and for dead markers the tables are read at index -1; see
`transmute_last`, `transmute_dead`): for every distribution of the loop over threads, each live marker except the last one
gets the target phase if it meets the criterion and keeps its phase otherwise; temperatures are unchanged. -/
theorem transmute_partial (t : Tab K) (nb : Nat) (ls : List (List Nat)) (hd : Distribution (nb - 1) ls)
    (order : List Nat) (ho : order.Perm ls.flatten) (P : Nat → TMk K) (k : Nat) (hk : k + 1 < nb)
    (hl : (P k).phase ≠ -1) :
    (Transforms t (P k) → transmute t order P k = ⟨t.phase (P k).phase, t.phase (P k).phase, (P k).T⟩) ∧
    (¬ Transforms t (P k) → transmute t order P k = P k) := by
  have hp : order.Perm (List.range (nb - 1)) := ho.trans hd
  have hn : order.Nodup := hp.nodup_iff.mpr List.nodup_range
  have hm : k ∈ order := hp.mem_iff.mpr (List.mem_range.mpr (by omega))
  unfold transmute
  rw [fold_mem t order P hn k, if_pos hm]
  unfold transmute1 Transforms
  constructor
  · intro h; rw [if_pos h.2]
  · intro h; rw [if_neg (fun hc => h ⟨hl, hc⟩)]

/-- C29, full statement restricted to what the property says about the last marker: it does not hold, the last marker is
never transformed. -/
theorem transmute_last (t : Tab K) (nb : Nat) (ls : List (List Nat)) (hd : Distribution (nb - 1) ls)
    (order : List Nat) (ho : order.Perm ls.flatten) (P : Nat → TMk K) : transmute t order P (nb - 1) = P (nb - 1) := by
  have hp : order.Perm (List.range (nb - 1)) := ho.trans hd
  have hn : order.Nodup := hp.nodup_iff.mpr List.nodup_range
  unfold transmute
  rw [fold_mem t order P hn, if_neg]
  intro hm
  have := List.mem_range.mp (hp.mem_iff.mp hm)
  omega

/-- Dead markers: the table is read in front of its first entry; if the memory there reads as 1 and 0, a removed marker
becomes live again. -/
theorem transmute_dead (t : Tab K) (h1 : t.mode (-1) = 1) (h2 : t.temp (-1) = 0) (h3 : t.phase (-1) = 3) (T : K) (hT : 0 ≤ T)
    (d : Int) : (transmute1 t ⟨-1, d, T⟩).phase = 3 := by
  unfold transmute1
  rw [if_pos (Or.inr ⟨h1, by rw [h2]; exact hT⟩)]
  exact h3

/-- Two markers of phase 0 that transform to 1 above temperature 10; only the first is transformed. -/
example : let t : Tab ℚ := ⟨fun i => if i = 0 then 1 else 0, fun _ => 10, fun _ => 1⟩
    let P : Nat → TMk ℚ := fun _ => ⟨0, 0, 11⟩
    Distribution (2 - 1) [[], [0]] ∧ Transforms t (P 0) ∧ Transforms t (P 1) ∧
    (transmute t [0] P 0).phase = 1 ∧ (transmute t [0] P 1).phase = 0 := by
  refine ⟨by unfold Distribution; decide, ?_, ?_, by decide +kernel, by decide +kernel⟩ <;>
  · unfold Transforms; norm_num

end Verif.Layout
