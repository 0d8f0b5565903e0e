import Verif.Model.Output
import Verif.Spec.Output
import Mathlib.Tactic.Ring
import Mathlib.Tactic.Linarith
import Mathlib.Tactic.FieldSimp
import Mathlib.Tactic.NormNum

/-
C107: what the phase maps of the output files show.
-/
namespace Verif.Output

open Verif.Spec

variable {K : Type*} [Field K] [LinearOrder K] [IsStrictOrderedRing K] [FloorRing K]

set_option linter.unusedSectionVars false
set_option linter.unusedVariables false

theorem vizAxis_eq (x0 h : K) (k : Nat) : vizAxis x0 h k = x0 + k * h := by
  induction k with
  | zero => simp [vizAxis]
  | succ k ih => rw [vizAxis, ih]; push_cast; ring

theorem gridCell_eq (x0 h : K) (n : Nat) (x : K) : gridCell x0 h n x = vizCell x0 h n x := by
  unfold gridCell vizCell
  rw [show h / 2 = 1 / 2 * h by ring]

/-- The index computed for a marker in the box is the number of the interval that contains it, and
that interval is the only one. -/
theorem vizCell_spec {x0 h x : K} {n : Nat} (_hn : 0 < n) (hh : 0 < h) (h0 : x0 ≤ x)
    (h1 : x ≤ x0 + n * h) (j : Nat) (hj : j < n) : vizCell x0 h n x = j ↔ InCell x0 h j x := by
  have e : (x - (x0 + 1 / 2 * h)) / h + 1 / 2 = (x - x0) / h := by field_simp; ring
  unfold vizCell
  rw [e]
  set q := (x - x0) / h with hq
  have hxq : x = x0 + q * h := by rw [hq]; field_simp; ring
  have hq0 : 0 ≤ q := div_nonneg (by linarith) hh.le
  have hqn : q ≤ n := by
    rw [hq, div_le_iff₀ hh]; linarith
  have hc0 : (0 : Int) ≤ ⌈q⌉ := Int.ceil_nonneg hq0
  have hcn : ⌈q⌉ ≤ (n : Int) := Int.ceil_le.2 (by exact_mod_cast hqn)
  have hcell : InCell x0 h j x ↔ ((j : K) < q ∧ q ≤ j + 1) ∨ (j = 0 ∧ q = 0) := by
    unfold InCell
    rw [hxq]
    constructor
    · rintro (⟨a, b⟩ | ⟨a, b⟩)
      · left
        constructor
        · by_contra hc
          push Not at hc
          have := mul_le_mul_of_nonneg_right hc hh.le
          linarith
        · by_contra hc
          push Not at hc
          have := mul_lt_mul_of_pos_right hc hh
          linarith
      · right
        refine ⟨a, ?_⟩
        have : q * h = 0 := by linarith
        rcases mul_eq_zero.1 this with h' | h'
        · exact h'
        · exact absurd h' hh.ne'
    · rintro (⟨a, b⟩ | ⟨a, b⟩)
      · left
        have := mul_lt_mul_of_pos_right a hh
        have := mul_le_mul_of_nonneg_right b hh.le
        constructor <;> linarith
      · right
        exact ⟨a, by rw [b]; ring⟩
  have hceil : ((j : K) < q ∧ q ≤ j + 1) ↔ ⌈q⌉ = (j : Int) + 1 := by
    rw [Int.ceil_eq_iff]
    push_cast
    constructor
    · rintro ⟨a, b⟩; exact ⟨by linarith, b⟩
    · rintro ⟨a, b⟩; exact ⟨by linarith, b⟩
  have hzero : q = 0 ↔ ⌈q⌉ = 0 := by
    constructor
    · intro h'; rw [h']; simp
    · intro h'
      have := Int.ceil_le.1 h'.le
      simp only [Int.cast_zero] at this
      linarith
  rw [hcell, hceil, hzero]
  unfold clampIdx
  split
  · constructor
    · intro h'; right; omega
    · rintro (h' | h') <;> omega
  · split
    · omega
    · constructor
      · intro h'; left; omega
      · rintro (h' | h') <;> omega

theorem vizCell_lt (x0 h : K) {n : Nat} (hn : 0 < n) (x : K) : vizCell x0 h n x < n := by
  unfold vizCell clampIdx
  split
  · exact hn
  · split <;> omega

theorem vizWeight_eq (x0 z0 hx hz : K) (j i : Nat) (x z : K) :
    vizWeight (vizAxis x0 hx) (vizAxis z0 hz) hx hz j i x z = closeness x0 z0 hx hz j i x z := by
  unfold vizWeight closeness
  simp only [vizAxis_eq]
  rw [abs_sub_comm x, abs_sub_comm z]
  congr 5
  · push_cast; ring
  · push_cast; ring

/-- In its own rectangle a marker has closeness at least one quarter. -/
theorem closeness_pos {x0 z0 hx hz x z : K} {j i : Nat} (h1 : 0 < hx) (h2 : 0 < hz)
    (h : InRect x0 z0 hx hz j i x z) : 1 / 4 ≤ closeness x0 z0 hx hz j i x z := by
  have key : ∀ (x0 h x : K) (j : Nat), 0 < h → InCell x0 h j x →
      1 / 2 ≤ 1 - |x - (x0 + (j + 1 / 2) * h)| / h := by
    intro x0 h x j hh hc
    have : |x - (x0 + (j + 1 / 2) * h)| ≤ h / 2 := by
      rw [abs_le]
      rcases hc with ⟨a, b⟩ | ⟨a, b⟩
      · constructor <;> linarith
      · subst a; subst b
        simp only [Nat.cast_zero]
        constructor <;> linarith
    have : |x - (x0 + (j + 1 / 2) * h)| / h ≤ 1 / 2 := by
      rw [div_le_iff₀ hh]; linarith
    linarith
  have a := key x0 hx x j h1 h.1
  have b := key z0 hz z i h2 h.2
  unfold closeness
  calc (1 : K) / 4 = 1 / 2 * (1 / 2) := by norm_num
    _ ≤ _ := mul_le_mul a b (by norm_num) (by linarith)

/-- The marker can appear on the map: it is active and the cell of the computational grid that
contains it is not marked as air (30 or 31). -/
def Shown (x0 z0 dx dz : K) (ncx : Nat) (types : Nat → Int) (x z : K) (phase : Int) : Prop :=
  phase ≠ -1 ∧ ∀ ic jc : Nat, ic < ncx → InRect x0 z0 dx dz ic jc x z →
    types (ic + jc * ncx) ≠ 30 ∧ types (ic + jc * ncx) ≠ 31

/-- **C107.**  For every grid, every refinement of it, every marking of cells as air and every set of
markers whose active members lie in the box: a rectangle of the map without visible marker shows -1, and
every other rectangle shows the label of the visible marker closest to its centre (the first in storage
order if several are equally close). -/
theorem phase_map_nearest (G : VGrid K) (hdx : 0 < G.dx) (hdz : 0 < G.dz) (hr : 0 < G.res)
    (hcx : 0 < G.ncx) (hcz : 0 < G.ncz) (types : Nat → Int) (nb : Nat) (ms : Nat → VMarker K)
    (hbox : ∀ k < nb, (ms k).phase ≠ -1 → (G.x0 ≤ (ms k).x ∧ (ms k).x ≤ G.x0 + G.ncx * G.dx) ∧
      (G.z0 ≤ (ms k).z ∧ (ms k).z ≤ G.z0 + G.ncz * G.dz))
    (j i : Nat) (hj : j < G.res * G.ncx) (hi : i < G.res * G.ncz) :
    let vis := fun k => Shown G.x0 G.z0 G.dx G.dz G.ncx types (ms k).x (ms k).z (ms k).phase ∧
      InRect G.x0 G.z0 (G.dx / G.res) (G.dz / G.res) j i (ms k).x (ms k).z
    let close := fun k => closeness G.x0 G.z0 (G.dx / G.res) (G.dz / G.res) j i (ms k).x (ms k).z
    ((∀ k < nb, ¬ vis k) ∧ phaseMap G types nb ms (j + i * (G.res * G.ncx)) = -1) ∨
      ∃ k, Nearest nb vis close k ∧
        phaseMap G types nb ms (j + i * (G.res * G.ncx)) = (ms k).label := by
  intro vis close
  have hrK : (0 : K) < G.res := by exact_mod_cast hr
  set hx := G.dx / G.res with hhx
  set hz := G.dz / G.res with hhz
  have hx0 : 0 < hx := div_pos hdx hrK
  have hz0 : 0 < hz := div_pos hdz hrK
  set nx := G.res * G.ncx with hnx
  set nz := G.res * G.ncz with hnz
  have hnx0 : 0 < nx := Nat.mul_pos hr hcx
  have hnz0 : 0 < nz := Nat.mul_pos hr hcz
  have hwx : G.x0 + (nx : K) * hx = G.x0 + G.ncx * G.dx := by
    rw [hnx, hhx]; push_cast; field_simp
  have hwz : G.z0 + (nz : K) * hz = G.z0 + G.ncz * G.dz := by
    rw [hnz, hhz]; push_cast; field_simp
  -- invariant of the loop, for the rectangle considered
  have inv := forUp_inv (P := fun n (st : (Nat → Int) × (Nat → K)) =>
      ((∀ k < n, ¬ vis k) ∧ st.1 (j + i * nx) = -1 ∧ st.2 (j + i * nx) = 0) ∨
      ∃ k, Nearest n vis close k ∧ st.1 (j + i * nx) = (ms k).label ∧ st.2 (j + i * nx) = close k)
    (f := fun st k => vizStep G types st (ms k)) (s := ((fun _ => -1), (fun _ => 0))) nb
    (Or.inl ⟨fun k hk => absurd hk (Nat.not_lt_zero k), rfl, rfl⟩) ?_
  · rcases inv with ⟨a, b, -⟩ | ⟨k, a, b, -⟩
    · exact Or.inl ⟨a, b⟩
    · exact Or.inr ⟨k, a, b⟩
  intro n st hn ih
  have hx1 : vizAxis G.x0 (G.dx / G.res) 1 - vizAxis G.x0 (G.dx / G.res) 0 = hx := by
    simp [vizAxis, hhx]
  have hz1 : vizAxis G.z0 (G.dz / G.res) 1 - vizAxis G.z0 (G.dz / G.res) 0 = hz := by
    simp [vizAxis, hhz]
  -- no visible marker in this rectangle: nothing changes
  have keep : ¬ vis n → (vizStep G types st (ms n)).1 (j + i * nx) = st.1 (j + i * nx) ∧
      (vizStep G types st (ms n)).2 (j + i * nx) = st.2 (j + i * nx) := by
    intro hv
    unfold vizStep
    simp only [hx1, hz1]
    by_cases hp : (ms n).phase ≠ -1
    swap
    · rw [if_neg hp]; exact ⟨rfl, rfl⟩
    rw [if_pos hp]
    obtain ⟨⟨b1, b2⟩, b3, b4⟩ := hbox n hn hp
    split
    · rename_i hcond
      have hne : j + i * nx ≠ vizCell G.x0 hx nx (ms n).x + vizCell G.z0 hz nz (ms n).z * nx := by
        intro he
        have hl := vizCell_lt G.x0 hx hnx0 (ms n).x
        have e1 : vizCell G.x0 hx nx (ms n).x = j := by
          have := congrArg (· % nx) he
          simp only [Nat.add_mul_mod_self_right, Nat.mod_eq_of_lt hj, Nat.mod_eq_of_lt hl] at this
          exact this.symm
        have e2 : vizCell G.z0 hz nz (ms n).z = i := by
          rw [e1] at he
          exact (Nat.eq_of_mul_eq_mul_right hnx0 (Nat.add_left_cancel he)).symm
        apply hv
        refine ⟨⟨hp, ?_⟩, (vizCell_spec hnx0 hx0 b1 (hwx ▸ b2) j hj).1 e1,
          (vizCell_spec hnz0 hz0 b3 (hwz ▸ b4) i hi).1 e2⟩
        intro ic jc hic ⟨c1, c2⟩
        have g1 : gridCell G.x0 G.dx G.ncx (ms n).x = ic := by
          rw [gridCell_eq]; exact (vizCell_spec hcx hdx b1 b2 ic hic).2 c1
        have hjc : jc < G.ncz := by
          rcases c2 with ⟨a, -⟩ | ⟨a, -⟩
          · by_contra hc
            push Not at hc
            have : (G.ncz : K) ≤ jc := by exact_mod_cast hc
            have := mul_le_mul_of_nonneg_right this hdz.le
            linarith
          · omega
        have g2 : gridCell G.z0 G.dz G.ncz (ms n).z = jc := by
          rw [gridCell_eq]; exact (vizCell_spec hcz hdz b3 b4 jc hjc).2 c2
        rw [g1, g2] at hcond
        exact hcond.1
      exact ⟨upd_ne _ _ hne, upd_ne _ _ hne⟩
    · exact ⟨rfl, rfl⟩
  -- a visible marker in this rectangle
  have take : vis n → (vizStep G types st (ms n)).1 (j + i * nx) =
        (if st.2 (j + i * nx) < close n then (ms n).label else st.1 (j + i * nx)) ∧
      (vizStep G types st (ms n)).2 (j + i * nx) =
        (if st.2 (j + i * nx) < close n then close n else st.2 (j + i * nx)) := by
    intro hv
    obtain ⟨⟨hp, hair⟩, hr1, hr2⟩ := hv
    obtain ⟨⟨b1, b2⟩, b3, b4⟩ := hbox n hn hp
    have e1 := (vizCell_spec hnx0 hx0 b1 (hwx ▸ b2) j hj).2 hr1
    have e2 := (vizCell_spec hnz0 hz0 b3 (hwz ▸ b4) i hi).2 hr2
    have hicl := vizCell_lt G.x0 G.dx hcx (ms n).x
    have hjcl := vizCell_lt G.z0 G.dz hcz (ms n).z
    have hflag := hair _ _ hicl ⟨(vizCell_spec hcx hdx b1 b2 _ hicl).1 rfl,
      (vizCell_spec hcz hdz b3 b4 _ hjcl).1 rfl⟩
    unfold vizStep
    simp only [hx1, hz1]
    rw [if_pos hp]
    rw [show G.res * G.ncx = nx from rfl, show G.res * G.ncz = nz from rfl, e1, e2,
      gridCell_eq, gridCell_eq]
    have hw : vizWeight (vizAxis G.x0 (G.dx / G.res)) (vizAxis G.z0 (G.dz / G.res)) hx hz j i
        (ms n).x (ms n).z = close n := vizWeight_eq _ _ _ _ _ _ _ _
    rw [hw]
    by_cases hlt : st.2 (j + i * nx) < close n
    · rw [if_pos ⟨hflag, hlt⟩, if_pos hlt, if_pos hlt]
      exact ⟨upd_same _ _ _, upd_same _ _ _⟩
    · rw [if_neg (fun h => hlt h.2), if_neg hlt, if_neg hlt]
      exact ⟨rfl, rfl⟩
  by_cases hv : vis n
  · obtain ⟨t1, t2⟩ := take hv
    have hcpos : 0 < close n := lt_of_lt_of_le (by norm_num) (closeness_pos hx0 hz0 hv.2)
    right
    rcases ih with ⟨a, b, c⟩ | ⟨k, ⟨kn, kv, kbest⟩, b, c⟩
    · rw [c, if_pos hcpos] at t1 t2
      refine ⟨n, ⟨Nat.lt_succ_self n, hv, ?_⟩, t1, t2⟩
      intro k' hk' hvk'
      rcases Nat.lt_succ_iff_lt_or_eq.1 hk' with h | h
      · exact absurd hvk' (a k' h)
      · subst h; exact ⟨le_refl _, fun _ => le_refl _⟩
    · rw [c] at t1 t2
      by_cases hlt : close k < close n
      · rw [if_pos hlt] at t1 t2
        refine ⟨n, ⟨Nat.lt_succ_self n, hv, ?_⟩, t1, t2⟩
        intro k' hk' hvk'
        rcases Nat.lt_succ_iff_lt_or_eq.1 hk' with h | h
        · have := (kbest k' h hvk').1
          exact ⟨by order, fun he => by order⟩
        · subst h; exact ⟨le_refl _, fun _ => le_refl _⟩
      · rw [if_neg hlt] at t1 t2
        refine ⟨k, ⟨by omega, kv, ?_⟩, t1.trans b, t2.trans rfl⟩
        intro k' hk' hvk'
        rcases Nat.lt_succ_iff_lt_or_eq.1 hk' with h | h
        · exact kbest k' h hvk'
        · subst h; exact ⟨not_lt.1 hlt, fun _ => by omega⟩
  · obtain ⟨t1, t2⟩ := keep hv
    rcases ih with ⟨a, b, c⟩ | ⟨k, ⟨kn, kv, kbest⟩, b, c⟩
    · left
      refine ⟨fun k hk => ?_, t1.trans b, t2.trans c⟩
      rcases Nat.lt_succ_iff_lt_or_eq.1 hk with h | h
      · exact a k h
      · subst h; exact hv
    · right
      refine ⟨k, ⟨by omega, kv, ?_⟩, t1.trans b, t2.trans c⟩
      intro k' hk' hvk'
      rcases Nat.lt_succ_iff_lt_or_eq.1 hk' with h | h
      · exact kbest k' h hvk'
      · subst h; exact absurd hvk' hv

/-- The map `m` with refinement `res` shows, in every rectangle, -1 or the `label` of the nearest visible
marker. -/
def ShowsNearest (x0 z0 dx dz : K) (ncx ncz res : Nat) (types : Nat → Int) (nb : Nat)
    (ms : Nat → LMarker K) (label : Nat → Int) (m : Nat → Int) : Prop :=
  ∀ j i : Nat, j < res * ncx → i < res * ncz →
    let vis := fun k => Shown x0 z0 dx dz ncx types (ms k).x (ms k).z (ms k).phase ∧
      InRect x0 z0 (dx / res) (dz / res) j i (ms k).x (ms k).z
    let close := fun k => closeness x0 z0 (dx / res) (dz / res) j i (ms k).x (ms k).z
    ((∀ k < nb, ¬ vis k) ∧ m (j + i * (res * ncx)) = -1) ∨
      ∃ k, Nearest nb vis close k ∧ m (j + i * (res * ncx)) = label k

/-- **C107 (partial).**  The three maps of an output file: the two refined maps show phase and dual phase
of the nearest visible marker.  The map of standard resolution, `compo`, shows the **dual** phase and not
the phase (`compo_is_not_phase`). -/
theorem output_maps_partial (x0 z0 dx dz : K) (hdx : 0 < dx) (hdz : 0 < dz) (ncx ncz : Nat)
    (hcx : 0 < ncx) (hcz : 0 < ncz) (types : Nat → Int) (nb : Nat) (ms : Nat → LMarker K)
    (hbox : ∀ k < nb, (ms k).phase ≠ -1 → (x0 ≤ (ms k).x ∧ (ms k).x ≤ x0 + ncx * dx) ∧
      (z0 ≤ (ms k).z ∧ (ms k).z ≤ z0 + ncz * dz)) :
    let M := phaseMaps x0 z0 dx dz ncx ncz types nb ms
    ShowsNearest x0 z0 dx dz ncx ncz 2 types nb ms (fun k => (ms k).phase) M.compo_hr ∧
      ShowsNearest x0 z0 dx dz ncx ncz 2 types nb ms (fun k => (ms k).dual) M.compo_dual_hr ∧
      ShowsNearest x0 z0 dx dz ncx ncz 1 types nb ms (fun k => (ms k).dual) M.compo := by
  refine ⟨?_, ?_, ?_⟩
  · intro j i hj hi
    exact phase_map_nearest ⟨x0, z0, dx, dz, ncx, ncz, 2⟩ hdx hdz (by norm_num) hcx hcz types nb
      (fun k => ⟨(ms k).x, (ms k).z, (ms k).phase, (ms k).phase⟩) hbox
      j i hj hi
  · intro j i hj hi
    exact phase_map_nearest ⟨x0, z0, dx, dz, ncx, ncz, 2⟩ hdx hdz (by norm_num) hcx hcz types nb
      (fun k => ⟨(ms k).x, (ms k).z, (ms k).phase, (ms k).dual⟩) hbox
      j i hj hi
  · intro j i hj hi
    exact phase_map_nearest ⟨x0, z0, dx, dz, ncx, ncz, 1⟩ hdx hdz (by norm_num) hcx hcz types nb
      (fun k => ⟨(ms k).x, (ms k).z, (ms k).phase, (ms k).dual⟩) hbox
      j i hj hi

/-- Two cells side by side, one marker in each (phases 0 and 1, dual phases 5 and 6) and an inactive one
far outside. -/
def twoMarkers : Nat → LMarker Rat
  | 0 => ⟨1 / 4, 1 / 2, 0, 5⟩
  | 1 => ⟨3 / 2, 3 / 4, 1, 6⟩
  | _ => ⟨-10, 100, -1, 0⟩

/-- The hypotheses of the theorem hold for `twoMarkers`. -/
example : ∀ k < 3, (twoMarkers k).phase ≠ -1 →
    ((0 : Rat) ≤ (twoMarkers k).x ∧ (twoMarkers k).x ≤ 0 + (2 : Nat) * 1) ∧
      (0 ≤ (twoMarkers k).z ∧ (twoMarkers k).z ≤ 0 + (1 : Nat) * 1) := by
  intro k hk
  match k, hk with
  | 0, _ => intro _; norm_num [twoMarkers]
  | 1, _ => intro _; norm_num [twoMarkers]
  | 2, _ => intro h; exact absurd rfl h

/-- The standard map `compo` of an output file does not show the phases: for `twoMarkers` it shows 5 and
6 where the phases are 0 and 1. -/
theorem compo_is_not_phase :
    let M := phaseMaps (0 : Rat) 0 1 1 2 1 (fun _ => 0) 3 twoMarkers
    M.compo 0 = 5 ∧ M.compo 1 = 6 ∧ (twoMarkers 0).phase = 0 ∧ (twoMarkers 1).phase = 1 ∧
      M.compo_hr 4 = -1 ∧ M.compo_hr 0 = 0 ∧ M.compo_hr 6 = 1 ∧ M.compo_hr 1 = -1 := by
  decide +kernel

end Verif.Output
