import Verif.Model.History
import Verif.Spec.History
import Verif.Props.InterpNodes
import Mathlib.Tactic.Linarith
import Mathlib.Tactic.LinearCombination
import Mathlib.Tactic.Positivity
import Mathlib.Tactic.FieldSimp
import Mathlib.Data.Rat.Floor

set_option linter.unusedSectionVars false
set_option linter.unusedVariables false

/- C77: strain accumulated by the markers. -/
namespace Verif.Hist
open Verif Verif.Interp

variable {K : Type*} [Field K] [LinearOrder K] [IsStrictOrderedRing K] [FloorRing K]

theorem ite_nonneg' {c : Prop} [Decidable c] {p q : K} (hp : 0 ≤ p) (hq : 0 ≤ q) : 0 ≤ if c then p else q := by
  split_ifs <;> assumption

/-- Mean of data between zero and `M`, whatever the air flags. -/
theorem airMean_range {a b : K} (ha0 : 0 ≤ a) (ha1 : a ≤ 1) (hb0 : 0 ≤ b) (hb1 : b ≤ 1) (t : Quad Int) (v : Quad K)
    (M : K) (h1 : 0 ≤ v.sw) (h2 : 0 ≤ v.se) (h3 : 0 ≤ v.nw) (h4 : 0 ≤ v.ne) :
    0 ≤ airMean a b t v ∧ (v.sw ≤ M → v.se ≤ M → v.nw ≤ M → v.ne ≤ M → airMean a b t v ≤ M) := by
  have w1 : 0 ≤ (if isAir t.sw then 0 else (1 - a) * (1 - b)) :=
    ite_nonneg' le_rfl (mul_nonneg (by linarith) (by linarith))
  have w2 : 0 ≤ (if isAir t.se then 0 else a * (1 - b)) := ite_nonneg' le_rfl (mul_nonneg ha0 (by linarith))
  have w3 : 0 ≤ (if isAir t.nw then 0 else (1 - a) * b) := ite_nonneg' le_rfl (mul_nonneg (by linarith) hb0)
  have w4 : 0 ≤ (if isAir t.ne then 0 else a * b) := ite_nonneg' le_rfl (mul_nonneg ha0 hb0)
  unfold airMean
  simp only
  generalize (if isAir t.sw then 0 else (1 - a) * (1 - b)) = p1 at w1 ⊢
  generalize (if isAir t.se then 0 else a * (1 - b)) = p2 at w2 ⊢
  generalize (if isAir t.nw then 0 else (1 - a) * b) = p3 at w3 ⊢
  generalize (if isAir t.ne then 0 else a * b) = p4 at w4 ⊢
  have s : 0 ≤ p1 * v.sw + p2 * v.se + p3 * v.nw + p4 * v.ne := by positivity
  have s' : 0 ≤ p1 + p2 + p3 + p4 := by positivity
  refine ⟨ite_nonneg' (div_nonneg s s') s, fun m1 m2 m3 m4 => ?_⟩
  have hM : 0 ≤ M := le_trans h1 m1
  have u : p1 * v.sw + p2 * v.se + p3 * v.nw + p4 * v.ne ≤ M * (p1 + p2 + p3 + p4) := by
    have := mul_le_mul_of_nonneg_left m1 w1
    have := mul_le_mul_of_nonneg_left m2 w2
    have := mul_le_mul_of_nonneg_left m3 w3
    have := mul_le_mul_of_nonneg_left m4 w4
    linarith
  split_ifs with h
  · have hp : 0 < p1 + p2 + p3 + p4 := lt_trans (by positivity) h
    rw [div_le_iff₀ hp]; exact u
  · have : p1 + p2 + p3 + p4 ≤ 1 := le_trans (not_lt.mp h) (by norm_num)
    have := mul_le_mul_of_nonneg_left this hM
    linarith

/-- The mean is additive in the data. -/
theorem airMean_add (a b : K) (t : Quad Int) (v w : Quad K) :
    airMean a b t ⟨v.sw + w.sw, v.se + w.se, v.nw + w.nw, v.ne + w.ne⟩ = airMean a b t v + airMean a b t w := by
  unfold airMean
  simp only
  generalize (if isAir t.sw then 0 else (1 - a) * (1 - b)) = p1
  generalize (if isAir t.se then 0 else a * (1 - b)) = p2
  generalize (if isAir t.nw then 0 else (1 - a) * b) = p3
  generalize (if isAir t.ne then 0 else a * b) = p4
  by_cases h : 1 / 10 ^ 13 < p1 + p2 + p3 + p4
  · simp only [if_pos h]; ring
  · simp only [if_neg h]; ring

theorem strainInc_add (nx nz : Int) (X Z : Int → K) (dx dz : K) (f g : Int → K) (tag : Int → Int) (x z : K) :
    strainInc nx nz X Z dx dz (fun c => f c + g c) tag x z =
      strainInc nx nz X Z dx dz f tag x z + strainInc nx nz X Z dx dz g tag x z := by
  unfold strainInc
  simp only [Quad.get]
  exact airMean_add _ _ _ ⟨_, _, _, _⟩ ⟨_, _, _, _⟩

/-- The increment of a marker between the outermost cell centres. -/
theorem strainInc_range {nx nz : Nat} {X Z : Int → K} {x0 z0 dx dz x z : K} (G : InGrid nx nz X Z x0 z0 dx dz x z)
    (f : Int → K) (tag : Int → Int) (hf : ∀ n, IsNode nx nz n → 0 ≤ f n) (M : K) :
    0 ≤ strainInc nx nz X Z dx dz f tag x z ∧
      ((∀ n, IsNode nx nz n → f n ≤ M) → strainInc nx nz X Z dx dz f tag x z ≤ M) := by
  obtain ⟨j, i, hj, hi, j2, i2, j3, j4, i3, i4, _⟩ := G.cell
  obtain ⟨n1, n2, n3, n4, _⟩ := extra_nodes (nx := nx) (nz := nz) j2 i2
  have hdx := G.dxp
  have hdz := G.dzp
  have ex : (x - X j) / dx = (x - x0) / dx - j := by rw [G.regX]; push_cast; field_simp; ring
  have ez : (z - Z i) / dz = (z - z0) / dz - i := by rw [G.regZ]; push_cast; field_simp; ring
  unfold strainInc
  simp only [hj, hi, corners_eq]
  rw [ex, ez]
  have := airMean_range (by linarith) (by linarith) (by linarith) (by linarith) ((cellNodes nx j i).get tag)
    ((cellNodes nx j i).get f) M (hf _ n1) (hf _ n2) (hf _ n3) (hf _ n4) (a := (x - x0) / dx - j) (b := (z - z0) / dz - i)
  exact ⟨this.1, fun hM => this.2 (hM _ n1) (hM _ n2) (hM _ n3) (hM _ n4)⟩

/-- Every rate is non-negative in every cell. -/
def Rates.Nonneg (r : Rates K) (nx nz : Nat) : Prop :=
  ∀ n, IsNode nx nz n → 0 ≤ r.el n ∧ 0 ≤ r.pl n ∧ 0 ≤ r.pwl n ∧ 0 ≤ r.exp n ∧ 0 ≤ r.lin n ∧ 0 ≤ r.gbs n ∧ 0 ≤ r.cst n

/-- One strain state is at least another in every measure. -/
structure Strain.Le (s t : Strain K) : Prop where
  tot : s.tot ≤ t.tot
  el : s.el ≤ t.el
  pl : s.pl ≤ t.pl
  pwl : s.pwl ≤ t.pwl
  exp : s.exp ≤ t.exp
  lin : s.lin ≤ t.lin
  gbs : s.gbs ≤ t.gbs

theorem flat_isNode {nx nz c : Nat} (h : c < nx * nz) : IsNode nx nz (c : Int) := by
  have hx : 0 < nx := by rcases Nat.eq_zero_or_pos nx with h0 | h0; · simp [h0] at h
                         · exact h0
  refine ⟨c / nx, ?_, c % nx, Nat.mod_lt _ hx, ?_⟩
  · exact Nat.div_lt_of_lt_mul h
  · have := Nat.mod_add_div c nx
    push_cast
    have e : ((c % nx : Nat) : Int) + ((nx * (c / nx) : Nat) : Int) = c := by exact_mod_cast this
    push_cast at e
    linarith

/-- C77 (part).  For every marker between the outermost cell centres and non-negative rates the step is accepted,
no strain measure decreases, the total grows by what the six measures and the constant-viscosity part grow by,
and the total increment does not exceed the largest increment of a cell.  Missing: the half cell along the
sides, where the claim is false (`strain_can_decrease`). -/
theorem strain_never_decreases_partial {nx nz : Nat} {X Z : Int → K} {x0 z0 dx dz x z : K}
    (G : InGrid nx nz X Z x0 z0 dx dz x z) (dt : K) (hdt : 0 ≤ dt) (r : Rates K) (hr : r.Nonneg nx nz)
    (tag : Int → Int) (phase : Int) (s : Strain K) :
    ∃ s', accumulate nx nz X Z dx dz dt r tag phase x z s = some s' ∧ s.Le s' ∧
      (∀ M, (∀ n, IsNode nx nz n → r.pl n + r.pwl n + r.exp n + r.lin n + r.gbs n + r.el n + r.cst n ≤ M) → 0 ≤ M →
        s'.tot - s.tot ≤ dt * M) ∧
      (s'.el - s.el) + (s'.pl - s.pl) + (s'.pwl - s.pwl) + (s'.exp - s.exp) + (s'.lin - s.lin) + (s'.gbs - s.gbs)
        ≤ s'.tot - s.tot ∧
      ((∀ n, r.cst n = 0) →
        (s'.el - s.el) + (s'.pl - s.pl) + (s'.pwl - s.pwl) + (s'.exp - s.exp) + (s'.lin - s.lin) + (s'.gbs - s.gbs)
          = s'.tot - s.tot) ∧
      (phase = -1 → s' = s) := by
  have acc : ((List.range (nx * nz)).any fun c => decide (r.total dt c < 0)) = false := by
    rw [List.any_eq_false]
    intro c hc
    obtain ⟨a, b, c', d, e, f, g⟩ := hr c (flat_isNode (List.mem_range.mp hc))
    have : 0 ≤ r.total dt c := by unfold Rates.total; positivity
    simp [not_lt.mpr this]
  have nn : ∀ f : Int → K, (∀ n, IsNode nx nz n → 0 ≤ f n) →
      0 ≤ (if phase ≠ -1 then strainInc nx nz X Z dx dz (fun c => dt * f c) tag x z else 0) := fun f hf =>
    ite_nonneg' (strainInc_range G _ tag (fun n hn => mul_nonneg hdt (hf n hn)) 0).1 le_rfl
  have tn : ∀ n, IsNode nx nz n → 0 ≤ r.total dt n := fun n hn => by
    obtain ⟨a, b, c', d, e, f, g⟩ := hr n hn
    unfold Rates.total; positivity
  have split : (if phase ≠ -1 then strainInc nx nz X Z dx dz (r.total dt) tag x z else 0) =
      (if phase ≠ -1 then strainInc nx nz X Z dx dz (fun c => dt * r.el c) tag x z else 0) +
      (if phase ≠ -1 then strainInc nx nz X Z dx dz (fun c => dt * r.pl c) tag x z else 0) +
      (if phase ≠ -1 then strainInc nx nz X Z dx dz (fun c => dt * r.pwl c) tag x z else 0) +
      (if phase ≠ -1 then strainInc nx nz X Z dx dz (fun c => dt * r.exp c) tag x z else 0) +
      (if phase ≠ -1 then strainInc nx nz X Z dx dz (fun c => dt * r.lin c) tag x z else 0) +
      (if phase ≠ -1 then strainInc nx nz X Z dx dz (fun c => dt * r.gbs c) tag x z else 0) +
      (if phase ≠ -1 then strainInc nx nz X Z dx dz (fun c => dt * r.cst c) tag x z else 0) := by
    by_cases hp : phase ≠ -1
    · simp only [if_pos hp]
      rw [← strainInc_add, ← strainInc_add, ← strainInc_add, ← strainInc_add, ← strainInc_add, ← strainInc_add]
      congr 1
      funext c
      unfold Rates.total
      ring
    · simp only [if_neg hp]; ring
  have q1 := nn r.el fun n hn => (hr n hn).1
  have q2 := nn r.pl fun n hn => (hr n hn).2.1
  have q3 := nn r.pwl fun n hn => (hr n hn).2.2.1
  have q4 := nn r.exp fun n hn => (hr n hn).2.2.2.1
  have q5 := nn r.lin fun n hn => (hr n hn).2.2.2.2.1
  have q6 := nn r.gbs fun n hn => (hr n hn).2.2.2.2.2.1
  have q7 := nn r.cst fun n hn => (hr n hn).2.2.2.2.2.2
  unfold accumulate
  rw [acc]
  refine ⟨_, rfl, ⟨?_, ?_, ?_, ?_, ?_, ?_, ?_⟩, ?_, ?_, ?_, ?_⟩
  · simp only; rw [split]; linarith
  · simp only; linarith
  · simp only; linarith
  · simp only; linarith
  · simp only; linarith
  · simp only; linarith
  · simp only; linarith
  · intro M hM hM0
    simp only
    have : (if phase ≠ -1 then strainInc nx nz X Z dx dz (r.total dt) tag x z else 0) ≤ dt * M := by
      split_ifs with hp
      · exact (strainInc_range G _ tag tn (dt * M)).2 fun n hn => by
          unfold Rates.total; exact mul_le_mul_of_nonneg_left (hM n hn) hdt
      · exact mul_nonneg hdt hM0
    linarith
  · simp only; rw [split]; linarith
  · intro hc
    simp only
    have z0 : (if phase ≠ -1 then strainInc nx nz X Z dx dz (fun c => dt * r.cst c) tag x z else 0) = 0 := by
      by_cases hp : phase ≠ -1
      · simp only [if_pos hp]
        have e : (fun c => dt * r.cst c) = fun _ => (0 : K) := by funext c; rw [hc]; ring
        rw [e]
        have := strainInc_range G (fun _ => (0 : K)) tag (fun _ _ => le_rfl) 0
        exact le_antisymm (this.2 fun _ _ => le_rfl) this.1
      · simp only [if_neg hp]
    rw [split, z0]; ring
  · intro hp
    simp [hp]

/-- C77 (uniform rates).  In a homogeneous flow without air every active marker, wherever it is, gains exactly the
rate times the time step; an inactive marker gains nothing. -/
theorem strain_uniform {nx nz : Nat} (hx : 2 ≤ nx) (hz : 2 ≤ nz) (X Z : Int → K) (dx dz x z : K) (dt : K) (hdt : 0 ≤ dt)
    (el pl pwl exp lin gbs cst : K) (h : 0 ≤ pl + pwl + exp + lin + gbs + el + cst) (tag : Int → Int) (ha : NoAir nx nz tag)
    (phase : Int) (s : Strain K) :
    accumulate nx nz X Z dx dz dt ⟨fun _ => el, fun _ => pl, fun _ => pwl, fun _ => exp, fun _ => lin, fun _ => gbs, fun _ => cst⟩
      tag phase x z s =
    some (if phase = -1 then s else
      ⟨s.tot + dt * (pl + pwl + exp + lin + gbs + el + cst), s.el + dt * el, s.pl + dt * pl, s.pwl + dt * pwl,
        s.exp + dt * exp, s.lin + dt * lin, s.gbs + dt * gbs⟩) := by
  have key : ∀ y : K, strainInc nx nz X Z dx dz (fun _ => y) tag x z = y := by
    intro y
    obtain ⟨j, hj, j2⟩ := clamp_range nx hx (cellOf x (X 0) dx)
    obtain ⟨i, hi, i2⟩ := clamp_range nz hz (cellOf z (Z 0) dz)
    have na := cellNodes_noAir ha j2 i2
    simp only at na
    unfold strainInc
    simp only [hj, hi, corners_eq]
    have c1 : isAir ((cellNodes nx j i).get tag).sw = false := isAir_false na.1
    have c2 : isAir ((cellNodes nx j i).get tag).se = false := isAir_false na.2.1
    have c3 : isAir ((cellNodes nx j i).get tag).nw = false := isAir_false na.2.2.1
    have c4 : isAir ((cellNodes nx j i).get tag).ne = false := isAir_false na.2.2.2
    unfold airMean
    simp only [c1, c2, c3, c4]
    generalize (x - X j) / dx = a
    generalize (z - Z i) / dz = b
    have e : (1 - a) * (1 - b) + a * (1 - b) + (1 - a) * b + a * b = 1 := by ring
    simp only [Bool.false_eq_true, if_false, e]
    rw [if_pos (by norm_num)]
    simp only [Quad.get]
    linear_combination y * e
  have acc : ((List.range (nx * nz)).any fun c => decide
      ((⟨fun _ => el, fun _ => pl, fun _ => pwl, fun _ => exp, fun _ => lin, fun _ => gbs, fun _ => cst⟩ : Rates K).total dt c < 0)) = false := by
    rw [List.any_eq_false]
    intro c _
    have := mul_nonneg hdt h
    rw [decide_eq_true_iff]
    exact not_lt.mpr this
  unfold accumulate
  rw [acc]
  by_cases hp : phase = -1
  · simp [hp]
  · have et : (⟨fun _ => el, fun _ => pl, fun _ => pwl, fun _ => exp, fun _ => lin, fun _ => gbs, fun _ => cst⟩ : Rates K).total dt =
        fun _ => dt * (pl + pwl + exp + lin + gbs + el + cst) := rfl
    simp only [hp, Bool.false_eq_true, if_false, ne_eq, not_false_eq_true, if_true, et, key]

/-- C77 fails in the half cell along the sides: the box is `[0,2] × [0,2]` with four cells, the marker lies inside at
`(1/4, 1)`, every rate is non-negative, and yet its total and plastic strain drop: the weight of the eastern
cells is negative there. -/
theorem strain_can_decrease :
    ∃ (r : Rates ℚ) (s' : Strain ℚ), r.Nonneg 2 2 ∧
      accumulate 2 2 (fun j => (j : ℚ) + 1 / 2) (fun j => (j : ℚ) + 1 / 2) 1 1 1 r (fun _ => -1) 0 (1 / 4) 1
        ⟨1, 0, 1, 0, 0, 0, 0⟩ = some s' ∧ s'.tot < 1 ∧ s'.pl < 1 := by
  refine ⟨⟨fun _ => 0, fun c => if c % 2 = 1 then 1 else 0, fun _ => 0, fun _ => 0, fun _ => 0, fun _ => 0, fun _ => 0⟩,
    ⟨3 / 4, 0, 3 / 4, 0, 0, 0, 0⟩, ?_, ?_, by norm_num, by norm_num⟩
  · intro n _
    refine ⟨le_rfl, ?_, le_rfl, le_rfl, le_rfl, le_rfl, le_rfl⟩
    simp only; split_ifs <;> norm_num
  · have e : accumulate 2 2 (fun j => (j : ℚ) + 1 / 2) (fun j => (j : ℚ) + 1 / 2) 1 1 1
        (⟨fun _ => 0, fun c => if c % 2 = 1 then 1 else 0, fun _ => 0, fun _ => 0, fun _ => 0, fun _ => 0, fun _ => 0⟩ : Rates ℚ)
        (fun _ => -1) 0 (1 / 4) 1 ⟨1, 0, 1, 0, 0, 0, 0⟩ =
      some ⟨1 + -1 / 4, 0, 1 + -1 / 4, 0, 0, 0, 0⟩ := by
      unfold accumulate
      rw [if_neg (by decide +kernel)]
      simp only [Option.some.injEq, Strain.mk.injEq]
      refine ⟨?_, ?_, ?_, ?_, ?_, ?_, ?_⟩ <;> decide +kernel
    rw [e]; norm_num

/-- Run of `accumulate` over a list of steps, each with its rates, flags, time step and marker position. -/
def runStrain (nx nz : Nat) (X Z : Int → K) (dx dz : K) :
    List (K × Rates K × (Int → Int) × Int × K × K) → Strain K → Option (Strain K)
  | [], s => some s
  | (dt, r, tag, phase, x, z) :: rest, s =>
    match accumulate nx nz X Z dx dz dt r tag phase x z s with
    | none => none
    | some s' => runStrain nx nz X Z dx dz rest s'

/-- C77 (history).  Over any number of steps at positions between the outermost cell centres no strain measure ever
decreases. -/
theorem strain_history_partial {nx nz : Nat} {X Z : Int → K} {x0 z0 dx dz : K}
    (steps : List (K × Rates K × (Int → Int) × Int × K × K))
    (h : ∀ q ∈ steps, 0 ≤ q.1 ∧ q.2.1.Nonneg nx nz ∧ InGrid nx nz X Z x0 z0 dx dz q.2.2.2.2.1 q.2.2.2.2.2)
    (s : Strain K) : ∃ s', runStrain nx nz X Z dx dz steps s = some s' ∧ s.Le s' := by
  induction steps generalizing s with
  | nil => exact ⟨s, rfl, ⟨le_rfl, le_rfl, le_rfl, le_rfl, le_rfl, le_rfl, le_rfl⟩⟩
  | cons q rest ih =>
    obtain ⟨dt, r, tag, phase, x, z⟩ := q
    obtain ⟨hdt, hr, G⟩ := h _ List.mem_cons_self
    obtain ⟨s1, e1, l1, _⟩ := strain_never_decreases_partial G dt hdt r hr tag phase s
    obtain ⟨s2, e2, l2⟩ := ih (fun q hq => h q (List.mem_cons_of_mem _ hq)) s1
    refine ⟨s2, ?_, ⟨le_trans l1.tot l2.tot, le_trans l1.el l2.el, le_trans l1.pl l2.pl, le_trans l1.pwl l2.pwl,
      le_trans l1.exp l2.exp, le_trans l1.lin l2.lin, le_trans l1.gbs l2.gbs⟩⟩
    simp only [runStrain, e1, e2]

/-- Non-vacuity: a marker between the centres of three by three cells. -/
example : InGrid 3 3 (fun j => (j : ℚ) + 1 / 2) (fun j => (j : ℚ) + 1 / 2) (1 / 2) (1 / 2) 1 1 (5 / 4) 2 :=
  ⟨by norm_num, by norm_num, by norm_num, by norm_num, fun j => by ring, fun j => by ring,
    by norm_num, by norm_num, by norm_num, by norm_num⟩

end Verif.Hist
