import Verif.Model.Advect

/- C18 (markers stay in the box) and C19 (Runge-Kutta advection). -/
namespace Verif.Adv
open Verif
set_option linter.unusedSectionVars false

variable {K : Type*} [Field K] [LinearOrder K] [IsStrictOrderedRing K]

/-- The position is in the closed box. -/
def Inside (B : Box K) (m : Marker K) : Prop :=
  B.xmin ≤ m.x ∧ m.x ≤ B.xmax ∧ B.zmin ≤ m.z ∧ m.z ≤ B.zmax

/-- The wrap of a marker that is at most one box width away. -/
theorem wrap_spec (B : Box K) (hB : B.xmin < B.xmax) (x : K) (h0 : B.xmin - (B.xmax - B.xmin) ≤ x)
    (h1 : x ≤ B.xmax + (B.xmax - B.xmin)) :
    (x < B.xmin → wrapE B (wrapW B x) = x + (B.xmax - B.xmin)) ∧
    (B.xmax < x → wrapE B (wrapW B x) = x - (B.xmax - B.xmin)) ∧
    (B.xmin ≤ x → x ≤ B.xmax → wrapE B (wrapW B x) = x) ∧
    B.xmin ≤ wrapE B (wrapW B x) ∧ wrapE B (wrapW B x) ≤ B.xmax := by
  rcases lt_trichotomy x B.xmin with h | h | h
  · have e1 : wrapW B x = x + (B.xmax - B.xmin) := by
      unfold wrapW
      rw [if_pos h, abs_of_pos (by linarith)]
      ring
    have e2 : wrapE B (wrapW B x) = x + (B.xmax - B.xmin) := by
      rw [e1]; unfold wrapE; rw [if_neg (by linarith)]
    exact ⟨fun _ => e2, fun h' => by linarith, fun h' => by linarith, by rw [e2]; linarith, by rw [e2]; linarith⟩
  · subst h
    have e1 : wrapW B B.xmin = B.xmin := by unfold wrapW; rw [if_neg (lt_irrefl _)]
    have e2 : wrapE B (wrapW B B.xmin) = B.xmin := by
      rw [e1]; unfold wrapE; rw [if_neg (by linarith)]
    exact ⟨fun h' => absurd h' (lt_irrefl _), fun h' => by linarith, fun _ _ => e2, by rw [e2], by rw [e2]; linarith⟩
  · have e1 : wrapW B x = x := by unfold wrapW; rw [if_neg (by linarith)]
    rw [e1]
    by_cases h2 : B.xmax < x
    · have e2 : wrapE B x = x - (B.xmax - B.xmin) := by
        unfold wrapE
        rw [if_pos h2, abs_of_neg (by linarith)]
        ring
      exact ⟨fun h' => by linarith, fun _ => e2, fun _ h' => by linarith, by rw [e2]; linarith, by rw [e2]; linarith⟩
    · have e2 : wrapE B x = x := by unfold wrapE; rw [if_neg h2]
      exact ⟨fun h' => by linarith, fun h' => absurd h' h2, fun _ _ => e2, by rw [e2]; linarith,
        by rw [e2]; exact not_lt.mp h2⟩

/-- C18 (inside).  After the test every active marker lies inside the box; with periodic sides this
needs that it had not moved by more than one box width. -/
theorem active_inside (B : Box K) (hB : B.xmin < B.xmax) (periodic : Bool) (m : Marker K)
    (hp : periodic = true → B.xmin - (B.xmax - B.xmin) ≤ m.x ∧ m.x ≤ B.xmax + (B.xmax - B.xmin))
    (hact : (isoutPart B periodic m).phase ≠ -1) : Inside B (isoutPart B periodic m) := by
  unfold isoutPart at *
  cases periodic with
  | true =>
    obtain ⟨p0, p1⟩ := hp rfl
    obtain ⟨_, _, _, w1, w2⟩ := wrap_spec B hB m.x p0 p1
    simp only [if_true] at *
    by_cases h : m.z < B.zmin ∨ m.z > B.zmax
    · rw [if_pos h] at hact; exact absurd rfl hact
    · rw [if_neg h]
      push Not at h
      exact ⟨w1, w2, h.1, h.2⟩
  | false =>
    simp only [Bool.false_eq_true, if_false] at *
    by_cases h : m.x < B.xmin ∨ m.x > B.xmax ∨ m.z < B.zmin ∨ m.z > B.zmax
    · rw [if_pos h] at hact; exact absurd rfl hact
    · rw [if_neg h]
      push Not at h
      exact ⟨h.1, h.2.1, h.2.2.1, h.2.2.2⟩

/-- C18 (who is deactivated).  The test only ever writes -1; it does so exactly for markers
outside in z (and, without periodic sides, in x). -/
theorem deactivated_iff (B : Box K) (periodic : Bool) (m : Marker K) :
    ((isoutPart B periodic m).phase = m.phase ∨ (isoutPart B periodic m).phase = -1) ∧
    (m.phase ≠ -1 → ((isoutPart B periodic m).phase = -1 ↔
      (m.z < B.zmin ∨ B.zmax < m.z ∨ (periodic = false ∧ (m.x < B.xmin ∨ B.xmax < m.x))))) ∧
    (isoutPart B periodic m).z = m.z ∧ (periodic = false → (isoutPart B periodic m).x = m.x) := by
  unfold isoutPart
  cases periodic with
  | true =>
    simp only [if_true]
    by_cases h : m.z < B.zmin ∨ m.z > B.zmax
    · rw [if_pos h]
      refine ⟨Or.inr rfl, fun _ => ⟨fun _ => ?_, fun _ => rfl⟩, rfl, fun h => by simp at h⟩
      rcases h with h | h
      · exact Or.inl h
      · exact Or.inr (Or.inl h)
    · rw [if_neg h]
      push Not at h
      refine ⟨Or.inl rfl, fun hm => ⟨fun h' => absurd h' hm, fun h' => ?_⟩, rfl, fun h => by simp at h⟩
      rcases h' with h' | h' | ⟨h', _⟩
      · exact absurd h' (not_lt.mpr h.1)
      · exact absurd h' (not_lt.mpr h.2)
      · simp at h'
  | false =>
    simp only [Bool.false_eq_true, if_false]
    by_cases h : m.x < B.xmin ∨ m.x > B.xmax ∨ m.z < B.zmin ∨ m.z > B.zmax
    · rw [if_pos h]
      refine ⟨Or.inr rfl, fun _ => ⟨fun _ => ?_, fun _ => rfl⟩, rfl, fun _ => rfl⟩
      rcases h with h | h | h | h
      · exact Or.inr (Or.inr ⟨trivial, Or.inl h⟩)
      · exact Or.inr (Or.inr ⟨trivial, Or.inr h⟩)
      · exact Or.inl h
      · exact Or.inr (Or.inl h)
    · rw [if_neg h]
      push Not at h
      refine ⟨Or.inl rfl, fun hm => ⟨fun h' => absurd h' hm, fun h' => ?_⟩, rfl, fun _ => rfl⟩
      rcases h' with h' | h' | ⟨_, h' | h'⟩
      · exact absurd h' (not_lt.mpr h.2.2.1)
      · exact absurd h' (not_lt.mpr h.2.2.2)
      · exact absurd h' (not_lt.mpr h.1)
      · exact absurd h' (not_lt.mpr h.2.1)

/-- C18 (re-entry).  With periodic sides a marker that left by at most one box width re-enters
shifted by exactly one box width and stays active (if its height is inside). -/
theorem periodic_reentry (B : Box K) (hB : B.xmin < B.xmax) (m : Marker K) (hz0 : B.zmin ≤ m.z)
    (hz1 : m.z ≤ B.zmax) (hx : B.xmin - (B.xmax - B.xmin) ≤ m.x ∧ m.x ≤ B.xmax + (B.xmax - B.xmin)) :
    (isoutPart B true m).phase = m.phase ∧
    (m.x < B.xmin → (isoutPart B true m).x = m.x + (B.xmax - B.xmin)) ∧
    (B.xmax < m.x → (isoutPart B true m).x = m.x - (B.xmax - B.xmin)) ∧
    (B.xmin ≤ m.x → m.x ≤ B.xmax → (isoutPart B true m).x = m.x) := by
  obtain ⟨w1, w2, w3, _⟩ := wrap_spec B hB m.x hx.1 hx.2
  unfold isoutPart
  simp only [if_true]
  rw [if_neg (by push Not; exact ⟨hz0, hz1⟩)]
  exact ⟨rfl, w1, w2, w3⟩

/-- C18 (limit).  Beyond one box width the periodic correction does not bring a marker back: it
stays active outside the box. -/
theorem periodic_far_marker_escapes : ∃ (B : Box ℚ) (m : Marker ℚ), B.xmin < B.xmax ∧ B.zmin < B.zmax ∧
    (isoutPart B true m).phase ≠ -1 ∧ ¬ Inside B (isoutPart B true m) := by
  refine ⟨⟨0, 1, 0, 1⟩, ⟨5 / 2, 1 / 2, 0, 0, 0⟩, by norm_num, by norm_num, ?_, ?_⟩
  · norm_num [isoutPart, wrapE, wrapW]
  · norm_num [isoutPart, wrapE, wrapW, Inside, abs_of_neg]

/-- C18 (all markers).  The loop tests every stored marker and touches no other slot. -/
theorem isout_pointwise (B : Box K) (periodic : Bool) (n : Nat) (P : Nat → Marker K) (k : Nat) :
    isout B periodic n P k = if k < n then isoutPart B periodic (P k) else P k :=
  forUp_pointwise n P (fun _ m => isoutPart B periodic m) k

/-- Active before means: the phase survived every earlier test. -/
theorem isoutPart_active {B : Box K} {p : Bool} {m : Marker K} (h : (isoutPart B p m).phase ≠ -1) :
    m.phase ≠ -1 := by
  rcases (deactivated_iff B p m).1 with e | e
  · rwa [e] at h
  · exact absurd e h

theorem shoot_phase (xA zA s : K) (V : K × K) (m : Marker K) : (shoot xA zA s V m).phase = m.phase := by
  unfold shoot; split_ifs <;> rfl

theorem shoot_active {xA zA s : K} {V : K × K} {m : Marker K} (h : m.phase ≠ -1) :
    shoot xA zA s V m = { m with x := xA + s * V.1, z := zA + s * V.2 } := by
  unfold shoot; rw [if_pos h]

theorem inside_fixed {B : Box K} (p : Bool) {m : Marker K} (h : Inside B m) : isoutPart B p m = m := by
  obtain ⟨h1, h2, h3, h4⟩ := h
  unfold isoutPart wrapE wrapW
  cases p with
  | true =>
    simp only [if_true, if_neg (not_lt.mpr h1), if_neg (not_lt.mpr h2)]
    rw [if_neg (by push Not; exact ⟨h3, h4⟩)]
  | false =>
    simp only [Bool.false_eq_true, if_false]
    rw [if_neg (by push Not; exact ⟨h1, h2, h3, h4⟩)]

/-- The four stages when the marker never leaves the box. -/
structure StaysInside (B : Box K) (vel : K → K → K × K) (dt : K) (m : Marker K) (VB VC VD : K × K) : Prop where
  i0 : Inside B m
  b : VB = vel (m.x + 1 / 2 * dt * (vel m.x m.z).1) (m.z + 1 / 2 * dt * (vel m.x m.z).2)
  i1 : Inside B { m with x := m.x + 1 / 2 * dt * (vel m.x m.z).1, z := m.z + 1 / 2 * dt * (vel m.x m.z).2 }
  c : VC = vel (m.x + 1 / 2 * dt * VB.1) (m.z + 1 / 2 * dt * VB.2)
  i2 : Inside B { m with x := m.x + 1 / 2 * dt * VB.1, z := m.z + 1 / 2 * dt * VB.2 }
  d : VD = vel (m.x + 1 * dt * VC.1) (m.z + 1 * dt * VC.2)
  i3 : Inside B { m with x := m.x + 1 * dt * VC.1, z := m.z + 1 * dt * VC.2 }

/-- C19 (the scheme).  For an active marker whose stages stay inside the box the update is the
classical fourth-order Runge-Kutta step. -/
theorem rk4_classical (B : Box K) (p : Bool) (vel : K → K → K × K) (dt : K) (m : Marker K)
    (hm : m.phase ≠ -1) (VB VC VD : K × K) (S : StaysInside B vel dt m VB VC VD) :
    let VA := vel m.x m.z
    let Vx := (VA.1 + 2 * VB.1 + 2 * VC.1 + VD.1) / 6
    let Vz := (VA.2 + 2 * VB.2 + 2 * VC.2 + VD.2) / 6
    rk4 B p vel dt m = isoutPart B p ⟨m.x + dt * Vx, m.z + dt * Vz, Vx, Vz, m.phase⟩ := by
  intro VA Vx Vz
  have act : ∀ x z, (⟨x, z, m.vx, m.vz, m.phase⟩ : Marker K).phase ≠ -1 := fun _ _ => hm
  have v2pA : ∀ x z, v2p vel (⟨x, z, m.vx, m.vz, m.phase⟩ : Marker K) = vel x z := fun x z => by
    unfold v2p; rw [if_pos (act x z)]
  have sh : ∀ x z xA zA s V, shoot xA zA s V (⟨x, z, m.vx, m.vz, m.phase⟩ : Marker K) =
      ⟨xA + s * V.1, zA + s * V.2, m.vx, m.vz, m.phase⟩ := fun x z xA zA s V => shoot_active (act x z)
  have hmm : m = ⟨m.x, m.z, m.vx, m.vz, m.phase⟩ := rfl
  have e1 := inside_fixed p S.i1
  have e2 := inside_fixed p S.i2
  have e3 := inside_fixed p S.i3
  unfold rk4
  rw [hmm]
  simp only [v2pA, sh, e1, ← S.b, e2, ← S.c, e3, ← S.d]
  rw [if_pos hm]
  have f1 : 1 / 6 * ((vel m.x m.z).1 + 2 * VB.1 + 2 * VC.1 + VD.1) = Vx := by simp only [Vx, VA]; ring
  have f2 : 1 / 6 * ((vel m.x m.z).2 + 2 * VB.2 + 2 * VC.2 + VD.2) = Vz := by simp only [Vz, VA]; ring
  simp only [f1, f2]

/-- C19 (uniform flow).  If the velocity is the same everywhere, an active marker whose final
position is inside the (convex) box moves by exactly velocity times `dt`, and reversing the step
brings it back exactly. -/
theorem rk4_uniform (B : Box K) (p : Bool) (vx vz dt : K) (m : Marker K) (hm : m.phase ≠ -1)
    (h0 : Inside B m) (h1 : Inside B { m with x := m.x + dt * vx, z := m.z + dt * vz }) :
    rk4 B p (fun _ _ => (vx, vz)) dt m = ⟨m.x + dt * vx, m.z + dt * vz, vx, vz, m.phase⟩ ∧
    rk4 B p (fun _ _ => (vx, vz)) (-dt) (rk4 B p (fun _ _ => (vx, vz)) dt m) =
      ⟨m.x, m.z, vx, vz, m.phase⟩ := by
  have mid : ∀ (q : Marker K) (s : K), Inside B q → Inside B { q with x := q.x + s * vx, z := q.z + s * vz } →
      Inside B { q with x := q.x + 1 / 2 * s * vx, z := q.z + 1 / 2 * s * vz } := by
    intro q s ⟨a1, a2, a3, a4⟩ ⟨b1, b2, b3, b4⟩
    simp only at b1 b2 b3 b4
    have ex : q.x + 1 / 2 * s * vx = (q.x + (q.x + s * vx)) / 2 := by ring
    have ez : q.z + 1 / 2 * s * vz = (q.z + (q.z + s * vz)) / 2 := by ring
    unfold Inside
    simp only [ex, ez]
    exact ⟨by linarith, by linarith, by linarith, by linarith⟩
  have step : ∀ (q : Marker K) (s : K), q.phase ≠ -1 → Inside B q →
      Inside B { q with x := q.x + s * vx, z := q.z + s * vz } →
      rk4 B p (fun _ _ => (vx, vz)) s q = ⟨q.x + s * vx, q.z + s * vz, vx, vz, q.phase⟩ := by
    intro q s hq a b
    have := rk4_classical B p (fun _ _ => (vx, vz)) s q hq (vx, vz) (vx, vz) (vx, vz)
      { i0 := a, b := rfl, i1 := mid q s a b, c := rfl, i2 := mid q s a b, d := rfl,
        i3 := by simpa only [one_mul] using b }
    simp only at this
    have e1 : (vx + 2 * vx + 2 * vx + vx) / 6 = vx := by ring
    have e2 : (vz + 2 * vz + 2 * vz + vz) / 6 = vz := by ring
    rw [e1, e2] at this
    rw [this]
    exact inside_fixed p b
  have e := step m dt hm h0 h1
  refine ⟨e, ?_⟩
  rw [e, step ⟨m.x + dt * vx, m.z + dt * vz, vx, vz, m.phase⟩ (-dt) hm h1 ?_]
  · simp only
    congr 1 <;> ring
  · have ex : m.x + dt * vx + -dt * vx = m.x := by ring
    have ez : m.z + dt * vz + -dt * vz = m.z := by ring
    unfold Inside
    simp only [ex, ez]
    exact h0

/-- C19 (linear flow).  For the linear field `V(x,z) = (a x + b z + e, c x + d z + f)` the step is
the Taylor polynomial of the exact flow through fourth order: with `A = [[a,b],[c,d]]` and
`V0 = V(x,z)`, the displacement is `(dt + dt²/2 A + dt³/6 A² + dt⁴/24 A³) V0`. -/
theorem rk4_linear (B : Box K) (p : Bool) (a b c d e f dt : K) (m : Marker K) (hm : m.phase ≠ -1)
    (VB VC VD : K × K)
    (S : StaysInside B (fun x z => (a * x + b * z + e, c * x + d * z + f)) dt m VB VC VD) :
    let A : K × K → K × K := fun v => (a * v.1 + b * v.2, c * v.1 + d * v.2)
    let V0 : K × K := (a * m.x + b * m.z + e, c * m.x + d * m.z + f)
    let disp : K × K := (dt * V0.1 + dt ^ 2 / 2 * (A V0).1 + dt ^ 3 / 6 * (A (A V0)).1 + dt ^ 4 / 24 * (A (A (A V0))).1,
      dt * V0.2 + dt ^ 2 / 2 * (A V0).2 + dt ^ 3 / 6 * (A (A V0)).2 + dt ^ 4 / 24 * (A (A (A V0))).2)
    (B.xmin ≤ m.x + disp.1 ∧ m.x + disp.1 ≤ B.xmax ∨ p = false →
      (rk4 B p (fun x z => (a * x + b * z + e, c * x + d * z + f)) dt m).x = m.x + disp.1) ∧
    (rk4 B p (fun x z => (a * x + b * z + e, c * x + d * z + f)) dt m).z = m.z + disp.2 := by
  intro A V0 disp
  have h := rk4_classical B p _ dt m hm VB VC VD S
  simp only at h
  have ex : m.x + dt * ((a * m.x + b * m.z + e + 2 * VB.1 + 2 * VC.1 + VD.1) / 6) = m.x + disp.1 := by
    rw [S.d, S.c, S.b]
    simp only [disp, A, V0]
    ring
  have ez : m.z + dt * ((c * m.x + d * m.z + f + 2 * VB.2 + 2 * VC.2 + VD.2) / 6) = m.z + disp.2 := by
    rw [S.d, S.c, S.b]
    simp only [disp, A, V0]
    ring
  rw [h, ex, ez]
  refine ⟨fun hx => ?_, (deactivated_iff B p _).2.2.1⟩
  cases p with
  | false => exact (deactivated_iff B false _).2.2.2 rfl
  | true =>
    rcases hx with ⟨l, r⟩ | hx
    · unfold isoutPart wrapE wrapW
      simp only [if_true, if_neg (not_lt.mpr l), if_neg (not_lt.mpr r)]
      split_ifs <;> rfl
    · simp at hx

/-- C19 (dead markers).  A deactivated marker keeps its velocity and phase and does not move
(with periodic sides: is at most wrapped into the box). -/
theorem rk4_dead (B : Box K) (p : Bool) (vel : K → K → K × K) (dt : K) (m : Marker K)
    (hm : m.phase = -1) (hx : p = true → B.xmin ≤ m.x ∧ m.x ≤ B.xmax) : rk4 B p vel dt m = m := by
  have sh : ∀ xA zA s V, shoot xA zA s V m = m := by
    intro xA zA s V; unfold shoot; rw [if_neg (by simp [hm])]
  have io : isoutPart B p m = m := by
    unfold isoutPart wrapE wrapW
    cases p with
    | true =>
      obtain ⟨l, r⟩ := hx rfl
      simp only [if_true, if_neg (not_lt.mpr l), if_neg (not_lt.mpr r)]
      split_ifs
      · rw [← hm]
      · rfl
    | false =>
      simp only [Bool.false_eq_true, if_false]
      split_ifs
      · rw [← hm]
      · rfl
  unfold rk4
  simp only [sh, io]
  rw [if_neg (by simp [hm]), io]

/-- C19 (all markers).  The loop advects every stored marker independently of the others. -/
theorem rogerGuntherII_pointwise (B : Box K) (p : Bool) (vel : K → K → K × K) (dt : K) (n : Nat)
    (P : Nat → Marker K) (k : Nat) :
    rogerGuntherII B p vel dt n P k = if k < n then rk4 B p vel dt (P k) else P k :=
  forUp_pointwise n P (fun _ m => rk4 B p vel dt m) k

end Verif.Adv
