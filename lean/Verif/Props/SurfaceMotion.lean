import Verif.Model.SurfaceFlow
import Verif.Spec.SurfaceFlow
import Verif.Spec.Surface
import Verif.Props.Flagging
import Mathlib.Algebra.Order.Floor.Ring
import Mathlib.Order.Interval.Finset.Nat
import Mathlib.Tactic.Linarith
import Mathlib.Tactic.FieldSimp
import Mathlib.Tactic.LinearCombination
import Mathlib.Tactic.Positivity

set_option linter.unusedVariables false
set_option linter.unusedSectionVars false
set_option linter.unusedSimpArgs false

/- C126: velocities reported for the free surface.  C127: fields a time step starts from.  C128: the first marker chain. -/
namespace Verif.SFlow
open Verif

section
variable {K : Type*} [Field K] [LinearOrder K] [IsStrictOrderedRing K] [FloorRing K]

/-! ### nodes -/

/-- Row `j` of column `i` is the first air node above rock. -/
def firstAir (n : Nat) (t : Int → Int) (i j : Nat) : Prop :=
  t ((i : Int) + j * n) = 30 ∧ t ((i : Int) + j * n - n) ≠ 30

theorem row_loop (n : Nat) (deep : Nat) (t : Int → Int) (u : Int → K) (v : Nat → K) (j m i : Nat) (hm : m ≤ n) :
    forUp m v (fun v i => let c : Int := i + j * n
      if t c = 30 ∧ t (c - n) ≠ 30 then upd v i (u (c - deep * n)) else v) i =
    if i < m ∧ t ((i : Int) + j * n) = 30 ∧ t ((i : Int) + j * n - n) ≠ 30 then u ((i : Int) + j * n - deep * n) else v i := by
  induction m with
  | zero => simp
  | succ m ih =>
    rw [forUp_succ]
    simp only
    by_cases him : i = m
    · subst him
      by_cases hc : t ((i : Int) + j * n) = 30 ∧ t ((i : Int) + j * n - n) ≠ 30
      · rw [if_pos hc, upd_same, if_pos ⟨by omega, hc⟩]
      · rw [if_neg hc, ih (by omega), if_neg (by rintro ⟨h, -⟩; omega), if_neg (fun h => hc h.2)]
    · have : (i < m + 1 ∧ t ((i : Int) + j * n) = 30 ∧ t ((i : Int) + j * n - n) ≠ 30) ↔
        (i < m ∧ t ((i : Int) + j * n) = 30 ∧ t ((i : Int) + j * n - n) ≠ 30) := by
        constructor <;> rintro ⟨h, h'⟩ <;> exact ⟨by omega, h'⟩
      rw [if_congr this rfl rfl, ← ih (by omega)]
      by_cases hc : t ((m : Int) + j * n) = 30 ∧ t ((m : Int) + j * n - n) ≠ 30
      · rw [if_pos hc, upd_ne _ _ him]
      · rw [if_neg hc]

/-- C126: the value of a surface node is the solution at its highest interface, `deep` rows below the first air node; a column
without interface keeps the value of the step before. -/
theorem surfaceNodes_spec (n rows deep : Nat) (t : Int → Int) (u : Int → K) (v0 : Nat → K) (i : Nat) (hi : i < n) :
    (∀ j < rows, firstAir n t i j → (∀ j', j < j' → j' < rows → ¬ firstAir n t i j') →
      surfaceNodes n rows deep t u v0 i = u ((i : Int) + j * n - deep * n)) ∧
    ((∀ j < rows, ¬ firstAir n t i j) → surfaceNodes n rows deep t u v0 i = v0 i) := by
  unfold surfaceNodes
  induction rows with
  | zero => exact ⟨fun j hj => absurd hj (Nat.not_lt_zero j), fun _ => rfl⟩
  | succ r ih =>
    rw [forUp_succ]
    have hrow := row_loop n deep t u (forUp r v0 fun v j => forUp n v fun v i =>
      let c : Int := i + j * n
      if t c = 30 ∧ t (c - n) ≠ 30 then upd v i (u (c - deep * n)) else v) r n i le_rfl
    rw [hrow]
    constructor
    · intro j hj hf hab
      by_cases hjr : j = r
      · subst hjr
        rw [if_pos ⟨hi, hf⟩]
      · rw [if_neg fun h => hab r (by omega) (by omega) h.2]
        exact ih.1 j (by omega) hf fun j' h1 h2 => hab j' h1 (by omega)
    · intro hno
      rw [if_neg fun h => hno r (by omega) h.2]
      exact ih.2 fun j hj => hno j (by omega)

/-! ### chain markers -/

theorem chainCol_range (n : Nat) (hn : 2 ≤ n) (x0 dx x : K) :
    0 ≤ chainCol n x0 dx x ∧ chainCol n x0 dx x ≤ (n : Int) - 2 := by
  unfold chainCol
  simp only
  split_ifs <;> omega

/-- A marker between the first and the last node lies between the two nodes used. -/
theorem chainCol_brackets (n : Nat) (hn : 2 ≤ n) (dx : K) (hdx : 0 < dx) (xs : Nat → K) (hx : Surf.Even (n - 1) dx xs) (x : K)
    (h0 : xs 0 ≤ x) (h1 : x ≤ xs (n - 1)) :
    xs (chainCol n (xs 0) dx x).toNat ≤ x ∧ x ≤ xs ((chainCol n (xs 0) dx x).toNat + 1) := by
  obtain ⟨q, hq⟩ : ∃ q, q = ⌈(x - xs 0) / dx⌉ := ⟨_, rfl⟩
  have hu : x - xs 0 ≤ q * dx := by
    have := Int.le_ceil ((x - xs 0) / dx)
    rw [← hq, div_le_iff₀ hdx] at this
    exact this
  have hl : ((q : K) - 1) * dx < x - xs 0 := by
    have := Int.ceil_lt_add_one ((x - xs 0) / dx)
    rw [← hq, ← sub_lt_iff_lt_add, lt_div_iff₀ hdx] at this
    exact this
  have hlast := hx (n - 1) le_rfl
  have hqn : q ≤ n - 1 := by
    rw [hq, Int.ceil_le, div_le_iff₀ hdx]
    rw [hlast] at h1
    have : ((n - 1 : Nat) : K) = (((n : Int) - 1 : Int) : K) := by
      rw [← Int.cast_natCast, Nat.cast_sub (by omega)]; push_cast; rfl
    rw [this] at h1
    linarith
  have hq0 : 0 ≤ q := by
    rw [hq]
    exact Int.ceil_nonneg (div_nonneg (by linarith) hdx.le)
  unfold chainCol
  simp only
  rw [← hq]
  rcases lt_or_ge (q - 1) 0 with h | h
  · rw [if_pos h, if_neg (by omega)]
    have : q = 0 := by omega
    rw [this] at hu
    have hx0 : x = xs 0 := le_antisymm (by simpa using hu) h0
    refine ⟨?_, ?_⟩
    · show xs 0 ≤ x; exact h0
    · show x ≤ xs 1
      rw [hx 1 (by omega), hx0]; push_cast; linarith
  · rw [if_neg (by omega), if_neg (by omega)]
    obtain ⟨k, hk⟩ : ∃ k : Nat, q - 1 = k := ⟨(q - 1).toNat, by omega⟩
    rw [hk, Int.toNat_natCast]
    have hk' : (q : K) = k + 1 := by
      have : q = (k : Int) + 1 := by omega
      rw [this]; push_cast; ring
    rw [hx k (by omega), hx (k + 1) (by omega)]
    rw [hk'] at hu hl
    push_cast
    constructor <;> linarith

/-- C126: interpolation to a marker inside the model stays between the values of the two nodes on either side of it. -/
theorem chainVel_between (n : Nat) (hn : 2 ≤ n) (dx : K) (hdx : 0 < dx) (xs : Nat → K) (hx : Surf.Even (n - 1) dx xs)
    (v : Nat → K) (x : K) (h0 : xs 0 ≤ x) (h1 : x ≤ xs (n - 1)) :
    ∃ i, i + 1 < n ∧ xs i ≤ x ∧ x ≤ xs (i + 1) ∧
      min (v i) (v (i + 1)) ≤ chainVel n dx xs v x ∧ chainVel n dx xs v x ≤ max (v i) (v (i + 1)) := by
  have hr := chainCol_range n hn (xs 0) dx x
  obtain ⟨a, b⟩ := chainCol_brackets n hn dx hdx xs hx x h0 h1
  obtain ⟨i, hi⟩ : ∃ i, i = (chainCol n (xs 0) dx x).toNat := ⟨_, rfl⟩
  rw [← hi] at a b
  have hin : i + 1 < n := by omega
  refine ⟨i, hin, a, b, ?_⟩
  unfold chainVel
  simp only
  rw [← hi]
  have e0 := hx i (by omega)
  have e1 := hx (i + 1) (by omega)
  have hstep : xs (i + 1) = xs i + dx := by rw [e0, e1]; push_cast; ring
  have w0 : 0 ≤ (x - xs i) / dx := div_nonneg (by linarith) hdx.le
  have w1 : (x - xs i) / dx ≤ 1 := by rw [div_le_one hdx]; rw [hstep] at b; linarith
  obtain ⟨w, hw⟩ : ∃ w, w = (x - xs i) / dx := ⟨_, rfl⟩
  rw [← hw] at w0 w1 ⊢
  have m0 := min_le_left (v i) (v (i + 1))
  have m1 := min_le_right (v i) (v (i + 1))
  have M0 := le_max_left (v i) (v (i + 1))
  have M1 := le_max_right (v i) (v (i + 1))
  constructor <;> nlinarith

/-- C126: node values that vary linearly along the surface are reproduced exactly, even outside the model. -/
theorem chainVel_affine (n : Nat) (hn : 2 ≤ n) (dx : K) (hdx : 0 < dx) (xs : Nat → K) (hx : Surf.Even (n - 1) dx xs)
    (v : Nat → K) (a b : K) (hv : ∀ i < n, v i = a + b * xs i) (x : K) : chainVel n dx xs v x = a + b * x := by
  have hr := chainCol_range n hn (xs 0) dx x
  obtain ⟨i, hi⟩ : ∃ i, i = (chainCol n (xs 0) dx x).toNat := ⟨_, rfl⟩
  have hin : i + 1 < n := by omega
  unfold chainVel
  simp only
  rw [← hi, hv i (by omega), hv (i + 1) hin]
  have e0 := hx i (by omega)
  have e1 := hx (i + 1) (by omega)
  have hstep : xs (i + 1) = xs i + dx := by rw [e0, e1]; push_cast; ring
  rw [hstep]
  have := hdx.ne'
  field_simp
  ring

/-! ### the whole routine -/

/-- Geometry of the columns. -/
structure Flow.Geom (f : Flow K) : Prop where
  nx : 2 ≤ f.Nx
  dx : 0 < f.dx
  xg : Surf.Even (f.Nx - 1) f.dx f.xg
  xvz : Surf.Even f.Nx f.dx f.xvz

/-- Every column has an interface between rock and air that is high enough for the rows read below it. -/
def HasSurface (n rows deep : Nat) (t : Int → Int) : Prop :=
  ∀ i < n, ∃ j < rows, deep ≤ j ∧ firstAir n t i j ∧ ∀ j', j < j' → j' < rows → ¬ firstAir n t i j'

/-- C126: when the velocity does not change with depth and varies linearly along x, every chain marker gets exactly the
velocity of the material at its position. -/
theorem surface_velocity_partial (f : Flow K) (g : f.Geom) (hu : HasSurface f.Nx (f.Nz + 1) 1 f.tu)
    (hv : HasSurface (f.Nx + 1) f.Nz 2 f.tv) (a b c d : K)
    (fu : ∀ i < f.Nx, ∀ j < f.Nz + 1, f.u ((i : Int) + j * f.Nx) = a + b * f.xg i)
    (fv : ∀ i < f.Nx + 1, ∀ j < f.Nz, f.v ((i : Int) + j * (f.Nx + 1)) = c + d * f.xvz i) (x : K) :
    f.marker x = (a + b * x, c + d * x) := by
  unfold Flow.marker
  refine Prod.ext ?_ ?_
  · refine chainVel_affine f.Nx g.nx f.dx g.dx f.xg g.xg _ a b ?_ x
    intro i hi
    obtain ⟨j, hj, hd, hf, hab⟩ := hu i hi
    unfold Flow.topoVx
    rw [(surfaceNodes_spec _ _ 1 _ _ _ i hi).1 j hj hf hab]
    have := fu i hi (j - 1) (by omega)
    rw [← this]
    congr 1
    rw [Nat.cast_sub hd]; push_cast; ring
  · refine chainVel_affine (f.Nx + 1) (by have := g.nx; omega) f.dx g.dx f.xvz g.xvz _ c d ?_ x
    intro i hi
    obtain ⟨j, hj, hd, hf, hab⟩ := hv i hi
    unfold Flow.topoVz
    rw [(surfaceNodes_spec _ _ 2 _ _ _ i hi).1 j hj hf hab]
    have := fv i hi (j - 2) (by omega)
    rw [← this]
    congr 1
    rw [Nat.cast_sub hd]; push_cast; ring

/-- C126: what is missing.  Vertical motion proportional to height (`w z`, as under uniform shortening), with the tags of the
flagging and no lateral correction in the column: the surface node gets the velocity of the row between half a row and one and a half
rows below the surface, so uplift is misjudged by at least half a row times the rate. -/
theorem uplift_lags (g : Flag.In K) (dz w : K) (hdz : 0 < dz) (hr : Rows g.ncz dz g.zg fun j => g.zvx (j + 1))
    (i : Nat) (hi : 1 ≤ i) (hi' : i ≤ g.ncx) (J : Nat) (hJ2 : 2 ≤ J) (hJ : J < g.ncz)
    (hpv : ∀ j < g.ncz + 2, Flag.pv g i j = -1 ↔ g.zvx j ≤ g.top i)
    (t : Int → Int) (ht : ∀ j < g.ncz + 1, t ((i : Int) + j * (g.ncx + 2 : Nat)) = Flag.v0 g i j)
    (hf : firstAir (g.ncx + 2) t i J) (hab : ∀ j', J < j' → j' < g.ncz + 1 → ¬ firstAir (g.ncx + 2) t i j')
    (v : Int → K) (hv : ∀ j < g.ncz + 1, v ((i : Int) + j * (g.ncx + 2 : Nat)) = w * g.zg j) (old : Nat → K) :
    surfaceNodes (g.ncx + 2) (g.ncz + 1) 2 t v old i = w * g.zg (J - 2) ∧
    dz / 2 ≤ g.top i - g.zg (J - 2) ∧ g.top i - g.zg (J - 2) < 3 / 2 * dz := by
  have e1 : surfaceNodes (g.ncx + 2) (g.ncz + 1) 2 t v old i = w * g.zg (J - 2) := by
    rw [(surfaceNodes_spec _ _ 2 _ _ _ i (by omega)).1 J (by omega) hf hab, ← hv (J - 2) (by omega)]
    congr 1
    rw [Nat.cast_sub hJ2]; push_cast; ring
  refine ⟨e1, ?_⟩
  obtain ⟨h1, h2⟩ := hf
  rw [ht J (by omega)] at h1
  have h2' : t ((i : Int) + (J - 1 : Nat) * (g.ncx + 2 : Nat)) ≠ 30 := by
    rw [Nat.cast_sub (by omega)]
    intro h; apply h2
    rw [← h]; congr 1; push_cast; ring
  rw [ht (J - 1) (by omega)] at h2'
  unfold Flag.v0 at h1 h2'
  have nJ : ¬ (J < g.ncz + 1 ∧ Flag.pv g i J = -1 ∨ J + 1 < g.ncz + 2 ∧ Flag.pv g i (J + 1) = -1) := by
    intro h; rw [if_pos h] at h1; exact absurd h1 (by decide)
  have yJ : (J - 1 < g.ncz + 1 ∧ Flag.pv g i (J - 1) = -1 ∨ J - 1 + 1 < g.ncz + 2 ∧ Flag.pv g i (J - 1 + 1) = -1) := by
    by_contra h; rw [if_neg h] at h2'; exact h2' rfl
  have pJ : ¬ Flag.pv g i J = -1 := fun h => nJ (Or.inl ⟨by omega, h⟩)
  have pJ1 : Flag.pv g i (J - 1) = -1 := by
    rcases yJ with h | h
    · exact h.2
    · rw [show J - 1 + 1 = J by omega] at h; exact absurd h.2 pJ
  rw [hpv J (by omega)] at pJ
  rw [hpv (J - 1) (by omega)] at pJ1
  have z1 := hr.2 (J - 2) (by omega)
  have z2 := hr.2 (J - 1) (by omega)
  have z3 := hr.1 (J - 2) (by omega)
  simp only at z1 z2
  rw [show J - 2 + 1 = J - 1 by omega] at z1
  rw [show J - 1 + 1 = J by omega] at z2
  rw [z1] at pJ1
  rw [z2] at pJ
  rw [z3]
  have c : ((J - 1 : Nat) : K) = ((J - 2 : Nat) : K) + 1 := by
    rw [show J - 1 = J - 2 + 1 by omega]; push_cast; ring
  rw [c] at pJ
  constructor <;> linarith

end

/-! ### start fields -/

section
variable {K : Type*} [Field K] [LinearOrder K] [IsStrictOrderedRing K]

/-- The flow the model starts from. -/
def Start.flow (s : Start K) (x z : K) : K × K :=
  if s.peri then simpleShear s.E s.D x z else if s.E = 0 then (0, 0) else pureShear s.E s.D x z

theorem uLoop_eq (s : Start K) (t : Nat → Int) (wall u : Nat → K) (c : Nat) :
    s.uLoop t wall u c = if c < (s.Nz + 1) * s.Nx then s.node (t c) (wall c) (s.bgU (c % s.Nx) (c / s.Nx)) (u c) else u c := by
  unfold Start.uLoop
  rw [forGrid_eq]
  exact forUp_pointwise _ u (fun c x => s.node (t c) (wall c) (s.bgU (c % s.Nx) (c / s.Nx)) x) c

theorem vLoop_eq (s : Start K) (t : Nat → Int) (wall v : Nat → K) (c : Nat) :
    s.vLoop t wall v c = if c < s.Nz * (s.Nx + 1) then s.node (t c) (wall c) (s.bgV (c / (s.Nx + 1))) (v c) else v c := by
  unfold Start.vLoop
  rw [forGrid_eq]
  exact forUp_pointwise _ v (fun c x => s.node (t c) (wall c) (s.bgV (c / (s.Nx + 1))) x) c

theorem pLoop_eq (s : Start K) (t : Nat → Int) (p : Nat → K) (c : Nat) :
    s.pLoop t p c = if c < (s.Nz - 1) * (s.Nx - 1) then s.cell (t c) (p c) else p c := by
  unfold Start.pLoop
  rw [forGrid_eq]
  exact forUp_pointwise _ p (fun c x => s.cell (t c) x) c

private theorem flat (n k l rows : Nat) (hk : k < n) (hl : l < rows) :
    k + l * n < rows * n ∧ (k + l * n) % n = k ∧ (k + l * n) / n = l := by
  refine ⟨?_, ?_, ?_⟩
  · have : (l + 1) * n ≤ rows * n := Nat.mul_le_mul_right _ hl
    rw [Nat.succ_mul] at this
    omega
  · rw [Nat.add_mul_mod_self_right, Nat.mod_eq_of_lt hk]
  · rw [Nat.add_mul_div_right _ _ (by omega), Nat.div_eq_of_lt hk, Nat.zero_add]

/-- C127: at step 0 every node gets 0 in air, the boundary value on a wall, and elsewhere the background flow at its own
position; later steps change air and wall nodes only. -/
theorem start_velocity (s : Start K) (tu tv : Nat → Int) (wu wv u v : Nat → K) :
    (∀ k < s.Nx, ∀ l < s.Nz + 1, s.uLoop tu wu u (k + l * s.Nx) =
      if tu (k + l * s.Nx) = 30 then 0 else if tu (k + l * s.Nx) = 0 then wu (k + l * s.Nx)
      else if s.first then (s.flow (s.xg k) (s.zvx l)).1 else u (k + l * s.Nx)) ∧
    (∀ k < s.Nx + 1, ∀ l < s.Nz, ∀ x, s.vLoop tv wv v (k + l * (s.Nx + 1)) =
      if tv (k + l * (s.Nx + 1)) = 30 then 0 else if tv (k + l * (s.Nx + 1)) = 0 then wv (k + l * (s.Nx + 1))
      else if s.first then (s.flow x (s.zg l)).2 else v (k + l * (s.Nx + 1))) := by
  constructor
  · intro k hk l hl
    obtain ⟨h1, h2, h3⟩ := flat s.Nx k l (s.Nz + 1) hk hl
    rw [uLoop_eq, if_pos h1, h2, h3]
    unfold Start.node Start.bgU Start.flow simpleShear pureShear
    simp only
    split_ifs <;> rfl
  · intro k hk l hl x
    obtain ⟨h1, h2, h3⟩ := flat (s.Nx + 1) k l s.Nz hk hl
    rw [vLoop_eq, if_pos h1, h3]
    unfold Start.node Start.bgV Start.flow simpleShear pureShear
    simp only
    split_ifs <;> simp

/-- C127: around a cell none of whose faces is in air or on a wall, the start flow spreads at exactly two thirds of the
background rate (nothing when there is no background flow). -/
theorem start_divergence (s : Start K) (tu tv : Nat → Int) (wu wv u v : Nat → K) (dx dz : K) (hdx : dx ≠ 0) (hdz : dz ≠ 0)
    (hf : s.first = true) (hx : ∀ k, s.xg (k + 1) = s.xg k + dx) (hz : ∀ l, s.zg (l + 1) = s.zg l + dz)
    (k l : Nat) (hk : k + 1 < s.Nx) (hl : l + 1 < s.Nz)
    (ht : ∀ a ∈ [k, k + 1], tu (a + (l + 1) * s.Nx) ≠ 30 ∧ tu (a + (l + 1) * s.Nx) ≠ 0)
    (ht' : ∀ b ∈ [l, l + 1], tv (k + 1 + b * (s.Nx + 1)) ≠ 30 ∧ tv (k + 1 + b * (s.Nx + 1)) ≠ 0) :
    let U := s.uLoop tu wu u
    let V := s.vLoop tv wv v
    (U (k + 1 + (l + 1) * s.Nx) - U (k + (l + 1) * s.Nx)) / dx +
      (V (k + 1 + (l + 1) * (s.Nx + 1)) - V (k + 1 + l * (s.Nx + 1))) / dz =
    if s.peri = false ∧ s.E = 0 then 0 else 2 * s.D / 3 := by
  obtain ⟨hu, hv⟩ := start_velocity s tu tv wu wv u v
  intro U V
  have a1 := ht k (by simp)
  have a2 := ht (k + 1) (by simp)
  have b1 := ht' l (by simp)
  have b2 := ht' (l + 1) (by simp)
  have u1 := hu k (by omega) (l + 1) (by omega)
  have u2 := hu (k + 1) (by omega) (l + 1) (by omega)
  have v1 := hv (k + 1) (by omega) l (by omega) 0
  have v2 := hv (k + 1) (by omega) (l + 1) (by omega) 0
  rw [if_neg a1.1, if_neg a1.2, if_pos hf] at u1
  rw [if_neg a2.1, if_neg a2.2, if_pos hf] at u2
  rw [if_neg b1.1, if_neg b1.2, if_pos hf] at v1
  rw [if_neg b2.1, if_neg b2.2, if_pos hf] at v2
  show (s.uLoop tu wu u _ - s.uLoop tu wu u _) / dx + (s.vLoop tv wv v _ - s.vLoop tv wv v _) / dz = _
  rw [u1, u2, v1, v2, hx, hz]
  unfold Start.flow simpleShear pureShear
  by_cases hp : s.peri = true
  · rw [if_pos hp, if_pos hp, if_pos hp, if_pos hp, if_neg (by rw [hp]; simp)]
    field_simp
    ring
  · rw [if_neg hp, if_neg hp, if_neg hp, if_neg hp]
    by_cases hE : s.E = 0
    · rw [if_pos hE, if_pos hE, if_pos hE, if_pos hE, if_pos ⟨by simpa using hp, hE⟩]
      simp
    · rw [if_neg hE, if_neg hE, if_neg hE, if_neg hE, if_neg fun h => hE h.2]
      field_simp
      ring

/-- C127: pressure.  At step 0 every cell, air included, gets the background pressure; later air is set to zero and rock is kept. -/
theorem start_pressure (s : Start K) (t : Nat → Int) (p : Nat → K) (c : Nat) (hc : c < (s.Nz - 1) * (s.Nx - 1)) :
    s.pLoop t p c = if s.first then s.P else if t c = 30 ∨ t c = 31 then 0 else p c := by
  rw [pLoop_eq, if_pos hc]
  unfold Start.cell
  simp only
  have : t c ≠ 30 ∨ t c ≠ 31 := by
    by_cases h : t c = 30
    · right; rw [h]; decide
    · exact Or.inl h
  rw [if_pos this, zero_add]

/-- C127: air does not start at zero pressure. -/
theorem start_air_pressure (s : Start K) (hf : s.first = true) (hP : s.P ≠ 0) (t : Nat → Int) (p : Nat → K) (c : Nat)
    (hc : c < (s.Nz - 1) * (s.Nx - 1)) (hair : t c = 30 ∨ t c = 31) : s.pLoop t p c ≠ 0 := by
  rw [start_pressure s t p c hc, if_pos hf]
  exact hP

/-- C127: without a background strain rate a prescribed expansion is left out of the start flow (pure shear walls), although
it is applied with the smallest strain rate. -/
theorem expansion_needs_strain (s : Start K) (h : s.peri = false) (hE : s.E = 0) (x z : K) : s.flow x z = (0, 0) := by
  unfold Start.flow
  rw [if_neg (by rw [h]; decide), if_pos hE]

end

/-! ### first chain -/

section
variable {K : Type*} [Field K] [LinearOrder K] [IsStrictOrderedRing K]

/-- C128: the first chain has 23 markers in every cell of the model, evenly spaced, all strictly inside their cell. -/
theorem chain_placed (Nx : Nat) (xmin dx : K) (hdx : 0 < dx) :
    (∀ k < chainN Nx, k / 23 < Nx - 1 ∧ xmin + (k / 23 : Nat) * dx < chainX xmin dx k ∧
      chainX xmin dx k < xmin + ((k / 23 : Nat) + 1) * dx) ∧
    (∀ k, chainX xmin dx (k + 1) = chainX xmin dx k + dx / 23) ∧
    ∀ c < Nx - 1, ((Finset.range (chainN Nx)).filter fun k => k / 23 = c).card = 23 := by
  refine ⟨?_, ?_, ?_⟩
  · intro k hk
    unfold chainN at hk
    refine ⟨by omega, ?_, ?_⟩
    · have h : ((k / 23 : Nat) : K) * 23 ≤ k := by
        have : k / 23 * 23 ≤ k := Nat.div_mul_le_self k 23
        exact_mod_cast this
      unfold chainX
      have : ((k / 23 : Nat) : K) * dx = ((k / 23 : Nat) : K) * 23 * (dx / 23) := by ring
      rw [this]
      have d : 0 < dx / 23 := by positivity
      have := mul_le_mul_of_nonneg_right h d.le
      linarith
    · have h : (k : K) + 1 ≤ (((k / 23 : Nat) : K) + 1) * 23 := by
        have : k + 1 ≤ (k / 23 + 1) * 23 := by omega
        exact_mod_cast this
      unfold chainX
      have : (((k / 23 : Nat) : K) + 1) * dx = (((k / 23 : Nat) : K) + 1) * 23 * (dx / 23) := by ring
      rw [this]
      have d : 0 < dx / 23 := by positivity
      have := mul_le_mul_of_nonneg_right h d.le
      linarith
  · intro k
    unfold chainX
    push_cast
    ring
  · intro c hc
    have : (Finset.range (chainN Nx)).filter (fun k => k / 23 = c) = Finset.Ico (c * 23) (c * 23 + 23) := by
      ext k
      rw [Finset.mem_filter, Finset.mem_range, Finset.mem_Ico]
      unfold chainN
      omega
    rw [this, Nat.card_Ico]
    omega

end

/-! ### examples -/

/-- 4 by 4 cells, air above row 2, uniform motion plus stretching. -/
def demoFlow : Flow ℚ where
  Nx := 5
  Nz := 5
  dx := 2
  xg i := 2 * i
  xvz i := 2 * i - 1
  tu c := if c / 5 ≤ 3 then -1 else 30
  tv c := if c / 6 ≤ 3 then -1 else 30
  u c := 1 + 3 * (2 * ((c % 5 : Int) : ℚ))
  v c := 5 - (2 * ((c % 6 : Int) : ℚ) - 1)
  oldX _ := 0
  oldZ _ := 0

theorem demoFlow_geom : demoFlow.Geom :=
  ⟨by decide, by decide +kernel, fun j _ => by show (2 * (j : ℚ)) = 2 * ((0 : Nat) : ℚ) + j * 2; push_cast; ring,
    fun j _ => by show (2 * (j : ℚ) - 1) = (2 * ((0 : Nat) : ℚ) - 1) + j * 2; push_cast; ring⟩

theorem demoFlow_u : HasSurface demoFlow.Nx (demoFlow.Nz + 1) 1 demoFlow.tu := by
  unfold HasSurface firstAir
  intro i hi
  refine ⟨4, by decide, by decide, ?_, ?_⟩
  · revert i; decide +kernel
  · intro j' h1 h2
    have : j' = 5 := by change j' < 6 at h2; omega
    subst this
    revert i; decide +kernel

theorem demoFlow_v : HasSurface (demoFlow.Nx + 1) demoFlow.Nz 2 demoFlow.tv := by
  unfold HasSurface firstAir
  intro i hi
  refine ⟨4, by decide, by decide, ?_, ?_⟩
  · revert i; decide +kernel
  · intro j' h1 h2
    change j' < 5 at h2
    omega

example : demoFlow.marker (7/3) = (1 + 3 * (7/3), 5 + 1 + -1 * (7/3 + 1)) := by
  have h := surface_velocity_partial demoFlow demoFlow_geom demoFlow_u demoFlow_v 1 3 5 (-1)
    (by decide +kernel) (by decide +kernel) (7/3)
  rw [h]; decide +kernel

/-- Flat surface at -0.9 between rows 2 (centre -1.5) and 3 (centre -0.5), uplift growing with height at unit rate: the surface node gets -2,
the surface itself moves with -0.9. -/
theorem flat_uplift_misjudged :
    let g := Flag.demoIn fun _ => -9/10
    let t : Int → Int := fun c => Flag.bcv g (c.toNat % 6) (c.toNat / 6)
    let v : Int → ℚ := fun c => g.zg (c.toNat / 6)
    surfaceNodes 6 6 2 t v (fun _ => 0) 2 = -2 ∧ g.top 2 = -9/10 := by decide +kernel

/-- Hypotheses of `uplift_lags`. -/
example : let g := Flag.demoIn fun _ => -9/10
    (∀ j < g.ncz + 2, Flag.pv g 2 j = -1 ↔ g.zvx j ≤ g.top 2) ∧
    firstAir (g.ncx + 2) (fun c => Flag.bcv g (c.toNat % 6) (c.toNat / 6)) 2 4 ∧
    (∀ j < g.ncz + 1, Flag.bcv g ((2 + j * 6) % 6) ((2 + j * 6) / 6) = Flag.v0 g 2 j) := by
  unfold firstAir; decide +kernel

/-- A column without air above rock (rock up to the top) keeps the velocity of the step before. -/
theorem stale_velocity : surfaceNodes 5 6 1 (fun _ => -1) (fun _ => (3 : ℚ)) (fun _ => 7) 2 = 7 := by decide +kernel

/-- Compression at unit rate with expansion 3, three columns. -/
def demoStart : Start ℚ := ⟨3, 3, true, false, 1, 3, 100, fun k => k, fun l => l, fun l => l - 1/2⟩

example : demoStart.first = true ∧ demoStart.flow 2 5 = (0, 10) := by decide +kernel

example : (demoStart.uLoop (fun _ => -1) (fun _ => 0) (fun _ => 9) (1 + 2 * 3) - demoStart.uLoop (fun _ => -1) (fun _ => 0) (fun _ => 9) (0 + 2 * 3)) / 1 +
    (demoStart.vLoop (fun _ => -1) (fun _ => 0) (fun _ => 9) (1 + 2 * 4) - demoStart.vLoop (fun _ => -1) (fun _ => 0) (fun _ => 9) (1 + 1 * 4)) / 1 = 2 := by
  have h := start_divergence demoStart (fun _ => -1) (fun _ => -1) (fun _ => 0) (fun _ => 0) (fun _ => 9) (fun _ => 9) 1 1 one_ne_zero one_ne_zero rfl
    (fun k => by show ((k + 1 : Nat) : ℚ) = k + 1; push_cast; ring) (fun k => by show ((k + 1 : Nat) : ℚ) = k + 1; push_cast; ring) 0 1
    (by decide) (by decide) (by decide) (by decide)
  exact h.trans (by decide +kernel)

example : chainN 4 = 69 ∧ chainX (0 : ℚ) 23 30 = 61 / 2 := by decide +kernel

end Verif.SFlow
