import Verif.Props.Rigid

/- C10: symmetry of the Stokes velocity block, and pressure-gradient block against divergence. -/
set_option linter.unusedSectionVars false
namespace Verif
variable {K : Type*} [Field K] [LinearOrder K]

/-- Two nodes of a grid with `n` columns at flat distance `d` across at most one column step. -/
theorem flat_eq (n k l k' l' a b : Int) (hk : 0 ≤ k + a) (hk1 : k + a < n) (h0 : 0 ≤ k')
    (h1 : k' < n) (h : k + l * n + (a + b * n) = k' + l' * n) : k' = k + a ∧ l' = l + b := by
  have e1 : (k + a) + (l + b) * n = k' + l' * n := by rw [← h]; ring
  have c1 := congrArg (colOf n) e1
  have c2 := congrArg (rowOf n) e1
  rw [colOf_mk _ _ _ hk hk1, colOf_mk _ _ _ h0 h1] at c1
  rw [rowOf_mk _ _ _ hk hk1, rowOf_mk _ _ _ h0 h1] at c2
  exact ⟨c1.symm, c2.symm⟩

section x
variable (m : SMesh K) (k l : Int) (h0 : 0 < k) (h1 : k < m.Nx - 1) (ht : m.tu (k + l * m.Nx) = -1)
include h0 h1 ht

/-- Coefficients of x-momentum row on solved Vx nodes. -/
theorem xcoeff_u (c' : Int) (hc' : m.tu c' = -1) :
    let c := k + l * (m.Nx : Int)
    let a := xCoef (xIn m k l)
    let vol := m.dx * m.dz
    coeff (xStencil m k l) (.u c') =
      (if c - m.Nx = c' then a.uS * vol else 0) + (if c - 1 = c' then a.uW * vol else 0) +
      (if c = c' then (a.uC + xCorr m k l a.uC) * vol else 0) +
      (if c + 1 = c' then a.uE * vol else 0) + (if c + m.Nx = c' then a.uN * vol else 0) := by
  intro c a vol
  have hper : (m.tu (k + l * (m.Nx : Int)) == -2) = false := by simp [ht]
  have hw : decide (k > 0) = true := by simp [h0]
  have he : decide (k < (m.Nx : Int) - 1) = true := by simp [h1]
  have key : ∀ (i : Int) (x : K), (if (m.tu i != 30) = true ∧ SNode.u i = SNode.u c' then x else 0) =
      if i = c' then x else 0 := by
    intro i x
    by_cases h : i = c'
    · subst h; simp [hc']
    · simp [h]
  have kv : ∀ (i : Int) (x : K), (if (m.tv i != 30) = true ∧ SNode.v i = SNode.u c' then x else 0) =
      0 := by
    intro i x; simp
  simp only [xStencil, coeff_append, coeff_guarded, xIdx, hw, he, Bool.true_or, Bool.and_true, key, kv, hper]
  simp [c, a, vol]

/-- Coefficients of x-momentum row on solved Vz nodes. -/
theorem xcoeff_v (c' : Int) (hc' : m.tv c' = -1) :
    let c := k + l * ((m.Nx : Int) + 1)
    let a := xCoef (xIn m k l)
    let vol := m.dx * m.dz
    coeff (xStencil m k l) (.v c') =
      (if c - (m.Nx + 1) = c' then a.vSW * vol else 0) +
      (if c - (m.Nx + 1) + 1 = c' then a.vSE * vol else 0) +
      (if c = c' then a.vNW * vol else 0) + (if c + 1 = c' then a.vNE * vol else 0) := by
  intro c a vol
  have hper : (m.tu (k + l * (m.Nx : Int)) == -2) = false := by simp [ht]
  have hw : decide (k > 0) = true := by simp [h0]
  have he : decide (k < (m.Nx : Int) - 1) = true := by simp [h1]
  have key : ∀ (i : Int) (x : K), (if (m.tv i != 30) = true ∧ SNode.v i = SNode.v c' then x else 0) =
      if i = c' then x else 0 := by
    intro i x
    by_cases h : i = c'
    · subst h; simp [hc']
    · simp [h]
  have kv : ∀ (i : Int) (x : K), (if (m.tu i != 30) = true ∧ SNode.u i = SNode.v c' then x else 0) =
      0 := by
    intro i x; simp
  simp only [xStencil, coeff_append, coeff_guarded, xIdx, hw, he, Bool.true_or, Bool.and_true, key, kv, hper]
  simp [c, a, vol]

/-- Coefficients of x-momentum row on solved pressure cells. -/
theorem xcoeff_p (c' : Int) (hc' : m.tp c' = -1) :
    let c := k + (l - 1) * ((m.Nx : Int) - 1)
    let a := xCoef (xIn m k l)
    let vol := m.dx * m.dz
    coeff (xStencilP m k l) (.p c') =
      (if c - 1 = c' then a.pW * vol else 0) + (if c = c' then a.pE * vol else 0) := by
  intro c a vol
  have hper : (m.tu (k + l * (m.Nx : Int)) == -2) = false := by simp [ht]
  have hw : decide (k > 0) = true := by simp [h0]
  have he : decide (k < (m.Nx : Int) - 1) = true := by simp [h1]
  have key : ∀ (i : Int) (x : K), (if (m.tp i != 30) = true ∧ SNode.p i = SNode.p c' then x else 0) =
      if i = c' then x else 0 := by
    intro i x
    by_cases h : i = c'
    · subst h; simp [hc']
    · simp [h]
  simp only [xStencilP, coeff_append, coeff_guarded, xIdx, hw, he, Bool.true_or, Bool.and_true, key, hper]
  simp only [Bool.false_eq_true, if_false]
  rw [show k - 1 + (l - 1) * ((m.Nx : Int) - 1) = c - 1 by simp only [c]; ring,
    show c - 1 + 1 = c by ring]
end x

section z
variable (m : SMesh K) (noper : ∀ i, m.tv i ≠ -12) (k l : Int) (h2 : 0 < l) (h3 : l < m.Nz - 1)
include noper h2 h3

/-- Coefficients of z-momentum row on solved Vz nodes. -/
theorem zcoeff_v (c' : Int) (hc' : m.tv c' = -1) :
    let c := k + l * ((m.Nx : Int) + 1)
    let a := zCoef (zIn m k l)
    let vol := m.dx * m.dz
    coeff (zStencil m k l) (.v c') =
      (if c - (m.Nx + 1) = c' then a.vS * vol else 0) + (if c - 1 = c' then a.vW * vol else 0) +
      (if c = c' then (a.vC + zCorr m k l a) * vol else 0) +
      (if c + 1 = c' then a.vE * vol else 0) + (if c + (m.Nx + 1) = c' then a.vN * vol else 0) := by
  intro c a vol
  have hp : ∀ i, (m.tv i == -12) = false := fun i => by simp [noper i]
  have key : ∀ (i : Int) (x : K), (if (m.tv i != 30) = true ∧ SNode.v i = SNode.v c' then x else 0) =
      if i = c' then x else 0 := by
    intro i x
    by_cases h : i = c'
    · subst h; simp [hc']
    · simp [h]
  have kv : ∀ (i : Int) (x : K), (if (m.tu i != 30) = true ∧ SNode.u i = SNode.v c' then x else 0) =
      0 := by
    intro i x; simp
  have hs : decide (l > 0) = true := by simp [h2]
  have hn : decide (l < (m.Nz : Int) - 1) = true := by simp [h3]
  simp only [zStencil, coeff_append, coeff_guarded, zIdx, hs, hn, Bool.and_true, key, kv, hp]
  simp [c, a, vol]

/-- Coefficients of z-momentum row on solved Vx nodes. -/
theorem zcoeff_u (c' : Int) (hc' : m.tu c' = -1) :
    let c := k + l * (m.Nx : Int)
    let a := zCoef (zIn m k l)
    let vol := m.dx * m.dz
    coeff (zStencil m k l) (.u c') =
      (if c - 1 = c' then a.uSW * vol else 0) + (if c = c' then a.uSE * vol else 0) +
      (if c + m.Nx - 1 = c' then a.uNW * vol else 0) +
      (if c + m.Nx = c' then a.uNE * vol else 0) := by
  intro c a vol
  have hp : ∀ i, (m.tv i == -12) = false := fun i => by simp [noper i]
  have key : ∀ (i : Int) (x : K), (if (m.tu i != 30) = true ∧ SNode.u i = SNode.u c' then x else 0) =
      if i = c' then x else 0 := by
    intro i x
    by_cases h : i = c'
    · subst h; simp [hc']
    · simp [h]
  have kv : ∀ (i : Int) (x : K), (if (m.tv i != 30) = true ∧ SNode.v i = SNode.u c' then x else 0) =
      0 := by
    intro i x; simp
  have hs : decide (l > 0) = true := by simp [h2]
  have hn : decide (l < (m.Nz : Int) - 1) = true := by simp [h3]
  simp only [zStencil, coeff_append, coeff_guarded, zIdx, hs, hn, Bool.and_true, key, kv, hp]
  simp [c, a, vol]

/-- Coefficients of z-momentum row on solved pressure cells. -/
theorem zcoeff_p (c' : Int) (hc' : m.tp c' = -1) :
    let c := k - 1 + l * ((m.Nx : Int) - 1)
    let a := zCoef (zIn m k l)
    let vol := m.dx * m.dz
    coeff (zStencilP m k l) (.p c') =
      (if c - (m.Nx - 1) = c' then a.pS * vol else 0) + (if c = c' then a.pN * vol else 0) := by
  intro c a vol
  have key : ∀ (i : Int) (x : K), (if (m.tp i != 30) = true ∧ SNode.p i = SNode.p c' then x else 0) =
      if i = c' then x else 0 := by
    intro i x
    by_cases h : i = c'
    · subst h; simp [hc']
    · simp [h]
  have hs : decide (l > 0) = true := by simp [h2]
  have hn : decide (l < (m.Nz : Int) - 1) = true := by simp [h3]
  simp only [zStencilP, coeff_append, coeff_guarded, zIdx, hs, hn, Bool.and_true, key]
  rw [show k - 1 + (l - 1) * ((m.Nx : Int) - 1) = c - (m.Nx - 1) by simp only [c]; ring,
    show c - (m.Nx - 1) + ((m.Nx : Int) - 1) = c by ring]
end z

theorem ite_congr_iff {P Q : Prop} [Decidable P] [Decidable Q] {x y : K} (h : P ↔ Q)
    (e : P → x = y) : (if P then x else 0) = if Q then y else 0 := by
  by_cases hp : P
  · rw [if_pos hp, if_pos (h.1 hp), e hp]
  · rw [if_neg hp, if_neg (fun hq => hp (h.2 hq))]

/-- Closed forms of the off-diagonal coefficients on regular nodes. -/
theorem xCoef_off (i : XIn K) (h6 : (6 : K) ≠ 0) (hSW : i.SW = 0) (hSE : i.SE = 0) :
    (xCoef i).uS = -(i.D33S*i.RegS*i.inS)/i.dz^2 ∧ (xCoef i).uN = -(i.D33N*i.RegN*i.inN)/i.dz^2 ∧
    (xCoef i).uW = (1/3)*i.D11W*i.inW*(i.OOP*i.comp*i.inW - 3)/i.dx^2 ∧
    (xCoef i).uE = (1/3)*i.D11E*i.inE*(i.OOP*i.comp*i.inE - 3)/i.dx^2 ∧
    (xCoef i).vSW = (1/3*(i.D11W*i.inW^2*i.OOP*i.comp) - i.D33S*i.inS)/(i.dx*i.dz) ∧
    (xCoef i).vSE = (i.D33S*i.inS - 1/3*(i.D11E*i.inE^2*i.OOP*i.comp))/(i.dx*i.dz) ∧
    (xCoef i).vNW = (i.D33N*i.inN - 1/3*(i.D11W*i.inW^2*i.OOP*i.comp))/(i.dx*i.dz) ∧
    (xCoef i).vNE = (1/3*(i.D11E*i.inE^2*i.OOP*i.comp) - i.D33N*i.inN)/(i.dx*i.dz) ∧
    (xCoef i).pW = -1/i.dx ∧ (xCoef i).pE = 1/i.dx := by
  have h2 : (2 : K) ≠ 0 := fun h => h6 (by linear_combination 3 * h)
  have h3 : (3 : K) ≠ 0 := fun h => h6 (by linear_combination 2 * h)
  have e6 : (1/6 : K) = 1/2 * (1/3) := by field_simp; norm_num
  have e2 : (1/2 : K) * 2 = 1 := by field_simp
  have e3 : (1/3 : K) * 3 = 1 := by field_simp
  refine ⟨?_, ?_, ?_, ?_, ?_, ?_, ?_, ?_, ?_, ?_⟩ <;> simp only [xCoef, hSW, hSE]
  · linear_combination (-(i.D33S*i.RegS*i.inS)/i.dz^2) * e2
  · linear_combination (-(i.D33N*i.RegN*i.inN)/i.dz^2) * e2
  · ring
  · ring
  · rw [e6]
    linear_combination ((1/3*(i.D11W*i.inW^2*i.OOP*i.comp) - i.D33S*i.inS)/(i.dx*i.dz)) * e2 - (1/2*2*(i.D33S*i.inS)/(i.dx*i.dz)) * e3
  · rw [e6]
    linear_combination ((i.D33S*i.inS - 1/3*(i.D11E*i.inE^2*i.OOP*i.comp))/(i.dx*i.dz)) * e2 + (1/2*2*(i.D33S*i.inS)/(i.dx*i.dz)) * e3
  · rw [e6]
    linear_combination ((i.D33N*i.inN - 1/3*(i.D11W*i.inW^2*i.OOP*i.comp))/(i.dx*i.dz)) * e2 + (1/2*2*(i.D33N*i.inN)/(i.dx*i.dz)) * e3
  · rw [e6]
    linear_combination ((1/3*(i.D11E*i.inE^2*i.OOP*i.comp) - i.D33N*i.inN)/(i.dx*i.dz)) * e2 - (1/2*2*(i.D33N*i.inN)/(i.dx*i.dz)) * e3
  · ring
  · ring

theorem zCoef_off (i : ZIn K) (h6 : (6 : K) ≠ 0) (hSS : i.SS = 0) (hSN : i.SN = 0) :
    (zCoef i).vW = -(i.D33W*i.RegW*i.inW)/i.dx^2 ∧ (zCoef i).vE = -(i.D33E*i.RegE*i.inE)/i.dx^2 ∧
    (zCoef i).vS = (1/3)*i.D22S*(i.OOP*i.comp - 3)/i.dz^2 ∧
    (zCoef i).vN = (1/3)*i.D22N*(i.OOP*i.comp - 3)/i.dz^2 ∧
    (zCoef i).uSW = (1/3*(i.D22S*i.OOP*i.comp) - i.D33W*i.inW)/(i.dx*i.dz) ∧
    (zCoef i).uSE = (i.D33E*i.inE - 1/3*(i.D22S*i.OOP*i.comp))/(i.dx*i.dz) ∧
    (zCoef i).uNW = (i.D33W*i.inW - 1/3*(i.D22N*i.OOP*i.comp))/(i.dx*i.dz) ∧
    (zCoef i).uNE = (1/3*(i.D22N*i.OOP*i.comp) - i.D33E*i.inE)/(i.dx*i.dz) ∧
    (zCoef i).pS = -1/i.dz ∧ (zCoef i).pN = 1/i.dz := by
  have h2 : (2 : K) ≠ 0 := fun h => h6 (by linear_combination 3 * h)
  have h3 : (3 : K) ≠ 0 := fun h => h6 (by linear_combination 2 * h)
  have e6 : (1/6 : K) = 1/2 * (1/3) := by field_simp; norm_num
  have e2 : (1/2 : K) * 2 = 1 := by field_simp
  have e3 : (1/3 : K) * 3 = 1 := by field_simp
  refine ⟨?_, ?_, ?_, ?_, ?_, ?_, ?_, ?_, ?_, ?_⟩ <;> simp only [zCoef, hSS, hSN]
  · linear_combination (-(i.D33W*i.RegW*i.inW)/i.dx^2) * e2
  · linear_combination (-(i.D33E*i.RegE*i.inE)/i.dx^2) * e2
  · ring
  · ring
  · rw [e6]
    linear_combination ((1/3*(i.D22S*i.OOP*i.comp) - i.D33W*i.inW)/(i.dx*i.dz)) * e2 - (1/2*2*(i.D33W*i.inW)/(i.dx*i.dz)) * e3
  · rw [e6]
    linear_combination ((i.D33E*i.inE - 1/3*(i.D22S*i.OOP*i.comp))/(i.dx*i.dz)) * e2 + (1/2*2*(i.D33E*i.inE)/(i.dx*i.dz)) * e3
  · rw [e6]
    linear_combination ((i.D33W*i.inW - 1/3*(i.D22N*i.OOP*i.comp))/(i.dx*i.dz)) * e2 + (1/2*2*(i.D33W*i.inW)/(i.dx*i.dz)) * e3
  · rw [e6]
    linear_combination ((1/3*(i.D22N*i.OOP*i.comp) - i.D33E*i.inE)/(i.dx*i.dz)) * e2 - (1/2*2*(i.D33E*i.inE)/(i.dx*i.dz)) * e3
  · ring
  · ring

variable [CharZero K]

omit [CharZero K] in
theorem xIn_reg (m : SMesh K) (k l : Int) (h0 : 0 < k) (h1 : k < m.Nx - 1) :
    (xIn m k l).SW = 0 ∧ (xIn m k l).SE = 0 := by
  have e0 : (k == 0) = false := by simp; omega
  have e1 : (k == (m.Nx : Int) - 1) = false := by simp; omega
  simp [xIn, e0, e1, flag]

omit [CharZero K] in
theorem zIn_reg (m : SMesh K) (k l : Int) (h0 : 0 < l) (h1 : l < m.Nz - 1) :
    (zIn m k l).SS = 0 ∧ (zIn m k l).SN = 0 := by
  have e0 : (l == 0) = false := by simp; omega
  have e1 : (l == (m.Nz : Int) - 1) = false := by simp; omega
  simp [zIn, e0, e1, flag]

/-- Vertical Vx-Vx coupling. -/
theorem sym_uS (m : SMesh K) (k l : Int) (h0 : 0 < k) (h1 : k < m.Nx - 1)
    (ht : m.tu (k + l * m.Nx) = -1) (ht' : m.tu (k + (l - 1) * m.Nx) = -1) :
    (xCoef (xIn m k l)).uS = (xCoef (xIn m k (l - 1))).uN := by
  have r := xIn_reg m k l h0 h1
  have r' := xIn_reg m k (l - 1) h0 h1
  have h6 : (6 : K) ≠ 0 := by norm_num
  rw [(xCoef_off _ h6 r.1 r.2).1, (xCoef_off _ h6 r'.1 r'.2).2.1]
  have e1 : k + l * (m.Nx : Int) - m.Nx = k + (l - 1) * m.Nx := by ring
  have e2 : k + (l - 1) * (m.Nx : Int) + m.Nx = k + l * m.Nx := by ring
  simp only [xIn, xIdx, e1, e2, ht, ht']

/-- Horizontal Vx-Vx coupling. -/
theorem sym_uW (m : SMesh K) (k l : Int) (h0 : 0 < k - 1) (h1 : k < m.Nx - 1)
    (ht : m.tu (k + l * m.Nx) = -1) :
    (xCoef (xIn m k l)).uW = (xCoef (xIn m (k - 1) l)).uE := by
  have r := xIn_reg m k l (by omega) h1
  have r' := xIn_reg m (k - 1) l h0 (by omega)
  have h6 : (6 : K) ≠ 0 := by norm_num
  rw [(xCoef_off _ h6 r.1 r.2).2.2.1, (xCoef_off _ h6 r'.1 r'.2).2.2.2.1]
  have e1 : k - 1 - 1 + (l - 1) * ((m.Nx : Int) - 1) + 1 = k - 1 + (l - 1) * ((m.Nx : Int) - 1) := by
    ring
  simp only [xIn, xIdx, e1, ht]
  simp

/-- Horizontal Vz-Vz coupling. -/
theorem sym_vW (m : SMesh K) (noper : ∀ i, m.tv i ≠ -12) (k l : Int) (h2 : 0 < l)
    (h3 : l < m.Nz - 1) (ht : m.tv (k + l * (m.Nx + 1)) = -1)
    (ht' : m.tv (k - 1 + l * (m.Nx + 1)) = -1) :
    (zCoef (zIn m k l)).vW = (zCoef (zIn m (k - 1) l)).vE := by
  have r := zIn_reg m k l h2 h3
  have r' := zIn_reg m (k - 1) l h2 h3
  have h6 : (6 : K) ≠ 0 := by norm_num
  have hp : ∀ i, (m.tv i == -12) = false := fun i => by simp [noper i]
  rw [(zCoef_off _ h6 r.1 r.2).1, (zCoef_off _ h6 r'.1 r'.2).2.1]
  have e1 : k + l * ((m.Nx : Int) + 1) - 1 = k - 1 + l * (m.Nx + 1) := by ring
  have e2 : k - 1 + l * ((m.Nx : Int) + 1) + 1 = k + l * (m.Nx + 1) := by ring
  have e3 : k + l * (m.Nx : Int) - 1 = k - 1 + l * m.Nx := by ring
  simp only [zIn, zIdx, hp, Bool.false_and, e1, e2, e3, ht, ht']
  simp [ht, ht']

/-- Vertical Vz-Vz coupling. -/
theorem sym_vS (m : SMesh K) (k l : Int) (h2 : 0 < l - 1) (h3 : l < m.Nz - 1) :
    (zCoef (zIn m k l)).vS = (zCoef (zIn m k (l - 1))).vN := by
  have r := zIn_reg m k l (by omega) h3
  have r' := zIn_reg m k (l - 1) h2 (by omega)
  have h6 : (6 : K) ≠ 0 := by norm_num
  rw [(zCoef_off _ h6 r.1 r.2).2.2.1, (zCoef_off _ h6 r'.1 r'.2).2.2.2.1]
  have e1 : k - 1 + (l - 1 - 1) * ((m.Nx : Int) - 1) + ((m.Nx : Int) - 1) =
      k - 1 + (l - 1) * ((m.Nx : Int) - 1) := by ring
  simp only [zIn, zIdx, e1]

/-- The four couplings of a Vx node with the surrounding Vz nodes. -/
theorem sym_uv (m : SMesh K) (hD : ∀ c, m.D22 c = m.D11 c) (hA : ∀ c, m.tp c ≠ -1 → m.D11 c = 0)
    (k l : Int) (h0 : 0 < k) (h1 : k < m.Nx - 1) (ht : m.tu (k + l * m.Nx) = -1) :
    (0 < l - 1 → l - 1 < m.Nz - 1 →
      (xCoef (xIn m k l)).vSW = (zCoef (zIn m k (l - 1))).uNE ∧
      (xCoef (xIn m k l)).vSE = (zCoef (zIn m (k + 1) (l - 1))).uNW) ∧
    (0 < l → l < m.Nz - 1 →
      (xCoef (xIn m k l)).vNW = (zCoef (zIn m k l)).uSE ∧
      (xCoef (xIn m k l)).vNE = (zCoef (zIn m (k + 1) l)).uSW) := by
  have r := xIn_reg m k l h0 h1
  have h6 : (6 : K) ≠ 0 := by norm_num
  have hf : ∀ c, m.D11 c * flag (m.tp c == -1) ^ 2 = m.D11 c := by
    intro c
    by_cases h : m.tp c = -1
    · simp [flag, h]
    · rw [hA c h, zero_mul]
  have hper : (m.tu (k + l * (m.Nx : Int)) == -2) = false := by simp [ht]
  obtain ⟨-, -, -, -, x1, x2, x3, x4, -, -⟩ := xCoef_off (xIn m k l) h6 r.1 r.2
  constructor
  · intro g0 g1
    have ra := zIn_reg m k (l - 1) g0 g1
    have rb := zIn_reg m (k + 1) (l - 1) g0 g1
    obtain ⟨-, -, -, -, -, -, -, z4, -, -⟩ := zCoef_off (zIn m k (l - 1)) h6 ra.1 ra.2
    obtain ⟨-, -, -, -, -, -, z3, -, -, -⟩ := zCoef_off (zIn m (k + 1) (l - 1)) h6 rb.1 rb.2
    rw [x1, x2, z4, z3]
    have e1 : k - 1 + (l - 1 - 1) * ((m.Nx : Int) - 1) + ((m.Nx : Int) - 1) =
      k - 1 + (l - 1) * ((m.Nx : Int) - 1) := by ring
    have e2 : k + 1 - 1 + (l - 1 - 1) * ((m.Nx : Int) - 1) + ((m.Nx : Int) - 1) =
      k - 1 + (l - 1) * ((m.Nx : Int) - 1) + 1 := by ring
    have e3 : k + l * (m.Nx : Int) - m.Nx = k + (l - 1) * m.Nx := by ring
    have e4 : k + 1 + (l - 1) * (m.Nx : Int) - 1 = k + (l - 1) * m.Nx := by ring
    simp only [xIn, zIn, xIdx, zIdx, hper, e1, e2, e3, e4, hD, hf, Bool.false_eq_true, if_false]
    exact ⟨trivial, trivial⟩
  · intro g0 g1
    have ra := zIn_reg m k l g0 g1
    have rb := zIn_reg m (k + 1) l g0 g1
    obtain ⟨-, -, -, -, -, z2, -, -, -, -⟩ := zCoef_off (zIn m k l) h6 ra.1 ra.2
    obtain ⟨-, -, -, -, z1, -, -, -, -, -⟩ := zCoef_off (zIn m (k + 1) l) h6 rb.1 rb.2
    rw [x3, x4, z2, z1]
    have e2 : k + 1 - 1 + (l - 1) * ((m.Nx : Int) - 1) =
      k - 1 + (l - 1) * ((m.Nx : Int) - 1) + 1 := by ring
    have e4 : k + 1 + l * (m.Nx : Int) - 1 = k + l * m.Nx := by ring
    simp only [xIn, zIn, xIdx, zIdx, hper, e2, e4, hD, hf, Bool.false_eq_true, if_false]
    exact ⟨trivial, trivial⟩

/-- C10 for a Vx row against a Vz row. -/
theorem sym_xz (m : SMesh K) (hD : ∀ c, m.D22 c = m.D11 c)
    (hA : ∀ c, m.tp c ≠ -1 → m.D11 c = 0) (noper : ∀ i, m.tv i ≠ -12)
    (k l : Int) (h0 : 0 < k) (h1 : k < m.Nx - 1) (ht : m.tu (k + l * m.Nx) = -1)
    (k' l' : Int) (h0' : 0 < k') (h1' : k' < m.Nx) (h2' : 0 < l') (h3' : l' < m.Nz - 1)
    (ht' : m.tv (k' + l' * (m.Nx + 1)) = -1) :
    coeff (xStencil m k l) (.v (k' + l' * (m.Nx + 1))) =
    coeff (zStencil m k' l') (.u (k + l * m.Nx)) := by
  rw [xcoeff_v m k l h0 h1 ht _ ht', zcoeff_u m noper k' l' h2' h3' _ ht]
  obtain ⟨sa, sb⟩ := sym_uv m hD hA k l h0 h1 ht
  have f1 : k + l * ((m.Nx : Int) + 1) - (m.Nx + 1) = k' + l' * (m.Nx + 1) ↔ k' = k ∧ l' = l - 1 := by
    constructor
    · intro h
      have := flat_eq (m.Nx + 1) k l k' l' 0 (-1) (by omega) (by omega) (by omega) (by omega)
        (by rw [← h]; ring)
      omega
    · rintro ⟨rfl, rfl⟩; ring
  have f2 : k + l * ((m.Nx : Int) + 1) - (m.Nx + 1) + 1 = k' + l' * (m.Nx + 1) ↔
      k' = k + 1 ∧ l' = l - 1 := by
    constructor
    · intro h
      have := flat_eq (m.Nx + 1) k l k' l' 1 (-1) (by omega) (by omega) (by omega) (by omega)
        (by rw [← h]; ring)
      omega
    · rintro ⟨rfl, rfl⟩; ring
  have f3 : k + l * ((m.Nx : Int) + 1) = k' + l' * (m.Nx + 1) ↔ k' = k ∧ l' = l := by
    constructor
    · intro h
      have := flat_eq (m.Nx + 1) k l k' l' 0 0 (by omega) (by omega) (by omega) (by omega)
        (by rw [← h]; ring)
      omega
    · rintro ⟨rfl, rfl⟩; ring
  have f4 : k + l * ((m.Nx : Int) + 1) + 1 = k' + l' * (m.Nx + 1) ↔ k' = k + 1 ∧ l' = l := by
    constructor
    · intro h
      have := flat_eq (m.Nx + 1) k l k' l' 1 0 (by omega) (by omega) (by omega) (by omega)
        (by rw [← h]; ring)
      omega
    · rintro ⟨rfl, rfl⟩; ring
  have g1 : k' + l' * (m.Nx : Int) + m.Nx = k + l * m.Nx ↔ k' = k ∧ l' = l - 1 := by
    constructor
    · intro h
      have := flat_eq m.Nx k' l' k l 0 1 (by omega) (by omega) (by omega) (by omega)
        (by rw [← h]; ring)
      omega
    · rintro ⟨rfl, rfl⟩; ring
  have g2 : k' + l' * (m.Nx : Int) + m.Nx - 1 = k + l * m.Nx ↔ k' = k + 1 ∧ l' = l - 1 := by
    constructor
    · intro h
      have := flat_eq m.Nx k' l' k l (-1) 1 (by omega) (by omega) (by omega) (by omega)
        (by rw [← h]; ring)
      omega
    · rintro ⟨rfl, rfl⟩; ring
  have g3 : k' + l' * (m.Nx : Int) = k + l * m.Nx ↔ k' = k ∧ l' = l := by
    constructor
    · intro h
      have := flat_eq m.Nx k' l' k l 0 0 (by omega) (by omega) (by omega) (by omega)
        (by rw [← h]; ring)
      omega
    · rintro ⟨rfl, rfl⟩; ring
  have g4 : k' + l' * (m.Nx : Int) - 1 = k + l * m.Nx ↔ k' = k + 1 ∧ l' = l := by
    constructor
    · intro h
      have := flat_eq m.Nx k' l' k l (-1) 0 (by omega) (by omega) (by omega) (by omega)
        (by rw [← h]; ring)
      omega
    · rintro ⟨rfl, rfl⟩; ring
  simp only [f1, f2, f3, f4, g1, g2, g3, g4]
  have t1 : (if k' = k ∧ l' = l - 1 then (xCoef (xIn m k l)).vSW * (m.dx * m.dz) else 0) =
      if k' = k ∧ l' = l - 1 then (zCoef (zIn m k' l')).uNE * (m.dx * m.dz) else 0 :=
    ite_congr_iff Iff.rfl (by rintro ⟨rfl, rfl⟩; rw [(sa h2' h3').1])
  have t2 : (if k' = k + 1 ∧ l' = l - 1 then (xCoef (xIn m k l)).vSE * (m.dx * m.dz) else 0) =
      if k' = k + 1 ∧ l' = l - 1 then (zCoef (zIn m k' l')).uNW * (m.dx * m.dz) else 0 :=
    ite_congr_iff Iff.rfl (by rintro ⟨rfl, rfl⟩; rw [(sa h2' h3').2])
  have t3 : (if k' = k ∧ l' = l then (xCoef (xIn m k l)).vNW * (m.dx * m.dz) else 0) =
      if k' = k ∧ l' = l then (zCoef (zIn m k' l')).uSE * (m.dx * m.dz) else 0 :=
    ite_congr_iff Iff.rfl (by rintro ⟨rfl, rfl⟩; rw [(sb h2' h3').1])
  have t4 : (if k' = k + 1 ∧ l' = l then (xCoef (xIn m k l)).vNE * (m.dx * m.dz) else 0) =
      if k' = k + 1 ∧ l' = l then (zCoef (zIn m k' l')).uSW * (m.dx * m.dz) else 0 :=
    ite_congr_iff Iff.rfl (by rintro ⟨rfl, rfl⟩; rw [(sb h2' h3').2])
  rw [t1, t2, t3, t4]
  ring

/-- C10 for two Vx rows. -/
theorem sym_xx (m : SMesh K) (k l : Int) (h0 : 0 < k) (h1 : k < m.Nx - 1)
    (ht : m.tu (k + l * m.Nx) = -1) (k' l' : Int) (h0' : 0 < k') (h1' : k' < m.Nx - 1)
    (ht' : m.tu (k' + l' * m.Nx) = -1) :
    coeff (xStencil m k l) (.u (k' + l' * m.Nx)) = coeff (xStencil m k' l') (.u (k + l * m.Nx)) := by
  rw [xcoeff_u m k l h0 h1 ht _ ht', xcoeff_u m k' l' h0' h1' ht' _ ht]
  have t1 : (if k + l * (m.Nx : Int) - m.Nx = k' + l' * m.Nx then
        (xCoef (xIn m k l)).uS * (m.dx * m.dz) else 0) =
      if k' + l' * (m.Nx : Int) + m.Nx = k + l * m.Nx then
        (xCoef (xIn m k' l')).uN * (m.dx * m.dz) else 0 := by
    refine ite_congr_iff (by constructor <;> intro h <;> omega) fun h => ?_
    obtain ⟨rfl, rfl⟩ := flat_eq m.Nx k l k' l' 0 (-1) (by omega) (by omega) (by omega) (by omega)
      (by rw [← h]; ring)
    rw [show k + 0 = k by ring, show l + -1 = l - 1 by ring] at ht' ⊢
    rw [sym_uS m k l h0 h1 ht ht']
  have t1' : (if k' + l' * (m.Nx : Int) - m.Nx = k + l * m.Nx then
        (xCoef (xIn m k' l')).uS * (m.dx * m.dz) else 0) =
      if k + l * (m.Nx : Int) + m.Nx = k' + l' * m.Nx then
        (xCoef (xIn m k l)).uN * (m.dx * m.dz) else 0 := by
    refine ite_congr_iff (by constructor <;> intro h <;> omega) fun h => ?_
    obtain ⟨rfl, rfl⟩ := flat_eq m.Nx k' l' k l 0 (-1) (by omega) (by omega) (by omega) (by omega)
      (by rw [← h]; ring)
    rw [show k' + 0 = k' by ring, show l' + -1 = l' - 1 by ring] at ht ⊢
    rw [sym_uS m k' l' h0' h1' ht' ht]
  have t2 : (if k + l * (m.Nx : Int) - 1 = k' + l' * m.Nx then
        (xCoef (xIn m k l)).uW * (m.dx * m.dz) else 0) =
      if k' + l' * (m.Nx : Int) + 1 = k + l * m.Nx then
        (xCoef (xIn m k' l')).uE * (m.dx * m.dz) else 0 := by
    refine ite_congr_iff (by constructor <;> intro h <;> omega) fun h => ?_
    obtain ⟨rfl, rfl⟩ := flat_eq m.Nx k l k' l' (-1) 0 (by omega) (by omega) (by omega) (by omega)
      (by rw [← h]; ring)
    rw [show k + -1 = k - 1 by ring, show l + 0 = l by ring] at ht' ⊢
    rw [sym_uW m k l (by omega) h1 ht]
  have t2' : (if k' + l' * (m.Nx : Int) - 1 = k + l * m.Nx then
        (xCoef (xIn m k' l')).uW * (m.dx * m.dz) else 0) =
      if k + l * (m.Nx : Int) + 1 = k' + l' * m.Nx then
        (xCoef (xIn m k l)).uE * (m.dx * m.dz) else 0 := by
    refine ite_congr_iff (by constructor <;> intro h <;> omega) fun h => ?_
    obtain ⟨rfl, rfl⟩ := flat_eq m.Nx k' l' k l (-1) 0 (by omega) (by omega) (by omega) (by omega)
      (by rw [← h]; ring)
    rw [show k' + -1 = k' - 1 by ring, show l' + 0 = l' by ring] at ht ⊢
    rw [sym_uW m k' l' (by omega) h1' ht']
  have t3 : (if k + l * (m.Nx : Int) = k' + l' * m.Nx then ((xCoef (xIn m k l)).uC +
        xCorr m k l (xCoef (xIn m k l)).uC) * (m.dx * m.dz) else 0) =
      if k' + l' * (m.Nx : Int) = k + l * m.Nx then ((xCoef (xIn m k' l')).uC +
        xCorr m k' l' (xCoef (xIn m k' l')).uC) * (m.dx * m.dz) else 0 := by
    refine ite_congr_iff eq_comm fun h => ?_
    obtain ⟨rfl, rfl⟩ := flat_eq m.Nx k l k' l' 0 0 (by omega) (by omega) (by omega) (by omega)
      (by rw [← h]; ring)
    simp
  simp only [t1, ← t1', t2, ← t2', t3]
  ring

/-- C10 for two Vz rows. -/
theorem sym_zz (m : SMesh K) (noper : ∀ i, m.tv i ≠ -12) (k l : Int) (h0 : 0 < k) (h1 : k < m.Nx)
    (h2 : 0 < l) (h3 : l < m.Nz - 1)
    (ht : m.tv (k + l * (m.Nx + 1)) = -1) (k' l' : Int) (h0' : 0 < k') (h1' : k' < m.Nx)
    (h2' : 0 < l') (h3' : l' < m.Nz - 1) (ht' : m.tv (k' + l' * (m.Nx + 1)) = -1) :
    coeff (zStencil m k l) (.v (k' + l' * (m.Nx + 1))) =
      coeff (zStencil m k' l') (.v (k + l * (m.Nx + 1))) := by
  rw [zcoeff_v m noper k l h2 h3 _ ht', zcoeff_v m noper k' l' h2' h3' _ ht]
  set n : Int := (m.Nx : Int) + 1 with hn
  have t1 : (if k + l * n - n = k' + l' * n then
        (zCoef (zIn m k l)).vS * (m.dx * m.dz) else 0) =
      if k' + l' * n + n = k + l * n then
        (zCoef (zIn m k' l')).vN * (m.dx * m.dz) else 0 := by
    refine ite_congr_iff (by constructor <;> intro h <;> omega) fun h => ?_
    obtain ⟨rfl, rfl⟩ := flat_eq n k l k' l' 0 (-1) (by omega) (by omega) (by omega) (by omega)
      (by rw [← h]; ring)
    rw [show k + 0 = k by ring, show l + -1 = l - 1 by ring]
    rw [sym_vS m k l (by omega) h3]
  have t1' : (if k' + l' * n - n = k + l * n then
        (zCoef (zIn m k' l')).vS * (m.dx * m.dz) else 0) =
      if k + l * n + n = k' + l' * n then
        (zCoef (zIn m k l)).vN * (m.dx * m.dz) else 0 := by
    refine ite_congr_iff (by constructor <;> intro h <;> omega) fun h => ?_
    obtain ⟨rfl, rfl⟩ := flat_eq n k' l' k l 0 (-1) (by omega) (by omega) (by omega) (by omega)
      (by rw [← h]; ring)
    rw [show k' + 0 = k' by ring, show l' + -1 = l' - 1 by ring]
    rw [sym_vS m k' l' (by omega) h3']
  have t2 : (if k + l * n - 1 = k' + l' * n then
        (zCoef (zIn m k l)).vW * (m.dx * m.dz) else 0) =
      if k' + l' * n + 1 = k + l * n then
        (zCoef (zIn m k' l')).vE * (m.dx * m.dz) else 0 := by
    refine ite_congr_iff (by constructor <;> intro h <;> omega) fun h => ?_
    obtain ⟨rfl, rfl⟩ := flat_eq n k l k' l' (-1) 0 (by omega) (by omega) (by omega) (by omega)
      (by rw [← h]; ring)
    rw [show k + -1 = k - 1 by ring, show l + 0 = l by ring] at ht' ⊢
    rw [sym_vW m noper k l h2 h3 ht ht']
  have t2' : (if k' + l' * n - 1 = k + l * n then
        (zCoef (zIn m k' l')).vW * (m.dx * m.dz) else 0) =
      if k + l * n + 1 = k' + l' * n then
        (zCoef (zIn m k l)).vE * (m.dx * m.dz) else 0 := by
    refine ite_congr_iff (by constructor <;> intro h <;> omega) fun h => ?_
    obtain ⟨rfl, rfl⟩ := flat_eq n k' l' k l (-1) 0 (by omega) (by omega) (by omega) (by omega)
      (by rw [← h]; ring)
    rw [show k' + -1 = k' - 1 by ring, show l' + 0 = l' by ring] at ht ⊢
    rw [sym_vW m noper k' l' h2' h3' ht' ht]
  have t3 : (if k + l * n = k' + l' * n then ((zCoef (zIn m k l)).vC +
        zCorr m k l (zCoef (zIn m k l))) * (m.dx * m.dz) else 0) =
      if k' + l' * n = k + l * n then ((zCoef (zIn m k' l')).vC +
        zCorr m k' l' (zCoef (zIn m k' l'))) * (m.dx * m.dz) else 0 := by
    refine ite_congr_iff eq_comm fun h => ?_
    obtain ⟨rfl, rfl⟩ := flat_eq n k l k' l' 0 0 (by omega) (by omega) (by omega) (by omega)
      (by rw [← h]; ring)
    simp
  simp only [t1, ← t1', t2, ← t2', t3]
  ring

/-- C10.  For every pair of interior solved velocity nodes, the coefficient of node `e` in the row of
node `d` is the coefficient of node `d` in the row of node `e`: the velocity block restricted to
these nodes is symmetric, for every viscosity field that vanishes in air cells and is isotropic. -/
theorem stokes_velocity_block_symmetric (m : SMesh K) (hD : ∀ c, m.D22 c = m.D11 c)
    (hA : ∀ c, m.tp c ≠ -1 → m.D11 c = 0) (noper : ∀ i, m.tv i ≠ -12)
    (d e : SNode) (sd se : List (SNode × K)) (hd : VelRow m d sd) (he : VelRow m e se) :
    coeff sd e = coeff se d := by
  cases hd with
  | x k l h0 h1 ht =>
    cases he with
    | x k' l' h0' h1' ht' => exact sym_xx m k l h0 h1 ht k' l' h0' h1' ht'
    | z k' l' h0' h1' h2' h3' ht' =>
      exact sym_xz m hD hA noper k l h0 h1 ht k' l' h0' h1' h2' h3' ht'
  | z k l h0 h1 h2 h3 ht =>
    cases he with
    | x k' l' h0' h1' ht' =>
      exact (sym_xz m hD hA noper k' l' h0' h1' ht' k l h0 h1 h2 h3 ht).symm
    | z k' l' h0' h1' h2' h3' ht' =>
      exact sym_zz m noper k l h0 h1 h2 h3 ht k' l' h0' h1' h2' h3' ht'

/-- C10, pressure part.  For every interior solved velocity node and every solved pressure cell, the
coefficient of the velocity in the continuity row of the cell is minus the coefficient of the cell's
pressure in the momentum row, times 3/2 when the out-of-plane correction is on (so the gradient
block is minus the transpose of the divergence block for in-plane deformation). -/
theorem gradient_is_minus_divergence_transpose (m : SMesh K) (noper : ∀ i, m.tv i ≠ -12)
    (d c : SNode) (gd dc : List (SNode × K)) (hd : GradRow m d gd) (hc : DivRow m c dc) :
    coeff dc d = -(if m.oop then 3/2 else 1) * coeff gd c := by
  have h6 : (6 : K) ≠ 0 := by norm_num
  cases hc with
  | c k' l' h0' h1' ht' =>
  cases hd with
  | x k l h0 h1 ht =>
    rw [xcoeff_p m k l h0 h1 ht _ ht']
    have r := xIn_reg m k l h0 h1
    obtain ⟨-, -, -, -, -, -, -, -, x1, x2⟩ := xCoef_off (xIn m k l) h6 r.1 r.2
    rw [x1, x2]
    have key : ∀ (i : Int) (x : K),
        (if (m.tu i != 13) = true ∧ SNode.u i = SNode.u (k + l * m.Nx) then x else 0) =
        if i = k + l * m.Nx then x else 0 := by
      intro i x
      by_cases h : i = k + l * m.Nx
      · subst h; simp [ht]
      · simp [h]
    have kv : ∀ (i : Int) (x : K),
        (if (m.tv i != 13) = true ∧ SNode.v i = SNode.u (k + l * m.Nx) then x else 0) = 0 := by
      intro i x; simp
    simp only [cStencil, coeff_append, coeff_guarded, key, kv]
    have f1 : k' + (l' + 1) * (m.Nx : Int) = k + l * m.Nx ↔ k' = k ∧ l' = l - 1 := by
      constructor
      · intro h
        have := flat_eq m.Nx k' l' k l 0 1 (by omega) (by omega) (by omega) (by omega)
          (by rw [← h]; ring)
        omega
      · rintro ⟨rfl, rfl⟩; ring
    have f2 : k' + (l' + 1) * (m.Nx : Int) + 1 = k + l * m.Nx ↔ k' = k - 1 ∧ l' = l - 1 := by
      constructor
      · intro h
        have := flat_eq m.Nx k' l' k l 1 1 (by omega) (by omega) (by omega) (by omega)
          (by rw [← h]; ring)
        omega
      · rintro ⟨rfl, rfl⟩; ring
    have g1 : k + (l - 1) * ((m.Nx : Int) - 1) = k' + l' * (m.Nx - 1) ↔ k' = k ∧ l' = l - 1 := by
      constructor
      · intro h
        have := flat_eq (m.Nx - 1) k l k' l' 0 (-1) (by omega) (by omega) (by omega) (by omega)
          (by rw [← h]; ring)
        omega
      · rintro ⟨rfl, rfl⟩; ring
    have g2 : k + (l - 1) * ((m.Nx : Int) - 1) - 1 = k' + l' * (m.Nx - 1) ↔
        k' = k - 1 ∧ l' = l - 1 := by
      constructor
      · intro h
        have := flat_eq (m.Nx - 1) k l k' l' (-1) (-1) (by omega) (by omega) (by omega) (by omega)
          (by rw [← h]; ring)
        omega
      · rintro ⟨rfl, rfl⟩; ring
    simp only [f1, f2, g1, g2]
    simp only [xIn]
    by_cases a : k' = k ∧ l' = l - 1
    · have b : ¬ (k' = k - 1 ∧ l' = l - 1) := by omega
      rw [if_pos a, if_neg b, if_pos a, if_neg b]; ring
    · by_cases b : k' = k - 1 ∧ l' = l - 1
      · rw [if_neg a, if_pos b, if_neg a, if_pos b]; ring
      · rw [if_neg a, if_neg b, if_neg a, if_neg b]; ring
  | z k l h0 h1 h2 h3 ht =>
    rw [zcoeff_p m noper k l h2 h3 _ ht']
    have r := zIn_reg m k l h2 h3
    obtain ⟨-, -, -, -, -, -, -, -, x1, x2⟩ := zCoef_off (zIn m k l) h6 r.1 r.2
    rw [x1, x2]
    have key : ∀ (i : Int) (x : K),
        (if (m.tv i != 13) = true ∧ SNode.v i = SNode.v (k + l * (m.Nx + 1)) then x else 0) =
        if i = k + l * (m.Nx + 1) then x else 0 := by
      intro i x
      by_cases h : i = k + l * (m.Nx + 1)
      · subst h; simp [ht]
      · simp [h]
    have kv : ∀ (i : Int) (x : K),
        (if (m.tu i != 13) = true ∧ SNode.u i = SNode.v (k + l * (m.Nx + 1)) then x else 0) = 0 := by
      intro i x; simp
    simp only [cStencil, coeff_append, coeff_guarded, key, kv]
    have f1 : k' + l' * ((m.Nx : Int) + 1) + 1 = k + l * (m.Nx + 1) ↔ k' = k - 1 ∧ l' = l := by
      constructor
      · intro h
        have := flat_eq (m.Nx + 1) k' l' k l 1 0 (by omega) (by omega) (by omega) (by omega)
          (by rw [← h]; ring)
        omega
      · rintro ⟨rfl, rfl⟩; ring
    have f2 : k' + l' * ((m.Nx : Int) + 1) + 1 + (m.Nx + 1) = k + l * (m.Nx + 1) ↔
        k' = k - 1 ∧ l' = l - 1 := by
      constructor
      · intro h
        have := flat_eq (m.Nx + 1) k' l' k l 1 1 (by omega) (by omega) (by omega) (by omega)
          (by rw [← h]; ring)
        omega
      · rintro ⟨rfl, rfl⟩; ring
    have g1 : k - 1 + l * ((m.Nx : Int) - 1) = k' + l' * (m.Nx - 1) ↔ k' = k - 1 ∧ l' = l := by
      constructor
      · intro h
        have := flat_eq (m.Nx - 1) k l k' l' (-1) 0 (by omega) (by omega) (by omega) (by omega)
          (by rw [← h]; ring)
        omega
      · rintro ⟨rfl, rfl⟩; ring
    have g2 : k - 1 + l * ((m.Nx : Int) - 1) - (m.Nx - 1) = k' + l' * (m.Nx - 1) ↔
        k' = k - 1 ∧ l' = l - 1 := by
      constructor
      · intro h
        have := flat_eq (m.Nx - 1) k l k' l' (-1) (-1) (by omega) (by omega) (by omega) (by omega)
          (by rw [← h]; ring)
        omega
      · rintro ⟨rfl, rfl⟩; ring
    simp only [f1, f2, g1, g2]
    simp only [zIn]
    by_cases a : k' = k - 1 ∧ l' = l
    · have b : ¬ (k' = k - 1 ∧ l' = l - 1) := by omega
      rw [if_pos a, if_neg b, if_pos a, if_neg b]; ring
    · by_cases b : k' = k - 1 ∧ l' = l - 1
      · rw [if_neg a, if_pos b, if_neg a, if_pos b]; ring
      · rw [if_neg a, if_neg b, if_neg a, if_neg b]; ring

end Verif
