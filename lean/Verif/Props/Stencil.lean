import Verif.Spec.Stress
import Verif.Prelude

/- C07, C08, C09: boundary elimination, stress balance, rigid motions. -/
namespace Verif
variable {K : Type*} [Field K]

theorem applyTo_append (f : SNode → K) (a b : List (SNode × K)) :
    applyTo f (a ++ b) = applyTo f a + applyTo f b := by
  simp [applyTo, List.map_append, List.sum_append]

theorem applyTo_guarded (f : SNode → K) (b : Bool) (n : SNode) (a : K) :
    applyTo f (guarded b n a) = if b then a * f n else 0 := by
  cases b <;> simp [applyTo, guarded]

/-! ### C07 -/

/-- The test of `AddCoeff3` singles out the four documented tags. -/
theorem prescribed_iff (t : Int) : prescribed t = true ↔ t ∈ prescribedTags := by
  simp only [prescribed, prescribedTags, Bool.or_eq_true, beq_iff_eq, List.mem_cons, List.not_mem_nil, or_false]
  omega

theorem prescribed_decide (t : Int) : prescribed t = decide (t ∈ prescribedTags) := by
  rw [Bool.eq_iff_iff, prescribed_iff, decide_eq_true_eq]

theorem buildRow_spec (m : SMesh K) (eqn : SNode → Int) (st : List (SNode × K)) (s : RowSt K)
    (x : Int → K) :
    rowTimes x (st.foldl (addCoeff3 m eqn) s).entries - (st.foldl (addCoeff3 m eqn) s).rhs =
      rowTimes x s.entries - s.rhs + applyTo (fieldOf m eqn x) st := by
  induction st generalizing s with
  | nil => simp [applyTo]
  | cons e st ih =>
    rw [List.foldl_cons, ih]
    unfold addCoeff3 applyTo fieldOf rowTimes
    by_cases h : m.tag e.1 ∈ prescribedTags
    · simp [(prescribed_iff _).2 h, h]; ring
    · simp [mt (prescribed_iff _).1 h, h]; ring

theorem buildRow_entries (m : SMesh K) (eqn : SNode → Int) (st : List (SNode × K)) :
    (buildRow m eqn st).entries =
      (st.filter fun e => !prescribed (m.tag e.1)).map fun e => (eqn e.1, e.2) := by
  suffices h : ∀ s : RowSt K, (st.foldl (addCoeff3 m eqn) s).entries =
      s.entries ++ (st.filter fun e => !prescribed (m.tag e.1)).map fun e => (eqn e.1, e.2) by
    simpa [buildRow] using h ⟨[], 0⟩
  induction st with
  | nil => simp
  | cons e st ih =>
    intro s
    rw [List.foldl_cons, ih]
    unfold addCoeff3
    by_cases h : prescribed (m.tag e.1) = true <;> simp [h]

/-- C07.  For every stencil, every numbering and every vector of unknowns: matrix row times
unknowns minus right-hand side equals the stencil applied to the field whose prescribed nodes
carry their boundary values; and only non-prescribed stencil nodes appear as columns. -/
theorem elimination_preserves_equation (m : SMesh K) (eqn : SNode → Int) (st : List (SNode × K)) :
    (∀ x : Int → K, rowTimes x (buildRow m eqn st).entries - (buildRow m eqn st).rhs =
      applyTo (fieldOf m eqn x) st) ∧
    (buildRow m eqn st).entries =
      (st.filter fun e => decide (m.tag e.1 ∉ prescribedTags)).map fun e => (eqn e.1, e.2) := by
  refine ⟨fun x => ?_, ?_⟩
  · have := buildRow_spec m eqn st ⟨[], 0⟩ x
    simpa [buildRow, rowTimes] using this
  · rw [buildRow_entries]
    simp only [prescribed_decide, decide_not]

/-! ### C08 -/

theorem colOf_mk (n a b : Int) (h0 : 0 ≤ a) (h1 : a < n) : colOf n (a + b * n) = a := by
  unfold colOf
  rw [Int.add_mul_emod_self_right, Int.emod_eq_of_lt h0 h1]

theorem rowOf_mk (n a b : Int) (h0 : 0 ≤ a) (h1 : a < n) : rowOf n (a + b * n) = b := by
  unfold rowOf
  rw [Int.add_mul_ediv_right _ _ (by omega), Int.ediv_eq_zero_of_lt h0 h1, Int.zero_add]

theorem flag_true : flag (K := K) true = 1 := rfl
theorem flag_false : flag (K := K) false = 0 := rfl

/-- Local form of exxd. -/
theorem exxd_mk (m : SMesh K) (u v : Int → K) (k l : Int) (h0 : 0 ≤ k) (h1 : k < m.Nx - 1) :
    let c := k + l * ((m.Nx : Int) - 1)
    divU m u v c = (if m.tp c ≠ 30 ∧ m.tp c ≠ 31 then
      (1 + flag m.oop * (1/2)) * ((u (k + 1 + (l + 1) * m.Nx) - u (k + (l + 1) * m.Nx)) / m.dx +
       (v (k + 1 + (l + 1) * (m.Nx + 1)) - v (k + 1 + l * (m.Nx + 1))) / m.dz) else 0) ∧
    exxd m u v c = (if m.tp c ≠ 30 ∧ m.tp c ≠ 31 then
      (u (k + 1 + (l + 1) * m.Nx) - u (k + (l + 1) * m.Nx)) / m.dx
        - flag m.comp * 1 / 3 * divU m u v c else 0) ∧
    ezzd m u v c = (if m.tp c ≠ 30 ∧ m.tp c ≠ 31 then
      (v (k + 1 + (l + 1) * (m.Nx + 1)) - v (k + 1 + l * (m.Nx + 1))) / m.dz
        - flag m.comp * 1 / 3 * divU m u v c else 0) := by
  intro c
  have hc := colOf_mk ((m.Nx : Int) - 1) k l h0 h1
  have hr := rowOf_mk ((m.Nx : Int) - 1) k l h0 h1
  have e1 : k + l * (m.Nx : Int) + 1 + m.Nx = k + 1 + (l + 1) * m.Nx := by ring
  have e2 : k + l * (m.Nx : Int) + m.Nx = k + (l + 1) * m.Nx := by ring
  have e3 : k + l * ((m.Nx : Int) + 1) + m.Nx + 1 + 1 = k + 1 + (l + 1) * (m.Nx + 1) := by ring
  have e4 : k + l * ((m.Nx : Int) + 1) + 1 = k + 1 + l * (m.Nx + 1) := by ring
  refine ⟨?_, ?_, ?_⟩
  · simp only [divU, c, hc, hr, e1, e2, e3, e4]
    split
    · ring
    · rfl
  · simp only [exxd, c, hc, hr, e1, e2]
  · simp only [ezzd, c, hc, hr, e3, e4]

/-- Local form of exz. -/
theorem exz_mk (m : SMesh K) (u v : Int → K) (k l : Int) (h0 : 0 ≤ k) (h1 : k < m.Nx) :
    exz m u v (k + l * m.Nx) = (if m.tg (k + l * m.Nx) ≠ 30 then
      (1/2) * ((u (k + (l + 1) * m.Nx) - u (k + l * m.Nx)) / m.dz +
        (v (k + 1 + l * (m.Nx + 1)) - v (k + l * (m.Nx + 1))) / m.dx) else 0) := by
  have hc := colOf_mk (m.Nx : Int) k l h0 h1
  have hr := rowOf_mk (m.Nx : Int) k l h0 h1
  have e1 : k + l * (m.Nx : Int) + m.Nx = k + (l + 1) * m.Nx := by ring
  have e4 : k + l * ((m.Nx : Int) + 1) + 1 = k + 1 + l * (m.Nx + 1) := by ring
  simp only [exz, hc, hr, e1, e4]

section CharZero
variable [CharZero K]

/-- The coefficient identity of a regular x-row. -/
theorem xCoef_regular (i : XIn K) (hdx : i.dx ≠ 0) (hdz : i.dz ≠ 0) (hSW : i.SW = 0)
    (hSE : i.SE = 0) (hiW : i.inW * i.inW = i.inW) (hiE : i.inE * i.inE = i.inE)
    (UW UC UE US UN VSW VSE VNW VNE : K)
    (hS : (i.RegS = 1 ∧ i.DirS = 0) ∨ (i.RegS = 0 ∧ i.DirS = 1 ∧ US = -UC) ∨
      (i.RegS = 0 ∧ i.DirS = 0 ∧ US = UC))
    (hN : (i.RegN = 1 ∧ i.DirN = 0) ∨ (i.RegN = 0 ∧ i.DirN = 1 ∧ UN = -UC) ∨
      (i.RegN = 0 ∧ i.DirN = 0 ∧ UN = UC)) :
    let a := xCoef i
    a.uW * UW + a.uC * UC + a.uE * UE + a.uS * US + a.uN * UN + a.vSW * VSW + a.vSE * VSE +
      a.vNW * VNW + a.vNE * VNE =
    -((i.D11E * i.inE * ((UE - UC) / i.dx - i.comp / 3 * (i.OOP * ((UE - UC) / i.dx +
        (VNE - VSE) / i.dz))) -
       i.D11W * i.inW * ((UC - UW) / i.dx - i.comp / 3 * (i.OOP * ((UC - UW) / i.dx +
        (VNW - VSW) / i.dz)))) / i.dx +
      (i.D33N * i.inN * ((UN - UC) / i.dz + (VNE - VNW) / i.dx) -
       i.D33S * i.inS * ((UC - US) / i.dz + (VSE - VSW) / i.dx)) / i.dz) := by
  intro a
  have h6 : (6 : K) ≠ 0 := by norm_num
  have h3 : (3 : K) ≠ 0 := by norm_num
  have h2 : (2 : K) ≠ 0 := by norm_num
  have hiW2 : i.inW ^ 2 = i.inW := by rw [pow_two]; exact hiW
  have hiE2 : i.inE ^ 2 = i.inE := by rw [pow_two]; exact hiE
  have cW : i.inW * (i.OOP * i.comp * i.inW - 3) = i.inW * (i.OOP * i.comp - 3) := by
    linear_combination (i.OOP * i.comp) * hiW
  have cE : i.inE * (i.OOP * i.comp * i.inE - 3) = i.inE * (i.OOP * i.comp - 3) := by
    linear_combination (i.OOP * i.comp) * hiE
  have auW : a.uW = (1/3)*i.D11W*(i.inW*(i.OOP*i.comp - 3))/i.dx^2 := by
    simp only [a, xCoef, hSW, hSE]; rw [← cW]; ring
  have auE : a.uE = (1/3)*i.D11E*(i.inE*(i.OOP*i.comp - 3))/i.dx^2 := by
    simp only [a, xCoef, hSW, hSE]; rw [← cE]; ring
  have auC : a.uC = ((i.D33N*i.inN*(2*i.DirN + i.RegN) + i.D33S*i.inS*(2*i.DirS + i.RegS))*i.dx^2
      - (1/3)*(i.D11E*(i.inE*(i.OOP*i.comp - 3)) + i.D11W*(i.inW*(i.OOP*i.comp - 3)))*i.dz^2)
        /(i.dx^2*i.dz^2) := by
    simp only [a, xCoef, hSW, hSE]; rw [← cE, ← cW]; ring
  have auS : a.uS = -(i.D33S*i.RegS*i.inS)/i.dz^2 := by
    simp only [a, xCoef, hSW, hSE]; field_simp; ring
  have auN : a.uN = -(i.D33N*i.RegN*i.inN)/i.dz^2 := by
    simp only [a, xCoef, hSW, hSE]; field_simp; ring
  have avSW : a.vSW = (1/3)*(i.D11W*i.OOP*i.comp*i.inW - 3*i.D33S*i.inS)/(i.dx*i.dz) := by
    simp only [a, xCoef, hSW, hSE, hiW2]; field_simp; ring
  have avSE : a.vSE = -(1/3)*(i.D11E*i.OOP*i.comp*i.inE - 3*i.D33S*i.inS)/(i.dx*i.dz) := by
    simp only [a, xCoef, hSW, hSE, hiE2]; field_simp; ring
  have avNW : a.vNW = -(1/3)*(i.D11W*i.OOP*i.comp*i.inW - 3*i.D33N*i.inN)/(i.dx*i.dz) := by
    simp only [a, xCoef, hSW, hSE, hiW2]; field_simp; ring
  have avNE : a.vNE = (1/3)*(i.D11E*i.OOP*i.comp*i.inE - 3*i.D33N*i.inN)/(i.dx*i.dz) := by
    simp only [a, xCoef, hSW, hSE, hiE2]; field_simp; ring
  rw [auW, auE, auC, auS, auN, avSW, avSE, avNW, avNE]
  have key : ∀ (Reg Dir U D : K), ((Reg = 1 ∧ Dir = 0) ∨ (Reg = 0 ∧ Dir = 1 ∧ U = -UC) ∨
      (Reg = 0 ∧ Dir = 0 ∧ U = UC)) → D * (2 * Dir + Reg) * UC - D * Reg * U = D * (UC - U) := by
    rintro Reg Dir U D (⟨rfl, rfl⟩ | ⟨rfl, rfl, rfl⟩ | ⟨rfl, rfl, rfl⟩) <;> ring
  have kS := key _ _ _ (i.D33S * i.inS) hS
  have kN := key _ _ _ (i.D33N * i.inN) hN
  have e : (i.D33N*i.inN*(2*i.DirN + i.RegN) + i.D33S*i.inS*(2*i.DirS + i.RegS)) * UC
      - i.D33S*i.RegS*i.inS*US - i.D33N*i.RegN*i.inN*UN =
      i.D33S * i.inS * (UC - US) + i.D33N * i.inN * (UC - UN) := by
    linear_combination kS + kN
  field_simp
  linear_combination (3 * i.dx ^ 2) * e

omit [CharZero K] in
theorem reg_cases (t : Int) (g c : K) (h : Ghost t g c) :
    (flag (K := K) (t != 13 && t != 11) = 1 ∧ flag (K := K) (t == 11) = 0) ∨
    (flag (K := K) (t != 13 && t != 11) = 0 ∧ flag (K := K) (t == 11) = 1 ∧ g = -c) ∨
    (flag (K := K) (t != 13 && t != 11) = 0 ∧ flag (K := K) (t == 11) = 0 ∧ g = c) := by
  by_cases h1 : t = 11
  · right; left; subst h1; exact ⟨by simp [flag], by simp [flag], h.1 rfl⟩
  · by_cases h2 : t = 13
    · right; right; subst h2; exact ⟨by simp [flag], by simp [flag], h.2 rfl⟩
    · left; exact ⟨by simp [flag, h1, h2], by simp [flag, h1]⟩

omit [CharZero K] in
theorem oop_eq (b : Bool) [CharZero K] : (1 + flag b * (1/2) : K) = if b then 3/2 else 1 := by
  cases b <;> simp [flag]; norm_num

omit [CharZero K] in
/-- Masked cell term: the flag `in` of the assembly and the air test of the strain-rate routine
select the same cells. -/
theorem cell_mask (t : Int) (h : CellOk t) (X : K) :
    flag (t == -1) * X = if t ≠ 30 ∧ t ≠ 31 then X else 0 := by
  rcases h with rfl | rfl | rfl <;> simp [flag]

omit [CharZero K] in
theorem guard_eq (b : Bool) (a x : K) (h : b = false → x = 0) :
    (if b = true then a * x else 0) = a * x := by
  cases b
  · simp [h rfl]
  · simp


omit [CharZero K] in
theorem vert_mask (t : Int) (X : K) : flag (t != 30) * X = if t ≠ 30 then X else 0 := by
  by_cases h : t = 30 <;> simp [flag, h]

omit [CharZero K] in
theorem flag_sq (b : Bool) : flag (K := K) b * flag b = flag b := by cases b <;> simp [flag]

/-- Local forms of the stresses, with the assembly's flags. -/
theorem tau_mk (m : SMesh K) (u v : Int → K) (k l : Int) (h0 : 0 ≤ k) (h1 : k < m.Nx - 1)
    (hc : CellOk (m.tp (k + l * (m.Nx - 1)))) :
    let c := k + l * ((m.Nx : Int) - 1)
    let du := (u (k + 1 + (l + 1) * m.Nx) - u (k + (l + 1) * m.Nx)) / m.dx
    let dv := (v (k + 1 + (l + 1) * (m.Nx + 1)) - v (k + 1 + l * (m.Nx + 1))) / m.dz
    tauxx m u v c = m.D11 c * flag (m.tp c == -1) *
      (du - flag m.comp / 3 * ((if m.oop then 3/2 else 1) * (du + dv))) ∧
    tauzz m u v c = m.D22 c * flag (m.tp c == -1) *
      (dv - flag m.comp / 3 * ((if m.oop then 3/2 else 1) * (du + dv))) := by
  intro c du dv
  obtain ⟨d, x, z⟩ := exxd_mk m u v k l h0 h1
  rw [oop_eq] at d
  unfold tauxx tauzz
  have hc' : CellOk (m.tp c) := hc
  rw [mul_assoc, mul_assoc, cell_mask _ hc', cell_mask _ hc']
  constructor
  · congr 1
    refine x.trans ?_
    by_cases h : m.tp c ≠ 30 ∧ m.tp c ≠ 31
    · rw [if_pos h, if_pos h]
      have : divU m u v c = _ := d
      rw [this, if_pos h]; simp only [du, dv]; ring
    · rw [if_neg h, if_neg h]
  · congr 1
    refine z.trans ?_
    by_cases h : m.tp c ≠ 30 ∧ m.tp c ≠ 31
    · rw [if_pos h, if_pos h]
      have : divU m u v c = _ := d
      rw [this, if_pos h]; simp only [du, dv]; ring
    · rw [if_neg h, if_neg h]

/-- Local form of the shear stress. -/
theorem tauxz_mk (m : SMesh K) (u v : Int → K) (k l : Int) (h0 : 0 ≤ k) (h1 : k < m.Nx) :
    tauxz m u v (k + l * m.Nx) = m.D33 (k + l * m.Nx) * flag (m.tg (k + l * m.Nx) != 30) *
      ((u (k + (l + 1) * m.Nx) - u (k + l * m.Nx)) / m.dz +
        (v (k + 1 + l * (m.Nx + 1)) - v (k + l * (m.Nx + 1))) / m.dx) := by
  unfold tauxz
  rw [mul_assoc, vert_mask, exz_mk m u v k l h0 h1]
  congr 1
  split <;> ring

variable [LinearOrder K]

omit [CharZero K] in
/-- The row applied to a field, written out (all neighbours inside the row). -/
theorem x_row_expand (m : SMesh K) (k l : Int) (u v p : Int → K) (air : AirZeroOn m u v p (xNodes m k l))
    (hw : (decide (k > 0) || (m.tu (xIdx m k l).C == -2)) = true)
    (he : (decide (k < (m.Nx : Int) - 1) || (m.tu (xIdx m k l).C == -2)) = true) :
    let i := xIdx m k l
    let a := xCoef (xIn m k l)
    applyTo (atNode u v p) (xStencil m k l ++ xStencilP m k l) =
      (a.uW * u i.W + a.uC * u i.C + a.uE * u i.E + a.uS * u i.S + a.uN * u i.N + a.vSW * v i.vSW +
       a.vSE * v i.vSE + a.vNW * v i.vNW + a.vNE * v i.vNE + xCorr m k l a.uC * u i.C +
       (a.pW * p i.pW + a.pE * p i.pE)) * (m.dx * m.dz) := by
  intro i a
  have au : ∀ i, SNode.u i ∈ xNodes m k l → (m.tu i != 30) = false → u i = 0 :=
    fun i hi h => air _ hi (by simpa [SMesh.tag] using h)
  have av : ∀ i, SNode.v i ∈ xNodes m k l → (m.tv i != 30) = false → v i = 0 :=
    fun i hi h => air _ hi (by simpa [SMesh.tag] using h)
  have ap : ∀ i, SNode.p i ∈ xNodes m k l → (m.tp i != 30) = false → p i = 0 :=
    fun i hi h => air _ hi (by simpa [SMesh.tag] using h)
  simp only [xStencil, xStencilP, applyTo_append, applyTo_guarded, hw, he, Bool.and_true, atNode]
  rw [guard_eq _ _ _ (au _ (by simp [xNodes])), guard_eq _ _ _ (au _ (by simp [xNodes])), guard_eq _ _ _ (au _ (by simp [xNodes])), guard_eq _ _ _ (au _ (by simp [xNodes])),
    guard_eq _ _ _ (au _ (by simp [xNodes])), guard_eq _ _ _ (av _ (by simp [xNodes])), guard_eq _ _ _ (av _ (by simp [xNodes])), guard_eq _ _ _ (av _ (by simp [xNodes])),
    guard_eq _ _ _ (av _ (by simp [xNodes])), guard_eq _ _ _ (ap _ (by simp [xNodes])), guard_eq _ _ _ (ap _ (by simp [xNodes]))]
  simp only [i, a]
  ring

/-- From local stress formulas to the stress balance (regular node). -/
theorem x_row_local (m : SMesh K) (k l : Int) (hdx : m.dx ≠ 0) (hdz : m.dz ≠ 0)
    (u v p : Int → K) (air : AirZeroOn m u v p (xNodes m k l))
    (hw : (decide (k > 0) || (m.tu (xIdx m k l).C == -2)) = true)
    (he : (decide (k < (m.Nx : Int) - 1) || (m.tu (xIdx m k l).C == -2)) = true)
    (hSW : (xIn m k l).SW = 0) (hSE : (xIn m k l).SE = 0)
    (gS : Ghost (m.tu (xIdx m k l).S) (u (xIdx m k l).S) (u (xIdx m k l).C))
    (gN : Ghost (m.tu (xIdx m k l).N) (u (xIdx m k l).N) (u (xIdx m k l).C))
    (sxx sxz : Int → K)
    (tE : sxx (xIdx m k l).pE = m.D11 (xIdx m k l).pE * flag (m.tp (xIdx m k l).pE == -1) *
      ((u (xIdx m k l).E - u (xIdx m k l).C) / m.dx - flag m.comp / 3 *
        ((if m.oop then 3/2 else 1) * ((u (xIdx m k l).E - u (xIdx m k l).C) / m.dx +
        (v (xIdx m k l).vNE - v (xIdx m k l).vSE) / m.dz))))
    (tW : sxx (xIdx m k l).pW = m.D11 (xIdx m k l).pW * flag (m.tp (xIdx m k l).pW == -1) *
      ((u (xIdx m k l).C - u (xIdx m k l).W) / m.dx - flag m.comp / 3 *
        ((if m.oop then 3/2 else 1) * ((u (xIdx m k l).C - u (xIdx m k l).W) / m.dx +
        (v (xIdx m k l).vNW - v (xIdx m k l).vSW) / m.dz))))
    (tN : sxz (xIdx m k l).gN = m.D33 (xIdx m k l).gN * flag (m.tg (xIdx m k l).gN != 30) *
      ((u (xIdx m k l).N - u (xIdx m k l).C) / m.dz +
        (v (xIdx m k l).vNE - v (xIdx m k l).vNW) / m.dx))
    (tS : sxz (xIdx m k l).gS = m.D33 (xIdx m k l).gS * flag (m.tg (xIdx m k l).gS != 30) *
      ((u (xIdx m k l).C - u (xIdx m k l).S) / m.dz +
        (v (xIdx m k l).vSE - v (xIdx m k l).vSW) / m.dx)) :
    let i := xIdx m k l
    let row := applyTo (atNode u v p) (xStencil m k l ++ xStencilP m k l)
    let corr := xCorr m k l (xCoef (xIn m k l)).uC
    row = -(m.dx * m.dz) * ((sxx i.pE - sxx i.pW) / m.dx + (sxz i.gN - sxz i.gS) / m.dz -
      (p i.pE - p i.pW) / m.dx - corr * u i.C) ∧
    row = xResidual m sxx sxz p 0 u k l := by
  intro i row corr
  have key := xCoef_regular (xIn m k l) hdx hdz hSW hSE (flag_sq _) (flag_sq _)
    (u i.W) (u i.C) (u i.E) (u i.S) (u i.N) (v i.vSW) (v i.vSE) (v i.vNW) (v i.vNE)
    (reg_cases _ _ _ gS) (reg_cases _ _ _ gN)
  have key' : (xCoef (xIn m k l)).uW * u i.W + (xCoef (xIn m k l)).uC * u i.C +
      (xCoef (xIn m k l)).uE * u i.E + (xCoef (xIn m k l)).uS * u i.S +
      (xCoef (xIn m k l)).uN * u i.N + (xCoef (xIn m k l)).vSW * v i.vSW +
      (xCoef (xIn m k l)).vSE * v i.vSE + (xCoef (xIn m k l)).vNW * v i.vNW +
      (xCoef (xIn m k l)).vNE * v i.vNE = -((sxx i.pE - sxx i.pW) / m.dx + (sxz i.gN - sxz i.gS) / m.dz) := by
    rw [tE, tW, tN, tS]; exact key
  have hrow := x_row_expand m k l u v p air hw he
  have pWc : (xCoef (xIn m k l)).pW = -1 / m.dx := by simp only [xCoef, hSW, zero_sub]; rfl
  have pEc : (xCoef (xIn m k l)).pE = 1 / m.dx := by simp only [xCoef, hSE, sub_zero]; rfl
  have h1 : row = -(m.dx * m.dz) * ((sxx i.pE - sxx i.pW) / m.dx + (sxz i.gN - sxz i.gS) / m.dz -
      (p i.pE - p i.pW) / m.dx - corr * u i.C) := by
    refine hrow.trans ?_
    rw [pWc, pEc]
    linear_combination (m.dx * m.dz) * key'
  refine ⟨h1, ?_⟩
  rw [h1]
  unfold xResidual
  simp only [hSW, hSE]
  ring

/-- C08, x-direction, interior node.  The assembled row applied to any velocity/pressure field
(zero in air, mirrored at walls) is minus the cell volume times (divergence of deviatoric stress
minus pressure gradient minus the stabilisation term), where stresses come from the strain-rate
routine; and it equals what the residual routine computes without body force. -/
theorem x_row_stress_balance (m : SMesh K) (k l : Int) (hdx : m.dx ≠ 0) (hdz : m.dz ≠ 0)
    (hk0 : 0 < k) (hk1 : k < m.Nx - 1) (hC : m.tu (k + l * m.Nx) = -1)
    (u v p : Int → K) (air : AirZeroOn m u v p (xNodes m k l))
    (gS : Ghost (m.tu (k + (l - 1) * m.Nx)) (u (k + (l - 1) * m.Nx)) (u (k + l * m.Nx)))
    (gN : Ghost (m.tu (k + (l + 1) * m.Nx)) (u (k + (l + 1) * m.Nx)) (u (k + l * m.Nx)))
    (cW : CellOk (m.tp (k - 1 + (l - 1) * (m.Nx - 1))))
    (cE : CellOk (m.tp (k + (l - 1) * (m.Nx - 1)))) :
    let E := k + (l - 1) * ((m.Nx : Int) - 1)
    let W := k - 1 + (l - 1) * ((m.Nx : Int) - 1)
    let N := k + l * (m.Nx : Int)
    let S := k + (l - 1) * (m.Nx : Int)
    let row := applyTo (atNode u v p) (xStencil m k l ++ xStencilP m k l)
    let corr := xCorr m k l (xCoef (xIn m k l)).uC
    row = -(m.dx * m.dz) * ((tauxx m u v E - tauxx m u v W) / m.dx +
        (tauxz m u v N - tauxz m u v S) / m.dz - (p E - p W) / m.dx - corr * u N) ∧
    row = xResidual m (tauxx m u v) (tauxz m u v) p 0 u k l := by
  intro E W N S row corr
  have hper : (m.tu (k + l * (m.Nx : Int)) == -2) = false := by simp [hC]
  have iW : (xIdx m k l).W = k - 1 + l * m.Nx := by simp only [xIdx, hper]; simp; ring
  have iE : (xIdx m k l).E = k + 1 + l * m.Nx := by simp only [xIdx]; ring
  have iS : (xIdx m k l).S = S := by simp only [xIdx, S]; ring
  have iN : (xIdx m k l).N = k + (l + 1) * m.Nx := by simp only [xIdx]; ring
  have ivSW : (xIdx m k l).vSW = k + (l - 1) * (m.Nx + 1) := by simp only [xIdx, hper]; simp; ring
  have ivSE : (xIdx m k l).vSE = k + 1 + (l - 1) * (m.Nx + 1) := by simp only [xIdx]; ring
  have ivNW : (xIdx m k l).vNW = k + l * (m.Nx + 1) := by simp only [xIdx, hper]; simp
  have ivNE : (xIdx m k l).vNE = k + 1 + l * (m.Nx + 1) := by simp only [xIdx]; ring
  have ipW : (xIdx m k l).pW = W := by simp only [xIdx, hper, W]; simp
  have ipE : (xIdx m k l).pE = E := by simp only [xIdx, E]; ring
  have igS : (xIdx m k l).gS = S := by simp only [xIdx, S]; ring
  have iC : (xIdx m k l).C = N := rfl
  have igN : (xIdx m k l).gN = N := rfl
  have tE := (tau_mk m u v k (l - 1) (by omega) hk1 cE).1
  have tW := (tau_mk m u v (k - 1) (l - 1) (by omega) (by omega) cW).1
  have tN := tauxz_mk m u v k l (by omega) (by omega)
  have tS := tauxz_mk m u v k (l - 1) (by omega) (by omega)
  rw [show l - 1 + 1 = l by ring] at tE tW tS
  rw [show k - 1 + 1 = k by ring] at tW
  have res := x_row_local m k l hdx hdz u v p air (by simp [hk0]) (by simp [hk1])
    (by simp [xIn, flag]; omega) (by simp [xIn, flag]; omega) (by rw [iS]; exact gS)
    (by rw [iN]; exact gN) (tauxx m u v) (tauxz m u v)
    (by rw [ipE, iE, iC, ivNE, ivSE]; exact tE)
    (by rw [ipW, iW, iC, ivNW, ivSW]; exact tW)
    (by rw [igN, iN, iC, ivNE, ivNW]; exact tN)
    (by rw [igS, iS, iC, ivSE, ivSW]; exact tS)
  simp only [ipE, ipW, igN, igS, iC] at res
  exact res

/-- C08, x-direction, west node of a periodic pair (tag -2): the same balance, with the west
stress taken from the last cell of the row. -/
theorem x_row_stress_balance_periodic (m : SMesh K) (l : Int) (hdx : m.dx ≠ 0) (hdz : m.dz ≠ 0)
    (hNx : 2 ≤ m.Nx) (hC : m.tu (0 + l * m.Nx) = -2)
    (u v p : Int → K) (air : AirZeroOn m u v p (xNodes m 0 l))
    (perU : u (m.Nx - 1 + l * m.Nx) = u (0 + l * m.Nx))
    (perV : v (0 + l * (m.Nx + 1)) = v (m.Nx - 1 + l * (m.Nx + 1)))
    (perV' : v (0 + (l - 1) * (m.Nx + 1)) = v (m.Nx - 1 + (l - 1) * (m.Nx + 1)))
    (gS : Ghost (m.tu (0 + (l - 1) * m.Nx)) (u (0 + (l - 1) * m.Nx)) (u (0 + l * m.Nx)))
    (gN : Ghost (m.tu (0 + (l + 1) * m.Nx)) (u (0 + (l + 1) * m.Nx)) (u (0 + l * m.Nx)))
    (cW : CellOk (m.tp (m.Nx - 2 + (l - 1) * (m.Nx - 1))))
    (cE : CellOk (m.tp (0 + (l - 1) * (m.Nx - 1)))) :
    let E := 0 + (l - 1) * ((m.Nx : Int) - 1)
    let W := m.Nx - 2 + (l - 1) * ((m.Nx : Int) - 1)
    let N := 0 + l * (m.Nx : Int)
    let S := 0 + (l - 1) * (m.Nx : Int)
    let row := applyTo (atNode u v p) (xStencil m 0 l ++ xStencilP m 0 l)
    let corr := xCorr m 0 l (xCoef (xIn m 0 l)).uC
    row = -(m.dx * m.dz) * ((tauxx m u v E - tauxx m u v W) / m.dx +
        (tauxz m u v N - tauxz m u v S) / m.dz - (p E - p W) / m.dx - corr * u N) ∧
    row = xResidual m (tauxx m u v) (tauxz m u v) p 0 u 0 l := by
  intro E W N S row corr
  have hper : (m.tu (0 + l * (m.Nx : Int)) == -2) = true := by simp only [hC]; decide
  have iW : (xIdx m 0 l).W = m.Nx - 2 + l * m.Nx := by simp only [xIdx, hper, if_true]; ring
  have iE : (xIdx m 0 l).E = 0 + 1 + l * m.Nx := by simp only [xIdx]; ring
  have iS : (xIdx m 0 l).S = S := by simp only [xIdx, S]; ring
  have iN : (xIdx m 0 l).N = 0 + (l + 1) * m.Nx := by simp only [xIdx]; ring
  have ivSW : (xIdx m 0 l).vSW = m.Nx - 1 + (l - 1) * (m.Nx + 1) := by
    simp only [xIdx, hper, if_true]; ring
  have ivSE : (xIdx m 0 l).vSE = 0 + 1 + (l - 1) * (m.Nx + 1) := by simp only [xIdx]; ring
  have ivNW : (xIdx m 0 l).vNW = m.Nx - 1 + l * (m.Nx + 1) := by
    simp only [xIdx, hper, if_true]; ring
  have ivNE : (xIdx m 0 l).vNE = 0 + 1 + l * (m.Nx + 1) := by simp only [xIdx]; ring
  have ipW : (xIdx m 0 l).pW = W := by simp only [xIdx, hper, W, if_true]; ring
  have ipE : (xIdx m 0 l).pE = E := by simp only [xIdx, E]; ring
  have igS : (xIdx m 0 l).gS = S := by simp only [xIdx, S]; ring
  have iC : (xIdx m 0 l).C = N := rfl
  have igN : (xIdx m 0 l).gN = N := rfl
  have tE := (tau_mk m u v 0 (l - 1) (by omega) (by omega) cE).1
  have tW := (tau_mk m u v (m.Nx - 2) (l - 1) (by omega) (by omega) cW).1
  have tN := tauxz_mk m u v 0 l (by omega) (by omega)
  have tS := tauxz_mk m u v 0 (l - 1) (by omega) (by omega)
  rw [show l - 1 + 1 = l by ring] at tE tW tS
  rw [show (m.Nx : Int) - 2 + 1 = m.Nx - 1 by ring, perU] at tW
  rw [perV] at tN
  rw [perV'] at tS
  have res := x_row_local m 0 l hdx hdz u v p air (Bool.or_eq_true_iff.2 (Or.inr hper))
    (Bool.or_eq_true_iff.2 (Or.inr hper))
    (by simp only [xIn, hC]; simp [flag]) (by simp only [xIn, hC]; simp [flag])
    (by rw [iS]; exact gS) (by rw [iN]; exact gN) (tauxx m u v) (tauxz m u v)
    (by rw [ipE, iE, iC, ivNE, ivSE]; exact tE)
    (by rw [ipW, iW, iC, ivNW, ivSW]; exact tW)
    (by rw [igN, iN, iC, ivNE, ivNW]; exact tN)
    (by rw [igS, iS, iC, ivSE, ivSW]; exact tS)
  simp only [ipE, ipW, igN, igS, iC] at res
  exact res

/-! ### z-direction -/

omit [LinearOrder K] in
/-- The coefficient identity of a regular z-row. -/
theorem zCoef_regular (i : ZIn K) (hdx : i.dx ≠ 0) (hdz : i.dz ≠ 0) (hSS : i.SS = 0)
    (hSN : i.SN = 0) (VW VC VE VS VN USW USE UNW UNE : K)
    (hW : (i.RegW = 1 ∧ i.DirW = 0) ∨ (i.RegW = 0 ∧ i.DirW = 1 ∧ VW = -VC) ∨
      (i.RegW = 0 ∧ i.DirW = 0 ∧ VW = VC))
    (hE : (i.RegE = 1 ∧ i.DirE = 0) ∨ (i.RegE = 0 ∧ i.DirE = 1 ∧ VE = -VC) ∨
      (i.RegE = 0 ∧ i.DirE = 0 ∧ VE = VC)) :
    let a := zCoef i
    a.vW * VW + a.vC * VC + a.vE * VE + a.vS * VS + a.vN * VN + a.uSW * USW + a.uSE * USE +
      a.uNW * UNW + a.uNE * UNE =
    -((i.D22N * ((VN - VC) / i.dz - i.comp / 3 * (i.OOP * ((UNE - UNW) / i.dx +
        (VN - VC) / i.dz))) -
       i.D22S * ((VC - VS) / i.dz - i.comp / 3 * (i.OOP * ((USE - USW) / i.dx +
        (VC - VS) / i.dz)))) / i.dz +
      (i.D33E * i.inE * ((UNE - USE) / i.dz + (VE - VC) / i.dx) -
       i.D33W * i.inW * ((UNW - USW) / i.dz + (VC - VW) / i.dx)) / i.dx) := by
  intro a
  have h6 : (6 : K) ≠ 0 := by norm_num
  have h3 : (3 : K) ≠ 0 := by norm_num
  have h2 : (2 : K) ≠ 0 := by norm_num
  have avS : a.vS = (1/3)*i.D22S*(i.OOP*i.comp - 3)/i.dz^2 := by
    simp only [a, zCoef, hSS, hSN]; ring
  have avN : a.vN = (1/3)*i.D22N*(i.OOP*i.comp - 3)/i.dz^2 := by
    simp only [a, zCoef, hSS, hSN]; ring
  have avC : a.vC = ((i.D33E*i.inE*(2*i.DirE + i.RegE) + i.D33W*i.inW*(2*i.DirW + i.RegW))*i.dz^2
      - (1/3)*(i.D22N + i.D22S)*(i.OOP*i.comp - 3)*i.dx^2)/(i.dx^2*i.dz^2) := by
    simp only [a, zCoef, hSS, hSN]; ring
  have avW : a.vW = -(i.D33W*i.RegW*i.inW)/i.dx^2 := by
    simp only [a, zCoef, hSS, hSN]; field_simp; ring
  have avE : a.vE = -(i.D33E*i.RegE*i.inE)/i.dx^2 := by
    simp only [a, zCoef, hSS, hSN]; field_simp; ring
  have auSW : a.uSW = (1/3)*(i.D22S*i.OOP*i.comp - 3*i.D33W*i.inW)/(i.dx*i.dz) := by
    simp only [a, zCoef, hSS, hSN]; field_simp; ring
  have auSE : a.uSE = -(1/3)*(i.D22S*i.OOP*i.comp - 3*i.D33E*i.inE)/(i.dx*i.dz) := by
    simp only [a, zCoef, hSS, hSN]; field_simp; ring
  have auNW : a.uNW = -(1/3)*(i.D22N*i.OOP*i.comp - 3*i.D33W*i.inW)/(i.dx*i.dz) := by
    simp only [a, zCoef, hSS, hSN]; field_simp; ring
  have auNE : a.uNE = (1/3)*(i.D22N*i.OOP*i.comp - 3*i.D33E*i.inE)/(i.dx*i.dz) := by
    simp only [a, zCoef, hSS, hSN]; field_simp; ring
  rw [avS, avN, avC, avW, avE, auSW, auSE, auNW, auNE]
  have key : ∀ (Reg Dir V D : K), ((Reg = 1 ∧ Dir = 0) ∨ (Reg = 0 ∧ Dir = 1 ∧ V = -VC) ∨
      (Reg = 0 ∧ Dir = 0 ∧ V = VC)) → D * (2 * Dir + Reg) * VC - D * Reg * V = D * (VC - V) := by
    rintro Reg Dir V D (⟨rfl, rfl⟩ | ⟨rfl, rfl, rfl⟩ | ⟨rfl, rfl, rfl⟩) <;> ring
  have kW := key _ _ _ (i.D33W * i.inW) hW
  have kE := key _ _ _ (i.D33E * i.inE) hE
  have e : (i.D33E*i.inE*(2*i.DirE + i.RegE) + i.D33W*i.inW*(2*i.DirW + i.RegW)) * VC
      - i.D33W*i.RegW*i.inW*VW - i.D33E*i.RegE*i.inE*VE =
      i.D33W * i.inW * (VC - VW) + i.D33E * i.inE * (VC - VE) := by
    linear_combination kW + kE
  field_simp
  linear_combination (3 * i.dz ^ 2) * e

omit [CharZero K] in
/-- The z-row applied to a field, written out. -/
theorem z_row_expand (m : SMesh K) (k l : Int) (u v p : Int → K) (air : AirZeroOn m u v p (zNodes m k l))
    (hl0 : 0 < l) (hl1 : l < m.Nz - 1) :
    let i := zIdx m k l
    let a := zCoef (zIn m k l)
    applyTo (atNode u v p) (zStencil m k l ++ zStencilP m k l) =
      (a.vW * v i.W + a.vC * v i.C + a.vE * v i.E + a.vS * v i.S + a.vN * v i.N + a.uSW * u i.uSW +
       a.uSE * u i.uSE + a.uNW * u i.uNW + a.uNE * u i.uNE + zCorr m k l a * v i.C +
       (a.pS * p i.pS + a.pN * p i.pN)) * (m.dx * m.dz) := by
  intro i a
  have au : ∀ i, SNode.u i ∈ zNodes m k l → (m.tu i != 30) = false → u i = 0 :=
    fun i hi h => air _ hi (by simpa [SMesh.tag] using h)
  have av : ∀ i, SNode.v i ∈ zNodes m k l → (m.tv i != 30) = false → v i = 0 :=
    fun i hi h => air _ hi (by simpa [SMesh.tag] using h)
  have ap : ∀ i, SNode.p i ∈ zNodes m k l → (m.tp i != 30) = false → p i = 0 :=
    fun i hi h => air _ hi (by simpa [SMesh.tag] using h)
  have hs : decide (l > 0) = true := by simp [hl0]
  have hn : decide (l < (m.Nz : Int) - 1) = true := by simp [hl1]
  simp only [zStencil, zStencilP, applyTo_append, applyTo_guarded, hs, hn, Bool.and_true, atNode]
  rw [guard_eq _ _ _ (au _ (by simp [zNodes])), guard_eq _ _ _ (au _ (by simp [zNodes])), guard_eq _ _ _ (au _ (by simp [zNodes])), guard_eq _ _ _ (au _ (by simp [zNodes])),
    guard_eq _ _ _ (av _ (by simp [zNodes])), guard_eq _ _ _ (av _ (by simp [zNodes])), guard_eq _ _ _ (av _ (by simp [zNodes])), guard_eq _ _ _ (av _ (by simp [zNodes])),
    guard_eq _ _ _ (av _ (by simp [zNodes])), guard_eq _ _ _ (ap _ (by simp [zNodes])), guard_eq _ _ _ (ap _ (by simp [zNodes]))]
  simp only [i, a]
  ring

/-- C08, z-direction, with the requirement on the normal-stress coefficient only at the two cells of the row. -/
theorem z_row_stress_balance_local (m : SMesh K) (k l : Int) (hdx : m.dx ≠ 0) (hdz : m.dz ≠ 0)
    (hk0 : 0 < k) (hk1 : k < m.Nx) (hl0 : 0 < l) (hl1 : l < m.Nz - 1)
    (u v p : Int → K) (air : AirZeroOn m u v p (zNodes m k l))
    (hDS : m.tp (k - 1 + (l - 1) * (m.Nx - 1)) ≠ -1 → m.D22 (k - 1 + (l - 1) * (m.Nx - 1)) = 0)
    (hDN : m.tp (k - 1 + l * (m.Nx - 1)) ≠ -1 → m.D22 (k - 1 + l * (m.Nx - 1)) = 0)
    (perW : k = 1 → m.tv (k - 1 + l * (m.Nx + 1)) = -12 →
      v (k - 1 + l * (m.Nx + 1)) = v (m.Nx - 1 + l * (m.Nx + 1)))
    (perE : k = m.Nx - 1 → m.tv (k + 1 + l * (m.Nx + 1)) = -12 →
      v (k + 1 + l * (m.Nx + 1)) = v (1 + l * (m.Nx + 1)))
    (gW : Ghost (m.tv (zIdx m k l).W) (v (zIdx m k l).W) (v (k + l * (m.Nx + 1))))
    (gE : Ghost (m.tv (zIdx m k l).E) (v (zIdx m k l).E) (v (k + l * (m.Nx + 1))))
    (cS : CellOk (m.tp (k - 1 + (l - 1) * (m.Nx - 1))))
    (cN : CellOk (m.tp (k - 1 + l * (m.Nx - 1)))) :
    let N := k - 1 + l * ((m.Nx : Int) - 1)
    let S := k - 1 + (l - 1) * ((m.Nx : Int) - 1)
    let E := k + l * (m.Nx : Int)
    let W := k - 1 + l * (m.Nx : Int)
    let C := k + l * ((m.Nx : Int) + 1)
    let row := applyTo (atNode u v p) (zStencil m k l ++ zStencilP m k l)
    let corr := zCorr m k l (zCoef (zIn m k l))
    row = -(m.dx * m.dz) * ((tauzz m u v N - tauzz m u v S) / m.dz +
        (tauxz m u v E - tauxz m u v W) / m.dx - (p N - p S) / m.dz - corr * v C) ∧
    row = zResidual m (tauzz m u v) (tauxz m u v) p 0 v k l := by
  intro N S E W C row corr
  have iW : v (zIdx m k l).W = v (k - 1 + l * (m.Nx + 1)) := by
    simp only [zIdx]
    split
    · rename_i h
      simp only [Bool.and_eq_true, beq_iff_eq] at h
      rw [perW h.2 (by rw [← h.1]; congr 1; ring)]
      congr 1; rw [h.2]; ring
    · congr 1; ring
  have iE : v (zIdx m k l).E = v (k + 1 + l * (m.Nx + 1)) := by
    simp only [zIdx]
    split
    · rename_i h
      simp only [Bool.and_eq_true, beq_iff_eq] at h
      have hk : k = m.Nx - 1 := by omega
      rw [perE hk (by rw [← h.1]; congr 1; ring)]
      congr 1; rw [hk]; ring
    · congr 1; ring
  have iS : (zIdx m k l).S = k + (l - 1) * (m.Nx + 1) := by simp only [zIdx]; ring
  have iN : (zIdx m k l).N = k + (l + 1) * (m.Nx + 1) := by simp only [zIdx]; ring
  have iuSW : (zIdx m k l).uSW = k - 1 + l * m.Nx := by simp only [zIdx]; ring
  have iuSE : (zIdx m k l).uSE = k + l * m.Nx := by simp only [zIdx]
  have iuNW : (zIdx m k l).uNW = k - 1 + (l + 1) * m.Nx := by simp only [zIdx]; ring
  have iuNE : (zIdx m k l).uNE = k + (l + 1) * m.Nx := by simp only [zIdx]; ring
  have ipS : (zIdx m k l).pS = S := by simp only [zIdx, S]
  have ipN : (zIdx m k l).pN = N := by simp only [zIdx, N]; ring
  have igW : (zIdx m k l).gW = W := by simp only [zIdx, W]; ring
  have iC : (zIdx m k l).C = C := rfl
  have igE : (zIdx m k l).gE = E := rfl
  have hSS : (zIn m k l).SS = 0 := by
    have : (l == 0) = false := by simp; omega
    simp only [zIn, this, Bool.false_and, flag]; simp
  have hSN : (zIn m k l).SN = 0 := by
    have : (l == (m.Nz : Int) - 1) = false := by simp; omega
    simp only [zIn, this, Bool.false_and, flag]; simp
  have tN := (tau_mk m u v (k - 1) l (by omega) (by omega) cN).2
  have tS := (tau_mk m u v (k - 1) (l - 1) (by omega) (by omega) cS).2
  have tE := tauxz_mk m u v k l (by omega) (by omega)
  have tW := tauxz_mk m u v (k - 1) l (by omega) (by omega)
  rw [show l - 1 + 1 = l by ring] at tS
  rw [show k - 1 + 1 = k by ring] at tN tS tW
  have hDflag : ∀ c, (m.tp c ≠ -1 → m.D22 c = 0) → m.D22 c * flag (m.tp c == -1) = m.D22 c := by
    intro c hD
    by_cases h : m.tp c = -1
    · simp [flag, h]
    · rw [hD h]; ring
  rw [hDflag _ hDN] at tN
  rw [hDflag _ hDS] at tS
  have key := zCoef_regular (zIn m k l) hdx hdz hSS hSN
    (v (zIdx m k l).W) (v C) (v (zIdx m k l).E) (v (zIdx m k l).S) (v (zIdx m k l).N)
    (u (zIdx m k l).uSW) (u (zIdx m k l).uSE) (u (zIdx m k l).uNW) (u (zIdx m k l).uNE)
    (reg_cases _ _ _ gW) (reg_cases _ _ _ gE)
  have key' : (zCoef (zIn m k l)).vW * v (zIdx m k l).W + (zCoef (zIn m k l)).vC * v C +
      (zCoef (zIn m k l)).vE * v (zIdx m k l).E + (zCoef (zIn m k l)).vS * v (zIdx m k l).S +
      (zCoef (zIn m k l)).vN * v (zIdx m k l).N + (zCoef (zIn m k l)).uSW * u (zIdx m k l).uSW +
      (zCoef (zIn m k l)).uSE * u (zIdx m k l).uSE +
      (zCoef (zIn m k l)).uNW * u (zIdx m k l).uNW +
      (zCoef (zIn m k l)).uNE * u (zIdx m k l).uNE =
      -((tauzz m u v N - tauzz m u v S) / m.dz + (tauxz m u v E - tauxz m u v W) / m.dx) := by
    have tN' : tauzz m u v N = _ := tN
    have tS' : tauzz m u v S = _ := tS
    have tE' : tauxz m u v E = _ := tE
    have tW' : tauxz m u v W = _ := tW
    rw [tN', tS', tE', tW']
    refine key.trans ?_
    simp only [iW, iE, iS, iN, iuSW, iuSE, iuNW, iuNE, zIn, ipS, ipN, igE, igW]
    rfl
  have hrow := z_row_expand m k l u v p air hl0 hl1
  have pSc : (zCoef (zIn m k l)).pS = -1 / m.dz := by simp only [zCoef, hSS, zero_sub]; rfl
  have pNc : (zCoef (zIn m k l)).pN = 1 / m.dz := by simp only [zCoef, hSN, sub_zero]; rfl
  have h1 : row = -(m.dx * m.dz) * ((tauzz m u v N - tauzz m u v S) / m.dz +
        (tauxz m u v E - tauxz m u v W) / m.dx - (p N - p S) / m.dz - corr * v C) := by
    refine hrow.trans ?_
    rw [pSc, pNc, ipS, ipN, iC]
    linear_combination (m.dx * m.dz) * key'
  refine ⟨h1, ?_⟩
  rw [h1]
  unfold zResidual
  simp only [hSS, hSN, ipS, ipN, igW, igE, iC]
  ring

/-- C08, z-direction.  The assembled row applied to any velocity/pressure field (zero in air,
mirrored or periodic at the sides; normal-stress coefficient zero in air cells) is minus the cell
volume times (divergence of deviatoric stress minus pressure gradient minus the stabilisation
term), and it equals what the residual routine computes without body force. -/
theorem z_row_stress_balance (m : SMesh K) (k l : Int) (hdx : m.dx ≠ 0) (hdz : m.dz ≠ 0)
    (hk0 : 0 < k) (hk1 : k < m.Nx) (hl0 : 0 < l) (hl1 : l < m.Nz - 1)
    (u v p : Int → K) (air : AirZeroOn m u v p (zNodes m k l))
    (hD : ∀ c, m.tp c ≠ -1 → m.D22 c = 0)
    (perW : k = 1 → m.tv (k - 1 + l * (m.Nx + 1)) = -12 →
      v (k - 1 + l * (m.Nx + 1)) = v (m.Nx - 1 + l * (m.Nx + 1)))
    (perE : k = m.Nx - 1 → m.tv (k + 1 + l * (m.Nx + 1)) = -12 →
      v (k + 1 + l * (m.Nx + 1)) = v (1 + l * (m.Nx + 1)))
    (gW : Ghost (m.tv (zIdx m k l).W) (v (zIdx m k l).W) (v (k + l * (m.Nx + 1))))
    (gE : Ghost (m.tv (zIdx m k l).E) (v (zIdx m k l).E) (v (k + l * (m.Nx + 1))))
    (cS : CellOk (m.tp (k - 1 + (l - 1) * (m.Nx - 1))))
    (cN : CellOk (m.tp (k - 1 + l * (m.Nx - 1)))) :
    let N := k - 1 + l * ((m.Nx : Int) - 1)
    let S := k - 1 + (l - 1) * ((m.Nx : Int) - 1)
    let E := k + l * (m.Nx : Int)
    let W := k - 1 + l * (m.Nx : Int)
    let C := k + l * ((m.Nx : Int) + 1)
    let row := applyTo (atNode u v p) (zStencil m k l ++ zStencilP m k l)
    let corr := zCorr m k l (zCoef (zIn m k l))
    row = -(m.dx * m.dz) * ((tauzz m u v N - tauzz m u v S) / m.dz +
        (tauxz m u v E - tauxz m u v W) / m.dx - (p N - p S) / m.dz - corr * v C) ∧
    row = zResidual m (tauzz m u v) (tauxz m u v) p 0 v k l :=
  z_row_stress_balance_local m k l hdx hdz hk0 hk1 hl0 hl1 u v p air (hD _) (hD _) perW perE gW gE cS cN

end CharZero
end Verif
