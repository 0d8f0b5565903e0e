import Verif.Props.Stencil

/- C08 on stress boundaries (tag 2), and C09: rigid motions. -/
namespace Verif
variable {K : Type*} [Field K] [CharZero K]

/-- Ghost value next to a stress boundary: no-slip ghosts (11) mirror with opposite sign, every
other ghost mirrors. -/
def SideGhost (t : Int) (g c : K) : Prop := (t = 11 → g = -c) ∧ (t ≠ 11 → g = c)

omit [CharZero K] in
theorem side_eq (t : Int) (g c : K) (h : SideGhost t g c) : g = (1 - 2 * flag (t == 11)) * c := by
  by_cases ht : t = 11
  · rw [h.1 ht]; simp [flag, ht]; ring
  · rw [h.2 ht]; simp [flag, ht]

omit [CharZero K] in
theorem wall_key (Reg Dir U UC D : K) (h : (Reg = 1 ∧ Dir = 0) ∨ (Reg = 0 ∧ Dir = 1 ∧ U = -UC) ∨
      (Reg = 0 ∧ Dir = 0 ∧ U = UC)) : D * (2 * Dir + Reg) * UC - D * Reg * U = D * (UC - U) := by
  rcases h with ⟨rfl, rfl⟩ | ⟨rfl, rfl, rfl⟩ | ⟨rfl, rfl, rfl⟩ <;> ring

/-- Coefficient identity of an x-row on a west stress boundary. -/
theorem xCoef_west (i : XIn K) (hdx : i.dx ≠ 0) (hdz : i.dz ≠ 0) (hSW : i.SW = 1)
    (hSE : i.SE = 0) (hiE : i.inE * i.inE = i.inE) (UC UE US UN VSW VSE VNW VNE : K)
    (hS : (i.RegS = 1 ∧ i.DirS = 0) ∨ (i.RegS = 0 ∧ i.DirS = 1 ∧ US = -UC) ∨
      (i.RegS = 0 ∧ i.DirS = 0 ∧ US = UC))
    (hN : (i.RegN = 1 ∧ i.DirN = 0) ∨ (i.RegN = 0 ∧ i.DirN = 1 ∧ UN = -UC) ∨
      (i.RegN = 0 ∧ i.DirN = 0 ∧ UN = UC))
    (hVS : VSW = (1 - 2 * i.DirSW) * VSE) (hVN : VNW = (1 - 2 * i.DirNW) * VNE) :
    let a := xCoef i
    a.uC * UC + a.uE * UE + a.uS * US + a.uN * UN + a.vSE * VSE + a.vNE * VNE =
    -(i.D11E * i.inE * ((UE - UC) / i.dx - i.comp / 3 * (i.OOP * ((UE - UC) / i.dx +
        (VNE - VSE) / i.dz))) / i.dx +
      (1/2) * (i.D33N * i.inN * ((UN - UC) / i.dz + (VNE - VNW) / i.dx) -
       i.D33S * i.inS * ((UC - US) / i.dz + (VSE - VSW) / i.dx)) / i.dz) := by
  intro a
  have h6 : (6 : K) ≠ 0 := by norm_num
  have h3 : (3 : K) ≠ 0 := by norm_num
  have h2 : (2 : K) ≠ 0 := by norm_num
  have hiE2 : i.inE ^ 2 = i.inE := by rw [pow_two]; exact hiE
  have cE : i.inE * (i.OOP * i.comp * i.inE - 3) = i.inE * (i.OOP * i.comp - 3) := by
    linear_combination (i.OOP * i.comp) * hiE
  have auE : a.uE = (1/3)*i.D11E*(i.inE*(i.OOP*i.comp - 3))/i.dx^2 := by
    simp only [a, xCoef, hSW, hSE]; rw [← cE]; ring
  have auC : a.uC = ((1/2)*(i.D33N*i.inN*(2*i.DirN + i.RegN) + i.D33S*i.inS*(2*i.DirS + i.RegS))*i.dx^2
      - (1/3)*(i.D11E*(i.inE*(i.OOP*i.comp - 3)))*i.dz^2)/(i.dx^2*i.dz^2) := by
    simp only [a, xCoef, hSW, hSE]; rw [← cE]; ring
  have auS : a.uS = -(1/2)*(i.D33S*i.RegS*i.inS)/i.dz^2 := by
    simp only [a, xCoef, hSW, hSE]; ring
  have auN : a.uN = -(1/2)*(i.D33N*i.RegN*i.inN)/i.dz^2 := by
    simp only [a, xCoef, hSW, hSE]; ring
  have avSE : a.vSE = (-(1/3)*i.D11E*i.OOP*i.comp*i.inE + i.D33S*i.inS*i.DirSW)/(i.dx*i.dz) := by
    simp only [a, xCoef, hSW, hSE, hiE2]; ring
  have avNE : a.vNE = ((1/3)*i.D11E*i.OOP*i.comp*i.inE - i.D33N*i.inN*i.DirNW)/(i.dx*i.dz) := by
    simp only [a, xCoef, hSW, hSE, hiE2]; ring
  rw [auE, auC, auS, auN, avSE, avNE, hVS, hVN]
  have kS := wall_key _ _ _ _ (i.D33S * i.inS) hS
  have kN := wall_key _ _ _ _ (i.D33N * i.inN) hN
  have e : (i.D33N*i.inN*(2*i.DirN + i.RegN) + i.D33S*i.inS*(2*i.DirS + i.RegS)) * UC
      - i.D33S*i.RegS*i.inS*US - i.D33N*i.RegN*i.inN*UN =
      i.D33S * i.inS * (UC - US) + i.D33N * i.inN * (UC - UN) := by
    linear_combination kS + kN
  field_simp
  linear_combination (3 * i.dx ^ 2) * e

/-- Coefficient identity of an x-row on an east stress boundary. -/
theorem xCoef_east (i : XIn K) (hdx : i.dx ≠ 0) (hdz : i.dz ≠ 0) (hSW : i.SW = 0)
    (hSE : i.SE = 1) (hiW : i.inW * i.inW = i.inW) (UC UW US UN VSW VSE VNW VNE : K)
    (hS : (i.RegS = 1 ∧ i.DirS = 0) ∨ (i.RegS = 0 ∧ i.DirS = 1 ∧ US = -UC) ∨
      (i.RegS = 0 ∧ i.DirS = 0 ∧ US = UC))
    (hN : (i.RegN = 1 ∧ i.DirN = 0) ∨ (i.RegN = 0 ∧ i.DirN = 1 ∧ UN = -UC) ∨
      (i.RegN = 0 ∧ i.DirN = 0 ∧ UN = UC))
    (hVS : VSE = (1 - 2 * i.DirSE) * VSW) (hVN : VNE = (1 - 2 * i.DirNE) * VNW) :
    let a := xCoef i
    a.uC * UC + a.uW * UW + a.uS * US + a.uN * UN + a.vSW * VSW + a.vNW * VNW =
    -(-(i.D11W * i.inW * ((UC - UW) / i.dx - i.comp / 3 * (i.OOP * ((UC - UW) / i.dx +
        (VNW - VSW) / i.dz)))) / i.dx +
      (1/2) * (i.D33N * i.inN * ((UN - UC) / i.dz + (VNE - VNW) / i.dx) -
       i.D33S * i.inS * ((UC - US) / i.dz + (VSE - VSW) / i.dx)) / i.dz) := by
  intro a
  have h6 : (6 : K) ≠ 0 := by norm_num
  have h3 : (3 : K) ≠ 0 := by norm_num
  have h2 : (2 : K) ≠ 0 := by norm_num
  have hiW2 : i.inW ^ 2 = i.inW := by rw [pow_two]; exact hiW
  have cW : i.inW * (i.OOP * i.comp * i.inW - 3) = i.inW * (i.OOP * i.comp - 3) := by
    linear_combination (i.OOP * i.comp) * hiW
  have auW : a.uW = (1/3)*i.D11W*(i.inW*(i.OOP*i.comp - 3))/i.dx^2 := by
    simp only [a, xCoef, hSW, hSE]; rw [← cW]; ring
  have auC : a.uC = ((1/2)*(i.D33N*i.inN*(2*i.DirN + i.RegN) + i.D33S*i.inS*(2*i.DirS + i.RegS))*i.dx^2
      - (1/3)*(i.D11W*(i.inW*(i.OOP*i.comp - 3)))*i.dz^2)/(i.dx^2*i.dz^2) := by
    simp only [a, xCoef, hSW, hSE]; rw [← cW]; ring
  have auS : a.uS = -(1/2)*(i.D33S*i.RegS*i.inS)/i.dz^2 := by
    simp only [a, xCoef, hSW, hSE]; ring
  have auN : a.uN = -(1/2)*(i.D33N*i.RegN*i.inN)/i.dz^2 := by
    simp only [a, xCoef, hSW, hSE]; ring
  have avSW : a.vSW = ((1/3)*i.D11W*i.OOP*i.comp*i.inW - i.D33S*i.inS*i.DirSE)/(i.dx*i.dz) := by
    simp only [a, xCoef, hSW, hSE, hiW2]; ring
  have avNW : a.vNW = (-(1/3)*i.D11W*i.OOP*i.comp*i.inW + i.D33N*i.inN*i.DirNE)/(i.dx*i.dz) := by
    simp only [a, xCoef, hSW, hSE, hiW2]; ring
  rw [auW, auC, auS, auN, avSW, avNW, hVS, hVN]
  have kS := wall_key _ _ _ _ (i.D33S * i.inS) hS
  have kN := wall_key _ _ _ _ (i.D33N * i.inN) hN
  have e : (i.D33N*i.inN*(2*i.DirN + i.RegN) + i.D33S*i.inS*(2*i.DirS + i.RegS)) * UC
      - i.D33S*i.RegS*i.inS*US - i.D33N*i.RegN*i.inN*UN =
      i.D33S * i.inS * (UC - US) + i.D33N * i.inN * (UC - UN) := by
    linear_combination kS + kN
  field_simp
  linear_combination (3 * i.dx ^ 2) * e

variable [LinearOrder K]

/-- C08 on a west stress boundary (first column, tag 2): the assembled row plus the boundary
traction term is exactly the residual routine's value, for every field, whatever the memory
outside the arrays contains. -/
theorem x_row_stress_west (m : SMesh K) (l : Int) (hdx : m.dx ≠ 0) (hdz : m.dz ≠ 0)
    (hNx : 2 ≤ m.Nx) (hC : m.tu (0 + l * m.Nx) = 2)
    (u v p : Int → K) (air : AirZero m u v p)
    (gS : Ghost (m.tu (0 + (l - 1) * m.Nx)) (u (0 + (l - 1) * m.Nx)) (u (0 + l * m.Nx)))
    (gN : Ghost (m.tu (0 + (l + 1) * m.Nx)) (u (0 + (l + 1) * m.Nx)) (u (0 + l * m.Nx)))
    (sN : SideGhost (m.tv (0 + l * (m.Nx + 1))) (v (0 + l * (m.Nx + 1)))
      (v (0 + 1 + l * (m.Nx + 1))))
    (sS : SideGhost (m.tv (0 + (l - 1) * (m.Nx + 1))) (v (0 + (l - 1) * (m.Nx + 1)))
      (v (0 + 1 + (l - 1) * (m.Nx + 1))))
    (cE : CellOk (m.tp (0 + (l - 1) * (m.Nx - 1)))) :
    applyTo (atNode u v p) (xStencil m 0 l ++ xStencilP m 0 l) +
      m.dx * m.dz * m.bu (0 + l * m.Nx) / m.dx =
    xResidual m (tauxx m u v) (tauxz m u v) p 0 u 0 l := by
  have h2 : (2 : K) ≠ 0 := by norm_num
  have hper : (m.tu (0 + l * (m.Nx : Int)) == -2) = false := by simp only [hC]; decide
  set E := 0 + (l - 1) * ((m.Nx : Int) - 1)
  set N := 0 + l * (m.Nx : Int) with hN
  set S := 0 + (l - 1) * (m.Nx : Int) with hS
  have iE : (xIdx m 0 l).E = 0 + 1 + l * m.Nx := by simp only [xIdx]; ring
  have iS : (xIdx m 0 l).S = S := by simp only [xIdx, S]; ring
  have iN : (xIdx m 0 l).N = 0 + (l + 1) * m.Nx := by simp only [xIdx]; ring
  have ivSE : (xIdx m 0 l).vSE = 0 + 1 + (l - 1) * (m.Nx + 1) := by simp only [xIdx]; ring
  have ivNE : (xIdx m 0 l).vNE = 0 + 1 + l * (m.Nx + 1) := by simp only [xIdx]; ring
  have ipE : (xIdx m 0 l).pE = E := by simp only [xIdx, E]; ring
  have igS : (xIdx m 0 l).gS = S := by simp only [xIdx, S]; ring
  have iC : (xIdx m 0 l).C = N := rfl
  have igN : (xIdx m 0 l).gN = N := rfl
  have hSW : (xIn m 0 l).SW = 1 := by
    have : m.tu (l * (m.Nx : Int)) = 2 := by rw [← hC, hN]; congr 1; ring
    simp [xIn, flag, this]
  have hSE : (xIn m 0 l).SE = 0 := by
    have : ((0 : Int) == (m.Nx : Int) - 1) = false := by simp; omega
    simp only [xIn, this, Bool.false_and, flag]; simp
  have dNW : (xIn m 0 l).DirNW = flag (m.tv (0 + l * (m.Nx + 1)) == 11) := by simp only [xIn]
  have dSW : (xIn m 0 l).DirSW = flag (m.tv (0 + (l - 1) * (m.Nx + 1)) == 11) := by
    simp only [xIn]; congr 3; ring
  have tE := (tau_mk m u v 0 (l - 1) (by omega) (by omega) cE).1
  have tN := tauxz_mk m u v 0 l (by omega) (by omega)
  have tS := tauxz_mk m u v 0 (l - 1) (by omega) (by omega)
  rw [show l - 1 + 1 = l by ring] at tE tS
  have key := xCoef_west (xIn m 0 l) hdx hdz hSW hSE (flag_sq _)
    (u N) (u (xIdx m 0 l).E) (u (xIdx m 0 l).S) (u (xIdx m 0 l).N)
    (v (0 + (l - 1) * (m.Nx + 1))) (v (xIdx m 0 l).vSE)
    (v (0 + l * (m.Nx + 1))) (v (xIdx m 0 l).vNE)
    (reg_cases _ _ _ (by rw [iS]; exact gS)) (reg_cases _ _ _ (by rw [iN]; exact gN))
    (by rw [dSW, ivSE]; exact side_eq _ _ _ sS) (by rw [dNW, ivNE]; exact side_eq _ _ _ sN)
  have key' : (xCoef (xIn m 0 l)).uC * u N + (xCoef (xIn m 0 l)).uE * u (xIdx m 0 l).E +
      (xCoef (xIn m 0 l)).uS * u (xIdx m 0 l).S + (xCoef (xIn m 0 l)).uN * u (xIdx m 0 l).N +
      (xCoef (xIn m 0 l)).vSE * v (xIdx m 0 l).vSE + (xCoef (xIn m 0 l)).vNE * v (xIdx m 0 l).vNE =
      -(tauxx m u v E / m.dx + (1/2) * (tauxz m u v N - tauxz m u v S) / m.dz) := by
    have tE' : tauxx m u v E = _ := tE
    rw [tE', tN, tS]
    refine key.trans ?_
    simp only [iE, iS, iN, ivSE, ivNE, xIn, ipE, igN, igS]
    rfl
  have pEc : (xCoef (xIn m 0 l)).pE = 1 / m.dx := by simp only [xCoef, hSE, sub_zero]; rfl
  have au : ∀ i, (m.tu i != 30) = false → u i = 0 := fun i h => air.u i (by simpa using h)
  have av : ∀ i, (m.tv i != 30) = false → v i = 0 := fun i h => air.v i (by simpa using h)
  have ap : ∀ i, (m.tp i != 30) = false → p i = 0 := fun i h => air.p i (by simpa using h)
  have hw : (decide ((0 : Int) > 0) || (m.tu (xIdx m 0 l).C == -2)) = false := by
    rw [iC, hper]; simp
  have he : (decide ((0 : Int) < (m.Nx : Int) - 1) || (m.tu (xIdx m 0 l).C == -2)) = true := by
    rw [Bool.or_eq_true_iff]; left; simp; omega
  have hrow : applyTo (atNode u v p) (xStencil m 0 l ++ xStencilP m 0 l) =
      ((xCoef (xIn m 0 l)).uC * u N + (xCoef (xIn m 0 l)).uE * u (xIdx m 0 l).E +
      (xCoef (xIn m 0 l)).uS * u (xIdx m 0 l).S + (xCoef (xIn m 0 l)).uN * u (xIdx m 0 l).N +
      (xCoef (xIn m 0 l)).vSE * v (xIdx m 0 l).vSE + (xCoef (xIn m 0 l)).vNE * v (xIdx m 0 l).vNE +
      xCorr m 0 l (xCoef (xIn m 0 l)).uC * u N + 1 / m.dx * p E) * (m.dx * m.dz) := by
    simp only [xStencil, xStencilP, applyTo_append, applyTo_guarded, hw, he, Bool.and_true,
      Bool.and_false, atNode]
    rw [guard_eq _ _ _ (au _), guard_eq _ _ _ (au _), guard_eq _ _ _ (au _), guard_eq _ _ _ (au _),
      guard_eq _ _ _ (av _), guard_eq _ _ _ (av _), guard_eq _ _ _ (ap _), pEc, ipE, iC]
    simp only [Bool.false_eq_true, if_false]
    ring
  rw [hrow]
  unfold xResidual
  simp only [hSW, hSE, ipE, igN, igS, iC]
  have := key'
  field_simp at this ⊢
  linear_combination this

/-- C08 on an east stress boundary (last column, tag 2). -/
theorem x_row_stress_east (m : SMesh K) (k l : Int) (hdx : m.dx ≠ 0) (hdz : m.dz ≠ 0)
    (hNx : 2 ≤ m.Nx) (hk : k = m.Nx - 1) (hC : m.tu (k + l * m.Nx) = 2)
    (u v p : Int → K) (air : AirZero m u v p)
    (gS : Ghost (m.tu (k + (l - 1) * m.Nx)) (u (k + (l - 1) * m.Nx)) (u (k + l * m.Nx)))
    (gN : Ghost (m.tu (k + (l + 1) * m.Nx)) (u (k + (l + 1) * m.Nx)) (u (k + l * m.Nx)))
    (sN : SideGhost (m.tv (k + 1 + l * (m.Nx + 1))) (v (k + 1 + l * (m.Nx + 1)))
      (v (k + l * (m.Nx + 1))))
    (sS : SideGhost (m.tv (k + 1 + (l - 1) * (m.Nx + 1))) (v (k + 1 + (l - 1) * (m.Nx + 1)))
      (v (k + (l - 1) * (m.Nx + 1))))
    (cW : CellOk (m.tp (k - 1 + (l - 1) * (m.Nx - 1)))) :
    applyTo (atNode u v p) (xStencil m k l ++ xStencilP m k l) -
      m.dx * m.dz * m.bu (k + l * m.Nx) / m.dx =
    xResidual m (tauxx m u v) (tauxz m u v) p 0 u k l := by
  have h2 : (2 : K) ≠ 0 := by norm_num
  have hper : (m.tu (k + l * (m.Nx : Int)) == -2) = false := by simp only [hC]; decide
  set W := k - 1 + (l - 1) * ((m.Nx : Int) - 1)
  set N := k + l * (m.Nx : Int) with hN
  set S := k + (l - 1) * (m.Nx : Int) with hS
  have iW : (xIdx m k l).W = k - 1 + l * m.Nx := by
    simp only [xIdx]; rw [← hN, hper]; simp only [N]; simp; ring
  have iS : (xIdx m k l).S = S := by simp only [xIdx, S]; ring
  have iN : (xIdx m k l).N = k + (l + 1) * m.Nx := by simp only [xIdx]; ring
  have ivSW : (xIdx m k l).vSW = k + (l - 1) * (m.Nx + 1) := by
    simp only [xIdx]; rw [← hN, hper]; simp; ring
  have ivNW : (xIdx m k l).vNW = k + l * (m.Nx + 1) := by
    simp only [xIdx]; rw [← hN, hper]; simp
  have ipW : (xIdx m k l).pW = W := by simp only [xIdx]; rw [← hN, hper]; simp [W]
  have igS : (xIdx m k l).gS = S := by simp only [xIdx, S]; ring
  have iC : (xIdx m k l).C = N := rfl
  have igN : (xIdx m k l).gN = N := rfl
  have hSE : (xIn m k l).SE = 1 := by
    have : (k == (m.Nx : Int) - 1) = true := by simp [hk]
    simp only [xIn, this]; rw [← hN, hC]; simp [flag]
  have hSW : (xIn m k l).SW = 0 := by
    have : (k == (0 : Int)) = false := by simp; omega
    simp only [xIn, this, Bool.false_and, flag]; simp
  have dNE : (xIn m k l).DirNE = flag (m.tv (k + 1 + l * (m.Nx + 1)) == 11) := by
    simp only [xIn]; congr 3; ring
  have dSE : (xIn m k l).DirSE = flag (m.tv (k + 1 + (l - 1) * (m.Nx + 1)) == 11) := by
    simp only [xIn]; congr 3; ring
  have tW := (tau_mk m u v (k - 1) (l - 1) (by omega) (by omega) cW).1
  have tN := tauxz_mk m u v k l (by omega) (by omega)
  have tS := tauxz_mk m u v k (l - 1) (by omega) (by omega)
  rw [show l - 1 + 1 = l by ring] at tW tS
  rw [show k - 1 + 1 = k by ring] at tW
  have key := xCoef_east (xIn m k l) hdx hdz hSW hSE (flag_sq _)
    (u N) (u (xIdx m k l).W) (u (xIdx m k l).S) (u (xIdx m k l).N)
    (v (xIdx m k l).vSW) (v (k + 1 + (l - 1) * (m.Nx + 1)))
    (v (xIdx m k l).vNW) (v (k + 1 + l * (m.Nx + 1)))
    (reg_cases _ _ _ (by rw [iS]; exact gS)) (reg_cases _ _ _ (by rw [iN]; exact gN))
    (by rw [dSE, ivSW]; exact side_eq _ _ _ sS) (by rw [dNE, ivNW]; exact side_eq _ _ _ sN)
  have key' : (xCoef (xIn m k l)).uC * u N + (xCoef (xIn m k l)).uW * u (xIdx m k l).W +
      (xCoef (xIn m k l)).uS * u (xIdx m k l).S + (xCoef (xIn m k l)).uN * u (xIdx m k l).N +
      (xCoef (xIn m k l)).vSW * v (xIdx m k l).vSW + (xCoef (xIn m k l)).vNW * v (xIdx m k l).vNW =
      -(-tauxx m u v W / m.dx + (1/2) * (tauxz m u v N - tauxz m u v S) / m.dz) := by
    have tW' : tauxx m u v W = _ := tW
    rw [tW', tN, tS]
    refine key.trans ?_
    simp only [iW, iS, iN, ivSW, ivNW, xIn, ipW, igN, igS]
    rfl
  have pWc : (xCoef (xIn m k l)).pW = -1 / m.dx := by simp only [xCoef, hSW, zero_sub]; rfl
  have au : ∀ i, (m.tu i != 30) = false → u i = 0 := fun i h => air.u i (by simpa using h)
  have av : ∀ i, (m.tv i != 30) = false → v i = 0 := fun i h => air.v i (by simpa using h)
  have ap : ∀ i, (m.tp i != 30) = false → p i = 0 := fun i h => air.p i (by simpa using h)
  have he : (decide (k < (m.Nx : Int) - 1) || (m.tu (xIdx m k l).C == -2)) = false := by
    rw [iC, hper]; simp [hk]
  have hw : (decide (k > 0) || (m.tu (xIdx m k l).C == -2)) = true := by
    rw [Bool.or_eq_true_iff]; left; simp; omega
  have hrow : applyTo (atNode u v p) (xStencil m k l ++ xStencilP m k l) =
      ((xCoef (xIn m k l)).uC * u N + (xCoef (xIn m k l)).uW * u (xIdx m k l).W +
      (xCoef (xIn m k l)).uS * u (xIdx m k l).S + (xCoef (xIn m k l)).uN * u (xIdx m k l).N +
      (xCoef (xIn m k l)).vSW * v (xIdx m k l).vSW + (xCoef (xIn m k l)).vNW * v (xIdx m k l).vNW +
      xCorr m k l (xCoef (xIn m k l)).uC * u N + -1 / m.dx * p W) * (m.dx * m.dz) := by
    simp only [xStencil, xStencilP, applyTo_append, applyTo_guarded, hw, he, Bool.and_true,
      Bool.and_false, atNode]
    rw [guard_eq _ _ _ (au _), guard_eq _ _ _ (au _), guard_eq _ _ _ (au _), guard_eq _ _ _ (au _),
      guard_eq _ _ _ (av _), guard_eq _ _ _ (av _), guard_eq _ _ _ (ap _), pWc, ipW, iC]
    simp only [Bool.false_eq_true, if_false]
    ring
  rw [hrow]
  unfold xResidual
  simp only [hSW, hSE, ipW, igN, igS, iC]
  have := key'
  field_simp at this ⊢
  linear_combination this

omit [LinearOrder K] in
/-- Coefficient identity of a z-row on a south stress boundary. -/
theorem zCoef_south (i : ZIn K) (hdx : i.dx ≠ 0) (hdz : i.dz ≠ 0) (hSS : i.SS = 1)
    (hSN : i.SN = 0) (VC VN VW VE USW USE UNW UNE : K)
    (hW : (i.RegW = 1 ∧ i.DirW = 0) ∨ (i.RegW = 0 ∧ i.DirW = 1 ∧ VW = -VC) ∨
      (i.RegW = 0 ∧ i.DirW = 0 ∧ VW = VC))
    (hE : (i.RegE = 1 ∧ i.DirE = 0) ∨ (i.RegE = 0 ∧ i.DirE = 1 ∧ VE = -VC) ∨
      (i.RegE = 0 ∧ i.DirE = 0 ∧ VE = VC))
    (hUW : USW = (1 - 2 * i.DirSW) * UNW) (hUE : USE = (1 - 2 * i.DirSE) * UNE) :
    let a := zCoef i
    a.vW * VW + a.vC * VC + a.vE * VE + a.vN * VN + a.uNW * UNW + a.uNE * UNE =
    -(i.D22N * ((VN - VC) / i.dz - i.comp / 3 * (i.OOP * ((UNE - UNW) / i.dx +
        (VN - VC) / i.dz))) / i.dz +
      (1/2) * (i.D33E * i.inE * ((UNE - USE) / i.dz + (VE - VC) / i.dx) -
       i.D33W * i.inW * ((UNW - USW) / i.dz + (VC - VW) / i.dx)) / i.dx) := by
  intro a
  have h6 : (6 : K) ≠ 0 := by norm_num
  have h3 : (3 : K) ≠ 0 := by norm_num
  have h2 : (2 : K) ≠ 0 := by norm_num
  have avW : a.vW = -(1/2)*(i.D33W*i.RegW*i.inW)/i.dx^2 := by
    simp only [a, zCoef, hSS, hSN]; ring
  have avE : a.vE = -(1/2)*(i.D33E*i.RegE*i.inE)/i.dx^2 := by
    simp only [a, zCoef, hSS, hSN]; ring
  have avN : a.vN = (1/3)*i.D22N*(i.OOP*i.comp - 3)/i.dz^2 := by
    simp only [a, zCoef, hSS, hSN]; ring
  have avC : a.vC = ((1/2)*(i.D33E*i.inE*(2*i.DirE + i.RegE) + i.D33W*i.inW*(2*i.DirW + i.RegW))*i.dz^2
      - (1/3)*(i.D22N*(i.OOP*i.comp - 3))*i.dx^2)/(i.dx^2*i.dz^2) := by
    simp only [a, zCoef, hSS, hSN]; ring
  have auNW : a.uNW = (-(1/3)*i.D22N*i.OOP*i.comp + i.D33W*i.inW*i.DirSW)/(i.dx*i.dz) := by
    simp only [a, zCoef, hSS, hSN]; ring
  have auNE : a.uNE = ((1/3)*i.D22N*i.OOP*i.comp - i.D33E*i.inE*i.DirSE)/(i.dx*i.dz) := by
    simp only [a, zCoef, hSS, hSN]; ring
  rw [avW, avE, avN, avC, auNW, auNE, hUW, hUE]
  have kW := wall_key _ _ _ _ (i.D33W * i.inW) hW
  have kE := wall_key _ _ _ _ (i.D33E * i.inE) hE
  have e : (i.D33E*i.inE*(2*i.DirE + i.RegE) + i.D33W*i.inW*(2*i.DirW + i.RegW)) * VC
      - i.D33W*i.RegW*i.inW*VW - i.D33E*i.RegE*i.inE*VE =
      i.D33W * i.inW * (VC - VW) + i.D33E * i.inE * (VC - VE) := by
    linear_combination kW + kE
  field_simp
  linear_combination (3 * i.dz ^ 2) * e

omit [LinearOrder K] in
/-- Coefficient identity of a z-row on a north stress boundary. -/
theorem zCoef_north (i : ZIn K) (hdx : i.dx ≠ 0) (hdz : i.dz ≠ 0) (hSS : i.SS = 0)
    (hSN : i.SN = 1) (VC VS VW VE USW USE UNW UNE : K)
    (hW : (i.RegW = 1 ∧ i.DirW = 0) ∨ (i.RegW = 0 ∧ i.DirW = 1 ∧ VW = -VC) ∨
      (i.RegW = 0 ∧ i.DirW = 0 ∧ VW = VC))
    (hE : (i.RegE = 1 ∧ i.DirE = 0) ∨ (i.RegE = 0 ∧ i.DirE = 1 ∧ VE = -VC) ∨
      (i.RegE = 0 ∧ i.DirE = 0 ∧ VE = VC))
    (hUW : UNW = (1 - 2 * i.DirNW) * USW) (hUE : UNE = (1 - 2 * i.DirNE) * USE) :
    let a := zCoef i
    a.vW * VW + a.vC * VC + a.vE * VE + a.vS * VS + a.uSW * USW + a.uSE * USE =
    -(-(i.D22S * ((VC - VS) / i.dz - i.comp / 3 * (i.OOP * ((USE - USW) / i.dx +
        (VC - VS) / i.dz)))) / i.dz +
      (1/2) * (i.D33E * i.inE * ((UNE - USE) / i.dz + (VE - VC) / i.dx) -
       i.D33W * i.inW * ((UNW - USW) / i.dz + (VC - VW) / i.dx)) / i.dx) := by
  intro a
  have h6 : (6 : K) ≠ 0 := by norm_num
  have h3 : (3 : K) ≠ 0 := by norm_num
  have h2 : (2 : K) ≠ 0 := by norm_num
  have avW : a.vW = -(1/2)*(i.D33W*i.RegW*i.inW)/i.dx^2 := by
    simp only [a, zCoef, hSS, hSN]; ring
  have avE : a.vE = -(1/2)*(i.D33E*i.RegE*i.inE)/i.dx^2 := by
    simp only [a, zCoef, hSS, hSN]; ring
  have avS : a.vS = (1/3)*i.D22S*(i.OOP*i.comp - 3)/i.dz^2 := by
    simp only [a, zCoef, hSS, hSN]; ring
  have avC : a.vC = ((1/2)*(i.D33E*i.inE*(2*i.DirE + i.RegE) + i.D33W*i.inW*(2*i.DirW + i.RegW))*i.dz^2
      - (1/3)*(i.D22S*(i.OOP*i.comp - 3))*i.dx^2)/(i.dx^2*i.dz^2) := by
    simp only [a, zCoef, hSS, hSN]; ring
  have auSW : a.uSW = ((1/3)*i.D22S*i.OOP*i.comp - i.D33W*i.inW*i.DirNW)/(i.dx*i.dz) := by
    simp only [a, zCoef, hSS, hSN]; ring
  have auSE : a.uSE = (-(1/3)*i.D22S*i.OOP*i.comp + i.D33E*i.inE*i.DirNE)/(i.dx*i.dz) := by
    simp only [a, zCoef, hSS, hSN]; ring
  rw [avW, avE, avS, avC, auSW, auSE, hUW, hUE]
  have kW := wall_key _ _ _ _ (i.D33W * i.inW) hW
  have kE := wall_key _ _ _ _ (i.D33E * i.inE) hE
  have e : (i.D33E*i.inE*(2*i.DirE + i.RegE) + i.D33W*i.inW*(2*i.DirW + i.RegW)) * VC
      - i.D33W*i.RegW*i.inW*VW - i.D33E*i.RegE*i.inE*VE =
      i.D33W * i.inW * (VC - VW) + i.D33E * i.inE * (VC - VE) := by
    linear_combination kW + kE
  field_simp
  linear_combination (3 * i.dz ^ 2) * e

/-- C08 on a south stress boundary (tag 2). -/
theorem z_row_stress_south (m : SMesh K) (k l : Int) (hdx : m.dx ≠ 0) (hdz : m.dz ≠ 0)
    (hNz : 2 ≤ m.Nz) (hk0 : 0 < k) (hk1 : k < m.Nx) (hl : l = 0)
    (hC : m.tv (k + l * (m.Nx + 1)) = 2)
    (npW : m.tv (k - 1 + l * (m.Nx + 1)) ≠ -12) (npE : m.tv (k + 1 + l * (m.Nx + 1)) ≠ -12)
    (u v p : Int → K) (air : AirZero m u v p)
    (hD : ∀ c, m.tp c ≠ -1 → m.D22 c = 0)
    (gW : Ghost (m.tv (k - 1 + l * (m.Nx + 1))) (v (k - 1 + l * (m.Nx + 1)))
      (v (k + l * (m.Nx + 1))))
    (gE : Ghost (m.tv (k + 1 + l * (m.Nx + 1))) (v (k + 1 + l * (m.Nx + 1)))
      (v (k + l * (m.Nx + 1))))
    (sW : SideGhost (m.tu (k - 1 + l * m.Nx)) (u (k - 1 + l * m.Nx)) (u (k - 1 + (l + 1) * m.Nx)))
    (sE : SideGhost (m.tu (k + l * m.Nx)) (u (k + l * m.Nx)) (u (k + (l + 1) * m.Nx)))
    (cc : CellOk (m.tp (k - 1 + l * (m.Nx - 1)))) :
    applyTo (atNode u v p) (zStencil m k l ++ zStencilP m k l) +
      m.dx * m.dz * m.bv (k + l * (m.Nx + 1)) / m.dz =
    zResidual m (tauzz m u v) (tauxz m u v) p 0 v k l := by
  have h2 : (2 : K) ≠ 0 := by norm_num
  set P := k - 1 + l * ((m.Nx : Int) - 1)
  set C := k + l * ((m.Nx : Int) + 1) with hCd
  have iW : (zIdx m k l).W = k - 1 + l * (m.Nx + 1) := by
    have : (m.tv (C - 1) == -12) = false := by
      simp only [beq_eq_false_iff_ne, ne_eq]; rw [show C - 1 = k - 1 + l * (m.Nx + 1) by simp only [C]; ring]
      exact npW
    simp only [zIdx]; rw [← hCd, this]; simp only [C]; simp; ring
  have iE : (zIdx m k l).E = k + 1 + l * (m.Nx + 1) := by
    have : (m.tv (C + 1) == -12) = false := by
      simp only [beq_eq_false_iff_ne, ne_eq]; rw [show C + 1 = k + 1 + l * (m.Nx + 1) by simp only [C]; ring]
      exact npE
    simp only [zIdx]; rw [← hCd, this]; simp only [C]; simp; ring
  have iN : (zIdx m k l).N = k + (l + 1) * (m.Nx + 1) := by simp only [zIdx]; ring
  have iuW : (zIdx m k l).uNW = k - 1 + (l + 1) * m.Nx := by simp only [zIdx]; ring
  have iuE : (zIdx m k l).uNE = k + (l + 1) * m.Nx := by simp only [zIdx]; ring
  have ip : (zIdx m k l).pN = P := by simp only [zIdx, P]; ring
  have igW : (zIdx m k l).gW = k - 1 + l * m.Nx := by simp only [zIdx]; ring
  have igE : (zIdx m k l).gE = k + l * m.Nx := rfl
  have iC : (zIdx m k l).C = C := rfl
  have hS1 : (zIn m k l).SS = 1 := by
    have : (l == 0) = true := by simp [hl]
    simp only [zIn, this, iC, hC]; simp [flag]
  have hS0 : (zIn m k l).SN = 0 := by
    have : (l == (m.Nz : Int) - 1) = false := by simp; omega
    simp only [zIn, this, Bool.false_and, flag]; simp
  have dW : (zIn m k l).DirSW = flag (m.tu (k - 1 + l * m.Nx) == 11) := by
    simp only [zIn]; rw [show k + l * (m.Nx : Int) - 1 = k - 1 + l * m.Nx by ring]
  have dE : (zIn m k l).DirSE = flag (m.tu (k + l * m.Nx) == 11) := by
    simp only [zIn]
  have tP := (tau_mk m u v (k - 1) (l) (by omega) (by omega) cc).2
  have tE := tauxz_mk m u v k l (by omega) (by omega)
  have tW := tauxz_mk m u v (k - 1) l (by omega) (by omega)
  
  rw [show k - 1 + 1 = k by ring] at tP tW
  have hDflag : ∀ c, m.D22 c * flag (m.tp c == -1) = m.D22 c := by
    intro c
    by_cases h : m.tp c = -1
    · simp [flag, h]
    · rw [hD c h]; ring
  rw [hDflag] at tP
  have key := zCoef_south (zIn m k l) hdx hdz hS1 hS0
    (v C) (v (zIdx m k l).N) (v (zIdx m k l).W) (v (zIdx m k l).E)
    (u (k - 1 + l * m.Nx)) (u (k + l * m.Nx)) (u (zIdx m k l).uNW) (u (zIdx m k l).uNE)
    (reg_cases _ _ _ (by rw [iW]; exact gW)) (reg_cases _ _ _ (by rw [iE]; exact gE))
    (by rw [dW, iuW]; exact side_eq _ _ _ sW) (by rw [dE, iuE]; exact side_eq _ _ _ sE)
  have key' : (zCoef (zIn m k l)).vW * v (zIdx m k l).W + (zCoef (zIn m k l)).vC * v C +
      (zCoef (zIn m k l)).vE * v (zIdx m k l).E + (zCoef (zIn m k l)).vN * v (zIdx m k l).N +
      (zCoef (zIn m k l)).uNW * u (zIdx m k l).uNW + (zCoef (zIn m k l)).uNE * u (zIdx m k l).uNE =
      -(tauzz m u v P / m.dz +
        (1/2) * (tauxz m u v (k + l * m.Nx) - tauxz m u v (k - 1 + l * m.Nx)) / m.dx) := by
    have tP' : tauzz m u v P = _ := tP
    rw [tP', tE, tW]
    refine key.trans ?_
    simp only [iW, iE, iN, iuW, iuE, zIn, ip, igE, igW]
    rfl
  have pc : (zCoef (zIn m k l)).pN = 1 / m.dz := by
    simp only [zCoef, hS0, sub_zero]; rfl
  have au : ∀ i, (m.tu i != 30) = false → u i = 0 := fun i h => air.u i (by simpa using h)
  have av : ∀ i, (m.tv i != 30) = false → v i = 0 := fun i h => air.v i (by simpa using h)
  have ap : ∀ i, (m.tp i != 30) = false → p i = 0 := fun i h => air.p i (by simpa using h)
  have hs : decide (l > 0) = false := by simp; omega
  have hn : decide (l < (m.Nz : Int) - 1) = true := by simp; omega
  have hrow : applyTo (atNode u v p) (zStencil m k l ++ zStencilP m k l) =
      ((zCoef (zIn m k l)).vW * v (zIdx m k l).W + (zCoef (zIn m k l)).vC * v C +
      (zCoef (zIn m k l)).vE * v (zIdx m k l).E + (zCoef (zIn m k l)).vN * v (zIdx m k l).N +
      (zCoef (zIn m k l)).uNW * u (zIdx m k l).uNW + (zCoef (zIn m k l)).uNE * u (zIdx m k l).uNE +
      zCorr m k l (zCoef (zIn m k l)) * v C + 1 / m.dz * p P) * (m.dx * m.dz) := by
    simp only [zStencil, zStencilP, applyTo_append, applyTo_guarded, hs, hn, Bool.and_true,
      Bool.and_false, atNode]
    rw [guard_eq _ _ _ (au _), guard_eq _ _ _ (au _),
      guard_eq _ _ _ (av _), guard_eq _ _ _ (av _), guard_eq _ _ _ (av _), guard_eq _ _ _ (av _),
      guard_eq _ _ _ (ap _), pc, ip, iC]
    simp only [Bool.false_eq_true, if_false]
    ring
  rw [hrow]
  unfold zResidual
  simp only [hS1, hS0, ip, igE, igW, iC]
  have := key'
  field_simp at this ⊢
  linear_combination this

/-- C08 on a north stress boundary (tag 2). -/
theorem z_row_stress_north (m : SMesh K) (k l : Int) (hdx : m.dx ≠ 0) (hdz : m.dz ≠ 0)
    (hNz : 2 ≤ m.Nz) (hk0 : 0 < k) (hk1 : k < m.Nx) (hl : l = m.Nz - 1)
    (hC : m.tv (k + l * (m.Nx + 1)) = 2)
    (npW : m.tv (k - 1 + l * (m.Nx + 1)) ≠ -12) (npE : m.tv (k + 1 + l * (m.Nx + 1)) ≠ -12)
    (u v p : Int → K) (air : AirZero m u v p)
    (hD : ∀ c, m.tp c ≠ -1 → m.D22 c = 0)
    (gW : Ghost (m.tv (k - 1 + l * (m.Nx + 1))) (v (k - 1 + l * (m.Nx + 1)))
      (v (k + l * (m.Nx + 1))))
    (gE : Ghost (m.tv (k + 1 + l * (m.Nx + 1))) (v (k + 1 + l * (m.Nx + 1)))
      (v (k + l * (m.Nx + 1))))
    (sW : SideGhost (m.tu (k - 1 + (l + 1) * m.Nx)) (u (k - 1 + (l + 1) * m.Nx)) (u (k - 1 + l * m.Nx)))
    (sE : SideGhost (m.tu (k + (l + 1) * m.Nx)) (u (k + (l + 1) * m.Nx)) (u (k + l * m.Nx)))
    (cc : CellOk (m.tp (k - 1 + (l - 1) * (m.Nx - 1)))) :
    applyTo (atNode u v p) (zStencil m k l ++ zStencilP m k l) -
      m.dx * m.dz * m.bv (k + l * (m.Nx + 1)) / m.dz =
    zResidual m (tauzz m u v) (tauxz m u v) p 0 v k l := by
  have h2 : (2 : K) ≠ 0 := by norm_num
  set P := k - 1 + (l - 1) * ((m.Nx : Int) - 1)
  set C := k + l * ((m.Nx : Int) + 1) with hCd
  have iW : (zIdx m k l).W = k - 1 + l * (m.Nx + 1) := by
    have : (m.tv (C - 1) == -12) = false := by
      simp only [beq_eq_false_iff_ne, ne_eq]; rw [show C - 1 = k - 1 + l * (m.Nx + 1) by simp only [C]; ring]
      exact npW
    simp only [zIdx]; rw [← hCd, this]; simp only [C]; simp; ring
  have iE : (zIdx m k l).E = k + 1 + l * (m.Nx + 1) := by
    have : (m.tv (C + 1) == -12) = false := by
      simp only [beq_eq_false_iff_ne, ne_eq]; rw [show C + 1 = k + 1 + l * (m.Nx + 1) by simp only [C]; ring]
      exact npE
    simp only [zIdx]; rw [← hCd, this]; simp only [C]; simp; ring
  have iS : (zIdx m k l).S = k + (l - 1) * (m.Nx + 1) := by simp only [zIdx]; ring
  have iuW : (zIdx m k l).uSW = k - 1 + l * m.Nx := by simp only [zIdx]; ring
  have iuE : (zIdx m k l).uSE = k + l * m.Nx := by simp only [zIdx]; 
  have ip : (zIdx m k l).pS = P := by simp only [zIdx, P]; 
  have igW : (zIdx m k l).gW = k - 1 + l * m.Nx := by simp only [zIdx]; ring
  have igE : (zIdx m k l).gE = k + l * m.Nx := rfl
  have iC : (zIdx m k l).C = C := rfl
  have hS1 : (zIn m k l).SN = 1 := by
    have : (l == (m.Nz : Int) - 1) = true := by simp [hl]
    simp only [zIn, this, iC, hC]; simp [flag]
  have hS0 : (zIn m k l).SS = 0 := by
    have : (l == 0) = false := by simp; omega
    simp only [zIn, this, Bool.false_and, flag]; simp
  have dW : (zIn m k l).DirNW = flag (m.tu (k - 1 + (l + 1) * m.Nx) == 11) := by
    simp only [zIn]; congr 3; ring
  have dE : (zIn m k l).DirNE = flag (m.tu (k + (l + 1) * m.Nx) == 11) := by
    simp only [zIn]; congr 3; ring
  have tP := (tau_mk m u v (k - 1) (l - 1) (by omega) (by omega) cc).2
  have tE := tauxz_mk m u v k l (by omega) (by omega)
  have tW := tauxz_mk m u v (k - 1) l (by omega) (by omega)
  rw [show l - 1 + 1 = l by ring] at tP
  rw [show k - 1 + 1 = k by ring] at tP tW
  have hDflag : ∀ c, m.D22 c * flag (m.tp c == -1) = m.D22 c := by
    intro c
    by_cases h : m.tp c = -1
    · simp [flag, h]
    · rw [hD c h]; ring
  rw [hDflag] at tP
  have key := zCoef_north (zIn m k l) hdx hdz hS0 hS1
    (v C) (v (zIdx m k l).S) (v (zIdx m k l).W) (v (zIdx m k l).E)
    (u (zIdx m k l).uSW) (u (zIdx m k l).uSE) (u (k - 1 + (l + 1) * m.Nx)) (u (k + (l + 1) * m.Nx))
    (reg_cases _ _ _ (by rw [iW]; exact gW)) (reg_cases _ _ _ (by rw [iE]; exact gE))
    (by rw [dW, iuW]; exact side_eq _ _ _ sW) (by rw [dE, iuE]; exact side_eq _ _ _ sE)
  have key' : (zCoef (zIn m k l)).vW * v (zIdx m k l).W + (zCoef (zIn m k l)).vC * v C +
      (zCoef (zIn m k l)).vE * v (zIdx m k l).E + (zCoef (zIn m k l)).vS * v (zIdx m k l).S +
      (zCoef (zIn m k l)).uSW * u (zIdx m k l).uSW + (zCoef (zIn m k l)).uSE * u (zIdx m k l).uSE =
      -(-tauzz m u v P / m.dz +
        (1/2) * (tauxz m u v (k + l * m.Nx) - tauxz m u v (k - 1 + l * m.Nx)) / m.dx) := by
    have tP' : tauzz m u v P = _ := tP
    rw [tP', tE, tW]
    refine key.trans ?_
    simp only [iW, iE, iS, iuW, iuE, zIn, ip, igE, igW]
    rfl
  have pc : (zCoef (zIn m k l)).pS = -1 / m.dz := by
    simp only [zCoef, hS0, zero_sub]; rfl
  have au : ∀ i, (m.tu i != 30) = false → u i = 0 := fun i h => air.u i (by simpa using h)
  have av : ∀ i, (m.tv i != 30) = false → v i = 0 := fun i h => air.v i (by simpa using h)
  have ap : ∀ i, (m.tp i != 30) = false → p i = 0 := fun i h => air.p i (by simpa using h)
  have hs : decide (l > 0) = true := by simp; omega
  have hn : decide (l < (m.Nz : Int) - 1) = false := by simp; omega
  have hrow : applyTo (atNode u v p) (zStencil m k l ++ zStencilP m k l) =
      ((zCoef (zIn m k l)).vW * v (zIdx m k l).W + (zCoef (zIn m k l)).vC * v C +
      (zCoef (zIn m k l)).vE * v (zIdx m k l).E + (zCoef (zIn m k l)).vS * v (zIdx m k l).S +
      (zCoef (zIn m k l)).uSW * u (zIdx m k l).uSW + (zCoef (zIn m k l)).uSE * u (zIdx m k l).uSE +
      zCorr m k l (zCoef (zIn m k l)) * v C + -1 / m.dz * p P) * (m.dx * m.dz) := by
    simp only [zStencil, zStencilP, applyTo_append, applyTo_guarded, hs, hn, Bool.and_true,
      Bool.and_false, atNode]
    rw [guard_eq _ _ _ (au _), guard_eq _ _ _ (au _),
      guard_eq _ _ _ (av _), guard_eq _ _ _ (av _), guard_eq _ _ _ (av _), guard_eq _ _ _ (av _),
      guard_eq _ _ _ (ap _), pc, ip, iC]
    simp only [Bool.false_eq_true, if_false]
    ring
  rw [hrow]
  unfold zResidual
  simp only [hS1, hS0, ip, igE, igW, iC]
  have := key'
  field_simp at this ⊢
  linear_combination this

end Verif
