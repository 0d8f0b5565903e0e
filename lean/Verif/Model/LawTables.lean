import Verif.Model.FlowLaws
import Verif.Model.GrainIter

/-
The tables of built-in laws (/repo/MDLIB/FlowLaws.c): dislocation creep (44-541), grain boundary sliding (706-744), Peierls creep (777-812),
grain size (839-932) and reaction kinetics (944-966).  Diffusion creep is in Model/FlowLaws.lean.  Numbers as written in the
source; real arithmetic.
-/
namespace Verif.Flow
open Verif

/-- What the input gives for the user-defined laws: reference viscosity and its unit, reference strain rate and stress (56-84). -/
structure User where
  eta0 : ℝ
  eta : ℝ
  eps0 : ℝ
  tau0 : ℝ

/-- The `switch` of `ReadDataPowerLaw` (48-541); `l` holds what was read from the input, `ast` is `act_vol_dis_ast` when
`force_act_vol_ast` is 1 (449).  `none`: no such law. -/
noncomputable def powerTable (number : Int) (ast : Option ℝ) (w : User) (l : Law) : Option Law :=
  match number.natAbs with
  | 1 => some (homemade1 w.eta0 w.eta l)
  | 2 => some (homemade2 w.eps0 w.tau0 l)
  | 10 => some { l with t := 1, n := 3.3, m := 0, r := 0, Q := 186500, V := 0, A := 3.1623e-26, f := 0, a := 0 }
  | 11 => some { l with t := 1, n := 4.7, m := 0, r := 0, Q := 485000, V := 0, A := 5.0477e-28, f := 0, a := 0 }
  | 12 => some { l with t := 1, n := 3, m := 0, r := 0, Q := 276000, V := 0, A := 3.2e-20, f := 0, a := 0 }
  | 13 => some { l with t := 1, n := 2.3, m := 0, r := 0, Q := 154000, V := 0, A := 5.0717e-18, f := 0, a := 0 }
  | 14 => some { l with t := 1, n := 5.3, m := 0, r := 0, Q := 102000, V := 0, A := 9.9848e-32, f := 0, a := 0 }
  | 15 => some { l with t := 1, n := 4.7, m := 0, r := 0, Q := 297000, V := 0, A := 1.5849e-25, f := 0, a := 0 }
  | 16 => some { l with t := 1, n := 3.1, m := 0, r := 0, Q := 243000, V := 0, A := 2.0095e-21, f := 0, a := 0 }
  | 17 => some { l with t := 1, n := 4.2, m := 0, r := 0, Q := 445000, V := 0, A := 8.8334e-22, f := 0, a := 0 }
  | 18 => some { l with t := 1, n := 4.7, m := 0, r := 0, Q := 297000, V := 0, A := 1.5849e-25, f := 0, a := 0 }
  | 19 => some { l with t := 1, n := 3, m := 0, r := 0, Q := 356000, V := 0, A := 3.9811e-16, f := 0, a := 0 }
  | 20 => some { l with t := 1, n := 2.22, m := 0, r := 0, Q := 485000, V := 0, A := 2.7952e-07, f := 0, a := 0 }
  | 21 => some { l with t := 1, n := 3.5, m := 0, r := 0, Q := 310000, V := 0, A := 1.0e-23, f := 0, a := 0 }
  | 22 => some { l with t := 1, n := 2.72, m := 0, r := 0, Q := 134000, V := 0, A := 7.3191e-24, f := 0, a := 0 }
  | 23 => some { l with t := 1, n := 3.2, m := 0, r := 0, Q := 238000, V := 0, A := 2.0632e-23, f := 0, a := 0 }
  | 24 => some { l with t := 1, n := 18, m := 0, r := 0, Q := 51000, V := 0, A := 1.0000e-138, f := 0, a := 0 }
  | 25 => some { l with t := 1, n := 4, m := 0, r := 0, Q := 431000, V := 0, A := 7.9433e-24, f := 0, a := 0 }
  | 26 => some { l with t := 1, n := 2.4, m := 0, r := 0, Q := 160000, V := 0, A := 3.981e-19, f := 0, a := 0 }
  | 27 => some { l with t := 1, n := 2.4, m := 0, r := 0, Q := 156000, V := 0, A := 2.667e-20, f := 0, a := 0 }
  | 28 => some { l with t := 1, n := 4, m := 0, r := 0, Q := 135000, V := 0, A := 6.3096e-36, f := 0, a := 0 }
  | 29 => some { l with t := 0, n := 3.7, m := 0, r := 0, Q := 244000, V := 0, A := 6.9405e-27, f := 0, a := 0 }
  | 30 => some { l with t := 1, n := 3, m := 0, r := 0, Q := 648000, V := 0, A := 5.0119e-06, f := 0, a := 0 }
  | 31 => some { l with t := 1, n := 4.7, m := 0, r := 0, Q := 760000, V := 0, A := 3.9811e-19, f := 0, a := 0 }
  | 32 => some { l with t := 1, n := 3, m := 0, r := 0, Q := 235000, V := 0, A := 3.16228e-20, f := 0, a := 0 }
  | 33 => some { l with t := 1, n := 2.22, m := 0, r := 0, Q := 485000, V := 10e-6, A := 2.7952e-07, f := 0, a := 0 }
  | 34 => some { l with t := 1, n := 3.3, m := 0, r := 0, Q := 186500, V := 0, A := 3.1623e-26, f := 0, a := 50 }
  | 40 => some { l with t := 1, n := 3.5, m := 0, r := 0, Q := 530000, V := ast.getD 11.0e-6, A := 1.1000e-16, f := 0, a := 0 }
  | 41 => some { l with t := 1, n := 3.5, m := 0, r := 1.2, Q := 480000, V := 11.0e-6, A := 5.6786e-27, f := 1000000000, a := 0 }
  | 42 => some { l with t := 1, n := 3.5, m := 0, r := 0, Q := 532000, V := 0, A := 2.5119e-17, f := 0, a := 0 }
  | 43 => some { l with t := 1, n := 4, m := 0, r := 0, Q := 471000, V := 0, A := 1.9953e-21, f := 0, a := 0 }
  | 44 => some { l with t := 1, n := 3, m := 0, r := 0, Q := 520000, V := 0, A := 1.0e-14, f := 0, a := 0 }
  | 45 => some { l with t := 1, n := 3.5, m := 0, r := 0, Q := 520000, V := 0, A := 1.60e-18, f := 0, a := 0 }
  | 46 => some { l with t := 1, n := 5.8, m := 0, r := 0, Q := 17600, V := 0, A := 5.3443e-41, f := 0, a := 0 }
  | _ => none

/-- `ReadDataPowerLaw` (44-569): `weak` is `melt_weak` when `force_melt_weak` is 1 (543); `none` is `exit(12)` (564). -/
noncomputable def readPower (u : Units) (number : Int) (ast weak : Option ℝ) (w : User) (l : Law) : Option Law :=
  (powerTable number ast w l).map fun l => correct number (scale u { l with a := weak.getD l.a })

/-- The `switch` of `ReadDataGBS` (710-744). -/
noncomputable def slidingTable (number : Int) (l : Law) : Option Law :=
  match number.natAbs with
  | 40 => some { l with t := 1, n := 3.5, m := 2, r := 0, Q := 400000, V := 0, A := 6.5e-30, f := 0, a := 0 }
  | 41 => some { l with t := 1, n := 3.5, m := 2, r := 0, Q := 600000, V := 0, A := 4.7e-23, f := 0, a := 0 }
  | _ => none

/-- `ReadDataGBS` (706-770). -/
noncomputable def readSliding (u : Units) (number : Int) (l : Law) : Option Law :=
  (slidingTable number l).map fun l => correct number (scale u l)

/-- The `switch` of `ReadDataExponential` (781-812). -/
noncomputable def peierlsTable (number : Int) : Option Peierls :=
  match number.natAbs with
  | 25 => some { t := 1, G := 0.2, S := 9.831e9, Q := 431000, E := 3.02e-9, n := 2 }
  | 40 => some { t := 1, G := 0.1, S := 8.5e9, Q := 540000, E := 5.7e11, n := 0 }
  | _ => none

/-- `ReadDataExponential` (777-833). -/
noncomputable def readPeierls (u : Units) (number : Int) : Option Peierls :=
  (peierlsTable number).map (scalePeierls u number)

/-- Parameters of a grain size law (`ppzm`, `Kpzm`, `Qpzm`, `Gpzm`, `cpzm`, `Lpzm`). -/
structure GrainLaw where
  p : ℝ
  K : ℝ
  Q : ℝ
  G : ℝ
  c : ℝ
  L : ℝ

/-- A wattmeter as scaled in the table (852-923): `K` in micrometres to the power `p` per second, `Q` in joule per mole, `G` in joule per square
metre. -/
noncomputable def wattmeterLaw (u : Units) (p K Q G c L : ℝ) : GrainLaw :=
  { p := p, K := K * (10 : ℝ) ^ (-6 * p) / (u.L ^ p / u.t), Q := Q / u.J, G := G / (u.J * u.L ^ (-2 : ℝ)), c := c, L := L }

/-- A piezometer (872-894). -/
noncomputable def piezometerLaw (u : Units) (p lg : ℝ) : GrainLaw :=
  { p := p, K := (10 : ℝ) ^ lg * 1e-6 * (1000000 : ℝ) ^ p / (u.L * u.S ^ p), Q := 0, G := 0, c := 0, L := 0 }

/-- `ReadDataGSE` (839-938). -/
noncomputable def readGrain (u : Units) (number : Int) : Option GrainLaw :=
  match number.natAbs with
  | 9 => some (wattmeterLaw u 3 2.5e9 175000 1 Real.pi 0.01)
  | 10 => some (wattmeterLaw u 3 2.5e9 175000 1 Real.pi 0.1)
  | 11 => some (piezometerLaw u 1.14 3.31)
  | 12 => some (piezometerLaw u 0.9767 2.63)
  | 40 => some (wattmeterLaw u 2 607 200000 0.1 1.2197 0.1)
  | 41 => some (wattmeterLaw u 4 497075 300000 0.1 1.2197 0.1)
  | 42 => some (wattmeterLaw u 3.2 1800 620000 1.4 3.1415 0.01)
  | _ => none

/-- The parameters of the local iteration (RheologyDensity.c:538-543). -/
noncomputable def GrainLaw.at (l : GrainLaw) (R T : ℝ) : Point.Gse :=
  { Ag := l.K * Real.exp (-l.Q / R / T), p := l.p, lam := l.L, c := l.c, gam := l.G }

/-- `ReadDataKinetics` (944-966): surface, rate and activation energy `Skin`, `kkin`, `Qkin`; law 1 leaves them as they are.  `T` is the unit of
temperature. -/
noncomputable def readKinetics (u : Units) (T : ℝ) (number : Int) (old : ℝ × ℝ × ℝ) : Option (ℝ × ℝ × ℝ) :=
  match number.natAbs with
  | 1 => some old
  | 9 => some (3.35 / 1e-4 / (1 / u.L), 0.185 / (u.L / u.t / T), 243000 / u.J)
  | _ => none

end Verif.Flow
