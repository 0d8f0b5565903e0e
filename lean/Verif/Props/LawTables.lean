import Verif.Model.LawTables
import Verif.Props.FlowLaws
import Verif.Props.PointConv
import Verif.Props.GrainIter

/-!
C140: the built-in flow laws.
-/
namespace Verif.Flow
open Verif Verif.Spec

/-- Positive units. -/
structure GoodUnits (u : Units) : Prop where
  L : 0 < u.L
  S : 0 < u.S
  t : 0 < u.t
  J : 0 < u.J

/-- What a user-defined law needs from the input. -/
structure GoodUser (w : User) (l : Law) : Prop where
  n : 1 ≤ l.n ∧ l.n ≤ 1000
  Q : 0 ≤ l.Q
  eta : 0 < w.eta0 * w.eta
  eps : 0 < w.eps0
  tau : 0 < w.tau0

/-- A creep law that can be used: positive constants, a known type of experiment, activation energy and volume not negative. -/
structure Usable (l : Law) : Prop where
  good : GoodLaw l
  n : l.n ≤ 1000
  Q : 0 ≤ l.Q
  V : 0 ≤ l.V
  m : 0 ≤ l.m

/-- The same before scaling and correction. -/
private structure Raw (l : Law) : Prop where
  n : 1 ≤ l.n ∧ l.n ≤ 1000
  m : 0 ≤ l.m
  Q : 0 ≤ l.Q
  V : 0 ≤ l.V
  A : 0 < l.A
  f : 0 < l.f ∨ l.r = 0
  t : l.t = 0 ∨ l.t = 1

private theorem Raw.usable {l : Law} (h : Raw l) (u : Units) (hu : GoodUnits u) (number : Int) (a : ℝ) :
    Usable (correct number (scale u { l with a := a })) := by
  have h1 := hu.L; have h2 := hu.S; have h3 := hu.t; have h4 := hu.J
  have hA := h.A
  have hF : ∀ l' : Law, l'.t = 0 ∨ l'.t = 1 → 0 < (correct number l').F := by
    intro l' ht
    unfold correct
    dsimp only
    split
    · exact one_pos
    · rcases ht with ht | ht
      · simp [ht]
      · simp only [ht]; norm_num; positivity
  refine ⟨⟨h.n.1, ?_, hF _ h.t, ?_⟩, h.n.2, ?_, ?_, h.m⟩
  · show 0 < l.A / _
    positivity
  · rcases h.f with h5 | h5
    · exact Or.inl (div_pos h5 h2)
    · exact Or.inr h5
  · exact div_nonneg h.Q h4.le
  · exact div_nonneg h.V (by positivity)

private theorem power_raw (number : Int) (ast : Option ℝ) (w : User) (l0 l : Law) (hast : ∀ x ∈ ast, 0 ≤ x)
    (hw : number.natAbs ≤ 2 → GoodUser w l0) (h : powerTable number ast w l0 = some l) : Raw l := by
  unfold powerTable at h
  split at h
  · next hn =>
    have := hw (by omega)
    have h1 := this.eta
    obtain rfl := Option.some.inj h
    refine ⟨this.n, le_rfl, this.Q, le_rfl, ?_, Or.inr rfl, Or.inl rfl⟩
    unfold homemade1; positivity
  · next hn =>
    have := hw (by omega)
    have h1 := this.eps; have h2 := this.tau
    obtain rfl := Option.some.inj h
    refine ⟨this.n, le_rfl, this.Q, le_rfl, ?_, Or.inr rfl, Or.inl rfl⟩
    unfold homemade2; positivity
  all_goals first
    | (exfalso; simp at h; done)
    | (obtain rfl := Option.some.inj h
       refine ⟨by norm_num, by norm_num, by norm_num, ?_, by norm_num, by norm_num, by norm_num⟩
       first
         | (norm_num; done)
         | (rcases ast with _ | x
            · norm_num
            · simpa using hast x rfl))

/-- Every law of dislocation creep that the reader accepts can be used. -/
theorem power_usable (u : Units) (hu : GoodUnits u) (number : Int) (ast weak : Option ℝ) (w : User) (l0 l : Law)
    (hast : ∀ x ∈ ast, 0 ≤ x) (hw : number.natAbs ≤ 2 → GoodUser w l0) (h : readPower u number ast weak w l0 = some l) : Usable l := by
  unfold readPower at h
  obtain ⟨l', h1, rfl⟩ := Option.map_eq_some_iff.1 h
  exact (power_raw number ast w l0 l' hast hw h1).usable u hu number _

/-- Every law of diffusion creep that the reader accepts can be used, except number 1, which assigns the dislocation creep. -/
theorem linear_usable_partial (u : Units) (hu : GoodUnits u) (number : Int) (ast : Option ℝ) (b0 b : Both)
    (hast : ∀ x ∈ ast, 0 ≤ x) (h1 : number.natAbs ≠ 1) (h : readLinear u number ast b0 = some b) : Usable b.lin := by
  unfold readLinear at h
  obtain ⟨b', hb, rfl⟩ := Option.map_eq_some_iff.1 h
  have hraw : Raw b'.lin := by
    unfold linearTable at hb
    split at hb
    · next hn => exact absurd hn h1
    all_goals first
      | (exfalso; simp at hb; done)
      | (obtain rfl := Option.some.inj hb
         refine ⟨by norm_num, by norm_num, by norm_num, ?_, by norm_num, by norm_num, by norm_num⟩
         first
           | (norm_num; done)
           | (rcases ast with _ | x
              · norm_num
              · simpa using hast x rfl))
  exact hraw.usable u hu number b'.lin.a

/-- Number 1 leaves the diffusion creep as it was: with the default of zero everywhere its exponent is zero, and the viscosity a quotient by zero. -/
theorem linear_one_unusable (u : Units) (ast : Option ℝ) (p : Law) :
    ∃ b, readLinear u 1 ast ⟨p, ⟨0, 0, 0, 0, 0, 0, 0, 0, 0, 0⟩⟩ = some b ∧ b.lin.n = 0 ∧ b.lin.A = 0 ∧ ¬ Usable b.lin := by
  refine ⟨_, rfl, rfl, zero_div _, fun h => ?_⟩
  have : (1 : ℝ) ≤ 0 := h.good.n
  linarith

/-- Every law of grain boundary sliding that the reader accepts can be used. -/
theorem sliding_usable (u : Units) (hu : GoodUnits u) (number : Int) (l0 l : Law) (h : readSliding u number l0 = some l) : Usable l := by
  unfold readSliding at h
  obtain ⟨l', h1, rfl⟩ := Option.map_eq_some_iff.1 h
  have hraw : Raw l' := by
    unfold slidingTable at h1
    split at h1
    all_goals first
      | (exfalso; simp at h1; done)
      | (obtain rfl := Option.some.inj h1
         exact ⟨by norm_num, by norm_num, by norm_num, by norm_num, by norm_num, by norm_num, by norm_num⟩)
  exact hraw.usable u hu number l'.a

/-- Every Peierls law that the reader accepts can be used below 1200 degrees Celsius and above zero, with the gas constant and temperatures in
the same units: the exponent stays between one and a thousand. -/
theorem peierls_usable (u : Units) (hu : GoodUnits u) (Tc : ℝ) (hT : 0 < Tc) (number : Int) (l : Peierls)
    (h : readPeierls u number = some l) :
    GoodPeierls (8.31451 / (u.J / Tc)) ((1200 + 27315 / 100) / Tc) l
      ∧ ∀ T, 27315 / 100 / Tc ≤ T → l.Q / (8.31451 / (u.J / Tc)) / T * 2 * l.G * (1 - l.G) + l.n ≤ 1000 := by
  have h1 := hu.S; have h2 := hu.t; have h3 := hu.J
  unfold readPeierls at h
  obtain ⟨l', hl, rfl⟩ := Option.map_eq_some_iff.1 h
  have key : ∀ Q : ℝ, Q / u.J / (8.31451 / (u.J / Tc)) / ((1200 + 27315 / 100) / Tc) = Q / 8.31451 / (1200 + 27315 / 100) := by
    intro Q; field_simp
  have key2 : ∀ Q T : ℝ, 0 ≤ Q → 27315 / 100 / Tc ≤ T → Q / u.J / (8.31451 / (u.J / Tc)) / T ≤ Q / 8.31451 / (27315 / 100) := by
    intro Q T hQ hle
    have hp : (0 : ℝ) < 27315 / 100 / Tc := by positivity
    have e : Q / u.J / (8.31451 / (u.J / Tc)) / (27315 / 100 / Tc) = Q / 8.31451 / (27315 / 100) := by field_simp
    rw [← e]
    exact div_le_div_of_nonneg_left (by positivity) hp hle
  unfold peierlsTable at hl
  split at hl
  · obtain rfl := Option.some.inj hl
    refine ⟨⟨?_, ?_, ?_, ?_, ?_⟩, fun T hle => ?_⟩
    · simp only [scalePeierls]; rw [key]; norm_num
    · simp only [scalePeierls]; positivity
    · norm_num [scalePeierls]
    · simp only [scalePeierls]; positivity
    · simp only [scalePeierls]; positivity
    · simp only [scalePeierls]
      have := key2 431000 T (by norm_num) hle
      norm_num at this ⊢
      linarith
  · obtain rfl := Option.some.inj hl
    refine ⟨⟨?_, ?_, ?_, ?_, ?_⟩, fun T hle => ?_⟩
    · simp only [scalePeierls]; rw [key]; norm_num
    · simp only [scalePeierls]; positivity
    · norm_num [scalePeierls]
    · simp only [scalePeierls]; positivity
    · simp only [scalePeierls]; positivity
    · simp only [scalePeierls]
      have := key2 540000 T (by norm_num) hle
      norm_num at this ⊢
      linarith
  · exact absurd hl (by simp)

/-- The wattmeters of the table can be used at every temperature. -/
theorem grain_usable_partial (u : Units) (hu : GoodUnits u) (number : Int) (l : GrainLaw) (R T : ℝ) (h : readGrain u number = some l)
    (hn : number.natAbs ≠ 11 ∧ number.natAbs ≠ 12) : GoodGse (l.at R T) := by
  have h1 := hu.L; have h2 := hu.S; have h3 := hu.t; have h4 := hu.J
  unfold readGrain at h
  split at h
  all_goals first
    | (exfalso; simp at h; done)
    | (exfalso; omega)
    | (obtain rfl := Option.some.inj h
       have := Real.pi_pos
       constructor <;> simp only [GrainLaw.at, wattmeterLaw] <;> positivity)

/-- The two piezometers of the table give no number: a phase with one of them never gets a result. -/
theorem piezometer_nan (u : Units) (number : Int) (hn : number.natAbs = 11 ∨ number.natAbs = 12) :
    ∃ l, readGrain u number = some l ∧ ∀ (v : Point.Env) (m : Point.Mat) (i : Point.In) (cell : Bool) (R T : ℝ) (o : Point.Out),
      Point.updateGrain v m (l.at R T) i cell ≠ .ok o := by
  have key : ∀ p lg (v : Point.Env) (m : Point.Mat) (i : Point.In) (cell : Bool) (R T : ℝ) (o : Point.Out),
      Point.updateGrain v m ((piezometerLaw u p lg).at R T) i cell ≠ .ok o := by
    intro p lg v m i cell R T o h
    unfold Point.updateGrain at h
    split at h
    · exact Point.Res.noConfusion h
    · rw [if_pos (by simp [GrainLaw.at, piezometerLaw])] at h
      exact Point.Res.noConfusion h
  unfold readGrain
  rcases hn with hn | hn <;> rw [hn]
  · exact ⟨_, rfl, fun v m i cell R T o => key _ _ v m i cell R T o⟩
  · exact ⟨_, rfl, fun v m i cell R T o => key _ _ v m i cell R T o⟩

/-! ### Viscosity of a usable law -/

theorem viscosity_pos (l : Law) (hl : Usable l) (pre R T P d phi e : ℝ) (hpre : 0 < pre) (hd : 0 < d) (he : 0 < e) :
    0 < viscosity pre R T P d phi e l := by
  unfold viscosity Dens.creepViscosity
  have hB : 0 < Dens.pureB pre l.F R T P l.V d l.m l.f l.r l.a phi ⟨l.n, l.A, l.Q⟩ := by
    unfold Dens.pureB
    have h1 := hl.good.A; have h2 := hl.good.F
    have h3 : 0 < l.f ^ (-l.r / l.n) := by
      apply rpow_pos'
      rcases hl.good.f with h | h
      · exact Or.inl h
      · exact Or.inr (by rw [h]; simp)
    positivity
  positivity

/-- Hotter rock is not stiffer, rock under more pressure or with larger grains is not softer, faster flow is not stiffer but the stress does not fall, and
melt weakens. -/
theorem viscosity_trends (l : Law) (hl : Usable l) (ha : 0 ≤ l.a) (pre R T T' P P' d d' phi phi' e e' : ℝ) (hpre : 0 < pre) (hR : 0 < R)
    (hT : 0 < T) (hTT : T ≤ T') (hP : 0 ≤ P) (hPP : P ≤ P') (hd : 0 < d) (hdd : d ≤ d') (hphi : phi ≤ phi') (he : 0 < e) (hee : e ≤ e') :
    viscosity pre R T' P d phi e l ≤ viscosity pre R T P d phi e l
    ∧ viscosity pre R T P d phi e l ≤ viscosity pre R T P' d phi e l
    ∧ viscosity pre R T P d phi e l ≤ viscosity pre R T P d' phi e l
    ∧ viscosity pre R T P d phi' e l ≤ viscosity pre R T P d phi e l
    ∧ viscosity pre R T P d phi e' l ≤ viscosity pre R T P d phi e l
    ∧ 2 * viscosity pre R T P d phi e l * e ≤ 2 * viscosity pre R T P d phi e' l * e' := by
  have h1 := hl.good.A; have h2 := hl.good.F
  have hn : 0 < l.n := by linarith [hl.good.n]
  have h3 : 0 < l.f ^ (-l.r / l.n) := by
    apply rpow_pos'
    rcases hl.good.f with h | h
    · exact Or.inl h
    · exact Or.inr (by rw [h]; simp)
  have hQ := hl.Q; have hV := hl.V; have hm := hl.m
  have hN : 0 ≤ l.Q + P * l.V := by positivity
  unfold viscosity Dens.creepViscosity Dens.pureB
  dsimp only
  have he' : 0 < e' := he.trans_le hee
  have hd' : 0 < d' := hd.trans_le hdd
  have hT' : 0 < T' := hT.trans_le hTT
  refine ⟨?_, ?_, ?_, ?_, ?_, ?_⟩
  · have : Real.exp ((l.Q + P * l.V) / R / l.n / T') ≤ Real.exp ((l.Q + P * l.V) / R / l.n / T) :=
      Real.exp_le_exp.2 (div_le_div_of_nonneg_left (by positivity) hT hTT)
    gcongr
  · have : Real.exp ((l.Q + P * l.V) / R / l.n / T) ≤ Real.exp ((l.Q + P' * l.V) / R / l.n / T) := by
      apply Real.exp_le_exp.2
      gcongr
    gcongr
  · have : d ^ (l.m / l.n) ≤ d' ^ (l.m / l.n) := Real.rpow_le_rpow hd.le hdd (by positivity)
    gcongr
  · have : Real.exp (-l.a * phi' / l.n) ≤ Real.exp (-l.a * phi / l.n) := by
      apply Real.exp_le_exp.2
      apply div_le_div_of_nonneg_right _ hn.le
      nlinarith
    gcongr
  · have : e' ^ (1 / l.n - 1) ≤ e ^ (1 / l.n - 1) := by
      apply Real.rpow_le_rpow_of_nonpos he hee
      have : 1 / l.n ≤ 1 := by rw [div_le_one hn]; exact hl.good.n
      linarith
    gcongr
  · have e1 : ∀ x : ℝ, 0 < x → x ^ (1 / l.n - 1) * x = x ^ (1 / l.n) := by
      intro x hx
      rw [← Real.rpow_add_one hx.ne']; congr 1; ring
    have : e ^ (1 / l.n) ≤ e' ^ (1 / l.n) := Real.rpow_le_rpow he.le hee (by positivity)
    have key : ∀ B : ℝ, 0 ≤ B → 2 * (B * e ^ (1 / l.n - 1)) * e ≤ 2 * (B * e' ^ (1 / l.n - 1)) * e' := by
      intro B hB
      have h4 := mul_le_mul_of_nonneg_left this hB
      rw [← e1 e he, ← e1 e' he'] at h4
      linarith
    exact key _ (by positivity)

/-- The creep laws of the material come from the tables, or are user-defined with positive parameters; gas constant and temperatures are in units
`u` and `Tc`. -/
structure FromTables (u : Units) (Tc : ℝ) (v : Point.Env) (m : Point.Mat) : Prop where
  R : v.R = 8.31451 / (u.J / Tc)
  T : v.sT = Tc
  pwl : m.pwl = true → ∃ number ast weak w l0, (∀ x ∈ ast, 0 ≤ x) ∧ (number.natAbs ≤ 2 → GoodUser w l0)
    ∧ readPower u number ast weak w l0 = some m.pwlLaw
  lin : m.lin = true → ∃ number ast b0 b, (∀ x ∈ ast, 0 ≤ x) ∧ number.natAbs ≠ 1 ∧ readLinear u number ast b0 = some b ∧ m.linLaw = b.lin
  exp : m.exp = true → ∃ number, readPeierls u number = some m.expLaw

/-- What a node needs apart from the flow laws. -/
structure PlainNode (v : Point.Env) (m : Point.Mat) (i : Point.In) : Prop where
  dt : 0 < v.dt
  sE : 0 < v.sE
  sS : 0 < v.sS
  sEta : 0 < v.sEta
  G : 0 < i.G
  d : 0 < i.d ∧ 1 / 10 ^ 13 / v.sL ≤ i.d
  gsRef : 0 < m.gsRef
  eta0 : 0 < m.eta0
  pre : 0 < m.pre
  gbs : m.gbs = false
  mix : ∀ e ∈ m.mixWith, 0 < e
  X : 0 ≤ i.X0 ∧ i.X0 ≤ 1
  some : v.el = true ∨ m.cst = true ∨ m.pwl = true ∨ m.lin = true

theorem tables_sound (u : Units) (hu : GoodUnits u) (Tc : ℝ) (hT : 0 < Tc) (v : Point.Env) (m : Point.Mat) (i : Point.In)
    (hf : FromTables u Tc v m) (hn : PlainNode v m i) : Sound v m i ∧ Moderate v m i := by
  have hR : 0 < v.R := by rw [hf.R]; have := hu.J; positivity
  have hp : m.pwl = true → Usable m.pwlLaw := by
    intro h
    obtain ⟨number, ast, weak, w, l0, h1, h2, h3⟩ := hf.pwl h
    exact power_usable u hu number ast weak w l0 _ h1 h2 h3
  have hl : m.lin = true → Usable m.linLaw := by
    intro h
    obtain ⟨number, ast, b0, b, h1, h2, h3, h4⟩ := hf.lin h
    rw [h4]
    exact linear_usable_partial u hu number ast b0 b h1 h2 h3
  have he : m.exp = true → GoodPeierls v.R ((1200 + 27315 / 100) / v.sT) m.expLaw
      ∧ ∀ T, 27315 / 100 / v.sT ≤ T → m.expLaw.Q / v.R / T * 2 * m.expLaw.G * (1 - m.expLaw.G) + m.expLaw.n ≤ 1000 := by
    intro h
    obtain ⟨number, h1⟩ := hf.exp h
    rw [hf.R, hf.T]
    exact peierls_usable u hu Tc hT number _ h1
  exact ⟨⟨hn.dt, hR, hn.sE, by rw [hf.T]; exact hT, hn.sS, hn.sEta, hn.G, hn.d.1, hn.eta0, hn.pre, fun h => (hp h).good, fun h => (hl h).good,
    fun h => (he h).1, hn.gbs, hn.mix, hn.X, hn.some⟩, ⟨fun h => (hp h).n, fun h => (hl h).n, fun h => (he h).2 _ (le_max_right _ _)⟩⟩

/-- The stress update of a material with laws from the tables always gives a result, at every temperature, pressure and strain rate at which one of
its mechanisms is softer than `1e100` Pa s. -/
theorem tables_go_on (u : Units) (hu : GoodUnits u) (Tc : ℝ) (hT : 0 < Tc) (v : Point.Env) (m : Point.Mat) (i : Point.In) (cell : Bool)
    (hf : FromTables u Tc v m) (hn : PlainNode v m i) (hp : m.plast = true → SimplePlastic v m i)
    (hpos : m.plast = true → 0 < m.etaVp ∨ 0 < yieldStrength m i)
    (hbig : ∃ x ∈ LocalIter.isolated (Point.creep v m id i) (Point.rate v i.E), x ≤ 10 ^ 100 / v.sEta) :
    ∃ o, Point.update v m id i cell = .ok o := by
  obtain ⟨h1, h2⟩ := tables_sound u hu Tc hT v m i hf hn
  exact Point.update_goes_on v m id i cell h1 (fun q a b => ⟨a, b⟩) (fun q a => a) h2 hp hpos (fun _ => hn.gsRef) hn.d.2 hbig

/-- Dry olivine in dislocation, diffusion and Peierls creep. -/
noncomputable def olivine : Point.Mat :=
  { Point.rock with
    cst := false, pwl := true, lin := true, exp := true
    pwlLaw := ((readPower ⟨1, 1, 1, 1⟩ 40 none none ⟨1, 1, 1, 1⟩ ⟨0, 0, 0, 0, 0, 0, 0, 0, 0, 0⟩).getD ⟨0, 0, 0, 0, 0, 0, 0, 0, 0, 0⟩)
    linLaw := ((readLinear ⟨1, 1, 1, 1⟩ 40 none ⟨⟨0, 0, 0, 0, 0, 0, 0, 0, 0, 0⟩, ⟨0, 0, 0, 0, 0, 0, 0, 0, 0, 0⟩⟩).map (·.lin)).getD
      ⟨0, 0, 0, 0, 0, 0, 0, 0, 0, 0⟩
    expLaw := (readPeierls ⟨1, 1, 1, 1⟩ 40).getD ⟨0, 0, 0, 0, 0, 0⟩ }

/-- Elastic, yielding olivine with all its creep laws. -/
example : ∃ o, Point.update { Point.settings true with R := 8.31451 } olivine id (Point.node (1 / 10 ^ 13) (10 ^ 8)) true = .ok o := by
  have hu : GoodUnits ⟨1, 1, 1, 1⟩ := ⟨one_pos, one_pos, one_pos, one_pos⟩
  refine tables_go_on ⟨1, 1, 1, 1⟩ hu 1 one_pos _ olivine _ true ⟨by norm_num, rfl, ?_, ?_, ?_⟩ ⟨?_, ?_, ?_, ?_, ?_, ?_, ?_, ?_, ?_, rfl, ?_, ?_, ?_⟩
    ?_ ?_ ?_
  · exact fun _ => ⟨40, none, none, ⟨1, 1, 1, 1⟩, ⟨0, 0, 0, 0, 0, 0, 0, 0, 0, 0⟩, by simp, by norm_num, rfl⟩
  · exact fun _ => ⟨40, none, ⟨⟨0, 0, 0, 0, 0, 0, 0, 0, 0, 0⟩, ⟨0, 0, 0, 0, 0, 0, 0, 0, 0, 0⟩⟩, _, by simp, by norm_num, rfl, rfl⟩
  · exact fun _ => ⟨40, rfl⟩
  all_goals try (norm_num [Point.settings, Point.node, olivine, Point.rock]; done)
  · intro e he; exact absurd he (by simp [olivine, Point.rock])
  · intro _
    have hc : 0 ≤ Real.cos (Real.pi / 6) := by rw [Real.cos_pi_div_six]; positivity
    refine ⟨rfl, le_rfl, by norm_num [olivine, Point.rock], fun _ => ?_, ?_, by norm_num [Point.settings]⟩
    · simp [Point.node]
    · simp only [Point.node, Real.sin_pi_div_six]; positivity
  · intro _
    right
    have hc : 0 ≤ Real.cos (Real.pi / 6) := by rw [Real.cos_pi_div_six]; positivity
    unfold yieldStrength
    refine lt_min (by norm_num [olivine, Point.rock]) ?_
    simp only [Point.node, Real.sin_pi_div_six]
    have := mul_nonneg (by norm_num : (0 : ℝ) ≤ 2 * 10 ^ 7) hc
    linarith
  · refine ⟨10 ^ 21, ?_, by norm_num [Point.settings]⟩
    unfold LocalIter.isolated
    simp only [List.mem_append, Option.mem_toList]
    refine Or.inl (Or.inl (Or.inl (Or.inr ?_)))
    norm_num [Point.creep, Point.settings, Point.Env.el, Point.moduli, Point.Env.dtEff, Point.node]

end Verif.Flow
