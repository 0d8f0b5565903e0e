import Verif.Props.TimeSeries
import Mathlib.Tactic.Order

/-
C111: the deformation maps.
-/
namespace Verif.Output

set_option linter.unusedVariables false

/-! ### Axes -/

theorem mapAxis_eq (lo hi : ℝ) (n i : Nat) : mapAxis lo hi n i = lo + i * ((hi - lo) / ((n : ℝ) - 1)) := by
  induction i with
  | zero => simp [mapAxis]
  | succ i ih => rw [mapAxis, ih]; push_cast; ring

/-- Every axis starts at the minimum, ends at the maximum and is evenly spaced. -/
theorem map_axes (lo hi : ℝ) (n : Nat) (hn : 2 ≤ n) :
    mapAxis lo hi n 0 = lo ∧ mapAxis lo hi n (n - 1) = hi ∧
      ∀ i, mapAxis lo hi n (i + 1) - mapAxis lo hi n i = (hi - lo) / ((n - 1 : Nat) : ℝ) := by
  have hc : ((n - 1 : Nat) : ℝ) = (n : ℝ) - 1 := by
    rw [Nat.cast_sub (by omega)]; simp
  have hn0 : (n : ℝ) - 1 ≠ 0 := by
    have : (2 : ℝ) ≤ n := by exact_mod_cast hn
    linarith
  refine ⟨rfl, ?_, ?_⟩
  · rw [mapAxis_eq, hc]
    field_simp
    ring
  · intro i
    rw [hc, mapAxis]
    ring

example : (2 : Nat) ≤ 5 := by norm_num

/-! ### Mechanism -/

/-- The mechanisms, with the number the maps use for each. -/
inductive Mech
  | dislocation | diffusion | gbs | peierls | plastic | constant | elastic
deriving DecidableEq

def Mech.code : Mech → Int
  | .dislocation => 1
  | .diffusion => 2
  | .gbs => 3
  | .peierls => 4
  | .plastic => 5
  | .constant => 6
  | .elastic => 7

def Mech.rate {K : Type*} (r : Rates K) : Mech → K
  | .dislocation => r.pwl
  | .diffusion => r.lin
  | .gbs => r.gbs
  | .peierls => r.exp
  | .plastic => r.pl
  | .constant => r.cst
  | .elastic => r.el

/-- `m` is faster than every other mechanism. -/
def Dominates {K : Type*} [LT K] (r : Rates K) (m : Mech) : Prop := ∀ m', m' ≠ m → m'.rate r < m.rate r

theorem dominates_unique {K : Type*} [LinearOrder K] {r : Rates K} {m m' : Mech} (h : Dominates r m)
    (h' : Dominates r m') : m = m' := by
  by_contra hne
  exact lt_asymm (h m' (fun e => hne e.symm)) (h' m hne)

open Classical in
theorem selectMech_eq {K : Type*} [LinearOrder K] (r : Rates K) (old : Int) :
    selectMech r old =
      if Dominates r .elastic then 7 else if Dominates r .constant then 6 else
      if Dominates r .plastic then 5 else if Dominates r .peierls then 4 else
      if Dominates r .gbs then 3 else if Dominates r .diffusion then 2 else
      if Dominates r .dislocation then 1 else old := by
  have all : ∀ P : Mech → Prop, (∀ m, P m) ↔ (P .dislocation ∧ P .diffusion ∧ P .gbs ∧ P .peierls ∧
      P .plastic ∧ P .constant ∧ P .elastic) := by
    intro P
    constructor
    · intro h; exact ⟨h _, h _, h _, h _, h _, h _, h _⟩
    · rintro ⟨h1, h2, h3, h4, h5, h6, h7⟩ m
      cases m <;> assumption
  have d : ∀ m, Dominates r m ↔ _ := fun m => all _
  unfold selectMech
  simp only [d, Mech.rate, ne_eq, reduceCtorEq, not_false_eq_true, not_true_eq_false, true_implies,
    false_implies, true_and, and_true]
  have perm : ∀ {P Q : Prop} {dP : Decidable P} {dQ : Decidable Q} {a b c : Int}, (P ↔ Q) → b = c →
      (@ite Int P dP a b) = @ite Int Q dQ a c := by
    intro P Q dP dQ a b c h e
    by_cases hP : P
    · rw [if_pos hP, if_pos (h.1 hP)]
    · rw [if_neg hP, if_neg (fun hQ => hP (h.2 hQ)), e]
  refine perm ?_ (perm ?_ (perm ?_ (perm ?_ (perm ?_ (perm ?_ (perm ?_ rfl))))))
  all_goals
    constructor <;> rintro ⟨h1, h2, h3, h4, h5, h6⟩ <;> refine ⟨?_, ?_, ?_, ?_, ?_, ?_⟩ <;> assumption

/-- A mechanism faster than all others is the one recorded; without one, the previous content of the
variable stays. -/
theorem selectMech_spec {K : Type*} [LinearOrder K] (r : Rates K) (old : Int) :
    (∀ m, Dominates r m → selectMech r old = m.code) ∧
      ((∀ m, ¬ Dominates r m) → selectMech r old = old) := by
  rw [selectMech_eq]
  constructor
  · intro m hm
    have h : ∀ m', Dominates r m' ↔ m' = m := fun m' =>
      ⟨fun h' => dominates_unique h' hm, fun e => e ▸ hm⟩
    simp only [h]
    cases m <;> simp [Mech.code]
  · intro h
    simp only [h, if_false]

/-! ### The maps -/

/-- Position of the point of temperature number `ix`, strain rate number `iy`, grain size number `iz`:
no two points share one. -/
theorem map_index_injective {nT nE ix iy iz jx jy jz : Nat} (hx : ix < nT) (hy : iy < nE) (hx' : jx < nT)
    (hy' : jy < nE) (h : ix + iy * nT + iz * nE * nT = jx + jy * nT + jz * nE * nT) :
    ix = jx ∧ iy = jy ∧ iz = jz := by
  have e1 : ix + (iy + iz * nE) * nT = jx + (jy + jz * nE) * nT := by linarith
  have h0 : 0 < nT := by omega
  have hx1 : ix = jx := by
    have := congrArg (· % nT) e1
    simpa only [Nat.add_mul_mod_self_right, Nat.mod_eq_of_lt hx, Nat.mod_eq_of_lt hx'] using this
  subst hx1
  have e2 : iy + iz * nE = jy + jz * nE := Nat.eq_of_mul_eq_mul_right h0 (Nat.add_left_cancel e1)
  have hy1 : iy = jy := by
    have := congrArg (· % nE) e2
    simpa only [Nat.add_mul_mod_self_right, Nat.mod_eq_of_lt hy, Nat.mod_eq_of_lt hy'] using this
  subst hy1
  exact ⟨rfl, rfl, Nat.eq_of_mul_eq_mul_right (by omega : 0 < nE) (Nat.add_left_cancel e2)⟩

/-- The material of a map: phase `k` without correction factors, with grain size `g`. -/
noncomputable def mapMaterial (mat : MapMat) (k : Nat) (g : ℝ) : MapMat :=
  ⟨fun j => if j = k then 1 else mat.Flin j, fun j => if j = k then 1 else mat.Fgbs j,
    fun j => if j = k then 1 else mat.Fpwl j, fun j => if j = k then 0 else mat.texp j,
    fun j => if j = k then g else mat.gs_ref j⟩

/-- Entry `ind` of the map holds the results `p`; the mechanism is the one selected from them, starting
from some earlier content of the variable. -/
def Holds (M : DefMap) (ind : Nat) (p : MapPoint) : Prop :=
  M.stress ind = p.txx ∧ M.visco ind = p.eta ∧ ∃ old, M.mech ind = selectMech p.rates old

theorem upd_eq_ite {α : Type*} (a : Nat → α) (k : Nat) (v : α) : upd a k v = fun j => if j = k then v else a j := by
  funext j
  by_cases h : j = k
  · subst h; rw [upd_same, if_pos rfl]
  · rw [upd_ne _ _ h, if_neg h]

theorem mapLoops_spec (visc : Visc) (k nT nE nd : Nat) (T E d : Nat → ℝ) (mat mat1 : MapMat) (mech : Int)
    (junk : DefMap) (h1 : ∀ g, { mat1 with gs_ref := upd mat1.gs_ref k g } = mapMaterial mat k g) :
    let r := mapLoops visc k nT nE nd T E d (mat1, mech, junk)
    (∃ g, { r.1 with gs_ref := upd r.1.gs_ref k g } = mapMaterial mat k g) ∧
    (∀ g, { r.1 with gs_ref := upd r.1.gs_ref k g } = mapMaterial mat k g) ∧
    ∀ ix < nT, ∀ iy < nE, ∀ iz < nd,
      Holds r.2.2 (ix + iy * nT + iz * nE * nT) (visc (mapMaterial mat k (d iz)) k (T ix) (d iz) (E iy) (E iy)) := by
  intro r
  -- what is known of the maps once the points `done` have been computed
  let Inv : (Nat → Nat → Nat → Prop) → DefMap → Prop := fun done M =>
    ∀ ix < nT, ∀ iy < nE, ∀ iz, done ix iy iz →
      Holds M (ix + iy * nT + iz * nE * nT) (visc (mapMaterial mat k (d iz)) k (T ix) (d iz) (E iy) (E iy))
  have outer := forUp_inv (P := fun n (st : MapMat × Int × DefMap) =>
      (∀ g, { st.1 with gs_ref := upd st.1.gs_ref k g } = mapMaterial mat k g) ∧
        Inv (fun _ _ iz => iz < n) st.2.2)
    (f := fun (st : MapMat × Int × DefMap) iz =>
      let mat : MapMat := { st.1 with gs_ref := upd st.1.gs_ref k (d iz) }
      forUp nT (mat, st.2.1, st.2.2) fun st ix =>
        forUp nE st fun st iy =>
          let p := visc st.1 k (T ix) (d iz) (E iy) (E iy)
          let mech := selectMech p.rates st.2.1
          let ind := ix + iy * nT + iz * nE * nT
          (st.1, mech, ⟨upd st.2.2.mech ind mech, upd st.2.2.stress ind p.txx, upd st.2.2.visco ind p.eta⟩))
    (s := (mat1, mech, junk)) nd
    ⟨h1, fun ix _ iy _ iz h => absurd h (Nat.not_lt_zero _)⟩ ?_
  · exact ⟨⟨0, outer.1 0⟩, outer.1, fun ix hx iy hy iz hz => outer.2 ix hx iy hy iz hz⟩
  intro iz st hiz ⟨ih1, ih2⟩
  dsimp only
  rw [ih1 (d iz)]
  have mid := forUp_inv (P := fun n (s : MapMat × Int × DefMap) =>
      s.1 = mapMaterial mat k (d iz) ∧
        Inv (fun jx _ jz => jz < iz ∨ (jz = iz ∧ jx < n)) s.2.2)
    (f := fun (st : MapMat × Int × DefMap) ix =>
        forUp nE st fun st iy =>
          let p := visc st.1 k (T ix) (d iz) (E iy) (E iy)
          let mech := selectMech p.rates st.2.1
          let ind := ix + iy * nT + iz * nE * nT
          (st.1, mech, ⟨upd st.2.2.mech ind mech, upd st.2.2.stress ind p.txx, upd st.2.2.visco ind p.eta⟩))
    (s := (mapMaterial mat k (d iz), st.2.1, st.2.2)) nT
    ⟨rfl, fun jx hx jy hy jz h => ih2 jx hx jy hy jz (h.resolve_right fun h => absurd h.2 (Nat.not_lt_zero _))⟩ ?_
  · refine ⟨fun g => ?_, fun jx hx jy hy jz h => mid.2 jx hx jy hy jz ?_⟩
    · rw [mid.1]
      unfold mapMaterial
      simp only [upd_eq_ite]
      congr 1
      funext j
      by_cases h : j = k <;> simp [h]
    · rcases Nat.lt_succ_iff_lt_or_eq.1 h with h | h
      · exact Or.inl h
      · exact Or.inr ⟨h, hx⟩
  intro ix st2 hix ⟨jh1, jh2⟩
  have inner := forUp_inv (P := fun n (s : MapMat × Int × DefMap) =>
      s.1 = mapMaterial mat k (d iz) ∧
        Inv (fun jx jy jz => (jz < iz ∨ (jz = iz ∧ jx < ix)) ∨ (jz = iz ∧ jx = ix ∧ jy < n)) s.2.2)
    (f := fun (st : MapMat × Int × DefMap) iy =>
          let p := visc st.1 k (T ix) (d iz) (E iy) (E iy)
          let mech := selectMech p.rates st.2.1
          let ind := ix + iy * nT + iz * nE * nT
          (st.1, mech, ⟨upd st.2.2.mech ind mech, upd st.2.2.stress ind p.txx, upd st.2.2.visco ind p.eta⟩))
    (s := st2) nE
    ⟨jh1, fun jx hx jy hy jz h => jh2 jx hx jy hy jz
      (h.resolve_right fun h => absurd h.2.2 (Nat.not_lt_zero _))⟩ ?_
  · refine ⟨inner.1, fun jx hx jy hy jz h => inner.2 jx hx jy hy jz ?_⟩
    rcases h with h | ⟨h, h'⟩
    · exact Or.inl (Or.inl h)
    · rcases Nat.lt_succ_iff_lt_or_eq.1 h' with h' | h'
      · exact Or.inl (Or.inr ⟨h, h'⟩)
      · exact Or.inr ⟨h, h', hy⟩
  intro iy st3 hiy ⟨kh1, kh2⟩
  refine ⟨kh1, fun jx hx jy hy jz h => ?_⟩
  dsimp only
  rw [kh1]
  by_cases he : jx + jy * nT + jz * nE * nT = ix + iy * nT + iz * nE * nT
  · obtain ⟨e1, e2, e3⟩ := map_index_injective hx hy hix hiy he
    subst e1; subst e2; subst e3
    exact ⟨upd_same _ _ _, upd_same _ _ _, _, upd_same _ _ _⟩
  · obtain ⟨a, b, old, c⟩ := kh2 jx hx jy hy jz (by
      rcases h with h | ⟨h, h', h''⟩
      · exact Or.inl h
      · rcases Nat.lt_succ_iff_lt_or_eq.1 h'' with h3 | h3
        · exact Or.inr ⟨h, h', h3⟩
        · subst h; subst h'; subst h3; exact absurd rfl he)
    exact ⟨(upd_ne _ _ he).trans a, (upd_ne _ _ he).trans b, old, (upd_ne _ _ he).trans c⟩

/-- **C111 (partial).**  The deformation map of a phase: each entry holds stress and viscosity that the
flow law gives for its own temperature, strain rate and grain size, with the correction factors of that
phase off; where one mechanism is faster than all others the entry names it; and all material parameters
are afterwards what they were.  Missing: points where the fastest rate is shared
(`tie_keeps_last_mechanism`); and the strain rate applied is not the one the axis shows
(`map_strain_rate_is_not_the_axis`). -/
theorem deformation_map_partial (visc : Visc) (nT nE nd : Nat) (T E d : Nat → ℝ) (k : Nat)
    (mat : MapMat) (mech : Int) (junk : DefMap) :
    let r := mapPhase visc nT nE nd T E d k mat mech junk
    r.1 = mat ∧
    ∀ ix < nT, ∀ iy < nE, ∀ iz < nd,
      let p := visc (mapMaterial mat k (d iz)) k (T ix) (d iz) (E iy) (E iy)
      let ind := ix + iy * nT + iz * nE * nT
      r.2.2.stress ind = p.txx ∧ r.2.2.visco ind = p.eta ∧
        ∀ m, Dominates p.rates m → r.2.2.mech ind = m.code := by
  intro r
  have h1 : ∀ g, (⟨upd mat.Flin k 1, upd mat.Fgbs k 1, upd mat.Fpwl k 1,
      upd mat.texp k 0, upd mat.gs_ref k g⟩ : MapMat) = mapMaterial mat k g := by
    intro g
    unfold mapMaterial
    simp only [upd_eq_ite]
  have spec := mapLoops_spec visc k nT nE nd T E d mat
    ⟨upd mat.Flin k 1, upd mat.Fgbs k 1, upd mat.Fpwl k 1, upd mat.texp k 0, mat.gs_ref⟩ mech junk h1
  obtain ⟨-, s1, s2⟩ := spec
  constructor
  · have e := s1 (mat.gs_ref k)
    have e1 := congrArg MapMat.Flin e
    have e2 := congrArg MapMat.Fgbs e
    have e3 := congrArg MapMat.Fpwl e
    have e4 := congrArg MapMat.texp e
    have e5 := congrArg MapMat.gs_ref e
    simp only at e1 e2 e3 e4 e5
    have back : ∀ (a b : Nat → ℝ) (v : ℝ), a = (fun j => if j = k then v else b j) → upd a k (b k) = b := by
      intro a b v h
      rw [upd_eq_ite, h]
      funext j
      by_cases hj : j = k <;> simp [hj]
    show (mapPhase visc nT nE nd T E d k mat mech junk).1 = mat
    unfold mapPhase
    ext1
    · exact back _ _ _ e1
    · exact back _ _ _ e2
    · exact back _ _ _ e3
    · exact back _ _ _ e4
    · dsimp only
      rw [e5]
      unfold mapMaterial
      funext j
      by_cases hj : j = k <;> simp [hj]
  · intro ix hx iy hy iz hz p ind
    obtain ⟨a, b, old, c⟩ := s2 ix hx iy hy iz hz
    exact ⟨a, b, fun m hm => c.trans ((selectMech_spec p.rates old).1 m hm)⟩

/-- A flow law with only dislocation (rate `T`) and diffusion (rate 1) creep. -/
noncomputable def twoLaws : Visc := fun _ _ T _ _ _ => ⟨1, 1, ⟨0, 0, T, 0, 1, 0, 0⟩⟩

/-- The theorem names a mechanism: at temperature 2 dislocation creep dominates. -/
example : (mapPhase twoLaws 1 1 1 (fun _ => 2) (fun _ => 1) (fun _ => 1) 0
    ⟨fun _ => 7, fun _ => 7, fun _ => 7, fun _ => 7, fun _ => 7⟩ 99 ⟨fun _ => 0, fun _ => 0, fun _ => 0⟩).2.2.mech 0
      = 1 := by
  have := (deformation_map_partial twoLaws 1 1 1 (fun _ => 2) (fun _ => 1) (fun _ => 1) 0
    ⟨fun _ => 7, fun _ => 7, fun _ => 7, fun _ => 7, fun _ => 7⟩ 99 ⟨fun _ => 0, fun _ => 0, fun _ => 0⟩).2 0
    (by norm_num) 0 (by norm_num) 0 (by norm_num)
  refine this.2.2 .dislocation ?_
  intro m hm
  cases m <;> simp [twoLaws, Mech.rate] at hm ⊢

/-- Where two mechanisms share the largest rate the map shows whatever the variable held before: the
mechanism of the point before, or for the first point uninitialised memory. -/
theorem tie_keeps_last_mechanism (junkMech : Int) (mat : MapMat) (junk : DefMap) :
    (mapPhase twoLaws 1 1 1 (fun _ => 1) (fun _ => 1) (fun _ => 1) 0 mat junkMech junk).2.2.mech 0 = junkMech := by
  have tie : ∀ old, selectMech (⟨0, 0, 1, 0, 1, 0, 0⟩ : Rates ℝ) old = old := by
    intro old
    refine (selectMech_spec _ old).2 ?_
    intro m hm
    have h1 := hm .dislocation
    have h2 := hm .diffusion
    cases m <;> simp [Mech.rate] at h1 h2 <;> linarith
  simp only [mapPhase, mapLoops, forUp, twoLaws, tie]
  simp [upd]

/-- The strain rate on the axis of a map is not the second invariant applied: the axis value is used for
both normal components, which with the out-of-plane component of the flow laws makes √3 times it. -/
theorem map_strain_rate_is_not_the_axis (E : ℝ) (hE : 0 < E) :
    viscInv E E 0 = Real.sqrt 3 * E ∧ viscInv E E 0 ≠ E := by
  rw [viscInv_eq]
  have h : inv3 E E 0 = Real.sqrt 3 * E := by
    unfold inv3
    rw [show (E ^ 2 + E ^ 2 + (-(E + E)) ^ 2) / 2 + (0 : ℝ) ^ 2 = 3 * E ^ 2 by ring,
      Real.sqrt_mul (by norm_num), Real.sqrt_sq hE.le]
  refine ⟨h, ?_⟩
  rw [h]
  intro h'
  have h3 : Real.sqrt 3 = 1 := by
    have : (Real.sqrt 3 - 1) * E = 0 := by linarith
    rcases mul_eq_zero.1 this with h | h
    · linarith
    · exact absurd h hE.ne'
  have := Real.sq_sqrt (show (0 : ℝ) ≤ 3 by norm_num)
  rw [h3] at this
  norm_num at this

end Verif.Output
