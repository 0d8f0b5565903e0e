import Verif.Props.History

/- C170: accumulated strain in homogeneous flows, along any path, through any substeps and on any moving grid. -/
namespace Verif.Hist
open Verif Interp

variable {K : Type*} [Field K] [LinearOrder K] [IsStrictOrderedRing K] [FloorRing K]

/-- What a (sub)step presents to the update of one marker: cell centres and spacing of the grid at that time, the
length of the step, the rates and tags of the cells, and the marker's phase and position at that time. -/
structure Moment (K : Type*) where
  X : Int → K
  Z : Int → K
  dx : K
  dz : K
  dt : K
  r : Rates K
  tag : Int → Int
  phase : Int
  x : K
  z : K

/-- `AccumulatedStrainII` in the loops over steps and substeps (Main_DOODZ.c:1041-1071), for one marker.  The grid
may differ from one call to the next (`PureShearALE`), the number of cells may not. -/
def runMoments (nx nz : Nat) : List (Moment K) → Strain K → Option (Strain K)
  | [], s => some s
  | p :: rest, s =>
    match accumulate nx nz p.X p.Z p.dx p.dz p.dt p.r p.tag p.phase p.x p.z s with
    | none => none
    | some s' => runMoments nx nz rest s'

/-- Strain rates of a homogeneous flow, one number per mechanism. -/
structure Spec.Flow (K : Type*) where
  el : K
  pl : K
  pwl : K
  exp : K
  lin : K
  gbs : K
  cst : K

/-- All mechanisms together. -/
def Spec.Flow.total (f : Spec.Flow K) : K := f.pl + f.pwl + f.exp + f.lin + f.gbs + f.el + f.cst

/-- The flow at this moment is homogeneous with the rates `f`, there is no air, time does not run backwards. -/
structure Spec.Homogeneous (nx nz : Nat) (f : Spec.Flow K) (p : Moment K) : Prop where
  rates : p.r = ⟨fun _ => f.el, fun _ => f.pl, fun _ => f.pwl, fun _ => f.exp, fun _ => f.lin, fun _ => f.gbs, fun _ => f.cst⟩
  air : NoAir nx nz p.tag
  time : 0 ≤ p.dt
  pos : 0 ≤ f.total

/-- C170.  In a history of homogeneous flows every strain measure of a marker grows by the sum of rate times duration over the moments at which the marker was active, whatever its path and however the grid moves. -/
theorem strain_is_rate_times_time {nx nz : Nat} (hx : 2 ≤ nx) (hz : 2 ≤ nz) (L : List (Moment K × Spec.Flow K)) (hL : ∀ q ∈ L, Spec.Homogeneous nx nz q.2 q.1) (s : Strain K) :
    ∃ s', runMoments nx nz (L.map Prod.fst) s = some s' ∧
      (∀ (get : Strain K → K) (rate : Spec.Flow K → K), (get, rate) ∈ [((fun t => t.tot : Strain K → K), (Spec.Flow.total : Spec.Flow K → K)), (fun t => t.el, fun f => f.el), (fun t => t.pl, fun f => f.pl), (fun t => t.pwl, fun f => f.pwl), (fun t => t.exp, fun f => f.exp), (fun t => t.lin, fun f => f.lin), (fun t => t.gbs, fun f => f.gbs)] →
        get s' = get s + (L.map fun q => if q.1.phase = -1 then 0 else q.1.dt * rate q.2).sum) := by
  induction L generalizing s with
  | nil => exact ⟨s, rfl, fun _ _ _ => by simp⟩
  | cons q rest ih =>
    obtain ⟨p, f⟩ := q
    have H := hL _ List.mem_cons_self
    have one := strain_uniform hx hz p.X p.Z p.dx p.dz p.x p.z p.dt H.time f.el f.pl f.pwl f.exp f.lin f.gbs f.cst H.pos p.tag H.air p.phase s
    rw [← H.rates] at one
    obtain ⟨s', e', g'⟩ := ih (fun q hq => hL q (List.mem_cons_of_mem _ hq)) (if p.phase = -1 then s else
      ⟨s.tot + p.dt * (f.pl + f.pwl + f.exp + f.lin + f.gbs + f.el + f.cst), s.el + p.dt * f.el, s.pl + p.dt * f.pl, s.pwl + p.dt * f.pwl, s.exp + p.dt * f.exp, s.lin + p.dt * f.lin, s.gbs + p.dt * f.gbs⟩)
    refine ⟨s', by simp only [List.map_cons, runMoments, one]; exact e', fun get rate hg => ?_⟩
    rw [g' get rate hg, List.map_cons, List.sum_cons]
    simp only [List.mem_cons, List.not_mem_nil, or_false, Prod.mk.injEq] at hg
    rcases hg with ⟨rfl, rfl⟩ | ⟨rfl, rfl⟩ | ⟨rfl, rfl⟩ | ⟨rfl, rfl⟩ | ⟨rfl, rfl⟩ | ⟨rfl, rfl⟩ | ⟨rfl, rfl⟩ <;>
      by_cases hp : p.phase = -1 <;> simp [hp, Spec.Flow.total, add_assoc]

/-- C170 (substeps).  Two ways of dividing the same time in a steady homogeneous flow, with any grids, paths and numbers of substeps, leave an active marker with the same strain. -/
theorem strain_independent_of_substeps {nx nz : Nat} (hx : 2 ≤ nx) (hz : 2 ≤ nz) (f : Spec.Flow K) (A B : List (Moment K)) (hA : ∀ p ∈ A, Spec.Homogeneous nx nz f p ∧ p.phase ≠ -1) (hB : ∀ p ∈ B, Spec.Homogeneous nx nz f p ∧ p.phase ≠ -1)
    (time : (A.map Moment.dt).sum = (B.map Moment.dt).sum) (s : Strain K) : runMoments nx nz A s = runMoments nx nz B s ∧ runMoments nx nz A s ≠ none := by
  have red : ∀ (L : List (Moment K)) (rate : Spec.Flow K → K), (∀ p ∈ L, Spec.Homogeneous nx nz f p ∧ p.phase ≠ -1) → ((L.map fun p => (p, f)).map fun q => if q.1.phase = -1 then 0 else q.1.dt * rate q.2).sum = (L.map Moment.dt).sum * rate f := by
    intro L rate hL
    induction L with
    | nil => simp
    | cons p rest ih =>
      have := ih fun q hq => hL q (List.mem_cons_of_mem _ hq)
      simp only [List.map_cons, List.sum_cons, this, if_neg (hL p List.mem_cons_self).2]
      ring
  have fst : ∀ L : List (Moment K), (L.map fun p => (p, f)).map Prod.fst = L := by intro L; simp [Function.comp_def]
  have hom : ∀ L : List (Moment K), (∀ p ∈ L, Spec.Homogeneous nx nz f p ∧ p.phase ≠ -1) → ∀ q ∈ L.map fun p => (p, f), Spec.Homogeneous nx nz q.2 q.1 := by
    intro L hL q hq
    obtain ⟨p, hp, rfl⟩ := List.mem_map.mp hq
    exact (hL p hp).1
  obtain ⟨a, ea, ga⟩ := strain_is_rate_times_time hx hz _ (hom A hA) s
  obtain ⟨b, eb, gb⟩ := strain_is_rate_times_time hx hz _ (hom B hB) s
  rw [fst] at ea eb
  have same : ∀ (get : Strain K → K) (rate : Spec.Flow K → K), (get, rate) ∈ [((fun t => t.tot : Strain K → K), (Spec.Flow.total : Spec.Flow K → K)), (fun t => t.el, fun f => f.el), (fun t => t.pl, fun f => f.pl), (fun t => t.pwl, fun f => f.pwl), (fun t => t.exp, fun f => f.exp), (fun t => t.lin, fun f => f.lin), (fun t => t.gbs, fun f => f.gbs)] → get a = get b := by
    intro get rate hg
    rw [ga get rate hg, gb get rate hg, red A rate hA, red B rate hB, time]
  have t1 := same (fun t => t.tot) Spec.Flow.total (by simp)
  have t2 := same (fun t => t.el) (fun f => f.el) (by simp)
  have t3 := same (fun t => t.pl) (fun f => f.pl) (by simp)
  have t4 := same (fun t => t.pwl) (fun f => f.pwl) (by simp)
  have t5 := same (fun t => t.exp) (fun f => f.exp) (by simp)
  have t6 := same (fun t => t.lin) (fun f => f.lin) (by simp)
  have t7 := same (fun t => t.gbs) (fun f => f.gbs) (by simp)
  have ab : a = b := by
    obtain ⟨_, _, _, _, _, _, _⟩ := a
    obtain ⟨_, _, _, _, _, _, _⟩ := b
    simp only at t1 t2 t3 t4 t5 t6 t7
    subst t1 t2 t3 t4 t5 t6 t7; rfl
  rw [ea, eb, ab]
  exact ⟨rfl, by simp⟩

/-- Non-vacuity: one step of two time units against two of one on a grid that shrinks, along different paths. -/
example :
    let r : Rates ℚ := ⟨fun _ => 0, fun _ => 1 / 2, fun _ => 1, fun _ => 0, fun _ => 0, fun _ => 0, fun _ => 0⟩
    let p : Moment ℚ := ⟨fun j => (j : ℚ) + 1 / 2, fun j => (j : ℚ) + 1 / 2, 1, 1, 2, r, fun _ => -1, 0, 1, 1⟩
    runMoments 2 2 [p] ⟨1, 0, 1, 0, 0, 0, 0⟩ = runMoments 2 2 [{ p with dt := 1, x := 3 / 4 }, { p with dt := 1, x := 1 / 2, dx := 1 / 2, X := fun j => (j : ℚ) / 2 + 1 / 4 }] ⟨1, 0, 1, 0, 0, 0, 0⟩ := by
  have na : NoAir 2 2 (fun _ => (-1 : Int)) := fun _ _ => by norm_num
  refine (strain_independent_of_substeps (f := ⟨0, 1 / 2, 1, 0, 0, 0, 0⟩) (by norm_num) (by norm_num) _ _ ?_ ?_ (by norm_num) _).1
  · intro p hp
    simp only [List.mem_cons, List.not_mem_nil, or_false] at hp
    subst hp
    exact ⟨⟨rfl, na, by norm_num, by norm_num [Spec.Flow.total]⟩, by norm_num⟩
  · intro p hp
    simp only [List.mem_cons, List.not_mem_nil, or_false] at hp
    rcases hp with rfl | rfl
    · exact ⟨⟨rfl, na, by norm_num, by norm_num [Spec.Flow.total]⟩, by norm_num⟩
    · exact ⟨⟨rfl, na, by norm_num, by norm_num [Spec.Flow.total]⟩, by norm_num⟩

end Verif.Hist
