import Verif.Model.Residual
import Verif.Props.Extract
import Verif.Spec.Threads
import Mathlib.Algebra.BigOperators.Group.List.Basic
import Mathlib.Algebra.BigOperators.Group.Finset.Basic
import Mathlib.Algebra.Order.BigOperators.Group.Finset
import Mathlib.Tactic.Linarith
import Mathlib.Tactic.Positivity

set_option linter.unusedSectionVars false
set_option linter.unusedSimpArgs false
set_option linter.unusedVariables false

/- C102, C103: the defect handed to the Stokes solver and the residual norms that are reported. -/
namespace Verif.Resid
open Verif

section
variable {K : Type*} [Field K]

/-- Distinct nodes of `l` that pass the filter write distinct entries. -/
private def Inj (ok : Nat → Bool) (ix : Nat → Nat) (l : List Nat) : Prop :=
  ∀ a ∈ l, ∀ b ∈ l, ok a = true → ok b = true → ix a = ix b → a = b

private theorem mom_fold (cover : Nat → Bool) (tag eqn : Nat → Int) (d : Nat → K) :
    ∀ (l : List Nat) (s : PassSt K), l.Nodup →
      Inj (fun a => extractVel (tag a)) (fun a => (eqn a).toNat) l →
    let o := l.foldl (momBody cover tag eqn d) s
    (∀ a ∈ l, extractVel (tag a) = true →
      o.F (eqn a).toNat = s.F (eqn a).toNat * d (eqn a).toNat ∧ o.r a = s.F (eqn a).toNat) ∧
    (∀ e, (∀ a ∈ l, extractVel (tag a) = true → (eqn a).toNat ≠ e) → o.F e = s.F e) ∧
    (∀ a, (a ∉ l ∨ extractVel (tag a) = false) → o.r a = s.r a) ∧
    o.sum = s.sum + ((l.filter fun a => extractVel (tag a) && cover a).map fun a =>
      (s.F (eqn a).toNat * d (eqn a).toNat) * (s.F (eqn a).toNat * d (eqn a).toNat)).sum ∧
    o.ndof = s.ndof + (l.filter fun a => extractVel (tag a) && cover a).length := by
  intro l
  induction l with
  | nil => intro s _ _; simp
  | cons c l ih =>
    intro s hn hinj
    rw [List.nodup_cons] at hn
    have hinj' : Inj (fun a => extractVel (tag a)) (fun a => (eqn a).toNat) l := fun a ha b hb =>
      hinj a (List.mem_cons_of_mem _ ha) b (List.mem_cons_of_mem _ hb)
    obtain ⟨h1, h2, h3, h4, h5⟩ := ih (momBody cover tag eqn d s c) hn.2 hinj'
    simp only [List.foldl_cons]
    by_cases hc : extractVel (tag c) = true
    · have hne : ∀ a ∈ l, extractVel (tag a) = true → (eqn a).toNat ≠ (eqn c).toNat := by
        intro a ha hok he
        have := hinj a (List.mem_cons_of_mem _ ha) c List.mem_cons_self hok hc he
        exact hn.1 (this ▸ ha)
      have bF : (momBody cover tag eqn d s c).F = upd s.F (eqn c).toNat (s.F (eqn c).toNat * d (eqn c).toNat) := by
        unfold momBody; simp only [hc, if_true]; split <;> rfl
      have br : (momBody cover tag eqn d s c).r = upd s.r c (s.F (eqn c).toNat) := by
        unfold momBody; simp only [hc, if_true]; split <;> rfl
      refine ⟨?_, ?_, ?_, ?_, ?_⟩
      · intro a ha hok
        rcases List.mem_cons.mp ha with rfl | ha
        · refine ⟨?_, ?_⟩
          · rw [h2 _ hne, bF, upd_same]
          · rw [h3 _ (Or.inl hn.1), br, upd_same]
        · have := h1 a ha hok
          rw [bF, upd_ne _ _ (hne a ha hok)] at this
          exact this
      · intro e he
        rw [h2 e (fun a ha => he a (List.mem_cons_of_mem _ ha)), bF,
          upd_ne _ _ (Ne.symm (he c List.mem_cons_self hc))]
      · intro a ha
        have hac : a ≠ c := by
          rintro rfl
          rcases ha with h | h
          · exact h List.mem_cons_self
          · rw [hc] at h; exact absurd h (by decide)
        rw [h3 a (ha.imp_left fun h h' => h (List.mem_cons_of_mem _ h')), br, upd_ne _ _ hac]
      · have hmap : ((l.filter fun a => extractVel (tag a) && cover a).map fun a =>
            ((momBody cover tag eqn d s c).F (eqn a).toNat * d (eqn a).toNat) *
              ((momBody cover tag eqn d s c).F (eqn a).toNat * d (eqn a).toNat)) =
            ((l.filter fun a => extractVel (tag a) && cover a).map fun a =>
            (s.F (eqn a).toNat * d (eqn a).toNat) * (s.F (eqn a).toNat * d (eqn a).toNat)) := by
          refine List.map_congr_left fun a ha => ?_
          rw [List.mem_filter, Bool.and_eq_true] at ha
          rw [bF, upd_ne _ _ (hne a ha.1 ha.2.1)]
        rw [h4, hmap]
        by_cases hcov : cover c = true
        · rw [List.filter_cons_of_pos (by simp [hc, hcov]), List.map_cons, List.sum_cons]
          have : (momBody cover tag eqn d s c).sum = s.sum + (s.F (eqn c).toNat * d (eqn c).toNat) *
              (s.F (eqn c).toNat * d (eqn c).toNat) := by
            unfold momBody; simp [hc, hcov]
          rw [this]; ring
        · rw [List.filter_cons_of_neg (by simp [hc, hcov])]
          have : (momBody cover tag eqn d s c).sum = s.sum := by
            unfold momBody; simp [hc, hcov]
          rw [this]
      · rw [h5]
        by_cases hcov : cover c = true
        · rw [List.filter_cons_of_pos (by simp [hc, hcov]), List.length_cons]
          have : (momBody cover tag eqn d s c).ndof = s.ndof + 1 := by
            unfold momBody; simp [hc, hcov]
          rw [this]; ring
        · rw [List.filter_cons_of_neg (by simp [hc, hcov])]
          have : (momBody cover tag eqn d s c).ndof = s.ndof := by
            unfold momBody; simp [hc, hcov]
          rw [this]
    · have hs : momBody cover tag eqn d s c = s := by unfold momBody; simp [hc]
      rw [hs] at h1 h2 h3 h4 h5 ⊢
      rw [Bool.not_eq_true] at hc
      refine ⟨?_, ?_, ?_, ?_, ?_⟩
      · intro a ha hok
        rcases List.mem_cons.mp ha with rfl | ha
        · rw [hc] at hok; exact absurd hok (by decide)
        · exact h1 a ha hok
      · exact fun e he => h2 e fun a ha => he a (List.mem_cons_of_mem _ ha)
      · exact fun a ha => h3 a (ha.imp_left fun h h' => h (List.mem_cons_of_mem _ h'))
      · rw [h4, List.filter_cons_of_neg (by simp [hc])]
      · rw [h5, List.filter_cons_of_neg (by simp [hc])]

private theorem cont_fold (nm : Nat) (tag eqn : Nat → Int) (d : Nat → K) :
    ∀ (l : List Nat) (s : PassSt K), l.Nodup →
      Inj (fun a => extractP (tag a)) (fun a => (eqn a - nm).toNat) l →
    let o := l.foldl (contBody nm tag eqn d) s
    (∀ a ∈ l, extractP (tag a) = true →
      o.F (eqn a - nm).toNat = s.F (eqn a - nm).toNat * d (eqn a - nm).toNat ∧ o.r a = s.F (eqn a - nm).toNat) ∧
    (∀ e, (∀ a ∈ l, extractP (tag a) = true → (eqn a - nm).toNat ≠ e) → o.F e = s.F e) ∧
    (∀ a, (a ∉ l ∨ extractP (tag a) = false) → o.r a = s.r a) ∧
    o.sum = s.sum + ((l.filter fun a => extractP (tag a)).map fun a =>
      s.F (eqn a - nm).toNat * s.F (eqn a - nm).toNat).sum ∧
    o.ndof = s.ndof + (l.filter fun a => extractP (tag a)).length := by
  intro l
  induction l with
  | nil => intro s _ _; simp
  | cons c l ih =>
    intro s hn hinj
    rw [List.nodup_cons] at hn
    have hinj' : Inj (fun a => extractP (tag a)) (fun a => (eqn a - nm).toNat) l := fun a ha b hb =>
      hinj a (List.mem_cons_of_mem _ ha) b (List.mem_cons_of_mem _ hb)
    obtain ⟨h1, h2, h3, h4, h5⟩ := ih (contBody nm tag eqn d s c) hn.2 hinj'
    simp only [List.foldl_cons]
    by_cases hc : extractP (tag c) = true
    · have hne : ∀ a ∈ l, extractP (tag a) = true → (eqn a - nm).toNat ≠ (eqn c - nm).toNat := by
        intro a ha hok he
        have := hinj a (List.mem_cons_of_mem _ ha) c List.mem_cons_self hok hc he
        exact hn.1 (this ▸ ha)
      have bF : (contBody nm tag eqn d s c).F =
          upd s.F (eqn c - nm).toNat (s.F (eqn c - nm).toNat * d (eqn c - nm).toNat) := by
        unfold contBody; simp only [hc, if_true]
      have br : (contBody nm tag eqn d s c).r = upd s.r c (s.F (eqn c - nm).toNat) := by
        unfold contBody; simp only [hc, if_true]
      refine ⟨?_, ?_, ?_, ?_, ?_⟩
      · intro a ha hok
        rcases List.mem_cons.mp ha with rfl | ha
        · refine ⟨?_, ?_⟩
          · rw [h2 _ hne, bF, upd_same]
          · rw [h3 _ (Or.inl hn.1), br, upd_same]
        · have := h1 a ha hok
          rw [bF, upd_ne _ _ (hne a ha hok)] at this
          exact this
      · intro e he
        rw [h2 e (fun a ha => he a (List.mem_cons_of_mem _ ha)), bF,
          upd_ne _ _ (Ne.symm (he c List.mem_cons_self hc))]
      · intro a ha
        have hac : a ≠ c := by
          rintro rfl
          rcases ha with h | h
          · exact h List.mem_cons_self
          · rw [hc] at h; exact absurd h (by decide)
        rw [h3 a (ha.imp_left fun h h' => h (List.mem_cons_of_mem _ h')), br, upd_ne _ _ hac]
      · have hmap : ((l.filter fun a => extractP (tag a)).map fun a =>
            (contBody nm tag eqn d s c).F (eqn a - nm).toNat * (contBody nm tag eqn d s c).F (eqn a - nm).toNat) =
            ((l.filter fun a => extractP (tag a)).map fun a =>
            s.F (eqn a - nm).toNat * s.F (eqn a - nm).toNat) := by
          refine List.map_congr_left fun a ha => ?_
          rw [List.mem_filter] at ha
          rw [bF, upd_ne _ _ (hne a ha.1 ha.2)]
        rw [h4, hmap, List.filter_cons_of_pos (by simp [hc]), List.map_cons, List.sum_cons]
        have : (contBody nm tag eqn d s c).sum = s.sum + s.F (eqn c - nm).toNat * s.F (eqn c - nm).toNat := by
          unfold contBody; simp [hc]
        rw [this]; ring
      · rw [h5, List.filter_cons_of_pos (by simp [hc]), List.length_cons]
        have : (contBody nm tag eqn d s c).ndof = s.ndof + 1 := by
          unfold contBody; simp [hc]
        rw [this]; ring
    · have hs : contBody nm tag eqn d s c = s := by unfold contBody; simp [hc]
      rw [hs] at h1 h2 h3 h4 h5 ⊢
      rw [Bool.not_eq_true] at hc
      refine ⟨?_, ?_, ?_, ?_, ?_⟩
      · intro a ha hok
        rcases List.mem_cons.mp ha with rfl | ha
        · rw [hc] at hok; exact absurd hok (by decide)
        · exact h1 a ha hok
      · exact fun e he => h2 e fun a ha => he a (List.mem_cons_of_mem _ ha)
      · exact fun a ha => h3 a (ha.imp_left fun h h' => h (List.mem_cons_of_mem _ h'))
      · rw [h4, List.filter_cons_of_neg (by simp [hc])]
      · rw [h5, List.filter_cons_of_neg (by simp [hc])]


/-! ### facts about the numbering, in the form needed here -/

private theorem inj_u (Nx Nz : Nat) (hNx : 2 ≤ Nx) (t : Tags) (ht : TagsOk Nx Nz t) (junk : Nat → Int)
    (l : List Nat) (hl : ∀ a ∈ l, a < (Nz + 1) * Nx) :
    Inj (fun a => extractVel (t.u a)) (fun a => ((evalNumberOfEquations Nx Nz t junk).eqnU a).toNat) l := by
  intro a ha b hb hoa hob he
  obtain ⟨B1, B2, -⟩ := numbering_bijective Nx Nz hNx t junk ht.east
  have sa : Dof.Solved t (.u a) := (numberedU_iff t a).1 ((extractVel_u ht (hl a ha)) ▸ hoa)
  have sb : Dof.Solved t (.u b) := (numberedU_iff t b).1 ((extractVel_u ht (hl b hb)) ▸ hob)
  have na : 0 ≤ (evalNumberOfEquations Nx Nz t junk).eqnU a := (B1 (.u a) (hl a ha) sa).1
  have nb : 0 ≤ (evalNumberOfEquations Nx Nz t junk).eqnU b := (B1 (.u b) (hl b hb) sb).1
  have he' : ((evalNumberOfEquations Nx Nz t junk).eqnU a).toNat = ((evalNumberOfEquations Nx Nz t junk).eqnU b).toNat := he
  have := B2 (.u a) (.u b) (hl a ha) (hl b hb) sa sb
    (show (evalNumberOfEquations Nx Nz t junk).eqnU a = (evalNumberOfEquations Nx Nz t junk).eqnU b by omega)
  simpa using this

private theorem inj_v (Nx Nz : Nat) (hNx : 2 ≤ Nx) (t : Tags) (ht : TagsOk Nx Nz t) (junk : Nat → Int)
    (l : List Nat) (hl : ∀ a ∈ l, a < Nz * (Nx + 1)) :
    Inj (fun a => extractVel (t.v a)) (fun a => ((evalNumberOfEquations Nx Nz t junk).eqnV a).toNat) l := by
  intro a ha b hb hoa hob he
  obtain ⟨B1, B2, -⟩ := numbering_bijective Nx Nz hNx t junk ht.east
  have sa : Dof.Solved t (.v a) := (numberedV_iff t a).1 ((extractVel_v ht (hl a ha)) ▸ hoa)
  have sb : Dof.Solved t (.v b) := (numberedV_iff t b).1 ((extractVel_v ht (hl b hb)) ▸ hob)
  have na : 0 ≤ (evalNumberOfEquations Nx Nz t junk).eqnV a := (B1 (.v a) (hl a ha) sa).1
  have nb : 0 ≤ (evalNumberOfEquations Nx Nz t junk).eqnV b := (B1 (.v b) (hl b hb) sb).1
  have he' : ((evalNumberOfEquations Nx Nz t junk).eqnV a).toNat = ((evalNumberOfEquations Nx Nz t junk).eqnV b).toNat := he
  have := B2 (.v a) (.v b) (hl a ha) (hl b hb) sa sb
    (show (evalNumberOfEquations Nx Nz t junk).eqnV a = (evalNumberOfEquations Nx Nz t junk).eqnV b by omega)
  simpa using this

private theorem mom_le (Nx Nz : Nat) (hNx : 2 ≤ Nx) (t : Tags) (ht : TagsOk Nx Nz t) (junk : Nat → Int)
    (a : Nat) (ha : a < (Nz - 1) * (Nx - 1)) (sa : Dof.Solved t (.p a)) :
    ((evalNumberOfEquations Nx Nz t junk).neqMom : Int) ≤ (evalNumberOfEquations Nx Nz t junk).eqnP a := by
  obtain ⟨-, -, -, B4, -⟩ := numbering_bijective Nx Nz hNx t junk ht.east
  by_contra h
  exact ((B4 (.p a) ha sa).1 (lt_of_not_ge h)) a rfl

private theorem inj_p (Nx Nz : Nat) (hNx : 2 ≤ Nx) (t : Tags) (ht : TagsOk Nx Nz t) (junk : Nat → Int)
    (l : List Nat) (hl : ∀ a ∈ l, a < (Nz - 1) * (Nx - 1)) :
    Inj (fun a => extractP (t.p a)) (fun a => ((evalNumberOfEquations Nx Nz t junk).eqnP a -
      (evalNumberOfEquations Nx Nz t junk).neqMom).toNat) l := by
  intro a ha b hb hoa hob he
  obtain ⟨B1, B2, -⟩ := numbering_bijective Nx Nz hNx t junk ht.east
  have sa : Dof.Solved t (.p a) := (numberedP_iff t a).1 ((extractP_p ht (hl a ha)) ▸ hoa)
  have sb : Dof.Solved t (.p b) := (numberedP_iff t b).1 ((extractP_p ht (hl b hb)) ▸ hob)
  have na := mom_le Nx Nz hNx t ht junk a (hl a ha) sa
  have nb := mom_le Nx Nz hNx t ht junk b (hl b hb) sb
  have he' : ((evalNumberOfEquations Nx Nz t junk).eqnP a - (evalNumberOfEquations Nx Nz t junk).neqMom).toNat =
    ((evalNumberOfEquations Nx Nz t junk).eqnP b - (evalNumberOfEquations Nx Nz t junk).neqMom).toNat := he
  have := B2 (.p a) (.p b) (hl a ha) (hl b hb) sa sb
    (show (evalNumberOfEquations Nx Nz t junk).eqnP a = (evalNumberOfEquations Nx Nz t junk).eqnP b by omega)
  simpa using this

/-- What the three loops do, with the sums spelled out over the lists of iterations. -/
theorem loops_spec (Nx Nz : Nat) (hNx : 2 ≤ Nx) (t : Tags) (ht : TagsOk Nx Nz t) (junk : Nat → Int)
    (d dD : Nat → K) (ou ov op : List Nat) (hou : ou.Perm (List.range ((Nz + 1) * Nx)))
    (hov : ov.Perm (List.range (Nz * (Nx + 1)))) (hop : op.Perm (List.range ((Nz - 1) * (Nx - 1))))
    (FA FD ru rv rp : Nat → K) :
    let n := evalNumberOfEquations Nx Nz t junk
    let s := residualLoops Nx Nz t n d dD ou ov op FA FD ru rv rp
    (∀ k, (Dof.u k).InGrid Nx Nz → (Dof.u k).Solved t → s.1.r k = FA (n.eqnU k).toNat) ∧
    (∀ k, (Dof.v k).InGrid Nx Nz → (Dof.v k).Solved t → s.2.1.r k = FA (n.eqnV k).toNat) ∧
    (∀ k, (Dof.p k).InGrid Nx Nz → (Dof.p k).Solved t → s.2.2.r k = FD (n.eqnP k - n.neqMom).toNat) ∧
    (∀ k, ¬ ((Dof.u k).InGrid Nx Nz ∧ (Dof.u k).Solved t) → s.1.r k = ru k) ∧
    (∀ k, ¬ ((Dof.v k).InGrid Nx Nz ∧ (Dof.v k).Solved t) → s.2.1.r k = rv k) ∧
    (∀ k, ¬ ((Dof.p k).InGrid Nx Nz ∧ (Dof.p k).Solved t) → s.2.2.r k = rp k) ∧
    (∀ e, s.2.1.F e = if e < n.neqMom then FA e * d e else FA e) ∧
    (∀ e, s.2.2.F e = if e < n.neqCont then FD e * dD e else FD e) ∧
    s.1.sum = ((ou.filter fun a => extractVel (t.u a) && coverU Nx Nz a).map fun a =>
      (FA (n.eqnU a).toNat * d (n.eqnU a).toNat) * (FA (n.eqnU a).toNat * d (n.eqnU a).toNat)).sum ∧
    s.1.ndof = (ou.filter fun a => extractVel (t.u a) && coverU Nx Nz a).length ∧
    s.2.1.sum = ((ov.filter fun a => extractVel (t.v a) && coverV Nx a).map fun a =>
      (FA (n.eqnV a).toNat * d (n.eqnV a).toNat) * (FA (n.eqnV a).toNat * d (n.eqnV a).toNat)).sum ∧
    s.2.1.ndof = (ov.filter fun a => extractVel (t.v a) && coverV Nx a).length ∧
    s.2.2.sum = ((op.filter fun a => extractP (t.p a)).map fun a =>
      FD (n.eqnP a - n.neqMom).toNat * FD (n.eqnP a - n.neqMom).toNat).sum ∧
    s.2.2.ndof = (op.filter fun a => extractP (t.p a)).length := by
  intro n s
  obtain ⟨B1, B2, B3, B4, -, -, B7⟩ := numbering_bijective Nx Nz hNx t junk ht.east
  rw [show evalNumberOfEquations Nx Nz t junk = n from rfl] at B1 B2 B3 B4 B7
  have mu : ∀ a, a ∈ ou ↔ a < (Nz + 1) * Nx := fun a => by rw [hou.mem_iff, List.mem_range]
  have mv : ∀ a, a ∈ ov ↔ a < Nz * (Nx + 1) := fun a => by rw [hov.mem_iff, List.mem_range]
  have mp : ∀ a, a ∈ op ↔ a < (Nz - 1) * (Nx - 1) := fun a => by rw [hop.mem_iff, List.mem_range]
  obtain ⟨U1, U2, U3, U4, U5⟩ := mom_fold (coverU Nx Nz) t.u n.eqnU d ou { F := FA, r := ru, sum := 0, ndof := 0 }
    (hou.nodup_iff.mpr List.nodup_range) (inj_u Nx Nz hNx t ht junk ou fun a ha => (mu a).1 ha)
  obtain ⟨V1, V2, V3, V4, V5⟩ := mom_fold (coverV Nx) t.v n.eqnV d ov { F := s.1.F, r := rv, sum := 0, ndof := 0 }
    (hov.nodup_iff.mpr List.nodup_range) (inj_v Nx Nz hNx t ht junk ov fun a ha => (mv a).1 ha)
  obtain ⟨P1, P2, P3, P4, P5⟩ := cont_fold n.neqMom t.p n.eqnP dD op { F := FD, r := rp, sum := 0, ndof := 0 }
    (hop.nodup_iff.mpr List.nodup_range) (inj_p Nx Nz hNx t ht junk op fun a ha => (mp a).1 ha)
  change ∀ a ∈ ou, _ → s.1.F _ = _ ∧ s.1.r a = _ at U1
  change ∀ e, _ → s.1.F e = FA e at U2
  change ∀ a, _ → s.1.r a = ru a at U3
  change s.1.sum = _ at U4
  change s.1.ndof = _ at U5
  change ∀ a ∈ ov, _ → s.2.1.F _ = _ ∧ s.2.1.r a = _ at V1
  change ∀ e, _ → s.2.1.F e = s.1.F e at V2
  change ∀ a, _ → s.2.1.r a = rv a at V3
  change s.2.1.sum = _ at V4
  change s.2.1.ndof = _ at V5
  change ∀ a ∈ op, _ → s.2.2.F _ = _ ∧ s.2.2.r a = _ at P1
  change ∀ e, _ → s.2.2.F e = FD e at P2
  change ∀ a, _ → s.2.2.r a = rp a at P3
  change s.2.2.sum = _ at P4
  change s.2.2.ndof = _ at P5
  have okU : ∀ k, k < (Nz + 1) * Nx → (extractVel (t.u k) = true ↔ Dof.Solved t (.u k)) := fun k hk => by
    rw [extractVel_u ht hk]; exact numberedU_iff t k
  have okV : ∀ k, k < Nz * (Nx + 1) → (extractVel (t.v k) = true ↔ Dof.Solved t (.v k)) := fun k hk => by
    rw [extractVel_v ht hk]; exact numberedV_iff t k
  have okP : ∀ k, k < (Nz - 1) * (Nx - 1) → (extractP (t.p k) = true ↔ Dof.Solved t (.p k)) := fun k hk => by
    rw [extractP_p ht hk]; exact numberedP_iff t k
  -- no Vx node writes the entry of a Vz node
  have sepUV : ∀ a < (Nz + 1) * Nx, extractVel (t.u a) = true → ∀ b < Nz * (Nx + 1), Dof.Solved t (.v b) →
      (n.eqnU a).toNat ≠ (n.eqnV b).toNat := by
    intro a ha hoa b hb sb he
    have na : 0 ≤ n.eqnU a := (B1 (.u a) ha ((okU a ha).1 hoa)).1
    have nb : 0 ≤ n.eqnV b := (B1 (.v b) hb sb).1
    have := B2 (.u a) (.v b) ha hb ((okU a ha).1 hoa) sb (show n.eqnU a = n.eqnV b by omega)
    exact absurd this (by simp)
  have su_v : ∀ b < Nz * (Nx + 1), Dof.Solved t (.v b) → s.1.F (n.eqnV b).toNat = FA (n.eqnV b).toNat :=
    fun b hb sb => U2 _ fun a ha hoa => sepUV a ((mu a).1 ha) hoa b hb sb
  have maps : ∀ a ∈ ov.filter fun a => extractVel (t.v a) && coverV Nx a,
      s.1.F (n.eqnV a).toNat = FA (n.eqnV a).toNat := by
    intro a ha
    rw [List.mem_filter, Bool.and_eq_true] at ha
    exact su_v a ((mv a).1 ha.1) ((okV a ((mv a).1 ha.1)).1 ha.2.1)
  refine ⟨?_, ?_, ?_, ?_, ?_, ?_, ?_, ?_, ?_, ?_, ?_, ?_, ?_, ?_⟩
  · exact fun k hk hs => (U1 k ((mu k).2 hk) ((okU k hk).2 hs)).2
  · intro k hk hs
    rw [(V1 k ((mv k).2 hk) ((okV k hk).2 hs)).2]
    exact su_v k hk hs
  · exact fun k hk hs => (P1 k ((mp k).2 hk) ((okP k hk).2 hs)).2
  · intro k h
    refine U3 k ?_
    by_cases hk : k ∈ ou
    · right
      rw [← Bool.not_eq_true]
      exact fun hok => h ⟨(mu k).1 hk, (okU k ((mu k).1 hk)).1 hok⟩
    · exact Or.inl hk
  · intro k h
    refine V3 k ?_
    by_cases hk : k ∈ ov
    · right
      rw [← Bool.not_eq_true]
      exact fun hok => h ⟨(mv k).1 hk, (okV k ((mv k).1 hk)).1 hok⟩
    · exact Or.inl hk
  · intro k h
    refine P3 k ?_
    by_cases hk : k ∈ op
    · right
      rw [← Bool.not_eq_true]
      exact fun hok => h ⟨(mp k).1 hk, (okP k ((mp k).1 hk)).1 hok⟩
    · exact Or.inl hk
  · intro e
    by_cases he : e < n.neqMom
    · rw [if_pos he]
      obtain ⟨x, hx, hs, hxe⟩ := B3 e (by omega)
      have hvel := (B4 x hx hs).1 (by omega)
      cases x with
      | p k => exact absurd rfl (hvel k)
      | u k =>
        have hek : (n.eqnU k).toNat = e := by
          have : n.eqnU k = e := hxe
          omega
        have h1 := (U1 k ((mu k).2 hx) ((okU k hx).2 hs)).1
        rw [hek] at h1
        rw [V2 e, h1]
        intro b hb hob h
        exact sepUV k hx ((okU k hx).2 hs) b ((mv b).1 hb) ((okV b ((mv b).1 hb)).1 hob) (by rw [hek, h])
      | v k =>
        have hek : (n.eqnV k).toNat = e := by
          have : n.eqnV k = e := hxe
          omega
        have h1 := (V1 k ((mv k).2 hx) ((okV k hx).2 hs)).1
        have h2 := su_v k hx hs
        rw [hek] at h1 h2
        rw [h1]
        change s.1.F e * d e = _
        rw [h2]
    · rw [if_neg he, V2 e, U2 e]
      · intro a ha hoa h
        have hs := (okU a ((mu a).1 ha)).1 hoa
        have h0 : 0 ≤ n.eqnU a := (B1 (.u a) ((mu a).1 ha) hs).1
        have := (B4 (.u a) ((mu a).1 ha) hs).2 (by simp)
        have h1 : n.eqnU a < n.neqMom := this
        omega
      · intro a ha hoa h
        have hs := (okV a ((mv a).1 ha)).1 hoa
        have h0 : 0 ≤ n.eqnV a := (B1 (.v a) ((mv a).1 ha) hs).1
        have := (B4 (.v a) ((mv a).1 ha) hs).2 (by simp)
        have h1 : n.eqnV a < n.neqMom := this
        omega
  · intro e
    by_cases he : e < n.neqCont
    · rw [if_pos he]
      obtain ⟨x, hx, hs, hxe⟩ := B3 (n.neqMom + e) (by omega)
      cases x with
      | p k =>
        have hek : (n.eqnP k - n.neqMom).toNat = e := by
          have : n.eqnP k = ((n.neqMom + e : Nat) : Int) := hxe
          omega
        have h1 := (P1 k ((mp k).2 hx) ((okP k hx).2 hs)).1
        rw [hek] at h1
        exact h1
      | u k =>
        have h1 := (B4 (.u k) hx hs).2 (by simp)
        rw [hxe] at h1
        omega
      | v k =>
        have h1 := (B4 (.v k) hx hs).2 (by simp)
        rw [hxe] at h1
        omega
    · rw [if_neg he, P2 e]
      intro a ha hoa h
      have hs := (okP a ((mp a).1 ha)).1 hoa
      have h0 := mom_le Nx Nz hNx t ht junk a ((mp a).1 ha) hs
      have h1 : n.eqnP a < n.neq := (B1 (.p a) ((mp a).1 ha) hs).2
      have h0' : (n.neqMom : Int) ≤ n.eqnP a := h0
      omega
  · rw [U4]; simp
  · rw [U5]; simp
  · rw [V4]
    simp only [zero_add]
    congr 1
    refine List.map_congr_left fun a ha => ?_
    rw [maps a ha]
  · rw [V5]; simp
  · rw [P4]; simp
  · rw [P5]; simp

/-- C102.  Whatever the grid, the legal tag map, the order in which the threads reach the nodes and the
former contents of the arrays: after the evaluation every solved node shows the residual of its own
equation, nodes that are not solved for keep what they showed, and in the vector handed on every momentum
entry is the residual times the factor of that row, once, with nothing written behind the last equation.
The same holds for the continuity entries. -/
theorem defect_is_scaled_residual (Nx Nz : Nat) (hNx : 2 ≤ Nx) (t : Tags) (ht : TagsOk Nx Nz t) (junk : Nat → Int)
    (d dD : Nat → K) (ou ov op : List Nat) (hou : ou.Perm (List.range ((Nz + 1) * Nx)))
    (hov : ov.Perm (List.range (Nz * (Nx + 1)))) (hop : op.Perm (List.range ((Nz - 1) * (Nx - 1))))
    (FA FD : Nat → K) (shown : Fields K) :
    let n := evalNumberOfEquations Nx Nz t junk
    let s := residualLoops Nx Nz t n d dD ou ov op FA FD shown.u shown.v shown.p
    let now : Fields K := { u := s.1.r, v := s.2.1.r, p := s.2.2.r }
    (∀ x : Dof, x.InGrid Nx Nz → x.Solved t → (∀ k, x ≠ .p k) → x.value now = FA (x.eqn n).toNat) ∧
    (∀ k, (Dof.p k).InGrid Nx Nz → (Dof.p k).Solved t → (Dof.p k).value now = FD ((Dof.p k).eqn n - n.neqMom).toNat) ∧
    (∀ x : Dof, ¬ (x.InGrid Nx Nz ∧ x.Solved t) → x.value now = x.value shown) ∧
    (∀ e < n.neqMom, s.2.1.F e = FA e * d e) ∧ (∀ e, n.neqMom ≤ e → s.2.1.F e = FA e) ∧
    (∀ e < n.neqCont, s.2.2.F e = FD e * dD e) ∧ (∀ e, n.neqCont ≤ e → s.2.2.F e = FD e) := by
  intro n s now
  obtain ⟨h1, h2, h3, h4, h5, h6, h7, h8, -⟩ :=
    loops_spec Nx Nz hNx t ht junk d dD ou ov op hou hov hop FA FD shown.u shown.v shown.p
  refine ⟨?_, ?_, ?_, ?_, ?_, ?_, ?_⟩
  · intro x hx hs hp
    cases x with
    | u k => exact h1 k hx hs
    | v k => exact h2 k hx hs
    | p k => exact absurd rfl (hp k)
  · exact h3
  · intro x hx
    cases x with
    | u k => exact h4 k hx
    | v k => exact h5 k hx
    | p k => exact h6 k hx
  · intro e he; rw [show s.2.1.F e = _ from h7 e, if_pos he]
  · intro e he; rw [show s.2.1.F e = _ from h7 e, if_neg (Nat.not_lt.mpr he)]
  · intro e he; rw [show s.2.2.F e = _ from h8 e, if_pos he]
  · intro e he; rw [show s.2.2.F e = _ from h8 e, if_neg (Nat.not_lt.mpr he)]

/-- Non-vacuity: the periodic 3x3 grid with the nodes visited backwards. -/
example : let n := evalNumberOfEquations 3 3 exTags (fun _ => 0)
    let s := residualLoops 3 3 exTags n (fun e => (e : ℚ) + 1) (fun _ => 1) (List.range 12).reverse (List.range 12).reverse
      (List.range 4).reverse (fun e => 10 * e) (fun e => e) (fun _ => -1) (fun _ => -1) (fun _ => -1)
    TagsOk 3 3 exTags ∧ (List.range 12).reverse.Perm (List.range ((3 + 1) * 3)) ∧
    s.1.r 4 = 10 ∧ s.1.r 0 = -1 ∧ s.2.1.F 1 = 20 ∧ n.neqMom = 6 := by
  refine ⟨exTags_ok, List.reverse_perm _, ?_⟩
  decide +kernel

end
end Verif.Resid
