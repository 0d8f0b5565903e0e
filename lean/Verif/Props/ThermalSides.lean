import Verif.Props.ThermalTags

/-
C36/C37: sources in the energy balance, and the tags and values the sides get from the callback.
-/
set_option linter.unusedSectionVars false
set_option linter.unusedSimpArgs false
set_option linter.unusedVariables false
namespace Verif.Heat
open Verif Finset

variable {K : Type*} [Field K] [LinearOrder K] [IsStrictOrderedRing K]

/-- C37 (sources).  With insulated or periodic sides and an insulated free surface the heat content grows by the time
step times the sum, over the rock cells, of radiogenic heat, dissipation (if switched on) and adiabatic
heat (by the formula switched on). -/
theorem heat_content_gains_sources (p : Par K) (hph : Physical p) (ht : TagsAgree p) (hp : PeriodicOK p) (src : Src K)
    (air : K) (T T' : Nat → K) (h : Step p src air T T')
    (hins : ∀ k < p.ncx, ∀ l < p.ncz, Rock p k l → ∀ f,
      behind p k l f = .insulated ∨ ∃ k' l', behind p k l f = .cell k' l') :
    ∑ l ∈ range p.ncz, ∑ k ∈ range p.ncx, (if Rock p k l then
        p.cap (k + l * p.ncx) * (T' (k + l * p.ncx) - T (k + l * p.ncx)) else 0) =
    p.dt * (∑ l ∈ range p.ncz, ∑ k ∈ range p.ncx, (if Rock p k l then src.Qr (k + l * p.ncx) else 0) +
      (if src.shear = 1 then ∑ l ∈ range p.ncz, ∑ k ∈ range p.ncx, (if Rock p k l then src.Wdiss (k + l * p.ncx) else 0) else 0) +
      (if src.adiab = 1 then ∑ l ∈ range p.ncz, ∑ k ∈ range p.ncx, (if Rock p k l then src.ha1 T (k + l * p.ncx) else 0) else 0) +
      (if src.adiab = 2 then ∑ l ∈ range p.ncz, ∑ k ∈ range p.ncx, (if Rock p k l then src.ha2 T (k + l * p.ncx) else 0) else 0)) := by
  have hc := heat_conservation p hph ht hp src air T T' h
  have hdt : p.dt ≠ 0 := ne_of_gt hph.dt
  have e1 : ∑ l ∈ range p.ncz, ∑ k ∈ range p.ncx, (if Rock p k l then
        p.cap (k + l * p.ncx) * (T' (k + l * p.ncx) - T (k + l * p.ncx)) else 0) =
      p.dt * ∑ l ∈ range p.ncz, ∑ k ∈ range p.ncx, (if Rock p k l then
        p.cap (k + l * p.ncx) * (T' (k + l * p.ncx) - T (k + l * p.ncx)) / p.dt else 0) := by
    simp only [Finset.mul_sum]
    refine Finset.sum_congr rfl fun l _ => Finset.sum_congr rfl fun k _ => ?_
    split_ifs
    · field_simp
    · simp
  have push : ∀ (c : Prop) [Decidable c] (f : Nat → K),
      (if c then ∑ l ∈ range p.ncz, ∑ k ∈ range p.ncx, (if Rock p k l then f (k + l * p.ncx) else 0) else 0) =
        ∑ l ∈ range p.ncz, ∑ k ∈ range p.ncx, (if Rock p k l then (if c then f (k + l * p.ncx) else 0) else 0) := by
    intro c _ f
    split_ifs with hh
    · rfl
    · simp
  rw [e1, hc, push, push, push, ← Finset.sum_add_distrib, ← Finset.sum_add_distrib, ← Finset.sum_add_distrib]
  congr 1
  refine Finset.sum_congr rfl fun l hl => ?_
  rw [← Finset.sum_add_distrib, ← Finset.sum_add_distrib, ← Finset.sum_add_distrib]
  refine Finset.sum_congr rfl fun k hk => ?_
  rw [Finset.mem_range] at hl hk
  by_cases hr : Rock p k l
  · have hx : ∀ f, extern p T' k l f = 0 := by
      intro f
      unfold extern inflow
      rcases hins k hk l hl hr f with h1 | ⟨k', l', h1⟩ <;> rw [h1]
    simp only [if_pos hr, hx]
    unfold Src.at
    simp only
    by_cases a1 : src.adiab = 1
    · have a2 : ¬ src.adiab = 2 := by omega
      have a3 : 0 < src.adiab := by omega
      by_cases hs : src.shear = 1 <;> simp [a1, hs]
    · by_cases a2 : src.adiab = 2
      · by_cases hs : src.shear = 1 <;> simp [a2, hs]
      · by_cases hs : src.shear = 1 <;> simp [a1, a2, hs]
  · simp only [if_neg hr]; simp

/-- Tag and value at an index of the extended arrays. -/
def entryAt (s : (Nat → Int) × (Nat → K)) (i : Nat) : Int × K := (s.1 i, s.2 i)

theorem entryAt_set (a : Nat → Int) (b : Nat → K) (j : Nat) (q : Int × K) (i : Nat) :
    entryAt (upd a j q.1, upd b j q.2) i = if i = j then q else entryAt (a, b) i := by
  unfold entryAt
  by_cases h : i = j
  · simp only [h, upd_same, if_true]
  · simp only [if_neg h]
    rw [upd_ne _ _ h, upd_ne _ _ h]

theorem entryAt_ite (c : Prop) [Decidable c] (s t : (Nat → Int) × (Nat → K)) (i : Nat) :
    entryAt (if c then s else t) i = if c then entryAt s i else entryAt t i := by split_ifs <;> rfl

/-- One cell leaves alone every index that is not its own or one of the ghosts beside it, and gives each ghost beside it
the tag and value of that side. -/
theorem setBCT1_entry (ncx ncz : Nat) (tt : Nat → Int) (cb : Pos → Nat → Nat → Int × K)
    (s : (Nat → Int) × (Nat → K)) {k l : Nat} (hk : k < ncx) (hl : l < ncz) (a b : Nat) (ha : a < ncx + 2)
    (hown : ¬ (1 ≤ a ∧ a ≤ ncx ∧ 1 ≤ b ∧ b ≤ ncz)) :
    entryAt (setBCT1 ncx ncz tt cb s k l) (a + b * (ncx + 2)) =
      if tt (k + l * ncx) ≠ 30 then
        (if l + 1 = ncz ∧ a = k + 1 ∧ b = ncz + 1 then cb .N k l
         else if l = 0 ∧ a = k + 1 ∧ b = 0 then cb .S k l
         else if k + 1 = ncx ∧ a = ncx + 1 ∧ b = l + 1 then cb .E k l
         else if k = 0 ∧ a = 0 ∧ b = l + 1 then cb .W k l
         else entryAt s (a + b * (ncx + 2)))
      else entryAt s (a + b * (ncx + 2)) := by
  have n0 : a + b * (ncx + 2) ≠ (k + 1) + (l + 1) * (ncx + 2) := by
    intro h; rw [cell_inj (by omega) (by omega)] at h; omega
  have base : entryAt (upd s.1 ((k + 1) + (l + 1) * (ncx + 2)) (tt (k + l * ncx)), s.2) (a + b * (ncx + 2)) =
      entryAt s (a + b * (ncx + 2)) := by
    unfold entryAt; simp only; rw [upd_ne _ _ n0]
  unfold setBCT1
  simp only
  by_cases h30 : tt (k + l * ncx) = 30
  · simp only [h30, ne_eq, not_true_eq_false, if_false]
    rw [← h30]; exact base
  · simp only [h30, ne_eq, not_false_eq_true, if_true]
    simp only [entryAt_ite, entryAt_set, Prod.mk.eta, n0, if_false, ite_self, base]
    have hW : k = 0 → (a + b * (ncx + 2) = (k + 1) + (l + 1) * (ncx + 2) - 1 ↔ a = 0 ∧ b = l + 1) := by
      intro h
      have : (k + 1) + (l + 1) * (ncx + 2) - 1 = 0 + (l + 1) * (ncx + 2) := by omega
      rw [this, cell_inj (by omega) (by omega)]
    have hE : k + 1 = ncx → (a + b * (ncx + 2) = (k + 1) + (l + 1) * (ncx + 2) + 1 ↔ a = ncx + 1 ∧ b = l + 1) := by
      intro h
      have : (k + 1) + (l + 1) * (ncx + 2) + 1 = (ncx + 1) + (l + 1) * (ncx + 2) := by omega
      rw [this, cell_inj (by omega) (by omega)]
    have hS : l = 0 → (a + b * (ncx + 2) = (k + 1) + (l + 1) * (ncx + 2) - (ncx + 2) ↔ a = k + 1 ∧ b = 0) := by
      intro h
      have : (k + 1) + (l + 1) * (ncx + 2) - (ncx + 2) = (k + 1) + 0 * (ncx + 2) := by rw [h]; omega
      rw [this, cell_inj (by omega) (by omega)]
    have hN : l + 1 = ncz → (a + b * (ncx + 2) = (k + 1) + (l + 1) * (ncx + 2) + (ncx + 2) ↔ a = k + 1 ∧ b = ncz + 1) := by
      intro h
      have : (k + 1) + (l + 1) * (ncx + 2) + (ncx + 2) = (k + 1) + (ncz + 1) * (ncx + 2) := by rw [← h]; ring
      rw [this, cell_inj (by omega) (by omega)]
    have mg : ∀ (c P Q : Prop) [Decidable c] [Decidable P] [Decidable Q] (q x : Int × K), (c → (P ↔ Q)) →
        (if c then (if P then q else x) else x) = if c ∧ Q then q else x := by
      intro c P Q _ _ _ q x h
      by_cases hc : c
      · by_cases hq : Q
        · simp [hc, hq, (h hc).mpr hq]
        · have : ¬ P := fun hp => hq ((h hc).mp hp)
          simp [hc, hq, this]
      · simp [hc]
    rw [mg _ _ _ _ _ hN, mg _ _ _ _ _ hS, mg _ _ _ _ _ hE, mg _ _ _ _ _ hW]

/-- A loop of which only iteration `k0` touches an observation. -/
theorem forUp_single {S E : Type*} (n : Nat) (s : S) (f : S → Nat → S) (φ : S → E) (k0 : Nat) (q : E)
    (h : ∀ s, ∀ k < n, φ (f s k) = if k = k0 then q else φ s) : φ (forUp n s f) = if k0 < n then q else φ s := by
  induction n with
  | zero => simp [forUp]
  | succ n ih =>
    rw [forUp_succ, h _ n (by omega), ih fun s k hk => h s k (by omega)]
    by_cases h1 : n = k0
    · simp [h1]
    · by_cases h2 : k0 < n
      · rw [if_neg h1, if_pos h2, if_pos (by omega)]
      · rw [if_neg h1, if_neg h2, if_neg (by omega)]

theorem setBCT_entry (ncx ncz : Nat) (tt : Nat → Int) (cb : Pos → Nat → Nat → Int × K) (s : (Nat → Int) × (Nat → K))
    (i k0 l0 : Nat) (hk0 : k0 < ncx) (hl0 : l0 < ncz) (q : Int × K)
    (h : ∀ s, ∀ k < ncx, ∀ l < ncz, entryAt (setBCT1 ncx ncz tt cb s k l) i =
      if l = l0 then (if k = k0 then q else entryAt s i) else entryAt s i) :
    entryAt (setBCT ncx ncz tt cb s) i = q := by
  unfold setBCT
  have := forUp_single ncz s (fun s l => forUp ncx s fun s k => setBCT1 ncx ncz tt cb s k l) (fun s => entryAt s i) l0 q ?_
  · simpa [hl0] using this
  · intro s l hl
    by_cases hh : l = l0
    · have := forUp_single ncx s (fun s k => setBCT1 ncx ncz tt cb s k l) (fun s => entryAt s i) k0 q
        (fun s k hk => by rw [h s k hk l hl, if_pos hh])
      simpa [hk0, hh] using this
    · rw [if_neg hh]
      exact forUp_inv (P := fun _ t => entryAt t i = entryAt s i) ncx rfl
        (fun k t hk ht => by rw [h t k hk l hl, if_neg hh, ht])

/-- C36/C37 (sides).  Every ghost beside a rock cell gets the tag and the value the user's function returns for that side
and that cell: west, east, south, north. -/
theorem sides_as_prescribed (p : Par K) (cb : Pos → Nat → Nat → Int × K) (s : (Nat → Int) × (Nat → K))
    (hte : p.te = (setBCT p.ncx p.ncz p.tt cb s).1) (hve : p.ve = (setBCT p.ncx p.ncz p.tt cb s).2)
    {k l : Nat} (hk : k < p.ncx) (hl : l < p.ncz) (hr : p.tt (k + l * p.ncx) ≠ 30) :
    (k = 0 → (p.te (ghost p k l .W), p.ve (ghost p k l .W)) = cb .W k l) ∧
    (k + 1 = p.ncx → (p.te (ghost p k l .E), p.ve (ghost p k l .E)) = cb .E k l) ∧
    (l = 0 → (p.te (ghost p k l .S), p.ve (ghost p k l .S)) = cb .S k l) ∧
    (l + 1 = p.ncz → (p.te (ghost p k l .N), p.ve (ghost p k l .N)) = cb .N k l) := by
  rw [hte, hve]
  have go : ∀ (a b : Nat) (q : Int × K), a < p.ncx + 2 → ¬ (1 ≤ a ∧ a ≤ p.ncx ∧ 1 ≤ b ∧ b ≤ p.ncz) →
      (∀ x : Int × K, ∀ k' < p.ncx, ∀ l' < p.ncz, (if p.tt (k' + l' * p.ncx) ≠ 30 then
        (if l' + 1 = p.ncz ∧ a = k' + 1 ∧ b = p.ncz + 1 then cb .N k' l'
         else if l' = 0 ∧ a = k' + 1 ∧ b = 0 then cb .S k' l'
         else if k' + 1 = p.ncx ∧ a = p.ncx + 1 ∧ b = l' + 1 then cb .E k' l'
         else if k' = 0 ∧ a = 0 ∧ b = l' + 1 then cb .W k' l'
         else x) else x) = if l' = l then (if k' = k then q else x) else x) →
      entryAt (setBCT p.ncx p.ncz p.tt cb s) (a + b * (p.ncx + 2)) = q := fun a b q ha hb h =>
    setBCT_entry _ _ _ _ _ _ k l hk hl q fun s k' hk' l' hl' => by
      rw [setBCT1_entry _ _ _ _ s hk' hl' a b ha hb]; exact h _ k' hk' l' hl'
  refine ⟨fun h => ?_, fun h => ?_, fun h => ?_, fun h => ?_⟩
  · refine go 0 (l + 1) _ (by omega) (by omega) fun x k' hk' l' hl' => ?_
    by_cases e : k' = k ∧ l' = l
    · obtain ⟨e1, e2⟩ := e
      subst e1 e2
      split_ifs <;> first | rfl | (exfalso; omega) | (exfalso; tauto)
    · split_ifs <;> first | rfl | (exfalso; omega) | (exfalso; tauto)
  · refine go (p.ncx + 1) (l + 1) _ (by omega) (by omega) fun x k' hk' l' hl' => ?_
    by_cases e : k' = k ∧ l' = l
    · obtain ⟨e1, e2⟩ := e
      subst e1 e2
      split_ifs <;> first | rfl | (exfalso; omega) | (exfalso; tauto)
    · split_ifs <;> first | rfl | (exfalso; omega) | (exfalso; tauto)
  · refine go (k + 1) 0 _ (by omega) (by omega) fun x k' hk' l' hl' => ?_
    by_cases e : k' = k ∧ l' = l
    · obtain ⟨e1, e2⟩ := e
      subst e1 e2
      split_ifs <;> first | rfl | (exfalso; omega) | (exfalso; tauto)
    · split_ifs <;> first | rfl | (exfalso; omega) | (exfalso; tauto)
  · refine go (k + 1) (p.ncz + 1) _ (by omega) (by omega) fun x k' hk' l' hl' => ?_
    by_cases e : k' = k ∧ l' = l
    · obtain ⟨e1, e2⟩ := e
      subst e1 e2
      split_ifs <;> first | rfl | (exfalso; omega) | (exfalso; tauto)
    · split_ifs <;> first | rfl | (exfalso; omega) | (exfalso; tauto)

/-- Non-vacuity: the tags made for the box `demo` from a callback, and its south-western rock cell. -/
example : ∃ (p : Par ℚ) (cb : Pos → Nat → Nat → Int × ℚ) (s : (Nat → Int) × (Nat → ℚ)),
    p.te = (setBCT p.ncx p.ncz p.tt cb s).1 ∧ p.ve = (setBCT p.ncx p.ncz p.tt cb s).2 ∧ 0 < p.ncx ∧ 0 < p.ncz ∧
      p.tt (0 + 0 * p.ncx) ≠ 30 :=
  ⟨{ demo with
      te := (setBCT 3 2 (fun _ => -1) (fun _ k l => (1, (k : ℚ) + l)) (fun _ => 0, fun _ => 0)).1
      ve := (setBCT 3 2 (fun _ => -1) (fun _ k l => (1, (k : ℚ) + l)) (fun _ => 0, fun _ => 0)).2 },
    fun _ k l => (1, (k : ℚ) + l), (fun _ => 0, fun _ => 0), rfl, rfl, by decide, by decide, by decide⟩

end Verif.Heat
