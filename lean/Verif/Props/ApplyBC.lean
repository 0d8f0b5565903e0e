import Verif.Lemmas.ApplyBC
import Verif.Spec.Boundary
import Verif.Props.Numbering
import Verif.Prelude

/- C03: boundary values are enforced on the ghosted velocity fields. -/
namespace Verif
variable {K : Type*} [Field K] [CharZero K]

omit [CharZero K] in
/-- Values of Vx after the three Vx loops of ApplyBC. -/
theorem applyBC_u (Nx Nz : Nat) (hNx : 2 ≤ Nx) (hNz : 2 ≤ Nz) (t : Tags)
    (bc : BCVals K) (f : Fields K) :
    let g := applyBC Nx Nz t bc f
    (∀ i < Nx, t.u i = 13 → g.u i = f.u (i + 1 * Nx)) ∧
    (∀ i < Nx, t.u (i + Nz * Nx) = 13 → g.u (i + Nz * Nx) = f.u (i + (Nz - 1) * Nx)) ∧
    (∀ i < Nx, t.u i = 11 → g.u i = bc.u i - f.u (i + 1 * Nx)) ∧
    (∀ i < Nx, t.u (i + Nz * Nx) = 11 →
      g.u (i + Nz * Nx) = bc.u (i + Nz * Nx) - f.u (i + (Nz - 1) * Nx)) ∧
    (∀ l ≤ Nz, t.u ((Nx - 1) + l * Nx) = -12 →
      g.u ((Nx - 1) + l * Nx) = g.u (0 + l * Nx)) ∧
    (∀ k, t.u k ∉ ([11, 13, -12] : List Int) → g.u k = f.u k) ∧
    (∀ i l, i < Nx → 0 < l → l < Nz → t.u (i + l * Nx) ≠ -12 →
      g.u (i + l * Nx) = f.u (i + l * Nx)) ∧
    (∀ l, 0 < l → l < Nz → t.u ((Nx - 1) + l * Nx) = -12 →
      g.u ((Nx - 1) + l * Nx) = f.u (0 + l * Nx)) := by
  intro g
  have N1 := vxRows Nx Nz hNz f.u (fun k => t.u k == 13) (fun _ x => x)
  have hneu : bcVxNeumann Nx Nz t.u f.u = forUp Nx f.u fun a i =>
      let a1 := if (fun k => t.u k == 13) i then upd a i ((fun _ x => x) i (a (i + Nx))) else a
      if (fun k => t.u k == 13) (i + Nz * Nx) then
        upd a1 (i + Nz * Nx) ((fun _ x => x) (i + Nz * Nx) (a1 (i + (Nz - 1) * Nx))) else a1 := rfl
  set u1 := bcVxNeumann Nx Nz t.u f.u with hu1
  rw [← hneu] at N1
  have N2 := vxRows Nx Nz hNz u1 (fun k => t.u k == 11) (fun k x => bc.u k - x)
  have hsub : ∀ i, i + Nz * Nx - Nx = i + (Nz - 1) * Nx := by
    intro i; rw [Nat.sub_mul]; have : 1 * Nx ≤ Nz * Nx := Nat.mul_le_mul_right _ (by omega); omega
  have hdir : bcVxDirichlet Nx Nz t.u bc.u u1 = forUp Nx u1 fun a i =>
      let a1 := if (fun k => t.u k == 11) i then upd a i ((fun k x => bc.u k - x) i (a (i + Nx))) else a
      if (fun k => t.u k == 11) (i + Nz * Nx) then
        upd a1 (i + Nz * Nx) ((fun k x => bc.u k - x) (i + Nz * Nx) (a1 (i + (Nz - 1) * Nx)))
      else a1 := by
    unfold bcVxDirichlet; simp only [hsub]
  set u2 := bcVxDirichlet Nx Nz t.u bc.u u1 with hu2
  rw [← hdir] at N2
  have N3 := vxPer Nx (Nz + 1) hNx t.u u2
  have hper : (forUp (Nz + 1) u2 fun u j =>
      if t.u (j * Nx + Nx - 1) == -12 then upd u (j * Nx + Nx - 1) (u (j * Nx)) else u) = g.u := rfl
  rw [hper] at N3
  obtain ⟨a1, a2, a3, a4⟩ := N1
  obtain ⟨b1, b2, b3, b4⟩ := N2
  obtain ⟨c1, c2, c3⟩ := N3
  have inner : ∀ i l, i < Nx → 0 < l → l < Nz → u2 (i + l * Nx) = f.u (i + l * Nx) := by
    intro i l hi h0 hN
    rw [b4 i l hi (by omega) (by omega), a4 i l hi (by omega) (by omega)]
  refine ⟨?_, ?_, ?_, ?_, ?_, ?_, ?_, ?_⟩
  · intro i hi h
    rw [c2 i (by rw [h]; decide), b3 i (by simp [h]), a1 i hi (by simp [h])]
  · intro i hi h
    rw [c2 _ (by rw [h]; decide), b3 _ (by simp [h]), a2 i hi (by simp [h])]
  · intro i hi h
    rw [c2 i (by rw [h]; decide), b1 i hi (by simp [h]), a4 i 1 hi (by omega) (by omega)]
  · intro i hi h
    rw [c2 _ (by rw [h]; decide), b2 i hi (by simp [h]), a4 i _ hi (by omega) (by omega)]
  · intro l hl h
    rw [c1 l (by omega) h, c3 0 l (by omega) (by omega)]
  · intro k hk
    simp only [List.mem_cons, List.not_mem_nil, or_false, not_or] at hk
    rw [c2 k hk.2.2, b3 k (by simp [hk.1]), a3 k (by simp [hk.2.1])]
  · intro i l hi h0 hN h
    rw [c2 _ h, inner i l hi h0 hN]
  · intro l h0 hN h
    rw [c1 l (by omega) h, inner 0 l (by omega) h0 hN]

omit [CharZero K] in
/-- Values of Vz after the three Vz loops of ApplyBC. -/
theorem applyBC_v (Nx Nz : Nat) (hNx : 2 ≤ Nx) (t : Tags)
    (bc : BCVals K) (f : Fields K) :
    let g := applyBC Nx Nz t bc f
    (∀ j < Nz, t.v (j * (Nx + 1)) = 13 → g.v (j * (Nx + 1)) = f.v (j * (Nx + 1) + 1)) ∧
    (∀ j < Nz, t.v (j * (Nx + 1) + Nx) = 13 →
      g.v (j * (Nx + 1) + Nx) = f.v (j * (Nx + 1) + (Nx - 1))) ∧
    (∀ j < Nz, t.v (j * (Nx + 1)) = 11 →
      g.v (j * (Nx + 1)) = bc.v (j * (Nx + 1)) - f.v (j * (Nx + 1) + 1)) ∧
    (∀ j < Nz, t.v (j * (Nx + 1) + Nx) = 11 →
      g.v (j * (Nx + 1) + Nx) = bc.v (j * (Nx + 1) + Nx) - f.v (j * (Nx + 1) + (Nx - 1))) ∧
    (∀ j < Nz, t.v (j * (Nx + 1)) = -12 →
      g.v (j * (Nx + 1)) = f.v (j * (Nx + 1) + (Nx - 1))) ∧
    (∀ j < Nz, t.v (j * (Nx + 1) + Nx) = -12 →
      g.v (j * (Nx + 1) + Nx) = f.v (j * (Nx + 1) + 1)) ∧
    (∀ k, t.v k ∉ ([11, 13, -12] : List Int) → g.v k = f.v k) ∧
    (∀ i l, 0 < i → i < Nx → g.v (l * (Nx + 1) + i) = f.v (l * (Nx + 1) + i)) := by
  intro g
  have hsub : ∀ j, j * (Nx + 1) + Nx - 1 = j * (Nx + 1) + (Nx - 1) := by intro j; omega
  have N1 := vzCols Nx Nz hNx f.v (fun k => t.v k == 13) (fun _ x => x) 1 (Nx - 1)
    (by omega) (by omega)
  have N2 := vzCols Nx Nz hNx (bcVzNeumann Nx Nz t.v f.v) (fun k => t.v k == 11)
    (fun k x => bc.v k - x) 1 (Nx - 1) (by omega) (by omega)
  have N3 := vzCols Nx Nz hNx (bcVzDirichlet Nx Nz t.v bc.v (bcVzNeumann Nx Nz t.v f.v))
    (fun k => t.v k == -12) (fun _ x => x) (Nx - 1) 1 (by omega) (by omega)
  have e1 : bcVzNeumann Nx Nz t.v f.v = _ := rfl
  have h1 : (forUp Nz f.v fun a j =>
      let a1 := if (fun k => t.v k == 13) (j * (Nx + 1)) then upd a (j * (Nx + 1))
        ((fun _ x => x) (j * (Nx + 1)) (a (j * (Nx + 1) + 1))) else a
      if (fun k => t.v k == 13) (j * (Nx + 1) + Nx) then upd a1 (j * (Nx + 1) + Nx)
        ((fun _ x => x) (j * (Nx + 1) + Nx) (a1 (j * (Nx + 1) + (Nx - 1)))) else a1)
      = bcVzNeumann Nx Nz t.v f.v := by unfold bcVzNeumann; simp only [hsub]
  have h2 : (forUp Nz (bcVzNeumann Nx Nz t.v f.v) fun a j =>
      let a1 := if (fun k => t.v k == 11) (j * (Nx + 1)) then upd a (j * (Nx + 1))
        ((fun k x => bc.v k - x) (j * (Nx + 1)) (a (j * (Nx + 1) + 1))) else a
      if (fun k => t.v k == 11) (j * (Nx + 1) + Nx) then upd a1 (j * (Nx + 1) + Nx)
        ((fun k x => bc.v k - x) (j * (Nx + 1) + Nx) (a1 (j * (Nx + 1) + (Nx - 1)))) else a1)
      = bcVzDirichlet Nx Nz t.v bc.v (bcVzNeumann Nx Nz t.v f.v) := by
    conv_rhs => unfold bcVzDirichlet
    simp only [hsub]
  have h3 : (forUp Nz (bcVzDirichlet Nx Nz t.v bc.v (bcVzNeumann Nx Nz t.v f.v)) fun a j =>
      let a1 := if (fun k => t.v k == -12) (j * (Nx + 1)) then upd a (j * (Nx + 1))
        ((fun _ x => x) (j * (Nx + 1)) (a (j * (Nx + 1) + (Nx - 1)))) else a
      if (fun k => t.v k == -12) (j * (Nx + 1) + Nx) then upd a1 (j * (Nx + 1) + Nx)
        ((fun _ x => x) (j * (Nx + 1) + Nx) (a1 (j * (Nx + 1) + 1))) else a1)
      = g.v := by
    change _ = bcVzPeriodic Nx Nz t.v _
    conv_rhs => unfold bcVzPeriodic
    simp only [hsub]
  rw [h1] at N1; rw [h2] at N2; rw [h3] at N3
  obtain ⟨a1, a2, a3, a4⟩ := N1
  obtain ⟨b1, b2, b3, b4⟩ := N2
  obtain ⟨c1, c2, c3, c4⟩ := N3
  refine ⟨?_, ?_, ?_, ?_, ?_, ?_, ?_, ?_⟩
  · intro j hj h; rw [c3 _ (by simp [h]), b3 _ (by simp [h]), a1 j hj (by simp [h])]
  · intro j hj h; rw [c3 _ (by simp [h]), b3 _ (by simp [h]), a2 j hj (by simp [h])]
  · intro j hj h
    rw [c3 _ (by simp [h]), b1 j hj (by simp [h]), a4 1 j (by omega) (by omega)]
  · intro j hj h
    rw [c3 _ (by simp [h]), b2 j hj (by simp [h]), a4 (Nx - 1) j (by omega) (by omega)]
  · intro j hj h
    rw [c1 j hj (by simp [h]), b4 (Nx - 1) j (by omega) (by omega),
      a4 (Nx - 1) j (by omega) (by omega)]
  · intro j hj h
    rw [c2 j hj (by simp [h]), b4 1 j (by omega) (by omega), a4 1 j (by omega) (by omega)]
  · intro k hk
    simp only [List.mem_cons, List.not_mem_nil, or_false, not_or] at hk
    rw [c3 k (by simp [hk.2.2]), b3 k (by simp [hk.1]), a3 k (by simp [hk.2.1])]
  · intro i l h0 hN; rw [c4 i l h0 hN, b4 i l h0 hN, a4 i l h0 hN]

/-- C03 (partial).  `ApplyBC` makes all boundary conditions hold and touches nothing else, for
every grid with at least two vertices per side and legal tags, provided east-periodic Vx nodes beside a
ghost row already agree with their west twins.  Missing: that proviso; `applyBC_stale_corner`
shows that it cannot be dropped. `bc` holds twice the prescribed velocity at no-slip nodes, as
stored by Setup.c:262 and 474. -/
theorem applyBC_enforces_partial (Nx Nz : Nat) (hNx : 2 ≤ Nx) (hNz : 2 ≤ Nz) (t : Tags)
    (ht : GhostTagsOk Nx Nz t) (bc V : BCVals K)
    (hVu : ∀ k, t.u k = 11 → bc.u k = 2 * V.u k) (hVv : ∀ k, t.v k = 11 → bc.v k = 2 * V.v k)
    (f : Fields K) (hsync : EastSynced Nx Nz t f) :
    BCHold Nx Nz t V (applyBC Nx Nz t bc f) ∧ OthersKept t f (applyBC Nx Nz t bc f) := by
  obtain ⟨u1, u2, u3, u4, u5, u6, u7, u8⟩ := applyBC_u Nx Nz hNx hNz t bc f
  obtain ⟨v1, v2, v3, v4, v5, v6, v7, v8⟩ := applyBC_v Nx Nz hNx t bc f
  set g := applyBC Nx Nz t bc f with hg
  have two : (2 : K) ≠ 0 := two_ne_zero
  -- inner rows keep their values
  have hin : ∀ i l, i < Nx → 0 < l → l < Nz → g.u (i + l * Nx) = f.u (i + l * Nx) := by
    intro i l hi h0 hN
    by_cases h12 : t.u (i + l * Nx) = -12
    · have hE := ht.uEast i l hi (by omega) h12
      subst hE
      rw [u8 l h0 hN h12, hsync l h0 hN h12]
    · exact u7 i l hi h0 hN h12
  refine ⟨⟨?_, ?_, ?_, ?_, ?_, ?_, ?_, ?_, ?_, ?_, ?_⟩, u6, v7, rfl⟩
  · intro i hi h
    rw [u3 i hi h, hin i 1 hi (by omega) (by omega), hVu _ h]; field_simp; ring
  · intro i hi h
    rw [u4 i hi h, hin i (Nz - 1) hi (by omega) (by omega), hVu _ h]; field_simp; ring
  · intro i hi h; rw [u1 i hi h, hin i 1 hi (by omega) (by omega)]
  · intro i hi h; rw [u2 i hi h, hin i (Nz - 1) hi (by omega) (by omega)]
  · intro j hj h
    rw [v3 j hj h, v8 1 j (by omega) (by omega), hVv _ h]; field_simp; ring
  · intro j hj h
    rw [v4 j hj h, v8 (Nx - 1) j (by omega) (by omega), hVv _ h]; field_simp; ring
  · intro j hj h; rw [v1 j hj h, v8 1 j (by omega) (by omega)]
  · intro j hj h; rw [v2 j hj h, v8 (Nx - 1) j (by omega) (by omega)]
  · intro j hj h; rw [v5 j hj h, v8 (Nx - 1) j (by omega) (by omega)]
  · intro j hj h; rw [v6 j hj h, v8 1 j (by omega) (by omega)]
  · exact u5

/-- C03: applying the boundary conditions twice is the same as once (same proviso). -/
theorem applyBC_idempotent_partial (Nx Nz : Nat) (hNx : 2 ≤ Nx) (hNz : 2 ≤ Nz) (t : Tags)
    (ht : GhostTagsOk Nx Nz t) (bc : BCVals K)
    (f : Fields K) (hsync : EastSynced Nx Nz t f) (d : Dof) (hd : d.InGrid Nx Nz) :
    d.value (applyBC Nx Nz t bc (applyBC Nx Nz t bc f)) = d.value (applyBC Nx Nz t bc f) := by
  set V : BCVals K := { u := fun k => bc.u k / 2, v := fun k => bc.v k / 2 } with hV
  have two : (2 : K) ≠ 0 := two_ne_zero
  obtain ⟨H, -⟩ := applyBC_enforces_partial Nx Nz hNx hNz t ht bc V
    (fun k _ => by simp only [hV]; field_simp) (fun k _ => by simp only [hV]; field_simp) f hsync
  set g := applyBC Nx Nz t bc f with hg
  obtain ⟨u1, u2, u3, u4, u5, u6, u7, u8⟩ := applyBC_u Nx Nz hNx hNz t bc g
  obtain ⟨v1, v2, v3, v4, v5, v6, v7, v8⟩ := applyBC_v Nx Nz hNx t bc g
  cases d with
  | p k => rfl
  | u k =>
    change (applyBC Nx Nz t bc g).u k = g.u k
    by_cases hk : t.u k ∉ ([11, 13, -12] : List Int)
    · exact u6 k hk
    · have hk' := hk
      simp only [List.mem_cons, List.not_mem_nil, or_false, not_not] at hk
      change k < (Nz + 1) * Nx at hd
      have hNx0 : 0 < Nx := by omega
      obtain ⟨i, l, hi, hl, rfl⟩ : ∃ i l, i < Nx ∧ l ≤ Nz ∧ k = i + l * Nx := by
        refine ⟨k % Nx, k / Nx, Nat.mod_lt _ hNx0, ?_, ?_⟩
        · have := (Nat.div_lt_iff_lt_mul hNx0).2 hd; omega
        · rw [Nat.mul_comm]; exact (Nat.mod_add_div k Nx).symm
      by_cases h12 : t.u (i + l * Nx) = -12
      · have := ht.uEast i l hi hl h12
        subst this
        rw [u5 l hl h12, H.periodicVx l hl h12]
        -- west twin unchanged
        by_cases hw : t.u (0 + l * Nx) ∉ ([11, 13, -12] : List Int)
        · exact u6 _ hw
        · simp only [List.mem_cons, List.not_mem_nil, or_false, not_not] at hw
          have hw' : t.u (0 + l * Nx) = 11 ∨ t.u (0 + l * Nx) = 13 := by
            rcases hw with h | h | h
            · exact Or.inl h
            · exact Or.inr h
            · have := ht.uEast 0 l hNx0 hl h; omega
          rcases ht.uRows 0 l hNx0 hl hw' with h0 | h0
          · subst h0
            simp only [Nat.zero_mul, Nat.add_zero] at hw' ⊢
            rcases hw' with h | h
            · rw [u3 0 hNx0 h]; have := H.noSlipS 0 hNx0 h
              simp only [hV] at this; field_simp at this; linear_combination -this
            · rw [u1 0 hNx0 h, H.freeSlipS 0 hNx0 h]
          · subst h0
            rcases hw' with h | h
            · rw [u4 0 hNx0 h]; have := H.noSlipN 0 hNx0 h
              simp only [hV] at this; field_simp at this; linear_combination -this
            · rw [u2 0 hNx0 h, H.freeSlipN 0 hNx0 h]
      · have hw' : t.u (i + l * Nx) = 11 ∨ t.u (i + l * Nx) = 13 := by
          rcases hk with h | h | h
          · exact Or.inl h
          · exact Or.inr h
          · exact absurd h h12
        rcases ht.uRows i l hi hl hw' with h0 | h0
        · subst h0
          simp only [Nat.zero_mul, Nat.add_zero] at hw' ⊢
          rcases hw' with h | h
          · rw [u3 i hi h]; have := H.noSlipS i hi h
            simp only [hV] at this; field_simp at this; linear_combination -this
          · rw [u1 i hi h, H.freeSlipS i hi h]
        · subst h0
          rcases hw' with h | h
          · rw [u4 i hi h]; have := H.noSlipN i hi h
            simp only [hV] at this; field_simp at this; linear_combination -this
          · rw [u2 i hi h, H.freeSlipN i hi h]
  | v k =>
    change (applyBC Nx Nz t bc g).v k = g.v k
    by_cases hk : t.v k ∉ ([11, 13, -12] : List Int)
    · exact v7 k hk
    · simp only [List.mem_cons, List.not_mem_nil, or_false, not_not] at hk
      change k < Nz * (Nx + 1) at hd
      obtain ⟨i, l, hi, hl, rfl⟩ : ∃ i l, i ≤ Nx ∧ l < Nz ∧ k = l * (Nx + 1) + i := by
        refine ⟨k % (Nx + 1), k / (Nx + 1), ?_, ?_, ?_⟩
        · have := Nat.mod_lt k (show 0 < Nx + 1 by omega); omega
        · exact (Nat.div_lt_iff_lt_mul (Nat.succ_pos Nx)).2 hd
        · rw [Nat.mul_comm]; exact (Nat.div_add_mod k (Nx + 1)).symm
      rcases ht.vCols i l hi hl hk with h0 | h0
      · subst h0
        simp only [Nat.add_zero] at hk ⊢
        rcases hk with h | h | h
        · rw [v3 l hl h]; have := H.noSlipW l hl h
          simp only [hV] at this; field_simp at this; linear_combination -this
        · rw [v1 l hl h, H.freeSlipW l hl h]
        · rw [v5 l hl h, H.periodicVzW l hl h]
      · subst h0
        rcases hk with h | h | h
        · rw [v4 l hl h]; have := H.noSlipE l hl h
          simp only [hV] at this; field_simp at this; linear_combination -this
        · rw [v2 l hl h, H.freeSlipE l hl h]
        · rw [v6 l hl h, H.periodicVzE l hl h]

/-- Finding: without the proviso the property fails, with the tags the simple-shear template
itself produces (SE corner 11 above an east-periodic node).  After `ApplyBC` the mean of the SE
ghost and its inner neighbour is 1/2 although the prescribed velocity is 0. -/
theorem applyBC_stale_corner :
    ∃ (t : Tags) (bc V : BCVals ℚ) (f : Fields ℚ), GhostTagsOk 3 3 t ∧
      (∀ k, t.u k = 11 → bc.u k = 2 * V.u k) ∧ (∀ k, t.v k = 11 → bc.v k = 2 * V.v k) ∧
      ¬ BCHold 3 3 t V (applyBC 3 3 t bc f) := by
  refine ⟨exTags, ⟨fun _ => 0, fun _ => 0⟩, ⟨fun _ => 0, fun _ => 0⟩,
    ⟨fun k => if k = 3 then 1 else 0, fun _ => 0, fun _ => 0⟩, ?_, ?_, ?_, ?_⟩
  · constructor
    · intro i l hi hl; interval_cases i <;> interval_cases l <;> decide
    · intro i l hi hl; interval_cases i <;> interval_cases l <;> decide
    · intro i l hi hl; interval_cases i <;> interval_cases l <;> decide
  · intro k _; simp
  · intro k _; simp
  · intro H
    have := H.noSlipS 2 (by decide) (by decide)
    simp [applyBC, bcVxPeriodic, bcVxDirichlet, bcVxNeumann, forUp, exTags, upd] at this

end Verif
