import Verif.Props.Buffers
import Verif.Props.Numbering
import Verif.Props.StencilExamples

/-
C71: a Stokes row couples nodes of the staggered grid only, and every stored column is the number of an
equation.  C08 (last part): the free-surface stabilisation keeps the diagonal.
-/
namespace Verif
set_option linter.unusedSectionVars false

variable {K : Type*} [Field K]

/-- The node lies on the staggered grid with `Nx` by `Nz` vertices: `Nx` by `Nz+1` Vx nodes, `Nx+1` by `Nz`
Vz nodes, `Nx-1` by `Nz-1` cells. -/
def SNode.OnGrid (Nx Nz : Nat) : SNode → Prop
  | .u i => ∃ k l : Nat, k < Nx ∧ l < Nz + 1 ∧ i = k + l * Nx
  | .v i => ∃ k l : Nat, k < Nx + 1 ∧ l < Nz ∧ i = k + l * (Nx + 1)
  | .p i => ∃ k l : Nat, k < Nx - 1 ∧ l < Nz - 1 ∧ i = k + l * (Nx - 1 : Nat)

theorem mem_guarded {b : Bool} {n : SNode} {a : K} {e : SNode × K} : e ∈ guarded b n a ↔ b = true ∧ e = (n, a) := by
  cases b <;> simp [guarded]

theorem onGrid_u {Nx Nz : Nat} (i k l : Int) (hk : 0 ≤ k) (hk' : k < Nx) (hl : 0 ≤ l) (hl' : l < Nz + 1)
    (h : i = k + l * Nx) : SNode.OnGrid Nx Nz (.u i) :=
  ⟨k.toNat, l.toNat, by omega, by omega, by rw [h, Int.toNat_of_nonneg hk, Int.toNat_of_nonneg hl]⟩

theorem onGrid_v {Nx Nz : Nat} (i k l : Int) (hk : 0 ≤ k) (hk' : k < Nx + 1) (hl : 0 ≤ l) (hl' : l < Nz)
    (h : i = k + l * (Nx + 1)) : SNode.OnGrid Nx Nz (.v i) :=
  ⟨k.toNat, l.toNat, by omega, by omega, by rw [h, Int.toNat_of_nonneg hk, Int.toNat_of_nonneg hl]⟩

theorem onGrid_p {Nx Nz : Nat} (i k l : Int) (hk : 0 ≤ k) (hk' : k < Nx - 1) (hl : 0 ≤ l) (hl' : l < Nz - 1)
    (h : i = k + l * (Nx - 1)) : SNode.OnGrid Nx Nz (.p i) :=
  ⟨k.toNat, l.toNat, by omega, by omega, by
    rw [h, Int.toNat_of_nonneg hk, Int.toNat_of_nonneg hl, Nat.cast_sub (by omega)]; push_cast; ring⟩

section
variable [LinearOrder K]

/-- Rows of Vx nodes refer to existing nodes. -/
theorem x_stencil_nodes (m : SMesh K) (k l : Int) (hx : 2 ≤ m.Nx) (k0 : 0 ≤ k) (k1 : k < m.Nx) (l0 : 0 < l)
    (l1 : l < m.Nz) (hper : m.tu (k + l * m.Nx) = -2 → k = 0) :
    ∀ e ∈ xStencil m k l ++ xStencilP m k l, e.1.OnGrid m.Nx m.Nz := by
  intro e he
  simp only [xStencil, xStencilP, List.mem_append, mem_guarded, Bool.and_eq_true, Bool.or_eq_true, decide_eq_true_eq,
    beq_iff_eq, xIdx] at he
  rcases he with ((((((((⟨h, rfl⟩ | ⟨h, rfl⟩) | ⟨h, rfl⟩) | ⟨h, rfl⟩) | ⟨h, rfl⟩) | ⟨h, rfl⟩) | ⟨h, rfl⟩) | ⟨h, rfl⟩) | ⟨h, rfl⟩) |
    (⟨h, rfl⟩ | ⟨h, rfl⟩)
  · exact onGrid_u _ k (l - 1) k0 k1 (by omega) (by omega) (by ring)
  · show SNode.OnGrid _ _ (.u (if _ then _ else _))
    split_ifs with hp
    · exact onGrid_u _ (m.Nx - 2) l (by omega) (by omega) (by omega) (by omega) (by rw [hper hp]; ring)
    · exact onGrid_u _ (k - 1) l (by have := h.2.resolve_right hp; omega) (by omega) (by omega) (by omega) (by ring)
  · exact onGrid_u _ k l k0 k1 (by omega) (by omega) rfl
  · refine onGrid_u _ (k + 1) l (by omega) ?_ (by omega) (by omega) (by ring)
    rcases h.2 with h | h
    · omega
    · have := hper h; omega
  · exact onGrid_u _ k (l + 1) k0 k1 (by omega) (by omega) (by ring)
  · show SNode.OnGrid _ _ (.v (if _ then _ else _))
    split_ifs with hp
    · exact onGrid_v _ (m.Nx - 1) (l - 1) (by omega) (by omega) (by omega) (by omega) (by rw [hper hp]; ring)
    · exact onGrid_v _ k (l - 1) (by omega) (by omega) (by omega) (by omega) (by ring)
  · exact onGrid_v _ (k + 1) (l - 1) (by omega) (by omega) (by omega) (by omega) (by ring)
  · show SNode.OnGrid _ _ (.v (if _ then _ else _))
    split_ifs with hp
    · exact onGrid_v _ (m.Nx - 1) l (by omega) (by omega) (by omega) (by omega) (by rw [hper hp]; ring)
    · exact onGrid_v _ k l (by omega) (by omega) (by omega) (by omega) (by ring)
  · exact onGrid_v _ (k + 1) l (by omega) (by omega) (by omega) (by omega) (by ring)
  · show SNode.OnGrid _ _ (.p (if _ then _ else _))
    split_ifs with hp
    · exact onGrid_p _ (m.Nx - 2) (l - 1) (by omega) (by omega) (by omega) (by omega) (by rw [hper hp]; ring)
    · exact onGrid_p _ (k - 1) (l - 1) (by have := h.2.resolve_right hp; omega) (by omega) (by omega) (by omega) (by ring)
  · refine onGrid_p _ k (l - 1) (by omega) ?_ (by omega) (by omega) (by ring)
    rcases h.2 with h | h
    · omega
    · have := hper h; omega

/-- Rows of Vz nodes refer to existing nodes. -/
theorem z_stencil_nodes (m : SMesh K) (k l : Int) (hx : 2 ≤ m.Nx) (k0 : 0 < k) (k1 : k < m.Nx) (l0 : 0 ≤ l)
    (l1 : l < m.Nz) : ∀ e ∈ zStencil m k l ++ zStencilP m k l, e.1.OnGrid m.Nx m.Nz := by
  intro e he
  simp only [zStencil, zStencilP, List.mem_append, mem_guarded, Bool.and_eq_true, decide_eq_true_eq, beq_iff_eq, zIdx] at he
  rcases he with ((((((((⟨h, rfl⟩ | ⟨h, rfl⟩) | ⟨h, rfl⟩) | ⟨h, rfl⟩) | ⟨h, rfl⟩) | ⟨h, rfl⟩) | ⟨h, rfl⟩) | ⟨h, rfl⟩) | ⟨h, rfl⟩) |
    (⟨h, rfl⟩ | ⟨h, rfl⟩)
  · exact onGrid_u _ (k - 1) l (by omega) (by omega) (by omega) (by omega) (by ring)
  · exact onGrid_u _ k l (by omega) (by omega) (by omega) (by omega) (by ring)
  · exact onGrid_u _ (k - 1) (l + 1) (by omega) (by omega) (by omega) (by omega) (by ring)
  · exact onGrid_u _ k (l + 1) (by omega) (by omega) (by omega) (by omega) (by ring)
  · exact onGrid_v _ k (l - 1) (by omega) (by omega) (by omega) (by omega) (by ring)
  · show SNode.OnGrid _ _ (.v (if _ then _ else _))
    split_ifs with hp
    · exact onGrid_v _ (m.Nx - 1) l (by omega) (by omega) (by omega) (by omega) (by rw [hp.2]; ring)
    · exact onGrid_v _ (k - 1) l (by omega) (by omega) (by omega) (by omega) (by ring)
  · exact onGrid_v _ k l (by omega) (by omega) (by omega) (by omega) (by ring)
  · show SNode.OnGrid _ _ (.v (if _ then _ else _))
    split_ifs with hp
    · exact onGrid_v _ 1 l (by omega) (by omega) (by omega) (by omega) (by rw [hp.2]; ring)
    · exact onGrid_v _ (k + 1) l (by omega) (by omega) (by omega) (by omega) (by ring)
  · exact onGrid_v _ k (l + 1) (by omega) (by omega) (by omega) (by omega) (by ring)
  · exact onGrid_p _ (k - 1) (l - 1) (by omega) (by omega) (by omega) (by omega) (by ring)
  · exact onGrid_p _ (k - 1) l (by omega) (by omega) (by omega) (by omega) (by ring)

omit [LinearOrder K]

/-- Continuity rows refer to existing nodes. -/
theorem c_stencil_nodes (m : SMesh K) (k l : Int) (k0 : 0 ≤ k) (k1 : k < m.Nx - 1) (l0 : 0 ≤ l) (l1 : l < m.Nz - 1) :
    ∀ e ∈ cStencil m k l, e.1.OnGrid m.Nx m.Nz := by
  intro e he
  simp only [cStencil, List.mem_append, mem_guarded] at he
  rcases he with ((⟨h, rfl⟩ | ⟨h, rfl⟩) | ⟨h, rfl⟩) | ⟨h, rfl⟩
  · exact onGrid_u _ k (l + 1) (by omega) (by omega) (by omega) (by omega) (by ring)
  · exact onGrid_u _ (k + 1) (l + 1) (by omega) (by omega) (by omega) (by omega) (by ring)
  · exact onGrid_v _ (k + 1) l (by omega) (by omega) (by omega) (by omega) (by ring)
  · exact onGrid_v _ (k + 1) (l + 1) (by omega) (by omega) (by omega) (by omega) (by ring)

end

/-! ### Columns are equation numbers -/

/-- Tags of the mesh as seen by the numbering. -/
def SMesh.tags (m : SMesh K) : Tags := ⟨fun k => m.tu k, fun k => m.tv k, fun k => m.tp k⟩

/-- Column number of a node: pressure columns are counted from the first continuity equation
(StokesAssemblyDecoupled.c:178, `eqn_p[...] - neq_mom`). -/
def colNumber (n : Numbering) : SNode → Int
  | .u i => n.eqnU i.toNat
  | .v i => n.eqnV i.toNat
  | .p i => n.eqnP i.toNat - n.neqMom

/-- Meshes of the assembly: documented tags; periodic tags on the sides only and in pairs; a solved cell has no
velocity node in the air (the flagging establishes it away from the side columns, C58). -/
structure MeshOk (m : SMesh K) : Prop where
  nx : 2 ≤ m.Nx
  tags : TagsOk m.Nx m.Nz m.tags
  westU : ∀ k l : Nat, k < m.Nx → l < m.Nz + 1 → m.tu (k + l * m.Nx) = -2 → k = 0
  pairU : ∀ l : Nat, l < m.Nz + 1 → m.tu ((m.Nx - 1 : Nat) + l * m.Nx) = -12 → m.tu ((0 : Nat) + l * m.Nx) = -2
  sideV : ∀ k l : Nat, k < m.Nx + 1 → l < m.Nz → m.tv (k + l * (m.Nx + 1)) = -12 → k = 0 ∨ k = m.Nx
  cells : ∀ k l : Nat, k < m.Nx - 1 → l < m.Nz - 1 → m.tp (k + l * (m.Nx - 1 : Nat)) = -1 →
    m.tu (k + (l + 1) * m.Nx) ≠ 30 ∧ m.tu (k + (l + 1) * m.Nx + 1) ≠ 30 ∧
    m.tv (k + l * (m.Nx + 1) + 1) ≠ 30 ∧ m.tv (k + l * (m.Nx + 1) + 1 + (m.Nx + 1)) ≠ 30

/-- Numbers of the nodes on the grid that are neither prescribed nor air. -/
theorem colNumber_range (m : SMesh K) (h : MeshOk m) (junk : Nat → Int) (n : SNode) (hn : n.OnGrid m.Nx m.Nz)
    (hp : m.tag n ∉ prescribedTags) (ha : m.tag n ≠ 30)
    (hv : ∀ k l : Nat, n = .v (k + l * (m.Nx + 1)) → m.tag n ≠ -12) :
    let N := evalNumberOfEquations m.Nx m.Nz m.tags junk
    0 ≤ colNumber N n ∧ ((∀ i, n ≠ .p i) → colNumber N n < N.neqMom) ∧ ((∃ i, n = .p i) → colNumber N n < N.neqCont) := by
  intro N
  obtain ⟨r, _, _, mom, _, tw, sum⟩ := numbering_bijective m.Nx m.Nz h.nx m.tags junk h.tags.east
  change ∀ d : Dof, _ at r
  cases n with
  | u i =>
    obtain ⟨k, l, hk, hl, rfl⟩ := hn
    have hlt : k + l * m.Nx < (m.Nz + 1) * m.Nx := by nlinarith [Nat.mul_le_mul_right m.Nx (Nat.succ_le_of_lt hl)]
    have e : ((k : Int) + l * m.Nx) = ((k + l * m.Nx : Nat) : Int) := by push_cast; ring
    have et : ((k : Int) + l * m.Nx).toNat = k + l * m.Nx := by rw [e, Int.toNat_natCast]
    refine ⟨?_, fun _ => ?_, fun ⟨i, hi⟩ => by cases hi⟩ <;> simp only [colNumber, et]
    all_goals
      have ht := h.tags.u _ hlt
      simp only [SMesh.tag] at hp ha
      simp only [SMesh.tags, ← e] at ht
      by_cases h12 : m.tu (k + l * m.Nx) = -12
      · have hk1 : k = m.Nx - 1 := by
          have := h.tags.east _ hlt (by show m.tu ((k + l * m.Nx : Nat) : Int) = -12; rw [← e]; exact h12)
          rwa [Nat.add_mul_mod_self_right, Nat.mod_eq_of_lt hk] at this
        subst hk1
        have hs : Dof.Solved m.tags (.u (l * m.Nx)) := by
          right; right
          have := h.pairU l hl h12
          simpa [SMesh.tags] using this
        have hg : Dof.InGrid m.Nx m.Nz (.u (l * m.Nx)) := by
          show l * m.Nx < _
          omega
        have tw' := tw l (by omega) (by show m.tu ((l * m.Nx + (m.Nx - 1) : Nat) : Int) = -12; rw [← h12]; congr 1; push_cast; ring)
        have r1 := r _ hg hs
        have m1 := (mom _ hg hs).2 (by simp)
        rw [show m.Nx - 1 + l * m.Nx = l * m.Nx + (m.Nx - 1) by omega]
        simp only [Dof.eqn] at r1 m1
        change 0 ≤ N.eqnU _ ∧ _ at r1
        change N.eqnU _ < _ at m1
        change N.eqnU _ = N.eqnU _ at tw'
        rw [tw']
        first | exact r1.1 | exact m1
      · have hs : Dof.Solved m.tags (.u (k + l * m.Nx)) := by
          show m.tu ((k + l * m.Nx : Nat) : Int) = -1 ∨ _
          simp only [← e, SMesh.tags]
          simp only [prescribedTags, List.mem_cons, List.not_mem_nil, or_false] at hp ht
          tauto
        have r1 := r (.u (k + l * m.Nx)) hlt hs
        have m1 := (mom (.u (k + l * m.Nx)) hlt hs).2 (by simp)
        first | exact r1.1 | exact m1
  | v i =>
    obtain ⟨k, l, hk, hl, rfl⟩ := hn
    have hlt : k + l * (m.Nx + 1) < m.Nz * (m.Nx + 1) := by nlinarith [Nat.mul_le_mul_right (m.Nx + 1) (Nat.succ_le_of_lt hl)]
    have e : ((k : Int) + l * (m.Nx + 1)) = ((k + l * (m.Nx + 1) : Nat) : Int) := by push_cast; ring
    have et : ((k : Int) + l * (m.Nx + 1)).toNat = k + l * (m.Nx + 1) := by rw [e, Int.toNat_natCast]
    have h12 := hv k l rfl
    have ht := h.tags.v _ hlt
    simp only [SMesh.tag] at hp ha h12
    simp only [SMesh.tags, ← e] at ht
    have hs : Dof.Solved m.tags (.v (k + l * (m.Nx + 1))) := by
      show m.tv ((k + l * (m.Nx + 1) : Nat) : Int) = -1 ∨ _
      simp only [← e, SMesh.tags]
      simp only [prescribedTags, List.mem_cons, List.not_mem_nil, or_false] at hp ht
      tauto
    have r1 := r (.v (k + l * (m.Nx + 1))) hlt hs
    have m1 := (mom (.v (k + l * (m.Nx + 1))) hlt hs).2 (by simp)
    refine ⟨?_, fun _ => ?_, fun ⟨i, hi⟩ => by cases hi⟩ <;> simp only [colNumber, et]
    · exact r1.1
    · exact m1
  | p i =>
    obtain ⟨k, l, hk, hl, rfl⟩ := hn
    have hlt : k + l * (m.Nx - 1) < (m.Nz - 1) * (m.Nx - 1) := by
      nlinarith [Nat.mul_le_mul_right (m.Nx - 1) (Nat.succ_le_of_lt hl)]
    have e : ((k : Int) + l * (m.Nx - 1 : Nat)) = ((k + l * (m.Nx - 1) : Nat) : Int) := by push_cast; ring
    have et : ((k : Int) + l * (m.Nx - 1 : Nat)).toNat = k + l * (m.Nx - 1) := by rw [e, Int.toNat_natCast]
    have ht := h.tags.p _ hlt
    simp only [SMesh.tag] at hp ha
    simp only [SMesh.tags, ← e] at ht
    have hs : Dof.Solved m.tags (.p (k + l * (m.Nx - 1))) := by
      show m.tp ((k + l * (m.Nx - 1) : Nat) : Int) = -1
      simp only [← e]
      simp only [prescribedTags, List.mem_cons, List.not_mem_nil, or_false] at hp ht
      tauto
    have r1 := r (.p (k + l * (m.Nx - 1))) hlt hs
    have m1 := mt (mom (.p (k + l * (m.Nx - 1))) hlt hs).1 (fun hc => hc _ rfl)
    simp only [Dof.eqn] at r1 m1
    change 0 ≤ N.eqnP _ ∧ N.eqnP _ < (N.neq : Int) at r1
    change ¬ N.eqnP _ < (N.neqMom : Int) at m1
    change N.neq = N.neqMom + N.neqCont at sum
    refine ⟨?_, fun hc => absurd rfl (hc _), fun _ => ?_⟩ <;> simp only [colNumber, et] <;> omega

variable [LinearOrder K]

theorem mem_row {m : SMesh K} {eqn : SNode → Int} {st : List (SNode × K)} {x : Int × K}
    (h : x ∈ (buildRow m eqn st).entries) : ∃ e ∈ st, m.tag e.1 ∉ prescribedTags ∧ x.1 = eqn e.1 := by
  rw [(elimination_preserves_equation m eqn st).2] at h
  simp only [List.mem_map, List.mem_filter, decide_eq_true_eq] at h
  obtain ⟨e, ⟨he, hp⟩, rfl⟩ := h
  exact ⟨e, he, hp, rfl⟩

theorem x_stencil_air (m : SMesh K) (k l : Int) : ∀ e ∈ xStencil m k l ++ xStencilP m k l, m.tag e.1 ≠ 30 := by
  intro e he
  simp only [xStencil, xStencilP, List.mem_append, mem_guarded, Bool.and_eq_true, bne_iff_ne] at he
  rcases he with ((((((((⟨h, rfl⟩ | ⟨h, rfl⟩) | ⟨h, rfl⟩) | ⟨h, rfl⟩) | ⟨h, rfl⟩) | ⟨h, rfl⟩) | ⟨h, rfl⟩) | ⟨h, rfl⟩) | ⟨h, rfl⟩) |
    (⟨h, rfl⟩ | ⟨h, rfl⟩)
  all_goals first | exact h | exact h.1

theorem z_stencil_air (m : SMesh K) (k l : Int) : ∀ e ∈ zStencil m k l ++ zStencilP m k l, m.tag e.1 ≠ 30 := by
  intro e he
  simp only [zStencil, zStencilP, List.mem_append, mem_guarded, Bool.and_eq_true, bne_iff_ne] at he
  rcases he with ((((((((⟨h, rfl⟩ | ⟨h, rfl⟩) | ⟨h, rfl⟩) | ⟨h, rfl⟩) | ⟨h, rfl⟩) | ⟨h, rfl⟩) | ⟨h, rfl⟩) | ⟨h, rfl⟩) | ⟨h, rfl⟩) |
    (⟨h, rfl⟩ | ⟨h, rfl⟩)
  all_goals first | exact h | exact h.1

/-- Families of the nodes of each block. -/
theorem x_kind (m : SMesh K) (k l : Int) :
    (∀ e ∈ xStencil m k l, ∀ i, e.1 ≠ .p i) ∧ (∀ e ∈ xStencilP m k l, ∃ i, e.1 = .p i) := by
  constructor
  · intro e he i
    simp only [xStencil, List.mem_append, mem_guarded] at he
    rcases he with (((((((⟨_, rfl⟩ | ⟨_, rfl⟩) | ⟨_, rfl⟩) | ⟨_, rfl⟩) | ⟨_, rfl⟩) | ⟨_, rfl⟩) | ⟨_, rfl⟩) | ⟨_, rfl⟩) | ⟨_, rfl⟩ <;> simp
  · intro e he
    simp only [xStencilP, List.mem_append, mem_guarded] at he
    rcases he with ⟨_, rfl⟩ | ⟨_, rfl⟩ <;> simp

theorem z_kind (m : SMesh K) (k l : Int) :
    (∀ e ∈ zStencil m k l, ∀ i, e.1 ≠ .p i) ∧ (∀ e ∈ zStencilP m k l, ∃ i, e.1 = .p i) := by
  constructor
  · intro e he i
    simp only [zStencil, List.mem_append, mem_guarded] at he
    rcases he with (((((((⟨_, rfl⟩ | ⟨_, rfl⟩) | ⟨_, rfl⟩) | ⟨_, rfl⟩) | ⟨_, rfl⟩) | ⟨_, rfl⟩) | ⟨_, rfl⟩) | ⟨_, rfl⟩) | ⟨_, rfl⟩ <;> simp
  · intro e he
    simp only [zStencilP, List.mem_append, mem_guarded] at he
    rcases he with ⟨_, rfl⟩ | ⟨_, rfl⟩ <;> simp

omit [Field K] [LinearOrder K] in
theorem v_coord {Nx : Nat} {k l : Nat} {a b : Int} (hk : k < Nx + 1) (ha : 0 ≤ a) (ha' : a < Nx + 1)
    (h : (k : Int) + l * (Nx + 1) = a + b * (Nx + 1)) : (k : Int) = a := by
  have h1 : ((k : Int) + l * (Nx + 1)) % (Nx + 1) = k := by
    rw [Int.add_mul_emod_self_right]; exact Int.emod_eq_of_lt (by omega) (by omega)
  have h2 : (a + b * (Nx + 1)) % ((Nx : Int) + 1) = a := by
    rw [Int.add_mul_emod_self_right]; exact Int.emod_eq_of_lt ha ha'
  rw [h, h2] at h1
  exact h1.symm

/-- No row refers to a periodic image of a Vz node (columns 0 and Nx, tag -12). -/
theorem x_no_image (m : SMesh K) (ok : MeshOk m) (k l : Int) (k0 : 0 ≤ k) (k1 : k < m.Nx) (l0 : 0 < l) (l1 : l < m.Nz) :
    ∀ e ∈ xStencil m k l ++ xStencilP m k l, ∀ a b : Nat, e.1 = .v (a + b * (m.Nx + 1)) → m.tag e.1 ≠ -12 := by
  have hx := ok.nx
  have hper : m.tu (k + l * m.Nx) = -2 → k = 0 := by
    intro h
    have := ok.westU k.toNat l.toNat (by omega) (by omega)
      (by rw [Int.toNat_of_nonneg k0, Int.toNat_of_nonneg l0.le]; exact h)
    omega
  have key : ∀ i c r : Int, 0 < c → c < m.Nx → 0 ≤ r → r < m.Nz → i = c + r * (m.Nx + 1) → m.tv i ≠ -12 := by
    intro i c r c0 c1 r0 r1 hi h
    have := ok.sideV c.toNat r.toNat (by omega) (by omega)
      (by rw [Int.toNat_of_nonneg c0.le, Int.toNat_of_nonneg r0, ← hi]; exact h)
    omega
  intro e he a b hab
  simp only [xStencil, xStencilP, List.mem_append, mem_guarded, Bool.and_eq_true, Bool.or_eq_true, decide_eq_true_eq,
    beq_iff_eq, xIdx] at he
  rcases he with ((((((((⟨h, rfl⟩ | ⟨h, rfl⟩) | ⟨h, rfl⟩) | ⟨h, rfl⟩) | ⟨h, rfl⟩) | ⟨h, rfl⟩) | ⟨h, rfl⟩) | ⟨h, rfl⟩) | ⟨h, rfl⟩) |
    (⟨h, rfl⟩ | ⟨h, rfl⟩)
  · cases hab
  · cases hab
  · cases hab
  · cases hab
  · cases hab
  · show m.tv (if _ then _ else _) ≠ -12
    split_ifs with hp
    · exact key _ (m.Nx - 1) (l - 1) (by omega) (by omega) (by omega) (by omega) (by rw [hper hp]; ring)
    · exact key _ k (l - 1) (by have := h.2.resolve_right hp; omega) (by omega) (by omega) (by omega) (by ring)
  · refine key _ (k + 1) (l - 1) (by omega) ?_ (by omega) (by omega) (by ring)
    rcases h.2 with h | h
    · omega
    · have := hper h; omega
  · show m.tv (if _ then _ else _) ≠ -12
    split_ifs with hp
    · exact key _ (m.Nx - 1) l (by omega) (by omega) (by omega) (by omega) (by rw [hper hp]; ring)
    · exact key _ k l (by have := h.2.resolve_right hp; omega) (by omega) (by omega) (by omega) (by ring)
  · refine key _ (k + 1) l (by omega) ?_ (by omega) (by omega) (by ring)
    rcases h.2 with h | h
    · omega
    · have := hper h; omega
  · cases hab
  · cases hab

theorem z_no_image (m : SMesh K) (ok : MeshOk m) (k l : Int) (k0 : 0 < k) (k1 : k < m.Nx) (l0 : 0 ≤ l) (l1 : l < m.Nz) :
    ∀ e ∈ zStencil m k l ++ zStencilP m k l, ∀ a b : Nat, e.1 = .v (a + b * (m.Nx + 1)) → m.tag e.1 ≠ -12 := by
  have hx := ok.nx
  have key : ∀ i c r : Int, 0 < c → c < m.Nx → 0 ≤ r → r < m.Nz → i = c + r * (m.Nx + 1) → m.tv i ≠ -12 := by
    intro i c r c0 c1 r0 r1 hi h
    have := ok.sideV c.toNat r.toNat (by omega) (by omega)
      (by rw [Int.toNat_of_nonneg c0.le, Int.toNat_of_nonneg r0, ← hi]; exact h)
    omega
  intro e he a b hab
  simp only [zStencil, zStencilP, List.mem_append, mem_guarded, Bool.and_eq_true, decide_eq_true_eq, beq_iff_eq, zIdx] at he
  rcases he with ((((((((⟨h, rfl⟩ | ⟨h, rfl⟩) | ⟨h, rfl⟩) | ⟨h, rfl⟩) | ⟨h, rfl⟩) | ⟨h, rfl⟩) | ⟨h, rfl⟩) | ⟨h, rfl⟩) | ⟨h, rfl⟩) |
    (⟨h, rfl⟩ | ⟨h, rfl⟩)
  · cases hab
  · cases hab
  · cases hab
  · cases hab
  · exact key _ k (l - 1) k0 k1 (by omega) (by omega) (by ring)
  · show m.tv (if _ then _ else _) ≠ -12
    split_ifs with hp
    · exact key _ (m.Nx - 1) l (by omega) (by omega) (by omega) (by omega) (by rw [hp.2]; ring)
    · by_cases hk : k = 1
      · intro hc; exact hp ⟨hc, hk⟩
      · exact key _ (k - 1) l (by omega) (by omega) (by omega) (by omega) (by ring)
  · exact key _ k l k0 k1 (by omega) (by omega) (by ring)
  · show m.tv (if _ then _ else _) ≠ -12
    split_ifs with hp
    · exact key _ 1 l (by omega) (by omega) (by omega) (by omega) (by rw [hp.2]; ring)
    · by_cases hk : k = (m.Nx : Int) + 1 - 2
      · intro hc; exact hp ⟨hc, hk⟩
      · exact key _ (k + 1) l (by omega) (by omega) (by omega) (by omega) (by ring)
  · exact key _ k (l + 1) k0 k1 (by omega) (by omega) (by ring)
  · cases hab
  · cases hab

/-- Row and column of a flattened index. -/
theorem col_row_range (n r c : Nat) (hn : 0 < n) (hc : c < n * r) :
    0 ≤ colOf n c ∧ colOf n c < n ∧ 0 ≤ rowOf n c ∧ rowOf n c < r ∧ (c : Int) = colOf n c + rowOf n c * n := by
  unfold colOf rowOf
  refine ⟨Int.emod_nonneg _ (by omega), Int.emod_lt_of_pos _ (by omega), Int.ediv_nonneg (by omega) (by omega), ?_, ?_⟩
  · exact Int.ediv_lt_of_lt_mul (by omega) (by exact_mod_cast (by rwa [mul_comm] at hc))
  · have := Int.emod_add_mul_ediv (c : Int) n
    linarith [mul_comm ((c : Int) / n) n]

/-- **C71.**  On every legal mesh, with the numbering of the Stokes system: each coefficient stored for a solved
node sits in a column that is an equation of the block it is stored in — velocity equations (`0..neqMom-1`) for
the momentum block A and the continuity block C, pressure equations (`0..neqCont-1`) for block B; and the nodes
of the ghost rows and ghost columns contribute no coefficient. -/
theorem columns_are_equations (m : SMesh K) (ok : MeshOk m) (junk : Nat → Int) (c : Nat) :
    let N := evalNumberOfEquations m.Nx m.Nz m.tags junk
    (∀ p ∈ [Pass.uA, Pass.vA, Pass.pC], c < p.nodes m.Nx m.Nz → p.solved m c = true →
      ∀ x ∈ p.row m (colNumber N) c, 0 ≤ x.1 ∧ x.1 < N.neqMom) ∧
    (∀ p ∈ [Pass.uB, Pass.vB], c < p.nodes m.Nx m.Nz → p.solved m c = true →
      ∀ x ∈ p.row m (colNumber N) c, 0 ≤ x.1 ∧ x.1 < N.neqCont) ∧
    (∀ p ∈ [Pass.uA, Pass.uB], (c < m.Nx ∨ m.Nz * m.Nx ≤ c) → c < p.nodes m.Nx m.Nz → p.row m (colNumber N) c = []) ∧
    (∀ p ∈ [Pass.vA, Pass.vB], (c % (m.Nx + 1) = 0 ∨ c % (m.Nx + 1) = m.Nx) → p.row m (colNumber N) c = []) := by
  intro N
  have hx := ok.nx
  have per : ∀ k l : Int, 0 ≤ k → k < m.Nx → 0 ≤ l → l < m.Nz + 1 → m.tu (k + l * m.Nx) = -2 → k = 0 := by
    intro k l k0 k1 l0 l1 h
    have := ok.westU k.toNat l.toNat (by omega) (by omega)
      (by rw [Int.toNat_of_nonneg k0, Int.toNat_of_nonneg l0]; exact h)
    omega
  -- one row of each kind
  have xrow : c < m.Nx * (m.Nz + 1) → 0 < rowOf m.Nx c → rowOf m.Nx c < (m.Nz : Int) →
      (∀ x ∈ (buildRow m (colNumber N) (xStencil m (colOf m.Nx c) (rowOf m.Nx c))).entries, 0 ≤ x.1 ∧ x.1 < N.neqMom) ∧
      (∀ x ∈ (buildRow m (colNumber N) (xStencilP m (colOf m.Nx c) (rowOf m.Nx c))).entries, 0 ≤ x.1 ∧ x.1 < N.neqCont) := by
    intro hc l0 l1
    obtain ⟨k0, k1, r0, r1, _⟩ := col_row_range m.Nx (m.Nz + 1) c (by omega) hc
    have nodes := x_stencil_nodes m _ _ hx k0 k1 l0 l1 (per _ _ k0 k1 r0 (by exact_mod_cast r1))
    have air := x_stencil_air m (colOf m.Nx c) (rowOf m.Nx c)
    have img := x_no_image m ok _ _ k0 k1 l0 l1
    obtain ⟨kA, kB⟩ := x_kind m (colOf m.Nx c) (rowOf m.Nx c)
    constructor
    · intro x hxm
      obtain ⟨e, he, hp, hxe⟩ := mem_row hxm
      have he' : e ∈ xStencil m (colOf m.Nx c) (rowOf m.Nx c) ++ xStencilP m (colOf m.Nx c) (rowOf m.Nx c) :=
        List.mem_append_left _ he
      have := colNumber_range m ok junk e.1 (nodes e he') hp (air e he') (img e he')
      rw [hxe]
      exact ⟨this.1, this.2.1 (kA e he)⟩
    · intro x hxm
      obtain ⟨e, he, hp, hxe⟩ := mem_row hxm
      have he' : e ∈ xStencil m (colOf m.Nx c) (rowOf m.Nx c) ++ xStencilP m (colOf m.Nx c) (rowOf m.Nx c) :=
        List.mem_append_right _ he
      have := colNumber_range m ok junk e.1 (nodes e he') hp (air e he') (img e he')
      rw [hxe]
      exact ⟨this.1, this.2.2 (kB e he)⟩
  have zrow : c < (m.Nx + 1) * m.Nz → 0 < colOf (m.Nx + 1) c → colOf (m.Nx + 1) c < (m.Nx : Int) →
      (∀ x ∈ (buildRow m (colNumber N) (zStencil m (colOf (m.Nx + 1) c) (rowOf (m.Nx + 1) c))).entries, 0 ≤ x.1 ∧ x.1 < N.neqMom) ∧
      (∀ x ∈ (buildRow m (colNumber N) (zStencilP m (colOf (m.Nx + 1) c) (rowOf (m.Nx + 1) c))).entries, 0 ≤ x.1 ∧ x.1 < N.neqCont) := by
    intro hc k0 k1
    obtain ⟨_, _, r0, r1, _⟩ := col_row_range (m.Nx + 1) m.Nz c (by omega) hc
    push_cast at r0 r1
    have nodes := z_stencil_nodes m _ _ hx k0 k1 r0 r1
    have air := z_stencil_air m (colOf (m.Nx + 1) c) (rowOf (m.Nx + 1) c)
    have img := z_no_image m ok _ _ k0 k1 r0 r1
    obtain ⟨kA, kB⟩ := z_kind m (colOf (m.Nx + 1) c) (rowOf (m.Nx + 1) c)
    constructor
    · intro x hxm
      obtain ⟨e, he, hp, hxe⟩ := mem_row hxm
      have he' : e ∈ zStencil m (colOf (m.Nx + 1) c) (rowOf (m.Nx + 1) c) ++ zStencilP m (colOf (m.Nx + 1) c) (rowOf (m.Nx + 1) c) :=
        List.mem_append_left _ he
      have := colNumber_range m ok junk e.1 (nodes e he') hp (air e he') (img e he')
      rw [hxe]
      exact ⟨this.1, this.2.1 (kA e he)⟩
    · intro x hxm
      obtain ⟨e, he, hp, hxe⟩ := mem_row hxm
      have he' : e ∈ zStencil m (colOf (m.Nx + 1) c) (rowOf (m.Nx + 1) c) ++ zStencilP m (colOf (m.Nx + 1) c) (rowOf (m.Nx + 1) c) :=
        List.mem_append_right _ he
      have := colNumber_range m ok junk e.1 (nodes e he') hp (air e he') (img e he')
      rw [hxe]
      exact ⟨this.1, this.2.2 (kB e he)⟩
  refine ⟨?_, ?_, ?_, ?_⟩
  · intro p hp hc hs x hxm
    simp only [List.mem_cons, List.not_mem_nil, or_false] at hp
    rcases hp with rfl | rfl | rfl
    · simp only [Pass.row] at hxm
      split_ifs at hxm with h
      · exact (xrow hc h.1 h.2).1 x hxm
      · cases hxm
    · simp only [Pass.row] at hxm
      split_ifs at hxm with h
      · exact (zrow hc h.1 h.2).1 x hxm
      · cases hxm
    · simp only [Pass.row] at hxm
      simp only [Pass.nodes] at hc
      have hn1 : 0 < m.Nx - 1 := by
        rcases Nat.eq_zero_or_pos (m.Nx - 1) with h | h
        · rw [h] at hc; omega
        · exact h
      obtain ⟨k0, k1, r0, r1, hcc⟩ := col_row_range (m.Nx - 1) (m.Nz - 1) c hn1 hc
      have hcast : ((m.Nx - 1 : Nat) : Int) = (m.Nx : Int) - 1 := by omega
      rw [hcast] at k0 k1 r0 r1 hcc
      have hz : 1 ≤ m.Nz := by
        rcases Nat.eq_zero_or_pos m.Nz with h | h
        · rw [h] at hc; simp at hc
        · exact h
      have r1' : rowOf ((m.Nx : Int) - 1) c < (m.Nz : Int) - 1 := by
        have : ((m.Nz - 1 : Nat) : Int) = (m.Nz : Int) - 1 := by omega
        rwa [this] at r1
      obtain ⟨e, he, hpr, hxe⟩ := mem_row hxm
      have nodes := c_stencil_nodes m _ _ k0 k1 r0 r1' e he
      have hsol : m.tp c = -1 := by simpa [Pass.solved] using hs
      generalize hk : colOf ((m.Nx : Int) - 1) c = k at *
      generalize hl : rowOf ((m.Nx : Int) - 1) c = l at *
      have cells := ok.cells k.toNat l.toNat (by omega) (by omega)
        (by rw [Int.toNat_of_nonneg k0, Int.toNat_of_nonneg r0, hcast, ← hcc]; exact hsol)
      rw [Int.toNat_of_nonneg k0, Int.toNat_of_nonneg r0] at cells
      have hair : m.tag e.1 ≠ 30 ∧ (∀ i, e.1 ≠ .p i) ∧ (∀ a b : Nat, e.1 = .v (a + b * (m.Nx + 1)) → m.tag e.1 ≠ -12) := by
        simp only [cStencil, List.mem_append, mem_guarded] at he
        have vkey : ∀ r : Int, 0 ≤ r → r < m.Nz → m.tv (k + r * (m.Nx + 1) + 1) ≠ -12 := by
          intro r r0 r1 hcon
          have := ok.sideV (k + 1).toNat r.toNat (by omega) (by omega)
            (by rw [Int.toNat_of_nonneg (by omega), Int.toNat_of_nonneg r0, ← hcon]; congr 1; ring)
          omega
        rcases he with ((⟨h, rfl⟩ | ⟨h, rfl⟩) | ⟨h, rfl⟩) | ⟨h, rfl⟩
        · exact ⟨cells.1, by simp, by intro a b hab; cases hab⟩
        · exact ⟨cells.2.1, by simp, by intro a b hab; cases hab⟩
        · exact ⟨cells.2.2.1, by simp, fun _ _ _ => vkey l r0 (by omega)⟩
        · refine ⟨cells.2.2.2, by simp, fun _ _ _ => ?_⟩
          have := vkey (l + 1) (by omega) (by omega)
          intro hcon
          apply this
          rw [← hcon]
          simp only [SMesh.tag]
          congr 1
          ring
      have := colNumber_range m ok junk e.1 nodes hpr hair.1 hair.2.2
      rw [hxe]
      exact ⟨this.1, this.2.1 hair.2.1⟩
  · intro p hp hc hs x hxm
    simp only [List.mem_cons, List.not_mem_nil, or_false] at hp
    rcases hp with rfl | rfl
    · simp only [Pass.row] at hxm
      split_ifs at hxm with h
      · exact (xrow hc h.1 h.2).2 x hxm
      · cases hxm
    · simp only [Pass.row] at hxm
      split_ifs at hxm with h
      · exact (zrow hc h.1 h.2).2 x hxm
      · cases hxm
  · intro p hp hc hn
    have hr : ¬ (0 < rowOf m.Nx c ∧ rowOf m.Nx c < (m.Nz : Int)) := by
      unfold rowOf
      rcases hc with hc | hc
      · rw [Int.ediv_eq_zero_of_lt (by omega) (by omega)]; omega
      · have : (m.Nz : Int) ≤ (c : Int) / m.Nx := (Int.le_ediv_iff_mul_le (by omega)).2 (by exact_mod_cast hc)
        omega
    simp only [List.mem_cons, List.not_mem_nil, or_false] at hp
    rcases hp with rfl | rfl <;> simp only [Pass.row] <;> rw [if_neg hr]
  · intro p hp hc
    have hr : ¬ (0 < colOf (m.Nx + 1) c ∧ colOf (m.Nx + 1) c < (m.Nx : Int)) := by
      unfold colOf
      have e : ((c : Int) % ((m.Nx : Int) + 1)) = ((c % (m.Nx + 1) : Nat) : Int) := by push_cast; rfl
      rw [e]
      omega
    simp only [List.mem_cons, List.not_mem_nil, or_false] at hp
    rcases hp with rfl | rfl <;> simp only [Pass.row] <;> rw [if_neg hr]

/-! ### Free-surface stabilisation (C08) -/

variable [IsStrictOrderedRing K]

/-- Whatever the density jump, gravity, time step and parameter: the diagonal of an x-row stays non-negative, and
the stabilisation is either the full `θ·dt·gx·∂ρ/∂x` or nothing. -/
theorem x_stabilisation (m : SMesh K) (k l : Int) (uC : K) (h : 0 ≤ uC) :
    0 ≤ uC + xCorr m k l uC ∧
    (xCorr m k l uC = 0 ∨ xCorr m k l uC = m.theta * m.dt * m.gx (k + l * m.Nx) *
      ((m.rho (k + (l - 1) * (m.Nx - 1)) - m.rho (k - 1 + (l - 1) * (m.Nx - 1))) / m.dx)) := by
  unfold xCorr
  simp only
  split_ifs with h1 h2
  · exact ⟨by linarith, Or.inl rfl⟩
  · refine ⟨not_lt.mp h2, Or.inr ?_⟩
    rw [show k - 1 + (l - 1) * ((m.Nx : Int) - 1) + 1 = k + (l - 1) * (m.Nx - 1) by ring]
    ring
  · exact ⟨by linarith, Or.inl rfl⟩

/-- The same for a z-row; there the diagonal also stays at or above the two horizontal neighbours' coefficients. -/
theorem z_stabilisation (m : SMesh K) (k l : Int) (a : ZCoef K) (h : 0 ≤ a.vC) (hW : a.vW ≤ a.vC) (hE : a.vE ≤ a.vC) :
    0 ≤ a.vC + zCorr m k l a ∧ a.vW ≤ a.vC + zCorr m k l a ∧ a.vE ≤ a.vC + zCorr m k l a ∧
    (zCorr m k l a = 0 ∨ zCorr m k l a = m.theta * m.dt * m.gz (k + l * (m.Nx + 1)) *
      ((m.rho (k - 1 + l * (m.Nx - 1)) - m.rho (k - 1 + (l - 1) * (m.Nx - 1))) / m.dz)) := by
  unfold zCorr
  simp only
  split_ifs with h1 h2
  · exact ⟨by linarith, by linarith, by linarith, Or.inl rfl⟩
  · push Not at h2
    refine ⟨h2.1, h2.2.1, h2.2.2, Or.inr ?_⟩
    rw [show k - 1 + (l - 1) * ((m.Nx : Int) - 1) + (m.Nx - 1) = k - 1 + l * (m.Nx - 1) by ring]
    ring
  · exact ⟨by linarith, by linarith, by linarith, Or.inl rfl⟩

/-! ### Examples -/

/-- A periodic 4 x 4 mesh. -/
def perMesh4 : SMesh ℚ where
  Nx := 4
  Nz := 4
  dx := 1
  dz := 1
  tu i := if i / 4 = 0 ∨ i / 4 = 4 then 11 else if i % 4 = 0 then -2 else if i % 4 = 3 then -12 else -1
  tv i := if i % 5 = 0 ∨ i % 5 = 4 then -12 else if i / 5 = 0 ∨ i / 5 = 3 then 0 else -1
  tp _ := -1
  tg _ := -1
  bu _ := 0
  bv _ := 0
  bp _ := 0
  D11 _ := 2
  D22 _ := 2
  D33 _ := 1
  rho _ := 1
  gx _ := 0
  gz _ := -1
  oop := false
  comp := false
  stab := false
  theta := 0
  dt := 1

theorem perMesh4_ok : MeshOk perMesh4 where
  nx := by decide
  tags := ⟨by decide, by decide, by decide, by decide⟩
  westU := by
    intro k l hk hl
    have hk' : k < 4 := hk
    have hl' : l < 5 := hl
    interval_cases k <;> interval_cases l <;> decide
  pairU := by
    intro l hl
    have hl' : l < 5 := hl
    interval_cases l <;> decide
  sideV := by
    intro k l hk hl
    have hk' : k < 5 := hk
    have hl' : l < 4 := hl
    interval_cases k <;> interval_cases l <;> decide
  cells := by
    intro k l hk hl
    have hk' : k < 3 := hk
    have hl' : l < 3 := hl
    interval_cases k <;> interval_cases l <;> decide

/-- The row of the west node of the third row: nine velocity coefficients, in columns 0..14 (the periodic
neighbours included). -/
example : ((Pass.row perMesh4 (colNumber (evalNumberOfEquations 4 4 perMesh4.tags fun _ => 77)) .uA 8).map Prod.fst,
    (evalNumberOfEquations 4 4 perMesh4.tags fun _ => 77).neqMom) = ([0, 5, 3, 4, 6, 11, 9, 14, 12], 15) := by
  decide +kernel

end Verif
