import Verif.Model.Assembly
import Verif.Spec.Threads
import Verif.Props.Decomposition
import Verif.Props.Extract

/- C05: the assembled matrix does not depend on the number of threads or their interleaving. -/
namespace Verif
variable {K : Type*}

/-- Coefficients of the rows of nodes `lo .. lo+n-1`, in node order (unsolved nodes have none). -/
def seg (solved : Nat → Bool) (rows : Nat → List (Int × K)) (lo n : Nat) : List (Int × K) :=
  (List.range' lo n).flatMap fun c => if solved c then rows c else []

theorem seg_succ (solved : Nat → Bool) (rows : Nat → List (Int × K)) (lo n : Nat) :
    seg solved rows lo (n + 1) =
      seg solved rows lo n ++ (if solved (lo + n) then rows (lo + n) else []) := by
  unfold seg
  rw [List.range'_concat, List.flatMap_append]
  simp

theorem seg_add (solved : Nat → Bool) (rows : Nat → List (Int × K)) (lo m n : Nat) :
    seg solved rows lo (m + n) = seg solved rows lo m ++ seg solved rows (lo + m) n := by
  unfold seg
  rw [← List.flatMap_append]
  congr 1
  have := @List.range'_append lo m n 1
  simp only [Nat.one_mul] at this
  exact this.symm

/-- A buffer holds exactly the coefficients of the list `l`. -/
def ThBuf.Holds (s : ThBuf K) (l : List (Int × K)) : Prop :=
  s.nnz = l.length ∧ ∀ k (h : k < l.length), s.J k = l[k].1 ∧ s.A k = l[k].2

theorem append_holds (es : List (Int × K)) (s : ThBuf K) (l : List (Int × K)) (h : s.Holds l) :
    (es.foldl ThBuf.append s).Holds (l ++ es) ∧ (es.foldl ThBuf.append s).I = s.I := by
  induction es generalizing s l with
  | nil => simpa using h
  | cons e es ih =>
    have h' : (s.append e).Holds (l ++ [e]) := by
      refine ⟨by simp [ThBuf.append, h.1], ?_⟩
      intro k hk
      simp only [List.length_append, List.length_cons, List.length_nil] at hk
      by_cases hkl : k = l.length
      · subst hkl
        simp [ThBuf.append, h.1]
      · have hk' : k < l.length := by omega
        rw [List.getElem_append_left hk']
        have hne : k ≠ s.nnz := by rw [h.1]; exact hkl
        simp only [ThBuf.append, upd_ne _ _ hne]
        exact h.2 k hk'
    have := ih (s.append e) (l ++ [e]) h'
    exact ⟨by simpa using this.1, this.2⟩

/-- What a thread's buffers contain after its loop over nodes `lo .. lo+n-1`. -/
theorem thread_holds (solved : Nat → Bool) (eqn : Nat → Nat) (rows : Nat → List (Int × K))
    (lo n : Nat) (s0 : ThBuf K) (h0 : s0.nnz = 0)
    (hinj : ∀ c < lo + n, ∀ c' < lo + n, solved c = true → solved c' = true →
      eqn c = eqn c' → c = c') :
    let s := forUp n s0 fun s i => assembleRow solved eqn rows s (lo + i)
    s.Holds (seg solved rows lo n) ∧
    ∀ i < n, solved (lo + i) = true → s.I (eqn (lo + i)) = (seg solved rows lo i).length := by
  induction n with
  | zero => refine ⟨⟨by simp [seg, h0], by simp [seg]⟩, by simp⟩
  | succ n ih =>
    obtain ⟨h1, h2⟩ := ih fun c hc c' hc' => hinj c (by omega) c' (by omega)
    simp only [forUp_succ]
    set s := forUp n s0 fun s i => assembleRow solved eqn rows s (lo + i)
    rw [seg_succ]
    unfold assembleRow
    by_cases hs : solved (lo + n) = true
    · simp only [hs, if_true]
      have hh : ({ s with I := upd s.I (eqn (lo + n)) s.nnz } : ThBuf K).Holds
          (seg solved rows lo n) := h1
      obtain ⟨g1, g2⟩ := append_holds (rows (lo + n)) _ _ hh
      refine ⟨g1, ?_⟩
      intro i hi hsi
      rw [g2]
      by_cases hin : i = n
      · subst hin; simp only [upd_same]; exact h1.1
      · have hne : eqn (lo + i) ≠ eqn (lo + n) := fun he =>
          hin (by have := hinj (lo + i) (by omega) (lo + n) (by omega) hsi hs he; omega)
        simp only [upd_ne _ _ hne]
        exact h2 i (by omega) hsi
    · simp only [hs]
      simp only [Bool.false_eq_true, if_false, List.append_nil]
      refine ⟨h1, ?_⟩
      intro i hi hsi
      have : i ≠ n := by rintro rfl; exact hs hsi
      exact h2 i (by omega) hsi

/-- Value of a cell after a list of stores: if all stores to the cell agree, it is that value. -/
theorem applyStores_of_mem (l : List (Addr × Cell K)) (m : Addr → Cell K) (a : Addr) (v : Cell K)
    (hv : ∀ s ∈ l, s.1 = a → s.2 = v) (hex : ∃ s ∈ l, s.1 = a) : applyStores l m a = v := by
  unfold applyStores
  induction l using List.reverseRecOn generalizing m with
  | nil => simp at hex
  | append_singleton l s ih =>
    rw [List.foldl_append]
    simp only [List.foldl_cons, List.foldl_nil]
    by_cases h : a = s.1
    · rw [if_pos h]; exact hv s (by simp) h.symm
    · rw [if_neg h]
      apply ih
      · intro s' hs'; exact hv s' (by simp [hs'])
      · obtain ⟨s', hs', ha⟩ := hex
        rcases List.mem_append.1 hs' with h' | h'
        · exact ⟨s', h', ha⟩
        · rw [List.mem_singleton.1 h'] at ha; exact absurd ha.symm h

theorem applyStores_of_not_mem (l : List (Addr × Cell K)) (m : Addr → Cell K) (a : Addr)
    (hex : ∀ s ∈ l, s.1 ≠ a) : applyStores l m a = m a := by
  unfold applyStores
  induction l using List.reverseRecOn generalizing m with
  | nil => rfl
  | append_singleton l s ih =>
    rw [List.foldl_append]
    simp only [List.foldl_cons, List.foldl_nil]
    rw [if_neg (fun h => hex s (by simp) h.symm)]
    exact ih m fun s' hs' => hex s' (by simp [hs'])

theorem Interleaving.mem_iff {σ : Type*} {n : Nat} {ls : Nat → List σ} {l : List (Nat × σ)}
    (h : Interleaving n ls l) (s : σ) : (∃ i, (i, s) ∈ l) ↔ ∃ i < n, s ∈ ls i := by
  constructor
  · rintro ⟨i, hi⟩
    have hin := h.threads _ hi
    refine ⟨i, hin, ?_⟩
    rw [← h.order i hin]
    exact List.mem_map.2 ⟨(i, s), List.mem_filter.2 ⟨hi, by simp⟩, rfl⟩
  · rintro ⟨i, hin, hs⟩
    rw [← h.order i hin] at hs
    obtain ⟨⟨i', s'⟩, h1, h2⟩ := List.mem_map.1 hs
    simp only at h2; subst h2
    exact ⟨i', (List.mem_filter.1 h1).1⟩

/-- C05.  Merge of one matrix block, for every thread count `nth ≥ 1`, every interleaving `l` of
the threads' stores, and every initial content of all buffers: the column/value arrays contain
the concatenation of the rows in node order starting at `nnz0`, the row pointer of every solved
node is `nnz0` plus the number of coefficients of the rows before it, nothing else is touched, and
the new count is `nnz0` plus the number of coefficients.  The right-hand sides do not mention
`nth` or `l`. -/
theorem assembly_merged (N nth : Nat) (hn : 1 ≤ nth) (ddJunk : Nat → Int)
    (solved pass : Nat → Bool) (hpass : ∀ c < N, pass c = solved c)
    (eqn : Nat → Nat)
    (hinj : ∀ c < N, ∀ c' < N, solved c = true → solved c' = true → eqn c = eqn c' → c = c')
    (rows : Nat → List (Int × K)) (junk : Nat → ThBuf K) (nnz0 : Nat)
    (l : List (Nat × (Addr × Cell K)))
    (hl : Interleaving nth (threadStores N nth ddJunk solved pass eqn rows junk nnz0) l)
    (m : Addr → Cell K) :
    let m' := applyStores (l.map Prod.snd) m
    let all := seg solved rows 0 N
    (∀ k (h : k < all.length), m' (.ja (nnz0 + k)) = .int all[k].1 ∧
      m' (.av (nnz0 + k)) = .dbl all[k].2) ∧
    (∀ c < N, solved c = true →
      m' (.ic (eqn c)) = .int ((nnz0 + (seg solved rows 0 c).length : Nat) : Int)) ∧
    (∀ k, (k < nnz0 ∨ nnz0 + all.length ≤ k) → m' (.ja k) = m (.ja k) ∧ m' (.av k) = m (.av k)) ∧
    (∀ e, (∀ c < N, solved c = true → eqn c ≠ e) → m' (.ic e) = m (.ic e)) ∧
    mergedNnz N nth ddJunk solved eqn rows junk nnz0 = nnz0 + all.length := by
  intro m' all
  obtain ⟨D1, D2, D3, D4, D5⟩ := decomposition_partition N nth hn ddJunk
  set dd := domainDecomposition N nth ddJunk with hdd
  obtain ⟨L1, L2, -⟩ := dd_loop N nth ddJunk nth (le_refl _)
  -- natural-number starts
  set b : Nat := (N - N % nth) / nth with hb
  set lo : Nat → Nat := fun i => i * b with hlo
  set cnt : Nat → Nat := fun i => blockSize N nth i with hcnt
  have e1 : ∀ i < nth, dd.estart i = (lo i : Nat) := L1
  have e2 : ∀ i < nth, dd.eend i = ((lo i + cnt i : Nat) : Int) - 1 := L2
  have hcount : ∀ i < nth, (dd.eend i + 1 - dd.estart i).toNat = cnt i := by
    intro i hi; rw [e1 i hi, e2 i hi]; push_cast; omega
  have hnext : ∀ i, i + 1 < nth → lo (i + 1) = lo i + cnt i := by
    intro i hi
    have := D2 i hi
    rw [e1 _ hi, e2 i (by omega)] at this
    omega
  have hlast : lo (nth - 1) + cnt (nth - 1) = N := by
    have := D3; rw [e2 _ (by omega)] at this; omega
  have hlo0 : lo 0 = 0 := by simp [hlo]
  have hle : ∀ i < nth, lo i + cnt i ≤ N := by
    intro i hi
    by_cases h : cnt i = 0
    · -- empty block: its start is within range
      have : lo i ≤ lo (nth - 1) := Nat.mul_le_mul_right b (by omega)
      omega
    · have := (D5 i hi ((lo i + cnt i : Nat) - 1) (by rw [e1 i hi]; push_cast; omega)
        (by rw [e2 i hi]; omega)).2
      omega
  -- buffers
  set buf := threadBuf N nth ddJunk solved eqn rows junk with hbuf
  have hB : ∀ i < nth, (buf i).Holds (seg solved rows (lo i) (cnt i)) ∧
      ∀ j < cnt i, solved (lo i + j) = true →
        (buf i).I (eqn (lo i + j)) = (seg solved rows (lo i) j).length := by
    intro i hi
    have := thread_holds solved eqn rows (lo i) (cnt i) { junk i with nnz := 0 } rfl
      (fun c hc c' hc' => hinj c (by have := hle i hi; omega) c' (by have := hle i hi; omega))
    have hform : buf i = forUp (cnt i) { junk i with nnz := 0 }
        fun s j => assembleRow solved eqn rows s (lo i + j) := by
      rw [hbuf]
      unfold threadBuf assembleThread
      simp only [← hdd]
      rw [hcount i hi]
      apply forUp_congr
      intro k s hk
      congr 1
      rw [e1 i hi]; omega
    rw [hform]; exact this
  -- begin offsets
  have hbeg : ∀ i < nth, mergeBegin nnz0 (fun i => (buf i).nnz) i =
      nnz0 + (seg solved rows 0 (lo i)).length := by
    intro i
    induction i with
    | zero => intro _; simp [mergeBegin, hlo0, seg]
    | succ i ih =>
      intro hi
      simp only [mergeBegin]
      rw [ih (by omega), hnext i hi, seg_add, (hB i (by omega)).1.1, List.length_append]
      simp only [Nat.zero_add]; omega
  have hsplit : ∀ i < nth, all = seg solved rows 0 (lo i) ++
      (seg solved rows (lo i) (cnt i) ++ seg solved rows (lo i + cnt i) (N - (lo i + cnt i))) := by
    intro i hi
    have h1 := hle i hi
    have : N = lo i + (cnt i + (N - (lo i + cnt i))) := by omega
    change seg solved rows 0 N = _
    conv_lhs => rw [this]
    rw [seg_add, seg_add]; simp
  -- description of all stores
  have hstores : ∀ s : Addr × Cell K,
      (s ∈ l.map Prod.snd) ↔ ∃ i < nth, s ∈ threadStores N nth ddJunk solved pass eqn rows junk nnz0 i := by
    intro s
    rw [← hl.mem_iff s]
    simp [List.mem_map]
  have hmem : ∀ i < nth, ∀ s : Addr × Cell K,
      s ∈ threadStores N nth ddJunk solved pass eqn rows junk nnz0 i ↔
      (∃ j < cnt i, solved (lo i + j) = true ∧ s = (.ic (eqn (lo i + j)),
        .int ((nnz0 + (seg solved rows 0 (lo i + j)).length : Nat) : Int))) ∨
      (∃ k, ∃ h : k < (seg solved rows (lo i) (cnt i)).length,
        s = (.av (nnz0 + (seg solved rows 0 (lo i)).length + k),
          .dbl (seg solved rows (lo i) (cnt i))[k].2) ∨
        s = (.ja (nnz0 + (seg solved rows 0 (lo i)).length + k),
          .int (seg solved rows (lo i) (cnt i))[k].1)) := by
    intro i hi s
    obtain ⟨⟨hn1, hn2⟩, hI⟩ := hB i hi
    unfold threadStores mergeStores
    simp only [← hdd]
    rw [show threadBuf N nth ddJunk solved eqn rows junk = buf from rfl, hbeg i hi, hcount i hi,
      List.mem_append, List.mem_flatMap, List.mem_flatMap]
    constructor
    · rintro (⟨j, hj, hs⟩ | ⟨k, hk, hs⟩)
      · left
        rw [List.mem_range] at hj
        have hc : (dd.estart i + (j : Int)).toNat = lo i + j := by rw [e1 i hi]; omega
        simp only [hc] at hs
        rw [hpass _ (by have := hle i hi; omega)] at hs
        by_cases hsol : solved (lo i + j) = true
        · simp only [hsol, if_true, List.mem_singleton] at hs
          refine ⟨j, hj, hsol, ?_⟩
          rw [hs, hI j hj hsol, seg_add, List.length_append]
          simp only [Nat.zero_add]
          congr 2; push_cast; ring
        · simp [hsol] at hs
      · right
        rw [List.mem_range, hn1] at hk
        refine ⟨k, hk, ?_⟩
        simp only [List.mem_cons, List.not_mem_nil, or_false] at hs
        rw [(hn2 k hk).1, (hn2 k hk).2] at hs
        exact hs
    · rintro (⟨j, hj, hsol, hs⟩ | ⟨k, hk, hs⟩)
      · left
        refine ⟨j, List.mem_range.2 hj, ?_⟩
        have hc : (dd.estart i + (j : Int)).toNat = lo i + j := by rw [e1 i hi]; omega
        simp only [hc]
        rw [hpass _ (by have := hle i hi; omega)]
        simp only [hsol, if_true, List.mem_singleton]
        rw [hs, hI j hj hsol, seg_add, List.length_append]
        simp only [Nat.zero_add]
        congr 2; push_cast; ring
      · right
        refine ⟨k, List.mem_range.2 (by rw [hn1]; exact hk), ?_⟩
        simp only [List.mem_cons, List.not_mem_nil, or_false]
        rw [(hn2 k hk).1, (hn2 k hk).2]
        exact hs
  -- which thread owns a coefficient
  have hown : ∀ k < all.length, ∃ i < nth, (seg solved rows 0 (lo i)).length ≤ k ∧
      k < (seg solved rows 0 (lo i)).length + (seg solved rows (lo i) (cnt i)).length := by
    intro k hk
    by_contra hno
    push Not at hno
    have : ∀ i < nth, (seg solved rows 0 (lo i)).length ≤ k := by
      intro i
      induction i with
      | zero => intro _; simp [hlo0, seg]
      | succ i ih =>
        intro hi
        have := hno i (by omega) (ih (by omega))
        rw [hnext i hi, seg_add, List.length_append]; simp only [Nat.zero_add]; omega
    have h1 := hno (nth - 1) (by omega) (this (nth - 1) (by omega))
    have h2 := congrArg List.length (hsplit (nth - 1) (by omega))
    rw [List.length_append, List.length_append, hlast] at h2
    simp only [Nat.sub_self, seg, List.range'_zero, List.flatMap_nil, List.length_nil] at h2
    simp only [seg] at h1
    omega
  have hownc : ∀ c < N, ∃ i < nth, lo i ≤ c ∧ c < lo i + cnt i := by
    intro c hc
    obtain ⟨i, ⟨hi, h1, h2⟩, -⟩ := D4 c (by omega) (by omega)
    rw [e1 i hi] at h1; rw [e2 i hi] at h2
    exact ⟨i, hi, by omega, by omega⟩
  -- all stores to a coefficient cell agree with `all`
  have hget : ∀ i (_ : i < nth) k (hk : k < (seg solved rows (lo i) (cnt i)).length),
      ∃ h : (seg solved rows 0 (lo i)).length + k < all.length,
        all[(seg solved rows 0 (lo i)).length + k] = (seg solved rows (lo i) (cnt i))[k] := by
    intro i hi k hk
    have hs := hsplit i hi
    have hlen : (seg solved rows 0 (lo i)).length + k < all.length := by
      rw [hs]; simp only [List.length_append]; omega
    refine ⟨hlen, ?_⟩
    have : all[(seg solved rows 0 (lo i)).length + k]? = some (seg solved rows (lo i) (cnt i))[k] := by
      rw [hs, List.getElem?_append_right (by omega)]
      simp only [Nat.add_sub_cancel_left]
      rw [List.getElem?_append_left hk, List.getElem?_eq_getElem hk]
    rw [List.getElem?_eq_getElem hlen] at this
    exact Option.some.inj this
  refine ⟨?_, ?_, ?_, ?_, ?_⟩
  · intro k hk
    obtain ⟨i, hi, hk1, hk2⟩ := hown k hk
    have hkk : k - (seg solved rows 0 (lo i)).length < (seg solved rows (lo i) (cnt i)).length := by
      omega
    constructor
    · apply applyStores_of_mem
      · intro s hs ha
        obtain ⟨i', hi', hs'⟩ := (hstores s).1 hs
        rcases (hmem i' hi' s).1 hs' with ⟨j, _, _, rfl⟩ | ⟨k', hk', rfl | rfl⟩
        · simp at ha
        · simp at ha
        · simp only [Addr.ja.injEq] at ha
          obtain ⟨hh, hg⟩ := hget i' hi' k' hk'
          have hidx : (seg solved rows 0 (lo i')).length + k' = k := by omega
          subst hidx
          simp only [hg]
      · refine ⟨_, (hstores _).2 ⟨i, hi, (hmem i hi _).2 (Or.inr ⟨_, hkk, Or.inr rfl⟩)⟩, ?_⟩
        simp only [Addr.ja.injEq]; omega
    · apply applyStores_of_mem
      · intro s hs ha
        obtain ⟨i', hi', hs'⟩ := (hstores s).1 hs
        rcases (hmem i' hi' s).1 hs' with ⟨j, _, _, rfl⟩ | ⟨k', hk', rfl | rfl⟩
        · simp at ha
        · simp only [Addr.av.injEq] at ha
          obtain ⟨hh, hg⟩ := hget i' hi' k' hk'
          have hidx : (seg solved rows 0 (lo i')).length + k' = k := by omega
          subst hidx
          simp only [hg]
        · simp at ha
      · refine ⟨_, (hstores _).2 ⟨i, hi, (hmem i hi _).2 (Or.inr ⟨_, hkk, Or.inl rfl⟩)⟩, ?_⟩
        simp only [Addr.av.injEq]; omega
  · intro c hc hsol
    obtain ⟨i, hi, h1, h2⟩ := hownc c hc
    have hci : lo i + (c - lo i) = c := by omega
    apply applyStores_of_mem
    · intro s hs ha
      obtain ⟨i', hi', hs'⟩ := (hstores s).1 hs
      rcases (hmem i' hi' s).1 hs' with ⟨j, hj, hsj, rfl⟩ | ⟨k', hk', rfl | rfl⟩
      · simp only [Addr.ic.injEq] at ha
        have := hinj (lo i' + j) (by have := hle i' hi'; omega) c hc hsj hsol ha
        simp only [this]
      · simp at ha
      · simp at ha
    · refine ⟨_, (hstores _).2 ⟨i, hi, (hmem i hi _).2
        (Or.inl ⟨c - lo i, by omega, by rw [hci]; exact hsol, rfl⟩)⟩, ?_⟩
      simp only [hci]
  · intro k hk
    have hno : ∀ s ∈ l.map Prod.snd, s.1 ≠ .ja k ∧ s.1 ≠ .av k := by
      intro s hs
      obtain ⟨i', hi', hs'⟩ := (hstores s).1 hs
      rcases (hmem i' hi' s).1 hs' with ⟨j, hj, hsj, rfl⟩ | ⟨k', hk', rfl | rfl⟩
      · simp
      · obtain ⟨hh, -⟩ := hget i' hi' k' hk'
        simp only [ne_eq, reduceCtorEq, not_false_eq_true, Addr.av.injEq, true_and]; omega
      · obtain ⟨hh, -⟩ := hget i' hi' k' hk'
        simp only [ne_eq, reduceCtorEq, not_false_eq_true, Addr.ja.injEq, and_true]; omega
    exact ⟨applyStores_of_not_mem _ _ _ fun s hs => (hno s hs).1,
      applyStores_of_not_mem _ _ _ fun s hs => (hno s hs).2⟩
  · intro e he
    apply applyStores_of_not_mem
    intro s hs
    obtain ⟨i', hi', hs'⟩ := (hstores s).1 hs
    rcases (hmem i' hi' s).1 hs' with ⟨j, hj, hsj, rfl⟩ | ⟨k', hk', rfl | rfl⟩
    · simp only [ne_eq, Addr.ic.injEq]
      exact he _ (by have := hle i' hi'; omega) hsj
    · simp
    · simp
  · unfold mergedNnz
    have : ∀ j ≤ nth, forUp j nnz0 (fun n i => n + (buf i).nnz) =
        mergeBegin nnz0 (fun i => (buf i).nnz) j := by
      intro j
      induction j with
      | zero => intro _; rfl
      | succ j ih => intro hj; rw [forUp_succ, ih (by omega)]; rfl
    rw [this nth (le_refl _)]
    obtain ⟨q, rfl⟩ : ∃ q, nth = q + 1 := ⟨nth - 1, by omega⟩
    simp only [Nat.add_sub_cancel] at hlast
    simp only [mergeBegin]
    rw [hbeg q (by omega), (hB q (by omega)).1.1]
    have h2 := congrArg List.length (hsplit q (by omega))
    rw [List.length_append, List.length_append, hlast] at h2
    simp only [Nat.sub_self] at h2
    simp only [show seg solved rows N 0 = [] by simp [seg], List.length_nil] at h2
    omega

/-- C05 as stated: any two thread counts (in particular any count and one thread), with any two
interleavings and any contents of the temporary buffers, give the same shared memory. -/
theorem assembly_thread_independent (N n₁ n₂ : Nat) (h₁ : 1 ≤ n₁) (h₂ : 1 ≤ n₂)
    (dj₁ dj₂ : Nat → Int) (solved pass : Nat → Bool) (hpass : ∀ c < N, pass c = solved c)
    (eqn : Nat → Nat)
    (hinj : ∀ c < N, ∀ c' < N, solved c = true → solved c' = true → eqn c = eqn c' → c = c')
    (rows : Nat → List (Int × K)) (j₁ j₂ : Nat → ThBuf K) (nnz0 : Nat)
    (l₁ l₂ : List (Nat × (Addr × Cell K)))
    (hl₁ : Interleaving n₁ (threadStores N n₁ dj₁ solved pass eqn rows j₁ nnz0) l₁)
    (hl₂ : Interleaving n₂ (threadStores N n₂ dj₂ solved pass eqn rows j₂ nnz0) l₂)
    (m : Addr → Cell K) :
    applyStores (l₁.map Prod.snd) m = applyStores (l₂.map Prod.snd) m ∧
    mergedNnz N n₁ dj₁ solved eqn rows j₁ nnz0 = mergedNnz N n₂ dj₂ solved eqn rows j₂ nnz0 := by
  obtain ⟨a1, a2, a3, a4, a5⟩ := assembly_merged N n₁ h₁ dj₁ solved pass hpass eqn hinj rows j₁
    nnz0 l₁ hl₁ m
  obtain ⟨b1, b2, b3, b4, b5⟩ := assembly_merged N n₂ h₂ dj₂ solved pass hpass eqn hinj rows j₂
    nnz0 l₂ hl₂ m
  refine ⟨?_, by rw [a5, b5]⟩
  funext a
  cases a with
  | ic e =>
    by_cases h : ∃ c < N, solved c = true ∧ eqn c = e
    · obtain ⟨c, hc, hs, rfl⟩ := h
      rw [a2 c hc hs, b2 c hc hs]
    · push Not at h
      rw [a4 e h, b4 e h]
  | ja k =>
    by_cases h : nnz0 ≤ k ∧ k < nnz0 + (seg solved rows 0 N).length
    · obtain ⟨h1, h2⟩ := h
      have hk : nnz0 + (k - nnz0) = k := by omega
      have x := (a1 (k - nnz0) (by omega)).1
      have y := (b1 (k - nnz0) (by omega)).1
      rw [hk] at x y; rw [x, y]
    · rw [(a3 k (by omega)).1, (b3 k (by omega)).1]
  | av k =>
    by_cases h : nnz0 ≤ k ∧ k < nnz0 + (seg solved rows 0 N).length
    · obtain ⟨h1, h2⟩ := h
      have hk : nnz0 + (k - nnz0) = k := by omega
      have x := (a1 (k - nnz0) (by omega)).2
      have y := (b1 (k - nnz0) (by omega)).2
      rw [hk] at x y; rw [x, y]
    · rw [(a3 k (by omega)).2, (b3 k (by omega)).2]

/-- Tag test of the merge routines, StokesAssemblyDecoupled.c:1179 and 2369. -/
def mergePass (t : Int) : Bool :=
  t != 0 && t != 30 && t != 31 && t != 13 && t != 11 && t != -12

/-- The hypotheses hold for the Vx block of every legal tag map: the merge test agrees with the
assembly test and the equation numbers are injective. -/
theorem assembly_hyps_u (Nx Nz : Nat) (hNx : 2 ≤ Nx) (t : Tags) (ht : TagsOk Nx Nz t)
    (junk : Nat → Int) :
    let n := evalNumberOfEquations Nx Nz t junk
    (∀ c < (Nz + 1) * Nx, mergePass (t.u c) = numberedU (t.u c)) ∧
    (∀ c < (Nz + 1) * Nx, ∀ c' < (Nz + 1) * Nx, numberedU (t.u c) = true →
      numberedU (t.u c') = true → (n.eqnU c).toNat = (n.eqnU c').toNat → c = c') := by
  intro n
  obtain ⟨B1, B2, -⟩ := numbering_bijective Nx Nz hNx t junk ht.east
  refine ⟨?_, ?_⟩
  · intro c hc
    have := ht.u c hc
    simp only [List.mem_cons, List.not_mem_nil, or_false] at this
    rcases this with h | h | h | h | h | h | h | h <;> rw [h] <;> decide
  · intro c hc c' hc' hs hs' he
    have s1 := (numberedU_iff t c).1 hs
    have s2 := (numberedU_iff t c').1 hs'
    have p1 := (B1 (.u c) hc s1).1
    have p2 := (B1 (.u c') hc' s2).1
    have := B2 (.u c) (.u c') hc hc' s1 s2 (by simp only [Dof.eqn, n] at *; omega)
    simpa using this

/-- Non-vacuity: the periodic 3x3 grid on 2 threads. A serial execution (thread 0 then thread 1)
is an interleaving, and there are solved nodes. -/
example : ∃ l : List (Nat × (Addr × Cell Int)),
    Interleaving 2 (threadStores 12 2 (fun _ => 0) (fun c => numberedU (exTags.u c))
      (fun c => mergePass (exTags.u c))
      (fun c => ((evalNumberOfEquations 3 3 exTags fun _ => 0).eqnU c).toNat)
      (fun c => [((c : Int), (1 : Int))]) (fun _ => ⟨fun _ => 5, fun _ => 5, fun _ => 5, 5⟩) 0) l ∧
    l ≠ [] := by
  refine ⟨(threadStores 12 2 (fun _ => 0) (fun c => numberedU (exTags.u c))
      (fun c => mergePass (exTags.u c))
      (fun c => ((evalNumberOfEquations 3 3 exTags fun _ => 0).eqnU c).toNat)
      (fun c => [((c : Int), (1 : Int))]) (fun _ => ⟨fun _ => 5, fun _ => 5, fun _ => 5, 5⟩) 0 0).map
        (fun s => (0, s)) ++
      (threadStores 12 2 (fun _ => 0) (fun c => numberedU (exTags.u c))
      (fun c => mergePass (exTags.u c))
      (fun c => ((evalNumberOfEquations 3 3 exTags fun _ => 0).eqnU c).toNat)
      (fun c => [((c : Int), (1 : Int))]) (fun _ => ⟨fun _ => 5, fun _ => 5, fun _ => 5, 5⟩) 0 1).map
        (fun s => (1, s)), ⟨?_, ?_⟩, ?_⟩
  · intro e he
    simp only [List.mem_append, List.mem_map] at he
    rcases he with ⟨a, _, rfl⟩ | ⟨a, _, rfl⟩ <;> simp
  · intro i hi
    interval_cases i
    · simp [List.filter_append, List.filter_map, Function.comp_def]
    · simp [List.filter_append, List.filter_map, Function.comp_def]
  · intro h
    have := congrArg List.length h
    revert this
    simp only [List.length_append, List.length_map, List.length_nil]
    decide

end Verif
