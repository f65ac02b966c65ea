import Verif.Proofs.CodegenStatic

/-! Requests that the code generator refuses.  Any arithmetic. -/

set_option linter.unusedSectionVars false
set_option linter.unusedSimpArgs false

namespace Interp.Codegen

variable {K : Type} [Add K] [Sub K] [Mul K] [Div K] [Neg K] [Zero K] [One K] [NatCast K]
  [IntCast K] [LT K] [DecidableLT K] [BEq K] [IntFloor K]

/-- The configuration used by `evalSpline`. -/
def cfgOf (G : List (GridDim K)) (C : NdArray K) (p : Points K) (out : Option (NdArray K)) (k : ℕ)
    (orders : Option (List (List ℕ))) (mode : String) : Cfg :=
  { d := G.length
    k := k
    vectorValued := decide (C.shape.length = G.length + 1)
    vectorized := p.isRows
    allocate := out.isNone
    gridTypes := G.map GridDim.gtype
    extrap := mode
    orders := orders }

/-- If the generator fails, so does the call. -/
theorem evalSpline_code_error (G : List (GridDim K)) (C : NdArray K) (p : Points K)
    (out : Option (NdArray K)) (k : ℕ) (orders : Option (List (List ℕ))) (mode : String)
    (h : ∃ e, getCodeSpline (cfgOf G C p out k orders mode) = .error e) :
    ∃ e, evalSpline G C p out k orders mode = .error e := by
  obtain ⟨e, h⟩ := h
  refine ⟨e, ?_⟩
  show (getCodeSpline (cfgOf G C p out k orders mode) >>= _) = _
  rw [h]; rfl

theorem getCodeSpline_error (cfg : Cfg) (h : ∃ e, genBasis cfg = .error e) :
    ∃ e, getCodeSpline cfg = .error e := by
  obtain ⟨e, h⟩ := h
  unfold getCodeSpline
  by_cases hc : ¬ (cfg.gridTypes ≠ [] ∧ ∀ t ∈ cfg.gridTypes, t = .uniform) ∧ 1 < cfg.k
  · rw [if_pos hc]; exact ⟨_, rfl⟩
  · rw [if_neg hc]
    exact ⟨e, by simp [h]⟩

theorem getCodeSpline_nonuniform (cfg : Cfg) (h : GType.nonuniform ∈ cfg.gridTypes)
    (hk : 1 < cfg.k) : ∃ e, getCodeSpline cfg = .error e := by
  unfold getCodeSpline
  rw [if_pos ⟨(fun hh => by have := hh.2 _ h; cases this), hk⟩]
  exact ⟨_, rfl⟩

/-- The basis functions of axis `i`. -/
def blockOf (cfg : Cfg) (i : ℕ) : Py (List Stmt) :=
  match (basesOrders cfg.d cfg.orders)[i]? with
  | none => throw Err.index
  | some ls => ls.mapM fun l => blendingFormula cfg.k l i

theorem genBasis_eq (cfg : Cfg) :
    genBasis cfg = ((List.range cfg.d).mapM (blockOf cfg) >>= fun b => pure b.flatten) := rfl

theorem genBasis_error (cfg : Cfg) (i : ℕ) (hi : i < cfg.d)
    (h : ∀ ls, (basesOrders cfg.d cfg.orders)[i]? = some ls →
      ∃ l ∈ ls, ∃ e, blendingFormula cfg.k l i = .error e) : ∃ e, genBasis cfg = .error e := by
  have : ∃ e, (List.range cfg.d).mapM (blockOf cfg) = .error e := by
    cases hb : (basesOrders cfg.d cfg.orders)[i]? with
    | none =>
      refine mapM_exists_error _ _ i (by simpa using hi) .index ?_
      simp [blockOf, hb]
    | some ls =>
      obtain ⟨l, hl, e, he⟩ := h ls hb
      obtain ⟨e', he'⟩ := mapM_exists_error (fun l => blendingFormula cfg.k l i) ls l hl e he
      refine mapM_exists_error _ _ i (by simpa using hi) e' ?_
      simp [blockOf, hb, he']
  obtain ⟨e, he⟩ := this
  exact ⟨e, by rw [genBasis_eq, he]; rfl⟩

theorem blendingFormula_bad (k l i : ℕ) (h1 : k ≠ 1) (h3 : k ≠ 3) :
    ∃ e, blendingFormula k l i = .error e := by
  simp [blendingFormula, h1, h3]

/-- Every list of orders used by the generator is nonempty. -/
theorem basesOrders_ne_nil (d : ℕ) (orders : Option (List (List ℕ))) (i : ℕ) (ls : List ℕ)
    (h : (basesOrders d orders)[i]? = some ls) : ls ≠ [] := by
  cases orders with
  | none =>
    simp only [basesOrders, List.getElem?_replicate] at h
    split_ifs at h
    cases h; simp
  | some os =>
    simp only [basesOrders, List.getElem?_map, Option.map_eq_some_iff] at h
    obtain ⟨j, hj, rfl⟩ := h
    have hj' := List.mem_of_getElem? hj
    rw [List.mem_range] at hj'
    intro hn
    have : os = [] := by
      by_contra hne
      obtain ⟨o, ho⟩ := List.exists_mem_of_ne_nil os hne
      have : o.getD j 0 ∈ (os.map fun o => o.getD j 0).dedup.insertionSort (· ≤ ·) := by
        rw [List.mem_insertionSort, List.mem_dedup, List.mem_map]
        exact ⟨o, ho, rfl⟩
      rw [hn] at this
      simp at this
    subst this
    simp at hj'

theorem basesOrders_short (d : ℕ) (os : List (List ℕ)) (i : ℕ)
    (h : os = [] ∨ ∃ oo ∈ os, oo.length ≤ i) : (basesOrders d (some os))[i]? = none := by
  have hmin : ((os.map List.length).min?).getD 0 ≤ i := by
    rcases h with rfl | ⟨oo, hoo, hl⟩
    · simp
    · cases hm : (os.map List.length).min? with
      | none => simp
      | some a =>
        rw [List.min?_eq_some_iff] at hm
        exact (hm.2 _ (List.mem_map_of_mem hoo)).trans hl
  simp [basesOrders, hmin]

theorem mem_basesOrders (d : ℕ) (os : List (List ℕ)) (i : ℕ) (ls : List ℕ)
    (h : (basesOrders d (some os))[i]? = some ls) (oo : List ℕ) (hoo : oo ∈ os) :
    oo.getD i 0 ∈ ls := by
  simp only [basesOrders, List.getElem?_map, Option.map_eq_some_iff] at h
  obtain ⟨j, hj, rfl⟩ := h
  have hij : i = j := by
    obtain ⟨h1, h2⟩ := List.getElem?_eq_some_iff.1 hj
    rw [List.getElem_range] at h2; exact h2
  subst hij
  rw [List.mem_insertionSort, List.mem_dedup, List.mem_map]
  exact ⟨oo, hoo, rfl⟩

/-! ### Too long tuples: the program uses a name it never assigns -/

theorem foldl_add_uses_mono (es : List TExpr) : ∀ (e : TExpr) (v : Var), v ∈ e.uses →
    v ∈ (es.foldl TExpr.add e).uses := by
  induction es with
  | nil => intro e v h; exact h
  | cons a es ih =>
    intro e v h
    exact ih _ v (by simp [TExpr.uses, h])

theorem joinPlus_uses_head (e : TExpr) (es : List TExpr) (v : Var) (h : v ∈ e.uses) :
    v ∈ (joinPlus (e :: es)).uses := foldl_add_uses_mono es e v h

theorem genTrex_uses_idx (mv : Bool) (l : List (List TExpr)) (hl : ∀ h ∈ l, h ≠ []) :
    ∀ (inds : List ℕ) (i : ℕ), i < inds.length + l.length →
    Var.idx i ∈ (genTrex l (fun arg => .coef arg mv) inds).uses := by
  induction l with
  | nil =>
    intro inds i hi
    simp only [genTrex, TExpr.uses, List.mem_map, List.mem_range]
    exact ⟨i, by simpa using hi, rfl⟩
  | cons h q ih =>
    intro inds i hi
    cases h with
    | nil => exact (hl [] (by simp) rfl).elim
    | cons e es =>
      simp only [genTrex, List.mapIdx_cons]
      apply joinPlus_uses_head
      simp only [TExpr.uses, List.mem_append]
      right
      apply ih (fun h hh => hl h (by simp [hh]))
      simp only [List.length_append, List.length_cons, List.length_nil] at hi ⊢
      omega

theorem getValues_uses_idx (d : ℕ) (mv : Bool) (k : ℕ) (oo : List ℕ) (i : ℕ) (hi : i < oo.length) :
    Var.idx i ∈ (getValues d mv (k + 1) (some oo)).uses := by
  unfold getValues
  apply genTrex_uses_idx
  · intro h hh
    simp only [Option.getD_some, List.mem_mapIdx] at hh
    obtain ⟨j, hj, rfl⟩ := hh
    simp [List.range_succ_eq_map]
  · simpa using hi

theorem reduce_uses_idx (cfg : Cfg) (os : List (List ℕ)) (ho : cfg.orders = some os) (oo : List ℕ)
    (hoo : oo ∈ os) (i : ℕ) (hi : i < oo.length) :
    (∃ s ∈ genReduceVec cfg, Var.idx i ∈ s.uses) ∧ ∃ s ∈ genReducePoint cfg, Var.idx i ∈ s.uses := by
  cases hv : cfg.vectorValued with
  | true =>
    have hs : Var.idx i ∈ (Stmt.storeCompOrders
        (os.map fun oo => (valName oo, getValues cfg.d true (cfg.k + 1) (some oo)))
        (os.map valName)).uses := by
      simp only [Stmt.uses, List.mem_append, List.mem_cons, List.mem_flatMap, List.mem_map]
      left; right
      exact ⟨_, ⟨oo, hoo, rfl⟩, getValues_uses_idx _ _ _ _ _ hi⟩
    constructor
    · refine ⟨_, ?_, hs⟩
      simp [genReduceVec, hv, ho]
    · refine ⟨_, ?_, hs⟩
      simp [genReducePoint, hv, ho]
  | false =>
    have hs : Var.idx i ∈ (Stmt.assignVal (valName oo)
        (getValues cfg.d false (cfg.k + 1) (some oo))).uses := getValues_uses_idx _ _ _ _ _ hi
    constructor
    · refine ⟨_, ?_, hs⟩
      unfold genReduceVec
      rw [hv, ho, if_neg (by simp), List.mem_append]
      exact Or.inl (List.mem_map_of_mem hoo)
    · refine ⟨_, ?_, hs⟩
      unfold genReducePoint
      rw [hv, ho, if_neg (by simp), List.mem_append]
      exact Or.inl (List.mem_map_of_mem hoo)

theorem basis_no_idx (cfg : Cfg) (L : List Stmt) (h : genBasis cfg = .ok L) (i : ℕ) :
    ∀ s ∈ L, Var.idx i ∉ s.defs := by
  have hb : ∀ k l i s, blendingFormula k l i = .ok s → ∀ j, Var.idx j ∉ s.defs := by
    intro k l i s hs j
    unfold blendingFormula at hs
    split_ifs at hs <;> cases hs <;> simp [Stmt.defs]
  have hblk : ∀ a b, blockOf cfg a = .ok b → ∀ s ∈ b, Var.idx i ∉ s.defs := by
    intro a b h
    unfold blockOf at h
    cases hba : (basesOrders cfg.d cfg.orders)[a]? with
    | none => rw [hba] at h; cases h
    | some ls =>
      rw [hba] at h
      simp only [] at h
      clear hba
      induction ls generalizing b with
      | nil => cases h; simp
      | cons l ls ih =>
        rw [List.mapM_cons] at h
        rcases h1 : blendingFormula cfg.k l a with e | s1
        · rw [h1] at h; cases h
        · rcases h2 : (ls.mapM fun l => blendingFormula cfg.k l a) with e | b'
          · rw [h1] at h; simp only [ok_bind] at h; rw [h2] at h; cases h
          · rw [h1] at h; simp only [ok_bind] at h; rw [h2] at h; cases h
            intro s hs
            rcases List.mem_cons.1 hs with rfl | hs
            · exact hb _ _ _ _ h1 i
            · exact ih b' h2 s hs
  rw [genBasis_eq] at h
  rcases hm : (List.range cfg.d).mapM (blockOf cfg) with e | bl
  · rw [hm] at h; cases h
  · rw [hm] at h
    cases h
    generalize List.range cfg.d = r at hm
    induction r generalizing bl with
    | nil => cases hm; simp
    | cons a r ih =>
      rw [List.mapM_cons] at hm
      rcases h1 : blockOf cfg a with e | b
      · rw [h1] at hm; cases hm
      · rcases h2 : r.mapM (blockOf cfg) with e | bl'
        · rw [h1, ok_bind, h2] at hm; cases hm
        · rw [h1, ok_bind, h2] at hm; cases hm
          intro s hs
          rw [List.flatten_cons, List.mem_append] at hs
          rcases hs with hs | hs
          · exact hblk a b h1 s hs
          · exact ih bl' h2 s hs

theorem rest_no_idx (cfg : Cfg) (i : ℕ) (hi : cfg.d ≤ i) (bounds : Bool) (guard : GuardBody) :
    (∀ s ∈ genAllocVec cfg, Var.idx i ∉ s.defs) ∧ (∀ s ∈ genAllocPoint cfg, Var.idx i ∉ s.defs) ∧
    (∀ s ∈ genRecover cfg bounds, Var.idx i ∉ s.defs) ∧
    (∀ s ∈ genCoords cfg guard, Var.idx i ∉ s.defs) ∧
    (∀ s ∈ genLocate cfg, Var.idx i ∉ s.defs) ∧
    (∀ s ∈ genReduceVec cfg, Var.idx i ∉ s.defs) ∧
    (∀ s ∈ genReducePoint cfg, Var.idx i ∉ s.defs) := by
  refine ⟨?_, ?_, ?_, ?_, ?_, ?_, ?_⟩
  · intro s hs
    simp only [genAllocVec, List.mem_append] at hs
    rcases hs with hs | hs <;> split_ifs at hs <;> simp at hs <;> subst hs <;> simp [Stmt.defs]
  · intro s hs
    unfold genAllocPoint at hs
    cases ho : cfg.orders <;> rw [ho] at hs <;> split_ifs at hs <;> simp at hs <;>
      first
      | (rcases hs with rfl | rfl <;> simp [Stmt.defs])
      | (subst hs; simp [Stmt.defs])
  · intro s hs
    simp only [genRecover, List.mem_flatMap, List.mem_range] at hs
    obtain ⟨j, hj, hs⟩ := hs
    split at hs <;> simp at hs <;> subst hs <;> simp [Stmt.defs]
  · intro s hs
    simp only [genCoords, List.mem_flatMap, List.mem_range, List.mem_append] at hs
    obtain ⟨j, hj, hs⟩ := hs
    rcases hs with (hs | hs) | hs
    · simp at hs; subst hs; simp [Stmt.defs]
    · split_ifs at hs <;> simp at hs; subst hs; simp [Stmt.defs]
    · split_ifs at hs <;> simp at hs; subst hs; simp [Stmt.defs]
  · intro s hs
    simp only [genLocate, List.mem_flatMap, List.mem_range] at hs
    obtain ⟨j, hj, hs⟩ := hs
    split at hs <;> simp at hs <;> subst hs <;> simp [Stmt.defs] <;> omega
  · intro s hs
    unfold genReduceVec at hs
    cases ho : cfg.orders <;> rw [ho] at hs <;> split_ifs at hs <;>
      simp only [List.mem_append, List.mem_map, List.mem_mapIdx, List.mem_singleton] at hs
    · subst hs; simp [Stmt.defs]
    · subst hs; simp [Stmt.defs]
    · subst hs; simp [Stmt.defs]
    · rcases hs with ⟨_, _, rfl⟩ | ⟨_, _, rfl⟩ <;> simp [Stmt.defs]
  · intro s hs
    unfold genReducePoint at hs
    cases ho : cfg.orders <;> rw [ho] at hs <;> split_ifs at hs <;>
      simp only [List.mem_append, List.mem_map, List.mem_mapIdx, List.mem_singleton,
        List.not_mem_nil, or_false] at hs
    all_goals first
      | (rcases hs with rfl | rfl <;> simp [Stmt.defs]; done)
      | (subst hs; simp [Stmt.defs]; done)
      | (rcases hs with ⟨_, _, rfl⟩ | rfl <;> simp [Stmt.defs]; done)
      | (rcases hs with ⟨_, _, rfl⟩ | ⟨_, _, rfl⟩ <;> simp [Stmt.defs]; done)

theorem long_names (cfg : Cfg) (p : Program) (h : getCodeSpline cfg = .ok p)
    (os : List (List ℕ)) (ho : cfg.orders = some os) (oo : List ℕ) (hoo : oo ∈ os)
    (hl : cfg.d < oo.length) : ¬ allNamesAssigned p := by
  unfold getCodeSpline at h
  by_cases hc : ¬ (cfg.gridTypes ≠ [] ∧ ∀ t ∈ cfg.gridTypes, t = .uniform) ∧ 1 < cfg.k
  · rw [if_pos hc] at h; cases h
  rw [if_neg hc] at h
  simp only [pure_eq_ok, ok_bind] at h
  rcases hb : genBasis cfg with e | L
  · rw [hb] at h; cases h
  rw [hb] at h
  simp only [ok_bind] at h
  intro hn
  obtain ⟨⟨s, hs, hsu⟩, s', hs', hsu'⟩ := reduce_uses_idx cfg os ho oo hoo cfg.d hl
  have hL := basis_no_idx cfg L hb cfg.d
  split_ifs at h <;> cases h
  · obtain ⟨t, ht, htd⟩ := hn s (by simp [hs]) _ hsu
    obtain ⟨r1, r2, r3, r4, r5, r6, r7⟩ := rest_no_idx cfg cfg.d le_rfl true .zeroContinue
    simp only [List.mem_append] at ht
    rcases ht with (ht | ht) | (((ht | ht) | ht) | ht)
    · exact r1 t ht htd
    · exact r3 t ht htd
    · exact r4 t ht htd
    · exact r5 t ht htd
    · exact hL t ht htd
    · exact r6 t ht htd
  · obtain ⟨t, ht, htd⟩ := hn s' (by simp [hs']) _ hsu'
    obtain ⟨r1, r2, r3, r4, r5, r6, r7⟩ := rest_no_idx cfg cfg.d le_rfl false (pointGuard cfg)
    simp only [List.mem_append, List.not_mem_nil, or_false] at ht
    rcases ht with ((((ht | ht) | ht) | ht) | ht) | ht
    · exact r2 t ht htd
    · exact r3 t ht htd
    · exact r4 t ht htd
    · exact r5 t ht htd
    · exact hL t ht htd
    · exact r7 t ht htd

theorem evalSpline_long (G : List (GridDim K)) (C : NdArray K) (p : Points K)
    (out : Option (NdArray K)) (k : ℕ) (os : List (List ℕ)) (mode : String) (oo : List ℕ)
    (hoo : oo ∈ os) (hl : G.length < oo.length) :
    ∃ e, evalSpline G C p out k (some os) mode = .error e := by
  rcases hc : getCodeSpline (cfgOf G C p out k (some os) mode) with e | prog
  · exact evalSpline_code_error G C p out k _ mode ⟨e, hc⟩
  · refine ⟨.name "undefined global", ?_⟩
    show (getCodeSpline (cfgOf G C p out k (some os) mode) >>= _) = _
    rw [hc, ok_bind, if_pos (long_names _ prog hc os rfl oo hoo hl)]
    rfl

end Interp.Codegen
