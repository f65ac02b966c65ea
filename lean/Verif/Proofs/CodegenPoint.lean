import Verif.Proofs.CodegenCall

/-! `evalSpline` at a single point. -/

set_option linter.unusedSectionVars false
set_option linter.unusedSimpArgs false

namespace Interp.Codegen
open Interp.Ref

variable {K : Type} [Add K] [Sub K] [Mul K] [Div K] [Neg K] [Zero K] [One K] [NatCast K]
  [IntCast K] [LT K] [DecidableLT K] [BEq K] [IntFloor K]

variable {k : ℕ} {G : List (GridDim K)} {C : NdArray K} {vec : Bool} {m : ℕ}
  {orders : Option (List (List ℕ))}

/-- The single-point program of a supported call. -/
def pointProgram (cfg : Cfg) : Program :=
  { prelude := genAllocPoint cfg ++ genRecover cfg false ++ genCoords cfg (pointGuard cfg)
      ++ genLocate cfg ++ (List.range cfg.d).flatMap (fun i => (axisOrders cfg.orders i).map
          fun l => blendStmt cfg.k l i) ++ genReducePoint cfg
    body := []
    retOut := false }

theorem point_code (h : GoodCall k G C vec m orders) (alloc : Bool) (mode : String) :
    getCodeSpline (callCfg G C false alloc k orders mode)
      = .ok (pointProgram (callCfg G C false alloc k orders mode)) := by
  unfold getCodeSpline
  rw [if_neg (h.gridCheck _ rfl rfl)]
  simp only [h.genBasis (callCfg G C false alloc k orders mode) rfl rfl rfl, pure_eq_ok, ok_bind]
  rfl

/-- The modes a single-point program can apply on a grid: the bounds `a_i`, `b_i` only exist on
uniform axes. -/
def PointMode (mode : String) (G : List (GridDim K)) : Prop :=
  mode = "nearest" ∨ mode = "constant" → ∀ g ∈ G, g.gtype = .uniform

theorem PointMode.bounds {mode : String} (h : PointMode mode G) :
    mode = "nearest" ∨ mode = "constant" → ∀ g ∈ G, HasBounds false g :=
  fun hm g hg => Or.inr (h hm g hg)

theorem genReducePoint_defs (cfg : Cfg) (os : List (List ℕ)) (ho : cfg.orders = some os)
    (oo : List ℕ) (hoo : oo ∈ os) :
    ∃ t ∈ genReducePoint cfg, Var.val (valName oo) ∈ t.defs := by
  unfold genReducePoint
  rw [ho]
  by_cases hv : cfg.vectorValued = true
  · rw [if_pos hv]
    refine ⟨_, List.mem_append_left _ (List.mem_singleton.2 rfl), ?_⟩
    simp only [Stmt.defs, List.map_map, List.mem_map]
    exact ⟨oo, hoo, rfl⟩
  · rw [if_neg hv]
    exact ⟨Stmt.assignVal (valName oo) (getValues cfg.d false (cfg.k + 1) (some oo)),
      List.mem_append_left _ (List.mem_map.2 ⟨oo, hoo, rfl⟩), by simp [Stmt.defs]⟩

theorem reducePoint_vec (cfg : Cfg) (h : cfg.vectorValued = true) :
    genReducePoint cfg = genReduceVec cfg ++ if cfg.allocate then [Stmt.retOut] else [] := by
  unfold genReducePoint genReduceVec
  rw [if_pos h, if_pos h]

theorem uses_reducePoint (h : GoodCall k G C vec m orders) (cfg : Cfg) (bounds : Bool)
    (hd : cfg.d = G.length) (hk : cfg.k = k) (hv : cfg.vectorValued = vec)
    (ho : cfg.orders = orders) : UsesOk k G vec orders bounds (genReducePoint cfg) := by
  cases vec with
  | true =>
    rw [reducePoint_vec cfg hv]
    refine UsesOk.append (uses_reduceVec h cfg bounds hd hk hv ho) ?_
    intro s hs v hvs
    split_ifs at hs
    · rw [List.mem_singleton] at hs; subst hs; simp [Stmt.uses] at hvs
    · simp at hs
  | false =>
    intro s hs v hvs
    unfold genReducePoint at hs
    rw [hd, hk, hv, ho] at hs
    cases orders with
    | none =>
      simp only [Bool.false_eq_true, if_false, List.mem_singleton] at hs
      subst hs
      exact getValues_uses h bounds false none (Or.inl ⟨rfl, rfl⟩) v hvs
    | some os =>
      simp only [Bool.false_eq_true, if_false, List.mem_append, List.mem_map] at hs
      rcases hs with ⟨oo, hoo, rfl⟩ | hs
      · exact getValues_uses h bounds false (some oo) (Or.inr ⟨os, oo, rfl, hoo, rfl⟩) v hvs
      · split_ifs at hs
        · rw [List.mem_singleton] at hs
          subst hs
          simp only [Stmt.uses, List.mem_map] at hvs
          obtain ⟨_, ⟨oo, hoo, rfl⟩, rfl⟩ := hvs
          exact ⟨os, rfl, oo, hoo, rfl⟩
        · rw [List.mem_mapIdx] at hs
          obtain ⟨i, hi, rfl⟩ := hs
          simp only [Stmt.uses, List.mem_singleton] at hvs
          subst hvs
          exact ⟨os, rfl, os[i], List.getElem_mem hi, rfl⟩

theorem point_names (h : GoodCall k G C vec m orders) (alloc : Bool) (mode : String)
    (hm : PointMode mode G) :
    allNamesAssigned (pointProgram (callCfg G C false alloc k orders mode)) := by
  set cfg := callCfg G C false alloc k orders mode with hcfg
  have hv : cfg.vectorValued = vec := h.vecVal
  intro s hs v hvs
  have huse : UsesOk k G vec orders false
      ((pointProgram cfg).prelude ++ (pointProgram cfg).body) := by
    unfold pointProgram
    refine UsesOk.append (UsesOk.append (UsesOk.append (UsesOk.append (UsesOk.append (UsesOk.append
      ?_ (uses_recover cfg false false rfl rfl)) (uses_coords cfg _ false rfl hm.bounds))
      (uses_locate cfg false rfl rfl)) (uses_basis _ false _))
      (uses_reducePoint h cfg false rfl rfl hv rfl)) (by intro s hs; simp at hs)
    intro s hs v hvs
    unfold genAllocPoint at hs
    rw [hv] at hs
    cases vec with
    | true =>
      simp only [if_true, List.mem_append, List.mem_singleton] at hs
      rcases hs with rfl | hs
      · simp [Stmt.uses] at hvs
      · split_ifs at hs
        · rw [List.mem_singleton] at hs
          subst hs
          cases ho : cfg.orders <;> rw [ho] at hvs <;> simp [Stmt.uses] at hvs <;> subst hvs <;> rfl
        · simp at hs
    | false =>
      simp only [Bool.false_eq_true, if_false] at hs
      split_ifs at hs
      · cases ho : cfg.orders with
        | none => simp [ho] at hs
        | some os => 
          simp [ho] at hs
          subst hs
          simp [Stmt.uses] at hvs
      · simp at hs
  have hd := huse s hs v hvs
  refine defd_assigned h false _ ?_ ?_ ?_ ?_ ?_ ?_ v hd
  · intro i hi
    have := mem_genRecover (G := G) cfg false rfl rfl i hi
    simp only [pointProgram, List.mem_append]
    tauto
  · intro i hi
    have := mem_genCoords (G := G) cfg (pointGuard cfg) rfl i hi
    simp only [pointProgram, List.mem_append]
    tauto
  · intro i hi
    have := mem_genLocate (G := G) cfg rfl rfl i hi
    simp only [pointProgram, List.mem_append]
    tauto
  · intro i hi l hl
    have := mem_basis (k := k) G.length (axisOrders orders) i hi l hl
    simp only [pointProgram, List.mem_append]
    exact Or.inl (Or.inl (Or.inr this))
  · intro hvt
    refine ⟨G.length, ?_⟩
    simp only [pointProgram, List.mem_append, genAllocPoint, hv, hvt, if_true]
    exact Or.inl (Or.inl (Or.inl (Or.inl (Or.inl (Or.inl (Or.inl (by simp [hcfg, callCfg])))))))
  · intro os ho oo hoo
    obtain ⟨t, ht, htv⟩ := genReducePoint_defs cfg os ho oo hoo
    refine ⟨t, ?_, htv⟩
    simp only [pointProgram, List.mem_append]
    tauto

theorem any_false_of_forall {L : List Stmt} {p : Stmt → Bool} (h : ∀ s ∈ L, p s = false) :
    L.any p = false := by
  rw [List.any_eq_false]
  intro s hs
  simp [h s hs]

theorem genCoords_zeroReturn (cfg : Cfg) (guard : GuardBody)
    (h : cfg.extrap = "constant" → guard ≠ .returnZero) :
    (genCoords cfg guard).any Stmt.isZeroReturn = false := by
  apply any_false_of_forall
  intro s hs
  rw [genCoords_eq, List.mem_flatMap] at hs
  obtain ⟨i, _, hs⟩ := hs
  rw [coordBlock] at hs
  simp only [List.mem_append, List.mem_singleton] at hs
  rcases hs with (rfl | hs) | hs
  · rfl
  · split_ifs at hs
    · rw [List.mem_singleton] at hs; subst hs; rfl
    · simp at hs
  · split_ifs at hs with hc
    · rw [List.mem_singleton] at hs; subst hs
      have := h hc
      cases guard <;> first | rfl | exact (this rfl).elim
    · simp at hs

theorem genCoords_retTuple (cfg : Cfg) (guard : GuardBody) :
    (genCoords cfg guard).any Stmt.isRetTuple = false := by
  apply any_false_of_forall
  intro s hs
  rw [genCoords_eq, List.mem_flatMap] at hs
  obtain ⟨i, _, hs⟩ := hs
  rw [coordBlock] at hs
  simp only [List.mem_append, List.mem_singleton] at hs
  rcases hs with (rfl | hs) | hs
  · rfl
  · split_ifs at hs
    · rw [List.mem_singleton] at hs; subst hs; rfl
    · simp at hs
  · split_ifs at hs with hc
    · rw [List.mem_singleton] at hs; subst hs; rfl
    · simp at hs

theorem genLocate_flags (cfg : Cfg) (s : Stmt) (hs : s ∈ genLocate cfg) :
    s.isZeroReturn = false ∧ s.isRetTuple = false := by
  rw [genLocate, List.mem_flatMap] at hs
  obtain ⟨i, _, hs⟩ := hs
  split at hs
  · rw [List.mem_singleton] at hs; subst hs; exact ⟨rfl, rfl⟩
  · rw [List.mem_singleton] at hs; subst hs; exact ⟨rfl, rfl⟩
  · simp at hs

theorem basis_flags (k d : ℕ) (ls : ℕ → List ℕ) (s : Stmt)
    (hs : s ∈ (List.range d).flatMap fun i => (ls i).map fun l => blendStmt k l i) :
    s.isZeroReturn = false ∧ s.isRetTuple = false := by
  rw [List.mem_flatMap] at hs
  obtain ⟨i, _, hs⟩ := hs
  rw [List.mem_map] at hs
  obtain ⟨l, _, rfl⟩ := hs
  unfold blendStmt
  split_ifs <;> exact ⟨rfl, rfl⟩

theorem genAllocPoint_flags (cfg : Cfg) (s : Stmt) (hs : s ∈ genAllocPoint cfg) :
    s.isZeroReturn = false ∧ s.isRetTuple = false := by
  unfold genAllocPoint at hs
  split_ifs at hs with h1 h2 h3
  · simp only [List.mem_append, List.mem_singleton] at hs
    rcases hs with rfl | rfl
    · exact ⟨rfl, rfl⟩
    · split <;> exact ⟨rfl, rfl⟩
  · simp at hs; subst hs; exact ⟨rfl, rfl⟩
  · split at hs
    · simp at hs
    · simp at hs; subst hs; exact ⟨rfl, rfl⟩
  · simp at hs

theorem genReducePoint_zeroReturn (cfg : Cfg) :
    (genReducePoint cfg).any Stmt.isZeroReturn = false := by
  apply any_false_of_forall
  intro s hs
  unfold genReducePoint at hs
  split_ifs at hs with h1 h2 h3
  · simp only [List.mem_append, List.mem_singleton] at hs
    rcases hs with hs | rfl
    · split at hs <;> simp at hs <;> subst hs <;> rfl
    · rfl
  · simp only [List.append_nil] at hs
    split at hs <;> simp at hs <;> subst hs <;> rfl
  · split at hs
    · simp only [List.mem_append, List.mem_map, List.mem_singleton] at hs
      rcases hs with ⟨_, _, rfl⟩ | rfl <;> rfl
    · simp at hs; subst hs; rfl
  · split at hs
    · simp only [List.mem_append, List.mem_map, List.mem_mapIdx] at hs
      rcases hs with ⟨_, _, rfl⟩ | ⟨_, _, rfl⟩ <;> rfl
    · simp at hs; subst hs; rfl

/-- No tuple is returned, except for scalar data with orders and no output array. -/
theorem genReducePoint_retTuple (cfg : Cfg)
    (h : cfg.vectorValued = true ∨ cfg.allocate = false ∨ cfg.orders = none) :
    (genReducePoint cfg).any Stmt.isRetTuple = false := by
  apply any_false_of_forall
  intro s hs
  unfold genReducePoint at hs
  split_ifs at hs with h1 h2 h3
  · simp only [List.mem_append, List.mem_singleton] at hs
    rcases hs with hs | rfl
    · split at hs <;> simp at hs <;> subst hs <;> rfl
    · rfl
  · simp only [List.append_nil] at hs
    split at hs <;> simp at hs <;> subst hs <;> rfl
  · split at hs
    · rename_i hos
      rw [hos] at h
      rcases h with h | h | h
      · exact (h1 h).elim
      · simp_all
      · cases h
    · simp at hs; subst hs; rfl
  · split at hs
    · simp only [List.mem_append, List.mem_map, List.mem_mapIdx] at hs
      rcases hs with ⟨_, _, rfl⟩ | ⟨_, _, rfl⟩ <;> rfl
    · simp at hs; subst hs; rfl

theorem point_unify (cfg : Cfg)
    (h : cfg.extrap ≠ "constant" ∨ cfg.vectorValued = true ∨ cfg.allocate = false ∨
      cfg.orders = none) : returnsUnify (pointProgram cfg) = true := by
  have hl := any_false_of_forall (fun s hs => (genLocate_flags cfg s hs).1)
  have hl' := any_false_of_forall (fun s hs => (genLocate_flags cfg s hs).2)
  have ha := any_false_of_forall (fun s hs => (genAllocPoint_flags cfg s hs).1)
  have ha' := any_false_of_forall (fun s hs => (genAllocPoint_flags cfg s hs).2)
  have hb := any_false_of_forall (fun s hs =>
    (basis_flags cfg.k cfg.d (axisOrders cfg.orders) s hs).1)
  have hb' := any_false_of_forall (fun s hs =>
    (basis_flags cfg.k cfg.d (axisOrders cfg.orders) s hs).2)
  unfold returnsUnify pointProgram
  simp only [List.any_append, hl, hl', ha, ha', hb, hb', (genRecover_notRet cfg false).1,
    (genRecover_notRet cfg false).2, genCoords_retTuple, genReducePoint_zeroReturn]
  by_cases hc : cfg.extrap = "constant"
  · have : cfg.vectorValued = true ∨ cfg.allocate = false ∨ cfg.orders = none := by tauto
    simp [genReducePoint_retTuple cfg this]
  · simp [genCoords_zeroReturn cfg (pointGuard cfg) (fun h => (hc h).elim)]

theorem evalSpline_unfold_point (out : Option (NdArray K)) (x : List K) (mode : String)
    (p : Program) (hp : getCodeSpline (callCfg G C false out.isNone k orders mode) = .ok p)
    (hn : allNamesAssigned p) (hu : returnsUnify p = true) :
    evalSpline G C (.point x) out k orders mode = (do
      let r ← run { grid := G, C := C, x := x, pre := [], npts := 0 } p.prelude { out := out }
      pure { ret := match r.2 with
                    | .ret v => v
                    | _ => .none
             out := if out.isSome then r.1.out else none }) := by
  unfold evalSpline
  rw [show (Points.point x).isRows = false from rfl]
  have : getCodeSpline (Cfg.mk G.length k (decide (C.shape.length = G.length + 1)) false
      out.isNone (G.map GridDim.gtype) mode orders) = .ok p := hp
  simp only [this, ok_bind, hn, not_true_eq_false, if_false, hu, Bool.not_true, Bool.false_eq_true]
  rfl

/-- State after the head of the single-point program. -/
theorem point_prelude (h : GoodCall k G C vec m orders) (out : Option (NdArray K)) (mode : String)
    (x : List K) :
    ∃ s, (∀ rest, run { grid := G, C := C, x := x, pre := [], npts := 0 }
        (genAllocPoint (callCfg G C false out.isNone k orders mode) ++
          genRecover (callCfg G C false out.isNone k orders mode) false ++ rest) { out := out }
        = run { grid := G, C := C, x := x, pre := [], npts := 0 } rest s) ∧
      (∀ i (hi : i < G.length), Prep false G[i] (s.dims i)) ∧
      (vec = true → s.nVals = some m) ∧
      s.out = (if out.isNone ∧ (vec = true ∨ orders ≠ none) then
        some (NdArray.zeros (outRest vec m orders)) else out) := by
  set cfg := callCfg G C false out.isNone k orders mode with hcfg
  set c : Ctx K := { grid := G, C := C, x := x, pre := [], npts := 0 } with hc
  have hv : cfg.vectorValued = vec := h.vecVal
  have key : ∃ s, run c (genAllocPoint cfg) { out := out } = .ok (s, .next) ∧
      (vec = true → s.nVals = some m) ∧
      s.out = (if out.isNone ∧ (vec = true ∨ orders ≠ none) then
        some (NdArray.zeros (outRest vec m orders)) else out) := by
    unfold genAllocPoint
    rw [hv]
    cases vec with
    | true =>
      have hsg : C.shape[G.length]? = some m := h.shape_get
      have hd : cfg.d = G.length := rfl
      cases out with
      | none =>
        have ha : cfg.allocate = true := rfl
        cases orders with
        | none =>
          refine ⟨{ nVals := some m, out := some (NdArray.zeros [m]) }, ?_, fun _ => rfl, ?_⟩
          · rw [ha, show cfg.orders = none from rfl]
            simp [run, exec, stepDim, hd, var, hc, hsg]
          · simp [outRest]
        | some os =>
          refine ⟨{ nVals := some m, out := some (NdArray.zeros [m, os.length]) }, ?_,
            fun _ => rfl, ?_⟩
          · rw [ha, show cfg.orders = some os from rfl]
            simp [run, exec, stepDim, hd, var, hc, hsg]
          · simp [outRest]
      | some B =>
        have ha : cfg.allocate = false := rfl
        refine ⟨{ nVals := some m, out := some B }, ?_, fun _ => rfl, by simp⟩
        rw [ha]
        simp [run, exec, stepDim, hd, var, hc, hsg]
    | false =>
      cases out with
      | none =>
        have ha : cfg.allocate = true := rfl
        cases orders with
        | none =>
          refine ⟨{ out := none }, ?_, (fun h => by cases h), by simp⟩
          rw [ha, show cfg.orders = none from rfl]
          simp [run]
        | some os =>
          refine ⟨{ out := some (NdArray.zeros [os.length]) }, ?_, (fun h => by cases h), ?_⟩
          · rw [ha, show cfg.orders = some os from rfl]
            simp [run, exec, stepDim]
          · simp [outRest]
      | some B =>
        have ha : cfg.allocate = false := rfl
        refine ⟨{ out := some B }, ?_, (fun h => by cases h), by simp⟩
        rw [ha]
        simp [run]
  obtain ⟨s, h1, h2, h3⟩ := key
  obtain ⟨s', g1, g2, g3⟩ := run_recover c cfg false rfl rfl h.wf s
  refine ⟨s', ?_, g2, fun hv => g3.2.1.trans (h2 hv), g3.1.trans h3⟩
  intro rest
  rw [List.append_assoc, run_append_next c _ _ _ _ h1, run_append_next c _ _ _ _ g1]

/-- Everything before the reductions, unless the point is outside in constant mode. -/
theorem point_inside (h : GoodCall k G C vec m orders) (out : Option (NdArray K)) (mode : String)
    (x : List K) (hx : x.length = G.length) (hm : PointMode mode G)
    (hin : mode = "constant" → (List.zipWith isOutside G x).any id = false) :
    ∃ s, run { grid := G, C := C, x := x, pre := [], npts := 0 }
        (pointProgram (callCfg G C false out.isNone k orders mode)).prelude { out := out }
        = run { grid := G, C := C, x := x, pre := [], npts := 0 }
          (genReducePoint (callCfg G C false out.isNone k orders mode)) s ∧
      (∀ i (hi : i < G.length) (hx : i < (List.zipWith (modeX mode) G x).length),
        Loc G[i] (List.zipWith (modeX mode) G x)[i] (s.dims i) ∧
        HasPhi k (axisOrders orders i) G[i] (List.zipWith (modeX mode) G x)[i] (s.dims i)) ∧
      (vec = true → s.nVals = some m) ∧
      s.out = (if out.isNone ∧ (vec = true ∨ orders ≠ none) then
        some (NdArray.zeros (outRest vec m orders)) else out) := by
  obtain ⟨s, h1, h2, h3, h4⟩ := point_prelude h out mode x
  obtain ⟨s', g1, g2, g3, g4⟩ := run_upto_basis h
    { grid := G, C := C, x := x, pre := [], npts := 0 } rfl
    (callCfg G C false out.isNone k orders mode) rfl rfl rfl rfl
    (pointGuard (callCfg G C false out.isNone k orders mode)) false hx hm.bounds hin s h2
  refine ⟨s', ?_, g4, fun hv => g2.2.1.trans (h3 hv), g2.1.trans h4⟩
  rw [← g1, ← h1]
  simp only [pointProgram, List.append_assoc]
  rfl

/-- A point outside the grid in constant mode, when the guard returns. -/
theorem point_outside (h : GoodCall k G C vec m orders) (out : Option (NdArray K))
    (x : List K) (hx : x.length = G.length) (hm : PointMode "constant" G)
    (hout : (List.zipWith isOutside G x).any id = true) (v : RetVal K) (out' : Option (NdArray K))
    (hg : ∀ (i : ℕ) (s : State K), outside (s.dims i) = .ok true →
      s.out = (if out.isNone ∧ (vec = true ∨ orders ≠ none) then
        some (NdArray.zeros (outRest vec m orders)) else out) →
      exec { grid := G, C := C, x := x, pre := [], npts := 0 } (Stmt.constGuard i
        (pointGuard (callCfg G C false out.isNone k orders "constant"))) s
        = .ok ({ s with out := out' }, .ret v)) :
    ∃ s, run { grid := G, C := C, x := x, pre := [], npts := 0 }
        (pointProgram (callCfg G C false out.isNone k orders "constant")).prelude { out := out }
        = .ok (s, .ret v) ∧ s.out = out' := by
  obtain ⟨s, h1, h2, h3, h4⟩ := point_prelude h out "constant" x
  obtain ⟨i0, hi0, hi1, hi2⟩ := first_outside G x hx hout
  obtain ⟨s1, g1, g2, g3, _, g4⟩ := run_coords_outside
    { grid := G, C := C, x := x, pre := [], npts := 0 }
    (pointGuard (callCfg G C false out.isNone k orders "constant")) false hx
    (hm.bounds (Or.inr rfl)) i0 hi0 hi1 hi2 s h2
  have hex := hg i0 s1 g3 (g1.1.trans h4)
  refine ⟨{ s1 with out := out' }, ?_, rfl⟩
  simp only [pointProgram, List.append_assoc]
  have h1' := h1 (genCoords (callCfg G C false out.isNone k orders "constant")
    (pointGuard (callCfg G C false out.isNone k orders "constant")) ++
      (genLocate (callCfg G C false out.isNone k orders "constant") ++
        ((List.range (callCfg G C false out.isNone k orders "constant").d).flatMap
          (fun i => (axisOrders orders i).map
            fun l => blendStmt (callCfg G C false out.isNone k orders "constant").k l i) ++
          genReducePoint (callCfg G C false out.isNone k orders "constant"))))
  rw [List.append_assoc] at h1'
  refine h1'.trans ?_
  apply run_append_exit
  · intro h; cases h
  · rw [genCoords_eq]
    refine g4.trans ?_
    rw [run, hex]
    rfl

/-! ### The calls -/

/-- Scalar data, no derivative orders. -/
theorem evalSpline_point_scalar (h : GoodCall k G C false m none) (out : Option (NdArray K))
    (x : List K) (hx : x.length = G.length) (mode : String) (hm : PointMode mode G) :
    evalSpline G C (.point x) out k none mode
      = .ok ⟨.scalar (rowEntry k mode G C false none x []), out⟩ := by
  rw [evalSpline_unfold_point out x mode _ (point_code h _ mode) (point_names h _ mode hm)
    (point_unify _ (Or.inr (Or.inr (Or.inr rfl))))]
  by_cases hout : mode = "constant" ∧ (List.zipWith isOutside G x).any id = true
  · obtain ⟨rfl, hout⟩ := hout
    obtain ⟨s, h1, h2⟩ := point_outside h out x hx hm hout (.scalar 0) out (by
      intro i s hs ho
      have hg : pointGuard (callCfg G C false out.isNone k none "constant") = .returnZero := by
        simp [pointGuard, callCfg, h.shape_length]
      rw [hg]
      simp only [exec, stepDim, hs, ok_bind, if_true, pure_eq_ok]
      simp at ho
      simp [← ho])
    rw [h1]
    simp only [ok_bind, h2, pure_eq_ok]
    congr 1
    congr 1
    · simp [rowEntry, evalMode, hout]
    · cases out <;> rfl
  · have hin : mode = "constant" → (List.zipWith isOutside G x).any id = false := by
      intro hc
      by_contra hcon
      exact hout ⟨hc, by simpa using hcon⟩
    obtain ⟨s, h1, h2, h3, h4⟩ := point_inside h out mode x hx hm hin
    have hval := h.value s.dims (List.zipWith (modeX mode) G x) (by simp; omega) h2 0
      (fun h => by cases h) none (List.replicate G.length 0) (Or.inl ⟨rfl, rfl, rfl⟩)
    have hred : genReducePoint (callCfg G C false out.isNone k none mode)
        = [Stmt.retVal (getValues G.length false (k + 1) none)] := by
      simp [genReducePoint, callCfg, h.shape_length]
    rw [h1, hred]
    simp only [run, exec, stepDim, hval, ok_bind, pure_eq_ok]
    congr 1
    congr 1
    · rw [rowEntry_inside mode x hx hin]
      simp [plainEntry]
    · rw [h4]; cases out <;> simp

/-- Scalar data with derivative orders: a tuple. -/
theorem evalSpline_point_tuple {os : List (List ℕ)} (h : GoodCall k G C false m (some os))
    (x : List K) (hx : x.length = G.length) (mode : String) (hm : PointMode mode G)
    (hc : mode ≠ "constant") :
    evalSpline G C (.point x) none k (some os) mode
      = .ok ⟨.tuple ((List.range os.length).map fun j =>
          rowEntry k mode G C false (some os) x [j]), none⟩ := by
  rw [evalSpline_unfold_point none x mode _ (point_code h _ mode) (point_names h _ mode hm)
    (point_unify _ (Or.inl hc))]
  have hin : mode = "constant" → (List.zipWith isOutside G x).any id = false :=
    fun h => (hc h).elim
  obtain ⟨s, h1, h2, h3, h4⟩ := point_inside h none mode x hx hm hin
  set xs := List.zipWith (modeX mode) G x with hxs
  have hval := fun oo hoo => h.value s.dims xs (by simp [hxs]; omega) h2 0
    (fun h => by cases h) (some oo) oo (Or.inr ⟨os, rfl, hoo, rfl⟩)
  simp only [Bool.false_eq_true, if_false] at hval
  have hred : genReducePoint (callCfg G C false true k (some os) mode)
      = (os.map fun oo => Stmt.assignVal (valName oo) (getValues G.length false (k + 1) (some oo)))
        ++ [Stmt.retTuple (os.map valName)] := by
    simp [genReducePoint, callCfg, h.shape_length]
  have h5 := run_assigns { grid := G, C := C, x := x, pre := [], npts := 0 }
    (fun oo => getValues G.length false (k + 1) (some oo))
    (fun oo => evalAt k G oo xs (fun r => C.get (r ++ []))) os s hval
  have h6 : (os.map valName).mapM (fun name => lookupVal name
      ((os.map fun oo => (valName oo, evalAt k G oo xs (fun r => C.get (r ++ [])))).reverse
        ++ s.vals)) = .ok ((List.range os.length).map fun j =>
          rowEntry k mode G C false (some os) x [j]) := by
    have hmap : (List.range os.length).map (fun j => rowEntry k mode G C false (some os) x [j])
        = os.map fun oo => evalAt k G oo xs (fun r => C.get (r ++ [])) := by
      apply List.ext_getElem
      · simp
      · intro j h1 h2
        simp only [List.getElem_map, List.getElem_range]
        have : j < os.length := by simpa using h1
        rw [rowEntry_inside mode x hx hin]
        simp [plainEntry, List.getElem?_eq_getElem this, hxs]
    rw [hmap]
    rw [List.mapM_map]
    apply mapM_ok
    intro oo hoo
    exact lookup_assigned os (fun oo => evalAt k G oo xs (fun r => C.get (r ++ []))) s.vals
      (fun p hp q hq hpq => h.names os rfl p hp q hq hpq _ _ (by simp [hxs]; omega)) oo hoo
  rw [show (none : Option (NdArray K)).isNone = true from rfl] at h1
  rw [show (none : Option (NdArray K)).isNone = true from rfl, h1, hred,
    run_append_next _ _ _ _ _ h5]
  simp only [run, exec, stepDim, h6, ok_bind, pure_eq_ok]
  rfl

/-- In-place evaluation at a point; the guard of constant mode does not interfere. -/
theorem evalSpline_point_out (h : GoodCall k G C vec m orders) (hs : vec = true ∨ orders ≠ none)
    (x : List K) (hx : x.length = G.length) (mode : String) (hm : PointMode mode G)
    (hin : mode = "constant" → (List.zipWith isOutside G x).any id = false)
    (B : NdArray K) (hB : B.shape = outRest vec m orders) :
    ∃ A, evalSpline G C (.point x) (some B) k orders mode = .ok ⟨.none, some A⟩ ∧
      A.shape = outRest vec m orders ∧
      ∀ tail, InShape (outRest vec m orders) tail →
        A.get tail = rowEntry k mode G C vec orders x tail := by
  have hred : genReducePoint (callCfg G C false false k orders mode)
      = genReduceVec (callCfg G C false false k orders mode) := by
    cases vec with
    | true =>
      rw [reducePoint_vec _ (by simp [callCfg, h.shape_length])]
      simp [callCfg]
    | false =>
      cases orders with
      | none => simp at hs
      | some os => simp [genReducePoint, genReduceVec, callCfg, h.shape_length]
  obtain ⟨s, h1, h2, h3, h4⟩ := point_inside h (some B) mode x hx hm hin
  obtain ⟨s2, A', g1, g2, g3, g4, g5⟩ := run_reduceVec h
    { grid := G, C := C, x := x, pre := [], npts := 0 } rfl
    (callCfg G C false false k orders mode) rfl rfl h.vecVal rfl
    (List.zipWith (modeX mode) G x) (by simp; omega) s h2 h3 B (by rw [h4]; simp)
    (by intro tail htail; rw [hB]; exact htail)
  refine ⟨A', ?_, g5.1.trans hB, ?_⟩
  · rw [evalSpline_unfold_point (some B) x mode _ (point_code h _ mode) (point_names h _ mode hm)
      (point_unify _ (Or.inr (Or.inr (Or.inl rfl))))]
    rw [show (some B : Option (NdArray K)).isNone = false from rfl] at h1
    rw [show (some B : Option (NdArray K)).isNone = false from rfl, h1, hred, g1]
    simp [g4]
  · intro tail htail
    have := g5.2.1 tail htail
    rw [rowEntry_inside mode x hx hin]
    exact this

/-- Vector-valued data: a freshly allocated array. -/
theorem evalSpline_point_array (h : GoodCall k G C true m orders)
    (x : List K) (hx : x.length = G.length) (mode : String) (hm : PointMode mode G) :
    ∃ A, evalSpline G C (.point x) none k orders mode = .ok ⟨.array A, none⟩ ∧
      A.shape = outRest true m orders ∧
      ∀ tail, InShape (outRest true m orders) tail →
        A.get tail = rowEntry k mode G C true orders x tail := by
  have hvv : (callCfg G C false true k orders mode).vectorValued = true := h.vecVal
  rw [evalSpline_unfold_point none x mode _ (point_code h _ mode) (point_names h _ mode hm)
    (point_unify _ (Or.inr (Or.inl hvv)))]
  by_cases hout : mode = "constant" ∧ (List.zipWith isOutside G x).any id = true
  · obtain ⟨rfl, hout⟩ := hout
    obtain ⟨s, h1, h2⟩ := point_outside h none x hx hm hout
      (.array (NdArray.zeros (outRest true m orders)))
      (some (NdArray.zeros (outRest true m orders))) (by
        intro i s hs ho
        have hg : pointGuard (callCfg G C false true k orders "constant") = .zeroReturn := by
          rw [pointGuard, if_pos hvv]; rfl
        rw [show (none : Option (NdArray K)).isNone = true from rfl, hg]
        simp at ho
        simp only [exec, stepDim, hs, ok_bind, if_true, pure_eq_ok, State.getOut, ho]
        simp [fillZero, InShape, NdArray.zeros])
    refine ⟨NdArray.zeros (outRest true m orders), ?_, rfl, ?_⟩
    · rw [h1]; rfl
    · intro tail _
      simp [rowEntry, evalMode, hout, NdArray.zeros]
  · have hin : mode = "constant" → (List.zipWith isOutside G x).any id = false := by
      intro hc
      by_contra hcon
      exact hout ⟨hc, by simpa using hcon⟩
    obtain ⟨s, h1, h2, h3, h4⟩ := point_inside h none mode x hx hm hin
    have hso : s.out = some (NdArray.zeros (outRest true m orders)) := by rw [h4]; simp
    obtain ⟨s2, A', g1, g2, g3, g4, g5⟩ := run_reduceVec h
      { grid := G, C := C, x := x, pre := [], npts := 0 } rfl
      (callCfg G C false true k orders mode) rfl rfl h.vecVal rfl
      (List.zipWith (modeX mode) G x) (by simp; omega) s h2 h3 _ hso
      (by intro tail htail; exact htail)
    refine ⟨A', ?_, g5.1, ?_⟩
    · rw [h1, show (none : Option (NdArray K)).isNone = true from rfl, reducePoint_vec _ hvv,
        run_append_next _ _ _ _ _ g1]
      simp [callCfg, run, exec, stepDim, State.getOut, g4]
    · intro tail htail
      have := g5.2.1 tail htail
      rw [rowEntry_inside mode x hx hin]
      exact this

/-! ### Calls that are refused -/

theorem mem_genCoords_guard (cfg : Cfg) (guard : GuardBody) (i : ℕ) (hi : i < cfg.d)
    (hc : cfg.extrap = "constant") : Stmt.constGuard i guard ∈ genCoords cfg guard := by
  rw [genCoords_eq, List.mem_flatMap]
  exact ⟨i, by simpa using hi, by simp [coordBlock, hc]⟩

theorem mem_genCoords_clamp (cfg : Cfg) (guard : GuardBody) (i : ℕ) (hi : i < cfg.d)
    (hc : cfg.extrap = "nearest") : Stmt.clampNearest i ∈ genCoords cfg guard := by
  rw [genCoords_eq, List.mem_flatMap]
  exact ⟨i, by simpa using hi, by simp [coordBlock, hc]⟩

/-- Scalar data, derivative orders, constant mode, no output array: never compiles. -/
theorem evalSpline_point_constant_tuple {os : List (List ℕ)}
    (h : GoodCall k G C false m (some os)) (x : List K) (hm : PointMode "constant" G) :
    evalSpline G C (.point x) none k (some os) "constant" = .error .typing := by
  have hn := point_names h true "constant" hm
  have hu : returnsUnify (pointProgram (callCfg G C false true k (some os) "constant")) = false := by
    set cfg := callCfg G C false true k (some os) "constant" with hcfg
    have hv : cfg.vectorValued = false := h.vecVal
    have hd : 0 < cfg.d := List.length_pos_iff.2 h.ne
    have h1 : (pointProgram cfg).prelude.any Stmt.isZeroReturn = true := by
      rw [List.any_eq_true]
      refine ⟨Stmt.constGuard 0 (pointGuard cfg), ?_, ?_⟩
      · have := mem_genCoords_guard cfg (pointGuard cfg) 0 hd rfl
        simp only [pointProgram, List.mem_append]
        tauto
      · simp [pointGuard, hv, Stmt.isZeroReturn]
    have h2 : (pointProgram cfg).prelude.any Stmt.isRetTuple = true := by
      rw [List.any_eq_true]
      refine ⟨Stmt.retTuple (os.map valName), ?_, rfl⟩
      have : Stmt.retTuple (os.map valName) ∈ genReducePoint cfg := by
        simp [genReducePoint, hv, hcfg, callCfg, h.shape_length]
      simp only [pointProgram, List.mem_append]
      tauto
    simp [returnsUnify, h1, h2]
  unfold evalSpline
  have hp : getCodeSpline (Cfg.mk G.length k (decide (C.shape.length = G.length + 1)) false
      true (G.map GridDim.gtype) "constant" (some os)) = .ok _ := point_code h true "constant"
  simp only [Points.isRows, Option.isNone_none, hp, ok_bind]
  rw [if_neg (not_not.2 hn)]
  simp only [hu, Bool.not_false, if_true]
  rfl

/-- Variables `a_i` are never assigned on a nonuniform axis by the single-point template. -/
theorem point_no_a (cfg : Cfg) (i : ℕ) (ht : cfg.gridTypes[i]? = some .nonuniform) :
    ∀ t ∈ (pointProgram cfg).prelude ++ (pointProgram cfg).body, Var.a i ∉ t.defs := by
  intro t htm
  simp only [pointProgram, List.append_nil, List.mem_append] at htm
  rcases htm with ((((htm | htm) | htm) | htm) | htm) | htm
  · unfold genAllocPoint at htm
    split_ifs at htm with h1 h2 h3
    · simp only [List.mem_append, List.mem_singleton] at htm
      rcases htm with rfl | rfl
      · simp [Stmt.defs]
      · split <;> simp [Stmt.defs]
    · simp at htm; subst htm; simp [Stmt.defs]
    · split at htm
      · simp at htm
      · simp at htm; subst htm; simp [Stmt.defs]
    · simp at htm
  · rw [genRecover, List.mem_flatMap] at htm
    obtain ⟨j, _, htm⟩ := htm
    split at htm
    · rename_i hj
      rw [List.mem_singleton] at htm; subst htm
      simp only [Stmt.defs, List.mem_cons, List.not_mem_nil, or_false]
      rintro (h | h | h | h)
      · injection h with h; subst h; rw [ht] at hj; cases hj
      all_goals cases h
    · rw [List.mem_singleton] at htm; subst htm; simp [Stmt.defs]
    · simp at htm
  · rw [genCoords_eq, List.mem_flatMap] at htm
    obtain ⟨j, _, htm⟩ := htm
    rw [coordBlock] at htm
    simp only [List.mem_append, List.mem_singleton] at htm
    rcases htm with (rfl | htm) | htm
    · simp [Stmt.defs]
    · split_ifs at htm
      · rw [List.mem_singleton] at htm; subst htm; simp [Stmt.defs]
      · simp at htm
    · split_ifs at htm
      · rw [List.mem_singleton] at htm; subst htm; simp [Stmt.defs]
      · simp at htm
  · rw [genLocate, List.mem_flatMap] at htm
    obtain ⟨j, _, htm⟩ := htm
    split at htm
    · rw [List.mem_singleton] at htm; subst htm; simp [Stmt.defs]
    · rw [List.mem_singleton] at htm; subst htm; simp [Stmt.defs]
    · simp at htm
  · rw [List.mem_flatMap] at htm
    obtain ⟨j, _, htm⟩ := htm
    rw [List.mem_map] at htm
    obtain ⟨l, _, rfl⟩ := htm
    unfold blendStmt
    split_ifs <;> simp [Stmt.defs]
  · unfold genReducePoint at htm
    split_ifs at htm with h1 h2 h3
    · simp only [List.mem_append, List.mem_singleton] at htm
      rcases htm with htm | rfl
      · split at htm <;> simp at htm <;> subst htm <;> simp [Stmt.defs]
      · simp [Stmt.defs]
    · simp only [List.append_nil] at htm
      split at htm <;> simp at htm <;> subst htm <;> simp [Stmt.defs]
    · split at htm
      · simp only [List.mem_append, List.mem_map, List.mem_singleton] at htm
        rcases htm with ⟨_, _, rfl⟩ | rfl <;> simp [Stmt.defs]
      · simp at htm; subst htm; simp [Stmt.defs]
    · split at htm
      · simp only [List.mem_append, List.mem_map, List.mem_mapIdx] at htm
        rcases htm with ⟨_, _, rfl⟩ | ⟨_, _, rfl⟩ <;> simp [Stmt.defs]
      · simp at htm; subst htm; simp [Stmt.defs]

/-- Modes `nearest` and `constant` never work for a single point on a grid with a nonuniform
axis. -/
theorem evalSpline_point_nonuniform (h : GoodCall k G C vec m orders) (out : Option (NdArray K))
    (x : List K) (mode : String) (hmode : mode = "nearest" ∨ mode = "constant")
    (g : GridDim K) (hg : g ∈ G) (hgt : g.gtype = .nonuniform) :
    evalSpline G C (.point x) out k orders mode = .error (.name "undefined global") := by
  obtain ⟨i, hi, rfl⟩ := List.getElem_of_mem hg
  have hn : ¬ allNamesAssigned (pointProgram (callCfg G C false out.isNone k orders mode)) := by
    set cfg := callCfg G C false out.isNone k orders mode with hcfg
    intro hcon
    have hna := point_no_a cfg i (by simp [hcfg, callCfg, List.getElem?_eq_getElem hi, hgt])
    rcases hmode with rfl | rfl
    · have hmem := mem_genCoords_clamp cfg (pointGuard cfg) i hi rfl
      obtain ⟨t, ht, htd⟩ := hcon (Stmt.clampNearest i) (by
        simp only [pointProgram, List.mem_append]; tauto) (Var.a i) (by simp [Stmt.uses])
      exact hna t ht htd
    · have hmem := mem_genCoords_guard cfg (pointGuard cfg) i hi rfl
      obtain ⟨t, ht, htd⟩ := hcon (Stmt.constGuard i (pointGuard cfg)) (by
        simp only [pointProgram, List.mem_append]; tauto) (Var.a i) (by simp [Stmt.uses])
      exact hna t ht htd
  unfold evalSpline
  have hp : getCodeSpline (Cfg.mk G.length k (decide (C.shape.length = G.length + 1)) false
      out.isNone (G.map GridDim.gtype) mode orders) = .ok _ := point_code h out.isNone mode
  simp only [Points.isRows, hp, ok_bind]
  rw [if_pos hn]
  rfl

end Interp.Codegen
