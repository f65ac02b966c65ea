import Verif.Proofs.CodegenStatic

/-! `evalSpline` on supported calls: what is returned and what is written. -/

set_option linter.unusedSectionVars false
set_option linter.unusedSimpArgs false

namespace Interp.Codegen
open Interp.Ref

variable {K : Type} [Add K] [Sub K] [Mul K] [Div K] [Neg K] [Zero K] [One K] [NatCast K]
  [IntCast K] [LT K] [DecidableLT K] [BEq K] [IntFloor K]

variable {k : ℕ} {G : List (GridDim K)} {C : NdArray K} {vec : Bool} {m : ℕ}
  {orders : Option (List (List ℕ))}

theorem GoodCall.shape_length (h : GoodCall k G C vec m orders) :
    C.shape.length = G.length + if vec then 1 else 0 := by
  obtain ⟨sh, h1, h2⟩ := h.shape
  rw [h1, List.length_append, GoodCall.fits_length h2]
  cases vec <;> simp

theorem GoodCall.vecVal (h : GoodCall k G C vec m orders) :
    decide (C.shape.length = G.length + 1) = vec := by
  rw [h.shape_length]
  cases vec <;> simp

theorem GoodCall.shape_get (h : GoodCall k G C true m orders) :
    C.shape[G.length]? = some m := by
  obtain ⟨sh, h1, h2⟩ := h.shape
  rw [h1, ← GoodCall.fits_length h2]
  simp

theorem GoodCall.shape_last (h : GoodCall k G C true m orders) :
    C.shape.getLast? = some m := by
  obtain ⟨sh, h1, h2⟩ := h.shape
  rw [h1]
  simp

/-- The specialisation key of a call. -/
def callCfg (G : List (GridDim K)) (C : NdArray K) (rows : Bool) (alloc : Bool) (k : ℕ)
    (orders : Option (List (List ℕ))) (extrap : String) : Cfg :=
  { d := G.length
    k := k
    vectorValued := decide (C.shape.length = G.length + 1)
    vectorized := rows
    allocate := alloc
    gridTypes := G.map GridDim.gtype
    extrap := extrap
    orders := orders }

/-! ### Rows -/

theorem runRows_ok (h : GoodCall k G C vec m orders) (cfg : Cfg) (hd : cfg.d = G.length)
    (ht : cfg.gridTypes = G.map GridDim.gtype)
    (hk : cfg.k = k) (ho : cfg.orders = orders) (hv : cfg.vectorValued = vec) (N : ℕ) :
    ∀ (xs : List (List K)) (nn : ℕ) (s : State K) (A : NdArray K), nn + xs.length ≤ N →
    (∀ x ∈ xs, x.length = G.length) →
    (∀ i (hi : i < G.length), Prep true G[i] (s.dims i)) →
    (vec = true → s.nVals = some m) → s.out = some A → A.shape = N :: outRest vec m orders →
    ∃ s' A', runRows G C N (genCoords cfg .zeroContinue ++ genLocate cfg ++
        (List.range cfg.d).flatMap (fun i => (axisOrders orders i).map
          fun l => blendStmt cfg.k l i) ++ genReduceVec cfg) nn xs s = .ok s' ∧
      s'.out = some A' ∧ A'.shape = A.shape ∧
      (∀ i (hi : i < xs.length), ∀ tail, InShape (outRest vec m orders) tail →
        A'.get ((nn + i) :: tail) = rowEntry k cfg.extrap G C vec orders xs[i] tail) ∧
      (∀ idx, (∀ i < xs.length, idx.take 1 ≠ [nn + i]) → A'.get idx = A.get idx) := by
  intro xs
  induction xs with
  | nil =>
    intro nn s A _ _ _ _ hA _
    exact ⟨s, A, rfl, hA, rfl, by simp, by simp⟩
  | cons x xs ih =>
    intro nn s A hN hx hp hnv hA hsh
    rw [List.length_cons] at hN
    obtain ⟨s1, f, A1, h1, h2, h3, h4, h5⟩ := run_body h
      { grid := G, C := C, x := x, pre := [nn], npts := N } rfl rfl nn N rfl (by omega) cfg hd ht hk
      ho hv (hx x (by simp)) s hp hnv A hA hsh
    obtain ⟨s2, A2, g1, g2, g3, g4, g5⟩ := ih (nn + 1) s1 A1 (by omega)
      (fun y hy => hx y (by simp [hy])) h2 h3 h4 (h5.1.trans hsh)
    refine ⟨s2, A2, ?_, g2, g3.trans h5.1, ?_, ?_⟩
    · rw [runRows, h1]
      exact g1
    · intro i hi tail htail
      cases i with
      | zero =>
        rw [g5]
        · have := h5.2.1 tail htail
          simpa using this
        · intro i _ heq
          have : nn + 0 = nn + 1 + i := by simpa using heq
          omega
      | succ i =>
        have := g4 i (by simpa using hi) tail htail
        rw [show nn + 1 + i = nn + (i + 1) by omega] at this
        simpa using this
    · intro idx hidx
      rw [g5 idx (fun i hi => by
        have := hidx (i + 1) (by simpa using hi)
        rwa [show nn + (i + 1) = nn + 1 + i by omega] at this)]
      apply h5.2.2
      have := hidx 0 (by simp)
      simpa using this

/-- The vectorised program of a supported call. -/
def rowsProgram (cfg : Cfg) : Program :=
  { prelude := genAllocVec cfg ++ genRecover cfg true
    body := genCoords cfg .zeroContinue ++ genLocate cfg ++
        (List.range cfg.d).flatMap (fun i => (axisOrders cfg.orders i).map
          fun l => blendStmt cfg.k l i) ++ genReduceVec cfg
    retOut := cfg.allocate }

theorem rows_code (h : GoodCall k G C vec m orders) (alloc : Bool) (mode : String) :
    getCodeSpline (callCfg G C true alloc k orders mode)
      = .ok (rowsProgram (callCfg G C true alloc k orders mode)) := by
  unfold getCodeSpline
  rw [if_neg (h.gridCheck _ rfl rfl)]
  simp only [h.genBasis (callCfg G C true alloc k orders mode) rfl rfl rfl, pure_eq_ok, ok_bind]
  rfl

theorem rows_names (h : GoodCall k G C vec m orders) (alloc : Bool) (mode : String) :
    allNamesAssigned (rowsProgram (callCfg G C true alloc k orders mode)) := by
  set cfg := callCfg G C true alloc k orders mode with hcfg
  have hv : cfg.vectorValued = vec := h.vecVal
  intro s hs v hvs
  have huse : UsesOk k G vec orders true ((rowsProgram cfg).prelude ++ (rowsProgram cfg).body) := by
    unfold rowsProgram
    refine UsesOk.append (UsesOk.append ?_ (uses_recover cfg true true rfl rfl))
      (UsesOk.append (UsesOk.append (UsesOk.append
        (uses_coords cfg _ true rfl (fun _ _ _ => Or.inl rfl)) (uses_locate cfg true rfl rfl))
        (uses_basis _ true _)) (uses_reduceVec h cfg true rfl rfl hv rfl))
    intro s hs v hv
    unfold genAllocVec at hs
    rcases List.mem_append.1 hs with hs | hs
    · split_ifs at hs
      · rw [List.mem_singleton] at hs; subst hs; simp [Stmt.uses] at hv
      · simp at hs
    · split_ifs at hs
      · rw [List.mem_singleton] at hs; subst hs; simp [Stmt.uses] at hv
      · simp at hs
  have hd := huse s hs v hvs
  refine defd_assigned h true _ ?_ ?_ ?_ ?_ ?_ ?_ v hd
  · intro i hi
    have := mem_genRecover (G := G) cfg true rfl rfl i hi
    simp only [rowsProgram, List.mem_append]
    tauto
  · intro i hi
    have := mem_genCoords (G := G) cfg .zeroContinue rfl i hi
    simp only [rowsProgram, List.mem_append]
    tauto
  · intro i hi
    have := mem_genLocate (G := G) cfg rfl rfl i hi
    simp only [rowsProgram, List.mem_append]
    tauto
  · intro i hi l hl
    have := mem_basis (k := k) G.length (axisOrders orders) i hi l hl
    simp only [rowsProgram, List.mem_append]
    exact Or.inr (Or.inl (Or.inr this))
  · intro hvt
    refine ⟨G.length, ?_⟩
    simp only [rowsProgram, List.mem_append, genAllocVec, hv, hvt, if_true]
    exact Or.inl (Or.inl (Or.inl (by simp [hcfg, callCfg])))
  · intro os ho oo hoo
    obtain ⟨t, ht, htv⟩ := reduceVec_defs cfg os ho oo hoo
    refine ⟨t, ?_, htv⟩
    simp only [rowsProgram, List.mem_append]
    tauto

theorem genRecover_notRet (cfg : Cfg) (b : Bool) :
    (genRecover cfg b).any Stmt.isZeroReturn = false ∧
      (genRecover cfg b).any Stmt.isRetTuple = false := by
  constructor <;>
  · rw [List.any_eq_false]
    intro s hs
    rw [genRecover, List.mem_flatMap] at hs
    obtain ⟨i, _, hs⟩ := hs
    split at hs
    · rw [List.mem_singleton] at hs; subst hs; simp [Stmt.isZeroReturn, Stmt.isRetTuple]
    · rw [List.mem_singleton] at hs; subst hs; simp [Stmt.isZeroReturn, Stmt.isRetTuple]
    · simp at hs

theorem rows_unify (cfg : Cfg) : returnsUnify (rowsProgram cfg) = true := by
  have h0 : (rowsProgram cfg).prelude.any Stmt.isZeroReturn = false := by
    simp only [rowsProgram, List.any_append, (genRecover_notRet cfg true).1, Bool.or_false]
    unfold genAllocVec
    split_ifs <;> rfl
  simp [returnsUnify, h0]

theorem rows_prelude (h : GoodCall k G C vec m orders) (out : Option (NdArray K)) (mode : String)
    (N : ℕ) (hout : ∀ B, out = some B → B.shape = N :: outRest vec m orders) :
    ∃ s A, run { grid := G, C := C, x := [], pre := [], npts := N }
        (rowsProgram (callCfg G C true out.isNone k orders mode)).prelude { out := out }
        = .ok (s, .next) ∧
      (∀ i (hi : i < G.length), Prep true G[i] (s.dims i)) ∧
      (vec = true → s.nVals = some m) ∧ s.out = some A ∧ A.shape = N :: outRest vec m orders := by
  set cfg := callCfg G C true out.isNone k orders mode with hcfg
  set c : Ctx K := { grid := G, C := C, x := [], pre := [], npts := N } with hc
  have hv : cfg.vectorValued = vec := h.vecVal
  have key : ∃ s A, run c (genAllocVec cfg) { out := out } = .ok (s, .next) ∧
      (vec = true → s.nVals = some m) ∧ s.out = some A ∧ A.shape = N :: outRest vec m orders := by
    unfold genAllocVec
    rw [hv]
    cases vec with
    | true =>
      have hsg : c.C.shape[G.length]? = some m := h.shape_get
      have hsl : c.C.shape.getLast? = some m := h.shape_last
      have hd : cfg.d = G.length := rfl
      cases out with
      | none =>
        refine ⟨{ nVals := some m, out := some (NdArray.zeros ([N, m] ++
          (orders.map List.length).toList)) }, _, ?_, fun _ => rfl, rfl, ?_⟩
        · have : cfg.allocate = true := rfl
          rw [this]
          simp [run, exec, stepDim, hd, hsg, hsl, hc, hcfg, callCfg]
          rw [show C.shape[G.length]? = some m from hsg, show C.shape.getLast? = some m from hsl]
          rfl
        · simp [NdArray.zeros, outRest]
      | some B =>
        refine ⟨{ nVals := some m, out := some B }, B, ?_, fun _ => rfl, rfl, hout B rfl⟩
        have : cfg.allocate = false := rfl
        rw [this]
        simp [run, exec, stepDim, hd]
        rw [show C.shape[G.length]? = some m from hsg]
        rfl
    | false =>
      cases out with
      | none =>
        refine ⟨{ out := some (NdArray.zeros ([N] ++
          (orders.map List.length).toList)) }, _, ?_, (fun h => by cases h), rfl, ?_⟩
        · have : cfg.allocate = true := rfl
          rw [this]
          simp [run, exec, stepDim, hcfg, callCfg]
          rfl
        · simp [NdArray.zeros, outRest]
      | some B =>
        refine ⟨{ out := some B }, B, ?_, (fun h => by cases h), rfl, hout B rfl⟩
        have : cfg.allocate = false := rfl
        rw [this]
        rfl
  obtain ⟨s, A, h1, h2, h3, h4⟩ := key
  obtain ⟨s', g1, g2, g3⟩ := run_recover c cfg true rfl rfl h.wf s
  refine ⟨s', A, ?_, g2, fun hv => g3.2.1.trans (h2 hv), g3.1.trans h3, h4⟩
  show run c (genAllocVec cfg ++ genRecover cfg true) _ = _
  rw [run_append_next c _ _ _ _ h1, g1]

theorem evalSpline_unfold_rows (out : Option (NdArray K)) (xs : List (List K)) (mode : String)
    (p : Program) (hp : getCodeSpline (callCfg G C true out.isNone k orders mode) = .ok p)
    (hn : allNamesAssigned p) (hu : returnsUnify p = true) :
    evalSpline G C (.rows xs) out k orders mode = (do
      let r ← run { grid := G, C := C, x := [], pre := [], npts := xs.length } p.prelude
        { out := out }
      let s ← runRows G C xs.length p.body 0 xs r.1
      if p.retOut then do
        let A ← s.getOut
        pure { ret := .array A, out := none }
      else pure { ret := .none, out := s.out }) := by
  unfold evalSpline
  rw [show (Points.rows xs).isRows = true from rfl]
  have : getCodeSpline (Cfg.mk G.length k (decide (C.shape.length = G.length + 1)) true
      out.isNone (G.map GridDim.gtype) mode orders) = .ok p := hp
  simp only [this, ok_bind, hn, not_true_eq_false, if_false, hu, Bool.not_true, Bool.false_eq_true]

/-- Evaluation at the rows of a matrix, allocating the result. -/
theorem evalSpline_rows_alloc (h : GoodCall k G C vec m orders) (xs : List (List K))
    (hx : ∀ x ∈ xs, x.length = G.length) (mode : String) :
    ∃ A, evalSpline G C (.rows xs) none k orders mode = .ok ⟨.array A, none⟩ ∧
      A.shape = xs.length :: outRest vec m orders ∧
      ∀ i (hi : i < xs.length), ∀ tail, InShape (outRest vec m orders) tail →
        A.get (i :: tail) = rowEntry k mode G C vec orders xs[i] tail := by
  obtain ⟨s, A, h1, h2, h3, h4, h5⟩ := rows_prelude h none mode xs.length (by simp)
  obtain ⟨s', A', g1, g2, g3, g4, -⟩ := runRows_ok h (callCfg G C true true k orders mode) rfl rfl
    rfl rfl h.vecVal xs.length xs 0 s A (by omega) hx h2 h3 h4 h5
  refine ⟨A', ?_, g3.trans h5, ?_⟩
  · rw [evalSpline_unfold_rows none xs mode _ (rows_code h true mode) (rows_names h true mode)
      (rows_unify _)]
    rw [show (none : Option (NdArray K)).isNone = true from rfl] at h1
    rw [h1]
    simp only [ok_bind]
    rw [show (rowsProgram (callCfg G C true true k orders mode)).body
      = genCoords (callCfg G C true true k orders mode) .zeroContinue ++
        genLocate (callCfg G C true true k orders mode) ++
        (List.range (callCfg G C true true k orders mode).d).flatMap
          (fun i => (axisOrders orders i).map
            fun l => blendStmt (callCfg G C true true k orders mode).k l i) ++
        genReduceVec (callCfg G C true true k orders mode) from rfl, g1]
    simp only [ok_bind]
    rw [if_pos (show (rowsProgram (callCfg G C true true k orders mode)).retOut = true from rfl)]
    simp [State.getOut, g2]
  · intro i hi tail htail
    have := g4 i hi tail htail
    simpa [callCfg] using this

/-- Evaluation at the rows of a matrix, writing in a supplied array (whatever it contains). -/
theorem evalSpline_rows_out (h : GoodCall k G C vec m orders) (xs : List (List K))
    (hx : ∀ x ∈ xs, x.length = G.length) (mode : String) (B : NdArray K)
    (hB : B.shape = xs.length :: outRest vec m orders) :
    ∃ A, evalSpline G C (.rows xs) (some B) k orders mode = .ok ⟨.none, some A⟩ ∧
      A.shape = xs.length :: outRest vec m orders ∧
      ∀ i (hi : i < xs.length), ∀ tail, InShape (outRest vec m orders) tail →
        A.get (i :: tail) = rowEntry k mode G C vec orders xs[i] tail := by
  obtain ⟨s, A, h1, h2, h3, h4, h5⟩ := rows_prelude h (some B) mode xs.length
    (by rintro _ ⟨⟩; exact hB)
  obtain ⟨s', A', g1, g2, g3, g4, -⟩ := runRows_ok h (callCfg G C true false k orders mode) rfl rfl
    rfl rfl h.vecVal xs.length xs 0 s A (by omega) hx h2 h3 h4 h5
  refine ⟨A', ?_, g3.trans h5, ?_⟩
  · rw [evalSpline_unfold_rows (some B) xs mode _ (rows_code h false mode) (rows_names h false mode)
      (rows_unify _)]
    rw [show (some B : Option (NdArray K)).isNone = false from rfl] at h1
    rw [h1]
    simp only [ok_bind]
    rw [show (rowsProgram (callCfg G C true false k orders mode)).body
      = genCoords (callCfg G C true false k orders mode) .zeroContinue ++
        genLocate (callCfg G C true false k orders mode) ++
        (List.range (callCfg G C true false k orders mode).d).flatMap
          (fun i => (axisOrders orders i).map
            fun l => blendStmt (callCfg G C true false k orders mode).k l i) ++
        genReduceVec (callCfg G C true false k orders mode) from rfl, g1]
    simp only [ok_bind]
    rw [if_neg (show ¬ (rowsProgram (callCfg G C true false k orders mode)).retOut = true from
      Bool.false_ne_true)]
    simp [g2]
  · intro i hi tail htail
    have := g4 i hi tail htail
    simpa [callCfg] using this

end Interp.Codegen
