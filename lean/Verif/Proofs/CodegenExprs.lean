import Verif.Proofs.CodegenStrings

/-!
# Values of the expressions of the templates
-/

namespace Interp.CodegenText

open Tempita PyExpr Spec.Text Codegen

/-- Python as seen by the templates of `get_code_spline`. -/
abbrev WC : World Val NS := world codegenFuns

variable {cfg : Cfg} {ns : NS}

/-! ### Expressions printed -/

theorem expr_len {os : List (List ℕ)} (h : Base cfg ns) (ho : cfg.orders = some os) :
    evalExpr WC c!"len(orders)" ns = .ok (dec os.length) :=
  evalExpr_of (a := .call c!"len" (.cons none (.name c!"orders") .nil)) (by decide +kernel)
    (by decide +kernel) (v := .int os.length)
    (by simp [PE.eval, PEs.eval, getName, h.len, h.os, ho, builtin, apply, ordersVal, Val.items]) rfl

theorem expr_orders (h : Base cfg ns) :
    evalExpr WC c!"orders if orders is not None else \"None\"" ns = .ok (orders cfg.orders).toList := by
  have hp : parseExpr c!"orders if orders is not None else \"None\""
      = some (.ifelse (.name c!"orders") (.isNot (.name c!"orders") (.name c!"None")) (.str c!"None")) := by
    decide +kernel
  cases ho : cfg.orders with
  | none =>
    refine evalExpr_of (by decide +kernel) hp (v := .str c!"None") ?_ ?_
    · simp [PE.eval, getName, h.os, h.None, ho, builtin, ordersVal, Val.isNone, Val.truth]
    · simp [world, Val.toStr, orders]
  | some os =>
    refine evalExpr_of (by decide +kernel) hp (v := ordersVal (some os)) ?_ ?_
    · simp [PE.eval, getName, h.os, h.None, ho, builtin, ordersVal, Val.isNone, Val.truth]
    · rw [← repr_orders]
      rfl

theorem expr_name {o : List ℕ} (h : Base cfg ns) (ho : lookup c!"oo" ns = some (ordVal o)) :
    evalExpr WC c!"str(oo).strip(\"(\").strip(\")\").replace(\",\", \"\").replace(\" \", \"\")" ns
      = .ok (valName o) := by
  refine evalExpr_of (a := .meth (.meth (.meth (.meth (.call c!"str" (.cons none (.name c!"oo") .nil))
      c!"strip" (.cons none (.str c!"(") .nil)) c!"strip" (.cons none (.str c!")") .nil))
      c!"replace" (.cons none (.str c!",") (.cons none (.str []) .nil)))
      c!"replace" (.cons none (.str c!" ") (.cons none (.str []) .nil)))
    (by decide +kernel) (by decide +kernel) (v := .str (valName o)) ?_ rfl
  have hs : (ordVal o).toStr = (ordVal o).repr := rfl
  rw [← filter_inner, ← strip_name, ← hs]
  simp [PE.eval, PEs.eval, getName, h.str, ho, builtin, apply, method]

theorem natsOf_ints : ∀ (o : List ℕ), natsOf (o.map .int) = some o
  | [] => rfl
  | n :: o => by simp [natsOf, natsOf_ints o]

theorem expr_gv_vec (h : Base cfg ns) :
    evalExpr WC c!" get_values(d, multispline=True, k=k+1, i_x='i_x') " ns
      = .ok (expr (getValues cfg.d true (cfg.k + 1) none)).toList := by
  rw [← getValues_text]
  refine evalExpr_of (a := .call c!"get_values" (.cons none (.name c!"d") (.cons (some c!"multispline")
      (.name c!"True") (.cons (some c!"k") (.add (.name c!"k") (.int 1)) (.cons (some c!"i_x")
      (.str c!"i_x") .nil)))))
    (by decide +kernel) (by decide +kernel)
    (v := .str (getValuesText cfg.d true (cfg.k + 1) c!"i_x" none)) ?_ rfl
  simp [PE.eval, PEs.eval, getName, h.gv, h.d, h.k, h.True, builtin, apply, codegenFuns, callGetValues, kwArg,
    lookup_cons, lookup_nil]

theorem expr_gv_vec_orders {o : List ℕ} (h : Base cfg ns) (ho : lookup c!"oo" ns = some (ordVal o)) :
    evalExpr WC c!"get_values(d, multispline=True, i_x='i_x', k=k+1, diffs=oo)" ns
      = .ok (expr (getValues cfg.d true (cfg.k + 1) (some o))).toList := by
  rw [← getValues_text]
  refine evalExpr_of (a := .call c!"get_values" (.cons none (.name c!"d") (.cons (some c!"multispline")
      (.name c!"True") (.cons (some c!"i_x") (.str c!"i_x") (.cons (some c!"k") (.add (.name c!"k") (.int 1))
      (.cons (some c!"diffs") (.name c!"oo") .nil))))))
    (by decide +kernel) (by decide +kernel)
    (v := .str (getValuesText cfg.d true (cfg.k + 1) c!"i_x" (some o))) ?_ rfl
  simp [PE.eval, PEs.eval, getName, h.gv, h.d, h.k, h.True, builtin, apply, codegenFuns, callGetValues, kwArg,
    lookup_cons, lookup_nil, ho, ordVal, natsOf_ints]

theorem expr_gv_orders {o : List ℕ} (h : Base cfg ns) (ho : lookup c!"oo" ns = some (ordVal o)) :
    evalExpr WC c!"get_values(d, multispline=False, k=k+1, diffs=oo)" ns
      = .ok (expr (getValues cfg.d false (cfg.k + 1) (some o))).toList := by
  rw [← getValues_text]
  refine evalExpr_of (a := .call c!"get_values" (.cons none (.name c!"d") (.cons (some c!"multispline")
      (.name c!"False") (.cons (some c!"k") (.add (.name c!"k") (.int 1))
      (.cons (some c!"diffs") (.name c!"oo") .nil)))))
    (by decide +kernel) (by decide +kernel)
    (v := .str (getValuesText cfg.d false (cfg.k + 1) c!"i_x" (some o))) ?_ rfl
  simp [PE.eval, PEs.eval, getName, h.gv, h.d, h.k, h.False, builtin, apply, codegenFuns, callGetValues, kwArg,
    lookup_cons, lookup_nil, ho, ordVal, natsOf_ints]

theorem expr_gv (h : Base cfg ns) :
    evalExpr WC c!"get_values(d, multispline=False, k=k+1)" ns
      = .ok (expr (getValues cfg.d false (cfg.k + 1) none)).toList := by
  rw [← getValues_text]
  refine evalExpr_of (a := .call c!"get_values" (.cons none (.name c!"d") (.cons (some c!"multispline")
      (.name c!"False") (.cons (some c!"k") (.add (.name c!"k") (.int 1)) .nil))))
    (by decide +kernel) (by decide +kernel)
    (v := .str (getValuesText cfg.d false (cfg.k + 1) c!"i_x" none)) ?_ rfl
  simp [PE.eval, PEs.eval, getName, h.gv, h.d, h.k, h.False, builtin, apply, codegenFuns, callGetValues, kwArg,
    lookup_cons, lookup_nil]

/-! ### Conditions -/

theorem cond_vv (h : Base cfg ns) :
    ∃ v, WC.eval c!"vector_valued" ns = .ok v ∧ WC.truth v = cfg.vectorValued :=
  ⟨.bool cfg.vectorValued, eval_of (a := .name c!"vector_valued") (by decide +kernel)
    (by simp [PE.eval, getName, h.vv]), rfl⟩

theorem cond_al (h : Base cfg ns) : ∃ v, WC.eval c!"allocate" ns = .ok v ∧ WC.truth v = cfg.allocate :=
  ⟨.bool cfg.allocate, eval_of (a := .name c!"allocate") (by decide +kernel)
    (by simp [PE.eval, getName, h.al]), rfl⟩

theorem cond_os (h : Base cfg ns) :
    ∃ v, WC.eval c!"orders is None" ns = .ok v ∧ WC.truth v = cfg.orders.isNone := by
  refine ⟨.bool cfg.orders.isNone, eval_of (a := .is (.name c!"orders") (.name c!"None")) (by decide +kernel) ?_,
    rfl⟩
  cases ho : cfg.orders <;> simp [PE.eval, getName, h.os, h.None, builtin, ho, ordersVal, Val.isNone]

theorem cond_os' (h : Base cfg ns) :
    ∃ v, WC.eval c!"orders is not None" ns = .ok v ∧ WC.truth v = cfg.orders.isSome := by
  refine ⟨.bool cfg.orders.isSome, eval_of (a := .isNot (.name c!"orders") (.name c!"None"))
    (by decide +kernel) ?_, rfl⟩
  cases ho : cfg.orders <;> simp [PE.eval, getName, h.os, h.None, builtin, ho, ordersVal, Val.isNone]

theorem cond_inst (h : Base cfg ns) :
    ∃ v, WC.eval c!"isinstance(orders, (tuple, list))" ns = .ok v ∧ WC.truth v = cfg.orders.isSome := by
  refine ⟨.bool cfg.orders.isSome, eval_of (a := .call c!"isinstance" (.cons none (.name c!"orders")
    (.cons none (.tup (.cons none (.name c!"tuple") (.cons none (.name c!"list") .nil))) .nil)))
    (by decide +kernel) ?_, rfl⟩
  cases ho : cfg.orders <;> simp [PE.eval, PEs.eval, getName, h.os, h.isinstance, h.tuple, h.list, builtin, ho,
    ordersVal, apply, isInstance, isInstance1]

theorem cond_nearest (h : Base cfg ns) : ∃ v, WC.eval c!"extrap_mode == 'nearest'" ns = .ok v
    ∧ WC.truth v = decide (cfg.extrap = "nearest") := by
  refine ⟨.bool (decide (cfg.extrap = "nearest")), eval_of (a := .eq (.name c!"extrap_mode") (.str c!"nearest"))
    (by decide +kernel) ?_, rfl⟩
  have e : cfg.extrap.toList = c!"nearest" ↔ cfg.extrap = "nearest" := by
    rw [← String.toList_inj]; rfl
  simp [PE.eval, getName, h.em, Val.beq, ← e]
  exact Bool.eq_iff_iff.mpr (by simp)

theorem cond_constant (h : Base cfg ns) : ∃ v, WC.eval c!"extrap_mode == 'constant'" ns = .ok v
    ∧ WC.truth v = decide (cfg.extrap = "constant") := by
  refine ⟨.bool (decide (cfg.extrap = "constant")), eval_of (a := .eq (.name c!"extrap_mode") (.str c!"constant"))
    (by decide +kernel) ?_, rfl⟩
  have e : cfg.extrap.toList = c!"constant" ↔ cfg.extrap = "constant" := by
    rw [← String.toList_inj]; rfl
  simp [PE.eval, getName, h.em, Val.beq, ← e]
  exact Bool.eq_iff_iff.mpr (by simp)

theorem cond_uniform {i : ℕ} {t : GType} (h : Base cfg ns) (hi : lookup c!"i" ns = some (.int i))
    (ht : cfg.gridTypes[i]? = some t) :
    ∃ v, WC.eval c!"(not grid_types) or (grid_types[i]=='uniform')" ns = .ok v
      ∧ WC.truth v = decide (t = .uniform) := by
  refine ⟨.bool (decide (t = .uniform)), eval_of (a := .or (.not (.name c!"grid_types"))
    (.eq (.index (.name c!"grid_types") (.name c!"i")) (.str c!"uniform"))) (by decide +kernel) ?_, rfl⟩
  have hne : cfg.gridTypes ≠ [] := by rintro e; simp [e] at ht
  cases t <;> simp [PE.eval, getName, h.gt, hi, Val.at, ht, Val.beq, Val.truth, gtypeText, hne]

theorem cond_nonuniform {i : ℕ} {t : GType} (h : Base cfg ns) (hi : lookup c!"i" ns = some (.int i))
    (ht : cfg.gridTypes[i]? = some t) :
    ∃ v, WC.eval c!"grid_types[i]=='nonuniform'" ns = .ok v
      ∧ WC.truth v = decide (t = .nonuniform) := by
  refine ⟨.bool (decide (t = .nonuniform)), eval_of (a :=
    .eq (.index (.name c!"grid_types") (.name c!"i")) (.str c!"nonuniform")) (by decide +kernel) ?_, rfl⟩
  cases t <;> simp [PE.eval, getName, h.gt, hi, Val.at, ht, Val.beq, gtypeText]

/-! ### Iterables -/

theorem iter_axes (h : Base cfg ns) :
    ∃ v, WC.eval c!"range(d)" ns = .ok v ∧ WC.iter v = .ok ((List.range cfg.d).map .int) :=
  ⟨.list ((List.range cfg.d).map .int), eval_of (a := .call c!"range" (.cons none (.name c!"d") .nil))
    (by decide +kernel) (by simp [PE.eval, PEs.eval, getName, h.range, h.d, builtin, apply]), rfl⟩

theorem iter_orders {os : List (List ℕ)} (h : Base cfg ns) (ho : cfg.orders = some os) :
    ∃ v, WC.eval c!"orders" ns = .ok v ∧ WC.iter v = .ok (os.map ordVal) :=
  ⟨.tuple (os.map ordVal), eval_of (a := .name c!"orders")
    (by decide +kernel) (by simp only [PE.eval, getName, h.os, ho]; rfl), rfl⟩

/-- An element of `enumerate(orders)`. -/
def enumVal (p : ℕ × List ℕ) : Val := .tuple [.int p.1, ordVal p.2]

theorem iter_enumerate {os : List (List ℕ)} (h : Base cfg ns) (ho : cfg.orders = some os) :
    ∃ v, WC.eval c!"enumerate(orders)" ns = .ok v
      ∧ WC.iter v = .ok ((os.mapIdx fun j o => (j, o)).map enumVal) := by
  refine ⟨.list ((os.mapIdx fun j o => (j, o)).map enumVal), eval_of (a := .call c!"enumerate"
    (.cons none (.name c!"orders") .nil)) (by decide +kernel) ?_, rfl⟩
  have e : ((os.map ordVal).mapIdx fun i v => Val.tuple [.int i, v])
      = (os.mapIdx fun j o => (j, o)).map enumVal := by
    apply List.ext_getElem
    · simp
    · intro i h1 h2
      simp [enumVal]
  simp [PE.eval, PEs.eval, getName, h.enumerate, h.os, ho, builtin, apply, ordersVal_some, Val.items, e]

theorem iter_bases {i : ℕ} {ls : List ℕ} (h : Base cfg ns) (hi : lookup c!"i" ns = some (.int i))
    (hl : (basesOrders cfg.d cfg.orders)[i]? = some ls) :
    ∃ v, WC.eval c!"bases_orders[i]" ns = .ok v ∧ WC.iter v = .ok (ls.map .int) :=
  ⟨.list (ls.map .int), eval_of (a := .index (.name c!"bases_orders") (.name c!"i")) (by decide +kernel)
    (by simp [PE.eval, getName, h.bo, hi, Val.at, hl]), rfl⟩

theorem bases_error {i : ℕ} (h : Base cfg ns) (hi : lookup c!"i" ns = some (.int i))
    (hl : (basesOrders cfg.d cfg.orders)[i]? = none) :
    WC.eval c!"bases_orders[i]" ns = .error .index :=
  eval_of (a := .index (.name c!"bases_orders") (.name c!"i")) (by decide +kernel)
    (by simp [PE.eval, getName, h.bo, hi, Val.at, hl])

/-! ### Basis functions -/

theorem expr_blend1 {i l : ℕ} {t : Str} (h : Base cfg ns) (hi : lookup c!"i" ns = some (.int i))
    (hl : lookup c!"l" ns = some (.int l)) (ht : blendText cfg.k l i = .ok t) :
    evalExpr WC c!"indent(blending_formula(k,l,i=i),levels=1)" ns = .ok (indentText t 1) := by
  refine evalExpr_of (a := .call c!"indent" (.cons none (.call c!"blending_formula" (.cons none (.name c!"k")
    (.cons none (.name c!"l") (.cons (some c!"i") (.name c!"i") .nil)))) (.cons (some c!"levels") (.int 1) .nil)))
    (by decide +kernel) (by decide +kernel) (v := .str (indentText t 1)) ?_ rfl
  simp [PE.eval, PEs.eval, getName, h.ind, h.bf, h.k, hi, hl, apply, codegenFuns, lookup_cons, ht]

theorem expr_blend2 {i l : ℕ} {t : Str} (h : Base cfg ns) (hi : lookup c!"i" ns = some (.int i))
    (hl : lookup c!"l" ns = some (.int l)) (ht : blendText cfg.k l i = .ok t) :
    evalExpr WC c!"indent(blending_formula(k,l,i=i),levels=2)" ns = .ok (indentText t 2) := by
  refine evalExpr_of (a := .call c!"indent" (.cons none (.call c!"blending_formula" (.cons none (.name c!"k")
    (.cons none (.name c!"l") (.cons (some c!"i") (.name c!"i") .nil)))) (.cons (some c!"levels") (.int 2) .nil)))
    (by decide +kernel) (by decide +kernel) (v := .str (indentText t 2)) ?_ rfl
  simp [PE.eval, PEs.eval, getName, h.ind, h.bf, h.k, hi, hl, apply, codegenFuns, lookup_cons, ht]

theorem expr_blend1_error {i l : ℕ} {e : Err} (h : Base cfg ns) (hi : lookup c!"i" ns = some (.int i))
    (hl : lookup c!"l" ns = some (.int l)) (ht : blendText cfg.k l i = .error e) :
    evalExpr WC c!"indent(blending_formula(k,l,i=i),levels=1)" ns = .error e := by
  refine evalExpr_error_of (a := .call c!"indent" (.cons none (.call c!"blending_formula" (.cons none (.name c!"k")
    (.cons none (.name c!"l") (.cons (some c!"i") (.name c!"i") .nil)))) (.cons (some c!"levels") (.int 1) .nil)))
    (by decide +kernel) (by decide +kernel) ?_
  simp [PE.eval, PEs.eval, getName, h.ind, h.bf, h.k, hi, hl, apply, codegenFuns, lookup_cons, ht]

theorem expr_blend2_error {i l : ℕ} {e : Err} (h : Base cfg ns) (hi : lookup c!"i" ns = some (.int i))
    (hl : lookup c!"l" ns = some (.int l)) (ht : blendText cfg.k l i = .error e) :
    evalExpr WC c!"indent(blending_formula(k,l,i=i),levels=2)" ns = .error e := by
  refine evalExpr_error_of (a := .call c!"indent" (.cons none (.call c!"blending_formula" (.cons none (.name c!"k")
    (.cons none (.name c!"l") (.cons (some c!"i") (.name c!"i") .nil)))) (.cons (some c!"levels") (.int 2) .nil)))
    (by decide +kernel) (by decide +kernel) ?_
  simp [PE.eval, PEs.eval, getName, h.ind, h.bf, h.k, hi, hl, apply, codegenFuns, lookup_cons, ht]

end Interp.CodegenText
