import Verif.Proofs.CodegenSections

/-!
# The tensor reductions of the templates
-/

namespace Interp.CodegenText

open Tempita PyExpr Spec.Text Codegen

set_option maxRecDepth 4000
set_option linter.unusedSimpArgs false

theorem mapIdx_pairs {α β : Type} (f : ℕ → α → β) (l : List α) :
    l.mapIdx f = (l.mapIdx fun j a => (j, a)).map fun p => f p.1 p.2 := by
  apply List.ext_getElem
  · simp
  · intro i h1 h2
    simp

theorem blk_storeCompOrders (cfg : Cfg) (os : List (List ℕ)) (pad : String) :
    blk cfg pad [.storeCompOrders (os.map fun oo => (valName oo, getValues cfg.d true (cfg.k + 1) (some oo)))
        (os.map valName)]
      = [(pad ++ "for i_x in range(n_vals):").toList]
        ++ ((os.map (assignLine cfg (pad ++ "    ") true))
        ++ ((os.mapIdx fun j o => (j, o)).map (storeLine (pad ++ "    ") (row cfg ", " ++ "i_x, ")))) := by
  have h : ((os.map valName).mapIdx fun j v => s!"    out[{row cfg ", "}i_x, {j}] = val_{String.ofList v}")
      = (os.mapIdx fun j o => (j, o)).map
          fun p => s!"    out[{row cfg ", "}i_x, {p.1}] = val_{String.ofList (valName p.2)}" := by
    rw [← mapIdx_pairs (fun j o => s!"    out[{row cfg ", "}i_x, {j}] = val_{String.ofList (valName o)}")]
    apply List.ext_getElem
    · simp
    · intro i h1 h2
      simp
  simp only [blk, block, List.flatMap_cons, List.flatMap_nil, List.append_nil, stmt, h]
  unfold assignLine storeLine
  simp [Function.comp_def, String.toList_append]

theorem flatMap_single {α β : Type} (f : α → β) (l : List α) : l.flatMap (fun x => [f x]) = l.map f := by
  induction l with
  | nil => rfl
  | cons a l ih => simp [ih]

theorem blk_assigns (cfg : Cfg) (os : List (List ℕ)) (pad : String) :
    blk cfg pad (os.map fun oo => .assignVal (valName oo) (getValues cfg.d false (cfg.k + 1) (some oo)))
      = os.map (assignLine cfg pad false) := by
  rw [← flatMap_single, blk_flatMap, ← flatMap_single]
  rfl

theorem blk_stores (cfg : Cfg) (os : List (List ℕ)) (pad : String) :
    blk cfg pad (os.mapIdx fun j oo => .storeVal j (valName oo))
      = (os.mapIdx fun j o => (j, o)).map (storeLine pad (row cfg ",")) := by
  rw [mapIdx_pairs, ← flatMap_single, blk_flatMap, ← flatMap_single]
  rfl

/-- The condition on the orders, as cases. -/
theorem orders_none {cfg : Cfg} (h : cfg.orders.isNone = true) : cfg.orders = none := by simpa using h

theorem orders_some {cfg : Cfg} (h : cfg.orders.isNone = false) : ∃ os, cfg.orders = some os := by
  cases h' : cfg.orders <;> simp_all

theorem point11_lines (cfg : Cfg) (hv : cfg.vectorized = false) :
    GivesLines (Base cfg) (point11.run WC) (.ok (blk cfg "    " (genReducePoint cfg))) := by
  unfold point11 genReducePoint
  apply GivesLines.cond
  apply GivesLines.part cfg.vectorValued (fun ns h => cond_vv h) <;> intro hvv
  · rw [if_pos hvv, blk_append]
    apply GivesLines.skip
    refine GivesLines.cons_ok (.cond ?_) (.skip (only (.cond ?_)))
    · apply GivesLines.part _ (fun ns h => cond_os h) <;> intro ho
      · have ho' := orders_none ho
        rw [ho']
        clear ho
        apply GivesAcc.start
        collect
        apply GivesAcc.nil
        lines ((["", "    # compute tensor reductions"] : List String)
          ++ block cfg "    " [.storeComp (getValues cfg.d true (cfg.k + 1) none)] ++ [""])
      · obtain ⟨os, ho'⟩ := orders_some ho
        rw [ho']
        clear ho
        dsimp only
        rw [blk_storeCompOrders]
        apply GivesLines.els
        apply GivesAcc.start
        collect
        refine GivesAcc.flush_ok (by
          lines ["", "    # compute tensor reductions", "    for i_x in range(n_vals):"]) ?_
        refine GivesLines.cons_ok ?_ (.skip (only ?_))
        · rw [← flatMap_single]
          refine GivesLines.forIn_ok (AtO cfg) ordVal os (fun ns h => iter_orders h ho')
            (fun o _ ns h => bind_oo o h) (fun o _ ns h => h.base) (fun o _ => ?_)
          apply GivesAcc.start
          collect
          apply GivesAcc.nil
          lines [String.ofList (assignLine cfg "        " true o)]
        · rw [← flatMap_single]
          refine GivesLines.forIn_ok (AtJ cfg) enumVal _ (fun ns h => iter_enumerate h ho')
            (fun o _ ns h => bind_joo o h) (fun o _ ns h => h.base) (fun o _ => ?_)
          apply GivesAcc.start
          collect
          apply GivesAcc.nil
          lines [String.ofList (storeLine "        " "i_x, " o)]
    · apply GivesLines.part _ (fun ns h => cond_al h) <;> intro hal
      · rw [if_pos hal]
        apply GivesAcc.start
        collect
        apply GivesAcc.nil
        lines (block cfg "    " [.retOut])
      · rw [if_neg (by simp [hal])]
        exact .noParts
  · rw [hvv, if_neg (by simp)]
    apply GivesLines.els
    apply GivesLines.skip
    refine only (.cond ?_)
    apply GivesLines.part _ (fun ns h => cond_inst h) <;> intro ho
    · obtain ⟨os, ho'⟩ : ∃ os, cfg.orders = some os := by
        cases h' : cfg.orders <;> simp_all
      rw [ho']
      clear ho
      dsimp only
      rw [blk_append, blk_assigns]
      apply GivesLines.skip
      refine GivesLines.cons_ok ?_ (.skip (only (.cond ?_)))
      · rw [← flatMap_single]
        refine GivesLines.forIn_ok (AtO cfg) ordVal os (fun ns h => iter_orders h ho')
          (fun o _ ns h => bind_oo o h) (fun o _ ns h => h.base) (fun o _ => ?_)
        apply GivesAcc.start
        collect
        apply GivesAcc.nil
        lines [String.ofList (assignLine cfg "    " false o)]
      · apply GivesLines.part _ (fun ns h => cond_al h) <;> intro hal
        · rw [if_pos hal]
          have e : blk cfg "    " [.retTuple (os.map valName)] = [c!"    val = (\\"]
              ++ ((os.map fun o => (s!"    val_{String.ofList (valName o)},\\").toList)
              ++ [c!"    )", c!"    return val"]) := by
            simp [blk, block, stmt, Function.comp_def, String.toList_append]
          rw [e]
          clear e
          apply GivesAcc.start
          collect
          refine GivesAcc.flush_ok (by lines ["", "    val = (\\"]) ?_
          refine GivesLines.cons_ok ?_ ?_
          · rw [← flatMap_single]
            refine GivesLines.forIn_ok (AtO cfg) ordVal os (fun ns h => iter_orders h ho')
              (fun o _ ns h => bind_oo o h) (fun o _ ns h => h.base) (fun o _ => ?_)
            apply GivesAcc.start
            collect
            apply GivesAcc.nil
            lines [s!"    val_{String.ofList (valName o)},\\"]
          · apply GivesAcc.start
            collect
            apply GivesAcc.nil
            lines ["    )", "    return val", ""]
        · rw [if_neg (by simp [hal]), blk_stores]
          apply GivesLines.els
          apply GivesLines.skip
          refine only ?_
          rw [← flatMap_single]
          refine GivesLines.forIn_ok (AtK cfg) enumVal _ (fun ns h => iter_enumerate h ho')
            (fun o _ ns h => bind_ioo o h) (fun o _ ns h => h.base) (fun o _ => ?_)
          apply GivesAcc.start
          collect
          apply GivesAcc.nil
          lines [String.ofList (storeLine "    " "" o)]
    · have ho' : cfg.orders = none := by simpa using ho
      rw [ho']
      clear ho
      apply GivesLines.els
      apply GivesAcc.start
      collect
      apply GivesAcc.nil
      lines ("" :: block cfg "    " [.retVal (getValues cfg.d false (cfg.k + 1) none)] ++ [""])

theorem rows13_lines (cfg : Cfg) (hv : cfg.vectorized = true) :
    GivesLines (Base cfg) (rows13.run WC) (.ok (blk cfg "        " (genReduceVec cfg))) := by
  unfold rows13 genReduceVec
  apply GivesLines.cond
  apply GivesLines.part cfg.vectorValued (fun ns h => cond_vv h) <;> intro hvv
  · rw [if_pos hvv]
    apply GivesLines.skip
    refine only (.cond ?_)
    apply GivesLines.part _ (fun ns h => cond_os h) <;> intro ho
    · have ho' := orders_none ho
      rw [ho']
      clear ho
      apply GivesAcc.start
      collect
      apply GivesAcc.nil
      lines ((["", "        # compute tensor reductions"] : List String)
        ++ block cfg "        " [.storeComp (getValues cfg.d true (cfg.k + 1) none)] ++ [""])
    · obtain ⟨os, ho'⟩ := orders_some ho
      rw [ho']
      clear ho
      dsimp only
      rw [blk_storeCompOrders]
      apply GivesLines.els
      apply GivesAcc.start
      collect
      refine GivesAcc.flush_ok (by
        lines ["", "        # compute tensor reductions", "        for i_x in range(n_vals):"]) ?_
      refine GivesLines.cons_ok ?_ (.skip (only ?_))
      · rw [← flatMap_single]
        refine GivesLines.forIn_ok (AtO cfg) ordVal os (fun ns h => iter_orders h ho')
          (fun o _ ns h => bind_oo o h) (fun o _ ns h => h.base) (fun o _ => ?_)
        apply GivesAcc.start
        collect
        apply GivesAcc.nil
        lines [String.ofList (assignLine cfg "            " true o)]
      · rw [← flatMap_single]
        refine GivesLines.forIn_ok (AtJ cfg) enumVal _ (fun ns h => iter_enumerate h ho')
          (fun o _ ns h => bind_joo o h) (fun o _ ns h => h.base) (fun o _ => ?_)
        apply GivesAcc.start
        collect
        apply GivesAcc.nil
        lines [String.ofList (storeLine "            " "nn, i_x, " o)]
  · rw [hvv, if_neg (by simp)]
    apply GivesLines.els
    apply GivesLines.skip
    refine only (.cond ?_)
    apply GivesLines.part _ (fun ns h => cond_inst h) <;> intro ho
    · obtain ⟨os, ho'⟩ : ∃ os, cfg.orders = some os := by
        cases h' : cfg.orders <;> simp_all
      rw [ho']
      clear ho
      dsimp only
      rw [blk_append, blk_assigns, blk_stores]
      apply GivesLines.skip
      refine GivesLines.cons_ok ?_ (.skip (only ?_))
      · rw [← flatMap_single]
        refine GivesLines.forIn_ok (AtO cfg) ordVal os (fun ns h => iter_orders h ho')
          (fun o _ ns h => bind_oo o h) (fun o _ ns h => h.base) (fun o _ => ?_)
        apply GivesAcc.start
        collect
        apply GivesAcc.nil
        lines [String.ofList (assignLine cfg "        " false o)]
      · rw [← flatMap_single]
        refine GivesLines.forIn_ok (AtJ cfg) enumVal _ (fun ns h => iter_enumerate h ho')
          (fun o _ ns h => bind_joo o h) (fun o _ ns h => h.base) (fun o _ => ?_)
        apply GivesAcc.start
        collect
        apply GivesAcc.nil
        lines [String.ofList (storeLine "        " "nn," o)]
    · have ho' : cfg.orders = none := by simpa using ho
      rw [ho']
      clear ho
      apply GivesLines.els
      apply GivesAcc.start
      collect
      apply GivesAcc.nil
      lines ("" :: block cfg "        " [.storeScalar (getValues cfg.d false (cfg.k + 1) none)] ++ [""])

end Interp.CodegenText
