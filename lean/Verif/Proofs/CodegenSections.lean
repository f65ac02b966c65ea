import Verif.Proofs.CodegenExprs

/-!
# Sections of the templates

Each part of the two templates prints the lines of the corresponding statements of the model.
-/

namespace Interp.CodegenText

open Tempita PyExpr Spec.Text Codegen

set_option maxRecDepth 4000
set_option linter.unusedSimpArgs false

/-! ### Blocks -/

/-- Lines of a block as character lists. -/
def blk (cfg : Cfg) (pad : String) (ss : List Stmt) : List Str := (block cfg pad ss).map String.toList

variable {cfg : Cfg} {pad : String}

@[simp] theorem blk_nil : blk cfg pad [] = [] := rfl

theorem blk_append (as bs : List Stmt) : blk cfg pad (as ++ bs) = blk cfg pad as ++ blk cfg pad bs := by
  simp [blk, block]

theorem blk_cons (a : Stmt) (bs : List Stmt) : blk cfg pad (a :: bs) = blk cfg pad [a] ++ blk cfg pad bs := by
  simp [blk, block]

theorem blk_flatMap {α : Type} (xs : List α) (f : α → List Stmt) :
    blk cfg pad (xs.flatMap f) = xs.flatMap fun x => blk cfg pad (f x) := by
  induction xs with
  | nil => rfl
  | cons x xs ih => rw [List.flatMap_cons, blk_append, ih, List.flatMap_cons]

/-! ### Namespaces inside the loops -/

theorem Base.base {ns : NS} (h : Base cfg ns) : Base cfg ns := h

/-- In a loop over the axes. -/
structure AtI (cfg : Cfg) (i : ℕ) (ns : NS) : Prop where
  base : Base cfg ns
  i : lookup c!"i" ns = some (.int i)

/-- In the loop over the derivatives of an axis. -/
structure AtL (cfg : Cfg) (i l : ℕ) (ns : NS) : Prop extends AtI cfg i ns where
  l : lookup c!"l" ns = some (.int l)

/-- In a loop over the orders. -/
structure AtO (cfg : Cfg) (o : List ℕ) (ns : NS) : Prop where
  base : Base cfg ns
  oo : lookup c!"oo" ns = some (ordVal o)

/-- In a loop over the enumerated orders, counter `j`. -/
structure AtJ (cfg : Cfg) (p : ℕ × List ℕ) (ns : NS) : Prop where
  base : Base cfg ns
  oo : lookup c!"oo" ns = some (ordVal p.2)
  j : lookup c!"j" ns = some (.int p.1)

/-- In a loop over the enumerated orders, counter `i`. -/
structure AtK (cfg : Cfg) (p : ℕ × List ℕ) (ns : NS) : Prop where
  base : Base cfg ns
  oo : lookup c!"oo" ns = some (ordVal p.2)
  i : lookup c!"i" ns = some (.int p.1)

theorem bind_i {ns : NS} (i : ℕ) (h : Base cfg ns) :
    ∃ ns', bindVars WC [c!"i"] (.int i) ns = .ok ns' ∧ AtI cfg i ns' :=
  ⟨_, rfl, h.set .i _, by simp [WC, world, lookup_cons]⟩

theorem bind_l {ns : NS} (i l : ℕ) (h : AtI cfg i ns) :
    ∃ ns', bindVars WC [c!"l"] (.int l) ns = .ok ns' ∧ AtL cfg i l ns' :=
  ⟨_, rfl, ⟨h.base.set .l _, by simp [WC, world, lookup_cons, h.i]⟩, by simp [WC, world, lookup_cons]⟩

theorem bind_oo {ns : NS} (o : List ℕ) (h : Base cfg ns) :
    ∃ ns', bindVars WC [c!"oo"] (ordVal o) ns = .ok ns' ∧ AtO cfg o ns' :=
  ⟨_, rfl, h.set .oo _, by simp [WC, world, lookup_cons]⟩

theorem bind_joo {ns : NS} (p : ℕ × List ℕ) (h : Base cfg ns) :
    ∃ ns', bindVars WC [c!"j", c!"oo"] (enumVal p) ns = .ok ns' ∧ AtJ cfg p ns' :=
  ⟨(c!"oo", ordVal p.2) :: (c!"j", .int p.1) :: ns, rfl, (h.set .j _).set .oo _,
    by simp [lookup_cons], by simp [lookup_cons]⟩

theorem bind_ioo {ns : NS} (p : ℕ × List ℕ) (h : Base cfg ns) :
    ∃ ns', bindVars WC [c!"i", c!"oo"] (enumVal p) ns = .ok ns' ∧ AtK cfg p ns' :=
  ⟨(c!"oo", ordVal p.2) :: (c!"i", .int p.1) :: ns, rfl, (h.set .i _).set .oo _,
    by simp [lookup_cons], by simp [lookup_cons]⟩

/-- A last node followed by an empty text chunk. -/
theorem only {P : NS → Prop} {W : World Val NS} {n : Node} {r : Except TErr (List Str)}
    (h : GivesLines P (n.run W) r) : GivesLines P ((Nodes.cons n (.cons (.text []) .nil)).run W) r := by
  have := GivesLines.cons h (.skip (.nil (W := W)))
  cases r <;> simpa using this

/-! ### Tactics -/

/-- Lines of the assignments of a vector-valued reduction. -/
def assignLine (cfg : Cfg) (pad : String) (vec : Bool) (o : List ℕ) : Str :=
  (pad ++ s!"val_{String.ofList (valName o)} = {expr (getValues cfg.d vec (cfg.k + 1) (some o))}").toList

/-- Lines storing a value. -/
def storeLine (pad pre : String) (p : ℕ × List ℕ) : Str :=
  (pad ++ s!"out[{pre}{p.1}] = val_{String.ofList (valName p.2)}").toList

theorem newline_not_mem_digits (n : ℕ) : '\n' ∉ Nat.toDigits 10 n := newline_not_mem_dec n

/-- Collect the text of a straight piece of template. -/
macro "collect" : tactic => `(tactic|
  repeat (first
    | with_reducible apply GivesAcc.text
    | (with_reducible apply GivesAcc.expr; · exact fun ns h => expr_i h.i)
    | (with_reducible apply GivesAcc.expr; · exact fun ns h => expr_j h.j)
    | (with_reducible apply GivesAcc.expr; · exact fun ns h => expr_d h.base)
    | (with_reducible apply GivesAcc.expr; · exact fun ns h => expr_name h.base h.oo)
    | (with_reducible apply GivesAcc.expr; · exact fun ns h => expr_gv_vec h.base)
    | (with_reducible apply GivesAcc.expr; · exact fun ns h => expr_gv h.base)
    | (with_reducible apply GivesAcc.expr; · exact fun ns h => expr_gv_orders h.base h.oo)
    | (with_reducible apply GivesAcc.expr; · exact fun ns h => expr_gv_vec_orders h.base h.oo)
    | (with_reducible apply GivesAcc.expr; · exact fun ns h => expr_orders h.base)
    | (with_reducible apply GivesAcc.expr; · exact fun ns h => expr_len h.base (by assumption))))

/-- The lines of a text. -/
syntax "lines " term : tactic
macro_rules
  | `(tactic| lines $ls) => `(tactic|
      refine IsLines.mk (($ls : List String).map String.toList)
        (by simp [unlines, dec, Nat.repr, String.toList_append, blk, block, stmt, row, phi, Spec.Text.guard, assignLine, storeLine, *])
        (by simp [Nat.repr, String.toList_append, newline_not_mem_digits, newline_expr, newline_orders,
              newline_valName, blk, block, stmt, row, phi, Spec.Text.guard, assignLine, storeLine, *])
        (by simp [ignored, Nat.repr, String.toList_append, List.filter, blk, block, stmt, row, phi, Spec.Text.guard, assignLine, storeLine, *]))

/-! ### The single-point template -/

theorem point1_lines (cfg : Cfg) :
    GivesLines (Base cfg) (point1.run WC) (.ok (blk cfg "    " (genAllocPoint cfg))) := by
  unfold point1 genAllocPoint
  apply GivesLines.cond
  apply GivesLines.part cfg.vectorValued (fun ns h => cond_vv h) <;> intro hvv
  · rw [if_pos hvv, blk_append]
    apply GivesAcc.start
    collect
    refine GivesAcc.flush_ok (by lines (block cfg "    " [.readNVals cfg.d])) ?_
    refine only (.cond ?_)
    apply GivesLines.part cfg.allocate (fun ns h => cond_al h) <;> intro hal
    · rw [if_pos hal]
      apply GivesLines.skip
      refine only (.cond ?_)
      apply GivesLines.part cfg.orders.isNone (fun ns h => cond_os h) <;> intro ho
      · have ho' : cfg.orders = none := by simpa using ho
        apply GivesAcc.start
        collect
        apply GivesAcc.nil
        rw [ho']
        lines (block cfg "    " [.alloc .vals])
      · obtain ⟨os, ho'⟩ : ∃ os, cfg.orders = some os := by
          cases h : cfg.orders <;> simp_all
        apply GivesLines.els
        apply GivesAcc.start
        collect
        apply GivesAcc.nil
        rw [ho']
        lines (block cfg "    " [.alloc (.valsOrders os.length)])
    · rw [hal]
      exact .noParts
  · rw [hvv, if_neg (by simp)]
    apply GivesLines.els
    apply GivesLines.skip
    refine only (.cond ?_)
    apply GivesLines.part cfg.allocate (fun ns h => cond_al h) <;> intro hal
    · rw [if_pos hal]
      apply GivesLines.skip
      refine only (.cond ?_)
      apply GivesLines.part cfg.orders.isSome (fun ns h => cond_os' h) <;> intro ho
      · obtain ⟨os, ho'⟩ : ∃ os, cfg.orders = some os := by
          cases h : cfg.orders <;> simp_all
        apply GivesAcc.start
        collect
        apply GivesAcc.nil
        rw [ho']
        lines (block cfg "    " [.alloc (.orders os.length)])
      · have ho' : cfg.orders = none := by simpa using ho
        rw [ho']
        exact .noParts
    · rw [hal]
      exact .noParts

theorem point3_lines (cfg : Cfg) (hg : cfg.gridTypes.length = cfg.d) :
    GivesLines (Base cfg) (point3.run WC) (.ok (blk cfg "    " (genRecover cfg false))) := by
  unfold point3 genRecover
  rw [blk_flatMap]
  refine GivesLines.forIn_ok (AtI cfg) .int (List.range cfg.d) (fun ns h => iter_axes h)
    (fun i _ ns h => bind_i i h) (fun i _ ns h => h.base) (fun i hi => ?_)
  have hi' : i < cfg.gridTypes.length := by rw [hg]; exact List.mem_range.mp hi
  have hgt := List.getElem?_eq_getElem hi'
  generalize cfg.gridTypes[i] = t at hgt
  rw [hgt]
  apply GivesLines.skip
  refine only (.cond ?_)
  apply GivesLines.part _ (fun ns h => cond_uniform h.base h.i hgt) <;> intro ht
  · have ht' : t = .uniform := by simpa using ht
    subst ht'
    apply GivesAcc.start
    collect
    apply GivesAcc.nil
    clear * -
    lines (s!"    # dim {i}: uniform" :: block cfg "    " [.recoverUniform i])
  · have ht' : t = .nonuniform := by cases t <;> simp_all
    subst ht'
    refine GivesLines.yes (fun ns h => cond_nonuniform h.base h.i hgt) ?_
    apply GivesAcc.start
    collect
    apply GivesAcc.nil
    clear * -
    lines (s!"    # dim {i}: nonuniform" :: block cfg "    " [.recoverNonuniform i false])

theorem point5_lines (cfg : Cfg) (hv : cfg.vectorized = false) :
    GivesLines (Base cfg) (point5.run WC) (.ok (blk cfg "    " (genCoords cfg (pointGuard cfg)))) := by
  unfold point5 genCoords
  rw [blk_flatMap]
  refine GivesLines.forIn_ok (AtI cfg) .int (List.range cfg.d) (fun ns h => iter_axes h)
    (fun i _ ns h => bind_i i h) (fun i _ ns h => h.base) (fun i hi => ?_)
  clear hi
  rw [blk_append, blk_append, List.append_assoc]
  apply GivesAcc.start
  collect
  refine GivesAcc.flush_ok (by lines (block cfg "    " [.loadX i])) ?_
  refine GivesLines.cons_ok (.cond ?_) (.skip ?_)
  · apply GivesLines.part _ (fun ns h => cond_nearest h.base) <;> intro he
    · rw [if_pos (by simpa using he)]
      clear he
      apply GivesAcc.start
      collect
      apply GivesAcc.nil
      lines (block cfg "    " [.clampNearest i])
    · rw [if_neg (by simpa using he)]
      exact .noParts
  · refine only (.cond ?_)
    apply GivesLines.part _ (fun ns h => cond_constant h.base) <;> intro he
    · rw [if_pos (by simpa using he)]
      clear he
      have e : blk cfg "    " [.constGuard i (pointGuard cfg)]
          = [(s!"    if (x_{i}<a_{i}) or (x_{i}>b_{i}):").toList]
            ++ ((Spec.Text.guard cfg (pointGuard cfg)).map fun l => ("        " ++ l).toList) := by
        have : ∀ l : String, "    " ++ ("    " ++ l) = "        " ++ l := fun l => by
          rw [← String.append_assoc]; rfl
        simp [blk, block, stmt, Function.comp_def, this]
      rw [e]
      clear e
      apply GivesAcc.start
      collect
      refine GivesAcc.flush_ok (by lines [s!"    if (x_{i}<a_{i}) or (x_{i}>b_{i}):"]) ?_
      refine only (.cond ?_)
      unfold pointGuard
      apply GivesLines.part _ (fun ns h => cond_vv h.base) <;> intro hvv
      · rw [if_pos hvv]
        have e : (Spec.Text.guard cfg (if cfg.allocate = true then GuardBody.zeroReturn else GuardBody.zeroFall)).map
              (fun l => ("        " ++ l).toList)
            = [c!"        out[:] = 0.0"] ++ (if cfg.allocate then [c!"        return out"] else []) := by
          split_ifs <;> simp [Spec.Text.guard, String.toList_append]
        rw [e]
        clear e
        apply GivesAcc.start
        collect
        refine GivesAcc.flush_ok (by lines ["        out[:] = 0.0"]) ?_
        refine only (.cond ?_)
        apply GivesLines.part _ (fun ns h => cond_al h.base) <;> intro hal
        · rw [if_pos hal]
          apply GivesAcc.start
          collect
          apply GivesAcc.nil
          lines ["        return out"]
        · rw [if_neg (by simp [hal])]
          exact .noParts
      · rw [hvv, if_neg (by simp)]
        apply GivesLines.els
        apply GivesAcc.start
        collect
        apply GivesAcc.nil
        lines ["        val = 0.0", "        return val"]
    · rw [if_neg (by simpa using he)]
      exact .noParts

theorem point7_lines (cfg : Cfg) (hg : cfg.gridTypes.length = cfg.d) :
    GivesLines (Base cfg) (point7.run WC) (.ok (blk cfg "    " (genLocate cfg))) := by
  unfold point7 genLocate
  rw [blk_flatMap]
  refine GivesLines.forIn_ok (AtI cfg) .int (List.range cfg.d) (fun ns h => iter_axes h)
    (fun i _ ns h => bind_i i h) (fun i _ ns h => h.base) (fun i hi => ?_)
  have hi' : i < cfg.gridTypes.length := by rw [hg]; exact List.mem_range.mp hi
  have hgt := List.getElem?_eq_getElem hi'
  generalize cfg.gridTypes[i] = t at hgt
  rw [hgt]
  apply GivesLines.skip
  refine only (.cond ?_)
  apply GivesLines.part _ (fun ns h => cond_uniform h.base h.i hgt) <;> intro ht
  · have ht' : t = .uniform := by simpa using ht
    subst ht'
    apply GivesAcc.start
    collect
    apply GivesAcc.nil
    clear * -
    lines (s!"    # dimension {i}: uniform grid" :: block cfg "    " [.locateUniform i])
  · have ht' : t = .nonuniform := by cases t <;> simp_all
    subst ht'
    refine GivesLines.yes (fun ns h => cond_nonuniform h.base h.i hgt) ?_
    apply GivesAcc.start
    collect
    apply GivesAcc.nil
    clear * -
    lines (s!"    # dimension {i}: nonuniform grid" :: block cfg "    " [.locateNonuniform i])

/-! ### The vectorised template -/

theorem rows1_lines (cfg : Cfg) : GivesLines (Base cfg) (rows1.run WC)
    (.ok (blk cfg "    " (if cfg.vectorValued then [.readNVals cfg.d] else []))) := by
  unfold rows1
  apply GivesLines.cond
  apply GivesLines.part cfg.vectorValued (fun ns h => cond_vv h) <;> intro hvv
  · rw [if_pos hvv]
    apply GivesAcc.start
    collect
    apply GivesAcc.nil
    lines (block cfg "    " [.readNVals cfg.d])
  · rw [if_neg (by simp [hvv])]
    exact .noParts

theorem rows3_lines (cfg : Cfg) : GivesLines (Base cfg) (rows3.run WC)
    (.ok (blk cfg "    " (if cfg.allocate then
      [.allocateOutput cfg.vectorValued (cfg.orders.map List.length)] else []))) := by
  unfold rows3
  apply GivesLines.cond
  apply GivesLines.part cfg.allocate (fun ns h => cond_al h) <;> intro hal
  · rw [if_pos hal]
    apply GivesAcc.start
    collect
    apply GivesAcc.nil
    lines (block cfg "    " [.allocateOutput cfg.vectorValued (cfg.orders.map List.length)])
  · rw [if_neg (by simp [hal])]
    exact .noParts

theorem rows5_lines (cfg : Cfg) (hg : cfg.gridTypes.length = cfg.d) :
    GivesLines (Base cfg) (rows5.run WC) (.ok (blk cfg "    " (genRecover cfg true))) := by
  unfold rows5 genRecover
  rw [blk_flatMap]
  refine GivesLines.forIn_ok (AtI cfg) .int (List.range cfg.d) (fun ns h => iter_axes h)
    (fun i _ ns h => bind_i i h) (fun i _ ns h => h.base) (fun i hi => ?_)
  have hi' : i < cfg.gridTypes.length := by rw [hg]; exact List.mem_range.mp hi
  have hgt := List.getElem?_eq_getElem hi'
  generalize cfg.gridTypes[i] = t at hgt
  rw [hgt]
  apply GivesLines.skip
  refine only (.cond ?_)
  apply GivesLines.part _ (fun ns h => cond_uniform h.base h.i hgt) <;> intro ht
  · have ht' : t = .uniform := by simpa using ht
    subst ht'
    apply GivesAcc.start
    collect
    apply GivesAcc.nil
    clear * -
    lines (s!"    # dim {i}: uniform" :: block cfg "    " [.recoverUniform i])
  · have ht' : t = .nonuniform := by cases t <;> simp_all
    subst ht'
    refine GivesLines.yes (fun ns h => cond_nonuniform h.base h.i hgt) ?_
    apply GivesAcc.start
    collect
    apply GivesAcc.nil
    clear * -
    lines (s!"    # dim {i}: nonuniform" :: block cfg "    " [.recoverNonuniform i true])

theorem rows9_lines (cfg : Cfg) (hg : cfg.gridTypes.length = cfg.d) :
    GivesLines (Base cfg) (rows9.run WC) (.ok (blk cfg "        " (genLocate cfg))) := by
  unfold rows9 genLocate
  rw [blk_flatMap]
  refine GivesLines.forIn_ok (AtI cfg) .int (List.range cfg.d) (fun ns h => iter_axes h)
    (fun i _ ns h => bind_i i h) (fun i _ ns h => h.base) (fun i hi => ?_)
  have hi' : i < cfg.gridTypes.length := by rw [hg]; exact List.mem_range.mp hi
  have hgt := List.getElem?_eq_getElem hi'
  generalize cfg.gridTypes[i] = t at hgt
  rw [hgt]
  apply GivesLines.skip
  refine only (.cond ?_)
  apply GivesLines.part _ (fun ns h => cond_uniform h.base h.i hgt) <;> intro ht
  · have ht' : t = .uniform := by simpa using ht
    subst ht'
    apply GivesAcc.start
    collect
    apply GivesAcc.nil
    clear * -
    lines (s!"        # dimension {i}: uniform grid" :: block cfg "        " [.locateUniform i])
  · have ht' : t = .nonuniform := by cases t <;> simp_all
    subst ht'
    refine GivesLines.yes (fun ns h => cond_nonuniform h.base h.i hgt) ?_
    apply GivesAcc.start
    collect
    apply GivesAcc.nil
    clear * -
    lines (s!"        # dimension {i}: nonuniform grid" :: block cfg "        " [.locateNonuniform i])

theorem rows7_lines (cfg : Cfg) (hv : cfg.vectorized = true) :
    GivesLines (Base cfg) (rows7.run WC) (.ok (blk cfg "        " (genCoords cfg .zeroContinue))) := by
  unfold rows7 genCoords
  rw [blk_flatMap]
  refine GivesLines.forIn_ok (AtI cfg) .int (List.range cfg.d) (fun ns h => iter_axes h)
    (fun i _ ns h => bind_i i h) (fun i _ ns h => h.base) (fun i hi => ?_)
  clear hi
  rw [blk_append, blk_append, List.append_assoc]
  apply GivesAcc.start
  collect
  refine GivesAcc.flush_ok (by lines (block cfg "        " [.loadX i])) ?_
  refine GivesLines.cons_ok (.cond ?_) (.skip ?_)
  · apply GivesLines.part _ (fun ns h => cond_nearest h.base) <;> intro he
    · rw [if_pos (by simpa using he)]
      clear he
      apply GivesAcc.start
      collect
      apply GivesAcc.nil
      lines (block cfg "        " [.clampNearest i])
    · rw [if_neg (by simpa using he)]
      exact .noParts
  · refine only (.cond ?_)
    apply GivesLines.part _ (fun ns h => cond_constant h.base) <;> intro he
    · rw [if_pos (by simpa using he)]
      clear he
      have e : blk cfg "        " [.constGuard i .zeroContinue]
          = [(s!"        if (x_{i}<a_{i}) or (x_{i}>b_{i}):").toList]
            ++ ([if cfg.vectorValued then c!"            out[nn,:] = 0.0" else c!"            out[nn] = 0.0"]
              ++ [c!"            continue"]) := by
        cases h : cfg.vectorValued <;> simp [blk, block, stmt, Spec.Text.guard, h, String.toList_append]
      rw [e]
      clear e
      apply GivesAcc.start
      collect
      refine GivesAcc.flush_ok (by lines [s!"        if (x_{i}<a_{i}) or (x_{i}>b_{i}):"]) ?_
      refine GivesLines.cons_ok (.cond ?_) ?_
      · apply GivesLines.part _ (fun ns h => cond_vv h.base) <;> intro hvv
        · rw [if_pos hvv]
          apply GivesAcc.start
          collect
          apply GivesAcc.nil
          lines ["            out[nn,:] = 0.0"]
        · rw [hvv, if_neg (by simp)]
          apply GivesLines.els
          apply GivesAcc.start
          collect
          apply GivesAcc.nil
          lines ["            out[nn] = 0.0"]
      · apply GivesAcc.start
        collect
        apply GivesAcc.nil
        lines ["            continue"]
    · rw [if_neg (by simpa using he)]
      exact .noParts

theorem rows15_lines (cfg : Cfg) : GivesLines (Base cfg) (rows15.run WC)
    (.ok (if cfg.allocate then [c!"    return out"] else [])) := by
  unfold rows15
  apply GivesLines.cond
  apply GivesLines.part cfg.allocate (fun ns h => cond_al h) <;> intro hal
  · rw [if_pos hal]
    apply GivesAcc.start
    collect
    apply GivesAcc.nil
    lines ["    return out"]
  · rw [if_neg (by simp [hal])]
    exact .noParts

end Interp.CodegenText
