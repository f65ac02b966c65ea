import Verif.Proofs.TemplateRun
import Verif.Proofs.TemplateTree

/-!
# Lines printed by the templates

Rules that collect pending text until a line is complete, values of the expressions of the templates, and
the namespaces in which they are evaluated.
-/

namespace Interp.Tempita

open Spec.Text

variable {V NS : Type} {W : World V NS} {P : NS → Prop}

/-- Lines printed after the pending text `t`. -/
def GivesAcc (P : NS → Prop) (t : Str) (run : St V NS → St V NS × Stat) (r : Except TErr (List Str)) : Prop :=
  ∃ u, Outcome P run u ∧ SameLines (do let x ← u; pure (t ++ x)) r

theorem GivesAcc.start {run : St V NS → St V NS × Stat} {r : Except TErr (List Str)}
    (h : GivesAcc P [] run r) : GivesLines P run r := by
  obtain ⟨u, hu, hs⟩ := h
  refine ⟨u, hu, ?_⟩
  cases u <;> simpa using hs

theorem GivesAcc.nil {t : Str} {L : List Str} (h : IsLines t L) :
    GivesAcc P t (Nodes.nil.run W) (.ok L) := ⟨.ok [], GivesL.nil, by simpa [SameLines] using h⟩

theorem GivesAcc.text {t s : Str} {ns : Nodes} {r : Except TErr (List Str)}
    (h : GivesAcc P (t ++ s) (ns.run W) r) : GivesAcc P t ((Nodes.cons (.text s) ns).run W) r := by
  obtain ⟨u, hu, hs⟩ := h
  refine ⟨_, GivesL.cons (Gives.text s) hu, ?_⟩
  cases u <;> simpa using hs

theorem GivesAcc.expr {t s e : Str} {pos : Pos} {ns : Nodes} {r : Except TErr (List Str)}
    (he : ∀ ns, P ns → evalExpr W e ns = .ok s)
    (h : GivesAcc P (t ++ s) (ns.run W) r) : GivesAcc P t ((Nodes.cons (.expr pos e) ns).run W) r := by
  obtain ⟨u, hu, hs⟩ := h
  refine ⟨_, GivesL.cons (Gives.expr he) hu, ?_⟩
  cases u <;> simpa using hs

theorem GivesAcc.expr_error {t e : Str} {pos : Pos} {ns : Nodes} {er : Err}
    (he : ∀ ns, P ns → evalExpr W e ns = .error er) :
    GivesAcc P t ((Nodes.cons (.expr pos e) ns).run W) (.error (.python er)) := by
  refine ⟨.error (.python er), fun out ns inh hp => ⟨⟨out, ns, inh⟩, ?_⟩, rfl⟩
  simp [Nodes.run, Node.run, he ns hp]

/-- The pending text consists of whole lines. -/
theorem GivesAcc.flush {t : Str} {L : List Str} {run : St V NS → St V NS × Stat}
    {r : Except TErr (List Str)} (hl : IsLines t L) (h : GivesLines P run r) :
    GivesAcc P t run (do let M ← r; pure (L ++ M)) := by
  obtain ⟨u, hu, hs⟩ := h
  refine ⟨u, hu, ?_⟩
  cases u <;> cases r <;> simp_all [SameLines]
  exact hl.append hs

theorem GivesAcc.flush_ok {t : Str} {L M : List Str} {run : St V NS → St V NS × Stat}
    (hl : IsLines t L) (h : GivesLines P run (.ok M)) : GivesAcc P t run (.ok (L ++ M)) :=
  GivesAcc.flush hl h

theorem GivesLines.part {pos : Pos} {e : Str} {b : Nodes} {ps : Parts} {r : Except TErr (List Str)}
    (c : Bool) (he : ∀ ns, P ns → ∃ v, W.eval e ns = .ok v ∧ W.truth v = c)
    (h1 : c = true → GivesLines P (b.run W) r) (h2 : c = false → GivesLines P (ps.run W) r) :
    GivesLines P ((Parts.cons (some e) pos b ps).run W) r := by
  cases c with
  | true => exact .yes he (h1 rfl)
  | false => exact .no he (h2 rfl)

end Interp.Tempita

namespace Interp.CodegenText

open Tempita PyExpr Spec.Text Codegen

/-! ### Namespaces -/

theorem lookup_cons (x y : Str) (v : Val) (ns : NS) :
    lookup x ((y, v) :: ns) = if y = x then some v else lookup x ns := by
  unfold lookup
  by_cases h : y = x <;> simp [h]

theorem lookup_nil (x : Str) : lookup x [] = none := rfl

/-- The namespace has the bindings of `namespace0 cfg`, and no others matter. -/
structure Base (cfg : Cfg) (ns : NS) : Prop where
  d : lookup c!"d" ns = some (.int cfg.d)
  vv : lookup c!"vector_valued" ns = some (.bool cfg.vectorValued)
  gv : lookup c!"get_values" ns = some (.func (.user c!"get_values"))
  al : lookup c!"allocate" ns = some (.bool cfg.allocate)
  gt : lookup c!"grid_types" ns = some (.list (cfg.gridTypes.map fun t => .str (gtypeText t)))
  em : lookup c!"extrap_mode" ns = some (.str cfg.extrap.toList)
  os : lookup c!"orders" ns = some (ordersVal cfg.orders)
  bo : lookup c!"bases_orders" ns
    = some (.list ((basesOrders cfg.d cfg.orders).map fun l => .list (l.map .int)))
  bf : lookup c!"blending_formula" ns = some (.func (.user c!"blending_formula"))
  ind : lookup c!"indent" ns = some (.func (.user c!"indent"))
  k : lookup c!"k" ns = some (.int cfg.k)
  range : lookup c!"range" ns = none
  len : lookup c!"len" ns = none
  enumerate : lookup c!"enumerate" ns = none
  str : lookup c!"str" ns = none
  isinstance : lookup c!"isinstance" ns = none
  tuple : lookup c!"tuple" ns = none
  list : lookup c!"list" ns = none
  None : lookup c!"None" ns = none
  True : lookup c!"True" ns = none
  False : lookup c!"False" ns = none

theorem base_namespace0 (cfg : Cfg) : Base cfg (namespace0 cfg) := by
  constructor <;> simp [namespace0, lookup_cons, lookup]

/-- The loop variables of the templates. -/
inductive LoopVar : Str → Prop
  | i : LoopVar c!"i"
  | l : LoopVar c!"l"
  | j : LoopVar c!"j"
  | oo : LoopVar c!"oo"

theorem Base.set {cfg : Cfg} {ns : NS} (h : Base cfg ns) {x : Str} (hx : LoopVar x) (v : Val) :
    Base cfg ((x, v) :: ns) := by
  cases hx <;> (constructor <;> simp [lookup_cons, h.d, h.vv, h.gv, h.al, h.gt, h.em, h.os, h.bo, h.bf, h.ind,
    h.k, h.range, h.len, h.enumerate, h.str, h.isinstance, h.tuple, h.list, h.None, h.True, h.False])

/-! ### Values of expressions -/

theorem evalExpr_of {U : UserFuns} {e t : Str} {a : PE} {v : Val} {ns : NS} (hs : splitOn '|' e = [e])
    (hp : parseExpr e = some a) (hv : a.eval U ns = .ok v) (ht : (world U).str v = .ok t) :
    evalExpr (world U) e ns = .ok t := by
  have : (world U).eval e ns = .ok v := by simp only [world, evalCode, hp, hv]
  rw [evalExpr, hs]
  simp only [this, filters]
  exact ht

theorem evalExpr_error_of {U : UserFuns} {e : Str} {a : PE} {er : Err} {ns : NS} (hs : splitOn '|' e = [e])
    (hp : parseExpr e = some a) (hv : a.eval U ns = .error er) :
    evalExpr (world U) e ns = .error er := by
  have : (world U).eval e ns = .error er := by simp only [world, evalCode, hp, hv]
  rw [evalExpr, hs]
  simp only [this]
  rfl

theorem eval_of {U : UserFuns} {e : Str} {a : PE} {r : Except Err Val} {ns : NS}
    (hp : parseExpr e = some a) (hv : a.eval U ns = r) : (world U).eval e ns = r := by
  simp only [world, evalCode, hp, hv]

theorem expr_i {U : UserFuns} {ns : NS} {i : ℕ} (h : lookup c!"i" ns = some (.int i)) :
    evalExpr (world U) c!"i" ns = .ok (dec i) :=
  evalExpr_of (a := .name c!"i") (by decide +kernel) (by decide +kernel)
    (v := .int i) (by simp [PE.eval, getName, h]) rfl

theorem expr_j {U : UserFuns} {ns : NS} {i : ℕ} (h : lookup c!"j" ns = some (.int i)) :
    evalExpr (world U) c!"j" ns = .ok (dec i) :=
  evalExpr_of (a := .name c!"j") (by decide +kernel) (by decide +kernel)
    (v := .int i) (by simp [PE.eval, getName, h]) rfl

theorem expr_d {cfg : Cfg} {U : UserFuns} {ns : NS} (h : Base cfg ns) :
    evalExpr (world U) c!"d" ns = .ok (dec cfg.d) :=
  evalExpr_of (a := .name c!"d") (by decide +kernel) (by decide +kernel)
    (v := .int cfg.d) (by simp [PE.eval, getName, h.d]) rfl

/-! ### Text -/

@[simp] theorem toString_string (s : String) : toString s = s := rfl

theorem toList_toString (n : ℕ) : (toString n).toList = dec n := by simp [dec, Nat.repr]

theorem newline_not_mem_dec (n : ℕ) : '\n' ∉ dec n := by
  intro h
  have := Nat.isDigit_of_mem_toDigits (b := 10) (by norm_num) (by norm_num) h
  simp at this

end Interp.CodegenText
