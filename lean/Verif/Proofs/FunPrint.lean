import Verif.Proofs.PyDims
import Verif.Proofs.PyStmts
import Verif.Spec.PyFun
import Verif.Model.FungenText

/-!
# Printing of expressions, and that one-line functions are read back
-/

namespace Interp.PyParse
open Interp.Spec.PyLang
open Interp.FungenText (join)

set_option linter.unusedSectionVars false

/-- Where spaces are: after a comma (between arguments, in a tuple, in subscripts), after the comma at the end of a tuple,
around `+`. -/
structure Style where
  comma : Bool
  tup : Bool
  sub : Bool
  trail : Bool
  plus : Bool

def gap (b : Bool) : List Piece := if b then [.sp] else []

/-- Pieces of an expression. -/
def pr : Style → PExpr → List Piece
  | st, .name s => [.tok (.name s)]
  | st, .int n => [it n]
  | st, .float n => [fl n]
  | st, .str _ => []
  | st, .paren e => op .lpar :: (pr st e ++ [op .rpar])
  | st, .tuple es t => op .lpar :: (pr { st with comma := st.tup } es ++ ((if t then op .comma :: gap st.trail else []) ++ [op .rpar]))
  | st, .call f es => pr st f ++ op .lpar :: (pr st es ++ [op .rpar])
  | st, .index e es => pr st e ++ op .lbrack :: (pr { st with comma := st.sub } es ++ [op .rbrack])
  | st, .attr e s => pr st e ++ [op .dot, .tok (.name s)]
  | st, .full => [op .colon]
  | st, .neg e => op .minus :: pr st e
  | st, .bin o a b => pr st a ++ (gap (st.plus && o == .plus) ++ op o :: (gap (st.plus && o == .plus) ++ pr st b))
  | st, .nil => []
  | st, .cons e .nil => pr st e
  | st, .cons e es => pr st e ++ op .comma :: (gap st.comma ++ pr st es)

/-- Trees that can be followed by an attribute. -/
def closed : PExpr → Bool
  | .name _ | .paren _ | .tuple .. | .call .. | .index .. | .attr .. => true
  | _ => false

/-- Trees that can be printed. -/
def fine : PExpr → Prop
  | .name s => IsName s
  | .int _ | .float _ | .full | .nil => True
  | .str _ => False
  | .paren e | .neg e => fine e
  | .tuple es _ => fine es
  | .call f es => fine f ∧ fine es
  | .index e es => fine e ∧ fine es
  | .attr e s => fine e ∧ closed e = true ∧ IsName s
  | .bin o a b => symbol o = true ∧ o ≠ .dot ∧ fine a ∧ fine b
  | .cons e es => fine e ∧ fine es

theorem pr_cons (st : Style) (e es : PExpr) (h : es ≠ .nil) :
    pr st (.cons e es) = pr st e ++ op .comma :: (gap st.comma ++ pr st es) := by
  cases es <;> first | exact absurd rfl h | rfl

theorem toksOf_gap (b : Bool) : toksOf (gap b) = [] := by cases b <;> rfl

theorem chk_gap {b : Bool} {ps : List Piece} (h : chk ps) : chk (gap b ++ ps) := by cases b <;> exact h

theorem follow_gap {b : Bool} {ps : List Piece} (h : follow ps = true) : follow (gap b ++ ps) = true := by
  cases b
  · exact h
  · rfl

theorem pr_toks (st : Style) (e : PExpr) (h : fine e) : toksOf (pr st e) = toks e := by
  induction e generalizing st with
  | name s => rfl
  | int n => rfl
  | float n => rfl
  | str s => exact h.elim
  | paren e ih => simp [pr, toks, toksOf, toksOf_append, Piece.toks, ih _ h]
  | tuple es t ih => cases t <;> simp [pr, toks, toksOf, toksOf_append, Piece.toks, toksOf_gap, ih _ h]
  | call f es ihf ihe => simp [pr, toks, toksOf, toksOf_append, Piece.toks, ihf _ h.1, ihe _ h.2]
  | index f es ihf ihe => simp [pr, toks, toksOf, toksOf_append, Piece.toks, ihf _ h.1, ihe _ h.2]
  | attr e s ih => simp [pr, toks, toksOf, toksOf_append, Piece.toks, ih _ h.1]
  | full => rfl
  | neg e ih => simp [pr, toks, toksOf, Piece.toks, ih _ h]
  | bin o a b iha ihb => simp [pr, toks, toksOf, toksOf_append, Piece.toks, toksOf_gap, iha _ h.2.2.1, ihb _ h.2.2.2]
  | nil => rfl
  | cons e es ihe ihs =>
    by_cases hn : es = .nil
    · subst hn; exact ihe _ h.1
    · rw [pr_cons _ _ _ hn, toks_cons _ _ hn]
      simp [toksOf, toksOf_append, Piece.toks, toksOf_gap, ihe _ h.1, ihs _ h.2]

theorem chk_op {o : Op} {ps : List Piece} (ho : symbol o = true) (h : chk ps) : chk (op o :: ps) :=
  ⟨trivial, by rw [loose_sym, ho]; rfl, h⟩

theorem pr_chk (st : Style) (e : PExpr) (h : fine e) : ∀ rest, chk rest →
    (follow rest = true ∨ isDot rest = true ∧ closed e = true) → chk (pr st e ++ rest) := by
  induction e generalizing st with
  | name s =>
    intro rest hr hf
    refine ⟨h, ?_, hr⟩
    rw [loose_name]
    rcases hf with hf | ⟨hf, _⟩ <;> simp [hf]
  | int n =>
    intro rest hr hf
    rcases hf with hf | ⟨_, hf⟩
    · exact ⟨trivial, by rw [loose_int]; exact hf, hr⟩
    · cases hf
  | float n =>
    intro rest hr hf
    rcases hf with hf | ⟨_, hf⟩
    · exact ⟨trivial, by rw [loose_float]; exact hf, hr⟩
    · cases hf
  | str s => exact h.elim
  | paren e ih =>
    intro rest hr hf
    have := ih st h (op .rpar :: rest) (chk_op rfl hr) (Or.inl rfl)
    simpa [pr] using chk_op (o := .lpar) rfl this
  | tuple es t ih =>
    intro rest hr hf
    cases t with
    | false =>
      have := ih { st with comma := st.tup } h (op .rpar :: rest) (chk_op rfl hr) (Or.inl rfl)
      simpa [pr] using chk_op (o := .lpar) rfl this
    | true =>
      have := ih { st with comma := st.tup } h (op .comma :: (gap st.trail ++ op .rpar :: rest)) (chk_op rfl (chk_gap (chk_op rfl hr))) (Or.inl rfl)
      simpa [pr] using chk_op (o := .lpar) rfl this
  | call f es ihf ihe =>
    intro rest hr hf
    have := ihe st h.2 (op .rpar :: rest) (chk_op rfl hr) (Or.inl rfl)
    have := ihf st h.1 _ (chk_op (o := .lpar) rfl this) (Or.inl rfl)
    simpa [pr] using this
  | index f es ihf ihe =>
    intro rest hr hf
    have := ihe { st with comma := st.sub } h.2 (op .rbrack :: rest) (chk_op rfl hr) (Or.inl rfl)
    have := ihf st h.1 _ (chk_op (o := .lbrack) rfl this) (Or.inl rfl)
    simpa [pr] using this
  | attr e s ih =>
    intro rest hr hf
    have h1 : chk (.tok (.name s) :: rest) := by
      refine ⟨h.2.2, ?_, hr⟩
      rw [loose_name]
      rcases hf with hf | ⟨hf, _⟩ <;> simp [hf]
    have := ih st h.1 _ (chk_op (o := .dot) rfl h1) (Or.inr ⟨rfl, h.2.1⟩)
    simpa [pr] using this
  | full =>
    intro rest hr hf
    exact chk_op rfl hr
  | neg e ih =>
    intro rest hr hf
    refine chk_op rfl (ih st h rest hr (hf.imp_right fun h => ?_))
    exact absurd h.2 (by simp [closed])
  | bin o a b iha ihb =>
    intro rest hr hf
    obtain ⟨ho, hd, ha, hb⟩ := h
    have h1 := ihb st hb rest hr (hf.imp_right fun h => absurd h.2 (by simp [closed]))
    have h2 := chk_gap (b := st.plus && o == .plus) (chk_op ho (chk_gap (b := st.plus && o == .plus) h1))
    have := iha st ha _ h2 (Or.inl (follow_gap (by rw [follow_op, ho]; simpa using hd)))
    simpa [pr] using this
  | nil => intro rest hr _; exact hr
  | cons e es ihe ihs =>
    intro rest hr hf
    have hf' : follow rest = true := hf.resolve_right (by simp [closed])
    by_cases hn : es = .nil
    · subst hn; exact ihe st h.1 rest hr (Or.inl hf')
    · rw [pr_cons _ _ _ hn]
      have := ihe st h.1 _ (chk_op (o := .comma) rfl (chk_gap (b := st.comma) (ihs st h.2 rest hr (Or.inl hf')))) (Or.inl rfl)
      simpa using this

theorem pr_chk' (st : Style) {e : PExpr} (h : fine e) : chk (pr st e) := by
  simpa using pr_chk st e h [] trivial (Or.inl rfl)

/-! ### Lists -/

theorem join_cons (sep a b : Str) (l : List Str) : join sep (a :: b :: l) = a ++ (sep ++ join sep (b :: l)) := by
  simp [join, List.intercalate, List.intersperse]

theorem join_one (sep a : Str) : join sep [a] = a := by simp [join, List.intercalate]

def commaText (b : Bool) : Str := if b then [',', ' '] else [',']

theorem spell_L (st : Style) : ∀ (es : List PExpr), (∀ e ∈ es, e ≠ .nil) →
    spell (pr st (L es)) = join (commaText st.comma) (es.map fun e => spell (pr st e))
  | [], _ => rfl
  | [e], _ => by rw [List.map_cons, List.map_nil, join_one]; rfl
  | e :: e' :: es, h => by
    have ih := spell_L st (e' :: es) fun x hx => h x (by simp [hx])
    rw [List.map_cons, List.map_cons, join_cons]
    rw [List.map_cons] at ih
    rw [← ih, L, pr_cons _ _ _ (by simp [L]), spell_append]
    unfold commaText gap
    cases st.comma <;> simp [spell, Piece.spell, spellTok, spellOp]

theorem fine_L {es : List PExpr} (h : ∀ e ∈ es, fine e) : fine (L es) := by
  induction es with
  | nil => trivial
  | cons e es ih => exact ⟨h e (by simp), ih fun x hx => h x (by simp [hx])⟩

theorem wf_args_L {es : List PExpr} (h : ∀ e ∈ es, wf .expr e) : wf .args (L es) := by
  induction es with
  | nil => trivial
  | cons e es ih => exact ⟨h e (by simp), ih fun x hx => h x (by simp [hx])⟩

theorem wf_subs_L {es : List PExpr} (h : ∀ e ∈ es, wf .expr e) : wf .subs (L es) := by
  induction es with
  | nil => trivial
  | cons e es ih => exact ⟨Or.inr (h e (by simp)), ih fun x hx => h x (by simp [hx])⟩

theorem wf_tuple {es : List PExpr} (h : ∀ e ∈ es, wf .expr e) (hn : es ≠ []) : wf .expr (.tuple (L es) true) := by
  refine ⟨wf_args_L h, fun h' => ?_, fun h' => by cases h'⟩
  cases es with
  | nil => exact absurd rfl hn
  | cons e es => simp [L] at h'

theorem spell_tuple (st : Style) (es : PExpr) :
    spell (pr st (.tuple es true)) = '(' :: (spell (pr { st with comma := st.tup } es) ++ (commaText st.trail ++ [')'])) := by
  unfold commaText
  simp only [pr, gap]
  cases st.trail <;> simp [spell, spell_append, Piece.spell, spellTok, spellOp]

/-! ### Functions -/

def namesP (b : Bool) : List Str → List Piece
  | [] => []
  | [s] => [.tok (.name s)]
  | s :: ss => .tok (.name s) :: op .comma :: (gap b ++ namesP b ss)

/-- `def f(a, b): return `. -/
def defP (b : Bool) (f : Str) (ps : List Str) (rest : List Piece) : List Piece :=
  op .kDef :: .sp :: .tok (.name f) :: op .lpar :: (namesP b ps ++ op .rpar :: op .colon :: .sp :: op .kReturn :: .sp :: rest)

theorem names_read (b : Bool) : ∀ (ps : List Str) (rest : List Tok), ps ≠ [] →
    pNames (toksOf (namesP b ps) ++ .op .rpar :: rest) = some (ps, rest)
  | [], _, h => absurd rfl h
  | [s], rest, _ => rfl
  | s :: s' :: ss, rest, _ => by
    have := names_read b (s' :: ss) rest (by simp)
    simp only [namesP, toksOf, toksOf_append, toksOf_gap, Piece.toks, List.cons_append, List.nil_append, pNames]
    rw [this]; rfl

theorem names_chk (b : Bool) : ∀ (ps : List Str) (rest : List Piece), (∀ s ∈ ps, IsName s) → follow rest = true → chk rest →
    chk (namesP b ps ++ rest)
  | [], rest, _, _, hr => hr
  | [s], rest, h, hf, hr => ⟨h s (by simp), by rw [loose_name]; simp [hf], hr⟩
  | s :: s' :: ss, rest, h, hf, hr => by
    have ih := names_chk b (s' :: ss) rest (fun x hx => h x (by simp [hx])) hf hr
    have : chk (op .comma :: (gap b ++ (namesP b (s' :: ss) ++ rest))) := chk_op rfl (chk_gap ih)
    simp only [namesP, List.cons_append, List.append_assoc]
    exact ⟨h s (by simp), by rw [loose_name]; rfl, this⟩

/-- A one-line function is read back. -/
theorem fun_ev (b : Bool) (st : Style) {f : Str} {ps : List Str} {e : PExpr} (hf : IsName f) (hp : ∀ s ∈ ps, IsName s)
    (hn : ps ≠ []) (he : fine e) (hw : wf .expr e) :
    Ev (fun n => pFun n (spell (defP b f ps (pr st e)))) ⟨ps, e⟩ := by
  have hc : chk (defP b f ps (pr st e)) := by
    have h1 : chk (.sp :: op .kReturn :: .sp :: pr st e) := ⟨trivial, rfl, pr_chk' st he⟩
    have h2 := names_chk b ps (op .rpar :: op .colon :: .sp :: op .kReturn :: .sp :: pr st e) hp rfl (chk_op rfl (chk_op rfl h1))
    exact ⟨trivial, rfl, hf, by rw [loose_name]; rfl, chk_op rfl h2⟩
  have hl := lex_spell _ (ok_of_chk hc)
  refine Ev.bind (g := fun n ts => match ts with
    | .op .kDef :: .name _ :: .op .lpar :: r => (pNames r).bind fun p =>
      match p.2 with
      | .op .colon :: .op .kReturn :: r' => (pBin n 0 r').bind fun q => if q.2 = [] then some (Fun.mk p.1 q.1) else none
      | _ => none
    | _ => none) hl ?_
  have ht : toksOf (defP b f ps (pr st e)) = .op .kDef :: .name f :: .op .lpar ::
      (toksOf (namesP b ps) ++ .op .rpar :: .op .colon :: .op .kReturn :: toks e) := by
    simp [defP, toksOf, toksOf_append, Piece.toks, pr_toks st e he]
  rw [ht]
  simp only [names_read b ps _ hn]
  have := read_expr (rest := []) hw trivial
  rw [List.append_nil] at this
  exact Ev.bind (g := fun _ (q : PExpr × List Tok) => if q.2 = [] then some (Fun.mk ps q.1) else none) this (Ev.pure _)

end Interp.PyParse
