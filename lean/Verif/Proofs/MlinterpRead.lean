import Verif.Proofs.ProjectCode

/-!
# The texts written by `make_mlinterp` are read back
-/

namespace Interp.PyParse
open Interp.Spec.PyLang
open Interp.Spec.Text (codeLines ignored)
open Interp.Tempita (unlines isLines_unlines)
open Interp.FungenText
open Interp.PyExpr (dec)
open Interp.Mlinterp (InterpType)

set_option linter.unusedSectionVars false

abbrev argsN : Str := ['a', 'r', 'g', 's']
abbrev CN : Str := ['C']
abbrev ppointN : Str := ['p', 'p', 'o', 'i', 'n', 't']
abbrev resN : Str := ['r', 'e', 's']
abbrev pointsN : Str := ['p', 'o', 'i', 'n', 't', 's']
abbrev pxN : Str := ['p', 'o', 'i', 'n', 't', 's', '_', 'x']
abbrev pyN : Str := ['p', 'o', 'i', 'n', 't', 's', '_', 'y']
abbrev NN : Str := ['N']
abbrev MN : Str := ['M']
abbrev nN : Str := ['n']
abbrev mN : Str := ['m']
abbrev rangeN : Str := ['r', 'a', 'n', 'g', 'e']
abbrev zerosN : Str := ['z', 'e', 'r', 'o', 's']
abbrev projectN : Str := ['p', 'r', 'o', 'j', 'e', 'c', 't']
abbrev mlinterpN : Str := ['m', 'l', 'i', 'n', 't', 'e', 'r', 'p']

theorem isName_argsN : IsName argsN := by isname
theorem isName_CN : IsName CN := by isname
theorem isName_ppointN : IsName ppointN := by isname
theorem isName_resN : IsName resN := by isname
theorem isName_pointsN : IsName pointsN := by isname
theorem isName_pxN : IsName pxN := by isname
theorem isName_pyN : IsName pyN := by isname
theorem isName_NN : IsName NN := by isname
theorem isName_MN : IsName MN := by isname
theorem isName_nN : IsName nN := by isname
theorem isName_mN : IsName mN := by isname
theorem isName_rangeN : IsName rangeN := by isname
theorem isName_zerosN : IsName zerosN := by isname
theorem isName_projectN : IsName projectN := by isname
theorem isName_mlinterpN : IsName mlinterpN := by isname

/-! ### Functions with any number of arguments -/

def headLine : Str := ['d', 'e', 'f', ' ', '_', '_', 'm', 'l', 'i', 'n', 't', 'e', 'r', 'p', '(', '*', 'a', 'r', 'g', 's', ')', ':']

def headPieces : List Piece :=
  [op .kDef, .sp, .tok (.name ['_', '_', 'm', 'l', 'i', 'n', 't', 'e', 'r', 'p']), op .lpar, op .star, .tok (.name argsN), op .rpar, op .colon]

theorem head_lex : Ev (fun n => lex n headLine)
    [.op .kDef, .name ['_', '_', 'm', 'l', 'i', 'n', 't', 'e', 'r', 'p'], .op .lpar, .op .star, .name argsN, .op .rpar, .op .colon] := by
  have hc : chk headPieces := by
    refine ⟨trivial, rfl, ?_, rfl, chk_op rfl (chk_op rfl ⟨isName_argsN, rfl, chk_op rfl (chk_op rfl trivial)⟩)⟩
    show IsName ['_', '_', 'm', 'l', 'i', 'n', 't', 'e', 'r', 'p']
    isname
  have := lex_spell headPieces (ok_of_chk hc)
  rw [show spell headPieces = headLine by decide] at this
  exact this

theorem star_ev (imp : Bool) {ls : List Str} {b : Block} (hn : b ≠ .nil) (hf : full b) (h : List.Forall₂ CodeLine ls (linesOf 4 b)) :
    Ev (fun n => pStar n ((if imp then [importLine] else []) ++ headLine :: ls)) ⟨argsN, b⟩ := by
  obtain ⟨h1, h2, -, -⟩ := good_lines h
  have hp : ∀ n, pStar n ((if imp then [importLine] else []) ++ headLine :: ls) = (lex n headLine).bind fun ts =>
      match ts with
      | [.op .kDef, .name _, .op .lpar, .op .star, .name a, .op .rpar, .op .colon] =>
        (ls.mapM (pText n)).bind fun ls =>
          match ls with
          | [] => none
          | (j, L) :: ls =>
            if j = 0 then none
            else (pBlock n j ((j, L) :: ls)).bind fun p => if p.2 = [] then some ⟨a, p.1⟩ else none
      | _ => none := by
    intro n
    cases imp
    · simp only [Bool.false_eq_true, if_false, List.nil_append, pStar]
      rw [if_neg (by decide), if_neg (by decide), h1]
      rfl
    · simp only [if_true, List.cons_append, List.nil_append, pStar, List.headD_cons, List.tail_cons]
      rw [h1]
      rfl
  refine Ev.congr hp (Ev.bind (g := fun n ts => match ts with
      | [.op .kDef, .name _, .op .lpar, .op .star, .name a, .op .rpar, .op .colon] =>
        (ls.mapM (pText n)).bind fun ls =>
          match ls with
          | [] => none
          | (j, L) :: ls =>
            if j = 0 then none
            else (pBlock n j ((j, L) :: ls)).bind fun p => if p.2 = [] then some (StarFun.mk a p.1) else none
      | _ => none) head_lex ?_)
  refine Ev.bind (g := fun n ls => match ls with
          | [] => none
          | (j, L) :: ls =>
            if j = 0 then none
            else (pBlock n j ((j, L) :: ls)).bind fun p => if p.2 = [] then some (StarFun.mk argsN p.1) else none) (mapM_ev h2) ?_
  have hb := block_ev hf 4 [] (by simp)
  rw [List.append_nil] at hb
  obtain ⟨C, cs, hC⟩ := linesOf_head hn 4
  rw [hC] at hb ⊢
  exact Ev.bind (g := fun _ (p : Block × List (ℕ × Spec.PyLang.Line)) => if p.2 = [] then some (StarFun.mk argsN p.1) else none) hb (Ev.pure _)

/-- The whole text: lines without code may come before the function, and between two of its lines. -/
theorem star_text (imp : Bool) {pre cms ls1 ls2 : List Str} {b : Block} (text tail : Str) (hn : b ≠ .nil) (hf : full b)
    (hp : pre.filter (fun l => !ignored l) = if imp then [importLine] else []) (hp' : ∀ l ∈ pre, '\n' ∉ l)
    (hc : cms.filter (fun l => !ignored l) = []) (hc' : ∀ l ∈ cms, '\n' ∉ l)
    (h : List.Forall₂ CodeLine (ls1 ++ ls2) (linesOf 4 b)) (ht : codeLines tail = [])
    (he : text = unlines (pre ++ headLine :: (ls1 ++ (cms ++ ls2))) ++ tail) :
    Ev (fun n => pStar n (codeLines text)) ⟨argsN, b⟩ := by
  obtain ⟨-, -, h3, h4⟩ := good_lines h
  have hnl : ∀ l ∈ pre ++ headLine :: (ls1 ++ (cms ++ ls2)), '\n' ∉ l := by
    intro l hl
    simp only [List.mem_append, List.mem_cons] at hl
    rcases hl with hl | rfl | hl | hl | hl
    · exact hp' l hl
    · decide
    · exact h4 l (List.mem_append_left _ hl)
    · exact hc' l hl
    · exact h4 l (List.mem_append_right _ hl)
  have hx := isLines_unlines _ hnl tail
  rw [List.filter_append, hp, List.filter_cons,
    if_pos (show (!ignored headLine) = true by decide), List.filter_append, List.filter_append, hc, List.nil_append,
    ← List.filter_append, h3, ht, List.append_nil] at hx
  rw [he, hx]
  exact star_ev imp hn hf h

/-! ### Lines -/

/-- `args[i]`. -/
abbrev aE (i : ℕ) : PExpr := at1 (.name argsN) (.int i)

/-- `(e0,e1,...,)`. -/
abbrev tupE (d : ℕ) (A : ℕ → PExpr) : PExpr := .tuple (L ((List.range d).map A)) true

def assignL (s : Str) (e : PExpr) : Spec.PyLang.Line := .simple [.assign (.name s) e]

theorem assign_text (st : Style) (s : Str) (e : PExpr) : spell (linePr st (assignL s e)) = s ++ ' ' :: '=' :: ' ' :: spell (pr st e) := by
  simp [linePr, assignL, pr, spell, spell_append, Piece.spell, spellTok, spellOp]

theorem assign_line {s : Str} {e : PExpr} (k : ℕ) (st : Style) (t : Str) (hs : IsName s) (h1 : fine e) (h2 : wf .expr e)
    (ht : List.replicate k ' ' ++ (s ++ ' ' :: '=' :: ' ' :: spell (pr st e)) = t) : CodeLine t (k, assignL s e) := by
  rw [← ht, ← assign_text]
  exact good_line ⟨trivial, hs, trivial, h1, h2⟩

theorem spell_aE (st : Style) (i : ℕ) : spell (pr st (aE i)) = c!"args[" ++ dec i ++ c!"]" := by
  simp [spell_at, spell_name, spell_int]

theorem fine_aE (i : ℕ) : fine (aE i) := ⟨isName_argsN, trivial, trivial⟩
theorem wf_aE (i : ℕ) : wf .expr (aE i) := by simp [wf, level]

theorem tupE_text (d : ℕ) (A : ℕ → PExpr) (T : ℕ → Str) (hn : ∀ i, A i ≠ .nil) (h : ∀ i, spell (pr tight (A i)) = T i) :
    spell (pr tight (tupE d A)) = c!"(" ++ join c!"," ((List.range d).map T) ++ c!",)" := by
  rw [tuple_text tight A T _ (fun i _ => hn i) (fun i _ => h i)]
  simp [tight, commaText]

/-- `grid = (args[0],args[1],)`. -/
theorem grid_line {d : ℕ} (hd : 1 ≤ d) :
    CodeLine (c!"    grid = " ++ (c!"(" ++ join c!"," ((List.range d).map fun i => c!"args[" ++ dec i ++ c!"]") ++ c!",)"))
      (4, assignL gridN (tupE d aE)) :=
  assign_line 4 tight _ isName_gridN (fine_map fine_aE) (wf_tuple_map wf_aE (range_ne hd)) (by
    rw [tupE_text d aE _ (by simp) (spell_aE tight)]
    simp [List.replicate_succ])

theorem C_line (d : ℕ) : CodeLine (c!"    C = args[" ++ dec d ++ c!"]") (4, assignL CN (aE d)) :=
  assign_line 4 tight _ isName_CN (fine_aE d) (wf_aE d) (by rw [spell_aE]; simp [List.replicate_succ])

/-- `project(grid, e)`. -/
abbrev projectE (e : PExpr) : PExpr := .call (.name projectN) (L [.name gridN, e])
/-- `mlinterp(grid, C, ppoint)`. -/
abbrev mlinterpE : PExpr := .call (.name mlinterpN) (L [.name gridN, .name CN, .name ppointN])

theorem fine_projectE {e : PExpr} (h : fine e) : fine (projectE e) := ⟨isName_projectN, isName_gridN, h, trivial⟩
theorem wf_projectE {e : PExpr} (h : wf .expr e) : wf .expr (projectE e) := by simp [wf, level, L, h]
theorem fine_mlinterpE : fine mlinterpE := ⟨isName_mlinterpN, isName_gridN, isName_CN, isName_ppointN, trivial⟩
theorem wf_mlinterpE : wf .expr mlinterpE := by simp [wf, level, L]

theorem mlinterpE_text : spell (pr half mlinterpE) = c!"mlinterp(grid, C, ppoint)" := by decide

theorem ret_line : CodeLine c!"    return res" (4, .simple [.ret (.name resN)]) := by
  have := good_line (k := 4) (st := half) (C := .simple [.ret (.name resN)]) ⟨isName_resN, trivial⟩
  exact this

/-! ### One point -/

/-- The point, given as `e`. -/
def singleBlock (d : ℕ) (e : PExpr) : Block :=
  lines [[.assign (.name gridN) (tupE d aE)], [.assign (.name CN) (aE d)], [.assign (.name pointN) e],
    [.assign (.name ppointN) (projectE (.name pointN))], [.assign (.name resN) mlinterpE], [.ret (.name resN)]]

def singleText (d : ℕ) (point : Str) : Str :=
  c!"def __mlinterp(*args):\n"
  ++ c!"    grid = " ++ (c!"(" ++ join c!"," ((List.range d).map fun i => c!"args[" ++ dec i ++ c!"]") ++ c!",)") ++ c!"\n"
  ++ c!"    C = args[" ++ dec d ++ c!"]\n"
  ++ c!"    point = " ++ point ++ c!"\n"
  ++ c!"    ppoint = project(grid, point)\n"
  ++ c!"    res = mlinterp(grid, C, ppoint)\n"
  ++ c!"    return res\n"
  ++ c!"    "

theorem single_read {d : ℕ} (hd : 1 ≤ d) {e : PExpr} {t : Str} (h1 : fine e) (h2 : wf .expr e) (ht : spell (pr tight e) = t) :
    Ev (fun n => pStar n (codeLines (singleText d t))) ⟨argsN, singleBlock d e⟩ := by
  have hg : List.Forall₂ CodeLine
      [c!"    grid = " ++ (c!"(" ++ join c!"," ((List.range d).map fun i => c!"args[" ++ dec i ++ c!"]") ++ c!",)"),
       c!"    C = args[" ++ dec d ++ c!"]", c!"    point = " ++ t, c!"    ppoint = project(grid, point)",
       c!"    res = mlinterp(grid, C, ppoint)", c!"    return res"] (linesOf 4 (singleBlock d e)) :=
    .cons (grid_line hd) (.cons (C_line d) (.cons
      (assign_line 4 tight _ isName_pointN h1 h2 (by rw [ht]; simp [List.replicate_succ])) (.cons
      (assign_line 4 half _ isName_ppointN (fine_projectE isName_pointN) (wf_projectE trivial) (by decide)) (.cons
      (assign_line 4 half _ isName_resN fine_mlinterpE wf_mlinterpE (by decide)) (.cons ret_line .nil)))))
  refine star_text (pre := []) (cms := []) (ls1 := []) false _ c!"    " (by simp [singleBlock, lines]) (full_lines _) rfl (by simp) rfl (by simp) hg
    (by decide) ?_
  simp [singleText, unlines, headLine]

/-! ### Many points -/

def setL (e v : PExpr) : Spec.PyLang.Line := .simple [.assign e v]

theorem set_line {s : Str} {es v : PExpr} (k : ℕ) (st : Style) (t : Str) (h0 : fine (.index (.name s) es)) (h0' : wf .expr (.index (.name s) es))
    (h1 : fine v) (h2 : wf .expr v)
    (ht : List.replicate k ' ' ++ (spell (pr st (.index (.name s) es)) ++ ' ' :: '=' :: ' ' :: spell (pr st v)) = t) :
    CodeLine t (k, .simple [.assign (.index (.name s) es) v]) := by
  have : spell (linePr st (.simple [.assign (.index (.name s) es) v])) =
      spell (pr st (.index (.name s) es)) ++ ' ' :: '=' :: ' ' :: spell (pr st v) := by
    simp [linePr, spell, spell_append, Piece.spell, spellTok, spellOp]
  rw [← ht, ← this]
  exact good_line ⟨trivial, h0, h0', h1, h2⟩

theorem for_line {x : Str} {e : PExpr} (k : ℕ) (st : Style) (t : Str) (hx : IsName x) (h1 : fine e) (h2 : wf .expr e)
    (ht : List.replicate k ' ' ++ spell (linePr st (.header (.forH x e))) = t) : CodeLine t (k, .header (.forH x e)) := by
  rw [← ht]
  exact good_line ⟨hx, h1, h2⟩

/-- `s.shape[0]`. -/
abbrev sizeE (s : Str) : PExpr := at1 (.attr (.name s) ['s', 'h', 'a', 'p', 'e']) (.int 0)

theorem fine_sizeE {s : Str} (h : IsName s) : fine (sizeE s) := by
  have : IsName ['s', 'h', 'a', 'p', 'e'] := by isname
  exact ⟨⟨h, rfl, this⟩, trivial, trivial⟩
theorem wf_sizeE (s : Str) : wf .expr (sizeE s) := by simp [wf, level]

/-- `f(x)`. -/
abbrev call1 (f x : Str) : PExpr := .call (.name f) (L [.name x])
theorem fine_call1 {f x : Str} (hf : IsName f) (hx : IsName x) : fine (call1 f x) := ⟨hf, hx, trivial⟩
theorem wf_call1 (f x : Str) : wf .expr (call1 f x) := by simp [wf, level, L]

/-- `points[n,i]`. -/
abbrev rowE (i : ℕ) : PExpr := .index (.name pointsN) (L [.name nN, .int i])
theorem fine_rowE (i : ℕ) : fine (rowE i) := ⟨isName_pointsN, isName_nN, trivial, trivial⟩
theorem wf_rowE (i : ℕ) : wf .expr (rowE i) := by simp [wf, level, L]

/-- `res[n] = mlinterp(grid, C, ppoint)` and the line before. -/
def bodyBlock (e : PExpr) : Block :=
  lines [[.assign (.name ppointN) (projectE e)], [.assign (at1 (.name resN) (.name nN)) mlinterpE]]

/-- The first lines: those before the loop. -/
def preLines (d : ℕ) (s : Str) (i : ℕ) : List (List Simple) :=
  [[.assign (.name gridN) (tupE d aE)], [.assign (.name CN) (aE d)], [.assign (.name s) (aE i)],
    [.assign (.name NN) (sizeE s)], [.assign (.name resN) (call1 zerosN NN)]]

/-- Points in an array. -/
def loopBlock (d : ℕ) (s : Str) (i : ℕ) (e : PExpr) : Block :=
  (lines (preLines d s i)).append (.block (.forH nN (call1 rangeN NN)) (bodyBlock e) (lines [[.ret (.name resN)]]))

theorem full_loop (d : ℕ) (s : Str) (i : ℕ) (e : PExpr) : full (loopBlock d s i e) :=
  full_append (full_lines _) ⟨by simp [bodyBlock, lines], full_lines _, full_lines _⟩

def mixed : Style := ⟨true, false, false, false, false⟩

def headLines (d : ℕ) (s : Str) (i : ℕ) : List Str :=
      [c!"    grid = " ++ (c!"(" ++ join c!"," ((List.range d).map fun i => c!"args[" ++ dec i ++ c!"]") ++ c!",)"),
       c!"    C = args[" ++ dec d ++ c!"]", c!"    " ++ s ++ c!" = args[" ++ dec i ++ c!"]", c!"    N = " ++ s ++ c!".shape[0]",
       c!"    res = zeros(N)"]

theorem loop_head {d : ℕ} (hd : 1 ≤ d) {s : Str} (hs : IsName s) (i : ℕ) :
    List.Forall₂ CodeLine (headLines d s i) (linesOf 4 (lines (preLines d s i))) :=
  .cons (grid_line hd) (.cons (C_line d) (.cons
      (assign_line 4 tight _ hs (fine_aE i) (wf_aE i) (by rw [spell_aE]; simp [List.replicate_succ])) (.cons
      (assign_line 4 tight _ isName_NN (fine_sizeE hs) (wf_sizeE s) (by
        rw [spell_at, spell_attr, spell_name, spell_int]; simp [List.replicate_succ, dec])) (.cons
      (assign_line 4 tight _ isName_resN (fine_call1 isName_zerosN isName_NN) (wf_call1 _ _) (by decide)) .nil))))

def tailLines (t : Str) : List Str :=
      [c!"    for n in range(N):", c!"        ppoint = " ++ t, c!"        res[n] = mlinterp(grid, C, ppoint)", c!"    return res"]

theorem loop_tail {e : PExpr} {t : Str} (st : Style) (h1 : fine e) (h2 : wf .expr e)
    (ht : spell (pr st (projectE e)) = t) :
    List.Forall₂ CodeLine (tailLines t)
      (linesOf 4 (.block (.forH nN (call1 rangeN NN)) (bodyBlock e) (lines [[.ret (.name resN)]]))) :=
  .cons (for_line 4 half _ isName_nN (fine_call1 isName_rangeN isName_NN) (wf_call1 _ _) (by decide)) (.cons
    (assign_line 8 st _ isName_ppointN (fine_projectE h1) (wf_projectE h2) (by rw [ht]; simp [List.replicate_succ])) (.cons
    (set_line 8 half _ ⟨isName_resN, isName_nN, trivial⟩ (by simp [wf, level, L]) fine_mlinterpE wf_mlinterpE (by decide)) (.cons
    ret_line .nil)))

set_option maxRecDepth 8000 in
/-- Vectorized. -/
theorem vectorized_read {d : ℕ} (hd : 1 ≤ d) {text : Str} (ht : makeMlinterp ⟨d, .scalar, .vectorized⟩ c!"__mlinterp" = some text) :
    Ev (fun n => pStar n (codeLines text)) ⟨argsN, loopBlock d pointsN (d + 1) (tupE d rowE)⟩ := by
  have hp : spell (pr mixed (projectE (tupE d rowE))) =
      c!"project(grid, " ++ (c!"(" ++ join c!"," ((List.range d).map fun i => c!"points[n," ++ dec i ++ c!"]") ++ c!",)") ++ c!")" := by
    rw [spell_call, spell_args2, tuple_text' mixed rowE (fun i => c!"points[n," ++ dec i ++ c!"]") _ (by simp) (by
      intro i _
      rw [spell_index, spell_args2, spell_int]
      simp [mixed, commaText, spell_name])]
    simp [mixed, commaText, spell_name]
  have h : List.Forall₂ CodeLine (headLines d pointsN (d + 1) ++ tailLines (c!"project(grid, " ++
      (c!"(" ++ join c!"," ((List.range d).map fun i => c!"points[n," ++ dec i ++ c!"]") ++ c!",)") ++ c!")"))
      (linesOf 4 (loopBlock d pointsN (d + 1) (tupE d rowE))) := by
    rw [loopBlock, linesOf_append]
    exact List.rel_append (loop_head hd isName_pointsN (d + 1)) (loop_tail (e := tupE d rowE) mixed (fine_map (A := rowE) fine_rowE) (wf_tuple_map wf_rowE (range_ne hd)) hp)
  refine star_text (pre := [importLine]) (cms := [c!"    # return res"]) true _ [] (by simp [loopBlock, lines, preLines, Block.append]) (full_loop _ _ _ _) (by decide)
    (by decide) (by decide) (by decide) h rfl ?_
  · rw [makeMlinterp] at ht
    simp only [reduceCtorEq, if_false, Option.some.injEq] at ht
    rw [← ht]
    simp [headLines, tailLines, unlines, importLine, headLine]

/-- Along one axis. -/
theorem cart1_read {text : Str} (ht : makeMlinterp ⟨1, .scalar, .cartesian⟩ c!"__mlinterp" = some text) :
    Ev (fun n => pStar n (codeLines text)) ⟨argsN, loopBlock 1 pxN 2 (.tuple (L [at1 (.name pxN) (.name nN)]) true)⟩ := by
  have h : List.Forall₂ CodeLine (headLines 1 pxN 2 ++ tailLines c!"project(grid,(points_x[n],))")
      (linesOf 4 (loopBlock 1 pxN 2 (.tuple (L [at1 (.name pxN) (.name nN)]) true))) := by
    rw [loopBlock, linesOf_append]
    exact List.rel_append (loop_head (d := 1) le_rfl isName_pxN 2) (loop_tail (e := .tuple (L [at1 (.name pxN) (.name nN)]) true)
    (t := c!"project(grid,(points_x[n],))") tight
    ⟨⟨isName_pxN, isName_nN, trivial⟩, trivial⟩ (by simp [wf, level, L]) (by decide))
  refine star_text (pre := [[], importLine]) (cms := []) true _ [] (by simp [loopBlock, lines, preLines, Block.append]) (full_loop _ _ _ _) (by decide)
    (by decide) (by decide) (by decide) h rfl ?_
  · rw [makeMlinterp] at ht
    simp only [reduceCtorEq, if_false, if_true, OfNat.ofNat_ne_one, Option.some.injEq] at ht
    rw [← ht]
    decide +kernel

/-- Along two axes. -/
def gridBlock : Block :=
  (lines [[.assign (.name gridN) (tupE 2 aE)], [.assign (.name CN) (aE 2)], [.assign (.name pxN) (aE 3)], [.assign (.name pyN) (aE 4)],
    [.assign (.name NN) (sizeE pxN)], [.assign (.name MN) (sizeE pyN)],
    [.assign (.name resN) (.call (.name zerosN) (L [.tuple (L [.name NN, .name MN]) false]))]]).append
  (.block (.forH nN (call1 rangeN NN))
    (.block (.forH mN (call1 rangeN MN))
      (lines [[.assign (.name ppointN) (projectE (.tuple (L [at1 (.name pxN) (.name nN), at1 (.name pyN) (.name mN)]) false))],
        [.assign (.index (.name resN) (L [.name nN, .name mN])) mlinterpE]]) .nil)
    (lines [[.ret (.name resN)]]))

def outer : Style := ⟨false, true, false, false, false⟩

theorem cart2_read {text : Str} (ht : makeMlinterp ⟨2, .scalar, .cartesian⟩ c!"__mlinterp" = some text) :
    Ev (fun n => pStar n (codeLines text)) ⟨argsN, gridBlock⟩ := by
  have h : List.Forall₂ CodeLine
      [c!"    grid = (args[0],args[1],)", c!"    C = args[2]", c!"    points_x = args[3]", c!"    points_y = args[4]",
       c!"    N = points_x.shape[0]", c!"    M = points_y.shape[0]", c!"    res = zeros((N,M))", c!"    for n in range(N):",
       c!"        for m in range(M):", c!"            ppoint = project(grid,(points_x[n], points_y[m]))",
       c!"            res[n,m] = mlinterp(grid, C, ppoint)", c!"    return res"] (linesOf 4 gridBlock) :=
    .cons (grid_line (d := 2) (by omega)) (.cons (C_line 2) (.cons
      (assign_line 4 tight _ isName_pxN (fine_aE 3) (wf_aE 3) (by decide)) (.cons
      (assign_line 4 tight _ isName_pyN (fine_aE 4) (wf_aE 4) (by decide)) (.cons
      (assign_line 4 tight _ isName_NN (fine_sizeE isName_pxN) (wf_sizeE _) (by decide)) (.cons
      (assign_line 4 tight _ isName_MN (fine_sizeE isName_pyN) (wf_sizeE _) (by decide)) (.cons
      (assign_line 4 tight _ isName_resN ⟨isName_zerosN, ⟨isName_NN, isName_MN, trivial⟩, trivial⟩ (by simp [wf, level, L]) (by decide)) (.cons
      (for_line 4 half _ isName_nN (fine_call1 isName_rangeN isName_NN) (wf_call1 _ _) (by decide)) (.cons
      (for_line 8 half _ isName_mN (fine_call1 isName_rangeN isName_MN) (wf_call1 _ _) (by decide)) (.cons
      (assign_line 12 outer _ isName_ppointN
        (fine_projectE ⟨⟨isName_pxN, isName_nN, trivial⟩, ⟨isName_pyN, isName_mN, trivial⟩, trivial⟩)
        (wf_projectE (by simp [wf, level, L])) (by decide)) (.cons
      (set_line 12 half _ ⟨isName_resN, isName_nN, isName_mN, trivial⟩ (by simp [wf, level, L]) fine_mlinterpE wf_mlinterpE (by decide)) (.cons
      ret_line .nil)))))))))))
  refine star_text (pre := [[], importLine]) (cms := []) (ls1 := []) true _ [] (by simp [gridBlock, lines, Block.append])
    ?_ (by decide)
    (by decide) (by decide) (by decide) h rfl ?_ 
  · exact ⟨by simp, ⟨by simp [lines], full_lines _, trivial⟩, full_lines _⟩
  · rw [makeMlinterp] at ht
    simp only [reduceCtorEq, if_false, if_true, OfNat.ofNat_ne_one, Option.some.injEq] at ht
    rw [← ht]
    decide +kernel

/-- `args[j][i]`. -/
abbrev abE (j i : ℕ) : PExpr := at1 (at1 (.name argsN) (.int j)) (.int i)

/-- What is written for each kind of call. -/
def mlTree (it : InterpType) : Block :=
  match it.eval with
  | .scalar => singleBlock it.d (tupE it.d fun i => aE (it.d + i + 1))
  | .tuple => singleBlock it.d (aE (it.d + 1))
  | .point => singleBlock it.d (tupE it.d (abE (it.d + 1)))
  | .vectorized => loopBlock it.d pointsN (it.d + 1) (tupE it.d rowE)
  | .cartesian => if it.d = 1 then loopBlock 1 pxN 2 (.tuple (L [at1 (.name pxN) (.name nN)]) true) else gridBlock

theorem mlinterp_read {it : InterpType} (hd : 1 ≤ it.d) {text : Str} (ht : makeMlinterp it c!"__mlinterp" = some text) :
    Ev (fun n => pStar n (codeLines text)) ⟨argsN, mlTree it⟩ := by
  obtain ⟨d, v, e⟩ := it
  simp only at hd
  have hv : v ≠ .vector := by
    rintro rfl
    simp [makeMlinterp] at ht
  cases v with
  | vector => exact absurd rfl hv
  | scalar =>
    cases e with
    | scalar =>
      have : text = singleText d (c!"(" ++ join c!"," ((List.range d).map fun i => c!"args[" ++ dec (d + i + 1) ++ c!"]") ++ c!",)") := by
        rw [makeMlinterp] at ht
        simp only [reduceCtorEq, if_false, Option.some.injEq] at ht
        rw [← ht]
        rfl
      rw [this]
      exact single_read hd (fine_map fun i => fine_aE _) (wf_tuple_map (fun i => wf_aE _) (range_ne hd))
        (tupE_text d _ _ (by simp) fun i => spell_aE tight _)
    | tuple =>
      have : text = singleText d (c!"args[" ++ dec (d + 1) ++ c!"]") := by
        rw [makeMlinterp] at ht
        simp only [reduceCtorEq, if_false, Option.some.injEq] at ht
        rw [← ht]
        rfl
      rw [this]
      exact single_read hd (fine_aE _) (wf_aE _) (spell_aE tight _)
    | point =>
      have : text = singleText d (c!"(" ++ join c!"," ((List.range d).map fun i => c!"args[" ++ dec (d + 1) ++ c!"][" ++ dec i ++ c!"]") ++ c!",)") := by
        rw [makeMlinterp] at ht
        simp only [reduceCtorEq, if_false, Option.some.injEq] at ht
        rw [← ht]
        rfl
      rw [this]
      exact single_read hd (fine_map fun i => ⟨fine_aE _, trivial, trivial⟩) (wf_tuple_map (fun i => by simp [wf, level]) (range_ne hd))
        (tupE_text d _ _ (by simp) fun i => by simp [spell_at, spell_name, spell_int])
    | vectorized => exact vectorized_read hd ht
    | cartesian =>
      by_cases h1 : d = 1
      · subst h1
        exact cart1_read ht
      · by_cases h2 : d = 2
        · subst h2
          exact cart2_read ht
        · rw [makeMlinterp] at ht
          simp [h1, h2] at ht

end Interp.PyParse
