import Verif.Proofs.CodegenBasis

/-!
# The generated text

The two templates from end to end, and `get_code_spline`.
-/

namespace Interp.CodegenText

open Tempita PyExpr Spec.Text Codegen

set_option maxRecDepth 4000

/-- First lines of the function. -/
def headLines : List Str :=
  ["def eval_spline(grid, C, points, out=None, k=1, diff=\"None\", extrap_mode='linear'):".toList,
   "    \"This is my docstring\"".toList]

theorem substitute_drop {P : NS → Prop} {W : World Val NS} {content s : Str} {tree rest : Nodes} {L : List Str}
    {ns : NS} (hp : parse content = .ok tree) (ht : tree = .cons (.text ('\n' :: s)) rest)
    (h : GivesLines P ((Nodes.cons (.text s) rest).run W) (.ok L)) (hn : P ns) :
    ∃ t, substitute W content ns = .ok ('\n' :: t) ∧ IsLines t L := by
  obtain ⟨u, hu, hs⟩ := h
  cases u with
  | error e => exact absurd hs (by simp [SameLines])
  | ok t =>
    obtain ⟨ns', _, hr⟩ := hu ['\n'] ns none hn
    refine ⟨t, ?_, hs⟩
    have e : tree.run W ⟨[], ns, none⟩ = (Nodes.cons (.text s) rest).run W ⟨['\n'], ns, none⟩ := by
      rw [ht]
      simp [Nodes.run, Node.run]
    simp [substitute, hp, e, hr]

theorem substitute_drop_error {P : NS → Prop} {W : World Val NS} {content s : Str} {tree rest : Nodes} {er : TErr}
    {ns : NS} (hp : parse content = .ok tree) (ht : tree = .cons (.text ('\n' :: s)) rest)
    (h : GivesLines P ((Nodes.cons (.text s) rest).run W) (.error er)) (hn : P ns) :
    substitute W content ns = .error er := by
  obtain ⟨u, hu, hs⟩ := h
  cases u with
  | ok t => exact absurd hs (by simp [SameLines])
  | error e' =>
    have he : e' = er := hs
    subst he
    obtain ⟨s', hr⟩ := hu ['\n'] ns none hn
    have e : tree.run W ⟨[], ns, none⟩ = (Nodes.cons (.text s) rest).run W ⟨['\n'], ns, none⟩ := by
      rw [ht]
      simp [Nodes.run, Node.run]
    simp [substitute, hp, e, hr, throw, throwThe, MonadExceptOf.throw]

/-- First text of the template for one point, without the newline. -/
def pointRest : Str :=
  c!"def eval_spline(grid, C, points, out=None, k=1, diff=\"None\", extrap_mode='linear'):\n    \"This is my docstring\"\n\n"

/-- The template for one point after its first text. -/
def pointTail : Nodes :=
  .cons point1 <| .cons point2 <| .cons point3 <| .cons point4 <| .cons point5 <| .cons point6 <|
  .cons point7 <| .cons point8 <| .cons point9 <| .cons point10 <| .cons point11 <| .cons point12
  .nil

theorem pointTree_eq : pointTree = .cons (.text ('\n' :: pointRest)) pointTail := rfl

/-- First text of the template for many points, without the newline. -/
def rowsRest : Str :=
  c!"def eval_spline(grid, C, points, out=None, k=1, diff=\"None\", extrap_mode='linear'):\n    \"This is my docstring\"\n\n    N = points.shape[0]\n\n"

/-- The template for many points after its first text. -/
def rowsTail : Nodes :=
  .cons rows1 <| .cons rows2 <| .cons rows3 <| .cons rows4 <| .cons rows5 <| .cons rows6 <| .cons
  rows7 <| .cons rows8 <| .cons rows9 <| .cons rows10 <| .cons rows11 <| .cons rows12 <| .cons
  rows13 <| .cons rows14 <| .cons rows15 <| .cons rows16 .nil

theorem rowsTree_eq : rowsTree = .cons (.text ('\n' :: rowsRest)) rowsTail := rfl

theorem text_lines {P : NS → Prop} {t : Str} {L : List Str} (h : IsLines t L) :
    GivesLines P ((Node.text t).run WC) (.ok L) := .ofText (Gives.text t) h

theorem of_eq {P : NS → Prop} {run : St Val NS → St Val NS × Stat} {r s : Except TErr (List Str)}
    (h : GivesLines P run r) (e : r = s) : GivesLines P run s := e ▸ h

theorem pointTree_lines (cfg : Cfg) (hv : cfg.vectorized = false) (hg : cfg.gridTypes.length = cfg.d) :
    GivesLines (Base cfg) ((Nodes.cons (.text pointRest) pointTail).run WC)
    (toLines (fun basis => headLines ++ blk cfg "    " (genAllocPoint cfg ++ genRecover cfg false
      ++ genCoords cfg (pointGuard cfg) ++ genLocate cfg ++ basis ++ genReducePoint cfg)) (genBasis cfg)) := by
  have t0 : IsLines pointRest headLines := by
    unfold pointRest headLines
    lines ["def eval_spline(grid, C, points, out=None, k=1, diff=\"None\", extrap_mode='linear'):",
      "    \"This is my docstring\"", ""]
  have t2 : IsLines c!"\n    #recover grid parameters\n" [] := by lines ["", "    #recover grid parameters"]
  have t4 : IsLines c!"\n    # extract coordinates\n" [] := by lines ["", "    # extract coordinates"]
  have t6 : IsLines c!"\n    # compute indices and barycentric coordinates\n" [] := by
    lines ["", "    # compute indices and barycentric coordinates"]
  have t8 : IsLines c!"\n    # Basis functions\n" [] := by lines ["", "    # Basis functions"]
  have key := (text_lines t0).cons <| (point1_lines cfg).cons <| (text_lines t2).cons <|
    (point3_lines cfg hg).cons <| (text_lines t4).cons <| (point5_lines cfg hv).cons <|
    (text_lines t6).cons <| (point7_lines cfg hg).cons <| (text_lines t8).cons <|
    (point9_lines cfg).cons <| .skip <| only (point11_lines cfg hv)
  refine of_eq key ?_
  clear key t0 t4 t6 t8
  cases genBasis cfg with
  | error e => rfl
  | ok basis =>
    simp only [toLines, blk_append, tok_bind, tpure, List.nil_append, List.append_assoc]

theorem rowsTree_lines (cfg : Cfg) (hv : cfg.vectorized = true) (hg : cfg.gridTypes.length = cfg.d) :
    GivesLines (Base cfg) ((Nodes.cons (.text rowsRest) rowsTail).run WC)
    (toLines (fun basis => headLines ++ "    N = points.shape[0]".toList ::
        blk cfg "    " (genAllocVec cfg ++ genRecover cfg true)
      ++ "    for nn in range(N):".toList :: blk cfg "        " (genCoords cfg .zeroContinue ++ genLocate cfg
        ++ basis ++ genReduceVec cfg)
      ++ (if cfg.allocate then [c!"    return out"] else [])) (genBasis cfg)) := by
  have t0 : IsLines rowsRest (headLines ++ ["    N = points.shape[0]".toList]) := by
    unfold rowsRest headLines
    lines ["def eval_spline(grid, C, points, out=None, k=1, diff=\"None\", extrap_mode='linear'):",
      "    \"This is my docstring\"", "", "    N = points.shape[0]", ""]
  have t4 : IsLines c!"\n    #recover grid parameters\n" [] := by lines ["", "    #recover grid parameters"]
  have t6 : IsLines c!"\n    for nn in range(N):\n\n        # extract coordinates\n"
      ["    for nn in range(N):".toList] := by
    lines ["", "    for nn in range(N):", "", "        # extract coordinates"]
  have t8 : IsLines c!"\n        # compute indices and barycentric coordinates\n" [] := by
    lines ["", "        # compute indices and barycentric coordinates"]
  have t10 : IsLines c!"\n        # Basis functions\n" [] := by lines ["", "        # Basis functions"]
  have key := (text_lines t0).cons <| (rows1_lines cfg).cons <| .skip <| (rows3_lines cfg).cons <|
    (text_lines t4).cons <| (rows5_lines cfg hg).cons <| (text_lines t6).cons <|
    (rows7_lines cfg hv).cons <| (text_lines t8).cons <| (rows9_lines cfg hg).cons <|
    (text_lines t10).cons <| (rows11_lines cfg).cons <| .skip <| (rows13_lines cfg hv).cons <| .skip <|
    only (rows15_lines cfg)
  refine of_eq key ?_
  clear key t0 t4 t6 t8
  cases genBasis cfg with
  | error e => rfl
  | ok basis =>
    simp only [toLines, blk_append, genAllocVec, tok_bind, tpure, List.nil_append, List.append_assoc,
      List.cons_append]

/-! ### `get_code_spline` -/

theorem program_vec (cfg : Cfg) (p : Program) (hv : cfg.vectorized = true) (hr : p.retOut = cfg.allocate) :
    (program cfg p).map String.toList = headLines ++ "    N = points.shape[0]".toList ::
        blk cfg "    " p.prelude ++ "    for nn in range(N):".toList :: blk cfg "        " p.body
      ++ (if cfg.allocate then [c!"    return out"] else []) := by
  simp only [program, hv, hr, blk, headLines]
  cases cfg.allocate <;> simp

theorem program_point (cfg : Cfg) (p : Program) (hv : cfg.vectorized = false) (hr : p.retOut = false)
    (hb : p.body = []) : (program cfg p).map String.toList = headLines ++ blk cfg "    " p.prelude := by
  simp [program, hv, hr, hb, blk, headLines, block]

/-- The check of `get_code_spline`. -/
def Refused (cfg : Cfg) : Prop :=
  ¬ (cfg.gridTypes ≠ [] ∧ ∀ t ∈ cfg.gridTypes, t = .uniform) ∧ 1 < cfg.k

theorem getCodeText_refused {cfg : Cfg} (h : Refused cfg) :
    getCodeText cfg = .error (.exception "Nonuniform grids are only supported for linear splines.") := by
  unfold Refused at h
  unfold getCodeText
  rw [if_pos h]
  exact error_bind _ _

theorem after_parse {a b : Except Err Nodes} {x y : Nodes} (ha : a = .ok x) (hb : b = .ok y) (s : Except Err Str) :
    (do let _ ← a; let _ ← b; let code ← s; pure (code.drop 1)) = (do let code ← s; pure (code.drop 1)) := by
  subst ha hb
  rfl

theorem parsed_point : ofTErr (parse evalTemplate) = .ok pointTree := by rw [point_parse]; rfl

theorem parsed_rows : ofTErr (parse evalTemplateVectorized) = .ok rowsTree := by rw [rows_parse]; rfl

theorem getCodeText_run {cfg : Cfg} (h : ¬ Refused cfg) :
    getCodeText cfg = (do
      let code ← ofTErr (substitute WC (if cfg.vectorized then evalTemplateVectorized else evalTemplate)
        (namespace0 cfg))
      pure (code.drop 1)) := by
  unfold Refused at h
  unfold getCodeText
  rw [if_neg h]
  exact after_parse parsed_point parsed_rows _

theorem run_ok {x : Except TErr Str} {t : Str} (h : x = .ok ('\n' :: t)) :
    (do let code ← ofTErr x; pure (code.drop 1)) = (.ok t : Except Err Str) := by
  subst h
  rfl

theorem run_error {x : Except TErr Str} {e : Err} (h : x = .error (.python e)) :
    (do let code ← ofTErr x; pure (code.drop 1)) = (.error e : Except Err Str) := by
  subst h
  rfl

/-- The program that the model generates. -/
def theProgram (cfg : Cfg) (basis : List Stmt) : Program :=
  if cfg.vectorized then
    { prelude := genAllocVec cfg ++ genRecover cfg true
      body := genCoords cfg .zeroContinue ++ genLocate cfg ++ basis ++ genReduceVec cfg
      retOut := cfg.allocate }
  else
    { prelude := genAllocPoint cfg ++ genRecover cfg false ++ genCoords cfg (pointGuard cfg)
        ++ genLocate cfg ++ basis ++ genReducePoint cfg
      body := []
      retOut := false }

theorem getCodeSpline_refused {cfg : Cfg} (h : Refused cfg) :
    getCodeSpline cfg = .error (.exception "Nonuniform grids are only supported for linear splines.") := by
  unfold Refused at h
  unfold getCodeSpline
  rw [if_pos h]
  exact error_bind _ _

theorem getCodeSpline_run {cfg : Cfg} (h : ¬ Refused cfg) :
    getCodeSpline cfg = (do let basis ← genBasis cfg; pure (theProgram cfg basis)) := by
  unfold Refused at h
  unfold getCodeSpline
  rw [if_neg h]
  unfold theProgram
  cases genBasis cfg with
  | error e => rfl
  | ok b => cases cfg.vectorized <;> rfl

/-- The generated text has the lines of the model's program. -/
theorem getCodeText_ok {cfg : Cfg} {p : Program} (hg : cfg.gridTypes.length = cfg.d)
    (h : getCodeSpline cfg = .ok p) :
    ∃ t, getCodeText cfg = .ok t ∧ codeLines t = (program cfg p).map String.toList := by
  have hb := base_namespace0 cfg
  by_cases hc : Refused cfg
  · rw [getCodeSpline_refused hc] at h
    cases h
  rw [getCodeSpline_run hc] at h
  rw [getCodeText_run hc]
  cases hbas : genBasis cfg with
  | error e => rw [hbas] at h; cases h
  | ok basis =>
    rw [hbas] at h
    have hp : p = theProgram cfg basis := (Except.ok.inj h).symm
    subst hp
    cases hv : cfg.vectorized with
    | true =>
      have hl := rowsTree_lines cfg hv hg
      rw [hbas] at hl
      obtain ⟨t, ht, hL⟩ := substitute_drop rows_parse rowsTree_eq hl hb
      rw [if_pos rfl]
      refine ⟨t, run_ok ht, ?_⟩
      rw [hL.codeLines, theProgram, if_pos hv, program_vec cfg _ hv rfl]
    | false =>
      have hl := pointTree_lines cfg hv hg
      rw [hbas] at hl
      obtain ⟨t, ht, hL⟩ := substitute_drop point_parse pointTree_eq hl hb
      rw [if_neg Bool.false_ne_true]
      refine ⟨t, run_ok ht, ?_⟩
      rw [hL.codeLines, theProgram, if_neg (by simp [hv]), program_point cfg _ hv rfl rfl]

/-- Both raise the same exception. -/
theorem getCodeText_error {cfg : Cfg} {e : Err} (hg : cfg.gridTypes.length = cfg.d)
    (h : getCodeSpline cfg = .error e) : getCodeText cfg = .error e := by
  have hb := base_namespace0 cfg
  by_cases hc : Refused cfg
  · rw [getCodeSpline_refused hc] at h
    rw [getCodeText_refused hc, Except.error.inj h]
  rw [getCodeSpline_run hc] at h
  rw [getCodeText_run hc]
  cases hbas : genBasis cfg with
  | ok basis => rw [hbas] at h; cases h
  | error e' =>
    rw [hbas] at h
    have he : e' = e := Except.error.inj h
    subst he
    cases hv : cfg.vectorized with
    | true =>
      have hl := rowsTree_lines cfg hv hg
      rw [hbas] at hl
      rw [if_pos rfl]
      exact run_error (substitute_drop_error rows_parse rowsTree_eq hl hb)
    | false =>
      have hl := pointTree_lines cfg hv hg
      rw [hbas] at hl
      rw [if_neg Bool.false_ne_true]
      exact run_error (substitute_drop_error point_parse pointTree_eq hl hb)

end Interp.CodegenText
