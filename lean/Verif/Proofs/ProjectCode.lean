import Verif.Proofs.FunLines
import Verif.Proofs.FungenEval

/-!
# The text written by `project` is read back and clamps the point
-/

namespace Interp.PyParse
open Interp.Spec.PyLang
open Interp.Spec.Text (codeLines)
open Interp.Tempita (unlines)
open Interp.FungenText
open Interp.PyExpr (dec)
open Interp.Mlinterp
open Interp.Codegen hiding exec

set_option linter.unusedSectionVars false

/-- `x_i`. -/
abbrev xn (i : ℕ) : Str := 'x' :: '_' :: dec i

theorem xn_inj {i j : ℕ} : xn i = xn j ↔ i = j := by
  have := nameOf_inj (k := .dim i .x) (k' := .dim j .x)
  simpa [nameOf, dg, dec] using this

theorem isName_xn (i : ℕ) : IsName (xn i) := isName_dim i .x

abbrev gridN : Str := ['g', 'r', 'i', 'd']
abbrev pointN : Str := ['p', 'o', 'i', 'n', 't']
abbrev minN : Str := ['m', 'i', 'n']
abbrev maxN : Str := ['m', 'a', 'x']

theorem isName_gridN : IsName gridN := by isname
theorem isName_pointN : IsName pointN := by isname
theorem isName_minN : IsName minN := by isname
theorem isName_maxN : IsName maxN := by isname

/-- `grid[i]`. -/
abbrev gridAt (i : ℕ) : PExpr := at1 (.name gridN) (.int i)

/-- The upper end of an axis. -/
def upper (i : ℕ) (arr : Bool) : PExpr :=
  if arr then at1 (gridAt i) (.bin .minus (at1 (.attr (gridAt i) shapeName) (.int 0)) (.int 1)) else at1 (gridAt i) (.int 1)

def clampE (i : ℕ) (arr : Bool) : PExpr :=
  .call (.name minN) (L [.call (.name maxN) (L [at1 (.name pointN) (.int i), at1 (gridAt i) (.int 0)]), upper i arr])

def projA (i : ℕ) (arr : Bool) : List Simple := [.assign (.name (xn i)) (clampE i arr)]

def retA (d : ℕ) : List Simple := [.ret (.tuple (L ((List.range d).map fun i => .name (xn i))) true)]

def projParams : List (Str × Option PExpr) := [(gridN, none), (pointN, none)]

def projName : Str := ['_', '_', 'p', 'r', 'o', 'j', 'e', 'c', 't']

def projTree (axes : List Bool) : Block :=
  .block (.defH projName projParams) (lines (axes.mapIdx projA ++ [retA axes.length])) .nil

theorem map_mapIdx' {α β γ : Type} (f : ℕ → α → β) (g : β → γ) (l : List α) : (l.mapIdx f).map g = l.mapIdx fun i a => g (f i a) := by
  apply List.ext_getElem <;> simp

theorem mapIdx_map' {α β γ : Type} (f : ℕ → β → γ) (g : α → β) (l : List α) : (l.map g).mapIdx f = l.mapIdx fun i a => f i (g a) := by
  apply List.ext_getElem <;> simp

theorem linesOf_lines (k : ℕ) (l : List (List Simple)) : linesOf k (lines l) = l.map fun ss => (k, .simple ss) := by
  induction l with
  | nil => rfl
  | cons ss l ih => simp [lines, linesOf, ih]

theorem full_lines (l : List (List Simple)) : full (lines l) := by
  induction l with
  | nil => trivial
  | cons ss l ih => exact ih

theorem spell_attr (st : Style) (e : PExpr) (s : Str) : spell (pr st (.attr e s)) = spell (pr st e) ++ '.' :: s := by
  simp [pr, spell_append, spell, Piece.spell, spellTok, spellOp]

theorem spell_minus (st : Style) (a b : PExpr) : spell (pr st (.bin .minus a b)) = spell (pr st a) ++ '-' :: spell (pr st b) := by
  simp [pr, spell_append, spell, Piece.spell, spellTok, spellOp, gap]

theorem spell_args2 (st : Style) (a b : PExpr) : spell (pr st (L [a, b])) = spell (pr st a) ++ (commaText st.comma ++ spell (pr st b)) := by
  rw [L, pr_cons st _ _ (by simp [L])]
  unfold commaText
  cases st.comma <;> simp [L, pr, spell_append, spell, Piece.spell, spellTok, spellOp, gap]

theorem clamp_text (i : ℕ) (arr : Bool) :
    List.replicate 4 ' ' ++ spell (linePr half (.simple (projA i arr))) ++ ['\n'] = projectLine i arr := by
  have e0 : spell (pr half (at1 (.name pointN) (.int i))) = c!"point[" ++ dec i ++ c!"]" := by
    simp [spell_at, spell_name, spell_int]
  have e1 : spell (pr half (at1 (gridAt i) (.int 0))) = c!"grid[" ++ dec i ++ c!"][0]" := by
    simp [spell_at, spell_name, spell_int]
    decide
  have e2 : spell (pr half (upper i arr)) =
      if arr then c!"grid[" ++ dec i ++ c!"][grid[" ++ dec i ++ c!"].shape[0]-1]" else c!"grid[" ++ dec i ++ c!"][1]" := by
    cases arr
    · simp [upper, spell_at, spell_name, spell_int]
      decide
    · simp only [upper, if_true, spell_at, spell_minus, spell_attr, spell_name, spell_int]
      simp only [show dec 0 = ['0'] by decide, show dec 1 = ['1'] by decide]
      simp
  have hc : commaText half.comma = [',', ' '] := rfl
  have hl : spell (linePr half (.simple (projA i arr))) = xn i ++ ' ' :: '=' :: ' ' :: spell (pr half (clampE i arr)) := by
    simp [linePr, projA, pr, spell_append, spell, Piece.spell, spellTok, spellOp]
  rw [hl, clampE, spell_call, spell_args2, spell_call, spell_args2, e0, e1, e2, hc, spell_name, spell_name, projectLine]
  cases arr <;> simp [List.replicate_succ]

theorem upper_fine (i : ℕ) (arr : Bool) : fine (upper i arr) ∧ wf .expr (upper i arr) ∧ upper i arr ≠ .nil := by
  cases arr
  · exact ⟨⟨⟨isName_gridN, trivial, trivial⟩, trivial, trivial⟩, by simp [upper, wf, level], by simp [upper]⟩
  · exact ⟨⟨⟨isName_gridN, trivial, trivial⟩, ⟨rfl, by simp, ⟨⟨⟨isName_gridN, trivial, trivial⟩, rfl, isName_shape⟩, trivial, trivial⟩, trivial⟩,
      trivial⟩, by simp [upper, wf, level, opLevel], by simp [upper]⟩

theorem clamp_fine (i : ℕ) (arr : Bool) : lineFine (.simple (projA i arr)) := by
  obtain ⟨h1, h2, h3⟩ := upper_fine i arr
  refine ⟨trivial, isName_xn i, trivial, ?_, ?_⟩
  · exact ⟨isName_minN, ⟨isName_maxN, ⟨isName_pointN, trivial, trivial⟩, ⟨⟨isName_gridN, trivial, trivial⟩, trivial, trivial⟩, trivial⟩, h1, trivial⟩
  · simp [clampE, wf, level, L, h2]

theorem ret_fine {d : ℕ} (hd : 1 ≤ d) : lineFine (.simple (retA d)) :=
  ⟨fine_map fun i => isName_xn i, wf_tuple_map (fun _ => trivial) (range_ne hd)⟩

theorem ret_text (d : ℕ) : List.replicate 4 ' ' ++ spell (linePr half (.simple (retA d)))
    = c!"    return (" ++ join c!", " ((List.range d).map fun i => c!"x_" ++ dec i) ++ c!",)" := by
  have : spell (linePr half (.simple (retA d))) = c!"return " ++ spell (pr half (.tuple (L ((List.range d).map fun i => .name (xn i))) true)) := by
    simp [linePr, retA, spell, Piece.spell, spellTok, spellOp]
  rw [this, tuple_text half _ xn _ (by simp) (fun i _ => by simp [spell_name])]
  simp [List.replicate_succ, half, commaText, xn]

theorem projHead_text : spell (linePr half (.header (.defH projName projParams))) = c!"def __project(grid, point):" := by decide

theorem project_read {axes : List Bool} (h : axes ≠ []) : Ev (fun n => pLines n (codeLines (projectText axes))) (projTree axes) := by
  have hd : 1 ≤ axes.length := List.length_pos_iff.mpr h
  set ls : List Str := c!"def __project(grid, point):" ::
    axes.mapIdx (fun i arr => List.replicate 4 ' ' ++ spell (linePr half (.simple (projA i arr)))) with hls
  set last : Str := List.replicate 4 ' ' ++ spell (linePr half (.simple (retA axes.length))) with hlast
  have htext : projectText axes = unlines ls ++ last := by
    rw [projectText, hlast, ret_text, hls, unlines, List.flatMap_cons, List.flatMap_def, map_mapIdx']
    have : (axes.mapIdx fun i arr => List.replicate 4 ' ' ++ spell (linePr half (.simple (projA i arr))) ++ ['\n']) = axes.mapIdx projectLine := by
      congr 1
      funext i arr
      exact clamp_text i arr
    rw [this]
    simp
  have hg : List.Forall₂ CodeLine ls ((0, .header (.defH projName projParams)) :: (axes.mapIdx projA).map fun ss => (4, .simple ss)) := by
    rw [hls]
    refine .cons ?_ ?_
    · have := good_line (k := 0) (st := half) (C := .header (.defH projName projParams))
        ⟨by show IsName ['_', '_', 'p', 'r', 'o', 'j', 'e', 'c', 't']; isname, by simp [projParams], by
          intro p hp
          simp only [projParams, List.mem_cons, List.not_mem_nil, or_false] at hp
          rcases hp with hp | hp <;> rw [hp]
          · exact ⟨isName_gridN, rfl⟩
          · exact ⟨isName_pointN, rfl⟩⟩
      rw [projHead_text] at this
      exact this
    · rw [map_mapIdx', List.forall₂_iff_get]
      refine ⟨by simp, fun i h1 h2 => ?_⟩
      simp only [List.get_eq_getElem, List.getElem_mapIdx]
      exact good_line (clamp_fine _ _)
  have hlg : CodeLine last (4, .simple (retA axes.length)) := good_line (ret_fine hd)
  have hc : codeLines (projectText axes) = ls ++ [last] := by
    rw [htext, codeLines_good hg, codeLines_end hlg]
  rw [hc]
  have hall := good_lines (List.rel_append hg (.cons hlg .nil))
  refine text_ev (b := projTree axes) ⟨by simp [lines, List.append_eq_nil_iff]; cases axes <;> simp [lines] at h ⊢, full_lines _, trivial⟩ ?_
  rw [hall.1]
  have := hall.2.1
  simpa [projTree, linesOf, linesOf_lines] using this

/-! ### Meaning -/

variable {K : Type} [Add K] [Sub K] [Mul K] [Div K] [Neg K] [Zero K] [One K] [NatCast K]
  [IntCast K] [LT K] [DecidableLT K] [BEq K] [IntFloor K] {ctx env : Env K}

/-- Is the axis an array? -/
def isArray : GridDim K → Bool
  | .array _ => true
  | .uniform .. => false

theorem numMax_flt {w : Val K} {x a : K} (h : toFloat w = .ok x) : numMax w (.flt a) = .ok (.flt (pyMax x a)) := by
  cases w <;> cases h <;> rfl

/-- One axis. -/
def clampAxis (g : GridDim K) (x : K) : Py K :=
  match g with
  | .array gc => do
    let g0 ← listRead gc 0
    let g1 ← listRead gc ((gc.length : ℤ) - 1)
    pure (pyMin (pyMax x g0) g1)
  | .uniform a b _ => pure (pyMin (pyMax x a) b)

theorem project_cons (g : GridDim K) (G : List (GridDim K)) (x : K) (xs : List K) :
    project (g :: G) (x :: xs) = clampAxis g x >>= fun y => project G xs >>= fun ys => pure (y :: ys) := by
  cases g <;> simp only [project, clampAxis, bind_assoc, pure_bind]

theorem eval_clamp {G : List (GridDim K)} {ws : List (Val K)} (hmin : ctx minN = some (.fn .min)) (hmax : ctx maxN = some (.fn .max))
    (emin : env minN = none) (emax : env maxN = none) (hg : env gridN = some (.tup (G.map axisVal)))
    (hp : env pointN = some (.tup ws)) {i : ℕ} {g : GridDim K} {w : Val K} {x : K} (hi : G[i]? = some g) (hw : ws[i]? = some w)
    (hx : toFloat w = .ok x) : eval ctx env (clampE i (isArray g)) = clampAxis g x >>= fun y => .ok (.flt y) := by
  have em : eval ctx env (.name minN) = .ok (.fn .min) := by simp only [eval, lookup, emin, hmin]; rfl
  have eM : eval ctx env (.name maxN) = .ok (.fn .max) := by simp only [eval, lookup, emax, hmax]; rfl
  have ep : eval ctx env (at1 (.name pointN) (.int i)) = .ok w := eval_at_tup (eval_name hp) (eval_int i) hw
  have eg : eval ctx env (gridAt i) = .ok (axisVal g) :=
    eval_at_tup (eval_name hg) (eval_int i) (by rw [List.getElem?_map, hi]; rfl)
  cases g with
  | uniform a b n =>
    have e0 : eval ctx env (at1 (gridAt i) (.int 0)) = .ok (.flt a) := eval_at_tup (n := 0) eg (eval_int 0) rfl
    have e1 : eval ctx env (upper i false) = .ok (.flt b) := eval_at_tup (n := 1) eg (eval_int 1) rfl
    rw [clampE, isArray, eval_call2 em ((eval_call2 eM ep e0).trans (numMax_flt hx)) e1]
    rfl
  | array gc =>
    have ev : eval ctx env (gridAt i) = .ok (.arr (vec gc)) := eg
    have e0 : eval ctx env (at1 (gridAt i) (.int 0)) = listRead gc 0 >>= fun x => .ok (.flt x) := by
      rw [eval_at_arr (z := 0) ev (eval_int 0), vec_read]
    have es : eval ctx env (at1 (.attr (gridAt i) shapeName) (.int 0)) = .ok (.int gc.length) := by
      refine eval_at_tup (vs := [.int gc.length]) (n := 0) ?_ (eval_int 0) rfl
      rw [eval, ev]; rfl
    have e1 : eval ctx env (upper i true) = listRead gc ((gc.length : ℤ) - 1) >>= fun x => .ok (.flt x) := by
      rw [upper, if_pos rfl, eval_at_arr (z := (gc.length : ℤ) - 1) ev ((eval_bin (by simp) es (eval_int 1)).trans rfl), vec_read]
    simp only [clampE, isArray, L]
    rw [eval, em, ok_bind, eval, eval, eM, ok_bind, eval, ep, ok_bind, eval, e0]
    simp only [clampAxis]
    rcases listRead gc 0 with e | g0
    · rfl
    · simp only [ok_bind]
      rw [eval]
      simp only [consVal, pure_bind, callVal, apply, numMax_flt hx, ok_bind]
      rw [eval, e1]
      rcases listRead gc ((gc.length : ℤ) - 1) with e | g1 <;> rfl

theorem exec_assign (s : Str) (e : PExpr) (r : List (List Simple)) :
    exec ctx (lines ([.assign (.name s) e] :: r)) none env = eval ctx env e >>= fun w => exec ctx (lines r) none (env.set s w) := by
  simp only [exec, lines, execSimples, execSimple, assignTo, bind_assoc, pure_bind]

theorem project_exec {G : List (GridDim K)} {ws : List (Val K)} (hmin : ctx minN = some (.fn .min)) (hmax : ctx maxN = some (.fn .max)) :
    ∀ (gs : List (GridDim K)) (j : ℕ) (xs done : List K) (env : Env K), G.drop j = gs → done.length = j →
      (∀ i x, xs[i]? = some x → ∃ w, ws[j + i]? = some w ∧ toFloat w = .ok x) → gs.length ≤ xs.length →
      env minN = none → env maxN = none → env gridN = some (.tup (G.map axisVal)) → env pointN = some (.tup ws) →
      (∀ i y, done[i]? = some y → env (xn i) = some (.flt y)) →
      (exec ctx (lines ((gs.mapIdx fun i g => projA (j + i) (isArray g)) ++ [retA (j + gs.length)])) none env >>= fun r => .ok r.2)
        = project gs xs >>= fun ys => .ok (.ret (.tup ((done ++ ys).map .flt)))
  | [], j, xs, done, env, _, hj, _, _, _, _, _, _, hd => by
    have hr : eval ctx env (.tuple (L ((List.range j).map fun i => .name (xn i))) true) = .ok (.tup (done.map .flt)) := by
      rw [eval_range (W := fun i => eval ctx env (.name (xn i))) _ fun _ _ => rfl, ← hj,
        mapM_range (g := fun y => .ok (.flt y)) done (fun i y hy => eval_name (hd i y hy)), mapM_ok _ _ _ (fun _ _ => rfl)]
      rfl
    simp only [List.mapIdx_nil, List.nil_append, List.length_nil, Nat.add_zero, retA, lines, exec, execSimples, execSimple, hr, project,
      ok_bind, pure_bind, List.append_nil]
  | g :: gs, j, xs, done, env, hG, hj, hx, hl, h1, h2, h3, h4, hd => by
    cases xs with
    | nil => simp at hl
    | cons x xs =>
      obtain ⟨w, hw, hwx⟩ := hx 0 x rfl
      have hi : G[j]? = some g := by
        have := congrArg (fun l => l[0]?) hG
        simpa [List.getElem?_drop] using this
      rw [List.mapIdx_cons, List.cons_append, Nat.add_zero, projA, exec_assign, eval_clamp hmin hmax h1 h2 h3 h4 hi hw hwx, project_cons]
      rcases hc : clampAxis g x with e | y
      · rfl
      · simp only [ok_bind]
        have hset : ∀ s : Str, s ≠ xn j → (env.set (xn j) (.flt y)) s = env s := fun s hs => by simp [Env.set, hs]
        have ih := project_exec hmin hmax gs (j + 1) xs (done ++ [y]) (env.set (xn j) (.flt y))
          (by rw [← List.drop_drop, hG]; rfl) (by simp [hj])
          (fun i x' hx' => by
            have := hx (i + 1) x' (by simpa using hx')
            rwa [show j + (i + 1) = j + 1 + i by omega] at this) (by simpa using hl)
          ((hset _ (by simp)).trans h1) ((hset _ (by simp)).trans h2) ((hset _ (by simp)).trans h3) ((hset _ (by simp)).trans h4)
          (fun i y' hy' => by
            by_cases hij : i = j
            · subst hij
              rw [List.getElem?_append_right (by omega)] at hy'
              simp [hj] at hy'
              simp [Env.set, hy']
            · rw [hset _ (fun h => hij (xn_inj.mp h))]
              apply hd
              rw [List.getElem?_append] at hy'
              split at hy'
              · exact hy'
              · exact absurd (List.getElem?_eq_some_iff.mp hy').1 (by simp only [List.length_singleton]; omega))
        simp only [List.length_cons]
        rw [show j + (gs.length + 1) = j + 1 + gs.length by omega]
        rw [show (fun i g => projA (j + (i + 1)) (isArray g)) = fun i (g : GridDim K) => projA (j + 1 + i) (isArray g) from by
          funext i g; rw [show j + (i + 1) = j + 1 + i by omega], ih]
        simp only [bind_assoc, pure_bind, List.append_assoc, List.singleton_append]

/-- What the function does: it moves every coordinate to the nearest point of its axis. -/
theorem project_eval {G : List (GridDim K)} {ws : List (Val K)} {x : List K} (hmin : ctx minN = some (.fn .min))
    (hmax : ctx maxN = some (.fn .max)) (hw : ws.mapM toFloat = .ok x) (hl : G.length ≤ x.length) :
    (callFunction ctx (projTree (G.map isArray)) [.tup (G.map axisVal), .tup ws] >>= fun r => .ok r.1)
      = project G x >>= fun ys => .ok (.tup (ys.map .flt)) := by
  have hx : ∀ i y, x[i]? = some y → ∃ w, ws[0 + i]? = some w ∧ toFloat w = .ok y := by
    clear hl
    induction ws generalizing x with
    | nil => cases hw; simp
    | cons w ws ih =>
      rw [List.mapM_cons] at hw
      rcases h0 : toFloat w with e | y0
      · rw [h0] at hw; cases hw
      rcases h1 : ws.mapM toFloat with e | ys
      · rw [h0, h1] at hw; cases hw
      rw [h0, h1] at hw
      cases hw
      intro i y hy
      cases i with
      | zero => exact ⟨w, rfl, by simp at hy; rw [← hy]; exact h0⟩
      | succ i =>
        obtain ⟨w', h2, h3⟩ := ih h1 i y (by simpa using hy)
        exact ⟨w', by simpa using h2, h3⟩
  have := project_exec (ctx := ctx) (ws := ws) hmin hmax G 0 x []
    ((Env.set (fun _ => none) gridN (.tup (G.map axisVal))).set pointN (.tup ws)) rfl rfl hx hl
    (by simp [Env.set]) (by simp [Env.set]) (by simp [Env.set]) (by simp [Env.set]) (by simp)
  simp only [Nat.zero_add, List.nil_append] at this
  have hm : (G.map isArray).mapIdx projA = G.mapIdx fun i g => projA i (isArray g) := by
    rw [mapIdx_map']
  simp only [projTree, projParams, callFunction, bindParams, pure_bind, bind_assoc, hm, List.length_map]
  rcases hE : exec ctx (lines (List.mapIdx (fun i g => projA i (isArray g)) G ++ [retA G.length])) none
    ((Env.set (fun _ => none) gridN (.tup (G.map axisVal))).set pointN (.tup ws)) with e | ⟨q, ex⟩
  · rw [hE] at this
    rw [show (Except.error e >>= fun r : Env K × Exit K => (.ok r.2 : Py (Exit K))) = .error e from rfl] at this
    rcases hP : project G x with e' | ys
    · rw [hP] at this
      cases this; rfl
    · rw [hP] at this; cases this
  · rw [hE] at this
    rcases hP : project G x with e' | ys
    · rw [hP] at this; cases this
    · rw [hP] at this
      injection this with this
      dsimp only at this
      subst this
      rfl

end Interp.PyParse
