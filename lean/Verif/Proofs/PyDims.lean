import Verif.Proofs.PySim

/-!
# Statements that compute the variables of one dimension
-/

namespace Interp.PyParse
open Interp.Spec.PyLang
open Interp.Codegen hiding exec

set_option linter.unusedSectionVars false

variable {K : Type} [Add K] [Sub K] [Mul K] [Div K] [Neg K] [Zero K] [One K] [NatCast K]
  [IntCast K] [LT K] [DecidableLT K] [BEq K] [IntFloor K]

variable {cfg : Cfg} {pv : Val K} {c : Ctx K} {env : Env K} {s : State K} {ctx : Env K}

/-- The relation after a statement. -/
abbrev Step (cfg : Cfg) (pv : Val K) (c : Ctx K) (r : State K × Flow K) (q : Env K × Exit K) : Prop :=
  Rel cfg pv c q.1 r.1 ∧ FlowRel r.2 q.2

theorem wrapIndex_nat {n i : ℕ} (h : i < n) : wrapIndex n (i : ℤ) = some i := by
  simp [wrapIndex, h]

theorem vec_read (l : List K) (z : ℤ) : (vec l).read [z] = listRead l z := by
  simp only [NdArray.read, vec, wrapIndices, listRead]
  rcases h : wrapIndex l.length z with _ | j
  · rfl
  · have hj : j < l.length := by
      simp only [wrapIndex] at h
      split_ifs at h <;> simp at h <;> omega
    simp [List.getElem?_eq_getElem hj, List.getD_eq_getElem?_getD]

theorem vec_vector (l : List K) : vector (vec l) = pure l := by
  simp only [vector, vec]
  congr 1
  apply List.ext_getElem
  · simp
  · intro i h1 h2
    simp [List.getD_eq_getElem?_getD, List.getElem?_eq_getElem h2]

theorem mat_read (f : ℕ → ℕ → K) {j m : ℕ} (hj : j < 4) (hm : m < 4) : (mat f).read [(j : ℤ), (m : ℤ)] = .ok (f j m) := by
  simp [NdArray.read, mat, wrapIndices, wrapIndex_nat hj, wrapIndex_nat hm]

theorem execSimples_set (ctx env : Env K) (k : Key) (e : PExpr) (ss : List Simple) :
    execSimples ctx (set k e :: ss) env = eval ctx env e >>= fun w => execSimples ctx ss (env.set (nameOf k) w) := by
  simp only [execSimples, execSimple, assignTo, bind_assoc, pure_bind]

theorem exec_set (ctx env : Env K) (k : Key) (e : PExpr) (r : List (List Simple)) (ch : Option Bool) :
    exec ctx (lines ([set k e] :: r)) ch env = eval ctx env e >>= fun w => exec ctx (lines r) none (env.set (nameOf k) w) := by
  simp only [exec, lines, execSimples_set, bind_assoc]
  rfl

theorem exec_lines_nil (ctx env : Env K) (ch : Option Bool) : exec ctx (lines []) ch env = .ok (env, .next) := rfl

theorem eval_key {k : Key} {w : Val K} (h : env (nameOf k) = some w) : eval ctx env (v k) = .ok w := by
  simp only [eval, lookup, h]; rfl

theorem eval_glob (hctx : ∀ g, ctx (nameOf (.glob g)) = some (globVal g)) {g : Glob} (h : env (nameOf (.glob g)) = none) :
    eval ctx env (gl g) = .ok (globVal g) := by
  simp only [eval, lookup, h, hctx]; rfl

theorem eval_at_tup {e i : PExpr} {vs : List (Val K)} {n : ℕ} {w : Val K} (he : eval ctx env e = .ok (.tup vs))
    (hi : eval ctx env i = .ok (.int n)) (h : vs[n]? = some w) : eval ctx env (at1 e i) = .ok w := by
  have hn : n < vs.length := by rw [List.getElem?_eq_some_iff] at h; exact h.1
  simp only [eval, he, hi, ok_bind, consVal, indexVal, getItem, toInts, wrapIndex_nat hn, h, pure_eq_ok]

theorem eval_at_arr {e i : PExpr} {A : NdArray K} {z : ℤ} (he : eval ctx env e = .ok (.arr A))
    (hi : eval ctx env i = .ok (.int z)) : eval ctx env (at1 e i) = A.read [z] >>= fun x => .ok (.flt x) := by
  simp only [eval, he, hi, ok_bind, consVal, indexVal, getItem, toInts, pure_eq_ok]

theorem eval_call1 {f a : PExpr} {g : Fn} {x : Val K} (hf : eval ctx env f = .ok (.fn g)) (ha : eval ctx env a = .ok x) :
    eval ctx env (.call f (L [a])) = apply g [x] := by
  simp only [eval, L, hf, ha, ok_bind, consVal, callVal, pure_eq_ok]

theorem eval_call2 {f a b : PExpr} {g : Fn} {x y : Val K} (hf : eval ctx env f = .ok (.fn g)) (ha : eval ctx env a = .ok x)
    (hb : eval ctx env b = .ok y) : eval ctx env (.call f (L [a, b])) = apply g [x, y] := by
  simp only [eval, L, hf, ha, hb, ok_bind, consVal, callVal, pure_eq_ok]

theorem eval_bin {o : Op} {a b : PExpr} {x y : Val K} (ho : o ≠ .kOr) (ha : eval ctx env a = .ok x)
    (hb : eval ctx env b = .ok y) : eval ctx env (.bin o a b) = binary o x y := by
  simp only [eval, ha, hb, ok_bind, if_neg ho]

theorem eval_int (n : ℕ) : eval ctx env (.int n) = .ok (.int n) := rfl
theorem eval_paren (e : PExpr) : eval ctx env (.paren e) = eval ctx env e := rfl

/-- A statement that sets one variable. -/
theorem sim_set {i : ℕ} {k : DKey} {e : PExpr} {m : Py (DimVars K)} (h : Rel cfg pv c env s)
    (hs : Sim m (eval ctx env e) fun v' w => ∀ k', dimLook v' k' = if k' = k then some w else dimLook (s.dims i) k') :
    Sim (m >>= fun v' => pure (s.setDim i v', Flow.next)) (exec ctx (lines [[set (.dim i k) e]]) none env) (Step cfg pv c) := by
  rw [exec_set]
  refine hs.bind fun v' w hw => .ok ⟨h.setDim (fun k' => ?_) (fun k' _ hk' => ?_), rfl⟩
  · dsimp only
    rw [set_get, hw]
    simp only [Key.dim.injEq, true_and]
    split_ifs
    · rfl
    · exact h.dim i k'
  · dsimp only
    rw [set_get, if_neg (hk' k)]

theorem sim_clamp (hctx : ∀ g, ctx (nameOf (.glob g)) = some (globVal g)) (h : Rel cfg pv c env s) (i : ℕ) :
    Sim (Codegen.exec c (.clampNearest i) s) (exec ctx (stmtA cfg (.clampNearest i)) none env) (Step cfg pv c) := by
  refine sim_set (m := stepClamp (s.dims i)) h ?_
  refine .var fun a ha => .var fun x hx => .var fun b hb => ?_
  have ea := h.dim i .a
  have eb := h.dim i .b
  have ex := h.dim i .x
  simp only [dimLook, ha, hb, hx, Option.map_some] at ea eb ex
  rw [eval_call2 (eval_glob hctx (h.glob .max)) (eval_key ea)
    ((eval_call2 (eval_glob hctx (h.glob .min)) (eval_key ex) (eval_key eb)).trans rfl)]
  refine .ok fun k' => ?_
  cases k' <;> simp [dimLook]

theorem sim_locateUniform (hctx : ∀ g, ctx (nameOf (.glob g)) = some (globVal g)) (h : Rel cfg pv c env s) (i : ℕ) :
    Sim (Codegen.exec c (.locateUniform i) s) (exec ctx (stmtA cfg (.locateUniform i)) none env) (Step cfg pv c) := by
  show Sim (stepLocateUniform (s.dims i) >>= fun v' => pure (s.setDim i v', Flow.next)) _ _
  unfold stepLocateUniform
  simp only [bind_assoc]
  refine .var fun x hx => .var fun a ha => .var fun d hd => .var fun n hn => ?_
  have ea := h.dim i .a
  have ex := h.dim i .x
  have ed := h.dim i .delta
  have en := h.dim i .n
  simp only [dimLook, ha, hd, hx, hn, Option.map_some] at ea ed ex en
  have : exec ctx (stmtA cfg (.locateUniform i)) none env = .ok
    (((((env.set (nameOf (.u i)) (.flt ((x - a) * d))).set (nameOf (.dim i .idx)) (.int (IntFloor.ifloor ((x - a) * d)))).set
      (nameOf (.dim i .idx)) (.int (pyMax (pyMin (IntFloor.ifloor ((x - a) * d)) (n - 2)) 0)))).set
      (nameOf (.dim i .lam)) (.flt ((x - a) * d - ((pyMax (pyMin (IntFloor.ifloor ((x - a) * d)) (n - 2)) 0 : ℤ) : K))), .next) := by
    simp [stmtA, exec_set, exec_lines_nil, eval, lookup, set_get, h.glob, hctx, globVal, ea, ex, ed, en, L, consVal, callVal, apply,
      binary, arith, toFloat, numMax, numMin]
  rw [this]
  refine .ok ⟨h.setDim (fun k' => ?_) (fun k' hf hk' => ?_), rfl⟩
  · cases k' <;> simp [set_get, dimLook, h.dim]
  · cases k' <;> simp [set_get, Key.free] at hf hk' ⊢
    rename_i j k'
    simp [hk']

theorem sim_recoverUniform (hK : LawfulLit K) (h : Rel cfg pv c env s) (i : ℕ) :
    Sim (Codegen.exec c (.recoverUniform i) s) (exec ctx (stmtA cfg (.recoverUniform i)) none env) (Step cfg pv c) := by
  show Sim (stepRecoverUniform c.grid[i]? (s.dims i) >>= fun v' => pure (s.setDim i v', Flow.next)) _ _
  unfold stepRecoverUniform
  split
  case h_2 => exact .fail (by simp [RunTime])
  rename_i a b n hg
  have eg := h.grid
  have hi : (c.grid.map encAxis)[i]? = some (.tup [.flt a, .flt b, .int n]) := by simp [hg, encAxis]
  have at0 : ∀ (env' : Env K) (m : ℕ) (w : Val K), env' (nameOf .grid) = env (nameOf .grid) →
      [Val.flt a, .flt b, .int n][m]? = some w → eval ctx env' (at1 (at1 (v .grid) (.int i)) (.int m)) = .ok w := by
    intro env' m w he hw
    exact eval_at_tup (eval_at_tup (eval_key (he.trans eg)) (eval_int i) hi) (eval_int m) hw
  have : exec ctx (stmtA cfg (.recoverUniform i)) none env = pyDiv ((n : K) - 1) (b - a) >>= fun d => .ok
    (((((env.set (nameOf (.dim i .a)) (.flt a)).set (nameOf (.dim i .b)) (.flt b)).set
      (nameOf (.dim i .n)) (.int n))).set (nameOf (.dim i .delta)) (.flt d), .next) := by
    simp only [stmtA]
    rw [exec_set, at0 env 0 (.flt a) rfl rfl, ok_bind, exec_set, at0 _ 1 (.flt b) (by simp [set_get]) rfl, ok_bind, exec_set,
      at0 _ 2 (.int n) (by simp [set_get]) rfl, ok_bind, exec_set]
    simp [eval, lookup, set_get, binary, arith, toFloat, divide, hK.one]
    rfl
  rw [this]
  simp only [bind_assoc]
  refine .same fun d => .ok ⟨h.setDim (fun k' => ?_) (fun k' hf hk' => ?_), rfl⟩
  · cases k' <;> simp [set_get, dimLook, h.dim]
  · cases k' <;> simp [set_get, Key.free] at hf hk' ⊢
    rename_i j k'
    simp [hk']

theorem sim_recoverNonuniform (h : Rel cfg pv c env s) (i : ℕ) (bounds : Bool) :
    Sim (Codegen.exec c (.recoverNonuniform i bounds) s) (exec ctx (stmtA cfg (.recoverNonuniform i bounds)) none env)
      (Step cfg pv c) := by
  show Sim (stepRecoverNonuniform c.grid[i]? bounds (s.dims i) >>= fun v' => pure (s.setDim i v', Flow.next)) _ _
  unfold stepRecoverNonuniform
  split
  case h_2 => exact .fail (by simp [RunTime])
  rename_i gc hg
  have eg := h.grid
  have hi : (c.grid.map encAxis)[i]? = some (.arr (vec gc)) := by simp [hg, encAxis]
  have e1 : eval ctx env (at1 (v .grid) (.int i)) = .ok (.arr (vec gc)) := eval_at_tup (eval_key eg) (eval_int i) hi
  have e2 : ∀ env' : Env K, env' (nameOf (.dim i .gc)) = some (.arr (vec gc)) →
      eval ctx env' (at1 (.attr (vd i .gc) shapeName) (.int 0)) = .ok (.int gc.length) := by
    intro env' he
    refine eval_at_tup (vs := [.int gc.length]) (n := 0) ?_ (eval_int 0) rfl
    simp [eval, lookup, he, getAttr, vec]
  cases bounds with
  | false =>
    have : exec ctx (stmtA cfg (.recoverNonuniform i false)) none env = .ok
        ((env.set (nameOf (.dim i .gc)) (.arr (vec gc))).set (nameOf (.dim i .N)) (.int gc.length), .next) := by
      simp only [stmtA]
      rw [List.cons_append, exec_set, e1, ok_bind, List.cons_append, exec_set, e2 _ (by simp [set_get]), ok_bind]
      rfl
    rw [this]
    refine .ok ⟨h.setDim (fun k' => ?_) (fun k' hf hk' => ?_), rfl⟩
    · cases k' <;> simp [set_get, dimLook, h.dim]
    · cases k' <;> simp [set_get, Key.free] at hf hk' ⊢
      rename_i j k'
      simp [hk']
  | true =>
    have : exec ctx (stmtA cfg (.recoverNonuniform i true)) none env = listRead gc 0 >>= fun a =>
        listRead gc ((gc.length : ℤ) - 1) >>= fun b => .ok
        ((((env.set (nameOf (.dim i .gc)) (.arr (vec gc))).set (nameOf (.dim i .N)) (.int gc.length)).set
          (nameOf (.dim i .a)) (.flt a)).set (nameOf (.dim i .b)) (.flt b), .next) := by
      simp only [stmtA, if_true]
      rw [List.cons_append, exec_set, e1, ok_bind, List.cons_append, exec_set, e2 _ (by simp [set_get]), ok_bind, List.nil_append, exec_set,
        eval_at_arr (A := vec gc) (z := 0) (eval_key (by simp [set_get])) (eval_int 0), vec_read, bind_assoc]
      congr 1; funext a
      rw [ok_bind, exec_set, eval_at_arr (A := vec gc) (z := (gc.length : ℤ) - 1) (eval_key (by simp [set_get]))
        ((eval_bin (x := .int gc.length) (by simp) (eval_key (by simp [set_get])) (eval_int 1)).trans rfl), vec_read, bind_assoc]
      rfl
    rw [this]
    simp only [if_true, bind_assoc]
    refine .same fun a => .same fun b => .ok ⟨h.setDim (fun k' => ?_) (fun k' hf hk' => ?_), rfl⟩
    · cases k' <;> simp [set_get, dimLook, h.dim]
    · cases k' <;> simp [set_get, Key.free] at hf hk' ⊢
      rename_i j k'
      simp [hk']

theorem sim_locateNonuniform (hctx : ∀ g, ctx (nameOf (.glob g)) = some (globVal g)) (h : Rel cfg pv c env s) (i : ℕ) :
    Sim (Codegen.exec c (.locateNonuniform i) s) (exec ctx (stmtA cfg (.locateNonuniform i)) none env) (Step cfg pv c) := by
  show Sim (stepLocateNonuniform (s.dims i) >>= fun v' => pure (s.setDim i v', Flow.next)) _ _
  unfold stepLocateNonuniform
  simp only [bind_assoc]
  refine .var fun gc hgc => .var fun x hx => .var fun N hN => ?_
  have eg := h.dim i .gc
  have ex := h.dim i .x
  have eN := h.dim i .N
  simp only [dimLook, hgc, hx, hN, Option.map_some] at eg ex eN
  generalize hz : pyMin (pyMax ((searchsorted gc x : ℤ) - 1) 0) (N - 2) = z
  have : exec ctx (stmtA cfg (.locateNonuniform i)) none env = listRead gc (z + 1) >>= fun g1 => listRead gc z >>= fun g0 =>
      listRead gc z >>= fun g0' => pyDiv (x - g0') (g1 - g0) >>= fun lam => .ok
      ((((env.set (nameOf (.dim i .idx)) (.int ((searchsorted gc x : ℤ) - 1))).set (nameOf (.dim i .idx)) (.int z)).set
        (nameOf (.dim i .delta)) (.flt (g1 - g0))).set (nameOf (.dim i .lam)) (.flt lam), .next) := by
    simp only [stmtA]
    have s1 : eval ctx env (.bin .minus (.call (gl .int) (L [.call (.attr (gl .np) searchName) (L [vd i .gc, vd i .x])])) (.int 1))
        = .ok (.int ((searchsorted gc x : ℤ) - 1)) := by
      simp [eval, lookup, h.glob, hctx, globVal, eg, ex, L, consVal, callVal, apply, getAttr, vec_vector, toFloat, binary, arith]
    have s2 : eval ctx (env.set (nameOf (.dim i .idx)) (.int ((searchsorted gc x : ℤ) - 1)))
        (.call (gl .min) (L [.call (gl .max) (L [vd i .idx, .int 0]), .bin .minus (vd i .N) (.int 2)])) = .ok (.int z) := by
      simp [eval, lookup, set_get, h.glob, hctx, globVal, eN, L, consVal, callVal, apply, numMin, numMax, binary, arith, hz]
    rw [exec_set, s1, ok_bind, exec_set, s2, ok_bind, exec_set]
    simp [eval, lookup, set_get, eg, consVal, indexVal, getItem, toInts, binary, arith, vec_read, bind_assoc, toFloat, exec_set,
      ex, divide]
    rfl
  rw [this]
  refine .same fun g1 => ?_
  rcases hr : listRead gc z with e | g0
  · exact .err
  simp only [ok_bind]
  refine .same fun lam => .ok ⟨h.setDim (fun k' => ?_) (fun k' hf hk' => ?_), rfl⟩
  · cases k' <;> simp [set_get, dimLook, h.dim]
  · cases k' <;> simp [set_get, Key.free] at hf hk' ⊢
    rename_i j k'
    simp [hk']

end Interp.PyParse
