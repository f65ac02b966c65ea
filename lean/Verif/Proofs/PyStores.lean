import Verif.Proofs.PyBlend
import Verif.Proofs.PyStmts

/-!
# Expressions, output and the other statements
-/

namespace Interp.PyParse
open Interp.Spec.PyLang
open Interp.Codegen hiding exec

set_option linter.unusedSectionVars false

variable {K : Type} [Add K] [Sub K] [Mul K] [Div K] [Neg K] [Zero K] [One K] [NatCast K]
  [IntCast K] [LT K] [DecidableLT K] [BEq K] [IntFloor K]

variable {cfg : Cfg} {pv : Val K} {c : Ctx K} {env : Env K} {s : State K} {ctx : Env K}

theorem Sim.left {α β γ : Type} {m : Py α} {p : Py β} {R : α → β → Prop} {f : α → Py γ} {S : γ → β → Prop}
    (h : Sim m p R) (h' : ∀ a b, R a b → Sim (f a) (.ok b) S) : Sim (m >>= f) p S := by
  have := h.bind h'
  rwa [show (p >>= fun b => .ok b) = p from bind_pure p] at this

theorem Sim.right {α β δ : Type} {m : Py α} {p : Py β} {R : α → β → Prop} {g : β → Py δ} {S : α → δ → Prop}
    (h : Sim m p R) (h' : ∀ a b, R a b → Sim (.ok a) (g b) S) : Sim m (p >>= g) S := by
  have := h.bind h'
  rwa [show (m >>= fun b => .ok b) = m from bind_pure m] at this

/-! ### Arrays -/

theorem toInts_map (zs : List ℤ) : toInts (zs.map (Val.int (K := K))) = .ok zs := by
  induction zs with
  | nil => rfl
  | cons z zs ih => simp [toInts, ih]

theorem setItem_ints {A : NdArray K} {zs : List ℤ} (h : zs.length = A.shape.length) (x : K) :
    setItem A (zs.map .int) x = A.write zs x := by
  have h1 : (zs.map (Val.int (K := K))).takeWhile (fun v => !isSlice v) = zs.map .int := by
    rw [List.takeWhile_eq_self_iff]; simp [isSlice]
  have h2 : (zs.map (Val.int (K := K))).dropWhile (fun v => !isSlice v) = [] := by
    rw [List.dropWhile_eq_nil_iff]; simp [isSlice]
  simp [setItem, h1, h2, toInts_map, h]

theorem write_same {A A' : NdArray K} (h : A.Same A') (zs : List ℤ) (x : K) :
    Sim (A.write zs x) (A'.write zs x) fun B B' => B.Same B' ∧ B.shape = A.shape := by
  obtain ⟨h1, h2⟩ := h
  simp only [NdArray.write, ← h1]
  rcases wrapIndices A.shape zs with _ | js
  · exact .err
  · refine .ok ⟨⟨rfl, fun k hk => ?_⟩, rfl⟩
    show (if k = js then x else A.get k) = (if k = js then x else A'.get k)
    rw [h2 k hk]

theorem wrapIndices_nat : ∀ (sh : List ℕ) (pre : List ℕ),
    wrapIndices sh (pre.map Int.ofNat) = if InShape sh pre then some pre else none
  | [], [] => by simp [wrapIndices, InShape]
  | [], _ :: _ => by simp [wrapIndices, InShape]
  | _ :: _, [] => by simp [wrapIndices, InShape]
  | n :: sh, i :: pre => by
    simp only [List.map_cons, wrapIndices, wrapIndices_nat sh pre]
    by_cases hi : i < n
    · rw [show Int.ofNat i = (i : ℤ) from rfl, wrapIndex_nat hi]
      by_cases h : InShape sh pre
      · rw [if_pos h, if_pos (show InShape (n :: sh) (i :: pre) from ⟨hi, h⟩)]
      · rw [if_neg h, if_neg (fun h' : InShape (n :: sh) (i :: pre) => h h'.2)]
    · have : wrapIndex n (Int.ofNat i) = none := by
        rw [show Int.ofNat i = (i : ℤ) from rfl, wrapIndex, if_neg (by omega), if_neg (by omega)]
      rw [this, if_neg (fun h' : InShape (n :: sh) (i :: pre) => hi h'.1)]

theorem fill_same {A A' : NdArray K} (h : A.Same A') (pre : List ℕ) :
    Sim (fillZero A pre) (fill A' (pre.map Int.ofNat) 0) fun B B' => B.Same B' ∧ B.shape = A.shape := by
  obtain ⟨h1, h2⟩ := h
  simp only [fillZero, fill, ← h1, wrapIndices_nat, List.length_map]
  split_ifs
  · refine .ok ⟨⟨rfl, fun k hk => ?_⟩, rfl⟩
    show (if k.take pre.length = pre then 0 else A.get k) = (if k.take pre.length = pre then 0 else A'.get k)
    rw [h2 k hk]
  · exact .err

/-- `out[:] = 0.0`. -/
theorem fill_all {A A' : NdArray K} (h : A.Same A') (hd : A.shape.length ≠ 0) :
    Sim (fillZero A []) (setItem A' [.slice] 0) fun B B' => B.Same B' ∧ B.shape = A.shape := by
  have hd' : A'.shape.length ≠ 0 := h.1 ▸ hd
  have : setItem A' [.slice] 0 = fill A' [] 0 := by
    have : ¬ A'.shape.length < 1 := by omega
    have h0 : ¬ (0 = A'.shape.length) := by omega
    simp [setItem, List.takeWhile, List.dropWhile, isSlice, this, toInts, h0]
  rw [this]
  exact fill_same h []

/-- `out[nn, :] = 0.0`. -/
theorem fill_row {A A' : NdArray K} (h : A.Same A') (hd : 2 ≤ A.shape.length) (m : ℕ) :
    Sim (fillZero A [m]) (setItem A' [.int m, .slice] 0) fun B B' => B.Same B' ∧ B.shape = A.shape := by
  have hd' : 2 ≤ A'.shape.length := h.1 ▸ hd
  have : setItem A' [.int m, .slice] 0 = fill A' [(m : ℤ)] 0 := by
    have : ¬ A'.shape.length < 2 := by omega
    have h0 : ¬ (1 = A'.shape.length) := by omega
    simp [setItem, List.takeWhile, List.dropWhile, isSlice, this, toInts, h0]
  rw [this]
  exact fill_same h [m]

/-- `out[nn] = 0.0`. -/
theorem fill_row' {A A' : NdArray K} (h : A.Same A') (hd : 1 ≤ A.shape.length) (m : ℕ) :
    Sim (fillZero A [m]) (setItem A' [.int m] 0) fun B B' => B.Same B' ∧ B.shape = A.shape := by
  have hd' : 1 ≤ A'.shape.length := h.1 ▸ hd
  by_cases h1 : A'.shape.length = 1
  · rw [show ([.int m] : List (Val K)) = [(m : ℤ)].map .int from rfl, setItem_ints (by simp [h1])]
    obtain ⟨e1, e2⟩ := h
    obtain ⟨n, hn⟩ := List.length_eq_one_iff.1 h1
    have := wrapIndices_nat [n] [m]
    simp only [List.map_cons, List.map_nil] at this
    simp only [fillZero, NdArray.write, e1, hn, List.length_cons, List.length_nil]
    rw [show ((m : ℤ)) = Int.ofNat m from rfl, this]
    simp only [zero_add, List.take_succ_cons, List.take_nil]
    split_ifs
    · refine .ok ⟨⟨rfl, fun k hk => ?_⟩, rfl⟩
      have hk : InShape [n] k := hk
      obtain ⟨i, is, rfl, -, hi⟩ := inShape_cons_iff.1 hk
      obtain rfl := inShape_nil_iff.1 hi
      show (if [i].take 1 = [m] then 0 else A.get [i]) = if [i] = [m] then 0 else A'.get [i]
      rw [e2 _ (by rw [e1, hn]; exact hk)]
      rfl
    · exact .err
  · have : setItem A' [.int m] 0 = fill A' [(m : ℤ)] 0 := by
      have : ¬ A'.shape.length < 1 := by omega
      have h0 : ¬ (1 = A'.shape.length) := by omega
      simp only [setItem, List.takeWhile, List.dropWhile, isSlice, toInts]
      simp [this, h0, toInts]
    rw [this]
    exact fill_same h [m]

/-! ### Expressions -/

/-- The subscripts of the coefficient array. -/
def idxM (dims : ℕ → DimVars K) : ℕ → List ℕ → Py (List ℤ)
  | _, [] => pure []
  | i, o :: os => do
    let z ← var "i" (dims i).idx
    let zs ← idxM dims (i + 1) os
    pure ((z + (o : ℤ)) :: zs)

theorem idxM_eq (dims : ℕ → DimVars K) (offs : List ℕ) (i0 : ℕ) :
    ((offs.mapIdx fun i o => (i0 + i, o)).mapM fun p => do
      let z ← var "i" (dims p.1).idx
      pure (z + (p.2 : ℤ))) = idxM dims i0 offs := by
  induction offs generalizing i0 with
  | nil => rfl
  | cons o os ih =>
    rw [List.mapIdx_cons, List.mapM_cons, idxM]
    have : (os.mapIdx fun i o => (i0 + (i + 1), o)) = os.mapIdx fun i o => (i0 + 1 + i, o) := by
      congr 1; funext i o; rw [Nat.add_comm i 1, Nat.add_assoc]
    rw [this, ih]
    simp only [bind_assoc, pure_bind, Nat.add_zero]

def exprVec (b : Bool) : TExpr → Prop
  | .coef _ vec => vec = b
  | .mul x y => exprVec b x ∧ exprVec b y
  | .add x y => exprVec b x ∧ exprVec b y
  | _ => True

theorem sim_idx (h : Rel cfg pv c env s) (vec : Bool) (ix : ℕ) (hix : vec = true → env (nameOf .ix) = some (.int ix)) (offs : List ℕ) (i : ℕ) :
    Sim (idxM s.dims i offs) (eval ctx env (idxA vec i offs)) fun zs w =>
      w = .tup ((if vec then zs ++ [(ix : ℤ)] else zs).map .int) := by
  induction offs generalizing i with
  | nil =>
    cases vec with
    | false => exact .ok rfl
    | true =>
      have : eval ctx env (idxA true i []) = .ok (.tup [.int ix]) := by
        simp [idxA, eval, lookup, hix rfl, consVal]
      rw [this]
      exact .ok rfl
  | cons o os ih =>
    simp only [idxM, idxA]
    refine .var fun z hz => ?_
    have ez := h.dim i .idx
    simp only [dimLook, hz, Option.map_some] at ez
    have e1 : eval ctx env (if o = 0 then vd i .idx else .bin .plus (vd i .idx) (.int o)) = .ok (.int (z + o)) := by
      split_ifs with ho
      · rw [eval_key ez, ho]; simp
      · rw [eval_bin (by simp) (eval_key ez) (eval_int o)]; rfl
    simp only [eval, e1, ok_bind]
    refine (ih (i + 1)).bind fun zs w hw => ?_
    subst hw
    refine .ok ?_
    cases vec <;> simp [consVal]

theorem sim_expr (h : Rel cfg pv c env s) (b : Bool) (ix : ℕ) (hix : b = true → env (nameOf .ix) = some (.int ix)) (e : TExpr) (he : exprVec b e) :
    Sim (e.eval c.C s.dims ix) (eval ctx env (exprA e)) fun x w => w = .flt x := by
  induction e with
  | phi l i j =>
    simp only [TExpr.eval, exprA]
    have := h.dim i (.phi l j)
    simp only [dimLook] at this
    rcases hp : (s.dims i).phi l j with _ | x
    · exact .fail (by simp [RunTime])
    · rw [hp] at this
      rw [eval_key this]
      exact .ok rfl
  | coef offs vec =>
    obtain rfl : vec = b := he
    simp only [TExpr.eval, exprA]
    by_cases ho : offs = []
    · simp only [ho, if_true]; exact .fail (by simp [RunTime])
    · have := idxM_eq s.dims offs 0
      simp only [Nat.zero_add] at this
      simp only [if_neg ho, this, pure_bind]
      simp only [eval, lookup, h.C, pure_bind]
      refine (sim_idx h vec ix hix offs 0).bind fun zs w hw => ?_
      subst hw
      simp only [indexVal, getItem, toInts_map, ok_bind]
      generalize c.C.read _ = r
      rcases r with e | x
      · exact .err
      · exact .ok rfl
  | mul a b' iha ihb =>
    simp only [TExpr.eval, exprA, eval]
    refine (iha he.1).bind fun x w hw => ?_
    subst hw
    simp only [reduceCtorEq, if_false]
    refine (ihb he.2).bind fun y w hw => ?_
    subst hw
    exact .ok rfl
  | add a b' iha ihb =>
    simp only [TExpr.eval, exprA, eval]
    refine (iha he.1).bind fun x w hw => ?_
    subst hw
    simp only [reduceCtorEq, if_false]
    refine (ihb he.2).bind fun y w hw => ?_
    subst hw
    exact .ok rfl
  | empty => exact .fail (by simp [RunTime])

/-! ### Stores -/

/-- The current point. -/
def RowOK (cfg : Cfg) (c : Ctx K) : Prop :=
  (cfg.vectorized = true ∧ ∃ m, c.pre = [m]) ∨ (cfg.vectorized = false ∧ c.pre = [])

theorem eval_row (h : Rel cfg pv c env s) (hr : RowOK cfg c) {es : PExpr} {zs : List ℤ} (he : eval ctx env es = .ok (.tup (zs.map .int))) :
    eval ctx env (rowA cfg es) = .ok (.tup ((c.pre.map Int.ofNat ++ zs).map .int)) := by
  rcases hr with ⟨hv, m, hm⟩ | ⟨hv, hm⟩
  · simp [rowA, hv, eval, lookup, h.nn hm, he, consVal, hm]
  · simp [rowA, hv, he, hm]

/-- After a store. -/
abbrev Out (cfg : Cfg) (pv : Val K) (c : Ctx K) (s : State K) (B : NdArray K) (r : Env K × Exit K) : Prop :=
  r.2 = .next ∧ Rel cfg pv c r.1 { s with out := some B } ∧ B.shape.length = outDims cfg

theorem sim_outA {A : NdArray K} (h : Rel cfg pv c env { s with out := some A }) (hr : RowOK cfg c) {es e : PExpr} {zs : List ℤ} {x : K}
    (hes : eval ctx env es = .ok (.tup (zs.map .int))) (he : eval ctx env e = .ok (.flt x)) (hn : c.pre.length + zs.length = outDims cfg)
    (h0 : outDims cfg ≠ 0) :
    Sim (A.write (c.pre.map Int.ofNat ++ zs) x) (execSimple ctx (outA cfg es e) env) fun B r =>
      Out cfg pv c s B r ∧ r.1 (nameOf .ix) = env (nameOf .ix) ∧ ∀ n, r.1 (nameOf (.val n)) = env (nameOf (.val n)) := by
  obtain ⟨A', e1, e2, e3⟩ := h.out
  have e3 : A.shape.length = outDims cfg := e3.resolve_right h0
  simp only [execSimple, outA, assignTo, he, ok_bind, lookup, e1, pure_eq_ok, eval_row h hr hes, subscripts, toFloat]
  rw [setItem_ints (by rw [← e2.1, e3, ← hn]; simp)]
  simp only [bind_assoc]
  refine (write_same e2 _ x).right fun B B' hB => .ok ⟨⟨rfl, ?_, by rw [hB.2, e3]⟩, ?_, ?_⟩
  · exact h.setOut hB.1 (Or.inl (by rw [hB.2, e3]))
  · simp [set_get]
  · simp [set_get]

theorem exec_one (ctx env : Env K) (st : Simple) (r : List (List Simple)) (ch : Option Bool) :
    exec ctx (lines ([st] :: r)) ch env = execSimple ctx st env >>= fun q => match q.2 with
      | .next => exec ctx (lines r) none q.1
      | e => pure (q.1, e) := by
  simp only [exec, lines, execSimples, bind_assoc]
  congr 1
  funext q
  rcases q with ⟨q, _ | _ | _⟩ <;> rfl

theorem starts_lines (a : List (List Simple)) : starts (lines a) := by cases a <;> trivial

/-- A loop over `i_x`. -/
theorem sim_for {α : Type} {model : List ℕ → α → Py α} {step : ℕ → α → Py α} (h0 : ∀ a, model [] a = .ok a)
    (h1 : ∀ ix l a, model (ix :: l) a = step ix a >>= model l) (body : Env K → Py (Env K × Exit K)) (R : α → Env K → Prop)
    (hb : ∀ ix a env, R a env → Sim (step ix a) (body (env.set (nameOf .ix) (.int ix))) fun a' r => r.2 = .next ∧ R a' r.1)
    (l : List ℕ) (a : α) (env : Env K) (h : R a env) :
    Sim (model l a) (forLoop body (nameOf .ix) (l.map Int.ofNat) env) fun a' r => r.2 = .next ∧ R a' r.1 := by
  induction l generalizing a env with
  | nil => rw [h0]; exact .ok ⟨rfl, h⟩
  | cons ix l ih =>
    rw [h1]
    simp only [List.map_cons, forLoop]
    refine (hb ix a env h).bind fun a' r hr => ?_
    rw [hr.1]
    exact ih a' r.1 hr.2

theorem exec_for (hctx : ∀ g, ctx (nameOf (.glob g)) = some (globVal g)) (h : Rel cfg pv c env s) {m : ℕ} (hm : s.nVals = some m) (b : Block) :
    exec ctx (.block (.forH (nameOf .ix) (.call (gl .range) (L [v .nVals]))) b .nil) none env =
      forLoop (exec ctx b none) (nameOf .ix) ((List.range m).map Int.ofNat) env := by
  have hv := h.nVals
  rw [hm] at hv
  have : eval ctx env (.call (gl .range) (L [v .nVals])) = .ok (.range m) := by
    rw [eval_call1 (eval_glob hctx (h.glob .range)) (eval_key hv)]; rfl
  simp only [exec, this, ok_bind, iterate, pure_eq_ok, Int.toNat_natCast]
  conv_rhs => rw [← bind_pure (forLoop _ _ _ _)]
  congr 1
  funext r
  rcases r with ⟨r, _ | _ | _⟩ <;> rfl

theorem sim_storeComp (hctx : ∀ g, ctx (nameOf (.glob g)) = some (globVal g)) (h : Rel cfg pv c env s) (hr : RowOK cfg c) {e : TExpr}
    (he : exprVec true e) (hn : c.pre.length + 1 = outDims cfg) :
    Sim (Codegen.exec c (.storeComp e) s) (exec ctx (stmtA cfg (.storeComp e)) none env) (Step cfg pv c) := by
  simp only [Codegen.exec, stepDim, stmtA]
  refine .var fun m hm => ?_
  rcases hA : s.out with _ | A
  · simp only [State.getOut, hA]; exact .fail (by simp [RunTime])
  simp only [State.getOut, hA, pure_bind]
  rw [exec_for hctx h hm]
  refine Sim.left (R := fun B r => r.2 = .next ∧ Rel cfg pv c r.1 { s with out := some B }) ?_ fun B r hB => .ok ⟨hB.2, by exact hB.1⟩
  refine sim_for (model := storeCompLoop c s.dims e) (step := fun ix A => do
    let v ← e.eval c.C s.dims ix
    A.write (c.pre.map Int.ofNat ++ [(ix : ℤ)]) v) (fun _ => rfl) (fun ix l a => by simp only [storeCompLoop, bind_assoc])
    _ (fun B env => Rel cfg pv c env { s with out := some B }) ?_ (List.range m) A env (by
      convert h using 2; rw [← hA])
  intro ix B env1 h1
  have h2 := h1.setFree (k := .ix) trivial (.int ix)
  have hix : (env1.set (nameOf .ix) (.int ix)) (nameOf .ix) = some (.int ix) := by simp [set_get]
  rw [exec_one]
  generalize env1.set (nameOf .ix) (.int ix) = env2 at h2 hix
  have := sim_expr (ctx := ctx) h2 true ix (fun _ => hix) e he
  rcases hev : e.eval c.C s.dims ix with er | x
  · by_cases hrt : RunTime er
    · rw [hev] at this
      simp only [execSimple, outA, this.2 er hrt rfl]; exact .err
    · exact .fail hrt
  rw [hev] at this
  obtain ⟨w, hw, rfl⟩ := this.1 x rfl
  rw [ok_bind]
  refine (sim_outA h2 hr (zs := [(ix : ℤ)]) ?_ hw (by simpa using hn) (by omega)).right fun B' r hB' => ?_
  · simp [eval, lookup, hix, consVal]
  · rw [hB'.1.1]
    exact .ok ⟨rfl, hB'.1.2.1⟩

theorem sim_assigns {ix : ℕ} (as : List (ValName × TExpr)) (has : ∀ p ∈ as, exprVec true p.2) (vals : List (ValName × K)) (env : Env K)
    (ch : Option Bool) (h : Rel cfg pv c env { s with vals := vals }) (hix : env (nameOf .ix) = some (.int ix)) :
    Sim (assignLoop c.C s.dims ix as vals) (exec ctx (lines (as.map fun p => [set (.val p.1) (exprA p.2)])) ch env)
      fun vals' r => r.2 = .next ∧ Rel cfg pv c r.1 { s with vals := vals' } ∧ r.1 (nameOf .ix) = some (.int ix) := by
  induction as generalizing vals env ch with
  | nil => exact .ok ⟨rfl, h, hix⟩
  | cons p as ih =>
    rw [List.map_cons, exec_set]
    simp only [assignLoop]
    refine (sim_expr h true ix (fun _ => hix) p.2 (has p (by simp))).bind fun x w hw => ?_
    subst hw
    exact ih (fun q hq => has q (by simp [hq])) _ _ none (h.setVal p.1 x) (by simp [set_get, hix])

theorem lookupVal_of {vals : List (ValName × K)} {n : ValName} {x : K} (h : lookupVal n vals = .ok x) : valLook vals n = some (.flt x) := by
  unfold lookupVal at h
  unfold valLook
  rcases hf : vals.find? (fun p => p.1 = n) with _ | p
  · simp [hf] at h
  · simp only [hf] at h; cases h; rw [hf]; rfl

theorem lookupVal_err {vals : List (ValName × K)} {n : ValName} {e : Err} (h : lookupVal n vals = .error e) : ¬ RunTime e := by
  unfold lookupVal at h
  rcases hf : vals.find? (fun p => p.1 = n) with _ | p
  · simp [hf] at h; subst h; simp [RunTime]
  · simp [hf] at h

theorem sim_stores {ix : ℕ} (hr : RowOK cfg c) (hn : c.pre.length + 2 = outDims cfg) (stores : List ValName) (j0 : ℕ) (A : NdArray K) (env : Env K)
    (ch : Option Bool) (h : Rel cfg pv c env { s with out := some A }) (hix : env (nameOf .ix) = some (.int ix)) :
    Sim (storeValsLoop s.vals (c.pre.map Int.ofNat ++ [(ix : ℤ)]) j0 stores A)
      (exec ctx (lines (stores.mapIdx fun j n => [outA cfg (.cons (v .ix) (.cons (.int (j0 + j)) .nil)) (v (.val n))])) ch env)
      fun B r => r.2 = .next ∧ Rel cfg pv c r.1 { s with out := some B } := by
  induction stores generalizing j0 A env ch with
  | nil => exact .ok ⟨rfl, h⟩
  | cons n stores ih =>
    rw [List.mapIdx_cons, exec_one]
    simp only [storeValsLoop]
    rcases hv : lookupVal n s.vals with e | x
    · exact .fail (lookupVal_err hv)
    rw [ok_bind]
    have hx : eval ctx env (v (.val n)) = .ok (.flt x) := eval_key ((h.val n).trans (lookupVal_of hv))
    have := sim_outA (s := s) h hr (es := .cons (v .ix) (.cons (.int (j0 + 0)) .nil)) (zs := [(ix : ℤ), (j0 : ℤ)])
      (by simp [eval, lookup, hix, consVal]) hx (by simpa using hn) (by omega)
    rw [show c.pre.map Int.ofNat ++ [(ix : ℤ)] ++ [(j0 : ℤ)] = c.pre.map Int.ofNat ++ [(ix : ℤ), (j0 : ℤ)] by simp]
    refine this.bind fun B r hB => ?_
    rw [hB.1.1]
    have e2 : (stores.mapIdx fun j n => [outA cfg (.cons (v .ix) (.cons (.int (j0 + (j + 1))) .nil)) (v (.val n))])
        = stores.mapIdx fun j n => [outA cfg (.cons (v .ix) (.cons (.int (j0 + 1 + j)) .nil)) (v (.val n))] := by
      congr 1; funext j n; rw [Nat.add_comm j 1, Nat.add_assoc]
    rw [e2]
    exact ih (j0 + 1) B r.1 none hB.1.2.1 (hB.2.1.trans hix)

theorem sim_storeCompOrders (hctx : ∀ g, ctx (nameOf (.glob g)) = some (globVal g)) (h : Rel cfg pv c env s) (hr : RowOK cfg c)
    {as : List (ValName × TExpr)} {vs : List ValName} (has : ∀ p ∈ as, exprVec true p.2) (hn : c.pre.length + 2 = outDims cfg) :
    Sim (Codegen.exec c (.storeCompOrders as vs) s) (exec ctx (stmtA cfg (.storeCompOrders as vs)) none env) (Step cfg pv c) := by
  simp only [Codegen.exec, stepDim, stmtA]
  refine .var fun m hm => ?_
  rcases hA : s.out with _ | A
  · simp only [State.getOut, hA]; exact .fail (by simp [RunTime])
  simp only [State.getOut, hA, pure_bind]
  rw [exec_for hctx h hm]
  refine Sim.left (R := fun B r => r.2 = .next ∧ Rel cfg pv c r.1 { s with out := some B.2, vals := B.1 }) ?_ fun B r hB => .ok ⟨hB.2, by exact hB.1⟩
  refine sim_for (model := fun l a => storeCompOrdersLoop c s.dims as vs l a.1 a.2) (step := fun ix a => do
      let vals' ← assignLoop c.C s.dims ix as a.1
      let A' ← storeValsLoop vals' (c.pre.map Int.ofNat ++ [(ix : ℤ)]) 0 vs a.2
      pure (vals', A')) (fun _ => rfl) (fun ix l a => by simp only [storeCompOrdersLoop, bind_assoc, pure_bind])
    _ (fun B env => Rel cfg pv c env { s with out := some B.2, vals := B.1 }) ?_ (List.range m) (s.vals, A) env (by
      convert h using 2; rw [← hA])
  intro ix B env1 h1
  have h2 := h1.setFree (k := .ix) trivial (.int ix)
  have hix : (env1.set (nameOf .ix) (.int ix)) (nameOf .ix) = some (.int ix) := by simp [set_get]
  generalize env1.set (nameOf .ix) (.int ix) = env2 at h2 hix
  rw [lines_append, exec_append (starts_lines _)]
  refine (sim_assigns (s := { s with out := some B.2 }) as has B.1 env2 none h2 hix).bind fun vals' r hr' => ?_
  rw [andThen, hr'.1]
  dsimp only
  have := sim_stores (ctx := ctx) (s := { s with vals := vals' }) hr hn vs 0 B.2 r.1 none hr'.2.1 hr'.2.2
  simp only [Nat.zero_add] at this
  exact this.left fun B' q hq => .ok hq

theorem sim_storeVal (h : Rel cfg pv c env s) (hr : RowOK cfg c) {j : ℕ} {n : ValName} (hn : c.pre.length + 1 = outDims cfg) :
    Sim (Codegen.exec c (.storeVal j n) s) (exec ctx (stmtA cfg (.storeVal j n)) none env) (Step cfg pv c) := by
  simp only [Codegen.exec, stepDim, stmtA]
  rcases hv : lookupVal n s.vals with e | x
  · exact .fail (lookupVal_err hv)
  rw [ok_bind]
  rcases hA : s.out with _ | A
  · simp only [State.getOut, hA]; exact .fail (by simp [RunTime])
  simp only [State.getOut, hA, pure_bind]
  have h : Rel cfg pv c env { s with out := some A } := by convert h using 2; rw [← hA]
  have hx : eval ctx env (v (.val n)) = .ok (.flt x) := eval_key ((h.val n).trans (lookupVal_of hv))
  rw [exec_one]
  refine (sim_outA (s := s) h hr (es := .cons (.int j) .nil) (zs := [(j : ℤ)]) (by simp [eval, consVal]) hx (by simpa using hn)
    (by omega)).bind fun B r hB => ?_
  rw [hB.1.1]
  exact .ok ⟨hB.1.2.1, rfl⟩

theorem sim_storeScalar (h : Rel cfg pv c env s) (hr : RowOK cfg c) (hv : cfg.vectorized = true) {e : TExpr} (he : exprVec false e)
    (hn : c.pre.length = outDims cfg) (h0 : outDims cfg ≠ 0) :
    Sim (Codegen.exec c (.storeScalar e) s) (exec ctx (stmtA cfg (.storeScalar e)) none env) (Step cfg pv c) := by
  simp only [Codegen.exec, stepDim, stmtA]
  rw [show (Simple.assign (at1 (v .out) (v .nn)) (exprA e)) = outA cfg .nil (exprA e) by simp [outA, rowA, hv], exec_one]
  have := sim_expr (ctx := ctx) h false 0 (by simp) e he
  rcases hev : e.eval c.C s.dims 0 with er | x
  · by_cases hrt : RunTime er
    · rw [hev] at this
      simp only [execSimple, outA, this.2 er hrt rfl]; exact .err
    · exact .fail hrt
  rw [hev] at this
  obtain ⟨w, hw, rfl⟩ := this.1 x rfl
  rw [ok_bind]
  rcases hA : s.out with _ | A
  · simp only [State.getOut, hA]; exact .fail (by simp [RunTime])
  simp only [State.getOut, hA, pure_bind]
  have h : Rel cfg pv c env { s with out := some A } := by convert h using 2; rw [← hA]
  have := sim_outA (s := s) h hr (es := .nil) (zs := []) rfl hw (by simpa using hn) h0
  rw [List.append_nil] at this
  refine this.bind fun B r hB => ?_
  rw [hB.1.1]
  exact .ok ⟨hB.1.2.1, rfl⟩

theorem sim_assignVal (h : Rel cfg pv c env s) {n : ValName} {e : TExpr} (he : exprVec false e) :
    Sim (Codegen.exec c (.assignVal n e) s) (exec ctx (stmtA cfg (.assignVal n e)) none env) (Step cfg pv c) := by
  simp only [Codegen.exec, stepDim, stmtA, exec_set]
  refine (sim_expr h false 0 (by simp) e he).bind fun x w hw => ?_
  subst hw
  exact .ok ⟨h.setVal n x, rfl⟩

/-! ### Return -/

theorem exec_ret (ctx env : Env K) (e : PExpr) (r : List (List Simple)) (ch : Option Bool) :
    exec ctx (lines ([.ret e] :: r)) ch env = eval ctx env e >>= fun w => .ok (env, .ret w) := by
  rw [exec_one]
  simp only [execSimple, bind_assoc]
  rfl

theorem sim_retVal (h : Rel cfg pv c env s) {e : TExpr} (he : exprVec false e) :
    Sim (Codegen.exec c (.retVal e) s) (exec ctx (stmtA cfg (.retVal e)) none env) (Step cfg pv c) := by
  simp only [Codegen.exec, stepDim, stmtA, exec_set]
  refine (sim_expr h false 0 (by simp) e he).bind fun x w hw => ?_
  subst hw
  rw [exec_ret, eval_key (w := .flt x) (by simp [set_get])]
  exact .ok ⟨h.setFree (k := .valTmp) trivial _, .flt x, rfl, rfl⟩

theorem sim_vals (h : Rel cfg pv c env s) (vs : List ValName) :
    Sim (vs.mapM fun n => lookupVal n s.vals) (eval ctx env (L (vs.map fun n => v (.val n)))) fun xs w => w = .tup (xs.map .flt) := by
  induction vs with
  | nil => exact .ok rfl
  | cons n vs ih =>
    rw [List.mapM_cons, List.map_cons, L]
    simp only [eval]
    rcases hv : lookupVal n s.vals with e | x
    · exact .fail (lookupVal_err hv)
    have hx : lookup ctx env (nameOf (.val n)) = .ok (.flt x) := eval_key ((h.val n).trans (lookupVal_of hv))
    rw [hx, ok_bind, ok_bind]
    refine ih.bind fun xs w hw => ?_
    subst hw
    exact .ok rfl

theorem sim_retTuple (h : Rel cfg pv c env s) (vs : List ValName) :
    Sim (Codegen.exec c (.retTuple vs) s) (exec ctx (stmtA cfg (.retTuple vs)) none env) (Step cfg pv c) := by
  simp only [Codegen.exec, stepDim, stmtA, exec_set]
  rw [show eval ctx env (.tuple (L (vs.map fun n => v (.val n))) true) = eval ctx env (L (vs.map fun n => v (.val n))) from rfl]
  refine (sim_vals h vs).bind fun xs w hw => ?_
  subst hw
  rw [exec_ret, eval_key (w := .tup (xs.map .flt)) (by simp [set_get])]
  exact .ok ⟨h.setFree (k := .valTmp) trivial _, _, rfl, rfl⟩

theorem sim_retOut (h : Rel cfg pv c env s) :
    Sim (Codegen.exec c .retOut s) (exec ctx (stmtA cfg .retOut) none env) (Step cfg pv c) := by
  simp only [Codegen.exec, stepDim, stmtA, exec_ret]
  have ho := h.out
  rcases hA : s.out with _ | A
  · simp only [State.getOut, hA]; exact .fail (by simp [RunTime])
  simp only [State.getOut, hA, pure_bind]
  rw [hA] at ho
  obtain ⟨A', e1, e2, e3⟩ := ho
  rw [eval_key e1]
  exact .ok ⟨h, _, rfl, A', rfl, e2⟩

/-! ### Allocation -/

theorem sim_readNVals (h : Rel cfg pv c env s) (d : ℕ) :
    Sim (Codegen.exec c (.readNVals d) s) (exec ctx (stmtA cfg (.readNVals d)) none env) (Step cfg pv c) := by
  simp only [Codegen.exec, stepDim, stmtA, exec_set]
  rcases hm : c.C.shape[d]? with _ | m
  · exact .fail (by simp [RunTime])
  rw [eval_at_tup (vs := c.C.shape.map fun n : ℕ => .int (n : ℤ)) (w := .int m) (by simp [eval, lookup, h.C, getAttr]) (eval_int d) (by simp [hm])]
  exact .ok ⟨h.setNVals m, rfl⟩

theorem same_refl (A : NdArray K) : A.Same A := ⟨rfl, fun _ _ => rfl⟩

theorem sim_alloc (hctx : ∀ g, ctx (nameOf (.glob g)) = some (globVal g)) (h : Rel cfg pv c env s) (kind : AllocKind)
    (hk : match kind with
      | .vals => outDims cfg = 1
      | .valsOrders _ => outDims cfg = 2
      | .orders _ => outDims cfg = 1) :
    Sim (Codegen.exec c (.alloc kind) s) (exec ctx (stmtA cfg (.alloc kind)) none env) (Step cfg pv c) := by
  have hn := h.nVals
  cases kind with
  | vals =>
    simp only [Codegen.exec, stepDim, stmtA, exec_set]
    refine .var fun m hm => ?_
    rw [hm] at hn
    rw [eval_call1 (eval_glob hctx (h.glob .zeros)) (eval_key hn)]
    simp only [globVal, apply, npZeros, pure_eq_ok, ok_bind, Int.toNat_natCast]
    exact .ok ⟨h.setOut (same_refl _) (Or.inl hk.symm), rfl⟩
  | valsOrders o =>
    simp only [Codegen.exec, stepDim, stmtA, exec_set]
    refine .var fun m hm => ?_
    rw [hm] at hn
    rw [eval_call1 (x := .tup [.int m, .int o]) (eval_glob hctx (h.glob .zeros)) (by
      simp only [eval, L, lookup, hn, Option.map_some, pure_eq_ok, ok_bind, consVal])]
    simp only [globVal, apply, npZeros, toInts, pure_eq_ok, ok_bind, Int.toNat_natCast, List.map_cons, List.map_nil]
    exact .ok ⟨h.setOut (same_refl _) (Or.inl hk.symm), rfl⟩
  | orders o =>
    simp only [Codegen.exec, stepDim, stmtA, exec_set]
    rw [eval_call1 (eval_glob hctx (h.glob .zeros)) (eval_int o)]
    simp only [globVal, apply, npZeros, pure_eq_ok, ok_bind, Int.toNat_natCast]
    exact .ok ⟨h.setOut (same_refl _) (Or.inl hk.symm), rfl⟩

theorem eval_L {es : List PExpr} (h : ∀ e ∈ es, ∃ w, eval ctx env e = .ok w) : ∃ ws, ws.length = es.length ∧ eval ctx env (L es) = .ok (.tup ws) := by
  induction es with
  | nil => exact ⟨[], rfl, rfl⟩
  | cons e es ih =>
    obtain ⟨w, hw⟩ := h e (by simp)
    obtain ⟨ws, hl, hws⟩ := ih fun e he => h e (by simp [he])
    exact ⟨w :: ws, by simp [hl], by simp [L, eval, hw, hws, consVal]⟩

theorem eval_tupA {es : List PExpr} (h : ∀ e ∈ es, ∃ w, eval ctx env e = .ok w) : ∃ ws, ws.length = es.length ∧ eval ctx env (tupA es) = .ok (.tup ws) := by
  obtain ⟨ws, hl, hws⟩ := eval_L h
  refine ⟨ws, hl, ?_⟩
  match es, hws with
  | [], hws => exact hws
  | [_], hws => exact hws
  | _ :: _ :: _, hws => exact hws

theorem sim_allocateOutput (hctx : ∀ g, ctx (nameOf (.glob g)) = some (globVal g)) (h : Rel cfg pv c env s) (hv : cfg.vectorized = true)
    (hvv : cfg.vectorValued = decide (c.C.shape.length = c.grid.length + 1)) (hpv : ∃ P w, pv = .arr P ∧ P.shape = [c.npts, w]) :
    Sim (Codegen.exec c (.allocateOutput cfg.vectorValued (cfg.orders.map List.length)) s)
      (exec ctx (stmtA cfg (.allocateOutput cfg.vectorValued (cfg.orders.map List.length))) none env) (Step cfg pv c) := by
  obtain ⟨P, w, rfl, hP⟩ := hpv
  have ho : ∃ o, eval ctx env (ordersA cfg.orders) = .ok o ∧ lenOrders o = .ok ((cfg.orders.map List.length).toList) := by
    rcases hor : cfg.orders with _ | os
    · exact ⟨.none, eval_glob hctx (h.glob .none), rfl⟩
    · obtain ⟨ws, hl, hws⟩ := eval_tupA (ctx := ctx) (env := env) (es := os.map fun o => tupA (o.map .int)) (by
        intro e he
        obtain ⟨o, -, rfl⟩ := List.mem_map.1 he
        obtain ⟨ws, -, hws⟩ := eval_tupA (ctx := ctx) (env := env) (es := o.map .int) (by
          intro e he
          obtain ⟨n, -, rfl⟩ := List.mem_map.1 he
          exact ⟨_, rfl⟩)
        exact ⟨_, hws⟩)
      exact ⟨.tup ws, hws, by simp [lenOrders, hl]⟩
  obtain ⟨o, ho1, ho2⟩ := ho
  have hl : (cfg.orders.map List.length).toList.length = if cfg.orders.isSome then 1 else 0 := by
    rcases cfg.orders with _ | _ <;> rfl
  have ev : eval ctx env (.call (gl .allocateOutput) (L [v .grid, v .C, v .points, ordersA cfg.orders]))
      = allocOutput (.tup (c.grid.map encAxis)) (.arr c.C) (.arr P) o := by
    simp only [L, eval, lookup, h.glob, hctx, h.grid, h.C, h.points, ho1, pure_eq_ok, ok_bind, consVal, globVal, callVal, apply]
  simp only [Codegen.exec, stepDim, stmtA, exec_set, ev, allocOutput, hP, ho2, ok_bind, List.length_map]
  by_cases hc : c.C.shape.length = c.grid.length + 1
  · have hb : cfg.vectorValued = true := by simp [hvv, hc]
    simp only [hb, if_true, if_pos hc, pure_eq_ok, ok_bind]
    rcases hm : c.C.shape.getLast? with _ | m
    · exact .fail (by simp [RunTime])
    have : c.C.shape.getLastD 0 = m := by rw [List.getLastD_eq_getLast?, hm]; rfl
    rw [this]
    refine .ok ⟨h.setOut (same_refl _) (Or.inl ?_), rfl⟩
    simp only [NdArray.zeros, List.length_append, hl, outDims, hv, hb, if_true, List.length_cons, List.length_nil]
  · have hb : cfg.vectorValued = false := by simp [hvv, hc]
    simp only [hb, if_neg hc, pure_eq_ok, ok_bind, Bool.false_eq_true, if_false]
    refine .ok ⟨h.setOut (same_refl _) (Or.inl ?_), rfl⟩
    simp only [NdArray.zeros, List.length_append, hl, outDims, hv, hb, if_true, List.length_cons, List.length_nil]
    simp

/-! ### The constant mode -/

theorem exec_fill (hK : LawfulLit K) {A' : NdArray K} (h : env (nameOf .out) = some (.arr A')) {es : PExpr} {is : List (Val K)}
    (hes : eval ctx env es = .ok (.tup is)) (r : List (List Simple)) (ch : Option Bool) :
    exec ctx (lines ([.assign (.index (v .out) es) (.float 0)] :: r)) ch env =
      setItem A' is 0 >>= fun B => exec ctx (lines r) none (env.set (nameOf .out) (.arr B)) := by
  rw [exec_one]
  simp only [execSimple, eval, assignTo, lookup, h, hes, pure_eq_ok, ok_bind, subscripts, toFloat, hK.zero, bind_assoc]

theorem exec_if {t : PExpr} (h : eval ctx env t = .ok (.bool true)) (b : Block) :
    exec ctx (.block (.ifH t) b .nil) none env = exec ctx b none env := by
  simp only [exec, h, ok_bind, truth, pure_eq_ok, if_true]
  rcases exec ctx b none env with e | ⟨r, _ | _ | _⟩ <;> rfl

theorem sim_guard (hK : LawfulLit K) (h : Rel cfg pv c env s) (i : ℕ) (g : GuardBody)
    (hg : match g with
      | .zeroReturn => outDims cfg ≠ 0
      | .zeroFall => outDims cfg ≠ 0
      | .returnZero => True
      | .zeroContinue => cfg.vectorized = true ∧ ∃ m, c.pre = [m]) :
    Sim (Codegen.exec c (.constGuard i g) s) (exec ctx (stmtA cfg (.constGuard i g)) none env) (Step cfg pv c) := by
  simp only [Codegen.exec, stepDim, outside, bind_assoc]
  refine .var fun x hx => .var fun a ha => .var fun b hb => ?_
  have ea := h.dim i .a
  have eb := h.dim i .b
  have ex := h.dim i .x
  simp only [dimLook, ha, hb, hx, Option.map_some] at ea eb ex
  have ev : eval ctx env (.bin .kOr (.paren (.bin .lt (vd i .x) (vd i .a))) (.paren (.bin .gt (vd i .x) (vd i .b))))
      = .ok (.bool (decide (x < a) || decide (b < x))) := by
    simp only [eval, lookup, ea, eb, ex, pure_eq_ok, ok_bind, reduceCtorEq, if_false, if_true, binary, less, toFloat, truth]
    by_cases h1 : x < a <;> simp [h1]
  simp only [stmtA, pure_bind]
  by_cases hc : (decide (x < a) || decide (b < x)) = true
  swap
  · simp only [exec, ev, hc, ok_bind, truth, pure_eq_ok, if_false, Bool.false_eq_true]
    exact .ok ⟨h, rfl⟩
  rw [hc] at ev ⊢
  rw [exec_if ev]
  simp only [if_true]
  have ho := h.out
  have ofull : eval ctx env (.cons .full .nil) = .ok (.tup [.slice]) := rfl
  have out0 : ∀ {A : NdArray K}, s.out = some A → outDims cfg ≠ 0 → ∃ A', env (nameOf .out) = some (.arr A') ∧ A.Same A' ∧
      A.shape.length = outDims cfg := by
    intro A hA h0
    rw [hA] at ho
    obtain ⟨A', e1, e2, e3⟩ := ho
    exact ⟨A', e1, e2, e3.resolve_right h0⟩
  cases g with
  | zeroReturn =>
    rcases hA : s.out with _ | A
    · simp only [State.getOut, hA]; exact .fail (by simp [RunTime])
    obtain ⟨A', e1, e2, e3⟩ := out0 hA hg
    simp only [State.getOut, hA, pure_eq_ok, ok_bind, guardA]
    rw [exec_fill hK e1 ofull]
    refine (fill_all e2 (e3 ▸ hg)).bind fun B B' hB => ?_
    rw [exec_ret, eval_key (w := .arr B') (by simp [set_get])]
    exact .ok ⟨h.setOut hB.1 (Or.inl (by rw [hB.2, e3])), _, rfl, B', rfl, hB.1⟩
  | zeroFall =>
    rcases hA : s.out with _ | A
    · simp only [State.getOut, hA]; exact .fail (by simp [RunTime])
    obtain ⟨A', e1, e2, e3⟩ := out0 hA hg
    simp only [State.getOut, hA, pure_eq_ok, ok_bind, guardA]
    rw [exec_fill hK e1 ofull]
    refine (fill_all e2 (e3 ▸ hg)).bind fun B B' hB => ?_
    exact .ok ⟨h.setOut hB.1 (Or.inl (by rw [hB.2, e3])), rfl⟩
  | returnZero =>
    simp only [guardA, exec_set, eval, pure_eq_ok, ok_bind, exec_ret, hK.zero, lookup, set_get, if_true]
    exact .ok ⟨h.setFree (k := .valTmp) trivial _, _, rfl, rfl⟩
  | zeroContinue =>
    obtain ⟨hv, m, hm⟩ := hg
    have h0 : outDims cfg ≠ 0 := by simp [outDims, hv]
    rcases hA : s.out with _ | A
    · simp only [State.getOut, hA]; exact .fail (by simp [RunTime])
    obtain ⟨A', e1, e2, e3⟩ := out0 hA h0
    simp only [State.getOut, hA, pure_eq_ok, ok_bind, guardA, hm]
    rcases hvv : cfg.vectorValued with _ | _
    · have hes : eval ctx env (.cons (v .nn) .nil) = .ok (.tup [.int m]) := by simp [eval, lookup, h.nn hm, consVal]
      simp only [Bool.false_eq_true, if_false]
      rw [exec_fill hK e1 hes]
      refine (fill_row' e2 (by omega) m).bind fun B B' hB => ?_
      exact .ok ⟨h.setOut hB.1 (Or.inl (by rw [hB.2, e3])), rfl⟩
    · have hes : eval ctx env (.cons (v .nn) (.cons .full .nil)) = .ok (.tup [.int m, .slice]) := by
        simp [eval, lookup, h.nn hm, consVal]
      simp only [if_true]
      rw [exec_fill hK e1 hes]
      refine (fill_row e2 (by rw [e3]; simp [outDims, hv, hvv]) m).bind fun B B' hB => ?_
      exact .ok ⟨h.setOut hB.1 (Or.inl (by rw [hB.2, e3])), rfl⟩

end Interp.PyParse
