import Verif.Spec.PyRun
import Verif.Proofs.SourceTrees
import Verif.Proofs.SrcAttr

/-!
# Executing source texts: lemmas
-/

/-- Simplification with the lemmas that evaluate source texts (with explicit proof terms). -/
syntax "pysimp" (" [" Lean.Parser.Tactic.simpLemma,* "]")? (Lean.Parser.Tactic.location)? : tactic

macro_rules
  | `(tactic| pysimp $[$loc]?) => `(tactic| simp -implicitDefEqProofs only [pysrc] $[$loc]?)
  | `(tactic| pysimp [$ls,*] $[$loc]?) => `(tactic| simp -implicitDefEqProofs only [pysrc, $ls,*] $[$loc]?)

namespace Interp.Spec.PySrc
open Interp

set_option linter.unusedSectionVars false

variable {K : Type}

@[pysrc] theorem lift_pure {α : Type} (a : α) : (lift (pure a) : M K α) = pure a := rfl
@[pysrc] theorem lift_ok {α : Type} (a : α) : (lift (.ok a) : M K α) = pure a := rfl
@[pysrc] theorem lift_throw {α : Type} (e : Err) : (lift (throw e) : M K α) = raise e := rfl
@[pysrc] theorem lift_error {α : Type} (e : Err) : (lift (.error e) : M K α) = raise e := rfl
@[pysrc] theorem raise_bind {α β : Type} (e : Err) (f : α → M K β) : raise e >>= f = raise e := rfl
@[pysrc] theorem pure_bind_M {α β : Type} (a : α) (f : α → M K β) : (pure a >>= f) = f a := rfl
@[pysrc] theorem bind_assoc_M {α β γ : Type} (x : M K α) (f : α → M K β) (g : β → M K γ) :
    (x >>= f) >>= g = x >>= fun a => f a >>= g := bind_assoc x f g
theorem bind_pure_M {α : Type} (x : M K α) : (x >>= fun a => pure a) = x := bind_pure x
theorem lift_bind {α β : Type} (x : Py α) (f : α → Py β) : (lift (x >>= f) : M K β) = lift x >>= fun a => lift (f a) := by
  cases x <;> rfl
@[pysrc] theorem lift_map {α β : Type} (x : Py α) (f : α → β) :
    (lift (x.map f) : M K β) = lift x >>= fun a => pure (f a) := by
  cases x <;> rfl

@[pysrc] theorem set_apply (env : Env K) (x y : String) (v : Val K) :
    env.set x v y = if y = x then some v else env y := rfl

attribute [pysrc] reduceIte String.reduceEq List.mem_cons List.not_mem_nil or_false false_or not_false_eq_true or_self

variable [Add K] [Sub K] [Mul K] [Div K] [Neg K] [Zero K] [One K] [NatCast K] [IntCast K]
  [LT K] [DecidableLT K] [LE K] [DecidableLE K] [BEq K] [IntFloor K] [Interp.Smolyak.Trig K]

section
variable (W : World K) (env : Env K)

theorem look_of {W : World K} {env : Env K} {s : String} {v : Val K} (h : env s = some v) : look W env s = pure v := by
  rw [look, h]
@[pysrc] theorem eval_name (s : String) : eval W env (.name s) = look W env s := rfl
@[pysrc] theorem eval_int (n : ℕ) : eval W env (.int n) = pure (.int (n : ℤ)) := rfl
@[pysrc] theorem eval_float (m k : ℕ) : eval W env (.float m k) = pure (.flt (decimal m k)) := rfl
@[pysrc] theorem eval_str (s : String) : eval W env (.str s) = pure (.str s) := rfl
@[pysrc] theorem eval_tuple (es : Ex) : eval W env (.tuple es) = evals W env es >>= fun vs => pure (.tup vs) := rfl
@[pysrc] theorem eval_call (f es : Ex) :
    eval W env (.call f es) = eval W env f >>= fun g => evals W env es >>= fun vs => W.call g vs := rfl
@[pysrc] theorem eval_index (e es : Ex) :
    eval W env (.index e es) = eval W env e >>= fun v => evalSubs W env es >>= fun ss => item v ss := rfl
@[pysrc] theorem eval_attr (e : Ex) (s : String) : eval W env (.attr e s) = eval W env e >>= fun v => getAttr v s := rfl
@[pysrc] theorem eval_neg (e : Ex) : eval W env (.neg e) = eval W env e >>= fun v => lift (negate v) := rfl
@[pysrc] theorem eval_bin (o : Op) (a b : Ex) :
    eval W env (.bin o a b) = eval W env a >>= fun x => eval W env b >>= fun y => binOp o x y := rfl
@[pysrc] theorem eval_list (es : Ex) : eval W env (.list es) = evals W env es >>= fun vs => pure (.list vs) := rfl
@[pysrc] theorem eval_dict : eval W env .dict = pure (.dict []) := rfl
theorem eval_comp (e it : Ex) (x : String) :
    eval W env (.comp e x it .nil) = eval W env it >>= fun v => iterate v >>= fun vs =>
      vs.mapM (fun v => eval W (env.set x v) e) >>= fun us => pure (.list us) := rfl
@[pysrc] theorem eval_chain (a l : Ex) : eval W env (.chain a l) = eval W env a >>= fun x => evalLinks W env l x := rfl
@[pysrc] theorem eval_ite (t c e : Ex) :
    eval W env (.ite t c e) = eval W env c >>= fun v => lift (truth v) >>= fun c =>
      if c then eval W env t else eval W env e := rfl
@[pysrc] theorem evals_nil : evals W env .nil = pure [] := rfl
@[pysrc] theorem evals_cons (e es : Ex) :
    evals W env (.cons e es) = eval W env e >>= fun v => evals W env es >>= fun vs => pure (v :: vs) := rfl
@[pysrc] theorem links_last (o : Op) (b : Ex) (x : Val K) :
    evalLinks W env (.link o b .nil) x = eval W env b >>= fun y => compareVal o x y := rfl
@[pysrc] theorem links_link (o o' : Op) (b b' l : Ex) (x : Val K) :
    evalLinks W env (.link o b (.link o' b' l)) x = eval W env b >>= fun y => lift (compare o x y) >>= fun c =>
      if c then evalLinks W env (.link o' b' l) y else pure (.bool false) := rfl

@[pysrc] theorem asIx_int (z : ℤ) : asIx (Val.int z : Val K) = pure (.at z) := rfl
@[pysrc] theorem asInt_int (z : ℤ) : asInt (Val.int z : Val K) = pure z := rfl
@[pysrc] theorem subs_nil : evalSubs W env .nil = pure [] := rfl
@[pysrc] theorem subs_full (es : Ex) :
    evalSubs W env (.cons .full es) = evalSubs W env es >>= fun ss => pure (.full :: ss) := rfl
@[pysrc] theorem subs_dots (es : Ex) :
    evalSubs W env (.cons .dots es) = evalSubs W env es >>= fun ss => pure (.dots :: ss) := rfl
@[pysrc] theorem subs_name (s : String) (es : Ex) :
    evalSubs W env (.cons (.name s) es) = look W env s >>= fun v => asIx v >>= fun s =>
      evalSubs W env es >>= fun ss => pure (s :: ss) := rfl
@[pysrc] theorem subs_int (n : ℕ) (es : Ex) :
    evalSubs W env (.cons (.int n) es) = evalSubs W env es >>= fun ss => pure (.at (n : ℤ) :: ss) := rfl
@[pysrc] theorem subs_bin (o : Op) (a b es : Ex) :
    evalSubs W env (.cons (.bin o a b) es) = eval W env (.bin o a b) >>= fun v => asIx v >>= fun s =>
      evalSubs W env es >>= fun ss => pure (s :: ss) := rfl
@[pysrc] theorem subs_neg (a es : Ex) :
    evalSubs W env (.cons (.neg a) es) = eval W env (.neg a) >>= fun v => asIx v >>= fun s =>
      evalSubs W env es >>= fun ss => pure (s :: ss) := rfl

@[pysrc] theorem assign_name (s : String) (v : Val K) : assign W env (.name s) v = pure (env.set s v) := by
  simp only [assign]
@[pysrc] theorem assign_index (e es : Ex) (v : Val K) :
    assign W env (.index e es) v = eval W env e >>= fun o => evalSubs W env es >>= fun ss =>
      assignItem env e o ss v := by
  simp only [assign]
@[pysrc] theorem assignItem_arr (e : Ex) (r : ℕ) (pat : List (Option ℤ)) (ss : List Ix) (v : Val K) :
    assignItem env e (.arr r pat) ss v = putItem (.arr r pat) ss v >>= fun _ => pure env := rfl
@[pysrc] theorem assignItem_list (s : String) (vs : List (Val K)) (ss : List Ix) (v : Val K) :
    assignItem env (.name s) (.list vs) ss v = lift (putValue (.list vs) ss v) >>= fun w => pure (env.set s w) := rfl
@[pysrc] theorem assignItem_dict (s : String) (vs : List (ℤ × Val K)) (ss : List Ix) (v : Val K) :
    assignItem env (.name s) (.dict vs) ss v = lift (putValue (.dict vs) ss v) >>= fun w => pure (env.set s w) := rfl
@[pysrc] theorem assign_tuple (es : Ex) (vs : List (Val K)) :
    assign W env (.tuple es) (.tup vs) = assigns W env es vs := by
  simp only [assign]
@[pysrc] theorem assigns_nil : assigns W env .nil [] = pure env := by simp only [assigns]
@[pysrc] theorem assigns_cons (t ts : Ex) (v : Val K) (vs : List (Val K)) :
    assigns W env (.cons t ts) (v :: vs) = assign W env t v >>= fun env => assigns W env ts vs := by
  simp only [assigns]

@[pysrc] theorem exec_nil : exec W .nil env = pure (.next env) := rfl
@[pysrc] theorem exec_assign (t e : Ex) (rest : Block) :
    exec W (.simple (.assign t e) rest) env = eval W env e >>= fun v => assign W env t v >>= fun env =>
      exec W rest env := by
  simp only [exec, execSimple, bind_assoc_M, pure_bind_M, andThen]
@[pysrc] theorem exec_augName (o : Op) (s : String) (e : Ex) (rest : Block) :
    exec W (.simple (.aug o (.name s) e) rest) env = look W env s >>= fun x => eval W env e >>= fun y =>
      binOp o x y >>= fun z => exec W rest (env.set s z) := by
  simp only [exec, execSimple, bind_assoc_M, pure_bind_M, andThen]
@[pysrc] theorem exec_augIndex (o : Op) (a es e : Ex) (rest : Block) :
    exec W (.simple (.aug o (.index a es) e) rest) env = eval W env a >>= fun v => evalSubs W env es >>= fun ss =>
      item v ss >>= fun x => eval W env e >>= fun y => lift (arith o x y) >>= fun z => putItem v ss z >>= fun _ =>
      exec W rest env := by
  simp only [exec, execSimple, bind_assoc_M, pure_bind_M, andThen]
@[pysrc] theorem exec_expr (e : Ex) (rest : Block) :
    exec W (.simple (.expr e) rest) env = eval W env e >>= fun _ => exec W rest env := by
  simp only [exec, execSimple, bind_assoc_M, pure_bind_M, andThen]
@[pysrc] theorem exec_retNone (rest : Block) :
    exec W (.simple (.ret none) rest) env = pure (.ret .none) := by
  simp only [exec, execSimple, pure_bind_M, andThen]
@[pysrc] theorem exec_ret (e : Ex) (rest : Block) :
    exec W (.simple (.ret (some e)) rest) env = eval W env e >>= fun v => pure (.ret v) := by
  simp only [exec, execSimple, bind_assoc_M, pure_bind_M, andThen]
@[pysrc] theorem exec_if (c : Ex) (a b rest : Block) :
    exec W (.ifte c a b rest) env = eval W env c >>= fun v => lift (truth v) >>= fun t =>
      (if t then exec W a env else exec W b env) >>= fun o => andThen o (exec W rest) := by
  simp only [exec]
theorem exec_for (t e : Ex) (body rest : Block) :
    exec W (.for t e body rest) env = eval W env e >>= fun v => iterate v >>= fun vs =>
      forLoop (fun v env => assign W env t v >>= fun env => exec W body env) vs env >>= fun o =>
      andThen o (exec W rest) := by
  simp only [exec]
theorem exec_try (body handler rest : Block) :
    exec W (.tryE body handler rest) env = attempt env (targets body) (exec W body env) (exec W handler) >>= fun o =>
      andThen o (exec W rest) := by
  simp only [exec]
@[pysrc] theorem exec_def (f : String) (ps : List (String × Option Ex)) (body rest : Block) :
    exec W (.funDef f ps body rest) env = exec W rest (env.set f (.fn ⟨f, ps, body⟩)) := by
  simp only [exec]
@[pysrc] theorem andThen_next (k : Env K → M K (Out K)) : andThen (.next env) k = k env := rfl
@[pysrc] theorem andThen_ret (v : Val K) (k : Env K → M K (Out K)) : andThen (.ret v) k = pure (.ret v) := rfl

@[pysrc] theorem params_nil : params W [] [] = pure fun _ => none := rfl
@[pysrc] theorem params_cons (x : String) (d : Option Ex) (ps : List (String × Option Ex)) (v : Val K)
    (vs : List (Val K)) : params W ((x, d) :: ps) (v :: vs) = params W ps vs >>= fun env => pure (env.set x v) := by
  simp only [params]
@[pysrc] theorem params_default (x : String) (e : Ex) (ps : List (String × Option Ex)) :
    params W ((x, some e) :: ps) [] = eval W (fun _ => none) e >>= fun v => params W ps [] >>= fun env =>
      pure (env.set x v) := by
  simp only [params]
@[pysrc] theorem params_missing (x : String) (ps : List (String × Option Ex)) :
    params W ((x, none) :: ps) [] = raise .typeErr := by
  simp only [params]
@[pysrc] theorem params_many (v : Val K) (vs : List (Val K)) : params W [] (v :: vs) = raise .typeErr := by
  simp only [params]

end

/-! ### Operators -/

section
variable (x y : K) (a b : ℤ)

@[pysrc] theorem bin_ff (o : Op) : binOp o (.flt x) (.flt y) = lift (arith o (.flt x) (.flt y)) := rfl
@[pysrc] theorem bin_if (o : Op) : binOp o (.int a) (.flt y) = lift (arith o (.int a) (.flt y)) := rfl
@[pysrc] theorem bin_fi (o : Op) : binOp o (.flt x) (.int b) = lift (arith o (.flt x) (.int b)) := rfl
@[pysrc] theorem bin_ii (o : Op) : binOp o (.int a : Val K) (.int b) = lift (arith o (.int a) (.int b)) := rfl
@[pysrc] theorem bin_ll (o : Op) (u v : List (Val K)) :
    binOp o (.list u) (.list v) = lift (arith o (.list u) (.list v)) := rfl
@[pysrc] theorem bin_tt (o : Op) (u v : List (Val K)) : binOp o (.tup u) (.tup v) = lift (arith o (.tup u) (.tup v)) := rfl
@[pysrc] theorem bin_li (o : Op) (u : List (Val K)) : binOp o (.list u) (.int b) = lift (arith o (.list u) (.int b)) := rfl
@[pysrc] theorem arith_ff (o : Op) : arith o (.flt x) (.flt y) = fltOp o x y := rfl
@[pysrc] theorem arith_if (o : Op) : arith o (.int a) (.flt y) = fltOp o (a : K) y := rfl
@[pysrc] theorem arith_ii (o : Op) : arith o (.int a) (.int b) = (intOp o a b : Py (Val K)) := rfl
@[pysrc] theorem arith_pow : arith .dstar (.flt x) (.int b) = powOp x b := rfl
@[pysrc] theorem arith_fi_add : arith .plus (.flt x) (.int b) = pure (.flt (x + (b : K))) := rfl
@[pysrc] theorem arith_fi_sub : arith .minus (.flt x) (.int b) = pure (.flt (x - (b : K))) := rfl
@[pysrc] theorem arith_fi_mul : arith .star (.flt x) (.int b) = pure (.flt (x * (b : K))) := rfl
@[pysrc] theorem arith_fi_div : arith .slash (.flt x) (.int b) = (pyDiv x (b : K)).map .flt := rfl
@[pysrc] theorem flt_add : fltOp .plus x y = pure (.flt (x + y)) := rfl
@[pysrc] theorem flt_sub : fltOp .minus x y = pure (.flt (x - y)) := rfl
@[pysrc] theorem flt_mul : fltOp .star x y = pure (.flt (x * y)) := rfl
@[pysrc] theorem flt_div : fltOp .slash x y = (pyDiv x y).map .flt := rfl
@[pysrc] theorem int_add : (intOp .plus a b : Py (Val K)) = pure (.int (a + b)) := rfl
@[pysrc] theorem int_sub : (intOp .minus a b : Py (Val K)) = pure (.int (a - b)) := rfl
@[pysrc] theorem int_mul : (intOp .star a b : Py (Val K)) = pure (.int (a * b)) := rfl
@[pysrc] theorem neg_int : negate (.int a : Val K) = pure (.int (-a)) := rfl
@[pysrc] theorem neg_flt : negate (.flt x) = pure (.flt (-x)) := rfl
@[pysrc] theorem truth_bool (c : Bool) : truth (.bool c : Val K) = pure c := rfl
theorem compareVal_of {o : Op} {x y : Val K} (h : compareEach o x y = none) :
    compareVal o x y = lift (compare o x y) >>= fun c => pure (.bool c) := by
  rw [compareVal, h]
theorem compareVal_pure {o : Op} {x y : Val K} {c : Bool} (h : compare o x y = pure c) : compareVal o x y = pure (.bool c) := by
  have : compareEach o x y = none := by
    cases x <;> cases y <;> first | rfl | exact absurd h (by simp [compare, throw, throwThe, MonadExceptOf.throw, pure, Except.pure])
  rw [compareVal_of this, h]
  rfl
@[pysrc] theorem cmpv_ff (o : Op) : compareVal o (.flt x) (.flt y) = lift (compare o (.flt x) (.flt y)) >>= fun c => pure (.bool c) := rfl
@[pysrc] theorem cmpv_if (o : Op) : compareVal o (.int a) (.flt y) = lift (compare o (.int a) (.flt y)) >>= fun c => pure (.bool c) := rfl
@[pysrc] theorem cmpv_fi (o : Op) : compareVal o (.flt x) (.int b) = lift (compare o (.flt x) (.int b)) >>= fun c => pure (.bool c) := rfl
@[pysrc] theorem cmpv_ii (o : Op) : compareVal o (.int a : Val K) (.int b) = lift (compare o (.int a : Val K) (.int b)) >>= fun c => pure (.bool c) := rfl
@[pysrc] theorem cmpv_ss (o : Op) (s t : String) :
    compareVal o (.str s : Val K) (.str t) = lift (compare o (.str s : Val K) (.str t)) >>= fun c => pure (.bool c) := rfl
@[pysrc] theorem cmpv_none (o : Op) (v : Val K) : compareVal o v .none = lift (compare o v .none) >>= fun c => pure (.bool c) := by
  cases v <;> rfl
@[pysrc] theorem cmp_ff (o : Op) : compare o (.flt x) (.flt y) = fltCmp o x y := rfl
@[pysrc] theorem cmp_ii (o : Op) : compare o (.int a : Val K) (.int b) = intCmp o a b := rfl
@[pysrc] theorem cmp_ss (s t : String) : compare .eqeq (.str s : Val K) (.str t) = pure (decide (s = t)) := rfl
@[pysrc] theorem fle : fltCmp .le x y = pure (decide (x ≤ y)) := rfl
@[pysrc] theorem fge : fltCmp .ge x y = pure (decide (y ≤ x)) := rfl
@[pysrc] theorem flt' : fltCmp .lt x y = pure (decide (x < y)) := rfl
@[pysrc] theorem fgt : fltCmp .gt x y = pure (decide (y < x)) := rfl
@[pysrc] theorem ieq : intCmp .eqeq a b = pure (decide (a = b)) := rfl
@[pysrc] theorem ige : intCmp .ge a b = pure (decide (b ≤ a)) := rfl
@[pysrc] theorem igt : intCmp .gt a b = pure (decide (b < a)) := rfl

@[pysrc] theorem pow_two : powOp x ((2 : ℕ) : ℤ) = pure (.flt (x * x)) := rfl
@[pysrc] theorem pow_three : powOp x ((3 : ℕ) : ℤ) = pure (.flt (x * x * x)) := rfl

end

/-! ### Functions of Python and numpy -/

section
variable (r : ℕ) (pat : List (Option ℤ)) (a b c : ℤ)

@[pysrc] theorem range_1 : builtin .range [(.int b : Val K)] = pure (.range (rangeStep 0 b 1)) := rfl
@[pysrc] theorem range_2 : builtin .range [(.int a : Val K), .int b] = pure (.range (rangeStep a b 1)) := rfl
@[pysrc] theorem range_3 (hc : c ≠ 0) :
    builtin .range [(.int a : Val K), .int b, .int c] = pure (.range (rangeStep a b c)) := by
  simp only [builtin, hc, if_false]
@[pysrc] theorem len_tup (vs : List (Val K)) : builtin .len [.tup vs] = pure (.int vs.length) := rfl
@[pysrc] theorem np_zeros : getAttr (.np : Val K) "zeros" = pure (.builtin .zeros) := rfl
@[pysrc] theorem np_min : getAttr (.np : Val K) "min" = pure (.builtin .npMin) := rfl
@[pysrc] theorem np_max : getAttr (.np : Val K) "max" = pure (.builtin .npMax) := rfl
@[pysrc] theorem np_searchsorted : getAttr (.np : Val K) "searchsorted" = pure (.builtin .searchsorted) := rfl
@[pysrc] theorem arr_ndim : getAttr (.arr r pat : Val K) "ndim" = pure (.int (free pat)) := rfl
@[pysrc] theorem tup_types (vs : List (Val K)) : getAttr (.tup vs) "types" = pure (.tup vs) := rfl
@[pysrc] theorem flt_ndim (x : K) : getAttr (.flt x) "ndim" = raise .attribute := rfl
@[pysrc] theorem min_arr : builtin .npMin [(.arr r pat : Val K)] =
    elements r pat >>= fun xs => lift (least xs) >>= fun x => pure (.flt x) := rfl
@[pysrc] theorem max_arr : builtin .npMax [(.arr r pat : Val K)] =
    elements r pat >>= fun xs => lift (greatest xs) >>= fun x => pure (.flt x) := rfl
@[pysrc] theorem searchsorted_arr (x : K) : builtin .searchsorted [(.arr r pat : Val K), .flt x] =
    elements r pat >>= fun xs => pure (.int (searchsorted xs x)) := rfl
@[pysrc] theorem iterate_range (zs : List ℤ) : iterate (.range zs : Val K) = pure (zs.map .int) := rfl

end

/-! ### Elements of arrays -/

/-- The element of array `r` with these indices. -/
def rdElem (r : ℕ) (idx : List ℤ) : M K (Val K) := getArr r >>= fun A => lift (A.read idx) >>= fun x => pure (.flt x)

/-- Assignment to the element of array `r` with these indices. -/
def wrElem (r : ℕ) (idx : List ℤ) (x : K) : M K Unit := getArr r >>= fun A => lift (A.write idx x) >>= fun A => setArr r A

theorem item_arr {r : ℕ} {pat pat' : List (Option ℤ)} {ss : List Ix} {idx : List ℤ}
    (h : refine pat (expand (free pat) ss) = some pat') (h' : complete pat' = some idx) :
    item (.arr r pat : Val K) ss = rdElem r idx := by
  simp only [item, subscript, h, h', rdElem]

theorem item_view {r : ℕ} {pat pat' : List (Option ℤ)} {ss : List Ix}
    (h : refine pat (expand (free pat) ss) = some pat') (h' : complete pat' = none) :
    item (.arr r pat : Val K) ss = pure (.arr r pat') := by
  simp only [item, subscript, h, h']

theorem putItem_arr {r : ℕ} {pat pat' : List (Option ℤ)} {ss : List Ix} {idx : List ℤ} {x : K}
    (h : refine pat (expand (free pat) ss) = some pat') (h' : complete pat' = some idx) :
    putItem (.arr r pat : Val K) ss (.flt x) = wrElem r idx x := by
  simp only [putItem, number, lift_pure, pure_bind_M, store, h, Option.bind_some, h', wrElem]

@[pysrc] theorem item_vec (r : ℕ) (z : ℤ) : item (.arr r [none] : Val K) [.at z] = rdElem r [z] := item_arr rfl rfl
@[pysrc] theorem put_vec (r : ℕ) (z : ℤ) (x : K) : putItem (.arr r [none] : Val K) [.at z] (.flt x) = wrElem r [z] x :=
  putItem_arr rfl rfl
@[pysrc] theorem item_mat (r : ℕ) (z w : ℤ) : item (.arr r [none, none] : Val K) [.at z, .at w] = rdElem r [z, w] :=
  item_arr rfl rfl
@[pysrc] theorem put_mat (r : ℕ) (z w : ℤ) (x : K) :
    putItem (.arr r [none, none] : Val K) [.at z, .at w] (.flt x) = wrElem r [z, w] x := putItem_arr rfl rfl
@[pysrc] theorem item_tup0 (v : Val K) (vs : List (Val K)) : item (.tup (v :: vs)) [.at ((0 : ℕ) : ℤ)] = pure v := by
  simp [item, wrapIndex]
@[pysrc] theorem item_tup1 (u v : Val K) (vs : List (Val K)) :
    item (.tup (u :: v :: vs)) [.at ((1 : ℕ) : ℤ)] = pure v := by
  simp [item, wrapIndex]
@[pysrc] theorem item_tup2 (u v w : Val K) (vs : List (Val K)) :
    item (.tup (u :: v :: w :: vs)) [.at ((2 : ℕ) : ℤ)] = pure w := by
  have : (2 : ℤ) < (vs.length : ℤ) + 1 + 1 + 1 := by omega
  simp [item, wrapIndex, this]
@[pysrc] theorem item_tup3 (t u v w : Val K) (vs : List (Val K)) :
    item (.tup (t :: u :: v :: w :: vs)) [.at ((3 : ℕ) : ℤ)] = pure w := by
  have : (3 : ℤ) < (vs.length : ℤ) + 1 + 1 + 1 + 1 := by omega
  simp [item, wrapIndex, this]

/-! ### With a heap -/

section
variable {h : Heap K}

theorem bind_run {α β : Type} (x : M K α) (f : α → M K β) (h : Heap K) :
    (x >>= f) h = x h >>= fun p => f p.1 p.2 := rfl
theorem pure_run {α : Type} (a : α) (h : Heap K) : (pure a : M K α) h = pure (a, h) := rfl
theorem raise_run {α : Type} (e : Err) (h : Heap K) : (raise e : M K α) h = throw e := rfl
theorem lift_run {α : Type} (x : Py α) (h : Heap K) : (lift x : M K α) h = x >>= fun a => pure (a, h) := by
  cases x <;> rfl
theorem next_run (env : Env K) (k : Env K → M K (Out K)) (h : Heap K) : andThen (.next env) k h = k env h := rfl
theorem ret_run (v : Val K) (k : Env K → M K (Out K)) (h : Heap K) : andThen (.ret v) k h = pure (.ret v, h) := rfl
theorem getArr_run {r : ℕ} {A : NdArray K} {h : Heap K} (hr : h[r]? = some A) : getArr r h = pure (A, h) := by
  simp [getArr, hr]; rfl
theorem rdElem_run {r : ℕ} {A : NdArray K} {h : Heap K} (hr : h[r]? = some A) (idx : List ℤ) :
    rdElem r idx h = A.read idx >>= fun x => pure (.flt x, h) := by
  rw [rdElem, bind_run, getArr_run hr, pure_bind, bind_run, lift_run]
  cases A.read idx <;> rfl
theorem wrElem_run {r : ℕ} {A : NdArray K} {h : Heap K} (hr : h[r]? = some A) (idx : List ℤ) (x : K) :
    wrElem r idx x h = A.write idx x >>= fun A => pure ((), h.set r A) := by
  rw [wrElem, bind_run, getArr_run hr, pure_bind, bind_run, lift_run]
  cases A.write idx x <;> rfl
theorem len_run {r n : ℕ} {pat : List (Option ℤ)} {t : List ℕ} {A : NdArray K} {h : Heap K} (hr : h[r]? = some A)
    (hs : viewShape pat A.shape = n :: t) : builtin .len [(.arr r pat : Val K)] h = pure (.int n, h) := by
  simp only [builtin, bind_run, getArr_run hr, pure_bind, hs, pure_run]
theorem shape_run {r : ℕ} {pat : List (Option ℤ)} {A : NdArray K} {h : Heap K} (hr : h[r]? = some A) :
    getAttr (.arr r pat : Val K) "shape" h =
      pure (.tup ((viewShape pat A.shape).map fun (n : ℕ) => .int (n : ℤ)), h) := by
  simp only [getAttr, if_true, bind_run, getArr_run hr, pure_bind, pure_run]
theorem zeros1_run (n : ℕ) (h : Heap K) : builtin .zeros [(.int (n : ℤ) : Val K)] h =
    pure (.arr h.length [none], h ++ [.zeros [n]]) := by
  simp only [builtin, sizes, Int.natCast_nonneg, if_true, Except.map, Pure.pure, Except.pure, Int.toNat_natCast]
  rfl
theorem step {α β : Type} {x : M K α} {f : α → M K β} {h h' : Heap K} {a : α} (hx : x h = pure (a, h')) :
    (x >>= f) h = f a h' := by
  rw [bind_run, hx, pure_bind]
theorem step' {α β γ : Type} {x : M K α} {f : α → M K β} {h : Heap K} {y : Py γ} {g : γ → α × Heap K}
    (hx : x h = y >>= fun c => pure (g c)) : (x >>= f) h = y >>= fun c => f (g c).1 (g c).2 := by
  rw [bind_run, hx, bind_assoc]
  simp only [pure_bind]
theorem setArr_run (r : ℕ) (A : NdArray K) (h : Heap K) : setArr r A h = pure ((), h.set r A) := rfl
theorem newArr_run (A : NdArray K) (h : Heap K) : newArr A h = pure (h.length, h ++ [A]) := rfl
theorem ite_run {α : Type} (c : Prop) [Decidable c] (x y : M K α) (h : Heap K) :
    (if c then x else y) h = if c then x h else y h := by split <;> rfl

theorem throw_bind_py {α β : Type} (e : Err) (f : α → Py β) : (throw e >>= f : Py β) = throw e := rfl
theorem ok_bind_py {α β : Type} (a : α) (f : α → Py β) : (Except.ok a >>= f : Py β) = f a := rfl
theorem map_py {α β : Type} (x : Py α) (f : α → β) : x.map f = x >>= fun a => pure (f a) := by cases x <;> rfl

end

theorem attempt_ok {env : Env K} {names : List String} {x : M K (Out K)} {k : Env K → M K (Out K)} {h : Heap K}
    {r : Out K × Heap K} (hx : x h = pure r) : attempt env names x k h = pure r := by
  rw [attempt, hx]; rfl
theorem attempt_error {env : Env K} {names : List String} {x : M K (Out K)} {k : Env K → M K (Out K)} {h : Heap K}
    {e : Err} (hx : x h = throw e) : attempt env names x k h = k (forget env names) h := by
  rw [attempt, hx]; rfl
theorem choose_first {run : FunDef → List (Val K) → M K (Val K)} {args : List (Val K)} {G F : FunDef} {Gs : List FunDef}
    {h h' : Heap K} (hG : run G args h = pure (.fn F, h')) : choose run args (G :: Gs) h = pure (F, h) := by
  simp only [choose, hG]; rfl
theorem choose_skip {run : FunDef → List (Val K) → M K (Val K)} {args : List (Val K)} {G : FunDef} {Gs : List FunDef}
    {h : Heap K} {e : Err} (hG : run G args h = throw e) : choose run args (G :: Gs) h = choose run args Gs h := by
  simp only [choose, hG]; rfl

/-! ### Simulation -/

/-- Two computations raise the same, or have related results. -/
def Sim {α β : Type} (x : Py α) (y : Py β) (Q : α → β → Prop) : Prop :=
  match x, y with
  | .ok a, .ok b => Q a b
  | .error e, .error e' => e = e'
  | _, _ => False

theorem Sim.pure {α β : Type} {Q : α → β → Prop} {a : α} {b : β} (h : Q a b) :
    Sim (Pure.pure a : Py α) (Pure.pure b : Py β) Q := h

theorem Sim.bind {α β γ δ : Type} {x : Py α} {y : Py β} {Q : α → β → Prop} {f : α → Py γ} {g : β → Py δ}
    {R : γ → δ → Prop} (h : Sim x y Q) (h' : ∀ a b, Q a b → Sim (f a) (g b) R) : Sim (x >>= f) (y >>= g) R := by
  rcases x with e | a <;> rcases y with e' | b
  · exact h
  · exact h.elim
  · exact h.elim
  · exact h' a b h

theorem Sim.bind_right {α β δ : Type} {x : Py α} {y : Py β} {Q : α → β → Prop} {g : β → Py δ}
    {R : α → δ → Prop} (h : Sim x y Q) (h' : ∀ a b, Q a b → Sim (Pure.pure a) (g b) R) : Sim x (y >>= g) R := by
  rcases x with e | a <;> rcases y with e' | b
  · exact h
  · exact h.elim
  · exact h.elim
  · exact h' a b h

theorem Sim.bind_same {α γ δ : Type} {x : Py α} {f : α → Py γ} {g : α → Py δ} {R : γ → δ → Prop}
    (h' : ∀ a, Sim (f a) (g a) R) : Sim (x >>= f) (x >>= g) R := by
  rcases x with e | a
  · rfl
  · exact h' a

theorem Sim.mono {α β : Type} {x : Py α} {y : Py β} {Q R : α → β → Prop} (h : Sim x y Q) (h' : ∀ a b, Q a b → R a b) :
    Sim x y R := by
  rcases x with e | a <;> rcases y with e' | b
  · exact h
  · exact h.elim
  · exact h.elim
  · exact h' a b h

theorem Sim.eq {α β : Type} {x : Py α} {y : Py β} {f : α → β} (h : Sim x y fun a b => b = f a) :
    y = x >>= fun a => Pure.pure (f a) := by
  rcases x with e | a <;> rcases y with e' | b
  · exact congrArg _ (Eq.symm h)
  · exact h.elim
  · exact h.elim
  · exact congrArg _ h

theorem sim_of_eq {α β : Type} {x : Py α} {y : Py β} {f : α → β} {Q : α → β → Prop}
    (h : y = x >>= fun a => Pure.pure (f a)) (h' : ∀ a, Q a (f a)) : Sim x y Q := by
  subst h
  rcases x with e | a
  · rfl
  · exact h' a

/-- The variables are as before, except for these. -/
def Agree (names : List String) (env0 env : Env K) : Prop := ∀ s, s ∉ names → env s = env0 s

theorem Agree.refl (names : List String) (env : Env K) : Agree names env env := fun _ _ => rfl

theorem Agree.set {names : List String} {env0 env : Env K} (h : Agree names env0 env) {s : String} (hs : s ∈ names)
    (v : Val K) : Agree names env0 (env.set s v) := by
  intro t ht
  rw [set_apply, if_neg (by rintro rfl; exact ht hs)]
  exact h t ht

/-- How the passes of a loop of the model and of a text are related: there is always a next one. -/
def Next {S : Type} (Inv : S → Env K → Heap K → Prop) (s : S) (o : Out K × Heap K) : Prop :=
  ∃ env, o.1 = .next env ∧ Inv s env o.2

theorem forLoop_sim {α S : Type} {pass : Val K → Env K → M K (Out K)} {toVal : α → Val K} {body : α → S → Py S}
    {Inv : S → Env K → Heap K → Prop} {l : List α} {s : S} {env : Env K} {h : Heap K}
    (hpass : ∀ a ∈ l, ∀ s env h, Inv s env h → Sim (body a s) (pass (toVal a) env h) (Next Inv))
    (h0 : Inv s env h) : Sim (pyFor l body s) (forLoop pass (l.map toVal) env h) (Next Inv) := by
  induction l generalizing s env h with
  | nil => exact Sim.pure ⟨env, rfl, h0⟩
  | cons a l ih =>
    simp only [pyFor, List.foldlM_cons, List.map_cons, forLoop, bind_run]
    refine Sim.bind (hpass a (by simp) s env h h0) ?_
    rintro s' ⟨o, h'⟩ ⟨env', rfl, hI⟩
    exact ih (fun b hb => hpass b (by simp [hb])) hI

/-- What a function sees when `n` more calls are allowed. -/
abbrev world (P : Prog) (n : ℕ) : World K := ⟨globalOf P, callN P n, n⟩

theorem callN_fn (P : Prog) (n : ℕ) (F : FunDef) (args : List (Val K)) :
    callN P (n + 1) (.fn F) args = runFun (world P n) F args := rfl
theorem callN_over {P : Prog} {s : String} {Gs : List FunDef} (hs : find s P.overs = some Gs) (n : ℕ)
    (args : List (Val K)) : callN P (n + 1) (.over s) args =
      choose (runFun (world P n)) args Gs >>= fun F => runFun (world P n) F args := by
  simp only [callN, hs]
@[pysrc] theorem callN_builtin (P : Prog) (n : ℕ) (b : Builtin) (args : List (Val K)) :
    callN P (n + 1) (.builtin b) args = builtin b args := rfl

end Interp.Spec.PySrc
