import Verif.Proofs.MlinterpRead
import Verif.Proofs.PyRun

/-!
# What the functions written by `make_mlinterp` compute
-/

namespace Interp.PyParse
open Interp.Spec.PyLang
open Interp.Mlinterp
open Interp.Codegen hiding exec

set_option linter.unusedSectionVars false

variable {K : Type} [Add K] [Sub K] [Mul K] [Div K] [Neg K] [Zero K] [One K] [NatCast K]
  [IntCast K] [LT K] [DecidableLT K] [BEq K] [IntFloor K] {env : Env K}

theorem toAxis_arg (a : Arg K) : toAxis (argVal a) = axisOf a := by
  cases a with
  | arr A =>
    simp only [argVal, toAxis, axisOf, vector]
    rcases A.shape with _ | ⟨n, _ | ⟨m, s⟩⟩ <;> rfl
  | tup xs => rcases xs with _ | ⟨a, _ | ⟨b, _ | ⟨c, xs⟩⟩⟩ <;> rfl
  | _ => rfl

theorem toFloat_arg (a : Arg K) : toFloat (argVal a) = scalarOf a := by cases a <;> rfl

theorem project_len : ∀ (G : List (GridDim K)) (x p : List K), project G x = .ok p → p.length = G.length
  | [], x, p, h => by cases x <;> (cases h; rfl)
  | g :: G, [], p, h => by cases h
  | g :: G, x :: xs, p, h => by
    rw [project_cons] at h
    obtain ⟨y, -, h⟩ := of_bind h
    obtain ⟨ys, h1, h⟩ := of_bind h
    cases h
    simp [project_len G xs ys h1]

/-- The variables that `project(grid, ...)` and `mlinterp(grid, C, ppoint)` use. -/
structure Ready (G : List (GridDim K)) (C : NdArray K) (env : Env K) : Prop where
  grid : ∃ gs, env gridN = some (.tup gs) ∧ gs.mapM toAxis = .ok G
  C : env CN = some (.arr C)
  proj : env projectN = none
  ml : env mlinterpN = none
  range : env rangeN = none

theorem Ready.set {G : List (GridDim K)} {C : NdArray K} (h : Ready G C env) {s : Str} (w : Val K)
    (hs : s ≠ gridN ∧ s ≠ CN ∧ s ≠ projectN ∧ s ≠ mlinterpN ∧ s ≠ rangeN) : Ready G C (env.set s w) := by
  obtain ⟨h1, h2, h3, h4, h5⟩ := hs
  refine ⟨?_, ?_, ?_, ?_, ?_⟩
  · simpa [Env.set, h1.symm] using h.grid
  · simpa [Env.set, h2.symm] using h.C
  · simpa [Env.set, h3.symm] using h.proj
  · simpa [Env.set, h4.symm] using h.ml
  · simpa [Env.set, h5.symm] using h.range

theorem mapM_length {α β : Type} {f : α → Py β} : ∀ {l : List α} {l' : List β}, l.mapM f = .ok l' → l'.length = l.length
  | [], l', h => by cases h; rfl
  | a :: l, l', h => by
    rw [List.mapM_cons] at h
    obtain ⟨y, -, h⟩ := of_bind h
    obtain ⟨ys, h1, h⟩ := of_bind h
    cases h
    simp [mapM_length h1]

theorem mapM_flt (x : List K) : (x.map Val.flt).mapM toFloat = .ok x := by
  induction x with
  | nil => rfl
  | cons a x ih => rw [List.map_cons, List.mapM_cons, ih]; rfl

theorem eval_project {G : List (GridDim K)} {C : NdArray K} (h : Ready G C env) {e : PExpr} {X : Py (List (Val K))}
    (he : eval mlContext env e = X >>= fun ws => .ok (.tup ws)) :
    eval mlContext env (projectE e) = X >>= fun ws => ws.mapM toFloat >>= fun x => project G x >>= fun p => .ok (.tup (p.map .flt)) := by
  obtain ⟨gs, hg, hG⟩ := h.grid
  have hp : eval mlContext env (.name projectN) = .ok (.fn .project) := by simp only [eval, lookup, h.proj]; rfl
  simp only [L, projectE]
  rw [eval, hp, ok_bind, eval, eval_name hg, ok_bind, eval, he]
  rcases X with e | ws
  · rfl
  · simp only [ok_bind, eval, consVal, pure_bind, callVal, apply, hG]
    rfl

theorem eval_mlinterp {G : List (GridDim K)} {C : NdArray K} (h : Ready G C env) {p : List K} (hn : G ≠ []) (hC : C.shape.length = G.length)
    (hp : env ppointN = some (.tup (p.map .flt))) (hl : p.length = G.length) :
    eval mlContext env mlinterpE = mlPoint G C p >>= fun y => .ok (.flt y) := by
  obtain ⟨gs, hg, hG⟩ := h.grid
  have hm : eval mlContext env (.name mlinterpN) = .ok (.fn .mlinterp) := by simp only [eval, lookup, h.ml]; rfl
  simp only [L, mlinterpE]
  rw [eval, hm, ok_bind, eval, eval_name hg, ok_bind, eval, eval_name h.C, ok_bind, eval, eval_name hp, ok_bind]
  simp only [eval, consVal, pure_bind, callVal, apply, hG, ok_bind, mapM_flt, Mlinterp.mlinterp]
  rw [if_neg (by simp [hn, hC]), if_neg (by simp [hl])]
  simp only [pure_bind, bind_assoc]
  rfl

/-- The two lines that compute a value. -/
theorem point_sim {G : List (GridDim K)} {C : NdArray K} (h : Ready G C env) (hn : G ≠ []) (hC : C.shape.length = G.length) {e : PExpr}
    {X : Py (List (Val K))} (he : eval mlContext env e = X >>= fun ws => .ok (.tup ws)) {α : Type} (k : Env K → Val K → Py α) :
    (eval mlContext env (projectE e) >>= fun w => eval mlContext (env.set ppointN w) mlinterpE >>= fun y => k (env.set ppointN w) y)
      = X >>= fun ws => ws.mapM toFloat >>= fun x => project G x >>= fun p => mlPoint G C p >>= fun y =>
        k (env.set ppointN (.tup (p.map .flt))) (.flt y) := by
  rw [eval_project h he]
  rcases X with e | ws
  · rfl
  simp only [ok_bind]
  rcases ws.mapM toFloat with e | x
  · rfl
  simp only [ok_bind]
  rcases hp : project G x with e | p
  · rfl
  simp only [ok_bind]
  rw [eval_mlinterp (p := p) (h.set _ (by simp)) hn hC (by simp [Env.set]) (project_len G x p hp), bind_assoc]
  rfl

theorem exec_lastRet (e : PExpr) (env : Env K) : exec mlContext (lines [[.ret e]]) none env = eval mlContext env e >>= fun w => .ok (env, .ret w) := by
  simp only [exec, lines, execSimples, execSimple, bind_assoc, pure_bind]
  rfl

/-- The lines that unpack the arguments. -/
theorem grid_sim {args : List (Arg K)} {d : ℕ} (hd : d ≤ args.length) {G : List (GridDim K)} (hG : (args.take d).mapM axisOf = .ok G)
    (ha : env argsN = some (.tup (args.map argVal))) :
    ∃ gs, eval mlContext env (tupE d aE) = .ok (.tup gs) ∧ gs.mapM toAxis = .ok G := by
  refine ⟨(args.take d).map argVal, ?_, ?_⟩
  · have hl : (args.take d).length = d := by simp [hd]
    rw [eval_range (W := fun i => eval mlContext env (aE i)) _ fun _ _ => rfl]
    conv_lhs => rw [← hl]
    rw [mapM_range (g := fun a => .ok (argVal a)) (args.take d), mapM_ok _ _ _ (fun _ _ => rfl)]
    · rfl
    intro i a hia
    have hi : i < d := by
      have := (List.getElem?_eq_some_iff.mp hia).1
      omega
    refine eval_at_tup (eval_name ha) (eval_int i) ?_
    rw [List.getElem?_take, if_pos hi] at hia
    rw [List.getElem?_map, hia]; rfl
  · rw [List.mapM_map, ← hG]
    exact mapM_eq _ fun a _ => toAxis_arg a

theorem eval_arg {args : List (Arg K)} (ha : env argsN = some (.tup (args.map argVal))) {i : ℕ} {a : Arg K} (hi : args[i]? = some a) :
    eval mlContext env (aE i) = .ok (argVal a) :=
  eval_at_tup (eval_name ha) (eval_int i) (by rw [List.getElem?_map, hi]; rfl)

/-- One point. -/
theorem single_eval {args : List (Arg K)} {d : ℕ} {G : List (GridDim K)} {C : NdArray K} (hd : 1 ≤ d) (hG : (args.take d).mapM axisOf = .ok G)
    (hC : args[d]? = some (.arr C)) (hs : C.shape.length = d) {e : PExpr} {X : Py (List (Val K))}
    (he : ∀ env : Env K, env argsN = some (.tup (args.map argVal)) → eval mlContext env e = X >>= fun ws => .ok (.tup ws)) :
    callStar mlContext ⟨argsN, singleBlock d e⟩ (args.map argVal)
      = X >>= fun ws => ws.mapM toFloat >>= fun x => projected G C x >>= fun y => .ok (.flt y) := by
  have hl : d ≤ args.length := by
    have := (List.getElem?_eq_some_iff.mp hC).1
    omega
  have hGl : G.length = d := by
    have := mapM_length hG
    simpa [hl] using this
  set e0 : Env K := Env.set (fun _ => none) argsN (.tup (args.map argVal)) with he0
  have ha : e0 argsN = some (.tup (args.map argVal)) := by simp [he0, Env.set]
  obtain ⟨gs, h1, h2⟩ := grid_sim (env := e0) hl hG ha
  simp only [callStar, singleBlock]
  rw [exec_assign, h1, ok_bind, exec_assign, eval_arg (by simp [Env.set, ha]) hC, ok_bind, exec_assign, he _ (by simp [Env.set, ha])]
  rcases X with e | ws
  · rfl
  simp only [ok_bind]
  set e1 : Env K := ((e0.set gridN (.tup gs)).set CN (argVal (.arr C))).set pointN (.tup ws) with he1
  have hr : Ready G C e1 := ⟨⟨gs, by simp [he1, Env.set], h2⟩, by simp [he1, Env.set, argVal], by simp [he1, he0, Env.set], by simp [he1, he0, Env.set], by simp [he1, he0, Env.set]⟩
  have hp : eval mlContext e1 (.name pointN) = (.ok ws : Py (List (Val K))) >>= fun ws => .ok (.tup ws) := by
    rw [ok_bind]; exact eval_name (by simp [he1, Env.set])
  rw [exec_assign]
  have hx : ∀ w, exec mlContext (lines [[.assign (.name resN) mlinterpE], [.ret (.name resN)]]) none (e1.set ppointN w)
      = eval mlContext (e1.set ppointN w) mlinterpE >>= fun y => .ok (((e1.set ppointN w).set resN y), .ret y) := by
    intro w
    rw [exec_assign]
    congr 1
  simp only [hx]
  have := point_sim hr (by intro h; rw [h] at hGl; simp at hGl; omega) (by omega) hp
    (fun env y => (.ok (env.set resN y, .ret y) : Py (Env K × Exit K)))
  beta_reduce at this
  rw [this]
  simp only [ok_bind, bind_assoc, projected]
  rfl

/-! ### Loops -/

/-- The statements do what `m` does to the array `res`. -/
def Follows (m : Py (NdArray K)) (I : NdArray K → Env K → Prop) (r : Py (Env K × Exit K)) : Prop :=
  match m with
  | .error e => r = .error e
  | .ok A => ∃ env, r = .ok (env, .next) ∧ I A env

theorem Follows.mono {m : Py (NdArray K)} {I J : NdArray K → Env K → Prop} {r : Py (Env K × Exit K)} (h : Follows m I r)
    (hI : ∀ A env, I A env → J A env) : Follows m J r := by
  rcases m with e | A
  · exact h
  · obtain ⟨env', h1, h2⟩ := h
    exact ⟨env', h1, hI A env' h2⟩

theorem follows_loop {I : NdArray K → Env K → Prop} {body : Env K → Py (Env K × Exit K)} {x : Str} {step : ℕ → NdArray K → Py (NdArray K)}
    (h : ∀ n A env, I A env → Follows (step n A) I (body (env.set x (.int n)))) :
    ∀ (l : List ℕ) (A : NdArray K) (env : Env K), I A env → Follows (pyFor l step A) I (forLoop body x (l.map Int.ofNat) env)
  | [], A, env, hI => ⟨env, rfl, hI⟩
  | n :: l, A, env, hI => by
    have h1 := h n A env hI
    simp only [pyFor, List.foldlM_cons, List.map_cons, forLoop]
    rcases hs : step n A with e | A'
    · rw [hs] at h1
      have h1 : body (env.set x (.int (Int.ofNat n))) = .error e := h1
      rw [h1]; rfl
    · rw [hs] at h1
      obtain ⟨env', h2, h3⟩ : ∃ env', body (env.set x (.int (Int.ofNat n))) = .ok (env', .next) ∧ I A' env' := h1
      rw [h2]
      exact follows_loop h l A' env' h3

theorem exec_forLoop {x : Str} {e : PExpr} {b rest : Block} {m : ℤ} (h : eval mlContext env e = .ok (.range m)) {M : Py (NdArray K)}
    {I : NdArray K → Env K → Prop} (hf : Follows M I (forLoop (exec mlContext b none) x ((List.range m.toNat).map Int.ofNat) env)) :
    Follows M I (exec mlContext (.block (.forH x e) b .nil) none env) ∧
    exec mlContext (.block (.forH x e) b rest) none env
      = exec mlContext (.block (.forH x e) b .nil) none env >>= fun r => exec mlContext rest none r.1 := by
  simp only [exec, h, ok_bind, iterate, pure_eq_ok]
  revert hf
  generalize forLoop _ _ _ _ = f
  intro hf
  rcases M with e | A
  · have : f = .error e := hf
    rw [this]
    exact ⟨rfl, rfl⟩
  · obtain ⟨env', rfl, h2⟩ : ∃ env', f = .ok (env', .next) ∧ I A env' := hf
    exact ⟨⟨env', rfl, h2⟩, rfl⟩

theorem write_shape {A A' : NdArray K} {idx : List ℤ} {y : K} (h : A.write idx y = .ok A') : A'.shape = A.shape := by
  unfold NdArray.write at h
  split at h <;> cases h
  rfl

/-- `res[...] = v`. -/
theorem exec_setitem {es : PExpr} {zs : List ℤ} {A : NdArray K} {y : K} {e : PExpr} (he : eval mlContext env e = .ok (.flt y))
    (hr : env resN = some (.arr A)) (hz : eval mlContext env es = .ok (.tup (zs.map .int))) (hl : zs.length = A.shape.length) :
    exec mlContext (lines [[.assign (.index (.name resN) es) e]]) none env = A.write zs y >>= fun A' => .ok (env.set resN (.arr A'), .next) := by
  have ht : ∀ l : List ℤ, toInts (l.map (Val.int (K := K))) = .ok l := by
    intro l
    induction l with
    | nil => rfl
    | cons a l ih => simp only [List.map_cons, toInts, ih, ok_bind]; rfl
  have hw : (zs.map (Val.int (K := K))).takeWhile (fun v => !isSlice v) = zs.map .int := by
    rw [List.takeWhile_eq_self_iff]; simp [isSlice]
  have hd : (zs.map (Val.int (K := K))).dropWhile (fun v => !isSlice v) = [] := by
    rw [List.dropWhile_eq_nil_iff]; simp [isSlice]
  have hlk : lookup mlContext env resN = .ok (.arr A) := by simp only [lookup, hr]; rfl
  simp only [exec, lines, execSimples, execSimple, assignTo, he, ok_bind, hlk, hz, subscripts, pure_eq_ok, toFloat, setItem, hw, hd, ht, hl]
  simp only [List.length_map, hl, lt_irrefl, List.all_nil, not_true_eq_false, or_self, if_false, ok_bind, if_true]
  rcases A.write zs y with e | A' <;> rfl

theorem eval_subs1 {s : Str} {z : ℤ} (h : env s = some (.int z)) : eval mlContext env (L [.name s]) = .ok (.tup ([z].map .int)) := by
  rw [L, L, eval, eval_name h]; rfl

theorem eval_subs2 {s t : Str} {z w : ℤ} (h : env s = some (.int z)) (h' : env t = some (.int w)) :
    eval mlContext env (L [.name s, .name t]) = .ok (.tup ([z, w].map .int)) := by
  rw [L, L, L, eval, eval_name h, ok_bind, eval, eval_name h']; rfl

/-- The two lines inside a loop. -/
theorem body_sim {G : List (GridDim K)} {C : NdArray K} (h : Ready G C env) (hn : G ≠ []) (hC : C.shape.length = G.length) {e es : PExpr}
    {X : Py (List (Val K))} (he : eval mlContext env e = X >>= fun ws => .ok (.tup ws)) {A : NdArray K} (hr : env resN = some (.arr A))
    {zs : List ℤ} (hz : ∀ w, eval mlContext (env.set ppointN w) es = .ok (.tup (zs.map .int))) (hl : zs.length = A.shape.length)
    {I : NdArray K → Env K → Prop} (hI : ∀ A' w, A'.shape = A.shape → I A' ((env.set ppointN w).set resN (.arr A'))) :
    Follows (X >>= fun ws => ws.mapM toFloat >>= fun x => projected G C x >>= fun y => A.write zs y) I
      (exec mlContext (lines [[.assign (.name ppointN) (projectE e)], [.assign (.index (.name resN) es) mlinterpE]]) none env) := by
  rw [exec_assign]
  have hx : ∀ w, (exec mlContext (lines [[.assign (.index (.name resN) es) mlinterpE]]) none (env.set ppointN w))
      = eval mlContext (env.set ppointN w) mlinterpE >>= fun y =>
        exec mlContext (lines [[.assign (.index (.name resN) es) mlinterpE]]) none (env.set ppointN w) := by
    intro w
    rcases hm : eval mlContext (env.set ppointN w) mlinterpE with e | y
    · simp only [exec, lines, execSimples, execSimple, hm]; rfl
    · rfl
  rw [eval_project h he]
  rcases X with e | ws
  · rfl
  simp only [ok_bind]
  rcases ws.mapM toFloat with e | x
  · rfl
  simp only [ok_bind, projected, bind_assoc]
  rcases hp : project G x with e | p
  · rfl
  simp only [ok_bind]
  have hm := eval_mlinterp (p := p) (h.set (.tup (p.map .flt)) (s := ppointN) (by simp)) hn hC (by simp [Env.set]) (project_len G x p hp)
  rw [hx, hm]
  rcases hy : mlPoint G C p with e | y
  · rfl
  rw [hy, ok_bind] at hm
  simp only [ok_bind]
  rw [exec_setitem hm (A := A) (zs := zs) (by simp [Env.set, hr]) (hz _) hl]
  rcases hw : A.write zs y with e | A'
  · rfl
  · exact ⟨_, rfl, hI A' _ (write_shape hw)⟩

/-- `callStar` when the statements before the loop are done. -/
theorem star_of_follows {e1 : Env K} {M : Py (NdArray K)} {I : NdArray K → Env K → Prop} {b : Block} {vs : List (Val K)} {bl : Block}
    (h0 : exec mlContext bl none (Env.set (fun _ => none) argsN (.tup vs)) = exec mlContext b none e1 >>= fun r => exec mlContext (lines [[.ret (.name resN)]]) none r.1)
    (hf : Follows M I (exec mlContext b none e1)) (hI : ∀ A env, I A env → env resN = some (.arr A)) :
    callStar mlContext ⟨argsN, bl⟩ vs = M >>= fun A => .ok (.arr A) := by
  simp only [callStar]
  rw [h0]
  rcases M with e | A
  · have : exec mlContext b none e1 = .error e := hf
    rw [this]; rfl
  · obtain ⟨env', h2, h3⟩ : ∃ env', exec mlContext b none e1 = .ok (env', .next) ∧ I A env' := hf
    rw [h2]
    simp only [ok_bind]
    rw [exec_lastRet, eval_name (hI A env' h3)]
    rfl

/-- What holds before each iteration. -/
structure Looping (G : List (GridDim K)) (C : NdArray K) (n : ℕ) (vars : List (Str × Val K)) (A : NdArray K) (env : Env K) : Prop where
  ready : Ready G C env
  res : env resN = some (.arr A)
  dim : A.shape.length = n
  vars : ∀ p ∈ vars, env p.1 = some p.2

theorem Looping.set {G : List (GridDim K)} {C : NdArray K} {n : ℕ} {vars : List (Str × Val K)} {A : NdArray K} (h : Looping G C n vars A env)
    {s : Str} (w : Val K) (hs : s ≠ gridN ∧ s ≠ CN ∧ s ≠ projectN ∧ s ≠ mlinterpN ∧ s ≠ rangeN) (hr : s ≠ resN) (hv : ∀ p ∈ vars, p.1 ≠ s) :
    Looping G C n vars A (env.set s w) := by
  refine ⟨h.ready.set w hs, ?_, h.dim, ?_⟩
  · simpa [Env.set, hr.symm] using h.res
  · intro p hp
    simpa [Env.set, hv p hp] using h.vars p hp

theorem Looping.write {G : List (GridDim K)} {C : NdArray K} {n : ℕ} {vars : List (Str × Val K)} {A A' : NdArray K} (h : Looping G C n vars A env)
    (hs : A'.shape = A.shape) (hv : ∀ p ∈ vars, p.1 ≠ resN) : Looping G C n vars A' (env.set resN (.arr A')) := by
  refine ⟨h.ready.set _ (by simp), by simp [Env.set], by rw [hs, h.dim], ?_⟩
  intro p hp
  simpa [Env.set, hv p hp] using h.vars p hp

/-- A loop over the rows of an array. -/
theorem loop_eval {args : List (Arg K)} {d : ℕ} {G : List (GridDim K)} {C P : NdArray K} (hd : 1 ≤ d) (hG : (args.take d).mapM axisOf = .ok G)
    (hC : args[d]? = some (.arr C)) (hs : C.shape.length = d) {s : Str} {i : ℕ} (hi : args[i]? = some (.arr P)) {N : ℕ} {r : List ℕ}
    (hP : P.shape = N :: r)
    (hsn : s = pointsN ∨ s = pxN)
    {e : PExpr} {X : ℕ → Py (List K)}
    (he : ∀ (env : Env K) (n : ℕ), env s = some (.arr P) → env nN = some (.int n) →
      eval mlContext env e = X n >>= fun ws => .ok (.tup (ws.map .flt))) :
    callStar mlContext ⟨argsN, loopBlock d s i e⟩ (args.map argVal)
      = tabulate N (fun n => X n >>= fun x => projected G C x) >>= fun A => .ok (.arr A) := by
  have hl : d ≤ args.length := by
    have := (List.getElem?_eq_some_iff.mp hC).1
    omega
  have hGl : G.length = d := by
    have := mapM_length hG
    simpa [hl] using this
  have hne : G ≠ [] := by intro h; rw [h] at hGl; simp at hGl; omega
  set e0 : Env K := Env.set (fun _ => none) argsN (.tup (args.map argVal)) with he0
  have ha : e0 argsN = some (.tup (args.map argVal)) := by simp [he0, Env.set]
  obtain ⟨gs, h1, h2⟩ := grid_sim (env := e0) hl hG ha
  have hs1 : s ≠ argsN ∧ s ≠ gridN ∧ s ≠ CN ∧ s ≠ projectN ∧ s ≠ mlinterpN ∧ s ≠ NN ∧ s ≠ resN ∧ s ≠ nN ∧ s ≠ ppointN ∧ s ≠ rangeN ∧ s ≠ zerosN := by
    rcases hsn with rfl | rfl <;> decide
  obtain ⟨n1, n2, n3, n4, n5, n6, n7, n8, n9, n10, n11⟩ := hs1
  set e1 : Env K := (((e0.set gridN (.tup gs)).set CN (.arr C)).set s (.arr P)).set NN (.int N) with he1
  set e2 : Env K := e1.set resN (.arr (.zeros [N])) with he2
  have hpre : exec mlContext (lines (preLines d s i)) none e0 = .ok (e2, .next) := by
    rw [preLines, exec_assign, h1, ok_bind, exec_assign, eval_arg (by simp [Env.set, ha]) hC, ok_bind, exec_assign,
      eval_arg (by simp [Env.set, ha]) hi, ok_bind, exec_assign]
    have hN : ∀ env : Env K, env s = some (.arr P) → eval mlContext env (sizeE s) = .ok (.int N) := by
      intro env hp
      refine eval_at_tup (vs := (P.shape.map fun n : ℕ => Val.int (n : ℤ))) (n := 0) ?_ (eval_int 0) (by rw [hP]; rfl)
      rw [eval, eval_name hp]; rfl
    rw [hN _ (by simp [Env.set, argVal]), ok_bind, exec_assign]
    have hz : eval mlContext e1 (call1 zerosN NN) = .ok (.arr (.zeros [N])) := by
      rw [eval_call1 (g := .zeros) (x := .int N) (by
        have : e1 zerosN = none := by simp [he1, he0, Env.set, n11.symm]
        simp only [eval, lookup, this]; rfl) (eval_name (by simp [he1, Env.set]))]
      rfl
    have : ((((e0.set gridN (.tup gs)).set CN (argVal (.arr C))).set s (argVal (.arr P))).set NN (.int N)) = e1 := rfl
    rw [this, hz]
    rfl
  have hr : Ready G C e2 := ⟨⟨gs, by simp [he2, he1, Env.set, n2.symm], h2⟩, by simp [he2, he1, Env.set, n3.symm],
    by simp [he2, he1, he0, Env.set, n4.symm], by simp [he2, he1, he0, Env.set, n5.symm],
    by simp [he2, he1, he0, Env.set, n10.symm]⟩
  have hI : Looping G C 1 [(s, .arr P)] (.zeros [N]) e2 := ⟨hr, by simp [he2, Env.set], rfl, by simp [he2, he1, Env.set, n6, n7]⟩
  have hrange : eval mlContext e2 (call1 rangeN NN) = .ok (.range N) := by
    rw [eval_call1 (g := .range) (x := .int N) (by
      have : e2 rangeN = none := by simp [he2, he1, he0, Env.set, n10.symm]
      simp only [eval, lookup, this]; rfl) (eval_name (by simp [he2, he1, Env.set]))]
    rfl
  have hloop := follows_loop (I := Looping G C 1 [(s, .arr P)]) (body := exec mlContext (bodyBlock e) none) (x := nN)
    (step := fun n A => (X n >>= fun x => projected G C x) >>= fun v => A.write [(n : ℤ)] v) (by
      intro n A env hI
      have hI1 := hI.set (s := nN) (.int n) (by simp) (by simp) (by simpa using n8)
      have hb := body_sim (env := env.set nN (.int n)) (X := X n >>= fun ws => .ok (ws.map .flt)) hI1.ready hne (by omega) (e := e)
        (by
          rw [he (env.set nN (.int n)) n (hI1.vars (s, .arr P) (by simp)) (by simp [Env.set])]; simp only [bind_assoc]; rfl)
        hI1.res (es := L [.name nN]) (zs := [(n : ℤ)]) (fun w => eval_subs1 (by simp [Env.set])) (by rw [hI1.dim]; rfl)
        (I := Looping G C 1 [(s, .arr P)])
        (fun A' w hA => (hI1.set (s := ppointN) w (by simp) (by simp) (by simpa using n9)).write hA (by simpa using n7))
      have hm : (X n >>= fun ws => (.ok (ws.map Val.flt) : Py (List (Val K)))) >>= (fun ws => ws.mapM toFloat >>= fun x => projected G C x >>= fun y => A.write [(n : ℤ)] y)
          = (X n >>= fun x => projected G C x) >>= fun v => A.write [(n : ℤ)] v := by
        simp only [bind_assoc]
        congr 1; funext x
        rw [ok_bind, mapM_flt]; rfl
      rw [hm] at hb
      exact hb) (List.range N) (.zeros [N]) e2 hI
  obtain ⟨hf, hx⟩ := exec_forLoop (rest := lines [[.ret (.name resN)]]) (b := bodyBlock e) (x := nN) hrange hloop
  refine star_of_follows (e1 := e2) ?_ hf fun A env h => h.res
  rw [loopBlock, exec_append (by trivial), hpre, ← hx]
  rfl

theorem eval_size {s : Str} {P : NdArray K} {N : ℕ} {r : List ℕ} (hP : P.shape = N :: r) (hp : env s = some (.arr P)) :
    eval mlContext env (sizeE s) = .ok (.int N) := by
  refine eval_at_tup (vs := (P.shape.map fun n : ℕ => Val.int (n : ℤ))) (n := 0) ?_ (eval_int 0) (by rw [hP]; rfl)
  rw [eval, eval_name hp]; rfl

theorem eval_rangeCall {s : Str} {N : ℕ} (hr : env rangeN = none) (hs : env s = some (.int N)) : eval mlContext env (call1 rangeN s) = .ok (.range N) := by
  rw [eval_call1 (g := .range) (x := .int N) (by simp only [eval, lookup, hr]; rfl) (eval_name hs)]
  rfl

/-- Two nested loops. -/
theorem grid_eval {args : List (Arg K)} {G : List (GridDim K)} {C P Q : NdArray K} (hG : (args.take 2).mapM axisOf = .ok G)
    (hC : args[2]? = some (.arr C)) (hs : C.shape.length = 2) (h3 : args[3]? = some (.arr P)) (h4 : args[4]? = some (.arr Q)) {N M : ℕ} {r r' : List ℕ}
    (hP : P.shape = N :: r) (hQ : Q.shape = M :: r') :
    callStar mlContext ⟨argsN, gridBlock⟩ (args.map argVal)
      = pyFor (List.range N) (fun n => pyFor (List.range M) fun m res => do
        let x ← P.read [(n : ℤ)]
        let y ← Q.read [(m : ℤ)]
        let v ← projected G C [x, y]
        res.write [(n : ℤ), (m : ℤ)] v) (NdArray.zeros [N, M]) >>= fun A => .ok (.arr A) := by
  have hl : 2 ≤ args.length := by
    have := (List.getElem?_eq_some_iff.mp hC).1
    omega
  have hGl : G.length = 2 := by
    have := mapM_length hG
    simpa [hl] using this
  have hne : G ≠ [] := by intro h; rw [h] at hGl; simp at hGl
  set e0 : Env K := Env.set (fun _ => none) argsN (.tup (args.map argVal)) with he0
  have ha : e0 argsN = some (.tup (args.map argVal)) := by simp [he0, Env.set]
  obtain ⟨gs, h1, h2⟩ := grid_sim (env := e0) hl hG ha
  set e1 : Env K := (((((e0.set gridN (.tup gs)).set CN (.arr C)).set pxN (.arr P)).set pyN (.arr Q)).set NN (.int N)).set MN (.int M) with he1
  set e2 : Env K := e1.set resN (.arr (.zeros [N, M])) with he2
  have hpre : exec mlContext (lines [[.assign (.name gridN) (tupE 2 aE)], [.assign (.name CN) (aE 2)], [.assign (.name pxN) (aE 3)],
      [.assign (.name pyN) (aE 4)], [.assign (.name NN) (sizeE pxN)], [.assign (.name MN) (sizeE pyN)],
      [.assign (.name resN) (.call (.name zerosN) (L [.tuple (L [.name NN, .name MN]) false]))]]) none e0 = .ok (e2, .next) := by
    rw [exec_assign, h1, ok_bind, exec_assign, eval_arg (by simp [Env.set, ha]) hC, ok_bind, exec_assign,
      eval_arg (by simp [Env.set, ha]) h3, ok_bind, exec_assign, eval_arg (by simp [Env.set, ha]) h4, ok_bind, exec_assign,
      eval_size hP (by simp [Env.set, argVal]), ok_bind, exec_assign, eval_size hQ (by simp [Env.set, argVal]), ok_bind, exec_assign]
    have hz : eval mlContext e1 (.call (.name zerosN) (L [.tuple (L [.name NN, .name MN]) false])) = .ok (.arr (.zeros [N, M])) := by
      rw [eval_call1 (g := .zeros) (x := .tup ([(N : ℤ), (M : ℤ)].map .int)) (by
        have : e1 zerosN = none := by simp [he1, he0, Env.set]
        simp only [eval, lookup, this]; rfl)
        (by rw [eval]; exact eval_subs2 (by simp [he1, Env.set]) (by simp [he1, Env.set]))]
      rfl
    have : ((((((e0.set gridN (.tup gs)).set CN (argVal (.arr C))).set pxN (argVal (.arr P))).set pyN (argVal (.arr Q))).set NN (.int N)).set MN (.int M)) = e1 := rfl
    rw [this, hz]
    rfl
  have hr : Ready G C e2 := ⟨⟨gs, by simp [he2, he1, Env.set], h2⟩, by simp [he2, he1, Env.set],
    by simp [he2, he1, he0, Env.set], by simp [he2, he1, he0, Env.set], by simp [he2, he1, he0, Env.set]⟩
  have hI : Looping G C 2 [(pxN, .arr P), (pyN, .arr Q), (MN, .int M)] (.zeros [N, M]) e2 :=
    ⟨hr, by simp [he2, Env.set], rfl, by simp [he2, he1, Env.set]⟩
  have hrange : eval mlContext e2 (call1 rangeN NN) = .ok (.range N) := eval_rangeCall hr.range (by simp [he2, he1, Env.set])
  set e : PExpr := .tuple (L [at1 (.name pxN) (.name nN), at1 (.name pyN) (.name mN)]) false with hE
  set inner := lines [[.assign (.name ppointN) (projectE e)], [.assign (.index (.name resN) (L [.name nN, .name mN])) mlinterpE]] with hinner
  have hin : ∀ (n : ℕ) A env, Looping G C 2 [(pxN, .arr P), (pyN, .arr Q), (MN, .int M), (nN, .int n)] A env →
      Follows (pyFor (List.range M) (fun m res => do
        let x ← P.read [(n : ℤ)]
        let y ← Q.read [(m : ℤ)]
        let v ← projected G C [x, y]
        res.write [(n : ℤ), (m : ℤ)] v) A) (Looping G C 2 [(pxN, .arr P), (pyN, .arr Q), (MN, .int M), (nN, .int n)])
        (forLoop (exec mlContext inner none) mN ((List.range M).map Int.ofNat) env) := by
    intro n A env hI
    refine follows_loop ?_ _ A env hI
    intro m A env hI
    have hI1 := hI.set (s := mN) (.int m) (by simp) (by simp) (by simp)
    have hx : eval mlContext (env.set mN (.int m)) e
        = (P.read [(n : ℤ)] >>= fun x => Q.read [(m : ℤ)] >>= fun y => .ok [.flt x, .flt y]) >>= fun ws => .ok (.tup ws) := by
      have e1 := eval_at_arr (ctx := mlContext) (i := .name nN) (z := n) (eval_name (hI1.vars (pxN, .arr P) (by simp))) (eval_name (hI1.vars (nN, .int n) (by simp)))
      have e2 := eval_at_arr (ctx := mlContext) (i := .name mN) (z := m) (eval_name (hI1.vars (pyN, .arr Q) (by simp))) (eval_name (w := .int m) (by simp [Env.set]))
      simp only [hE, L]
      rw [eval, eval, e1]
      rcases P.read [(n : ℤ)] with e | x
      · rfl
      simp only [ok_bind]
      rw [eval, e2]
      rcases Q.read [(m : ℤ)] with e | x <;> rfl
    have hb := body_sim (env := env.set mN (.int m)) hI1.ready hne (by omega) hx
      hI1.res (es := L [.name nN, .name mN]) (zs := [(n : ℤ), (m : ℤ)]) (fun w => eval_subs2
        ((hI1.set (s := ppointN) w (by simp) (by simp) (by simp)).vars (nN, .int n) (by simp)) (by simp [Env.set])) (by rw [hI1.dim]; rfl)
      (I := Looping G C 2 [(pxN, .arr P), (pyN, .arr Q), (MN, .int M), (nN, .int n)])
      (fun A' w hA => (hI1.set (s := ppointN) w (by simp) (by simp) (by simp)).write hA (by simp))
    have hm : (P.read [(n : ℤ)] >>= fun x => Q.read [(m : ℤ)] >>= fun y => (.ok [.flt x, .flt y] : Py (List (Val K)))) >>=
          (fun ws => ws.mapM toFloat >>= fun x => projected G C x >>= fun y => A.write [(n : ℤ), (m : ℤ)] y)
        = (do
          let x ← P.read [(n : ℤ)]
          let y ← Q.read [(m : ℤ)]
          let v ← projected G C [x, y]
          A.write [(n : ℤ), (m : ℤ)] v) := by
      simp only [bind_assoc]
      congr 1
    rw [hm] at hb
    exact hb
  have hloop := follows_loop (I := Looping G C 2 [(pxN, .arr P), (pyN, .arr Q), (MN, .int M)])
    (body := exec mlContext (.block (.forH mN (call1 rangeN MN)) inner .nil) none) (x := nN)
    (step := fun n => pyFor (List.range M) fun m res => do
        let x ← P.read [(n : ℤ)]
        let y ← Q.read [(m : ℤ)]
        let v ← projected G C [x, y]
        res.write [(n : ℤ), (m : ℤ)] v) (by
      intro n A env hI
      have hI1 := hI.set (s := nN) (.int n) (by simp) (by simp) (by simp)
      have hI2 : Looping G C 2 [(pxN, .arr P), (pyN, .arr Q), (MN, .int M), (nN, .int n)] A (env.set nN (.int n)) :=
        ⟨hI1.ready, hI1.res, hI1.dim, by
          intro p hp
          by_cases hpn : p = (nN, .int n)
          · subst hpn; simp [Env.set]
          · exact hI1.vars p (by simpa [hpn] using hp)⟩
      have hf := (exec_forLoop (rest := .nil) (b := inner) (x := mN) (m := M)
        (eval_rangeCall hI1.ready.range (hI1.vars (MN, .int M) (by simp))) (hin n A _ hI2)).1
      exact hf.mono fun A env h => ⟨h.ready, h.res, h.dim, fun p hp => h.vars p (by simp at hp ⊢; tauto)⟩) (List.range N) (.zeros [N, M]) e2 hI
  obtain ⟨hf, hx⟩ := exec_forLoop (rest := lines [[.ret (.name resN)]]) (b := .block (.forH mN (call1 rangeN MN)) inner .nil) (x := nN) hrange hloop
  refine star_of_follows (e1 := e2) ?_ hf fun A env h => h.res
  rw [gridBlock, exec_append (by trivial), hpre, ← hx]
  rfl

/-! ### All kinds of calls -/

theorem axes_ok {as : List (Arg K)} (h : ∀ a ∈ as, IsAxis a) : ∃ G, as.mapM axisOf = .ok G := by
  induction as with
  | nil => exact ⟨[], rfl⟩
  | cons a as ih =>
    obtain ⟨G, hG⟩ := ih fun b hb => h b (by simp [hb])
    have ha := h a (by simp)
    have : ∃ g, axisOf a = .ok g := by
      cases a with
      | coord a b n => exact ⟨_, rfl⟩
      | arr A =>
        simp only [axisOf]
        have hA : A.shape.length = 1 := ha
        rcases hs : A.shape with _ | ⟨n, _ | ⟨m, s⟩⟩
        · rw [hs] at hA; simp at hA
        · exact ⟨_, rfl⟩
        · rw [hs] at hA; simp at hA
      | _ => exact ha.elim
    obtain ⟨g, hg⟩ := this
    exact ⟨g :: G, by rw [List.mapM_cons, hg, hG]; rfl⟩

theorem shape1 {P : NdArray K} (h : P.shape.length = 1) : ∃ N, P.shape = [N] := by
  rcases hs : P.shape with _ | ⟨n, _ | ⟨m, s⟩⟩
  · rw [hs] at h; simp at h
  · exact ⟨n, rfl⟩
  · rw [hs] at h; simp at h

theorem mlinterp_eval {it : InterpType} {args : List (Arg K)} (h : MlCall it args) :
    callStar mlContext ⟨argsN, mlTree it⟩ (args.map argVal) = runMlinterp it args >>= fun r => .ok (ofRes r) := by
  obtain ⟨d, v, ev⟩ := it
  obtain ⟨hv, hd, hax, ⟨C, hC, hs⟩, hp⟩ := h
  obtain ⟨G, hG⟩ := axes_ok hax
  simp only at hv hd hC hs hG
  subst hv
  have hd0 : d ≠ 0 := by omega
  have hrun : ∀ ev, runMlinterp ⟨d, .scalar, ev⟩ args = (match ev with
      | .scalar => do
        if args.length < 2 * d + 1 then throw .typing
        let x ← ((args.drop (d + 1)).take d).mapM scalarOf
        let v ← projected G C x
        pure (.num v)
      | .tuple =>
        match args[d + 1]? with
        | some (.tup xs) => do
          if xs.length < d then throw .typing
          let v ← projected G C xs
          pure (.num v)
        | _ => throw .typing
      | .point => do
        let A ← vec1 args[d + 1]?
        let x ← (List.range d).mapM fun i => A.read [Int.ofNat i]
        let v ← projected G C x
        pure (.num v)
      | .vectorized =>
        match args[d + 1]? with
        | some (.arr A) => do
          let res ← tabulate (A.shape.getD 0 0) (fun n => do
            let x ← extractRow A n d
            projected G C x)
          pure (.arr res)
        | _ => throw .typing
      | .cartesian =>
        if d = 1 then do
          let A ← vec1 args[2]?
          let res ← tabulate (A.shape.getD 0 0) (fun n => do
            let x ← A.read [(n : ℤ)]
            projected G C [x])
          pure (.arr res)
        else if d = 2 then do
          let A ← vec1 args[3]?
          let B ← vec1 args[4]?
          let N := A.shape.getD 0 0
          let M := B.shape.getD 0 0
          let res ← pyFor (List.range N) (fun n => pyFor (List.range M) fun m res => do
            let x ← A.read [(n : ℤ)]
            let y ← B.read [(m : ℤ)]
            let v ← projected G C [x, y]
            res.write [(n : ℤ), (m : ℤ)] v) (NdArray.zeros [N, M])
          pure (.arr res)
        else throw .typeErr) := by
    intro ev
    simp only [runMlinterp, reduceCtorEq, if_false, hd0, pure_bind, hG, ok_bind, hC]
    cases ev <;> rfl
  rw [hrun]
  cases ev with
  | scalar =>
    have hp : 2 * d + 1 ≤ args.length := hp
    have hl : ((args.drop (d + 1)).take d).length = d := by simp; omega
    rw [mlTree, single_eval hd hG hC hs (X := .ok (((args.drop (d + 1)).take d).map argVal))]
    · simp only [ok_bind, List.mapM_map]
      rw [show (toFloat ∘ argVal : Arg K → Py K) = scalarOf from funext toFloat_arg, if_neg (by omega)]
      simp only [pure_bind, bind_assoc]
      rfl
    · intro env ha
      rw [ok_bind, eval_range (W := fun i => eval mlContext env (aE (d + i + 1))) _ fun _ _ => rfl]
      have hm := mapM_range (f := fun i => eval mlContext env (aE (d + i + 1))) (g := fun a => (.ok (argVal a) : Py (Val K)))
        ((args.drop (d + 1)).take d) (by
          intro i a hi
          have hi' : i < d := by
            have := (List.getElem?_eq_some_iff.mp hi).1
            omega
          refine eval_arg ha ?_
          rw [List.getElem?_take, if_pos hi', List.getElem?_drop] at hi
          rw [← hi]; congr 1; omega)
      rw [hl] at hm
      rw [hm, mapM_ok _ _ _ (fun _ _ => rfl)]
      rfl
  | tuple =>
    obtain ⟨xs, h1, h2⟩ := hp
    rw [mlTree, single_eval hd hG hC hs (X := .ok (xs.map .flt)) (fun env ha => eval_arg ha h1)]
    simp only at h1 h2
    simp only [ok_bind, mapM_flt, h1]
    rw [if_neg (by omega)]
    simp only [pure_bind, bind_assoc]
    rfl
  | point =>
    obtain ⟨P, h1⟩ := hp
    simp only at h1
    rw [mlTree, single_eval hd hG hC hs (X := (List.range d).mapM (fun i => P.read [Int.ofNat i]) >>= fun xs => .ok (xs.map .flt))]
    · simp only [vec1, h1, pure_bind, bind_assoc, ok_bind, mapM_flt]
      rfl
    · intro env ha
      rw [eval_range (W := fun i => P.read [Int.ofNat i] >>= fun x => .ok (.flt x)) _ fun i _ =>
        eval_at_arr (eval_arg ha h1) (eval_int i), mapM_post]
  | vectorized =>
    obtain ⟨P, h1, h2⟩ := hp
    simp only at h1
    rcases hs2 : P.shape with _ | ⟨N, r⟩
    · rw [hs2] at h2; simp at h2
    rw [mlTree, loop_eval hd hG hC hs h1 hs2 (.inl rfl) (X := fun n => extractRow P n d)]
    · simp only [h1, hs2, List.getD_cons_zero, bind_assoc, pure_bind]
      rfl
    · intro env n hp hn
      rw [eval_range (W := fun i => P.read [Int.ofNat n, Int.ofNat i] >>= fun x => .ok (.flt x)) _ ?_, mapM_post, bind_assoc]
      · rfl
      intro i _
      rw [eval, eval_name hp, ok_bind, L, L, eval, eval_name hn, ok_bind, eval]
      rfl
  | cartesian =>
    rcases hp with ⟨h0, P, h1, h2⟩ | ⟨h0, P, Q, h1, h2, h3, h4⟩
    · simp only at h0
      subst h0
      obtain ⟨N, hN⟩ := shape1 h2
      simp only [mlTree, if_true]
      rw [loop_eval hd hG hC hs h1 hN (.inr rfl) (X := fun n => P.read [(n : ℤ)] >>= fun x => .ok [x])]
      · simp only [vec1, h1, hN, List.getD_cons_zero, bind_assoc, pure_bind, ok_bind]
        rfl
      · intro env n hp hn
        rw [eval, L, L, eval, eval_at_arr (eval_name hp) (eval_name hn)]
        rcases P.read [(n : ℤ)] with e | x <;> rfl
    · simp only at h0
      subst h0
      obtain ⟨N, hN⟩ := shape1 h2
      obtain ⟨M, hM⟩ := shape1 h4
      simp only [mlTree, OfNat.ofNat_ne_one, if_false]
      rw [grid_eval hG hC hs h1 h3 hN hM]
      simp only [vec1, h1, h3, hN, hM, List.getD_cons_zero, bind_assoc, pure_bind, ok_bind, if_true]
      rfl

end Interp.PyParse
