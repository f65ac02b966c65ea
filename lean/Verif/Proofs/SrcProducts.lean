import Verif.Proofs.SrcSmolInds
import Verif.Proofs.SrcOldTop

/-!
# The text of `poly_inds`, and the loop that it shares with `build_grid`
-/

set_option linter.unusedSectionVars false

namespace Interp.Spec.PySrc
open Interp Interp.Smolyak

variable {K : Type} [Add K] [Sub K] [Mul K] [Div K] [Neg K] [Zero K] [One K] [NatCast K] [IntCast K]
  [LT K] [DecidableLT K] [LE K] [DecidableLE K] [BEq K] [IntFloor K] [Interp.Smolyak.Trig K]

/-- The loops of `poly_inds` and `build_grid`. -/
def prodLoop (A P : String) : Block :=
  .simple (.assign (.name "temp") (.comp (.index (.name A) (.cons (.name "i") .nil)) "i" (.name "el") .nil)) <|
  .simple (.mutate P "extend" (.cons (.call (.name "list") (.cons (.callX (.name "product") (.cons (.star (.name "temp")) .nil)) .nil)) .nil)) <|
  .nil

/-- The dictionary `kvs` stands for `D`: the values can be iterated. -/
def DictLike {α : Type} (emb : α → Val K) (D : Dict α) (kvs : List (ℤ × Val K)) : Prop :=
  ∀ i, Sim (dictGet D i) (lookup kvs i) fun l u => iterate u = pure (l.map emb)

theorem dictLike_map {α : Type} {emb : α → Val K} (D : Dict α) (f : ℤ → List α → Val K)
    (hf : ∀ p ∈ D, iterate (f p.1 p.2) = pure (p.2.map emb)) : DictLike emb D (D.map fun p => (p.1, f p.1 p.2)) := by
  intro i
  induction D with
  | nil => rfl
  | cons p D ih =>
    obtain ⟨k, l⟩ := p
    by_cases hk : k = i
    · subst hk
      simp only [dictGet, List.lookup_cons, beq_self_eq_true, List.map_cons, lookup, if_true]
      exact hf (k, l) (by simp)
    · have h1 : dictGet ((k, l) :: D) i = dictGet D i := by
        simp only [dictGet, List.lookup_cons, beq_eq_false_iff_ne.mpr (Ne.symm hk)]
      have h2 : lookup (List.map (fun p => (p.1, f p.1 p.2)) ((k, l) :: D)) i = lookup (List.map (fun p => (p.1, f p.1 p.2)) D) i := by
        rw [List.map_cons, lookup, if_neg hk]
      rw [h1, h2]
      exact ih fun p hp => hf p (by simp [hp])

/-- `[A[i] for i in el]`. -/
theorem levels_sim {α : Type} {emb : α → Val K} {D : Dict α} {kvs : List (ℤ × Val K)} (hD : DictLike emb D kvs) {f : Val K → M K (Val K)}
    (hf : ∀ i : ℤ, f (.int i) = lift (lookup kvs i)) (h : Heap K) : ∀ el : List ℤ,
    Sim (el.mapM (dictGet D)) ((el.map .int).mapM f h) fun temp o => o.2 = h ∧ o.1.mapM iterate = (pure (temp.map (List.map emb)) : M K _)
  | [] => by
    simp only [List.map_nil, List.mapM_nil]
    exact Sim.pure ⟨rfl, by simp only [List.map_nil, List.mapM_nil]⟩
  | i :: el => by
    rw [List.mapM_cons, List.map_cons, List.mapM_cons, hf, bind_run, lift_run, bind_assoc]
    refine Sim.bind (hD i) fun l u hu => ?_
    simp only [pure_bind, bind_run]
    refine Sim.bind (levels_sim hD hf h el) ?_
    rintro temp ⟨us, h'⟩ ⟨rfl, hus⟩
    refine Sim.pure ⟨rfl, ?_⟩
    simp only [List.mapM_cons, hu, pure_bind_M, hus, List.map_cons]

theorem product_run {us : List (Val K)} {α : Type} {emb : α → Val K} {temp : List (List α)}
    (h : us.mapM iterate = (pure (temp.map (List.map emb)) : M K _)) :
    builtin .product us = pure (.list ((iterProduct temp).map fun l => .tup (l.map emb))) := by
  have : builtin .product us = builtin2 .product us := by
    simp [builtin]
  rw [this]
  simp only [builtin2, h, pure_bind_M]
  rw [tuples_eq, iterProduct_map, List.map_map]
  rfl

theorem arrange_pos (us : List (Val K)) : arrange [] (us.map .pos) = pure us := by
  have hp : positional (us.map .pos) = us := by
    induction us with
    | nil => rfl
    | cons u us ih => rw [List.map_cons, positional, ih]
  simp [arrange, hp]

theorem product_call {n : ℕ} {env : Env K} {us : List (Val K)} (ht : env "temp" = some (.list us)) (h1 : env "product" = none) :
    eval (world smolProg (n + 1)) env (.callX (.name "product") (.cons (.star (.name "temp")) .nil)) = builtin .product us := by
  have hA : evalArgs (world smolProg (n + 1)) env (.cons (.star (.name "temp")) .nil) = (pure (us.map .pos) : M K _) := by
    simp only [evalArgs, eval_name, look_of ht, pure_bind_M, iterate_list, List.append_nil]
  have hp : paramNames (.builtin .product : Val K) = pure [] := rfl
  have hg : look (world smolProg (n + 1)) env "product" = (pure (.builtin .product) : M K _) := by
    rw [look, h1]; exact sglob_product
  simp only [eval, hg, hA, hp, lift_pure, pure_bind_M, arrange_pos]
  rfl

variable {α : Type} {emb : α → Val K} {D : Dict α} {kvs : List (ℤ × Val K)} {A P : String}

/-- The points or polynomials of one index. -/
def levelProd (D : Dict α) (el : List ℤ) : Py (List (List α)) := do
  let temp ← el.mapM (dictGet D)
  pure (iterProduct temp)

/-- The tuples so far. -/
def tupsVal (emb : α → Val K) (ls : List (List α)) : Val K := .list (ls.map fun l => .tup (l.map emb))

theorem prod_pass (hD : DictLike emb D kvs) (hA : A ≠ "el" ∧ A ≠ "temp" ∧ A ≠ "i") (hP : P ≠ "el" ∧ P ≠ "temp" ∧ P ≠ "list" ∧ P ≠ "product")
    {n : ℕ} {env : Env K} {acc : List (List α)} (el : List ℤ) (h : Heap K) (h1 : env A = some (.dict kvs)) (h2 : env P = some (tupsVal emb acc))
    (h3 : env "list" = none) (h4 : env "product" = none) :
    Sim (levelProd D el) ((assign (world smolProg (n + 1)) env (.name "el") (rowVal el) >>= fun env => exec (world smolProg (n + 1)) (prodLoop A P) env) h)
      fun r o => ∃ env', o = (.next env', h) ∧ env' P = some (tupsVal emb (acc ++ r)) ∧ Agree ["el", "temp", P] env env' := by
  obtain ⟨a1, a2, a3⟩ := hA
  obtain ⟨p1, p2, p3, p4⟩ := hP
  rw [prodLoop, levelProd]
  pysimp [eval_comp, exec_change, look, rowVal, iterate_list]
  rw [bind_run]
  refine Sim.bind (levels_sim hD (fun i => ?_) h el) ?_
  · pysimp [look, h1, if_neg a1, if_neg a3]
    rfl
  rintro temp ⟨us, _⟩ ⟨rfl, hus⟩
  simp only []
  have e1 : ((env.set "el" (.list (el.map .int))).set "temp" (.list us)) P = some (tupsVal emb acc) := by
    rw [set_apply, if_neg p2, set_apply, if_neg p1, h2]
  rw [product_call (us := us) (by pysimp []) (by pysimp [h4]), product_run hus]
  pysimp [look, h3, sglob_list, list_list, e1, if_neg p1, if_neg p2, h2]
  have he : mutated "extend" (tupsVal emb acc) [.list ((iterProduct temp).map fun l => .tup (l.map emb))] =
      pure (tupsVal emb (acc ++ iterProduct temp)) := by
    simp [mutated, tupsVal]
  rw [he, lift_pure, pure_bind_M]
  refine Sim.pure ⟨_, rfl, by rw [set_apply, if_pos rfl], ?_⟩
  exact (((Agree.refl _ env).set (by simp) _).set (by simp) _).set (by simp) _

theorem prod_loop (hD : DictLike emb D kvs) (hA : A ≠ "el" ∧ A ≠ "temp" ∧ A ≠ "i" ∧ A ≠ P)
    (hP : P ≠ "el" ∧ P ≠ "temp" ∧ P ≠ "list" ∧ P ≠ "product") (n : ℕ) (h : Heap K) : ∀ (inds : List (List ℤ)) (acc : List (List α)) (env : Env K),
    env A = some (.dict kvs) → env P = some (tupsVal emb acc) → env "list" = none → env "product" = none →
    Sim (inds.mapM (levelProd D)) (forLoop (fun v env => assign (world smolProg (n + 1)) env (.name "el") v >>= fun env =>
        exec (world smolProg (n + 1)) (prodLoop A P) env) (inds.map rowVal) env h)
      fun rs o => ∃ env', o = (.next env', h) ∧ env' P = some (tupsVal emb (acc ++ rs.flatten)) ∧ Agree ["el", "temp", P] env env'
  | [], acc, env, _, h2, _, _ => by
    rw [List.mapM_nil, List.map_nil, forLoop]
    exact Sim.pure ⟨env, rfl, by simpa using h2, Agree.refl _ _⟩
  | el :: inds, acc, env, h1, h2, h3, h4 => by
    rw [List.mapM_cons, List.map_cons, forLoop, bind_run]
    refine Sim.bind (prod_pass hD ⟨hA.1, hA.2.1, hA.2.2.1⟩ hP el h h1 h2 h3 h4) ?_
    rintro r _ ⟨env1, rfl, hp1, ha1⟩
    have notin : ∀ s : String, s ≠ "el" → s ≠ "temp" → s ≠ P → env1 s = env s := fun s c1 c2 c3 => ha1 s (by simp [c1, c2, c3])
    have := prod_loop hD hA hP n h inds (acc ++ r) env1 (by rw [notin A hA.1 hA.2.1 hA.2.2.2, h1]) hp1
      (by rw [notin _ (by decide) (by decide) (Ne.symm hP.2.2.1), h3]) (by rw [notin _ (by decide) (by decide) (Ne.symm hP.2.2.2), h4])
    refine (Sim.bind_left (f := fun rs => pure (r :: rs)) this ?_)
    rintro rs _ ⟨env2, rfl, hp2, ha2⟩
    refine Sim.pure ⟨env2, rfl, by rw [hp2, List.flatten_cons, List.append_assoc], fun s hs => (ha2 s hs).trans (ha1 s hs)⟩

/-! ### `poly_inds` -/

/-- The argument `inds`. -/
def indsVal : Option (List (List ℤ)) → Val K
  | none => .none
  | some l => .list (l.map rowVal)

theorem is_none_none : compare .kIs (.none : Val K) .none = pure true := rfl
theorem is_none_list (vs : List (Val K)) : compare .kIs (.list vs : Val K) .none = pure false := rfl
theorem max_ints (zs : List ℤ) : builtin .max [(.ints zs : Val K)] = lift (greatestInt zs) >>= fun z => pure (.int z) := rfl

theorem chain_like (D : Dict ℤ) : DictLike (fun z : ℤ => (.int z : Val K)) D (chainVal D) :=
  dictLike_map D (fun i l => if i ≤ 2 then .list (l.map .int) else .range l) fun p _ => by split <;> rfl

theorem eq_of_sim {α β : Type} {x : Py α} {y : Py β} {f : α → β} (h : Sim x y fun a o => o = f a) : y = x >>= fun a => pure (f a) := by
  rcases x with e | a <;> rcases y with e' | b
  · rw [show e = e' from h]; rfl
  · exact h.elim
  · exact h.elim
  · rw [show b = f a from h]; rfl

/-- A loop that has been followed, and then what comes after it. -/
theorem after_loop {α : Type} {x : Py α} {y : Py (Out K × Heap K)} {h : Heap K} {R : α → Env K → Prop} {k : Env K → M K (Out K)}
    {g : α → Py (Out K × Heap K)} (hs : Sim x y fun rs o => ∃ env', o = (.next env', h) ∧ R rs env') (hk : ∀ rs env', R rs env' → k env' h = g rs) :
    (y >>= fun p => andThen p.1 k p.2) = x >>= g := by
  rcases x with e | a <;> rcases y with e' | b
  · rw [show e = e' from hs]; rfl
  · exact hs.elim
  · exact hs.elim
  · obtain ⟨env', rfl, hR⟩ := (show ∃ env', b = (.next env', h) ∧ R a env' from hs)
    exact hk a env' hR

/-- What comes after the choice of `inds`. -/
def polyTail : Block :=
  .ifte (.call (.name "isinstance") (.cons (.name "mu") (.cons (.name "int") .nil))) (
    .simple (.assign (.name "max_mu") (.name "mu")) <|
    .nil) (
    .simple (.assign (.name "max_mu") (.call (.name "max") (.cons (.name "mu") .nil))) <|
    .nil) <|
  .simple (.assign (.name "aphi") (.call (.name "phi_chain") (.cons (.bin .plus (.name "max_mu") (.int 1)) .nil))) <|
  .simple (.assign (.name "base_polys") (.list .nil)) <|
  .for (.name "el") (.name "inds") polyIndsLoop0 <|
  .simple (.ret (some (.name "base_polys"))) <|
  .nil

/-- The choice of `max_mu`. -/
theorem max_step {n : ℕ} {env : Env K} {mu : Mu} (h1 : env "mu" = some (muVal mu)) (h2 : env "isinstance" = none) (h3 : env "int" = none)
    (h4 : env "max" = none) (rest : Block) :
    exec (world smolProg (n + 1)) (.ifte (.call (.name "isinstance") (.cons (.name "mu") (.cons (.name "int") .nil))) (
      .simple (.assign (.name "max_mu") (.name "mu")) <|
      .nil) (
      .simple (.assign (.name "max_mu") (.call (.name "max") (.cons (.name "mu") .nil))) <|
      .nil) rest) env = lift (muMax mu) >>= fun m => exec (world smolProg (n + 1)) rest (env.set "max_mu" (.int m)) := by
  rcases mu with m | ms
  · simp only [muVal] at h1
    pysimp [look, h1, h2, h3, sglob_isinstance, sglob_int, isinstance_int, muMax]
  · simp only [muVal] at h1
    pysimp [look, h1, h2, h3, h4, sglob_isinstance, sglob_int, isinstance_ints, muMax, Bool.false_eq_true, sglob_max, max_ints, greatestInt_eq]

theorem polyTail_run {n : ℕ} {env : Env K} {mu : Mu} {l : List (List ℤ)} (h1 : env "mu" = some (muVal mu)) (h2 : env "isinstance" = none)
    (h3 : env "int" = none) (h4 : env "max" = none) (h5 : env "inds" = some (.list (l.map rowVal))) (h6 : env "phi_chain" = none)
    (h7 : env "list" = none) (h8 : env "product" = none) :
    exec (world smolProg (n + 2)) polyTail env =
      lift (muMax mu >>= fun m => l.mapM (levelProd (phiChain (m + 1)))) >>= fun r => pure (.ret (tupsVal .int r.flatten)) := by
  rw [polyTail, max_step h1 h2 h3 h4, lift_bind, bind_assoc_M]
  congr 1
  funext m
  have hc : callN smolProg (n + 2) (.fn phiChainFun) [(.int (m + ((1 : ℕ) : ℤ)) : Val K)] = pure (.dict (chainVal (phiChain (m + 1)))) := by
    funext h
    rw [callN_fn]
    exact phi_run n (m + 1) h
  pysimp [look, h6, sglob_phi, hc, exec_for, h5, iterate_list]
  funext h
  simp only [bind_run, lift_run]
  rw [show polyIndsLoop0 = prodLoop "aphi" "base_polys" from rfl]
  have := prod_loop (K := K) (chain_like (phiChain (m + 1))) (A := "aphi") (P := "base_polys") (by decide) (by decide) (n + 1) h l []
    (((env.set "max_mu" (.int m)).set "aphi" (.dict (chainVal (phiChain (m + 1))))).set "base_polys" (.list [])) (by pysimp []) (by pysimp []; rfl)
    (by pysimp [h7]) (by pysimp [h8])
  simp only [assign_name, pure_bind_M] at this
  rw [after_loop (g := fun r => pure (.ret (tupsVal .int r.flatten), h)) this]
  · simp only [bind_assoc, pure_bind, pure_run]
  · rintro rs env' ⟨hp, ha⟩
    pysimp [look, hp, List.nil_append]
    rfl

/-- The choice of `inds`: the rest runs with `inds` the given rows, or the rows of `smol_inds`. -/
theorem inds_step {n d : ℕ} (hn : d.factorial + d + 3 ≤ n) {env : Env K} {mu : Mu} {inds : Option (List (List ℤ))} (h1 : env "d" = some (.int d))
    (h2 : env "mu" = some (muVal mu)) (h3 : env "inds" = some (indsVal inds)) (h4 : env "None" = none) (h5 : env "smol_inds" = none) (rest : Block)
    {β : Type} {f : List (List ℤ) → M K β} {g : Out K → M K β}
    (hr : ∀ l env', env' "inds" = some (.list (l.map rowVal)) → Agree ["inds"] env env' → exec (world smolProg (n + 1)) rest env' >>= g = f l) :
    exec (world smolProg (n + 1)) (.ifte (.chain (.name "inds") (.link .kIs (.name "None") .nil)) (
      .simple (.assign (.name "inds") (.call (.name "smol_inds") (.cons (.name "d") (.cons (.name "mu") .nil)))) <|
      .nil) .nil rest) env >>= g = lift (indsOr d mu inds) >>= f := by
  have hs : callN smolProg (n + 1) (.fn smolIndsFun) [.int (d : ℤ), muVal mu] = (lift (smolInds d mu) >>= fun r => pure (.list (r.map rowVal)) : M K _) := by
    rw [callN_fn]
    exact smolInds_run n d (by omega) mu
  rcases inds with _ | l
  · pysimp [look, h1, h2, h3, h4, h5, sglob_none, indsVal, is_none_none, sglob_smolInds, hs, indsOr]
    congr 1
    funext l
    exact hr l _ (by pysimp []) (fun s hs => by rw [Env.set]; exact if_neg (by simpa using hs))
  · pysimp [look, h3, h4, sglob_none, indsVal, is_none_list, Bool.false_eq_true, indsOr]
    exact hr l env h3 (Agree.refl _ _)

theorem polyInds_run (n d : ℕ) (hn : d.factorial + d + 4 ≤ n) (mu : Mu) (inds : Option (List (List ℤ))) :
    (runFun (world smolProg n) polyIndsFun [.int d, muVal mu, indsVal inds] : M K _) = lift (polyInds d mu inds) >>= fun r => pure (tupsVal .int r) := by
  obtain ⟨n, rfl⟩ : ∃ m, n = m + 2 := ⟨n - 2, by omega⟩
  rw [runFun, polyInds, show polyIndsFun = ⟨"poly_inds", [("d", none), ("mu", none), ("inds", some (.name "None"))],
    .ifte (.chain (.name "inds") (.link .kIs (.name "None") .nil)) (
      .simple (.assign (.name "inds") (.call (.name "smol_inds") (.cons (.name "d") (.cons (.name "mu") .nil)))) <|
      .nil) .nil polyTail⟩ from rfl]
  have hb : params (world smolProg (n + 2)) [("d", none), ("mu", none), ("inds", some (.name "None"))] [.int (d : ℤ), muVal mu, indsVal inds] = (pure
      ((((Env.set (fun _ => none) "inds" (indsVal inds)).set "mu" (muVal mu)).set "d" (.int d)) : Env K) : M K _) := by pysimp []
  simp only [hb, pure_bind_M, lift_bind, bind_assoc_M]
  refine inds_step (K := K) (n := n + 1) (by omega) rfl rfl rfl rfl rfl polyTail fun l env' hl ha => ?_
  rw [polyTail_run (mu := mu) (l := l) (by rw [ha "mu" (by decide)]; rfl) (by rw [ha "isinstance" (by decide)]; rfl) (by rw [ha "int" (by decide)]; rfl)
    (by rw [ha "max" (by decide)]; rfl) hl (by rw [ha "phi_chain" (by decide)]; rfl) (by rw [ha "list" (by decide)]; rfl)
    (by rw [ha "product" (by decide)]; rfl)]
  simp only [lift_bind, bind_assoc_M, pure_bind_M, lift_pure]
  rfl

end Interp.Spec.PySrc
