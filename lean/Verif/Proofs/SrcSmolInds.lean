import Verif.Proofs.SrcSmolyak
import Verif.Props.SmolyakGrid

/-!
# The texts of `smol_inds` and `poly_inds`
-/

set_option linter.unusedSectionVars false

namespace Interp.Spec.PySrc
open Interp Interp.Smolyak

variable {K : Type} [Add K] [Sub K] [Mul K] [Div K] [Neg K] [Zero K] [One K] [NatCast K] [IntCast K]
  [LT K] [DecidableLT K] [LE K] [DecidableLE K] [BEq K] [IntFloor K] [Interp.Smolyak.Trig K]

/-- The value of `mu`. -/
def muVal : Mu → Val K
  | .iso m => .int m
  | .aniso ms => .ints ms

/-- A list of integers as a list. -/
def rowVal (l : List ℤ) : Val K := .list (l.map .int)
/-- A list of integers as a tuple. -/
def tupVal (l : List ℤ) : Val K := .tup (l.map .int)
/-- A list of lists of lists of integers. -/
def permsVal (rs : List (List (List ℤ))) : Val K := .list (rs.map fun r => .list (r.map rowVal))

/-! ### Lists -/

theorem multisets_eq {α : Type} : ∀ (l : List α) (k : ℕ), multisets l k = combsRep l k
  | _, 0 => by rw [multisets, combsRep]
  | [], _ + 1 => by rw [multisets, combsRep]
  | x :: l, k + 1 => by rw [multisets, combsRep, multisets_eq (x :: l) k, multisets_eq l (k + 1)]
termination_by l k => (k, l.length)

theorem combsRep_map {α β : Type} (f : α → β) : ∀ (l : List α) (k : ℕ), combsRep (l.map f) k = (combsRep l k).map (List.map f)
  | _, 0 => by simp [combsRep]
  | [], _ + 1 => by simp [combsRep]
  | x :: l, k + 1 => by
    rw [List.map_cons, combsRep, combsRep, List.map_append, ← combsRep_map f l (k + 1), ← List.map_cons, combsRep_map f (x :: l) k]
    simp [Function.comp_def]
termination_by l k => (k, l.length)

theorem tuples_eq {α : Type} : ∀ ls : List (List α), tuples ls = iterProduct ls
  | [] => rfl
  | l :: ls => by rw [tuples, iterProduct, tuples_eq ls]

theorem iterProduct_map {α β : Type} (f : α → β) : ∀ ls : List (List α), iterProduct (ls.map (List.map f)) = (iterProduct ls).map (List.map f)
  | [] => rfl
  | l :: ls => by
    rw [List.map_cons, iterProduct, iterProduct, iterProduct_map f ls]
    simp [List.flatMap_map, List.map_flatMap, Function.comp_def]

theorem mem_combsRep_length {α : Type} : ∀ (l : List α) (k : ℕ), ∀ c ∈ combsRep l k, c.length = k
  | _, 0, c, hc => by simp [combsRep] at hc; simp [hc]
  | [], _ + 1, c, hc => by simp [combsRep] at hc
  | x :: l, k + 1, c, hc => by
    rw [combsRep, List.mem_append] at hc
    rcases hc with hc | hc
    · obtain ⟨c', hc', rfl⟩ := List.mem_map.mp hc
      rw [List.length_cons, mem_combsRep_length _ k c' hc']
    · exact mem_combsRep_length _ _ c hc
termination_by l k => (k, l.length)

theorem greatestInt_eq : ∀ l, greatestInt l = pyMaxList l
  | [] => rfl
  | _ :: _ => rfl

theorem total_ints (l : List ℤ) : (total (l.map Val.int) : Py (Val K)) = pure (.int l.sum) := by
  have key : ∀ (l : List ℤ) (a : ℤ), (l.map Val.int).foldlM (fun a v => arith .plus a v) (Val.int a : Val K) = (pure (.int (a + l.sum)) : Py _) := by
    intro l
    induction l with
    | nil => intro a; simp
    | cons x l ih =>
      intro a
      rw [List.map_cons, List.foldlM_cons, show arith .plus (Val.int a : Val K) (.int x) = pure (.int (a + x)) from rfl, pure_bind, ih, List.sum_cons, add_assoc]
  rw [total, key, zero_add]

/-- A computation for every element of a list, without effects. -/
theorem mapM_lift {α β γ : Type} (emb : α → Val K) (out : β → γ) {g : α → Py β} {f : Val K → M K γ} : ∀ l : List α,
    (∀ x ∈ l, f (emb x) = lift (g x) >>= fun b => pure (out b)) →
    (l.map emb).mapM f = lift (l.mapM g) >>= fun bs => pure (bs.map out)
  | [], _ => by simp only [List.map_nil, List.mapM_nil]; rfl
  | x :: l, h => by
    rw [List.map_cons, List.mapM_cons, List.mapM_cons, h x (by simp), mapM_lift emb out l fun y hy => h y (by simp [hy])]
    simp only [lift_bind, bind_assoc_M, pure_bind_M, lift_pure, List.map_cons]

theorem eval_filter (W : World K) (env : Env K) (e it c : Ex) (x : String) (hc : c ≠ .nil) :
    eval W env (.comp e x it c) = eval W env it >>= fun v => iterate v >>= fun vs =>
      vs.mapM (fun v => eval W (env.set x v) c >>= fun t => lift (truth t) >>= fun t =>
        if t then eval W (env.set x v) e >>= fun u => pure [u] else pure []) >>= fun us => pure (.list us.flatten) := by
  cases c <;> first | rfl | exact absurd rfl hc

theorem mapM_filter {α : Type} (p : α → Bool) : ∀ l : List α, (l.mapM fun x => (pure (if p x then [x] else []) : Py (List α))) >>= (fun us => pure us.flatten) =
    (pure (l.filter p) : Py (List α)) := by
  intro l
  rw [List.mapM_pure]
  simp only [pure_bind]
  congr 1
  induction l with
  | nil => rfl
  | cons x l ih => by_cases h : p x <;> simp [h, ih]

theorem filter_comp {α : Type} (emb : α → Val K) (p : α → Bool) {f : Val K → M K (List (Val K))} (l : List α)
    (h : ∀ x ∈ l, f (emb x) = pure (if p x then [emb x] else [])) :
    ((l.map emb).mapM f >>= fun us => pure (Val.list us.flatten)) = (pure (.list ((l.filter p).map emb)) : M K (Val K)) := by
  rw [mapM_lift emb (fun xs : List α => xs.map emb) (g := fun x => pure (if p x then [x] else [])) l fun x hx => by
    rw [h x hx]; split <;> rfl]
  rw [List.mapM_pure, lift_pure, pure_bind_M, pure_bind_M]
  congr 2
  clear h
  induction l with
  | nil => rfl
  | cons x l ih =>
    rw [List.map_cons, List.map_cons, List.flatten_cons, ih]
    by_cases h : p x <;> simp [h]

/-! ### `smol_inds` -/

theorem ile (a b : ℤ) : intCmp .le a b = pure (decide (a ≤ b)) := rfl

theorem combs_run (zs : List ℤ) (k : ℕ) : builtin .combinations [(.range zs : Val K), .int k] = pure (.list ((combsRep zs k).map tupVal)) := by
  simp only [builtin, builtin2, iterate, pure_bind_M]
  rw [if_neg (by omega), Int.toNat_natCast, multisets_eq, combsRep_map, List.map_map]
  rfl

theorem permute_call (n : ℕ) (a : List ℤ) (hn : a.length.factorial + a.length + 3 ≤ n) :
    (callN smolProg n (.fn permuteFun) [rowVal a] : M K _) = lift (permute a) >>= fun r => pure (.list (r.map rowVal)) := by
  obtain ⟨n, rfl⟩ : ∃ m, n = m + 2 := ⟨n - 2, by omega⟩
  funext h
  rw [callN_fn]
  have := permute_sim (K := K) ordered_int (smol_perm n) a h (by simp only; omega) (by simp only; omega)
  have hx : permute a ≠ .error .runtime := by
    rcases Nat.lt_or_ge a.length 2 with h | h
    · rw [Props.C58_short a h]
      simp
    · obtain ⟨r, hr, -⟩ := Props.C58_permute a h
      rw [hr]
      simp
  have key := this.resolve_left hx
  simp only [bind_run, lift_run]
  revert key
  simp only [rowVal]
  generalize runFun _ permuteFun _ h = y
  rcases permute a with e | r <;> rcases y with e' | o <;> intro key
  · rw [show e = e' from key]; rfl
  · exact key.elim
  · exact key.elim
  · rw [show o = _ from key]; rfl

theorem isinstance_int (z : ℤ) : builtin .isinstance [(.int z : Val K), .builtin .int] = pure (.bool true) := rfl
theorem isinstance_ints (zs : List ℤ) : builtin .isinstance [(.ints zs : Val K), .builtin .int] = pure (.bool false) := rfl

theorem iterate_list (vs : List (Val K)) : iterate (.list vs) = pure vs := rfl

theorem list_tup (vs : List (Val K)) : builtin .list [.tup vs] = pure (.list vs) := rfl

/-- `[[el for el in permute(list(val)) ...] for val in poss_inds]`. -/
theorem perms_run {W : World K} {env : Env K} {e : Ex} {l : List (List ℤ)} {g : List ℤ → Py (List (List ℤ))}
    (h : ∀ v ∈ l, eval W (env.set "val" (tupVal v)) e = lift (g v) >>= fun r => pure (.list (r.map rowVal)))
    (hp : env "poss_inds" = some (.list (l.map tupVal))) :
    eval W env (.comp e "val" (.name "poss_inds") .nil) = lift (l.mapM g) >>= fun rs => pure (permsVal rs) := by
  rw [eval_comp, eval_name, look_of hp, pure_bind_M, iterate_list, pure_bind_M, mapM_lift tupVal (fun r : List (List ℤ) => (.list (r.map rowVal) : Val K)) l h]
  simp only [bind_assoc_M, pure_bind_M, permsVal]

theorem inner_run {n : ℕ} {env : Env K} {v : List ℤ} (hv : env "val" = some (tupVal v)) (h1 : env "permute" = none) (h2 : env "list" = none)
    (hn : v.length.factorial + v.length + 3 ≤ n + 1) :
    eval (world smolProg (n + 1)) env (.call (.name "permute") (.cons (.call (.name "list") (.cons (.name "val") .nil)) .nil)) =
      lift (permute v) >>= fun r => pure (.list (r.map rowVal)) := by
  pysimp [look, h1, h2, hv, sglob_permute, sglob_list]
  rw [tupVal, list_tup, pure_bind_M]
  exact permute_call (n + 1) v hn

theorem each_run {W : World K} {env : Env K} (vs : List (Val K)) :
    vs.mapM (fun v => eval W (env.set "el" v) (.name "el")) = (pure vs : M K _) := by
  have : (fun v => eval W (env.set "el" v) (.name "el")) = fun v => (pure v : M K _) := by
    funext v
    pysimp [look]
  rw [this, List.mapM_pure, List.map_id']

theorem size_ints (zs : List ℤ) : getAttr (.ints zs : Val K) "size" = pure (.int zs.length) := rfl
theorem ine (a b : ℤ) : intCmp .ne a b = pure (decide (a ≠ b)) := rfl
theorem exec_raise' (W : World K) (env : Env K) (o : Op) (a b : Ex) (rest : Block) :
    exec W (.simple (.raise (.call (.name "ValueError") (.cons (.bin o a b) .nil))) rest) env = raise .value := by
  simp only [exec, execSimple]
  rfl

theorem npMax_attr : getAttr (.np : Val K) "max" = pure (.builtin .npMax) := rfl
theorem npMax_ints (zs : List ℤ) : builtin .npMax [(.ints zs : Val K)] = lift (greatestInt zs) >>= fun z => pure (.int z) := rfl
theorem int_int (z : ℤ) : builtin .int [(.int z : Val K)] = pure (.int z) := rfl

theorem ints_add (zs : List ℤ) (z : ℤ) : binOp .plus (.ints zs : Val K) (.int z) = pure (.ints (zs.map (· + z))) := rfl

/-- `all(el <= mu + 1)`. -/
theorem bound_run {x ms : List ℤ} (h : x.length = ms.length) :
    compareVal .le (rowVal x : Val K) (.ints (ms.map (· + ((1 : ℕ) : ℤ)))) = pure (.bools (List.zipWith (fun e m => decide (e ≤ m + 1)) x ms)) := by
  have key : ∀ x ms : List ℤ, ((x.map (Val.int (K := K))).zip (ms.map (· + ((1 : ℕ) : ℤ)))).mapM (fun p => compare .le p.1 (.int p.2)) =
      (pure (List.zipWith (fun e m => decide (e ≤ m + 1)) x ms) : Py _) := by
    intro x
    induction x with
    | nil => intro ms; rfl
    | cons a x ih =>
      intro ms
      cases ms with
      | nil => rfl
      | cons b ms =>
        simp only [List.map_cons, List.zip_cons_cons, List.mapM_cons, List.zipWith_cons_cons, ih]
        rfl
  simp only [compareVal, compareEach, rowVal]
  rw [key, lift_pure, pure_bind_M, if_pos (by simp [h])]
theorem all_bools (bs : List Bool) : builtin .all [(.bools bs : Val K)] = pure (.bool (bs.all id)) := rfl

theorem flatten_run (rs : List (List (List ℤ))) : builtin .fromIterable [(permsVal rs : Val K)] =
    pure (.list (rs.flatten.map rowVal)) := by
  simp only [permsVal, builtin, builtin2, iterate_list, pure_bind_M]
  have : (rs.map fun r => (.list (r.map rowVal) : Val K)).mapM iterate = (pure (rs.map fun r => r.map rowVal) : M K _) := by
    rw [mapM_lift (g := fun r => pure r) (fun r : List (List ℤ) => (.list (r.map rowVal) : Val K)) (fun r : List (List ℤ) => (r.map rowVal : List (Val K))) rs fun r _ => rfl,
      List.mapM_pure]
    simp only [lift_pure, pure_bind_M, List.map_id']
  rw [this, pure_bind_M, List.map_flatten]

/-- The choices that are kept. -/
theorem poss_run {n : ℕ} {env : Env K} {d : ℕ} {m : ℤ} {zs : List ℤ} (hd : env "d" = some (.int d)) (hm : env "max_mu" = some (.int m))
    (hv : env "possible_values" = some (.range zs)) (h1 : env "sum" = none) (h2 : env "combinations_with_replacement" = none) :
    eval (world smolProg (n + 1)) env (.comp (.name "el") "el" (.call (.name "combinations_with_replacement")
      (.cons (.name "possible_values") (.cons (.name "d") .nil))) (.chain (.name "d") (.link .lt (.call (.name "sum") (.cons (.name "el") .nil))
        (.link .le (.bin .plus (.name "d") (.name "max_mu")) .nil)))) =
      (pure (.list (((combsRep zs d).filter fun el => decide ((d : ℤ) < el.sum ∧ el.sum ≤ d + m)).map tupVal)) : M K _) := by
  rw [eval_filter _ _ _ _ _ _ (by simp)]
  pysimp [look, hd, hm, hv, h2, sglob_combinations, combs_run, iterate_list]
  refine filter_comp tupVal _ _ fun x _ => ?_
  have hs : builtin .sum [(tupVal x : Val K)] = pure (.int x.sum) := by
    simp only [builtin, tupVal, iterate, pure_bind_M, total_ints, lift_pure]
  pysimp [look, hd, hm, h1, sglob_sum, hs, ilt, ile]
  by_cases c1 : (d : ℤ) < x.sum
  · by_cases c2 : x.sum ≤ d + m
    · simp only [c1, c2, decide_true, if_true, and_self, pure_bind_M, truth_bool, lift_pure]
    · simp only [c1, c2, decide_true, if_true, and_false, decide_false, Bool.false_eq_true, if_false, pure_bind_M, truth_bool, lift_pure]
  · simp only [c1, decide_false, Bool.false_eq_true, if_false, false_and, pure_bind_M, truth_bool, lift_pure]

/-- What comes after the list of the rearrangements. -/
def smolIndsTail : Block :=
  .simple (.mutate "true_inds" "extend" (.cons (.list (.cons (.list (.cons (.bin .star (.list (.cons (.int 1) .nil)) (.name "d")) .nil)) .nil)) .nil)) <|
  .simple (.assign (.name "tinds") (.call (.name "list") (.cons (.call (.attr (.name "chain") "from_iterable") (.cons (.name "true_inds") .nil)) .nil))) <|
  .simple (.ret (some (.name "tinds"))) <|
  .nil

theorem tail_run {n : ℕ} {env : Env K} {d : ℕ} {rs : List (List (List ℤ))} (hd : env "d" = some (.int d))
    (ht : env "true_inds" = some (permsVal rs)) (h1 : env "list" = none) (h2 : env "chain" = none) :
    exec (world smolProg (n + 1)) smolIndsTail env = (pure (.ret (.list ((rs ++ [[List.replicate d 1]]).flatten.map rowVal))) : M K _) := by
  have hr : binOp .star (.list [.int ((1 : ℕ) : ℤ)]) (.int (d : ℤ)) = (pure (rowVal (List.replicate d 1)) : M K _) := by
    rw [show binOp .star (.list [.int ((1 : ℕ) : ℤ)]) (.int (d : ℤ)) =
      (pure (.list (List.replicate (d : ℤ).toNat [.int ((1 : ℕ) : ℤ)]).flatten) : M K _) from rfl, Int.toNat_natCast, rowVal, List.map_replicate]
    congr 2
    exact List.flatten_replicate_singleton
  have he : mutated "extend" (permsVal rs) [.list [.list [(rowVal (List.replicate d 1) : Val K)]]] =
      pure (permsVal (rs ++ [[List.replicate d 1]])) := by
    simp [mutated, permsVal]
  have hc : getAttr (.builtin .chain : Val K) "from_iterable" = pure (.builtin .fromIterable) := rfl
  rw [smolIndsTail, exec_change]
  pysimp [look, hd, ht, hr, he, h1, h2, sglob_list, sglob_chain, hc, flatten_run, list_list]

theorem smolInds_run (n d : ℕ) (hn : d.factorial + d + 3 ≤ n) (mu : Mu) :
    (runFun (world smolProg n) smolIndsFun [.int d, muVal mu] : M K _) = lift (smolInds d mu) >>= fun r => pure (.list (r.map rowVal)) := by
  obtain ⟨n, rfl⟩ : ∃ m, n = m + 1 := ⟨n - 1, by omega⟩
  rw [runFun, smolInds]
  have hlen : ∀ (zs : List ℤ) (p : List ℤ → Bool), ∀ v ∈ (combsRep zs d).filter p, v.length = d := fun zs p v hv =>
    mem_combsRep_length _ _ _ (List.mem_filter.mp hv).1
  rcases mu with m | ms
  · pysimp [smolIndsFun, smolIndsBody, muVal, maxMu, look, sglob_isinstance, sglob_int, isinstance_int, sglob_range, rangeStep_one, sglob_combinations,
      combs_run]
    rw [poss_run (m := m) (d := d) (zs := rangeZ 1 (m + 2))]
    rw [pure_bind_M, perms_run (g := fun val => permute val >>= fun ps => pure (ps.filter (permFilter (.iso m)))) (l := _) ?_ rfl]
    simp only [bind_assoc_M, pure_bind_M, pure_bind, lift_bind, lift_pure]
    congr 1
    funext rs
    rw [← smolIndsTail, tail_run (d := d) (rs := rs)]
    · rfl
    all_goals first | rfl | skip
    intro v hv
    have hl := hlen _ _ v hv
    rw [eval_comp, inner_run (v := v) rfl rfl rfl (by rw [hl]; exact hn)]
    simp only [bind_assoc_M, pure_bind_M, iterate_list, lift_bind, lift_pure]
    congr 1
    funext r
    rw [each_run, pure_bind_M]
    simp only [permFilter, List.filter_true]
  · by_cases hl : ms.length = d
    swap
    · have hne : ((ms.length : ℤ) = (d : ℤ)) = False := by simp [hl]
      pysimp [smolIndsFun, smolIndsBody, muVal, maxMu, look, sglob_isinstance, sglob_int, isinstance_ints, sglob_range, size_ints, ine, hne,
        Bool.false_eq_true, ne_eq, decide_true, hl, exec_raise']
      rfl
    pysimp [smolIndsFun, smolIndsBody, muVal, maxMu, look, sglob_isinstance, sglob_int, isinstance_ints, sglob_range, size_ints, ine, hl, sglob_np,
      Bool.false_eq_true, ne_eq, not_true_eq_false, decide_false, npMax_attr, npMax_ints, greatestInt_eq, lift_bind, bind_assoc_M]
    congr 1
    funext m
    pysimp [int_int, rangeStep_one, look, sglob_int, sglob_range, sglob_isinstance, isinstance_ints, Bool.false_eq_true]
    rw [poss_run (m := m) (d := d) (zs := rangeZ 1 (m + 2))]
    rw [pure_bind_M, perms_run (g := fun val => permute val >>= fun ps => pure (ps.filter (permFilter (.aniso ms)))) (l := _) ?_ rfl]
    simp only [bind_assoc_M, pure_bind_M, pure_bind, lift_bind, lift_pure]
    congr 1
    funext rs
    rw [← smolIndsTail, tail_run (d := d) (rs := rs)]
    · rfl
    all_goals first | rfl | skip
    intro v hv
    have hvl := hlen _ _ v hv
    rw [eval_filter _ _ _ _ _ _ (by simp), inner_run (v := v) rfl rfl rfl (by rw [hvl]; exact hn)]
    simp only [bind_assoc_M, pure_bind_M, iterate_list, lift_bind, lift_pure]
    rcases hp : permute v with e | r
    · rfl
    simp only [lift_ok, pure_bind_M]
    refine filter_comp rowVal _ r fun x hx => ?_
    have hxl : x.length = ms.length := by
      rcases Nat.lt_or_ge v.length 2 with h | h
      · rw [Props.C58_short v h] at hp
        cases hp
      · obtain ⟨r', hr', -, hm⟩ := Props.C58_permute v h
        rw [hr'] at hp
        cases hp
        rw [((hm x).mp hx).length_eq, hvl, hl]
    pysimp [look, sglob_all, ints_add, bound_run (K := K) hxl, all_bools]
    by_cases c : (List.zipWith (fun e m => decide (e ≤ m + 1)) x ms).all id = true
    · rw [if_pos c, show permFilter (.aniso ms) x = true from c]
      rfl
    · rw [if_neg c, show permFilter (.aniso ms) x = false from Bool.not_eq_true _ ▸ c]
      rfl

end Interp.Spec.PySrc
