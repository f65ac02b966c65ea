import Verif.Proofs.SrcOldTop
import Verif.Proofs.SmolyakTrees
import Verif.Model.Permute

/-!
# The source text of `permute`
-/

namespace Interp.Spec.PySrc
open Interp Interp.Smolyak

set_option linter.unusedSectionVars false

variable {K : Type} [Add K] [Sub K] [Mul K] [Div K] [Neg K] [Zero K] [One K] [NatCast K] [IntCast K]
  [LT K] [DecidableLT K] [LE K] [DecidableLE K] [BEq K] [IntFloor K] [Interp.Smolyak.Trig K]

/-! ### Loops with a bound -/

/-- The model runs out of passes, or both raise the same, or the results are related. -/
def Runs {α β : Type} (x : Py α) (y : Py β) (Q : α → β → Prop) : Prop := x = .error .runtime ∨ Sim x y Q

theorem Runs.bind {α β γ δ : Type} {x : Py α} {y : Py β} {Q : α → β → Prop} {f : α → Py γ} {g : β → Py δ}
    {R : γ → δ → Prop} (h : Runs x y Q) (h' : ∀ a b, Q a b → Runs (f a) (g b) R) : Runs (x >>= f) (y >>= g) R := by
  rcases h with rfl | h
  · exact .inl rfl
  rcases x with e | a <;> rcases y with e' | b
  · exact .inr h
  · exact h.elim
  · exact h.elim
  · exact h' a b h

theorem Runs.bind_same {α γ δ : Type} {x : Py α} {f : α → Py γ} {g : α → Py δ} {R : γ → δ → Prop}
    (h' : ∀ a, x = .ok a → Runs (f a) (g a) R) : Runs (x >>= f) (x >>= g) R := by
  rcases x with e | a
  · exact .inr rfl
  · exact h' a rfl

theorem Runs.mono {α β : Type} {x : Py α} {y : Py β} {Q R : α → β → Prop} (h : Runs x y Q) (h' : ∀ a b, Q a b → R a b) :
    Runs x y R := h.imp id fun h => h.mono h'

theorem Runs.keep {α β : Type} {x : Py α} {y : Py β} {Q : α → β → Prop} {P : α → Prop} (h : Runs x y Q) (hP : Keeps P x) :
    Runs x y fun a b => Q a b ∧ P a := h.imp id fun h => h.keep hP

theorem exec_while (W : World K) (env : Env K) (c : Ex) (body rest : Block) :
    exec W (.while c body rest) env = whileLoop (fun env => eval W env c >>= fun v => lift (truth v)) (exec W body) W.fuel env >>=
      fun o => andThen o (exec W rest) := by
  simp only [exec]
theorem exec_brk (W : World K) (env : Env K) (rest : Block) : exec W (.simple .brk rest) env = pure (.brk env) := by
  simp only [exec, execSimple, pure_bind_M, andThen]
theorem exec_change (W : World K) (env : Env K) (s m : String) (es : Ex) (rest : Block) :
    exec W (.simple (.mutate s m es) rest) env = look W env s >>= fun v => evals W env es >>= fun vs => lift (mutated m v vs) >>= fun w =>
      exec W rest (env.set s w) := by
  simp only [exec, execSimple, bind_assoc_M, pure_bind_M, andThen]
theorem andThen_brk (env : Env K) (k : Env K → M K (Out K)) : andThen (.brk env) k = pure (.brk env) := rfl
theorem eval_not (W : World K) (env : Env K) (e : Ex) :
    eval W env (.not e) = eval W env e >>= fun v => lift (truth v) >>= fun b => pure (.bool !b) := rfl
theorem item_list (vs : List (Val K)) (z : ℤ) : item (.list vs) [.at z] = lift (nth vs z) := rfl
theorem subs_slice (W : World K) (env : Env K) (o : Op) (a b : Ex) (s : String) :
    evalSubs W env (.cons (.slice (.bin o a b) (.name s)) .nil) = eval W env (.bin o a b) >>= fun v => asInt v >>= fun x =>
      look W env s >>= fun v => asInt v >>= fun y => pure [.slice (some x) (some y)] := by
  simp only [evalSubs, isNil, bind_assoc_M, pure_bind_M]
  rfl
theorem item_slice (vs : List (Val K)) (a b : Option ℤ) : item (.list vs) [.slice a b] = pure (.list (sliceList vs a b)) := rfl
theorem put_slice (vs us : List (Val K)) (a b : Option ℤ) :
    putValue (.list vs) [.slice a b] (.list us) = pure (.list (spliceList vs a b us)) := rfl

/-! ### Lists -/

section
variable {α : Type} (emb : α → Val K)

theorem nth_get (a : List α) (z : ℤ) : nth (a.map emb) z = pyGet a z >>= fun x => pure (emb x) := by
  unfold nth pyGet
  rw [List.length_map]
  rcases wrapIndex a.length z with _ | j
  · rfl
  · simp only [List.getElem?_map]
    rcases a[j]? with _ | v <;> rfl

theorem put_set (a : List α) (z : ℤ) (x : α) :
    putValue (.list (a.map emb)) [.at z] (emb x) = pySet a z x >>= fun b => pure (.list (b.map emb)) := by
  unfold putValue pySet
  simp only [List.length_map]
  rcases wrapIndex a.length z with _ | j
  · rfl
  · simp only [pure_bind, List.map_set]

theorem slice_map (a : List α) (x y : Option ℤ) : sliceList (a.map emb) x y = (sliceList a x y).map emb := by
  simp [sliceList]

theorem splice_map (a b : List α) (x y : Option ℤ) : spliceList (a.map emb) x y (b.map emb) = (spliceList a x y b).map emb := by
  simp [spliceList]

end

theorem splice_tail {α : Type} (a : List α) (i : ℤ) (hi : 0 ≤ i) :
    spliceList a (some i) (some a.length) (sliceList a (some i) (some a.length)).reverse =
      a.take i.toNat ++ (a.drop i.toNat).reverse := by
  have h1 : clip a.length i = min i.toNat a.length := by rw [clip, if_neg (by omega)]
  have h2 : clip a.length (a.length : ℤ) = a.length := by rw [clip, if_neg (by omega)]; simp
  simp only [spliceList, sliceList, Option.map_some, Option.getD_some, h1, h2, List.take_length]
  rcases le_total i.toNat a.length with h | h
  · simp [h]
  · simp [h, List.take_of_length_le h, List.drop_eq_nil_of_le h]

theorem pySet_length {α : Type} (a : List α) (i : ℤ) (v : α) : Keeps (fun b => b.length = a.length) (pySet a i v) := by
  unfold pySet
  split
  · exact Keeps.throw
  · exact Keeps.pure (by simp)

theorem swapReverse_length {α : Type} [LT α] [DecidableLT α] (a : List α) (i j : ℤ) :
    Keeps (fun b => b.length = a.length) (swapReverse a i j) := by
  unfold swapReverse
  refine Keeps.bind Keeps.any fun y _ => Keeps.bind Keeps.any fun x _ => Keeps.bind (pySet_length a i y) fun b hb => ?_
  refine Keeps.bind (pySet_length b j x) fun c hc => Keeps.pure ?_
  rw [List.length_append, List.length_reverse, ← List.length_append, List.take_append_drop, hc, hb]

theorem scanI_length {α : Type} [LT α] [DecidableLT α] (a : List α) : ∀ (f : ℕ) (i : ℤ),
    Keeps (fun r => ∀ b, r = some b → b.length = a.length) (scanI a f i)
  | 0, _ => Keeps.throw
  | f + 1, i => by
    rw [scanI]
    refine Keeps.bind Keeps.any fun x _ => Keeps.bind Keeps.any fun y _ => ?_
    split
    · refine Keeps.bind Keeps.any fun j _ => Keeps.bind (swapReverse_length a _ j) fun b hb => Keeps.pure ?_
      rintro _ ⟨⟩
      exact hb
    · split
      · exact Keeps.pure (by simp)
      · exact scanI_length a f _

/-! ### The function -/

/-- Values of elements that are compared as the elements are. -/
structure Ordered {α : Type} [LT α] [DecidableLT α] (emb : α → Val K) : Prop where
  lt : ∀ x y, compare .lt (emb x) (emb y) = pure (decide (x < y))
  sort : ∀ l : List α, mutated "sort" (.list (l.map emb)) [] = pure (.list ((pySort l).map emb))

/-- What the loops need from outside. -/
structure PermWorld (W : World K) : Prop where
  true : W.glob "True" = pure (.bool true)
  list : W.glob "list" = pure (.builtin .list)
  len : W.glob "len" = pure (.builtin .len)
  call : ∀ b args, W.call (.builtin b) args = builtin b args

section
variable {α : Type} [LT α] [DecidableLT α] {emb : α → Val K} (hE : Ordered emb) {W : World K} (hW : PermWorld W)

include hE in
/-- `a[i] < a[j]`. -/
theorem less_eval {env : Env K} {a : List α} {e e' : Ex} {i j : ℤ} (ha : env "a" = some (.list (a.map emb)))
    (hi : evalSubs W env (.cons e .nil) = pure [.at i]) (hj : evalSubs W env (.cons e' .nil) = pure [.at j]) :
    eval W env (.chain (.index (.name "a") (.cons e .nil)) (.link .lt (.index (.name "a") (.cons e' .nil)) .nil)) =
      lift (pyGet a i >>= fun x => pyGet a j >>= fun y => pure (.bool (decide (x < y)))) := by
  pysimp [look, ha, hi, hj, item_list, nth_get, lift_bind, compareVal_pure (hE.lt _ _)]

include hE hW in
theorem scanJ_sim {a : List α} {i : ℤ} : ∀ (f g : ℕ), f ≤ g → ∀ (j : ℤ) (env : Env K) (h : Heap K),
    env "a" = some (.list (a.map emb)) → env "i" = some (.int i) → env "j" = some (.int j) →
    Runs (scanJ a i f j) (whileLoop (fun env => eval W env
      (.not (.chain (.index (.name "a") (.cons (.name "i") .nil)) (.link .lt (.index (.name "a") (.cons (.name "j") .nil)) .nil))) >>=
        fun v => lift (truth v)) (exec W permuteLoop0) g env h)
      fun j o => ∃ env', o = (.next env', h) ∧ Agree ["j"] env env' ∧ env' "j" = some (.int j)
  | 0, _, _, j, env, h, _, _, _ => .inl rfl
  | f + 1, g + 1, hfg, j, env, h, ha, hi, hj => by
    rw [scanJ, whileLoop, eval_not, less_eval hE ha (i := i) (j := j) (by pysimp [look, hi]) (by pysimp [look, hj])]
    simp only [bind_run, lift_run, bind_assoc, pure_bind]
    refine Runs.bind_same fun x _ => Runs.bind_same fun y _ => ?_
    simp only [pure_run, pure_bind, truth_bool, lift_run]
    by_cases hxy : x < y
    · simp only [hxy, if_true, decide_true, Bool.not_true, Bool.false_eq_true, if_false, pure_run]
      exact .inr (Sim.pure ⟨env, rfl, Agree.refl _ _, hj⟩)
    · simp only [hxy, if_false, decide_false, Bool.not_false, if_true]
      have hp : exec W permuteLoop0 env = pure (.next (env.set "j" (.int (j - ((1 : ℕ) : ℤ))))) := by
        unfold permuteLoop0
        pysimp [look, hj]
      rw [hp]
      simp only [bind_run, pure_run, pure_bind]
      refine (scanJ_sim f g (by omega) (j - 1) _ h ?_ ?_ ?_).mono ?_
      · pysimp [ha]
      · pysimp [hi]
      · pysimp []
        rfl
      · rintro j' o ⟨env', rfl, hA, hj'⟩
        refine ⟨env', rfl, fun s hs => ?_, hj'⟩
        rw [hA s hs, set_apply, if_neg (by simpa using hs)]

/-- The variables of the loops: the list, its length, what has been yielded. -/
structure PVars (emb : α → Val K) (a : List α) (ys : List (Val K)) (env : Env K) : Prop where
  arr : env "a" = some (.list (a.map emb))
  alen : env "alen" = some (.int (a.length : ℤ))
  first : env "first" = some (.int 0)
  yield : env "yield" = some (.list ys)
  true : env "True" = none
  list : env "list" = none

/-- How the inner loop ends. -/
def Scanned (emb : α → Val K) (ys : List (Val K)) (h : Heap K) (r : Option (List α)) (o : Out K × Heap K) : Prop :=
  match r with
  | none => o = (.ret (.list ys), h)
  | some b => ∃ env', o = (.next env', h) ∧ PVars emb b (ys ++ [.list (b.map emb)]) env'

theorem list_list (vs : List (Val K)) : builtin .list [.list vs] = pure (.list vs) := rfl
theorem mut_reverse (vs : List (Val K)) : mutated "reverse" (.list vs) [] = pure (.list vs.reverse) := rfl
theorem mut_append (vs : List (Val K)) (v : Val K) : mutated "append" (.list vs) [v] = pure (.list (vs ++ [v])) := rfl

/-- The statements after the loop for `j`. -/
def permuteSwap : Block :=
    .simple (.assign (.tuple (.cons (.index (.name "a") (.cons (.name "i") .nil)) (.cons (.index (.name "a") (.cons (.name "j") .nil)) .nil))) (.tuple (.cons (.index (.name "a") (.cons (.name "j") .nil)) (.cons (.index (.name "a") (.cons (.name "i") .nil)) .nil)))) <|
    .simple (.assign (.name "t") (.index (.name "a") (.cons (.slice (.bin .plus (.name "i") (.int 1)) (.name "alen")) .nil))) <|
    .simple (.mutate "t" "reverse" .nil) <|
    .simple (.assign (.index (.name "a") (.cons (.slice (.bin .plus (.name "i") (.int 1)) (.name "alen")) .nil)) (.name "t")) <|
    .simple (.mutate "yield" "append" (.cons (.call (.name "list") (.cons (.name "a") .nil)) .nil)) <|
    .simple (.brk) <|
    .nil

include hW in
theorem swap_sim {a : List α} {ys : List (Val K)} {i j : ℤ} {env : Env K} (h : Heap K) (hV : PVars emb a ys env) (hi : env "i" = some (.int i))
    (hj : env "j" = some (.int j)) (hpos : 0 ≤ i + 1) :
    Sim (swapReverse a i j) (exec W permuteSwap env h)
      fun b o => ∃ env', o = (.brk env', h) ∧ PVars emb b (ys ++ [.list (b.map emb)]) env' := by
  obtain ⟨ha, hl, hf1, hy, ht, hli⟩ := hV
  unfold swapReverse permuteSwap
  pysimp [look, ha, hi, hj, item_list, nth_get, lift_bind, put_set]
  simp only [bind_run, lift_run, bind_assoc, pure_bind]
  refine Sim.bind_same fun y => Sim.bind_same fun x => ?_
  have hk := pySet_length a i y
  rcases hb : pySet a i y with e | b
  · exact rfl
  replace hk := hk b hb
  simp only [ok_bind_py]
  have hk' := pySet_length b j x
  rcases hc : pySet b j x with e | c
  · exact rfl
  replace hk' := hk' c hc
  simp only [ok_bind_py]
  have hlen : (a.length : ℤ) = c.length := by rw [hk', hk]
  rw [hlen] at hl
  pysimp [look, hl, hi, subs_slice, item_slice, slice_map, exec_change, exec_brk, mut_reverse, mut_append, put_slice, hli, hW.list, hW.call, list_list, hy,
    ← List.map_reverse, splice_map]
  refine Sim.pure ⟨_, rfl, ?_⟩
  have hs : spliceList (c.map emb) (some (i + ((1 : ℕ) : ℤ))) (some (c.length : ℤ))
      (sliceList (c.map emb) (some (i + ((1 : ℕ) : ℤ))) (some (c.length : ℤ))).reverse =
        (c.take (i + 1).toNat ++ (c.drop (i + 1).toNat).reverse).map emb := by
    rw [slice_map, ← List.map_reverse, splice_map, ← splice_tail c (i + 1) hpos]
    rfl
  have hlen2 : (c.take (i + 1).toNat ++ (c.drop (i + 1).toNat).reverse).length = c.length := by
    rw [List.length_append, List.length_reverse, ← List.length_append, List.take_append_drop]
  constructor
  · pysimp []
    rw [hs]
  · pysimp [hl]
    rw [hlen2]
  · pysimp [hf1]
  · pysimp []
    rw [hs]
  · pysimp [ht]
  · pysimp [hli]

/-- One pass of the inner loop: the loop ends with this result, or goes on. -/
def passI (a : List α) (i : ℤ) : Py (Option (Option (List α))) := do
  let x ← pyGet a (i - 1)
  let y ← pyGet a (i - 1 + 1)
  if x < y then
    let j ← scanJ a (i - 1) (a.length + 1) ((a.length : ℤ) - 1)
    let b ← swapReverse a (i - 1) j
    pure (some (some b))
  else if i - 1 = 0 then pure (some none)
  else pure none

theorem scanI_pass (a : List α) (f : ℕ) (i : ℤ) :
    scanI a (f + 1) i = passI a i >>= fun r => match r with
      | some r => pure r
      | none => scanI a f (i - 1) := by
  rw [scanI, passI]
  simp only [bind_assoc]
  congr 1; funext x; congr 1; funext y
  split
  · simp only [bind_assoc, pure_bind]
  · split <;> simp only [pure_bind]

/-- How a pass of the inner loop ends. -/
def Passed (emb : α → Val K) (a : List α) (ys : List (Val K)) (i : ℤ) (h : Heap K) (r : Option (Option (List α))) (o : Out K × Heap K) : Prop :=
  match r with
  | none => i ≠ 0 ∧ ∃ env', o = (.next env', h) ∧ PVars emb a ys env' ∧ env' "i" = some (.int i)
  | some none => o = (.ret (.list ys), h)
  | some (some b) => ∃ env', o = (.brk env', h) ∧ PVars emb b (ys ++ [.list (b.map emb)]) env'

include hE hW in
theorem pass_sim {a : List α} {ys : List (Val K)} (hf : a.length + 1 ≤ W.fuel) {i : ℤ} {env : Env K} (h : Heap K)
    (hV : PVars emb a ys env) (hi : env "i" = some (.int i)) (hpos : 0 ≤ i ∨ i - 1 < -(a.length : ℤ)) :
    Runs (passI a i) (exec W permuteLoop1 env h) (Passed emb a ys (i - 1) h) := by
  unfold permuteLoop1
  simp only [exec_augName, look_of hi, pure_bind_M, eval_int, bin_ii, arith_ii, int_sub, lift_pure]
  have hi1 : (env.set "i" (.int (i - ((1 : ℕ) : ℤ)))) "i" = some (.int (i - 1)) := rfl
  have hV1 : PVars emb a ys (env.set "i" (.int (i - ((1 : ℕ) : ℤ)))) := by
    obtain ⟨ha, hl, hf1, hy, ht, hli⟩ := hV
    constructor <;> pysimp [ha, hl, hf1, hy, ht, hli]
  generalize env.set "i" (.int (i - ((1 : ℕ) : ℤ))) = env at hi1 hV1 ⊢
  have hV0 := hV1
  obtain ⟨ha, hl, hf1, hy, ht, hli⟩ := hV1
  rw [exec_if, less_eval hE (a := a) (i := i - 1) (j := i - 1 + 1) ha (by pysimp [look, hi1]) (by pysimp [look, hi1]; rfl), passI]
  simp only [bind_run, lift_run, bind_assoc, pure_bind]
  refine Runs.bind_same fun x hx => Runs.bind_same fun y _ => ?_
  simp only [pure_run, pure_bind, truth_bool, lift_run]
  have hin : -(a.length : ℤ) ≤ i - 1 := by
    by_contra hcon
    have : wrapIndex a.length (i - 1) = none := by
      unfold wrapIndex; split <;> first | rfl | (split <;> first | rfl | omega) | omega
    simp [pyGet, this] at hx
  by_cases hxy : x < y
  · simp only [hxy, if_true, decide_true]
    rw [exec_assign]
    simp only [eval_bin, eval_name, look_of hl, pure_bind_M, eval_int, bin_ii, arith_ii, int_sub, lift_pure, assign_name, exec_while]
    rw [bind_run, bind_assoc]
    have hV2 : PVars emb a ys (env.set "j" (.int (a.length - ((1 : ℕ) : ℤ)))) := by
      constructor <;> pysimp [ha, hl, hf1, hy, ht, hli]
    refine Runs.bind (Q := fun j o => ∃ env', o = (.next env', h) ∧ PVars emb a ys env' ∧ env' "i" = some (.int (i - 1)) ∧
        env' "j" = some (.int j)) ((scanJ_sim hE hW (a := a) (i := i - 1) _ _ hf (a.length - 1) _ h ?_ ?_ ?_).mono ?_) ?_
    · exact hV2.arr
    · pysimp [hi1]
    · rfl
    · rintro j o ⟨env', rfl, hA, hj⟩
      refine ⟨env', rfl, ?_, ?_, hj⟩
      · constructor
        · rw [hA _ (by simp)]; exact hV2.arr
        · rw [hA _ (by simp)]; exact hV2.alen
        · rw [hA _ (by simp)]; exact hV2.first
        · rw [hA _ (by simp)]; exact hV2.yield
        · rw [hA _ (by simp)]; exact hV2.true
        · rw [hA _ (by simp)]; exact hV2.list
      · rw [hA _ (by simp)]; pysimp [hi1]
    · rintro j _ ⟨env', rfl, hV', hi', hj'⟩
      simp only [next_run]
      refine .inr (Sim.bind (swap_sim hW h hV' hi' hj' (by omega)) ?_)
      rintro b _ ⟨env'', rfl, hV''⟩
      exact Sim.pure ⟨env'', rfl, hV''⟩
  · simp only [hxy, if_false, decide_false, Bool.false_eq_true]
    pysimp [pure_run, pure_bind, next_run, hi1, hf1, look]
    refine .inr ?_
    by_cases h0 : i - 1 = 0
    · simp only [h0, decide_true, if_true, exec_change, evals_nil, exec_ret, mut_reverse, lift_pure]
      pysimp [look, ha, hy, exec_change, evals_nil, exec_ret, mut_reverse]
      exact Sim.pure rfl
    · simp only [h0, decide_false, if_false, Bool.false_eq_true, exec_nil, pure_bind_M, andThen_next]
      exact Sim.pure ⟨h0, env, rfl, hV0, hi1⟩

include hE hW in
theorem scanI_sim {a : List α} {ys : List (Val K)} (hf : a.length + 1 ≤ W.fuel) : ∀ (f g : ℕ), f ≤ g → ∀ (i : ℤ) (env : Env K) (h : Heap K),
    PVars emb a ys env → env "i" = some (.int i) → (1 ≤ i ∨ (i = 0 ∧ a.length = 1) ∨ i - 1 < -(a.length : ℤ)) →
    Runs (scanI a f i) (whileLoop (fun env => eval W env (.name "True") >>= fun v => lift (truth v)) (exec W permuteLoop1) g env h)
      (Scanned emb ys h)
  | 0, _, _, i, env, h, _, _, _ => .inl rfl
  | f + 1, g + 1, hfg, i, env, h, hV, hi, hpos => by
    rw [scanI_pass, whileLoop]
    have hc : (eval W env (.name "True") >>= fun v => lift (truth v)) = pure true := by
      pysimp [look, hV.true, hW.true]
    rw [hc, pure_bind_M, if_pos rfl, bind_run]
    refine Runs.bind (pass_sim hE hW hf h hV hi (by omega)) ?_
    rintro (_ | _ | b) o ho
    · obtain ⟨h0, env', rfl, hV', hi'⟩ := ho
      exact scanI_sim hf f g (by omega) _ _ h hV' hi' (by omega)
    · cases ho
      exact .inr (Sim.pure rfl)
    · obtain ⟨env', rfl, hV'⟩ := ho
      exact .inr (Sim.pure ⟨env', rfl, hV'⟩)

include hE hW in
theorem permLoop_sim : ∀ (f g : ℕ), f ≤ g → ∀ (a : List α) (ys : List (Val K)) (env : Env K) (h : Heap K), a.length + 1 ≤ W.fuel →
    PVars emb a ys env →
    Runs (permLoop f a) (whileLoop (fun env => eval W env (.name "True") >>= fun v => lift (truth v)) (exec W permuteLoop2) g env h)
      fun r o => o = (.ret (.list (ys ++ r.map fun b => .list (b.map emb))), h)
  | 0, _, _, a, ys, env, h, _, _ => .inl rfl
  | f + 1, g + 1, hfg, a, ys, env, h, hf, hV => by
    rw [permLoop, whileLoop]
    have hc : (eval W env (.name "True") >>= fun v => lift (truth v)) = pure true := by
      pysimp [look, hV.true, hW.true]
    rw [hc, pure_bind_M, if_pos rfl]
    unfold permuteLoop2
    simp only [exec_assign, eval_bin, eval_name, look_of hV.alen, pure_bind_M, eval_int, bin_ii, arith_ii, int_sub, lift_pure, assign_name,
      exec_while, bind_assoc_M]
    rw [bind_run]
    have hV1 : PVars emb a ys (env.set "i" (.int (a.length - ((1 : ℕ) : ℤ)))) := by
      obtain ⟨ha, hl, hf1, hy, ht, hli⟩ := hV
      constructor <;> pysimp [ha, hl, hf1, hy, ht, hli]
    refine Runs.bind ((scanI_sim hE hW hf _ _ hf ((a.length : ℤ) - 1) _ h hV1 rfl (by omega)).keep (scanI_length a _ _)) ?_
    rintro (_ | b) o ⟨ho, hlen⟩
    · cases ho
      exact .inr (Sim.pure (by simp))
    · obtain ⟨env', rfl, hV'⟩ := ho
      replace hlen := hlen b rfl
      simp only [andThen_next, exec_nil, pure_bind_M]
      have := permLoop_sim f g (by omega) b _ env' h (by omega) hV'
      refine (Runs.bind (g := pure) this (R := fun r o => o = (.ret (.list (ys ++ r.map fun b => .list (b.map emb))), h)) ?_).imp id ?_
      · rintro r o rfl
        exact .inr (Sim.pure (by simp))
      · intro hS
        rw [bind_pure] at hS
        exact hS

include hE hW in
theorem permute_sim (a : List α) (h : Heap K) (hf : a.length.factorial ≤ W.fuel) (hf' : a.length + 1 ≤ W.fuel) :
    Runs (permute a) (runFun W permuteFun [.list (a.map emb)] h)
      fun r o => o = (.list (r.map fun b => .list (b.map emb)), h) := by
  have hlen : (pySort a).length = a.length := by rw [pySort, List.length_mergeSort]
  rw [permute, runFun]
  pysimp [permuteFun, permuteBody, look, exec_change, hE.sort, mut_append, hW.list, hW.len, hW.call, list_list]
  have hL : builtin .len [(.list ((pySort a).map emb) : Val K)] = pure (.int ((pySort a).length : ℤ)) := by
    simp [builtin]
  pysimp [hL, exec_while]
  rw [bind_run]
  refine Runs.bind (permLoop_sim hE hW _ _ (by rw [hlen]; exact hf) (pySort a) [.list ((pySort a).map emb)] _ h (by rw [hlen]; exact hf') ?_) ?_
  · constructor <;> pysimp []
    · rfl
    · rfl
  · rintro r _ rfl
    exact .inr (Sim.pure (by simp))
end

/-! ### Integers and numbers -/

theorem inOrder_sort {α : Type} [LT α] [DecidableLT α] (emb : α → Val K) (h : ∀ x y, inOrder (emb x) (emb y) = decide ¬ y < x)
    (l : List α) : (l.map emb).mergeSort inOrder = (pySort l).map emb := by
  rw [pySort, List.map_mergeSort]
  intro x _ y _
  rw [h]

theorem ordered_int : Ordered (fun z : ℤ => (Val.int z : Val K)) where
  lt _ _ := rfl
  sort l := by
    have : (l.map fun z : ℤ => (Val.int z : Val K)).all (fun v => match v with | .int _ => true | _ => false) = true := by simp
    rw [← inOrder_sort _ (fun x y => rfl)]
    simp [mutated]

theorem ordered_flt : Ordered (fun x : K => (Val.flt x : Val K)) where
  lt _ _ := rfl
  sort l := by
    rw [← inOrder_sort _ (fun x y => rfl)]
    simp [mutated]

end Interp.Spec.PySrc
