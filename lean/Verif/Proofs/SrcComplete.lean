import Verif.Proofs.SrcFlow
import Verif.Proofs.CompletePoly

/-!
# The source texts of `complete_poly.py`
-/

namespace Interp.Spec.PySrc
open Interp Interp.CompletePoly

set_option linter.unusedSectionVars false

variable {K : Type} [Add K] [Sub K] [Mul K] [Div K] [Neg K] [Zero K] [One K] [NatCast K] [IntCast K]
  [LT K] [DecidableLT K] [LE K] [DecidableLE K] [BEq K] [IntFloor K] [Interp.Smolyak.Trig K]

/-! ### Ranges -/

theorem rangeStep_rangeN (a b : ℕ) : rangeStep (a : ℤ) (b : ℤ) 1 = (rangeN a b).map fun (i : ℕ) => (i : ℤ) := by
  rw [rangeStep_one, rangeZ, rangeN, List.range'_eq_map_range, List.map_map]
  have : ((b : ℤ) - (a : ℤ)).toNat = b - a := by omega
  rw [this]
  refine List.map_congr_left fun i _ => ?_
  simp

theorem rangeStep_range (b : ℕ) : rangeStep 0 (b : ℤ) 1 = (List.range b).map fun (i : ℕ) => (i : ℤ) := by
  simp [rangeStep]

theorem iterate_ints {α : Type} (l : List α) (f : α → ℤ) :
    iterate (.range (l.map f) : Val K) = pure (l.map fun a => .int (f a)) := by
  rw [iterate_range, List.map_map]; rfl

/-- What is needed to call `range`. -/
structure HasRange (W : World K) : Prop where
  glob : W.glob "range" = pure (.builtin .range)
  call : ∀ args, W.call (.builtin .range) args = builtin .range args

theorem range2 {W : World K} (hW : HasRange W) {env : Env K} {a b : Ex} {i j : ℤ} {h : Heap K} (hr : env "range" = none)
    (ha : eval W env a = pure (.int i)) (hb : eval W env b = pure (.int j)) :
    eval W env (.call (.name "range") (.cons a (.cons b .nil))) h = pure (.range (rangeStep i j 1), h) := by
  pysimp [look, hr, hW.glob, ha, hb, hW.call]
  rfl

theorem range1 {W : World K} (hW : HasRange W) {env : Env K} {b : Ex} {j : ℤ} {h : Heap K} (hr : env "range" = none)
    (hb : eval W env b = pure (.int j)) :
    eval W env (.call (.name "range") (.cons b .nil)) h = pure (.range (rangeStep 0 j 1), h) := by
  pysimp [look, hr, hW.glob, hb, hW.call]
  rfl

theorem eval_bound {W : World K} {env : Env K} {s : String} {v : Val K} (h : env s = some v) :
    eval W env (.name s) = pure v := by
  rw [eval_name, look_of h]

/-! ### `n_complete` -/

theorem nComplete_run (W : World K) (hW : HasRange W) (n d : ℤ) (h : Heap K) :
    runFun W nCompleteFun [.int n, .int d] h = pure (.int (nComplete n d), h) := by
  rw [runFun]
  have hm : nComplete n d = ((rangeZ 0 d).foldl (fun (s : ℤ × ℤ) i =>
    (s.1 + Int.fdiv ((rangeZ 0 (i + 1)).foldl (fun tmp j => tmp * (n + j)) 1) (s.2 * (i + 1)), s.2 * (i + 1))) (1, 1)).1 := rfl
  pysimp [nCompleteFun, nCompleteBody, Nat.cast_one]
  let V : ℤ × ℤ → Vars K := fun s =>
    [("n", some (.int n)), ("range", none), ("out", some (.int s.1)), ("denom", some (.int s.2))]
  let H : ℤ × ℤ → Heap K → Prop := fun s h' => h' = h ∧ 0 < s.2
  have key : ∀ env : Env K, Binds [("n", some (.int n)), ("d", some (.int d)), ("range", none), ("out", some (.int 1)),
      ("denom", some (.int 1))] env → Sim (pyFor (rangeZ 0 d) (fun i (s : ℤ × ℤ) => pure (s.1 + Int.fdiv
        ((rangeZ 0 (i + 1)).foldl (fun tmp j => tmp * (n + j)) 1) (s.2 * (i + 1)), s.2 * (i + 1))) (1, 1) >>= fun s => pure s.1)
      (exec W (.for (.name "i") (.call (.name "range") (.cons (.name "d") .nil)) nCompleteLoop1
        (.simple (.ret (some (.name "out"))) .nil)) env h) (fun a o => o = (.ret (.int a), h)) := by
    intro env hB
    bindings hB
    refine for_flow (V := V) (H := H) (toVal := Val.int) (l := rangeZ 0 d) (range1 hW ?_ (eval_bound (v := .int d) ?_)) ?_ ?_ ?_ ?_ ?_
    · exact hB.2.2.1
    · exact hB.2.1
    · rw [iterate_range, rangeStep_one]
    · intro s; simp only [V]; fresh
    · refine ⟨?_, rfl, by omega⟩
      bound [V, hB]
    · rintro i hi ⟨o, q⟩ env h' ⟨hB, rfl, hq⟩
      have hi0 : 0 ≤ i := by
        simp only [rangeZ, List.mem_map] at hi
        obtain ⟨k, -, rfl⟩ := hi
        simp
      have hpos : 0 < q * (i + 1) := Int.mul_pos hq (by omega)
      simp only [V] at hB
      bindings hB
      have e : ((1 : ℕ) : ℤ) = 1 := rfl
      pysimp [nCompleteLoop1, look, hB, e]
      rw [← pure_bind (m := Py) (List.foldl (fun tmp j => tmp * (n + j)) 1 (rangeZ 0 (i + 1)))
        (fun t => pure (o + t.fdiv (q * (i + 1)), q * (i + 1))), ← pyFor_pure _ (fun j tmp => tmp * (n + j))]
      refine for_flow (V := fun t : ℤ => [("n", some (.int n)), ("range", none), ("out", some (.int o)),
          ("denom", some (.int (q * (i + 1)))), ("tmp", some (.int t))]) (H := fun _ h'' => h'' = h') (toVal := Val.int)
        (l := rangeZ 0 (i + 1)) (range1 hW (j := i + 1) ?_ ?_) ?_ ?_ ?_ ?_ ?_
      · pysimp [hB]
      · pysimp [look, hB, e]
      · rw [iterate_range, rangeStep_one]
      · intro s; fresh
      · refine ⟨?_, rfl⟩
        bound [hB]
      · rintro j - t env' h'' ⟨hB', rfl⟩
        bindings hB'
        pysimp [nCompleteLoop0, look, hB']
        refine Sim.pure ⟨_, rfl, ?_, rfl⟩
        bound [hB']
      · rintro t env' h'' ⟨hB', rfl⟩
        bindings hB'
        have hd : (intOp .dslash t (q * (i + 1)) : Py (Val K)) = pure (.int (t.fdiv (q * (i + 1)))) := by
          simp only [intOp, if_neg hpos.ne']
        pysimp [look, hB', hd]
        refine Sim.pure ⟨_, rfl, ?_, rfl, hpos⟩
        bound [V, hB']
    · rintro s env h' ⟨hB, rfl, -⟩
      simp only [V] at hB
      bindings hB
      pysimp [look, hB]
      exact Sim.pure rfl
  rw [pyFor_pure, pure_bind, ← hm] at key
  rw [bind_run, (key _ (by bound)).eq]
  rfl

/-! ### The nested loops -/

/-- The names of a loop variable, of the exponent and of the factor that belong to it. -/
abbrev Names := String × String × String

def allNames : List Names := [("i1", "c1", "t1"), ("i2", "c2", "t2"), ("i3", "c3", "t3"), ("i4", "c4", "t4"), ("i5", "c5", "t5")]

/-- `for x in range(last, nvar)`, nested. -/
def nestBlock (blk : List Names → Block → Block) : List Names → List Names → String → Block
  | [], _, _ => .nil
  | x :: xs, p, last =>
    .for (.name x.1) (.call (.name "range") (.cons (.name last) (.cons (.name "nvar") .nil)))
      (blk (p ++ [x]) (nestBlock blk xs (p ++ [x]) x.1)) .nil

/-- Loop variables with their values. -/
def idxVars (q : List (Names × ℕ)) : Vars K := q.map fun p => (p.1.1, some (.int (p.2 : ℤ)))

theorem mem_idxVars {q : List (Names × ℕ)} {p : String × Option (Val K)} (h : p ∈ idxVars q) :
    ∃ a ∈ q, p = (a.1.1, some (.int (a.2 : ℤ))) := by
  obtain ⟨a, ha, rfl⟩ := List.mem_map.mp h
  exact ⟨a, ha, rfl⟩

/-- The nested loops of a text run like the nested loops of the model, if what is done in them does. -/
theorem nest_flow {S : Type} {W : World K} (hW : HasRange W) {n : ℕ} {base : S → Vars K} {H : S → Heap K → Prop}
    {blk : List Names → Block → Block} {P : List ℕ → S → Py S}
    (hn : ∀ s, ("nvar", some (.int (n : ℤ))) ∈ base s) (hr : ∀ s, ("range", none) ∈ base s)
    (hb : ∀ s, ∀ p ∈ base s, ∀ x ∈ allNames, p.1 ≠ x.1)
    (hput : ∀ q : List (Names × ℕ), (∀ a ∈ q, a.1 ∈ allNames) → q.Pairwise (fun a b => b.1.1 ≠ a.1.1) → q ≠ [] → ∀ (g : S → Py S) (Q : S → Out K × Heap K → Prop) (rest : Block) s env h,
      At (fun s => idxVars q ++ base s) H s env h →
      (∀ s env h, At (fun s => idxVars q ++ base s) H s env h → Sim (g s) (exec W rest env h) Q) →
      Sim (P (q.reverse.map (·.2)) s >>= g) (exec W (blk (q.reverse.map (·.1)) rest) env h) Q) :
    ∀ (xs : List Names) (q : List (Names × ℕ)) (y : Names) (i : ℕ), (∀ a ∈ q, a.1 ∈ allNames) → (∀ x ∈ xs, x ∈ allNames) →
      (y, i) ∈ q → q.Pairwise (fun a b => b.1.1 ≠ a.1.1) → (∀ a ∈ q, ∀ x ∈ xs, a.1.1 ≠ x.1) → xs.Pairwise (·.1 ≠ ·.1) →
      ∀ (I : S → Env K → Heap K → Prop) (_ : ∀ s env h, At (fun s => idxVars q ++ base s) H s env h → I s env h) s env h,
      At (fun s => idxVars q ++ base s) H s env h →
      Sim (nest n P xs.length (q.reverse.map (·.2)) i s) (exec W (nestBlock blk xs (q.reverse.map (·.1)) y.1) env h) (Next I)
  | [], q, y, i, _, _, _, _, _, _, I, hI, s, env, h, hs => at_end (hI s env h hs)
  | x :: xs, q, y, i, hq, hxs, hy, hqp, hne, hnd, I, hI, s, env, h, hs => by
    have hvar : ∀ p ∈ idxVars q ++ base s, env p.1 = p.2 := hs.1
    have hy' : env y.1 = some (.int (i : ℤ)) := hvar (y.1, _) (List.mem_append_left _ (List.mem_map.mpr ⟨(y, i), hy, rfl⟩))
    have hn' : env "nvar" = some (.int (n : ℤ)) := hvar _ (List.mem_append_right _ (hn s))
    have hr' : env "range" = none := hvar _ (List.mem_append_right _ (hr s))
    rw [List.length_cons, nest, nestBlock]
    refine for_last (V := fun s => idxVars q ++ base s) (H := H) (toVal := fun j : ℕ => .int (j : ℤ)) (l := rangeN i n)
      (range2 hW hr' (eval_bound hy') (eval_bound hn')) ?_ ?_ hs ?_ hI
    · rw [rangeStep_rangeN, iterate_ints]
    · intro s p hp
      rcases List.mem_append.mp hp with hp | hp
      · obtain ⟨a, ha, rfl⟩ := mem_idxVars hp
        exact hne a ha x (by simp)
      · exact hb s p hp x (hxs x (by simp))
    · intro j _ s env h hs
      have hq' : ∀ a ∈ (x, j) :: q, a.1 ∈ allNames := by
        intro a ha
        rcases List.mem_cons.mp ha with rfl | ha
        · exact hxs _ (by simp)
        · exact hq a ha
      have h1 : q.reverse.map (·.2) ++ [j] = ((x, j) :: q).reverse.map (·.2) := by simp
      have h2 : q.reverse.map (·.1) ++ [x] = ((x, j) :: q).reverse.map (·.1) := by simp
      rw [h1, h2]
      have hqp' : ((x, j) :: q).Pairwise (fun a b => b.1.1 ≠ a.1.1) :=
        List.pairwise_cons.mpr ⟨fun a ha => hne a ha x (by simp), hqp⟩
      refine hput ((x, j) :: q) hq' hqp' (by simp) _ _ _ s env h hs ?_
      intro s env h hs
      refine nest_flow hW hn hr hb hput xs ((x, j) :: q) x j hq' (fun z hz => hxs z (by simp [hz])) (by simp) hqp' ?_
        (List.pairwise_cons.mp hnd).2 _ ?_ s env h hs
      · intro a ha z hz
        rcases List.mem_cons.mp ha with rfl | ha
        · exact (List.pairwise_cons.mp hnd).1 z hz
        · exact hne a ha z (by simp [hz])
      · intro s env h hs
        exact ⟨hs.1.tail, hs.2⟩

/-! ### Products -/

/-- `z[i1] * z[i2] * ...`. -/
def prodEx (zi : String → Ex) : List Names → Ex
  | [] => .int 1
  | x :: xs => xs.foldl (fun e y => .bin .star e (zi y.1)) (zi x.1)

theorem prod_fold {W : World K} {env : Env K} {h : Heap K} {zi : String → Ex} {zr : ℕ → Py K} :
    ∀ (q : List (Names × ℕ)) (e : Ex) (x : Py K), (∀ a ∈ q, eval W env (zi a.1.1) h = zr a.2 >>= fun v => pure (.flt v, h)) →
      (eval W env e h = x >>= fun v => pure (.flt v, h)) →
      eval W env ((q.map (·.1)).foldl (fun e y => .bin .star e (zi y.1)) e) h =
        (x >>= fun v => (q.map (·.2)).foldlM (fun acc j => do
          let w ← zr j
          pure (acc * w)) v) >>= fun v => pure (.flt v, h)
  | [], e, x, _, he => by simp [he]
  | a :: q, e, x, hq, he => by
    rw [List.map_cons, List.foldl_cons, prod_fold q (.bin .star e (zi a.1.1)) (x >>= fun v => zr a.2 >>= fun w => pure (v * w))
      (fun b hb => hq b (by simp [hb]))]
    · simp [List.map_cons, List.foldlM_cons]
    · rw [eval_bin, bind_run, he, bind_assoc, bind_assoc]
      congr 1; funext v
      rw [pure_bind, bind_run, hq a (by simp), bind_assoc, bind_assoc]
      congr 1

theorem prod_eval {W : World K} {env : Env K} {h : Heap K} {zi : String → Ex} {zr : ℕ → Py K} (q : List (Names × ℕ)) (hne : q ≠ [])
    (hq : ∀ a ∈ q, eval W env (zi a.1.1) h = zr a.2 >>= fun v => pure (.flt v, h)) :
    eval W env (prodEx zi (q.map (·.1))) h = prodOf zr (q.map (·.2)) >>= fun v => pure (.flt v, h) := by
  rcases q with _ | ⟨a, q⟩
  · exact absurd rfl hne
  · exact prod_fold q _ _ (fun b hb => hq b (by simp [hb])) (hq a (by simp))

/-! ### Storing a value -/

section
variable {W : World K} {rz ro n nobs : ℕ} {z : NdArray K} {h0 : Heap K}

/-- The variables of the functions for vectors. -/
def vecVars (rz ro n : ℕ) (s : ℕ × NdArray K) : Vars K :=
  [("ix", some (.int (s.1 : ℤ))), ("z", some (.arr rz [none])), ("out", some (.arr ro [none])), ("nvar", some (.int (n : ℤ))),
    ("range", none)]

/-- The variables of the functions for matrices. -/
def matVars (rz ro n nobs : ℕ) (s : ℕ × NdArray K) : Vars K :=
  [("ix", some (.int (s.1 : ℤ))), ("z", some (.arr rz [none, none])), ("out", some (.arr ro [none, none])),
    ("nvar", some (.int (n : ℤ))), ("nobs", some (.int (nobs : ℤ))), ("range", none)]

/-- The heap with the array that is filled. -/
def heapOf (h0 : Heap K) (ro : ℕ) (s : ℕ × NdArray K) (h : Heap K) : Prop := h = h0.set ro s.2

theorem heap_out (hro : ro < h0.length) (A : NdArray K) : (h0.set ro A)[ro]? = some A := by
  simp [hro]
theorem heap_z (hz : h0[rz]? = some z) (hne : rz ≠ ro) (A : NdArray K) : (h0.set ro A)[rz]? = some z := by
  rw [List.getElem?_set_ne hne.symm, hz]

theorem Binds.left {V V' : Vars K} {env : Env K} (h : Binds (V ++ V') env) : Binds V env :=
  fun p hp => h p (List.mem_append_left _ hp)
theorem Binds.right {V V' : Vars K} {env : Env K} (h : Binds (V ++ V') env) : Binds V' env :=
  fun p hp => h p (List.mem_append_right _ hp)
theorem Binds.append {V V' : Vars K} {env : Env K} (h : Binds V env) (h' : Binds V' env) : Binds (V ++ V') env := by
  intro p hp
  rcases List.mem_append.mp hp with hp | hp
  · exact h p hp
  · exact h' p hp

/-- `ix += 1; out[ix] = e`. -/
theorem putVec_flow (hro : ro < h0.length) {α : Type} {V : Vars K} (hV : ∀ p ∈ V, p.1 ≠ "ix") {e : Ex} {v : Py K}
    (he : ∀ s env h, At (fun s => V ++ vecVars rz ro n s) (heapOf h0 ro) s env h → eval W env e h = v >>= fun x => pure (.flt x, h))
    {g : ℕ × NdArray K → Py α} {Q : α → Out K × Heap K → Prop} {rest : Block} {s : ℕ × NdArray K} {env : Env K} {h : Heap K}
    (hs : At (fun s => V ++ vecVars rz ro n s) (heapOf h0 ro) s env h)
    (hg : ∀ s env h, At (fun s => V ++ vecVars rz ro n s) (heapOf h0 ro) s env h → Sim (g s) (exec W rest env h) Q) :
    Sim (putVec v s >>= g) (exec W (.simple (.aug .plus (.name "ix") (.int 1))
      (.simple (.assign (.index (.name "out") (.cons (.name "ix") .nil)) e) rest)) env h) Q := by
  have hB := hs.1.right
  simp only [vecVars] at hB
  bindings hB
  rw [exec_augName]
  have e1 : (s.1 : ℤ) + ((1 : ℕ) : ℤ) = ((s.1 + 1 : ℕ) : ℤ) := by push_cast; rfl
  pysimp [look, hB, e1]
  have hA : At (fun s => V ++ vecVars rz ro n s) (heapOf h0 ro) (s.1 + 1, s.2) (env.set "ix" (.int ((s.1 + 1 : ℕ) : ℤ))) h := by
    refine ⟨Binds.append (hs.1.left.set hV) ?_, hs.2⟩
    simp only [vecVars]; bound [hB]
  rw [step' (he _ _ _ hA), putVec]
  simp only [bind_assoc, pure_bind]
  refine Sim.bind_same fun x => ?_
  pysimp [look, hB]
  have hh : h = h0.set ro s.2 := hs.2
  rw [step' (wrElem_run (A := s.2) (by rw [hh]; exact heap_out hro _) _ _)]
  refine Sim.bind_same fun A => ?_
  refine hg (s.1 + 1, A) _ _ ⟨hA.1, ?_⟩
  simp only [heapOf, hh, List.set_set]

/-- `ix += 1` and a loop over the observations. -/
theorem putMat_flow (hW : HasRange W) {α : Type} {V : Vars K} (hV : ∀ p ∈ V, p.1 ≠ "ix" ∧ p.1 ≠ "k")
    {B : Block} {v : ℕ → Py K}
    (hB : ∀ k < nobs, ∀ ix out env h, At (fun s => ("k", some (.int (k : ℤ))) :: (V ++ matVars rz ro n nobs s)) (heapOf h0 ro)
      (ix, out) env h → Sim (v k >>= fun x => out.write [(ix : ℤ), (k : ℤ)] x) (exec W B env h)
        (Next fun out => At (fun s => V ++ matVars rz ro n nobs s) (heapOf h0 ro) (ix, out)))
    {g : ℕ × NdArray K → Py α} {Q : α → Out K × Heap K → Prop} {rest : Block} {s : ℕ × NdArray K} {env : Env K} {h : Heap K}
    (hs : At (fun s => V ++ matVars rz ro n nobs s) (heapOf h0 ro) s env h)
    (hg : ∀ s env h, At (fun s => V ++ matVars rz ro n nobs s) (heapOf h0 ro) s env h → Sim (g s) (exec W rest env h) Q) :
    Sim (putMat nobs v s >>= g) (exec W (.simple (.aug .plus (.name "ix") (.int 1))
      (.for (.name "k") (.call (.name "range") (.cons (.name "nobs") .nil)) B rest)) env h) Q := by
  have hB' := hs.1.right
  simp only [matVars] at hB'
  bindings hB'
  rw [exec_augName]
  have e1 : (s.1 : ℤ) + ((1 : ℕ) : ℤ) = ((s.1 + 1 : ℕ) : ℤ) := by push_cast; rfl
  pysimp [look, hB', e1]
  have hA : At (fun s => V ++ matVars rz ro n nobs s) (heapOf h0 ro) (s.1 + 1, s.2) (env.set "ix" (.int ((s.1 + 1 : ℕ) : ℤ))) h := by
    refine ⟨Binds.append (hs.1.left.set fun p hp => (hV p hp).1) ?_, hs.2⟩
    simp only [matVars]; bound [hB']
  rw [putMat]
  simp only [bind_assoc, pure_bind]
  refine for_flow (V := fun out => V ++ matVars rz ro n nobs (s.1 + 1, out)) (H := fun out => heapOf h0 ro (s.1 + 1, out))
    (toVal := fun k : ℕ => .int (k : ℤ)) (l := List.range nobs) (range1 hW ?_ (eval_bound (v := .int (nobs : ℤ)) ?_)) ?_ ?_ hA ?_ ?_
  · pysimp [hB']
  · pysimp [hB']
  · rw [rangeStep_range, iterate_ints]
  · intro out p hp
    rcases List.mem_append.mp hp with hp | hp
    · exact (hV p hp).2
    · exact (show ∀ p ∈ matVars rz ro n nobs (s.1 + 1, out), p.1 ≠ "k" by simp only [matVars]; fresh) p hp
  · intro k hk out env h hs
    exact hB k (List.mem_range.mp hk) _ _ _ _ hs
  · intro out env h hs
    exact hg (s.1 + 1, out) _ _ hs

/-- The end of a function: nothing is returned, and the array has been filled. -/
def Filled (h0 : Heap K) (ro : ℕ) (out : NdArray K) (o : Out K × Heap K) : Prop :=
  (o.1 = .ret .none ∨ ∃ env, o.1 = .next env) ∧ o.2 = h0.set ro out

/-- The rows after the first ones: L145-197 and the corresponding parts of the other functions. -/
def tailBlock (L2 L3 L4 L5 : Block) : Block :=
  .ifte (.chain (.name "d") (.link .eqeq (.int 1) .nil)) (
    .simple (.ret none) <|
    .nil) (
    .nil) <|
  .simple (.assign (.name "ix") (.name "nvar")) <|
  .ifte (.chain (.name "d") (.link .eqeq (.int 2) .nil)) (
    .for (.name "i1") (.call (.name "range") (.cons (.name "nvar") .nil)) L2 <|
    .simple (.ret none) <|
    .nil) (
    .nil) <|
  .ifte (.chain (.name "d") (.link .eqeq (.int 3) .nil)) (
    .for (.name "i1") (.call (.name "range") (.cons (.name "nvar") .nil)) L3 <|
    .simple (.ret none) <|
    .nil) (
    .nil) <|
  .ifte (.chain (.name "d") (.link .eqeq (.int 4) .nil)) (
    .for (.name "i1") (.call (.name "range") (.cons (.name "nvar") .nil)) L4 <|
    .simple (.ret none) <|
    .nil) (
    .nil) <|
  .ifte (.chain (.name "d") (.link .eqeq (.int 5) .nil)) (
    .for (.name "i1") (.call (.name "range") (.cons (.name "nvar") .nil)) L5 <|
    .simple (.ret none) <|
    .nil) (
    .nil) <|
  .nil

/-- The same of the model. -/
def tailModel (F2 F3 F4 F5 : ℕ → ℕ × NdArray K → Py (ℕ × NdArray K)) (d : ℤ) (n : ℕ) (out : NdArray K) : Py (NdArray K) := do
  if d = 1 then return out
  let s := (n, out)
  if d = 2 then
    let s ← pyFor (List.range n) F2 s
    return s.2
  if d = 3 then
    let s ← pyFor (List.range n) F3 s
    return s.2
  if d = 4 then
    let s ← pyFor (List.range n) F4 s
    return s.2
  if d = 5 then
    let s ← pyFor (List.range n) F5 s
    return s.2
  return out

theorem rows_flow (hW : HasRange W) {C : Vars K} (hn : ("nvar", some (.int (n : ℤ))) ∈ C) (hr : ("range", none) ∈ C)
    (hC : ∀ p ∈ C, p.1 ≠ "ix" ∧ p.1 ≠ "i1") {L : Block} {F : ℕ → ℕ × NdArray K → Py (ℕ × NdArray K)}
    (hL : ∀ (i : ℕ) s env h, At (fun s => ("i1", some (.int (i : ℤ))) :: ("ix", some (.int (s.1 : ℤ))) :: C) (heapOf h0 ro) s env h →
      Sim (F i s) (exec W L env h) (Next (At (fun s => ("ix", some (.int (s.1 : ℤ))) :: C) (heapOf h0 ro))))
    {out : NdArray K} {env : Env K} (hs : Binds (("ix", some (.int (n : ℤ))) :: C) env) {rest : Env K → M K (Out K)} :
    Sim (pyFor (List.range n) F (n, out) >>= fun s => pure s.2)
      ((exec W (.for (.name "i1") (.call (.name "range") (.cons (.name "nvar") .nil)) L (.simple (.ret none) .nil)) env >>=
        fun o => andThen o rest) (h0.set ro out)) (Filled h0 ro) := by
  rw [bind_run, ← bind_pure (pyFor (List.range n) F (n, out) >>= fun s => pure s.2)]
  refine Sim.bind (Q := fun out o => o.1 = .ret .none ∧ o.2 = h0.set ro out) ?_ ?_
  · refine for_flow (V := fun s => ("ix", some (.int (s.1 : ℤ))) :: C) (H := heapOf h0 ro) (toVal := fun k : ℕ => .int (k : ℤ))
      (l := List.range n) (range1 hW ?_ (eval_bound (v := .int (n : ℤ)) ?_)) ?_ ?_ ⟨hs, rfl⟩ ?_ ?_
    · exact hs _ (List.mem_cons_of_mem _ hr)
    · exact hs _ (List.mem_cons_of_mem _ hn)
    · rw [rangeStep_range, iterate_ints]
    · intro s p hp
      rcases List.mem_cons.mp hp with rfl | hp
      · simp
      · exact (hC p hp).2
    · intro i _ s env h hs
      exact hL i s env h hs
    · intro s env h hs
      exact Sim.pure ⟨rfl, hs.2⟩
  · rintro a ⟨o, h⟩ ⟨rfl, rfl⟩
    exact Sim.pure ⟨.inl rfl, rfl⟩

theorem if_degree {env : Env K} {d : ℤ} (hd : env "d" = some (.int d)) (k : ℕ) (a b rest : Block) :
    exec W (.ifte (.chain (.name "d") (.link .eqeq (.int k) .nil)) a b rest) env =
      if d = (k : ℤ) then exec W a env >>= fun o => andThen o (exec W rest) else exec W b env >>= fun o => andThen o (exec W rest) := by
  by_cases h : d = (k : ℤ)
  · rw [if_pos h]
    pysimp [look, hd, h, decide_true]
  · rw [if_neg h]
    pysimp [look, hd, h, decide_false, Bool.false_eq_true]

theorem tail_flow (hW : HasRange W) {C : Vars K} (hn : ("nvar", some (.int (n : ℤ))) ∈ C) (hr : ("range", none) ∈ C)
    (hC : ∀ p ∈ C, p.1 ≠ "ix" ∧ p.1 ≠ "i1") {L2 L3 L4 L5 : Block} {F2 F3 F4 F5 : ℕ → ℕ × NdArray K → Py (ℕ × NdArray K)}
    (hL : ∀ p ∈ [(F2, L2), (F3, L3), (F4, L4), (F5, L5)], ∀ (i : ℕ) s env h,
      At (fun s => ("i1", some (.int (i : ℤ))) :: ("ix", some (.int (s.1 : ℤ))) :: C) (heapOf h0 ro) s env h →
      Sim (p.1 i s) (exec W p.2 env h) (Next (At (fun s => ("ix", some (.int (s.1 : ℤ))) :: C) (heapOf h0 ro))))
    {d : ℤ} {out : NdArray K} {env : Env K} (hd : env "d" = some (.int d)) (hs : Binds C env) :
    Sim (tailModel F2 F3 F4 F5 d n out) (exec W (tailBlock L2 L3 L4 L5) env (h0.set ro out)) (Filled h0 ro) := by
  have hB : Binds (("ix", some (.int (n : ℤ))) :: C) (env.set "ix" (.int (n : ℤ))) := hs.push fun p hp => (hC p hp).1
  have hnv : env "nvar" = some (.int (n : ℤ)) := hs _ hn
  have hd' : (env.set "ix" (.int (n : ℤ))) "d" = some (.int d) := by pysimp [hd]
  unfold tailBlock tailModel
  rw [if_degree hd]
  by_cases h1 : d = 1
  · rw [if_pos h1, if_pos (show d = ((1 : ℕ) : ℤ) from h1)]
    exact Sim.pure ⟨.inl rfl, rfl⟩
  rw [if_neg h1, if_neg (show ¬ d = ((1 : ℕ) : ℤ) from h1), exec_nil, pure_bind_M, andThen_next, exec_assign, eval_bound hnv,
    pure_bind_M, assign_name, pure_bind_M, if_degree hd']
  dsimp only
  by_cases h2 : d = 2
  · rw [if_pos h2, if_pos (show d = ((2 : ℕ) : ℤ) from h2)]
    exact rows_flow hW hn hr hC (hL (F2, L2) (by simp)) hB
  rw [if_neg h2, if_neg (show ¬ d = ((2 : ℕ) : ℤ) from h2), exec_nil, pure_bind_M, andThen_next, if_degree hd']
  by_cases h3 : d = 3
  · rw [if_pos h3, if_pos (show d = ((3 : ℕ) : ℤ) from h3)]
    exact rows_flow hW hn hr hC (hL (F3, L3) (by simp)) hB
  rw [if_neg h3, if_neg (show ¬ d = ((3 : ℕ) : ℤ) from h3), exec_nil, pure_bind_M, andThen_next, if_degree hd']
  by_cases h4 : d = 4
  · rw [if_pos h4, if_pos (show d = ((4 : ℕ) : ℤ) from h4)]
    exact rows_flow hW hn hr hC (hL (F4, L4) (by simp)) hB
  rw [if_neg h4, if_neg (show ¬ d = ((4 : ℕ) : ℤ) from h4), exec_nil, pure_bind_M, andThen_next, if_degree hd']
  by_cases h5 : d = 5
  · rw [if_pos h5, if_pos (show d = ((5 : ℕ) : ℤ) from h5)]
    exact rows_flow hW hn hr hC (hL (F5, L5) (by simp)) hB
  rw [if_neg h5, if_neg (show ¬ d = ((5 : ℕ) : ℤ) from h5), exec_nil, pure_bind_M, andThen_next]
  exact Sim.pure ⟨.inr ⟨_, rfl⟩, rfl⟩

/-! ### `_complete_poly_impl_vec` -/

section
variable [Pow K ℕ]

theorem implVec_tail (z : NdArray K) (d : ℤ) (out : NdArray K) :
    implVec z d out = (do
      let out ← out.write [0] 1
      let out ← if 1 ≤ d then
          pyFor (rangeN 1 (z.shape.getD 0 0 + 1)) (fun i out => do
            let v ← z.read [(i : ℤ) - 1]
            out.write [(i : ℤ)] v) out
        else pure out
      tailModel (fun i => nest (z.shape.getD 0 0) (fun l => putVec (prodOf (rdVec z) l)) 1 [i] i)
        (fun i => nest (z.shape.getD 0 0) (fun l => putVec (prodOf (rdVec z) l)) 2 [i] i)
        (fun i => nest (z.shape.getD 0 0) (fun l => putVec (prodOf (rdVec z) l)) 3 [i] i)
        (fun i => nest (z.shape.getD 0 0) (fun l => putVec (prodOf (rdVec z) l)) 4 [i] i) d (z.shape.getD 0 0) out) := by
  rw [← nest2, ← nest3, ← nest4, ← nest5]
  rfl

end

/-- `z[x]`. -/
abbrev zVec (x : String) : Ex := .index (.name "z") (.cons (.name x) .nil)

/-- `ix += 1; out[ix] = z[i1] * ...`. -/
abbrev putVecBlock (xs : List Names) (rest : Block) : Block :=
  .simple (.aug .plus (.name "ix") (.int 1)) (.simple (.assign (.index (.name "out") (.cons (.name "ix") .nil)) (prodEx zVec xs)) rest)

theorem allNames_ne {x : Names} (hx : x ∈ allNames) {y : String} (hy : ∀ x ∈ allNames, x.1 ≠ y ∧ x.2.1 ≠ y ∧ x.2.2 ≠ y) :
    x.1 ≠ y ∧ x.2.1 ≠ y ∧ x.2.2 ≠ y := hy x hx

theorem idxVars_ne {q : List (Names × ℕ)} (hq : ∀ a ∈ q, a.1 ∈ allNames) {y : String} (hy : ∀ x ∈ allNames, x.1 ≠ y) :
    ∀ p ∈ (idxVars q : Vars K), p.1 ≠ y := by
  intro p hp
  obtain ⟨a, ha, rfl⟩ := mem_idxVars hp
  exact hy _ (hq a ha)

theorem rdVec_eval (hz : h0[rz]? = some z) (hne : rz ≠ ro) {x : String} {i : ℕ} {s : ℕ × NdArray K} {env : Env K} {h : Heap K}
    (hzv : env "z" = some (.arr rz [none])) (hx : env x = some (.int (i : ℤ))) (hh : heapOf h0 ro s h) :
    eval W env (zVec x) h = rdVec z i >>= fun v => pure (.flt v, h) := by
  pysimp [look, hzv, hx]
  rw [rdElem_run (A := z) (by rw [show h = _ from hh]; exact heap_z hz hne _), rdVec]

theorem vec_nest (hW : HasRange W) (hro : ro < h0.length) (hz : h0[rz]? = some z) (hne : rz ≠ ro) (xs : List Names)
    (hxs : ∀ x ∈ xs, x ∈ allNames) (h1 : ∀ x ∈ xs, "i1" ≠ x.1) (hp : xs.Pairwise (·.1 ≠ ·.1)) (i : ℕ) (s : ℕ × NdArray K) (env : Env K) (h : Heap K)
    (hs : At (fun s => ("i1", some (.int (i : ℤ))) :: vecVars rz ro n s) (heapOf h0 ro) s env h) :
    Sim (nest n (fun l => putVec (prodOf (rdVec z) l)) xs.length [i] i s)
      (exec W (nestBlock putVecBlock xs [("i1", "c1", "t1")] "i1") env h) (Next (At (vecVars rz ro n) (heapOf h0 ro))) := by
  refine nest_flow (base := vecVars rz ro n) (H := heapOf h0 ro) hW (fun s => by simp [vecVars]) (fun s => by simp [vecVars])
    ?_ ?_ xs [(("i1", "c1", "t1"), i)] ("i1", "c1", "t1") i ?_ hxs (by simp) (by simp) ?_ hp _ ?_ s env h hs
  · intro s; simp only [vecVars, allNames]; fresh
  · intro q hq _ hq0 g Q rest s env h hs hg
    refine putVec_flow hro (idxVars_ne hq (by simp only [allNames]; fresh)) ?_ hs hg
    intro s env h hs
    refine prod_eval q.reverse (by simpa using hq0) fun a ha => ?_
    have hB := hs.1.right
    simp only [vecVars] at hB
    bindings hB
    refine rdVec_eval hz hne hB.2.1 ?_ hs.2
    exact hs.1 (a.1.1, _) (List.mem_append_left _ (List.mem_map.mpr ⟨a, by simpa using ha, rfl⟩))
  · simp [allNames]
  · simpa using h1
  · intro s env h hs
    exact ⟨hs.1.tail, hs.2⟩

def names2 : List Names := [("i2", "c2", "t2")]
def names3 : List Names := names2 ++ [("i3", "c3", "t3")]
def names4 : List Names := names3 ++ [("i4", "c4", "t4")]
def names5 : List Names := names4 ++ [("i5", "c5", "t5")]

/-- The lists of names are good. -/
theorem names_good : ∀ xs ∈ [names2, names3, names4, names5],
    (∀ x ∈ xs, x ∈ allNames) ∧ (∀ x ∈ xs, "i1" ≠ x.1) ∧ xs.Pairwise (·.1 ≠ ·.1) := by decide

/-- The end of a call. -/
theorem run_filled {F : FunDef} {args : List (Val K)} {x : Py (NdArray K)} {env : Env K}
    (hp : params W F.params args = pure env)
    (hx : Sim x (exec W F.body env h0) (Filled h0 ro)) :
    Sim x (runFun W F args h0) (fun A o => o = (.none, h0.set ro A)) := by
  rw [runFun, hp, pure_bind_M, bind_run]
  refine Sim.bind_right hx ?_
  rintro A ⟨o, h⟩ ⟨h1, rfl⟩
  rcases h1 with rfl | ⟨env, rfl⟩ <;> exact Sim.pure rfl

theorem implVec_run [Pow K ℕ] (L : LitLaws K) (hW : HasRange W) {out : NdArray K} (hro : h0[ro]? = some out) (hz : h0[rz]? = some z)
    (hne : rz ≠ ro) (hsh : z.shape = [n]) (d : ℤ) :
    Sim (implVec z d out) (runFun W implVecFun [.arr rz [none], .int d, .arr ro [none]] h0)
      (fun A o => o = (.none, h0.set ro A)) := by
  have key : ∀ env : Env K, Binds [("z", some (.arr rz [none])), ("d", some (.int d)), ("out", some (.arr ro [none])), ("range", none)] env →
      Sim (implVec z d out) (exec W implVecBody env h0) (Filled h0 ro) := by
    intro env hB
    bindings hB
    have hlen : ro < h0.length := by
      by_contra hc
      rw [List.getElem?_eq_none (by omega)] at hro
      cases hro
    have hn : z.shape.getD 0 0 = n := by rw [hsh]; rfl
    rw [implVec_tail, hn, show implVecBody = .simple (.expr (.str "out and z should be vectors")) (
      .simple (.assign (.name "nvar") (.index (.attr (.name "z") "shape") (.cons (.int 0) .nil))) (
      .simple (.assign (.index (.name "out") (.cons (.int 0) .nil)) (.float 1 0)) (
      .ifte (.chain (.name "d") (.link .ge (.int 1) .nil)) (
        .for (.name "i") (.call (.name "range") (.cons (.int 1) (.cons (.bin .plus (.name "nvar") (.int 1)) .nil))) implVecLoop0 .nil) .nil (
      tailBlock (nestBlock putVecBlock names2 [("i1", "c1", "t1")] "i1") (nestBlock putVecBlock names3 [("i1", "c1", "t1")] "i1")
        (nestBlock putVecBlock names4 [("i1", "c1", "t1")] "i1") (nestBlock putVecBlock names5 [("i1", "c1", "t1")] "i1"))))) from rfl]
    have hv : viewShape [none] z.shape = [n] := by rw [hsh]; rfl
    pysimp [look, hB]
    rw [step (shape_run hz), hv]
    pysimp [look, hB, List.map_cons, List.map_nil, decimal, L.one]
    rw [step' (wrElem_run hro _ _)]
    refine Sim.bind_same fun out => ?_
    dsimp only
    let C : Vars K := [("z", some (.arr rz [none])), ("out", some (.arr ro [none])), ("nvar", some (.int (n : ℤ))), ("range", none)]
    have tail : ∀ (out : NdArray K) (env : Env K), Binds (("d", some (.int d)) :: C) env →
        Sim (tailModel (fun i => nest n (fun l => putVec (prodOf (rdVec z) l)) 1 [i] i)
          (fun i => nest n (fun l => putVec (prodOf (rdVec z) l)) 2 [i] i) (fun i => nest n (fun l => putVec (prodOf (rdVec z) l)) 3 [i] i)
          (fun i => nest n (fun l => putVec (prodOf (rdVec z) l)) 4 [i] i) d n out)
          (exec W (tailBlock (nestBlock putVecBlock names2 [("i1", "c1", "t1")] "i1") (nestBlock putVecBlock names3 [("i1", "c1", "t1")] "i1")
            (nestBlock putVecBlock names4 [("i1", "c1", "t1")] "i1") (nestBlock putVecBlock names5 [("i1", "c1", "t1")] "i1")) env (h0.set ro out))
          (Filled h0 ro) := by
      intro out env hB
      refine tail_flow hW (C := C) (by simp [C]) (by simp [C]) (by simp only [C]; fresh) ?_ (hB ("d", _) (by simp)) hB.tail
      intro p hp i s env h hs
      have hg := names_good
      simp only [List.forall_mem_cons] at hg
      simp only [List.mem_cons, List.not_mem_nil, or_false] at hp
      rcases hp with rfl | rfl | rfl | rfl
      · exact vec_nest hW hlen hz hne names2 hg.1.1 hg.1.2.1 hg.1.2.2 i s env h hs
      · exact vec_nest hW hlen hz hne names3 hg.2.1.1 hg.2.1.2.1 hg.2.1.2.2 i s env h hs
      · exact vec_nest hW hlen hz hne names4 hg.2.2.1.1 hg.2.2.1.2.1 hg.2.2.1.2.2 i s env h hs
      · exact vec_nest hW hlen hz hne names5 hg.2.2.2.1.1 hg.2.2.2.1.2.1 hg.2.2.2.1.2.2 i s env h hs
    have hB1 : Binds (("d", some (.int d)) :: C) (env.set "nvar" (.int (n : ℤ))) := by
      simp only [C]; bound [hB]
    generalize env.set "nvar" (.int (n : ℤ)) = env1 at hB1 ⊢
    by_cases h1 : 1 ≤ d
    · rw [if_pos h1, if_pos (by simpa using h1), bind_run]
      refine Sim.bind (Q := Next (At (fun _ => ("d", some (.int d)) :: C) (fun out h => h = h0.set ro out))) ?_ ?_
      · have hB2 := hB1
        simp only [C] at hB2
        bindings hB2
        refine for_last (V := fun _ => ("d", some (.int d)) :: C) (H := fun out h => h = h0.set ro out)
          (toVal := fun i : ℕ => .int (i : ℤ)) (l := rangeN 1 (n + 1)) (range2 hW (i := ((1 : ℕ) : ℤ)) (j := ((n + 1 : ℕ) : ℤ)) ?_ rfl ?_) ?_ ?_
          ⟨hB1, rfl⟩ ?_ (fun _ _ _ h => h)
        · exact hB2.2.2.2.2
        · pysimp [look, hB2]; push_cast; rfl
        · rw [rangeStep_rangeN, iterate_ints]
        · intro s; simp only [C]; fresh
        · rintro i - out env h ⟨hB, rfl⟩
          have hB' := hB.tail
          simp only [C] at hB
          bindings hB
          rw [implVecLoop0]
          pysimp [look, hB]
          rw [step' (rdElem_run (heap_z hz hne _) _), show (i : ℤ) - ((1 : ℕ) : ℤ) = (i : ℤ) - 1 from rfl]
          refine Sim.bind_same fun x => ?_
          dsimp only
          pysimp
          rw [← bind_pure (out.write _ _), step' (wrElem_run (heap_out hlen _) _ _)]
          refine Sim.bind_same fun A => ?_
          refine Sim.pure ⟨_, rfl, hB', ?_⟩
          simp only [List.set_set]
      · rintro out ⟨o, h⟩ ⟨env, rfl, hB, rfl⟩
        exact tail out env hB
    · rw [if_neg h1, if_neg (by simpa using h1)]
      exact tail out env1 hB1
  refine run_filled (env := ?_) ?_ (key _ ?_)
  · exact Env.set (Env.set (Env.set (fun _ => none) "out" (.arr ro [none])) "d" (.int d)) "z" (.arr rz [none])
  · pysimp [implVecFun]
  · bound

/-! ### `_complete_poly_impl` -/

section
variable [Pow K ℕ]

theorem implMat_tail (z : NdArray K) (d : ℤ) (out : NdArray K) :
    implMat z d out = (do
      let out ← pyFor (List.range (z.shape.getD 1 0)) (fun k out => out.write [0, (k : ℤ)] 1) out
      let out ← if 1 ≤ d then
          pyFor (rangeN 1 (z.shape.getD 0 0 + 1)) (fun i => pyFor (List.range (z.shape.getD 1 0)) fun k out => do
            let v ← z.read [(i : ℤ) - 1, (k : ℤ)]
            out.write [(i : ℤ), (k : ℤ)] v) out
        else pure out
      tailModel
        (fun i => nest (z.shape.getD 0 0) (fun l => putMat (z.shape.getD 1 0) (fun k => prodOf (rdMat z k) l)) 1 [i] i)
        (fun i => nest (z.shape.getD 0 0) (fun l => putMat (z.shape.getD 1 0) (fun k => prodOf (rdMat z k) l)) 2 [i] i)
        (fun i => nest (z.shape.getD 0 0) (fun l => putMat (z.shape.getD 1 0) (fun k => prodOf (rdMat z k) l)) 3 [i] i)
        (fun i => nest (z.shape.getD 0 0) (fun l => putMat (z.shape.getD 1 0) (fun k => prodOf (rdMat z k) l)) 4 [i] i)
        d (z.shape.getD 0 0) out) := by
  rw [← nest2, ← nest3, ← nest4, ← nest5]
  rfl

end

/-- `z[x, k]`. -/
abbrev zMat (x : String) : Ex := .index (.name "z") (.cons (.name x) (.cons (.name "k") .nil))

/-- `ix += 1` and a loop over the observations. -/
abbrev putMatBlock (B : List Names → Block) (xs : List Names) (rest : Block) : Block :=
  .simple (.aug .plus (.name "ix") (.int 1))
    (.for (.name "k") (.call (.name "range") (.cons (.name "nobs") .nil)) (B xs) rest)

/-- `out[ix, k] = z[i1, k] * ...`. -/
abbrev prodBlock (xs : List Names) : Block :=
  .simple (.assign (.index (.name "out") (.cons (.name "ix") (.cons (.name "k") .nil))) (prodEx zMat xs)) .nil

theorem rdMat_eval (hz : h0[rz]? = some z) (hne : rz ≠ ro) {x : String} {i k : ℕ} {s : ℕ × NdArray K} {env : Env K} {h : Heap K}
    (hzv : env "z" = some (.arr rz [none, none])) (hx : env x = some (.int (i : ℤ))) (hk : env "k" = some (.int (k : ℤ)))
    (hh : heapOf h0 ro s h) :
    eval W env (zMat x) h = rdMat z k i >>= fun v => pure (.flt v, h) := by
  pysimp [look, hzv, hx, hk]
  rw [rdElem_run (A := z) (by rw [show h = _ from hh]; exact heap_z hz hne _), rdMat]

/-- The nested loops of the functions for matrices. -/
theorem mat_nest (hW : HasRange W) {B : List Names → Block} {v : List ℕ → ℕ → Py K} {E : Vars K}
    (hE : ∀ p ∈ E, p.1 ≠ "ix" ∧ p.1 ≠ "k" ∧ ∀ x ∈ allNames, p.1 ≠ x.1)
    (hB : ∀ q : List (Names × ℕ), (∀ a ∈ q, a.1 ∈ allNames) → q.Pairwise (fun a b => b.1.1 ≠ a.1.1) → q ≠ [] → ∀ k < nobs, ∀ ix out env h,
      At (fun s => ("k", some (.int (k : ℤ))) :: ((idxVars q ++ E) ++ matVars rz ro n nobs s)) (heapOf h0 ro) (ix, out) env h →
      Sim (v (q.reverse.map (·.2)) k >>= fun x => out.write [(ix : ℤ), (k : ℤ)] x) (exec W (B (q.reverse.map (·.1))) env h)
        (Next fun out => At (fun s => (idxVars q ++ E) ++ matVars rz ro n nobs s) (heapOf h0 ro) (ix, out)))
    (xs : List Names) (hxs : ∀ x ∈ xs, x ∈ allNames) (h1 : ∀ x ∈ xs, "i1" ≠ x.1) (hp : xs.Pairwise (·.1 ≠ ·.1)) (i : ℕ)
    (s : ℕ × NdArray K) (env : Env K) (h : Heap K)
    (hs : At (fun s => ("i1", some (.int (i : ℤ))) :: (E ++ matVars rz ro n nobs s)) (heapOf h0 ro) s env h) :
    Sim (nest n (fun l => putMat nobs (v l)) xs.length [i] i s)
      (exec W (nestBlock (putMatBlock B) xs [("i1", "c1", "t1")] "i1") env h)
      (Next (At (fun s => E ++ matVars rz ro n nobs s) (heapOf h0 ro))) := by
  refine nest_flow (base := fun s => E ++ matVars rz ro n nobs s) (H := heapOf h0 ro) hW (fun s => by simp [matVars])
    (fun s => by simp [matVars]) ?_ ?_ xs [(("i1", "c1", "t1"), i)] ("i1", "c1", "t1") i ?_ hxs (by simp) (by simp) ?_ hp _ ?_ s env h hs
  · intro s p hp
    rcases List.mem_append.mp hp with hp | hp
    · exact (hE p hp).2.2
    · exact (show ∀ p ∈ matVars rz ro n nobs s, ∀ x ∈ allNames, p.1 ≠ x.1 by simp only [matVars, allNames]; fresh) p hp
  · intro q hq hqp hq0 g Q rest s env h hs hg
    simp only [← List.append_assoc] at hs hg
    refine putMat_flow hW ?_ (hB q hq hqp hq0) hs hg
    intro p hp
    rcases List.mem_append.mp hp with hp | hp
    · exact ⟨idxVars_ne hq (by simp only [allNames]; fresh) p hp, idxVars_ne hq (by simp only [allNames]; fresh) p hp⟩
    · exact ⟨(hE p hp).1, (hE p hp).2.1⟩
  · simp [allNames]
  · simpa using h1
  · intro s env h hs
    exact ⟨hs.1.tail, hs.2⟩

theorem prod_block (hro : ro < h0.length) (hz : h0[rz]? = some z) (hne : rz ≠ ro) (q : List (Names × ℕ)) (hq0 : q ≠ []) (k : ℕ)
    (ix : ℕ) (out : NdArray K) (env : Env K) (h : Heap K)
    (hs : At (fun s => ("k", some (.int (k : ℤ))) :: ((idxVars q ++ []) ++ matVars rz ro n nobs s)) (heapOf h0 ro) (ix, out) env h) :
    Sim (prodOf (rdMat z k) (q.reverse.map (·.2)) >>= fun x => out.write [(ix : ℤ), (k : ℤ)] x)
      (exec W (prodBlock (q.reverse.map (·.1))) env h)
      (Next fun out => At (fun s => (idxVars q ++ []) ++ matVars rz ro n nobs s) (heapOf h0 ro) (ix, out)) := by
  have hk : env "k" = some (.int (k : ℤ)) := hs.1 ("k", _) (by simp)
  have hB := hs.1.tail.right
  simp only [matVars] at hB
  bindings hB
  have hh : h = h0.set ro out := hs.2
  rw [prodBlock, exec_assign, step' (prod_eval q.reverse (by simpa using hq0) fun a ha => ?_)]
  · refine Sim.bind_same fun x => ?_
    dsimp only
    pysimp [look, hB, hk]
    rw [← bind_pure (out.write _ _), step' (wrElem_run (A := out) (by rw [hh]; exact heap_out hro _) _ _)]
    refine Sim.bind_same fun A => ?_
    refine Sim.pure ⟨_, rfl, hs.1.tail, ?_⟩
    simp only [heapOf, hh, List.set_set]
  · refine rdMat_eval hz hne hB.2.1 ?_ hk hs.2
    exact hs.1.tail (a.1.1, _) (List.mem_append_left _ (List.mem_append_left _ (List.mem_map.mpr ⟨a, by simpa using ha, rfl⟩)))

/-- The heap with the array written to. -/
abbrev outHeap (h0 : Heap K) (ro : ℕ) (out : NdArray K) (h : Heap K) : Prop := h = h0.set ro out

/-- `for k in range(nobs): out[e, k] = v`. -/
theorem row_flow (hW : HasRange W) (hro : ro < h0.length) {V : Vars K} (hk : ∀ p ∈ V, p.1 ≠ "k") (hn : ("nobs", some (.int (nobs : ℤ))) ∈ V)
    (hr : ("range", none) ∈ V) (ho : ("out", some (.arr ro [none, none])) ∈ V) {e v : Ex} {a : ℤ} {x : ℕ → Py K}
    (he : ∀ (k : ℕ) env h, Binds (("k", some (.int (k : ℤ))) :: V) env →
      evalSubs W env (.cons e (.cons (.name "k") .nil)) h = pure ([.at a, .at (k : ℤ)], h))
    (hv : ∀ (k : ℕ) out env, Binds (("k", some (.int (k : ℤ))) :: V) env →
      eval W env v (h0.set ro out) = x k >>= fun y => pure (.flt y, h0.set ro out))
    {α : Type} {g : NdArray K → Py α} {Q : α → Out K × Heap K → Prop} {rest : Block} {out : NdArray K} {env : Env K} (hs : Binds V env)
    (hg : ∀ out env, Binds V env → Sim (g out) (exec W rest env (h0.set ro out)) Q) :
    Sim (pyFor (List.range nobs) (fun k out => x k >>= fun y => out.write [a, (k : ℤ)] y) out >>= g)
      (exec W (.for (.name "k") (.call (.name "range") (.cons (.name "nobs") .nil))
        (.simple (.assign (.index (.name "out") (.cons e (.cons (.name "k") .nil))) v) .nil) rest) env (h0.set ro out)) Q := by
  refine for_flow (V := fun _ => V) (H := outHeap h0 ro) (toVal := fun k : ℕ => .int (k : ℤ)) (l := List.range nobs)
    (range1 hW (hs _ hr) (eval_bound (v := .int (nobs : ℤ)) (hs _ hn))) ?_ (fun _ => hk) ⟨hs, rfl⟩ ?_ ?_
  · rw [rangeStep_range, iterate_ints]
  · rintro k - out env h ⟨hB, rfl⟩
    have ho' : env "out" = some (.arr ro [none, none]) := hB ("out", _) (List.mem_cons_of_mem _ ho)
    rw [exec_assign, step' (hv k out env hB)]
    refine Sim.bind_same fun y => ?_
    dsimp only
    pysimp [look, ho']
    rw [step (he k env _ hB)]
    pysimp
    rw [← bind_pure (out.write _ _), step' (wrElem_run (heap_out hro _) _ _)]
    refine Sim.bind_same fun A => ?_
    refine Sim.pure ⟨_, rfl, hB.tail, ?_⟩
    simp only [outHeap, List.set_set]
  · rintro out env h ⟨hB, rfl⟩
    exact hg out env hB

theorem implMat_run [Pow K ℕ] (L : LitLaws K) (hW : HasRange W) {out : NdArray K} (hro : h0[ro]? = some out) (hz : h0[rz]? = some z)
    (hne : rz ≠ ro) (hsh : z.shape = [n, nobs]) (d : ℤ) :
    Sim (implMat z d out) (runFun W implMatFun [.arr rz [none, none], .int d, .arr ro [none, none]] h0)
      (fun A o => o = (.none, h0.set ro A)) := by
  have key : ∀ env : Env K, Binds [("z", some (.arr rz [none, none])), ("d", some (.int d)), ("out", some (.arr ro [none, none])),
      ("range", none)] env → Sim (implMat z d out) (exec W implMatBody env h0) (Filled h0 ro) := by
    intro env hB
    bindings hB
    have hlen : ro < h0.length := by
      by_contra hc
      rw [List.getElem?_eq_none (by omega)] at hro
      cases hro
    have hn : z.shape.getD 0 0 = n := by rw [hsh]; rfl
    have hnobs : z.shape.getD 1 0 = nobs := by rw [hsh]; rfl
    rw [implMat_tail, hn, hnobs, show implMatBody =
      .simple (.assign (.name "nvar") (.index (.attr (.name "z") "shape") (.cons (.int 0) .nil))) (
      .simple (.assign (.name "nobs") (.index (.attr (.name "z") "shape") (.cons (.int 1) .nil))) (
      .for (.name "k") (.call (.name "range") (.cons (.name "nobs") .nil)) implMatLoop0 (
      .ifte (.chain (.name "d") (.link .ge (.int 1) .nil)) (
        .for (.name "i") (.call (.name "range") (.cons (.int 1) (.cons (.bin .plus (.name "nvar") (.int 1)) .nil))) implMatLoop2 .nil) .nil (
      tailBlock (nestBlock (putMatBlock prodBlock) names2 [("i1", "c1", "t1")] "i1")
        (nestBlock (putMatBlock prodBlock) names3 [("i1", "c1", "t1")] "i1")
        (nestBlock (putMatBlock prodBlock) names4 [("i1", "c1", "t1")] "i1")
        (nestBlock (putMatBlock prodBlock) names5 [("i1", "c1", "t1")] "i1"))))) from rfl]
    have hv : viewShape [none, none] z.shape = [n, nobs] := by rw [hsh]; rfl
    pysimp [look, hB]
    rw [step (shape_run hz), hv]
    pysimp [look, hB, List.map_cons, List.map_nil]
    rw [step (shape_run hz), hv]
    pysimp [look, hB, List.map_cons, List.map_nil]
    let C : Vars K := [("z", some (.arr rz [none, none])), ("out", some (.arr ro [none, none])), ("nvar", some (.int (n : ℤ))),
      ("nobs", some (.int (nobs : ℤ))), ("range", none)]
    have tail : ∀ (out : NdArray K) (env : Env K), Binds (("d", some (.int d)) :: C) env →
        Sim (tailModel (fun i => nest n (fun l => putMat nobs (fun k => prodOf (rdMat z k) l)) 1 [i] i)
          (fun i => nest n (fun l => putMat nobs (fun k => prodOf (rdMat z k) l)) 2 [i] i)
          (fun i => nest n (fun l => putMat nobs (fun k => prodOf (rdMat z k) l)) 3 [i] i)
          (fun i => nest n (fun l => putMat nobs (fun k => prodOf (rdMat z k) l)) 4 [i] i) d n out)
          (exec W (tailBlock (nestBlock (putMatBlock prodBlock) names2 [("i1", "c1", "t1")] "i1")
            (nestBlock (putMatBlock prodBlock) names3 [("i1", "c1", "t1")] "i1")
            (nestBlock (putMatBlock prodBlock) names4 [("i1", "c1", "t1")] "i1")
            (nestBlock (putMatBlock prodBlock) names5 [("i1", "c1", "t1")] "i1")) env (h0.set ro out))
          (Filled h0 ro) := by
      intro out env hB
      refine tail_flow hW (C := C) (by simp [C]) (by simp [C]) (by simp only [C]; fresh) ?_ (hB ("d", _) (by simp)) hB.tail
      intro p hp i s env h hs
      have hg := names_good
      simp only [List.forall_mem_cons] at hg
      have hb := fun (q : List (Names × ℕ)) (_ : ∀ a ∈ q, a.1 ∈ allNames) (_ : q.Pairwise (fun a b => b.1.1 ≠ a.1.1)) hq0 k (_ : k < nobs) =>
        prod_block (W := W) (n := n) (nobs := nobs) hlen hz hne q hq0 k
      simp only [List.mem_cons, List.not_mem_nil, or_false] at hp
      rcases hp with rfl | rfl | rfl | rfl
      · exact mat_nest (v := fun l k => prodOf (rdMat z k) l) hW (E := []) (by simp) hb names2 hg.1.1 hg.1.2.1 hg.1.2.2 i s env h hs
      · exact mat_nest (v := fun l k => prodOf (rdMat z k) l) hW (E := []) (by simp) hb names3 hg.2.1.1 hg.2.1.2.1 hg.2.1.2.2 i s env h hs
      · exact mat_nest (v := fun l k => prodOf (rdMat z k) l) hW (E := []) (by simp) hb names4 hg.2.2.1.1 hg.2.2.1.2.1 hg.2.2.1.2.2 i s env h hs
      · exact mat_nest (v := fun l k => prodOf (rdMat z k) l) hW (E := []) (by simp) hb names5 hg.2.2.2.1.1 hg.2.2.2.1.2.1 hg.2.2.2.1.2.2
          i s env h hs
    have hB1 : Binds (("d", some (.int d)) :: C) (Env.set (env.set "nvar" (.int (n : ℤ))) "nobs" (.int (nobs : ℤ))) := by
      simp only [C]; bound [hB]
    generalize Env.set (env.set "nvar" (.int (n : ℤ))) "nobs" (.int (nobs : ℤ)) = env1 at hB1 ⊢
    have hset : h0 = h0.set ro out := by
      obtain ⟨hi, he⟩ := List.getElem?_eq_some_iff.mp hro
      rw [← he, List.set_getElem_self]
    refine (congrArg (fun H => Sim _ (exec W _ env1 H) _) hset).mpr ?_
    refine row_flow hW hlen (V := ("d", some (.int d)) :: C) (a := 0) (x := fun _ => pure 1) (by simp only [C]; fresh) (by simp [C])
      (by simp [C]) (by simp [C]) ?_ ?_ hB1 ?_
    · intro k env h hB
      bindings hB
      pysimp [look, hB]
      rfl
    · intro k out env hB
      pysimp [decimal, L.one]
      rfl
    intro out env hB1
    have hB2 := hB1
    simp only [C] at hB2
    bindings hB2
    pysimp [look, hB2]
    by_cases h1 : 1 ≤ d
    · rw [if_pos h1, if_pos (by simpa using h1), bind_run]
      refine Sim.bind (Q := Next (At (fun _ => ("d", some (.int d)) :: C) (outHeap h0 ro))) ?_ ?_
      · refine for_last (V := fun _ => ("d", some (.int d)) :: C) (H := outHeap h0 ro)
          (toVal := fun i : ℕ => .int (i : ℤ)) (l := rangeN 1 (n + 1)) (range2 hW (i := ((1 : ℕ) : ℤ)) (j := ((n + 1 : ℕ) : ℤ)) ?_ rfl ?_) ?_ ?_
          ⟨hB1, rfl⟩ ?_ (fun _ _ _ h => h)
        · exact hB2.2.2.2.2.2
        · pysimp [look, hB2]; push_cast; rfl
        · rw [rangeStep_rangeN, iterate_ints]
        · intro s; simp only [C]; fresh
        · rintro i - out env h ⟨hB, rfl⟩
          rw [← bind_pure (pyFor _ _ _)]
          refine row_flow hW hlen (V := ("i", some (.int (i : ℤ))) :: ("d", some (.int d)) :: C) (a := i)
            (x := fun k => z.read [(i : ℤ) - 1, (k : ℤ)]) (by simp only [C]; fresh) (by simp [C])
            (by simp [C]) (by simp [C]) ?_ ?_ hB ?_
          · intro k env h hB
            simp only [C] at hB
            bindings hB
            pysimp [look, hB]
            rfl
          · intro k out env hB
            simp only [C] at hB
            bindings hB
            pysimp [look, hB]
            rw [rdElem_run (heap_z hz hne _) _, show (i : ℤ) - ((1 : ℕ) : ℤ) = (i : ℤ) - 1 from rfl]
          · intro out env hB
            exact at_end ⟨hB.tail, rfl⟩
      · rintro out ⟨o, h⟩ ⟨env, rfl, hB, rfl⟩
        exact tail out env hB
    · rw [if_neg h1, if_neg (by simpa using h1)]
      exact tail out env hB1
  refine run_filled (env := ?_) ?_ (key _ ?_)
  · exact Env.set (Env.set (Env.set (fun _ => none) "out" (.arr ro [none, none])) "d" (.int d)) "z" (.arr rz [none, none])
  · pysimp [implMatFun]
  · bound

end

end Interp.Spec.PySrc
