import Verif.Proofs.SrcComplete

/-!
# The source texts of `complete_poly.py`: derivatives
-/

namespace Interp.Spec.PySrc
open Interp Interp.CompletePoly

set_option linter.unusedSectionVars false

variable {K : Type} [Add K] [Sub K] [Mul K] [Div K] [Neg K] [Zero K] [One K] [NatCast K] [IntCast K]
  [LT K] [DecidableLT K] [LE K] [DecidableLE K] [BEq K] [IntFloor K] [Interp.Smolyak.Trig K] [Pow K ℕ]

variable {W : World K} {rz ro n nobs : ℕ} {z : NdArray K} {h0 : Heap K}

/-! ### Exponents and factors -/

/-- The exponents found so far: names, exponent, factor; the last one first. -/
abbrev Counted (K : Type) := List (Names × ℕ × K)

def doneVars (D : Counted K) : Vars K :=
  D.flatMap fun a => [(a.1.2.1, some (.int (a.2.1 : ℤ))), (a.1.2.2, some (.flt a.2.2))]

/-- The exponent of the variable of differentiation. -/
def count : Counted K → ℕ
  | [] => 0
  | a :: _ => a.2.1

/-- The factors. -/
def factors (D : Counted K) : List K := D.reverse.map (·.2.2)

/-- `c + 1` and `c`. -/
def counts : Option Names → Ex × Ex
  | none => (.int 1, .int 0)
  | some p => (.bin .plus (.name p.2.1) (.int 1), .name p.2.1)

/-- `(c2, t2) = (c1 + 1, 1.0) if i2 == der else (c1, z[i2])`. -/
abbrev stepStmt (zi : String → Ex) (p : Option Names) (x : Names) (rest : Block) : Block :=
  .simple (.assign (.tuple (.cons (.name x.2.1) (.cons (.name x.2.2) .nil)))
    (.ite (.tuple (.cons (counts p).1 (.cons (.float 1 0) .nil))) (.chain (.name x.1) (.link .eqeq (.name "der") .nil))
      (.tuple (.cons (counts p).2 (.cons (zi x.1) .nil))))) rest

theorem mem_doneVars {D : Counted K} {p : String × Option (Val K)} (hp : p ∈ doneVars D) :
    ∃ a ∈ D, p.1 = a.1.2.1 ∨ p.1 = a.1.2.2 := by
  obtain ⟨a, ha, hp⟩ := List.mem_flatMap.mp hp
  simp only [List.mem_cons, List.not_mem_nil, or_false] at hp
  rcases hp with rfl | rfl
  · exact ⟨a, ha, .inl rfl⟩
  · exact ⟨a, ha, .inr rfl⟩

theorem counts_eval {D : Counted K} {env : Env K} (hs : Binds (doneVars D) env) (h : Heap K) :
    eval W env (counts (D.head?.map (·.1))).1 h = pure (.int ((count D + 1 : ℕ) : ℤ), h) ∧
      eval W env (counts (D.head?.map (·.1))).2 h = pure (.int (count D : ℤ), h) := by
  rcases D with _ | ⟨a, D⟩
  · exact ⟨rfl, rfl⟩
  · have hc : env a.1.2.1 = some (.int (a.2.1 : ℤ)) := hs (a.1.2.1, _) (by simp [doneVars])
    simp only [List.head?_cons, Option.map_some, counts, count]
    constructor
    · pysimp [look, hc]
      rfl
    · pysimp [look, hc]
      rfl

theorem step_flow (L : LitLaws K) {zi : String → Ex} {zr : ℕ → Py K} {D : Counted K} {V : Vars K} {x : Names} {i der : ℕ}
    {α : Type} {g : ℕ × K → Py α} {Q : α → Out K × Heap K → Prop} {rest : Block} {env : Env K} {h : Heap K}
    (hs : Binds (doneVars D ++ V) env) (hx : env x.1 = some (.int (i : ℤ))) (hd : env "der" = some (.int (der : ℤ)))
    (hz : eval W env (zi x.1) h = zr i >>= fun v => pure (.flt v, h))
    (hV : ∀ p ∈ doneVars D ++ V, p.1 ≠ x.2.1 ∧ p.1 ≠ x.2.2) (hct : x.2.1 ≠ x.2.2)
    (hg : ∀ r env, Binds (doneVars ((x, r) :: D) ++ V) env → Sim (g r) (exec W rest env h) Q) :
    Sim (CompletePoly.step zr der i (count D) >>= g) (exec W (stepStmt zi (D.head?.map (·.1)) x rest) env h) Q := by
  obtain ⟨c1, c0⟩ := counts_eval (W := W) hs.left h
  have key : ∀ r : ℕ × K, Sim (g r) (exec W rest (Env.set (env.set x.2.1 (.int (r.1 : ℤ))) x.2.2 (.flt r.2)) h) Q := by
    intro r
    refine hg r _ ?_
    rw [show doneVars ((x, r) :: D) ++ V = (x.2.1, some (.int (r.1 : ℤ))) :: (x.2.2, some (.flt r.2)) :: (doneVars D ++ V) from rfl]
    refine Binds.cons (Binds.cons ((hs.set fun p hp => (hV p hp).1).set fun p hp => (hV p hp).2) ?_) ?_
    · rw [set_apply, if_pos rfl]
    · rw [set_apply, if_neg hct, set_apply, if_pos rfl]
  pysimp [look, hx, hd]
  by_cases he : i = der
  · rw [if_pos (by simpa using he), CompletePoly.step, if_pos he, pure_bind]
    rw [bind_run, step c1]
    pysimp [decimal, L.one]
    exact key (count D + 1, 1)
  · rw [if_neg (by simpa using he), CompletePoly.step, if_neg he]
    rw [bind_run, step c0, step' hz, bind_assoc, bind_assoc]
    refine Sim.bind_same fun v => ?_
    pysimp
    exact key (count D, v)

/-- `c * t1 * t2 * ... * z[der] ** (c - 1) if c > 0 else 0.0`. -/
def valEx (zi : String → Ex) (xs : List Names) : Ex :=
  .ite (.bin .star (xs.foldl (fun e y => .bin .star e (.name y.2.2)) (.name (xs.getLast?.getD ("", "", "")).2.1))
    (.bin .dstar (zi "der") (.bin .minus (.name (xs.getLast?.getD ("", "", "")).2.1) (.int 1))))
    (.chain (.name (xs.getLast?.getD ("", "", "")).2.1) (.link .gt (.int 0) .nil)) (.float 0 0)

theorem factors_eval {env : Env K} {h : Heap K} : ∀ (l : Counted K) (e : Ex) (v : K), (∀ a ∈ l, env a.1.2.2 = some (.flt a.2.2)) →
    eval W env e h = pure (.flt v, h) →
    eval W env ((l.map (·.1)).foldl (fun e y => .bin .star e (.name y.2.2)) e) h = pure (.flt ((l.map (·.2.2)).foldl (· * ·) v), h)
  | [], _, _, _, he => he
  | a :: l, e, v, hl, he => by
    refine factors_eval l _ (v * a.2.2) (fun b hb => hl b (by simp [hb])) ?_
    rw [eval_bin, bind_run, he]
    pysimp [look, hl a (by simp)]
    rfl

theorem val_eval (L : LitLaws K) (hpow : ∀ (x : K) (n : ℕ), fpow x n = x ^ n) {zi : String → Ex} {zr : ℕ → Py K} {D : Counted K} (hD : D ≠ [])
    {der : ℕ} {env : Env K} {h : Heap K} (hs : Binds (doneVars D) env)
    (hz : eval W env (zi "der") h = zr der >>= fun v => pure (.flt v, h)) :
    eval W env (valEx zi (D.reverse.map (·.1))) h = derVal zr der (count D) (factors D) >>= fun v => pure (.flt v, h) := by
  rcases D with _ | ⟨a, D⟩
  · exact absurd rfl hD
  have hc : env a.1.2.1 = some (.int (a.2.1 : ℤ)) := hs (a.1.2.1, _) (by simp [doneVars])
  have ht : ∀ b ∈ (a :: D).reverse, env b.1.2.2 = some (.flt b.2.2) := by
    intro b hb
    refine hs (b.1.2.2, _) (List.mem_flatMap.mpr ⟨b, List.mem_reverse.mp hb, by simp⟩)
  have hl : (((a :: D).reverse.map (·.1)).getLast?.getD ("", "", "")) = a.1 := by simp
  rw [valEx, hl, derVal, count]
  have hF : eval W env (((a :: D).reverse.map (·.1)).foldl (fun e y => .bin .star e (.name y.2.2)) (.name a.1.2.1)) h =
      pure (.flt ((factors (a :: D)).foldl (· * ·) (a.2.1 : K)), h) := by
    unfold factors
    rcases hr : (a :: D).reverse with _ | ⟨b, l⟩
    · simp at hr
    · rw [hr] at ht
      refine factors_eval l _ ((a.2.1 : K) * b.2.2) (fun c hc => ht c (by simp [hc])) ?_
      pysimp [look, hc, ht b (by simp), L.int]
      rfl
  pysimp [look, hc]
  by_cases h0 : 0 < a.2.1
  · rw [if_pos (by simpa using h0), if_pos h0, step hF, step' hz, bind_assoc]
    congr 1
    funext w
    have e1 : ((a.2.1 : ℤ) - ((1 : ℕ) : ℤ)).toNat = a.2.1 - 1 := by omega
    have e2 : (0 : ℤ) ≤ (a.2.1 : ℤ) - ((1 : ℕ) : ℤ) := by omega
    pysimp [powOp, e2, e1, hpow]
    rfl
  · rw [if_neg (by simpa using h0), if_neg h0]
    pysimp [decimal, L.zero]
    rfl

/-! ### `_complete_poly_der_impl` -/

/-- The names of exponents and factors are different from each other. -/
theorem names_ne : ∀ x ∈ allNames, x.2.1 ≠ x.2.2 ∧ ∀ y ∈ allNames, y.1 ≠ x.2.1 ∧ y.1 ≠ x.2.2 ∧ y.2.1 ≠ x.2.2 ∧ y.2.2 ≠ x.2.1 ∧
    (y.1 ≠ x.1 → y.2.1 ≠ x.2.1 ∧ y.2.2 ≠ x.2.2) := by decide

theorem doneVars_ne {D : Counted K} (hD : ∀ a ∈ D, a.1 ∈ allNames) {x : Names} (hx : x ∈ allNames) (hne : ∀ a ∈ D, a.1.1 ≠ x.1) :
    ∀ p ∈ doneVars D, p.1 ≠ x.2.1 ∧ p.1 ≠ x.2.2 := by
  intro p hp
  obtain ⟨a, ha, hp⟩ := mem_doneVars hp
  have h := (names_ne x hx).2 a.1 (hD a ha)
  have h' := h.2.2.2.2 (hne a ha)
  rcases hp with hp | hp <;> rw [hp]
  · exact ⟨h'.1, h.2.2.1⟩
  · exact ⟨h.2.2.2.1, h'.2⟩

theorem idxVars_ne' {q : List (Names × ℕ)} (hq : ∀ a ∈ q, a.1 ∈ allNames) {x : Names} (hx : x ∈ allNames) :
    ∀ p ∈ (idxVars q : Vars K), p.1 ≠ x.2.1 ∧ p.1 ≠ x.2.2 := by
  intro p hp
  obtain ⟨a, ha, rfl⟩ := mem_idxVars hp
  have h := (names_ne x hx).2 a.1 (hq a ha)
  exact ⟨h.1, h.2.1⟩

/-- The exponents and factors of one entry. -/
def stepsBlock (zi : String → Ex) : Option Names → List Names → Block → Block
  | _, [], rest => rest
  | p, x :: xs, rest => stepStmt zi p x (stepsBlock zi (some x) xs rest)

theorem steps_flow (L : LitLaws K) {zi : String → Ex} {zr : ℕ → Py K} {V : Vars K} {der : ℕ} {h : Heap K} (hd : ("der", some (.int (der : ℤ))) ∈ V)
    (hV : ∀ p ∈ V, ∀ x ∈ allNames, p.1 ≠ x.2.1 ∧ p.1 ≠ x.2.2) {α : Type} {g : K → Py α} {Q : α → Out K × Heap K → Prop} {fin : Block} :
    ∀ (q : List (Names × ℕ)) (D : Counted K) (env : Env K), (∀ a ∈ q, a.1 ∈ allNames) → (∀ a ∈ D, a.1 ∈ allNames) →
      q.Pairwise (fun a b => a.1.1 ≠ b.1.1) → (∀ a ∈ D, ∀ b ∈ q, a.1.1 ≠ b.1.1) →
      (∀ a ∈ q, (a.1.1, some (.int (a.2 : ℤ))) ∈ V) →
      (∀ a ∈ q, ∀ env, Binds V env → eval W env (zi a.1.1) h = zr a.2 >>= fun v => pure (.flt v, h)) →
      Binds (doneVars D ++ V) env →
      (∀ (D' : Counted K) env, D'.reverse.map (·.1) = D.reverse.map (·.1) ++ q.map (·.1) → Binds (doneVars D' ++ V) env →
        Sim (derVal zr der (count D') (factors D') >>= g) (exec W fin env h) Q) →
      Sim (derEntry zr der (count D) (factors D) (q.map (·.2)) >>= g)
        (exec W (stepsBlock zi (D.head?.map (·.1)) (q.map (·.1)) fin) env h) Q
  | [], D, env, _, _, _, _, _, _, hs, hfin => hfin D env (by simp) hs
  | a :: q, D, env, hq, hD, hp, hne, hqV, hz, hs, hfin => by
    rw [List.map_cons, List.map_cons, derEntry, stepsBlock, bind_assoc]
    have ha := hq a (by simp)
    refine step_flow L hs (hs.right _ (hqV a (by simp))) (hs.right _ hd) (hz a (by simp) env hs.right) ?_ (names_ne _ ha).1 ?_
    · intro p hp
      rcases List.mem_append.mp hp with hp | hp
      · exact doneVars_ne hD ha (fun b hb => hne b hb a (by simp)) p hp
      · exact hV p hp _ ha
    · intro r env hs
      have := steps_flow L hd hV (g := g) (Q := Q) (fin := fin) q ((a.1, r) :: D) env (fun b hb => hq b (by simp [hb])) ?_ (List.pairwise_cons.mp hp).2 ?_
        (fun b hb => hqV b (by simp [hb])) (fun b hb => hz b (by simp [hb])) hs ?_
      · rw [show factors ((a.1, r) :: D) = factors D ++ [r.2] by simp [factors]] at this
        exact this
      · intro b hb
        rcases List.mem_cons.mp hb with rfl | hb
        · exact ha
        · exact hD b hb
      · intro b hb c hc
        rcases List.mem_cons.mp hb with rfl | hb
        · exact (List.pairwise_cons.mp hp).1 c hc
        · exact hne b hb c (by simp [hc])
      · intro D' env hD' hs
        exact hfin D' env (by rw [hD']; simp) hs

/-- The body of the loop over the observations. -/
abbrev entryBlock (xs : List Names) : Block :=
  stepsBlock zMat none xs
    (.simple (.assign (.index (.name "out") (.cons (.name "ix") (.cons (.name "k") .nil))) (valEx zMat xs)) .nil)

theorem entry_block (L : LitLaws K) (hpow : ∀ (x : K) (n : ℕ), fpow x n = x ^ n) (hro : ro < h0.length) (hz : h0[rz]? = some z) (hne : rz ≠ ro)
    (der : ℕ) (q : List (Names × ℕ)) (hq : ∀ a ∈ q, a.1 ∈ allNames) (hqp : q.Pairwise (fun a b => b.1.1 ≠ a.1.1)) (hq0 : q ≠ []) (k : ℕ)
    (ix : ℕ) (out : NdArray K) (env : Env K) (h : Heap K)
    (hs : At (fun s => ("k", some (.int (k : ℤ))) :: ((idxVars q ++ [("der", some (.int (der : ℤ)))]) ++ matVars rz ro n nobs s))
      (heapOf h0 ro) (ix, out) env h) :
    Sim (derEntry (rdMat z k) der 0 [] (q.reverse.map (·.2)) >>= fun x => out.write [(ix : ℤ), (k : ℤ)] x)
      (exec W (entryBlock (q.reverse.map (·.1))) env h)
      (Next fun out => At (fun s => (idxVars q ++ [("der", some (.int (der : ℤ)))]) ++ matVars rz ro n nobs s) (heapOf h0 ro) (ix, out)) := by
  have hh : h = h0.set ro out := hs.2
  have rd : ∀ env x (i : ℕ), Binds (matVars rz ro n nobs (ix, out)) env → env "k" = some (.int (k : ℤ)) →
      env x = some (.int (i : ℤ)) → eval W env (zMat x) h = rdMat z k i >>= fun v => pure (.flt v, h) := by
    intro env x i hB hk hx
    refine rdMat_eval hz hne (hB ("z", _) (by simp [matVars])) hx hk hs.2
  have hs' : Binds (doneVars ([] : Counted K) ++ (("k", some (.int (k : ℤ))) :: ((idxVars q ++ [("der", some (.int (der : ℤ)))]) ++
      matVars rz ro n nobs (ix, out)))) env := hs.1
  refine steps_flow L (der := der) (zi := zMat) (zr := rdMat z k) (V := ("k", some (.int (k : ℤ))) :: ((idxVars q ++ [("der", some (.int (der : ℤ)))]) ++ matVars rz ro n nobs (ix, out)))
    (by simp) ?_ q.reverse [] env (by simpa using hq) (by simp) (by rw [List.pairwise_reverse]; exact hqp) (by simp) ?_ ?_ hs' ?_
  · intro p hp x hx
    rcases List.mem_cons.mp hp with rfl | hp
    · exact (show ∀ x ∈ allNames, "k" ≠ x.2.1 ∧ "k" ≠ x.2.2 by decide) x hx
    rcases List.mem_append.mp hp with hp | hp
    · rcases List.mem_append.mp hp with hp | hp
      · exact idxVars_ne' hq hx p hp
      · obtain rfl := List.mem_singleton.mp hp
        exact (show ∀ x ∈ allNames, "der" ≠ x.2.1 ∧ "der" ≠ x.2.2 by decide) x hx
    · exact (show ∀ p ∈ matVars rz ro n nobs (ix, out), ∀ x ∈ allNames, p.1 ≠ x.2.1 ∧ p.1 ≠ x.2.2 by
        simp only [matVars, allNames]; fresh) p hp x hx
  · intro a ha
    refine List.mem_cons_of_mem _ (List.mem_append_left _ (List.mem_append_left _ (List.mem_map.mpr ⟨a, by simpa using ha, rfl⟩)))
  · intro a ha env hB
    refine rd env _ _ hB.tail.right (hB ("k", _) (by simp)) ?_
    exact hB.tail (a.1.1, _) (List.mem_append_left _ (List.mem_append_left _ (List.mem_map.mpr ⟨a, by simpa using ha, rfl⟩)))
  · intro D env hD hB
    have hV := hB.right
    have hM := hV.tail.right
    have hk : env "k" = some (.int (k : ℤ)) := hV ("k", _) (by simp)
    simp only [List.reverse_nil, List.map_nil, List.nil_append] at hD
    have hD0 : D ≠ [] := by
      rintro rfl
      simp at hD
      exact hq0 hD
    rw [exec_assign, ← hD, step' (val_eval L hpow hD0 hB.left (rd env "der" der hM hk (hV ("der", _) (by simp))))]
    simp only [matVars] at hM
    bindings hM
    refine Sim.bind_same fun x => ?_
    dsimp only
    pysimp [look, hM, hk]
    rw [← bind_pure (out.write _ _), step' (wrElem_run (A := out) (by rw [hh]; exact heap_out hro _) _ _)]
    refine Sim.bind_same fun A => ?_
    refine Sim.pure ⟨_, rfl, hV.tail, ?_⟩
    simp only [heapOf, hh, List.set_set]

theorem derImplMat_tail (z : NdArray K) (d : ℤ) (der : ℕ) (out : NdArray K) :
    derImplMat z d der out = (do
      let out ← pyFor (List.range (z.shape.getD 1 0)) (fun k out => out.write [0, (k : ℤ)] 0) out
      let out ← if 1 ≤ d then do
          let out ← pyFor (List.range (z.shape.getD 0 0)) (fun i => pyFor (List.range (z.shape.getD 1 0)) fun k out =>
            out.write [(i : ℤ) + 1, (k : ℤ)] 0) out
          pyFor (List.range (z.shape.getD 1 0)) (fun k out => out.write [(der : ℤ) + 1, (k : ℤ)] 1) out
        else pure out
      tailModel
        (fun i => nest (z.shape.getD 0 0) (fun l => putMat (z.shape.getD 1 0) (fun k => derEntry (rdMat z k) der 0 [] l)) 1 [i] i)
        (fun i => nest (z.shape.getD 0 0) (fun l => putMat (z.shape.getD 1 0) (fun k => derEntry (rdMat z k) der 0 [] l)) 2 [i] i)
        (fun i => nest (z.shape.getD 0 0) (fun l => putMat (z.shape.getD 1 0) (fun k => derEntry (rdMat z k) der 0 [] l)) 3 [i] i)
        (fun i => nest (z.shape.getD 0 0) (fun l => putMat (z.shape.getD 1 0) (fun k => derEntry (rdMat z k) der 0 [] l)) 4 [i] i)
        d (z.shape.getD 0 0) out) := by
  rw [← nest2, ← nest3, ← nest4, ← nest5]
  rfl

theorem derImplMat_run (L : LitLaws K) (hpow : ∀ (x : K) (n : ℕ), fpow x n = x ^ n) (hW : HasRange W) {out : NdArray K}
    (hro : h0[ro]? = some out) (hz : h0[rz]? = some z) (hne : rz ≠ ro) (hsh : z.shape = [n, nobs]) (d : ℤ) (der : ℕ) :
    Sim (derImplMat z d der out) (runFun W derImplMatFun [.arr rz [none, none], .int d, .int (der : ℤ), .arr ro [none, none]] h0)
      (fun A o => o = (.none, h0.set ro A)) := by
  have key : ∀ env : Env K, Binds [("z", some (.arr rz [none, none])), ("d", some (.int d)), ("der", some (.int (der : ℤ))),
      ("out", some (.arr ro [none, none])), ("range", none)] env →
      Sim (derImplMat z d der out) (exec W derImplMatBody env h0) (Filled h0 ro) := by
    intro env hB
    bindings hB
    have hlen : ro < h0.length := by
      by_contra hc
      rw [List.getElem?_eq_none (by omega)] at hro
      cases hro
    have hn : z.shape.getD 0 0 = n := by rw [hsh]; rfl
    have hnobs : z.shape.getD 1 0 = nobs := by rw [hsh]; rfl
    rw [derImplMat_tail, hn, hnobs, show derImplMatBody =
      .simple (.assign (.name "nvar") (.index (.attr (.name "z") "shape") (.cons (.int 0) .nil))) (
      .simple (.assign (.name "nobs") (.index (.attr (.name "z") "shape") (.cons (.int 1) .nil))) (
      .for (.name "k") (.call (.name "range") (.cons (.name "nobs") .nil)) derImplMatLoop0 (
      .ifte (.chain (.name "d") (.link .ge (.int 1) .nil)) (
        .for (.name "i") (.call (.name "range") (.cons (.name "nvar") .nil)) derImplMatLoop2 (
        .for (.name "k") (.call (.name "range") (.cons (.name "nobs") .nil)) derImplMatLoop3 .nil)) .nil (
      tailBlock (nestBlock (putMatBlock entryBlock) names2 [("i1", "c1", "t1")] "i1")
        (nestBlock (putMatBlock entryBlock) names3 [("i1", "c1", "t1")] "i1")
        (nestBlock (putMatBlock entryBlock) names4 [("i1", "c1", "t1")] "i1")
        (nestBlock (putMatBlock entryBlock) names5 [("i1", "c1", "t1")] "i1"))))) from rfl]
    have hv : viewShape [none, none] z.shape = [n, nobs] := by rw [hsh]; rfl
    pysimp [look, hB]
    rw [step (shape_run hz), hv]
    pysimp [look, hB, List.map_cons, List.map_nil]
    rw [step (shape_run hz), hv]
    pysimp [look, hB, List.map_cons, List.map_nil]
    let C : Vars K := [("z", some (.arr rz [none, none])), ("out", some (.arr ro [none, none])), ("nvar", some (.int (n : ℤ))),
      ("nobs", some (.int (nobs : ℤ))), ("range", none), ("der", some (.int (der : ℤ)))]
    have tail : ∀ (out : NdArray K) (env : Env K), Binds (("d", some (.int d)) :: C) env →
        Sim (tailModel (fun i => nest n (fun l => putMat nobs (fun k => derEntry (rdMat z k) der 0 [] l)) 1 [i] i)
          (fun i => nest n (fun l => putMat nobs (fun k => derEntry (rdMat z k) der 0 [] l)) 2 [i] i)
          (fun i => nest n (fun l => putMat nobs (fun k => derEntry (rdMat z k) der 0 [] l)) 3 [i] i)
          (fun i => nest n (fun l => putMat nobs (fun k => derEntry (rdMat z k) der 0 [] l)) 4 [i] i) d n out)
          (exec W (tailBlock (nestBlock (putMatBlock entryBlock) names2 [("i1", "c1", "t1")] "i1")
            (nestBlock (putMatBlock entryBlock) names3 [("i1", "c1", "t1")] "i1")
            (nestBlock (putMatBlock entryBlock) names4 [("i1", "c1", "t1")] "i1")
            (nestBlock (putMatBlock entryBlock) names5 [("i1", "c1", "t1")] "i1")) env (h0.set ro out))
          (Filled h0 ro) := by
      intro out env hB
      refine tail_flow hW (C := C) (by simp [C]) (by simp [C]) (by simp only [C]; fresh) ?_ (hB ("d", _) (by simp)) hB.tail
      intro p hp i s env h hs
      have hg := names_good
      simp only [List.forall_mem_cons] at hg
      have hb := fun (q : List (Names × ℕ)) hq hqp hq0 k (_ : k < nobs) =>
        entry_block (W := W) (n := n) (nobs := nobs) L hpow hlen hz hne der q hq hqp hq0 k
      have hE : ∀ p ∈ [("der", some (.int (der : ℤ) : Val K))], p.1 ≠ "ix" ∧ p.1 ≠ "k" ∧ ∀ x ∈ allNames, p.1 ≠ x.1 := by
        simp only [allNames]; fresh
      have hs' : At (fun s => ("i1", some (.int (i : ℤ))) :: ([("der", some (.int (der : ℤ)))] ++ matVars rz ro n nobs s)) (heapOf h0 ro) s env h := by
        refine ⟨?_, hs.2⟩
        have := hs.1
        simp only [C] at this
        bindings this
        simp only [matVars, List.singleton_append]
        bound [this]
      have post : ∀ (s : ℕ × NdArray K) (o : Out K × Heap K),
          Next (At (fun s => [("der", some (.int (der : ℤ)))] ++ matVars rz ro n nobs s) (heapOf h0 ro)) s o →
          Next (At (fun s => ("ix", some (.int (s.1 : ℤ))) :: C) (heapOf h0 ro)) s o := by
        rintro s ⟨o, h⟩ ⟨env, rfl, hs⟩
        refine ⟨env, rfl, ?_, hs.2⟩
        have := hs.1
        simp only [matVars, List.singleton_append] at this
        bindings this
        simp only [C]
        bound [this]
      simp only [List.mem_cons, List.not_mem_nil, or_false] at hp
      rcases hp with rfl | rfl | rfl | rfl
      · exact (mat_nest (v := fun l k => derEntry (rdMat z k) der 0 [] l) hW hE hb names2 hg.1.1 hg.1.2.1 hg.1.2.2 i s env h hs').mono post
      · exact (mat_nest (v := fun l k => derEntry (rdMat z k) der 0 [] l) hW hE hb names3 hg.2.1.1 hg.2.1.2.1 hg.2.1.2.2 i s env h hs').mono post
      · exact (mat_nest (v := fun l k => derEntry (rdMat z k) der 0 [] l) hW hE hb names4 hg.2.2.1.1 hg.2.2.1.2.1 hg.2.2.1.2.2 i s env h hs').mono post
      · exact (mat_nest (v := fun l k => derEntry (rdMat z k) der 0 [] l) hW hE hb names5 hg.2.2.2.1.1 hg.2.2.2.1.2.1 hg.2.2.2.1.2.2
          i s env h hs').mono post
    have hB1 : Binds (("d", some (.int d)) :: C) (Env.set (env.set "nvar" (.int (n : ℤ))) "nobs" (.int (nobs : ℤ))) := by
      simp only [C]; bound [hB]
    generalize Env.set (env.set "nvar" (.int (n : ℤ))) "nobs" (.int (nobs : ℤ)) = env1 at hB1 ⊢
    have hset : h0 = h0.set ro out := by
      obtain ⟨hi, he⟩ := List.getElem?_eq_some_iff.mp hro
      rw [← he, List.set_getElem_self]
    refine (congrArg (fun H => Sim _ (exec W _ env1 H) _) hset).mpr ?_
    refine row_flow hW hlen (V := ("d", some (.int d)) :: C) (a := 0) (x := fun _ => pure 0) (by simp only [C]; fresh) (by simp [C])
      (by simp [C]) (by simp [C]) ?_ ?_ hB1 ?_
    · intro k env h hB
      bindings hB
      pysimp [look, hB]
      rfl
    · intro k out env hB
      pysimp [decimal, L.zero]
      rfl
    intro out env hB1
    have hB2 := hB1
    simp only [C] at hB2
    bindings hB2
    pysimp [look, hB2]
    by_cases h1 : 1 ≤ d
    · rw [if_pos h1, if_pos (by simpa using h1), bind_run, ← bind_assoc]
      refine Sim.bind (Q := Next (At (fun _ => ("d", some (.int d)) :: C) (outHeap h0 ro))) ?_ ?_
      · refine for_flow (V := fun _ => ("d", some (.int d)) :: C) (H := outHeap h0 ro)
          (toVal := fun i : ℕ => .int (i : ℤ)) (l := List.range n) (range1 hW ?_ (eval_bound (v := .int (n : ℤ)) ?_)) ?_ ?_
          ⟨hB1, rfl⟩ ?_ ?_
        · pysimp [hB2]
        · pysimp [hB2]
        · rw [rangeStep_range, iterate_ints]
        · intro s; simp only [C]; fresh
        · rintro i - out env h ⟨hB, rfl⟩
          rw [← bind_pure (pyFor _ _ _)]
          refine row_flow hW hlen (V := ("i", some (.int (i : ℤ))) :: ("d", some (.int d)) :: C) (a := (i : ℤ) + 1)
            (x := fun k => pure 0) (by simp only [C]; fresh) (by simp [C])
            (by simp [C]) (by simp [C]) ?_ ?_ hB ?_
          · intro k env h hB
            simp only [C] at hB
            bindings hB
            pysimp [look, hB]
            rfl
          · intro k out env hB
            pysimp [decimal, L.zero]
            rfl
          · intro out env hB
            exact at_end ⟨hB.tail, rfl⟩
        · rintro out env h ⟨hB, rfl⟩
          rw [← bind_pure (pyFor _ _ _)]
          refine row_flow hW hlen (V := ("d", some (.int d)) :: C) (a := (der : ℤ) + 1)
            (x := fun k => pure 1) (by simp only [C]; fresh) (by simp [C])
            (by simp [C]) (by simp [C]) ?_ ?_ hB ?_
          · intro k env h hB
            simp only [C] at hB
            bindings hB
            pysimp [look, hB]
            rfl
          · intro k out env hB
            pysimp [decimal, L.one]
            rfl
          · intro out env hB
            exact at_end ⟨hB, rfl⟩
      · rintro out ⟨o, h⟩ ⟨env, rfl, hB, rfl⟩
        exact tail out env hB
    · rw [if_neg h1, if_neg (by simpa using h1)]
      exact tail out env hB1
  refine run_filled (env := ?_) ?_ (key _ ?_)
  · exact Env.set (Env.set (Env.set (Env.set (fun _ => none) "out" (.arr ro [none, none])) "der" (.int (der : ℤ))) "d" (.int d)) "z" (.arr rz [none, none])
  · pysimp [derImplMatFun]
  · bound

/-! ### `_complete_poly_der_impl_vec` -/

/-- `ix += 1; out[ix] = c * t1 * ...`. -/
abbrev putDBlock (xs : List Names) (rest : Block) : Block :=
  .simple (.aug .plus (.name "ix") (.int 1)) (.simple (.assign (.index (.name "out") (.cons (.name "ix") .nil)) (valEx zVec xs)) rest)

/-- The nested loops, with the exponents and factors. -/
def nestDBlock : List Names → List Names → String → Block
  | [], _, _ => .nil
  | x :: xs, p, last =>
    .for (.name x.1) (.call (.name "range") (.cons (.name last) (.cons (.name "nvar") .nil)))
      (stepStmt zVec p.getLast? x (putDBlock (p ++ [x]) (nestDBlock xs (p ++ [x]) x.1))) .nil

/-- The variables in the nested loops. -/
abbrev derVars (rz ro n der : ℕ) (D : Counted K) (q : List (Names × ℕ)) (s : ℕ × NdArray K) : Vars K :=
  (doneVars D ++ (idxVars q ++ [("der", some (.int (der : ℤ)))])) ++ vecVars rz ro n s

theorem Binds.of_subset {V V' : Vars K} {env : Env K} (h : Binds V env) (hV : ∀ p ∈ V', p ∈ V) : Binds V' env := fun p hp => h p (hV p hp)

theorem vecVars_ne (x : Names) (hx : x ∈ allNames) (s : ℕ × NdArray K) :
    ∀ p ∈ vecVars rz ro n s, p.1 ≠ x.1 ∧ p.1 ≠ x.2.1 ∧ p.1 ≠ x.2.2 := by
  have : ∀ p ∈ vecVars rz ro n s, ∀ x ∈ allNames, p.1 ≠ x.1 ∧ p.1 ≠ x.2.1 ∧ p.1 ≠ x.2.2 := by
    simp only [vecVars, allNames]; fresh
  exact fun p hp => this p hp x hx

theorem der_ne : ∀ x ∈ allNames, "der" ≠ x.1 ∧ "der" ≠ x.2.1 ∧ "der" ≠ x.2.2 := by decide

theorem nestD_flow (L : LitLaws K) (hpow : ∀ (x : K) (n : ℕ), fpow x n = x ^ n) (hW : HasRange W) (hro : ro < h0.length)
    (hz : h0[rz]? = some z) (hne : rz ≠ ro) (der : ℕ) :
    ∀ (xs : List Names) (q : List (Names × ℕ)) (D : Counted K) (y : Names) (i : ℕ), (∀ a ∈ q, a.1 ∈ allNames) → (∀ a ∈ D, a.1 ∈ allNames) →
      (∀ x ∈ xs, x ∈ allNames) → (y, i) ∈ q → (∀ a ∈ q, ∀ x ∈ xs, a.1.1 ≠ x.1) → (∀ a ∈ D, ∀ x ∈ xs, a.1.1 ≠ x.1) → xs.Pairwise (·.1 ≠ ·.1) →
      ∀ (I : ℕ × NdArray K → Env K → Heap K → Prop) (_ : ∀ s env h, At (derVars rz ro n der D q) (heapOf h0 ro) s env h → I s env h) s env h,
      At (derVars rz ro n der D q) (heapOf h0 ro) s env h →
      Sim (nestD (rdVec z) der n xs.length (count D) (factors D) i s) (exec W (nestDBlock xs (D.reverse.map (·.1)) y.1) env h) (Next I)
  | [], q, D, y, i, _, _, _, _, _, _, _, I, hI, s, env, h, hs => at_end (hI s env h hs)
  | x :: xs, q, D, y, i, hq, hD, hxs, hy, hqx, hDx, hnd, I, hI, s, env, h, hs => by
    have hx := hxs x (by simp)
    have hy' : env y.1 = some (.int (i : ℤ)) := hs.1 (y.1, _)
      (List.mem_append_left _ (List.mem_append_right _ (List.mem_append_left _ (List.mem_map.mpr ⟨(y, i), hy, rfl⟩))))
    have hn' : env "nvar" = some (.int (n : ℤ)) := hs.1 ("nvar", _) (List.mem_append_right _ (by simp [vecVars]))
    have hr' : env "range" = none := hs.1 ("range", _) (List.mem_append_right _ (by simp [vecVars]))
    rw [List.length_cons, nestD, nestDBlock]
    refine for_last (V := derVars rz ro n der D q) (H := heapOf h0 ro) (toVal := fun j : ℕ => .int (j : ℤ)) (l := rangeN i n)
      (range2 hW hr' (eval_bound hy') (eval_bound hn')) ?_ ?_ hs ?_ hI
    · rw [rangeStep_rangeN, iterate_ints]
    · intro s p hp
      rcases List.mem_append.mp hp with hp | hp
      · rcases List.mem_append.mp hp with hp | hp
        · obtain ⟨a, ha, hp⟩ := mem_doneVars hp
          have := (names_ne a.1 (hD a ha)).2 x hx
          rcases hp with hp | hp <;> rw [hp]
          · exact this.1.symm
          · exact this.2.1.symm
        · rcases List.mem_append.mp hp with hp | hp
          · obtain ⟨a, ha, rfl⟩ := mem_idxVars hp
            exact hqx a ha x (by simp)
          · obtain rfl := List.mem_singleton.mp hp
            exact (der_ne x hx).1
      · exact (vecVars_ne x hx s p hp).1
    · intro j _ s env h hs
      have hs1 : Binds (doneVars D ++ (idxVars ((x, j) :: q) ++ ([("der", some (.int (der : ℤ)))] ++ vecVars rz ro n s))) env := by
        refine hs.1.of_subset fun p hp => ?_
        simp only [idxVars, List.map_cons, List.mem_append, List.mem_cons, derVars] at hp ⊢
        tauto
      have hj : env x.1 = some (.int (j : ℤ)) := hs.1 (x.1, _) (by simp)
      rw [show (D.reverse.map (·.1)).getLast? = D.head?.map (·.1) by rw [List.getLast?_map, List.getLast?_reverse]]
      refine step_flow L hs1 hj (hs1 ("der", _) (by simp)) ?_ ?_ (names_ne x hx).1 ?_
      · refine rdVec_eval hz hne (hs1 ("z", _) ?_) hj hs.2
        simp [vecVars]
      · intro p hp
        rcases List.mem_append.mp hp with hp | hp
        · exact doneVars_ne hD hx (fun a ha => hDx a ha x (by simp)) p hp
        rcases List.mem_append.mp hp with hp | hp
        · refine idxVars_ne' ?_ hx p hp
          intro a ha
          rcases List.mem_cons.mp ha with rfl | ha
          · exact hx
          · exact hq a ha
        rcases List.mem_append.mp hp with hp | hp
        · obtain rfl := List.mem_singleton.mp hp
          exact (der_ne x hx).2
        · exact (vecVars_ne x hx s p hp).2
      · intro r env hB
        have hs2 : At (derVars rz ro n der ((x, r) :: D) ((x, j) :: q)) (heapOf h0 ro) s env h := by
          refine ⟨hB.of_subset fun p hp => ?_, hs.2⟩
          simp only [List.mem_append, derVars] at hp ⊢
          tauto
        have hf : factors D ++ [r.2] = factors ((x, r) :: D) := by simp [factors]
        have hm : D.reverse.map (·.1) ++ [x] = ((x, r) :: D).reverse.map (·.1) := by simp
        have hq' : ∀ a ∈ (x, j) :: q, a.1 ∈ allNames := by
          intro a ha
          rcases List.mem_cons.mp ha with rfl | ha
          · exact hx
          · exact hq a ha
        have hD' : ∀ a ∈ (x, r) :: D, a.1 ∈ allNames := by
          intro a ha
          rcases List.mem_cons.mp ha with rfl | ha
          · exact hx
          · exact hD a ha
        obtain ⟨c, t⟩ := r
        dsimp only
        rw [show factors D ++ [t] = _ from hf, hm]
        refine putVec_flow hro ?_ ?_ hs2 ?_
        · intro p hp
          rcases List.mem_append.mp hp with hp | hp
          · obtain ⟨a, ha, hp⟩ := mem_doneVars hp
            have := (show ∀ x ∈ allNames, x.2.1 ≠ "ix" ∧ x.2.2 ≠ "ix" by decide) a.1 (hD' a ha)
            rcases hp with hp | hp <;> rw [hp]
            · exact this.1
            · exact this.2
          rcases List.mem_append.mp hp with hp | hp
          · exact idxVars_ne hq' (by decide) p hp
          · obtain rfl := List.mem_singleton.mp hp
            exact (show "der" ≠ "ix" by decide)
        · intro s env h hs
          refine val_eval L hpow (by simp) hs.1.left.left ?_
          refine rdVec_eval hz hne (hs.1 ("z", _) (List.mem_append_right _ (by simp [vecVars]))) (hs.1 ("der", _) ?_) hs.2
          simp
        · intro s env h hs
          refine nestD_flow L hpow hW hro hz hne der xs ((x, j) :: q) ((x, (c, t)) :: D) x j hq' hD' (fun w hw => hxs w (by simp [hw])) (by simp) ?_ ?_
            (List.pairwise_cons.mp hnd).2 _ ?_ s env h hs
          · intro a ha w hw
            rcases List.mem_cons.mp ha with rfl | ha
            · exact (List.pairwise_cons.mp hnd).1 w hw
            · exact hqx a ha w (by simp [hw])
          · intro a ha w hw
            rcases List.mem_cons.mp ha with rfl | ha
            · exact (List.pairwise_cons.mp hnd).1 w hw
            · exact hDx a ha w (by simp [hw])
          · intro s env h hs
            refine ⟨hs.1.of_subset fun p hp => ?_, hs.2⟩
            simp only [idxVars, doneVars, List.map_cons, List.flatMap_cons, List.mem_append, List.mem_cons, derVars] at hp ⊢
            tauto

/-- The loop over the first variable. -/
theorem derFirst_flow (L : LitLaws K) (hpow : ∀ (x : K) (n : ℕ), fpow x n = x ^ n) (hW : HasRange W) (hro : ro < h0.length)
    (hz : h0[rz]? = some z) (hne : rz ≠ ro) (der : ℕ) (xs : List Names)
    (hxs : ∀ x ∈ xs, x ∈ allNames) (h1 : ∀ x ∈ xs, "i1" ≠ x.1) (hp : xs.Pairwise (·.1 ≠ ·.1)) (i : ℕ) (s : ℕ × NdArray K) (env : Env K) (h : Heap K)
    (hs : At (fun s => ("i1", some (.int (i : ℤ))) :: ("der", some (.int (der : ℤ))) :: vecVars rz ro n s) (heapOf h0 ro) s env h) :
    Sim (do let (c, t) ← CompletePoly.step (rdVec z) der i 0; nestD (rdVec z) der n xs.length c [t] i s)
      (exec W (stepStmt zVec none ("i1", "c1", "t1") (nestDBlock xs [("i1", "c1", "t1")] "i1")) env h)
      (Next (At (fun s => ("der", some (.int (der : ℤ))) :: vecVars rz ro n s) (heapOf h0 ro))) := by
  have hx : ("i1", "c1", "t1") ∈ allNames := by decide
  have hi : env "i1" = some (.int (i : ℤ)) := hs.1 ("i1", _) (by simp)
  refine step_flow L (D := []) (V := ("i1", some (.int (i : ℤ))) :: ("der", some (.int (der : ℤ))) :: vecVars rz ro n s) hs.1 hi
    (hs.1 ("der", _) (by simp)) (rdVec_eval hz hne (hs.1 ("z", _) (by simp [vecVars])) hi hs.2) ?_ (by decide) ?_
  · intro p hp
    rcases List.mem_cons.mp hp with rfl | hp
    · exact (show "i1" ≠ "c1" ∧ "i1" ≠ "t1" by decide)
    rcases List.mem_cons.mp hp with rfl | hp
    · exact (show "der" ≠ "c1" ∧ "der" ≠ "t1" by decide)
    · exact (vecVars_ne _ hx s p hp).2
  · rintro ⟨c, t⟩ env hB
    refine nestD_flow L hpow hW hro hz hne der xs [(("i1", "c1", "t1"), i)] [(("i1", "c1", "t1"), (c, t))] ("i1", "c1", "t1") i
      (by simpa using hx) (by simpa using hx) hxs (by simp) (by simpa using h1) (by simpa using h1) hp _ ?_ s env h ?_
    · intro s env h hs
      refine ⟨hs.1.of_subset fun p hp => ?_, hs.2⟩
      simp only [List.mem_append, List.mem_cons, derVars] at hp ⊢
      tauto
    · refine ⟨hB.of_subset fun p hp => ?_, hs.2⟩
      simp only [idxVars, List.map_cons, List.map_nil, List.mem_append, List.mem_cons, List.not_mem_nil, derVars] at hp ⊢
      tauto

theorem derImplVec_tail (z : NdArray K) (d : ℤ) (der : ℕ) (out : NdArray K) :
    derImplVec z d der out = (do
      let out ← out.write [0] 0
      let out ← if 1 ≤ d then do
          let out ← pyFor (List.range (z.shape.getD 0 0)) (fun i out => out.write [(i : ℤ) + 1] 0) out
          out.write [(der : ℤ) + 1] 1
        else pure out
      tailModel
        (fun i s => do let (c, t) ← CompletePoly.step (rdVec z) der i 0; nestD (rdVec z) der (z.shape.getD 0 0) 1 c [t] i s)
        (fun i s => do let (c, t) ← CompletePoly.step (rdVec z) der i 0; nestD (rdVec z) der (z.shape.getD 0 0) 2 c [t] i s)
        (fun i s => do let (c, t) ← CompletePoly.step (rdVec z) der i 0; nestD (rdVec z) der (z.shape.getD 0 0) 3 c [t] i s)
        (fun i s => do let (c, t) ← CompletePoly.step (rdVec z) der i 0; nestD (rdVec z) der (z.shape.getD 0 0) 4 c [t] i s)
        d (z.shape.getD 0 0) out) := by
  simp only [nestD, bind_pure]
  rfl

theorem derImplVec_run (L : LitLaws K) (hpow : ∀ (x : K) (n : ℕ), fpow x n = x ^ n) (hW : HasRange W) {out : NdArray K}
    (hro : h0[ro]? = some out) (hz : h0[rz]? = some z) (hne : rz ≠ ro) (hsh : z.shape = [n]) (d : ℤ) (der : ℕ) :
    Sim (derImplVec z d der out) (runFun W derImplVecFun [.arr rz [none], .int d, .int (der : ℤ), .arr ro [none]] h0)
      (fun A o => o = (.none, h0.set ro A)) := by
  have key : ∀ env : Env K, Binds [("z", some (.arr rz [none])), ("d", some (.int d)), ("der", some (.int (der : ℤ))),
      ("out", some (.arr ro [none])), ("range", none)] env →
      Sim (derImplVec z d der out) (exec W derImplVecBody env h0) (Filled h0 ro) := by
    intro env hB
    bindings hB
    have hlen : ro < h0.length := by
      by_contra hc
      rw [List.getElem?_eq_none (by omega)] at hro
      cases hro
    have hn : z.shape.getD 0 0 = n := by rw [hsh]; rfl
    rw [derImplVec_tail, hn, show derImplVecBody = .simple (.expr (.str "out and z should be vectors")) (
      .simple (.assign (.name "nvar") (.index (.attr (.name "z") "shape") (.cons (.int 0) .nil))) (
      .simple (.assign (.index (.name "out") (.cons (.int 0) .nil)) (.float 0 0)) (
      .ifte (.chain (.name "d") (.link .ge (.int 1) .nil)) (
        .for (.name "i") (.call (.name "range") (.cons (.name "nvar") .nil)) derImplVecLoop0 (
        .simple (.assign (.index (.name "out") (.cons (.bin .plus (.name "der") (.int 1)) .nil)) (.float 1 0)) .nil)) .nil (
      tailBlock (stepStmt zVec none ("i1", "c1", "t1") (nestDBlock names2 [("i1", "c1", "t1")] "i1"))
        (stepStmt zVec none ("i1", "c1", "t1") (nestDBlock names3 [("i1", "c1", "t1")] "i1"))
        (stepStmt zVec none ("i1", "c1", "t1") (nestDBlock names4 [("i1", "c1", "t1")] "i1"))
        (stepStmt zVec none ("i1", "c1", "t1") (nestDBlock names5 [("i1", "c1", "t1")] "i1")))))) from rfl]
    have hv : viewShape [none] z.shape = [n] := by rw [hsh]; rfl
    pysimp [look, hB]
    rw [step (shape_run hz), hv]
    pysimp [look, hB, List.map_cons, List.map_nil, decimal, L.zero, L.one]
    rw [step' (wrElem_run hro _ _)]
    refine Sim.bind_same fun out => ?_
    dsimp only
    let C : Vars K := [("z", some (.arr rz [none])), ("out", some (.arr ro [none])), ("nvar", some (.int (n : ℤ))), ("range", none),
      ("der", some (.int (der : ℤ)))]
    have tail : ∀ (out : NdArray K) (env : Env K), Binds (("d", some (.int d)) :: C) env →
        Sim (tailModel
          (fun i s => do let (c, t) ← CompletePoly.step (rdVec z) der i 0; nestD (rdVec z) der n 1 c [t] i s)
          (fun i s => do let (c, t) ← CompletePoly.step (rdVec z) der i 0; nestD (rdVec z) der n 2 c [t] i s)
          (fun i s => do let (c, t) ← CompletePoly.step (rdVec z) der i 0; nestD (rdVec z) der n 3 c [t] i s)
          (fun i s => do let (c, t) ← CompletePoly.step (rdVec z) der i 0; nestD (rdVec z) der n 4 c [t] i s) d n out)
          (exec W (tailBlock (stepStmt zVec none ("i1", "c1", "t1") (nestDBlock names2 [("i1", "c1", "t1")] "i1"))
            (stepStmt zVec none ("i1", "c1", "t1") (nestDBlock names3 [("i1", "c1", "t1")] "i1"))
            (stepStmt zVec none ("i1", "c1", "t1") (nestDBlock names4 [("i1", "c1", "t1")] "i1"))
            (stepStmt zVec none ("i1", "c1", "t1") (nestDBlock names5 [("i1", "c1", "t1")] "i1"))) env (h0.set ro out))
          (Filled h0 ro) := by
      intro out env hB
      refine tail_flow hW (C := C) (by simp [C]) (by simp [C]) (by simp only [C]; fresh) ?_ (hB ("d", _) (by simp)) hB.tail
      intro p hp i s env h hs
      have hg := names_good
      simp only [List.forall_mem_cons] at hg
      have hs' : At (fun s => ("i1", some (.int (i : ℤ))) :: ("der", some (.int (der : ℤ))) :: vecVars rz ro n s) (heapOf h0 ro) s env h := by
        refine ⟨?_, hs.2⟩
        have := hs.1
        simp only [C] at this
        bindings this
        simp only [vecVars]
        bound [this]
      have post : ∀ (s : ℕ × NdArray K) (o : Out K × Heap K),
          Next (At (fun s => ("der", some (.int (der : ℤ))) :: vecVars rz ro n s) (heapOf h0 ro)) s o →
          Next (At (fun s => ("ix", some (.int (s.1 : ℤ))) :: C) (heapOf h0 ro)) s o := by
        rintro s ⟨o, h⟩ ⟨env, rfl, hs⟩
        refine ⟨env, rfl, ?_, hs.2⟩
        have := hs.1
        simp only [vecVars] at this
        bindings this
        simp only [C]
        bound [this]
      simp only [List.mem_cons, List.not_mem_nil, or_false] at hp
      rcases hp with rfl | rfl | rfl | rfl
      · exact (derFirst_flow L hpow hW hlen hz hne der names2 hg.1.1 hg.1.2.1 hg.1.2.2 i s env h hs').mono post
      · exact (derFirst_flow L hpow hW hlen hz hne der names3 hg.2.1.1 hg.2.1.2.1 hg.2.1.2.2 i s env h hs').mono post
      · exact (derFirst_flow L hpow hW hlen hz hne der names4 hg.2.2.1.1 hg.2.2.1.2.1 hg.2.2.1.2.2 i s env h hs').mono post
      · exact (derFirst_flow L hpow hW hlen hz hne der names5 hg.2.2.2.1.1 hg.2.2.2.1.2.1 hg.2.2.2.1.2.2 i s env h hs').mono post
    have hB1 : Binds (("d", some (.int d)) :: C) (env.set "nvar" (.int (n : ℤ))) := by
      simp only [C]; bound [hB]
    generalize env.set "nvar" (.int (n : ℤ)) = env1 at hB1 ⊢
    by_cases h1 : 1 ≤ d
    · rw [if_pos h1, if_pos (by simpa using h1), bind_run, ← bind_assoc]
      refine Sim.bind (Q := Next (At (fun _ => ("d", some (.int d)) :: C) (outHeap h0 ro))) ?_ ?_
      · have hB2 := hB1
        simp only [C] at hB2
        bindings hB2
        refine for_flow (V := fun _ => ("d", some (.int d)) :: C) (H := outHeap h0 ro)
          (toVal := fun i : ℕ => .int (i : ℤ)) (l := List.range n) (range1 hW ?_ (eval_bound (v := .int (n : ℤ)) ?_)) ?_ ?_
          ⟨hB1, rfl⟩ ?_ ?_
        · pysimp [hB2]
        · pysimp [hB2]
        · rw [rangeStep_range, iterate_ints]
        · intro s; simp only [C]; fresh
        · rintro i - out env h ⟨hB, rfl⟩
          have hB' := hB.tail
          simp only [C] at hB
          bindings hB
          rw [derImplVecLoop0]
          pysimp [look, hB, decimal, L.zero]
          rw [← bind_pure (out.write _ _), step' (wrElem_run (heap_out hlen _) _ _)]
          refine Sim.bind_same fun A => ?_
          refine Sim.pure ⟨_, rfl, hB', ?_⟩
          simp only [outHeap, List.set_set]
        · rintro out env h ⟨hB, rfl⟩
          have hB' := hB
          simp only [C] at hB
          bindings hB
          pysimp [look, hB, decimal, L.one]
          rw [← bind_pure (out.write _ _), step' (wrElem_run (heap_out hlen _) _ _)]
          refine Sim.bind_same fun A => ?_
          refine Sim.pure ⟨_, rfl, hB', ?_⟩
          simp only [outHeap, List.set_set]
      · rintro out ⟨o, h⟩ ⟨env, rfl, hB, rfl⟩
        exact tail out env hB
    · rw [if_neg h1, if_neg (by simpa using h1)]
      exact tail out env1 hB1
  refine run_filled (env := ?_) ?_ (key _ ?_)
  · exact Env.set (Env.set (Env.set (Env.set (fun _ => none) "out" (.arr ro [none])) "der" (.int (der : ℤ))) "d" (.int d)) "z" (.arr rz [none])
  · pysimp [derImplVecFun]
  · bound

end Interp.Spec.PySrc
