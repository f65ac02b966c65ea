import Verif.Proofs.PyDims

/-!
# Basis functions and coordinates
-/

namespace Interp.PyParse
open Interp.Spec.PyLang
open Interp.Codegen hiding exec

set_option linter.unusedSectionVars false

variable {K : Type} [Add K] [Sub K] [Mul K] [Div K] [Neg K] [Zero K] [One K] [NatCast K]
  [IntCast K] [LT K] [DecidableLT K] [BEq K] [IntFloor K]

variable {cfg : Cfg} {pv : Val K} {c : Ctx K} {env : Env K} {s : State K} {ctx : Env K}

theorem sim_loadX (h : Rel cfg pv c env s) (i : ℕ)
    (hr : cfg.vectorized = true → ∃ m, c.pre = [m] ∧ getItem pv [.int m, .int i] = listRead c.x i >>= fun x => .ok (.flt x))
    (hp : cfg.vectorized = false → getItem pv [.int i] = listRead c.x i >>= fun x => .ok (.flt x)) :
    Sim (Codegen.exec c (.loadX i) s) (exec ctx (stmtA cfg (.loadX i)) none env) (Step cfg pv c) := by
  refine sim_set (m := listRead c.x (i : ℤ) >>= fun x => pure { s.dims i with x := some x }) h ?_
  have : eval ctx env (.index (v .points) (rowA cfg (.cons (.int i) .nil))) = listRead c.x i >>= fun x => .ok (.flt x) := by
    rcases hv : cfg.vectorized with _ | _
    · simp only [rowA, hv, eval, lookup, h.points, ok_bind, pure_eq_ok, consVal, indexVal, Bool.false_eq_true, if_false]
      exact hp hv
    · obtain ⟨m, hm, hg⟩ := hr hv
      simp only [rowA, hv, eval, lookup, h.points, h.nn hm, ok_bind, pure_eq_ok, consVal, indexVal, if_true]
      exact hg
  rw [this]
  refine .same fun x => .ok fun k' => ?_
  cases k' <;> simp [dimLook]

/-- Assignments to `Φ`. -/
def setPhis (env : Env K) (i l : ℕ) (f : ℕ → K) : List ℕ → Env K
  | [] => env
  | j :: js => setPhis (env.set (nameOf (.dim i (.phi l j))) (.flt (f j))) i l f js

theorem setPhis_other (i l : ℕ) (f : ℕ → K) (js : List ℕ) (env : Env K) {k : Key} (hk : ∀ j ∈ js, k ≠ .dim i (.phi l j)) :
    setPhis env i l f js (nameOf k) = env (nameOf k) := by
  induction js generalizing env with
  | nil => rfl
  | cons j js ih =>
    rw [setPhis, ih _ fun j hj => hk j (by simp [hj]), set_get, if_neg (hk j (by simp))]

theorem setPhis_mem (i l : ℕ) (f : ℕ → K) (js : List ℕ) (env : Env K) {j : ℕ} (hj : j ∈ js) :
    setPhis env i l f js (nameOf (.dim i (.phi l j))) = some (.flt (f j)) := by
  induction js generalizing env with
  | nil => simp at hj
  | cons j' js ih =>
    rw [setPhis]
    by_cases h : j ∈ js
    · exact ih _ h
    · have : j = j' := by simpa [h] using hj
      subst this
      rw [setPhis_other _ _ _ _ _ (by rintro a ha e; simp at e; exact h (e ▸ ha)), set_get, if_pos rfl]

theorem exec_phis (i l : ℕ) (e : ℕ → PExpr) (f : ℕ → K) (js : List ℕ) (env : Env K) (ch : Option Bool)
    (he : ∀ env' : Env K, (∀ k, (∀ j, k ≠ .dim i (.phi l j)) → env' (nameOf k) = env (nameOf k)) → ∀ j ∈ js,
      eval ctx env' (e j) = .ok (.flt (f j))) :
    exec ctx (lines (js.map fun j => [set (.dim i (.phi l j)) (e j)])) ch env = .ok (setPhis env i l f js, .next) := by
  induction js generalizing env ch with
  | nil => rfl
  | cons j js ih =>
    rw [List.map_cons, exec_set, he env (fun _ _ => rfl) j (by simp), ok_bind, setPhis]
    refine ih _ _ fun env' h' j' hj' => he env' (fun k hk => ?_) j' (by simp [hj'])
    rw [h' k hk, set_get, if_neg (hk j)]

theorem sim_phis {i l m : ℕ} {f : ℕ → K} {env' : Env K} (h : Rel cfg pv c env s)
    (h1 : ∀ j < m, env' (nameOf (.dim i (.phi l j))) = some (.flt (f j)))
    (h2 : ∀ k : Key, ¬ k.free → (∀ j < m, k ≠ .dim i (.phi l j)) → env' (nameOf k) = env (nameOf k)) :
    Rel cfg pv c env' (s.setDim i ((s.dims i).setPhi l m f)) := by
  refine h.setDim (fun k => ?_) (fun k hf hk => h2 k hf fun j _ => hk _)
  by_cases hk : ∃ j < m, k = .phi l j
  · obtain ⟨j, hj, rfl⟩ := hk
    rw [h1 j hj]
    simp [dimLook, DimVars.setPhi, hj]
  · rw [h2 _ (by simp [Key.free]) (fun j hj e => hk ⟨j, hj, by simpa using e⟩), h.dim]
    cases k with
    | phi l' j =>
      have : ¬ (l' = l ∧ j < m) := fun ⟨e, hj⟩ => hk ⟨j, hj, by rw [e]⟩
      simp [dimLook, DimVars.setPhi, this]
    | _ => rfl

theorem sim_blend1 (hK : LawfulLit K) (h : Rel cfg pv c env s) (l i : ℕ) :
    Sim (Codegen.exec c (.blend1 l i) s) (exec ctx (stmtA cfg (.blend1 l i)) none env) (Step cfg pv c) := by
  show Sim (stepBlend1 l (s.dims i) >>= fun v' => pure (s.setDim i v', Flow.next)) _ _
  simp only [stepBlend1, blend1Vals, stmtA, blend1A]
  have fin : ∀ (a b : K), Rel cfg pv c ((env.set (nameOf (.dim i (.phi l 0))) (.flt a)).set (nameOf (.dim i (.phi l 1))) (.flt b))
      (s.setDim i ((s.dims i).setPhi l 2 fun j => if j = 0 then a else b)) := by
    intro a b
    refine sim_phis h (fun j hj => ?_) (fun k _ hk => ?_)
    · have : j = 0 ∨ j = 1 := by omega
      rcases this with rfl | rfl <;> simp [set_get]
    · rw [set_get, if_neg (hk 1 (by decide)), set_get, if_neg (hk 0 (by decide))]
  split_ifs with h0 h1
  · subst h0
    simp only [bind_assoc]
    refine .var fun t ht => ?_
    have et := h.dim i .lam
    simp only [dimLook, ht, Option.map_some] at et
    simp only [exec_set, eval, lookup, et, binary, arith, toFloat, set_get, ok_bind, pure_bind, hK.one]
    simp only [reduceCtorEq, if_false, et, pure_eq_ok, ok_bind, Key.dim.injEq, and_false, exec_lines_nil]
    exact .ok ⟨fin _ _, rfl⟩
  · subst h1
    simp only [bind_assoc]
    refine .var fun t ht => ?_
    have et := h.dim i .delta
    simp only [dimLook, ht, Option.map_some] at et
    simp only [exec_set, eval, lookup, et, binary, divide, negate, toFloat, set_get, ok_bind, pure_bind, hK.one, bind_assoc, reduceCtorEq, if_false]
    refine .same fun a => ?_
    simp only [reduceCtorEq, if_false, et, pure_eq_ok, ok_bind, Key.dim.injEq, and_false, bind_assoc]
    refine .same fun b => ?_
    exact .ok ⟨fin _ _, rfl⟩
  · simp only [exec_set, eval, pure_eq_ok, ok_bind, hK.zero]
    have := fin 0 0
    simp only [exec_lines_nil]
    refine .ok ⟨?_, rfl⟩
    convert this using 4

/-- The variables `μ`. -/
def setMu (env : Env K) (i : ℕ) (m : ℕ → K) : Env K :=
  (((env.set (nameOf (.mu i 0)) (.flt (m 0))).set (nameOf (.mu i 1)) (.flt (m 1))).set (nameOf (.mu i 2)) (.flt (m 2))).set
    (nameOf (.mu i 3)) (.flt (m 3))

def muVals (l : ℕ) (lam delta : K) : ℕ → K
  | 0 => if l = 0 then lam * lam * lam else 3 * lam * lam * delta
  | 1 => if l = 0 then lam * lam else 2 * lam * delta
  | 2 => if l = 0 then lam else delta
  | _ => if l = 0 then 1 else 0

theorem execSimples_nil (ctx env : Env K) : execSimples ctx [] env = .ok (env, .next) := rfl

theorem exec_mu (hK : LawfulLit K) {l i : ℕ} {lam delta : K} (el : env (nameOf (.dim i .lam)) = some (.flt lam))
    (ed : l ≠ 0 → env (nameOf (.dim i .delta)) = some (.flt delta)) :
    execSimples ctx (muA l i) env = .ok (setMu env i (muVals l lam delta), .next) := by
  by_cases hl : l = 0
  · simp only [muA, hl, if_true]
    simp [execSimples_set, eval, lookup, el, binary, arith, toFloat, set_get, hK.one, setMu, muVals, execSimples_nil]
  · simp only [muA, hl, if_false]
    simp [execSimples_set, eval, lookup, el, ed hl, binary, arith, toFloat, set_get, hK.zero, setMu, muVals, execSimples_nil, lit3 hK, lit2 hK, hl]

theorem eval_cd (hctx : ∀ g, ctx (nameOf (.glob g)) = some (globVal g)) {g : Glob} {f : ℕ → ℕ → K} {j m : ℕ} (h : env (nameOf (.glob g)) = none)
    (hg : globVal g = Val.arr (mat f)) (hj : j < 4) (hm : m < 4) : eval ctx env (cd g j m) = .ok (.flt (f j m)) := by
  simp only [cd, eval, lookup, h, hctx, hg, pure_eq_ok, ok_bind, consVal, indexVal, getItem, toInts, mat_read f hj hm]

theorem sim_blend3 (hK : LawfulLit K) (hctx : ∀ g, ctx (nameOf (.glob g)) = some (globVal g)) (h : Rel cfg pv c env s) (l i : ℕ) :
    Sim (Codegen.exec c (.blend3 l i) s) (exec ctx (stmtA cfg (.blend3 l i)) none env) (Step cfg pv c) := by
  show Sim (stepBlend3 l (s.dims i) >>= fun v' => pure (s.setDim i v', Flow.next)) _ _
  simp only [stepBlend3, stmtA, bind_assoc]
  refine .var fun lam hlam => ?_
  have key : ∀ delta : K, (l ≠ 0 → (s.dims i).delta = some delta) →
      Sim (.ok (s.setDim i ((s.dims i).setPhi l 4 (blend3Vals l lam delta)), Flow.next)) (exec ctx (blend3A l i) none env) (Step cfg pv c) := by
    intro delta hdelta
    have el := h.dim i .lam
    have ed := h.dim i .delta
    simp only [dimLook, hlam, Option.map_some] at el ed
    have e1 : execSimples ctx (muA l i) env = .ok (setMu env i (muVals l lam delta), .next) :=
      exec_mu hK el fun hl => by rw [ed, hdelta hl]; rfl
    have other : ∀ k : Key, (∀ j, k ≠ .mu i j) → setMu env i (muVals l lam delta) (nameOf k) = env (nameOf k) := by
      intro k hk
      simp only [setMu, set_get]
      rw [if_neg (hk 3), if_neg (hk 2), if_neg (hk 1), if_neg (hk 0)]
    have mus : ∀ j < 4, setMu env i (muVals l lam delta) (nameOf (.mu i j)) = some (.flt (muVals l lam delta j)) := by
      intro j hj
      have : j = 0 ∨ j = 1 ∨ j = 2 ∨ j = 3 := by omega
      rcases this with rfl | rfl | rfl | rfl <;> simp [setMu, set_get]
    generalize setMu env i (muVals l lam delta) = env1 at e1 other mus
    set env2 : Env K := setPhis env1 i l (fun _ => 0) (List.range 4) with he2
    have env2_other : ∀ k : Key, (∀ j, k ≠ .dim i (.phi l j)) → env2 (nameOf k) = env1 (nameOf k) :=
      fun k hk => setPhis_other _ _ _ _ _ fun j _ => hk j
    have e2 : exec ctx (lines ([muA l i] ++ (List.range 4).map fun j => [set (.dim i (.phi l j)) (.float 0)])) none env
        = .ok (env2, .next) := by
      rw [List.singleton_append, lines, exec, e1, ok_bind]
      exact exec_phis i l (fun _ => .float 0) (fun _ => (0 : K)) _ _ _ fun env' _ j _ => by rw [eval, hK.zero]; rfl
    -- the three branches
    have br : ∀ (e : ℕ → PExpr) (f : ℕ → K), (∀ env' : Env K, env' (nameOf (.glob .Cd)) = none → env' (nameOf (.glob .dCd)) = none →
        (∀ j < 4, env' (nameOf (.mu i j)) = some (.flt (muVals l lam delta j))) → ∀ j < 4, eval ctx env' (e j) = .ok (.flt (f j))) →
        exec ctx (lines ((List.range 4).map fun j => [set (.dim i (.phi l j)) (e j)])) none env2
          = .ok (setPhis env2 i l f (List.range 4), .next) := by
      intro e f hef
      refine exec_phis i l e f _ _ _ fun env' h' j hj => hef env' ?_ ?_ ?_ j (by simpa using hj)
      · rw [h' _ (by simp), env2_other _ (by simp), other _ (by simp), h.glob]
      · rw [h' _ (by simp), env2_other _ (by simp), other _ (by simp), h.glob]
      · intro j hj
        rw [h' _ (by simp), env2_other _ (by simp), mus j hj]
    have fin : ∀ f : ℕ → K, (∀ j < 4, blend3Vals l lam delta j = f j) →
        Rel cfg pv c (setPhis env2 i l f (List.range 4)) (s.setDim i ((s.dims i).setPhi l 4 (blend3Vals l lam delta))) := by
      intro f hf
      refine sim_phis h (fun j hj => ?_) fun k hfr hk => ?_
      · rw [setPhis_mem _ _ _ _ _ (by simpa using hj), hf j hj]
      · rw [setPhis_other _ _ _ _ _ (by simpa using hk), he2, setPhis_other _ _ _ _ _ (by simpa using hk), other]
        rintro j rfl
        exact hfr trivial
    have elam : env2 (nameOf (.dim i .lam)) = some (.flt lam) := by
      rw [env2_other _ (by simp), other _ (by simp), el]
    have cd0 : ∀ {env' : Env K}, env' (nameOf (.glob .Cd)) = none → ∀ {j m : ℕ}, j < 4 → m < 4 →
        eval ctx env' (cd .Cd j m) = .ok (.flt (Ad j m)) := fun hg _ _ => eval_cd hctx hg rfl
    have cd1 : ∀ {env' : Env K}, env' (nameOf (.glob .dCd)) = none → ∀ {j m : ℕ}, j < 4 → m < 4 →
        eval ctx env' (cd .dCd j m) = .ok (.flt (dAd j m)) := fun hg _ _ => eval_cd hctx hg rfl
    have low := br (f := fun j => dAd j 3 * muVals l lam delta 2 + Ad j 3 * muVals l lam delta 3)
      (e := fun j => .bin .plus (.bin .star (cd .dCd j 3) (mu i 2)) (.bin .star (cd .Cd j 3) (mu i 3))) (by
        intro env' g0 g1 hm j hj
        rw [eval_bin (by simp) ((eval_bin (by simp) (cd1 g1 hj (by decide)) (eval_key (hm 2 (by decide)))).trans rfl)
          ((eval_bin (by simp) (cd0 g0 hj (by decide)) (eval_key (hm 3 (by decide)))).trans rfl)]
        rfl)
    have high := br (f := fun j => (3 * Ad j 0 + 2 * Ad j 1 + Ad j 2) * (muVals l lam delta 2 - muVals l lam delta 3)
        + (Ad j 0 + Ad j 1 + Ad j 2 + Ad j 3) * muVals l lam delta 3)
      (e := fun j => .bin .plus
        (.bin .star
          (.paren (.bin .plus (.bin .plus (.bin .star (.int 3) (cd .Cd j 0)) (.bin .star (.int 2) (cd .Cd j 1))) (cd .Cd j 2)))
          (.paren (.bin .minus (mu i 2) (mu i 3))))
        (.bin .star
          (.paren (.bin .plus (.bin .plus (.bin .plus (cd .Cd j 0) (cd .Cd j 1)) (cd .Cd j 2)) (cd .Cd j 3)))
          (mu i 3))) (by
        intro env' g0 g1 hm j hj
        have a0 := cd0 g0 hj (m := 0) (by decide)
        have a1 := cd0 g0 hj (m := 1) (by decide)
        have a2 := cd0 g0 hj (m := 2) (by decide)
        have a3 := cd0 g0 hj (m := 3) (by decide)
        have m2 := eval_key (ctx := ctx) (hm 2 (by decide))
        have m3 := eval_key (ctx := ctx) (hm 3 (by decide))
        have b0 : eval ctx env' (.bin .star (.int 3) (cd .Cd j 0)) = .ok (.flt (3 * Ad j 0)) := by
          rw [eval_bin (by simp) (eval_int 3) a0]
          simp [binary, arith, toFloat, lit3 hK]
        have b1 : eval ctx env' (.bin .star (.int 2) (cd .Cd j 1)) = .ok (.flt (2 * Ad j 1)) := by
          rw [eval_bin (by simp) (eval_int 2) a1]
          simp [binary, arith, toFloat, lit2 hK]
        have c0 := (eval_bin (o := .plus) (by simp) ((eval_bin (o := .plus) (by simp) b0 b1).trans rfl) a2).trans rfl
        have c1 := (eval_bin (o := .minus) (by simp) m2 m3).trans rfl
        have c2 := (eval_bin (o := .plus) (by simp) ((eval_bin (o := .plus) (by simp) ((eval_bin (o := .plus) (by simp) a0 a1).trans rfl) a2).trans rfl) a3).trans rfl
        rw [eval_bin (by simp) ((eval_bin (by simp) ((eval_paren _).trans c0) ((eval_paren _).trans c1)).trans rfl)
          ((eval_bin (by simp) ((eval_paren _).trans c2) m3).trans rfl)]
        rfl)
    have mid := br (f := fun j => Ad j 0 * muVals l lam delta 0 + Ad j 1 * muVals l lam delta 1 + Ad j 2 * muVals l lam delta 2
        + Ad j 3 * muVals l lam delta 3)
      (e := fun j => .paren (.bin .plus (.bin .plus (.bin .plus
        (.bin .star (cd .Cd j 0) (mu i 0)) (.bin .star (cd .Cd j 1) (mu i 1)))
        (.bin .star (cd .Cd j 2) (mu i 2))) (.bin .star (cd .Cd j 3) (mu i 3)))) (by
        intro env' g0 g1 hm j hj
        have t : ∀ m < 4, eval ctx env' (.bin .star (cd .Cd j m) (mu i m)) = .ok (.flt (Ad j m * muVals l lam delta m)) := fun m hm' =>
          (eval_bin (by simp) (cd0 g0 hj hm') (eval_key (hm m hm'))).trans rfl
        rw [eval_paren, eval_bin (by simp) ((eval_bin (o := .plus) (by simp) ((eval_bin (o := .plus) (by simp) (t 0 (by decide)) (t 1 (by decide))).trans rfl)
          (t 2 (by decide))).trans rfl) (t 3 (by decide))]
        rfl)
    have hb : ∀ j, blend3Vals l lam delta j = if lam < 0 then dAd j 3 * muVals l lam delta 2 + Ad j 3 * muVals l lam delta 3
        else if 1 < lam then (3 * Ad j 0 + 2 * Ad j 1 + Ad j 2) * (muVals l lam delta 2 - muVals l lam delta 3)
          + (Ad j 0 + Ad j 1 + Ad j 2 + Ad j 3) * muVals l lam delta 3
        else Ad j 0 * muVals l lam delta 0 + Ad j 1 * muVals l lam delta 1 + Ad j 2 * muVals l lam delta 2
          + Ad j 3 * muVals l lam delta 3 := fun j => rfl
    have t1 : eval ctx env2 (.bin .lt (vd i .lam) (.int 0)) = .ok (.bool (decide (lam < 0))) := by
      rw [eval_bin (by simp) (eval_key elam) (eval_int 0)]
      simp [binary, less, toFloat, lit0 hK]
    have t2 : eval ctx env2 (.bin .gt (vd i .lam) (.int 1)) = .ok (.bool (decide (1 < lam))) := by
      rw [eval_bin (by simp) (eval_key elam) (eval_int 1)]
      simp [binary, less, toFloat, lit1 hK]
    rw [blend3A, exec_append (by trivial), e2, ok_bind]
    simp only [andThen, exec, t1, ok_bind, truth, pure_eq_ok, lowA, highA, midA]
    by_cases c1 : lam < 0
    · simp only [c1, decide_true, if_true, low, ok_bind]
      exact .ok ⟨fin _ fun j _ => by rw [hb, if_pos c1], rfl⟩
    · simp only [c1, decide_false, Bool.false_eq_true, if_false, t2, ok_bind]
      by_cases c2 : 1 < lam
      · simp only [c2, decide_true, if_true, high, ok_bind]
        exact .ok ⟨fin _ fun j _ => by rw [hb, if_neg c1, if_pos c2], rfl⟩
      · simp only [c2, decide_false, Bool.false_eq_true, if_false, mid, ok_bind]
        exact .ok ⟨fin _ fun j _ => by rw [hb, if_neg c1, if_neg c2], rfl⟩
  split_ifs with hl
  · exact key 0 fun h => absurd hl h
  · simp only [bind_assoc]
    exact .var fun d hd => key d fun _ => hd

end Interp.PyParse
