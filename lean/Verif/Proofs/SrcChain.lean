import Verif.Proofs.SrcVectors

/-!
# The texts of `s_n` and `a_chain`
-/

set_option linter.unusedSectionVars false

namespace Interp.Spec.PySrc
open Interp Interp.Smolyak

variable {K : Type} [Add K] [Sub K] [Mul K] [Div K] [Neg K] [Zero K] [One K] [NatCast K] [IntCast K]
  [LT K] [DecidableLT K] [LE K] [DecidableLE K] [BEq K] [IntFloor K] [Interp.Smolyak.Trig K]

/-- What the numbers of `s_n` need: the literals, and that `np.arange(1.0, m + 1.0)` is 1, …, `m`. -/
structure GridLaws (K : Type) [Add K] [Sub K] [Mul K] [Div K] [Neg K] [Zero K] [One K] [NatCast K] [IntCast K] [IntFloor K]
    [Interp.Smolyak.Trig K] : Prop extends LitLaws K where
  tol : (decimal 1 14 : K) = Trig.tol
  len : ∀ m : ℕ, -IntFloor.ifloor (-((m : K) + 1 - 1)) = (m : ℤ)
  two : (1 : K) + 1 = ((2 : ℕ) : K)
  more : ∀ i : ℕ, (1 : K) + (i : K) * (1 + 1 - 1) = ((i + 1 : ℕ) : K)

theorem arange_step {α : Type} (L : GridLaws K) (m : ℕ) (h : Heap K) (k : Val K → M K α) :
    (builtin .arange [(.flt 1 : Val K), .flt ((m : K) + 1)] >>= k) h =
      k (.arr h.length [none]) (h ++ [vecOf ((List.range m).map fun j : ℕ => ((j + 1 : ℕ) : K))]) := by
  refine step ?_
  have : (List.range (-IntFloor.ifloor (-((m : K) + 1 - 1))).toNat).map (fun i : ℕ =>
      if i = 0 then (1 : K) else if i = 1 then 1 + 1 else 1 + (i : K) * (1 + 1 - 1)) = (List.range m).map fun j : ℕ => ((j + 1 : ℕ) : K) := by
    rw [L.len, Int.toNat_natCast]
    refine List.map_congr_left fun i _ => ?_
    split
    · next h0 => subst h0; exact L.one.symm
    · split
      · next h1 => subst h1; exact L.two
      · exact L.more i
  simp only [builtin, builtin2, this]
  rfl

theorem attr_arange : getAttr (.np : Val K) "arange" = pure (.builtin .arange) := rfl
theorem attr_cos : getAttr (.np : Val K) "cos" = pure (.builtin .cos) := rfl
theorem attr_abs : getAttr (.np : Val K) "abs" = pure (.builtin .abs) := rfl
theorem attr_where : getAttr (.np : Val K) "where" = pure (.builtin .where) := rfl
theorem attr_pi : getAttr (.np : Val K) "pi" = pure (.flt Trig.pi) := rfl
theorem attr_array : getAttr (.np : Val K) "array" = pure (.builtin .array) := rfl
theorem cos_call (r : ℕ) (p : List (Option ℤ)) : builtin .cos [(.arr r p : Val K)] = mapArr Trig.cos r p := rfl
theorem abs_call (r : ℕ) (p : List (Option ℤ)) : builtin .abs [(.arr r p : Val K)] = mapArr (fun x => if x < 0 then -x else x) r p := rfl
theorem bin_fa (o : Op) (x : K) (r : ℕ) (p : List (Option ℤ)) : binOp o (.flt x : Val K) (.arr r p) = arrayOp o (.flt x) (.arr r p) := rfl
theorem asIx_where (zs : List ℤ) : asIx (.tup [.ints zs] : Val K) = pure (.pick zs) := rfl
theorem asIx_range (zs : List ℤ) : asIx (.range zs : Val K) = pure (.pick zs) := rfl
theorem subs_call (W : World K) (env : Env K) (f es es' : Ex) : evalSubs W env (.cons (.call f es) es') =
    eval W env (.call f es) >>= fun v => asIx v >>= fun s => evalSubs W env es' >>= fun ss => pure (s :: ss) := rfl
theorem put_flt (r : ℕ) (pat : List (Option ℤ)) (subs : List Ix) (x : K) : putItem (.arr r pat : Val K) subs (.flt x) = store r pat subs x := rfl

theorem sN_run (L : GridLaws K) (n m : ℕ) (hm : 1 ≤ m) (h : Heap K) :
    Makes (runFun (world smolProg (n + 1)) sNFun [.int m]) h (sN m) := by
  have L1 := L.one
  rw [runFun, Makes]
  by_cases h1 : m = 1
  · subst h1
    pysimp [sNFun, sNBody, look, sglob_np, attr_array, Nat.cast_one, decide_true, if_true, L.zero, decimal_nat]
    have e : builtin .array [(.list [.flt 0] : Val K)] h = pure (.arr h.length [none], h ++ [vecOf [0]]) := by
      have : builtin .array [(.list [.flt 0] : Val K)] = (lift (arrOf [(.flt 0 : Val K)]) >>= fun A => newArr A >>= fun r =>
        (pure (.arr r (whole A.shape.length)) : M K (Val K))) := rfl
      rw [this, show [(.flt 0 : Val K)] = [(0 : K)].map .flt from rfl, arrOf_flts]
      rfl
    rw [step e]
    exact ⟨_, _, rfl, ⟨vecOf [0], by simp, by simpa [sN] using isVec_vecOf [(0 : K)]⟩, List.prefix_append _ _, le_refl _⟩
  have hm1 : ¬ ((m : ℤ) = 1) := by omega
  have hm0 : (0 : ℤ) ≤ (m : ℤ) - 1 := by omega
  have hmi : (2 : ℤ) ^ ((m : ℤ) - 1).toNat + 1 = ((2 ^ (m - 1) + 1 : ℕ) : ℤ) := by
    rw [show ((m : ℤ) - 1).toNat = m - 1 by omega]; push_cast; rfl
  pysimp [sNFun, sNBody, look, sglob_np, attr_arange, int_pow, Nat.cast_one, Nat.cast_ofNat, hm1, hm0, hmi, L.int, decimal_nat, L1, decide_false,
    Bool.false_eq_true, if_false, if_true]
  rw [arange_step L]
  have p0 : h <+: h ++ [vecOf ((List.range (2 ^ (m - 1) + 1)).map fun j : ℕ => ((j + 1 : ℕ) : K))] := List.prefix_append _ _
  have v0 : HasVec (h ++ [vecOf ((List.range (2 ^ (m - 1) + 1)).map fun j : ℕ => ((j + 1 : ℕ) : K))]) h.length
    ((List.range (2 ^ (m - 1) + 1)).map fun j : ℕ => ((j + 1 : ℕ) : K)) := ⟨vecOf _, by simp, isVec_vecOf _⟩
  generalize h ++ [vecOf ((List.range (2 ^ (m - 1) + 1)).map fun j : ℕ => ((j + 1 : ℕ) : K))] = H0 at p0 v0 ⊢
  pysimp [look, sglob_np, attr_cos, attr_pi, bin_a, bin_fa, L1, decimal_nat, subs_call, attr_where, attr_abs]
  obtain ⟨r1, H1, e1, v1, p1, l1⟩ := makes (vec_op (K := K) (o := .minus) rfl v0 1)
  rw [step e1, bin_fa]
  obtain ⟨r2, H2, e2, v2, p2, l2⟩ := makes (op_vec (K := K) (o := .star) rfl v1 Trig.pi)
  rw [step e2, bin_a]
  obtain ⟨r3, H3, e3, v3, p3, l3⟩ := makes (vec_op (K := K) (o := .slash) rfl v2 (((2 ^ (m - 1) + 1 : ℕ) : K) - 1))
  rw [step e3, cos_call]
  obtain ⟨r4, H4, e4, v4, p4, l4⟩ := makes (vec_map (K := K) Trig.cos v3)
  rw [step e4, bin_fa]
  obtain ⟨r5, H5, e5, v5, p5, l5⟩ := makes (op_vec (K := K) (o := .star) rfl v4 (-1))
  rw [step e5]
  pysimp [look, abs_call]
  obtain ⟨r6, H6, e6, v6, p6, l6⟩ := makes (vec_map (K := K) (fun x => if x < 0 then -x else x) v5)
  rw [step e6]
  rw [step (vec_lt v6 _), where_run, pure_bind_M, asIx_where, pure_bind_M, put_flt, List.map_map]
  obtain ⟨B, e7, v7⟩ := pickStore_run (K := K) ((fun y => decide (y < decimal 1 14)) ∘ fun x => if x < 0 then -x else x) ((0 : ℕ) : K) (v5.pre p6)
  rw [step e7]
  have le5 : h.length ≤ r5 := (p0.trans (p1.trans (p2.trans (p3.trans p4)))).length_le.trans l5
  refine ⟨_, _, rfl, ?_, pre_set (p0.trans (p1.trans (p2.trans (p3.trans (p4.trans (p5.trans p6)))))) le5 B, le5⟩
  have := hasVec_set (v5.pre p6).bound v7
  rw [sN, if_neg h1]
  simp only [List.map_map] at this ⊢
  convert this using 2
  funext j
  simp only [Function.comp, flush, absK, L.tol, L.zero, decide_eq_true_eq]

/-- The dictionary of `a_chain` as a value: the first two levels are lists, the others tuples. -/
def gridVal (d : Dict K) : List (ℤ × Val K) := d.map fun p => (p.1, if p.1 ≤ 2 then .list (p.2.map .flt) else .tup (p.2.map .flt))

/-- A pass of the loop of `a_chain`. -/
def gridStep (s : Dict K × List K) (seq : ℤ) : Dict K × List K := ((seq, odds s.2) :: s.1, evens s.2)

theorem size_vec {h : Heap K} {r : ℕ} {xs : List K} (hv : HasVec h r xs) : getAttr (.arr r [none] : Val K) "size" h = pure (.int xs.length, h) := by
  obtain ⟨A, hA, hV⟩ := hv
  have : getAttr (.arr r [none] : Val K) "size" = (getArr r >>= fun A => pure (.int ((viewShape [none] A.shape).prod : ℕ)) : M K (Val K)) := rfl
  rw [this, bind_run, getArr_run hA, pure_bind, hV.1]
  simp [viewShape, pure_run]

theorem tuple_vec {h : Heap K} {r : ℕ} {xs : List K} (hv : HasVec h r xs) :
    builtin .tuple [(.arr r [none] : Val K)] h = pure (.tup (xs.map .flt), h) := by
  obtain ⟨A, hA, hV⟩ := hv
  have : builtin .tuple [(.arr r [none] : Val K)] = ((elements r [none] >>= fun xs => pure (xs.map .flt)) >>= fun vs => pure (.tup vs) : M K (Val K)) := rfl
  rw [this, bind_assoc_M, bind_run, elements_vec hV hA]
  rfl

theorem range3 (a b c : ℤ) : builtin .range [(.int a : Val K), .int b, .int c] = if c = 0 then raise .value else pure (.range (rangeStep a b c)) := rfl

theorem aChain_pass (n : ℕ) {env : Env K} {h H : Heap K} {s : Dict K × List K} {r : ℕ} (seq : ℤ) (h3 : 3 ≤ seq) (hk : ∀ p ∈ s.1, p.1 ≠ seq)
    (h1 : env "A_chain" = some (.dict (gridVal s.1))) (h2 : env "Sn" = some (.arr r [none])) (hv : HasVec H r s.2) (hp : h <+: H)
    (g1 : env "tuple" = none) (g2 : env "range" = none) (hs : env "seq" = some (.int seq)) :
    ∃ env' H' r', exec (world smolProg (n + 1)) aChainLoop0 env H = pure (.next env', H') ∧
      env' "A_chain" = some (.dict (gridVal (gridStep s seq).1)) ∧ env' "Sn" = some (.arr r' [none]) ∧ HasVec H' r' (gridStep s seq).2 ∧ h <+: H' ∧
      Agree ["num", "A_chain", "Sn"] env env' := by
  unfold aChainLoop0
  pysimp [look, h1, h2, hs]
  rw [step (size_vec hv)]
  pysimp [look, h1, h2, hs, g1, g2, sglob_tuple, sglob_range, subs_call, asIx_range, Nat.cast_one, Nat.cast_ofNat, Nat.cast_zero]
  have ro : builtin .range [(.int 1 : Val K), .int (s.2.length : ℤ), .int 2] = pure (.range (rangeStep 1 (s.2.length : ℤ) 2)) := rfl
  have re : builtin .range [(.int 0 : Val K), .int (s.2.length : ℤ), .int 2] = pure (.range (rangeStep 0 (s.2.length : ℤ) 2)) := rfl
  rw [ro, pure_bind_M, asIx_range, pure_bind_M]
  obtain ⟨r1, H1, e1, v1, p1, -⟩ := makes (pick_odds hv)
  rw [step e1, step (tuple_vec v1), put_dict, lift_pure, pure_bind_M, re, pure_bind_M, asIx_range, pure_bind_M]
  obtain ⟨r2, H2, e2, v2, p2, -⟩ := makes (pick_evens (hv.pre p1))
  rw [step e2]
  have hfil : (gridVal (K := K) s.1).filter (fun p => p.1 ≠ seq) = gridVal s.1 := by
    rw [List.filter_eq_self]
    intro p hp
    obtain ⟨q, hq, rfl⟩ := List.mem_map.mp hp
    simpa using hk q hq
  refine ⟨_, H2, r2, rfl, ?_, by pysimp [], v2, hp.trans (p1.trans p2), ?_⟩
  · have hval : (gridVal (gridStep s seq).1 : List (ℤ × Val K)) = (seq, .tup ((odds s.2).map .flt)) :: gridVal s.1 := by
      simp only [gridStep, gridVal, List.map_cons]
      rw [if_neg (by omega)]
    pysimp [hfil, hval]
  · exact (((Agree.refl _ env).set (by simp) _).set (by simp) _).set (by simp) _

theorem aChain_loop (n : ℕ) (h : Heap K) : ∀ (l : List ℤ) (s : Dict K × List K) (env : Env K) (H : Heap K) (r : ℕ), l.Nodup → (∀ i ∈ l, 3 ≤ i) →
    (∀ p ∈ s.1, p.1 ∉ l) → env "A_chain" = some (.dict (gridVal s.1)) → env "Sn" = some (.arr r [none]) → HasVec H r s.2 → h <+: H →
    env "tuple" = none → env "range" = none →
    ∃ env' H', forLoop (fun v env => assign (world smolProg (n + 1)) env (.name "seq") v >>= fun env => exec (world smolProg (n + 1)) aChainLoop0 env)
      (l.map .int) env H = pure (.next env', H') ∧ env' "A_chain" = some (.dict (gridVal (l.foldl gridStep s).1)) ∧ h <+: H'
  | [], s, env, H, r, _, _, _, h1, _, _, hp, _, _ => ⟨env, H, rfl, h1, hp⟩
  | i :: l, s, env, H, r, hn, h3, hk, h1, h2, hv, hp, g1, g2 => by
    obtain ⟨env1, H1, r1, e, a1, a2, a3, a4, ag⟩ := aChain_pass (K := K) n (env := env.set "seq" (.int i)) i (h3 i (by simp))
      (fun p hp hi => hk p hp (by simp [hi])) (by pysimp [h1]) (by pysimp [h2]) hv hp (by pysimp [g1]) (by pysimp [g2]) (by pysimp [])
    rw [List.nodup_cons] at hn
    obtain ⟨env', H', e', b1, b2⟩ := aChain_loop n h l (gridStep s i) env1 H1 r1 hn.2 (fun j hj => h3 j (by simp [hj])) (by
      intro p hp hl
      simp only [gridStep, List.mem_cons] at hp
      rcases hp with rfl | hp
      · exact hn.1 hl
      · exact hk p hp (by simp [hl])) a1 a2 a3 a4 (by rw [ag _ (by decide)]; pysimp [g1]) (by rw [ag _ (by decide)]; pysimp [g2])
    refine ⟨env', H', ?_, b1, b2⟩
    rw [List.map_cons, forLoop]
    have : (assign (world smolProg (n + 1)) env (.name "seq") (.int i) >>= fun env => exec (world smolProg (n + 1)) aChainLoop0 env) H =
        pure (.next env1, H1) := by
      rw [assign_name, pure_bind_M, e]
    rw [step this]
    exact e'

theorem aChain_run (L : GridLaws K) (n m : ℕ) (hm : 1 ≤ m) (h : Heap K) :
    ∃ H, runFun (world smolProg (n + 2)) aChainFun [.int m] h = pure (.dict (gridVal (aChain m)), H) ∧ h <+: H := by
  obtain ⟨r, H0, e0, v0, p0, -⟩ := sN_run L n m hm h
  have hc : callN smolProg (n + 2) (.fn sNFun) [(.int (m : ℤ) : Val K)] h = pure (.arr r [none], H0) := by
    rw [callN_fn]
    exact e0
  rw [runFun]
  pysimp [aChainFun, aChainBody, look, sglob_sN]
  rw [step hc]
  pysimp [look, put_dict, sglob_range, L.zero, L.one, decimal_nat, exec_for, rangeStep_down, Nat.cast_one, Nat.cast_ofNat]
  have hrange : builtin .range [(.int (m : ℤ) : Val K), .int 2, .int (-1)] = pure (.range (rangeDownZ m 2)) := by
    rw [← rangeStep_down]; rfl
  have hit : iterate (.range (rangeDownZ m 2) : Val K) = pure ((rangeDownZ m 2).map .int) := rfl
  rw [hrange, pure_bind_M, hit, pure_bind_M]
  have hmem : ∀ i ∈ rangeDownZ (m : ℤ) 2, 3 ≤ i := by
    intro i hi
    simp only [rangeDownZ, List.mem_map, List.mem_range] at hi
    obtain ⟨a, ha, rfl⟩ := hi
    simp only [Int.ofNat_eq_natCast]
    omega
  obtain ⟨env', H', e, a1, a2⟩ := aChain_loop (K := K) (n + 1) h (rangeDownZ m 2) ([(2, [-1, 1]), (1, [0])], sN m)
    (((((Env.set (fun _ => none) "n" (.int (m : ℤ))).set "Sn" (.arr r [none])).set "A_chain" (.dict [])).set "A_chain"
      (.dict ((1, .list [.flt 0]) :: List.filter (fun p => decide (p.1 ≠ 1)) []))).set "A_chain"
        (.dict ((2, .list [.flt (-1), .flt 1]) :: List.filter (fun p => decide (p.1 ≠ 2)) ((1, .list [.flt 0]) :: List.filter (fun p => decide (p.1 ≠ 1)) []))))
    H0 r (by
      rw [rangeDownZ]
      refine (List.nodup_range).map fun a b hab => ?_
      simp only [Int.ofNat_eq_natCast] at hab
      omega) hmem (by
      intro p hp hl
      have := hmem _ hl
      simp only [List.mem_cons, List.not_mem_nil, or_false] at hp
      rcases hp with rfl | rfl <;> simp at this) rfl rfl v0 p0 rfl rfl
  simp only [assign_name, pure_bind_M] at e
  rw [step e]
  pysimp [look, a1]
  exact ⟨H', rfl, a2⟩

end Interp.Spec.PySrc
