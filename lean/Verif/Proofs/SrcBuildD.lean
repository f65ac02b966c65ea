import Verif.Proofs.SrcBuildB

/-!
# The text of `build_B`: the derivatives
-/

set_option linter.unusedSectionVars false

namespace Interp.Spec.PySrc
open Interp Interp.Smolyak

variable {K : Type} [Add K] [Sub K] [Mul K] [Div K] [Neg K] [Zero K] [One K] [NatCast K] [IntCast K]
  [LT K] [DecidableLT K] [LE K] [DecidableLE K] [BEq K] [IntFloor K] [Interp.Smolyak.Trig K]

theorem opArr_int {h : Heap K} {o : Op} {f : K → K → K} {z : ℤ} {a : Val K} {A : NdArray K} (hf : elemOp (K := K) o = some f)
    (ha : OpArr h a A) :
    ∃ C, arrayOp o a (.int z) h = pure (.arr h.length (whole A.shape.length), h ++ [C]) ∧ Alike ⟨A.shape, fun idx => f (A.get idx) (z : K)⟩ C := by
  obtain ⟨A', hA', hAA⟩ := ha
  refine ⟨⟨A'.shape, fun idx => f (A'.get idx) (z : K)⟩, ?_, hAA.1, fun idx hidx => ?_⟩
  · rw [arrayOp_run (K := K) (y := .num (z : K)) hf hA' rfl rfl, hAA.1]
  · simp only
    rw [hAA.2 idx hidx]

/-- `A[c, :, :] = S`. -/
theorem store_slab {H : Heap K} {r r' a b N c : ℕ} {A S : NdArray K} (hr : H[r]? = some A) (hA : A.shape = [a, b, N]) (hc : c < a)
    (hr' : H[r']? = some S) (hS : S.shape = [b, N]) :
    ∃ A', putItem (.arr r [none, none, none] : Val K) [.at (c : ℤ), .full, .full] (.arr r' [none, none]) H = pure ((), H.set r A') ∧
      A'.shape = [a, b, N] ∧ ∀ k i j, A'.get [k, i, j] = if k = c then S.get [i, j] else A.get [k, i, j] := by
  have hw : wrapIndex a (c : ℤ) = some c := by simp [wrapIndex, hc]
  obtain ⟨B, hB, hBs, hBg⟩ := contents_whole S
  rw [hS] at hB hBs hBg
  have hB : PySrc.contents S [none, none] = pure B := hB
  refine ⟨⟨A.shape, fun idx => match within [some (c : ℤ), none, none] A.shape idx with
        | some k => B.get k
        | none => A.get idx⟩, ?_, hA, fun k i j => ?_⟩
  · have hC : PySrc.contents A [some (c : ℤ), none, none] = pure ⟨[b, N], fun idx => A.get ((place [some (c : ℤ), none, none] A.shape idx).getD [])⟩ := by
      rw [PySrc.contents, hA]
      simp only [place, hw, Option.map, viewShape]
    have hrf : refine [none, none, none] (expand (free [none, none, none]) [.at (c : ℤ), .full, .full]) = some [some (c : ℤ), none, none] := rfl
    simp only [putItem, bind_run, getArr_run hr', pure_bind, hB, lift_run]
    simp only [storeArr, hrf, bind_run, getArr_run hr, pure_bind, hC, lift_run, ← hBs, if_true, setArr]
    rfl
  · simp only [hA, within, hw, Option.some.injEq]
    by_cases hk : c = k
    · subst hk
      simp [hBg [i, j] rfl]
    · rw [if_neg hk, if_neg fun h => hk h.symm]

/-- `A[c, e, :] = v`. -/
theorem store_line {H : Heap K} {r a b N c e : ℕ} {A : NdArray K} {v : Val K} {f : ℕ → K} (hr : H[r]? = some A) (hA : A.shape = [a, b, N]) (hc : c < a)
    (he : e < b) (hv : VecOp H N v f) :
    ∃ A', putItem (.arr r [none, none, none] : Val K) [.at (c : ℤ), .at (e : ℤ), .full] v H = pure ((), H.set r A') ∧
      A'.shape = [a, b, N] ∧ ∀ k i j, A'.get [k, i, j] = if k = c ∧ i = e then f j else A.get [k, i, j] := by
  obtain ⟨r', p, rfl, -⟩ := id hv
  obtain ⟨D, B, hD, hB, hs, hg⟩ := hv.contents
  have hw : wrapIndex a (c : ℤ) = some c := by simp [wrapIndex, hc]
  have hw' : wrapIndex b (e : ℤ) = some e := by simp [wrapIndex, he]
  refine ⟨⟨A.shape, fun idx => match within [some (c : ℤ), some (e : ℤ), none] A.shape idx with
        | some k => B.get k
        | none => A.get idx⟩, ?_, hA, fun k i j => ?_⟩
  · have hC : PySrc.contents A [some (c : ℤ), some (e : ℤ), none] = pure ⟨[N], fun idx => A.get ((place [some (c : ℤ), some (e : ℤ), none] A.shape idx).getD [])⟩ := by
      rw [PySrc.contents, hA]
      simp only [place, hw, hw', Option.map, viewShape]
    have hrf : refine [none, none, none] (expand (free [none, none, none]) [.at (c : ℤ), .at (e : ℤ), .full]) = some [some (c : ℤ), some (e : ℤ), none] := rfl
    simp only [putItem, bind_run, getArr_run hD, pure_bind, hB, lift_run]
    simp only [storeArr, hrf, bind_run, getArr_run hr, pure_bind, hC, lift_run, hs, if_true, setArr]
    rfl
  · simp only [hA, within, hw, hw', Option.some.injEq]
    by_cases hk : c = k
    · subst hk
      by_cases hi : e = i
      · subst hi
        simp [hg]
      · have : ¬ i = e := fun h => hi h.symm
        simp [hi, this]
    · have : ¬ k = c := fun h => hk h.symm
      simp [hk, this]

/-- A pass of the loop that multiplies by the degree. -/
theorem uLoop_pass {W : World K} {rU a b N c : ℕ} {U : NdArray K} {H : Heap K} {env : Env K} (hr : H[rU]? = some U) (hU : U.shape = [a, b, N]) (hc : c < a)
    (h1 : env "Us" = some (.arr rU [none, none, none])) (h2 : env "i" = some (.int (c : ℤ))) :
    ∃ H' U', exec W buildBLoop1 env H = pure (.next env, H'.set rU U') ∧ H <+: H' ∧ U'.shape = [a, b, N] ∧
      ∀ k i j, U'.get [k, i, j] = if k = c then U.get [k, i, j] * ((c : ℤ) : K) else U.get [k, i, j] := by
  have hw : wrapIndex a (c : ℤ) = some c := by simp [wrapIndex, hc]
  obtain ⟨C, e, hC⟩ := opArr_int (K := K) (o := .star) (z := (c : ℤ)) rfl (OpArr.head hr ⟨rfl, fun _ _ => rfl⟩ hU hw)
  obtain ⟨U', e', hs, hg⟩ := store_slab (get_app hr [C]) hU hc (r' := H.length) (S := C) (by simp) hC.1.symm
  refine ⟨H ++ [C], U', ?_, List.prefix_append _ _, hs, fun k i j => ?_⟩
  · unfold buildBLoop1
    have hit : item (.arr rU [none, none, none] : Val K) [.at (c : ℤ), .full, .full] = pure (.arr rU [some (c : ℤ), none, none]) := rfl
    pysimp [look, h1, h2, hit]
    rw [bin_a]
    erw [step e]
    erw [step e']
    rfl
  · rw [hg]
    split
    · next hk =>
      subst hk
      rw [← hC.2 [i, j] rfl]
    · rfl

theorem uLoop_run {W : World K} {rU a b N : ℕ} {h0 : Heap K} {U0 : NdArray K} (h0U : h0.length ≤ rU) : ∀ (m c : ℕ) (H : Heap K) (U : NdArray K) (env : Env K),
    c + m = a → h0 <+: H → H[rU]? = some U → U.shape = [a, b, N] →
    (∀ k i j, U.get [k, i, j] = if k < c then U0.get [k, i, j] * ((k : ℤ) : K) else U0.get [k, i, j]) → env "Us" = some (.arr rU [none, none, none]) →
    ∃ env' H' U', forLoop (fun v env => assign W env (.name "i") v >>= fun env => exec W buildBLoop1 env)
        ((List.range' c m).map fun i : ℕ => (.int (i : ℤ) : Val K)) env H = pure (.next env', H') ∧
      Agree ["i"] env env' ∧ h0 <+: H' ∧ (∀ r A, r ≠ rU → H[r]? = some A → H'[r]? = some A) ∧ H'[rU]? = some U' ∧ U'.shape = [a, b, N] ∧
      ∀ k i j, k < a → U'.get [k, i, j] = U0.get [k, i, j] * ((k : ℤ) : K)
  | 0, c, H, U, env, hc, hp, hr, hU, hg, h1 =>
    ⟨env, H, U, rfl, Agree.refl _ _, hp, fun _ _ _ h => h, hr, hU, fun k i j hk => by rw [hg, if_pos (by omega)]⟩
  | m + 1, c, H, U, env, hc, hp, hr, hU, hg, h1 => by
    obtain ⟨H1, U1, e1, p1, s1, g1⟩ := uLoop_pass (W := W) (env := env.set "i" (.int (c : ℤ))) (c := c) hr hU (by omega) (by pysimp [h1]) (by pysimp [])
    have hU1 : rU < H1.length := lt_of_lt_of_le (List.getElem?_eq_some_iff.mp hr).1 p1.length_le
    obtain ⟨env', H', U', e2, ha, p2, o2, u2, s2, g2⟩ := uLoop_run (W := W) (U0 := U0) h0U m (c + 1) (H1.set rU U1) U1 (env.set "i" (.int (c : ℤ)))
      (by omega) (pre_set (hp.trans p1) h0U U1) (by simp [hU1]) s1
      (fun k i j => by
        rw [g1, hg]
        by_cases hk : k = c
        · subst hk; rw [if_pos rfl, if_neg (by omega), if_pos (by omega)]
        · rw [if_neg hk]
          by_cases hk2 : k < c
          · rw [if_pos hk2, if_pos (by omega)]
          · rw [if_neg hk2, if_neg (by omega)])
      (by pysimp [h1])
    refine ⟨env', H', U', ?_, ?_, p2, fun r A hne hA => o2 r A hne (set_get_ne (get_pre hA p1) fun h => hne h.symm), u2, s2, g2⟩
    · rw [List.range'_succ, List.map_cons, forLoop]
      pysimp []
      rw [step e1]
      exact e2
    · intro s hs
      rw [ha s hs]
      simp only [List.mem_cons, List.not_mem_nil, or_false] at hs
      pysimp [if_neg hs]

/-- The rows of the derivative with respect to the variable number `e`. -/
theorem drows_ok {h : Heap K} {rT rU a a' b b' N d : ℕ} {T Ts U Us : NdArray K} {cs : List ℤ} {ks us : List ℕ} (e : ℕ) (hr : h[rT]? = some T) (hT : Alike Ts T)
    (hs : Ts.shape = [a, b, N]) (hf : factorRows Ts d cs = pure ks) (hr' : h[rU]? = some U) (hU : Alike Us U)
    (hs' : Us.shape = [a', b', N]) (hf' : factorRows Us d cs = pure us) :
    List.Forall₂ (VecOp h N) ((List.range d).map fun i : ℕ => (if e ≠ i then .arr rT [some (cs.getD i 0 - 1), some (i : ℤ), none] else
        .arr rU [some (cs.getD i 0 - 1), some (i : ℤ), none] : Val K))
      (ks.mapIdx fun i k => fun j => if e ≠ i then Ts.get [k, i, j] else Us.get [us.getD i 0, i, j]) := by
  obtain ⟨hl, hk⟩ := factorRows_get hf
  obtain ⟨hl', hk'⟩ := factorRows_get hf'
  rw [List.forall₂_iff_get]
  refine ⟨by simp [hl], fun i h1 h2 => ?_⟩
  have hi : i < ks.length := by simpa using h2
  obtain ⟨c, hc, hw, hb⟩ := hk i hi
  obtain ⟨c', hc', hw', hb'⟩ := hk' i (by omega)
  rw [hc] at hc'
  cases hc'
  simp only [hs, hs', List.getD_cons_zero, List.getD_cons_succ] at hw hb hw' hb'
  simp only [List.get_eq_getElem, List.getElem_map, List.getElem_range, List.getElem_mapIdx]
  rw [List.getD_eq_getElem?_getD, hc, Option.getD_some]
  by_cases hei : e ≠ i
  · simp only [if_pos hei]
    exact view_row hr hT hs hw hb
  · simp only [if_neg hei]
    rw [List.getD_eq_getElem _ _ (by omega)]
    exact view_row hr' hU hs' hw' hb'

/-- The entries of the derivative of a basis function with respect to the variable number `e`. -/
def derRow (Ts Us : NdArray K) (ks us : List ℕ) (e j : ℕ) : K :=
  reduceMul (ks.mapIdx fun m k => if e ≠ m then Ts.get [k, m, j] else Us.get [us.getD m 0, m, j])

/-- A pass of the inner loop of the derivatives. -/
theorem dLoop_pass {n d rT rU rD a a' b b' N npolys c e : ℕ} {T Ts U Us D : NdArray K} {cs : List ℤ} {ks us : List ℕ} {H : Heap K} {env : Env K}
    (hr : H[rT]? = some T) (hT : Alike Ts T) (hs : Ts.shape = [a, b, N]) (hf : factorRows Ts d cs = pure ks)
    (hr' : H[rU]? = some U) (hU : Alike Us U) (hs' : Us.shape = [a', b', N]) (hf' : factorRows Us d cs = pure us) (hd : d ≠ 0)
    (hD : H[rD]? = some D) (hDs : D.shape = [npolys, d, N]) (hc : c < npolys) (he : e < d)
    (h1 : env "Ts" = some (.arr rT [none, none, none])) (h1' : env "Us" = some (.arr rU [none, none, none]))
    (h2 : env "der_B" = some (.arr rD [none, none, none])) (h3 : env "d" = some (.int (d : ℤ))) (h3' : env "i" = some (.int (e : ℤ)))
    (h4 : env "ind" = some (.int (c : ℤ))) (h5 : env "comb" = some (.tup (cs.map .int))) (h6 : env "range" = none) (h7 : env "reduce" = none)
    (h8 : env "mul" = none) :
    ∃ H' D', exec (world smolProg (n + 1)) buildBLoop2 env H = pure (.next env, H'.set rD D') ∧ H <+: H' ∧ D'.shape = [npolys, d, N] ∧
      ∀ k i j, D'.get [k, i, j] = if k = c ∧ i = e then derRow Ts Us ks us e j else D.get [k, i, j] := by
  have hrows := drows_ok e hr hT hs hf hr' hU hs' hf'
  obtain ⟨hl, hk⟩ := factorRows_get hf
  obtain ⟨u, H', e1, hp, hu⟩ := reduce_vecs (by simp only [ne_eq, List.mapIdx_eq_nil_iff]; intro h0; subst h0; simp at hl; omega) hrows
  obtain ⟨t, rfl⟩ := hp
  obtain ⟨D', e2, hs2, hg⟩ := store_line (get_app hD t) hDs hc he hu
  refine ⟨H ++ t, D', ?_, List.prefix_append _ _, hs2, ?_⟩
  · have hm : ((List.range d).map fun i : ℕ => (.int (i : ℤ) : Val K)).mapM (fun v => eval (world smolProg (n + 1)) (env.set "k" v)
        (.ite (.index (.name "Ts") (.cons (.bin .minus (.index (.name "comb") (.cons (.name "k") .nil)) (.int 1)) (.cons (.name "k") (.cons .full .nil))))
          (.chain (.name "i") (.link .ne (.name "k") .nil))
          (.index (.name "Us") (.cons (.bin .minus (.index (.name "comb") (.cons (.name "k") .nil)) (.int 1)) (.cons (.name "k") (.cons .full .nil)))))) =
        pure ((List.range d).map fun i : ℕ => (if e ≠ i then .arr rT [some (cs.getD i 0 - 1), some (i : ℤ), none] else
          .arr rU [some (cs.getD i 0 - 1), some (i : ℤ), none] : Val K)) := by
      refine mapM_pure_range _ fun i hi => ?_
      obtain ⟨cc, hcc, -⟩ := hk i (by rw [hl]; simpa using hi)
      have hgd : cs.getD i 0 = cc := by rw [List.getD_eq_getElem?_getD, hcc]; rfl
      rw [hgd, eval]
      have hne : eval (world smolProg (n + 1)) (env.set "k" (.int (i : ℤ))) (.chain (.name "i") (.link .ne (.name "k") .nil)) =
          (pure (.bool (decide (e ≠ i))) : M K (Val K)) := by
        have hcmp : intCmp .ne (e : ℤ) (i : ℤ) = pure (decide (e ≠ i)) := by
          rw [show intCmp .ne (e : ℤ) (i : ℤ) = pure (decide ((e : ℤ) ≠ (i : ℤ))) from rfl]
          simp
        pysimp [look, h3', hcmp]
      rw [hne]
      by_cases hei : e = i
      · subst hei
        pysimp [look, h1, h1', h5, item_tup (K := K) hcc, Nat.cast_one]
        simp only [ne_eq, not_true_eq_false, decide_false, Bool.false_eq_true, if_false]
        rfl
      · pysimp [look, h1, h1', h5, item_tup (K := K) hcc, Nat.cast_one]
        simp only [ne_eq, hei, not_false_eq_true, decide_true, if_true]
        rfl
    have hm' := comp_range (n := n) (env := env) (g := fun i : ℕ => (if e ≠ i then .arr rT [some (cs.getD i 0 - 1), some (i : ℤ), none] else
          .arr rU [some (cs.getD i 0 - 1), some (i : ℤ), none] : Val K)) h3 h6 hm
    unfold buildBLoop2
    pysimp [look, h2, h3', h4, h7, h8, sglob_reduce, sglob_mul, hm']
    rw [step e1]
    rw [step e2]
    rfl
  · intro k i j
    rw [hg, derRow]
    congr 2
    simp [List.mapIdx_eq_zipIdx_map, List.map_map]

/-- The arrays that stay, while the derivatives are computed. -/
structure DState (d a a' b b' N rT rU rD : ℕ) (h0 : Heap K) (T U : NdArray K) (H : Heap K) : Prop where
  pre : h0 <+: H
  le : h0.length ≤ rD
  neT : rD ≠ rT
  neU : rD ≠ rU
  atT : H[rT]? = some T
  atU : H[rU]? = some U

theorem dLoop_run {n d rT rU rD a a' b b' N npolys e : ℕ} {T Ts U Us : NdArray K} {h0 : Heap K} {rows urows : List (List ℕ)} (hT : Alike Ts T)
    (hs : Ts.shape = [a, b, N]) (hU : Alike Us U) (hs' : Us.shape = [a', b', N]) (hd : d ≠ 0) (he : e < d) :
    ∀ (l : List (List ℤ)) (c : ℕ) (H : Heap K) (D : NdArray K) (env : Env K),
    (∀ j (hj : j < l.length), factorRows Ts d l[j] = pure (rows.getD (c + j) [])) →
    (∀ j (hj : j < l.length), factorRows Us d l[j] = pure (urows.getD (c + j) [])) → c + l.length = npolys →
    DState d a a' b b' N rT rU rD h0 T U H → H[rD]? = some D → D.shape = [npolys, d, N] →
    (∀ k i j, k < npolys → i < e ∨ i = e ∧ k < c → D.get [k, i, j] = derRow Ts Us (rows.getD k []) (urows.getD k []) i j) →
    env "Ts" = some (.arr rT [none, none, none]) → env "Us" = some (.arr rU [none, none, none]) →
    env "der_B" = some (.arr rD [none, none, none]) → env "d" = some (.int (d : ℤ)) → env "i" = some (.int (e : ℤ)) →
    env "range" = none → env "reduce" = none → env "mul" = none →
    ∃ env' H' D', forLoop (fun v env => assign (world smolProg (n + 1)) env (.tuple (.cons (.name "ind") (.cons (.name "comb") .nil))) v >>= fun env =>
        exec (world smolProg (n + 1)) buildBLoop2 env)
        ((List.range' c l.length).zipWith (fun (i : ℕ) v => .tup [.int (i : ℤ), v]) (l.map fun l => .tup (l.map .int))) env H = pure (.next env', H') ∧
      Agree ["ind", "comb"] env env' ∧ DState d a a' b b' N rT rU rD h0 T U H' ∧ (∀ r A, r ≠ rD → H[r]? = some A → H'[r]? = some A) ∧
      H'[rD]? = some D' ∧ D'.shape = [npolys, d, N] ∧
      ∀ k i j, k < npolys → i < e + 1 → D'.get [k, i, j] = derRow Ts Us (rows.getD k []) (urows.getD k []) i j
  | [], c, H, D, env, hl, hl', hc, hS, hD, hDs, hg, h1, h1', h2, h3, h3', h6, h7, h8 =>
    ⟨env, H, D, rfl, Agree.refl _ _, hS, fun _ _ _ h => h, hD, hDs, fun k i j hk hi => hg k i j hk (by simp only [List.length_nil] at hc; omega)⟩
  | cs :: l, c, H, D, env, hl, hl', hc, hS, hD, hDs, hg, h1, h1', h2, h3, h3', h6, h7, h8 => by
    rw [List.length_cons] at hc
    obtain ⟨H1, D1, e1, p1, s1, g1⟩ := dLoop_pass (n := n) (env := (env.set "ind" (.int (c : ℤ))).set "comb" (.tup (cs.map .int))) (c := c) (e := e) (cs := cs)
      hS.atT hT hs (hl 0 (by simp)) hS.atU hU hs' (hl' 0 (by simp)) hd hD hDs (by omega) he (by pysimp [h1]) (by pysimp [h1']) (by pysimp [h2])
      (by pysimp [h3]) (by pysimp [h3']) (by pysimp []) (by pysimp []) (by pysimp [h6]) (by pysimp [h7]) (by pysimp [h8])
    have hD1 : rD < H1.length := lt_of_lt_of_le (List.getElem?_eq_some_iff.mp hD).1 p1.length_le
    obtain ⟨env', H', D', e2, ha, S2, o2, d2, s2, g2⟩ := dLoop_run (rows := rows) (urows := urows) hT hs hU hs' hd he l (c + 1) (H1.set rD D1) D1
      ((env.set "ind" (.int (c : ℤ))).set "comb" (.tup (cs.map .int)))
      (fun j hj => by
        have := hl (j + 1) (by simpa using hj)
        rwa [show c + (j + 1) = c + 1 + j by omega] at this)
      (fun j hj => by
        have := hl' (j + 1) (by simpa using hj)
        rwa [show c + (j + 1) = c + 1 + j by omega] at this) (by omega)
      ⟨pre_set (hS.pre.trans p1) hS.le D1, hS.le, hS.neT, hS.neU, set_get_ne (get_pre hS.atT p1) hS.neT, set_get_ne (get_pre hS.atU p1) hS.neU⟩
      (by simp [hD1]) s1
      (fun k i j hk hi => by
        rw [g1]
        split
        · next hki =>
          obtain ⟨rfl, rfl⟩ := hki
          rfl
        · next hki => exact hg k i j hk (by omega))
      (by pysimp [h1]) (by pysimp [h1']) (by pysimp [h2]) (by pysimp [h3]) (by pysimp [h3']) (by pysimp [h6]) (by pysimp [h7]) (by pysimp [h8])
    refine ⟨env', H', D', ?_, ?_, S2, fun r A hne hA => o2 r A hne (set_get_ne (get_pre hA p1) fun h => hne h.symm), d2, s2, g2⟩
    · rw [List.length_cons, List.range'_succ, List.map_cons, List.zipWith_cons_cons, forLoop]
      pysimp []
      rw [step e1]
      exact e2
    · intro s hs
      rw [ha s hs]
      simp only [List.mem_cons, List.not_mem_nil, or_false, not_or] at hs
      pysimp [if_neg hs.1, if_neg hs.2]

theorem dOuter_run {n d rT rU rD a a' b b' N : ℕ} {T Ts U Us : NdArray K} {h0 : Heap K} {rows urows : List (List ℕ)} {l : List (List ℤ)} (hT : Alike Ts T)
    (hs : Ts.shape = [a, b, N]) (hU : Alike Us U) (hs' : Us.shape = [a', b', N]) (hd : d ≠ 0)
    (hl : ∀ j (hj : j < l.length), factorRows Ts d l[j] = pure (rows.getD j []))
    (hl' : ∀ j (hj : j < l.length), factorRows Us d l[j] = pure (urows.getD j [])) :
    ∀ (m e : ℕ) (H : Heap K) (D : NdArray K) (env : Env K), e + m = d →
    DState d a a' b b' N rT rU rD h0 T U H → H[rD]? = some D → D.shape = [l.length, d, N] →
    (∀ k i j, k < l.length → i < e → D.get [k, i, j] = derRow Ts Us (rows.getD k []) (urows.getD k []) i j) →
    env "Ts" = some (.arr rT [none, none, none]) → env "Us" = some (.arr rU [none, none, none]) →
    env "der_B" = some (.arr rD [none, none, none]) → env "d" = some (.int (d : ℤ)) → env "b_inds" = some (tupsVal .int l) →
    env "range" = none → env "reduce" = none → env "mul" = none → env "enumerate" = none →
    ∃ env' H' D', forLoop (fun v env => assign (world smolProg (n + 1)) env (.name "i") v >>= fun env =>
        exec (world smolProg (n + 1)) buildBLoop3 env) ((List.range' e m).map fun i : ℕ => (.int (i : ℤ) : Val K)) env H = pure (.next env', H') ∧
      Agree ["i", "ind", "comb"] env env' ∧ h0 <+: H' ∧ (∀ r A, r ≠ rD → H[r]? = some A → H'[r]? = some A) ∧
      H'[rD]? = some D' ∧ D'.shape = [l.length, d, N] ∧
      ∀ k i j, k < l.length → i < d → D'.get [k, i, j] = derRow Ts Us (rows.getD k []) (urows.getD k []) i j
  | 0, e, H, D, env, he, hS, hD, hDs, hg, h1, h1', h2, h3, h3', h6, h7, h8, h9 =>
    ⟨env, H, D, rfl, Agree.refl _ _, hS.pre, fun _ _ _ h => h, hD, hDs, fun k i j hk hi => hg k i j hk (by omega)⟩
  | m + 1, e, H, D, env, he, hS, hD, hDs, hg, h1, h1', h2, h3, h3', h6, h7, h8, h9 => by
    obtain ⟨env1, H1, D1, e1, ha1, S1, o1, d1, s1, g1⟩ := dLoop_run (n := n) (rows := rows) (urows := urows) (npolys := l.length) hT hs hU hs' hd
      (show e < d by omega) l 0 H D (env.set "i" (.int (e : ℤ))) (fun j hj => by rw [hl j hj, Nat.zero_add]) (fun j hj => by rw [hl' j hj, Nat.zero_add])
      (by omega) hS hD hDs (fun k i j hk hi => hg k i j hk (by omega))
      (by pysimp [h1]) (by pysimp [h1']) (by pysimp [h2]) (by pysimp [h3]) (by pysimp []) (by pysimp [h6]) (by pysimp [h7]) (by pysimp [h8])
    obtain ⟨env', H', D', e2, ha, p2, o2, d2, s2, g2⟩ := dOuter_run (n := n) hT hs hU hs' hd hl hl' m (e + 1) H1 D1 env1 (by omega) S1 d1 s1 g1
      (by rw [ha1 _ (by decide)]; pysimp [h1]) (by rw [ha1 _ (by decide)]; pysimp [h1']) (by rw [ha1 _ (by decide)]; pysimp [h2])
      (by rw [ha1 _ (by decide)]; pysimp [h3]) (by rw [ha1 _ (by decide)]; pysimp [h3']) (by rw [ha1 _ (by decide)]; pysimp [h6])
      (by rw [ha1 _ (by decide)]; pysimp [h7]) (by rw [ha1 _ (by decide)]; pysimp [h8]) (by rw [ha1 _ (by decide)]; pysimp [h9])
    refine ⟨env', H', D', ?_, ?_, p2, fun r A hne hA => o2 r A hne (o1 r A hne hA), d2, s2, g2⟩
    · rw [List.range'_succ, List.map_cons, forLoop]
      pysimp []
      have e3 : exec (world smolProg (n + 1)) buildBLoop3 (env.set "i" (.int (e : ℤ))) H = pure (.next env1, H1) := by
        unfold buildBLoop3
        rw [exec_for]
        pysimp [look, h3', h9, sglob_enumerate]
        rw [show tupsVal (K := K) .int l = .list (l.map fun l => .tup (l.map .int)) from rfl, enumerate_list]
        pysimp [iterate_list, List.length_map]
        erw [step e1]
        rw [andThen_next]
        rfl
      rw [step e3]
      exact e2
    · intro s hs
      simp only [List.mem_cons, List.not_mem_nil, or_false, not_or] at hs
      rw [ha s (by simp [hs]), ha1 s (by simp [hs])]
      pysimp [if_neg hs.1]

/-- The call of `cheby2n` for the derivatives. -/
def usCall : Ex := .callX (.name "cheby2n") (.cons (.attr (.name "pts") "T") (.cons (.call (.name "m_i") (.cons (.bin .plus (.name "max_mu") (.int 1)) .nil))
  (.cons (.kw "kind" (.float 2 0)) .nil)))

theorem usCall_run (L : LitLaws K) {n : ℕ} {m z : ℤ} {h : Heap K} {rp npts cols : ℕ} {X Us : NdArray K}
    (hX : h[rp]? = some X) (hXs : X.shape = [npts, cols]) (hz : mI (m + 1) = pure z) (hT : cheby2n (CompletePoly.transpose X) z.toNat ((2 : ℕ) : K) = pure Us)
    {env : Env K} (h2 : env "pts" = some (.arr rp [none, none])) (h4 : env "max_mu" = some (.int m)) (h5 : env "cheby2n" = none) (h6 : env "m_i" = none) :
    ∃ H rU U, eval (world smolProg (n + 2)) env usCall h = pure (.arr rU [none, none, none], H) ∧ h <+: H ∧ H[rU]? = some U ∧ Alike Us U ∧
      Us.shape = [z.toNat + 1, cols, npts] := by
  have hXl : X.shape.length = 2 := by rw [hXs]; rfl
  obtain ⟨Y, eT, hY⟩ := transpose_run hX
  rw [hXl, show whole 2 = [none, none] from rfl] at eT
  have hYs : (CompletePoly.transpose X).shape = [cols, npts] := by simp [CompletePoly.transpose, hXs]
  have hz1 : 1 ≤ z.toNat := by
    by_contra h0
    have h0 : z.toNat = 0 := by omega
    rw [h0] at hT
    simp [cheby2n, setHead, NdArray.zeros, wrapIndex] at hT
  have eM : callN smolProg (n + 2) (.fn mIFun) [(.int (m + ((1 : ℕ) : ℤ)) : Val K)] (h ++ [Y]) = pure (.int z, h ++ [Y]) := by
    rw [callN_fn, mI_run, show m + ((1 : ℕ) : ℤ) = m + 1 from rfl, hz, pure_bind]
  have eC := cheby_alike L n (h := h ++ [Y]) (rx := h.length) (by simp) hY (by simp [hYs]) z.toNat hz1 ((2 : ℕ) : K)
  rw [hT] at eC
  have hzz : (z.toNat : ℤ) = z := by omega
  rw [hYs, hzz] at eC
  have eA : evalArgs (world smolProg (n + 2)) env (.cons (.attr (.name "pts") "T") (.cons (.call (.name "m_i") (.cons (.bin .plus (.name "max_mu") (.int 1)) .nil))
      (.cons (.kw "kind" (.float 2 0)) .nil))) h = pure ([.pos (.arr h.length [none, none]), .pos (.int z), .kw "kind" (.flt ((2 : ℕ) : K))], h ++ [Y]) := by
    simp only [evalArgs]
    pysimp [look, h2, h4, h6, sglob_mI, decimal, if_true]
    rw [step eT]
    rw [step eM]
    rfl
  have eF : (look (world smolProg (n + 2)) env "cheby2n" : M K (Val K)) = pure (.fn cheby2nFun) := by
    pysimp [look, h5, sglob_cheby]
  have eN : paramNames (.fn cheby2nFun : Val K) = pure ["x", "n", "kind"] := rfl
  have eR : arrange ["x", "n", "kind"] [.pos (.arr h.length [none, none]), .pos (.int z), .kw "kind" (.flt ((2 : ℕ) : K))] =
      pure [.arr h.length [none, none], .int z, .flt ((2 : ℕ) : K)] := rfl
  cases hy : runFun (world smolProg (n + 1)) cheby2nFun [.arr h.length (whole [cols, npts].length), .int z, .flt ((2 : ℕ) : K)] (h ++ [Y]) with
  | error e =>
    rw [hy] at eC
    exact eC.elim
  | ok o =>
    obtain ⟨v, H⟩ := o
    rw [hy] at eC
    obtain ⟨hv, A0, t, hH, hA0, hAs⟩ := eC
    simp only at hv hH
    subst hv hH
    refine ⟨h ++ [Y] ++ A0 :: t, (h ++ [Y]).length, A0, ?_, ?_, ?_, hA0, hA0.1.trans hAs⟩
    · rw [usCall, eval]
      rw [eval_name, eF, pure_bind_M, step eA, eN, lift_pure, pure_bind_M, eR, lift_pure, pure_bind_M]
      have : (world smolProg (n + 2)).call (.fn cheby2nFun) [.arr h.length [none, none], .int z, .flt ((2 : ℕ) : K)] =
          (runFun (world smolProg (n + 1)) cheby2nFun [.arr h.length (whole [cols, npts].length), .int z, .flt ((2 : ℕ) : K)] : M K _) := rfl
      rw [this, hy]
      rfl
    · simp [List.append_assoc]
    · rw [List.getElem?_append_right (by simp)]
      simp

/-- The concatenation with a slab of zeros. -/
def catCall : Ex := .callX (.attr (.name "np") "concatenate") (.cons (.list (.cons (.call (.attr (.name "np") "zeros")
  (.cons (.tuple (.cons (.int 1) (.cons (.name "d") (.cons (.name "npts") .nil)))) .nil)) (.cons (.name "Us") .nil))) (.cons (.kw "axis" (.int 0)) .nil))

theorem zeros_run (ns : List ℕ) (h : Heap K) : builtin .zeros [(.tup (ns.map fun n : ℕ => .int (n : ℤ)) : Val K)] h =
    pure (.arr h.length (whole ns.length), h ++ [.zeros ns]) := by
  simp only [builtin, sizes_ints]
  rfl

theorem catCall_run {n d N a rU : ℕ} {h : Heap K} {Us U : NdArray K} (hr : h[rU]? = some U) (hU : Alike Us U) (hs : Us.shape = [a, d, N])
    {env : Env K} (h1 : env "Us" = some (.arr rU [none, none, none])) (h2 : env "d" = some (.int (d : ℤ))) (h3 : env "npts" = some (.int (N : ℤ)))
    (h4 : env "np" = none) :
    ∃ C, eval (world smolProg (n + 1)) env catCall h = pure (.arr (h.length + 1) [none, none, none], h ++ [.zeros [1, d, N], C]) ∧
      C.shape = [a + 1, d, N] ∧ ∀ k i j, C.get [k, i, j] = if k = 0 then 0 else Us.get [k - 1, i, j] := by
  have hze : getAttr (.np : Val K) "zeros" = pure (.builtin .zeros) := rfl
  have hco : getAttr (.np : Val K) "concatenate" = pure (.builtin .concatenate) := rfl
  have eZ := zeros_run (K := K) [1, d, N] h
  simp only [List.map_cons, List.map_nil] at eZ
  have eA : evalArgs (world smolProg (n + 1)) env (.cons (.list (.cons (.call (.attr (.name "np") "zeros")
      (.cons (.tuple (.cons (.int 1) (.cons (.name "d") (.cons (.name "npts") .nil)))) .nil)) (.cons (.name "Us") .nil))) (.cons (.kw "axis" (.int 0)) .nil)) h =
      pure ([.pos (.list [.arr h.length [none, none, none], .arr rU [none, none, none]]), .kw "axis" (.int ((0 : ℕ) : ℤ))], h ++ [.zeros [1, d, N]]) := by
    simp only [evalArgs]
    pysimp [look, h1, h2, h3, h4, sglob_np, hze]
    rw [step eZ]
    rfl
  obtain ⟨Z', hZ, hZs, hZg⟩ := contents_whole (NdArray.zeros [1, d, N] : NdArray K)
  obtain ⟨U', hU', hUs, hUg⟩ := contents_whole U
  have hUsh : U.shape = [a, d, N] := hU.1 ▸ hs
  rw [hUsh] at hU' hUs hUg
  have hZ : contents (NdArray.zeros [1, d, N] : NdArray K) [none, none, none] = pure Z' := hZ
  have hU' : contents U [none, none, none] = pure U' := hU'
  refine ⟨⟨[1 + a, d, N], fun idx => if idx.headD 0 < 1 then Z'.get idx else U'.get ((idx.headD 0 - 1) :: idx.tail)⟩, ?_, by simp [Nat.add_comm], fun k i j => ?_⟩
  · rw [catCall, eval]
    have eF : eval (world smolProg (n + 1)) env (.attr (.name "np") "concatenate") = (pure (.builtin .concatenate) : M K (Val K)) := by
      pysimp [look, h4, sglob_np, hco]
    have eN : paramNames (.builtin .concatenate : Val K) = pure ["arrays", "axis"] := rfl
    have eR : arrange ["arrays", "axis"] [.pos (.list [.arr h.length [none, none, none], .arr rU [none, none, none]]), .kw "axis" (.int ((0 : ℕ) : ℤ))] =
        pure [(.list [.arr h.length [none, none, none], .arr rU [none, none, none]] : Val K), .int ((0 : ℕ) : ℤ)] := rfl
    rw [eF, pure_bind_M, step eA, eN, lift_pure, pure_bind_M, eR, lift_pure, pure_bind_M]
    have hc : (world smolProg (n + 1)).call (.builtin .concatenate) [(.list [.arr h.length [none, none, none], .arr rU [none, none, none]] : Val K), .int ((0 : ℕ) : ℤ)] =
        builtin2 .concatenate [.list [.arr h.length [none, none, none], .arr rU [none, none, none]], .int 0] := rfl
    rw [hc]
    have g1 : (h ++ [NdArray.zeros [1, d, N]])[h.length]? = some (NdArray.zeros [1, d, N] : NdArray K) := by simp
    simp only [builtin2]
    rw [step (getArr_run g1), hZ, lift_pure, pure_bind_M, step (getArr_run (get_app hr _)), hU', lift_pure, pure_bind_M, ← hZs, ← hUs]
    simp only [NdArray.zeros, if_true]
    rw [bind_run]
    simp [newArr, whole]
    rfl
  · show (if k < 1 then Z'.get [k, i, j] else U'.get [k - 1, i, j]) = _
    rcases k with _ | k
    · simp only [Nat.zero_lt_one, if_true]
      rw [← hZg [0, i, j] rfl]
      rfl
    · rw [if_neg (by omega), if_neg (by omega), ← hUg [k + 1 - 1, i, j] rfl, hU.2 [k + 1 - 1, i, j] (by rw [hs]; rfl)]

/-- The part of the text for `deriv=True`. -/
def dBlock : Block :=
  .simple (.assign (.name "Us") usCall) <|
  .simple (.assign (.name "Us") catCall) <|
  .for (.name "i") (.call (.name "range") (.cons (.index (.attr (.name "Us") "shape") (.cons (.int 0) .nil)) .nil)) buildBLoop1 <|
  .simple (.assign (.name "der_B") (.call (.attr (.name "np") "zeros") (.cons (.tuple (.cons (.name "npolys") (.cons (.name "d") (.cons (.name "npts") .nil)))) .nil))) <|
  .for (.name "i") (.call (.name "range") (.cons (.name "d") .nil)) buildBLoop3 <|
  .simple (.ret (some (.tuple (.cons (.name "B") (.cons (.name "der_B") .nil))))) <|
  .nil

theorem buildBBody_eq : buildBBody = bHead (bMid (.ifte (.name "deriv") dBlock .nil (.simple (.ret (some (.name "B"))) .nil))) := rfl

theorem wrapIndex_lt {n k : ℕ} {z : ℤ} (h : wrapIndex n z = some k) : k < n := by
  simp only [wrapIndex] at h
  split at h
  · simp at h; omega
  · split at h
    · simp at h; omega
    · cases h

theorem factorRows_shape {A B : NdArray K} (h : A.shape = B.shape) (d : ℕ) (cs : List ℤ) : factorRows A d cs = factorRows B d cs := by
  rw [factorRows, factorRows, h]

theorem derRow_congr {Ts Us Vs : NdArray K} {d a b N e : ℕ} {cs : List ℤ} {ks us : List ℕ} (hs : Us.shape = [a, b, N]) (hf : factorRows Ts d cs = pure ks)
    (hf' : factorRows Us d cs = pure us) (hg : ∀ k i j, k < a → Us.get [k, i, j] = Vs.get [k, i, j]) (j : ℕ) :
    derRow Ts Us ks us e j = derRow Ts Vs ks us e j := by
  obtain ⟨hl, -⟩ := factorRows_get hf
  obtain ⟨hl', hk'⟩ := factorRows_get hf'
  rw [derRow, derRow]
  congr 1
  refine List.ext_getElem (by simp) fun i h1 h2 => ?_
  have hi : i < ks.length := by simpa using h1
  simp only [List.getElem_mapIdx]
  split
  · rfl
  · obtain ⟨c, -, hw, -⟩ := hk' i (by omega)
    rw [List.getD_eq_getElem _ _ (show i < us.length by omega)]
    exact hg _ _ _ (by rw [hs] at hw; exact wrapIndex_lt hw)

theorem dBlock_run (L : LitLaws K) {n d : ℕ} (hd : d ≠ 0) {l : List (List ℤ)} {m z : ℤ} {h : Heap K} {rp npts rT rB a b : ℕ} {X Ts T Us : NdArray K}
    {rows urows : List (List ℕ)} (hX : h[rp]? = some X) (hXs : X.shape = [npts, d]) (hz : mI (m + 1) = pure z)
    (hT : h[rT]? = some T) (hTT : Alike Ts T) (hTs : Ts.shape = [a, b, npts]) (hrows : l.mapM (factorRows Ts d) = pure rows)
    (hU : cheby2n (CompletePoly.transpose X) z.toNat ((2 : ℕ) : K) = pure Us) (hurows : l.mapM (factorRows (scaledUs Us z.toNat d npts) d) = pure urows)
    {env : Env K} (h1 : env "d" = some (.int d)) (h2 : env "pts" = some (.arr rp [none, none])) (h3 : env "b_inds" = some (tupsVal .int l))
    (h4 : env "max_mu" = some (.int m)) (h5 : env "cheby2n" = none) (h6 : env "m_i" = none) (h8 : env "np" = none)
    (h9 : env "enumerate" = none) (h10 : env "range" = none) (h11 : env "reduce" = none) (h12 : env "mul" = none)
    (h13 : env "npolys" = some (.int (l.length : ℤ))) (h14 : env "npts" = some (.int (npts : ℤ))) (h15 : env "Ts" = some (.arr rT [none, none, none]))
    (h16 : env "B" = some (.arr rB [none, none])) :
    ∃ H rD D, exec (world smolProg (n + 2)) dBlock env h = pure (.ret (.tup [.arr rB [none, none], .arr rD [none, none, none]]), H) ∧ h <+: H ∧
      h.length ≤ rD ∧ H[rD]? = some D ∧ D.shape = [l.length, d, npts] ∧
      ∀ k i j, k < l.length → i < d → D.get [k, i, j] = derRow Ts (scaledUs Us z.toNat d npts) (rows.getD k []) (urows.getD k []) i j := by
  have hze : getAttr (.np : Val K) "zeros" = pure (.builtin .zeros) := rfl
  obtain ⟨H1, rU, U, eU, p1, hrU, hUU, hUs⟩ := usCall_run L (n := n) hX hXs hz hU h2 h4 h5 h6
  obtain ⟨C, eC, hCs, hCg⟩ := catCall_run (n := n + 1) hrU hUU hUs (env := env.set "Us" (.arr rU [none, none, none])) (by pysimp []) (by pysimp [h1])
    (by pysimp [h14]) (by pysimp [h8])
  set H2 := H1 ++ [.zeros [1, d, npts], C] with hH2
  have hrC : H2[H1.length + 1]? = some C := by
    rw [hH2, List.getElem?_append_right (by omega)]
    simp
  have p2 : h <+: H2 := p1.trans (List.prefix_append _ _)
  set env2 := (env.set "Us" (.arr rU [none, none, none])).set "Us" (.arr (H1.length + 1) [none, none, none]) with henv2
  obtain ⟨env3, H3, U3, e3, ha3, p3, o3, hrU3, hU3s, hU3g⟩ := uLoop_run (W := world smolProg (n + 2)) (h0 := h) (U0 := C) (rU := H1.length + 1)
    (by have := p1.length_le; omega) (z.toNat + 2) 0 H2 C env2 (by omega) p2 hrC hCs (fun k i j => by rw [if_neg (by omega)]) (by rw [henv2]; pysimp [])
  have hlt3 : H1.length + 1 < H3.length := (List.getElem?_eq_some_iff.mp hrU3).1
  have hrT3 : H3[rT]? = some T := get_pre hT p3
  have hrTlt : rT < h.length := (List.getElem?_eq_some_iff.mp hT).1
  have hsh : U3.shape = (scaledUs Us z.toNat d npts).shape := hU3s
  have hgg : ∀ k i j, k < z.toNat + 2 → U3.get [k, i, j] = (scaledUs Us z.toNat d npts).get [k, i, j] := by
    intro k i j hk
    rw [hU3g k i j hk, hCg, L.int]
    rfl
  have hlr := mapM_length hrows
  have hlu := mapM_length hurows
  have hl1 : ∀ j (hj : j < l.length), factorRows Ts d l[j] = pure (rows.getD j []) := fun j hj => by
    rw [mapM_get hrows j hj (by omega), List.getD_eq_getElem _ _ (by omega)]
  have hl2 : ∀ j (hj : j < l.length), factorRows U3 d l[j] = pure (urows.getD j []) := fun j hj => by
    rw [factorRows_shape hsh, mapM_get hurows j hj (by omega), List.getD_eq_getElem _ _ (by omega)]
  have env3h (s : String) (hs : s ≠ "i") (hs' : s ≠ "Us") : env3 s = env s := by
    rw [ha3 s (by simpa using hs), henv2, set_apply, if_neg hs', set_apply, if_neg hs']
  have hUs3 : env3 "Us" = some (.arr (H1.length + 1) [none, none, none]) := by rw [ha3 _ (by decide), henv2]; pysimp []
  have eZ := zeros_run (K := K) [l.length, d, npts] H3
  simp only [List.map_cons, List.map_nil] at eZ
  obtain ⟨env4, H4, D, e4, ha4, p4, -, hD, hDs, hDg⟩ := dOuter_run (n := n + 1) (rT := rT) (rU := H1.length + 1) (rD := H3.length) (h0 := h) (T := T) (U := U3) (Us := U3)
    hTT hTs ⟨rfl, fun _ _ => rfl⟩ hU3s hd hl1 hl2 d 0 (H3 ++ [.zeros [l.length, d, npts]]) (.zeros [l.length, d, npts])
    (env3.set "der_B" (.arr H3.length [none, none, none])) (by omega)
    ⟨p3.trans (List.prefix_append _ _), p3.length_le, by have := p3.length_le; omega, by omega, get_app hrT3 _, get_app hrU3 _⟩ (by simp) rfl
    (fun k i j _ hi => by omega) (by rw [set_apply, if_neg (by decide), env3h _ (by decide) (by decide), h15]) (by pysimp [hUs3]) (by pysimp []) (by rw [set_apply, if_neg (by decide), env3h _ (by decide) (by decide), h1]) (by rw [set_apply, if_neg (by decide), env3h _ (by decide) (by decide), h3]) (by rw [set_apply, if_neg (by decide), env3h _ (by decide) (by decide), h10])
    (by rw [set_apply, if_neg (by decide), env3h _ (by decide) (by decide), h11]) (by rw [set_apply, if_neg (by decide), env3h _ (by decide) (by decide), h12]) (by rw [set_apply, if_neg (by decide), env3h _ (by decide) (by decide), h9])
  have henv4B : env4 "B" = some (.arr rB [none, none]) := by rw [ha4 _ (by decide), set_apply, if_neg (by decide), env3h _ (by decide) (by decide), h16]
  have henv4D : env4 "der_B" = some (.arr H3.length [none, none, none]) := by rw [ha4 _ (by decide)]; pysimp []
  refine ⟨H4, H3.length, D, ?_, p4, p3.length_le, hD, hDs, fun k i j hk hi => ?_⟩
  · have hE2 (s : String) (hs' : s ≠ "Us") : env2 s = env s := by
      rw [henv2, set_apply, if_neg hs', set_apply, if_neg hs']
    have hE2U : env2 "Us" = some (.arr (H1.length + 1) [none, none, none]) := by rw [henv2]; pysimp []
    have er : eval (world smolProg (n + 2)) env2 (.call (.name "range") (.cons (.index (.attr (.name "Us") "shape") (.cons (.int 0) .nil)) .nil)) H2 =
        pure (.range (rangeStep 0 ((z.toNat + 2 : ℕ) : ℤ) 1), H2) := by
      pysimp [look, hE2U, hE2 "range" (by decide), h10, sglob_range]
      rw [show ([none, none, none] : List (Option ℤ)) = whole [z.toNat + 1 + 1, d, npts].length from rfl]
      have hsh2 (k : Val K → M K (Val K)) := shape_whole (K := K) hrC k
      rw [hCs] at hsh2
      rw [hsh2]
      pysimp [item_tup0, List.map_cons, List.map_nil, range_1]
      rfl
    have er2 : eval (world smolProg (n + 2)) (env3.set "der_B" (.arr H3.length [none, none, none])) (.call (.name "range") (.cons (.name "d") .nil)) =
        (pure (.range (rangeStep 0 (d : ℤ) 1)) : M K (Val K)) := by
      pysimp [look, env3h "d" (by decide) (by decide), env3h "range" (by decide) (by decide), h1, h10, sglob_range, range_1]
    have ez : eval (world smolProg (n + 2)) env3 (.call (.attr (.name "np") "zeros") (.cons (.tuple (.cons (.name "npolys") (.cons (.name "d") (.cons (.name "npts") .nil)))) .nil)) H3 =
        pure (.arr H3.length [none, none, none], H3 ++ [.zeros [l.length, d, npts]]) := by
      pysimp [look, env3h "np" (by decide) (by decide), env3h "d" (by decide) (by decide), env3h "npts" (by decide) (by decide),
        env3h "npolys" (by decide) (by decide), h1, h8, h13, h14, sglob_np, hze]
      exact eZ
    have em (N : ℕ) : (List.map Val.int (rangeStep 0 (N : ℤ) 1) : List (Val K)) = (List.range' 0 N).map fun i : ℕ => .int (i : ℤ) := by
      rw [rangeStep_nat, List.map_map, List.range_eq_range']
      rfl
    rw [dBlock, exec_assign, step eU, assign_name, pure_bind_M, exec_assign, step eC, assign_name, pure_bind_M, ← henv2, exec_for, step er, iterate_range,
      pure_bind_M, em, step e3, andThen_next, exec_assign, step ez, assign_name, pure_bind_M, exec_for, er2, pure_bind_M, iterate_range, pure_bind_M, em,
      step e4, andThen_next]
    pysimp [look, henv4B, henv4D]
    rfl
  · rw [hDg k i j hk hi]
    exact derRow_congr hU3s (hl1 k hk) (hl2 k hk) hgg j

/-- What the model says when `build_B` returns, with derivatives. -/
theorem buildBDeriv_inv {d : ℕ} {mu : Mu} {X B D : NdArray K} {b : Option (List (List ℤ))} (h : buildBDeriv d mu X b = pure (B, D)) :
    ∃ l m z npts Ts Us rows urows, pindsOr d mu b = pure l ∧ muMax mu = pure m ∧ mI (m + 1) = pure z ∧ X.shape = [npts, d] ∧
      cheby2n (CompletePoly.transpose X) z.toNat 1 = pure Ts ∧ l.mapM (factorRows Ts d) = pure rows ∧ B = matB Ts npts rows ∧
      cheby2n (CompletePoly.transpose X) z.toNat ((2 : ℕ) : K) = pure Us ∧ l.mapM (factorRows (scaledUs Us z.toNat d npts) d) = pure urows ∧
      D = matDerB Ts (scaledUs Us z.toNat d npts) d npts rows urows := by
  rw [buildBDeriv] at h
  rcases h1 : pindsOr d mu b with e | l
  · rw [h1] at h; cases h
  rcases h2 : muMax mu with e | m
  · rw [h1, h2] at h; cases h
  rcases h3 : mI (m + 1) with e | z
  · rw [h1, h2] at h; simp only [ok_bind, h3] at h; cases h
  rw [h1, h2] at h
  simp only [ok_bind, h3] at h
  rcases h4 : dims2 X with e | ⟨npts, cols⟩
  · rw [h4] at h; cases h
  rw [h4] at h
  simp only [ok_bind] at h
  rcases h5 : cheby2n (CompletePoly.transpose X) z.toNat 1 with e | Ts
  · rw [h5] at h; cases h
  rw [h5] at h
  simp only [ok_bind] at h
  rcases h6 : checkReduce d l with e | u
  · rw [h6] at h; cases h
  rw [h6] at h
  simp only [ok_bind] at h
  rcases h7 : l.mapM (factorRows Ts d) with e | rows
  · rw [h7] at h; cases h
  rw [h7] at h
  simp only [ok_bind] at h
  rcases h8 : cheby2n (CompletePoly.transpose X) z.toNat ((2 : ℕ) : K) with e | Us
  · rw [h8] at h; cases h
  rw [h8] at h
  simp only [ok_bind] at h
  by_cases hdc : d = cols
  swap
  · rw [if_pos hdc] at h; cases h
  subst hdc
  rw [if_neg (by simp)] at h
  rcases h9 : l.mapM (factorRows (scaledUs Us z.toNat d npts) d) with e | urows
  · rw [h9] at h; cases h
  rw [h9] at h
  cases h
  refine ⟨l, m, z, npts, Ts, Us, rows, urows, rfl, rfl, h3, ?_, h5, h7, rfl, h8, h9, rfl⟩
  unfold dims2 at h4
  split at h4
  · cases h4; assumption
  · cases h4

theorem buildBDeriv_run (L : LitLaws K) {n d : ℕ} (hn : d.factorial + d + 5 ≤ n) (hd : d ≠ 0) {mu : Mu} {b : Option (List (List ℤ))} {h : Heap K} {rp : ℕ}
    {X B D : NdArray K} (hX : h[rp]? = some X) (hB : buildBDeriv d mu X b = pure (B, D)) :
    ∃ H rB A rD E, runFun (world smolProg n) buildBFun [.int d, muVal mu, .arr rp [none, none], bindsVal b, .bool true] h =
        pure (.tup [.arr rB [none, none], .arr rD [none, none, none]], H) ∧
      h <+: H ∧ h.length ≤ rB ∧ rB < rD ∧ H[rB]? = some A ∧ A.shape = B.shape ∧ (∀ i j, j < B.shape.getD 1 0 → A.get [i, j] = B.get [i, j]) ∧
      H[rD]? = some E ∧ E.shape = D.shape ∧ ∀ k i j, k < D.shape.getD 0 0 → i < d → E.get [k, i, j] = D.get [k, i, j] := by
  obtain ⟨n, rfl⟩ : ∃ m, n = m + 2 := ⟨n - 2, by omega⟩
  obtain ⟨l, m, z, npts, Ts, Us, rows, urows, h1, h2, h3, h4, h5, h6, rfl, h7, h8, rfl⟩ := buildBDeriv_inv hB
  have hb : params (world smolProg (n + 2)) buildBFun.params [.int (d : ℤ), muVal mu, .arr rp [none, none], bindsVal b, .bool true] = (pure
      (((((Env.set (fun _ => none) "deriv" (.bool true)).set "b_inds" (bindsVal b)).set "pts" (.arr rp [none, none])).set "mu" (muVal mu)).set "d" (.int d)) : M K (Env K)) := by
    unfold buildBFun; pysimp []
  rw [runFun, hb, pure_bind_M]
  set env : Env K := ((((Env.set (fun _ => none) "deriv" (.bool true)).set "b_inds" (bindsVal b)).set "pts" (.arr rp [none, none])).set "mu" (muVal mu)).set "d" (.int d) with henv
  have hbody : buildBFun.body = bHead (bMid (.ifte (.name "deriv") dBlock .nil (.simple (.ret (some (.name "B"))) .nil))) := buildBBody_eq
  rw [hbody]
  obtain ⟨env1, e1, a1, b1, m1⟩ := bHead_run (n := n + 1) (by omega) h1 h2 (env := env) rfl rfl rfl rfl rfl rfl rfl rfl rfl
    (bMid (.ifte (.name "deriv") dBlock .nil (.simple (.ret (some (.name "B"))) .nil)))
  obtain ⟨env2, H, rT, T, rB, A, e2, a2, hp, hr, -, hT2, hB2, hP2, hN2, hT, hTT, hTs, hA, hAs, hAg⟩ := bMid_run L (n := n) hd hX h4 h3 h5 h6 (env := env1)
    (by rw [a1 _ (by decide)]; rfl) (by rw [a1 _ (by decide)]; rfl) b1 m1 (by rw [a1 _ (by decide)]; rfl) (by rw [a1 _ (by decide)]; rfl)
    (by rw [a1 _ (by decide)]; rfl) (by rw [a1 _ (by decide)]; rfl) (by rw [a1 _ (by decide)]; rfl) (by rw [a1 _ (by decide)]; rfl)
    (by rw [a1 _ (by decide)]; rfl) (by rw [a1 _ (by decide)]; rfl) (.ifte (.name "deriv") dBlock .nil (.simple (.ret (some (.name "B"))) .nil))
  obtain ⟨H3, rD, E, e3, p3, hrD, hE, hEs, hEg⟩ := dBlock_run L (n := n) hd (rB := rB) (get_pre hX hp) h4 h3 hT hTT hTs h6 h7 h8 (env := env2)
    (by rw [a2 _ (by decide), a1 _ (by decide)]; rfl) (by rw [a2 _ (by decide), a1 _ (by decide)]; rfl) (by rw [a2 _ (by decide), b1])
    (by rw [a2 _ (by decide), m1]) (by rw [a2 _ (by decide), a1 _ (by decide)]; rfl) (by rw [a2 _ (by decide), a1 _ (by decide)]; rfl)
    (by rw [a2 _ (by decide), a1 _ (by decide)]; rfl) (by rw [a2 _ (by decide), a1 _ (by decide)]; rfl)
    (by rw [a2 _ (by decide), a1 _ (by decide)]; rfl) (by rw [a2 _ (by decide), a1 _ (by decide)]; rfl)
    (by rw [a2 _ (by decide), a1 _ (by decide)]; rfl) hP2 hN2 hT2 hB2
  have hder : env2 "deriv" = some (.bool true) := by rw [a2 _ (by decide), a1 _ (by decide)]; rfl
  have hrl := mapM_length h6
  have hBlt : rB < H.length := (List.getElem?_eq_some_iff.mp hA).1
  refine ⟨H3, rB, A, rD, E, ?_, hp.trans p3, hr, by omega, get_pre hA p3, ?_, fun i j hj => ?_, hE, ?_, fun k i j hk hi => ?_⟩
  · rw [bind_run, e1, e2, exec_if]
    have hnm : eval (world smolProg (n + 2)) env2 (.name "deriv") = (pure (.bool true) : M K (Val K)) := by pysimp [look, hder]
    have htr : truth (.bool true : Val K) = pure true := rfl
    rw [hnm, pure_bind_M, htr, lift_pure, pure_bind_M, if_pos rfl, step e3]
    rfl
  · rw [hAs]; simp [matB, hrl]
  · rw [hAg i j (by simpa [matB, hrl] using hj)]; rfl
  · rw [hEs]; simp [matDerB, hrl]
  · rw [hEg k i j (by simpa [matDerB, hrl] using hk) hi]; rfl

end Interp.Spec.PySrc
