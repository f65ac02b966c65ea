import Verif.Proofs.SrcPermute
import Verif.Model.Smolyak

/-!
# The source texts of `smolyak/grid.py`
-/

namespace Interp.Spec.PySrc
open Interp Interp.Smolyak Interp.CompletePoly

set_option linter.unusedSectionVars false

variable {K : Type} [Add K] [Sub K] [Mul K] [Div K] [Neg K] [Zero K] [One K] [NatCast K] [IntCast K]
  [LT K] [DecidableLT K] [LE K] [DecidableLE K] [BEq K] [IntFloor K] [Interp.Smolyak.Trig K]

/-- The program. -/
def smolProg : Prog := ⟨[("permute", permuteFun), ("num_grid_points", numGridPointsFun), ("m_i", mIFun), ("cheby2n", cheby2nFun),
  ("phi_chain", phiChainFun), ("s_n", sNFun), ("a_chain", aChainFun), ("smol_inds", smolIndsFun), ("poly_inds", polyIndsFun),
  ("build_grid", buildGridFun), ("build_B", buildBFun)], [], [], .nil⟩

theorem smol_load : load [permuteText, numGridPointsText, mIText, cheby2nText, phiChainText, sNText, aChainText, smolIndsText, polyIndsText,
    buildGridText, buildBText] [] [] = some smolProg := by
  simp [load, permute_parse, numGridPoints_parse, mI_parse, cheby2n_parse, phiChain_parse, sN_parse, aChain_parse, smolInds_parse,
    polyInds_parse, buildGrid_parse, buildB_parse]
  rfl

theorem sglob_permute : (globalOf smolProg "permute" : M K _) = pure (.fn permuteFun) := by
  simp [globalOf, find, smolProg]
theorem sglob_num : (globalOf smolProg "num_grid_points" : M K _) = pure (.fn numGridPointsFun) := by
  simp [globalOf, find, smolProg]
theorem sglob_mI : (globalOf smolProg "m_i" : M K _) = pure (.fn mIFun) := by
  simp [globalOf, find, smolProg]
theorem sglob_cheby : (globalOf smolProg "cheby2n" : M K _) = pure (.fn cheby2nFun) := by
  simp [globalOf, find, smolProg]
theorem sglob_phi : (globalOf smolProg "phi_chain" : M K _) = pure (.fn phiChainFun) := by
  simp [globalOf, find, smolProg]
theorem sglob_range : (globalOf smolProg "range" : M K _) = pure (.builtin .range) := by
  simp [globalOf, find, smolProg, pyGlob, pyName]
theorem sglob_len : (globalOf smolProg "len" : M K _) = pure (.builtin .len) := by
  simp [globalOf, find, smolProg, pyGlob, pyName]
theorem sglob_list : (globalOf smolProg "list" : M K _) = pure (.builtin .list) := by
  simp [globalOf, find, smolProg, pyGlob, pyName]
theorem sglob_true : (globalOf smolProg "True" : M K _) = pure (.bool true) := by
  simp [globalOf, find, smolProg, pyGlob, pyName]
theorem sglob_np : (globalOf smolProg "np" : M K _) = pure .np := by
  simp [globalOf, find, smolProg, pyGlob, pyName]
theorem sglob_sN : (globalOf smolProg "s_n" : M K _) = pure (.fn sNFun) := by
  simp [globalOf, find, smolProg]
theorem sglob_aChain : (globalOf smolProg "a_chain" : M K _) = pure (.fn aChainFun) := by
  simp [globalOf, find, smolProg]
theorem sglob_smolInds : (globalOf smolProg "smol_inds" : M K _) = pure (.fn smolIndsFun) := by
  simp [globalOf, find, smolProg]
theorem sglob_polyInds : (globalOf smolProg "poly_inds" : M K _) = pure (.fn polyIndsFun) := by
  simp [globalOf, find, smolProg]
theorem sglob_buildGrid : (globalOf smolProg "build_grid" : M K _) = pure (.fn buildGridFun) := by
  simp [globalOf, find, smolProg]
theorem sglob_buildB : (globalOf smolProg "build_B" : M K _) = pure (.fn buildBFun) := by
  simp [globalOf, find, smolProg]
theorem sglob_isinstance : (globalOf smolProg "isinstance" : M K _) = pure (.builtin .isinstance) := by
  simp [globalOf, find, smolProg, pyGlob, pyName]
theorem sglob_int : (globalOf smolProg "int" : M K _) = pure (.builtin .int) := by
  simp [globalOf, find, smolProg, pyGlob, pyName]
theorem sglob_max : (globalOf smolProg "max" : M K _) = pure (.builtin .max) := by
  simp [globalOf, find, smolProg, pyGlob, pyName]
theorem sglob_sum : (globalOf smolProg "sum" : M K _) = pure (.builtin .sum) := by
  simp [globalOf, find, smolProg, pyGlob, pyName]
theorem sglob_all : (globalOf smolProg "all" : M K _) = pure (.builtin .all) := by
  simp [globalOf, find, smolProg, pyGlob, pyName]
theorem sglob_combinations : (globalOf smolProg "combinations_with_replacement" : M K _) = pure (.builtin .combinations) := by
  simp [globalOf, find, smolProg, pyGlob, pyName]
theorem sglob_chain : (globalOf smolProg "chain" : M K _) = pure (.builtin .chain) := by
  simp [globalOf, find, smolProg, pyGlob, pyName]
theorem sglob_product : (globalOf smolProg "product" : M K _) = pure (.builtin .product) := by
  simp [globalOf, find, smolProg, pyGlob, pyName]
theorem sglob_reduce : (globalOf smolProg "reduce" : M K _) = pure (.builtin .reduce) := by
  simp [globalOf, find, smolProg, pyGlob, pyName]
theorem sglob_mul : (globalOf smolProg "mul" : M K _) = pure (.builtin .mul) := by
  simp [globalOf, find, smolProg, pyGlob, pyName]
theorem sglob_tuple : (globalOf smolProg "tuple" : M K _) = pure (.builtin .tuple) := by
  simp [globalOf, find, smolProg, pyGlob, pyName]
theorem sglob_enumerate : (globalOf smolProg "enumerate" : M K _) = pure (.builtin .enumerate) := by
  simp [globalOf, find, smolProg, pyGlob, pyName]
theorem sglob_none : (globalOf smolProg "None" : M K _) = pure .none := by
  simp [globalOf, find, smolProg, pyGlob, pyName]
theorem sglob_false : (globalOf smolProg "False" : M K _) = pure (.bool false) := by
  simp [globalOf, find, smolProg, pyGlob, pyName]

theorem smol_perm (n : ℕ) : PermWorld (world smolProg (n + 1) : World K) where
  true := sglob_true
  list := sglob_list
  len := sglob_len
  call _ _ := rfl

/-! ### `num_grid_points`, `m_i` -/

theorem pyDiv_ok {x y : K} (hy : (y == 0) = false) : pyDiv x y = pure (x / y) := by
  rw [pyDiv, hy]; rfl

theorem exec_raise (W : World K) (env : Env K) (m : String) (rest : Block) :
    exec W (.simple (.raise (.call (.name "ValueError") (.cons (.str m) .nil))) rest) env = raise .value := by
  simp only [exec, execSimple]
  rfl
theorem int_pow (a b : ℤ) : (intOp .dstar a b : Py (Val K)) = if 0 ≤ b then pure (.int (a ^ b.toNat)) else throw .typing := rfl
theorem ilt (a b : ℤ) : intCmp .lt a b = pure (decide (a < b)) := rfl
theorem decimal_nat (m : ℕ) : (decimal m 0 : K) = (m : K) := rfl

theorem num_run (h2 : (((2 : ℕ) : K) == 0) = false) (h6 : (((6 : ℕ) : K) == 0) = false) (n : ℕ) (d mu : ℤ) (h : Heap K) :
    runFun (world smolProg n) numGridPointsFun [.int d, .int mu] h =
      pure (if mu = 1 then .int (2 * d + 1) else match numGridPoints (K := K) d mu with
        | some x => .flt x
        | none => .none, h) := by
  have e1 : ((1 : ℕ) : ℤ) = 1 := rfl
  have e2 : ((2 : ℕ) : ℤ) = 2 := rfl
  have e3 : ((3 : ℕ) : ℤ) = 3 := rfl
  have e4 : ((4 : ℕ) : ℤ) = 4 := rfl
  have e8 : ((8 : ℕ) : ℤ) = 8 := rfl
  have e12 : ((12 : ℕ) : ℤ) = 12 := rfl
  rw [runFun, numGridPoints]
  pysimp [numGridPointsFun, numGridPointsBody, look, e1, e2, e3, e4, e8, e12, decimal_nat, pyDiv_ok h2, pyDiv_ok h6]
  by_cases c1 : mu = 1
  · simp only [c1, decide_true, if_true, pure_bind_M, andThen_ret]
    rfl
  simp only [c1, decide_false, Bool.false_eq_true, if_false, pure_bind_M, andThen_next]
  pysimp [look, e1, e2, e3, e4, e8, e12, decimal_nat, pyDiv_ok h2, pyDiv_ok h6]
  by_cases c2 : mu = 2
  · simp only [c2, decide_true, if_true, pure_bind_M, andThen_ret]
    rfl
  simp only [c2, decide_false, Bool.false_eq_true, if_false, pure_bind_M, andThen_next]
  pysimp [look, e1, e2, e3, e4, e8, e12, decimal_nat, pyDiv_ok h2, pyDiv_ok h6]
  by_cases c3 : mu = 3
  · simp only [c3, decide_true, if_true, pure_bind_M, andThen_ret]
    rfl
  simp only [c3, decide_false, Bool.false_eq_true, if_false, pure_bind_M, andThen_next]
  rfl

theorem mI_run (n : ℕ) (i : ℤ) (h : Heap K) :
    runFun (world smolProg n) mIFun [.int i] h = mI i >>= fun z => pure (.int z, h) := by
  rw [runFun, mI]
  pysimp [mIFun, mIBody, look, ilt, exec_raise, int_pow]
  by_cases h0 : i < 0
  · simp only [h0, Nat.cast_zero, decide_true, if_true]
    rfl
  simp only [h0, Nat.cast_zero, decide_false, Bool.false_eq_true, if_false]
  by_cases h1 : i = 0
  · simp only [h1, decide_true, if_true]
    rfl
  simp only [h1, decide_false, Bool.false_eq_true, if_false]
  by_cases h2 : i = 1
  · simp only [h2, Nat.cast_one, decide_true, if_true]
    rfl
  simp only [h2, Nat.cast_one, decide_false, Bool.false_eq_true, if_false]
  rw [if_pos (by omega)]
  rfl

/-! ### `phi_chain` -/

/-- The dictionary of `phi_chain`: two lists, then ranges. -/
def chainVal (d : Dict ℤ) : List (ℤ × Val K) := d.map fun p => (p.1, if p.1 ≤ 2 then .list (p.2.map .int) else .range p.2)

theorem put_dict (kvs : List (ℤ × Val K)) (z : ℤ) (x : Val K) :
    putValue (.dict kvs) [.at z] x = pure (.dict ((z, x) :: kvs.filter fun p => p.1 ≠ z)) := rfl

/-- A pass of the loop of `phi_chain`. -/
def chainStep (s : Dict ℤ × ℤ) (i : ℤ) : Dict ℤ × ℤ :=
  ((i, rangeZ s.2 (2 ^ (i - 1).toNat + 1 + 1)) :: s.1, 2 ^ (i - 1).toNat + 1 + 1)

theorem chain_loop {W : World K} (hr : W.glob "range" = pure (.builtin .range)) (hc : ∀ args, W.call (.builtin .range) args = builtin .range args)
    (h : Heap K) : ∀ (l : List ℤ) (s : Dict ℤ × ℤ) (env : Env K), l.Nodup → (∀ i ∈ l, 3 ≤ i) → (∀ p ∈ s.1, p.1 ∉ l) →
    env "aphi_chain" = some (.dict (chainVal s.1)) → env "curr_val" = some (.int s.2) → env "range" = none →
    ∃ env', forLoop (fun v env => assign W env (.name "i") v >>= fun env => exec W phiChainLoop0 env) (l.map .int) env h = pure (.next env', h) ∧
      env' "aphi_chain" = some (.dict (chainVal (l.foldl chainStep s).1))
  | [], s, env, _, _, _, hd, _, _ => ⟨env, rfl, hd⟩
  | i :: l, s, env, hn, h3, hk, hd, hv, hg => by
    have hi := h3 i (by simp)
    have hp : (assign W env (.name "i") (.int i) >>= fun env => exec W phiChainLoop0 env) =
        pure (.next ((((((env.set "i" (.int i)).set "end_val" (.int (2 ^ (i - 1).toNat + 1))).set "temp"
          (.range (rangeZ s.2 (2 ^ (i - 1).toNat + 1 + 1)))).set "aphi_chain" (.dict (chainVal (chainStep s i).1))).set "curr_val"
            (.int (2 ^ (i - 1).toNat + 1 + 1))))) := by
      have e0 : (0 : ℤ) ≤ i - ((1 : ℕ) : ℤ) := by push_cast; omega
      unfold phiChainLoop0
      pysimp [look, int_pow, e0, hd, hv, hg, hr, hc, rangeStep_one, put_dict]
      have hfil : (chainVal (K := K) s.1).filter (fun p => p.1 ≠ i) = chainVal s.1 := by
        rw [List.filter_eq_self]
        intro p hp
        obtain ⟨q, hq, rfl⟩ := List.mem_map.mp hp
        have := hk q hq
        simp only [List.mem_cons, not_or] at this
        simpa using this.1
      have hval : (chainVal (chainStep s i).1 : List (ℤ × Val K)) =
          (i, .range (rangeZ s.2 (2 ^ (i - 1).toNat + 1 + 1))) :: chainVal s.1 := by
        simp only [chainStep, chainVal, List.map_cons]
        rw [if_neg (by omega)]
      rw [hfil, hval]
      rfl
    obtain ⟨env', he, hd'⟩ := chain_loop hr hc h l (chainStep s i) ((((((env.set "i" (.int i)).set "end_val" (.int (2 ^ (i - 1).toNat + 1))).set "temp"
          (.range (rangeZ s.2 (2 ^ (i - 1).toNat + 1 + 1)))).set "aphi_chain" (.dict (chainVal (chainStep s i).1))).set "curr_val"
            (.int (2 ^ (i - 1).toNat + 1 + 1)))) (List.nodup_cons.mp hn).2 (fun j hj => h3 j (by simp [hj])) (by
        intro p hp
        rcases List.mem_cons.mp hp with rfl | hp
        · exact (List.nodup_cons.mp hn).1
        · exact fun hl => hk p hp (by simp [hl])) (by pysimp []) rfl (by pysimp [hg])
    refine ⟨env', ?_, hd'⟩
    rw [List.map_cons, forLoop, hp, pure_bind_M]
    exact he

theorem phi_run (n : ℕ) (m : ℤ) (h : Heap K) :
    runFun (world smolProg (n + 1)) phiChainFun [.int m] h = pure (.dict (chainVal (phiChain m)), h) := by
  rw [runFun]
  pysimp [phiChainFun, phiChainBody, look, put_dict, sglob_range, exec_for, rangeStep_one]
  obtain ⟨env', he, hd⟩ := chain_loop (W := world smolProg (n + 1)) sglob_range (fun _ => rfl) h (rangeZ 3 (m + 1)) ([(2, [2, 3]), (1, [1])], 4)
    (((((Env.set (fun _ => none) "n" (.int m)).set "aphi_chain" (.dict [])).set "aphi_chain" (.dict [(1, .list [.int 1])])).set "aphi_chain"
      (.dict [(2, .list [.int 2, .int 3]), (1, .list [.int 1])])).set "curr_val" (.int 4)) (by
        rw [rangeZ]
        refine (List.nodup_range).map fun a b hab => ?_
        simp only [Int.ofNat_eq_natCast] at hab
        omega) (by
        intro i hi
        simp only [rangeZ, List.mem_map] at hi
        obtain ⟨a, -, rfl⟩ := hi
        simp) (by
        intro p hp hl
        simp only [rangeZ, List.mem_map] at hl
        obtain ⟨a, -, ha⟩ := hl
        simp only [Int.ofNat_eq_natCast] at ha
        simp only [List.mem_cons, List.not_mem_nil, or_false] at hp
        rcases hp with rfl | rfl <;> simp at ha <;> omega) (by pysimp []; rfl) rfl rfl
  rw [bind_run]
  erw [he]
  rw [pure_bind]
  simp only [andThen_next, exec_ret, eval_name, look_of hd, pure_bind_M]
  rfl

/-! ### `cheby2n` -/

theorem whole_succ (d : ℕ) : whole (d + 1) = none :: whole d := rfl

theorem refine_fulls : ∀ d : ℕ, refine (whole d) (List.replicate d .full) = some (whole d)
  | 0 => rfl
  | d + 1 => by
    rw [whole_succ, List.replicate_succ, refine_full, refine_fulls d]
    rfl

theorem refine_head (d : ℕ) (z : ℤ) : refine (whole (d + 1)) (expand (free (whole (d + 1))) [.at z, .dots]) = some (some z :: whole d) := by
  have hf : free (whole (d + 1)) = d + 1 := by simp [free, whole]
  rw [hf, expand, Nat.add_sub_cancel, expand, whole_succ, refine_at]
  · simp only [List.length_nil, Nat.sub_zero, List.append_nil, refine_fulls]
    rfl
  · simp

theorem complete_whole (d : ℕ) (hd : d ≠ 0) (z : ℤ) : complete (some z :: whole d) = none := by
  obtain ⟨d, rfl⟩ := Nat.exists_eq_succ_of_ne_zero hd
  rfl

theorem place_whole : ∀ (sh idx : List ℕ), idx.length = sh.length → place (whole sh.length) sh idx = some idx
  | [], [], _ => rfl
  | n :: sh, i :: idx, h => by
    rw [List.length_cons, whole_succ, place, place_whole sh idx (by simpa using h)]
    rfl

theorem place_whole_nil : ∀ (sh : List ℕ), (place (whole sh.length) sh []).isSome
  | [] => rfl
  | n :: sh => by
    rw [List.length_cons, whole_succ, place, Option.isSome_map]
    exact place_whole_nil sh

theorem viewShape_whole : ∀ (sh : List ℕ), viewShape (whole sh.length) sh = sh
  | [] => rfl
  | n :: sh => by rw [List.length_cons, whole_succ, viewShape, viewShape_whole sh]

theorem within_whole : ∀ (sh idx : List ℕ), idx.length = sh.length → within (whole sh.length) sh idx = some idx
  | [], [], _ => rfl
  | n :: sh, i :: idx, h => by
    rw [List.length_cons, whole_succ, within, within_whole sh idx (by simpa using h)]
    rfl

theorem contents_whole (A : NdArray K) : ∃ B, contents A (whole A.shape.length) = pure B ∧ Alike A B := by
  obtain ⟨js, hjs⟩ := Option.isSome_iff_exists.mp (place_whole_nil A.shape)
  refine ⟨_, by rw [contents, hjs], ?_, fun idx hidx => ?_⟩
  · rw [viewShape_whole]
  · simp only
    rw [place_whole _ _ hidx]
    rfl

/-- `A[i, ...]`. -/
theorem contents_head {A : NdArray K} {m i : ℕ} {sh : List ℕ} {z : ℤ} (hA : A.shape = m :: sh) (hi : wrapIndex m z = some i) :
    ∃ B, contents A (some z :: whole sh.length) = pure B ∧ Alike ⟨sh, fun idx => A.get (i :: idx)⟩ B := by
  obtain ⟨js, hjs⟩ := Option.isSome_iff_exists.mp (place_whole_nil sh)
  refine ⟨⟨viewShape (some z :: whole sh.length) A.shape, fun idx => A.get ((place (some z :: whole sh.length) A.shape idx).getD [])⟩, ?_, ?_,
    fun idx hidx => ?_⟩
  · have : place (some z :: whole sh.length) (m :: sh) [] = some (i :: js) := by simp only [place, hi, hjs]
    rw [contents, hA, this]
  · simp only [hA, viewShape, viewShape_whole]
  · simp only [hA, place, hi]
    rw [place_whole _ _ hidx]
    rfl

/-- `A[i, ...] = S`. -/
theorem store_head {h : Heap K} {r r' : ℕ} {A S S0 C0 : NdArray K} {sh : List ℕ} {m i : ℕ} {z : ℤ} (hr : h[r]? = some A) (hA : A.shape = m :: sh)
    (hi : wrapIndex m z = some i) (hr' : h[r']? = some S) (hS : S0.shape = sh) (hS0 : Alike S0 S) (hC : Alike C0 A) :
    ∃ B C1, putItem (.arr r (whole (sh.length + 1)) : Val K) [.at z, .dots] (.arr r' (whole sh.length)) h = pure ((), h.set r B) ∧
      setHead C0 z S0 = pure C1 ∧ Alike C1 B ∧ B.shape = m :: sh := by
  obtain ⟨S', hS', hs', hP⟩ := contents_whole S
  rw [show S.shape = sh from hS0.1 ▸ hS] at hS'
  obtain ⟨V, hV, hVs, -⟩ := contents_head hA hi
  have hss : S'.shape = sh := by rw [← hs', ← hS0.1, hS]
  have hVsh : V.shape = sh := hVs.symm
  refine ⟨⟨A.shape, fun idx => match within (some z :: whole sh.length) A.shape idx with
        | some k => S'.get k
        | none => A.get idx⟩, ⟨m :: sh, fun idx => if idx.head? = some i then S0.get idx.tail else C0.get idx⟩, ?_, ?_, ⟨hA.symm, fun idx hidx => ?_⟩, hA⟩
  · simp only [putItem, bind_run, getArr_run hr', pure_bind, hS', lift_run]
    simp only [storeArr, refine_head, bind_run, getArr_run hr, pure_bind, hV, lift_run, hVsh, hss, if_true, setArr]
    rfl
  · rw [setHead, hC.1, hA]
    simp only [hi, hS, if_true]
  · obtain ⟨j, idx, rfl⟩ : ∃ j idx', idx = j :: idx' := by
      cases idx with
      | nil => simp at hidx
      | cons j idx => exact ⟨j, idx, rfl⟩
    have hl : idx.length = sh.length := by simpa using hidx
    simp only [hA, within, hi, List.head?_cons, List.tail_cons, Option.some.injEq]
    by_cases hj : i = j
    · subst hj
      simp only [if_true, within_whole sh idx hl]
      rw [hS0.2 idx (by rw [hS, hl]), hP idx (by rw [← hS0.1, hS, hl])]
    · rw [if_neg hj, if_neg fun h => hj h.symm]
      exact hC.2 _ (by rw [hC.1, hA]; simp [hl])

theorem operand_arr {h : Heap K} {r : ℕ} {pat : List (Option ℤ)} {A B : NdArray K} (hr : h[r]? = some A) (hB : contents A pat = pure B) :
    operand (.arr r pat : Val K) h = pure (.arr B, h) := by
  simp only [operand, bind_run, getArr_run hr, pure_bind, hB, lift_run, pure_run]

theorem arrayOp_run {h : Heap K} {o : Op} {f : K → K → K} {a b : Val K} {x y : Operand K} {A : NdArray K} (hf : elemOp (K := K) o = some f)
    (ha : operand a h = pure (x, h)) (hb : operand b h = pure (y, h)) (hA : broadcast f x y = pure A) :
    arrayOp o a b h = pure (.arr h.length (whole A.shape.length), h ++ [A]) := by
  simp only [arrayOp, hf, bind_run, ha, pure_bind, hb, lift_run, hA, newArr_run, pure_run]

theorem get_app {h : Heap K} {r : ℕ} {A : NdArray K} (hr : h[r]? = some A) (t : Heap K) : (h ++ t)[r]? = some A := by
  rw [List.getElem?_append_left (List.getElem?_eq_some_iff.mp hr).1, hr]

theorem bin_ia (o : Op) (z : ℤ) (r : ℕ) (p : List (Option ℤ)) : binOp o (.int z : Val K) (.arr r p) = arrayOp o (.int z) (.arr r p) := rfl
theorem bin_a (o : Op) (r : ℕ) (p : List (Option ℤ)) (v : Val K) : binOp o (.arr r p : Val K) v = arrayOp o (.arr r p) v := rfl

theorem item_head {r d : ℕ} (hd : d ≠ 0) (z : ℤ) : item (.arr r (whole (d + 1)) : Val K) [.at z, .dots] = pure (.arr r (some z :: whole d)) :=
  item_view (refine_head d z) (complete_whole d hd z)

/-- The array of results at number `h.length`, and later ones. -/
def Results (h : Heap K) (m : ℕ) (sh : List ℕ) (C : NdArray K) (H : Heap K) : Prop :=
  ∃ A t, H = h ++ A :: t ∧ Alike C A ∧ A.shape = m :: sh

theorem Results.get {h H : Heap K} {m : ℕ} {sh : List ℕ} {C : NdArray K} (hR : Results h m sh C H) :
    ∃ A, H[h.length]? = some A ∧ Alike C A ∧ A.shape = m :: sh := by
  obtain ⟨A, t, rfl, hA, hs⟩ := hR
  exact ⟨A, by simp, hA, hs⟩

theorem Results.old {h H : Heap K} {m : ℕ} {sh : List ℕ} {C X : NdArray K} {r : ℕ} (hR : Results h m sh C H) (hr : h[r]? = some X) :
    H[r]? = some X := by
  obtain ⟨A, t, rfl, hA, hs⟩ := hR
  exact get_app hr _

theorem Results.set {h H : Heap K} {m : ℕ} {sh : List ℕ} {C C' B : NdArray K} (hR : Results h m sh C H) (u : Heap K) (hB : Alike C' B)
    (hs : B.shape = m :: sh) : Results h m sh C' ((H ++ u).set h.length B) := by
  obtain ⟨A, t, rfl, hA, -⟩ := hR
  exact ⟨B, t ++ u, by simp, hB, hs⟩

/-- The operand is an array with these entries. -/
def OpArr (h : Heap K) (v : Val K) (A : NdArray K) : Prop := ∃ B, operand v h = pure (.arr B, h) ∧ Alike A B

theorem OpArr.mono {h : Heap K} {r : ℕ} {p : List (Option ℤ)} {A : NdArray K} (ho : OpArr h (.arr r p) A) (t : Heap K) :
    OpArr (h ++ t) (.arr r p) A := by
  obtain ⟨B, hB, hA⟩ := ho
  refine ⟨B, ?_, hA⟩
  simp only [operand, bind_run, getArr] at hB ⊢
  rcases hr : h[r]? with _ | E
  · rw [hr] at hB; cases hB
  · rw [get_app hr]
    rw [hr] at hB
    simp only [ok_bind_py, lift_run] at hB ⊢
    rcases hc : contents E p with e | D
    · rw [hc] at hB; cases hB
    · rw [hc] at hB
      simp only [ok_bind_py, pure_bind, pure_run] at hB ⊢
      cases hB
      rfl

theorem OpArr.whole {h : Heap K} {r : ℕ} {A A0 : NdArray K} (hr : h[r]? = some A) (hA : Alike A0 A) : OpArr h (.arr r (PySrc.whole A0.shape.length)) A0 := by
  obtain ⟨B, hB, hAB⟩ := contents_whole A
  rw [hA.1]
  refine ⟨B, operand_arr hr hB, hA.1.trans hAB.1, fun idx hidx => ?_⟩
  rw [hA.2 idx hidx, hAB.2 idx (by rw [← hA.1, hidx])]

theorem opArr_arr {h : Heap K} {o : Op} {f : K → K → K} {a b : Val K} {A B : NdArray K} (hf : elemOp (K := K) o = some f)
    (ha : OpArr h a A) (hb : OpArr h b B) (hs : A.shape = B.shape) :
    ∃ C, arrayOp o a b h = pure (.arr h.length (whole A.shape.length), h ++ [C]) ∧ Alike ⟨A.shape, fun idx => f (A.get idx) (B.get idx)⟩ C := by
  obtain ⟨A', hA', hAA⟩ := ha
  obtain ⟨B', hB', hBB⟩ := hb
  have hss : A'.shape = B'.shape := by rw [← hAA.1, ← hBB.1, hs]
  refine ⟨⟨A'.shape, fun idx => f (A'.get idx) (B'.get idx)⟩, ?_, hAA.1, fun idx hidx => ?_⟩
  · rw [arrayOp_run hf hA' hB' (by rw [broadcast, if_pos hss]), hAA.1]
  · simp only
    rw [hAA.2 idx hidx, hBB.2 idx (by rw [← hs]; exact hidx)]

theorem opArr_num {h : Heap K} {o : Op} {f : K → K → K} {z : ℤ} {b : Val K} {B : NdArray K} (hf : elemOp (K := K) o = some f)
    (hb : OpArr h b B) :
    ∃ C, arrayOp o (.int z) b h = pure (.arr h.length (whole B.shape.length), h ++ [C]) ∧ Alike ⟨B.shape, fun idx => f (z : K) (B.get idx)⟩ C := by
  obtain ⟨B', hB', hBB⟩ := hb
  refine ⟨⟨B'.shape, fun idx => f (z : K) (B'.get idx)⟩, ?_, hBB.1, fun idx hidx => ?_⟩
  · rw [arrayOp_run (K := K) (x := .num (z : K)) hf rfl hB' rfl, hBB.1]
  · simp only
    rw [hBB.2 idx hidx]

theorem opArr_flt {h : Heap K} {o : Op} {f : K → K → K} {x : K} {a : Val K} {A : NdArray K} (hf : elemOp (K := K) o = some f)
    (ha : OpArr h a A) :
    ∃ C, arrayOp o a (.flt x) h = pure (.arr h.length (whole A.shape.length), h ++ [C]) ∧ Alike ⟨A.shape, fun idx => f (A.get idx) x⟩ C := by
  obtain ⟨A', hA', hAA⟩ := ha
  refine ⟨⟨A'.shape, fun idx => f (A'.get idx) x⟩, ?_, hAA.1, fun idx hidx => ?_⟩
  · rw [arrayOp_run (K := K) (y := .num x) hf hA' rfl rfl, hAA.1]
  · simp only
    rw [hAA.2 idx hidx]

theorem OpArr.head {h : Heap K} {r m i : ℕ} {A C : NdArray K} {sh : List ℕ} {z : ℤ} (hr : h[r]? = some A) (hC : Alike C A) (hA : A.shape = m :: sh)
    (hi : wrapIndex m z = some i) : OpArr h (.arr r (some z :: PySrc.whole sh.length)) ⟨sh, fun idx => C.get (i :: idx)⟩ := by
  obtain ⟨B, hB, hAB⟩ := contents_head hA hi
  refine ⟨B, operand_arr hr hB, hAB.1, fun idx hidx => ?_⟩
  rw [← hAB.2 idx hidx]
  exact hC.2 _ (by rw [hC.1, hA, List.length_cons, List.length_cons, hidx])

theorem cheby_pass (L : LitLaws K) {W : World K} {h H : Heap K} {rx : ℕ} {X X' C : NdArray K} {n i : ℕ} (hX : h[rx]? = some X') (hXX : Alike X X')
    (hd : X.shape.length ≠ 0) (hi : 2 ≤ i) (hin : i < n + 1) {env : Env K} (hx : env "x" = some (.arr rx (whole X.shape.length)))
    (hres : env "results" = some (.arr h.length (whole (X.shape.length + 1)))) (hie : env "i" = some (.int (i : ℤ)))
    (hR : Results h (n + 1) X.shape C H) :
    Sim (do
      let r1 ← getHead C ((i : ℤ) - 1)
      let r2 ← getHead C ((i : ℤ) - 2)
      setHead C (i : ℤ) ⟨X.shape, fun idx => ((2 : ℕ) : K) * X.get idx * r1.get idx - r2.get idx⟩)
      (exec W cheby2nLoop0 env H) fun C' o => o.1 = .next env ∧ Results h (n + 1) X.shape C' o.2 := by
  have w0 : wrapIndex (n + 1) (i : ℤ) = some i := by simp [wrapIndex]; omega
  have w1 : wrapIndex (n + 1) ((i : ℤ) - 1) = some (i - 1) := by
    rw [show (i : ℤ) - 1 = ((i - 1 : ℕ) : ℤ) by omega]; simp [wrapIndex]; omega
  have w2 : wrapIndex (n + 1) ((i : ℤ) - 2) = some (i - 2) := by
    rw [show (i : ℤ) - 2 = ((i - 2 : ℕ) : ℤ) by omega]; simp [wrapIndex]; omega
  obtain ⟨A, hA, hAC, hAs⟩ := hR.get
  have hCs : C.shape = (n + 1) :: X.shape := hAC.1.trans hAs
  have g1 : getHead C ((i : ℤ) - 1) = pure ⟨X.shape, fun idx => C.get ((i - 1) :: idx)⟩ := by
    rw [getHead, hCs]; simp only [w1]
  have g2 : getHead C ((i : ℤ) - 2) = pure ⟨X.shape, fun idx => C.get ((i - 2) :: idx)⟩ := by
    rw [getHead, hCs]; simp only [w2]
  rw [g1, pure_bind, g2, pure_bind]
  have w1' : wrapIndex (n + 1) ((i : ℤ) - ((1 : ℕ) : ℤ)) = some (i - 1) := w1
  have w2' : wrapIndex (n + 1) ((i : ℤ) - ((2 : ℕ) : ℤ)) = some (i - 2) := w2
  unfold cheby2nLoop0
  pysimp [look, hx, hres, hie, bin_ia, bin_a, item_head (K := K) hd]
  obtain ⟨P1, e1, hP1⟩ := opArr_num (K := K) (o := .star) (z := ((2 : ℕ) : ℤ)) rfl (OpArr.whole (hR.old hX) hXX)
  rw [step e1]
  pysimp [bin_a]
  obtain ⟨P2, e2, hP2⟩ := opArr_arr (K := K) (o := .star) (h := H ++ [P1]) rfl
    (OpArr.whole (r := H.length) (A := P1) (by simp) hP1) ((OpArr.head hA hAC hAs w1').mono [P1]) rfl
  simp only at e2 hP2
  rw [step e2]
  pysimp [bin_a]
  obtain ⟨P3, e3, hP3⟩ := opArr_arr (K := K) (o := .minus) (h := H ++ [P1] ++ [P2]) rfl
    (OpArr.whole (r := (H ++ [P1]).length) (A := P2) (by simp) hP2) (((OpArr.head hA hAC hAs w2').mono [P1]).mono [P2]) rfl
  simp only at e3 hP3
  rw [step e3]
  obtain ⟨B, C1, e4, e5, hC1, hB⟩ := store_head (h := H ++ [P1] ++ [P2] ++ [P3]) (r := h.length) (r' := (H ++ [P1] ++ [P2]).length) (z := (i : ℤ))
    (S := P3) (get_app (get_app (get_app hA _) _) _) hAs w0 (by simp) (by rfl) hP3 hAC
  rw [step e4]
  have e6 : setHead C (i : ℤ) ⟨X.shape, fun idx => ((2 : ℕ) : K) * X.get idx * C.get ((i - 1) :: idx) - C.get ((i - 2) :: idx)⟩ = pure C1 := by
    rw [← e5]
    simp only [L.int]
  rw [e6]
  refine Sim.pure ⟨rfl, ?_⟩
  have := hR.set [P1, P2, P3] hC1 hB
  simpa using this

theorem ones_step {α : Type} (ns : List ℕ) (k : Val K → M K α) (h : Heap K) :
    (builtin .ones [(.tup (ns.map fun n : ℕ => .int (n : ℤ)) : Val K)] >>= k) h =
      k (.arr h.length (whole ns.length)) (h ++ [⟨ns, fun _ => 1⟩]) := by
  rw [step (a := .arr h.length (whole ns.length)) (h' := h ++ [⟨ns, fun _ => 1⟩])]
  simp only [builtin, sizes_ints]
  rfl

theorem rangeZ_nat (a b : ℕ) : rangeZ (a : ℤ) (b : ℤ) = (rangeN a b).map fun n : ℕ => (n : ℤ) := by
  rw [rangeZ, rangeN, List.range'_eq_map_range, List.map_map, show ((b : ℤ) - (a : ℤ)).toNat = b - a by omega]
  refine List.map_congr_left fun i _ => ?_
  simp

theorem cheby_alike (L : LitLaws K) (n : ℕ) {h : Heap K} {rx : ℕ} {X X' : NdArray K} (hX : h[rx]? = some X') (hXX : Alike X X') (hd : X.shape.length ≠ 0) (m : ℕ)
    (hm : 1 ≤ m) (kind : K) :
    Sim (cheby2n X m kind) (runFun (world smolProg (n + 1)) cheby2nFun [.arr rx (whole X.shape.length), .int (m : ℤ), .flt kind] h)
      fun C o => o.1 = .arr h.length (whole (X.shape.length + 1)) ∧ Results h (m + 1) X.shape C o.2 := by
  have hns : getAttr (.np : Val K) "asarray" = pure (.builtin .asarray) := rfl
  have hno : getAttr (.np : Val K) "ones" = pure (.builtin .ones) := rfl
  have hba (r : ℕ) (p : List (Option ℤ)) : builtin .asarray [(.arr r p : Val K)] = pure (.arr r p) := rfl
  rw [runFun, cheby2n]
  pysimp [cheby2nFun, cheby2nBody, look, sglob_np, hns, hno, hba]
  have hsh (k : Val K → M K (Val K)) := shape_whole (K := K) hX k
  rw [← hXX.1] at hsh
  rw [hsh]
  pysimp [look]
  have ht : arith .plus (.tup [.int ((m : ℤ) + ((1 : ℕ) : ℤ))] : Val K) (.tup (X.shape.map fun n : ℕ => .int (n : ℤ))) =
      pure (.tup (((m + 1) :: X.shape).map fun n : ℕ => .int (n : ℤ))) := rfl
  pysimp [ht]
  rw [zerosN_step]
  pysimp [look]
  rw [ones_step]
  have w0 : wrapIndex (m + 1) ((0 : ℕ) : ℤ) = some 0 := by simp [wrapIndex]
  have w1 : wrapIndex (m + 1) ((1 : ℕ) : ℤ) = some 1 := by simp [wrapIndex]; omega
  have hR0 : Results h (m + 1) X.shape (.zeros ((m + 1) :: X.shape)) (h ++ [.zeros ((m + 1) :: X.shape)]) :=
    ⟨_, [], rfl, ⟨rfl, fun _ _ => rfl⟩, rfl⟩
  obtain ⟨A, hA, hAC, hAs⟩ := hR0.get
  obtain ⟨B, C1, e1, e2, hC1, hB⟩ := store_head (h := h ++ [.zeros ((m + 1) :: X.shape)] ++ [⟨X.shape, fun _ => 1⟩]) (r := h.length)
    (r' := (h ++ [NdArray.zeros (K := K) ((m + 1) :: X.shape)]).length) (S := ⟨X.shape, fun _ => 1⟩) (z := ((0 : ℕ) : ℤ))
    (get_app hA _) hAs w0 (by simp) (by rfl) ⟨rfl, fun _ _ => rfl⟩ hAC
  rw [List.length_cons]
  rw [step e1]
  have hR1 := hR0.set [⟨X.shape, fun _ => 1⟩] hC1 hB
  rw [show (setHead (NdArray.zeros ((m + 1) :: X.shape)) 0 ⟨X.shape, fun _ => 1⟩ : Py (NdArray K)) = pure C1 from e2, pure_bind]
  rw [show (h ++ [NdArray.zeros ((m + 1) :: X.shape)] ++ [(⟨X.shape, fun _ => 1⟩ : NdArray K)] : Heap K) =
    h ++ [NdArray.zeros ((m + 1) :: X.shape), ⟨X.shape, fun _ => 1⟩] by simp] at *
  generalize hH1 : List.set (h ++ [NdArray.zeros ((m + 1) :: X.shape), (⟨X.shape, fun _ => 1⟩ : NdArray K)]) h.length B = H1 at hR1 ⊢
  pysimp [look, bin_a]
  obtain ⟨P1, e3, hP1⟩ := opArr_flt (K := K) (o := .star) (x := kind) rfl (OpArr.whole (hR1.old hX) hXX)
  rw [step e3]
  obtain ⟨A1, hA1, hAC1, hAs1⟩ := hR1.get
  obtain ⟨B2, C2, e4, e5, hC2, hB2⟩ := store_head (h := H1 ++ [P1]) (r := h.length)
    (r' := H1.length) (S := P1) (z := ((1 : ℕ) : ℤ)) (get_app hA1 _) hAs1 w1 (by simp) (by rfl) hP1 hAC1
  rw [step e4]
  have hR2 := hR1.set [P1] hC2 hB2
  rw [show (setHead C1 1 ⟨X.shape, fun idx => X.get idx * kind⟩ : Py (NdArray K)) = pure C2 from e5, pure_bind]
  generalize hH2 : List.set (H1 ++ [P1]) h.length B2 = H2 at hR2 ⊢
  rw [exec_for]
  pysimp [look, sglob_range, rangeStep_one]
  rw [show rangeZ ((2 : ℕ) : ℤ) ((m : ℤ) + ((1 : ℕ) : ℤ)) = (rangeN 2 (m + 1)).map fun n : ℕ => (n : ℤ) from rangeZ_nat 2 (m + 1), List.map_map, bind_run]
  refine Sim.bind_right (Q := Next fun C env H => Agree ["i"] _ env ∧ Results h (m + 1) X.shape C H) (forLoop_sim ?_ ⟨Agree.refl _ _, hR2⟩) ?_
  · rintro i hi C env H ⟨hag, hR⟩
    have hi' : 2 ≤ i ∧ i < m + 1 := by
      simp only [rangeN, List.mem_range'_1] at hi
      omega
    have hx : env "x" = some (.arr rx (whole X.shape.length)) := (hag _ (by simp)).trans (by pysimp [])
    have hre : env "results" = some (.arr h.length (whole (X.shape.length + 1))) := (hag _ (by simp)).trans (by pysimp [])
    refine (cheby_pass L (W := world smolProg (n + 1)) hX hXX hd hi'.1 hi'.2 (env := env.set "i" (.int (i : ℤ))) (by pysimp [hx]) (by pysimp [hre]) rfl hR).mono ?_
    rintro C' ⟨o, H'⟩ ⟨rfl, hR'⟩
    exact ⟨_, rfl, hag.set (by simp) _, hR'⟩
  · rintro C ⟨o, H⟩ ⟨env, rfl, hag, hR⟩
    have hre : env "results" = some (.arr h.length (whole (X.shape.length + 1))) := (hag _ (by simp)).trans (by pysimp [])
    simp only [andThen_next, exec_ret, eval_name, look_of hre, pure_bind_M]
    exact Sim.pure ⟨rfl, hR⟩

theorem cheby_sim (L : LitLaws K) (n : ℕ) {h : Heap K} {rx : ℕ} {X : NdArray K} (hX : h[rx]? = some X) (hd : X.shape.length ≠ 0) (m : ℕ)
    (hm : 1 ≤ m) (kind : K) :
    Sim (cheby2n X m kind) (runFun (world smolProg (n + 1)) cheby2nFun [.arr rx (whole X.shape.length), .int (m : ℤ), .flt kind] h)
      fun C o => o.1 = .arr h.length (whole (X.shape.length + 1)) ∧ Results h (m + 1) X.shape C o.2 :=
  cheby_alike L n hX ⟨rfl, fun _ _ => rfl⟩ hd m hm kind

end Interp.Spec.PySrc
