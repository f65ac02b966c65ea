import Verif.Proofs.SrcGrid

/-!
# The text of `build_B`: products of rows
-/

set_option linter.unusedSectionVars false

namespace Interp.Spec.PySrc
open Interp Interp.Smolyak

variable {K : Type} [Add K] [Sub K] [Mul K] [Div K] [Neg K] [Zero K] [One K] [NatCast K] [IntCast K]
  [LT K] [DecidableLT K] [LE K] [DecidableLE K] [BEq K] [IntFloor K] [Interp.Smolyak.Trig K]

/-- The value shows the vector with the entries `f 0`, …, `f (N - 1)`. -/
def VecOp (h : Heap K) (N : ℕ) (v : Val K) (f : ℕ → K) : Prop := ∃ r p, v = .arr r p ∧ OpArr h v ⟨[N], fun idx => f (idx.headD 0)⟩

theorem VecOp.mono {h : Heap K} {N : ℕ} {v : Val K} {f : ℕ → K} (hv : VecOp h N v f) (t : Heap K) : VecOp (h ++ t) N v f := by
  obtain ⟨r, p, rfl, ho⟩ := hv
  exact ⟨r, p, rfl, ho.mono t⟩

theorem VecOp.pre {h H : Heap K} {N : ℕ} {v : Val K} {f : ℕ → K} (hv : VecOp h N v f) (hp : h <+: H) : VecOp H N v f := by
  obtain ⟨t, rfl⟩ := hp
  exact hv.mono t

theorem mul_vecs {N : ℕ} : ∀ (vs : List (Val K)) (fs : List (ℕ → K)) (v : Val K) (f : ℕ → K) (h : Heap K), VecOp h N v f →
    List.Forall₂ (VecOp h N) vs fs →
    ∃ u H, vs.foldlM (fun a b => binOp .star a b) v h = pure (u, H) ∧ h <+: H ∧ VecOp H N u fun i => (fs.map fun g => g i).foldl (· * ·) (f i)
  | [], _, v, f, h, hv, hvs => by
    cases hvs
    exact ⟨v, h, rfl, List.prefix_refl _, hv⟩
  | w :: vs, _, v, f, h, hv, hvs => by
    cases hvs with
    | cons hw hvs =>
      rename_i g fs
      obtain ⟨r, p, rfl, ho⟩ := hv
      obtain ⟨r', p', rfl, ho'⟩ := hw
      obtain ⟨C, e, hC⟩ := opArr_arr (K := K) (o := .star) rfl ho ho' rfl
      have h1 : VecOp (h ++ [C]) N (.arr h.length (whole 1)) fun i => f i * g i :=
        ⟨_, _, rfl, OpArr.whole (A0 := ⟨[N], fun idx => f (idx.headD 0) * g (idx.headD 0)⟩) (by simp) hC⟩
      obtain ⟨u, H, e2, p2, hu⟩ := mul_vecs vs fs _ _ (h ++ [C]) h1 (hvs.imp fun a b hab => hab.mono _)
      refine ⟨u, H, ?_, (List.prefix_append _ _).trans p2, hu⟩
      rw [List.foldlM_cons, bin_a, step e]
      exact e2

/-- `reduce(mul, vs)` for vectors. -/
theorem reduce_vecs {N : ℕ} {vs : List (Val K)} {fs : List (ℕ → K)} {h : Heap K} (hne : fs ≠ []) (hvs : List.Forall₂ (VecOp h N) vs fs) :
    ∃ u H, builtin .reduce [(.builtin .mul : Val K), .list vs] h = pure (u, H) ∧ h <+: H ∧ VecOp H N u fun i => reduceMul (fs.map fun g => g i) := by
  cases hvs with
  | nil => simp at hne
  | cons hv hvs => exact mul_vecs _ _ _ _ h hv hvs

/-- What an operand shows, from the array. -/
theorem VecOp.contents {h : Heap K} {N r : ℕ} {p : List (Option ℤ)} {f : ℕ → K} (hv : VecOp h N (.arr r p) f) :
    ∃ A B, h[r]? = some A ∧ contents A p = pure B ∧ B.shape = [N] ∧ ∀ i, B.get [i] = f i := by
  obtain ⟨r', p', hrp, B, hB, hs, hg⟩ := hv
  cases hrp
  simp only [operand, bind_run, getArr] at hB
  rcases hr : h[r]? with _ | A
  · rw [hr] at hB; cases hB
  · rw [hr] at hB
    simp only [ok_bind_py, lift_run] at hB
    rcases hc : PySrc.contents A p with e | D
    · rw [hc] at hB; cases hB
    · rw [hc] at hB
      simp only [ok_bind_py, pure_bind, pure_run] at hB
      cases hB
      exact ⟨A, B, rfl, hc, hs.symm, fun i => (hg [i] rfl).symm⟩

/-- `B[:, c] = v`. -/
theorem store_col {H : Heap K} {rB a b c : ℕ} {A : NdArray K} {v : Val K} {f : ℕ → K} (hr : H[rB]? = some A) (hA : A.shape = [a, b]) (hc : c < b)
    (hv : VecOp H a v f) : ∃ A', putItem (.arr rB [none, none] : Val K) [.full, .at (c : ℤ)] v H = pure ((), H.set rB A') ∧ A'.shape = [a, b] ∧
      ∀ i j, A'.get [i, j] = if j = c then f i else A.get [i, j] := by
  obtain ⟨r, p, rfl, -⟩ := id hv
  obtain ⟨D, B, hD, hB, hs, hg⟩ := hv.contents
  have hw : wrapIndex b (c : ℤ) = some c := by simp [wrapIndex, hc]
  refine ⟨⟨A.shape, fun idx => match within [none, some (c : ℤ)] A.shape idx with
        | some k => B.get k
        | none => A.get idx⟩, ?_, hA, fun i j => ?_⟩
  · have hC : PySrc.contents A [none, some (c : ℤ)] = pure ⟨[a], fun idx => A.get ((place [none, some (c : ℤ)] A.shape idx).getD [])⟩ := by
      rw [PySrc.contents, hA]
      simp only [place, hw, Option.map, viewShape]
    have hrf : refine [none, none] (expand (free [none, none]) [.full, .at (c : ℤ)]) = some [none, some (c : ℤ)] := rfl
    simp only [putItem, bind_run, getArr_run hD, pure_bind, hB, lift_run]
    simp only [storeArr, hrf, bind_run, getArr_run hr, pure_bind, hC, lift_run, hs, if_true, setArr]
    rfl
  · simp only [hA, within, hw, Option.some.injEq]
    by_cases hj : c = j
    · subst hj
      simp [hg]
    · rw [if_neg hj, if_neg fun h => hj h.symm]
      rfl

/-- `Ts[z, i, :]`. -/
theorem view_row {h : Heap K} {r a b N k i : ℕ} {T Ts : NdArray K} {z : ℤ} (hr : h[r]? = some T) (hT : Alike Ts T) (hs : Ts.shape = [a, b, N])
    (hz : wrapIndex a z = some k) (hi : i < b) : VecOp h N (.arr r [some z, some (i : ℤ), none]) fun j => Ts.get [k, i, j] := by
  have hw : wrapIndex b (i : ℤ) = some i := by simp [wrapIndex, hi]
  have hTs : T.shape = [a, b, N] := hT.1 ▸ hs
  refine ⟨r, _, rfl, ⟨[N], fun idx => T.get ((place [some z, some (i : ℤ), none] T.shape idx).getD [])⟩, operand_arr hr ?_, rfl, fun idx hidx => ?_⟩
  · rw [PySrc.contents, hTs]
    simp only [place, hz, hw, Option.map, viewShape]
  · obtain ⟨j, rfl⟩ : ∃ j, idx = [j] := List.length_eq_one_iff.mp hidx
    simp only [hTs, place, hz, hw, Option.map, List.headD_cons, Option.getD_some]
    exact hT.2 _ (by rw [hs]; rfl)

theorem mapM_get {α β : Type} {f : α → Py β} : ∀ {l : List α} {r : List β}, l.mapM f = pure r → ∀ i (hi : i < l.length) (hi' : i < r.length),
    f l[i] = pure r[i]
  | [], r, h, i, hi, _ => by simp at hi
  | a :: l, r, h, i, hi, hi' => by
    rw [List.mapM_cons] at h
    rcases ha : f a with e | b'
    · rw [ha] at h; cases h
    · rcases hl : l.mapM f with e | bs
      · rw [ha, hl] at h; cases h
      · rw [ha, hl] at h
        cases h
        rcases i with _ | i
        · exact ha
        · exact mapM_get hl i (by simpa using hi) (by simpa using hi')

theorem factorRows_get {Ts : NdArray K} {d : ℕ} {cs : List ℤ} {ks : List ℕ} (h : factorRows Ts d cs = pure ks) :
    ks.length = d ∧ ∀ i (hi : i < ks.length), ∃ c, cs[i]? = some c ∧ wrapIndex (Ts.shape.getD 0 0) (c - 1) = some ks[i] ∧ i < Ts.shape.getD 1 0 := by
  have hl : ks.length = d := by rw [mapM_length h, List.length_range]
  refine ⟨hl, fun i hi => ?_⟩
  have := mapM_get h i (by simpa [hl] using hi) hi
  rw [List.getElem_range] at this
  simp only [pyGet] at this
  rcases hw : wrapIndex cs.length (i : ℤ) with _ | j
  · rw [hw] at this; cases this
  · have hj : j = i := by
      simp only [wrapIndex] at hw
      split at hw
      · simpa using hw.symm
      · rw [if_neg (by omega)] at hw
        cases hw
    subst hj
    rw [hw] at this
    simp only at this
    rcases hc : cs[j]? with _ | c
    · rw [hc] at this; cases this
    · rw [hc] at this
      simp only [pure_bind] at this
      rcases hz : wrapIndex (Ts.shape.getD 0 0) (c - 1) with _ | k
      · rw [hz] at this; cases this
      · rw [hz] at this
        simp only at this
        split at this
        · next h1 =>
          cases this
          exact ⟨c, rfl, by rw [hz], h1⟩
        · cases this


theorem mapM_pure_range {f : Val K → M K (Val K)} {g : ℕ → Val K} : ∀ (l : List ℕ), (∀ i ∈ l, f (.int (i : ℤ)) = pure (g i)) →
    (l.map fun i : ℕ => (.int (i : ℤ) : Val K)).mapM f = pure (l.map g)
  | [], _ => rfl
  | i :: l, h => by
    rw [List.map_cons, List.mapM_cons, h i (by simp), pure_bind_M, mapM_pure_range l fun j hj => h j (by simp [hj])]
    rfl

theorem item_tup {cs : List ℤ} {i : ℕ} {c : ℤ} (hc : cs[i]? = some c) : item (.tup (cs.map .int) : Val K) [.at (i : ℤ)] = pure (.int c) := by
  have hi : i < cs.length := (List.getElem?_eq_some_iff.mp hc).1
  have : wrapIndex (cs.map (fun z => (.int z : Val K))).length (i : ℤ) = some i := by simp [wrapIndex, hi]
  simp only [item, this, List.getElem?_map, hc, Option.map]

/-- The rows `Ts[comb[i] - 1, i, :]`. -/
theorem rows_ok {h : Heap K} {r a b N d : ℕ} {T Ts : NdArray K} {cs : List ℤ} {ks : List ℕ} (hr : h[r]? = some T) (hT : Alike Ts T)
    (hs : Ts.shape = [a, b, N]) (hf : factorRows Ts d cs = pure ks) :
    List.Forall₂ (VecOp h N) ((List.range d).map fun i : ℕ => (.arr r [some (cs.getD i 0 - 1), some (i : ℤ), none] : Val K))
      (ks.mapIdx fun i k => fun j => Ts.get [k, i, j]) := by
  obtain ⟨hl, hk⟩ := factorRows_get hf
  rw [List.forall₂_iff_get]
  refine ⟨by simp [hl], fun i h1 h2 => ?_⟩
  have hi : i < ks.length := by simpa using h2
  obtain ⟨c, hc, hw, hb⟩ := hk i hi
  simp only [hs, List.getD_cons_zero, List.getD_cons_succ] at hw hb
  simp only [List.get_eq_getElem, List.getElem_map, List.getElem_range, List.getElem_mapIdx]
  rw [List.getD_eq_getElem?_getD, hc, Option.getD_some]
  exact view_row hr hT hs hw hb

theorem comp_range {n d : ℕ} {env : Env K} {e : Ex} {i : String} {g : ℕ → Val K} (h3 : env "d" = some (.int (d : ℤ))) (h6 : env "range" = none)
    (hm : ((List.range d).map fun i : ℕ => (.int (i : ℤ) : Val K)).mapM (fun v => eval (world smolProg (n + 1)) (env.set i v) e) =
      pure ((List.range d).map g)) :
    eval (world smolProg (n + 1)) env (.comp e i (.call (.name "range") (.cons (.name "d") .nil)) .nil) = pure (.list ((List.range d).map g)) := by
  rw [eval_comp]
  pysimp [look, h3, h6, sglob_range, range_1, rangeStep_nat, iterate_range, List.map_map]
  rw [show (Val.int ∘ fun i : ℕ => (i : ℤ) : ℕ → Val K) = fun i : ℕ => (.int (i : ℤ) : Val K) from rfl, hm, pure_bind_M]

/-- A pass of the loop over the basis functions. -/
theorem bLoop_pass {n d rT rB a b npts npolys c : ℕ} {T Ts A : NdArray K} {cs : List ℤ} {ks : List ℕ} {H : Heap K} {env : Env K}
    (hr : H[rT]? = some T) (hT : Alike Ts T) (hs : Ts.shape = [a, b, npts]) (hf : factorRows Ts d cs = pure ks) (hd : d ≠ 0)
    (hB : H[rB]? = some A) (hA : A.shape = [npts, npolys]) (hc : c < npolys)
    (h1 : env "Ts" = some (.arr rT [none, none, none])) (h2 : env "B" = some (.arr rB [none, none])) (h3 : env "d" = some (.int (d : ℤ)))
    (h4 : env "ind" = some (.int (c : ℤ))) (h5 : env "comb" = some (.tup (cs.map .int))) (h6 : env "range" = none) (h7 : env "reduce" = none)
    (h8 : env "mul" = none) :
    ∃ H' A', exec (world smolProg (n + 1)) buildBLoop0 env H = pure (.next env, H'.set rB A') ∧ H <+: H' ∧ A'.shape = [npts, npolys] ∧
      ∀ i j, A'.get [i, j] = if j = c then reduceMul (ks.mapIdx fun m k => Ts.get [k, m, i]) else A.get [i, j] := by
  have hrows := rows_ok hr hT hs hf
  obtain ⟨hl, hk⟩ := factorRows_get hf
  obtain ⟨u, H', e, hp, hu⟩ := reduce_vecs (by simp only [ne_eq, List.mapIdx_eq_nil_iff]; intro h0; subst h0; simp at hl; omega) hrows
  obtain ⟨t, rfl⟩ := hp
  obtain ⟨A', e', hs', hg⟩ := store_col (get_app hB t) hA hc hu
  refine ⟨H ++ t, A', ?_, List.prefix_append _ _, hs', ?_⟩
  · have hm : ((List.range d).map fun i : ℕ => (.int (i : ℤ) : Val K)).mapM (fun v => eval (world smolProg (n + 1)) (env.set "i" v)
        (.index (.name "Ts") (.cons (.bin .minus (.index (.name "comb") (.cons (.name "i") .nil)) (.int 1)) (.cons (.name "i") (.cons .full .nil))))) =
        pure ((List.range d).map fun i : ℕ => (.arr rT [some (cs.getD i 0 - 1), some (i : ℤ), none] : Val K)) := by
      refine mapM_pure_range _ fun i hi => ?_
      obtain ⟨cc, hcc, -⟩ := hk i (by rw [hl]; simpa using hi)
      pysimp [look, h1, h5, item_tup (K := K) hcc, Nat.cast_one]
      rw [List.getD_eq_getElem?_getD, hcc]
      rfl
    have hm' := comp_range (n := n) (env := env) (g := fun i : ℕ => (.arr rT [some (cs.getD i 0 - 1), some (i : ℤ), none] : Val K)) h3 h6 hm
    unfold buildBLoop0
    pysimp [look, h2, h4, h7, h8, sglob_reduce, sglob_mul, hm']
    rw [step e]
    rw [step e']
    rfl
  · intro i j
    rw [hg]
    congr 2
    simp [List.mapIdx_eq_zipIdx_map, List.map_map]

/-- The products of the rows. -/
def prodRow (Ts : NdArray K) (ks : List ℕ) (i : ℕ) : K := reduceMul (ks.mapIdx fun m k => Ts.get [k, m, i])

theorem set_get_ne {h : Heap K} {r r' : ℕ} {A B : NdArray K} (hr : h[r]? = some A) (hne : r' ≠ r) : (h.set r' B)[r]? = some A := by
  rw [List.getElem?_set_ne hne, hr]

theorem get_pre {h H : Heap K} {r : ℕ} {A : NdArray K} (hr : h[r]? = some A) (hp : h <+: H) : H[r]? = some A := by
  obtain ⟨t, rfl⟩ := hp
  exact get_app hr t

theorem bLoop_run {n d rT rB a b npts npolys : ℕ} {T Ts : NdArray K} {h0 : Heap K} {rows : List (List ℕ)} (hT : Alike Ts T)
    (hs : Ts.shape = [a, b, npts]) (hd : d ≠ 0) (hne : rB ≠ rT) (h0B : h0.length ≤ rB) : ∀ (l : List (List ℤ)) (c : ℕ) (H : Heap K) (A : NdArray K) (env : Env K),
    (∀ j (hj : j < l.length), factorRows Ts d l[j] = pure (rows.getD (c + j) [])) → c + l.length = npolys →
    h0 <+: H → H[rT]? = some T → H[rB]? = some A → A.shape = [npts, npolys] → (∀ i j, j < c → A.get [i, j] = prodRow Ts (rows.getD j []) i) →
    env "Ts" = some (.arr rT [none, none, none]) → env "B" = some (.arr rB [none, none]) → env "d" = some (.int (d : ℤ)) →
    env "range" = none → env "reduce" = none → env "mul" = none →
    ∃ env' H' A', forLoop (fun v env => assign (world smolProg (n + 1)) env (.tuple (.cons (.name "ind") (.cons (.name "comb") .nil))) v >>= fun env =>
        exec (world smolProg (n + 1)) buildBLoop0 env)
        ((List.range' c l.length).zipWith (fun (i : ℕ) v => .tup [.int (i : ℤ), v]) (l.map fun l => .tup (l.map .int))) env H = pure (.next env', H') ∧
      Agree ["ind", "comb"] env env' ∧ h0 <+: H' ∧ H'[rT]? = some T ∧ H'[rB]? = some A' ∧ A'.shape = [npts, npolys] ∧
      ∀ i j, j < npolys → A'.get [i, j] = prodRow Ts (rows.getD j []) i
  | [], c, H, A, env, hl, hc, hp, hr, hB, hA, hg, h1, h2, h3, h6, h7, h8 =>
    ⟨env, H, A, rfl, Agree.refl _ _, hp, hr, hB, hA, fun i j hj => hg i j (by simp only [List.length_nil] at hc; omega)⟩
  | cs :: l, c, H, A, env, hl, hc, hp, hr, hB, hA, hg, h1, h2, h3, h6, h7, h8 => by
    rw [List.length_cons] at hc
    obtain ⟨H1, A1, e1, p1, s1, g1⟩ := bLoop_pass (n := n) (env := (env.set "ind" (.int (c : ℤ))).set "comb" (.tup (cs.map .int))) (c := c) (cs := cs) hr hT hs
      (hl 0 (by simp)) hd hB hA (by omega) (by pysimp [h1]) (by pysimp [h2]) (by pysimp [h3]) (by pysimp []) (by pysimp [])
      (by pysimp [h6]) (by pysimp [h7]) (by pysimp [h8])
    have hB1 : rB < H1.length := lt_of_lt_of_le (List.getElem?_eq_some_iff.mp hB).1 p1.length_le
    obtain ⟨env', H', A', e2, ha, p2, t2, b2, s2, g2⟩ := bLoop_run (rows := rows) hT hs hd hne h0B l (c + 1) (H1.set rB A1) A1
      ((env.set "ind" (.int (c : ℤ))).set "comb" (.tup (cs.map .int)))
      (fun j hj => by
        have := hl (j + 1) (by simpa using hj)
        rwa [show c + (j + 1) = c + 1 + j by omega] at this) (by omega)
      (pre_set (hp.trans p1) h0B A1) (set_get_ne (get_pre hr p1) hne) (by simp [hB1]) s1
      (fun i j hj => by
        rw [g1]
        split
        · next hj' => subst hj'; rfl
        · next hj' => exact hg i j (by omega))
      (by pysimp [h1]) (by pysimp [h2]) (by pysimp [h3]) (by pysimp [h6]) (by pysimp [h7]) (by pysimp [h8])
    refine ⟨env', H', A', ?_, ?_, p2, t2, b2, s2, g2⟩
    · rw [List.length_cons, List.range'_succ, List.map_cons, List.zipWith_cons_cons, forLoop]
      pysimp []
      rw [step e1]
      exact e2
    · intro s hs
      rw [ha s hs]
      simp only [List.mem_cons, List.not_mem_nil, or_false, not_or] at hs
      pysimp [if_neg hs.1, if_neg hs.2]


theorem enumerate_list (vs : List (Val K)) : builtin .enumerate [(.list vs : Val K)] =
    pure (.list ((List.range' 0 vs.length).zipWith (fun (i : ℕ) v => .tup [.int (i : ℤ), v]) vs)) := by
  rw [← List.range_eq_range']
  simp only [builtin, iterate_list, pure_bind_M]
  congr 2
  rw [show (List.range vs.length >>= fun a => pure (a : ℤ)) = (List.range vs.length).map fun a : ℕ => (a : ℤ) by
    simp [← List.map_eq_flatMap, List.bind_eq_flatMap, List.pure_def], List.zipWith_map_left]

/-- `pts.T`. -/
theorem transpose_run {h : Heap K} {r : ℕ} {X : NdArray K} (hr : h[r]? = some X) :
    ∃ Y, getAttr (.arr r (whole X.shape.length) : Val K) "T" h = pure (.arr h.length (whole X.shape.length), h ++ [Y]) ∧ Alike (CompletePoly.transpose X) Y := by
  obtain ⟨B, hB, hA⟩ := contents_whole X
  refine ⟨⟨B.shape.reverse, fun idx => B.get idx.reverse⟩, ?_, by rw [CompletePoly.transpose, hA.1], fun idx hidx => ?_⟩
  · have : getAttr (.arr r (whole X.shape.length) : Val K) "T" = (getArr r >>= fun A => lift (contents A (whole X.shape.length)) >>= fun A =>
        newArr ⟨A.shape.reverse, fun idx => A.get idx.reverse⟩ >>= fun r => pure (.arr r (whole A.shape.length)) : M K (Val K)) := rfl
    rw [this, step (getArr_run hr), hB, hA.1]
    rfl
  · exact hA.2 _ (by simpa [CompletePoly.transpose] using hidx)

/-- The choice of the basis functions. -/
def bFirst (rest : Block) : Block :=
  .ifte (.chain (.name "b_inds") (.link .kIs (.name "None") .nil)) (
    .simple (.assign (.name "inds") (.call (.name "smol_inds") (.cons (.name "d") (.cons (.name "mu") .nil)))) <|
    .simple (.assign (.name "b_inds") (.call (.name "poly_inds") (.cons (.name "d") (.cons (.name "mu") (.cons (.name "inds") .nil))))) <|
    .nil) (
    .nil) rest

/-- The choice of the basis functions and of the greatest level. -/
def bHead (rest : Block) : Block := bFirst <|
  .ifte (.call (.name "isinstance") (.cons (.name "mu") (.cons (.name "int") .nil))) (
    .simple (.assign (.name "max_mu") (.name "mu")) <|
    .nil) (
    .simple (.assign (.name "max_mu") (.call (.name "max") (.cons (.name "mu") .nil))) <|
    .nil) rest

/-- From the Chebyshev polynomials to the loop over the basis functions. -/
def bMid (rest : Block) : Block :=
  .simple (.assign (.name "Ts") (.call (.name "cheby2n") (.cons (.attr (.name "pts") "T") (.cons (.call (.name "m_i") (.cons (.bin .plus (.name "max_mu") (.int 1)) .nil)) .nil)))) <|
  .simple (.assign (.name "npolys") (.call (.name "len") (.cons (.name "b_inds") .nil))) <|
  .simple (.assign (.name "npts") (.index (.attr (.name "pts") "shape") (.cons (.int 0) .nil))) <|
  .simple (.assign (.name "B") (.callX (.attr (.name "np") "empty") (.cons (.tuple (.cons (.name "npts") (.cons (.name "npolys") .nil))) (.cons (.kw "order" (.str "F")) .nil)))) <|
  .for (.tuple (.cons (.name "ind") (.cons (.name "comb") .nil))) (.call (.name "enumerate") (.cons (.name "b_inds") .nil)) buildBLoop0 rest

/-- The basis functions as a caller gives them. -/
def bindsVal : Option (List (List ℤ)) → Val K
  | none => .none
  | some l => tupsVal .int l

theorem bFirst_run {n d : ℕ} (hn : d.factorial + d + 4 ≤ n) {mu : Mu} {b : Option (List (List ℤ))} {l : List (List ℤ)}
    (hl : pindsOr d mu b = pure l) {env : Env K}
    (h1 : env "d" = some (.int d)) (h2 : env "mu" = some (muVal mu)) (h3 : env "b_inds" = some (bindsVal b)) (h4 : env "None" = none)
    (h5 : env "smol_inds" = none) (h6 : env "poly_inds" = none)
    (rest : Block) : ∃ env', exec (world smolProg (n + 1)) (bFirst rest) env = exec (world smolProg (n + 1)) rest env' ∧
      Agree ["inds", "b_inds"] env env' ∧ env' "b_inds" = some (tupsVal .int l) := by
  have hs : callN smolProg (n + 1) (.fn smolIndsFun) [.int (d : ℤ), muVal mu] = (lift (smolInds d mu) >>= fun r => pure (.list (r.map rowVal)) : M K _) := by
    rw [callN_fn]
    exact smolInds_run n d (by omega) mu
  have hp (inds : List (List ℤ)) : callN smolProg (n + 1) (.fn polyIndsFun) [.int (d : ℤ), muVal mu, .list (inds.map rowVal)] =
      (lift (polyInds d mu (some inds)) >>= fun r => pure (tupsVal .int r) : M K _) := by
    rw [callN_fn]
    exact polyInds_run n d (by omega) mu (some inds)
  rw [bFirst]
  rcases b with _ | l'
  · rw [pindsOr] at hl
    rcases hi : smolInds d mu with e | inds
    · rw [hi] at hl; cases hl
    rw [hi] at hl hs
    replace hl : polyInds d mu (some inds) = pure l := hl
    rw [lift_ok, pure_bind_M] at hs
    have hp' := hp inds
    rw [hl, lift_pure, pure_bind_M] at hp'
    refine ⟨(env.set "inds" (.list (inds.map rowVal))).set "b_inds" (tupsVal .int l), ?_, ?_, by pysimp []⟩
    · pysimp [look, h1, h2, h3, h4, h5, h6, sglob_none, bindsVal, is_none_none, sglob_smolInds, hs, sglob_polyInds, hp']
    · exact ((Agree.refl _ env).set (by simp) _).set (by simp) _
  · cases hl
    refine ⟨env, ?_, Agree.refl _ env, h3⟩
    pysimp [look, h3, h4, sglob_none, bindsVal, tupsVal, is_none_list, Bool.false_eq_true]

theorem bHead_run {n d : ℕ} (hn : d.factorial + d + 4 ≤ n) {mu : Mu} {b : Option (List (List ℤ))} {l : List (List ℤ)} {m : ℤ}
    (hl : pindsOr d mu b = pure l) (hm : muMax mu = pure m) {env : Env K}
    (h1 : env "d" = some (.int d)) (h2 : env "mu" = some (muVal mu)) (h3 : env "b_inds" = some (bindsVal b)) (h4 : env "None" = none)
    (h5 : env "smol_inds" = none) (h6 : env "poly_inds" = none) (h7 : env "isinstance" = none) (h8 : env "int" = none) (h9 : env "max" = none)
    (rest : Block) : ∃ env', exec (world smolProg (n + 1)) (bHead rest) env = exec (world smolProg (n + 1)) rest env' ∧
      Agree ["inds", "b_inds", "max_mu"] env env' ∧ env' "b_inds" = some (tupsVal .int l) ∧ env' "max_mu" = some (.int m) := by
  obtain ⟨env1, e, ha, hb⟩ := bFirst_run hn hl h1 h2 h3 h4 h5 h6 (.ifte (.call (.name "isinstance") (.cons (.name "mu") (.cons (.name "int") .nil))) (
    .simple (.assign (.name "max_mu") (.name "mu")) <|
    .nil) (
    .simple (.assign (.name "max_mu") (.call (.name "max") (.cons (.name "mu") .nil))) <|
    .nil) rest)
  refine ⟨env1.set "max_mu" (.int m), ?_, ?_, by pysimp [hb], by pysimp []⟩
  · rw [bHead, e, max_step (by rw [ha _ (by decide), h2]) (by rw [ha _ (by decide), h7]) (by rw [ha _ (by decide), h8])
      (by rw [ha _ (by decide), h9]), hm, lift_pure, pure_bind_M]
  · intro s hs
    simp only [List.mem_cons, List.not_mem_nil, or_false, not_or] at hs
    rw [set_apply, if_neg hs.2.2, ha s (by simp [hs])]

theorem empty_step {α : Type} (ns : List ℕ) (o : String) (k : Val K → M K α) (h : Heap K) :
    (builtin .empty [(.tup (ns.map fun n : ℕ => .int (n : ℤ)) : Val K), .str o] >>= k) h =
      k (.arr h.length (whole ns.length)) (h ++ [.zeros ns]) := by
  rw [step (a := .arr h.length (whole ns.length)) (h' := h ++ [.zeros ns])]
  simp only [builtin, builtin2, sizes_ints]
  rfl

theorem bMid_run (L : LitLaws K) {n d : ℕ} (hd : d ≠ 0) {l : List (List ℤ)} {m z : ℤ} {h : Heap K} {rp npts cols : ℕ} {X Ts : NdArray K} {rows : List (List ℕ)}
    (hX : h[rp]? = some X) (hXs : X.shape = [npts, cols]) (hz : mI (m + 1) = pure z) (hT : cheby2n (CompletePoly.transpose X) z.toNat 1 = pure Ts)
    (hrows : l.mapM (factorRows Ts d) = pure rows) {env : Env K}
    (h1 : env "d" = some (.int d)) (h2 : env "pts" = some (.arr rp [none, none])) (h3 : env "b_inds" = some (tupsVal .int l))
    (h4 : env "max_mu" = some (.int m)) (h5 : env "cheby2n" = none) (h6 : env "m_i" = none) (h7 : env "len" = none) (h8 : env "np" = none)
    (h9 : env "enumerate" = none) (h10 : env "range" = none) (h11 : env "reduce" = none) (h12 : env "mul" = none)
    (rest : Block) : ∃ env' H rT T rB A, exec (world smolProg (n + 2)) (bMid rest) env h = exec (world smolProg (n + 2)) rest env' H ∧
      Agree ["Ts", "npolys", "npts", "B", "ind", "comb"] env env' ∧ h <+: H ∧ h.length ≤ rB ∧ rB ≠ rT ∧ env' "Ts" = some (.arr rT [none, none, none]) ∧
      env' "B" = some (.arr rB [none, none]) ∧ env' "npolys" = some (.int (l.length : ℤ)) ∧ env' "npts" = some (.int (npts : ℤ)) ∧
      H[rT]? = some T ∧ Alike Ts T ∧ Ts.shape = [z.toNat + 1, cols, npts] ∧ H[rB]? = some A ∧ A.shape = [npts, l.length] ∧
      ∀ i j, j < l.length → A.get [i, j] = prodRow Ts (rows.getD j []) i := by
  have hXl : X.shape.length = 2 := by rw [hXs]; rfl
  obtain ⟨Y, eT, hY⟩ := transpose_run hX
  rw [hXl, show whole 2 = [none, none] from rfl] at eT
  have hYs : (CompletePoly.transpose X).shape = [cols, npts] := by simp [CompletePoly.transpose, hXs]
  have hz1 : 1 ≤ z.toNat := by
    by_contra h0
    have h0 : z.toNat = 0 := by omega
    rw [h0] at hT
    simp [cheby2n, setHead, NdArray.zeros, wrapIndex] at hT
  have eM : callN smolProg (n + 2) (.fn mIFun) [(.int (m + ((1 : ℕ) : ℤ)) : Val K)] (h ++ [Y]) = pure (.int z, h ++ [Y]) := by
    rw [callN_fn, mI_run, show m + ((1 : ℕ) : ℤ) = m + 1 from rfl, hz, pure_bind]
  have eC := cheby_alike L n (h := h ++ [Y]) (rx := h.length) (by simp) hY (by simp [hYs]) z.toNat hz1 1
  rw [hT] at eC
  have hzz : (z.toNat : ℤ) = z := by omega
  obtain ⟨A0, t, eC', hA0, hAs⟩ : ∃ A0 t, callN smolProg (n + 2) (.fn cheby2nFun) [.arr h.length [none, none], .int z] (h ++ [Y]) =
      pure (.arr (h.length + 1) [none, none, none], h ++ [Y] ++ A0 :: t) ∧ Alike Ts A0 ∧ A0.shape = [z.toNat + 1, cols, npts] := by
    rw [hYs, hzz] at eC
    have hk : callN smolProg (n + 2) (.fn cheby2nFun) [.arr h.length [none, none], .int z] =
        (runFun (world smolProg (n + 1)) cheby2nFun [.arr h.length (whole [cols, npts].length), .int z, .flt ((1 : ℕ) : K)] : M K _) := by
      rw [callN_fn]
      rfl
    rw [hk, L.one]
    cases hy : runFun (world smolProg (n + 1)) cheby2nFun [.arr h.length (whole [cols, npts].length), .int z, .flt (1 : K)] (h ++ [Y]) with
    | error e =>
      rw [hy] at eC
      exact eC.elim
    | ok o =>
      obtain ⟨v, H⟩ := o
      rw [hy] at eC
      obtain ⟨rfl, A0, t, rfl, hA0, hAs⟩ := eC
      refine ⟨A0, t, ?_, hA0, hAs⟩
      simp
      rfl
  have hTs : Ts.shape = [z.toNat + 1, cols, npts] := hA0.1.trans hAs
  have hem : getAttr (.np : Val K) "empty" = pure (.builtin .empty) := rfl
  have hp : h <+: h ++ [Y] ++ A0 :: t := by simp [List.append_assoc]
  have hrT : (h ++ [Y] ++ A0 :: t)[h.length + 1]? = some A0 := by
    rw [List.getElem?_append_right (by simp)]
    simp
  have hlen : h.length + 1 < (h ++ [Y] ++ A0 :: t).length := (List.getElem?_eq_some_iff.mp hrT).1
  rw [bMid]
  pysimp [look, h2, h4, h5, h6, sglob_cheby, sglob_mI]
  rw [step eT]
  rw [step eM]
  rw [step eC']
  have hX2 : (h ++ [Y] ++ A0 :: t)[rp]? = some X := get_pre hX hp
  generalize h ++ [Y] ++ A0 :: t = H1 at hp hrT hlen hX2 ⊢
  have hsh (k : Val K → M K (Out K)) := shape_whole (K := K) hX2 k
  rw [hXs] at hsh
  have hal (env : Env K) (h1 : env "npts" = some (.int (npts : ℤ))) (h2 : env "npolys" = some (.int (l.length : ℤ))) (h3 : env "np" = none) :
      eval (world smolProg (n + 2)) env (.callX (.attr (.name "np") "empty") (.cons (.tuple (.cons (.name "npts") (.cons (.name "npolys") .nil)))
        (.cons (.kw "order" (.str "F")) .nil))) = builtin .empty [(.tup ([npts, l.length].map fun n : ℕ => .int (n : ℤ)) : Val K), .str "F"] := by
    have hA : evalArgs (world smolProg (n + 2)) env (.cons (.tuple (.cons (.name "npts") (.cons (.name "npolys") .nil)))
        (.cons (.kw "order" (.str "F")) .nil)) = pure [.pos (.tup [.int (npts : ℤ), .int (l.length : ℤ)]), .kw "order" (.str "F" : Val K)] := by
      simp only [evalArgs]
      pysimp [look, h1, h2]
    rw [eval]
    pysimp [look, h3, sglob_np, hem, hA]
    rfl
  have hlen' : builtin .len [tupsVal (K := K) .int l] = pure (.int (l.length : ℤ)) := by
    have : builtin .len [tupsVal (K := K) .int l] = pure (.int ((l.map fun l => (.tup (l.map .int) : Val K)).length : ℤ)) := rfl
    rw [this, List.length_map]
  pysimp [look, h2, h3, h7, sglob_len, hlen']
  rw [show ([none, none] : List (Option ℤ)) = whole [npts, cols].length from rfl, hsh]
  pysimp [item_tup0, List.map_cons, List.map_nil]
  rw [hal _ (by pysimp []) (by pysimp []) (by pysimp [h8]), empty_step, exec_for]
  pysimp [look, h3, h9, sglob_enumerate]
  rw [show tupsVal (K := K) .int l = .list (l.map fun l => .tup (l.map .int)) from rfl, enumerate_list]
  pysimp [iterate_list, List.length_map]
  have hrl := mapM_length hrows
  obtain ⟨env', H', A', e, ha, p2, t2, b2, s2, g2⟩ := bLoop_run (n := n + 1) (rows := rows) (h0 := h) (rT := h.length + 1) (rB := H1.length) (T := A0) hA0 hTs hd
    (by omega) hp.length_le l 0 (H1 ++ [.zeros [npts, l.length]]) (.zeros [npts, l.length])
    ((((env.set "Ts" (.arr (h.length + 1) [none, none, none])).set "npolys" (.int (l.length : ℤ))).set "npts" (.int (npts : ℤ))).set "B"
      (.arr H1.length [none, none]))
    (fun j hj => by
      rw [mapM_get hrows j hj (by omega), Nat.zero_add, List.getD_eq_getElem _ _ (by omega)])
    (by omega) (hp.trans (List.prefix_append _ _)) (get_app hrT _) (by simp) rfl (fun i j hj => by omega)
    (by pysimp []) (by pysimp []) (by pysimp [h1]) (by pysimp [h10]) (by pysimp [h11]) (by pysimp [h12])
  refine ⟨env', H', h.length + 1, A0, H1.length, A', ?_, ?_, p2, hp.length_le, by omega, ?_, ?_, ?_, ?_, t2, hA0, hTs, b2, s2, g2⟩
  · erw [step e]
    rw [andThen_next]
  · intro s hs
    simp only [List.mem_cons, List.not_mem_nil, or_false, not_or] at hs
    rw [ha s (by simp [hs])]
    pysimp [hs, if_false]
  · rw [ha _ (by decide)]; first | rfl | (pysimp []; rfl) | pysimp []
  · rw [ha _ (by decide)]; first | rfl | (pysimp []; rfl) | pysimp []
  · rw [ha _ (by decide)]; first | rfl | (pysimp []; rfl) | pysimp []
  · rw [ha _ (by decide)]; first | rfl | (pysimp []; rfl) | pysimp []

/-- What the model says when `build_B` returns. -/
theorem buildB_inv {d : ℕ} {mu : Mu} {X B : NdArray K} {b : Option (List (List ℤ))} (h : buildB d mu X b = pure B) :
    ∃ l m z npts cols Ts rows, pindsOr d mu b = pure l ∧ muMax mu = pure m ∧ mI (m + 1) = pure z ∧ X.shape = [npts, cols] ∧
      cheby2n (CompletePoly.transpose X) z.toNat 1 = pure Ts ∧ l.mapM (factorRows Ts d) = pure rows ∧ B = matB Ts npts rows := by
  rw [buildB] at h
  rcases h1 : pindsOr d mu b with e | l
  · rw [h1] at h; cases h
  rcases h2 : muMax mu with e | m
  · rw [h1, h2] at h; cases h
  rcases h3 : mI (m + 1) with e | z
  · rw [h1, h2] at h; simp only [ok_bind, h3] at h; cases h
  rw [h1, h2] at h
  simp only [ok_bind, h3] at h
  rcases h4 : dims2 X with e | ⟨npts, cols⟩
  · rw [h4] at h; cases h
  rw [h4] at h
  simp only [ok_bind] at h
  rcases h5 : cheby2n (CompletePoly.transpose X) z.toNat 1 with e | Ts
  · rw [h5] at h; cases h
  rw [h5] at h
  simp only [ok_bind] at h
  rcases h6 : checkReduce d l with e | u
  · rw [h6] at h; cases h
  rw [h6] at h
  simp only [ok_bind] at h
  rcases h7 : l.mapM (factorRows Ts d) with e | rows
  · rw [h7] at h; cases h
  rw [h7] at h
  cases h
  refine ⟨l, m, z, npts, cols, Ts, rows, rfl, rfl, h3, ?_, h5, h7, rfl⟩
  unfold dims2 at h4
  split at h4
  · cases h4; assumption
  · cases h4

theorem buildB_run (L : LitLaws K) {n d : ℕ} (hn : d.factorial + d + 5 ≤ n) (hd : d ≠ 0) {mu : Mu} {b : Option (List (List ℤ))} {h : Heap K} {rp : ℕ}
    {X B : NdArray K} (hX : h[rp]? = some X) (hB : buildB d mu X b = pure B) :
    ∃ H rB A, runFun (world smolProg n) buildBFun [.int d, muVal mu, .arr rp [none, none], bindsVal b, .bool false] h = pure (.arr rB [none, none], H) ∧
      h <+: H ∧ h.length ≤ rB ∧ H[rB]? = some A ∧ A.shape = B.shape ∧ ∀ i j, j < B.shape.getD 1 0 → A.get [i, j] = B.get [i, j] := by
  obtain ⟨n, rfl⟩ : ∃ m, n = m + 2 := ⟨n - 2, by omega⟩
  obtain ⟨l, m, z, npts, cols, Ts, rows, h1, h2, h3, h4, h5, h6, rfl⟩ := buildB_inv hB
  have hb : params (world smolProg (n + 2)) buildBFun.params [.int (d : ℤ), muVal mu, .arr rp [none, none], bindsVal b, .bool false] = (pure
      (((((Env.set (fun _ => none) "deriv" (.bool false)).set "b_inds" (bindsVal b)).set "pts" (.arr rp [none, none])).set "mu" (muVal mu)).set "d" (.int d)) : M K (Env K)) := by
    unfold buildBFun; pysimp []
  rw [runFun, hb, pure_bind_M]
  set env : Env K := ((((Env.set (fun _ => none) "deriv" (.bool false)).set "b_inds" (bindsVal b)).set "pts" (.arr rp [none, none])).set "mu" (muVal mu)).set "d" (.int d) with henv
  have hbody : ∃ rest, buildBFun.body = bHead (bMid (.ifte (.name "deriv") rest .nil (.simple (.ret (some (.name "B"))) .nil))) := ⟨_, rfl⟩
  obtain ⟨rest, hbody⟩ := hbody
  rw [hbody]
  obtain ⟨env1, e1, a1, b1, m1⟩ := bHead_run (n := n + 1) (by omega) h1 h2 (env := env) rfl rfl rfl rfl rfl rfl rfl rfl rfl
    (bMid (.ifte (.name "deriv") rest .nil (.simple (.ret (some (.name "B"))) .nil)))
  obtain ⟨env2, H, rT, T, rB, A, e2, a2, hp, hr, -, -, hB2, -, -, -, -, -, hA, hAs, hAg⟩ := bMid_run L (n := n) hd hX h4 h3 h5 h6 (env := env1)
    (by rw [a1 _ (by decide)]; rfl) (by rw [a1 _ (by decide)]; rfl) b1 m1 (by rw [a1 _ (by decide)]; rfl) (by rw [a1 _ (by decide)]; rfl)
    (by rw [a1 _ (by decide)]; rfl) (by rw [a1 _ (by decide)]; rfl) (by rw [a1 _ (by decide)]; rfl) (by rw [a1 _ (by decide)]; rfl)
    (by rw [a1 _ (by decide)]; rfl) (by rw [a1 _ (by decide)]; rfl) (.ifte (.name "deriv") rest .nil (.simple (.ret (some (.name "B"))) .nil))
  have hder : env2 "deriv" = some (.bool false) := by rw [a2 _ (by decide), a1 _ (by decide)]; rfl
  have hrl := mapM_length h6
  refine ⟨H, rB, A, ?_, hp, hr, hA, ?_, fun i j hj => ?_⟩
  · rw [bind_run, e1, e2]
    pysimp [look, hder, hB2]
    rw [if_neg (by decide), pure_bind_M, andThen_next]
    pysimp [look, hB2]
    rfl
  · rw [hAs]; simp [matB, hrl]
  · rw [hAg i j (by simpa [matB, hrl] using hj)]; rfl

end Interp.Spec.PySrc
