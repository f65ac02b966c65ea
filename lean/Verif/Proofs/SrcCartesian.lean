import Verif.Proofs.SrcOldTop
import Verif.Proofs.CartesianTrees
import Verif.Model.Cartesian

/-!
# The source text of `cartesian.py`
-/

namespace Interp.Spec.PySrc
open Interp Interp.Cartesian

set_option linter.unusedSectionVars false

variable {K : Type} [Add K] [Sub K] [Mul K] [Div K] [Neg K] [Zero K] [One K] [NatCast K] [IntCast K]
  [LT K] [DecidableLT K] [LE K] [DecidableLE K] [BEq K] [IntFloor K] [Interp.Smolyak.Trig K]

/-- The program of `cartesian.py`. -/
def cartProg : Prog := ⟨[("cartesian", cartesianFun), ("mlinspace", mlinspaceFun), ("_repeat_1d", repeat1dFun)], [], [], .nil⟩

theorem cart_load : load [cartesianText, mlinspaceText, repeat1dText] [] [] = some cartProg := by
  simp [load, cartesian_parse, mlinspace_parse, repeat1d_parse]
  rfl

theorem kglob_cartesian : (globalOf cartProg "cartesian" : M K _) = pure (.fn cartesianFun) := by
  simp [globalOf, find, cartProg]
theorem kglob_mlinspace : (globalOf cartProg "mlinspace" : M K _) = pure (.fn mlinspaceFun) := by
  simp [globalOf, find, cartProg]
theorem kglob_repeat : (globalOf cartProg "_repeat_1d" : M K _) = pure (.fn repeat1dFun) := by
  simp [globalOf, find, cartProg]
theorem kglob_range : (globalOf cartProg "range" : M K _) = pure (.builtin .range) := by
  simp [globalOf, find, cartProg, pyGlob, pyName]
theorem kglob_len : (globalOf cartProg "len" : M K _) = pure (.builtin .len) := by
  simp [globalOf, find, cartProg, pyGlob, pyName]
theorem kglob_numpy : (globalOf cartProg "numpy" : M K _) = pure .np := by
  simp [globalOf, find, cartProg, pyGlob, pyName]

/-! ### `_repeat_1d` -/

theorem rdElem_vec {α : Type} {H : Heap K} {r : ℕ} {ds : List K} (hv : HasVec H r ds) {i : ℕ} (hi : i < ds.length) (k : Val K → M K α) :
    (rdElem r [(i : ℤ)] >>= k) H = k (.flt ds[i]) H := by
  obtain ⟨A, hA, hV⟩ := hv
  have : wrapIndex ds.length (i : ℤ) = some i := by simp [wrapIndex, hi]
  rw [bind_run, rdElem_run hA, hV.read, bind_assoc]
  simp [listRead, this, hi]

theorem shapeV_step {α : Type} {h : Heap K} {r : ℕ} {ds : List K} (hv : HasVec h r ds) (k : Val K → M K α) :
    (getAttr (.arr r [none] : Val K) "shape" >>= k) h = k (.tup [.int (ds.length : ℤ)]) h := by
  obtain ⟨A, hA, hV⟩ := hv
  rw [step (shape_run hA), hV.1]
  rfl

theorem repeat_shape (x : List K) (rep : ℕ) {A : NdArray K} (i : ℕ) {sh : List ℕ} (hA : A.shape = sh) :
    Keeps (fun A' => A'.shape = sh) (repeat1d x rep A i) := by
  rw [repeat1d]
  split
  · exact Keeps.throw
  · refine Keeps.loop hA fun n _ s hs => ?_
    refine Keeps.bind Keeps.any fun v _ => ?_
    refine Keeps.loop hs fun k _ s hs => Keeps.loop hs fun l _ s hs => ?_
    unfold NdArray.write
    simp only
    split
    · exact Keeps.pure hs
    · exact Keeps.throw

theorem repeat_sim (n : ℕ) {h : Heap K} {rx ro i rep : ℕ} {x : List K} {A : NdArray K} (hx : HasVec h rx x) (ho : h[ro]? = some A)
    (hne : ro ≠ rx) {a b : ℕ} (hA : A.shape = [a, b]) :
    Sim (repeat1d x rep A i)
      (runFun (world cartProg (n + 1)) repeat1dFun [.arr rx [none], .int rep, .arr ro [none, some (i : ℤ)]] h)
      (fun A' o => o.1 = .none ∧ o.2 = h.set ro A') := by
  have hol : ro < h.length := (List.getElem?_eq_some_iff.mp ho).1
  rw [runFun]
  pysimp [repeat1dFun, repeat1dBody, look]
  rw [shapeV_step hx]
  pysimp []
  have hso {α : Type} (k : Val K → M K α) : (getAttr (.arr ro [none, some (i : ℤ)] : Val K) "shape" >>= k) h =
      k (.tup [.int (a : ℤ)]) h := by
    rw [step (shape_run ho), hA]; rfl
  rw [hso, repeat1d]
  have hlen : (⟨[], [i]⟩ : Line).len A = a := by simp [Line.len, hA]
  simp only [hlen]
  pysimp [intOp]
  by_cases h0 : rep * x.length = 0
  · rw [if_pos h0]
    have : (rep : ℤ) * (x.length : ℤ) = 0 := by exact_mod_cast h0
    pysimp [this]
    exact (rfl : Err.zeroDivision = Err.zeroDivision)
  · rw [if_neg h0]
    have h0' : ¬ (rep : ℤ) * (x.length : ℤ) = 0 := by exact_mod_cast h0
    have hdiv : Int.fdiv (a : ℤ) ((rep : ℤ) * (x.length : ℤ)) = ((a / (rep * x.length) : ℕ) : ℤ) := by
      rw [Int.fdiv_eq_ediv_of_nonneg _ (by positivity)]
      push_cast; rfl
    rw [if_neg h0', hdiv]
    pysimp []
    generalize a / (rep * x.length) = L
    generalize he : Env.set _ "L" _ = env0
    have he0 (s : String) := congrFun he.symm s
    rw [bind_run]
    refine Sim.bind_right (Q := fun A' o => (∃ e, o.1 = .next e) ∧ o.2 = h.set ro A') ?_ ?_
    · refine (for_sim_nil (names := ["n", "val", "k", "l", "ind"]) (R := fun A' H => H = h.set ro A')
        (by pysimp [look, he0, kglob_range]) (fun _ => rfl) (by pysimp [he0]) ?_ ?_).mono ?_
      · obtain ⟨_, rfl⟩ := List.getElem?_eq_some_iff.mp ho
        simp
      · rintro n' hn A' H env1 e1 rfl
        have hx' : HasVec (h.set ro A') rx x := by
          obtain ⟨B, hB, hV⟩ := hx
          exact ⟨B, by rw [List.getElem?_set_ne hne, hB], hV⟩
        pysimp [repeat1dLoop2, look, e1 _, he0]
        rw [rdElem_vec hx' hn, show listRead x (n' : ℤ) = pure x[n'] by
          have : wrapIndex x.length (n' : ℤ) = some n' := by simp [wrapIndex, hn]
          simp [listRead, this, hn], pure_bind]
        generalize he2 : Env.set _ "val" _ = env2
        have he2' (s : String) := congrFun he2.symm s
        have ha2 : Agree ["n", "val", "k", "l", "ind"] env0 env2 := by
          rw [← he2]; exact (e1.set (by simp) _).set (by simp) _
        refine (for_sim_nil (names := ["k", "l", "ind"]) (R := fun A' H => H = h.set ro A')
          (by pysimp [look, ha2 _, he0, kglob_range]) (fun _ => rfl) (by pysimp [ha2 _, he0]) rfl ?_).mono ?_
        · rintro k hk A' H env3 e3 rfl
          pysimp [repeat1dLoop1]
          refine (for_sim_nil (names := ["l", "ind"]) (R := fun A' H => H = h.set ro A')
            (by pysimp [look, e3 _, ha2 _, he0, kglob_range]) (fun _ => rfl) (by pysimp [e3 _, ha2 _, he0]) rfl ?_).mono ?_
          · rintro l hl A' H env4 e4 rfl
            pysimp [repeat1dLoop0, look, e4 _, e3 _, ha2 _, he0, he2']
            rw [show (.arr ro [none, some (i : ℤ)] : Val K) = .arr ro (linePat ⟨[], [i]⟩ []) from rfl, put_line]
            rw [bind_run, wrElem_run (List.getElem?_set_self hol), bind_assoc]
            simp only [List.map_nil, List.append_nil, pure_bind]
            rw [show ((k * x.length * L + n' * L + l : ℕ) : ℤ) = (k : ℤ) * (x.length : ℤ) * (L : ℤ) + (n' : ℤ) * (L : ℤ) + (l : ℤ) by push_cast; rfl]
            refine sim_of_eq rfl fun A'' => ⟨_, rfl, (e4.set (by simp) _).set (by simp) _, ?_⟩
            simp
          · rintro A'' o ⟨env5, h5, e5, hh⟩
            refine ⟨env5, h5, fun s hs => ?_, hh⟩
            rw [e5 s (by simp only [List.mem_cons, List.not_mem_nil, or_false, not_or] at hs ⊢; exact hs.2), set_apply,
              if_neg (by rintro rfl; simp at hs), e3 s hs]
        · rintro A'' o ⟨env5, h5, e5, hh⟩
          refine ⟨env5, h5, fun s hs => ?_, hh⟩
          rw [e5 s (by simp only [List.mem_cons, List.not_mem_nil, or_false, not_or] at hs ⊢; exact hs.2.2), ha2 s hs]
      · rintro A'' o ⟨env5, h5, e5, hh⟩
        exact ⟨⟨env5, h5⟩, hh⟩
    · rintro A' ⟨o, H⟩ ⟨⟨e, rfl⟩, hH⟩
      exact Sim.pure ⟨rfl, hH⟩

/-! ### `cartesian` -/

/-- Views of vectors with these elements. -/
def Vecs (H : Heap K) (us : List (Val K)) (xss : List (List K)) : Prop :=
  List.Forall₂ (fun u xs => ∃ r, u = .arr r [none] ∧ HasVec H r xs) us xss

theorem Vecs.mono {H : Heap K} {us : List (Val K)} {xss : List (List K)} (hv : Vecs H us xss) (t : Heap K) : Vecs (H ++ t) us xss :=
  List.Forall₂.imp (fun _ _ ⟨r, h1, h2⟩ => ⟨r, h1, h2.mono t⟩) hv

theorem Vecs.set {H : Heap K} {us : List (Val K)} {xss : List (List K)} (hv : Vecs H us xss) (A C : NdArray K) :
    Vecs ((H ++ [A]).set H.length C) us xss := by
  refine List.Forall₂.imp (fun _ _ ⟨r, h1, B, hB, hV⟩ => ⟨r, h1, B, ?_, hV⟩) hv
  have := (List.getElem?_eq_some_iff.mp hB).1
  rw [List.getElem?_set_ne (by omega), List.getElem?_append_left this, hB]

theorem npArray0_step {h : Heap K} {v : Val K} {xs : List K} (hv : Nums h v xs) :
    ∃ A, IsVec A xs ∧ ∀ {α : Type} (k : Val K → M K α), (npArray v none >>= k) h = k (.arr h.length [none]) (h ++ [A]) := by
  have hl (vs : List (Val K)) (hvs : vs = xs.map .flt) : ∀ {α : Type} (k : Val K → M K α),
      ((match intsOf vs, (none : Option String) with
    | some zs, some "int64" => (pure (.ints zs) : M K (Val K))
    | none, some "int64" => raise .typing
    | some (z :: zs), none => pure (.ints (z :: zs))
    | _, _ => do
      let A ← lift (arrOf vs)
      let r ← newArr A
      pure (.arr r (whole A.shape.length))) >>= k) h = k (.arr h.length [none]) (h ++ [vecOf xs]) := by
    intro α k
    subst hvs
    refine step ?_
    cases xs with
    | nil => rfl
    | cons x xs =>
      simp only [intsOf_flts, arrOf_flts, lift_pure, pure_bind_M]
      rfl
  rcases hv with rfl | rfl | ⟨r, rfl, A, hA, hV⟩
  · exact ⟨_, isVec_vecOf xs, hl _ rfl⟩
  · exact ⟨_, isVec_vecOf xs, hl _ rfl⟩
  · obtain ⟨B, hB, hBV⟩ := contents_vec hV
    refine ⟨B, hBV, fun k => step ?_⟩
    rw [npArray, if_neg (by simp)]
    simp only [bind_run, getArr_run hA, pure_bind, hB, lift_run, pure_run, newArr, hBV.1]
    rfl

theorem arrays_step {h : Heap K} {vs : List (Val K)} {xss : List (List K)} (hv : List.Forall₂ (Nums h) vs xss) : ∀ t : Heap K,
    ∃ us As, Vecs (h ++ t ++ As) us xss ∧ ∀ {α : Type} (k : List (Val K) → M K α),
      ((vs.mapM fun v => npArray v none) >>= k) (h ++ t) = k us (h ++ t ++ As) := by
  induction hv with
  | nil => exact fun t => ⟨[], [], .nil, fun k => by simp⟩
  | @cons v xs vs xss h1 _ ih =>
    intro t
    obtain ⟨A, hA, hs⟩ := npArray0_step (h1.mono t)
    obtain ⟨us, As, hV, hk⟩ := ih (t ++ [A])
    rw [← List.append_assoc] at hV hk
    refine ⟨.arr (h ++ t).length [none] :: us, A :: As, .cons ⟨_, rfl, ?_⟩ ?_, fun k => ?_⟩
    · have := (HasVec.last (h := h ++ t) hA).mono As
      rwa [List.append_assoc] at this
    · rwa [List.append_assoc] at hV
    · simp only [List.mapM_cons, bind_assoc_M, pure_bind_M]
      rw [hs, hk, List.append_assoc (h ++ t)]
      rfl

theorem shapes_step {H : Heap K} {us : List (Val K)} {xss : List (List K)} (hv : Vecs H us xss) {α : Type} (k : List (Val K) → M K α) :
    ((us.mapM fun u => getAttr u "shape" >>= fun v => item v [.at ((0 : ℕ) : ℤ)]) >>= k) H =
      k ((xss.map List.length).map fun n : ℕ => .int (n : ℤ)) H := by
  induction hv generalizing k with
  | nil => rfl
  | @cons u xs us xss h1 _ ih =>
    obtain ⟨r, rfl, hV⟩ := h1
    simp only [List.mapM_cons, bind_assoc_M]
    rw [shapeV_step hV]
    pysimp []
    rw [ih]
    rfl

theorem intsOf_ints (zs : List ℕ) : intsOf (zs.map fun n : ℕ => (.int (n : ℤ) : Val K)) = some (zs.map fun n : ℕ => (n : ℤ)) := by
  induction zs with
  | nil => rfl
  | cons z zs ih => simp [intsOf, ih]

theorem foldl_prod (zs : List ℕ) (p : ℕ) : (zs.map fun n : ℕ => (n : ℤ)).foldl (· * ·) (p : ℤ) = ((p * zs.prod : ℕ) : ℤ) := by
  induction zs generalizing p with
  | nil => simp
  | cons z zs ih =>
    rw [List.map_cons, List.foldl_cons, ← Nat.cast_mul, ih, List.prod_cons, mul_assoc]

theorem partialProducts_cumprod (zs : List ℕ) (p : ℕ) :
    partialProducts (p : ℤ) (zs.map fun n : ℕ => (n : ℤ)) = (cumprod p zs).map fun n : ℕ => (n : ℤ) := by
  induction zs generalizing p with
  | nil => rfl
  | cons z zs ih => rw [List.map_cons, partialProducts, ← Nat.cast_mul, ih]; rfl

theorem sliceList_last {α : Type} (l : List α) : sliceList l none (some (-1)) = l.dropLast := by
  rw [sliceList, List.dropLast_eq_take]
  have : clip l.length (-1) = l.length - 1 := by rw [clip, if_pos (by decide)]; omega
  simp [this]

theorem exec_mutate (W : World K) (env : Env K) (s m : String) (es : Ex) (rest : Block) :
    exec W (.simple (.mutate s m es) rest) env = look W env s >>= fun v => evals W env es >>= fun vs => lift (mutated m v vs) >>= fun w =>
      exec W rest (env.set s w) := by
  simp only [exec, execSimple, bind_assoc_M, pure_bind_M, andThen]

theorem nth_lt {α : Type} (l : List α) {i : ℕ} (hi : i < l.length) : nth l (i : ℤ) = pure l[i] := by
  have : wrapIndex l.length (i : ℤ) = some i := by simp [wrapIndex, hi]
  simp [nth, this, hi]

theorem listRead_lt {α : Type} (l : List α) {i : ℕ} (hi : i < l.length) : listRead l (i : ℤ) = pure l[i] := by
  have : wrapIndex l.length (i : ℤ) = some i := by simp [wrapIndex, hi]
  simp [listRead, this, hi]

/-- The loop of `cartesian` and the `return` statement. -/
theorem cart_loop (n : ℕ) {H : Heap K} {us : List (Val K)} {xss : List (List K)} (hv : Vecs H us xss) {env : Env K} {R : Val K}
    {reps : List ℕ} (hl : reps.length = xss.length) (hR : ∀ i (hi : i < reps.length), item R [.at (i : ℤ)] = pure (.int (reps[i] : ℤ))) (a : ℕ)
    (e1 : env "nodes" = some (.list us)) (e2 : env "n" = some (.int xss.length)) (e3 : env "repetitions" = some R)
    (e4 : env "out" = some (.arr H.length [none, none])) (e5 : env "range" = none) (e6 : env "_repeat_1d" = none) :
    Sim (pyFor (List.range xss.length) (fun i out => do
        let x ← listRead xss i
        let rep ← listRead reps i
        repeat1d x rep out i) (NdArray.zeros [a, xss.length]))
      (exec (world cartProg (n + 2)) (.for (.name "i") (.call (.name "range") (.cons (.name "n") .nil)) cartesianLoop0
        (.simple (.ret (some (.name "out"))) .nil)) env (H ++ [NdArray.zeros [a, xss.length]]))
      (fun C o => o = (.ret (.arr H.length [none, none]), H ++ [C])) := by
  rw [← bind_pure (pyFor _ _ _)]
  refine for_sim (names := ["i"]) (R := fun C H' => H' = H ++ [C] ∧ C.shape = [a, xss.length])
    (by pysimp [look, e5, kglob_range]) (fun _ => rfl) e2 ⟨rfl, rfl⟩ ?_ ?_
  · rintro i hi C _ env' ha ⟨rfl, hC⟩
    have hiu : i < us.length := by rw [hv.length_eq]; exact hi
    have h1 : item (.list us) [.at (i : ℤ)] = (pure us[i] : M K _) := by rw [item, nth_lt us hiu]; rfl
    have h2 : item (.arr H.length [none, none] : Val K) [.full, .at (i : ℤ)] = pure (.arr H.length [none, some (i : ℤ)]) :=
      item_view rfl rfl
    pysimp [cartesianLoop0, look, ha _, e1, e2, e3, e4, e6, kglob_repeat, h1, hR i (hl ▸ hi), h2, callN_fn]
    obtain ⟨r, hr, hV⟩ := (List.forall₂_iff_get.mp hv).2 i hiu hi
    simp only [List.get_eq_getElem] at hr hV
    rw [hr, listRead_lt xss hi, listRead_lt reps (hl ▸ hi), pure_bind, pure_bind]
    obtain ⟨B, hB, -⟩ := id hV
    have hrl := (List.getElem?_eq_some_iff.mp hB).1
    have hs := (repeat_sim n (i := i) (rep := reps[i]'(hl ▸ hi)) (hV.mono [C]) (ro := H.length) (by simp) (by omega) hC).keep (repeat_shape _ _ _ hC)
    refine stmt_sim (hs.mono ?_) (ha.set (by simp) _)
    rintro C' o ⟨⟨-, h2⟩, h3⟩
    refine ⟨?_, h3⟩
    rw [h2]; simp
  · rintro C _ env' ha ⟨rfl, hC⟩
    pysimp [look, ha _, e4]
    exact Sim.pure rfl

theorem cumprod_length (p : ℕ) (l : List ℕ) : (cumprod p l).length = l.length := by
  induction l generalizing p with
  | nil => rfl
  | cons a l ih => simp [cumprod, ih]

theorem repetitions_length (order : String) {l : List ℕ} (h : l ≠ []) : (repetitions order l).length = l.length := by
  have := List.length_pos_iff.mpr h
  rw [repetitions]
  split <;> simp [cumprod_length] <;> omega

theorem subs_slice_last (W : World K) (env : Env K) :
    evalSubs W env (.cons (.slice .nil (.neg (.int 1))) .nil) = pure [.slice none (some (-1))] := rfl

theorem item_slice_last (l : List ℕ) : item (.list (l.map fun n : ℕ => .int (n : ℤ)) : Val K) [.slice none (some (-1))] =
    pure (.list (l.dropLast.map fun n : ℕ => .int (n : ℤ))) := by
  rw [item, sliceList_last, List.map_dropLast]

theorem cartesian_sim (n : ℕ) {h : Heap K} {v : Val K} {vs : List (Val K)} {xss : List (List K)} (hvs : v = .list vs ∨ v = .tup vs)
    (hv : List.Forall₂ (Nums h) vs xss) (order : String) :
    Sim (cartesian xss order) (runFun (world cartProg (n + 3)) cartesianFun [v, .str order] h)
      (fun C o => ∃ t, o = (.arr (h ++ t).length [none, none], h ++ t ++ [C])) := by
  rw [runFun]
  have hit : iterate v = (pure vs : M K _) := by rcases hvs with rfl | rfl <;> rfl
  have ha : getAttr (.np : Val K) "array" = pure (.builtin .array) := rfl
  have hp : getAttr (.np : Val K) "prod" = pure (.builtin .prod) := rfl
  have hcp : getAttr (.np : Val K) "cumprod" = pure (.builtin .cumprod) := rfl
  have ha1 (v : Val K) : builtin .array [v] = npArray v none := rfl
  have hil (vs : List (Val K)) : iterate (.list vs) = (pure vs : M K _) := rfl
  have hll (vs : List (Val K)) : builtin .len [.list vs] = pure (.int vs.length) := rfl
  pysimp [cartesianFun, cartesianBody, look, eval_comp, hit, kglob_numpy, kglob_len, ha, ha1, hp]
  obtain ⟨us, As, hV, hk⟩ := arrays_step hv []
  rw [List.append_nil] at hV hk
  rw [hk]
  pysimp [hil]
  rw [shapes_step hV]
  pysimp [hll]
  cases xss with
  | nil =>
    cases hv
    cases hV
    rfl
  | cons xs xss =>
    have hprod : builtin .prod [(.list (((xs :: xss).map List.length).map fun n : ℕ => .int (n : ℤ)) : Val K)] =
        pure (.int (((xs :: xss).map List.length).prod : ℕ)) := by
      have := foldl_prod ((xs :: xss).map List.length) 1
      rw [Nat.cast_one, one_mul] at this
      rw [← this]
      simp only [builtin, intsOf_ints]
      rfl
    have hlen : us.length = (xs :: xss).length := hV.length_eq
    pysimp [hprod, hlen]
    rw [show (.tup [.int (((xs :: xss).map List.length).prod : ℕ), .int ((xs :: xss).length : ℤ)] : Val K) =
      .tup ([((xs :: xss).map List.length).prod, (xs :: xss).length].map fun n : ℕ => .int (n : ℤ)) from rfl, zerosN_step]
    generalize hX : xs :: xss = X at *
    have hne : X ≠ [] := by rw [← hX]; simp
    rw [cartesian]
    rw [if_neg (by simpa using hne)]
    have hcum (l : List ℕ) : builtin .cumprod [(.list (l.map fun n : ℕ => .int (n : ℤ)) : Val K)] =
        pure (.ints ((cumprod 1 l).map fun n : ℕ => (n : ℤ))) := by
      have := partialProducts_cumprod l 1
      rw [Nat.cast_one] at this
      simp only [builtin, intsOf_ints, this]
    by_cases ho : order = "C"
    · have hr : repetitions order (X.map List.length) = cumprod 1 (1 :: (X.map List.length).dropLast) := by rw [repetitions, if_pos ho]
      have hcat : binOp .plus (.list [.int ((1 : ℕ) : ℤ)] : Val K) (.list ((X.map List.length).dropLast.map fun n : ℕ => .int (n : ℤ))) =
        pure (.list ((1 :: (X.map List.length).dropLast).map fun n : ℕ => .int (n : ℤ))) := rfl
      have hl := repetitions_length order (l := X.map List.length) (by simpa using hne)
      rw [List.length_map] at hl
      rw [hr] at hl
      have hd : decide (order = "C") = true := by simp [ho]
      pysimp [hd, hcp, subs_slice_last, item_slice_last, hcat, hcum]
      rw [hr, bind_run]
      refine Sim.bind_right (cart_loop (n + 1) hV hl (R := .ints ((cumprod 1 (1 :: (X.map List.length).dropLast)).map fun n : ℕ => (n : ℤ)))
        (fun i hi => ?_) _ (by pysimp) (by pysimp) (by pysimp) (by pysimp; rfl) (by pysimp) (by pysimp)) ?_
      · rw [item, nth_lt _ (by simpa using hi), List.getElem_map]; rfl
      · rintro C _ rfl
        exact Sim.pure ⟨As, rfl⟩
    · have hr : repetitions order (X.map List.length) = (cumprod 1 (1 :: (X.map List.length).reverse.dropLast)).reverse := by
        rw [repetitions, if_neg ho]
      have hcat : binOp .plus (.list [.int ((1 : ℕ) : ℤ)] : Val K) (.list ((X.map List.length).reverse.dropLast.map fun n : ℕ => .int (n : ℤ))) =
        pure (.list ((1 :: (X.map List.length).reverse.dropLast).map fun n : ℕ => .int (n : ℤ))) := rfl
      have hmut (l : List ℕ) : mutated "reverse" (.list (l.map fun n : ℕ => .int (n : ℤ)) : Val K) [] =
          pure (.list (l.reverse.map fun n : ℕ => .int (n : ℤ))) := by
        rw [List.map_reverse]; rfl
      have htl (l : List ℕ) : getAttr (.ints (l.map fun n : ℕ => (n : ℤ)) : Val K) "tolist" =
        pure (.bound "tolist" (.ints (l.map fun n : ℕ => (n : ℤ)))) := rfl
      have hbo (l : List ℕ) : callN cartProg (n + 3) (.bound "tolist" (.ints (l.map fun n : ℕ => (n : ℤ))) : Val K) [] =
          pure (.list (l.map fun n : ℕ => .int (n : ℤ))) := by
        rw [show callN cartProg (n + 3) (.bound "tolist" (.ints (l.map fun n : ℕ => (n : ℤ))) : Val K) [] =
          method "tolist" (.ints (l.map fun n : ℕ => (n : ℤ))) [] from rfl]
        simp only [method, if_true, List.map_map]; rfl
      have hl := repetitions_length order (l := X.map List.length) (by simpa using hne)
      rw [List.length_map] at hl
      rw [hr] at hl
      have hd : decide (order = "C") = false := by simp [ho]
      pysimp [look, kglob_numpy, hd, hcp, Bool.false_eq_true, exec_mutate, subs_slice_last, item_slice_last, hcat, hcum, hmut, htl, hbo]
      rw [hr, bind_run]
      refine Sim.bind_right (cart_loop (n + 1) hV hl
        (R := .list ((cumprod 1 (1 :: (X.map List.length).reverse.dropLast)).reverse.map fun n : ℕ => .int (n : ℤ)))
        (fun i hi => ?_) _ (by pysimp) (by pysimp) (by pysimp) (by pysimp; rfl) (by pysimp) (by pysimp)) ?_
      · rw [item, nth_lt _ (by simpa using hi), List.getElem_map]; rfl
      · rintro C _ rfl
        exact Sim.pure ⟨As, rfl⟩

/-! ### `mlinspace` -/

/-- A list, a tuple or an array of integers. -/
def Whole (v : Val K) (zs : List ℤ) : Prop := v = .list (zs.map .int) ∨ v = .tup (zs.map .int) ∨ v = .ints zs

theorem intsOf_int (zs : List ℤ) : intsOf (zs.map (Val.int (K := K))) = some zs := by
  induction zs with
  | nil => rfl
  | cons z zs ih => simp [intsOf, ih]

theorem npArray_ints {v : Val K} {zs : List ℤ} (hv : Whole v zs) : npArray v (some "int64") = pure (.ints zs) := by
  rcases hv with rfl | rfl | rfl
  · simp only [npArray, intsOf_int]
  · simp only [npArray, intsOf_int]
  · rw [npArray, if_neg (by simp)]

theorem eval_arrayS {W : World K} {env : Env K} {s t : String} {v : Val K} (hs : look W env s = pure v) (hnp : look W env "numpy" = pure .np)
    (ht : t = "float64" ∨ t = "int64") (hc : ∀ args, W.call (.builtin .array) args = builtin .array args) :
    eval W env (.callX (.attr (.name "numpy") "array") (.cons (.name s) (.cons (.kw "dtype" (.str t)) .nil))) = npArray v (some t) := by
  have ha : getAttr (.np : Val K) "array" = pure (.builtin .array) := rfl
  have hA : evalArgs W env (.cons (.name s) (.cons (.kw "dtype" (.str t)) .nil)) = pure [.pos v, .kw "dtype" (.str t)] := by
    simp only [evalArgs, eval_name, eval_str, hs, pure_bind_M]
  have hp : paramNames (.builtin .array : Val K) = pure ["object", "dtype"] := rfl
  have hr : arrange ["object", "dtype"] [.pos v, .kw "dtype" (.str t)] = pure [v, .str t] := rfl
  have hd : dtypeOf (.str t : Val K) = pure t := by rw [dtypeOf, if_pos ht]
  simp only [eval, hnp, pure_bind_M, ha, hA, hp, hr, lift_pure, hc, builtin, hd]

theorem spaced_linspace (a b : K) (n : ℤ) : spaced a b n = linspace a b n := by
  rw [spaced, linspace]
  simp only [show (0 < n - 1) ↔ (1 < n) by omega]

theorem lins_sim {f : Val K → M K (Val K)} {g : ℕ → Py (List K)} : ∀ (l : List ℕ) (h : Heap K) (t : Heap K)
    (_ : ∀ i ∈ l, ∀ t, Sim (g i) (f (.int (i : ℤ)) (h ++ t)) fun xs o => ∃ A, IsVec A xs ∧ o = (.arr (h ++ t).length [none], h ++ t ++ [A])),
    Sim (l.mapM g) ((l.map fun i : ℕ => .int (i : ℤ)).mapM f (h ++ t)) fun xss o => ∃ As, o.2 = h ++ t ++ As ∧ Vecs o.2 o.1 xss
  | [], h, t, _ => by
    simp only [List.mapM_nil, List.map_nil]
    exact Sim.pure ⟨[], by simp, .nil⟩
  | i :: l, h, t, hf => by
    simp only [List.mapM_cons, List.map_cons]
    rw [bind_run]
    refine Sim.bind (hf i (by simp) t) ?_
    rintro xs _ ⟨A, hA, rfl⟩
    simp only
    rw [bind_run, List.append_assoc]
    refine Sim.bind (lins_sim l h (t ++ [A]) fun j hj => hf j (by simp [hj])) ?_
    rintro xss ⟨us, H⟩ ⟨As, hH, hV⟩
    simp only at hH hV
    subst hH
    refine Sim.pure ⟨A :: As, by simp, .cons ⟨_, rfl, ?_⟩ hV⟩
    have := (HasVec.last (h := h ++ t) hA).mono As
    simpa using this

theorem mlinspace_sim (n : ℕ) {h : Heap K} {v0 v1 v2 : Val K} {a b : List K} {nums : List ℤ} (ha : Nums h v0 a) (hb : Nums h v1 b)
    (hn : Whole v2 nums) (hla : nums.length ≤ a.length) (hlb : nums.length ≤ b.length) (order : String) :
    Sim (mlinspace a b nums order) (runFun (world cartProg (n + 4)) mlinspaceFun [v0, v1, v2, .str order] h)
      (fun C o => ∃ t, o = (.arr (h ++ t).length [none, none], h ++ t ++ [C])) := by
  rw [runFun]
  pysimp [mlinspaceFun, mlinspaceBody]
  have hc : ∀ args, (world cartProg (n + 4)).call (.builtin .array) args = (builtin .array args : M K _) := fun _ => rfl
  rw [eval_arrayS (v := v0) (by pysimp [look]) (by pysimp [look, kglob_numpy]) (by simp) hc]
  obtain ⟨A0, hA0, k0⟩ := npArray_step (α := Val K) ha
  rw [k0, eval_arrayS (v := v1) (by pysimp [look]) (by pysimp [look, kglob_numpy]) (by simp) hc]
  obtain ⟨A1, hA1, k1⟩ := npArray_step (α := Val K) (hb.mono [A0])
  rw [k1, eval_arrayS (v := v2) (by pysimp [look]) (by pysimp [look, kglob_numpy]) (by simp) hc, npArray_ints hn]
  have hlen : builtin .len [(.ints nums : Val K)] = pure (.int nums.length) := rfl
  have h1 : rangeStep 0 (nums.length : ℤ) 1 = (List.range nums.length).map fun (i : ℕ) => (i : ℤ) := by simp [rangeStep]
  have hmap : ((List.range nums.length).map fun (i : ℕ) => (i : ℤ)).map (Val.int (K := K)) =
    (List.range nums.length).map fun i : ℕ => .int (i : ℤ) := by rw [List.map_map]; rfl
  pysimp [eval_comp, look, kglob_range, kglob_len, hlen, h1, hmap]
  rw [mlinspace, bind_run]
  have hV0 : HasVec (h ++ [A0] ++ [A1]) h.length a := (HasVec.last hA0).mono [A1]
  have hV1 : HasVec (h ++ [A0] ++ [A1]) (h ++ [A0]).length b := HasVec.last hA1
  have key := lins_sim (K := K) (List.range nums.length) (h ++ [A0] ++ [A1]) [] (g := fun i => do
      let ai ← pyIndexNat a i
      let bi ← pyIndexNat b i
      let ni ← pyIndexNat nums i
      linspace ai bi ni) (f := fun v => asIx v >>= fun s => item (.arr h.length [none]) [s] >>= fun x => asIx v >>= fun s =>
        item (.arr (h ++ [A0]).length [none]) [s] >>= fun y => asIx v >>= fun s => item (.ints nums) [s] >>= fun w =>
        builtin .linspace [x, y, w]) ?_
  · rw [List.append_nil] at key
    refine Sim.bind key ?_
    rintro xss ⟨us, _⟩ ⟨As, rfl, hV⟩
    have hcall (W : World K) (env : Env K) (v w : Val K) (hf : look W env "cartesian" = pure (.fn cartesianFun))
        (hv : look W env "nodes" = pure v) (hw : look W env "order" = pure w) :
        eval W env (.callX (.name "cartesian") (.cons (.name "nodes") (.cons (.kw "order" (.name "order")) .nil))) =
          W.call (.fn cartesianFun) [v, w] := by
      have hA : evalArgs W env (.cons (.name "nodes") (.cons (.kw "order" (.name "order")) .nil)) = pure [.pos v, .kw "order" w] := by
        simp only [evalArgs, eval_name, hv, hw, pure_bind_M]
      have hr : arrange ["nodes", "order"] [.pos v, .kw "order" w] = pure [v, w] := rfl
      have hp : paramNames (.fn cartesianFun : Val K) = pure ["nodes", "order"] := rfl
      simp only [eval, hf, pure_bind_M, hA, hp, hr, lift_pure]
    simp only
    rw [hcall _ _ (.list us) (.str order) (by pysimp [look, kglob_cartesian]) (by pysimp [look]) (by pysimp [look]),
      show (world cartProg (n + 4)).call (.fn cartesianFun) [.list us, .str order] =
        (runFun (world cartProg (n + 3)) cartesianFun [.list us, .str order] : M K _) from rfl, bind_run]
    have := cartesian_sim n (h := h ++ [A0] ++ [A1] ++ As) (.inl rfl) (List.Forall₂.imp (fun _ _ h => .inr (.inr h)) hV) order
    refine Sim.bind_right this ?_
    rintro C _ ⟨t, rfl⟩
    exact Sim.pure ⟨[A0] ++ [A1] ++ As ++ t, by simp⟩
  · intro i hi t
    rw [List.mem_range] at hi
    have hi0 : i < a.length := by omega
    have hi1 : i < b.length := by omega
    have hp {l : List K} {i : ℕ} (hi : i < l.length) : pyIndexNat l i = pure l[i] := by simp [pyIndexNat, hi]
    have hp' : pyIndexNat nums i = pure nums[i] := by simp [pyIndexNat, hi]
    rw [hp hi0, hp hi1, hp', pure_bind, pure_bind, pure_bind]
    pysimp []
    rw [rdElem_vec (hV0.mono t) hi0, rdElem_vec (hV1.mono t) hi1]
    have hit : item (.ints nums) [.at (i : ℤ)] = (pure (.int nums[i]) : M K _) := by rw [item, nth_lt nums hi]; rfl
    rw [hit, pure_bind_M]
    simp only [builtin, number, lift_pure, pure_bind_M, spaced_linspace]
    rw [bind_run, lift_run, bind_assoc]
    refine sim_of_eq rfl fun xs => ⟨_, isVec_vecOf xs, rfl⟩

end Interp.Spec.PySrc
