import Verif.Proofs.SrcOldFilter

/-!
# The source texts of `filter_data`, `filter_coeffs` and `filter_mcoeffs`
-/

namespace Interp.Spec.PySrc
open Interp Interp.Filter

set_option linter.unusedSectionVars false

variable {K : Type} [Add K] [Sub K] [Mul K] [Div K] [Neg K] [Zero K] [One K] [NatCast K] [IntCast K]
  [LT K] [DecidableLT K] [LE K] [DecidableLE K] [BEq K] [IntFloor K] [Interp.Smolyak.Trig K]

theorem lenV_step {α : Type} {h : Heap K} {r : ℕ} {ds : List K} (hv : HasVec h r ds) (k : Val K → M K α) :
    (builtin .len [(.arr r [none] : Val K)] >>= k) h = k (.int ds.length) h := by
  obtain ⟨A, hA, hV⟩ := hv
  rw [step (len_run hA (by rw [hV.1]; rfl))]

theorem Sim.bind_left {α β γ : Type} {x : Py α} {y : Py β} {Q : α → β → Prop} {f : α → Py γ} {R : γ → β → Prop} (h : Sim x y Q)
    (h' : ∀ a b, Q a b → Sim (f a) (Pure.pure b) R) : Sim (x >>= f) y R := by
  rw [← bind_pure y]
  exact h.bind h'

/-- What `filter_data` and `filter_coeffs` return. -/
def Gives (h : Heap K) (d : ℕ) (S : Option (NdArray K)) (o : Val K × Heap K) : Prop :=
  match S with
  | some C => ∃ r, o.1 = .arr r (whole d) ∧ h.length ≤ r ∧ (∃ t, o.2 = h ++ t) ∧ o.2[r]? = some C
  | none => o.1 = .none ∧ ∃ t, o.2 = h ++ t

section
variable (L : LitLaws K) (h3 : (((3 : ℕ) : K) == 0) = false) (h6 : (((6 : ℕ) : K) == 0) = false) (n : ℕ)
  {h : Heap K} {rv rd : ℕ} {D : NdArray K} (hd : h[rd]? = some D)
include L h3 h6 hd

theorem data_sim {ds : List K} (hv : HasVec h rv ds) (hD : D.shape.length = ds.length) :
    Sim (filterData ds D)
      (runFun (world oldProg (n + 4)) filterDataFun [.arr rv [none], .arr rd (whole ds.length)] h) (Gives h ds.length) := by
  rw [runFun]
  pysimp [filterDataFun, filterDataBody, look, oglob_len]
  rw [lenV_step hv]
  pysimp [look, oglob_len]
  by_cases l1 : ds.length = 1
  · pysimp [look, oglob_1d, callN_fn, show ((ds.length : ℕ) : ℤ) = ((1 : ℕ) : ℤ) by rw [l1], decide_true]
    obtain ⟨a, rfl⟩ : ∃ a, ds = [a] := by
      match ds, l1 with
      | [a], _ => exact ⟨_, rfl⟩
    rw [filterData]
    rw [bind_run]
    refine Sim.bind (old1_sim L h3 h6 n hd hv hD) ?_
    rintro C ⟨_, H⟩ ⟨rfl, t, rfl⟩
    exact Sim.pure ⟨_, rfl, le_rfl, ⟨_, rfl⟩, by simp⟩
  have i1 : decide (((ds.length : ℕ) : ℤ) = ((1 : ℕ) : ℤ)) = false   := by
    simp only [decide_eq_false_iff_not, Nat.cast_inj]; exact l1
  pysimp [look, oglob_len, i1, Bool.false_eq_true]
  rw [lenV_step hv]
  pysimp [look, oglob_len]
  by_cases l2 : ds.length = 2
  · pysimp [look, oglob_2d, callN_fn, show ((ds.length : ℕ) : ℤ) = ((2 : ℕ) : ℤ) by rw [l2], decide_true]
    obtain ⟨a, b, rfl⟩ : ∃ a b, ds = [a, b] := by
      match ds, l2 with
      | [a, b], _ => exact ⟨_, _, rfl⟩
    rw [filterData]
    rw [bind_run]
    refine Sim.bind (old2_sim L h3 h6 n hd hv hD) ?_
    rintro C ⟨_, H⟩ ⟨rfl, t, rfl⟩
    exact Sim.pure ⟨_, rfl, le_rfl, ⟨_, rfl⟩, by simp⟩
  have i2 : decide (((ds.length : ℕ) : ℤ) = ((2 : ℕ) : ℤ)) = false   := by
    simp only [decide_eq_false_iff_not, Nat.cast_inj]; exact l2
  pysimp [look, oglob_len, i2, Bool.false_eq_true]
  rw [lenV_step hv]
  pysimp [look, oglob_len]
  by_cases l3 : ds.length = 3
  · pysimp [look, oglob_3d, callN_fn, show ((ds.length : ℕ) : ℤ) = ((3 : ℕ) : ℤ) by rw [l3], decide_true]
    obtain ⟨a, b, c, rfl⟩ : ∃ a b c, ds = [a, b, c] := by
      match ds, l3 with
      | [a, b, c], _ => exact ⟨_, _, _, rfl⟩
    rw [filterData]
    rw [bind_run]
    refine Sim.bind (old3_sim L h3 h6 n hd hv hD) ?_
    rintro C ⟨_, H⟩ ⟨rfl, t, rfl⟩
    exact Sim.pure ⟨_, rfl, le_rfl, ⟨_, rfl⟩, by simp⟩
  have i3 : decide (((ds.length : ℕ) : ℤ) = ((3 : ℕ) : ℤ)) = false   := by
    simp only [decide_eq_false_iff_not, Nat.cast_inj]; exact l3
  pysimp [look, oglob_len, i3, Bool.false_eq_true]
  rw [lenV_step hv]
  pysimp [look, oglob_len]
  by_cases l4 : ds.length = 4
  · pysimp [look, oglob_4d, callN_fn, show ((ds.length : ℕ) : ℤ) = ((4 : ℕ) : ℤ) by rw [l4], decide_true]
    obtain ⟨a, b, c, e, rfl⟩ : ∃ a b c e, ds = [a, b, c, e] := by
      match ds, l4 with
      | [a, b, c, e], _ => exact ⟨_, _, _, _, rfl⟩
    rw [filterData]
    rw [bind_run]
    refine Sim.bind (old4_sim L h3 h6 n hd hv hD) ?_
    rintro C ⟨_, H⟩ ⟨rfl, t, rfl⟩
    exact Sim.pure ⟨_, rfl, le_rfl, ⟨_, rfl⟩, by simp⟩
  have i4 : decide (((ds.length : ℕ) : ℤ) = ((4 : ℕ) : ℤ)) = false   := by
    simp only [decide_eq_false_iff_not, Nat.cast_inj]; exact l4
  pysimp [i4, Bool.false_eq_true]
  have : filterData ds D = pure none := by
    match ds with
    | [] => rfl
    | [_] | [_, _] | [_, _, _] | [_, _, _, _] => simp_all
    | _ :: _ :: _ :: _ :: _ :: _ => rfl
  rw [this]
  exact Sim.pure ⟨rfl, [], by simp⟩
end

/-! ### `filter_coeffs` -/

/-- `v` is a list, a tuple or a vector of these numbers. -/
def Nums (h : Heap K) (v : Val K) (xs : List K) : Prop :=
  v = .list (xs.map .flt) ∨ v = .tup (xs.map .flt) ∨ ∃ r, v = .arr r [none] ∧ HasVec h r xs

theorem intsOf_flts (x : K) (xs : List K) : intsOf ((x :: xs).map (Val.flt (K := K))) = none := rfl

theorem numbers_flts (xs : List K) : (xs.map (Val.flt (K := K))).mapM number = pure xs := by
  induction xs with
  | nil => rfl
  | cons x xs ih => simp [number, ih]

theorem arrOf_flts (xs : List K) : arrOf (xs.map (Val.flt (K := K))) = pure (vecOf xs) := by
  have : ((xs.map (Val.flt (K := K))).all isRow && !(xs.map (Val.flt (K := K))).isEmpty) = false := by
    cases xs <;> simp [isRow]
  rw [arrOf, this, numbers_flts]
  rfl

theorem isVec_vecOf (xs : List K) : IsVec (vecOf xs) xs := by
  refine ⟨rfl, fun i hi => ?_⟩
  simp [vecOf, hi]

theorem contents_vec {A : NdArray K} {xs : List K} (hA : IsVec A xs) :
    ∃ B, contents A [none] = pure B ∧ IsVec B xs := by
  obtain ⟨hs, hg⟩ := hA
  refine ⟨⟨[xs.length], fun idx => A.get ((place [none] A.shape idx).getD [])⟩, ?_, rfl, ?_⟩
  · rw [contents, hs]; rfl
  · intro i hi
    rw [hs]
    exact hg i hi

theorem npArray_step {α : Type} {h : Heap K} {v : Val K} {xs : List K} (hv : Nums h v xs) :
    ∃ A, IsVec A xs ∧ ∀ k : Val K → M K α, (npArray v (some "float64") >>= k) h = k (.arr h.length [none]) (h ++ [A]) := by
  have hl (vs : List (Val K)) (hvs : vs = xs.map .flt) : ∀ k : Val K → M K α,
      ((match intsOf vs, some "float64" with
    | some zs, some "int64" => (pure (.ints zs) : M K (Val K))
    | none, some "int64" => raise .typing
    | some (z :: zs), none => pure (.ints (z :: zs))
    | _, _ => do
      let A ← lift (arrOf vs)
      let r ← newArr A
      pure (.arr r (whole A.shape.length))) >>= k) h = k (.arr h.length [none]) (h ++ [vecOf xs]) := by
    intro k
    subst hvs
    have : (lift (arrOf (xs.map (Val.flt (K := K)))) >>= fun A => newArr A >>= fun r =>
        (pure (.arr r (whole A.shape.length)) : M K (Val K))) h = pure (.arr h.length [none], h ++ [vecOf xs]) := by
      rw [arrOf_flts]; rfl
    cases xs with
    | nil => exact step this
    | cons x xs => exact step this
  rcases hv with rfl | rfl | ⟨r, rfl, A, hA, hV⟩
  · exact ⟨_, isVec_vecOf xs, hl _ rfl⟩
  · exact ⟨_, isVec_vecOf xs, hl _ rfl⟩
  · obtain ⟨B, hB, hBV⟩ := contents_vec hV
    refine ⟨B, hBV, fun k => step ?_⟩
    simp only [npArray, bind_run, getArr_run hA, pure_bind, hB, lift_run]
    rw [if_neg (by decide)]
    simp only [bind_run, getArr_run hA, pure_bind, hB, lift_run, newArr]
    simp only [pure_bind, hBV.1]
    rfl

theorem Nums.mono {h : Heap K} {v : Val K} {xs : List K} (hv : Nums h v xs) (t : Heap K) : Nums (h ++ t) v xs := by
  rcases hv with hv | hv | ⟨r, rfl, A, hA, hV⟩
  · exact .inl hv
  · exact .inr (.inl hv)
  · exact .inr (.inr ⟨r, rfl, A, by
      rw [List.getElem?_append_left (List.getElem?_eq_some_iff.mp hA).1, hA], hV⟩)

theorem HasVec.mono {h : Heap K} {r : ℕ} {xs : List K} (hv : HasVec h r xs) (t : Heap K) : HasVec (h ++ t) r xs := by
  obtain ⟨A, hA, hV⟩ := hv
  exact ⟨A, by rw [List.getElem?_append_left (List.getElem?_eq_some_iff.mp hA).1, hA], hV⟩

theorem HasVec.last {h : Heap K} {A : NdArray K} {xs : List K} (hV : IsVec A xs) : HasVec (h ++ [A]) h.length xs :=
  ⟨A, by simp, hV⟩

theorem isVec_zip {A B : NdArray K} {xs ys : List K} (f : K → K → K) (hA : IsVec A xs) (hB : IsVec B ys) (hl : xs.length = ys.length) :
    ∃ C, broadcast f (.arr A) (.arr B) = pure C ∧ IsVec C (List.zipWith f xs ys) := by
  refine ⟨⟨A.shape, fun idx => f (A.get idx) (B.get idx)⟩, ?_, ?_, ?_⟩
  · rw [broadcast, if_pos (by rw [hA.1, hB.1, hl])]
  · simp [hA.1, hl]
  · intro i hi
    simp only [List.length_zipWith, lt_min_iff] at hi
    simp [hA.2 i hi.1, hB.2 i hi.2]

theorem minus_step {α : Type} {h : Heap K} {r s : ℕ} {xs ys : List K} (hx : HasVec h r xs) (hy : HasVec h s ys) (hl : xs.length = ys.length) :
    ∃ A, IsVec A (List.zipWith (· - ·) xs ys) ∧ ∀ k : Val K → M K α,
      (binOp .minus (.arr r [none]) (.arr s [none]) >>= k) h = k (.arr h.length [none]) (h ++ [A]) := by
  obtain ⟨X, hX, hXV⟩ := hx
  obtain ⟨Y, hY, hYV⟩ := hy
  obtain ⟨X', hX', hXV'⟩ := contents_vec hXV
  obtain ⟨Y', hY', hYV'⟩ := contents_vec hYV
  obtain ⟨C, hC, hCV⟩ := isVec_zip (· - ·) hXV' hYV' hl
  refine ⟨C, hCV, fun k => step ?_⟩
  simp only [binOp, arrayOp, elemOp, operand, bind_run, getArr_run hX, getArr_run hY, pure_bind, hX', hY', lift_run, bind_assoc, pure_run,
    hC, newArr, hCV.1]
  rfl

theorem slash_step {α : Type} {h : Heap K} {r : ℕ} {xs : List K} {zs : List ℤ} (hx : HasVec h r xs) (hl : xs.length = zs.length) :
    ∃ A, IsVec A (List.zipWith (· / ·) xs (zs.map fun z : ℤ => (z : K))) ∧ ∀ k : Val K → M K α,
      (binOp .slash (.arr r [none]) (.ints zs) >>= k) h = k (.arr h.length [none]) (h ++ [A]) := by
  obtain ⟨X, hX, hXV⟩ := hx
  obtain ⟨X', hX', hXV'⟩ := contents_vec hXV
  have hYV' : IsVec (⟨[zs.length], fun idx => ((zs.getD (idx.headD 0) 0 : ℤ) : K)⟩ : NdArray K) (zs.map fun z : ℤ => (z : K)) := by
    refine ⟨by simp, fun i hi => ?_⟩
    simp only [List.length_map] at hi
    simp [hi]
  obtain ⟨C, hC, hCV⟩ := isVec_zip (· / ·) hXV' hYV' (by simpa using hl)
  refine ⟨C, hCV, fun k => step ?_⟩
  simp only [binOp, arrayOp, elemOp, operand, bind_run, getArr_run hX, pure_bind, hX', lift_run, bind_assoc, pure_run,
    hC, newArr, hCV.1]
  rfl

theorem wrapIndices_place : ∀ {t post : List ℕ}, InShape t post → ∀ idx, place (post.map fun i => some (Int.ofNat i)) t idx = some post
  | [], [], _, idx => by cases idx <;> rfl
  | n :: t, i :: post, ⟨h1, h2⟩, idx => by
    have : wrapIndex n (Int.ofNat i) = some i := by simp [wrapIndex, h1]
    rw [List.map_cons, place, this, wrapIndices_place h2 idx]

theorem place_pat {t post : List ℕ} (hp : InShape t post) : ∀ (sh idx : List ℕ), idx.length = sh.length →
    place (pat sh.length post) (sh ++ t) idx = some (idx ++ post)
  | [], [], _ => wrapIndices_place hp []
  | n :: sh, i :: idx, h => by
    rw [show pat (n :: sh).length post = none :: pat sh.length post from rfl, List.cons_append, place,
      place_pat hp sh idx (by simpa using h)]
    rfl

theorem place_pat_nil {t post : List ℕ} (hp : InShape t post) : ∀ (sh : List ℕ),
    (place (pat sh.length post) (sh ++ t) []).isSome
  | [] => by rw [show pat [].length post = post.map fun i => some (Int.ofNat i) from rfl, List.nil_append, wrapIndices_place hp]; rfl
  | n :: sh => by
    rw [show pat (n :: sh).length post = none :: pat sh.length post from rfl, List.cons_append, place, Option.isSome_map]
    exact place_pat_nil hp sh

/-- `A` shows what the first axes of `E` show at the last indices `post`. -/
def Part (E : NdArray K) (post : List ℕ) (A : NdArray K) : Prop := ∀ idx, idx.length = A.shape.length → A.get idx = E.get (idx ++ post)

theorem contents_pat {E : NdArray K} {sh t post : List ℕ} (hp : InShape t post) (hE : E.shape = sh ++ t) :
    ∃ B, contents E (pat sh.length post) = pure B ∧ B.shape = sh ∧ Part E post B := by
  have h0 := place_pat_nil hp sh
  obtain ⟨js, hjs⟩ := Option.isSome_iff_exists.mp h0
  refine ⟨⟨sh, fun idx => E.get ((place (pat sh.length post) (sh ++ t) idx).getD [])⟩, ?_, rfl, ?_⟩
  · rw [contents, hE, hjs, viewShape_pat _ _ _ _ rfl]
  · intro idx hidx
    simp only
    rw [place_pat hp sh idx hidx]
    rfl

theorem unravel_len : ∀ (sh : List ℕ) (r : ℕ), (unravel sh r).length = sh.length
  | [], _ => rfl
  | _ :: sh, r => by rw [unravel, List.length_cons, List.length_cons, unravel_len sh]

theorem reshape_part {E A B : NdArray K} {post : List ℕ} (hs : A.shape = B.shape) (hA : Part E post A) (hB : Part E post B) (sh : List ℕ) :
    A.reshape sh = B.reshape sh := by
  unfold NdArray.reshape
  rw [hs]
  congr 3
  funext idx
  rw [hA _ (by rw [hs, unravel_len]), hB _ (unravel_len _ _)]

theorem reshape_step {α : Type} {h : Heap K} {r : ℕ} {E D : NdArray K} {t post : List ℕ} (hr : h[r]? = some E) (hp : InShape t post)
    (hE : E.shape = D.shape ++ t) (hD : Part E post D) (orders : List ℕ) (k : Val K → M K α) :
    (method "reshape" (.arr r (pat D.shape.length post)) [.ints (orders.map fun n : ℕ => (n : ℤ))] >>= k) h =
      D.reshape orders >>= fun A => k (.arr h.length (whole orders.length)) (h ++ [A]) := by
  obtain ⟨B, hB, hBs, hBP⟩ := contents_pat hp hE
  have hsz : sizes ((orders.map fun n : ℕ => (n : ℤ)).map (Val.int (K := K))) = pure orders := by
    rw [List.map_map]; exact sizes_ints orders
  rw [bind_run]
  simp only [method, if_true, bind_run, getArr_run hr, pure_bind, hB, hsz, lift_run, reshape_part hBs hBP hD, bind_assoc, pure_run]
  rw [NdArray.reshape]
  split <;> rfl

section
variable (L : LitLaws K) (h3 : (((3 : ℕ) : K) == 0) = false) (h6 : (((6 : ℕ) : K) == 0) = false) (n : ℕ)
include L h3 h6

omit L h3 h6 in
theorem eval_array {W : World K} {env : Env K} {s : String} {v : Val K} (hs : look W env s = pure v) (hnp : look W env "np" = pure .np)
    (hf : look W env "float" = pure (.builtin .float)) (hc : ∀ args, W.call (.builtin .array) args = builtin .array args) :
    eval W env (.callX (.attr (.name "np") "array") (.cons (.name s) (.cons (.kw "dtype" (.name "float")) .nil))) =
      npArray v (some "float64") := by
  have ha : getAttr (.np : Val K) "array" = pure (.builtin .array) := rfl
  have hA : evalArgs W env (.cons (.name s) (.cons (.kw "dtype" (.name "float")) .nil)) =
      pure [.pos v, .kw "dtype" (.builtin .float)] := by
    simp only [evalArgs, eval_name, hs, hf, pure_bind_M]
  have hp : paramNames (.builtin .array : Val K) = pure ["object", "dtype"] := rfl
  have hr : arrange ["object", "dtype"] [.pos v, .kw "dtype" (.builtin .float)] = pure [v, .builtin .float] := rfl
  have hd : dtypeOf (.builtin .float : Val K) = pure "float64" := rfl
  simp only [eval, hnp, pure_bind_M, ha, hA, hp, hr, lift_pure, hc, builtin, hd]

theorem coeffs_sim {h : Heap K} {v0 v1 : Val K} {xs ys : List K} {orders : List ℕ} {rd : ℕ} {E D : NdArray K} {t post : List ℕ}
    (hx : Nums h v0 xs) (hy : Nums h v1 ys) (hlx : xs.length = orders.length) (hly : ys.length = orders.length)
    (hd : h[rd]? = some E) (hp : InShape t post) (hE : E.shape = D.shape ++ t) (hD : Part E post D) :
    Sim (filterCoeffs xs ys orders D)
      (runFun (world oldProg (n + 5)) filterCoeffsFun
        [v0, v1, .ints (orders.map fun n : ℕ => (n : ℤ)), .arr rd (pat D.shape.length post)] h) (Gives h orders.length) := by
  rw [runFun]
  pysimp [filterCoeffsFun, filterCoeffsBody, look]
  have hc : ∀ args, (world oldProg (n + 5)).call (.builtin .array) args = (builtin .array args : M K _) := fun _ => rfl
  rw [eval_array (v := v0) (by pysimp [look]) (by pysimp [look, oglob_np]) (by pysimp [look, oglob_float]) hc]
  obtain ⟨A0, hA0, k0⟩ := npArray_step (α := Val K) hx
  rw [k0, eval_array (v := v1) (by pysimp [look]) (by pysimp [look, oglob_np]) (by pysimp [look, oglob_float]) hc]
  obtain ⟨A1, hA1, k1⟩ := npArray_step (α := Val K) (hy.mono [A0])
  rw [k1]
  obtain ⟨A2, hA2, k2⟩ := minus_step (α := Val K) (HasVec.last hA1) ((HasVec.last (h := h) hA0).mono [A1]) (by rw [hly, hlx])
  rw [k2]
  obtain ⟨A3, hA3, k3⟩ := slash_step (α := Val K) (zs := orders.map fun n : ℕ => (n : ℤ))
    (HasVec.last (h := h ++ [A0] ++ [A1]) hA2) (by simp [hly, hlx])
  rw [k3]
  have hre : getAttr (.arr rd (pat D.shape.length post) : Val K) "reshape" = pure (.bound "reshape" (.arr rd (pat D.shape.length post))) := rfl
  have hbo (args : List (Val K)) : callN oldProg (n + 5) (.bound "reshape" (.arr rd (pat D.shape.length post))) args =
    method "reshape" (.arr rd (pat D.shape.length post)) args := rfl
  have hd4 : (h ++ [A0] ++ [A1] ++ [A2] ++ [A3])[rd]? = some E := by
    have := (List.getElem?_eq_some_iff.mp hd).1
    simp only [List.append_assoc]
    rw [List.getElem?_append_left this, hd]
  simp only [hre, pure_bind_M, hbo]
  rw [reshape_step hd4 hp hE hD, filterCoeffs]
  have hsh : Keeps (fun A => A.shape = orders) (D.reshape orders) := by
    unfold NdArray.reshape
    split
    · exact Keeps.pure rfl
    · exact Keeps.throw
  generalize D.reshape orders = X at hsh
  cases X with
  | error e => exact (rfl : e = e)
  | ok A =>
    have hA : A.shape = orders := hsh A rfl
    show Sim (filterData _ A) _ _
    pysimp [oglob_data, callN_fn]
    have hz : List.zipWith (fun w n => w / ((n : ℕ) : K)) (List.zipWith (· - ·) ys xs) orders =
        List.zipWith (· / ·) (List.zipWith (· - ·) ys xs) ((orders.map fun n : ℕ => (n : ℤ)).map fun z : ℤ => (z : K)) := by
      rw [List.map_map, List.zipWith_map_right]
      congr 1
      funext w n
      simp only [Function.comp_apply, L.int]
    have hlen : (List.zipWith (· / ·) (List.zipWith (· - ·) ys xs)
        ((orders.map fun n : ℕ => (n : ℤ)).map fun z : ℤ => (z : K))).length = orders.length := by simp [hlx, hly]
    rw [hz]
    have := data_sim L h3 h6 n (h := h ++ [A0] ++ [A1] ++ [A2] ++ [A3] ++ [A]) (rd := (h ++ [A0] ++ [A1] ++ [A2] ++ [A3]).length)
      (rv := (h ++ [A0] ++ [A1] ++ [A2]).length) (D := A) (by simp) ((HasVec.last hA3).mono [A]) (by rw [hA, hlen])
    rw [hlen] at this
    have hb {β : Type} (f : NdArray K → Py β) : ((Except.ok A : Py (NdArray K)) >>= f) = f A := rfl
    rw [hb, bind_pure]
    refine this.mono fun S o hS => ?_
    have happ (t : Heap K) : h ++ [A0] ++ [A1] ++ [A2] ++ [A3] ++ [A] ++ t = h ++ ([A0, A1, A2, A3, A] ++ t) := by simp
    cases S with
    | none =>
      obtain ⟨hv, t, ht⟩ := hS
      exact ⟨hv, _, ht.trans (happ t)⟩
    | some C =>
      obtain ⟨r, hv, hr, ⟨t, ht⟩, hC⟩ := hS
      refine ⟨r, hv, ?_, ⟨_, ht.trans (happ t)⟩, hC⟩
      simp only [List.length_append, List.length_cons, List.length_nil] at hr
      omega
end

/-! ### `filter_mcoeffs` -/

theorem old_shape (δ : K) (m : ℕ) (src : Option (NdArray K)) (l : Line) {C : NdArray K} {sh : List ℕ} (hC : C.shape = sh) :
    Keeps (fun C' => C'.shape = sh) (oldFindCoefs1d δ m src l C) := by
  refine Keeps.bind Keeps.any fun b _ => ?_
  refine Keeps.bind (solve_shape _ _ _) fun s hs => Keeps.pure (hs.2.trans hC)

theorem filterData_shape (ds : List K) (D : NdArray K) (hD : D.shape.length = ds.length) :
    Keeps (fun S => ∀ C, S = some C → C.shape = D.shape.map (· + 2)) (filterData ds D) := by
  obtain ⟨sh, g⟩ := D
  match ds, sh, hD with
  | [a], [m], _ =>
    refine Keeps.bind (P := fun C => C.shape = _) ?_ fun C hC => Keeps.pure fun C' h => by cases h; exact hC
    rw [filterCoeffs1d]
    exact old_shape _ _ _ _ rfl
  | [a, b], [m, k], _ =>
    refine Keeps.bind (P := fun C => C.shape = _) ?_ fun C hC => Keeps.pure fun C' h => by cases h; exact hC
    rw [filterCoeffs2d]
    refine Keeps.bind (P := fun C => C.shape = [m + 2, k + 2]) (Keeps.loop rfl fun _ _ s hs => old_shape _ _ _ _ hs) fun s hs => ?_
    exact Keeps.loop hs fun _ _ s hs => old_shape _ _ _ _ hs
  | [a, b, c], [m, k, j], _ =>
    refine Keeps.bind (P := fun C => C.shape = _) ?_ fun C hC => Keeps.pure fun C' h => by cases h; exact hC
    rw [filterCoeffs3d]
    refine Keeps.bind (P := fun C => C.shape = [m + 2, k + 2, j + 2]) (Keeps.loop rfl fun _ _ s hs => Keeps.loop hs fun _ _ s hs => old_shape _ _ _ _ hs) fun s hs => ?_
    refine Keeps.bind (P := fun C => C.shape = [m + 2, k + 2, j + 2]) (Keeps.loop hs fun _ _ s hs => Keeps.loop hs fun _ _ s hs => old_shape _ _ _ _ hs) fun s hs => ?_
    exact Keeps.loop hs fun _ _ s hs => Keeps.loop hs fun _ _ s hs => old_shape _ _ _ _ hs
  | [a, b, c, f], [m, k, j, i], _ =>
    refine Keeps.bind (P := fun C => C.shape = _) ?_ fun C hC => Keeps.pure fun C' h => by cases h; exact hC
    rw [filterCoeffs4d]
    refine Keeps.bind (P := fun C => C.shape = [m + 2, k + 2, j + 2, i + 2]) (Keeps.loop rfl fun _ _ s hs => Keeps.loop hs fun _ _ s hs => Keeps.loop hs fun _ _ s hs => old_shape _ _ _ _ hs)
      fun s hs => ?_
    refine Keeps.bind (P := fun C => C.shape = [m + 2, k + 2, j + 2, i + 2]) (Keeps.loop hs fun _ _ s hs => Keeps.loop hs fun _ _ s hs => Keeps.loop hs fun _ _ s hs => old_shape _ _ _ _ hs)
      fun s hs => ?_
    refine Keeps.bind (P := fun C => C.shape = [m + 2, k + 2, j + 2, i + 2]) (Keeps.loop hs fun _ _ s hs => Keeps.loop hs fun _ _ s hs => Keeps.loop hs fun _ _ s hs => old_shape _ _ _ _ hs)
      fun s hs => ?_
    exact Keeps.loop hs fun _ _ s hs => Keeps.loop hs fun _ _ s hs => Keeps.loop hs fun _ _ s hs => old_shape _ _ _ _ hs
  | [], _, _ => exact Keeps.pure fun C h => by cases h
  | _ :: _ :: _ :: _ :: _ :: _, _, _ => exact Keeps.pure fun C h => by cases h

theorem filterCoeffs_shape (xs ys : List K) (orders : List ℕ) (D : NdArray K) (hx : xs.length = orders.length)
    (hy : ys.length = orders.length) :
    Keeps (fun S => ∀ C, S = some C → C.shape = orders.map (· + 2)) (filterCoeffs xs ys orders D) := by
  rw [filterCoeffs, NdArray.reshape]
  split
  · exact filterData_shape _ _ (by simp [hx, hy])
  · exact Keeps.throw

/-- Two arrays of one shape with the same entries. -/
def Alike (A B : NdArray K) : Prop := A.shape = B.shape ∧ ∀ idx, idx.length = A.shape.length → A.get idx = B.get idx

theorem within_pat (m i : ℕ) (hi : i < m) : ∀ (sh idx : List ℕ) (j : ℕ), idx.length = sh.length →
    within (pat sh.length [i]) (sh ++ [m]) (idx ++ [j]) = if j = i then some idx else none
  | [], [], j, _ => by
    have : wrapIndex m (Int.ofNat i) = some i := by simp [wrapIndex, hi]
    simp only [pat, List.length_nil, List.replicate_zero, List.nil_append, List.map_cons, List.map_nil, within, this, Option.some.injEq]
    by_cases h : i = j
    · simp [h]
    · rw [if_neg h, if_neg (fun h' => h h'.symm)]
  | n :: sh, a :: idx, j, h => by
    rw [show pat (n :: sh).length [i] = none :: pat sh.length [i] from rfl, List.cons_append, List.cons_append, within,
      within_pat m i hi sh idx j (by simpa using h)]
    split <;> rfl

/-- `A[..., i] = S`. -/
theorem store_last {h : Heap K} {r r' : ℕ} {A S C0 : NdArray K} {sh : List ℕ} {m i : ℕ} (hr : h[r]? = some A) (hA : A.shape = sh ++ [m])
    (hi : i < m) (hr' : h[r']? = some S) (hS : S.shape = sh) (hC : Alike C0 A) :
    ∃ B, putItem (.arr r (whole (sh.length + 1)) : Val K) [.dots, .at (i : ℤ)] (.arr r' (whole sh.length)) h = pure ((), h.set r B) ∧
      Alike (C0.setLast i S) B := by
  obtain ⟨S', hS', hs', hP⟩ := contents_pat (E := S) (sh := sh) (t := []) (post := []) trivial (by simpa using hS)
  obtain ⟨V, hV, hVs, -⟩ := contents_pat (E := A) (sh := sh) (t := [m]) (post := [i]) ⟨hi, trivial⟩ hA
  rw [pat_whole] at hS'
  have hre := refine_dots sh.length [] i
  refine ⟨⟨A.shape, fun idx => match within (pat sh.length [i]) A.shape idx with
        | some k => S'.get k
        | none => A.get idx⟩, ?_, ?_⟩
  · rw [← pat_whole, ← pat_whole]
    rw [pat_whole sh.length]
    simp only [putItem, bind_run, getArr_run hr', pure_bind, hS', lift_run]
    have hex : expand (free (pat (sh.length + 1) [])) [.dots, .at (i : ℤ)] = List.replicate sh.length .full ++ [.at (i : ℤ)] := by
      rw [free_pat]; rfl
    simp only [storeArr, hex, hre, bind_run, getArr_run hr, pure_bind, hV, lift_run, hVs, hs', if_true, setArr]
    rfl
  · refine ⟨hC.1, fun idx hidx => ?_⟩
    have hl : idx.length = sh.length + 1 := by
      rw [show (C0.setLast i S).shape = C0.shape from rfl, hC.1, hA] at hidx
      simpa using hidx
    obtain ⟨idx', j, rfl⟩ : ∃ idx' j, idx = idx' ++ [j] :=
      ⟨idx.dropLast, idx.getLast (by intro h0; simp [h0] at hl), (List.dropLast_append_getLast _).symm⟩
    have hl' : idx'.length = sh.length := by simpa using hl
    simp only [NdArray.setLast, List.getLast?_append, List.getLast?_singleton, Option.some_or, List.dropLast_concat, hA,
      within_pat m i hi sh idx' j hl', Option.some.injEq]
    by_cases h : j = i
    · rw [if_pos h, if_pos h]
      have := hP idx' (by rw [hs', hl'])
      rw [List.append_nil] at this
      exact this.symm
    · rw [if_neg h, if_neg h]
      exact hC.2 _ hidx

theorem Nums.reach {h h' : Heap K} {rc : ℕ} {A : NdArray K} {v : Val K} {xs : List K} (hv : Nums h v xs) (ho : Other rc v)
    (hr : Reach h rc A h') : Nums h' v xs := by
  rcases hv with hv | hv | ⟨r, rfl, hV⟩
  · exact .inl hv
  · exact .inr (.inl hv)
  · exact .inr (.inr ⟨r, rfl, hV.reach (ho _ _ rfl).symm hr⟩)

theorem len_nums {α : Type} {h : Heap K} {v : Val K} {xs : List K} (hv : Nums h v xs) (k : Val K → M K α) :
    (builtin .len [v] >>= k) h = k (.int xs.length) h := by
  rcases hv with rfl | rfl | ⟨r, rfl, hV⟩
  · simp [builtin]
  · simp [builtin]
  · exact lenV_step hV k

section
variable (L : LitLaws K) (h3 : (((3 : ℕ) : K) == 0) = false) (h6 : (((6 : ℕ) : K) == 0) = false) (n : ℕ)
include L h3 h6

theorem mcoeffs_sim {h : Heap K} {v0 v1 : Val K} {xs ys : List K} {orders : List ℕ} {rd : ℕ} {D : NdArray K} {sh : List ℕ} {a m : ℕ}
    (hx : Nums h v0 xs) (hy : Nums h v1 ys) (hlx : xs.length = orders.length) (hly : ys.length = orders.length)
    (hd : h[rd]? = some D) (hD : D.shape = a :: sh ++ [m]) :
    Sim (filterMcoeffs xs ys orders D)
      (runFun (world oldProg (n + 6)) filterMcoeffsFun
        [v0, v1, .ints (orders.map fun n : ℕ => (n : ℤ)), .arr rd (whole (sh.length + 2))] h)
      (fun C o => o.1 = .arr h.length (whole (orders.length + 1)) ∧ ∃ C' t, o.2 = h ++ C' :: t ∧ Alike C C') := by
  rw [runFun]
  pysimp [filterMcoeffsFun, filterMcoeffsBody, look, oglob_len]
  rw [len_nums hx]
  have hs {α : Type} (k : Val K → M K α) : (getAttr (.arr rd (whole (sh.length + 2)) : Val K) "shape" >>= k) h =
      k (.tup (((a :: sh).map fun n : ℕ => .int (n : ℤ)) ++ [.int (m : ℤ)])) h := by
    have := shape_whole hd k
    rw [hD] at this
    simpa using this
  rw [hs]
  pysimp [look, item_last, oglob_np, oglob_tuple, eval_comp]
  have hit : iterate (.ints (orders.map fun n : ℕ => (n : ℤ)) : Val K) = pure ((orders.map fun n : ℕ => (n : ℤ)).map .int) := rfl
  have hmap : ((orders.map fun n : ℕ => (n : ℤ)).map (Val.int (K := K))).mapM (fun x => binOp .plus x (.int ((2 : ℕ) : ℤ))) =
      (pure ((orders.map (· + 2)).map fun n : ℕ => .int (n : ℤ)) : M K _) := by
    clear hlx hly
    induction orders with
    | nil => rfl
    | cons o os ih =>
      have : binOp .plus (.int (o : ℤ) : Val K) (.int ((2 : ℕ) : ℤ)) = pure (.int ((o + 2 : ℕ) : ℤ)) := rfl
      simp only [List.map_cons, List.mapM_cons, this, pure_bind_M, ih rfl]
  have htup (vs : List (Val K)) : builtin .tuple [.list vs] = pure (.tup vs) := rfl
  have hcat (us vs : List (Val K)) : binOp .plus (.tup us) (.tup vs) = pure (.tup (us ++ vs)) := rfl
  simp only [hit, pure_bind_M, hmap, htup, hcat]
  rw [show ((orders.map (· + 2)).map fun n : ℕ => (Val.int (n : ℤ) : Val K)) ++ [.int (m : ℤ)] =
    ((orders.map (· + 2) ++ [m]).map fun n : ℕ => .int (n : ℤ)) by simp, zerosN_step]
  have hlast : D.shape.getLastD 0 = m := by
    rw [hD, List.getLastD_eq_getLast?, List.getLast?_concat]; rfl
  have hdl : rd < h.length := (List.getElem?_eq_some_iff.mp hd).1
  rw [← bind_pure (filterMcoeffs xs ys orders D)]
  simp only [filterMcoeffs, hlast]
  generalize hN : orders.map (· + 2) ++ [m] = N
  have hNl : N.length = orders.length + 1 := by rw [← hN]; simp
  rw [hNl]
  generalize he : Env.set _ "coefs" _ = env0
  have he0 (s : String) := congrFun he.symm s
  rw [bind_run]
  have hcl : h.length < (h ++ [NdArray.zeros (K := K) N]).length := by simp
  have hd' : (h ++ [NdArray.zeros (K := K) N])[rd]? = some D := by rw [List.getElem?_append_left hdl, hd]
  have hother {v : Val K} {zs : List K} (hz : Nums h v zs) : Other h.length v := by
    rintro r p rfl
    rcases hz with hz | hz | ⟨r', hz, A, hA, -⟩
    · cases hz
    · cases hz
    · cases hz
      exact Nat.ne_of_lt (List.getElem?_eq_some_iff.mp hA).1
  refine Sim.bind_right (Q := fun C o => o.1 = .ret (.arr h.length (whole (orders.length + 1))) ∧ ∃ C' t, o.2 = h ++ C' :: t ∧ Alike C C') ?_ ?_
  · refine for_sim (names := ["i"])
      (R := fun C H => ∃ A, Reach (h ++ [NdArray.zeros (K := K) N]) h.length A H ∧ A.shape = N ∧ Alike C A)
      (by pysimp [look, he0, oglob_range]) (fun _ => rfl) (by pysimp [he0]) ⟨_, .refl (by simp), rfl, rfl, fun _ _ => rfl⟩ ?_ ?_
    · rintro i hi C H env' ei ⟨A, hRA, hAN, hCA⟩
      have hv := item_dots (K := K) rd sh.length [] i
      rw [pat_whole] at hv
      pysimp [filterMcoeffsLoop0, look, ei _, he0, oglob_coeffs, hv, callN_fn]
      have hsl : (D.sliceLast i).shape = a :: sh := by
        show D.shape.dropLast = _
        rw [hD, List.dropLast_concat]
      have hcs := coeffs_sim L h3 h6 n (h := H) (D := D.sliceLast i) (t := [m]) (post := [i])
        ((hx.mono _).reach (hother hx) hRA) ((hy.mono _).reach (hother hy) hRA) hlx hly
        (hRA.get (Nat.ne_of_gt hdl) hd') ⟨hi, trivial⟩ (by rw [hsl, hD]) (fun idx _ => rfl)
      rw [hsl] at hcs
      rw [bind_run]
      refine Sim.bind (hcs.keep (filterCoeffs_shape xs ys orders _ hlx hly)) ?_
      rintro S ⟨v, H'⟩ ⟨hS, hshape⟩
      cases S with
      | none =>
        obtain ⟨rfl, -⟩ := hS
        exact (rfl : Err.typeErr = Err.typeErr)
      | some S =>
        obtain ⟨r, rfl, hr, ⟨t, rfl⟩, hrS⟩ := hS
        have hA' : (H ++ t)[h.length]? = some A := by
          have := hRA.self hcl
          rw [List.getElem?_append_left (List.getElem?_eq_some_iff.mp this).1, this]
        obtain ⟨B, hB, hBA⟩ := store_last (sh := orders.map (· + 2)) (m := m) hA' (by rw [hAN, hN]) hi hrS (hshape S rfl) hCA
        rw [List.length_map] at hB
        simp only
        rw [step hB]
        refine Sim.pure ⟨_, rfl, Agree.set ei (by simp) _, B, ?_, ?_, hBA⟩
        · obtain ⟨t', rfl⟩ := hRA
          refine ⟨t' ++ t, ?_⟩
          rw [List.append_assoc, List.set_append_left _ _ (by simp), List.set_set]
        · rw [← hBA.1, ← hAN, ← hCA.1]; rfl
    · rintro C H env' e ⟨A, hRA, hAN, hCA⟩
      pysimp [look, e _, he0]
      obtain ⟨t, rfl⟩ := hRA
      exact Sim.pure ⟨rfl, A, t, by simp, hCA⟩
  · rintro C ⟨_, H⟩ ⟨rfl, hr⟩
    exact Sim.pure ⟨rfl, hr⟩
end

end Interp.Spec.PySrc
