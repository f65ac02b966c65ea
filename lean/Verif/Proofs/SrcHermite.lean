import Verif.Proofs.SrcRun
import Verif.Model.Hermite
import Verif.Proofs.ExceptLemmas

/-!
# The source texts of `hermite.py`
-/

namespace Interp.Spec.PySrc
open Interp Interp.Hermite

set_option linter.unusedSectionVars false

variable {K : Type} [Add K] [Sub K] [Mul K] [Div K] [Neg K] [Zero K] [One K] [NatCast K] [IntCast K]
  [LT K] [DecidableLT K] [LE K] [DecidableLE K] [BEq K] [IntFloor K] [Interp.Smolyak.Trig K]

/-- The program of `hermite.py`. -/
def hermiteProg : Prog :=
  ⟨[("hermite_splines", hermiteSplinesFun), ("hermite_interp", hermiteInterpFun),
    ("HermiteInterpolation", hermiteInterpolationFun), ("HermiteInterpolationVect", hermiteInterpolationVectFun)],
   [("hermite", [olHermiteFun])], [], .nil⟩

theorem hermite_load : load [hermiteSplinesText, hermiteInterpText, hermiteInterpolationText,
    hermiteInterpolationVectText] [("hermite", [olHermiteText])] [] = some hermiteProg := by
  simp [load, hermiteSplines_parse, hermiteInterp_parse, hermiteInterpolation_parse, hermiteInterpolationVect_parse,
    olHermite_parse]
  rfl

theorem glob_splines : (globalOf hermiteProg "hermite_splines" : M K _) = pure (.fn hermiteSplinesFun) := by
  simp [globalOf, find, hermiteProg]
theorem glob_interp : (globalOf hermiteProg "hermite_interp" : M K _) = pure (.fn hermiteInterpFun) := by
  simp [globalOf, find, hermiteProg]
theorem glob_interpolation :
    (globalOf hermiteProg "HermiteInterpolation" : M K _) = pure (.fn hermiteInterpolationFun) := by
  simp [globalOf, find, hermiteProg]
theorem glob_vect :
    (globalOf hermiteProg "HermiteInterpolationVect" : M K _) = pure (.fn hermiteInterpolationVectFun) := by
  simp [globalOf, find, hermiteProg]
theorem glob_np : (globalOf hermiteProg "np" : M K _) = pure .np := by
  simp [globalOf, find, hermiteProg, pyGlob, pyName]
theorem glob_len : (globalOf hermiteProg "len" : M K _) = pure (.builtin .len) := by
  simp [globalOf, find, hermiteProg, pyGlob, pyName]
theorem glob_range : (globalOf hermiteProg "range" : M K _) = pure (.builtin .range) := by
  simp [globalOf, find, hermiteProg, pyGlob, pyName]

theorem hermiteSplines_run (L : LitLaws K) (W : World K) (t : K) : runFun W hermiteSplinesFun [.flt t] =
    pure (.tup [.flt (hermiteSplines t).1, .flt (hermiteSplines t).2.1, .flt (hermiteSplines t).2.2.1,
      .flt (hermiteSplines t).2.2.2]) := by
  have h1 : ((1 : ℤ) : K) = 1 := by rw [← L.one, ← L.int 1]; rfl
  have h2 : ((2 : ℤ) : K) = ((2 : ℕ) : K) := L.int 2
  have h3 : ((3 : ℤ) : K) = ((3 : ℕ) : K) := L.int 3
  have hn : ((-2 : ℤ) : K) = -((2 : ℕ) : K) := L.neg 2
  rw [runFun]
  pysimp [hermiteSplinesFun, hermiteSplinesBody, look, hermiteSplines]
  simp only [Nat.cast_ofNat, Nat.cast_one, h1, h2, h3, hn]

theorem hermiteInterp_run (L : LitLaws K) (n : ℕ) (x0 xk xkn pk pkn mk mkn : K) :
    runFun (world hermiteProg (n + 1)) hermiteInterpFun
      [.flt x0, .flt xk, .flt xkn, .flt pk, .flt pkn, .flt mk, .flt mkn] =
      lift ((hermiteInterp x0 xk xkn pk pkn mk mkn).map .flt) := by
  rw [runFun]
  pysimp [hermiteInterpFun, hermiteInterpBody, look, glob_splines, callN_fn, hermiteSplines_run L, hermiteInterp, lift_bind]

theorem IsVec.read {A : NdArray K} {l : List K} (hA : IsVec A l) (z : ℤ) : A.read [z] = listRead l z := by
  unfold NdArray.read listRead
  rw [hA.1]
  simp only [wrapIndices]
  rcases hw : wrapIndex l.length z with _ | j
  · rfl
  · have hj : j < l.length := by
      unfold wrapIndex at hw
      split at hw
      · simp at hw; omega
      · split at hw
        · simp at hw; omega
        · simp at hw
    simp [hA.2 j hj, hj]

theorem mapM_read {A : NdArray K} {l : List K} (hA : IsVec A l) :
    (List.range l.length).mapM (fun i : ℕ => A.read [(i : ℤ)]) = pure l := by
  have : ∀ k, k ≤ l.length → (List.range k).mapM (fun i : ℕ => A.read [(i : ℤ)]) = pure (l.take k) := by
    intro k hk
    induction k with
    | zero => simp
    | succ k ih =>
      have hk' : k < l.length := by omega
      rw [List.range_succ, List.mapM_append, ih (by omega), List.mapM_cons, hA.read, listRead, wrapIndex]
      have e : l.take (k + 1) = l.take k ++ [l[k]] := by rw [List.take_add_one]; simp [hk']
      rw [e]
      simp [hk']
  simpa using this l.length le_rfl

theorem elements_vec {A : NdArray K} {l : List K} (hA : IsVec A l) {r : ℕ} {h : Heap K} (hr : h[r]? = some A) :
    elements r [none] h = pure (l, h) := by
  rw [elements, bind_run, getArr_run hr, pure_bind, hA.1]
  show lift _ h = _
  rw [lift_run]
  have := mapM_read hA
  simp only [PySrc.refine, complete, Option.map_some, Option.bind_some]
  rw [this]; rfl

theorem least_eq (l : List K) : least l = npMin l := by cases l <;> rfl
theorem greatest_eq (l : List K) : greatest l = npMax l := by cases l <;> rfl

theorem hermiteInterpolation_run (L : LitLaws K) (n : ℕ) (x0 : K) {rx ry rp : ℕ} {X Y Z : NdArray K} {x y yp : List K}
    {h : Heap K} (hx : h[rx]? = some X) (hX : IsVec X x) (hy : h[ry]? = some Y) (hY : IsVec Y y)
    (hp : h[rp]? = some Z) (hZ : IsVec Z yp) :
    runFun (world hermiteProg (n + 2)) hermiteInterpolationFun [.flt x0, .arr rx [none], .arr ry [none], .arr rp [none]] h =
      (hermiteInterpolation x0 x y yp).map fun v => (.flt v, h) := by
  rw [runFun]
  pysimp [hermiteInterpolationFun, hermiteInterpolationBody, look, glob_np, glob_interp, callN_fn, hermiteInterp_run L,
    number]
  simp only [bind_run, elements_vec hX hx, pure_bind, lift_run, least_eq, greatest_eq, hermiteInterpolation, map_py, bind_assoc]
  congr 1; funext lo
  by_cases h1 : x0 ≤ lo
  · simp only [h1, decide_true, if_true, bind_run, rdElem_run hy, hY.read, bind_assoc, pure_bind, pure_run, andThen_ret]
    rfl
  · simp only [h1, decide_false, if_false, bind_run, elements_vec hX hx, pure_bind, lift_run, bind_assoc, Bool.false_eq_true]
    congr 1; funext hi
    by_cases h2 : hi ≤ x0
    · simp only [h2, decide_true, if_true, bind_run, rdElem_run hy, hY.read, bind_assoc, pure_bind, pure_run, andThen_ret]
      rfl
    · simp only [h2, decide_false, if_false, Bool.false_eq_true, pure_run, pure_bind, exec_nil, next_run]
      pysimp [look, glob_np, glob_interp, callN_fn, number]
      simp only [bind_run, elements_vec hX hx, pure_bind, lift_run, bind_assoc, pure_run,
        rdElem_run hx, rdElem_run hy, rdElem_run hp, hX.read, hY.read, hZ.read, map_py, hermiteInterp_run L]
      rfl

theorem rangeStep_nat (n : ℕ) : rangeStep 0 (n : ℤ) 1 = (List.range n).map fun (i : ℕ) => (i : ℤ) := by
  simp [rangeStep]

theorem hermiteInterpolationVect_run (L : LitLaws K) (n : ℕ) {rv rx ry rp : ℕ} {pv : List (Option ℤ)} {V X Y Z : NdArray K}
    {v x y yp : List K} {h : Heap K} (hv : h[rv]? = some V) (hV : viewShape pv V.shape = [v.length])
    (hV' : ∀ i : ℕ, i < v.length → ∃ idx, (refine pv [.at (i : ℤ)]).bind complete = some idx ∧ V.read idx = listRead v i)
    (hx : h[rx]? = some X) (hX : IsVec X x)
    (hy : h[ry]? = some Y) (hY : IsVec Y y) (hp : h[rp]? = some Z) (hZ : IsVec Z yp) :
    runFun (world hermiteProg (n + 3)) hermiteInterpolationVectFun
        [.arr rv pv, .arr rx [none], .arr ry [none], .arr rp [none]] h =
      (hermiteInterpolationVect v x y yp).map fun A => (.arr h.length [none], h ++ [A]) := by
  rw [runFun]
  pysimp [hermiteInterpolationVectFun, hermiteInterpolationVectBody, look, glob_np, glob_len]
  rw [step (len_run hv hV)]
  rw [step (zeros1_run v.length h)]
  pysimp [look, exec_for, glob_range, rangeStep_nat, List.map_map]
  rw [map_py]
  apply Sim.eq
  rw [bind_run]
  generalize he : (((((Env.set (fun x => none) "yp" (Val.arr rp [none])).set "y" (Val.arr ry [none])).set "x"
    (Val.arr rx [none])).set "xvect" (Val.arr rv pv)).set "N" (Val.int v.length)).set "out"
    (Val.arr (List.length h) [none]) = env0
  have he0 (s : String) := congrFun he.symm s
  refine Sim.bind_right (Q := Next fun A env h' => h' = h ++ [A] ∧ Agree ["i", "x0"] env0 env) ?_ ?_
  · refine forLoop_sim ?_ ⟨rfl, Agree.refl _ _⟩
    rintro i hi A env _ ⟨rfl, e⟩
    have hlt : ∀ {r : ℕ} {B : NdArray K}, h[r]? = some B → (h ++ [A])[r]? = some B := by
      intro r B hB
      rw [List.getElem?_append_left]; · exact hB
      rw [List.getElem?_eq_some_iff] at hB; exact hB.1
    obtain ⟨idx, hr, hread⟩ := hV' i (by simpa using hi)
    obtain ⟨pat', hr1, hr2⟩ := Option.bind_eq_some_iff.mp hr
    have hit : item (.arr rv pv : Val K) [.at (i : ℤ)] = rdElem rv idx :=
      item_arr (by simpa [expand] using hr1) hr2
    pysimp [hermiteInterpolationVectLoop0, look, e _, he0, Function.comp, hit, glob_interpolation, callN_fn]
    rw [step' (rdElem_run (hlt hv) idx), hread]
    refine Sim.bind_same fun x0 => ?_
    rw [step' (g := fun v => (.flt v, h ++ [A]))
      (by rw [hermiteInterpolation_run L n x0 (hlt hx) hX (hlt hy) hY (hlt hp) hZ, map_py])]
    refine Sim.bind_same fun w => ?_
    pysimp
    rw [step' (y := A.write [(i : ℤ)] w) (g := fun A' => ((), h ++ [A'])) (by rw [wrElem_run (A := A) (by simp)]; simp)]
    exact sim_of_eq (f := fun A' => (.next ((env.set "i" (.int i)).set "x0" (.flt x0)), h ++ [A'])) rfl fun A' =>
      ⟨_, rfl, rfl, Agree.set (s := "x0") (Agree.set (s := "i") e (by simp) _) (by simp) _⟩
  · rintro A ⟨_, _⟩ ⟨env, rfl, rfl, e⟩
    pysimp [look, e _, he0]
    exact Sim.pure rfl

theorem glob_hermite : (globalOf hermiteProg "hermite" : M K _) = pure (.over "hermite") := by
  simp [globalOf, find, hermiteProg]
theorem glob_None : (globalOf hermiteProg "None" : M K _) = pure .none := by
  simp [globalOf, find, hermiteProg, pyGlob, pyName]

theorem olHermite_scalar (n : ℕ) (x0 : K) (x y yp : Val K) (h : Heap K) :
    runFun (world hermiteProg n) olHermiteFun [.flt x0, x, y, yp] h =
      pure (.fn ⟨"_hermite", olHermiteFun.params, olHermiteFun0⟩, h) := by
  rw [runFun]
  pysimp [olHermiteFun, olHermiteBody, look, glob_None, exec_try]
  rw [bind_run, attempt_error (e := .attribute)]
  · pysimp [forget, targets, List.append_nil, List.nil_append, List.cons_append]
    rw [pure_run, pure_bind]
    pysimp [look, decide_true]
    rfl
  · rfl

theorem olHermite_vector (n : ℕ) (r : ℕ) (x y yp : Val K) (h : Heap K) :
    runFun (world hermiteProg n) olHermiteFun [.arr r [none], x, y, yp] h =
      pure (.fn ⟨"_hermite", olHermiteFun.params, olHermiteFun1⟩, h) := by
  rw [runFun]
  pysimp [olHermiteFun, olHermiteBody, look, glob_None, exec_try]
  rw [bind_run]
  erw [attempt_ok (r := (.next _, h)) (by pysimp [look, free, List.filter, Option.isNone, List.length, decide_true]; rfl)]
  rw [pure_bind]
  pysimp [look, decide_true, decide_false, Bool.false_eq_true]
  rfl

theorem olHermite_matrix (n : ℕ) (r : ℕ) (x y yp : Val K) (h : Heap K) :
    runFun (world hermiteProg n) olHermiteFun [.arr r [none, none], x, y, yp] h =
      pure (.fn ⟨"_hermite", olHermiteFun.params, olHermiteFun2⟩, h) := by
  rw [runFun]
  pysimp [olHermiteFun, olHermiteBody, look, glob_None, exec_try]
  rw [bind_run]
  erw [attempt_ok (r := (.next _, h)) (by pysimp [look, free, List.filter, Option.isNone, List.length, decide_true]; rfl)]
  rw [pure_bind]
  pysimp [look, decide_true, decide_false, Bool.false_eq_true]
  rfl

theorem hermite_find : find "hermite" hermiteProg.overs = some [olHermiteFun] := by simp [find, hermiteProg]

theorem hermite_scalar (L : LitLaws K) (n : ℕ) (x0 : K) {rx ry rp : ℕ} {X Y Z : NdArray K} {x y yp : List K}
    {h : Heap K} (hx : h[rx]? = some X) (hX : IsVec X x) (hy : h[ry]? = some Y) (hY : IsVec Y y)
    (hp : h[rp]? = some Z) (hZ : IsVec Z yp) :
    callN hermiteProg (n + 4) (.over "hermite") [.flt x0, .arr rx [none], .arr ry [none], .arr rp [none]] h =
      (hermiteInterpolation x0 x y yp).map fun v => (.flt v, h) := by
  rw [callN_over hermite_find, step (choose_first (olHermite_scalar (n + 3) x0 _ _ _ h)), runFun]
  pysimp [olHermiteFun, olHermiteFun0, look, glob_None, glob_interpolation, callN_fn]
  rw [bind_run, hermiteInterpolation_run L n x0 hx hX hy hY hp hZ, map_py, bind_assoc]
  rfl

theorem hermite_vector (L : LitLaws K) (n : ℕ) {rv rx ry rp : ℕ} {V X Y Z : NdArray K}
    {v x y yp : List K} {h : Heap K} (hv : h[rv]? = some V) (hV : IsVec V v)
    (hx : h[rx]? = some X) (hX : IsVec X x)
    (hy : h[ry]? = some Y) (hY : IsVec Y y) (hp : h[rp]? = some Z) (hZ : IsVec Z yp) :
    callN hermiteProg (n + 5) (.over "hermite") [.arr rv [none], .arr rx [none], .arr ry [none], .arr rp [none]] h =
      (hermiteInterpolationVect v x y yp).map fun A => (.arr h.length [none], h ++ [A]) := by
  rw [callN_over hermite_find, step (choose_first (olHermite_vector (n + 4) rv _ _ _ h)), runFun]
  pysimp [olHermiteFun, olHermiteFun1, look, glob_None, glob_vect, callN_fn]
  rw [bind_run, hermiteInterpolationVect_run L n hv (by rw [hV.1]; rfl)
    (fun i _ => ⟨[(i : ℤ)], rfl, hV.read i⟩) hx hX hy hY hp hZ, map_py, bind_assoc]
  rfl

theorem mapM_eq_map {α β : Type} {f : α → Py β} {g : α → β} {l : List α} (h : ∀ a ∈ l, f a = pure (g a)) :
    l.mapM f = pure (l.map g) := by
  induction l with
  | nil => rfl
  | cons a l ih =>
    rw [List.mapM_cons, h a (by simp), ih fun b hb => h b (by simp [hb])]
    rfl

theorem hermite_matrix (L : LitLaws K) (n : ℕ) {rv rx ry rp : ℕ} {V X Y Z : NdArray K}
    {x y yp : List K} {c : ℕ} {rows : List (List K)} {h : Heap K} (hv : h[rv]? = some V)
    (hV : IsMat V (c + 1) rows)
    (hx : h[rx]? = some X) (hX : IsVec X x)
    (hy : h[ry]? = some Y) (hY : IsVec Y y) (hp : h[rp]? = some Z) (hZ : IsVec Z yp) :
    callN hermiteProg (n + 5) (.over "hermite") [.arr rv [none, none], .arr rx [none], .arr ry [none], .arr rp [none]] h =
      (hermite (.matrix (c + 1) rows) x y yp none) >>= fun
        | .array A => pure (.arr h.length [none], h ++ [A])
        | .scalar _ => throw .runtime := by
  rw [callN_over hermite_find, step (choose_first (olHermite_matrix (n + 4) rv _ _ _ h)), runFun]
  have hview : item (.arr rv [none, none] : Val K) [.full, .at ((0 : ℕ) : ℤ)] = pure (.arr rv [none, some 0]) :=
    item_view rfl rfl
  pysimp [olHermiteFun, olHermiteFun2, look, glob_None, glob_vect, callN_fn, hview]
  set col : List K := (List.range rows.length).map fun (i : ℕ) => V.get [i, 0] with hcol
  have hlen : col.length = rows.length := by simp [hcol]
  have hc : rows.mapM (fun r => listRead r 0) = pure col := by
    have h1 : ∀ r ∈ rows, listRead r 0 = pure (f := Except Err) (r.headD 0) := by
      intro r hr
      obtain ⟨i, hi, rfl⟩ := List.getElem_of_mem hr
      have := (hV.2 i hi).1
      rcases hr : rows[i] with _ | ⟨a, t⟩
      · rw [hr] at this; simp at this
      · simp [listRead, wrapIndex]
    rw [mapM_eq_map h1]
    congr 1
    refine List.ext_getElem (by simp [hcol]) fun i h1 h2 => ?_
    simp only [List.length_map] at h1
    obtain ⟨h3, h4⟩ := hV.2 i h1
    have h5 := h4 0 (by omega)
    rcases hr : rows[i] with _ | ⟨a, t⟩
    · rw [hr] at h3; simp at h3
    · simp only [hcol, List.getElem_map, List.getElem_range, h5, hr]
      rfl
  rw [bind_run, hermiteInterpolationVect_run L n (v := col) hv (by rw [hV.1, hlen]; rfl)
    (fun i hi => ⟨[(i : ℤ), 0], rfl, ?_⟩) hx hX hy hY hp hZ, map_py, bind_assoc]
  · simp only [hermite, hc, pure_bind, bind_assoc]
    rfl
  · rw [listRead_of_lt _ _ (by omega) (by omega)]
    rw [hlen] at hi
    simp only [NdArray.read, hV.1, wrapIndices, wrapIndex]
    simp [hi, hcol]

end Interp.Spec.PySrc
