import Verif.Proofs.MlinterpEval
import Verif.Proofs.FungenEval

/-!
# `interp` and the functions of one point
-/

namespace Interp.PyParse
open Interp.Spec.PyLang
open Interp.Mlinterp
open Interp.Codegen hiding exec

set_option linter.unusedSectionVars false

variable {K : Type} [Add K] [Sub K] [Mul K] [Div K] [Neg K] [Zero K] [One K] [NatCast K]
  [IntCast K] [LT K] [DecidableLT K] [BEq K] [IntFloor K] {ctx env : Env K}

/-- The description that `interp` uses: one vector of points on one axis counts as a list of points. -/
def adapted (it : InterpType) : InterpType := if it.d = 1 ∧ it.eval = .point then { it with eval := .cartesian } else it

theorem axis_of_ok {a : Arg K} {g : GridDim K} (h : axisOf a = .ok g) : IsAxis a := by
  cases a with
  | coord a b n => trivial
  | arr A =>
    simp only [axisOf] at h
    rcases hs : A.shape with _ | ⟨n, _ | ⟨m, s⟩⟩
    · rw [hs] at h; cases h
    · simp [IsAxis, hs]
    · rw [hs] at h; cases h
  | _ => cases h

theorem axes_of_ok {as : List (Arg K)} {G : List (GridDim K)} (h : as.mapM axisOf = .ok G) : ∀ a ∈ as, IsAxis a := by
  induction as generalizing G with
  | nil => simp
  | cons a as ih =>
    rw [List.mapM_cons] at h
    obtain ⟨g, h1, h⟩ := of_bind h
    obtain ⟨gs, h2, h⟩ := of_bind h
    intro b hb
    rcases List.mem_cons.mp hb with rfl | hb
    · exact axis_of_ok h1
    · exact ih h2 b hb

theorem ty_arr {a : Arg K} {n : ℕ} (h : tyOf a = .arr n) : ∃ A, a = .arr A ∧ A.shape.length = n := by
  cases a with
  | arr A => simp only [tyOf, Ty.arr.injEq] at h; exact ⟨A, rfl, h⟩
  | tup xs => cases xs <;> simp [tyOf] at h
  | _ => simp [tyOf] at h

/-- What the detection says about the arguments. -/
theorem detect_ok {args : List (Arg K)} {it : InterpType} (h : detectTypes (args.map tyOf) = .ok it) :
    (∃ n, (args.map tyOf)[it.d]? = some (.arr n) ∧ valuesType n it.d = .ok it.values) ∧ evalType ((args.map tyOf).drop (it.d + 1)) = .ok it.eval := by
  simp only [detectTypes] at h
  obtain ⟨md, -, h⟩ := of_bind h
  obtain ⟨n, h1, h⟩ := of_bind h
  obtain ⟨vs, h2, h⟩ := of_bind h
  obtain ⟨ev, h3, h⟩ := of_bind h
  cases h
  refine ⟨⟨n, ?_, h2⟩, h3⟩
  simp only [ndimAt] at h1
  split at h1
  · rename_i t ht
    cases t <;> cases h1
    exact ht
  · cases h1

theorem eval_arrays {es : List Ty} (h : evalType es = .ok .point ∨ evalType es = .ok .cartesian) : ∀ t ∈ es, t = .arr 1 := by
  unfold evalType at h
  split at h
  · rcases h with h | h <;> cases h
  · simp
  · rcases h with h | h <;> cases h
  · rcases h with h | h <;> cases h
  · rcases h with h | h <;> cases h
  · rcases h with h | h <;> cases h
  · split_ifs at h with h1 h2
    · simpa using h2
    all_goals rcases h with h | h <;> cases h

theorem eval_vectorized {es : List Ty} (h : evalType es = .ok .vectorized) : es = [.arr 2] := by
  unfold evalType at h
  split at h
  · cases h
  · cases h
  · rfl
  · cases h
  · cases h
  · cases h
  · split_ifs at h <;> cases h

theorem vec1_ok {o : Option (Arg K)} {A : NdArray K} (h : vec1 o = .ok A) : o = some (.arr A) := by
  rcases o with _ | a
  · cases h
  · cases a <;> cases h
    rfl

/-- A successful call is as the detected description says. -/
theorem interp_call {args : List (Arg K)} {r : Res K} (h : interp args = .ok r) :
    ∃ it, detectTypes (args.map tyOf) = .ok it ∧ MlCall (adapted it) args ∧ runMlinterp (adapted it) args = .ok r := by
  simp only [interp] at h
  obtain ⟨it, h0, h⟩ := of_bind h
  refine ⟨it, h0, ?_, h⟩
  change runMlinterp (adapted it) args = .ok r at h
  obtain ⟨⟨n, h1, h2⟩, h3⟩ := detect_ok h0
  have hd : (adapted it).d = it.d := by unfold adapted; split_ifs <;> rfl
  have hv : (adapted it).values = it.values := by unfold adapted; split_ifs <;> rfl
  simp only [runMlinterp] at h
  by_cases hval : (adapted it).values = .vector
  · rw [if_pos hval] at h; cases h
  rw [if_neg hval] at h
  by_cases hz : (adapted it).d = 0
  · rw [if_pos hz] at h; cases h
  rw [if_neg hz] at h
  simp only [pure_bind] at h
  obtain ⟨G, hG, h⟩ := of_bind h
  have hn := h1
  rw [List.getElem?_map, Option.map_eq_some_iff] at h1
  obtain ⟨a, ha, h1⟩ := h1
  obtain ⟨C, rfl, hCn⟩ := ty_arr h1
  rw [← hd] at ha
  rw [ha] at h
  simp only [pure_bind] at h
  have hs : (adapted it).values = .scalar := by
    cases hx : (adapted it).values with
    | scalar => rfl
    | vector => exact absurd hx hval
  have hmem : ∀ i A, it.d < i → args[i]? = some (.arr A) → Ty.arr A.shape.length ∈ (args.map tyOf).drop (it.d + 1) := by
    intro i A hi hA
    rw [List.mem_iff_getElem?]
    refine ⟨i - (it.d + 1), ?_⟩
    rw [List.getElem?_drop, List.getElem?_map, show it.d + 1 + (i - (it.d + 1)) = i by omega, hA]
    rfl
  refine ⟨hs, by omega, axes_of_ok hG, ⟨C, ha, ?_⟩, ?_⟩
  · rw [← hv, hs] at h2
    rw [hCn, hd]
    simp only [valuesType] at h2
    split_ifs at h2 with h4 h5
    all_goals first | exact h4 | cases h2
  · have hcart : (adapted it).eval = .cartesian → ∀ i A, it.d < i → args[i]? = some (.arr A) → A.shape.length = 1 := by
      intro hc i A hi hA
      have : evalType ((args.map tyOf).drop (it.d + 1)) = .ok .point ∨ evalType ((args.map tyOf).drop (it.d + 1)) = .ok .cartesian := by
        rw [h3]
        unfold adapted at hc
        split_ifs at hc with h4
        · left; rw [h4.2]
        · right; rw [hc]
      simpa using eval_arrays this _ (hmem i A hi hA)
    cases he : (adapted it).eval with
    | scalar =>
      rw [he] at h
      simp only at h ⊢
      split_ifs at h with h4
      · cases h
      · omega
    | tuple =>
      rw [he] at h
      simp only at h ⊢
      split at h
      · rename_i xs hxs
        split_ifs at h with h4
        · cases h
        · exact ⟨xs, hxs, by omega⟩
      · cases h
    | point =>
      rw [he] at h
      obtain ⟨A, h4, -⟩ := of_bind h
      exact ⟨A, vec1_ok h4⟩
    | vectorized =>
      rw [he] at h
      simp only at h ⊢
      split at h
      · rename_i A hA
        have hx : it.eval = .vectorized := by
          unfold adapted at he
          split_ifs at he
          exact he
        rw [hx] at h3
        have := hmem _ A (by omega) hA
        rw [eval_vectorized h3] at this
        exact ⟨A, hA, by simpa using this⟩
      · cases h
    | cartesian =>
      rw [he] at h
      simp only at h ⊢
      split_ifs at h with h4 h5
      · obtain ⟨A, h6, -⟩ := of_bind h
        exact .inl ⟨h4, A, vec1_ok h6, hcart he 2 A (by omega) (vec1_ok h6)⟩
      · obtain ⟨A, h6, h⟩ := of_bind h
        obtain ⟨B, h7, -⟩ := of_bind h
        exact .inr ⟨h5, A, B, vec1_ok h6, hcart he 3 A (by omega) (vec1_ok h6), vec1_ok h7, hcart he 4 B (by omega) (vec1_ok h7)⟩

/-! ### One point -/

theorem getIndices_eq : ∀ (G : List (GridDim K)) (u : List K),
    getIndices G u = (G.zip u).mapM fun p => getIndex p.1 p.2
  | [], _ => by cases ‹List K› <;> rfl
  | _ :: _, [] => rfl
  | g :: G, x :: u => by
    simp only [getIndices, getIndices_eq G u, List.zip_cons_cons, List.mapM_cons]

theorem toAxis_axisVal (g : GridDim K) : toAxis (axisVal g) = .ok g := by
  cases g with
  | uniform a b n => rfl
  | array l =>
    show (vector (vec l) >>= fun l => (pure (.array l) : Py (GridDim K))) = _
    rw [vec_vector]; rfl

/-- The statements of `mlininterp`, `mlinterp.py` L54-57, with functions given by their texts. -/
theorem mlPoint_eval (hK : LawfulLit K) {G : List (GridDim K)} {C : NdArray K} {u : List K} (hu : u.length = G.length) :
    (do
      let tmp ← callFun ctx (mapFun2 G.length) [.fn .getIndex, .tup (G.map axisVal), .tup (u.map .flt)]
      let z ← callFun ctx (zipFun G.length 2) [tmp]
      let indices ← getItem z [.int 0]
      let barycenters ← getItem z [.int 1]
      let coeffs ← callFun ctx (coeffFun G.length) [.arr C, indices]
      callFun ctx (redFun G.length) [coeffs, barycenters])
      = mlPoint G C u >>= fun y => .ok (.flt y) := by
  have h1 := fmap_eval2 (ctx := ctx) (.fn .getIndex) (G.map axisVal) (u.map .flt) (by simp [hu])
  rw [List.length_map] at h1
  rw [h1, List.zip_map, List.mapM_map]
  have h2 : ((fun p : Val K × Val K => callVal (.fn .getIndex) (.tup [p.1, p.2])) ∘ Prod.map axisVal Val.flt)
      = fun p : GridDim K × K => getIndex p.1 p.2 >>= fun q => .ok (indexVals q) := by
    funext p
    simp only [Function.comp, Prod.map, callVal, apply, toAxis_axisVal, ok_bind, toFloat, pure_bind]
    rfl
  rw [h2, mapM_post, ← getIndices_eq]
  simp only [mlPoint, bind_assoc, ok_bind]
  rcases hq : getIndices G u with e | qs
  · rfl
  simp only [ok_bind]
  have hlen : qs.length = G.length := by
    rw [getIndices_eq] at hq
    rw [mapM_length hq]
    simp [hu]
  have h3 := funzip_eval (ctx := ctx) (qs.map fun q : ℤ × K => [Val.int q.1, Val.flt q.2]) 2 (by
    intro r hr
    obtain ⟨q, -, rfl⟩ := List.mem_map.mp hr
    rfl)
  rw [List.length_map, hlen, List.map_map] at h3
  have h4 : (Val.tup ∘ fun q : ℤ × K => [Val.int q.1, Val.flt q.2]) = indexVals := rfl
  rw [h4] at h3
  rw [h3]
  have h5 : getItem (K := K) (.tup ((List.range 2).map fun j => .tup ((qs.map fun q : ℤ × K => [Val.int q.1, Val.flt q.2]).map fun r => r.getD j .none))) [.int 0]
      = .ok (.tup ((qs.map Prod.fst).map .int)) := by
    simp [getItem, toInts, wrapIndex, List.range_succ]
  have h6 : getItem (K := K) (.tup ((List.range 2).map fun j => .tup ((qs.map fun q : ℤ × K => [Val.int q.1, Val.flt q.2]).map fun r => r.getD j .none))) [.int 1]
      = .ok (.tup ((qs.map Prod.snd).map .flt)) := by
    simp [getItem, toInts, wrapIndex, List.range_succ]
  simp only [ok_bind, h5, h6]
  have h7 := getCoeffs_eval (ctx := ctx) C (qs.map Prod.fst)
  rw [List.length_map, hlen] at h7
  rw [h7]
  rcases hc : getCoeffs C (qs.map Prod.fst) [] with e | t
  · rfl
  simp only [ok_bind]
  have h8 := getCoeffs_depth C _ _ _ hc
  have h9 := reduction_eval (ctx := ctx) hK t (qs.map Prod.snd) (by simpa using h8)
  rw [List.length_map, hlen] at h9
  exact h9

end Interp.PyParse
