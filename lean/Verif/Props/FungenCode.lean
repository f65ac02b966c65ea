import Verif.Proofs.MlinterpPoint
import Verif.Props.Mlinterp
import Verif.Props.GeneratedCode

/-!
# What the texts of `fungen.py` and `make_mlinterp` compute: C98
-/

namespace Interp.Props
open Interp.Codegen Interp.Mlinterp Interp.FungenText
open Interp.Spec.Text (codeLines)
open Interp.Spec.PyLang (Block Val Env Fn Fun StarFun LawfulLit pLines pFun pStar callFunction callFun callStar axisVal argVal tupVal ofRes
  MlCall mlContext callVal getItem toFloat)

section
variable {K : Type} [Add K] [Sub K] [Mul K] [Div K] [Neg K] [Zero K] [One K] [NatCast K]
  [IntCast K] [LT K] [DecidableLT K] [BEq K] [IntFloor K]

/-- `t` is the text of a function with the syntax tree `F`, the same for every large enough bound of the parser. -/
def IsFun (t : List Char) (F : Fun) : Prop := ∃ N, ∀ n ≥ N, pFun n t = some F

/-- C98. `fmap(f, t)`: the text applies `f` to every entry. -/
theorem C98_fmap1 (o : Option ℕ) (f : Val K) (as : List (Val K)) (ha : as ≠ []) (ctx : Env K) :
    ∃ t F, fmapText [o, some as.length] = some t ∧ IsFun t F ∧
      callFun ctx F [f, .tup as] = as.mapM (fun a => callVal f (.tup [a])) >>= fun vs => .ok (.tup vs) := by
  obtain ⟨t, h1, h2⟩ := PyParse.fmap_read1 o (List.length_pos_iff.mpr ha)
  exact ⟨t, _, h1, h2, PyParse.fmap_eval1 f as⟩

/-- C98. `fmap(f, t1, t2)` for tuples: the text applies `f` to the entries with the same number. -/
theorem C98_fmap2 (o : Option ℕ) (f : Val K) (as bs : List (Val K)) (ha : as ≠ []) (h : as.length = bs.length) (ctx : Env K) :
    ∃ t F, fmapText [o, some as.length, some bs.length] = some t ∧ IsFun t F ∧
      callFun ctx F [f, .tup as, .tup bs] = (as.zip bs).mapM (fun p => callVal f (.tup [p.1, p.2])) >>= fun vs => .ok (.tup vs) := by
  obtain ⟨t, h1, h2⟩ := PyParse.fmap_read2 o (List.length_pos_iff.mpr ha)
  exact ⟨t, _, by rw [← h]; exact h1, h2, PyParse.fmap_eval2 f as bs h⟩

/-- C98. `fmap(f, t, x)` where `x` is not a tuple: the text passes `x` every time. -/
theorem C98_fmapX (o : Option ℕ) (f x : Val K) (as : List (Val K)) (ha : as ≠ []) (ctx : Env K) :
    ∃ t F, fmapText [o, some as.length, none] = some t ∧ IsFun t F ∧
      callFun ctx F [f, .tup as, x] = as.mapM (fun a => callVal f (.tup [a, x])) >>= fun vs => .ok (.tup vs) := by
  obtain ⟨t, h1, h2⟩ := PyParse.fmap_readX o (List.length_pos_iff.mpr ha)
  exact ⟨t, _, h1, h2, PyParse.fmap_evalX f x as⟩

/-- C98. `funzip`: the text transposes a tuple of tuples of the same length. -/
theorem C98_funzip (rows : List (List (Val K))) (l : ℕ) (hr : rows ≠ []) (hl : 1 ≤ l) (h : ∀ r ∈ rows, r.length = l) (ctx : Env K) :
    ∃ t F, funzipText (rows.map List.length) = .ok t ∧ IsFun t F ∧
      ∃ cols : List (List (Val K)), callFun ctx F [.tup (rows.map .tup)] = .ok (.tup (cols.map .tup)) ∧ cols.length = l ∧
        ∀ j < l, ∃ c : List (Val K), cols[j]? = some c ∧ c.length = rows.length ∧
          ∀ (i : ℕ) (r : List (Val K)) (w : Val K), rows[i]? = some r → r[j]? = some w → c[i]? = some w := by
  obtain ⟨t, h1, h2⟩ := PyParse.funzip_read (counts := rows.map List.length) (l := l) (by simpa using hr) (by simpa using h) hl
  rw [List.length_map] at h2
  refine ⟨t, _, h1, h2, (List.range l).map fun j => rows.map fun r => r.getD j .none, ?_, by simp, ?_⟩
  · rw [PyParse.funzip_eval rows l h, List.map_map]; rfl
  · intro j hj
    refine ⟨rows.map fun r => r.getD j .none, by simp [hj], by simp, fun i r w hi hw => ?_⟩
    rw [List.getElem?_map, hi, Option.map_some, List.getD_eq_getElem?_getD, hw]
    rfl

/-- C98. `extract_row(a, n, tup)`: the text returns the first entries of a row. -/
theorem C98_extract_row (A : NdArray K) (n d : ℕ) (hd : 1 ≤ d) (w : Val K) (ctx : Env K) :
    ∃ F, IsFun (extractRowText d) F ∧
      callFun ctx F [.arr A, .int n, w] = extractRow A n d >>= fun x => .ok (.tup (x.map .flt)) :=
  ⟨_, PyParse.extractRow_read hd, PyParse.extractRow_eval A n d w⟩

/-- C98. `get_coeffs(X, I)`: the text returns the nested tuple of the values at the corners. -/
theorem C98_get_coeffs (X : NdArray K) (is : List ℤ) (hd : 1 ≤ is.length) (hX : X.shape.length ≤ is.length) (ctx : Env K) :
    ∃ t F, getCoeffsText X.shape.length is.length = some t ∧ IsFun t F ∧
      callFun ctx F [.arr X, .tup (is.map .int)] = getCoeffs X is [] >>= fun c => .ok (tupVal c) := by
  obtain ⟨t, h1, h2⟩ := PyParse.getCoeffs_read hd hX
  exact ⟨t, _, h1, h2, PyParse.getCoeffs_eval X is⟩

/-- C98. `tensor_reduction(C, l)`: the text combines the corners with the weights. -/
theorem C98_tensor_reduction (hK : LawfulLit K) (X : NdArray K) (is : List ℤ) (c : Tup K) (hc : getCoeffs X is [] = .ok c)
    (ls : List K) (hl : ls.length = is.length) (hd : 1 ≤ ls.length) (ctx : Env K) :
    ∃ F, IsFun (reductionText ls.length) F ∧
      callFun ctx F [tupVal c, .tup (ls.map .flt)] = tensorReduction c ls [] >>= fun x => .ok (.flt x) :=
  ⟨_, PyParse.reduction_read hd, PyParse.reduction_eval hK c ls (by rw [hl]; exact PyParse.getCoeffs_depth X is [] c hc)⟩

/-- C98. `project(grid, point)`: the text, which depends on which axes are arrays, moves every coordinate to the nearest
point of its axis. -/
theorem C98_project (G : List (GridDim K)) (hG : G ≠ []) (ctx : Env K) (hmin : ctx ['m', 'i', 'n'] = some (.fn .min))
    (hmax : ctx ['m', 'a', 'x'] = some (.fn .max)) (ws : List (Val K)) (x : List K) (hw : ws.mapM toFloat = .ok x) (hl : G.length ≤ x.length) :
    ∃ F, (∃ N, ∀ n ≥ N, pLines n (codeLines (projectText (G.map fun g => g matches .array _))) = some F) ∧
      (callFunction ctx F [.tup (G.map axisVal), .tup ws] >>= fun r => .ok r.1) = project G x >>= fun ys => .ok (.tup (ys.map .flt)) := by
  have h : (G.map fun g => g matches .array _) = G.map PyParse.isArray := List.map_congr_left fun g _ => by cases g <;> rfl
  rw [h]
  exact ⟨_, PyParse.project_read (by simpa using hG), PyParse.project_eval hmin hmax hw hl⟩

/-- C98. The statements of `mlinterp` for one point, `mlinterp.py` L54-57, with the functions that the texts define. -/
theorem C98_mlinterp_point (hK : LawfulLit K) (G : List (GridDim K)) (hG : G ≠ []) (C : NdArray K) (hC : C.shape.length ≤ G.length)
    (u : List K) (hu : u.length = G.length) (ctx : Env K) :
    ∃ t1 t2 t3 fmap funzip getCoeffs tensorReduction,
      fmapText [none, some G.length, some G.length] = some t1 ∧ IsFun t1 fmap ∧
      funzipText (List.replicate G.length 2) = .ok t2 ∧ IsFun t2 funzip ∧
      getCoeffsText C.shape.length G.length = some t3 ∧ IsFun t3 getCoeffs ∧
      IsFun (reductionText G.length) tensorReduction ∧
      (do
        let tmp ← callFun ctx fmap [.fn .getIndex, .tup (G.map axisVal), .tup (u.map .flt)]
        let z ← callFun ctx funzip [tmp]
        let indices ← getItem z [.int 0]
        let barycenters ← getItem z [.int 1]
        let coeffs ← callFun ctx getCoeffs [.arr C, indices]
        callFun ctx tensorReduction [coeffs, barycenters])
        = mlPoint G C u >>= fun y => .ok (.flt y) := by
  have hd : 1 ≤ G.length := List.length_pos_iff.mpr hG
  obtain ⟨t1, h1, h1'⟩ := PyParse.fmap_read2 none hd
  obtain ⟨t2, h2, h2'⟩ := PyParse.funzip_read (counts := List.replicate G.length 2) (l := 2) (by simpa using hG)
    (fun c hc => List.eq_of_mem_replicate hc) (by omega)
  rw [List.length_replicate] at h2'
  obtain ⟨t3, h3, h3'⟩ := PyParse.getCoeffs_read hd hC
  exact ⟨t1, t2, t3, _, _, _, _, h1, h1', h2, h2', h3, h3', PyParse.reduction_read hd, PyParse.mlPoint_eval hK hu⟩

/-- `t` is the text of a function of any number of arguments. -/
def IsStar (t : List Char) (F : StarFun) : Prop := ∃ N, ∀ n ≥ N, pStar n (codeLines t) = some F

/-- C98. `make_mlinterp`: for arguments as the description says, the text, executed with them, gives the results of the
model, errors included. -/
theorem C98_make_mlinterp (it : InterpType) (args : List (Arg K)) (h : MlCall it args) :
    ∃ t F, makeMlinterp it c!"__mlinterp" = some t ∧ IsStar t F ∧
      callStar mlContext F (args.map argVal) = runMlinterp it args >>= fun r => .ok (ofRes r) := by
  have hp := h.points
  have ht : ∃ t, makeMlinterp it c!"__mlinterp" = some t := by
    simp only [makeMlinterp, h.values, reduceCtorEq, if_false]
    cases he : it.eval with
    | cartesian =>
      rw [he] at hp
      rcases hp with ⟨h1, -⟩ | ⟨h2, -⟩
      · simp only [h1, if_true]; exact ⟨_, rfl⟩
      · simp only [h2, OfNat.ofNat_ne_one, if_false, if_true]; exact ⟨_, rfl⟩
    | _ => exact ⟨_, rfl⟩
  obtain ⟨t, ht⟩ := ht
  exact ⟨t, _, ht, PyParse.mlinterp_read h.pos ht, PyParse.mlinterp_eval h⟩

/-- The text that `interp` makes for arguments of these types, executed with the arguments, returns `v`. -/
def InterpText (args : List (Arg K)) (v : Val K) : Prop :=
  ∃ it t F, detectTypes (args.map tyOf) = .ok it ∧
    makeMlinterp (if it.d = 1 ∧ it.eval = .point then { it with eval := .cartesian } else it) c!"__mlinterp" = some t ∧
    IsStar t F ∧ callStar mlContext F (args.map argVal) = .ok v

/-- C98. Every result of `interp` is the result of the execution of the text that `interp` makes. -/
theorem C98_interp (args : List (Arg K)) (r : Res K) (h : interp args = .ok r) : InterpText args (ofRes r) := by
  obtain ⟨it, h1, h2, h3⟩ := PyParse.interp_call h
  obtain ⟨t, F, h4, h5, h6⟩ := C98_make_mlinterp _ args h2
  exact ⟨it, t, F, h1, h4, h5, by rw [h6, h3]; rfl⟩

end

section Values
open Interp.Spec

variable {F : Type} [Field F] [LinearOrder F] [IsStrictOrderedRing F] [FloorRing F] {G : List (GridDim F)} {C : NdArray F}

/-- C98. The text that `interp` makes for points in a tuple returns the stored value at every node. -/
theorem C98_interp_nodes (h : GridData G C) (idx : List ℕ) (hidx : InShape (gridShape G) idx) :
    InterpText (G.map axisArg ++ [.arr C, .tup (nodeAt G idx)]) (.flt (C.get idx)) := by
  obtain ⟨v, hv, hn⟩ := C34_interp_nodes h
  have := C98_interp _ _ (hv.tuple (nodeAt G idx) (nodeAt_length G idx hidx))
  rw [hn idx hidx] at this
  exact this

end Values

section Examples
open Interp.Spec

/-- Two axes of both kinds and scalar coordinates. -/
private def exArgs : List (Arg ℚ) :=
  [.coord 0 1 5, .arr ⟨[2], fun i => ((i.getD 0 0 : ℕ) : ℚ)⟩, .arr ⟨[5, 2], fun _ => 3⟩, .flt (1 / 2), .int 1]

example : ∃ t F, makeMlinterp ⟨2, .scalar, .scalar⟩ c!"__mlinterp" = some t ∧ IsStar t F ∧
    callStar mlContext F (exArgs.map argVal) = runMlinterp ⟨2, .scalar, .scalar⟩ exArgs >>= fun r => .ok (ofRes r) :=
  C98_make_mlinterp ⟨2, .scalar, .scalar⟩ exArgs ⟨rfl, by decide, by simp [exArgs, Spec.PyLang.IsAxis], ⟨_, rfl, rfl⟩, by simp [exArgs]⟩

private def exG1 : List (GridDim ℚ) := [.uniform 0 1 3]
private def exC1 : NdArray ℚ := ⟨[3], fun idx => ((idx.getD 0 0 : ℕ) : ℚ) ^ 2⟩

/-- At the last of three nodes. -/
example : InterpText (exG1.map axisArg ++ [.arr exC1, .tup (nodeAt exG1 [2])]) (.flt 4) := by
  have h : GridData exG1 exC1 := by
    refine ⟨⟨by simp [exG1], fun g hg => ?_⟩, rfl⟩
    obtain rfl : g = .uniform 0 1 3 := by simpa [exG1] using hg
    exact ⟨by norm_num, by norm_num⟩
  have := C98_interp_nodes h [2] (by decide)
  have e : exC1.get [2] = 4 := by norm_num [exC1]
  rwa [e] at this

/-- The text for two axes. -/
example : reductionText 2 = c!"def tensor_reduction(C,l): return (1-l[0])*((1-l[1])*(C[0][0]) + l[1]*(C[0][1])) + l[0]*((1-l[1])*(C[1][0]) + l[1]*(C[1][1]))" := by
  decide +kernel

example : getCoeffsText 2 2 = some c!"def get_coeffs(X,I): return ((X[I[0],I[1]],X[I[0],I[1]+1]),(X[I[0]+1,I[1]],X[I[0]+1,I[1]+1]))" := by
  decide +kernel

example : funzipText [2, 2] = .ok c!"def funzip(t): return ((t[0][0], t[1][0],), (t[0][1], t[1][1],),)" := by
  rfl

end Examples

end Interp.Props
