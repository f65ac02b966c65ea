import Verif.Proofs.PyGood
import Verif.Proofs.CodegenWhole
import Verif.Spec.Rounding
import Verif.Props.LinearValues

/-!
# What the generated text computes: C97
-/

namespace Interp.Props
open Interp.Codegen Interp.CodegenText Interp.Spec.Text
open Interp.Spec.PyLang (PExpr Block Val Env LawfulLit IsPoints IsReturn pLines callFunction axisVal outVal)

section
variable {K : Type} [Add K] [Sub K] [Mul K] [Div K] [Neg K] [Zero K] [One K] [NatCast K]
  [IntCast K] [LT K] [DecidableLT K] [BEq K] [IntFloor K]

/-- Number of axes of the output: points, components, derivatives. -/
def outAxes (G : List (GridDim K)) (C : NdArray K) (pts : Points K) (orders : Option (List (List ℕ))) : ℕ :=
  (if pts.isRows then 1 else 0) + (if C.shape.length = G.length + 1 then 1 else 0) + (if orders.isSome then 1 else 0)

/-- C97. The text made from the templates for a call is a program of the small language: it has a syntax tree, the same for
every large enough bound of the parser. Execution of that tree with the arguments of the call gives what the model of
`eval_spline` gives: the returned value, the contents of an output array, and division by zero and indices out of
bounds. -/
theorem C97_generated_code (hK : LawfulLit K) (G : List (GridDim K)) (hG : G ≠ []) (C : NdArray K) (pts : Points K) (out : Option (NdArray K))
    (k : ℕ) (orders : Option (List (List ℕ))) (mode : String) (pv : Val K) (hp : IsPoints G.length pts pv)
    (hout : ∀ A, out = some A → A.shape.length = outAxes G C pts orders ∨ outAxes G C pts orders = 0) (t : List Char)
    (ht : getCodeText (callCfg G C pts.isRows out.isNone k orders mode) = .ok t) :
    ∃ F : Block, (∃ N, ∀ n ≥ N, pLines n (codeLines t) = some F) ∧
      (∀ o, evalSpline G C pts out k orders mode = .ok o →
        ∃ v env, callFunction Spec.PyLang.context F [.tup (G.map axisVal), .arr C, pv, outVal out] = .ok (v, env) ∧
          IsReturn o.ret v ∧ ∀ A, o.out = some A → ∃ A', env ['o', 'u', 't'] = some (.arr A') ∧ A.Same A') ∧
      ∀ e, e = .zeroDivision ∨ e = .outOfBounds → evalSpline G C pts out k orders mode = .error e →
        callFunction Spec.PyLang.context F [.tup (G.map axisVal), .arr C, pv, outVal out] = .error e := by
  have hg : (callCfg G C pts.isRows out.isNone k orders mode).gridTypes.length = (callCfg G C pts.isRows out.isNone k orders mode).d := by
    simp [callCfg]
  have hd : 1 ≤ (callCfg G C pts.isRows out.isNone k orders mode).d := by
    show 1 ≤ G.length
    cases G with
    | nil => exact absurd rfl hG
    | cons => simp
  cases h : getCodeSpline (callCfg G C pts.isRows out.isNone k orders mode) with
  | error e => rw [getCodeText_error hg h] at ht; cases ht
  | ok p =>
    obtain ⟨t', ht', hl⟩ := getCodeText_ok hg h
    obtain rfl : t' = t := by rw [ht'] at ht; cases ht; rfl
    have ho : outAxes G C pts orders = PyParse.outDims (callCfg G C pts.isRows out.isNone k orders mode) := by
      simp only [outAxes, PyParse.outDims, callCfg, decide_eq_true_eq]; rfl
    have hs := PyParse.sim_call hK hG hp (by rw [← ho]; exact hout) h
    obtain ⟨N, hN⟩ := PyParse.program_ev h hd
    refine ⟨PyParse.programA _ p, ⟨N, fun n hn => by rw [hl]; exact hN n hn⟩, ?_, fun e he h => hs.2 e he h⟩
    intro o hev
    obtain ⟨⟨v, env⟩, h1, h2, h3⟩ := hs.1 o hev
    exact ⟨v, env, h1, (PyParse.isReturn_iff _ _).mp h2, h3⟩

end

/-- Numerals in a field. -/
theorem lawfulLit_field {F : Type} [Field F] : LawfulLit F := ⟨by simp, by simp, by simp⟩

/-- Numerals in rounded arithmetic. -/
theorem lawfulLit_rounded (R : Rounding) : LawfulLit (Fl R) :=
  ⟨Fl.ext (by simp [Fl.natCast_val, Fl.zero_val]), Fl.ext (by simp [Fl.natCast_val, Fl.one_val]),
    fun n => Fl.ext (by simp [Fl.natCast_val, Fl.intCast_val])⟩

section Values
open Interp.Spec

variable {F : Type} [Field F] [LinearOrder F] [IsStrictOrderedRing F] [FloorRing F] {k : ℕ} {G : List (GridDim F)} {C : NdArray F} {vec : Bool} {m : ℕ}
  {orders : Option (List (List ℕ))} {mode : String} {x : List F} {E : List ℕ → F}

/-- The text generated for a call, executed with its arguments, returns `v`. -/
def TextReturns (G : List (GridDim F)) (C : NdArray F) (rows : Bool) (k : ℕ) (orders : Option (List (List ℕ))) (mode : String)
    (pv v : Val F) : Prop :=
  ∃ t B N env, getCodeText (callCfg G C rows true k orders mode) = .ok t ∧ (∀ n ≥ N, pLines n (codeLines t) = some B) ∧
    callFunction Spec.PyLang.context B [.tup (G.map axisVal), .arr C, pv, .none] = .ok (v, env)

theorem textReturns (hG : G ≠ []) {pts : Points F} {pv : Val F} (hp : IsPoints G.length pts pv) {r : RetVal F} {o : Option (NdArray F)}
    (h : evalSpline G C pts none k orders mode = .ok ⟨r, o⟩) : ∃ v, TextReturns G C pts.isRows k orders mode pv v ∧ IsReturn r v := by
  have hg : (callCfg G C pts.isRows true k orders mode).gridTypes.length = (callCfg G C pts.isRows true k orders mode).d := by
    simp [callCfg]
  obtain ⟨p, hpr, -⟩ := PyParse.of_bind h
  obtain ⟨t, ht, -⟩ := getCodeText_ok hg (p := p) hpr
  obtain ⟨B, ⟨N, hN⟩, h1, -⟩ := C97_generated_code lawfulLit_field G hG C pts none k orders mode pv hp (by simp) t ht
  obtain ⟨v, env, h2, h3, -⟩ := h1 _ h
  exact ⟨v, ⟨t, B, N, env, ht, hN, h2⟩, h3⟩

/-- C97. Whatever is proved about the results of `eval_spline` in exact arithmetic holds for execution of the generated text:
one point and scalar data. -/
theorem C97_text_scalar (hG : G ≠ []) (hr : Returns k G C vec m orders mode x E) (hx : x.length = G.length) (hm : PointModeOk mode G)
    (hv : vec = false) (ho : orders = none) (pv : Val F) (hp : IsPoints G.length (.point x) pv) :
    TextReturns G C false k orders mode pv (.flt (E [])) := by
  obtain ⟨v, h1, h2⟩ := textReturns hG hp (hr.pointScalar hm hv ho none)
  obtain rfl : v = .flt (E []) := h2
  exact h1

/-- C97. The same for a matrix of points. -/
theorem C97_text_rows (hG : G ≠ []) (hr : Returns k G C vec m orders mode x E) (xs : List (List F)) (hx : ∀ y ∈ xs, y.length = G.length)
    (P : NdArray F) (hs : P.shape = [xs.length, G.length]) (hP : ∀ n y i z, xs[n]? = some y → y[i]? = some z → P.get [n, i] = z) :
    ∃ A, TextReturns G C true k orders mode (.arr P) (.arr A) ∧ A.shape = xs.length :: tailShape vec m orders ∧
      ∀ i, xs[i]? = some x → ∀ tail, InShape (tailShape vec m orders) tail → A.get (i :: tail) = E tail := by
  obtain ⟨A, h1, h2, h3⟩ := hr.rows xs hx
  obtain ⟨v, h4, A', rfl, h5, h6⟩ := textReturns hG (.matrix xs G.length P le_rfl hs hx hP) h1
  refine ⟨A', h4, h5.symm.trans h2, fun i hi tail ht => ?_⟩
  rw [← h3 i hi tail ht]
  refine (h6 _ ?_).symm
  rw [h2]
  exact ⟨(List.getElem?_eq_some_iff.mp hi).1, ht⟩

/-- C97. The text generated for linear splines returns the stored value at every node. -/
theorem C97_text_interpolates (h : Request 1 G C false 0 none) (hm : PointModeOk mode G) (idx : List ℕ) (hidx : InShape (gridShape G) idx) :
    TextReturns G C false 1 none mode (.tup ((nodeAt G idx).map .flt)) (.flt (C.get idx)) := by
  have hl := nodeAt_length G idx hidx
  have := C97_text_scalar h.grid.1 (C01_linear_interpolates h mode idx hidx) hl hm rfl rfl _ (.tuple _ hl.ge)
  simpa using this

end Values

section Examples
open Interp.Spec

/-- The text for two axes of both kinds returns the stored value 12 at the node (1, 3). -/
example : TextReturns demoG demoC false 1 none "linear" (.tup [.flt 1, .flt 3]) (.flt 12) := by
  have h := C97_text_interpolates demo_request (mode := "linear") (by intro h; simp at h) [1, 2] (by decide)
  have hn : nodeAt demoG [1, 2] = [1, 3] := by norm_num [nodeAt, demoG, node]
  have hc : demoC.get [1, 2] = 12 := by norm_num [demoC]
  rw [hn, hc] at h
  exact h

end Examples

end Interp.Props
