import Verif.Proofs.SrcNumbaVec
import Verif.Proofs.NumbaParse1
import Verif.Proofs.NumbaParse2
import Verif.Proofs.NumbaParse3
import Verif.Proofs.NumbaParse4
import Verif.Proofs.KernelRfl

/-!
# Executing the texts of `eval_cubic_numba.py`: the constants and the program
-/

namespace Interp.Spec.PySrc.Numba
open Interp

set_option linter.unusedSectionVars false

variable {K : Type}
variable [Add K] [Sub K] [Mul K] [Div K] [Neg K] [Zero K] [One K] [NatCast K] [IntCast K]
  [LT K] [DecidableLT K] [LE K] [DecidableLE K] [BEq K] [IntFloor K] [Interp.Smolyak.Trig K]

theorem div6 (h6 : (((6 : ℕ) : K) == 0) = false) (x : K) : pyDiv x (decimal 6 0) = pure (x / ((6 : ℕ) : K)) := by
  rw [pyDiv, show (decimal 6 0 : K) = ((6 : ℕ) : K) from rfl, h6]; rfl

/-- The array that a variable has after some statements. -/
def resOf (s : String) (x : Py (Out K × Heap K)) : Option (NdArray K) :=
  match x with
  | .ok (.next env, h) =>
    match env s with
    | some (.arr r pat) => match contents (h[r]?.getD ⟨[], fun _ => 0⟩) pat with
      | .ok A => some A
      | _ => none
    | _ => none
  | _ => none

theorem assigned_of {init : Block} {s : String} {A : NdArray K} (hi : init ≠ .nil)
    (h : resOf s (exec ⟨pyGlob, initCall, 0⟩ init (fun _ => none) []) = some A) : (assigned init s : M K (Val K)) = pure (.frozen A) := by
  unfold assigned
  split
  · exact absurd rfl hi
  · revert h
    unfold resOf
    rcases exec ⟨pyGlob, initCall, 0⟩ init (fun _ => none) [] with e | ⟨o, h'⟩
    · intro h; cases h
    · cases o with
      | next env =>
        simp only
        rcases env s with _ | v
        · intro h; cases h
        · cases v <;> simp only <;> intro h <;> try cases h
          rename_i r pat
          rcases hc : contents (h'[r]?.getD ⟨[], fun _ => 0⟩) pat with e | B
          · rw [hc] at h; cases h
          · rw [hc] at h
            obtain rfl : B = A := Option.some.inj h
            rfl
      | _ => intro h; cases h

/-- The statements after the first two. -/
def initRest : Block :=
  match initBlock with
  | .simple _ (.simple _ r) => r
  | b => b

/-- A matrix with four rows and columns. -/
def mat4 (f : Fin 4 → Fin 4 → K) : NdArray K :=
  matOf [[f 0 0, f 0 1, f 0 2, f 0 3], [f 1 0, f 1 1, f 1 2, f 1 3], [f 2 0, f 2 1, f 2 2, f 2 3], [f 3 0, f 3 1, f 3 2, f 3 3]]

/-- The numbers as they are written. -/
def rawAd (i j : Fin 4) : K :=
  let f := fun m : ℕ => (decimal m 0 : K) / ((6 : ℕ) : K)
  let g := fun m : ℕ => (-decimal m 0 : K) / ((6 : ℕ) : K)
  match i, j with
  | 0, 0 => g 1 | 0, 1 => f 3 | 0, 2 => g 3 | 0, 3 => f 1
  | 1, 0 => f 3 | 1, 1 => g 6 | 1, 2 => f 0 | 1, 3 => f 4
  | 2, 0 => g 3 | 2, 1 => f 3 | 2, 2 => f 3 | 2, 3 => f 1
  | 3, 0 => f 1 | 3, 1 => f 0 | 3, 2 => f 0 | 3, 3 => f 0

theorem rawAd_eq (L : LitLaws K) (i j : Fin 4) : (rawAd i j : K) = Codegen.Ad i j := by
  have d0 := decimal_zero L
  have d1 := decimal_one L
  fin_cases i <;> fin_cases j <;> simp only [rawAd, Codegen.Ad, d0, d1] <;> rfl

def env2 : Env K := (Env.set (fun _ => none) "Ad" (.arr 0 (whole 2))).set "dAd" (.arr 1 (whole 2))

theorem init_start (h6 : (((6 : ℕ) : K) == 0) = false) :
    exec ⟨pyGlob, initCall, 0⟩ initBlock (fun _ => none) ([] : Heap K) =
      exec ⟨pyGlob, initCall, 0⟩ initRest env2 [mat4 rawAd, .zeros [4, 4]] := by
  pysimp [initBlock, args, pyGlob, pyName, initCall, look, div6 h6, lift_pure]
  kernel_rfl

theorem init_Ad (f : Fin 4 → Fin 4 → K) : ∃ A, resOf "Ad" (exec ⟨pyGlob, initCall, 0⟩ initRest env2 [mat4 f, .zeros [4, 4]]) = some A ∧
    A.shape = [4, 4] ∧ ∀ i j : Fin 4, A.get [i, j] = f i j := by
  have h1 : (resOf "Ad" (exec ⟨pyGlob, initCall, 0⟩ initRest env2 [mat4 f, .zeros [4, 4]])).map
    (fun A => A.shape) = some [4, 4] := by kernel_rfl
  obtain ⟨A, hA, hs⟩ := Option.map_eq_some_iff.mp h1
  refine ⟨A, hA, hs, fun i j => ?_⟩
  have h2 : (resOf "Ad" (exec ⟨pyGlob, initCall, 0⟩ initRest env2 [mat4 f, .zeros [4, 4]])).map
    (fun A => A.get [(i : ℕ), (j : ℕ)]) = some (f i j) := by
    fin_cases i <;> fin_cases j <;> kernel_rfl
  rw [hA] at h2
  exact Option.some.inj h2

theorem init_dAd (f : Fin 4 → Fin 4 → K) : ∃ A, resOf "dAd" (exec ⟨pyGlob, initCall, 0⟩ initRest env2 [mat4 f, .zeros [4, 4]]) = some A ∧
    A.shape = [4, 4] ∧ ∀ i j : Fin 4, A.get [i, j] = if (j : ℕ) = 0 then 0 else f i (j - 1) * (((4 - (j : ℕ) : ℕ) : ℤ) : K) := by
  have h1 : (resOf "dAd" (exec ⟨pyGlob, initCall, 0⟩ initRest env2 [mat4 f, .zeros [4, 4]])).map
    (fun A => A.shape) = some [4, 4] := by kernel_rfl
  obtain ⟨A, hA, hs⟩ := Option.map_eq_some_iff.mp h1
  refine ⟨A, hA, hs, fun i j => ?_⟩
  have h2 : (resOf "dAd" (exec ⟨pyGlob, initCall, 0⟩ initRest env2 [mat4 f, .zeros [4, 4]])).map
    (fun A => A.get [(i : ℕ), (j : ℕ)]) = some (if (j : ℕ) = 0 then 0 else f i (j - 1) * (((4 - (j : ℕ) : ℕ) : ℤ) : K)) := by
    fin_cases i <;> fin_cases j <;> kernel_rfl
  rw [hA] at h2
  exact Option.some.inj h2

/-- The functions of the file. -/
def numbaFuns : List FunDef :=
  [evalSplineFun "eval_cubic_spline_1" (axesOf 1), evalSplineFun "eval_cubic_spline_2" (axesOf 2),
   evalSplineFun "eval_cubic_spline_3" (axesOf 3), evalSplineFun "eval_cubic_spline_4" (axesOf 4),
   vecEvalSplineFun "vec_eval_cubic_spline_1" (axesOf 1), vecEvalSplineFun "vec_eval_cubic_spline_2" (axesOf 2),
   vecEvalSplineFun "vec_eval_cubic_spline_3" (axesOf 3), vecEvalSplineFun "vec_eval_cubic_spline_4" (axesOf 4),
   evalSplinesFun "eval_cubic_splines_1" (axesOf 1), evalSplinesFun "eval_cubic_splines_2" (axesOf 2),
   evalSplinesFun "eval_cubic_splines_3" (axesOf 3), evalSplinesFun "eval_cubic_splines_4" (axesOf 4),
   vecEvalSplinesFun "vec_eval_cubic_splines_1" (axesOf 1), vecEvalSplinesFun "vec_eval_cubic_splines_2" (axesOf 2),
   vecEvalSplinesFun "vec_eval_cubic_splines_3" (axesOf 3), vecEvalSplinesFun "vec_eval_cubic_splines_4" (axesOf 4),
   vecEvalSplinesGFun "vec_eval_cubic_splines_G_1" (axesOf 1), vecEvalSplinesGFun "vec_eval_cubic_splines_G_2" (axesOf 2),
   vecEvalSplinesGFun "vec_eval_cubic_splines_G_3" (axesOf 3), vecEvalSplinesGFun "vec_eval_cubic_splines_G_4" (axesOf 4)]

def numbaProg : Prog := ⟨numbaFuns.map fun F => (F.name, F), [], [], initBlock⟩

theorem numba_load : loadLines [evalCubicSpline1Text, evalCubicSpline2Text, evalCubicSpline3Text, evalCubicSpline4Text,
    vecEvalCubicSpline1Text, vecEvalCubicSpline2Text, vecEvalCubicSpline3Text, vecEvalCubicSpline4Text,
    evalCubicSplines1Text, evalCubicSplines2Text, evalCubicSplines3Text, evalCubicSplines4Text,
    vecEvalCubicSplines1Text, vecEvalCubicSplines2Text, vecEvalCubicSplines3Text, vecEvalCubicSplines4Text,
    vecEvalCubicSplinesG1Text, vecEvalCubicSplinesG2Text, vecEvalCubicSplinesG3Text, vecEvalCubicSplinesG4Text] numbaInitText =
    some numbaProg := by
  simp only [loadLines, List.mapM_cons, List.mapM_nil, evalCubicSpline1_parse, evalCubicSpline2_parse, evalCubicSpline3_parse, evalCubicSpline4_parse,
    vecEvalCubicSpline1_parse, vecEvalCubicSpline2_parse, vecEvalCubicSpline3_parse, vecEvalCubicSpline4_parse,
    evalCubicSplines1_parse, evalCubicSplines2_parse, evalCubicSplines3_parse, evalCubicSplines4_parse,
    vecEvalCubicSplines1_parse, vecEvalCubicSplines2_parse, vecEvalCubicSplines3_parse, vecEvalCubicSplines4_parse,
    vecEvalCubicSplinesG1_parse, vecEvalCubicSplinesG2_parse, vecEvalCubicSplinesG3_parse, vecEvalCubicSplinesG4_parse, numbaInit_parse,
    Option.bind_eq_bind, Option.bind_some, Option.pure_def]
  rfl

theorem init_ne : initBlock ≠ .nil := by rw [initBlock]; exact fun h => Block.noConfusion h

theorem find_none {s : String} (hs : ∀ F ∈ numbaFuns, F.name ≠ s) : find s numbaProg.funs = none := by
  have : ∀ l : List FunDef, (∀ F ∈ l, F.name ≠ s) → find s (l.map fun F => (F.name, F)) = none := by
    intro l
    induction l with
    | nil => intro _; rfl
    | cons F l ih => intro h; rw [List.map_cons, find, if_neg (h F (by simp)), ih fun G hG => h G (by simp [hG])]
  exact this _ hs

theorem glob_init {s : String} (hs : ∀ F ∈ numbaFuns, F.name ≠ s) : (globalOf numbaProg s : M K (Val K)) = assigned initBlock s := by
  rw [globalOf, find_none hs]; rfl

theorem not_fun {s : String} (hs : s ∉ numbaFuns.map (·.name)) : ∀ F ∈ numbaFuns, F.name ≠ s := fun _ hF h =>
  hs (List.mem_map.mpr ⟨_, hF, h⟩)

/-- Is the variable not assigned by some statements? -/
def freeIn (s : String) (x : Py (Out K × Heap K)) : Bool :=
  match x with
  | .ok (.next env, _) => (env s).isNone
  | _ => false

/-- A name that the statements outside functions do not assign. -/
theorem glob_py (h6 : (((6 : ℕ) : K) == 0) = false) {s : String} {v : Val K} (hs : s ∉ numbaFuns.map (·.name)) (hv : pyName s = some v)
    (hn : ∀ f : Fin 4 → Fin 4 → K, freeIn s (exec ⟨pyGlob, initCall, 0⟩ initRest env2 [mat4 f, .zeros [4, 4]]) = true) :
    (globalOf numbaProg s : M K (Val K)) = pure v := by
  rw [glob_init (not_fun hs)]
  unfold assigned
  split
  · rename_i hh
    exact absurd hh init_ne
  · have := hn rawAd
    rw [init_start h6]
    revert this
    unfold freeIn
    rcases exec ⟨pyGlob, initCall, 0⟩ initRest env2 [mat4 rawAd, .zeros [4, 4]] with e | ⟨o, h'⟩
    · intro h; cases h
    · cases o with
      | next env =>
        simp only [Option.isNone_iff_eq_none]
        intro h
        simp only [h, pyGlob, hv]
      | _ => intro h; cases h

theorem numba_outside (L : LitLaws K) (h6 : (((6 : ℕ) : K) == 0) = false) (n : ℕ) : Outside (world numbaProg (n + 1) : World K) where
  int := glob_py (s := "int") h6 (by decide) rfl fun f => by kernel_rfl
  floor := glob_py (s := "floor") h6 (by decide) rfl fun f => by kernel_rfl
  max := glob_py (s := "max") h6 (by decide) rfl fun f => by kernel_rfl
  min := glob_py (s := "min") h6 (by decide) rfl fun f => by kernel_rfl
  range := glob_py (s := "range") h6 (by decide) rfl fun f => by kernel_rfl
  call := fun _ _ => rfl
  Ad := by
    obtain ⟨A, h, hs, hA⟩ := init_Ad (rawAd : Fin 4 → Fin 4 → K)
    exact ⟨A, (glob_init (s := "Ad") (not_fun (by decide))).trans (assigned_of (K := K) init_ne (by rw [init_start h6]; exact h)), hs,
      fun i j => (hA i j).trans (rawAd_eq L i j)⟩
  dAd := by
    obtain ⟨A, h, hs, hA⟩ := init_dAd (rawAd : Fin 4 → Fin 4 → K)
    refine ⟨A, (glob_init (s := "dAd") (not_fun (by decide))).trans (assigned_of (K := K) init_ne (by rw [init_start h6]; exact h)), hs, fun i j => ?_⟩
    rw [hA, Codegen.dAd, rawAd_eq L, L.int]
    fin_cases j <;> rfl

/-- The functions have their names. -/
theorem glob_fun {s : String} {F : FunDef} (hF : find s numbaProg.funs = some F) : (globalOf numbaProg s : M K (Val K)) = pure (.fn F) := by
  rw [globalOf, hF]

end Interp.Spec.PySrc.Numba
