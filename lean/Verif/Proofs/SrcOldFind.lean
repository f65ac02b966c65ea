import Verif.Proofs.SrcFilter
import Verif.Proofs.SrcFlow
import Verif.Proofs.FilterTrees

/-!
# The source text of `find_coefs_1d` of `filter_cubic.py`
-/

namespace Interp.Spec.PySrc
open Interp Interp.Filter

set_option linter.unusedSectionVars false

variable {K : Type} [Add K] [Sub K] [Mul K] [Div K] [Neg K] [Zero K] [One K] [NatCast K] [IntCast K]
  [LT K] [DecidableLT K] [LE K] [DecidableLE K] [BEq K] [IntFloor K] [Interp.Smolyak.Trig K]

/-- The program of `filter_cubic.py`. -/
def oldProg : Prog :=
  ⟨[("solve_deriv_interp_1d", solveFun), ("find_coefs_1d", oldFindCoefsFun), ("filter_coeffs_1d", filterCoeffs1dFun),
    ("filter_coeffs_2d", filterCoeffs2dFun), ("filter_coeffs_3d", filterCoeffs3dFun), ("filter_coeffs_4d", filterCoeffs4dFun),
    ("filter_coeffs", filterCoeffsFun), ("filter_mcoeffs", filterMcoeffsFun), ("filter_data", filterDataFun)],
   [], [("basis", oldBasisEx)], .nil⟩

theorem old_load : load [oldSolveText, oldFindCoefsText, filterCoeffs1dText, filterCoeffs2dText, filterCoeffs3dText,
    filterCoeffs4dText, filterCoeffsText, filterMcoeffsText, filterDataText] [] [("basis", oldBasisText)] = some oldProg := by
  simp [load, oldSolve_text, solve_parse, oldFindCoefs_parse, filterCoeffs1d_parse, filterCoeffs2d_parse, filterCoeffs3d_parse,
    filterCoeffs4d_parse, filterCoeffs_parse, filterMcoeffs_parse, filterData_parse, oldBasis_parse]
  rfl

theorem oglob_solve : (globalOf oldProg "solve_deriv_interp_1d" : M K _) = pure (.fn solveFun) := by
  simp [globalOf, find, oldProg]
theorem oglob_find : (globalOf oldProg "find_coefs_1d" : M K _) = pure (.fn oldFindCoefsFun) := by
  simp [globalOf, find, oldProg]
theorem oglob_1d : (globalOf oldProg "filter_coeffs_1d" : M K _) = pure (.fn filterCoeffs1dFun) := by
  simp [globalOf, find, oldProg]
theorem oglob_2d : (globalOf oldProg "filter_coeffs_2d" : M K _) = pure (.fn filterCoeffs2dFun) := by
  simp [globalOf, find, oldProg]
theorem oglob_3d : (globalOf oldProg "filter_coeffs_3d" : M K _) = pure (.fn filterCoeffs3dFun) := by
  simp [globalOf, find, oldProg]
theorem oglob_4d : (globalOf oldProg "filter_coeffs_4d" : M K _) = pure (.fn filterCoeffs4dFun) := by
  simp [globalOf, find, oldProg]
theorem oglob_coeffs : (globalOf oldProg "filter_coeffs" : M K _) = pure (.fn filterCoeffsFun) := by
  simp [globalOf, find, oldProg]
theorem oglob_mcoeffs : (globalOf oldProg "filter_mcoeffs" : M K _) = pure (.fn filterMcoeffsFun) := by
  simp [globalOf, find, oldProg]
theorem oglob_data : (globalOf oldProg "filter_data" : M K _) = pure (.fn filterDataFun) := by
  simp [globalOf, find, oldProg]
theorem oglob_range : (globalOf oldProg "range" : M K _) = pure (.builtin .range) := by
  simp [globalOf, find, oldProg, pyGlob, pyName]
theorem oglob_len : (globalOf oldProg "len" : M K _) = pure (.builtin .len) := by
  simp [globalOf, find, oldProg, pyGlob, pyName]
theorem oglob_tuple : (globalOf oldProg "tuple" : M K _) = pure (.builtin .tuple) := by
  simp [globalOf, find, oldProg, pyGlob, pyName]
theorem oglob_float : (globalOf oldProg "float" : M K _) = pure (.builtin .float) := by
  simp [globalOf, find, oldProg, pyGlob, pyName]
theorem oglob_np : (globalOf oldProg "np" : M K _) = pure .np := by
  simp [globalOf, find, oldProg, pyGlob, pyName]

/-- The constant `basis`. -/
def basisArr : NdArray K := vecOf [basis 0, basis 1, basis 2, basis 3]

theorem oglob_basis (L : LitLaws K) (h3 : (((3 : ℕ) : K) == 0) = false) (h6 : (((6 : ℕ) : K) == 0) = false) :
    (globalOf oldProg "basis" : M K _) = pure (.frozen basisArr) := by
  have d0 := decimal_zero L
  have d1 := decimal_one L
  have d2 : (decimal 2 0 : K) = (2 : ℕ) := rfl
  have d3 : (decimal 3 0 : K) = (3 : ℕ) := rfl
  have d6 : (decimal 6 0 : K) = (6 : ℕ) := rfl
  have p1 : pyDiv (1 : K) ((6 : ℕ) : K) = pure (basis 0) := by rw [pyDiv, if_neg (by rw [h6]; simp)]; rfl
  have p2 : pyDiv ((2 : ℕ) : K) ((3 : ℕ) : K) = pure (basis 1) := by rw [pyDiv, if_neg (by rw [h3]; simp)]; rfl
  have hnp : (look ⟨pyGlob, constCall, 0⟩ (fun _ => none) "np" : M K _) = pure .np := rfl
  have ha : getAttr (.np : Val K) "array" = pure (.builtin .array) := rfl
  simp only [globalOf, find, oldProg, String.reduceEq, if_true, if_false]
  pysimp [oldBasisEx, d0, d1, d2, d3, d6, p1, p2, Except.map, hnp, ha]
  rfl

theorem basis_item {j : ℤ} (j0 : 0 ≤ j) (j3 : j < 3) :
    item (.frozen basisArr : Val K) [.at j] = pure (.flt (basis j.toNat)) := by
  have : j = 0 ∨ j = 1 ∨ j = 2 := by omega
  rcases this with rfl | rfl | rfl <;> rfl

/-- The boundary conditions as an array. -/
def abcdArr (δ : K) : NdArray K := ⟨[4], fun idx =>
  if idx = [3] then 0 else if idx = [2] then 1 * δ * δ else if idx = [1] then -((2 : ℕ) : K) * δ * δ else
    if idx = [0] then 1 * δ * δ else 0⟩

theorem write4 {f : List ℕ → K} (i : ℕ) (hi : i < 4) (x : K) :
    (⟨[4], f⟩ : NdArray K).write [(i : ℤ)] x = pure ⟨[4], fun idx => if idx = [i] then x else f idx⟩ := by
  have : wrapIndices [4] [(i : ℤ)] = some [i] := by
    have : wrapIndex 4 (i : ℤ) = some i := by simp [wrapIndex]; omega
    simp [wrapIndices, this]
  simp [NdArray.write, this]

theorem abcd_read (δ : K) {z : ℤ} (z0 : 0 ≤ z) (z4 : z < 4) : (abcdArr δ).read [z] = pure (abcd δ z) := by
  have : z = 0 ∨ z = 1 ∨ z = 2 ∨ z = 3 := by omega
  rcases this with rfl | rfl | rfl | rfl <;> rfl

/-- The heap with three more arrays. -/
def three (h : Heap K) (B X Y : NdArray K) : Heap K := h ++ [B, X, Y]

section
variable (h : Heap K) (B X Y : NdArray K)
theorem three_b : (three h B X Y)[h.length]? = some B := by simp [three]
theorem three_x : (three h B X Y)[h.length + 1]? = some X := by simp [three]
theorem three_y : (three h B X Y)[h.length + 2]? = some Y := by simp [three]
theorem three_old {r : ℕ} (hr : r < h.length) : (three h B X Y)[r]? = h[r]? := by
  rw [three, List.getElem?_append_left hr]
theorem three_set_b (A : NdArray K) : (three h B X Y).set h.length A = three h A X Y := by
  simp [three]
theorem three_set_x (A : NdArray K) : (three h B X Y).set (h.length + 1) A = three h B A Y := by
  rw [three, List.set_append_right _ _ (by omega)]; simp [three]
theorem three_set_y (A : NdArray K) : (three h B X Y).set (h.length + 2) A = three h B X A := by
  rw [three, List.set_append_right _ _ (by omega)]; simp [three]

theorem tw_b {α : Type} (idx : List ℤ) (x : K) (k : Unit → M K α) :
    (wrElem h.length idx x >>= k) (three h B X Y) = B.write idx x >>= fun B => k () (three h B X Y) := by
  rw [bind_run, wrElem_run (three_b h B X Y), bind_assoc]
  simp only [pure_bind, three_set_b]
theorem tw_x {α : Type} (idx : List ℤ) (x : K) (k : Unit → M K α) :
    (wrElem (h.length + 1) idx x >>= k) (three h B X Y) = X.write idx x >>= fun X => k () (three h B X Y) := by
  rw [bind_run, wrElem_run (three_x h B X Y), bind_assoc]
  simp only [pure_bind, three_set_x]
theorem tw_y {α : Type} (idx : List ℤ) (x : K) (k : Unit → M K α) :
    (wrElem (h.length + 2) idx x >>= k) (three h B X Y) = Y.write idx x >>= fun Y => k () (three h B X Y) := by
  rw [bind_run, wrElem_run (three_y h B X Y), bind_assoc]
  simp only [pure_bind, three_set_y]
theorem tr_x {α : Type} (idx : List ℤ) (k : K → M K α) :
    (rdF (h.length + 1) idx >>= k) (three h B X Y) = X.read idx >>= fun x => k x (three h B X Y) := by
  rw [bind_run, rdF_run (three_x h B X Y), bind_assoc]; rfl
theorem tr_y {α : Type} (idx : List ℤ) (k : K → M K α) :
    (rdF (h.length + 2) idx >>= k) (three h B X Y) = Y.read idx >>= fun x => k x (three h B X Y) := by
  rw [bind_run, rdF_run (three_y h B X Y), bind_assoc]; rfl
theorem tr_old {α : Type} {r : ℕ} {A : NdArray K} (hr : h[r]? = some A) (idx : List ℤ) (k : K → M K α) :
    (rdF r idx >>= k) (three h B X Y) = A.read idx >>= fun x => k x (three h B X Y) := by
  have hl := (List.getElem?_eq_some_iff.mp hr).1
  rw [bind_run, rdF_run (by rw [three_old _ _ _ _ hl, hr]), bind_assoc]; rfl
end

/-- The allocations of `find_coefs_1d`. -/
theorem oldAlloc {α : Type} (m : ℕ) (k : Val K → Val K → Val K → M K α) (h : Heap K) :
    (builtin .zeros [(.tup [.int ((m : ℤ) + ((2 : ℕ) : ℤ)), .int ((4 : ℕ) : ℤ)] : Val K)] >>= fun a =>
      builtin .zeros [(.int ((4 : ℕ) : ℤ) : Val K)] >>= fun b => builtin .zeros [(.int ((4 : ℕ) : ℤ) : Val K)] >>= fun c => k a b c) h =
      k (.arr h.length [none, none]) (.arr (h.length + 1) [none]) (.arr (h.length + 2) [none])
        (three h (.zeros [m + 2, 4]) ⟨[4], fun _ => 0⟩ ⟨[4], fun _ => 0⟩) := by
  rw [zeros_step, step (zeros1_run 4 _), step (zeros1_run 4 _)]
  simp only [List.length_append, List.length_cons, List.length_nil, List.append_assoc, List.cons_append, List.nil_append, three]
  rfl

theorem put_vec0 (L : LitLaws K) (r : ℕ) (z : ℤ) :
    putItem (.arr r [none] : Val K) [.at z] (.int ((0 : ℕ) : ℤ)) = wrElem r [z] 0 := by
  have : (((0 : ℕ) : ℤ) : K) = 0 := by rw [L.int, L.zero]
  simp only [putItem, number, lift_pure, pure_bind_M, this]
  rfl

theorem abcd_writes {α : Type} (δ : K) (k : NdArray K → Py α) :
    ((⟨[4], fun _ => 0⟩ : NdArray K).write [((0 : ℕ) : ℤ)] (1 * δ * δ) >>= fun X =>
      X.write [((1 : ℕ) : ℤ)] (-((2 : ℕ) : K) * δ * δ) >>= fun X => X.write [((2 : ℕ) : ℤ)] (1 * δ * δ) >>= fun X =>
      X.write [((3 : ℕ) : ℤ)] 0 >>= fun X => k X) = k (abcdArr δ) := by
  rw [write4 0 (by decide), pure_bind, write4 1 (by decide), pure_bind, write4 2 (by decide), pure_bind,
    write4 3 (by decide), pure_bind]
  rfl

/-- One call of `find_coefs_1d`. -/
theorem oldFind_sim (L : LitLaws K) (h3 : (((3 : ℕ) : K) == 0) = false) (h6 : (((6 : ℕ) : K) == 0) = false) (n : ℕ)
    {h : Heap K} {rc rd : ℕ} {C AD : NdArray K} (hc : h[rc]? = some C) (l : Line) (hl : l.pre.length < C.shape.length) (δ : K) (m : ℕ)
    (src : Option (NdArray K)) (hd : h[rd]? = some AD) (hsrc : src.getD C = AD) :
    Sim (oldFindCoefs1d δ m src l C)
      (runFun (world oldProg (n + 2)) oldFindCoefsFun [.flt δ, .int (m : ℤ), .arr rd (linePat l []), .arr rc (linePat l [])] h)
      (fun C' o => o.1 = .none ∧ Reach h rc C' o.2 ∧ C'.shape = C.shape) := by
  have d0 := decimal_zero L
  have d1 := decimal_one L
  have d2 : (decimal 2 0 : K) = (2 : ℕ) := rfl
  have hcl : rc < h.length := (List.getElem?_eq_some_iff.mp hc).1
  rw [runFun]
  pysimp [oldFindCoefsFun, oldFindCoefsBody, look, oglob_np, d0, d1, d2]
  rw [oldAlloc]
  pysimp [look, d0, d1, d2, put_vec0 L]
  simp only [tw_x, tw_y]
  rw [abcd_writes δ, abcd_writes δ]
  pysimp [exec_for, look, oglob_range, rangeStep_one]
  generalize he : Env.set _ "abcd_right" _ = env0
  have he0 (s : String) := congrFun he.symm s
  simp only [oldFindCoefs1d, fillBands, bind_assoc, hsrc]
  rw [bind_run]
  refine Sim.bind (Q := Next fun B' env h' => h' = three h B' (abcdArr δ) (abcdArr δ) ∧ Agree ["i", "j"] env0 env) ?_ ?_
  · refine forLoop_sim ?_ ⟨rfl, Agree.refl _ _⟩
    rintro i hi A env _ ⟨rfl, e⟩
    obtain ⟨i0, i4⟩ := mem_rangeZ hi
    pysimp [oldFindCoefsLoop0, look, e _, he0, rdElem_eq]
    simp only [tr_x, tr_y, abcd_read δ i0 i4, pure_bind, tw_b, Nat.cast_zero, Nat.cast_one]
    refine Sim.bind_same fun _ => ?_
    exact sim_of_eq (f := fun B => (.next (env.set "i" (.int i)), three h B (abcdArr δ) (abcdArr δ))) rfl fun B' =>
      ⟨_, rfl, rfl, Agree.set e (by simp) _⟩
  rintro B1 ⟨_, _⟩ ⟨env1, rfl, rfl, e1⟩
  pysimp [exec_for, look, e1 _, he0, oglob_range, rangeStep_one]
  rw [bind_run]
  refine Sim.bind (Q := Next fun B' env h' => h' = three h B' (abcdArr δ) (abcdArr δ) ∧ Agree ["i", "j"] env0 env) ?_ ?_
  · refine forLoop_sim (Inv := fun B' env h' => h' = three h B' (abcdArr δ) (abcdArr δ) ∧ Agree ["i", "j"] env0 env) ?_ ⟨rfl, e1⟩
    rintro i hi B2 env _ ⟨rfl, e⟩
    pysimp [oldFindCoefsLoop2, exec_for, look, e _, he0, oglob_range, rangeStep_one]
    rw [← bind_pure (pyFor _ _ _), bind_run]
    refine Sim.bind (Q := Next fun B' env' h' => h' = three h B' (abcdArr δ) (abcdArr δ) ∧
      Agree ["j"] (env.set "i" (.int i)) env') ?_ ?_
    · refine forLoop_sim ?_ ⟨rfl, Agree.refl _ _⟩
      rintro j hj B3 env' _ ⟨rfl, e'⟩
      obtain ⟨j0, j3⟩ := mem_rangeZ hj
      pysimp [oldFindCoefsLoop1, look, e' _, e _, he0, oglob_basis L h3 h6, basis_item (K := K) j0 j3, item_line, rdElem_eq]
      simp only [tw_b, tr_old _ _ _ _ hd, Nat.cast_ofNat, Nat.cast_one, List.map_nil, List.append_nil]
      refine Sim.bind_same fun B4 => ?_
      refine Sim.bind_same fun v => ?_
      exact sim_of_eq (f := fun B => (.next (env'.set "j" (.int j)), three h B (abcdArr δ) (abcdArr δ))) rfl fun B' =>
        ⟨_, rfl, rfl, Agree.set e' (by simp) _⟩
    · rintro B3 ⟨_, _⟩ ⟨env', rfl, rfl, e'⟩
      exact Sim.pure ⟨env', rfl, rfl, Agree.trans e e' (by simp) (by simp)⟩
  rintro B2 ⟨_, _⟩ ⟨env2, rfl, rfl, e2⟩
  pysimp [look, e2 _, he0, oglob_solve, callN_fn]
  have htwo (B C' : NdArray K) : (three h B (abcdArr δ) (abcdArr δ)).set rc C' =
      two (three h B2 (abcdArr δ) (abcdArr δ)) h.length rc B (fill C [] [] C') := by
    rw [fill_nil, two, three_set_b]
  have hself : three h B2 (abcdArr δ) (abcdArr δ) = two (three h B2 (abcdArr δ) (abcdArr δ)) h.length rc B2 (fill C [] [] C) := by
    rw [← htwo, three, List.set_append_left _ _ hcl]
    congr 1
    obtain ⟨_, rfl⟩ := List.getElem?_eq_some_iff.mp hc
    simp
  have hlen : (three h B2 (abcdArr δ) (abcdArr δ)).length = h.length + 3 := by simp [three]
  rw [bind_run, hself, solve_run oglob_range L n (by rw [hlen]; omega) (by rw [hlen]; omega) (by omega) (t := []) (post := []) trivial C _ C l hl, bind_assoc]
  have hs := solve_shape B2 C l
  generalize solveDerivInterp1d B2 C l = s at hs
  cases s with
  | error e => exact (rfl : e = e)
  | ok s =>
    refine Sim.pure ⟨rfl, ?_, (hs _ rfl).2⟩
    refine ⟨[s.1, abcdArr δ, abcdArr δ], ?_⟩
    show two _ _ _ _ _ = _
    rw [← htwo, three, List.set_append_left _ _ hcl]

end Interp.Spec.PySrc
