import Verif.Proofs.SrcView
import Verif.Model.Filter

/-!
# The source text of `solve_deriv_interp_1d` and `find_coefs_1d`
-/

namespace Interp.Spec.PySrc
open Interp Interp.Filter

set_option linter.unusedSectionVars false

variable {K : Type} [Add K] [Sub K] [Mul K] [Div K] [Neg K] [Zero K] [One K] [NatCast K] [IntCast K]
  [LT K] [DecidableLT K] [LE K] [DecidableLE K] [BEq K] [IntFloor K] [Interp.Smolyak.Trig K]

/-- The program of `prefilter_cubic.py`. -/
def filterProg : Prog :=
  ⟨[("solve_deriv_interp_1d", solveFun), ("find_coefs_1d", findCoefsFun)],
   [("_filter_cubic", [filterFun, filterAllocFun])], [("basis", basisEx)], .nil⟩

theorem filter_load : load [solveText, findCoefsText] [("_filter_cubic", [filterText, filterAllocText])]
    [("basis", basisText)] = some filterProg := by
  simp [load, solve_parse, findCoefs_parse, filter_parse, filterAlloc_parse, basis_parse]
  rfl

theorem fglob_solve : (globalOf filterProg "solve_deriv_interp_1d" : M K _) = pure (.fn solveFun) := by
  simp [globalOf, find, filterProg]
theorem fglob_find : (globalOf filterProg "find_coefs_1d" : M K _) = pure (.fn findCoefsFun) := by
  simp [globalOf, find, filterProg]
theorem fglob_filter : (globalOf filterProg "_filter_cubic" : M K _) = pure (.over "_filter_cubic") := by
  simp [globalOf, find, filterProg]
theorem fglob_range : (globalOf filterProg "range" : M K _) = pure (.builtin .range) := by
  simp [globalOf, find, filterProg, pyGlob, pyName]
theorem fglob_len : (globalOf filterProg "len" : M K _) = pure (.builtin .len) := by
  simp [globalOf, find, filterProg, pyGlob, pyName]
theorem fglob_np : (globalOf filterProg "np" : M K _) = pure .np := by
  simp [globalOf, find, filterProg, pyGlob, pyName]

/-- The element of array `r` with these indices, as a number. -/
def rdF (r : ℕ) (idx : List ℤ) : M K K := getArr r >>= fun A => lift (A.read idx)

theorem rdElem_eq (r : ℕ) (idx : List ℤ) : rdElem r idx = rdF r idx >>= fun x => (pure (.flt x) : M K (Val K)) := by
  rw [rdElem, rdF, bind_assoc]

theorem rdF_run {r : ℕ} {A : NdArray K} {h : Heap K} (hr : h[r]? = some A) (idx : List ℤ) :
    rdF r idx h = A.read idx >>= fun x => pure (x, h) := by
  rw [rdF, bind_run, getArr_run hr, pure_bind, lift_run]

theorem lift_bind_run {α β : Type} (x : Py α) (k : α → M K β) (h : Heap K) : (lift x >>= k) h = x >>= fun a => k a h := by
  cases x <;> rfl

theorem read_comm {α : Type} (A B : NdArray K) (i j : List ℤ) (f : K → K → Py α) :
    (A.read i >>= fun x => B.read j >>= fun y => f x y) = B.read j >>= fun y => A.read i >>= fun x => f x y := by
  unfold NdArray.read
  rcases wrapIndices A.shape i <;> rcases wrapIndices B.shape j <;> rfl

section
variable {h : Heap K} {rb rc : ℕ} (hb : rb < h.length) (hc : rc < h.length) (hne : rc ≠ rb)
  {t post : List ℕ} (hp : InShape t post) (A0 : NdArray K)
include hb hc hne

theorem rd_b {α : Type} (idx : List ℤ) (k : K → M K α) (B A : NdArray K) :
    (rdF rb idx >>= k) (two h rb rc B A) = B.read idx >>= fun x => k x (two h rb rc B A) := by
  rw [bind_run, rdF_run (two_b hb hne B A), bind_assoc]; rfl

theorem wr_b {α : Type} (idx : List ℤ) (x : K) (k : Unit → M K α) (B A : NdArray K) :
    (wrElem rb idx x >>= k) (two h rb rc B A) = B.write idx x >>= fun B => k () (two h rb rc B A) := by
  rw [bind_run, wrElem_run (two_b hb hne B A), bind_assoc]
  simp only [pure_bind, two_set_b hne]

theorem aug_div {α : Type} (i j r c : ℤ) (k : M K α) (B A : NdArray K) :
    (rdF rb [i, j] >>= fun x => rdF rb [r, c] >>= fun y => lift (pyDiv x y) >>= fun z => wrElem rb [i, j] z >>= fun _ => k)
      (two h rb rc B A) = divBy B i j r c >>= fun B => k (two h rb rc B A) := by
  simp only [rd_b hb hc hne, lift_bind_run, bind_assoc, wr_b hb hc hne, divBy, NdArray.modify]
  rw [read_comm]

theorem aug_sub {α : Type} (i j r c s e : ℤ) (k : M K α) (B A : NdArray K) :
    (rdF rb [i, j] >>= fun x => rdF rb [r, c] >>= fun y => rdF rb [s, e] >>= fun z => wrElem rb [i, j] (x - y * z) >>= fun _ => k)
      (two h rb rc B A) = subMul B i j r c s e >>= fun B => k (two h rb rc B A) := by
  simp only [rd_b hb hc hne, bind_assoc, pure_bind, wr_b hb hc hne, subMul, NdArray.modify]
  rw [read_comm]
  congr 1
  funext x
  rw [read_comm]

include hp

theorem rd_c {α : Type} (l : Line) (z : ℤ) (k : K → M K α) (B S : NdArray K) :
    (rdF rc (l.pos z ++ post.map Int.ofNat) >>= k) (two h rb rc B (fill A0 t post S)) =
      S.read (l.pos z) >>= fun x => k x (two h rb rc B (fill A0 t post S)) := by
  rw [bind_run, rdF_run (two_c hc B _), bind_assoc, fill_read hp]; rfl

theorem wr_c {α : Type} (l : Line) (z : ℤ) (x : K) (k : Unit → M K α) (B S : NdArray K) :
    (wrElem rc (l.pos z ++ post.map Int.ofNat) x >>= k) (two h rb rc B (fill A0 t post S)) =
      S.write (l.pos z) x >>= fun S => k () (two h rb rc B (fill A0 t post S)) := by
  rw [bind_run, wrElem_run (two_c hc B _), bind_assoc, fill_write hp, bind_assoc]
  simp only [pure_bind, two_set_c]

end

theorem item_line (r : ℕ) (l : Line) (post : List ℕ) (z : ℤ) :
    item (.arr r (linePat l post) : Val K) [.at z] = rdElem r (l.pos z ++ post.map Int.ofNat) :=
  item_arr (linePat_refine l post z) (linePat_complete l post z)
theorem put_line (r : ℕ) (l : Line) (post : List ℕ) (z : ℤ) (x : K) :
    putItem (.arr r (linePat l post) : Val K) [.at z] (.flt x) = wrElem r (l.pos z ++ post.map Int.ofNat) x :=
  putItem_arr (linePat_refine l post z) (linePat_complete l post z)

theorem decimal_zero (L : LitLaws K) : (decimal 0 0 : K) = 0 := L.zero
theorem decimal_one (L : LitLaws K) : (decimal 1 0 : K) = 1 := L.one

theorem solve_run {P : Prog} (hP : (globalOf P "range" : M K _) = pure (.builtin .range)) (L : LitLaws K) (n : ℕ) {h : Heap K} {rb rc : ℕ} (hb : rb < h.length) (hc : rc < h.length) (hne : rc ≠ rb)
    {t post : List ℕ} (hp : InShape t post) (A0 B S : NdArray K) (l : Line) (hl : l.pre.length < S.shape.length) :
    runFun (world P (n + 1)) solveFun [.arr rb [none, none], .arr rc (linePat l post)] (two h rb rc B (fill A0 t post S)) =
      solveDerivInterp1d B S l >>= fun s => pure (.none, two h rb rc s.1 (fill A0 t post s.2)) := by
  have d0 := decimal_zero L
  have d1 := decimal_one L
  rw [runFun]
  pysimp [solveFun, solveBody, look]
  rw [step (shape_run (two_c hc B _)), show (fill A0 t post S).shape = S.shape ++ t from rfl, linePat_shape l post hl t]
  pysimp [look, rdElem_eq, d0, d1, List.map_cons]
  simp only [aug_div hb hc hne, aug_sub hb hc hne, wr_b hb hc hne]
  rw [exec_for]
  pysimp [look, hP, rangeStep_one, rangeStep_down]
  apply Sim.eq
  simp only [solveDerivInterp1d, elimHead, bind_assoc, Nat.cast_ofNat, Nat.cast_zero, Nat.cast_one, Nat.cast_ofNat]
  generalize hM : ((l.len S : ℕ) : ℤ) - 2 = M
  iterate 11 refine Sim.bind_same fun _ => ?_
  generalize he : ((Env.set (fun x => none) "coefs" (Val.arr rc (linePat l post))).set "bands"
                    (Val.arr rb [none, none])).set "M" (Val.int M) = env0
  have he0 (s : String) := congrFun he.symm s
  rw [bind_run]
  refine Sim.bind (Q := Next fun B' env h' => h' = two h rb rc B' (fill A0 t post S) ∧ Agree ["row"] env0 env) ?_ ?_
  · refine forLoop_sim ?_ ⟨rfl, Agree.refl _ _⟩
    rintro i hi A env _ ⟨rfl, e⟩
    pysimp [solveLoop0, look, e _, he0, rdElem_eq, d0, d1]
    simp only [aug_div hb hc hne, aug_sub hb hc hne, wr_b hb hc hne, elimRow, Nat.cast_ofNat, Nat.cast_zero, Nat.cast_one]
    iterate 5 refine Sim.bind_same fun _ => ?_
    exact sim_of_eq (f := fun B => (.next (env.set "row" (.int i)), two h rb rc B (fill A0 t post S))) rfl fun B' =>
      ⟨_, rfl, rfl, Agree.set e (by simp) _⟩
  rintro B1 ⟨_, _⟩ ⟨env1, rfl, rfl, e1⟩
  have hn : -((1 : ℕ) : ℤ) ≠ 0 := by decide
  have hr : builtin .range [(.int M : Val K), .int ((0 : ℕ) : ℤ), .int (-((1 : ℕ) : ℤ))] = pure (.range (rangeDownZ M 0)) := by
    rw [range_3 _ _ _ hn, ← rangeStep_down]; rfl
  pysimp [look, e1 _, he0, rdElem_eq, d0, d1, item_line, put_line]
  simp only [aug_div hb hc hne, aug_sub hb hc hne, wr_b hb hc hne, rd_b hb hc hne, wr_c hb hc hne hp, elimLast, bind_assoc,
    Nat.cast_ofNat, Nat.cast_zero, Nat.cast_one]
  iterate 8 refine Sim.bind_same fun _ => ?_
  rename_i B2 v2 S2
  rw [exec_for]
  pysimp [look, e1 _, he0, hP, hr]
  rw [bind_run]
  refine Sim.bind (Q := Next fun S' env h' => h' = two h rb rc B2 (fill A0 t post S') ∧ Agree ["row"] env0 env) ?_ ?_
  · refine forLoop_sim (Inv := fun S' env h' => h' = two h rb rc B2 (fill A0 t post S') ∧ Agree ["row"] env0 env) ?_ ⟨rfl, e1⟩
    rintro i hi S3 env _ ⟨rfl, e⟩
    pysimp [solveLoop1, look, e _, he0, rdElem_eq, item_line, put_line]
    simp only [rd_b hb hc hne, rd_c hb hc hne hp, wr_c hb hc hne hp, backRow, Nat.cast_ofNat, Nat.cast_one]
    iterate 3 refine Sim.bind_same fun _ => ?_
    exact sim_of_eq (f := fun S => (.next (env.set "row" (.int i)), two h rb rc B2 (fill A0 t post S))) rfl fun B' =>
      ⟨_, rfl, rfl, Agree.set e (by simp) _⟩
  rintro S3 ⟨_, _⟩ ⟨env2, rfl, rfl, e2⟩
  pysimp [look, e2 _, he0, rdElem_eq, item_line, put_line]
  simp only [rd_b hb hc hne, rd_c hb hc hne hp, wr_c hb hc hne hp, backFirst, bind_assoc,
    Nat.cast_ofNat, Nat.cast_zero, Nat.cast_one]
  iterate 6 refine Sim.bind_same fun _ => ?_
  exact Sim.pure rfl

/-- The literals of `basis`. -/
theorem fglob_basis (L : LitLaws K) (h3 : (((3 : ℕ) : K) == 0) = false) (h6 : (((6 : ℕ) : K) == 0) = false) :
    (globalOf filterProg "basis" : M K _) = pure (.tup [.flt (basis 0), .flt (basis 1), .flt (basis 2), .flt (basis 3)]) := by
  have d0 := decimal_zero L
  have d1 := decimal_one L
  have d2 : (decimal 2 0 : K) = (2 : ℕ) := rfl
  have d3 : (decimal 3 0 : K) = (3 : ℕ) := rfl
  have d6 : (decimal 6 0 : K) = (6 : ℕ) := rfl
  have p1 : pyDiv (1 : K) ((6 : ℕ) : K) = pure (basis 0) := by rw [pyDiv, if_neg (by rw [h6]; simp)]; rfl
  have p2 : pyDiv ((2 : ℕ) : K) ((3 : ℕ) : K) = pure (basis 1) := by rw [pyDiv, if_neg (by rw [h3]; simp)]; rfl
  simp only [globalOf, find, filterProg, String.reduceEq, if_true, if_false]
  pysimp [basisEx, d0, d1, d2, d3, d6, p1, p2, Except.map]
  rfl

theorem item_tup_of {vs : List (Val K)} {z : ℤ} {j : ℕ} {v : Val K} (hz : z = (j : ℤ)) (hv : vs[j]? = some v) :
    item (.tup vs) [.at z] = pure v := by
  obtain ⟨hj, rfl⟩ := List.getElem?_eq_some_iff.mp hv
  have hw : wrapIndex vs.length (j : ℤ) = some j := by simp [wrapIndex, hj]
  simp [item, hz, hw, hj]

theorem mem_rangeZ {a b z : ℤ} (h : z ∈ rangeZ a b) : a ≤ z ∧ z < b := by
  simp only [rangeZ, List.mem_map, List.mem_range, Int.ofNat_eq_natCast] at h
  obtain ⟨i, hi, rfl⟩ := h
  omega

theorem find_run (L : LitLaws K) (h3 : (((3 : ℕ) : K) == 0) = false) (h6 : (((6 : ℕ) : K) == 0) = false) (n : ℕ)
    {h : Heap K} {rb rc : ℕ} (hb : rb < h.length) (hc : rc < h.length) (hne : rc ≠ rb)
    {t post : List ℕ} (hp : InShape t post) (A0 B S : NdArray K) (l : Line) (hl : l.pre.length < S.shape.length)
    {p q : ℕ} (hB : B.shape = [p, q]) (δ : K) (src : Option (NdArray K)) (data : Val K) (rd : ℕ) (dpos : ℤ → List ℤ)
    (hdata : ∀ z, item data [.at z] = rdElem rd (dpos z))
    (hsrc : ∀ B, ∃ AD, (two h rb rc B (fill A0 t post S))[rd]? = some AD ∧ ∀ z, AD.read (dpos z) = (src.getD S).read (l.pos z)) :
    runFun (world filterProg (n + 2)) findCoefsFun [.flt δ, data, .arr rc (linePat l post), .arr rb [none, none]]
        (two h rb rc B (fill A0 t post S)) =
      findCoefs1d δ src l (B, S) >>= fun s => pure (.none, two h rb rc s.1 (fill A0 t post s.2)) := by
  have d0 := decimal_zero L
  have d1 := decimal_one L
  have d2 : (decimal 2 0 : K) = (2 : ℕ) := rfl
  rw [runFun]
  pysimp [findCoefsFun, findCoefsBody, look]
  rw [step (shape_run (two_b hb hne B _)), hB]
  pysimp [look, d0, d1, d2, viewShape, List.map_cons]
  rw [exec_for]
  pysimp [look, fglob_range, rangeStep_one]
  apply Sim.eq
  simp only [findCoefs1d, fillBands, hB, bind_assoc, Nat.cast_ofNat, List.getD_cons_zero]
  generalize hM : (p : ℤ) - 2 = M
  generalize habcd : (Val.tup [Val.flt (1 * δ * δ), Val.flt (-((2 : ℕ) : K) * δ * δ), Val.flt (1 * δ * δ), Val.flt 0] : Val K) = V
  have hV : ∀ z, 0 ≤ z → z < 4 → item V [.at z] = pure (.flt (abcd δ z)) := by
    intro z z0 z4
    have : z = 0 ∨ z = 1 ∨ z = 2 ∨ z = 3 := by omega
    rw [← habcd]
    rcases this with rfl | rfl | rfl | rfl
    · exact item_tup_of (j := 0) rfl rfl
    · exact item_tup_of (j := 1) rfl rfl
    · exact item_tup_of (j := 2) rfl rfl
    · exact item_tup_of (j := 3) rfl rfl
  generalize he : Env.set _ "abcd_right" V = env0
  have he0 (s : String) := congrFun he.symm s
  rw [bind_run]
  refine Sim.bind (Q := Next fun B' env h' => h' = two h rb rc B' (fill A0 t post S) ∧ Agree ["i", "j"] env0 env) ?_ ?_
  · refine forLoop_sim ?_ ⟨rfl, Agree.refl _ _⟩
    rintro i hi A env _ ⟨rfl, e⟩
    obtain ⟨i0, i4⟩ := mem_rangeZ hi
    pysimp [findCoefsLoop0, look, e _, he0, hV i i0 i4]
    simp only [wr_b hb hc hne, Nat.cast_zero, Nat.cast_one]
    refine Sim.bind_same fun _ => ?_
    exact sim_of_eq (f := fun B => (.next (env.set "i" (.int i)), two h rb rc B (fill A0 t post S))) rfl fun B' =>
      ⟨_, rfl, rfl, Agree.set e (by simp) _⟩
  rintro B1 ⟨_, _⟩ ⟨env1, rfl, rfl, e1⟩
  pysimp [exec_for, look, e1 _, he0, fglob_range, rangeStep_one]
  rw [bind_run]
  refine Sim.bind (Q := Next fun B' env h' => h' = two h rb rc B' (fill A0 t post S) ∧ Agree ["i", "j"] env0 env) ?_ ?_
  · refine forLoop_sim (Inv := fun B' env h' => h' = two h rb rc B' (fill A0 t post S) ∧ Agree ["i", "j"] env0 env) ?_ ⟨rfl, e1⟩
    rintro i hi B2 env _ ⟨rfl, e⟩
    pysimp [findCoefsLoop2, exec_for, look, e _, he0, fglob_range, rangeStep_one]
    rw [← bind_pure (pyFor _ _ _), bind_run]
    refine Sim.bind (Q := Next fun B' env' h' => h' = two h rb rc B' (fill A0 t post S) ∧
      Agree ["j"] (env.set "i" (.int i)) env') ?_ ?_
    · refine forLoop_sim ?_ ⟨rfl, Agree.refl _ _⟩
      rintro j hj B3 env' _ ⟨rfl, e'⟩
      obtain ⟨j0, j3⟩ := mem_rangeZ hj
      have hbasis : item (.tup [.flt (basis 0), .flt (basis 1), .flt (basis 2), .flt (basis 3)] : Val K) [.at j] =
          pure (.flt (basis j.toNat)) := by
        have : j = 0 ∨ j = 1 ∨ j = 2 := by omega
        rcases this with rfl | rfl | rfl
        · exact item_tup_of (j := 0) rfl rfl
        · exact item_tup_of (j := 1) rfl rfl
        · exact item_tup_of (j := 2) rfl rfl
      pysimp [findCoefsLoop1, look, e' _, e _, he0, fglob_basis L h3 h6, hbasis, hdata, rdElem_eq]
      simp only [wr_b hb hc hne, Nat.cast_ofNat, Nat.cast_one]
      refine Sim.bind_same fun B4 => ?_
      obtain ⟨AD, hAD, hread⟩ := hsrc B4
      rw [bind_run, rdF_run hAD, hread, bind_assoc]
      refine Sim.bind_same fun v => ?_
      simp only [pure_bind, wr_b hb hc hne]
      exact sim_of_eq (f := fun B => (.next (env'.set "j" (.int j)), two h rb rc B (fill A0 t post S))) rfl fun B' =>
        ⟨_, rfl, rfl, Agree.set e' (by simp) _⟩
    · rintro B3 ⟨_, _⟩ ⟨env', rfl, rfl, e'⟩
      exact Sim.pure ⟨env', rfl, rfl, Agree.trans e e' (by simp) (by simp)⟩
  rintro B2 ⟨_, _⟩ ⟨env2, rfl, rfl, e2⟩
  pysimp [look, e2 _, he0, fglob_solve, callN_fn]
  rw [bind_run, solve_run fglob_range L n hb hc hne hp A0 _ S l hl, bind_assoc]
  exact sim_of_eq (f := fun s => (.none, two h rb rc s.1 (fill A0 t post s.2))) rfl fun _ => rfl

/-! ### Shapes -/

theorem write_shape (A : NdArray K) (idx : List ℤ) (x : K) : Keeps (fun B => B.shape = A.shape) (A.write idx x) := by
  unfold NdArray.write
  rcases wrapIndices A.shape idx with _ | js
  · exact Keeps.throw
  · exact Keeps.pure rfl

theorem write_shape' {A : NdArray K} {sh : List ℕ} (hA : A.shape = sh) (idx : List ℤ) (x : K) :
    Keeps (fun B => B.shape = sh) (A.write idx x) := hA ▸ write_shape A idx x

theorem divBy_shape {A : NdArray K} {sh : List ℕ} (hA : A.shape = sh) (i j r c : ℤ) :
    Keeps (fun B => B.shape = sh) (divBy A i j r c) :=
  Keeps.bind Keeps.any fun _ _ => Keeps.bind Keeps.any fun _ _ => Keeps.bind Keeps.any fun _ _ => write_shape' hA _ _

theorem subMul_shape {A : NdArray K} {sh : List ℕ} (hA : A.shape = sh) (i j r c s e : ℤ) :
    Keeps (fun B => B.shape = sh) (subMul A i j r c s e) :=
  Keeps.bind Keeps.any fun _ _ => Keeps.bind Keeps.any fun _ _ => Keeps.bind Keeps.any fun _ _ => Keeps.bind Keeps.any fun _ _ =>
    write_shape' hA _ _

theorem elimHead_shape {A : NdArray K} {sh : List ℕ} (hA : A.shape = sh) : Keeps (fun B => B.shape = sh) (elimHead A) := by
  refine Keeps.bind (divBy_shape hA _ _ _ _) fun A hA => ?_
  refine Keeps.bind (divBy_shape hA _ _ _ _) fun A hA => ?_
  refine Keeps.bind (divBy_shape hA _ _ _ _) fun A hA => ?_
  refine Keeps.bind (write_shape' hA _ _) fun A hA => ?_
  refine Keeps.bind (subMul_shape hA _ _ _ _ _ _) fun A hA => ?_
  refine Keeps.bind (subMul_shape hA _ _ _ _ _ _) fun A hA => ?_
  refine Keeps.bind (subMul_shape hA _ _ _ _ _ _) fun A hA => ?_
  refine Keeps.bind (write_shape' hA _ _) fun A hA => ?_
  refine Keeps.bind (divBy_shape hA _ _ _ _) fun A hA => ?_
  refine Keeps.bind (divBy_shape hA _ _ _ _) fun A hA => ?_
  exact write_shape' hA _ _

theorem elimRow_shape (row : ℤ) {A : NdArray K} {sh : List ℕ} (hA : A.shape = sh) :
    Keeps (fun B => B.shape = sh) (elimRow row A) := by
  refine Keeps.bind (subMul_shape hA _ _ _ _ _ _) fun A hA => ?_
  refine Keeps.bind (subMul_shape hA _ _ _ _ _ _) fun A hA => ?_
  refine Keeps.bind (divBy_shape hA _ _ _ _) fun A hA => ?_
  refine Keeps.bind (divBy_shape hA _ _ _ _) fun A hA => ?_
  refine Keeps.bind (write_shape' hA _ _) fun A hA => ?_
  exact write_shape' hA _ _

theorem elimLast_shape (M : ℤ) {A : NdArray K} {sh : List ℕ} (hA : A.shape = sh) :
    Keeps (fun B => B.shape = sh) (elimLast M A) := by
  refine Keeps.bind (subMul_shape hA _ _ _ _ _ _) fun A hA => ?_
  refine Keeps.bind (subMul_shape hA _ _ _ _ _ _) fun A hA => ?_
  refine Keeps.bind (subMul_shape hA _ _ _ _ _ _) fun A hA => ?_
  refine Keeps.bind (subMul_shape hA _ _ _ _ _ _) fun A hA => ?_
  refine Keeps.bind (divBy_shape hA _ _ _ _) fun A hA => ?_
  exact write_shape' hA _ _

theorem solve_shape (b C : NdArray K) (l : Line) :
    Keeps (fun s => s.1.shape = b.shape ∧ s.2.shape = C.shape) (solveDerivInterp1d b C l) := by
  refine Keeps.bind (elimHead_shape rfl) fun b1 h1 => ?_
  refine Keeps.bind (P := fun B => B.shape = b.shape) (Keeps.loop h1 fun a _ s hs => elimRow_shape a hs) fun b2 h2 => ?_
  refine Keeps.bind (elimLast_shape _ h2) fun b3 h3 => ?_
  refine Keeps.bind Keeps.any fun v _ => ?_
  refine Keeps.bind (write_shape C _ _) fun C1 k1 => ?_
  refine Keeps.bind (P := fun B => B.shape = C.shape) (Keeps.loop k1 fun a _ s hs => ?_) fun C2 k2 => ?_
  · refine Keeps.bind Keeps.any fun _ _ => Keeps.bind Keeps.any fun _ _ => Keeps.bind Keeps.any fun _ _ => write_shape' hs _ _
  refine Keeps.bind (P := fun B => B.shape = C.shape) ?_ fun C3 k3 => Keeps.pure ⟨h3, k3⟩
  exact Keeps.bind Keeps.any fun _ _ => Keeps.bind Keeps.any fun _ _ => Keeps.bind Keeps.any fun _ _ =>
    Keeps.bind Keeps.any fun _ _ => Keeps.bind Keeps.any fun _ _ => write_shape' k2 _ _

theorem fillBands_shape (δ : K) (M : ℤ) (data : ℤ → Py K) (b : NdArray K) :
    Keeps (fun B => B.shape = b.shape) (fillBands δ M data b) := by
  refine Keeps.bind (P := fun B => B.shape = b.shape) (Keeps.loop rfl fun a _ s hs => ?_) fun b1 h1 => ?_
  · exact Keeps.bind (write_shape' hs _ _) fun A hA => write_shape' hA _ _
  · refine Keeps.loop h1 fun a _ s hs => Keeps.loop hs fun a _ s hs => ?_
    exact Keeps.bind (write_shape' hs _ _) fun A hA => Keeps.bind Keeps.any fun _ _ => write_shape' hA _ _

theorem find_shape (δ : K) (src : Option (NdArray K)) (l : Line) (s : NdArray K × NdArray K) :
    Keeps (fun s' => s'.1.shape = s.1.shape ∧ s'.2.shape = s.2.shape) (findCoefs1d δ src l s) := by
  refine Keeps.bind (fillBands_shape _ _ _ _) fun b h => ?_
  rw [← h]
  exact solve_shape _ _ _

end Interp.Spec.PySrc
