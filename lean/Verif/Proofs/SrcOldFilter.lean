import Verif.Proofs.SrcOldFind

/-!
# The source texts of `filter_coeffs_1d` to `filter_coeffs_4d` and `filter_data`
-/

namespace Interp.Spec.PySrc
open Interp Interp.Filter

set_option linter.unusedSectionVars false

variable {K : Type} [Add K] [Sub K] [Mul K] [Div K] [Neg K] [Zero K] [One K] [NatCast K] [IntCast K]
  [LT K] [DecidableLT K] [LE K] [DecidableLE K] [BEq K] [IntFloor K] [Interp.Smolyak.Trig K]

/-- The coefficients while the loops run. -/
def Coefs (h : Heap K) (rc : ℕ) (sh : List ℕ) (s : NdArray K) (H : Heap K) : Prop := Reach h rc s H ∧ s.shape = sh

theorem oldD_sim (L : LitLaws K) (h3 : (((3 : ℕ) : K) == 0) = false) (h6 : (((6 : ℕ) : K) == 0) = false) (n : ℕ)
    {h H : Heap K} {rc rd : ℕ} {s D : NdArray K} {sh : List ℕ} (hcl : rc < h.length) (hne : rc ≠ rd) (hd : h[rd]? = some D)
    (hR : Coefs h rc sh s H) (l : Line) (hl : l.pre.length < sh.length) (δ : K) (m : ℕ) :
    Sim (oldFindCoefs1d δ m (some D) l s)
      (runFun (world oldProg (n + 2)) oldFindCoefsFun [.flt δ, .int (m : ℤ), .arr rd (linePat l []), .arr rc (linePat l [])] H)
      (fun s' o => Coefs h rc sh s' o.2) :=
  (oldFind_sim L h3 h6 n (hR.1.self hcl) l (by rw [hR.2]; exact hl) δ m (some D) (hR.1.get hne hd) rfl).mono
    fun _ _ ⟨_, hr, hs⟩ => ⟨hR.1.trans hcl hr, hs.trans hR.2⟩

theorem oldC_sim (L : LitLaws K) (h3 : (((3 : ℕ) : K) == 0) = false) (h6 : (((6 : ℕ) : K) == 0) = false) (n : ℕ)
    {h H : Heap K} {rc : ℕ} {s : NdArray K} {sh : List ℕ} (hcl : rc < h.length)
    (hR : Coefs h rc sh s H) (l : Line) (hl : l.pre.length < sh.length) (δ : K) (m : ℕ) :
    Sim (oldFindCoefs1d δ m none l s)
      (runFun (world oldProg (n + 2)) oldFindCoefsFun [.flt δ, .int (m : ℤ), .arr rc (linePat l []), .arr rc (linePat l [])] H)
      (fun s' o => Coefs h rc sh s' o.2) :=
  (oldFind_sim L h3 h6 n (hR.1.self hcl) l (by rw [hR.2]; exact hl) δ m none (hR.1.self hcl) rfl).mono
    fun _ _ ⟨_, hr, hs⟩ => ⟨hR.1.trans hcl hr, hs.trans hR.2⟩

theorem HasVec.reach {h H : Heap K} {rc r : ℕ} {s : NdArray K} {ds : List K} (hv : HasVec h r ds) (hne : rc ≠ r) (hR : Reach h rc s H) :
    HasVec H r ds := by
  obtain ⟨A, hA, hV⟩ := hv
  exact ⟨A, hR.get hne hA, hV⟩

theorem rdF_vec {α : Type} {H : Heap K} {r : ℕ} {ds : List K} {d : K} (hv : HasVec H r ds) {i : ℕ} (hi : ds[i]? = some d) (k : K → M K α) :
    (rdF r [(i : ℤ)] >>= k) H = k d H := by
  obtain ⟨A, hA, hV⟩ := hv
  obtain ⟨hl, rfl⟩ := List.getElem?_eq_some_iff.mp hi
  rw [bind_run, rdF_run hA, hV.read, bind_assoc]
  have : wrapIndex ds.length (i : ℤ) = some i := by simp [wrapIndex, hl]
  simp [listRead, this, hl]

section
variable (L : LitLaws K) (h3 : (((3 : ℕ) : K) == 0) = false) (h6 : (((6 : ℕ) : K) == 0) = false) (n : ℕ)
  {h : Heap K} {rv rd : ℕ} {D : NdArray K} (hd : h[rd]? = some D)
include L h3 h6 hd

theorem old1_sim {d0 : K} (hv : HasVec h rv [d0]) (hD : D.shape.length = 1) :
    Sim (filterCoeffs1d d0 D)
      (runFun (world oldProg (n + 3)) filterCoeffs1dFun [.arr rv [none], .arr rd (whole 1)] h)
      (fun C o => o.1 = .arr h.length (whole 1) ∧ ∃ t, o.2 = h ++ C :: t) := by
  obtain ⟨Mx, hM⟩ : ∃ a, D.shape = [a] := by
    match D.shape, hD with
    | [a], _ => exact ⟨_, rfl⟩
  have hdl : rd < h.length := (List.getElem?_eq_some_iff.mp hd).1
  have hvl : rv < h.length := by
    obtain ⟨A, hA, -⟩ := hv
    exact (List.getElem?_eq_some_iff.mp hA).1
  have hs {α : Type} (k : Val K → M K α) : (getAttr (.arr rd (whole 1) : Val K) "shape" >>= k) h =
      k (.tup [.int (Mx : ℤ)]) h := by
    have := shape_whole hd k; rw [hM] at this; exact this
  rw [runFun]
  pysimp [filterCoeffs1dFun, filterCoeffs1dBody, look]
  rw [hs]
  pysimp [look, oglob_np, oglob_find]
  rw [show ((Mx : ℤ) + ((2 : ℕ) : ℤ)) = ((Mx + 2 : ℕ) : ℤ) from rfl, zeros1_step]
  have hcl : h.length < (h ++ [NdArray.zeros (K := K) [Mx + 2]]).length := by simp
  have hd' : (h ++ [NdArray.zeros (K := K) [Mx + 2]])[rd]? = some D := by rw [List.getElem?_append_left hdl, hd]
  have hv' : HasVec (h ++ [NdArray.zeros (K := K) [Mx + 2]]) rv [d0] := by
    obtain ⟨A, hA, hV⟩ := hv
    exact ⟨A, by rw [List.getElem?_append_left hvl, hA], hV⟩
  have hR0 : Coefs (h ++ [NdArray.zeros (K := K) [Mx + 2]]) h.length [Mx + 2] (.zeros [Mx + 2]) (h ++ [.zeros [Mx + 2]]) :=
    ⟨.refl (by simp), rfl⟩
  have hend {s : NdArray K} {H : Heap K} (hR : Coefs (h ++ [NdArray.zeros (K := K) [Mx + 2]]) h.length [Mx + 2] s H) :
      ∃ t, H = h ++ s :: t := by
    obtain ⟨⟨t, rfl⟩, -⟩ := hR
    exact ⟨t, by simp⟩
  rw [← bind_pure (filterCoeffs1d d0 D)]
  simp only [filterCoeffs1d, hM, bind_assoc, List.getD_cons_zero, List.getD_cons_succ]
  pysimp [look, oglob_find, callN_fn, rdElem_eq]
  rw [rdF_vec hv' (d := d0) rfl, bind_run]
  refine Sim.bind (oldD_sim L h3 h6 n hcl (by omega) hd' hR0 ⟨[], []⟩ (by simp) d0 Mx) ?_
  rintro s ⟨v, H⟩ hR
  exact Sim.pure ⟨rfl, hend hR⟩

theorem old2_sim {d0 d1 : K} (hv : HasVec h rv [d0, d1]) (hD : D.shape.length = 2) :
    Sim (filterCoeffs2d d0 d1 D)
      (runFun (world oldProg (n + 3)) filterCoeffs2dFun [.arr rv [none], .arr rd (whole 2)] h)
      (fun C o => o.1 = .arr h.length (whole 2) ∧ ∃ t, o.2 = h ++ C :: t) := by
  obtain ⟨Mx, My, hM⟩ : ∃ a b, D.shape = [a, b] := by
    match D.shape, hD with
    | [a, b], _ => exact ⟨_, _, rfl⟩
  have hdl : rd < h.length := (List.getElem?_eq_some_iff.mp hd).1
  have hvl : rv < h.length := by
    obtain ⟨A, hA, -⟩ := hv
    exact (List.getElem?_eq_some_iff.mp hA).1
  have hs {α : Type} (k : Val K → M K α) : (getAttr (.arr rd (whole 2) : Val K) "shape" >>= k) h =
      k (.tup [.int (Mx : ℤ), .int (My : ℤ)]) h := by
    have := shape_whole hd k; rw [hM] at this; exact this
  rw [runFun]
  pysimp [filterCoeffs2dFun, filterCoeffs2dBody, look]
  rw [hs]
  pysimp [look, oglob_np, oglob_find]
  rw [hs]
  pysimp [look, oglob_np, oglob_find]
  rw [show (Val.tup [.int ((Mx : ℤ) + ((2 : ℕ) : ℤ)), .int ((My : ℤ) + ((2 : ℕ) : ℤ))] : Val K) =
    .tup (([Mx + 2, My + 2] : List ℕ).map fun n : ℕ => .int (n : ℤ)) from rfl, zerosN_step]
  have hcl : h.length < (h ++ [NdArray.zeros (K := K) [Mx + 2, My + 2]]).length := by simp
  have hd' : (h ++ [NdArray.zeros (K := K) [Mx + 2, My + 2]])[rd]? = some D := by rw [List.getElem?_append_left hdl, hd]
  have hv' : HasVec (h ++ [NdArray.zeros (K := K) [Mx + 2, My + 2]]) rv [d0, d1] := by
    obtain ⟨A, hA, hV⟩ := hv
    exact ⟨A, by rw [List.getElem?_append_left hvl, hA], hV⟩
  have hR0 : Coefs (h ++ [NdArray.zeros (K := K) [Mx + 2, My + 2]]) h.length [Mx + 2, My + 2] (.zeros [Mx + 2, My + 2]) (h ++ [.zeros [Mx + 2, My + 2]]) :=
    ⟨.refl (by simp), rfl⟩
  have hend {s : NdArray K} {H : Heap K} (hR : Coefs (h ++ [NdArray.zeros (K := K) [Mx + 2, My + 2]]) h.length [Mx + 2, My + 2] s H) :
      ∃ t, H = h ++ s :: t := by
    obtain ⟨⟨t, rfl⟩, -⟩ := hR
    exact ⟨t, by simp⟩
  rw [← bind_pure (filterCoeffs2d d0 d1 D)]
  simp only [filterCoeffs2d, hM, bind_assoc, List.getD_cons_zero, List.getD_cons_succ]
  generalize he : Env.set _ "coefs" _ = env0
  have he0 (s : String) := congrFun he.symm s
  rw [bind_run]
  refine Sim.bind_right (Q := fun s' o => o.1 = .ret (.arr h.length (whole 2)) ∧ ∃ t, o.2 = h ++ s' :: t) ?_ ?_
  · refine for_sim (names := ["iy"]) (R := Coefs (h ++ [NdArray.zeros (K := K) [Mx + 2, My + 2]]) h.length [Mx + 2, My + 2])
      (by pysimp [look, he0, oglob_range]) (fun _ => rfl) (by pysimp [he0]; try rfl) hR0 ?_ ?_
    · intro iy hx0 s H env' eiy hR
      pysimp [filterCoeffs2dLoop0, look, eiy _, he0, oglob_find, ← pat_whole, v2a, callN_fn, rdElem_eq]
      rw [rdF_vec (hv'.reach (by omega) hR.1) (d := d0) rfl]
      exact stmt_sim (oldD_sim L h3 h6 n hcl (by omega) hd' hR ⟨[], [iy]⟩ (by simp) d0 Mx) (eiy.set (by simp) _)
    intro s1 H1 env1 E1 hR1
    refine for_sim (names := ["ix"]) (R := Coefs (h ++ [NdArray.zeros (K := K) [Mx + 2, My + 2]]) h.length [Mx + 2, My + 2])
      (by pysimp [look, E1 _, he0, oglob_range]) (fun _ => rfl) (by pysimp [E1 _, he0]; try rfl) hR1 ?_ ?_
    · intro ix hx0 s H env' eix hR
      pysimp [filterCoeffs2dLoop1, look, eix _, E1 _, he0, oglob_find, ← pat_whole, v2b, callN_fn, rdElem_eq]
      rw [rdF_vec (hv'.reach (by omega) hR.1) (d := d1) rfl]
      exact stmt_sim (oldC_sim L h3 h6 n hcl hR ⟨[ix], []⟩ (by simp) d1 My) (eix.set (by simp) _)
    intro s2 H2 env2 E2 hR2
    pysimp [look, E2 _, E1 _, he0]
    exact Sim.pure ⟨rfl, hend hR2⟩
  · rintro s ⟨_, H⟩ ⟨rfl, hr⟩
    exact Sim.pure ⟨rfl, hr⟩

theorem old3_sim {d0 d1 d2 : K} (hv : HasVec h rv [d0, d1, d2]) (hD : D.shape.length = 3) :
    Sim (filterCoeffs3d d0 d1 d2 D)
      (runFun (world oldProg (n + 3)) filterCoeffs3dFun [.arr rv [none], .arr rd (whole 3)] h)
      (fun C o => o.1 = .arr h.length (whole 3) ∧ ∃ t, o.2 = h ++ C :: t) := by
  obtain ⟨Mx, My, Mz, hM⟩ : ∃ a b c, D.shape = [a, b, c] := by
    match D.shape, hD with
    | [a, b, c], _ => exact ⟨_, _, _, rfl⟩
  have hdl : rd < h.length := (List.getElem?_eq_some_iff.mp hd).1
  have hvl : rv < h.length := by
    obtain ⟨A, hA, -⟩ := hv
    exact (List.getElem?_eq_some_iff.mp hA).1
  have hs {α : Type} (k : Val K → M K α) : (getAttr (.arr rd (whole 3) : Val K) "shape" >>= k) h =
      k (.tup [.int (Mx : ℤ), .int (My : ℤ), .int (Mz : ℤ)]) h := by
    have := shape_whole hd k; rw [hM] at this; exact this
  rw [runFun]
  pysimp [filterCoeffs3dFun, filterCoeffs3dBody, look]
  rw [hs]
  pysimp [look, oglob_np, oglob_find]
  rw [hs]
  pysimp [look, oglob_np, oglob_find]
  rw [hs]
  pysimp [look, oglob_np, oglob_find]
  rw [show (Val.tup [.int ((Mx : ℤ) + ((2 : ℕ) : ℤ)), .int ((My : ℤ) + ((2 : ℕ) : ℤ)), .int ((Mz : ℤ) + ((2 : ℕ) : ℤ))] : Val K) =
    .tup (([Mx + 2, My + 2, Mz + 2] : List ℕ).map fun n : ℕ => .int (n : ℤ)) from rfl, zerosN_step]
  have hcl : h.length < (h ++ [NdArray.zeros (K := K) [Mx + 2, My + 2, Mz + 2]]).length := by simp
  have hd' : (h ++ [NdArray.zeros (K := K) [Mx + 2, My + 2, Mz + 2]])[rd]? = some D := by rw [List.getElem?_append_left hdl, hd]
  have hv' : HasVec (h ++ [NdArray.zeros (K := K) [Mx + 2, My + 2, Mz + 2]]) rv [d0, d1, d2] := by
    obtain ⟨A, hA, hV⟩ := hv
    exact ⟨A, by rw [List.getElem?_append_left hvl, hA], hV⟩
  have hR0 : Coefs (h ++ [NdArray.zeros (K := K) [Mx + 2, My + 2, Mz + 2]]) h.length [Mx + 2, My + 2, Mz + 2] (.zeros [Mx + 2, My + 2, Mz + 2]) (h ++ [.zeros [Mx + 2, My + 2, Mz + 2]]) :=
    ⟨.refl (by simp), rfl⟩
  have hend {s : NdArray K} {H : Heap K} (hR : Coefs (h ++ [NdArray.zeros (K := K) [Mx + 2, My + 2, Mz + 2]]) h.length [Mx + 2, My + 2, Mz + 2] s H) :
      ∃ t, H = h ++ s :: t := by
    obtain ⟨⟨t, rfl⟩, -⟩ := hR
    exact ⟨t, by simp⟩
  rw [← bind_pure (filterCoeffs3d d0 d1 d2 D)]
  simp only [filterCoeffs3d, hM, bind_assoc, List.getD_cons_zero, List.getD_cons_succ]
  generalize he : Env.set _ "coefs" _ = env0
  have he0 (s : String) := congrFun he.symm s
  rw [bind_run]
  refine Sim.bind_right (Q := fun s' o => o.1 = .ret (.arr h.length (whole 3)) ∧ ∃ t, o.2 = h ++ s' :: t) ?_ ?_
  · refine for_sim (names := ["iy", "iz"]) (R := Coefs (h ++ [NdArray.zeros (K := K) [Mx + 2, My + 2, Mz + 2]]) h.length [Mx + 2, My + 2, Mz + 2])
      (by pysimp [look, he0, oglob_range]) (fun _ => rfl) (by pysimp [he0]; try rfl) hR0 ?_ ?_
    · intro iy hx0 s H env' eiy hR
      refine Sim.mono (for_sim_nil (names := ["iz"]) (R := Coefs (h ++ [NdArray.zeros (K := K) [Mx + 2, My + 2, Mz + 2]]) h.length [Mx + 2, My + 2, Mz + 2])
        (by pysimp [look, eiy _, he0, oglob_range]) (fun _ => rfl) (by pysimp [eiy _, he0]; try rfl) hR ?_)
        fun s o ⟨env'', h1, ha, hR⟩ => ⟨env'', h1, Agree.trans eiy ha (by simp) (by simp), hR⟩
      intro iz hx1 s H env' eiz hR
      pysimp [filterCoeffs3dLoop0, look, eiz _, eiy _, he0, oglob_find, ← pat_whole, v3a, callN_fn, rdElem_eq]
      rw [rdF_vec (hv'.reach (by omega) hR.1) (d := d0) rfl]
      exact stmt_sim (oldD_sim L h3 h6 n hcl (by omega) hd' hR ⟨[], [iy, iz]⟩ (by simp) d0 Mx) (eiz.set (by simp) _)
    intro s1 H1 env1 E1 hR1
    refine for_sim (names := ["ix", "iz"]) (R := Coefs (h ++ [NdArray.zeros (K := K) [Mx + 2, My + 2, Mz + 2]]) h.length [Mx + 2, My + 2, Mz + 2])
      (by pysimp [look, E1 _, he0, oglob_range]) (fun _ => rfl) (by pysimp [E1 _, he0]; try rfl) hR1 ?_ ?_
    · intro ix hx0 s H env' eix hR
      refine Sim.mono (for_sim_nil (names := ["iz"]) (R := Coefs (h ++ [NdArray.zeros (K := K) [Mx + 2, My + 2, Mz + 2]]) h.length [Mx + 2, My + 2, Mz + 2])
        (by pysimp [look, eix _, E1 _, he0, oglob_range]) (fun _ => rfl) (by pysimp [eix _, E1 _, he0]; try rfl) hR ?_)
        fun s o ⟨env'', h1, ha, hR⟩ => ⟨env'', h1, Agree.trans eix ha (by simp) (by simp), hR⟩
      intro iz hx1 s H env' eiz hR
      pysimp [filterCoeffs3dLoop2, look, eiz _, eix _, E1 _, he0, oglob_find, ← pat_whole, v3b, callN_fn, rdElem_eq]
      rw [rdF_vec (hv'.reach (by omega) hR.1) (d := d1) rfl]
      exact stmt_sim (oldC_sim L h3 h6 n hcl hR ⟨[ix], [iz]⟩ (by simp) d1 My) (eiz.set (by simp) _)
    intro s2 H2 env2 E2 hR2
    refine for_sim (names := ["ix", "iy"]) (R := Coefs (h ++ [NdArray.zeros (K := K) [Mx + 2, My + 2, Mz + 2]]) h.length [Mx + 2, My + 2, Mz + 2])
      (by pysimp [look, E2 _, E1 _, he0, oglob_range]) (fun _ => rfl) (by pysimp [E2 _, E1 _, he0]; try rfl) hR2 ?_ ?_
    · intro ix hx0 s H env' eix hR
      refine Sim.mono (for_sim_nil (names := ["iy"]) (R := Coefs (h ++ [NdArray.zeros (K := K) [Mx + 2, My + 2, Mz + 2]]) h.length [Mx + 2, My + 2, Mz + 2])
        (by pysimp [look, eix _, E2 _, E1 _, he0, oglob_range]) (fun _ => rfl) (by pysimp [eix _, E2 _, E1 _, he0]; try rfl) hR ?_)
        fun s o ⟨env'', h1, ha, hR⟩ => ⟨env'', h1, Agree.trans eix ha (by simp) (by simp), hR⟩
      intro iy hx1 s H env' eiy hR
      pysimp [filterCoeffs3dLoop4, look, eiy _, eix _, E2 _, E1 _, he0, oglob_find, ← pat_whole, v3c, callN_fn, rdElem_eq]
      rw [rdF_vec (hv'.reach (by omega) hR.1) (d := d2) rfl]
      exact stmt_sim (oldC_sim L h3 h6 n hcl hR ⟨[ix, iy], []⟩ (by simp) d2 Mz) (eiy.set (by simp) _)
    intro s3 H3 env3 E3 hR3
    pysimp [look, E3 _, E2 _, E1 _, he0]
    exact Sim.pure ⟨rfl, hend hR3⟩
  · rintro s ⟨_, H⟩ ⟨rfl, hr⟩
    exact Sim.pure ⟨rfl, hr⟩

theorem old4_sim {d0 d1 d2 d3 : K} (hv : HasVec h rv [d0, d1, d2, d3]) (hD : D.shape.length = 4) :
    Sim (filterCoeffs4d d0 d1 d2 d3 D)
      (runFun (world oldProg (n + 3)) filterCoeffs4dFun [.arr rv [none], .arr rd (whole 4)] h)
      (fun C o => o.1 = .arr h.length (whole 4) ∧ ∃ t, o.2 = h ++ C :: t) := by
  obtain ⟨Mx, My, Mz, Mz4, hM⟩ : ∃ a b c e, D.shape = [a, b, c, e] := by
    match D.shape, hD with
    | [a, b, c, e], _ => exact ⟨_, _, _, _, rfl⟩
  have hdl : rd < h.length := (List.getElem?_eq_some_iff.mp hd).1
  have hvl : rv < h.length := by
    obtain ⟨A, hA, -⟩ := hv
    exact (List.getElem?_eq_some_iff.mp hA).1
  have hs {α : Type} (k : Val K → M K α) : (getAttr (.arr rd (whole 4) : Val K) "shape" >>= k) h =
      k (.tup [.int (Mx : ℤ), .int (My : ℤ), .int (Mz : ℤ), .int (Mz4 : ℤ)]) h := by
    have := shape_whole hd k; rw [hM] at this; exact this
  rw [runFun]
  pysimp [filterCoeffs4dFun, filterCoeffs4dBody, look]
  rw [hs]
  pysimp [look, oglob_np, oglob_find]
  rw [hs]
  pysimp [look, oglob_np, oglob_find]
  rw [hs]
  pysimp [look, oglob_np, oglob_find]
  rw [hs]
  pysimp [look, oglob_np, oglob_find]
  rw [show (Val.tup [.int ((Mx : ℤ) + ((2 : ℕ) : ℤ)), .int ((My : ℤ) + ((2 : ℕ) : ℤ)), .int ((Mz : ℤ) + ((2 : ℕ) : ℤ)), .int ((Mz4 : ℤ) + ((2 : ℕ) : ℤ))] : Val K) =
    .tup (([Mx + 2, My + 2, Mz + 2, Mz4 + 2] : List ℕ).map fun n : ℕ => .int (n : ℤ)) from rfl, zerosN_step]
  have hcl : h.length < (h ++ [NdArray.zeros (K := K) [Mx + 2, My + 2, Mz + 2, Mz4 + 2]]).length := by simp
  have hd' : (h ++ [NdArray.zeros (K := K) [Mx + 2, My + 2, Mz + 2, Mz4 + 2]])[rd]? = some D := by rw [List.getElem?_append_left hdl, hd]
  have hv' : HasVec (h ++ [NdArray.zeros (K := K) [Mx + 2, My + 2, Mz + 2, Mz4 + 2]]) rv [d0, d1, d2, d3] := by
    obtain ⟨A, hA, hV⟩ := hv
    exact ⟨A, by rw [List.getElem?_append_left hvl, hA], hV⟩
  have hR0 : Coefs (h ++ [NdArray.zeros (K := K) [Mx + 2, My + 2, Mz + 2, Mz4 + 2]]) h.length [Mx + 2, My + 2, Mz + 2, Mz4 + 2] (.zeros [Mx + 2, My + 2, Mz + 2, Mz4 + 2]) (h ++ [.zeros [Mx + 2, My + 2, Mz + 2, Mz4 + 2]]) :=
    ⟨.refl (by simp), rfl⟩
  have hend {s : NdArray K} {H : Heap K} (hR : Coefs (h ++ [NdArray.zeros (K := K) [Mx + 2, My + 2, Mz + 2, Mz4 + 2]]) h.length [Mx + 2, My + 2, Mz + 2, Mz4 + 2] s H) :
      ∃ t, H = h ++ s :: t := by
    obtain ⟨⟨t, rfl⟩, -⟩ := hR
    exact ⟨t, by simp⟩
  rw [← bind_pure (filterCoeffs4d d0 d1 d2 d3 D)]
  simp only [filterCoeffs4d, hM, bind_assoc, List.getD_cons_zero, List.getD_cons_succ]
  generalize he : Env.set _ "coefs" _ = env0
  have he0 (s : String) := congrFun he.symm s
  rw [bind_run]
  refine Sim.bind_right (Q := fun s' o => o.1 = .ret (.arr h.length (whole 4)) ∧ ∃ t, o.2 = h ++ s' :: t) ?_ ?_
  · refine for_sim (names := ["iy", "iz", "iz4"]) (R := Coefs (h ++ [NdArray.zeros (K := K) [Mx + 2, My + 2, Mz + 2, Mz4 + 2]]) h.length [Mx + 2, My + 2, Mz + 2, Mz4 + 2])
      (by pysimp [look, he0, oglob_range]) (fun _ => rfl) (by pysimp [he0]; try rfl) hR0 ?_ ?_
    · intro iy hx0 s H env' eiy hR
      refine Sim.mono (for_sim_nil (names := ["iz", "iz4"]) (R := Coefs (h ++ [NdArray.zeros (K := K) [Mx + 2, My + 2, Mz + 2, Mz4 + 2]]) h.length [Mx + 2, My + 2, Mz + 2, Mz4 + 2])
        (by pysimp [look, eiy _, he0, oglob_range]) (fun _ => rfl) (by pysimp [eiy _, he0]; try rfl) hR ?_)
        fun s o ⟨env'', h1, ha, hR⟩ => ⟨env'', h1, Agree.trans eiy ha (by simp) (by simp), hR⟩
      intro iz hx1 s H env' eiz hR
      refine Sim.mono (for_sim_nil (names := ["iz4"]) (R := Coefs (h ++ [NdArray.zeros (K := K) [Mx + 2, My + 2, Mz + 2, Mz4 + 2]]) h.length [Mx + 2, My + 2, Mz + 2, Mz4 + 2])
        (by pysimp [look, eiz _, eiy _, he0, oglob_range]) (fun _ => rfl) (by pysimp [eiz _, eiy _, he0]; try rfl) hR ?_)
        fun s o ⟨env'', h1, ha, hR⟩ => ⟨env'', h1, Agree.trans eiz ha (by simp) (by simp), hR⟩
      intro iz4 hx2 s H env' eiz4 hR
      pysimp [filterCoeffs4dLoop0, look, eiz4 _, eiz _, eiy _, he0, oglob_find, ← pat_whole, v4a, callN_fn, rdElem_eq]
      rw [rdF_vec (hv'.reach (by omega) hR.1) (d := d0) rfl]
      exact stmt_sim (oldD_sim L h3 h6 n hcl (by omega) hd' hR ⟨[], [iy, iz, iz4]⟩ (by simp) d0 Mx) (eiz4.set (by simp) _)
    intro s1 H1 env1 E1 hR1
    refine for_sim (names := ["ix", "iz", "iz4"]) (R := Coefs (h ++ [NdArray.zeros (K := K) [Mx + 2, My + 2, Mz + 2, Mz4 + 2]]) h.length [Mx + 2, My + 2, Mz + 2, Mz4 + 2])
      (by pysimp [look, E1 _, he0, oglob_range]) (fun _ => rfl) (by pysimp [E1 _, he0]; try rfl) hR1 ?_ ?_
    · intro ix hx0 s H env' eix hR
      refine Sim.mono (for_sim_nil (names := ["iz", "iz4"]) (R := Coefs (h ++ [NdArray.zeros (K := K) [Mx + 2, My + 2, Mz + 2, Mz4 + 2]]) h.length [Mx + 2, My + 2, Mz + 2, Mz4 + 2])
        (by pysimp [look, eix _, E1 _, he0, oglob_range]) (fun _ => rfl) (by pysimp [eix _, E1 _, he0]; try rfl) hR ?_)
        fun s o ⟨env'', h1, ha, hR⟩ => ⟨env'', h1, Agree.trans eix ha (by simp) (by simp), hR⟩
      intro iz hx1 s H env' eiz hR
      refine Sim.mono (for_sim_nil (names := ["iz4"]) (R := Coefs (h ++ [NdArray.zeros (K := K) [Mx + 2, My + 2, Mz + 2, Mz4 + 2]]) h.length [Mx + 2, My + 2, Mz + 2, Mz4 + 2])
        (by pysimp [look, eiz _, eix _, E1 _, he0, oglob_range]) (fun _ => rfl) (by pysimp [eiz _, eix _, E1 _, he0]; try rfl) hR ?_)
        fun s o ⟨env'', h1, ha, hR⟩ => ⟨env'', h1, Agree.trans eiz ha (by simp) (by simp), hR⟩
      intro iz4 hx2 s H env' eiz4 hR
      pysimp [filterCoeffs4dLoop3, look, eiz4 _, eiz _, eix _, E1 _, he0, oglob_find, ← pat_whole, v4b, callN_fn, rdElem_eq]
      rw [rdF_vec (hv'.reach (by omega) hR.1) (d := d1) rfl]
      exact stmt_sim (oldC_sim L h3 h6 n hcl hR ⟨[ix], [iz, iz4]⟩ (by simp) d1 My) (eiz4.set (by simp) _)
    intro s2 H2 env2 E2 hR2
    refine for_sim (names := ["ix", "iy", "iz4"]) (R := Coefs (h ++ [NdArray.zeros (K := K) [Mx + 2, My + 2, Mz + 2, Mz4 + 2]]) h.length [Mx + 2, My + 2, Mz + 2, Mz4 + 2])
      (by pysimp [look, E2 _, E1 _, he0, oglob_range]) (fun _ => rfl) (by pysimp [E2 _, E1 _, he0]; try rfl) hR2 ?_ ?_
    · intro ix hx0 s H env' eix hR
      refine Sim.mono (for_sim_nil (names := ["iy", "iz4"]) (R := Coefs (h ++ [NdArray.zeros (K := K) [Mx + 2, My + 2, Mz + 2, Mz4 + 2]]) h.length [Mx + 2, My + 2, Mz + 2, Mz4 + 2])
        (by pysimp [look, eix _, E2 _, E1 _, he0, oglob_range]) (fun _ => rfl) (by pysimp [eix _, E2 _, E1 _, he0]; try rfl) hR ?_)
        fun s o ⟨env'', h1, ha, hR⟩ => ⟨env'', h1, Agree.trans eix ha (by simp) (by simp), hR⟩
      intro iy hx1 s H env' eiy hR
      refine Sim.mono (for_sim_nil (names := ["iz4"]) (R := Coefs (h ++ [NdArray.zeros (K := K) [Mx + 2, My + 2, Mz + 2, Mz4 + 2]]) h.length [Mx + 2, My + 2, Mz + 2, Mz4 + 2])
        (by pysimp [look, eiy _, eix _, E2 _, E1 _, he0, oglob_range]) (fun _ => rfl) (by pysimp [eiy _, eix _, E2 _, E1 _, he0]; try rfl) hR ?_)
        fun s o ⟨env'', h1, ha, hR⟩ => ⟨env'', h1, Agree.trans eiy ha (by simp) (by simp), hR⟩
      intro iz4 hx2 s H env' eiz4 hR
      pysimp [filterCoeffs4dLoop6, look, eiz4 _, eiy _, eix _, E2 _, E1 _, he0, oglob_find, ← pat_whole, v4c, callN_fn, rdElem_eq]
      rw [rdF_vec (hv'.reach (by omega) hR.1) (d := d2) rfl]
      exact stmt_sim (oldC_sim L h3 h6 n hcl hR ⟨[ix, iy], [iz4]⟩ (by simp) d2 Mz) (eiz4.set (by simp) _)
    intro s3 H3 env3 E3 hR3
    refine for_sim (names := ["ix", "iy", "iz"]) (R := Coefs (h ++ [NdArray.zeros (K := K) [Mx + 2, My + 2, Mz + 2, Mz4 + 2]]) h.length [Mx + 2, My + 2, Mz + 2, Mz4 + 2])
      (by pysimp [look, E3 _, E2 _, E1 _, he0, oglob_range]) (fun _ => rfl) (by pysimp [E3 _, E2 _, E1 _, he0]; try rfl) hR3 ?_ ?_
    · intro ix hx0 s H env' eix hR
      refine Sim.mono (for_sim_nil (names := ["iy", "iz"]) (R := Coefs (h ++ [NdArray.zeros (K := K) [Mx + 2, My + 2, Mz + 2, Mz4 + 2]]) h.length [Mx + 2, My + 2, Mz + 2, Mz4 + 2])
        (by pysimp [look, eix _, E3 _, E2 _, E1 _, he0, oglob_range]) (fun _ => rfl) (by pysimp [eix _, E3 _, E2 _, E1 _, he0]; try rfl) hR ?_)
        fun s o ⟨env'', h1, ha, hR⟩ => ⟨env'', h1, Agree.trans eix ha (by simp) (by simp), hR⟩
      intro iy hx1 s H env' eiy hR
      refine Sim.mono (for_sim_nil (names := ["iz"]) (R := Coefs (h ++ [NdArray.zeros (K := K) [Mx + 2, My + 2, Mz + 2, Mz4 + 2]]) h.length [Mx + 2, My + 2, Mz + 2, Mz4 + 2])
        (by pysimp [look, eiy _, eix _, E3 _, E2 _, E1 _, he0, oglob_range]) (fun _ => rfl) (by pysimp [eiy _, eix _, E3 _, E2 _, E1 _, he0]; try rfl) hR ?_)
        fun s o ⟨env'', h1, ha, hR⟩ => ⟨env'', h1, Agree.trans eiy ha (by simp) (by simp), hR⟩
      intro iz hx2 s H env' eiz hR
      pysimp [filterCoeffs4dLoop9, look, eiz _, eiy _, eix _, E3 _, E2 _, E1 _, he0, oglob_find, ← pat_whole, v4d, callN_fn, rdElem_eq]
      rw [rdF_vec (hv'.reach (by omega) hR.1) (d := d3) rfl]
      exact stmt_sim (oldC_sim L h3 h6 n hcl hR ⟨[ix, iy, iz], []⟩ (by simp) d3 Mz4) (eiz.set (by simp) _)
    intro s4 H4 env4 E4 hR4
    pysimp [look, E4 _, E3 _, E2 _, E1 _, he0]
    exact Sim.pure ⟨rfl, hend hR4⟩
  · rintro s ⟨_, H⟩ ⟨rfl, hr⟩
    exact Sim.pure ⟨rfl, hr⟩

end

end Interp.Spec.PySrc
