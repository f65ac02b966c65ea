import Verif.Proofs.SrcNumbaRun

/-!
# Executing the texts of `eval_cubic_numba.py`: several points, several components
-/

namespace Interp.Spec.PySrc.Numba
open Interp CubicNumba Codegen

set_option linter.unusedSectionVars false

variable {K : Type}
variable [Add K] [Sub K] [Mul K] [Div K] [Neg K] [Zero K] [One K] [NatCast K] [IntCast K]
  [LT K] [DecidableLT K] [LE K] [DecidableLE K] [BEq K] [IntFloor K] [Interp.Smolyak.Trig K]

theorem along_map {l : List (Fin 4)} (hl : Axes l) (c : Fin 4 → Cell K) (q : Fin 4) :
    along q (l.map c) = l.map fun i => ((c i).i, if i = q then dphi (c i).t (c i).dinv else phi (c i).t) := by
  refine List.ext_getElem (by simp [along]) fun n h1 h2 => ?_
  have hn : n < l.length := by simpa using h2
  have e : ((l[n] : Fin 4) : ℕ) = n := by
    have := congrArg (fun m : List ℕ => m[n]?) hl
    simpa [hn] using this
  simp only [along, List.getElem_mapIdx, List.getElem_map, Fin.ext_iff, e]

theorem Axes.pyFor {S : Type} {l : List (Fin 4)} (hl : Axes l) (f : ℕ → S → Py S) (s : S) :
    pyFor (List.range l.length) f s = pyFor l (fun i : Fin 4 => f i) s := by
  rw [← hl]
  simp only [Interp.pyFor, List.foldlM_map]

section
variable (L : LitLaws K) {W : World K} (O : Outside W)
include L O

/-- `vec_eval_cubic_splines_d`. -/
theorem vecEvalSplines_run {l : List (Fin 4)} (hl : Axes l) (s : String) {h : Heap K} {ra rb rc rx ro k : ℕ} {A B C X D : NdArray K} {a b : List K}
    {pts : List (List K)} {orders : List ℤ} (ha : h[ra]? = some A) (hA : IsVec A a) (hb : h[rb]? = some B) (hB : IsVec B b) (hc : h[rc]? = some C)
    (hC : C.shape.length = l.length + 1)
    (hx : h[rx]? = some X) (hX : IsMat X k pts) (ho : l.length ≤ orders.length) (hr : h[ro]? = some D) (nc : ro ≠ rc) (nx : ro ≠ rx) :
    Sim (vecEvalSplinesD l.length a b orders C pts D)
      (runFun W (vecEvalSplinesFun s l) [.arr ra [none], .arr rb [none], .ints orders, .arr rc (whole (l.length + 1)), .arr rx [none, none],
        .arr ro [none, none]] h)
      fun D' o => o = (.none, h.set ro D') := by
  refine run_sim (params_run W [(.a, .arr ra [none]), (.b, .arr rb [none]), (.orders, .ints orders), (.coefs, .arr rc (whole (l.length + 1))),
    (.points, .arr rx [none, none]), (.vals, .arr ro [none, none])]) ?_
  generalize he : argEnv _ = env
  have e : ∀ w : Var, env w.name = _ := fun w => by rw [← he]
  simp only [argEnv_cons, argEnv_nil] at e
  have c : Clear env := ⟨by rw [e]; simp, by rw [e]; simp, by rw [e]; simp, by rw [e]; simp, by rw [e]; simp, by rw [e]; simp, by rw [e]; simp⟩
  show Sim _ (exec W (vecEvalSplinesBody l) env h) _
  rw [vecEvalSplinesBody, exec_asg, step (shape_at (A := C) (r := rc) (by rw [e, hC]; simp) hc (by omega)), exec_asg,
    step (shape_at (A := X) (r := rx) (by rw [set_name, e, hX.1]; simp; rfl) hx (by rw [hX.1]; simp))]
  have hN : (X.shape.getD 0 0) = pts.length := by rw [hX.1]; rfl
  rw [hN]
  simp only [vecEvalSplinesD, nVals, if_pos hC, header, coords, hl.mapM, pure_bind]
  generalize hm : C.shape.getD l.length 0 = m
  generalize he1 : Env.set _ (Var.name .N) _ = env1
  have e1 : ∀ w : Var, env1 w.name = _ := fun w => by rw [← he1, set_name, set_name]
  have c1 : Clear env1 := c.mono fun v hv => by
    simp only [List.mem_cons, List.not_mem_nil, or_false] at hv
    rcases hv with rfl | rfl | rfl | rfl | rfl | rfl | rfl <;> rw [e1] <;> simp
  have G : GridArgs env1 h a b orders := ⟨by rw [e1, e]; simp, ⟨ra, A, by rw [e1, e]; simp, ha, hA⟩, ⟨rb, B, by rw [e1, e]; simp, hb, hB⟩⟩
  refine header_sim L G hl.nodup (fun i hi => (hl.lt hi).trans_le ho) fun g env2 u2 => ?_
  have k2 := upd_keeps u2
  have c2 := clear_header c1 k2
  have hlen := (List.getElem?_eq_some_iff.mp hr).1
  refine Sim.mono (for_sim L O c2 (m := pts.length)
    (Inv := fun D' env' h' => (∀ v, isLoop v = false → env' (Var.name v) = env2 v.name) ∧ h' = h.set ro D')
    (by rw [keeps_header k2 rfl, e1]; simp) (fun n hn D' env3 h3 ⟨i3, j3⟩ => ?_) ⟨fun _ _ => rfl, ?_⟩) ?_
  · subst j3
    generalize he4 : env3.set (Var.name .n) _ = env4
    have e4 : ∀ w : Var, env4 w.name = _ := fun w => by rw [← he4, set_name]
    have i4 : ∀ v, isLoop v = false → env4 (Var.name v) = env2 v.name := fun v hv => by
      rw [e4, if_neg (by rintro rfl; cases hv), i3 v hv]
    rw [read_point hn, pure_bind]
    refine coords_sim (r := rx) (by rw [i4 _ rfl, keeps_header k2 rfl, e1, e]; simp) (by rw [List.getElem?_set_ne nx]; exact hx) hX hn
      (by rw [e4]; simp) hl.nodup fun y env5 u5 => ?_
    have k5 := upd_keeps u5
    have kn : Known l env5 g y := ⟨fun i hi => by rw [keep_coord k5 (by simp), i4 _ rfl]; exact upd_in u2 hi rfl (by simp [oneHeader]),
      fun i hi => by rw [keep_coord k5 (by simp), i4 _ rfl]; exact upd_in u2 hi rfl (by simp [oneHeader]),
      fun i hi => by rw [keep_coord k5 (by simp), i4 _ rfl]; exact upd_in u2 hi rfl (by simp [oneHeader]),
      fun i hi => upd_in u5 hi rfl (by simp [oneCoord])⟩
    obtain ⟨env6, w6, k6, e6⟩ := weights_det (h := h.set ro D') L O (clear_coord (clear_keep (p := isLoop) (by decide) c2 i4) k5) hl.nodup kn
      (.for (nm .k) (rangeOf .nVals) (setVals l .nil) .nil)
    have i6 : ∀ v, isLoop v = false → env6 (Var.name v) = env2 v.name := fun v hv => by
      rw [k6 v (by cases v with
          | ax f i => cases f <;> first | rfl | cases hv
          | _ => first | rfl | cases hv), keep_coord k5 (by rintro i rfl; cases hv), i4 v hv]
    have n6 : env6 (Var.name .n) = some (.int n) := by
      rw [k6 _ rfl, keeps_coord k5 rfl, e4]; simp
    rw [e6, zip_map]
    refine Sim.mono (for_sim L O (clear_keep (p := isLoop) (by decide) c2 i6) (m := m)
      (Inv := fun D' env' h' => (∀ v, v ≠ .k → env' (Var.name v) = env6 v.name) ∧ h' = h.set ro D')
      (by rw [i6 _ rfl, keeps_header k2 rfl, e1]; simp) (fun j hj D' env7 h7 ⟨i7, j7⟩ => ?_) ⟨fun _ _ => rfl, rfl⟩) ?_
    · subst j7
      generalize he8 : env7.set (Var.name .k) _ = env8
      have e8 : ∀ w : Var, env8 w.name = _ := fun w => by rw [← he8, set_name]
      have i8 : ∀ v, v ≠ .k → env8 (Var.name v) = env6 v.name := fun v hv => by
        rw [e8, if_neg hv, i7 v hv]
      have k8 : env8 (Var.name .k) = some (.int j) := by rw [e8]; simp
      have := set_elem (W := W) (v := .vals) (es := [nm .n] ++ [nm .k]) (zs := [(n : ℤ)] ++ [(j : ℤ)]) (rest := .nil) (A := D') (r := ro) (f := pure)
        (Q := Next fun D' env' h' => (∀ v, v ≠ .k → env' (Var.name v) = env6 v.name) ∧ h' = h.set ro D')
        (by rw [i8 _ (by simp), i6 _ rfl, keeps_header k2 rfl, e1, e]; simp; rfl) (by rw [List.getElem?_set_self hlen])
        ((subs_var ((i8 _ (by simp)).trans n6)).append (subs_var k8))
        (value_run (rc := rc) (m := l.length + 1) (w6.mono i8) (by rw [List.getElem?_set_ne nc]; exact hc)
          (by rw [i8 _ (by simp), i6 _ rfl, keeps_header k2 rfl, e1, e]; simp) (subs_var k8) rfl)
        (fun D'' => by
          rw [exec_nil, List.set_set]
          exact ⟨env8, rfl, i8, rfl⟩)
      simp only [bind_pure] at this
      exact this
    · rintro D' ⟨o, h'⟩ ⟨env', rfl, i', rfl⟩
      exact ⟨env', rfl, fun v hv => (i' v (by rintro rfl; cases hv)).trans (i6 v hv), rfl⟩
  · exact (List.set_getElem_self hlen).symm.trans (by rw [(List.getElem?_eq_some_iff.mp hr).2])
  · rintro D' ⟨o, h'⟩ ⟨env', rfl, -, rfl⟩
    exact Or.inr ⟨env', rfl, rfl⟩

omit L O in
/-- The derivatives along the axes. -/
theorem setDvals_sim {l : List (Fin 4)} (hl : Axes l) {env : Env K} {h : Heap K} {rc rv rd n k : ℕ} {C V : NdArray K} {c : Fin 4 → Cell K}
    (w : Weighed l env c) (hd : ∀ i ∈ l, ∀ j : Fin 4, env (Var.name (.ax2 .dPhi i j)) = some (.flt (dphi (c i).t (c i).dinv j)))
    (hce : env (Var.name .coefs) = some (.arr rc (whole (l.length + 1)))) (hv : env (Var.name .dvals) = some (.arr rd [none, none, none]))
    (hn : env (Var.name .n) = some (.int n)) (hk : env (Var.name .k) = some (.int k))
    (hc : h[rc]? = some C) (nv : rv ≠ rc) (nd : rd ≠ rc) (hlen : rd < h.length) : ∀ (l' : List (Fin 4)) (D : NdArray K),
    Sim (pyFor l' (fun (q : Fin 4) dv => contract C [Int.ofNat k] (along q (l.map c)) [] >>= fun g =>
        dv.write [Int.ofNat n, Int.ofNat (q : ℕ), Int.ofNat k] g) D)
      (exec W (seqs (setDvals l) l' .nil) env (two h rv rd V D)) fun D' o => o = (.next env, two h rv rd V D')
  | [], D => rfl
  | q :: l', D => by
    have ih := setDvals_sim (V := V) hl w hd hce hv hn hk hc nv nd hlen l'
    generalize hF : (fun (q : Fin 4) dv => contract C [Int.ofNat k] (along q (l.map c)) [] >>= fun g =>
        NdArray.write dv [Int.ofNat n, Int.ofNat (q : ℕ), Int.ofNat k] g) = F at ih ⊢
    have hx : eval W env (contractEx (fun i => if i = q then .dPhi else .Phi) [nm .k] l []) (two h rv rd V D) =
        contract C [Int.ofNat k] (along q (l.map c)) [] >>= fun x => pure (.flt x, two h rv rd V D) := by
      rw [contract_run (rc := rc) (C := C) (m := l.length + 1) (z := fun i => (c i).i)
        (wt := fun i => if i = q then dphi (c i).t (c i).dinv else phi (c i).t) (by rw [two_ne nv nd]; exact hc) hce (subs_var hk) l w.i
        (fun i hi j => ?_) [] [] .nil (by simp), along_map hl]
      · rfl
      · by_cases hq : i = q
        · simp only [if_pos hq]; exact hd i hi j
        · simp only [if_neg hq]; exact w.phi i hi j
    have key := set_elem (W := W) (v := .dvals) (es := [nm .n] ++ ([.int (q : ℕ)] ++ [nm .k])) (zs := [(n : ℤ)] ++ ([((q : ℕ) : ℤ)] ++ [(k : ℤ)]))
      (rest := seqs (setDvals l) l' .nil) (f := pyFor l' F) (Q := fun D' o => o = (.next env, two h rv rd V D')) (A := D) (r := rd)
      (by rw [hv]; rfl) (by rw [two_c hlen]) ((subs_var hn).append ((subs_lit _).append (subs_var hk))) hx fun D' => by
        rw [two_set_c]
        exact ih D'
    have e : pyFor (q :: l') F D = contract C [Int.ofNat k] (along q (l.map c)) [] >>= fun g =>
        D.write [Int.ofNat n, Int.ofNat (q : ℕ), Int.ofNat k] g >>= pyFor l' F := by
      rw [← hF]
      simp only [pyFor, List.foldlM_cons, bind_assoc]
      rfl
    rw [e]
    exact key

/-- `vec_eval_cubic_splines_G_d`. -/
theorem vecEvalSplinesG_run {l : List (Fin 4)} (hl : Axes l) (s : String) {h : Heap K} {ra rb rc rx rv rd k : ℕ} {A B C X V D : NdArray K}
    {a b : List K} {pts : List (List K)} {orders : List ℤ} (ha : h[ra]? = some A) (hA : IsVec A a) (hb : h[rb]? = some B) (hB : IsVec B b)
    (hc : h[rc]? = some C) (hC : C.shape.length = l.length + 1)
    (hx : h[rx]? = some X) (hX : IsMat X k pts) (ho : l.length ≤ orders.length) (hrv : h[rv]? = some V) (hrd : h[rd]? = some D)
    (nv : rv ≠ rc) (nd : rd ≠ rc) (nvx : rv ≠ rx) (ndx : rd ≠ rx) (ne : rd ≠ rv) :
    Sim (vecEvalSplinesGD l.length a b orders C pts V D)
      (runFun W (vecEvalSplinesGFun s l) [.arr ra [none], .arr rb [none], .ints orders, .arr rc (whole (l.length + 1)), .arr rx [none, none],
        .arr rv [none, none], .arr rd [none, none, none]] h)
      fun D' o => o = (.none, two h rv rd D'.1 D'.2) := by
  refine run_sim (params_run W [(.a, .arr ra [none]), (.b, .arr rb [none]), (.orders, .ints orders), (.coefs, .arr rc (whole (l.length + 1))),
    (.points, .arr rx [none, none]), (.vals, .arr rv [none, none]), (.dvals, .arr rd [none, none, none])]) ?_
  generalize he : argEnv _ = env
  have e : ∀ w : Var, env w.name = _ := fun w => by rw [← he]
  simp only [argEnv_cons, argEnv_nil] at e
  have c : Clear env := ⟨by rw [e]; simp, by rw [e]; simp, by rw [e]; simp, by rw [e]; simp, by rw [e]; simp, by rw [e]; simp, by rw [e]; simp⟩
  show Sim _ (exec W (vecEvalSplinesGBody l) env h) _
  rw [vecEvalSplinesGBody, exec_asg, step (shape_at (A := C) (r := rc) (by rw [e, hC]; simp) hc (by omega)), exec_asg,
    step (shape_at (A := X) (r := rx) (by rw [set_name, e, hX.1]; simp; rfl) hx (by rw [hX.1]; simp))]
  have hN : (X.shape.getD 0 0) = pts.length := by rw [hX.1]; rfl
  rw [hN]
  simp only [vecEvalSplinesGD, nVals, if_pos hC, header, coords, hl.mapM, hl.pyFor, pure_bind]
  generalize hm : C.shape.getD l.length 0 = m
  generalize he1 : Env.set _ (Var.name .N) _ = env1
  have e1 : ∀ w : Var, env1 w.name = _ := fun w => by rw [← he1, set_name, set_name]
  have c1 : Clear env1 := c.mono fun v hv => by
    simp only [List.mem_cons, List.not_mem_nil, or_false] at hv
    rcases hv with rfl | rfl | rfl | rfl | rfl | rfl | rfl <;> rw [e1] <;> simp
  have G : GridArgs env1 h a b orders := ⟨by rw [e1, e]; simp, ⟨ra, A, by rw [e1, e]; simp, ha, hA⟩, ⟨rb, B, by rw [e1, e]; simp, hb, hB⟩⟩
  refine header_sim L G hl.nodup (fun i hi => (hl.lt hi).trans_le ho) fun g env2 u2 => ?_
  have k2 := upd_keeps u2
  have c2 := clear_header c1 k2
  have lv := (List.getElem?_eq_some_iff.mp hrv).1
  have ld := (List.getElem?_eq_some_iff.mp hrd).1
  refine Sim.mono (for_sim L O c2 (m := pts.length)
    (Inv := fun D' env' h' => (∀ v, isLoop v = false → env' (Var.name v) = env2 v.name) ∧ h' = two h rv rd D'.1 D'.2)
    (by rw [keeps_header k2 rfl, e1]; simp) (fun n hn D' env3 h3 ⟨i3, j3⟩ => ?_) ⟨fun _ _ => rfl, ?_⟩) ?_
  · subst j3
    generalize he4 : env3.set (Var.name .n) _ = env4
    have e4 : ∀ w : Var, env4 w.name = _ := fun w => by rw [← he4, set_name]
    have i4 : ∀ v, isLoop v = false → env4 (Var.name v) = env2 v.name := fun v hv => by
      rw [e4, if_neg (by rintro rfl; cases hv), i3 v hv]
    rw [read_point hn, pure_bind]
    refine coords_sim (r := rx) (by rw [i4 _ rfl, keeps_header k2 rfl, e1, e]; simp) (by rw [two_ne nvx ndx]; exact hx) hX hn
      (by rw [e4]; simp) hl.nodup fun y env5 u5 => ?_
    have k5 := upd_keeps u5
    have kn : Known l env5 g y := ⟨fun i hi => by rw [keep_coord k5 (by simp), i4 _ rfl]; exact upd_in u2 hi rfl (by simp [oneHeader]),
      fun i hi => by rw [keep_coord k5 (by simp), i4 _ rfl]; exact upd_in u2 hi rfl (by simp [oneHeader]),
      fun i hi => by rw [keep_coord k5 (by simp), i4 _ rfl]; exact upd_in u2 hi rfl (by simp [oneHeader]),
      fun i hi => upd_in u5 hi rfl (by simp [oneCoord])⟩
    obtain ⟨env6, w6, k6, e6⟩ := weights_det (h := two h rv rd D'.1 D'.2) L O (clear_coord (clear_keep (p := isLoop) (by decide) c2 i4) k5) hl.nodup kn
      (seqs dphiAt l <| .for (nm .k) (rangeOf .nVals) (setVals l <| seqs (setDvals l) l .nil) .nil)
    have i6 : ∀ v, isLoop v = false → env6 (Var.name v) = env2 v.name := fun v hv => by
      rw [k6 v (by cases v with
          | ax f i => cases f <;> first | rfl | cases hv
          | _ => first | rfl | cases hv), keep_coord k5 (by rintro i rfl; cases hv), i4 v hv]
    have n6 : env6 (Var.name .n) = some (.int n) := by
      rw [k6 _ rfl, keeps_coord k5 rfl, e4]; simp
    obtain ⟨env7, u7, e7⟩ := dphi_det (h := two h rv rd D'.1 D'.2) L O (clear_keep (p := isLoop) (by decide) c2 i6) hl.nodup
      (t := fun i => (locate (g i) (y i)).t) (q := fun i => (g i).dinv)
      (fun i hi => by rw [i6 _ rfl]; exact upd_in u2 hi rfl (by simp [oneHeader])) w6.tp
      (.for (nm .k) (rangeOf .nVals) (setVals l <| seqs (setDvals l) l .nil) .nil)
    have k7 := upd_keeps u7
    have i7 : ∀ v, isLoop v = false → env7 (Var.name v) = env2 v.name := fun v hv => by
      rw [keep_basis k7 (by rintro i j rfl; cases hv), i6 v hv]
    have n7 : env7 (Var.name .n) = some (.int n) := by rw [keep_basis k7 (by simp), n6]
    have w7 : Weighed l env7 (fun i => locate (g i) (y i)) := ⟨fun i hi => by rw [keep_basis k7 (by simp)]; exact w6.i i hi,
      fun i hi j => by rw [keep_basis k7 (by simp)]; exact w6.tp i hi j, fun i hi j => by rw [keep_basis k7 (by simp)]; exact w6.phi i hi j⟩
    have d7 : ∀ i ∈ l, ∀ j : Fin 4, env7 (Var.name (.ax2 .dPhi i j)) = some (.flt (dphi (locate (g i) (y i)).t (locate (g i) (y i)).dinv j)) :=
      fun i hi j => upd_in u7 hi rfl (by simp [oneBasis, locate])
    rw [e6, e7, zip_map]
    refine Sim.mono (for_sim L O (clear_keep (p := isLoop) (by decide) c2 i7) (m := m)
      (Inv := fun D' env' h' => (∀ v, v ≠ .k → env' (Var.name v) = env7 v.name) ∧ h' = two h rv rd D'.1 D'.2)
      (by rw [i7 _ rfl, keeps_header k2 rfl, e1]; simp) (fun j hj D' env8 h8 ⟨i8, j8⟩ => ?_) ⟨fun _ _ => rfl, rfl⟩) ?_
    · subst j8
      generalize he9 : env8.set (Var.name .k) _ = env9
      have e9 : ∀ w : Var, env9 w.name = _ := fun w => by rw [← he9, set_name]
      have i9 : ∀ v, v ≠ .k → env9 (Var.name v) = env7 v.name := fun v hv => by
        rw [e9, if_neg hv, i8 v hv]
      have k9 : env9 (Var.name .k) = some (.int j) := by rw [e9]; simp
      have ce : env9 (Var.name .coefs) = some (.arr rc (whole (l.length + 1))) := by
        rw [i9 _ (by simp), i7 _ rfl, keeps_header k2 rfl, e1, e]; simp
      refine set_elem (W := W) (v := .vals) (es := [nm .n] ++ [nm .k]) (zs := [(n : ℤ)] ++ [(j : ℤ)]) (A := D'.1) (r := rv)
        (by rw [i9 _ (by simp), i7 _ rfl, keeps_header k2 rfl, e1, e]; simp; rfl) (by rw [two_b lv ne])
        ((subs_var ((i9 _ (by simp)).trans n7)).append (subs_var k9))
        (value_run (rc := rc) (m := l.length + 1) (w7.mono i9) (by rw [two_ne nv nd]; exact hc) ce (subs_var k9) rfl)
        (fun V' => ?_)
      rw [two_set_b ne]
      have := setDvals_sim (W := W) (V := V') hl (w7.mono i9) (fun i hi j => (i9 _ (by simp)).trans (d7 i hi j)) ce
        (by rw [i9 _ (by simp), i7 _ rfl, keeps_header k2 rfl, e1, e]; simp) ((i9 _ (by simp)).trans n7) k9 hc nv nd ld l D'.2
      have h2 := Sim.bind (f := fun D'' => pure (V', D'')) (g := pure) (R := Next fun D' env' h' => (∀ v, v ≠ .k → env' (Var.name v) = env7 v.name) ∧
        h' = two h rv rd D'.1 D'.2) this (by
          rintro D'' ⟨o, h'⟩ ho
          obtain ⟨rfl, rfl⟩ := Prod.mk.inj ho
          exact ⟨env9, rfl, i9, rfl⟩)
      rw [bind_pure] at h2
      exact h2
    · rintro D' ⟨o, h'⟩ ⟨env', rfl, i', rfl⟩
      exact ⟨env', rfl, fun v hv => (i' v (by rintro rfl; cases hv)).trans (i7 v hv), rfl⟩
  · show h = two h rv rd V D
    rw [two, ← (List.getElem?_eq_some_iff.mp hrv).2, List.set_getElem_self, ← (List.getElem?_eq_some_iff.mp hrd).2, List.set_getElem_self]
  · rintro D' ⟨o, h'⟩ ⟨env', rfl, -, rfl⟩
    exact Or.inr ⟨env', rfl, rfl⟩

end

end Interp.Spec.PySrc.Numba
