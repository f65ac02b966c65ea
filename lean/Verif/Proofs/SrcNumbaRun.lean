import Verif.Proofs.SrcNumbaStages

/-!
# Executing the texts of `eval_cubic_numba.py`: the functions
-/

namespace Interp.Spec.PySrc.Numba
open Interp CubicNumba Codegen

set_option linter.unusedSectionVars false

variable {K : Type}

theorem upd_in {α : Type} {one : Fin 4 → α → Var → Option (Val K)} {l : List (Fin 4)} {g : Fin 4 → α} {env env' : Env K}
    (h : Upd (all one l g) env env') {i : Fin 4} (hi : i ∈ l) {v : Var} (hv : axis v = some i) {x : Val K} (hx : one i (g i) v = some x) :
    env' v.name = some x := by
  rw [h v, all, hv]
  simp [hi, hx]
theorem upd_keeps {α : Type} {one : Fin 4 → α → Var → Option (Val K)} {l : List (Fin 4)} {g : Fin 4 → α} {env env' : Env K}
    (h : Upd (all one l g) env env') : Keeps1 one env env' := by
  intro v hv
  rw [h v, all]
  split
  · simp [hv]
  · simp

/-- The variables of the arguments. -/
def argEnv : List (Var × Val K) → Env K
  | [] => fun _ => none
  | p :: ps => (argEnv ps).set p.1.name p.2

theorem argEnv_nil (w : Var) : argEnv ([] : List (Var × Val K)) w.name = none := rfl
theorem argEnv_cons (p : Var × Val K) (ps : List (Var × Val K)) (w : Var) :
    argEnv (p :: ps) w.name = if w = p.1 then some p.2 else argEnv ps w.name := by rw [argEnv, set_name]

/-- The axes are numbered from 0. -/
def Axes (l : List (Fin 4)) : Prop := l.map (fun i : Fin 4 => (i : ℕ)) = List.range l.length

theorem axes_axesOf (d : ℕ) : Axes (axesOf d) := by
  rcases d with _ | _ | _ | _ | d <;> rfl

theorem Axes.nodup {l : List (Fin 4)} (h : Axes l) : l.Nodup := by
  refine List.Nodup.of_map (fun i : Fin 4 => (i : ℕ)) ?_
  rw [h]
  exact List.nodup_range

theorem Axes.mapM {α : Type} {l : List (Fin 4)} (h : Axes l) (f : ℕ → Py α) :
    (List.range l.length).mapM f = l.mapM fun i : Fin 4 => f i := by
  rw [← h, List.mapM_map]
  rfl

theorem Axes.lt {l : List (Fin 4)} (h : Axes l) {i : Fin 4} (hi : i ∈ l) : (i : ℕ) < l.length := by
  rw [← List.mem_range, ← h]
  exact List.mem_map_of_mem hi

theorem zip_map {α β γ δ : Type} (f : α → β → γ) (g : δ → α) (g' : δ → β) (l : List δ) :
    List.zipWith f (l.map g) (l.map g') = l.map fun i => f (g i) (g' i) := by
  induction l with
  | nil => rfl
  | cons a l ih => simp

variable [Add K] [Sub K] [Mul K] [Div K] [Neg K] [Zero K] [One K] [NatCast K] [IntCast K]
  [LT K] [DecidableLT K] [LE K] [DecidableLE K] [BEq K] [IntFloor K] [Interp.Smolyak.Trig K]

theorem params_run (W : World K) : ∀ ps : List (Var × Val K),
    PySrc.params W (params (ps.map (·.1))) (ps.map (·.2)) = pure (argEnv ps)
  | [] => rfl
  | p :: ps => by
    have := params_run W ps
    simp only [List.map_cons, params, params_cons] at this ⊢
    rw [this]
    rfl

/-- The variables that locating a point and computing the basis functions assign. -/
def isWork : Var → Bool
  | .ax .u _ | .ax .i _ | .ax .t _ | .ax2 _ _ _ => true
  | _ => false

theorem clear_keep {env env' : Env K} {p : Var → Bool} (hp : ∀ v ∈ [Var.int, .floor, .max, .min, .range, .Ad, .dAd], p v = false)
    (c : Clear env) (h : ∀ v, p v = false → env' (Var.name v) = env v.name) : Clear env' := c.mono fun v hv => h v (hp v hv)

theorem keeps_header {env env' : Env K} (h : Keeps1 oneHeader env env') {v : Var} (hv : axis v = none) : env' v.name = env v.name :=
  keep_header h (by intro i; refine ⟨?_, ?_, ?_⟩ <;> (rintro rfl; cases hv))
theorem keeps_coord {env env' : Env K} (h : Keeps1 oneCoord env env') {v : Var} (hv : axis v = none) : env' v.name = env v.name :=
  keep_coord h (fun i => by rintro rfl; cases hv)
theorem clear_header {env env' : Env K} (c : Clear env) (h : Keeps1 oneHeader env env') : Clear env' :=
  c.mono fun v hv => keeps_header h (by
    simp only [List.mem_cons, List.not_mem_nil, or_false] at hv
    rcases hv with rfl | rfl | rfl | rfl | rfl | rfl | rfl <;> rfl)
theorem clear_coord {env env' : Env K} (c : Clear env) (h : Keeps1 oneCoord env env') : Clear env' :=
  c.mono fun v hv => keeps_coord h (by
    simp only [List.mem_cons, List.not_mem_nil, or_false] at hv
    rcases hv with rfl | rfl | rfl | rfl | rfl | rfl | rfl <;> rfl)

/-- The axes have been described and the point is known. -/
structure Known (l : List (Fin 4)) (env : Env K) (g : Fin 4 → Ax K) (x : Fin 4 → K) : Prop where
  M : ∀ i ∈ l, env (Var.name (.ax .M i)) = some (.int (g i).M)
  start : ∀ i ∈ l, env (Var.name (.ax .start i)) = some (.flt (g i).start)
  dinv : ∀ i ∈ l, env (Var.name (.ax .dinv i)) = some (.flt (g i).dinv)
  x : ∀ i ∈ l, env (Var.name (.ax .x i)) = some (.flt (x i))

/-- The cells and the basis functions are known. -/
structure Weighed (l : List (Fin 4)) (env : Env K) (c : Fin 4 → Cell K) : Prop where
  i : ∀ i ∈ l, env (Var.name (.ax .i i)) = some (.int (c i).i)
  tp : ∀ i ∈ l, ∀ j, env (Var.name (.ax2 .tp i j)) = some (.flt (tpOf (c i).t j))
  phi : ∀ i ∈ l, ∀ j, env (Var.name (.ax2 .Phi i j)) = some (.flt (phi (c i).t (j : Fin 4)))

section
variable (L : LitLaws K) {W : World K} (O : Outside W)
include L O

theorem weights_det {env : Env K} (c : Clear env) {h : Heap K} {l : List (Fin 4)} (hl : l.Nodup) {g : Fin 4 → Ax K} {x : Fin 4 → K}
    (k : Known l env g x) (rest : Block) : ∃ env2, Weighed l env2 (fun i => locate (g i) (x i)) ∧
      (∀ v, isWork v = false → env2 (Var.name v) = env v.name) ∧ exec W (weights l rest) env h = exec W rest env2 h := by
  obtain ⟨env1, u1, e1⟩ := locate_det (h := h) O c hl k.M k.start k.dinv k.x (seqs tpAt l (seqs phiAt l rest))
  have k1 := upd_keeps u1
  have c1 : Clear env1 := c.mono fun v hv => keep_cell k1 (by
    simp only [List.mem_cons, List.not_mem_nil, or_false] at hv
    rcases hv with rfl | rfl | rfl | rfl | rfl | rfl | rfl <;> simp)
  have t1 : ∀ i ∈ l, env1 (Var.name (.ax .t i)) = some (.flt (locate (g i) (x i)).t) := fun i hi =>
    upd_in u1 hi rfl (by simp [oneCell])
  obtain ⟨env2, u2, e2⟩ := tp_det (h := h) (W := W) L hl t1 (seqs phiAt l rest)
  have k2 := upd_keeps u2
  have t2 : ∀ i ∈ l, env2 (Var.name (.ax .t i)) = some (.flt (locate (g i) (x i)).t) := fun i hi =>
    (keep_basis k2 (by simp)).trans (t1 i hi)
  have p2 : ∀ i ∈ l, ∀ j, env2 (Var.name (.ax2 .tp i j)) = some (.flt (tpOf (locate (g i) (x i)).t j)) := fun i hi j =>
    upd_in u2 hi rfl (by simp [oneBasis])
  obtain ⟨env3, u3, e3⟩ := phi_det (h := h) L O (clear_basis L O c1 k2) hl t2 p2 rest
  have k3 := upd_keeps u3
  refine ⟨env3, ⟨fun i hi => ?_, fun i hi j => ?_, fun i hi j => ?_⟩, fun v hv => ?_, by rw [weights, e1, e2, e3]⟩
  · rw [keep_basis k3 (by simp), keep_basis k2 (by simp)]
    exact upd_in u1 hi rfl (by simp [oneCell])
  · rw [keep_basis k3 (by simp)]
    exact p2 i hi j
  · exact upd_in u3 hi rfl (by simp [oneBasis])
  · rw [keep_basis k3, keep_basis k2, keep_cell k1]
    · rintro i
      refine ⟨?_, ?_, ?_⟩ <;> · rintro rfl; cases hv
    · rintro i j rfl; cases hv
    · rintro i j rfl; cases hv

end

/-- The value at a point. -/
theorem value_run {W : World K} {env : Env K} {h : Heap K} {rc m : ℕ} {C : NdArray K} {l : List (Fin 4)} {c : Fin 4 → Cell K}
    (w : Weighed l env c) (hC : h[rc]? = some C) (hc : env (Var.name .coefs) = some (.arr rc (whole m))) {tail : List Ex} {tz : List ℤ}
    (ht : Subs W env tail tz) (hm : l.length + tail.length = m) :
    eval W env (contractEx (fun _ => .Phi) tail l []) h = contract C tz (plain (l.map c)) [] >>= fun x => pure (.flt x, h) := by
  rw [contract_run (w := fun _ => .Phi) (z := fun i => (c i).i) (wt := fun i => phi (c i).t) hC hc ht l w.i (fun i hi j => w.phi i hi j) [] [] .nil
    (by simpa using hm), plain, List.map_map]
  rfl

/-- Assignment to an element. -/
theorem set_elem {α : Type} {W : World K} {env : Env K} {h : Heap K} {v : Var} {es : List Ex} {zs : List ℤ} {e : Ex} {rest : Block} {r : ℕ} {A : NdArray K}
    (hv : env v.name = some (.arr r (whole zs.length))) (hr : h[r]? = some A) (hs : Subs W env es zs) {x : Py K}
    (he : eval W env e h = x >>= fun y => pure (.flt y, h)) {f : NdArray K → Py α} {Q : α → Out K × Heap K → Prop}
    (hrest : ∀ A', Sim (f A') (exec W rest env (h.set r A')) Q) :
    Sim (x >>= fun y => A.write zs y >>= f) (exec W (.simple (.assign (.index (nm v) (args es)) e) rest) env h) Q := by
  rw [exec_assign, step' he]
  refine Sim.bind_same fun y => ?_
  simp only [assign_index, nm_of hv, pure_bind_M, hs.run, assignItem_arr, put_whole, bind_assoc_M]
  rw [step' (wrElem_run hr zs y)]
  exact Sim.bind_same fun A' => hrest A'

theorem sim_last {α δ : Type} {x : Py α} {g : α → Py δ} {R : α → δ → Prop} (h : ∀ a, Sim (pure a) (g a) R) : Sim x (x >>= g) R := by
  rcases x with e | a
  · rfl
  · exact h a

theorem run_sim {α : Type} {W : World K} {F : FunDef} {vs : List (Val K)} {env : Env K} {h : Heap K} {x : Py α}
    {Q : α → Val K × Heap K → Prop} (hp : PySrc.params W F.params vs = pure env)
    (hb : Sim x (exec W F.body env h) fun a o => (∃ v, o.1 = .ret v ∧ Q a (v, o.2)) ∨ (∃ env', o.1 = .next env' ∧ Q a (.none, o.2))) :
    Sim x (runFun W F vs h) Q := by
  rw [runFun, hp, pure_bind_M, bind_run]
  rw [← bind_pure x]
  refine Sim.bind hb fun a o ho => ?_
  rcases o with ⟨o, h'⟩
  rcases ho with ⟨v, rfl, hQ⟩ | ⟨env', rfl, hQ⟩
  · exact hQ
  · exact hQ

section
variable (L : LitLaws K) {W : World K} (O : Outside W)
include L O

/-- `eval_cubic_spline_d`. -/
theorem evalSpline_run {l : List (Fin 4)} (hl : Axes l) (s : String) {h : Heap K} {ra rb rc rx : ℕ} {A B C X : NdArray K} {a b x : List K}
    {orders : List ℤ} (ha : h[ra]? = some A) (hA : IsVec A a) (hb : h[rb]? = some B) (hB : IsVec B b) (hc : h[rc]? = some C)
    (hx : h[rx]? = some X) (hX : IsVec X x) (ho : l.length ≤ orders.length) :
    Sim (evalSplineD l.length a b orders C x)
      (runFun W (evalSplineFun s l) [.arr ra [none], .arr rb [none], .ints orders, .arr rc (whole l.length), .arr rx [none]] h)
      fun v o => o = (.flt v, h) := by
  refine run_sim (params_run W [(.a, .arr ra [none]), (.b, .arr rb [none]), (.orders, .ints orders), (.coefs, .arr rc (whole l.length)),
    (.point, .arr rx [none])]) ?_
  generalize he : argEnv _ = env
  have e : ∀ w : Var, env w.name = _ := fun w => by rw [← he]
  simp only [argEnv_cons, argEnv_nil] at e
  have c : Clear env := ⟨by rw [e]; simp, by rw [e]; simp, by rw [e]; simp, by rw [e]; simp, by rw [e]; simp, by rw [e]; simp, by rw [e]; simp⟩
  have G : GridArgs env h a b orders := ⟨by rw [e]; simp, ⟨ra, A, by rw [e]; simp, ha, hA⟩, ⟨rb, B, by rw [e]; simp, hb, hB⟩⟩
  simp only [evalSplineD, header, coords, hl.mapM]
  refine header_sim L G hl.nodup (fun i hi => (hl.lt hi).trans_le ho) fun g env1 u1 => ?_
  have k1 := upd_keeps u1
  refine coord_sim (r := rx) (by rw [keeps_header k1 rfl, e]; simp) hx hX hl.nodup fun y env2 u2 => ?_
  have k2 := upd_keeps u2
  have kn : Known l env2 g y := ⟨fun i hi => by rw [keep_coord k2 (by simp)]; exact upd_in u1 hi rfl (by simp [oneHeader]),
    fun i hi => by rw [keep_coord k2 (by simp)]; exact upd_in u1 hi rfl (by simp [oneHeader]),
    fun i hi => by rw [keep_coord k2 (by simp)]; exact upd_in u1 hi rfl (by simp [oneHeader]), fun i hi => upd_in u2 hi rfl (by simp [oneCoord])⟩
  obtain ⟨env3, w3, k3, e3⟩ := weights_det (h := h) L O (clear_coord (clear_header c k1) k2) hl.nodup kn
    (asg .t (contractEx (fun _ => .Phi) [] l []) (.simple (.ret (some (nm .t))) .nil))
  have hce : env3 (Var.name .coefs) = some (.arr rc (whole l.length)) := by
    rw [k3 _ rfl, keeps_coord k2 rfl, keeps_header k1 rfl, e]; simp
  rw [e3, exec_asg, step' (value_run w3 hc hce .nil (by simp)), zip_map]
  refine sim_last fun v => ?_
  rw [exec_ret, nm_of (by rw [set_name, if_pos rfl]), pure_bind_M]
  exact Or.inl ⟨_, rfl, rfl⟩


/-! ### Loops -/

theorem for_sim {S : Type} {env : Env K} (c : Clear env) {h : Heap K} {v N : Var} {m : ℕ} (hN : env N.name = some (.int m)) {body : Block}
    {f : ℕ → S → Py S} {Inv : S → Env K → Heap K → Prop} {s : S}
    (hpass : ∀ n, n < m → ∀ s env h, Inv s env h → Sim (f n s) (exec W body (env.set v.name (.int n)) h) (Next Inv)) (h0 : Inv s env h) :
    Sim (pyFor (List.range m) f s) (exec W (.for (nm v) (rangeOf N) body .nil) env h) (Next Inv) := by
  rw [exec_for, range_run O c hN, pure_bind_M, iterate_ints, pure_bind_M, bind_run]
  refine Sim.bind_right (forLoop_sim (toVal := fun n : ℕ => (.int (n : ℤ) : Val K)) (Inv := Inv) (fun n hn s env h hI => ?_) h0) ?_
  · rw [nm, assign_name, pure_bind_M]
    exact hpass n (List.mem_range.mp hn) s env h hI
  · rintro s' ⟨o, h'⟩ ⟨env', rfl, hI⟩
    exact ⟨env', rfl, hI⟩

omit L O in
theorem shape_at {env : Env K} {h : Heap K} {v : Var} {r i : ℕ} {A : NdArray K} (hv : env v.name = some (.arr r (whole A.shape.length)))
    (hr : h[r]? = some A) (hi : i < A.shape.length) : eval W env (shapeAt v i) h = pure (.int (A.shape.getD i 0), h) := by
  rw [shapeAt, eval_index, eval_attr, nm_of hv, pure_bind_M, step (shape_run hr), viewShape_whole', subs_int, subs_nil]
  simp only [pure_bind_M]
  rw [item_tup_of (j := i) (v := .int (A.shape.getD i 0))]
  · rfl
  · simp [wrapIndex, hi]
  · simp [hi]

omit L O in
theorem Weighed.mono {l : List (Fin 4)} {env env' : Env K} {c : Fin 4 → Cell K} (w : Weighed l env c)
    (h : ∀ v, v ≠ .k → env' (Var.name v) = env v.name) : Weighed l env' c :=
  ⟨fun i hi => (h _ (by simp)).trans (w.i i hi), fun i hi j => (h _ (by simp)).trans (w.tp i hi j),
    fun i hi j => (h _ (by simp)).trans (w.phi i hi j)⟩

omit L O in
theorem subs_lit {env : Env K} (j : ℕ) : Subs W env [.int j] [(j : ℤ)] := .cons (fun r => by rw [subs_int]) .nil

omit L O in
theorem read_point {pts : List (List K)} {n : ℕ} (hn : n < pts.length) : listRead pts ((n : ℕ) : ℤ) = pure pts[n] := by
  simp [listRead, wrapIndex, hn]

/-- The variables that a loop over the points assigns. -/
def isLoop : Var → Bool
  | .ax .x _ | .n | .k => true
  | v => isWork v
/-- The same if the axes are described within the loop. -/
def isLoop' : Var → Bool
  | .ax _ _ => true
  | v => isLoop v

omit L O in
theorem clear_loop {env env' : Env K} (c : Clear env) (h : ∀ v, isLoop' v = false → env' (Var.name v) = env v.name) : Clear env' :=
  clear_keep (p := isLoop') (by decide) c h

/-- `vec_eval_cubic_spline_d`. -/
theorem vecEvalSpline_run {l : List (Fin 4)} (hl : Axes l) (s : String) {h : Heap K} {ra rb rc rx ro k : ℕ} {A B C X D : NdArray K} {a b : List K}
    {pts : List (List K)} {orders : List ℤ} (ha : h[ra]? = some A) (hA : IsVec A a) (hb : h[rb]? = some B) (hB : IsVec B b) (hc : h[rc]? = some C)
    (hx : h[rx]? = some X) (hX : IsMat X k pts) (ho : l.length ≤ orders.length) (hr : h[ro]? = some D)
    (na : ro ≠ ra) (nb : ro ≠ rb) (nc : ro ≠ rc) (nx : ro ≠ rx) :
    Sim (vecEvalSplineD l.length a b orders C pts D)
      (runFun W (vecEvalSplineFun s l) [.arr ra [none], .arr rb [none], .ints orders, .arr rc (whole l.length), .arr rx [none, none], .arr ro [none]] h)
      fun D' o => o = (.none, h.set ro D') := by
  refine run_sim (params_run W [(.a, .arr ra [none]), (.b, .arr rb [none]), (.orders, .ints orders), (.coefs, .arr rc (whole l.length)),
    (.points, .arr rx [none, none]), (.out, .arr ro [none])]) ?_
  generalize he : argEnv _ = env
  have e : ∀ w : Var, env w.name = _ := fun w => by rw [← he]
  simp only [argEnv_cons, argEnv_nil] at e
  have c : Clear env := ⟨by rw [e]; simp, by rw [e]; simp, by rw [e]; simp, by rw [e]; simp, by rw [e]; simp, by rw [e]; simp, by rw [e]; simp⟩
  show Sim _ (exec W (vecEvalSplineBody l) env h) _
  rw [vecEvalSplineBody, exec_asg, step (shape_at (A := A) (r := ra) (by rw [e, hA.1]; simp; rfl) ha (by rw [hA.1]; simp)), exec_asg,
    step (shape_at (A := X) (r := rx) (by rw [set_name, e, hX.1]; simp; rfl) hx (by rw [hX.1]; simp))]
  have hN : (X.shape.getD 0 0) = pts.length := by rw [hX.1]; rfl
  rw [hN]
  generalize he1 : Env.set _ (Var.name .N) _ = env1
  have e1 : ∀ w : Var, env1 w.name = _ := fun w => by rw [← he1, set_name, set_name]
  have c1 : Clear env1 := c.mono fun v hv => by
    simp only [List.mem_cons, List.not_mem_nil, or_false] at hv
    rcases hv with rfl | rfl | rfl | rfl | rfl | rfl | rfl <;> rw [e1] <;> simp
  rw [vecEvalSplineD]
  have hlen := (List.getElem?_eq_some_iff.mp hr).1
  refine Sim.mono (for_sim L O c1 (m := pts.length) (Inv := fun D' env' h' => (∀ v, isLoop' v = false → env' (Var.name v) = env1 v.name) ∧ h' = h.set ro D')
    (by rw [e1]; simp) (fun n hn D' env2 h2 ⟨i2, j2⟩ => ?_) ⟨fun _ _ => rfl, ?_⟩) ?_
  · subst j2
    have gr : ∀ r, ro ≠ r → (h.set ro D')[r]? = h[r]? := fun r hr => by rw [List.getElem?_set_ne hr]
    generalize he3 : env2.set (Var.name .n) _ = env3
    have e3 : ∀ w : Var, env3 w.name = _ := fun w => by rw [← he3, set_name]
    have i3 : ∀ v, isLoop' v = false → env3 (Var.name v) = env1 v.name := fun v hv => by
      rw [e3, if_neg (by rintro rfl; cases hv), i2 v hv]
    rw [read_point hn, pure_bind]
    simp only [header, coords, hl.mapM]
    refine coords_sim (r := rx) (by rw [i3 _ rfl, e1, e]; simp) (by rw [gr _ nx]; exact hx) hX hn (by rw [e3]; simp) hl.nodup fun y env4 u4 => ?_
    have k4 := upd_keeps u4
    refine header_sim L (a := a) (b := b) ⟨?_, ⟨ra, A, ?_, by rw [gr _ na]; exact ha, hA⟩, ⟨rb, B, ?_, by rw [gr _ nb]; exact hb, hB⟩⟩ hl.nodup
      (fun i hi => (hl.lt hi).trans_le ho) fun g env5 u5 => ?_
    · rw [keeps_coord k4 rfl, i3 _ rfl, e1, e]; simp
    · rw [keeps_coord k4 rfl, i3 _ rfl, e1, e]; simp
    · rw [keeps_coord k4 rfl, i3 _ rfl, e1, e]; simp
    have k5 := upd_keeps u5
    have kn : Known l env5 g y := ⟨fun i hi => upd_in u5 hi rfl (by simp [oneHeader]), fun i hi => upd_in u5 hi rfl (by simp [oneHeader]),
      fun i hi => upd_in u5 hi rfl (by simp [oneHeader]), fun i hi => by rw [keep_header k5 (by simp)]; exact upd_in u4 hi rfl (by simp [oneCoord])⟩
    obtain ⟨env6, w6, k6, e6⟩ := weights_det (h := h.set ro D') L O (clear_header (clear_coord (clear_loop c1 i3) k4) k5) hl.nodup kn
      (.simple (.assign (.index (nm .out) (.cons (nm .n) .nil)) (contractEx (fun _ => .Phi) [] l [])) .nil)
    have i6 : ∀ v, isLoop' v = false → env6 (Var.name v) = env1 v.name := fun v hv => by
      rw [k6 v (by cases v <;> first | rfl | cases hv), keep_header k5 (by intro i; refine ⟨?_, ?_, ?_⟩ <;> (rintro rfl; cases hv)),
        keep_coord k4 (by rintro i rfl; cases hv), i3 v hv]
    have n6 : env6 (Var.name .n) = some (.int n) := by
      rw [k6 _ rfl, keeps_header k5 rfl, keeps_coord k4 rfl, e3]; simp
    rw [e6, zip_map]
    have := set_elem (W := W) (v := .out) (es := [nm .n]) (zs := [(n : ℤ)]) (rest := .nil) (A := D') (r := ro) (f := pure)
      (Q := Next fun D' env' h' => (∀ v, isLoop' v = false → env' (Var.name v) = env1 v.name) ∧ h' = h.set ro D')
      (by rw [i6 _ rfl, e1, e]; simp; rfl) (by rw [List.getElem?_set_self hlen]) (subs_var n6)
      (value_run (rc := rc) (m := l.length) w6 (by rw [gr _ nc]; exact hc) (by rw [i6 _ rfl, e1, e]; simp) .nil (by simp)) (fun D'' => by
        rw [exec_nil, List.set_set]
        exact ⟨env6, rfl, i6, rfl⟩)
    simp only [bind_pure] at this
    exact this
  · exact (List.set_getElem_self hlen).symm.trans (by rw [(List.getElem?_eq_some_iff.mp hr).2])
  · rintro D' ⟨o, h'⟩ ⟨env', rfl, -, rfl⟩
    exact Or.inr ⟨env', rfl, rfl⟩

/-- `eval_cubic_splines_d`. -/
theorem evalSplines_run {l : List (Fin 4)} (hl : Axes l) (s : String) {h : Heap K} {ra rb rc rx ro : ℕ} {A B C X D : NdArray K} {a b x : List K}
    {orders : List ℤ} (ha : h[ra]? = some A) (hA : IsVec A a) (hb : h[rb]? = some B) (hB : IsVec B b) (hc : h[rc]? = some C)
    (hC : C.shape.length = l.length + 1)
    (hx : h[rx]? = some X) (hX : IsVec X x) (ho : l.length ≤ orders.length) (hr : h[ro]? = some D) (nc : ro ≠ rc) :
    Sim (evalSplinesD l.length a b orders C x D)
      (runFun W (evalSplinesFun s l) [.arr ra [none], .arr rb [none], .ints orders, .arr rc (whole (l.length + 1)), .arr rx [none], .arr ro [none]] h)
      fun D' o => o = (.none, h.set ro D') := by
  refine run_sim (params_run W [(.a, .arr ra [none]), (.b, .arr rb [none]), (.orders, .ints orders), (.coefs, .arr rc (whole (l.length + 1))),
    (.point, .arr rx [none]), (.vals, .arr ro [none])]) ?_
  generalize he : argEnv _ = env
  have e : ∀ w : Var, env w.name = _ := fun w => by rw [← he]
  simp only [argEnv_cons, argEnv_nil] at e
  have c : Clear env := ⟨by rw [e]; simp, by rw [e]; simp, by rw [e]; simp, by rw [e]; simp, by rw [e]; simp, by rw [e]; simp, by rw [e]; simp⟩
  show Sim _ (exec W (evalSplinesBody l) env h) _
  rw [evalSplinesBody, exec_asg, step (shape_at (A := C) (r := rc) (by rw [e, hC]; simp) hc (by omega))]
  simp only [evalSplinesD, nVals, if_pos hC, header, coords, hl.mapM, pure_bind]
  generalize hm : C.shape.getD l.length 0 = m
  generalize he1 : Env.set _ (Var.name .nVals) _ = env1
  have e1 : ∀ w : Var, env1 w.name = _ := fun w => by rw [← he1, set_name]
  have c1 : Clear env1 := c.mono fun v hv => by
    simp only [List.mem_cons, List.not_mem_nil, or_false] at hv
    rcases hv with rfl | rfl | rfl | rfl | rfl | rfl | rfl <;> rw [e1] <;> simp
  have G : GridArgs env1 h a b orders := ⟨by rw [e1, e]; simp, ⟨ra, A, by rw [e1, e]; simp, ha, hA⟩, ⟨rb, B, by rw [e1, e]; simp, hb, hB⟩⟩
  refine header_sim L G hl.nodup (fun i hi => (hl.lt hi).trans_le ho) fun g env2 u2 => ?_
  have k2 := upd_keeps u2
  refine coord_sim (r := rx) (by rw [keeps_header k2 rfl, e1, e]; simp) hx hX hl.nodup fun y env3 u3 => ?_
  have k3 := upd_keeps u3
  have kn : Known l env3 g y := ⟨fun i hi => by rw [keep_coord k3 (by simp)]; exact upd_in u2 hi rfl (by simp [oneHeader]),
    fun i hi => by rw [keep_coord k3 (by simp)]; exact upd_in u2 hi rfl (by simp [oneHeader]),
    fun i hi => by rw [keep_coord k3 (by simp)]; exact upd_in u2 hi rfl (by simp [oneHeader]), fun i hi => upd_in u3 hi rfl (by simp [oneCoord])⟩
  obtain ⟨env4, w4, k4, e4⟩ := weights_det (h := h) L O (clear_coord (clear_header c1 k2) k3) hl.nodup kn
    (.for (nm .k) (rangeOf .nVals) (.simple (.assign (.index (nm .vals) (.cons (nm .k) .nil)) (value l)) .nil) .nil)
  have i4 : ∀ v, isLoop' v = false → env4 (Var.name v) = env1 v.name := fun v hv => by
    rw [k4 v (by cases v <;> first | rfl | cases hv), keep_coord k3 (by rintro i rfl; cases hv),
      keep_header k2 (by intro i; refine ⟨?_, ?_, ?_⟩ <;> (rintro rfl; cases hv))]
  have hlen := (List.getElem?_eq_some_iff.mp hr).1
  rw [e4, zip_map]
  refine Sim.mono (for_sim L O (clear_loop c1 i4) (m := m)
    (Inv := fun D' env' h' => (∀ v, v ≠ .k → env' (Var.name v) = env4 v.name) ∧ h' = h.set ro D')
    (by rw [i4 _ rfl, e1]; simp) (fun n hn D' env5 h5 ⟨i5, j5⟩ => ?_) ⟨fun _ _ => rfl, ?_⟩) ?_
  · subst j5
    generalize he6 : env5.set (Var.name .k) _ = env6
    have e6 : ∀ w : Var, env6 w.name = _ := fun w => by rw [← he6, set_name]
    have i6 : ∀ v, v ≠ .k → env6 (Var.name v) = env4 v.name := fun v hv => by
      rw [e6, if_neg hv, i5 v hv]
    have k6 : env6 (Var.name .k) = some (.int n) := by rw [e6]; simp
    have := set_elem (W := W) (v := .vals) (es := [nm .k]) (zs := [(n : ℤ)]) (rest := .nil) (A := D') (r := ro) (f := pure)
      (Q := Next fun D' env' h' => (∀ v, v ≠ .k → env' (Var.name v) = env4 v.name) ∧ h' = h.set ro D')
      (by rw [i6 _ (by simp), i4 _ rfl, e1, e]; simp; rfl) (by rw [List.getElem?_set_self hlen]) (subs_var k6)
      (value_run (rc := rc) (m := l.length + 1) (w4.mono i6) (by rw [List.getElem?_set_ne nc]; exact hc) (by rw [i6 _ (by simp), i4 _ rfl, e1, e]; simp) (subs_var k6) rfl)
      (fun D'' => by
        rw [exec_nil, List.set_set]
        exact ⟨env6, rfl, i6, rfl⟩)
    simp only [bind_pure] at this
    exact this
  · exact (List.set_getElem_self hlen).symm.trans (by rw [(List.getElem?_eq_some_iff.mp hr).2])
  · rintro D' ⟨o, h'⟩ ⟨env', rfl, -, rfl⟩
    exact Or.inr ⟨env', rfl, rfl⟩

end

end Interp.Spec.PySrc.Numba
