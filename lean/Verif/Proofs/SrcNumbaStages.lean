import Verif.Proofs.SrcNumba

/-!
# Executing the texts of `eval_cubic_numba.py`: the parts of the functions
-/

namespace Interp.Spec.PySrc.Numba
open Interp CubicNumba Codegen

set_option linter.unusedSectionVars false

variable {K : Type}

/-! ### What the parts assign -/

def oneHeader (i : Fin 4) (a : Ax K) : Var → Option (Val K)
  | .ax f j => if j = i then match f with
      | .M => some (.int a.M)
      | .start => some (.flt a.start)
      | .dinv => some (.flt a.dinv)
      | _ => none
    else none
  | _ => none

def oneCoord (i : Fin 4) (x : K) : Var → Option (Val K)
  | .ax f j => if j = i then match f with
      | .x => some (.flt x)
      | _ => none
    else none
  | _ => none

def oneCell (i : Fin 4) (p : K × Cell K) : Var → Option (Val K)
  | .ax f j => if j = i then match f with
      | .u => some (.flt p.1)
      | .i => some (.int p.2.i)
      | .t => some (.flt p.2.t)
      | _ => none
    else none
  | _ => none

def oneBasis (F : Fam2) (i : Fin 4) (w : Fin 4 → K) : Var → Option (Val K)
  | .ax2 f k j => if k = i ∧ f = F then some (.flt (w j)) else none
  | _ => none

theorem ofAxis_header : OfAxis (K := K) oneHeader := by
  intro i a v h
  cases v <;> simp_all [axis, oneHeader]
theorem ofAxis_coord : OfAxis (K := K) oneCoord := by
  intro i a v h
  cases v <;> simp_all [axis, oneCoord]
theorem ofAxis_cell : OfAxis (K := K) oneCell := by
  intro i a v h
  cases v <;> simp_all [axis, oneCell]
theorem ofAxis_basis (F : Fam2) : OfAxis (K := K) (oneBasis F) := by
  intro i a v h
  cases v <;> simp_all [axis, oneBasis]

theorem upd_header (env : Env K) (i : Fin 4) (a : Ax K) : Upd (oneHeader i a) env
    (((env.set (Var.name (.ax .M i)) (.int a.M)).set (Var.name (.ax .start i)) (.flt a.start)).set (Var.name (.ax .dinv i)) (.flt a.dinv)) := by
  intro v
  simp only [set_name]
  cases v with
  | ax f j => by_cases hj : j = i <;> cases f <;> simp [oneHeader, hj]
  | _ => simp [oneHeader]
theorem upd_coord (env : Env K) (i : Fin 4) (x : K) : Upd (oneCoord i x) env (env.set (Var.name (.ax .x i)) (.flt x)) := by
  intro v
  simp only [set_name]
  cases v with
  | ax f j => by_cases hj : j = i <;> cases f <;> simp [oneCoord, hj]
  | _ => simp [oneCoord]
theorem upd_cell (env : Env K) (i : Fin 4) (u : K) (z : Val K) (c : Cell K) : Upd (oneCell i (u, c)) env
    ((((env.set (Var.name (.ax .u i)) (.flt u)).set (Var.name (.ax .i i)) z).set (Var.name (.ax .i i)) (.int c.i)).set
      (Var.name (.ax .t i)) (.flt c.t)) := by
  intro v
  simp only [set_name]
  cases v with
  | ax f j => by_cases hj : j = i <;> cases f <;> simp [oneCell, hj]
  | _ => simp [oneCell]
theorem upd_basis {F : Fam2} {env : Env K} {i : Fin 4} {w : Fin 4 → K} {x0 x1 x2 x3 : K} (h0 : x0 = w 0) (h1 : x1 = w 1)
    (h2 : x2 = w 2) (h3 : x3 = w 3) : Upd (oneBasis F i w) env
    ((((env.set (Var.name (.ax2 F i 0)) (.flt x0)).set (Var.name (.ax2 F i 1)) (.flt x1)).set (Var.name (.ax2 F i 2)) (.flt x2)).set
      (Var.name (.ax2 F i 3)) (.flt x3)) := by
  subst h0 h1 h2 h3
  intro v
  simp only [set_name]
  cases v with
  | ax2 f k j => by_cases hk : k = i <;> by_cases hf : f = F <;> fin_cases j <;> simp [oneBasis, hk, hf]
  | _ => simp [oneBasis]

theorem keep_header {env env' : Env K} (h : Keeps1 oneHeader env env') {v : Var}
    (hv : ∀ i, v ≠ .ax .M i ∧ v ≠ .ax .start i ∧ v ≠ .ax .dinv i) : env' v.name = env v.name := by
  refine h v fun i a => ?_
  cases v with
  | ax f j => cases f <;> simp_all [oneHeader]
  | _ => rfl
theorem keep_coord {env env' : Env K} (h : Keeps1 oneCoord env env') {v : Var} (hv : ∀ i, v ≠ .ax .x i) : env' v.name = env v.name := by
  refine h v fun i a => ?_
  cases v with
  | ax f j => cases f <;> simp_all [oneCoord]
  | _ => rfl
theorem keep_cell {env env' : Env K} (h : Keeps1 oneCell env env') {v : Var}
    (hv : ∀ i, v ≠ .ax .u i ∧ v ≠ .ax .i i ∧ v ≠ .ax .t i) : env' v.name = env v.name := by
  refine h v fun i a => ?_
  cases v with
  | ax f j => cases f <;> simp_all [oneCell]
  | _ => rfl
theorem keep_basis {F : Fam2} {env env' : Env K} (h : Keeps1 (oneBasis F) env env') {v : Var} (hv : ∀ i j, v ≠ .ax2 F i j) :
    env' v.name = env v.name := by
  refine h v fun i a => ?_
  cases v with
  | ax2 f k j => simp only [oneBasis]; rw [if_neg]; rintro ⟨rfl, rfl⟩; exact hv _ _ rfl
  | _ => rfl

variable [Add K] [Sub K] [Mul K] [Div K] [Neg K] [Zero K] [One K] [NatCast K] [IntCast K]
  [LT K] [DecidableLT K] [LE K] [DecidableLE K] [BEq K] [IntFloor K] [Interp.Smolyak.Trig K]

/-! ### Reading elements -/

theorem refine_whole (zs : List ℤ) : refine (whole zs.length) (zs.map .at) = some (zs.map some) := by
  induction zs with
  | nil => rfl
  | cons z zs ih =>
    have : refine (none :: whole zs.length) (.at z :: zs.map .at) = some (some z :: zs.map some) := by rw [refine, ih]; rfl
    simpa [whole, List.replicate_succ] using this
theorem complete_some (zs : List ℤ) : complete (zs.map some) = some zs := by
  induction zs with
  | nil => rfl
  | cons z zs ih => simp [complete, ih]
theorem expand_at (n : ℕ) (zs : List ℤ) : expand n (zs.map .at) = zs.map .at := by
  induction zs generalizing n with
  | nil => rfl
  | cons z zs ih => simp [expand, ih]
theorem item_whole (r : ℕ) (zs : List ℤ) : item (.arr r (whole zs.length) : Val K) (zs.map .at) = rdElem r zs :=
  item_arr (by rw [expand_at, refine_whole]) (complete_some zs)
theorem put_whole (r : ℕ) (zs : List ℤ) (x : K) : putItem (.arr r (whole zs.length) : Val K) (zs.map .at) (.flt x) = wrElem r zs x :=
  putItem_arr (by rw [expand_at, refine_whole]) (complete_some zs)

/-! ### The grid -/

theorem ints_at {W : World K} {env : Env K} {v : Var} {zs : List ℤ} (hv : env v.name = some (.ints zs)) {i : ℕ} {z : ℤ}
    (hz : listRead zs i = .ok z) : eval W env (at1 v i) = pure (.int z) := by
  rw [at1, eval_index, nm_of hv, pure_bind_M, subs_int, subs_nil]
  simp only [pure_bind_M, item, nth]
  unfold listRead at hz
  rcases hw : wrapIndex zs.length (i : ℤ) with _ | j
  · rw [hw] at hz; cases hz
  · rw [hw] at hz
    simp only at hz ⊢
    rcases hj : zs[j]? with _ | y
    · rw [hj] at hz; cases hz
    · rw [hj] at hz
      cases hz
      rfl

theorem vec_at {W : World K} {env : Env K} {h : Heap K} {v : Var} {r : ℕ} {A : NdArray K} {a : List K}
    (hv : env v.name = some (.arr r [none])) (hr : h[r]? = some A) (hA : IsVec A a) (i : ℕ) :
    eval W env (at1 v i) h = listRead a i >>= fun x => pure (.flt x, h) := by
  rw [at1, eval_index, nm_of hv, pure_bind_M, subs_int, subs_nil, pure_bind_M, pure_bind_M, item_vec, rdElem_run hr, hA.read]

/-- The part of `header` for one axis. -/
def headerOne (a b : List K) (orders : List ℤ) (i : ℕ) : Py (Ax K) := do
  let n ← listRead orders i
  let s ← listRead a i
  let e ← listRead b i
  let dinv ← pyDiv ((n : K) - 1) (e - s)
  pure ⟨n, s, dinv⟩

/-- The arguments that describe the grid. -/
structure GridArgs (env : Env K) (h : Heap K) (a b : List K) (orders : List ℤ) : Prop where
  orders : env (Var.name .orders) = some (.ints orders)
  a : ∃ r A, env (Var.name .a) = some (.arr r [none]) ∧ h[r]? = some A ∧ IsVec A a
  b : ∃ r A, env (Var.name .b) = some (.arr r [none]) ∧ h[r]? = some A ∧ IsVec A b

theorem header_one (L : LitLaws K) {β : Type} {W : World K} {env : Env K} {h : Heap K} {a b : List K} {orders : List ℤ}
    (G : GridArgs env h a b orders) {i : Fin 4} (hi : (i : ℕ) < orders.length) {rest : Block} {f : Ax K → Py β}
    {Q : β → Out K × Heap K → Prop} (hr : ∀ x env2, Upd (oneHeader i x) env env2 → Sim (f x) (exec W rest env2 h) Q) :
    Sim (headerOne a b orders i >>= f) (exec W (headerAt i rest) env h) Q := by
  obtain ⟨ra, A, ha, hra, hA⟩ := G.a
  obtain ⟨rb, B, hb, hrb, hB⟩ := G.b
  have ho : listRead orders ((i : ℕ) : ℤ) = .ok orders[(i : ℕ)] := by
    simp [listRead, wrapIndex, hi]
  have d1 := decimal_one L
  simp only [headerOne, ho, ok_bind_py, bind_assoc, headerAt, exec_asg]
  rw [ints_at G.orders ho, pure_bind_M, bind_run, vec_at (by rw [set_name, if_neg (by simp)]; exact ha) hra hA, bind_assoc]
  rcases hsa : listRead a ((i : ℕ) : ℤ) with e | s
  · rfl
  simp only [ok_bind_py, pure_bind, eval_bin, sub]
  rw [ints_at (by rw [set_name, if_neg (by simp), set_name, if_neg (by simp)]; exact G.orders) ho]
  simp only [bind_assoc_M, pure_bind_M, eval_float, bin_if, arith_if, flt_sub, lift_pure, d1]
  rw [bind_run, vec_at (by rw [set_name, if_neg (by simp), set_name, if_neg (by simp)]; exact hb) hrb hB, bind_assoc]
  rcases hsb : listRead b ((i : ℕ) : ℤ) with e | t
  · rfl
  simp only [ok_bind_py, pure_bind]
  rw [bind_run, vec_at (by rw [set_name, if_neg (by simp), set_name, if_neg (by simp)]; exact ha) hra hA, bind_assoc, hsa]
  simp only [ok_bind_py, pure_bind, bin_ff, arith_ff, flt_sub, flt_div, lift_pure, pure_bind_M]
  rcases hd : pyDiv (((orders[(i : ℕ)] : ℤ) : K) - 1) (t - s) with e | q
  · rfl
  exact hr ⟨orders[(i : ℕ)], s, q⟩ _ (upd_header env i _)

theorem header_sim (L : LitLaws K) {β : Type} {W : World K} {env : Env K} {h : Heap K} {a b : List K} {orders : List ℤ}
    (G : GridArgs env h a b orders) {l : List (Fin 4)} (hl : l.Nodup) (ho : ∀ i ∈ l, (i : ℕ) < orders.length) {rest : Block}
    {f : List (Ax K) → Py β} {Q : β → Out K × Heap K → Prop}
    (hr : ∀ g env2, Upd (all oneHeader l g) env env2 → Sim (f (l.map g)) (exec W rest env2 h) Q) :
    Sim (l.mapM (fun i : Fin 4 => headerOne a b orders (i : ℕ)) >>= f) (exec W (seqs headerAt l rest) env h) Q := by
  haveI : Nonempty (Ax K) := ⟨⟨0, 0, 0⟩⟩
  refine seqs_sim ofAxis_header hl (fun i hi env1 rest f hk hr => ?_) hr
  refine header_one L ⟨?_, ?_, ?_⟩ (ho i hi) hr
  · rw [keep_header hk (by simp)]; exact G.orders
  · rw [keep_header hk (by simp)]; exact G.a
  · rw [keep_header hk (by simp)]; exact G.b

/-! ### The point -/

theorem coord_sim {β : Type} {W : World K} {env : Env K} {h : Heap K} {r : ℕ} {X : NdArray K} {x : List K}
    (hx : env (Var.name .point) = some (.arr r [none])) (hr : h[r]? = some X) (hX : IsVec X x) {l : List (Fin 4)} (hl : l.Nodup)
    {rest : Block} {f : List K → Py β} {Q : β → Out K × Heap K → Prop}
    (hrest : ∀ g env2, Upd (all oneCoord l g) env env2 → Sim (f (l.map g)) (exec W rest env2 h) Q) :
    Sim (l.mapM (fun i : Fin 4 => listRead x ((i : ℕ) : ℤ)) >>= f) (exec W (seqs coordAt l rest) env h) Q := by
  haveI : Nonempty K := ⟨0⟩
  refine seqs_sim ofAxis_coord hl (fun i hi env1 rest f hk hr' => ?_) hrest
  rw [coordAt, exec_asg, bind_run, vec_at (by rw [keep_coord hk (by simp)]; exact hx) hr hX, bind_assoc]
  refine Sim.bind_same fun y => ?_
  exact hr' y _ (upd_coord env1 i y)

theorem mat_read {A : NdArray K} {c : ℕ} {rows : List (List K)} (hA : IsMat A c rows) {n : ℕ} (hn : n < rows.length) (z : ℤ) :
    A.read [(n : ℤ), z] = listRead rows[n] z := by
  have h := hA.2 n hn
  have hw : wrapIndex rows.length (n : ℤ) = some n := by simp [wrapIndex, hn]
  unfold NdArray.read listRead
  rw [hA.1]
  simp only [wrapIndices, hw, h.1]
  rcases hz : wrapIndex c z with _ | j
  · rfl
  · have hj : j < c := by
      unfold wrapIndex at hz
      split at hz <;> simp at hz <;> omega
    have hj' : j < rows[n].length := by rw [h.1]; exact hj
    simp only [h.2 j hj', List.getElem?_eq_getElem hj']

theorem coords_sim {β : Type} {W : World K} {env : Env K} {h : Heap K} {r c n : ℕ} {X : NdArray K} {pts : List (List K)}
    (hx : env (Var.name .points) = some (.arr r [none, none])) (hr : h[r]? = some X) (hX : IsMat X c pts) (hn : n < pts.length)
    (hv : env (Var.name .n) = some (.int n)) {l : List (Fin 4)} (hl : l.Nodup)
    {rest : Block} {f : List K → Py β} {Q : β → Out K × Heap K → Prop}
    (hrest : ∀ g env2, Upd (all oneCoord l g) env env2 → Sim (f (l.map g)) (exec W rest env2 h) Q) :
    Sim (l.mapM (fun i : Fin 4 => listRead pts[n] ((i : ℕ) : ℤ)) >>= f) (exec W (seqs coordsAt l rest) env h) Q := by
  haveI : Nonempty K := ⟨0⟩
  refine seqs_sim ofAxis_coord hl (fun i hi env1 rest f hk hr' => ?_) hrest
  have h1 : env1 (Var.name .points) = some (.arr r [none, none]) := by rw [keep_coord hk (by simp)]; exact hx
  have h2 : env1 (Var.name .n) = some (.int n) := by rw [keep_coord hk (by simp)]; exact hv
  rw [coordsAt, exec_asg, eval_index, nm_of h1, pure_bind_M, nm, subs_name, look_of h2, pure_bind_M, asIx_int, pure_bind_M, subs_int,
    subs_nil]
  simp only [pure_bind_M, bind_assoc_M, item_mat]
  rw [bind_run, rdElem_run hr, mat_read hX hn, bind_assoc]
  refine Sim.bind_same fun y => ?_
  exact hr' y _ (upd_coord env1 i y)

/-! ### Cells -/

/-- The value of `u`. -/
def uOf (ax : Ax K) (x : K) : K := (x - ax.start) * ax.dinv

section
variable {W : World K} (O : Outside W)
include O

theorem locate_det {env : Env K} (c : Clear env) {h : Heap K} {l : List (Fin 4)} (hl : l.Nodup) {g : Fin 4 → Ax K} {x : Fin 4 → K}
    (hM : ∀ i ∈ l, env (Var.name (.ax .M i)) = some (.int (g i).M)) (hs : ∀ i ∈ l, env (Var.name (.ax .start i)) = some (.flt (g i).start))
    (hd : ∀ i ∈ l, env (Var.name (.ax .dinv i)) = some (.flt (g i).dinv)) (hx : ∀ i ∈ l, env (Var.name (.ax .x i)) = some (.flt (x i)))
    (rest : Block) : ∃ env2, Upd (all oneCell l fun i => (uOf (g i) (x i), locate (g i) (x i))) env env2 ∧
      exec W (seqs locateAt l rest) env h = exec W rest env2 h := by
  refine seqs_det ofAxis_cell hl fun i hi env1 rest hk => ?_
  have c1 : Clear env1 := c.mono fun v hv => keep_cell hk (by rintro j; simp only [List.mem_cons, List.not_mem_nil, or_false] at hv; rcases hv with rfl | rfl | rfl | rfl | rfl | rfl | rfl <;> simp)
  have e1 := (keep_cell hk (v := .ax .M i) (by simp)).trans (hM i hi)
  have e2 := (keep_cell hk (v := .ax .start i) (by simp)).trans (hs i hi)
  have e3 := (keep_cell hk (v := .ax .dinv i) (by simp)).trans (hd i hi)
  have e4 := (keep_cell hk (v := .ax .x i) (by simp)).trans (hx i hi)
  refine ⟨_, upd_cell env1 i _ (.int (IntFloor.ifloor (uOf (g i) (x i)))) _, ?_⟩
  have cset : ∀ {env : Env K}, Clear env → ∀ (f : Fam) (z : Val K), Clear (env.set (Var.name (.ax f i)) z) := fun c f z =>
    c.mono fun v hv => by
      rw [set_name, if_neg]
      rintro rfl
      simp at hv
  rw [locateAt, exec_asg, mul_flt (sub_flt (nm_of e4) (nm_of e2)) (nm_of e3), pure_bind_M, exec_asg,
    floor_run O (cset c1 _ _) (nm_of (by rw [set_name, if_pos rfl])), pure_bind_M, exec_asg,
    max_run O (cset (cset c1 _ _) _ _) (min_run O (cset (cset c1 _ _) _ _) (nm_of (by rw [set_name, if_pos rfl]))
      (sub_int (nm_of (by rw [set_name, if_neg (by simp), set_name, if_neg (by simp)]; exact e1)) (eval_int _ _ 2))) (eval_int _ _ 0),
    pure_bind_M, exec_asg, sub_flt_int (nm_of (by rw [set_name, if_neg (by simp), set_name, if_neg (by simp), set_name, if_pos rfl]))
      (nm_of (by rw [set_name, if_pos rfl])), pure_bind_M]
  rfl
end

/-- The powers of `t`. -/
def tpOf (t : K) (j : Fin 4) : K := match j with
  | 0 => t * t * t
  | 1 => t * t
  | 2 => t
  | 3 => 1

theorem tp_det (L : LitLaws K) {W : World K} {env : Env K} {h : Heap K} {l : List (Fin 4)} (hl : l.Nodup) {t : Fin 4 → K}
    (ht : ∀ i ∈ l, env (Var.name (.ax .t i)) = some (.flt (t i))) (rest : Block) :
    ∃ env2, Upd (all (oneBasis .tp) l fun i => tpOf (t i)) env env2 ∧ exec W (seqs tpAt l rest) env h = exec W rest env2 h := by
  refine seqs_det (ofAxis_basis .tp) hl fun i hi env1 rest hk => ?_
  have e : ∀ {env : Env K}, env (Var.name (.ax .t i)) = some (.flt (t i)) → eval W env (nm (.ax .t i)) = pure (.flt (t i)) := nm_of
  have e1 := (keep_basis hk (v := .ax .t i) (by simp)).trans (ht i hi)
  refine ⟨_, upd_basis (w := tpOf (t i)) rfl rfl rfl rfl, ?_⟩
  have es : ∀ {env : Env K}, env (Var.name (.ax .t i)) = some (.flt (t i)) → ∀ j x,
      env.set (Var.name (.ax2 .tp i j)) x (Var.name (.ax .t i)) = some (.flt (t i)) := fun h j x => by
    rw [set_name, if_neg (by simp)]; exact h
  have d1 := decimal_one L
  rw [tpAt, exec_asg, mul_flt (mul_flt (e e1) (e e1)) (e e1), pure_bind_M, exec_asg, mul_flt (e (es e1 _ _)) (e (es e1 _ _)), pure_bind_M,
    exec_asg, e (es (es e1 _ _) _ _), pure_bind_M, exec_asg, eval_float, d1, pure_bind_M]
  rfl

/-! ### Basis functions -/

/-- Four assignments of basis functions. -/
theorem four_run {W : World K} {env : Env K} {F : Fam2} {i : Fin 4} {e : Fin 4 → Ex} {w : Fin 4 → K} (rest : Block)
    (he : ∀ j env1, (∀ v, (∀ j, v ≠ .ax2 F i j) → env1 (Var.name v) = env v.name) → eval W env1 (e j) = pure (.flt (w j))) :
    ∃ env2, Upd (oneBasis F i w) env env2 ∧ exec W (seqs (fun j => asg (.ax2 F i j) (e j)) four rest) env = exec W rest env2 := by
  refine ⟨_, upd_basis (x0 := w 0) (x1 := w 1) (x2 := w 2) (x3 := w 3) rfl rfl rfl rfl, ?_⟩
  have s : ∀ {env1 : Env K}, (∀ v, (∀ j, v ≠ .ax2 F i j) → env1 (Var.name v) = env v.name) → ∀ j x,
      ∀ v, (∀ j, v ≠ .ax2 F i j) → env1.set (Var.name (.ax2 F i j)) x (Var.name v) = env v.name := fun h j x v hv => by
    rw [set_name, if_neg (hv j), h v hv]
  have s0 : ∀ v, (∀ j, v ≠ .ax2 F i j) → env (Var.name v) = env v.name := fun _ _ => rfl
  simp only [four, seqs, exec_asg]
  rw [he 0 _ s0, pure_bind_M, he 1 _ (s s0 _ _), pure_bind_M, he 2 _ (s (s s0 _ _) _ _), pure_bind_M, he 3 _ (s (s (s s0 _ _) _ _) _ _),
    pure_bind_M]

theorem cubic_run {W : World K} {env : Env K} {A : Var} {f : ℕ → ℕ → K} (hA : ∀ i j : Fin 4, eval W env (at2 A i j) = pure (.flt (f i j)))
    {i : Fin 4} {p : Fin 4 → K} (hp : ∀ j, env (Var.name (.ax2 .tp i j)) = some (.flt (p j))) (j : Fin 4) :
    eval W env (cubicEx A i j) = pure (.flt (f j 0 * p 0 + f j 1 * p 1 + f j 2 * p 2 + f j 3 * p 3)) :=
  add_flt (add_flt (add_flt (mul_flt (hA j 0) (nm_of (hp 0))) (mul_flt (hA j 1) (nm_of (hp 1)))) (mul_flt (hA j 2) (nm_of (hp 2))))
    (mul_flt (hA j 3) (nm_of (hp 3)))

theorem cmp_fi (o : Op) (x : K) (b : ℤ) : compare o (.flt x) (.int b) = fltCmp o x (b : K) := rfl

section
variable (L : LitLaws K) {W : World K} (O : Outside W)
include L O

/-- `Phi` of one axis. -/
theorem phi_one {env : Env K} (c : Clear env) {i : Fin 4} {t : K} (ht : env (Var.name (.ax .t i)) = some (.flt t))
    (hp : ∀ j, env (Var.name (.ax2 .tp i j)) = some (.flt (tpOf t j))) (rest : Block) :
    ∃ env2, Upd (oneBasis .Phi i fun j => phi t j) env env2 ∧ exec W (phiAt i rest) env = exec W rest env2 := by
  have l0 : ((0 : ℤ) : K) = 0 := by rw [← L.zero, ← L.int 0]; rfl
  have l1 : ((1 : ℤ) : K) = 1 := by rw [← L.one, ← L.int 1]; rfl
  have l2 : ((2 : ℤ) : K) = 2 := L.int 2
  have l3 : ((3 : ℤ) : K) = 3 := L.int 3
  -- the zeros
  obtain ⟨env0, h0, hz⟩ : ∃ env0, (∀ v, (∀ j, v ≠ .ax2 .Phi i j) → env0 (Var.name v) = env v.name) ∧
      ∀ rest, exec W (seqs (fun j => asg (.ax2 .Phi i j) (.int 0)) four rest) env = exec W rest env0 := by
    refine ⟨((((env.set (Var.name (.ax2 .Phi i 0)) (.int 0)).set (Var.name (.ax2 .Phi i 1)) (.int 0)).set
      (Var.name (.ax2 .Phi i 2)) (.int 0)).set (Var.name (.ax2 .Phi i 3)) (.int 0)), fun v hv => ?_, fun rest => ?_⟩
    · simp only [set_name, if_neg (hv _)]
    · simp only [four, seqs, exec_asg, eval_int, pure_bind_M]
      rfl
  have sub : ∀ {env1 : Env K}, (∀ v, (∀ j, v ≠ .ax2 .Phi i j) → env1 (Var.name v) = env v.name) → Clear env1 ∧
      env1 (Var.name (.ax .t i)) = some (.flt t) ∧ ∀ j, env1 (Var.name (.ax2 .tp i j)) = some (.flt (tpOf t j)) := fun h1 =>
    ⟨c.mono fun v hv => h1 v (by simp only [List.mem_cons, List.not_mem_nil, or_false] at hv; rcases hv with rfl | rfl | rfl | rfl | rfl | rfl | rfl <;> simp),
      by rw [h1 _ (by simp)]; exact ht, fun j => by rw [h1 _ (by simp)]; exact hp j⟩
  obtain ⟨c0, t0, p0⟩ := sub h0
  have upd0 : ∀ {w : Fin 4 → K} {env2 : Env K}, Upd (oneBasis .Phi i w) env0 env2 → Upd (oneBasis .Phi i w) env env2 := fun {w env2} h2 v => by
    rw [h2 v]
    by_cases hv : ∃ j, v = .ax2 .Phi i j
    · obtain ⟨j, rfl⟩ := hv; simp [oneBasis]
    · rw [h0 v fun j hj => hv ⟨j, hj⟩]
  have lift0 : ∀ {env1 : Env K}, (∀ v, (∀ j, v ≠ .ax2 .Phi i j) → env1 (Var.name v) = env0 v.name) →
      ∀ v, (∀ j, v ≠ .ax2 .Phi i j) → env1 (Var.name v) = env v.name := fun h1 v hv => (h1 v hv).trans (h0 v hv)
  rw [phiAt, hz, exec_if]
  simp only [eval_chain, nm_of t0, pure_bind_M, links_last, eval_int, cmpv_fi, cmp_fi, flt', lift_pure, truth_bool, bind_assoc_M, Nat.cast_zero, l0]
  by_cases hneg : t < 0
  · obtain ⟨env2, h2, e2⟩ := four_run (W := W) (env := env0) (F := .Phi) (i := i) (e := belowEx i) (w := fun j => phi t j) .nil
      fun j env1 h1 => by
        obtain ⟨c1, t1, -⟩ := sub (lift0 h1)
        have e := add_flt (mul_flt (dAd_at O c1 j 3) (nm_of t1)) (Ad_at O c1 j 3)
        rw [belowEx]
        exact e.trans (by rw [phi, if_pos hneg]; rfl)
    refine ⟨env2, upd0 h2, ?_⟩
    simp only [hneg, decide_true, if_true, e2, exec_nil, pure_bind_M, andThen_next]
  · simp only [hneg, decide_false, Bool.false_eq_true, if_false]
    rw [exec_if]
    simp only [eval_chain, nm_of t0, pure_bind_M, links_last, eval_int, cmpv_fi, cmp_fi, fgt, lift_pure, truth_bool, bind_assoc_M, Nat.cast_one, l1]
    by_cases hbig : 1 < t
    · obtain ⟨env2, h2, e2⟩ := four_run (W := W) (env := env0) (F := .Phi) (i := i) (e := aboveEx i) (w := fun j => phi t j) .nil
        fun j env1 h1 => by
          obtain ⟨c1, t1, -⟩ := sub (lift0 h1)
          have e := add_flt (mul_flt (add_flt (add_flt (mul_int_flt (eval_int W env1 3) (Ad_at O c1 j 0))
            (mul_int_flt (eval_int W env1 2) (Ad_at O c1 j 1))) (Ad_at O c1 j 2)) (sub_flt_int (nm_of t1) (eval_int W env1 1)))
            (add_flt (add_flt (add_flt (Ad_at O c1 j 0) (Ad_at O c1 j 1)) (Ad_at O c1 j 2)) (Ad_at O c1 j 3))
          rw [aboveEx]
          refine e.trans ?_
          rw [phi, if_neg hneg, if_pos hbig]
          simp only [Nat.cast_ofNat, Nat.cast_one, l1, l2, l3]
          rfl
      refine ⟨env2, upd0 h2, ?_⟩
      simp only [hbig, decide_true, if_true, e2, exec_nil, pure_bind_M, andThen_next]
    · obtain ⟨env2, h2, e2⟩ := four_run (W := W) (env := env0) (F := .Phi) (i := i) (e := cubicEx .Ad i) (w := fun j => phi t j) .nil
        fun j env1 h1 => by
          obtain ⟨c1, -, p1⟩ := sub (lift0 h1)
          refine (cubic_run (Ad_at O c1) p1 j).trans ?_
          rw [phi, if_neg hneg, if_neg hbig]
          rfl
      refine ⟨env2, upd0 h2, ?_⟩
      simp only [hbig, decide_false, Bool.false_eq_true, if_false, e2, exec_nil, pure_bind_M, andThen_next]

theorem clear_basis {F : Fam2} {env env1 : Env K} (c : Clear env) (hk : Keeps1 (oneBasis F) env env1) : Clear env1 :=
  c.mono fun v hv => keep_basis hk (by
    simp only [List.mem_cons, List.not_mem_nil, or_false] at hv
    rcases hv with rfl | rfl | rfl | rfl | rfl | rfl | rfl <;> simp)

theorem phi_det {env : Env K} (c : Clear env) {h : Heap K} {l : List (Fin 4)} (hl : l.Nodup) {t : Fin 4 → K}
    (ht : ∀ i ∈ l, env (Var.name (.ax .t i)) = some (.flt (t i)))
    (hp : ∀ i ∈ l, ∀ j, env (Var.name (.ax2 .tp i j)) = some (.flt (tpOf (t i) j))) (rest : Block) :
    ∃ env2, Upd (all (oneBasis .Phi) l fun i j => phi (t i) j) env env2 ∧ exec W (seqs phiAt l rest) env h = exec W rest env2 h := by
  refine seqs_det (ofAxis_basis .Phi) hl fun i hi env1 rest hk => ?_
  obtain ⟨env2, h2, e2⟩ := phi_one L O (clear_basis L O c hk) ((keep_basis hk (v := .ax .t i) (by simp)).trans (ht i hi))
    (fun j => (keep_basis hk (v := .ax2 .tp i j) (by simp)).trans (hp i hi j)) rest
  exact ⟨env2, h2, by rw [e2]⟩

theorem dphi_det {env : Env K} (c : Clear env) {h : Heap K} {l : List (Fin 4)} (hl : l.Nodup) {t q : Fin 4 → K}
    (hd : ∀ i ∈ l, env (Var.name (.ax .dinv i)) = some (.flt (q i)))
    (hp : ∀ i ∈ l, ∀ j, env (Var.name (.ax2 .tp i j)) = some (.flt (tpOf (t i) j))) (rest : Block) :
    ∃ env2, Upd (all (oneBasis .dPhi) l fun i j => dphi (t i) (q i) j) env env2 ∧
      exec W (seqs dphiAt l rest) env h = exec W rest env2 h := by
  refine seqs_det (ofAxis_basis .dPhi) hl fun i hi env1 rest hk => ?_
  obtain ⟨env2, h2, e2⟩ := four_run (W := W) (env := env1) (F := .dPhi) (i := i)
    (e := fun j => mul (cubicEx .dAd i j) (nm (.ax .dinv i))) (w := fun j => dphi (t i) (q i) j) rest fun j env2 h1 => by
      have c2 : Clear env2 := (clear_basis L O c hk).mono fun v hv => h1 v (by
        simp only [List.mem_cons, List.not_mem_nil, or_false] at hv
        rcases hv with rfl | rfl | rfl | rfl | rfl | rfl | rfl <;> simp)
      have p2 : ∀ j, env2 (Var.name (.ax2 .tp i j)) = some (.flt (tpOf (t i) j)) := fun j => by
        rw [h1 _ (by simp), keep_basis hk (by simp)]; exact hp i hi j
      have d2 : env2 (Var.name (.ax .dinv i)) = some (.flt (q i)) := by
        rw [h1 _ (by simp), keep_basis hk (by simp)]; exact hd i hi
      exact mul_flt (cubic_run (dAd_at O c2) p2 j) (nm_of d2)
  exact ⟨env2, h2, by rw [dphiAt, e2]⟩

end

/-! ### The sum -/

/-- Subscripts and their values. -/
def Subs (W : World K) (env : Env K) (es : List Ex) (zs : List ℤ) : Prop :=
  List.Forall₂ (fun e z => ∀ r, evalSubs W env (.cons e r) = evalSubs W env r >>= fun ss => pure (.at z :: ss)) es zs

theorem Subs.run {W : World K} {env : Env K} {es : List Ex} {zs : List ℤ} (h : Subs W env es zs) :
    evalSubs W env (args es) = pure (zs.map .at) := by
  induction h with
  | nil => rfl
  | cons h _ ih => rw [args, h, ih]; rfl

theorem Subs.append {W : World K} {env : Env K} {es fs : List Ex} {zs ys : List ℤ} (h : Subs W env es zs) (h' : Subs W env fs ys) :
    Subs W env (es ++ fs) (zs ++ ys) := List.rel_append h h'

theorem subs_offset {W : World K} {env : Env K} {v : Var} {z : ℤ} (hv : env v.name = some (.int z)) (j : ℕ) :
    Subs W env [add (nm v) (.int j)] [z + (j : ℤ)] := by
  refine .cons (fun r => ?_) .nil
  rw [add, subs_bin]
  change (eval W env (add (nm v) (.int j)) >>= _) = _
  rw [add_int (nm_of hv) (eval_int W env j), pure_bind_M, asIx_int, pure_bind_M]

theorem subs_var {W : World K} {env : Env K} {v : Var} {z : ℤ} (hv : env v.name = some (.int z)) : Subs W env [nm v] [z] := by
  refine .cons (fun r => ?_) .nil
  rw [nm, subs_name, look_of hv, pure_bind_M, asIx_int, pure_bind_M]

theorem contract_run {W : World K} {env : Env K} {h : Heap K} {rc : ℕ} {C : NdArray K} {m : ℕ} {w : Fin 4 → Fam2} {z : Fin 4 → ℤ} {wt : Fin 4 → ℕ → K}
    (hC : h[rc]? = some C) (hc : env (Var.name .coefs) = some (.arr rc (whole m))) {tail : List Ex} {tz : List ℤ}
    (ht : Subs W env tail tz) : ∀ (l : List (Fin 4)),
    (∀ i ∈ l, env (Var.name (.ax .i i)) = some (.int (z i))) →
    (∀ i ∈ l, ∀ j : Fin 4, env (Var.name (.ax2 (w i) i j)) = some (.flt (wt i j))) →
    ∀ (pos : List Ex) (zs : List ℤ), Subs W env pos zs → pos.length + l.length + tail.length = m →
    eval W env (contractEx w tail l pos) h = contract C tz (l.map fun i => (z i, wt i)) zs >>= fun x => pure (.flt x, h)
  | [], _, _, pos, zs, hp, hm => by
    have hs := hp.append ht
    have hl : m = (zs ++ tz).length := by
      rw [← List.Forall₂.length_eq hs, List.length_append, ← hm]; simp
    rw [contractEx, eval_index, nm_of hc, pure_bind_M, hs.run, pure_bind_M, hl, item_whole, rdElem_run hC, List.map_nil, contract]
  | i :: l, hi, hw, pos, zs, hp, hm => by
    have ih := fun j : Fin 4 => contract_run hC hc ht l (fun i h => hi i (by simp [h])) (fun i h => hw i (by simp [h])) (pos ++ [add (nm (.ax .i i)) (.int j)])
      (zs ++ [z i + ((j : ℕ) : ℤ)]) (hp.append (subs_offset (hi i (by simp)) j)) (by simp at hm ⊢; omega)
    have hwt := fun j : Fin 4 => nm_of (W := W) (hw i (by simp) j)
    have ih0 := ih 0
    have ih1 := ih 1
    have ih2 := ih 2
    have ih3 := ih 3
    simp only [contractEx, List.map_cons, contract, eval_add, eval_mul, hwt, pure_bind_M, bind_assoc_M, bind_assoc]
    rw [step' ih0]
    refine bind_congr fun c0 => ?_
    simp only [bin_ff, arith_ff, flt_mul, lift_pure, pure_bind_M]
    rw [step' ih1]
    refine bind_congr fun c1 => ?_
    simp only [bin_ff, arith_ff, flt_mul, flt_add, lift_pure, pure_bind_M]
    rw [step' ih2]
    refine bind_congr fun c2 => ?_
    simp only [bin_ff, arith_ff, flt_mul, flt_add, lift_pure, pure_bind_M]
    rw [step' ih3]
    refine bind_congr fun c3 => ?_
    simp only [bin_ff, arith_ff, flt_mul, flt_add, lift_pure, pure_bind_M, pure_bind]
    rfl

end Interp.Spec.PySrc.Numba
