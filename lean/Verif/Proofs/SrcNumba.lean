import Verif.Proofs.SrcHermite
import Verif.Proofs.SrcCompleteTop
import Verif.Proofs.NumbaTree
import Verif.Model.CubicNumba
import Mathlib.Tactic.FinCases

/-!
# Executing the texts of `eval_cubic_numba.py`: statements for each axis
-/

namespace Interp.Spec.PySrc
open Interp

set_option linter.unusedSectionVars false

/-! ### Names -/

def allFams : List Fam := [.M, .start, .dinv, .x, .u, .i, .t]
def allFams2 : List Fam2 := [.tp, .Phi, .dPhi]
def allFin : List (Fin 4) := [0, 1, 2, 3]

def allVars : List Var :=
  [.a, .b, .orders, .coefs, .point, .points, .out, .vals, .dvals, .n, .k, .N, .nVals, .d, .t, .Ad, .dAd, .int, .floor, .max, .min, .range] ++
  (allFams.flatMap fun f => allFin.map fun i => .ax f i) ++
  (allFams2.flatMap fun f => allFin.flatMap fun i => allFin.map fun j => .ax2 f i j)

theorem mem_allVars (v : Var) : v ∈ allVars := by
  cases v with
  | ax f i => fin_cases i <;> cases f <;> decide
  | ax2 f i j => fin_cases i <;> fin_cases j <;> cases f <;> decide
  | _ => decide

theorem allVars_nodup : (allVars.map Var.chars).Nodup := by decide +kernel

theorem name_inj {v w : Var} (h : v.name = w.name) : v = w := by
  have h' : v.chars = w.chars := String.ofList_injective h
  exact List.inj_on_of_nodup_map allVars_nodup (mem_allVars v) (mem_allVars w) h'

namespace Numba

variable {K : Type}

/-- The variables of `env'` are those of `env`, except that those in `p` have new values. -/
def Upd (p : Var → Option (Val K)) (env env' : Env K) : Prop := ∀ v : Var, env' v.name = (p v).or (env v.name)

theorem set_name (env : Env K) (v w : Var) (x : Val K) : env.set v.name x w.name = if w = v then some x else env w.name := by
  rw [set_apply]
  by_cases h : w = v
  · rw [if_pos h, if_pos (by rw [h])]
  · rw [if_neg h, if_neg fun h' => h (name_inj h')]

/-- The axis of a variable. -/
def axis : Var → Option (Fin 4)
  | .ax _ i => some i
  | .ax2 _ i _ => some i
  | _ => none

/-- Values of variables of the axis `i`. -/
def OfAxis {α : Type} (one : Fin 4 → α → Var → Option (Val K)) : Prop := ∀ i a v, axis v ≠ some i → one i a v = none

/-- Values of variables of several axes. -/
def all {α : Type} (one : Fin 4 → α → Var → Option (Val K)) (l : List (Fin 4)) (g : Fin 4 → α) (v : Var) : Option (Val K) :=
  match axis v with
  | some i => if i ∈ l then one i (g i) v else none
  | none => none

theorem all_nil {α : Type} (one : Fin 4 → α → Var → Option (Val K)) (g : Fin 4 → α) (env : Env K) : Upd (all one [] g) env env := by
  intro v
  simp only [all]
  split <;> simp

theorem all_cons {α : Type} {one : Fin 4 → α → Var → Option (Val K)} (h1 : OfAxis one) {i : Fin 4} {l : List (Fin 4)} (hi : i ∉ l)
    {g g' : Fin 4 → α} (hg : ∀ j ∈ l, g j = g' j) {env env1 env2 : Env K} (h : Upd (one i (g i)) env env1)
    (h' : Upd (all one l g') env1 env2) : Upd (all one (i :: l) g) env env2 := by
  intro v
  rw [h' v, h v]
  simp only [all]
  rcases hv : axis v with _ | j
  · simp [h1 i (g i) v (by rw [hv]; simp)]
  · by_cases hj : j = i
    · subst hj; simp [hi]
    · rw [h1 i (g i) v (by rw [hv]; simpa using hj)]
      by_cases hl : j ∈ l
      · simp [hl, hg j hl]
      · simp [hl, hj]

/-- Variables that the statements for an axis leave as they are. -/
def Keeps1 {α : Type} (one : Fin 4 → α → Var → Option (Val K)) (env env' : Env K) : Prop :=
  ∀ v : Var, (∀ i a, one i a v = none) → env' v.name = env v.name

theorem Keeps1.refl {α : Type} (one : Fin 4 → α → Var → Option (Val K)) (env : Env K) : Keeps1 one env env := fun _ _ => rfl
theorem Keeps1.upd {α : Type} {one : Fin 4 → α → Var → Option (Val K)} {env env1 env2 : Env K} (h : Keeps1 one env env1) {i : Fin 4} {a : α}
    (h' : Upd (one i a) env1 env2) : Keeps1 one env env2 := fun v hv => by rw [h' v, hv i a, Option.none_or, h v hv]

variable [Add K] [Sub K] [Mul K] [Div K] [Neg K] [Zero K] [One K] [NatCast K] [IntCast K]
  [LT K] [DecidableLT K] [LE K] [DecidableLE K] [BEq K] [IntFloor K] [Interp.Smolyak.Trig K]

/-- Statements for each axis that may raise. -/
theorem seqs_sim {α β : Type} {W : World K} {h : Heap K} {stage : Fin 4 → Block → Block} {m : Fin 4 → Py α}
    {one : Fin 4 → α → Var → Option (Val K)} (h1 : OfAxis one) {Q : β → Out K × Heap K → Prop} {rest : Block} {env : Env K}
    {l : List (Fin 4)} (hl : l.Nodup)
    (hstep : ∀ i ∈ l, ∀ env1 rest (f : α → Py β), Keeps1 one env env1 →
      (∀ a env2, Upd (one i a) env1 env2 → Sim (f a) (exec W rest env2 h) Q) → Sim (m i >>= f) (exec W (stage i rest) env1 h) Q)
    {f : List α → Py β} [Nonempty α]
    (hrest : ∀ g env2, Upd (all one l g) env env2 → Sim (f (l.map g)) (exec W rest env2 h) Q) :
    Sim (l.mapM m >>= f) (exec W (seqs stage l rest) env h) Q := by
  suffices H : ∀ (l' : List (Fin 4)) (env1 : Env K) (f : List α → Py β), l'.Nodup → (∀ i ∈ l', i ∈ l) → Keeps1 one env env1 →
      (∀ g env2, Upd (all one l' g) env1 env2 → Sim (f (l'.map g)) (exec W rest env2 h) Q) →
      Sim (l'.mapM m >>= f) (exec W (seqs stage l' rest) env1 h) Q from
    H l env f hl (fun _ h => h) (Keeps1.refl _ _) hrest
  intro l'
  induction l' with
  | nil =>
    intro env1 f _ _ _ hr
    obtain ⟨a⟩ := ‹Nonempty α›
    exact hr (fun _ => a) env1 (all_nil _ _ _)
  | cons i l' ih =>
    intro env1 f hn hm hk hr
    rw [List.mapM_cons, bind_assoc]
    refine hstep i (hm i (by simp)) env1 _ _ hk fun a env2 h2 => ?_
    simp only [bind_assoc, pure_bind]
    refine ih env2 (fun as => f (a :: as)) (List.nodup_cons.mp hn).2 (fun j hj => hm j (by simp [hj])) (hk.upd h2) fun g env3 h3 => ?_
    have hi := (List.nodup_cons.mp hn).1
    have h4 := hr (Function.update g i a) env3 (all_cons h1 hi
      (fun j hj => Function.update_of_ne (fun h => hi (by rw [← h]; exact hj)) _ _) (by rwa [Function.update_self]) h3)
    rw [List.map_cons, Function.update_self] at h4
    have e : l'.map (Function.update g i a) = l'.map g :=
      List.map_congr_left fun j hj => Function.update_of_ne (fun h => hi (by rw [← h]; exact hj)) _ _
    rwa [e] at h4

/-- Statements for each axis that do not raise. -/
theorem seqs_det {α : Type} {W : World K} {h : Heap K} {stage : Fin 4 → Block → Block} {val : Fin 4 → α}
    {one : Fin 4 → α → Var → Option (Val K)} (h1 : OfAxis one) {rest : Block} {env : Env K}
    {l : List (Fin 4)} (hl : l.Nodup)
    (hstep : ∀ i ∈ l, ∀ env1 rest, Keeps1 one env env1 →
      ∃ env2, Upd (one i (val i)) env1 env2 ∧ exec W (stage i rest) env1 h = exec W rest env2 h) :
    ∃ env2, Upd (all one l val) env env2 ∧ exec W (seqs stage l rest) env h = exec W rest env2 h := by
  suffices H : ∀ (l' : List (Fin 4)) (env1 : Env K), l'.Nodup → (∀ i ∈ l', i ∈ l) → Keeps1 one env env1 →
      ∃ env2, Upd (all one l' val) env1 env2 ∧ exec W (seqs stage l' rest) env1 h = exec W rest env2 h from
    H l env hl (fun _ h => h) (Keeps1.refl _ _)
  intro l'
  induction l' with
  | nil => exact fun env1 _ _ _ => ⟨env1, all_nil _ _ _, rfl⟩
  | cons i l' ih =>
    intro env1 hn hm hk
    obtain ⟨env2, h2, e2⟩ := hstep i (hm i (by simp)) env1 (seqs stage l' rest) hk
    obtain ⟨env3, h3, e3⟩ := ih env2 (List.nodup_cons.mp hn).2 (fun j hj => hm j (by simp [hj])) (hk.upd h2)
    exact ⟨env3, all_cons h1 (List.nodup_cons.mp hn).1 (fun _ _ => rfl) h2 h3, e2.trans e3⟩

/-! ### Expressions -/

section
variable (W : World K) (env : Env K)

theorem eval_nm (v : Var) : eval W env (nm v) = look W env v.name := rfl
theorem exec_asg (v : Var) (e : Ex) (r : Block) :
    exec W (asg v e r) env = eval W env e >>= fun x => exec W r (env.set v.name x) := by
  rw [asg, nm, exec_assign]
  simp only [assign_name, pure_bind_M]

theorem eval_mul (a b : Ex) : eval W env (mul a b) = eval W env a >>= fun x => eval W env b >>= fun y => binOp .star x y := rfl
theorem eval_add (a b : Ex) : eval W env (add a b) = eval W env a >>= fun x => eval W env b >>= fun y => binOp .plus x y := rfl
theorem eval_sub (a b : Ex) : eval W env (sub a b) = eval W env a >>= fun x => eval W env b >>= fun y => binOp .minus x y := rfl
end

/-- `a * b` and `a + b` for floating-point numbers. -/
theorem mul_flt {W : World K} {env : Env K} {a b : Ex} {x y : K} (ha : eval W env a = pure (.flt x)) (hb : eval W env b = pure (.flt y)) :
    eval W env (mul a b) = pure (.flt (x * y)) := by rw [eval_mul, ha, pure_bind_M, hb, pure_bind_M]; rfl
theorem add_flt {W : World K} {env : Env K} {a b : Ex} {x y : K} (ha : eval W env a = pure (.flt x)) (hb : eval W env b = pure (.flt y)) :
    eval W env (add a b) = pure (.flt (x + y)) := by rw [eval_add, ha, pure_bind_M, hb, pure_bind_M]; rfl
theorem sub_flt {W : World K} {env : Env K} {a b : Ex} {x y : K} (ha : eval W env a = pure (.flt x)) (hb : eval W env b = pure (.flt y)) :
    eval W env (sub a b) = pure (.flt (x - y)) := by rw [eval_sub, ha, pure_bind_M, hb, pure_bind_M]; rfl
theorem sub_flt_int {W : World K} {env : Env K} {a b : Ex} {x : K} {z : ℤ} (ha : eval W env a = pure (.flt x))
    (hb : eval W env b = pure (.int z)) : eval W env (sub a b) = pure (.flt (x - (z : K))) := by
  rw [eval_sub, ha, pure_bind_M, hb, pure_bind_M]; rfl
theorem sub_int {W : World K} {env : Env K} {a b : Ex} {x z : ℤ} (ha : eval W env a = pure (.int x))
    (hb : eval W env b = pure (.int z)) : eval W env (sub a b) = pure (.int (x - z)) := by
  rw [eval_sub, ha, pure_bind_M, hb, pure_bind_M]; rfl
theorem add_int {W : World K} {env : Env K} {a b : Ex} {x z : ℤ} (ha : eval W env a = pure (.int x))
    (hb : eval W env b = pure (.int z)) : eval W env (add a b) = pure (.int (x + z)) := by
  rw [eval_add, ha, pure_bind_M, hb, pure_bind_M]; rfl
theorem mul_int_flt {W : World K} {env : Env K} {a b : Ex} {x : K} {z : ℤ} (ha : eval W env a = pure (.int z))
    (hb : eval W env b = pure (.flt x)) : eval W env (mul a b) = pure (.flt ((z : K) * x)) := by
  rw [eval_mul, ha, pure_bind_M, hb, pure_bind_M]; rfl
theorem nm_of {W : World K} {env : Env K} {v : Var} {x : Val K} (h : env v.name = some x) : eval W env (nm v) = pure x := look_of h

/-- What the texts use from outside. -/
structure Outside (W : World K) : Prop where
  int : W.glob "int" = pure (.builtin .int)
  floor : W.glob "floor" = pure (.builtin .floor)
  max : W.glob "max" = pure (.builtin .max)
  min : W.glob "min" = pure (.builtin .min)
  range : W.glob "range" = pure (.builtin .range)
  call : ∀ b args, W.call (.builtin b) args = builtin b args
  Ad : ∃ A : NdArray K, W.glob "Ad" = pure (.frozen A) ∧ A.shape = [4, 4] ∧ ∀ i j : Fin 4, A.get [i, j] = Codegen.Ad i j
  dAd : ∃ A : NdArray K, W.glob "dAd" = pure (.frozen A) ∧ A.shape = [4, 4] ∧ ∀ i j : Fin 4, A.get [i, j] = Codegen.dAd i j

/-- The names from outside are not variables. -/
structure Clear (env : Env K) : Prop where
  int : env (Var.name .int) = none
  floor : env (Var.name .floor) = none
  max : env (Var.name .max) = none
  min : env (Var.name .min) = none
  range : env (Var.name .range) = none
  Ad : env (Var.name .Ad) = none
  dAd : env (Var.name .dAd) = none

theorem Clear.mono {env env' : Env K} (h : Clear env) (h' : ∀ v ∈ [Var.int, .floor, .max, .min, .range, .Ad, .dAd], env' v.name = env v.name) :
    Clear env' :=
  ⟨by rw [h' _ (by simp), h.int], by rw [h' _ (by simp), h.floor], by rw [h' _ (by simp), h.max], by rw [h' _ (by simp), h.min],
    by rw [h' _ (by simp), h.range], by rw [h' _ (by simp), h.Ad], by rw [h' _ (by simp), h.dAd]⟩

theorem look_none {W : World K} {env : Env K} {s : String} (h : env s = none) : look W env s = W.glob s := by rw [look, h]

theorem frozen_at {W : World K} {env : Env K} {v : Var} {A : NdArray K} {f : ℕ → ℕ → K} (hv : eval W env (nm v) = pure (.frozen A))
    (hs : A.shape = [4, 4]) (hA : ∀ i j : Fin 4, A.get [i, j] = f i j) (i j : Fin 4) :
    eval W env (at2 v i j) = pure (.flt (f i j)) := by
  have e : (refine (whole A.shape.length) (expand A.shape.length [.at ((i : ℕ) : ℤ), .at ((j : ℕ) : ℤ)])).bind complete =
      some [((i : ℕ) : ℤ), ((j : ℕ) : ℤ)] := by rw [hs]; rfl
  have r : A.read [((i : ℕ) : ℤ), ((j : ℕ) : ℤ)] = pure (f i j) := by
    have w : ∀ i : Fin 4, wrapIndex 4 ((i : ℕ) : ℤ) = some (i : ℕ) := fun i => by
      have := i.isLt; simp [wrapIndex]
    simp only [NdArray.read, hs, wrapIndices, w, hA]
  rw [at2, eval_index, hv, pure_bind_M, subs_int, subs_int, subs_nil]
  simp only [pure_bind_M, item, e, r]
  rfl

section
variable {W : World K} (O : Outside W) {env : Env K} (c : Clear env)
include O c

theorem Ad_at (i j : Fin 4) : eval W env (at2 .Ad i j) = pure (.flt (Codegen.Ad i j)) := by
  obtain ⟨A, h, hs, hA⟩ := O.Ad
  exact frozen_at ((look_none c.Ad).trans h) hs hA i j
theorem dAd_at (i j : Fin 4) : eval W env (at2 .dAd i j) = pure (.flt (Codegen.dAd i j)) := by
  obtain ⟨A, h, hs, hA⟩ := O.dAd
  exact frozen_at ((look_none c.dAd).trans h) hs hA i j
theorem floor_run {e : Ex} {x : K} (he : eval W env e = pure (.flt x)) :
    eval W env (call1 .int (call1 .floor e)) = pure (.int (IntFloor.ifloor x)) := by
  have hf : eval W env (nm .floor) = pure (.builtin .floor) := (look_none c.floor).trans O.floor
  have hi : eval W env (nm .int) = pure (.builtin .int) := (look_none c.int).trans O.int
  simp only [call1, eval_call, hf, hi, evals_cons, evals_nil, he, pure_bind_M, O.call]
  rfl
theorem max_run {e e' : Ex} {x y : ℤ} (he : eval W env e = pure (.int x)) (he' : eval W env e' = pure (.int y)) :
    eval W env (call2 .max e e') = pure (.int (pyMax x y)) := by
  have hf : eval W env (nm .max) = pure (.builtin .max) := (look_none c.max).trans O.max
  simp only [call2, eval_call, hf, evals_cons, evals_nil, he, he', pure_bind_M, O.call]
  rfl
theorem min_run {e e' : Ex} {x y : ℤ} (he : eval W env e = pure (.int x)) (he' : eval W env e' = pure (.int y)) :
    eval W env (call2 .min e e') = pure (.int (pyMin x y)) := by
  have hf : eval W env (nm .min) = pure (.builtin .min) := (look_none c.min).trans O.min
  simp only [call2, eval_call, hf, evals_cons, evals_nil, he, he', pure_bind_M, O.call]
  rfl
theorem range_run {v : Var} {n : ℕ} (hv : env v.name = some (.int n)) :
    eval W env (rangeOf v) = pure (.range ((List.range n).map fun (i : ℕ) => (i : ℤ))) := by
  have hf : eval W env (nm .range) = pure (.builtin .range) := (look_none c.range).trans O.range
  simp only [rangeOf, call1, eval_call, hf, evals_cons, evals_nil, nm_of hv, pure_bind_M, O.call, range_1, rangeStep_nat]
end

end Numba
end Interp.Spec.PySrc
