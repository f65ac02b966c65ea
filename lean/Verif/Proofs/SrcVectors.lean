import Verif.Proofs.SrcProducts

/-!
# Operations on vectors: elementwise arithmetic, selection of elements
-/

set_option linter.unusedSectionVars false

namespace Interp.Spec.PySrc
open Interp Interp.Smolyak

variable {K : Type} [Add K] [Sub K] [Mul K] [Div K] [Neg K] [Zero K] [One K] [NatCast K] [IntCast K]
  [LT K] [DecidableLT K] [LE K] [DecidableLE K] [BEq K] [IntFloor K] [Interp.Smolyak.Trig K]

variable {h : Heap K} {r : ℕ} {xs : List K}

theorem isVec_map {A : NdArray K} (hA : IsVec A xs) (f : K → K) : IsVec ⟨A.shape, fun idx => f (A.get idx)⟩ (xs.map f) := by
  refine ⟨by simp [hA.1], fun i hi => ?_⟩
  rw [List.length_map] at hi
  simp only [List.getElem_map, hA.2 i hi]

/-- `v o x` for a number `x`. -/
theorem vec_op {o : Op} {f : K → K → K} (hf : elemOp (K := K) o = some f) (hv : HasVec h r xs) (x : K) :
    ∃ B, arrayOp o (.arr r [none]) (.flt x) h = pure (.arr h.length [none], h ++ [B]) ∧ IsVec B (xs.map fun y => f y x) := by
  obtain ⟨A, hA, hV⟩ := hv
  obtain ⟨A', hA', hV'⟩ := contents_vec hV
  refine ⟨⟨A'.shape, fun idx => f (A'.get idx) x⟩, ?_, isVec_map hV' fun y => f y x⟩
  rw [arrayOp_run (K := K) (y := .num x) hf (operand_arr hA hA') rfl rfl, hV'.1]
  rfl

/-- `x o v` for a number `x`. -/
theorem op_vec {o : Op} {f : K → K → K} (hf : elemOp (K := K) o = some f) (hv : HasVec h r xs) (x : K) :
    ∃ B, arrayOp o (.flt x) (.arr r [none]) h = pure (.arr h.length [none], h ++ [B]) ∧ IsVec B (xs.map fun y => f x y) := by
  obtain ⟨A, hA, hV⟩ := hv
  obtain ⟨A', hA', hV'⟩ := contents_vec hV
  refine ⟨⟨A'.shape, fun idx => f x (A'.get idx)⟩, ?_, isVec_map hV' fun y => f x y⟩
  rw [arrayOp_run (K := K) (x := .num x) hf rfl (operand_arr hA hA') rfl, hV'.1]
  rfl

/-- `np.cos(v)`, `np.abs(v)`. -/
theorem vec_map (f : K → K) (hv : HasVec h r xs) :
    ∃ B, mapArr f r [none] h = pure (.arr h.length [none], h ++ [B]) ∧ IsVec B (xs.map f) := by
  obtain ⟨A, hA, hV⟩ := hv
  obtain ⟨A', hA', hV'⟩ := contents_vec hV
  refine ⟨⟨A'.shape, fun idx => f (A'.get idx)⟩, ?_, isVec_map hV' f⟩
  simp only [mapArr, bind_run, getArr_run hA, pure_bind, hA', lift_run, newArr_run, hV'.1]
  rfl

/-- `v < x`. -/
theorem vec_lt (hv : HasVec h r xs) (x : K) : compareVal .lt (.arr r [none]) (.flt x) h = pure (.bools (xs.map fun y => decide (y < x)), h) := by
  obtain ⟨A, hA, hV⟩ := hv
  have hm : ∀ ys : List K, (ys.mapM fun y => fltCmp .lt y x) = (pure (ys.map fun y => decide (y < x)) : Py _) := by
    intro ys
    induction ys with
    | nil => rfl
    | cons y ys ih => rw [List.mapM_cons, ih]; rfl
  simp only [compareVal, compareEach, bind_run, elements_vec hV hA, pure_bind, lift_run, hm]
  rfl

/-- The positions where a condition holds. -/
def trues (bs : List Bool) : List ℕ := (List.range bs.length).filter fun i => bs.getD i false

theorem where_run (bs : List Bool) : builtin .where [(.bools bs : Val K)] = pure (.tup [.ints ((trues bs).map fun i : ℕ => (i : ℤ))]) := rfl

theorem positions_nat {n : ℕ} : ∀ {js : List ℕ}, (∀ j ∈ js, j < n) → positions n (js.map fun j : ℕ => (j : ℤ)) = pure js
  | [], _ => rfl
  | j :: js, hj => by
    have h1 : wrapIndex n (j : ℤ) = some j := by
      have := hj j (by simp)
      simp [wrapIndex, this]
    have h2 := positions_nat (n := n) (js := js) fun i hi => hj i (by simp [hi])
    rw [positions] at h2 ⊢
    rw [List.map_cons, List.mapM_cons, h2, h1]
    rfl

/-- `v[np.where(...)] = x`. -/
theorem pickStore_run (p : K → Bool) (x : K) (hv : HasVec h r xs) :
    ∃ B, store r [none] [.pick ((trues (xs.map p)).map fun i : ℕ => (i : ℤ))] x h = pure ((), h.set r B) ∧ IsVec B (xs.map fun y => if p y then x else y) := by
  obtain ⟨A, hA, hV⟩ := hv
  have hj : ∀ j ∈ trues (xs.map p), j < xs.length := by
    intro j hj
    simp only [trues, List.mem_filter, List.mem_range, List.length_map] at hj
    exact hj.1
  refine ⟨⟨A.shape, fun idx => if idx.headD 0 ∈ trues (xs.map p) then x else A.get idx⟩, ?_, by simp [hV.1], fun i hi => ?_⟩
  · have : store r [none] [.pick ((trues (xs.map p)).map fun i : ℕ => (i : ℤ))] x = pickStore r ((trues (xs.map p)).map fun i : ℕ => (i : ℤ)) x := rfl
    rw [this]
    simp only [pickStore, bind_run, getArr_run hA, pure_bind, hV.1]
    simp only [bind_run, lift_run, positions_nat hj, pure_bind, setArr_run]
  · rw [List.length_map] at hi
    have : i ∈ trues (xs.map p) ↔ p xs[i] = true := by
      simp [trues, hi]
    simp only [List.headD_cons, List.getElem_map, this, hV.2 i hi]

/-- `v[zs]`. -/
theorem pickFrom_run {js : List ℕ} {ys : List K} (hv : HasVec h r xs) (hj : ∀ j ∈ js, j < xs.length) (hl : ys.length = js.length)
    (hy : ∀ i (hi : i < js.length) (hi' : i < ys.length) (hx : js[i] < xs.length), ys[i] = xs[js[i]]) :
    ∃ B, item (.arr r [none] : Val K) [.pick (js.map fun j : ℕ => (j : ℤ))] h = pure (.arr h.length [none], h ++ [B]) ∧ IsVec B ys := by
  obtain ⟨A, hA, hV⟩ := hv
  refine ⟨⟨[js.length], fun idx => A.get [js.getD (idx.headD 0) 0]⟩, ?_, by simp [hl], fun i hi => ?_⟩
  · have : item (.arr r [none] : Val K) [.pick (js.map fun j : ℕ => (j : ℤ))] = pickFrom r (js.map fun j : ℕ => (j : ℤ)) := rfl
    rw [this]
    simp only [pickFrom, bind_run, getArr_run hA, pure_bind, hV.1]
    simp only [bind_run, lift_run, positions_nat hj, pure_bind, newArr_run]
    rfl
  · have hi' : i < js.length := hl ▸ hi
    have hx := hj _ (List.getElem_mem hi')
    rw [hy i hi' hi hx]
    simp only [List.headD_cons, List.getD_eq_getElem _ _ hi']
    exact hV.2 _ hx

theorem evens_length {α : Type} : ∀ l : List α, (evens l).length = (l.length + 1) / 2
  | [] => by simp [evens]
  | [_] => by simp [evens]
  | x :: y :: l => by simp only [evens, List.length_cons, evens_length l]; omega

theorem odds_length {α : Type} : ∀ l : List α, (odds l).length = l.length / 2
  | [] => by simp [odds]
  | [_] => by simp [odds]
  | x :: y :: l => by simp only [odds, List.length_cons, odds_length l]; omega

theorem evens_get {α : Type} : ∀ (l : List α) (i : ℕ) (h1 : i < (evens l).length) (h2 : 2 * i < l.length), (evens l)[i] = l[2 * i]
  | [], _, _, h2 => by simp at h2
  | [_], 0, _, _ => rfl
  | [_], _ + 1, h1, _ => by simp [evens] at h1
  | x :: y :: l, 0, _, _ => rfl
  | x :: y :: l, i + 1, h1, h2 => by
    have := evens_get l i (by simpa [evens] using h1) (by simp only [List.length_cons] at h2; omega)
    simpa [evens, Nat.mul_add] using this

theorem odds_get {α : Type} : ∀ (l : List α) (i : ℕ) (h1 : i < (odds l).length) (h2 : 2 * i + 1 < l.length), (odds l)[i] = l[2 * i + 1]
  | [], _, _, h2 => by simp at h2
  | [_], _, h1, _ => by simp [odds] at h1
  | x :: y :: l, 0, _, _ => rfl
  | x :: y :: l, i + 1, h1, h2 => by
    have := odds_get l i (by simpa [odds] using h1) (by simp only [List.length_cons] at h2; omega)
    simpa [odds, Nat.mul_add] using this

theorem range_odd (n : ℕ) : rangeStep 1 (n : ℤ) 2 = ((List.range (n / 2)).map fun i => 2 * i + 1).map fun j : ℕ => (j : ℤ) := by
  rw [rangeStep, if_pos (by norm_num), List.map_map, show (((n : ℤ) - 1 + 2 - 1) / 2).toNat = n / 2 by omega]
  refine List.map_congr_left fun i _ => ?_
  simp only [Function.comp]
  push_cast
  ring

theorem range_even (n : ℕ) : rangeStep 0 (n : ℤ) 2 = ((List.range ((n + 1) / 2)).map fun i => 2 * i).map fun j : ℕ => (j : ℤ) := by
  rw [rangeStep, if_pos (by norm_num), List.map_map, show (((n : ℤ) - 0 + 2 - 1) / 2).toNat = (n + 1) / 2 by omega]
  refine List.map_congr_left fun i _ => ?_
  simp only [Function.comp]
  push_cast
  ring

theorem pick_odds (hv : HasVec h r xs) :
    ∃ B, item (.arr r [none] : Val K) [.pick (rangeStep 1 (xs.length : ℤ) 2)] h = pure (.arr h.length [none], h ++ [B]) ∧ IsVec B (odds xs) := by
  rw [range_odd]
  refine pickFrom_run hv (fun j hj => ?_) (by simp [odds_length]) fun i hi hi' hx => ?_
  · obtain ⟨i, hi, rfl⟩ := List.mem_map.mp hj
    rw [List.mem_range] at hi
    omega
  · simp only [List.getElem_map, List.getElem_range] at hx ⊢
    exact odds_get xs i hi' hx

theorem pick_evens (hv : HasVec h r xs) :
    ∃ B, item (.arr r [none] : Val K) [.pick (rangeStep 0 (xs.length : ℤ) 2)] h = pure (.arr h.length [none], h ++ [B]) ∧ IsVec B (evens xs) := by
  rw [range_even]
  refine pickFrom_run hv (fun j hj => ?_) (by simp [evens_length]) fun i hi hi' hx => ?_
  · obtain ⟨i, hi, rfl⟩ := List.mem_map.mp hj
    rw [List.mem_range] at hi
    omega
  · simp only [List.getElem_map, List.getElem_range] at hx ⊢
    exact evens_get xs i hi' hx

/-- The run makes a new vector. -/
def Makes (x : M K (Val K)) (h : Heap K) (ys : List K) : Prop :=
  ∃ r H, x h = pure (.arr r [none], H) ∧ HasVec H r ys ∧ h <+: H ∧ h.length ≤ r

theorem makes {x : M K (Val K)} {ys : List K} (hx : ∃ B, x h = pure (.arr h.length [none], h ++ [B]) ∧ IsVec B ys) : Makes x h ys := by
  obtain ⟨B, e, v⟩ := hx
  exact ⟨_, _, e, ⟨B, by simp, v⟩, List.prefix_append _ _, le_refl _⟩

theorem pre_set {H : Heap K} (hp : h <+: H) (hr : h.length ≤ r) (B : NdArray K) : h <+: H.set r B := by
  obtain ⟨t, rfl⟩ := hp
  rw [List.set_append_right _ _ hr]
  exact List.prefix_append _ _

theorem HasVec.bound {r : ℕ} (hv : HasVec h r xs) : r < h.length := by
  obtain ⟨A, hA, -⟩ := hv
  exact (List.getElem?_eq_some_iff.mp hA).1

theorem hasVec_set {B : NdArray K} (hr : r < h.length) (hB : IsVec B xs) : HasVec (h.set r B) r xs :=
  ⟨B, by simp [hr], hB⟩

theorem HasVec.pre {H : Heap K} (hv : HasVec h r xs) (hp : h <+: H) : HasVec H r xs := by
  obtain ⟨t, rfl⟩ := hp
  exact hv.mono t

end Interp.Spec.PySrc
