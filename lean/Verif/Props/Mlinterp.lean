import Verif.Proofs.Mlinterp
import Verif.Props.LinearValues
import Mathlib.Data.Rat.Floor

/-!
# `interp` and `mlinterp`: C34, C35, C36, C37, C38, C39

C37, C38 and C39 hold in any arithmetic, the others in exact arithmetic.
-/

set_option linter.unusedSectionVars false
set_option linter.unusedSimpArgs false

namespace Interp.Props
open Interp.Codegen Interp.Spec Interp.Mlinterp Interp.Ref

section any
variable {K : Type} [Add K] [Sub K] [Mul K] [Div K] [Neg K] [Zero K] [One K] [NatCast K]
  [IntCast K] [LT K] [DecidableLT K] [BEq K] [IntFloor K]

theorem axisOf_axisArg (g : GridDim K) : axisOf (axisArg g) = .ok g := by
  cases g with
  | uniform a b n => rfl
  | array l =>
    simp only [axisArg, axisOf, pure_eq_ok]
    congr 2
    refine List.ext_getElem (by simp) fun i h1 h2 => ?_
    simp [List.getD_eq_getElem?_getD, List.getElem?_eq_getElem h2]

theorem mapM_axes (G : List (GridDim K)) : (G.map axisArg).mapM axisOf = .ok G := by
  induction G with
  | nil => rfl
  | cons g G ih => rw [List.map_cons, List.mapM_cons, axisOf_axisArg, ok_bind, ih, ok_bind]; rfl

variable {G : List (GridDim K)} {C : NdArray K}

theorem take_axes (l : List (Arg K)) : (G.map axisArg ++ l).take G.length = G.map axisArg := by
  have := List.take_left (l₁ := G.map axisArg) (l₂ := l)
  rwa [List.length_map] at this

theorem drop_axes (l : List (Arg K)) (a : Arg K) :
    (G.map axisArg ++ a :: l).drop (G.length + 1) = l := by
  have := List.drop_left (l₁ := G.map axisArg ++ [a]) (l₂ := l)
  rw [List.length_append, List.length_map] at this
  simpa using this

theorem get_axes (l : List (Arg K)) (i : ℕ) : (G.map axisArg ++ l)[G.length + i]? = l[i]? := by
  rw [List.getElem?_append_right (by simp), List.length_map]
  congr 1
  omega

/-- Detection for axes, values and evaluation arguments. -/
theorem detect_axes (n : ℕ) (post : List Ty) (hG : G ≠ []) (hn : n = G.length ∨ n = G.length + 1)
    (hpost : post ≠ []) (h1 : G.length = 1 → post.length = 1)
    (h2 : 2 ≤ G.length → ∀ a ∈ post, a.dim ≤ n) :
    detectTypes (G.map (fun g => tyOf (axisArg g)) ++ .arr n :: post) = (do
      let e ← evalType post
      pure ⟨G.length, if n = G.length then .scalar else .vector, e⟩) := by
  have := detect_ok (G.map fun g => tyOf (axisArg g)) post n (by simpa using hG)
    (fun h t ht => by
      obtain ⟨g, _, rfl⟩ := List.mem_map.mp ht
      have := dim_axis g
      rw [List.length_map] at h
      omega)
    (by simpa using h1) (by simpa using h2) hpost (by simpa using hn)
  simpa using this

theorem interp_eq (post : List (Arg K)) (hG : G ≠ []) (hC : C.shape.length = G.length)
    (hpost : post ≠ []) (h1 : G.length = 1 → post.length = 1)
    (h2 : 2 ≤ G.length → ∀ a ∈ post, (tyOf a).dim ≤ G.length) (e : Eval)
    (he : evalType (post.map tyOf) = .ok e) :
    interp (G.map axisArg ++ .arr C :: post) =
      runMlinterp ⟨G.length, .scalar, if G.length = 1 ∧ e = .point then .cartesian else e⟩
        (G.map axisArg ++ .arr C :: post) := by
  have h := detect_axes (G := G) G.length (post.map tyOf) hG (Or.inl rfl) (by simpa using hpost)
    (by simpa using h1) (fun h a ha => by
      obtain ⟨b, hb, rfl⟩ := List.mem_map.mp ha
      exact h2 h b hb)
  rw [he, ok_bind, if_pos rfl] at h
  have e1 : (G.map axisArg ++ .arr C :: post).map tyOf
      = G.map (fun g => tyOf (axisArg g)) ++ .arr G.length :: post.map tyOf := by
    rw [List.map_append, List.map_cons, List.map_map]
    simp only [tyOf, hC]
    rfl
  rw [interp, e1, h]
  show runMlinterp _ _ = _
  simp only
  congr 1
  by_cases h : G.length = 1 ∧ e = .point
  · rw [if_pos h, if_pos h]
  · rw [if_neg h, if_neg h]

theorem evalType_scalars (post : List (Arg K)) (hpost : post ≠ [])
    (h : ∀ a ∈ post, tyOf a = .scalar) : evalType (post.map tyOf) = .ok .scalar := by
  rcases post with _ | ⟨a, _ | ⟨b, l⟩⟩
  · exact absurd rfl hpost
  · simp [h a, evalType]
  · have e1 : ((a :: b :: l).map tyOf).all Ty.isArr = false := by
      simp [h a, Ty.isArr]
    have e2 : ((a :: b :: l).map tyOf).all Ty.isScalar = true := by
      rw [List.all_eq_true]
      intro t ht
      obtain ⟨c, hc, rfl⟩ := List.mem_map.mp ht
      rw [h c hc]; rfl
    simp only [List.map_cons] at e1 e2
    rw [List.map_cons, List.map_cons, evalType, e1, e2]
    · rfl
    all_goals simp

theorem denotes_scalar {a : Arg K} {t : K} (h : Denotes a t) :
    tyOf a = .scalar ∧ scalarOf a = .ok t := by
  cases a with
  | flt x => exact ⟨rfl, by rw [scalarOf]; exact congrArg _ h⟩
  | int n => exact ⟨rfl, by rw [scalarOf]; exact congrArg _ h⟩
  | _ => exact h.elim

theorem mapM_scalars {ss : List (Arg K)} {x : List K} (h : List.Forall₂ Denotes ss x) :
    ss.mapM scalarOf = .ok x := by
  induction h with
  | nil => rfl
  | cons h _ ih => rw [List.mapM_cons, (denotes_scalar h).2, ok_bind, ih, ok_bind]; rfl

theorem forall₂_scalar {ss : List (Arg K)} {x : List K} (h : List.Forall₂ Denotes ss x) :
    ∀ a ∈ ss, tyOf a = .scalar := by
  induction h with
  | nil => simp
  | cons h _ ih =>
    intro a ha
    rcases List.mem_cons.mp ha with rfl | ha
    · exact (denotes_scalar h).1
    · exact ih a ha

/-- `interp` with scalar coordinates, possibly too many. -/
theorem interp_scalars (hG : G ≠ []) (hz : ∀ g ∈ G, NoZeroDiv g) (hC : C.shape = G.map axisLen)
    (x : List K) (ss extra : List (Arg K)) (hx : x.length = G.length)
    (hs : List.Forall₂ Denotes ss x) (hex : ∀ a ∈ extra, tyOf a = .scalar)
    (h1 : G.length = 1 → extra = []) :
    interp (G.map axisArg ++ .arr C :: (ss ++ extra)) = .ok (.num (ival G C x)) := by
  have hd : 0 < G.length := List.length_pos_iff.mpr hG
  have hsl : ss.length = G.length := hs.length_eq.trans hx
  have hall : ∀ a ∈ ss ++ extra, tyOf a = .scalar := by
    intro a ha
    rcases List.mem_append.mp ha with h | h
    · exact forall₂_scalar hs a h
    · exact hex a h
  have hne : ss ++ extra ≠ [] := by
    intro h
    have := congrArg List.length h
    rw [List.length_append, List.length_nil] at this
    omega
  rw [interp_eq (ss ++ extra) hG (by simp [hC]) hne
    (fun h => by simp [h1 h, hsl, h])
    (fun h a ha => by rw [hall a ha]; simp [Ty.dim]) .scalar (evalType_scalars _ hne hall)]
  have e2 : ((G.map axisArg ++ Arg.arr C :: (ss ++ extra)).drop (G.length + 1)).take G.length = ss := by
    rw [drop_axes, ← hsl]
    exact List.take_left
  have e3 := get_axes (G := G) (.arr C :: (ss ++ extra)) 0
  rw [Nat.add_zero] at e3
  simp only [runMlinterp, reduceCtorEq, if_false, and_false, hd.ne', take_axes, mapM_axes, ok_bind,
    e3, List.getElem?_cons_zero, e2, mapM_scalars hs, pure_eq_ok]
  rw [if_neg (by simp only [List.length_append, List.length_map, List.length_cons]; omega), projected_ok G C x hz (by omega) hC]
  rfl

/-- C37 in any arithmetic: on axes where no division by zero occurs, one function `v` gives the
results of all the ways of passing the points. -/
theorem C37_styles_agree (hG : G ≠ []) (hz : ∀ g ∈ G, NoZeroDiv g) (hC : C.shape = G.map axisLen) :
    InterpReturns G C (ival G C) where
  scalars x ss hx hs := by
    have := interp_scalars hG hz hC x ss [] hx hs (by simp) (fun _ => rfl)
    rwa [List.append_nil] at this
  tuple x hx := by
    have hd : 0 < G.length := List.length_pos_iff.mpr hG
    obtain ⟨t, l, rfl⟩ : ∃ t l, x = t :: l := by
      cases x with
      | nil => simp at hx; omega
      | cons t l => exact ⟨t, l, rfl⟩
    rw [interp_eq [.tup (t :: l)] hG (by simp [hC]) (by simp) (fun _ => rfl)
      (fun h a ha => by
        rw [List.mem_singleton.mp ha]
        simp only [tyOf, Ty.dim]; omega) .tuple rfl]
    have e3 := get_axes (G := G) [.arr C, .tup (t :: l)] 0
    have e4 := get_axes (G := G) [.arr C, .tup (t :: l)] 1
    rw [Nat.add_zero] at e3
    simp only [runMlinterp, reduceCtorEq, if_false, and_false, hd.ne', take_axes, mapM_axes, ok_bind,
      e3, e4, List.getElem?_cons_zero, List.getElem?_cons_succ, pure_eq_ok]
    rw [if_neg (by omega), projected_ok G C _ hz (by omega) hC]
    rfl
  point A h2 hA := by
    have hd : 0 < G.length := by omega
    rw [interp_eq [.arr A] hG (by simp [hC]) (by simp) (fun _ => rfl)
      (fun h a ha => by
        rw [List.mem_singleton.mp ha]
        simp only [tyOf, Ty.dim, hA, List.length_singleton]; omega) .point
        (by simp [tyOf, hA, evalType])]
    have e3 := get_axes (G := G) [.arr C, .arr A] 0
    have e4 := get_axes (G := G) [.arr C, .arr A] 1
    rw [Nat.add_zero] at e3
    have e5 : (List.range G.length).mapM (fun i => A.read [Int.ofNat i]) = .ok (vecOf A) := by
      rw [vecOf, hA]
      refine mapM_ok _ _ _ fun i hi => ?_
      exact A.read_ok [i] (by rw [hA]; exact ⟨List.mem_range.mp hi, trivial⟩)
    have h1 : ¬ (G.length = 1) := by omega
    simp only [runMlinterp, reduceCtorEq, if_false, h1, false_and, hd.ne', take_axes, mapM_axes, ok_bind,
      e3, e4, List.getElem?_cons_zero, List.getElem?_cons_succ, pure_eq_ok, vec1, e5]
    rw [projected_ok G C _ hz (by simp [vecOf, hA]) hC]
    rfl
  points A N h1 hA := by
    have hd : 0 < G.length := by omega
    rw [interp_eq [.arr A] hG (by simp [hC]) (by simp) (fun _ => rfl)
      (fun h a ha => by omega) .point (by simp [tyOf, hA, evalType])]
    have e3 := get_axes (G := G) [.arr C, .arr A] 0
    have e4 := get_axes (G := G) [.arr C, .arr A] 1
    rw [Nat.add_zero] at e3
    rw [h1] at e4
    obtain ⟨R, r1, r2, r3⟩ := tabulate_ok N (fun n : ℕ => (do
        let x ← A.read [(n : ℤ)]
        projected G C [x] : Py K)) (fun n => ival G C [A.get [n]]) (by
      intro n hn
      have : A.read [(n : ℤ)] = .ok (A.get [n]) := A.read_ok [n] (by rw [hA]; exact ⟨hn, trivial⟩)
      simp only [this, ok_bind]
      exact projected_ok G C _ hz (by simp; omega) hC)
    refine ⟨R, ?_, r2, r3⟩
    rw [if_pos ⟨h1, rfl⟩]
    simp only [runMlinterp, reduceCtorEq, if_false, hd.ne', take_axes, mapM_axes, ok_bind,
      e3, List.getElem?_cons_zero, pure_eq_ok]
    rw [if_pos h1, e4]
    simp only [List.getElem?_cons_zero, List.getElem?_cons_succ, vec1, pure_eq_ok, ok_bind, hA,
      List.getD_cons_zero]
    rw [r1]; rfl
  rows A N hA := by
    have hd : 0 < G.length := List.length_pos_iff.mpr hG
    rw [interp_eq [.arr A] hG (by simp [hC]) (by simp) (fun _ => rfl)
      (fun h a ha => by
        rw [List.mem_singleton.mp ha]
        simp only [tyOf, Ty.dim, hA, List.length_cons, List.length_nil]; omega) .vectorized
        (by simp [tyOf, hA, evalType])]
    have e3 := get_axes (G := G) [.arr C, .arr A] 0
    have e4 := get_axes (G := G) [.arr C, .arr A] 1
    rw [Nat.add_zero] at e3
    obtain ⟨R, r1, r2, r3⟩ := tabulate_ok N (fun n : ℕ => (do
        let x ← extractRow A n G.length
        projected G C x : Py K))
        (fun n => ival G C ((List.range G.length).map fun j => A.get [n, j])) (by
      intro n hn
      simp only [extractRow_ok A N G.length n G.length hA le_rfl hn, ok_bind]
      exact projected_ok G C _ hz (by simp) hC)
    refine ⟨R, ?_, r2, r3⟩
    simp only [runMlinterp, reduceCtorEq, if_false, and_false, hd.ne', take_axes, mapM_axes, ok_bind,
      e3, e4, List.getElem?_cons_zero, List.getElem?_cons_succ, pure_eq_ok, hA, List.getD_cons_zero]
    rw [r1]; rfl
  product A B N M h2 hA hB := by
    have hd : 0 < G.length := by omega
    rw [interp_eq [.arr A, .arr B] hG (by simp [hC]) (by simp) (fun _ => by omega)
      (fun h a ha => by
        have : a = .arr A ∨ a = .arr B := by simpa using ha
        rcases this with rfl | rfl
        · simp only [tyOf, Ty.dim, hA, List.length_singleton]; omega
        · simp only [tyOf, Ty.dim, hB, List.length_singleton]; omega) .cartesian
        (by simp [tyOf, hA, hB, evalType, Ty.isArr])]
    have e3 := get_axes (G := G) [.arr C, .arr A, .arr B] 0
    have e4 := get_axes (G := G) [.arr C, .arr A, .arr B] 1
    have e5 := get_axes (G := G) [.arr C, .arr A, .arr B] 2
    rw [Nat.add_zero] at e3
    rw [h2] at e4 e5
    obtain ⟨R, r1, r2, r3⟩ := pyFor_writes [N, M]
      (fun idx => ival G C [A.get [idx.getD 0 0], B.get [idx.getD 1 0]])
      (fun n : ℕ => pyFor (List.range M) fun (m : ℕ) res => (do
        let x ← A.read [(n : ℤ)]
        let y ← B.read [(m : ℤ)]
        let v ← projected G C [x, y]
        res.write [(n : ℤ), (m : ℤ)] v : Py (NdArray K)))
      (fun (n : ℕ) idx => ∃ m < M, idx = [n, m]) (List.range N) (NdArray.zeros [N, M]) rfl (by
        intro n hn D hD
        rw [List.mem_range] at hn
        obtain ⟨D', d1, d2, d3⟩ := pyFor_writes [N, M]
          (fun idx => ival G C [A.get [idx.getD 0 0], B.get [idx.getD 1 0]])
          (fun (m : ℕ) res => (do
            let x ← A.read [(n : ℤ)]
            let y ← B.read [(m : ℤ)]
            let v ← projected G C [x, y]
            res.write [(n : ℤ), (m : ℤ)] v : Py (NdArray K)))
          (fun m idx => idx = [n, m]) (List.range M) D hD (by
            intro m hm E hE
            rw [List.mem_range] at hm
            have a1 : A.read [(n : ℤ)] = .ok (A.get [n]) :=
              A.read_ok [n] (by rw [hA]; exact ⟨hn, trivial⟩)
            have a2 : B.read [(m : ℤ)] = .ok (B.get [m]) :=
              B.read_ok [m] (by rw [hB]; exact ⟨hm, trivial⟩)
            simp only [a1, a2, ok_bind, projected_ok G C [A.get [n], B.get [m]] hz (by simp; omega) hC]
            exact Wr.write E [n, m] _ (by rw [hE]; exact ⟨hn, hm, trivial⟩) _ rfl)
        refine ⟨D', d1, d2, fun idx => ⟨fun h => ?_, fun h => ?_⟩⟩
        · obtain ⟨m, hm, rfl⟩ := h
          exact (d3 _).1 ⟨m, List.mem_range.mpr hm, rfl⟩
        · refine (d3 _).2 ?_
          rintro ⟨m, hm, rfl⟩
          exact h ⟨m, List.mem_range.mp hm, rfl⟩)
    refine ⟨R, ?_, r2, fun i hi j hj => (r3 [i, j]).1 ⟨i, List.mem_range.mpr hi, j, hj, rfl⟩⟩
    have h1 : ¬ (G.length = 1) := by omega
    simp only [runMlinterp, reduceCtorEq, if_false, h1, false_and, hd.ne', take_axes, mapM_axes, ok_bind,
      e3, List.getElem?_cons_zero, pure_eq_ok]
    rw [if_pos h2, e4, e5]
    simp only [List.getElem?_cons_zero, List.getElem?_cons_succ, vec1, pure_eq_ok, ok_bind, hA, hB,
      List.getD_cons_zero]
    rw [r1]; rfl

theorem mlReturns (hG : G ≠ []) (hz : ∀ g ∈ G, NoZeroDiv g) (hC : C.shape = G.map axisLen) :
    MlReturns G C (mlVal G C.get) where
  tuple u hu := by
    have : ¬ (G = [] ∨ C.shape.length ≠ G.length) := by simp [hG, hC]
    simp only [mlinterp, this, if_false, hu, ne_eq, not_true_eq_false, mlPoint_ok G C u hz hu hC]
    rfl
  rows A N hA := by
    have h0 : ¬ (G = [] ∨ C.shape.length ≠ G.length) := by simp [hG, hC]
    obtain ⟨R, r1, r2, r3⟩ := tabulate_ok N (fun n : ℕ => (do
        let x ← extractRow A n G.length
        mlPoint G C x : Py K))
        (fun n => mlVal G C.get ((List.range G.length).map fun j => A.get [n, j])) (by
      intro n hn
      simp only [extractRow_ok A N G.length n G.length hA le_rfl hn, ok_bind]
      exact mlPoint_ok G C _ hz (by simp) hC)
    refine ⟨R, ?_, r2, r3⟩
    simp only [mlinterp, h0, if_false, hA, r1]
    rfl

/-! ### Call shapes -/

theorem evalType_all_scalar (n : ℕ) (hn : 0 < n) :
    evalType (List.replicate n .scalar) = .ok .scalar := by
  rcases n with _ | _ | n
  · omega
  · rfl
  · have e1 : (List.replicate (n + 2) Ty.scalar).all Ty.isArr = false := by
      simp [List.replicate_succ, Ty.isArr]
    have e2 : (List.replicate (n + 2) Ty.scalar).all Ty.isScalar = true := by
      simp [Ty.isScalar]
    simp only [List.replicate_succ] at e1 e2
    rw [List.replicate_succ, List.replicate_succ, evalType, e1, e2]
    · rfl
    all_goals simp

theorem evalType_product (n : ℕ) (hn : 2 ≤ n) :
    evalType (List.replicate n (.arr 1)) = .ok .cartesian := by
  rcases n with _ | _ | n
  · omega
  · omega
  · have e1 : (List.replicate (n + 2) (Ty.arr 1)).all Ty.isArr = true := by
      simp [Ty.isArr]
    have e2 : (List.replicate (n + 2) (Ty.arr 1)).all (· = .arr 1) = true := by
      simp
    simp only [List.replicate_succ] at e1 e2
    rw [List.replicate_succ, List.replicate_succ, evalType, e1, e2]
    · rfl
    all_goals simp

theorem docForm_evalType {d : ℕ} {post : List Ty} {e : Eval} (hd : 0 < d) (h : DocForm d post e) :
    evalType post = .ok e := by
  cases h with
  | scalars => exact evalType_all_scalar d hd
  | product h => exact evalType_product d h
  | _ => rfl

theorem docForm_dim {d : ℕ} {post : List Ty} {e : Eval} (h : DocForm d post e) :
    post.length = 1 ∨ (post.length = d ∧ (d = 1 → post.length = 1)) := by
  cases h <;> simp

theorem docForm_dim_le {d : ℕ} {post : List Ty} {e : Eval} (h : DocForm d post e) :
    ∀ t ∈ post, t.dim ≤ 2 := by
  intro t ht
  cases h with
  | scalars => rw [List.eq_of_mem_replicate ht]; simp [Ty.dim]
  | product h => rw [List.eq_of_mem_replicate ht]; simp [Ty.dim]
  | _ => rw [List.mem_singleton.mp ht]; simp [Ty.dim]

theorem docForm_ne {d : ℕ} {post : List Ty} {e : Eval} (hd : 0 < d) (h : DocForm d post e) :
    post ≠ [] := by
  cases h <;> simp <;> omega

/-- C38: after `d` axes and an array of dimension `d` (numbers at the nodes) or `d + 1` (vectors at
the nodes), every documented evaluation argument is recognised, with dimension `d`. -/
theorem C38_detection (pre post : List Ty) (hpre : pre ≠ []) (hax : ∀ t ∈ pre, IsAxisTy t) (e : Eval)
    (hp : DocForm pre.length post e) :
    detectTypes (pre ++ .arr pre.length :: post) = .ok ⟨pre.length, .scalar, e⟩ ∧
    detectTypes (pre ++ .arr (pre.length + 1) :: post) = .ok ⟨pre.length, .vector, e⟩ := by
  have hd : 0 < pre.length := List.length_pos_iff.mpr hpre
  have hdim : ∀ t ∈ pre, t.dim ≤ 1 := by
    intro t ht
    rcases hax t ht with rfl | rfl | rfl <;> simp [Ty.dim]
  have h1 : pre.length = 1 → post.length = 1 := fun h => by
    rcases docForm_dim hp with h' | h'
    · exact h'
    · exact h'.2 h
  constructor
  · rw [detect_ok pre post pre.length hpre (fun h t ht => by have := hdim t ht; omega) h1
      (fun h t ht => by have := docForm_dim_le hp t ht; omega) (docForm_ne hd hp) (Or.inl rfl),
      docForm_evalType hd hp, ok_bind, if_pos rfl]
    rfl
  · rw [detect_ok pre post (pre.length + 1) hpre
      (fun h t ht => by have := hdim t ht; push_cast; omega) h1
      (fun h t ht => by have := docForm_dim_le hp t ht; push_cast; omega) (docForm_ne hd hp)
      (Or.inr rfl), docForm_evalType hd hp, ok_bind, if_neg (by omega)]
    rfl

/-- C38: vector-valued data are rejected. -/
theorem C38_vector_rejected (pre : List Ty) (hpre : pre ≠ []) (hax : ∀ t ∈ pre, IsAxisTy t) (e : Eval)
    (post : List Ty) (hp : DocForm pre.length post e) (args : List (Arg K))
    (hargs : args.map tyOf = pre ++ .arr (pre.length + 1) :: post) :
    interp args = .error .typeErr := by
  rw [interp, hargs, (C38_detection pre post hpre hax e hp).2]
  show runMlinterp _ args = _
  by_cases h : pre.length = 1 ∧ e = .point <;> simp [h, runMlinterp] <;> rfl

/-- C38: cartesian products are rejected in dimension three and more. -/
theorem C38_product_rejected (hd : 3 ≤ G.length) (hC : C.shape.length = G.length)
    (post : List (Arg K)) (hp : post.map tyOf = List.replicate G.length (.arr 1)) :
    interp (G.map axisArg ++ .arr C :: post) = .error .typeErr := by
  have hG : G ≠ [] := List.length_pos_iff.mp (by omega)
  have hl : post.length = G.length := by
    have := congrArg List.length hp
    simpa using this
  have hne : post ≠ [] := List.length_pos_iff.mp (by omega)
  rw [interp_eq post hG hC hne (fun h => by omega) (fun h a ha => by
    have h1 : tyOf a ∈ post.map tyOf := List.mem_map_of_mem ha
    rw [hp] at h1
    rw [List.eq_of_mem_replicate h1]
    simp [Ty.dim]; omega) .cartesian (by rw [hp]; exact evalType_product _ (by omega))]
  have e3 := get_axes (G := G) (.arr C :: post) 0
  rw [Nat.add_zero] at e3
  have h0 : ¬ G.length = 0 := by omega
  have h1 : ¬ G.length = 1 := by omega
  have h2 : ¬ G.length = 2 := by omega
  simp only [runMlinterp, reduceCtorEq, if_false, and_false, take_axes, mapM_axes, ok_bind,
    e3, List.getElem?_cons_zero, pure_eq_ok, h0, h1, h2]
  rfl

/-- C39 fails: with two or more axes, any number of superfluous scalars is ignored. -/
theorem C39_extra_scalars_fails (hd : 2 ≤ G.length) (hz : ∀ g ∈ G, NoZeroDiv g)
    (hC : C.shape = G.map axisLen) (x : List K) (ss extra : List (Arg K)) (hx : x.length = G.length)
    (hs : List.Forall₂ Denotes ss x) (hex : ∀ a ∈ extra, tyOf a = .scalar) :
    ∃ v, interp (G.map axisArg ++ .arr C :: (ss ++ extra)) = .ok (.num v) ∧
      interp (G.map axisArg ++ .arr C :: ss) = .ok (.num v) := by
  have hG : G ≠ [] := List.length_pos_iff.mp (by omega)
  refine ⟨_, interp_scalars hG hz hC x ss extra hx hs hex (fun h => by omega), ?_⟩
  have := interp_scalars hG hz hC x ss [] hx hs (by simp) (fun _ => rfl)
  rwa [List.append_nil] at this

theorem evalType_arrays (post : List (Arg K)) (h2 : 2 ≤ post.length)
    (h : ∀ a ∈ post, tyOf a = .arr 1) : evalType (post.map tyOf) = .ok .cartesian := by
  have : post.map tyOf = List.replicate post.length (.arr 1) := by
    rw [List.eq_replicate_iff]
    refine ⟨by simp, fun t ht => ?_⟩
    obtain ⟨a, ha, rfl⟩ := List.mem_map.mp ht
    exact h a ha
  rw [this]
  exact evalType_product _ h2

/-- C39 fails: with two axes, any number of superfluous vectors is ignored. -/
theorem C39_extra_arrays_fails (hd : G.length = 2) (hz : ∀ g ∈ G, NoZeroDiv g)
    (hC : C.shape = G.map axisLen) (A B : NdArray K) (N M : ℕ) (hA : A.shape = [N])
    (hB : B.shape = [M]) (extra : List (Arg K)) (hex : ∀ a ∈ extra, tyOf a = .arr 1) :
    ∃ R, interp (G.map axisArg ++ .arr C :: .arr A :: .arr B :: extra) = .ok (.arr R) ∧
      interp (G.map axisArg ++ [.arr C, .arr A, .arr B]) = .ok (.arr R) := by
  have hG : G ≠ [] := List.length_pos_iff.mp (by omega)
  obtain ⟨R, hR, -⟩ := (C37_styles_agree hG hz hC).product A B N M hd hA hB
  refine ⟨R, ?_, hR⟩
  have hall : ∀ (ex : List (Arg K)), (∀ a ∈ ex, tyOf a = .arr 1) →
      ∀ a ∈ (Arg.arr A :: Arg.arr B :: ex), tyOf a = .arr 1 := by
    intro ex hex a ha
    rcases List.mem_cons.mp ha with rfl | ha
    · simp [tyOf, hA]
    rcases List.mem_cons.mp ha with rfl | ha
    · simp [tyOf, hB]
    exact hex a ha
  have key : ∀ (ex : List (Arg K)), (∀ a ∈ ex, tyOf a = .arr 1) →
      interp (G.map axisArg ++ .arr C :: .arr A :: .arr B :: ex)
        = runMlinterp ⟨G.length, .scalar, .cartesian⟩
          (G.map axisArg ++ .arr C :: .arr A :: .arr B :: ex) := by
    intro ex hex
    rw [interp_eq (.arr A :: .arr B :: ex) hG (by simp [hC]) (by simp) (fun h => by omega)
      (fun h a ha => by rw [hall ex hex a ha]; simp [Ty.dim]; omega) .cartesian
      (evalType_arrays _ (by simp) (hall ex hex)), if_neg (by simp)]
  rw [← hR, key extra hex, key [] (by simp)]
  have e : ∀ (ex : List (Arg K)) (i : ℕ), i < 3 →
      (G.map axisArg ++ Arg.arr C :: Arg.arr A :: Arg.arr B :: ex)[G.length + i]?
        = [Arg.arr C, Arg.arr A, Arg.arr B][i]? := by
    intro ex i hi
    rw [get_axes]
    rcases i with _ | _ | _ | i <;> first | rfl | omega
  have e0 := fun ex => e ex 0 (by omega)
  have e1 := fun ex => e ex 1 (by omega)
  have e2 := fun ex => e ex 2 (by omega)
  rw [hd] at e1 e2
  simp only [Nat.add_zero] at e0
  have h1 : ¬ G.length = 1 := by omega
  have h0 : ¬ G.length = 0 := by omega
  simp only [runMlinterp, reduceCtorEq, if_false, h0, h1, take_axes, mapM_axes, ok_bind, e0, if_pos hd,
    e1, e2]

/-- C39, what holds: too few scalars are rejected. (With no coordinate at all and two axes, the
call `interp(x, y, C)` is the documented one-dimensional call with points `C`.) Missing: too many
scalars or vectors are accepted, see above. -/
theorem C39_too_few_partial (hd : 2 ≤ G.length) (hC : C.shape.length = G.length)
    (ss : List (Arg K)) (hne : ss ≠ []) (hs : ∀ a ∈ ss, tyOf a = .scalar) (hlt : ss.length < G.length) :
    interp (G.map axisArg ++ .arr C :: ss) = .error .typing := by
  have hG : G ≠ [] := List.length_pos_iff.mp (by omega)
  rw [interp_eq ss hG hC hne (fun h => by omega) (fun h a ha => by rw [hs a ha]; simp [Ty.dim])
    .scalar (evalType_scalars ss hne hs)]
  have e3 := get_axes (G := G) (.arr C :: ss) 0
  rw [Nat.add_zero] at e3
  have h0 : ¬ G.length = 0 := by omega
  simp only [runMlinterp, reduceCtorEq, if_false, and_false, take_axes, mapM_axes, ok_bind,
    e3, List.getElem?_cons_zero, pure_eq_ok, h0]
  rw [if_pos (by simp only [List.length_append, List.length_map, List.length_cons]; omega)]
  rfl

/-- C39, what holds: tuples that are too short are rejected, by `interp` and `mlinterp`; tuples of
any other length than `d` are rejected by `mlinterp`. -/
theorem C39_tuples_partial (hG : G ≠ []) (hC : C.shape.length = G.length) (x : List K) :
    (x ≠ [] → x.length < G.length → interp (G.map axisArg ++ [.arr C, .tup x]) = .error .typing) ∧
    (x.length ≠ G.length → mlinterp G C (.tup x) = .error .typing) := by
  have hd : 0 < G.length := List.length_pos_iff.mpr hG
  constructor
  · intro hne hlt
    obtain ⟨t, l, rfl⟩ : ∃ t l, x = t :: l := by
      cases x with
      | nil => exact absurd rfl hne
      | cons t l => exact ⟨t, l, rfl⟩
    rw [interp_eq [.tup (t :: l)] hG hC (by simp) (fun _ => rfl)
      (fun h a ha => by
        rw [List.mem_singleton.mp ha]
        simp only [tyOf, Ty.dim]; omega) .tuple rfl]
    have e3 := get_axes (G := G) [.arr C, .tup (t :: l)] 0
    have e4 := get_axes (G := G) [.arr C, .tup (t :: l)] 1
    rw [Nat.add_zero] at e3
    simp only [runMlinterp, reduceCtorEq, if_false, and_false, hd.ne', take_axes, mapM_axes, ok_bind,
      e3, e4, List.getElem?_cons_zero, List.getElem?_cons_succ, pure_eq_ok]
    rw [if_pos hlt]
    rfl
  · intro hne
    have h0 : ¬ (G = [] ∨ C.shape.length ≠ G.length) := by simp [hG, hC]
    simp only [mlinterp, h0, if_false, ne_eq, hne, not_false_eq_true, if_true]
    rfl

end any

/-! ### Exact arithmetic -/

section exact
variable {F : Type} [Field F] [LinearOrder F] [IsStrictOrderedRing F] [FloorRing F]
  {G : List (GridDim F)} {C : NdArray F}

theorem noZeroDiv_of_valid {g : GridDim F} (h : ValidAxis g) : NoZeroDiv g := by
  cases g with
  | uniform a b n =>
    obtain ⟨h1, h2⟩ := uniform_pos h
    have h3 : ((n - 1 : ℤ) : F) = (n : F) - 1 := by push_cast; rfl
    refine ⟨h.2, ?_, ?_⟩
    · rw [h3, beq_eq_false_iff_ne]; exact h1.ne'
    · rw [h3, beq_eq_false_iff_ne]; exact (div_pos h2 h1).ne'
  | array l =>
    refine ⟨h.1, fun i hi => ?_⟩
    rw [beq_eq_false_iff_ne, sub_ne_zero]
    exact (node_lt (g := .array l) h (Nat.lt_succ_self i) hi).ne'

theorem axisLen_eq (g : GridDim F) : axisLen g = nNodes g := by cases g <;> rfl

theorem cellI_eq {g : GridDim F} (h : ValidAxis g) (x : F) : cellI g x = cell g x := by
  cases g with
  | uniform a b n =>
    obtain ⟨h1, h2⟩ := uniform_pos h
    have h3 : ((n - 1 : ℤ) : F) = (n : F) - 1 := by push_cast; rfl
    have h4 : (x - a) / ((b - a) / ((n : F) - 1)) = (x - a) * (((n : F) - 1) / (b - a)) := by
      field_simp
    have h5 : cellI (.uniform a b n) x
        = min (n - 2) (max 0 ⌊(x - a) * (((n : F) - 1) / (b - a))⌋) := by
      rw [← pyMaxZ_eq, ← pyMinZ_eq, ← h4, ← h3]; rfl
    have h6 : cell (.uniform a b n) x
        = max (min ⌊(x - a) * (((n : F) - 1) / (b - a))⌋ (n - 2)) 0 := by
      rw [← pyMinZ_eq, ← pyMaxZ_eq]; rfl
    have := h.2
    rw [h5, h6]; omega
  | array l =>
    have h5 : cellI (.array l) x = min ((l.length : ℤ) - 2) (max 0 ((searchsorted l x : ℤ) - 1)) := by
      rw [← pyMaxZ_eq, ← pyMinZ_eq]; rfl
    have h6 : cell (.array l) x = min (max ((searchsorted l x : ℤ) - 1) 0) ((l.length : ℤ) - 2) := by
      rw [← pyMaxZ_eq, ← pyMinZ_eq]; rfl
    rw [h5, h6]; omega

theorem lamI_eq {g : GridDim F} (h : ValidAxis g) (x : F) : lamI g x = lam g x := by
  have hc := cellI_eq h x
  cases g with
  | uniform a b n =>
    obtain ⟨h1, h2⟩ := uniform_pos h
    have h3 : ((n - 1 : ℤ) : F) = (n : F) - 1 := by push_cast; rfl
    simp only [lamI, lam]
    rw [hc, h3]
    field_simp
  | array l =>
    simp only [lamI, lam, delta]
    rw [hc]

theorem mlVal_plain : ∀ (G : List (GridDim F)) (c : List ℕ → F) (x : List F),
    (∀ g ∈ G, ValidAxis g) → x.length = G.length → mlVal G c x = plain 1 G x c
  | [], c, x, _, _ => by rw [plain_nil]; simp [mlVal]
  | _ :: _, _, [], _, h => by simp at h
  | g :: G, c, t :: x, hG, hx => by
    have hg := hG g (by simp)
    rw [mlVal, plain_cons, lin1, cellI_eq hg, lamI_eq hg,
      mlVal_plain G _ x (fun g' h' => hG g' (by simp [h'])) (by simpa using hx),
      mlVal_plain G _ x (fun g' h' => hG g' (by simp [h'])) (by simpa using hx)]

theorem zipWith_projI (G : List (GridDim F)) (x : List F) (hG : ∀ g ∈ G, ValidAxis g) :
    List.zipWith projI G x = projBox G x := by
  induction G generalizing x with
  | nil => rfl
  | cons g G ih =>
    cases x with
    | nil => rfl
    | cons t x =>
      rw [List.zipWith_cons_cons, ih x fun g' h' => hG g' (by simp [h'])]
      have hg := hG g (by simp)
      have hlt := first_lt_last hg
      have e : projI g t = max (first g) (min t (last g)) := by
        have : projI g t = pyMin (pyMax t (lo g)) (hi g) := by cases g <;> rfl
        rw [this, pyMin_eq, pyMax_eq, lo_eq, hi_eq hg]
        rcases le_total t (first g) with h | h
        · rw [max_eq_right h, min_eq_left hlt.le, min_eq_left (h.trans hlt.le), max_eq_left h]
        · rw [max_eq_left h]
          rcases le_total t (last g) with h' | h'
          · rw [min_eq_left h', max_eq_right h]
          · rw [min_eq_right h', max_eq_right hlt.le]
      rw [e]; rfl

/-- The hypotheses: a valid grid and one value per node. -/
structure GridData (G : List (GridDim F)) (C : NdArray F) : Prop where
  grid : ValidGrid G
  shape : C.shape = gridShape G

theorem GridData.noZero (h : GridData G C) : ∀ g ∈ G, NoZeroDiv g :=
  fun g hg => noZeroDiv_of_valid (h.grid.2 g hg)

theorem GridData.len (h : GridData G C) : C.shape = G.map axisLen := by
  rw [h.shape, gridShape]
  exact List.map_congr_left fun g _ => (axisLen_eq g).symm

theorem GridData.interp (h : GridData G C) : InterpReturns G C (ival G C) :=
  C37_styles_agree h.grid.1 h.noZero h.len

theorem projBox_length (x : List F) (hx : x.length = G.length) : (projBox G x).length = G.length := by
  simp [projBox, hx]

theorem GridData.ival (h : GridData G C) (x : List F) (hx : x.length = G.length) :
    ival G C x = plain 1 G (projBox G x) C.get := by
  rw [Mlinterp.ival, zipWith_projI G x h.grid.2, mlVal_plain G _ _ h.grid.2 (projBox_length x hx)]

/-- C34, `interp`: at every node the stored value is returned, however the node is passed. -/
theorem C34_interp_nodes (h : GridData G C) : ∃ v, InterpReturns G C v ∧
    ∀ idx, InShape (gridShape G) idx → v (nodeAt G idx) = C.get idx := by
  refine ⟨_, h.interp, fun idx hidx => ?_⟩
  rw [h.ival _ (nodeAt_length G idx hidx), projBox_of_inBox G _ (nodeAt_inBox G idx h.grid.2 hidx),
    plain_node G idx C.get h.grid.2 hidx]

/-- C34, `mlinterp`. -/
theorem C34_mlinterp_nodes (h : GridData G C) : ∃ v, MlReturns G C v ∧
    ∀ idx, InShape (gridShape G) idx → v (nodeAt G idx) = C.get idx := by
  refine ⟨_, mlReturns h.grid.1 h.noZero h.len, fun idx hidx => ?_⟩
  rw [mlVal_plain G _ _ h.grid.2 (nodeAt_length G idx hidx), plain_node G idx C.get h.grid.2 hidx]

/-- C35: the result at a point is the result at its projection on the box of the grid, and lies
between any bounds of the data. -/
theorem C35_interp_clamps (h : GridData G C) : ∃ v, InterpReturns G C v ∧
    ∀ x : List F, x.length = G.length → v x = v (projBox G x) ∧
      ∀ lower upper : F, (∀ idx, InShape (gridShape G) idx → lower ≤ C.get idx ∧ C.get idx ≤ upper) →
        lower ≤ v x ∧ v x ≤ upper := by
  refine ⟨_, h.interp, fun x hx => ?_⟩
  have hp := projBox_inBox G x h.grid.2 hx
  refine ⟨?_, fun lower upper hb => ?_⟩
  · rw [h.ival x hx, h.ival _ (projBox_length x hx), projBox_of_inBox G _ hp]
  · rw [h.ival x hx]
    obtain ⟨J, hJ⟩ := inClosedCell_exists G _ h.grid.2 hp
    constructor
    · rw [← plain_const G (projBox G x) lower (projBox_length x hx) h.grid.2]
      exact plain_mono G _ J _ _ h.grid.2 hJ fun idx hidx => (hb idx (corner_inShape G _ J idx hJ hidx)).1
    · rw [← plain_const G (projBox G x) upper (projBox_length x hx) h.grid.2]
      exact plain_mono G _ J _ _ h.grid.2 hJ fun idx hidx => (hb idx (corner_inShape G _ J idx hJ hidx)).2

/-- C36: `mlinterp` and `eval_linear` (default extrapolation) return the same numbers at every
point, inside, outside or on the nodes, however each of them is called. -/
theorem C36_mlinterp_eq_eval_linear (h : GridData G C) : ∃ v, MlReturns G C v ∧
    ∀ x : List F, x.length = G.length → Returns 1 G C false 1 none "linear" x (fun _ => v x) := by
  refine ⟨_, mlReturns h.grid.1 h.noZero h.len, fun x hx => ?_⟩
  have hr : Request 1 G C false 1 none := by
    refine ⟨h.grid, ?_, Or.inl rfl, fun os hos => by simp at hos⟩
    rw [h.shape]
    simp [gridShape]
  refine (hr.good.returns "linear" x hx).congr fun tail ht => ?_
  rw [rowEntry_plain 1 _ G C false 1 _ tail ht, mlVal_plain G _ _ h.grid.2 hx]
  have : tail = [] := inShape_nil_iff.mp ht
  subst this
  show plain 1 G x (fun r => C.get (r ++ [])) = _
  simp only [List.append_nil]

/-- C36 for `interp`: it equals `eval_linear` in mode `nearest`. -/
theorem C36_interp_eq_eval_nearest (h : GridData G C) : ∃ v, InterpReturns G C v ∧
    ∀ x : List F, x.length = G.length → Returns 1 G C false 1 none "nearest" x (fun _ => v x) := by
  refine ⟨_, h.interp, fun x hx => ?_⟩
  have hr : Request 1 G C false 1 none := by
    refine ⟨h.grid, ?_, Or.inl rfl, fun os hos => by simp at hos⟩
    rw [h.shape]
    simp [gridShape]
  refine (hr.good.returns "nearest" x hx).congr fun tail ht => ?_
  rw [rowEntry_plain 1 _ G C false 1 _ tail ht, h.ival x hx]
  have : tail = [] := inShape_nil_iff.mp ht
  subst this
  simp only [List.append_nil, evalMode, if_true]
  rw [zipWith_clamp G x h.grid.2]
  rfl

/-! ### The hypotheses can be met -/

private def exG : List (GridDim ℚ) := [.uniform 0 1 3, .array [0, 1, 3]]
private def exC : NdArray ℚ := ⟨[3, 3], fun idx => (idx.getD 0 0 : ℚ) * 10 + (idx.getD 1 0 : ℚ) ^ 2⟩

private theorem exData : GridData exG exC := by
  refine ⟨⟨by simp [exG], ?_⟩, rfl⟩
  intro g hg
  have : g = .uniform 0 1 3 ∨ g = .array [0, 1, 3] := by simpa [exG] using hg
  rcases this with rfl | rfl
  · exact ⟨by norm_num, by norm_num⟩
  · refine ⟨by decide, ?_⟩
    norm_num

example : ∃ v, InterpReturns exG exC v ∧ v (nodeAt exG [2, 1]) = 21 := by
  obtain ⟨v, h, hv⟩ := C34_interp_nodes exData
  exact ⟨v, h, by rw [hv [2, 1] (by decide)]; norm_num [exC]⟩

example : ∃ v, MlReturns exG exC v ∧
    Returns 1 exG exC false 1 none "linear" [5, -2] (fun _ => v [5, -2]) := by
  obtain ⟨v, h, hv⟩ := C36_mlinterp_eq_eval_linear exData
  exact ⟨v, h, hv [5, -2] rfl⟩

example : ∃ v : ℚ, interp (exG.map axisArg ++ .arr exC :: ([.flt (1/4), .int 2] ++ [.int 7]))
      = .ok (.num v) ∧ interp (exG.map axisArg ++ .arr exC :: [.flt (1/4), .int 2]) = .ok (.num v) :=
  C39_extra_scalars_fails (by decide) exData.noZero exData.len [1/4, 2] _ _ rfl
    (.cons rfl (.cons (by norm_num [Denotes]) .nil)) (by simp [tyOf])

example : detectTypes [.arr 1, .other, .arr 1, .arr 3, .scalar, .scalar, .scalar]
    = .ok ⟨3, .scalar, .scalar⟩ :=
  (C38_detection [.arr 1, .other, .arr 1] _ (by simp) (by simp [IsAxisTy]) _ .scalars).1

end exact

end Interp.Props
