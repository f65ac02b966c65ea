import Verif.Props.SplineCalls
import Verif.Props.LinearValues

/-!
# Option objects: C94
-/

set_option linter.unusedSectionVars false

namespace Interp.Props
open Interp.Codegen Interp.Spec Interp.Ref

variable {F : Type} [Field F] [LinearOrder F] [IsStrictOrderedRing F] [FloorRing F]

/-- What `call points options` gives for matrices of points, allocated and in place: `E x tail` in the row of `x`. -/
structure RowsAre (call : Points F → List (OptArg F) → Py (Outcome F)) (d : ℕ) (tails : List ℕ) (opt : List (OptArg F))
    (E : List F → List ℕ → F) : Prop where
  alloc : ∀ xs : List (List F), (∀ y ∈ xs, y.length = d) →
    ∀ pre ∈ [[], [OptArg.none]],
    ∃ A, call (.rows xs) (pre ++ opt) = .ok ⟨.array A, none⟩ ∧ A.shape = xs.length :: tails ∧
      ∀ i x, xs[i]? = some x → ∀ tail, InShape tails tail → A.get (i :: tail) = E x tail
  inplace : ∀ (xs : List (List F)) (B : NdArray F), (∀ y ∈ xs, y.length = d) → B.shape = xs.length :: tails →
    ∃ A, call (.rows xs) (.out B :: opt) = .ok ⟨.none, some A⟩ ∧ A.shape = B.shape ∧
      ∀ i x, xs[i]? = some x → ∀ tail, InShape tails tail → A.get (i :: tail) = E x tail

/-- What `call` gives for one point of a scalar spline. -/
def PointIs (call : Points F → List (OptArg F) → Py (Outcome F)) (d : ℕ) (opt : List (OptArg F)) (E : List F → F) : Prop :=
  ∀ x : List F, x.length = d → call (.point x) opt = .ok ⟨.scalar (E x), none⟩

variable {k : ℕ} {G : List (GridDim F)} {C : NdArray F} {vec : Bool} {m : ℕ}

/-- The text that an option stands for. -/
theorem rowsAre_of_returns {call : Points F → List (OptArg F) → Py (Outcome F)} {mode : String} {opt : List (OptArg F)}
    {E : List F → List ℕ → F}
    (h0 : ∀ p, ∀ pre ∈ [[], [OptArg.none]], call p (pre ++ opt) = evalSpline G C p none k none mode)
    (h1 : ∀ p B, call p (.out B :: opt) = evalSpline G C p (some B) k none mode)
    (hE : ∀ x : List F, x.length = G.length → Returns k G C vec m none mode x (E x)) :
    RowsAre call G.length (tailShape vec m none) opt E where
  alloc xs hx pre hpre := by
    rw [h0 _ pre hpre]
    by_cases hne : xs = []
    · subst hne
      obtain ⟨A, h1, h2, _⟩ := (hE (List.replicate G.length 0) (by simp)).rows [] (by simp)
      exact ⟨A, h1, h2, by simp⟩
    · obtain ⟨y, ys, rfl⟩ := List.exists_cons_of_ne_nil hne
      obtain ⟨A, h1, h2, _⟩ := (hE y (hx y (by simp))).rows (y :: ys) hx
      refine ⟨A, h1, h2, fun i x hi tail ht => ?_⟩
      obtain ⟨A', h1', _, h3'⟩ := (hE x (hx x (List.mem_of_getElem? hi))).rows (y :: ys) hx
      rw [h1] at h1'
      cases h1'
      exact h3' i hi tail ht
  inplace xs B hx hB := by
    rw [h1]
    by_cases hne : xs = []
    · subst hne
      obtain ⟨A, h1, h2, _⟩ := (hE (List.replicate G.length 0) (by simp)).rowsOut [] B (by simp) hB
      exact ⟨A, h1, h2, by simp⟩
    · obtain ⟨y, ys, rfl⟩ := List.exists_cons_of_ne_nil hne
      obtain ⟨A, h1, h2, _⟩ := (hE y (hx y (by simp))).rowsOut (y :: ys) B hx hB
      refine ⟨A, h1, h2, fun i x hi tail ht => ?_⟩
      obtain ⟨A', h1', _, h3'⟩ := (hE x (hx x (List.mem_of_getElem? hi))).rowsOut (y :: ys) B hx hB
      rw [h1] at h1'
      cases h1'
      exact h3' i hi tail ht

/-- `eval_linear` or `eval_cubic`. -/
def evalOf (k : ℕ) : List (GridDim F) → NdArray F → Points F → List (OptArg F) → Py (Outcome F) :=
  if k = 1 then evalLinear else evalCubic

theorem request_degree (h : Request k G C vec m none) : k = 1 ∨ k = 3 := by
  rcases h.degree with h | h
  · exact Or.inl h
  · exact Or.inr h.1

theorem evalOf_eq (h : k = 1 ∨ k = 3) : evalOf (F := F) k = evalCompat k := by
  rcases h with rfl | rfl <;> rfl

open Classical in
/-- C94. The option objects of `eval_linear` and `eval_cubic`: without option or with `options.LINEAR` the values `E`, with
`options.NEAREST` those at the projection on the grid box, with `options.CONSTANT` zero outside the box and `E` inside;
allocated, with `None`, and in place; and at a single point of a scalar spline on uniform axes. -/
theorem C94_options (h : Request k G C vec m none) : ∃ E : List F → List ℕ → F,
    let call := evalOf k G C
    (∀ opt ∈ [[], [OptArg.extrap .linear]], RowsAre call G.length (tailShape vec m none) opt E) ∧
    RowsAre call G.length (tailShape vec m none) [.extrap .nearest] (fun x => E (projBox G x)) ∧
    RowsAre call G.length (tailShape vec m none) [.extrap .constant]
      (fun x tail => if InBox G x then E x tail else 0) ∧
    (vec = false → (∀ g ∈ G, g.gtype = .uniform) →
      ∀ pre ∈ [[], [OptArg.none], [OptArg.other]],
      (∀ opt ∈ [[], [OptArg.extrap .linear]], PointIs call G.length (pre ++ opt) (fun x => E x [])) ∧
      PointIs call G.length (pre ++ [.extrap .nearest]) (fun x => E (projBox G x) []) ∧
      PointIs call G.length (pre ++ [.extrap .constant]) (fun x => if InBox G x then E x [] else 0)) := by
  have hlin : ∀ x : List F, x.length = G.length → Returns k G C vec m none "linear" x (rowEntry k "linear" G C vec none x) :=
    fun x hx => h.good.returns "linear" x hx
  have hnear : ∀ x : List F, x.length = G.length →
      Returns k G C vec m none "nearest" x (rowEntry k "linear" G C vec none (projBox G x)) := by
    intro x hx
    refine (h.good.returns "nearest" x hx).congr fun tail _ => ?_
    simp [rowEntry, evalMode, zipWith_clamp G x h.grid.2]
  have hconst : ∀ x : List F, x.length = G.length →
      Returns k G C vec m none "constant" x (fun tail => if InBox G x then rowEntry k "linear" G C vec none x tail else 0) := by
    intro x hx
    refine (h.good.returns "constant" x hx).congr fun tail _ => ?_
    have := any_outside_iff G x h.grid.2 hx
    by_cases hin : InBox G x
    · rw [if_pos hin]
      simp [rowEntry, evalMode, this.2 hin]
    · rw [if_neg hin]
      have : (List.zipWith isOutside G x).any id = true := by
        rw [← Bool.not_eq_false]
        exact fun h => hin (this.1 h)
      simp [rowEntry, evalMode, this]
  refine ⟨fun x tail => rowEntry k "linear" G C vec none x tail, ?_⟩
  dsimp only
  rw [evalOf_eq (request_degree h)]
  refine ⟨?_, ?_, ?_, ?_⟩
  · intro opt hopt
    refine rowsAre_of_returns (mode := "linear") ?_ ?_ hlin
    · simp only [List.mem_cons, List.not_mem_nil, or_false] at hopt ⊢
      rintro p pre (rfl | rfl) <;> rcases hopt with rfl | rfl <;> rfl
    · simp only [List.mem_cons, List.not_mem_nil, or_false] at hopt
      rcases hopt with rfl | rfl <;> intros <;> rfl
  · refine rowsAre_of_returns (mode := "nearest") ?_ (fun _ _ => rfl) hnear
    simp only [List.mem_cons, List.not_mem_nil, or_false]
    rintro p pre (rfl | rfl) <;> rfl
  · refine rowsAre_of_returns (mode := "constant") ?_ (fun _ _ => rfl) hconst
    simp only [List.mem_cons, List.not_mem_nil, or_false]
    rintro p pre (rfl | rfl) <;> rfl
  · intro hv hu pre hpre
    have hm : ∀ mode, PointModeOk mode G := fun _ _ => hu
    have hlen : ¬ (C.shape.length = G.length + 1) := by
      rw [h.shape, hv]; simp
    have into : ∀ (mode : String) (e : F) (x : List F), Returns k G C vec m none mode x (fun _ => e) →
        ∀ o ∈ [OptArg.none, OptArg.other], evalOutArg k G C (.point x) mode o = .ok ⟨.scalar e, none⟩ := by
      intro mode e x hr o ho
      simp only [List.mem_cons, List.not_mem_nil, or_false] at ho
      rcases ho with rfl | rfl
      · exact hr.pointScalar (hm _) hv rfl none
      · simp only [evalOutArg]
        rw [if_neg (by simp [Points.isRows, hlen]), hr.pointScalar (hm _) hv rfl]
        rfl
    have scalar : ∀ (mode : String) (E : List ℕ → F) (x : List F), Returns k G C vec m none mode x E →
        Returns k G C vec m none mode x (fun _ => E []) := by
      intro mode E x hr
      refine hr.congr fun tail ht => ?_
      rw [hv] at ht
      rw [inShape_nil_iff.1 ht]
    simp only [List.mem_cons, List.not_mem_nil, or_false] at hpre
    refine ⟨?_, ?_, ?_⟩
    · intro opt hopt x hx
      have hr := scalar _ _ _ (hlin x hx)
      simp only [List.mem_cons, List.not_mem_nil, or_false] at hopt
      rcases hpre with rfl | rfl | rfl <;> rcases hopt with rfl | rfl
      · exact hr.pointScalar (hm _) hv rfl none
      · exact hr.pointScalar (hm _) hv rfl none
      · exact into _ _ _ hr .none (by simp)
      · exact into _ _ _ hr .none (by simp)
      · exact into _ _ _ hr .other (by simp)
      · exact into _ _ _ hr .other (by simp)
    · intro x hx
      have hr := scalar _ _ _ (hnear x hx)
      rcases hpre with rfl | rfl | rfl
      · exact hr.pointScalar (hm _) hv rfl none
      · exact into _ _ _ hr .none (by simp)
      · exact into _ _ _ hr .other (by simp)
    · intro x hx
      have hr := scalar _ _ _ (hconst x hx)
      rcases hpre with rfl | rfl | rfl
      · exact hr.pointScalar (hm _) hv rfl none
      · exact into _ _ _ hr .none (by simp)
      · exact into _ _ _ hr .other (by simp)

/-- C94. Other trailing arguments are refused: more than two, an option before anything but another option, a second
argument that is no option; and a value that is no array in place of the output, unless the output is not used. -/
theorem C94_refused (hk : k = 1 ∨ k = 3) (G : List (GridDim F)) (C : NdArray F) (p : Points F) :
    (∀ opt : List (OptArg F), 2 < opt.length → evalOf k G C p opt = .error .typing) ∧
    (∀ o o' : OptArg F, (∀ e, o' ≠ .extrap e) → evalOf k G C p [o, o'] = .error .typing) ∧
    (p.isRows = true ∨ C.shape.length = G.length + 1 →
      evalOf k G C p [.other] = .error .typing ∧ ∀ e, evalOf k G C p [.other, .extrap e] = .error .typing) := by
  rw [evalOf_eq hk]
  refine ⟨?_, ?_, ?_⟩
  · intro opt hopt
    match opt, hopt with
    | [], h => simp at h
    | [_], h => simp at h
    | [_, _], h => simp at h
    | o :: o' :: _ :: _, _ => cases o <;> cases o' <;> rfl
  · intro o o' ho
    cases o' with
    | extrap e => exact absurd rfl (ho e)
    | out A => cases o <;> rfl
    | none => cases o <;> rfl
    | other => cases o <;> rfl
  · intro h
    constructor
    · simp only [evalCompat, evalOutArg]
      rw [if_pos (by simpa using h)]; rfl
    · intro e
      simp only [evalCompat, evalOutArg]
      rw [if_pos (by simpa using h)]; rfl

/-- C94: mode constant through the option object, in a concrete spline. -/
example : ∃ A, evalLinear demoG demoC (.rows [[7, 1 / 3], [7, 1 / 3]]) [.extrap .constant] = .ok ⟨.array A, none⟩ ∧
    A.get [1] = 0 := by
  obtain ⟨E, _, _, h, _⟩ := C94_options demo_request
  obtain ⟨A, h1, _, h3⟩ := h.alloc [[7, 1 / 3], [7, 1 / 3]] (by simp [demoG]) [] (by simp)
  refine ⟨A, h1, ?_⟩
  rw [h3 1 [7, 1 / 3] rfl [] trivial, if_neg]
  intro h
  have := List.forall₂_cons.1 h
  revert this
  norm_num [first, last, node, nNodes, show Int.toNat 3 = 3 from rfl]

end Interp.Props
