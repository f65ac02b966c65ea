import Verif.Proofs.FilterPass
import Verif.Proofs.Expand
import Verif.Spec.Natural
import Mathlib.Tactic.LinearCombination

/-! Filtering in exact arithmetic: the solver solves its system, which has one solution. -/

set_option linter.unusedSectionVars false
set_option linter.unusedSimpArgs false

namespace Interp.Filter
open Interp.FilterRef Interp.Spec Interp.Codegen
open Interp.Ref (cell)

variable {F : Type} [Field F] [LinearOrder F] [IsStrictOrderedRing F] [FloorRing F]

/-- The linear system along one line. -/
structure Sys (M : ℕ) (data c : ℕ → F) : Prop where
  left : c 0 - 2 * c 1 + c 2 = 0
  right : c (M - 1) - 2 * c M + c (M + 1) = 0
  mid : ∀ i < M, cubV i c = data i

theorem β0_eq : (β0 : F) = 1 / 6 := by simp [β0]
theorem β1_eq : (β1 : F) = 2 / 3 := by simp [β1]

section
variable {δ : F} (hδ : δ ≠ 0)
include hδ

theorem fA_ne : fA δ ≠ 0 := by simp [fA, hδ]
theorem u1_eq : u1 δ = -2 := by
  simp only [u1, fB, fA]; push_cast; field_simp
theorem u2_eq : u2 δ = 1 := div_self (fA_ne hδ)
theorem u3_eq : u3 δ = 0 := zero_div _
theorem piv0_eq : piv0 δ = 1 := by rw [piv0, β0_eq, β1_eq, u1_eq hδ]; norm_num

theorem q_range (r : ℕ) : 0 ≤ q δ r ∧ q δ r ≤ 1 / 3 := by
  induction r with
  | zero => rw [q, u2_eq hδ]; simp
  | succ r ih =>
    rw [q, β0_eq, β1_eq]
    have h : (0 : F) < 2 / 3 - 1 / 6 * q δ r := by linarith [ih.2]
    constructor
    · positivity
    · rw [div_le_iff₀ h]; linarith [ih.2]

theorem piv_pos (r : ℕ) : 0 < piv δ r := by
  cases r with
  | zero => rw [piv, piv0_eq hδ]; exact one_pos
  | succ r =>
    rw [piv, β0_eq, β1_eq]
    linarith [(q_range hδ r).2]

theorem l2_pos (M : ℕ) : 0 < l2 δ M := by
  have h1 : l2 δ M = δ ^ 2 * (1 + (2 + q δ (M - 2)) * q δ (M - 1)) := by
    simp only [l2, l1, fA, fB]; push_cast; ring
  have := (q_range hδ (M - 2)).1
  have := (q_range hδ (M - 1)).1
  have : 0 < δ ^ 2 := by positivity
  rw [h1]
  positivity

theorem noZeroPivot (M : ℕ) : NoZeroPivot δ M :=
  ⟨beq_eq_false_iff_ne.mpr (fA_ne hδ), fun r _ => beq_eq_false_iff_ne.mpr (piv_pos hδ r).ne',
    beq_eq_false_iff_ne.mpr (l2_pos hδ M).ne'⟩

/-- Eliminated form of the interior rows. -/
def Row (δ : F) (data : ℕ → F) (c : ℕ → F) (r : ℕ) : Prop :=
  c (r + 1) = rhs δ data r - q δ r * c (r + 2)

theorem row_iff (data c : ℕ → F) (r : ℕ) (h0 : c 0 - 2 * c 1 + c 2 = 0)
    (hr : ∀ j, r = j + 1 → Row δ data c j) : cubV r c = data r ↔ Row δ data c r := by
  cases r with
  | zero =>
    have e1 : rhs δ data 0 = data 0 := by
      rw [rhs, piv0_eq hδ, u3_eq hδ]; simp
    have e2 : q δ 0 = 0 := by rw [q, u2_eq hδ]; simp
    rw [Row, e1, e2, cubV]
    have h0' : c 0 = 2 * c 1 - c 2 := by linear_combination h0
    simp only [Nat.zero_add, h0']
    constructor <;> intro h <;> linear_combination h
  | succ j =>
    have hj := hr j rfl
    have hp : β1 - β0 * q δ j ≠ 0 := (piv_pos hδ (j + 1)).ne'
    rw [Row] at hj ⊢
    rw [rhs, q, cubV, piv, hj]
    rw [div_mul_eq_mul_div, ← sub_div, eq_div_iff hp]
    simp only [β0_eq, β1_eq, show j + 1 + 1 = j + 2 from rfl, show j + 1 + 2 = j + 3 from rfl]
    constructor <;> intro h <;> linear_combination h

theorem solve_row {M : ℕ} (data : ℕ → F) {r : ℕ} (hr : r < M) :
    Row δ data (solve δ M data) r := by
  rw [Row, solve, solve, if_neg (by omega), if_neg (by omega),
    show M + 1 - (r + 1) = (M + 1 - (r + 2)) + 1 by omega, bk,
    show M - 1 - (M + 1 - (r + 2)) = r by omega]

theorem solve_sys {M : ℕ} (hM : 2 ≤ M) (data : ℕ → F) : Sys M data (solve δ M data) := by
  have hleft : solve δ M data 0 - 2 * solve δ M data 1 + solve δ M data 2 = 0 := by
    simp only [solve, if_pos, u1_eq hδ, u2_eq hδ, u3_eq hδ]
    rw [if_neg (by omega), if_neg (by omega), show M + 1 - 1 = M by omega,
      show M + 1 - 2 = M - 1 by omega]
    ring
  refine ⟨hleft, ?_, ?_⟩
  · have r1 := solve_row hδ (M := M) data (r := M - 1) (by omega)
    have r2 := solve_row hδ (M := M) data (r := M - 2) (by omega)
    rw [Row, show M - 1 + 1 = M by omega, show M - 1 + 2 = M + 1 by omega] at r1
    rw [Row, show M - 2 + 1 = M - 1 by omega, show M - 2 + 2 = M by omega] at r2
    have t : solve δ M data (M + 1) = top δ M data := by
      rw [solve, if_neg (by omega), Nat.sub_self, bk]
    have hl := (l2_pos hδ M).ne'
    have ht : top δ M data * l2 δ M =
        0 - fA δ * rhs δ data (M - 2) - l1 δ M * rhs δ data (M - 1) := by
      rw [top, div_mul_cancel₀ _ hl]
    have hfB : fB δ = -2 * fA δ := by simp only [fB, fA]; push_cast; ring
    rw [l2, l1, hfB, ← t] at ht
    have hfA := fA_ne hδ
    apply mul_left_cancel₀ hfA
    rw [r2, r1]
    linear_combination ht
  · intro i hi
    rw [row_iff hδ data _ i hleft (fun j hj => solve_row hδ data (by omega))]
    exact solve_row hδ data hi

/-- The system has only one solution. -/
theorem sys_unique {M : ℕ} (hM : 2 ≤ M) {data c : ℕ → F} (h : Sys M data c) :
    ∀ i < M + 2, c i = solve δ M data i := by
  have hrow : ∀ r < M, Row δ data c r := by
    intro r
    induction r with
    | zero => exact fun hr => (row_iff hδ data c 0 h.left (fun j hj => by omega)).mp (h.mid 0 hr)
    | succ r ih =>
      intro hr
      refine (row_iff hδ data c (r + 1) h.left ?_).mp (h.mid _ hr)
      intro j hj
      obtain rfl : r = j := by omega
      exact ih (by omega)
  have htop : c (M + 1) = top δ M data := by
    have r1 := hrow (M - 1) (by omega)
    have r2 := hrow (M - 2) (by omega)
    rw [Row, show M - 1 + 1 = M by omega, show M - 1 + 2 = M + 1 by omega] at r1
    rw [Row, show M - 2 + 1 = M - 1 by omega, show M - 2 + 2 = M by omega] at r2
    rw [top, eq_div_iff (l2_pos hδ M).ne']
    have hfB : fB δ = -2 * fA δ := by simp only [fB, fA]; push_cast; ring
    have hr := h.right
    rw [r2, r1] at hr
    rw [l2, l1, hfB]
    linear_combination fA δ * hr
  have hbk : ∀ k ≤ M, c (M + 1 - k) = bk δ M data k := by
    intro k
    induction k with
    | zero => exact fun _ => htop
    | succ k ih =>
      intro hk
      have hr := hrow (M - 1 - k) (by omega)
      rw [Row, show M - 1 - k + 1 = M + 1 - (k + 1) by omega,
        show M - 1 - k + 2 = M + 1 - k by omega, ih (by omega)] at hr
      rw [hr, bk]
  intro i hi
  rw [solve]
  by_cases h0 : i = 0
  · subst h0
    have b1 := hbk M le_rfl
    have b2 := hbk (M - 1) (by omega)
    rw [show M + 1 - M = 1 by omega] at b1
    rw [show M + 1 - (M - 1) = 2 by omega] at b2
    rw [if_pos rfl, u1_eq hδ, u2_eq hδ, u3_eq hδ, ← b1, ← b2]
    linear_combination h.left
  · rw [if_neg h0, ← hbk (M + 1 - i) (by omega), show M + 1 - (M + 1 - i) = i by omega]

end

/-- The coefficients do not depend on the spacing. -/
theorem solve_indep {δ δ' : F} (h : δ ≠ 0) (h' : δ' ≠ 0) {M : ℕ} (hM : 2 ≤ M) {d d' : ℕ → F}
    (hd : ∀ i < M, d i = d' i) : ∀ i < M + 2, solve δ M d i = solve δ' M d' i :=
  sys_unique h' hM (by
    have := solve_sys h hM d
    exact ⟨this.left, this.right, fun i hi => (this.mid i hi).trans (hd i hi)⟩)

theorem solve_linear {δ : F} (h : δ ≠ 0) {M : ℕ} (hM : 2 ≤ M) (s t : F) (d d' : ℕ → F) :
    ∀ i < M + 2, solve δ M (fun j => s * d j + t * d' j) i
      = s * solve δ M d i + t * solve δ M d' i := by
  intro i hi
  have h1 := solve_sys h hM d
  have h2 := solve_sys h hM d'
  refine (sys_unique h hM (c := fun i => s * solve δ M d i + t * solve δ M d' i) ⟨?_, ?_, ?_⟩ i hi).symm
  · linear_combination s * h1.left + t * h2.left
  · linear_combination s * h1.right + t * h2.right
  · intro j hj
    have m1 := h1.mid j hj
    have m2 := h2.mid j hj
    simp only [cubV] at m1 m2 ⊢
    linear_combination s * m1 + t * m2

/-- Affine data. -/
theorem solve_affine {δ : F} (h : δ ≠ 0) {M : ℕ} (hM : 2 ≤ M) (p s : F) :
    ∀ i < M + 2, solve δ M (fun j => p + s * (j : F)) i = p + s * ((i : F) - 1) := by
  intro i hi
  refine (sys_unique h hM (c := fun i => p + s * ((i : F) - 1)) ⟨?_, ?_, ?_⟩ i hi).symm
  · push_cast; ring
  · have : ((M - 1 : ℕ) : F) = (M : F) - 1 := by rw [Nat.cast_sub (by omega)]; push_cast; rfl
    push_cast [this]; ring
  · intro j hj
    simp only [cubV]; push_cast; ring

/-! ### Several dimensions -/

/-- Usable axes: nonzero spacing, at least two data. -/
def Good (as : List (F × ℕ)) : Prop := ∀ a ∈ as, a.1 ≠ 0 ∧ 2 ≤ a.2

theorem Good.solvable {as : List (F × ℕ)} (h : Good as) : Solvable as :=
  fun a ha => ⟨(h a ha).2, noZeroPivot (h a ha).1 _⟩

theorem tfilt_congr : ∀ {as as' : List (F × ℕ)} {es : List ℕ} {D D' : List ℕ → F}
    {idx : List ℕ}, Good as → Good as' → dsh as = dsh as' →
    (∀ r, InShape (dsh as ++ es) r → D r = D' r) → InShape (csh as ++ es) idx →
    tfilt as D idx = tfilt as' D' idx
  | [], [], es, D, D', idx, _, _, _, hD, hi => by simpa [tfilt] using hD idx hi
  | [], _ :: _, es, D, D', idx, _, _, e, hD, hi => by simp [dsh] at e
  | _ :: _, [], es, D, D', idx, _, _, e, hD, hi => by simp [dsh] at e
  | a :: as, a' :: as', es, D, D', [], hg, hg', e, hD, hi => hi.elim
  | a :: as, a' :: as', es, D, D', i :: idx, hg, hg', e, hD, hi => by
    simp only [dsh, List.map_cons, List.cons.injEq] at e
    simp only [tfilt]
    refine tfilt_congr (es := es) (fun b hb => hg b (by simp [hb])) (fun b hb => hg' b (by simp [hb]))
      e.2 ?_ hi.2
    intro r hr
    rw [← e.1]
    exact solve_indep (hg a (by simp)).1 (hg' a' (by simp)).1 (hg a (by simp)).2
      (fun j hj => hD (j :: r) ⟨hj, hr⟩) i hi.1

theorem tfilt_linear (s t : F) : ∀ {as : List (F × ℕ)} {es : List ℕ} (D D' : List ℕ → F)
    {idx : List ℕ}, Good as → InShape (csh as ++ es) idx →
    tfilt as (fun r => s * D r + t * D' r) idx = s * tfilt as D idx + t * tfilt as D' idx
  | [], es, D, D', idx, _, hi => by simp [tfilt]
  | a :: as, es, D, D', [], _, hi => hi.elim
  | a :: as, es, D, D', i :: idx, hg, hi => by
    simp only [tfilt]
    have hg' : Good as := fun b hb => hg b (by simp [hb])
    rw [← tfilt_linear s t (es := es) _ _ hg' hi.2]
    refine tfilt_congr (es := es) hg' hg' rfl ?_ hi.2
    intro r _
    exact solve_linear (hg a (by simp)).1 (hg a (by simp)).2 s t _ _ i hi.1

theorem tfilt_append (comp : List ℕ) : ∀ (as : List (F × ℕ)) (D : List ℕ → F) (idx : List ℕ),
    idx.length = as.length → tfilt as D (idx ++ comp) = tfilt as (fun r => D (r ++ comp)) idx
  | [], D, [], _ => by simp [tfilt]
  | [], D, _ :: _, h => by simp at h
  | _ :: _, D, [], h => by simp at h
  | a :: as, D, i :: idx, h => by
    simp only [List.cons_append, tfilt]
    exact tfilt_append comp as _ idx (by simpa using h)

/-- The filtered coefficients are natural in every direction. -/
theorem tfilt_natural : ∀ (as : List (F × ℕ)) (D : List ℕ → F), Good as →
    NaturalCoefs (dsh as) (tfilt as D)
  | as, D, hg => by
    intro l1 M l2 e pre post hpre hpost
    induction as generalizing D l1 pre with
    | nil => simp [dsh] at e
    | cons a as ih =>
      have hg' : Good as := fun b hb => hg b (by simp [hb])
      have ha := hg a (by simp)
      cases l1 with
      | nil =>
        rw [inShape_nil_iff.mp hpre]
        simp only [dsh, List.map_cons, List.nil_append, List.cons.injEq] at e
        obtain ⟨rfl, e2⟩ := e
        have e3 : l2.map (· + 2) = csh as ++ [] := by rw [← e2]; simp [csh]
        rw [e3] at hpost
        have key : ∀ i j k : ℕ, i < a.2 + 2 → j < a.2 + 2 → k < a.2 + 2 →
            (∀ d : ℕ → F, solve a.1 a.2 d i - 2 * solve a.1 a.2 d j + solve a.1 a.2 d k = 0) →
            tfilt (a :: as) D (i :: post) - 2 * tfilt (a :: as) D (j :: post)
              + tfilt (a :: as) D (k :: post) = 0 := by
          intro i j k hi hj hk hd
          simp only [tfilt]
          have z : tfilt as (fun s => 1 * (1 * solve a.1 a.2 (fun j => D (j :: s)) i
                + (-2) * solve a.1 a.2 (fun j => D (j :: s)) j)
              + 1 * solve a.1 a.2 (fun j => D (j :: s)) k) post
              = tfilt as (fun s => 0 * D s + 0 * D s) post := by
            congr 1
            funext s
            linear_combination hd (fun j => D (j :: s))
          rw [tfilt_linear 1 1 (es := []) _ _ hg' hpost, tfilt_linear 1 (-2) (es := []) _ _ hg' hpost,
            tfilt_linear 0 0 (es := []) _ _ hg' hpost] at z
          linear_combination z
        exact ⟨key 0 1 2 (by omega) (by omega) (by omega)
            (fun d => (solve_sys ha.1 ha.2 d).left),
          key (a.2 - 1) a.2 (a.2 + 1) (by omega) (by omega) (by omega)
            (fun d => (solve_sys ha.1 ha.2 d).right)⟩
      | cons m l1 =>
        simp only [dsh, List.map_cons, List.cons_append, List.cons.injEq] at e
        cases pre with
        | nil => exact hpre.elim
        | cons i pre =>
          exact ih (fun s => solve a.1 a.2 (fun j => D (j :: s)) i) hg' l1 e.2 pre hpre.2

/-! ### Evaluation -/

theorem evalAt_congr (k : ℕ) (hk : k = 1 ∨ k = 3) (G : List (GridDim F)) (oo : List ℕ) (x : List F)
    (c c' : List ℕ → F) (hG : ∀ g ∈ G, ValidAxis g) (ho : oo.length = G.length)
    (hx : x.length = G.length) (h : ∀ idx, InShape (coefShape k G) idx → c idx = c' idx) :
    Ref.evalAt k G oo x c = Ref.evalAt k G oo x c' := by
  rw [evalAt_expand k hk G oo x c hG ho hx, evalAt_expand k hk G oo x c' hG ho hx]
  congr 1
  apply List.map_congr_left
  intro idx hidx
  rw [h idx ((mem_allIdx _ _).mp hidx)]

theorem axisOp_congr (k l : ℕ) (hk : k = 1 ∨ k = 3) {g : GridDim F} (hg : ValidAxis g) (x : F)
    {c c' : ℕ → F} (h : ∀ i < nCoef k g, c i = c' i) : axisOp k l g x c = axisOp k l g x c' := by
  rw [axisOp_expand k l hk hg, axisOp_expand k l hk hg]
  exact Finset.sum_congr rfl fun i hi => by rw [h i (by simpa using hi)]

/-- Value at a node of the axis. -/
theorem axisOp_node {a b : F} {n : ℤ} (h : ValidAxis (.uniform a b n)) (c : ℕ → F) {i : ℕ}
    (hi : (i : ℤ) < n) : axisOp 3 0 (.uniform a b n) (node (.uniform a b n) i) c = cubV i c := by
  obtain ⟨h1, h2⟩ := h
  have hn : (0 : F) < (n : F) - 1 := by
    have : ((2 : ℤ) : F) ≤ (n : F) := by exact_mod_cast h2
    push_cast at this; linarith
  have hu : upos a b n (node (.uniform a b n) i) = i := by
    have : b - a ≠ 0 := by linarith
    simp only [upos, node]; field_simp; ring
  by_cases hl : (i : ℤ) + 2 ≤ n
  · rw [(cubic_mid ⟨h1, h2⟩ hl hu.ge (by rw [hu]; linarith) c).1, hu, cubP_left]
  · obtain ⟨j, rfl⟩ : ∃ j, i = j + 1 := ⟨i - 1, by omega⟩
    push_cast at hu hi hl
    rw [(cubic_mid ⟨h1, h2⟩ (j := j) (by omega) (by push_cast [hu]; linarith)
      (by push_cast [hu]; exact le_rfl) c).1]
    push_cast [hu]
    rw [cubP_right]

theorem nCoef_uniform (a b : F) (n : ℤ) : nCoef 3 (.uniform a b n) = n.toNat + 2 := rfl

/-- The axes of a grid are uniform and match the data of the axes `as`. -/
def Match (G : List (GridDim F)) (as : List (F × ℕ)) : Prop :=
  List.Forall₂ (fun g p => (∃ a b n, g = .uniform a b n) ∧ ValidAxis g ∧ nNodes g = p.2) G as

theorem Match.valid {G : List (GridDim F)} {as : List (F × ℕ)} (h : Match G as) :
    ∀ g ∈ G, ValidAxis g := by
  induction h with
  | nil => simp
  | cons h1 _ ih =>
    intro g hg
    rcases List.mem_cons.mp hg with rfl | hg
    · exact h1.2.1
    · exact ih g hg

theorem Match.coefShape {G : List (GridDim F)} {as : List (F × ℕ)} (h : Match G as) :
    coefShape 3 G = csh as := by
  induction h with
  | nil => rfl
  | cons h1 _ ih =>
    simp only [Codegen.coefShape, csh, List.map_cons] at ih ⊢
    rw [ih, nCoef, h1.2.2]

theorem Match.gridShape {G : List (GridDim F)} {as : List (F × ℕ)} (h : Match G as) :
    gridShape G = dsh as := by
  induction h with
  | nil => rfl
  | cons h1 _ ih =>
    simp only [Spec.gridShape, dsh, List.map_cons] at ih ⊢
    rw [ih, h1.2.2]

/-- Evaluation at a node of the spline with filtered coefficients. -/
theorem eval_tfilt_node : ∀ {G : List (GridDim F)} {as : List (F × ℕ)} (D : List ℕ → F)
    (idx : List ℕ), Match G as → Good as → InShape (dsh as) idx →
    Ref.evalAt 3 G (List.replicate G.length 0) (nodeAt G idx) (tfilt as D) = D idx
  | [], [], D, [], _, _, _ => by simp [Ref.evalAt, tfilt]
  | [], [], D, _ :: _, _, _, h => h.elim
  | g :: G, a :: as, D, [], _, _, h => h.elim
  | g :: G, a :: as, D, i :: idx, hm, hg, hi => by
    obtain ⟨h1, hm'⟩ := List.forall₂_cons.mp hm
    replace hm : Match G as := hm'
    clear hm'
    obtain ⟨⟨xa, xb, n, rfl⟩, hv, hn⟩ := h1
    have ha := hg a (by simp)
    have hg' : Good as := fun b hb => hg b (by simp [hb])
    simp only [nodeAt, List.length_cons, List.replicate_succ, List.zipWith_cons_cons, evalAt_cons]
    have : (fun j => Ref.evalAt 3 G (List.replicate G.length 0) (List.zipWith node G idx)
        (fun r => tfilt (a :: as) D (j :: r)))
        = fun j => solve a.1 a.2 (fun j' => D (j' :: idx)) j := by
      funext j
      simp only [tfilt]
      exact eval_tfilt_node (fun s => solve a.1 a.2 (fun j' => D (j' :: s)) j) idx hm hg' hi.2
    rw [this, axisOp_node hv _ (by have h' : i < a.2 := hi.1; rw [← hn] at h'; simp only [nNodes] at h'; omega)]
    exact (solve_sys ha.1 ha.2 _).mid i hi.1

/-- Cubic splines reproduce affine functions of one variable. -/
theorem axisOp_affine {a b : F} {n : ℤ} (h : ValidAxis (.uniform a b n)) (x p s : F) :
    axisOp 3 0 (.uniform a b n) x
      (fun i => p + s * (a + ((i : F) - 1) * ((b - a) / ((n : F) - 1)))) = p + s * x := by
  obtain ⟨h1, h2⟩ := h
  have hn : (0 : F) < (n : F) - 1 := by
    have : ((2 : ℤ) : F) ≤ (n : F) := by exact_mod_cast h2
    push_cast at this; linarith
  have hba : b - a ≠ 0 := by linarith
  have hu : x = a + upos a b n x * ((b - a) / ((n : F) - 1)) := by
    simp only [upos]; field_simp; ring
  have hc : ∃ j : ℕ, cell (.uniform a b n) x = j := by
    have : 0 ≤ cell (.uniform a b n) x := by
      have hc : cell (.uniform a b n) x = max (min ⌊upos a b n x⌋ (n - 2)) 0 := by
        rw [← pyMinZ_eq, ← pyMaxZ_eq]; rfl
      rw [hc]; exact le_max_right _ _
    exact ⟨_, (Int.toNat_of_nonneg this).symm⟩
  obtain ⟨j, hj⟩ := hc
  rw [axisOp_three 0 a b n x _ j hj, (three_ops _ _ _ _ _ _).1]
  conv_rhs => rw [hu]
  split_ifs <;> push_cast <;> ring

/-- Extended nodes: node number `i - 1`. -/
def xnode (g : GridDim F) (i : ℕ) : F :=
  match g with
  | .uniform a b n => a + ((i : F) - 1) * ((b - a) / ((n : F) - 1))
  | .array gc => gc.getD (i - 1) 0

/-- Filtering multi-affine data gives the function at the extended nodes. -/
theorem tfilt_multiAffine : ∀ {G : List (GridDim F)} {as : List (F × ℕ)} (f : List F → F)
    (D : List ℕ → F) (idx : List ℕ), Match G as → Good as → MultiAffine G.length f →
    (∀ r, InShape (dsh as) r → D r = f (nodeAt G r)) → InShape (csh as) idx →
    tfilt as D idx = f (List.zipWith xnode G idx)
  | [], [], f, D, [], _, _, _, hD, _ => by simpa [tfilt, nodeAt] using hD [] trivial
  | [], [], f, D, _ :: _, _, _, _, _, h => h.elim
  | g :: G, a :: as, f, D, [], _, _, _, _, h => h.elim
  | g :: G, a :: as, f, D, i :: idx, hm, hg, hf, hD, hi => by
    obtain ⟨h1, hm'⟩ := List.forall₂_cons.mp hm
    replace hm : Match G as := hm'
    clear hm'
    obtain ⟨⟨xa, xb, n, rfl⟩, hv, hn⟩ := h1
    have ha := hg a (by simp)
    have hg' : Good as := fun b hb => hg b (by simp [hb])
    simp only [tfilt, List.zipWith_cons_cons]
    refine tfilt_multiAffine (fun y => f (xnode (.uniform xa xb n) i :: y)) _ idx hm hg'
      (multiAffine_tail hf _) ?_ hi.2
    intro r hr
    have hl : (nodeAt G r).length = G.length := by
      apply nodeAt_length
      rw [hm.gridShape]; exact hr
    obtain ⟨p, s, hps⟩ := hf (0 :: nodeAt G r) (by simp [hl]) 0 (by simp)
    simp only [List.set_cons_zero] at hps
    have hd : ∀ j < a.2, D (j :: r)
        = (p + s * xa) + (s * ((xb - xa) / ((n : F) - 1))) * (j : F) := by
      intro j hj
      rw [hD (j :: r) ⟨hj, hr⟩]
      simp only [nodeAt, List.zipWith_cons_cons]
      have := hps (node (.uniform xa xb n) j)
      simp only [nodeAt] at this
      rw [this, node]; ring
    rw [solve_indep ha.1 ha.1 ha.2 hd i hi.1, solve_affine ha.1 ha.2 _ _ i hi.1, hps]
    simp only [xnode]; ring

/-- Spline with coefficients the values of a multi-affine function at the extended nodes. -/
theorem eval_multiAffine : ∀ {G : List (GridDim F)} {as : List (F × ℕ)} (f : List F → F)
    (x : List F), Match G as → MultiAffine G.length f → x.length = G.length →
    Ref.evalAt 3 G (List.replicate G.length 0) x (fun idx => f (List.zipWith xnode G idx)) = f x
  | [], [], f, [], _, _, _ => by simp [Ref.evalAt]
  | [], [], f, _ :: _, _, _, h => by simp at h
  | g :: G, a :: as, f, [], _, _, h => by simp at h
  | g :: G, a :: as, f, x :: xs, hm, hf, hx => by
    obtain ⟨h1, hm'⟩ := List.forall₂_cons.mp hm
    replace hm : Match G as := hm'
    clear hm'
    obtain ⟨⟨xa, xb, n, rfl⟩, hv, hn⟩ := h1
    simp only [List.length_cons, List.replicate_succ, evalAt_cons, List.zipWith_cons_cons]
    have hxs : xs.length = G.length := by simpa using hx
    have : (fun j => Ref.evalAt 3 G (List.replicate G.length 0) xs
        (fun r => f (xnode (.uniform xa xb n) j :: List.zipWith xnode G r)))
        = fun j => f (xnode (.uniform xa xb n) j :: xs) := by
      funext j
      exact eval_multiAffine (fun y => f (xnode (.uniform xa xb n) j :: y)) xs hm
        (multiAffine_tail hf _) hxs
    rw [this]
    obtain ⟨p, s, hps⟩ := hf (0 :: xs) (by simp [hxs]) 0 (by simp)
    simp only [List.set_cons_zero] at hps
    simp only [hps, xnode]
    exact axisOp_affine hv x p s

/-- Uniqueness in several dimensions. -/
theorem natural_unique : ∀ {G : List (GridDim F)} {as : List (F × ℕ)} (D c : List ℕ → F),
    Match G as → Good as → NaturalCoefs (dsh as) c →
    (∀ idx, InShape (dsh as) idx →
      Ref.evalAt 3 G (List.replicate G.length 0) (nodeAt G idx) c = D idx) →
    ∀ idx, InShape (csh as) idx → c idx = tfilt as D idx
  | [], [], D, c, _, _, _, hv, [], _ => by simpa [Ref.evalAt, tfilt] using hv [] trivial
  | [], [], D, c, _, _, _, hv, _ :: _, h => h.elim
  | g :: G, a :: as, D, c, _, _, _, _, [], h => h.elim
  | g :: G, a :: as, D, c, hm, hg, hnat, hv, i :: idx, hi => by
    obtain ⟨h1, hm'⟩ := List.forall₂_cons.mp hm
    replace hm : Match G as := hm'
    clear hm'
    obtain ⟨⟨xa, xb, n, rfl⟩, hva, hn⟩ := h1
    have ha := hg a (by simp)
    have hg' : Good as := fun b hb => hg b (by simp [hb])
    -- the lines along the first axis
    have hlines : ∀ r, InShape (csh as) r → NaturalLine a.2 (fun i => c (i :: r)) := by
      intro r hr
      exact hnat [] a.2 (dsh as) rfl [] r trivial (by simpa [csh, dsh, Function.comp_def] using hr)
    -- values at the nodes of the first axis
    let E : ℕ → List ℕ → F := fun m r => cubV m (fun i => c (i :: r))
    -- E m, for each m, is natural in the other directions and interpolates
    have hE : ∀ m < a.2, ∀ r, InShape (csh as) r → E m r = tfilt as (fun s => D (m :: s)) r := by
      intro m hmm
      refine natural_unique (fun s => D (m :: s)) (E m) hm hg' ?_ ?_
      · intro l1 M l2 e pre post hpre hpost
        have hn3 : ∀ j < a.2 + 2, NaturalLine M (fun i => c (j :: (pre ++ i :: post))) := by
          intro j hj
          exact hnat (a.2 :: l1) M l2 (by simp only [dsh, List.map_cons, List.cons_append] at e ⊢; rw [e])
            (j :: pre) post ⟨hj, hpre⟩ hpost
        obtain ⟨p1, p2⟩ := hn3 m (by omega)
        obtain ⟨q1, q2⟩ := hn3 (m + 1) (by omega)
        obtain ⟨r1, r2⟩ := hn3 (m + 2) (by omega)
        constructor
        · simp only [E, cubV]; linear_combination (p1 + 4 * q1 + r1) / 6
        · simp only [E, cubV]; linear_combination (p2 + 4 * q2 + r2) / 6
      · intro s hs
        rw [← hv (m :: s) ⟨hmm, hs⟩]
        simp only [nodeAt, List.length_cons, List.replicate_succ, List.zipWith_cons_cons, evalAt_cons]
        rw [axisOp_node hva _ (by rw [← hn] at hmm; simp only [nNodes] at hmm; omega)]
        have hl : (List.zipWith node G s).length = G.length := by
          apply nodeAt_length
          rw [hm.gridShape]; exact hs
        have hlr : (List.replicate G.length 0).length = G.length := by simp
        have e : E m = fun r => 1 * (1 / 6 * c (m :: r) + 4 / 6 * c ((m + 1) :: r))
            + 1 / 6 * c ((m + 2) :: r) := by
          funext r; simp only [E, cubV]; ring
        rw [e, evalAt_linear, evalAt_linear]
        simp only [cubV]
        ring
    have hsys : Sys a.2 (fun j => tfilt as (fun s => D (j :: s)) idx) (fun i => c (i :: idx)) :=
      ⟨(hlines idx hi.2).1, (hlines idx hi.2).2, fun m hmm => hE m hmm idx hi.2⟩
    have hc := sys_unique ha.1 ha.2 hsys i hi.1
    have ht : Sys a.2 (fun j => tfilt as (fun s => D (j :: s)) idx)
        (fun i => tfilt (a :: as) D (i :: idx)) := by
      have hn' := tfilt_natural (a :: as) D hg [] a.2 (dsh as) rfl [] idx trivial
        (by simpa [csh, dsh, Function.comp_def] using hi.2)
      refine ⟨hn'.1, hn'.2, ?_⟩
      intro m hmm
      have hidx : InShape (csh as ++ []) idx := by rw [List.append_nil]; exact hi.2
      simp only [cubV, tfilt]
      have e : tfilt as (fun s => D (m :: s)) idx
          = tfilt as (fun s => 1 * (1 / 6 * solve a.1 a.2 (fun j => D (j :: s)) m
              + 4 / 6 * solve a.1 a.2 (fun j => D (j :: s)) (m + 1))
              + 1 / 6 * solve a.1 a.2 (fun j => D (j :: s)) (m + 2)) idx := by
        congr 1
        funext s
        have := (solve_sys ha.1 ha.2 (fun j => D (j :: s))).mid m hmm
        simp only [cubV] at this
        linear_combination -this
      rw [e, tfilt_linear 1 (1 / 6) (es := []) _ _ hg' hidx,
        tfilt_linear (1 / 6) (4 / 6) (es := []) _ _ hg' hidx]
      ring
    rw [hc, ← sys_unique ha.1 ha.2 ht i hi.1]

end Interp.Filter
