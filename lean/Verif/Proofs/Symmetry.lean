import Verif.Proofs.LinearMulti
import Mathlib.Algebra.Order.Group.MinMax
import Mathlib.Tactic.FieldSimp

/-! Changes of variables, exact arithmetic. -/

set_option linter.unusedSectionVars false

namespace Interp.Codegen
open Interp.Ref Interp.Spec

variable {F : Type} [Field F] [LinearOrder F] [IsStrictOrderedRing F] [FloorRing F]

/-- The axis whose nodes are `s * t + r`, for the nodes `t` of a given axis. -/
def affAxis (p : F × F) : GridDim F → GridDim F
  | .uniform a b n => .uniform (p.1 * a + p.2) (p.1 * b + p.2) n
  | .array gc => .array (gc.map fun t => p.1 * t + p.2)

theorem bsearch_mono {K K' : Type} [LT K] [DecidableLT K] [LT K'] [DecidableLT K'] (φ : K → K')
    (hφ : ∀ a b, φ a < φ b ↔ a < b) (gc : List K) (v : K) : ∀ lo hi,
    bsearch (gc.map φ) (φ v) lo hi = bsearch gc v lo hi := by
  intro lo hi
  induction lo, hi using bsearch.induct gc v with
  | case1 lo hi h mid y hy hlt ih =>
    rw [bsearch, dif_pos h, bsearch, dif_pos h]
    have h1 : gc[(lo + hi) / 2]? = some y := hy
    have h2 : (gc.map φ)[(lo + hi) / 2]? = some (φ y) := by simp [h1]
    have h3 : φ y < φ v := (hφ _ _).2 hlt
    simp only [h1, h2, hlt, h3, if_true]
    exact ih
  | case2 lo hi h mid y hy hlt ih =>
    rw [bsearch, dif_pos h, bsearch, dif_pos h]
    have h1 : gc[(lo + hi) / 2]? = some y := hy
    have h2 : (gc.map φ)[(lo + hi) / 2]? = some (φ y) := by simp [h1]
    have h3 : ¬ φ y < φ v := fun h => hlt ((hφ _ _).1 h)
    simp only [h1, h2, hlt, h3, if_false]
    exact ih
  | case3 lo hi h mid hy ih =>
    rw [bsearch, dif_pos h, bsearch, dif_pos h]
    have h1 : gc[(lo + hi) / 2]? = none := hy
    have h2 : (gc.map φ)[(lo + hi) / 2]? = none := by simpa using h1
    simp only [h1, h2]
    exact ih
  | case4 lo hi h =>
    rw [bsearch, dif_neg h, bsearch, dif_neg h]

theorem aff_lt {p : F × F} (hp : 0 < p.1) (a b : F) : p.1 * a + p.2 < p.1 * b + p.2 ↔ a < b := by
  rw [add_lt_add_iff_right, mul_lt_mul_iff_right₀ hp]

theorem aff_cell {p : F × F} (hp : 0 < p.1) {g : GridDim F} (hg : ValidAxis g) (x : F) :
    cell (affAxis p g) (p.1 * x + p.2) = cell g x := by
  cases g with
  | uniform a b n =>
    have hb : b - a ≠ 0 := (sub_pos.2 hg.1).ne'
    have e : (p.1 * x + p.2 - (p.1 * a + p.2)) * (((n : F) - 1) / (p.1 * b + p.2 - (p.1 * a + p.2)))
        = (x - a) * (((n : F) - 1) / (b - a)) := by
      rw [show p.1 * x + p.2 - (p.1 * a + p.2) = p.1 * (x - a) by ring,
        show p.1 * b + p.2 - (p.1 * a + p.2) = p.1 * (b - a) by ring]
      have := hp.ne'
      field_simp
    simp only [affAxis, cell, e]
  | array gc =>
    simp only [affAxis, cell, searchsorted, List.length_map]
    rw [bsearch_mono (fun t => p.1 * t + p.2) (aff_lt hp)]

theorem getD_aff (p : F × F) (gc : List F) {i : ℕ} (hi : i < gc.length) :
    (gc.map fun t => p.1 * t + p.2).getD i 0 = p.1 * gc.getD i 0 + p.2 := by
  rw [getD_of_lt _ _ (by simpa using hi), getD_of_lt _ _ hi]; simp

theorem aff_lam {p : F × F} (hp : 0 < p.1) {g : GridDim F} (hg : ValidAxis g) (x : F) :
    lam (affAxis p g) (p.1 * x + p.2) = lam g x := by
  have hc := aff_cell hp hg x
  cases g with
  | uniform a b n =>
    have hb : b - a ≠ 0 := (sub_pos.2 hg.1).ne'
    have e : (p.1 * x + p.2 - (p.1 * a + p.2)) * (((n : F) - 1) / (p.1 * b + p.2 - (p.1 * a + p.2)))
        = (x - a) * (((n : F) - 1) / (b - a)) := by
      rw [show p.1 * x + p.2 - (p.1 * a + p.2) = p.1 * (x - a) by ring,
        show p.1 * b + p.2 - (p.1 * a + p.2) = p.1 * (b - a) by ring]
      have := hp.ne'
      field_simp
    simp only [affAxis] at hc ⊢
    simp only [lam, e, hc]
  | array gc =>
    have hj : (cell (.array gc) x).toNat + 1 < gc.length := (inCell_cell hg x).1
    have hw := width_pos hg (inCell_cell hg x).1
    simp only [affAxis] at hc ⊢
    simp only [lam, delta, hc]
    rw [getD_aff p gc hj, getD_aff p gc (Nat.lt_of_succ_lt hj)]
    rw [show p.1 * x + p.2 - (p.1 * gc.getD (cell (.array gc) x).toNat 0 + p.2)
        = p.1 * (x - gc.getD (cell (.array gc) x).toNat 0) by ring,
      show p.1 * gc.getD ((cell (.array gc) x).toNat + 1) 0 + p.2
          - (p.1 * gc.getD (cell (.array gc) x).toNat 0 + p.2)
        = p.1 * (gc.getD ((cell (.array gc) x).toNat + 1) 0 - gc.getD (cell (.array gc) x).toNat 0) by ring]
    exact mul_div_mul_left _ _ hp.ne'

theorem aff_lo (p : F × F) {g : GridDim F} (hg : ValidAxis g) :
    lo (affAxis p g) = p.1 * lo g + p.2 := by
  cases g with
  | uniform a b n => rfl
  | array gc => exact getD_aff p gc (by have := hg.1; omega)

theorem aff_hi (p : F × F) {g : GridDim F} (hg : ValidAxis g) :
    hi (affAxis p g) = p.1 * hi g + p.2 := by
  cases g with
  | uniform a b n => rfl
  | array gc =>
    simp only [affAxis, hi, List.length_map]
    exact getD_aff p gc (by have := hg.1; omega)

theorem aff_outside {p : F × F} (hp : 0 < p.1) {g : GridDim F} (hg : ValidAxis g) (x : F) :
    isOutside (affAxis p g) (p.1 * x + p.2) = isOutside g x := by
  rw [isOutside, isOutside, aff_lo p hg, aff_hi p hg]
  simp only [aff_lt hp]

theorem aff_clamp {p : F × F} (hp : 0 < p.1) {g : GridDim F} (hg : ValidAxis g) (x : F) :
    clampAxis (affAxis p g) (p.1 * x + p.2) = p.1 * clampAxis g x + p.2 := by
  have hm : Monotone fun t : F => p.1 * t + p.2 := fun a b h =>
    add_le_add_left (mul_le_mul_of_nonneg_left h hp.le) _
  rw [clampAxis, clampAxis, aff_lo p hg, aff_hi p hg]
  simp only [pyMax_eq, pyMin_eq]
  exact ((congrArg (max _) (hm.map_min)).symm.trans hm.map_max.symm)

theorem aff_nNodes (p : F × F) (g : GridDim F) : nNodes (affAxis p g) = nNodes g := by
  cases g <;> simp [affAxis, nNodes]

theorem aff_valid {p : F × F} (hp : 0 < p.1) {g : GridDim F} (hg : ValidAxis g) :
    ValidAxis (affAxis p g) := by
  cases g with
  | uniform a b n => exact ⟨(aff_lt hp a b).2 hg.1, hg.2⟩
  | array gc =>
    refine ⟨by simpa using hg.1, ?_⟩
    rw [List.pairwise_map]
    exact hg.2.imp fun h => (aff_lt hp _ _).2 h

theorem aff_gtype (p : F × F) (g : GridDim F) : (affAxis p g).gtype = g.gtype := by
  cases g <;> rfl

theorem aff_evalAt (k : ℕ) : ∀ (T : List (F × F)) (G : List (GridDim F)) (x : List F) (c : List ℕ → F),
    (∀ p ∈ T, 0 < p.1) → (∀ g ∈ G, ValidAxis g) → T.length = G.length → x.length = G.length →
    evalAt k (List.zipWith affAxis T G) (List.replicate G.length 0)
        (List.zipWith (fun p t => p.1 * t + p.2) T x) c
      = evalAt k G (List.replicate G.length 0) x c
  | [], [], x, c, _, _, _, _ => by simp [evalAt]
  | [], _ :: _, _, _, _, _, h, _ => by simp at h
  | _ :: _, [], _, _, _, _, h, _ => by simp at h
  | p :: T, g :: G, [], _, _, _, _, h => by simp at h
  | p :: T, g :: G, x :: xs, c, hp, hg, hT, hx => by
    have hp0 := hp p (by simp)
    have hg0 := hg g (by simp)
    have hw : weights k 0 (affAxis p g) (p.1 * x + p.2) = weights k 0 g x := by
      have hb : ∀ a d d' : F, blend3Vals 0 a d = blend3Vals 0 a d' := by
        intro a d d'; funext j; simp [blend3Vals]
      simp only [weights, aff_lam hp0 hg0, if_true]
      rw [hb (lam g x) (delta (affAxis p g) (p.1 * x + p.2)) (delta g x)]
    simp only [List.zipWith_cons_cons, List.length_cons, List.replicate_succ, evalAt, hw, aff_cell hp0 hg0]
    congr 2
    funext j w
    rw [aff_evalAt k T G xs _ (fun q hq => hp q (by simp [hq])) (fun q hq => hg q (by simp [hq]))
      (by simpa using hT) (by simpa using hx)]

theorem aff_evalMode (k : ℕ) (mode : String) (T : List (F × F)) (G : List (GridDim F)) (x : List F)
    (c : List ℕ → F) (hp : ∀ p ∈ T, 0 < p.1) (hg : ∀ g ∈ G, ValidAxis g) (hT : T.length = G.length)
    (hx : x.length = G.length) :
    evalMode k mode (List.zipWith affAxis T G) (List.replicate G.length 0)
        (List.zipWith (fun p t => p.1 * t + p.2) T x) c
      = evalMode k mode G (List.replicate G.length 0) x c := by
  have h1 : List.zipWith clampAxis (List.zipWith affAxis T G)
      (List.zipWith (fun p t => p.1 * t + p.2) T x)
      = List.zipWith (fun p t => p.1 * t + p.2) T (List.zipWith clampAxis G x) := by
    apply List.ext_getElem (by simp; omega)
    intro i h1 h2
    simp only [List.getElem_zipWith]
    exact aff_clamp (hp _ (List.getElem_mem _)) (hg _ (List.getElem_mem _)) _
  have h2 : List.zipWith isOutside (List.zipWith affAxis T G)
      (List.zipWith (fun p t => p.1 * t + p.2) T x) = List.zipWith isOutside G x := by
    apply List.ext_getElem (by simp; omega)
    intro i h1 h2
    simp only [List.getElem_zipWith]
    exact aff_outside (hp _ (List.getElem_mem _)) (hg _ (List.getElem_mem _)) _
  rw [evalMode, evalMode, h1, h2, aff_evalAt k T G _ c hp hg hT hx,
    aff_evalAt k T G _ c hp hg hT (by simp [hx])]

/-! ### Reflection -/

/-- The axis whose nodes are the opposites of those of a given axis. -/
def reflAxis : GridDim F → GridDim F
  | .uniform a b n => .uniform (-b) (-a) n
  | .array gc => .array (gc.map (- ·)).reverse

theorem refl_nNodes (g : GridDim F) : nNodes (reflAxis g) = nNodes g := by
  cases g <;> simp [reflAxis, nNodes]

theorem refl_valid {g : GridDim F} (h : ValidAxis g) : ValidAxis (reflAxis g) := by
  cases g with
  | uniform a b n => exact ⟨neg_lt_neg h.1, h.2⟩
  | array gc =>
    refine ⟨by simpa using h.1, ?_⟩
    rw [List.pairwise_reverse, List.pairwise_map]
    exact h.2.imp fun h => neg_lt_neg h

theorem refl_node {g : GridDim F} (h : ValidAxis g) {j : ℕ} (hj : j < nNodes g) :
    node (reflAxis g) j = -node g (nNodes g - 1 - j) := by
  cases g with
  | uniform a b n =>
    have hn : (2 : ℤ) ≤ n := h.2
    obtain ⟨N, rfl⟩ : ∃ N : ℕ, n = (N : ℤ) := ⟨n.toNat, by omega⟩
    have hN : nNodes (.uniform a b (N : ℤ)) = N := by simp [nNodes]
    rw [hN] at hj ⊢
    have h1 : ((N : F) - 1) ≠ 0 := by
      have : (2 : F) ≤ (N : F) := by exact_mod_cast hn
      linarith
    simp only [reflAxis, node]
    rw [Nat.cast_sub (by omega), Nat.cast_sub (by omega)]
    push_cast
    field_simp
    ring
  | array gc =>
    have hj' : j < gc.length := hj
    simp only [reflAxis, node, nNodes]
    rw [getD_of_lt _ _ (by simpa using hj'), getD_of_lt _ _ (by omega)]
    simp [List.getElem_reverse]

theorem refl_inCell {g : GridDim F} (h : ValidAxis g) {x : F} {j : ℕ} (hj : InCell g x j) :
    InCell (reflAxis g) (-x) (nNodes g - 2 - j) := by
  obtain ⟨h1, h2, h3⟩ := hj
  refine ⟨by rw [refl_nNodes]; omega, ?_, ?_⟩
  · rcases h3 with h' | h'
    · left; omega
    · right
      rw [refl_node h (by omega), show nNodes g - 1 - (nNodes g - 2 - j) = j + 1 by omega]
      exact neg_le_neg h'
  · rcases h2 with h' | h'
    · left; rw [refl_nNodes]; omega
    · right
      rw [refl_node h (by omega), show nNodes g - 1 - (nNodes g - 2 - j + 1) = j by omega]
      exact neg_le_neg h'

theorem refl_lin1 {g : GridDim F} (h : ValidAxis g) (x : F) (c c' : ℕ → F)
    (hc : ∀ j < nNodes g, c' (nNodes g - 1 - j) = c j) : lin1 (reflAxis g) (-x) c' = lin1 g x c := by
  have hj := inCell_cell h x
  rw [lin1_eq (refl_valid h) (-x) c' (refl_inCell h hj), lin1_eq h x c hj]
  set j := (cell g x).toNat
  have hj1 := hj.1
  have hw := (width_pos h hj1).ne'
  have e1 := refl_node h (show nNodes g - 2 - j < nNodes g by omega)
  have e2 := refl_node h (show nNodes g - 2 - j + 1 < nNodes g by omega)
  rw [show nNodes g - 1 - (nNodes g - 2 - j) = j + 1 by omega] at e1
  rw [show nNodes g - 1 - (nNodes g - 2 - j + 1) = j by omega] at e2
  have c1 := hc j (by omega)
  have c2 := hc (j + 1) hj1
  rw [show nNodes g - 1 - j = nNodes g - 2 - j + 1 by omega] at c1
  rw [show nNodes g - 1 - (j + 1) = nNodes g - 2 - j by omega] at c2
  simp only [segVal, e1, e2, c1, c2]
  have hw' : -node g j - -node g (j + 1) ≠ 0 := by
    intro h0; apply hw; linarith
  field_simp
  ring

/-- Reflect the axes marked `true`. -/
def reflIf (b : Bool) (g : GridDim F) : GridDim F := if b then reflAxis g else g

/-- Opposite coordinates along the axes marked `true`. -/
def reflPoint (bs : List Bool) (x : List F) : List F := List.zipWith (fun b t => if b then -t else t) bs x

/-- Indices counted from the other end along the axes marked `true`, on an array of shape `sh`. -/
def reflIdx : List Bool → List ℕ → List ℕ → List ℕ
  | b :: bs, n :: sh, i :: idx => (if b then n - 1 - i else i) :: reflIdx bs sh idx
  | _, _, idx => idx

theorem refl_plain : ∀ (bs : List Bool) (G : List (GridDim F)) (x : List F) (c c' : List ℕ → F),
    (∀ g ∈ G, ValidAxis g) → bs.length = G.length → x.length = G.length →
    (∀ idx, InShape (gridShape G) idx → c' (reflIdx bs (gridShape G) idx) = c idx) →
    plain 1 (List.zipWith reflIf bs G) (reflPoint bs x) c' = plain 1 G x c
  | [], [], x, c, c', _, _, _, h => by
    have := h [] trivial
    simpa [plain_nil, reflIdx] using this
  | [], _ :: _, _, _, _, _, h, _, _ => by simp at h
  | _ :: _, [], _, _, _, _, h, _, _ => by simp at h
  | _ :: _, _ :: _, [], _, _, _, _, h, _ => by simp at h
  | b :: bs, g :: G, x :: xs, c, c', hg, hb, hx, h => by
    have hg0 := hg g (by simp)
    have ih : ∀ j < nNodes g, plain 1 (List.zipWith reflIf bs G) (reflPoint bs xs)
        (fun r => c' ((if b then nNodes g - 1 - j else j) :: r)) = plain 1 G xs (fun r => c (j :: r)) :=
      fun j hj => refl_plain bs G xs (fun r => c (j :: r)) _ (fun g' hg' => hg g' (by simp [hg']))
        (by simpa using hb) (by simpa using hx) (fun idx hidx => h (j :: idx) ⟨hj, hidx⟩)
    show plain 1 (reflIf b g :: List.zipWith reflIf bs G) ((if b then -x else x) :: reflPoint bs xs) c' = _
    rw [plain_cons, plain_cons]
    cases b with
    | true =>
      exact refl_lin1 hg0 x (fun j => plain 1 G xs (fun r => c (j :: r)))
        (fun j => plain 1 (List.zipWith reflIf bs G) (reflPoint bs xs) (fun r => c' (j :: r))) ih
    | false => exact lin1_congr hg0 x ih

theorem refl_first {g : GridDim F} (h : ValidAxis g) : first (reflAxis g) = -last g := by
  have := refl_node h (show 0 < nNodes g by have := ValidAxis.two_le h; omega)
  rw [first, this]; rfl

theorem refl_last {g : GridDim F} (h : ValidAxis g) : last (reflAxis g) = -first g := by
  have := refl_node h (show nNodes g - 1 < nNodes g by have := ValidAxis.two_le h; omega)
  rw [last, refl_nNodes, this, Nat.sub_self]; rfl

theorem refl_clamp (b : Bool) {g : GridDim F} (h : ValidAxis g) (x : F) :
    clampAxis (reflIf b g) (if b then -x else x) = if b then -clampAxis g x else clampAxis g x := by
  cases b with
  | false => rfl
  | true =>
    have h' := refl_valid h
    have hle := (first_lt_last h).le
    show clampAxis (reflAxis g) (-x) = -clampAxis g x
    simp only [clampAxis, lo_eq, hi_eq h, hi_eq h', refl_first h, refl_last h, pyMax_eq, pyMin_eq]
    rw [min_neg_neg, max_neg_neg]
    congr 1
    rcases le_total x (first g) with hx | hx
    · rw [max_eq_right hx, min_eq_right hle, max_eq_left (by rw [min_eq_left (hx.trans hle)]; exact hx)]
    · rw [max_eq_left hx, max_eq_right (le_min hx hle), min_comm]

theorem refl_outside (b : Bool) {g : GridDim F} (h : ValidAxis g) (x : F) :
    isOutside (reflIf b g) (if b then -x else x) = isOutside g x := by
  cases b with
  | false => rfl
  | true =>
    have h' := refl_valid h
    show isOutside (reflAxis g) (-x) = isOutside g x
    simp only [isOutside, lo_eq, hi_eq h, hi_eq h', refl_first h, refl_last h, neg_lt_neg_iff]
    rw [Bool.or_comm]

theorem reflIf_valid (b : Bool) {g : GridDim F} (h : ValidAxis g) : ValidAxis (reflIf b g) := by
  cases b with
  | false => exact h
  | true => exact refl_valid h

theorem refl_evalMode (mode : String) (bs : List Bool) (G : List (GridDim F)) (x : List F)
    (c c' : List ℕ → F) (hg : ∀ g ∈ G, ValidAxis g) (hb : bs.length = G.length)
    (hx : x.length = G.length)
    (h : ∀ idx, InShape (gridShape G) idx → c' (reflIdx bs (gridShape G) idx) = c idx) :
    evalMode 1 mode (List.zipWith reflIf bs G) (List.replicate G.length 0) (reflPoint bs x) c'
      = evalMode 1 mode G (List.replicate G.length 0) x c := by
  have h1 : List.zipWith clampAxis (List.zipWith reflIf bs G) (reflPoint bs x)
      = reflPoint bs (List.zipWith clampAxis G x) := by
    apply List.ext_getElem (by simp [reflPoint]; omega)
    intro i h1 h2
    simp only [reflPoint, List.getElem_zipWith]
    exact refl_clamp _ (hg _ (List.getElem_mem _)) _
  have h2 : List.zipWith isOutside (List.zipWith reflIf bs G) (reflPoint bs x)
      = List.zipWith isOutside G x := by
    apply List.ext_getElem (by simp [reflPoint]; omega)
    intro i h1 h2
    simp only [reflPoint, List.getElem_zipWith]
    exact refl_outside _ (hg _ (List.getElem_mem _)) _
  have hl : (List.zipWith reflIf bs G).length = G.length := by simp; omega
  have key := fun y hy => refl_plain bs G y c c' hg hb hy h
  simp only [plain, hl] at key
  rw [evalMode, evalMode, h1, h2, key _ hx, key _ (by simp [hx])]

end Interp.Codegen
