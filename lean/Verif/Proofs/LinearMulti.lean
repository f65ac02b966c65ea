import Verif.Proofs.Api

/-! Linear splines in several dimensions, exact arithmetic. -/

set_option linter.unusedSectionVars false
set_option linter.unusedSimpArgs false

namespace Interp.Codegen
open Interp.Ref Interp.Spec

variable {F : Type} [Field F] [LinearOrder F] [IsStrictOrderedRing F] [FloorRing F]

theorem foldl_add_eq (l : List F) : ∀ a : F, l.foldl (· + ·) a = a + l.sum := by
  induction l with
  | nil => intro a; simp
  | cons b l ih => intro a; simp [ih, add_assoc]

theorem sumL_eq_sum (l : List F) : sumL l = l.sum := by
  cases l with
  | nil => rfl
  | cons a l => simp [sumL, foldl_add_eq]

/-- Value without derivatives. -/
def plain (k : ℕ) (G : List (GridDim F)) (x : List F) (c : List ℕ → F) : F :=
  evalAt k G (List.replicate G.length 0) x c

theorem plain_nil (k : ℕ) (x : List F) (c : List ℕ → F) : plain k [] x c = c [] := by
  simp [plain, evalAt]

theorem plain_cons (g : GridDim F) (G : List (GridDim F)) (x : F) (xs : List F) (c : List ℕ → F) :
    plain 1 (g :: G) (x :: xs) c = lin1 g x (fun j => plain 1 G xs (fun r => c (j :: r))) := by
  simp only [plain, List.length_cons, List.replicate_succ]
  rw [evalAt_lin]

theorem lin1_congr {g : GridDim F} (h : ValidAxis g) (x : F) {c c' : ℕ → F}
    (hc : ∀ j < nNodes g, c j = c' j) : lin1 g x c = lin1 g x c' := by
  have hj := (inCell_cell h x).1
  simp only [lin1]
  rw [hc _ (by omega), hc _ hj]

theorem plain_congr : ∀ (G : List (GridDim F)) (x : List F) (c c' : List ℕ → F),
    (∀ g ∈ G, ValidAxis g) → x.length = G.length →
    (∀ idx, InShape (gridShape G) idx → c idx = c' idx) → plain 1 G x c = plain 1 G x c'
  | [], x, c, c', _, _, h => by rw [plain_nil, plain_nil]; exact h [] trivial
  | g :: G, [], _, _, _, hx, _ => by simp at hx
  | g :: G, x :: xs, c, c', hg, hx, h => by
    rw [plain_cons, plain_cons]
    apply lin1_congr (hg g (by simp))
    intro j hj
    exact plain_congr G xs _ _ (fun g' hg' => hg g' (by simp [hg'])) (by simpa using hx)
      (fun idx hidx => h (j :: idx) ⟨hj, hidx⟩)

theorem plain_node : ∀ (G : List (GridDim F)) (idx : List ℕ) (c : List ℕ → F),
    (∀ g ∈ G, ValidAxis g) → InShape (gridShape G) idx → plain 1 G (nodeAt G idx) c = c idx
  | [], [], c, _, _ => plain_nil _ _ _
  | [], _ :: _, _, _, h => h.elim
  | _ :: _, [], _, _, h => h.elim
  | g :: G, i :: idx, c, hg, h => by
    rw [show nodeAt (g :: G) (i :: idx) = node g i :: nodeAt G idx from rfl, plain_cons,
      lin1_node (hg g (by simp)) _ h.1]
    exact plain_node G idx _ (fun g' hg' => hg g' (by simp [hg'])) h.2

theorem multiAffine_tail {d : ℕ} {f : List F → F} (h : MultiAffine (d + 1) f) (t : F) :
    MultiAffine d (fun xs => f (t :: xs)) := by
  intro x hx i hi
  obtain ⟨p, q, hpq⟩ := h (t :: x) (by simp [hx]) (i + 1) (by omega)
  exact ⟨p, q, fun s => by simpa using hpq s⟩

theorem plain_multiAffine : ∀ (G : List (GridDim F)) (f : List F → F) (x : List F),
    (∀ g ∈ G, ValidAxis g) → MultiAffine G.length f → x.length = G.length →
    plain 1 G x (fun idx => f (nodeAt G idx)) = f x
  | [], f, x, _, _, hx => by
    have : x = [] := by simpa using hx
    subst this; rw [plain_nil]; rfl
  | g :: G, f, [], _, _, hx => by simp at hx
  | g :: G, f, x :: xs, hg, hf, hx => by
    rw [plain_cons]
    have hxs : xs.length = G.length := by simpa using hx
    have h1 : ∀ j, plain 1 G xs (fun r => f (nodeAt (g :: G) (j :: r))) = f (node g j :: xs) := by
      intro j
      exact plain_multiAffine G (fun ys => f (node g j :: ys)) xs
        (fun g' hg' => hg g' (by simp [hg'])) (multiAffine_tail hf _) hxs
    simp only [h1]
    obtain ⟨p, q, hpq⟩ := hf (x :: xs) hx 0 (by simp)
    simp only [List.set_cons_zero] at hpq
    rw [lin1_affine (hg g (by simp)) x p q _ (fun j _ => hpq _), ← hpq]

/-! ### Order -/

theorem seg_mono {g : GridDim F} (h : ValidAxis g) {x : F} {j : ℕ} (hj : j + 1 < nNodes g)
    (h1 : node g j ≤ x) (h2 : x ≤ node g (j + 1)) {c c' : ℕ → F} (h3 : c j ≤ c' j)
    (h4 : c (j + 1) ≤ c' (j + 1)) : segVal g x j c ≤ segVal g x j c' := by
  have hw := width_pos h hj
  set t := (x - node g j) / (node g (j + 1) - node g j) with ht
  have ht0 : 0 ≤ t := div_nonneg (by linarith) hw.le
  have ht1 : t ≤ 1 := (div_le_one hw).2 (by linarith)
  have e1 : segVal g x j c = (1 - t) * c j + t * c (j + 1) := by rw [segVal, ← ht]; ring
  have e2 : segVal g x j c' = (1 - t) * c' j + t * c' (j + 1) := by rw [segVal, ← ht]; ring
  rw [e1, e2]
  have := mul_le_mul_of_nonneg_left h3 (sub_nonneg.2 ht1)
  have := mul_le_mul_of_nonneg_left h4 ht0
  linarith

theorem plain_const : ∀ (G : List (GridDim F)) (x : List F) (v : F), x.length = G.length →
    (∀ g ∈ G, ValidAxis g) → plain 1 G x (fun _ => v) = v
  | [], x, v, _, _ => plain_nil _ _ _
  | g :: G, [], v, hx, _ => by simp at hx
  | g :: G, x :: xs, v, hx, hg => by
    rw [plain_cons, plain_const G xs v (by simpa using hx) (fun g' hg' => hg g' (by simp [hg']))]
    rw [lin1]; ring

theorem plain_mono : ∀ (G : List (GridDim F)) (x : List F) (J : List ℕ) (c c' : List ℕ → F),
    (∀ g ∈ G, ValidAxis g) → InClosedCell G x J →
    (∀ idx, IsCorner J idx → c idx ≤ c' idx) → plain 1 G x c ≤ plain 1 G x c'
  | [], [], [], c, c', _, _, h => by rw [plain_nil, plain_nil]; exact h [] .nil
  | g :: G, x :: xs, j :: J, c, c', hg, hx, h => by
    rw [plain_cons, plain_cons]
    obtain ⟨⟨h1, h2, h3⟩, hx'⟩ := hx
    have hv := hg g (by simp)
    rw [lin1_eq hv x _ (j := j) ⟨h1, Or.inr h2, Or.inr h3⟩,
      lin1_eq hv x _ (j := j) ⟨h1, Or.inr h2, Or.inr h3⟩]
    apply seg_mono hv h1 h2 h3
    · exact plain_mono G xs J _ _ (fun g' hg' => hg g' (by simp [hg'])) hx'
        (fun idx hidx => h (j :: idx) (.cons (Or.inl rfl) hidx))
    · exact plain_mono G xs J _ _ (fun g' hg' => hg g' (by simp [hg'])) hx'
        (fun idx hidx => h ((j + 1) :: idx) (.cons (Or.inr rfl) hidx))
  | [], [], _ :: _, _, _, _, h, _ => h.elim
  | [], _ :: _, _, _, _, _, h, _ => h.elim
  | _ :: _, [], _, _, _, _, h, _ => h.elim
  | _ :: _, _ :: _, [], _, _, _, h, _ => h.elim

theorem inClosedCell_exists : ∀ (G : List (GridDim F)) (x : List F), (∀ g ∈ G, ValidAxis g) →
    InBox G x → ∃ J, InClosedCell G x J
  | [], [], _, _ => ⟨[], trivial⟩
  | [], _ :: _, _, h => by cases h
  | _ :: _, [], _, h => by cases h
  | g :: G, x :: xs, hg, h => by
    cases h with
    | cons h1 h2 =>
      obtain ⟨J, hJ⟩ := inClosedCell_exists G xs (fun g' hg' => hg g' (by simp [hg'])) h2
      have hv := hg g (by simp)
      have hc := inCell_cell hv x
      refine ⟨(cell g x).toNat :: J, ⟨hc.1, ?_, ?_⟩, hJ⟩
      · rcases hc.2.1 with h' | h'
        · rw [h']; exact h1.1
        · exact h'
      · rcases hc.2.2 with h' | h'
        · have : (cell g x).toNat + 1 = nNodes g - 1 := by omega
          rw [this]; exact h1.2
        · exact h'

theorem inClosedCell_length : ∀ (G : List (GridDim F)) (x : List F) (J : List ℕ),
    InClosedCell G x J → x.length = G.length
  | [], [], [], _ => rfl
  | g :: G, x :: xs, j :: J, h => by simp [inClosedCell_length G xs J h.2]
  | [], [], _ :: _, h => h.elim
  | [], _ :: _, _, h => h.elim
  | _ :: _, [], _, h => h.elim
  | _ :: _, _ :: _, [], h => h.elim

/-- Corners are grid nodes. -/
theorem corner_inShape : ∀ (G : List (GridDim F)) (x : List F) (J idx : List ℕ),
    InClosedCell G x J → IsCorner J idx → InShape (gridShape G) idx
  | [], [], [], _, _, h => by cases h; trivial
  | g :: G, x :: xs, j :: J, _, h, h' => by
    cases h' with
    | cons h1 h2 =>
      have := h.1.1
      exact ⟨by rcases h1 with rfl | rfl <;> omega, corner_inShape G xs J _ h.2 h2⟩
  | [], [], _ :: _, _, h, _ => h.elim
  | [], _ :: _, _, _, h, _ => h.elim
  | _ :: _, [], _, _, h, _ => h.elim
  | _ :: _, _ :: _, [], _, h, _ => h.elim

/-! ### Linearity in the coefficients (any degree, any orders) -/

theorem evalAt_linear (k : ℕ) : ∀ (G : List (GridDim F)) (oo : List ℕ) (x : List F)
    (c c' : List ℕ → F) (p q : F),
    evalAt k G oo x (fun r => p * c r + q * c' r) = p * evalAt k G oo x c + q * evalAt k G oo x c'
  | [], oo, x, c, c', p, q => by simp [evalAt]
  | g :: G, [], x, c, c', p, q => by simp [evalAt]
  | g :: G, l :: oo, [], c, c', p, q => by simp [evalAt]
  | g :: G, l :: oo, x :: xs, c, c', p, q => by
    simp only [evalAt, sumL_eq_sum]
    have : ∀ j, evalAt k G oo xs (fun r => p * c (((cell g x).toNat + j) :: r)
        + q * c' (((cell g x).toNat + j) :: r)) = _ := fun j =>
      evalAt_linear k G oo xs (fun r => c (((cell g x).toNat + j) :: r))
        (fun r => c' (((cell g x).toNat + j) :: r)) p q
    simp only [this]
    generalize weights k l g x = w
    generalize (fun j => evalAt k G oo xs (fun r => c (((cell g x).toNat + j) :: r))) = e
    have key : ∀ (w : List F) (e e' : ℕ → F),
        (w.mapIdx fun j w => w * (p * e j + q * e' j)).sum
          = p * (w.mapIdx fun j w => w * e j).sum + q * (w.mapIdx fun j w => w * e' j).sum := by
      intro w
      induction w with
      | nil => intro e e'; simp
      | cons a w ih =>
        intro e e'
        simp only [List.mapIdx_cons, List.sum_cons]
        rw [ih (fun j => e (j + 1)) (fun j => e' (j + 1))]
        ring
    exact key w (fun j => evalAt k G oo xs (fun r => c (((cell g x).toNat + j) :: r)))
      (fun j => evalAt k G oo xs (fun r => c' (((cell g x).toNat + j) :: r)))

/-! ### The entries of the result -/

theorem rowEntry_plain (k : ℕ) (mode : String) (G : List (GridDim F)) (C : NdArray F) (vec : Bool)
    (m : ℕ) (x : List F) (tail : List ℕ) (ht : InShape (tailShape vec m none) tail) :
    rowEntry k mode G C vec none x tail
      = evalMode k mode G (List.replicate G.length 0) x (fun r => C.get (r ++ tail)) := by
  cases vec with
  | false =>
    have : tail = [] := by
      rw [← inShape_nil_iff]; exact ht
    subst this; rfl
  | true =>
    obtain ⟨i, r, rfl, _, hr⟩ := inShape_cons_iff.1 (show InShape (m :: []) tail from ht)
    rw [inShape_nil_iff] at hr
    subst hr; rfl

theorem rowEntry_order (k : ℕ) (mode : String) (G : List (GridDim F)) (C : NdArray F) (vec : Bool)
    (m : ℕ) (os : List (List ℕ)) (x : List F) (comp : List ℕ) (j : ℕ)
    (ht : InShape (tailShape vec m none) comp) :
    rowEntry k mode G C vec (some os) x (comp ++ [j])
      = evalMode k mode G (os.getD j []) x (fun r => C.get (r ++ comp)) := by
  cases vec with
  | false =>
    have : comp = [] := by
      rw [← inShape_nil_iff]; exact ht
    subst this; rfl
  | true =>
    obtain ⟨i, r, rfl, _, hr⟩ := inShape_cons_iff.1 (show InShape (m :: []) comp from ht)
    rw [inShape_nil_iff] at hr
    subst hr; rfl

/-- Trailing indices with orders. -/
theorem inShape_tail_orders (vec : Bool) (m : ℕ) (os : List (List ℕ)) (tail : List ℕ)
    (h : InShape (tailShape vec m (some os)) tail) :
    ∃ comp j, tail = comp ++ [j] ∧ InShape (tailShape vec m none) comp ∧ j < os.length := by
  cases vec with
  | false =>
    obtain ⟨j, r, rfl, hj, hr⟩ := inShape_cons_iff.1 (show InShape (os.length :: []) tail from h)
    rw [inShape_nil_iff] at hr
    subst hr
    exact ⟨[], j, rfl, trivial, hj⟩
  | true =>
    obtain ⟨i, r, rfl, hi, hr⟩ := inShape_cons_iff.1 (show InShape (m :: [os.length]) tail from h)
    obtain ⟨j, r, rfl, hj, hr⟩ := inShape_cons_iff.1 hr
    rw [inShape_nil_iff] at hr
    subst hr
    exact ⟨[i], j, rfl, ⟨hi, trivial⟩, hj⟩

/-! ### Modes -/

theorem clampAxis_eq {g : GridDim F} (h : ValidAxis g) (x : F) :
    clampAxis g x = max (first g) (min x (last g)) := by
  rw [clampAxis, pyMax_eq, pyMin_eq, lo_eq, hi_eq h]

theorem isOutside_eq {g : GridDim F} (h : ValidAxis g) (x : F) :
    isOutside g x = true ↔ x < first g ∨ last g < x := by
  simp [isOutside, lo_eq, hi_eq h]

theorem zipWith_clamp (G : List (GridDim F)) (x : List F) (hG : ∀ g ∈ G, ValidAxis g) :
    List.zipWith clampAxis G x = projBox G x := by
  unfold projBox
  induction G generalizing x with
  | nil => simp
  | cons g G ih =>
    cases x with
    | nil => simp
    | cons t x =>
      simp only [List.zipWith_cons_cons]
      rw [clampAxis_eq (hG g (by simp)), ih x (fun g' hg' => hG g' (by simp [hg']))]

theorem projBox_of_inBox (G : List (GridDim F)) (x : List F) (h : InBox G x) :
    projBox G x = x := by
  unfold projBox
  induction h with
  | nil => simp
  | cons h1 _ ih =>
    simp only [List.zipWith_cons_cons, ih]
    rw [min_eq_left h1.2, max_eq_right h1.1]

theorem projBox_inBox (G : List (GridDim F)) (x : List F) (hG : ∀ g ∈ G, ValidAxis g)
    (hx : x.length = G.length) : InBox G (projBox G x) := by
  unfold projBox
  induction G generalizing x with
  | nil =>
    have : x = [] := by simpa using hx
    subst this; exact .nil
  | cons g G ih =>
    cases x with
    | nil => simp at hx
    | cons t x =>
      refine .cons ⟨le_max_left _ _, max_le (first_lt_last (hG g (by simp))).le (min_le_right _ _)⟩
        (ih x (fun g' hg' => hG g' (by simp [hg'])) (by simpa using hx))

theorem any_outside_iff (G : List (GridDim F)) (x : List F) (hG : ∀ g ∈ G, ValidAxis g)
    (hx : x.length = G.length) :
    (List.zipWith isOutside G x).any id = false ↔ InBox G x := by
  induction G generalizing x with
  | nil =>
    have : x = [] := by simpa using hx
    subst this; simp [InBox]
  | cons g G ih =>
    cases x with
    | nil => simp at hx
    | cons t x =>
      have hg := hG g (by simp)
      have := ih x (fun g' hg' => hG g' (by simp [hg'])) (by simpa using hx)
      simp only [List.zipWith_cons_cons, List.any_cons, id_eq, Bool.or_eq_false_iff]
      have h1 : isOutside g t = false ↔ first g ≤ t ∧ t ≤ last g := by
        rw [← Bool.not_eq_true, isOutside_eq hg]
        push Not; rfl
      rw [h1, this]
      constructor
      · rintro ⟨h1, h2⟩; exact .cons h1 h2
      · intro h; cases h with | cons h1 h2 => exact ⟨h1, h2⟩

/-- Inside the box the mode does not matter. -/
theorem evalMode_inBox (k : ℕ) (mode : String) (G : List (GridDim F)) (oo : List ℕ) (x : List F)
    (c : List ℕ → F) (hG : ∀ g ∈ G, ValidAxis g) (hx : InBox G x) :
    evalMode k mode G oo x c = evalAt k G oo x c := by
  unfold evalMode
  rw [zipWith_clamp G x hG, projBox_of_inBox G x hx]
  have := (any_outside_iff G x hG (hx.length_eq.symm)).2 hx
  rw [this]
  simp

theorem nodeAt_length (G : List (GridDim F)) (idx : List ℕ) (h : InShape (gridShape G) idx) :
    (nodeAt G idx).length = G.length := by
  unfold nodeAt
  have : ∀ (sh idx : List ℕ), InShape sh idx → idx.length = sh.length := by
    intro sh
    induction sh with
    | nil => intro idx h; rw [inShape_nil_iff] at h; simp [h]
    | cons n sh ih =>
      intro idx h
      obtain ⟨i, r, rfl, _, hr⟩ := inShape_cons_iff.1 h
      simp [ih r hr]
  have := this _ _ h
  simp [gridShape] at this
  simp [this]

theorem nodeAt_inBox : ∀ (G : List (GridDim F)) (idx : List ℕ), (∀ g ∈ G, ValidAxis g) →
    InShape (gridShape G) idx → InBox G (nodeAt G idx)
  | [], [], _, _ => .nil
  | [], _ :: _, _, h => h.elim
  | _ :: _, [], _, h => h.elim
  | g :: G, i :: idx, hG, h => by
    have hg := hG g (by simp)
    have hi : i < nNodes g := h.1
    exact .cons ⟨node_le hg (Nat.zero_le _) hi, node_le hg (by omega) (by omega)⟩
      (nodeAt_inBox G idx (fun g' hg' => hG g' (by simp [hg'])) h.2)

end Interp.Codegen
