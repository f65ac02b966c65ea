import Verif.Proofs.FilterLine
import Verif.Spec.Index

/-! Passes over all the lines of an array, and the filters in one to four dimensions. -/

set_option linter.unusedSectionVars false
set_option linter.unusedSimpArgs false

namespace Interp.FilterRef
variable {K : Type} [Add K] [Sub K] [Mul K] [Div K] [Neg K] [Zero K] [One K] [NatCast K]

/-- Filtering along the successive axes `(δ, m)`: first axis first. -/
def tfilt : List (K × ℕ) → (List ℕ → K) → List ℕ → K
  | a :: as, D, i :: r => tfilt as (fun s => solve a.1 a.2 (fun j => D (j :: s)) i) r
  | _, D, idx => D idx

end Interp.FilterRef

namespace Interp.Filter
open Interp.FilterRef Interp.Spec Interp.Codegen

variable {K : Type} [Add K] [Sub K] [Mul K] [Div K] [Neg K] [Zero K] [One K] [NatCast K]
  [IntCast K] [LT K] [DecidableLT K] [BEq K]

theorem tfilt_snoc (a : K × ℕ) (i : ℕ) (post : List ℕ) :
    ∀ (as : List (K × ℕ)) (pre : List ℕ) (D : List ℕ → K), pre.length = as.length →
    tfilt (as ++ [a]) D (pre ++ i :: post) =
      solve a.1 a.2 (fun j => tfilt as D (pre ++ j :: post)) i
  | [], [], D, _ => by simp [tfilt]
  | [], _ :: _, D, h => by simp at h
  | _ :: _, [], D, h => by simp at h
  | b :: as, p :: pre, D, h => by
    simp only [List.cons_append, tfilt]
    exact tfilt_snoc a i post as pre _ (by simpa using h)

/-- What one step of a pass has to do. -/
def StepOk {S : Type} (δ : K) (m : ℕ) (src : Option (NdArray K)) (inv : S → Prop)
    (arr : S → NdArray K) (step : Line → S → Py S) : Prop :=
  ∀ l s (data : ℕ → K), inv s → LineOk (arr s).shape l (m + 2) →
    (∀ i < m, (src.getD (arr s)).read (l.pos (i : ℤ)) = .ok (data i)) →
    ∃ s', step l s = .ok s' ∧ inv s' ∧ LineSet (arr s) l (m + 2) (solve δ m data) (arr s')

theorem Line.nat_eq {l l' : Line} {i j : ℕ} (h : l.pre.length = l'.pre.length)
    (e : Line.nat l i = Line.nat l' j) : l = l' := by
  obtain ⟨h1, h2⟩ := List.append_inj e h
  cases l; cases l'
  simp only [List.cons.injEq] at h2
  simp_all

theorem pass_ok {S : Type} {δ : K} {m : ℕ} {src : Option (NdArray K)} {inv : S → Prop}
    {arr : S → NdArray K} {step : Line → S → Py S} (hstep : StepOk δ m src inv arr step)
    (dataf : Line → ℕ → K) (p : ℕ) (sh : List ℕ) :
    ∀ (L : List Line) (s : S), L.Nodup → (∀ l ∈ L, l.pre.length = p) →
      (∀ l ∈ L, LineOk sh l (m + 2)) → inv s → (arr s).shape = sh →
      (∀ l ∈ L, ∀ i < m, (src.getD (arr s)).read (l.pos (i : ℤ)) = .ok (dataf l i)) →
      ∃ s', pyFor L step s = .ok s' ∧ inv s' ∧ (arr s').shape = sh ∧
        (∀ l ∈ L, ∀ i < m + 2, (arr s').get (Line.nat l i) = solve δ m (dataf l) i) ∧
        (∀ idx, (∀ l ∈ L, ∀ i < m + 2, idx ≠ Line.nat l i) → (arr s').get idx = (arr s).get idx)
  | [], s, _, _, _, hi, hsh, _ => ⟨s, rfl, hi, hsh, by simp, by simp⟩
  | l :: L, s, hnd, hp, hok, hi, hsh, hsrc => by
    obtain ⟨s1, e1, i1, sh1, set1, oth1⟩ := hstep l s (dataf l) hi
      (by rw [hsh]; exact hok l (by simp)) (hsrc l (by simp))
    have hne : ∀ l' ∈ L, ∀ i j, Line.nat l' i ≠ Line.nat l j := by
      intro l' hl' i j e
      have := Line.nat_eq (by rw [hp l (by simp), hp l' (by simp [hl'])]) e
      subst this
      exact (List.nodup_cons.mp hnd).1 hl'
    obtain ⟨s2, e2, i2, sh2, set2, oth2⟩ := pass_ok hstep dataf p sh L s1 (List.nodup_cons.mp hnd).2
      (fun l' h' => hp l' (by simp [h'])) (fun l' h' => hok l' (by simp [h'])) i1
      (by rw [sh1, hsh])
      (by
        intro l' h' i hi'
        have hs' := hsrc l' (by simp [h']) i hi'
        cases src with
        | some D => exact hs'
        | none =>
          simp only [Option.getD_none] at hs' ⊢
          have ok1 : LineOk (arr s).shape l' (m + 2) := by rw [hsh]; exact hok l' (by simp [h'])
          have ok2 : LineOk (arr s1).shape l' (m + 2) := by rw [sh1]; exact ok1
          rw [readLine ok1 (by omega)] at hs'
          rw [readLine ok2 (by omega), oth1 _ (fun j _ => hne l' h' i j)]
          exact hs')
    refine ⟨s2, ?_, i2, sh2, ?_, ?_⟩
    · rw [pyFor_cons, e1, ok_bind, e2]
    · intro l' h' i hi'
      rcases List.mem_cons.mp h' with rfl | h'
      · rw [oth2 _ (fun l'' h'' j _ e => hne l'' h'' j i e.symm)]
        exact set1 i hi'
      · exact set2 l' h' i hi'
    · intro idx hidx
      rw [oth2 idx (fun l' h' => hidx l' (by simp [h'])), oth1 idx (hidx l (by simp))]

/-- Lines of one pass: filtered indices before, data indices after. -/
def linesOf (N M : List ℕ) : List Line :=
  (allIdx N).flatMap fun pre => (allIdx M).map fun post => Line.mk pre post

theorem mem_linesOf {N M : List ℕ} {l : Line} :
    l ∈ linesOf N M ↔ InShape N l.pre ∧ InShape M l.post := by
  simp only [linesOf, List.mem_flatMap, List.mem_map, mem_allIdx]
  constructor
  · rintro ⟨pre, hp, post, hq, rfl⟩; exact ⟨hp, hq⟩
  · rintro ⟨hp, hq⟩; exact ⟨l.pre, hp, l.post, hq, rfl⟩

theorem nodup_linesOf (N M : List ℕ) : (linesOf N M).Nodup := by
  rw [linesOf, List.nodup_flatMap]
  refine ⟨fun i _ => (nodup_allIdx M).map (fun a b h => by simpa using h), ?_⟩
  refine List.Pairwise.imp (R := (· ≠ ·)) ?_ (nodup_allIdx N)
  intro a b hab
  simp only [Function.onFun, List.disjoint_left, List.mem_map, not_exists, not_and]
  rintro x ⟨y, _, rfl⟩ z _ h
  simp only [Line.mk.injEq] at h
  exact hab h.1.symm

/-- Shapes of the data and of the coefficients. -/
def dsh (as : List (K × ℕ)) : List ℕ := as.map fun a => a.2
def csh (as : List (K × ℕ)) : List ℕ := as.map fun a => a.2 + 2

theorem InShape.mono : ∀ {s s' idx : List ℕ}, List.Forall₂ (· ≤ ·) s s' → InShape s idx →
    InShape s' idx
  | [], [], _, _, h => h
  | _ :: _, _ :: _, [], _, h => h.elim
  | _ :: _, _ :: _, _ :: _, .cons h1 h2, h => ⟨lt_of_lt_of_le h.1 h1, InShape.mono h2 h.2⟩

theorem dsh_le_csh (as : List (K × ℕ)) : List.Forall₂ (· ≤ ·) (dsh as) (csh as) := by
  induction as with
  | nil => exact .nil
  | cons a as ih => exact .cons (Nat.le_add_right _ _) ih

/-- One pass over the array: axis `a`, after the axes `as` and before the axes `bs`. -/
theorem axis_pass {S : Type} {a : K × ℕ} {as bs : List (K × ℕ)} {src : Option (NdArray K)}
    {inv : S → Prop} {arr : S → NdArray K} {step : Line → S → Py S}
    (hstep : StepOk a.1 a.2 src inv arr step) (D : List ℕ → K) {s : S} (hi : inv s)
    (hsh : (arr s).shape = csh (as ++ a :: bs))
    (hsrc : ∀ pre i post, InShape (csh as) pre → i < a.2 → InShape (dsh bs) post →
      (src.getD (arr s)).read ((pre ++ i :: post).map Int.ofNat) =
        .ok (tfilt as D (pre ++ i :: post))) :
    ∃ s', pyFor (linesOf (csh as) (dsh bs)) step s = .ok s' ∧ inv s' ∧
      (arr s').shape = csh (as ++ a :: bs) ∧
      ∀ pre post, InShape (csh (as ++ [a])) pre → InShape (dsh bs) post →
        (arr s').get (pre ++ post) = tfilt (as ++ [a]) D (pre ++ post) := by
  have hlen : ∀ {pre : List ℕ}, InShape (csh as) pre → pre.length = as.length := by
    intro pre h
    have := inShape_length h
    simpa [csh] using this
  obtain ⟨s', e, i', sh', hset, -⟩ := pass_ok hstep
    (fun l i => tfilt as D (l.pre ++ i :: l.post)) as.length (csh (as ++ a :: bs))
    (linesOf (csh as) (dsh bs)) s (nodup_linesOf _ _)
    (fun l hl => hlen (mem_linesOf.mp hl).1)
    (fun l hl => ⟨csh as, csh bs, by simp [csh], (mem_linesOf.mp hl).1,
      InShape.mono (dsh_le_csh bs) (mem_linesOf.mp hl).2⟩)
    hi hsh
    (by
      intro l hl i hi'
      rw [pos_nat]
      exact hsrc l.pre i l.post (mem_linesOf.mp hl).1 hi' (mem_linesOf.mp hl).2)
  refine ⟨s', e, i', sh', ?_⟩
  intro pre post hpre hpost
  obtain ⟨pre, i, rfl, h1, h2⟩ : ∃ p i, pre = p ++ [i] ∧ InShape (csh as) p ∧ i < a.2 + 2 := by
    clear hset hsrc e
    have : csh (as ++ [a]) = csh as ++ [a.2 + 2] := by simp [csh]
    rw [this] at hpre
    generalize csh as = sh at hpre
    clear hlen hsh sh'
    induction sh generalizing pre with
    | nil =>
      cases pre with
      | nil => exact hpre.elim
      | cons i pre =>
        obtain ⟨h1, h2⟩ := hpre
        rw [inShape_nil_iff] at h2
        subst h2
        exact ⟨[], i, rfl, trivial, h1⟩
    | cons n sh ih =>
      cases pre with
      | nil => exact hpre.elim
      | cons j pre =>
        obtain ⟨h1, h2⟩ := hpre
        obtain ⟨p, i, rfl, h3, h4⟩ := ih pre h2
        exact ⟨j :: p, i, rfl, ⟨h1, h3⟩, h4⟩
  have hm : (⟨pre, post⟩ : Line) ∈ linesOf (csh as) (dsh bs) := mem_linesOf.mpr ⟨h1, hpost⟩
  have := hset _ hm i h2
  simp only [Line.nat] at this
  rw [List.append_assoc, List.singleton_append, this, tfilt_snoc a i post as pre D (hlen h1)]

theorem new_stepOk {δ : K} {m : ℕ} (src : Option (NdArray K)) (hm : 2 ≤ m)
    (hp : NoZeroPivot δ m) :
    StepOk δ m src (fun s : NdArray K × NdArray K => s.1.shape = [m + 2, 4]) (·.2)
      (findCoefs1d δ src) := by
  rintro l ⟨b, C⟩ data hb hl hrd
  obtain ⟨b', C', e, h1, h2⟩ := findCoefs_ok data hm hp hb hl hrd
  exact ⟨(b', C'), e, h1, h2⟩

theorem old_stepOk {δ : K} {m : ℕ} (src : Option (NdArray K)) (hm : 2 ≤ m)
    (hp : NoZeroPivot δ m) :
    StepOk δ m src (fun _ : NdArray K => True) id (oldFindCoefs1d δ m src) := by
  rintro l C data hb hl hrd
  obtain ⟨C', e, h2⟩ := oldFindCoefs_ok data hm hp hl hrd
  exact ⟨C', e, trivial, h2⟩

theorem pyFor_flatMap {α β S : Type} (l : List α) (g : α → List β) (f : β → S → Py S) (s : S) :
    pyFor (l.flatMap g) f s = pyFor l (fun a => pyFor (g a) f) s := by
  induction l generalizing s with
  | nil => rfl
  | cons a l ih =>
    rw [List.flatMap_cons, pyFor_append, pyFor_cons]
    congr 1
    funext s
    exact ih s

theorem pyFor_singleton {α S : Type} (a : α) (f : α → S → Py S) (s : S) :
    pyFor [a] f s = f a s := by
  rw [pyFor_cons]
  simp only [pyFor_nil]
  exact bind_pure (f a s)

theorem pyFor_flatMap' {α β S : Type} (l : List α) (g : α → List β) (f : β → S → Py S) :
    pyFor (l.flatMap g) f = pyFor l (fun a => pyFor (g a) f) := funext (pyFor_flatMap l g f)

theorem pyFor_map' {α β S : Type} (l : List α) (g : α → β) (f : β → S → Py S) :
    pyFor (l.map g) f = pyFor l (fun a => f (g a)) := funext (pyFor_map l g f)

theorem pyFor_singleton' {α S : Type} (a : α) (f : α → S → Py S) :
    pyFor [a] f = f a := funext (pyFor_singleton a f)

/-- First pass of a filter. -/
theorem first_pass {S : Type} {a : K × ℕ} {bs : List (K × ℕ)} {D : NdArray K}
    {inv : S → Prop} {arr : S → NdArray K} {step : Line → S → Py S}
    (hstep : StepOk a.1 a.2 (some D) inv arr step) {s : S} (hi : inv s)
    (hsh : (arr s).shape = csh (a :: bs)) (hD : D.shape = dsh (a :: bs)) :
    ∃ s', pyFor (linesOf [] (dsh bs)) step s = .ok s' ∧ inv s' ∧
      (arr s').shape = csh (a :: bs) ∧
      ∀ pre post, InShape (csh [a]) pre → InShape (dsh bs) post →
        (arr s').get (pre ++ post) = tfilt [a] D.get (pre ++ post) := by
  refine axis_pass (as := []) hstep D.get hi hsh ?_
  intro pre i post h1 h2 h3
  simp only [csh, List.map_nil, inShape_nil_iff] at h1
  subst h1
  simp only [Option.getD_some, List.nil_append, tfilt]
  exact NdArray.read_ok D _ (by rw [hD]; exact ⟨h2, h3⟩)

/-- Later passes. -/
theorem next_pass {S : Type} {a : K × ℕ} {as bs : List (K × ℕ)} {D : List ℕ → K}
    {inv : S → Prop} {arr : S → NdArray K} {step : Line → S → Py S}
    (hstep : StepOk a.1 a.2 none inv arr step) {s : S} (hi : inv s)
    (hsh : (arr s).shape = csh (as ++ a :: bs))
    (hC : ∀ pre post, InShape (csh as) pre → InShape (dsh (a :: bs)) post →
        (arr s).get (pre ++ post) = tfilt as D (pre ++ post)) :
    ∃ s', pyFor (linesOf (csh as) (dsh bs)) step s = .ok s' ∧ inv s' ∧
      (arr s').shape = csh (as ++ a :: bs) ∧
      ∀ pre post, InShape (csh (as ++ [a])) pre → InShape (dsh bs) post →
        (arr s').get (pre ++ post) = tfilt (as ++ [a]) D (pre ++ post) := by
  refine axis_pass hstep D hi hsh ?_
  intro pre i post h1 h2 h3
  rw [Option.getD_none, NdArray.read_ok _ _ ?_, hC pre (i :: post) h1 ⟨h2, h3⟩]
  rw [hsh]
  have : csh (as ++ a :: bs) = csh as ++ csh (a :: bs) := by simp [csh]
  rw [this]
  exact inShape_append h1 (InShape.mono (dsh_le_csh (a :: bs)) ⟨h2, h3⟩)

/-- The result of filtering: right shape, every entry in closed form. -/
def Filtered (as : List (K × ℕ)) (D C : NdArray K) : Prop :=
  C.shape = csh as ∧ ∀ idx, InShape (csh as) idx → C.get idx = tfilt as D.get idx

/-- The solver meets no zero divisor. -/
def Solvable (as : List (K × ℕ)) : Prop := ∀ a ∈ as, 2 ≤ a.2 ∧ NoZeroPivot a.1 a.2

theorem filtered_of {as : List (K × ℕ)} {D C : NdArray K} (hs : C.shape = csh as)
    (h : ∀ pre post, InShape (csh as) pre → InShape (dsh ([] : List (K × ℕ))) post →
      C.get (pre ++ post) = tfilt as D.get (pre ++ post)) : Filtered as D C :=
  ⟨hs, fun idx hidx => by simpa using h idx [] hidx trivial⟩

theorem filter1_ok {g0 : GridDim K} {D C : NdArray K} {δ0 : K} {m0 : ℕ}
    (h0 : dinv g0 = .ok δ0) (hs : Solvable [(δ0, m0)]) (hD : D.shape = [m0])
    (hC : C.shape = [m0 + 2]) :
    ∃ C', filter1 g0 D C = .ok C' ∧ Filtered [(δ0, m0)] D C' := by
  obtain ⟨⟨b, C1⟩, e1, -, s1, f1⟩ := first_pass (a := (δ0, m0)) (bs := [])
    (new_stepOk (some D) (hs _ (by simp)).1 (hs _ (by simp)).2)
    (s := (NdArray.zeros [m0 + 2, 4], C)) rfl (by simpa [csh] using hC) (by simpa [dsh] using hD)
  refine ⟨C1, ?_, filtered_of s1 f1⟩
  have : linesOf [] (dsh ([] : List (K × ℕ))) = [⟨[], []⟩] := rfl
  rw [this, pyFor_singleton] at e1
  unfold filter1
  simp only [h0, ok_bind, hD, List.getD_cons_zero]
  rw [e1]; rfl

theorem filter2_ok {g0 g1 : GridDim K} {D C : NdArray K} {δ0 δ1 : K} {m0 m1 : ℕ}
    (h0 : dinv g0 = .ok δ0) (h1 : dinv g1 = .ok δ1)
    (hs : Solvable [(δ0, m0), (δ0, m1)]) (hD : D.shape = [m0, m1])
    (hC : C.shape = [m0 + 2, m1 + 2]) :
    ∃ C', filter2 g0 g1 D C = .ok C' ∧ Filtered [(δ0, m0), (δ0, m1)] D C' := by
  have sv0 := hs (δ0, m0) (by simp)
  have sv1 := hs (δ0, m1) (by simp)
  obtain ⟨⟨b, C1⟩, e1, -, s1, f1⟩ := first_pass (a := (δ0, m0)) (bs := [(δ0, m1)])
    (new_stepOk (some D) sv0.1 sv0.2)
    (s := (NdArray.zeros [m0 + 2, 4], C)) rfl (by simpa [csh] using hC) (by simpa [dsh] using hD)
  obtain ⟨⟨b', C2⟩, e2, -, s2, f2⟩ := next_pass (a := (δ0, m1)) (as := [(δ0, m0)]) (bs := [])
    (new_stepOk none sv1.1 sv1.2) (s := (NdArray.zeros [m1 + 2, 4], C1)) rfl s1 f1
  refine ⟨C2, ?_, filtered_of s2 f2⟩
  simp only [linesOf, allIdx, csh, dsh, List.map_cons, List.map_nil, pyFor_flatMap', pyFor_map',
    pyFor_singleton', List.flatMap_cons, List.flatMap_nil, List.append_nil, List.nil_append] at e1 e2
  unfold filter2
  simp only [h0, h1, ok_bind, hD, List.getD_cons_zero, List.getD_cons_succ]
  rw [e1, ok_bind, e2]; rfl

theorem filter3_ok {g0 g1 g2 : GridDim K} {D C : NdArray K} {δ0 δ1 δ2 : K} {m0 m1 m2 : ℕ}
    (h0 : dinv g0 = .ok δ0) (h1 : dinv g1 = .ok δ1) (h2 : dinv g2 = .ok δ2)
    (hs : Solvable [(δ0, m0), (δ1, m1), (δ2, m2)]) (hD : D.shape = [m0, m1, m2])
    (hC : C.shape = [m0 + 2, m1 + 2, m2 + 2]) :
    ∃ C', filter3 g0 g1 g2 D C = .ok C' ∧ Filtered [(δ0, m0), (δ1, m1), (δ2, m2)] D C' := by
  have sv0 := hs (δ0, m0) (by simp)
  have sv1 := hs (δ1, m1) (by simp)
  have sv2 := hs (δ2, m2) (by simp)
  obtain ⟨⟨b, C1⟩, e1, -, s1, f1⟩ := first_pass (a := (δ0, m0)) (bs := [(δ1, m1), (δ2, m2)])
    (new_stepOk (some D) sv0.1 sv0.2)
    (s := (NdArray.zeros [m0 + 2, 4], C)) rfl (by simpa [csh] using hC) (by simpa [dsh] using hD)
  obtain ⟨⟨b', C2⟩, e2, -, s2, f2⟩ := next_pass (a := (δ1, m1)) (as := [(δ0, m0)])
    (bs := [(δ2, m2)])
    (new_stepOk none sv1.1 sv1.2) (s := (NdArray.zeros [m1 + 2, 4], C1)) rfl s1 f1
  obtain ⟨⟨b'', C3⟩, e3, -, s3, f3⟩ := next_pass (a := (δ2, m2)) (as := [(δ0, m0), (δ1, m1)])
    (bs := []) (new_stepOk none sv2.1 sv2.2) (s := (NdArray.zeros [m2 + 2, 4], C2)) rfl s2 f2
  refine ⟨C3, ?_, filtered_of s3 f3⟩
  simp only [linesOf, allIdx, csh, dsh, List.map_cons, List.map_nil, pyFor_flatMap', pyFor_map',
    pyFor_singleton', List.flatMap_cons, List.flatMap_nil, List.append_nil, List.nil_append]
    at e1 e2 e3
  unfold filter3
  simp only [h0, h1, h2, ok_bind, hD, List.getD_cons_zero, List.getD_cons_succ]
  rw [e1, ok_bind, e2, ok_bind, e3]; rfl

theorem filter4_ok {g0 g1 g2 g3 : GridDim K} {D C : NdArray K} {δ0 δ1 δ2 δ3 : K}
    {m0 m1 m2 m3 : ℕ} (h0 : dinv g0 = .ok δ0) (h1 : dinv g1 = .ok δ1) (h2 : dinv g2 = .ok δ2)
    (h3 : dinv g3 = .ok δ3)
    (hs : Solvable [(δ0, m0), (δ1, m1), (δ2, m2), (δ3, m3)]) (hD : D.shape = [m0, m1, m2, m3])
    (hC : C.shape = [m0 + 2, m1 + 2, m2 + 2, m3 + 2]) :
    ∃ C', filter4 g0 g1 g2 g3 D C = .ok C' ∧
      Filtered [(δ0, m0), (δ1, m1), (δ2, m2), (δ3, m3)] D C' := by
  have sv0 := hs (δ0, m0) (by simp)
  have sv1 := hs (δ1, m1) (by simp)
  have sv2 := hs (δ2, m2) (by simp)
  have sv3 := hs (δ3, m3) (by simp)
  obtain ⟨⟨b, C1⟩, e1, -, s1, f1⟩ := first_pass (a := (δ0, m0))
    (bs := [(δ1, m1), (δ2, m2), (δ3, m3)]) (new_stepOk (some D) sv0.1 sv0.2)
    (s := (NdArray.zeros [m0 + 2, 4], C)) rfl (by simpa [csh] using hC) (by simpa [dsh] using hD)
  obtain ⟨⟨b', C2⟩, e2, -, s2, f2⟩ := next_pass (a := (δ1, m1)) (as := [(δ0, m0)])
    (bs := [(δ2, m2), (δ3, m3)])
    (new_stepOk none sv1.1 sv1.2) (s := (NdArray.zeros [m1 + 2, 4], C1)) rfl s1 f1
  obtain ⟨⟨b'', C3⟩, e3, -, s3, f3⟩ := next_pass (a := (δ2, m2)) (as := [(δ0, m0), (δ1, m1)])
    (bs := [(δ3, m3)])
    (new_stepOk none sv2.1 sv2.2) (s := (NdArray.zeros [m2 + 2, 4], C2)) rfl s2 f2
  obtain ⟨⟨b''', C4⟩, e4, -, s4, f4⟩ := next_pass (a := (δ3, m3))
    (as := [(δ0, m0), (δ1, m1), (δ2, m2)]) (bs := [])
    (new_stepOk none sv3.1 sv3.2) (s := (NdArray.zeros [m3 + 2, 4], C3)) rfl s3 f3
  refine ⟨C4, ?_, filtered_of s4 f4⟩
  simp only [linesOf, allIdx, csh, dsh, List.map_cons, List.map_nil, pyFor_flatMap', pyFor_map',
    pyFor_singleton', List.flatMap_cons, List.flatMap_nil, List.append_nil, List.nil_append]
    at e1 e2 e3 e4
  unfold filter4
  simp only [h0, h1, h2, h3, ok_bind, hD, List.getD_cons_zero, List.getD_cons_succ]
  rw [e1, ok_bind, e2, ok_bind, e3, ok_bind, e4]; rfl

/-! ### The older filters -/

theorem old1_ok {D : NdArray K} {δ0 : K} {m0 : ℕ} (hs : Solvable [(δ0, m0)]) (hD : D.shape = [m0]) :
    ∃ C', filterCoeffs1d δ0 D = .ok C' ∧ Filtered [(δ0, m0)] D C' := by
  obtain ⟨C1, e1, -, s1, f1⟩ := first_pass (a := (δ0, m0)) (bs := [])
    (old_stepOk (some D) (hs _ (by simp)).1 (hs _ (by simp)).2)
    (s := NdArray.zeros [m0 + 2]) trivial rfl (by simpa [dsh] using hD)
  refine ⟨C1, ?_, filtered_of s1 f1⟩
  have : linesOf [] (dsh ([] : List (K × ℕ))) = [⟨[], []⟩] := rfl
  rw [this, pyFor_singleton] at e1
  unfold filterCoeffs1d
  simp only [hD, List.getD_cons_zero]
  exact e1

theorem old2_ok {D : NdArray K} {δ0 δ1 : K} {m0 m1 : ℕ}
    (hs : Solvable [(δ0, m0), (δ1, m1)]) (hD : D.shape = [m0, m1]) :
    ∃ C', filterCoeffs2d δ0 δ1 D = .ok C' ∧ Filtered [(δ0, m0), (δ1, m1)] D C' := by
  have sv0 := hs (δ0, m0) (by simp)
  have sv1 := hs (δ1, m1) (by simp)
  obtain ⟨C1, e1, -, s1, f1⟩ := first_pass (a := (δ0, m0)) (bs := [(δ1, m1)])
    (old_stepOk (some D) sv0.1 sv0.2)
    (s := NdArray.zeros [m0 + 2, m1 + 2]) trivial rfl (by simpa [dsh] using hD)
  obtain ⟨C2, e2, -, s2, f2⟩ := next_pass (a := (δ1, m1)) (as := [(δ0, m0)]) (bs := [])
    (old_stepOk none sv1.1 sv1.2) (s := C1) trivial s1 f1
  refine ⟨C2, ?_, filtered_of s2 f2⟩
  simp only [linesOf, allIdx, csh, dsh, List.map_cons, List.map_nil, pyFor_flatMap', pyFor_map',
    pyFor_singleton', List.flatMap_cons, List.flatMap_nil, List.append_nil, List.nil_append] at e1 e2
  unfold filterCoeffs2d
  simp only [hD, List.getD_cons_zero, List.getD_cons_succ]
  rw [e1, ok_bind, e2]

theorem old3_ok {D : NdArray K} {δ0 δ1 δ2 : K} {m0 m1 m2 : ℕ}
    (hs : Solvable [(δ0, m0), (δ1, m1), (δ2, m2)]) (hD : D.shape = [m0, m1, m2]) :
    ∃ C', filterCoeffs3d δ0 δ1 δ2 D = .ok C' ∧
      Filtered [(δ0, m0), (δ1, m1), (δ2, m2)] D C' := by
  have sv0 := hs (δ0, m0) (by simp)
  have sv1 := hs (δ1, m1) (by simp)
  have sv2 := hs (δ2, m2) (by simp)
  obtain ⟨C1, e1, -, s1, f1⟩ := first_pass (a := (δ0, m0)) (bs := [(δ1, m1), (δ2, m2)])
    (old_stepOk (some D) sv0.1 sv0.2)
    (s := NdArray.zeros [m0 + 2, m1 + 2, m2 + 2]) trivial rfl (by simpa [dsh] using hD)
  obtain ⟨C2, e2, -, s2, f2⟩ := next_pass (a := (δ1, m1)) (as := [(δ0, m0)])
    (bs := [(δ2, m2)]) (old_stepOk none sv1.1 sv1.2) (s := C1) trivial s1 f1
  obtain ⟨C3, e3, -, s3, f3⟩ := next_pass (a := (δ2, m2)) (as := [(δ0, m0), (δ1, m1)])
    (bs := []) (old_stepOk none sv2.1 sv2.2) (s := C2) trivial s2 f2
  refine ⟨C3, ?_, filtered_of s3 f3⟩
  simp only [linesOf, allIdx, csh, dsh, List.map_cons, List.map_nil, pyFor_flatMap', pyFor_map',
    pyFor_singleton', List.flatMap_cons, List.flatMap_nil, List.append_nil, List.nil_append]
    at e1 e2 e3
  unfold filterCoeffs3d
  simp only [hD, List.getD_cons_zero, List.getD_cons_succ]
  rw [e1, ok_bind, e2, ok_bind, e3]

theorem old4_ok {D : NdArray K} {δ0 δ1 δ2 δ3 : K} {m0 m1 m2 m3 : ℕ}
    (hs : Solvable [(δ0, m0), (δ1, m1), (δ2, m2), (δ3, m3)]) (hD : D.shape = [m0, m1, m2, m3]) :
    ∃ C', filterCoeffs4d δ0 δ1 δ2 δ3 D = .ok C' ∧
      Filtered [(δ0, m0), (δ1, m1), (δ2, m2), (δ3, m3)] D C' := by
  have sv0 := hs (δ0, m0) (by simp)
  have sv1 := hs (δ1, m1) (by simp)
  have sv2 := hs (δ2, m2) (by simp)
  have sv3 := hs (δ3, m3) (by simp)
  obtain ⟨C1, e1, -, s1, f1⟩ := first_pass (a := (δ0, m0))
    (bs := [(δ1, m1), (δ2, m2), (δ3, m3)]) (old_stepOk (some D) sv0.1 sv0.2)
    (s := NdArray.zeros [m0 + 2, m1 + 2, m2 + 2, m3 + 2]) trivial rfl (by simpa [dsh] using hD)
  obtain ⟨C2, e2, -, s2, f2⟩ := next_pass (a := (δ1, m1)) (as := [(δ0, m0)])
    (bs := [(δ2, m2), (δ3, m3)]) (old_stepOk none sv1.1 sv1.2) (s := C1) trivial s1 f1
  obtain ⟨C3, e3, -, s3, f3⟩ := next_pass (a := (δ2, m2)) (as := [(δ0, m0), (δ1, m1)])
    (bs := [(δ3, m3)]) (old_stepOk none sv2.1 sv2.2) (s := C2) trivial s2 f2
  obtain ⟨C4, e4, -, s4, f4⟩ := next_pass (a := (δ3, m3))
    (as := [(δ0, m0), (δ1, m1), (δ2, m2)]) (bs := [])
    (old_stepOk none sv3.1 sv3.2) (s := C3) trivial s3 f3
  refine ⟨C4, ?_, filtered_of s4 f4⟩
  simp only [linesOf, allIdx, csh, dsh, List.map_cons, List.map_nil, pyFor_flatMap', pyFor_map',
    pyFor_singleton', List.flatMap_cons, List.flatMap_nil, List.append_nil, List.nil_append]
    at e1 e2 e3 e4
  unfold filterCoeffs4d
  simp only [hD, List.getD_cons_zero, List.getD_cons_succ]
  rw [e1, ok_bind, e2, ok_bind, e3, ok_bind, e4]

end Interp.Filter
