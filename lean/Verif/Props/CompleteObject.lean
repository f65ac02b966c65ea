import Verif.Props.CompleteFit
import Mathlib.Algebra.MvPolynomial.PDeriv
import Mathlib.Algebra.MvPolynomial.Funext

/-!
# The class `CompletePolynomial` as a family of polynomials: C95
-/

set_option linter.unusedSectionVars false

namespace Interp.Props
open Interp.Spec Interp.CompletePoly

section
variable {F : Type} [Field F] [LinearOrder F] [IsStrictOrderedRing F]

/-- Coordinate `i`. -/
noncomputable def coord (F : Type) [Field F] (n i : ℕ) : MvPolynomial (Fin n) F :=
  if h : i < n then MvPolynomial.X ⟨i, h⟩ else 0

theorem eval_coord {n : ℕ} (x : ℕ → F) {i : ℕ} (h : i < n) :
    MvPolynomial.eval (fun j : Fin n => x j) (coord F n i) = x i := by
  simp [coord, h]

theorem eval_coords {n : ℕ} (x : ℕ → F) (l : List ℕ) (h : ∀ i ∈ l, i < n) :
    MvPolynomial.eval (fun j : Fin n => x j) (l.map (coord F n)).prod = (l.map x).prod := by
  rw [map_list_prod, List.map_map]
  congr 1
  exact List.map_congr_left fun i hi => eval_coord x (h i hi)

theorem degree_coords (n : ℕ) (l : List ℕ) : (l.map (coord F n)).prod.totalDegree ≤ l.length := by
  induction l with
  | nil => simp
  | cons i l ih =>
    rw [List.map_cons, List.prod_cons, List.length_cons, add_comm]
    refine (MvPolynomial.totalDegree_mul _ _).trans (add_le_add ?_ ih)
    unfold coord
    split
    · simp
    · simp

theorem pderiv_coords {n : ℕ} (k : Fin n) (l : List ℕ) (h : ∀ i ∈ l, i ≠ k) :
    MvPolynomial.pderiv k (l.map (coord F n)).prod = 0 := by
  induction l with
  | nil => simp
  | cons i l ih =>
    rw [List.map_cons, List.prod_cons, Derivation.leibniz, ih fun i hi => h i (by simp [hi])]
    have : MvPolynomial.pderiv k (coord F n i) = 0 := by
      unfold coord
      split
      · rw [MvPolynomial.pderiv_X_of_ne]
        intro e
        exact h i (by simp) (congrArg Fin.val e)
      · simp
    simp [this]

theorem pderiv_mono {n : ℕ} (k : Fin n) (l : List ℕ) :
    MvPolynomial.pderiv k (mono (coord F n) l) = dmono (coord F n) k l := by
  have hk : coord F n k = MvPolynomial.X k := by simp [coord]
  rw [mono_split _ (k : ℕ), dmono_eq, Derivation.leibniz, pderiv_coords k, hk, Derivation.leibniz_pow,
    MvPolynomial.pderiv_X_self]
  · simp only [smul_eq_mul, mul_zero, add_zero, nsmul_eq_mul, mul_one]
    ring
  · intro i hi
    simpa using (List.mem_filter.1 hi).2

theorem eval_mono {n : ℕ} (x : ℕ → F) (l : List ℕ) (h : ∀ i ∈ l, i < n) :
    MvPolynomial.eval (fun j : Fin n => x j) (mono (coord F n) l) = mono x l := by
  rw [mono_prod, mono_prod, eval_coords x l h]

theorem eval_dmono {n : ℕ} (x : ℕ → F) (k : Fin n) (l : List ℕ) (h : ∀ i ∈ l, i < n) :
    MvPolynomial.eval (fun j : Fin n => x j) (dmono (coord F n) k l) = dmono x k l := by
  rw [dmono_eq, dmono_eq, map_mul, map_mul, map_pow, eval_coord x k.2,
    eval_coords x _ fun i hi => h i (List.mem_filter.1 hi).1, map_natCast]

/-- The polynomial with the given coefficients. -/
noncomputable def polyOf (n d : ℕ) (c : ℕ → F) : MvPolynomial (Fin n) F :=
  ∑ r ∈ Finset.range (rows n d).length, mono (coord F n) ((rows n d).getD r []) * MvPolynomial.C (c r)

theorem row_lt {n d r : ℕ} : ∀ i ∈ (rows n d).getD r [], i < n := by
  intro i hi
  rcases lt_or_ge r (rows n d).length with h | h
  · rw [List.getD_eq_getElem _ _ h] at hi
    exact ((mem_rows n d _).1 (List.getElem_mem h)).2.2 i hi
  · rw [List.getD_eq_default _ _ h] at hi
    simp at hi

theorem row_length {n d r : ℕ} : ((rows n d).getD r []).length ≤ d := by
  rcases lt_or_ge r (rows n d).length with h | h
  · rw [List.getD_eq_getElem _ _ h]
    exact ((mem_rows n d _).1 (List.getElem_mem h)).1
  · rw [List.getD_eq_default _ _ h]
    simp

theorem polyOf_degree (n d : ℕ) (c : ℕ → F) : (polyOf n d c).totalDegree ≤ d := by
  refine MvPolynomial.totalDegree_finsetSum_le fun r _ => ?_
  refine (MvPolynomial.totalDegree_mul _ _).trans ?_
  rw [MvPolynomial.totalDegree_C, add_zero, mono_prod]
  exact (degree_coords n _).trans row_length

theorem polyOf_eval (n d : ℕ) (c : ℕ → F) (x : ℕ → F) :
    MvPolynomial.eval (fun j : Fin n => x j) (polyOf n d c) = ∑ r ∈ Finset.range (rows n d).length, phi n d x r * c r := by
  rw [polyOf, map_sum]
  refine Finset.sum_congr rfl fun r _ => ?_
  rw [map_mul, eval_mono x _ row_lt, MvPolynomial.eval_C]; rfl

theorem polyOf_pderiv (n d : ℕ) (c : ℕ → F) (x : ℕ → F) (k : Fin n) :
    MvPolynomial.eval (fun j : Fin n => x j) (MvPolynomial.pderiv k (polyOf n d c)) =
      ∑ r ∈ Finset.range (rows n d).length, dphi n d x k r * c r := by
  rw [polyOf, map_sum, map_sum]
  refine Finset.sum_congr rfl fun r _ => ?_
  rw [Derivation.leibniz, MvPolynomial.pderiv_C, smul_zero, zero_add, pderiv_mono, smul_eq_mul, map_mul, eval_dmono x k _ row_lt,
    MvPolynomial.eval_C, mul_comm]; rfl

theorem dot_vec_ok (A c : NdArray F) (p : ℕ) (t : List ℕ) (hA : A.shape = [p]) (hc : c.shape = p :: t) :
    ∃ Y, dot A c = .ok Y ∧ Y.shape = t ∧ ∀ tail, Y.get tail = ∑ j ∈ Finset.range p, A.get [j] * c.get (j :: tail) := by
  refine ⟨_, by rw [dot, hA, hc]; simp only [if_true]; rfl, rfl, fun tail => ?_⟩
  exact foldl_range_sum p _

theorem transpose_vec {s : NdArray F} {n : ℕ} (hs : s.shape = [n]) : (transpose s).shape = [n] := by
  simp [transpose, hs]

theorem call_vec (o : Obj F) (c s : NdArray F) (n d : ℕ) (t : List ℕ) (hd : d ≤ 5) (ho : o.d = d)
    (hc : o.coefs = some c) (hcs : c.shape = (rows n d).length :: t) (hs : s.shape = [n]) :
    ∃ Y, o.call s = .ok Y ∧ Y.shape = t ∧ ∀ tail,
      Y.get tail = ∑ r ∈ Finset.range (rows n d).length, phi n d (fun j => s.get [j]) r * c.get (r :: tail) := by
  obtain ⟨A, h1, h2⟩ := cp_vec (transpose s) n d (transpose_vec hs) hd
  obtain ⟨Y, h4, h5, h6⟩ := dot_vec_ok (transpose A) c _ t (transpose_vec h2.1) hcs
  refine ⟨Y, ?_, h5, fun tail => ?_⟩
  · rw [← h4, Obj.call, ho, h1, hc]; rfl
  · rw [h6]
    refine Finset.sum_congr rfl fun r hr => ?_
    have hr := Finset.mem_range.1 hr
    congr 1
    refine (h2.2 r _ (List.getElem?_eq_getElem hr) [] trivial).trans ?_
    rw [phi, List.getD_eq_getElem _ _ hr]; rfl

theorem der_vec (o : Obj F) (c s : NdArray F) (n d k : ℕ) (t : List ℕ) (hd : d ≤ 5) (ho : o.d = d)
    (hc : o.coefs = some c) (hcs : c.shape = (rows n d).length :: t) (hs : s.shape = [n]) (hk : k < n) :
    ∃ Y, o.der s k = .ok Y ∧ Y.shape = t ∧ ∀ tail,
      Y.get tail = ∑ r ∈ Finset.range (rows n d).length, dphi n d (fun j => s.get [j]) k r * c.get (r :: tail) := by
  obtain ⟨A, h1, h2⟩ := cpd_vec (transpose s) n d k (transpose_vec hs) hd hk
  obtain ⟨Y, h4, h5, h6⟩ := dot_vec_ok (transpose A) c _ t (transpose_vec h2.1) hcs
  refine ⟨Y, ?_, h5, fun tail => ?_⟩
  · rw [← h4, Obj.der, ho, h1, hc]; rfl
  · rw [h6]
    refine Finset.sum_congr rfl fun r hr => ?_
    have hr := Finset.mem_range.1 hr
    congr 1
    refine (h2.2 r _ (List.getElem?_eq_getElem hr) [] trivial).trans ?_
    rw [dphi, List.getD_eq_getElem _ _ hr]; rfl

/-- The object gives at every list of points and at every single point the values of the polynomials `P`, and as derivatives
those of the formal partial derivatives. -/
structure Represents {n : ℕ} (o : Obj F) (t : List ℕ) (P : List ℕ → MvPolynomial (Fin n) F) : Prop where
  call_rows : ∀ (s : NdArray F) (N : ℕ), s.shape = [N, n] → ∃ Y, o.call s = .ok Y ∧ Y.shape = N :: t ∧
    ∀ i < N, ∀ tail, InShape t tail → Y.get (i :: tail) = MvPolynomial.eval (fun j : Fin n => s.get [i, j]) (P tail)
  call_point : ∀ s : NdArray F, s.shape = [n] → ∃ Y, o.call s = .ok Y ∧ Y.shape = t ∧
    ∀ tail, InShape t tail → Y.get tail = MvPolynomial.eval (fun j : Fin n => s.get [j]) (P tail)
  der_rows : ∀ (s : NdArray F) (N : ℕ) (k : Fin n), s.shape = [N, n] → ∃ Y, o.der s (k : ℕ) = .ok Y ∧ Y.shape = N :: t ∧
    ∀ i < N, ∀ tail, InShape t tail →
      Y.get (i :: tail) = MvPolynomial.eval (fun j : Fin n => s.get [i, j]) (MvPolynomial.pderiv k (P tail))
  der_point : ∀ (s : NdArray F) (k : Fin n), s.shape = [n] → ∃ Y, o.der s (k : ℕ) = .ok Y ∧ Y.shape = t ∧
    ∀ tail, InShape t tail → Y.get tail = MvPolynomial.eval (fun j : Fin n => s.get [j]) (MvPolynomial.pderiv k (P tail))

/-- C95. An object with coefficients of the right size stands for one polynomial of degree at most `d` per column. -/
theorem C95_object (o : Obj F) (c : NdArray F) (n d : ℕ) (t : List ℕ) (hd : d ≤ 5) (ho : o.d = d)
    (hc : o.coefs = some c) (hcs : c.shape = (n + d).choose d :: t) :
    ∃ P : List ℕ → MvPolynomial (Fin n) F, (∀ tail, (P tail).totalDegree ≤ d) ∧ Represents o t P := by
  rw [← length_rows] at hcs
  refine ⟨fun tail => polyOf n d fun r => c.get (r :: tail), fun _ => polyOf_degree _ _ _, ?_, ?_, ?_, ?_⟩
  · intro s N hs
    obtain ⟨Y, h1, h2, h3⟩ := call_ok o c s N n d t hd ho hc hcs hs
    exact ⟨Y, h1, h2, fun i hi tail _ => (h3 i hi tail).trans (polyOf_eval n d _ fun j => s.get [i, j]).symm⟩
  · intro s hs
    obtain ⟨Y, h1, h2, h3⟩ := call_vec o c s n d t hd ho hc hcs hs
    exact ⟨Y, h1, h2, fun tail _ => (h3 tail).trans (polyOf_eval n d _ fun j => s.get [j]).symm⟩
  · intro s N k hs
    obtain ⟨Y, h1, h2, h3⟩ := der_ok o c s N n d k t hd ho hc hcs hs k.2
    exact ⟨Y, h1, h2, fun i hi tail _ => (h3 i hi tail).trans (polyOf_pderiv n d _ (fun j => s.get [i, j]) k).symm⟩
  · intro s k hs
    obtain ⟨Y, h1, h2, h3⟩ := der_vec o c s n d k t hd ho hc hcs hs k.2
    exact ⟨Y, h1, h2, fun tail _ => (h3 tail).trans (polyOf_pderiv n d _ (fun j => s.get [j]) k).symm⟩

/-- C95. Every family of polynomials of degree at most `d` is represented by some coefficients. -/
theorem C95_every_polynomial (m : ℤ) (n d : ℕ) (t : List ℕ) (hd : d ≤ 5) (f : List ℕ → MvPolynomial (Fin n) F)
    (hf : ∀ tail, (f tail).totalDegree ≤ d) :
    ∃ c : NdArray F, c.shape = (n + d).choose d :: t ∧ Represents ⟨m, d, some c⟩ t f := by
  choose c hc using fun tail => spanned_poly (f tail) (hf tail)
  let C : NdArray F := ⟨(n + d).choose d :: t, fun idx => c idx.tail (idx.headD 0)⟩
  have hC : C.shape = (rows n d).length :: t := by rw [length_rows]
  have hP : ∀ tail, polyOf n d (fun r => C.get (r :: tail)) = f tail := by
    intro tail
    refine MvPolynomial.funext fun x => ?_
    have : x = fun j : Fin n => (fun i => if h : i < n then x ⟨i, h⟩ else 0 : ℕ → F) j := by
      funext j; simp
    rw [this]
    exact (polyOf_eval n d _ (fun i => if h : i < n then x ⟨i, h⟩ else 0)).trans (hc tail _)
  refine ⟨C, rfl, ?_, ?_, ?_, ?_⟩
  · intro s N hs
    obtain ⟨Y, h1, h2, h3⟩ := call_ok ⟨m, d, some C⟩ C s N n d t hd rfl rfl hC hs
    exact ⟨Y, h1, h2, fun i hi tail _ => by
      rw [← hP, h3 i hi]; exact (polyOf_eval n d _ fun j => s.get [i, j]).symm⟩
  · intro s hs
    obtain ⟨Y, h1, h2, h3⟩ := call_vec ⟨m, d, some C⟩ C s n d t hd rfl rfl hC hs
    exact ⟨Y, h1, h2, fun tail _ => by
      rw [← hP, h3]; exact (polyOf_eval n d _ fun j => s.get [j]).symm⟩
  · intro s N k hs
    obtain ⟨Y, h1, h2, h3⟩ := der_ok ⟨m, d, some C⟩ C s N n d k t hd rfl rfl hC hs k.2
    exact ⟨Y, h1, h2, fun i hi tail _ => by
      rw [← hP, h3 i hi]; exact (polyOf_pderiv n d _ (fun j => s.get [i, j]) k).symm⟩
  · intro s k hs
    obtain ⟨Y, h1, h2, h3⟩ := der_vec ⟨m, d, some C⟩ C s n d k t hd rfl rfl hC hs k.2
    exact ⟨Y, h1, h2, fun tail _ => by
      rw [← hP, h3]; exact (polyOf_pderiv n d _ (fun j => s.get [j]) k).symm⟩

/-- C95. Used before a fit, the object raises `AttributeError`; if the number of variables does not fit the coefficients,
`ValueError`. -/
theorem C95_unusable (o : Obj F) (s : NdArray F) (n d : ℕ) (hd : d ≤ 5) (ho : o.d = d)
    (hs : s.shape = [n] ∨ ∃ N, s.shape = [N, n]) (k : Fin n) :
    (o.coefs = none → o.call s = .error .attribute ∧ o.der s (k : ℕ) = .error .attribute) ∧
    (∀ c, o.coefs = some c → c.shape.head? ≠ some ((n + d).choose d) →
      o.call s = .error .value ∧ o.der s (k : ℕ) = .error .value) := by
  have key : ∃ A, completePolynomial (transpose s) d = .ok A ∧ ((transpose A).shape = [(rows n d).length] ∨
      ∃ N, (transpose A).shape = [N, (rows n d).length]) := by
    rcases hs with hs | ⟨N, hs⟩
    · obtain ⟨A, h1, h2⟩ := cp_vec (transpose s) n d (transpose_vec hs) hd
      exact ⟨A, h1, Or.inl (transpose_vec h2.1)⟩
    · obtain ⟨A, h1, h2, _⟩ := basis_ok s N n d hs hd
      exact ⟨A, h1, Or.inr ⟨N, h2⟩⟩
  have keyD : ∃ A, completePolynomialDer (transpose s) d (k : ℕ) = .ok A ∧ ((transpose A).shape = [(rows n d).length] ∨
      ∃ N, (transpose A).shape = [N, (rows n d).length]) := by
    rcases hs with hs | ⟨N, hs⟩
    · obtain ⟨A, h1, h2⟩ := cpd_vec (transpose s) n d k (transpose_vec hs) hd k.2
      exact ⟨A, h1, Or.inl (transpose_vec h2.1)⟩
    · obtain ⟨A, h1, h2, _⟩ := dbasis_ok s N n d k hs hd k.2
      exact ⟨A, h1, Or.inr ⟨N, h2⟩⟩
  have bad : ∀ A c : NdArray F, c.shape.head? ≠ some (rows n d).length →
      (A.shape = [(rows n d).length] ∨ ∃ N, A.shape = [N, (rows n d).length]) → dot A c = .error .value := by
    intro A c hc hA
    unfold dot
    cases hcs : c.shape with
    | nil => rcases hA with hA | ⟨N, hA⟩ <;> rw [hA] <;> rfl
    | cons q t =>
      rw [hcs] at hc
      have hq : ¬ (rows n d).length = q := fun e => hc (by simp [e])
      rcases hA with hA | ⟨N, hA⟩ <;> rw [hA] <;> simp only [if_neg hq] <;> rfl
  obtain ⟨A, h1, h2⟩ := key
  obtain ⟨B, h3, h4⟩ := keyD
  rw [← length_rows]
  refine ⟨fun hn => ⟨?_, ?_⟩, fun c hc hcs => ⟨?_, ?_⟩⟩
  · rw [Obj.call, ho, h1, hn]; rfl
  · rw [Obj.der, ho, h3, hn]; rfl
  · rw [Obj.call, ho, h1, hc]; exact bad _ _ hcs h2
  · rw [Obj.der, ho, h3, hc]; exact bad _ _ hcs h4

end

/-- C95: two variables, degree two, one column. -/
example : ∃ P : List ℕ → MvPolynomial (Fin 2) ℚ, (∀ tail, (P tail).totalDegree ≤ 2) ∧
    Represents ⟨2, 2, some ⟨[6], fun idx => (idx.headD 0 : ℚ)⟩⟩ [] P :=
  C95_object _ ⟨[6], fun idx => (idx.headD 0 : ℚ)⟩ 2 2 [] (by norm_num) rfl rfl rfl

/-- C95: the polynomial `x y` is represented, so called at the point (2, 3) some object gives 6, and differentiated 3. -/
example : ∃ o : Obj ℚ, ∃ Y D, o.call ⟨[2], fun idx => (idx.headD 0 : ℚ) + 2⟩ = .ok Y ∧ Y.get [] = 6 ∧
    o.der ⟨[2], fun idx => (idx.headD 0 : ℚ) + 2⟩ 0 = .ok D ∧ D.get [] = 3 := by
  obtain ⟨c, -, h⟩ := C95_every_polynomial (F := ℚ) 2 2 2 [] (by norm_num)
    (fun _ => MvPolynomial.X 0 * MvPolynomial.X 1) fun _ => (MvPolynomial.totalDegree_mul _ _).trans (by simp)
  obtain ⟨Y, h1, -, h2⟩ := h.call_point ⟨[2], fun idx => (idx.headD 0 : ℚ) + 2⟩ rfl
  obtain ⟨D, h3, -, h4⟩ := h.der_point ⟨[2], fun idx => (idx.headD 0 : ℚ) + 2⟩ 0 rfl
  refine ⟨_, Y, D, h1, ?_, h3, ?_⟩
  · rw [h2 [] trivial]; norm_num
  · rw [h4 [] trivial]
    simp [MvPolynomial.pderiv_X]
    norm_num

end Interp.Props
