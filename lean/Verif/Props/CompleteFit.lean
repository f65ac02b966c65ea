import Verif.Props.CompletePoly
import Mathlib.Algebra.MvPolynomial.Degrees
import Mathlib.Algebra.BigOperators.Fin
import Mathlib.Algebra.Order.BigOperators.Ring.Finset
import Mathlib.Analysis.Calculus.Deriv.Add
import Mathlib.Analysis.InnerProductSpace.Projection.Minimal
import Mathlib.Analysis.InnerProductSpace.PiL2
import Mathlib.Data.Rat.Floor

/-!
# The class `CompletePolynomial`: C52

The least-squares solver of scipy is a parameter, about which only `LeastSquares` is assumed.
-/

set_option linter.unusedSectionVars false
set_option linter.unusedSimpArgs false

namespace Interp.Props
open Interp.Spec Interp.CompletePoly

section field
variable {F : Type} [Field F] [LinearOrder F] [IsStrictOrderedRing F]

/-- Basis function number `r`. -/
def phi (n d : ℕ) (x : ℕ → F) (r : ℕ) : F := mono x ((rows n d).getD r [])

def dphi (n d : ℕ) (x : ℕ → F) (i r : ℕ) : F := dmono x i ((rows n d).getD r [])

theorem foldl_range_sum (p : ℕ) (f : ℕ → F) :
    ((List.range p).map f).foldl (· + ·) 0 = ∑ j ∈ Finset.range p, f j := by
  rw [← List.sum_eq_foldl]
  induction p with
  | zero => simp
  | succ p ih => rw [List.range_succ, List.map_append, List.sum_append, ih, Finset.sum_range_succ]; simp

theorem transpose_shape {s : NdArray F} {N n : ℕ} (hs : s.shape = [N, n]) :
    (transpose s).shape = [n, N] := by simp [transpose, hs]

theorem transpose_get (s : NdArray F) (i j : ℕ) : (transpose s).get [i, j] = s.get [j, i] := rfl

theorem basis_ok (s : NdArray F) (N n d : ℕ) (hs : s.shape = [N, n]) (hd : d ≤ 5) :
    ∃ A, completePolynomial (transpose s) d = .ok A ∧ (transpose A).shape = [N, (rows n d).length] ∧
      ∀ i < N, ∀ r < (rows n d).length,
        (transpose A).get [i, r] = phi n d (fun j => s.get [i, j]) r := by
  obtain ⟨A, h1, h2⟩ := cp_mat (transpose s) n N d (transpose_shape hs) hd
  refine ⟨A, h1, transpose_shape h2.1, fun i hi r hr => ?_⟩
  rw [transpose_get, h2.2 r _ (List.getElem?_eq_getElem hr) [i] ⟨hi, trivial⟩, phi,
    List.getD_eq_getElem _ _ hr]
  rfl

theorem dbasis_ok (s : NdArray F) (N n d k : ℕ) (hs : s.shape = [N, n]) (hd : d ≤ 5) (hk : k < n) :
    ∃ A, completePolynomialDer (transpose s) d k = .ok A ∧
      (transpose A).shape = [N, (rows n d).length] ∧
      ∀ i < N, ∀ r < (rows n d).length,
        (transpose A).get [i, r] = dphi n d (fun j => s.get [i, j]) k r := by
  obtain ⟨A, h1, h2⟩ := cpd_mat (transpose s) n N d k (transpose_shape hs) hd hk
  refine ⟨A, h1, transpose_shape h2.1, fun i hi r hr => ?_⟩
  rw [transpose_get, h2.2 r _ (List.getElem?_eq_getElem hr) [i] ⟨hi, trivial⟩, dphi,
    List.getD_eq_getElem _ _ hr]
  rfl

theorem dot_ok (A c : NdArray F) (N p : ℕ) (t : List ℕ) (hA : A.shape = [N, p])
    (hc : c.shape = p :: t) :
    ∃ Y, dot A c = .ok Y ∧ Y.shape = N :: t ∧ ∀ i tail,
      Y.get (i :: tail) = ∑ j ∈ Finset.range p, A.get [i, j] * c.get (j :: tail) := by
  refine ⟨_, by rw [dot, hA, hc]; simp only [if_true]; rfl, rfl, fun i tail => ?_⟩
  exact foldl_range_sum p _

theorem call_ok (o : Obj F) (c s : NdArray F) (N n d : ℕ) (t : List ℕ) (hd : d ≤ 5) (ho : o.d = d)
    (hc : o.coefs = some c) (hcs : c.shape = (rows n d).length :: t) (hs : s.shape = [N, n]) :
    ∃ Y, o.call s = .ok Y ∧ Y.shape = N :: t ∧ ∀ i < N, ∀ tail,
      Y.get (i :: tail) = ∑ r ∈ Finset.range (rows n d).length,
        phi n d (fun j => s.get [i, j]) r * c.get (r :: tail) := by
  obtain ⟨A, h1, h2, h3⟩ := basis_ok s N n d hs hd
  obtain ⟨Y, h4, h5, h6⟩ := dot_ok (transpose A) c N _ t h2 hcs
  refine ⟨Y, ?_, h5, fun i hi tail => ?_⟩
  · rw [← h4, Obj.call, ho, h1, hc]; rfl
  · rw [h6]
    exact Finset.sum_congr rfl fun r hr => by rw [h3 i hi r (Finset.mem_range.mp hr)]

theorem der_ok (o : Obj F) (c s : NdArray F) (N n d k : ℕ) (t : List ℕ) (hd : d ≤ 5) (ho : o.d = d)
    (hc : o.coefs = some c) (hcs : c.shape = (rows n d).length :: t) (hs : s.shape = [N, n])
    (hk : k < n) :
    ∃ Y, o.der s k = .ok Y ∧ Y.shape = N :: t ∧ ∀ i < N, ∀ tail,
      Y.get (i :: tail) = ∑ r ∈ Finset.range (rows n d).length,
        dphi n d (fun j => s.get [i, j]) k r * c.get (r :: tail) := by
  obtain ⟨A, h1, h2, h3⟩ := dbasis_ok s N n d k hs hd hk
  obtain ⟨Y, h4, h5, h6⟩ := dot_ok (transpose A) c N _ t h2 hcs
  refine ⟨Y, ?_, h5, fun i hi tail => ?_⟩
  · rw [← h4, Obj.der, ho, h1, hc]; rfl
  · rw [h6]
    exact Finset.sum_congr rfl fun r hr => by rw [h3 i hi r (Finset.mem_range.mp hr)]

variable {lstsq : NdArray F → NdArray F → Py (NdArray F)}

/-- A fit with any damping factor, in terms of the least-squares coefficients. -/
theorem fit_ok (hls : LeastSquares lstsq) (s x : NdArray F) (N n d : ℕ) (t : List ℕ) (hd : d ≤ 5)
    (hN : 0 < N) (hs : s.shape = [N, n]) (hx : x.shape = N :: t) :
    ∃ c : NdArray F, c.shape = (rows n d).length :: t ∧
      (∀ tail, InShape t tail → ∀ c' : ℕ → F,
        ∑ i ∈ Finset.range N, ((∑ r ∈ Finset.range (rows n d).length,
          phi n d (fun j => s.get [i, j]) r * c.get (r :: tail)) - x.get (i :: tail)) ^ 2 ≤
        ∑ i ∈ Finset.range N, ((∑ r ∈ Finset.range (rows n d).length,
          phi n d (fun j => s.get [i, j]) r * c' r) - x.get (i :: tail)) ^ 2) ∧
      ∀ o : Obj F, o.d = d →
        fitValues lstsq o s x 0 = .ok { o with coefs := some c } ∧
        ∀ damp, damp ≠ 0 →
          (o.coefs = none → fitValues lstsq o s x damp = .error .attribute) ∧
          ∀ old, o.coefs = some old → old.shape = (rows n d).length :: t →
            fitValues lstsq o s x damp = .ok ⟨o.n, o.d, some
              ⟨(rows n d).length :: t, fun idx => (1 - damp) * c.get idx + damp * old.get idx⟩⟩ := by
  obtain ⟨A, h1, h2, h3⟩ := basis_ok s N n d hs hd
  obtain ⟨c, h4, h5, h6⟩ := hls (transpose A) x N _ t hN (rows_pos n d) h2 hx
  refine ⟨c, h5, fun tail ht c' => ?_, fun o ho => ⟨?_, fun damp hdp => ⟨fun hc => ?_, fun old hc hold => ?_⟩⟩⟩
  · have e : ∀ q : ℕ → F, Spec.residual N (rows n d).length (transpose A) (fun i => x.get (i :: tail)) q
        = ∑ i ∈ Finset.range N, ((∑ r ∈ Finset.range (rows n d).length,
          phi n d (fun j => s.get [i, j]) r * q r) - x.get (i :: tail)) ^ 2 := by
      intro q
      refine Finset.sum_congr rfl fun i hi => ?_
      congr 2
      exact Finset.sum_congr rfl fun r hr => by
        rw [h3 i (Finset.mem_range.mp hi) r (Finset.mem_range.mp hr)]
    have := h6 tail ht c'
    rwa [e, e] at this
  · simp only [fitValues, ho, h1, ok_bind, beq_self_eq_true, if_true, h4]; rfl
  · have : (damp == 0) = false := by simpa using hdp
    simp only [fitValues, ho, h1, ok_bind, this, h4, hc]; rfl
  · have : (damp == 0) = false := by simpa using hdp
    simp only [fitValues, ho, h1, ok_bind, this, h4, hc, blend, h5, hold, if_true]; rfl

/-! ### Exactness on polynomials -/

/-- Functions of a point that are linear combinations of the basis functions. -/
def Spanned (n d : ℕ) (g : (ℕ → F) → F) : Prop :=
  ∃ c : ℕ → F, ∀ x, ∑ r ∈ Finset.range (rows n d).length, phi n d x r * c r = g x

theorem Spanned.add {n d : ℕ} {g h : (ℕ → F) → F} (hg : Spanned n d g) (hh : Spanned n d h) :
    Spanned n d (fun x => g x + h x) := by
  obtain ⟨c, hc⟩ := hg
  obtain ⟨c', hc'⟩ := hh
  refine ⟨fun r => c r + c' r, fun x => ?_⟩
  beta_reduce
  rw [← hc, ← hc', ← Finset.sum_add_distrib]
  exact Finset.sum_congr rfl fun r _ => mul_add _ _ _

theorem Spanned.monomial {n d : ℕ} (m : Fin n →₀ ℕ) (hm : (m.sum fun _ k => k) ≤ d) (a : F) :
    Spanned n d (fun x => MvPolynomial.eval (fun j : Fin n => x j) (MvPolynomial.monomial m a)) := by
  have he : List.ofFn m ∈ expos n d := by
    rw [mem_expos]
    refine ⟨by simp, ?_⟩
    rw [List.sum_ofFn]
    rwa [Finsupp.sum_fintype _ _ fun _ => rfl] at hm
  rw [expos, List.mem_map] at he
  obtain ⟨l, hl, he⟩ := he
  obtain ⟨r, hr, rfl⟩ := List.getElem_of_mem hl
  refine ⟨fun q => if q = r then a else 0, fun x => ?_⟩
  rw [Finset.sum_eq_single r]
  · beta_reduce
    rw [if_pos rfl, phi, List.getD_eq_getElem _ _ hr,
      mono_expo n x _ ((mem_rows n d _).mp hl).2.2, he, MvPolynomial.eval_monomial, mul_comm]
    congr 1
    rw [Finsupp.prod_fintype _ _ fun _ => pow_zero _, monomialAt,
      show (List.range n).map x = List.ofFn fun j : Fin n => x j by
        refine List.ext_getElem (by simp) fun i h1 h2 => by simp]
    rw [show List.zipWith (fun k t => t ^ k) (List.ofFn m) (List.ofFn fun j : Fin n => x j)
      = List.ofFn fun j : Fin n => x j ^ m j by
        refine List.ext_getElem (by simp) fun i h1 h2 => by simp, List.prod_ofFn]
  · intro q _ hq
    beta_reduce
    rw [if_neg hq, mul_zero]
  · intro h
    exact absurd (Finset.mem_range.mpr hr) h

theorem spanned_poly {n d : ℕ} (f : MvPolynomial (Fin n) F) (hf : f.totalDegree ≤ d) :
    Spanned n d (fun x => MvPolynomial.eval (fun j : Fin n => x j) f) := by
  have key : ∀ S : Finset (Fin n →₀ ℕ), (∀ m ∈ S, (m.sum fun _ k => k) ≤ d) →
      Spanned n d (fun x => MvPolynomial.eval (fun j : Fin n => x j)
        (∑ m ∈ S, MvPolynomial.monomial m (f.coeff m))) := by
    classical
    intro S
    induction S using Finset.induction_on with
    | empty => intro _; exact ⟨fun _ => 0, fun x => by simp⟩
    | insert m S hm ih =>
      intro h
      have := (Spanned.monomial m (h m (by simp)) (f.coeff m)).add
        (ih fun m' hm' => h m' (by simp [hm']))
      simpa [Finset.sum_insert hm] using this
  have := key f.support fun m hm => (MvPolynomial.le_totalDegree hm).trans hf
  rwa [MvPolynomial.support_sum_monomial_coeff] at this

/-- C52, exactness: for every number of variables `n`, degree `d ≤ 5`, sample `s` (a nonempty list of
points), and values `x` (a vector, or several columns indexed by `tail`) that are the values of
polynomials of degree at most `d`, whatever the object contained before, the undamped fit succeeds
and calling the object at the sample returns the values. -/
theorem C52_fits_exactly (hls : LeastSquares lstsq) (o : Obj F) (s x : NdArray F) (N n d : ℕ)
    (t : List ℕ) (hd : d ≤ 5) (ho : o.d = d) (hN : 0 < N) (hs : s.shape = [N, n])
    (hx : x.shape = N :: t) (f : List ℕ → MvPolynomial (Fin n) F)
    (hf : ∀ tail, InShape t tail → (f tail).totalDegree ≤ d)
    (hfx : ∀ i < N, ∀ tail, InShape t tail →
      x.get (i :: tail) = MvPolynomial.eval (fun j : Fin n => s.get [i, j]) (f tail)) :
    ∃ o' Y, fitValues lstsq o s x 0 = .ok o' ∧ o'.call s = .ok Y ∧ Y.shape = x.shape ∧
      ∀ i < N, ∀ tail, InShape t tail → Y.get (i :: tail) = x.get (i :: tail) := by
  obtain ⟨c, h1, h2, h3⟩ := fit_ok hls s x N n d t hd hN hs hx
  obtain ⟨Y, h4, h5, h6⟩ := call_ok { o with coefs := some c } c s N n d t hd ho rfl h1 hs
  refine ⟨_, Y, (h3 o ho).1, h4, h5.trans hx.symm, fun i hi tail ht => ?_⟩
  obtain ⟨c', hc'⟩ := spanned_poly (f tail) (hf tail ht)
  have h7 := h2 tail ht c'
  have h8 : ∑ i ∈ Finset.range N, ((∑ r ∈ Finset.range (rows n d).length,
      phi n d (fun j => s.get [i, j]) r * c' r) - x.get (i :: tail)) ^ 2 = 0 := by
    refine Finset.sum_eq_zero fun i hi => ?_
    rw [hc' (fun j => s.get [i, j]), hfx i (Finset.mem_range.mp hi) tail ht, sub_self]
    simp
  rw [h8] at h7
  have h9 := (Finset.sum_eq_zero_iff_of_nonneg (fun i _ => sq_nonneg _)).mp
    (le_antisymm h7 (Finset.sum_nonneg fun i _ => sq_nonneg _)) i (Finset.mem_range.mpr hi)
  rw [h6 i hi]
  exact sub_eq_zero.mp (pow_eq_zero_iff (two_ne_zero) |>.mp h9)

/-! ### Damped refits -/

/-- One request `fit_values(s, x, damp)`. -/
structure Fit (F : Type) where
  s : NdArray F
  x : NdArray F
  damp : F

/-- The samples have `n` variables and at least one point, and the values have trailing shape `t`. -/
def Fit.Ok (q : Fit F) (n : ℕ) (t : List ℕ) : Prop :=
  ∃ N, 0 < N ∧ q.s.shape = [N, n] ∧ q.x.shape = N :: t

/-- A sequence of fits. -/
def fits (lstsq : NdArray F → NdArray F → Py (NdArray F)) (o : Obj F) (L : List (Fit F)) :
    Py (Obj F) :=
  L.foldlM (fun o q => fitValues lstsq o q.s q.x q.damp) o

theorem C52_aux (hls : LeastSquares lstsq) (n d : ℕ) (t : List ℕ) (hd : d ≤ 5) (s2 : NdArray F)
    (M : ℕ) (hs2 : s2.shape = [M, n]) (pr : Fit F → NdArray F)
    (hpr : ∀ q : Fit F, q.Ok n t → ∀ o o' : Obj F, o.d = d → fitValues lstsq o q.s q.x 0 = .ok o' →
      o'.call s2 = .ok (pr q)) :
    ∀ (L : List (Fit F)) (o : Obj F) (old Y : NdArray F), o.d = d → o.coefs = some old →
    old.shape = (rows n d).length :: t → o.call s2 = .ok Y → (∀ q ∈ L, q.Ok n t) →
    ∃ o' Y', fits lstsq o L = .ok o' ∧ o'.d = d ∧ o'.call s2 = .ok Y' ∧ Y'.shape = M :: t ∧
      ∀ i < M, ∀ tail, Y'.get (i :: tail) = L.foldl (fun acc q =>
        (1 - q.damp) * (pr q).get (i :: tail) + q.damp * acc) (Y.get (i :: tail))
  | [], o, old, Y, ho, hc, hold, hY, _ => by
    obtain ⟨Y', h1, h2, _⟩ := call_ok o old s2 M n d t hd ho hc hold hs2
    rw [hY] at h1
    injection h1 with h1
    subst h1
    exact ⟨o, Y, rfl, ho, hY, h2, fun i _ tail => rfl⟩
  | q :: L, o, old, Y, ho, hc, hold, hY, hL => by
    have hq := hL q (by simp)
    obtain ⟨N, hN, hs, hx⟩ := id hq
    obtain ⟨c, h1, h2, h3⟩ := fit_ok hls q.s q.x N n d t hd hN hs hx
    obtain ⟨h4, h5⟩ := h3 o ho
    have h6 := hpr q hq o _ ho h4
    obtain ⟨Y0, g1, g2, g3⟩ := call_ok { o with coefs := some c } c s2 M n d t hd ho rfl h1 hs2
    rw [h6] at g1
    injection g1 with g1
    subst g1
    obtain ⟨Yo, k1, k2, k3⟩ := call_ok o old s2 M n d t hd ho hc hold hs2
    rw [hY] at k1
    injection k1 with k1
    subst k1
    by_cases hdp : q.damp = 0
    · obtain ⟨o', Y', e1, e2, e3, e4, e5⟩ := C52_aux hls n d t hd s2 M hs2 pr hpr L
        { o with coefs := some c } c (pr q) ho rfl h1 h6 (fun r hr => hL r (by simp [hr]))
      refine ⟨o', Y', ?_, e2, e3, e4, fun i hi tail => ?_⟩
      · rw [fits, List.foldlM_cons, hdp, h4, ok_bind]; exact e1
      · rw [List.foldl_cons, e5 i hi, hdp]
        simp
    · have e0 := (h5 q.damp hdp).2 old hc hold
      obtain ⟨Y1, f1, f2, f3⟩ := call_ok ⟨o.n, o.d, some
        ⟨(rows n d).length :: t, fun idx => (1 - q.damp) * c.get idx + q.damp * old.get idx⟩⟩ _
        s2 M n d t hd ho rfl rfl hs2
      obtain ⟨o', Y', e1, e2, e3, e4, e5⟩ := C52_aux hls n d t hd s2 M hs2 pr hpr L
        _ _ Y1 (by exact ho) rfl rfl f1 (fun r hr => hL r (by simp [hr]))
      refine ⟨o', Y', ?_, e2, e3, e4, fun i hi tail => ?_⟩
      · rw [fits, List.foldlM_cons, e0, ok_bind]; exact e1
      · rw [List.foldl_cons, e5 i hi, f3 i hi, g3 i hi, k3 i hi]
        congr 1
        rw [Finset.mul_sum, Finset.mul_sum, ← Finset.sum_add_distrib]
        exact Finset.sum_congr rfl fun r _ => by ring

/-- C52, damping: after any sequence of fits (of which the first is undamped) on a new object, the
predictions at any points `s2` are obtained from the predictions `pr q` of the separate undamped fits
by the recursion `new = (1 - damp) * pr q + damp * old`. -/
theorem C52_damped_history (hls : LeastSquares lstsq) (n d : ℕ) (t : List ℕ) (hd : d ≤ 5)
    (s2 : NdArray F) (M : ℕ) (hs2 : s2.shape = [M, n]) (k : ℤ) (q0 : Fit F) (L : List (Fit F))
    (h0 : q0.damp = 0) (hq0 : q0.Ok n t) (hL : ∀ q ∈ L, q.Ok n t) :
    ∃ pr : Fit F → NdArray F,
      (∀ q : Fit F, q.Ok n t → ∃ o', fitValues lstsq (Obj.new k d) q.s q.x 0 = .ok o' ∧
        o'.call s2 = .ok (pr q) ∧ (pr q).shape = M :: t) ∧
      ∃ o' Y', fits lstsq (Obj.new k d) (q0 :: L) = .ok o' ∧ o'.call s2 = .ok Y' ∧
        Y'.shape = M :: t ∧ ∀ i < M, ∀ tail, InShape t tail →
          Y'.get (i :: tail) = L.foldl (fun acc q =>
            (1 - q.damp) * (pr q).get (i :: tail) + q.damp * acc) ((pr q0).get (i :: tail)) := by
  have hP : ∀ q : Fit F, ∃ P : NdArray F, q.Ok n t → P.shape = M :: t ∧
      ∀ o o' : Obj F, o.d = d → fitValues lstsq o q.s q.x 0 = .ok o' → o'.call s2 = .ok P := by
    intro q
    by_cases hq : q.Ok n t
    · obtain ⟨N, hN, hs, hx⟩ := id hq
      obtain ⟨c, h1, h2, h3⟩ := fit_ok hls q.s q.x N n d t hd hN hs hx
      obtain ⟨Y, g1, g2, g3⟩ := call_ok (⟨k, d, some c⟩ : Obj F) c s2 M n d t hd rfl rfl h1 hs2
      refine ⟨Y, fun _ => ⟨g2, fun o o' ho h => ?_⟩⟩
      rw [(h3 o ho).1] at h
      injection h with h
      subst h
      rw [← g1, Obj.call, Obj.call, ho]
    · exact ⟨⟨[], fun _ => 0⟩, fun h => absurd h hq⟩
  choose pr hpr using hP
  refine ⟨pr, fun q hq => ?_, ?_⟩
  · obtain ⟨N, hN, hs, hx⟩ := id hq
    obtain ⟨c, h1, h2, h3⟩ := fit_ok hls q.s q.x N n d t hd hN hs hx
    have := (h3 (Obj.new k d) rfl).1
    exact ⟨_, this, (hpr q hq).2 _ _ rfl this, (hpr q hq).1⟩
  · obtain ⟨N, hN, hs, hx⟩ := id hq0
    obtain ⟨c, h1, h2, h3⟩ := fit_ok hls q0.s q0.x N n d t hd hN hs hx
    have h4 := (h3 (Obj.new k d) rfl).1
    obtain ⟨o', Y', e1, e2, e3, e4, e5⟩ := C52_aux hls n d t hd s2 M hs2 pr
      (fun q hq => (hpr q hq).2) L { Obj.new k d with coefs := some c } c (pr q0) rfl rfl h1
      ((hpr q0 hq0).2 _ _ rfl h4) hL
    refine ⟨o', Y', ?_, e3, e4, fun i hi tail _ => e5 i hi tail⟩
    rw [fits, List.foldlM_cons, h0, h4, ok_bind]; exact e1

/-- The first fit of a new object cannot be damped: it raises `AttributeError`, as `coefs` is not
set. -/
theorem C52_damped_first_fit_raises (hls : LeastSquares lstsq) (k : ℤ) (n d : ℕ) (t : List ℕ)
    (hd : d ≤ 5) (q : Fit F) (hq : q.Ok n t) (hdp : q.damp ≠ 0) :
    fitValues lstsq (Obj.new k d) q.s q.x q.damp = .error .attribute := by
  obtain ⟨N, hN, hs, hx⟩ := hq
  obtain ⟨c, h1, h2, h3⟩ := fit_ok hls q.s q.x N n d t hd hN hs hx
  exact ((h3 (Obj.new k d) rfl).2 q.damp hdp).1 rfl

end field

/-! ### Derivative -/

/-- C52, derivative: for an object whose coefficients have the right size (as after any fit), the
entries of `der(s, k)` are the derivatives of the entries of `__call__` when the `k`-th coordinate of
the point varies. -/
theorem C52_der_of_call (o : Obj ℝ) (c s : NdArray ℝ) (N n d k : ℕ) (t : List ℕ) (hd : d ≤ 5)
    (ho : o.d = d) (hc : o.coefs = some c) (hcs : c.shape.head? = some (nComplete n d).toNat)
    (ht : c.shape.tail = t) (hs : s.shape = [N, n]) (hk : k < n) :
    ∃ (D : NdArray ℝ) (Y : ℕ → ℝ → NdArray ℝ), o.der s k = .ok D ∧ D.shape = N :: t ∧
      (∀ i v, o.call (setAt s [i, k] v) = .ok (Y i v) ∧ (Y i v).shape = N :: t) ∧
      ∀ i < N, ∀ tail, InShape t tail →
        HasDerivAt (fun v => (Y i v).get (i :: tail)) (D.get (i :: tail)) (s.get [i, k]) := by
  have hcs' : c.shape = (rows n d).length :: t := by
    rw [nComplete_rows] at hcs
    cases h : c.shape with
    | nil => rw [h] at hcs; simp at hcs
    | cons a b =>
      rw [h] at hcs ht
      simp only [List.head?_cons, Option.some.injEq] at hcs
      rw [hcs, ← ht]; rfl
  obtain ⟨D, h1, h2, h3⟩ := der_ok o c s N n d k t hd ho hc hcs' hs hk
  have h4 := fun i v => call_ok o c (setAt s [i, k] v) N n d t hd ho hc hcs' hs
  choose Y h5 h6 h7 using h4
  refine ⟨D, Y, h1, h2, fun i v => ⟨h5 i v, h6 i v⟩, fun i hi tail _ => ?_⟩
  rw [h3 i hi]
  have e : (fun v => (Y i v).get (i :: tail)) = fun v => ∑ r ∈ Finset.range (rows n d).length,
      phi n d (fun j => if j = k then v else s.get [i, j]) r * c.get (r :: tail) := by
    funext v
    rw [h7 i v i hi]
    refine Finset.sum_congr rfl fun r _ => ?_
    congr 2
    funext j
    simp [setAt]
  rw [e]
  exact HasDerivAt.fun_sum fun r _ => (mono_deriv (fun j => s.get [i, j]) k _).mul_const _

/-! ### A least-squares solver exists -/

/-- The assumption on `lstsq` can be met. -/
theorem leastSquares_exists : ∃ lstsq : NdArray ℝ → NdArray ℝ → Py (NdArray ℝ), LeastSquares lstsq := by
  have key : ∀ (A : NdArray ℝ) (N p : ℕ) (b : ℕ → ℝ), ∃ c : ℕ → ℝ, ∀ c' : ℕ → ℝ,
      Spec.residual N p A b c ≤ Spec.residual N p A b c' := by
    intro A N p b
    let T : (Fin p → ℝ) →ₗ[ℝ] EuclideanSpace ℝ (Fin N) :=
      { toFun := fun v => WithLp.toLp 2 fun i => ∑ j : Fin p, A.get [i, j] * v j
        map_add' := fun v w => by
          ext i; simp [mul_add, Finset.sum_add_distrib]
        map_smul' := fun a v => by
          ext i
          simp only [Pi.smul_apply, smul_eq_mul, RingHom.id_apply, PiLp.smul_apply, Finset.mul_sum]
          exact Finset.sum_congr rfl fun j _ => by ring }
    let B : EuclideanSpace ℝ (Fin N) := WithLp.toLp 2 fun i => b i
    have hres : ∀ c : ℕ → ℝ, Spec.residual N p A b c = ‖B - T (fun j => c j)‖ ^ 2 := by
      intro c
      rw [EuclideanSpace.norm_sq_eq, Spec.residual, Finset.sum_range]
      refine Finset.sum_congr rfl fun i _ => ?_
      rw [Finset.sum_range, Real.norm_eq_abs, sq_abs]
      simp only [PiLp.sub_apply, B, T, LinearMap.coe_mk, AddHom.coe_mk]
      ring
    obtain ⟨v, hv, hmin⟩ := Submodule.exists_norm_eq_iInf_of_complete_subspace
      (LinearMap.range T) (Submodule.complete_of_finiteDimensional _) B
    obtain ⟨w, rfl⟩ := hv
    refine ⟨fun j => if h : j < p then w ⟨j, h⟩ else 0, fun c' => ?_⟩
    rw [hres, hres]
    have e : (fun j : Fin p => (if h : (j : ℕ) < p then w ⟨j, h⟩ else 0)) = w := by
      funext j; simp
    rw [e]
    refine pow_le_pow_left₀ (norm_nonneg _) ?_ 2
    rw [hmin]
    refine ciInf_le_of_le ⟨0, ?_⟩ ⟨T fun j => c' j, ⟨_, rfl⟩⟩ le_rfl
    rintro _ ⟨u, rfl⟩
    exact norm_nonneg _
  choose sol hsol using key
  refine ⟨fun A x => .ok ⟨A.shape.getD 1 0 :: x.shape.tail, fun idx =>
    sol A (A.shape.getD 0 0) (A.shape.getD 1 0) (fun i => x.get (i :: idx.tail)) (idx.headD 0)⟩, ?_⟩
  intro A x N p t hN hp hA hx
  refine ⟨_, rfl, by simp [hA, hx], fun tail ht c' => ?_⟩
  simp only [hA, List.getD_cons_zero, List.getD_cons_succ, List.headD_cons, List.tail_cons]
  exact hsol A N p _ c'

section examples

/-- Five points on a line, values of `1 + x²`. -/
example : ∃ lstsq : NdArray ℝ → NdArray ℝ → Py (NdArray ℝ), ∃ o' Y,
    fitValues lstsq (Obj.new 1 2) ⟨[5, 1], fun idx => (idx.headD 0 : ℝ)⟩
      ⟨[5], fun idx => 1 + (idx.headD 0 : ℝ) ^ 2⟩ 0 = .ok o' ∧
    o'.call ⟨[5, 1], fun idx => (idx.headD 0 : ℝ)⟩ = .ok Y ∧ Y.get [3] = 10 := by
  obtain ⟨lstsq, h⟩ := leastSquares_exists
  obtain ⟨o', Y, h1, h2, h3, h4⟩ := C52_fits_exactly h (Obj.new 1 2)
    ⟨[5, 1], fun idx => (idx.headD 0 : ℝ)⟩ ⟨[5], fun idx => 1 + (idx.headD 0 : ℝ) ^ 2⟩ 5 1 2 []
    (by norm_num) rfl (by norm_num) rfl rfl
    (fun _ => MvPolynomial.C 1 + MvPolynomial.X 0 ^ 2)
    (fun _ _ => by
      refine (MvPolynomial.totalDegree_add _ _).trans (max_le ?_ ?_)
      · simp
      · exact (MvPolynomial.totalDegree_pow _ _).trans (by simp))
    (fun i hi tail _ => by simp)
  refine ⟨lstsq, o', Y, h1, h2, ?_⟩
  rw [h4 3 (by norm_num) [] trivial]
  norm_num

example := C52_der_of_call ⟨2, 2, some ⟨[6], fun idx => (idx.headD 0 : ℝ)⟩⟩
  ⟨[6], fun idx => (idx.headD 0 : ℝ)⟩ ⟨[4, 2], fun idx => (idx.headD 0 : ℝ)⟩ 4 2 2 1 []
  (by norm_num) rfl rfl (by
    have := C47_n_complete 2 2
    simp [Nat.choose] at this
    simp [this]) rfl rfl (by norm_num)

/-- A fit, then a damped refit, in two variables. -/
example := fun (lstsq : NdArray ℝ → NdArray ℝ → Py (NdArray ℝ)) (h : LeastSquares lstsq) =>
  C52_damped_history h 2 3 [] (by norm_num) ⟨[4, 2], fun idx => (idx.headD 0 : ℝ)⟩ 4 rfl 2
    ⟨⟨[7, 2], fun idx => (idx.headD 0 : ℝ)⟩, ⟨[7], fun idx => (idx.headD 0 : ℝ) ^ 3⟩, 0⟩
    [⟨⟨[9, 2], fun idx => (idx.headD 0 : ℝ)⟩, ⟨[9], fun idx => (idx.headD 0 : ℝ)⟩, 1 / 2⟩]
    rfl ⟨7, by norm_num, rfl, rfl⟩ (by simp [Fit.Ok])

end examples

end Interp.Props
