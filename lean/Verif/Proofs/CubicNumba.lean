import Verif.Model.CubicNumba
import Verif.Proofs.Cartesian
import Verif.Proofs.FilterLine
import Verif.Proofs.Api
import Verif.Spec.SplineRef

/-! What the specialised cubic evaluators compute, in closed form. -/

set_option linter.unusedSectionVars false
set_option linter.unusedSimpArgs false

namespace Interp.CubicNumba
open Interp.Codegen Interp.Ref Interp.Filter

section
variable {K : Type} [Add K] [Sub K] [Mul K] [Div K] [Neg K] [Zero K] [One K] [NatCast K]
  [IntCast K] [LT K] [DecidableLT K] [BEq K] [IntFloor K]

/-- Nested weighted sum. -/
def combo : List (ℕ × (ℕ → K)) → (List ℕ → K) → K
  | [], c => c []
  | (i, w) :: ws, c =>
    w 0 * combo ws (fun r => c ((i + 0) :: r)) + w 1 * combo ws (fun r => c ((i + 1) :: r))
      + w 2 * combo ws (fun r => c ((i + 2) :: r)) + w 3 * combo ws (fun r => c ((i + 3) :: r))

def castW (ws : List (ℕ × (ℕ → K))) : List (ℤ × (ℕ → K)) := ws.map fun w => ((w.1 : ℤ), w.2)

theorem contract_ok (C : NdArray K) (tail tsh : List ℕ) (ht : InShape tsh tail) :
    ∀ (ws : List (ℕ × (ℕ → K))) (sh psh pos : List ℕ), C.shape = psh ++ (sh ++ tsh) →
      InShape psh pos → List.Forall₂ (fun w s => w.1 + 3 < s) ws sh →
      contract C (tail.map Int.ofNat) (castW ws) (pos.map Int.ofNat)
        = .ok (combo ws (fun r => C.get (pos ++ (r ++ tail)))) := by
  intro ws
  induction ws with
  | nil =>
    intro sh psh pos hC hp h
    cases h
    simp only [castW, List.map_nil, contract, combo]
    rw [← List.map_append, C.read_ok _ (by rw [hC]; exact inShape_append hp ht)]
    simp
  | cons w ws ih =>
    intro sh psh pos hC hp h
    cases h with
    | cons hw h =>
      rename_i s sh
      obtain ⟨i, w⟩ := w
      have key : ∀ o : ℕ, o ≤ 3 →
          contract C (tail.map Int.ofNat) (castW ws) (pos.map Int.ofNat ++ [(i : ℤ) + (o : ℤ)])
            = .ok (combo ws (fun r => C.get (pos ++ (((i + o) :: r) ++ tail)))) := by
        intro o ho
        have := ih sh (psh ++ [s]) (pos ++ [i + o]) (by simp [hC])
          (inShape_append hp ⟨by simp only at hw; omega, trivial⟩) h
        simpa using this
      have k0 := key 0 (by omega)
      have k1 := key 1 (by omega)
      have k2 := key 2 (by omega)
      have k3 := key 3 (by omega)
      simp only [castW, List.map_cons, contract, combo] at k0 k1 k2 k3 ⊢
      simp only [Nat.cast_ofNat, Nat.cast_zero, Nat.cast_one] at k0 k1 k2 k3
      rw [k0, k1, k2, k3]
      rfl

/-- The grid described by the arguments `a, b, orders`. -/
def gridZ (T : List (K × K × ℤ)) : List (GridDim K) := T.map fun t => .uniform t.1 t.2.1 t.2.2

def ax (t : K × K × ℤ) : Ax K := ⟨t.2.2, t.1, ((t.2.2 : K) - 1) / (t.2.1 - t.1)⟩

theorem mapM_range_listRead {α β : Type} (l : List α) (f : ℕ → Py β) (g : α → β)
    (h : ∀ i (hi : i < l.length), f i = .ok (g l[i])) :
    (List.range l.length).mapM f = .ok (l.map g) := by
  rcases l with _ | ⟨a, l⟩
  · rfl
  · have := mapM_ok f (fun i => g ((a :: l).getD i a)) (List.range (a :: l).length) (by
      intro i hi
      have hi : i < (a :: l).length := by simpa using hi
      rw [h i hi, List.getD_eq_getElem?_getD, List.getElem?_eq_getElem hi]; rfl)
    rw [this]
    congr 1
    apply List.ext_getElem
    · simp
    · intro i h1 h2
      have : i < (a :: l).length := by simpa using h1
      rw [List.getElem_map, List.getElem_map, List.getElem_range, List.getD_eq_getElem?_getD,
        List.getElem?_eq_getElem this]
      rfl

theorem listRead_nat {α : Type} (l : List α) (i : ℕ) (hi : i < l.length) :
    listRead l (i : ℤ) = .ok l[i] := by
  rw [listRead_of_lt l i (by omega) (by omega)]; simp

theorem header_ok (T : List (K × K × ℤ)) (h : ∀ g ∈ gridZ T, WF g) :
    header T.length (T.map (·.1)) (T.map (·.2.1)) (T.map (·.2.2)) = .ok (T.map ax) := by
  apply mapM_range_listRead
  intro i hi
  have hw := h (.uniform T[i].1 T[i].2.1 T[i].2.2)
    (List.mem_map.mpr ⟨T[i], List.getElem_mem hi, rfl⟩)
  rw [listRead_nat _ i (by simpa using hi), listRead_nat _ i (by simpa using hi),
    listRead_nat _ i (by simpa using hi)]
  simp only [ok_bind, List.getElem_map]
  rw [pyDiv_ok _ _ hw.2]
  rfl

theorem coords_ok (x : List K) : coords x.length x = .ok x := by
  have := mapM_range_listRead x (fun i : ℕ => listRead x i) id (fun i hi => listRead_nat x i hi)
  simpa [coords] using this

/-- Cells and weights of one point, from the closed form. -/
def pwt (t : K × K × ℤ) (x : K) : ℕ × (ℕ → K) :=
  ((cell (.uniform t.1 t.2.1 t.2.2) x).toNat, phi (lam (.uniform t.1 t.2.1 t.2.2) x))

def gwt (t : K × K × ℤ) (x : K) : ℕ × (ℕ → K) :=
  ((cell (.uniform t.1 t.2.1 t.2.2) x).toNat,
    dphi (lam (.uniform t.1 t.2.1 t.2.2) x) (delta (.uniform t.1 t.2.1 t.2.2) x))

theorem locate_i (t : K × K × ℤ) (x : K) : (locate (ax t) x).i = cell (.uniform t.1 t.2.1 t.2.2) x :=
  rfl

theorem plain_eq : ∀ (T : List (K × K × ℤ)) (x : List K), (∀ g ∈ gridZ T, WF g) →
    plain (List.zipWith locate (T.map ax) x) = castW (List.zipWith pwt T x)
  | [], _, _ => by simp [plain, castW]
  | _ :: _, [], _ => by simp [plain, castW]
  | t :: T, x :: xs, h => by
    have ih := plain_eq T xs (fun g hg => h g (by simp only [gridZ, List.map_cons, List.mem_cons]; exact Or.inr hg))
    have hw := h (.uniform t.1 t.2.1 t.2.2) (by simp [gridZ])
    have hc := cell_bounds (.uniform t.1 t.2.1 t.2.2) (by simp only [size]; have := hw.1; omega) x
    simp only [plain, castW, List.map_cons, List.zipWith_cons_cons] at ih ⊢
    rw [ih]
    congr 1
    simp only [pwt, Int.toNat_of_nonneg hc.1]
    rfl

/-- The weights of the derivative along axis `q`. -/
def dwts : ℕ → List (K × K × ℤ) → List K → List (ℕ × (ℕ → K))
  | _, [], _ => []
  | _, _, [] => []
  | 0, t :: T, x :: xs => gwt t x :: List.zipWith pwt T xs
  | q + 1, t :: T, x :: xs => pwt t x :: dwts q T xs

theorem along_eq : ∀ (T : List (K × K × ℤ)) (x : List K) (q : ℕ), (∀ g ∈ gridZ T, WF g) →
    along q (List.zipWith locate (T.map ax) x) = castW (dwts q T x)
  | [], _, _, _ => by simp [along, castW, dwts]
  | _ :: _, [], q, _ => by cases q <;> simp [along, castW, dwts]
  | t :: T, x :: xs, q, h => by
    have hT : ∀ g ∈ gridZ T, WF g :=
      fun g hg => h g (by simp only [gridZ, List.map_cons, List.mem_cons]; exact Or.inr hg)
    have hw := h (.uniform t.1 t.2.1 t.2.2) (by simp [gridZ])
    have hc := cell_bounds (.uniform t.1 t.2.1 t.2.2) (by simp only [size]; have := hw.1; omega) x
    cases q with
    | zero =>
      have ih := plain_eq T xs hT
      simp only [along, List.map_cons, List.zipWith_cons_cons, List.mapIdx_cons, dwts, castW] at ih ⊢
      simp only [plain, castW] at ih
      rw [← ih]
      congr 1
      · simp only [gwt, Int.toNat_of_nonneg hc.1]
        rfl
      · apply List.ext_getElem
        · simp
        · intro i h1 h2
          simp
    | succ q =>
      have ih := along_eq T xs q hT
      simp only [along, List.map_cons, List.zipWith_cons_cons, List.mapIdx_cons, dwts, castW] at ih ⊢
      rw [← ih]
      congr 1
      · simp only [pwt, Int.toNat_of_nonneg hc.1]
        simp
        exact ⟨rfl, rfl⟩
      · apply List.ext_getElem
        · simp
        · intro i h1 h2
          simp

theorem fits_wts : ∀ (T : List (K × K × ℤ)) (x : List K), x.length = T.length →
    (∀ g ∈ gridZ T, WF g) →
    List.Forall₂ (fun w s => w.1 + 3 < s) (List.zipWith pwt T x)
        ((gridZ T).map fun g => size g + 2) ∧
    ∀ q, List.Forall₂ (fun w s => w.1 + 3 < s) (dwts q T x)
        ((gridZ T).map fun g => size g + 2)
  | [], [], _, _ => by
    refine ⟨by simp [gridZ], fun q => ?_⟩
    cases q <;> simp [gridZ, dwts]
  | t :: T, x :: xs, hl, h => by
    have hT : ∀ g ∈ gridZ T, WF g :=
      fun g hg => h g (by simp only [gridZ, List.map_cons, List.mem_cons]; exact Or.inr hg)
    have hw := h (.uniform t.1 t.2.1 t.2.2) (by simp [gridZ])
    have hc := cell_bounds (.uniform t.1 t.2.1 t.2.2) (by simp only [size]; have := hw.1; omega) x
    obtain ⟨i1, i2⟩ := fits_wts T xs (by simpa using hl) hT
    refine ⟨List.Forall₂.cons (by simp only [pwt]; omega) i1, fun q => ?_⟩
    cases q with
    | zero => exact List.Forall₂.cons (by simp only [gwt]; omega) i1
    | succ q => exact List.Forall₂.cons (by simp only [pwt]; omega) (i2 q)

theorem phi_eq (h1 : ∀ x : K, x * 1 = x) (t d : K) (j : ℕ) : phi t j = blend3Vals 0 t d j := by
  simp only [phi, blend3Vals, if_true, h1]

theorem evalAt_three (l : ℕ) (g : GridDim K) (G : List (GridDim K)) (oo : List ℕ) (x : K)
    (xs : List K) (c : List ℕ → K) :
    evalAt 3 (g :: G) (l :: oo) (x :: xs) c
      = blend3Vals l (lam g x) (delta g x) 0
          * evalAt 3 G oo xs (fun r => c (((cell g x).toNat + 0) :: r))
        + blend3Vals l (lam g x) (delta g x) 1
          * evalAt 3 G oo xs (fun r => c (((cell g x).toNat + 1) :: r))
        + blend3Vals l (lam g x) (delta g x) 2
          * evalAt 3 G oo xs (fun r => c (((cell g x).toNat + 2) :: r))
        + blend3Vals l (lam g x) (delta g x) 3
          * evalAt 3 G oo xs (fun r => c (((cell g x).toNat + 3) :: r)) := rfl

theorem combo_eq_evalAt (h1 : ∀ x : K, x * 1 = x) : ∀ (T : List (K × K × ℤ)) (x : List K)
    (c : List ℕ → K), x.length = T.length →
    combo (List.zipWith pwt T x) c
      = evalAt 3 (gridZ T) (List.replicate (gridZ T).length 0) x c
  | [], [], c, _ => rfl
  | t :: T, x :: xs, c, hl => by
    have ih := fun c => combo_eq_evalAt h1 T xs c (by simpa using hl)
    simp only [List.zipWith_cons_cons, gridZ, List.map_cons, List.length_cons, List.replicate_succ]
      at ih ⊢
    rw [evalAt_three]
    simp only [pwt, combo, ih, phi_eq h1 _ (delta (.uniform t.1 t.2.1 t.2.2) x)]

/-- The closed form of the values. -/
def valueAt (T : List (K × K × ℤ)) (C : NdArray K) (x : List K) (comp : List ℕ) : K :=
  combo (List.zipWith pwt T x) (fun r => C.get (r ++ comp))

/-- The closed form of the partial derivatives. -/
def gradAt (T : List (K × K × ℤ)) (C : NdArray K) (q : ℕ) (x : List K) (comp : List ℕ) : K :=
  combo (dwts q T x) (fun r => C.get (r ++ comp))

variable {T : List (K × K × ℤ)} {C : NdArray K} {m : ℕ}

theorem value_ok (hw : ∀ g ∈ gridZ T, WF g) {tsh tail : List ℕ}
    (hC : C.shape = ((gridZ T).map fun g => size g + 2) ++ tsh) (ht : InShape tsh tail)
    {x : List K} (hx : x.length = T.length) :
    contract C (tail.map Int.ofNat) (plain (List.zipWith locate (T.map ax) x)) []
      = .ok (valueAt T C x tail) := by
  rw [plain_eq T x hw]
  exact contract_ok C tail tsh ht _ _ [] [] hC trivial (fits_wts T x hx hw).1

theorem grad_ok (hw : ∀ g ∈ gridZ T, WF g) {tsh tail : List ℕ}
    (hC : C.shape = ((gridZ T).map fun g => size g + 2) ++ tsh) (ht : InShape tsh tail)
    {x : List K} (hx : x.length = T.length) (q : ℕ) :
    contract C (tail.map Int.ofNat) (along q (List.zipWith locate (T.map ax) x)) []
      = .ok (gradAt T C q x tail) := by
  rw [along_eq T x q hw]
  exact contract_ok C tail tsh ht _ _ [] [] hC trivial ((fits_wts T x hx hw).2 q)

theorem evalSplineD_ok (hw : ∀ g ∈ gridZ T, WF g)
    (hC : C.shape = (gridZ T).map fun g => size g + 2) {x : List K} (hx : x.length = T.length) :
    evalSplineD T.length (T.map (·.1)) (T.map (·.2.1)) (T.map (·.2.2)) C x
      = .ok (valueAt T C x []) := by
  have h := value_ok hw (tsh := []) (tail := []) (by simpa using hC) trivial hx
  have hc := coords_ok x
  rw [hx] at hc
  simp only [evalSplineD, header_ok T hw, hc, ok_bind]
  simpa using h

theorem vecEvalSplineD_ok (hw : ∀ g ∈ gridZ T, WF g)
    (hC : C.shape = (gridZ T).map fun g => size g + 2) (xs : List (List K))
    (hx : ∀ x ∈ xs, x.length = T.length) (B : NdArray K) (hB : B.shape = [xs.length]) :
    ∃ A, vecEvalSplineD T.length (T.map (·.1)) (T.map (·.2.1)) (T.map (·.2.2)) C xs B = .ok A ∧
      A.shape = B.shape ∧ ∀ (i : ℕ) (hi : i < xs.length), A.get [i] = valueAt T C xs[i] [] := by
  obtain ⟨A, h1, h2, h3⟩ := pyFor_writes [xs.length]
    (fun idx => valueAt T C (xs.getD (idx.headD 0) []) [])
    (fun (n : ℕ) out => do
      let p ← listRead xs n
      let y ← coords T.length p
      let axs ← header T.length (T.map (·.1)) (T.map (·.2.1)) (T.map (·.2.2))
      let v ← contract C [] (plain (List.zipWith locate axs y)) []
      out.write [Int.ofNat n] v) (fun n idx => idx = [n]) (List.range xs.length) B hB (by
    intro n hn A hA
    have hn : n < xs.length := by simpa using hn
    have hl := hx xs[n] (List.getElem_mem hn)
    have hc := coords_ok xs[n]
    rw [hl] at hc
    have hv := value_ok hw (tsh := []) (tail := []) (by simpa using hC) trivial hl
    simp only [List.map_nil] at hv
    simp only [listRead_nat xs n hn, ok_bind, hc, header_ok T hw, hv]
    exact Wr.write A [n] _ (by rw [hA]; exact ⟨hn, trivial⟩) _ (by
      simp [List.getD_eq_getElem?_getD, List.getElem?_eq_getElem hn]))
  refine ⟨A, h1, h2, fun i hi => ?_⟩
  rw [(h3 [i]).1 ⟨i, by simpa using hi, rfl⟩]
  simp [List.getD_eq_getElem?_getD, List.getElem?_eq_getElem hi]

theorem nVals_ok (hC : C.shape = ((gridZ T).map fun g => size g + 2) ++ [m]) :
    nVals T.length C = .ok m := by
  have h1 : C.shape.length = T.length + 1 := by rw [hC]; simp [gridZ]
  have h2 : C.shape.getD T.length 0 = m := by
    rw [hC, List.getD_append_right _ _ _ _ (by simp [gridZ])]; simp [gridZ]
  rw [nVals, if_pos h1, h2]; rfl

theorem evalSplinesD_ok (hw : ∀ g ∈ gridZ T, WF g)
    (hC : C.shape = ((gridZ T).map fun g => size g + 2) ++ [m]) {x : List K}
    (hx : x.length = T.length) (B : NdArray K) (hB : B.shape = [m]) :
    ∃ A, evalSplinesD T.length (T.map (·.1)) (T.map (·.2.1)) (T.map (·.2.2)) C x B = .ok A ∧
      A.shape = B.shape ∧ ∀ k < m, A.get [k] = valueAt T C x [k] := by
  have hc := coords_ok x
  rw [hx] at hc
  simp only [evalSplinesD, nVals_ok hC, header_ok T hw, hc, ok_bind]
  obtain ⟨A, h1, h2, h3⟩ := pyFor_writes [m] (fun idx => valueAt T C x idx)
    (fun (k : ℕ) vals => do
      let v ← contract C [Int.ofNat k] (plain (List.zipWith locate (T.map ax) x)) []
      vals.write [Int.ofNat k] v) (fun k idx => idx = [k]) (List.range m) B hB (by
    intro k hk A hA
    have hk : k < m := by simpa using hk
    have hv := value_ok hw (tail := [k]) hC ⟨hk, trivial⟩ hx
    simp only [List.map_cons, List.map_nil] at hv
    simp only [hv, ok_bind]
    exact Wr.write A [k] _ (by rw [hA]; exact ⟨hk, trivial⟩) _ rfl)
  exact ⟨A, h1, h2, fun k hk => (h3 [k]).1 ⟨k, by simpa using hk, rfl⟩⟩

theorem vecEvalSplinesD_ok (hw : ∀ g ∈ gridZ T, WF g)
    (hC : C.shape = ((gridZ T).map fun g => size g + 2) ++ [m]) (xs : List (List K))
    (hx : ∀ x ∈ xs, x.length = T.length) (B : NdArray K) (hB : B.shape = [xs.length, m]) :
    ∃ A, vecEvalSplinesD T.length (T.map (·.1)) (T.map (·.2.1)) (T.map (·.2.2)) C xs B = .ok A ∧
      A.shape = B.shape ∧
      ∀ (i : ℕ) (hi : i < xs.length), ∀ k < m, A.get [i, k] = valueAt T C xs[i] [k] := by
  simp only [vecEvalSplinesD, nVals_ok hC, header_ok T hw, ok_bind]
  obtain ⟨A, h1, h2, h3⟩ := pyFor_writes [xs.length, m]
    (fun idx => valueAt T C (xs.getD (idx.headD 0) []) (idx.drop 1))
    (fun (n : ℕ) vals => do
      let p ← listRead xs n
      let y ← coords T.length p
      pyFor (List.range m) (fun (k : ℕ) vals => do
        let v ← contract C [Int.ofNat k] (plain (List.zipWith locate (T.map ax) y)) []
        vals.write [Int.ofNat n, Int.ofNat k] v) vals)
    (fun n idx => ∃ k ∈ List.range m, idx = [n, k]) (List.range xs.length) B hB (by
    intro n hn A hA
    have hn : n < xs.length := by simpa using hn
    have hl := hx xs[n] (List.getElem_mem hn)
    have hc := coords_ok xs[n]
    rw [hl] at hc
    simp only [listRead_nat xs n hn, ok_bind, hc]
    refine pyFor_writes [xs.length, m] _ _ (fun k idx => idx = [n, k]) (List.range m) A hA ?_
    intro k hk A hA
    have hk : k < m := by simpa using hk
    have hv := value_ok hw (tail := [k]) hC ⟨hk, trivial⟩ hl
    simp only [List.map_cons, List.map_nil] at hv
    simp only [hv, ok_bind]
    exact Wr.write A [n, k] _ (by rw [hA]; exact ⟨hn, hk, trivial⟩) _ (by
      simp [List.getD_eq_getElem?_getD, List.getElem?_eq_getElem hn]))
  refine ⟨A, h1, h2, fun i hi k hk => ?_⟩
  rw [(h3 [i, k]).1 ⟨i, by simpa using hi, k, by simpa using hk, rfl⟩]
  simp [List.getD_eq_getElem?_getD, List.getElem?_eq_getElem hi]

/-- The entries of the two output arrays at the places `S`. -/
def GradDone (T : List (K × K × ℤ)) (C : NdArray K) (m : ℕ) (xs : List (List K))
    (S : ℕ → ℕ → Prop) (s : NdArray K × NdArray K) : Prop :=
  s.1.shape = [xs.length, m] ∧ s.2.shape = [xs.length, T.length, m] ∧
  ∀ n k, S n k → s.1.get [n, k] = valueAt T C (xs.getD n []) [k] ∧
    ∀ q < T.length, s.2.get [n, q, k] = gradAt T C q (xs.getD n []) [k]

theorem gradStep (hw : ∀ g ∈ gridZ T, WF g)
    (hC : C.shape = ((gridZ T).map fun g => size g + 2) ++ [m]) (xs : List (List K)) (n k : ℕ)
    (hn : n < xs.length) (hk : k < m) (hl : (xs.getD n []).length = T.length)
    (S : ℕ → ℕ → Prop) (s : NdArray K × NdArray K) (hs : GradDone T C m xs S s) :
    ∃ s', (do
      let v ← contract C [Int.ofNat k] (plain (List.zipWith locate (T.map ax) (xs.getD n []))) []
      let vals ← s.1.write [Int.ofNat n, Int.ofNat k] v
      let dvals ← pyFor (List.range T.length) (fun (q : ℕ) dv => do
        let g ← contract C [Int.ofNat k]
          (along q (List.zipWith locate (T.map ax) (xs.getD n []))) []
        dv.write [Int.ofNat n, Int.ofNat q, Int.ofNat k] g) s.2
      pure (vals, dvals) : Py (NdArray K × NdArray K)) = .ok s' ∧
      GradDone T C m xs (fun i j => S i j ∨ (i = n ∧ j = k)) s' := by
  obtain ⟨s1, s2, s3⟩ := hs
  have hv := value_ok hw (tail := [k]) hC ⟨hk, trivial⟩ hl
  simp only [List.map_cons, List.map_nil] at hv
  obtain ⟨A, a1, a2, a3⟩ := Wr.write s.1 [n, k] (valueAt T C (xs.getD n []) [k])
    (by rw [s1]; exact ⟨hn, hk, trivial⟩) (fun _ => valueAt T C (xs.getD n []) [k]) rfl
  obtain ⟨D, d1, d2, d3⟩ := pyFor_writes [xs.length, T.length, m]
    (fun idx => gradAt T C (idx.getD 1 0) (xs.getD n []) [k])
    (fun (q : ℕ) dv => do
      let g ← contract C [Int.ofNat k]
        (along q (List.zipWith locate (T.map ax) (xs.getD n []))) []
      dv.write [Int.ofNat n, Int.ofNat q, Int.ofNat k] g)
    (fun q idx => idx = [n, q, k]) (List.range T.length) s.2 s2 (by
    intro q hq A hA
    have hq : q < T.length := by simpa using hq
    have hg := grad_ok hw (tail := [k]) hC ⟨hk, trivial⟩ hl q
    simp only [List.map_cons, List.map_nil] at hg
    simp only [hg, ok_bind]
    exact Wr.write A [n, q, k] _ (by rw [hA]; exact ⟨hn, hq, hk, trivial⟩) _ (by simp))
  simp only [List.map_cons, List.map_nil] at a1
  refine ⟨(A, D), by simp only [hv, ok_bind, a1, d1, pure_eq_ok], a2.trans s1, d2.trans s2, ?_⟩
  intro i j hij
  by_cases e : i = n ∧ j = k
  · obtain ⟨rfl, rfl⟩ := e
    refine ⟨(a3 _).1 rfl, fun q hq => ?_⟩
    rw [(d3 [i, q, j]).1 ⟨q, by simpa using hq, rfl⟩]
    simp
  · obtain ⟨h1, h2⟩ := s3 i j (hij.resolve_right e)
    refine ⟨?_, fun q hq => ?_⟩
    · rw [(a3 [i, j]).2 (by simpa using e), h1]
    · rw [(d3 [i, q, j]).2 (by
        rintro ⟨q', _, e'⟩
        simp at e'
        exact e ⟨e'.1, e'.2.2⟩), h2 q hq]

theorem vecEvalSplinesGD_ok (hw : ∀ g ∈ gridZ T, WF g)
    (hC : C.shape = ((gridZ T).map fun g => size g + 2) ++ [m]) (xs : List (List K))
    (hx : ∀ x ∈ xs, x.length = T.length) (B B' : NdArray K) (hB : B.shape = [xs.length, m])
    (hB' : B'.shape = [xs.length, T.length, m]) :
    ∃ A D, vecEvalSplinesGD T.length (T.map (·.1)) (T.map (·.2.1)) (T.map (·.2.2)) C xs B B'
        = .ok (A, D) ∧
      A.shape = B.shape ∧ D.shape = B'.shape ∧
      ∀ (i : ℕ) (hi : i < xs.length), ∀ k < m, A.get [i, k] = valueAt T C xs[i] [k] ∧
        ∀ q < T.length, D.get [i, q, k] = gradAt T C q xs[i] [k] := by
  simp only [vecEvalSplinesGD, nVals_ok hC, header_ok T hw, ok_bind]
  obtain ⟨s, h1, h2, h3, h4⟩ := pyFor_range xs.length
    (fun (n : ℕ) (s : NdArray K × NdArray K) => do
      let p ← listRead xs n
      let y ← coords T.length p
      let cs := List.zipWith locate (T.map ax) y
      pyFor (List.range m) (fun (k : ℕ) s => do
        let v ← contract C [Int.ofNat k] (plain cs) []
        let vals ← s.1.write [Int.ofNat n, Int.ofNat k] v
        let dvals ← pyFor (List.range T.length) (fun (q : ℕ) dv => do
          let g ← contract C [Int.ofNat k] (along q cs) []
          dv.write [Int.ofNat n, Int.ofNat q, Int.ofNat k] g) s.2
        pure (vals, dvals)) s)
    (fun n s => GradDone T C m xs (fun i j => i < n ∧ j < m) s) (B, B')
    ⟨hB, hB', fun n k h => absurd h.1 (by omega)⟩ (by
    intro n hn s hs
    have hl := hx xs[n] (List.getElem_mem hn)
    have hc := coords_ok xs[n]
    have hg : xs.getD n [] = xs[n] := by
      simp [List.getD_eq_getElem?_getD, List.getElem?_eq_getElem hn]
    rw [hl] at hc
    simp only [listRead_nat xs n hn, ok_bind, hc]
    obtain ⟨s', e1, e2⟩ := pyFor_range m (fun (k : ℕ) (s : NdArray K × NdArray K) => do
        let v ← contract C [Int.ofNat k] (plain (List.zipWith locate (T.map ax) xs[n])) []
        let vals ← s.1.write [Int.ofNat n, Int.ofNat k] v
        let dvals ← pyFor (List.range T.length) (fun (q : ℕ) dv => do
          let g ← contract C [Int.ofNat k] (along q (List.zipWith locate (T.map ax) xs[n])) []
          dv.write [Int.ofNat n, Int.ofNat q, Int.ofNat k] g) s.2
        pure (vals, dvals))
      (fun k s => GradDone T C m xs (fun i j => (i < n ∧ j < m) ∨ (i = n ∧ j < k)) s) s
      ⟨hs.1, hs.2.1, fun i j hij => hs.2.2 i j (by omega)⟩ (by
        intro k hk s hs
        obtain ⟨s', e1, e2⟩ := gradStep hw hC xs n k hn hk (by rw [hg]; exact hl) _ s hs
        rw [hg] at e1
        exact ⟨s', e1, e2.1, e2.2.1, fun i j hij => e2.2.2 i j (by omega)⟩)
    exact ⟨s', e1, e2.1, e2.2.1, fun i j hij => e2.2.2 i j (by omega)⟩)
  refine ⟨s.1, s.2, h1, h2.trans hB.symm, h3.trans hB'.symm, fun i hi k hk => ?_⟩
  have hg : xs.getD i [] = xs[i] := by
    simp [List.getD_eq_getElem?_getD, List.getElem?_eq_getElem hi]
  obtain ⟨r1, r2⟩ := h4 i k ⟨hi, hk⟩
  rw [hg] at r1 r2
  exact ⟨r1, r2⟩

end

end Interp.CubicNumba
