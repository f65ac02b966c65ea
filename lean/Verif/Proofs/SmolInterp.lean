import Verif.Proofs.SmolGrid
import Mathlib.LinearAlgebra.Matrix.NonsingularInverse
import Mathlib.Analysis.Calculus.Deriv.Polynomial

/-!
# The classes `SmolyakGrid` and `SmolyakInterp`
-/

set_option linter.unusedSectionVars false
set_option linter.unusedSimpArgs false

namespace Interp.Smolyak
open Interp.Spec
open Interp.CompletePoly (transpose dot rangeN)

/-- Everything that is known about a grid built by the constructor. -/
structure GridOK (sg : Grid ℝ) (M : ℕ) : Prop where
  inds : IndsOK sg.d sg.mu M sg.inds
  pinds : sg.pinds = pRows sg.inds
  cube : sg.cubeGrid = ofRows sg.d (gridRows sg.inds)
  lbl : sg.lb.length = sg.d
  ubl : sg.ub.length = sg.d
  grid : cube2dom sg.lb sg.ub sg.cubeGrid = .ok sg.grid
  Bs : sg.B.shape = [(pRows sg.inds).length, (pRows sg.inds).length]
  BLs : sg.BL.shape = [(pRows sg.inds).length, (pRows sg.inds).length]
  BUs : sg.BU.shape = [(pRows sg.inds).length, (pRows sg.inds).length]
  B : toMat sg.B (pRows sg.inds).length = basisMat sg.inds
  LU : toMat sg.BL (pRows sg.inds).length * toMat sg.BU (pRows sg.inds).length = basisMat sg.inds

/-- The list of bounds that results from an argument of the constructor. -/
inductive BoundIs (d : ℕ) (deflt : ℝ) : Bound ℝ → List ℝ → Prop
  | default : BoundIs d deflt .default (List.replicate d deflt)
  | scalar (x : ℝ) : BoundIs d deflt (.scalar x) (List.replicate d x)
  | array (l : List ℝ) : l.length = d → BoundIs d deflt (.array l) l

theorem boundIs_iff (d : ℕ) (deflt : ℝ) (b : Bound ℝ) (l : List ℝ) :
    boundOf (d : ℤ) deflt b = .ok (some l) ↔ BoundIs d deflt b l := by
  constructor
  · intro h
    cases b with
    | default =>
      rw [boundOf, if_neg (by omega)] at h
      cases h
      exact .default
    | scalar x =>
      rw [boundOf, if_neg (by omega)] at h
      cases h
      exact .scalar x
    | array l' =>
      rw [boundOf] at h
      split at h
      · cases h
        exact .array _ (by omega)
      · cases h
    | other => cases h
  · intro h
    cases h with
    | default => rw [boundOf, if_neg (by omega)]; rfl
    | scalar x => rw [boundOf, if_neg (by omega)]; rfl
    | array _ h => rw [boundOf, if_pos (by omega)]; rfl

theorem BoundIs.length {d : ℕ} {deflt : ℝ} {b : Bound ℝ} {l : List ℝ} (h : BoundIs d deflt b l) :
    l.length = d := by
  cases h with
  | default => simp
  | scalar x => simp
  | array _ h => exact h

theorem validMu_check (d : ℕ) (mu : Mu) : checkMu d mu = .ok () ↔ ValidMu d mu := by
  cases mu with
  | iso m =>
    rw [checkMu, ValidMu]
    split
    · exact iff_of_false (fun h => by cases h) (by omega)
    · exact iff_of_true rfl (by omega)
  | aniso ms =>
    rw [checkMu, ValidMu]
    by_cases h1 : (ms.any fun m => decide (m < 1)) = true
    · rw [if_pos h1]
      refine iff_of_false (fun h => by cases h) ?_
      rintro ⟨_, h⟩
      rw [List.any_eq_true] at h1
      obtain ⟨m, hm, h2⟩ := h1
      have := h m hm
      simp at h2; omega
    · rw [if_neg h1]
      have h3 : ∀ m ∈ ms, 1 ≤ m := by
        intro m hm
        by_contra hc
        exact h1 (List.any_eq_true.mpr ⟨m, hm, by simp; omega⟩)
      split
      · rename_i h2
        exact iff_of_false (fun h => by cases h) (fun h => h2 h.1)
      · rename_i h2
        exact iff_of_true rfl ⟨not_not.mp h2, h3⟩

theorem rowOf_ofRows (d : ℕ) (rows : List (List ℝ)) (r : ℕ) (hr : (rows.getD r []).length = d) :
    rowOf (ofRows d rows) d r = rows.getD r [] := by
  apply List.ext_getElem
  · simp only [rowOf, List.length_map, List.length_range, hr]
  · intro i h1 h2
    simp only [rowOf, List.getElem_map, List.getElem_range, ofRows]
    show (rows.getD r []).getD i 0 = _
    rw [List.getD_eq_getElem _ _ h2]

theorem cube2dom_ok {lb ub : List ℝ} {pts : NdArray ℝ} {n m : ℕ} (hp : pts.shape = [n, m])
    (hl : lb.length = m) (hu : ub.length = m) : cube2dom lb ub pts = .ok ⟨[n, m], fun idx =>
      pts.get idx * radius (lb.getD (idx.getLastD 0) 0) (ub.getD (idx.getLastD 0) 0)
        + center (lb.getD (idx.getLastD 0) 0) (ub.getD (idx.getLastD 0) 0)⟩ := by
  simp [cube2dom, alongLast, hl, hu, hp, pure_eq_ok]

theorem dom2cube_ok {lb ub : List ℝ} {pts : NdArray ℝ} {n m : ℕ} (hp : pts.shape = [n, m])
    (hl : lb.length = m) (hu : ub.length = m) : dom2cube lb ub pts = .ok ⟨[n, m], fun idx =>
      (pts.get idx - center (lb.getD (idx.getLastD 0) 0) (ub.getD (idx.getLastD 0) 0))
        / radius (lb.getD (idx.getLastD 0) 0) (ub.getD (idx.getLastD 0) 0)⟩ := by
  simp [dom2cube, alongLast, hl, hu, hp, pure_eq_ok]

theorem new_ok (la : LinAlg ℝ) (hla : LinAlgOK la) (d : ℕ) (mu : Mu) (lb ub : Bound ℝ) (lbl ubl : List ℝ)
    (hd : 2 ≤ d) (hv : ValidMu d mu) (hlb : BoundIs d (-1) lb lbl) (hub : BoundIs d 1 ub ubl) :
    ∃ sg, ∃ M : ℕ, Grid.new la (d : ℤ) mu lb ub = .ok sg ∧ sg.d = d ∧ sg.mu = mu ∧ sg.lb = lbl ∧ sg.ub = ubl ∧
      (∀ b, MuLe b mu ↔ (M : ℤ) ≤ b) ∧ GridOK sg M := by
  obtain ⟨M, inds, e, hi, hMu⟩ := exists_inds d mu hd hv
  have hcs : (ofRows d (gridRows inds)).shape = [(pRows inds).length, d] := by
    simp [ofRows, hi.length_eq]
  obtain ⟨B, eB, sB, gB⟩ := buildB_ok (K := ℝ) d M (pRows inds).length mu (ofRows d (gridRows inds))
    (pRows inds) (by omega) hi.top hcs (fun p hp => (hi.pRows_bounds hp).1) (fun p hp => (hi.pRows_bounds hp).2)
  obtain ⟨l, u, elu, hl, hu, hlu⟩ := hla.lu B _ sB
  have hB : toMat B (pRows inds).length = basisMat inds := by
    funext r j
    show B.get [(r : ℕ), (j : ℕ)] = _
    rw [gB r j j.2, basisVal_eq, basisMat, rowOf_ofRows]
    · rfl
    · refine gridRows_length_row hi ?_
      have : (r : ℕ) < (gridRows inds).length := by rw [hi.length_eq]; exact r.2
      rw [List.getD_eq_getElem _ _ this]
      exact List.getElem_mem this
  have hg := cube2dom_ok hcs hlb.length hub.length
  refine ⟨⟨d, mu, lbl, ubl, inds, pRows inds, ofRows d (gridRows inds), _, B, l, u⟩, M, ?_, rfl, rfl, rfl,
    rfl, hMu, hi, rfl, rfl, hlb.length, hub.length, hg, sB, hl, hu, hB, hlu.trans hB⟩
  rw [Grid.new, (boundIs_iff d (-1) lb lbl).mpr hlb, ok_bind, (boundIs_iff d 1 ub ubl).mpr hub, ok_bind]
  simp only [show ¬ ((d : ℤ) ≤ 1) by omega, if_false, Int.toNat_natCast, pure_eq_ok, ok_bind,
    (validMu_check d mu).mpr hv, e, polyInds_ok hi, buildGrid_ok hi, attr, hg, eB, elu]

/-- A successful construction has valid arguments. -/
theorem new_elim (la : LinAlg ℝ) (hla : LinAlgOK la) (d : ℤ) (mu : Mu) (lb ub : Bound ℝ) (sg : Grid ℝ)
    (h : Grid.new la d mu lb ub = .ok sg) :
    2 ≤ d ∧ ValidMu d.toNat mu ∧ BoundIs d.toNat (-1) lb sg.lb ∧ BoundIs d.toNat 1 ub sg.ub := by
  have h0 := h
  rw [Grid.new] at h
  rcases h1 : boundOf d (-1) lb with e | lb'
  · rw [h1] at h; cases h
  rw [h1, ok_bind] at h
  rcases h2 : boundOf d 1 ub with e | ub'
  · rw [h2] at h; cases h
  rw [h2, ok_bind] at h
  by_cases h3 : d ≤ 1
  · simp [h3] at h
  simp only [h3, if_false, pure_eq_ok, ok_bind] at h
  rcases h4 : checkMu d.toNat mu with e | ⟨⟩
  · rw [h4] at h; cases h
  rw [h4, ok_bind] at h
  have hv := (validMu_check d.toNat mu).mp h4
  have hd : ((d.toNat : ℕ) : ℤ) = d := Int.toNat_of_nonneg (by omega)
  obtain ⟨M, inds, e, hi, hMu⟩ := exists_inds d.toNat mu (by omega) hv
  rw [e, ok_bind, polyInds_ok hi, ok_bind, buildGrid_ok hi, ok_bind] at h
  cases lb' with
  | none => cases h
  | some lbl =>
    cases ub' with
    | none => cases h
    | some ubl =>
      rw [← hd] at h1 h2
      have hl := (boundIs_iff _ _ _ _).mp h1
      have hu := (boundIs_iff _ _ _ _).mp h2
      obtain ⟨sg', M', e', _, _, h5, h6, _⟩ := new_ok la hla d.toNat mu lb ub lbl ubl (by omega) hv hl hu
      rw [hd, h0] at e'
      cases e'
      exact ⟨by omega, hv, h5 ▸ hl, h6 ▸ hu⟩

theorem new_gridOK (la : LinAlg ℝ) (hla : LinAlgOK la) (d : ℤ) (mu : Mu) (lb ub : Bound ℝ) (sg : Grid ℝ)
    (h : Grid.new la d mu lb ub = .ok sg) :
    ∃ M : ℕ, GridOK sg M ∧ (sg.d : ℤ) = d ∧ sg.mu = mu ∧ ∀ b, MuLe b mu ↔ (M : ℤ) ≤ b := by
  obtain ⟨h1, h2, h3, h4⟩ := new_elim la hla d mu lb ub sg h
  have hd : ((d.toNat : ℕ) : ℤ) = d := Int.toNat_of_nonneg (by omega)
  obtain ⟨sg', M, e, e1, e2, _, _, e3, e4⟩ := new_ok la hla d.toNat mu lb ub sg.lb sg.ub (by omega) h2 h3 h4
  rw [hd, h] at e
  cases e
  exact ⟨M, e4, by rw [e1, hd], e2, e3⟩

/-! ### Fitting -/

section
variable {sg : Grid ℝ} {M : ℕ}

/-- Number of grid points. -/
abbrev GridOK.p (_ : GridOK sg M) : ℕ := (pRows sg.inds).length

theorem GridOK.detL (h : GridOK sg M) (hM : M ≤ 48) : (toMat sg.BL (pRows sg.inds).length).det ≠ 0 ∧
    (toMat sg.BU (pRows sg.inds).length).det ≠ 0 := by
  have := h.inds.basisMat_det hM
  rw [← h.LU, Matrix.det_mul] at this
  exact ⟨left_ne_zero_of_mul this, right_ne_zero_of_mul this⟩

theorem theta_ok (la : LinAlg ℝ) (hla : LinAlgOK la) (h : GridOK sg M) (hM : M ≤ 48) (f : NdArray ℝ) (t : List ℕ)
    (ht : t.length ≤ 1) (hf : f.shape = (pRows sg.inds).length :: t) :
    ∃ θ, findTheta la sg f = .ok θ ∧ θ.shape = (pRows sg.inds).length :: t ∧
      ∀ (r : Fin (pRows sg.inds).length) (idx : List ℕ), InShape t idx →
        ∑ j, basisMat sg.inds r j * θ.get ((j : ℕ) :: idx) = f.get ((r : ℕ) :: idx) := by
  obtain ⟨y, ey, sy, gy⟩ := hla.solve sg.BL f _ t h.BLs hf ht (h.detL hM).1
  obtain ⟨θ, eθ, sθ, gθ⟩ := hla.solve sg.BU y _ t h.BUs sy ht (h.detL hM).2
  refine ⟨θ, by rw [findTheta, ey, ok_bind, eθ], sθ, fun r idx hidx => ?_⟩
  rw [← gy r idx hidx]
  have : ∀ i : Fin (pRows sg.inds).length, y.get ((i : ℕ) :: idx)
      = (toMat sg.BU (pRows sg.inds).length).mulVec (fun j => θ.get ((j : ℕ) :: idx)) i := by
    intro i; rw [← gθ i idx hidx]; rfl
  simp only [this]
  rw [← h.LU]
  show ((toMat sg.BL _ * toMat sg.BU _).mulVec fun j => θ.get ((j : ℕ) :: idx)) r
    = ((toMat sg.BL _).mulVec ((toMat sg.BU _).mulVec fun j => θ.get ((j : ℕ) :: idx))) r
  rw [Matrix.mulVec_mulVec]

/-! ### Evaluation -/

/-- Value of the combination of basis functions with coefficients `θ` at a point of the cube. -/
noncomputable def comb (inds : List (List ℤ)) (θ : ℕ → ℝ) (x : List ℝ) : ℝ :=
  ∑ j : Fin (pRows inds).length, chebProd (ksOf inds j) x * θ j

/-- Coordinates in the cube of a point of the domain. -/
noncomputable def toCube (lb ub x : List ℝ) : List ℝ :=
  (List.range x.length).map fun i => (x.getD i 0 - center (lb.getD i 0) (ub.getD i 0))
    / radius (lb.getD i 0) (ub.getD i 0)

theorem foldl_fin_sum (p : ℕ) (f : ℕ → ℝ) :
    ((List.range p).map f).foldl (· + ·) 0 = ∑ j : Fin p, f j := by
  rw [Fin.sum_univ_eq_sum_range, ← List.sum_eq_foldl]
  induction p with
  | zero => simp
  | succ p ih => rw [List.range_succ, List.map_append, List.sum_append, ih, Finset.sum_range_succ]; simp

theorem rowOf_toCube (lb ub : List ℝ) (pts : NdArray ℝ) (n d r : ℕ) :
    rowOf (⟨[n, d], fun idx => (pts.get idx - center (lb.getD (idx.getLastD 0) 0) (ub.getD (idx.getLastD 0) 0))
        / radius (lb.getD (idx.getLastD 0) 0) (ub.getD (idx.getLastD 0) 0)⟩ : NdArray ℝ) d r
      = toCube lb ub (rowOf pts d r) := by
  apply List.ext_getElem
  · simp [rowOf, toCube]
  · intro i h1 h2
    have hi : i < d := by simpa [rowOf] using h1
    simp only [rowOf, toCube, List.getElem_map, List.getElem_range, List.length_map, List.length_range]
    rw [List.getD_eq_getElem _ _ (show i < ((List.range d).map fun i => pts.get [r, i]).length by simpa using hi)]
    simp

/-- The four arrays that `interpolate` can return. -/
theorem interpolate_ok (la : LinAlg ℝ) (hla : LinAlgOK la) (h : GridOK sg M) (hM : M ≤ 48) (f θ : NdArray ℝ) (t : List ℕ)
    (ht : t.length ≤ 1) (hθ : θ.shape = (pRows sg.inds).length :: t) (pts : NdArray ℝ) (n : ℕ)
    (hp : pts.shape = [n, sg.d]) :
    ∃ V B X : NdArray ℝ,
      V.shape = n :: t ∧ B.shape = [n, (pRows sg.inds).length] ∧ X.shape = [n, (pRows sg.inds).length] ∧
      (∀ r idx, V.get (r :: idx)
        = comb sg.inds (fun j => θ.get (j :: idx)) (toCube sg.lb sg.ub (rowOf pts sg.d r))) ∧
      (∀ r j, j < (pRows sg.inds).length →
        B.get [r, j] = chebProd (ksOf sg.inds j) (toCube sg.lb sg.ub (rowOf pts sg.d r))) ∧
      (∀ (r : Fin n) (j : Fin (pRows sg.inds).length),
        ∑ k : Fin (pRows sg.inds).length, X.get [(r : ℕ), (k : ℕ)] * basisMat sg.inds k j = B.get [(r : ℕ), (j : ℕ)]) ∧
      (∀ interp deriv_th deriv_X, SInterp.interpolate la ⟨sg, f, θ⟩ pts interp false deriv_th deriv_X
        = .ok (unwrap ((if interp then [V] else []) ++ (if deriv_th then [B] else [])
            ++ (if deriv_X then [X] else [])))) ∧
      (t = [] → ∃ G : NdArray ℝ, G.shape = [n, sg.d] ∧
        (∀ r i, i < sg.d → G.get [r, i] = (∑ j : Fin (pRows sg.inds).length,
          θ.get [(j : ℕ)] * basisDer ((pRows sg.inds).getD j []) (toCube sg.lb sg.ub (rowOf pts sg.d r)) i)
            * (2 / (sg.ub.getD i 0 - sg.lb.getD i 0))) ∧
        ∀ interp deriv_th deriv_X, SInterp.interpolate la ⟨sg, f, θ⟩ pts interp true deriv_th deriv_X
          = .ok (unwrap ((if interp then [V] else []) ++ [G] ++ (if deriv_th then [B] else [])
            ++ (if deriv_X then [X] else [])))) := by
  have hdims : dims2 pts = .ok (n, sg.d) := by rw [dims2, hp]; rfl
  set x : NdArray ℝ := ⟨[n, sg.d], fun idx =>
      (pts.get idx - center (sg.lb.getD (idx.getLastD 0) 0) (sg.ub.getD (idx.getLastD 0) 0))
        / radius (sg.lb.getD (idx.getLastD 0) 0) (sg.ub.getD (idx.getLastD 0) 0)⟩ with hx
  have hdom : dom2cube sg.lb sg.ub pts = .ok x := dom2cube_ok hp h.lbl h.ubl
  obtain ⟨B, D, eB, eD, sB, gB, sD, gD⟩ := buildBDeriv_ok (K := ℝ) sg.d M n sg.mu x (pRows sg.inds)
    (by have := h.inds.hd; omega) h.inds.top rfl (fun p hp => (h.inds.pRows_bounds hp).1)
    (fun p hp => (h.inds.pRows_bounds hp).2)
  have gB' : ∀ r j, j < (pRows sg.inds).length →
      B.get [r, j] = chebProd (ksOf sg.inds j) (toCube sg.lb sg.ub (rowOf pts sg.d r)) := by
    intro r j hj
    rw [gB r j hj, basisVal_eq, hx, rowOf_toCube]
    rfl
  have gD' : ∀ j i r, j < (pRows sg.inds).length →
      D.get [j, i, r] = basisDer ((pRows sg.inds).getD j []) (toCube sg.lb sg.ub (rowOf pts sg.d r)) i := by
    intro j i r hj
    rw [gD j i r hj, hx, rowOf_toCube]
  -- values
  set V : NdArray ℝ := ⟨n :: t, fun idx => ((List.range (pRows sg.inds).length).map fun j =>
        B.get [idx.headD 0, j] * θ.get (j :: idx.tail)).foldl (· + ·) 0⟩ with hV
  have eV : dot B θ = .ok V := by rw [dot, sB, hθ]; simp [hV]
  have gV : ∀ r idx, V.get (r :: idx)
        = comb sg.inds (fun j => θ.get (j :: idx)) (toCube sg.lb sg.ub (rowOf pts sg.d r)) := by
    intro r idx
    rw [hV, comb]
    simp only [List.headD_cons, List.tail_cons]
    rw [foldl_fin_sum]
    exact Finset.sum_congr rfl fun j _ => by rw [gB' r j j.2]
  -- derivative with respect to the data
  have tm : ∀ A : NdArray ℝ, ∀ m, toMat (transpose A) m = (toMat A m).transpose := fun A m => rfl
  have hBt : (transpose B).shape = [(pRows sg.inds).length, n] := by simp [transpose, sB]
  obtain ⟨Y, eY, sY, gY⟩ := hla.solve (transpose sg.BU) (transpose B) _ [n]
    (by simp [transpose, h.BUs]) hBt (by simp) (by rw [tm, Matrix.det_transpose]; exact (h.detL hM).2)
  obtain ⟨Z, eZ, sZ, gZ⟩ := hla.solve (transpose sg.BL) Y _ [n]
    (by simp [transpose, h.BLs]) sY (by simp) (by rw [tm, Matrix.det_transpose]; exact (h.detL hM).1)
  have eX : derivX la sg B = .ok (transpose Z) := by
    rw [derivX, eY, ok_bind, eZ, ok_bind]; rfl
  have gX : ∀ (r : Fin n) (j : Fin (pRows sg.inds).length),
        ∑ k : Fin (pRows sg.inds).length, (transpose Z).get [(r : ℕ), (k : ℕ)] * basisMat sg.inds k j
          = B.get [(r : ℕ), (j : ℕ)] := by
    intro r j
    have h1 := gY j [r] ⟨r.2, trivial⟩
    have hz : ∀ i : Fin (pRows sg.inds).length, Y.get [(i : ℕ), (r : ℕ)]
        = (Matrix.vecMul (fun k : Fin (pRows sg.inds).length => Z.get [(k : ℕ), (r : ℕ)]) (toMat sg.BL _)) i := by
      intro i
      rw [← gZ i [r] ⟨r.2, trivial⟩, Matrix.vecMul, dotProduct]
      exact Finset.sum_congr rfl fun k _ => mul_comm _ _
    simp only [hz] at h1
    rw [← h.LU]
    show (Matrix.vecMul (fun k : Fin (pRows sg.inds).length => Z.get [(k : ℕ), (r : ℕ)])
      (toMat sg.BL _ * toMat sg.BU _)) j = _
    rw [← Matrix.vecMul_vecMul]
    refine Eq.trans ?_ h1
    rw [Matrix.vecMul, dotProduct]
    exact Finset.sum_congr rfl fun k _ => mul_comm _ _
  refine ⟨V, B, transpose Z, rfl, sB, by simp [transpose, sZ], gV, gB', gX, ?_, ?_⟩
  · intro interp deriv_th deriv_X
    simp only [SInterp.interpolate, hdims, ok_bind, hdom, h.pinds]
    cases interp <;> cases deriv_th <;> cases deriv_X <;>
      simp [eB, eV, eX, attr]
  · intro ht0
    subst ht0
    set G0 : NdArray ℝ := ⟨n :: sg.d :: [], fun idx => ((List.range (pRows sg.inds).length).map fun j =>
        θ.get (j :: (idx.drop 2).reverse) * D.get [j, idx.getD 1 0, idx.getD 0 0]).foldl (· + ·) 0⟩ with hG0
    have eG0 : gradDot θ D = .ok G0 := by rw [gradDot, hθ, sD]; simp [hG0]
    set r := List.zipWith (fun u l => ((2 : ℕ) : ℝ) / (u - l)) sg.ub sg.lb with hr
    have hrl : r.length = sg.d := by rw [hr, List.length_zipWith, h.lbl, h.ubl, min_self]
    have eG : scaleLast G0 r = .ok ⟨G0.shape, fun idx => G0.get idx * r.getD (idx.getLast?.getD 0) 0⟩ := by
      rw [scaleLast]; simp [hG0, hrl]
    refine ⟨⟨G0.shape, fun idx => G0.get idx * r.getD (idx.getLast?.getD 0) 0⟩, rfl, ?_, ?_⟩
    · intro q i hi
      show G0.get [q, i] * r.getD i 0 = _
      have hri : r.getD i 0 = 2 / (sg.ub.getD i 0 - sg.lb.getD i 0) := by
        rw [List.getD_eq_getElem _ _ (by omega), List.getD_eq_getElem _ _ (by rw [h.ubl]; exact hi),
          List.getD_eq_getElem _ _ (by rw [h.lbl]; exact hi)]
        simp [hr]
      rw [hri, hG0]
      congr 1
      show ((List.range (pRows sg.inds).length).map fun j => θ.get [j] * D.get [j, i, q]).foldl (· + ·) 0 = _
      rw [foldl_fin_sum]
      exact Finset.sum_congr rfl fun j _ => by rw [gD' j i q j.2]
    · intro interp deriv_th deriv_X
      simp only [SInterp.interpolate, hdims, ok_bind, hdom, h.pinds]
      cases interp <;> cases deriv_th <;> cases deriv_X <;>
        simp only [eD, ok_bind, eV, eG0, ← hr, eG, eX, attr, pure_eq_ok, if_true, if_false, Bool.false_eq_true,
          not_true_eq_false, not_false_eq_true, and_self, and_true, and_false, false_and, true_and,
          List.append_nil, List.nil_append]

end

end Interp.Smolyak
