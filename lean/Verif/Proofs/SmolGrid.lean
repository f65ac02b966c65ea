import Verif.Spec.Smolyak
import Verif.Proofs.SmolUni
import Verif.Proofs.SmolBasis
import Mathlib.LinearAlgebra.Matrix.ToLinearEquiv

/-!
# The Smolyak grid and the basis matrix
-/

set_option linter.unusedSectionVars false
set_option linter.unusedSimpArgs false

namespace Interp.Smolyak
open Interp.Spec
open Interp.CompletePoly (transpose dot rangeN)

/-! ### Products -/

theorem mem_iterProduct {α : Type} : ∀ (ls : List (List α)) (x : List α),
    x ∈ iterProduct ls ↔ List.Forall₂ (fun t l => t ∈ l) x ls
  | [], x => by simp [iterProduct]
  | l :: ls, x => by
    rw [iterProduct, List.mem_flatMap]
    constructor
    · rintro ⟨t, ht, h⟩
      rw [List.mem_map] at h
      obtain ⟨y, hy, rfl⟩ := h
      exact .cons ht ((mem_iterProduct ls y).mp hy)
    · intro h
      cases h with
      | cons ht h => exact ⟨_, ht, List.mem_map.mpr ⟨_, (mem_iterProduct ls _).mpr h, rfl⟩⟩

theorem length_iterProduct {α : Type} : ∀ ls : List (List α),
    (iterProduct ls).length = (ls.map List.length).prod
  | [] => rfl
  | l :: ls => by
    rw [iterProduct, List.length_flatMap]
    simp [length_iterProduct ls]

theorem nodup_iterProduct {α : Type} : ∀ ls : List (List α), (∀ l ∈ ls, l.Nodup) → (iterProduct ls).Nodup
  | [], _ => by simp [iterProduct]
  | l :: ls, h => by
    rw [iterProduct, List.nodup_flatMap]
    refine ⟨fun t _ => ?_, ?_⟩
    · exact (nodup_iterProduct ls fun l' h' => h l' (by simp [h'])).map fun a b e => (List.cons.inj e).2
    · refine (h l (by simp)).imp fun {a b} hab => ?_
      intro x hx hx'
      rw [List.mem_map] at hx hx'
      obtain ⟨y, _, rfl⟩ := hx
      obtain ⟨z, _, e⟩ := hx'
      exact hab (List.cons.inj e).1.symm

/-! ### Index vectors -/

/-- The maximum of `mu`. -/
theorem mu_top (d : ℕ) (mu : Mu) (hd : 2 ≤ d) (hv : ValidMu d mu) :
    ∃ M : ℕ, 1 ≤ M ∧ maxMu d mu = .ok (M : ℤ) ∧ muMax mu = .ok (M : ℤ) ∧
      (∀ b, MuLe b mu ↔ (M : ℤ) ≤ b) ∧
      ∀ el, Admissible d mu el ↔ el.length = d ∧ (∀ e ∈ el, 1 ≤ e) ∧ el.sum ≤ d + M ∧
        permFilter mu el = true := by
  cases mu with
  | iso m =>
    have hm : 1 ≤ m := hv
    refine ⟨m.toNat, by omega, ?_, ?_, ?_, ?_⟩
    · rw [maxMu, pure_eq_ok, Int.toNat_of_nonneg (by omega)]
    · rw [muMax, pure_eq_ok, Int.toNat_of_nonneg (by omega)]
    · intro b; rw [MuLe, Int.toNat_of_nonneg (by omega)]
    · intro el; rw [Admissible, Int.toNat_of_nonneg (by omega)]; simp [permFilter]
  | aniso ms =>
    obtain ⟨hl, hm⟩ := hv
    have hne : ms ≠ [] := by intro h; subst h; simp at hl; omega
    obtain ⟨M, h1, h2, h3⟩ := pyMaxList_ok ms hne
    have hM := hm M h2
    have e : ((M.toNat : ℕ) : ℤ) = M := Int.toNat_of_nonneg (by omega)
    refine ⟨M.toNat, by omega, ?_, ?_, ?_, ?_⟩
    · rw [maxMu, if_neg (by simp [hl]), h1, e]
    · rw [muMax, h1, e]
    · intro b; rw [MuLe, e]
      exact ⟨fun h => h M h2, fun h m hm => (h3 m hm).trans h⟩
    · intro el
      rw [Admissible, e]
      constructor
      · rintro ⟨a1, a2, ⟨m, hm, a3⟩, a4⟩
        exact ⟨a1, a2, by have := h3 m hm; omega, (allLe_iff el ms (by omega)).mpr a4⟩
      · rintro ⟨a1, a2, a3, a4⟩
        exact ⟨a1, a2, ⟨M, h2, a3⟩, (allLe_iff el ms (by omega)).mp a4⟩

theorem admissible_ones (d : ℕ) (mu : Mu) (hd : 2 ≤ d) (hv : ValidMu d mu) :
    Admissible d mu (List.replicate d 1) := by
  cases mu with
  | iso m =>
    have hm : 1 ≤ m := hv
    exact ⟨by simp, by simp, by rw [sum_ones]; omega⟩
  | aniso ms =>
    obtain ⟨hl, hm⟩ := hv
    refine ⟨by simp, by simp, ?_, ?_⟩
    · cases ms with
      | nil => simp at hl; omega
      | cons m ms => exact ⟨m, by simp, by rw [sum_ones]; have := hm m (by simp); omega⟩
    · rw [← hl]
      clear hl hd
      induction ms with
      | nil => exact .nil
      | cons m ms ih =>
        exact .cons (by have := hm m (by simp); omega) (ih fun m' h' => hm m' (by simp [h']))

theorem inds_ok (d : ℕ) (mu : Mu) (hd : 2 ≤ d) (hv : ValidMu d mu) :
    ∃ inds, smolInds d mu = .ok inds ∧ inds.Nodup ∧ ∀ el, el ∈ inds ↔ Admissible d mu el := by
  obtain ⟨M, _, hM, _, _, hadm⟩ := mu_top d mu hd hv
  obtain ⟨l, e, hn, hl⟩ := smolInds_ok d mu M hd hM
  refine ⟨_, e, ?_, ?_⟩
  · rw [List.nodup_append]
    refine ⟨hn, by simp, ?_⟩
    intro a ha b hb hab
    rw [List.mem_singleton] at hb
    subst hb; subst hab
    have := ((hl _).mp ha).2.2.1
    rw [sum_ones] at this
    omega
  · intro el
    rw [List.mem_append, hl, List.mem_singleton]
    constructor
    · rintro (⟨a1, a2, a3, a4, a5⟩ | rfl)
      · exact (hadm el).mpr ⟨a1, a2, a4, a5⟩
      · exact admissible_ones d mu hd hv
    · intro h
      obtain ⟨a1, a2, a3, a4⟩ := (hadm el).mp h
      have := sum_ge_length el a2
      rcases lt_or_ge (d : ℤ) el.sum with h' | h'
      · exact Or.inl ⟨a1, a2, h', a3, a4⟩
      · right
        have := eq_ones el a2 (by omega)
        rw [this, a1]

/-- Entries of admissible vectors. -/
theorem admissible_entry (d : ℕ) (mu : Mu) (hd : 2 ≤ d) (hv : ValidMu d mu) (M : ℕ)
    (hM : muMax mu = .ok (M : ℤ)) (el : List ℤ) (h : Admissible d mu el) :
    el.length = d ∧ ∀ e ∈ el, 1 ≤ e ∧ e ≤ M + 1 := by
  obtain ⟨M', _, _, hM', _, hadm⟩ := mu_top d mu hd hv
  rw [hM] at hM'
  have : (M : ℤ) = M' := by injection hM'
  obtain ⟨a1, a2, a3, _⟩ := (hadm el).mp h
  refine ⟨a1, fun e he => ⟨a2 e he, ?_⟩⟩
  have := entry_le el a2 e he
  omega

theorem sum_le_of_forall₂ : ∀ {l l' : List ℤ}, List.Forall₂ (fun a b => 1 ≤ a ∧ a ≤ b) l' l →
    l'.length = l.length ∧ l'.sum ≤ l.sum ∧ ∀ e ∈ l', 1 ≤ e
  | _, _, .nil => by simp
  | _, _, .cons h t => by
    obtain ⟨h1, h2, h3⟩ := sum_le_of_forall₂ t
    refine ⟨by simp [h1], by simp only [List.sum_cons]; have := h.2; omega, ?_⟩
    intro e he
    rcases List.mem_cons.mp he with rfl | he
    · exact h.1
    · exact h3 e he

theorem admissible_down (d : ℕ) (mu : Mu) {l l' : List ℤ}
    (h : List.Forall₂ (fun a b => 1 ≤ a ∧ a ≤ b) l' l) (hl : Admissible d mu l) : Admissible d mu l' := by
  obtain ⟨h1, h2, h3⟩ := sum_le_of_forall₂ h
  cases mu with
  | iso m =>
    obtain ⟨a1, a2, a3⟩ := hl
    exact ⟨by omega, h3, by omega⟩
  | aniso ms =>
    obtain ⟨a1, a2, ⟨m, hm, a3⟩, a4⟩ := hl
    refine ⟨by omega, h3, ⟨m, hm, by omega⟩, ?_⟩
    clear a1 a2 a3 hm h1 h2 h3
    induction h generalizing ms with
    | nil => cases a4; exact .nil
    | cons hh ht ih =>
      cases a4 with
      | cons b bs => exact .cons (by have := hh.2; omega) (ih _ bs)

/-! ### Rows of the grid, basis functions -/

/-- Rows of the grid on the cube. -/
noncomputable def gridRows (inds : List (List ℤ)) : List (List ℝ) :=
  inds.flatMap fun el => iterProduct (el.map fun e => aLevel e.toNat)

/-- Basis functions. -/
def pRows (inds : List (List ℤ)) : List (List ℤ) :=
  inds.flatMap fun el => iterProduct (el.map fun e => phiLevel e.toNat)

section
variable {d : ℕ} {mu : Mu} {M : ℕ} {inds : List (List ℤ)}

/-- Everything that is known about the indices. -/
structure IndsOK (d : ℕ) (mu : Mu) (M : ℕ) (inds : List (List ℤ)) : Prop where
  hd : 2 ≤ d
  valid : ValidMu d mu
  pos : 1 ≤ M
  top : muMax mu = .ok (M : ℤ)
  nodup : inds.Nodup
  mem : ∀ el, el ∈ inds ↔ Admissible d mu el

theorem IndsOK.entry (h : IndsOK d mu M inds) {el : List ℤ} (hel : el ∈ inds) :
    el.length = d ∧ ∀ e ∈ el, 1 ≤ e ∧ e ≤ M + 1 :=
  admissible_entry d mu h.hd h.valid M h.top el ((h.mem el).mp hel)

theorem exists_inds (d : ℕ) (mu : Mu) (hd : 2 ≤ d) (hv : ValidMu d mu) :
    ∃ M inds, smolInds d mu = .ok inds ∧ IndsOK d mu M inds ∧ ∀ b, MuLe b mu ↔ (M : ℤ) ≤ b := by
  obtain ⟨M, h1, _, h2, h3, _⟩ := mu_top d mu hd hv
  obtain ⟨inds, e, hn, hm⟩ := inds_ok d mu hd hv
  exact ⟨M, inds, e, ⟨hd, hv, h1, h2, hn, hm⟩, h3⟩

theorem buildGrid_ok (h : IndsOK d mu M inds) :
    buildGrid d mu (some inds) = .ok (ofRows d (gridRows inds)) := by
  rw [buildGrid]
  simp only [indsOr, pure_eq_ok, ok_bind, h.top]
  rw [mapM_ok _ fun el => iterProduct (el.map fun e => aLevel e.toNat)]
  · rfl
  · intro el hel
    rw [mapM_ok _ fun e => aLevel e.toNat]
    · rfl
    · intro e he
      have := (h.entry hel).2 e he
      have h1 := aChain_lookup (M + 1) e.toNat (by omega) (by omega) (by have := h.pos; omega)
      rw [show ((M : ℤ) + 1).toNat = M + 1 by omega]
      rwa [Int.toNat_of_nonneg (by omega)] at h1

theorem polyInds_ok (h : IndsOK d mu M inds) : polyInds d mu (some inds) = .ok (pRows inds) := by
  rw [polyInds]
  simp only [indsOr, pure_eq_ok, ok_bind, h.top]
  rw [mapM_ok _ fun el => iterProduct (el.map fun e => phiLevel e.toNat)]
  · rfl
  · intro el hel
    rw [mapM_ok _ fun e => phiLevel e.toNat]
    · rfl
    · intro e he
      have := (h.entry hel).2 e he
      have h1 := phiChain_lookup (M + 1) e.toNat (by omega) (by omega) (by have := h.pos; omega)
      rw [Int.toNat_of_nonneg (by omega)] at h1
      exact_mod_cast h1

theorem forall₂_toNat {α : Type} (P : α → ℕ → Prop) : ∀ (x : List α) (el : List ℤ),
    List.Forall₂ (fun t l => P t l) x (el.map Int.toNat) ↔ List.Forall₂ (fun t e => P t e.toNat) x el := by
  intro x el
  rw [List.forall₂_map_right_iff]

theorem mem_gridRows (x : List ℝ) : x ∈ gridRows inds ↔
    ∃ el ∈ inds, List.Forall₂ (fun t e => t ∈ aLevel e.toNat) x el := by
  rw [gridRows, List.mem_flatMap]
  simp only [mem_iterProduct, List.forall₂_map_right_iff]

theorem mem_pRows (p : List ℤ) : p ∈ pRows inds ↔
    ∃ el ∈ inds, List.Forall₂ (fun c e => c ∈ phiLevel e.toNat) p el := by
  rw [pRows, List.mem_flatMap]
  simp only [mem_iterProduct, List.forall₂_map_right_iff]

/-- Levels of a list of degrees. -/
def levs (ks : List ℕ) : List ℤ := ks.map fun k => (lev k : ℤ)

theorem phi_levs : ∀ (p el : List ℤ), (∀ e ∈ el, 1 ≤ e) →
    (List.Forall₂ (fun c e => c ∈ phiLevel e.toNat) p el ↔ (∀ c ∈ p, 1 ≤ c) ∧ el = levs (degs p))
  | [], [], _ => by simp [levs, degs]
  | [], _ :: _, _ => by simp [levs, degs]
  | _ :: _, [], _ => by simp [levs, degs]
  | c :: p, e :: el, h => by
    have he := h e (by simp)
    rw [List.forall₂_cons, phi_levs p el fun e' h' => h e' (by simp [h']), mem_phiLevel _ (by omega)]
    simp only [levs, degs, List.map_cons, List.cons.injEq, List.mem_cons, forall_eq_or_imp]
    constructor
    · rintro ⟨⟨a1, a2⟩, a3, a4⟩
      exact ⟨⟨a1, a3⟩, by omega, a4⟩
    · rintro ⟨⟨a1, a3⟩, a2, a4⟩
      exact ⟨⟨a1, by omega⟩, a3, a4⟩

theorem IndsOK.mem_pRows (h : IndsOK d mu M inds) (p : List ℤ) :
    p ∈ pRows inds ↔ (∀ c ∈ p, 1 ≤ c) ∧ Admissible d mu (levs (degs p)) := by
  rw [Interp.Smolyak.mem_pRows]
  constructor
  · rintro ⟨el, hel, hf⟩
    rw [phi_levs p el fun e he => ((h.entry hel).2 e he).1] at hf
    exact ⟨hf.1, hf.2 ▸ (h.mem el).mp hel⟩
  · rintro ⟨h1, h2⟩
    refine ⟨_, (h.mem _).mpr h2, (phi_levs p _ ?_).mpr ⟨h1, rfl⟩⟩
    intro e he
    rw [levs, List.mem_map] at he
    obtain ⟨k, _, rfl⟩ := he
    have := lev_pos k
    omega

theorem IndsOK.pRows_bounds (h : IndsOK d mu M inds) {p : List ℤ} (hp : p ∈ pRows inds) :
    p.length = d ∧ ∀ c ∈ p, 1 ≤ c ∧ c ≤ (mSize (M + 1) : ℤ) := by
  obtain ⟨h1, h2⟩ := (h.mem_pRows p).mp hp
  obtain ⟨h3, h4⟩ := h.entry ((h.mem _).mpr h2)
  refine ⟨by simpa [levs, degs] using h3, fun c hc => ⟨h1 c hc, ?_⟩⟩
  have := (h4 (lev (c - 1).toNat) (by simp only [levs, degs, List.map_map, List.mem_map]; exact ⟨c, hc, rfl⟩)).2
  have h5 := (lev_le_iff (c - 1).toNat (M + 1)).mp (by omega)
  omega

theorem IndsOK.pRows_nodup (h : IndsOK d mu M inds) : (pRows inds).Nodup := by
  rw [pRows, List.nodup_flatMap]
  refine ⟨fun el hel => nodup_iterProduct _ ?_, ?_⟩
  · intro l hl
    rw [List.mem_map] at hl
    obtain ⟨e, _, rfl⟩ := hl
    exact phiLevel_nodup _
  · refine List.Pairwise.imp_of_mem ?_ h.nodup
    intro a b ha hb hab p hp hp'
    rw [mem_iterProduct, List.forall₂_map_right_iff] at hp hp'
    rw [phi_levs p _ fun e he => ((h.entry ha).2 e he).1] at hp
    rw [phi_levs p _ fun e he => ((h.entry hb).2 e he).1] at hp'
    exact hab (hp.2.trans hp'.2.symm)

theorem aLevel_levels : ∀ (x : List ℝ) (a b : List ℤ), (∀ e ∈ a, 1 ≤ e ∧ e ≤ 49) → (∀ e ∈ b, 1 ≤ e ∧ e ≤ 49) →
    List.Forall₂ (fun t e => t ∈ aLevel e.toNat) x a → List.Forall₂ (fun t e => t ∈ aLevel e.toNat) x b →
    a = b
  | [], _, _, _, _, .nil, .nil => rfl
  | t :: x, e :: a, e' :: b, ha, hb, .cons h1 h2, .cons h1' h2' => by
    have he := ha e (by simp)
    have he' := hb e' (by simp)
    have := aLevel_disjoint e.toNat e'.toNat (by omega) (by omega) (by omega) (by omega) t h1 h1'
    rw [aLevel_levels x a b (fun e h => ha e (by simp [h])) (fun e h => hb e (by simp [h])) h2 h2']
    congr 1
    omega

theorem IndsOK.gridRows_nodup (h : IndsOK d mu M inds) (hM : M ≤ 48) : (gridRows inds).Nodup := by
  rw [gridRows, List.nodup_flatMap]
  refine ⟨fun el hel => nodup_iterProduct _ ?_, ?_⟩
  · intro l hl
    rw [List.mem_map] at hl
    obtain ⟨e, he, rfl⟩ := hl
    exact aLevel_nodup _ (by have := (h.entry hel).2 e he; omega)
  · refine List.Pairwise.imp_of_mem ?_ h.nodup
    intro a b ha hb hab p hp hp'
    rw [mem_iterProduct, List.forall₂_map_right_iff] at hp hp'
    refine hab (aLevel_levels p a b ?_ ?_ hp hp')
    · intro e he; have := (h.entry ha).2 e he; omega
    · intro e he; have := (h.entry hb).2 e he; omega

theorem IndsOK.length_eq (h : IndsOK d mu M inds) : (gridRows inds).length = (pRows inds).length := by
  rw [gridRows, pRows, List.length_flatMap, List.length_flatMap]
  congr 1
  refine List.map_congr_left fun el hel => ?_
  rw [length_iterProduct, length_iterProduct, List.map_map, List.map_map]
  congr 1
  refine List.map_congr_left fun e he => ?_
  have := (h.entry hel).2 e he
  show (aLevel e.toNat).length = (phiLevel e.toNat).length
  rw [aLevel_length _ (by omega), phiLevel_length]

theorem gridRows_length_row (h : IndsOK d mu M inds) {x : List ℝ} (hx : x ∈ gridRows inds) : x.length = d := by
  rw [mem_gridRows] at hx
  obtain ⟨el, hel, hf⟩ := hx
  rw [hf.length_eq, (h.entry hel).1]

/-! ### Basis values over the reals -/

theorem chebRec_T (x : ℝ) : ∀ k, chebRec (1 : ℝ) x k = chebT k x
  | 0 => by simp [chebRec, chebT]
  | 1 => by simp [chebRec, chebT]
  | k + 2 => by
    rw [chebRec, chebRec_T x (k + 1), chebRec_T x k, chebT, chebT, chebT]
    push_cast
    rw [Polynomial.Chebyshev.T_add_two]
    simp

theorem chebRec_U (x : ℝ) : ∀ k, chebRec ((2 : ℕ) : ℝ) x k = (Polynomial.Chebyshev.U ℝ (k : ℤ)).eval x
  | 0 => by simp [chebRec]
  | 1 => by simp [chebRec, mul_comm]
  | k + 2 => by
    rw [chebRec, chebRec_U x (k + 1), chebRec_U x k]
    push_cast
    rw [Polynomial.Chebyshev.U_add_two]
    simp

theorem reduceMul_prod (l : List ℝ) : reduceMul l = l.prod := by
  cases l with
  | nil => rfl
  | cons a l =>
    rw [reduceMul, List.prod_cons]
    induction l generalizing a with
    | nil => simp
    | cons b l ih => rw [List.foldl_cons, ih, List.prod_cons, mul_assoc]

theorem chebProd_zip : ∀ (ks : List ℕ) (x : List ℝ), chebProd ks x = (List.zipWith chebT ks x).prod
  | [], _ => by simp [chebProd]
  | _ :: _, [] => by simp [chebProd]
  | k :: ks, t :: x => by rw [chebProd, chebProd_zip ks x]; simp

theorem basisVal_eq (p : List ℤ) (x : List ℝ) : basisVal p x = chebProd (degs p) x := by
  rw [basisVal, reduceMul_prod, chebProd_zip, degs, List.zipWith_map_left]
  simp only [chebRec_T]

/-! ### The basis matrix -/

theorem evalP_sum (Mx : ℕ) (x : List ℝ) (n : ℕ) (v : Fin n → ℝ) (ks : Fin n → List ℕ)
    (hl : ∀ j, (ks j).length = x.length) (hb : ∀ j, ∀ k ∈ ks j, k < Mx) (s : Finset (Fin n)) :
    evalP Mx (fun q => ∑ j ∈ s, if q = ks j then v j else 0) x = ∑ j ∈ s, v j * chebProd (ks j) x := by
  induction s using Finset.induction_on with
  | empty => simp [evalP_zero]
  | insert a s ha ih =>
    simp only [Finset.sum_insert ha]
    rw [evalP_add, ih, evalP_single Mx (v a) x (ks a) (hl a) (hb a)]

/-- Degrees of the basis function number `j`. -/
def ksOf (inds : List (List ℤ)) (j : ℕ) : List ℕ := degs ((pRows inds).getD j [])

theorem IndsOK.ksOf_spec (h : IndsOK d mu M inds) {j : ℕ} (hj : j < (pRows inds).length) :
    (ksOf inds j).length = d ∧ (∀ k ∈ ksOf inds j, k < mSize (M + 1)) ∧
      Admissible d mu (levs (ksOf inds j)) := by
  have hm : (pRows inds).getD j [] ∈ pRows inds := by simp [List.getD, hj]
  obtain ⟨h1, h2⟩ := h.pRows_bounds hm
  refine ⟨by simpa [ksOf, degs] using h1, ?_, ((h.mem_pRows _).mp hm).2⟩
  intro k hk
  rw [ksOf, degs, List.mem_map] at hk
  obtain ⟨c, hc, rfl⟩ := hk
  have := h2 c hc
  omega

theorem IndsOK.ksOf_inj (h : IndsOK d mu M inds) {i j : ℕ} (hi : i < (pRows inds).length)
    (hj : j < (pRows inds).length) (e : ksOf inds i = ksOf inds j) : i = j := by
  have key : ∀ p q : List ℤ, (∀ c ∈ p, 1 ≤ c) → (∀ c ∈ q, 1 ≤ c) → degs p = degs q → p = q := by
    intro p
    induction p with
    | nil => intro q _ _ e; cases q with
      | nil => rfl
      | cons c q => simp [degs] at e
    | cons c p ih => intro q hp hq e; cases q with
      | nil => simp [degs] at e
      | cons c' q =>
        simp only [degs, List.map_cons, List.cons.injEq] at e
        have h1 := hp c (by simp)
        have h2 := hq c' (by simp)
        rw [ih q (fun c h => hp c (by simp [h])) (fun c h => hq c (by simp [h])) e.2]
        congr 1
        omega
  have hmi : (pRows inds).getD i [] ∈ pRows inds := by simp [List.getD, hi]
  have hmj : (pRows inds).getD j [] ∈ pRows inds := by simp [List.getD, hj]
  have := key _ _ ((h.mem_pRows _).mp hmi).1 ((h.mem_pRows _).mp hmj).1 e
  rw [List.getD_eq_getElem _ _ hi, List.getD_eq_getElem _ _ hj] at this
  exact (List.Nodup.getElem_inj_iff h.pRows_nodup).mp this

/-- Every admissible list of degrees belongs to one basis function. -/
theorem IndsOK.exists_ksOf (h : IndsOK d mu M inds) (ks : List ℕ) (hk : Admissible d mu (levs ks)) :
    ∃ j < (pRows inds).length, ksOf inds j = ks := by
  have hm : (ks.map fun k : ℕ => (k : ℤ) + 1) ∈ pRows inds := by
    rw [h.mem_pRows]
    refine ⟨?_, ?_⟩
    · intro c hc
      rw [List.mem_map] at hc
      obtain ⟨k, _, rfl⟩ := hc
      omega
    · rw [degs, List.map_map]
      convert hk
      conv_rhs => rw [← List.map_id ks]
      exact List.map_congr_left fun k _ => by simp
  obtain ⟨j, hj, e⟩ := List.mem_iff_getElem.mp hm
  refine ⟨j, hj, ?_⟩
  rw [ksOf, List.getD_eq_getElem _ _ hj, e, degs, List.map_map]
  conv_rhs => rw [← List.map_id ks]
  exact List.map_congr_left fun k _ => by simp

/-- A combination of basis functions that vanishes on the grid is zero. -/
theorem IndsOK.unisolvent (h : IndsOK d mu M inds) (hM : M ≤ 48) (v : Fin (pRows inds).length → ℝ)
    (hv : ∀ x ∈ gridRows inds, ∑ j, v j * chebProd (ksOf inds j) x = 0) : v = 0 := by
  have key := uniD (mSize (M + 1)) (M + 1) (by omega) (fun n hn => mSize_mono.monotone hn) d
    (fun l => Admissible d mu (l.map fun i : ℕ => (i : ℤ)))
    (fun q => ∑ j : Fin (pRows inds).length, if q = ksOf inds j then v j else 0) ?_ ?_ ?_ ?_
  · funext j
    have h1 := h.ksOf_spec j.2
    have := key (ksOf inds j) h1.1 h1.2.1
    rw [Finset.sum_eq_single j] at this
    · simpa using this
    · intro i _ hij
      rw [if_neg]
      intro e
      exact hij (Fin.ext (h.ksOf_inj j.2 i.2 e)).symm
    · intro hj; exact absurd (Finset.mem_univ j) hj
  · intro l l' hf hl
    refine admissible_down d mu ?_ hl
    rw [List.forall₂_map_left_iff, List.forall₂_map_right_iff]
    exact hf.imp fun a b h => ⟨by exact_mod_cast h.1, by exact_mod_cast h.2⟩
  · intro l hl e he
    have := (h.entry ((h.mem _).mpr hl)).2 (e : ℤ) (List.mem_map.mpr ⟨e, he, rfl⟩)
    omega
  · intro ks _ hne
    obtain ⟨j, _, hj⟩ := Finset.exists_ne_zero_of_sum_ne_zero hne
    have hkj : ks = ksOf inds j := by
      by_contra hc
      simp [hc] at hj
    have := (h.ksOf_spec j.2).2.2
    rw [← hkj] at this
    rw [List.map_map]
    exact this
  · intro l x hl hI hx
    have hxl : x.length = d := by rw [hx.length_eq, hl]
    rw [evalP_sum _ x _ v (fun j => ksOf inds j) (fun j => by rw [(h.ksOf_spec j.2).1, hxl])
      (fun j => (h.ksOf_spec j.2).2.1)]
    refine hv x ((mem_gridRows x).mpr ⟨_, (h.mem _).mpr hI, ?_⟩)
    rw [List.forall₂_map_right_iff]
    simpa using hx

/-- Matrix of the values of the basis functions at the grid points. -/
noncomputable def basisMat (inds : List (List ℤ)) :
    Matrix (Fin (pRows inds).length) (Fin (pRows inds).length) ℝ :=
  fun r j => chebProd (ksOf inds j) ((gridRows inds).getD r [])

theorem IndsOK.basisMat_det (h : IndsOK d mu M inds) (hM : M ≤ 48) : (basisMat inds).det ≠ 0 := by
  intro hdet
  obtain ⟨v, hv0, hv⟩ := Matrix.exists_mulVec_eq_zero_iff.mpr hdet
  apply hv0
  refine h.unisolvent hM v fun x hx => ?_
  obtain ⟨r, hr, e⟩ := List.mem_iff_getElem.mp hx
  have := congrFun hv ⟨r, by rw [← h.length_eq]; exact hr⟩
  simp only [Matrix.mulVec, dotProduct, basisMat, Pi.zero_apply] at this
  rw [← this]
  refine Finset.sum_congr rfl fun j _ => ?_
  rw [List.getD_eq_getElem _ _ hr, e, mul_comm]

end

end Interp.Smolyak
