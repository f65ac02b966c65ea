import Verif.Proofs.Symmetry
import Verif.Proofs.Permutation
import Verif.Props.LinearValues

/-!
# Changes of variables: C83, C84, C85
-/

set_option linter.unusedSectionVars false

namespace Interp.Props
open Interp.Codegen Interp.Spec Interp.Ref

variable {F : Type} [Field F] [LinearOrder F] [IsStrictOrderedRing F] [FloorRing F]
  {k : ℕ} {G : List (GridDim F)} {C C' : NdArray F} {vec : Bool} {m : ℕ}

theorem affAxis_request (h : Request k G C vec m none) (T : List (F × F)) (hT : T.length = G.length)
    (hp : ∀ p ∈ T, 0 < p.1) : Request k (List.zipWith affAxis T G) C vec m none := by
  have hmem : ∀ g ∈ List.zipWith affAxis T G, ∃ p ∈ T, ∃ g' ∈ G, g = affAxis p g' := by
    intro g hg
    obtain ⟨i, hi, rfl⟩ := List.getElem_of_mem hg
    exact ⟨_, List.getElem_mem (by simp at hi; omega), _, List.getElem_mem (by simp at hi; omega),
      List.getElem_zipWith⟩
  refine ⟨⟨?_, fun g hg => ?_⟩, ?_, ?_, by simp⟩
  · intro h0
    apply h.grid.1
    have := congrArg List.length h0
    simp only [List.length_zipWith, List.length_nil] at this
    exact List.eq_nil_of_length_eq_zero (by omega)
  · obtain ⟨p, hp', g', hg', rfl⟩ := hmem g hg
    exact aff_valid (hp p hp') (h.grid.2 g' hg')
  · rw [h.shape]
    congr 1
    apply List.ext_getElem (by simp; omega)
    intro i h1 h2
    simp [aff_nNodes]
  · rcases h.degree with h' | ⟨h', h''⟩
    · exact Or.inl h'
    · refine Or.inr ⟨h', fun g hg => ?_⟩
      obtain ⟨p, hp', g', hg', rfl⟩ := hmem g hg
      rw [aff_gtype]; exact h'' g' hg'

/-- C83. The units of the axes are irrelevant: if the nodes of axis `i` are replaced by
`s * t + r` with `s > 0` and the coordinates of the point likewise, linear and cubic evaluation return the same
numbers, in every mode and every call form. -/
theorem C83_affine_invariance (h : Request k G C vec m none) (T : List (F × F))
    (hT : T.length = G.length) (hp : ∀ p ∈ T, 0 < p.1) (mode : String) (x : List F)
    (hx : x.length = G.length) :
    ∃ E, Returns k G C vec m none mode x E ∧
      Returns k (List.zipWith affAxis T G) C vec m none mode
        (List.zipWith (fun p t => p.1 * t + p.2) T x) E := by
  refine ⟨_, h.good.returns mode x hx, ?_⟩
  have hl : (List.zipWith affAxis T G).length = G.length := by simp; omega
  refine ((affAxis_request h T hT hp).good.returns mode _ (by simp; omega)).congr fun tail ht => ?_
  rw [rowEntry_plain k mode _ C vec m _ tail ht, rowEntry_plain k mode _ C vec m _ tail ht, hl]
  exact aff_evalMode k mode T G x _ hp h.grid.2 hT hx

/-- C84. Reversing axes: if the nodes of some axes are replaced by their opposites (in increasing
order), the data read backwards along these axes and the coordinates of the point replaced by their
opposites, linear interpolation returns the same numbers. -/
theorem C84_reflection (h : Request 1 G C vec m none) (bs : List Bool) (hbs : bs.length = G.length)
    (h' : Request 1 (List.zipWith reflIf bs G) C' vec m none)
    (hC : ∀ idx tail, InShape (gridShape G) idx → InShape (tailShape vec m none) tail →
      C'.get (reflIdx bs (gridShape G) idx ++ tail) = C.get (idx ++ tail))
    (mode : String) (x : List F) (hx : x.length = G.length) :
    ∃ E, Returns 1 G C vec m none mode x E ∧
      Returns 1 (List.zipWith reflIf bs G) C' vec m none mode (reflPoint bs x) E := by
  refine ⟨_, h.good.returns mode x hx, ?_⟩
  have hl : (List.zipWith reflIf bs G).length = G.length := by simp; omega
  refine (h'.good.returns mode _ (by simp [reflPoint]; omega)).congr fun tail ht => ?_
  rw [rowEntry_plain 1 mode _ C' vec m _ tail ht, rowEntry_plain 1 mode _ C vec m _ tail ht, hl]
  exact refl_evalMode mode bs G x _ _ h.grid.2 hbs hx fun idx hidx => hC idx tail hidx ht

theorem perm_evalMode (hk : k = 1 ∨ k = 3) {d : ℕ} (σ : Equiv.Perm (Fin d)) (G : Fin d → GridDim F)
    (hv : ∀ i, ValidAxis (G i)) (oo : Fin d → ℕ) (x : Fin d → F) (c c' : List ℕ → F)
    (hc : ∀ idx : Fin d → ℕ, (∀ i, idx i < nNodes (G i) + (k - 1)) →
      c' (List.ofFn (idx ∘ σ)) = c (List.ofFn idx)) {mode : String} :
    evalMode k mode (List.ofFn (G ∘ σ)) (List.ofFn (oo ∘ σ)) (List.ofFn (x ∘ σ)) c'
      = evalMode k mode (List.ofFn G) (List.ofFn oo) (List.ofFn x) c := by
  have key : ∀ y : Fin d → F, evalAt k (List.ofFn (G ∘ σ)) (List.ofFn (oo ∘ σ)) (List.ofFn (y ∘ σ))
      c' = evalAt k (List.ofFn G) (List.ofFn oo) (List.ofFn y)
      c := by
    intro y
    apply evalAt_perm
    intro idx hidx
    refine hc idx fun i => ?_
    have h1 := hidx i
    have h2 := (inCell_cell (hv i) (y i)).1
    rcases hk with rfl | rfl <;> simp only [nWeights] at h1 <;> simp at h1 ⊢ <;> omega
  have hcl : ∀ (G : Fin d → GridDim F) (x : Fin d → F),
      List.zipWith clampAxis (List.ofFn G) (List.ofFn x) = List.ofFn fun i => clampAxis (G i) (x i) := by
    intro G x
    apply List.ext_getElem (by simp)
    intro i h1 h2
    simp
  have hout : (List.zipWith isOutside (List.ofFn (G ∘ σ)) (List.ofFn (x ∘ σ))).any id
      = (List.zipWith isOutside (List.ofFn G) (List.ofFn x)).any id := by
    have e : ∀ (G : Fin d → GridDim F) (x : Fin d → F),
        List.zipWith isOutside (List.ofFn G) (List.ofFn x) = List.ofFn fun i => isOutside (G i) (x i) := by
      intro G x
      apply List.ext_getElem (by simp)
      intro i h1 h2
      simp
    rw [e, e, Bool.eq_iff_iff]
    simp only [List.any_eq_true, List.mem_ofFn, id]
    constructor
    · rintro ⟨b, ⟨i, rfl⟩, hb⟩
      exact ⟨_, ⟨σ i, rfl⟩, hb⟩
    · rintro ⟨b, ⟨i, rfl⟩, hb⟩
      exact ⟨_, ⟨σ.symm i, rfl⟩, by simpa using hb⟩
  have hcl' := hcl (G ∘ σ) (x ∘ σ)
  unfold evalMode
  rw [hout, hcl', hcl]
  have k1 := key fun i => clampAxis (G i) (x i)
  have k2 := key x
  rw [← k2, ← k1]
  rfl

/-- C85. The numbering of the axes is irrelevant: if axes, axes of the coefficients, coordinates and
derivative orders are renumbered by the same permutation, linear and cubic evaluation return the
same numbers, in every mode and every call form. -/
theorem C85_axis_permutation {d : ℕ} (σ : Equiv.Perm (Fin d)) (G : Fin d → GridDim F)
    (O : Option (List (Fin d → ℕ)))
    (h : Request k (List.ofFn G) C vec m (O.map (·.map List.ofFn)))
    (h' : Request k (List.ofFn (G ∘ σ)) C' vec m (O.map (·.map fun oo => List.ofFn (oo ∘ σ))))
    (hC : ∀ (idx : Fin d → ℕ) tail, (∀ i, idx i < nNodes (G i) + (k - 1)) →
      InShape (tailShape vec m none) tail →
      C'.get (List.ofFn (idx ∘ σ) ++ tail) = C.get (List.ofFn idx ++ tail))
    (mode : String) (x : Fin d → F) :
    ∃ E, Returns k (List.ofFn G) C vec m (O.map (·.map List.ofFn)) mode (List.ofFn x) E ∧
      Returns k (List.ofFn (G ∘ σ)) C' vec m (O.map (·.map fun oo => List.ofFn (oo ∘ σ))) mode
        (List.ofFn (x ∘ σ)) E := by
  have hv : ∀ i, ValidAxis (G i) := fun i => h.grid.2 _ (by simp)
  have hk : k = 1 ∨ k = 3 := h.degree.imp id (·.1)
  refine ⟨_, h.good.returns mode _ (by simp), ?_⟩
  have ht0 : tailShape vec m (O.map (·.map fun oo => List.ofFn (oo ∘ σ)))
      = tailShape vec m (O.map (·.map (List.ofFn (α := ℕ) (n := d)))) := by
    cases O <;> simp [tailShape]
  refine (h'.good.returns mode _ (by simp)).congr fun tail ht => ?_
  rw [ht0] at ht
  have core : ∀ (oo : Fin d → ℕ) (comp : List ℕ), InShape (tailShape vec m none) comp →
      evalMode k mode (List.ofFn (G ∘ σ)) (List.ofFn (oo ∘ σ)) (List.ofFn (x ∘ σ))
        (fun r => C'.get (r ++ comp))
      = evalMode k mode (List.ofFn G) (List.ofFn oo) (List.ofFn x) (fun r => C.get (r ++ comp)) :=
    fun oo comp hcomp => perm_evalMode hk σ G hv oo x _ _ fun idx hidx => hC idx comp hidx hcomp
  have hrep : ∀ G : Fin d → GridDim F, List.replicate (List.ofFn G).length 0 = List.ofFn fun _ : Fin d => 0 := by
    intro G; simp
  cases O with
  | none =>
    have hc := core (fun _ => 0) (if vec then tail.take 1 else [])
    have e : (fun _ : Fin d => 0) ∘ σ = fun _ => 0 := rfl
    rw [e] at hc
    simp only [rowEntry, Option.map_none, hrep]
    apply hc
    cases vec with
    | false => exact trivial
    | true =>
      obtain ⟨i, r, rfl, hi, -⟩ := inShape_cons_iff.1 (show InShape (m :: []) tail from ht)
      exact ⟨hi, trivial⟩
  | some os =>
    cases vec with
    | false =>
      obtain ⟨i, r, rfl, hi, -⟩ := inShape_cons_iff.1
        (show InShape ((os.map (List.ofFn (α := ℕ) (n := d))).length :: []) tail from ht)
      have hi' : i < os.length := by simpa using hi
      have := core os[i] [] trivial
      simpa [rowEntry, hi'] using this
    | true =>
      obtain ⟨i, r, rfl, hi, hr⟩ := inShape_cons_iff.1
        (show InShape (m :: (os.map (List.ofFn (α := ℕ) (n := d))).length :: []) tail from ht)
      obtain ⟨i', r', rfl, hi', -⟩ := inShape_cons_iff.1 hr
      have hi'' : i' < os.length := by simpa using hi'
      have := core os[i'] [i] ⟨hi, trivial⟩
      simpa [rowEntry, hi''] using this

/-! ## The hypotheses are satisfiable -/

section Examples

/-- A plane grid with one axis of each kind. -/
def symG : List (GridDim ℚ) := [.uniform 0 2 3, .array [1, 2, 4]]

def symC : NdArray ℚ := ⟨[3, 3], fun idx => (idx.headD 0 : ℚ) ^ 2 + 5 * (idx.getLastD 0 : ℚ) ^ 3⟩

theorem sym_request : Request 1 symG symC false 0 none := by
  refine ⟨⟨by simp [symG], ?_⟩, rfl, Or.inl rfl, by simp⟩
  intro g hg
  rcases List.mem_cons.1 hg with rfl | hg
  · exact ⟨by norm_num, by norm_num⟩
  · rcases List.mem_cons.1 hg with rfl | hg
    · refine ⟨by simp, by norm_num⟩
    · simp at hg

/-- C83 with both kinds of axes, different units on each. -/
example : ∃ E, Returns 1 symG symC false 0 none "linear" [1 / 2, 3] E ∧
    Returns 1 (List.zipWith affAxis [(2, 1), (1 / 3, -7)] symG) symC false 0 none "linear" [2, -6] E := by
  have := C83_affine_invariance sym_request [(2, 1), (1 / 3, -7)] rfl (by norm_num) "linear" [1 / 2, 3] rfl
  norm_num at this
  exact this

/-- C84: the second axis reversed. -/
example : ∃ E, Returns 1 symG symC false 0 none "linear" [1 / 2, 3] E ∧
    Returns 1 (List.zipWith reflIf [false, true] symG)
      ⟨[3, 3], fun idx => symC.get [idx.headD 0, 2 - idx.getLastD 0]⟩ false 0 none "linear" [1 / 2, -3] E := by
  refine C84_reflection sym_request [false, true] rfl ?_ ?_ "linear" [1 / 2, 3] rfl
  · refine ⟨⟨by simp [symG], ?_⟩, rfl, Or.inl rfl, by simp⟩
    intro g hg
    have hs : ∀ g ∈ symG, ValidAxis g := sym_request.grid.2
    rcases List.mem_cons.1 hg with rfl | hg
    · exact hs (.uniform 0 2 3) (by simp [symG])
    · rcases List.mem_cons.1 hg with rfl | hg
      · exact refl_valid (hs (.array [1, 2, 4]) (by simp [symG]))
      · simp at hg
  · intro idx tail hidx ht
    obtain ⟨i, r, rfl, hi, hr⟩ := inShape_cons_iff.1 hidx
    obtain ⟨j, r, rfl, hj, hr⟩ := inShape_cons_iff.1 hr
    obtain rfl := inShape_nil_iff.1 hr
    obtain rfl := inShape_nil_iff.1 ht
    have hj' : j < 3 := hj
    have h2 : 2 - (2 - j) = j := by omega
    simp [symG, reflIdx, gridShape, nNodes, h2]

/-- C85: the two axes exchanged, with the gradient. -/
example : ∃ E, Returns 1 symG symC false 0 (some [[1, 0], [0, 1]]) "linear" [1 / 2, 3] E ∧
    Returns 1 symG.reverse ⟨[3, 3], fun idx => symC.get idx.reverse⟩ false 0 (some [[0, 1], [1, 0]]) "linear"
      [3, 1 / 2] E := by
  have := C85_axis_permutation (k := 1) (vec := false) (m := 0) (C := symC)
    (C' := ⟨[3, 3], fun idx => symC.get idx.reverse⟩) (Equiv.swap (0 : Fin 2) 1)
    (fun i => symG[i]) (some [![1, 0], ![0, 1]])
    ⟨by simpa [symG] using sym_request.grid, rfl, Or.inl rfl, by simp⟩
    ⟨?_, by simp [symG, nNodes], Or.inl rfl, by simp⟩ ?_ "linear" ![1 / 2, 3]
  · simpa [symG] using this
  · refine ⟨by simp, fun g hg => sym_request.grid.2 g ?_⟩
    obtain ⟨i, rfl⟩ := (List.mem_ofFn' _ _).1 hg
    simp
  · intro idx tail hidx ht
    obtain rfl := inShape_nil_iff.1 ht
    simp

end Examples

end Interp.Props
