import Verif.Proofs.FilterExact

/-! The entry points of filtering. -/

set_option linter.unusedSectionVars false
set_option linter.unusedSimpArgs false

namespace Interp.Filter
open Interp.FilterRef Interp.Spec Interp.Codegen

section A
variable {K : Type} [Add K] [Sub K] [Mul K] [Div K] [Neg K] [Zero K] [One K] [NatCast K]
  [IntCast K] [LT K] [DecidableLT K] [BEq K]

/-- The spacings the code really uses (in two dimensions, the first one twice). -/
def stepsUsed : List K → List K
  | [δ0, _] => [δ0, δ0]
  | l => l

theorem filterScalar_ok {G : List (GridDim K)} {δs : List K} {ms : List ℕ} {D C : NdArray K}
    (hd : List.Forall₂ (fun g δ => dinv g = .ok δ) G δs) (hl : ms.length = G.length)
    (h1 : 1 ≤ G.length) (h4 : G.length ≤ 4) (hs : Solvable ((stepsUsed δs).zip ms))
    (hD : D.shape = ms) (hC : C.shape = ms.map (· + 2)) :
    ∃ C', filterScalar G D C = .ok C' ∧ Filtered ((stepsUsed δs).zip ms) D C' := by
  match G, δs, ms, hd, hl, h1, h4 with
  | [], _, _, _, _, h1, _ => simp at h1
  | [g0], [δ0], [m0], .cons h0 .nil, _, _, _ => exact filter1_ok h0 hs hD hC
  | [g0, g1], [δ0, δ1], [m0, m1], .cons h0 (.cons h1 .nil), _, _, _ =>
    exact filter2_ok h0 h1 hs hD hC
  | [g0, g1, g2], [δ0, δ1, δ2], [m0, m1, m2], .cons h0 (.cons h1 (.cons h2 .nil)), _, _, _ =>
    exact filter3_ok h0 h1 h2 hs hD hC
  | [g0, g1, g2, g3], [δ0, δ1, δ2, δ3], [m0, m1, m2, m3],
      .cons h0 (.cons h1 (.cons h2 (.cons h3 .nil))), _, _, _ =>
    exact filter4_ok h0 h1 h2 h3 hs hD hC

theorem stepsUsed_length (l : List K) : (stepsUsed l).length = l.length := by
  unfold stepsUsed; split <;> rfl

theorem csh_zip {l : List K} {ms : List ℕ} (h : l.length = ms.length) :
    csh (l.zip ms) = ms.map (· + 2) := by
  have : (l.zip ms).map Prod.snd = ms := List.map_snd_zip (by omega)
  calc csh (l.zip ms) = ((l.zip ms).map Prod.snd).map (· + 2) := by simp [csh, Function.comp_def]
    _ = _ := by rw [this]

theorem dsh_zip {l : List K} {ms : List ℕ} (h : l.length = ms.length) : dsh (l.zip ms) = ms :=
  List.map_snd_zip (by omega)

/-- Any number of trailing dimensions. -/
theorem filterNd_ok {G : List (GridDim K)} {δs : List K} {ms : List ℕ}
    (hd : List.Forall₂ (fun g δ => dinv g = .ok δ) G δs) (hl : ms.length = G.length)
    (h1 : 1 ≤ G.length) (h4 : G.length ≤ 4) (hs : Solvable ((stepsUsed δs).zip ms)) :
    ∀ (extra : ℕ) (es : List ℕ) (D C : NdArray K), es.length = extra → D.shape = ms ++ es →
      C.shape = ms.map (· + 2) ++ es →
      ∃ C', filterNd G extra D C = .ok C' ∧ C'.shape = C.shape ∧
        ∀ idx, InShape C.shape idx → C'.get idx = tfilt ((stepsUsed δs).zip ms) D.get idx := by
  have hlen : (stepsUsed δs).length = ms.length := by
    rw [stepsUsed_length, hl, hd.length_eq]
  intro extra
  induction extra with
  | zero =>
    intro es D C he hD hC
    obtain rfl : es = [] := by simpa using he
    simp only [List.append_nil] at hD hC
    obtain ⟨C', e, s, f⟩ := filterScalar_ok hd hl h1 h4 hs hD hC
    rw [csh_zip hlen] at s f
    exact ⟨C', e, by rw [s, hC], by rw [hC]; exact f⟩
  | succ extra ih =>
    intro es D C he hD hC
    rcases List.eq_nil_or_concat es with rfl | ⟨es', m, rfl⟩
    · simp at he
    rw [List.concat_eq_append] at *
    have hlast : C.shape.getLastD 0 = m := by rw [hC]; simp [List.getLastD_eq_getLast?]
    have hlastD : D.shape.getLastD 0 = m := by rw [hD]; simp [List.getLastD_eq_getLast?]
    rw [filterNd, hlast, hlastD]
    let P : ℕ → NdArray K → Prop := fun k C' => C'.shape = C.shape ∧
      ∀ idx i, i < k → InShape (ms.map (· + 2) ++ es') idx →
        C'.get (idx ++ [i]) = tfilt ((stepsUsed δs).zip ms) D.get (idx ++ [i])
    obtain ⟨C', e, s, f⟩ := pyFor_range m (fun ix C => do
      if m ≤ ix then throw .outOfBounds
      let S ← filterNd G extra (D.sliceLast ix) (C.sliceLast ix)
      pure (C.setLast ix S)) P C ⟨rfl, fun idx i hi => by omega⟩ (by
      intro ix hix C1 hC1
      obtain ⟨s1, f1⟩ := hC1
      have hsl : (C1.sliceLast ix).shape = ms.map (· + 2) ++ es' := by
        simp only [NdArray.sliceLast]
        rw [s1, hC, ← List.append_assoc, List.dropLast_concat]
      obtain ⟨S, eS, sS, fS⟩ := ih es' (D.sliceLast ix) (C1.sliceLast ix) (by simpa using he)
        (by
          simp only [NdArray.sliceLast]
          rw [hD, ← List.append_assoc, List.dropLast_concat])
        hsl
      simp only []
      rw [if_neg (by omega), eS, ok_bind]
      refine ⟨_, rfl, s1, ?_⟩
      intro idx i hi hidx
      simp only [NdArray.setLast, List.getLast?_append, List.getLast?_singleton, Option.some_or,
        Option.some.injEq, List.dropLast_concat]
      by_cases hii : i = ix
      · subst hii
        rw [if_pos rfl, fS idx (by rw [hsl]; exact hidx)]
        rw [hsl] at fS
        have hi' : ∃ r c, idx = r ++ c ∧ r.length = ((stepsUsed δs).zip ms).length := by
          refine ⟨idx.take ms.length, idx.drop ms.length, (List.take_append_drop _ _).symm, ?_⟩
          have := inShape_length hidx
          simp only [List.length_append, List.length_map] at this
          simp [List.length_zip, hlen]
          omega
        obtain ⟨r, c, rfl, hr⟩ := hi'
        clear fS
        have app : ∀ (as : List (K × ℕ)) (D : List ℕ → K) (r c : List ℕ), r.length = as.length →
            tfilt as D (r ++ c) = tfilt as (fun s => D (s ++ c)) r := by
          intro as
          induction as with
          | nil => intro D r c hr; cases r <;> simp_all [tfilt]
          | cons a as ih =>
            intro D r c hr
            cases r with
            | nil => simp at hr
            | cons i r =>
              simp only [List.cons_append, tfilt]
              exact ih _ r c (by simpa using hr)
        rw [app _ _ r c hr, List.append_assoc, app _ _ r _ hr]
        simp only [NdArray.sliceLast, List.append_assoc]
      · rw [if_neg hii]
        exact f1 idx i (by omega) hidx)
    refine ⟨C', e, s, ?_⟩
    intro idx hidx
    rw [hC, ← List.append_assoc] at hidx
    obtain ⟨r, i, rfl, h1, h2⟩ : ∃ r i, idx = r ++ [i] ∧ InShape (ms.map (· + 2) ++ es') r ∧ i < m := by
      generalize ms.map (· + 2) ++ es' = sh at hidx
      clear e f s
      induction sh generalizing idx with
      | nil =>
        cases idx with
        | nil => exact hidx.elim
        | cons i pre =>
          obtain ⟨h1, h2⟩ := hidx
          rw [inShape_nil_iff] at h2
          subst h2
          exact ⟨[], i, rfl, trivial, h1⟩
      | cons n sh ih =>
        cases idx with
        | nil => exact hidx.elim
        | cons j pre =>
          obtain ⟨h1, h2⟩ := hidx
          obtain ⟨p, i, rfl, h3, h4⟩ := ih pre h2
          exact ⟨j :: p, i, rfl, ⟨h1, h3⟩, h4⟩
    exact f r i h2 h1

theorem filterInto_ok {G : List (GridDim K)} {δs : List K} {ms es : List ℕ} {D C : NdArray K}
    (hd : List.Forall₂ (fun g δ => dinv g = .ok δ) G δs) (hl : ms.length = G.length)
    (h1 : 1 ≤ G.length) (h4 : G.length ≤ 4) (hs : Solvable ((stepsUsed δs).zip ms))
    (hD : D.shape = ms ++ es) (hC : C.shape = ms.map (· + 2) ++ es) :
    ∃ C', filterInto G D C = .ok C' ∧ C'.shape = C.shape ∧
      ∀ idx, InShape C.shape idx → C'.get idx = tfilt ((stepsUsed δs).zip ms) D.get idx := by
  obtain ⟨C', e, h⟩ := filterNd_ok hd hl h1 h4 hs es.length es D C rfl hD hC
  refine ⟨C', ?_, h⟩
  rw [filterInto, if_neg, hD]
  · rw [show (ms ++ es).length - G.length = es.length by simp [hl]]
    exact e
  · rw [hD, hC]; simp only [List.length_append, List.length_map, hl]; omega

theorem filterCubic_ok {G : List (GridDim K)} {δs : List K} {ms es : List ℕ} {D : NdArray K}
    (hd : List.Forall₂ (fun g δ => dinv g = .ok δ) G δs) (hl : ms.length = G.length)
    (h1 : 1 ≤ G.length) (h4 : G.length ≤ 4) (hs : Solvable ((stepsUsed δs).zip ms))
    (hD : D.shape = ms ++ es) (he : es.length ≤ 1) :
    filterCubic G D = filterInto G D (.zeros (ms.map (· + 2) ++ es)) := by
  simp only [filterCubic]
  rw [if_neg (show ¬(4 < G.length ∨ G.length = 0) by omega)]
  rcases Nat.eq_zero_or_pos es.length with h0 | h0
  · obtain rfl : es = [] := by simpa using h0
    rw [if_pos (by rw [hD]; simp [hl]), hD]
    simp
  · rw [if_neg (by rw [hD, List.length_append, hl]; omega),
      if_pos (by rw [hD, List.length_append, hl]; omega), hD]
    simp [← hl]

end A

variable {F : Type} [Field F] [LinearOrder F] [IsStrictOrderedRing F] [FloorRing F]

/-- Axes with a normalised spacing. -/
def unitAxes (G : List (GridDim F)) : List (F × ℕ) := G.map fun g => (1, nNodes g)

theorem unitAxes_match {G : List (GridDim F)} (hv : ∀ g ∈ G, ValidAxis g)
    (hu : ∀ g ∈ G, g.gtype = .uniform) : Match G (unitAxes G) := by
  induction G with
  | nil => exact .nil
  | cons g G ih =>
    refine .cons ⟨?_, hv g (by simp), rfl⟩ (ih (fun g h => hv g (by simp [h])) (fun g h => hu g (by simp [h])))
    have := hu g (by simp)
    cases g with
    | uniform a b n => exact ⟨a, b, n, rfl⟩
    | array gc => simp [GridDim.gtype] at this

theorem unitAxes_good {G : List (GridDim F)} (hv : ∀ g ∈ G, ValidAxis g) : Good (unitAxes G) := by
  intro a ha
  obtain ⟨g, hg, rfl⟩ := List.mem_map.mp ha
  exact ⟨one_ne_zero, ValidAxis.two_le (hv g hg)⟩

theorem csh_unitAxes (G : List (GridDim F)) :
    csh (unitAxes G) = G.map fun g => nNodes g + 2 := by
  simp [csh, unitAxes, Function.comp_def]

theorem dsh_unitAxes (G : List (GridDim F)) : dsh (unitAxes G) = gridShape G := by
  simp [dsh, unitAxes, gridShape, Function.comp_def]

/-- The spacings computed by the code. -/
theorem dinv_valid {G : List (GridDim F)} (hv : ∀ g ∈ G, ValidAxis g)
    (hu : ∀ g ∈ G, g.gtype = .uniform) :
    ∃ δs : List F, List.Forall₂ (fun g δ => dinv g = .ok δ) G δs ∧ ∀ δ ∈ δs, δ ≠ 0 := by
  induction G with
  | nil => exact ⟨[], .nil, by simp⟩
  | cons g G ih =>
    obtain ⟨δs, h1, h2⟩ := ih (fun g h => hv g (by simp [h])) (fun g h => hu g (by simp [h]))
    have hg := hu g (by simp)
    cases g with
    | array gc => simp [GridDim.gtype] at hg
    | uniform a b n =>
      obtain ⟨hab, hn⟩ : a < b ∧ 2 ≤ n := hv (.uniform a b n) (by simp)
      have hn0 : (n : F) ≠ 0 := by
        have : n ≠ 0 := by omega
        exact_mod_cast this
      refine ⟨(b - a) / (n : F) :: δs, .cons ?_ h1, ?_⟩
      · simp [dinv, pyDiv, hn0]
      · intro δ hδ
        rcases List.mem_cons.mp hδ with rfl | hδ
        · exact div_ne_zero (by linarith) hn0
        · exact h2 δ hδ

theorem stepsUsed_mem {l : List F} {δ : F} (h : δ ∈ stepsUsed l) : δ ∈ l := by
  unfold stepsUsed at h
  split at h
  · simp at h; simp [h]
  · exact h

theorem good_zip {δs : List F} {ms : List ℕ} (h1 : ∀ δ ∈ δs, δ ≠ 0) (h2 : ∀ m ∈ ms, 2 ≤ m) :
    Good (δs.zip ms) :=
  fun a ha => ⟨h1 _ (List.of_mem_zip ha).1, h2 _ (List.of_mem_zip ha).2⟩

theorem gridShape_two_le {G : List (GridDim F)} (hv : ∀ g ∈ G, ValidAxis g) :
    ∀ m ∈ gridShape G, 2 ≤ m := by
  intro m hm
  obtain ⟨g, hg, rfl⟩ := List.mem_map.mp hm
  exact ValidAxis.two_le (hv g hg)

/-- Closed form of the coefficients. -/
def coefs (G : List (GridDim F)) (D : List ℕ → F) (idx : List ℕ) : F := tfilt (unitAxes G) D idx

section
variable {G : List (GridDim F)} {D : NdArray F} {vec : Bool} {m : ℕ}

theorem _root_.Interp.Spec.FilterRequest.into (h : FilterRequest G D vec m) (C : NdArray F)
    (hC : C.shape = coefsShape G vec m) :
    ∃ C', filterInto G D C = .ok C' ∧ C'.shape = coefsShape G vec m ∧
      ∀ idx, InShape (coefsShape G vec m) idx → C'.get idx = coefs G D.get idx := by
  obtain ⟨δs, hd, hne⟩ := dinv_valid h.grid.2 h.uniform
  have hlen : δs.length = (gridShape G).length := by rw [← hd.length_eq]; simp [gridShape]
  have hgood : Good ((stepsUsed δs).zip (gridShape G)) :=
    good_zip (fun δ hδ => hne δ (stepsUsed_mem hδ)) (gridShape_two_le h.grid.2)
  have hsh : coefsShape G vec m = (gridShape G).map (· + 2) ++ (if vec then [m] else []) := by
    simp [coefsShape, gridShape, Function.comp_def]
  obtain ⟨C', e, s, f⟩ := filterInto_ok hd (by simp [gridShape])
    (List.length_pos_iff.mpr h.grid.1) h.dim hgood.solvable h.shape (by rw [hC, hsh])
  refine ⟨C', e, by rw [s, hC], ?_⟩
  intro idx hidx
  rw [f idx (by rw [hC]; exact hidx)]
  have hl' : (stepsUsed δs).length = (gridShape G).length := by rw [stepsUsed_length, hlen]
  refine tfilt_congr (es := if vec then [m] else []) hgood (unitAxes_good h.grid.2) ?_
    (fun _ _ => rfl) ?_
  · rw [dsh_zip hl', dsh_unitAxes]
  · rw [csh_zip hl', ← hsh]; exact hidx

theorem _root_.Interp.Spec.FilterRequest.alloc (h : FilterRequest G D vec m) :
    ∃ C, filterCubic G D = .ok C ∧ C.shape = coefsShape G vec m ∧
      ∀ idx, InShape (coefsShape G vec m) idx → C.get idx = coefs G D.get idx := by
  obtain ⟨δs, hd, hne⟩ := dinv_valid h.grid.2 h.uniform
  have hgood : Good ((stepsUsed δs).zip (gridShape G)) :=
    good_zip (fun δ hδ => hne δ (stepsUsed_mem hδ)) (gridShape_two_le h.grid.2)
  have hsh : coefsShape G vec m = (gridShape G).map (· + 2) ++ (if vec then [m] else []) := by
    simp [coefsShape, gridShape, Function.comp_def]
  rw [filterCubic_ok hd (by simp [gridShape]) (List.length_pos_iff.mpr h.grid.1) h.dim
    hgood.solvable h.shape (by cases vec <;> simp), ← hsh]
  exact h.into _ rfl

theorem _root_.Interp.Spec.FilterRequest.match (h : FilterRequest G D vec m) : Match G (unitAxes G) :=
  unitAxes_match h.grid.2 h.uniform

theorem _root_.Interp.Spec.FilterRequest.good (h : FilterRequest G D vec m) : Good (unitAxes G) :=
  unitAxes_good h.grid.2

/-- The coefficients can be handed over to `eval_spline`. -/
theorem _root_.Interp.Spec.FilterRequest.request (h : FilterRequest G D vec m) {C : NdArray F}
    (hC : C.shape = coefsShape G vec m) : Request 3 G C vec m none :=
  ⟨h.grid, hC, Or.inr ⟨rfl, h.uniform⟩, fun os e => by simp at e⟩

/-- Evaluating filtered coefficients only depends on the closed form. -/
theorem _root_.Interp.Spec.FilterRequest.eval_eq (h : FilterRequest G D vec m) {C : NdArray F}
    (hC : ∀ idx, InShape (coefsShape G vec m) idx → C.get idx = coefs G D.get idx)
    (oo : List ℕ) (x : List F) (comp : List ℕ) (ho : oo.length = G.length)
    (hx : x.length = G.length) (hc : InShape (if vec then [m] else []) comp) :
    Ref.evalAt 3 G oo x (fun r => C.get (r ++ comp))
      = Ref.evalAt 3 G oo x (tfilt (unitAxes G) (fun r => D.get (r ++ comp))) := by
  refine evalAt_congr 3 (Or.inr rfl) G oo x _ _ h.grid.2 ho hx ?_
  intro idx hidx
  rw [h.match.coefShape] at hidx
  rw [hC _ (by rw [coefsShape, ← csh_unitAxes]; exact inShape_append hidx hc), coefs,
    tfilt_append]
  have := inShape_length hidx
  simpa [csh] using this

end

end Interp.Filter
