import Verif.Proofs.SrcRun
import Verif.Proofs.ExceptLemmas
import Mathlib.Data.List.Basic

/-!
# Executing source texts: views and loops
-/

namespace Interp.Spec.PySrc
open Interp

set_option linter.unusedSectionVars false

variable {K : Type}

/-! ### Subarrays with fixed last indices -/

/-- The array whose part with the last indices `post` is `S`, and which is `A` elsewhere; `t` are the lengths of the last axes. -/
def fill (A : NdArray K) (t post : List ℕ) (S : NdArray K) : NdArray K :=
  ⟨S.shape ++ t, fun idx => if post <:+ idx then S.get (idx.take (idx.length - post.length)) else A.get idx⟩

theorem fill_get (A : NdArray K) (t post : List ℕ) (S : NdArray K) (idx : List ℕ) :
    (fill A t post S).get (idx ++ post) = S.get idx := by
  simp [fill]

theorem fill_nil (A S : NdArray K) : fill A [] [] S = S := by
  cases S; simp [fill]

theorem wrapIndices_length : ∀ {sh : List ℕ} {idx : List ℤ} {js : List ℕ}, wrapIndices sh idx = some js →
    idx.length = sh.length
  | [], [], _, _ => rfl
  | n :: sh, i :: idx, js, h => by
    simp only [wrapIndices] at h
    rcases h1 : wrapIndex n i with _ | j <;> rcases h2 : wrapIndices sh idx with _ | js' <;> rw [h1, h2] at h
    · cases h
    · cases h
    · cases h
    · simp [wrapIndices_length h2]
  | [], _ :: _, _, h => by cases h
  | _ :: _, [], _, h => by cases h

theorem wrapIndices_inShape : ∀ {t post : List ℕ}, InShape t post → wrapIndices t (post.map Int.ofNat) = some post
  | [], [], _ => rfl
  | n :: t, i :: post, h => by
    simp only [List.map_cons, wrapIndices]
    have h1 : wrapIndex n (Int.ofNat i) = some i := by simp [wrapIndex, h.1]
    rw [wrapIndices_inShape h.2, h1]
  | [], _ :: _, h => h.elim
  | _ :: _, [], h => h.elim

theorem wrapIndices_append {t post : List ℕ} (hp : InShape t post) : ∀ (s : List ℕ) (idx : List ℤ),
    wrapIndices (s ++ t) (idx ++ post.map Int.ofNat) = (wrapIndices s idx).map (· ++ post)
  | [], [] => by simp [wrapIndices_inShape hp, wrapIndices]
  | n :: s, i :: idx => by
    simp only [List.cons_append, wrapIndices, wrapIndices_append hp s idx]
    rcases wrapIndex n i with _ | j <;> rcases wrapIndices s idx with _ | js <;> rfl
  | [], i :: idx => by
    have hl := inShape_length hp
    rw [show wrapIndices [] (i :: idx) = none from rfl, Option.map_none]
    rcases h : wrapIndices ([] ++ t) (i :: idx ++ post.map Int.ofNat) with _ | js
    · rfl
    · have := wrapIndices_length h
      simp at this; omega
  | n :: s, [] => by
    have hl := inShape_length hp
    rw [show wrapIndices (n :: s) [] = none from rfl, Option.map_none]
    rcases h : wrapIndices (n :: s ++ t) ([] ++ post.map Int.ofNat) with _ | js
    · rfl
    · have := wrapIndices_length h
      simp at this; omega

theorem fill_read {A : NdArray K} {t post : List ℕ} (hp : InShape t post) (S : NdArray K) (idx : List ℤ) :
    (fill A t post S).read (idx ++ post.map Int.ofNat) = S.read idx := by
  unfold NdArray.read
  rw [show (fill A t post S).shape = S.shape ++ t from rfl, wrapIndices_append hp]
  rcases wrapIndices S.shape idx with _ | js
  · rfl
  · simp [fill_get]

theorem fill_write {A : NdArray K} {t post : List ℕ} (hp : InShape t post) (S : NdArray K) (idx : List ℤ) (x : K) :
    (fill A t post S).write (idx ++ post.map Int.ofNat) x = S.write idx x >>= fun S => pure (fill A t post S) := by
  unfold NdArray.write
  rw [show (fill A t post S).shape = S.shape ++ t from rfl, wrapIndices_append hp]
  rcases wrapIndices S.shape idx with _ | js
  · rfl
  · simp only [Option.map_some, pure_bind]
    congr 1
    simp only [fill]
    congr 1
    funext k
    by_cases hk : post <:+ k
    · obtain ⟨f, rfl⟩ := hk
      simp
    · rw [if_neg (by rintro rfl; exact hk (List.suffix_append _ _))]
      simp [hk]

theorem fill_slice (A : NdArray K) (t post : List ℕ) (S T : NdArray K) (ix n : ℕ) (hT : T.shape ++ [n] = S.shape) :
    fill (fill A t post S) (n :: t) (ix :: post) T = fill A t post (S.setLast ix T) := by
  simp only [fill, NdArray.setLast]
  rw [← hT]
  congr 1
  · simp
  · funext k
    by_cases hk : ix :: post <:+ k
    · obtain ⟨f, rfl⟩ := hk
      have h2 : post <:+ f ++ ix :: post := ⟨f ++ [ix], by simp⟩
      have h3 : (f ++ ix :: post).take ((f ++ ix :: post).length - post.length) = f ++ [ix] := by
        rw [show f ++ ix :: post = (f ++ [ix]) ++ post by simp, List.length_append, Nat.add_sub_cancel,
          List.take_append_of_le_length (by simp)]
        simp
      rw [if_pos h2, h3]
      simp [h2]
    · by_cases h2 : post <:+ k
      · obtain ⟨f, rfl⟩ := h2
        have h3 : f.getLast? ≠ some ix := by
          intro h
          obtain ⟨g, rfl⟩ := List.getLast?_eq_some_iff.mp h
          exact hk ⟨g, by simp⟩
        simp [hk, h3]
      · simp [hk, h2]

theorem fill_same (A : NdArray K) (t post : List ℕ) (S : NdArray K) (ix n : ℕ) (hT : S.shape.dropLast ++ [n] = S.shape) :
    fill (fill A t post S) (n :: t) (ix :: post) (S.sliceLast ix) = fill A t post S := by
  rw [fill_slice A t post S _ ix n hT]
  congr 1
  simp only [NdArray.setLast, NdArray.sliceLast]
  congr 1
  funext k
  by_cases h : k.getLast? = some ix
  · obtain ⟨g, rfl⟩ := List.getLast?_eq_some_iff.mp h
    simp
  · simp [h]

/-! ### Lines -/

/-- The indices `pre`, a free one, and the indices `post`. -/
def linePat (l : Line) (post : List ℕ) : List (Option ℤ) :=
  l.pre.map (fun i => some (Int.ofNat i)) ++ none :: (l.post ++ post).map (fun i => some (Int.ofNat i))

theorem refine_nil (pat : List (Option ℤ)) : refine pat [] = some pat := by
  cases pat <;> simp [refine]
theorem refine_some (z : ℤ) (pat : List (Option ℤ)) (ss : List Ix) :
    refine (some z :: pat) ss = (refine pat ss).map (some z :: ·) := by
  cases ss
  · simp [refine_nil]
  · rfl
theorem refine_at (z : ℤ) (pat : List (Option ℤ)) (ss : List Ix) :
    refine (none :: pat) (.at z :: ss) = (refine pat ss).map (some z :: ·) := rfl
theorem refine_full (pat : List (Option ℤ)) (ss : List Ix) :
    refine (none :: pat) (.full :: ss) = (refine pat ss).map (none :: ·) := rfl

theorem refine_somes (pre : List ℕ) (pat : List (Option ℤ)) (ss : List Ix) :
    refine (pre.map (fun i => some (Int.ofNat i)) ++ pat) ss =
      (refine pat ss).map (pre.map (fun i => some (Int.ofNat i)) ++ ·) := by
  induction pre with
  | nil => simp
  | cons p pre ih =>
    rw [List.map_cons, List.cons_append, refine_some, ih, Option.map_map]
    rfl

theorem complete_somes (l : List ℕ) (pat : List (Option ℤ)) :
    complete (l.map (fun i => some (Int.ofNat i)) ++ pat) = (complete pat).map (l.map Int.ofNat ++ ·) := by
  induction l with
  | nil => simp
  | cons p pre ih =>
    rw [List.map_cons, List.cons_append, complete, ih, Option.map_map]
    rfl

theorem complete_somes' (l : List ℕ) : complete (l.map fun i => some (Int.ofNat i)) = some (l.map Int.ofNat) := by
  have := complete_somes l []
  simpa [complete] using this

theorem linePat_refine (l : Line) (post : List ℕ) (z : ℤ) :
    refine (linePat l post) [.at z] = some (l.pre.map (fun i => some (Int.ofNat i)) ++
      some z :: (l.post ++ post).map (fun i => some (Int.ofNat i))) := by
  rw [linePat, refine_somes, refine_at, refine_nil]
  rfl

theorem linePat_complete (l : Line) (post : List ℕ) (z : ℤ) :
    complete (l.pre.map (fun i => some (Int.ofNat i)) ++ some z :: (l.post ++ post).map (fun i => some (Int.ofNat i))) =
      some (l.pos z ++ post.map Int.ofNat) := by
  rw [complete_somes, complete, complete_somes']
  simp [Line.pos]

theorem viewShape_somes (pre : List ℕ) (pat : List (Option ℤ)) (sh : List ℕ) :
    viewShape (pre.map (fun i => some (Int.ofNat i)) ++ pat) sh = viewShape pat (sh.drop pre.length) := by
  induction pre generalizing sh with
  | nil => simp
  | cons p pre ih =>
    cases sh with
    | nil =>
      simp only [List.drop_nil]
      rw [List.map_cons, List.cons_append]
      cases pat <;> simp [viewShape]
    | cons n sh =>
      rw [List.map_cons, List.cons_append, viewShape, ih]
      rfl

theorem viewShape_somes' (l : List ℕ) (sh : List ℕ) : viewShape (l.map fun i => some (Int.ofNat i)) sh = [] := by
  have := viewShape_somes l [] sh
  simpa [viewShape] using this

theorem linePat_shape (l : Line) (post : List ℕ) {S : NdArray K} (hl : l.pre.length < S.shape.length) (t : List ℕ) :
    viewShape (linePat l post) (S.shape ++ t) = [l.len S] := by
  rw [linePat, viewShape_somes, List.drop_append_of_le_length hl.le, List.drop_eq_getElem_cons hl, List.cons_append,
    viewShape, viewShape_somes', Line.len, List.getD_eq_getElem?_getD, List.getElem?_eq_getElem hl]
  rfl

/-! ### Two arrays of the heap -/

/-- The heap with array `rb` replaced by `B` and array `rc` replaced by `A`. -/
def two (h : Heap K) (rb rc : ℕ) (B A : NdArray K) : Heap K := (h.set rb B).set rc A

theorem two_b {h : Heap K} {rb rc : ℕ} (hb : rb < h.length) (hne : rc ≠ rb) (B A : NdArray K) :
    (two h rb rc B A)[rb]? = some B := by
  rw [two, List.getElem?_set_ne hne, List.getElem?_set_self hb]
theorem two_c {h : Heap K} {rb rc : ℕ} (hc : rc < h.length) (B A : NdArray K) :
    (two h rb rc B A)[rc]? = some A := by
  rw [two, List.getElem?_set_self (by simpa using hc)]
theorem two_ne {h : Heap K} {rb rc r : ℕ} (hb : rb ≠ r) (hc : rc ≠ r) (B A : NdArray K) :
    (two h rb rc B A)[r]? = h[r]? := by
  rw [two, List.getElem?_set_ne hc, List.getElem?_set_ne hb]
theorem two_set_b {h : Heap K} {rb rc : ℕ} (hne : rc ≠ rb) (B A B' : NdArray K) :
    (two h rb rc B A).set rb B' = two h rb rc B' A := by
  rw [two, List.set_comm _ _ hne, List.set_set, two]
theorem two_set_c {h : Heap K} {rb rc : ℕ} (B A A' : NdArray K) :
    (two h rb rc B A).set rc A' = two h rb rc B A' := by
  rw [two, List.set_set, two]

/-! ### Loops -/

/-- A property of the result, if there is one. -/
def Keeps {α : Type} (P : α → Prop) (x : Py α) : Prop := ∀ a, x = .ok a → P a

theorem Keeps.pure {α : Type} {P : α → Prop} {a : α} (h : P a) : Keeps P (Pure.pure a : Py α) := by
  intro b hb; cases hb; exact h
theorem Keeps.throw {α : Type} {P : α → Prop} {e : Err} : Keeps P (.error e : Py α) := by
  intro b hb; cases hb
theorem Keeps.bind {α β : Type} {P : α → Prop} {Q : β → Prop} {x : Py α} {f : α → Py β} (h : Keeps P x)
    (h' : ∀ a, P a → Keeps Q (f a)) : Keeps Q (x >>= f) := by
  rcases x with e | a
  · intro b hb; cases hb
  · exact h' a (h a rfl)
theorem Keeps.any {α : Type} {x : Py α} : Keeps (fun _ => True) x := fun _ _ => trivial
theorem Keeps.loop {α S : Type} {P : S → Prop} {l : List α} {f : α → S → Py S} {s : S} (hs : P s)
    (h : ∀ a ∈ l, ∀ s, P s → Keeps P (f a s)) : Keeps P (pyFor l f s) := by
  induction l generalizing s with
  | nil => exact Keeps.pure hs
  | cons a l ih =>
    simp only [pyFor, List.foldlM_cons]
    exact Keeps.bind (h a (by simp) s hs) fun s' hs' => ih hs' fun b hb => h b (by simp [hb])

theorem Sim.keep {α β : Type} {x : Py α} {y : Py β} {Q : α → β → Prop} {P : α → Prop} (h : Sim x y Q) (hP : Keeps P x) :
    Sim x y fun a b => Q a b ∧ P a := by
  rcases x with e | a <;> rcases y with e' | b
  · exact h
  · exact h.elim
  · exact h.elim
  · exact ⟨h, hP a rfl⟩

variable [Add K] [Sub K] [Mul K] [Div K] [Neg K] [Zero K] [One K] [NatCast K] [IntCast K]
  [LT K] [DecidableLT K] [LE K] [DecidableLE K] [BEq K] [IntFloor K] [Interp.Smolyak.Trig K]

theorem Agree.trans {n1 n2 : List String} {env env' env'' : Env K} {x : String} {v : Val K} (h : Agree n1 env env')
    (h' : Agree n2 (env'.set x v) env'') (hx : x ∈ n1) (hn : ∀ s ∈ n2, s ∈ n1) : Agree n1 env env'' := by
  intro s hs
  rw [h' s fun h => hs (hn s h), set_apply, if_neg (by rintro rfl; exact hs hx)]
  exact h s hs

theorem rangeStep_one (a b : ℤ) : rangeStep a b 1 = rangeZ a b := by
  simp [rangeStep, rangeZ]
theorem rangeStep_down (a b : ℤ) : rangeStep a b (-1) = rangeDownZ a b := by
  simp only [rangeStep, rangeDownZ]
  rw [if_neg (by omega)]
  have h : (a - b - -1 - 1) / - -1 = a - b := by
    rw [show a - b - -1 - 1 = a - b by omega]; simp
  rw [h]
  refine List.map_congr_left fun i _ => ?_
  simp only [Int.ofNat_eq_natCast]; omega

/-- `for x in range(m): body` with rest. -/
theorem for_sim {S α : Type} {W : World K} {x m : String} {n : ℕ} {body rest : Block} {names : List String}
    {f : ℕ → S → Py S} {g : S → Py α} {R : S → Heap K → Prop} {Q : α → Out K × Heap K → Prop} {env : Env K} {h : Heap K} {s : S}
    (hr : look W env "range" = pure (.builtin .range)) (hc : ∀ args, W.call (.builtin .range) args = builtin .range args)
    (hm : env m = some (.int n)) (hR : R s h)
    (hbody : ∀ i < n, ∀ s h env', Agree names env env' → R s h →
      Sim (f i s) (exec W body (env'.set x (.int i)) h) (Next fun s env'' h => Agree names env env'' ∧ R s h))
    (hrest : ∀ s h env', Agree names env env' → R s h → Sim (g s) (exec W rest env' h) Q) :
    Sim (pyFor (List.range n) f s >>= g)
      (exec W (.for (.name x) (.call (.name "range") (.cons (.name m) .nil)) body rest) env h) Q := by
  have h1 : rangeStep 0 (n : ℤ) 1 = (List.range n).map fun (i : ℕ) => (i : ℤ) := by simp [rangeStep]
  have h2 : look W env m = pure (.int n) := by rw [look, hm]
  rw [exec_for]
  pysimp [hr, hc, h2, h1, List.map_map]
  rw [bind_run]
  refine Sim.bind (Q := Next fun s env'' h => Agree names env env'' ∧ R s h) ?_ ?_
  · refine forLoop_sim (toVal := (Val.int ∘ fun i : ℕ => (i : ℤ))) ?_ ⟨Agree.refl _ _, hR⟩
    rintro i hi s env' h' ⟨ha, hR⟩
    exact hbody i (List.mem_range.mp hi) s h' env' ha hR
  · rintro s' ⟨o, h'⟩ ⟨env', rfl, ha, hR⟩
    exact hrest s' h' env' ha hR

theorem for_sim_nil {S : Type} {W : World K} {x m : String} {n : ℕ} {body : Block} {names : List String}
    {f : ℕ → S → Py S} {R : S → Heap K → Prop} {env : Env K} {h : Heap K} {s : S}
    (hr : look W env "range" = pure (.builtin .range)) (hc : ∀ args, W.call (.builtin .range) args = builtin .range args)
    (hm : env m = some (.int n)) (hR : R s h)
    (hbody : ∀ i < n, ∀ s h env', Agree names env env' → R s h →
      Sim (f i s) (exec W body (env'.set x (.int i)) h) (Next fun s env'' h => Agree names env env'' ∧ R s h)) :
    Sim (pyFor (List.range n) f s)
      (exec W (.for (.name x) (.call (.name "range") (.cons (.name m) .nil)) body .nil) env h)
      (Next fun s env'' h => Agree names env env'' ∧ R s h) := by
  rw [← bind_pure (pyFor (List.range n) f s)]
  exact for_sim hr hc hm hR hbody fun s h env' ha hR => Sim.pure ⟨env', rfl, ha, hR⟩

end Interp.Spec.PySrc
